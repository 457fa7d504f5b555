import Verif.Props.WindLaw
import Mathlib.Probability.Moments.Variance

/-!
# C161: spread, averages and daily maxima of random wind speeds
-/

set_option linter.unusedSectionVars false

namespace Melodist
open Spec MeasureTheory ProbabilityTheory

theorem gamma_sixteen : Real.Gamma 1.6 < 0.91 := by
  have hc := Real.convexOn_Gamma
  have hs1 : Real.sqrt Real.pi < 1.774 := by
    rw [Real.sqrt_lt' (by norm_num)]
    have := Real.pi_lt_d4
    norm_num at this ⊢
    linarith
  have := hc.2 (show (3 / 2 : ℝ) ∈ Set.Ioi 0 by norm_num) (show (2 : ℝ) ∈ Set.Ioi 0 by norm_num) (show (0 : ℝ) ≤ 4 / 5 by norm_num)
      (show (0 : ℝ) ≤ 1 / 5 by norm_num) (by norm_num)
  rw [show (4 / 5 : ℝ) • (3 / 2 : ℝ) + (1 / 5 : ℝ) • (2 : ℝ) = 1.6 by norm_num [smul_eq_mul], gamma_three_halves, Real.Gamma_two] at this
  simp only [smul_eq_mul] at this
  norm_num at this hs1 ⊢
  linarith

variable {Ω : Type} [MeasurableSpace Ω] {P : Measure Ω} {U : Nat → Ω → ℝ}

/-- **C161 (moments).**  The expected `p`-th power of an hourly value on a day with mean `m` is `Γ(1 + 0.3 p)·m ^ p`. -/
theorem C161_moments (hU : UniformDraws P U) (api : PandasApi) (d0 : Int) (n : Nat) (v : Nat → XF ℝ) {k : Nat} (hk : k < 24 * n) {m : ℝ}
    (hm : v (k / 24) = .fin m) (p : Nat) :
    Integrable (fun ω => cellNumber (randomWind U api d0 n v k ω) ^ p) P ∧
    ∫ ω, cellNumber (randomWind U api d0 n v k ω) ^ p ∂P = Real.Gamma (1 + 0.3 * p) * m ^ p := by
  have := hU.indep.isProbabilityMeasure
  by_cases hp : p = 0
  · subst hp
    simp
  have hp' : (0 : ℝ) < 0.3 * p := by
    have : (0 : ℝ) < p := by exact_mod_cast Nat.pos_of_ne_zero hp
    positivity
  have hae : (fun ω => cellNumber (randomWind U api d0 n v k ω) ^ p) =ᵐ[P] fun ω => m ^ p * (-Real.log (U k ω)) ^ (0.3 * p : ℝ) := by
    filter_upwards [uniform_ae hU k] with ω hω
    have hl := Real.log_neg hω.1 hω.2
    rw [randomWind_eq api d0 v hk, hm, cellNumber_random, if_pos ⟨hω.1, hω.2.le⟩, mul_pow, Real.rpow_mul (by linarith), Real.rpow_natCast]
  obtain ⟨hi, he⟩ := log_pow_integral hp'
  have hmeas : Measurable fun u : ℝ => (-Real.log u) ^ (0.3 * p : ℝ) := (Real.measurable_log.neg).pow_const _
  have hi' : Integrable (fun ω => (-Real.log (U k ω)) ^ (0.3 * p : ℝ)) P := by
    rw [← show P.map (U k) = unit from hU.uniform k] at hi
    exact hi.comp_measurable (hU.measurable k)
  refine ⟨(hi'.const_mul _).congr hae.symm, ?_⟩
  rw [integral_congr_ae hae, integral_const_mul]
  have : ∫ ω, (-Real.log (U k ω)) ^ (0.3 * p : ℝ) ∂P = Real.Gamma (1 + 0.3 * p) := by
    rw [← integral_map (hU.measurable k).aemeasurable hmeas.aestronglyMeasurable, hU.uniform k]
    refine he.trans ?_
    rw [add_comm]
  rw [this, mul_comm]

theorem randomWind_aesm (hU : UniformDraws P U) (api : PandasApi) (d0 : Int) (n : Nat) (v : Nat → XF ℝ) {k : Nat} (hk : k < 24 * n) {m : ℝ}
    (hm : v (k / 24) = .fin m) : AEStronglyMeasurable (fun ω => cellNumber (randomWind U api d0 n v k ω)) P :=
  (C109_expectation hU api d0 n v hk hm).1.aestronglyMeasurable

theorem randomWind_memLp (hU : UniformDraws P U) (api : PandasApi) (d0 : Int) (n : Nat) (v : Nat → XF ℝ) {k : Nat} (hk : k < 24 * n) {m : ℝ}
    (hm : v (k / 24) = .fin m) : MemLp (fun ω => cellNumber (randomWind U api d0 n v k ω)) 2 P :=
  (memLp_two_iff_integrable_sq (randomWind_aesm hU api d0 n v hk hm)).2 (C161_moments hU api d0 n v hk hm 2).1

/-- **C161 (variance).**  The variance of an hourly value on a day with mean `m` is `(Γ(1.6) - Γ(1.3)²)·m²`, less than `0.21·m²` unless `m = 0`. -/
theorem C161_variance (hU : UniformDraws P U) (api : PandasApi) (d0 : Int) (n : Nat) (v : Nat → XF ℝ) {k : Nat} (hk : k < 24 * n) {m : ℝ}
    (hm : v (k / 24) = .fin m) :
    variance (fun ω => cellNumber (randomWind U api d0 n v k ω)) P = (Real.Gamma 1.6 - Real.Gamma 1.3 ^ 2) * m ^ 2 ∧
    0 ≤ Real.Gamma 1.6 - Real.Gamma 1.3 ^ 2 ∧ Real.Gamma 1.6 - Real.Gamma 1.3 ^ 2 < 0.21 := by
  have := hU.indep.isProbabilityMeasure
  have key : ∀ (n : Nat) (v : Nat → XF ℝ) (k : Nat) (_ : k < 24 * n) (m : ℝ) (_ : v (k / 24) = .fin m),
      variance (fun ω => cellNumber (randomWind U api d0 n v k ω)) P = (Real.Gamma 1.6 - Real.Gamma 1.3 ^ 2) * m ^ 2 := by
    intro n v k hk m hm
    rw [variance_eq_sub (randomWind_memLp hU api d0 n v hk hm)]
    have h2 := (C161_moments hU api d0 n v hk hm 2).2
    have h1 := (C109_expectation hU api d0 n v hk hm).2.1
    have e : ((fun ω => cellNumber (randomWind U api d0 n v k ω)) ^ 2) = fun ω => cellNumber (randomWind U api d0 n v k ω) ^ 2 := rfl
    rw [e, h2, h1, show (1 + 0.3 * ((2 : Nat) : ℝ)) = 1.6 by norm_num]
    ring
  refine ⟨key n v k hk m hm, ?_, ?_⟩
  · have h := key 1 (fun _ => .fin 1) 0 (by norm_num) 1 rfl
    have h0 := variance_nonneg (fun ω => cellNumber (randomWind U api d0 1 (fun _ => .fin 1) 0 ω)) P
    rw [h] at h0
    linarith
  · have h1 := gamma_bounds.1
    have h2 := gamma_sixteen
    nlinarith

/-- **C161 (averages).**  On `n` days with means `m i`, the mean of all hourly values deviates by `ε` or more from `Γ(1.3)` times the mean of the daily values with a probability of
at most `0.21·Σ (m i)² / (24 n² ε²)`. -/
theorem C161_averages (hU : UniformDraws P U) (api : PandasApi) (d0 : Int) {n : Nat} (hn : 0 < n) (v : Nat → XF ℝ) (m : Nat → ℝ)
    (hm : ∀ i < n, v i = .fin (m i)) {ε : ℝ} (hε : 0 < ε) :
    P.real {ω | ε ≤ |(∑ k ∈ Finset.range (24 * n), cellNumber (randomWind U api d0 n v k ω)) / (24 * n) - Real.Gamma 1.3 * ((∑ i ∈ Finset.range n, m i) / n)|} ≤
      0.21 * (∑ i ∈ Finset.range n, m i ^ 2) / (24 * n ^ 2 * ε ^ 2) := by
  have := hU.indep.isProbabilityMeasure
  have hn' : (0 : ℝ) < n := by exact_mod_cast hn
  let X : Fin (24 * n) → Ω → ℝ := fun k ω => cellNumber (randomWind U api d0 n v k ω)
  have hk : ∀ k : Fin (24 * n), v ((k : Nat) / 24) = .fin (m ((k : Nat) / 24)) := fun k => hm _ (by have := k.2; omega)
  have hL : ∀ k ∈ (Finset.univ : Finset (Fin (24 * n))), MemLp (X k) 2 P := fun k _ => randomWind_memLp hU api d0 n v k.2 (hk k)
  have hind := C109_independent hU api d0 n v m hm
  have blocks : ∀ (N : Nat) (f : Nat → ℝ), ∑ k ∈ Finset.range (24 * N), f (k / 24) = 24 * ∑ i ∈ Finset.range N, f i := by
    intro N f
    induction N with
    | zero => simp
    | succ N ih =>
      rw [show 24 * (N + 1) = 24 * N + 24 by ring, Finset.sum_range_add, ih, Finset.sum_range_succ (fun i => f i) N, mul_add]
      congr 1
      rw [Finset.sum_congr rfl fun h hh => by rw [show (24 * N + h) / 24 = N by have := Finset.mem_range.1 hh; omega]]
      simp
  have hvar : variance (∑ k, X k) P = (Real.Gamma 1.6 - Real.Gamma 1.3 ^ 2) * (24 * ∑ i ∈ Finset.range n, m i ^ 2) := by
    rw [IndepFun.variance_sum hL fun a _ b _ hab => hind.indepFun hab]
    have e : ∀ k ∈ (Finset.univ : Finset (Fin (24 * n))), variance (X k) P = (Real.Gamma 1.6 - Real.Gamma 1.3 ^ 2) * m ((k : Nat) / 24) ^ 2 :=
      fun k _ => (C161_variance hU api d0 n v k.2 (hk k)).1
    rw [Finset.sum_congr rfl e, ← Finset.mul_sum, ← blocks n fun i => m i ^ 2, Finset.sum_range]
  have hmean : ∫ ω, (∑ k, X k) ω ∂P = Real.Gamma 1.3 * (24 * ∑ i ∈ Finset.range n, m i) := by
    simp only [Finset.sum_apply]
    rw [integral_finset_sum _ fun k _ => (C109_expectation hU api d0 n v k.2 (hk k)).1,
      Finset.sum_congr rfl fun (k : Fin (24 * n)) _ => (C109_expectation hU api d0 n v k.2 (hk k)).2.1, ← Finset.mul_sum, ← blocks n m, Finset.sum_range]
  have hc := meas_ge_le_variance_div_sq (memLp_finsetSum' Finset.univ hL) (c := 24 * n * ε) (by positivity)
  rw [hvar, hmean] at hc
  have hcoef := (C161_variance hU api d0 n v (k := 0) (by omega) (hm 0 hn)).2
  have hS : 0 ≤ ∑ i ∈ Finset.range n, m i ^ 2 := Finset.sum_nonneg fun i _ => sq_nonneg _
  have hset : {ω | ε ≤ |(∑ k ∈ Finset.range (24 * n), cellNumber (randomWind U api d0 n v k ω)) / (24 * n) - Real.Gamma 1.3 * ((∑ i ∈ Finset.range n, m i) / n)|} =
      {ω | 24 * n * ε ≤ |(∑ k, X k) ω - Real.Gamma 1.3 * (24 * ∑ i ∈ Finset.range n, m i)|} := by
    ext ω
    simp only [Set.mem_setOf_eq, Finset.sum_apply]
    rw [Finset.sum_range]
    have e : (∑ k : Fin (24 * n), cellNumber (randomWind U api d0 n v k ω)) / (24 * n) - Real.Gamma 1.3 * ((∑ i ∈ Finset.range n, m i) / n) =
        (∑ k, X k ω - Real.Gamma 1.3 * (24 * ∑ i ∈ Finset.range n, m i)) / (24 * n) := by
      show (∑ k, X k ω) / (24 * n) - _ = _
      field_simp
    rw [e, abs_div, abs_of_pos (show (0 : ℝ) < 24 * n by positivity), le_div_iff₀ (by positivity), mul_comm ε]
  rw [hset]
  refine (ENNReal.toReal_le_of_le_ofReal (div_nonneg (mul_nonneg hcoef.1 (by positivity)) (by positivity)) hc).trans ?_
  rw [div_le_div_iff₀ (by positivity) (by positivity)]
  have h1 : (Real.Gamma 1.6 - Real.Gamma 1.3 ^ 2) * (∑ i ∈ Finset.range n, m i ^ 2) ≤ 0.21 * ∑ i ∈ Finset.range n, m i ^ 2 :=
    mul_le_mul_of_nonneg_right hcoef.2.le hS
  have h2 := mul_le_mul_of_nonneg_right h1 (show (0 : ℝ) ≤ 24 * (24 * n ^ 2 * ε ^ 2) by positivity)
  calc _ = (Real.Gamma 1.6 - Real.Gamma 1.3 ^ 2) * (∑ i ∈ Finset.range n, m i ^ 2) * (24 * (24 * n ^ 2 * ε ^ 2)) := by ring
    _ ≤ _ := h2
    _ = _ := by ring

/-- **C161 (daily maximum).**  On a day with mean `m > 0` all 24 values stay at or below `x·m` with probability `(1 - exp(-x^(1/0.3)))^24`, whatever the other days are. -/
theorem C161_maximum (hU : UniformDraws P U) (api : PandasApi) (d0 : Int) {n : Nat} (v : Nat → XF ℝ) {i : Nat} (hi : i < n) {m : ℝ}
    (hm : v i = .fin m) (h0 : 0 < m) {x : ℝ} (hx : 0 ≤ x) :
    P.real {ω | ∀ h < 24, cellNumber (randomWind U api d0 n v (24 * i + h) ω) ≤ x * m} = (1 - Real.exp (-(x ^ (1 / 0.3 : ℝ)))) ^ 24 := by
  have := hU.indep.isProbabilityMeasure
  have e : (fun (h : Fin 24) ω => cellNumber (randomWind U api d0 n v (24 * i + h) ω)) =
      fun (h : Fin 24) => (fun u : ℝ => if 0 < u ∧ u ≤ 1 then m * (-Real.log u) ^ (0.3 : ℝ) else 0) ∘ U (24 * i + h) := by
    funext h ω
    simp only [Function.comp_def]
    have hh := h.2
    rw [randomWind_eq api d0 v (by omega), show (24 * i + (h : Nat)) / 24 = i by omega, hm, cellNumber_random]
  have hind : iIndepFun (fun (h : Fin 24) ω => cellNumber (randomWind U api d0 n v (24 * i + h) ω)) P := by
    rw [e]
    exact (hU.indep.precomp (g := fun h : Fin 24 => 24 * i + (h : Nat)) fun a b h => Fin.ext (by simpa using h)).comp _ fun k => factor_measurable _
  have hmeas : ∀ h : Fin 24, Measurable fun ω => cellNumber (randomWind U api d0 n v (24 * i + h) ω) := by
    intro h
    have := congrFun e h
    exact this ▸ (factor_measurable m).comp (hU.measurable _)
  have hset : {ω | ∀ h < 24, cellNumber (randomWind U api d0 n v (24 * i + h) ω) ≤ x * m} =
      ⋂ h ∈ (Finset.univ : Finset (Fin 24)), (fun ω => cellNumber (randomWind U api d0 n v (24 * i + h) ω)) ⁻¹' Set.Iic (x * m) := by
    ext ω
    simp only [Set.mem_setOf_eq, Finset.mem_univ, Set.iInter_true, Set.mem_iInter, Set.mem_preimage, Set.mem_Iic]
    exact ⟨fun h k => h k k.2, fun h k hk => h ⟨k, hk⟩⟩
  have hone : ∀ h : Fin 24, P.real ((fun ω => cellNumber (randomWind U api d0 n v (24 * i + h) ω)) ⁻¹' Set.Iic (x * m)) = 1 - Real.exp (-(x ^ (1 / 0.3 : ℝ))) := by
    intro h
    have hh := h.2
    have hw := (C109_weibull hU api d0 n v (k := 24 * i + h) (by omega) (m := m) (by rw [show (24 * i + (h : Nat)) / 24 = i by omega, hm]) h0).2 x hx
    have hcompl : (fun ω => cellNumber (randomWind U api d0 n v (24 * i + h) ω)) ⁻¹' Set.Iic (x * m) =
        {ω | x * m < cellNumber (randomWind U api d0 n v (24 * i + h) ω)}ᶜ := by
      ext ω
      simp
    rw [hcompl, probReal_compl_eq_one_sub (measurableSet_lt measurable_const (hmeas h)), hw]
  rw [hset, measureReal_def, hind.measure_inter_preimage_eq_mul Finset.univ fun _ _ => measurableSet_Iic, ENNReal.toReal_prod]
  rw [Finset.prod_congr rfl fun h _ => (measureReal_def _ _).symm.trans (hone h)]
  simp

/-- C161 at work: for 100 days with mean 5 m/s the mean of all hourly values is within 0.2 m/s of `Γ(1.3)·5` with a probability above 94 %; on each of the days all values stay at or below
the daily mean with probability `(1 - exp(-1))^24`; the mean cube of an hourly value is `Γ(1.9)·125`. -/
example :
    (Measure.infinitePi fun _ : Nat => unit).real {ω | 0.2 ≤ |(∑ k ∈ Finset.range (24 * 100), cellNumber (randomWind (fun k (ω : Nat → ℝ) => ω k) .modern 0 100 (fun _ => .fin 5) k ω)) /
      (24 * (100 : Nat)) - Real.Gamma 1.3 * ((∑ _i ∈ Finset.range 100, (5 : ℝ)) / (100 : Nat))|} ≤ 0.06 ∧
    (Measure.infinitePi fun _ : Nat => unit).real {ω | ∀ h < 24, cellNumber (randomWind (fun k (ω : Nat → ℝ) => ω k) .modern 0 100 (fun _ => .fin 5) (24 * 7 + h) ω) ≤ 1 * 5} =
      (1 - Real.exp (-1)) ^ 24 ∧
    ∫ ω, cellNumber (randomWind (fun k (ω : Nat → ℝ) => ω k) .modern 0 100 (fun _ => .fin 5) 47 ω) ^ 3 ∂(Measure.infinitePi fun _ : Nat => unit) = Real.Gamma 1.9 * 125 := by
  refine ⟨?_, ?_, ?_⟩
  · refine (C161_averages uniformDraws_exist .modern 0 (n := 100) (by norm_num) (fun _ => .fin 5) (fun _ => 5) (fun _ _ => rfl) (ε := 0.2) (by norm_num)).trans ?_
    simp only [Finset.sum_const, Finset.card_range, nsmul_eq_mul]
    norm_num
  · have := C161_maximum uniformDraws_exist .modern 0 (n := 100) (fun _ => .fin 5) (i := 7) (by norm_num) (m := 5) rfl (by norm_num) (x := 1) (by norm_num)
    rw [this, Real.one_rpow]
  · have := (C161_moments uniformDraws_exist .modern 0 100 (fun _ => .fin 5) (k := 47) (by norm_num) (m := 5) rfl 3).2
    rw [this]
    norm_num

end Melodist
