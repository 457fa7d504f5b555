import Verif.Lemmas.WindLaw

/-!
# C109: the law of the random wind disaggregation
-/

set_option linter.unusedSectionVars false

namespace Melodist
open Spec MeasureTheory ProbabilityTheory

/-- the number in a cell (0 if it is none) -/
noncomputable def cellNumber : XF ℝ → ℝ
  | .fin x => x
  | _ => 0

/-- the hourly values (numbers) of the random disaggregation, hour by hour, as random variables -/
noncomputable def randomWind {Ω : Type} (U : Nat → Ω → ℝ) (api : PandasApi) (d0 : Int) (n : Nat) (v : Nat → XF ℝ) (k : Nat) (ω : Ω) : XF ℝ :=
  match disaggregateWind api (fun j => U j ω) (dailyS d0 n v) "random" with
  | .ok r => r.values.getD k .nan
  | .error _ => .nan

variable {Ω : Type} [MeasurableSpace Ω] {P : Measure Ω} {U : Nat → Ω → ℝ}

theorem randomWind_eq (api : PandasApi) (d0 : Int) {n : Nat} (v : Nat → XF ℝ) {k : Nat} (hk : k < 24 * n) (ω : Ω) :
    randomWind U api d0 n v k ω = v (k / 24) * XF.powPos 0.3 (-(XF.log (.fin (U k ω)))) := by
  unfold randomWind
  rw [wind_random api _ d0 n (by omega) v none none none]
  simp only [WindResult.values]
  rw [hourlyS_values, List.getD_eq_getElem?_getD, List.getElem?_map, List.getElem?_range hk]
  simp only [Option.map_some, Option.getD_some]
  rw [show 24 * (k / 24) + k % 24 = k by omega]

/-- the value of a cell whose daily mean is a number: the factor is a function of the draw -/
theorem cellNumber_random (m u : ℝ) : cellNumber (.fin m * XF.powPos 0.3 (-(XF.log (.fin u)))) =
    if 0 < u ∧ u ≤ 1 then m * (-Real.log u) ^ (0.3 : ℝ) else 0 := by
  by_cases h0 : 0 < u
  · rw [XF.log_fin h0]
    show cellNumber (.fin m * XF.powPos 0.3 (.fin (-Real.log u))) = _
    unfold XF.powPos
    by_cases h1 : u ≤ 1
    · rw [if_pos ⟨h0, h1⟩]
      have := Real.log_nonpos h0.le h1
      simp only
      rw [if_pos (by linarith)]
      rfl
    · rw [if_neg (fun h => h1 h.2)]
      have := Real.log_pos (not_le.1 h1)
      simp only
      rw [if_neg (by linarith)]
      simp [cellNumber]
  · rw [if_neg (fun h => h0 h.1)]
    unfold XF.log
    simp only
    rw [if_neg h0]
    by_cases h1 : u = 0
    · rw [if_pos h1]
      show cellNumber (XF.infOfSign m) = 0
      unfold XF.infOfSign
      split_ifs <;> rfl
    · rw [if_neg h1]
      simp [cellNumber, XF.powPos]

theorem factor_measurable (m : ℝ) : Measurable fun u : ℝ => if 0 < u ∧ u ≤ 1 then m * (-Real.log u) ^ (0.3 : ℝ) else 0 := by
  apply Measurable.ite
  · exact (measurableSet_Ioi.inter measurableSet_Iic : MeasurableSet (Set.Ioi (0 : ℝ) ∩ Set.Iic 1))
  · exact ((Real.measurable_log.neg).pow_const _).const_mul m
  · exact measurable_const

/-- **C109 (law).**  With independent uniform random numbers, on a day with mean `m > 0`: every hourly value is a positive number with
probability one, and exceeds `x·m` with probability `exp(-x^(1/0.3))` (a Weibull distribution). -/
theorem C109_weibull (hU : UniformDraws P U) (api : PandasApi) (d0 : Int) (n : Nat) (v : Nat → XF ℝ) {k : Nat} (hk : k < 24 * n) {m : ℝ}
    (hm : v (k / 24) = .fin m) (h0 : 0 < m) :
    (∀ᵐ ω ∂P, ∃ y, randomWind U api d0 n v k ω = .fin y ∧ 0 < y) ∧
    ∀ x, 0 ≤ x → P.real {ω | x * m < cellNumber (randomWind U api d0 n v k ω)} = Real.exp (-(x ^ (1 / 0.3 : ℝ))) := by
  constructor
  · filter_upwards [uniform_ae hU k] with ω hω
    refine ⟨m * (-Real.log (U k ω)) ^ (0.3 : ℝ), ?_, ?_⟩
    · rw [randomWind_eq api d0 v hk, hm, powPos_log hω.1 hω.2, XF.fin_mul_fin]
    · have := Real.log_neg hω.1 hω.2
      exact mul_pos h0 (Real.rpow_pos_of_pos (by linarith) _)
  · intro x hx
    have hset : {ω | x * m < cellNumber (randomWind U api d0 n v k ω)} =ᵐ[P] U k ⁻¹' (Set.Iic (Real.exp (-(x ^ (1 / 0.3 : ℝ))))) \ U k ⁻¹' {Real.exp (-(x ^ (1 / 0.3 : ℝ)))} := by
      filter_upwards [uniform_ae hU k] with ω hω
      apply propext
      show x * m < cellNumber (randomWind U api d0 n v k ω) ↔ U k ω ≤ _ ∧ ¬ U k ω = _
      rw [randomWind_eq api d0 v hk, hm, cellNumber_random, if_pos ⟨hω.1, hω.2.le⟩, mul_comm x m, mul_lt_mul_iff_right₀ h0,
        factor_gt (by norm_num) hx hω.1 hω.2]
      exact lt_iff_le_and_ne
    rw [measureReal_congr hset]
    have hnull : P (U k ⁻¹' {Real.exp (-(x ^ (1 / 0.3 : ℝ)))}) = 0 := by
      rw [← Measure.map_apply (hU.measurable k) (measurableSet_singleton _), hU.uniform k]
      simp
    refine (measureReal_congr (diff_null_ae_eq_self hnull)).trans ?_
    rw [Measure.real, ← Measure.map_apply (hU.measurable k) measurableSet_Iic, hU.uniform k]
    have := unit_Iic (Real.exp_pos (-(x ^ (1 / 0.3 : ℝ)))).le
    rw [Measure.real] at this
    refine this.trans ?_
    rw [min_eq_right]
    rw [Real.exp_le_one_iff]
    have := Real.rpow_nonneg hx (1 / 0.3 : ℝ)
    linarith

/-- **C109 (bias).**  The expected hourly value on a day with mean `m` is `Γ(1.3)·m`, where `0.84 < Γ(1.3) < 0.94`: the method lowers the wind. -/
theorem C109_expectation (hU : UniformDraws P U) (api : PandasApi) (d0 : Int) (n : Nat) (v : Nat → XF ℝ) {k : Nat} (hk : k < 24 * n) {m : ℝ}
    (hm : v (k / 24) = .fin m) :
    Integrable (fun ω => cellNumber (randomWind U api d0 n v k ω)) P ∧
    ∫ ω, cellNumber (randomWind U api d0 n v k ω) ∂P = Real.Gamma 1.3 * m ∧ 0.84 < Real.Gamma 1.3 ∧ Real.Gamma 1.3 < 0.94 := by
  have hae : (fun ω => cellNumber (randomWind U api d0 n v k ω)) =ᵐ[P] fun ω => m * (-Real.log (U k ω)) ^ (0.3 : ℝ) := by
    filter_upwards [uniform_ae hU k] with ω hω
    rw [randomWind_eq api d0 v hk, hm, cellNumber_random, if_pos ⟨hω.1, hω.2.le⟩]
  obtain ⟨hi, he⟩ := log_pow_integral (p := 0.3) (by norm_num)
  have hmeas : Measurable fun u : ℝ => (-Real.log u) ^ (0.3 : ℝ) := (Real.measurable_log.neg).pow_const _
  have hi' : Integrable (fun ω => (-Real.log (U k ω)) ^ (0.3 : ℝ)) P := by
    rw [← show P.map (U k) = unit from hU.uniform k] at hi
    exact hi.comp_measurable (hU.measurable k)
  refine ⟨(hi'.const_mul m).congr hae.symm, ?_, gamma_bounds⟩
  rw [integral_congr_ae hae, integral_const_mul]
  have : ∫ ω, (-Real.log (U k ω)) ^ (0.3 : ℝ) ∂P = Real.Gamma 1.3 := by
    rw [← integral_map (hU.measurable k).aemeasurable hmeas.aestronglyMeasurable, hU.uniform k]
    refine he.trans ?_
    norm_num
  rw [this, mul_comm]

/-- **C109 (daily mean).**  The expected mean of the 24 values of a day with mean `m` is `Γ(1.3)·m`. -/
theorem C109_daily_mean (hU : UniformDraws P U) (api : PandasApi) (d0 : Int) (n : Nat) (v : Nat → XF ℝ) {i : Nat} (hi : i < n) {m : ℝ}
    (hm : v i = .fin m) :
    ∫ ω, (∑ h ∈ Finset.range 24, cellNumber (randomWind U api d0 n v (24 * i + h) ω)) / 24 ∂P = Real.Gamma 1.3 * m := by
  have H : ∀ h ∈ Finset.range 24, Integrable (fun ω => cellNumber (randomWind U api d0 n v (24 * i + h) ω)) P ∧
      ∫ ω, cellNumber (randomWind U api d0 n v (24 * i + h) ω) ∂P = Real.Gamma 1.3 * m := by
    intro h hh
    have hh := Finset.mem_range.1 hh
    have := C109_expectation hU api d0 n v (k := 24 * i + h) (by omega) (m := m) (by rw [show (24 * i + h) / 24 = i by omega, hm])
    exact ⟨this.1, this.2.1⟩
  rw [integral_div, integral_finset_sum _ fun h hh => (H h hh).1, Finset.sum_congr rfl fun h hh => (H h hh).2]
  simp

/-- **C109 (independence).**  The hourly values of days with a number are independent of each other. -/
theorem C109_independent (hU : UniformDraws P U) (api : PandasApi) (d0 : Int) (n : Nat) (v : Nat → XF ℝ) (m : Nat → ℝ)
    (hm : ∀ i < n, v i = .fin (m i)) : iIndepFun (fun (k : Fin (24 * n)) ω => cellNumber (randomWind U api d0 n v k ω)) P := by
  have e : (fun (k : Fin (24 * n)) ω => cellNumber (randomWind U api d0 n v k ω)) =
      fun (k : Fin (24 * n)) => (fun u : ℝ => if 0 < u ∧ u ≤ 1 then m (k / 24) * (-Real.log u) ^ (0.3 : ℝ) else 0) ∘ U k := by
    funext k ω
    simp only [Function.comp_def]
    have hk := k.2
    rw [randomWind_eq api d0 v hk, hm _ (by omega), cellNumber_random]
  rw [e]
  exact (hU.indep.precomp (g := fun k : Fin (24 * n) => (k : Nat)) Fin.val_injective).comp _ fun k => factor_measurable _

/-- **C109 (long run).**  Many days with the same mean `m`: with probability one the mean over all hours of a run of `n` days approaches `Γ(1.3)·m`
as `n` grows - the daily means are not preserved on the long-term average either. -/
theorem C109_long_run (hU : UniformDraws P U) (api : PandasApi) (d0 : Int) (m : ℝ) :
    ∀ᵐ ω ∂P, Filter.Tendsto (fun n : Nat => (∑ k ∈ Finset.range (24 * n), cellNumber (randomWind U api d0 n (fun _ => .fin m) k ω)) / ((24 * n : Nat) : ℝ))
      Filter.atTop (nhds (Real.Gamma 1.3 * m)) := by
  let X : Nat → Ω → ℝ := fun k => (fun u : ℝ => if 0 < u ∧ u ≤ 1 then m * (-Real.log u) ^ (0.3 : ℝ) else 0) ∘ U k
  have hX : ∀ (n k : Nat) (ω : Ω), k < 24 * n → cellNumber (randomWind U api d0 n (fun _ => .fin m) k ω) = X k ω := by
    intro n k ω hk
    rw [randomWind_eq api d0 _ hk, cellNumber_random]
    rfl
  have h0 := C109_expectation hU api d0 1 (fun _ => .fin m) (k := 0) (by omega) (m := m) rfl
  have e0 : (fun ω => cellNumber (randomWind U api d0 1 (fun _ => .fin m) 0 ω)) = X 0 := by
    funext ω
    exact hX 1 0 ω (by omega)
  rw [e0] at h0
  have hident : ∀ i, IdentDistrib (X i) (X 0) P P := by
    intro i
    refine IdentDistrib.comp ⟨(hU.measurable i).aemeasurable, (hU.measurable 0).aemeasurable, ?_⟩ (factor_measurable m)
    rw [hU.uniform i, hU.uniform 0]
  have hindep : Pairwise (Function.onFun (fun f g => IndepFun f g P) X) := by
    intro i j hij
    exact (hU.indep.indepFun hij).comp (factor_measurable m) (factor_measurable m)
  have law := strong_law_ae_real X h0.1 hindep hident
  filter_upwards [law] with ω hω
  have : ∫ ω, X 0 ω ∂P = Real.Gamma 1.3 * m := h0.2.1
  rw [this] at hω
  have h24 : Filter.Tendsto (fun n : Nat => 24 * n) Filter.atTop Filter.atTop := Filter.tendsto_id.const_mul_atTop' (by norm_num)
  refine (hω.comp h24).congr ?_
  intro n
  simp only [Function.comp_def]
  rw [Finset.sum_congr rfl fun k hk => (hX n k ω (Finset.mem_range.1 hk)).symm]

/-- C109 at work: with 5 m/s on two days, the last hour of the second day is on average below 4.7 m/s, exceeds 5 m/s with probability 1/e, and the
draws supposed exist. -/
example : ∫ ω, cellNumber (randomWind (fun k (ω : Nat → ℝ) => ω k) .modern 0 2 (fun _ => .fin 5) 47 ω) ∂(Measure.infinitePi fun _ : Nat => unit) < 4.7 ∧
    (Measure.infinitePi fun _ : Nat => unit).real {ω | 5 < cellNumber (randomWind (fun k (ω : Nat → ℝ) => ω k) .modern 0 2 (fun _ => .fin 5) 47 ω)} =
      Real.exp (-1) := by
  constructor
  · obtain ⟨_, h, h1, h2⟩ := C109_expectation uniformDraws_exist .modern 0 2 (fun _ => .fin 5) (k := 47) (by omega) (m := 5) rfl
    rw [h]
    linarith
  · have := (C109_weibull uniformDraws_exist .modern 0 2 (fun _ => .fin 5) (k := 47) (by omega) (m := 5) rfl (by norm_num)).2 1 (by norm_num)
    simpa using this

end Melodist
