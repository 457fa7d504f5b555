import Verif.Props.RoundingC
import Mathlib.Analysis.Real.Pi.Bounds

/-!
# C111: radiation, outcome of the calls, and binary64
-/

set_option linter.unusedSectionVars false

namespace Melodist
open Spec

noncomputable section

variable {daily : Frame ℝ} {d0 : Int} {n : Nat} {tmin tmax temp : Nat → XF ℝ}

/-! ## radiation -/

theorem radiationCoreR_eq (F : FloatMath) (mean : List (XF ℝ) → XF ℝ) (d0 : Int) {n : Nat} (hn : 0 < n) (v : Nat → XF ℝ) (d1 : Int) {m : Nat} (p : Nat → Nat → XF ℝ) :
    radiationCoreR F mean (hourlyS d1 m p) (dailyS d0 n v) =
      .ok (hourlyS d1 m fun j h => if XF.lt (((p j h / mean (day24 (p j))).rnd F.fl * lastValue d0 n v (d1 + j)).rnd F.fl) (.fin (F.fl 0.01)) then .fin 0
        else ((p j h / mean (day24 (p j))).rnd F.fl * lastValue d0 n v (d1 + j)).rnd F.fl) := by
  unfold radiationCoreR
  rw [reindexFfill_general d0 hn, py_ok_bind, resampleD_hourlyS, reindexFfill_daily_hourly, py_ok_bind]
  congr 1
  rw [hourlyS_values, hourlyS_values, List.zip_eq_zipWith, List.zip_eq_zipWith, List.zipWith_map, List.zipWith_self]
  conv_lhs => rw [hourlyS]
  rw [List.zipWith_map, List.zipWith_self, List.map_map]
  rfl

/-- **C111 (radiation).**  Potential radiation and daily values on the same days, the daily mean of the potential computed with relative error δ < 1: every hour is 0 or at least
0.01 (rounded), and the mean of a day with daily value g lies between (1-u)²/(1+δ)·g minus 0.01 (rounded) and (1+u)²/(1-δ)·g. -/
theorem C111_radiation (R : Rounding ℝ) (cosF : ℝ → ℝ) (pi : ℝ) (mean : List (XF ℝ) → XF ℝ) (d0 : Int) (n : Nat) (hn : 0 < n) (v : Nat → XF ℝ) (p : Nat → Nat → XF ℝ) :
    ∃ out, radiationCoreR ⟨R.fl, cosF, pi⟩ mean (hourlyS d0 n p) (dailyS d0 n v) = .ok out ∧
      ∀ i < n, ∀ (q : Nat → ℝ) (g μ δ : ℝ), (∀ h < 24, p i h = .fin (q h) ∧ 0 ≤ q h) → (∃ h < 24, 0 < q h) → v i = .fin g → 0 ≤ g →
        mean (day24 (p i)) = .fin μ → 0 ≤ δ → δ < 1 → |μ - (day24 q).sum / 24| ≤ δ * ((day24 q).sum / 24) →
        (∀ c ∈ dayCells out (d0 + i), ∃ x, c = .fin x ∧ (x = 0 ∨ R.fl 0.01 ≤ x)) ∧
        ∃ x, MeanIs (dayCells out (d0 + i)) x ∧ x ≤ (1 + R.u) ^ 2 / (1 - δ) * g ∧ (1 - R.u) ^ 2 / (1 + δ) * g - R.fl 0.01 < x := by
  refine ⟨_, radiationCoreR_eq _ mean d0 hn v d0 p, ?_⟩
  intro i hi q g μ δ hq hpos hg hg0 hμ hδ0 hδ1 herr
  rw [dayCells_hourlyS d0 _ hi]
  set S := (day24 q).sum with hS
  have hS0 : 0 < S := by
    obtain ⟨k, hk, hk0⟩ := hpos
    refine lt_of_lt_of_le hk0 ?_
    rw [hS]
    refine List.single_le_sum ?_ _ (mem_day24.2 ⟨k, hk, rfl⟩)
    intro x hx
    obtain ⟨h, hh, rfl⟩ := mem_day24.1 hx
    exact (hq h hh).2
  obtain ⟨m1, m2⟩ := abs_le.1 herr
  have hμ1 : (1 - δ) * (S / 24) ≤ μ := by linarith
  have hμ2 : μ ≤ (1 + δ) * (S / 24) := by linarith
  have hμ0 : 0 < μ := lt_of_lt_of_le (mul_pos (by linarith) (by positivity)) hμ1
  set w : Nat → ℝ := fun h => R.fl (R.fl (q h / μ) * g) with hw
  set y : Nat → ℝ := fun h => if w h < R.fl 0.01 then 0 else w h with hy
  have cell : ∀ h < 24, (if XF.lt (((p i h / mean (day24 (p i))).rnd R.fl * lastValue d0 n v (d0 + i)).rnd R.fl) (.fin (R.fl 0.01)) then (.fin 0 : XF ℝ)
        else ((p i h / mean (day24 (p i))).rnd R.fl * lastValue d0 n v (d0 + i)).rnd R.fl) = .fin (y h) := by
    intro h hh
    rw [hμ, (hq h hh).1, lastValue_self hi, hg, XF.fin_div_fin_of_ne _ hμ0.ne']
    simp only [XF.rnd, XF.fin_mul_fin, XF.lt_fin, hy, hw]
    split <;> rfl
  have hu2 : 0 < (1 + R.u) ^ 2 := pow_pos (by linarith [R.u_nonneg]) 2
  have hf : 0 < R.fl 0.01 := by
    have := (R.fl_bounds (x := 0.01) (by norm_num)).1
    exact lt_of_lt_of_le (mul_pos (by linarith [R.u_lt_one]) (by norm_num)) this
  have wb : ∀ h < 24, (1 - R.u) ^ 2 * (g / μ) * q h ≤ w h ∧ w h ≤ (1 + R.u) ^ 2 * (g / μ) * q h := by
    intro h hh
    have q0 : 0 ≤ q h / μ := div_nonneg (hq h hh).2 hμ0.le
    obtain ⟨a1, a2⟩ := R.fl_bounds q0
    have f0 := R.fl_nonneg q0
    obtain ⟨b1, b2⟩ := R.fl_bounds (mul_nonneg f0 hg0)
    have c1 := mul_le_mul_of_nonneg_left (mul_le_mul_of_nonneg_right a1 hg0) R.lo_nonneg
    have c2 := mul_le_mul_of_nonneg_left (mul_le_mul_of_nonneg_right a2 hg0) R.hi_nonneg
    constructor
    · refine le_trans (le_of_eq ?_) (c1.trans b1); ring
    · refine (b2.trans c2).trans (le_of_eq ?_); ring
  have yb : ∀ h < 24, (1 - R.u) ^ 2 * (g / μ) * q h - R.fl 0.01 < y h ∧ y h ≤ (1 + R.u) ^ 2 * (g / μ) * q h := by
    intro h hh
    obtain ⟨w1, w2⟩ := wb h hh
    simp only [hy]
    split
    · refine ⟨by linarith, ?_⟩
      exact mul_nonneg (mul_nonneg hu2.le (div_nonneg hg0 hμ0.le)) (hq h hh).2
    · exact ⟨by linarith, w2⟩
  have e : (day24 fun h => if XF.lt (((p i h / mean (day24 (p i))).rnd R.fl * lastValue d0 n v (d0 + i)).rnd R.fl) (.fin (R.fl 0.01)) then (.fin 0 : XF ℝ)
        else ((p i h / mean (day24 (p i))).rnd R.fl * lastValue d0 n v (d0 + i)).rnd R.fl) = (day24 y).map XF.fin := by
    rw [day24_map]
    exact day24_congr cell
  rw [e]
  refine ⟨?_, (day24 y).sum / 24, ⟨_, rfl, by simp [day24], by rw [day24_length]; norm_num⟩, ?_, ?_⟩
  · intro c hc
    obtain ⟨x, hx, rfl⟩ := List.mem_map.1 hc
    obtain ⟨h, hh, rfl⟩ := mem_day24.1 hx
    refine ⟨_, rfl, ?_⟩
    simp only [hy]
    split
    · exact .inl rfl
    · rename_i hlt
      exact .inr (not_lt.1 hlt)
  · have h1 : (day24 y).sum ≤ (day24 fun h => (1 + R.u) ^ 2 * (g / μ) * q h).sum := List.sum_le_sum fun h hh => (yb h (List.mem_range.1 hh)).2
    rw [sum_day24_mul, ← hS] at h1
    have h2 : g / μ * S ≤ 24 * (g / (1 - δ)) := by
      rw [div_mul_eq_mul_div, ← mul_div_assoc, div_le_div_iff₀ hμ0 (by linarith)]
      have := mul_le_mul_of_nonneg_left hμ1 (mul_nonneg (by norm_num : (0 : ℝ) ≤ 24) hg0)
      linarith
    have h3 := mul_le_mul_of_nonneg_left h2 hu2.le
    rw [div_le_iff₀ (by norm_num)]
    refine h1.trans ?_
    rw [mul_assoc]
    refine h3.trans (le_of_eq ?_)
    ring
  · have h1 : (day24 fun h => (1 - R.u) ^ 2 * (g / μ) * q h + -R.fl 0.01).sum < (day24 y).sum :=
      List.sum_lt_sum_of_ne_nil (by simp) _ _ fun h hh => by have := (yb h (List.mem_range.1 hh)).1; linarith
    rw [sum_day24_add, sum_day24_const, sum_day24_mul, ← hS] at h1
    have h2 : 24 * (g / (1 + δ)) ≤ g / μ * S := by
      rw [div_mul_eq_mul_div, ← mul_div_assoc, div_le_div_iff₀ (by linarith) hμ0]
      have := mul_le_mul_of_nonneg_left hμ2 (mul_nonneg (by norm_num : (0 : ℝ) ≤ 24) hg0)
      linarith
    have h3 := mul_le_mul_of_nonneg_left h2 (sq_nonneg (1 - R.u))
    rw [lt_div_iff₀ (by norm_num)]
    have h4 : (1 - R.u) ^ 2 / (1 + δ) * g = (1 - R.u) ^ 2 * (g / (1 + δ)) := by ring
    rw [h4]
    rw [mul_assoc] at h1
    linarith

/-! ## errors and time stamps do not depend on the arithmetic -/

theorem py_map_bind {A B C : Type} (x : Py A) (f f' : A → Py B) (g : B → C) (h : ∀ a, (f a).map g = (f' a).map g) :
    (x >>= f).map g = (x >>= f').map g := by
  cases x with
  | error e => rfl
  | ok a => exact h a

theorem mapM_lookup_map {c c' : MeanCourse ℝ} (h1 : c.months = c'.months) (h2 : c.hours = c'.hours) : ∀ l : List Time,
    (l.mapM fun t => c.lookup (monthOf t) (hourOf t)).map List.length = (l.mapM fun t => c'.lookup (monthOf t) (hourOf t)).map List.length := by
  intro l
  induction l with
  | nil => rfl
  | cons t l ih =>
    rw [List.mapM_cons, List.mapM_cons]
    have e : ∀ x y : Py (List (XF ℝ)), x.map List.length = y.map List.length → ∀ a b : XF ℝ,
        (x >>= fun l => pure (a :: l)).map List.length = (y >>= fun l => pure (b :: l)).map List.length := by
      intro x y h a b
      cases x <;> cases y <;> simp_all [Except.map, bind, Except.bind, pure, Except.pure]
    have e1 : ∀ c : MeanCourse ℝ, (monthOf t ∈ c.months ∧ hourOf t ∈ c.hours) → c.lookup (monthOf t) (hourOf t) = .ok (c.val (monthOf t) (hourOf t)) := by
      intro c hc
      unfold MeanCourse.lookup
      rw [if_pos (by simpa using hc)]
    have e2 : ∀ c : MeanCourse ℝ, ¬ (monthOf t ∈ c.months ∧ hourOf t ∈ c.hours) → c.lookup (monthOf t) (hourOf t) = .error .keyError := by
      intro c hc
      unfold MeanCourse.lookup
      rw [if_neg (by simpa using hc)]
    by_cases hc : monthOf t ∈ c.months ∧ hourOf t ∈ c.hours
    · rw [e1 c hc, e1 c' (h1 ▸ h2 ▸ hc), py_ok_bind, py_ok_bind]
      exact e _ _ ih _ _
    · rw [e2 c hc, e2 c' (h1 ▸ h2 ▸ hc)]
      rfl

/-- **C111 (outcome).**  Rounding has no influence on whether `disaggregate_temperature` raises, on which exception, and on the time stamps of the result. -/
theorem C111_same_outcome (F : FloatMath) (mean : List (XF ℝ) → XF ℝ) (api : PandasApi) (daily : Frame ℝ) (method mmt : String) (modNight : Bool)
    (md : Option (List (Int × XF ℝ))) (course : Option (MeanCourse ℝ)) (sun : Option (Series SunTimes)) :
    (disaggregateTemperatureR F mean api daily method mmt modNight md course sun).map Series.index =
      (disaggregateTemperature api daily method mmt modNight md course sun).map Series.index := by
  unfold disaggregateTemperatureR disaggregateTemperature
  split
  · rfl
  apply py_map_bind
  intro index
  split
  · unfold sineTemperatureR sineTemperature
    apply py_map_bind
    intro loc
    split
    · rfl
    dsimp only
    cases sun with
    | none => rfl
    | some sun =>
      dsimp only
      split
      · rfl
      · show Except.ok _ = Except.ok _
        unfold Series.index
        rw [List.map_map, List.map_map]
        rfl
  split
  · unfold courseMinMaxR courseMinMax
    cases course with
    | none => rfl
    | some c =>
      dsimp only
      iterate 5
        apply py_map_bind
        intro _
      show Except.ok _ = Except.ok _
      unfold Series.index
      rw [List.map_map, List.map_map]
      rfl
  · unfold courseMeanR courseMean
    iterate 4
      apply py_map_bind
      intro _
    cases course with
    | none => rfl
    | some c =>
      dsimp only
      have h := mapM_lookup_map (c := c.zeroMeanR F mean) (c' := c.zeroMean) rfl rfl index
      revert h
      generalize (List.mapM (fun t => (c.zeroMeanR F mean).lookup (monthOf t) (hourOf t)) index) = x
      generalize (List.mapM (fun t => c.zeroMean.lookup (monthOf t) (hourOf t)) index) = y
      intro h
      cases x with
      | error e =>
        cases y with
        | error e' => cases h; rfl
        | ok y => cases h
      | ok x =>
        cases y with
        | error e' => cases h
        | ok y =>
          have hl : x.length = y.length := by
            injection h
          rw [py_ok_bind, py_ok_bind]
          iterate 2
            apply py_map_bind
            intro _
          show Except.ok _ = Except.ok _
          congr 1
          unfold Series.index
          rw [List.map_map, List.map_map]
          have e : ∀ {A B : Type} (l : List A) (m : List B), (l.zip m).map Prod.fst = l.take m.length := by
            intro A B l m
            induction l generalizing m with
            | nil => simp
            | cons a l ih =>
              cases m with
              | nil => simp
              | cons b m => simp [ih]
          show List.map Prod.fst _ = List.map Prod.fst _
          rw [e, e]
          congr 1
          simp only [List.length_zip, hl]

/-! ## binary64 -/

/-- binary64 with the nearest number to π, and a cosine with values between -1 and 1 and an error of at most 1e-15 -/
structure DoubleMath (F : FloatMath) : Prop where
  fl : F.fl = roundBits 53
  pi : F.pi = roundBits 53 Real.pi
  cos_le : ∀ x, |F.cos x| ≤ 1
  cos_err : ∀ x, |F.cos x - Real.cos x| ≤ 1e-15

/-- such an arithmetic exists: the correctly rounded cosine -/
theorem double_exists : DoubleMath ⟨roundBits 53, fun x => roundBits 53 (Real.cos x), roundBits 53 Real.pi⟩ := by
  have hx : ∀ x : ℝ, |roundBits 53 (Real.cos x)| ≤ 1 := by
    intro x
    rw [abs_le]
    constructor
    · have := roundBits_mono (p := 53) (by norm_num) (Real.neg_one_le_cos x)
      rwa [roundBits_neg, roundBits_one (by norm_num)] at this
    · have := roundBits_mono (p := 53) (by norm_num) (Real.cos_le_one x)
      rwa [roundBits_one (by norm_num)] at this
  refine ⟨rfl, rfl, hx, fun x => ?_⟩
  have := roundBits_err (p := 53) (Real.cos x)
  refine this.trans ?_
  have h1 := Real.abs_cos_le_one x
  have h2 : ((2 : ℝ) ^ (-((53 : Nat) : Int))) ≤ 1e-15 := by norm_num
  have h3 : (0 : ℝ) ≤ (2 : ℝ) ^ (-((53 : Nat) : Int)) := by positivity
  calc _ ≤ (2 : ℝ) ^ (-((53 : Nat) : Int)) * 1 := mul_le_mul_of_nonneg_left h1 h3
    _ ≤ 1e-15 := by linarith

/-- rounding to 53 bits -/
abbrev R53 : Rounding ℝ := binary 53 (by norm_num)

theorem R53_fl : R53.fl = roundBits 53 := rfl

theorem R53_u : R53.u = 1 / 9007199254740992 := by
  show (2 : ℝ) ^ (-((53 : Nat) : Int)) = _
  norm_num

theorem cos_acc {F : FloatMath} (hF : DoubleMath F) {y x B η : ℝ} {k : Nat} (h : Acc R53 k y x B) (hk : ((1 + R53.u) ^ k - 1) * B + 1e-15 ≤ η) :
    |F.cos y - Real.cos x| ≤ η := by
  have h1 := hF.cos_err y
  have h2 := h.1
  have h3 : |Real.cos y - Real.cos x| ≤ |y - x| := Real.abs_cos_sub_cos_le y x
  have := abs_add_le (F.cos y - Real.cos y) (Real.cos y - Real.cos x)
  rw [show F.cos y - Real.cos y + (Real.cos y - Real.cos x) = F.cos y - Real.cos x by ring] at this
  linarith

theorem acc_pi : Acc R53 1 (roundBits 53 Real.pi) Real.pi Real.pi := by
  have := (Acc.self R53 Real.pi).round
  rw [abs_of_pos Real.pi_pos] at this
  exact this

theorem Acc.mul_const {R : Rounding ℝ} {k : Nat} {y x B c C : ℝ} (h : Acc R k y x B) (hc : |c| ≤ C) : Acc R k (y * c) (x * c) (B * C) := h.mul (Acc.exact R hc)

theorem cosError_double {F : FloatMath} (hF : DoubleMath F) (modNight : Bool) {lo peak : Int} (h0 : 0 ≤ lo) (h1 : lo ≤ peak) (h2 : peak ≤ 24)
    (h3 : modNight = true → peak - lo ≠ 24) : CosError F modNight lo peak 5e-15 := by
  obtain ⟨fl, c, pi⟩ := F
  obtain ⟨rfl, rfl, c1, c2⟩ := hF
  dsimp only at c1 c2
  have hF : DoubleMath ⟨roundBits 53, c, roundBits 53 Real.pi⟩ := ⟨rfl, rfl, c1, c2⟩
  have p4 := Real.pi_lt_d2
  have p0 := Real.pi_pos
  have num : ((1 + R53.u) ^ 5 - 1) * (2 * Real.pi) + 1e-15 ≤ 5e-15 := by
    rw [R53_u]
    have : ((1 + 1 / 9007199254740992 : ℝ) ^ 5 - 1) * (2 * Real.pi) ≤ ((1 + 1 / 9007199254740992 : ℝ) ^ 5 - 1) * (2 * 3.15) :=
      mul_le_mul_of_nonneg_left (by linarith) (by norm_num)
    refine (add_le_add this (le_refl _)).trans ?_
    norm_num
  intro h hh
  refine cos_acc hF (k := 5) (B := 2 * Real.pi) ?_ num
  unfold angleR sinePhase
  cases modNight with
  | false =>
    simp only [Bool.false_eq_true, if_false]
    have a1 : Acc R53 1 (2 * roundBits 53 Real.pi) (2 * Real.pi) (2 * Real.pi) := by
      have := acc_pi.mul_const (c := 2) (C := 2) (by norm_num)
      simpa [mul_comm] using this
    have a2 : Acc R53 2 (roundBits 53 (2 * roundBits 53 Real.pi) / 24) (2 * Real.pi / 24) (2 * Real.pi / 24) := by
      have := a1.round.mul_const (c := 1 / 24) (C := 1 / 24) (by rw [abs_of_pos] <;> norm_num)
      simpa [div_eq_mul_inv, R53_fl] using this
    have hk : |(((h : Int) - peak : Int) : ℝ)| ≤ 24 := by
      rw [← Int.cast_abs]
      have : |(h : Int) - peak| ≤ 24 := by rw [abs_le]; omega
      exact_mod_cast this
    have a3 := (a2.round.mul_const hk).round
    exact a3.mono (by norm_num) (by linarith)
  | true =>
    simp only [if_true]
    have hne := h3 rfl
    have night : ∀ k : Int, 0 ≤ k → k ≤ 24 - (peak - lo) →
        Acc R53 5 (roundBits 53 (roundBits 53 (roundBits 53 Real.pi / ((24 - (peak - lo) : Int) : ℝ)) * (k : ℝ)))
          (Real.pi / ((24 - (peak - lo) : Int) : ℝ) * (k : ℝ)) (2 * Real.pi) := by
      intro k hk0 hk
      have hD : (0 : ℝ) < ((24 - (peak - lo) : Int) : ℝ) := by
        have : 0 < 24 - (peak - lo) := by omega
        exact_mod_cast this
      have a1 : Acc R53 1 (roundBits 53 Real.pi / ((24 - (peak - lo) : Int) : ℝ)) (Real.pi / ((24 - (peak - lo) : Int) : ℝ)) (Real.pi / ((24 - (peak - lo) : Int) : ℝ)) := by
        have := acc_pi.mul_const (c := (((24 - (peak - lo) : Int) : ℝ))⁻¹) (C := (((24 - (peak - lo) : Int) : ℝ))⁻¹) (by rw [abs_of_pos (inv_pos.2 hD)])
        simpa [div_eq_mul_inv] using this
      have hk' : |(k : ℝ)| ≤ ((24 - (peak - lo) : Int) : ℝ) := by
        rw [abs_of_nonneg (by exact_mod_cast hk0)]
        exact_mod_cast hk
      have a2 := (a1.round.mul_const hk').round
      refine a2.mono (by norm_num) ?_
      rw [div_mul_cancel₀ _ hD.ne']
      linarith
    by_cases c1 : peak ≤ (h : Int)
    · rw [if_pos c1, if_pos c1]
      exact night _ (by omega) (by omega)
    · rw [if_neg c1, if_neg c1]
      by_cases c2 : lo < (h : Int)
      · rw [if_pos c2, if_pos c2]
        have hD : (0 : ℝ) < ((peak - lo : Int) : ℝ) := by
          have : 0 < peak - lo := by omega
          exact_mod_cast this
        have a1 : Acc R53 2 (roundBits 53 (1.25 * roundBits 53 Real.pi)) (1.25 * Real.pi) (1.25 * Real.pi) := by
          have := acc_pi.mul_const (c := 1.25) (C := 1.25) (by norm_num [abs_of_pos])
          rw [mul_comm, mul_comm Real.pi] at this
          exact this.round
        have b1 : Acc R53 2 (roundBits 53 (0.75 * roundBits 53 Real.pi)) (0.75 * Real.pi) (0.75 * Real.pi) := by
          have := acc_pi.mul_const (c := 0.75) (C := 0.75) (by norm_num [abs_of_pos])
          rw [mul_comm, mul_comm Real.pi] at this
          exact this.round
        have b2 : Acc R53 2 (roundBits 53 (0.75 * roundBits 53 Real.pi) / ((peak - lo : Int) : ℝ)) (0.75 * Real.pi / ((peak - lo : Int) : ℝ))
            (0.75 * Real.pi / ((peak - lo : Int) : ℝ)) := by
          have := b1.mul_const (c := (((peak - lo : Int) : ℝ))⁻¹) (C := (((peak - lo : Int) : ℝ))⁻¹) (by rw [abs_of_pos (inv_pos.2 hD)])
          simpa [div_eq_mul_inv] using this
        have hk : |(((h : Int) - lo : Int) : ℝ)| ≤ ((peak - lo : Int) : ℝ) := by
          rw [abs_of_nonneg (by have : 0 ≤ (h : Int) - lo := by omega
                                exact_mod_cast this)]
          have : (h : Int) - lo ≤ peak - lo := by omega
          exact_mod_cast this
        have b3 := (b2.round.mul_const hk).round
        rw [div_mul_cancel₀ _ hD.ne'] at b3
        have t := ((a1.mono (by norm_num : 2 ≤ 4) (le_refl _)).add b3).round
        exact t.mono (le_refl _) (by linarith)
      · rw [if_neg c2, if_neg c2]
        exact night _ (by omega) (by omega)

theorem windCosError_double {F : FloatMath} (hF : DoubleMath F) {tShift : ℝ} (ht : |tShift| ≤ 24) : WindCosError F tShift 7e-15 := by
  obtain ⟨fl, c, pi⟩ := F
  obtain ⟨rfl, rfl, c1, c2⟩ := hF
  dsimp only at c1 c2
  have hF : DoubleMath ⟨roundBits 53, c, roundBits 53 Real.pi⟩ := ⟨rfl, rfl, c1, c2⟩
  have p4 := Real.pi_lt_d2
  have num : ((1 + R53.u) ^ 4 - 1) * (Real.pi * 48 * (1 / 12)) + 1e-15 ≤ 7e-15 := by
    rw [R53_u]
    have : ((1 + 1 / 9007199254740992 : ℝ) ^ 4 - 1) * (Real.pi * 48 * (1 / 12)) ≤ ((1 + 1 / 9007199254740992 : ℝ) ^ 4 - 1) * (3.15 * 48 * (1 / 12)) :=
      mul_le_mul_of_nonneg_left (by linarith) (by norm_num)
    refine (add_le_add this (le_refl _)).trans ?_
    norm_num
  intro h hh
  refine cos_acc hF (k := 4) (B := Real.pi * 48 * (1 / 12)) ?_ num
  have hk : |(h : ℝ) - tShift| ≤ 48 := by
    have h24 : |(h : ℝ)| ≤ 24 := by
      rw [abs_of_nonneg (Nat.cast_nonneg h)]
      exact_mod_cast hh.le
    exact (abs_sub _ _).trans (by linarith)
  have a1 := (Acc.exact R53 hk).round
  have a2 := (acc_pi.mul a1).round
  have a3 := (a2.mul_const (c := 1 / 12) (C := 1 / 12) (by rw [abs_of_pos] <;> norm_num)).round
  simpa [div_eq_mul_inv, R53_fl] using a3

/-- the mean of a list of numbers in rounded arithmetic: additions in any order, then a division -/
def RoundedMean (fl : ℝ → ℝ) (mean : List (XF ℝ) → XF ℝ) : Prop :=
  ∀ l : List ℝ, l ≠ [] → ∃ t, AddsTo fl l t ∧ mean (l.map .fin) = .fin (fl (t / l.length))

theorem Acc.addsTo (R : Rounding ℝ) {l : List ℝ} {t : ℝ} (h : AddsTo R.fl l t) : 0 < l.length ∧ Acc R (l.length - 1) t l.sum (l.map fun x => |x|).sum := by
  induction h with
  | one x => refine ⟨by simp, ?_⟩; simpa using Acc.self R x
  | @add l m a b _ _ ih1 ih2 =>
    obtain ⟨n1, a1⟩ := ih1
    obtain ⟨n2, a2⟩ := ih2
    rw [List.length_append, List.sum_append, List.map_append, List.sum_append]
    refine ⟨by omega, ?_⟩
    have := ((a1.mono (l := l.length + m.length - 2) (by omega) (le_refl _)).add (a2.mono (by omega) (le_refl _))).round
    rwa [show l.length + m.length - 2 + 1 = l.length + m.length - 1 by omega] at this
  | perm _ hp ih => rwa [← hp.length_eq, ← hp.sum_eq, ← (hp.map _).sum_eq]

/-- the mean of 24 numbers is computed up to 24 roundings -/
theorem roundedMean_day {R : Rounding ℝ} {mean : List (XF ℝ) → XF ℝ} (hmean : RoundedMean R.fl mean) (f : Nat → ℝ) :
    ∃ μ, mean ((day24 f).map .fin) = .fin μ ∧ Acc R 24 μ ((day24 f).sum / 24) ((day24 fun h => |f h|).sum / 24) := by
  obtain ⟨t, h1, h2⟩ := hmean (day24 f) (by simp [day24])
  refine ⟨_, h2, ?_⟩
  have a := (Acc.addsTo R h1).2
  rw [day24_length] at a ⊢
  have e : (List.map (fun x => |x|) (day24 f)) = day24 fun h => |f h| := day24_map _ _
  rw [e] at a
  have := (a.mul_const (c := 1 / 24) (C := 1 / 24) (by rw [abs_of_pos] <;> norm_num)).round
  simpa [div_eq_mul_inv] using this

theorem R53_pow4 : (1 + R53.u) ^ 4 - 1 ≤ 4.5e-16 := by
  rw [R53_u]; norm_num

theorem DoubleMath.eta {F : FloatMath} (hF : DoubleMath F) : F = ⟨R53.fl, F.cos, F.pi⟩ := by
  obtain ⟨fl, c, pi⟩ := F
  obtain ⟨rfl, rfl, _, _⟩ := hF
  rfl

/-- **C111 (binary64, sine_min_max).**  Every hour differs from the value in exact arithmetic by at most 1e-14 times the largest of the temperatures used. -/
theorem C111_double_sine (F : FloatMath) (hF : DoubleMath F) (mean : List (XF ℝ) → XF ℝ) (api : PandasApi)
    (hd : TempDays daily d0 n tmin tmax temp) (method mmt : String) (hm : IsSine method)
    (modNight : Bool) (md : Option (List (Int × XF ℝ))) (course : Option (MeanCourse ℝ)) (sun : Series SunTimes) (out : Series (XF ℝ))
    (hret : disaggregateTemperatureR F mean api daily method mmt modNight md course (some sun) = .ok out) (i : Nat) (hi : i < n)
    (a a' b b' M : ℝ) (ha : tmin i = .fin a) (ha' : nextDay n tmin i = .fin a') (hb : tmax i = .fin b) (hb' : prevDay tmax i = .fin b')
    (hM : |a| ≤ M ∧ |a'| ≤ M ∧ |b| ≤ M ∧ |b'| ≤ M) (lo peak : Int) (hloc : IsLoc mmt md sun (at00 (d0 + i)) lo peak)
    (h0 : 0 ≤ lo) (h1 : lo ≤ peak) (h2 : peak ≤ 24) (hshort : modNight = true → peak - lo ≠ 24) :
    ∃ exact, disaggregateTemperature api daily method mmt modNight md course (some sun) = .ok exact ∧ ∀ h : Nat, h < 24 → ∃ x y,
      (dayCells out (d0 + i))[h]? = some (.fin x) ∧ (dayCells exact (d0 + i))[h]? = some (.fin y) ∧ |x - y| ≤ 1e-14 * M := by
  have hc := cosError_double hF modNight h0 h1 h2 hshort
  rw [hF.eta] at hret hc
  obtain ⟨ex, e1, e2⟩ := C111_sine_error R53 F.cos hF.cos_le F.pi mean api hd method mmt hm modNight md course sun out hret i hi a a' b b' M 5e-15
    ha ha' hb hb' hM lo peak hloc hshort hc
  refine ⟨ex, e1, fun h hh => ?_⟩
  obtain ⟨x, y, k1, k2, k3⟩ := e2 h hh
  refine ⟨x, y, k1, k2, k3.trans ?_⟩
  have hM0 : 0 ≤ M := (abs_nonneg a).trans hM.1
  have := mul_le_mul_of_nonneg_right R53_pow4 (show 0 ≤ 3 * M by linarith)
  linarith

/-- **C111 (binary64, daily means of temperature).**  'sine_mean' and 'mean_course_mean': the mean of the 24 values of a day is the daily mean t up to 1e-14·(|t| + |tmax - tmin|). -/
theorem C111_double_mean (F : FloatMath) (hF : DoubleMath F) (mean : List (XF ℝ) → XF ℝ) (hmean : RoundedMean (roundBits 53) mean) (api : PandasApi)
    (hd : TempDays daily d0 n tmin tmax temp) (hn : 0 < n) (mmt : String) (modNight : Bool) (md : Option (List (Int × XF ℝ))) :
    (∀ course sun out, disaggregateTemperatureR F mean api daily "sine_mean" mmt modNight md course (some sun) = .ok out →
      ∀ i < n, ∀ a b t : ℝ, tmin i = .fin a → tmax i = .fin b → temp i = .fin t → ∀ lo peak, IsLoc mmt md sun (at00 (d0 + i)) lo peak →
        0 ≤ lo → lo ≤ peak → peak ≤ 24 → ∃ x, MeanIs (dayCells out (d0 + i)) x ∧ |x - t| ≤ 1e-14 * (|t| + |b - a|)) ∧
    (∀ (c : MeanCourse ℝ) sun, Covers c d0 n → c.hours = ((List.range 24).map fun h : Nat => (h : Int)) →
      ∃ out, disaggregateTemperatureR F mean api daily "mean_course_mean" mmt modNight md (some c) sun = .ok out ∧
      ∀ i < n, ∀ a b t : ℝ, tmin i = .fin a → tmax i = .fin b → temp i = .fin t →
        (∀ h : Nat, h < 24 → ∃ y, c.val (monthOf (at00 (d0 + i))) h = .fin y ∧ |y| ≤ 1) →
        ∃ x, MeanIs (dayCells out (d0 + i)) x ∧ |x - t| ≤ 1e-14 * (|t| + |b - a|)) := by
  refine ⟨?_, ?_⟩
  · intro course sun out hret i hi a b t ha hb ht lo peak hloc h0 h1 h2
    have hc := cosError_double hF false h0 h1 h2 (by simp)
    rw [hF.eta] at hret hc
    obtain ⟨x, hx, he⟩ := C111_sine_mean R53 F.cos hF.cos_le F.pi mean api hd mmt modNight md course sun out hret i hi a b t 5e-15 ha hb ht lo peak hloc hc
    refine ⟨x, hx, he.trans ?_⟩
    have := mul_le_mul_of_nonneg_right R53_pow4 (show 0 ≤ |t| + |b - a| / 2 by positivity)
    have p1 := abs_nonneg t
    have p2 := abs_nonneg (b - a)
    linarith
  · intro c sun hc hh
    obtain ⟨out, h1, h2⟩ := C111_course_mean R53 F.cos F.pi mean api hd hn mmt modNight md sun c hc
    rw [← hF.eta] at h1
    refine ⟨out, h1, ?_⟩
    intro i hi a b t ha hb ht hf
    choose! f hf using hf
    obtain ⟨μ, hμ, acc⟩ := roundedMean_day (R := R53) hmean f
    have hcol : c.column (monthOf (at00 (d0 + i))) = (day24 f).map .fin := by
      unfold MeanCourse.column
      rw [hh, List.map_map, day24_map]
      exact day24_congr fun h hh => (hf h hh).1
    rw [← hcol] at hμ
    have hB : (day24 fun h => |f h|).sum / 24 ≤ 1 := by
      rw [div_le_one (by norm_num)]
      have : (day24 fun h => |f h|).sum ≤ (day24 fun _ => (1 : ℝ)).sum := List.sum_le_sum fun h hh => (hf h (List.mem_range.1 hh)).2
      rw [sum_day24_const] at this
      linarith
    have hδ : |μ - (day24 f).sum / 24| ≤ 3e-15 := by
      refine acc.1.trans ?_
      have h24 : (1 + R53.u) ^ 24 - 1 ≤ 3e-15 := by rw [R53_u]; norm_num
      have h240 : 0 ≤ (1 + R53.u) ^ 24 - 1 := by linarith [one_le_hi_pow R53 24]
      calc _ ≤ ((1 + R53.u) ^ 24 - 1) * 1 := mul_le_mul_of_nonneg_left hB h240
        _ ≤ _ := by linarith
    obtain ⟨x, hx, he⟩ := h2 i hi a b t μ 3e-15 f ha hb ht hf hμ hδ
    refine ⟨x, hx, he.trans ?_⟩
    have := mul_le_mul_of_nonneg_right R53_pow4 (show (0 : ℝ) ≤ |t| + |b - a| * (2 + 3e-15) by positivity)
    have p1 := abs_nonneg t
    have p2 := abs_nonneg (b - a)
    linarith

/-- **C111 (binary64, wind).**  'cosine' with |t_shift| ≤ 24: the mean of a day is b·m up to 1e-14·(|a·m| + |b·m|), and with |a| ≤ b no value is negative. -/
theorem C111_double_wind (F : FloatMath) (hF : DoubleMath F) (api : PandasApi) (d0 : Int) (n : Nat) (hn : 0 < n) (v : Nat → XF ℝ) (a b tShift : ℝ) (ht : |tShift| ≤ 24) :
    ∃ l, disaggregateWindR F api (dailyS d0 n v) "cosine" a b tShift = .ok l ∧ l.length = 24 * n ∧
      ∀ i < n, ∀ m, v i = .fin m → (∃ x, MeanIs (arrayDay l i) x ∧ |x - b * m| ≤ 1e-14 * (|a * m| + |b * m|)) ∧
        (|a| ≤ b → 0 ≤ m → ∀ c ∈ arrayDay l i, ∃ y, c = .fin y ∧ 0 ≤ y) := by
  obtain ⟨_, l, h1, h2, h3⟩ := C111_wind R53 F.cos hF.cos_le F.pi api d0 n hn v a b tShift
  rw [← hF.eta] at h1 h3
  refine ⟨l, h1, h2, ?_⟩
  intro i hi m hm
  obtain ⟨k1, k2⟩ := (h3 i hi).2 m hm
  refine ⟨?_, k2 (roundBits_neg 53)⟩
  obtain ⟨x, hx, he⟩ := k1 _ (windCosError_double hF ht)
  refine ⟨x, hx, he.trans ?_⟩
  have h3 : (1 + R53.u) ^ 3 - 1 ≤ 4.5e-16 := by rw [R53_u]; norm_num
  have p1 := abs_nonneg (a * m)
  have p2 := abs_nonneg (b * m)
  have := mul_le_mul_of_nonneg_right h3 (add_nonneg p1 p2)
  linarith

/-- **C111 (binary64, radiation).**  The mean of a day with daily value g ≥ 0 is at most (1 + 1e-14)·g and more than (1 - 1e-14)·g - 0.0100000000000001. -/
theorem C111_double_radiation (F : FloatMath) (hF : DoubleMath F) (mean : List (XF ℝ) → XF ℝ) (hmean : RoundedMean (roundBits 53) mean) (d0 : Int) (n : Nat) (hn : 0 < n)
    (v : Nat → XF ℝ) (p : Nat → Nat → XF ℝ) :
    ∃ out, radiationCoreR F mean (hourlyS d0 n p) (dailyS d0 n v) = .ok out ∧
      ∀ i < n, ∀ (q : Nat → ℝ) (g : ℝ), (∀ h < 24, p i h = .fin (q h) ∧ 0 ≤ q h) → (∃ h < 24, 0 < q h) → v i = .fin g → 0 ≤ g →
        ∃ x, MeanIs (dayCells out (d0 + i)) x ∧ x ≤ (1 + 1e-14) * g ∧ (1 - 1e-14) * g - 0.0100000000000001 < x := by
  obtain ⟨out, h1, h2⟩ := C111_radiation R53 F.cos F.pi mean d0 n hn v p
  rw [← hF.eta] at h1
  refine ⟨out, h1, ?_⟩
  intro i hi q g hq hpos hg hg0
  obtain ⟨μ, hμ, acc⟩ := roundedMean_day (R := R53) hmean q
  have e : (day24 q).map XF.fin = day24 (p i) := by
    rw [day24_map]
    exact (day24_congr fun h hh => (hq h hh).1).symm
  rw [e] at hμ
  have e2 : (day24 fun h => |q h|) = day24 q := day24_congr fun h hh => abs_of_nonneg (hq h hh).2
  rw [e2] at acc
  obtain ⟨_, x, hx, x1, x2⟩ := h2 i hi q g μ ((1 + R53.u) ^ 24 - 1) hq hpos hg hg0 hμ (by linarith [one_le_hi_pow R53 24]) (by rw [R53_u]; norm_num) acc.1
  refine ⟨x, hx, x1.trans (mul_le_mul_of_nonneg_right ?_ hg0), lt_of_le_of_lt (sub_le_sub (mul_le_mul_of_nonneg_right ?_ hg0) ?_) x2⟩
  · rw [R53_u]; norm_num
  · rw [R53_u]; norm_num
  · have := (R53.fl_bounds (x := 0.01) (by norm_num)).2
    refine this.trans ?_
    rw [R53_u]; norm_num

/-! ## examples -/

/-- additions from left to right -/
theorem addsTo_left (fl : ℝ → ℝ) : ∀ (xs l : List ℝ) (a : ℝ), AddsTo fl l a → AddsTo fl (l ++ xs) (xs.foldl (fun a b => fl (a + b)) a)
  | [], l, a, h => by simpa using h
  | x :: xs, l, a, h => by
    have := addsTo_left fl xs (l ++ [x]) (fl (a + x)) (h.add (.one x))
    simpa using this

/-- a mean that adds from left to right, missing values apart -/
def leftMean (fl : ℝ → ℝ) (l : List (XF ℝ)) : XF ℝ :=
  match numbers l with
  | [] => .nan
  | x :: xs => .fin (fl (xs.foldl (fun a b => fl (a + b)) x / (x :: xs).length))

theorem leftMean_rounded (fl : ℝ → ℝ) : RoundedMean fl (leftMean fl) := by
  intro l hl
  cases l with
  | nil => exact absurd rfl hl
  | cons x xs =>
    refine ⟨_, addsTo_left fl xs [x] x (.one x), ?_⟩
    unfold leftMean
    rw [numbers_map_fin]

theorem exOkR (F : FloatMath) (mean : List (XF ℝ) → XF ℝ) {method : String} (hm : method = "sine_min_max" ∨ method = "sine_mean" ∨ method = "sine") (modNight : Bool) :
    ∃ out, disaggregateTemperatureR F mean .modern exFrame method "fix" modNight none none (some exSun) = .ok out := by
  obtain ⟨out, h⟩ := sine_ok .modern exDays (by decide) hm modNight none (fun _ _ => ⟨7, 14, .inl ⟨rfl, rfl, rfl⟩⟩) (by decide) exSun_long
  have := C111_same_outcome F mean .modern exFrame method "fix" modNight none none (some exSun)
  rw [h] at this
  cases h' : disaggregateTemperatureR F mean .modern exFrame method "fix" modNight none none (some exSun) with
  | error e => rw [h'] at this; cases this
  | ok out => exact ⟨out, rfl⟩

/-- sine_min_max with mod_nighttime: the first day of the example in binary64 -/
example : ∃ out exact, disaggregateTemperatureR ⟨roundBits 53, fun x => roundBits 53 (Real.cos x), roundBits 53 Real.pi⟩ (leftMean (roundBits 53)) .modern exFrame
      "sine" "fix" true none none (some exSun) = .ok out ∧
    disaggregateTemperature .modern exFrame "sine" "fix" true none none (some exSun) = .ok exact ∧
    ∀ h : Nat, h < 24 → ∃ x y, (dayCells out (0 + (0 : Nat)))[h]? = some (.fin x) ∧ (dayCells exact (0 + (0 : Nat)))[h]? = some (.fin y) ∧ |x - y| ≤ 1e-14 * 303 := by
  obtain ⟨out, h⟩ := exOkR ⟨roundBits 53, fun x => roundBits 53 (Real.cos x), roundBits 53 Real.pi⟩ (leftMean (roundBits 53)) (.inr (.inr rfl)) true
  obtain ⟨ex, h1, h2⟩ := C111_double_sine _ double_exists _ .modern exDays "sine" "fix" (.inr rfl) true none none exSun out h 0 (by decide) 283 273 293 293 303 rfl rfl rfl rfl
    (by norm_num) 7 14 (.inl ⟨rfl, rfl, rfl⟩) (by decide) (by decide) (by decide) (by decide)
  exact ⟨out, ex, h, h1, h2⟩

/-- the envelope of the first day -/
example : ∃ out, disaggregateTemperatureR ⟨roundBits 53, fun x => roundBits 53 (Real.cos x), roundBits 53 Real.pi⟩ meanSkip .modern exFrame
      "sine_min_max" "fix" false none none (some exSun) = .ok out ∧ ∀ x, .fin x ∈ dayCells out (0 + (0 : Nat)) → 272.9 ≤ x ∧ x ≤ 293.1 := by
  obtain ⟨out, h⟩ := exOkR ⟨roundBits 53, fun x => roundBits 53 (Real.cos x), roundBits 53 Real.pi⟩ meanSkip (.inl rfl) false
  refine ⟨out, h, fun x hx => ?_⟩
  have := C111_sine_envelope R53 _ double_exists.cos_le _ meanSkip .modern exDays "sine_min_max" "fix" (.inl rfl) false none none (some exSun) out h 0 (by decide)
    283 273 293 293 293 rfl rfl rfl rfl (by norm_num) (by norm_num) (by norm_num) (by norm_num) (by norm_num) x hx
  have p := R53_pow4
  rw [min_eq_right (by norm_num), max_self] at this
  constructor <;> linarith [this.1, this.2]

/-- sine_mean and mean_course_mean: the second day of the example in binary64 -/
example : (∃ out x, disaggregateTemperatureR ⟨roundBits 53, fun x => roundBits 53 (Real.cos x), roundBits 53 Real.pi⟩ (leftMean (roundBits 53)) .modern exFrame
      "sine_mean" "fix" false none none (some exSun) = .ok out ∧ MeanIs (dayCells out (0 + (1 : Nat))) x ∧ |x - 288| ≤ 1e-14 * (|288| + |303 - 273|)) ∧
    ∃ out x, disaggregateTemperatureR ⟨roundBits 53, fun x => roundBits 53 (Real.cos x), roundBits 53 Real.pi⟩ (leftMean (roundBits 53)) .modern exFrame
      "mean_course_mean" "fix" false none (some exCourse) none = .ok out ∧ MeanIs (dayCells out (0 + (1 : Nat))) x ∧ |x - 288| ≤ 1e-14 * (|288| + |303 - 273|) := by
  have := C111_double_mean _ double_exists _ (leftMean_rounded _) .modern exDays (by decide) "fix" false none
  refine ⟨?_, ?_⟩
  · obtain ⟨out, h⟩ := exOkR ⟨roundBits 53, fun x => roundBits 53 (Real.cos x), roundBits 53 Real.pi⟩ (leftMean (roundBits 53)) (.inr (.inl rfl)) false
    obtain ⟨x, hx, he⟩ := this.1 none exSun out h 1 (by decide) 273 303 288 rfl rfl rfl 7 14 (.inl ⟨rfl, rfl, rfl⟩) (by decide) (by decide) (by decide)
    exact ⟨out, x, h, hx, he⟩
  · obtain ⟨out, h, h2⟩ := this.2 exCourse none exCovers rfl
    obtain ⟨x, hx, he⟩ := h2 1 (by decide) 273 303 288 rfl rfl rfl (fun h hh => by
      obtain ⟨y, hy, h0, h1⟩ := (exCourse_norm (monthOf (at00 (0 + (1 : Nat))))).range h hh
      exact ⟨y, hy, abs_le.2 ⟨by linarith, h1⟩⟩)
    exact ⟨out, x, h, hx, he⟩

/-- mean_course_min_max: minimum and maximum of the second day -/
example : ∃ out, disaggregateTemperatureR ⟨roundBits 53, fun x => roundBits 53 (Real.cos x), roundBits 53 Real.pi⟩ meanSkip .modern exFrame
      "mean_course_min_max" "fix" false none (some exCourse) none = .ok out ∧ MinIs (dayCells out (0 + (1 : Nat))) 273 := by
  obtain ⟨out, h, h2⟩ := C111_course_min_max R53 (fun x => roundBits 53 (Real.cos x)) (roundBits 53 Real.pi) meanSkip .modern exDays.index (by decide) exDays.hmin exDays.hmax "fix"
    false none none exCourse exCovers
  refine ⟨out, h, (h2 1 (by decide) 273 303 rfl rfl ?_ (by norm_num) (exCourse_norm _)).1⟩
  have hlog : Int.log 2 |(273 : ℝ)| = 8 := by
    rw [abs_of_pos (by norm_num)]
    have := Int.log_natCast (R := ℝ) 2 273
    rw [show Nat.log 2 273 = 8 by decide +kernel] at this
    exact_mod_cast this
  exact roundBits_grid (K := ℝ) (p := 53) (k := 273) (j := 0) (by norm_num) (by rw [hlog]; norm_num)

/-- wind: two days, the first with mean 5 -/
example : ∃ l x, disaggregateWindR ⟨roundBits 53, fun x => roundBits 53 (Real.cos x), roundBits 53 Real.pi⟩ .modern (dailyS 0 2 fun i => if i = 0 then .fin 5 else .nan)
      "cosine" 0.3 1 14 = .ok l ∧ MeanIs (arrayDay l 0) x ∧ |x - 1 * 5| ≤ 1e-14 * (|0.3 * 5| + |1 * 5|) ∧ ∀ c ∈ arrayDay l 0, ∃ y, c = .fin y ∧ 0 ≤ y := by
  obtain ⟨l, h, _, h2⟩ := C111_double_wind _ double_exists .modern 0 2 (by decide) (fun i => if i = 0 then .fin 5 else .nan) 0.3 1 14 (by norm_num [abs_of_pos])
  obtain ⟨⟨x, hx, he⟩, h3⟩ := h2 0 (by decide) 5 rfl
  exact ⟨l, x, h, hx, he, h3 (by rw [abs_of_pos] <;> norm_num) (by norm_num)⟩

/-- radiation: one day with two sunny hours -/
example : ∃ out x, radiationCoreR ⟨roundBits 53, fun x => roundBits 53 (Real.cos x), roundBits 53 Real.pi⟩ (leftMean (roundBits 53))
      (hourlyS 0 1 fun _ h => .fin (if h = 12 then 500 else if h = 13 then 300 else 0)) (dailyS 0 1 fun _ => .fin 20) = .ok out ∧
    MeanIs (dayCells out (0 + (0 : Nat))) x ∧ x ≤ (1 + 1e-14) * 20 ∧ (1 - 1e-14) * 20 - 0.0100000000000001 < x := by
  obtain ⟨out, h, h2⟩ := C111_double_radiation _ double_exists _ (leftMean_rounded _) 0 1 (by decide) (fun _ => .fin 20)
    (fun _ h => .fin (if h = 12 then 500 else if h = 13 then 300 else 0))
  obtain ⟨x, hx, h3⟩ := h2 0 (by decide) (fun h => if h = 12 then 500 else if h = 13 then 300 else 0) 20
    (fun h _ => ⟨rfl, by split <;> [norm_num; split <;> norm_num]⟩) ⟨12, by decide, by norm_num⟩ rfl (by norm_num)
  exact ⟨out, x, h, hx, h3⟩

end

end Melodist
