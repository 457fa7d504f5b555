import Verif.Props.PackageTests

/-!
# C145: the assertions of the tests of the package on temperature and radiation
-/

set_option linter.unusedSectionVars false

namespace Melodist
open Spec

noncomputable section

variable {daily : Frame ℝ} {d0 : Int} {n : Nat} {tmin tmax temp : Nat → XF ℝ}

/-! ## a day -/

/-- the largest and smallest of 24 values close to values with known extremes -/
theorem extremes_day {y e : Nat → ℝ} {ε m M : ℝ} (h : ∀ k < 24, |y k - e k| ≤ ε) (hb : ∀ k < 24, m ≤ e k ∧ e k ≤ M) (h0 : ∃ k < 24, e k = m) (h1 : ∃ k < 24, e k = M) :
    ∃ mn mx, MinIs ((day24 y).map .fin) mn ∧ MaxIs ((day24 y).map .fin) mx ∧ |mn - m| ≤ ε ∧ |mx - M| ≤ ε := by
  obtain ⟨a, ha, ha'⟩ := Finset.exists_min_image (Finset.range 24) y ⟨0, by simp⟩
  obtain ⟨b, hb0, hb'⟩ := Finset.exists_max_image (Finset.range 24) y ⟨0, by simp⟩
  rw [Finset.mem_range] at ha hb0
  refine ⟨y a, y b, ⟨_, rfl, mem_day24.2 ⟨a, ha, rfl⟩, ?_⟩, ⟨_, rfl, mem_day24.2 ⟨b, hb0, rfl⟩, ?_⟩, ?_, ?_⟩
  · intro z hz
    obtain ⟨k, hk, rfl⟩ := mem_day24.1 hz
    exact ha' k (Finset.mem_range.2 hk)
  · intro z hz
    obtain ⟨k, hk, rfl⟩ := mem_day24.1 hz
    exact hb' k (Finset.mem_range.2 hk)
  · obtain ⟨k, hk, ek⟩ := h0
    have := ha' k (Finset.mem_range.2 hk)
    obtain ⟨h2, h3⟩ := abs_le.1 (h k hk)
    obtain ⟨h4, h5⟩ := abs_le.1 (h a ha)
    rw [abs_le]
    constructor <;> linarith [(hb a ha).1]
  · obtain ⟨k, hk, ek⟩ := h1
    have := hb' k (Finset.mem_range.2 hk)
    obtain ⟨h2, h3⟩ := abs_le.1 (h k hk)
    obtain ⟨h4, h5⟩ := abs_le.1 (h b hb0)
    rw [abs_le]
    constructor <;> linarith [(hb b hb0).2]

/-- the comparisons of a day with daily mean `t` and extremes `a`, `b`, the cells being those of `y` -/
theorem day_checks {mean : List (XF ℝ) → XF ℝ} (hm : AveragesDay mean) {y e : Nat → ℝ} {m a b t x : ℝ} (ht : |t| ≤ 10 ^ 6) (ha : |a| ≤ 10 ^ 6) (hb : |b| ≤ 10 ^ 6)
    (h : ∀ k < 24, |y k - e k| ≤ 1e-4) (hm' : |m| ≤ 10 ^ 7) (hbd : ∀ k < 24, m ≤ e k ∧ e k ≤ m + (b - a)) (h0 : ∃ k < 24, e k = m) (h1 : ∃ k < 24, e k = m + (b - a))
    (hx : MeanIs ((day24 y).map .fin) x) (hxt : |x - t| ≤ 1e-4) :
    IsClose (roundBits 53) (.fin t) (mean ((day24 y).map .fin)) ∧
    ∃ mn mx, MinIs ((day24 y).map .fin) mn ∧ MaxIs ((day24 y).map .fin) mx ∧ IsClose (roundBits 53) (.fin (roundBits 53 (b - a))) (.fin (roundBits 53 (mx - mn))) := by
  have hba : |b - a| ≤ 2 * 10 ^ 6 := (abs_sub _ _).trans (by linarith)
  obtain ⟨m1, m2⟩ := abs_le.1 hm'
  obtain ⟨d1, d2⟩ := abs_le.1 hba
  constructor
  · obtain ⟨s, s1, s2⟩ := averages_day hm (f := y) (B := 10 ^ 8) (fun k hk => by
      obtain ⟨h2, h3⟩ := abs_le.1 (h k hk)
      have := hbd k hk
      norm_num at m1 m2 d1 d2 h2 h3 ⊢
      rw [abs_le]
      constructor <;> linarith) (pow_le_pow_right₀ (by norm_num) (by norm_num))
    rw [s1]
    apply isClose53
    obtain ⟨ys, e1, e2, e3⟩ := hx
    have e4 : ys = day24 y := by
      have := congrArg numbers e1
      rw [numbers_map_fin, numbers_map_fin] at this
      exact this.symm
    rw [e4, day24_length] at e3
    push_cast at e3
    rw [e3] at s2
    have := abs_nonneg s
    have h5 : |t - s| ≤ |t - x| + |x - s| := abs_sub_le _ _ _
    rw [abs_sub_comm t x, abs_sub_comm x s] at h5
    norm_num at s2 hxt ⊢
    linarith
  · obtain ⟨mn, mx, h2, h3, h4, h5⟩ := extremes_day h hbd h0 h1
    refine ⟨mn, mx, h2, h3, ?_⟩
    rw [← R53_fl]
    refine isClose_of (closeFl_R53 _) ?_ (le_refl _)
    have k1 := closeFl_R53 (|b - a|) (b - a) (le_refl _)
    have k2 := closeFl_R53 (|mx - mn|) (mx - mn) (le_refl _)
    have k3 : |(mx - mn) - (b - a)| ≤ 2e-4 := by
      obtain ⟨p1, p2⟩ := abs_le.1 h4
      obtain ⟨p3, p4⟩ := abs_le.1 h5
      norm_num at p1 p2 p3 p4 ⊢
      rw [abs_le]
      constructor <;> linarith
    have k4 : |mx - mn| ≤ |(mx - mn) - (b - a)| + |b - a| := by
      have := abs_add_le ((mx - mn) - (b - a)) (b - a)
      simpa using this
    have k5 : |R53.fl (b - a) - R53.fl (mx - mn)| ≤ |R53.fl (b - a) - (b - a)| + (|(mx - mn) - (b - a)| + |R53.fl (mx - mn) - (mx - mn)|) := by
      have q1 := abs_sub_le (R53.fl (b - a)) (b - a) (R53.fl (mx - mn))
      have q2 := abs_sub_le (b - a) (mx - mn) (R53.fl (mx - mn))
      rw [abs_sub_comm (b - a) (mx - mn), abs_sub_comm (mx - mn) (R53.fl (mx - mn))] at q2
      linarith
    have k6 := abs_nonneg (R53.fl (mx - mn))
    norm_num at k1 k2 k3 hba ⊢
    linarith

/-! ## temperature -/

/-- **C145 (sine_mean).**  tests/test_temperature.py:38-55: on a day with temperatures of at most 10⁶ in size all 24 values are numbers, and the comparisons of the daily mean and of the daily range pass. -/
theorem C145_sine_mean (F : FloatMath) (hF : DoubleMath F) {mean mean' : List (XF ℝ) → XF ℝ} (hm : AveragesDay mean) (hm' : RoundedMean (roundBits 53) mean') (api : PandasApi)
    (hd : TempDays daily d0 n tmin tmax temp) (hn : 0 < n) (mmt : String) (modNight : Bool) (md : Option (List (Int × XF ℝ))) (course : Option (MeanCourse ℝ)) (sun : Series SunTimes)
    (out : Series (XF ℝ)) (hret : disaggregateTemperatureR F mean' api daily "sine_mean" mmt modNight md course (some sun) = .ok out) (i : Nat) (hi : i < n) (a b t : ℝ)
    (ha : tmin i = .fin a) (hb : tmax i = .fin b) (ht : temp i = .fin t) (hab : a ≤ b) (hsize : |a| ≤ 10 ^ 6 ∧ |b| ≤ 10 ^ 6 ∧ |t| ≤ 10 ^ 6) (lo peak : Int)
    (hloc : IsLoc mmt md sun (at00 (d0 + i)) lo peak) (h0 : 0 ≤ lo) (h1 : lo ≤ peak) (h2 : peak ≤ 24) :
    (∀ c ∈ dayCells out (d0 + i), ∃ x, c = .fin x) ∧ IsClose (roundBits 53) (temp i) (mean (dayCells out (d0 + i))) ∧
    ∃ mn mx, MinIs (dayCells out (d0 + i)) mn ∧ MaxIs (dayCells out (d0 + i)) mx ∧ IsClose (roundBits 53) (.fin (roundBits 53 (b - a))) (.fin (roundBits 53 (mx - mn))) := by
  obtain ⟨x, hx, hxt⟩ := (C111_double_mean F hF mean' hm' api hd hn mmt modNight md).1 course sun out hret i hi a b t ha hb ht lo peak hloc h0 h1 h2
  have hη := cosError_double hF false h0 h1 h2 (by simp)
  rw [hF.eta] at hret hη
  set c : Nat → ℝ := fun h => F.cos (angleR ⟨R53.fl, F.cos, F.pi⟩ false lo peak h) with hc
  set y : Nat → ℝ := fun h => R53.fl (t + R53.fl (R53.fl (R53.fl (b - a) / 2) * c h)) with hy
  have e : dayCells out (d0 + i) = (day24 y).map XF.fin := by
    rw [sine_dayR hd (.inr (.inl rfl)) hret hi hloc, day24_map]
    apply day24_congr
    intro h _
    rw [if_pos rfl]
    unfold sineMeanCellR locRow
    dsimp only
    rw [ha, hb, ht, XF.fin_sub_fin]
    unfold XF.rnd
    simp only
    rw [XF.fin_div_fin_of_ne _ (by norm_num)]
    simp only [FloatMath.cosCell, hc, hy, angleR, XF.fin_mul_fin, XF.fin_add_fin, Bool.false_eq_true, if_false]
  have hba : |b - a| ≤ 2 * 10 ^ 6 := (abs_sub _ _).trans (by linarith [hsize.1, hsize.2.1])
  have hba0 := abs_nonneg (b - a)
  have err : ∀ h < 24, |y h - (t + (b - a) / 2 * Real.cos (2 * Real.pi / 24 * (((h : Int) - peak : Int) : ℝ)))| ≤ 1e-4 := by
    intro h hh
    have d := (Acc.self R53 (b - a)).round.half.round
    have w := (d.mul (Acc.exact R53 (hF.cos_le (angleR ⟨R53.fl, F.cos, F.pi⟩ false lo peak h)))).round
    have acc := ((((Acc.self R53 t).mono (Nat.zero_le 3) (le_refl _)).add w).round).1
    have hp := R53_pow4
    have hb2 : |t| + |b - a| / 2 * 1 ≤ 2 * 10 ^ 6 := by linarith [hsize.2.2]
    have hb3 : 0 ≤ |t| + |b - a| / 2 * 1 := by positivity
    have acc' : |y h - (t + (b - a) / 2 * c h)| ≤ 4.5e-16 * (2 * 10 ^ 6) :=
      acc.trans ((mul_le_mul_of_nonneg_right hp hb3).trans (mul_le_mul_of_nonneg_left hb2 (by norm_num)))
    have q := hη h hh
    unfold sinePhase at q
    simp only [Bool.false_eq_true, if_false] at q
    have q2 : |(b - a) / 2 * (c h - Real.cos (2 * Real.pi / 24 * (((h : Int) - peak : Int) : ℝ)))| ≤ 10 ^ 6 * 5e-15 := by
      rw [abs_mul, abs_div, abs_of_pos (by norm_num : (0 : ℝ) < 2)]
      exact mul_le_mul (by linarith) q (abs_nonneg _) (by norm_num)
    have q3 := abs_add_le (y h - (t + (b - a) / 2 * c h)) ((b - a) / 2 * (c h - Real.cos (2 * Real.pi / 24 * (((h : Int) - peak : Int) : ℝ))))
    rw [show y h - (t + (b - a) / 2 * c h) + (b - a) / 2 * (c h - Real.cos (2 * Real.pi / 24 * (((h : Int) - peak : Int) : ℝ))) =
      y h - (t + (b - a) / 2 * Real.cos (2 * Real.pi / 24 * (((h : Int) - peak : Int) : ℝ))) by ring] at q3
    norm_num at acc' q2 q3 ⊢
    linarith
  have cells : ∀ k : Nat, k < 24 → t - (b - a) / 2 ≤ t + (b - a) / 2 * Real.cos (2 * Real.pi / 24 * (((k : Int) - peak : Int) : ℝ)) ∧
      t + (b - a) / 2 * Real.cos (2 * Real.pi / 24 * (((k : Int) - peak : Int) : ℝ)) ≤ t - (b - a) / 2 + (b - a) := by
    intro k _
    have c1 := Real.neg_one_le_cos (2 * Real.pi / 24 * (((k : Int) - peak : Int) : ℝ))
    have c2 := Real.cos_le_one (2 * Real.pi / 24 * (((k : Int) - peak : Int) : ℝ))
    constructor <;> nlinarith
  -- the hours with the cosines 1 and -1
  have hmax : ∃ k : Nat, k < 24 ∧ Real.cos (2 * Real.pi / 24 * (((k : Int) - peak : Int) : ℝ)) = 1 := by
    by_cases hp : peak = 24
    · refine ⟨0, by omega, ?_⟩
      rw [hp]
      push_cast
      rw [show 2 * Real.pi / 24 * -24 = -(2 * Real.pi) by ring, Real.cos_neg, Real.cos_two_pi]
    · refine ⟨peak.toNat, by omega, ?_⟩
      rw [show ((peak.toNat : Nat) : Int) = peak by omega]
      simp
  have hmin : ∃ k : Nat, k < 24 ∧ Real.cos (2 * Real.pi / 24 * (((k : Int) - peak : Int) : ℝ)) = -1 := by
    by_cases hp : peak < 12
    · refine ⟨(peak + 12).toNat, by omega, ?_⟩
      rw [show (((peak + 12).toNat : Nat) : Int) - peak = 12 by omega]
      push_cast
      rw [show 2 * Real.pi / 24 * 12 = Real.pi by ring, Real.cos_pi]
    · by_cases hp' : peak = 24
      · refine ⟨12, by omega, ?_⟩
        rw [hp']
        push_cast
        rw [show 2 * Real.pi / 24 * -12 = -Real.pi by ring, Real.cos_neg, Real.cos_pi]
      · refine ⟨(peak - 12).toNat, by omega, ?_⟩
        rw [show (((peak - 12).toNat : Nat) : Int) - peak = -12 by omega]
        push_cast
        rw [show 2 * Real.pi / 24 * (-12) = -Real.pi by ring, Real.cos_neg, Real.cos_pi]
  rw [e] at hx ⊢
  refine ⟨?_, ?_⟩
  · intro c hc
    obtain ⟨z, _, rfl⟩ := List.mem_map.1 hc
    exact ⟨z, rfl⟩
  · rw [ht]
    refine day_checks hm (m := t - (b - a) / 2) hsize.2.2 hsize.1 hsize.2.1 err ?_ cells ?_ ?_ hx (hxt.trans ?_)
    · have := abs_sub t ((b - a) / 2)
      rw [abs_div, abs_of_pos (by norm_num : (0 : ℝ) < 2)] at this
      linarith [hsize.2.2]
    · obtain ⟨k, hk, ek⟩ := hmin
      exact ⟨k, hk, by rw [ek]; ring⟩
    · obtain ⟨k, hk, ek⟩ := hmax
      exact ⟨k, hk, by rw [ek]; ring⟩
    · have := hsize.2.2
      norm_num at this hba ⊢
      linarith

/-- **C145 (mean_course_mean).**  tests/test_temperature.py:57-75: the same with the course of the statistics, whose values lie between 0 and 1, both included. -/
theorem C145_course_mean (F : FloatMath) (hF : DoubleMath F) {mean mean' : List (XF ℝ) → XF ℝ} (hm : AveragesDay mean) (hm' : RoundedMean (roundBits 53) mean') (api : PandasApi)
    (hd : TempDays daily d0 n tmin tmax temp) (hn : 0 < n) (mmt : String) (modNight : Bool) (md : Option (List (Int × XF ℝ))) (sun : Option (Series SunTimes)) (c : MeanCourse ℝ)
    (hc : Covers c d0 n) (hh : c.hours = ((List.range 24).map fun h : Nat => (h : Int))) :
    ∃ out, disaggregateTemperatureR F mean' api daily "mean_course_mean" mmt modNight md (some c) sun = .ok out ∧
      ∀ i < n, ∀ a b t : ℝ, tmin i = .fin a → tmax i = .fin b → temp i = .fin t → a ≤ b → |a| ≤ 10 ^ 6 ∧ |b| ≤ 10 ^ 6 ∧ |t| ≤ 10 ^ 6 → Normalized c (monthOf (at00 (d0 + i))) →
      (∀ c ∈ dayCells out (d0 + i), ∃ x, c = .fin x) ∧ IsClose (roundBits 53) (temp i) (mean (dayCells out (d0 + i))) ∧
      ∃ mn mx, MinIs (dayCells out (d0 + i)) mn ∧ MaxIs (dayCells out (d0 + i)) mx ∧ IsClose (roundBits 53) (.fin (roundBits 53 (b - a))) (.fin (roundBits 53 (mx - mn))) := by
  obtain ⟨out, h1, h2⟩ := (C111_double_mean F hF mean' hm' api hd hn mmt modNight md).2 c sun hc hh
  refine ⟨out, h1, ?_⟩
  intro i hi a b t ha hb ht hab hsize hnorm
  obtain ⟨f, f1, f2, ⟨k0, hk0, e0⟩, k1, hk1, e1⟩ := normalized_fun hnorm
  obtain ⟨x, hx, hxt⟩ := h2 i hi a b t ha hb ht fun h hh => ⟨f h, f1 h hh, abs_le.2 ⟨by linarith [(f2 h hh).1], (f2 h hh).2⟩⟩
  obtain ⟨μ, hμ, acc⟩ := roundedMean_day (R := R53) hm' f
  have hcol : c.column (monthOf (at00 (d0 + i))) = (day24 f).map .fin := by
    unfold MeanCourse.column
    rw [hh, List.map_map, day24_map]
    exact day24_congr fun h hh => f1 h hh
  rw [← hcol] at hμ
  have hS : (day24 f).sum / 24 ≤ 1 ∧ 0 ≤ (day24 f).sum / 24 := by
    have h1 : (day24 f).sum ≤ (day24 fun _ => (1 : ℝ)).sum := List.sum_le_sum fun h hh => (f2 h (List.mem_range.1 hh)).2
    rw [sum_day24_const] at h1
    have h2 : 0 ≤ (day24 f).sum := List.sum_nonneg fun z hz => by
      obtain ⟨h, hh, rfl⟩ := mem_day24.1 hz
      exact (f2 h hh).1
    constructor
    · rw [div_le_one (by norm_num)]; linarith
    · positivity
  have hμ1 : |μ| ≤ 1.1 := by
    have e2 : (day24 fun h => |f h|) = day24 f := day24_congr fun h hh => abs_of_nonneg (f2 h hh).1
    rw [e2] at acc
    have h24 : (1 + R53.u) ^ 24 - 1 ≤ 3e-15 := by rw [R53_u]; norm_num
    have a1 := acc.1.trans ((mul_le_mul_of_nonneg_right h24 hS.2).trans (mul_le_mul_of_nonneg_left hS.1 (by norm_num)))
    obtain ⟨a2, a3⟩ := abs_le.1 a1
    rw [abs_le]
    norm_num at a2 a3 ⊢
    constructor <;> linarith [hS.1, hS.2]
  have hba : |b - a| ≤ 2 * 10 ^ 6 := (abs_sub _ _).trans (by linarith [hsize.1, hsize.2.1])
  have hba0 := abs_nonneg (b - a)
  set y : Nat → ℝ := fun h => R53.fl (t + R53.fl (R53.fl (b - a) * R53.fl (f h - μ))) with hy
  have key : disaggregateTemperatureR ⟨R53.fl, F.cos, F.pi⟩ mean' api daily "mean_course_mean" mmt modNight md (some c) sun =
      .ok (hourlyS d0 n fun i h => (temp i + ((tmax i - tmin i).rnd R53.fl *
        (c.val (monthOf (at00 (d0 + (i : Nat)))) (h : Nat) - mean' (c.column (monthOf (at00 (d0 + (i : Nat)))))).rnd R53.fl).rnd R53.fl).rnd R53.fl) :=
    courseMeanR_run R53 F.cos F.pi mean' api hd hn mmt modNight md sun c hc
  have e : dayCells out (d0 + i) = (day24 y).map XF.fin := by
    rw [hF.eta, key] at h1
    cases h1
    rw [dayCells_hourlyS d0 _ hi, day24_map]
    apply day24_congr
    intro h hh
    rw [f1 h hh, ha, hb, ht, hμ, XF.fin_sub_fin, XF.fin_sub_fin]
    rfl
  have err : ∀ h < 24, |y h - (t + (b - a) * (f h - μ))| ≤ 1e-4 := by
    intro h hh
    have d := (Acc.self R53 (b - a)).round
    have g := (Acc.exact R53 (x := f h - μ) (B := 3) ((abs_sub _ _).trans (by
      rw [abs_of_nonneg (f2 h hh).1]
      have := (f2 h hh).2
      norm_num at hμ1 ⊢
      linarith))).round
    have acc := ((((Acc.self R53 t).mono (Nat.zero_le 3) (le_refl _)).add (d.mul g).round).round).1
    have hb3 : 0 ≤ |t| + |b - a| * 3 := by positivity
    refine acc.trans ((mul_le_mul_of_nonneg_right R53_pow4 hb3).trans ?_)
    have := hsize.2.2
    norm_num at this hba ⊢
    linarith
  rw [e] at hx ⊢
  refine ⟨?_, ?_⟩
  · intro c hc
    obtain ⟨z, _, rfl⟩ := List.mem_map.1 hc
    exact ⟨z, rfl⟩
  · rw [ht]
    refine day_checks hm (m := t + (b - a) * (0 - μ)) hsize.2.2 hsize.1 hsize.2.1 err ?_ ?_ ⟨k0, hk0, by rw [e0]⟩ ⟨k1, hk1, by rw [e1]; ring⟩ hx (hxt.trans ?_)
    · have h3 : |(b - a) * (0 - μ)| ≤ 2 * 10 ^ 6 * 1.1 := by
        rw [abs_mul, zero_sub, abs_neg]
        exact mul_le_mul hba hμ1 (abs_nonneg _) (by norm_num)
      have := abs_add_le t ((b - a) * (0 - μ))
      have h4 := hsize.2.2
      norm_num at h3 h4 ⊢
      norm_num at this
      linarith
    · intro k hk
      have := f2 k hk
      constructor <;> nlinarith
    · have := hsize.2.2
      norm_num at this hba ⊢
      linarith

/-- **C145 (mean_course_min_max).**  tests/test_temperature.py:20-36: on a day with temperatures of at most 10⁶ in size all values are numbers and the comparisons of minimum and maximum pass; the
computed daily mean lies between tmin - 0.0001 and tmax + 0.0001. -/
theorem C145_course_min_max (F : FloatMath) (hF : DoubleMath F) {mean mean' : List (XF ℝ) → XF ℝ} (hm : AveragesDay mean) (api : PandasApi)
    (hd : TempDays daily d0 n tmin tmax temp) (hn : 0 < n) (mmt : String) (modNight : Bool) (md : Option (List (Int × XF ℝ))) (sun : Option (Series SunTimes)) (c : MeanCourse ℝ)
    (hc : Covers c d0 n) :
    ∃ out, disaggregateTemperatureR F mean' api daily "mean_course_min_max" mmt modNight md (some c) sun = .ok out ∧
      ∀ i < n, ∀ a b : ℝ, tmin i = .fin a → tmax i = .fin b → roundBits 53 a = a → a ≤ b → |a| ≤ 10 ^ 6 ∧ |b| ≤ 10 ^ 6 → Normalized c (monthOf (at00 (d0 + i))) →
      (∀ c ∈ dayCells out (d0 + i), ∃ x, c = .fin x) ∧
      (∃ mn mx, MinIs (dayCells out (d0 + i)) mn ∧ MaxIs (dayCells out (d0 + i)) mx ∧ IsClose (roundBits 53) (tmin i) (.fin mn) ∧ IsClose (roundBits 53) (tmax i) (.fin mx)) ∧
      ∃ x, mean (dayCells out (d0 + i)) = .fin x ∧ a - 1e-4 ≤ x ∧ x ≤ b + 1e-4 := by
  obtain ⟨out, h1, h2⟩ := C111_course_min_max R53 F.cos F.pi mean' api hd.index hn hd.hmin hd.hmax mmt modNight md sun c hc
  rw [← hF.eta] at h1
  refine ⟨out, h1, ?_⟩
  intro i hi a b ha hb hfl hab hsize hnorm
  obtain ⟨h3, x, h4, h5⟩ := h2 i hi a b ha hb hfl hab hnorm
  have hlen : (dayCells out (d0 + i)).length = 24 := by
    rw [hF.eta, courseMinMaxR_run R53 F.cos F.pi mean' api hd.index hn hd.hmin hd.hmax mmt modNight md sun c hc] at h1
    cases h1
    rw [dayCells_hourlyS d0 _ hi, day24_length]
  obtain ⟨ys, e, m1, m2⟩ := h3
  rw [e] at h4 hlen ⊢
  obtain ⟨zs, e', m3, m4⟩ := h4
  have ez : zs = ys := by
    have := congrArg numbers e'
    rw [numbers_map_fin, numbers_map_fin] at this
    exact this.symm
  subst ez
  have hx : |x - b| ≤ 1e-5 := by
    refine h5.trans ?_
    have u : R53.u ≤ 1e-15 := by rw [R53_u]; norm_num
    have u0 := R53.u_nonneg
    obtain ⟨a1, a2⟩ := abs_le.1 hsize.1
    obtain ⟨b1, b2⟩ := abs_le.1 hsize.2
    have : (1 + R53.u) * (b - a) + |b| ≤ 2 * (2 * 10 ^ 6) + 10 ^ 6 :=
      add_le_add (mul_le_mul (by norm_num at u ⊢; linarith) (by linarith) (by linarith) (by norm_num)) hsize.2
    refine (mul_le_mul u this (add_nonneg (mul_nonneg (by linarith) (by linarith)) (abs_nonneg b)) (by norm_num)).trans (by norm_num)
  obtain ⟨x1, x2⟩ := abs_le.1 hx
  obtain ⟨a1, a2⟩ := abs_le.1 hsize.1
  obtain ⟨b1, b2⟩ := abs_le.1 hsize.2
  have habs : ∀ y ∈ zs, |y| ≤ 2 * 10 ^ 6 := by
    intro y hy
    have l1 := m2 y hy
    have l2 := m4 y hy
    norm_num at x2 a1 b2 ⊢
    rw [abs_le]
    constructor <;> linarith
  have hl24 : zs.length = 24 := by simpa using hlen
  have hne : zs ≠ [] := by intro h; rw [h] at hl24; simp at hl24
  have hsum : (zs.map fun y => |y|).sum ≤ 24 * (2 * 10 ^ 6) := by
    have := List.sum_le_card_nsmul (zs.map fun y => |y|) (2 * 10 ^ 6) (by
      intro z hz
      obtain ⟨y, hy, rfl⟩ := List.mem_map.1 hz
      exact habs y hy)
    rw [List.length_map, hl24, nsmul_eq_mul] at this
    exact_mod_cast this
  have hlo : 24 * a ≤ zs.sum := by
    have := List.card_nsmul_le_sum zs a m2
    rw [hl24, nsmul_eq_mul] at this
    exact_mod_cast this
  have hhi : zs.sum ≤ 24 * x := by
    have := List.sum_le_card_nsmul zs x m4
    rw [hl24, nsmul_eq_mul] at this
    exact_mod_cast this
  refine ⟨?_, ⟨a, x, ⟨zs, rfl, m1, m2⟩, ⟨zs, rfl, m3, m4⟩, ?_, ?_⟩, ?_⟩
  · intro c hc
    obtain ⟨z, _, rfl⟩ := List.mem_map.1 hc
    exact ⟨z, rfl⟩
  · rw [ha]
    apply isClose53
    rw [sub_self, abs_zero]
    positivity
  · rw [hb]
    apply isClose53
    rw [abs_sub_comm]
    have := abs_nonneg x
    norm_num at hx ⊢
    linarith
  · obtain ⟨s, s1, s2⟩ := averages_nums hm hne (by omega) (hsum.trans (by
      calc (24 * (2 * 10 ^ 6) : ℝ) ≤ 10 ^ 8 := by norm_num
        _ ≤ 10 ^ 300 := pow_le_pow_right₀ (by norm_num) (by norm_num)))
    refine ⟨s, s1, ?_⟩
    rw [hl24] at s2
    push_cast at s2
    obtain ⟨s3, s4⟩ := abs_le.1 s2
    norm_num at s3 s4 x1 x2 hsum ⊢
    constructor <;> linarith

end

end Melodist
