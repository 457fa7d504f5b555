import Verif.Props.Near
import Verif.Props.RadiationModels
import Verif.Props.TemperatureC
import Mathlib.Analysis.Calculus.MeanValue
import Mathlib.Analysis.SpecialFunctions.ExpDeriv
import Mathlib.Analysis.Complex.ExponentialBounds

/-!
# C163: errors of the fitted parameters have bounded effects
-/

set_option linter.unusedSectionVars false

namespace Melodist
open Spec

noncomputable section

/-! ## wind -/

theorem cos_lip (x y : ℝ) : |Real.cos x - Real.cos y| ≤ |x - y| := by
  rw [Real.cos_sub_cos, abs_mul, abs_mul, abs_neg, abs_two]
  have h1 : |Real.sin ((x + y) / 2)| ≤ 1 := Real.abs_sin_le_one _
  have h2 : |Real.sin ((x - y) / 2)| ≤ |(x - y) / 2| := Real.abs_sin_le_abs
  rw [abs_div, abs_two] at h2
  have h3 := abs_nonneg (Real.sin ((x - y) / 2))
  nlinarith [abs_nonneg (x - y), abs_nonneg (Real.sin ((x + y) / 2))]

/-- **C163** (wind): 'cosine' on the same daily means with two sets of parameters: days without a mean are missing in both results; on a day with the mean `x` the values of an hour
differ by at most |x| (|a - a'| + |b - b'| + |a'| π/12 |t - t'|). -/
theorem C163_wind {api : PandasApi} {draw draw' : Nat → ℝ} {d0 : Int} {n : Nat} (hn : 0 < n) {v : Nat → XF ℝ} {a b t a' b' t' : ℝ} {r r' : WindResult}
    (h : disaggregateWind api draw (dailyS d0 n v) "cosine" (some a) (some b) (some t) = .ok r)
    (h' : disaggregateWind api draw' (dailyS d0 n v) "cosine" (some a') (some b') (some t') = .ok r') :
    r.values.length = 24 * n ∧ r'.values.length = 24 * n ∧ ∀ i < n, ∀ k < 24, ∃ c c', r.values[24 * i + k]? = some c ∧ r'.values[24 * i + k]? = some c' ∧
      (v i = .nan → c = .nan ∧ c' = .nan) ∧ ∀ x, v i = .fin x → Near (|x| * (|a - a'| + |b - b'| + |a'| * (Real.pi / 12 * |t - t'|))) c c' := by
  have hlen : ∀ {f : Nat → Nat → XF ℝ}, (Series.values (hourlyS d0 n f)).length = 24 * n := by
    intro f
    simp [Series.values, hourlyS]
  have hget : ∀ (f : Nat → Nat → XF ℝ) (i k : Nat), i < n → k < 24 → (Series.values (hourlyS d0 n f))[24 * i + k]? = some (f i k) := by
    intro f i k hi hk
    rw [hourlyS_values, List.getElem?_map, List.getElem?_range (by omega), Option.map_some, show (24 * i + k) / 24 = i by omega, show (24 * i + k) % 24 = k by omega]
  rcases wind_run hn h with ⟨e, _⟩ | ⟨_, x, y, z, e1, e2, e3, rfl⟩ | ⟨e, _⟩
  · exact absurd e (by decide)
  · cases e1; cases e2; cases e3
    rcases wind_run hn h' with ⟨e, _⟩ | ⟨_, x, y, z, e1, e2, e3, rfl⟩ | ⟨e, _⟩
    · exact absurd e (by decide)
    · cases e1; cases e2; cases e3
      refine ⟨hlen, hlen, fun i hi k hk => ⟨_, _, hget _ i k hi hk, hget _ i k hi hk, ?_, ?_⟩⟩
      · intro e
        simp [cosineCell, e]
      · intro x e
        unfold cosineCell
        rw [e]
        generalize ((k : Int) : ℝ) = τ
        show |a * x * Real.cos (Real.pi * (τ - t) / 12) + b * x - (a' * x * Real.cos (Real.pi * (τ - t') / 12) + b' * x)| ≤ _
        have hc := Real.abs_cos_le_one (Real.pi * (τ - t) / 12)
        have hd := cos_lip (Real.pi * (τ - t) / 12) (Real.pi * (τ - t') / 12)
        rw [show Real.pi * (τ - t) / 12 - Real.pi * (τ - t') / 12 = -(Real.pi / 12 * (t - t')) by ring, abs_neg, abs_mul, abs_of_pos (by positivity : 0 < Real.pi / 12)] at hd
        generalize Real.cos (Real.pi * (τ - t) / 12) = c at *
        generalize Real.cos (Real.pi * (τ - t') / 12) = c' at *
        rw [show a * x * c + b * x - (a' * x * c' + b' * x) = x * ((a - a') * c + (b - b') + a' * (c - c')) by ring, abs_mul]
        refine mul_le_mul_of_nonneg_left ?_ (abs_nonneg _)
        refine (abs_add_le _ _).trans (add_le_add ((abs_add_le _ _).trans (add_le_add ?_ le_rfl)) ?_)
        · rw [abs_mul]
          exact mul_le_of_le_one_right (abs_nonneg _) hc
        · rw [abs_mul]
          exact mul_le_mul_of_nonneg_left hd (abs_nonneg _)
    · exact absurd e (by decide)
  · exact absurd e (by decide)

/-! ## temperature -/

/-- two tables of the mean course with the same months and hours, whose entries are both missing or at most `η` apart -/
def Spec.CourseNear (η : ℝ) (c c' : MeanCourse ℝ) : Prop := c.months = c'.months ∧ c.hours = c'.hours ∧ ∀ m h, Near η (c.val m h) (c'.val m h)

theorem meanSkip_near {η : ℝ} (h0 : 0 ≤ η) {l l' : List (XF ℝ)} (h : List.Forall₂ (Near η) l l') : Near η (meanSkip l) (meanSkip l') := by
  have key : (numbers l).length = (numbers l').length ∧ |(numbers l).sum - (numbers l').sum| ≤ η * (numbers l).length ∧ (∀ c ∈ l, c.NanOrFin) ∧ ∀ c ∈ l', c.NanOrFin := by
    induction h with
    | nil => simp [numbers]
    | cons hab _ ih =>
      obtain ⟨i1, i2, i3, i4⟩ := ih
      rcases near_iff.1 hab with ⟨rfl, rfl⟩ | ⟨x, y, rfl, rfl, hxy⟩
      · refine ⟨i1, i2, ?_, ?_⟩
        · intro c hc
          rcases List.mem_cons.1 hc with rfl | hc
          · exact XF.nanOrFin_nan
          · exact i3 c hc
        · intro c hc
          rcases List.mem_cons.1 hc with rfl | hc
          · exact XF.nanOrFin_nan
          · exact i4 c hc
      · refine ⟨?_, ?_, ?_, ?_⟩
        · simpa [numbers] using i1
        · have e : ∀ (x : ℝ) (l : List (XF ℝ)), numbers (.fin x :: l) = x :: numbers l := fun x l => by simp [numbers]
          rw [e, e, List.sum_cons, List.sum_cons, List.length_cons, add_sub_add_comm]
          refine (abs_add_le _ _).trans ?_
          push_cast
          linarith
        · intro c hc
          rcases List.mem_cons.1 hc with rfl | hc
          · exact XF.nanOrFin_fin x
          · exact i3 c hc
        · intro c hc
          rcases List.mem_cons.1 hc with rfl | hc
          · exact XF.nanOrFin_fin y
          · exact i4 c hc
  obtain ⟨k1, k2, k3, k4⟩ := key
  by_cases hne : numbers l = []
  · have hne' : numbers l' = [] := by
      rw [hne] at k1
      exact List.length_eq_zero_iff.1 k1.symm
    have nan : ∀ {l : List (XF ℝ)}, (∀ c ∈ l, c.NanOrFin) → numbers l = [] → meanSkip l = .nan := by
      intro l hl hn
      apply meanSkip_nan
      intro c hc
      cases c with
      | nan => rfl
      | fin x =>
        have : x ∈ numbers l := List.mem_filterMap.2 ⟨.fin x, hc, rfl⟩
        rw [hn] at this
        cases this
      | pinf => exact absurd (hl _ hc) (by simp [XF.NanOrFin])
      | ninf => exact absurd (hl _ hc) (by simp [XF.NanOrFin])
    rw [nan k3 hne, nan k4 hne']
    trivial
  · have hne' : numbers l' ≠ [] := fun e => hne (List.length_eq_zero_iff.1 (by rw [k1, e]; rfl))
    rw [meanSkip_eq k3 hne, meanSkip_eq k4 hne', ← k1]
    show |_ / _ - _ / _| ≤ η
    have hp : (0 : ℝ) < (numbers l).length := by exact_mod_cast List.length_pos_iff.2 hne
    rw [← sub_div, abs_div, abs_of_pos hp, div_le_iff₀ hp]
    exact k2

theorem dailyS_inj {d0 : Int} {n : Nat} {v v' : Nat → XF ℝ} (h : dailyS d0 n v = dailyS d0 n v') {i : Nat} (hi : i < n) : v i = v' i := by
  have := congrArg Series.values h
  rw [dailyS_values, dailyS_values] at this
  exact List.map_inj_left.1 this i (List.mem_range.2 hi)

/-- **C163** (temperature): 'mean_course_min_max' and 'mean_course_mean' on the same daily data with two tables that differ by at most `η`: if no daily range exceeds `R`, the hourly
values are missing in the same hours and differ by at most η R, respectively 2 η R. -/
theorem C163_temperature {η R : ℝ} {f : Frame ℝ} (hf : f.WF) {d0 : Int} {n : Nat} (hn : 0 < n) (cf : Spec.Covers f.index d0 n) {api : PandasApi} {method mmt : String} {modNight : Bool}
    {md : Option (List (Int × XF ℝ))} {c c' : MeanCourse ℝ} {sun : Option (Series SunTimes)} {out out' : Series (XF ℝ)}
    (hm : method = "mean_course_min_max" ∨ method = "mean_course_mean") (h0 : 0 ≤ η) (hc : CourseNear η c c')
    (hR : ∀ lo hi : Nat → XF ℝ, f.col? "tmin" = some (dailyS d0 n lo) → f.col? "tmax" = some (dailyS d0 n hi) →
      ∀ i < n, (lo i = .nan ∨ ∃ x, lo i = .fin x) ∧ (hi i = .nan ∨ ∃ y, hi i = .fin y) ∧ ∀ x y, lo i = .fin x → hi i = .fin y → |y - x| ≤ R)
    (hT : ∀ v : Nat → XF ℝ, f.col? "temp" = some (dailyS d0 n v) → ∀ i < n, v i = .nan ∨ ∃ x, v i = .fin x)
    (ho : disaggregateTemperature api f method mmt modNight md (some c) sun = .ok out)
    (ho' : disaggregateTemperature api f method mmt modNight md (some c') sun = .ok out') :
    SeriesNear (if method = "mean_course_min_max" then η * R else 2 * η * R) out out' := by
  have scale : ∀ {ε : ℝ} {q q' lo hi : XF ℝ}, 0 ≤ ε → Near ε q q' → (lo = .nan ∨ ∃ x, lo = .fin x) → (hi = .nan ∨ ∃ y, hi = .fin y) →
      (∀ x y, lo = .fin x → hi = .fin y → |y - x| ≤ R) → Near (ε * R) (q * (hi - lo)) (q' * (hi - lo)) ∧ Near (ε * R) ((hi - lo) * q) ((hi - lo) * q') := by
    rintro ε q q' lo hi hε hq (rfl | ⟨x, rfl⟩) hh hb
    · simp only [XF.sub_nan, XF.mul_nan, XF.nan_mul]
      exact ⟨trivial, trivial⟩
    · rcases hh with rfl | ⟨y, rfl⟩
      · simp only [XF.nan_sub, XF.mul_nan, XF.nan_mul]
        exact ⟨trivial, trivial⟩
      · have hb := hb x y rfl rfl
        rcases near_iff.1 hq with ⟨rfl, rfl⟩ | ⟨z, z', rfl, rfl, hz⟩
        · simp only [XF.mul_nan, XF.nan_mul]
          exact ⟨trivial, trivial⟩
        · simp only [XF.fin_sub_fin, XF.fin_mul_fin]
          constructor
          · show |z * (y - x) - z' * (y - x)| ≤ ε * R
            rw [← sub_mul, abs_mul]
            exact mul_le_mul hz hb (abs_nonneg _) hε
          · show |(y - x) * z - (y - x) * z'| ≤ ε * R
            rw [← mul_sub, abs_mul, mul_comm]
            exact mul_le_mul hz hb (abs_nonneg _) hε
  have same : ∀ {a : XF ℝ}, (a = .nan ∨ ∃ x, a = .fin x) → Near 0 a a := by
    rintro a (rfl | ⟨x, rfl⟩)
    · trivial
    · show |x - x| ≤ 0
      simp
  obtain ⟨c1, tmin, tmax, e, t1, t2, q⟩ := course_run hf cf hn hm ho
  cases e
  obtain ⟨c1, tmin', tmax', e, t1', t2', q'⟩ := course_run hf cf hn hm ho'
  cases e
  have hb := hR tmin tmax t1 t2
  have em : ∀ i < n, tmin' i = tmin i := fun i hi => (dailyS_inj (Option.some.inj (t1.symm.trans t1')) hi).symm
  have ex : ∀ i < n, tmax' i = tmax i := fun i hi => (dailyS_inj (Option.some.inj (t2.symm.trans t2')) hi).symm
  rcases q with ⟨rfl, rfl⟩ | ⟨rfl, temp, t3, rfl⟩
  · rcases q' with ⟨_, rfl⟩ | ⟨e, _⟩
    · rw [if_pos rfl]
      apply near_hourly
      intro i hi k _
      rw [em i hi, ex i hi]
      obtain ⟨b1, b2, b3⟩ := hb i hi
      have := near_add (scale h0 (hc.2.2 (monthOf (at00 (d0 + (i : Nat)))) (k : Nat)) b1 b2 b3).1 (same b1)
      rwa [add_zero] at this
    · exact absurd e (by decide)
  · rcases q' with ⟨e, _⟩ | ⟨_, temp', t3', rfl⟩
    · exact absurd e (by decide)
    · rw [if_neg (by decide)]
      apply near_hourly
      intro i hi k _
      rw [em i hi, ex i hi, ← dailyS_inj (Option.some.inj (t3.symm.trans t3')) hi]
      obtain ⟨b1, b2, b3⟩ := hb i hi
      have hcol : Near η (meanSkip (c.column (monthOf (at00 (d0 + (i : Nat)))))) (meanSkip (c'.column (monthOf (at00 (d0 + (i : Nat)))))) := by
        apply meanSkip_near h0
        unfold MeanCourse.column
        rw [hc.2.1, List.forall₂_map_left_iff, List.forall₂_map_right_iff, List.forall₂_same]
        intro h _
        exact hc.2.2 _ _
      have := near_add (same (hT temp t3 i hi)) (scale (by linarith) (near_sub (hc.2.2 (monthOf (at00 (d0 + (i : Nat)))) (k : Nat)) hcol) b1 b2 b3).2
      rw [zero_add] at this
      rwa [show 2 * η * R = (η + η) * R by ring]

/-! ## humidity -/

/-- two runs of the dew point methods whose daily dew points differ by at most `δ` -/
theorem dew_runs_near {f : Frame ℝ} (hf : f.WF) {d0 : Int} {n : Nat} (hn : 0 < n) (cf : Spec.Covers f.index d0 n) {api : PandasApi} {method : String} {T : Nat → Nat → XF ℝ}
    {a0 a1 a0' a1' kr δ : ℝ} {table : Option (CatMeans ℝ)} {out out' : Series (XF ℝ)} (hm : method = "dewpoint_regression" ∨ method = "linear_dewpoint_variation" ∧ (kr = 6 ∨ kr = 12))
    {v : Nat → XF ℝ} (hv : f.col? "tmin" = some (dailyS d0 n v)) (hvM : ∀ i < n, v i = .nan ∨ ∃ x, v i = .fin x ∧ |a0 + a1 * x - (a0' + a1' * x)| ≤ δ ∧ 231 ≤ a0 + a1 * x ∧ 231 ≤ a0' + a1' * x)
    (hT : ∀ i < n, ∀ k < 24, T i k = .nan ∨ ∃ x, T i k = .fin x ∧ 230 ≤ x)
    (ho : disaggregateHumidity api f method (some (hourlyS d0 n T)) (some a0) (some a1) (some kr) table false = .ok out)
    (ho' : disaggregateHumidity api f method (some (hourlyS d0 n T)) (some a0') (some a1') (some kr) table false = .ok out') :
    SeriesNear (12 * δ) out out' := by
  obtain ⟨r, hr, q1, _⟩ := hum_run hf cf hn (fun s hs => ⟨T, (Option.some.inj hs).symm⟩) ho
  obtain ⟨r', hr', q1', _⟩ := hum_run hf cf hn (fun s hs => ⟨T, (Option.some.inj hs).symm⟩) ho'
  rw [q1 rfl, q1' rfl]
  have hT' : ∀ i < n, ∀ k < 24, Near (0 : ℝ) (T i k) (T i k) ∧ ∀ x, T i k = .fin x ∨ T i k = .fin x → 230 ≤ x := by
    intro i hi k hk
    rcases hT i hi k hk with e | ⟨x, e, hx⟩
    · rw [e]
      exact ⟨trivial, by rintro x (h | h) <;> cases h⟩
    · rw [e]
      refine ⟨?_, by rintro x (h | h) <;> cases h <;> exact hx⟩
      show |x - x| ≤ 0
      simp
  -- the daily dew points
  have td : ∀ i < n, (v i = .nan ∧ XF.fin a0 + .fin a1 * v i = .nan ∧ XF.fin a0' + .fin a1' * v i = .nan) ∨ ∃ y y', XF.fin a0 + .fin a1 * v i = .fin y ∧
      XF.fin a0' + .fin a1' * v i = .fin y' ∧ 231 ≤ y ∧ 231 ≤ y' ∧ |y - y'| ≤ δ := by
    intro i hi
    rcases hvM i hi with e | ⟨x, e, hx, h1, h2⟩
    · left
      rw [e, XF.mul_nan, XF.mul_nan, XF.add_nan, XF.add_nan]
      exact ⟨rfl, rfl, rfl⟩
    · right
      rw [e, XF.fin_mul_fin, XF.fin_mul_fin, XF.fin_add_fin, XF.fin_add_fin]
      exact ⟨_, _, rfl, rfl, h1, h2, hx⟩
  rcases hm with rfl | ⟨rfl, hkr⟩
  · rw [raw_regression api f a0 a1 (some kr) table d0 n hn v T hv] at hr
    rw [raw_regression api f a0' a1' (some kr) table d0 n hn v T hv] at hr'
    apply near_hourly
    intro i hi k hk
    rw [← hourlyS_inj (Except.ok.inj hr) hi hk, ← hourlyS_inj (Except.ok.inj hr') hi hk]
    have := rhCell_near (ε := δ) (td := XF.fin a0 + .fin a1 * v i) (td' := XF.fin a0' + .fin a1' * v i) ?_ (hT' i hi k hk).1 ?_ (hT' i hi k hk).2
    · rwa [add_zero] at this
    · rcases td i hi with ⟨_, e, e'⟩ | ⟨y, y', e, e', _, _, h⟩
      · rw [e, e']; trivial
      · rw [e, e']; exact h
    · rcases td i hi with ⟨_, e, e'⟩ | ⟨y, y', e, e', h1, h2, h⟩
      · rw [e, e']
        rintro x (h | h) <;> cases h
      · rw [e, e']
        rintro x (h | h) <;> cases h <;> linarith
  · rw [raw_linear api f a0 a1 kr hkr table d0 n hn v T hv] at hr
    rw [raw_linear api f a0' a1' kr hkr table d0 n hn v T hv] at hr'
    apply near_hourly
    intro i hi k hk
    rw [← hourlyS_inj (Except.ok.inj hr) hi hk, ← hourlyS_inj (Except.ok.inj hr') hi hk]
    obtain ⟨i2, hi2, hw⟩ : ∃ i2 < n, (∀ w : Nat → XF ℝ, (if i + 1 < n then w (i + 1) else w i) = w i2) := by
      by_cases hx : i + 1 < n
      · exact ⟨i + 1, hx, fun w => if_pos hx⟩
      · exact ⟨i, hi, fun w => if_neg hx⟩
    have ed : tdewDelta kr k = .fin (0.5 * Real.sin (((k : ℝ) + 1) * Real.pi / kr - 3 * Real.pi / 4)) := by
      unfold tdewDelta
      rw [show (((k : Nat) : Int) : ℝ) = (k : ℝ) by simp]
      rfl
    have hs := Real.neg_one_le_sin (((k : ℝ) + 1) * Real.pi / kr - 3 * Real.pi / 4)
    have hk24 : (0 : ℝ) ≤ (k : ℝ) / 24 ∧ (k : ℝ) / 24 ≤ 1 := by
      have : (k : ℝ) < 24 := by exact_mod_cast hk
      constructor
      · positivity
      · linarith
    generalize hsn : Real.sin (((k : ℝ) + 1) * Real.pi / kr - 3 * Real.pi / 4) = sn at *
    generalize hww : (k : ℝ) / 24 = w at *
    have key : (linTdew kr n (fun i => .fin a0 + .fin a1 * v i) i k = .nan ∧ linTdew kr n (fun i => .fin a0' + .fin a1' * v i) i k = .nan) ∨
        ∃ y y', linTdew kr n (fun i => .fin a0 + .fin a1 * v i) i k = .fin y ∧ linTdew kr n (fun i => .fin a0' + .fin a1' * v i) i k = .fin y' ∧ 230 ≤ y ∧ 230 ≤ y' ∧
          |y - y'| ≤ δ := by
      unfold linTdew
      dsimp only
      rw [hw (fun i => XF.fin a0 + XF.fin a1 * v i), hw (fun i => XF.fin a0' + XF.fin a1' * v i), ed, hww]
      rcases td i hi with ⟨_, e, e'⟩ | ⟨y, y', e, e', h1, h2, h⟩
      · left
        rw [e, e', XF.nan_add, XF.nan_add]
        exact ⟨rfl, rfl⟩
      · rcases td i2 hi2 with ⟨_, g, g'⟩ | ⟨z, z', g, g', k1, k2, hz⟩
        · left
          rw [g, g']
          simp
        · right
          rw [e, e', g, g']
          simp only [XF.fin_sub_fin, XF.fin_mul_fin, XF.fin_add_fin]
          refine ⟨_, _, rfl, rfl, ?_, ?_, ?_⟩
          · have := mul_nonneg hk24.1 (by linarith : 0 ≤ z - 231)
            have := mul_nonneg (by linarith [hk24.2] : 0 ≤ 1 - w) (by linarith : 0 ≤ y - 231)
            norm_num
            nlinarith
          · have := mul_nonneg hk24.1 (by linarith : 0 ≤ z' - 231)
            have := mul_nonneg (by linarith [hk24.2] : 0 ≤ 1 - w) (by linarith : 0 ≤ y' - 231)
            norm_num
            nlinarith
          · rw [show y + (w * (z - y) + 0.5 * sn) - (y' + (w * (z' - y') + 0.5 * sn)) = (w * z + (1 - w) * y) - (w * z' + (1 - w) * y') by ring]
            exact abs_mix hk24.1 hk24.2 hz h
    have := rhCell_near (ε := δ) (td := linTdew kr n (fun i => .fin a0 + .fin a1 * v i) i k) (td' := linTdew kr n (fun i => .fin a0' + .fin a1' * v i) i k) ?_
      (hT' i hi k hk).1 ?_ (hT' i hi k hk).2
    · rwa [add_zero] at this
    · rcases key with ⟨e, e'⟩ | ⟨y, y', e, e', _, _, h⟩
      · rw [e, e']; trivial
      · rw [e, e']; exact h
    · rcases key with ⟨e, e'⟩ | ⟨y, y', e, e', h1, h2, h⟩
      · rw [e, e']
        rintro x (h | h) <;> cases h
      · rw [e, e']
        rintro x (h | h) <;> cases h <;> linarith

/-- **C163** (humidity from the dew point): 'dewpoint_regression' and 'linear_dewpoint_variation' on the same data with two sets of coefficients: if |tmin| ≤ M, all daily dew points are
at least 231 K and all temperatures at least 230 K, the hourly values are missing in the same hours and differ by at most 12 (|a₀ - a₀'| + M |a₁ - a₁'|) percent. -/
theorem C163_humidity_dewpoint {f : Frame ℝ} (hf : f.WF) {d0 : Int} {n : Nat} (hn : 0 < n) (cf : Spec.Covers f.index d0 n) {api : PandasApi} {method : String} {T : Nat → Nat → XF ℝ}
    {a0 a1 a0' a1' kr M : ℝ} {table : Option (CatMeans ℝ)} {out out' : Series (XF ℝ)} (hm : method = "dewpoint_regression" ∨ method = "linear_dewpoint_variation" ∧ (kr = 6 ∨ kr = 12))
    {v : Nat → XF ℝ} (hv : f.col? "tmin" = some (dailyS d0 n v)) (hvM : ∀ i < n, v i = .nan ∨ ∃ x, v i = .fin x ∧ |x| ≤ M ∧ 231 ≤ a0 + a1 * x ∧ 231 ≤ a0' + a1' * x)
    (hT : ∀ i < n, ∀ k < 24, T i k = .nan ∨ ∃ x, T i k = .fin x ∧ 230 ≤ x)
    (ho : disaggregateHumidity api f method (some (hourlyS d0 n T)) (some a0) (some a1) (some kr) table false = .ok out)
    (ho' : disaggregateHumidity api f method (some (hourlyS d0 n T)) (some a0') (some a1') (some kr) table false = .ok out') :
    SeriesNear (12 * (|a0 - a0'| + |a1 - a1'| * M)) out out' := by
  refine dew_runs_near hf hn cf hm hv (fun i hi => (hvM i hi).imp id ?_) hT ho ho'
  rintro ⟨x, e, hx, h1, h2⟩
  refine ⟨x, e, ?_, h1, h2⟩
  rw [show a0 + a1 * x - (a0' + a1' * x) = (a0 - a0') + (a1 - a1') * x by ring]
  refine (abs_add_le _ _).trans (add_le_add le_rfl ?_)
  rw [abs_mul]
  exact mul_le_mul_of_nonneg_left hx (abs_nonneg _)

/-- **C163** (humidity by categories): 'month_hour_precip_mean' on the same data with two tables for the same categories that differ by at most `η`: the hourly values are missing in the
same hours and differ by at most η. -/
theorem C163_humidity_categories {η : ℝ} {f : Frame ℝ} {d0 : Int} {n : Nat} (hn : 0 < n) {api : PandasApi} {temp : Option (Series (XF ℝ))} {a0 a1 kr : Option ℝ}
    {precip : Nat → XF ℝ} (hp : f.col? "precip" = some (dailyS d0 n precip)) (hpf : ∀ i < n, (precip i).NanOrFin) {table table' : CatMeans ℝ}
    (hnod : (table.map Prod.fst).Nodup) (ht : List.Forall₂ (fun r r' => r.1 = r'.1 ∧ Near η r.2 r'.2) table table') {out out' : Series (XF ℝ)}
    (ho : disaggregateHumidity api f "month_hour_precip_mean" temp a0 a1 kr (some table) = .ok out)
    (ho' : disaggregateHumidity api f "month_hour_precip_mean" temp a0 a1 kr (some table') = .ok out') :
    ∀ i < n, ∀ k < 24, ∃ c c', (dayCells out (d0 + i))[k]? = some c ∧ (dayCells out' (d0 + i))[k]? = some c' ∧ Near η c c' := by
  classical
  have hkeys : table.map Prod.fst = table'.map Prod.fst := by
    clear hnod ho ho'
    induction ht with
    | nil => rfl
    | cons h _ ih => rw [List.map_cons, List.map_cons, h.1, ih]
  have hmem : ∀ r ∈ table, ∃ x, (r.1, x) ∈ table' ∧ Near η r.2 x := by
    clear hnod ho ho' hkeys
    induction ht with
    | nil => simp
    | cons h _ ih =>
      intro r hr
      rcases List.mem_cons.1 hr with rfl | hr
      · refine ⟨_, ?_, h.2⟩
        rw [h.1]
        exact List.mem_cons_self
      · obtain ⟨x, h1, h2⟩ := ih r hr
        exact ⟨x, List.mem_cons_of_mem _ h1, h2⟩
  have hwet : ∀ i < n, (precip i).NanOrFin ∧ (decide (∃ x, precip i = .fin x ∧ 0 < x) = true ↔ ∃ x, precip i = .fin x ∧ 0 < x) := fun i hi => ⟨hpf i hi, by simp⟩
  obtain ⟨c1, c2⟩ := C41_categorical api f temp a0 a1 kr table d0 n hn precip hp hnod _ hwet
  obtain ⟨c1', -⟩ := C41_categorical api f temp a0 a1 kr table' d0 n hn precip hp (hkeys ▸ hnod) _ hwet
  have hall : ∀ i < n, ∀ h < 24, (monthOf (atHour (d0 + (i : Nat)) h), (h : Int), decide (∃ x, precip i = .fin x ∧ 0 < x)) ∈ table.map Prod.fst := by
    by_contra hc
    push_neg at hc
    obtain ⟨i, hi, h, hh, hc⟩ := hc
    rw [c2 ⟨i, hi, h, hh, hc⟩ false] at ho
    cases ho
  obtain ⟨o, e, hcell⟩ := c1 hall
  rw [ho] at e
  cases e
  obtain ⟨o', e, hcell'⟩ := c1' (fun i hi h hh => hkeys ▸ hall i hi h hh)
  rw [ho'] at e
  cases e
  intro i hi k hk
  obtain ⟨r, hr, er⟩ := List.mem_map.1 (hall i hi k hk)
  obtain ⟨x, hx, hnear⟩ := hmem r hr
  refine ⟨_, _, hcell i hi k hk r.2 (by dsimp only; rw [← er]; exact hr), hcell' i hi k hk x (by dsimp only; rw [← er]; exact hx), clip_near hnear⟩

/-! ## radiation -/

/-- **C163** (Angstroem parameters): 'pot_rad_via_ssd' on the same data with two sets of parameters: on a day with day length l > 0, sunshine `x` and non-negative potential radiation
that is not 0 all day, the values of an hour with the potential `q h` differ by at most (|a - a'| + |b - b'| |x / l|) q h + 0.01 (a, b, a', b' for the month of the day; the 0.01 because
smaller values are set to 0). -/
theorem C163_angstroem {api : PandasApi} {daily : Frame ℝ} {d0 d1 : Int} {n m : Nat} (hi : daily.index = (List.range n).map fun i : Nat => at00 (d0 + i)) (hn : 0 < n)
    (s : Nat → XF ℝ) (hs : daily.col? "ssd" = some (dailyS d0 n s)) (st : Nat → SunTimes) (p : Nat → Nat → XF ℝ) (h1 : d1 ≤ d0) (h2 : d0 + n ≤ d1 + m)
    {par par' bc bc' : ParPair ℝ} {course course' : Option (MeanCourse ℝ)} {a b a' b' : Int → ℝ}
    (h : ∀ i : Nat, i < n → ParAt par (monthOf (at00 (d0 + i))) (.fin (a (monthOf (at00 (d0 + i))))) (.fin (b (monthOf (at00 (d0 + i))))))
    (h' : ∀ i : Nat, i < n → ParAt par' (monthOf (at00 (d0 + i))) (.fin (a' (monthOf (at00 (d0 + i))))) (.fin (b' (monthOf (at00 (d0 + i)))))) {out out' : Series (XF ℝ)}
    (ho : disaggregateRadiation api daily (some (dailyS d0 n st)) (some (hourlyS d1 m p)) "pot_rad_via_ssd" par bc course = .ok out)
    (ho' : disaggregateRadiation api daily (some (dailyS d0 n st)) (some (hourlyS d1 m p)) "pot_rad_via_ssd" par' bc' course' = .ok out')
    {i : Nat} (hi' : i < n) {q : Nat → ℝ} (hq : ∀ h < 24, p (d0 + i - d1).toNat h = .fin (q h)) (hq0 : ∀ h < 24, 0 ≤ q h) (hpos : 0 < (day24 q).sum)
    {l x : ℝ} (hl : (st i).daylength = .fin l) (hl0 : 0 < l) (hx : s i = .fin x) {k : Nat} (hk : k < 24) :
    ∃ c c', (dayCells out (d0 + i))[k]? = some c ∧ (dayCells out' (d0 + i))[k]? = some c' ∧
      Near ((|a (monthOf (at00 (d0 + i))) - a' (monthOf (at00 (d0 + i)))| + |b (monthOf (at00 (d0 + i))) - b' (monthOf (at00 (d0 + i)))| * |x / l|) * q k + 0.01) c c' := by
  have e : d0 + (i : Int) = d1 + ((d0 + i - d1).toNat : Int) := by omega
  have hμ : 0 < (day24 q).sum / 24 := by positivity
  have cell : ∀ {par bc : ParPair ℝ} {course : Option (MeanCourse ℝ)} {a b : Int → ℝ} {out : Series (XF ℝ)},
      (∀ i : Nat, i < n → ParAt par (monthOf (at00 (d0 + i))) (.fin (a (monthOf (at00 (d0 + i))))) (.fin (b (monthOf (at00 (d0 + i)))))) →
      disaggregateRadiation api daily (some (dailyS d0 n st)) (some (hourlyS d1 m p)) "pot_rad_via_ssd" par bc course = .ok out →
      (dayCells out (d0 + i))[k]? = some (radCell (.fin (q k)) (.fin ((day24 q).sum / 24))
        (.fin ((a (monthOf (at00 (d0 + i))) + b (monthOf (at00 (d0 + i))) * x / l) * ((day24 q).sum / 24)))) := by
    intro par bc course a b out h ho
    unfold disaggregateRadiation at ho
    rw [if_neg (by simp), temp_hourly_index api hi hn, py_ok_bind, if_neg (by decide)] at ho
    dsimp only at ho
    rw [if_neg (by decide), if_pos rfl, resampleD_hourlyS,
      ssdDaily_eq hi hs st _ h1 h2 (a := fun m => .fin (a m)) (b := fun m => .fin (b m)) h, py_ok_bind, radiationCore_eq d0 hn] at ho
    cases ho
    rw [e, dayCells_hourlyS d1 _ (by omega), ← e, lastValue_self hi', day24_getElem? _ hk, hq k hk, meanSkip_day24 hq, hl, if_pos (by simpa using hl0), hx, XF.fin_mul_fin,
      XF.fin_div_fin_of_ne _ hl0.ne', XF.fin_add_fin, XF.fin_mul_fin]
  refine ⟨_, _, cell h ho, cell h' ho', ?_⟩
  generalize a (monthOf (at00 (d0 + i))) = A
  generalize a' (monthOf (at00 (d0 + i))) = A'
  generalize b (monthOf (at00 (d0 + i))) = B
  generalize b' (monthOf (at00 (d0 + i))) = B'
  generalize (day24 q).sum / 24 = μ at *
  have hc : 0 ≤ q k / μ := div_nonneg (hq0 k hk) hμ.le
  have := radCell_near (ε := |(A + B * x / l) * μ - (A' + B' * x / l) * μ|) (c := q k / μ) (p := .fin (q k)) (mean := .fin μ) (g := .fin ((A + B * x / l) * μ))
    (g' := .fin ((A' + B' * x / l) * μ)) (abs_nonneg _) hc (.inr ⟨_, XF.fin_div_fin_of_ne _ hμ.ne', (abs_of_nonneg hc).le⟩) le_rfl
  refine Near.weaken (add_le_add ?_ le_rfl) this
  rw [← sub_mul, abs_mul, abs_of_pos hμ, show q k / μ * (|A + B * x / l - (A' + B' * x / l)| * μ) = |A + B * x / l - (A' + B' * x / l)| * q k by field_simp]
  refine mul_le_mul_of_nonneg_right ?_ (hq0 k hk)
  rw [show A + B * x / l - (A' + B' * x / l) = (A - A') + (B - B') * (x / l) by ring]
  refine (abs_add_le _ _).trans (add_le_add le_rfl ?_)
  rw [abs_mul]

/-- `exp (-exp u)` changes by at most 0.37 per unit -/
theorem expexp_lip (u v : ℝ) : |Real.exp (-Real.exp u) - Real.exp (-Real.exp v)| ≤ 0.37 * |u - v| := by
  have hd : ∀ x : ℝ, HasDerivAt (fun u => Real.exp (-Real.exp u)) (Real.exp (-Real.exp x) * -Real.exp x) x := fun x => ((Real.hasDerivAt_exp x).neg).exp
  have hb : ∀ x ∈ (Set.univ : Set ℝ), ‖Real.exp (-Real.exp x) * -Real.exp x‖ ≤ 0.37 := by
    intro x _
    rw [Real.norm_eq_abs, mul_neg, abs_neg, abs_of_pos (by positivity)]
    have h1 := Real.add_one_le_exp (Real.exp x - 1)
    rw [sub_add_cancel, Real.exp_sub] at h1
    have h2 := Real.exp_one_gt_d9
    have h3 := Real.exp_pos (Real.exp x)
    rw [Real.exp_neg]
    generalize Real.exp (Real.exp x) = E at *
    generalize Real.exp x = y at *
    rw [le_div_iff₀ (by positivity)] at h1
    rw [inv_mul_eq_div, div_le_iff₀ h3]
    nlinarith
  have := convex_univ.norm_image_sub_le_of_norm_hasDerivWithin_le (f := fun u => Real.exp (-Real.exp u)) (fun x _ => (hd x).hasDerivWithinAt) hb (Set.mem_univ v) (Set.mem_univ u)
  simpa [Real.norm_eq_abs] using this

theorem bcReal_par {A C A' C' μ r q : ℝ} (hr : 0 < r) (hq : 0 ≤ q) :
    |bcReal A C μ r q - bcReal A' C' μ r q| ≤ (|A - A'| + 0.37 * |A'| * |C - C'| * |Real.log r|) * q := by
  have e : ∀ C : ℝ, -(0.036 * Real.exp (-0.154 * μ)) * r ^ C = -Real.exp (Real.log (0.036 * Real.exp (-0.154 * μ)) + Real.log r * C) := by
    intro C
    rw [Real.exp_add, Real.exp_log (by positivity), Real.rpow_def_of_pos hr, neg_mul]
  have hl := expexp_lip (Real.log (0.036 * Real.exp (-0.154 * μ)) + Real.log r * C) (Real.log (0.036 * Real.exp (-0.154 * μ)) + Real.log r * C')
  have hp := Real.exp_pos (-Real.exp (Real.log (0.036 * Real.exp (-0.154 * μ)) + Real.log r * C))
  have h1 : Real.exp (-Real.exp (Real.log (0.036 * Real.exp (-0.154 * μ)) + Real.log r * C)) ≤ 1 := Real.exp_le_one_iff.2 (by have := Real.exp_pos (Real.log (0.036 * Real.exp (-0.154 * μ)) + Real.log r * C); linarith)
  unfold bcReal
  rw [e, e, ← sub_mul, abs_mul, abs_of_nonneg hq]
  refine mul_le_mul_of_nonneg_right ?_ hq
  rw [show Real.log (0.036 * Real.exp (-0.154 * μ)) + Real.log r * C - (Real.log (0.036 * Real.exp (-0.154 * μ)) + Real.log r * C') = Real.log r * (C - C') by ring, abs_mul] at hl
  generalize Real.exp (-Real.exp (Real.log (0.036 * Real.exp (-0.154 * μ)) + Real.log r * C)) = E at *
  generalize Real.exp (-Real.exp (Real.log (0.036 * Real.exp (-0.154 * μ)) + Real.log r * C')) = E' at *
  rw [show A * (1 - E) - A' * (1 - E') = (A - A') * (1 - E) + A' * (E' - E) by ring]
  refine (abs_add_le _ _).trans (add_le_add ?_ ?_)
  · rw [abs_mul]
    exact mul_le_of_le_one_right (abs_nonneg _) (abs_le.2 ⟨by linarith, by linarith⟩)
  · rw [abs_mul, abs_sub_comm]
    nlinarith [mul_le_mul_of_nonneg_left hl (abs_nonneg A')]

/-- **C163** (Bristow-Campbell parameters): 'pot_rad_via_bc' on the same data with two sets of parameters: on a day with a temperature range r > 0 (see C59) and non-negative potential
radiation that is not 0 all day, the values of an hour with the potential `q h` differ by at most (|A - A'| + 0.37 |A'| |C - C'| |ln r|) q h + 0.01 (parameters for the month of the day). -/
theorem C163_bristow_campbell {api : PandasApi} {daily : Frame ℝ} {d0 d1 : Int} {n m : Nat} (hi : daily.index = (List.range n).map fun i : Nat => at00 (d0 + i)) (hn : 0 < n)
    (tmin tmax : Nat → XF ℝ) (hmin : daily.col? "tmin" = some (dailyS d0 n tmin)) (hmax : daily.col? "tmax" = some (dailyS d0 n tmax))
    {sun sun' : Option (Series SunTimes)} (p : Nat → Nat → XF ℝ) (h1 : d1 ≤ d0) (h2 : d0 + n ≤ d1 + m)
    {angstr angstr' par par' : ParPair ℝ} {course course' : Option (MeanCourse ℝ)} {a c a' c' : Int → ℝ}
    (h : ∀ i : Nat, i < n → ParAt par (monthOf (at00 (d0 + i))) (.fin (a (monthOf (at00 (d0 + i))))) (.fin (c (monthOf (at00 (d0 + i))))))
    (h' : ∀ i : Nat, i < n → ParAt par' (monthOf (at00 (d0 + i))) (.fin (a' (monthOf (at00 (d0 + i))))) (.fin (c' (monthOf (at00 (d0 + i))))))
    (hc : ∀ m, 0 < c m) (hc' : ∀ m, 0 < c' m) (hf1 : ∀ i < n, (tmin i).NanOrFin) (hf2 : ∀ i < n, (tmax i).NanOrFin) {out out' : Series (XF ℝ)}
    (ho : disaggregateRadiation api daily sun (some (hourlyS d1 m p)) "pot_rad_via_bc" angstr par course = .ok out)
    (ho' : disaggregateRadiation api daily sun' (some (hourlyS d1 m p)) "pot_rad_via_bc" angstr' par' course' = .ok out')
    {i : Nat} (hi' : i < n) {q : Nat → ℝ} (hq : ∀ h < 24, p (d0 + i - d1).toNat h = .fin (q h)) (hq0 : ∀ h < 24, 0 ≤ q h) (hpos : 0 < (day24 q).sum)
    {r : ℝ} (hr : bcRange n tmin tmax i = .fin r) (hr0 : 0 < r) {k : Nat} (hk : k < 24) :
    ∃ y y', (dayCells out (d0 + i))[k]? = some y ∧ (dayCells out' (d0 + i))[k]? = some y' ∧
      Near ((|a (monthOf (at00 (d0 + i))) - a' (monthOf (at00 (d0 + i)))| +
        0.37 * |a' (monthOf (at00 (d0 + i)))| * |c (monthOf (at00 (d0 + i))) - c' (monthOf (at00 (d0 + i)))| * |Real.log r|) * q k + 0.01) y y' := by
  have e : d0 + (i : Int) = d1 + ((d0 + i - d1).toNat : Int) := by omega
  have hμ : 0 < (day24 q).sum / 24 := by positivity
  obtain ⟨ν, hν⟩ := bcMean_fin (d0 := d0) hf1 hf2 hi' hr
  have cell : ∀ {sun : Option (Series SunTimes)} {angstr par : ParPair ℝ} {course : Option (MeanCourse ℝ)} {a c : Int → ℝ} {out : Series (XF ℝ)},
      (∀ i : Nat, i < n → ParAt par (monthOf (at00 (d0 + i))) (.fin (a (monthOf (at00 (d0 + i))))) (.fin (c (monthOf (at00 (d0 + i)))))) → (∀ m, 0 < c m) →
      disaggregateRadiation api daily sun (some (hourlyS d1 m p)) "pot_rad_via_bc" angstr par course = .ok out →
      (dayCells out (d0 + i))[k]? = some (radCell (.fin (q k)) (.fin ((day24 q).sum / 24))
        (.fin (bcReal (a (monthOf (at00 (d0 + i)))) (c (monthOf (at00 (d0 + i)))) ν r ((day24 q).sum / 24)))) := by
    intro sun angstr par course a c out h hc ho
    obtain ⟨est, hest, hv, _⟩ := bc_value (m := m) (d1 := d1) hn tmin tmax (fun j => meanSkip (day24 (p j))) h1 h2 h
    unfold disaggregateRadiation at ho
    rw [if_neg (by simp), temp_hourly_index api hi hn, py_ok_bind, if_neg (by decide)] at ho
    dsimp only at ho
    rw [if_neg (by decide), if_neg (by decide), attr_ok hmin, py_ok_bind, attr_ok hmax, py_ok_bind, resampleD_hourlyS, hest, py_ok_bind,
      radiationCore_eq d0 hn] at ho
    cases ho
    rw [e, dayCells_hourlyS d1 _ (by omega), ← e, lastValue_self hi', day24_getElem? _ hk, hq k hk, meanSkip_day24 hq, (hv i hi' r _ ν hr (meanSkip_day24 hq) hν (hc _)).1 hr0]
  refine ⟨_, _, cell h hc ho, cell h' hc' ho', ?_⟩
  generalize a (monthOf (at00 (d0 + i))) = A
  generalize a' (monthOf (at00 (d0 + i))) = A'
  generalize c (monthOf (at00 (d0 + i))) = C
  generalize c' (monthOf (at00 (d0 + i))) = C'
  generalize (day24 q).sum / 24 = μ at *
  have hd : 0 ≤ q k / μ := div_nonneg (hq0 k hk) hμ.le
  have := radCell_near (ε := |bcReal A C ν r μ - bcReal A' C' ν r μ|) (c := q k / μ) (p := .fin (q k)) (mean := .fin μ) (g := .fin (bcReal A C ν r μ))
    (g' := .fin (bcReal A' C' ν r μ)) (abs_nonneg _) hd (.inr ⟨_, XF.fin_div_fin_of_ne _ hμ.ne', (abs_of_nonneg hd).le⟩) le_rfl
  refine Near.weaken (add_le_add ?_ le_rfl) this
  refine (mul_le_mul_of_nonneg_left (bcReal_par hr0 hμ.le) hd).trans (le_of_eq ?_)
  field_simp

/-- C163 at work: with a = 0.3 instead of 0.25, b = 0.9 instead of 1 and a shift of 14 instead of 13 hours, a wind speed of 5 m/s changes by less than 5 (0.05 + 0.1 + 0.3 π/12) m/s -/
example {k : Nat} (hk : k < 24) : ∃ r r' c c', disaggregateWind .modern (fun _ => 0) (dailyS 0 1 fun _ => .fin 5) "cosine" (some 0.25) (some 1) (some 13) = .ok r ∧
    disaggregateWind .modern (fun _ => 0) (dailyS 0 1 fun _ => .fin 5) "cosine" (some 0.3) (some 0.9) (some 14) = .ok r' ∧
    r.values[k]? = some c ∧ r'.values[k]? = some c' ∧ Near (5 * (0.05 + 0.1 + 0.3 * (Real.pi / 12))) c c' := by
  obtain ⟨r, h⟩ : ∃ r, disaggregateWind .modern (fun _ => 0) (dailyS 0 1 fun _ => .fin 5) "cosine" (some 0.25) (some 1) (some 13) = .ok r := ⟨_, rfl⟩
  obtain ⟨r', h'⟩ : ∃ r, disaggregateWind .modern (fun _ => 0) (dailyS 0 1 fun _ => .fin 5) "cosine" (some 0.3) (some 0.9) (some 14) = .ok r := ⟨_, rfl⟩
  obtain ⟨_, _, H⟩ := C163_wind (by norm_num) h h'
  obtain ⟨c, c', e, e', _, hb⟩ := H 0 (by norm_num) k hk
  rw [mul_zero, zero_add] at e e'
  refine ⟨r, r', c, c', h, h', e, e', Near.weaken ?_ (hb 5 rfl)⟩
  norm_num [abs_of_pos, abs_of_neg]

/-- ... with the Angstroem parameters 0.2 and 0.6 instead of 0.25 and 0.5 the value at noon (potential 239, sunshine 6 of 12 hours) changes by less than 24 -/
example : ∃ out out', disaggregateRadiation .modern exRad (some (dailyS 0 2 fun _ => ⟨.fin 6, .fin 12, .fin 18, .fin 12⟩)) (some (hourlyS 0 2 exPot))
      "pot_rad_via_ssd" (.scalar (.fin 0.2) (.fin 0.6)) = .ok out ∧
    disaggregateRadiation .modern exRad (some (dailyS 0 2 fun _ => ⟨.fin 6, .fin 12, .fin 18, .fin 12⟩)) (some (hourlyS 0 2 exPot))
      "pot_rad_via_ssd" (.scalar (.fin 0.25) (.fin 0.5)) = .ok out' ∧
    ∃ c c', (dayCells out (0 + (0 : Nat)))[12]? = some c ∧ (dayCells out' (0 + (0 : Nat)))[12]? = some c' ∧ Near (24 : ℝ) c c' := by
  have hs : exRad.col? "ssd" = some (dailyS 0 2 fun i => if i = 0 then .fin 6 else .fin 12) := rfl
  obtain ⟨out, h, -⟩ := C58_disaggregate (m := 2) (d1 := 0) .modern (daily := exRad) (d0 := 0) (n := 2) rfl (by decide) _ hs
    (fun _ => ⟨.fin 6, .fin 12, .fin 18, .fin 12⟩) exPot (by decide) (by decide) (.scalar (.fin 0.2) (.fin 0.6))
    (.scalar (.fin 0.75) (.fin 2.4)) none (fun _ => 0.2) (fun _ => 0.6) (fun _ _ => ⟨rfl, rfl⟩)
  obtain ⟨out', h', -⟩ := C58_disaggregate (m := 2) (d1 := 0) .modern (daily := exRad) (d0 := 0) (n := 2) rfl (by decide) _ hs
    (fun _ => ⟨.fin 6, .fin 12, .fin 18, .fin 12⟩) exPot (by decide) (by decide) (.scalar (.fin 0.25) (.fin 0.5))
    (.scalar (.fin 0.75) (.fin 2.4)) none (fun _ => 0.25) (fun _ => 0.5) (fun _ _ => ⟨rfl, rfl⟩)
  obtain ⟨c, c', e, e', hb⟩ := C163_angstroem (m := 2) (d1 := 0) (api := .modern) (daily := exRad) (d0 := 0) (n := 2) rfl (by decide) _ hs
    (fun _ => ⟨.fin 6, .fin 12, .fin 18, .fin 12⟩) exPot (by decide) (by decide)
    (par := .scalar (.fin 0.2) (.fin 0.6)) (par' := .scalar (.fin 0.25) (.fin 0.5)) (a := fun _ => 0.2) (b := fun _ => 0.6) (a' := fun _ => 0.25) (b' := fun _ => 0.5)
    (fun _ _ => ⟨rfl, rfl⟩) (fun _ _ => ⟨rfl, rfl⟩) h h' (i := 0) (by decide) (q := exPotReal) (exPot_fin 0) exPot_nonneg (by rw [exPot_sum]; norm_num)
    (l := 12) (x := 6) rfl (by norm_num) rfl (k := 12) (by decide)
  refine ⟨out, out', h, h', c, c', e, e', Near.weaken ?_ hb⟩
  norm_num [exPotReal, abs_of_pos, abs_of_neg]

/-- ... and with dew points 1 + tmin instead of tmin relative humidity changes by at most 12 percent -/
example : ∃ out out', disaggregateHumidity .modern ⟨[at00 0, at00 1], [("tmin", [.fin 275, .nan])]⟩ "dewpoint_regression"
      (some (hourlyS 0 2 fun _ h => .fin (280 + h))) (some 0) (some 1) (some 6) none false = .ok out ∧
    disaggregateHumidity .modern ⟨[at00 0, at00 1], [("tmin", [.fin 275, .nan])]⟩ "dewpoint_regression"
      (some (hourlyS 0 2 fun _ h => .fin (280 + h))) (some 1) (some 1) (some 6) none false = .ok out' ∧ SeriesNear (12 * (|(0 : ℝ) - 1| + |(1 : ℝ) - 1| * 300)) out out' := by
  have r1 := raw_regression .modern (⟨[at00 0, at00 1], [("tmin", [.fin 275, .nan])]⟩ : Frame ℝ) 0 1 (some 6) none 0 2 (by omega)
    (fun i => if i = 0 then .fin 275 else .nan) (fun _ h => .fin (280 + h)) rfl
  have r2 := raw_regression .modern (⟨[at00 0, at00 1], [("tmin", [.fin 275, .nan])]⟩ : Frame ℝ) 1 1 (some 6) none 0 2 (by omega)
    (fun i => if i = 0 then .fin 275 else .nan) (fun _ h => .fin (280 + h)) rfl
  refine ⟨_, _, (hum_finish r1).1, (hum_finish r2).1, ?_⟩
  refine C163_humidity_dewpoint (f := ⟨[at00 0, at00 1], [("tmin", [.fin 275, .nan])]⟩) (d0 := 0) (n := 2) ?_ (by omega) rfl (M := 300) (.inl rfl)
    (v := fun i => if i = 0 then .fin 275 else .nan) rfl ?_ ?_ (hum_finish r1).1 (hum_finish r2).1
  · intro c hc; simp at hc; subst hc; rfl
  · intro i _
    by_cases h : i = 0
    · rw [if_pos h]
      exact .inr ⟨275, rfl, by norm_num [abs_of_pos], by norm_num, by norm_num⟩
    · rw [if_neg h]
      exact .inl rfl
  · intro i _ k _
    exact .inr ⟨280 + k, rfl, by have : (0 : ℝ) ≤ k := Nat.cast_nonneg k; linarith⟩

/-- the course of the examples with 0.55 instead of 0.5 -/
def exCourse55 : MeanCourse ℝ where
  months := exCourse.months
  hours := exCourse.hours
  val := fun _ h => if h < 12 then .fin 0 else if h = 15 then .fin 1 else .fin 0.55

/-- ... and with 0.55 instead of 0.5 for the hours of the afternoon the temperatures (daily ranges of at most 30 K) change by at most 1.5 K -/
example : ∃ out out', disaggregateTemperature .modern exFrame "mean_course_min_max" "fix" false none (some exCourse) none = .ok out ∧
    disaggregateTemperature .modern exFrame "mean_course_min_max" "fix" false none (some exCourse55) none = .ok out' ∧ SeriesNear 1.5 out out' := by
  obtain ⟨out, h, _, _⟩ := C48_mean_course_min_max .modern exDays.index (by decide) exDays.hmin exDays.hmax "fix" false none none exCourse exCovers
  obtain ⟨out', h', _, _⟩ := C48_mean_course_min_max .modern exDays.index (by decide) exDays.hmin exDays.hmax "fix" false none none exCourse55 ⟨exCovers.1, exCovers.2⟩
  refine ⟨out, out', h, h', ?_⟩
  have := C163_temperature (η := 0.05) (R := 30) exWF.1 (d0 := 0) (n := 2) (by decide) exDays.index (.inl rfl) (by norm_num) (c := exCourse) (c' := exCourse55) ⟨rfl, rfl, fun m k => ?_⟩ ?_ ?_ h h'
  · rw [if_pos rfl] at this
    exact (show (0.05 * 30 : ℝ) = 1.5 by norm_num) ▸ this
  · unfold exCourse55 exCourse
    dsimp only
    by_cases h1 : k < 12
    · rw [if_pos h1, if_pos h1]
      norm_num [Near]
    · rw [if_neg h1, if_neg h1]
      by_cases h2 : k = 15
      · rw [if_pos h2, if_pos h2]
        norm_num [Near]
      · rw [if_neg h2, if_neg h2]
        norm_num [Near, abs_of_neg]
  · intro lo hi e1 e2 i hi'
    rw [← dailyS_inj (Option.some.inj (exDays.hmin.symm.trans e1)) hi', ← dailyS_inj (Option.some.inj (exDays.hmax.symm.trans e2)) hi']
    rcases i with _ | _ | i
    · exact ⟨.inr ⟨283, rfl⟩, .inr ⟨293, rfl⟩, fun x y ex ey => by cases ex; cases ey; norm_num [abs_of_pos]⟩
    · exact ⟨.inr ⟨273, rfl⟩, .inr ⟨303, rfl⟩, fun x y ex ey => by cases ex; cases ey; norm_num [abs_of_pos]⟩
    · omega
  · intro v e i hi'
    rw [← dailyS_inj (Option.some.inj (exDays.htemp.symm.trans e)) hi']
    rcases i with _ | _ | i
    · exact .inr ⟨_, rfl⟩
    · exact .inr ⟨_, rfl⟩
    · omega

end

end Melodist
