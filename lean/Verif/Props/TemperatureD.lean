import Verif.Props.Temperature
import Verif.Props.TemperatureB

/-!
# C80, C46, C47: the course of the temperature within the day
-/

set_option linter.unusedSectionVars false

namespace Melodist
open Spec

noncomputable section

variable {daily : Frame ℝ} {d0 : Int} {n : Nat} {tmin tmax temp : Nat → XF ℝ}

/-- **C80 (course).**  'sine_min_max' without mod_nighttime: with `m` the minimum of the day (before the hour of the maximum) or of the next day (from it on) and `M`
the maximum of the previous day (before the hour of the minimum) or of the day (from it on), the value at hour `h` is (M + m)/2 + (M - m)/2·cos(2π(h - peak)/24). -/
theorem C80_course (api : PandasApi) (hd : TempDays daily d0 n tmin tmax temp) (method mmt : String) (hm : IsSine method)
    (md : Option (List (Int × XF ℝ))) (course : Option (MeanCourse ℝ)) (sun : Series SunTimes) (out : Series (XF ℝ))
    (hret : disaggregateTemperature api daily method mmt false md course (some sun) = .ok out) (i : Nat) (hi : i < n) (a a' b b' : ℝ)
    (ha : tmin i = .fin a) (ha' : nextDay n tmin i = .fin a') (hb : tmax i = .fin b) (hb' : prevDay tmax i = .fin b')
    (lo peak : Int) (hloc : IsLoc mmt md sun (at00 (d0 + i)) lo peak) (h : Nat) (hh : h < 24) (m M : ℝ)
    (em : m = if (h : Int) < peak then a else a') (eM : M = if (h : Int) < lo then b' else b) :
    (dayCells out (d0 + i))[h]? = some (.fin ((M + m) / 2 + (M - m) / 2 * Real.cos (2 * Real.pi * ((h : ℝ) - peak) / 24))) := by
  rw [sine_day' hd hm hret hi hloc, day24_getElem? _ hh]
  congr 1
  rw [sineCell_eq (minValAt_row ha ha') (maxValAt_row hb hb') (by simp), ← em, ← eM]
  unfold locRow
  dsimp only
  rw [sinePhase_false]
  congr 1
  rw [show 2 * Real.pi / 24 * (((h : Int) - peak : Int) : ℝ) = 2 * Real.pi * ((h : ℝ) - peak) / 24 by push_cast; ring]
  ring

/-- **C47 (course).**  'sine_mean': the value at hour `h` is the daily mean plus half the daily range times cos(2π(h - peak)/24), with `peak` the prescribed hour of
the maximum (whether or not mod_nighttime is set). -/
theorem C47_course (api : PandasApi) (hd : TempDays daily d0 n tmin tmax temp) (mmt : String) (modNight : Bool)
    (md : Option (List (Int × XF ℝ))) (course : Option (MeanCourse ℝ)) (sun : Series SunTimes) (out : Series (XF ℝ))
    (hret : disaggregateTemperature api daily "sine_mean" mmt modNight md course (some sun) = .ok out) (i : Nat) (hi : i < n) (a b t : ℝ)
    (ha : tmin i = .fin a) (hb : tmax i = .fin b) (ht : temp i = .fin t) (lo peak : Int) (hloc : IsLoc mmt md sun (at00 (d0 + i)) lo peak)
    (h : Nat) (hh : h < 24) :
    (dayCells out (d0 + i))[h]? = some (.fin (t + (b - a) / 2 * Real.cos (2 * Real.pi * ((h : ℝ) - peak) / 24))) := by
  rw [sine_day hd (.inr (.inl rfl)) hret hi hloc, day24_getElem? _ hh, if_pos rfl]
  unfold sineMeanCell locRow
  dsimp only
  rw [ha, hb, ht, XF.fin_sub_fin, XF.fin_div_fin_of_ne _ (by norm_num), XF.cos_fin, XF.fin_mul_fin, XF.fin_add_fin]
  rw [show 2 * Real.pi / 24 * (((h : Int) - peak : Int) : ℝ) = 2 * Real.pi * ((h : ℝ) - peak) / 24 by push_cast; ring]

/-- the phase of the nighttime modification at hour `h` -/
def nightPhase (lo peak h : Nat) : ℝ :=
  if h ≤ lo then Real.pi * (24 - (peak : ℝ) + h) / (24 - ((peak : ℝ) - lo))
  else if h < peak then Real.pi * (5 / 4 + 3 / 4 * ((h : ℝ) - lo) / ((peak : ℝ) - lo))
  else Real.pi * ((h : ℝ) - peak) / (24 - ((peak : ℝ) - lo))

theorem sinePhase_true {lo peak h : Nat} (hlo : lo < peak) : sinePhase true lo peak h = nightPhase lo peak h := by
  unfold sinePhase nightPhase
  rw [if_pos rfl]
  by_cases h1 : h ≤ lo
  · rw [if_pos h1, if_neg (by omega), if_neg (by omega)]
    push_cast
    ring
  · rw [if_neg h1]
    by_cases h2 : h < peak
    · rw [if_pos h2, if_neg (by omega), if_pos (by omega)]
      push_cast
      ring
    · rw [if_neg h2, if_pos (by omega)]
      push_cast
      ring

/-- **C46 (course).**  With mod_nighttime the value at hour `h` is (M + m)/2 + (M - m)/2·cos φ, `m` and `M` as in C80, where the phase φ reaches π at the hour of the
minimum and starts from 0 at the hour of the maximum (on `24 - (peak - lo)` night hours), and goes from 5/4·π to 2π on the way up. -/
theorem C46_course (api : PandasApi) (hd : TempDays daily d0 n tmin tmax temp) (method mmt : String) (hm : IsSine method)
    (md : Option (List (Int × XF ℝ))) (course : Option (MeanCourse ℝ)) (sun : Series SunTimes) (out : Series (XF ℝ))
    (hret : disaggregateTemperature api daily method mmt true md course (some sun) = .ok out) (i : Nat) (hi : i < n) (a a' b b' : ℝ)
    (ha : tmin i = .fin a) (ha' : nextDay n tmin i = .fin a') (hb : tmax i = .fin b) (hb' : prevDay tmax i = .fin b')
    (lo peak : Nat) (hloc : IsLoc mmt md sun (at00 (d0 + i)) lo peak) (hlo : lo < peak) (hp : peak < 24) (h : Nat) (hh : h < 24) (m M : ℝ)
    (em : m = if h < peak then a else a') (eM : M = if h < lo then b' else b) :
    (dayCells out (d0 + i))[h]? = some (.fin ((M + m) / 2 + (M - m) / 2 * Real.cos (nightPhase lo peak h))) := by
  rw [sine_day' hd hm hret hi hloc, day24_getElem? _ hh]
  congr 1
  rw [sineCell_eq (minValAt_row ha ha') (maxValAt_row hb hb') (by intro _; show (peak : Int) - lo ≠ 24; omega)]
  unfold locRow
  dsimp only
  rw [sinePhase_true hlo]
  simp only [Nat.cast_lt]
  rw [← em, ← eM]
  congr 1
  ring

/-- the phase within the three parts of the day -/
theorem nightPhase_before {lo peak : Nat} (hlo : lo < peak) (hp : peak < 24) {h h' : Nat} (hh : h < h') (hl : h' ≤ lo) :
    0 ≤ nightPhase lo peak h ∧ nightPhase lo peak h < nightPhase lo peak h' ∧ nightPhase lo peak h' ≤ Real.pi := by
  have c1 : (lo : ℝ) < peak := by exact_mod_cast hlo
  have c2 : (peak : ℝ) < 24 := by exact_mod_cast hp
  have c3 : (h : ℝ) < h' := by exact_mod_cast hh
  have c4 : (h' : ℝ) ≤ lo := by exact_mod_cast hl
  have c5 : (0 : ℝ) ≤ h := Nat.cast_nonneg h
  have c6 : (0 : ℝ) ≤ lo := Nat.cast_nonneg lo
  have pi := Real.pi_pos
  have hd : (0 : ℝ) < 24 - ((peak : ℝ) - lo) := by linarith
  unfold nightPhase
  rw [if_pos (show h ≤ lo by omega), if_pos hl]
  refine ⟨?_, ?_, ?_⟩
  · apply div_nonneg _ hd.le
    apply mul_nonneg pi.le
    linarith
  · apply div_lt_div_of_pos_right _ hd
    apply mul_lt_mul_of_pos_left _ pi
    linarith
  · rw [div_le_iff₀ hd]
    apply mul_le_mul_of_nonneg_left _ pi.le
    linarith

theorem nightPhase_after {lo peak : Nat} (hlo : lo < peak) (hp : peak < 24) {h h' : Nat} (hh : h < h') (hl : peak ≤ h) (h24 : h' < 24) :
    0 ≤ nightPhase lo peak h ∧ nightPhase lo peak h < nightPhase lo peak h' ∧ nightPhase lo peak h' ≤ Real.pi := by
  have c1 : (lo : ℝ) < peak := by exact_mod_cast hlo
  have c2 : (peak : ℝ) < 24 := by exact_mod_cast hp
  have c3 : (h : ℝ) < h' := by exact_mod_cast hh
  have c4 : (peak : ℝ) ≤ h := by exact_mod_cast hl
  have c5 : (h' : ℝ) < 24 := by exact_mod_cast h24
  have c6 : (0 : ℝ) ≤ lo := Nat.cast_nonneg lo
  have pi := Real.pi_pos
  have hd : (0 : ℝ) < 24 - ((peak : ℝ) - lo) := by linarith
  unfold nightPhase
  rw [if_neg (show ¬ h ≤ lo by omega), if_neg (show ¬ h < peak by omega), if_neg (show ¬ h' ≤ lo by omega), if_neg (show ¬ h' < peak by omega)]
  refine ⟨?_, ?_, ?_⟩
  · apply div_nonneg _ hd.le
    apply mul_nonneg pi.le
    linarith
  · apply div_lt_div_of_pos_right _ hd
    apply mul_lt_mul_of_pos_left _ pi
    linarith
  · rw [div_le_iff₀ hd]
    apply mul_le_mul_of_nonneg_left _ pi.le
    linarith

/-- on the way up the cosine rises from -1 (at the hour of the minimum) to 1 (at the hour of the maximum) -/
theorem nightCos_up {lo peak : Nat} (hlo : lo < peak) (hp : peak < 24) {h h' : Nat} (hl : lo ≤ h) (hh : h < h') (hr : h' ≤ peak) :
    Real.cos (nightPhase lo peak h) < Real.cos (nightPhase lo peak h') := by
  have c1 : (lo : ℝ) < peak := by exact_mod_cast hlo
  have c2 : (peak : ℝ) < 24 := by exact_mod_cast hp
  have c3 : (h : ℝ) < h' := by exact_mod_cast hh
  have c4 : (lo : ℝ) ≤ h := by exact_mod_cast hl
  have c5 : (h' : ℝ) ≤ peak := by exact_mod_cast hr
  have c6 : (0 : ℝ) ≤ lo := Nat.cast_nonneg lo
  have pi := Real.pi_pos
  have hd : (0 : ℝ) < (peak : ℝ) - lo := by linarith
  -- the mirrored phase x ↦ 3/4·π·(peak - x)/(peak - lo), which is 0 at `peak`
  have up : ∀ x : Nat, lo < x → x ≤ peak → Real.cos (nightPhase lo peak x) = Real.cos (Real.pi * (3 / 4 * ((peak : ℝ) - x) / ((peak : ℝ) - lo))) := by
    intro x h1 h2
    unfold nightPhase
    rw [if_neg (by omega)]
    by_cases h3 : x < peak
    · rw [if_pos h3, ← Real.cos_two_pi_sub]
      congr 1
      field_simp
      ring
    · rw [if_neg h3]
      have : x = peak := by omega
      subst this
      simp
  have bound : ∀ x : Nat, lo < x → x ≤ peak → 0 ≤ Real.pi * (3 / 4 * ((peak : ℝ) - x) / ((peak : ℝ) - lo)) ∧
      Real.pi * (3 / 4 * ((peak : ℝ) - x) / ((peak : ℝ) - lo)) < Real.pi := by
    intro x h1 h2
    have d1 : (lo : ℝ) < x := by exact_mod_cast h1
    have d2 : (x : ℝ) ≤ peak := by exact_mod_cast h2
    constructor
    · apply mul_nonneg pi.le
      apply div_nonneg _ hd.le
      linarith
    · have : 3 / 4 * ((peak : ℝ) - x) / ((peak : ℝ) - lo) < 1 := by
        rw [div_lt_one hd]
        linarith
      nlinarith
  obtain ⟨b1, b2⟩ := bound h' (by omega) hr
  rw [up h' (by omega) hr]
  by_cases e : h = lo
  · subst e
    have : Real.cos (nightPhase h peak h) = -1 := by
      rw [← sinePhase_true hlo]
      exact cos_lo (by omega) (by omega)
    rw [this, ← Real.cos_pi]
    exact Real.strictAntiOn_cos ⟨b1, b2.le⟩ ⟨pi.le, le_rfl⟩ b2
  · obtain ⟨b3, b4⟩ := bound h (by omega) (by omega)
    rw [up h (by omega) (by omega)]
    apply Real.strictAntiOn_cos ⟨b1, b2.le⟩ ⟨b3, b4.le⟩
    apply mul_lt_mul_of_pos_left _ pi
    apply div_lt_div_of_pos_right _ hd
    linarith

/-- **C46 (shape of the day).**  With mod_nighttime the temperature falls strictly from midnight to the prescribed hour of the minimum (if the previous day's maximum
is above this day's minimum), rises strictly from there to the hour of the maximum (if tmin < tmax), and falls strictly from there to midnight (if the
next day's minimum is below this day's maximum). -/
theorem C46_shape (api : PandasApi) (hd : TempDays daily d0 n tmin tmax temp) (method mmt : String) (hm : IsSine method)
    (md : Option (List (Int × XF ℝ))) (course : Option (MeanCourse ℝ)) (sun : Series SunTimes) (out : Series (XF ℝ))
    (hret : disaggregateTemperature api daily method mmt true md course (some sun) = .ok out) (i : Nat) (hi : i < n) (a a' b b' : ℝ)
    (ha : tmin i = .fin a) (ha' : nextDay n tmin i = .fin a') (hb : tmax i = .fin b) (hb' : prevDay tmax i = .fin b')
    (lo peak : Nat) (hloc : IsLoc mmt md sun (at00 (d0 + i)) lo peak) (hlo : lo < peak) (hp : peak < 24) :
    ∃ T : Nat → ℝ, (∀ h < 24, (dayCells out (d0 + i))[h]? = some (.fin (T h))) ∧
      (a < b' → ∀ h h', h < h' → h' ≤ lo → T h' < T h) ∧ (a < b → ∀ h h', lo ≤ h → h < h' → h' ≤ peak → T h < T h') ∧
      (a' < b → ∀ h h', peak ≤ h → h < h' → h' < 24 → T h' < T h) := by
  have val := fun h hh => C46_course api hd method mmt hm md course sun out hret i hi a a' b b' ha ha' hb hb' lo peak hloc hlo hp h hh _ _ rfl rfl
  refine ⟨fun h => ((if h < lo then b' else b) + (if h < peak then a else a')) / 2 +
    ((if h < lo then b' else b) - (if h < peak then a else a')) / 2 * Real.cos (nightPhase lo peak h), val, ?_, ?_, ?_⟩
  · intro hab h h' hh hl
    dsimp only
    obtain ⟨p1, p2, p3⟩ := nightPhase_before hlo hp hh hl
    have := Real.strictAntiOn_cos ⟨p1, p2.le.trans p3⟩ ⟨p1.trans p2.le, p3⟩ p2
    rw [if_pos (show h < lo by omega), if_pos (show h < peak by omega), if_pos (show h' < peak by omega)]
    by_cases e : h' < lo
    · rw [if_pos e]
      nlinarith
    · have e : h' = lo := by omega
      subst e
      rw [if_neg (lt_irrefl h')]
      have e : Real.cos (nightPhase h' peak h') = -1 := by
        rw [← sinePhase_true hlo]
        exact cos_lo (by omega) (by omega)
      rw [e] at this ⊢
      nlinarith
  · intro hab h h' hl hh hr
    dsimp only
    have := nightCos_up hlo hp hl hh hr
    rw [if_neg (show ¬ h < lo by omega), if_pos (show h < peak by omega), if_neg (show ¬ h' < lo by omega)]
    by_cases e : h' < peak
    · rw [if_pos e]
      nlinarith
    · have e : h' = peak := by omega
      subst e
      rw [if_neg (lt_irrefl h')]
      have e : Real.cos (nightPhase lo h' h') = 1 := by
        rw [← sinePhase_true hlo]
        exact cos_hi _ _
      rw [e] at this ⊢
      nlinarith
  · intro hab h h' hl hh hr
    dsimp only
    rw [if_neg (show ¬ h < lo by omega), if_neg (show ¬ h < peak by omega), if_neg (show ¬ h' < lo by omega), if_neg (show ¬ h' < peak by omega)]
    obtain ⟨p1, p2, p3⟩ := nightPhase_after hlo hp hh hl hr
    have := Real.strictAntiOn_cos ⟨p1, p2.le.trans p3⟩ ⟨p1.trans p2.le, p3⟩ p2
    nlinarith

/-! ## Examples -/

/-- C80: the value at 8 o'clock of the first day of the example, with the maximum of the day itself and its minimum -/
example : ∃ out, disaggregateTemperature .modern exFrame "sine_min_max" "fix" false none none (some exSun) = .ok out ∧
    (dayCells out (0 + (0 : Nat)))[8]? = some (.fin 288) := by
  obtain ⟨out, h⟩ := exOk (.inl rfl) false
  refine ⟨out, h, ?_⟩
  rw [C80_course .modern exDays _ _ (.inl rfl) _ _ _ out h 0 (by decide) 283 273 293 293 rfl rfl rfl rfl 7 14
    (.inl ⟨rfl, rfl, rfl⟩) 8 (by decide) 283 293 (by norm_num) (by norm_num)]
  congr 2
  rw [show 2 * Real.pi * (((8 : Nat) : ℝ) - (14 : Int)) / 24 = -(Real.pi / 2) by push_cast; ring, Real.cos_neg, Real.cos_pi_div_two]
  norm_num

/-- C46: the first day of the example falls to 7 o'clock, rises to 14 o'clock and falls again -/
example : ∃ out, disaggregateTemperature .modern exFrame "sine" "fix" true none none (some exSun) = .ok out ∧
    ∃ T : Nat → ℝ, (∀ h < 24, (dayCells out (0 + (0 : Nat)))[h]? = some (.fin (T h))) ∧ T 7 < T 3 ∧ T 7 < T 10 ∧ T 10 < T 14 ∧ T 20 < T 15 := by
  obtain ⟨out, h⟩ := exOk (.inr (.inr rfl)) true
  refine ⟨out, h, ?_⟩
  obtain ⟨T, h1, h2, h3, h4⟩ := C46_shape .modern exDays _ _ (.inr rfl) _ _ _ out h 0 (by decide) 283 273 293 293 rfl rfl rfl rfl 7 14
    (.inl ⟨rfl, rfl, rfl⟩) (by decide) (by decide)
  exact ⟨T, h1, h2 (by norm_num) _ _ (by decide) (by decide), h3 (by norm_num) _ _ (by decide) (by decide) (by decide),
    h3 (by norm_num) _ _ (by decide) (by decide) (by decide), h4 (by norm_num) _ _ (by decide) (by decide) (by decide)⟩

/-- C46: the phase one third of the way up, at the minimum and at the maximum -/
example : nightPhase 7 13 9 = Real.pi * (3 / 2) ∧ nightPhase 7 14 7 = Real.pi ∧ nightPhase 7 14 14 = 0 := by
  unfold nightPhase
  norm_num

/-- C47: the second day of the example at 8 o'clock has its mean value -/
example : ∃ out, disaggregateTemperature .modern exFrame "sine_mean" "fix" true none none (some exSun) = .ok out ∧
    (dayCells out (0 + (1 : Nat)))[8]? = some (.fin 288) ∧ (dayCells out (0 + (1 : Nat)))[14]? = some (.fin 303) := by
  obtain ⟨out, h⟩ := exOk (.inr (.inl rfl)) true
  have c := fun k hk => C47_course .modern exDays _ _ _ _ _ out h 1 (by decide) 273 303 288 rfl rfl rfl 7 14 (.inl ⟨rfl, rfl, rfl⟩) k hk
  refine ⟨out, h, ?_, ?_⟩
  · rw [c 8 (by decide)]
    congr 2
    rw [show 2 * Real.pi * (((8 : Nat) : ℝ) - (14 : Int)) / 24 = -(Real.pi / 2) by push_cast; ring, Real.cos_neg, Real.cos_pi_div_two]
    norm_num
  · rw [c 14 (by decide)]
    congr 2
    norm_num

end

end Melodist
