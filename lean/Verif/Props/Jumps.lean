import Verif.Lemmas.Jumps
import Verif.Props.TemperatureD
import Verif.Props.Locality
import Mathlib.Tactic.IntervalCases

/-!
# C119: changes of the temperature from one hour to the next
-/

set_option linter.unusedSectionVars false

namespace Melodist
open Spec

noncomputable section

variable {daily : Frame ℝ} {d0 : Int} {n : Nat} {tmin tmax temp : Nat → XF ℝ}

/-- **C119** (within a day) 'sine_min_max' without mod_nighttime: from hour `h` to the next the temperature changes by at most π/24 (0.131) of `R`, where `R` bounds the differences
between the maxima of this and the previous day and the minima of this and the next day; at the prescribed hour of the minimum, where the maximum of the previous
day is replaced by that of the day, additionally by at most the difference of the two maxima. -/
theorem C119_within_day (api : PandasApi) (hd : TempDays daily d0 n tmin tmax temp) (method mmt : String) (hm : IsSine method)
    (md : Option (List (Int × XF ℝ))) (course : Option (MeanCourse ℝ)) (sun : Series SunTimes) (out : Series (XF ℝ))
    (hret : disaggregateTemperature api daily method mmt false md course (some sun) = .ok out) (i : Nat) (hi : i < n) (a a' b b' R : ℝ)
    (ha : tmin i = .fin a) (ha' : nextDay n tmin i = .fin a') (hb : tmax i = .fin b) (hb' : prevDay tmax i = .fin b')
    (r1 : |b - a| ≤ R) (r2 : |b' - a| ≤ R) (r3 : |b - a'| ≤ R) (lo peak : Int) (hloc : IsLoc mmt md sun (at00 (d0 + i)) lo peak) (hlo : lo ≤ peak)
    (h : Nat) (hh : h + 1 < 24) :
    ∃ x y, (dayCells out (d0 + i))[h]? = some (.fin x) ∧ (dayCells out (d0 + i))[h + 1]? = some (.fin y) ∧
      ((h + 1 : Int) ≠ lo → |y - x| ≤ Real.pi / 24 * R) ∧
      ((h + 1 : Int) = lo → |y - x| ≤ Real.pi / 24 * R + (1 + Real.cos (2 * Real.pi * ((lo : ℝ) - peak) / 24)) / 2 * |b - b'|) := by
  have c := C80_course api hd method mmt hm md course sun out hret i hi a a' b b' ha ha' hb hb' lo peak hloc
  refine ⟨_, _, c h (by omega) _ _ rfl rfl, c (h + 1) hh _ _ rfl rfl, ?_, ?_⟩
  all_goals
    intro hne
    have hx : |2 * Real.pi * (((h + 1 : Nat) : ℝ) - peak) / 24 - 2 * Real.pi * ((h : ℝ) - peak) / 24| = Real.pi / 12 := by
      rw [show 2 * Real.pi * (((h + 1 : Nat) : ℝ) - peak) / 24 - 2 * Real.pi * ((h : ℝ) - peak) / 24 = Real.pi / 12 by push_cast; ring, abs_of_pos (by positivity)]
    have fin : ∀ D, |D| ≤ R → |D| / 2 * (Real.pi / 12) ≤ Real.pi / 24 * R := by
      intro D hD
      nlinarith [Real.pi_pos]
    push_cast at hne
  · by_cases h1 : (h + 1 : Int) = peak
    · have hp : Real.cos (2 * Real.pi * (((h + 1 : Nat) : ℝ) - peak) / 24) = 1 := by
        rw [← h1]
        push_cast
        simp
      rw [if_neg (show ¬ (((h + 1 : Nat) : Int) < peak) by push_cast; omega), if_pos (show (h : Int) < peak by omega),
        if_neg (show ¬ (((h + 1 : Nat) : Int) < lo) by push_cast; omega), if_neg (show ¬ ((h : Int) < lo) by omega)]
      refine (wave_top hp).trans ?_
      rw [hx]
      exact fin _ r1
    · have e1 : (((h + 1 : Nat) : Int) < peak) ↔ ((h : Int) < peak) := by push_cast; omega
      have e2 : (((h + 1 : Nat) : Int) < lo) ↔ ((h : Int) < lo) := by push_cast; omega
      simp only [e1, e2]
      refine (wave_diff _ _ _ _).trans ?_
      rw [hx]
      apply fin
      by_cases k1 : (h : Int) < peak
      · rw [if_pos k1]
        split
        · exact r2
        · exact r1
      · rw [if_neg k1, if_neg (by omega)]
        exact r3
  · rw [if_neg (show ¬ (((h + 1 : Nat) : Int) < lo) by push_cast; omega), if_pos (show (h : Int) < lo by omega), if_pos (show (h : Int) < peak by omega)]
    have e : ((h + 1 : Nat) : ℝ) = (lo : ℝ) := by exact_mod_cast hne
    rw [e] at hx ⊢
    by_cases h1 : (lo : Int) = peak
    · rw [if_neg (show ¬ (((h + 1 : Nat) : Int) < peak) by push_cast; omega)]
      have hp : Real.cos (2 * Real.pi * ((lo : ℝ) - peak) / 24) = 1 := by
        rw [h1]
        simp
      have := wave_max (M := b') (M' := b) (m := a) (x := 2 * Real.pi * ((h : ℝ) - peak) / 24) (y := 2 * Real.pi * ((lo : ℝ) - peak) / 24)
      rw [hx] at this
      rw [show (b + a') / 2 + (b - a') / 2 * Real.cos (2 * Real.pi * ((lo : ℝ) - peak) / 24) =
        (b + a) / 2 + (b - a) / 2 * Real.cos (2 * Real.pi * ((lo : ℝ) - peak) / 24) by rw [hp]; ring]
      exact this.trans (by linarith [fin _ r2])
    · rw [if_pos (show (((h + 1 : Nat) : Int) < peak) by push_cast; omega)]
      have := wave_max (M := b') (M' := b) (m := a) (x := 2 * Real.pi * ((h : ℝ) - peak) / 24) (y := 2 * Real.pi * ((lo : ℝ) - peak) / 24)
      rw [hx] at this
      exact this.trans (by linarith [fin _ r2])

/-- **C119** (midnight) 'sine_min_max' without mod_nighttime: from 23:00 to midnight the temperature changes by at most π/24 of the difference between the day's maximum and
the next day's minimum, if the hour of the maximum is the same on both days (and π/24 for every hour it moves). -/
theorem C119_midnight (api : PandasApi) (hd : TempDays daily d0 n tmin tmax temp) (method mmt : String) (hm : IsSine method)
    (md : Option (List (Int × XF ℝ))) (course : Option (MeanCourse ℝ)) (sun : Series SunTimes) (out : Series (XF ℝ))
    (hret : disaggregateTemperature api daily method mmt false md course (some sun) = .ok out) (i : Nat) (hi : i + 1 < n) (a b p q u v : ℝ)
    (ha : tmin (i + 1) = .fin a) (hb : tmax i = .fin b) (hp : tmin i = .fin p) (hq : prevDay tmax i = .fin q) (hu : nextDay n tmin (i + 1) = .fin u)
    (hv : tmax (i + 1) = .fin v) (lo peak lo' peak' : Int)
    (hloc : IsLoc mmt md sun (at00 (d0 + i)) lo peak) (hloc' : IsLoc mmt md sun (at00 (d0 + ((i + 1 : Nat) : Int))) lo' peak')
    (h1 : lo ≤ 23) (h2 : peak ≤ 23) (h3 : 0 < lo') (h4 : 0 < peak') :
    ∃ x y, (dayCells out (d0 + i))[23]? = some (.fin x) ∧ (dayCells out (d0 + ((i + 1 : Nat) : Int)))[0]? = some (.fin y) ∧
      |y - x| ≤ Real.pi / 24 * (1 + |(peak' : ℝ) - peak|) * |b - a| := by
  have ha' : nextDay n tmin i = .fin a := by unfold nextDay; rw [if_pos hi, ha]
  have hb' : prevDay tmax (i + 1) = .fin b := by unfold prevDay; rw [if_neg (by omega)]; exact hb
  have c := C80_course api hd method mmt hm md course sun out hret i (by omega) p a b q hp ha' hb hq lo peak hloc 23 (by omega) _ _ rfl rfl
  have c' := C80_course api hd method mmt hm md course sun out hret (i + 1) hi a u v b ha hu hv hb' lo' peak' hloc' 0 (by omega) _ _ rfl rfl
  rw [if_neg (by omega), if_neg (by omega)] at c
  rw [if_pos (by simpa using h3), if_pos (by simpa using h4)] at c'
  refine ⟨_, _, c, c', ?_⟩
  have e : Real.cos (2 * Real.pi * (((0 : Nat) : ℝ) - peak') / 24) = Real.cos (2 * Real.pi * (24 - (peak' : ℝ)) / 24) := by
    rw [show 2 * Real.pi * (24 - (peak' : ℝ)) / 24 = 2 * Real.pi * (((0 : Nat) : ℝ) - peak') / 24 + 2 * Real.pi by push_cast; ring, Real.cos_add_two_pi]
  rw [e]
  refine (wave_diff _ _ _ _).trans ?_
  rw [show 2 * Real.pi * (24 - (peak' : ℝ)) / 24 - 2 * Real.pi * (((23 : Nat) : ℝ) - peak) / 24 = Real.pi / 12 * (1 - ((peak' : ℝ) - peak)) by push_cast; ring, abs_mul,
    abs_of_pos (by positivity : (0 : ℝ) < Real.pi / 12)]
  have k : |1 - ((peak' : ℝ) - peak)| ≤ 1 + |(peak' : ℝ) - peak| := by
    have := abs_sub (1 : ℝ) ((peak' : ℝ) - peak)
    rwa [abs_one] at this
  have k0 : 0 ≤ |b - a| / 2 * (Real.pi / 12) := by positivity
  nlinarith [mul_le_mul_of_nonneg_left k k0]

/-- the phase of the way up, `x` hours before the maximum, has the cosine of `2 π` minus it -/
theorem nightCos_peak {lo peak h : Nat} (hlo : lo < peak) (h1 : lo < h) (h2 : h ≤ peak) :
    Real.cos (nightPhase lo peak h) = Real.cos (Real.pi * (5 / 4 + 3 / 4 * ((h : ℝ) - lo) / ((peak : ℝ) - lo))) := by
  unfold nightPhase
  rw [if_neg (by omega)]
  by_cases h3 : h < peak
  · rw [if_pos h3]
  · rw [if_neg h3]
    have : h = peak := by omega
    subst this
    have : (h : ℝ) - lo ≠ 0 := sub_ne_zero.2 (by exact_mod_cast (by omega : h ≠ lo))
    rw [sub_self, mul_zero, zero_div, Real.cos_zero, mul_div_assoc, div_self this, show Real.pi * (5 / 4 + 3 / 4 * 1) = 2 * Real.pi by ring, Real.cos_two_pi]

/-- **C119** (mod_nighttime, within a day) With `lo` and `peak` the prescribed hours of minimum and maximum: before the minimum and after the maximum the temperature changes from hour to hour
by at most π/2 divided by the number `24 - (peak - lo)` of night hours, times the difference between the extremes before and after; on the way up by at most 3π/8 divided by the number `peak - lo` of
day hours, times the daily range, and additionally 0.147 of the daily range in the first hour of the way up.  No jump comes from a change of the daily maximum. -/
theorem C119_night (api : PandasApi) (hd : TempDays daily d0 n tmin tmax temp) (method mmt : String) (hm : IsSine method)
    (md : Option (List (Int × XF ℝ))) (course : Option (MeanCourse ℝ)) (sun : Series SunTimes) (out : Series (XF ℝ))
    (hret : disaggregateTemperature api daily method mmt true md course (some sun) = .ok out) (i : Nat) (hi : i < n) (a a' b b' : ℝ)
    (ha : tmin i = .fin a) (ha' : nextDay n tmin i = .fin a') (hb : tmax i = .fin b) (hb' : prevDay tmax i = .fin b')
    (lo peak : Nat) (hloc : IsLoc mmt md sun (at00 (d0 + i)) lo peak) (hlo : lo < peak) (hp : peak < 24) (h : Nat) (hh : h + 1 < 24) :
    ∃ x y, (dayCells out (d0 + i))[h]? = some (.fin x) ∧ (dayCells out (d0 + i))[h + 1]? = some (.fin y) ∧
      (h < lo → |y - x| ≤ Real.pi / 2 / (24 - ((peak : ℝ) - lo)) * |b' - a|) ∧
      (h = lo → |y - x| ≤ (3 * Real.pi / 8 / ((peak : ℝ) - lo) + 0.147) * |b - a|) ∧
      (lo < h → h < peak → |y - x| ≤ 3 * Real.pi / 8 / ((peak : ℝ) - lo) * |b - a|) ∧
      (peak ≤ h → |y - x| ≤ Real.pi / 2 / (24 - ((peak : ℝ) - lo)) * |b - a'|) := by
  have c := C46_course api hd method mmt hm md course sun out hret i hi a a' b b' ha ha' hb hb' lo peak hloc hlo hp
  have c1 : (lo : ℝ) < peak := by exact_mod_cast hlo
  have c2 : (peak : ℝ) < 24 := by exact_mod_cast hp
  have c3 : (0 : ℝ) ≤ lo := Nat.cast_nonneg lo
  have hL : (0 : ℝ) < 24 - ((peak : ℝ) - lo) := by linarith
  have hD : (0 : ℝ) < (peak : ℝ) - lo := by linarith
  have pi := Real.pi_pos
  have bottom : Real.cos (nightPhase lo peak lo) = -1 := by
    rw [← sinePhase_true hlo]
    exact cos_lo (by omega) (by omega)
  have top : Real.cos (nightPhase lo peak peak) = 1 := by
    rw [← sinePhase_true hlo]
    exact cos_hi _ _
  refine ⟨_, _, c h (by omega) _ _ rfl rfl, c (h + 1) hh _ _ rfl rfl, ?_, ?_, ?_, ?_⟩
  · intro h1
    have e : |nightPhase lo peak (h + 1) - nightPhase lo peak h| = Real.pi / (24 - ((peak : ℝ) - lo)) := by
      unfold nightPhase
      rw [if_pos (show h + 1 ≤ lo by omega), if_pos (show h ≤ lo by omega), ← sub_div, ← mul_sub]
      push_cast
      rw [show (24 - (peak : ℝ) + (h + 1)) - (24 - (peak : ℝ) + h) = 1 by ring, mul_one, abs_of_pos (by positivity)]
    rw [if_pos h1, if_pos (show h < peak by omega), if_pos (show h + 1 < peak by omega)]
    have goal : |b' - a| / 2 * |nightPhase lo peak (h + 1) - nightPhase lo peak h| ≤ Real.pi / 2 / (24 - ((peak : ℝ) - lo)) * |b' - a| := by
      rw [e]
      apply le_of_eq
      ring
    by_cases h2 : h + 1 < lo
    · rw [if_pos h2]
      exact (wave_diff _ _ _ _).trans goal
    · rw [if_neg h2]
      have h3 : h + 1 = lo := by omega
      rw [← h3] at bottom
      exact (wave_bottom (by rw [← h3]; exact bottom)).trans goal
  · rintro rfl
    have key := nightCos_peak hlo (h := h + 1) (by omega) (by omega)
    have e1 : ((if h + 1 < h then b' else b) + (if h + 1 < peak then a else a')) / 2 +
        ((if h + 1 < h then b' else b) - (if h + 1 < peak then a else a')) / 2 * Real.cos (nightPhase h peak (h + 1)) =
        (b + a) / 2 + (b - a) / 2 * Real.cos (nightPhase h peak (h + 1)) := by
      rw [if_neg (by omega)]
      by_cases k : h + 1 < peak
      · rw [if_pos k]
      · have : h + 1 = peak := by omega
        rw [if_neg k, this, top]
        ring
    rw [e1, if_neg (lt_irrefl h), if_pos hlo, bottom, key]
    rw [show (b + a) / 2 + (b - a) / 2 * Real.cos (Real.pi * (5 / 4 + 3 / 4 * (((h + 1 : Nat) : ℝ) - h) / ((peak : ℝ) - h))) - ((b + a) / 2 + (b - a) / 2 * -1) =
      (b - a) * ((1 + Real.cos (Real.pi * (5 / 4 + 3 / 4 * (((h + 1 : Nat) : ℝ) - h) / ((peak : ℝ) - h)))) / 2) by ring, abs_mul, mul_comm]
    apply mul_le_mul_of_nonneg_right _ (abs_nonneg _)
    have l1 := Real.abs_cos_sub_cos_le (Real.pi * (5 / 4 + 3 / 4 * (((h + 1 : Nat) : ℝ) - h) / ((peak : ℝ) - h))) (Real.pi * (5 / 4))
    have l2 : |Real.pi * (5 / 4 + 3 / 4 * (((h + 1 : Nat) : ℝ) - h) / ((peak : ℝ) - h)) - Real.pi * (5 / 4)| = 3 * Real.pi / 4 / ((peak : ℝ) - h) := by
      rw [show Real.pi * (5 / 4 + 3 / 4 * (((h + 1 : Nat) : ℝ) - h) / ((peak : ℝ) - h)) - Real.pi * (5 / 4) = 3 * Real.pi / 4 / ((peak : ℝ) - h) by push_cast; ring,
        abs_of_pos (by positivity)]
    have l3 : Real.cos (Real.pi * (5 / 4)) ≤ -0.706 := by
      rw [show Real.pi * (5 / 4) = Real.pi / 4 + Real.pi by ring, Real.cos_add_pi, Real.cos_pi_div_four]
      have : (1.412 : ℝ) ≤ √2 := Real.le_sqrt_of_sq_le (by norm_num)
      linarith
    rw [l2] at l1
    have l4 := (abs_le.1 l1).2
    rw [abs_of_nonneg (by linarith [Real.neg_one_le_cos (Real.pi * (5 / 4 + 3 / 4 * (((h + 1 : Nat) : ℝ) - h) / ((peak : ℝ) - h)))])]
    have : 3 * Real.pi / 8 / ((peak : ℝ) - h) = 3 * Real.pi / 4 / ((peak : ℝ) - h) / 2 := by ring
    linarith
  · intro h1 h2
    have k1 := nightCos_peak hlo (h := h + 1) (by omega) (by omega)
    have k2 := nightCos_peak hlo h1 h2.le
    have e1 : ((if h + 1 < lo then b' else b) + (if h + 1 < peak then a else a')) / 2 +
        ((if h + 1 < lo then b' else b) - (if h + 1 < peak then a else a')) / 2 * Real.cos (nightPhase lo peak (h + 1)) =
        (b + a) / 2 + (b - a) / 2 * Real.cos (nightPhase lo peak (h + 1)) := by
      rw [if_neg (by omega)]
      by_cases k : h + 1 < peak
      · rw [if_pos k]
      · have : h + 1 = peak := by omega
        rw [if_neg k, this, top]
        ring
    rw [e1, if_neg (show ¬ h < lo by omega), if_pos h2, k1, k2]
    refine (wave_diff _ _ _ _).trans ?_
    rw [show Real.pi * (5 / 4 + 3 / 4 * (((h + 1 : Nat) : ℝ) - lo) / ((peak : ℝ) - lo)) - Real.pi * (5 / 4 + 3 / 4 * ((h : ℝ) - lo) / ((peak : ℝ) - lo)) =
      3 * Real.pi / 4 / ((peak : ℝ) - lo) by push_cast; ring, abs_of_pos (show 0 < 3 * Real.pi / 4 / ((peak : ℝ) - lo) by positivity)]
    apply le_of_eq
    ring
  · intro h1
    have e : |nightPhase lo peak (h + 1) - nightPhase lo peak h| = Real.pi / (24 - ((peak : ℝ) - lo)) := by
      unfold nightPhase
      rw [if_neg (show ¬ h + 1 ≤ lo by omega), if_neg (show ¬ h ≤ lo by omega), if_neg (show ¬ h + 1 < peak by omega), if_neg (show ¬ h < peak by omega), ← sub_div, ← mul_sub]
      push_cast
      rw [show ((h : ℝ) + 1 - peak) - (h - peak) = 1 by ring, mul_one, abs_of_pos (by positivity)]
    rw [if_neg (show ¬ h < lo by omega), if_neg (show ¬ h + 1 < lo by omega), if_neg (show ¬ h < peak by omega), if_neg (show ¬ h + 1 < peak by omega)]
    refine (wave_diff _ _ _ _).trans ?_
    rw [e]
    apply le_of_eq
    ring

/-- **C119** (mod_nighttime, midnight) If both days have the same hours of minimum and maximum, the change from 23:00 to midnight is at most π/2 divided by the number of night hours, times the
difference between the day's maximum and the next day's minimum. -/
theorem C119_night_midnight (api : PandasApi) (hd : TempDays daily d0 n tmin tmax temp) (method mmt : String) (hm : IsSine method)
    (md : Option (List (Int × XF ℝ))) (course : Option (MeanCourse ℝ)) (sun : Series SunTimes) (out : Series (XF ℝ))
    (hret : disaggregateTemperature api daily method mmt true md course (some sun) = .ok out) (i : Nat) (hi : i + 1 < n) (a b p q u v : ℝ)
    (ha : tmin (i + 1) = .fin a) (hb : tmax i = .fin b) (hp : tmin i = .fin p) (hq : prevDay tmax i = .fin q) (hu : nextDay n tmin (i + 1) = .fin u)
    (hv : tmax (i + 1) = .fin v) (lo peak : Nat)
    (hloc : IsLoc mmt md sun (at00 (d0 + i)) lo peak) (hloc' : IsLoc mmt md sun (at00 (d0 + ((i + 1 : Nat) : Int))) lo peak) (hlo : lo < peak) (hpk : peak < 24) :
    ∃ x y, (dayCells out (d0 + i))[23]? = some (.fin x) ∧ (dayCells out (d0 + ((i + 1 : Nat) : Int)))[0]? = some (.fin y) ∧
      |y - x| ≤ Real.pi / 2 / (24 - ((peak : ℝ) - lo)) * |b - a| := by
  have ha' : nextDay n tmin i = .fin a := by unfold nextDay; rw [if_pos hi, ha]
  have hb' : prevDay tmax (i + 1) = .fin b := by unfold prevDay; rw [if_neg (by omega)]; exact hb
  have c := C46_course api hd method mmt hm md course sun out hret i (by omega) p a b q hp ha' hb hq lo peak hloc hlo hpk 23 (by omega) _ _ rfl rfl
  have c' := C46_course api hd method mmt hm md course sun out hret (i + 1) hi a u v b ha hu hv hb' lo peak hloc' hlo hpk 0 (by omega) _ _ rfl rfl
  rw [if_neg (by omega), if_neg (by omega)] at c
  rw [if_pos (show 0 < peak by omega)] at c'
  refine ⟨_, _, c, c', ?_⟩
  have c1 : (lo : ℝ) < peak := by exact_mod_cast hlo
  have c2 : (peak : ℝ) < 24 := by exact_mod_cast hpk
  have c3 : (0 : ℝ) ≤ lo := Nat.cast_nonneg lo
  have hL : (0 : ℝ) < 24 - ((peak : ℝ) - lo) := by linarith
  have e : |nightPhase lo peak 0 - nightPhase lo peak 23| = Real.pi / (24 - ((peak : ℝ) - lo)) := by
    unfold nightPhase
    rw [if_pos (Nat.zero_le lo), if_neg (show ¬ 23 ≤ lo by omega), if_neg (show ¬ 23 < peak by omega), ← sub_div, ← mul_sub]
    push_cast
    rw [show (24 - (peak : ℝ) + 0) - (23 - peak) = 1 by ring, mul_one, abs_of_pos (by have := Real.pi_pos; positivity)]
  have goal : |b - a| / 2 * |nightPhase lo peak 0 - nightPhase lo peak 23| ≤ Real.pi / 2 / (24 - ((peak : ℝ) - lo)) * |b - a| := by
    rw [e]
    apply le_of_eq
    ring
  by_cases h : 0 < lo
  · rw [if_pos h]
    exact (wave_diff _ _ _ _).trans goal
  · rw [if_neg h]
    have h : lo = 0 := by omega
    subst h
    have bottom : Real.cos (nightPhase 0 peak 0) = -1 := by
      rw [← sinePhase_true hlo]
      exact cos_lo (by omega) (by omega)
    exact (wave_bottom bottom).trans goal

/-- **C119** ('sine_mean', midnight) The temperature jumps at midnight by the difference of the two daily means, up to π/24 of the daily range for every hour by which the maximum moves plus one, and
half the difference of the daily ranges. -/
theorem C119_mean_midnight (api : PandasApi) (hd : TempDays daily d0 n tmin tmax temp) (mmt : String) (modNight : Bool)
    (md : Option (List (Int × XF ℝ))) (course : Option (MeanCourse ℝ)) (sun : Series SunTimes) (out : Series (XF ℝ))
    (hret : disaggregateTemperature api daily "sine_mean" mmt modNight md course (some sun) = .ok out) (i : Nat) (hi : i + 1 < n) (a b t a' b' t' : ℝ)
    (ha : tmin i = .fin a) (hb : tmax i = .fin b) (ht : temp i = .fin t) (ha' : tmin (i + 1) = .fin a') (hb' : tmax (i + 1) = .fin b') (ht' : temp (i + 1) = .fin t')
    (lo peak lo' peak' : Int) (hloc : IsLoc mmt md sun (at00 (d0 + i)) lo peak) (hloc' : IsLoc mmt md sun (at00 (d0 + ((i + 1 : Nat) : Int))) lo' peak') :
    ∃ x y, (dayCells out (d0 + i))[23]? = some (.fin x) ∧ (dayCells out (d0 + ((i + 1 : Nat) : Int)))[0]? = some (.fin y) ∧
      |(y - x) - (t' - t)| ≤ Real.pi / 24 * (1 + |(peak' : ℝ) - peak|) * |b - a| + |(b' - a') - (b - a)| / 2 := by
  have c := C47_course api hd mmt modNight md course sun out hret i (by omega) a b t ha hb ht lo peak hloc 23 (by omega)
  have c' := C47_course api hd mmt modNight md course sun out hret (i + 1) hi a' b' t' ha' hb' ht' lo' peak' hloc' 0 (by omega)
  refine ⟨_, _, c, c', ?_⟩
  have e : Real.cos (2 * Real.pi * (((0 : Nat) : ℝ) - peak') / 24) = Real.cos (2 * Real.pi * (24 - (peak' : ℝ)) / 24) := by
    rw [show 2 * Real.pi * (24 - (peak' : ℝ)) / 24 = 2 * Real.pi * (((0 : Nat) : ℝ) - peak') / 24 + 2 * Real.pi by push_cast; ring, Real.cos_add_two_pi]
  rw [e]
  have l1 := Real.abs_cos_sub_cos_le (2 * Real.pi * (24 - (peak' : ℝ)) / 24) (2 * Real.pi * (((23 : Nat) : ℝ) - peak) / 24)
  rw [show 2 * Real.pi * (24 - (peak' : ℝ)) / 24 - 2 * Real.pi * (((23 : Nat) : ℝ) - peak) / 24 = Real.pi / 12 * (1 - ((peak' : ℝ) - peak)) by push_cast; ring, abs_mul,
    abs_of_pos (by have := Real.pi_pos; positivity : (0 : ℝ) < Real.pi / 12)] at l1
  have k : |1 - ((peak' : ℝ) - peak)| ≤ 1 + |(peak' : ℝ) - peak| := by
    have := abs_sub (1 : ℝ) ((peak' : ℝ) - peak)
    rwa [abs_one] at this
  generalize Real.cos (2 * Real.pi * (((23 : Nat) : ℝ) - peak) / 24) = X at *
  have cy := Real.abs_cos_le_one (2 * Real.pi * (24 - (peak' : ℝ)) / 24)
  generalize Real.cos (2 * Real.pi * (24 - (peak' : ℝ)) / 24) = Y at *
  rw [show t' + (b' - a') / 2 * Y - (t + (b - a) / 2 * X) - (t' - t) = (b - a) / 2 * (Y - X) + ((b' - a') - (b - a)) / 2 * Y by ring]
  refine (abs_add_le _ _).trans (add_le_add ?_ ?_)
  · rw [abs_mul, abs_div, abs_two]
    have : |Y - X| ≤ Real.pi / 12 * (1 + |(peak' : ℝ) - peak|) := l1.trans (mul_le_mul_of_nonneg_left k (by have := Real.pi_pos; positivity))
    calc _ ≤ |b - a| / 2 * (Real.pi / 12 * (1 + |(peak' : ℝ) - peak|)) := mul_le_mul_of_nonneg_left this (by positivity)
      _ = _ := by ring
  · rw [abs_mul, abs_div, abs_two]
    nlinarith [abs_nonneg ((b' - a') - (b - a))]

/-- the cosine of 7/24 of a turn -/
theorem cos_seven : Real.cos (2 * Real.pi * (((7 : Int) : ℝ) - ((14 : Int) : ℝ)) / 24) ≤ -0.25 := by
  rw [show 2 * Real.pi * (((7 : Int) : ℝ) - ((14 : Int) : ℝ)) / 24 = -(Real.pi / 12 + Real.pi / 2) by push_cast; ring, Real.cos_neg, Real.cos_add_pi_div_two]
  have h := Real.sin_gt_sub_cube (x := Real.pi / 12) (by have := Real.pi_pos; positivity)
  have p1 := Real.pi_gt_d2
  have p2 := Real.pi_lt_d2
  have : (Real.pi / 12) ^ 3 ≤ (3.15 / 12) ^ 3 := pow_le_pow_left₀ (by linarith) (by linarith) 3
  norm_num at this ⊢
  linarith

/-- **C119** (fixed hours) 'sine_min_max' with fixed times on complete data: if maxima and minima of neighbouring days differ by at most `R` and maxima of consecutive days by at most `D`, then any two
consecutive hourly values differ by at most 0.131 `R`, except from 06:00 to 07:00, where it is at most 0.131 `R` + 0.375 `D`. -/
theorem C119_fixed (api : PandasApi) (hd : TempDays daily d0 n tmin tmax temp) (hn : 0 < n) (method : String) (hm : IsSine method) (md : Option (List (Int × XF ℝ)))
    (course : Option (MeanCourse ℝ)) (sun : Series SunTimes) (out : Series (XF ℝ)) (lo hi : Nat → ℝ) (h1 : ∀ i < n, tmin i = .fin (lo i)) (h2 : ∀ i < n, tmax i = .fin (hi i))
    (R D : ℝ) (hD0 : 0 ≤ D) (hR : ∀ i < n, ∀ j < n, i ≤ j + 1 → j ≤ i + 1 → |hi i - lo j| ≤ R) (hD : ∀ i, i + 1 < n → |hi (i + 1) - hi i| ≤ D)
    (hret : disaggregateTemperature api daily method "fix" false md course (some sun) = .ok out) (k : Nat) (hk : k + 1 < 24 * n) :
    ∃ x y, out.values[k]? = some (.fin x) ∧ out.values[k + 1]? = some (.fin y) ∧ |y - x| ≤ 0.131 * R + (if k % 24 = 6 then 0.375 * D else 0) := by
  have hm' : method = "sine_min_max" ∨ method = "sine_mean" ∨ method = "sine" := by rcases hm with h | h <;> simp [h]
  have loc : ∀ t, IsLoc "fix" md sun t 7 14 := fun t => .inl ⟨rfl, rfl, rfl⟩
  have cell : ∀ j < 24 * n, out.values[j]? = (dayCells out (d0 + ((j / 24 : Nat) : Int)))[j % 24]? := by
    obtain ⟨_, _, _, _, _, _, rfl, _⟩ := sine_inv hd hn hm' hret
    intro j hj
    rw [dayCells_hourlyS d0 _ (by omega), day24_getElem? _ (Nat.mod_lt _ (by omega)), hourlyS_values, List.getElem?_map, List.getElem?_range hj]
    rfl
  have next : ∀ i < n, ∃ j < n, nextDay n tmin i = .fin (lo j) ∧ i ≤ j ∧ j ≤ i + 1 := by
    intro i hi'
    unfold nextDay
    by_cases h : i + 1 < n
    · rw [if_pos h]
      exact ⟨i + 1, h, h1 _ h, by omega, by omega⟩
    · rw [if_neg h]
      exact ⟨i, hi', h1 i hi', by omega, by omega⟩
  have prev : ∀ i < n, ∃ j < n, prevDay tmax i = .fin (hi j) ∧ j ≤ i ∧ i ≤ j + 1 := by
    intro i hi'
    unfold prevDay
    by_cases h : i = 0
    · rw [if_pos h]
      exact ⟨i, hi', h2 i hi', by omega, by omega⟩
    · rw [if_neg h]
      exact ⟨i - 1, by omega, h2 _ (by omega), by omega, by omega⟩
  have hR0 : 0 ≤ R := (abs_nonneg _).trans (hR 0 hn 0 hn (by omega) (by omega))
  have pi : Real.pi / 24 * R ≤ 0.131 * R := mul_le_mul_of_nonneg_right (by linarith [Real.pi_lt_d4]) hR0
  have hkn : k / 24 < n := by omega
  obtain ⟨j, hj, ej, j1, j2⟩ := next _ hkn
  obtain ⟨l, hl, el, l1, l2⟩ := prev _ hkn
  rw [cell k (by omega), cell (k + 1) hk]
  by_cases hmid : k % 24 = 23
  · have e1 : (k + 1) / 24 = k / 24 + 1 := by omega
    have e2 : (k + 1) % 24 = 0 := by omega
    have hin : k / 24 + 1 < n := by omega
    obtain ⟨j', hj', ej', _⟩ := next _ hin
    rw [e1, e2, hmid]
    obtain ⟨x, y, hx, hy, hxy⟩ := C119_midnight api hd method "fix" hm md course sun out hret (k / 24) hin _ _ _ _ _ _ (h1 _ hin) (h2 _ hkn) (h1 _ hkn) el ej' (h2 _ hin)
      7 14 7 14 (loc _) (loc _) (by omega) (by omega) (by omega) (by omega)
    refine ⟨x, y, hx, hy, ?_⟩
    rw [if_neg (by omega)]
    rw [sub_self, abs_zero, add_zero, mul_one] at hxy
    have := hR (k / 24) hkn (k / 24 + 1) hin (by omega) (by omega)
    have := mul_le_mul_of_nonneg_left this (by have := Real.pi_pos; positivity : (0 : ℝ) ≤ Real.pi / 24)
    linarith
  · have e1 : (k + 1) / 24 = k / 24 := by omega
    have e2 : (k + 1) % 24 = k % 24 + 1 := by omega
    rw [e1, e2]
    obtain ⟨x, y, hx, hy, a1, a2⟩ := C119_within_day api hd method "fix" hm md course sun out hret (k / 24) hkn _ _ _ _ R (h1 _ hkn) ej (h2 _ hkn) el
      (hR _ hkn _ hkn (by omega) (by omega)) (hR _ hl _ hkn (by omega) (by omega)) (hR _ hkn _ hj (by omega) (by omega)) 7 14 (loc _) (by omega) (k % 24) (by omega)
    refine ⟨x, y, hx, hy, ?_⟩
    by_cases h6 : k % 24 = 6
    · rw [if_pos h6]
      have a2 := a2 (by rw [h6]; norm_num)
      have hDD : |hi (k / 24) - hi l| ≤ D := by
        by_cases e : l = k / 24
        · rw [e, sub_self, abs_zero]
          exact hD0
        · have e : k / 24 = l + 1 := by omega
          rw [e]
          exact hD l (by omega)
      have hc : (1 + Real.cos (2 * Real.pi * (((7 : Int) : ℝ) - ((14 : Int) : ℝ)) / 24)) / 2 ≤ 0.375 := by linarith [cos_seven]
      have := mul_le_mul hc hDD (abs_nonneg _) (by norm_num)
      linarith
    · rw [if_neg h6]
      linarith [a1 (by omega)]

/-! ## the theorems apply -/

theorem exDays3 : TempDays exFrame3 0 3 (fun i => if i = 0 then .fin 283 else if i = 1 then .fin 273 else .fin 250)
    (fun i => if i = 0 then .fin 293 else if i = 1 then .fin 303 else .fin 290) (fun i => if i = 0 then .fin 288 else if i = 1 then .fin 288 else .fin 270) :=
  ⟨rfl, rfl, rfl, rfl⟩

/-- C119 (fixed hours): three days, maxima and minima up to 53 K apart, maxima up to 13 K apart -/
example : ∃ out, disaggregateTemperature .modern exFrame3 "sine_min_max" "fix" false none none (some exSun3) = .ok out ∧
    ∀ k, k + 1 < 72 → ∃ x y : ℝ, out.values[k]? = some (.fin x) ∧ out.values[k + 1]? = some (.fin y) ∧ |y - x| ≤ 0.131 * 53 + (if k % 24 = 6 then 0.375 * 13 else 0) := by
  obtain ⟨out, ho⟩ := exOk3 (.inl rfl) false
  refine ⟨out, ho, fun k hk => ?_⟩
  refine C119_fixed .modern exDays3 (by omega) _ (.inl rfl) none none exSun3 out (fun i => if i = 0 then 283 else if i = 1 then 273 else 250)
    (fun i => if i = 0 then 293 else if i = 1 then 303 else 290) ?_ ?_ 53 13 (by norm_num) ?_ ?_ ho k (by omega)
  · intro i _; split_ifs <;> rfl
  · intro i _; split_ifs <;> rfl
  · intro i hi j hj _ _
    interval_cases i <;> interval_cases j <;> norm_num at * <;> rw [abs_le] <;> norm_num
  · intro i hi
    have : i < 2 := by omega
    interval_cases i <;> norm_num <;> rw [abs_le] <;> norm_num

/-- C119 (mod_nighttime): from the second to the third hour of the way up, and at midnight -/
example : ∃ out, disaggregateTemperature .modern exFrame3 "sine" "fix" true none none (some exSun3) = .ok out ∧
    (∃ x y, (dayCells out (0 + ((1 : Nat) : Int)))[8]? = some (.fin x) ∧ (dayCells out (0 + ((1 : Nat) : Int)))[9]? = some (.fin y) ∧
      |y - x| ≤ 3 * Real.pi / 8 / (((14 : Nat) : ℝ) - (7 : Nat)) * |(303 : ℝ) - 273|) ∧
    ∃ x y, (dayCells out (0 + ((1 : Nat) : Int)))[23]? = some (.fin x) ∧ (dayCells out (0 + ((2 : Nat) : Int)))[0]? = some (.fin y) ∧
      |y - x| ≤ Real.pi / 2 / (24 - (((14 : Nat) : ℝ) - (7 : Nat))) * |(303 : ℝ) - 250| := by
  obtain ⟨out, ho⟩ := exOk3 (.inr (.inr rfl)) true
  refine ⟨out, ho, ?_, ?_⟩
  · obtain ⟨x, y, hx, hy, _, _, h, _⟩ := C119_night .modern exDays3 _ _ (.inr rfl) none none exSun3 out ho 1 (by omega) 273 250 303 293 rfl rfl rfl rfl 7 14
      (.inl ⟨rfl, rfl, rfl⟩) (by omega) (by omega) 8 (by omega)
    exact ⟨x, y, hx, hy, h (by omega) (by omega)⟩
  · exact C119_night_midnight .modern exDays3 _ _ (.inr rfl) none none exSun3 out ho 1 (by omega) 250 303 273 293 250 290 rfl rfl rfl rfl rfl rfl 7 14
      (.inl ⟨rfl, rfl, rfl⟩) (.inl ⟨rfl, rfl, rfl⟩) (by omega) (by omega)

/-- C119 ('sine_mean'): two days without daily range, 20 K apart: the whole difference comes at midnight, while 'sine' changes by at most 0.131 of it in that hour -/
example : ∃ (f : Frame ℝ) (out out' : Series (XF ℝ)), disaggregateTemperature .modern f "sine_mean" "fix" false none none (some exSun3) = .ok out ∧
    disaggregateTemperature .modern f "sine" "fix" false none none (some exSun3) = .ok out' ∧
    (∃ x y : ℝ, (dayCells out (0 + ((0 : Nat) : Int)))[23]? = some (.fin x) ∧ (dayCells out (0 + ((0 + 1 : Nat) : Int)))[0]? = some (.fin y) ∧ y - x = 20) ∧
    ∃ x y : ℝ, (dayCells out' (0 + ((0 : Nat) : Int)))[23]? = some (.fin x) ∧ (dayCells out' (0 + ((0 + 1 : Nat) : Int)))[0]? = some (.fin y) ∧ |y - x| ≤ 2.62 := by
  have hd : TempDays ⟨[at00 0, at00 1], [("tmin", [.fin 270, .fin 290]), ("tmax", [.fin 270, .fin 290]), ("temp", [.fin 270, .fin 290])]⟩ 0 2
      (fun i => if i = 0 then .fin 270 else .fin 290) (fun i => if i = 0 then .fin 270 else .fin 290) (fun i => if i = 0 then .fin 270 else .fin 290) := ⟨rfl, rfl, rfl, rfl⟩
  have ok : ∀ method, method = "sine_min_max" ∨ method = "sine_mean" ∨ method = "sine" → ∃ out, disaggregateTemperature .modern
      ⟨[at00 0, at00 1], [("tmin", [.fin 270, .fin 290]), ("tmax", [.fin 270, .fin 290]), ("temp", [.fin 270, .fin 290])]⟩ method "fix" false none none (some exSun3) = .ok out := by
    intro method hm
    refine sine_ok .modern hd (by decide) hm false none (fun _ _ => ⟨7, 14, .inl ⟨rfl, rfl, rfl⟩⟩) (by decide) ?_
    intro r hr
    obtain ⟨i, _, rfl⟩ := List.mem_map.1 hr
    simp only [XF.lt_fin]
    norm_num
  obtain ⟨out, ho⟩ := ok "sine_mean" (.inr (.inl rfl))
  obtain ⟨out', ho'⟩ := ok "sine" (.inr (.inr rfl))
  refine ⟨_, out, out', ho, ho', ?_, ?_⟩
  · obtain ⟨x, y, hx, hy, h⟩ := C119_mean_midnight .modern hd "fix" false none none exSun3 out ho 0 (by omega) 270 270 270 290 290 290 rfl rfl rfl rfl rfl rfl 7 14 7 14
      (.inl ⟨rfl, rfl, rfl⟩) (.inl ⟨rfl, rfl, rfl⟩)
    refine ⟨x, y, hx, hy, ?_⟩
    norm_num at h
    linarith
  · obtain ⟨x, y, hx, hy, h⟩ := C119_midnight .modern hd "sine" "fix" (.inr rfl) none none exSun3 out' ho' 0 (by omega) 290 270 270 270 290 290 rfl rfl rfl rfl rfl rfl 7 14 7 14
      (.inl ⟨rfl, rfl, rfl⟩) (.inl ⟨rfl, rfl, rfl⟩) (by omega) (by omega) (by omega) (by omega)
    refine ⟨x, y, hx, hy, h.trans ?_⟩
    rw [sub_self, abs_zero, add_zero, mul_one, abs_of_neg (by norm_num)]
    linarith [Real.pi_lt_d4]

end

end Melodist
