import Verif.Props.Temperature
import Verif.Props.HumidityStats

/-!
# C45 (negative part), C48-C53: temperature, mean courses, options, observed shift; examples for the sine methods
-/

set_option linter.unusedSectionVars false

namespace Melodist
open Spec

noncomputable section

variable {daily : Frame ℝ} {d0 : Int} {n : Nat} {tmin tmax temp : Nat → XF ℝ}

/-! ## a concrete series -/

/-- two days: tmin 283 and 273 K, tmax 293 and 303 K -/
def exFrame : Frame ℝ :=
  ⟨[at00 0, at00 1], [("tmin", [.fin 283, .fin 273]), ("tmax", [.fin 293, .fin 303]), ("temp", [.fin 288, .fin 288])]⟩

def exMin (i : Nat) : XF ℝ := if i = 0 then .fin 283 else .fin 273
def exMax (i : Nat) : XF ℝ := if i = 0 then .fin 293 else .fin 303
def exTemp (_ : Nat) : XF ℝ := .fin 288

/-- sunrise 5:30, noon 12:06, sunset 18:42 on both days -/
def exSun : Series SunTimes := dailyS 0 2 fun _ => ⟨.fin 5.5, .fin 12.1, .fin 18.7, .fin 13.2⟩

theorem exDays : TempDays exFrame 0 2 exMin exMax exTemp := ⟨rfl, rfl, rfl, rfl⟩

theorem exSun_long : ∀ r ∈ exSun, ¬ XF.lt r.2.daylength (.fin 3) := by
  intro r hr
  obtain ⟨i, _, rfl⟩ := List.mem_map.1 hr
  simp only [XF.lt_fin]
  norm_num

theorem exOk {method : String} (hm : method = "sine_min_max" ∨ method = "sine_mean" ∨ method = "sine") (modNight : Bool) :
    ∃ out, disaggregateTemperature .modern exFrame method "fix" modNight none none (some exSun) = .ok out :=
  sine_ok .modern exDays (by decide) hm modNight none (fun _ _ => ⟨7, 14, .inl ⟨rfl, rfl, rfl⟩⟩) (by decide) exSun_long

/-- C43, C44, C45 (07:00): the first day of the example -/
example : ∃ out, disaggregateTemperature .modern exFrame "sine_min_max" "fix" false none none (some exSun) = .ok out ∧
    (∀ x, .fin x ∈ dayCells out (0 + (0 : Nat)) → (min 283 273 : ℝ) ≤ x ∧ x ≤ max 293 293) ∧
    (dayCells out (0 + (0 : Nat)))[14]? = some (.fin 293) ∧ (dayCells out (0 + (0 : Nat)))[2]? = some (.fin 283) ∧
    (dayCells out (0 + (0 : Nat)))[7]? ≠ some (.fin 283) := by
  obtain ⟨out, h⟩ := exOk (.inl rfl) false
  refine ⟨out, h, ?_, ?_, ?_, ?_⟩
  · exact C43_envelope .modern exDays (by decide) _ _ (.inl rfl) _ _ _ _ out h 0 (by decide) 283 273 293 293 rfl rfl rfl rfl
      (by norm_num) (by norm_num) (by norm_num) (by norm_num)
  · exact (C44_fixed_times .modern exDays _ (.inl rfl) _ _ _ out h 0 (by decide) 283 273 293 293 rfl rfl rfl rfl).1
  · exact (C44_fixed_times .modern exDays _ (.inl rfl) _ _ _ out h 0 (by decide) 283 273 293 293 rfl rfl rfl rfl).2
  · rw [Ne, C45_seven_oclock .modern exDays _ (.inl rfl) _ _ _ out h 0 (by decide) 283 273 293 293 rfl rfl rfl rfl]
    norm_num

/-- C46: mod_nighttime -/
example : ∃ out, disaggregateTemperature .modern exFrame "sine" "fix" true none none (some exSun) = .ok out ∧
    (dayCells out (0 + (0 : Nat)))[7]? = some (.fin 283) := by
  obtain ⟨out, h⟩ := exOk (.inr (.inr rfl)) true
  exact ⟨out, h, (C46_mod_nighttime .modern exDays _ _ (.inr rfl) _ _ _ out h 0 (by decide) 283 273 293 293 rfl rfl rfl rfl 7 14
    (.inl ⟨rfl, rfl, rfl⟩) (by decide) (by decide)).1⟩

/-- C47: mean of the second day -/
example : ∃ out, disaggregateTemperature .modern exFrame "sine_mean" "fix" true none none (some exSun) = .ok out ∧
    MeanIs (dayCells out (0 + (1 : Nat))) 288 := by
  obtain ⟨out, h⟩ := exOk (.inr (.inl rfl)) true
  exact ⟨out, h, (C47_sine_mean .modern exDays (by decide) _ _ _ _ _ out h 1 (by decide) 273 303 288 rfl rfl rfl (by norm_num)).1⟩

/-- C80: 'sun_loc' on the example puts the maximum at 12 + 2 h (noon 12:06) and the minimum hour at 6 (sunrise 5:30, the even neighbour) -/
example : ∃ out, disaggregateTemperature .modern exFrame "sine" "sun_loc" false none none (some exSun) = .ok out ∧
    (dayCells out (0 + (0 : Nat)))[14]? = some (.fin 293) := by
  have hl : ∀ i < 2, IsLoc "sun_loc" none exSun (at00 (0 + (i : Nat))) 6 (14 : Nat) := by
    intro i hi
    refine .inr (.inl ⟨rfl, _, 5.5, 12.1, dailyS_at? 0 _ hi, rfl, rfl, ?_, ?_⟩)
    · refine ⟨?_, fun _ => by decide⟩
      norm_num
    · have e : |(((((14 : Nat) : Int) - 2 : Int)) : ℝ) - 12.1| = 0.1 := by
        norm_num
      unfold Nearest
      rw [e]
      norm_num
  obtain ⟨out, h⟩ := sine_ok .modern exDays (by decide) (mmt := "sun_loc") (md := none) (sun := exSun) (.inr (.inr rfl)) false none
    (fun i hi => ⟨6, _, hl i hi⟩) (by decide) exSun_long
  exact ⟨out, h, (C80_peak_hour .modern exDays _ _ (.inr rfl) _ _ _ out h 0 (by decide) 283 273 293 293 rfl rfl rfl rfl 6 14
    (hl 0 (by decide)) (by decide) (by decide)).1⟩

/-- C45 (when it is true): two equal days, no option changes anything -/
example : ∃ out, disaggregateTemperature .modern
      ⟨[at00 0, at00 1], [("tmin", [.fin 283, .fin 283]), ("tmax", [.fin 293, .fin 293]), ("temp", [.nan, .nan])]⟩
      "sine" "fix" false none none (some exSun) = .ok out ∧ MinIs (dayCells out (0 + (1 : Nat))) 283 ∧ MaxIs (dayCells out (0 + (1 : Nat))) 293 := by
  have hd : TempDays ⟨[at00 0, at00 1], [("tmin", [.fin 283, .fin 283]), ("tmax", [.fin 293, .fin 293]), ("temp", [.nan, .nan])]⟩ 0 2
      (fun _ => .fin 283) (fun _ => .fin 293) (fun _ => .nan) := ⟨rfl, rfl, rfl, rfl⟩
  obtain ⟨out, h⟩ := sine_ok .modern hd (by decide) (mmt := "fix") (md := none) (sun := exSun) (.inr (.inr rfl)) false none
    (fun _ _ => ⟨7, 14, .inl ⟨rfl, rfl, rfl⟩⟩) (by decide) exSun_long
  exact ⟨out, h, C45_extremes_preserved_if .modern hd _ _ (.inr rfl) _ _ _ out h 1 (by decide) 283 283 293 293 rfl rfl rfl rfl 7 14
    (.inl ⟨rfl, rfl, rfl⟩) (by decide) (by decide) le_rfl le_rfl (by norm_num) (by norm_num)⟩

/-- **C45 (false in general).**  There is a series with tmin ≤ tmax on every day for which 'sine_min_max' with fixed times gives a value below the
day's tmin; and one for which it gives a value above the day's tmax. -/
theorem C45_extremes_not_preserved :
    (∃ (daily : Frame ℝ) (sun : Series SunTimes) (out : Series (XF ℝ)) (a b : ℝ) (x : ℝ),
      (∃ tmin tmax temp, TempDays daily 0 2 tmin tmax temp ∧ tmin 0 = .fin a ∧ tmax 0 = .fin b ∧
        (∀ i < 2, ∃ y z, tmin i = .fin y ∧ tmax i = .fin z ∧ y ≤ z)) ∧
      disaggregateTemperature .modern daily "sine_min_max" "fix" false none none (some sun) = .ok out ∧
      .fin x ∈ dayCells out 0 ∧ x < a) ∧
    (∃ (daily : Frame ℝ) (sun : Series SunTimes) (out : Series (XF ℝ)) (a b : ℝ) (x : ℝ),
      (∃ tmin tmax temp, TempDays daily 0 2 tmin tmax temp ∧ tmin 1 = .fin a ∧ tmax 1 = .fin b ∧
        (∀ i < 2, ∃ y z, tmin i = .fin y ∧ tmax i = .fin z ∧ y ≤ z)) ∧
      disaggregateTemperature .modern daily "sine_min_max" "fix" false none none (some sun) = .ok out ∧
      .fin x ∈ dayCells out 1 ∧ b < x) := by
  constructor
  · obtain ⟨out, h⟩ := exOk (.inl rfl) false
    refine ⟨exFrame, exSun, out, 283, 293, 283 + 10 * Real.cos (3 * Real.pi / 4), ⟨exMin, exMax, exTemp, exDays, rfl, rfl, ?_⟩, h, ?_, ?_⟩
    · intro i hi
      rcases i with _ | _ | i
      · exact ⟨283, 293, rfl, rfl, by norm_num⟩
      · exact ⟨273, 303, rfl, rfl, by norm_num⟩
      · omega
    · have := sine_day' exDays (.inl rfl) h (i := 0) (by decide) (.inl ⟨rfl, rfl, rfl⟩)
      rw [show (0 : Int) = 0 + (0 : Nat) from rfl, this]
      refine mem_day24.2 ⟨23, by decide, ?_⟩
      rw [sineCell_eq (m := 273) (M := 293) rfl rfl (by simp), sinePhase_false]
      congr 1
      rw [show 2 * Real.pi / 24 * ((((23 : Nat) : Int) - (locRow 2 exMin exMax exTemp (fun _ => 7) (fun _ => 14) 0).maxLoc : Int) : ℝ) =
        3 * Real.pi / 4 by unfold locRow; push_cast; ring]
      ring
    · have h1 : Real.cos (3 * Real.pi / 4) < 0 := by
        have := Real.pi_pos
        apply Real.cos_neg_of_pi_div_two_lt_of_lt <;> linarith
      linarith
  · have hd : TempDays ⟨[at00 0, at00 1], [("tmin", [.fin 273, .fin 273]), ("tmax", [.fin 313, .fin 274]), ("temp", [.nan, .nan])]⟩ 0 2
        (fun _ => .fin 273) (fun i => if i = 0 then .fin 313 else .fin 274) (fun _ => .nan) := ⟨rfl, rfl, rfl, rfl⟩
    obtain ⟨out, h⟩ := sine_ok .modern hd (by decide) (mmt := "fix") (md := none) (sun := exSun) (.inl rfl) false none
      (fun _ _ => ⟨7, 14, .inl ⟨rfl, rfl, rfl⟩⟩) (by decide) exSun_long
    refine ⟨_, exSun, out, 273, 274, 283, ⟨_, _, _, hd, rfl, rfl, ?_⟩, h, ?_, by norm_num⟩
    · intro i hi
      rcases i with _ | _ | i
      · exact ⟨273, 313, rfl, rfl, by norm_num⟩
      · exact ⟨273, 274, rfl, rfl, by norm_num⟩
      · omega
    · have := sine_day' hd (.inl rfl) h (i := 1) (by decide) (.inl ⟨rfl, rfl, rfl⟩)
      rw [show (1 : Int) = 0 + (1 : Nat) from rfl, this]
      refine mem_day24.2 ⟨6, by decide, ?_⟩
      rw [sineCell_eq (m := 273) (M := 313) rfl rfl (by simp), sinePhase_false]
      congr 1
      have : Real.cos (2 * Real.pi / 24 * ((((6 : Nat) : Int) - 14 : Int) : ℝ)) = -(1 / 2) := by
        rw [show 2 * Real.pi / 24 * ((((6 : Nat) : Int) - 14 : Int) : ℝ) = -(Real.pi - Real.pi / 3) by push_cast; ring, Real.cos_neg,
          Real.cos_pi_sub, Real.cos_pi_div_three]
      unfold locRow
      dsimp only
      rw [this]
      norm_num

end

end Melodist
