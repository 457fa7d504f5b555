import Verif.Lemmas.Sun

/-!
# C08, C09: get_sun_times
-/

set_option linter.unusedSectionVars false

namespace Melodist

noncomputable section

open Spec

/-- **C08.** For every date, longitude, time zone and latitude strictly between the poles the day length is a number in
[0, 24]; it is 24 if the sun is above the horizon at every hour angle, 0 if it is below at every hour angle, and otherwise the sun
is exactly on the horizon half a day length away from noon (15 degrees per hour).  It is 12 h at the equator, and day lengths at opposite
latitudes add up to 24 h. -/
theorem C08_daylength (t : Int) (lon lat tz : ℝ) (h1 : -90 < lat) (h2 : lat < 90) :
    ∃ D : ℝ, (getSunTimes [t] lon lat tz).map (fun r => (r.1, r.2.daylength)) = [(t, .fin D)] ∧ 0 ≤ D ∧ D ≤ 24 ∧
      ((∀ ω, 0 < sinAltitude lat (solarDeclination (doyOf t)) ω) → D = 24) ∧
      ((∀ ω, sinAltitude lat (solarDeclination (doyOf t)) ω < 0) → D = 0) ∧
      (¬ (∀ ω, 0 < sinAltitude lat (solarDeclination (doyOf t)) ω) →
        ¬ (∀ ω, sinAltitude lat (solarDeclination (doyOf t)) ω < 0) →
        sinAltitude lat (solarDeclination (doyOf t)) (D / 2 * (15 * (Real.pi / 180))) = 0) ∧
      (lat = 0 → D = 12) ∧
      ∃ D' : ℝ, (getSunTimes [t] lon (-lat) tz).map (fun r => (r.1, r.2.daylength)) = [(t, .fin D')] ∧ D + D' = 24 := by
  have hp := Real.pi_pos
  have hc : 0 < Real.cos (lat * (Real.pi / 180)) * Real.cos (solarDeclination (doyOf t)) :=
    mul_pos (cos_lat_pos h1 h2) (cos_declination_pos _)
  refine ⟨dayLen (doyOf t) lat, by simp [getSunTimes, sunTimesDoy_eq], (dayLen_range _ _).1, (dayLen_range _ _).2, ?_, ?_, ?_, ?_, ?_⟩
  · intro h
    have := h Real.pi
    rw [sinAltitude_eq h1 h2, Real.cos_pi] at this
    have := pos_of_mul_pos_right this hc.le
    unfold dayLen
    rw [if_pos (by linarith)]
  · intro h
    have := h 0
    rw [sinAltitude_eq h1 h2, Real.cos_zero] at this
    have : 1 - sunArg (doyOf t) lat < 0 := by
      by_contra hn
      exact absurd this (not_lt.2 (mul_nonneg hc.le (not_lt.1 hn)))
    unfold dayLen
    rw [if_neg (by linarith), if_pos (by linarith)]
  · intro n1 n2
    have c1 : ¬ sunArg (doyOf t) lat < -1 := by
      intro c
      apply n1
      intro ω
      rw [sinAltitude_eq h1 h2]
      exact mul_pos hc (by linarith [Real.neg_one_le_cos ω])
    have c2 : ¬ 1 < sunArg (doyOf t) lat := by
      intro c
      apply n2
      intro ω
      rw [sinAltitude_eq h1 h2]
      exact mul_neg_of_pos_of_neg hc (by linarith [Real.cos_le_one ω])
    rw [sinAltitude_eq h1 h2]
    have e : dayLen (doyOf t) lat / 2 * (15 * (Real.pi / 180)) = Real.arccos (sunArg (doyOf t) lat) := by
      unfold dayLen
      rw [if_neg c1, if_neg c2]
      field_simp
      ring
    rw [e, Real.cos_arccos (not_lt.1 c1) (not_lt.1 c2), sub_self, mul_zero]
  · rintro rfl
    have : sunArg (doyOf t) 0 = 0 := by unfold sunArg; simp
    unfold dayLen
    rw [this]
    norm_num
    field_simp
    norm_num
  · refine ⟨dayLen (doyOf t) (-lat), by simp [getSunTimes, sunTimesDoy_eq], ?_⟩
    have : sunArg (doyOf t) (-lat) = - sunArg (doyOf t) lat := by
      unfold sunArg
      rw [neg_mul lat, Real.tan_neg]
      ring
    unfold dayLen
    rw [this, Real.arccos_neg]
    by_cases c1 : sunArg (doyOf t) lat < -1
    · rw [if_pos c1, if_neg (by linarith), if_pos (by linarith)]; norm_num
    · by_cases c2 : 1 < sunArg (doyOf t) lat
      · rw [if_neg c1, if_pos c2, if_pos (by linarith)]; norm_num
      · rw [if_neg c1, if_neg c2, if_neg (by linarith), if_neg (by linarith)]
        field_simp
        ring

/-- **C09.** All four reported times are numbers; up to one wrap-around by 24 h sunrise and sunset lie half a day length before and after
solar noon; if noon is between 0 and 24 then 0 <= sunrise and sunset <= 24; solar noon does not depend on the latitude, is
12:00 local mean solar time up to 21 minutes (equation of time), and moves 4 minutes earlier per degree of longitude eastwards
and one hour later per hour of time zone. -/
theorem C09_sun_times_consistent (t : Int) (lon lat tz : ℝ) :
    ∃ rise noon set D : ℝ, getSunTimes [t] lon lat tz = [(t, ⟨.fin rise, .fin noon, .fin set, .fin D⟩)] ∧
      (rise = noon - D / 2 ∨ rise = noon - D / 2 + 24) ∧ (set = noon + D / 2 ∨ set = noon + D / 2 - 24) ∧
      (0 ≤ noon → noon ≤ 24 → 0 ≤ rise ∧ set ≤ 24) ∧
      |noon - (12 - (lon - 15 * tz) / 15)| ≤ 0.35 ∧
      (∀ lat', (getSunTimes [t] lon lat' tz).map (fun r => r.2.sunnoon) = [.fin noon]) ∧
      (∀ x, (getSunTimes [t] (lon + x) lat tz).map (fun r => r.2.sunnoon) = [.fin (noon - x * 4 / 60)]) ∧
      (∀ x, (getSunTimes [t] lon lat (tz + x)).map (fun r => r.2.sunnoon) = [.fin (noon + x)]) := by
  refine ⟨_, _, _, _, congrArg (fun r => [(t, r)]) (sunTimesDoy_eq (doyOf t) lon lat tz), ?_, ?_, ?_, ?_, ?_, ?_, ?_⟩
  · split <;> simp
  · split <;> simp
  · intro a b
    have := dayLen_range (doyOf t) lat
    constructor
    · split <;> linarith
    · split <;> linarith
  · have e : noonAt (doyOf t) lon tz - (12 - (lon - 15 * tz) / 15) = - eqTime (doyOf t) := by unfold noonAt; ring
    rw [e, abs_neg]
    exact abs_eqTime_le _
  · intro lat'; simp [getSunTimes, sunTimesDoy_eq]
  · intro x
    simp only [getSunTimes, List.map_cons, List.map_nil, sunTimesDoy_eq]
    congr 2
    unfold noonAt; ring
  · intro x
    simp only [getSunTimes, List.map_cons, List.map_nil, sunTimesDoy_eq]
    congr 2
    unfold noonAt; ring

/-- `get_sun_times` treats every date on its own -/
theorem C09_sun_times_rowwise (dates : List Int) (lon lat tz : ℝ) :
    getSunTimes dates lon lat tz = dates.flatMap fun t => getSunTimes [t] lon lat tz := by
  induction dates with
  | nil => rfl
  | cons t ts ih =>
    simp only [getSunTimes, List.map_cons, List.map_nil, List.flatMap_cons, List.cons_append, List.nil_append] at ih ⊢
    rw [ih]

/-- non-vacuity: a latitude strictly between the poles (Innsbruck) on 1970-06-21 -/
example : ∃ D : ℝ, (getSunTimes [171 * 86400000000] 11.4 47.3 1).map (fun r => (r.1, r.2.daylength)) = [(171 * 86400000000, .fin D)] ∧
    0 ≤ D ∧ D ≤ 24 :=
  let ⟨D, h⟩ := C08_daylength (171 * 86400000000) 11.4 47.3 1 (by norm_num) (by norm_num)
  ⟨D, h.1, h.2.1, h.2.2.1⟩

end

end Melodist
