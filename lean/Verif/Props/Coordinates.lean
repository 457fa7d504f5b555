import Verif.Props.SunRound
import Verif.Props.SunGeometry
import Mathlib.Analysis.SpecialFunctions.Trigonometric.InverseDeriv
import Mathlib.Analysis.Calculus.MeanValue

/-!
# C138: errors of the coordinates and of the time
-/

set_option linter.unusedSectionVars false

namespace Melodist
open Spec

noncomputable section

theorem sinHeight_lat (lon lat lat' tz : ℝ) (t : Time) : |sinHeight lon lat tz t - sinHeight lon lat' tz t| ≤ Real.pi / 180 * |lat - lat'| := by
  have hp := Real.pi_pos
  unfold sinHeight
  set p := lat * (Real.pi / 180) with hpd
  set p' := lat' * (Real.pi / 180) with hpd'
  set H := (solarTime lon tz t - 12) * (Real.pi / 12)
  have e : Real.sin p * Real.sin (decl t) + Real.cos p * Real.cos (decl t) * Real.cos H - (Real.sin p' * Real.sin (decl t) + Real.cos p' * Real.cos (decl t) * Real.cos H) =
      2 * Real.sin ((p - p') / 2) * (Real.sin (decl t) * Real.cos ((p + p') / 2) - Real.cos (decl t) * Real.cos H * Real.sin ((p + p') / 2)) := by
    have h1 := Real.sin_sub_sin p p'
    have h2 := Real.cos_sub_cos p p'
    linear_combination Real.sin (decl t) * h1 + Real.cos (decl t) * Real.cos H * h2
  rw [e, abs_mul, abs_mul, abs_two]
  have h1 : |Real.sin (decl t) * Real.cos ((p + p') / 2) - Real.cos (decl t) * Real.cos H * Real.sin ((p + p') / 2)| ≤ 1 := by
    apply abs_le_one_iff_mul_self_le_one.2
    have a := Real.sin_sq_add_cos_sq (decl t)
    have b := Real.sin_sq_add_cos_sq ((p + p') / 2)
    have c := Real.sin_sq_add_cos_sq H
    generalize Real.sin (decl t) = x at *
    generalize Real.cos (decl t) = y at *
    generalize Real.sin ((p + p') / 2) = u at *
    generalize Real.cos ((p + p') / 2) = w at *
    generalize Real.cos H = z at *
    generalize Real.sin H = zs at *
    have h3 : (x * w - y * z * u) * (x * w - y * z * u) + (x * u + y * z * w) ^ 2 = x ^ 2 + y ^ 2 * z ^ 2 := by linear_combination (x ^ 2 + y ^ 2 * z ^ 2) * b
    have h4 : y ^ 2 * z ^ 2 ≤ y ^ 2 := by
      have : z ^ 2 ≤ 1 := by nlinarith [sq_nonneg zs]
      nlinarith [sq_nonneg y]
    nlinarith [sq_nonneg (x * u + y * z * w)]
  have h2 : |Real.sin ((p - p') / 2)| ≤ |(p - p') / 2| := Real.abs_sin_le_abs
  have h3 : |(p - p') / 2| = Real.pi / 180 * |lat - lat'| / 2 := by
    rw [hpd, hpd', ← sub_mul, abs_div, abs_mul, abs_of_pos (by positivity : 0 < Real.pi / 180), abs_two]
    ring
  calc 2 * |Real.sin ((p - p') / 2)| * _ ≤ 2 * |(p - p') / 2| * 1 := by gcongr
    _ = _ := by rw [h3]; ring

theorem sinHeight_time (lon lon' lat tz tz' : ℝ) {t t' : Time} (hd : doyOf t = doyOf t') :
    |sinHeight lon lat tz t - sinHeight lon' lat tz' t'| ≤ Real.pi / 12 * |solarTime lon tz t - solarTime lon' tz' t'| := by
  have hp := Real.pi_pos
  have hdecl : decl t = decl t' := by unfold decl; rw [hd]
  unfold sinHeight
  rw [hdecl]
  set H := (solarTime lon tz t - 12) * (Real.pi / 12) with hH
  set H' := (solarTime lon' tz' t' - 12) * (Real.pi / 12) with hH'
  rw [add_sub_add_left_eq_sub, ← mul_sub, abs_mul, abs_mul]
  have h1 := Real.abs_cos_le_one (lat * (Real.pi / 180))
  have h2 := Real.abs_cos_le_one (decl t')
  have h3 : |Real.cos H - Real.cos H'| ≤ |H - H'| := by
    rw [Real.cos_sub_cos, abs_mul, abs_mul, abs_neg, abs_two]
    have a : |Real.sin ((H - H') / 2)| ≤ |(H - H') / 2| := Real.abs_sin_le_abs
    have b := Real.abs_sin_le_one ((H + H') / 2)
    rw [abs_div, abs_two] at a
    calc 2 * |Real.sin ((H + H') / 2)| * |Real.sin ((H - H') / 2)| ≤ 2 * 1 * (|H - H'| / 2) := by gcongr
      _ = _ := by ring
  have h4 : |H - H'| = Real.pi / 12 * |solarTime lon tz t - solarTime lon' tz' t'| := by
    rw [hH, hH', ← sub_mul, sub_sub_sub_cancel_right, abs_mul, abs_of_pos (by positivity : 0 < Real.pi / 12)]
    ring
  calc |Real.cos (lat * (Real.pi / 180))| * |Real.cos (decl t')| * |Real.cos H - Real.cos H'| ≤ 1 * 1 * |H - H'| := by gcongr
    _ = _ := by rw [h4]; ring

theorem horizontalRad_lipschitz {s c c' k : ℝ} (hs0 : 0 ≤ s) (hs : s ≤ 1.0365) (h0 : 0 ≤ k) (h1 : k ≤ 1) (hc : c ≤ 1) (hc' : c' ≤ 1) :
    |horizontalRad s c k - horizontalRad s c' k| ≤ 1417 * |c - c'| := by
  have hm := abs_max_sub_max_le_abs c c' 0
  unfold horizontalRad
  have a0 : 0 ≤ max c 0 := le_max_right _ _
  have a1 : max c 0 ≤ 1 := max_le hc zero_le_one
  have b0 : 0 ≤ max c' 0 := le_max_right _ _
  have b1 : max c' 0 ≤ 1 := max_le hc' zero_le_one
  generalize max c 0 = S at *
  generalize max c' 0 = S' at *
  have e : 1367 * s * S * ((0.6 + 0.2 * S) * (1 - k) + (0.3 + 0.1 * S) * k) - 1367 * s * S' * ((0.6 + 0.2 * S') * (1 - k) + (0.3 + 0.1 * S') * k) =
      1367 * s * ((0.6 * (1 - k) + 0.3 * k) + (0.2 * (1 - k) + 0.1 * k) * (S + S')) * (S - S') := by ring
  rw [e, abs_mul]
  have g0 : 0 ≤ (0.6 * (1 - k) + 0.3 * k) + (0.2 * (1 - k) + 0.1 * k) * (S + S') := by
    have : 0 ≤ 1 - k := by linarith
    positivity
  have g1 : (0.6 * (1 - k) + 0.3 * k) + (0.2 * (1 - k) + 0.1 * k) * (S + S') ≤ 1 := by
    have : (0.2 * (1 - k) + 0.1 * k) * (S + S') ≤ (0.2 * (1 - k) + 0.1 * k) * 2 := by
      refine mul_le_mul_of_nonneg_left (by linarith) ?_
      have : 0 ≤ 1 - k := by linarith
      positivity
    norm_num at this ⊢
    linarith
  rw [abs_of_nonneg (by positivity)]
  calc 1367 * s * _ * |S - S'| ≤ 1367 * 1.0365 * 1 * |c - c'| := by gcongr
    _ ≤ _ := by
      have := abs_nonneg (c - c')
      norm_num
      linarith

/-- **C138** (potential radiation): between two sites, and two times on the same day of the year, potential radiation on a horizontal surface differs by at most 24.8 W/m² per
degree of latitude plus 371 W/m² per hour of solar time (24.8 W/m² per degree of longitude, 6.2 W/m² per minute). -/
theorem C138_radiation (t t' : Time) (hd : doyOf t = doyOf t') (lon lon' lat lat' tz tz' azimuth k : ℝ) (h0 : 0 ≤ k) (h1 : k ≤ 1)
    (hz : sinHeight lon lat tz t < 1) (hz' : sinHeight lon' lat' tz' t' < 1) :
    ∃ x x' : ℝ, potentialRadiation [t] lon lat tz 0 azimuth k = [(t, .fin x)] ∧ potentialRadiation [t'] lon' lat' tz' 0 azimuth k = [(t', .fin x')] ∧
      |x - x'| ≤ 24.8 * |lat - lat'| + 371 * |solarTime lon tz t - solarTime lon' tz' t'| := by
  refine ⟨_, _, potRad_horizontal t lon lat tz azimuth k h0 h1 hz, potRad_horizontal t' lon' lat' tz' azimuth k h0 h1 hz', ?_⟩
  have hR : orbitRatio t = orbitRatio t' := by unfold orbitRatio; rw [hd]
  have hb := radiusRatio_bounds (doyOf t')
  rw [orbitRatio_eq] at hb
  rw [hR]
  refine (horizontalRad_lipschitz hb.1.le hb.2 h0 h1 hz.le hz'.le).trans ?_
  have e1 := sinHeight_lat lon lat lat' tz t
  have e2 := sinHeight_time lon lon' lat' tz tz' hd
  have e3 := abs_sub_le (sinHeight lon lat tz t) (sinHeight lon lat' tz t) (sinHeight lon' lat' tz' t')
  have hp := Real.pi_lt_d4
  have c1 : Real.pi / 180 * |lat - lat'| ≤ 3.1416 / 180 * |lat - lat'| := by gcongr
  have c2 : Real.pi / 12 * |solarTime lon tz t - solarTime lon' tz' t'| ≤ 3.1416 / 12 * |solarTime lon tz t - solarTime lon' tz' t'| := by gcongr
  have d1 := abs_nonneg (lat - lat')
  have d2 := abs_nonneg (solarTime lon tz t - solarTime lon' tz' t')
  norm_num at c1 c2 ⊢
  linarith

/-- **C138** (coordinates): the same for an error of the coordinates only. -/
theorem C138_coordinates (t : Time) (lon lon' lat lat' tz azimuth k : ℝ) (h0 : 0 ≤ k) (h1 : k ≤ 1)
    (hz : sinHeight lon lat tz t < 1) (hz' : sinHeight lon' lat' tz t < 1) :
    ∃ x x' : ℝ, potentialRadiation [t] lon lat tz 0 azimuth k = [(t, .fin x)] ∧ potentialRadiation [t] lon' lat' tz 0 azimuth k = [(t, .fin x')] ∧
      |x - x'| ≤ 24.8 * (|lat - lat'| + |lon - lon'|) := by
  refine ⟨_, _, potRad_horizontal t lon lat tz azimuth k h0 h1 hz, potRad_horizontal t lon' lat' tz azimuth k h0 h1 hz', ?_⟩
  have hb := radiusRatio_bounds (doyOf t)
  rw [orbitRatio_eq] at hb
  refine (horizontalRad_lipschitz hb.1.le hb.2 h0 h1 hz.le hz'.le).trans ?_
  have e1 := sinHeight_lat lon lat lat' tz t
  have e2 := sinHeight_time lon lon' lat' tz tz (t := t) rfl
  have e3 := abs_sub_le (sinHeight lon lat tz t) (sinHeight lon lat' tz t) (sinHeight lon' lat' tz t)
  have hs : |solarTime lon tz t - solarTime lon' tz t| = |lon - lon'| / 15 := by
    unfold solarTime
    rw [show (hourOf t : ℝ) + (minuteOf t : ℝ) / 60 + (lon - 15 * tz) / 15 - ((hourOf t : ℝ) + (minuteOf t : ℝ) / 60 + (lon' - 15 * tz) / 15) = (lon - lon') / 15 by ring,
      abs_div, abs_of_pos (by norm_num : (0 : ℝ) < 15)]
  rw [hs] at e2
  have hp := Real.pi_lt_d4
  have c1 : Real.pi / 180 * |lat - lat'| ≤ 3.1416 / 180 * |lat - lat'| := by gcongr
  have c2 : Real.pi / 12 * (|lon - lon'| / 15) ≤ 3.1416 / 12 * (|lon - lon'| / 15) := by gcongr
  have d1 := abs_nonneg (lat - lat')
  have d2 := abs_nonneg (lon - lon')
  norm_num at c1 c2 ⊢
  linarith

theorem arccos_sharp {c m x y : ℝ} (hm : 0 < m) (h : m ^ 2 ≤ 1 - c ^ 2) (hc : 0 ≤ c) (hx : |x| ≤ c) (hy : |y| ≤ c) : |Real.arccos x - Real.arccos y| ≤ 1 / m * |x - y| := by
  have hc1 : c < 1 := by
    by_contra hh
    have : 1 ≤ c := not_lt.1 hh
    nlinarith
  have key : ∀ z ∈ Set.Icc (-c) c, m ≤ Real.sqrt (1 - z ^ 2) := by
    intro z hz
    apply Real.le_sqrt_of_sq_le
    have : z ^ 2 ≤ c ^ 2 := sq_le_sq' hz.1 hz.2
    linarith
  have := Convex.norm_image_sub_le_of_norm_hasDerivWithin_le (f := Real.arccos) (f' := fun z => -(1 / Real.sqrt (1 - z ^ 2))) (s := Set.Icc (-c) c) (C := 1 / m)
    (fun z hz => (Real.hasDerivAt_arccos (ne_of_gt (by linarith [hz.1])) (ne_of_lt (by linarith [hz.2]))).hasDerivWithinAt)
    (fun z hz => by
      have := key z hz
      rw [norm_neg, Real.norm_eq_abs, abs_of_nonneg (by positivity)]
      exact one_div_le_one_div_of_le hm this) (convex_Icc _ _) (abs_le.1 hy) (abs_le.1 hx)
  simpa [Real.norm_eq_abs] using this

/-- up to 60 degrees latitude: the day lengths of two latitudes -/
theorem dayLen_lat (doy : Int) {lat lat' : ℝ} (h : |lat| ≤ 60) (h' : |lat'| ≤ 60) : |dayLen doy lat - dayLen doy lat'| ≤ 0.45 * |lat - lat'| := by
  have hp := Real.pi_pos
  have hp4 := Real.pi_lt_d4
  have hcd : 0.9036 ≤ Real.cos (solarDeclination doy) := by
    have h1 := Real.one_sub_sq_div_two_le_cos (x := solarDeclination doy)
    have h2 : |solarDeclination doy| ≤ 0.4386 := (abs_declination_le doy).trans (by norm_num at hp4 ⊢; linarith)
    have h3 := abs_le.1 h2
    have : solarDeclination doy ^ 2 ≤ 0.4386 ^ 2 := sq_le_sq' h3.1 h3.2
    norm_num at h1 this ⊢; linarith
  have htd : |Real.tan (solarDeclination doy)| ≤ 0.4746 := tan_abs (a := 0.9036) (by norm_num) hcd (by norm_num) (by norm_num)
  have hb : ∀ {l : ℝ}, |l| ≤ 60 → |sunArg doy l| ≤ 0.8221 := by
    intro l hl
    unfold sunArg
    rw [abs_mul, abs_neg]
    have h1 : |Real.tan (l * (Real.pi / 180))| ≤ 1.7321 := tan_abs (a := 1 / 2) (by norm_num) (cos_sixty hl) (by norm_num) (by norm_num)
    calc _ ≤ (1.7321 : ℝ) * 0.4746 := by gcongr
      _ ≤ _ := by norm_num
  have hd : |sunArg doy lat - sunArg doy lat'| ≤ 0.4746 * (4 * (Real.pi / 180 * |lat - lat'|)) := by
    unfold sunArg
    rw [← sub_mul, abs_mul, neg_sub_neg, abs_sub_comm, mul_comm]
    have h1 := tan_sub_abs (a := 1 / 2) (by norm_num) (cos_sixty h) (cos_sixty h')
    rw [← sub_mul, abs_mul, abs_of_pos (by positivity : 0 < Real.pi / 180)] at h1
    have h2 : |Real.tan (lat * (Real.pi / 180)) - Real.tan (lat' * (Real.pi / 180))| ≤ 4 * (Real.pi / 180 * |lat - lat'|) := by
      refine h1.trans (le_of_eq ?_)
      ring
    gcongr
  have ha := arccos_sharp (c := 0.8221) (m := 0.569) (by norm_num) (by norm_num) (by norm_num) (hb h) (hb h')
  rw [dayLen_eq, dayLen_eq, ← mul_sub, ← sub_div, abs_mul, abs_div, abs_of_pos hp, abs_of_pos (by norm_num : (0 : ℝ) < 24)]
  calc 24 * (|Real.arccos (sunArg doy lat) - Real.arccos (sunArg doy lat')| / Real.pi)
      ≤ 24 * ((1 / 0.569 * (0.4746 * (4 * (Real.pi / 180 * |lat - lat'|)))) / Real.pi) := by
        have := ha.trans (mul_le_mul_of_nonneg_left hd (by norm_num))
        gcongr
    _ = 24 * (1 / 0.569 * (0.4746 * (4 / 180))) * |lat - lat'| := by field_simp
    _ ≤ _ := mul_le_mul_of_nonneg_right (by norm_num) (abs_nonneg _)

theorem wrap_rise {r x e : ℝ} (h : |r - x| ≤ e) : Spec.sameClock e (if r < 0 then r + 24 else r) (if x < 0 then x + 24 else x) := by
  unfold Spec.sameClock
  split_ifs
  · left; rwa [add_sub_add_right_eq_sub]
  · right; left; rwa [show r + 24 - x - 24 = r - x by ring]
  · right; right; rwa [show r - (x + 24) + 24 = r - x by ring]
  · exact Or.inl h

theorem wrap_set {r x e : ℝ} (h : |r - x| ≤ e) : Spec.sameClock e (if 24 < r then r - 24 else r) (if 24 < x then x - 24 else x) := by
  unfold Spec.sameClock
  split_ifs
  · left; rwa [sub_sub_sub_cancel_right]
  · right; right; rwa [show r - 24 - x + 24 = r - x by ring]
  · right; left; rwa [show r - (x - 24) - 24 = r - x by ring]
  · exact Or.inl h

/-- **C138** (sun times): on the same day of the year, the noons of two sites differ by exactly the difference of their distances from the time zone's meridian (15 degrees an
hour); up to 60 degrees latitude the day lengths differ by at most 0.45 hours (27 minutes) per degree of latitude, and rise and set on the clock by the shift of noon plus half
of the change of the day length. -/
theorem C138_sun_times (t t' : Time) (hd : doyOf t = doyOf t') (lon lon' lat lat' tz tz' : ℝ) (h : |lat| ≤ 60) (h' : |lat'| ≤ 60) :
    ∃ r n s D r' n' s' D' : ℝ, getSunTimes [t] lon lat tz = [(t, ⟨.fin r, .fin n, .fin s, .fin D⟩)] ∧
      getSunTimes [t'] lon' lat' tz' = [(t', ⟨.fin r', .fin n', .fin s', .fin D'⟩)] ∧
      n' - n = ((lon - 15 * tz) - (lon' - 15 * tz')) / 15 ∧ |D - D'| ≤ 0.45 * |lat - lat'| ∧
      sameClock (|n - n'| + 0.225 * |lat - lat'|) r r' ∧ sameClock (|n - n'| + 0.225 * |lat - lat'|) s s' := by
  have h1 : getSunTimes [t] lon lat tz = [(t, sunTimesDoy (doyOf t) lon lat tz)] := rfl
  have h2 : getSunTimes [t'] lon' lat' tz' = [(t', sunTimesDoy (doyOf t') lon' lat' tz')] := rfl
  rw [sunTimesDoy_eq] at h1 h2
  rw [← hd] at h2
  have hD := dayLen_lat (doyOf t) h h'
  have hN := abs_le.1 (le_refl |noonAt (doyOf t) lon tz - noonAt (doyOf t) lon' tz'|)
  have hD2 := abs_le.1 hD
  refine ⟨_, _, _, _, _, _, _, _, h1, h2, ?_, hD, wrap_rise ?_, wrap_set ?_⟩
  · unfold noonAt; ring
  · exact abs_le.2 ⟨by norm_num at hD2 ⊢; linarith, by norm_num at hD2 ⊢; linarith⟩
  · exact abs_le.2 ⟨by norm_num at hD2 ⊢; linarith, by norm_num at hD2 ⊢; linarith⟩

/-! ### cases that meet the hypotheses -/

/-- outside of the tropics the sun is never in the zenith -/
theorem sinHeight_lt_one {lon lat tz : ℝ} (h1 : 24 < |lat|) (h2 : |lat| ≤ 90) (t : Time) : sinHeight lon lat tz t < 1 := by
  have hp := Real.pi_pos
  have hsmall : |decl t| ≤ 24 * (Real.pi / 180) := by
    rw [← decl_eq]
    unfold solarDecline deg2rad
    rw [abs_mul, abs_of_pos (by positivity)]
    have := mul_le_mul_of_nonneg_left (Real.abs_cos_le_one (2 * Real.pi * ((doyOf t : ℝ) - 173) / 365.25))
      (by positivity : (0 : ℝ) ≤ 23.43697 * (Real.pi / 180))
    norm_num at this ⊢
    linarith
  have hs := abs_le.1 hsmall
  have hl := abs_le.1 h2
  have hcl : 0 ≤ Real.cos (lat * (Real.pi / 180)) := Real.cos_nonneg_of_neg_pi_div_two_le_of_le (by nlinarith) (by nlinarith)
  have hcd : 0 ≤ Real.cos (decl t) := Real.cos_nonneg_of_neg_pi_div_two_le_of_le (by linarith) (by linarith)
  have h3 : sinHeight lon lat tz t ≤ Real.cos (lat * (Real.pi / 180) - decl t) := by
    rw [Real.cos_sub]
    unfold sinHeight
    nlinarith [Real.cos_le_one ((solarTime lon tz t - 12) * (Real.pi / 12)), mul_nonneg hcl hcd]
  refine h3.trans_lt ?_
  have h4 : |lat * (Real.pi / 180)| = |lat| * (Real.pi / 180) := by rw [abs_mul, abs_of_pos (by positivity : 0 < Real.pi / 180)]
  have h5 : 0 < |lat * (Real.pi / 180) - decl t| := by
    have := abs_sub_abs_le_abs_sub (lat * (Real.pi / 180)) (decl t)
    rw [h4] at this
    have h6 : 24 * (Real.pi / 180) < |lat| * (Real.pi / 180) := mul_lt_mul_of_pos_right h1 (by positivity)
    linarith
  have h7 : |lat * (Real.pi / 180) - decl t| ≤ Real.pi := by
    have := abs_sub (lat * (Real.pi / 180)) (decl t)
    rw [h4] at this
    have h6 : |lat| * (Real.pi / 180) ≤ 90 * (Real.pi / 180) := mul_le_mul_of_nonneg_right h2 (by positivity)
    linarith
  rw [← Real.cos_zero, ← Real.cos_abs (lat * (Real.pi / 180) - decl t)]
  exact Real.cos_lt_cos_of_nonneg_of_le_pi le_rfl h7 h5

/-- coordinates of a station given with fewer digits -/
example : ∃ x x' : ℝ, potentialRadiation [atHour 0 12] 11.39 47.27 1 0 0 0.3 = [(atHour 0 12, .fin x)] ∧ potentialRadiation [atHour 0 12] 11.4 47.3 1 0 0 0.3 = [(atHour 0 12, .fin x')] ∧
    |x - x'| ≤ 1 := by
  obtain ⟨x, x', h1, h2, h3⟩ := C138_coordinates (atHour 0 12) 11.39 11.4 47.27 47.3 1 0 0.3 (by norm_num) (by norm_num)
    (sinHeight_lt_one (by norm_num [lt_abs]) (by norm_num [abs_le]) _) (sinHeight_lt_one (by norm_num [lt_abs]) (by norm_num [abs_le]) _)
  exact ⟨x, x', h1, h2, h3.trans (by norm_num [abs_of_neg])⟩

/-- a wrong time zone (summer time instead of winter time) shifts the noon by an hour and leaves the day length -/
example : ∃ n D n' D' : ℝ, (getSunTimes [at00 0] 11.4 47.3 1).map (fun r => (r.2.sunnoon, r.2.daylength)) = [(.fin n, .fin D)] ∧
    (getSunTimes [at00 0] 11.4 47.3 2).map (fun r => (r.2.sunnoon, r.2.daylength)) = [(.fin n', .fin D')] ∧ n' = n + 1 ∧ D' = D := by
  obtain ⟨r, n, s, D, r', n', s', D', h1, h2, hn, hD, -⟩ := C138_sun_times (at00 0) (at00 0) rfl 11.4 11.4 47.3 47.3 1 2 (by norm_num [abs_le]) (by norm_num [abs_le])
  refine ⟨n, D, n', D', by rw [h1]; rfl, by rw [h2]; rfl, by norm_num at hn; linarith, ?_⟩
  rw [sub_self, abs_zero, mul_zero] at hD
  have := abs_nonpos_iff.1 hD
  linarith

end

end Melodist
