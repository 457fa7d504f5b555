import Verif.Props.PotRadiation
import Verif.Spec.SunVector

/-!
# C132: the side of the sun on slopes
-/

set_option linter.unusedSectionVars false

namespace Melodist
open Spec

noncomputable section

/-- the declination stays between the tropics -/
theorem decl_tropic (t : Time) : |decl t| ≤ 23.43697 * (Real.pi / 180) := by
  have hpi := Real.pi_pos
  unfold decl
  rw [abs_mul, abs_of_pos (by positivity)]
  have := Real.abs_cos_le_one (2 * Real.pi * ((doyOf t : ℝ) - 173) / 365.25)
  nlinarith [show (0 : ℝ) < 23.43697 * (Real.pi / 180) by positivity]

/-- the direction of the sun is a unit vector -/
theorem sun_unit (lon lat tz : ℝ) (t : Time) : sunSouth lon lat tz t ^ 2 + sunWest lon tz t ^ 2 + sinHeight lon lat tz t ^ 2 = 1 := by
  unfold sunSouth sunWest sinHeight
  have h1 := Real.sin_sq_add_cos_sq (decl t)
  have h2 := Real.sin_sq_add_cos_sq (lat * (Real.pi / 180))
  have h3 := Real.sin_sq_add_cos_sq ((solarTime lon tz t - 12) * (Real.pi / 12))
  generalize decl t = d at *
  generalize lat * (Real.pi / 180) = φ at *
  generalize (solarTime lon tz t - 12) * (Real.pi / 12) = H at *
  have e1 : Real.sin d ^ 2 = 1 - Real.cos d ^ 2 := by linarith
  have e2 : Real.sin φ ^ 2 = 1 - Real.cos φ ^ 2 := by linarith
  have e3 : Real.sin H ^ 2 = 1 - Real.cos H ^ 2 := by linarith
  ring_nf
  rw [e1, e2, e3]
  ring

/-- the azimuth of the code has the sine of the sun and a cosine that is not negative -/
theorem cosIncidence_eq (lon lat tz slope azimuth : ℝ) (t : Time) (h0 : 0 ≤ sinHeight lon lat tz t) (h1 : sinHeight lon lat tz t < 1) :
    cosIncidence lon lat tz slope azimuth t = onPlane |sunSouth lon lat tz t| (sunWest lon tz t) (sinHeight lon lat tz t) slope azimuth := by
  have hu := sun_unit lon lat tz t
  unfold cosIncidence sunAzimuth
  rw [max_eq_left h0]
  have hs : 0 < Real.sin (Real.arccos (sinHeight lon lat tz t)) := by
    rw [Real.sin_arccos]
    exact Real.sqrt_pos.2 (by nlinarith)
  have hsq : Real.sin (Real.arccos (sinHeight lon lat tz t)) ^ 2 = sunSouth lon lat tz t ^ 2 + sunWest lon tz t ^ 2 := by
    rw [Real.sin_arccos, Real.sq_sqrt (by nlinarith)]
    linarith
  change Real.cos slope * sinHeight lon lat tz t + Real.sin slope * Real.sin (Real.arccos (sinHeight lon lat tz t)) *
    Real.cos (Real.arcsin (sunWest lon tz t / Real.sin (Real.arccos (sinHeight lon lat tz t))) - azimuth) = _
  generalize Real.sin (Real.arccos (sinHeight lon lat tz t)) = z at *
  generalize sunSouth lon lat tz t = a at *
  generalize sunWest lon tz t = b at *
  generalize sinHeight lon lat tz t = c at *
  have hb := abs_le.1 (abs_le_of_sq_le_sq (show b ^ 2 ≤ z ^ 2 by nlinarith [sq_nonneg a]) hs.le)
  rw [Real.cos_sub, Real.cos_arcsin, Real.sin_arcsin (by rw [le_div_iff₀ hs]; linarith) (by rw [div_le_one hs]; exact hb.2)]
  have hq : Real.sqrt (1 - (b / z) ^ 2) = |a| / z := by
    rw [show 1 - (b / z) ^ 2 = (|a| / z) ^ 2 by
      rw [div_pow, div_pow, sq_abs]
      field_simp
      linarith]
    exact Real.sqrt_sq (div_nonneg (abs_nonneg a) hs.le)
  rw [hq]
  unfold onPlane
  field_simp
  ring

theorem directFlux_eq (t : Time) (c k p : ℝ) (hc : 0 ≤ c) (hk : k ≤ 1) :
    max (1367 * radiusRatio (doyOf t) * ((0.6 + 0.2 * c) * (1 - k)) * p) 0 = directFlux t c k p := by
  unfold directFlux
  rw [← orbitRatio_eq]
  have hR := (radiusRatio_bounds (doyOf t)).1
  have : 0 ≤ 1367 * radiusRatio (doyOf t) * ((0.6 + 0.2 * c) * (1 - k)) := by
    have : 0 ≤ 1 - k := by linarith
    positivity
  rw [show 1367 * radiusRatio (doyOf t) * (0.6 + 0.2 * c) * (1 - k) = 1367 * radiusRatio (doyOf t) * ((0.6 + 0.2 * c) * (1 - k)) by ring,
    mul_max_of_nonneg _ _ this, mul_zero]

/-- **C132.**  Direct radiation on any slope at any date with the sun above the horizon (and not in the zenith) is that of a sun whose component towards
the south has been replaced by its absolute value.  Diffuse radiation does not depend on the slope. -/
theorem C132_slope (dates : List Time) (lon lat tz slope azimuth k : ℝ) (hk : k ≤ 1) :
    (potentialRadiationSplit dates lon lat tz slope azimuth k).map Prod.fst = dates ∧
    ∀ r ∈ potentialRadiationSplit dates lon lat tz slope azimuth k, 0 ≤ sinHeight lon lat tz r.1 → sinHeight lon lat tz r.1 < 1 →
      r.2.1 = .fin (directFlux r.1 (sinHeight lon lat tz r.1) k
        (onPlane |sunSouth lon lat tz r.1| (sunWest lon tz r.1) (sinHeight lon lat tz r.1) slope azimuth)) ∧
      r.2.2 = .fin (1367 * orbitRatio r.1 * (0.3 + 0.1 * sinHeight lon lat tz r.1) * k * sinHeight lon lat tz r.1) := by
  constructor
  · unfold potentialRadiationSplit
    rw [List.map_map]
    simp [Function.comp_def]
  · intro r hr h0 h1
    unfold potentialRadiationSplit at hr
    obtain ⟨t, _, rfl⟩ := List.mem_map.1 hr
    dsimp only at h0 h1 ⊢
    rw [potRadCell_fin _ _ _ _ _ _ _ h1, cosIncidence_eq _ _ _ _ _ _ h0 h1, max_eq_left h0, directFlux_eq _ _ _ _ h0 hk, ← orbitRatio_eq]
    refine ⟨rfl, congrArg XF.fin ?_⟩
    ring

/-- **C132, sun in the south.**  So it is the true direct radiation on the slope whenever the sun is south of the east-west line. -/
theorem C132_true_in_the_south (dates : List Time) (lon lat tz slope azimuth k : ℝ) (hk : k ≤ 1) :
    ∀ r ∈ potentialRadiationSplit dates lon lat tz slope azimuth k, 0 ≤ sinHeight lon lat tz r.1 → sinHeight lon lat tz r.1 < 1 →
      0 ≤ sunSouth lon lat tz r.1 →
      r.2.1 = .fin (directFlux r.1 (sinHeight lon lat tz r.1) k
        (onPlane (sunSouth lon lat tz r.1) (sunWest lon tz r.1) (sinHeight lon lat tz r.1) slope azimuth)) := by
  intro r hr h0 h1 hs
  rw [((C132_slope dates lon lat tz slope azimuth k hk).2 r hr h0 h1).1, abs_of_nonneg hs]

/-- This is so for every sun above the horizon at northern latitudes from the autumn to the spring equinox (declination not positive), and at noon at all
latitudes of 23.43697 degrees north or more. -/
theorem C132_when_south (lon lat tz : ℝ) (t : Time) (hl0 : 0 ≤ lat) (hl1 : lat ≤ 90) :
    (decl t ≤ 0 → 0 < sinHeight lon lat tz t → 0 ≤ sunSouth lon lat tz t) ∧
    (23.43697 ≤ lat → solarTime lon tz t = 12 → 0 ≤ sunSouth lon lat tz t) := by
  have hpi := Real.pi_pos
  have hd := abs_le.1 (decl_tropic t)
  have hcd : 0 < Real.cos (decl t) := Real.cos_pos_of_mem_Ioo (by constructor <;> nlinarith)
  have hcl : 0 ≤ Real.cos (lat * (Real.pi / 180)) := Real.cos_nonneg_of_mem_Icc (by constructor <;> nlinarith)
  have hsl : 0 ≤ Real.sin (lat * (Real.pi / 180)) := Real.sin_nonneg_of_nonneg_of_le_pi (by positivity) (by nlinarith)
  constructor
  · intro hn hh
    have hsd : Real.sin (decl t) ≤ 0 := Real.sin_nonpos_of_nonpos_of_neg_pi_le hn (by nlinarith)
    unfold sinHeight at hh
    unfold sunSouth
    have h1 : Real.sin (lat * (Real.pi / 180)) * Real.sin (decl t) ≤ 0 := mul_nonpos_of_nonneg_of_nonpos hsl hsd
    have h2 : 0 < Real.cos (lat * (Real.pi / 180)) * Real.cos (decl t) * Real.cos ((solarTime lon tz t - 12) * (Real.pi / 12)) := by linarith
    have h3 : 0 < Real.cos ((solarTime lon tz t - 12) * (Real.pi / 12)) := by
      by_contra hc
      exact absurd h2 (not_lt.2 (mul_nonpos_of_nonneg_of_nonpos (mul_nonneg hcl hcd.le) (not_lt.1 hc)))
    have h4 : 0 ≤ Real.sin (lat * (Real.pi / 180)) * Real.cos (decl t) * Real.cos ((solarTime lon tz t - 12) * (Real.pi / 12)) :=
      mul_nonneg (mul_nonneg hsl hcd.le) h3.le
    have h5 : Real.cos (lat * (Real.pi / 180)) * Real.sin (decl t) ≤ 0 := mul_nonpos_of_nonneg_of_nonpos hcl hsd
    linarith
  · intro hl hn
    unfold sunSouth
    rw [hn, sub_self, zero_mul, Real.cos_zero, mul_one, ← Real.sin_sub]
    exact Real.sin_nonneg_of_nonneg_of_le_pi (by nlinarith) (by nlinarith)

/-- **C132, sun in the north.**  While the sun is north of the east-west line, the direct radiation is the true one on another slope, the one that
falls towards the mirrored azimuth π - azimuth: north and south are exchanged. -/
theorem C132_mirrored_in_the_north (dates : List Time) (lon lat tz slope azimuth k : ℝ) (hk : k ≤ 1) :
    ∀ r ∈ potentialRadiationSplit dates lon lat tz slope azimuth k, 0 ≤ sinHeight lon lat tz r.1 → sinHeight lon lat tz r.1 < 1 →
      sunSouth lon lat tz r.1 ≤ 0 →
      r.2.1 = .fin (directFlux r.1 (sinHeight lon lat tz r.1) k
        (onPlane (sunSouth lon lat tz r.1) (sunWest lon tz r.1) (sinHeight lon lat tz r.1) slope (Real.pi - azimuth))) := by
  intro r hr h0 h1 hs
  rw [((C132_slope dates lon lat tz slope azimuth k hk).2 r hr h0 h1).1, abs_of_nonpos hs]
  unfold onPlane
  rw [Real.cos_pi_sub, Real.sin_pi_sub]
  congr 2
  ring

/-- **C132, southern hemisphere.**  At noon, south of 23.43697 degrees south, the sun is in the north on every date.  A slope that falls towards the north
(azimuth π) and is at least as steep as the sun is high gets no direct radiation, although the sun shines on it; one that falls towards the south gets as much as
a slope that falls towards the sun. -/
theorem C132_southern_noon (t : Time) (lon lat tz slope k : ℝ) (hl0 : lat < -23.43697) (hl1 : -90 < lat) (hn : solarTime lon tz t = 12)
    (hs0 : 0 < slope) (hs1 : slope < Real.pi / 2) (hk : k ≤ 1) (h0 : 0 < sinHeight lon lat tz t) :
    sunSouth lon lat tz t < 0 ∧ sunWest lon tz t = 0 ∧
    (Real.arcsin (sinHeight lon lat tz t) ≤ slope →
      (potentialRadiationSplit [t] lon lat tz slope Real.pi k).map (fun r => r.2.1) = [.fin 0] ∧
      0 < onPlane (sunSouth lon lat tz t) (sunWest lon tz t) (sinHeight lon lat tz t) slope Real.pi) ∧
    (potentialRadiationSplit [t] lon lat tz slope 0 k).map (fun r => r.2.1) = [.fin (directFlux t (sinHeight lon lat tz t) k
      (onPlane (sunSouth lon lat tz t) (sunWest lon tz t) (sinHeight lon lat tz t) slope Real.pi))] := by
  have hpi := Real.pi_pos
  have hd := abs_le.1 (decl_tropic t)
  have hsouth : sunSouth lon lat tz t < 0 := by
    unfold sunSouth
    rw [hn, sub_self, zero_mul, Real.cos_zero, mul_one, ← Real.sin_sub]
    exact Real.sin_neg_of_neg_of_neg_pi_lt (by nlinarith) (by nlinarith)
  have hwest : sunWest lon tz t = 0 := by
    unfold sunWest
    rw [hn, sub_self, zero_mul, Real.sin_zero, mul_zero]
  have hu := sun_unit lon lat tz t
  have h1 : sinHeight lon lat tz t < 1 := by
    rw [hwest] at hu
    nlinarith
  have hsin : 0 < Real.sin slope := Real.sin_pos_of_pos_of_lt_pi hs0 (by linarith)
  have hcos : 0 < Real.cos slope := Real.cos_pos_of_mem_Ioo ⟨by linarith, hs1⟩
  refine ⟨hsouth, hwest, fun hst => ⟨?_, ?_⟩, ?_⟩
  · have hm : (t, potRadCell (doyOf t) (hourOf t) (minuteOf t) lon lat tz slope Real.pi k) ∈ potentialRadiationSplit [t] lon lat tz slope Real.pi k :=
      List.mem_map.2 ⟨t, by simp, rfl⟩
    have h := C132_mirrored_in_the_north [t] lon lat tz slope Real.pi k hk _ hm h0.le h1 hsouth.le
    show [(potRadCell (doyOf t) (hourOf t) (minuteOf t) lon lat tz slope Real.pi k).1] = _
    rw [h]
    congr 2
    unfold directFlux
    rw [max_eq_right, mul_zero]
    unfold onPlane
    dsimp only
    rw [hwest, sub_self, Real.cos_zero, zero_mul, add_zero, mul_one]
    -- sinHeight * cos slope ≤ - sunSouth * sin slope
    have ha : Real.sin (Real.arcsin (sinHeight lon lat tz t) - slope) ≤ 0 := by
      apply Real.sin_nonpos_of_nonpos_of_neg_pi_le (by linarith)
      have := Real.arcsin_nonneg.2 h0.le
      linarith
    rw [Real.sin_sub, Real.sin_arcsin (by linarith) h1.le, Real.cos_arcsin] at ha
    have hq : Real.sqrt (1 - sinHeight lon lat tz t ^ 2) = -sunSouth lon lat tz t := by
      rw [show 1 - sinHeight lon lat tz t ^ 2 = (-sunSouth lon lat tz t) ^ 2 by rw [hwest] at hu; linarith]
      exact Real.sqrt_sq (by linarith)
    rw [hq] at ha
    linarith
  · unfold onPlane
    rw [hwest, Real.cos_pi, Real.sin_pi]
    have := mul_pos (neg_pos.2 hsouth) hsin
    have := mul_pos h0 hcos
    nlinarith
  · have hm : (t, potRadCell (doyOf t) (hourOf t) (minuteOf t) lon lat tz slope 0 k) ∈ potentialRadiationSplit [t] lon lat tz slope 0 k :=
      List.mem_map.2 ⟨t, by simp, rfl⟩
    have h := C132_mirrored_in_the_north [t] lon lat tz slope 0 k hk _ hm h0.le h1 hsouth.le
    show [(potRadCell (doyOf t) (hourOf t) (minuteOf t) lon lat tz slope 0 k).1] = _
    rw [h, sub_zero]

/-- **C132, summer mornings and evenings.**  At northern latitudes between the spring and the autumn equinox (declination positive) the sun is above the horizon and in
the north at 6 and 18 o'clock solar time: there, too, north and south are exchanged. -/
theorem C132_summer_morning (t : Time) (lon lat tz : ℝ) (hl0 : 0 < lat) (hl1 : lat < 90) (hd0 : 0 < decl t)
    (hn : solarTime lon tz t = 6 ∨ solarTime lon tz t = 18) :
    0 < sinHeight lon lat tz t ∧ sinHeight lon lat tz t < 1 ∧ sunSouth lon lat tz t < 0 := by
  have hpi := Real.pi_pos
  have hd := abs_le.1 (decl_tropic t)
  have hH : Real.cos ((solarTime lon tz t - 12) * (Real.pi / 12)) = 0 := by
    rcases hn with h | h <;> rw [h]
    · rw [show ((6 : ℝ) - 12) * (Real.pi / 12) = -(Real.pi / 2) by ring, Real.cos_neg, Real.cos_pi_div_two]
    · rw [show ((18 : ℝ) - 12) * (Real.pi / 12) = Real.pi / 2 by ring, Real.cos_pi_div_two]
  have hsd : 0 < Real.sin (decl t) := Real.sin_pos_of_pos_of_lt_pi hd0 (by nlinarith)
  have hcl : 0 < Real.cos (lat * (Real.pi / 180)) := Real.cos_pos_of_mem_Ioo (by constructor <;> nlinarith)
  have hsl : 0 < Real.sin (lat * (Real.pi / 180)) := Real.sin_pos_of_pos_of_lt_pi (by positivity) (by nlinarith)
  have hS : sunSouth lon lat tz t < 0 := by
    unfold sunSouth
    rw [hH, mul_zero, zero_sub]
    exact neg_neg_of_pos (mul_pos hcl hsd)
  refine ⟨?_, ?_, hS⟩
  · unfold sinHeight
    rw [hH, mul_zero, add_zero]
    exact mul_pos hsl hsd
  · have hu := sun_unit lon lat tz t
    nlinarith [sq_nonneg (sunWest lon tz t)]

/-! ### cases that meet the hypotheses -/

/-- noon at Greenwich on 1 January 1970 -/
theorem solarTime_noon : solarTime 0 0 (atHour 0 12) = 12 := by
  have h : hourOf (atHour 0 12) = 12 ∧ minuteOf (atHour 0 12) = 0 := by decide
  unfold solarTime
  rw [h.1, h.2]
  norm_num

/-- a site at 30 degrees south on that day: the sun is up at noon, and a north slope at least as steep as the sun is high exists -/
example : solarTime 0 0 (atHour 0 12) = 12 ∧ 0 < sinHeight 0 (-30) 0 (atHour 0 12) ∧
    ∃ slope, 0 < slope ∧ slope < Real.pi / 2 ∧ Real.arcsin (sinHeight 0 (-30) 0 (atHour 0 12)) ≤ slope := by
  have hn := solarTime_noon
  have hpi := Real.pi_pos
  have hd := abs_le.1 (decl_tropic (atHour 0 12))
  have h0 : 0 < sinHeight 0 (-30) 0 (atHour 0 12) := by
    unfold sinHeight
    rw [hn, sub_self, zero_mul, Real.cos_zero, mul_one, add_comm, ← Real.cos_sub]
    exact Real.cos_pos_of_mem_Ioo (by constructor <;> nlinarith)
  have hs : sunSouth 0 (-30) 0 (atHour 0 12) < 0 := by
    unfold sunSouth
    rw [hn, sub_self, zero_mul, Real.cos_zero, mul_one, ← Real.sin_sub]
    exact Real.sin_neg_of_neg_of_neg_pi_lt (by nlinarith) (by nlinarith)
  have h1 : sinHeight 0 (-30) 0 (atHour 0 12) < 1 := by
    have hu := sun_unit 0 (-30) 0 (atHour 0 12)
    nlinarith [sq_nonneg (sunWest 0 0 (atHour 0 12))]
  have hlt : Real.arcsin (sinHeight 0 (-30) 0 (atHour 0 12)) < Real.pi / 2 := Real.arcsin_lt_pi_div_two.2 h1
  exact ⟨hn, h0, _, Real.arcsin_pos.2 h0, hlt, le_refl _⟩

/-- 6 o'clock on 22 June 1970 (day 173) at 47 degrees north -/
example : solarTime 0 0 (atHour 172 6) = 6 ∧ 0 < decl (atHour 172 6) := by
  have h : hourOf (atHour 172 6) = 6 ∧ minuteOf (atHour 172 6) = 0 ∧ doyOf (atHour 172 6) = 173 := by decide
  unfold solarTime decl
  rw [h.1, h.2.1, h.2.2]
  norm_num
  exact Real.pi_pos

/-- noon on 1 January 1970 (declination negative) at 47 degrees north -/
example : decl (atHour 0 12) ≤ 0 ∧ 0 < sinHeight 0 47 0 (atHour 0 12) ∧ (23.43697 : ℝ) ≤ 47 := by
  have hn := solarTime_noon
  have hpi := Real.pi_pos
  have hdoy : doyOf (atHour 0 12) = 1 := by decide
  have hneg : Real.cos (2 * Real.pi * ((1 : ℝ) - 173) / 365.25) ≤ 0 := by
    rw [show 2 * Real.pi * ((1 : ℝ) - 173) / 365.25 = -(2 * Real.pi * 172 / 365.25) by ring, Real.cos_neg]
    apply Real.cos_nonpos_of_pi_div_two_le_of_le <;> rw [div_eq_mul_inv] <;> norm_num <;> nlinarith
  have hd0 : decl (atHour 0 12) ≤ 0 := by
    unfold decl
    rw [hdoy, Int.cast_one]
    exact mul_nonpos_of_nonneg_of_nonpos (by positivity) hneg
  have hd := abs_le.1 (decl_tropic (atHour 0 12))
  refine ⟨hd0, ?_, by norm_num⟩
  unfold sinHeight
  rw [hn, sub_self, zero_mul, Real.cos_zero, mul_one, add_comm, ← Real.cos_sub]
  exact Real.cos_pos_of_mem_Ioo (by constructor <;> nlinarith)

end

end Melodist
