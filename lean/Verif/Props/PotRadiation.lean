import Verif.Props.RadiationModels

/-!
# C60-C62: potential radiation
-/

set_option linter.unusedSectionVars false

namespace Melodist
open Spec

noncomputable section

/-! ## geometry -/

theorem hourAngle_eq (t : Time) (lon tz : ℝ) : hourAngle (hourOf t) (minuteOf t) lon tz = (solarTime lon tz t - 12) * (Real.pi / 12) := by
  unfold hourAngle solarTime
  ring

theorem cosZenith_eq (t : Time) (lon lat tz : ℝ) :
    cosZenithRaw (solarDecline (doyOf t)) lat (hourAngle (hourOf t) (minuteOf t) lon tz) = sinHeight lon lat tz t := by
  rw [hourAngle_eq]
  unfold cosZenithRaw sinHeight solarDecline decl deg2rad
  ring

/-- the arcsine is taken of a number between -1 and 1 -/
theorem azimuth_arg (d φ H : ℝ) :
    (Real.cos d * Real.sin H) ^ 2 + (Real.sin d * Real.sin φ + Real.cos d * Real.cos φ * Real.cos H) ^ 2 ≤ 1 := by
  have h1 := Real.sin_sq_add_cos_sq d
  have h2 := Real.sin_sq_add_cos_sq φ
  have h3 := Real.sin_sq_add_cos_sq H
  have key : 1 - ((Real.cos d * Real.sin H) ^ 2 + (Real.sin d * Real.sin φ + Real.cos d * Real.cos φ * Real.cos H) ^ 2) =
      (Real.sin d * Real.cos φ - Real.cos d * Real.sin φ * Real.cos H) ^ 2 := by
    have e1 : Real.sin d ^ 2 = 1 - Real.cos d ^ 2 := by linarith
    have e2 : Real.sin φ ^ 2 = 1 - Real.cos φ ^ 2 := by linarith
    have e3 : Real.sin H ^ 2 = 1 - Real.cos H ^ 2 := by linarith
    ring_nf
    rw [e1, e2, e3]
    ring
  nlinarith [sq_nonneg (Real.sin d * Real.cos φ - Real.cos d * Real.sin φ * Real.cos H)]

theorem cosZenith_le_one (d φ H : ℝ) : Real.sin d * Real.sin φ + Real.cos d * Real.cos φ * Real.cos H ≤ 1 := by
  have := azimuth_arg d φ H
  nlinarith [sq_nonneg (Real.cos d * Real.sin H)]

theorem sinHeight_le_one (lon lat tz : ℝ) (t : Time) : sinHeight lon lat tz t ≤ 1 := by
  rw [← cosZenith_eq]
  exact cosZenith_le_one _ _ _

theorem neg_one_le_sinHeight (lon lat tz : ℝ) (t : Time) : -1 ≤ sinHeight lon lat tz t := by
  rw [← cosZenith_eq]
  have := azimuth_arg (solarDecline (doyOf t)) (deg2rad lat) (hourAngle (hourOf t) (minuteOf t) lon tz)
  unfold cosZenithRaw
  nlinarith [sq_nonneg (Real.cos (solarDecline (doyOf t)) * Real.sin (hourAngle (hourOf t) (minuteOf t) lon tz))]

theorem orbitRatio_eq (t : Time) : radiusRatio (doyOf t) = orbitRatio t := by
  unfold radiusRatio orbitRatio
  dsimp only
  rw [show 2 * Real.pi * ((doyOf t : ℝ) / 365.25) = 2 * Real.pi * doyOf t / 365.25 by ring,
    show 2 * (2 * Real.pi * (doyOf t : ℝ) / 365.25) = 4 * Real.pi * doyOf t / 365.25 by ring]

theorem radiusRatio_bounds (doy : Int) : 0 < radiusRatio doy ∧ radiusRatio doy ≤ 1.0365 := by
  unfold radiusRatio
  dsimp only
  have a1 := Real.cos_le_one (2 * Real.pi * ((doy : ℝ) / 365.25))
  have a2 := Real.neg_one_le_cos (2 * Real.pi * ((doy : ℝ) / 365.25))
  have b1 := Real.sin_le_one (2 * Real.pi * ((doy : ℝ) / 365.25))
  have b2 := Real.neg_one_le_sin (2 * Real.pi * ((doy : ℝ) / 365.25))
  have c1 := Real.cos_le_one (2 * (2 * Real.pi * ((doy : ℝ) / 365.25)))
  have c2 := Real.neg_one_le_cos (2 * (2 * Real.pi * ((doy : ℝ) / 365.25)))
  have d1 := Real.sin_le_one (2 * (2 * Real.pi * ((doy : ℝ) / 365.25)))
  have d2 := Real.neg_one_le_sin (2 * (2 * Real.pi * ((doy : ℝ) / 365.25)))
  constructor <;> norm_num at * <;> linarith

/-- the solar azimuth of the model -/
def sunAzimuth (lon lat tz : ℝ) (t : Time) : ℝ :=
  Real.arcsin (Real.cos (decl t) * Real.sin ((solarTime lon tz t - 12) * (Real.pi / 12)) / Real.sin (Real.arccos (max (sinHeight lon lat tz t) 0)))

theorem decl_eq (t : Time) : solarDecline (doyOf t) = decl t := by
  unfold solarDecline decl deg2rad
  ring

/-- cosine of the incidence angle -/
def cosIncidence (lon lat tz slope azimuth : ℝ) (t : Time) : ℝ :=
  Real.cos slope * max (sinHeight lon lat tz t) 0 +
    Real.sin slope * Real.sin (Real.arccos (max (sinHeight lon lat tz t) 0)) * Real.cos (sunAzimuth lon lat tz t - azimuth)

theorem potRadCell_fin (lon lat tz slope azimuth cloud : ℝ) (t : Time) (hz : sinHeight lon lat tz t < 1) :
    potRadCell (doyOf t) (hourOf t) (minuteOf t) lon lat tz slope azimuth cloud =
      (.fin (max (1367 * radiusRatio (doyOf t) * ((0.6 + 0.2 * max (sinHeight lon lat tz t) 0) * (1 - cloud)) *
          cosIncidence lon lat tz slope azimuth t) 0),
        .fin (1367 * radiusRatio (doyOf t) * ((0.3 + 0.1 * max (sinHeight lon lat tz t) 0) * cloud) * max (sinHeight lon lat tz t) 0)) := by
  unfold potRadCell
  dsimp only
  rw [cosZenith_eq, hourAngle_eq, decl_eq]
  have hc0 : 0 ≤ max (sinHeight lon lat tz t) 0 := le_max_right _ _
  have hc1 : max (sinHeight lon lat tz t) 0 < 1 := max_lt hz one_pos
  have hz' : XF.arccos (.fin (max (sinHeight lon lat tz t) 0)) = .fin (Real.arccos (max (sinHeight lon lat tz t) 0)) := by
    unfold XF.arccos
    dsimp only
    rw [if_pos ⟨by linarith, hc1.le⟩]
  have hs : 0 < Real.sin (Real.arccos (max (sinHeight lon lat tz t) 0)) := by
    rw [Real.sin_arccos]
    apply Real.sqrt_pos.2
    nlinarith
  have hsz : XF.sin (.fin (Real.arccos (max (sinHeight lon lat tz t) 0))) = .fin (Real.sin (Real.arccos (max (sinHeight lon lat tz t) 0))) := rfl
  have harg : (Real.cos (decl t) * Real.sin ((solarTime lon tz t - 12) * (Real.pi / 12))) ^ 2 ≤
      Real.sin (Real.arccos (max (sinHeight lon lat tz t) 0)) ^ 2 := by
    rw [Real.sin_arccos, Real.sq_sqrt (by nlinarith)]
    have h1 := azimuth_arg (solarDecline (doyOf t)) (deg2rad lat) (hourAngle (hourOf t) (minuteOf t) lon tz)
    have h2 := cosZenith_eq t lon lat tz
    unfold cosZenithRaw at h2
    rw [h2, hourAngle_eq, decl_eq] at h1
    rcases le_total (sinHeight lon lat tz t) 0 with h | h
    · rw [max_eq_right h]
      nlinarith [sq_nonneg (sinHeight lon lat tz t)]
    · rw [max_eq_left h]
      linarith
  have habs := abs_le.1 (abs_le_of_sq_le_sq harg hs.le)
  have hmu : XF.arcsin (.fin (Real.cos (decl t) * Real.sin ((solarTime lon tz t - 12) * (Real.pi / 12))) /
      .fin (Real.sin (Real.arccos (max (sinHeight lon lat tz t) 0)))) = .fin (sunAzimuth lon lat tz t) := by
    rw [XF.fin_div_fin_of_ne _ hs.ne']
    unfold XF.arcsin
    dsimp only
    rw [if_pos]
    · rfl
    · constructor
      · rw [le_div_iff₀ hs]; linarith [habs.1]
      · rw [div_le_one hs]; exact habs.2
  rw [hz', hsz, hmu]
  rfl

/-- at the zenith the azimuth is 0/0 -/
theorem potRadCell_zenith (lon lat tz slope azimuth cloud : ℝ) (t : Time) (hz : sinHeight lon lat tz t = 1) :
    (potRadCell (doyOf t) (hourOf t) (minuteOf t) lon lat tz slope azimuth cloud).1 = .nan := by
  unfold potRadCell
  dsimp only
  have hn : Real.cos (decl t) * Real.sin ((solarTime lon tz t - 12) * (Real.pi / 12)) = 0 := by
    have h1 := azimuth_arg (solarDecline (doyOf t)) (deg2rad lat) (hourAngle (hourOf t) (minuteOf t) lon tz)
    have h2 := cosZenith_eq t lon lat tz
    unfold cosZenithRaw at h2
    rw [h2, hourAngle_eq, decl_eq, hz] at h1
    have : (Real.cos (decl t) * Real.sin ((solarTime lon tz t - 12) * (Real.pi / 12))) ^ 2 = 0 :=
      le_antisymm (by linarith) (sq_nonneg _)
    exact pow_eq_zero_iff (two_ne_zero) |>.1 this
  rw [cosZenith_eq, hourAngle_eq, decl_eq, hz, max_eq_left zero_le_one, hn]
  have hz' : XF.arccos (.fin 1) = .fin 0 := by
    unfold XF.arccos
    dsimp only
    rw [if_pos (by norm_num), Real.arccos_one]
  have hs : XF.sin (.fin 0) = .fin 0 := by
    show XF.fin (Real.sin 0) = _
    rw [Real.sin_zero]
  rw [hz', hs, XF.zero_div_zero]
  have : XF.arcsin .nan = .nan := rfl
  rw [this, XF.nan_sub]
  have : XF.cos .nan = .nan := rfl
  rw [this, XF.mul_nan, XF.add_nan, XF.mul_nan]
  rfl

/-! ## C60 -/

/-- **C60.**  Horizontal surface, any dates, site and azimuth, cloud fraction in [0, 1]: each date has one value.  It is 0 when the sun is not above the
horizon; when the sun is at height with sine c in (0, 1), it is the number 1367·R·c·((0.6+0.2c)(1-k)+(0.3+0.1c)k) with the ratio R of the day,
which is positive and at most 1367·1.0365·0.8; it is missing exactly when the sun is in the zenith. -/
theorem C60_horizontal (dates : List Time) (lon lat tz azimuth k : ℝ) (h0 : 0 ≤ k) (h1 : k ≤ 1) :
    (potentialRadiation dates lon lat tz 0 azimuth k).index = dates ∧
    ∀ r ∈ potentialRadiation dates lon lat tz 0 azimuth k,
      (sinHeight lon lat tz r.1 ≤ 0 → r.2 = .fin 0) ∧
      (0 < sinHeight lon lat tz r.1 → sinHeight lon lat tz r.1 < 1 → ∃ x, r.2 = .fin x ∧
        x = 1367 * orbitRatio r.1 * sinHeight lon lat tz r.1 *
          ((0.6 + 0.2 * sinHeight lon lat tz r.1) * (1 - k) + (0.3 + 0.1 * sinHeight lon lat tz r.1) * k) ∧
        0 < x ∧ x ≤ 1367 * 1.0365 * 0.8) ∧
      (r.2 = .nan ↔ sinHeight lon lat tz r.1 = 1) := by
  constructor
  · unfold potentialRadiation potentialRadiationSplit Series.index
    rw [List.map_map, List.map_map]
    simp [Function.comp_def]
  · intro r hr
    unfold potentialRadiation potentialRadiationSplit at hr
    rw [List.map_map] at hr
    obtain ⟨t, _, rfl⟩ := List.mem_map.1 hr
    simp only [Function.comp_def]
    have hR := radiusRatio_bounds (doyOf t)
    have hsh := sinHeight_le_one lon lat tz t
    have hfin : ∀ hz : sinHeight lon lat tz t < 1,
        (potRadCell (doyOf t) (hourOf t) (minuteOf t) lon lat tz 0 azimuth k).1 + (potRadCell (doyOf t) (hourOf t) (minuteOf t) lon lat tz 0 azimuth k).2 =
        .fin (max (1367 * radiusRatio (doyOf t) * ((0.6 + 0.2 * max (sinHeight lon lat tz t) 0) * (1 - k)) * max (sinHeight lon lat tz t) 0) 0 +
          1367 * radiusRatio (doyOf t) * ((0.3 + 0.1 * max (sinHeight lon lat tz t) 0) * k) * max (sinHeight lon lat tz t) 0) := by
      intro hz
      rw [potRadCell_fin _ _ _ _ _ _ _ hz, XF.fin_add_fin]
      unfold cosIncidence
      rw [Real.cos_zero, Real.sin_zero, zero_mul, zero_mul, add_zero, one_mul]
    refine ⟨?_, ?_, ?_⟩
    · intro hle
      rw [hfin (by linarith), max_eq_right hle]
      simp
    · intro hp hz
      rw [hfin hz, max_eq_left hp.le]
      have horb := orbitRatio_eq t
      generalize radiusRatio (doyOf t) = R at *
      generalize sinHeight lon lat tz t = c at *
      have hA : 0 ≤ 1367 * R * ((0.6 + 0.2 * c) * (1 - k)) * c := by
        have : 0 ≤ 1 - k := by linarith
        have : 0 ≤ 0.6 + 0.2 * c := by norm_num; linarith
        have := hR.1
        positivity
      have hT : 0 < (0.6 + 0.2 * c) * (1 - k) + (0.3 + 0.1 * c) * k := by nlinarith
      have hT8 : (0.6 + 0.2 * c) * (1 - k) + (0.3 + 0.1 * c) * k ≤ 0.8 := by nlinarith
      refine ⟨_, rfl, ?_, ?_, ?_⟩
      · rw [max_eq_left hA, ← horb]; ring
      · rw [max_eq_left hA]
        have : 0 < 1367 * R * c * ((0.6 + 0.2 * c) * (1 - k) + (0.3 + 0.1 * c) * k) := by
          have := hR.1
          positivity
        nlinarith
      · rw [max_eq_left hA]
        have e : 1367 * R * ((0.6 + 0.2 * c) * (1 - k)) * c + 1367 * R * ((0.3 + 0.1 * c) * k) * c =
            1367 * R * (c * ((0.6 + 0.2 * c) * (1 - k) + (0.3 + 0.1 * c) * k)) := by ring
        rw [e]
        have hcT : c * ((0.6 + 0.2 * c) * (1 - k) + (0.3 + 0.1 * c) * k) ≤ 0.8 := by
          calc c * ((0.6 + 0.2 * c) * (1 - k) + (0.3 + 0.1 * c) * k) ≤ 1 * ((0.6 + 0.2 * c) * (1 - k) + (0.3 + 0.1 * c) * k) :=
                mul_le_mul_of_nonneg_right hsh hT.le
            _ ≤ 0.8 := by linarith
        calc 1367 * R * (c * ((0.6 + 0.2 * c) * (1 - k) + (0.3 + 0.1 * c) * k)) ≤ 1367 * R * 0.8 :=
              mul_le_mul_of_nonneg_left hcT (by have := hR.1; positivity)
          _ ≤ 1367 * 1.0365 * 0.8 := by nlinarith [hR.2]
    · constructor
      · intro h
        by_contra hne
        rw [hfin (lt_of_le_of_ne hsh hne)] at h
        cases h
      · intro h
        rw [potRadCell_zenith _ _ _ _ _ _ _ h, XF.nan_add]

/-- **C60 (terrain).**  Any slope, azimuth, cloud fraction in [0, 1]: direct and diffuse radiation are numbers ≥ 0 unless the sun is in the zenith (where
the direct part is missing): the internal arcsine is never taken outside [-1, 1]. -/
theorem C60_terrain (dates : List Time) (lon lat tz slope azimuth k : ℝ) (h0 : 0 ≤ k) :
    ∀ r ∈ potentialRadiationSplit dates lon lat tz slope azimuth k,
      (∃ y, 0 ≤ y ∧ r.2.2 = .fin y) ∧ ((∃ x, 0 ≤ x ∧ r.2.1 = .fin x) ∨ r.2.1 = .nan) ∧ (r.2.1 = .nan ↔ sinHeight lon lat tz r.1 = 1) := by
  intro r hr
  obtain ⟨t, _, rfl⟩ := List.mem_map.1 hr
  dsimp only
  have hR := (radiusRatio_bounds (doyOf t)).1
  have hd : ∃ y, 0 ≤ y ∧ (potRadCell (doyOf t) (hourOf t) (minuteOf t) lon lat tz slope azimuth k).2 = .fin y := by
    refine ⟨_, ?_, rfl⟩
    have : 0 ≤ max (cosZenithRaw (solarDecline (doyOf t)) lat (hourAngle (hourOf t) (minuteOf t) lon tz)) 0 := le_max_right _ _
    positivity
  rcases lt_or_eq_of_le (sinHeight_le_one lon lat tz t) with h | h
  · have e := potRadCell_fin lon lat tz slope azimuth k t h
    refine ⟨hd, .inl ⟨_, le_max_right _ _, by rw [e]⟩, ?_⟩
    rw [e]
    constructor
    · intro h; cases h
    · intro h'; exact absurd h' h.ne
  · have e := potRadCell_zenith lon lat tz slope azimuth k t h
    exact ⟨hd, .inr e, ⟨fun _ => h, fun _ => e⟩⟩

/-- **C60 (clouds).**  On a horizontal surface more clouds never give more radiation. -/
theorem C60_clouds (t : Time) (lon lat tz azimuth k k' : ℝ) (h0 : 0 ≤ k) (hk : k ≤ k') (h1 : k' ≤ 1) (hz : sinHeight lon lat tz t < 1) :
    ∃ x x', potentialRadiation [t] lon lat tz 0 azimuth k = [(t, .fin x)] ∧ potentialRadiation [t] lon lat tz 0 azimuth k' = [(t, .fin x')] ∧ x' ≤ x := by
  have key : ∀ k : ℝ, 0 ≤ k → k ≤ 1 → ∃ v, potentialRadiation [t] lon lat tz 0 azimuth k = [(t, v)] ∧
      (sinHeight lon lat tz t ≤ 0 → v = .fin 0) ∧ (0 < sinHeight lon lat tz t → v = .fin (1367 * orbitRatio t * sinHeight lon lat tz t *
          ((0.6 + 0.2 * sinHeight lon lat tz t) * (1 - k) + (0.3 + 0.1 * sinHeight lon lat tz t) * k))) := by
    intro k h0 h1
    refine ⟨_, rfl, ?_⟩
    obtain ⟨a, b, _⟩ := (C60_horizontal [t] lon lat tz azimuth k h0 h1).2 (t, _) (List.mem_singleton.2 rfl)
    refine ⟨a, ?_⟩
    intro hp
    obtain ⟨x, hx, e, _⟩ := b hp hz
    rw [← e]
    exact hx
  obtain ⟨v, e, a, b⟩ := key k h0 (by linarith)
  obtain ⟨v', e', a', b'⟩ := key k' (by linarith) h1
  rcases le_or_gt (sinHeight lon lat tz t) 0 with h | h
  · exact ⟨0, 0, by rw [e, a h], by rw [e', a' h], le_rfl⟩
  · refine ⟨_, _, by rw [e, b h], by rw [e', b' h], ?_⟩
    have hR := (radiusRatio_bounds (doyOf t)).1
    rw [orbitRatio_eq] at hR
    apply mul_le_mul_of_nonneg_left _ (by positivity)
    generalize sinHeight lon lat tz t = c at *
    nlinarith

/-! ## C61 -/

/-- at latitudes up to 66.5 degrees the sun is below the horizon at solar midnight, all year -/
theorem midnight_dark (t : Time) (lon lat tz : ℝ) (hlat : |lat| ≤ 66.5) (hm : solarTime lon tz t = 0) : sinHeight lon lat tz t < 0 := by
  have hH : Real.cos ((solarTime lon tz t - 12) * (Real.pi / 12)) = -1 := by
    rw [hm, show ((0 : ℝ) - 12) * (Real.pi / 12) = -Real.pi by ring, Real.cos_neg, Real.cos_pi]
  have e : sinHeight lon lat tz t = -Real.cos (lat * (Real.pi / 180) + decl t) := by
    unfold sinHeight
    rw [hH, Real.cos_add]
    ring
  rw [e]
  have hpi := Real.pi_pos
  have hd : |decl t| ≤ 23.43697 * (Real.pi / 180) := by
    unfold decl
    rw [abs_mul, abs_of_pos (by positivity)]
    have := Real.abs_cos_le_one (2 * Real.pi * ((doyOf t : ℝ) - 173) / 365.25)
    nlinarith [show (0 : ℝ) < 23.43697 * (Real.pi / 180) by positivity]
  have h1 := abs_le.1 hd
  have h2 := abs_le.1 hlat
  have : 0 < Real.cos (lat * (Real.pi / 180) + decl t) := by
    apply Real.cos_pos_of_mem_Ioo
    constructor <;> nlinarith
  linarith

/-- **C61.**  On inclined terrain potential radiation is not 0 at night.  For every date, every site up to 66.5 degrees latitude, every slope in
(0, π), every azimuth whose cosine is positive (in particular 0) and every cloud fraction below 1: at solar midnight the sun is below the
horizon, yet the direct radiation is the positive number 1367·R·0.6·(1-k)·sin(slope)·cos(azimuth). -/
theorem C61_slope_at_night (t : Time) (lon lat tz slope azimuth k : ℝ) (hlat : |lat| ≤ 66.5) (hm : solarTime lon tz t = 0)
    (hs0 : 0 < slope) (hs1 : slope < Real.pi) (ha : 0 < Real.cos azimuth) (hk : k < 1) :
    sinHeight lon lat tz t < 0 ∧ ∃ x, potentialRadiationSplit [t] lon lat tz slope azimuth k = [(t, .fin x, .fin 0)] ∧ 0 < x ∧
      x = 1367 * orbitRatio t * 0.6 * (1 - k) * Real.sin slope * Real.cos azimuth := by
  rw [← orbitRatio_eq]
  have hd := midnight_dark t lon lat tz hlat hm
  have hR := (radiusRatio_bounds (doyOf t)).1
  have hsin : 0 < Real.sin slope := Real.sin_pos_of_pos_of_lt_pi hs0 hs1
  have hpos : 0 < 1367 * radiusRatio (doyOf t) * 0.6 * (1 - k) * Real.sin slope * Real.cos azimuth := by
    have : 0 < 1 - k := by linarith
    positivity
  refine ⟨hd, _, ?_, hpos, rfl⟩
  unfold potentialRadiationSplit
  rw [List.map_cons, List.map_nil, potRadCell_fin _ _ _ _ _ _ _ (by linarith), max_eq_right hd.le]
  have hmu : sunAzimuth lon lat tz t = 0 := by
    unfold sunAzimuth
    rw [hm, show ((0 : ℝ) - 12) * (Real.pi / 12) = -Real.pi by ring, Real.sin_neg, Real.sin_pi, neg_zero, mul_zero, zero_div, Real.arcsin_zero]
  have hci : cosIncidence lon lat tz slope azimuth t = Real.sin slope * Real.cos azimuth := by
    unfold cosIncidence
    rw [hmu, max_eq_right hd.le, Real.arccos_zero, Real.sin_pi_div_two, zero_sub, Real.cos_neg]
    ring
  rw [hci]
  have e : 1367 * radiusRatio (doyOf t) * ((0.6 + 0.2 * 0) * (1 - k)) * (Real.sin slope * Real.cos azimuth) =
      1367 * radiusRatio (doyOf t) * 0.6 * (1 - k) * Real.sin slope * Real.cos azimuth := by ring
  rw [e, max_eq_left hpos.le, mul_zero]

/-! ## C62 -/

/-- **C62.**  Potential radiation is symmetric about solar noon: two timestamps of the same day of the year (of any years) whose solar times are equally
far before and after noon get the same value on a horizontal surface, and on a slope when the azimuth is mirrored. -/
theorem C62_symmetric (t t' : Time) (lon lat tz slope azimuth k : ℝ) (hd : doyOf t = doyOf t')
    (hn : solarTime lon tz t + solarTime lon tz t' = 24) :
    potRadCell (doyOf t) (hourOf t) (minuteOf t) lon lat tz slope azimuth k =
      potRadCell (doyOf t') (hourOf t') (minuteOf t') lon lat tz slope (-azimuth) k ∧
    ((potentialRadiation [t] lon lat tz 0 azimuth k).values = (potentialRadiation [t'] lon lat tz 0 azimuth k).values) := by
  have hH : (solarTime lon tz t - 12) * (Real.pi / 12) = -((solarTime lon tz t' - 12) * (Real.pi / 12)) := by
    have : solarTime lon tz t = 24 - solarTime lon tz t' := by linarith
    rw [this]; ring
  have hdecl : decl t = decl t' := by unfold decl; rw [hd]
  have hsh : sinHeight lon lat tz t = sinHeight lon lat tz t' := by
    unfold sinHeight
    rw [hH, Real.cos_neg, hdecl]
  have hmu : sunAzimuth lon lat tz t = -sunAzimuth lon lat tz t' := by
    unfold sunAzimuth
    rw [hH, Real.sin_neg, hdecl, hsh, mul_neg, neg_div, Real.arcsin_neg]
  have hcell : ∀ slope azimuth : ℝ, potRadCell (doyOf t) (hourOf t) (minuteOf t) lon lat tz slope azimuth k =
      potRadCell (doyOf t') (hourOf t') (minuteOf t') lon lat tz slope (-azimuth) k := by
    intro slope azimuth
    rcases lt_or_eq_of_le (sinHeight_le_one lon lat tz t) with h | h
    · rw [potRadCell_fin _ _ _ _ _ _ _ h, potRadCell_fin _ _ _ _ _ _ _ (hsh ▸ h)]
      have hci : cosIncidence lon lat tz slope azimuth t = cosIncidence lon lat tz slope (-azimuth) t' := by
        unfold cosIncidence
        rw [hsh, hmu, show -sunAzimuth lon lat tz t' - azimuth = -(sunAzimuth lon lat tz t' - -azimuth) by ring, Real.cos_neg]
      rw [hci, hsh, hd]
    · apply Prod.ext
      · rw [potRadCell_zenith _ _ _ _ _ _ _ h, potRadCell_zenith _ _ _ _ _ _ _ (hsh ▸ h)]
      · unfold potRadCell
        dsimp only
        rw [cosZenith_eq, cosZenith_eq, hsh, hd]
  refine ⟨hcell slope azimuth, ?_⟩
  have haz : ∀ a b : ℝ, potRadCell (doyOf t') (hourOf t') (minuteOf t') lon lat tz 0 a k = potRadCell (doyOf t') (hourOf t') (minuteOf t') lon lat tz 0 b k := by
    intro a b
    rcases lt_or_eq_of_le (sinHeight_le_one lon lat tz t') with h | h
    · rw [potRadCell_fin _ _ _ _ _ _ _ h, potRadCell_fin _ _ _ _ _ _ _ h]
      unfold cosIncidence
      rw [Real.sin_zero, zero_mul, zero_mul, zero_mul]
    · apply Prod.ext
      · rw [potRadCell_zenith _ _ _ _ _ _ _ h, potRadCell_zenith _ _ _ _ _ _ _ h]
      · rfl
  unfold potentialRadiation potentialRadiationSplit Series.values
  simp only [List.map_cons, List.map_nil]
  rw [hcell 0 azimuth, haz (-azimuth) azimuth]

/-- **C62 (seconds).**  The value at a timestamp depends on it only through day of year, hour and minute: seconds are ignored. -/
theorem C62_seconds_ignored (t t' : Time) (lon lat tz slope azimuth k : ℝ) (hd : dayOf t = dayOf t') (hh : hourOf t = hourOf t')
    (hm : minuteOf t = minuteOf t') :
    (potentialRadiation [t] lon lat tz slope azimuth k).values = (potentialRadiation [t'] lon lat tz slope azimuth k).values := by
  have : doyOf t = doyOf t' := by unfold doyOf yearOf; rw [hd]
  unfold potentialRadiation potentialRadiationSplit Series.values
  simp only [List.map_cons, List.map_nil]
  rw [this, hh, hm]

/-- **C62 (time zone).**  Moving the site 15 degrees east and its time zone one hour ahead changes nothing. -/
theorem C62_zone_shift (dates : List Time) (lon lat tz slope azimuth k : ℝ) :
    potentialRadiation dates (lon + 15) lat (tz + 1) slope azimuth k = potentialRadiation dates lon lat tz slope azimuth k := by
  unfold potentialRadiation potentialRadiationSplit
  rw [List.map_map, List.map_map]
  apply List.map_congr_left
  intro t _
  have : hourAngle (hourOf t) (minuteOf t) (lon + 15) (tz + 1) = hourAngle (hourOf t) (minuteOf t) lon tz := by
    unfold hourAngle; ring
  simp only [Function.comp_def]
  unfold potRadCell
  rw [this]

/-! ## the whole chain -/

/-- hourly potential radiation of a horizontal surface -/
theorem pot_hourly (d0 : Int) (n : Nat) (lon lat tz azimuth k : ℝ) :
    potentialRadiation (Series.index (hourlyS d0 n fun _ _ => ())) lon lat tz 0 azimuth k =
      hourlyS d0 n fun i h => (potRadCell (doyOf (atHour (d0 + (i : Nat)) h)) (hourOf (atHour (d0 + (i : Nat)) h)) (minuteOf (atHour (d0 + (i : Nat)) h)) lon lat tz 0
        azimuth k).1 + (potRadCell (doyOf (atHour (d0 + (i : Nat)) h)) (hourOf (atHour (d0 + (i : Nat)) h)) (minuteOf (atHour (d0 + (i : Nat)) h)) lon lat tz 0 azimuth k).2 := by
  unfold potentialRadiation potentialRadiationSplit
  rw [hourlyS_index_atHour, List.map_map, List.map_map]
  rfl

/-- **C56 (with the computed potential).**  Daily radiation disaggregated with `potential_radiation` of a horizontal surface computed for the hours of
the same days: on every day on which the sun is above the horizon at some full hour (and in the zenith at none), every hour with the sun not
above the horizon gets 0, and the mean of the day lies in (g - 0.01, g].  (The stated daily value is g ≥ 0.) -/
theorem C56_with_sun (api : PandasApi) {daily : Frame ℝ} {d0 : Int} {n : Nat} (hi : daily.index = (List.range n).map fun i : Nat => at00 (d0 + i)) (hn : 0 < n)
    (v : Nat → XF ℝ) (hg : daily.col? "glob" = some (dailyS d0 n v)) (sun : Option (Series SunTimes)) (angstr bristcamp : ParPair ℝ)
    (course : Option (MeanCourse ℝ)) (lon lat tz azimuth k : ℝ) (h0 : 0 ≤ k) (h1 : k ≤ 1) :
    ∃ out, disaggregateRadiation api daily sun (some (potentialRadiation (Series.index (hourlyS d0 n fun _ _ => ())) lon lat tz 0 azimuth k)) "pot_rad"
        angstr bristcamp course = .ok out ∧
      ∀ i < n, ∀ g : ℝ, v i = .fin g → 0 ≤ g → (∃ h < 24, 0 < sinHeight lon lat tz (atHour (d0 + (i : Nat)) h)) →
        (∀ h < 24, sinHeight lon lat tz (atHour (d0 + (i : Nat)) h) ≠ 1) →
        (∀ h < 24, sinHeight lon lat tz (atHour (d0 + (i : Nat)) h) ≤ 0 → (dayCells out (d0 + i))[h]? = some (.fin 0)) ∧
        ∃ x, MeanIs (dayCells out (d0 + i)) x ∧ g - 0.01 < x ∧ x ≤ g := by
  rw [pot_hourly]
  obtain ⟨out, ho, h55⟩ := C55_daily_mean (d1 := d0) (m := n) api hi hn v hg sun (fun i h => (potRadCell (doyOf (atHour (d0 + (i : Nat)) h)) (hourOf (atHour (d0 + (i : Nat)) h))
    (minuteOf (atHour (d0 + (i : Nat)) h)) lon lat tz 0 azimuth k).1 + (potRadCell (doyOf (atHour (d0 + (i : Nat)) h)) (hourOf (atHour (d0 + (i : Nat)) h))
    (minuteOf (atHour (d0 + (i : Nat)) h)) lon lat tz 0 azimuth k).2) angstr bristcamp course
  obtain ⟨out', ho', h56⟩ := C56_follows_potential (d1 := d0) (m := n) api hi hn v hg sun (fun i h => (potRadCell (doyOf (atHour (d0 + (i : Nat)) h))
    (hourOf (atHour (d0 + (i : Nat)) h)) (minuteOf (atHour (d0 + (i : Nat)) h)) lon lat tz 0 azimuth k).1 + (potRadCell (doyOf (atHour (d0 + (i : Nat)) h))
    (hourOf (atHour (d0 + (i : Nat)) h)) (minuteOf (atHour (d0 + (i : Nat)) h)) lon lat tz 0 azimuth k).2) angstr bristcamp course
  rw [ho] at ho'
  cases ho'
  refine ⟨out, ho, ?_⟩
  intro i hi' g hv hg0 ⟨h', hh', hpos⟩ hz
  have hcell : ∀ h < 24, ∃ x : ℝ, (potRadCell (doyOf (atHour (d0 + (i : Nat)) h)) (hourOf (atHour (d0 + (i : Nat)) h)) (minuteOf (atHour (d0 + (i : Nat)) h)) lon lat tz 0
      azimuth k).1 + (potRadCell (doyOf (atHour (d0 + (i : Nat)) h)) (hourOf (atHour (d0 + (i : Nat)) h)) (minuteOf (atHour (d0 + (i : Nat)) h)) lon lat tz 0 azimuth k).2 =
      .fin x ∧ (sinHeight lon lat tz (atHour (d0 + (i : Nat)) h) ≤ 0 → x = 0) ∧ (0 < sinHeight lon lat tz (atHour (d0 + (i : Nat)) h) → 0 < x) := by
    intro h hh
    obtain ⟨a, b, _⟩ := (C60_horizontal [atHour (d0 + i) h] lon lat tz azimuth k h0 h1).2 (atHour (d0 + i) h, _) (List.mem_singleton.2 rfl)
    rcases le_or_gt (sinHeight lon lat tz (atHour (d0 + (i : Nat)) h)) 0 with hle | hgt
    · exact ⟨0, a hle, fun _ => rfl, fun h => absurd h (not_lt.2 hle)⟩
    · obtain ⟨x, hx, _, hx0, _⟩ := b hgt (lt_of_le_of_ne (sinHeight_le_one _ _ _ _) (hz h hh))
      exact ⟨x, hx, fun h => absurd h (not_le.2 hgt), fun _ => hx0⟩
  have hq : ∃ q : Nat → ℝ, ∀ h < 24, (potRadCell (doyOf (atHour (d0 + (i : Nat)) h)) (hourOf (atHour (d0 + (i : Nat)) h)) (minuteOf (atHour (d0 + (i : Nat)) h)) lon lat tz 0
      azimuth k).1 + (potRadCell (doyOf (atHour (d0 + (i : Nat)) h)) (hourOf (atHour (d0 + (i : Nat)) h)) (minuteOf (atHour (d0 + (i : Nat)) h)) lon lat tz 0 azimuth k).2 =
      .fin (q h) ∧ (sinHeight lon lat tz (atHour (d0 + (i : Nat)) h) ≤ 0 → q h = 0) ∧ (0 < sinHeight lon lat tz (atHour (d0 + (i : Nat)) h) → 0 < q h) := by
    classical
    refine ⟨fun h => if hh : h < 24 then (hcell h hh).choose else 0, ?_⟩
    intro h hh
    dsimp only
    rw [dif_pos hh]
    exact (hcell h hh).choose_spec
  obtain ⟨q, hq⟩ := hq
  have hq0 : ∀ h < 24, 0 ≤ q h := by
    intro h hh
    rcases le_or_gt (sinHeight lon lat tz (atHour (d0 + (i : Nat)) h)) 0 with hle | hgt
    · rw [(hq h hh).2.1 hle]
    · exact ((hq h hh).2.2 hgt).le
  have hsum : 0 < (day24 q).sum := by
    have : q h' ≤ (day24 q).sum := by
      apply List.single_le_sum
      · intro x hx
        obtain ⟨h, hh, rfl⟩ := mem_day24.1 hx
        exact hq0 h hh
      · exact mem_day24.2 ⟨h', hh', rfl⟩
    exact lt_of_lt_of_le ((hq h' hh').2.2 hpos) this
  constructor
  · intro h hh hle
    obtain ⟨y, hy, _, hy0, _⟩ := h56 i hi' i hi' rfl q g (fun h hh => (hq h hh).1) hsum hv
    rw [hy h hh, hy0 h hh ((hq h hh).2.1 hle)]
  · exact (h55 i hi' i hi' rfl q g (fun h hh => (hq h hh).1) hq0 hsum hv hg0).1

/-! ## concrete cases -/

/-- C60, C61: Greenwich latitude 50, 1 January 1970 00:00: dark on flat ground, radiation on a slope of 0.5 rad -/
example : (potentialRadiation [at00 0] 0 50 0 0 0 0 = [(at00 0, .fin 0)]) ∧
    ∃ x, potentialRadiationSplit [at00 0] 0 50 0 0.5 0 0 = [(at00 0, .fin x, .fin 0)] ∧ 0 < x := by
  have hm : solarTime 0 0 (at00 0) = 0 := by
    unfold solarTime
    have h1 : hourOf (at00 0) = 0 := by decide
    have h2 : minuteOf (at00 0) = 0 := by decide
    rw [h1, h2]
    norm_num
  have hpi := Real.two_le_pi
  obtain ⟨hd, x, hx, hx0, _⟩ := C61_slope_at_night (at00 0) 0 50 0 0.5 0 0 (by norm_num) hm (by norm_num) (by linarith) (by simp) (by norm_num)
  refine ⟨?_, x, hx, hx0⟩
  have := ((C60_horizontal [at00 0] 0 50 0 0 0 (by norm_num) (by norm_num)).2 (at00 0, _) (List.mem_singleton.2 rfl)).1 hd.le
  unfold potentialRadiation potentialRadiationSplit
  simp only [List.map_cons, List.map_nil]
  dsimp only at this
  rw [this]

/-- C62: 9 h and 15 h -/
example : (potentialRadiation [atHour 0 9] 0 50 0 0 0 0).values = (potentialRadiation [atHour 0 15] 0 50 0 0 0 0).values := by
  apply (C62_symmetric (atHour 0 9) (atHour 0 15) 0 50 0 0 0 0 (by decide) ?_).2
  unfold solarTime
  have h1 : hourOf (atHour 0 9) = 9 := by decide
  have h2 : minuteOf (atHour 0 9) = 0 := by decide
  have h3 : hourOf (atHour 0 15) = 15 := by decide
  have h4 : minuteOf (atHour 0 15) = 0 := by decide
  rw [h1, h2, h3, h4]
  norm_num

/-- C56 with the sun: at the equator on 1 January 1970 (time zone 0, longitude 0) the sun is above the horizon at noon -/
example : 0 < sinHeight 0 0 0 (atHour 0 12) ∧ sinHeight 0 0 0 (atHour 0 0) ≤ 0 := by
  have h3 : hourOf (atHour 0 12) = 12 := by decide
  have h4 : minuteOf (atHour 0 12) = 0 := by decide
  have h1 : hourOf (atHour 0 0) = 0 := by decide
  have h2 : minuteOf (atHour 0 0) = 0 := by decide
  have hm : solarTime 0 0 (atHour 0 0) = 0 := by unfold solarTime; rw [h1, h2]; norm_num
  refine ⟨?_, (midnight_dark _ 0 0 0 (by norm_num) hm).le⟩
  unfold sinHeight solarTime
  rw [h3, h4]
  norm_num
  have hpi := Real.pi_pos
  apply Real.cos_pos_of_mem_Ioo
  have hc := abs_le.1 (Real.abs_cos_le_one (2 * Real.pi * ((doyOf (atHour 0 12) : ℝ) - 173) / 365.25))
  unfold decl
  constructor <;> nlinarith

end

end Melodist
