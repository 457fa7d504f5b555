import Verif.Props.PotRadiation
import Verif.Props.Sun

/-!
# C115: day length and latitude, radiation and the distance to noon, the two sun models
-/

set_option linter.unusedSectionVars false

namespace Melodist
open Spec

noncomputable section

/-! ### day length -/

theorem dayLen_anti {doy doy' : Int} {lat lat' : ℝ} (h : sunArg doy' lat' ≤ sunArg doy lat) : dayLen doy lat ≤ dayLen doy' lat' := by
  have hp := Real.pi_pos
  have r := dayLen_range doy lat
  have r' := dayLen_range doy' lat'
  unfold dayLen at r r' ⊢
  by_cases c1 : sunArg doy' lat' < -1
  · rw [if_pos c1]; exact r.2
  · by_cases c2 : 1 < sunArg doy lat
    · rw [if_neg (by linarith : ¬ sunArg doy lat < -1), if_pos c2]; exact r'.1
    · rw [if_neg (by linarith : ¬ sunArg doy lat < -1), if_neg c2, if_neg c1, if_neg (by linarith : ¬ 1 < sunArg doy' lat')]
      have := Real.antitone_arccos h
      have : Real.arccos (sunArg doy lat) / Real.pi ≤ Real.arccos (sunArg doy' lat') / Real.pi := by gcongr
      linarith

/-- **C115 (latitude).**  On a day with the sun north of the equator days get longer towards the north, on a day with the sun south of it they get shorter. -/
theorem C115_latitude (t : Time) (lon tz lat lat' : ℝ) (h1 : -90 < lat) (hle : lat ≤ lat') (h2 : lat' < 90) :
    ∃ D D' : ℝ, (getSunTimes [t] lon lat tz).map (fun r => r.2.daylength) = [.fin D] ∧ (getSunTimes [t] lon lat' tz).map (fun r => r.2.daylength) = [.fin D'] ∧
      (0 ≤ solarDeclination (doyOf t) → D ≤ D') ∧ (solarDeclination (doyOf t) ≤ 0 → D' ≤ D) := by
  have hp := Real.pi_pos
  refine ⟨dayLen (doyOf t) lat, dayLen (doyOf t) lat', by simp [getSunTimes, sunTimesDoy_eq], by simp [getSunTimes, sunTimesDoy_eq], ?_, ?_⟩
  all_goals
    intro hd
    have htan : Real.tan (lat * (Real.pi / 180)) ≤ Real.tan (lat' * (Real.pi / 180)) := by
      apply Real.strictMonoOn_tan.monotoneOn
      · constructor <;> nlinarith
      · constructor <;> nlinarith
      · exact mul_le_mul_of_nonneg_right hle (by positivity)
    have hdecl := abs_le.1 (abs_declination_le (doyOf t))
    apply dayLen_anti
    unfold sunArg
  · have : 0 ≤ Real.tan (solarDeclination (doyOf t)) := Real.tan_nonneg_of_nonneg_of_le_pi_div_two hd (by norm_num at hdecl ⊢; linarith)
    nlinarith
  · have : 0 ≤ Real.tan (-solarDeclination (doyOf t)) :=
      Real.tan_nonneg_of_nonneg_of_le_pi_div_two (by linarith) (by norm_num at hdecl ⊢; linarith)
    rw [Real.tan_neg] at this
    nlinarith

/-! ### radiation -/

theorem decl_abs_lt (t : Time) : |decl t| < Real.pi / 2 := by
  have hp := Real.pi_pos
  rw [← decl_eq]
  unfold solarDecline deg2rad
  rw [abs_mul, abs_of_pos (by positivity)]
  have := Real.abs_cos_le_one (2 * Real.pi * ((doyOf t : ℝ) - 173) / 365.25)
  have : 23.43697 * (Real.pi / 180) * |Real.cos (2 * Real.pi * ((doyOf t : ℝ) - 173) / 365.25)| ≤ 23.43697 * (Real.pi / 180) * 1 := by gcongr
  norm_num at this ⊢
  linarith

/-- closer to noon the sun is higher -/
theorem sinHeight_mono {t t' : Time} {lon lat tz : ℝ} (h1 : -90 < lat) (h2 : lat < 90) (hd : doyOf t = doyOf t')
    (hn : |solarTime lon tz t - 12| ≤ |solarTime lon tz t' - 12|) (h12 : |solarTime lon tz t' - 12| ≤ 12) : sinHeight lon lat tz t' ≤ sinHeight lon lat tz t := by
  have hp := Real.pi_pos
  have hdecl : decl t = decl t' := by unfold decl; rw [hd]
  have hcd : 0 < Real.cos (decl t') := Real.cos_pos_of_mem_Ioo (abs_lt.1 (decl_abs_lt t'))
  have hcl := cos_lat_pos h1 h2
  unfold sinHeight
  rw [hdecl]
  have hcos : Real.cos ((solarTime lon tz t' - 12) * (Real.pi / 12)) ≤ Real.cos ((solarTime lon tz t - 12) * (Real.pi / 12)) := by
    rw [← Real.cos_abs ((solarTime lon tz t' - 12) * (Real.pi / 12)), ← Real.cos_abs ((solarTime lon tz t - 12) * (Real.pi / 12))]
    rw [abs_mul, abs_mul, abs_of_pos (by positivity : 0 < Real.pi / 12)]
    apply Real.cos_le_cos_of_nonneg_of_le_pi
    · positivity
    · have : |solarTime lon tz t' - 12| * (Real.pi / 12) ≤ 12 * (Real.pi / 12) := by gcongr
      linarith
    · gcongr
  have := mul_le_mul_of_nonneg_left hcos (mul_pos hcl hcd).le
  nlinarith

/-- potential radiation on a horizontal surface as a function of the height of the sun -/
def horizontalRad (s c k : ℝ) : ℝ := 1367 * s * max c 0 * ((0.6 + 0.2 * max c 0) * (1 - k) + (0.3 + 0.1 * max c 0) * k)

theorem horizontalRad_mono {s c c' k : ℝ} (hs : 0 ≤ s) (h0 : 0 ≤ k) (h1 : k ≤ 1) (h : c' ≤ c) : horizontalRad s c' k ≤ horizontalRad s c k := by
  unfold horizontalRad
  have h' : max c' 0 ≤ max c 0 := max_le_max_right 0 h
  have hp' : 0 ≤ max c' 0 := le_max_right _ _
  have : 0 ≤ 1 - k := by linarith
  gcongr

theorem horizontalRad_nonneg {s c k : ℝ} (hs : 0 ≤ s) (h0 : 0 ≤ k) (h1 : k ≤ 1) : 0 ≤ horizontalRad s c k := by
  unfold horizontalRad
  have : 0 ≤ max c 0 := le_max_right _ _
  have : 0 ≤ 1 - k := by linarith
  positivity

theorem horizontalRad_pos {s c k : ℝ} (hs : 0 < s) (h0 : 0 ≤ k) (h1 : k ≤ 1) (hc : 0 < c) : 0 < horizontalRad s c k := by
  unfold horizontalRad
  rw [max_eq_left hc.le]
  have : 0 < (0.6 + 0.2 * c) * (1 - k) + (0.3 + 0.1 * c) * k := by nlinarith
  positivity

theorem potRad_horizontal (t : Time) (lon lat tz azimuth k : ℝ) (h0 : 0 ≤ k) (h1 : k ≤ 1) (hz : sinHeight lon lat tz t < 1) :
    potentialRadiation [t] lon lat tz 0 azimuth k = [(t, .fin (horizontalRad (orbitRatio t) (sinHeight lon lat tz t) k))] := by
  obtain ⟨a, b, _⟩ := (C60_horizontal [t] lon lat tz azimuth k h0 h1).2 (t, _) (List.mem_singleton.2 rfl)
  show [(t, _)] = _
  congr 2
  rcases le_or_gt (sinHeight lon lat tz t) 0 with h | h
  · rw [horizontalRad, max_eq_right h, mul_zero, zero_mul]
    exact a h
  · obtain ⟨x, hx, e, _⟩ := b h hz
    rw [horizontalRad, max_eq_left h.le, ← e]
    exact hx

/-- **C115 (noon).**  Horizontal surface, two times of the same day of the year: the time closer to solar noon has at least as much potential radiation. -/
theorem C115_noon (t t' : Time) (lon lat tz azimuth k : ℝ) (l1 : -90 < lat) (l2 : lat < 90) (h0 : 0 ≤ k) (h1 : k ≤ 1) (hd : doyOf t = doyOf t')
    (hn : |solarTime lon tz t - 12| ≤ |solarTime lon tz t' - 12|) (h12 : |solarTime lon tz t' - 12| ≤ 12) (hz : sinHeight lon lat tz t < 1) :
    ∃ x x' : ℝ, potentialRadiation [t] lon lat tz 0 azimuth k = [(t, .fin x)] ∧ potentialRadiation [t'] lon lat tz 0 azimuth k = [(t', .fin x')] ∧ x' ≤ x := by
  have hm := sinHeight_mono l1 l2 hd hn h12
  refine ⟨_, _, potRad_horizontal t lon lat tz azimuth k h0 h1 hz, potRad_horizontal t' lon lat tz azimuth k h0 h1 (lt_of_le_of_lt hm hz), ?_⟩
  have : orbitRatio t = orbitRatio t' := by unfold orbitRatio; rw [hd]
  rw [this]
  refine horizontalRad_mono ?_ h0 h1 hm
  rw [← orbitRatio_eq]
  exact (radiusRatio_bounds _).1.le

theorem doy_atHour (d : Int) {h : Nat} (hh : h < 24) : doyOf (atHour d h) = doyOf (at00 d) := by
  have : dayOf (atHour d h) = dayOf (at00 d) := by unfold dayOf atHour at00; omega
  unfold doyOf yearOf
  rw [this]

/-- **C115 (disaggregated radiation).**  Daily radiation disaggregated with the potential radiation of a horizontal surface (method 'pot_rad'): on every day with the
sun above the horizon at some full hour (and in the zenith at none) and a daily value g ≥ 0, of two hours the one closer to solar noon gets at least as much. -/
theorem C115_radiation (api : PandasApi) {daily : Frame ℝ} {d0 : Int} {n : Nat} (hi : daily.index = (List.range n).map fun i : Nat => at00 (d0 + i)) (hn : 0 < n)
    (v : Nat → XF ℝ) (hg : daily.col? "glob" = some (dailyS d0 n v)) (sun : Option (Series SunTimes)) (angstr bristcamp : ParPair ℝ)
    (course : Option (MeanCourse ℝ)) (lon lat tz azimuth k : ℝ) (l1 : -90 < lat) (l2 : lat < 90) (h0 : 0 ≤ k) (h1 : k ≤ 1) :
    ∃ out, disaggregateRadiation api daily sun (some (potentialRadiation (Series.index (hourlyS d0 n fun _ _ => ())) lon lat tz 0 azimuth k)) "pot_rad"
        angstr bristcamp course = .ok out ∧
      ∀ i < n, ∀ g : ℝ, v i = .fin g → 0 ≤ g → (∃ h < 24, 0 < sinHeight lon lat tz (atHour (d0 + (i : Nat)) h)) →
        (∀ h < 24, sinHeight lon lat tz (atHour (d0 + (i : Nat)) h) ≠ 1) →
        ∀ h < 24, ∀ h' < 24, |solarTime lon tz (atHour (d0 + (i : Nat)) h) - 12| ≤ |solarTime lon tz (atHour (d0 + (i : Nat)) h') - 12| →
          |solarTime lon tz (atHour (d0 + (i : Nat)) h') - 12| ≤ 12 →
          ∃ x x' : ℝ, (dayCells out (d0 + i))[h]? = some (.fin x) ∧ (dayCells out (d0 + i))[h']? = some (.fin x') ∧ x' ≤ x := by
  rw [pot_hourly]
  set p : Nat → Nat → XF ℝ := fun i h => (potRadCell (doyOf (atHour (d0 + (i : Nat)) h)) (hourOf (atHour (d0 + (i : Nat)) h))
    (minuteOf (atHour (d0 + (i : Nat)) h)) lon lat tz 0 azimuth k).1 + (potRadCell (doyOf (atHour (d0 + (i : Nat)) h)) (hourOf (atHour (d0 + (i : Nat)) h))
    (minuteOf (atHour (d0 + (i : Nat)) h)) lon lat tz 0 azimuth k).2 with hp
  refine ⟨_, potRad_eq (d1 := d0) (m := n) api hi hn hg sun p angstr bristcamp course, ?_⟩
  intro i hi' g hv hg0 ⟨h₁, hh₁, hpos⟩ hz h hh h' hh' hclose h12
  have hcell : ∀ h < 24, p i h = .fin (horizontalRad (orbitRatio (atHour (d0 + (i : Nat)) h)) (sinHeight lon lat tz (atHour (d0 + (i : Nat)) h)) k) := by
    intro h hh
    have := potRad_horizontal (atHour (d0 + (i : Nat)) h) lon lat tz azimuth k h0 h1 (lt_of_le_of_ne (sinHeight_le_one _ _ _ _) (hz h hh))
    unfold potentialRadiation potentialRadiationSplit at this
    simp only [List.map_cons, List.map_nil, List.cons.injEq, Prod.mk.injEq, and_true, true_and] at this
    exact this
  set q : Nat → ℝ := fun h => horizontalRad (orbitRatio (atHour (d0 + (i : Nat)) h)) (sinHeight lon lat tz (atHour (d0 + (i : Nat)) h)) k with hq
  have hR : ∀ t, 0 < orbitRatio t := fun t => by rw [← orbitRatio_eq]; exact (radiusRatio_bounds _).1
  have hq0 : ∀ h, 0 ≤ q h := fun h => horizontalRad_nonneg (hR _).le h0 h1
  have hqpos : 0 < q h₁ := horizontalRad_pos (hR _) h0 h1 hpos
  have hsum : 0 < (day24 q).sum := by
    have : q h₁ ≤ (day24 q).sum := by
      apply List.single_le_sum
      · intro x hx
        obtain ⟨h, hh, rfl⟩ := mem_day24.1 hx
        exact hq0 h
      · exact mem_day24.2 ⟨h₁, hh₁, rfl⟩
    exact lt_of_lt_of_le hqpos this
  have hμ : 0 < (day24 q).sum / 24 := by positivity
  have hday : ∀ h < 24, (dayCells (hourlyS d0 n fun j h => radCell (p j h) (meanSkip (day24 (p j))) (lastValue d0 n v (d0 + (j : Int)))) (d0 + i))[h]? =
      some (.fin (if q h / ((day24 q).sum / 24) * g < 0.01 then 0 else q h / ((day24 q).sum / 24) * g)) := by
    intro h hh
    rw [dayCells_hourlyS d0 _ hi', lastValue_self hi', hv, meanSkip_day24 (q := q) hcell]
    rw [day24_getElem? _ hh, hcell h hh, radCell_fin hμ]
  refine ⟨_, _, hday h hh, hday h' hh', ?_⟩
  have hqq : q h' ≤ q h := by
    have hd : doyOf (atHour (d0 + (i : Nat)) h) = doyOf (atHour (d0 + (i : Nat)) h') := by rw [doy_atHour _ hh, doy_atHour _ hh']
    have : orbitRatio (atHour (d0 + (i : Nat)) h) = orbitRatio (atHour (d0 + (i : Nat)) h') := by unfold orbitRatio; rw [hd]
    simp only [hq]
    rw [this]
    exact horizontalRad_mono (hR _).le h0 h1 (sinHeight_mono l1 l2 hd hclose h12)
  have : q h' / ((day24 q).sum / 24) * g ≤ q h / ((day24 q).sum / 24) * g := by gcongr
  split_ifs <;> linarith

/-! ### the two sun models -/

/-- **C115 (declinations).**  The declinations of `get_sun_times` and of `potential_radiation` (two different formulas) never differ by more than 1.5 degrees. -/
theorem C115_declinations (t : Time) : |solarDeclination (doyOf t) - decl t| ≤ 1.5 * (Real.pi / 180) := by
  have hp := Real.pi_pos
  have hp1 := Real.pi_gt_d6
  have hp2 := Real.pi_lt_d6
  rw [← decl_eq]
  unfold solarDeclination solarDecline deg2rad
  dsimp only
  set B := (360 / 365.25) * ((doyOf t : ℝ) - 79.346) * (Real.pi / 180) with hB
  -- the other angle is B - e - π/2
  have he : 2 * Real.pi * ((doyOf t : ℝ) - 173) / 365.25 = B - 2.3415 * (2 * Real.pi / 365.25) - Real.pi / 2 := by
    rw [hB]; ring
  set e := 2.3415 * (2 * Real.pi / 365.25) with hE
  have e1 : 0.0402 ≤ e := by rw [hE]; norm_num at hp1 ⊢; linarith
  have e2 : e ≤ 0.0403 := by rw [hE]; norm_num at hp2 ⊢; linarith
  rw [he, Real.cos_sub_pi_div_two, Real.sin_sub]
  have c1 : 0.999 ≤ Real.cos e := by
    have := Real.one_sub_sq_div_two_le_cos (x := e)
    nlinarith
  have c2 := Real.cos_le_one e
  have s1 : Real.sin e ≤ 0.0403 := (Real.sin_le (by linarith)).trans e2
  have s2 : 0.04 ≤ Real.sin e := by
    have := Real.sin_gt_sub_cube (x := e) (by linarith)
    nlinarith [this, mul_self_nonneg e]
  have a1 := Real.neg_one_le_sin B
  have a2 := Real.sin_le_one B
  have b1 := Real.neg_one_le_cos B
  have b2 := Real.cos_le_one B
  have x1 := Real.neg_one_le_sin (2 * B)
  have x2 := Real.sin_le_one (2 * B)
  have d1 := Real.neg_one_le_cos (2 * B)
  have d2 := Real.cos_le_one (2 * B)
  have y1 := Real.neg_one_le_sin (3 * B)
  have y2 := Real.sin_le_one (3 * B)
  have f1 := Real.neg_one_le_cos (3 * B)
  have f2 := Real.cos_le_one (3 * B)
  generalize Real.sin (2 * B) = S2 at *
  generalize Real.cos (2 * B) = C2 at *
  generalize Real.sin (3 * B) = S3 at *
  generalize Real.cos (3 * B) = C3 at *
  generalize Real.sin B = S at *
  generalize Real.cos B = C at *
  generalize Real.cos e = ce at *
  generalize Real.sin e = se at *
  have key : |0.3723 + 23.2567 * S - 0.758 * C + 0.1149 * S2 + 0.3656 * C2 - 0.1712 * S3 + 0.0201 * C3 - 23.43697 * (S * ce - C * se)| ≤ 1.5 := by
    have k1 : |(23.2567 - 23.43697 * ce) * S| ≤ 0.19 := by
      rw [abs_mul]
      have : |23.2567 - 23.43697 * ce| ≤ 0.19 := by rw [abs_le]; constructor <;> norm_num at * <;> linarith
      have : |S| ≤ 1 := abs_le.2 ⟨a1, a2⟩
      exact (mul_le_of_le_one_right (abs_nonneg _) this).trans (by assumption)
    have k2 : |(23.43697 * se - 0.758) * C| ≤ 0.19 := by
      rw [abs_mul]
      have : |23.43697 * se - 0.758| ≤ 0.19 := by rw [abs_le]; constructor <;> norm_num at * <;> linarith
      have : |C| ≤ 1 := abs_le.2 ⟨b1, b2⟩
      exact (mul_le_of_le_one_right (abs_nonneg _) this).trans (by assumption)
    have k1 := abs_le.1 k1
    have k2 := abs_le.1 k2
    rw [abs_le]
    constructor <;> norm_num at * <;> linarith
  have hfac : (0.3723 + 23.2567 * S - 0.758 * C + 0.1149 * S2 + 0.3656 * C2 - 0.1712 * S3 + 0.0201 * C3) * (Real.pi / 180) -
      23.43697 * (Real.pi / 180) * (S * ce - C * se) =
      (0.3723 + 23.2567 * S - 0.758 * C + 0.1149 * S2 + 0.3656 * C2 - 0.1712 * S3 + 0.0201 * C3 - 23.43697 * (S * ce - C * se)) * (Real.pi / 180) := by ring
  rw [hfac, abs_mul, abs_of_pos (by positivity : 0 < Real.pi / 180)]
  gcongr

/-- **C115 (two noons).**  `potential_radiation` ignores the equation of time: a timestamp at its solar noon (solar time 12) differs from the solar noon reported by
`get_sun_times` by the equation of time, at most 21 minutes on every day; the difference is more than 9 minutes on day 74 of every year (15 March). -/
theorem C115_two_noons (t : Time) (lon lat tz : ℝ) (h : solarTime lon tz t = 12) :
    ∃ noon : ℝ, (getSunTimes [t] lon lat tz).map (fun r => r.2.sunnoon) = [.fin noon] ∧
      |noon - ((hourOf t : ℝ) + (minuteOf t : ℝ) / 60)| ≤ 0.35 ∧ (doyOf t = 74 → 0.15 < noon - ((hourOf t : ℝ) + (minuteOf t : ℝ) / 60)) := by
  refine ⟨noonAt (doyOf t) lon tz, by simp [getSunTimes, sunTimesDoy_eq], ?_⟩
  have e : noonAt (doyOf t) lon tz - ((hourOf t : ℝ) + (minuteOf t : ℝ) / 60) = -eqTime (doyOf t) := by
    unfold solarTime at h
    unfold noonAt
    linarith
  rw [e, abs_neg]
  refine ⟨abs_eqTime_le _, ?_⟩
  intro hd
  rw [hd]
  have hp := Real.pi_pos
  have hp2 := Real.pi_lt_d6
  unfold eqTime
  dsimp only
  have hs : (2 * Real.pi * (((74 : Int) : ℝ) - 1) / 365) = 2 * (Real.pi / 5) := by push_cast; ring
  rw [hs]
  have hc := Real.cos_pi_div_five
  have h5 : 2.236 < Real.sqrt 5 := by rw [Real.lt_sqrt (by norm_num)]; norm_num
  have h5' : Real.sqrt 5 < 2.2361 := by rw [Real.sqrt_lt' (by norm_num)]; norm_num
  have hs5 : 0 < Real.sin (Real.pi / 5) := Real.sin_pos_of_pos_of_lt_pi (by positivity) (by linarith)
  have hsq := Real.sin_sq_add_cos_sq (Real.pi / 5)
  set c := Real.cos (Real.pi / 5) with hcdef
  set s := Real.sin (Real.pi / 5) with hsdef
  have hc1 : 0.809 < c := by rw [hc]; norm_num at *; linarith
  have hc2 : c < 0.8091 := by rw [hc]; norm_num at *; linarith
  have hs1 : 0.587 < s := by nlinarith
  have hs2 : s < 0.588 := by nlinarith
  have C1 : Real.cos (2 * (Real.pi / 5)) = 2 * c ^ 2 - 1 := Real.cos_two_mul _
  have S1 : Real.sin (2 * (Real.pi / 5)) = 2 * s * c := Real.sin_two_mul _
  have C2 : Real.cos (2 * (2 * (Real.pi / 5))) = -c := by
    rw [show 2 * (2 * (Real.pi / 5)) = Real.pi - Real.pi / 5 by ring, Real.cos_pi_sub]
  have S2 : Real.sin (2 * (2 * (Real.pi / 5))) = s := by
    rw [show 2 * (2 * (Real.pi / 5)) = Real.pi - Real.pi / 5 by ring, Real.sin_pi_sub]
  rw [C1, S1, C2, S2]
  have hsc : 0.474 < s * c := by nlinarith
  have hcc : c ^ 2 < 0.6547 := by nlinarith
  have hin : 0.04 < -(0.000075 + 0.001868 * (2 * c ^ 2 - 1) - 0.032077 * (2 * s * c) - 0.014615 * -c - 0.040849 * s) := by
    norm_num at *
    linarith
  have : -(12 / Real.pi * (0.000075 + 0.001868 * (2 * c ^ 2 - 1) - 0.032077 * (2 * s * c) - 0.014615 * -c - 0.040849 * s)) =
      12 / Real.pi * -(0.000075 + 0.001868 * (2 * c ^ 2 - 1) - 0.032077 * (2 * s * c) - 0.014615 * -c - 0.040849 * s) := by ring
  rw [this]
  have h12 : 3.8 < 12 / Real.pi := by rw [lt_div_iff₀ hp]; norm_num at *; linarith
  calc (0.15 : ℝ) < 3.8 * 0.04 := by norm_num
    _ < _ := by gcongr

/-! ### examples -/

/-- 22 June 1970: days are longer at 60 degrees north than at 47 degrees -/
example : ∃ D D' : ℝ, (getSunTimes [at00 172] 11 47 1).map (fun r => r.2.daylength) = [.fin D] ∧
    (getSunTimes [at00 172] 11 60 1).map (fun r => r.2.daylength) = [.fin D'] ∧ D ≤ D' := by
  obtain ⟨D, D', h1, h2, h3, -⟩ := C115_latitude (at00 172) 11 1 47 60 (by norm_num) (by norm_num) (by norm_num)
  refine ⟨D, D', h1, h2, h3 ?_⟩
  have hd := (abs_le.1 (C115_declinations (at00 172))).1
  have e : decl (at00 172) = 23.43697 * (Real.pi / 180) := by
    rw [← decl_eq, show doyOf (at00 172) = 173 by decide +kernel]
    unfold solarDecline deg2rad
    norm_num
  have hp := Real.pi_pos
  rw [e] at hd
  norm_num at hd ⊢
  linarith

/-- at noon there is at least as much potential radiation as at 8 h -/
example : ∃ x x' : ℝ, potentialRadiation [atHour 0 12] 0 50 0 0 0 0 = [(atHour 0 12, .fin x)] ∧
    potentialRadiation [atHour 0 8] 0 50 0 0 0 0 = [(atHour 0 8, .fin x')] ∧ x' ≤ x := by
  have h12 : solarTime 0 0 (atHour 0 12) = 12 := by
    unfold solarTime
    rw [show hourOf (atHour 0 12) = 12 by decide, show minuteOf (atHour 0 12) = 0 by decide]
    norm_num
  have h8 : solarTime 0 0 (atHour 0 8) = 8 := by
    unfold solarTime
    rw [show hourOf (atHour 0 8) = 8 by decide, show minuteOf (atHour 0 8) = 0 by decide]
    norm_num
  refine C115_noon _ _ 0 50 0 0 0 (by norm_num) (by norm_num) (by norm_num) (by norm_num) (by decide +kernel) ?_ ?_ ?_
  · rw [h12, h8]; norm_num
  · rw [h8]; norm_num [abs_of_neg]
  · -- in the zenith the declination would be 50 degrees
    have hp := Real.pi_pos
    have hb := abs_lt.1 (decl_abs_lt (atHour 0 12))
    have hsmall : |decl (atHour 0 12)| ≤ 24 * (Real.pi / 180) := by
      rw [← decl_eq]
      unfold solarDecline deg2rad
      rw [abs_mul, abs_of_pos (by positivity)]
      have := mul_le_mul_of_nonneg_left (Real.abs_cos_le_one (2 * Real.pi * ((doyOf (atHour 0 12) : ℝ) - 173) / 365.25))
        (by positivity : (0 : ℝ) ≤ 23.43697 * (Real.pi / 180))
      norm_num at this ⊢
      linarith
    have hs := abs_le.1 hsmall
    unfold sinHeight
    rw [h12, sub_self, zero_mul, Real.cos_zero, mul_one, add_comm, ← Real.cos_sub]
    rw [← Real.cos_zero, ← Real.cos_abs]
    apply Real.cos_lt_cos_of_nonneg_of_le_pi le_rfl
    · rw [abs_le]; constructor <;> linarith [hs.1, hs.2]
    · rw [abs_pos]
      intro h
      linarith [hs.1, hs.2]

/-- 15 March 1970, 12:00 at Greenwich: `get_sun_times` reports noon more than 9 minutes later -/
example : ∃ noon : ℝ, (getSunTimes [atHour 73 12] 0 50 0).map (fun r => r.2.sunnoon) = [.fin noon] ∧ 12.15 < noon := by
  have h1 : hourOf (atHour 73 12) = 12 := by decide +kernel
  have h2 : minuteOf (atHour 73 12) = 0 := by decide +kernel
  obtain ⟨noon, h, -, h3⟩ := C115_two_noons (atHour 73 12) 0 50 0 (by unfold solarTime; rw [h1, h2]; norm_num)
  have := h3 (by decide +kernel)
  rw [h1, h2] at this
  norm_num at this
  refine ⟨noon, h, ?_⟩
  norm_num
  linarith

end

end Melodist
