import Verif.Lemmas.PotRadNearB

/-!
# C134: potential radiation in floating-point arithmetic
-/

set_option linter.unusedSectionVars false

namespace Melodist
open Spec

noncomputable section

variable {F : TrigMath}

theorem rndCell_id (x : XF ℝ) : x.rnd id = x := by cases x <;> rfl

theorem potRadCellR_exact (doy h mi : Int) (lon lat tz slope azimuth cloud : ℝ) :
    potRadCellR TrigMath.exact doy h mi lon lat tz slope azimuth cloud = potRadCell doy h mi lon lat tz slope azimuth cloud := by
  have h0 : ∀ x : ℝ, TrigMath.exact.fl x = x := fun _ => rfl
  have h1 : ∀ c : XF ℝ, TrigMath.exact.sinCell c = XF.sin c := by intro c; cases c <;> rfl
  have h2 : ∀ c : XF ℝ, TrigMath.exact.cosCell c = XF.cos c := by intro c; cases c <;> rfl
  have h3 : ∀ c : XF ℝ, TrigMath.exact.arcsinCell c = XF.arcsin c := by intro c; cases c <;> rfl
  have h4 : ∀ c : XF ℝ, TrigMath.exact.arccosCell c = XF.arccos c := by intro c; cases c <;> rfl
  have h5 : ∀ c : XF ℝ, c.rnd TrigMath.exact.fl = c := rndCell_id
  have hd : solarDeclineR TrigMath.exact doy = solarDecline doy := rfl
  have hh : hourAngleR TrigMath.exact h mi lon tz = hourAngle h mi lon tz := rfl
  have hc : ∀ d a, cosZenithRawR TrigMath.exact d lat a = cosZenithRaw d lat a := fun _ _ => rfl
  have hr : radiusRatioR TrigMath.exact doy = radiusRatio doy := rfl
  unfold potRadCellR potRadCell
  simp only [h1, h2, h3, h4, h5, hd, hh, hc, hr]
  rfl

theorem div_zero_ne_fin (a y : ℝ) : XF.fin a / XF.fin 0 ≠ XF.fin y := by
  rw [XF.fin_div_fin, if_pos rfl]
  unfold XF.infOfSign
  split_ifs <;> simp

/-- the direct part is missing, or comes from numbers within the domains of the arccosine and the arcsine -/
theorem potRadCellR_cases (hF : DoubleTrig F) (doy h mi : Int) (lon lat tz slope azimuth cloud : ℝ) {c' s num q : ℝ}
    (hc : c' = max (cosZenithRawR F (solarDeclineR F doy) lat (hourAngleR F h mi lon tz)) 0) (hs : s = F.sin (F.arccos c'))
    (hn : num = F.fl (F.cos (solarDeclineR F doy) * F.sin (hourAngleR F h mi lon tz))) (hq : q = F.fl (num / s)) :
    (potRadCellR F doy h mi lon lat tz slope azimuth cloud).2 =
      .fin (F.fl (F.fl (F.fl (1367 * radiusRatioR F doy) * F.fl (F.fl (F.fl 0.3 + F.fl (F.fl 0.1 * c')) * cloud)) * c')) ∧
    (((c' ≤ 1 ∧ 0 < s ∧ -1 ≤ q ∧ q ≤ 1) ∧ (potRadCellR F doy h mi lon lat tz slope azimuth cloud).1 =
      .fin (max (F.fl (F.fl (F.fl (1367 * radiusRatioR F doy) * F.fl (F.fl (F.fl 0.6 + F.fl (F.fl 0.2 * c')) * F.fl (1 - cloud))) *
        F.fl (F.fl (F.cos slope * c') + F.fl (F.fl (F.sin slope * s) * F.cos (F.fl (F.arcsin q - azimuth)))))) 0)) ∨
    (¬ (c' ≤ 1 ∧ 0 < s ∧ -1 ≤ q ∧ q ≤ 1) ∧ (potRadCellR F doy h mi lon lat tz slope azimuth cloud).1 = .nan)) := by
  unfold potRadCellR
  dsimp only
  rw [← hc, ← hn]
  refine ⟨rfl, ?_⟩
  have hc0 : 0 ≤ c' := by rw [hc]; exact le_max_right _ _
  have hnan : XF.clipMin0 ((.fin (F.fl (F.fl (1367 * radiusRatioR F doy) * F.fl (F.fl (F.fl 0.6 + F.fl (F.fl 0.2 * c')) * F.fl (1 - cloud)))) *
      (.fin (F.fl (F.cos slope * c')) + (.nan : XF ℝ)).rnd F.fl).rnd F.fl) = .nan := by
    rw [XF.add_nan]
    show XF.clipMin0 (((_ : XF ℝ) * .nan).rnd F.fl) = _
    rw [XF.mul_nan]
    rfl
  by_cases h1 : c' ≤ 1
  · have hz : F.arccosCell (.fin c') = .fin (F.arccos c') := by
      unfold TrigMath.arccosCell
      dsimp only
      rw [if_pos ⟨by linarith, h1⟩]
    have hsz : F.sinCell (.fin (F.arccos c')) = .fin s := by rw [hs]; rfl
    rw [hz, hsz]
    by_cases h2 : 0 < s
    · rw [XF.fin_div_fin_of_ne _ h2.ne']
      have e : (XF.fin (num / s)).rnd F.fl = .fin q := by rw [hq]; rfl
      rw [e]
      by_cases h3 : -1 ≤ q ∧ q ≤ 1
      · left
        refine ⟨⟨h1, h2, h3⟩, ?_⟩
        have e2 : F.arcsinCell (.fin q) = .fin (F.arcsin q) := by
          unfold TrigMath.arcsinCell
          dsimp only
          rw [if_pos h3]
        rw [e2, XF.fin_sub_fin]
        rfl
      · right
        refine ⟨fun h => h3 ⟨h.2.2.1, h.2.2.2⟩, ?_⟩
        have e2 : F.arcsinCell (.fin q) = .nan := by
          unfold TrigMath.arcsinCell
          dsimp only
          rw [if_neg h3]
        rw [e2, XF.nan_sub]
        have e3 : F.cosCell ((.nan : XF ℝ).rnd F.fl) = .nan := rfl
        rw [e3, XF.mul_nan]
        exact hnan
    · right
      refine ⟨fun h => h2 h.2.1, ?_⟩
      have hs0 : s = 0 := le_antisymm (not_lt.1 h2) (hs ▸ (sz_near hF hc0 h1).1)
      have e2 : F.arcsinCell ((XF.fin num / .fin s).rnd F.fl) = .nan := by
        have hx : ∀ y : ℝ, XF.fin num / .fin s ≠ .fin y := by
          intro y
          rw [hs0]
          exact div_zero_ne_fin num y
        generalize XF.fin num / .fin s = v at *
        cases v with
        | fin y => exact absurd rfl (hx y)
        | nan => rfl
        | pinf => rfl
        | ninf => rfl
      rw [e2, XF.nan_sub]
      have e3 : F.cosCell ((.nan : XF ℝ).rnd F.fl) = .nan := rfl
      rw [e3, XF.mul_nan]
      exact hnan
  · right
    refine ⟨fun h => h1 h.1, ?_⟩
    have hz : F.arccosCell (.fin c') = .nan := by
      unfold TrigMath.arccosCell
      dsimp only
      rw [if_neg (fun h => h1 h.2)]
    have hsz : F.sinCell .nan = .nan := rfl
    rw [hz, hsz, XF.mul_nan]
    have e3 : ((XF.nan : XF ℝ).rnd F.fl) = .nan := rfl
    rw [e3, XF.nan_mul]
    exact hnan

/-- the clipped sine of the height and the west component -/
theorem clip_unit (lon lat tz : ℝ) (t : Time) :
    max (sinHeight lon lat tz t) 0 ^ 2 + sunWest lon tz t ^ 2 + sunSouth lon lat tz t ^ 2 ≤ 1 := by
  have hu := sun_unit lon lat tz t
  rcases le_total (sinHeight lon lat tz t) 0 with h | h
  · rw [max_eq_right h]
    nlinarith [sq_nonneg (sinHeight lon lat tz t)]
  · rw [max_eq_left h]
    linarith

/-- no missing value when the sun is not due east or west -/
theorem in_domain (hF : DoubleTrig F) {c' c num W S : ℝ} (h0 : 0 ≤ c') (hc0 : 0 ≤ c) (hc : Nr 3e-14 1 c' c) (hw : Nr 2.2e-14 1 num W)
    (hu : c ^ 2 + W ^ 2 + S ^ 2 ≤ 1) (hS : 1e-6 ≤ |S|) :
    c' ≤ 1 ∧ 0 < F.sin (F.arccos c') ∧ -1 ≤ F.fl (num / F.sin (F.arccos c')) ∧ F.fl (num / F.sin (F.arccos c')) ≤ 1 := by
  have hS2 : (1e-12 : ℝ) ≤ S ^ 2 := by
    rw [← sq_abs]
    calc (1e-12 : ℝ) = (1e-6) ^ 2 := by norm_num
      _ ≤ |S| ^ 2 := pow_le_pow_left₀ (by norm_num) hS 2
  have hcc := hc.sqr.1
  have hww := hw.sqr.1
  have h1 : c' ≤ 1 := by
    by_contra h
    have : 1 < c' ^ 2 := by nlinarith
    have h2 := (abs_le.1 hcc).2
    have := sq_nonneg W
    norm_num at h2 hS2
    linarith
  have hz := sz_sq hF h0 h1 hc
  have hs0 := (sz_near hF h0 h1).1
  have hlt : num ^ 2 < F.sin (F.arccos c') ^ 2 := by
    have a := (abs_le.1 hz).1
    have b := (abs_le.1 hww).2
    norm_num at *; linarith
  have hs : 0 < F.sin (F.arccos c') := by
    rcases hs0.lt_or_eq with h | h
    · exact h
    · rw [← h] at hlt
      nlinarith [sq_nonneg num]
  have habs := abs_le.1 (abs_le_of_sq_le_sq hlt.le hs0)
  refine ⟨h1, hs, ?_, ?_⟩
  · have := roundBits_mono (p := 53) (by norm_num) (show -1 ≤ num / F.sin (F.arccos c') by rw [le_div_iff₀ hs]; linarith [habs.1])
    rw [roundBits_neg, roundBits_one (by norm_num)] at this
    rwa [hF.fl]
  · have := roundBits_mono (p := 53) (by norm_num) (show num / F.sin (F.arccos c') ≤ 1 by rw [div_le_one hs]; exact habs.2)
    rw [roundBits_one (by norm_num)] at this
    rwa [hF.fl]

theorem ratio_lower (doy : Int) : 0.9 ≤ radiusRatio doy := by
  unfold radiusRatio
  dsimp only
  have a2 := Real.neg_one_le_cos (2 * Real.pi * ((doy : ℝ) / 365.25))
  have b2 := Real.neg_one_le_sin (2 * Real.pi * ((doy : ℝ) / 365.25))
  have c2 := Real.neg_one_le_cos (2 * (2 * Real.pi * ((doy : ℝ) / 365.25)))
  have d2 := Real.neg_one_le_sin (2 * (2 * Real.pi * ((doy : ℝ) / 365.25)))
  norm_num at *; linarith

theorem flux_near (hF : DoubleTrig F) (t : Time) :
    Nr 2.1e-12 1417 (F.fl (1367 * radiusRatioR F (doyOf t))) (1367 * radiusRatio (doyOf t)) ∧ 0 < F.fl (1367 * radiusRatioR F (doyOf t)) := by
  rw [hF.fl]
  have hr := ratio_near hF t
  refine ⟨(((Nr.num (x := 1367) (by norm_num)).mul hr).weaken (e' := 1.92e-12) (B' := 1417) (by norm_num) (by norm_num)).fl (by norm_num), ?_⟩
  apply rb_pos
  have h1 := (abs_le.1 hr.1).1
  have h2 := ratio_lower (doyOf t)
  have : 0 < radiusRatioR F (doyOf t) := by norm_num at *; linarith
  positivity

theorem directFactor_near (hF : DoubleTrig F) (t : Time) {c' c k : ℝ} (hc : Nr 3e-14 1 c' c) (k0 : 0 ≤ k) (k1 : k ≤ 1) :
    Nr 1.12e-11 1134 (F.fl (F.fl (1367 * radiusRatioR F (doyOf t)) * F.fl (F.fl (F.fl 0.6 + F.fl (F.fl 0.2 * c')) * F.fl (1 - k))))
      (1367 * radiusRatio (doyOf t) * ((0.6 + 0.2 * c) * (1 - k))) := by
  have hs := (flux_near hF t).1
  rw [hF.fl] at hs ⊢
  have l6 := (Nr.num (x := (0.6 : ℝ)) (by norm_num)).fl (e' := 7.3e-17) (by norm_num)
  have l2 := (Nr.num (x := (0.2 : ℝ)) (by norm_num)).fl (e' := 2.5e-17) (by norm_num)
  have a := ((l2.mul hc).weaken (e' := 6.03e-15) (B' := 0.2) (by norm_num) (by norm_num)).fl (e' := 6.1e-15) (by norm_num)
  have b := ((l6.add a).weaken (e' := 6.2e-15) (B' := 0.8) (by norm_num) (by norm_num)).fl (e' := 6.3e-15) (by norm_num)
  have d := (Nr.const (x := 1 - k) (B := 1) (abs_le.2 ⟨by linarith, by linarith⟩)).fl (e' := 1.2e-16) (by norm_num)
  have f := ((b.mul d).weaken (e' := 6.4e-15) (B' := 0.8) (by norm_num) (by norm_num)).fl (e' := 6.5e-15) (by norm_num)
  exact ((hs.mul f).weaken (e' := 1.1e-11) (B' := 1134) (by norm_num) (by norm_num)).fl (by norm_num)

theorem diffuse_near (hF : DoubleTrig F) (t : Time) {c' c k : ℝ} (hc : Nr 3e-14 1 c' c) (k0 : 0 ≤ k) (k1 : k ≤ 1) :
    Nr 2.3e-11 567 (F.fl (F.fl (F.fl (1367 * radiusRatioR F (doyOf t)) * F.fl (F.fl (F.fl 0.3 + F.fl (F.fl 0.1 * c')) * k)) * c'))
      (1367 * radiusRatio (doyOf t) * ((0.3 + 0.1 * c) * k) * c) := by
  have hs := (flux_near hF t).1
  rw [hF.fl] at hs ⊢
  have l6 := (Nr.num (x := (0.3 : ℝ)) (by norm_num)).fl (e' := 3.7e-17) (by norm_num)
  have l2 := (Nr.num (x := (0.1 : ℝ)) (by norm_num)).fl (e' := 1.25e-17) (by norm_num)
  have a := ((l2.mul hc).weaken (e' := 3.02e-15) (B' := 0.1) (by norm_num) (by norm_num)).fl (e' := 3.05e-15) (by norm_num)
  have b := ((l6.add a).weaken (e' := 3.1e-15) (B' := 0.4) (by norm_num) (by norm_num)).fl (e' := 3.2e-15) (by norm_num)
  have d := Nr.const (x := k) (B := 1) (abs_le.2 ⟨by linarith, by linarith⟩)
  have f := ((b.mul d).weaken (e' := 3.2e-15) (B' := 0.4) (by norm_num) (by norm_num)).fl (e' := 3.3e-15) (by norm_num)
  have g := ((hs.mul f).weaken (e' := 5.6e-12) (B' := 567) (by norm_num) (by norm_num)).fl (e' := 5.7e-12) (by norm_num)
  exact ((g.mul hc).weaken (e' := 2.28e-11) (B' := 567) (by norm_num) (by norm_num)).fl (by norm_num)

theorem diffuse_sign (hF : DoubleTrig F) (t : Time) {c' k : ℝ} (hc : 0 ≤ c') (k0 : 0 ≤ k) :
    0 ≤ F.fl (F.fl (F.fl (1367 * radiusRatioR F (doyOf t)) * F.fl (F.fl (F.fl 0.3 + F.fl (F.fl 0.1 * c')) * k)) * c') ∧
    (0 < c' → 0 < k → 0 < F.fl (F.fl (F.fl (1367 * radiusRatioR F (doyOf t)) * F.fl (F.fl (F.fl 0.3 + F.fl (F.fl 0.1 * c')) * k)) * c')) := by
  have hs := (flux_near hF t).2
  rw [hF.fl] at hs ⊢
  have h3 : 0 < roundBits 53 (0.3 : ℝ) := rb_pos (by norm_num)
  have h1 : 0 < roundBits 53 (0.1 : ℝ) := rb_pos (by norm_num)
  have ha : 0 < roundBits 53 (roundBits 53 0.3 + roundBits 53 (roundBits 53 0.1 * c')) :=
    rb_pos (add_pos_of_pos_of_nonneg h3 (rb_nonneg (mul_nonneg h1.le hc)))
  exact ⟨rb_nonneg (mul_nonneg (rb_nonneg (mul_nonneg hs.le (rb_nonneg (mul_nonneg ha.le k0)))) hc),
    fun hc hk => rb_pos (mul_pos (rb_pos (mul_pos hs (rb_pos (mul_pos ha hk)))) hc)⟩

theorem direct_pos (hF : DoubleTrig F) (t : Time) {c' : ℝ} (hc : 0 ≤ c') :
    0 < F.fl (F.fl (1367 * radiusRatioR F (doyOf t)) * F.fl (F.fl (F.fl 0.6 + F.fl (F.fl 0.2 * c')) * F.fl (1 - 0))) := by
  have hs := (flux_near hF t).2
  rw [hF.fl] at hs ⊢
  have h3 : 0 < roundBits 53 (0.6 : ℝ) := rb_pos (by norm_num)
  have h1 : 0 < roundBits 53 (0.2 : ℝ) := rb_pos (by norm_num)
  have ha : 0 < roundBits 53 (roundBits 53 0.6 + roundBits 53 (roundBits 53 0.2 * c')) :=
    rb_pos (add_pos_of_pos_of_nonneg h3 (rb_nonneg (mul_nonneg h1.le hc)))
  exact rb_pos (mul_pos hs (rb_pos (mul_pos ha (rb_pos (by norm_num)))))

/-- the cosine of the incidence angle on a horizontal surface -/
theorem incidence_flat (hF : DoubleTrig F) (c' s m : ℝ) :
    F.fl (F.fl (F.cos 0 * c') + F.fl (F.fl (F.sin 0 * s) * m)) = F.fl c' := by
  rw [hF.cos_zero, hF.sin_zero, hF.fl, zero_mul, rb_zero, zero_mul, rb_zero, add_zero, one_mul, roundBits_idem (by norm_num)]

/-- **C134, same algorithm.**  With exact operations this is the function of the other properties. -/
theorem C134_exact (dates : List Time) (lon lat tz slope azimuth k : ℝ) :
    potentialRadiationSplitR TrigMath.exact dates lon lat tz slope azimuth k = potentialRadiationSplit dates lon lat tz slope azimuth k ∧
    potentialRadiationR TrigMath.exact dates lon lat tz slope azimuth k = potentialRadiation dates lon lat tz slope azimuth k := by
  have h : potentialRadiationSplitR TrigMath.exact dates lon lat tz slope azimuth k = potentialRadiationSplit dates lon lat tz slope azimuth k := by
    unfold potentialRadiationSplitR potentialRadiationSplit
    simp only [potRadCellR_exact]
  refine ⟨h, ?_⟩
  unfold potentialRadiationR potentialRadiation
  rw [h]
  have : ∀ c : XF ℝ, c.rnd TrigMath.exact.fl = c := rndCell_id
  simp only [this]

/-- **C134, slopes.**  In double precision, direct radiation on any slope is missing or a number ≥ 0 within 0.0004 W/m² of the exact value; diffuse radiation is a number ≥ 0
within 1e-10 W/m² of the exact value; nothing is missing as long as the sun is away from the east-west line. -/
theorem C134_slope (hF : DoubleTrig F) (dates : List Time) (lon lat tz slope azimuth k : ℝ) (hlon : |lon| ≤ 360) (hlat : |lat| ≤ 90) (htz : |tz| ≤ 16)
    (haz : |azimuth| ≤ 7) (k0 : 0 ≤ k) (k1 : k ≤ 1) :
    (potentialRadiationSplitR F dates lon lat tz slope azimuth k).map Prod.fst = dates ∧
    ∀ r ∈ potentialRadiationSplitR F dates lon lat tz slope azimuth k,
      (r.2.1 = .nan ∨ ∃ x, r.2.1 = .fin x ∧ 0 ≤ x ∧ |x - directFlux r.1 (max (sinHeight lon lat tz r.1) 0) k
        (onPlane (Real.sqrt (1 - max (sinHeight lon lat tz r.1) 0 ^ 2 - sunWest lon tz r.1 ^ 2)) (sunWest lon tz r.1) (max (sinHeight lon lat tz r.1) 0)
          slope azimuth)| ≤ 4e-4) ∧
      (∃ y, r.2.2 = .fin y ∧ 0 ≤ y ∧ |y - 1367 * orbitRatio r.1 * ((0.3 + 0.1 * max (sinHeight lon lat tz r.1) 0) * k) *
        max (sinHeight lon lat tz r.1) 0| ≤ 1e-10) ∧
      (1e-6 ≤ |sunSouth lon lat tz r.1| → r.2.1 ≠ .nan) := by
  constructor
  · unfold potentialRadiationSplitR
    rw [List.map_map]
    simp [Function.comp_def]
  intro r hr
  unfold potentialRadiationSplitR at hr
  obtain ⟨t, _, rfl⟩ := List.mem_map.1 hr
  dsimp only
  obtain ⟨hz, hw⟩ := cosz_near hF t hlon hlat htz
  have hc := hz.max0
  change Nr 2.2e-14 1 _ (sunWest lon tz t) at hw
  have hu := clip_unit lon lat tz t
  have hc0 : 0 ≤ max (sinHeight lon lat tz t) 0 := le_max_right _ _
  obtain ⟨hdiff, hdir⟩ := potRadCellR_cases hF (doyOf t) (hourOf t) (minuteOf t) lon lat tz slope azimuth k rfl rfl rfl rfl
  have hc0' : 0 ≤ max (cosZenithRawR F (solarDeclineR F (doyOf t)) lat (hourAngleR F (hourOf t) (minuteOf t) lon tz)) 0 := le_max_right _ _
  refine ⟨?_, ⟨_, hdiff, (diffuse_sign hF t hc0' k0).1, ?_⟩, ?_⟩
  · rcases hdir with ⟨⟨h1, h2, h3, h4⟩, e⟩ | ⟨_, e⟩
    · refine .inr ⟨_, e, le_max_right _ _, ?_⟩
      rw [← directFlux_eq _ _ _ _ hc0 k1]
      have hfl : ∀ x, F.fl x = roundBits 53 x := fun x => by rw [hF.fl]
      rw [hfl (_ / _)] at h3 h4
      have hT := horizontal_near hF (az := azimuth) hc0' h1 hc hw (by nlinarith [sq_nonneg (sunSouth lon lat tz t)]) haz h2 h3 h4
      have hsz : |F.sin (F.arccos (max (cosZenithRawR F (solarDeclineR F (doyOf t)) lat (hourAngleR F (hourOf t) (minuteOf t) lon tz)) 0))| ≤ 1.01 := by
        rw [abs_of_pos h2]
        have hr1 := Real.sqrt_le_one.2 (show 1 - max (cosZenithRawR F (solarDeclineR F (doyOf t)) lat (hourAngleR F (hourOf t) (minuteOf t) lon tz)) 0 ^ 2 ≤ 1 by
          nlinarith [sq_nonneg (max (cosZenithRawR F (solarDeclineR F (doyOf t)) lat (hourAngleR F (hourOf t) (minuteOf t) lon tz)) 0)])
        have := (abs_le.1 (sz_near hF hc0' h1).2).2
        norm_num at this ⊢; linarith
      have hm : ∀ x, |F.cos x| ≤ 1.01 := fun x =>
        (show Nr 1e-15 1 (F.cos x) (Real.cos x) from ⟨hF.cos_err _, Real.abs_cos_le_one _⟩).abs_le.trans (by norm_num)
      have hi := incidence_near hF (slope := slope) hc hsz (hm _) hT (by
        have hS := Real.sq_sqrt (show 0 ≤ 1 - max (sinHeight lon lat tz t) 0 ^ 2 - sunWest lon tz t ^ 2 by
          nlinarith [sq_nonneg (sunSouth lon lat tz t)])
        generalize Real.sqrt (1 - max (sinHeight lon lat tz t) 0 ^ 2 - sunWest lon tz t ^ 2) = S at *
        have := Real.sin_sq_add_cos_sq azimuth
        nlinarith [sq_nonneg (S * Real.sin azimuth - sunWest lon tz t * Real.cos azimuth)])
      have hd := directFactor_near hF t hc k0 k1
      have hp := ((hd.mul hi).weaken (e' := 3.83e-4) (B' := 1134) (by norm_num) (by norm_num)).fl (e' := 3.84e-4) (by norm_num)
      have hfin := hp.max0.1
      rw [hF.fl] at hfin ⊢
      have eo : onPlane (Real.sqrt (1 - max (sinHeight lon lat tz t) 0 ^ 2 - sunWest lon tz t ^ 2)) (sunWest lon tz t) (max (sinHeight lon lat tz t) 0)
          slope azimuth = Real.cos slope * max (sinHeight lon lat tz t) 0 + Real.sin slope *
            (Real.sqrt (1 - max (sinHeight lon lat tz t) 0 ^ 2 - sunWest lon tz t ^ 2) * Real.cos azimuth + sunWest lon tz t * Real.sin azimuth) := by
        unfold onPlane; ring
      rw [eo]
      exact hfin.trans (by norm_num)
    · exact .inl e
  · rw [← orbitRatio_eq]
    exact (diffuse_near hF t hc k0 k1).1.trans (by norm_num)
  · intro hS
    have hdom := in_domain hF hc0' hc0 hc hw hu hS
    rcases hdir with ⟨_, e⟩ | ⟨h, _⟩
    · rw [e]
      intro h
      cases h
    · exact absurd hdom h

/-- the cosine of the incidence angle of the exact function -/
theorem cosIncidence_clip (lon lat tz slope azimuth : ℝ) (t : Time) (h1 : sinHeight lon lat tz t < 1) :
    cosIncidence lon lat tz slope azimuth t = onPlane (Real.sqrt (1 - max (sinHeight lon lat tz t) 0 ^ 2 - sunWest lon tz t ^ 2)) (sunWest lon tz t)
      (max (sinHeight lon lat tz t) 0) slope azimuth := by
  have hu := clip_unit lon lat tz t
  have hc0 : 0 ≤ max (sinHeight lon lat tz t) 0 := le_max_right _ _
  have hc1 : max (sinHeight lon lat tz t) 0 < 1 := max_lt h1 one_pos
  unfold cosIncidence sunAzimuth
  have hs : 0 < Real.sin (Real.arccos (max (sinHeight lon lat tz t) 0)) := by
    rw [Real.sin_arccos]
    exact Real.sqrt_pos.2 (by nlinarith)
  have hsq : Real.sin (Real.arccos (max (sinHeight lon lat tz t) 0)) ^ 2 = 1 - max (sinHeight lon lat tz t) 0 ^ 2 := by
    rw [Real.sin_arccos, Real.sq_sqrt (by nlinarith)]
  change Real.cos slope * max (sinHeight lon lat tz t) 0 + Real.sin slope * Real.sin (Real.arccos (max (sinHeight lon lat tz t) 0)) *
    Real.cos (Real.arcsin (sunWest lon tz t / Real.sin (Real.arccos (max (sinHeight lon lat tz t) 0))) - azimuth) = _
  have hS := Real.sq_sqrt (show 0 ≤ 1 - max (sinHeight lon lat tz t) 0 ^ 2 - sunWest lon tz t ^ 2 by nlinarith [sq_nonneg (sunSouth lon lat tz t)])
  have hS0 := Real.sqrt_nonneg (1 - max (sinHeight lon lat tz t) 0 ^ 2 - sunWest lon tz t ^ 2)
  generalize Real.sqrt (1 - max (sinHeight lon lat tz t) 0 ^ 2 - sunWest lon tz t ^ 2) = a at *
  generalize Real.sin (Real.arccos (max (sinHeight lon lat tz t) 0)) = z at *
  generalize sunWest lon tz t = b at *
  generalize max (sinHeight lon lat tz t) 0 = c at *
  have hb := abs_le.1 (abs_le_of_sq_le_sq (show b ^ 2 ≤ z ^ 2 by nlinarith [sq_nonneg a]) hs.le)
  rw [Real.cos_sub, Real.cos_arcsin, Real.sin_arcsin (by rw [le_div_iff₀ hs]; linarith) (by rw [div_le_one hs]; exact hb.2)]
  have hq : Real.sqrt (1 - (b / z) ^ 2) = a / z := by
    rw [show 1 - (b / z) ^ 2 = (a / z) ^ 2 by
      rw [div_pow, div_pow]
      field_simp
      linarith]
    exact Real.sqrt_sq (div_nonneg hS0 hs.le)
  rw [hq]
  unfold onPlane
  field_simp
  ring

/-- **C134, slopes, against the exact function.**  At every date, day or night, with the sun not in the zenith and away from the east-west line. -/
theorem C134_against_exact (hF : DoubleTrig F) (t : Time) (lon lat tz slope azimuth k : ℝ) (hlon : |lon| ≤ 360) (hlat : |lat| ≤ 90) (htz : |tz| ≤ 16)
    (haz : |azimuth| ≤ 7) (k0 : 0 ≤ k) (k1 : k ≤ 1) (h1 : sinHeight lon lat tz t < 1) (hS : 1e-6 ≤ |sunSouth lon lat tz t|) :
    ∃ x y x' y', potentialRadiationSplit [t] lon lat tz slope azimuth k = [(t, .fin x, .fin y)] ∧
      potentialRadiationSplitR F [t] lon lat tz slope azimuth k = [(t, .fin x', .fin y')] ∧ |x' - x| ≤ 4e-4 ∧ |y' - y| ≤ 1e-10 := by
  obtain ⟨b1, ⟨y', b2, _, b3⟩, b4⟩ := (C134_slope hF [t] lon lat tz slope azimuth k hlon hlat htz haz k0 k1).2 _ (List.mem_map.2 ⟨t, by simp, rfl⟩)
  rcases b1 with b1 | ⟨x', b1, _, b5⟩
  · exact absurd b1 (b4 hS)
  have e := potRadCell_fin lon lat tz slope azimuth k t h1
  rw [directFlux_eq _ _ _ _ (le_max_right _ _) k1, cosIncidence_clip _ _ _ _ _ _ h1, orbitRatio_eq] at e
  dsimp only at b1 b2 b3 b5
  exact ⟨_, _, x', y', by unfold potentialRadiationSplit; rw [List.map_cons, List.map_nil, e],
    by unfold potentialRadiationSplitR; rw [List.map_cons, List.map_nil, ← Prod.mk.eta (p := potRadCellR _ _ _ _ _ _ _ _ _ _), b1, b2], b5, b3⟩

/-- **C134, horizontal.**  In double precision, potential radiation on a horizontal surface is missing or a number ≥ 0 within 1e-10 W/m² of the exact value.  It is 0 once the
sun is 1e-13 below the horizon and positive once it is 1e-13 above it (sine of the height); nothing is missing as long as the sun is away from the east-west line. -/
theorem C134_horizontal (hF : DoubleTrig F) (dates : List Time) (lon lat tz azimuth k : ℝ) (hlon : |lon| ≤ 360) (hlat : |lat| ≤ 90) (htz : |tz| ≤ 16)
    (k0 : 0 ≤ k) (k1 : k ≤ 1) :
    (potentialRadiationR F dates lon lat tz 0 azimuth k).index = dates ∧
    ∀ r ∈ potentialRadiationR F dates lon lat tz 0 azimuth k,
      (r.2 = .nan ∨ ∃ y, r.2 = .fin y ∧ 0 ≤ y ∧ |y - 1367 * orbitRatio r.1 * max (sinHeight lon lat tz r.1) 0 *
          ((0.6 + 0.2 * max (sinHeight lon lat tz r.1) 0) * (1 - k) + (0.3 + 0.1 * max (sinHeight lon lat tz r.1) 0) * k)| ≤ 1e-10 ∧
        (sinHeight lon lat tz r.1 ≤ -1e-13 → y = 0) ∧ (1e-13 ≤ sinHeight lon lat tz r.1 → 0 < y)) ∧
      (1e-6 ≤ |sunSouth lon lat tz r.1| → r.2 ≠ .nan) := by
  constructor
  · unfold potentialRadiationR potentialRadiationSplitR Series.index
    rw [List.map_map, List.map_map]
    simp [Function.comp_def]
  intro r hr
  unfold potentialRadiationR potentialRadiationSplitR at hr
  rw [List.map_map] at hr
  obtain ⟨t, _, rfl⟩ := List.mem_map.1 hr
  simp only [Function.comp_def]
  obtain ⟨hz, hw⟩ := cosz_near hF t hlon hlat htz
  have hc := hz.max0
  change Nr 2.2e-14 1 _ (sunWest lon tz t) at hw
  have hu := clip_unit lon lat tz t
  have hc0 : 0 ≤ max (sinHeight lon lat tz t) 0 := le_max_right _ _
  obtain ⟨hdiff, hdir⟩ := potRadCellR_cases hF (doyOf t) (hourOf t) (minuteOf t) lon lat tz 0 azimuth k rfl rfl rfl rfl
  have hc0' : 0 ≤ max (cosZenithRawR F (solarDeclineR F (doyOf t)) lat (hourAngleR F (hourOf t) (minuteOf t) lon tz)) 0 := le_max_right _ _
  rw [hdiff]
  constructor
  · rcases hdir with ⟨_, e⟩ | ⟨_, e⟩
    · refine .inr ⟨_, by rw [e, XF.fin_add_fin]; rfl, ?_⟩
      rw [incidence_flat hF]
      have hsgn := diffuse_sign hF t hc0' k0
      have hpos0 := direct_pos hF t hc0'
      have hcz1 := (abs_le.1 hz.1).1
      have hcz2 := (abs_le.1 hz.1).2
      refine ⟨?_, ?_, ?_, ?_⟩
      · rw [hF.fl] at hsgn ⊢
        exact rb_nonneg (add_nonneg (le_max_right _ _) hsgn.1)
      · have hd := directFactor_near hF t hc k0 k1
        have hf := diffuse_near hF t hc k0 k1
        rw [hF.fl] at hd hf ⊢
        have hi := hc.fl (e' := 3.1e-14) (by norm_num)
        have hp := ((hd.mul hi).weaken (e' := 4.7e-11) (B' := 1134) (by norm_num) (by norm_num)).fl (e' := 4.75e-11) (by norm_num)
        have hx := (((hp.max0).add hf).weaken (e' := 7.1e-11) (B' := 1701) (by norm_num) (by norm_num)).fl (e' := 7.2e-11) (by norm_num)
        have hA : 0 ≤ 1367 * radiusRatio (doyOf t) * ((0.6 + 0.2 * max (sinHeight lon lat tz t) 0) * (1 - k)) * max (sinHeight lon lat tz t) 0 := by
          have : 0 ≤ 1 - k := by linarith
          have := (radiusRatio_bounds (doyOf t)).1
          positivity
        have hx1 := hx.1
        rw [max_eq_left hA] at hx1
        rw [← orbitRatio_eq]
        rw [show 1367 * radiusRatio (doyOf t) * max (sinHeight lon lat tz t) 0 * ((0.6 + 0.2 * max (sinHeight lon lat tz t) 0) * (1 - k) +
            (0.3 + 0.1 * max (sinHeight lon lat tz t) 0) * k) =
          1367 * radiusRatio (doyOf t) * ((0.6 + 0.2 * max (sinHeight lon lat tz t) 0) * (1 - k)) * max (sinHeight lon lat tz t) 0 +
          1367 * radiusRatio (doyOf t) * ((0.3 + 0.1 * max (sinHeight lon lat tz t) 0) * k) * max (sinHeight lon lat tz t) 0 by ring]
        exact hx1.trans (by norm_num)
      · intro hneg
        have h0 : max (cosZenithRawR F (solarDeclineR F (doyOf t)) lat (hourAngleR F (hourOf t) (minuteOf t) lon tz)) 0 = 0 := by
          apply max_eq_right
          norm_num at hcz2 hneg ⊢
          linarith
        rw [h0]
        have hz0 : F.fl 0 = 0 := by rw [hF.fl]; exact rb_zero
        rw [mul_zero, mul_zero, hz0, mul_zero, hz0, max_self, add_zero, hz0]
      · intro hp
        have hcp : 0 < max (cosZenithRawR F (solarDeclineR F (doyOf t)) lat (hourAngleR F (hourOf t) (minuteOf t) lon tz)) 0 := by
          apply lt_max_of_lt_left
          norm_num at hcz1 hp ⊢
          linarith
        generalize max (cosZenithRawR F (solarDeclineR F (doyOf t)) lat (hourAngleR F (hourOf t) (minuteOf t) lon tz)) 0 = c' at *
        rw [hF.fl] at hsgn hpos0 ⊢
        apply rb_pos
        rcases k0.lt_or_eq with hk | hk
        · exact add_pos_of_nonneg_of_pos (le_max_right _ _) (hsgn.2 hcp hk)
        · apply add_pos_of_pos_of_nonneg _ hsgn.1
          apply lt_max_of_lt_left
          rw [← hk]
          exact rb_pos (mul_pos hpos0 (rb_pos hcp))
    · left
      rw [e, XF.nan_add]
      rfl
  · intro hS
    have hdom := in_domain hF hc0' hc0 hc hw hu hS
    rcases hdir with ⟨_, e⟩ | ⟨h, _⟩
    · rw [e, XF.fin_add_fin]
      intro h
      cases h
    · exact absurd hdom h

/-! ### cases that meet the hypotheses -/

/-- such an arithmetic exists: correctly rounded functions -/
theorem doubleTrig_exists : DoubleTrig ⟨roundBits 53, fun x => roundBits 53 (Real.sin x), fun x => roundBits 53 (Real.cos x), fun x => roundBits 53 (Real.arcsin x),
    fun x => roundBits 53 (Real.arccos x), roundBits 53 Real.pi⟩ := by
  have key : ∀ x B : ℝ, |x| ≤ B → B ≤ 3.2 → |roundBits 53 x - x| ≤ 1e-15 := fun x B h hB => ((Nr.const (h.trans hB)).fl (e' := 1e-15) (by norm_num)).1
  have hpi := Real.pi_lt_d2
  have hpi0 := Real.pi_pos
  refine ⟨rfl, rfl, fun x => key _ 1 (Real.abs_sin_le_one x) (by norm_num), fun x => key _ 1 (Real.abs_cos_le_one x) (by norm_num), fun x _ _ => ?_, fun x _ _ => ?_, ?_, ?_,
    fun x _ _ => rb_nonneg (Real.arccos_nonneg x), fun x h0 h1 => rb_nonneg (Real.sin_nonneg_of_nonneg_of_le_pi h0 (by linarith [Real.pi_gt_three]))⟩
  · apply key _ 3.2 _ (le_refl _)
    have a := Real.neg_pi_div_two_le_arcsin x
    have b := Real.arcsin_le_pi_div_two x
    exact abs_le.2 ⟨by norm_num at *; linarith, by norm_num at *; linarith⟩
  · apply key _ 3.2 _ (le_refl _)
    rw [abs_of_nonneg (Real.arccos_nonneg x)]
    exact (Real.arccos_le_pi x).trans (by norm_num at *; linarith)
  · show roundBits 53 (Real.sin 0) = 0
    rw [Real.sin_zero, rb_zero]
  · show roundBits 53 (Real.cos 0) = 1
    rw [Real.cos_zero, roundBits_one (by norm_num)]

/-- noon on 1 January 1970 at 47 degrees north: the sun is up and away from the east-west line -/
example : 1e-6 ≤ |sunSouth 0 47 0 (atHour 0 12)| ∧ 1e-13 ≤ sinHeight 0 47 0 (atHour 0 12) ∧ sinHeight 0 47 0 (atHour 0 12) < 1 := by
  have hn := solarTime_noon
  have hpi := Real.pi_gt_three
  have hd := abs_le.1 (decl_tropic (atHour 0 12))
  have hs : sunSouth 0 47 0 (atHour 0 12) = Real.sin (47 * (Real.pi / 180) - decl (atHour 0 12)) := by
    unfold sunSouth
    rw [hn, sub_self, zero_mul, Real.cos_zero, mul_one, ← Real.sin_sub]
  have hh : sinHeight 0 47 0 (atHour 0 12) = Real.cos (47 * (Real.pi / 180) - decl (atHour 0 12)) := by
    unfold sinHeight
    rw [hn, sub_self, zero_mul, Real.cos_zero, mul_one, add_comm, ← Real.cos_sub]
  have hdoy : doyOf (atHour 0 12) = 1 := by decide
  have hlo : 23.5 * (Real.pi / 180) ≤ 47 * (Real.pi / 180) - decl (atHour 0 12) := by nlinarith
  have hhi : 47 * (Real.pi / 180) - decl (atHour 0 12) ≤ 71 * (Real.pi / 180) := by nlinarith
  generalize 47 * (Real.pi / 180) - decl (atHour 0 12) = a at *
  have hsin : 1e-6 ≤ Real.sin a := by
    have := Real.mul_le_sin (x := a) (by nlinarith) (by nlinarith)
    refine le_trans ?_ this
    rw [div_mul_eq_mul_div, le_div_iff₀ Real.pi_pos]
    norm_num at *
    nlinarith
  have hcos : 1e-13 ≤ Real.cos a := by
    rw [← Real.sin_pi_div_two_sub]
    have := Real.mul_le_sin (x := Real.pi / 2 - a) (by nlinarith) (by nlinarith)
    refine le_trans ?_ this
    rw [div_mul_eq_mul_div, le_div_iff₀ Real.pi_pos]
    norm_num at *
    nlinarith
  rw [hs, hh]
  refine ⟨hsin.trans (le_abs_self _), hcos, ?_⟩
  have := Real.sin_sq_add_cos_sq a
  have h0 : (0 : ℝ) < Real.sin a := lt_of_lt_of_le (by norm_num) hsin
  nlinarith

end

end Melodist
