import Verif.Lemmas.SunNearB
import Verif.Props.PotRadRound

/-!
# C135: sun times in floating-point arithmetic
-/

set_option linter.unusedSectionVars false

namespace Melodist
open Spec

noncomputable section

theorem sunTimesDoyR_exact (doy : Int) (lon lat tz : ℝ) : sunTimesDoyR SunMath.exact doy lon lat tz = sunTimesDoy doy lon lat tz := by
  have h0 : ∀ x : ℝ, SunMath.exact.fl x = x := fun _ => rfl
  have h4 : ∀ c : XF ℝ, SunMath.exact.arccosCell c = XF.arccos c := by intro c; cases c <;> rfl
  have h5 : ∀ c : XF ℝ, c.rnd SunMath.exact.fl = c := rndCell_id
  have hd : declinationR SunMath.exact.toTrigMath doy = declination doy := rfl
  have he : eqTimeR SunMath.exact.toTrigMath doy = eqTime doy := rfl
  have hr : deg2radR SunMath.exact.toTrigMath lat = deg2rad lat := rfl
  unfold sunTimesDoyR sunTimesDoy
  simp only [h0, h4, h5, hd, he, hr]
  rfl

/-- **C135** (what the rounded function rounds): with exact operations it is `get_sun_times`; each row depends on its own date only. -/
theorem C135_exact (F : SunMath) (dates : List Time) (lon lat tz : ℝ) :
    getSunTimesR SunMath.exact dates lon lat tz = getSunTimes dates lon lat tz ∧
    getSunTimesR F dates lon lat tz = dates.flatMap fun t => getSunTimesR F [t] lon lat tz := by
  constructor
  · unfold getSunTimesR getSunTimes
    exact List.map_congr_left fun t _ => by rw [sunTimesDoyR_exact]
  · unfold getSunTimesR
    induction dates with
    | nil => rfl
    | cons a l ih => rw [List.map_cons, List.flatMap_cons, ih]; rfl

/-- the parts of the computed row -/
theorem row_parts {F : SunMath} (hF : DoubleTan F) (t : Time) {lon tz : ℝ} (lat : ℝ) (hlon : |lon| ≤ 360) (htz : |tz| ≤ 16) :
    ∃ r n s : ℝ, getSunTimesR F [t] lon lat tz =
        [(t, ⟨.fin (if r < 0 then roundBits 53 (r + 24) else r), .fin n, .fin (if 24 < s then roundBits 53 (s - 24) else s), .fin (roundBits 53 (s - r))⟩)] ∧
      r ≤ n ∧ n ≤ s ∧ |n - noonAt (doyOf t) lon tz| ≤ 3.5e-14 ∧ |noonAt (doyOf t) lon tz| ≤ 52.35 ∧
      |r - (noonAt (doyOf t) lon tz - 12 * (Real.arccos (sunArgR F (doyOf t) lat) / Real.pi))| ≤ 6e-14 ∧
      |s - (noonAt (doyOf t) lon tz + 12 * (Real.arccos (sunArgR F (doyOf t) lat) / Real.pi))| ≤ 6e-14 ∧
      (1 < sunArgR F (doyOf t) lat → r = n ∧ s = n) := by
  have hd := delta_near hF.trig hlon htz
  have he := eqTimeR_near hF.trig t
  have hn := noonR_near hF.trig hd he
  have e0 : 12 - (lon - tz * 15) * 24 / 360 - eqTime (doyOf t) = noonAt (doyOf t) lon tz := by unfold noonAt; ring
  have hr := rise_near hF.trig hd he (a := sunArgR F (doyOf t) lat)
  have hs := set_near hF.trig hd he (a := sunArgR F (doyOf t) lat)
  rw [e0] at hr hs hn
  have heq := sunTimesDoyR_eq F (pi_ne hF.trig) (doyOf t) lon lat tz (a := sunArgR F (doyOf t) lat) rfl rfl rfl
  have hfl : F.fl = roundBits 53 := hF.trig.fl
  have hid : F.fl (noonR F.toTrigMath (deltaR F.toTrigMath lon tz) (eqTimeR F.toTrigMath (doyOf t))) =
      noonR F.toTrigMath (deltaR F.toTrigMath lon tz) (eqTimeR F.toTrigMath (doyOf t)) := by
    unfold noonR
    rw [hfl, roundBits_idem (by norm_num)]
  have ho := rise_le_noon hF.trig (sunArgR F (doyOf t) lat) _ _ hid
  refine ⟨riseR F.toTrigMath (sunArgR F (doyOf t) lat) (deltaR F.toTrigMath lon tz) (eqTimeR F.toTrigMath (doyOf t)),
    noonR F.toTrigMath (deltaR F.toTrigMath lon tz) (eqTimeR F.toTrigMath (doyOf t)),
    setR F.toTrigMath (sunArgR F (doyOf t) lat) (deltaR F.toTrigMath lon tz) (eqTimeR F.toTrigMath (doyOf t)), ?_, ho.1, ho.2, hn.1, hn.2, hr.1, hs.1, ?_⟩
  · show [(t, sunTimesDoyR F (doyOf t) lon lat tz)] = _
    rw [heq, hfl]
  · intro h
    have c1 : ¬ sunArgR F (doyOf t) lat < -1 := by linarith
    constructor
    · unfold riseR; rw [if_neg c1, if_pos h]
    · unfold setR; rw [if_neg c1, if_pos h]

theorem dayShare_range (a : ℝ) : 0 ≤ Real.arccos a / Real.pi ∧ Real.arccos a / Real.pi ≤ 1 :=
  ⟨div_nonneg (Real.arccos_nonneg a) Real.pi_pos.le, (div_le_one Real.pi_pos).2 (Real.arccos_le_pi a)⟩

/-- **C135** (never missing): at every latitude, the poles included, `get_sun_times` in double precision gives four numbers; the day length is between 0 and 24
hours up to 1.3e-13 above, solar noon within 4e-14 hours of the exact value, and if it lies on the clock (between 0 and 24) so do rise and set. -/
theorem C135_never_missing {F : SunMath} (hF : DoubleTan F) (t : Time) (lon lat tz : ℝ) (hlon : |lon| ≤ 360) (htz : |tz| ≤ 16) :
    ∃ rise noon set D : ℝ, getSunTimesR F [t] lon lat tz = [(t, ⟨.fin rise, .fin noon, .fin set, .fin D⟩)] ∧ 0 ≤ D ∧ D ≤ 24 + 1.3e-13 ∧
      (∃ n : ℝ, (getSunTimes [t] lon lat tz).map (fun r => r.2.sunnoon) = [.fin n] ∧ |noon - n| ≤ 4e-14) ∧
      (0 ≤ noon → noon ≤ 24 → 0 ≤ rise ∧ rise ≤ 24 ∧ 0 ≤ set ∧ set ≤ 24) := by
  obtain ⟨r, n, s, heq, hrn, hns, hn, hN, hr, hs, -⟩ := row_parts hF t lat hlon htz
  have hsh := dayShare_range (sunArgR F (doyOf t) lat)
  have f24 : roundBits 53 (24 : ℝ) = 24 := by
    have := roundBits_smallint (n := 24) (by norm_num) (by norm_num)
    exact_mod_cast this
  have mono : ∀ {x y : ℝ}, x ≤ y → roundBits 53 x ≤ roundBits 53 y := fun h => roundBits_mono (p := 53) (by norm_num) h
  have hr1 := abs_le.1 hr
  have hs1 := abs_le.1 hs
  have hn1 := abs_le.1 hn
  generalize Real.arccos (sunArgR F (doyOf t) lat) / Real.pi = q at *
  generalize hNN : noonAt (doyOf t) lon tz = N at *
  refine ⟨_, _, _, _, heq, rb_nonneg (by linarith), ?_, ⟨N, ?_, ?_⟩, ?_⟩
  · have h1 : |s - r - 24 * q| ≤ 1.2e-13 := abs_le.2 ⟨by norm_num at hr1 hs1 ⊢; linarith, by norm_num at hr1 hs1 ⊢; linarith⟩
    have h2 := (Nr.fl (B := 24) (e' := 1.25e-13) ⟨h1, abs_le.2 ⟨by linarith, by linarith⟩⟩ (by norm_num)).1
    have := (abs_le.1 h2).2
    norm_num at this ⊢; linarith
  · unfold getSunTimes
    rw [List.map_map, List.map_cons, List.map_nil, Function.comp, sunTimesDoy_eq, hNN]
  · exact hn.trans (by norm_num)
  · intro n0 n24
    refine ⟨?_, ?_, ?_, ?_⟩
    · split_ifs with c
      · apply rb_nonneg
        norm_num at hr1 hn1 ⊢; linarith
      · exact not_lt.1 c
    · split_ifs with c
      · calc _ ≤ roundBits 53 (24 : ℝ) := mono (by linarith)
          _ = 24 := f24
      · linarith
    · split_ifs with c
      · exact rb_nonneg (by linarith)
      · linarith
    · split_ifs with c
      · calc _ ≤ roundBits 53 (24 : ℝ) := mono (by norm_num at hs1 hn1 ⊢; linarith)
          _ = 24 := f24
      · exact not_lt.1 c

theorem dayLen_eq (doy : Int) (lat : ℝ) : dayLen doy lat = 24 * (Real.arccos (sunArg doy lat) / Real.pi) := by
  unfold dayLen
  split_ifs with c1 c2
  · rw [Real.arccos_of_le_neg_one c1.le, div_self Real.pi_pos.ne', mul_one]
  · rw [Real.arccos_of_one_le c2.le, zero_div, mul_zero]
  · rfl

/-- two clock times that differ by at most `e`, up to one revolution of the clock -/
def Spec.sameClock (e x y : ℝ) : Prop := |x - y| ≤ e ∨ |x - y - 24| ≤ e ∨ |x - y + 24| ≤ e

theorem clock_rise {r x e e' : ℝ} (h : |r - x| ≤ e) (hx : |x| ≤ 64.5) (he' : e + 1.2e-16 * (88.5 + e) ≤ e') :
    Spec.sameClock e' (if r < 0 then roundBits 53 (r + 24) else r) (if x < 0 then x + 24 else x) := by
  have h0 : 0 ≤ e := (abs_nonneg _).trans h
  have hw : Nr e' 88.5 (roundBits 53 (r + 24)) (x + 24) := by
    refine Nr.fl ⟨by rwa [add_sub_add_right_eq_sub], ?_⟩ he'
    have := abs_le.1 hx
    exact abs_le.2 ⟨by norm_num at *; linarith, by norm_num at *; linarith⟩
  have hee : e ≤ e' := by norm_num at he' ⊢; linarith
  unfold Spec.sameClock
  split_ifs
  · exact Or.inl hw.1
  · refine Or.inr (Or.inl ?_)
    rw [show roundBits 53 (r + 24) - x - 24 = roundBits 53 (r + 24) - (x + 24) by ring]
    exact hw.1
  · refine Or.inr (Or.inr ?_)
    rw [show r - (x + 24) + 24 = r - x by ring]
    exact h.trans hee
  · exact Or.inl (h.trans hee)

theorem clock_set {r x e e' : ℝ} (h : |r - x| ≤ e) (hx : |x| ≤ 64.5) (he' : e + 1.2e-16 * (88.5 + e) ≤ e') :
    Spec.sameClock e' (if 24 < r then roundBits 53 (r - 24) else r) (if 24 < x then x - 24 else x) := by
  have h0 : 0 ≤ e := (abs_nonneg _).trans h
  have hw : Nr e' 88.5 (roundBits 53 (r - 24)) (x - 24) := by
    refine Nr.fl ⟨by rwa [sub_sub_sub_cancel_right], ?_⟩ he'
    have := abs_le.1 hx
    exact abs_le.2 ⟨by norm_num at *; linarith, by norm_num at *; linarith⟩
  have hee : e ≤ e' := by norm_num at he' ⊢; linarith
  unfold Spec.sameClock
  split_ifs
  · exact Or.inl hw.1
  · refine Or.inr (Or.inr ?_)
    rw [show roundBits 53 (r - 24) - x + 24 = roundBits 53 (r - 24) - (x - 24) by ring]
    exact hw.1
  · refine Or.inr (Or.inl ?_)
    rw [show r - (x - 24) - 24 = r - x by ring]
    exact h.trans hee
  · exact Or.inl (h.trans hee)

/-- errors of the row from the error `g` of the share of the day -/
theorem row_errors {F : SunMath} (hF : DoubleTan F) (t : Time) {lon tz lat g : ℝ} (hlon : |lon| ≤ 360) (htz : |tz| ≤ 16)
    (hg : |Real.arccos (sunArgR F (doyOf t) lat) / Real.pi - Real.arccos (sunArg (doyOf t) lat) / Real.pi| ≤ g) (hg1 : g ≤ 1) :
    ∃ r' n' s' D' r n s D : ℝ, getSunTimesR F [t] lon lat tz = [(t, ⟨.fin r', .fin n', .fin s', .fin D'⟩)] ∧
      getSunTimes [t] lon lat tz = [(t, ⟨.fin r, .fin n, .fin s, .fin D⟩)] ∧
      |D' - D| ≤ 24 * g + 1.3e-13 ∧ Spec.sameClock (12 * g + 1e-13) r' r ∧ Spec.sameClock (12 * g + 1e-13) s' s ∧ |n' - n| ≤ 4e-14 ∧
      |D' - 24 * (Real.arccos (sunArgR F (doyOf t) lat) / Real.pi)| ≤ 1.3e-13 ∧ (1 < sunArgR F (doyOf t) lat → D' = 0) := by
  obtain ⟨r, n, s, heq, hrn, hns, hn, hN, hr, hs, hnight⟩ := row_parts hF t lat hlon htz
  have hsh := dayShare_range (sunArgR F (doyOf t) lat)
  have hsh' := dayShare_range (sunArg (doyOf t) lat)
  have hg0 : 0 ≤ g := (abs_nonneg _).trans hg
  have hex : getSunTimes [t] lon lat tz = [(t, sunTimesDoy (doyOf t) lon lat tz)] := rfl
  rw [sunTimesDoy_eq] at hex
  have hN1 := abs_le.1 hN
  have hg2 := abs_le.1 hg
  have hr1 := abs_le.1 hr
  have hs1 := abs_le.1 hs
  have hday := dayLen_eq (doyOf t) lat
  have hpolar : 1 < sunArgR F (doyOf t) lat → roundBits 53 (s - r) = 0 := by
    intro h
    obtain ⟨a, b⟩ := hnight h
    rw [a, b, sub_self, rb_zero]
  generalize Real.arccos (sunArgR F (doyOf t) lat) / Real.pi = q at *
  generalize Real.arccos (sunArg (doyOf t) lat) / Real.pi = q' at *
  rw [hday] at hex
  generalize noonAt (doyOf t) lon tz = N at *
  have hD : |roundBits 53 (s - r) - 24 * q| ≤ 1.3e-13 := by
    have h1 : |s - r - 24 * q| ≤ 1.2e-13 := abs_le.2 ⟨by norm_num at hr1 hs1 ⊢; linarith, by norm_num at hr1 hs1 ⊢; linarith⟩
    exact (Nr.fl (B := 24) (e' := 1.3e-13) ⟨h1, abs_le.2 ⟨by linarith, by linarith⟩⟩ (by norm_num)).1
  have hc : 12 * g + 6e-14 + 1.2e-16 * (88.5 + (12 * g + 6e-14)) ≤ 12 * g + 1e-13 := by norm_num; linarith
  refine ⟨_, _, _, _, _, _, _, _, heq, hex, ?_, ?_, ?_, hn.trans (by norm_num), hD, hpolar⟩
  · have h1 := abs_le.1 hD
    exact abs_le.2 ⟨by linarith, by linarith⟩
  · refine clock_rise (e := 12 * g + 6e-14) ?_ ?_ hc
    · exact abs_le.2 ⟨by linarith, by linarith⟩
    · exact abs_le.2 ⟨by norm_num at hN1 ⊢; linarith, by norm_num at hN1 ⊢; linarith⟩
  · refine clock_set (e := 12 * g + 6e-14) ?_ ?_ hc
    · exact abs_le.2 ⟨by linarith, by linarith⟩
    · exact abs_le.2 ⟨by norm_num at hN1 ⊢; linarith, by norm_num at hN1 ⊢; linarith⟩

/-- **C135** (accuracy): up to 89.9 degrees latitude the computed day length is within one second of the exact one, and rise and set within half a second on the
clock (the arccosine loses half of the digits near the limits of polar night and midnight sun); up to 60 degrees within 1e-12 hours.  Polar night (the sine of
the solar altitude below -3e-10 all day) gives a day length of exactly 0, midnight sun (above 3e-10 all day) 24 hours up to 1.3e-13. -/
theorem C135_accuracy {F : SunMath} (hF : DoubleTan F) (t : Time) (lon lat tz : ℝ) (hlon : |lon| ≤ 360) (hlat : |lat| ≤ 89.9) (htz : |tz| ≤ 16) :
    ∃ r' n' s' D' r n s D : ℝ, getSunTimesR F [t] lon lat tz = [(t, ⟨.fin r', .fin n', .fin s', .fin D'⟩)] ∧
      getSunTimes [t] lon lat tz = [(t, ⟨.fin r, .fin n, .fin s, .fin D⟩)] ∧
      |n' - n| ≤ 4e-14 ∧ |D' - D| ≤ 1 / 3600 ∧ sameClock (1 / 7200) r' r ∧ sameClock (1 / 7200) s' s ∧
      (|lat| ≤ 60 → |D' - D| ≤ 1e-12 ∧ sameClock 1e-12 r' r ∧ sameClock 1e-12 s' s) ∧
      ((∀ ω, sinAltitude lat (solarDeclination (doyOf t)) ω < -3e-10) → D' = 0) ∧
      ((∀ ω, 3e-10 < sinAltitude lat (solarDeclination (doyOf t)) ω) → |D' - 24| ≤ 1.3e-13) := by
  have hpi := Real.pi_pos
  have ha := arg_near hF t hlat
  have hl1 : -90 < lat := by have := (abs_le.1 hlat).1; norm_num at this; linarith
  have hl2 : lat < 90 := by have := (abs_le.1 hlat).2; norm_num at this; linarith
  have hshare : ∀ x y g : ℝ, |Real.arccos x - Real.arccos y| ≤ Real.pi * g → |Real.arccos x / Real.pi - Real.arccos y / Real.pi| ≤ g := by
    intro x y g h
    rw [← sub_div, abs_div, abs_of_pos hpi, div_le_iff₀ hpi]
    linarith
  have hg : |Real.arccos (sunArgR F (doyOf t) lat) / Real.pi - Real.arccos (sunArg (doyOf t) lat) / Real.pi| ≤ 1.15e-5 := by
    apply hshare
    have h1 := arccos_holder (sunArgR F (doyOf t) lat) (sunArg (doyOf t) lat)
    apply le_of_sq_le_sq _ (by positivity)
    refine h1.trans ?_
    have : Real.pi ^ 2 / 2 * |sunArgR F (doyOf t) lat - sunArg (doyOf t) lat| ≤ Real.pi ^ 2 / 2 * 2.63e-10 := mul_le_mul_of_nonneg_left ha (by positivity)
    refine this.trans ?_
    rw [mul_pow, div_mul_eq_mul_div, mul_div_assoc]
    apply mul_le_mul_of_nonneg_left _ (by positivity)
    norm_num
  obtain ⟨r', n', s', D', r, n, s, D, h1, h2, hD, hr, hs, hn, hday, hnight⟩ := row_errors hF t hlon htz hg (by norm_num)
  have wk : ∀ {e e' x y : ℝ}, sameClock e x y → e ≤ e' → sameClock e' x y := by
    intro e e' x y h hle
    rcases h with h | h | h
    · exact Or.inl (h.trans hle)
    · exact Or.inr (Or.inl (h.trans hle))
    · exact Or.inr (Or.inr (h.trans hle))
  have hcos : 0 < Real.cos (lat * (Real.pi / 180)) * Real.cos (solarDeclination (doyOf t)) := mul_pos (cos_lat_pos hl1 hl2) (cos_declination_pos _)
  have hcos1 : Real.cos (lat * (Real.pi / 180)) * Real.cos (solarDeclination (doyOf t)) ≤ 1 := by
    have a := Real.cos_le_one (lat * (Real.pi / 180))
    have b := Real.cos_le_one (solarDeclination (doyOf t))
    have c := cos_declination_pos (doyOf t)
    nlinarith
  refine ⟨r', n', s', D', r, n, s, D, h1, h2, hn, hD.trans (by norm_num), wk hr (by norm_num), wk hs (by norm_num), ?_, ?_, ?_⟩
  · intro h60
    obtain ⟨a1, a2⟩ := arg_near60 hF t h60
    have a3 : |sunArgR F (doyOf t) lat| ≤ 0.831 := by
      have b1 := abs_le.1 a1
      have b2 := abs_le.1 a2
      exact abs_le.2 ⟨by norm_num at b1 b2 ⊢; linarith, by norm_num at b1 b2 ⊢; linarith⟩
    have sq : ∀ x : ℝ, |x| ≤ 0.831 → (0.55 : ℝ) ^ 2 ≤ 1 - x ^ 2 := by
      intro x hx
      have : |x| ^ 2 ≤ 0.831 ^ 2 := pow_le_pow_left₀ (abs_nonneg _) hx 2
      rw [sq_abs] at this
      norm_num at this ⊢; linarith
    have a4 : |sunArg (doyOf t) lat| ≤ 0.831 := a2.trans (by norm_num)
    have a5 := arccos_lipschitz (m := 0.55) (by norm_num) (a3.trans (by norm_num)) (a4.trans (by norm_num)) (sq _ a3) (sq _ a4)
    have hg' : |Real.arccos (sunArgR F (doyOf t) lat) / Real.pi - Real.arccos (sunArg (doyOf t) lat) / Real.pi| ≤ 1.1e-14 := by
      apply hshare
      refine a5.trans ?_
      refine (mul_le_mul_of_nonneg_left a1 (by positivity)).trans ?_
      norm_num; linarith
    obtain ⟨r₁, n₁, s₁, D₁, r₂, n₂, s₂, D₂, k1, k2, kD, kr, ks, -⟩ := row_errors hF t hlon htz hg' (by norm_num)
    rw [h1] at k1
    rw [h2] at k2
    simp only [List.cons.injEq, Prod.mk.injEq, SunTimes.mk.injEq, XF.fin.injEq, and_true, true_and] at k1 k2
    obtain ⟨rfl, rfl, rfl, rfl⟩ := k1
    obtain ⟨rfl, rfl, rfl, rfl⟩ := k2
    exact ⟨kD.trans (by norm_num), wk kr (by norm_num), wk ks (by norm_num)⟩
  · intro h
    apply hnight
    have h0 := h 0
    rw [sinAltitude_eq hl1 hl2, Real.cos_zero] at h0
    have : 1 + 3e-10 < sunArg (doyOf t) lat := by
      by_contra hc
      have : -3e-10 ≤ 1 - sunArg (doyOf t) lat := by linarith
      have := mul_le_mul_of_nonneg_left this hcos.le
      have : -3e-10 ≤ Real.cos (lat * (Real.pi / 180)) * Real.cos (solarDeclination (doyOf t)) * -3e-10 := by linarith
      linarith
    have := (abs_le.1 ha).1
    norm_num at *; linarith
  · intro h
    have h0 := h Real.pi
    rw [sinAltitude_eq hl1 hl2, Real.cos_pi] at h0
    have h3 : sunArg (doyOf t) lat < -1 - 3e-10 := by
      by_contra hc
      have : -1 - sunArg (doyOf t) lat ≤ 3e-10 := by linarith
      have := mul_le_mul_of_nonneg_left this hcos.le
      have : Real.cos (lat * (Real.pi / 180)) * Real.cos (solarDeclination (doyOf t)) * 3e-10 ≤ 3e-10 := by linarith
      linarith
    have h4 : sunArgR F (doyOf t) lat ≤ -1 := by
      have := (abs_le.1 ha).2
      norm_num at this h3 ⊢; linarith
    rw [Real.arccos_of_le_neg_one h4, div_self hpi.ne', mul_one] at hday
    exact hday

/-! ### cases that meet the hypotheses -/

/-- such an arithmetic exists: correctly rounded functions -/
theorem doubleTan_exists : DoubleTan ⟨⟨roundBits 53, fun x => roundBits 53 (Real.sin x), fun x => roundBits 53 (Real.cos x), fun x => roundBits 53 (Real.arcsin x),
    fun x => roundBits 53 (Real.arccos x), roundBits 53 Real.pi⟩, fun x => roundBits 53 (Real.tan x)⟩ :=
  ⟨doubleTrig_exists, fun x => (roundBits_err (p := 53) _).trans (mul_le_mul_of_nonneg_right (by norm_num) (abs_nonneg _))⟩

/-- a site and a day -/
example : ∃ F : SunMath, DoubleTan F ∧ ∃ D' D : ℝ, (getSunTimesR F [at00 0] 11 47 1).map (fun r => r.2.daylength) = [.fin D'] ∧
    (getSunTimes [at00 0] 11 47 1).map (fun r => r.2.daylength) = [.fin D] ∧ |D' - D| ≤ 1e-12 := by
  refine ⟨_, doubleTan_exists, ?_⟩
  obtain ⟨r', n', s', D', r, n, s, D, h1, h2, -, -, -, -, h60, -⟩ := C135_accuracy doubleTan_exists (at00 0) 11 47 1 (by norm_num [abs_le]) (by norm_num [abs_le]) (by norm_num [abs_le])
  exact ⟨D', D, by rw [h1]; rfl, by rw [h2]; rfl, (h60 (by norm_num [abs_le])).1⟩

/-- 1 January at 85 degrees north: polar night -/
theorem night_january (ω : ℝ) : sinAltitude 85 (solarDeclination (doyOf (at00 0))) ω < -3e-10 := by
  have hpi := Real.pi_pos
  have h3 := Real.pi_gt_three
  have hdoy : doyOf (at00 0) = 1 := by decide
  have hup : solarDeclination (doyOf (at00 0)) ≤ -10 * (Real.pi / 180) := by
    rw [hdoy]
    unfold solarDeclination
    dsimp only
    apply mul_le_mul_of_nonneg_right _ (by positivity)
    set B := (360 / 365.25) * (((1 : Int) : ℝ) - 79.346) * (Real.pi / 180) with hB
    have b1 : -(Real.pi / 2) ≤ B := by rw [hB]; norm_num; linarith
    have b2 : B ≤ -(Real.pi / 6) := by rw [hB]; norm_num; linarith
    have s1 : Real.sin B ≤ -(1 / 2) := by
      have := Real.sin_le_sin_of_le_of_le_pi_div_two b1 (by linarith) b2
      rwa [Real.sin_neg, Real.sin_pi_div_six] at this
    have c1 : 0 ≤ Real.cos B := Real.cos_nonneg_of_neg_pi_div_two_le_of_le b1 (by linarith)
    have c2 := Real.sin_le_one (2 * B)
    have d2 := Real.cos_le_one (2 * B)
    have e1 := Real.neg_one_le_sin (3 * B)
    have f2 := Real.cos_le_one (3 * B)
    norm_num; linarith
  have hlo := (abs_le.1 (abs_declination_le (doyOf (at00 0)))).1
  have hcd := cos_declination_pos (doyOf (at00 0))
  generalize solarDeclination (doyOf (at00 0)) = δ at *
  have hcl : 0 < Real.cos (85 * (Real.pi / 180)) := cos_lat_pos (by norm_num) (by norm_num)
  have h1 : sinAltitude 85 δ ω ≤ Real.cos (85 * (Real.pi / 180) - δ) := by
    rw [Real.cos_sub]
    unfold sinAltitude
    nlinarith [Real.cos_le_one ω, mul_pos hcl hcd]
  have h2 : Real.cos (85 * (Real.pi / 180) - δ) ≤ -(2 / Real.pi * (85 * (Real.pi / 180) - δ - Real.pi / 2)) := by
    have := Real.mul_le_sin (x := 85 * (Real.pi / 180) - δ - Real.pi / 2) (by linarith) (by norm_num at hlo ⊢; linarith)
    rw [Real.sin_sub_pi_div_two] at this
    linarith
  have h4 : 5 / 90 ≤ 2 / Real.pi * (85 * (Real.pi / 180) - δ - Real.pi / 2) := by
    have : 5 * (Real.pi / 180) ≤ 85 * (Real.pi / 180) - δ - Real.pi / 2 := by linarith
    have := mul_le_mul_of_nonneg_left this (show 0 ≤ 2 / Real.pi by positivity)
    refine le_trans (le_of_eq ?_) this
    field_simp
    norm_num
  norm_num at h4 ⊢
  linarith

/-- the computed day length there is exactly 0 -/
example {F : SunMath} (hF : DoubleTan F) : (getSunTimesR F [at00 0] 11 85 1).map (fun r => r.2.daylength) = [.fin 0] := by
  obtain ⟨r', n', s', D', r, n, s, D, h1, h2, -, -, -, -, -, hn, -⟩ := C135_accuracy hF (at00 0) 11 85 1 (by norm_num [abs_le]) (by norm_num [abs_le]) (by norm_num [abs_le])
  rw [h1, ← hn night_january]
  rfl

end

end Melodist
