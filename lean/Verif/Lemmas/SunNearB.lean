import Verif.Lemmas.SunNear
import Mathlib.Analysis.SpecialFunctions.Trigonometric.Bounds

/-!
# Helper lemmas: sun rise, noon and set of `get_sun_times` in rounded arithmetic
-/

set_option linter.unusedSectionVars false

namespace Melodist
open Spec

noncomputable section

variable {F : TrigMath}

/-- computed solar noon from the longitude correction `d` and the equation of time `e` -/
def noonR (F : TrigMath) (d e : ℝ) : ℝ := F.fl (F.fl (12 * 1 - d) - e)

/-- computed sun rise before wrapping -/
def riseR (F : TrigMath) (a d e : ℝ) : ℝ :=
  if a < -1 then F.fl (noonR F d e - 12) else if 1 < a then noonR F d e
  else F.fl (F.fl (F.fl (12 * F.fl (1 - F.fl (F.arccos a / F.pi))) - d) - e)

/-- computed sun set before wrapping -/
def setR (F : TrigMath) (a d e : ℝ) : ℝ :=
  if a < -1 then F.fl (noonR F d e + 12) else if 1 < a then noonR F d e
  else F.fl (F.fl (F.fl (12 * F.fl (1 + F.fl (F.arccos a / F.pi))) - d) - e)

/-- computed argument of the arccosine -/
def sunArgR (F : SunMath) (doy : Int) (lat : ℝ) : ℝ := F.fl (-F.tan (deg2radR F.toTrigMath lat) * F.tan (declinationR F.toTrigMath doy))

/-- computed longitude correction -/
def deltaR (F : TrigMath) (lon tz : ℝ) : ℝ := F.fl (F.fl (F.fl (lon - F.fl (tz * 15)) * 24) / 360)

theorem sunTimesDoyR_eq (F : SunMath) (hp : F.pi ≠ 0) (doy : Int) (lon lat tz : ℝ) {a d e : ℝ} (ha : sunArgR F doy lat = a)
    (hd : deltaR F.toTrigMath lon tz = d) (he : eqTimeR F.toTrigMath doy = e) :
    sunTimesDoyR F doy lon lat tz =
      ⟨.fin (if riseR F.toTrigMath a d e < 0 then F.fl (riseR F.toTrigMath a d e + 24) else riseR F.toTrigMath a d e),
       .fin (noonR F.toTrigMath d e),
       .fin (if 24 < setR F.toTrigMath a d e then F.fl (setR F.toTrigMath a d e - 24) else setR F.toTrigMath a d e),
       .fin (F.fl (setR F.toTrigMath a d e - riseR F.toTrigMath a d e))⟩ := by
  unfold sunArgR at ha
  unfold deltaR at hd
  have hr : ∀ x : ℝ, (XF.fin x).rnd F.fl = XF.fin (F.fl x) := fun _ => rfl
  unfold sunTimesDoyR
  simp only [ha, hd, he, XF.fin_sub_fin, hr]
  have hn : F.fl (F.fl (12 * 1 - d) - e) = noonR F.toTrigMath d e := rfl
  rw [hn]
  by_cases c1 : a < -1
  · have c2 : ¬ 1 < a := by linarith
    have e1 : riseR F.toTrigMath a d e = F.fl (noonR F.toTrigMath d e - 12) := if_pos c1
    have e2 : setR F.toTrigMath a d e = F.fl (noonR F.toTrigMath d e + 12) := if_pos c1
    simp only [if_pos c1, if_neg c2, XF.fin_sub_fin, XF.fin_add_fin, XF.lt_fin, hr, e1, e2]
    congr 1
    · split <;> rfl
    · split <;> rfl
  · by_cases c2 : 1 < a
    · have e1 : riseR F.toTrigMath a d e = noonR F.toTrigMath d e := by unfold riseR; rw [if_neg c1, if_pos c2]
      have e2 : setR F.toTrigMath a d e = noonR F.toTrigMath d e := by unfold setR; rw [if_neg c1, if_pos c2]
      simp only [if_neg c1, if_pos c2, XF.fin_sub_fin, XF.fin_add_fin, XF.lt_fin, hr, e1, e2]
      congr 1
      · split <;> rfl
      · split <;> rfl
    · have e1 : riseR F.toTrigMath a d e = F.fl (F.fl (F.fl (12 * F.fl (1 - F.fl (F.arccos a / F.pi))) - d) - e) := by
        unfold riseR; rw [if_neg c1, if_neg c2]
      have e2 : setR F.toTrigMath a d e = F.fl (F.fl (F.fl (12 * F.fl (1 + F.fl (F.arccos a / F.pi))) - d) - e) := by
        unfold setR; rw [if_neg c1, if_neg c2]
      have ho : F.arccosCell (.fin a) = .fin (F.arccos a) := if_pos ⟨not_lt.1 c1, not_lt.1 c2⟩
      simp only [if_neg c1, if_neg c2, ho, XF.fin_div_fin_of_ne _ hp, XF.fin_sub_fin, XF.fin_add_fin, XF.fin_mul_fin, XF.lt_fin, hr]
      rw [← e1, ← e2]
      congr 1
      · split <;> rfl
      · split <;> rfl

/-- small integers are floating-point numbers -/
theorem roundBits_smallint {n : Int} (h0 : n ≠ 0) (h : |(n : ℝ)| < 2 ^ (53 : Int)) : roundBits 53 (n : ℝ) = n := by
  apply roundBits_grid (k := n) (j := 0) (by simp)
  have hx : (0 : ℝ) < |(n : ℝ)| := abs_pos.2 (by exact_mod_cast h0)
  have := (Int.lt_zpow_iff_log_lt (b := 2) (R := ℝ) (by norm_num) hx (x := 53)).1 (by exact_mod_cast h)
  push_cast
  omega

theorem pi_ne (hF : DoubleTrig F) : F.pi ≠ 0 := by
  rw [hF.pi]
  have := pi_double.1
  intro h
  rw [h] at this
  norm_num at this

section
variable {d' d e' e a : ℝ}

theorem noonR_near (hF : DoubleTrig F) (hd : Nr 1.8e-14 40 d' d) (he : Nr 3.2e-15 0.35 e' e) : Nr 3.5e-14 52.35 (noonR F d' e') (12 - d - e) := by
  unfold noonR
  rw [hF.fl, mul_one]
  have h1 := (((Nr.num (x := 12) (by norm_num)).sub hd).weaken (e' := 1.8e-14) (B' := 52) (by norm_num) (by norm_num)).fl (e' := 2.5e-14) (by norm_num)
  exact ((h1.sub he).weaken (e' := 2.82e-14) (B' := 52.35) (by norm_num) (by norm_num)).fl (by norm_num)

theorem part_near (hF : DoubleTrig F) (h1 : -1 ≤ a) (h2 : a ≤ 1) :
    Nr 6e-16 1.01 (F.fl (F.arccos a / F.pi)) (Real.arccos a / Real.pi) ∧ 0 ≤ F.fl (F.arccos a / F.pi) := by
  have hpi := Real.pi_lt_d2
  have hpi0 := Real.pi_gt_d2
  have hac : Nr 1e-15 3.15 (F.arccos a) (Real.arccos a) := by
    refine ⟨hF.arccos_err a h1 h2, ?_⟩
    rw [abs_of_nonneg (Real.arccos_nonneg a)]
    exact (Real.arccos_le_pi a).trans (by norm_num at hpi ⊢; linarith)
  rw [hF.fl, hF.pi]
  refine ⟨(hac.divpi.weaken (e' := 4.6e-16) (B' := 1.01) (by norm_num) (by norm_num)).fl (by norm_num), ?_⟩
  apply rb_nonneg
  have := pi_double.1
  exact div_nonneg (hF.arccos_nonneg a h1 h2) (by norm_num at this; linarith)

theorem rise_near (hF : DoubleTrig F) (hd : Nr 1.8e-14 40 d' d) (he : Nr 3.2e-15 0.35 e' e) :
    Nr 6e-14 64.5 (riseR F a d' e') (12 - d - e - 12 * (Real.arccos a / Real.pi)) := by
  have hn := noonR_near hF hd he
  have hp := Real.pi_pos.ne'
  unfold riseR
  split_ifs with c1 c2
  · rw [Real.arccos_of_le_neg_one c1.le, div_self hp, mul_one, hF.fl]
    exact ((hn.sub (Nr.num (x := 12) (by norm_num))).weaken (e' := 3.5e-14) (B' := 64.5) (by norm_num) (by norm_num)).fl (by norm_num)
  · rw [Real.arccos_of_one_le c2.le, zero_div, mul_zero, sub_zero]
    exact hn.weaken (by norm_num) (by norm_num)
  · have hw := (part_near hF (not_lt.1 c1) (not_lt.1 c2)).1
    have hs : |1 - Real.arccos a / Real.pi| ≤ 1 := by
      have q0 := div_nonneg (Real.arccos_nonneg a) Real.pi_pos.le
      have q1 : Real.arccos a / Real.pi ≤ 1 := (div_le_one Real.pi_pos).2 (Real.arccos_le_pi a)
      exact abs_le.2 ⟨by linarith, by linarith⟩
    have e0 : 12 - d - e - 12 * (Real.arccos a / Real.pi) = 12 * (1 - Real.arccos a / Real.pi) - d - e := by ring
    rw [e0]
    rw [hF.fl] at hw ⊢
    have h1 := (((Nr.num (x := 1) (by norm_num)).sub hw).size hs).weaken (e' := 6e-16) (B' := 1) (by norm_num) (by norm_num) |>.fl (e' := 7.3e-16) (by norm_num)
    have h2 := (((Nr.num (x := 12) (by norm_num)).mul h1).weaken (e' := 8.8e-15) (B' := 12) (by norm_num) (by norm_num)).fl (e' := 1.03e-14) (by norm_num)
    have h3 := ((h2.sub hd).weaken (e' := 2.83e-14) (B' := 52) (by norm_num) (by norm_num)).fl (e' := 3.5e-14) (by norm_num)
    exact ((h3.sub he).weaken (e' := 3.9e-14) (B' := 64.5) (by norm_num) (by norm_num)).fl (by norm_num)

theorem set_near (hF : DoubleTrig F) (hd : Nr 1.8e-14 40 d' d) (he : Nr 3.2e-15 0.35 e' e) :
    Nr 6e-14 64.5 (setR F a d' e') (12 - d - e + 12 * (Real.arccos a / Real.pi)) := by
  have hn := noonR_near hF hd he
  have hp := Real.pi_pos.ne'
  unfold setR
  split_ifs with c1 c2
  · rw [Real.arccos_of_le_neg_one c1.le, div_self hp, mul_one, hF.fl]
    exact ((hn.add (Nr.num (x := 12) (by norm_num))).weaken (e' := 3.5e-14) (B' := 64.5) (by norm_num) (by norm_num)).fl (by norm_num)
  · rw [Real.arccos_of_one_le c2.le, zero_div, mul_zero, add_zero]
    exact hn.weaken (by norm_num) (by norm_num)
  · have hw := (part_near hF (not_lt.1 c1) (not_lt.1 c2)).1
    have hs : |1 + Real.arccos a / Real.pi| ≤ 2 := by
      have q0 := div_nonneg (Real.arccos_nonneg a) Real.pi_pos.le
      have q1 : Real.arccos a / Real.pi ≤ 1 := (div_le_one Real.pi_pos).2 (Real.arccos_le_pi a)
      exact abs_le.2 ⟨by linarith, by linarith⟩
    have e0 : 12 - d - e + 12 * (Real.arccos a / Real.pi) = 12 * (1 + Real.arccos a / Real.pi) - d - e := by ring
    rw [e0]
    rw [hF.fl] at hw ⊢
    have h1 := (((Nr.num (x := 1) (by norm_num)).add hw).size hs).weaken (e' := 6e-16) (B' := 2) (by norm_num) (by norm_num) |>.fl (e' := 8.5e-16) (by norm_num)
    have h2 := (((Nr.num (x := 12) (by norm_num)).mul h1).weaken (e' := 1.03e-14) (B' := 24) (by norm_num) (by norm_num)).fl (e' := 1.33e-14) (by norm_num)
    have h3 := ((h2.sub hd).weaken (e' := 3.13e-14) (B' := 64) (by norm_num) (by norm_num)).fl (e' := 3.91e-14) (by norm_num)
    exact ((h3.sub he).weaken (e' := 4.24e-14) (B' := 64.5) (by norm_num) (by norm_num)).fl (by norm_num)

/-- rise, noon and set are in this order -/
theorem rise_le_noon (hF : DoubleTrig F) (a d' e' : ℝ) (hidem : F.fl (noonR F d' e') = noonR F d' e') :
    riseR F a d' e' ≤ noonR F d' e' ∧ noonR F d' e' ≤ setR F a d' e' := by
  have mono : ∀ {x y : ℝ}, x ≤ y → F.fl x ≤ F.fl y := by
    intro x y h
    rw [hF.fl]
    exact roundBits_mono (p := 53) (by norm_num) h
  have f1 : F.fl 1 = 1 := by rw [hF.fl]; exact roundBits_one (by norm_num)
  have f12 : F.fl 12 = 12 := by
    rw [hF.fl]
    have := roundBits_smallint (n := 12) (by norm_num) (by norm_num)
    exact_mod_cast this
  unfold riseR setR
  split_ifs with c1 c2
  · constructor
    · calc _ ≤ F.fl (noonR F d' e') := mono (by linarith)
        _ = _ := hidem
    · calc noonR F d' e' = F.fl (noonR F d' e') := hidem.symm
        _ ≤ _ := mono (by linarith)
  · exact ⟨le_refl _, le_refl _⟩
  · have hw := (part_near hF (not_lt.1 c1) (not_lt.1 c2)).2
    have h1 : F.fl (1 - F.fl (F.arccos a / F.pi)) ≤ 1 := by
      calc _ ≤ F.fl 1 := mono (by linarith)
        _ = 1 := f1
    have h2 : 1 ≤ F.fl (1 + F.fl (F.arccos a / F.pi)) := by
      calc (1 : ℝ) = F.fl 1 := f1.symm
        _ ≤ _ := mono (by linarith)
    constructor
    · apply mono
      apply sub_le_sub_right
      apply mono
      apply sub_le_sub_right
      calc _ ≤ F.fl 12 := mono (by linarith)
        _ = 12 * 1 := by rw [f12, mul_one]
    · apply mono
      apply sub_le_sub_right
      apply mono
      apply sub_le_sub_right
      calc (12 : ℝ) * 1 = F.fl 12 := by rw [f12, mul_one]
        _ ≤ _ := mono (by linarith)

end

/-! ### the argument of the arccosine -/

theorem deg2radR_near (hF : DoubleTrig F) {lat : ℝ} (h : |lat| ≤ 90) : Nr 6.5e-16 1.575 (deg2radR F lat) (lat * (Real.pi / 180)) := by
  have hr := rad_near hF
  unfold deg2radR
  rw [hF.fl] at hr ⊢
  exact (((Nr.const h).mul hr).weaken (e' := 4.6e-16) (B' := 1.575) (by norm_num) (by norm_num)).fl (by norm_num)

theorem Nr.tan {F : SunMath} (hF : DoubleTan F) {y x e B a b e' : ℝ} (h : Nr e B y x) (ha : 0 < a) (hx : a + e ≤ Real.cos x) (hb : 0 ≤ b)
    (hab : 1 ≤ a * a * (1 + b * b)) (he : e / (a * a) + 1e-15 * b ≤ e') : Nr e' b (F.tan y) (Real.tan x) := by
  have hc : |Real.cos y - Real.cos x| ≤ |y - x| := by
    have := Real.abs_cos_sub_cos_le y x
    exact this
  have hy : a ≤ Real.cos y := by
    have := (_root_.abs_le.1 hc).1
    have := h.1
    linarith
  have hx' : a ≤ Real.cos x := by linarith [h.nonneg]
  have h1 := tan_sub_abs ha hy hx'
  have h2 := tan_abs ha hy hb hab
  have h3 := hF.tan_err y
  refine ⟨?_, tan_abs ha hx' hb hab⟩
  have h4 : |y - x| / (a * a) ≤ e / (a * a) := div_le_div_of_nonneg_right h.1 (by positivity)
  have e1 : F.tan y - Real.tan x = (F.tan y - Real.tan y) + (Real.tan y - Real.tan x) := by ring
  rw [e1]
  refine (abs_add_le _ _).trans ?_
  have h5 : 1e-15 * |Real.tan y| ≤ 1e-15 * b := mul_le_mul_of_nonneg_left h2 (by norm_num)
  linarith

theorem tanDecl_near {F : SunMath} (hF : DoubleTan F) (t : Time) :
    Nr 4.5e-15 0.4746 (F.tan (declinationR F.toTrigMath (doyOf t))) (Real.tan (solarDeclination (doyOf t))) := by
  have h := declinationR_near hF.trig t
  have hc : 0.9037 ≤ Real.cos (solarDeclination (doyOf t)) := by
    have := Real.one_sub_sq_div_two_le_cos (x := solarDeclination (doyOf t))
    have h2 := abs_le.1 h.2
    have : solarDeclination (doyOf t) ^ 2 ≤ 0.4386 ^ 2 := sq_le_sq' h2.1 h2.2
    norm_num at *; linarith
  exact h.tan hF (a := 0.9036) (by norm_num) (by norm_num at hc ⊢; linarith) (by norm_num) (by norm_num) (by norm_num)

theorem cos_lat_lower {lat c : ℝ} (h : |lat| ≤ c) (hc : c ≤ 90) : 1 - c / 90 ≤ Real.cos (lat * (Real.pi / 180)) := by
  have hp := Real.pi_pos
  rw [← Real.cos_abs, abs_mul, abs_of_pos (by positivity : 0 < Real.pi / 180)]
  have h0 := abs_nonneg lat
  have := Real.one_sub_mul_le_cos (x := |lat| * (Real.pi / 180)) (by positivity) (by nlinarith)
  refine le_trans ?_ this
  have e : 2 / Real.pi * (|lat| * (Real.pi / 180)) = |lat| / 90 := by field_simp; ring
  rw [e]
  linarith [div_le_div_of_nonneg_right h (show (0:ℝ) ≤ 90 by norm_num)]

theorem arg_near {F : SunMath} (hF : DoubleTan F) (t : Time) {lat : ℝ} (h : |lat| ≤ 89.9) :
    |sunArgR F (doyOf t) lat - sunArg (doyOf t) lat| ≤ 2.63e-10 := by
  have hd := tanDecl_near hF t
  have hc := cos_lat_lower h (by norm_num)
  have hl := (deg2radR_near hF.trig (h.trans (by norm_num))).tan hF (a := 0.0011) (b := 909.1) (e' := 5.4e-10) (by norm_num) (by norm_num at hc ⊢; linarith) (by norm_num)
    (by norm_num) (by norm_num)
  have hm := ((hl.mul hd).weaken (e' := 2.62e-10) (B' := 432) (by norm_num) (by norm_num)).fl (e' := 2.63e-10) (by norm_num)
  unfold sunArgR sunArg
  rw [hF.trig.fl, neg_mul, neg_mul, roundBits_neg]
  have := hm.1
  rw [← neg_sub_neg, abs_sub_comm] at this
  exact this

theorem cos_sixty {lat : ℝ} (h : |lat| ≤ 60) : 1 / 2 ≤ Real.cos (lat * (Real.pi / 180)) := by
  have hp := Real.pi_pos
  rw [← Real.cos_abs, abs_mul, abs_of_pos (by positivity : 0 < Real.pi / 180), ← Real.cos_pi_div_three]
  exact Real.cos_le_cos_of_nonneg_of_le_pi (by positivity) (by linarith) (by nlinarith [abs_nonneg lat])

theorem arg_near60 {F : SunMath} (hF : DoubleTan F) (t : Time) {lat : ℝ} (h : |lat| ≤ 60) :
    |sunArgR F (doyOf t) lat - sunArg (doyOf t) lat| ≤ 1.1e-14 ∧ |sunArg (doyOf t) lat| ≤ 0.83 := by
  have hd := tanDecl_near hF t
  have hc := cos_sixty h
  have hl := (deg2radR_near hF.trig (h.trans (by norm_num))).tan hF (a := 0.4999) (b := 1.74) (e' := 5e-15) (by norm_num) (by norm_num at hc ⊢; linarith) (by norm_num)
    (by norm_num) (by norm_num)
  have hm := ((hl.mul hd).weaken (e' := 1.03e-14) (B' := 0.83) (by norm_num) (by norm_num)).fl (e' := 1.1e-14) (by norm_num)
  unfold sunArgR sunArg
  rw [hF.trig.fl, neg_mul, neg_mul, roundBits_neg]
  refine ⟨?_, by rw [abs_neg]; exact hm.2⟩
  have := hm.1
  rw [← neg_sub_neg, abs_sub_comm] at this
  exact this

end

end Melodist
