import Verif.Lemmas.Phys
import Verif.Spec.Sun
import Mathlib.Analysis.Real.Pi.Bounds

/-!
# Helper lemmas for get_sun_times
-/

set_option linter.unusedSectionVars false

namespace Melodist
open Spec

noncomputable section

theorem declination_eq (doy : Int) : declination doy = solarDeclination doy := by
  unfold declination solarDeclination deg2rad
  norm_num

theorem abs_declination_le (doy : Int) : |solarDeclination doy| ≤ 25.06 * (Real.pi / 180) := by
  unfold solarDeclination
  simp only
  set B := (360 / 365.25) * ((doy : ℝ) - 79.346) * (Real.pi / 180)
  rw [abs_mul, abs_of_pos (by positivity : 0 < Real.pi / 180)]
  refine mul_le_mul_of_nonneg_right ?_ (by positivity)
  have a1 := Real.neg_one_le_sin B
  have a2 := Real.sin_le_one B
  have b1 := Real.neg_one_le_cos B
  have b2 := Real.cos_le_one B
  have c1 := Real.neg_one_le_sin (2 * B)
  have c2 := Real.sin_le_one (2 * B)
  have d1 := Real.neg_one_le_cos (2 * B)
  have d2 := Real.cos_le_one (2 * B)
  have e1 := Real.neg_one_le_sin (3 * B)
  have e2 := Real.sin_le_one (3 * B)
  have f1 := Real.neg_one_le_cos (3 * B)
  have f2 := Real.cos_le_one (3 * B)
  rw [abs_le]
  constructor <;> norm_num <;> linarith

theorem cos_declination_pos (doy : Int) : 0 < Real.cos (solarDeclination doy) := by
  have h := abs_le.1 (abs_declination_le doy)
  have hp := Real.pi_pos
  apply Real.cos_pos_of_mem_Ioo
  constructor <;> (norm_num at *; linarith [h.1, h.2])

theorem cos_lat_pos {lat : ℝ} (h1 : -90 < lat) (h2 : lat < 90) : 0 < Real.cos (lat * (Real.pi / 180)) := by
  have hp := Real.pi_pos
  apply Real.cos_pos_of_mem_Ioo
  constructor <;> nlinarith

/-- the argument of the arc cosine -/
def sunArg (doy : Int) (lat : ℝ) : ℝ := -Real.tan (lat * (Real.pi / 180)) * Real.tan (solarDeclination doy)

theorem sinAltitude_eq {doy : Int} {lat : ℝ} (h1 : -90 < lat) (h2 : lat < 90) (ω : ℝ) :
    sinAltitude lat (solarDeclination doy) ω =
      Real.cos (lat * (Real.pi / 180)) * Real.cos (solarDeclination doy) * (Real.cos ω - sunArg doy lat) := by
  unfold sinAltitude sunArg
  have a := (cos_lat_pos h1 h2).ne'
  have b := (cos_declination_pos doy).ne'
  rw [Real.tan_eq_sin_div_cos, Real.tan_eq_sin_div_cos]
  generalize lat * (Real.pi / 180) = φ at *
  field_simp
  ring

/-- day length in hours as a real number -/
def dayLen (doy : Int) (lat : ℝ) : ℝ :=
  if sunArg doy lat < -1 then 24 else if 1 < sunArg doy lat then 0 else 24 * (Real.arccos (sunArg doy lat) / Real.pi)

/-- solar noon in hours as a real number -/
def noonAt (doy : Int) (lon tz : ℝ) : ℝ := 12 - (lon - tz * 15) / 15 - eqTime doy

theorem dayLen_range (doy : Int) (lat : ℝ) : 0 ≤ dayLen doy lat ∧ dayLen doy lat ≤ 24 := by
  unfold dayLen
  have hp := Real.pi_pos
  split
  · norm_num
  split
  · norm_num
  have h1 := Real.arccos_nonneg (sunArg doy lat)
  have h2 := Real.arccos_le_pi (sunArg doy lat)
  constructor
  · positivity
  · have : Real.arccos (sunArg doy lat) / Real.pi ≤ 1 := by rw [div_le_one hp]; exact h2
    linarith

theorem sunTimesDoy_eq (doy : Int) (lon lat tz : ℝ) :
    sunTimesDoy doy lon lat tz =
      ⟨.fin (if noonAt doy lon tz - dayLen doy lat / 2 < 0 then noonAt doy lon tz - dayLen doy lat / 2 + 24
          else noonAt doy lon tz - dayLen doy lat / 2),
       .fin (noonAt doy lon tz),
       .fin (if 24 < noonAt doy lon tz + dayLen doy lat / 2 then noonAt doy lon tz + dayLen doy lat / 2 - 24
          else noonAt doy lon tz + dayLen doy lat / 2),
       .fin (dayLen doy lat)⟩ := by
  have hp := Real.pi_pos.ne'
  have harg : -Real.tan (deg2rad lat) * Real.tan (declination doy) = sunArg doy lat := by
    rw [declination_eq]; rfl
  have hn : (12 * 1 - (lon - tz * 15) * 24 / 360 - eqTime doy : ℝ) = noonAt doy lon tz := by unfold noonAt; ring
  unfold sunTimesDoy
  simp only [harg, XF.fin_sub_fin]
  by_cases c1 : sunArg doy lat < -1
  · have c2 : ¬ 1 < sunArg doy lat := by linarith
    have e : dayLen doy lat = 24 := by unfold dayLen; rw [if_pos c1]
    simp only [if_pos c1, if_neg c2, XF.fin_sub_fin, XF.fin_add_fin, XF.lt_fin, hn]
    rw [e]
    congr 1
    · norm_num; split <;> rfl
    · norm_num; split <;> rfl
    · congr 1; ring
  · by_cases c2 : 1 < sunArg doy lat
    · have e : dayLen doy lat = 0 := by unfold dayLen; rw [if_neg c1, if_pos c2]
      simp only [if_neg c1, if_pos c2, XF.fin_sub_fin, XF.fin_add_fin, XF.lt_fin, hn]
      rw [e]
      congr 1
      · norm_num; split <;> rfl
      · norm_num; split <;> rfl
      · congr 1; ring
    · have e : dayLen doy lat = 24 * (Real.arccos (sunArg doy lat) / Real.pi) := by
        unfold dayLen; rw [if_neg c1, if_neg c2]
      have ho : XF.arccos (.fin (sunArg doy lat)) = .fin (Real.arccos (sunArg doy lat)) := by
        exact if_pos ⟨not_lt.1 c1, not_lt.1 c2⟩
      simp only [if_neg c1, if_neg c2, ho, XF.fin_div_fin_of_ne _ hp, XF.fin_sub_fin, XF.fin_add_fin, XF.fin_mul_fin,
        XF.lt_fin, hn]
      have e1 : 12 * (1 - Real.arccos (sunArg doy lat) / Real.pi) - (lon - tz * 15) * 24 / 360 - eqTime doy =
          noonAt doy lon tz - dayLen doy lat / 2 := by rw [e]; unfold noonAt; ring
      have e2 : 12 * (1 + Real.arccos (sunArg doy lat) / Real.pi) - (lon - tz * 15) * 24 / 360 - eqTime doy =
          noonAt doy lon tz + dayLen doy lat / 2 := by rw [e]; unfold noonAt; ring
      rw [e1, e2]
      congr 1
      · split <;> rfl
      · split <;> rfl
      · congr 1; ring

theorem abs_eqTime_le (doy : Int) : |eqTime doy| ≤ 0.35 := by
  unfold eqTime
  simp only
  set s := 2 * Real.pi * ((doy : ℝ) - 1) / 365
  have hp := Real.pi_gt_d2
  rw [abs_mul, abs_of_pos (by positivity : 0 < 12 / Real.pi)]
  have h1 : |0.000075 + 0.001868 * Real.cos s - 0.032077 * Real.sin s - 0.014615 * Real.cos (2 * s)
    - 0.040849 * Real.sin (2 * s)| ≤ 0.0895 := by
    have a1 := Real.neg_one_le_sin s
    have a2 := Real.sin_le_one s
    have b1 := Real.neg_one_le_cos s
    have b2 := Real.cos_le_one s
    have c1 := Real.neg_one_le_sin (2 * s)
    have c2 := Real.sin_le_one (2 * s)
    have d1 := Real.neg_one_le_cos (2 * s)
    have d2 := Real.cos_le_one (2 * s)
    rw [abs_le]
    constructor <;> norm_num <;> linarith
  have h2 : 12 / Real.pi ≤ 12 / 3.14 := by
    apply div_le_div_of_nonneg_left <;> norm_num at * ; linarith
  calc _ ≤ 12 / 3.14 * 0.0895 := mul_le_mul h2 h1 (abs_nonneg _) (by norm_num)
    _ ≤ 0.35 := by norm_num

end

end Melodist
