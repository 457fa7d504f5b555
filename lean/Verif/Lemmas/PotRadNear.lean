import Verif.Lemmas.NearAbs
import Verif.Props.PotRadiation

/-!
# Helper lemmas: the errors of the quantities of `potential_radiation`
-/

set_option linter.unusedSectionVars false

namespace Melodist
open Spec

noncomputable section

variable {F : TrigMath}

theorem rad_near (hF : DoubleTrig F) : Nr 5e-18 0.0175 (F.fl (F.pi / 180)) (Real.pi / 180) := by
  rw [hF.fl, hF.pi]
  exact ((Nr.pi.divc (c := 180) (by norm_num)).weaken (e' := 2.3e-18) (B' := 0.0175) (by norm_num) (by norm_num)).fl (by norm_num)

theorem twoPi_near (hF : DoubleTrig F) : Nr 1.6e-15 6.3 (F.fl (2 * F.pi)) (2 * Real.pi) := by
  rw [hF.fl, hF.pi]
  exact (((Nr.num (x := 2) (by norm_num)).mul Nr.pi).weaken (e' := 8e-16) (B' := 6.3) (by norm_num) (by norm_num)).fl (by norm_num)

theorem doy_range (t : Time) : 1 ≤ doyOf t ∧ doyOf t ≤ 366 := by
  obtain ⟨m1, m2, d1, d2⟩ := civil_bounds (dayOf t)
  have h := daysFromCivil_civil (dayOf t)
  unfold doyOf yearOf
  generalize (civil (dayOf t)).1 = y at *
  generalize (civil (dayOf t)).2.1 = m at *
  generalize (civil (dayOf t)).2.2 = d at *
  rw [← h]
  unfold daysFromCivil
  dsimp only
  have hy : (y - 1) / 400 * 146097 + ((y - 1) % 400 * 365 + (y - 1) % 400 / 4 - (y - 1) % 400 / 100) + 365 ≤ y / 400 * 146097 + (y % 400 * 365 + y % 400 / 4 - y % 400 / 100) ∧
      y / 400 * 146097 + (y % 400 * 365 + y % 400 / 4 - y % 400 / 100) ≤ (y - 1) / 400 * 146097 + ((y - 1) % 400 * 365 + (y - 1) % 400 / 4 - (y - 1) % 400 / 100) + 366 := by omega
  by_cases hm : m ≤ 2
  · rw [if_pos hm, if_neg (by omega), if_pos (by norm_num), if_neg (by norm_num)]
    omega
  · rw [if_neg hm, if_pos (by omega), if_pos (by norm_num), if_neg (by norm_num)]
    omega

theorem decl_near (hF : DoubleTrig F) (t : Time) : Nr 1.8e-15 0.42 (solarDeclineR F (doyOf t)) (solarDecline (doyOf t)) := by
  have hd := doy_range t
  have h1 : (1 : ℝ) ≤ (doyOf t : ℝ) := by exact_mod_cast hd.1
  have h2 : (doyOf t : ℝ) ≤ 366 := by exact_mod_cast hd.2
  unfold solarDeclineR solarDecline deg2radR deg2rad
  have hr := rad_near hF
  have hp := twoPi_near hF
  rw [hF.fl] at hr hp ⊢
  have a1 := (Nr.num (x := (23.43697 : ℝ)) (by norm_num)).weaken (e' := 0) (B' := 23.5) (le_refl _) (by norm_num)
  have a2 := a1.fl (e' := 2.9e-15) (by norm_num)
  have a3 := ((a2.mul hr).weaken (e' := 1.8e-16) (B' := 0.42) (by norm_num) (by norm_num)).fl (e' := 2.5e-16) (by norm_num)
  have b1 := (Nr.const (x := (doyOf t : ℝ) - 173) (B := 200) (abs_le.2 ⟨by linarith, by linarith⟩)).fl (e' := 2.5e-14) (by norm_num)
  have b2 := ((hp.mul b1).weaken (e' := 4.9e-13) (B' := 1260) (by norm_num) (by norm_num)).fl (e' := 6.6e-13) (by norm_num)
  have b3 := ((b2.divc (c := 365.25) (by norm_num)).weaken (e' := 1.9e-15) (B' := 3.46) (by norm_num) (by norm_num)).fl (e' := 2.4e-15) (by norm_num)
  have b4 := b3.cos hF
  exact ((a3.mul b4).weaken (e' := 1.7e-15) (B' := 0.42) (by norm_num) (by norm_num)).fl (by norm_num)

theorem hourAngle_near (hF : DoubleTrig F) (t : Time) {lon tz : ℝ} (hlon : |lon| ≤ 360) (htz : |tz| ≤ 16) :
    Nr 1.8e-14 21 (hourAngleR F (hourOf t) (minuteOf t) lon tz) (hourAngle (hourOf t) (minuteOf t) lon tz) := by
  have hh : |(hourOf t : ℝ)| ≤ 24 := by
    have h1 : 0 ≤ hourOf t ∧ hourOf t ≤ 24 := by unfold hourOf; omega
    have h2 : (0 : ℝ) ≤ (hourOf t : ℝ) := by exact_mod_cast h1.1
    have h3 : (hourOf t : ℝ) ≤ 24 := by exact_mod_cast h1.2
    rw [abs_of_nonneg h2]; exact h3
  have hm : |(minuteOf t : ℝ)| ≤ 60 := by
    have h1 : 0 ≤ minuteOf t ∧ minuteOf t ≤ 60 := by unfold minuteOf; omega
    have h2 : (0 : ℝ) ≤ (minuteOf t : ℝ) := by exact_mod_cast h1.1
    have h3 : (minuteOf t : ℝ) ≤ 60 := by exact_mod_cast h1.2
    rw [abs_of_nonneg h2]; exact h3
  unfold hourAngleR hourAngle
  dsimp only
  rw [hF.fl, hF.pi]
  have a1 := (((Nr.const htz).mul (Nr.num (x := 15) (by norm_num))).weaken (e' := 0) (B' := 240) (by norm_num) (by norm_num)).fl (e' := 3e-14) (by norm_num)
  have a2 := (((Nr.const hlon).sub a1).weaken (e' := 3e-14) (B' := 600) (by norm_num) (by norm_num)).fl (e' := 1.05e-13) (by norm_num)
  have a3 := ((a2.mul (Nr.num (x := 24) (by norm_num))).weaken (e' := 2.6e-12) (B' := 14400) (by norm_num) (by norm_num)).fl (e' := 4.4e-12) (by norm_num)
  have a4 := ((a3.divc (c := 360) (by norm_num)).weaken (e' := 1.3e-14) (B' := 40) (by norm_num) (by norm_num)).fl (e' := 1.8e-14) (by norm_num)
  have b1 := (((Nr.const hm).divc (c := 60) (by norm_num)).weaken (e' := 0) (B' := 1) (by norm_num) (by norm_num)).fl (e' := 1.2e-16) (by norm_num)
  have b2 := (((Nr.const hh).add b1).weaken (e' := 1.2e-16) (B' := 25) (by norm_num) (by norm_num)).fl (e' := 3.2e-15) (by norm_num)
  have b3 := ((b2.add a4).weaken (e' := 2.15e-14) (B' := 65) (by norm_num) (by norm_num)).fl (e' := 2.95e-14) (by norm_num)
  have b4 := ((b3.divc (c := 12) (by norm_num)).weaken (e' := 2.5e-15) (B' := 5.42) (by norm_num) (by norm_num)).fl (e' := 3.2e-15) (by norm_num)
  have b5 := ((b4.sub (Nr.num (x := 1) (by norm_num))).weaken (e' := 3.2e-15) (B' := 6.42) (by norm_num) (by norm_num)).fl (e' := 4e-15) (by norm_num)
  have b6 := ((Nr.pi.mul b5).weaken (e' := 1.53e-14) (B' := 21) (by norm_num) (by norm_num)).fl (e' := 1.8e-14) (by norm_num)
  exact b6

/-- what the angles give -/
theorem cosz_near (hF : DoubleTrig F) (t : Time) {lon lat tz : ℝ} (hlon : |lon| ≤ 360) (hlat : |lat| ≤ 90) (htz : |tz| ≤ 16) :
    Nr 3e-14 1 (cosZenithRawR F (solarDeclineR F (doyOf t)) lat (hourAngleR F (hourOf t) (minuteOf t) lon tz)) (sinHeight lon lat tz t) ∧
    Nr 2.2e-14 1 (F.fl (F.cos (solarDeclineR F (doyOf t)) * F.sin (hourAngleR F (hourOf t) (minuteOf t) lon tz)))
      (Real.cos (decl t) * Real.sin ((solarTime lon tz t - 12) * (Real.pi / 12))) := by
  have hd := decl_near hF t
  have hh := hourAngle_near hF t hlon htz
  have hsize : |sinHeight lon lat tz t| ≤ 1 := abs_le.2 ⟨neg_one_le_sinHeight lon lat tz t, sinHeight_le_one lon lat tz t⟩
  rw [← cosZenith_eq, ← decl_eq, ← hourAngle_eq] at *
  have hl : Nr 7e-16 1.6 (deg2radR F lat) (deg2rad lat) := by
    unfold deg2radR deg2rad
    have hr := rad_near hF
    rw [hF.fl] at hr ⊢
    exact (((Nr.const hlat).mul hr).weaken (e' := 4.6e-16) (B' := 1.6) (by norm_num) (by norm_num)).fl (by norm_num)
  have sd := hd.sin hF
  have cd := hd.cos hF
  have sl := hl.sin hF
  have cl := hl.cos hF
  have sh := hh.sin hF
  have ch := hh.cos hF
  unfold cosZenithRawR cosZenithRaw at *
  rw [hF.fl]
  constructor
  · have t1 := ((sd.mul sl).weaken (e' := 4.55e-15) (B' := 1) (by norm_num) (by norm_num)).fl (e' := 4.7e-15) (by norm_num)
    have t2 := ((cd.mul cl).weaken (e' := 4.55e-15) (B' := 1) (by norm_num) (by norm_num)).fl (e' := 4.7e-15) (by norm_num)
    have t3 := ((t2.mul ch).weaken (e' := 2.38e-14) (B' := 1) (by norm_num) (by norm_num)).fl (e' := 2.4e-14) (by norm_num)
    exact (((t1.add t3).size hsize).weaken (e' := 2.88e-14) (by norm_num) (le_refl _)).fl (by norm_num)
  · exact ((cd.mul sh).weaken (e' := 2.185e-14) (B' := 1) (by norm_num) (by norm_num)).fl (by norm_num)

theorem ratio_near (hF : DoubleTrig F) (t : Time) : Nr 1.4e-15 1.0365 (radiusRatioR F (doyOf t)) (radiusRatio (doyOf t)) := by
  have hd := doy_range t
  have h1 : (1 : ℝ) ≤ (doyOf t : ℝ) := by exact_mod_cast hd.1
  have h2 : (doyOf t : ℝ) ≤ 366 := by exact_mod_cast hd.2
  have hb := radiusRatio_bounds (doyOf t)
  have hp := twoPi_near hF
  have hsize : |radiusRatio (doyOf t)| ≤ 1.0365 := by rw [abs_of_pos hb.1]; exact hb.2
  unfold radiusRatioR radiusRatio at *
  dsimp only at *
  rw [hF.fl] at hp ⊢
  have b1 := (((Nr.const (x := (doyOf t : ℝ)) (B := 366) (abs_le.2 ⟨by linarith, h2⟩)).divc (c := 365.25) (by norm_num)).weaken (e' := 0) (B' := 1.01)
    (by norm_num) (by norm_num)).fl (e' := 1.3e-16) (by norm_num)
  have b2 := ((hp.mul b1).weaken (e' := 2.5e-15) (B' := 6.4) (by norm_num) (by norm_num)).fl (e' := 3.3e-15) (by norm_num)
  have b3 := (((Nr.num (x := 2) (by norm_num)).mul b2).weaken (e' := 6.6e-15) (B' := 12.8) (by norm_num) (by norm_num)).fl (e' := 8.3e-15) (by norm_num)
  have c1 := b2.cos hF
  have s1 := b2.sin hF
  have c2 := b3.cos hF
  have s2 := b3.sin hF
  have l0 := (Nr.num (x := (1.00011 : ℝ)) (by norm_num)).fl (e' := 1.3e-16) (by norm_num)
  have l1 := (Nr.num (x := (0.034221 : ℝ)) (by norm_num)).fl (e' := 5e-18) (by norm_num)
  have l2 := (Nr.num (x := (0.00128 : ℝ)) (by norm_num)).fl (e' := 2e-19) (by norm_num)
  have l3 := (Nr.num (x := (0.000719 : ℝ)) (by norm_num)).fl (e' := 1e-19) (by norm_num)
  have l4 := (Nr.num (x := (0.000077 : ℝ)) (by norm_num)).fl (e' := 1e-20) (by norm_num)
  have m1 := ((l1.mul c1).weaken (e' := 1.6e-16) (B' := 0.034221) (by norm_num) (by norm_num)).fl (e' := 1.7e-16) (by norm_num)
  have m2 := ((l2.mul s1).weaken (e' := 6e-18) (B' := 0.00128) (by norm_num) (by norm_num)).fl (e' := 7e-18) (by norm_num)
  have m3 := ((l3.mul c2).weaken (e' := 7e-18) (B' := 0.000719) (by norm_num) (by norm_num)).fl (e' := 8e-18) (by norm_num)
  have m4 := ((l4.mul s2).weaken (e' := 8e-19) (B' := 0.000077) (by norm_num) (by norm_num)).fl (e' := 9e-19) (by norm_num)
  have p1 := ((l0.add m1).weaken (e' := 3e-16) (B' := 1.04) (by norm_num) (by norm_num)).fl (e' := 4.3e-16) (by norm_num)
  have p2 := ((p1.add m2).weaken (e' := 4.4e-16) (B' := 1.05) (by norm_num) (by norm_num)).fl (e' := 5.7e-16) (by norm_num)
  have p3 := ((p2.add m3).weaken (e' := 5.8e-16) (B' := 1.06) (by norm_num) (by norm_num)).fl (e' := 7.1e-16) (by norm_num)
  have p4 := ((p3.add m4).weaken (e' := 7.2e-16) (B' := 1.07) (by norm_num) (by norm_num)).fl (e' := 8.6e-16) (by norm_num)
  exact (p4.size hsize).weaken (by norm_num) (le_refl _)

end

end Melodist
