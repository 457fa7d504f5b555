import Verif.Lemmas.DewRound
import Verif.Props.HumidityStats
import Verif.Props.RoundingE
import Verif.Props.Vapor

/-!
# C139: the dew point in floating-point arithmetic, and its jump at the freezing point
-/

set_option linter.unusedSectionVars false

namespace Melodist
open Spec

noncomputable section

theorem logCell_exact (c : XF ℝ) : logCell Real.log c = XF.log c := by cases c <;> rfl

/-- **C139** (exact operations): with exact operations the rounded model is the model of `dewpoint_temperature`. -/
theorem C139_exact (temp hum : List (XF ℝ)) : dewpointTemperatureR .exact Real.log temp hum = dewpointTemperature temp hum := by
  have h : dewpointCellR .exact Real.log = dewpointCell := by
    funext t q
    unfold dewpointCellR dewpointCell dewBranchR
    dsimp only
    rw [vaporR_exact]
    simp only [FloatHum.exact, XF.rnd_id', logCell_exact, id]
    split <;> rfl
  unfold dewpointTemperatureR dewpointTemperature
  rw [h]

theorem magnus_range {T : ℝ} (h1 : 233.15 ≤ T) (h2 : T ≤ 323.15) : -4 ≤ magnus T ∧ magnus T ≤ 3.01 := by
  unfold magnus
  split
  · rename_i c
    have hp : (0 : ℝ) < 243.12 + (T - 273.15) := by norm_num at c ⊢; linarith
    rw [le_div_iff₀ hp, div_le_iff₀ hp]
    constructor <;> norm_num at * <;> linarith
  · rename_i c
    have hp : (0 : ℝ) < 272.62 + (T - 273.15) := by norm_num at h1 ⊢; linarith
    rw [le_div_iff₀ hp, div_le_iff₀ hp]
    constructor <;> norm_num at * <;> linarith

theorem dewPoint_formula {T h : ℝ} (hT : 0.53 < T) (h0 : 0 < h) (h1 : h ≤ 100) :
    dewPoint T h = mgB T * (magnus T + Real.log (h / 100)) / (mgA T - (magnus T + Real.log (h / 100))) + 273.15 := by
  obtain ⟨D, e, hD, -⟩ := dewpointCell_exists hT h0 h1
  rw [dewpointCell_dewPoint hT h0 h1] at e
  injection e with e
  rw [e, hD]

/-- **C139** (accuracy): in IEEE double precision, with `np.exp` and `np.log` accurate to a relative error of 1e-15, for temperatures between -40 and 50 degrees Celsius that are
doubles and humidities between 1 and 100 %, the computed dew point is within 2e-12 K of the exact one.  The double nearest to 273.15 (which is not 273.15) counts as 273.15. -/
theorem C139_accuracy (expF logF : ℝ → ℝ) (he : ∀ x, |expF x - Real.exp x| ≤ 1e-15 * Real.exp x) (hlog : ∀ x, 0 < x → |logF x - Real.log x| ≤ 1e-15 * |Real.log x|)
    (sinF : ℝ → ℝ) (pi : ℝ) (T h : ℝ) (hT : roundBits 53 T = T) (h1 : 233.15 ≤ T) (h2 : T ≤ 323.15) (k1 : 1 ≤ h) (k2 : h ≤ 100) :
    ∃ D, dewpointCellR ⟨roundBits 53, expF, sinF, pi⟩ logF (.fin T) (.fin h) = .fin D ∧
      |D - dewPoint (if T = roundBits 53 273.15 then 273.15 else T) h| ≤ 2e-12 := by
  have hk0 : 0 < h := by linarith
  have hm := magnus_range h1 h2
  have hT0 : (0.53 : ℝ) < T := by norm_num at h1 ⊢; linarith
  have harg : |argR R53 T - magnus T| ≤ 1.5e-14 := by
    have := argR_err (R := R53) (by rw [R53_u]; norm_num) h1 h2
    rw [R53_u] at this
    exact this.trans (by norm_num)
  have hle : XF.le (.fin (roundBits 53 kelvin0)) (.fin T) ↔ roundBits 53 273.15 ≤ T := Iff.rfl
  unfold dewpointCellR
  dsimp only
  rw [vaporR_eq' expF sinF pi h h1 h2]
  rcases lt_trichotomy T (roundBits 53 273.15) with c | c | c
  · have c' : ¬ (273.15 : ℝ) ≤ T := by
      intro hc
      have := roundBits_mono (p := 53) (by norm_num) hc
      rw [hT] at this
      linarith
    rw [if_neg (fun hc => absurd (hle.1 hc) (not_le.2 c)), if_neg c.ne, dewPoint_formula hT0 hk0 k2]
    obtain ⟨D, hD, hE⟩ := dewBranch_err he hlog sinF pi (a := 22.46) (b := 272.62) (.inr ⟨rfl, rfl⟩) k1 k2 harg hm.1 hm.2
    refine ⟨D, hD, ?_⟩
    unfold mgA mgB
    rw [if_neg c', if_neg c']
    exact hE
  · have h0 : argR R53 T = 0 := by
      unfold argR magnusArgR kelvin0
      rw [R53_fl, if_pos c.ge, c, sub_self, rb_zero, mul_zero, rb_zero, zero_div, rb_zero]
    have hm0 : magnus 273.15 = 0 := by unfold magnus; norm_num
    rw [if_pos (hle.2 c.ge), if_pos c, dewPoint_formula (by norm_num) hk0 k2, hm0]
    obtain ⟨D, hD, hE⟩ := dewBranch_err he hlog sinF pi (a := 17.62) (b := 243.12) (T := T) (l := 0) (.inl ⟨rfl, rfl⟩) k1 k2 (by rw [h0]; norm_num) (by norm_num) (by norm_num)
    refine ⟨D, hD, ?_⟩
    unfold mgA mgB
    rw [if_pos le_rfl, if_pos le_rfl]
    exact hE
  · have c' : (273.15 : ℝ) ≤ T := by
      by_contra hc
      have := roundBits_mono (p := 53) (by norm_num) (not_le.1 hc).le
      rw [hT] at this
      linarith
    rw [if_pos (hle.2 c.le), if_neg c.ne', dewPoint_formula hT0 hk0 k2]
    obtain ⟨D, hD, hE⟩ := dewBranch_err he hlog sinF pi (a := 17.62) (b := 243.12) (.inl ⟨rfl, rfl⟩) k1 k2 harg hm.1 hm.2
    refine ⟨D, hD, ?_⟩
    unfold mgA mgB
    rw [if_pos c', if_pos c']
    exact hE

/-- **C139** (saturated air): the computed dew point of saturated air is the temperature up to 3e-12 K, and the dew point of any air is not above the temperature by more than that. -/
theorem C139_saturated (expF logF : ℝ → ℝ) (he : ∀ x, |expF x - Real.exp x| ≤ 1e-15 * Real.exp x) (hlog : ∀ x, 0 < x → |logF x - Real.log x| ≤ 1e-15 * |Real.log x|)
    (sinF : ℝ → ℝ) (pi : ℝ) (T h : ℝ) (hT : roundBits 53 T = T) (h1 : 233.15 ≤ T) (h2 : T ≤ 323.15) (k1 : 1 ≤ h) (k2 : h ≤ 100) :
    ∃ D, dewpointCellR ⟨roundBits 53, expF, sinF, pi⟩ logF (.fin T) (.fin h) = .fin D ∧ D ≤ T + 3e-12 ∧ (h = 100 → |D - T| ≤ 3e-12) := by
  obtain ⟨D, hD, hE⟩ := C139_accuracy expF logF he hlog sinF pi T h hT h1 h2 k1 k2
  have hnear : |(if T = roundBits 53 273.15 then (273.15 : ℝ) else T) - T| ≤ 1e-13 := by
    split
    · rename_i c
      rw [c, abs_sub_comm]
      refine (rb_err 273.15).trans ?_
      rw [abs_of_pos] <;> norm_num
    · rw [sub_self, abs_zero]; norm_num
  have hT0 : (0.53 : ℝ) < (if T = roundBits 53 273.15 then (273.15 : ℝ) else T) := by
    split
    · norm_num
    · norm_num at h1 ⊢; linarith
  generalize (if T = roundBits 53 273.15 then (273.15 : ℝ) else T) = T₀ at *
  have a := abs_le.1 hE
  have b := abs_le.1 hnear
  refine ⟨D, hD, ?_, ?_⟩
  · obtain ⟨D', e, hle⟩ := (C07_dewpoint_monotone T₀ hT0).1 h (by linarith) k2
    rw [dewpointCell_dewPoint hT0 (by linarith) k2] at e
    injection e with e
    norm_num at a b ⊢
    linarith
  · rintro rfl
    have e := C07_dewpoint_saturated T₀ hT0
    rw [dewpointCell_dewPoint hT0 (by norm_num) le_rfl] at e
    injection e with e
    rw [e] at a
    exact abs_le.2 ⟨by norm_num at a b ⊢; linarith, by norm_num at a b ⊢; linarith⟩

/-- **C139** (arrays): the array function does this cell by cell. -/
theorem C139_array (F : FloatHum) (logF : ℝ → ℝ) (temp hum : List (XF ℝ)) :
    (temp.length = hum.length → ∃ out, dewpointTemperatureR F logF temp hum = .ok out ∧ out.length = temp.length ∧
      ∀ i : Nat, ∀ t h, temp[i]? = some t → hum[i]? = some h → out[i]? = some (dewpointCellR F logF t h)) ∧
    (temp.length ≠ hum.length → dewpointTemperatureR F logF temp hum = .error .assertionError) := by
  constructor
  · intro h
    refine ⟨_, if_pos h, by simp [h], ?_⟩
    intro i t h' h1 h2
    rw [List.getElem?_zipWith, h1, h2]
  · intro h; exact if_neg h

/-- **C139** (jump): the dew point of `dewpoint_temperature` is not continuous in the temperature: at 50 % humidity, air up to a hundredth of a degree below 273.15 K has a dew point
more than 1 K *above* that of air at 273.15 K (because the vapour pressure is inverted over ice for the one and over water for the other). -/
theorem C139_jump (T : ℝ) (h1 : 273.14 ≤ T) (h2 : T < 273.15) :
    ∃ D D' : ℝ, dewpointCell (.fin T) (.fin 50) = .fin D ∧ dewpointCell (.fin 273.15) (.fin 50) = .fin D' ∧ D' + 1 < D := by
  refine ⟨_, _, dewpointCell_dewPoint (by norm_num at h1 ⊢; linarith) (by norm_num) (by norm_num), dewpointCell_dewPoint (by norm_num) (by norm_num) (by norm_num), ?_⟩
  rw [dewPoint_formula (T := T) (by norm_num at h1 ⊢; linarith) (by norm_num) (by norm_num), dewPoint_formula (T := 273.15) (by norm_num) (by norm_num) (by norm_num)]
  have hm0 : magnus 273.15 = 0 := by unfold magnus; norm_num
  have hm : -0.001 ≤ magnus T := by
    unfold magnus
    rw [if_neg (not_le.2 h2), le_div_iff₀ (by norm_num at h1 ⊢; linarith)]
    norm_num at h1 ⊢
    linarith
  have hm1 : magnus T ≤ 0 := by
    unfold magnus
    rw [if_neg (not_le.2 h2)]
    exact div_nonpos_of_nonpos_of_nonneg (by norm_num; linarith) (by norm_num at h1 ⊢; linarith)
  have hl : Real.log (50 / 100) = -Real.log 2 := by rw [← Real.log_inv]; norm_num
  rw [hm0, hl, zero_add]
  unfold mgA mgB
  rw [if_neg (not_le.2 h2), if_neg (not_le.2 h2), if_pos le_rfl, if_pos le_rfl]
  have b1 := Real.log_two_gt_d9
  have b2 := Real.log_two_lt_d9
  generalize magnus T = m at *
  generalize Real.log 2 = l at *
  have d1 : (0 : ℝ) < 17.62 - -l := by norm_num at b1 ⊢; linarith
  have d2 : (0 : ℝ) < 22.46 - (m + -l) := by norm_num at *; linarith
  have e1 : 243.12 * -l / (17.62 - -l) ≤ -9.2 := by
    rw [div_le_iff₀ d1]; norm_num at b1 ⊢; linarith
  have e2 : -8.19 ≤ 272.62 * (m + -l) / (22.46 - (m + -l)) := by
    rw [le_div_iff₀ d2]; norm_num at *; linarith
  norm_num at e1 e2 ⊢
  linarith

/-! ### cases that meet the hypotheses -/

/-- correctly rounded functions -/
example : ∃ D, dewpointCellR ⟨roundBits 53, fun x => roundBits 53 (Real.exp x), Real.sin, Real.pi⟩ (fun x => roundBits 53 (Real.log x)) (.fin 283) (.fin 100) = .fin D ∧
    |D - 283| ≤ 3e-12 := by
  obtain ⟨D, h, -, h2⟩ := C139_saturated (fun x => roundBits 53 (Real.exp x)) (fun x => roundBits 53 (Real.log x)) exp_double
    (fun x _ => (rb_err _).trans (mul_le_mul_of_nonneg_right (by norm_num) (abs_nonneg _))) Real.sin Real.pi 283 100
    (by exact_mod_cast roundBits_small (k := 283) (by norm_num) (l := 8) (by decide +kernel) (by norm_num)) (by norm_num) (by norm_num) (by norm_num) le_rfl
  exact ⟨D, h, h2 rfl⟩

/-- one degree of difference between two thermometers that agree up to a thousandth of a degree -/
example : ∃ D D' : ℝ, dewpointTemperature [.fin 273.149, .fin 273.15] [.fin 50, .fin 50] = .ok [.fin D, .fin D'] ∧ D' + 1 < D := by
  obtain ⟨D, D', h1, h2, h3⟩ := C139_jump 273.149 (by norm_num) (by norm_num)
  refine ⟨D, D', ?_, h3⟩
  unfold dewpointTemperature
  simp only [List.length_cons, List.length_nil, if_true, List.zipWith_cons_cons, List.zipWith_nil_right, h1, h2]

end

end Melodist
