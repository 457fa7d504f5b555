import Verif.Model.DewpointRound
import Verif.Lemmas.LinErr
import Verif.Lemmas.NearAbs
import Verif.Lemmas.PotRadNearB
import Verif.Lemmas.Phys
import Mathlib.Analysis.Complex.ExponentialBounds

/-!
# Helper lemmas: the dew point in binary64
-/

set_option linter.unusedSectionVars false

namespace Melodist
open Spec

noncomputable section

/-- the vapour pressure as computed -/
def vapR (expF : ℝ → ℝ) (T h : ℝ) : ℝ := roundBits 53 (roundBits 53 (roundBits 53 (roundBits 53 6.112 * expF (argR R53 T)) * h) / 100)

theorem vaporR_eq' (expF sinF : ℝ → ℝ) (pi : ℝ) {T : ℝ} (hum : ℝ) (h1 : 233.15 ≤ T) (h2 : T ≤ 323.15) :
    vaporPressureCellR ⟨roundBits 53, expF, sinF, pi⟩ (.fin T) (.fin hum) = .fin (vapR expF T hum) := by
  have h := denom_ne (R := R53) (by rw [R53_u]; norm_num) h1 h2
  unfold vaporPressureCellR magnusR vapR argR magnusArgR
  have hle : XF.le (.fin (roundBits 53 kelvin0)) (.fin T) ↔ roundBits 53 kelvin0 ≤ T := Iff.rfl
  dsimp only
  rw [R53_fl] at h ⊢
  by_cases c : roundBits 53 kelvin0 ≤ T
  · rw [if_pos c] at h
    rw [if_pos (hle.2 c), if_pos c, XF.fin_sub_fin]
    simp only [XF.rnd, XF.fin_mul_fin, XF.fin_add_fin]
    rw [XF.fin_div_fin_of_ne _ h]
    simp only [XF.rnd, FloatHum.expCell, XF.fin_mul_fin]
    rw [XF.fin_div_fin_of_ne _ (by norm_num)]
  · rw [if_neg c] at h
    rw [if_neg (fun h => c (hle.1 h)), if_neg c, XF.fin_sub_fin]
    simp only [XF.rnd, XF.fin_mul_fin, XF.fin_add_fin]
    rw [XF.fin_div_fin_of_ne _ h]
    simp only [XF.rnd, FloatHum.expCell, XF.fin_mul_fin]
    rw [XF.fin_div_fin_of_ne _ (by norm_num)]

theorem rb_err (x : ℝ) : |roundBits 53 x - x| ≤ 1.2e-16 * |x| := by
  have := R53.err x
  rw [R53_fl, R53_u] at this
  exact this.trans (mul_le_mul_of_nonneg_right (by norm_num) (abs_nonneg _))

/-- relative error of the vapour pressure, divided by 6.112 -/
theorem ratio_err {expF : ℝ → ℝ} (he : ∀ x, |expF x - Real.exp x| ≤ 1e-15 * Real.exp x) {T h l : ℝ} (h0 : 0 < h) (hl : |argR R53 T - l| ≤ 1.5e-14) :
    |roundBits 53 (vapR expF T h / roundBits 53 6.112) - Real.exp l * (h / 100)| ≤ 1.8e-14 * (Real.exp l * (h / 100)) := by
  have a := exp_err hl (by norm_num) (he (argR R53 T)) (by norm_num)
  have hx := Real.exp_pos l
  unfold vapR
  set w := expF (argR R53 T) with hw
  set x := Real.exp l with hxx
  have b : |6.112 * w - 6.112 * x| ≤ 1.605e-14 * (6.112 * x) := by
    rw [← mul_sub, abs_mul, abs_of_pos (by norm_num)]
    norm_num at a ⊢
    linarith
  have lit : |roundBits 53 6.112 * w - 6.112 * w| ≤ 1.2e-16 * |6.112 * w| := by
    rw [← sub_mul, abs_mul, abs_mul, ← mul_assoc]
    exact mul_le_mul_of_nonneg_right (rb_err _) (abs_nonneg _)
  have hp : (0 : ℝ) < 6.112 * x := by positivity
  have c1 := rel_mul hp b (by norm_num) (by norm_num) (by norm_num) lit
  have c2 := rel_mul hp c1 (by norm_num) (by norm_num) (by norm_num) (rb_err _)
  have c2' : |roundBits 53 (roundBits 53 6.112 * w) * h - 6.112 * x * h| ≤ (1.605e-14 + 1.01 * 1.2e-16 + 1.01 * 1.2e-16) * (6.112 * x * h) := by
    rw [← sub_mul, abs_mul, abs_of_pos h0, ← mul_assoc]
    exact mul_le_mul_of_nonneg_right c2 h0.le
  have hph : 0 < 6.112 * x * h := by positivity
  have c3 := rel_mul hph c2' (by norm_num) (by norm_num) (by norm_num) (rb_err _)
  have scale : ∀ {y z e c : ℝ}, 0 < c → |y - z| ≤ e * z → |y / c - z / c| ≤ e * (z / c) := by
    intro y z e c hc hyz
    rw [← sub_div, abs_div, abs_of_pos hc, div_le_iff₀ hc, mul_assoc, div_mul_cancel₀ _ hc.ne']
    exact hyz
  have c4 := rel_mul (by positivity) (scale (by norm_num : (0 : ℝ) < 100) c3) (by norm_num) (by norm_num) (by norm_num) (rb_err _)
  set v := roundBits 53 (roundBits 53 (roundBits 53 (roundBits 53 6.112 * w) * h) / 100)
  have c5 := scale (by norm_num : (0 : ℝ) < 6.112) c4
  have lc := abs_le.1 (rb_err 6.112)
  rw [abs_of_pos (by norm_num : (0 : ℝ) < 6.112)] at lc
  have hcpos : (0 : ℝ) < roundBits 53 6.112 := by norm_num at lc ⊢; linarith
  have c6 : |v / roundBits 53 6.112 - v / 6.112| ≤ 1.3e-16 * |v / 6.112| := by
    have e : v / roundBits 53 6.112 - v / 6.112 = (6.112 - roundBits 53 6.112) / roundBits 53 6.112 * (v / 6.112) := by
      field_simp
    rw [e, abs_mul]
    refine mul_le_mul_of_nonneg_right ?_ (abs_nonneg _)
    rw [abs_div, abs_of_pos hcpos, div_le_iff₀ hcpos]
    refine abs_le.2 ⟨?_, ?_⟩ <;> norm_num at lc ⊢ <;> linarith
  have hpos : 0 < 6.112 * x * h / 100 / 6.112 := by positivity
  have c7 := rel_mul hpos c5 (by norm_num) (by norm_num) (by norm_num) c6
  have c8 := rel_mul hpos c7 (by norm_num) (by norm_num) (by norm_num) (rb_err _)
  have e : 6.112 * x * h / 100 / 6.112 = x * (h / 100) := by ring
  rw [e] at c8
  refine c8.trans (mul_le_mul_of_nonneg_right (by norm_num) (by positivity))

/-- the logarithm of a value with a small relative error -/
theorem log_err {x y : ℝ} (hx : 0 < x) (h : |y - x| ≤ 1.8e-14 * x) : 0 < y ∧ |Real.log y - Real.log x| ≤ 1.9e-14 := by
  have h1 := abs_le.1 h
  have hy : 0 < y := by norm_num at h1; linarith
  refine ⟨hy, ?_⟩
  rw [← Real.log_div hy.ne' hx.ne']
  have hq : 0 < y / x := by positivity
  have a := Real.log_le_sub_one_of_pos hq
  have b := Real.one_sub_inv_le_log_of_pos hq
  have c1 : y / x ≤ 1 + 1.8e-14 := by rw [div_le_iff₀ hx]; norm_num at h1 ⊢; linarith
  have c2 : (y / x)⁻¹ ≤ 1 + 1.9e-14 := by
    rw [inv_div, div_le_iff₀ hy]
    norm_num at h1 ⊢; linarith
  exact abs_le.2 ⟨by linarith, by norm_num at *; linarith⟩

theorem log100 : Real.log 100 ≤ 5 := by
  rw [Real.log_le_iff_le_exp (by norm_num)]
  have h := Real.exp_one_gt_d9
  have : Real.exp 5 = Real.exp 1 ^ 5 := by rw [← Real.exp_nat_mul]; norm_num
  rw [this]
  calc (100 : ℝ) ≤ 2.7 ^ 5 := by norm_num
    _ ≤ _ := pow_le_pow_left₀ (by norm_num) (by linarith) 5

/-- quotient of two computed numbers -/
theorem Nr.quot {e B y x e' B' y' x' D C e'' : ℝ} (h : Nr e B y x) (h' : Nr e' B' y' x') (hD : D ≤ x') (hD0 : e' < D) (hC : |x / x'| ≤ C)
    (he : (e + C * e') / (D - e') ≤ e'') : Nr e'' C (y / y') (x / x') := by
  refine ⟨le_trans ?_ he, hC⟩
  have hx' : 0 < x' := by have := h'.nonneg; linarith
  have hy' : D - e' ≤ y' := by have := (_root_.abs_le.1 h'.1).1; linarith
  have hy0 : 0 < D - e' := by linarith
  have hy'0 : 0 < y' := by linarith
  have e1 : y / y' - x / x' = ((y - x) - x / x' * (y' - x')) / y' := by field_simp; ring
  rw [e1, abs_div, abs_of_pos hy'0]
  have e2 : |(y - x) - x / x' * (y' - x')| ≤ e + C * e' := by
    have a := abs_sub (y - x) (x / x' * (y' - x'))
    have b : |x / x' * (y' - x')| ≤ C * e' := by
      rw [abs_mul]; exact mul_le_mul hC h'.1 (abs_nonneg _) ((abs_nonneg _).trans hC)
    linarith [h.1]
  exact div_le_div₀ ((abs_nonneg _).trans e2) e2 hy0 hy'

/-- one branch of the dew point as computed -/
theorem dewBranch_err {expF logF : ℝ → ℝ} (he : ∀ x, |expF x - Real.exp x| ≤ 1e-15 * Real.exp x) (hlog : ∀ x, 0 < x → |logF x - Real.log x| ≤ 1e-15 * |Real.log x|)
    (sinF : ℝ → ℝ) (pi : ℝ) {a b T h l : ℝ} (hab : (a = 17.62 ∧ b = 243.12) ∨ (a = 22.46 ∧ b = 272.62)) (h0 : 1 ≤ h) (h1 : h ≤ 100)
    (hl : |argR R53 T - l| ≤ 1.5e-14) (l0 : -4 ≤ l) (l1 : l ≤ 3.01) :
    ∃ D, dewBranchR ⟨roundBits 53, expF, sinF, pi⟩ logF a b (.fin (vapR expF T h)) = .fin D ∧
      |D - (b * (l + Real.log (h / 100)) / (a - (l + Real.log (h / 100))) + 273.15)| ≤ 2e-12 := by
  have hh : 0 < h := by linarith
  have hr := ratio_err he hh hl
  have hpos : 0 < Real.exp l * (h / 100) := by positivity
  obtain ⟨hy, hL⟩ := log_err hpos hr
  have el : Real.log (Real.exp l * (h / 100)) = l + Real.log (h / 100) := by
    rw [Real.log_mul (Real.exp_pos _).ne' (by positivity), Real.log_exp]
  rw [el] at hL
  have hlo : -5 ≤ Real.log (h / 100) := by
    rw [Real.log_div hh.ne' (by norm_num)]
    have := Real.log_nonneg h0
    have := log100
    linarith
  have hhi := log_hum_le hh h1
  set L := l + Real.log (h / 100) with hLd
  have hLs : |L| ≤ 9 := abs_le.2 ⟨by linarith, by norm_num at l1; linarith⟩
  have hL1 : L ≤ 3.01 := by linarith
  set q := roundBits 53 (vapR expF T h / roundBits 53 6.112) with hq
  have hlq : Nr 3e-14 9 (logF q) L := by
    refine ⟨?_, hLs⟩
    have h2 := hlog q hy
    have h3 : |Real.log q| ≤ 9.1 := by
      have := abs_sub_abs_le_abs_sub (Real.log q) L
      norm_num at *; linarith
    have h4 := abs_sub_le (logF q) (Real.log q) L
    have h5 : 1e-15 * |Real.log q| ≤ 1e-15 * 9.1 := mul_le_mul_of_nonneg_left h3 (by norm_num)
    norm_num at *; linarith
  have hb : 0 < b ∧ b ≤ 273 := by rcases hab with ⟨-, rfl⟩ | ⟨-, rfl⟩ <;> norm_num
  have ha : 17.62 ≤ a ∧ a ≤ 23 := by rcases hab with ⟨rfl, -⟩ | ⟨rfl, -⟩ <;> norm_num
  have ha0 : 0 < a := by linarith [ha.1, (by norm_num : (0 : ℝ) < 17.62)]
  have nb : Nr 3.3e-14 273 (roundBits 53 b) b := (Nr.const (B := 273) (by rw [abs_of_pos hb.1]; exact hb.2)).fl (by norm_num)
  have na : Nr 2.8e-15 23 (roundBits 53 a) a := (Nr.const (B := 23) (by rw [abs_of_pos ha0]; exact ha.2)).fl (by norm_num)
  have nn : Nr 9e-12 2457 (roundBits 53 (roundBits 53 b * logF q)) (b * L) := ((nb.mul hlq).weaken (e' := 8.6e-12) (B' := 2457) (by norm_num) (by norm_num)).fl (by norm_num)
  have nd : Nr 3.8e-14 32 (roundBits 53 (roundBits 53 a - logF q)) (a - L) := ((na.sub hlq).weaken (e' := 3.3e-14) (B' := 32) (by norm_num) (by norm_num)).fl (by norm_num)
  have hden : 14.6 ≤ a - L := by have := ha.1; norm_num at this hL1 ⊢; linarith
  have hden0 : 0 < a - L := lt_of_lt_of_le (by norm_num) hden
  have nq : Nr 1.2e-12 170 (roundBits 53 (roundBits 53 b * logF q) / roundBits 53 (roundBits 53 a - logF q)) (b * L / (a - L)) := by
    refine nn.quot nd hden (by norm_num) ?_ (by norm_num)
    rw [abs_div, abs_of_pos hden0, div_le_iff₀ hden0, abs_mul, abs_of_pos hb.1]
    calc b * |L| ≤ 273 * 9 := mul_le_mul hb.2 hLs (abs_nonneg _) (by norm_num)
      _ ≤ 170 * 14.6 := by norm_num
      _ ≤ _ := mul_le_mul_of_nonneg_left hden (by norm_num)
  have nk : Nr 3.3e-14 274 (roundBits 53 kelvin0) 273.15 :=
    (Nr.const (x := 273.15) (B := 274) (by rw [abs_of_pos] <;> norm_num)).fl (by norm_num)
  have nr := ((nq.fl (e' := 1.3e-12) (by norm_num)).add nk).fl (e' := 2e-12) (by norm_num)
  refine ⟨_, ?_, nr.1⟩
  have hcpos : roundBits 53 (6.112 : ℝ) ≠ 0 := by
    have lc := abs_le.1 (rb_err 6.112)
    rw [abs_of_pos (by norm_num : (0 : ℝ) < 6.112)] at lc
    intro h0
    rw [h0] at lc
    norm_num at lc
  have hdne : roundBits 53 (roundBits 53 a - logF q) ≠ 0 := by
    intro h0
    have := (abs_le.1 nd.1).1
    rw [h0] at this
    norm_num at this hden
    linarith
  unfold dewBranchR
  dsimp only
  rw [XF.fin_div_fin_of_ne _ hcpos]
  simp only [XF.rnd]
  rw [← hq, show logCell logF (.fin q) = .fin (logF q) from if_pos hy, XF.fin_mul_fin, XF.fin_sub_fin]
  simp only [XF.rnd]
  rw [XF.fin_div_fin_of_ne _ hdne]
  simp only [XF.rnd, XF.fin_add_fin]

end

end Melodist
