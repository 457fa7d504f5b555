import Verif.Lemmas.Acc
import Verif.Model.HumidityRound
import Verif.Spec.Phys
import Mathlib.Analysis.Complex.Exponential

/-!
# Helper lemmas: error of a computation to first order in the unit roundoff
-/

set_option linter.unusedSectionVars false

namespace Melodist
open Spec

noncomputable section

/-- `y` is computed for `x`, of size at most `B`, with an error of at most `e` times the unit roundoff -/
def Lin (R : Rounding ℝ) (e y x B : ℝ) : Prop := |y - x| ≤ e * R.u ∧ |x| ≤ B

variable {R : Rounding ℝ}

theorem Lin.mono {e y x B e' B' : ℝ} (h : Lin R e y x B) (he : e ≤ e') (hB : B ≤ B') : Lin R e' y x B' :=
  ⟨h.1.trans (mul_le_mul_of_nonneg_right he R.u_nonneg), h.2.trans hB⟩

theorem Lin.abs_le {e y x B : ℝ} (h : Lin R e y x B) : |y| ≤ B + e * R.u := by
  have := abs_add_le (y - x) x
  rw [sub_add_cancel] at this
  linarith [h.1, h.2]

theorem Lin.round {e y x B : ℝ} (h : Lin R e y x B) (he : 0 ≤ e) (hu : R.u ≤ 1 / 1000000) : Lin R (e + B + e / 1000000) (R.fl y) x B := by
  refine ⟨?_, h.2⟩
  have a := R.err y
  have b := mul_le_mul_of_nonneg_left h.abs_le R.u_nonneg
  have c := abs_add_le (R.fl y - y) (y - x)
  rw [sub_add_sub_cancel] at c
  have d : R.u * (e * R.u) ≤ e / 1000000 * R.u := by
    have := mul_le_mul_of_nonneg_left hu (mul_nonneg he R.u_nonneg)
    nlinarith
  have := h.1
  nlinarith

/-- a rounded literal -/
theorem Lin.lit (R : Rounding ℝ) (x B : ℝ) (h : |x| ≤ B) : Lin R B (R.fl x) x B :=
  ⟨(R.err x).trans (by rw [mul_comm]; exact mul_le_mul_of_nonneg_right h R.u_nonneg), h⟩

theorem Lin.exact (R : Rounding ℝ) (x B : ℝ) (h : |x| ≤ B) : Lin R 0 x x B := ⟨by simp, h⟩

theorem Lin.add {e y x B e' y' x' B' : ℝ} (h : Lin R e y x B) (h' : Lin R e' y' x' B') {C : ℝ} (hC : |x + x'| ≤ C) : Lin R (e + e') (y + y') (x + x') C := by
  refine ⟨?_, hC⟩
  have := abs_add_le (y - x) (y' - x')
  rw [show y + y' - (x + x') = (y - x) + (y' - x') by ring]
  linarith [h.1, h'.1]

theorem Lin.sub {e y x B e' y' x' B' : ℝ} (h : Lin R e y x B) (h' : Lin R e' y' x' B') {C : ℝ} (hC : |x - x'| ≤ C) : Lin R (e + e') (y - y') (x - x') C := by
  refine ⟨?_, hC⟩
  have := abs_sub (y - x) (y' - x')
  rw [show y - y' - (x - x') = (y - x) - (y' - x') by ring]
  linarith [h.1, h'.1]

theorem Lin.mul {e y x B e' y' x' B' : ℝ} (h : Lin R e y x B) (h' : Lin R e' y' x' B') (he : 0 ≤ e) (he' : 0 ≤ e') (hu : R.u ≤ 1 / 1000000) {C : ℝ}
    (hC : |x * x'| ≤ C) : Lin R (e * B' + B * e' + e * e' / 1000000) (y * y') (x * x') C := by
  refine ⟨?_, hC⟩
  have h0 := R.u_nonneg
  rw [show y * y' - x * x' = (y - x) * x' + x * (y' - x') + (y - x) * (y' - x') by ring]
  have hB : 0 ≤ B := (abs_nonneg x).trans h.2
  have a : |(y - x) * x'| ≤ e * R.u * B' := by
    rw [abs_mul]; exact mul_le_mul h.1 h'.2 (abs_nonneg _) (mul_nonneg he h0)
  have b : |x * (y' - x')| ≤ B * (e' * R.u) := by
    rw [abs_mul]; exact mul_le_mul h.2 h'.1 (abs_nonneg _) hB
  have c : |(y - x) * (y' - x')| ≤ e * R.u * (e' * R.u) := by
    rw [abs_mul]; exact mul_le_mul h.1 h'.1 (abs_nonneg _) (mul_nonneg he h0)
  have d : e * R.u * (e' * R.u) ≤ e * e' / 1000000 * R.u := by
    have := mul_le_mul_of_nonneg_left hu (mul_nonneg (mul_nonneg he he') h0)
    nlinarith
  have t1 := abs_add_le ((y - x) * x' + x * (y' - x')) ((y - x) * (y' - x'))
  have t2 := abs_add_le ((y - x) * x') (x * (y' - x'))
  nlinarith

theorem Lin.div {e y x B e' y' x' B' : ℝ} (h : Lin R e y x B) (h' : Lin R e' y' x' B') (he : 0 ≤ e) (he' : 0 ≤ e') (hu : R.u ≤ 1 / 1000000) {D C : ℝ}
    (hD : D ≤ x') (hD0 : e' / 1000000 < D) (hC : |x / x'| ≤ C) : Lin R ((e + C * e') / (D - e' / 1000000)) (y / y') (x / x') C := by
  refine ⟨?_, hC⟩
  have h0 := R.u_nonneg
  have hx' : 0 < x' := by
    have : 0 ≤ e' / 1000000 := by positivity
    linarith
  have hy' : D - e' / 1000000 ≤ y' := by
    have := (_root_.abs_le.1 h'.1).1
    have := mul_le_mul_of_nonneg_left hu he'
    linarith
  have hy0 : 0 < D - e' / 1000000 := by linarith
  have hy'0 : 0 < y' := by linarith
  have e1 : y / y' - x / x' = ((y - x) - x / x' * (y' - x')) / y' := by field_simp; ring
  rw [e1, abs_div, abs_of_pos hy'0]
  have e2 : |(y - x) - x / x' * (y' - x')| ≤ (e + C * e') * R.u := by
    have a := abs_sub (y - x) (x / x' * (y' - x'))
    have b : |x / x' * (y' - x')| ≤ C * (e' * R.u) := by
      rw [abs_mul]; exact mul_le_mul hC h'.1 (abs_nonneg _) ((abs_nonneg _).trans hC)
    linarith [h.1]
  rw [div_mul_eq_mul_div (e + C * e')]
  exact div_le_div₀ ((abs_nonneg _).trans e2) e2 hy0 hy'

/-- the argument of the exponential in `vapor_pressure`, computed -/
def magnusArgR (R : Rounding ℝ) (a b T : ℝ) : ℝ := R.fl (R.fl (R.fl a * R.fl (T - R.fl kelvin0)) / R.fl (R.fl b + R.fl (T - R.fl kelvin0)))

theorem magnusArg_err (hu : R.u ≤ 1 / 1000000) {a b T : ℝ}
    (h : (a = 17.62 ∧ b = 243.12 ∧ 273 ≤ T ∧ T ≤ 323.15) ∨ (a = 22.46 ∧ b = 272.62 ∧ 233.15 ≤ T ∧ T ≤ 273.16)) :
    |magnusArgR R a b T - a * (T - 273.15) / (b + (T - 273.15))| ≤ 70 * R.u := by
  have k := Lin.lit R kelvin0 274 (by unfold kelvin0; rw [abs_of_pos] <;> norm_num)
  have t := Lin.exact R T 400 (by rw [abs_of_pos] <;> rcases h with h | h <;> linarith)
  have ek : T - kelvin0 = T - 273.15 := rfl
  unfold magnusArgR
  rcases h with ⟨rfl, rfl, h1, h2⟩ | ⟨rfl, rfl, h1, h2⟩
  · have d := ((t.sub k (C := 50) (by rw [ek, abs_le]; constructor <;> linarith)).round (by norm_num) hu).mono (e' := 325) (by norm_num) (le_refl _)
    rw [ek] at d
    have n := ((((Lin.lit R 17.62 17.62 (by rw [abs_of_pos] <;> norm_num)).mul d (by norm_num) (by norm_num) hu (C := 881)
      (by rw [abs_le]; constructor <;> linarith))).round (by norm_num) hu).mono (e' := 7500) (by norm_num) (le_refl _)
    have m := (((Lin.lit R 243.12 243.12 (by rw [abs_of_pos] <;> norm_num)).add d (C := 294) (by rw [abs_le]; constructor <;> linarith)).round
      (by norm_num) hu).mono (e' := 863) (by norm_num) (le_refl _)
    have q := (n.div m (by norm_num) (by norm_num) hu (D := 242) (C := 4) (by linarith) (by norm_num) (by
      have : (0 : ℝ) < 243.12 + (T - 273.15) := by linarith
      rw [abs_div, abs_of_pos this, div_le_iff₀ this, abs_le]
      constructor <;> linarith)).round (by norm_num) hu
    exact (q.mono (by norm_num : _ ≤ (70 : ℝ)) (le_refl _)).1
  · have d := ((t.sub k (C := 40) (by rw [ek, abs_le]; constructor <;> linarith)).round (by norm_num) hu).mono (e' := 315) (by norm_num) (le_refl _)
    rw [ek] at d
    have n := ((((Lin.lit R 22.46 22.46 (by rw [abs_of_pos] <;> norm_num)).mul d (by norm_num) (by norm_num) hu (C := 899)
      (by rw [abs_le]; constructor <;> linarith))).round (by norm_num) hu).mono (e' := 8900) (by norm_num) (le_refl _)
    have m := (((Lin.lit R 272.62 272.62 (by rw [abs_of_pos] <;> norm_num)).add d (C := 273) (by rw [abs_le]; constructor <;> linarith)).round
      (by norm_num) hu).mono (e' := 863) (by norm_num) (le_refl _)
    have q := (n.div m (by norm_num) (by norm_num) hu (D := 232) (C := 4) (by linarith) (by norm_num) (by
      have : (0 : ℝ) < 272.62 + (T - 273.15) := by linarith
      rw [abs_div, abs_of_pos this, div_le_iff₀ this, abs_le]
      constructor <;> linarith)).round (by norm_num) hu
    exact (q.mono (by norm_num : _ ≤ (70 : ℝ)) (le_refl _)).1

/-- the exact argument -/
def magnusArg (T : ℝ) : ℝ := if 273.15 ≤ T then 17.62 * (T - 273.15) / (243.12 + (T - 273.15)) else 22.46 * (T - 273.15) / (272.62 + (T - 273.15))

theorem satPressure_arg (T : ℝ) : satPressure T = 6.112 * Real.exp (magnusArg T) := by
  unfold satPressure magnusArg
  split <;> rfl

/-- near 0 °C both formulas are close to 0 -/
theorem magnus_small (hu : R.u ≤ 1 / 1000000) {T : ℝ} (h : |T - 273.15| ≤ 274 * R.u) :
    |17.62 * (T - 273.15) / (243.12 + (T - 273.15))| ≤ 27 * R.u ∧ |22.46 * (T - 273.15) / (272.62 + (T - 273.15))| ≤ 27 * R.u := by
  have h1 := _root_.abs_le.1 h
  constructor
  · have : (0 : ℝ) < 243.12 + (T - 273.15) := by linarith
    rw [abs_div, abs_mul, abs_of_pos this, div_le_iff₀ this, abs_of_pos (by norm_num)]
    nlinarith [R.u_nonneg]
  · have : (0 : ℝ) < 272.62 + (T - 273.15) := by linarith
    rw [abs_div, abs_mul, abs_of_pos this, div_le_iff₀ this, abs_of_pos (by norm_num)]
    nlinarith [R.u_nonneg]

/-- the argument of the exponential as computed, with the branch as computed -/
def argR (R : Rounding ℝ) (T : ℝ) : ℝ := if R.fl kelvin0 ≤ T then magnusArgR R 17.62 243.12 T else magnusArgR R 22.46 272.62 T

theorem argR_err (hu : R.u ≤ 1 / 1000000) {T : ℝ} (h1 : 233.15 ≤ T) (h2 : T ≤ 323.15) : |argR R T - magnusArg T| ≤ 130 * R.u := by
  have hk : |R.fl kelvin0 - 273.15| ≤ 274 * R.u := by
    have := R.err kelvin0
    unfold kelvin0 at this ⊢
    rw [abs_of_pos (by norm_num : (0 : ℝ) < 273.15)] at this
    nlinarith [R.u_nonneg]
  obtain ⟨k1, k2⟩ := _root_.abs_le.1 hk
  have hu0 := R.u_nonneg
  unfold argR magnusArg
  by_cases c : R.fl kelvin0 ≤ T
  · rw [if_pos c]
    have e := magnusArg_err (R := R) hu (a := 17.62) (b := 243.12) (T := T) (.inl ⟨rfl, rfl, by linarith, h2⟩)
    by_cases c' : 273.15 ≤ T
    · rw [if_pos c']
      exact e.trans (by linarith)
    · rw [if_neg c']
      obtain ⟨s1, s2⟩ := magnus_small hu (T := T) (abs_le.2 ⟨by linarith, by linarith⟩)
      have := abs_sub_le (magnusArgR R 17.62 243.12 T) (17.62 * (T - 273.15) / (243.12 + (T - 273.15))) (22.46 * (T - 273.15) / (272.62 + (T - 273.15)))
      have := abs_sub (17.62 * (T - 273.15) / (243.12 + (T - 273.15))) (22.46 * (T - 273.15) / (272.62 + (T - 273.15)))
      linarith
  · rw [if_neg c]
    have c2 := not_le.1 c
    have e := magnusArg_err (R := R) hu (a := 22.46) (b := 272.62) (T := T) (.inr ⟨rfl, rfl, h1, by linarith⟩)
    by_cases c' : 273.15 ≤ T
    · rw [if_pos c']
      obtain ⟨s1, s2⟩ := magnus_small hu (T := T) (abs_le.2 ⟨by linarith, by linarith⟩)
      have := abs_sub_le (magnusArgR R 22.46 272.62 T) (22.46 * (T - 273.15) / (272.62 + (T - 273.15))) (17.62 * (T - 273.15) / (243.12 + (T - 273.15)))
      have := abs_sub (22.46 * (T - 273.15) / (272.62 + (T - 273.15))) (17.62 * (T - 273.15) / (243.12 + (T - 273.15)))
      linarith
    · rw [if_neg c']
      exact e.trans (by linarith)

/-- `exp` with relative error `ε`, of an argument with error `δ` -/
theorem exp_err {x y δ ε w : ℝ} (hδ : |y - x| ≤ δ) (hδ1 : δ ≤ 1 / 1000) (hε : |w - Real.exp y| ≤ ε * Real.exp y) (hε1 : ε ≤ 1 / 1000) :
    |w - Real.exp x| ≤ (1.001 * δ + 1.002 * ε) * Real.exp x := by
  have hx := Real.exp_pos x
  have hy : Real.exp y = Real.exp x * Real.exp (y - x) := by rw [← Real.exp_add]; congr 1; ring
  have hd0 : 0 ≤ δ := (abs_nonneg _).trans hδ
  have he0 : 0 ≤ ε := by
    by_contra hc
    have := mul_neg_of_neg_of_pos (not_le.1 hc) (Real.exp_pos y)
    linarith [abs_nonneg (w - Real.exp y)]
  have q := Real.abs_exp_sub_one_sub_id_le (x := y - x) (by linarith)
  have q2 : (y - x) ^ 2 ≤ δ / 1000 := by
    rw [← sq_abs]
    nlinarith [abs_nonneg (y - x)]
  have q3 : |Real.exp (y - x) - 1| ≤ 1.001 * δ := by
    have := abs_add_le (Real.exp (y - x) - 1 - (y - x)) (y - x)
    rw [sub_add_cancel] at this
    linarith
  have q4 : |Real.exp y - Real.exp x| ≤ 1.001 * δ * Real.exp x := by
    rw [hy, show Real.exp x * Real.exp (y - x) - Real.exp x = (Real.exp (y - x) - 1) * Real.exp x by ring, abs_mul, abs_of_pos hx]
    exact mul_le_mul_of_nonneg_right q3 hx.le
  have q5 : Real.exp y ≤ 1.002 * Real.exp x := by
    have := (_root_.abs_le.1 q4).2
    nlinarith
  have := abs_sub_le w (Real.exp y) (Real.exp x)
  nlinarith

/-- a product with a relative error -/
theorem rel_mul {x y α w : ℝ} (hx : 0 < x) (h : |y - x| ≤ α * x) (hα : 0 ≤ α) (hα1 : α ≤ 1 / 100) {e : ℝ} (he0 : 0 ≤ e) (he : |w - y| ≤ e * |y|) :
    |w - x| ≤ (α + 1.01 * e) * x := by
  obtain ⟨h1, h2⟩ := _root_.abs_le.1 h
  have hy : |y| ≤ 1.01 * x := by rw [abs_le]; constructor <;> nlinarith
  have := abs_sub_le w y x
  nlinarith

/-- the vapour pressure as computed -/
def satR (R : Rounding ℝ) (expF : ℝ → ℝ) (T : ℝ) : ℝ := R.fl (R.fl (R.fl (R.fl 6.112 * expF (argR R T)) * 100) / 100)

theorem vaporR_eq (R : Rounding ℝ) (expF sinF : ℝ → ℝ) (pi : ℝ) {T : ℝ} (h : R.fl (R.fl (if R.fl kelvin0 ≤ T then 243.12 else 272.62) + R.fl (T - R.fl kelvin0)) ≠ 0) :
    vaporPressureCellR ⟨R.fl, expF, sinF, pi⟩ (.fin T) (.fin 100) = .fin (satR R expF T) := by
  unfold vaporPressureCellR magnusR satR argR magnusArgR
  have hle : XF.le (.fin (R.fl kelvin0)) (.fin T) ↔ R.fl kelvin0 ≤ T := Iff.rfl
  dsimp only
  by_cases c : R.fl kelvin0 ≤ T
  · rw [if_pos c] at h
    rw [if_pos (hle.2 c), if_pos c, XF.fin_sub_fin]
    simp only [XF.rnd, XF.fin_mul_fin, XF.fin_add_fin]
    rw [XF.fin_div_fin_of_ne _ h]
    simp only [XF.rnd, FloatHum.expCell, XF.fin_mul_fin]
    rw [XF.fin_div_fin_of_ne _ (by norm_num)]
  · rw [if_neg c] at h
    rw [if_neg (fun h => c (hle.1 h)), if_neg c, XF.fin_sub_fin]
    simp only [XF.rnd, XF.fin_mul_fin, XF.fin_add_fin]
    rw [XF.fin_div_fin_of_ne _ h]
    simp only [XF.rnd, FloatHum.expCell, XF.fin_mul_fin]
    rw [XF.fin_div_fin_of_ne _ (by norm_num)]

theorem denom_ne (hu : R.u ≤ 1 / 1000000) {T : ℝ} (h1 : 233.15 ≤ T) (h2 : T ≤ 323.15) :
    R.fl (R.fl (if R.fl kelvin0 ≤ T then 243.12 else 272.62) + R.fl (T - R.fl kelvin0)) ≠ 0 := by
  have k := Lin.lit R kelvin0 274 (by unfold kelvin0; rw [abs_of_pos] <;> norm_num)
  have t := Lin.exact R T 400 (by rw [abs_of_pos] <;> linarith)
  have ek : T - kelvin0 = T - 273.15 := rfl
  have d := ((t.sub k (C := 50) (by rw [ek, abs_le]; constructor <;> linarith)).round (by norm_num) hu).mono (e' := 325) (by norm_num) (le_refl _)
  rw [ek] at d
  have hb : ∀ b : ℝ, 243 ≤ b → b ≤ 273 → R.fl (R.fl b + R.fl (T - R.fl kelvin0)) ≠ 0 := by
    intro b b1 b2
    have m := (((Lin.lit R b 273 (by rw [abs_of_pos] <;> linarith)).add d (C := 323) (by rw [abs_le]; constructor <;> linarith)).round
      (by norm_num) hu).mono (e' := 1000) (by norm_num) (le_refl _)
    intro h0
    have := m.1
    rw [h0] at this
    have := (_root_.abs_le.1 this).1
    nlinarith [R.u_nonneg]
  split
  · exact hb _ (by norm_num) (by norm_num)
  · exact hb _ (by norm_num) (by norm_num)

theorem satR_err (hu : R.u ≤ 1 / 1000000) {expF : ℝ → ℝ} {ε : ℝ} (he : ∀ x, |expF x - Real.exp x| ≤ ε * Real.exp x) (hε : ε ≤ 1 / 1000) {T : ℝ}
    (h1 : 233.15 ≤ T) (h2 : T ≤ 323.15) : |satR R expF T - satPressure T| ≤ (140 * R.u + 1.1 * ε) * satPressure T := by
  have hu0 := R.u_nonneg
  have hε0 : 0 ≤ ε := by
    have := (abs_nonneg _).trans (he 0)
    rwa [Real.exp_zero, mul_one] at this
  have a := exp_err (argR_err hu h1 h2) (by linarith) (he (argR R T)) hε
  have hx := Real.exp_pos (magnusArg T)
  rw [satPressure_arg]
  unfold satR
  set w := expF (argR R T) with hw
  set x := Real.exp (magnusArg T) with hxx
  set α := 1.001 * (130 * R.u) + 1.002 * ε with hα
  have hα0 : 0 ≤ α := by rw [hα]; positivity
  have hα1 : α ≤ 1 / 200 := by rw [hα]; linarith
  -- the factor 6.112
  have b : |6.112 * w - 6.112 * x| ≤ α * (6.112 * x) := by
    rw [← mul_sub, abs_mul, abs_of_pos (by norm_num)]
    nlinarith
  have lit : |R.fl 6.112 * w - 6.112 * w| ≤ R.u * |6.112 * w| := by
    rw [← sub_mul, abs_mul, abs_mul, ← mul_assoc]
    exact mul_le_mul_of_nonneg_right (R.err _) (abs_nonneg _)
  have hp : (0 : ℝ) < 6.112 * x := by positivity
  have c1 := rel_mul hp b hα0 (by linarith) hu0 lit
  have c2 := rel_mul hp c1 (by positivity) (by linarith) hu0 (R.err _)
  have c2' : |R.fl (R.fl 6.112 * w) * 100 - 6.112 * x * 100| ≤ (α + 1.01 * R.u + 1.01 * R.u) * (6.112 * x * 100) := by
    rw [← sub_mul, abs_mul, abs_of_pos (by norm_num : (0 : ℝ) < 100), ← mul_assoc]
    exact mul_le_mul_of_nonneg_right c2 (by norm_num)
  have c3 := rel_mul (by positivity : 0 < 6.112 * x * 100) c2' (by positivity) (by linarith) hu0 (R.err _)
  have c3' : |R.fl (R.fl (R.fl 6.112 * w) * 100) / 100 - 6.112 * x| ≤ (α + 1.01 * R.u + 1.01 * R.u + 1.01 * R.u) * (6.112 * x) := by
    rw [show R.fl (R.fl (R.fl 6.112 * w) * 100) / 100 - 6.112 * x = (R.fl (R.fl (R.fl 6.112 * w) * 100) - 6.112 * x * 100) / 100 by ring, abs_div,
      abs_of_pos (by norm_num : (0 : ℝ) < 100), div_le_iff₀ (by norm_num)]
    linarith
  have c4 := rel_mul hp c3' (by positivity) (by linarith) hu0 (R.err _)
  refine c4.trans (mul_le_mul_of_nonneg_right ?_ hp.le)
  rw [hα]
  linarith

end

end Melodist
