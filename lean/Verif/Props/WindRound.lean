import Verif.Model.WindRound
import Verif.Props.Wind
import Verif.Lemmas.SunNearB
import Mathlib.Analysis.Complex.ExponentialBounds

/-!
# C155: random wind speeds in floating-point arithmetic
-/

set_option linter.unusedSectionVars false

namespace Melodist
open Spec

noncomputable section

/-- double precision: rounding to 53 bits, logarithm and power accurate to 1e-15 of their values -/
structure Spec.DoublePow (F : PowMath) : Prop where
  fl : F.fl = roundBits 53
  log_err : ∀ x, 0 < x → |F.log x - Real.log x| ≤ 1e-15 * |Real.log x|
  pow_err : ∀ x p, 0 < x → |F.pow x p - x ^ p| ≤ 1e-15 * x ^ p

/-- the numbers `np.random.rand` returns: multiples of 2^-53 from 0 to 1 - 2^-53 -/
def Spec.RandNumber (u : ℝ) : Prop := ∃ j : Nat, j < 2 ^ 53 ∧ u = j / 2 ^ 53

/-! ### the model is that of `disaggregate_wind` -/

/-- with exact operations `randomWindR` is `disaggregate_wind` with method 'random' -/
theorem randomWindR_exact (api : PandasApi) (draw : Nat → ℝ) (daily : Series (XF ℝ)) (a b tShift : Option ℝ) :
    disaggregateWind api draw daily "random" a b tShift = (randomWindR .exact api draw daily).map .series := by
  unfold disaggregateWind randomWindR
  have hr : ∀ c : XF ℝ, c.rnd PowMath.exact.fl = c := by intro c; cases c <;> rfl
  have hl : ∀ u, PowMath.exact.logCell u = XF.log (.fin u) := by
    intro u
    unfold PowMath.logCell
    rcases lt_trichotomy u 0 with h | h | h
    · rw [if_neg h.not_gt, if_neg h.ne]; simp [XF.log, h.not_gt, h.ne]
    · subst h; simp [XF.log]
    · rw [if_pos h, XF.log_fin h]; rfl
  have hp : ∀ c, PowMath.exact.pow03 c = XF.powPos 0.3 c := by
    intro c
    cases c <;> rfl
  simp only [hr, hl, hp]
  cases distributeEqually api daily with
  | error e => rfl
  | ok w => rfl

theorem randomWindR_daily (F : PowMath) (api : PandasApi) (draw : Nat → ℝ) (d0 : Int) {n : Nat} (hn : 0 < n) (v : Nat → XF ℝ) :
    randomWindR F api draw (dailyS d0 n v) = .ok (hourlyS d0 n fun i h => (v i * F.pow03 (-(F.logCell (draw (24 * i + h))))).rnd F.fl) := by
  unfold randomWindR
  rw [distributeEqually_daily api d0 hn]
  show (Except.ok _ : Py (Series (XF ℝ))) = _
  congr 1
  exact zipIdx_hourlyS d0 n _ fun x k => (x * F.pow03 (-(F.logCell (draw k)))).rnd F.fl

/-! ### one hour -/

theorem randNumber_log {u : ℝ} (h : RandNumber u) (h0 : u ≠ 0) : 0 < u ∧ u < 1 ∧ 1e-16 ≤ -Real.log u ∧ (2:ℝ)⁻¹ ^ 53 ≤ -Real.log u ∧ -Real.log u ≤ 36.737 := by
  obtain ⟨j, hj, rfl⟩ := h
  have hj0 : 0 < j := by
    rcases Nat.eq_zero_or_pos j with e | e
    · subst e; simp at h0
    · exact e
  have hj1 : (1:ℝ) ≤ j := by exact_mod_cast hj0
  have hj2 : (j:ℝ) ≤ 2 ^ 53 - 1 := by
    have : j + 1 ≤ 2 ^ 53 := hj
    have : ((j + 1 : Nat) : ℝ) ≤ ((2 ^ 53 : Nat) : ℝ) := by exact_mod_cast this
    push_cast at this
    linarith
  have hu0 : (0:ℝ) < j / 2 ^ 53 := by positivity
  have hu1 : (j:ℝ) / 2 ^ 53 ≤ 1 - (2:ℝ)⁻¹ ^ 53 := by
    rw [div_le_iff₀ (by positivity)]
    norm_num at hj2 ⊢
    linarith
  have h2 : (2:ℝ)⁻¹ ^ 53 ≤ -Real.log (j / 2 ^ 53) := by
    have := Real.log_le_sub_one_of_pos hu0
    linarith
  refine ⟨hu0, hu1.trans_lt (by norm_num), le_trans (by norm_num) h2, h2, ?_⟩
  have hl : Real.log ((2:ℝ)⁻¹ ^ 53) ≤ Real.log (j / 2 ^ 53) := by
    apply Real.log_le_log (by positivity)
    rw [inv_pow, inv_eq_one_div]
    exact div_le_div_of_nonneg_right hj1 (by positivity)
  rw [Real.log_pow, Real.log_inv] at hl
  have := Real.log_two_lt_d9
  push_cast at hl
  norm_num at this ⊢
  linarith

/-- relative error -/
theorem relErr_mul {x y x' y' a b c : ℝ} (hx : |x' - x| ≤ a * |x|) (hy : |y' - y| ≤ b * |y|) (ha : 0 ≤ a) (hc : a + b + a * b ≤ c) : |x' * y' - x * y| ≤ c * |x * y| := by
  have e : x' * y' - x * y = (x' - x) * y + x * (y' - y) + (x' - x) * (y' - y) := by ring
  rw [e]
  have h1 := mul_le_mul_of_nonneg_right hx (abs_nonneg y)
  have h2 := mul_le_mul_of_nonneg_left hy (abs_nonneg x)
  have h3 := mul_le_mul hx hy (abs_nonneg _) (mul_nonneg ha (abs_nonneg _))
  have h4 := mul_le_mul_of_nonneg_right hc (abs_nonneg (x * y))
  rw [← abs_mul] at h1 h2 h3
  refine (abs_add_le _ _).trans ((add_le_add (abs_add_le _ _) le_rfl).trans ?_)
  rw [abs_mul x y] at h4 ⊢
  nlinarith

theorem relErr_trans {x y z a b c : ℝ} (h1 : |y - x| ≤ a * |x|) (h2 : |z - y| ≤ b * |y|) (hb : 0 ≤ b) (hc : a + b + a * b ≤ c) : |z - x| ≤ c * |x| := by
  have h3 : |y| ≤ (1 + a) * |x| := by
    have : |y| ≤ |y - x| + |x| := by simpa using abs_add_le (y - x) x
    linarith
  have h4 := mul_le_mul_of_nonneg_left h3 hb
  have h5 : |z - x| ≤ |z - y| + |y - x| := by simpa using abs_add_le (z - y) (y - x)
  have h6 := mul_le_mul_of_nonneg_right hc (abs_nonneg x)
  nlinarith

/-- a power with an exponent from 0 to 1 has no larger relative error -/
theorem relErr_rpow {x x' a p : ℝ} (hx : 0 < x) (h : |x' - x| ≤ a * x) (ha : 0 ≤ a) (ha1 : a < 1) (hp0 : 0 ≤ p) (hp1 : p ≤ 1) : |x' ^ p - x ^ p| ≤ a * x ^ p := by
  obtain ⟨h1, h2⟩ := abs_le.1 h
  have hxp : 0 < x ^ p := Real.rpow_pos_of_pos hx p
  have l1 : (1 - a) * x ^ p ≤ x' ^ p := by
    refine le_trans ?_ (Real.rpow_le_rpow (by nlinarith) (show (1 - a) * x ≤ x' by linarith) hp0)
    rw [Real.mul_rpow (by linarith) hx.le]
    refine mul_le_mul_of_nonneg_right ?_ hxp.le
    have := Real.rpow_le_rpow_of_exponent_ge (show 0 < 1 - a by linarith) (by linarith) hp1
    rwa [Real.rpow_one] at this
  have l2 : x' ^ p ≤ (1 + a) * x ^ p := by
    refine (Real.rpow_le_rpow (by nlinarith) (show x' ≤ (1 + a) * x by linarith) hp0).trans ?_
    rw [Real.mul_rpow (by linarith) hx.le]
    refine mul_le_mul_of_nonneg_right ?_ hxp.le
    have := Real.rpow_le_rpow_of_exponent_le (show 1 ≤ 1 + a by linarith) hp1
    rwa [Real.rpow_one] at this
  rw [abs_le]
  constructor <;> nlinarith

/-- the literal 0.3 -/
theorem lit03 : |roundBits 53 (0.3 : ℝ) - 0.3| ≤ 3.4e-17 := by
  have := roundBits_err (p := 53) (0.3 : ℝ)
  refine this.trans ?_
  norm_num [abs_of_pos]

theorem rpow_lit {x p : ℝ} (hx : 1e-16 ≤ x) (hx1 : x ≤ 36.737) (hp : |p - 0.3| ≤ 3.4e-17) : |x ^ p - x ^ (0.3 : ℝ)| ≤ 2.6e-15 * x ^ (0.3 : ℝ) := by
  have h0 : 0 < x := lt_of_lt_of_le (by norm_num) hx
  have hl : |Real.log x| ≤ 37.5 := by
    have h2 := Real.log_two_lt_d9
    have h3 := Real.log_two_gt_d9
    rw [abs_le]
    constructor
    · have h4 : Real.log ((2:ℝ)⁻¹ ^ 54) ≤ Real.log x := Real.log_le_log (by positivity) (le_trans (by norm_num) hx)
      rw [Real.log_pow, Real.log_inv] at h4
      push_cast at h4
      norm_num at h2 ⊢
      linarith
    · have h4 : Real.log x ≤ x - 1 := Real.log_le_sub_one_of_pos h0
      norm_num at hx1 ⊢
      linarith
  have e : x ^ p = x ^ (0.3 : ℝ) * Real.exp (Real.log x * (p - 0.3)) := by
    rw [← Real.rpow_def_of_pos h0, ← Real.rpow_add h0]
    congr 1
    ring
  have hs : |Real.log x * (p - 0.3)| ≤ 1.3e-15 := by
    rw [abs_mul]
    exact (mul_le_mul hl hp (abs_nonneg _) (by norm_num)).trans (by norm_num)
  have he := Real.abs_exp_sub_one_le (x := Real.log x * (p - 0.3)) (hs.trans (by norm_num))
  have hxp : 0 < x ^ (0.3 : ℝ) := Real.rpow_pos_of_pos h0 _
  rw [e, show x ^ (0.3 : ℝ) * Real.exp (Real.log x * (p - 0.3)) - x ^ (0.3 : ℝ) = x ^ (0.3 : ℝ) * (Real.exp (Real.log x * (p - 0.3)) - 1) by ring, abs_mul, abs_of_pos hxp, mul_comm]
  refine mul_le_mul_of_nonneg_right (he.trans ?_) hxp.le
  norm_num at hs ⊢
  linarith

/-- the factor of an hour and its bounds -/
theorem factor_bounds {L : ℝ} (h1 : (2:ℝ)⁻¹ ^ 53 ≤ L) (h2 : L ≤ 36.737) : 1.63e-5 ≤ L ^ (0.3 : ℝ) ∧ L ^ (0.3 : ℝ) ≤ 2.949 := by
  have h0 : 0 < L := lt_of_lt_of_le (by positivity) h1
  have e : (L ^ (0.3 : ℝ)) ^ 10 = L ^ 3 := by
    rw [← Real.rpow_natCast, ← Real.rpow_mul h0.le, show (0.3 : ℝ) * ((10 : Nat) : ℝ) = ((3 : Nat) : ℝ) by norm_num, Real.rpow_natCast]
  have hy : 0 ≤ L ^ (0.3 : ℝ) := Real.rpow_nonneg h0.le _
  constructor
  · apply le_of_pow_le_pow_left₀ (n := 10) (by norm_num) hy
    rw [e]
    exact le_trans (by norm_num) (pow_le_pow_left₀ (by positivity) h1 3)
  · apply le_of_pow_le_pow_left₀ (n := 10) (by norm_num) (by norm_num)
    rw [e]
    exact (pow_le_pow_left₀ h0.le h2 3).trans (by norm_num)

theorem randomCell {F : PowMath} (hF : DoublePow F) {u : ℝ} (hu : RandNumber u) (h0 : u ≠ 0) (m : ℝ) : ∃ y, (XF.fin m * F.pow03 (-(F.logCell u))).rnd F.fl = .fin y ∧
    |y - m * (-Real.log u) ^ (0.3 : ℝ)| ≤ 5e-15 * |m * (-Real.log u) ^ (0.3 : ℝ)| := by
  obtain ⟨h1, h2, h3, h4, h5⟩ := randNumber_log hu h0
  have hL : 0 < -Real.log u := lt_of_lt_of_le (by norm_num) h3
  have hl : |-F.log u - -Real.log u| ≤ 1e-15 * (-Real.log u) := by
    have := hF.log_err u h1
    rw [abs_of_neg (by linarith : Real.log u < 0)] at this
    rwa [neg_sub_neg, abs_sub_comm]
  have hl0 : 0 < -F.log u := by
    have := (abs_le.1 hl).1
    norm_num at this
    nlinarith
  have hlit : |F.fl 0.3 - 0.3| ≤ 3.4e-17 := by rw [hF.fl]; exact lit03
  have hp0 : 0 ≤ F.fl 0.3 ∧ F.fl 0.3 ≤ 1 := by
    obtain ⟨a, b⟩ := abs_le.1 hlit
    norm_num at a b ⊢
    constructor <;> linarith
  have e : (XF.fin m * F.pow03 (-(F.logCell u))).rnd F.fl = .fin (F.fl (m * F.pow (-F.log u) (F.fl 0.3))) := by
    unfold PowMath.logCell
    rw [if_pos h1]
    show (XF.fin m * F.pow03 (.fin (-F.log u))).rnd F.fl = _
    rw [show F.pow03 (.fin (-F.log u)) = .fin (F.pow (-F.log u) (F.fl 0.3)) from if_pos hl0.le]
    rfl
  refine ⟨_, e, ?_⟩
  set L := -Real.log u with hLd
  have a1 := rpow_lit h3 h5 hlit
  have a2 := relErr_rpow (p := F.fl 0.3) hL hl (by norm_num) (by norm_num) hp0.1 hp0.2
  have a3 := hF.pow_err (-F.log u) (F.fl 0.3) hl0
  have q1 : ∀ x p : ℝ, 0 < x → x ^ p = |x ^ p| := fun x p hx => (abs_of_pos (Real.rpow_pos_of_pos hx p)).symm
  rw [q1 L 0.3 hL] at a1
  have a1' : |L ^ F.fl 0.3 - L ^ (0.3:ℝ)| ≤ 2.6e-15 * |L ^ (0.3:ℝ)| := by
    convert a1 using 2
    rw [abs_of_pos (Real.rpow_pos_of_pos hL _)]
  have a2' : |(-F.log u) ^ F.fl 0.3 - L ^ F.fl 0.3| ≤ 1e-15 * |L ^ F.fl 0.3| := by rw [abs_of_pos (Real.rpow_pos_of_pos hL (F.fl 0.3))]; exact a2
  have a3' : |F.pow (-F.log u) (F.fl 0.3) - (-F.log u) ^ F.fl 0.3| ≤ 1e-15 * |(-F.log u) ^ F.fl 0.3| := by rw [abs_of_pos (Real.rpow_pos_of_pos hl0 (F.fl 0.3))]; exact a3
  have b1 := relErr_trans (c := 3.7e-15) a1' a2' (by norm_num) (by norm_num)
  have b2 := relErr_trans (c := 4.8e-15) b1 a3' (by norm_num) (by norm_num)
  have b3 := relErr_mul (x := m) (x' := m) (a := 0) (c := 4.8e-15) (by simp) b2 le_rfl (by norm_num)
  refine relErr_trans (b := 1.2e-16) b3 ?_ (by norm_num) (by norm_num)
  rw [hF.fl]
  refine (roundBits_err (p := 53) _).trans (mul_le_mul_of_nonneg_right (by norm_num) (abs_nonneg _))

theorem pow03_zero (F : PowMath) : F.pow03 (-(F.logCell 0)) = .pinf := by
  unfold PowMath.logCell
  rw [if_neg (lt_irrefl _), if_pos rfl]
  rfl

/-- **C155** (one hour): in double precision a random number u > 0 gives a day with mean wind m the hourly value m (-ln u)^0.3 up to 5e-15 of it, and with m > 0 a value from
1.62e-5 m to 2.95 m. -/
theorem C155_hours {F : PowMath} (hF : DoublePow F) (api : PandasApi) {draw : Nat → ℝ} (hd : ∀ k, RandNumber (draw k)) (d0 : Int) {n : Nat} (hn : 0 < n) (v : Nat → XF ℝ) :
    ∃ g : Nat → Nat → XF ℝ, randomWindR F api draw (dailyS d0 n v) = .ok (hourlyS d0 n g) ∧ ∀ i < n, (v i = .nan → ∀ h < 24, g i h = .nan) ∧ ∀ m, v i = .fin m → ∀ h < 24,
      (draw (24 * i + h) ≠ 0 → ∃ y, g i h = .fin y ∧ |y - m * (-Real.log (draw (24 * i + h))) ^ (0.3 : ℝ)| ≤ 5e-15 * |m * (-Real.log (draw (24 * i + h))) ^ (0.3 : ℝ)| ∧
        (0 < m → 1.62e-5 * m ≤ y ∧ y ≤ 2.95 * m)) ∧
      (draw (24 * i + h) = 0 → (0 < m → g i h = .pinf) ∧ (m = 0 → g i h = .nan)) := by
  refine ⟨_, randomWindR_daily F api draw d0 hn v, fun i hi => ⟨fun h k hk => by rw [h]; rfl, fun m hm h hh => ⟨fun h0 => ?_, fun h0 => ⟨fun hp => ?_, fun h00 => ?_⟩⟩⟩⟩
  · obtain ⟨y, e, hy⟩ := randomCell hF (hd (24 * i + h)) h0 m
    refine ⟨y, by rw [hm]; exact e, hy, fun hpos => ?_⟩
    obtain ⟨_, _, _, h4, h5⟩ := randNumber_log (hd (24 * i + h)) h0
    obtain ⟨c1, c2⟩ := factor_bounds h4 h5
    set f := (-Real.log (draw (24 * i + h))) ^ (0.3 : ℝ)
    have hf : 0 < f := lt_of_lt_of_le (by norm_num) c1
    rw [abs_of_pos (mul_pos hpos hf)] at hy
    obtain ⟨y1, y2⟩ := abs_le.1 hy
    have k1 := mul_le_mul_of_nonneg_left c1 hpos.le
    have k2 := mul_le_mul_of_nonneg_left c2 hpos.le
    norm_num at y1 y2 k1 k2 ⊢
    constructor <;> nlinarith
  · show (v i * F.pow03 (-(F.logCell (draw (24 * i + h))))).rnd F.fl = .pinf
    rw [hm, h0, pow03_zero, show XF.fin m * XF.pinf = (XF.pinf : XF ℝ) from if_pos hp]
    rfl
  · show (v i * F.pow03 (-(F.logCell (draw (24 * i + h))))).rnd F.fl = .nan
    rw [hm, h0, h00, pow03_zero]
    have : XF.fin 0 * XF.pinf = (XF.nan : XF ℝ) := by
      show XF.infOfSign (0 : ℝ) = _
      unfold XF.infOfSign
      simp
    rw [this]
    rfl

/-! ### the distribution -/

/-- the result has a value above `x` (possibly infinite) at time `t` -/
def Spec.Exceeds (r : Py (Series (XF ℝ))) (t : Time) (x : ℝ) : Prop := ∃ s c, r = .ok s ∧ s.at? t = some c ∧ XF.lt (.fin x) c

theorem exp_down {a η : ℝ} (ha : 0 ≤ a) (h0 : 0 ≤ η) (h1 : η ≤ 1 / 2) : Real.exp (-(a * (1 - η))) ≤ Real.exp (-a) + 2 * η := by
  have e : Real.exp (-a) = Real.exp (-(a * (1 - η))) * Real.exp (-(a * η)) := by rw [← Real.exp_add]; congr 1; ring
  have h2 : 1 - a * η ≤ Real.exp (-(a * η)) := by have := Real.add_one_le_exp (-(a * η)); linarith
  have hp := Real.exp_pos (-(a * (1 - η)))
  have h3 : Real.exp (-(a * (1 - η))) * (a * η) ≤ 2 * η := by
    have h4 : Real.exp (-(a * (1 - η))) ≤ Real.exp (-(a / 2)) := Real.exp_le_exp.2 (by nlinarith)
    have h5 : (a / 2) * Real.exp (-(a / 2)) ≤ 1 := by
      have h6 := Real.add_one_le_exp (a / 2)
      have h7 := Real.exp_pos (-(a / 2))
      calc a / 2 * Real.exp (-(a / 2)) ≤ Real.exp (a / 2) * Real.exp (-(a / 2)) := mul_le_mul_of_nonneg_right (by linarith) h7.le
        _ = 1 := by rw [← Real.exp_add, add_neg_cancel, Real.exp_zero]
    have h8 : Real.exp (-(a * (1 - η))) * a ≤ 2 := by
      have := mul_le_mul_of_nonneg_right h4 ha
      linarith
    nlinarith
  nlinarith [mul_le_mul_of_nonneg_left h2 hp.le]

theorem exp_up {a η : ℝ} (ha : 0 ≤ a) (h0 : 0 ≤ η) : Real.exp (-a) - η ≤ Real.exp (-(a * (1 + η))) := by
  have e : Real.exp (-(a * (1 + η))) = Real.exp (-a) * Real.exp (-(a * η)) := by rw [← Real.exp_add]; congr 1; ring
  have h2 : 1 - a * η ≤ Real.exp (-(a * η)) := by have := Real.add_one_le_exp (-(a * η)); linarith
  have h5 : a * Real.exp (-a) ≤ 1 := by
    have h6 := Real.add_one_le_exp a
    have h7 := Real.exp_pos (-a)
    calc a * Real.exp (-a) ≤ Real.exp a * Real.exp (-a) := mul_le_mul_of_nonneg_right (by linarith) h7.le
      _ = 1 := by rw [← Real.exp_add, add_neg_cancel, Real.exp_zero]
  have h6 := mul_le_mul_of_nonneg_left h2 (Real.exp_pos (-a)).le
  rw [← e] at h6
  nlinarith

/-- how many multiples of 1/M are below a number -/
theorem count_below {M : Nat} {s : ℝ} (h0 : 0 < s) (h1 : s ≤ 1) (hM : 0 < M) : ((Finset.range M).filter fun j : Nat => (j : ℝ) / M < s) = Finset.range ⌈M * s⌉₊ := by
  have hM' : (0:ℝ) < M := by exact_mod_cast hM
  ext j
  rw [Finset.mem_filter, Finset.mem_range, Finset.mem_range, Nat.lt_ceil, div_lt_iff₀ hM', mul_comm s]
  refine ⟨fun h => h.2, fun h => ⟨?_, h⟩⟩
  have : (j:ℝ) < M := by nlinarith
  exact_mod_cast this

/-- `L^0.3 > y` says `L > y^(1/0.3)` -/
theorem pow03_lt {L y : ℝ} (hL : 0 ≤ L) (hy : 0 ≤ y) : y < L ^ (0.3 : ℝ) ↔ y ^ (1 / 0.3 : ℝ) < L := by
  have e : (y ^ (1 / 0.3 : ℝ)) ^ (0.3 : ℝ) = y := by rw [← Real.rpow_mul hy]; norm_num
  conv_lhs => rw [← e]
  exact Real.rpow_lt_rpow_iff (Real.rpow_nonneg hy _) hL (by norm_num)

theorem log_above {u y : ℝ} (hu : 0 < u) : y < -Real.log u ↔ u < Real.exp (-y) := by
  rw [← Real.log_lt_iff_lt_exp hu]
  constructor <;> intro h <;> linarith

theorem pow_down {x : ℝ} (hx : 0 ≤ x) : x ^ (1 / 0.3 : ℝ) * (1 - 2.1e-14) ≤ (x / (1 + 5e-15)) ^ (1 / 0.3 : ℝ) := by
  rw [Real.div_rpow hx (by norm_num), le_div_iff₀ (Real.rpow_pos_of_pos (by norm_num) _), mul_assoc]
  have h1 : (1 + 5e-15 : ℝ) ^ (1 / 0.3 : ℝ) ≤ (1 + 5e-15 : ℝ) ^ (4 : Nat) := by
    rw [← Real.rpow_natCast]
    exact Real.rpow_le_rpow_of_exponent_le (by norm_num) (by norm_num)
  have h2 : (1 - 2.1e-14 : ℝ) * (1 + 5e-15) ^ (1 / 0.3 : ℝ) ≤ 1 := (mul_le_mul_of_nonneg_left h1 (by norm_num)).trans (by norm_num)
  have := mul_le_mul_of_nonneg_left h2 (Real.rpow_nonneg hx (1 / 0.3))
  linarith

theorem pow_up {x : ℝ} (hx : 0 ≤ x) : (x / (1 - 5e-15)) ^ (1 / 0.3 : ℝ) ≤ x ^ (1 / 0.3 : ℝ) * (1 + 2.1e-14) := by
  rw [Real.div_rpow hx (by norm_num), div_le_iff₀ (Real.rpow_pos_of_pos (by norm_num) _), mul_assoc]
  have h1 : (1 - 5e-15 : ℝ) ^ (4 : Nat) ≤ (1 - 5e-15 : ℝ) ^ (1 / 0.3 : ℝ) := by
    rw [← Real.rpow_natCast]
    exact Real.rpow_le_rpow_of_exponent_ge (by norm_num) (by norm_num) (by norm_num)
  have h2 : 1 ≤ (1 + 2.1e-14 : ℝ) * (1 - 5e-15) ^ (1 / 0.3 : ℝ) := le_trans (by norm_num) (mul_le_mul_of_nonneg_left h1 (by norm_num))
  have := mul_le_mul_of_nonneg_left h2 (Real.rpow_nonneg hx (1 / 0.3))
  linarith

theorem share_near {M : Nat} (hM : 1 ≤ 1.2e-16 * (M : ℝ)) {A : ℝ} (hA0 : 0 ≤ A) {S : Finset Nat}
    (sub1 : S ⊆ (Finset.range M).filter fun j : Nat => (j : ℝ) / M < Real.exp (-(A * (1 - 2.1e-14))))
    (sub2 : ((Finset.range M).filter fun j : Nat => (j : ℝ) / M < Real.exp (-(A * (1 + 2.1e-14)))) ⊆ S) : |(S.card : ℝ) / M - Real.exp (-A)| ≤ 5e-14 := by
  have hM0 : (0:ℝ) < M := by
    by_contra hc
    norm_num at hM
    linarith
  have hM1 : 0 < M := by exact_mod_cast hM0
  have c1 := Finset.card_le_card sub1
  have c2 := Finset.card_le_card sub2
  rw [count_below (Real.exp_pos _) (Real.exp_le_one_iff.2 (by norm_num; linarith)) hM1, Finset.card_range] at c1
  rw [count_below (Real.exp_pos _) (Real.exp_le_one_iff.2 (by norm_num; linarith)) hM1, Finset.card_range] at c2
  have d1 : (S.card : ℝ) ≤ M * Real.exp (-(A * (1 - 2.1e-14))) + 1 :=
    (show (S.card : ℝ) ≤ (⌈(M : ℝ) * Real.exp (-(A * (1 - 2.1e-14)))⌉₊ : ℝ) by exact_mod_cast c1).trans (Nat.ceil_lt_add_one (by positivity)).le
  have d2 : M * Real.exp (-(A * (1 + 2.1e-14))) ≤ (S.card : ℝ) :=
    (Nat.le_ceil _).trans (show (⌈(M : ℝ) * Real.exp (-(A * (1 + 2.1e-14)))⌉₊ : ℝ) ≤ (S.card : ℝ) by exact_mod_cast c2)
  have e1 := exp_down (η := 2.1e-14) hA0 (by norm_num) (by norm_num)
  have e2 := exp_up (η := 2.1e-14) hA0 (by norm_num)
  have f1 : (S.card : ℝ) / M ≤ Real.exp (-(A * (1 - 2.1e-14))) + 1.2e-16 := by
    rw [div_le_iff₀ hM0]
    linarith
  have f2 : Real.exp (-(A * (1 + 2.1e-14))) ≤ (S.card : ℝ) / M := by
    rw [le_div_iff₀ hM0]
    linarith
  generalize Real.exp (-(A * (1 - 2.1e-14))) = r1 at *
  generalize Real.exp (-(A * (1 + 2.1e-14))) = r2 at *
  generalize (S.card : ℝ) / M = r3 at *
  clear sub1 sub2 c1 c2 d1 d2 hM
  rw [abs_le]
  norm_num at e1 e2 f1 f2 ⊢
  constructor <;> linarith

theorem exceeds_iff (F : PowMath) (api : PandasApi) (draw : Nat → ℝ) (d0 : Int) {n : Nat} (hn : 0 < n) (v : Nat → XF ℝ) {i h : Nat} (hi : i < n) (hh : h < 24) (x : ℝ) :
    Exceeds (randomWindR F api draw (dailyS d0 n v)) (atHour (d0 + i) h) x ↔ XF.lt (.fin x) ((v i * F.pow03 (-(F.logCell (draw (24 * i + h))))).rnd F.fl) := by
  unfold Exceeds
  rw [randomWindR_daily F api draw d0 hn]
  constructor
  · rintro ⟨s, c, h1, h2, h3⟩
    cases h1
    rw [hourlyS_at? d0 _ hi hh] at h2
    cases h2
    exact h3
  · intro h3
    exact ⟨_, _, rfl, hourlyS_at? d0 _ hi hh, h3⟩

open Classical in
/-- **C155** (distribution): of the 2^53 numbers `np.random.rand` can return for an hour of a day with mean wind m > 0, the share that gives a wind above x m is
exp(-x^(1/0.3)) up to 5e-14 (Weibull distribution with shape 1/0.3), whatever the numbers for the other hours. -/
theorem C155_distribution {F : PowMath} (hF : DoublePow F) (api : PandasApi) (draw : Nat → ℝ) (d0 : Int) {n : Nat} (hn : 0 < n) (v : Nat → XF ℝ)
    {i h : Nat} (hi : i < n) (hh : h < 24) {m : ℝ} (hm : v i = .fin m) (hpos : 0 < m) {x : ℝ} (hx : 0 ≤ x) :
    |(((Finset.range (2 ^ 53)).filter fun j : Nat =>
        Exceeds (randomWindR F api (Function.update draw (24 * i + h) (j / 2 ^ 53)) (dailyS d0 n v)) (atHour (d0 + i) h) (x * m)).card : ℝ) / 2 ^ 53 -
      Real.exp (-(x ^ (1 / 0.3 : ℝ)))| ≤ 5e-14 := by
  simp only [exceeds_iff F api _ d0 hn v hi hh, Function.update_self, hm]
  set A := x ^ (1 / 0.3 : ℝ) with hA
  have hA0 : 0 ≤ A := Real.rpow_nonneg hx _
  set S := (Finset.range (2 ^ 53)).filter fun j : Nat => XF.lt (.fin (x * m)) ((XF.fin m * F.pow03 (-(F.logCell (j / 2 ^ 53)))).rnd F.fl) with hS
  have zero : XF.lt (.fin (x * m)) ((XF.fin m * F.pow03 (-(F.logCell 0))).rnd F.fl) := by
    rw [pow03_zero, show XF.fin m * XF.pinf = (XF.pinf : XF ℝ) from if_pos hpos]
    trivial
  have cell : ∀ j : Nat, j < 2 ^ 53 → j ≠ 0 → (XF.lt (.fin (x * m)) ((XF.fin m * F.pow03 (-(F.logCell (j / 2 ^ 53)))).rnd F.fl) → (j : ℝ) / 2 ^ 53 < Real.exp (-(A * (1 - 2.1e-14)))) ∧
      ((j : ℝ) / 2 ^ 53 < Real.exp (-(A * (1 + 2.1e-14))) → XF.lt (.fin (x * m)) ((XF.fin m * F.pow03 (-(F.logCell (j / 2 ^ 53)))).rnd F.fl)) := by
    intro j hj h0
    have hu : RandNumber ((j:ℝ) / 2 ^ 53) := ⟨j, hj, rfl⟩
    have hj0 : (j:ℝ) / 2 ^ 53 ≠ 0 := by
      have : (j:ℝ) ≠ 0 := by exact_mod_cast h0
      positivity
    obtain ⟨y, e, hy⟩ := randomCell hF hu hj0 m
    obtain ⟨g1, _, g3, _, _⟩ := randNumber_log hu hj0
    have hL : 0 < -Real.log ((j:ℝ) / 2 ^ 53) := lt_of_lt_of_le (by norm_num) g3
    have hf := Real.rpow_pos_of_pos hL (0.3 : ℝ)
    rw [abs_of_pos (mul_pos hpos hf)] at hy
    obtain ⟨y1, y2⟩ := abs_le.1 hy
    rw [e, XF.lt_fin]
    have hd := pow_down hx
    have hup := pow_up hx
    constructor
    · intro hlt
      rw [← log_above g1]
      refine hd.trans_lt ?_
      rw [← pow03_lt hL.le (div_nonneg hx (by norm_num)), div_lt_iff₀ (by norm_num)]
      have : x * m < (-Real.log ((j:ℝ) / 2 ^ 53)) ^ (0.3 : ℝ) * (1 + 5e-15) * m := by nlinarith
      exact lt_of_mul_lt_mul_right this hpos.le
    · intro hlt
      rw [← log_above g1] at hlt
      have h2 := hup.trans_lt hlt
      rw [← pow03_lt hL.le (div_nonneg hx (by norm_num)), div_lt_iff₀ (by norm_num)] at h2
      have := mul_lt_mul_of_pos_right h2 hpos
      nlinarith
  have cast53 : ((2 ^ 53 : Nat) : ℝ) = 2 ^ 53 := by norm_num
  have sub1 : S ⊆ (Finset.range (2 ^ 53)).filter fun j : Nat => (j : ℝ) / (2 ^ 53 : Nat) < Real.exp (-(A * (1 - 2.1e-14))) := by
    intro j hj
    rw [hS, Finset.mem_filter, Finset.mem_range] at hj
    rw [Finset.mem_filter, Finset.mem_range, cast53]
    refine ⟨hj.1, ?_⟩
    by_cases h0 : j = 0
    · subst h0
      simpa using Real.exp_pos _
    · exact (cell j hj.1 h0).1 hj.2
  have sub2 : ((Finset.range (2 ^ 53)).filter fun j : Nat => (j : ℝ) / (2 ^ 53 : Nat) < Real.exp (-(A * (1 + 2.1e-14)))) ⊆ S := by
    intro j hj
    rw [Finset.mem_filter, Finset.mem_range, cast53] at hj
    rw [hS, Finset.mem_filter, Finset.mem_range]
    refine ⟨hj.1, ?_⟩
    by_cases h0 : j = 0
    · subst h0
      simpa using zero
    · exact (cell j hj.1 h0).2 hj.2
  rw [← cast53]
  exact share_near (by norm_num) hA0 sub1 sub2

/-- correctly rounded functions are such an arithmetic -/
def roundedPow : PowMath := ⟨roundBits 53, fun x => roundBits 53 (Real.log x), fun x p => roundBits 53 (x ^ p)⟩

theorem roundedPow_double : DoublePow roundedPow where
  fl := rfl
  log_err := fun x _ => (roundBits_err (p := 53) _).trans (mul_le_mul_of_nonneg_right (by norm_num) (abs_nonneg _))
  pow_err := fun x p hx => by
    refine (roundBits_err (p := 53) _).trans ?_
    rw [abs_of_pos (Real.rpow_pos_of_pos hx p)]
    exact mul_le_mul_of_nonneg_right (by norm_num) (Real.rpow_pos_of_pos hx p).le

/-- C155 at work: random numbers 1/4, 0, 1/4, 1/4, ...; days with mean wind 4, missing, 0 -/
example : ∃ g : Nat → Nat → XF ℝ, randomWindR roundedPow .modern (fun k => if k = 1 then 0 else 1 / 4) (dailyS 0 3 fun i => if i = 0 then .fin 4 else if i = 1 then .nan else .fin 0) =
    .ok (hourlyS 0 3 g) ∧ (∃ y, g 0 0 = .fin y ∧ 6.48e-5 ≤ y ∧ y ≤ 11.8) ∧ g 0 1 = .pinf ∧ g 1 5 = .nan ∧ ∃ y, g 2 7 = .fin y ∧ y = 0 := by
  have hd : ∀ k : Nat, RandNumber (if k = 1 then 0 else 1 / 4) := by
    intro k
    split_ifs
    · exact ⟨0, by norm_num, by norm_num⟩
    · exact ⟨2 ^ 51, by norm_num, by norm_num⟩
  obtain ⟨g, h, H⟩ := C155_hours roundedPow_double .modern hd 0 (n := 3) (by norm_num) (fun i => if i = 0 then .fin 4 else if i = 1 then .nan else .fin 0)
  refine ⟨g, h, ?_, ?_, (H 1 (by norm_num)).1 rfl 5 (by norm_num), ?_⟩
  · obtain ⟨y, e, _, hy⟩ := ((H 0 (by norm_num)).2 4 rfl 0 (by norm_num)).1 (by norm_num)
    obtain ⟨a, b⟩ := hy (by norm_num)
    exact ⟨y, e, by norm_num at a ⊢; linarith, by norm_num at b ⊢; linarith⟩
  · exact (((H 0 (by norm_num)).2 4 rfl 1 (by norm_num)).2 (by norm_num)).1 (by norm_num)
  · obtain ⟨y, e, hy, _⟩ := ((H 2 (by norm_num)).2 0 rfl 7 (by norm_num)).1 (by norm_num)
    refine ⟨y, e, ?_⟩
    rw [zero_mul, abs_zero, mul_zero, sub_zero] at hy
    exact abs_nonpos_iff.1 hy

open Classical in
/-- ... the share of the numbers that give an hour of a day with mean 4 a value above 4 is 1/e, although 4 is the mean -/
example (draw : Nat → ℝ) : |(((Finset.range (2 ^ 53)).filter fun j : Nat =>
      Exceeds (randomWindR roundedPow .modern (Function.update draw 30 (j / 2 ^ 53)) (dailyS 0 2 fun _ => .fin 4)) (atHour 1 6) 4).card : ℝ) / 2 ^ 53 - Real.exp (-1)| ≤ 5e-14 := by
  have := C155_distribution roundedPow_double .modern draw 0 (n := 2) (by norm_num) (fun _ => .fin 4) (i := 1) (h := 6) (by norm_num) (by norm_num) rfl (by norm_num) (x := 1) (by norm_num)
  rw [Real.one_rpow, one_mul] at this
  exact this

end

end Melodist
