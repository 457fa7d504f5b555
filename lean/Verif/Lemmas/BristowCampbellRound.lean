import Verif.Spec.RadiationRound
import Mathlib.Analysis.Convex.SpecificFunctions.Basic
import Mathlib.Analysis.Complex.ExponentialBounds

/-!
# Helper lemmas: how rounding errors propagate through the Bristow-Campbell formula
-/

set_option linter.unusedSectionVars false

namespace Melodist
open Spec

noncomputable section

/-! ## doubling -/

theorem roundBits_double (p : Nat) (y : ℝ) : roundBits p (2 * y) = 2 * roundBits p y := by
  by_cases h0 : y = 0
  · rw [h0, mul_zero]; unfold roundBits; rw [if_pos rfl, mul_zero]
  · have h1 : 0 < |y| := abs_pos.2 h0
    have h2 : 0 < |2 * y| := abs_pos.2 (by simpa using h0)
    have e : Int.log 2 |2 * y| = Int.log 2 |y| + 1 := by
      have h3 : |2 * y| = 2 * |y| := by rw [abs_mul, abs_of_pos (by norm_num : (0 : ℝ) < 2)]
      obtain ⟨a, b⟩ := log_range h0
      apply le_antisymm
      · apply Int.le_of_lt_add_one
        rw [← Int.lt_zpow_iff_log_lt (by omega) h2, h3]
        push_cast
        rw [zpow_add_one₀ (by norm_num)]
        linarith
      · rw [← Int.zpow_le_iff_le_log (by omega) h2, h3]
        push_cast
        rw [zpow_add_one₀ (by norm_num)]
        linarith
    unfold roundBits
    rw [if_neg h0, if_neg (by simpa using h0), e]
    have e2 : (2 : ℝ) ^ (Int.log 2 |y| + 1 + 1 - (p : Int)) = 2 * 2 ^ (Int.log 2 |y| + 1 - (p : Int)) := by
      rw [show Int.log 2 |y| + 1 + 1 - (p : Int) = 1 + (Int.log 2 |y| + 1 - (p : Int)) by ring, zpow_add₀ (by norm_num), zpow_one]
    rw [e2, mul_div_mul_left _ _ (by norm_num : (2 : ℝ) ≠ 0)]
    ring

theorem roundBits_halve {p : Nat} (hp : 1 ≤ p) (y : ℝ) : roundBits p (roundBits p y / 2) = roundBits p y / 2 := by
  have h := roundBits_double p (roundBits p y / 2)
  rw [mul_div_cancel₀ _ (by norm_num : (2 : ℝ) ≠ 0), roundBits_idem hp] at h
  linarith

/-! ## the exponential function -/

theorem mul_exp_neg_le {x : ℝ} (hx : 0 ≤ x) : x * Real.exp (-x) ≤ 1 / 2 := by
  have h := Real.quadratic_le_exp_of_nonneg hx
  have h0 := Real.exp_pos x
  rw [Real.exp_neg, ← div_eq_mul_inv, div_le_iff₀ h0]
  nlinarith [sq_nonneg (x - 1)]

theorem exp_neg_sub_le {x y : ℝ} : Real.exp (-x) - Real.exp (-y) ≤ Real.exp (-x) * (y - x) := by
  have h : Real.exp (-y) = Real.exp (-x) * Real.exp (-(y - x)) := by rw [← Real.exp_add]; congr 1; ring
  rw [h]
  have h1 := Real.one_sub_le_exp_neg (y - x)
  have := mul_le_mul_of_nonneg_left h1 (Real.exp_pos (-x)).le
  linarith

theorem exp_neg_close {s y δ τ : ℝ} (hs : 0 ≤ s) (hy : 0 ≤ y) (h : |y - s| ≤ δ * s + τ) (hδ0 : 0 ≤ δ) (hδ : δ ≤ 1 / 2) (hτ0 : 0 ≤ τ) (hτ : τ ≤ 1) :
    |Real.exp (-y) - Real.exp (-s)| ≤ 4 * δ + τ := by
  obtain ⟨h1, h2⟩ := abs_le.1 h
  have hes := Real.exp_pos (-s)
  have hey := Real.exp_pos (-y)
  have les : Real.exp (-s) ≤ 1 := Real.exp_le_one_iff.2 (by linarith)
  have ley : Real.exp (-y) ≤ 1 := Real.exp_le_one_iff.2 (by linarith)
  have ms := mul_exp_neg_le hs
  have my := mul_exp_neg_le hy
  rw [abs_le]
  constructor
  · have a := exp_neg_sub_le (x := s) (y := y)
    have b : Real.exp (-s) * (y - s) ≤ Real.exp (-s) * (δ * s + τ) := mul_le_mul_of_nonneg_left h2 hes.le
    have c : Real.exp (-s) * (δ * s + τ) = δ * (s * Real.exp (-s)) + τ * Real.exp (-s) := by ring
    have d : δ * (s * Real.exp (-s)) ≤ δ * (1 / 2) := mul_le_mul_of_nonneg_left ms hδ0
    have e : τ * Real.exp (-s) ≤ τ * 1 := mul_le_mul_of_nonneg_left les hτ0
    linarith
  · have a := exp_neg_sub_le (x := y) (y := s)
    have hs2 : s ≤ 2 * (y + τ) := by nlinarith
    have b : Real.exp (-y) * (s - y) ≤ Real.exp (-y) * (δ * (2 * (y + τ)) + τ) := by
      refine mul_le_mul_of_nonneg_left ?_ hey.le
      have := mul_le_mul_of_nonneg_left hs2 hδ0
      linarith
    have c : Real.exp (-y) * (δ * (2 * (y + τ)) + τ) = 2 * δ * (y * Real.exp (-y)) + (2 * δ * τ + τ) * Real.exp (-y) := by ring
    have d : 2 * δ * (y * Real.exp (-y)) ≤ 2 * δ * (1 / 2) := mul_le_mul_of_nonneg_left my (by linarith)
    have e : (2 * δ * τ + τ) * Real.exp (-y) ≤ (2 * δ * τ + τ) * 1 := mul_le_mul_of_nonneg_left ley (by positivity)
    have f : δ * τ ≤ δ * 1 := mul_le_mul_of_nonneg_left hτ hδ0
    linarith

theorem exp_pow_close' {B C x y : ℝ} (hB0 : 0 ≤ B) (hB : B ≤ 1) (hC : 1 ≤ C) (hx : 0 ≤ x) (hxy : x ≤ y) (hC2 : C * (y - x) ≤ 1 / 2) :
    Real.exp (-(B * x ^ C)) - Real.exp (-(B * y ^ C)) ≤ C * (y - x) := by
  rcases hxy.eq_or_lt with rfl | hlt
  · simp
  have hy : 0 < y := lt_of_le_of_lt hx hlt
  have hbern := one_add_mul_self_le_rpow_one_add (s := x / y - 1) (by have := div_nonneg hx hy.le; linarith) hC
  rw [show 1 + (x / y - 1) = x / y by ring, Real.div_rpow hx hy.le] at hbern
  have hyC : 0 < y ^ C := Real.rpow_pos_of_pos hy C
  have hxC : 0 ≤ x ^ C := Real.rpow_nonneg hx C
  have e1 : 1 + C * (x / y - 1) = 1 - C * ((y - x) / y) := by field_simp; ring
  rw [e1, le_div_iff₀ hyC] at hbern
  set d := (y - x) / y with hd
  have hd0 : 0 ≤ d := div_nonneg (by linarith) hy.le
  have main := exp_neg_sub_le (x := B * x ^ C) (y := B * y ^ C)
  have he0 := Real.exp_pos (-(B * x ^ C))
  have he1 : Real.exp (-(B * x ^ C)) ≤ 1 := Real.exp_le_one_iff.2 (by have := mul_nonneg hB0 hxC; linarith)
  have hdiff : B * y ^ C - B * x ^ C ≤ B * (y ^ C * (C * d)) := by nlinarith
  have hCd : 0 ≤ C * (y - x) := mul_nonneg (by linarith) (by linarith)
  by_cases h1 : y ≤ 1
  · have hle : y ^ C ≤ y := by
      have := Real.rpow_le_rpow_of_exponent_ge hy h1 hC
      rwa [Real.rpow_one] at this
    have h2 : y ^ C * (C * d) ≤ y * (C * d) := mul_le_mul_of_nonneg_right hle (by positivity)
    have h3 : y * (C * d) = C * (y - x) := by rw [hd]; field_simp
    have h4 : B * (y ^ C * (C * d)) ≤ 1 * (C * (y - x)) := mul_le_mul hB (by linarith) (by positivity) (by norm_num)
    have h5 : B * y ^ C - B * x ^ C ≤ C * (y - x) := by linarith
    have h6 : Real.exp (-(B * x ^ C)) * (B * y ^ C - B * x ^ C) ≤ 1 * (C * (y - x)) :=
      (mul_le_mul_of_nonneg_left h5 he0.le).trans (mul_le_mul_of_nonneg_right he1 hCd)
    linarith
  · have h1 : 1 < y := not_le.1 h1
    have hd1 : d ≤ y - x := div_le_self (by linarith) h1.le
    have h2 : C * d ≤ C * (y - x) := mul_le_mul_of_nonneg_left hd1 (by linarith)
    have h3 : y ^ C ≤ 2 * x ^ C := by nlinarith
    have h4 : B * (y ^ C * (C * d)) ≤ B * (2 * x ^ C * (C * (y - x))) := mul_le_mul_of_nonneg_left (mul_le_mul h3 h2 (by positivity) (by positivity)) hB0
    have h5 := mul_le_mul_of_nonneg_left (hdiff.trans h4) he0.le
    have h6 : Real.exp (-(B * x ^ C)) * (B * (2 * x ^ C * (C * (y - x)))) = 2 * (C * (y - x)) * (B * x ^ C * Real.exp (-(B * x ^ C))) := by ring
    have h7 := mul_exp_neg_le (mul_nonneg hB0 hxC)
    have h8 := mul_le_mul_of_nonneg_left h7 (by linarith : 0 ≤ 2 * (C * (y - x)))
    linarith

theorem exp_pow_close {B C x y : ℝ} (hB0 : 0 ≤ B) (hB : B ≤ 1) (hC : 1 ≤ C) (hx : 0 ≤ x) (hy : 0 ≤ y) (hC2 : C * |x - y| ≤ 1 / 2) :
    |Real.exp (-(B * x ^ C)) - Real.exp (-(B * y ^ C))| ≤ C * |x - y| := by
  rcases le_total x y with h | h
  · have e : |x - y| = y - x := by rw [abs_of_nonpos (by linarith)]; ring
    rw [e] at hC2 ⊢
    have h1 : x ^ C ≤ y ^ C := Real.rpow_le_rpow hx h (by linarith)
    rw [abs_of_nonneg (sub_nonneg.2 (Real.exp_le_exp.2 (by nlinarith)))]
    exact exp_pow_close' hB0 hB hC hx h hC2
  · have e : |x - y| = x - y := abs_of_nonneg (by linarith)
    rw [e] at hC2 ⊢
    have h1 : y ^ C ≤ x ^ C := Real.rpow_le_rpow hy h (by linarith)
    rw [abs_sub_comm, abs_of_nonneg (sub_nonneg.2 (Real.exp_le_exp.2 (by nlinarith)))]
    exact exp_pow_close' hB0 hB hC hy h hC2

theorem tiny_le : (1 / 2 ^ 1000 : ℝ) ≤ 1e-30 := by
  have h : (2 : ℝ) ^ 100 ≤ 2 ^ 1000 := pow_le_pow_right₀ (by norm_num) (by norm_num)
  exact (one_div_le_one_div_of_le (by positivity) h).trans (by norm_num)

/-! ## the range and its mean -/

/-- the computed range of a day -/
theorem bcRangeR_fin {x y z : ℝ} (hx : |x| ≤ 400) (hy : |y| ≤ 400) (hz : |z| ≤ 400) (hyr : roundBits 53 y = y) (hr : 0 ≤ y - (x + z) / 2) :
    ∃ r', bcRangeR (roundBits 53) (.fin x) (.fin y) (.fin z) = .fin r' ∧ 0 ≤ r' ∧ |r' - (y - (x + z) / 2)| ≤ 2e-13 := by
  unfold bcRangeR
  rw [XF.fin_add_fin]
  simp only [XF.rnd]
  rw [XF.fin_div_fin_of_ne _ (by norm_num)]
  simp only [XF.rnd, XF.fin_sub_fin]
  rw [roundBits_halve (by norm_num)]
  refine ⟨_, rfl, ?_, ?_⟩
  · refine R53.fl_nonneg (x := y - roundBits 53 (x + z) / 2) ?_
    have h : roundBits 53 (x + z) ≤ roundBits 53 (2 * y) := roundBits_mono (by norm_num) (by linarith)
    rw [roundBits_double, hyr] at h
    linarith
  · have a := (((Acc.exact R53 hy).mono (Nat.zero_le 1) le_rfl).sub ((((Acc.exact R53 hx).add (Acc.exact R53 hz)).round).half)).round.1
    refine a.trans ?_
    rw [R53_u]; norm_num

theorem sum_map_close {l : List Nat} {r r' : Nat → ℝ} {ε : ℝ} (h : ∀ j ∈ l, |r' j - r j| ≤ ε) : |(l.map r').sum - (l.map r).sum| ≤ l.length * ε := by
  induction l with
  | nil => simp
  | cons a l ih =>
    simp only [List.map_cons, List.sum_cons, List.length_cons]
    push_cast
    have h1 := h a List.mem_cons_self
    have h2 := ih fun j hj => h j (List.mem_cons_of_mem _ hj)
    have h3 := abs_add_le (r' a - r a) ((l.map r').sum - (l.map r).sum)
    rw [show r' a + (l.map r').sum - (r a + (l.map r).sum) = r' a - r a + ((l.map r').sum - (l.map r).sum) by ring]
    linarith

theorem sum_map_le_len {l : List Nat} {r : Nat → ℝ} {b : ℝ} (h : ∀ j ∈ l, r j ≤ b) : (l.map r).sum ≤ l.length * b := by
  induction l with
  | nil => simp
  | cons a l ih =>
    simp only [List.map_cons, List.sum_cons, List.length_cons]
    push_cast
    have h1 := h a List.mem_cons_self
    have h2 := ih fun j hj => h j (List.mem_cons_of_mem _ hj)
    linarith

theorem one_add_u_pow {N : Nat} (h : N ≤ 100000) : (1 + R53.u) ^ N - 1 ≤ 2.3e-11 := by
  have h0 : (0 : ℝ) ≤ R53.u := R53.u_nonneg
  have h1 : (1 + R53.u) ^ N ≤ Real.exp R53.u ^ N := pow_le_pow_left₀ (by linarith) (by have := Real.add_one_le_exp R53.u; linarith) N
  rw [← Real.exp_nat_mul] at h1
  have hN : (N : ℝ) ≤ 100000 := by exact_mod_cast h
  have hb : (N : ℝ) * R53.u ≤ 1.12e-11 := by
    have := mul_le_mul_of_nonneg_right hN h0
    rw [R53_u] at this ⊢
    norm_num at this ⊢
    linarith
  have hnn : 0 ≤ (N : ℝ) * R53.u := by positivity
  have h2 := Real.abs_exp_sub_one_le (x := N * R53.u) (by rw [abs_of_nonneg hnn]; norm_num at hb ⊢; linarith)
  rw [abs_of_nonneg hnn] at h2
  have := (abs_le.1 h2).2
  norm_num at hb ⊢
  linarith

/-- the computed mean of at most 100000 ranges -/
theorem mean_close {l : List Nat} {r r' : Nat → ℝ} {t : ℝ} (hl : l.length ≤ 100000) (h : ∀ j ∈ l, |r' j - r j| ≤ 2e-13) (hr : ∀ j ∈ l, 0 ≤ r j ∧ r j ≤ 100) (hr' : ∀ j ∈ l, 0 ≤ r' j)
    (ht : AddsTo (roundBits 53) (l.map r') t) : |roundBits 53 (t / l.length) - (l.map r).sum / l.length| ≤ 3e-9 ∧ 0 ≤ (l.map r).sum / l.length ∧ (l.map r).sum / l.length ≤ 100 := by
  obtain ⟨h0, a⟩ := Acc.addsTo R53 ht
  rw [List.length_map] at h0 a
  have hN : (0 : ℝ) < l.length := by exact_mod_cast h0
  have e : ((l.map r').map fun x => |x|) = l.map r' := by
    rw [List.map_map]
    exact List.map_congr_left fun j hj => abs_of_nonneg (hr' j hj)
  rw [e] at a
  have b := (a.mul_const (c := 1 / l.length) (C := 1 / l.length) (by rw [abs_of_pos (by positivity)])).round.1
  rw [mul_one_div, mul_one_div, Nat.sub_add_cancel h0] at b
  have hs : (l.map r').sum / l.length ≤ 101 := by
    rw [div_le_iff₀ hN, mul_comm]
    refine sum_map_le_len fun j hj => ?_
    have := (abs_le.1 (h j hj)).2
    have := (hr j hj).2
    norm_num at *
    linarith
  have hs0 : 0 ≤ (l.map r').sum / l.length := div_nonneg (List.sum_nonneg fun x hx => by obtain ⟨j, hj, rfl⟩ := List.mem_map.1 hx; exact hr' j hj) hN.le
  have c : |(l.map r').sum / l.length - (l.map r).sum / l.length| ≤ 2e-13 := by
    rw [← sub_div, abs_div, abs_of_pos hN, div_le_iff₀ hN, mul_comm]
    exact sum_map_close h
  refine ⟨?_, div_nonneg (List.sum_nonneg fun x hx => by obtain ⟨j, hj, rfl⟩ := List.mem_map.1 hx; exact (hr j hj).1) hN.le, ?_⟩
  · have d := mul_le_mul_of_nonneg_right (one_add_u_pow hl) hs0
    have f := abs_add_le (R53.fl (t / l.length) - (l.map r').sum / l.length) ((l.map r').sum / l.length - (l.map r).sum / l.length)
    rw [sub_add_sub_cancel, R53_fl] at f
    rw [R53_fl] at b
    have := b.trans d
    norm_num at *
    linarith
  · rw [div_le_iff₀ hN, mul_comm]
    exact sum_map_le_len fun j hj => (hr j hj).2

/-! ## the transmissivity -/

variable {F : RadMath}

theorem bcB_close (hF : RadDouble F) {μ μ' : ℝ} (h0 : 0 ≤ μ) (h1 : μ ≤ 100) (h : |μ' - μ| ≤ 3e-9) :
    let B := 0.036 * Real.exp (-0.154 * μ)
    let B' := R53.fl (R53.fl 0.036 * F.exp (R53.fl (R53.fl (-0.154) * μ')))
    0 < B ∧ B ≤ 0.036 ∧ 0 ≤ B' ∧ |B' - B| ≤ 1.1e-9 * B := by
  intro B B'
  set x := -0.154 * μ with hx
  set x' := R53.fl (R53.fl (-0.154) * μ') with hx'
  have hμ' : |μ'| ≤ 101 := by
    have := abs_le.1 h
    rw [abs_le]
    norm_num at this ⊢
    constructor <;> linarith
  have a : |x' - x| ≤ 5e-10 := by
    have a1 := ((Acc.self R53 (-0.154)).round.mul (Acc.exact R53 hμ')).round.1
    have a2 : |(-0.154 : ℝ) * μ' - x| ≤ 0.154 * 3e-9 := by
      rw [hx, ← mul_sub, abs_mul, abs_of_neg (by norm_num)]
      refine (mul_le_mul_of_nonneg_left h (by norm_num)).trans_eq ?_
      norm_num
    have a3 := abs_add_le (x' - (-0.154) * μ') ((-0.154) * μ' - x)
    rw [sub_add_sub_cancel] at a3
    rw [R53_u, abs_of_neg (by norm_num : (-0.154 : ℝ) < 0)] at a1
    rw [← hx'] at a1
    norm_num at a1 a2 a3 ⊢
    linarith
  have hxl : -16 ≤ x := by rw [hx]; norm_num; linarith
  have hxu : x ≤ 0 := by rw [hx]; norm_num; linarith
  have ex0 := Real.exp_pos x
  have ex1 : Real.exp x ≤ 1 := Real.exp_le_one_iff.2 hxu
  have exl : 1e-8 ≤ Real.exp x := by
    have b1 : Real.exp (-16) ≤ Real.exp x := Real.exp_le_exp.2 hxl
    have b2 : Real.exp 16 ≤ 3 ^ 16 := by
      rw [show (16 : ℝ) = ((16 : Nat) : ℝ) * 1 by norm_num, Real.exp_nat_mul]
      exact pow_le_pow_left₀ (Real.exp_pos 1).le Real.exp_one_lt_three.le 16
    rw [Real.exp_neg] at b1
    have b3 := inv_anti₀ (Real.exp_pos 16) b2
    refine le_trans ?_ (b3.trans b1)
    norm_num
  have b : |Real.exp x' - Real.exp x| ≤ 1e-9 * Real.exp x := by
    have e : Real.exp x' - Real.exp x = (Real.exp (x' - x) - 1) * Real.exp x := by
      rw [sub_mul, one_mul, ← Real.exp_add, sub_add_cancel]
    rw [e, abs_mul, abs_of_pos ex0]
    refine mul_le_mul_of_nonneg_right ?_ ex0.le
    have := Real.abs_exp_sub_one_le (x := x' - x) (a.trans (by norm_num))
    norm_num at a this ⊢
    linarith
  set E := F.exp x' with hE
  have c : |E - Real.exp x| ≤ 1.001e-9 * Real.exp x := by
    have c1 := hF.exp_err x'
    have c2 := tiny_le
    have c3 := abs_add_le (E - Real.exp x') (Real.exp x' - Real.exp x)
    rw [sub_add_sub_cancel] at c3
    have c4 := (abs_le.1 b).2
    rw [← hE] at c1
    generalize (1 / 2 ^ 1000 : ℝ) = tiny at c1 c2
    norm_num at c1 c2 c3 c4 b exl ⊢
    linarith
  have hE0 : 0 ≤ E := hF.exp_nonneg x'
  have k := R53.fl_bounds (x := 0.036) (by norm_num)
  have hk0 : 0 ≤ R53.fl 0.036 := R53.fl_nonneg (by norm_num)
  have hB'0 : 0 ≤ B' := R53.fl_nonneg (mul_nonneg hk0 hE0)
  refine ⟨mul_pos (by norm_num) ex0, ?_, hB'0, ?_⟩
  · show 0.036 * Real.exp x ≤ 0.036
    norm_num at *
    linarith
  · have d1 := (Acc.self R53 0.036).round.mul (Acc.self R53 E)
    have d2 := d1.round.1
    have d3 : |(0.036 : ℝ) * E - 0.036 * Real.exp x| ≤ 0.036 * (1.001e-9 * Real.exp x) := by
      rw [← mul_sub, abs_mul, abs_of_pos (by norm_num)]
      exact mul_le_mul_of_nonneg_left c (by norm_num)
    have d4 := abs_add_le (B' - 0.036 * E) (0.036 * E - 0.036 * Real.exp x)
    rw [sub_add_sub_cancel] at d4
    have d5 := (abs_le.1 c).2
    rw [R53_u, abs_of_nonneg hE0, abs_of_pos (by norm_num : (0 : ℝ) < 0.036)] at d2
    show |B' - 0.036 * Real.exp x| ≤ 1.1e-9 * (0.036 * Real.exp x)
    change |B' - 0.036 * E| ≤ _ at d2
    norm_num at d2 d3 d4 d5 ⊢
    linarith

theorem bcE_close (hF : RadDouble F) {B B' s' P' r' : ℝ} {C : ℝ} (hB0 : 0 < B) (hB : B ≤ 0.036) (hB'0 : 0 ≤ B') (hB' : |B' - B| ≤ 1.1e-9 * B) (hr' : 0 ≤ r')
    (hP0 : 0 ≤ P') (hP : |P' - r' ^ C| ≤ 1e-15 * r' ^ C + 1e-30) (hs : s' = B * r' ^ C) :
    |F.exp (R53.fl (-B' * P')) - Real.exp (-s')| ≤ 4.81e-9 := by
  have hrC : 0 ≤ r' ^ C := Real.rpow_nonneg hr' C
  have hs0 : 0 ≤ s' := by rw [hs]; exact mul_nonneg hB0.le hrC
  have e : R53.fl (-B' * P') = -R53.fl (B' * P') := by rw [neg_mul]; exact roundBits_neg 53 _
  rw [e]
  set y := R53.fl (B' * P') with hy
  have hy0 : 0 ≤ y := R53.fl_nonneg (mul_nonneg hB'0 hP0)
  have hBl : B' ≤ (1 + 1.1e-9) * B := by have := (abs_le.1 hB').2; linarith
  have a1 : |B' * P' - s'| ≤ 1.11e-9 * s' + 1e-31 := by
    have b1 : B' * P' - s' = B' * (P' - r' ^ C) + (B' - B) * r' ^ C := by rw [hs]; ring
    have b2 := abs_add_le (B' * (P' - r' ^ C)) ((B' - B) * r' ^ C)
    rw [← b1, abs_mul, abs_mul, abs_of_nonneg hB'0, abs_of_nonneg hrC] at b2
    have b3 : B' * |P' - r' ^ C| ≤ (1 + 1.1e-9) * B * (1e-15 * r' ^ C + 1e-30) := mul_le_mul hBl hP (abs_nonneg _) (by positivity)
    have b4 : |B' - B| * r' ^ C ≤ 1.1e-9 * B * r' ^ C := mul_le_mul_of_nonneg_right hB' hrC
    have b5 : (1 + 1.1e-9) * B * (1e-15 * r' ^ C + 1e-30) = (1 + 1.1e-9) * 1e-15 * s' + (1 + 1.1e-9) * 1e-30 * B := by rw [hs]; ring
    have b6 : 1.1e-9 * B * r' ^ C = 1.1e-9 * s' := by rw [hs]; ring
    rw [b5] at b3
    rw [b6] at b4
    norm_num at b2 b3 b4 hB ⊢
    linarith
  have a2 : |y - s'| ≤ 1.2e-9 * s' + 1e-30 := by
    have b1 := ((Acc.self R53 (B' * P')).round).1
    have b2 := abs_add_le (y - B' * P') (B' * P' - s')
    rw [sub_add_sub_cancel] at b2
    have b3 := (abs_le.1 a1).2
    rw [R53_u, abs_of_nonneg (mul_nonneg hB'0 hP0), ← hy] at b1
    norm_num at a1 b1 b2 b3 ⊢
    linarith
  have a3 := exp_neg_close hs0 hy0 a2 (by norm_num) (by norm_num) (by norm_num) (by norm_num)
  have a4 := hF.exp_err (-y)
  have a5 : Real.exp (-y) ≤ 1 := Real.exp_le_one_iff.2 (by linarith)
  have a6 := tiny_le
  have a7 := abs_add_le (F.exp (-y) - Real.exp (-y)) (Real.exp (-y) - Real.exp (-s'))
  rw [sub_add_sub_cancel] at a7
  generalize (1 / 2 ^ 1000 : ℝ) = tiny at a4 a6
  norm_num at a3 a4 a6 a7 ⊢
  linarith

/-- the computed daily value: a transmissivity `T'`, close to the exact one, times the mean potential radiation -/
theorem bcCellR_close (hF : RadDouble F) {μ μ' r r' A C m : ℝ} (h0 : 0 ≤ μ) (h1 : μ ≤ 100) (h : |μ' - μ| ≤ 3e-9) (hr : 0 ≤ r) (hr' : 0 ≤ r') (hrr : |r' - r| ≤ 2e-13)
    (hA : 0 ≤ A) (hC1 : 1 ≤ C) (hC2 : C ≤ 10) :
    ∃ T', bcCellR F (.fin r') (.fin μ') (.fin A) (.fin C) (.fin m) = .fin (R53.fl (T' * m)) ∧
      |T' - A * (1 - Real.exp (-(0.036 * Real.exp (-0.154 * μ) * r ^ C)))| ≤ 5e-9 * A := by
  have hfl : F.fl = R53.fl := hF.base.fl
  obtain ⟨b1, b2, b3, b4⟩ := bcB_close hF h0 h1 h
  set B := 0.036 * Real.exp (-0.154 * μ) with hB
  set B' := R53.fl (R53.fl 0.036 * F.exp (R53.fl (R53.fl (-0.154) * μ'))) with hB'
  obtain ⟨P', p1, p2, p3⟩ : ∃ P', F.powCell (.fin r') (.fin C) = .fin P' ∧ 0 ≤ P' ∧ |P' - r' ^ C| ≤ 1e-15 * r' ^ C + 1e-30 := by
    unfold RadMath.powCell
    dsimp only
    rw [if_neg (by linarith)]
    rcases hr'.eq_or_lt with h | h
    · rw [if_neg (by rw [← h]; exact lt_irrefl _), if_pos h.symm, if_pos (by linarith)]
      refine ⟨0, rfl, le_rfl, ?_⟩
      rw [← h, Real.zero_rpow (by linarith)]
      norm_num
    · rw [if_pos h]
      refine ⟨_, rfl, hF.pow_nonneg _ _ h, ?_⟩
      have c1 := hF.pow_err r' C h
      have c2 := tiny_le
      have c3 : 0 < r' ^ C := Real.rpow_pos_of_pos h C
      generalize (1 / 2 ^ 1000 : ℝ) = tiny at c1 c2
      norm_num at c1 c2 ⊢
      linarith
  have e1 := bcE_close hF (s' := B * r' ^ C) b1 b2 b3 b4 hr' p2 p3 rfl
  set E := F.exp (R53.fl (-B' * P')) with hE
  have e2 := exp_pow_close (B := B) (C := C) b1.le (by norm_num at b2 ⊢; linarith) hC1 hr' hr (by
    have := mul_le_mul hC2 hrr (abs_nonneg _) (by norm_num)
    norm_num at this ⊢; linarith)
  have e3 : C * |r' - r| ≤ 10 * 2e-13 := mul_le_mul hC2 hrr (abs_nonneg _) (by norm_num)
  set e := Real.exp (-(B * r ^ C)) with he
  have he1 : |E - e| ≤ 4.82e-9 := by
    have := abs_add_le (E - Real.exp (-(B * r' ^ C))) (Real.exp (-(B * r' ^ C)) - e)
    rw [sub_add_sub_cancel] at this
    norm_num at e1 e2 e3 this ⊢
    linarith
  have he0 : 0 ≤ e := (Real.exp_pos _).le
  have hel : e ≤ 1 := Real.exp_le_one_iff.2 (by have := mul_nonneg b1.le (Real.rpow_nonneg hr C); linarith)
  refine ⟨R53.fl (A * R53.fl (1 - E)), ?_, ?_⟩
  · unfold bcCellR
    dsimp only
    rw [hfl, p1]
    show XF.fin _ = XF.fin _
    congr 4
  · have h1E : |1 - E| ≤ 1.1 := by
      have := abs_le.1 he1
      rw [abs_le]
      norm_num at this ⊢
      constructor <;> linarith
    have f1 := ((Acc.self R53 A).mul (Acc.exact R53 h1E).round).round.1
    have f2 : |A * (1 - E) - A * (1 - e)| ≤ A * 4.82e-9 := by
      rw [← mul_sub, abs_mul, abs_of_nonneg hA, show 1 - E - (1 - e) = -(E - e) by ring, abs_neg]
      exact mul_le_mul_of_nonneg_left he1 hA
    have f3 := abs_add_le (R53.fl (A * R53.fl (1 - E)) - A * (1 - E)) (A * (1 - E) - A * (1 - e))
    rw [sub_add_sub_cancel] at f3
    rw [R53_u, abs_of_nonneg hA] at f1
    norm_num at f1 f2 f3 ⊢
    linarith

/-- whatever the range: missing, or a transmissivity of at most `A` times the mean potential radiation -/
theorem bcCellR_le (hF : RadDouble F) (r μ m : ℝ) {A C : ℝ} (hA : 0 ≤ A) (hC : 0 < C) :
    bcCellR F (.fin r) (.fin μ) (.fin A) (.fin C) (.fin m) = .nan ∨
      ∃ T', bcCellR F (.fin r) (.fin μ) (.fin A) (.fin C) (.fin m) = .fin (R53.fl (T' * m)) ∧ T' ≤ (1 + R53.u) * A := by
  have hfl : F.fl = R53.fl := hF.base.fl
  have hp : F.powCell (.fin r) (.fin C) = .nan ∨ ∃ P, F.powCell (.fin r) (.fin C) = .fin P := by
    unfold RadMath.powCell
    dsimp only
    rw [if_neg hC.ne']
    split_ifs
    · exact .inr ⟨_, rfl⟩
    · exact .inr ⟨_, rfl⟩
    · exact .inr ⟨_, rfl⟩
    · exact .inl rfl
  rcases hp with h | ⟨P, h⟩
  · left
    unfold bcCellR
    dsimp only
    rw [h, XF.mul_nan]
    rfl
  · right
    set E := F.exp (R53.fl (-(R53.fl (R53.fl 0.036 * F.exp (R53.fl (R53.fl (-0.154) * μ)))) * P)) with hE
    refine ⟨R53.fl (A * R53.fl (1 - E)), ?_, ?_⟩
    · unfold bcCellR
      dsimp only
      rw [hfl, h]
      rfl
    · have h0 : 0 ≤ E := hF.exp_nonneg _
      have h1 : R53.fl (1 - E) ≤ 1 := by
        have := R53.mono _ _ (show 1 - E ≤ 1 by linarith)
        rwa [show R53.fl 1 = 1 from roundBits_one (by norm_num)] at this
      have h2 : A * R53.fl (1 - E) ≤ A := by nlinarith
      refine (R53.mono _ _ h2).trans ?_
      have := (abs_le.1 (R53.err A)).2
      rw [abs_of_nonneg hA] at this
      linarith

end

end Melodist
