import Verif.Spec.Gradual
import Verif.Lemmas.Rounding
import Verif.Lemmas.RoundBits
import Verif.Lemmas.Acc

/-!
# Helper lemmas: rounding with gradual underflow, and the cascade in such arithmetic
-/

set_option linter.unusedSectionVars false

namespace Melodist
open Spec

section bits
variable {K : Type} [Field K] [LinearOrder K] [IsStrictOrderedRing K] [FloorRing K]

/-- rounding to multiples of `2 ^ e` -/
def fixedPoint (e : Int) (x : K) : K := nearestEven (x / 2 ^ e) * 2 ^ e

theorem fixedPoint_mono (e : Int) {x y : K} (h : x ≤ y) : fixedPoint e x ≤ fixedPoint e y := by
  have pe : (0 : K) < 2 ^ e := zpow_pos (by norm_num) _
  unfold fixedPoint
  refine mul_le_mul_of_nonneg_right ?_ pe.le
  exact_mod_cast nearestEven_mono (div_le_div_of_nonneg_right h pe.le)

theorem fixedPoint_grid {e : Int} {y : K} {k j : Int} (hy : y = k * 2 ^ j) (hj : e ≤ j) : fixedPoint e y = y := by
  have h2 : (2 : K) ≠ 0 := by norm_num
  unfold fixedPoint
  obtain ⟨m, hm⟩ : ∃ m : Nat, j = e + m := ⟨(j - e).toNat, by omega⟩
  have e1 : y / 2 ^ e = ((k * 2 ^ m : Int) : K) := by
    rw [hy, hm, zpow_add₀ h2, zpow_natCast]
    push_cast
    field_simp
  rw [e1, nearestEven_int, ← e1]
  exact div_mul_cancel₀ y (zpow_ne_zero e h2)

theorem fixedPoint_err (e : Int) (x : K) : |fixedPoint e x - x| ≤ 2 ^ (e - 1) := by
  have h2 : (2 : K) ≠ 0 := by norm_num
  have pe : (0 : K) < 2 ^ e := zpow_pos (by norm_num) _
  have e0 := nearestEven_err (x / 2 ^ e)
  have e1 : fixedPoint e x - x = ((nearestEven (x / 2 ^ e) : K) - x / 2 ^ e) * 2 ^ e := by
    unfold fixedPoint; rw [sub_mul, div_mul_cancel₀ _ pe.ne']
  rw [e1, abs_mul, abs_of_pos pe]
  refine le_trans (mul_le_mul_of_nonneg_right e0 pe.le) (le_of_eq ?_)
  rw [zpow_sub_one₀ h2]; ring

variable {p : Nat} {e : Int}

theorem gradual_big {x : K} (hx : 2 ^ (e + p - 1) ≤ |x|) : roundGradual p e x = roundBits p x := by
  have h0 : x ≠ 0 := by
    rintro rfl
    rw [abs_zero] at hx
    exact absurd hx (not_le.2 (zpow_pos (by norm_num) _))
  have hl : e + p - 1 ≤ Int.log 2 |x| := by
    have := (log_range h0).2
    have := (zpow_lt_zpow_iff_right₀ (by norm_num : (1 : K) < 2)).1 (lt_of_le_of_lt hx this)
    omega
  unfold roundGradual roundBits
  rw [if_neg h0, max_eq_left (by omega)]

theorem gradual_small {x : K} (hx : |x| < 2 ^ (e + p - 1)) : roundGradual p e x = fixedPoint e x := by
  by_cases h0 : x = 0
  · subst h0; unfold roundGradual fixedPoint
    rw [zero_div, zero_div]
    have : nearestEven (0 : K) = 0 := by simpa using nearestEven_int (K := K) 0
    rw [this]; simp
  · have hl : Int.log 2 |x| < e + p - 1 := by
      have := (log_range h0).1
      exact (zpow_lt_zpow_iff_right₀ (by norm_num : (1 : K) < 2)).1 (lt_of_le_of_lt this hx)
    unfold roundGradual fixedPoint
    rw [max_eq_right (by omega)]

/-- every rounded number is a multiple of `2 ^ e` -/
theorem gradual_multiple (x : K) : ∃ k : Int, roundGradual p e x = k * 2 ^ e := by
  have h2 : (2 : K) ≠ 0 := by norm_num
  unfold roundGradual
  generalize nearestEven (x / 2 ^ max (Int.log 2 |x| + 1 - (p : Int)) e) = k
  obtain ⟨m, hm⟩ : ∃ m : Nat, max (Int.log 2 |x| + 1 - (p : Int)) e = e + m := ⟨(max (Int.log 2 |x| + 1 - (p : Int)) e - e).toNat, by omega⟩
  refine ⟨k * 2 ^ m, ?_⟩
  rw [hm, zpow_add₀ h2, zpow_natCast]
  push_cast; ring

theorem two_bound (hp : 1 ≤ p) : ((2 ^ (p - 1) : Int) : K) * 2 ^ e = 2 ^ (e + p - 1) := by
  have h2 : (2 : K) ≠ 0 := by norm_num
  push_cast
  rw [← zpow_natCast (2 : K) (p - 1), ← zpow_add₀ h2]
  congr 1; omega

theorem roundBits_two (hp : 1 ≤ p) (j : Int) : roundBits p ((2 : K) ^ j) = 2 ^ j :=
  roundBits_grid (k := 1) (j := j) (by simp) (by rw [abs_of_pos (zpow_pos (by norm_num) _), log_two_zpow]; omega)

theorem roundBits_neg_two (hp : 1 ≤ p) (j : Int) : roundBits p (-(2 : K) ^ j) = -2 ^ j :=
  roundBits_grid (k := -1) (j := j) (by simp) (by rw [abs_neg, abs_of_pos (zpow_pos (by norm_num) _), log_two_zpow]; omega)

theorem fixed_bound (hp : 1 ≤ p) : fixedPoint e ((2 : K) ^ (e + p - 1)) = 2 ^ (e + p - 1) := fixedPoint_grid (k := 1) (j := e + p - 1) (by simp) (by omega)
theorem fixed_neg_bound (hp : 1 ≤ p) : fixedPoint e (-(2 : K) ^ (e + p - 1)) = -2 ^ (e + p - 1) :=
  fixedPoint_grid (k := -1) (j := e + p - 1) (by simp) (by omega)

theorem gradual_mono (hp : 1 ≤ p) {x y : K} (h : x ≤ y) : roundGradual p e x ≤ roundGradual p e y := by
  have pB : (0 : K) < 2 ^ (e + p - 1) := zpow_pos (by norm_num) _
  rcases le_or_gt (2 ^ (e + p - 1)) |x| with hx | hx
  · rw [gradual_big hx]
    rcases le_or_gt (2 ^ (e + p - 1)) |y| with hy | hy
    · rw [gradual_big hy]; exact roundBits_mono hp h
    · rw [gradual_small hy]
      rcases le_abs.1 hx with h1 | h1
      · exact absurd (lt_of_le_of_lt (h1.trans h) ((le_abs_self y).trans_lt hy)) (lt_irrefl _)
      · calc roundBits p x ≤ roundBits p (-2 ^ (e + p - 1)) := roundBits_mono hp (by linarith)
          _ = fixedPoint e (-2 ^ (e + p - 1)) := by rw [roundBits_neg_two hp, fixed_neg_bound hp]
          _ ≤ fixedPoint e y := fixedPoint_mono e (abs_lt.1 hy).1.le
  · rw [gradual_small hx]
    rcases le_or_gt (2 ^ (e + p - 1)) |y| with hy | hy
    · rw [gradual_big hy]
      rcases le_abs.1 hy with h1 | h1
      · calc fixedPoint e x ≤ fixedPoint e (2 ^ (e + p - 1)) := fixedPoint_mono e (abs_lt.1 hx).2.le
          _ = roundBits p (2 ^ (e + p - 1)) := by rw [roundBits_two hp, fixed_bound hp]
          _ ≤ roundBits p y := roundBits_mono hp h1
      · have := (abs_lt.1 hx).1
        linarith
    · rw [gradual_small hy]; exact fixedPoint_mono e h

/-- a multiple of `2 ^ e` has only the relative error -/
theorem gradual_err_multiple (k : Int) : |roundGradual p e ((k : K) * 2 ^ e) - k * 2 ^ e| ≤ 2 ^ (-(p : Int)) * |(k : K) * 2 ^ e| := by
  rcases le_or_gt (2 ^ (e + p - 1)) |(k : K) * 2 ^ e| with hx | hx
  · rw [gradual_big hx]; exact roundBits_err _
  · rw [gradual_small hx, fixedPoint_grid rfl (le_refl e), sub_self, abs_zero]
    exact mul_nonneg (zpow_pos (by norm_num) _).le (abs_nonneg _)

theorem gradual_idem (hp : 1 ≤ p) (x : K) : roundGradual p e (roundGradual p e x) = roundGradual p e x := by
  obtain ⟨k, hk⟩ := gradual_multiple (p := p) (e := e) x
  rcases le_or_gt (2 ^ (e + p - 1)) |roundGradual p e x| with hy | hy
  · rw [gradual_big hy]
    rcases le_or_gt (2 ^ (e + p - 1)) |x| with hx | hx
    · rw [gradual_big hx]; exact roundBits_idem hp x
    · rw [gradual_small hx] at hy ⊢
      have a := fixedPoint_mono e (abs_lt.1 hx).2.le
      have b := fixedPoint_mono e (abs_lt.1 hx).1.le
      rw [fixed_bound hp] at a
      rw [fixed_neg_bound hp] at b
      rcases le_abs.1 hy with h | h
      · rw [le_antisymm a h]; exact roundBits_two hp _
      · rw [le_antisymm (by linarith : fixedPoint e x ≤ -2 ^ (e + p - 1)) b]; exact roundBits_neg_two hp _
  · rw [gradual_small hy, fixedPoint_grid hk (le_refl e)]

theorem gradual_err (x : K) : |roundGradual p e x - x| ≤ 2 ^ (-(p : Int)) * |x| + 2 ^ (e - 1) := by
  have pa : (0 : K) < 2 ^ (e - 1) := zpow_pos (by norm_num) _
  have pu : (0 : K) < 2 ^ (-(p : Int)) := zpow_pos (by norm_num) _
  rcases le_or_gt (2 ^ (e + p - 1)) |x| with hx | hx
  · rw [gradual_big hx]; linarith [roundBits_err (p := p) x]
  · rw [gradual_small hx]; linarith [fixedPoint_err e x, mul_nonneg pu.le (abs_nonneg x)]

/-- arithmetic with `p` binary digits and smallest positive number `2 ^ e`, rounding to nearest, ties to even -/
def gradual (p : Nat) (hp : 1 ≤ p) (e : Int) (he : e ≤ 0) : GradualRounding K where
  fl := roundGradual p e
  u := 2 ^ (-(p : Int))
  a := 2 ^ (e - 1)
  mono _ _ h := gradual_mono hp h
  idem := gradual_idem hp
  zero := by
    rw [gradual_small (by rw [abs_zero]; exact zpow_pos (by norm_num) _)]
    exact fixedPoint_grid (k := 0) (j := e) (by simp) (le_refl e)
  one := by
    rcases le_or_gt ((2 : K) ^ (e + p - 1)) |1| with h | h
    · rw [gradual_big h]; simpa using roundBits_two (K := K) hp 0
    · rw [gradual_small h]; exact fixedPoint_grid (k := 1) (j := 0) (by simp) he
  err := gradual_err
  add x y hx hy := by
    obtain ⟨k, hk⟩ := gradual_multiple (p := p) (e := e) x
    obtain ⟨l, hl⟩ := gradual_multiple (p := p) (e := e) y
    rw [hx] at hk
    rw [hy] at hl
    have : x + y = ((k + l : Int) : K) * 2 ^ e := by rw [hk, hl]; push_cast; ring
    rw [this]
    exact gradual_err_multiple _
  sub x y hx hy := by
    obtain ⟨k, hk⟩ := gradual_multiple (p := p) (e := e) x
    obtain ⟨l, hl⟩ := gradual_multiple (p := p) (e := e) y
    rw [hx] at hk
    rw [hy] at hl
    have : x - y = ((k - l : Int) : K) * 2 ^ e := by rw [hk, hl]; push_cast; ring
    rw [this]
    exact gradual_err_multiple _
  u_nonneg := (zpow_pos (by norm_num) _).le
  u_lt_one := zpow_lt_one_of_neg₀ (by norm_num) (by omega)
  a_nonneg := (zpow_pos (by norm_num) _).le

end bits

variable {K : Type} [Field K] [LinearOrder K] [IsStrictOrderedRing K]

namespace Spec.GradualRounding

theorem fl_nonneg (G : GradualRounding K) {x : K} (h : 0 ≤ x) : 0 ≤ G.fl x := by
  rw [← G.zero]; exact G.mono _ _ h

theorem fl_bounds (G : GradualRounding K) {x : K} (h : 0 ≤ x) : (1 - G.u) * x - G.a ≤ G.fl x ∧ G.fl x ≤ (1 + G.u) * x + G.a := by
  have := G.err x
  rw [abs_of_nonneg h, abs_le] at this
  constructor <;> nlinarith [this.1, this.2]

theorem add_bounds (G : GradualRounding K) {x y : K} (hx : G.fl x = x) (hy : G.fl y = y) (h : 0 ≤ x + y) :
    (1 - G.u) * (x + y) ≤ G.fl (x + y) ∧ G.fl (x + y) ≤ (1 + G.u) * (x + y) := by
  have := G.add x y hx hy
  rw [abs_of_nonneg h, abs_le] at this
  constructor <;> nlinarith [this.1, this.2]

theorem sub_bounds (G : GradualRounding K) {x y : K} (hx : G.fl x = x) (hy : G.fl y = y) (h : 0 ≤ x - y) :
    (1 - G.u) * (x - y) ≤ G.fl (x - y) ∧ G.fl (x - y) ≤ (1 + G.u) * (x - y) := by
  have := G.sub x y hx hy
  rw [abs_of_nonneg h, abs_le] at this
  constructor <;> nlinarith [this.1, this.2]

theorem one_le (G : GradualRounding K) : 1 ≤ 1 + G.u := by linarith [G.u_nonneg]
theorem lo_nonneg (G : GradualRounding K) : 0 ≤ 1 - G.u := by linarith [G.u_lt_one]
theorem hi_nonneg (G : GradualRounding K) : 0 ≤ 1 + G.u := by linarith [G.u_nonneg]
theorem lo_le_one (G : GradualRounding K) : 1 - G.u ≤ 1 := by linarith [G.u_nonneg]

end Spec.GradualRounding

/-- `out` consists of one block of `m` non-negative numbers per element `x` of `v`, adding up to something between `lo * x - c` and `hi * x + c`; all are 0 if `x` is -/
inductive SlackSplit (lo hi c : K) (m : Nat) : List K → List K → Prop
  | nil : SlackSplit lo hi c m [] []
  | cons {x : K} {xs bl ys : List K} : bl.length = m → (∀ y ∈ bl, 0 ≤ y) → (x = 0 → ∀ y ∈ bl, y = 0) → lo * x - c ≤ bl.sum → bl.sum ≤ hi * x + c →
      SlackSplit lo hi c m xs ys → SlackSplit lo hi c m (x :: xs) (bl ++ ys)

namespace SlackSplit

variable {lo hi c : K} {m : Nat}

theorem length {v w : List K} (h : SlackSplit lo hi c m v w) : w.length = m * v.length := by
  induction h with
  | nil => rfl
  | cons hl _ _ _ _ _ ih => rw [List.length_append, hl, ih, List.length_cons]; ring

theorem nonneg {v w : List K} (h : SlackSplit lo hi c m v w) : ∀ y ∈ w, 0 ≤ y := by
  induction h with
  | nil => simp
  | cons _ hp _ _ _ _ ih =>
    intro y hy
    rcases List.mem_append.1 hy with h | h
    · exact hp y h
    · exact ih y h

theorem zero {v w : List K} (h : SlackSplit lo hi c m v w) (h0 : ∀ x ∈ v, x = 0) : ∀ y ∈ w, y = 0 := by
  induction h with
  | nil => simp
  | cons _ _ hz _ _ _ ih =>
    intro y hy
    rcases List.mem_append.1 hy with h | h
    · exact hz (h0 _ (by simp)) y h
    · exact ih (fun x hx => h0 x (by simp [hx])) y h

theorem sum {v w : List K} (h : SlackSplit lo hi c m v w) : lo * v.sum - v.length * c ≤ w.sum ∧ w.sum ≤ hi * v.sum + v.length * c := by
  induction h with
  | nil => simp
  | cons _ _ _ h1 h2 _ ih =>
    rw [List.sum_append, List.sum_cons, mul_add, mul_add, List.length_cons]
    push_cast
    constructor <;> linarith [ih.1, ih.2]

theorem append_inv {k : Nat} : ∀ {a b z : List K}, SlackSplit lo hi c k (a ++ b) z →
    ∃ z1 z2, z = z1 ++ z2 ∧ SlackSplit lo hi c k a z1 ∧ SlackSplit lo hi c k b z2
  | [], b, z, h => ⟨[], z, rfl, .nil, h⟩
  | x :: a, b, z, h => by
    rw [List.cons_append] at h
    obtain @⟨_⟩ | @⟨_, _, bl, ys, h1, h2, h2', h3, h3', h4⟩ := h
    obtain ⟨z1, z2, rfl, h5, h6⟩ := append_inv h4
    exact ⟨bl ++ z1, z2, by rw [List.append_assoc], .cons h1 h2 h2' h3 h3' h5, h6⟩

theorem trans {lo' hi' c' c'' : K} {k : Nat} {v w z : List K} (hlo : 0 ≤ lo') (hlh : lo' ≤ hi') (hc0 : 0 ≤ c) (hc : hi' * c + m * c' ≤ c'')
    (h : SlackSplit lo hi c m v w) (h' : SlackSplit lo' hi' c' k w z) : SlackSplit (lo' * lo) (hi' * hi) c'' (m * k) v z := by
  induction h generalizing z with
  | nil => cases h'; exact .nil
  | @cons x xs bl ys h1 h2 h2' h3 h3' _ ih =>
    obtain ⟨z1, z2, rfl, h5, h6⟩ := append_inv h'
    have s := h5.sum
    rw [h1] at s
    have a := mul_le_mul_of_nonneg_left h3 hlo
    have b := mul_le_mul_of_nonneg_left h3' (hlo.trans hlh)
    have d := mul_le_mul_of_nonneg_right hlh hc0
    refine .cons ?_ h5.nonneg (fun hx => h5.zero (h2' hx)) ?_ ?_ (ih h6)
    · rw [h5.length, h1]; ring
    · have : lo' * (lo * x - c) = lo' * lo * x - lo' * c := by ring
      linarith [s.1]
    · have : hi' * (hi * x + c) = hi' * hi * x + hi' * c := by ring
      linarith [s.2]

theorem weaken {c' : K} {v w : List K} (hc : c ≤ c') (h : SlackSplit lo hi c m v w) : SlackSplit lo hi c' m v w := by
  induction h with
  | nil => exact .nil
  | cons h1 h2 h2' h3 h3' _ ih => exact .cons h1 h2 h2' (by linarith) (by linarith) ih

/-- block `i` of the output -/
theorem block {v w : List K} (h : SlackSplit lo hi c m v w) {i : Nat} {x : K} (hi' : v[i]? = some x) :
    lo * x - c ≤ ((w.drop (m * i)).take m).sum ∧ ((w.drop (m * i)).take m).sum ≤ hi * x + c ∧ (x = 0 → ∀ y ∈ (w.drop (m * i)).take m, y = 0) := by
  induction h generalizing i with
  | nil => simp at hi'
  | @cons y xs bl ys h1 h2 h2' h3 h3' _ ih =>
    cases i with
    | zero =>
      simp at hi'
      subst hi'
      have : List.take m (List.drop (m * 0) (bl ++ ys)) = bl := by
        rw [mul_zero, List.drop_zero, ← h1, List.take_left']
        rfl
      rw [this]
      exact ⟨h3, h3', h2'⟩
    | succ i =>
      have := ih (i := i) (by simpa using hi')
      have e : List.drop (m * (i + 1)) (bl ++ ys) = List.drop (m * i) ys := by
        rw [show m * (i + 1) = bl.length + m * i by rw [h1]; ring, ← List.drop_drop, List.drop_left']
        rfl
      rw [e]
      exact this

end SlackSplit

/-! ### one box, one level -/

theorem boxStepG_split (G : GradualRounding K) {rnd : Nat → K} {s : CascStats K} {mv : XF K} {prev next : Option K} {x a b : K} {st st' : CascVars K} (hx0 : 0 ≤ x)
    (hst : ∀ w, st.w1 = some w → G.fl w = w) (h : boxStepR G.fl rnd s mv prev x next st = .ok ((a, b), st')) :
    0 ≤ a ∧ 0 ≤ b ∧ (x = 0 → a = 0 ∧ b = 0) ∧ (1 - G.u) ^ 2 * x - 2 * G.a ≤ a + b ∧ a + b ≤ (1 + G.u) ^ 2 * x + 2 * G.a ∧ ∀ w, st'.w1 = some w → G.fl w = w := by
  have l1 : (1 - G.u) ^ 2 ≤ 1 := pow_le_one₀ G.lo_nonneg G.lo_le_one
  have h1 : 1 ≤ (1 + G.u) ^ 2 := one_le_pow₀ G.one_le
  have a0 := G.a_nonneg
  have copy : (1 - G.u) ^ 2 * x - 2 * G.a ≤ x ∧ x ≤ (1 + G.u) ^ 2 * x + 2 * G.a :=
    ⟨by linarith [mul_le_of_le_one_left hx0 l1], by linarith [le_mul_of_one_le_left hx0 h1]⟩
  unfold boxStepR at h
  split at h
  · rename_i hxpos
    have hxne : x = 0 → False := fun e => absurd hxpos (by rw [e]; exact lt_irrefl _)
    cases hb : boxType prev next st.vbtype with
    | error e => rw [hb] at h; cases h
    | ok vb =>
      rw [hb] at h
      simp only [bind, Except.bind] at h
      generalize (if XF.lt mv (.fin x) then (1 : Fin 2) else 0) = bb at h
      cases vb with
      | none => cases h
      | some ty =>
        simp only at h
        split at h
        · cases h; exact ⟨le_refl _, hx0, fun e => (hxne e).elim, by simpa using copy.1, by simpa using copy.2, hst⟩
        · split at h
          · cases h; exact ⟨hx0, le_refl _, fun e => (hxne e).elim, by simpa using copy.1, by simpa using copy.2, hst⟩
          · generalize hg : guessW1R G.fl s bb ty.col (rnd (st.draws + 1)) st.w1 = g at h
            have hgw : ∀ w, g = some w → G.fl w = w := by
              intro w e
              rw [e] at hg
              unfold guessW1R at hg
              split at hg
              · cases hg; unfold classCentreR; exact G.idem _
              · exact hst w hg
            cases g with
            | none => cases h
            | some w =>
              simp only at h
              split at h
              · cases h
              · rename_i hw
                push Not at hw
                cases h
                have hw1 : 0 ≤ 1 - w := by linarith [hw.2]
                have ha := G.fl_bounds (mul_nonneg hw.1 hx0)
                have hb1 := G.sub_bounds G.one (hgw w rfl) hw1
                have hb0 := G.fl_nonneg hw1
                have hb2 := G.fl_bounds (mul_nonneg hb0 hx0)
                refine ⟨G.fl_nonneg (mul_nonneg hw.1 hx0), G.fl_nonneg (mul_nonneg hb0 hx0), fun e => (hxne e).elim, ?_, ?_, hgw⟩
                · have e1 : (1 - G.u) ^ 2 * (w * x) - G.a ≤ G.fl (w * x) := by
                    refine le_trans ?_ ha.1
                    rw [pow_two, mul_assoc]
                    linarith [mul_le_of_le_one_left (mul_nonneg G.lo_nonneg (mul_nonneg hw.1 hx0)) G.lo_le_one]
                  have e2 : (1 - G.u) ^ 2 * ((1 - w) * x) - G.a ≤ G.fl (G.fl (1 - w) * x) := by
                    refine le_trans ?_ hb2.1
                    rw [pow_two, mul_assoc, ← mul_assoc (1 - G.u) (1 - w) x]
                    linarith [mul_le_mul_of_nonneg_left (mul_le_mul_of_nonneg_right hb1.1 hx0) G.lo_nonneg]
                  linarith
                · have e1 : G.fl (w * x) ≤ (1 + G.u) ^ 2 * (w * x) + G.a := by
                    refine le_trans ha.2 ?_
                    rw [pow_two, mul_assoc]
                    linarith [le_mul_of_one_le_left (mul_nonneg G.hi_nonneg (mul_nonneg hw.1 hx0)) G.one_le]
                  have e2 : G.fl (G.fl (1 - w) * x) ≤ (1 + G.u) ^ 2 * ((1 - w) * x) + G.a := by
                    refine le_trans hb2.2 ?_
                    rw [pow_two, mul_assoc, ← mul_assoc (1 + G.u) (1 - w) x]
                    linarith [mul_le_mul_of_nonneg_left (mul_le_mul_of_nonneg_right hb1.2 hx0) G.hi_nonneg]
                  linarith
  · rename_i hx
    cases h
    have : x = 0 := le_antisymm (not_lt.1 hx) hx0
    subst this
    exact ⟨le_refl _, le_refl _, fun _ => ⟨rfl, rfl⟩, by simpa using copy.1, by simpa using copy.2, hst⟩

theorem boxLoopG_split (G : GradualRounding K) {rnd : Nat → K} {s : CascStats K} {mv : XF K} {prev : Option K} {v out : List K} {st st' : CascVars K}
    (hv : ∀ x ∈ v, 0 ≤ x) (hst : ∀ w, st.w1 = some w → G.fl w = w) (h : boxLoopR G.fl rnd s mv prev v st = .ok (out, st')) :
    SlackSplit ((1 - G.u) ^ 2) ((1 + G.u) ^ 2) (2 * G.a) 2 v out ∧ ∀ w, st'.w1 = some w → G.fl w = w := by
  induction v generalizing prev out st with
  | nil => unfold boxLoopR at h; cases h; exact ⟨.nil, hst⟩
  | cons x xs ih =>
    unfold boxLoopR at h
    obtain ⟨⟨⟨a, b⟩, st1⟩, h1, h⟩ := Except.bind_ok h
    obtain ⟨⟨rest, st2⟩, h2, h⟩ := Except.bind_ok h
    cases h
    obtain ⟨ha, hb, hz, l, u, hw⟩ := boxStepG_split G (hv x (by simp)) hst h1
    obtain ⟨i1, i2⟩ := ih (fun y hy => hv y (by simp [hy])) hw h2
    refine ⟨?_, i2⟩
    have := SlackSplit.cons (m := 2) (bl := [a, b]) (x := x) rfl (by simp [ha, hb]) (fun e => by simp [hz e]) (by simpa using l) (by simpa using u) i1
    exact this

theorem levelLoopG_last (G : GradualRounding K) {rnd : Nat → K} {opts : CascOptions K} {si : Nat} {vin : List K} {st : CascVars K} {ls : List (List K)}
    (hv : ∀ x ∈ vin, 0 ≤ x) (hst : ∀ w, st.w1 = some w → G.fl w = w) (h : levelLoopR G.fl rnd opts (si + 1) vin st = .ok ls) :
    SlackSplit ((1 - G.u) ^ (2 * (si + 1))) ((1 + G.u) ^ (2 * (si + 1))) ((2 ^ (si + 2) - 2) * ((1 + G.u) ^ (2 * si) * G.a)) (2 ^ (si + 1)) vin (ls.getLastD []) := by
  have a0 := G.a_nonneg
  induction si generalizing vin st ls with
  | zero =>
    unfold levelLoopR at h
    obtain ⟨⟨s, mv⟩, _, h⟩ := Except.bind_ok h
    obtain ⟨⟨vout, st1⟩, h2, h⟩ := Except.bind_ok h
    obtain ⟨rest, h3, h⟩ := Except.bind_ok h
    cases h
    unfold levelLoopR at h3
    cases h3
    have := (boxLoopG_split G hv hst h2).1
    norm_num
    simpa using this
  | succ si ih =>
    unfold levelLoopR at h
    obtain ⟨⟨s, mv⟩, _, h⟩ := Except.bind_ok h
    obtain ⟨⟨vout, st1⟩, h2, h⟩ := Except.bind_ok h
    obtain ⟨rest, h3, h⟩ := Except.bind_ok h
    cases h
    obtain ⟨b1, hw⟩ := boxLoopG_split G hv hst h2
    have b2 := ih b1.nonneg hw h3
    have hne : rest ≠ [] := by
      rintro rfl
      unfold levelLoopR at h3
      obtain ⟨_, _, h3⟩ := Except.bind_ok h3
      obtain ⟨_, _, h3⟩ := Except.bind_ok h3
      obtain ⟨_, _, h3⟩ := Except.bind_ok h3
      cases h3
    have e : (vout :: rest).getLastD [] = rest.getLastD [] := by
      cases rest with
      | nil => exact absurd rfl hne
      | cons a l => simp [List.getLastD]
    have hlh : (1 - G.u) ^ (2 * (si + 1)) ≤ (1 + G.u) ^ (2 * (si + 1)) := pow_le_pow_left₀ G.lo_nonneg (by linarith [G.u_nonneg]) _
    have hc : (1 + G.u) ^ (2 * (si + 1)) * (2 * G.a) + ((2 : Nat) : K) * ((2 ^ (si + 2) - 2) * ((1 + G.u) ^ (2 * si) * G.a)) ≤
        (2 ^ (si + 1 + 2) - 2) * ((1 + G.u) ^ (2 * (si + 1)) * G.a) := by
      have h1 : (1 + G.u) ^ (2 * si) * G.a ≤ (1 + G.u) ^ (2 * (si + 1)) * G.a :=
        mul_le_mul_of_nonneg_right (pow_le_pow_right₀ G.one_le (by omega)) a0
      have h2 : (0 : K) ≤ 2 ^ (si + 2) - 2 := by
        have : (2 : K) ^ 1 ≤ 2 ^ (si + 2) := pow_le_pow_right₀ (by norm_num) (by omega)
        linarith
      have h3 := mul_le_mul_of_nonneg_left h1 h2
      have h4 : (2 : K) ^ (si + 1 + 2) = 2 * 2 ^ (si + 2) := by rw [show si + 1 + 2 = (si + 2) + 1 by ring, pow_succ]; ring
      rw [h4]
      push_cast
      nlinarith
    have := b1.trans (pow_nonneg G.lo_nonneg _) hlh (by linarith) hc b2
    rw [← pow_add, ← pow_add, ← pow_succ'] at this
    show SlackSplit _ _ _ _ _ ((vout :: rest).getLastD [])
    rw [e]
    rwa [show 2 * (si + 1) + 2 = 2 * (si + 1 + 1) by ring] at this

theorem quarterHoursG_split (G : GradualRounding K) (v : List K) (hv : ∀ x ∈ v, 0 ≤ x) : SlackSplit (1 - G.u) (1 + G.u) (3 * G.a) 3 v (quarterHoursR G.fl v) := by
  induction v with
  | nil => exact .nil
  | cons x xs ih =>
    have hx : 0 ≤ x := hv x (by simp)
    have hx3 : 0 ≤ x / 3 := by positivity
    have b := G.fl_bounds hx3
    have n := G.fl_nonneg hx3
    have := SlackSplit.cons (m := 3) (lo := 1 - G.u) (hi := 1 + G.u) (c := 3 * G.a) (bl := [G.fl (x / 3), G.fl (x / 3), G.fl (x / 3)]) (x := x) rfl
      (by intro y hy; simp at hy; subst hy; exact n) (by intro e y hy; simp at hy; subst hy; rw [e, zero_div, G.zero])
      (by simp; linarith [b.1]) (by simp; linarith [b.2]) (ih fun y hy => hv y (by simp [hy]))
    exact this

theorem quarterHoursG_fl (G : GradualRounding K) (v : List K) : ∀ y ∈ quarterHoursR G.fl v, G.fl y = y := by
  intro y hy
  unfold quarterHoursR at hy
  obtain ⟨x, _, hx⟩ := List.mem_flatMap.1 hy
  simp at hx
  rw [hx]
  exact G.idem _

/-! ### running sum -/

section run
variable (G : GradualRounding K) {q : Nat → K}

theorem runG_fl (k : Nat) : G.fl (runR G.fl 0 q k) = runR G.fl 0 q k := by
  cases k with
  | zero => exact G.zero
  | succ k => exact G.idem _

theorem runG_mono (hq : ∀ k, 0 ≤ q k) (k : Nat) : runR G.fl 0 q k ≤ runR G.fl 0 q (k + 1) := by
  rw [← runG_fl G k]
  exact G.mono _ _ (by linarith [hq k])

theorem runG_nonneg (hq : ∀ k, 0 ≤ q k) (k : Nat) : 0 ≤ runR G.fl 0 q k := by
  induction k with
  | zero => exact le_refl _
  | succ k ih => exact le_trans ih (runG_mono G hq k)

theorem runG_le (hq : ∀ k, 0 ≤ q k) (hf : ∀ k, G.fl (q k) = q k) (k : Nat) : runR G.fl 0 q k ≤ (1 + G.u) ^ k * ∑ j ∈ Finset.range k, q j := by
  induction k with
  | zero => simp [runR]
  | succ k ih =>
    have h1 : 0 ≤ runR G.fl 0 q k + q k := add_nonneg (runG_nonneg G hq k) (hq k)
    refine le_trans (G.add_bounds (runG_fl G k) (hf k) h1).2 ?_
    rw [pow_succ', mul_assoc, Finset.sum_range_succ, mul_add ((1 + G.u) ^ k)]
    refine mul_le_mul_of_nonneg_left (add_le_add ih ?_) G.hi_nonneg
    exact le_mul_of_one_le_left (hq k) (one_le_pow₀ G.one_le)

/-- error of the difference of two running sums, `N` and `Q` bounding the number and the sum of all addends -/
theorem runG_diff (hq : ∀ k, 0 ≤ q k) (hf : ∀ k, G.fl (q k) = q k) {N : Nat} (a m : Nat) (h : a + m ≤ N) :
    |runR G.fl 0 q (a + m) - runR G.fl 0 q a - ∑ j ∈ Finset.range m, q (a + j)| ≤
      m * (G.u * ((1 + G.u) ^ N * ∑ j ∈ Finset.range N, q j)) := by
  induction m with
  | zero => simp
  | succ m ih =>
    have ih := ih (by omega)
    have h1 : 0 ≤ runR G.fl 0 q (a + m) + q (a + m) := add_nonneg (runG_nonneg G hq _) (hq _)
    have h2 : runR G.fl 0 q (a + m) + q (a + m) ≤ (1 + G.u) ^ N * ∑ j ∈ Finset.range N, q j := by
      have e1 : runR G.fl 0 q (a + m) + q (a + m) ≤ (1 + G.u) ^ (a + m) * ∑ j ∈ Finset.range (a + m + 1), q j := by
        rw [Finset.sum_range_succ, mul_add]
        exact add_le_add (runG_le G hq hf _) (le_mul_of_one_le_left (hq _) (one_le_pow₀ G.one_le))
      have s0 : 0 ≤ ∑ j ∈ Finset.range (a + m + 1), q j := Finset.sum_nonneg fun j _ => hq j
      refine le_trans e1 (mul_le_mul (pow_le_pow_right₀ G.one_le (by omega)) ?_ s0 (pow_nonneg G.hi_nonneg _))
      exact Finset.sum_le_sum_of_subset_of_nonneg (Finset.range_subset_range.2 (by omega)) fun j _ _ => hq j
    have h3 := G.add _ _ (runG_fl G (q := q) (a + m)) (hf (a + m))
    rw [abs_of_nonneg h1] at h3
    have h4 := le_trans h3 (mul_le_mul_of_nonneg_left h2 G.u_nonneg)
    have e : runR G.fl 0 q (a + (m + 1)) - runR G.fl 0 q a - ∑ j ∈ Finset.range (m + 1), q (a + j) =
        (runR G.fl 0 q (a + m) - runR G.fl 0 q a - ∑ j ∈ Finset.range m, q (a + j)) +
          (G.fl (runR G.fl 0 q (a + m) + q (a + m)) - (runR G.fl 0 q (a + m) + q (a + m))) := by
      rw [Finset.sum_range_succ, show runR G.fl 0 q (a + (m + 1)) = G.fl (runR G.fl 0 q (a + m) + q (a + m)) from rfl]
      ring
    rw [e]
    refine le_trans (abs_add_le _ _) ?_
    push_cast
    linarith

end run

theorem hourlyFromQuarterG_eq (G : GradualRounding K) (q : List K) (h : 4 ∣ q.length) :
    hourlyFromQuarterR G.fl q = (List.range (q.length / 4)).map fun k =>
      G.fl (runR G.fl 0 (fun j => q.getD j 0) (4 * k + 4) - runR G.fl 0 (fun j => q.getD j 0) (4 * k)) := by
  unfold hourlyFromQuarterR
  dsimp only
  apply List.map_congr_left
  intro k hk
  have hk := List.mem_range.1 hk
  have hlen : 4 * k + 4 ≤ q.length := by omega
  by_cases h0 : k = 0
  · subst h0
    rw [if_pos rfl, cumsumR_getD _ _ _ _ (by omega)]
    show _ = G.fl (runR G.fl 0 _ 4 - 0)
    rw [sub_zero, runG_fl]
  · rw [if_neg h0, cumsumR_getD _ _ _ _ (by omega), cumsumR_getD _ _ _ _ (by omega)]
    congr 3
    all_goals omega

end Melodist
