import Verif.Spec.Rounding
import Verif.Model.CascadeRound
import Verif.Lemmas.Cascade
import Mathlib.Algebra.BigOperators.Intervals
import Mathlib.Algebra.Order.BigOperators.Ring.Finset
import Mathlib.Tactic.Linarith
import Mathlib.Tactic.Positivity

/-!
# Helper lemmas: the cascade in rounded arithmetic
-/

set_option linter.unusedSectionVars false

namespace Melodist
open Spec

variable {K : Type} [Field K] [LinearOrder K] [IsStrictOrderedRing K]

namespace Spec.Rounding

theorem fl_zero (R : Rounding K) : R.fl 0 = 0 := by
  have := R.err 0
  rw [abs_zero, mul_zero, sub_zero] at this
  exact abs_eq_zero.1 (le_antisymm this (abs_nonneg _))

theorem fl_nonneg (R : Rounding K) {x : K} (h : 0 ≤ x) : 0 ≤ R.fl x := by
  rw [← R.fl_zero]; exact R.mono _ _ h

theorem fl_bounds (R : Rounding K) {x : K} (h : 0 ≤ x) : (1 - R.u) * x ≤ R.fl x ∧ R.fl x ≤ (1 + R.u) * x := by
  have := R.err x
  rw [abs_of_nonneg h, abs_le] at this
  constructor <;> nlinarith [this.1, this.2]

theorem one_le (R : Rounding K) : 1 ≤ 1 + R.u := by linarith [R.u_nonneg]

theorem lo_nonneg (R : Rounding K) : 0 ≤ 1 - R.u := by linarith [R.u_lt_one]

theorem hi_nonneg (R : Rounding K) : 0 ≤ 1 + R.u := by linarith [R.u_nonneg]

theorem lo_le_one (R : Rounding K) : 1 - R.u ≤ 1 := by linarith [R.u_nonneg]

end Spec.Rounding

/-- `out` consists of one block of `m` non-negative numbers per element `x` of `v`, adding up to something between `lo * x` and `hi * x` -/
inductive NearSplit (lo hi : K) (m : Nat) : List K → List K → Prop
  | nil : NearSplit lo hi m [] []
  | cons {x : K} {xs bl ys : List K} : bl.length = m → (∀ y ∈ bl, 0 ≤ y) → lo * x ≤ bl.sum → bl.sum ≤ hi * x → NearSplit lo hi m xs ys →
      NearSplit lo hi m (x :: xs) (bl ++ ys)

namespace NearSplit

theorem length {lo hi : K} {m : Nat} {v w : List K} (h : NearSplit lo hi m v w) : w.length = m * v.length := by
  induction h with
  | nil => rfl
  | cons hl _ _ _ _ ih => rw [List.length_append, hl, ih, List.length_cons]; ring

theorem nonneg {lo hi : K} {m : Nat} {v w : List K} (h : NearSplit lo hi m v w) : ∀ y ∈ w, 0 ≤ y := by
  induction h with
  | nil => simp
  | cons _ hp _ _ _ ih =>
    intro y hy
    rcases List.mem_append.1 hy with h | h
    · exact hp y h
    · exact ih y h

theorem sum {lo hi : K} {m : Nat} {v w : List K} (h : NearSplit lo hi m v w) : lo * v.sum ≤ w.sum ∧ w.sum ≤ hi * v.sum := by
  induction h with
  | nil => simp
  | cons _ _ h1 h2 _ ih =>
    rw [List.sum_append, List.sum_cons, mul_add, mul_add]
    exact ⟨add_le_add h1 ih.1, add_le_add h2 ih.2⟩

theorem append_inv {lo hi : K} {k : Nat} : ∀ {a b z : List K}, NearSplit lo hi k (a ++ b) z →
    ∃ z1 z2, z = z1 ++ z2 ∧ NearSplit lo hi k a z1 ∧ NearSplit lo hi k b z2
  | [], b, z, h => ⟨[], z, rfl, .nil, h⟩
  | x :: a, b, z, h => by
    rw [List.cons_append] at h
    obtain @⟨_⟩ | @⟨_, _, bl, ys, h1, h2, h3, h3', h4⟩ := h
    obtain ⟨z1, z2, rfl, h5, h6⟩ := append_inv h4
    exact ⟨bl ++ z1, z2, by rw [List.append_assoc], .cons h1 h2 h3 h3' h5, h6⟩

theorem trans {lo hi lo' hi' : K} {m k : Nat} {v w z : List K} (hlo : 0 ≤ lo') (hhi : 0 ≤ hi') (h : NearSplit lo hi m v w)
    (h' : NearSplit lo' hi' k w z) : NearSplit (lo' * lo) (hi' * hi) (m * k) v z := by
  induction h generalizing z with
  | nil => cases h'; exact .nil
  | cons h1 h2 h3 h3' _ ih =>
    obtain ⟨z1, z2, rfl, h5, h6⟩ := append_inv h'
    refine .cons ?_ h5.nonneg ?_ ?_ (ih h6)
    · rw [h5.length, h1]; ring
    · rw [mul_assoc]; exact le_trans (mul_le_mul_of_nonneg_left h3 hlo) h5.sum.1
    · rw [mul_assoc]; exact le_trans h5.sum.2 (mul_le_mul_of_nonneg_left h3' hhi)

/-- block `i` of the output -/
theorem block {lo hi : K} {m : Nat} {v w : List K} (h : NearSplit lo hi m v w) {i : Nat} {x : K} (hi' : v[i]? = some x) :
    lo * x ≤ ((w.drop (m * i)).take m).sum ∧ ((w.drop (m * i)).take m).sum ≤ hi * x := by
  induction h generalizing i with
  | nil => simp at hi'
  | @cons y xs bl ys h1 h2 h3 h3' _ ih =>
    cases i with
    | zero =>
      simp at hi'
      subst hi'
      have : List.take m (List.drop (m * 0) (bl ++ ys)) = bl := by
        rw [mul_zero, List.drop_zero, ← h1, List.take_left']
        rfl
      rw [this]
      exact ⟨h3, h3'⟩
    | succ i =>
      have := ih (i := i) (by simpa using hi')
      have e : List.drop (m * (i + 1)) (bl ++ ys) = List.drop (m * i) ys := by
        rw [show m * (i + 1) = bl.length + m * i by rw [h1]; ring, ← List.drop_drop, List.drop_left']
        rfl
      rw [e]
      exact this

end NearSplit

/-! ### one box, one level -/

theorem boxStepR_split (R : Rounding K) {rnd : Nat → K} {s : CascStats K} {mv : XF K} {prev next : Option K} {x a b : K} {st st' : CascVars K} (hx0 : 0 ≤ x)
    (h : boxStepR R.fl rnd s mv prev x next st = .ok ((a, b), st')) :
    0 ≤ a ∧ 0 ≤ b ∧ (1 - R.u) ^ 2 * x ≤ a + b ∧ a + b ≤ (1 + R.u) ^ 2 * x := by
  have l1 : (1 - R.u) ^ 2 ≤ 1 := pow_le_one₀ R.lo_nonneg R.lo_le_one
  have h1 : 1 ≤ (1 + R.u) ^ 2 := one_le_pow₀ R.one_le
  have copy : (1 - R.u) ^ 2 * x ≤ x ∧ x ≤ (1 + R.u) ^ 2 * x :=
    ⟨mul_le_of_le_one_left hx0 l1, le_mul_of_one_le_left hx0 h1⟩
  unfold boxStepR at h
  split at h
  · cases hb : boxType prev next st.vbtype with
    | error e => rw [hb] at h; cases h
    | ok vb =>
      rw [hb] at h
      simp only [bind, Except.bind] at h
      generalize (if XF.lt mv (.fin x) then (1 : Fin 2) else 0) = bb at h
      cases vb with
      | none => cases h
      | some ty =>
        simp only at h
        split at h
        · cases h; simpa [hx0] using copy
        · split at h
          · cases h; simpa [hx0] using copy
          · split at h
            · cases h
            · split at h
              · cases h
              · rename_i w _ hw
                push Not at hw
                cases h
                have hw1 : 0 ≤ 1 - w := by linarith [hw.2]
                have ha := R.fl_bounds (mul_nonneg hw.1 hx0)
                have hb1 := R.fl_bounds hw1
                have hb0 := R.fl_nonneg hw1
                have hb2 := R.fl_bounds (mul_nonneg hb0 hx0)
                refine ⟨R.fl_nonneg (mul_nonneg hw.1 hx0), R.fl_nonneg (mul_nonneg hb0 hx0), ?_, ?_⟩
                · have e1 : (1 - R.u) ^ 2 * (w * x) ≤ R.fl (w * x) := by
                    refine le_trans ?_ ha.1
                    rw [pow_two, mul_assoc]
                    exact mul_le_of_le_one_left (mul_nonneg R.lo_nonneg (mul_nonneg hw.1 hx0)) R.lo_le_one
                  have e2 : (1 - R.u) ^ 2 * ((1 - w) * x) ≤ R.fl (R.fl (1 - w) * x) := by
                    refine le_trans ?_ hb2.1
                    rw [pow_two, mul_assoc, ← mul_assoc (1 - R.u) (1 - w) x]
                    exact mul_le_mul_of_nonneg_left (mul_le_mul_of_nonneg_right hb1.1 hx0) R.lo_nonneg
                  linarith
                · have e1 : R.fl (w * x) ≤ (1 + R.u) ^ 2 * (w * x) := by
                    refine le_trans ha.2 ?_
                    rw [pow_two, mul_assoc]
                    exact le_mul_of_one_le_left (mul_nonneg R.hi_nonneg (mul_nonneg hw.1 hx0)) R.one_le
                  have e2 : R.fl (R.fl (1 - w) * x) ≤ (1 + R.u) ^ 2 * ((1 - w) * x) := by
                    refine le_trans hb2.2 ?_
                    rw [pow_two, mul_assoc, ← mul_assoc (1 + R.u) (1 - w) x]
                    exact mul_le_mul_of_nonneg_left (mul_le_mul_of_nonneg_right hb1.2 hx0) R.hi_nonneg
                  linarith
  · rename_i hx
    cases h
    have : x = 0 := le_antisymm (not_lt.1 hx) hx0
    subst this
    simp

theorem boxLoopR_split (R : Rounding K) {rnd : Nat → K} {s : CascStats K} {mv : XF K} {prev : Option K} {v out : List K} {st st' : CascVars K}
    (hv : ∀ x ∈ v, 0 ≤ x) (h : boxLoopR R.fl rnd s mv prev v st = .ok (out, st')) : NearSplit ((1 - R.u) ^ 2) ((1 + R.u) ^ 2) 2 v out := by
  induction v generalizing prev out st with
  | nil => unfold boxLoopR at h; cases h; exact .nil
  | cons x xs ih =>
    unfold boxLoopR at h
    obtain ⟨⟨⟨a, b⟩, st1⟩, h1, h⟩ := Except.bind_ok h
    obtain ⟨⟨rest, st2⟩, h2, h⟩ := Except.bind_ok h
    cases h
    obtain ⟨ha, hb, l, u⟩ := boxStepR_split R (hv x (by simp)) h1
    have := NearSplit.cons (m := 2) (bl := [a, b]) (x := x) rfl (by simp [ha, hb]) (by simpa using l) (by simpa using u)
      (ih (fun y hy => hv y (by simp [hy])) h2)
    exact this

theorem levelLoopR_last (R : Rounding K) {rnd : Nat → K} {opts : CascOptions K} {si : Nat} {vin : List K} {st : CascVars K} {ls : List (List K)}
    (hv : ∀ x ∈ vin, 0 ≤ x) (h : levelLoopR R.fl rnd opts (si + 1) vin st = .ok ls) :
    NearSplit ((1 - R.u) ^ (2 * (si + 1))) ((1 + R.u) ^ (2 * (si + 1))) (2 ^ (si + 1)) vin (ls.getLastD []) := by
  induction si generalizing vin st ls with
  | zero =>
    unfold levelLoopR at h
    obtain ⟨⟨s, mv⟩, _, h⟩ := Except.bind_ok h
    obtain ⟨⟨vout, st1⟩, h2, h⟩ := Except.bind_ok h
    obtain ⟨rest, h3, h⟩ := Except.bind_ok h
    cases h
    unfold levelLoopR at h3
    cases h3
    simpa using boxLoopR_split R hv h2
  | succ si ih =>
    unfold levelLoopR at h
    obtain ⟨⟨s, mv⟩, _, h⟩ := Except.bind_ok h
    obtain ⟨⟨vout, st1⟩, h2, h⟩ := Except.bind_ok h
    obtain ⟨rest, h3, h⟩ := Except.bind_ok h
    cases h
    have b1 := boxLoopR_split R hv h2
    have b2 := ih b1.nonneg h3
    have hne : rest ≠ [] := by
      rintro rfl
      unfold levelLoopR at h3
      obtain ⟨_, _, h3⟩ := Except.bind_ok h3
      obtain ⟨_, _, h3⟩ := Except.bind_ok h3
      obtain ⟨_, _, h3⟩ := Except.bind_ok h3
      cases h3
    have e : (vout :: rest).getLastD [] = rest.getLastD [] := by
      cases rest with
      | nil => exact absurd rfl hne
      | cons a l => simp [List.getLastD]
    have := b1.trans (pow_nonneg R.lo_nonneg _) (pow_nonneg R.hi_nonneg _) b2
    rw [← pow_add, ← pow_add, ← pow_succ'] at this
    show NearSplit _ _ _ _ ((vout :: rest).getLastD [])
    rw [e]
    rwa [show 2 * (si + 1) + 2 = 2 * (si + 1 + 1) by ring] at this

theorem quarterHoursR_split (R : Rounding K) (v : List K) (hv : ∀ x ∈ v, 0 ≤ x) : NearSplit (1 - R.u) (1 + R.u) 3 v (quarterHoursR R.fl v) := by
  induction v with
  | nil => exact .nil
  | cons x xs ih =>
    have hx : 0 ≤ x := hv x (by simp)
    have hx3 : 0 ≤ x / 3 := by positivity
    have b := R.fl_bounds hx3
    have n := R.fl_nonneg hx3
    have := NearSplit.cons (m := 3) (lo := 1 - R.u) (hi := 1 + R.u) (bl := [R.fl (x / 3), R.fl (x / 3), R.fl (x / 3)]) (x := x) rfl
      (by intro y hy; simp at hy; subst hy; exact n) (by simp; linarith [b.1]) (by simp; linarith [b.2]) (ih fun y hy => hv y (by simp [hy]))
    exact this

/-! ### running sum -/

/-- the running sum in rounded arithmetic -/
def runR (fl : K → K) (acc : K) (q : Nat → K) : Nat → K
  | 0 => acc
  | k + 1 => fl (runR fl acc q k + q k)

theorem runR_shift (fl : K → K) (acc : K) (q : Nat → K) (k : Nat) : runR fl (fl (acc + q 0)) (fun j => q (j + 1)) k = runR fl acc q (k + 1) := by
  induction k with
  | zero => rfl
  | succ k ih => show fl (runR fl _ _ k + _) = fl (runR fl acc q (k + 1) + _); rw [ih]

theorem cumsumR_getD (fl : K → K) (q : List K) (acc : K) (k : Nat) (hk : k < q.length) :
    (cumsumR fl acc q).getD k 0 = runR fl acc (fun j => q.getD j 0) (k + 1) := by
  induction q generalizing acc k with
  | nil => simp at hk
  | cons x xs ih =>
    cases k with
    | zero => rfl
    | succ k =>
      show (cumsumR fl (fl (acc + x)) xs).getD k 0 = _
      rw [ih _ _ (by simpa using hk)]
      exact runR_shift fl acc (fun j => (x :: xs).getD j 0) (k + 1)

section run
variable (R : Rounding K) {q : Nat → K}

theorem runR_fl (k : Nat) : R.fl (runR R.fl 0 q k) = runR R.fl 0 q k := by
  cases k with
  | zero => exact R.fl_zero
  | succ k => exact R.idem _

theorem runR_mono (hq : ∀ k, 0 ≤ q k) (k : Nat) : runR R.fl 0 q k ≤ runR R.fl 0 q (k + 1) := by
  rw [← runR_fl R k]
  exact R.mono _ _ (by linarith [hq k])

theorem runR_nonneg (hq : ∀ k, 0 ≤ q k) (k : Nat) : 0 ≤ runR R.fl 0 q k := by
  induction k with
  | zero => exact le_refl _
  | succ k ih => exact le_trans ih (runR_mono R hq k)

theorem runR_le (hq : ∀ k, 0 ≤ q k) (k : Nat) : runR R.fl 0 q k ≤ (1 + R.u) ^ k * ∑ j ∈ Finset.range k, q j := by
  induction k with
  | zero => simp [runR]
  | succ k ih =>
    have h1 : 0 ≤ runR R.fl 0 q k + q k := add_nonneg (runR_nonneg R hq k) (hq k)
    refine le_trans (R.fl_bounds h1).2 ?_
    rw [pow_succ', mul_assoc, Finset.sum_range_succ, mul_add ((1 + R.u) ^ k)]
    refine mul_le_mul_of_nonneg_left (add_le_add ih ?_) R.hi_nonneg
    exact le_mul_of_one_le_left (hq k) (one_le_pow₀ R.one_le)

/-- error of the difference of two running sums, `N` and `Q` bounding the number and the sum of all addends -/
theorem runR_diff (hq : ∀ k, 0 ≤ q k) {N : Nat} (a m : Nat) (h : a + m ≤ N) :
    |runR R.fl 0 q (a + m) - runR R.fl 0 q a - ∑ j ∈ Finset.range m, q (a + j)| ≤
      m * (R.u * ((1 + R.u) ^ N * ∑ j ∈ Finset.range N, q j)) := by
  induction m with
  | zero => simp
  | succ m ih =>
    have ih := ih (by omega)
    have h1 : 0 ≤ runR R.fl 0 q (a + m) + q (a + m) := add_nonneg (runR_nonneg R hq _) (hq _)
    have h2 : runR R.fl 0 q (a + m) + q (a + m) ≤ (1 + R.u) ^ N * ∑ j ∈ Finset.range N, q j := by
      have e1 : runR R.fl 0 q (a + m) + q (a + m) ≤ (1 + R.u) ^ (a + m) * ∑ j ∈ Finset.range (a + m + 1), q j := by
        rw [Finset.sum_range_succ, mul_add]
        exact add_le_add (runR_le R hq _) (le_mul_of_one_le_left (hq _) (one_le_pow₀ R.one_le))
      have s0 : 0 ≤ ∑ j ∈ Finset.range (a + m + 1), q j := Finset.sum_nonneg fun j _ => hq j
      refine le_trans e1 (mul_le_mul (pow_le_pow_right₀ R.one_le (by omega)) ?_ s0 (pow_nonneg R.hi_nonneg _))
      exact Finset.sum_le_sum_of_subset_of_nonneg (Finset.range_subset_range.2 (by omega)) fun j _ _ => hq j
    have h3 := R.err (runR R.fl 0 q (a + m) + q (a + m))
    rw [abs_of_nonneg h1] at h3
    have h4 := le_trans h3 (mul_le_mul_of_nonneg_left h2 R.u_nonneg)
    have e : runR R.fl 0 q (a + (m + 1)) - runR R.fl 0 q a - ∑ j ∈ Finset.range (m + 1), q (a + j) =
        (runR R.fl 0 q (a + m) - runR R.fl 0 q a - ∑ j ∈ Finset.range m, q (a + j)) +
          (R.fl (runR R.fl 0 q (a + m) + q (a + m)) - (runR R.fl 0 q (a + m) + q (a + m))) := by
      rw [Finset.sum_range_succ, show runR R.fl 0 q (a + (m + 1)) = R.fl (runR R.fl 0 q (a + m) + q (a + m)) from rfl]
      ring
    rw [e]
    refine le_trans (abs_add_le _ _) ?_
    push_cast
    linarith

end run

theorem hourlyFromQuarterR_eq (R : Rounding K) (q : List K) (h : 4 ∣ q.length) :
    hourlyFromQuarterR R.fl q = (List.range (q.length / 4)).map fun k =>
      R.fl (runR R.fl 0 (fun j => q.getD j 0) (4 * k + 4) - runR R.fl 0 (fun j => q.getD j 0) (4 * k)) := by
  unfold hourlyFromQuarterR
  dsimp only
  apply List.map_congr_left
  intro k hk
  have hk := List.mem_range.1 hk
  have hlen : 4 * k + 4 ≤ q.length := by omega
  by_cases h0 : k = 0
  · subst h0
    rw [if_pos rfl, cumsumR_getD _ _ _ _ (by omega)]
    show _ = R.fl (runR R.fl 0 _ 4 - 0)
    rw [sub_zero, runR_fl]
  · rw [if_neg h0, cumsumR_getD _ _ _ _ (by omega), cumsumR_getD _ _ _ _ (by omega)]
    congr 3
    all_goals omega

end Melodist
