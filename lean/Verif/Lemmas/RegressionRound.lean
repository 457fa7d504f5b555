import Verif.Model.RegressionRound
import Verif.Props.DailyRound

/-!
# Helper lemmas: linear regression in double precision
-/

set_option linter.unusedSectionVars false

namespace Melodist
open Spec

noncomputable section

theorem Acc.trans {R : Rounding ℝ} {j k : Nat} {t s' s B S : ℝ} (h : Acc R j t s' S) (hS : S ≤ (1 + R.u) ^ k * B) (h2 : Acc R k s' s B) : Acc R (j + k) t s B := by
  refine ⟨?_, h2.2⟩
  have h0 : 0 ≤ (1 + R.u) ^ j - 1 := by have := one_le_hi_pow R j; linarith
  have h1 := h.1.trans (mul_le_mul_of_nonneg_left hS h0)
  have h3 := abs_add_le (t - s') (s' - s)
  rw [sub_add_sub_cancel] at h3
  refine h3.trans ((add_le_add h1 h2.1).trans (le_of_eq ?_))
  rw [pow_add]
  ring

theorem acc_sum_map {α : Type} {R : Rounding ℝ} {k : Nat} {B : ℝ} {f' f : α → ℝ} : ∀ (l : List α), (∀ p ∈ l, Acc R k (f' p) (f p) B) →
    Acc R k (l.map f').sum (l.map f).sum (l.length * B) ∧ absSum (l.map f') ≤ (1 + R.u) ^ k * (l.length * B)
  | [], _ => by simp [Acc, absSum]
  | p :: l, h => by
    obtain ⟨h1, h2⟩ := acc_sum_map l fun q hq => h q (by simp [hq])
    have hp := h p (by simp)
    constructor
    · simp only [List.map_cons, List.sum_cons, List.length_cons]
      refine (hp.add h1).mono (le_refl _) (le_of_eq ?_)
      push_cast
      ring
    · unfold absSum at h2 ⊢
      simp only [List.map_cons, List.sum_cons, List.length_cons]
      have := hp.abs_le
      push_cast
      linarith

/-- a rounded sum of rounded terms -/
theorem acc_sum_terms {α : Type} {R : Rounding ℝ} {k : Nat} {B : ℝ} {f' f : α → ℝ} {l : List α} {t : ℝ} (h : ∀ p ∈ l, Acc R k (f' p) (f p) B) (ht : AddsTo R.fl (l.map f') t) :
    Acc R (l.length - 1 + k) t (l.map f).sum (l.length * B) := by
  obtain ⟨h1, h2⟩ := acc_sum_map l h
  have h3 := (Acc.addsTo R ht).2
  rw [List.length_map] at h3
  exact h3.trans h2 h1

/-- a rounded mean -/
theorem acc_mean {R : Rounding ℝ} {l : List ℝ} {B t : ℝ} (hne : l ≠ []) (hB : ∀ x ∈ l, |x| ≤ B) (ht : AddsTo R.fl l t) : Acc R l.length (R.fl (t / l.length)) (l.sum / l.length) B := by
  have hpos : 0 < l.length := List.length_pos_of_ne_nil hne
  have hpos' : (0 : ℝ) < l.length := by exact_mod_cast hpos
  have h := acc_sum_terms (R := R) (k := 0) (f' := id) (f := id) (l := l) (t := t) (fun p hp => Acc.exact R (hB p hp)) (by simpa using ht)
  rw [List.map_id] at h
  have h2 := (h.mul_const (c := 1 / l.length) (C := 1 / l.length) (by rw [abs_of_pos (by positivity)])).round
  rw [show l.length - 1 + 0 + 1 = l.length by omega] at h2
  refine ⟨?_, ?_⟩
  · have := h2.1
    rw [mul_one_div, mul_one_div, show (l.length : ℝ) * B * (1 / l.length) = B by field_simp] at this
    exact this
  · have := h2.2
    rw [mul_one_div, show (l.length : ℝ) * B * (1 / l.length) = B by field_simp] at this
    exact this

/-- a rounded covariance -/
theorem acc_cov {R : Rounding ℝ} {α : Type} {l : List α} (hne : l ≠ []) {x y : α → ℝ} {mx my mx' my' X Y t : ℝ} (hX : ∀ p ∈ l, |x p| ≤ X) (hY : ∀ p ∈ l, |y p| ≤ Y)
    (hx : Acc R l.length mx' mx X) (hy : Acc R l.length my' my Y) (ht : AddsTo R.fl (l.map fun p => R.fl (R.fl (x p - mx') * R.fl (y p - my'))) t) :
    Acc R (3 * l.length + 4) (R.fl (t * R.fl (1 / l.length))) ((l.map fun p => (x p - mx) * (y p - my)).sum / l.length) (4 * (X * Y)) := by
  have hpos : 0 < l.length := List.length_pos_of_ne_nil hne
  have hpos' : (0 : ℝ) < l.length := by exact_mod_cast hpos
  have hd : ∀ p ∈ l, Acc R (l.length + 1 + (l.length + 1) + 1) (R.fl (R.fl (x p - mx') * R.fl (y p - my'))) ((x p - mx) * (y p - my)) ((X + X) * (Y + Y)) := by
    intro p hp
    have a := (((Acc.exact R (hX p hp)).mono (Nat.zero_le l.length) (le_refl _)).sub hx).round
    have b := (((Acc.exact R (hY p hp)).mono (Nat.zero_le l.length) (le_refl _)).sub hy).round
    exact (a.mul b).round
  have hs := acc_sum_terms hd ht
  have hinv : Acc R 1 (R.fl (1 / l.length)) (1 / l.length) (1 / l.length) := by
    have := (Acc.exact R (x := 1 / (l.length : ℝ)) (B := 1 / l.length) (by rw [abs_of_pos (by positivity)])).round
    exact this
  have h2 := (hs.mul hinv).round
  have e : l.length - 1 + (l.length + 1 + (l.length + 1) + 1) + 1 + 1 = 3 * l.length + 4 := by omega
  rw [e] at h2
  rw [mul_one_div] at h2
  refine h2.mono (le_refl _) (le_of_eq ?_)
  field_simp
  ring

end

end Melodist
