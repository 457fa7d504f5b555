import Verif.Lemmas.CascadeRun
import Verif.Spec.Precip
import Mathlib.Data.List.GetD
import Mathlib.Tactic.FinCases
import Mathlib.Data.Fintype.Basic

/-!
# Lemmas for the branching rule of the cascade (C77)
-/

set_option linter.unusedSectionVars false

namespace Melodist
open Spec

variable {K : Type} [Field K] [LinearOrder K] [IsStrictOrderedRing K]

/-- position type from the two neighbours -/
def kindOf (prev next : Option K) : Fin 4 :=
  if 0 < prev.getD 0 then (if 0 < next.getD 0 then 1 else 2) else (if 0 < next.getD 0 then 0 else 3)

theorem boxType_kind {prev next : Option K} {stale : Option BoxType} {vb : Option BoxType}
    (hp : ∀ x, prev = some x → 0 ≤ x) (hn : ∀ x, next = some x → 0 ≤ x)
    (h : boxType prev next stale = .ok vb) : ∃ ty, vb = some ty ∧ ty.col = kindOf prev next := by
  cases prev with
  | none =>
    cases next with
    | none => cases h
    | some nx =>
      simp only [boxType] at h
      injection h with h
      refine ⟨_, h.symm, ?_⟩
      unfold kindOf
      by_cases c : 0 < nx <;> simp [c, BoxType.col]
  | some pv =>
    have hpv := hp pv rfl
    cases next with
    | none =>
      simp only [boxType] at h
      injection h with h
      refine ⟨_, h.symm, ?_⟩
      unfold kindOf
      by_cases c : 0 < pv <;> simp [c, BoxType.col]
    | some nx =>
      have hnx := hn nx rfl
      simp only [boxType] at h
      injection h with h
      unfold kindOf
      rcases hpv.lt_or_eq with c1 | c1 <;> rcases hnx.lt_or_eq with c2 | c2
      · have e1 : pv ≠ 0 := c1.ne'
        have e2 : nx ≠ 0 := c2.ne'
        simp only [c1, c2, e1, e2, and_self, false_and, and_false, if_true, if_false] at h
        exact ⟨_, h.symm, by simp [c1, c2, BoxType.col]⟩
      · have e1 : pv ≠ 0 := c1.ne'
        subst c2
        simp only [c1, e1, lt_irrefl, false_and, and_false, and_self, if_true, if_false] at h
        exact ⟨_, h.symm, by simp [c1, BoxType.col]⟩
      · have e2 : nx ≠ 0 := c2.ne'
        subst c1
        simp only [c2, e2, lt_irrefl, false_and, and_false, and_self, if_true, if_false] at h
        exact ⟨_, h.symm, by simp [c2, BoxType.col]⟩
      · subst c1; subst c2
        simp only [lt_irrefl, and_self, if_true, if_false, and_false, false_and] at h
        exact ⟨_, h.symm, by simp [BoxType.col]⟩

theorem wxxcum_eq (s : CascStats K) (b : Fin 2) (t : Fin 4) (c : Fin 7) :
    wxxcum s c.1 b t = cumWeight (fun k => s.wxx k b t) c := by
  fin_cases c <;> rfl

theorem classCentre_eq (c : Fin 7) : (classCentre c : K) = classLimit c.succ - 1 / 14 := by
  unfold classCentre
  congr 1
  fin_cases c <;> (simp [wclassbounds, classLimit]; try norm_num)

theorem guessW1_class (s : CascStats K) (b : Fin 2) (t : Fin 4) (u : K) (stale : Option K) :
    (∃ c, FirstClass (fun k => s.wxx k b t) u c ∧ guessW1 s b t u stale = some (classLimit c.succ - 1 / 14)) ∨
    ((∀ c, ¬ XF.le (.fin u) (cumWeight (fun k => s.wxx k b t) c)) ∧ guessW1 s b t u stale = stale) := by
  unfold guessW1
  cases hf : (List.finRange 7).find? fun k : Fin 7 => decide (XF.le (.fin u) (wxxcum s k.1 b t)) with
  | none =>
    right
    refine ⟨?_, rfl⟩
    intro c
    have := List.find?_eq_none.1 hf c (List.mem_finRange c)
    rw [← wxxcum_eq]
    simpa using this
  | some c =>
    left
    refine ⟨c, ⟨?_, ?_⟩, by simp only; rw [classCentre_eq]⟩
    · have := List.find?_some hf
      rw [← wxxcum_eq]
      simpa using this
    · intro c' hc'
      rw [List.find?_eq_some_iff_getElem] at hf
      obtain ⟨_, i, hi, he, hlt⟩ := hf
      have hi' : i = c.1 := by
        rw [← he]; simp
      subst hi'
      have := hlt c'.1 hc'
      rw [← wxxcum_eq]
      simpa using this

theorem boxStep_branch {rnd : Nat → K} {s : CascStats K} {mv : XF K} {prev next : Option K} {x a b : K} {st st' : CascVars K}
    (hp : ∀ x, prev = some x → 0 ≤ x) (hn : ∀ x, next = some x → 0 ≤ x)
    (h : boxStep rnd s mv prev x next st = .ok ((a, b), st')) :
    let c : Fin 2 := if XF.lt mv (.fin x) then 1 else 0
    Branch rnd (s.p01 c (kindOf prev next)) (s.p10 c (kindOf prev next)) (fun k => s.wxx k c (kindOf prev next)) x
      (st.draws, st.w1) a b (st'.draws, st'.w1) := by
  intro c
  unfold boxStep at h
  by_cases hx : 0 < x
  · rw [if_pos hx] at h
    obtain ⟨vb, hb, h⟩ := Except.bind_ok h
    obtain ⟨ty, rfl, hty⟩ := boxType_kind hp hn hb
    simp only at h
    rw [hty] at h
    change (if XF.le (.fin (rnd st.draws)) (s.p01 c (kindOf prev next)) then _ else _) = _ at h
    by_cases c1 : XF.le (.fin (rnd st.draws)) (s.p01 c (kindOf prev next))
    · rw [if_pos c1] at h
      cases h
      exact .second _ _ hx c1
    · rw [if_neg c1] at h
      by_cases c2 : XF.lt (s.p01 c (kindOf prev next)) (.fin (rnd st.draws)) ∧
          XF.le (.fin (rnd st.draws)) (s.p01 c (kindOf prev next) + s.p10 c (kindOf prev next))
      · rw [if_pos c2] at h
        cases h
        exact .first _ _ hx c2.1 c2.2
      · rw [if_neg c2] at h
        rcases guessW1_class s c (kindOf prev next) (rnd (st.draws + 1)) st.w1 with ⟨k, hk, hg⟩ | ⟨hk, hg⟩
        · change (match guessW1 s c (kindOf prev next) (rnd (st.draws + 1)) st.w1 with | none => _ | some w => _) = _ at h
          rw [hg] at h
          simp only at h
          split at h
          · cases h
          · cases h
            simp only
            exact .both _ _ k hx c1 c2 hk
        · change (match guessW1 s c (kindOf prev next) (rnd (st.draws + 1)) st.w1 with | none => _ | some w => _) = _ at h
          rw [hg] at h
          cases hw : st.w1 with
          | none => rw [hw] at h; cases h
          | some w =>
            rw [hw] at h
            simp only at h
            split at h
            · cases h
            · cases h
              simp only
              exact .again _ w hx c1 c2 hk
  · rw [if_neg hx] at h
    cases h
    exact .dry _ _ (not_lt.1 hx)

theorem boxLoop_branch {rnd : Nat → K} {s : CascStats K} {mv : XF K} : ∀ (v : List K) (prev : Option K) (out : List K) (st st' : CascVars K),
    (∀ x, prev = some x → 0 ≤ x) → (∀ x ∈ v, 0 ≤ x) → boxLoop rnd s mv prev v st = .ok (out, st') →
    ∃ σ : Nat → Nat × Option K, σ 0 = (st.draws, st.w1) ∧ σ v.length = (st'.draws, st'.w1) ∧
      ∀ (j : Nat) (y a b : K), v[j]? = some y → out[2 * j]? = some a → out[2 * j + 1]? = some b →
        let c : Fin 2 := if XF.lt mv (.fin y) then 1 else 0
        let t := kindOf (if j = 0 then prev else v[j - 1]?) v[j + 1]?
        Branch rnd (s.p01 c t) (s.p10 c t) (fun k => s.wxx k c t) y (σ j) a b (σ (j + 1)) := by
  intro v
  induction v with
  | nil =>
    intro prev out st st' _ _ h
    unfold boxLoop at h
    cases h
    exact ⟨fun _ => (st.draws, st.w1), rfl, rfl, by intro j y a b hy; simp at hy⟩
  | cons x xs ih =>
    intro prev out st st' hp hv h
    obtain ⟨a, b, st1, rest, h1, h2, rfl⟩ := boxLoop_cons h
    have hnext : ∀ y, xs.head? = some y → 0 ≤ y := by
      intro y hy
      exact hv y (List.mem_cons_of_mem _ (List.mem_of_mem_head? hy))
    obtain ⟨σ, s0, sl, hσ⟩ := ih (some x) rest st1 st' (by rintro y ⟨⟩; exact hv x (by simp))
      (fun y hy => hv y (List.mem_cons_of_mem _ hy)) h2
    refine ⟨fun j => if j = 0 then (st.draws, st.w1) else σ (j - 1), rfl, by simpa using sl, ?_⟩
    intro j y a' b' hy ha hb
    cases j with
    | zero =>
      simp only [List.getElem?_cons_zero, Option.some.injEq] at hy
      subst hy
      simp at ha hb
      subst ha; subst hb
      have := boxStep_branch hp hnext h1
      simp only [if_true, Nat.zero_add, Nat.one_ne_zero, if_false, Nat.sub_self, List.getElem?_cons_succ]
      rw [s0, ← List.head?_eq_getElem?]
      exact this
    | succ j =>
      have hy' : xs[j]? = some y := by simpa using hy
      have ha' : rest[2 * j]? = some a' := by
        rw [show 2 * (j + 1) = 2 * j + 1 + 1 by omega] at ha
        simpa using ha
      have hb' : rest[2 * j + 1]? = some b' := by
        rw [show 2 * (j + 1) + 1 = 2 * j + 1 + 1 + 1 by omega] at hb
        simpa using hb
      have := hσ j y a' b' hy' ha' hb'
      simp only [Nat.add_sub_cancel, Nat.succ_ne_zero, if_false, List.getElem?_cons_succ]
      have e : (if j = 0 then some x else xs[j - 1]?) = (x :: xs)[j]? := by
        cases j with
        | zero => rfl
        | succ j => simp
      rw [e] at this
      exact this

theorem kind_posType (v : List K) (j : Nat) (hj : j < v.length) :
    kindOf (if j = 0 then none else v[j - 1]?) v[j + 1]? = posType v j := by
  unfold kindOf posType
  rw [List.getD_eq_getElem?_getD, List.getD_eq_getElem?_getD]
  by_cases h : j = 0
  · subst h; simp
  · rw [if_neg h]
    have : (0 < j) = True := by simp; omega
    simp only [this, true_and]

theorem levelLoop_branch {rnd : Nat → K} {opts : CascOptions K} : ∀ (si : Nat) (vin : List K) (st : CascVars K) (ls : List (List K)),
    (∀ x ∈ vin, 0 ≤ x) → levelLoop rnd opts si vin st = .ok ls →
    ∃ σ : Nat → Nat → Nat × Option K, σ 0 0 = (st.draws, st.w1) ∧
      ∀ (l : Nat) (p c : List K), (vin :: ls)[l]? = some p → ls[l]? = some c →
        ∃ s mv, levelStats opts (si - (l + 1)) = .ok (s, mv) ∧ σ (l + 1) 0 = σ l p.length ∧
          ∀ (j : Nat) (y a b : K), p[j]? = some y → c[2 * j]? = some a → c[2 * j + 1]? = some b →
            let q : Fin 2 := if XF.lt mv (.fin y) then 1 else 0
            Branch rnd (s.p01 q (posType p j)) (s.p10 q (posType p j)) (fun k => s.wxx k q (posType p j)) y (σ l j) a b (σ l (j + 1)) := by
  intro si
  induction si with
  | zero =>
    intro vin st ls _ h
    unfold levelLoop at h
    cases h
    exact ⟨fun _ _ => (st.draws, st.w1), rfl, by intro l p c _ hc; simp at hc⟩
  | succ si ih =>
    intro vin st ls hv h
    obtain ⟨s, mv, vout, st1, rest, h1, h2, h3, rfl⟩ := levelLoop_succ h
    obtain ⟨σ0, a0, al, hσ0⟩ := boxLoop_branch vin none vout st st1 (by simp) hv h2
    obtain ⟨σ, b0, hσ⟩ := ih vout st1 rest (boxLoop_split h2).nonneg h3
    refine ⟨fun l => if l = 0 then σ0 else σ (l - 1), a0, ?_⟩
    intro l p c hp hc
    cases l with
    | zero =>
      simp at hp hc
      subst hp; subst hc
      refine ⟨s, mv, by simpa using h1, ?_, ?_⟩
      · simp only [if_true, Nat.zero_add, Nat.one_ne_zero, if_false, Nat.sub_self, b0, al]
      · intro j y a b hy ha hb
        have := hσ0 j y a b hy ha hb
        have hj : j < vin.length := by
          by_contra hge
          rw [List.getElem?_eq_none (by omega)] at hy
          cases hy
        rw [kind_posType vin j hj] at this
        exact this
    | succ l =>
      obtain ⟨s', mv', e1, e2, e3⟩ := hσ l p c (by simpa using hp) (by simpa using hc)
      refine ⟨s', mv', ?_, ?_, ?_⟩
      · rw [← e1]; congr 1; omega
      · simpa using e2
      · simpa using e3

end Melodist
