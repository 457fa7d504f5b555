import Verif.Lemmas.Cascade

/-!
# Helper lemmas: dry boxes in the loops of the cascade
-/

set_option linter.unusedSectionVars false

namespace Melodist

variable {K : Type} [Field K] [LinearOrder K] [IsStrictOrderedRing K] {rnd rnd' : Nat → K} {s : CascStats K} {mv : XF K} {opts : CascOptions K}

theorem boxStep_dry (prev : Option K) (next : Option K) (st : CascVars K) : boxStep rnd s mv prev 0 next st = .ok ((0, 0), st) := if_neg (lt_irrefl _)

theorem boxLoop_eq (prev : Option K) (x : K) (xs : List K) (st : CascVars K) : boxLoop rnd s mv prev (x :: xs) st =
    (boxStep rnd s mv prev x xs.head? st).bind fun r => (boxLoop rnd s mv (some x) xs r.2).bind fun q => .ok (r.1.1 :: r.1.2 :: q.1, q.2) := rfl

/-- dry boxes in front of other boxes -/
theorem boxLoop_zeros : ∀ (g : Nat), 1 ≤ g → ∀ (prev : Option K) (B : List K) (st : CascVars K),
    boxLoop rnd s mv prev (List.replicate g 0 ++ B) st = (boxLoop rnd s mv (some 0) B st).map fun r => (List.replicate (g * 2) 0 ++ r.1, r.2) := by
  intro g
  induction g with
  | zero => intro h; omega
  | succ g ih =>
    intro _ prev B st
    rw [List.replicate_succ, List.cons_append]
    rw [boxLoop_eq, boxStep_dry]
    simp only [Except.bind]
    by_cases hg : g = 0
    · subst hg
      simp only [List.replicate_zero, List.nil_append]
      cases boxLoop rnd s mv (some 0) B st <;> rfl
    · rw [ih (by omega)]
      cases boxLoop rnd s mv (some 0) B st with
      | error e => rfl
      | ok r =>
        simp only [Except.map]
        rw [show (g + 1) * 2 = g * 2 + 1 + 1 by ring, List.replicate_succ, List.replicate_succ]
        rfl

/-- the box loop over boxes `A`, any number of dry boxes, and boxes `B`: the halves of `A` and of `B` -/
def dryGapLoop (rnd : Nat → K) (s : CascStats K) (mv : XF K) : Option K → List K → List K → CascVars K → Py ((List K × List K) × CascVars K)
  | _, [], B, st => (boxLoop rnd s mv (some 0) B st).map fun r => (([], r.1), r.2)
  | prev, x :: A, B, st => do
    let ((a, b), st) ← boxStep rnd s mv prev x (A ++ [0]).head? st
    let (r, st) ← dryGapLoop rnd s mv (some x) A B st
    .ok ((a :: b :: r.1, r.2), st)

theorem boxLoop_gap {g : Nat} (hg : 1 ≤ g) : ∀ (A : List K) (prev : Option K) (B : List K) (st : CascVars K),
    boxLoop rnd s mv prev (A ++ List.replicate g 0 ++ B) st = (dryGapLoop rnd s mv prev A B st).map fun r => (r.1.1 ++ List.replicate (g * 2) 0 ++ r.1.2, r.2) := by
  intro A
  induction A with
  | nil =>
    intro prev B st
    rw [List.nil_append, boxLoop_zeros g hg]
    unfold dryGapLoop
    cases boxLoop rnd s mv (some 0) B st <;> simp [Except.map]
  | cons x A ih =>
    intro prev B st
    rw [List.cons_append, List.cons_append]
    rw [boxLoop_eq]
    unfold dryGapLoop
    have hh : (A ++ List.replicate g 0 ++ B).head? = (A ++ [0]).head? := by
      cases A with
      | nil =>
        obtain ⟨g, rfl⟩ : ∃ k, g = k + 1 := ⟨g - 1, by omega⟩
        simp [List.replicate_succ]
      | cons y A => simp
    rw [hh]
    simp only [bind, Except.bind]
    cases boxStep rnd s mv prev x (A ++ [0]).head? st with
    | error e => rfl
    | ok r =>
      obtain ⟨⟨a, b⟩, st1⟩ := r
      simp only [ih]
      cases dryGapLoop rnd s mv (some x) A B st1 with
      | error e => rfl
      | ok r => simp [Except.map]

theorem dryGapLoop_length : ∀ {A : List K} {prev : Option K} {B : List K} {st st' : CascVars K} {a b : List K},
    dryGapLoop rnd s mv prev A B st = .ok ((a, b), st') → a.length = A.length * 2 ∧ b.length = B.length * 2 := by
  intro A
  induction A with
  | nil =>
    intro prev B st st' a b h
    unfold dryGapLoop at h
    cases hb : boxLoop rnd s mv (some 0) B st with
    | error e => rw [hb] at h; cases h
    | ok r =>
      rw [hb] at h
      simp only [Except.map, Except.ok.injEq, Prod.mk.injEq] at h
      obtain ⟨⟨rfl, rfl⟩, -⟩ := h
      have := (boxLoop_split (out := r.1) (st' := r.2) hb).length
      exact ⟨rfl, by rw [this, mul_comm]⟩
  | cons x A ih =>
    intro prev B st st' a b h
    unfold dryGapLoop at h
    simp only [bind, Except.bind] at h
    cases h1 : boxStep rnd s mv prev x (A ++ [0]).head? st with
    | error e => rw [h1] at h; cases h
    | ok r =>
      rw [h1] at h
      simp only at h
      cases h2 : dryGapLoop rnd s mv (some x) A B r.2 with
      | error e => rw [h2] at h; cases h
      | ok q =>
        rw [h2] at h
        simp only [Except.ok.injEq, Prod.mk.injEq] at h
        obtain ⟨⟨rfl, rfl⟩, -⟩ := h
        obtain ⟨⟨a', b'⟩, st2⟩ := q
        obtain ⟨i, j⟩ := ih h2
        refine ⟨?_, j⟩
        simp only [List.length_cons, i]
        ring

/-- the levels of a run over `A`, any number of dry boxes, and `B`: the boxes that descend from `A` and those that descend from `B` -/
def dryGapLevels (rnd : Nat → K) (opts : CascOptions K) : Nat → List K → List K → CascVars K → Py (List (List K × List K))
  | 0, _, _, _ => .ok []
  | si + 1, A, B, st => do
    let (s, mv) ← levelStats opts si
    let (r, st) ← dryGapLoop rnd s mv none A B st
    let rest ← dryGapLevels rnd opts si r.1 r.2 st
    .ok (r :: rest)

theorem levelLoop_gap : ∀ (si : Nat) {g : Nat}, 1 ≤ g → ∀ (A B : List K) (st : CascVars K),
    levelLoop rnd opts si (A ++ List.replicate g 0 ++ B) st =
      (dryGapLevels rnd opts si A B st).map fun ps => ps.mapIdx fun l p => p.1 ++ List.replicate (g * 2 ^ (l + 1)) 0 ++ p.2 := by
  intro si
  induction si with
  | zero => intros; rfl
  | succ si ih =>
    intro g hg A B st
    unfold levelLoop dryGapLevels
    simp only [bind, Except.bind]
    cases levelStats opts si with
    | error e => rfl
    | ok q =>
      obtain ⟨s, mv⟩ := q
      simp only [boxLoop_gap hg]
      cases dryGapLoop rnd s mv none A B st with
      | error e => rfl
      | ok r =>
        simp only [Except.map]
        rw [ih (by omega : 1 ≤ g * 2)]
        cases dryGapLevels rnd opts si r.1.1 r.1.2 r.2 with
        | error e => rfl
        | ok ps =>
          simp only [Except.map, Except.ok.injEq]
          rw [List.mapIdx_cons, List.cons.injEq]
          refine ⟨by rw [zero_add, pow_one], ?_⟩
          · apply List.ext_getElem (by simp)
            intro l h1 h2
            simp only [List.getElem_mapIdx]
            rw [show g * 2 * 2 ^ (l + 1) = g * 2 ^ (l + 1 + 1) by ring]

theorem dryGapLevels_length : ∀ (si : Nat) {A B : List K} {st : CascVars K} {ps : List (List K × List K)}, dryGapLevels rnd opts si A B st = .ok ps →
    ∀ (l : Nat) (p : List K × List K), ps[l]? = some p → p.1.length = A.length * 2 ^ (l + 1) ∧ p.2.length = B.length * 2 ^ (l + 1) := by
  intro si
  induction si with
  | zero =>
    intro A B st ps h l p hl
    unfold dryGapLevels at h
    cases h
    simp at hl
  | succ si ih =>
    intro A B st ps h l p hl
    unfold dryGapLevels at h
    simp only [bind, Except.bind] at h
    cases h1 : levelStats opts si with
    | error e => rw [h1] at h; cases h
    | ok q =>
      rw [h1] at h
      obtain ⟨s, mv⟩ := q
      simp only at h
      cases h2 : dryGapLoop rnd s mv none A B st with
      | error e => rw [h2] at h; cases h
      | ok r =>
        rw [h2] at h
        obtain ⟨⟨a, b⟩, st1⟩ := r
        simp only at h
        cases h3 : dryGapLevels rnd opts si a b st1 with
        | error e => rw [h3] at h; cases h
        | ok rest =>
          rw [h3] at h
          simp only [Except.ok.injEq] at h
          subst h
          obtain ⟨e1, e2⟩ := dryGapLoop_length h2
          cases l with
          | zero =>
            simp only [List.getElem?_cons_zero, Option.some.injEq] at hl
            subst hl
            simpa using ⟨e1, e2⟩
          | succ l =>
            simp only [List.getElem?_cons_succ] at hl
            obtain ⟨f1, f2⟩ := ih h3 l p hl
            rw [f1, f2, e1, e2]
            constructor <;> ring

/-! ### dry boxes at the two ends -/

theorem boxType_first {nx : K} (h : 0 ≤ nx) (st : Option BoxType) : boxType (some 0) (some nx) st = boxType none (some nx) st := by
  unfold boxType
  rcases h.eq_or_lt with rfl | h
  · simp
  · simp [h, h.ne']

theorem boxType_last {pv : K} (h : 0 ≤ pv) (st : Option BoxType) : boxType (some pv) (some 0) st = boxType (some pv) none st := by
  unfold boxType
  rcases h.eq_or_lt with rfl | h
  · simp
  · simp [h, h.ne']

theorem boxStep_first {nx : K} (h : 0 ≤ nx) (x : K) (st : CascVars K) : boxStep rnd s mv (some 0) x (some nx) st = boxStep rnd s mv none x (some nx) st := by
  unfold boxStep
  simp only [boxType_first h]

theorem boxStep_last {pv : K} (h : 0 ≤ pv) (x : K) (st : CascVars K) : boxStep rnd s mv (some pv) x (some 0) st = boxStep rnd s mv (some pv) x none st := by
  unfold boxStep
  simp only [boxType_last h]

theorem boxLoop_first {v : List K} (h2 : 2 ≤ v.length) (hv : ∀ x ∈ v, 0 ≤ x) (st : CascVars K) :
    boxLoop rnd s mv (some 0) v st = boxLoop rnd s mv none v st := by
  match v, h2, hv with
  | x :: y :: v, _, hv =>
    rw [boxLoop_eq, boxLoop_eq, List.head?_cons, boxStep_first (hv y (by simp))]

theorem boxLoop_trail (b : Nat) : ∀ (v : List K) (prev : Option K) (st : CascVars K), (∀ x ∈ v, 0 ≤ x) → (∀ p, prev = some p → 0 ≤ p) → (prev = none → 2 ≤ v.length) →
    boxLoop rnd s mv prev (v ++ List.replicate b 0) st = (boxLoop rnd s mv prev v st).map fun r => (r.1 ++ List.replicate (b * 2) 0, r.2) := by
  intro v
  induction v with
  | nil =>
    intro prev st _ _ hp
    cases b with
    | zero => simp [boxLoop, Except.map]
    | succ b =>
      have := boxLoop_zeros (rnd := rnd) (s := s) (mv := mv) (b + 1) (by omega) prev [] st
      rw [List.append_nil] at this
      rw [List.nil_append, this]
      simp [boxLoop, Except.map]
  | cons x v ih =>
    intro prev st hv hp hl
    rw [List.cons_append, boxLoop_eq, boxLoop_eq]
    have hs : boxStep rnd s mv prev x (v ++ List.replicate b 0).head? st = boxStep rnd s mv prev x v.head? st := by
      cases v with
      | cons y v => rfl
      | nil =>
        cases b with
        | zero => rfl
        | succ b =>
          cases prev with
          | none => exact absurd (hl rfl) (by simp)
          | some p =>
            rw [List.nil_append, List.replicate_succ, List.head?_cons]
            exact boxStep_last (hp p rfl) x st
    rw [hs]
    simp only [Except.bind]
    cases boxStep rnd s mv prev x v.head? st with
    | error e => rfl
    | ok r =>
      simp only
      rw [ih (some x) r.2 (fun y hy => hv y (List.mem_cons_of_mem _ hy)) (fun p hp => by injection hp with hp; rw [← hp]; exact hv x (by simp)) (by simp)]
      cases boxLoop rnd s mv (some x) v r.2 <;> rfl

theorem boxLoop_ends (a b : Nat) {v : List K} (h2 : 2 ≤ v.length) (hv : ∀ x ∈ v, 0 ≤ x) (st : CascVars K) :
    boxLoop rnd s mv none (List.replicate a 0 ++ v ++ List.replicate b 0) st =
      (boxLoop rnd s mv none v st).map fun r => (List.replicate (a * 2) 0 ++ r.1 ++ List.replicate (b * 2) 0, r.2) := by
  have hn : ∀ x ∈ v ++ List.replicate b 0, 0 ≤ x := fun x hx => (List.mem_append.1 hx).elim (hv x) fun h => by rw [(List.mem_replicate.1 h).2]
  have ht := boxLoop_trail (rnd := rnd) (s := s) (mv := mv) b v none st hv (by simp) (fun _ => h2)
  by_cases ha : a = 0
  · subst ha
    simpa using ht
  · rw [List.append_assoc, boxLoop_zeros a (by omega), boxLoop_first (by rw [List.length_append]; omega) hn, ht]
    cases boxLoop rnd s mv none v st <;> simp [Except.map]

theorem levelLoop_ends : ∀ (si a b : Nat) {v : List K}, 2 ≤ v.length → (∀ x ∈ v, 0 ≤ x) → ∀ st : CascVars K,
    levelLoop rnd opts si (List.replicate a 0 ++ v ++ List.replicate b 0) st =
      (levelLoop rnd opts si v st).map fun ls => ls.mapIdx fun l p => List.replicate (a * 2 ^ (l + 1)) 0 ++ p ++ List.replicate (b * 2 ^ (l + 1)) 0 := by
  intro si
  induction si with
  | zero => intros; rfl
  | succ si ih =>
    intro a b v h2 hv st
    unfold levelLoop
    simp only [bind, Except.bind]
    cases levelStats opts si with
    | error e => rfl
    | ok q =>
      obtain ⟨s, mv⟩ := q
      simp only [boxLoop_ends a b h2 hv]
      cases hb : boxLoop rnd s mv none v st with
      | error e => rfl
      | ok r =>
        have hsp := boxLoop_split (out := r.1) (st' := r.2) hb
        simp only [Except.map]
        rw [ih (a * 2) (b * 2) (by rw [hsp.length]; omega) hsp.nonneg]
        cases levelLoop rnd opts si r.1 r.2 with
        | error e => rfl
        | ok ps =>
          simp only [Except.map, Except.ok.injEq]
          rw [List.mapIdx_cons, List.cons.injEq]
          refine ⟨by rw [zero_add, pow_one], ?_⟩
          · apply List.ext_getElem (by simp)
            intro l h1 h2
            simp only [List.getElem_mapIdx]
            rw [show a * 2 * 2 ^ (l + 1) = a * 2 ^ (l + 1 + 1) by ring, show b * 2 * 2 ^ (l + 1) = b * 2 ^ (l + 1 + 1) by ring]

/-! ### the random numbers that are used -/

/-- number of wet boxes -/
def wetBoxes (v : List K) : Nat := (v.filter fun x => decide (0 < x)).length

theorem wetBoxes_cons (x : K) (v : List K) : wetBoxes (x :: v) = (if 0 < x then 1 else 0) + wetBoxes v := by
  unfold wetBoxes
  rw [List.filter_cons]
  by_cases h : 0 < x
  · simp [h]; omega
  · simp [h]

/-- two sources agree on the numbers from `a` to `a + k` -/
def AgreeOn (a k : Nat) (rnd rnd' : Nat → K) : Prop := ∀ i, a ≤ i → i < a + k → rnd i = rnd' i

theorem AgreeOn.mono {a k a' k' : Nat} (h : AgreeOn a k rnd rnd') (h1 : a ≤ a') (h2 : a' + k' ≤ a + k) : AgreeOn a' k' rnd rnd' :=
  fun i h3 h4 => h i (by omega) (by omega)

theorem boxStep_draws {prev next : Option K} {x : K} {st : CascVars K} (h : AgreeOn st.draws (if 0 < x then 2 else 0) rnd rnd') :
    boxStep rnd s mv prev x next st = boxStep rnd' s mv prev x next st := by
  unfold boxStep
  by_cases hx : 0 < x
  · rw [if_pos hx] at h
    have h0 := h st.draws (by omega) (by omega)
    have h1 := h (st.draws + 1) (by omega) (by omega)
    simp only [if_pos hx, h0, h1]
  · simp only [if_neg hx]

theorem boxStep_draws_le {prev next : Option K} {x : K} {st st' : CascVars K} {ab : K × K} (h : boxStep rnd s mv prev x next st = .ok (ab, st')) :
    st.draws ≤ st'.draws ∧ st'.draws ≤ st.draws + (if 0 < x then 2 else 0) := by
  unfold boxStep at h
  split at h
  · rename_i hx
    rw [if_pos hx]
    simp only [bind, Except.bind] at h
    cases hb : boxType prev next st.vbtype with
    | error e => rw [hb] at h; cases h
    | ok vb =>
      rw [hb] at h
      cases vb with
      | none => cases h
      | some ty =>
        simp only at h
        generalize (if mv.lt (XF.fin x) then (1 : Fin 2) else 0) = b at h
        split at h
        · simp only [Except.ok.injEq, Prod.mk.injEq] at h
          obtain ⟨-, rfl⟩ := h
          exact ⟨Nat.le_succ _, Nat.le_succ _⟩
        · split at h
          · simp only [Except.ok.injEq, Prod.mk.injEq] at h
            obtain ⟨-, rfl⟩ := h
            exact ⟨Nat.le_succ _, Nat.le_succ _⟩
          · split at h
            · cases h
            · split at h
              · cases h
              · simp only [Except.ok.injEq, Prod.mk.injEq] at h
                obtain ⟨-, rfl⟩ := h
                exact ⟨Nat.le_add_right st.draws 2, le_rfl⟩
  · simp only [Except.ok.injEq, Prod.mk.injEq] at h
    obtain ⟨-, rfl⟩ := h
    simp

theorem boxLoop_draws : ∀ {v : List K} {prev : Option K} {st : CascVars K}, AgreeOn st.draws (2 * wetBoxes v) rnd rnd' →
    boxLoop rnd s mv prev v st = boxLoop rnd' s mv prev v st := by
  intro v
  induction v with
  | nil => intros; rfl
  | cons x v ih =>
    intro prev st h
    rw [wetBoxes_cons] at h
    rw [boxLoop_eq, boxLoop_eq]
    rw [boxStep_draws (h.mono le_rfl (by split_ifs <;> omega))]
    simp only [Except.bind]
    cases hb : boxStep rnd' s mv prev x v.head? st with
    | error e => rfl
    | ok r =>
      have := boxStep_draws_le (ab := r.1) (st' := r.2) hb
      simp only
      rw [ih (h.mono this.1 (by split_ifs at * <;> omega))]

theorem boxLoop_draws_le : ∀ {v : List K} {prev : Option K} {st st' : CascVars K} {out : List K}, boxLoop rnd s mv prev v st = .ok (out, st') →
    st.draws ≤ st'.draws ∧ st'.draws ≤ st.draws + 2 * wetBoxes v ∧ wetBoxes out ≤ 2 * wetBoxes v := by
  intro v
  induction v with
  | nil =>
    intro prev st st' out h
    unfold boxLoop at h
    simp only [Except.ok.injEq, Prod.mk.injEq] at h
    obtain ⟨rfl, rfl⟩ := h
    simp [wetBoxes]
  | cons x v ih =>
    intro prev st st' out h
    obtain ⟨a, b, st1, rest, h1, h2, rfl⟩ := boxLoop_cons h
    obtain ⟨i1, i2, i3⟩ := ih h2
    obtain ⟨j1, j2⟩ := boxStep_draws_le h1
    obtain ⟨p1, p2, p3⟩ := boxStep_split h1
    rw [wetBoxes_cons, wetBoxes_cons, wetBoxes_cons]
    by_cases hx : 0 < x
    · rw [if_pos hx] at *
      refine ⟨by omega, by omega, ?_⟩
      split_ifs <;> omega
    · rw [if_neg hx] at *
      rw [max_eq_right (not_lt.1 hx)] at p3
      have ha : a = 0 := by linarith
      have hb : b = 0 := by linarith
      rw [if_neg (by rw [ha]; exact lt_irrefl _), if_neg (by rw [hb]; exact lt_irrefl _)]
      refine ⟨by omega, by omega, by omega⟩

theorem levelLoop_draws : ∀ (si : Nat) {v : List K} {st : CascVars K}, AgreeOn st.draws (2 * ((2 ^ si - 1) * wetBoxes v)) rnd rnd' →
    levelLoop rnd opts si v st = levelLoop rnd' opts si v st := by
  intro si
  induction si with
  | zero => intros; rfl
  | succ si ih =>
    intro v st h
    have hp : 2 ^ (si + 1) - 1 = 1 + 2 * (2 ^ si - 1) := by
      have := Nat.one_le_two_pow (n := si)
      rw [pow_succ]
      omega
    have hm : (2 ^ (si + 1) - 1) * wetBoxes v = wetBoxes v + (2 ^ si - 1) * (2 * wetBoxes v) := by rw [hp]; ring
    rw [hm] at h
    unfold levelLoop
    simp only [bind, Except.bind]
    cases levelStats opts si with
    | error e => rfl
    | ok q =>
      obtain ⟨s, mv⟩ := q
      simp only
      rw [boxLoop_draws (h.mono le_rfl (by omega))]
      cases hb : boxLoop rnd' s mv none v st with
      | error e => rfl
      | ok r =>
        obtain ⟨out, st1⟩ := r
        obtain ⟨i1, i2, i3⟩ := boxLoop_draws_le hb
        have i4 : (2 ^ si - 1) * wetBoxes out ≤ (2 ^ si - 1) * (2 * wetBoxes v) := Nat.mul_le_mul_left _ i3
        simp only
        rw [ih (h.mono i1 (by omega))]

end Melodist
