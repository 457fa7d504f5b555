import Verif.Spec.InterpolateMore

/-!
# Helper lemmas: the other methods of `Series.interpolate`
-/

set_option linter.unusedSectionVars false

namespace Melodist
open Spec

section
variable {K : Type} [Field K] [LinearOrder K] [IsStrictOrderedRing K]

/-! ### interp1d -/

theorem interp1dAt_inside {inside : List (K × XF K) → K → XF K} {valid : List (K × XF K)} (hs : valid.Pairwise fun a b => a.1 < b.1) {P Q : K × XF K} (hP : P ∈ valid) (hQ : Q ∈ valid)
    {x : K} (h1 : P.1 ≤ x) (h2 : x ≤ Q.1) : interp1dAt inside valid x = inside valid x := by
  unfold interp1dAt
  cases valid with
  | nil => cases hP
  | cons a l =>
    rw [List.head?_cons, List.getLast?_eq_some_getLast (List.cons_ne_nil a l)]
    simp only
    rw [if_neg]
    rw [not_or, not_lt, not_lt]
    constructor
    · rcases List.mem_cons.1 hP with rfl | h
      · exact h1
      · exact ((List.pairwise_cons.1 hs).1 P h).le.trans h1
    · have hd := List.dropLast_append_getLast (List.cons_ne_nil a l)
      rw [← hd] at hs hQ
      rcases List.mem_append.1 hQ with h | h
      · exact h2.trans ((List.pairwise_append.1 hs).2.2 Q h _ (by simp)).le
      · rw [List.mem_singleton.1 h] at h2; exact h2

theorem interp1dAt_before {inside : List (K × XF K) → K → XF K} {Q : K × XF K} {r : List (K × XF K)} {x : K} (h : x < Q.1) : interp1dAt inside (Q :: r) x = .nan := by
  unfold interp1dAt
  rw [List.head?_cons, List.getLast?_eq_some_getLast (List.cons_ne_nil Q r)]
  simp only
  rw [if_pos (.inl h)]

theorem interp1dAt_after {inside : List (K × XF K) → K → XF K} {P : K × XF K} {l : List (K × XF K)} {x : K} (h : P.1 < x) : interp1dAt inside (l ++ [P]) x = .nan := by
  unfold interp1dAt
  cases hh : (l ++ [P]).head? with
  | none => rfl
  | some f =>
    rw [List.getLast?_concat]
    simp only
    rw [if_pos (.inr h)]

theorem scipyNearest_between {l : List (K × XF K)} {p q : K × XF K} {r : List (K × XF K)} (hs : (l ++ p :: q :: r).Pairwise fun a b => a.1 < b.1) {x : K}
    (h1 : p.1 ≤ x) (h2 : x < q.1) : scipyNearest (l ++ p :: q :: r) x = if x ≤ p.1 / 2 + q.1 / 2 then p.2 else q.2 := by
  have last : ∀ r : List (K × XF K), (q :: r).Pairwise (fun a b => a.1 < b.1) → scipyNearest (q :: r) x = q.2 := by
    intro r hr
    cases r with
    | nil => rfl
    | cons c r =>
      have := (List.pairwise_cons.1 hr).1 c (by simp)
      rw [scipyNearest, if_pos (by linarith)]
  induction l with
  | nil =>
    show scipyNearest (p :: q :: r) x = _
    rw [scipyNearest, last r (List.pairwise_cons.1 hs).2]
  | cons a l ih =>
    rw [List.cons_append, List.pairwise_cons] at hs
    have ih' := ih hs.2
    have ha : a.1 < p.1 := hs.1 p (by simp)
    rw [List.cons_append]
    cases l with
    | nil =>
      show scipyNearest (a :: p :: q :: r) x = _
      rw [scipyNearest, if_neg (by rw [not_le]; linarith)]
      exact ih'
    | cons b l =>
      have hb : b.1 < p.1 := by
        have := hs.2
        rw [List.cons_append, List.pairwise_cons] at this
        exact this.1 p (by simp)
      show scipyNearest (a :: b :: (l ++ p :: q :: r)) x = _
      rw [scipyNearest, if_neg (by rw [not_le]; linarith)]
      exact ih'

theorem scipyZero_between {l : List (K × XF K)} {p q : K × XF K} {r : List (K × XF K)} (hs : (l ++ p :: q :: r).Pairwise fun a b => a.1 < b.1) {x : K}
    (h1 : p.1 ≤ x) (h2 : x < q.1) : scipyZero (l ++ p :: q :: r) x = p.2 := by
  induction l with
  | nil =>
    show scipyZero (p :: q :: r) x = _
    rw [scipyZero, if_pos h2]
  | cons a l ih =>
    rw [List.cons_append, List.pairwise_cons] at hs
    have ih' := ih hs.2
    rw [List.cons_append]
    cases l with
    | nil =>
      show scipyZero (a :: p :: q :: r) x = _
      rw [scipyZero, if_neg (not_lt.2 h1)]
      exact ih'
    | cons b l =>
      have hb : b.1 < p.1 := by
        have := hs.2
        rw [List.cons_append, List.pairwise_cons] at this
        exact this.1 p (by simp)
      show scipyZero (a :: b :: (l ++ p :: q :: r)) x = _
      rw [scipyZero, if_neg (not_lt.2 (hb.le.trans h1))]
      exact ih'

theorem scipySlinear_between {l : List (K × XF K)} {p q : K × XF K} {r : List (K × XF K)} (hs : (l ++ p :: q :: r).Pairwise fun a b => a.1 < b.1) {x : K}
    (h1 : p.1 ≤ x) (h2 : x < q.1) : scipySlinear (l ++ p :: q :: r) x = p.2 + (q.2 - p.2) * .fin (x - p.1) / .fin (q.1 - p.1) := by
  induction l with
  | nil =>
    show scipySlinear (p :: q :: r) x = _
    rw [scipySlinear, if_pos h2]
  | cons a l ih =>
    rw [List.cons_append, List.pairwise_cons] at hs
    have ih' := ih hs.2
    rw [List.cons_append]
    cases l with
    | nil =>
      show scipySlinear (a :: p :: q :: r) x = _
      rw [scipySlinear, if_neg (not_lt.2 h1)]
      exact ih'
    | cons b l =>
      have hb : b.1 < p.1 := by
        have := hs.2
        rw [List.cons_append, List.pairwise_cons] at this
        exact this.1 p (by simp)
      show scipySlinear (a :: b :: (l ++ p :: q :: r)) x = _
      rw [scipySlinear, if_neg (not_lt.2 (hb.le.trans h1))]
      exact ih'

/-- a cell of the result -/
theorem interpolate1dScipy_getElem? {minval : Nat} {inside : List (K × XF K) → K → XF K} {limit : Option Nat} {direction : LimitDirection} {area : Option LimitArea}
    {xs : List (K × XF K)} {zs : List (XF K)} (h : interpolate1dScipy minval inside limit direction area xs = .ok zs) {k : Nat} {c : K × XF K} (hk : xs[k]? = some c) :
    zs[k]? = some (if c.2.isNan then
      (if validCells xs = [] then .nan
       else if preserveNans (xs.map fun p => p.2.isNan) limit direction area k then .nan else interp1dAt inside (validCells xs) c.1) else c.2) := by
  unfold interpolate1dScipy at h
  dsimp only at h
  obtain ⟨hl, rfl⟩ := List.getElem?_eq_some_iff.1 hk
  by_cases hv : validCells xs = [] ∨ (validCells xs).length = xs.length
  · have h' := hv
    unfold validCells at h'
    rw [if_pos h'] at h
    injection h with h
    rw [← h, List.getElem?_map, hk, Option.map_some]
    congr 1
    rcases hv with h | h
    · rw [if_pos h]
      have : xs[k].2.isNan = true := by
        have := List.filter_eq_nil_iff.1 h xs[k] (List.getElem_mem hl)
        simpa using this
      rw [if_pos this]
      exact (XF.isNan_iff _).1 this
    · have := (List.length_filter_eq_length_iff.1 h) xs[k] (List.getElem_mem hl)
      rw [if_neg (by simpa using this)]
  · have h' := hv
    unfold validCells at h'
    rw [if_neg h'] at h
    split at h
    · cases h
    injection h with h
    rw [← h, List.getElem?_zipWith, hk, List.getElem?_range hl]
    rw [not_or] at hv
    rw [if_neg hv.1]
    rfl

theorem interpolate1dScipy_length {minval : Nat} {inside : List (K × XF K) → K → XF K} {limit : Option Nat} {direction : LimitDirection} {area : Option LimitArea}
    {xs : List (K × XF K)} {zs : List (XF K)} (h : interpolate1dScipy minval inside limit direction area xs = .ok zs) : zs.length = xs.length := by
  unfold interpolate1dScipy at h
  dsimp only at h
  split at h
  · injection h with h; rw [← h, List.length_map]
  · split at h
    · cases h
    · injection h with h; rw [← h, List.length_zipWith, List.length_range, Nat.min_self]

/-- the cells filled by a method of `interp1d` -/
theorem scipy_filled {minval : Nat} {inside : List (K × XF K) → K → XF K} {limit : Option Nat} (hl : limit ≠ some 0) {direction : LimitDirection} {area : Option LimitArea} {t : Nat → K}
    {ys zs : List (XF K)} (ht : ∀ i j, i < j → j < ys.length → t i < t j) (h : interpolate1dScipy minval inside limit direction area (placed t ys) = .ok zs)
    (rule : Nat → Option (Nat × K) → Option (Nat × K) → XF K)
    (hin : ∀ k p a q b, k < ys.length → ys[k]? = some .nan → PrevObs ys k p a → NextObs ys k q b → ∀ l r, validCells (placed t ys) = l ++ (t p, .fin a) :: (t q, .fin b) :: r →
      (validCells (placed t ys)).Pairwise (fun a b => a.1 < b.1) → t p < t k → t k < t q → inside (validCells (placed t ys)) (t k) = rule k (some (p, a)) (some (q, b)))
    (hend : ∀ k b a, b = none ∨ a = none → rule k b a = .nan) : FilledBy limit direction area rule ys zs := by
  refine ⟨by rw [interpolate1dScipy_length h, placed_length], ?_⟩
  intro k hk
  have hx : (placed t ys)[k]? = some (t k, ys[k]) := by rw [placed_getElem?, List.getElem?_eq_getElem hk]; rfl
  have hget := interpolate1dScipy_getElem? h hx
  have hsort := placed_sorted ht
  have cell : ∀ {i : Nat} {x : XF K}, ys[i]? = some x → (placed t ys)[i]? = some (t i, x) := by
    intro i x h
    rw [placed_getElem?, h]; rfl
  have cell' : ∀ {i : Nat} {c : K × XF K}, (placed t ys)[i]? = some c → ys[i]? = some c.2 := by
    intro i c h
    rw [placed_getElem?] at h
    obtain ⟨y, hy, rfl⟩ := Option.map_eq_some_iff.1 h
    exact hy
  have hk' : k < (ys.map XF.isNan).length := by rw [List.length_map]; exact hk
  refine ⟨?_, ?_⟩
  · intro hn
    have : ys[k].isNan = false := by
      cases h' : ys[k].isNan
      · rfl
      · exact absurd ((XF.isNan_iff _).1 h') hn
    rw [hget]
    simp only [this]
    rfl
  · intro hn before after hb ha
    have hinv : (ys.map XF.isNan).getD k false = true := by
      rw [inv_of (List.getElem?_eq_getElem hk), hn]; rfl
    have hkn : ys[k]? = some .nan := by rw [List.getElem?_eq_getElem hk, hn]
    rw [hn] at hget
    simp only [XF.isNan_nan, if_true, placed_inv] at hget
    have hs := validCells_sorted hsort
    cases before with
    | none =>
      cases after with
      | none =>
        have h0 : validCells (placed t ys) = [] := by
          apply validCells_nan
          intro c hc
          obtain ⟨i, hi, e⟩ := List.getElem_of_mem hc
          have hy := cell' (List.getElem?_eq_getElem hi)
          rw [e] at hy
          rcases lt_trichotomy i k with h3 | h3 | h3
          · rw [hb i h3] at hy; exact (Option.some.inj hy).symm
          · subst h3; rw [hkn] at hy; exact (Option.some.inj hy).symm
          · rw [ha i h3 (getElem_of_some hy).1] at hy; exact (Option.some.inj hy).symm
        rw [if_pos h0] at hget
        rw [hend k none none (.inl rfl)]
        exact ⟨fun _ => hget, fun _ => hget⟩
      | some o =>
        obtain ⟨q, b⟩ := o
        have hpre := preserve_iff hk' hinv hl direction area (before_none hb) (after_of ha) (.inr (by simp))
        have hv := validCells_next (xs := placed t ys) (cell ha.2.1) rfl (by
          intro i h1 c hc
          have hy := cell' hc
          rcases lt_trichotomy i k with h3 | h3 | h3
          · rw [hb i h3] at hy; exact (Option.some.inj hy).symm
          · subst h3; rw [hkn] at hy; exact (Option.some.inj hy).symm
          · rw [ha.2.2 i h3 h1] at hy; exact (Option.some.inj hy).symm)
        rw [if_neg (valid_ne (cell ha.2.1) rfl)] at hget
        constructor
        · intro hm
          rw [hget, if_neg (by rw [hpre]; exact not_not.2 hm), hend k none _ (.inl rfl), hv, interp1dAt_before (ht k q ha.1 (getElem_of_some ha.2.1).1)]
        · intro hm
          rw [hget, if_pos (hpre.2 hm)]
    | some o =>
      obtain ⟨p, a⟩ := o
      cases after with
      | none =>
        have hpre := preserve_iff hk' hinv hl direction area (before_of hb) (after_none ha) (.inl (by simp))
        have hv := validCells_prev (xs := placed t ys) (cell hb.2.1) rfl (by
          intro i h1 c hc
          have hy := cell' hc
          rcases lt_trichotomy i k with h3 | h3 | h3
          · rw [hb.2.2 i h1 h3] at hy; exact (Option.some.inj hy).symm
          · subst h3; rw [hkn] at hy; exact (Option.some.inj hy).symm
          · rw [ha i h3 (getElem_of_some hy).1] at hy; exact (Option.some.inj hy).symm)
        rw [if_neg (valid_ne (cell hb.2.1) rfl)] at hget
        constructor
        · intro hm
          rw [hget, if_neg (by rw [hpre]; exact not_not.2 hm), hend k _ none (.inr rfl), hv, interp1dAt_after (ht p k hb.1 hk)]
        · intro hm
          rw [hget, if_pos (hpre.2 hm)]
      | some o =>
        obtain ⟨q, b⟩ := o
        have hpre := preserve_iff hk' hinv hl direction area (before_of hb) (after_of ha) (.inl (by simp))
        have hv := validCells_both (xs := placed t ys) (hb.1.trans ha.1) (cell hb.2.1) (cell ha.2.1) rfl rfl (by
          intro i h1 h2 c hc
          have hy := cell' hc
          rcases lt_trichotomy i k with h3 | h3 | h3
          · rw [hb.2.2 i h1 h3] at hy; exact (Option.some.inj hy).symm
          · subst h3; rw [hkn] at hy; exact (Option.some.inj hy).symm
          · rw [ha.2.2 i h3 h2] at hy; exact (Option.some.inj hy).symm)
        rw [if_neg (valid_ne (cell hb.2.1) rfl)] at hget
        have t1 := ht p k hb.1 hk
        have t2 := ht k q ha.1 (getElem_of_some ha.2.1).1
        constructor
        · intro hm
          rw [hget, if_neg (by rw [hpre]; exact not_not.2 hm), interp1dAt_inside hs (P := (t p, .fin a)) (Q := (t q, .fin b)) (by rw [hv]; simp) (by rw [hv]; simp) t1.le t2.le,
            hin k p a q b hk hkn hb ha _ _ hv hs t1 t2]
        · intro hm
          rw [hget, if_pos (hpre.2 hm)]

/-! ### pad -/

theorem padAux_fill {limit : Option Nat} {c : Nat} (h : Within limit (c + 1)) (val : XF K) (ys : List (XF K)) :
    padAux limit val c (.nan :: ys) = val :: padAux limit val (c + 1) ys := by
  conv_lhs => unfold padAux
  rw [if_pos XF.isNan_nan]
  cases limit with
  | none => rfl
  | some l =>
    have := h l rfl
    simp only
    rw [if_neg (by simp; omega)]

theorem padAux_stop {limit : Option Nat} {c : Nat} (h : ¬ Within limit (c + 1)) (val : XF K) (ys : List (XF K)) :
    padAux limit val c (.nan :: ys) = .nan :: padAux limit val c ys := by
  conv_lhs => unfold padAux
  rw [if_pos XF.isNan_nan]
  cases limit with
  | none => exact absurd (by rintro l ⟨⟩) h
  | some l =>
    have : l ≤ c := by
      by_contra hc
      exact h (by rintro m ⟨⟩; omega)
    simp only
    rw [if_pos (by simpa using this)]

theorem padAux_obs {limit : Option Nat} {c : Nat} {x : XF K} (h : x ≠ .nan) (val : XF K) (ys : List (XF K)) : padAux limit val c (x :: ys) = x :: padAux limit x 0 ys := by
  have : x.isNan = false := by
    cases h' : x.isNan
    · rfl
    · exact absurd ((XF.isNan_iff _).1 h') h
  conv_lhs => unfold padAux
  rw [this, if_neg (by simp)]

/-- the first cell is `val`, missing or itself, the others are those of a shorter list -/
theorem padAux_cons (limit : Option Nat) (val : XF K) (c : Nat) (x : XF K) (ys : List (XF K)) : ∃ y v c', padAux limit val c (x :: ys) = y :: padAux limit v c' ys := by
  by_cases hx : x = .nan
  · subst hx
    by_cases hw : Within limit (c + 1)
    · exact ⟨_, _, _, padAux_fill hw val ys⟩
    · exact ⟨_, _, _, padAux_stop hw val ys⟩
  · exact ⟨_, _, _, padAux_obs hx val ys⟩

theorem padAux_length (limit : Option Nat) : ∀ (ys : List (XF K)) (val : XF K) (c : Nat), (padAux limit val c ys).length = ys.length := by
  intro ys
  induction ys with
  | nil => intro val c; rfl
  | cons y ys ih =>
    intro val c
    obtain ⟨z, v, c', e⟩ := padAux_cons limit val c y ys
    rw [e, List.length_cons, List.length_cons, ih]

theorem padAux_keep (limit : Option Nat) : ∀ (ys : List (XF K)) (val : XF K) (c k : Nat) (y : XF K), ys[k]? = some y → y ≠ .nan → (padAux limit val c ys)[k]? = some y := by
  intro ys
  induction ys with
  | nil => intro val c k y h; simp at h
  | cons x ys ih =>
    intro val c k y h hy
    cases k with
    | zero =>
      simp only [List.getElem?_cons_zero, Option.some.injEq] at h
      subst h
      rw [padAux_obs hy]; rfl
    | succ k =>
      simp only [List.getElem?_cons_succ] at h
      obtain ⟨z, v, c', e⟩ := padAux_cons limit val c x ys
      rw [e, List.getElem?_cons_succ]
      exact ih _ _ _ _ h hy

/-- a missing cell without valid cells before it -/
theorem padAux_start (limit : Option Nat) : ∀ (ys : List (XF K)) (val : XF K) (c k : Nat), (∀ i ≤ k, ys[i]? = some .nan) →
    (Within limit (c + k + 1) → (padAux limit val c ys)[k]? = some val) ∧ (¬ Within limit (c + k + 1) → (padAux limit val c ys)[k]? = some .nan) := by
  intro ys
  induction ys with
  | nil => intro val c k h; have := h 0 (by omega); simp at this
  | cons x ys ih =>
    intro val c k h
    have hx : x = .nan := by simpa using h 0 (by omega)
    subst hx
    have far : ∀ d e, d ≤ e → ¬ Within limit d → ¬ Within limit e := fun d e hde h h' => h fun l hl => hde.trans (h' l hl)
    by_cases hw : Within limit (c + 1)
    · rw [padAux_fill hw]
      cases k with
      | zero => exact ⟨fun _ => rfl, fun h => absurd hw h⟩
      | succ k =>
        have := ih val (c + 1) k fun i hi => by simpa using h (i + 1) (by omega)
        rw [show c + 1 + k + 1 = c + (k + 1) + 1 by ring] at this
        simpa using this
    · rw [padAux_stop hw]
      cases k with
      | zero => exact ⟨fun h => absurd h hw, fun _ => rfl⟩
      | succ k =>
        have := ih val c k fun i hi => by simpa using h (i + 1) (by omega)
        refine ⟨fun h => absurd h (far _ _ (by omega) hw), fun _ => ?_⟩
        simp only [List.getElem?_cons_succ]
        exact this.2 (far _ _ (by omega) hw)

/-- a missing cell after a valid one -/
theorem padAux_after (limit : Option Nat) : ∀ (ys : List (XF K)) (val : XF K) (c k p : Nat) (y : XF K), p < k → ys[p]? = some y → y ≠ .nan → (∀ i, p < i → i ≤ k → ys[i]? = some .nan) →
    (Within limit (k - p) → (padAux limit val c ys)[k]? = some y) ∧ (¬ Within limit (k - p) → (padAux limit val c ys)[k]? = some .nan) := by
  intro ys
  induction ys with
  | nil => intro val c k p y _ h; simp at h
  | cons x ys ih =>
    intro val c k p y hpk hp hy hn
    obtain ⟨k, rfl⟩ : ∃ j, k = j + 1 := ⟨k - 1, by omega⟩
    cases p with
    | zero =>
      simp only [List.getElem?_cons_zero, Option.some.injEq] at hp
      subst hp
      rw [padAux_obs hy]
      have := padAux_start limit ys x 0 k fun i hi => by simpa using hn (i + 1) (by omega) (by omega)
      simpa using this
    | succ p =>
      simp only [List.getElem?_cons_succ] at hp
      have := fun v c => ih v c k p y (by omega) hp hy fun i h1 h2 => by simpa using hn (i + 1) (by omega) (by omega)
      rw [show k + 1 - (p + 1) = k - p by omega]
      obtain ⟨z, v, c', e⟩ := padAux_cons limit val c x ys
      rw [e, List.getElem?_cons_succ]
      exact this _ _

theorem areaMask_length (area : Option LimitArea) (ys zs : List (XF K)) : (areaMask area ys zs).length = zs.length := by
  unfold areaMask
  cases area with
  | none => rfl
  | some a => simp

theorem areaMask_keep {area : Option LimitArea} {ys zs : List (XF K)} {k : Nat} {y z : XF K} (hy : ys[k]? = some y) (hn : y ≠ .nan) (hz : zs[k]? = some z) :
    (areaMask area ys zs)[k]? = some z := by
  have hk := (getElem_of_some hz).1
  unfold areaMask
  cases area with
  | none => exact hz
  | some a =>
    have : (ys.map XF.isNan).getD k false = false := by
      rw [inv_of hy]
      cases h' : y.isNan
      · rfl
      · exact absurd ((XF.isNan_iff _).1 h') hn
    simp only
    rw [List.getElem?_zipWith, hz, List.getElem?_range hk]
    simp only [this, Bool.false_and, Bool.false_eq_true, if_false]

/-- a missing cell stays filled if the area allows it -/
theorem areaMask_cell {area : Option LimitArea} {ys zs : List (XF K)} {k : Nat} {z : XF K} {b a : Option Nat} (hk : k < ys.length) (hy : ys[k]? = some .nan) (hz : zs[k]? = some z)
    (hb : BeforeIs (ys.map XF.isNan) k b) (ha : AfterIs (ys.map XF.isNan) k a) :
    ((area = some .inside → b.isSome ∧ a.isSome) ∧ (area = some .outside → ¬ (b.isSome ∧ a.isSome)) → (areaMask area ys zs)[k]? = some z) ∧
    (¬ ((area = some .inside → b.isSome ∧ a.isSome) ∧ (area = some .outside → ¬ (b.isSome ∧ a.isSome))) → (areaMask area ys zs)[k]? = some .nan) := by
  have hk' : k < (ys.map XF.isNan).length := by rw [List.length_map]; exact hk
  have hinv : (ys.map XF.isNan).getD k false = true := by rw [inv_of hy]; rfl
  have s1 := start_iff hk' hinv hb
  have s2 := stop_iff hk' hinv ha
  have e1 : decide (k < leadingInvalid (ys.map XF.isNan)) = b.isNone := by
    rw [Bool.eq_iff_iff, decide_eq_true_iff, s1]; cases b <;> simp
  have e2 : decide ((ys.map XF.isNan).length - trailingInvalid (ys.map XF.isNan) ≤ k) = a.isNone := by
    rw [Bool.eq_iff_iff, decide_eq_true_iff, s2]; cases a <;> simp
  have hkz := (getElem_of_some hz).1
  unfold areaMask
  cases area with
  | none => simpa using hz
  | some ar =>
    simp only
    rw [List.getElem?_zipWith, hz, List.getElem?_range hkz]
    simp only [e1, e2, hinv]
    cases ar <;> cases b <;> cases a <;> simp

theorem mayFill_forward {limit : Option Nat} {area : Option LimitArea} {b a : Option Nat} : MayFill limit .forward area b a ↔
    (∃ d, b = some d ∧ Within limit d) ∧ ((area = some .inside → b.isSome ∧ a.isSome) ∧ (area = some .outside → ¬ (b.isSome ∧ a.isSome))) := by
  unfold MayFill
  simp

theorem mayFill_backward {limit : Option Nat} {area : Option LimitArea} {b a : Option Nat} : MayFill limit .backward area b a ↔
    (∃ d, a = some d ∧ Within limit d) ∧ ((area = some .inside → b.isSome ∧ a.isSome) ∧ (area = some .outside → ¬ (b.isSome ∧ a.isSome))) := by
  unfold MayFill
  simp

theorem beforeIs_of {ys : List (XF K)} {k : Nat} {o : Option (Nat × K)} (h : PrevIs ys k o) : BeforeIs (ys.map XF.isNan) k (o.map fun o => k - o.1) := by
  cases o with
  | none => exact before_none h
  | some o => exact before_of h

theorem afterIs_of {ys : List (XF K)} {k : Nat} {o : Option (Nat × K)} (h : NextIs ys k o) : AfterIs (ys.map XF.isNan) k (o.map fun o => o.1 - k) := by
  cases o with
  | none => exact after_none h
  | some o => exact after_of h

theorem padAux_prev {limit : Option Nat} {ys : List (XF K)} {k : Nat} (hk : ys[k]? = some .nan) {o : Option (Nat × K)} (h : PrevIs ys k o) :
    ((∃ d, (o.map fun o => k - o.1) = some d ∧ Within limit d) → ∃ o', o = some o' ∧ (padAux limit .nan 0 ys)[k]? = some (.fin o'.2)) ∧
    (¬ (∃ d, (o.map fun o => k - o.1) = some d ∧ Within limit d) → (padAux limit .nan 0 ys)[k]? = some .nan) := by
  cases o with
  | none =>
    refine ⟨by rintro ⟨d, ⟨⟩, -⟩, fun _ => ?_⟩
    have := padAux_start limit ys .nan 0 k fun i hi => by
      rcases hi.eq_or_lt with rfl | hi
      · exact hk
      · exact h i hi
    by_cases hw : Within limit (0 + k + 1)
    · exact this.1 hw
    · exact this.2 hw
  | some o =>
    obtain ⟨p, a⟩ := o
    have := padAux_after limit ys .nan 0 k p (.fin a) h.1 h.2.1 (by simp) fun i h1 h2 => by
      rcases h2.eq_or_lt with rfl | hi
      · exact hk
      · exact h.2.2 i h1 hi
    refine ⟨?_, ?_⟩
    · rintro ⟨d, e, hd⟩
      simp only [Option.map_some, Option.some.injEq] at e
      subst e
      exact ⟨_, rfl, this.1 hd⟩
    · intro hn
      exact this.2 fun hw => hn ⟨_, rfl, hw⟩

/-- cells filled by 'pad' -/
theorem padCells_filled (limit : Option Nat) (area : Option LimitArea) (ys : List (XF K)) : FilledBy limit .forward area lastRule ys (padCells limit area ys) := by
  unfold padCells
  refine ⟨by rw [areaMask_length, padAux_length], fun k hk => ⟨?_, ?_⟩⟩
  · intro hn
    have hy := List.getElem?_eq_getElem hk
    exact areaMask_keep hy hn (padAux_keep limit ys .nan 0 k _ hy hn)
  · intro hn before after hb ha
    have hy : ys[k]? = some .nan := by rw [List.getElem?_eq_getElem hk, hn]
    obtain ⟨u1, u2⟩ := padAux_prev (limit := limit) hy hb
    rw [mayFill_forward]
    by_cases hw : ∃ d, (before.map fun o => k - o.1) = some d ∧ Within limit d
    · obtain ⟨⟨p, x⟩, rfl, hz⟩ := u1 hw
      obtain ⟨v1, v2⟩ := areaMask_cell (area := area) hk hy hz (beforeIs_of hb) (afterIs_of ha)
      exact ⟨fun h => v1 h.2, fun h => v2 fun h' => h ⟨hw, h'⟩⟩
    · obtain ⟨v1, v2⟩ := areaMask_cell (area := area) hk hy (u2 hw) (beforeIs_of hb) (afterIs_of ha)
      refine ⟨fun h => absurd h.1 hw, fun h => ?_⟩
      by_cases h' : ((area = some .inside → (before.map fun o => k - o.1).isSome ∧ (after.map fun o => o.1 - k).isSome) ∧
        (area = some .outside → ¬ ((before.map fun o => k - o.1).isSome ∧ (after.map fun o => o.1 - k).isSome)))
      · exact v1 h'
      · exact v2 h'

theorem reverse_cell {α : Type} {ys : List α} {k : Nat} (hk : k < ys.length) : ys.reverse[ys.length - 1 - k]? = ys[k]? := by
  rw [List.getElem?_reverse (by omega), show ys.length - 1 - (ys.length - 1 - k) = k by omega]

theorem prev_reverse {ys : List (XF K)} {k : Nat} (hk : k < ys.length) {o : Option (Nat × K)} (h : NextIs ys k o) :
    PrevIs ys.reverse (ys.length - 1 - k) (o.map fun o => (ys.length - 1 - o.1, o.2)) := by
  cases o with
  | none =>
    intro i hi
    rw [List.getElem?_reverse (by omega)]
    exact h _ (by omega) (by omega)
  | some o =>
    obtain ⟨q, b⟩ := o
    have hq := (getElem_of_some h.2.1).1
    have hkq : k < q := h.1
    refine ⟨by show ys.length - 1 - q < _; omega, ?_, ?_⟩
    · show ys.reverse[ys.length - 1 - q]? = _
      rw [reverse_cell hq]; exact h.2.1
    · intro i h1 h2
      change ys.length - 1 - q < i at h1
      rw [List.getElem?_reverse (by omega)]
      exact h.2.2 _ (by omega) (by omega)

/-- cells filled by 'backfill' -/
theorem backfillCells_filled (limit : Option Nat) (area : Option LimitArea) (ys : List (XF K)) : FilledBy limit .backward area nextRule ys (backfillCells limit area ys) := by
  unfold backfillCells
  have hlen : (padAux limit .nan 0 ys.reverse).length = ys.length := by rw [padAux_length, List.length_reverse]
  have cell : ∀ k, k < ys.length → (padAux limit .nan 0 ys.reverse).reverse[k]? = (padAux limit .nan 0 ys.reverse)[ys.length - 1 - k]? := by
    intro k hk
    rw [List.getElem?_reverse (by rw [hlen]; exact hk), hlen]
  refine ⟨by rw [areaMask_length, List.length_reverse, hlen], fun k hk => ⟨?_, ?_⟩⟩
  · intro hn
    have hy := List.getElem?_eq_getElem hk
    refine areaMask_keep hy hn ?_
    rw [cell k hk]
    exact padAux_keep limit _ .nan 0 _ _ (by rw [reverse_cell hk]; exact hy) hn
  · intro hn before after hb ha
    have hy : ys[k]? = some .nan := by rw [List.getElem?_eq_getElem hk, hn]
    obtain ⟨u1, u2⟩ := padAux_prev (limit := limit) (ys := ys.reverse) (by rw [reverse_cell hk]; exact hy) (prev_reverse hk ha)
    have edist : ((after.map fun o => (ys.length - 1 - o.1, o.2)).map fun o => ys.length - 1 - k - o.1) = after.map fun o => o.1 - k := by
      cases after with
      | none => rfl
      | some o =>
        obtain ⟨q, b⟩ := o
        have := (getElem_of_some ha.2.1).1
        have := ha.1
        simp only [Option.map_some, Option.some.injEq]
        omega
    rw [edist] at u1 u2
    rw [← cell k hk] at u1 u2
    rw [mayFill_backward]
    by_cases hw : ∃ d, (after.map fun o => o.1 - k) = some d ∧ Within limit d
    · obtain ⟨o', ho, hz⟩ := u1 hw
      cases after with
      | none => cases ho
      | some o =>
        obtain ⟨q, x⟩ := o
        simp only [Option.map_some, Option.some.injEq] at ho
        subst ho
        obtain ⟨v1, v2⟩ := areaMask_cell (area := area) hk hy hz (beforeIs_of hb) (afterIs_of ha)
        refine ⟨fun h => ?_, fun h => v2 fun h' => h ⟨hw, h'⟩⟩
        rw [v1 h.2]
        cases before <;> rfl
    · obtain ⟨v1, v2⟩ := areaMask_cell (area := area) hk hy (u2 hw) (beforeIs_of hb) (afterIs_of ha)
      refine ⟨fun h => absurd h.1 hw, fun h => ?_⟩
      by_cases h' : ((area = some .inside → (before.map fun o => k - o.1).isSome ∧ (after.map fun o => o.1 - k).isSome) ∧
        (area = some .outside → ¬ ((before.map fun o => k - o.1).isSome ∧ (after.map fun o => o.1 - k).isSome)))
      · exact v1 h'
      · exact v2 h'

end

end Melodist
