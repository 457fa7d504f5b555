import Verif.Lemmas.Interpolate
import Verif.Props.Interp
import Verif.Lemmas.Humidity

/-!
# C114: Station.interpolate with limits, directions and areas
-/

set_option linter.unusedSectionVars false

namespace Melodist
open Spec

namespace Spec

/-- a distance the argument `limit` allows (None: any) -/
def Within (limit : Option Nat) (d : Nat) : Prop := ∀ l, limit = some l → d ≤ l

/-- may a missing cell be filled?  `before`, `after`: distance to the nearest observation before and after it, if there is one.  Going forward, an observation reaches
the cells after it up to the limit, going backward those before it.  'inside' are the cells between two observations, 'outside' the others. -/
def MayFill (limit : Option Nat) (direction : LimitDirection) (area : Option LimitArea) (before after : Option Nat) : Prop :=
  ((direction ≠ .backward ∧ ∃ d, before = some d ∧ Within limit d) ∨ (direction ≠ .forward ∧ ∃ d, after = some d ∧ Within limit d)) ∧
  (area = some .inside → before.isSome ∧ after.isSome) ∧ (area = some .outside → ¬ (before.isSome ∧ after.isSome))

end Spec

/-- distance to the nearest valid cell before `k` -/
def BeforeIs (inv : List Bool) (k : Nat) : Option Nat → Prop
  | none => ∀ j, j < k → inv.getD j false = true
  | some d => 0 < d ∧ d ≤ k ∧ inv.getD (k - d) false = false ∧ ∀ j, k - d < j → j < k → inv.getD j false = true
/-- distance to the nearest valid cell after `k` -/
def AfterIs (inv : List Bool) (k : Nat) : Option Nat → Prop
  | none => ∀ j, k < j → j < inv.length → inv.getD j false = true
  | some d => 0 < d ∧ k + d < inv.length ∧ inv.getD (k + d) false = false ∧ ∀ j, k < j → j < k + d → inv.getD j false = true

section sets
variable {inv : List Bool} {k : Nat} (hk : k < inv.length) (hinv : inv.getD k false = true)
include hk hinv

theorem inner_before {b : Option Nat} (hb : BeforeIs inv k b) (l : Nat) : limitInner inv l k = true ↔ ¬ ∃ d, b = some d ∧ d ≤ l := by
  rw [limitInner_iff inv l k hk]
  cases b with
  | none =>
    constructor
    · rintro _ ⟨d, hd, _⟩; cases hd
    · intro _ j h1 _
      rcases h1.eq_or_lt with rfl | h
      · exact hinv
      · exact hb j h
  | some d =>
    obtain ⟨d0, d1, h1, h2⟩ := hb
    constructor
    · rintro h ⟨e, he, hl⟩
      cases he
      have := h (k - d) (by omega) (by omega)
      rw [h1] at this
      cases this
    · intro h j hj hl
      have hd : l < d := by
        by_contra hc
        exact h ⟨d, rfl, by omega⟩
      rcases hj.eq_or_lt with rfl | hj
      · exact hinv
      · exact h2 j (by omega) hj

theorem inner_after {a : Option Nat} (ha : AfterIs inv k a) (l : Nat) :
    limitInner inv.reverse l (inv.length - 1 - k) = true ↔ ¬ ∃ d, a = some d ∧ d ≤ l := by
  rw [limitInner_reverse_iff inv l k hk]
  cases a with
  | none =>
    constructor
    · rintro _ ⟨d, hd, _⟩; cases hd
    · intro _ j h1 h2 _
      rcases h1.eq_or_lt with rfl | h
      · exact hinv
      · exact ha j h h2
  | some d =>
    obtain ⟨d0, d1, h1, h2⟩ := ha
    constructor
    · rintro h ⟨e, he, hl⟩
      cases he
      have := h (k + d) (by omega) d1 (by omega)
      rw [h1] at this
      cases this
    · intro h j hj hj2 hl
      have hd : l < d := by
        by_contra hc
        exact h ⟨d, rfl, by omega⟩
      rcases hj.eq_or_lt with rfl | hj
      · exact hinv
      · exact h2 j hj (by omega)

theorem start_iff {b : Option Nat} (hb : BeforeIs inv k b) : k < leadingInvalid inv ↔ b = none := by
  rw [leading_iff]
  cases b with
  | none =>
    simp only [iff_true]
    intro j h1
    rcases h1.eq_or_lt with rfl | h
    · exact hinv
    · exact hb j h
  | some d =>
    obtain ⟨d0, d1, h1, h2⟩ := hb
    simp only [reduceCtorEq, iff_false]
    intro h
    have := h (k - d) (by omega)
    rw [h1] at this
    cases this

theorem stop_iff {a : Option Nat} (ha : AfterIs inv k a) : inv.length - trailingInvalid inv ≤ k ↔ a = none := by
  rw [trailing_iff inv k hk]
  cases a with
  | none =>
    simp only [iff_true]
    intro j h1 h2
    rcases h1.eq_or_lt with rfl | h
    · exact hinv
    · exact ha j h h2
  | some d =>
    obtain ⟨d0, d1, h1, h2⟩ := ha
    simp only [reduceCtorEq, iff_false]
    intro h
    have := h (k + d) (by omega) d1
    rw [h1] at this
    cases this

set_option maxHeartbeats 1000000 in
/-- pandas' set of cells that stay missing is the set of cells that may not be filled (unless there is no observation at all) -/
theorem preserve_iff {limit : Option Nat} (hl : limit ≠ some 0) (direction : LimitDirection) (area : Option LimitArea) {b a : Option Nat}
    (hb : BeforeIs inv k b) (ha : AfterIs inv k a) (hne : b ≠ none ∨ a ≠ none) :
    preserveNans inv limit direction area k = true ↔ ¬ MayFill limit direction area b a := by
  have s1 := start_iff hk hinv hb
  have s2 := stop_iff hk hinv ha
  have i1 := inner_before hk hinv hb
  have i2 := inner_after hk hinv ha
  have e1 : decide (k < leadingInvalid inv) = b.isNone := by
    rw [Bool.eq_iff_iff, decide_eq_true_iff, s1]; cases b <;> simp
  have e2 : decide (inv.length - trailingInvalid inv ≤ k) = a.isNone := by
    rw [Bool.eq_iff_iff, decide_eq_true_iff, s2]; cases a <;> simp
  unfold preserveNans MayFill Within interpLimit
  dsimp only
  rw [e1, e2, hinv]
  cases limit with
  | none =>
    cases direction <;> rcases area with _ | (_ | _) <;> cases b <;> cases a <;> simp_all
  | some l =>
    have hl0 : l ≠ 0 := fun h => hl (by rw [h])
    have i1 := i1 l
    have i2 := i2 l
    cases h1 : limitInner inv l k <;> cases h2 : limitInner inv.reverse l (inv.length - 1 - k) <;> rw [h1] at i1 <;> rw [h2] at i2 <;>
      cases direction <;> rcases area with _ | (_ | _) <;> cases b <;> cases a <;> simp_all

end sets

section
variable {K : Type} [Field K] [LinearOrder K] [IsStrictOrderedRing K]

/-- cells `ys` at the positions `t 0`, `t 1`, … -/
def Spec.placed (t : Nat → K) (ys : List (XF K)) : List (K × XF K) := ((List.range ys.length).map t).zip ys

theorem placed_getElem? (t : Nat → K) (ys : List (XF K)) (i : Nat) : (placed t ys)[i]? = ys[i]?.map fun y => (t i, y) := by
  unfold placed
  rw [List.zip, List.getElem?_zipWith, List.getElem?_map]
  by_cases h : i < ys.length
  · rw [List.getElem?_range h, List.getElem?_eq_getElem h]; rfl
  · rw [List.getElem?_eq_none (l := ys) (by omega)]
    cases (Option.map t (List.range ys.length)[i]?) <;> rfl

theorem placed_inv (t : Nat → K) (ys : List (XF K)) : ((placed t ys).map fun p => p.2.isNan) = ys.map XF.isNan := by
  apply List.ext_getElem?
  intro i
  rw [List.getElem?_map, List.getElem?_map, placed_getElem?, Option.map_map]
  rfl

theorem placed_length (t : Nat → K) (ys : List (XF K)) : (placed t ys).length = ys.length := by
  unfold placed
  rw [List.length_zip, List.length_map, List.length_range, Nat.min_self]

theorem placed_sorted {t : Nat → K} {ys : List (XF K)} (ht : ∀ i j, i < j → j < ys.length → t i < t j) : (placed t ys).Pairwise fun a b => a.1 < b.1 := by
  rw [List.pairwise_iff_getElem]
  intro i j hi hj hij
  rw [placed_length] at hi hj
  have a := placed_getElem? t ys i
  have b := placed_getElem? t ys j
  rw [List.getElem?_eq_getElem (by rw [placed_length]; exact hi), List.getElem?_eq_getElem hi, Option.map_some, Option.some.injEq] at a
  rw [List.getElem?_eq_getElem (by rw [placed_length]; exact hj), List.getElem?_eq_getElem hj, Option.map_some, Option.some.injEq] at b
  rw [a, b]
  exact ht i j hij hj

theorem inv_of {ys : List (XF K)} {i : Nat} {x : XF K} (h : ys[i]? = some x) : (ys.map XF.isNan).getD i false = x.isNan := by
  rw [List.getD_eq_getElem?_getD, List.getElem?_map, h]
  rfl

theorem before_of {ys : List (XF K)} {k p : Nat} {a : K} (h : PrevObs ys k p a) : BeforeIs (ys.map XF.isNan) k (some (k - p)) := by
  obtain ⟨h1, h2, h3⟩ := h
  refine ⟨by omega, by omega, ?_, ?_⟩
  · rw [show k - (k - p) = p by omega, inv_of h2]; rfl
  · intro j hj1 hj2
    rw [inv_of (h3 j (by omega) hj2)]; rfl

theorem after_of {ys : List (XF K)} {k q : Nat} {b : K} (h : NextObs ys k q b) : AfterIs (ys.map XF.isNan) k (some (q - k)) := by
  obtain ⟨h1, h2, h3⟩ := h
  refine ⟨by omega, ?_, ?_, ?_⟩
  · have := (getElem_of_some h2).1
    rw [List.length_map]
    omega
  · rw [show k + (q - k) = q by omega, inv_of h2]; rfl
  · intro j hj1 hj2
    rw [inv_of (h3 j hj1 (by omega))]; rfl

theorem before_none {ys : List (XF K)} {k : Nat} (h : NoPrevObs ys k) : BeforeIs (ys.map XF.isNan) k none := by
  intro j hj
  rw [inv_of (h j hj)]; rfl

theorem after_none {ys : List (XF K)} {k : Nat} (h : NoNextObs ys k) : AfterIs (ys.map XF.isNan) k none := by
  intro j hj1 hj2
  rw [List.length_map] at hj2
  rw [inv_of (h j hj1 hj2)]; rfl

theorem valid_ne {xs : List (K × XF K)} {i : Nat} {c : K × XF K} (h : xs[i]? = some c) (hc : c.2.isNan = false) : validCells xs ≠ [] := by
  intro e
  have := List.filter_eq_nil_iff.1 e c (List.mem_of_getElem? h)
  rw [hc] at this
  exact this rfl

/-- `zs` is `ys` (cells at the positions `t 0`, `t 1`, …) with gaps filled.  Observations are kept.  A missing cell between two observations gets the value of the
straight line through them if it may be filled (see `MayFill`), before the first or after the last observation it gets the value of the nearest observation, under the
same condition; all other cells stay missing. -/
def Spec.Filled (limit : Option Nat) (direction : LimitDirection) (area : Option LimitArea) (t : Nat → K) (ys zs : List (XF K)) : Prop :=
  zs.length = ys.length ∧ ∀ k (hk : k < ys.length),
    (ys[k] ≠ .nan → zs[k]? = some ys[k]) ∧
    (ys[k] = .nan →
      (∀ p a q b, PrevObs ys k p a → NextObs ys k q b →
        (MayFill limit direction area (some (k - p)) (some (q - k)) → zs[k]? = some (.fin (a + (b - a) * (t k - t p) / (t q - t p)))) ∧
        (¬ MayFill limit direction area (some (k - p)) (some (q - k)) → zs[k]? = some .nan)) ∧
      (∀ p a, PrevObs ys k p a → NoNextObs ys k →
        (MayFill limit direction area (some (k - p)) none → zs[k]? = some (.fin a)) ∧
        (¬ MayFill limit direction area (some (k - p)) none → zs[k]? = some .nan)) ∧
      (∀ q b, NoPrevObs ys k → NextObs ys k q b →
        (MayFill limit direction area none (some (q - k)) → zs[k]? = some (.fin b)) ∧
        (¬ MayFill limit direction area none (some (q - k)) → zs[k]? = some .nan)) ∧
      (NoPrevObs ys k → NoNextObs ys k → zs[k]? = some .nan))

/-- **C114 (cells).**  Interpolation of cells at increasing positions `t`, with any limit (None or at least 1), direction and area, fills the gaps as described by
`Filled`. -/
theorem C114_cells (limit : Option Nat) (hl : limit ≠ some 0) (direction : LimitDirection) (area : Option LimitArea) (t : Nat → K) (ys : List (XF K))
    (ht : ∀ i j, i < j → j < ys.length → t i < t j) : Filled limit direction area t ys (interpolate1d limit direction area (placed t ys)) := by
  refine ⟨by rw [interpolate1d_length, placed_length], ?_⟩
  intro k hk
  have hx : (placed t ys)[k]? = some (t k, ys[k]) := by rw [placed_getElem?, List.getElem?_eq_getElem hk]; rfl
  have hget := interpolate1d_getElem? limit direction area (placed t ys) hx
  have hsort := placed_sorted ht
  have cell : ∀ {i : Nat} {x : XF K}, ys[i]? = some x → (placed t ys)[i]? = some (t i, x) := by
    intro i x h
    rw [placed_getElem?, h]; rfl
  have cell' : ∀ {i : Nat} {c : K × XF K}, (placed t ys)[i]? = some c → ys[i]? = some c.2 := by
    intro i c h
    rw [placed_getElem?] at h
    obtain ⟨y, hy, rfl⟩ := Option.map_eq_some_iff.1 h
    exact hy
  have hk' : k < (ys.map XF.isNan).length := by rw [List.length_map]; exact hk
  refine ⟨?_, ?_⟩
  · intro h
    have : ys[k].isNan = false := by
      cases h' : ys[k].isNan
      · rfl
      · exact absurd ((XF.isNan_iff _).1 h') h
    rw [hget]
    simp only [this]
    rfl
  · intro h
    have hinv : (ys.map XF.isNan).getD k false = true := by
      rw [inv_of (List.getElem?_eq_getElem hk), h]; rfl
    rw [h] at hget
    simp only [XF.isNan_nan, if_true, placed_inv] at hget
    refine ⟨?_, ?_, ?_, ?_⟩
    · intro p a q b hp hq
      have hpre := preserve_iff hk' hinv hl direction area (before_of hp) (after_of hq) (.inl (by simp))
      have hv := validCells_both (xs := placed t ys) (hp.1.trans hq.1) (cell hp.2.1) (cell hq.2.1) rfl rfl (by
        intro i h1 h2 c hc
        have hy := cell' hc
        rcases lt_trichotomy i k with h3 | h3 | h3
        · rw [hp.2.2 i h1 h3] at hy; exact (Option.some.inj hy).symm
        · subst h3
          rw [List.getElem?_eq_getElem hk, h] at hy
          exact (Option.some.inj hy).symm
        · rw [hq.2.2 i h3 h2] at hy; exact (Option.some.inj hy).symm)
      rw [if_neg (valid_ne (cell hp.2.1) rfl)] at hget
      constructor
      · intro hm
        rw [hget, if_neg (by rw [hpre]; exact not_not.2 hm)]
        congr 1
        have hs := validCells_sorted hsort
        rw [hv] at hs ⊢
        have hql := (getElem_of_some hq.2.1).1
        have t1 := ht p k hp.1 hk
        have t2 := ht k q hq.1 hql
        rw [npInterp_between hs t1.le t2]
        simp only [XF.fin_sub_fin]
        rw [XF.fin_div_fin_of_ne _ (by linarith : t q - t p ≠ 0), XF.fin_mul_fin, XF.fin_add_fin]
        congr 1
        ring
      · intro hm
        rw [hget, if_pos (hpre.2 hm)]
    · intro p a hp hq
      have hpre := preserve_iff hk' hinv hl direction area (before_of hp) (after_none hq) (.inl (by simp))
      have hv := validCells_prev (xs := placed t ys) (cell hp.2.1) rfl (by
        intro i h1 c hc
        have hy := cell' hc
        rcases lt_trichotomy i k with h3 | h3 | h3
        · rw [hp.2.2 i h1 h3] at hy; exact (Option.some.inj hy).symm
        · subst h3
          rw [List.getElem?_eq_getElem hk, h] at hy
          exact (Option.some.inj hy).symm
        · rw [hq i h3 (getElem_of_some hy).1] at hy; exact (Option.some.inj hy).symm)
      rw [if_neg (valid_ne (cell hp.2.1) rfl)] at hget
      constructor
      · intro hm
        rw [hget, if_neg (by rw [hpre]; exact not_not.2 hm)]
        congr 1
        have hs := validCells_sorted hsort
        rw [hv] at hs ⊢
        exact npInterp_last hs (ht p k hp.1 hk).le
      · intro hm
        rw [hget, if_pos (hpre.2 hm)]
    · intro q b hp hq
      have hpre := preserve_iff hk' hinv hl direction area (before_none hp) (after_of hq) (.inr (by simp))
      have hv := validCells_next (xs := placed t ys) (cell hq.2.1) rfl (by
        intro i h1 c hc
        have hy := cell' hc
        rcases lt_trichotomy i k with h3 | h3 | h3
        · rw [hp i h3] at hy; exact (Option.some.inj hy).symm
        · subst h3
          rw [List.getElem?_eq_getElem hk, h] at hy
          exact (Option.some.inj hy).symm
        · rw [hq.2.2 i h3 h1] at hy; exact (Option.some.inj hy).symm)
      rw [if_neg (valid_ne (cell hq.2.1) rfl)] at hget
      constructor
      · intro hm
        rw [hget, if_neg (by rw [hpre]; exact not_not.2 hm)]
        congr 1
        rw [hv]
        exact npInterp_first (ht k q hq.1 (getElem_of_some hq.2.1).1)
      · intro hm
        rw [hget, if_pos (hpre.2 hm)]
    · intro hp hq
      have hv : validCells (placed t ys) = [] := by
        apply validCells_nan
        intro c hc
        obtain ⟨i, hi⟩ := List.getElem?_of_mem hc
        have hy := cell' hi
        rcases lt_trichotomy i k with h3 | h3 | h3
        · rw [hp i h3] at hy; exact (Option.some.inj hy).symm
        · subst h3
          rw [List.getElem?_eq_getElem hk, h] at hy
          exact (Option.some.inj hy).symm
        · rw [hq i h3 (getElem_of_some hy).1] at hy; exact (Option.some.inj hy).symm
      rw [hget, if_pos hv]

/-! ### consequences -/

theorem nanOrFin_cases' {x : XF K} (h : x.NanOrFin) : x = .nan ∨ ∃ a, x = .fin a := by
  cases x with
  | nan => exact .inl rfl
  | fin a => exact .inr ⟨a, rfl⟩
  | ninf => exact h.elim
  | pinf => exact h.elim

theorem prev_cases {ys : List (XF K)} (hf : ∀ y ∈ ys, y.NanOrFin) : ∀ k, k ≤ ys.length → NoPrevObs ys k ∨ ∃ p a, PrevObs ys k p a := by
  intro k
  induction k with
  | zero => intro _; left; intro i hi; omega
  | succ k ih =>
    intro hk
    have hg : ys[k]? = some ys[k] := List.getElem?_eq_getElem (by omega)
    rcases nanOrFin_cases' (hf ys[k] (List.getElem_mem _)) with h | ⟨a, h⟩
    · rw [h] at hg
      rcases ih (by omega) with h1 | ⟨p, a, h1, h2, h3⟩
      · left
        intro i hi
        rcases Nat.lt_succ_iff_lt_or_eq.1 hi with h4 | rfl
        · exact h1 i h4
        · exact hg
      · right
        refine ⟨p, a, by omega, h2, ?_⟩
        intro i hi1 hi2
        rcases Nat.lt_succ_iff_lt_or_eq.1 hi2 with h4 | rfl
        · exact h3 i hi1 h4
        · exact hg
    · rw [h] at hg
      right
      exact ⟨k, a, by omega, hg, by intro i h1 h2; omega⟩

theorem next_cases {ys : List (XF K)} (hf : ∀ y ∈ ys, y.NanOrFin) : ∀ m k, k + m + 1 = ys.length → NoNextObs ys k ∨ ∃ q b, NextObs ys k q b := by
  intro m
  induction m with
  | zero => intro k hk; left; intro i h1 h2; omega
  | succ m ih =>
    intro k hk
    have hg : ys[k + 1]? = some ys[k + 1] := List.getElem?_eq_getElem (by omega)
    rcases nanOrFin_cases' (hf ys[k + 1] (List.getElem_mem _)) with h | ⟨a, h⟩
    · rw [h] at hg
      rcases ih (k + 1) (by omega) with h1 | ⟨q, b, h1, h2, h3⟩
      · left
        intro i hi1 hi2
        rcases Nat.lt_or_ge (k + 1) i with h4 | h4
        · exact h1 i h4 hi2
        · rw [show i = k + 1 by omega]; exact hg
      · right
        refine ⟨q, b, by omega, h2, ?_⟩
        intro i hi1 hi2
        rcases Nat.lt_or_ge (k + 1) i with h4 | h4
        · exact h3 i h4 hi2
        · rw [show i = k + 1 by omega]; exact hg
    · rw [h] at hg
      right
      exact ⟨k + 1, a, by omega, hg, by intro i h1 h2; omega⟩

/-- the description determines the result, and equally spaced positions may be replaced by their numbers -/
theorem filled_unique {limit : Option Nat} {direction : LimitDirection} {area : Option LimitArea} {t t' : Nat → K} {α β : K} (hβ : 0 < β)
    (htt : ∀ i, t' i = α + β * t i) {ys zs zs' : List (XF K)} (hf : ∀ y ∈ ys, y.NanOrFin) (h : Filled limit direction area t ys zs)
    (h' : Filled limit direction area t' ys zs') : zs = zs' := by
  apply List.ext_getElem?
  intro k
  by_cases hk : k < ys.length
  · obtain ⟨u1, u2⟩ := h.2 k hk
    obtain ⟨v1, v2⟩ := h'.2 k hk
    by_cases hn : ys[k] = .nan
    · obtain ⟨a1, a2, a3, a4⟩ := u2 hn
      obtain ⟨b1, b2, b3, b4⟩ := v2 hn
      rcases prev_cases hf k hk.le with hp | ⟨p, a, hp⟩ <;> rcases next_cases hf (ys.length - 1 - k) k (by omega) with hq | ⟨q, b, hq⟩
      · rw [a4 hp hq, b4 hp hq]
      · by_cases hm : MayFill limit direction area none (some (q - k))
        · rw [(a3 q b hp hq).1 hm, (b3 q b hp hq).1 hm]
        · rw [(a3 q b hp hq).2 hm, (b3 q b hp hq).2 hm]
      · by_cases hm : MayFill limit direction area (some (k - p)) none
        · rw [(a2 p a hp hq).1 hm, (b2 p a hp hq).1 hm]
        · rw [(a2 p a hp hq).2 hm, (b2 p a hp hq).2 hm]
      · by_cases hm : MayFill limit direction area (some (k - p)) (some (q - k))
        · rw [(a1 p a q b hp hq).1 hm, (b1 p a q b hp hq).1 hm, htt, htt, htt, show α + β * t k - (α + β * t p) = β * (t k - t p) by ring,
            show α + β * t q - (α + β * t p) = β * (t q - t p) by ring, mul_left_comm, mul_div_mul_left _ _ hβ.ne']
        · rw [(a1 p a q b hp hq).2 hm, (b1 p a q b hp hq).2 hm]
    · rw [u1 hn, v1 hn]
  · rw [List.getElem?_eq_none (by rw [h.1]; omega), List.getElem?_eq_none (by rw [h'.1]; omega)]

/-- the model of the default call used for C13 is described by `Filled` as well -/
theorem filled_interpAux {limit : Nat} (ys : List (XF K)) : Filled (some limit) .both none (fun k => (k : K)) ys (interpAux limit [] ys) := by
  have hw : ∀ d, Within (some limit) d ↔ d ≤ limit := by
    intro d
    constructor
    · intro h; exact h limit rfl
    · rintro h l ⟨⟩; exact h
  refine ⟨interpAux_length _ _ _, fun k hk => ?_⟩
  obtain ⟨h1, h2⟩ := C13_interpolation limit ys k hk
  refine ⟨h1, fun hn => ?_⟩
  obtain ⟨a1, a2, a3, a4⟩ := h2 hn
  refine ⟨?_, ?_, ?_, a4⟩
  · intro p a q b hp hq
    constructor
    · rintro ⟨hm, -⟩
      have : k - p ≤ limit ∨ q - k ≤ limit := by
        rcases hm with ⟨-, d, hd, h⟩ | ⟨-, d, hd, h⟩ <;> cases hd
        · exact .inl ((hw _).1 h)
        · exact .inr ((hw _).1 h)
      obtain ⟨y, hy, rfl, -⟩ := (a1 p a q b hp hq).1 this
      exact hy
    · intro hm
      refine (a1 p a q b hp hq).2 ?_ ?_
      · by_contra hc
        exact hm ⟨.inl ⟨by simp, _, rfl, (hw _).2 (by omega)⟩, by simp, by simp⟩
      · by_contra hc
        exact hm ⟨.inr ⟨by simp, _, rfl, (hw _).2 (by omega)⟩, by simp, by simp⟩
  · intro p a hp hq
    rw [a2 p a hp hq]
    constructor
    · rintro ⟨hm, -⟩
      rcases hm with ⟨-, d, hd, h⟩ | ⟨-, d, hd, h⟩ <;> cases hd
      rw [if_pos ((hw _).1 h)]
    · intro hm
      rw [if_neg]
      intro hc
      exact hm ⟨.inl ⟨by simp, _, rfl, (hw _).2 hc⟩, by simp, by simp⟩
  · intro q b hp hq
    rw [a3 q b hp hq]
    constructor
    · rintro ⟨hm, -⟩
      rcases hm with ⟨-, d, hd, h⟩ | ⟨-, d, hd, h⟩ <;> cases hd
      rw [if_pos ((hw _).1 h)]
    · intro hm
      rw [if_neg]
      intro hc
      exact hm ⟨.inr ⟨by simp, _, rfl, (hw _).2 hc⟩, by simp, by simp⟩

/-- values and index after interpolating an hourly series -/
theorem seriesInterpolate_hourly {d0 : Int} {n : Nat} {f : Nat → Nat → XF K} {method : InterpMethod} {limit : Option Int} {direction : String}
    {area : Option String} {out : Series (XF K)} (h : seriesInterpolate (hourlyS d0 n f) method limit direction area = .ok out) :
    ∃ dir ar lim, LimitDirection.parse direction = .ok dir ∧ LimitArea.parse area = .ok ar ∧ validateLimit limit = .ok lim ∧ lim ≠ some 0 ∧
      ∃ t : Nat → K, (t = (fun k : Nat => (k : K)) ∨ ∃ α β : K, 0 < β ∧ t = fun k : Nat => α + β * (k : K)) ∧
        out = (Series.index (hourlyS d0 n f)).zip (interpolate1d lim dir ar (placed t (Series.values (hourlyS d0 n f)))) := by
  unfold seriesInterpolate at h
  obtain ⟨dir, hd, h⟩ := py_bind_inv h
  obtain ⟨ar, ha, h⟩ := py_bind_inv h
  obtain ⟨lim, hl, h⟩ := py_bind_inv h
  have hl0 : lim ≠ some 0 := by
    rintro rfl
    unfold validateLimit at hl
    split at hl
    · cases hl
    · split at hl
      · cases hl
      · injection hl with hl
        injection hl with hl
        omega
  refine ⟨dir, ar, lim, hd, ha, hl, hl0, ?_⟩
  have hlen : (Series.values (hourlyS d0 n f)).length = 24 * n := by simp [Series.values]
  cases method with
  | linear =>
    refine ⟨_, .inl rfl, ?_⟩
    injection h with h
    rw [← h, placed, hlen, hourlyS_length]
  | time =>
    refine ⟨_, .inr ⟨((d0 * DAY : Int) : K), ((HOUR : Int) : K), by exact_mod_cast (by decide : (0 : Int) < HOUR), rfl⟩, ?_⟩
    injection h with h
    rw [← h, placed, hlen]
    congr 3
    rw [hourlyS_index, List.map_map]
    apply List.map_congr_left
    intro k _
    simp only [Function.comp_apply]
    push_cast
    ring

theorem prep_fin {api : PandasApi} {daily : Frame K} {d0 : Int} {n : Nat} (hn : 0 < n)
    (hidx : daily.index = (List.range n).map fun i : Nat => at00 (d0 + i)) {chs : List (String × Int)}
    (hfin : ∀ c s, daily.col? c = some s → ∀ r ∈ s, r.2.NanOrFin) {f : Nat → Nat → XF K}
    (hp : prepareInterpolationData api daily chs = .ok (hourlyS d0 n f)) : ∀ y ∈ Series.values (hourlyS d0 n f), y.NanOrFin := by
  obtain ⟨f', e, hf, hnan⟩ := C13_anchors api daily d0 n hn hidx chs _ hp
  rw [e]
  intro y hy
  rw [hourlyS_values] at hy
  obtain ⟨k, hk, rfl⟩ := List.mem_map.1 hy
  have hk := List.mem_range.1 hk
  by_cases hc : ∃ c ∈ chs, c.2 = ((k % 24 : Nat) : Int)
  · obtain ⟨⟨c, h⟩, hc, e⟩ := hc
    dsimp only at e
    subst e
    obtain ⟨-, -, s, hs, hx⟩ := hf c _ hc
    have hl : (s.map Prod.snd).length = n := by
      unfold prepareInterpolationData at hp
      obtain ⟨m, rfl⟩ : ∃ m, n = m + 1 := ⟨n - 1, by omega⟩
      have hhead : daily.index.head? = some (at00 d0) := by
        rw [hidx, List.range_succ_eq_map]; simp
      have hlast : daily.index.getLast? = some (at00 (d0 + m)) := by
        rw [hidx, List.range_succ, List.map_append]; simp
      rw [hhead, hlast] at hp
      obtain ⟨data, hp, -⟩ := py_bind_inv hp
      obtain ⟨-, h2, -⟩ := foldlM_interp api daily d0 m chs [] data hp
      obtain ⟨-, -, s', hs', hl, -⟩ := h2 _ hc
      dsimp only at hs'
      rw [hs] at hs'
      injection hs' with hs'
      rw [List.length_map, hs', hl]
    have hi : k / 24 < n := by omega
    have := hx (k / 24) _ hi (List.getElem?_eq_getElem (by rw [hl]; exact hi))
    rw [Int.toNat_natCast] at this
    rw [this, List.getElem_map]
    exact hfin c s hs _ (List.getElem_mem _)
  · rw [hnan (k / 24) (k % 24) (by omega) (by omega) (fun c hc' e => hc ⟨c, hc', e⟩)]
    trivial

/-- **C114 (station).**  If `Station.interpolate` returns for a daily table of `n` consecutive days without infinite values, the options were valid and the result has
the complete hourly index.  Its values are the prepared values (C13: daily values at their hours, otherwise missing) with the gaps filled as described by `Filled`, for
method 'linear' and for method 'time'. -/
theorem C114_station (api : PandasApi) (daily : Frame K) (d0 : Int) (n : Nat) (hn : 0 < n)
    (hidx : daily.index = (List.range n).map fun i : Nat => at00 (d0 + i)) (chs : List (String × Int))
    (hfin : ∀ c s, daily.col? c = some s → ∀ r ∈ s, r.2.NanOrFin) (method : InterpMethod) (limit : Option Int) (direction : String)
    (area : Option String) (out : Series (XF K)) (h : stationInterpolateWith api daily chs method limit direction area = .ok out) :
    ∃ dir ar lim f g, LimitDirection.parse direction = .ok dir ∧ LimitArea.parse area = .ok ar ∧ validateLimit limit = .ok lim ∧
      prepareInterpolationData api daily chs = .ok (hourlyS d0 n f) ∧ out = hourlyS d0 n g ∧
      (∀ c h, (c, h) ∈ chs → ∃ s, daily.col? c = some s ∧ ∀ i x, i < n → (s.map Prod.snd)[i]? = some x → x ≠ .nan → g i h.toNat = x) ∧
      Filled lim dir ar (fun k : Nat => (k : K)) (Series.values (hourlyS d0 n f)) (Series.values out) := by
  unfold stationInterpolateWith at h
  obtain ⟨data, hp, h⟩ := py_bind_inv h
  obtain ⟨f, rfl, hf, hnan⟩ := C13_anchors api daily d0 n hn hidx chs data hp
  have hvals := prep_fin hn hidx hfin hp
  obtain ⟨dir, ar, lim, h1, h2, h3, hl0, t, ht, rfl⟩ := seriesInterpolate_hourly h
  have hmono : ∀ i j, i < j → t i < t j := by
    intro i j hij
    have : (i : K) < (j : K) := by exact_mod_cast hij
    rcases ht with rfl | ⟨α, β, hβ, rfl⟩
    · exact this
    · have := mul_lt_mul_of_pos_left this hβ
      dsimp only
      linarith
  have hF := C114_cells lim hl0 dir ar t (Series.values (hourlyS d0 n f)) fun i j h _ => hmono i j h
  have hFlin := C114_cells lim hl0 dir ar (fun k : Nat => (k : K)) (Series.values (hourlyS d0 n f)) fun i j h _ => (by exact_mod_cast h : (i : K) < (j : K))
  have heq : interpolate1d lim dir ar (placed t (Series.values (hourlyS d0 n f))) =
      interpolate1d lim dir ar (placed (fun k : Nat => (k : K)) (Series.values (hourlyS d0 n f))) := by
    rcases ht with rfl | ⟨α, β, hβ, rfl⟩
    · rfl
    · exact (filled_unique hβ (fun _ => rfl) hvals hFlin hF).symm
  have hlen := hFlin.1
  have hL : (Series.values (hourlyS d0 n f)).length = 24 * n := by simp [Series.values]
  rw [heq]
  set zs := interpolate1d lim dir ar (placed (fun k : Nat => (k : K)) (Series.values (hourlyS d0 n f))) with hzs
  have hv : Series.values ((Series.index (hourlyS d0 n f)).zip zs) = zs := by
    unfold Series.values
    exact List.map_snd_zip (by rw [hlen, hL]; simp [Series.index])
  have hi : Series.index ((Series.index (hourlyS d0 n f)).zip zs) = Series.index (hourlyS d0 n f) := by
    show List.map Prod.fst _ = _
    exact List.map_fst_zip (by rw [hlen, hL]; simp [Series.index])
  obtain ⟨g, hg⟩ := hourlyS_eq_of_index hi
  refine ⟨dir, ar, lim, f, g, h1, h2, h3, hp, hg, ?_, by rw [hv]; exact hFlin⟩
  intro c h hc
  obtain ⟨hlo, hhi, s, hs, hx⟩ := hf c h hc
  refine ⟨s, hs, ?_⟩
  intro i x hi hx' hne
  have hfx := hx i x hi hx'
  have hk : 24 * i + h.toNat < (Series.values (hourlyS d0 n f)).length := by rw [hL]; omega
  have e1 : (Series.values (hourlyS d0 n f))[24 * i + h.toNat] = x := by
    simp only [hourlyS_values, List.getElem_map, List.getElem_range]
    rw [show (24 * i + h.toNat) / 24 = i by omega, show (24 * i + h.toNat) % 24 = h.toNat by omega, hfx]
  have e2 := (hFlin.2 _ hk).1 (by rw [e1]; exact hne)
  rw [e1, ← hv, hg, hourlyS_values] at e2
  rw [List.getElem?_map, List.getElem?_range (by omega), Option.map_some, Option.some.injEq,
    show (24 * i + h.toNat) / 24 = i by omega, show (24 * i + h.toNat) % 24 = h.toNat by omega] at e2
  exact e2

/-- **C114 (same values).**  Under the hypotheses of `C114_station`, methods 'linear' and 'time' give the same result, and with direction 'both' and no area the
result is that of the model used for C13; in particular the call with default arguments is. -/
theorem C114_default (api : PandasApi) (daily : Frame K) (d0 : Int) (n : Nat) (hn : 0 < n)
    (hidx : daily.index = (List.range n).map fun i : Nat => at00 (d0 + i)) (chs : List (String × Int))
    (hfin : ∀ c s, daily.col? c = some s → ∀ r ∈ s, r.2.NanOrFin) :
    (∀ limit direction area, stationInterpolateWith api daily chs .time limit direction area = stationInterpolateWith api daily chs .linear limit direction area) ∧
    (∀ limit : Nat, 0 < limit → stationInterpolateWith api daily chs .linear (some limit) "both" none = stationInterpolate api daily chs limit) ∧
    stationInterpolateWith api daily chs = stationInterpolate api daily chs := by
  have key : ∀ {β : Type} (F G : Series (XF K) → Py β), (∀ f, (∀ y ∈ Series.values (hourlyS d0 n f), y.NanOrFin) → F (hourlyS d0 n f) = G (hourlyS d0 n f)) →
      (prepareInterpolationData api daily chs >>= F) = (prepareInterpolationData api daily chs >>= G) := by
    intro β F G hFG
    cases hp : prepareInterpolationData api daily chs with
    | error e => rfl
    | ok data =>
      obtain ⟨f, rfl, -⟩ := C13_anchors api daily d0 n hn hidx chs data hp
      exact hFG f (prep_fin hn hidx hfin hp)
  have h2 : ∀ limit : Nat, 0 < limit → stationInterpolateWith api daily chs .linear (some limit) "both" none = stationInterpolate api daily chs limit := by
    intro limit hl
    refine key _ _ fun f hf => ?_
    show seriesInterpolate _ _ _ _ _ = _
    unfold seriesInterpolate
    have e1 : LimitDirection.parse "both" = .ok .both := by decide +kernel
    have e2 : LimitArea.parse none = .ok none := rfl
    have e3 : validateLimit (some (limit : Int)) = .ok (some limit) := by
      unfold validateLimit
      dsimp only
      rw [if_neg (by omega), Int.toNat_natCast]
    rw [e1, py_ok_bind, e2, py_ok_bind, e3, py_ok_bind]
    dsimp only
    congr 2
    have hpl : ((List.range (hourlyS d0 n f).length).map fun i : Nat => (i : K)).zip (Series.values (hourlyS d0 n f)) =
        placed (fun i : Nat => (i : K)) (Series.values (hourlyS d0 n f)) := by
      unfold placed
      congr 3
      simp [Series.values]
    rw [hpl]
    exact filled_unique (α := 0) (β := 1) one_pos (fun i => by ring) hf
      (C114_cells (some limit) (by simp; omega) .both none _ _ fun i j h _ => (by exact_mod_cast h : (i : K) < (j : K))) (filled_interpAux _)
  refine ⟨?_, h2, ?_⟩
  · intro limit direction area
    refine key _ _ fun f hf => ?_
    cases ht : seriesInterpolate (hourlyS d0 n f) .time limit direction area with
    | error e =>
      have : seriesInterpolate (hourlyS d0 n f) .linear limit direction area = .error e := by
        unfold seriesInterpolate at ht ⊢
        cases h1 : LimitDirection.parse direction with
        | error e1 => rw [h1] at ht; exact ht
        | ok dir =>
          rw [h1, py_ok_bind] at ht
          rw [py_ok_bind]
          cases h2 : LimitArea.parse area with
          | error e1 => rw [h2] at ht; exact ht
          | ok ar =>
            rw [h2, py_ok_bind] at ht
            rw [py_ok_bind]
            cases h3 : validateLimit limit with
            | error e1 => rw [h3] at ht; exact ht
            | ok lim => rw [h3, py_ok_bind] at ht; cases ht
      rw [this]
    | ok out =>
      obtain ⟨dir, ar, lim, h1, h2, h3, hl0, t, ht', rfl⟩ := seriesInterpolate_hourly ht
      have hlin : seriesInterpolate (hourlyS d0 n f) .linear limit direction area =
          .ok ((Series.index (hourlyS d0 n f)).zip (interpolate1d lim dir ar (placed (fun k : Nat => (k : K)) (Series.values (hourlyS d0 n f))))) := by
        unfold seriesInterpolate
        rw [h1, py_ok_bind, h2, py_ok_bind, h3, py_ok_bind]
        dsimp only
        congr 3
        unfold placed
        congr 3
        simp [Series.values]
      rw [hlin]
      congr 2
      rcases ht' with rfl | ⟨α, β, hβ, rfl⟩
      · rfl
      · have hmono : ∀ i j : Nat, i < j → (i : K) < (j : K) := fun i j h => by exact_mod_cast h
        refine (filled_unique hβ (fun _ => rfl) hf (C114_cells lim hl0 dir ar (fun k : Nat => (k : K)) _ fun i j h _ => hmono i j h)
          (C114_cells lim hl0 dir ar _ _ fun i j h _ => ?_)).symm
        have := mul_lt_mul_of_pos_left (hmono i j h) hβ
        linarith
  · exact h2 24 (by omega)

/-- **C114 (more is filled with weaker restrictions).**  Replace the limit by a larger one or by None, a direction by 'both', an area by None: every hour that had a
number keeps this number. -/
theorem C114_weaker {limit limit' : Option Nat} {direction direction' : LimitDirection} {area area' : Option LimitArea} {t : Nat → K} {ys zs zs' : List (XF K)}
    (hf : ∀ y ∈ ys, y.NanOrFin) (h : Filled limit direction area t ys zs) (h' : Filled limit' direction' area' t ys zs')
    (hlim : ∀ l', limit' = some l' → ∃ l, limit = some l ∧ l ≤ l') (hdir : direction' = direction ∨ direction' = .both) (harea : area' = area ∨ area' = none)
    (k : Nat) (y : K) (hy : zs[k]? = some (.fin y)) : zs'[k]? = some (.fin y) := by
  have hk : k < ys.length := by
    rw [← h.1]
    exact (getElem_of_some hy).1
  have hw : ∀ d, Within limit d → Within limit' d := by
    intro d hd l' e
    obtain ⟨l, hl, hle⟩ := hlim l' e
    exact (hd l hl).trans hle
  have hmay : ∀ b a, MayFill limit direction area b a → MayFill limit' direction' area' b a := by
    rintro b a ⟨h1, h2, h3⟩
    refine ⟨?_, ?_, ?_⟩
    · rcases h1 with ⟨h1, d, hd, hd'⟩ | ⟨h1, d, hd, hd'⟩
      · refine .inl ⟨?_, d, hd, hw d hd'⟩
        rcases hdir with e | e <;> rw [e]
        · exact h1
        · simp
      · refine .inr ⟨?_, d, hd, hw d hd'⟩
        rcases hdir with e | e <;> rw [e]
        · exact h1
        · simp
    · intro e
      rcases harea with e' | e' <;> rw [e'] at e
      · exact h2 e
      · cases e
    · intro e
      rcases harea with e' | e' <;> rw [e'] at e
      · exact h3 e
      · cases e
  have hnn : ∀ {z : XF K}, zs[k]? = some z → z ≠ .nan := by
    intro z hz e
    rw [hz, e] at hy
    cases hy
  obtain ⟨u1, u2⟩ := h.2 k hk
  obtain ⟨v1, v2⟩ := h'.2 k hk
  by_cases hn : ys[k] = .nan
  · obtain ⟨a1, a2, a3, a4⟩ := u2 hn
    obtain ⟨b1, b2, b3, -⟩ := v2 hn
    rcases prev_cases hf k hk.le with hp | ⟨p, a, hp⟩ <;> rcases next_cases hf (ys.length - 1 - k) k (by omega) with hq | ⟨q, b, hq⟩
    · exact absurd rfl (hnn (a4 hp hq))
    · by_cases hm : MayFill limit direction area none (some (q - k))
      · rw [(b3 q b hp hq).1 (hmay _ _ hm), ← (a3 q b hp hq).1 hm, hy]
      · exact absurd rfl (hnn ((a3 q b hp hq).2 hm))
    · by_cases hm : MayFill limit direction area (some (k - p)) none
      · rw [(b2 p a hp hq).1 (hmay _ _ hm), ← (a2 p a hp hq).1 hm, hy]
      · exact absurd rfl (hnn ((a2 p a hp hq).2 hm))
    · by_cases hm : MayFill limit direction area (some (k - p)) (some (q - k))
      · rw [(b1 p a q b hp hq).1 (hmay _ _ hm), ← (a1 p a q b hp hq).1 hm, hy]
      · exact absurd rfl (hnn ((a1 p a q b hp hq).2 hm))
  · rw [v1 hn, ← u1 hn, hy]

/-- **C114 (invalid options).**  A limit below 1, a direction other than 'forward', 'backward' and 'both' and an area other than 'inside' and 'outside' (in small or
capital letters) are rejected: if the daily columns can be prepared at all, ValueError is raised. -/
theorem C114_invalid (api : PandasApi) (daily : Frame K) (chs : List (String × Int)) (method : InterpMethod) (limit : Option Int) (direction : String)
    (area : Option String) (data : Series (XF K)) (hp : prepareInterpolationData api daily chs = .ok data)
    (h : (∃ l, limit = some l ∧ l < 1) ∨ direction.toLower ∉ ["forward", "backward", "both"] ∨ ∃ a, area = some a ∧ a.toLower ∉ ["inside", "outside"]) :
    stationInterpolateWith api daily chs method limit direction area = .error .valueError := by
  unfold stationInterpolateWith
  rw [hp, py_ok_bind]
  unfold seriesInterpolate
  have hd : (∃ d, LimitDirection.parse direction = .ok d) ∨ LimitDirection.parse direction = .error .valueError := by
    unfold LimitDirection.parse
    split_ifs
    exacts [.inl ⟨_, rfl⟩, .inl ⟨_, rfl⟩, .inl ⟨_, rfl⟩, .inr rfl]
  have ha : (∃ d, LimitArea.parse area = .ok d) ∨ LimitArea.parse area = .error .valueError := by
    unfold LimitArea.parse
    split
    · exact .inl ⟨_, rfl⟩
    · split_ifs
      exacts [.inl ⟨_, rfl⟩, .inl ⟨_, rfl⟩, .inr rfl]
  rcases hd with ⟨d, hd⟩ | hd
  · rw [hd, py_ok_bind]
    rcases ha with ⟨a, ha⟩ | ha
    · rw [ha, py_ok_bind]
      rcases h with ⟨l, rfl, hl⟩ | h | ⟨a', rfl, h⟩
      · unfold validateLimit
        dsimp only
        rw [if_pos hl]
        rfl
      · simp only [List.mem_cons, List.not_mem_nil, or_false, not_or] at h
        unfold LimitDirection.parse at hd
        rw [if_neg h.1, if_neg h.2.1, if_neg h.2.2] at hd
        cases hd
      · simp only [List.mem_cons, List.not_mem_nil, or_false, not_or] at h
        unfold LimitArea.parse at ha
        dsimp only at ha
        rw [if_neg h.1, if_neg h.2] at ha
        cases ha
    · rw [ha]; rfl
  · rw [hd]; rfl

theorem prep_col {api : PandasApi} {daily : Frame K} {d0 : Int} {n : Nat} (hn : 0 < n)
    (hidx : daily.index = (List.range n).map fun i : Nat => at00 (d0 + i)) {chs : List (String × Int)} {f : Nat → Nat → XF K}
    (hp : prepareInterpolationData api daily chs = .ok (hourlyS d0 n f)) {c : String} {h : Int} (hc : (c, h) ∈ chs) :
    0 ≤ h ∧ h ≤ 23 ∧ ∃ s, daily.col? c = some s ∧ ∀ i, i < n → ∃ r ∈ s, (Series.values (hourlyS d0 n f))[24 * i + h.toNat]? = some r.2 := by
  obtain ⟨f', e, hf, -⟩ := C13_anchors api daily d0 n hn hidx chs _ hp
  rw [e]
  obtain ⟨hlo, hhi, s, hs, hx⟩ := hf c h hc
  refine ⟨hlo, hhi, s, hs, ?_⟩
  have hl : s.length = n := by
    unfold prepareInterpolationData at hp
    obtain ⟨m, rfl⟩ : ∃ m, n = m + 1 := ⟨n - 1, by omega⟩
    have hhead : daily.index.head? = some (at00 d0) := by
      rw [hidx, List.range_succ_eq_map]; simp
    have hlast : daily.index.getLast? = some (at00 (d0 + m)) := by
      rw [hidx, List.range_succ, List.map_append]; simp
    rw [hhead, hlast] at hp
    obtain ⟨data, hp, -⟩ := py_bind_inv hp
    obtain ⟨-, h2, -⟩ := foldlM_interp api daily d0 m chs [] data hp
    obtain ⟨-, -, s', hs', hl, -⟩ := h2 _ hc
    dsimp only at hs'
    rw [hs] at hs'
    injection hs' with hs'
    rw [hs', hl]
  intro i hi
  refine ⟨s[i], List.getElem_mem _, ?_⟩
  have := hx i s[i].2 hi (by rw [List.getElem?_map, List.getElem?_eq_getElem]; rfl)
  rw [hourlyS_values, List.getElem?_map, List.getElem?_range (by omega), Option.map_some, show (24 * i + h.toNat) / 24 = i by omega,
    show (24 * i + h.toNat) % 24 = h.toNat by omega, this]

theorem filled_fin {limit : Option Nat} {t : Nat → K} {ys zs : List (XF K)} (hf : ∀ y ∈ ys, y.NanOrFin) (h : Filled limit .both none t ys zs) {k k0 m : Nat}
    (hk : k < ys.length) (hm : Within limit m) {x : XF K} (hx : ys[k0]? = some x) (hne : x ≠ .nan) (h1 : k - k0 ≤ m) (h2 : k0 - k ≤ m) :
    ∃ y, zs[k]? = some (.fin y) := by
  obtain ⟨u1, u2⟩ := h.2 k hk
  by_cases hn : ys[k] = .nan
  · obtain ⟨a1, a2, a3, -⟩ := u2 hn
    have hw : ∀ d, d ≤ m → Within limit d := fun d hd l hl => hd.trans (hm l hl)
    have hkk : k0 ≠ k := by
      rintro rfl
      rw [List.getElem?_eq_getElem hk, hn] at hx
      exact hne (Option.some.inj hx).symm
    rcases Nat.lt_or_gt_of_ne hkk with hlt | hgt
    · rcases prev_cases hf k hk.le with hp | ⟨p, a, hp⟩
      · rw [hp k0 hlt] at hx
        exact absurd (Option.some.inj hx).symm hne
      · have hpk : k0 ≤ p := by
          by_contra hc
          rw [hp.2.2 k0 (by omega) hlt] at hx
          exact hne (Option.some.inj hx).symm
        rcases next_cases hf (ys.length - 1 - k) k (by omega) with hq | ⟨q, b, hq⟩
        · exact ⟨_, (a2 p a hp hq).1 ⟨.inl ⟨by simp, _, rfl, hw _ (by omega)⟩, by simp, by simp⟩⟩
        · exact ⟨_, (a1 p a q b hp hq).1 ⟨.inl ⟨by simp, _, rfl, hw _ (by omega)⟩, by simp, by simp⟩⟩
    · have hk0 := (getElem_of_some hx).1
      rcases next_cases hf (ys.length - 1 - k) k (by omega) with hq | ⟨q, b, hq⟩
      · rw [hq k0 hgt hk0] at hx
        exact absurd (Option.some.inj hx).symm hne
      · have hpk : q ≤ k0 := by
          by_contra hc
          rw [hq.2.2 k0 hgt (by omega)] at hx
          exact hne (Option.some.inj hx).symm
        rcases prev_cases hf k hk.le with hp | ⟨p, a, hp⟩
        · exact ⟨_, (a3 q b hp hq).1 ⟨.inr ⟨by simp, _, rfl, hw _ (by omega)⟩, by simp, by simp⟩⟩
        · exact ⟨_, (a1 p a q b hp hq).1 ⟨.inr ⟨by simp, _, rfl, hw _ (by omega)⟩, by simp, by simp⟩⟩
  · rcases nanOrFin_cases' (hf _ (List.getElem_mem hk)) with e | ⟨a, e⟩
    · exact absurd e hn
    · exact ⟨a, by rw [u1 hn, e]⟩

/-- **C114 (no gap left).**  If one of the given columns has no missing value, direction 'both' with no limit or a limit of at least 23 hours and no area leaves no
hour missing. -/
theorem C114_complete (api : PandasApi) (daily : Frame K) (d0 : Int) (n : Nat) (hn : 0 < n)
    (hidx : daily.index = (List.range n).map fun i : Nat => at00 (d0 + i)) (chs : List (String × Int))
    (hfin : ∀ c s, daily.col? c = some s → ∀ r ∈ s, r.2.NanOrFin) (method : InterpMethod) (limit : Option Int) (hlim : ∀ l, limit = some l → 23 ≤ l)
    (c : String) (h : Int) (hc : (c, h) ∈ chs) (hcompl : ∀ s, daily.col? c = some s → ∀ r ∈ s, r.2 ≠ .nan)
    (out : Series (XF K)) (hret : stationInterpolateWith api daily chs method limit "both" none = .ok out) :
    ∃ g : Nat → Nat → K, out = hourlyS d0 n fun i h => .fin (g i h) := by
  obtain ⟨dir, ar, lim, f, g, hd, ha, hl, hp, rfl, -, hF⟩ := C114_station api daily d0 n hn hidx chs hfin method limit "both" none out hret
  have hd' : dir = .both := by
    have : LimitDirection.parse "both" = .ok .both := by decide +kernel
    rw [this] at hd
    injection hd with hd
    exact hd.symm
  have ha' : ar = none := by
    injection ha with ha
    exact ha.symm
  subst hd' ha'
  have hw : Within lim 23 := by
    intro l e
    subst e
    unfold validateLimit at hl
    split at hl
    · cases hl
    · rename_i l'
      split at hl
      · cases hl
      · injection hl with hl
        injection hl with hl
        have := hlim l' rfl
        omega
  obtain ⟨hlo, hhi, s, hs, hcol⟩ := prep_col hn hidx hp hc
  have hfin' := prep_fin hn hidx hfin hp
  have hL : (Series.values (hourlyS d0 n f)).length = 24 * n := by simp [Series.values]
  have hcell : ∀ i, i < n → ∀ j, j < 24 → ∃ y, g i j = .fin y := by
    intro i hi j hj
    obtain ⟨r, hr, hx⟩ := hcol i hi
    obtain ⟨y, hy⟩ := filled_fin hfin' hF (k := 24 * i + j) (by rw [hL]; omega) hw hx (hcompl s hs r hr) (by omega) (by omega)
    refine ⟨y, ?_⟩
    rw [hourlyS_values, List.getElem?_map, List.getElem?_range (by omega), Option.map_some, Option.some.injEq, show (24 * i + j) / 24 = i by omega,
      show (24 * i + j) % 24 = j by omega] at hy
    exact hy
  refine ⟨fun i j => if hc : i < n ∧ j < 24 then (hcell i hc.1 j hc.2).choose else 0, ?_⟩
  unfold hourlyS
  apply List.map_congr_left
  intro k hk
  have hk := List.mem_range.1 hk
  have hc : k / 24 < n ∧ k % 24 < 24 := ⟨by omega, by omega⟩
  congr 1
  beta_reduce
  rw [dif_pos hc]
  exact (hcell _ hc.1 _ hc.2).choose_spec

end

/-! ### examples -/

/-- observations 10 and 50, three missing cells between them, one before, two after -/
def demoGaps : List (XF ℚ) := [.nan, .fin 10, .nan, .nan, .nan, .fin 50, .nan, .nan]

example : interpolate1d (some 1) .both none (placed (fun k => (k : ℚ)) demoGaps) = [.fin 10, .fin 10, .fin 20, .nan, .fin 40, .fin 50, .fin 50, .nan] := by
  decide +kernel
example : interpolate1d (some 2) .forward none (placed (fun k => (k : ℚ)) demoGaps) = [.nan, .fin 10, .fin 20, .fin 30, .nan, .fin 50, .fin 50, .fin 50] := by
  decide +kernel
example : interpolate1d none .backward none (placed (fun k => (k : ℚ)) demoGaps) = [.fin 10, .fin 10, .fin 20, .fin 30, .fin 40, .fin 50, .nan, .nan] := by
  decide +kernel
example : interpolate1d none .both (some .inside) (placed (fun k => (k : ℚ)) demoGaps) = [.nan, .fin 10, .fin 20, .fin 30, .fin 40, .fin 50, .nan, .nan] := by
  decide +kernel
example : interpolate1d none .both (some .outside) (placed (fun k => (k : ℚ)) demoGaps) = [.fin 10, .fin 10, .nan, .nan, .nan, .fin 50, .fin 50, .fin 50] := by
  decide +kernel

/-- the hypotheses of the theorems hold for the two days of C13, and the call returns -/
example : (∃ out, stationInterpolateWith .legacy demoDaily [("tmin", 6), ("tmax", 15)] .time (some 23) "both" none = .ok out ∧
      ∃ g : Nat → Nat → ℚ, out = hourlyS 0 2 fun i h => .fin (g i h)) ∧
    stationInterpolateWith .legacy demoDaily [("tmin", 6), ("tmax", 15)] .time (some 0) "both" none = .error .valueError := by
  have hfin : ∀ c s, demoDaily.col? c = some s → ∀ r ∈ s, r.2.NanOrFin := by
    intro c s h r hr
    unfold Frame.col? at h
    simp only [demoDaily, List.find?_cons] at h
    split at h
    · injection h with h
      subst h
      simp at hr
      rcases hr with rfl | rfl <;> trivial
    · split at h
      · injection h with h
        subst h
        simp at hr
        rcases hr with rfl | rfl <;> trivial
      · cases h
  constructor
  · have h : (stationInterpolateWith .legacy demoDaily [("tmin", 6), ("tmax", 15)] .time (some 23) "both" none).toOption.isSome := by decide +kernel
    cases hr : stationInterpolateWith .legacy demoDaily [("tmin", 6), ("tmax", 15)] .time (some 23) "both" none with
    | error e => rw [hr] at h; simp [Except.toOption] at h
    | ok out =>
      refine ⟨out, rfl, C114_complete .legacy demoDaily 0 2 (by omega) (by decide) _ hfin .time (some 23) (by rintro l ⟨⟩; omega) "tmax" 15 (by simp) ?_ out hr⟩
      intro s hs r hr
      have : demoDaily.col? "tmax" = some [(at00 0, .fin 10), (at00 1, .fin 12)] := by decide +kernel
      rw [this] at hs
      injection hs with hs
      subst hs
      simp at hr
      rcases hr with rfl | rfl <;> simp
  · cases hp : prepareInterpolationData .legacy demoDaily [("tmin", 6), ("tmax", 15)] with
    | error e =>
      have h : (prepareInterpolationData .legacy demoDaily [("tmin", 6), ("tmax", 15)]).toOption.isSome := by decide +kernel
      rw [hp] at h
      simp [Except.toOption] at h
    | ok data => exact C114_invalid _ _ _ _ _ _ _ data hp (.inl ⟨0, rfl, by decide⟩)

/-- the same table with the missing minimum: with a limit of 5 hours and direction 'forward' hours stay missing -/
example : okAnd (stationInterpolateWith .legacy demoDaily [("tmin", 6), ("tmax", 15)] .linear (some 5) "Forward" none) (fun out =>
    Series.at? out (atHour 0 5) = some .nan ∧ Series.at? out (atHour 0 7) = some (.fin 2) ∧ Series.at? out (atHour 0 20) = some (.fin (10 + 2 * 5 / 24)) ∧
      Series.at? out (atHour 0 21) = some .nan) := by decide +kernel

end Melodist
