import Verif.Model.Precip
import Verif.Lemmas.Stats
import Mathlib.Algebra.Order.BigOperators.Group.List
import Mathlib.Tactic.FieldSimp
import Mathlib.Tactic.Ring
import Mathlib.Tactic.NormNum
import Mathlib.Tactic.FinCases

/-!
# Helper lemmas for the cascade disaggregation
-/

set_option linter.unusedSectionVars false

namespace Melodist
open Spec

variable {K : Type} [Field K] [LinearOrder K] [IsStrictOrderedRing K]

/-- `out` consists of one block of `m` non-negative numbers per element `x` of `v`, adding up to `max x 0` -/
inductive BlockSplit (m : Nat) : List K → List K → Prop
  | nil : BlockSplit m [] []
  | cons {x : K} {xs bl ys : List K} : bl.length = m → (∀ y ∈ bl, 0 ≤ y) → bl.sum = max x 0 → BlockSplit m xs ys →
      BlockSplit m (x :: xs) (bl ++ ys)

namespace BlockSplit

theorem length {m : Nat} {v w : List K} (h : BlockSplit m v w) : w.length = m * v.length := by
  induction h with
  | nil => rfl
  | cons hl _ _ _ ih => rw [List.length_append, hl, ih, List.length_cons]; ring

theorem nonneg {m : Nat} {v w : List K} (h : BlockSplit m v w) : ∀ y ∈ w, 0 ≤ y := by
  induction h with
  | nil => simp
  | cons _ hp _ _ ih =>
    intro y hy
    rcases List.mem_append.1 hy with h | h
    · exact hp y h
    · exact ih y h

theorem sum {m : Nat} {v w : List K} (h : BlockSplit m v w) (hv : ∀ x ∈ v, 0 ≤ x) : w.sum = v.sum := by
  induction h with
  | nil => rfl
  | cons _ _ hs _ ih =>
    rw [List.sum_append, List.sum_cons, hs, max_eq_left (hv _ (by simp)), ih fun x hx => hv x (by simp [hx])]

theorem append_inv {k : Nat} : ∀ {a b z : List K}, BlockSplit k (a ++ b) z →
    ∃ z1 z2, z = z1 ++ z2 ∧ BlockSplit k a z1 ∧ BlockSplit k b z2
  | [], b, z, h => ⟨[], z, rfl, .nil, h⟩
  | x :: a, b, z, h => by
    rw [List.cons_append] at h
    obtain @⟨_⟩ | @⟨_, _, bl, ys, h1, h2, h3, h4⟩ := h
    obtain ⟨z1, z2, rfl, h5, h6⟩ := append_inv h4
    exact ⟨bl ++ z1, z2, by rw [List.append_assoc], .cons h1 h2 h3 h5, h6⟩

theorem trans {m k : Nat} {v w z : List K} (h : BlockSplit m v w) (h' : BlockSplit k w z) : BlockSplit (m * k) v z := by
  induction h generalizing z with
  | nil => cases h'; exact .nil
  | cons h1 h2 h3 _ ih =>
    obtain ⟨z1, z2, rfl, h5, h6⟩ := append_inv h'
    refine .cons ?_ h5.nonneg ?_ (ih h6)
    · rw [h5.length, h1]; ring
    · rw [h5.sum h2, h3]

/-- block `i` of the output -/
theorem block {m : Nat} {v w : List K} (h : BlockSplit m v w) {i : Nat} {x : K} (hi : v[i]? = some x) :
    ((w.drop (m * i)).take m).length = m ∧ ((w.drop (m * i)).take m).sum = max x 0 := by
  induction h generalizing i with
  | nil => simp at hi
  | @cons y xs bl ys h1 h2 h3 _ ih =>
    cases i with
    | zero =>
      simp at hi
      subst hi
      have : List.take m (List.drop (m * 0) (bl ++ ys)) = bl := by
        rw [mul_zero, List.drop_zero, ← h1, List.take_left']
        rfl
      rw [this]
      exact ⟨h1, h3⟩
    | succ i =>
      have := ih (i := i) (by simpa using hi)
      have e : List.drop (m * (i + 1)) (bl ++ ys) = List.drop (m * i) ys := by
        rw [show m * (i + 1) = bl.length + m * i by rw [h1]; ring, ← List.drop_drop, List.drop_left']
        rfl
      rw [e]
      exact this

end BlockSplit

/-! ### one box, one level -/

theorem boxStep_split {rnd : Nat → K} {s : CascStats K} {mv : XF K} {prev next : Option K} {x a b : K} {st st' : CascVars K}
    (h : boxStep rnd s mv prev x next st = .ok ((a, b), st')) : 0 ≤ a ∧ 0 ≤ b ∧ a + b = max x 0 := by
  unfold boxStep at h
  split at h
  · rename_i hx
    have hx' := hx.le
    cases hb : boxType prev next st.vbtype with
    | error e => rw [hb] at h; cases h
    | ok vb =>
      rw [hb] at h
      simp only [bind, Except.bind] at h
      generalize (if XF.lt mv (.fin x) then (1 : Fin 2) else 0) = bb at h
      cases vb with
      | none => cases h
      | some ty =>
        simp only at h
        split at h
        · cases h; simp [hx']
        · split at h
          · cases h; simp [hx']
          · split at h
            · cases h
            · split at h
              · cases h
              · rename_i w _ hw
                push Not at hw
                cases h
                refine ⟨mul_nonneg hw.1 hx', mul_nonneg (by linarith [hw.2]) hx', ?_⟩
                rw [max_eq_left hx']; ring
  · rename_i hx
    cases h
    simp [not_lt.1 hx]

theorem boxLoop_cons {rnd : Nat → K} {s : CascStats K} {mv : XF K} {prev : Option K} {x : K} {xs : List K} {st : CascVars K}
    {out : List K} {st' : CascVars K} (h : boxLoop rnd s mv prev (x :: xs) st = .ok (out, st')) :
    ∃ a b st1 rest, boxStep rnd s mv prev x xs.head? st = .ok ((a, b), st1) ∧
      boxLoop rnd s mv (some x) xs st1 = .ok (rest, st') ∧ out = a :: b :: rest := by
  unfold boxLoop at h
  simp only [bind, Except.bind] at h
  cases h1 : boxStep rnd s mv prev x xs.head? st with
  | error e => rw [h1] at h; cases h
  | ok r =>
    obtain ⟨⟨a, b⟩, st1⟩ := r
    rw [h1] at h
    simp only at h
    cases h2 : boxLoop rnd s mv (some x) xs st1 with
    | error e => rw [h2] at h; cases h
    | ok r =>
      obtain ⟨rest, st2⟩ := r
      rw [h2] at h
      simp only at h
      cases h
      exact ⟨a, b, st1, rest, rfl, h2, rfl⟩

theorem boxLoop_split {rnd : Nat → K} {s : CascStats K} {mv : XF K} {prev : Option K} {v out : List K} {st st' : CascVars K}
    (h : boxLoop rnd s mv prev v st = .ok (out, st')) : BlockSplit 2 v out := by
  induction v generalizing prev out st with
  | nil => unfold boxLoop at h; cases h; exact .nil
  | cons x xs ih =>
    obtain ⟨a, b, st1, rest, h1, h2, rfl⟩ := boxLoop_cons h
    obtain ⟨ha, hb, hab⟩ := boxStep_split h1
    have := BlockSplit.cons (m := 2) (bl := [a, b]) (x := x) rfl (by simp [ha, hb]) (by simpa using hab) (ih h2)
    exact this

/-! ### all levels -/

theorem levelLoop_succ {rnd : Nat → K} {opts : CascOptions K} {si : Nat} {vin : List K} {st : CascVars K} {ls : List (List K)}
    (h : levelLoop rnd opts (si + 1) vin st = .ok ls) :
    ∃ s mv vout st1 rest, levelStats opts si = .ok (s, mv) ∧ boxLoop rnd s mv none vin st = .ok (vout, st1) ∧
      levelLoop rnd opts si vout st1 = .ok rest ∧ ls = vout :: rest := by
  unfold levelLoop at h
  simp only [bind, Except.bind] at h
  cases h1 : levelStats opts si with
  | error e => rw [h1] at h; cases h
  | ok r =>
    obtain ⟨s, mv⟩ := r
    rw [h1] at h
    simp only at h
    cases h2 : boxLoop rnd s mv none vin st with
    | error e => rw [h2] at h; cases h
    | ok r =>
      obtain ⟨vout, st1⟩ := r
      rw [h2] at h
      simp only at h
      cases h3 : levelLoop rnd opts si vout st1 with
      | error e => rw [h3] at h; cases h
      | ok rest =>
        rw [h3] at h
        cases h
        exact ⟨s, mv, vout, st1, rest, rfl, h2, h3, rfl⟩

theorem levelLoop_length {rnd : Nat → K} {opts : CascOptions K} {si : Nat} {vin : List K} {st : CascVars K} {ls : List (List K)}
    (h : levelLoop rnd opts si vin st = .ok ls) : ls.length = si := by
  induction si generalizing vin st ls with
  | zero => unfold levelLoop at h; cases h; rfl
  | succ si ih =>
    obtain ⟨_, _, _, _, rest, _, _, h3, rfl⟩ := levelLoop_succ h
    simp [ih h3]

/-- consecutive levels refine each other -/
theorem levelLoop_chain {rnd : Nat → K} {opts : CascOptions K} {si : Nat} {vin : List K} {st : CascVars K} {ls : List (List K)}
    (h : levelLoop rnd opts si vin st = .ok ls) :
    ∀ l : Nat, ∀ p c : List K, (vin :: ls)[l]? = some p → (vin :: ls)[l + 1]? = some c → BlockSplit 2 p c := by
  induction si generalizing vin st ls with
  | zero => unfold levelLoop at h; cases h; intro l p c _ h2; simp at h2
  | succ si ih =>
    obtain ⟨_, _, vout, _, rest, _, h2, h3, rfl⟩ := levelLoop_succ h
    intro l p c hp hc
    cases l with
    | zero => simp at hp hc; subst hp; subst hc; exact boxLoop_split h2
    | succ l => exact ih h3 l p c (by simpa using hp) (by simpa using hc)

/-- the array of level `l + 1` has one block of `2^(l+1)` boxes per day -/
theorem levelLoop_split {rnd : Nat → K} {opts : CascOptions K} {si : Nat} {vin : List K} {st : CascVars K} {ls : List (List K)}
    (h : levelLoop rnd opts si vin st = .ok ls) : ∀ l : Nat, ∀ c, ls[l]? = some c → BlockSplit (2 ^ (l + 1)) vin c := by
  induction si generalizing vin st ls with
  | zero => unfold levelLoop at h; cases h; intro l c h2; simp at h2
  | succ si ih =>
    obtain ⟨_, _, vout, _, rest, _, h2, h3, rfl⟩ := levelLoop_succ h
    intro l c hc
    cases l with
    | zero => simp at hc; subst hc; exact boxLoop_split h2
    | succ l =>
      have := (boxLoop_split h2).trans (ih h3 l c (by simpa using hc))
      rwa [← pow_succ'] at this

theorem levelLoop_last {rnd : Nat → K} {opts : CascOptions K} {si : Nat} {vin : List K} {st : CascVars K} {ls : List (List K)}
    (h : levelLoop rnd opts (si + 1) vin st = .ok ls) : BlockSplit (2 ^ (si + 1)) vin (ls.getLastD []) := by
  have hl := levelLoop_length h
  refine levelLoop_split h si _ ?_
  rw [List.getLastD_eq_getLast?, List.getLast?_eq_getElem?, hl]
  simp only [Nat.add_sub_cancel]
  rw [List.getElem?_eq_getElem (by omega)]
  rfl

/-! ### aggregation to hours -/

theorem quarterHours_split (v : List K) (hv : ∀ x ∈ v, 0 ≤ x) : BlockSplit 3 v (quarterHours v) := by
  induction v with
  | nil => exact .nil
  | cons x xs ih =>
    have hx : 0 ≤ x := hv x (by simp)
    have := BlockSplit.cons (m := 3) (bl := [x / 3, x / 3, x / 3]) (x := x) rfl
      (by intro y hy; simp at hy; subst hy; positivity)
      (by rw [max_eq_left hx]; simp; ring) (ih fun y hy => hv y (by simp [hy]))
    exact this

/-- sums of four consecutive values -/
def agg4 : List K → List K
  | a :: b :: c :: d :: rest => (a + b + c + d) :: agg4 rest
  | _ => []

theorem cumsum_getD (q : List K) (acc : K) (k : Nat) (hk : k < q.length) :
    (cumsum acc q).getD k 0 = acc + (q.take (k + 1)).sum := by
  induction q generalizing acc k with
  | nil => simp at hk
  | cons x xs ih =>
    cases k with
    | zero => simp [cumsum]
    | succ k =>
      have := ih (acc + x) k (by simpa using hk)
      simp only [cumsum, List.getD_cons_succ, this, List.take_succ_cons, List.sum_cons]
      ring

theorem agg4_length : ∀ (q : List K), (agg4 q).length = q.length / 4
  | [] => by simp [agg4]
  | [_] => by simp [agg4]
  | [_, _] => by simp [agg4]
  | [_, _, _] => by simp [agg4]
  | a :: b :: c :: d :: rest => by
    have := agg4_length rest
    simp only [agg4, List.length_cons, this]
    omega

theorem agg4_getElem : ∀ (q : List K) (k : Nat) (hk : k < (agg4 q).length),
    (agg4 q)[k] = (q.take (4 * (k + 1))).sum - (q.take (4 * k)).sum
  | [], k, hk => by simp [agg4] at hk
  | [_], k, hk => by simp [agg4] at hk
  | [_, _], k, hk => by simp [agg4] at hk
  | [_, _, _], k, hk => by simp [agg4] at hk
  | a :: b :: c :: d :: rest, k, hk => by
    cases k with
    | zero => simp [agg4]; ring
    | succ k =>
      have hk' : k < (agg4 rest).length := by simpa [agg4] using hk
      have := agg4_getElem rest k hk'
      simp only [agg4, List.getElem_cons_succ, this]
      rw [show 4 * (k + 1 + 1) = 4 * (k + 1) + 1 + 1 + 1 + 1 by ring,
        show 4 * (k + 1) = 4 * k + 1 + 1 + 1 + 1 by ring]
      simp only [List.take_succ_cons, List.sum_cons]
      ring

theorem hourlyFromQuarter_eq (q : List K) : hourlyFromQuarter q = agg4 q := by
  apply List.ext_getElem
  · simp [hourlyFromQuarter, agg4_length]
  · intro k h1 h2
    rw [agg4_getElem q k h2]
    have hk : k < q.length / 4 := by rwa [agg4_length] at h2
    simp only [hourlyFromQuarter, List.getElem_map, List.getElem_range]
    split
    · rename_i h0
      subst h0
      rw [cumsum_getD _ _ _ (by omega)]
      simp
    · rw [cumsum_getD _ _ _ (by omega), cumsum_getD _ _ _ (by omega),
        show 4 * (k + 1) - 1 + 1 = 4 * (k + 1) by omega, show 4 * (k + 1) - 5 + 1 = 4 * k by omega]
      ring

theorem agg4_append : ∀ (m : Nat) (a b : List K), a.length = 4 * m → agg4 (a ++ b) = agg4 a ++ agg4 b
  | 0, a, b, h => by
    have : a = [] := List.length_eq_zero_iff.1 (by simpa using h)
    subst this; rfl
  | m + 1, a, b, h => by
    match a, h with
    | x :: y :: z :: w :: rest, h =>
      have := agg4_append m rest b (by simp at h; omega)
      simp [agg4, this]
    | [], h => simp at h
    | [_], h => simp at h; omega
    | [_, _], h => simp at h; omega
    | [_, _, _], h => simp at h; omega

theorem agg4_sum : ∀ (m : Nat) (a : List K), a.length = 4 * m → (agg4 a).sum = a.sum
  | 0, a, h => by
    have : a = [] := List.length_eq_zero_iff.1 (by simpa using h)
    subst this; rfl
  | m + 1, a, h => by
    match a, h with
    | x :: y :: z :: w :: rest, h =>
      have := agg4_sum m rest (by simp at h; omega)
      simp [agg4, this]; ring
    | [], h => simp at h
    | [_], h => simp at h; omega
    | [_, _], h => simp at h; omega
    | [_, _, _], h => simp at h; omega

theorem agg4_nonneg : ∀ (a : List K), (∀ y ∈ a, 0 ≤ y) → ∀ y ∈ agg4 a, 0 ≤ y
  | [], _ => by simp [agg4]
  | [_], _ => by simp [agg4]
  | [_, _], _ => by simp [agg4]
  | [_, _, _], _ => by simp [agg4]
  | a :: b :: c :: d :: rest, h => by
    intro y hy
    simp only [agg4, List.mem_cons] at hy
    rcases hy with rfl | hy
    · have h1 := h a (by simp); have h2 := h b (by simp); have h3 := h c (by simp); have h4 := h d (by simp)
      linarith
    · exact agg4_nonneg rest (fun z hz => h z (by simp [hz])) y hy

theorem BlockSplit.agg {m : Nat} {v q : List K} (h : BlockSplit (4 * m) v q) : BlockSplit m v (agg4 q) := by
  induction h with
  | nil => exact .nil
  | cons h1 h2 h3 _ ih =>
    rw [agg4_append m _ _ h1]
    refine .cons ?_ (agg4_nonneg _ h2) ?_ ih
    · rw [agg4_length, h1]; omega
    · rw [agg4_sum m _ h1, h3]

/-! ### from the flat array to the hourly series -/

/-- entry `j` of block `i` of a flat array -/
def blockEntry (m : Nat) (w : List K) (i j : Nat) : K := w.getD (m * i + j) 0

theorem block_eq_map (m : Nat) (w : List K) (i : Nat) (h : m * i + m ≤ w.length) :
    (w.drop (m * i)).take m = (List.range m).map (blockEntry m w i) := by
  apply List.ext_getElem
  · simp; omega
  · intro j h1 h2
    simp only [List.getElem_take, List.getElem_drop, List.getElem_map, List.getElem_range, blockEntry]
    have hj : j < m := by simpa using h2
    rw [List.getD_eq_getElem?_getD, List.getElem?_eq_getElem (by omega)]
    rfl

theorem make_hourly {d0 : Int} {n : Nat} (w : List K) (hw : w.length = 24 * n) (f0 : Nat → Nat → K) :
    Series.make (Series.index (hourlyS d0 n f0)) w = .ok (hourlyS d0 n (blockEntry 24 w)) := by
  unfold Series.make
  rw [if_pos (by simp [Series.index, hw])]
  congr 1
  apply List.ext_getElem
  · simp [Series.index, hw]
  · intro k h1 h2
    rw [hourlyS_getElem, List.getElem_zip]
    have hk : k < 24 * n := by simpa using h2
    congr 1
    · simp only [Series.index, List.getElem_map]; rw [hourlyS_getElem]
    · unfold blockEntry
      rw [show 24 * (k / 24) + k % 24 = k by omega, List.getD_eq_getElem?_getD, List.getElem?_eq_getElem (by omega)]
      rfl

/-! ### the whole function -/

theorem Except.bind_ok {α β : Type} {x : Py α} {f : α → Py β} {b : β} (h : (x >>= f) = .ok b) :
    ∃ a, x = .ok a ∧ f a = .ok b := by
  cases x with
  | error e => cases h
  | ok a => exact ⟨a, rfl, h⟩

theorem disagg_inv {api : PandasApi} {rnd : Nat → K} {daily : Series (XF K)} {opts : CascOptions K} {hourly : Bool} {level : Nat}
    {shift : Int} {test : Bool} {r : CascadeOut K}
    (h : disaggPrecCascade api rnd daily opts hourly level shift test = .ok r) :
    2 ≤ daily.length ∧ ∃ v levels fine s, zeroMissing daily.values = .ok v ∧
      (1 ≤ (if hourly then 5 else level) ∧ (if hourly then 5 else level) ≤ 11) ∧
      checkOptions opts (if hourly then 5 else level) = .ok () ∧
      levelLoop rnd opts (if hourly then 5 else level) v {} = .ok levels ∧
      assembleSeries api daily.index hourly level (levels.getLastD []) = .ok (fine, s) ∧
      r = ⟨levels, fine, if shift ≠ 0 then (restoreMissing ((daily.filter fun r => r.2.isNan).map Prod.fst) s).shiftRows shift
        else restoreMissing ((daily.filter fun r => r.2.isNan).map Prod.fst) s⟩ := by
  unfold disaggPrecCascade at h
  split at h
  · cases h
  rename_i hl
  refine ⟨by omega, ?_⟩
  obtain ⟨v, hv, h⟩ := Except.bind_ok h
  simp only at h
  generalize (if hourly = true then 5 else level) = si at h ⊢
  split at h
  · cases h
  rename_i hs
  obtain ⟨_, hc, h⟩ := Except.bind_ok h
  obtain ⟨levels, hlev, h⟩ := Except.bind_ok h
  obtain ⟨⟨fine, s⟩, ha, h⟩ := Except.bind_ok h
  simp only at h
  split at h
  · cases h
  · cases h
    exact ⟨v, levels, fine, s, hv, by omega, hc, hlev, ha, rfl⟩

theorem zeroMissing_ok {l : List (XF K)} {v : List K} (h : zeroMissing l = .ok v) :
    v.length = l.length ∧ ∀ i : Nat, ∀ c, l[i]? = some c → c.NanOrFin ∧ (∀ x, c = .fin x → v[i]? = some x) ∧ (c = .nan → v[i]? = some 0) := by
  induction l generalizing v with
  | nil => cases h; simp
  | cons c l ih =>
    cases c with
    | nan =>
      obtain ⟨w, hw, h⟩ := Except.bind_ok h
      cases h
      obtain ⟨h1, h2⟩ := ih hw
      refine ⟨by simp [h1], ?_⟩
      intro i c hc
      cases i with
      | zero => simp at hc; subst hc; simp
      | succ i => simpa using h2 i c (by simpa using hc)
    | fin x =>
      obtain ⟨w, hw, h⟩ := Except.bind_ok h
      cases h
      obtain ⟨h1, h2⟩ := ih hw
      refine ⟨by simp [h1], ?_⟩
      intro i c hc
      cases i with
      | zero => simp at hc; subst hc; simp
      | succ i => simpa using h2 i c (by simpa using hc)
    | pinf => cases h
    | ninf => cases h

theorem zeroMissing_of_nanOrFin {l : List (XF K)} (h : ∀ c ∈ l, c.NanOrFin) : ∃ v, zeroMissing l = .ok v := by
  induction l with
  | nil => exact ⟨[], rfl⟩
  | cons c l ih =>
    obtain ⟨v, hv⟩ := ih fun c hc => h c (by simp [hc])
    have hc := h c (by simp)
    cases c with
    | nan => exact ⟨0 :: v, by unfold zeroMissing; rw [hv]; rfl⟩
    | fin x => exact ⟨x :: v, by unfold zeroMissing; rw [hv]; rfl⟩
    | pinf => exact absurd hc (by simp)
    | ninf => exact absurd hc (by simp)

/-- days on which `v` is missing -/
theorem missing_contains (d0 : Int) (n : Nat) (v : Nat → XF K) {i : Nat} (hi : i < n) :
    ((((dailyS d0 n v).filter fun r => r.2.isNan).map Prod.fst).map dayOf).contains (d0 + i) = (v i).isNan := by
  rw [Bool.eq_iff_iff, List.contains_iff_mem]
  simp only [List.mem_map, List.mem_filter, dailyS, List.mem_range]
  constructor
  · rintro ⟨t, ⟨r, ⟨⟨j, hj, rfl⟩, hn⟩, rfl⟩, h⟩
    rw [dayOf_at00] at h
    have : j = i := by omega
    subst this; exact hn
  · intro h
    exact ⟨at00 (d0 + i), ⟨(at00 (d0 + i), v i), ⟨⟨i, hi, rfl⟩, h⟩, rfl⟩, dayOf_at00 _⟩

theorem restoreMissing_hourly (d0 : Int) (n : Nat) (v : Nat → XF K) (f : Nat → Nat → K) :
    restoreMissing (((dailyS d0 n v).filter fun r => r.2.isNan).map Prod.fst) (hourlyS d0 n f) =
      hourlyS d0 n fun i h => if (v i).isNan then .nan else .fin (f i h) := by
  unfold restoreMissing hourlyS
  rw [List.map_map]
  apply List.map_congr_left
  intro k hk
  have hk := List.mem_range.1 hk
  simp only [Function.comp_def]
  rw [dayOf_atHour _ (by omega), missing_contains d0 n v (by omega)]

/-- the hourly cascade in normal form (shift = 0) -/
theorem cascade_hourly_eq {api : PandasApi} {rnd : Nat → K} {opts : CascOptions K} {level : Nat} {test : Bool} {r : CascadeOut K}
    {d0 : Int} {n : Nat} {v : Nat → XF K} {shift : Int}
    (h : disaggPrecCascade api rnd (dailyS d0 n v) opts true level shift test = .ok r) :
    2 ≤ n ∧ (∀ i < n, (v i).NanOrFin) ∧ ∃ (w : List K) (f : Nat → Nat → K),
      zeroMissing ((List.range n).map v) = .ok w ∧ levelLoop rnd opts 5 w {} = .ok r.levels ∧
      r.series = (if shift ≠ 0 then
        Series.shiftRows (hourlyS d0 n fun i h => if (v i).isNan then XF.nan else .fin (f i h)) shift
        else hourlyS d0 n fun i h => if (v i).isNan then XF.nan else .fin (f i h)) ∧
      ∀ i < n, ∀ x, v i = .fin x → (day24 (f i)).sum = max x 0 ∧ ∀ h < 24, 0 ≤ f i h := by
  obtain ⟨hl, w, levels, fine, s, hz, _, hc, hlev, ha, rfl⟩ := disagg_inv h
  rw [dailyS_length] at hl
  rw [dailyS_values] at hz
  obtain ⟨z1, z2⟩ := zeroMissing_ok hz
  have hcell : ∀ i < n, (v i).NanOrFin := fun i hi => (z2 i (v i) (by simp [hi])).1
  simp only [if_true] at hlev hc
  have hb := levelLoop_last hlev
  have hq := hb.trans (quarterHours_split _ hb.nonneg)
  have hh : BlockSplit 24 w (hourlyFromQuarter (quarterHours (levels.getLastD []))) := by
    rw [hourlyFromQuarter_eq]; exact BlockSplit.agg (m := 24) hq
  have hlen : (hourlyFromQuarter (quarterHours (levels.getLastD []))).length = 24 * n := by
    rw [hh.length, z1]; simp
  unfold assembleSeries at ha
  simp only [if_true] at ha
  rw [hourlyIndex_daily api d0 (by omega : 0 < n) v false (fun _ _ => XF.nan)] at ha
  have hm := make_hourly (d0 := d0) (n := n) _ hlen (fun _ _ => 0)
  have hidx : Series.index (hourlyS d0 n fun _ _ => (XF.nan : XF K)) = Series.index (hourlyS d0 n fun _ _ => (0 : K)) := by
    rw [hourlyS_index, hourlyS_index]
  rw [hidx] at ha
  simp only [bind, Except.bind, hm] at ha
  injection ha with ha
  injection ha with ha1 ha2
  refine ⟨hl, hcell, w, blockEntry 24 (hourlyFromQuarter (quarterHours (levels.getLastD []))), hz, hlev, ?_, ?_⟩
  · simp only [← ha2, restoreMissing_hourly]
  · intro i hi x hx
    have hwi : w[i]? = some x := (z2 i (v i) (by simp [hi])).2.1 x hx
    obtain ⟨_, b2⟩ := hh.block hwi
    have hle : 24 * i + 24 ≤ (hourlyFromQuarter (quarterHours (levels.getLastD []))).length := by rw [hlen]; omega
    rw [block_eq_map 24 _ i hle] at b2
    refine ⟨b2, ?_⟩
    intro h h24
    apply hh.nonneg
    unfold blockEntry
    rw [List.getD_eq_getElem?_getD, List.getElem?_eq_getElem (by omega)]
    exact List.getElem_mem _

end Melodist
