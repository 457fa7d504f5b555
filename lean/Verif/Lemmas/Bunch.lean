import Verif.Spec.Bunch
import Verif.Lemmas.Humidity

/-!
# Lemmas on the Bunch heap
-/

set_option linter.unusedSectionVars false

namespace Melodist.Bunch

open Spec

/-! ## Association lists -/

theorem lookup_store_self (k : Key) (v : Val) (d : Items) : lookup k (store k v d) = some v := by
  induction d with
  | nil => simp [store, lookup]
  | cons e r ih =>
    obtain ⟨k', v'⟩ := e
    by_cases h : k' = k
    · simp [store, lookup, h]
    · simp [store, lookup, h, ih]

theorem lookup_store_ne {k k' : Key} (hk : k' ≠ k) (v : Val) (d : Items) :
    lookup k' (store k v d) = lookup k' d := by
  induction d with
  | nil => simp [store, lookup, Ne.symm hk]
  | cons e r ih =>
    obtain ⟨a, b⟩ := e
    by_cases h : a = k
    · subst h; simp [store, lookup, Ne.symm hk]
    · by_cases h' : a = k'
      · subst h'; simp [store, lookup, h]
      · simp [store, lookup, h, h', ih]

theorem lookup_none {k : Key} {d : Items} : lookup k d = none ↔ k ∉ d.map (·.1) := by
  induction d with
  | nil => simp [lookup]
  | cons e r ih =>
    obtain ⟨a, b⟩ := e
    by_cases h : a = k
    · simp [lookup, h]
    · simp [lookup, h, ih, Ne.symm h]

theorem lookup_discard_self {k : Key} {d : Items} (hd : (d.map (·.1)).Nodup) :
    lookup k (discard k d) = none := by
  induction d with
  | nil => simp [discard, lookup]
  | cons e r ih =>
    obtain ⟨a, b⟩ := e
    rw [List.map_cons, List.nodup_cons] at hd
    by_cases h : a = k
    · subst h; simp only [discard, if_true]; exact lookup_none.2 hd.1
    · simp [discard, lookup, h, ih hd.2]

theorem lookup_discard_ne {k k' : Key} (hk : k' ≠ k) (d : Items) : lookup k' (discard k d) = lookup k' d := by
  induction d with
  | nil => simp [discard]
  | cons e r ih =>
    obtain ⟨a, b⟩ := e
    by_cases h : a = k
    · subst h; simp [discard, lookup, Ne.symm hk]
    · by_cases h' : a = k'
      · subst h'; simp [discard, lookup, h]
      · simp [discard, lookup, h, h', ih]

theorem store_keys (k : Key) (v : Val) (d : Items) :
    (store k v d).map (·.1) = if k ∈ d.map (·.1) then d.map (·.1) else d.map (·.1) ++ [k] := by
  induction d with
  | nil => simp [store]
  | cons e r ih =>
    obtain ⟨a, b⟩ := e
    by_cases h : a = k
    · subst h; simp [store]
    · by_cases h' : k ∈ r.map (·.1)
      · rw [if_pos h'] at ih; simp only [store, h, if_false, List.map_cons, ih]
        rw [if_pos (by simp only [List.mem_cons]; exact Or.inr h')]
      · rw [if_neg h'] at ih; simp only [store, h, if_false, List.map_cons, ih]
        rw [if_neg (by simp only [List.mem_cons, not_or]; exact ⟨Ne.symm h, h'⟩)]; rfl

theorem store_nodup {k : Key} {v : Val} {d : Items} (hd : (d.map (·.1)).Nodup) : ((store k v d).map (·.1)).Nodup := by
  rw [store_keys]
  split
  · exact hd
  · rename_i h
    rw [List.nodup_append]
    exact ⟨hd, by simp, by intro a ha b hb; rw [List.mem_singleton] at hb; rintro rfl; exact h (hb ▸ ha)⟩

theorem mem_store {k : Key} {v : Val} {d : Items} {e : Key × Val} (he : e ∈ store k v d) : e = (k, v) ∨ e ∈ d := by
  induction d with
  | nil => simp [store] at he; exact Or.inl he
  | cons a r ih =>
    obtain ⟨a, b⟩ := a
    by_cases h : a = k
    · simp only [store, h, if_true, List.mem_cons] at he
      rcases he with he | he
      · exact Or.inl he
      · exact Or.inr (List.mem_cons_of_mem _ he)
    · simp only [store, h, if_false, List.mem_cons] at he
      rcases he with he | he
      · exact Or.inr (he ▸ List.mem_cons_self ..)
      · rcases ih he with he | he
        · exact Or.inl he
        · exact Or.inr (List.mem_cons_of_mem _ he)

theorem discard_sublist (k : Key) (d : Items) : (discard k d).Sublist d := by
  induction d with
  | nil => exact List.Sublist.refl _
  | cons a r ih =>
    obtain ⟨a, b⟩ := a
    by_cases h : a = k
    · simp only [discard, h, if_true]; exact List.sublist_cons_self _ _
    · simp only [discard, h, if_false]; exact ih.cons_cons _

/-! ## Well-formed heaps -/

/-- Every Bunch is its own instance dictionary, keys are unique, references point to objects. -/
structure WF (h : Heap) : Prop where
  self : ∀ (i : Nat) (o : Obj), h[i]? = some o → o.kind = .bunch → o.ns = i
  nodup : ∀ (i : Nat) (o : Obj), h[i]? = some o → (o.items.map (·.1)).Nodup
  refs : ∀ (i : Nat) (o : Obj), h[i]? = some o → ∀ e ∈ o.items, valid h e.2 = true

/-- `h'` has the objects of `h`, unchanged, and possibly more. -/
structure Ext (h h' : Heap) : Prop where
  len : h.length ≤ h'.length
  same : ∀ a : Nat, a < h.length → h'[a]? = h[a]?

theorem Ext.refl (h : Heap) : Ext h h := ⟨le_rfl, fun _ _ => rfl⟩

theorem Ext.trans {a b c : Heap} (h1 : Ext a b) (h2 : Ext b c) : Ext a c :=
  ⟨h1.len.trans h2.len, fun i hi => (h2.same i (hi.trans_le h1.len)).trans (h1.same i hi)⟩

theorem Ext.append (h : Heap) (l : List Obj) : Ext h (h ++ l) :=
  ⟨by simp, fun a ha => List.getElem?_append_left ha⟩

theorem Ext.get {h h' : Heap} (hx : Ext h h') {i : Nat} {o : Obj} (ho : h[i]? = some o) : h'[i]? = some o := by
  rw [hx.same i (List.getElem?_eq_some_iff.1 ho).1, ho]

theorem change_length (h : Heap) (i : Nat) (f : Obj → Obj) : (change h i f).length = h.length := by
  simp [change]

theorem change_ne {h : Heap} {i j : Nat} (hij : j ≠ i) (f : Obj → Obj) : (change h i f)[j]? = h[j]? := by
  simp [change, List.getElem?_modify, Ne.symm hij]

theorem change_self {h : Heap} {i : Nat} (f : Obj → Obj) : (change h i f)[i]? = (h[i]?).map f := by
  simp [change, List.getElem?_modify]

theorem Ext.change {h h' : Heap} (hx : Ext h h') {j : Nat} (hj : h.length ≤ j) (f : Obj → Obj) :
    Ext h (Bunch.change h' j f) :=
  ⟨by rw [change_length]; exact hx.len, fun a ha => by
    rw [change_ne (by omega)]; exact hx.same a ha⟩

theorem valid_mono {h h' : Heap} (hl : h.length ≤ h'.length) {v : Val} (hv : valid h v = true) : valid h' v = true := by
  cases v with
  | atom n => rfl
  | ref i => simp only [valid, decide_eq_true_eq] at hv ⊢; omega

theorem WF.nil : WF [] := ⟨by simp, by simp, by simp⟩

theorem WF.append {h : Heap} (hw : WF h) {o : Obj} (hk : o.kind = .bunch → o.ns = h.length)
    (hn : (o.items.map (·.1)).Nodup) (hr : ∀ e ∈ o.items, valid (h ++ [o]) e.2 = true) : WF (h ++ [o]) := by
  have key : ∀ i p, (h ++ [o])[i]? = some p → h[i]? = some p ∨ (i = h.length ∧ p = o) := by
    intro i p hp
    rw [List.getElem?_append] at hp
    split at hp
    · exact Or.inl hp
    · rename_i hi
      rw [List.getElem?_eq_some_iff] at hp
      obtain ⟨h1, h2⟩ := hp
      simp only [List.length_singleton] at h1
      have : i = h.length := by omega
      subst this
      refine Or.inr ⟨rfl, ?_⟩
      simpa using h2.symm
  constructor
  · intro i p hp hb
    rcases key i p hp with hp | ⟨rfl, rfl⟩
    · exact hw.self i p hp hb
    · exact hk hb
  · intro i p hp
    rcases key i p hp with hp | ⟨rfl, rfl⟩
    · exact hw.nodup i p hp
    · exact hn
  · intro i p hp e he
    rcases key i p hp with hp | ⟨rfl, rfl⟩
    · exact valid_mono (by simp) (hw.refs i p hp e he)
    · exact hr e he

theorem WF.change {h : Heap} (hw : WF h) {i : Nat} {f : Obj → Obj}
    (hk : ∀ o, h[i]? = some o → (f o).kind = .bunch → (f o).ns = i)
    (hn : ∀ o, h[i]? = some o → ((f o).items.map (·.1)).Nodup)
    (hr : ∀ o, h[i]? = some o → ∀ e ∈ (f o).items, valid h e.2 = true) : WF (Bunch.change h i f) := by
  have key : ∀ j p, (Bunch.change h i f)[j]? = some p → h[j]? = some p ∨ (j = i ∧ ∃ o, h[i]? = some o ∧ p = f o) := by
    intro j p hp
    by_cases hj : j = i
    · subst hj
      rw [change_self, Option.map_eq_some_iff] at hp
      obtain ⟨o, ho, rfl⟩ := hp
      exact Or.inr ⟨rfl, o, ho, rfl⟩
    · rw [change_ne hj] at hp; exact Or.inl hp
  have hlen : h.length ≤ (Bunch.change h i f).length := (change_length ..).ge
  constructor
  · intro j p hp hb
    rcases key j p hp with hp | ⟨rfl, o, ho, rfl⟩
    · exact hw.self j p hp hb
    · exact hk o ho hb
  · intro j p hp
    rcases key j p hp with hp | ⟨rfl, o, ho, rfl⟩
    · exact hw.nodup j p hp
    · exact hn o ho
  · intro j p hp e he
    rcases key j p hp with hp | ⟨rfl, o, ho, rfl⟩
    · exact valid_mono hlen (hw.refs j p hp e he)
    · exact valid_mono hlen (hr o ho e he)

/-! ## Creating Bunches -/

theorem init_eq (h : Heap) {kw : Items} (hk : kw.all (fun e => keywordOk e.1) = true) :
    init h kw = .ok (h ++ [⟨.dict, [], 0⟩] ++ [⟨.bunch, kw, h.length + 1⟩], h.length + 1) := by
  have e : ∀ (x : Obj) (f : Obj → Obj), Bunch.change (h ++ [⟨.dict, [], 0⟩, x]) (h.length + 1) f =
      h ++ [⟨.dict, [], 0⟩, f x] := by
    intro x f
    apply List.ext_getElem?
    intro j
    by_cases hj : j = h.length + 1
    · subst hj
      rw [change_self, List.getElem?_append_right (by omega), List.getElem?_append_right (by omega)]
      simp
    · rw [change_ne hj]
      simp only [List.getElem?_append]
      split
      · rfl
      · have hc : j - h.length = 0 ∨ 2 ≤ j - h.length := by omega
        rcases hc with hc | hc
        · simp [hc]
        · rw [List.getElem?_eq_none (by simpa using hc), List.getElem?_eq_none (by simpa using hc)]
  unfold init
  rw [if_pos hk]
  dsimp only
  rw [e, e]
  simp

theorem init_bad (h : Heap) {kw : Items} (hk : kw.all (fun e => keywordOk e.1) = false) :
    init h kw = .error .typeError := by
  unfold init; rw [if_neg (by rw [hk]; simp)]

theorem init_inv {h : Heap} {kw : Items} {r : Heap × Nat} (hr : init h kw = .ok r) :
    kw.all (fun e => keywordOk e.1) = true ∧
      r = (h ++ [⟨.dict, [], 0⟩] ++ [⟨.bunch, kw, h.length + 1⟩], h.length + 1) := by
  by_cases hk : kw.all (fun e => keywordOk e.1) = true
  · rw [init_eq h hk] at hr; exact ⟨hk, (Except.ok.inj hr).symm⟩
  · rw [init_bad h (by simpa using hk)] at hr; exact absurd hr (by simp)

theorem WF.init {h : Heap} (hw : WF h) {kw : Items} (hn : (kw.map (·.1)).Nodup)
    (hr : ∀ e ∈ kw, valid h e.2 = true) :
    WF (h ++ [⟨.dict, [], 0⟩] ++ [⟨.bunch, kw, h.length + 1⟩]) := by
  refine WF.append (WF.append hw ?_ ?_ ?_) ?_ hn ?_
  · intro hb; exact absurd hb (by simp)
  · simp
  · simp
  · intro _; simp
  · intro e he
    exact valid_mono (by simp only [List.length_append, List.length_singleton]; omega) (hr e he)

theorem ext_init (h : Heap) (kw : Items) :
    Ext h (h ++ [⟨.dict, [], 0⟩] ++ [⟨.bunch, kw, h.length + 1⟩]) :=
  (Ext.append h _).trans (Ext.append _ _)

theorem get_init (h : Heap) (kw : Items) :
    (h ++ [⟨.dict, [], 0⟩] ++ [⟨.bunch, kw, h.length + 1⟩] : Heap)[h.length + 1]? =
      some ⟨.bunch, kw, h.length + 1⟩ := by
  rw [List.getElem?_append_right (by simp)]; simp

/-! ## Deep copies: structure -/

theorem mapItems_cons {f : Heap → Memo → Val → Py (Heap × Memo × Val)} {h : Heap} {m : Memo} {k : Key} {v : Val}
    {r : Items} {h' : Heap} {m' : Memo} {l : Items} (hr : mapItems f h m ((k, v) :: r) = .ok (h', m', l)) :
    ∃ h1 m1 v1 l1, f h m v = .ok (h1, m1, v1) ∧ mapItems f h1 m1 r = .ok (h', m', l1) ∧ l = (k, v1) :: l1 := by
  unfold mapItems at hr
  obtain ⟨⟨h1, m1, v1⟩, e1, hr⟩ := py_bind_inv hr
  obtain ⟨⟨h2, m2, l1⟩, e2, hr⟩ := py_bind_inv hr
  injection hr with hr
  simp only [Prod.mk.injEq] at hr
  obtain ⟨rfl, rfl, rfl⟩ := hr
  exact ⟨h1, m1, v1, l1, e1, e2, rfl⟩

theorem deep_bunch {fuel : Nat} {h : Heap} {m : Memo} {i : Nat} {o : Obj} (hm : m.lookup i = none)
    (ho : h[i]? = some o) (hk : o.kind = .bunch) :
    deep (fuel + 1) h m (.ref i) = (do
          let (h, _, items) ← mapItems (deep fuel) h [] o.items
          let (h, j) ← init h items
          .ok (h, (i, j) :: m, .ref j)) := by
  rw [deep]; simp only [hm, ho, hk]

theorem deep_other {fuel : Nat} {h : Heap} {m : Memo} {i : Nat} {o : Obj} (hm : m.lookup i = none)
    (ho : h[i]? = some o) (hk : o.kind ≠ .bunch) :
    deep (fuel + 1) h m (.ref i) = (do
          let (h', m', items) ← mapItems (deep fuel) (h ++ [⟨o.kind, [], 0⟩]) ((i, h.length) :: m) o.items
          .ok (change h' h.length fun o => { o with items := items }, m', .ref h.length)) := by
  rw [deep]; simp only [hm, ho]

/-- The ways in which a deep copy can succeed. -/
theorem deep_inv {fuel : Nat} {h : Heap} {m : Memo} {v : Val} {h' : Heap} {m' : Memo} {v' : Val}
    (hd : deep fuel h m v = .ok (h', m', v')) :
    (∃ n, v = .atom n ∧ h' = h ∧ m' = m ∧ v' = .atom n) ∨
    (∃ i j, v = .ref i ∧ m.lookup i = some j ∧ h' = h ∧ m' = m ∧ v' = .ref j) ∨
    (∃ fuel' i o h1 m1 items, fuel = fuel' + 1 ∧ v = .ref i ∧ m.lookup i = none ∧ h[i]? = some o ∧ o.kind = .bunch ∧
      mapItems (deep fuel') h [] o.items = .ok (h1, m1, items) ∧
      items.all (fun e => keywordOk e.1) = true ∧
      h' = h1 ++ [⟨.dict, [], 0⟩] ++ [⟨.bunch, items, h1.length + 1⟩] ∧ m' = (i, h1.length + 1) :: m ∧
      v' = .ref (h1.length + 1)) ∨
    (∃ fuel' i o h1 items, fuel = fuel' + 1 ∧ v = .ref i ∧ m.lookup i = none ∧ h[i]? = some o ∧ o.kind ≠ .bunch ∧
      mapItems (deep fuel') (h ++ [⟨o.kind, [], 0⟩]) ((i, h.length) :: m) o.items = .ok (h1, m', items) ∧
      h' = change h1 h.length (fun o => { o with items := items }) ∧ v' = .ref h.length) := by
  cases v with
  | atom n =>
    have e : deep fuel h m (.atom n) = .ok (h, m, .atom n) := by unfold deep; rfl
    rw [e] at hd
    injection hd with hd
    simp only [Prod.mk.injEq] at hd
    exact Or.inl ⟨n, rfl, hd.1.symm, hd.2.1.symm, hd.2.2.symm⟩
  | ref i =>
    cases fuel with
    | zero => rw [deep] at hd; exact absurd hd (by simp)
    | succ fuel =>
      right
      cases hm : m.lookup i with
      | some j =>
        rw [deep] at hd; simp only [hm] at hd
        injection hd with hd
        simp only [Prod.mk.injEq] at hd
        exact Or.inl ⟨i, j, rfl, hm, hd.1.symm, hd.2.1.symm, hd.2.2.symm⟩
      | none =>
        right
        cases ho : h[i]? with
        | none => rw [deep] at hd; simp only [hm, ho] at hd; exact absurd hd (by simp)
        | some o =>
          by_cases hk : o.kind = .bunch
          · left
            rw [deep_bunch hm ho hk] at hd
            obtain ⟨⟨h1, m1, items⟩, e1, hd⟩ := py_bind_inv hd
            obtain ⟨⟨h2, j⟩, e2, hd⟩ := py_bind_inv hd
            obtain ⟨hkw, e3⟩ := init_inv e2
            simp only [Prod.mk.injEq] at e3
            injection hd with hd
            simp only [Prod.mk.injEq] at hd
            refine ⟨fuel, i, o, h1, m1, items, rfl, rfl, hm, ho, hk, e1, hkw, ?_, ?_, ?_⟩
            · rw [← hd.1, e3.1]
            · rw [← hd.2.1, e3.2]
            · rw [← hd.2.2, e3.2]
          · right
            rw [deep_other hm ho hk] at hd
            obtain ⟨⟨h1, m1, items⟩, e1, hd⟩ := py_bind_inv hd
            injection hd with hd
            simp only [Prod.mk.injEq] at hd
            obtain ⟨hd1, hd2, hd3⟩ := hd
            subst hd2
            exact ⟨fuel, i, o, h1, items, rfl, rfl, hm, ho, hk, e1, hd1.symm, hd3.symm⟩

/-- Deep copies leave the objects that exist as they are. -/
theorem deep_ext (fuel : Nat) : ∀ {h : Heap} {m : Memo} {v : Val} {h' : Heap} {m' : Memo} {v' : Val},
    deep fuel h m v = .ok (h', m', v') → Ext h h' := by
  induction fuel with
  | zero =>
    intro h m v h' m' v' hd
    rcases deep_inv hd with ⟨n, rfl, rfl, rfl, rfl⟩ | ⟨i, j, rfl, -, rfl, rfl, rfl⟩ | ⟨f, i, o, h1, m1, items, hf, -⟩ |
      ⟨f, i, o, h1, items, hf, -⟩
    · exact Ext.refl _
    · exact Ext.refl _
    · omega
    · omega
  | succ fuel ih =>
    have im : ∀ (l : Items) {h : Heap} {m : Memo} {h' : Heap} {m' : Memo} {l' : Items},
        mapItems (deep fuel) h m l = .ok (h', m', l') → Ext h h' := by
      intro l
      induction l with
      | nil =>
        intro h m h' m' l' hd
        unfold mapItems at hd
        injection hd with hd
        simp only [Prod.mk.injEq] at hd
        rw [← hd.1]; exact Ext.refl _
      | cons e r ihl =>
        intro h m h' m' l' hd
        obtain ⟨h1, m1, v1, l1, e1, e2, -⟩ := mapItems_cons hd
        exact (ih e1).trans (ihl e2)
    intro h m v h' m' v' hd
    rcases deep_inv hd with ⟨n, rfl, rfl, rfl, rfl⟩ | ⟨i, j, rfl, -, rfl, rfl, rfl⟩ |
      ⟨f, i, o, h1, m1, items, hf, -, -, -, -, e1, -, rfl, -⟩ |
      ⟨f, i, o, h1, items, hf, -, -, -, -, e1, rfl, -⟩
    · exact Ext.refl _
    · exact Ext.refl _
    · obtain rfl : fuel = f := by omega
      exact (im _ e1).trans (ext_init _ _)
    · obtain rfl : fuel = f := by omega
      exact ((Ext.append h _).trans (im _ e1)).change le_rfl _

/-- Deep copies keep heaps well-formed. -/
theorem deep_wf (fuel : Nat) : ∀ {h : Heap} {m : Memo} {v : Val} {h' : Heap} {m' : Memo} {v' : Val},
    deep fuel h m v = .ok (h', m', v') → WF h → (∀ i j, m.lookup i = some j → j < h.length) → valid h v = true →
    WF h' ∧ (∀ i j, m'.lookup i = some j → j < h'.length) ∧ valid h' v' = true := by
  induction fuel with
  | zero =>
    intro h m v h' m' v' hd hw hm hv
    rcases deep_inv hd with ⟨n, rfl, rfl, rfl, rfl⟩ | ⟨i, j, rfl, hj, rfl, rfl, rfl⟩ | ⟨f, i, o, h1, m1, items, hf, -⟩ |
      ⟨f, i, o, h1, items, hf, -⟩
    · exact ⟨hw, hm, hv⟩
    · exact ⟨hw, hm, by simp only [valid, decide_eq_true_eq]; exact hm i j hj⟩
    · omega
    · omega
  | succ fuel ih =>
    have im : ∀ (l : Items) {h : Heap} {m : Memo} {h' : Heap} {m' : Memo} {l' : Items},
        mapItems (deep fuel) h m l = .ok (h', m', l') → WF h → (∀ i j, m.lookup i = some j → j < h.length) →
        (∀ e ∈ l, valid h e.2 = true) →
        WF h' ∧ (∀ i j, m'.lookup i = some j → j < h'.length) ∧ (∀ e ∈ l', valid h' e.2 = true) ∧
          l'.map (·.1) = l.map (·.1) ∧ Ext h h' := by
      intro l
      induction l with
      | nil =>
        intro h m h' m' l' hd hw hm hv
        unfold mapItems at hd
        injection hd with hd
        simp only [Prod.mk.injEq] at hd
        obtain ⟨rfl, rfl, rfl⟩ := hd
        exact ⟨hw, hm, by simp, rfl, Ext.refl _⟩
      | cons e r ihl =>
        intro h m h' m' l' hd hw hm hv
        obtain ⟨h1, m1, v1, l1, e1, e2, rfl⟩ := mapItems_cons hd
        have x1 := deep_ext fuel e1
        obtain ⟨w1, mm1, vv1⟩ := ih e1 hw hm (hv e (List.mem_cons_self ..))
        obtain ⟨w2, mm2, vv2, hk2, x2⟩ := ihl e2 w1 mm1
          (fun b hb => valid_mono x1.len (hv b (List.mem_cons_of_mem _ hb)))
        refine ⟨w2, mm2, ?_, by simp [hk2], x1.trans x2⟩
        intro b hb
        rcases List.mem_cons.1 hb with rfl | hb
        · exact valid_mono x2.len vv1
        · exact vv2 b hb
    intro h m v h' m' v' hd hw hm hv
    rcases deep_inv hd with ⟨n, rfl, rfl, rfl, rfl⟩ | ⟨i, j, rfl, hj, rfl, rfl, rfl⟩ |
      ⟨f, i, o, h1, m1, items, hf, rfl, hl, ho, hk, e1, hkw, rfl, rfl, rfl⟩ |
      ⟨f, i, o, h1, items, hf, rfl, hl, ho, hk, e1, rfl, rfl⟩
    · exact ⟨hw, hm, hv⟩
    · exact ⟨hw, hm, by simp only [valid, decide_eq_true_eq]; exact hm i j hj⟩
    · obtain rfl : fuel = f := by omega
      obtain ⟨w1, mm1, vv1, hk1, x1⟩ := im _ e1 hw (by simp) (hw.refs i o ho)
      refine ⟨WF.init w1 (hk1 ▸ hw.nodup i o ho) vv1, ?_, ?_⟩
      · intro a b hab
        have xl := x1.len
        rw [List.lookup_cons] at hab
        simp only [List.length_append, List.length_singleton]
        split at hab
        · injection hab with hab; omega
        · have := hm a b hab; omega
      · simp [valid]
    · obtain rfl : fuel = f := by omega
      have w0 : WF (h ++ [⟨o.kind, [], 0⟩]) := WF.append hw (fun hb => absurd hb hk) (by simp) (by simp)
      obtain ⟨w1, mm1, vv1, hk1, x1⟩ := im _ e1 w0 (by
          intro a b hab
          rw [List.lookup_cons] at hab
          simp only [List.length_append, List.length_singleton]
          split at hab
          · injection hab with hab; omega
          · have := hm a b hab; omega)
        (fun e he => valid_mono (by simp) (hw.refs i o ho e he))
      have xl := x1.len
      simp only [List.length_append, List.length_singleton] at xl
      have hget : h1[h.length]? = some ⟨o.kind, [], 0⟩ := x1.get (by simp)
      refine ⟨WF.change w1 ?_ ?_ ?_, ?_, ?_⟩
      · intro p hp hb
        rw [hget] at hp; injection hp with hp; subst hp
        exact absurd hb hk
      · intro p hp; exact hk1 ▸ hw.nodup i o ho
      · intro p hp e he; exact vv1 e he
      · intro a b hab; rw [change_length]; exact mm1 a b hab
      · simp only [valid, decide_eq_true_eq, change_length]; omega

/-! ## Deep copies: correspondence of originals and copies -/

/-- Values that correspond under a relation between originals and copies. -/
def SimVal (G : Nat → Nat → Prop) : Val → Val → Prop
  | .atom n, .atom n' => n = n'
  | .ref a, .ref b => G a b
  | _, _ => False

def SimItems (G : Nat → Nat → Prop) : Items → Items → Prop :=
  List.Forall₂ fun e e' => e.1 = e'.1 ∧ SimVal G e.2 e'.2

theorem SimVal.mono {G G' : Nat → Nat → Prop} (hG : ∀ a b, G a b → G' a b) {v v' : Val} (h : SimVal G v v') :
    SimVal G' v v' := by
  cases v <;> cases v' <;> simp only [SimVal] at h ⊢
  · exact h
  · exact hG _ _ h

theorem SimItems.mono {G G' : Nat → Nat → Prop} (hG : ∀ a b, G a b → G' a b) {l l' : Items} (h : SimItems G l l') :
    SimItems G' l l' := List.Forall₂.imp (fun _ _ he => ⟨he.1, he.2.mono hG⟩) h

theorem SimItems.keys {G : Nat → Nat → Prop} {l l' : Items} (h : SimItems G l l') : l'.map (·.1) = l.map (·.1) := by
  induction h with
  | nil => rfl
  | cons he _ ih => simp only [List.map_cons, ih, he.1]

theorem SimItems.lookup {G : Nat → Nat → Prop} {l l' : Items} (h : SimItems G l l') (k : Key) :
    (lookup k l = none ∧ lookup k l' = none) ∨
      ∃ v v', lookup k l = some v ∧ lookup k l' = some v' ∧ SimVal G v v' := by
  induction h with
  | nil => exact Or.inl ⟨rfl, rfl⟩
  | @cons e e' l l' he _ ih =>
    obtain ⟨a, b⟩ := e
    obtain ⟨a', b'⟩ := e'
    obtain ⟨h1, h2⟩ := he
    dsimp only at h1 h2
    subst h1
    by_cases hk : a = k
    · exact Or.inr ⟨b, b', by simp [Bunch.lookup, hk], by simp [Bunch.lookup, hk], h2⟩
    · simpa [Bunch.lookup, hk] using ih

/-- `G` relates originals in `h0` to new objects in `h`; the copies are complete except for those
in `P`. -/
def Good (h0 : Heap) (G P : Nat → Nat → Prop) (h : Heap) : Prop :=
  ∀ a b, G a b → h0.length ≤ b ∧ b < h.length ∧ (P a b ∨ ∃ o o', h0[a]? = some o ∧ h[b]? = some o' ∧
    o'.kind = o.kind ∧ SimItems G o.items o'.items)

theorem Good.ext {h0 : Heap} {G P : Nat → Nat → Prop} {h h' : Heap} (hg : Good h0 G P h) (hx : Ext h h') :
    Good h0 G P h' := by
  intro a b hab
  obtain ⟨h1, h2, h3⟩ := hg a b hab
  refine ⟨h1, h2.trans_le hx.len, ?_⟩
  rcases h3 with h3 | ⟨o, o', ho, ho', hk, hs⟩
  · exact Or.inl h3
  · exact Or.inr ⟨o, o', ho, hx.get ho', hk, hs⟩

theorem deep_sim (h0 : Heap) (hw0 : WF h0) (fuel : Nat) :
    ∀ {h : Heap} {m : Memo} {v : Val} {h' : Heap} {m' : Memo} {v' : Val} {G P : Nat → Nat → Prop},
    deep fuel h m v = .ok (h', m', v') → Ext h0 h → Good h0 G P h → (∀ i j, m.lookup i = some j → G i j) →
    valid h0 v = true →
    ∃ G', (∀ a b, G a b → G' a b) ∧ (∀ a b, G' a b → G a b ∨ h.length ≤ b) ∧ Good h0 G' P h' ∧
      (∀ i j, m'.lookup i = some j → G' i j) ∧ SimVal G' v v' := by
  induction fuel with
  | zero =>
    intro h m v h' m' v' G P hd hx hg hm hv
    rcases deep_inv hd with ⟨n, rfl, rfl, rfl, rfl⟩ | ⟨i, j, rfl, hj, rfl, rfl, rfl⟩ | ⟨f, i, o, h1, m1, items, hf, -⟩ |
      ⟨f, i, o, h1, items, hf, -⟩
    · exact ⟨G, fun _ _ => id, fun _ _ => Or.inl, hg, hm, rfl⟩
    · exact ⟨G, fun _ _ => id, fun _ _ => Or.inl, hg, hm, hm i j hj⟩
    · omega
    · omega
  | succ fuel ih =>
    have im : ∀ (l : Items) {h : Heap} {m : Memo} {h' : Heap} {m' : Memo} {l' : Items} {G P : Nat → Nat → Prop},
        mapItems (deep fuel) h m l = .ok (h', m', l') → Ext h0 h → Good h0 G P h →
        (∀ i j, m.lookup i = some j → G i j) → (∀ e ∈ l, valid h0 e.2 = true) →
        ∃ G', (∀ a b, G a b → G' a b) ∧ (∀ a b, G' a b → G a b ∨ h.length ≤ b) ∧ Good h0 G' P h' ∧
          (∀ i j, m'.lookup i = some j → G' i j) ∧ SimItems G' l l' ∧ Ext h h' := by
      intro l
      induction l with
      | nil =>
        intro h m h' m' l' G P hd hx hg hm hv
        unfold mapItems at hd
        injection hd with hd
        simp only [Prod.mk.injEq] at hd
        obtain ⟨rfl, rfl, rfl⟩ := hd
        exact ⟨G, fun _ _ => id, fun _ _ => Or.inl, hg, hm, List.Forall₂.nil, Ext.refl _⟩
      | cons e r ihl =>
        intro h m h' m' l' G P hd hx hg hm hv
        obtain ⟨h1, m1, v1, l1, e1, e2, rfl⟩ := mapItems_cons hd
        have x1 := deep_ext fuel e1
        obtain ⟨G1, s1, n1, g1, mm1, sv1⟩ := ih e1 hx hg hm (hv e (List.mem_cons_self ..))
        obtain ⟨G2, s2, n2, g2, mm2, sv2, x2⟩ := ihl e2 (hx.trans x1) g1 mm1
          (fun b hb => hv b (List.mem_cons_of_mem _ hb))
        refine ⟨G2, fun a b hab => s2 a b (s1 a b hab), ?_, g2, mm2, ?_, x1.trans x2⟩
        · intro a b hab
          rcases n2 a b hab with hab | hab
          · exact n1 a b hab
          · exact Or.inr (x1.len.trans hab)
        · exact List.Forall₂.cons ⟨rfl, sv1.mono s2⟩ sv2
    intro h m v h' m' v' G P hd hx hg hm hv
    rcases deep_inv hd with ⟨n, rfl, rfl, rfl, rfl⟩ | ⟨i, j, rfl, hj, rfl, rfl, rfl⟩ |
      ⟨f, i, o, h1, m1, items, hf, rfl, hl, ho, hk, e1, hkw, rfl, rfl, rfl⟩ |
      ⟨f, i, o, h1, items, hf, rfl, hl, ho, hk, e1, rfl, rfl⟩
    · exact ⟨G, fun _ _ => id, fun _ _ => Or.inl, hg, hm, rfl⟩
    · exact ⟨G, fun _ _ => id, fun _ _ => Or.inl, hg, hm, hm i j hj⟩
    · obtain rfl : fuel = f := by omega
      simp only [valid, decide_eq_true_eq] at hv
      have ho0 : h0[i]? = some o := by rw [← hx.same i hv]; exact ho
      obtain ⟨G1, s1, n1, g1, mm1, sv1, x1⟩ := im _ e1 hx hg (by simp) (hw0.refs i o ho0)
      have xl := x1.len
      have xl0 := hx.len
      refine ⟨fun a b => G1 a b ∨ (a = i ∧ b = h1.length + 1), fun a b hab => Or.inl (s1 a b hab), ?_, ?_, ?_, ?_⟩
      · rintro a b (hab | ⟨rfl, rfl⟩)
        · exact n1 a b hab
        · right; omega
      · rintro a b (hab | ⟨rfl, rfl⟩)
        · obtain ⟨q1, q2, q3⟩ := (g1.ext (ext_init h1 items)) a b hab
          refine ⟨q1, q2, ?_⟩
          rcases q3 with q3 | ⟨p, p', hp, hp', hpk, hps⟩
          · exact Or.inl q3
          · exact Or.inr ⟨p, p', hp, hp', hpk, hps.mono fun _ _ => Or.inl⟩
        · refine ⟨by omega, by simp, Or.inr ⟨o, _, ho0, get_init h1 items, hk.symm, ?_⟩⟩
          exact sv1.mono fun _ _ => Or.inl
      · intro a b hab
        rw [List.lookup_cons] at hab
        split at hab
        · rename_i hc
          injection hab with hab
          exact Or.inr ⟨by simpa using hc, hab.symm⟩
        · exact Or.inl (s1 a b (hm a b hab))
      · exact Or.inr ⟨rfl, rfl⟩
    · obtain rfl : fuel = f := by omega
      simp only [valid, decide_eq_true_eq] at hv
      have ho0 : h0[i]? = some o := by rw [← hx.same i hv]; exact ho
      have xl0 := hx.len
      have hgA : Good h0 (fun a b => G a b ∨ (a = i ∧ b = h.length)) (fun a b => P a b ∨ (a = i ∧ b = h.length))
          (h ++ [⟨o.kind, [], 0⟩]) := by
        rintro a b (hab | ⟨rfl, rfl⟩)
        · obtain ⟨q1, q2, q3⟩ := (hg.ext (Ext.append h [⟨o.kind, [], 0⟩])) a b hab
          refine ⟨q1, q2, ?_⟩
          rcases q3 with q3 | ⟨p, p', hp, hp', hpk, hps⟩
          · exact Or.inl (Or.inl q3)
          · exact Or.inr ⟨p, p', hp, hp', hpk, hps.mono fun _ _ => Or.inl⟩
        · exact ⟨xl0, by simp, Or.inl (Or.inr ⟨rfl, rfl⟩)⟩
      obtain ⟨G1, s1, n1, g1, mm1, sv1, x1⟩ := im _ e1 (hx.trans (Ext.append h _)) hgA (by
          intro a b hab
          rw [List.lookup_cons] at hab
          split at hab
          · rename_i hc
            injection hab with hab
            exact Or.inr ⟨by simpa using hc, hab.symm⟩
          · exact Or.inl (hm a b hab)) (hw0.refs i o ho0)
      have hget : h1[h.length]? = some ⟨o.kind, [], 0⟩ := x1.get (by simp)
      refine ⟨G1, fun a b hab => s1 a b (Or.inl hab), ?_, ?_, mm1, s1 _ _ (Or.inr ⟨rfl, rfl⟩)⟩
      · intro a b hab
        rcases n1 a b hab with (hab | ⟨rfl, rfl⟩) | hab
        · exact Or.inl hab
        · exact Or.inr le_rfl
        · right
          simp only [List.length_append, List.length_singleton] at hab
          omega
      · intro a b hab
        obtain ⟨q1, q2, q3⟩ := g1 a b hab
        refine ⟨q1, by rw [change_length]; exact q2, ?_⟩
        by_cases hb : b = h.length
        · subst hb
          have ha : a = i := by
            rcases n1 a _ hab with (hab | ⟨ha, -⟩) | hab
            · exact absurd (hg a _ hab).2.1 (by omega)
            · exact ha
            · simp only [List.length_append, List.length_singleton] at hab
              omega
          subst ha
          refine Or.inr ⟨o, { kind := o.kind, items := items, ns := 0 }, ho0, ?_, rfl, sv1⟩
          rw [change_self, hget]; rfl
        · rcases q3 with (q3 | ⟨-, q3⟩) | ⟨p, p', hp, hp', hpk, hps⟩
          · exact Or.inl q3
          · exact absurd q3 hb
          · exact Or.inr ⟨p, p', hp, by rw [change_ne hb]; exact hp', hpk, hps⟩

/-! ## Programs -/

theorem step_wf {h h' : Heap} {op : Op} (hw : WF h) (hs : step h op = .ok h') : WF h' := by
  have hmap : ∀ {α : Type} {x : Py (Heap × α)}, x.map (·.1) = .ok h' → ∃ a, x = .ok (h', a) := by
    intro α x hx
    cases x with
    | error e => exact absurd hx (by simp [Except.map])
    | ok r => simp only [Except.map, Except.ok.injEq] at hx; exact ⟨r.2, by rw [← hx]⟩
  have hstore : ∀ (i : Nat) (k : Key) (v : Val), valid h v = true →
      WF (Bunch.change h i fun o => { o with items := store k v o.items }) := by
    intro i k v hv
    refine WF.change hw (fun o ho hb => hw.self i o ho hb) (fun o ho => store_nodup (hw.nodup i o ho)) ?_
    intro o ho e he
    rcases mem_store he with rfl | he
    · exact hv
    · exact hw.refs i o ho e he
  have hdisc : ∀ (i : Nat) (k : Key), WF (Bunch.change h i fun o => { o with items := discard k o.items }) := by
    intro i k
    refine WF.change hw (fun o ho hb => hw.self i o ho hb)
      (fun o ho => (hw.nodup i o ho).sublist ((discard_sublist k o.items).map _)) ?_
    intro o ho e he
    exact hw.refs i o ho e ((discard_sublist k o.items).subset he)
  cases op with
  | newBunch kw =>
    simp only [step] at hs
    split at hs
    · rename_i hc
      obtain ⟨a, ha⟩ := hmap hs
      obtain ⟨-, he⟩ := init_inv ha
      simp only [Prod.mk.injEq] at he
      rw [he.1]
      exact WF.init hw hc.2 (by simpa using hc.1)
    · exact absurd hs (by simp)
  | newDict =>
    simp only [step, Except.ok.injEq] at hs
    subst hs
    exact WF.append hw (by simp) (by simp) (by simp)
  | newList vs =>
    simp only [step] at hs
    split at hs
    · rename_i hc
      simp only [Except.ok.injEq] at hs
      subst hs
      refine WF.append hw (by simp) ?_ ?_
      · dsimp only
        rw [List.map_map]
        have : ((fun e : Key × Val => e.1) ∘ fun e : Val × Nat => ((Key.num e.2, e.1) : Key × Val)) =
            (fun n : Nat => Key.num n) ∘ (fun e : Val × Nat => e.2) := rfl
        rw [this, ← List.map_map, List.zipIdx_map_snd]
        exact (List.nodup_range' ).map (fun a b hab => by simpa using hab)
      · intro e he
        dsimp only at he
        obtain ⟨x, hx, rfl⟩ := List.mem_map.1 he
        have := List.fst_mem_of_mem_zipIdx hx
        exact valid_mono (by simp) (List.all_eq_true.1 hc _ this)
    · exact absurd hs (by simp)
  | setAttr i name v =>
    simp only [step] at hs
    split at hs
    · rename_i hv
      unfold Bunch.setAttr at hs
      split at hs
      · exact absurd hs (by simp)
      · split at hs
        · exact absurd hs (by simp)
        · simp only [Except.ok.injEq] at hs
          subst hs
          exact hstore _ _ _ hv
    · exact absurd hs (by simp)
  | delAttr i name =>
    simp only [step] at hs
    unfold Bunch.delAttr at hs
    split at hs
    · exact absurd hs (by simp)
    · split at hs
      · exact absurd hs (by simp)
      · split at hs
        · exact absurd hs (by simp)
        · split at hs
          · exact absurd hs (by simp)
          · simp only [Except.ok.injEq] at hs
            subst hs
            exact hdisc _ _
  | setItem i k v =>
    simp only [step] at hs
    split at hs
    · rename_i hv
      unfold Bunch.setItem at hs
      split at hs
      · exact absurd hs (by simp)
      · split at hs
        · exact absurd hs (by simp)
        · simp only [Except.ok.injEq] at hs
          subst hs
          exact hstore _ _ _ hv
    · exact absurd hs (by simp)
  | delItem i k =>
    simp only [step] at hs
    unfold Bunch.delItem at hs
    split at hs
    · exact absurd hs (by simp)
    · split at hs
      · exact absurd hs (by simp)
      · split at hs
        · exact absurd hs (by simp)
        · simp only [Except.ok.injEq] at hs
          subst hs
          exact hdisc _ _
  | copy i =>
    obtain ⟨a, ha⟩ := hmap hs
    unfold Bunch.copy at ha
    split at ha
    · exact absurd ha (by simp)
    · rename_i o ho
      split at ha
      · obtain ⟨-, he⟩ := init_inv ha
        simp only [Prod.mk.injEq] at he
        rw [he.1]
        exact WF.init hw (hw.nodup i o ho) (hw.refs i o ho)
      · exact absurd ha (by simp)
  | deepcopy limit v =>
    obtain ⟨a, ha⟩ := hmap hs
    unfold Bunch.deepcopy at ha
    obtain ⟨⟨h1, m1, v1⟩, e1, ha⟩ := py_bind_inv ha
    simp only [Except.ok.injEq, Prod.mk.injEq] at ha
    obtain ⟨rfl, rfl⟩ := ha
    by_cases hv : valid h v = true
    · exact (deep_wf limit e1 hw (by simp) hv).1
    · exfalso
      rcases deep_inv e1 with ⟨n, rfl, -⟩ | ⟨i, j, -, hj, -⟩ | ⟨f, i, o, _, _, _, -, rfl, -, ho, -⟩ |
        ⟨f, i, o, _, _, -, rfl, -, ho, -⟩
      · exact hv rfl
      · exact absurd hj (by simp)
      · exact hv (by simp only [valid, decide_eq_true_eq]; exact (List.getElem?_eq_some_iff.1 ho).1)
      · exact hv (by simp only [valid, decide_eq_true_eq]; exact (List.getElem?_eq_some_iff.1 ho).1)

theorem run_wf (ops : List Op) : ∀ {h : Heap}, WF h → WF (run h ops) := by
  induction ops with
  | nil => exact fun hw => hw
  | cons op r ih =>
    intro h hw
    unfold run
    cases hs : step h op with
    | error e => exact ih hw
    | ok h' => exact ih (step_wf hw hs)

/-- An operation changes at most the object it writes to. -/
theorem step_frame {h h' : Heap} {op : Op} (hw : WF h) (hs : step h op = .ok h') {a : Nat} (ha : a < h.length)
    (hn : writes op ≠ some a) : h'[a]? = h[a]? ∧ h.length ≤ h'.length := by
  have hmap : ∀ {α : Type} {x : Py (Heap × α)}, x.map (·.1) = .ok h' → ∃ a, x = .ok (h', a) := by
    intro α x hx
    cases x with
    | error e => exact absurd hx (by simp [Except.map])
    | ok r => simp only [Except.map, Except.ok.injEq] at hx; exact ⟨r.2, by rw [← hx]⟩
  have hext : Ext h h' → h'[a]? = h[a]? ∧ h.length ≤ h'.length := fun hx => ⟨hx.same a ha, hx.len⟩
  have hch : ∀ {i : Nat} {f : Obj → Obj}, i ≠ a → (Bunch.change h i f)[a]? = h[a]? ∧ h.length ≤ (Bunch.change h i f).length :=
    fun hia => ⟨change_ne (Ne.symm hia) _, (change_length ..).ge⟩
  cases op with
  | newBunch kw =>
    simp only [step] at hs
    split at hs
    · obtain ⟨b, hb⟩ := hmap hs
      obtain ⟨-, he⟩ := init_inv hb
      simp only [Prod.mk.injEq] at he
      rw [he.1] at hext ⊢
      exact hext (ext_init _ _)
    · exact absurd hs (by simp)
  | newDict =>
    simp only [step, Except.ok.injEq] at hs
    subst hs
    exact hext (Ext.append _ _)
  | newList vs =>
    simp only [step] at hs
    split at hs
    · simp only [Except.ok.injEq] at hs
      subst hs
      exact hext (Ext.append _ _)
    · exact absurd hs (by simp)
  | setAttr i name v =>
    simp only [step] at hs
    split at hs
    · unfold Bunch.setAttr at hs
      split at hs
      · exact absurd hs (by simp)
      · rename_i o ho
        split at hs
        · exact absurd hs (by simp)
        · rename_i hc
          simp only [Except.ok.injEq] at hs
          subst hs
          refine hch ?_
          rw [hw.self i o ho (by by_contra hk; exact hc (Or.inl hk))]
          exact fun e => hn (by simp [writes, e])
    · exact absurd hs (by simp)
  | delAttr i name =>
    simp only [step] at hs
    unfold Bunch.delAttr at hs
    split at hs
    · exact absurd hs (by simp)
    · rename_i o ho
      split at hs
      · exact absurd hs (by simp)
      · rename_i hc
        split at hs
        · exact absurd hs (by simp)
        · split at hs
          · exact absurd hs (by simp)
          · simp only [Except.ok.injEq] at hs
            subst hs
            refine hch ?_
            rw [hw.self i o ho (by by_contra hk; exact hc (Or.inl hk))]
            exact fun e => hn (by simp [writes, e])
  | setItem i k v =>
    simp only [step] at hs
    split at hs
    · unfold Bunch.setItem at hs
      split at hs
      · exact absurd hs (by simp)
      · split at hs
        · exact absurd hs (by simp)
        · simp only [Except.ok.injEq] at hs
          subst hs
          exact hch fun e => hn (by simp [writes, e])
    · exact absurd hs (by simp)
  | delItem i k =>
    simp only [step] at hs
    unfold Bunch.delItem at hs
    split at hs
    · exact absurd hs (by simp)
    · split at hs
      · exact absurd hs (by simp)
      · split at hs
        · exact absurd hs (by simp)
        · simp only [Except.ok.injEq] at hs
          subst hs
          exact hch fun e => hn (by simp [writes, e])
  | copy i =>
    obtain ⟨b, hb⟩ := hmap hs
    unfold Bunch.copy at hb
    split at hb
    · exact absurd hb (by simp)
    · split at hb
      · obtain ⟨-, he⟩ := init_inv hb
        simp only [Prod.mk.injEq] at he
        rw [he.1] at hext ⊢
        exact hext (ext_init _ _)
      · exact absurd hb (by simp)
  | deepcopy limit v =>
    obtain ⟨b, hb⟩ := hmap hs
    unfold Bunch.deepcopy at hb
    obtain ⟨⟨h1, m1, v1⟩, e1, hb⟩ := py_bind_inv hb
    simp only [Except.ok.injEq, Prod.mk.injEq] at hb
    obtain ⟨rfl, rfl⟩ := hb
    exact hext (deep_ext limit e1)

theorem run_frame (ops : List Op) : ∀ {h : Heap} {a : Nat}, WF h → a < h.length →
    (∀ op ∈ ops, writes op ≠ some a) → (run h ops)[a]? = h[a]? := by
  induction ops with
  | nil => intros; rfl
  | cons op r ih =>
    intro h a hw ha hn
    unfold run
    cases hs : step h op with
    | error e => exact ih hw ha fun o ho => hn o (List.mem_cons_of_mem _ ho)
    | ok h' =>
      obtain ⟨h1, h2⟩ := step_frame hw hs ha (hn op (List.mem_cons_self ..))
      rw [Except.toOption, Option.getD_some,
        ih (step_wf hw hs) (ha.trans_le h2) fun o ho => hn o (List.mem_cons_of_mem _ ho)]
      exact h1

/-! ## Reading from related values -/

/-- A relation between the objects of two heaps under which nothing can be told apart. -/
def Bisim (h h' : Heap) (G : Nat → Nat → Prop) : Prop :=
  ∀ a b, G a b → ∃ o o', h[a]? = some o ∧ h'[b]? = some o' ∧ o'.kind = o.kind ∧ SimItems G o.items o'.items

theorem Bisim.look {h h' : Heap} {G : Nat → Nat → Prop} (hb : Bisim h h' G) (p : List Key) :
    ∀ {v v' : Val}, SimVal G v v' → look h' v' p = look h v p ∧
      (∀ j, reach h' v' p = some (.ref j) → ∃ i, G i j) := by
  induction p with
  | nil =>
    intro v v' hv
    cases v with
    | atom n =>
      cases v' with
      | atom n' => simp only [SimVal] at hv; subst hv; exact ⟨rfl, by simp [reach]⟩
      | ref j => exact absurd hv (by simp [SimVal])
    | ref i =>
      cases v' with
      | atom n' => exact absurd hv (by simp [SimVal])
      | ref j =>
        obtain ⟨o, o', ho, ho', hk, hs⟩ := hb i j hv
        refine ⟨?_, ?_⟩
        · simp only [Spec.look, reach, Option.map_some, shape, ho, ho', hk, hs.keys]
        · intro j' hj'; simp only [reach, Option.some.injEq, Val.ref.injEq] at hj'
          exact ⟨i, hj' ▸ hv⟩
  | cons k p ih =>
    intro v v' hv
    cases v with
    | atom n =>
      cases v' with
      | atom n' => exact ⟨rfl, by simp [reach]⟩
      | ref j => exact absurd hv (by simp [SimVal])
    | ref i =>
      cases v' with
      | atom n' => exact absurd hv (by simp [SimVal])
      | ref j =>
        obtain ⟨o, o', ho, ho', hk, hs⟩ := hb i j hv
        rcases hs.lookup k with ⟨l1, l2⟩ | ⟨w, w', l1, l2, hw⟩
        · refine ⟨?_, ?_⟩
          · simp only [Spec.look, reach, itemsOf, ho, ho', Option.map_some, Option.getD_some, l1, l2,
              Option.map_none]
          · intro j' hj'
            simp [reach, itemsOf, ho', l2] at hj'
        · obtain ⟨q1, q2⟩ := ih hw
          refine ⟨?_, ?_⟩
          · simpa only [Spec.look, reach, itemsOf, ho, ho', Option.map_some, Option.getD_some, l1, l2] using q1
          · intro j' hj'
            simp only [reach, itemsOf, ho', Option.map_some, Option.getD_some, l2] at hj'
            exact q2 j' hj'

/-- The objects reached from `v` in `h` are unchanged in `h'`, hence the same is read. -/
theorem look_eq_of_same {h h' : Heap} (p : List Key) : ∀ {v : Val}, valid h v = true → WF h →
    (∀ a, a < h.length → (∃ q, reach h v q = some (.ref a)) → h'[a]? = h[a]?) → look h' v p = look h v p := by
  induction p with
  | nil =>
    intro v hv hw hs
    cases v with
    | atom n => rfl
    | ref i =>
      simp only [valid, decide_eq_true_eq] at hv
      simp only [look, reach, Option.map_some, shape, hs i hv ⟨[], rfl⟩]
  | cons k p ih =>
    intro v hv hw hs
    cases v with
    | atom n => rfl
    | ref i =>
      have hvi := hv
      simp only [valid, decide_eq_true_eq] at hvi
      have hi := hs i hvi ⟨[], rfl⟩
      obtain ⟨o, ho⟩ : ∃ o, h[i]? = some o := ⟨_, List.getElem?_eq_getElem hvi⟩
      cases hl : lookup k o.items with
      | none => simp [look, reach, itemsOf, hi, ho, hl]
      | some w =>
        have hmem : ∀ {d : Items} {w : Val}, lookup k d = some w → (k, w) ∈ d := by
          intro d
          induction d with
          | nil => intro w hx; exact absurd hx (by simp [lookup])
          | cons e r ihd =>
            intro w hx
            obtain ⟨a, b⟩ := e
            by_cases hk : a = k
            · subst hk; simp only [lookup, if_true, Option.some.injEq] at hx; subst hx; exact List.mem_cons_self ..
            · simp only [lookup, hk, if_false] at hx; exact List.mem_cons_of_mem _ (ihd hx)
        have := ih (v := w) (hw.refs i o ho _ (hmem hl)) hw (by
          intro a ha hq
          obtain ⟨q, hq⟩ := hq
          exact hs a ha ⟨k :: q, by simpa [reach, itemsOf, ho, hl] using hq⟩)
        simpa only [look, reach, itemsOf, hi, ho, Option.map_some, Option.getD_some, hl] using this

/-! ## Recursive structures -/

theorem deep_cycle {h0 : Heap} {C : Nat → Prop}
    (hC : ∀ i, C i → ∃ o, h0[i]? = some o ∧ o.kind = .bunch ∧ ∃ e ∈ o.items, ∃ j, e.2 = .ref j ∧ C j) (fuel : Nat) :
    ∀ {h : Heap} {m : Memo} {v : Val} {h' : Heap} {m' : Memo} {v' : Val},
    deep fuel h m v = .ok (h', m', v') → Ext h0 h → (∀ i, C i → m.lookup i = none) →
      (∀ i, C i → m'.lookup i = none) ∧ ∀ i, v = .ref i → ¬ C i := by
  induction fuel with
  | zero =>
    intro h m v h' m' v' hd hx hm
    rcases deep_inv hd with ⟨n, rfl, rfl, rfl, rfl⟩ | ⟨i, j, rfl, hj, rfl, rfl, rfl⟩ | ⟨f, i, o, h1, m1, items, hf, -⟩ |
      ⟨f, i, o, h1, items, hf, -⟩
    · exact ⟨hm, by simp⟩
    · refine ⟨hm, ?_⟩
      intro a ha hc
      injection ha with ha; subst ha
      rw [hm i hc] at hj; exact absurd hj (by simp)
    · omega
    · omega
  | succ fuel ih =>
    have im : ∀ (l : Items) {h : Heap} {m : Memo} {h' : Heap} {m' : Memo} {l' : Items},
        mapItems (deep fuel) h m l = .ok (h', m', l') → Ext h0 h → (∀ i, C i → m.lookup i = none) →
          (∀ i, C i → m'.lookup i = none) ∧ ∀ e ∈ l, ∀ i, e.2 = .ref i → ¬ C i := by
      intro l
      induction l with
      | nil =>
        intro h m h' m' l' hd hx hm
        unfold mapItems at hd
        injection hd with hd
        simp only [Prod.mk.injEq] at hd
        obtain ⟨rfl, rfl, rfl⟩ := hd
        exact ⟨hm, by simp⟩
      | cons e r ihl =>
        intro h m h' m' l' hd hx hm
        obtain ⟨h1, m1, v1, l1, e1, e2, rfl⟩ := mapItems_cons hd
        obtain ⟨mm1, n1⟩ := ih e1 hx hm
        obtain ⟨mm2, n2⟩ := ihl e2 (hx.trans (deep_ext fuel e1)) mm1
        refine ⟨mm2, ?_⟩
        intro b hb
        rcases List.mem_cons.1 hb with rfl | hb
        · exact n1
        · exact n2 b hb
    intro h m v h' m' v' hd hx hm
    rcases deep_inv hd with ⟨n, rfl, rfl, rfl, rfl⟩ | ⟨i, j, rfl, hj, rfl, rfl, rfl⟩ |
      ⟨f, i, o, h1, m1, items, hf, rfl, hl, ho, hk, e1, hkw, rfl, rfl, rfl⟩ |
      ⟨f, i, o, h1, items, hf, rfl, hl, ho, hk, e1, rfl, rfl⟩
    · exact ⟨hm, by simp⟩
    · refine ⟨hm, ?_⟩
      intro a ha hc
      injection ha with ha; subst ha
      rw [hm i hc] at hj; exact absurd hj (by simp)
    · obtain rfl : fuel = f := by omega
      obtain ⟨-, n1⟩ := im _ e1 hx (by simp)
      have hni : ¬ C i := by
        intro hc
        obtain ⟨o', ho', -, e, he, j, hj, hcj⟩ := hC i hc
        rw [hx.get ho'] at ho; injection ho with ho; subst ho
        exact n1 e he j hj hcj
      refine ⟨?_, ?_⟩
      · intro a ha
        rw [List.lookup_cons]
        split
        · rename_i hc
          exact absurd ((by simpa using hc : a = i) ▸ ha) hni
        · exact hm a ha
      · intro a ha; injection ha with ha; exact ha ▸ hni
    · obtain rfl : fuel = f := by omega
      have hni : ¬ C i := by
        intro hc
        obtain ⟨o', ho', hk', -⟩ := hC i hc
        rw [hx.get ho'] at ho; injection ho with ho; subst ho
        exact hk hk'
      obtain ⟨mm, -⟩ := im _ e1 (hx.trans (Ext.append h _)) (by
        intro a ha
        rw [List.lookup_cons]
        split
        · rename_i hc
          exact absurd ((by simpa using hc : a = i) ▸ ha) hni
        · exact hm a ha)
      exact ⟨mm, by intro a ha; injection ha with ha; exact ha ▸ hni⟩

/-- Deep copies succeed within `rank + 1` levels of recursion if references lead to objects of
smaller rank and the keys of the Bunches are fit for keyword arguments. -/
theorem deep_total {h0 : Heap} {rank : Nat → Nat}
    (hr : ∀ (i : Nat) (o : Obj), h0[i]? = some o → ∀ e ∈ o.items, ∀ j, e.2 = .ref j → rank j < rank i)
    (hk : ∀ (i : Nat) (o : Obj), h0[i]? = some o → o.kind = .bunch → o.items.all (fun e => keywordOk e.1) = true)
    (hw0 : WF h0) (fuel : Nat) :
    ∀ {h : Heap} {m : Memo} {v : Val}, Ext h0 h → valid h0 v = true → (∀ i, v = .ref i → rank i < fuel) →
      ∃ r, deep fuel h m v = .ok r := by
  induction fuel with
  | zero =>
    intro h m v hx hv hf
    cases v with
    | atom n => exact ⟨_, by unfold deep; rfl⟩
    | ref i => exact absurd (hf i rfl) (by omega)
  | succ fuel ih =>
    have im : ∀ (l : Items) {h : Heap} {m : Memo}, Ext h0 h → (∀ e ∈ l, valid h0 e.2 = true) →
        (∀ e ∈ l, ∀ i, e.2 = .ref i → rank i < fuel) →
        ∃ h' m' l', mapItems (deep fuel) h m l = .ok (h', m', l') ∧ l'.map (·.1) = l.map (·.1) := by
      intro l
      induction l with
      | nil => intro h m hx hv hf; exact ⟨h, m, [], rfl, rfl⟩
      | cons e r ihl =>
        intro h m hx hv hf
        obtain ⟨k, v⟩ := e
        obtain ⟨⟨h1, m1, v1⟩, e1⟩ := ih (m := m) hx (hv _ (List.mem_cons_self ..)) (hf _ (List.mem_cons_self ..))
        obtain ⟨h2, m2, l2, e2, e3⟩ := ihl (m := m1) (hx.trans (deep_ext fuel e1))
          (fun b hb => hv b (List.mem_cons_of_mem _ hb)) (fun b hb => hf b (List.mem_cons_of_mem _ hb))
        refine ⟨h2, m2, (k, v1) :: l2, ?_, by simp [e3]⟩
        unfold mapItems
        dsimp only at e1
        rw [e1]
        show (mapItems (deep fuel) h1 m1 r >>= _) = _
        rw [e2]
        rfl
    intro h m v hx hv hf
    cases v with
    | atom n => exact ⟨_, by unfold deep; rfl⟩
    | ref i =>
      simp only [valid, decide_eq_true_eq] at hv
      obtain ⟨o, ho0⟩ : ∃ o, h0[i]? = some o := ⟨_, List.getElem?_eq_getElem hv⟩
      have ho := hx.get ho0
      cases hm : m.lookup i with
      | some j => exact ⟨(h, m, .ref j), by rw [deep]; simp only [hm]⟩
      | none =>
        have hfl : ∀ e ∈ o.items, ∀ j, e.2 = .ref j → rank j < fuel := by
          intro e he j hj
          have h1 := hr i o ho0 e he j hj
          have h2 := hf i rfl
          omega
        by_cases hkb : o.kind = .bunch
        · obtain ⟨h1, m1, l1, e1, e2⟩ := im o.items (m := []) hx (hw0.refs i o ho0) hfl
          have hall : l1.all (fun e => keywordOk e.1) = true := by
            have h3 := hk i o ho0 hkb
            have e : ∀ l : Items, l.all (fun e => keywordOk e.1) = (l.map (·.1)).all keywordOk := by
              intro l; rw [List.all_map]; rfl
            rw [e] at h3 ⊢; rw [e2]; exact h3
          rw [deep_bunch hm ho hkb, e1]
          show ∃ r, (init h1 l1 >>= _) = Except.ok r
          rw [init_eq h1 hall]
          exact ⟨_, rfl⟩
        · obtain ⟨h1, m1, l1, e1, e2⟩ := im o.items (m := (i, h.length) :: m)
            (hx.trans (Ext.append h [⟨o.kind, [], 0⟩])) (hw0.refs i o ho0) hfl
          rw [deep_other hm ho hkb, e1]
          exact ⟨_, rfl⟩

end Melodist.Bunch
