import Verif.Lemmas.Bunch

/-!
# C70: a Bunch is one mapping seen two ways

All statements are about heaps `run [] ops` reached by arbitrary programs: sequences of creations,
attribute and item assignments, deletions, copies and deep copies, with exceptions caught.
-/

set_option linter.unusedSectionVars false

namespace Melodist

open Bunch Spec

/-- C70: after any program, for every attribute name that is not one of Python's data descriptors
(`__class__`, `__dict__`, `__weakref__`):
* an item is also an attribute, with the same value (even if a method has the same name);
* where there is no item (`KeyError`), the attribute is a method of the class or `AttributeError`
  is raised (other names with two leading underscores are not modelled);
* writing the attribute is the same as writing the item;
* deleting the attribute is the same as deleting the item, except that `AttributeError` takes the
  place of `KeyError`. -/
theorem C70_attributes_are_items (ops : List Op) (i : Nat) (name : String) (hi : IsBunch (run [] ops) i)
    (hn : name ∉ ["__class__", "__dict__", "__weakref__"]) :
    (∀ v, getItem (run [] ops) i (.str name) = .ok v → getAttr (run [] ops) i name = .ok (.value v)) ∧
    (∀ e, getItem (run [] ops) i (.str name) = .error e → e = .keyError ∧
      (name ∈ ["clear", "copy", "fromkeys", "get", "items", "keys", "pop", "popitem", "setdefault", "update", "values"] →
        getAttr (run [] ops) i name = .ok (.method name)) ∧
      (name ∉ ["clear", "copy", "fromkeys", "get", "items", "keys", "pop", "popitem", "setdefault", "update", "values"] →
        name.startsWith "__" = false → getAttr (run [] ops) i name = .error .attributeError)) ∧
    (∀ v, setAttr (run [] ops) i name v = setItem (run [] ops) i (.str name) v) ∧
    ((∃ e, getItem (run [] ops) i (.str name) = .error e) → delAttr (run [] ops) i name = .error .attributeError ∧
      delItem (run [] ops) i (.str name) = .error .keyError) ∧
    (∀ v, getItem (run [] ops) i (.str name) = .ok v →
      ∃ h', delAttr (run [] ops) i name = .ok h' ∧ delItem (run [] ops) i (.str name) = .ok h') := by
  obtain ⟨o, ho, hk⟩ := hi
  have hw := run_wf ops WF.nil
  generalize run [] ops = h at *
  have hns := hw.self i o ho hk
  have hnl : ¬ o.kind = .list := by rw [hk]; simp
  have hc : ¬ (o.kind ≠ .bunch ∨ name ∈ descriptors) := by
    rintro (hc | hc)
    · exact hc hk
    · exact hn hc
  cases hl : lookup (.str name) o.items with
  | some v =>
    have hg : getItem h i (.str name) = .ok v := by simp only [getItem, ho, hl]
    refine ⟨?_, ?_, ?_, ?_, ?_⟩
    · intro w hw'
      rw [hg] at hw'
      injection hw' with hw'
      subst hw'
      simp only [getAttr, ho, if_neg hc, hns, hl]
    · intro e he; rw [hg] at he; exact absurd he (by simp)
    · intro w
      simp only [setAttr, setItem, ho, if_neg hc, hns]
      rw [if_neg (fun hx => hnl hx.1)]
    · rintro ⟨e, he⟩; rw [hg] at he; exact absurd he (by simp)
    · intro w _
      refine ⟨change h i fun o => { o with items := discard (.str name) o.items }, ?_, ?_⟩
      · simp only [delAttr, ho, if_neg hc, hns, hl]
      · simp only [delItem, ho, if_neg hnl, hl]
  | none =>
    have hg : getItem h i (.str name) = .error .keyError := by simp only [getItem, ho, hl, if_neg hnl]
    refine ⟨?_, ?_, ?_, ?_, ?_⟩
    · intro w hw'; rw [hg] at hw'; exact absurd hw' (by simp)
    · intro e he
      rw [hg] at he
      injection he with he
      refine ⟨he.symm, ?_, ?_⟩
      · intro hm
        simp only [getAttr, ho, if_neg hc, hns, hl]
        exact if_pos hm
      · intro hm hd
        simp only [getAttr, ho, if_neg hc, hns, hl]
        have hm' : name ∉ methods := hm
        rw [if_neg hm', hd]
        rfl
    · intro w
      simp only [setAttr, setItem, ho, if_neg hc, hns]
      rw [if_neg (fun hx => hnl hx.1)]
    · intro _
      refine ⟨?_, ?_⟩
      · simp only [delAttr, ho, if_neg hc, hns, hl]
      · simp only [delItem, ho, if_neg hnl, hl]
    · intro w hw'; rw [hg] at hw'; exact absurd hw' (by simp)

/-- C70: assigning an item of a Bunch never fails, afterwards it (and by the theorem above the
attribute) has the new value; all other items and all other objects are as before.  Deleting
removes exactly that item. -/
theorem C70_writes (ops : List Op) (i : Nat) (hi : IsBunch (run [] ops) i) (k : Key) :
    (∀ v, ∃ h', setItem (run [] ops) i k v = .ok h' ∧ IsBunch h' i ∧ getItem h' i k = .ok v ∧
      (∀ k', k' ≠ k → getItem h' i k' = getItem (run [] ops) i k') ∧ (∀ j, j ≠ i → h'[j]? = (run [] ops)[j]?)) ∧
    (∀ h', delItem (run [] ops) i k = .ok h' → IsBunch h' i ∧ getItem h' i k = .error .keyError ∧
      (∀ k', k' ≠ k → getItem h' i k' = getItem (run [] ops) i k') ∧ (∀ j, j ≠ i → h'[j]? = (run [] ops)[j]?)) := by
  obtain ⟨o, ho, hk⟩ := hi
  have hw := run_wf ops WF.nil
  generalize run [] ops = h at *
  have hnl : ¬ o.kind = .list := by rw [hk]; simp
  constructor
  · intro v
    have hget : (change h i fun o => { o with items := store k v o.items })[i]? =
        some { o with items := store k v o.items } := by rw [change_self, ho]; rfl
    refine ⟨change h i fun o => { o with items := store k v o.items }, ?_, ⟨_, hget, hk⟩, ?_, ?_, ?_⟩
    · simp only [setItem, ho]; rw [if_neg (fun hx => hnl hx.1)]
    · simp only [getItem, hget, lookup_store_self]
    · intro k' hk'
      simp only [getItem, hget, ho, lookup_store_ne hk']
    · intro j hj; exact change_ne hj _
  · intro h' hd
    simp only [delItem, ho, if_neg hnl] at hd
    split at hd
    · exact absurd hd (by simp)
    · injection hd with hd
      have hget : h'[i]? = some { o with items := discard k o.items } := by rw [← hd, change_self, ho]; rfl
      refine ⟨⟨_, hget, hk⟩, ?_, ?_, ?_⟩
      · simp only [getItem, hget, lookup_discard_self (hw.nodup i o ho), if_neg hnl]
      · intro k' hk'
        simp only [getItem, hget, ho, lookup_discard_ne hk']
      · intro j hj; rw [← hd]; exact change_ne hj _

/-- C70: the copy of a Bunch (`copy.copy(b)`; also `b.copy()` unless an item is called `copy`) is a
new Bunch with the same items, and no existing object is changed.  It fails with `TypeError` exactly
if a key is not a string or is the string `self`.  Whatever a program does afterwards, the items of
the copy remain as they are unless it writes to the copy itself, and the items of the original
remain as they are unless it writes to the original itself. -/
theorem C70_copy (ops : List Op) (i : Nat) (hi : IsBunch (run [] ops) i) :
    ((∀ e ∈ itemsOf (run [] ops) i, ∃ s, e.1 = .str s ∧ s ≠ "self") →
      ∃ h' n, copy (run [] ops) i = .ok (h', n) ∧ IsBunch h' n ∧ itemsOf h' n = itemsOf (run [] ops) i ∧
        (run [] ops)[n]? = none ∧ (∀ j, j < (run [] ops).length → h'[j]? = (run [] ops)[j]?) ∧
        (∀ p : List Op, (∀ op ∈ p, writes op ≠ some n) → itemsOf (run h' p) n = itemsOf (run [] ops) i) ∧
        (∀ p : List Op, (∀ op ∈ p, writes op ≠ some i) → itemsOf (run h' p) i = itemsOf (run [] ops) i) ∧
        (lookup (.str "copy") (itemsOf (run [] ops) i) = none → copyMethod (run [] ops) i = .ok (h', n))) ∧
    ((∃ e ∈ itemsOf (run [] ops) i, ∀ s, e.1 = .str s → s = "self") → copy (run [] ops) i = .error .typeError) := by
  obtain ⟨o, ho, hk⟩ := hi
  have hw := run_wf ops WF.nil
  generalize run [] ops = h at *
  have hit : itemsOf h i = o.items := by simp [itemsOf, ho]
  have hcp : copy h i = init h o.items := by simp only [copy, ho, hk, if_true]
  have hil : i < h.length := (List.getElem?_eq_some_iff.1 ho).1
  rw [hit]
  constructor
  · intro hkw
    have hall : o.items.all (fun e => keywordOk e.1) = true := by
      rw [List.all_eq_true]
      intro e he
      obtain ⟨s, hs, hne⟩ := hkw e he
      rw [hs]; simp [keywordOk, hne]
    have hcp' := hcp.trans (init_eq h hall)
    have hw' : WF (h ++ [⟨.dict, [], 0⟩] ++ [⟨.bunch, o.items, h.length + 1⟩]) :=
      WF.init hw (hw.nodup i o ho) (hw.refs i o ho)
    have hx := ext_init h o.items
    refine ⟨_, _, hcp', ⟨_, get_init h o.items, rfl⟩, ?_, ?_, ?_, ?_, ?_, ?_⟩
    · unfold itemsOf; rw [get_init]; rfl
    · exact List.getElem?_eq_none (by omega)
    · exact fun j hj => hx.same j hj
    · intro p hp
      unfold itemsOf
      rw [run_frame p hw' (by simp) hp, get_init]; rfl
    · intro p hp
      have := run_frame p hw' (hil.trans_le hx.len) hp
      unfold itemsOf
      rw [this, hx.get ho]; rfl
    · intro hl
      have : getAttr h i "copy" = .ok (.method "copy") := by
        simp only [getAttr, ho]
        rw [if_neg (by rw [hk]; simp [descriptors])]
        simp only [hw.self i o ho hk, ho, hl]
        rw [if_pos (by simp [methods])]
      unfold copyMethod
      rw [this]
      exact hcp'
  · rintro ⟨e, he, hs⟩
    rw [hcp]
    apply init_bad
    rw [List.all_eq_false]
    refine ⟨e, he, ?_⟩
    obtain ⟨k, v⟩ := e
    cases k with
    | num n => simp [keywordOk]
    | str s => simp [keywordOk, hs s rfl]

/-- C70: a deep copy (of a Bunch, or of any list or dictionary that contains Bunches) reads the same
as the original along every chain of item accesses, all mutable objects reached from it are new,
and the existing objects are unchanged.  Hence, whatever a program does afterwards: as long as it
does not write to objects created by the deep copy, the copy still reads as the original did; and
as long as it does not write to objects that existed before, the original reads as it did. -/
theorem C70_deepcopy (ops : List Op) (limit : Nat) (v : Val) (h' : Heap) (w : Val)
    (hd : deepcopy limit (run [] ops) v = .ok (h', w)) :
    (∀ path, look h' w path = look (run [] ops) v path) ∧
    (∀ path j, reach h' w path = some (.ref j) → (run [] ops).length ≤ j ∧ j < h'.length) ∧
    (∀ j, j < (run [] ops).length → h'[j]? = (run [] ops)[j]?) ∧
    (∀ p : List Op, (∀ op ∈ p, ∀ j, writes op = some j → j < (run [] ops).length ∨ h'.length ≤ j) →
      ∀ path, look (run h' p) w path = look (run [] ops) v path) ∧
    (∀ p : List Op, (∀ op ∈ p, ∀ j, writes op = some j → (run [] ops).length ≤ j) →
      ∀ path, look (run h' p) v path = look (run [] ops) v path) := by
  have hw := run_wf ops WF.nil
  generalize run [] ops = h at *
  unfold deepcopy at hd
  obtain ⟨⟨h1, m1, v1⟩, e1, hd⟩ := py_bind_inv hd
  simp only [Except.ok.injEq, Prod.mk.injEq] at hd
  obtain ⟨rfl, rfl⟩ := hd
  have hv : valid h v = true := by
    rcases deep_inv e1 with ⟨n, rfl, -⟩ | ⟨i, j, -, hj, -⟩ | ⟨f, i, o, _, _, _, -, rfl, -, ho, -⟩ |
      ⟨f, i, o, _, _, -, rfl, -, ho, -⟩
    · rfl
    · exact absurd hj (by simp)
    · simp only [valid, decide_eq_true_eq]; exact (List.getElem?_eq_some_iff.1 ho).1
    · simp only [valid, decide_eq_true_eq]; exact (List.getElem?_eq_some_iff.1 ho).1
  have hx := deep_ext limit e1
  obtain ⟨hw1, -, hv1⟩ := deep_wf limit e1 hw (by simp) hv
  obtain ⟨G, -, -, hg, -, hs⟩ := deep_sim h hw limit (G := fun _ _ => False) (P := fun _ _ => False) e1 (Ext.refl _)
    (by intro a b hab; exact hab.elim) (by simp) hv
  have hb : Bisim h h1 G := by
    intro a b hab
    obtain ⟨-, -, q | q⟩ := hg a b hab
    · exact q.elim
    · exact q
  have hnew : ∀ path j, reach h1 v1 path = some (.ref j) → h.length ≤ j ∧ j < h1.length := by
    intro path j hj
    obtain ⟨i, hi⟩ := (hb.look path hs).2 j hj
    exact ⟨(hg i j hi).1, (hg i j hi).2.1⟩
  refine ⟨fun path => (hb.look path hs).1, hnew, fun j hj => hx.same j hj, ?_, ?_⟩
  · intro p hp path
    rw [← (hb.look path hs).1]
    apply look_eq_of_same path hv1 hw1
    rintro a ha ⟨q, hq⟩
    apply run_frame p hw1 ha
    intro op hop hwr
    have h2 := hnew q a hq
    rcases hp op hop a hwr with h3 | h3 <;> omega
  · intro p hp path
    have hold : ∀ a, a < h.length → (run h1 p)[a]? = h[a]? := by
      intro a ha
      rw [run_frame p hw1 (ha.trans_le hx.len), hx.same a ha]
      intro op hop hwr
      have h3 := hp op hop a hwr
      omega
    exact look_eq_of_same path hv hw fun a ha _ => hold a ha

/-- C70: deep copies of structures without reference cycles succeed (given enough levels of
recursion), provided the keys of the Bunches are strings other than `self`.  The absence of cycles
is expressed by a rank that decreases along references. -/
theorem C70_deepcopy_succeeds (ops : List Op) (v : Val) (hv : ∀ i, v = .ref i → i < (run [] ops).length)
    (rank : Nat → Nat) (hr : ∀ i, ∀ e ∈ itemsOf (run [] ops) i, ∀ j, e.2 = .ref j → rank j < rank i)
    (hk : ∀ i, IsBunch (run [] ops) i → ∀ e ∈ itemsOf (run [] ops) i, ∃ s, e.1 = .str s ∧ s ≠ "self") :
    ∃ limit₀, ∀ limit, limit₀ ≤ limit → ∃ h' w, deepcopy limit (run [] ops) v = .ok (h', w) := by
  have hw := run_wf ops WF.nil
  generalize run [] ops = h at *
  have hit : ∀ (i : Nat) (o : Obj), h[i]? = some o → itemsOf h i = o.items := by
    intro i o ho; simp [itemsOf, ho]
  refine ⟨(match v with | .atom _ => 0 | .ref i => rank i + 1), ?_⟩
  intro limit hlim
  obtain ⟨⟨h1, m1, v1⟩, e1⟩ := deep_total (h0 := h) (rank := rank)
    (fun i o ho e he j hj => hr i e (by rw [hit i o ho]; exact he) j hj)
    (fun i o ho hb => by
      rw [List.all_eq_true]
      intro e he
      obtain ⟨s, hs, hne⟩ := hk i ⟨o, ho, hb⟩ e (by rw [hit i o ho]; exact he)
      rw [hs]; simp [keywordOk, hne])
    hw limit (h := h) (m := []) (v := v) (Ext.refl h) (by
      cases v with
      | atom n => rfl
      | ref i => simp only [valid, decide_eq_true_eq]; exact hv i rfl)
    (by intro i hi; subst hi; exact hlim)
  refine ⟨h1, v1, ?_⟩
  unfold deepcopy
  rw [e1]
  rfl

/-- C70, the limit of deep copies: `__deepcopy__` does not pass the memo on, so a Bunch that contains
itself, directly or through other Bunches (a set `C` of Bunches each of which has an item in `C`),
cannot be deep-copied, whatever the recursion limit. -/
theorem C70_deepcopy_cycle (ops : List Op) (C : Nat → Prop)
    (hC : ∀ i, C i → IsBunch (run [] ops) i ∧ ∃ e ∈ itemsOf (run [] ops) i, ∃ j, e.2 = .ref j ∧ C j) (i : Nat) (hi : C i)
    (limit : Nat) : ∃ e, deepcopy limit (run [] ops) (.ref i) = .error e := by
  generalize run [] ops = h at *
  cases hd : deepcopy limit h (.ref i) with
  | error e => exact ⟨e, rfl⟩
  | ok r =>
    exfalso
    unfold deepcopy at hd
    obtain ⟨⟨h1, m1, v1⟩, e1, -⟩ := py_bind_inv hd
    refine (deep_cycle (C := C) ?_ limit e1 (Ext.refl h) (by simp)).2 i rfl hi
    intro a ha
    obtain ⟨⟨o, ho, hb⟩, e, he, j, hj, hcj⟩ := hC a ha
    refine ⟨o, ho, hb, e, ?_, j, hj, hcj⟩
    simpa [itemsOf, ho] using he

/-! ## Concrete cases -/

/-- `l = [7]; b = Bunch(x=l, keys=3); c = Bunch(inner=b, again=l)` -/
def exOps : List Op :=
  [.newList [.atom 7], .newBunch [(.str "x", .ref 0), (.str "keys", .atom 3)],
   .newBunch [(.str "inner", .ref 2), (.str "again", .ref 0)]]

-- object 2 is `b`, object 4 is `c`; an item hides the method `keys`
example : okAnd (getAttr (run [] exOps) 2 "keys") (· = .value (.atom 3)) = true := by decide +kernel
example : getAttr (run [] exOps) 4 "keys" = .ok (.method "keys") := by decide +kernel
example : getAttr (run [] exOps) 4 "wind" = .error .attributeError := by decide +kernel

-- hypotheses of the theorems: `c` is a Bunch, its deep copy succeeds and is object 10
example : IsBunch (run [] exOps) 4 := ⟨⟨.bunch, [(.str "inner", .ref 2), (.str "again", .ref 0)], 4⟩, by decide +kernel, rfl⟩
example : okAnd (deepcopy 5 (run [] exOps) (.ref 4)) (fun r => r.2 = .ref 10) = true := by decide +kernel
-- the list is copied twice, because the nested Bunch does not know the memo (no identity preserved) ...
example : okAnd (deepcopy 5 (run [] exOps) (.ref 4)) (fun r =>
    reach r.1 r.2 [.str "inner", .str "x"] = some (.ref 5) ∧ reach r.1 r.2 [.str "again"] = some (.ref 8)) = true := by
  decide +kernel
-- ... but reads the same
example : okAnd (deepcopy 5 (run [] exOps) (.ref 4)) (fun r =>
    look r.1 r.2 [.str "inner", .str "x", .num 0] = some (.atom 7)) = true := by decide +kernel
-- too few levels of recursion
example : deepcopy 2 (run [] exOps) (.ref 4) = .error .recursionError := by decide +kernel
-- a copy is shallow: the list of the copy is the list of the original
example : okAnd (copy (run [] exOps) 2) (fun r => itemsOf r.1 r.2 = [(.str "x", .ref 0), (.str "keys", .atom 3)]) = true := by
  decide +kernel
-- `b.self = 1` is possible, but then `b` cannot be copied any more
example : copy (run [] (exOps ++ [.setAttr 2 "self" (.atom 1)])) 2 = .error .typeError := by decide +kernel
-- a Bunch that contains itself
example : deepcopy 50 (run [] [.newBunch [], .setAttr 1 "me" (.ref 1)]) (.ref 1) = .error .recursionError := by
  decide +kernel
-- whereas a dictionary that contains itself can be deep-copied
example : okAnd (deepcopy 50 (run [] [.newDict, .setItem 0 (.str "me") (.ref 0)]) (.ref 0)) (fun r =>
    reach r.1 r.2 [.str "me", .str "me"] = some (.ref 1)) = true := by decide +kernel

/-- Item `copy` hides the method. -/
example : copyMethod (run [] [.newBunch [(.str "copy", .atom 1)]]) 1 = .error .typeError := by decide +kernel

end Melodist
