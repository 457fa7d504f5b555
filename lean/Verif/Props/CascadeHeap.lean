import Verif.Lemmas.CascadeHeap
import Verif.Lemmas.Master
import Mathlib.Data.Rat.Floor
import Mathlib.Tactic.FinCases
import Mathlib.Data.Fintype.Basic
import Mathlib.Data.List.GetD

/-!
# C29, C30: cascade statistics objects
-/

set_option linter.unusedSectionVars false

namespace Melodist

variable {K : Type} [Field K] [LinearOrder K] [IsStrictOrderedRing K]

/-! ## C29 -/

/-- **C29 (a + b).**  After `a + b` the matrices of `a` are the elementwise sums (also for `a + a` and when `b` is a copy of `a`);
threshold and percentile of `a` are kept.  Every other object keeps everything, except that an object sharing the weight array of `a`
(a shallow copy) has its weights, and only these, changed to the sums as well. -/
theorem C29_add (h : Heap K) (hwf : h.WF) (a b : Nat) (ha : a < h.nextObj) (hb : b < h.nextObj) :
    let h' := h.add a b
    (∀ i j, (h'.view a).p01 i j = (h.view a).p01 i j + (h.view b).p01 i j) ∧
    (∀ i j, (h'.view a).p10 i j = (h.view a).p10 i j + (h.view b).p10 i j) ∧
    (∀ i j, (h'.view a).pxx i j = (h.view a).pxx i j + (h.view b).pxx i j) ∧
    (∀ k i j, (h'.view a).wxx k i j = (h.view a).wxx k i j + (h.view b).wxx k i j) ∧
    (h'.view a).threshold = (h.view a).threshold ∧ (h'.view a).percentile = (h.view a).percentile ∧
    (∀ o < h.nextObj, o ≠ a → (h.objs o).wxx ≠ (h.objs a).wxx → h'.view o = h.view o) ∧
    (∀ o < h.nextObj, o ≠ a → (h.objs o).wxx = (h.objs a).wxx →
      (h'.view o).p01 = (h.view o).p01 ∧ (h'.view o).p10 = (h.view o).p10 ∧ (h'.view o).pxx = (h.view o).pxx ∧
      (h'.view o).threshold = (h.view o).threshold ∧ (h'.view o).percentile = (h.view o).percentile ∧
      ∀ k i j, (h'.view o).wxx k i j = (h.view a).wxx k i j + (h.view b).wxx k i j) ∧
    h'.WF ∧ h'.nextObj = h.nextObj := by
  intro h'
  have e : h'.view a = (h.view a).add (h.view b) := Heap.add_view_self h hwf a b ha hb
  refine ⟨?_, ?_, ?_, ?_, ?_, ?_, ?_, ?_, Heap.add_wf h hwf a b ha hb, Heap.add_nextObj h hwf a b ha hb⟩
  · intro i j; rw [e]; rfl
  · intro i j; rw [e]; rfl
  · intro i j; rw [e]; rfl
  · intro k i j; rw [e]; rfl
  · rw [e]; rfl
  · rw [e]; rfl
  · intro o ho hne hw
    show (h.add a b).view o = _
    rw [Heap.add_view_other h hwf a b o ha hb ho hne, if_neg hw]
  · intro o ho hne hw
    have := Heap.add_view_other h hwf a b o ha hb ho hne
    rw [if_pos hw] at this
    rw [show h'.view o = _ from this]
    exact ⟨rfl, rfl, rfl, rfl, rfl, fun _ _ _ => rfl⟩

/-- **C29 (a * f).**  After `a * f` the matrices of `a` are the elementwise products; threshold and percentile are kept.  Every other
object, also one that shares arrays with `a`, keeps everything; afterwards `a` shares its weight array with no object. -/
theorem C29_mul (h : Heap K) (hwf : h.WF) (a : Nat) (ha : a < h.nextObj) (f : XF K) :
    let h' := h.mul a f
    (∀ i j, (h'.view a).p01 i j = (h.view a).p01 i j * f) ∧
    (∀ i j, (h'.view a).p10 i j = (h.view a).p10 i j * f) ∧
    (∀ i j, (h'.view a).pxx i j = (h.view a).pxx i j * f) ∧
    (∀ k i j, (h'.view a).wxx k i j = (h.view a).wxx k i j * f) ∧
    (h'.view a).threshold = (h.view a).threshold ∧ (h'.view a).percentile = (h.view a).percentile ∧
    (∀ o < h.nextObj, o ≠ a → h'.view o = h.view o ∧ (h'.objs o).wxx ≠ (h'.objs a).wxx) ∧
    h'.WF ∧ h'.nextObj = h.nextObj := by
  intro h'
  have e : h'.view a = (h.view a).scale f := Heap.mul_view_self h hwf a ha f
  refine ⟨?_, ?_, ?_, ?_, ?_, ?_, ?_, Heap.mul_wf h hwf a ha f, ?_⟩
  · intro i j; rw [e]; rfl
  · intro i j; rw [e]; rfl
  · intro i j; rw [e]; rfl
  · intro k i j; rw [e]; rfl
  · rw [e]; rfl
  · rw [e]; rfl
  · intro o ho hne
    refine ⟨Heap.mul_view_other h hwf a o ha ho hne f, ?_⟩
    have := (hwf o ho).2.2.2.1
    show ((h.mul a f).objs o).wxx ≠ ((h.mul a f).objs a).wxx
    rw [Heap.mul_eq h hwf a ha]
    simp only [Function.update_of_ne hne, Function.update_self]
    omega
  · show (h.mul a f).nextObj = _
    rw [Heap.mul_eq h hwf a ha]

/-- **C29 (copies).**  A shallow copy of `a` taken before `a * f` still has the old values afterwards; a shallow copy taken before
`a + b` has the old branching probabilities but the new weights. -/
theorem C29_shallow_copy (h : Heap K) (hwf : h.WF) (a b : Nat) (ha : a < h.nextObj) (hb : b < h.nextObj) (f : XF K) :
    let r := h.copy a
    (r.1.mul a f).view r.2 = h.view a ∧
    ((r.1.add a b).view r.2).p01 = (h.view a).p01 ∧ ((r.1.add a b).view r.2).p10 = (h.view a).p10 ∧
    ((r.1.add a b).view r.2).pxx = (h.view a).pxx ∧
    ((r.1.add a b).view r.2).wxx = ((r.1.add a b).view a).wxx ∧
    ∀ k i j, ((r.1.add a b).view r.2).wxx k i j = (h.view a).wxx k i j + (h.view b).wxx k i j := by
  intro r
  have wr : r.1.WF := Heap.copy_wf h hwf a ha
  have nr : r.1.nextObj = h.nextObj + 1 := rfl
  have er : r.2 = h.nextObj := rfl
  have va : r.1.view a = h.view a := Heap.copy_view_old h a a ha
  have vb : r.1.view b = h.view b := Heap.copy_view_old h a b hb
  have vc : r.1.view r.2 = h.view a := Heap.copy_view_new h a
  have sh : (r.1.objs r.2).wxx = (r.1.objs a).wxx := by
    show (Function.update h.objs h.nextObj (h.objs a) h.nextObj).wxx = (Function.update h.objs h.nextObj (h.objs a) a).wxx
    rw [Function.update_self, Function.update_of_ne (by omega)]
  have hadd := Heap.add_view_other r.1 wr a b r.2 (by omega) (by omega) (by omega) (by omega)
  rw [if_pos sh] at hadd
  refine ⟨?_, ?_, ?_, ?_, ?_, ?_⟩
  · rw [Heap.mul_view_other r.1 wr a r.2 (by omega) (by omega) (by omega), vc]
  · rw [hadd]; show (r.1.view r.2).p01 = _; rw [vc]
  · rw [hadd]; show (r.1.view r.2).p10 = _; rw [vc]
  · rw [hadd]; show (r.1.view r.2).pxx = _; rw [vc]
  · rw [hadd, Heap.add_view_self r.1 wr a b (by omega) (by omega)]; rfl
  · intro k i j
    rw [hadd]
    show Heap.addMat _ _ i j = _
    rw [va, vb]; rfl

theorem levelLoop_refines [FloorRing K] (percentile : K) : ∀ (n : Nat) (vdn : Series (XF K)) (h : Heap K) (casc count : Nat),
    h.WF → casc < h.nextObj → h.Own casc →
    match levelStatsLoop percentile n vdn (h.view casc) count with
    | .error e => Heap.levelLoop percentile n vdn h casc count = .error e
    | .ok (l, acc, c) => ∃ cs h', Heap.levelLoop percentile n vdn h casc count = .ok (cs, h', c) ∧
        cs.map h'.view = l ∧ h'.view casc = acc ∧ h'.WF ∧ h.nextObj ≤ h'.nextObj ∧
        (∀ x ∈ cs, h.nextObj < x ∧ x < h'.nextObj) ∧ ∀ o < h.nextObj, o ≠ casc → h'.view o = h.view o := by
  intro n
  induction n with
  | zero =>
    intro vdn h casc count hwf _ _
    exact ⟨[], h, rfl, rfl, rfl, hwf, le_refl _, by simp, fun _ _ _ => rfl⟩
  | succ n ih =>
    intro vdn h casc count hwf hc hown
    unfold levelStatsLoop Heap.levelLoop
    cases hag : aggregatePrecipitation vdn percentile with
    | error e => exact rfl
    | ok r =>
      obtain ⟨s, vdn'⟩ := r
      rw [py_ok_bind, py_ok_bind]
      obtain ⟨w', n', o', ec, vcopy, vcasc, vother⟩ := Heap.levelStep h hwf casc hc hown s (.fin (vdn'.length : K))
      have := ih vdn' (((((h.new s).1.copy (h.new s).2).1.mul (h.new s).2 (.fin (vdn'.length : K))).add casc (h.new s).2))
        casc (count + vdn'.length) w' (by omega) o'
      rw [vcasc] at this
      simp only []
      cases hl : levelStatsLoop percentile n vdn' ((h.view casc).add (s.scale (.fin (vdn'.length : K)))) (count + vdn'.length) with
      | error e =>
        rw [hl] at this
        simp only at this
        rw [this]; rfl
      | ok q =>
        obtain ⟨l, acc, c⟩ := q
        rw [hl] at this
        obtain ⟨cs, h'', e1, e2, e3, e4, e5, e6, e7⟩ := this
        rw [e1]
        refine ⟨_ :: cs, h'', rfl, ?_, e3, e4, by omega, ?_, ?_⟩
        · rw [List.map_cons, e2, e7 _ (by omega) (by omega), vcopy]
        · intro x hx
          rcases List.mem_cons.1 hx with rfl | hx
          · rw [ec]; omega
          · have := e6 x hx; omega
        · intro o ho hne
          rw [e7 o (by omega) hne, vother o ho hne]

/-- **C29 (statistics are computed on shared objects).**  The statistics of one season computed with objects, in-place updates and
shallow copies as in `build_casc` are the ones computed with plain values: the copies put into the list keep the unscaled
statistics of their level although the objects they were copied from are scaled and added up afterwards, the average is right, and no
object that existed before is changed. -/
theorem C29_build_casc_objects [FloorRing K] (vdn : Series (XF K)) (levels : Nat) (avgStats : Bool) (percentile : K)
    (h : Heap K) (hwf : h.WF) :
    match seasonStats vdn levels avgStats percentile, Heap.season vdn levels avgStats percentile h with
    | .error e, r => r = .error e
    | .ok (.inl s), .ok (h', .inl o) => h'.view o = s ∧ ∀ q < h.nextObj, h'.view q = h.view q
    | .ok (.inr l), .ok (h', .inr os) => os.map h'.view = l ∧ ∀ q < h.nextObj, h'.view q = h.view q
    | _, _ => False := by
  unfold seasonStats Heap.season
  have wn := Heap.new_wf h hwf { CascStats.init with percentile := percentile }
  have vn := Heap.new_view_new h { CascStats.init with percentile := percentile }
  have vo := Heap.new_view_old h hwf { CascStats.init with percentile := percentile }
  have own : (h.new { CascStats.init with percentile := percentile }).1.Own
      (h.new { CascStats.init with percentile := percentile }).2 := by
    intro o ho hne
    show (Function.update h.objs h.nextObj _ o).wxx ≠ (Function.update h.objs h.nextObj _ h.nextObj).wxx
    have hne : o ≠ h.nextObj := hne
    have ho : o < h.nextObj + 1 := ho
    rw [Function.update_of_ne hne, Function.update_self]
    have := hwf o (by omega)
    simp only; omega
  have hstep := levelLoop_refines percentile levels vdn (h.new { CascStats.init with percentile := percentile }).1
    (h.new { CascStats.init with percentile := percentile }).2 0 wn (Nat.lt_succ_self h.nextObj) own
  rw [vn] at hstep
  simp only []
  cases hl : levelStatsLoop percentile levels vdn { CascStats.init with percentile := percentile } 0 with
  | error e =>
    rw [hl] at hstep
    simp only at hstep
    rw [hstep]
    exact rfl
  | ok q =>
    obtain ⟨l, acc, c⟩ := q
    rw [hl] at hstep
    obtain ⟨cs, h', e1, e2, e3, e4, e5, e6, e7⟩ := hstep
    rw [e1, py_ok_bind, py_ok_bind]
    simp only []
    by_cases hc : c = 0
    · rw [if_pos hc, if_pos hc]; exact rfl
    · rw [if_neg hc, if_neg hc]
      have hn : (h.new { CascStats.init with percentile := percentile }).1.nextObj = h.nextObj + 1 := rfl
      have hcasc : (h.new { CascStats.init with percentile := percentile }).2 = h.nextObj := rfl
      rw [hn] at e5 e6 e7
      rw [hcasc] at e1 e3 e7 ⊢
      have hm := fun o (ho : o < h'.nextObj) (hne : o ≠ h.nextObj) =>
        Heap.mul_view_other h' e4 h.nextObj o (by omega) ho hne (.fin (1 / (c : K)))
      have hself := Heap.mul_view_self h' e4 h.nextObj (by omega) (.fin (1 / (c : K)))
      have hcs : cs.map (h'.mul h.nextObj (.fin (1 / (c : K)))).view = l := by
        rw [← e2]
        apply List.map_congr_left
        intro x hx
        have := e6 x hx
        exact hm x this.2 (by omega)
      generalize hg : h'.mul h.nextObj (.fin (1 / (c : K))) = g at *
      have hgwf : g.WF := by rw [← hg]; exact Heap.mul_wf h' e4 _ (by omega) _
      have hgn : g.nextObj = h'.nextObj := by rw [← hg, Heap.mul_eq h' e4 _ (by omega)]
      -- rebinding the threshold leaves the others alone
      have hth : ∀ (v : List (XF K)) (o : Nat), o < h'.nextObj → o ≠ h.nextObj →
          (g.rebindThreshold h.nextObj v).view o = g.view o := by
        intro v o ho hne
        have := hgwf o (by omega)
        simp only [Heap.rebindThreshold, Heap.view, Function.update_of_ne hne]
        rw [Function.update_of_ne (by omega)]
      have hthl : cs.map (fun c => (g.view c).threshold.headD .nan) = l.map fun s => s.threshold.headD .nan := by
        rw [← hcs, List.map_map]; rfl
      have hold : ∀ (v : List (XF K)) (q : Nat), q < h.nextObj → (g.rebindThreshold h.nextObj v).view q = h.view q := by
        intro v q hq
        rw [hth v q (by omega) (by omega), hm q (by omega) (by omega), e7 q (by omega) (by omega)]
        exact vo q hq
      cases avgStats with
      | true =>
        show _ ∧ _
        refine ⟨?_, fun q hq => hold _ q hq⟩
        show (g.rebindThreshold h.nextObj _).view h.nextObj = _
        rw [hthl, ← e3, ← hself]
        simp only [Heap.rebindThreshold, Heap.view, Function.update_self]
      | false =>
        show _ ∧ _
        refine ⟨?_, fun q hq => hold _ q hq⟩
        show cs.map (g.rebindThreshold h.nextObj _).view = l
        rw [← hcs]
        apply List.map_congr_left
        intro x hx
        have := e6 x hx
        exact hth _ x this.2 (by omega)

/-- an empty heap, and a heap with two objects -/
def emptyHeap : Heap ℚ := ⟨fun _ _ _ => .nan, fun _ _ _ _ => .nan, fun _ => [], fun _ => ⟨0, 0, 0, 0, 0, 0⟩, 0, 0⟩

def twoObjects : Heap ℚ := (((emptyHeap.new CascStats.init.fillSample).1.new CascStats.init.fillSample).1.copy 0).1

/-- C29 on three objects, of which number 2 is a shallow copy of number 0: after `0 + 1` the copy has the doubled weights but the old
probabilities; after `0 * 3` it is unchanged. -/
example : twoObjects.WF ∧ twoObjects.nextObj = 3 ∧
    ((twoObjects.add 0 1).view 2).wxx 0 0 0 = ((twoObjects.view 0).wxx 0 0 0) + ((twoObjects.view 1).wxx 0 0 0) ∧
    ((twoObjects.add 0 1).view 2).wxx 0 0 0 ≠ (twoObjects.view 2).wxx 0 0 0 ∧
    ((twoObjects.add 0 1).view 2).p01 0 0 ≠ ((twoObjects.add 0 1).view 0).p01 0 0 ∧
    ((twoObjects.mul 0 (.fin 3)).view 2).wxx 0 0 0 = (twoObjects.view 2).wxx 0 0 0 := by
  have w0 : emptyHeap.WF := by intro o ho; exact absurd ho (by simp [emptyHeap])
  have w1 := Heap.new_wf emptyHeap w0 CascStats.init.fillSample
  have w2 := Heap.new_wf _ w1 CascStats.init.fillSample
  refine ⟨Heap.copy_wf _ w2 0 (by decide +kernel), rfl, ?_, ?_, ?_, ?_⟩ <;> decide +kernel

/-! ## C30 -/

/-- no NaN in any array of the object -/
def CascStats.NoNan (s : CascStats K) : Prop :=
  (∀ i j, s.p01 i j ≠ .nan) ∧ (∀ i j, s.p10 i j ≠ .nan) ∧ (∀ i j, s.pxx i j ≠ .nan) ∧ (∀ k i j, s.wxx k i j ≠ .nan) ∧
    ∀ x ∈ s.threshold, x ≠ .nan

theorem feq_iff (x y : XF K) : XF.feq x y ↔ x = y ∧ x ≠ .nan := by
  cases x <;> cases y <;> simp [XF.feq]

theorem mat24Equal_iff (a b : Mat24 (XF K)) : mat24Equal a b = true ↔ a = b ∧ ∀ i j, a i j ≠ .nan := by
  unfold mat24Equal
  simp only [List.all_eq_true, List.mem_finRange, true_implies, decide_eq_true_eq, feq_iff]
  constructor
  · intro h
    exact ⟨funext fun i => funext fun j => (h i j).1, fun i j => (h i j).2⟩
  · rintro ⟨rfl, h⟩ i j
    exact ⟨rfl, h i j⟩

theorem vecEqual_iff (a b : List (XF K)) : vecEqual a b = true ↔ a = b ∧ ∀ x ∈ a, x ≠ .nan := by
  induction a generalizing b with
  | nil => cases b <;> simp [vecEqual]
  | cons x a ih =>
    cases b with
    | nil => simp [vecEqual]
    | cons y b =>
      have := ih b
      simp only [vecEqual, List.length_cons, List.zip_cons_cons, List.all_cons, Bool.and_eq_true, decide_eq_true_eq, feq_iff,
        List.mem_cons, forall_eq_or_imp, Nat.add_right_cancel_iff, List.cons.injEq] at this ⊢
      tauto

/-- **C30 (equality).**  `a == b` holds exactly when all matrices, the thresholds and the percentile agree and contain no NaN. -/
theorem C30_eq_iff (a b : CascStats K) : a.eq b = true ↔ a = b ∧ a.NoNan := by
  obtain ⟨p1, p2, p3, w, t, p⟩ := a
  obtain ⟨q1, q2, q3, v, u, q⟩ := b
  have hw : ((List.finRange 7).all fun k => mat24Equal (w k) (v k)) = true ↔ w = v ∧ ∀ k i j, w k i j ≠ .nan := by
    simp only [List.all_eq_true, List.mem_finRange, true_implies, mat24Equal_iff]
    constructor
    · intro h; exact ⟨funext fun k => (h k).1, fun k => (h k).2⟩
    · rintro ⟨rfl, h⟩ k; exact ⟨rfl, h k⟩
  unfold CascStats.eq CascStats.NoNan
  simp only [Bool.and_eq_true, hw, mat24Equal_iff, vecEqual_iff, decide_eq_true_eq, CascStats.mk.injEq]
  tauto

/-- **C30 (relation).**  `==` is symmetric and transitive, an object equals itself exactly when it has no NaN, and `!=` is the
negation. -/
theorem C30_eq_relation (a b c : CascStats K) :
    (a.eq b = b.eq a) ∧ (a.eq b = true → b.eq c = true → a.eq c = true) ∧ (a.eq a = true ↔ a.NoNan) ∧
      (a.ne b = true ↔ ¬ a.eq b = true) := by
  refine ⟨?_, ?_, ?_, ?_⟩
  · rw [Bool.eq_iff_iff, C30_eq_iff, C30_eq_iff]
    constructor <;> (rintro ⟨rfl, h⟩; exact ⟨rfl, h⟩)
  · rw [C30_eq_iff, C30_eq_iff, C30_eq_iff]
    rintro ⟨rfl, h⟩ ⟨rfl, _⟩
    exact ⟨rfl, h⟩
  · rw [C30_eq_iff]; simp
  · unfold CascStats.ne; simp

theorem shape_matList (m : Mat24 (XF K)) : (matList m).shape = .ok [2, 4] := by
  simp [matList, List.finRange_succ, Nested.shape, Nested.shape.sameShape, bind, Except.bind]

theorem sameShape_nums (v : List (XF K)) : Nested.shape.sameShape [] (v.map Nested.num) = .ok true := by
  induction v with
  | nil => simp [Nested.shape.sameShape]
  | cons x v ih => simp [Nested.shape.sameShape, ih, Nested.shape, bind, Except.bind]

theorem shape_vecList (v : List (XF K)) : (vecList v).shape = .ok [v.length] := by
  unfold vecList
  cases v with
  | nil => simp [Nested.shape]
  | cons x v => simp [Nested.shape, sameShape_nums, bind, Except.bind]

theorem shape_cubeList (w : Fin 7 → Mat24 (XF K)) :
    (Nested.list ((List.finRange 7).map fun k => matList (w k))).shape = .ok [7, 2, 4] := by
  simp [List.finRange_succ, Nested.shape, Nested.shape.sameShape, shape_matList, bind, Except.bind]

theorem mat_matList (m : Mat24 (XF K)) : (matList m).mat = m := by
  funext i j
  fin_cases i <;> fin_cases j <;> rfl

/-- **C30 (round trip).**  `from_dict` of an object's attribute dictionary is the object (with its NaN, if any); without NaN the result
is equal (`==`) to the object. -/
theorem C30_from_dict_round_trip (s : CascStats K) :
    CascStats.fromDict s.toDict = .ok s ∧
      (s.NoNan → ∃ r, CascStats.fromDict s.toDict = .ok r ∧ r.eq s = true) := by
  have main : CascStats.fromDict s.toDict = .ok s := by
    unfold CascStats.fromDict
    have h1 : s.toDict.array "p01" = .ok ([2, 4], matList s.p01) := by
      show (do let x ← (matList s.p01).shape; Except.ok (x, matList s.p01)) = _
      rw [shape_matList]; rfl
    have h2 : s.toDict.array "p10" = .ok ([2, 4], matList s.p10) := by
      show (do let x ← (matList s.p10).shape; Except.ok (x, matList s.p10)) = _
      rw [shape_matList]; rfl
    have h3 : s.toDict.array "pxx" = .ok ([2, 4], matList s.pxx) := by
      show (do let x ← (matList s.pxx).shape; Except.ok (x, matList s.pxx)) = _
      rw [shape_matList]; rfl
    have h4 : s.toDict.array "wxx" = .ok ([7, 2, 4], .list ((List.finRange 7).map fun k => matList (s.wxx k))) := by
      show (do let x ← (Nested.list ((List.finRange 7).map fun k => matList (s.wxx k))).shape; Except.ok (x, _)) = _
      rw [shape_cubeList]; rfl
    have h5 : s.toDict.array "threshold" = .ok ([s.threshold.length], vecList s.threshold) := by
      show (do let x ← (vecList s.threshold).shape; Except.ok (x, vecList s.threshold)) = _
      rw [shape_vecList]; rfl
    rw [h1, h2, h3, h4, h5]
    simp only [py_ok_bind]
    show (Except.ok _ : Py (CascStats K)) = .ok s
    congr 1
    rw [mat_matList, mat_matList, mat_matList]
    have hw : (fun k : Fin 7 => ((Nested.list ((List.finRange 7).map fun k => matList (s.wxx k))).get k).mat) = s.wxx := by
      funext k
      simp only [Nested.get]
      rw [List.getD_eq_getElem _ _ (by simp)]
      simp [mat_matList]
    have ht : ((List.range s.threshold.length).map fun i => ((vecList s.threshold).get i).val) = s.threshold := by
      apply List.ext_getElem
      · simp
      · intro i h1 h2
        simp only [List.getElem_map, List.getElem_range, vecList, Nested.get]
        rw [List.getD_eq_getElem _ _ (by simpa using h2)]
        simp [Nested.val]
    rw [hw, ht]
  exact ⟨main, fun h => ⟨s, main, (C30_eq_iff s s).2 ⟨rfl, h⟩⟩⟩

/-- **C30 (shapes).**  When `from_dict` returns, the four matrices in the dictionary have the shapes (2,4), (2,4), (2,4) and (7,2,4)
and every key is present; a matrix of another shape raises. -/
theorem C30_from_dict_shapes (d : CascDict K) (s : CascStats K) (h : CascStats.fromDict d = .ok s) :
    (∃ x, d.arrays "p01" = some x ∧ x.shape = .ok [2, 4]) ∧ (∃ x, d.arrays "p10" = some x ∧ x.shape = .ok [2, 4]) ∧
    (∃ x, d.arrays "pxx" = some x ∧ x.shape = .ok [2, 4]) ∧ (∃ x, d.arrays "wxx" = some x ∧ x.shape = .ok [7, 2, 4]) ∧
    (∃ x, d.arrays "threshold" = some x) ∧ d.percentile = some s.percentile := by
  have harr : ∀ key sh x, d.array key = .ok (sh, x) → d.arrays key = some x ∧ x.shape = .ok sh := by
    intro key sh x hk
    unfold CascDict.array at hk
    cases hd : d.arrays key with
    | none => rw [hd] at hk; cases hk
    | some y =>
      rw [hd] at hk
      simp only at hk
      cases hs : y.shape with
      | error e => rw [hs] at hk; cases hk
      | ok r =>
        rw [hs] at hk
        injection hk with hk
        injection hk with h1 h2
        subst h1 h2
        exact ⟨rfl, hs⟩
  unfold CascStats.fromDict at h
  cases h1 : d.array "p01" with
  | error e => rw [h1] at h; cases h
  | ok r1 =>
  cases h2 : d.array "p10" with
  | error e => rw [h1, h2] at h; cases h
  | ok r2 =>
  cases h3 : d.array "pxx" with
  | error e => rw [h1, h2, h3] at h; cases h
  | ok r3 =>
  cases h4 : d.array "wxx" with
  | error e => rw [h1, h2, h3, h4] at h; cases h
  | ok r4 =>
  cases h5 : d.array "threshold" with
  | error e => rw [h1, h2, h3, h4, h5] at h; cases h
  | ok r5 =>
  rw [h1, h2, h3, h4, h5] at h
  simp only [py_ok_bind] at h
  cases hp : d.percentile with
  | none => rw [hp] at h; cases h
  | some p =>
  rw [hp] at h
  simp only at h
  by_cases c1 : r1.1 = [2, 4]
  swap
  · rw [if_pos c1] at h; cases h
  by_cases c2 : r2.1 = [2, 4]
  swap
  · rw [if_neg (by simpa using c1), if_pos c2] at h; cases h
  by_cases c3 : r3.1 = [2, 4]
  swap
  · rw [if_neg (by simpa using c1), if_neg (by simpa using c2), if_pos c3] at h; cases h
  by_cases c4 : r4.1 = [7, 2, 4]
  swap
  · rw [if_neg (by simpa using c1), if_neg (by simpa using c2), if_neg (by simpa using c3), if_pos c4] at h; cases h
  rw [if_neg (by simpa using c1), if_neg (by simpa using c2), if_neg (by simpa using c3), if_neg (by simpa using c4)] at h
  obtain ⟨s1, x1⟩ := r1
  obtain ⟨s2, x2⟩ := r2
  obtain ⟨s3, x3⟩ := r3
  obtain ⟨s4, x4⟩ := r4
  simp only at c1 c2 c3 c4
  subst c1 c2 c3 c4
  refine ⟨⟨_, harr _ _ _ h1⟩, ⟨_, harr _ _ _ h2⟩, ⟨_, harr _ _ _ h3⟩, ⟨_, harr _ _ _ h4⟩,
    ⟨_, (harr _ _ _ h5).1⟩, ?_⟩
  obtain ⟨sh, t⟩ := r5
  match sh, h with
  | [], h => cases h
  | [n], h => injection h with h; subst h; rfl
  | _ :: _ :: _, h => cases h

/-- C30: the sample statistics have no NaN, are equal to themselves, and survive the round trip; a (2,3) matrix is refused. -/
example : (CascStats.init.fillSample : CascStats ℚ).eq CascStats.init.fillSample = true ∧
    okAnd (CascStats.fromDict (CascStats.init.fillSample : CascStats ℚ).toDict) (fun r => r.eq CascStats.init.fillSample) = true ∧
    (match CascStats.fromDict ({ (CascStats.init.fillSample : CascStats ℚ).toDict with
        arrays := fun key => if key = "p10" then some (.list [vecList [.fin 1, .fin 2, .fin 3], vecList [.fin 1, .fin 2, .fin 3]])
          else (CascStats.init.fillSample : CascStats ℚ).toDict.arrays key }) with
      | .error .assertionError => true | _ => false) = true := by
  decide +kernel

end Melodist
