import Verif.Spec.Json
import Verif.Model.Json
import Verif.Lemmas.Text
import Verif.Lemmas.DataIO
import Verif.Props.CascadeHeap

/-!
# Lemmas on JSON export and import
-/

set_option linter.unusedSectionVars false

namespace Melodist

open Spec

/-! ## Labels -/

theorem labelInt_labelText (k : Int) : labelInt? (labelText k) = some k := by
  unfold labelInt? labelText
  rw [String.toList_ofList]
  by_cases hk : k < 0
  · rw [if_pos hk]
    show (Text.toNat? (Text.ofNat k.natAbs)).map _ = _
    rw [Text.toNat_ofNat]
    simp only [Option.map_some, Option.some.injEq]
    omega
  · rw [if_neg hk]
    have hd := Text.ofNat_digits k.natAbs
    have hr := Text.toNat_ofNat k.natAbs
    cases ht : Text.ofNat k.natAbs with
    | nil => rw [ht] at hr; exact absurd hr (by simp [Text.toNat?])
    | cons c t =>
      rw [ht] at hd hr
      obtain ⟨n, hn, hc⟩ := hd c (List.mem_cons_self ..)
      have hne : c ≠ '-' := by rw [hc]; exact (Text.digit_spec n hn).2.2.2.1
      have : (match c :: t with
          | '-' :: t => (Text.toNat? t).map fun n : Nat => -(n : Int)
          | t => (Text.toNat? t).map fun n : Nat => (n : Int)) = (Text.toNat? (c :: t)).map fun n : Nat => (n : Int) := by
        split
        · rename_i h; injection h with h1 h2; exact absurd h1 hne
        · rfl
      refine this.trans ?_
      rw [hr]
      simp only [Option.map_some, Option.some.injEq]
      omega

theorem labelText_inj {a b : Int} (h : labelText a = labelText b) : a = b := by
  have := congrArg labelInt? h
  rw [labelInt_labelText, labelInt_labelText] at this
  exact Option.some.inj this

theorem field_labels {V : Type} (F : Int → V) (m : Int) : ∀ l : List Int,
    field? (labelText m) (l.map fun k => (labelText k, F k)) = if m ∈ l then some (F m) else none
  | [] => rfl
  | k :: l => by
    rw [List.map_cons, field?]
    by_cases h : k = m
    · subst h; simp
    · rw [if_neg (fun e => h (labelText_inj e)), field_labels F m l]
      by_cases hm : m ∈ l
      · rw [if_pos hm, if_pos (List.mem_cons_of_mem _ hm)]
      · rw [if_neg hm, if_neg (by simp only [List.mem_cons, not_or]; exact ⟨fun e => h e.symm, hm⟩)]

theorem field_no_label {V α : Type} (key : String) (hkey : labelInt? key = none) (k : α → Int) (F : α → V) : ∀ l : List α,
    field? key (l.map fun e => (labelText (k e), F e)) = none
  | [] => rfl
  | e :: l => by
    rw [List.map_cons, field?, if_neg, field_no_label key hkey k F l]
    intro h
    rw [← h, labelInt_labelText] at hkey
    exact absurd hkey (by simp)

section
variable {K : Type} [Field K] [LinearOrder K] [IsStrictOrderedRing K] [FloorRing K]

/-! ## Stored numbers -/

theorem round10_idem (x : K) : round10 (round10 x) = round10 x := by
  unfold round10
  have : (round (x * 10 ^ 10) : K) / 10 ^ 10 * 10 ^ 10 = ((round (x * 10 ^ 10) : Int) : K) := by
    rw [div_mul_cancel₀]; positivity
  rw [this, round_intCast]

theorem stored_stored (x : XF K) : stored (stored x) = stored x := by
  cases x with
  | fin x => exact congrArg XF.fin (round10_idem x)
  | nan => rfl
  | pinf => rfl
  | ninf => rfl

/-! ## Loading -/

/-- what is loaded for a table cell -/
def cellL : XF K → Loaded K
  | .fin x => .num (.fin (round10 x))
  | _ => .null

/-- what is loaded for a series or a column -/
def seriesL (l : List (Int × XF K)) : Loaded K := .obj (l.map fun r => (labelText r.1, cellL r.2))

theorem load_cell (x : XF K) : jsonLoad (cellJson x) = .ok (cellL x) := by
  cases x <;> (unfold cellJson jsonLoad; rfl)

theorem loadFields_nil : jsonLoad.loadFields ([] : List (String × Json K)) = .ok [] := by
  unfold jsonLoad.loadFields; rfl

theorem loadFields_cons {k : String} {x : Json K} {y : Loaded K} {r : List (String × Json K)} {s : List (String × Loaded K)}
    (hx : jsonLoad x = .ok y) (hr : jsonLoad.loadFields r = .ok s) : jsonLoad.loadFields ((k, x) :: r) = .ok ((k, y) :: s) := by
  rw [jsonLoad.loadFields, hx]
  show (jsonLoad.loadFields r >>= _) = _
  rw [hr]; rfl

theorem loadFields_map {α : Type} (k : α → String) (f : α → Json K) (g : α → Loaded K) : ∀ l : List α,
    (∀ e ∈ l, jsonLoad (f e) = .ok (g e)) →
    jsonLoad.loadFields (l.map fun e => (k e, f e)) = .ok (l.map fun e => (k e, g e))
  | [], _ => loadFields_nil
  | e :: l, h => loadFields_cons (h e (List.mem_cons_self ..))
      (loadFields_map k f g l fun e he => h e (List.mem_cons_of_mem _ he))

theorem loadList_map {α : Type} (f : α → Json K) (g : α → Loaded K) : ∀ l : List α,
    (∀ e ∈ l, jsonLoad (f e) = .ok (g e)) → jsonLoad.loadList (l.map f) = .ok (l.map g)
  | [], _ => by rw [List.map_nil, jsonLoad.loadList]; rfl
  | e :: l, h => by
    rw [List.map_cons, jsonLoad.loadList, h e (List.mem_cons_self ..)]
    show (jsonLoad.loadList (l.map f) >>= _) = _
    rw [loadList_map f g l fun e he => h e (List.mem_cons_of_mem _ he)]; rfl

theorem load_arr {l : List (Json K)} {r : List (Loaded K)} (h : jsonLoad.loadList l = .ok r) : jsonLoad (.arr l) = .ok (.arr r) := by
  rw [jsonLoad, h]; rfl

theorem load_obj {l : List (String × Json K)} {r : List (String × Loaded K)} (h : jsonLoad.loadFields l = .ok r)
    (hk : field? "p01" r = none) : jsonLoad (.obj l) = .ok (.obj r) := by
  rw [jsonLoad, h]
  show jsonDecoder r = _
  unfold jsonDecoder
  rw [hk]
  rfl

theorem p01_no_label : labelInt? "p01" = none := by decide +kernel

theorem load_labelled {α : Type} (k : α → Int) (f : α → Json K) (g : α → Loaded K) (l : List α)
    (h : ∀ e ∈ l, jsonLoad (f e) = .ok (g e)) :
    jsonLoad (.obj (l.map fun e => (labelText (k e), f e))) = .ok (.obj (l.map fun e => (labelText (k e), g e))) :=
  load_obj (loadFields_map (fun e => labelText (k e)) f g l h) (field_no_label _ p01_no_label k g l)

theorem load_series (l : List (Int × XF K)) :
    jsonLoad (.obj (l.map fun r => (labelText r.1, cellJson r.2))) = .ok (seriesL l) :=
  load_labelled Prod.fst (fun r => cellJson r.2) (fun r => cellL r.2) l fun _ _ => load_cell _

/-! ## Columns -/

theorem mapM_labels {α : Type} (k : α → Int) (g : α → Loaded K) (l : List α) :
    ((l.map fun e => (labelText (k e), g e)).mapM fun e => (labelInt? e.1).map fun k => (k, e.2)) =
      some (l.map fun e => (k e, g e)) := by
  induction l with
  | nil => rfl
  | cons e l ih =>
    rw [List.map_cons, List.mapM_cons, ih, labelInt_labelText]
    rfl

theorem readLabels_eq {α : Type} (k : α → Int) (g : α → Loaded K) (l : List α) :
    readLabels (.obj (l.map fun e => (labelText (k e), g e))) =
      .ok ((l.map fun e => (k e, g e)).insertionSort fun a b => a.1 ≤ b.1) := by
  unfold readLabels
  dsimp only
  rw [mapM_labels]

/-- the rows of a column in the order of the labels -/
def sortedRows (l : List (Int × XF K)) : List (Int × XF K) :=
  (l.map fun e => (e.1, stored e.2)).insertionSort fun a b => a.1 ≤ b.1

theorem cellOfJson_cellL (x : XF K) : cellOfJson (cellL x) = .ok (stored x) := by
  cases x <;> rfl

theorem readColumn_series (l : List (Int × XF K)) : readColumn (seriesL l) = .ok (sortedRows l) := by
  unfold readColumn seriesL
  rw [readLabels_eq Prod.fst (fun r => cellL r.2) l, py_ok_bind]
  have h1 : ((l.map fun e => (e.1, cellL e.2)).insertionSort fun a b => a.1 ≤ b.1) =
      ((l.insertionSort fun a b => a.1 ≤ b.1).map fun e => (e.1, cellL e.2)) :=
    (List.map_insertionSort (r := fun a b : Int × XF K => a.1 ≤ b.1) (s := fun a b : Int × Loaded K => a.1 ≤ b.1) _ _ (by simp)).symm
  have h2 : sortedRows l = ((l.insertionSort fun a b => a.1 ≤ b.1).map fun e => (e.1, stored e.2)) :=
    (List.map_insertionSort (r := fun a b : Int × XF K => a.1 ≤ b.1) (s := fun a b : Int × XF K => a.1 ≤ b.1) _ _ (by simp)).symm
  rw [h1, h2]
  generalize (l.insertionSort fun a b => a.1 ≤ b.1) = l'
  induction l' with
  | nil => rfl
  | cons e l' ih =>
    rw [List.map_cons, List.mapM_cons, cellOfJson_cellL, ih]
    rfl

theorem sortedRows_same {l : List (Int × XF K)} (hn : (l.map Prod.fst).Nodup) : SameRows l (sortedRows l) := by
  have hp : (sortedRows l).Perm (l.map fun e => (e.1, stored e.2)) := List.perm_insertionSort _ _
  refine ⟨hp, ?_⟩
  have hs : (sortedRows l).Pairwise fun a b => a.1 ≤ b.1 := List.pairwise_insertionSort _ _
  have hnd : ((sortedRows l).map Prod.fst).Nodup := by
    have := hp.map Prod.fst
    rw [this.nodup_iff, List.map_map]
    exact hn
  have hle : ((sortedRows l).map Prod.fst).Pairwise (· ≤ ·) := List.pairwise_map.2 hs
  exact (hle.and hnd).imp fun h => lt_of_le_of_ne h.1 h.2

theorem sortedRows_fst (l : List (Int × XF K)) :
    (sortedRows l).map Prod.fst = (l.map Prod.fst).insertionSort (· ≤ ·) := by
  unfold sortedRows
  rw [List.map_insertionSort (r := fun a b : Int × XF K => a.1 ≤ b.1) (s := fun a b : Int => a ≤ b) _ _ (by simp), List.map_map]
  rfl

theorem insertionSort_self {α : Type} {r : α → α → Prop} [DecidableRel r] {l : List α} (h : l.Pairwise r) : l.insertionSort r = l := by
  induction l with
  | nil => rfl
  | cons a l ih =>
    rw [List.pairwise_cons] at h
    rw [List.insertionSort_cons, ih h.2]
    cases l with
    | nil => rfl
    | cons b l => exact List.orderedInsert_cons_of_le _ _ (h.1 b (List.mem_cons_self ..))

theorem sortedRows_self {l : List (Int × XF K)} (h : (l.map Prod.fst).Pairwise (· < ·)) (hst : ∀ e ∈ l, stored e.2 = e.2) :
    sortedRows l = l := by
  have : l.map (fun e => (e.1, stored e.2)) = l := by
    conv_rhs => rw [← List.map_id l]
    apply List.map_congr_left
    intro e he
    rw [hst e he]; rfl
  unfold sortedRows
  rw [this]
  exact insertionSort_self ((List.pairwise_map.1 h).imp fun h => le_of_lt h)

/-! ## Mean courses -/

/-- the values of one month -/
def courseRows (c : MeanCourse K) (m : Int) : List (Int × XF K) := c.hours.map fun h => (h, c.val m h)

/-- what is loaded for a mean course -/
def courseL (c : MeanCourse K) : Loaded K := .obj (c.months.map fun m => (labelText m, seriesL (courseRows c m)))

theorem courseJson_ok {c : MeanCourse K} (hm : c.months.Nodup) (hh : c.hours.Nodup) :
    ∃ j, courseJson c = .ok j ∧ jsonLoad j = .ok (courseL c) := by
  refine ⟨_, if_pos ⟨hm, hh⟩, ?_⟩
  refine load_labelled id _ (fun m => seriesL (courseRows c m)) c.months fun m _ => ?_
  have := load_series (courseRows c m)
  rw [courseRows, List.map_map] at this
  exact this

/-- the mean course that is read -/
def courseRead (c : MeanCourse K) : MeanCourse K where
  months := months12
  hours := c.hours.insertionSort (· ≤ ·)
  val := fun m h => if m ∈ months12 ∧ h ∈ c.hours then stored (c.val m h) else .nan

theorem sortedRows_course (c : MeanCourse K) (m : Int) :
    sortedRows (courseRows c m) = (c.hours.insertionSort (· ≤ ·)).map fun h => (h, stored (c.val m h)) := by
  unfold sortedRows courseRows
  rw [List.map_map]
  exact (List.map_insertionSort (r := fun a b : Int => a ≤ b) (s := fun a b : Int × XF K => a.1 ≤ b.1) _ _ (by simp)).symm

theorem lookup_map_fun {V : Type} (F : Int → V) (m : Int) : ∀ l : List Int,
    (l.map fun k => (k, F k)).lookup m = if m ∈ l then some (F m) else none
  | [] => rfl
  | k :: l => by
    rw [List.map_cons, List.lookup_cons, lookup_map_fun F m l]
    by_cases h : m = k
    · subst h; simp
    · have hb : (m == k) = false := by simpa using h
      rw [hb]
      dsimp only
      by_cases hm : m ∈ l
      · rw [if_pos hm, if_pos (List.mem_cons_of_mem _ hm)]
      · rw [if_neg hm, if_neg (by simp only [List.mem_cons, not_or]; exact ⟨h, hm⟩)]

theorem readCourse_ok {c : MeanCourse K} (ha : ∀ m ∈ months12, m ∈ c.months) : readCourse (courseL c) = .ok (courseRead c) := by
  unfold readCourse courseL
  have h1 : columnsOf (Loaded.obj (c.months.map fun m => (labelText m, seriesL (courseRows c m)))) =
      .ok (c.months.map fun m => (labelText m, seriesL (courseRows c m))) := rfl
  rw [h1, py_ok_bind]
  have h2 : ((c.months.map fun m => (labelText m, seriesL (courseRows c m))).mapM fun e => do
      Except.ok (e.1, ← readColumn e.2)) = (.ok (c.months.map fun m => (labelText m, sortedRows (courseRows c m))) :
        Py (List (String × List (Int × XF K)))) := by
    generalize c.months = ms
    induction ms with
    | nil => rfl
    | cons m ms ih => rw [List.map_cons, List.mapM_cons, readColumn_series, ih]; rfl
  rw [h2, py_ok_bind]
  have h3 : ∀ ms : List Int, (∀ m ∈ ms, m ∈ c.months) → (ms.mapM (pickMonth (c.months.map fun m => (labelText m, sortedRows (courseRows c m))))) = (.ok (ms.map fun m => (m, sortedRows (courseRows c m))) : Py _) := by
    intro ms hms
    induction ms with
    | nil => rfl
    | cons m ms ih =>
      rw [List.mapM_cons, pickMonth, field_labels, if_pos (hms m (List.mem_cons_self ..)), ih fun m hm => hms m (List.mem_cons_of_mem _ hm)]
      rfl
  rw [h3 months12 ha, py_ok_bind]
  have h4 : (((months12.map fun m => (m, sortedRows (courseRows c m))).head?.map Prod.snd).getD []).map Prod.fst =
      c.hours.insertionSort (· ≤ ·) := by
    show (sortedRows (courseRows c 1)).map Prod.fst = _
    rw [sortedRows_course, List.map_map]
    exact List.map_id _
  dsimp only
  rw [h4, if_pos]
  · congr 1
    unfold courseRead
    congr 1
    funext m h
    rw [lookup_map_fun]
    by_cases hm : m ∈ months12
    · rw [if_pos hm, Option.getD_some, sortedRows_course, lookup_map_fun]
      by_cases hh : h ∈ c.hours
      · rw [if_pos (by rw [List.mem_insertionSort]; exact hh), if_pos ⟨hm, hh⟩, Option.getD_some]
      · rw [if_neg (by rw [List.mem_insertionSort]; exact hh), if_neg (fun e => hh e.2), Option.getD_none]
    · rw [if_neg hm, if_neg (fun e => hm e.1)]; rfl
  · rw [List.all_eq_true]
    intro e he
    obtain ⟨m, -, rfl⟩ := List.mem_map.1 he
    rw [beq_iff_eq, sortedRows_course, List.map_map]
    exact List.map_id _

theorem readCourse_missing {c : MeanCourse K} {m : Int} (hm : m ∈ months12) (hmc : m ∉ c.months) :
    readCourse (courseL c) = .error .keyError := by
  unfold readCourse courseL
  have h1 : columnsOf (Loaded.obj (c.months.map fun m => (labelText m, seriesL (courseRows c m)))) =
      .ok (c.months.map fun m => (labelText m, seriesL (courseRows c m))) := rfl
  rw [h1, py_ok_bind]
  have h2 : ((c.months.map fun m => (labelText m, seriesL (courseRows c m))).mapM fun e => do
      Except.ok (e.1, ← readColumn e.2)) = (.ok (c.months.map fun m => (labelText m, sortedRows (courseRows c m))) :
        Py (List (String × List (Int × XF K)))) := by
    generalize c.months = ms
    induction ms with
    | nil => rfl
    | cons m ms ih => rw [List.map_cons, List.mapM_cons, readColumn_series, ih]; rfl
  rw [h2, py_ok_bind]
  have h3 : ∀ ms : List Int, m ∈ ms → (ms.mapM (pickMonth (c.months.map fun m => (labelText m, sortedRows (courseRows c m))))) = (.error .keyError : Py _) := by
    intro ms hms
    induction ms with
    | nil => exact absurd hms (by simp)
    | cons k ms ih =>
      rw [List.mapM_cons, pickMonth, field_labels]
      by_cases hk : k ∈ c.months
      · rw [if_pos hk]
        have : m ∈ ms := by
          rcases List.mem_cons.1 hms with rfl | h
          · exact absurd hk hmc
          · exact h
        rw [ih this]; rfl
      · rw [if_neg hk]; rfl
  rw [h3 months12 hm]
  rfl

theorem months12_eq : months12 = [1, 2, 3, 4, 5, 6, 7, 8, 9, 10, 11, 12] := by decide

theorem courseRead_same {c : MeanCourse K} (hh : c.hours.Nodup) (ha : ∀ m ∈ months12, m ∈ c.months) : SameCourse c (courseRead c) := by
  refine ⟨months12_eq, List.perm_insertionSort _ _, ?_, ?_⟩
  · have h1 : (c.hours.insertionSort (· ≤ ·)).Pairwise (· ≤ ·) := List.pairwise_insertionSort _ _
    have h2 : (c.hours.insertionSort (· ≤ ·)).Nodup := (List.perm_insertionSort _ _).nodup_iff.2 hh
    exact (h1.and h2).imp fun h => lt_of_le_of_ne h.1 h.2
  · intro m hm h
    have hm' : m ∈ months12 := hm
    have hmc := ha m hm'
    have hms : (months12.contains m) = true := by rw [List.contains_iff_mem]; exact hm'
    have hmcs : (c.months.contains m) = true := by rw [List.contains_iff_mem]; exact hmc
    unfold MeanCourse.lookup
    show (if months12.contains m && (c.hours.insertionSort (· ≤ ·)).contains h then _ else _) = _
    rw [hms, hmcs]
    by_cases hc : h ∈ c.hours
    · have h1 : ((c.hours.insertionSort (· ≤ ·)).contains h) = true := by
        rw [List.contains_iff_mem, List.mem_insertionSort]; exact hc
      have h2 : (c.hours.contains h) = true := by rw [List.contains_iff_mem]; exact hc
      rw [h1, h2]
      simp only [Bool.and_self, if_true, courseRead]
      rw [if_pos ⟨hm', hc⟩]; rfl
    · have h1 : ((c.hours.insertionSort (· ≤ ·)).contains h) = false := by
        rw [Bool.eq_false_iff]; intro e; rw [List.contains_iff_mem, List.mem_insertionSort] at e; exact hc e
      have h2 : (c.hours.contains h) = false := by
        rw [Bool.eq_false_iff]; intro e; rw [List.contains_iff_mem] at e; exact hc e
      rw [h1, h2]; rfl

theorem courseRead_idem {c : MeanCourse K} (hh : c.hours.Nodup) : courseRead (courseRead c) = courseRead c := by
  have h1 : (c.hours.insertionSort (· ≤ ·)).Pairwise (· ≤ ·) := List.pairwise_insertionSort _ _
  unfold courseRead
  dsimp only
  congr 1
  · exact insertionSort_self h1
  · funext m h
    by_cases hc : m ∈ months12 ∧ h ∈ c.hours
    · rw [if_pos ⟨hc.1, by rw [List.mem_insertionSort]; exact hc.2⟩, if_pos hc, stored_stored]
    · rw [if_neg hc, if_neg]
      intro e; exact hc ⟨e.1, by rw [← List.mem_insertionSort (r := (· ≤ ·))]; exact e.2⟩

/-! ## The table of categories -/

/-- a column of a table with numbered rows, as loaded -/
def rowsL (l : List (Loaded K)) : Loaded K := .obj (l.zipIdx.map fun e => (labelText e.2, e.1))

theorem load_rows {α : Type} (f : α → Json K) (g : α → Loaded K) (l : List α) (h : ∀ e ∈ l, jsonLoad (f e) = .ok (g e)) :
    jsonLoad (rowsJson (l.map f)) = .ok (rowsL (l.map g)) := by
  unfold rowsJson rowsL
  rw [List.zipIdx_map, List.zipIdx_map, List.map_map, List.map_map]
  refine load_labelled (fun e : α × Nat => (e.2 : Int)) (fun e => f e.1) (fun e => g e.1) l.zipIdx ?_
  intro e he
  exact h _ (List.fst_mem_of_mem_zipIdx he)

theorem readLabels_rows (l : List (Loaded K)) : readLabels (rowsL l) = .ok (l.zipIdx.map fun e => ((e.2 : Int), e.1)) := by
  unfold rowsL
  rw [readLabels_eq (fun e : Loaded K × Nat => (e.2 : Int)) (fun e => e.1)]
  congr 1
  apply insertionSort_self
  rw [List.pairwise_map]
  have h : ((l.zipIdx.map Prod.snd).Pairwise (· < ·)) := by
    rw [List.zipIdx_map_snd]; exact List.pairwise_lt_range'
  rw [List.pairwise_map] at h
  exact h.imp fun h => by simpa using le_of_lt h

theorem mapM_rows {α β : Type} (f : Loaded K → Py β) (g : α → Loaded K) (r : α → β) (l : List α)
    (h : ∀ e ∈ l, f (g e) = .ok (r e)) :
    (((l.map g).zipIdx.map fun e => ((e.2 : Int), e.1)).mapM fun e => f e.2) = .ok (l.map r) := by
  rw [List.zipIdx_map, List.map_map]
  have : ∀ (l : List α) (n : Nat), (∀ e ∈ l, f (g e) = .ok (r e)) →
      (((l.zipIdx n).map ((fun e : Loaded K × Nat => ((e.2 : Int), e.1)) ∘ Prod.map g id)).mapM fun e => f e.2) = .ok (l.map r) := by
    intro l
    induction l with
    | nil => intro n _; rfl
    | cons a l ih =>
      intro n hl
      rw [List.zipIdx_cons, List.map_cons, List.mapM_cons]
      show (f (g a) >>= _) = _
      rw [hl a (List.mem_cons_self ..), py_ok_bind, ih (n + 1) fun e he => hl e (List.mem_cons_of_mem _ he)]
      rfl
  exact this l 0 h

theorem readColumn_rows (l : List (XF K)) : readColumn (rowsL (l.map cellL)) = .ok (l.zipIdx.map fun e => ((e.2 : Int), stored e.1)) := by
  unfold readColumn
  rw [readLabels_rows, py_ok_bind, List.zipIdx_map, List.map_map]
  have : ∀ (l : List (XF K)) (n : Nat),
      (((l.zipIdx n).map ((fun e : Loaded K × Nat => ((e.2 : Int), e.1)) ∘ Prod.map cellL id)).mapM fun r => do
        Except.ok (r.1, ← cellOfJson r.2)) = (.ok ((l.zipIdx n).map fun e => ((e.2 : Int), stored e.1)) : Py _) := by
    intro l
    induction l with
    | nil => intro n; rfl
    | cons a l ih =>
      intro n
      rw [List.zipIdx_cons, List.map_cons, List.mapM_cons]
      show ((do Except.ok ((n : Int), ← cellOfJson (cellL a))) >>= _) = _
      rw [cellOfJson_cellL, py_ok_bind, py_ok_bind, ih (n + 1)]
      rfl
  exact this l 0

/-- what is loaded for the table of categories -/
def tableL (t : CatMeans K) : Loaded K :=
  .obj [("level_0", rowsL (t.map fun r => .num (.fin (r.1.1 : K)))), ("level_1", rowsL (t.map fun r => .num (.fin (r.1.2.1 : K)))),
    ("level_2", rowsL (t.map fun r => .bool r.1.2.2)), ("hum", rowsL ((t.map Prod.snd).map cellL))]

theorem load_table (t : CatMeans K) : jsonLoad (tableJson t) = .ok (tableL t) := by
  unfold tableJson tableL
  refine load_obj (loadFields_cons (load_rows _ _ t fun _ _ => by rw [jsonLoad]) (loadFields_cons (load_rows _ _ t fun _ _ => by rw [jsonLoad])
    (loadFields_cons (load_rows _ _ t fun _ _ => by rw [jsonLoad]) (loadFields_cons ?_ loadFields_nil)))) (by simp [field?])
  rw [List.map_map]
  exact load_rows _ _ t fun r _ => load_cell r.2

theorem intOfJson_cast (k : Int) : intOfJson (.num (.fin (k : K))) = .ok k := by
  unfold intOfJson
  dsimp only
  rw [Int.floor_intCast, if_pos rfl]

theorem readTable_eq (t : CatMeans K) : readTable (tableL t) =
    if t.length = 1 then .error .attributeError else .ok (t.map fun e => (e.1, stored e.2)) := by
  unfold readTable
  have h0 : columnsOf (tableL t) = .ok [("level_0", rowsL (t.map fun r => .num (.fin (r.1.1 : K)))),
    ("level_1", rowsL (t.map fun r => .num (.fin (r.1.2.1 : K)))),
    ("level_2", rowsL (t.map fun r => .bool r.1.2.2)), ("hum", rowsL ((t.map Prod.snd).map cellL))] := rfl
  rw [h0, py_ok_bind]
  have f0 : ∀ (a b c d : Loaded K), field? "level_0" [("level_0", a), ("level_1", b), ("level_2", c), ("hum", d)] = some a := by
    intros; simp [field?]
  have f1 : ∀ (a b c d : Loaded K), field? "level_1" [("level_0", a), ("level_1", b), ("level_2", c), ("hum", d)] = some b := by
    intros; simp [field?]
  have f2 : ∀ (a b c d : Loaded K), field? "level_2" [("level_0", a), ("level_1", b), ("level_2", c), ("hum", d)] = some c := by
    intros; simp [field?]
  have f3 : ∀ (a b c d : Loaded K), ([("level_0", a), ("level_1", b), ("level_2", c), ("hum", d)].filter fun e =>
      !(["level_0", "level_1", "level_2"].contains e.1)) = [("hum", d)] := by
    intros; rfl
  dsimp only
  rw [f0, f1, f2, f3]
  dsimp only
  rw [readLabels_rows, readLabels_rows, readLabels_rows]
  rw [py_ok_bind, mapM_rows intOfJson _ (fun r : (Int × Int × Bool) × XF K => r.1.1) t (fun e _ => intOfJson_cast _)]
  rw [py_ok_bind, py_ok_bind, mapM_rows intOfJson _ (fun r : (Int × Int × Bool) × XF K => r.1.2.1) t (fun e _ => intOfJson_cast _)]
  rw [py_ok_bind, py_ok_bind, mapM_rows boolOfJson _ (fun r : (Int × Int × Bool) × XF K => r.1.2.2) t (fun e _ => rfl)]
  rw [py_ok_bind, readColumn_rows, py_ok_bind]
  have hl : (((t.map Prod.snd).zipIdx.map fun e => ((e.2 : Int), stored e.1))).length = t.length := by simp
  rw [hl]
  by_cases h1 : t.length = 1
  · rw [if_pos h1, if_pos h1]
  · rw [if_neg h1, if_neg h1]
    congr 1
    have : ∀ (t : CatMeans K) (n : Nat),
        ((((t.map fun r => r.1.1).zip ((t.map fun r => r.1.2.1).zip (t.map fun r => r.1.2.2))).zip
          (((t.map Prod.snd).zipIdx n).map fun e => ((e.2 : Int), stored e.1))).map fun e => (e.1, e.2.2)) =
        t.map fun e => (e.1, stored e.2) := by
      intro t
      induction t with
      | nil => intro n; rfl
      | cons a t ih =>
        intro n
        simp only [List.map_cons, List.zipIdx_cons, List.zip_cons_cons]
        rw [ih (n + 1)]
    exact this t 0

/-! ## Cascade statistics -/

mutual
/-- what is loaded for nested lists -/
def nestedL : Nested K → Loaded K
  | .num x => .num x
  | .list l => .arr (nestedLs l)
/-- see `nestedL` -/
def nestedLs : List (Nested K) → List (Loaded K)
  | [] => []
  | x :: r => nestedL x :: nestedLs r
end

mutual
theorem load_nested : ∀ x : Nested K, jsonLoad (nestedJson x) = .ok (nestedL x)
  | .num x => by rw [nestedJson, jsonLoad, nestedL]
  | .list l => by rw [nestedJson, nestedL]; exact load_arr (load_nesteds l)
theorem load_nesteds : ∀ l : List (Nested K), jsonLoad.loadList (nestedJson.nestedList l) = .ok (nestedLs l)
  | [] => by rw [nestedJson.nestedList, jsonLoad.loadList, nestedLs]
  | x :: r => by
    rw [nestedJson.nestedList, jsonLoad.loadList, nestedLs, load_nested x, py_ok_bind, load_nesteds r]
    rfl
end

mutual
theorem nested_nestedL : ∀ x : Nested K, (nestedL x).nested? = some x
  | .num x => by rw [nestedL, Loaded.nested?]
  | .list l => by rw [nestedL, Loaded.nested?, nesteds_nestedLs l]; rfl
theorem nesteds_nestedLs : ∀ l : List (Nested K), Loaded.nested?.nestedList? (nestedLs l) = some l
  | [] => by rw [nestedLs, Loaded.nested?.nestedList?]
  | x :: r => by
    rw [nestedLs, Loaded.nested?.nestedList?, nested_nestedL x, nesteds_nestedLs r]
    rfl
end

theorem load_casc (s : CascStats K) : jsonLoad (cascJson s) = .ok (.casc s) := by
  unfold cascJson
  have h : jsonLoad.loadFields [("p01", nestedJson (matList s.p01)), ("p10", nestedJson (matList s.p10)),
      ("pxx", nestedJson (matList s.pxx)), ("wxx", nestedJson (.list ((List.finRange 7).map fun k => matList (s.wxx k)))),
      ("threshold", nestedJson (vecList s.threshold)), ("percentile", Json.num (.fin s.percentile))] =
    .ok [("p01", nestedL (matList s.p01)), ("p10", nestedL (matList s.p10)),
      ("pxx", nestedL (matList s.pxx)), ("wxx", nestedL (.list ((List.finRange 7).map fun k => matList (s.wxx k)))),
      ("threshold", nestedL (vecList s.threshold)), ("percentile", Loaded.num (.fin s.percentile))] :=
    loadFields_cons (load_nested _) (loadFields_cons (load_nested _) (loadFields_cons (load_nested _)
      (loadFields_cons (load_nested _) (loadFields_cons (load_nested _) (loadFields_cons (by rw [jsonLoad]) loadFields_nil)))))
  rw [jsonLoad, h, py_ok_bind]
  unfold jsonDecoder
  rw [if_pos (by simp [field?])]
  have hd : cascDict [("p01", nestedL (matList s.p01)), ("p10", nestedL (matList s.p10)),
      ("pxx", nestedL (matList s.pxx)), ("wxx", nestedL (.list ((List.finRange 7).map fun k => matList (s.wxx k)))),
      ("threshold", nestedL (vecList s.threshold)), ("percentile", Loaded.num (.fin s.percentile))] = .ok s.toDict := by
    unfold cascDict
    simp only [field?, String.reduceEq, if_true, if_false, nested_nestedL, py_ok_bind]
    rfl
  rw [hd, py_ok_bind, (C30_from_dict_round_trip s).1]
  rfl

/-- what is loaded for an entry of `precip.stats` -/
def optionsL : CascOptions K → Loaded K
  | .one s => .casc s
  | .many l => .arr (l.map .casc)
  | .other => .null

theorem options_ok {o : CascOptions K} (h : (∃ c, o = .one c) ∨ ∃ cs, o = .many cs) :
    ∃ j, optionsJson o = .ok j ∧ jsonLoad j = .ok (optionsL o) ∧ readOptions (optionsL o) = .ok o := by
  rcases h with ⟨c, rfl⟩ | ⟨cs, rfl⟩
  · exact ⟨_, rfl, load_casc c, rfl⟩
  · refine ⟨_, rfl, load_arr (loadList_map _ _ cs fun c _ => load_casc c), ?_⟩
    unfold optionsL readOptions
    dsimp only
    have : (cs.map Loaded.casc).mapM readCasc =
        (.ok cs : Py (List (CascStats K))) := by
      induction cs with
      | nil => rfl
      | cons c cs ih => rw [List.map_cons, List.mapM_cons, ih]; rfl
    rw [this]; rfl

theorem stats_ok {l : List (CascOptions K)} (h : ∀ o ∈ l, (∃ c, o = .one c) ∨ ∃ cs, o = .many cs) :
    ∃ js, l.mapM optionsJson = .ok js ∧ jsonLoad (.arr js) = .ok (.arr (l.map optionsL)) ∧
      readStats (.arr (l.map optionsL)) = .ok l := by
  have : ∃ js, l.mapM optionsJson = .ok js ∧ jsonLoad.loadList js = .ok (l.map optionsL) ∧ (l.map optionsL).mapM readOptions = .ok l := by
    induction l with
    | nil => exact ⟨[], rfl, by rw [jsonLoad.loadList]; rfl, rfl⟩
    | cons o l ih =>
      obtain ⟨j, h1, h2, h3⟩ := options_ok (h o (List.mem_cons_self ..))
      obtain ⟨js, g1, g2, g3⟩ := ih fun o ho => h o (List.mem_cons_of_mem _ ho)
      refine ⟨j :: js, ?_, ?_, ?_⟩
      · rw [List.mapM_cons, h1, g1]; rfl
      · rw [jsonLoad.loadList, h2, py_ok_bind, g2]; rfl
      · rw [List.map_cons, List.mapM_cons, h3, g3]; rfl
  obtain ⟨js, h1, h2, h3⟩ := this
  exact ⟨js, h1, load_arr h2, h3⟩

end

end Melodist
