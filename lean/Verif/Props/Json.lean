import Verif.Lemmas.JsonStats

/-!
# C69: JSON export and import of station statistics
-/

set_option linter.unusedSectionVars false

namespace Melodist

open Spec

/-- **C69** (round trip).  Every exportable statistics object can be exported; the import succeeds; scalars, months and cascade statistics are
restored exactly, tables to 10 decimals and sorted by label, absent statistics stay absent; there is no position and no time zone. -/
theorem C69_round_trip {s : StatObj} (hs : Exportable s) :
    ∃ j r, s.toJson = .ok j ∧ StatObj.fromJson j = .ok r ∧ Restored s r := by
  obtain ⟨j, h1, h2⟩ := round_trip_eq hs.writable
  exact ⟨j, _, h1, h2.trans (readBack_ok hs), restoredObj_restored hs⟩

/-- **C69** (second round trip).  What has been imported can be exported and imported again, and nothing changes any more. -/
theorem C69_twice {s r : StatObj} {j : Json ℝ} (hs : Exportable s) (hj : s.toJson = .ok j) (hr : StatObj.fromJson j = .ok r) :
    ∃ j', r.toJson = .ok j' ∧ StatObj.fromJson j' = .ok r := by
  obtain ⟨j1, h1, h2⟩ := round_trip_eq hs.writable
  obtain rfl : j1 = j := Except.ok.inj (h1.symm.trans hj)
  obtain rfl : restoredObj s = r := Except.ok.inj ((h2.trans (readBack_ok hs)).symm.trans hr)
  have he := restoredObj_exportable hs
  obtain ⟨j2, h3, h4⟩ := round_trip_eq he.writable
  exact ⟨j2, h3, h4.trans ((readBack_ok he).trans (by rw [restoredObj_idem hs]))⟩

/-- **C69** (precision).  A stored value differs from the value by at most half a unit of the tenth decimal; integers are stored exactly. -/
theorem C69_precision {K : Type} [Field K] [LinearOrder K] [IsStrictOrderedRing K] [FloorRing K] (x : K) :
    (∃ y, stored (.fin x) = .fin y ∧ |x - y| ≤ 1 / 2 / 10 ^ 10) ∧ ∀ n : Int, stored (.fin (n : K)) = .fin (n : K) := by
  refine ⟨⟨_, rfl, ?_⟩, ?_⟩
  · have h := abs_sub_round (x * 10 ^ 10)
    have h10 : (0 : K) < 10 ^ 10 := by positivity
    have : x - (round (x * 10 ^ 10) : K) / 10 ^ 10 = (x * 10 ^ 10 - round (x * 10 ^ 10)) / 10 ^ 10 := by
      field_simp
    rw [this, abs_div, abs_of_pos h10]
    gcongr
  · intro n
    have h10 : (10 ^ 10 : K) ≠ 0 := by positivity
    have : (n : K) * 10 ^ 10 = ((n * 10 ^ 10 : Int) : K) := by push_cast; norm_num
    unfold stored
    dsimp only
    rw [this, round_intCast, ← this, mul_div_assoc, div_self h10, mul_one]

/-- **C69** (missing month).  If the mean course of temperature or radiation lacks a month, the object is exported but cannot be imported again:
KeyError. -/
theorem C69_missing_month {s : StatObj} (hs : Exportable { s with temp := { s.temp with course := none }, glob := { s.glob with course := none } })
    (ht : ∀ c, s.temp.course = some c → c.months.Nodup ∧ c.hours.Nodup)
    (hg : ∀ c, s.glob.course = some c → c.months.Nodup ∧ c.hours.Nodup)
    {c : MeanCourse ℝ} (hc : s.temp.course = some c ∨ s.glob.course = some c) {m : Int} (hm : 1 ≤ m ∧ m ≤ 12) (hmc : m ∉ c.months) :
    ∃ j, s.toJson = .ok j ∧ StatObj.fromJson j = .error .keyError := by
  have hw : StatWritable s := ⟨fun l hl => (hs.maxDelta l hl).1, ht, hg, hs.stats, hs.ang, hs.bc⟩
  obtain ⟨j, h1, h2⟩ := round_trip_eq hw
  refine ⟨j, h1, h2.trans ?_⟩
  have hm' : m ∈ months12 := by
    rw [months12_eq]
    simp only [List.mem_cons, List.not_mem_nil, or_false]
    omega
  have herr : ∀ o : Option (MeanCourse ℝ), optM (fun c => readCourse (courseL c)) o = .error .keyError ∨
      ∃ r, optM (fun c => readCourse (courseL c)) o = .ok r := by
    intro o
    cases o with
    | none => exact Or.inr ⟨none, rfl⟩
    | some c =>
      by_cases ha : ∀ m ∈ months12, m ∈ c.months
      · right
        refine ⟨some (courseRead c), ?_⟩
        unfold optM
        dsimp only
        rw [readCourse_ok ha]; rfl
      · left
        push Not at ha
        obtain ⟨m, h1, h2⟩ := ha
        exact optM_error (readCourse_missing h1 h2)
  have hbad : optM (fun c => readCourse (courseL c)) (some c) = .error .keyError := optM_error (readCourse_missing hm' hmc)
  have h3 := readBack_maxDelta hs
  have h4 := readBack_table hs
  dsimp only at h3 h4
  unfold readBack
  rw [h3, py_ok_bind, h4]
  rcases hc with hc | hc
  · rw [hc, hbad]; rfl
  · rcases herr s.temp.course with h | ⟨r, h⟩
    · rw [h]; rfl
    · rw [h, py_ok_bind, py_ok_bind, hc, hbad]; rfl

/-- **C69** (single category).  A table of monthly means with one single category is exported but cannot be imported: AttributeError. -/
theorem C69_single_category {s : StatObj} (hs : Exportable { s with hum := { s.hum with table := none } }) {t : CatMeans ℝ}
    (ht : s.hum.table = some t) (h1 : t.length = 1) : ∃ j, s.toJson = .ok j ∧ StatObj.fromJson j = .error .attributeError := by
  have hw : StatWritable s := ⟨fun l hl => (hs.maxDelta l hl).1,
    fun c hc => ⟨(hs.tempCourse c hc).months, (hs.tempCourse c hc).hours⟩,
    fun c hc => ⟨(hs.globCourse c hc).months, (hs.globCourse c hc).hours⟩, hs.stats, hs.ang, hs.bc⟩
  obtain ⟨j, h2, h3⟩ := round_trip_eq hw
  refine ⟨j, h2, h3.trans ?_⟩
  have h4 := readBack_maxDelta hs
  have h5 := readBack_course hs.tempCourse
  dsimp only at h4 h5
  unfold readBack
  rw [h4, py_ok_bind, h5, py_ok_bind, ht, optM_error (e := .attributeError) (by rw [readTable_eq, if_pos h1])]
  rfl

/-- **C69** (repeated labels).  An object with a repeated label in a mean course is not exported: ValueError. -/
theorem C69_repeated_label {s : StatObj} {c : MeanCourse ℝ}
    (hmd : ∀ l, s.temp.maxDelta = some l → (l.map Prod.fst).Nodup) (hc : s.temp.course = some c)
    (hd : ¬ c.months.Nodup ∨ ¬ c.hours.Nodup) : s.toJson = .error .valueError := by
  obtain ⟨j1, e1, -⟩ := optJson_ok (f := seriesJson) (L := seriesL) (o := s.temp.maxDelta) fun l hl => seriesJson_ok (hmd l hl)
  unfold StatObj.toJson
  rw [e1, py_ok_bind, hc]
  have : optJson courseJson (some c) = .error .valueError := by
    unfold optJson courseJson
    dsimp only
    rw [if_neg]
    tauto
  rw [this]; rfl

/-- **C69** (missing group).  A file without one of the five groups cannot be imported: KeyError. -/
theorem C69_missing_group {l : List (String × Json ℝ)} {key : String} (hk : key ∈ ["temp", "hum", "precip", "wind", "glob"])
    (hl : ∀ e ∈ l, e.1 ≠ key) (hg : ∀ e ∈ l, e.1 ≠ "p01" ∧ ∃ g, jsonLoad e.2 = .ok (.obj g)) :
    StatObj.fromJson (.obj l) = .error .keyError := by
  obtain ⟨r, hr, hr2⟩ : ∃ r : List (String × Loaded ℝ), jsonLoad.loadFields l = .ok r ∧
      (∀ k, field? k r = none ∨ ∃ g, field? k r = some (.obj g)) ∧ (∀ k, (∀ e ∈ l, e.1 ≠ k) → field? k r = none) := by
    clear hl
    induction l with
    | nil => exact ⟨[], loadFields_nil, fun k => Or.inl rfl, fun k _ => rfl⟩
    | cons e l ih =>
      obtain ⟨r, h1, h2, h3⟩ := ih fun e he => hg e (List.mem_cons_of_mem _ he)
      obtain ⟨g, h4⟩ := (hg e (List.mem_cons_self ..)).2
      refine ⟨(e.1, .obj g) :: r, loadFields_cons h4 h1, fun k => ?_, fun k hk => ?_⟩
      · unfold field?
        split
        · exact Or.inr ⟨g, rfl⟩
        · exact h2 k
      · unfold field?
        rw [if_neg (hk e (List.mem_cons_self ..))]
        exact h3 k fun e he => hk e (List.mem_cons_of_mem _ he)
  have hload : jsonLoad (.obj l) = .ok (.obj r) := load_obj hr (hr2.2 _ fun e he => (hg e he).1)
  have hgr : ∀ k, groupOf (.obj r) k = .error .keyError ∨ ∃ g, groupOf (.obj r) k = .ok g := by
    intro k
    unfold groupOf
    dsimp only
    rcases hr2.1 k with h | ⟨g, h⟩
    · rw [h]; exact Or.inl rfl
    · rw [h]; exact Or.inr ⟨g, rfl⟩
  have hkey : groupOf (.obj r) key = .error .keyError := by
    unfold groupOf
    dsimp only
    rw [hr2.2 key hl]
  unfold StatObj.fromJson
  rw [hload, py_ok_bind]
  rcases hgr "temp" with h1 | ⟨g1, h1⟩
  · rw [h1]; rfl
  rcases hgr "hum" with h2 | ⟨g2, h2⟩
  · rw [h1, h2]; rfl
  rcases hgr "precip" with h3 | ⟨g3, h3⟩
  · rw [h1, h2, h3]; rfl
  rcases hgr "wind" with h4 | ⟨g4, h4⟩
  · rw [h1, h2, h3, h4]; rfl
  rcases hgr "glob" with h5 | ⟨g5, h5⟩
  · rw [h1, h2, h3, h4, h5]; rfl
  exfalso
  simp only [List.mem_cons, List.not_mem_nil, or_false] at hk
  rcases hk with rfl | rfl | rfl | rfl | rfl
  · rw [h1] at hkey; cases hkey
  · rw [h2] at hkey; cases hkey
  · rw [h3] at hkey; cases hkey
  · rw [h4] at hkey; cases hkey
  · rw [h5] at hkey; cases hkey

/-! ## Examples -/

noncomputable section

/-- a filled object: labels out of order, a missing shift, an infinite mean, months in reverse order, several cascades for one season -/
def filledObj : StatObj where
  lon := some 10
  wind := { a := some 1, b := some 2, tShift := some 3 }
  precip := { months := some [[12, 1, 2], [6, 7, 8]], stats := some [.one CascStats.init, .many [CascStats.init, CascStats.init.fillSample]] }
  hum := { a0 := some 1, kr := some 12, table := some [((1, 0, true), .fin 50), ((1, 0, false), .pinf), ((2, 5, true), .fin (1 / 3))] }
  temp := {
    maxDelta := some [(2, .fin (1 / 3)), (1, .nan)]
    course := some { months := [12, 11, 10, 9, 8, 7, 6, 5, 4, 3, 2, 1, 13], hours := [3, 0], val := fun m h => .fin (m + h) } }

theorem allMonths_labels (x : XF ℝ) : (allMonths x).map Prod.fst = [1, 2, 3, 4, 5, 6, 7, 8, 9, 10, 11, 12] := rfl

theorem default_glob : (allMonths (.fin 0.25)).map Prod.fst = (allMonths (.fin 0.75)).map Prod.fst ∧
    ((allMonths (.fin 0.25)).map Prod.fst).Nodup := by
  rw [allMonths_labels, allMonths_labels]
  exact ⟨rfl, by decide⟩

theorem default_glob' : (allMonths (.fin 0.75)).map Prod.fst = (allMonths (.fin 2.4)).map Prod.fst ∧
    ((allMonths (.fin 0.75)).map Prod.fst).Nodup := by
  rw [allMonths_labels, allMonths_labels]
  exact ⟨rfl, by decide⟩

/-- the object of `StationStatistics()` can be exported -/
theorem default_exportable : Exportable {} where
  maxDelta _ h := by cases h
  tempCourse _ h := by cases h
  globCourse _ h := by cases h
  table _ h := by cases h
  stats _ h := by cases h
  ang := default_glob
  bc := default_glob'

theorem filled_exportable : Exportable filledObj where
  maxDelta l h := by
    cases h
    exact ⟨by decide, Or.inl ⟨(2, .fin (1 / 3)), by simp, 1 / 3, rfl, by norm_num⟩⟩
  tempCourse c h := by
    cases h
    exact ⟨by decide, by decide, by decide⟩
  globCourse _ h := by cases h
  table t h := by cases h; simp
  stats l h := by
    cases h
    intro o ho
    simp only [List.mem_cons, List.not_mem_nil, or_false] at ho
    rcases ho with rfl | rfl
    · exact Or.inl ⟨_, rfl⟩
    · exact Or.inr ⟨_, rfl⟩
  ang := default_glob
  bc := default_glob'

/-- the round trip of both objects -/
example : (∃ j r, StatObj.toJson {} = .ok j ∧ StatObj.fromJson j = .ok r ∧ Restored {} r) ∧
    ∃ j r, filledObj.toJson = .ok j ∧ StatObj.fromJson j = .ok r ∧ Restored filledObj r :=
  ⟨C69_round_trip default_exportable, C69_round_trip filled_exportable⟩

/-- what `Restored` says about the filled object -/
example {r : StatObj} (h : Restored filledObj r) :
    r.lon = none ∧ r.wind.tShift = some 3 ∧ r.hum.a1 = none ∧ r.precip = filledObj.precip ∧
    r.temp.maxDelta = some [(1, .nan), (2, .fin (3333333333 / 10000000000))] ∧
    r.hum.table = some [((1, 0, true), .fin 50), ((1, 0, false), .nan), ((2, 5, true), .fin (3333333333 / 10000000000))] ∧
    (∃ c, r.temp.course = some c ∧ c.hours = [0, 3] ∧ c.lookup 7 3 = .ok (.fin 10)) ∧ r.glob.course = none := by
  have h13 : stored (.fin (1 / 3 : ℝ)) = .fin (3333333333 / 10000000000) := by
    unfold stored
    dsimp only
    have : round (1 / 3 * 10 ^ 10 : ℝ) = 3333333333 := by
      rw [round_eq, Int.floor_eq_iff]
      constructor <;> norm_num
    rw [this]
    norm_num
  refine ⟨h.position.1, by rw [h.wind]; rfl, h.hum.2.1, h.precip, ?_, ?_, ?_, ?_⟩
  · have hm := h.maxDelta
    cases hr : r.temp.maxDelta with
    | none => rw [hr] at hm; exact hm.elim
    | some l =>
      rw [hr] at hm
      have hm : SameRows [(2, .fin (1 / 3)), (1, .nan)] l := hm
      have hp : l.Perm [(1, .nan), (2, .fin (3333333333 / 10000000000))] := by
        refine hm.rows.trans ?_
        rw [List.map_cons, List.map_cons, List.map_nil, h13]
        exact List.Perm.swap _ _ _
      have hs : l.Pairwise fun a b => a.1 < b.1 := (List.pairwise_map).1 hm.sorted
      refine congrArg some (List.Perm.eq_of_pairwise (le := fun a b => a.1 < b.1) ?_ hs (by simp) hp)
      intro a b _ _ h1 h2
      exact absurd h1 (lt_asymm h2)
  · rw [h.table]
    have h50 := (C69_precision (0 : ℝ)).2 50
    norm_num at h50
    show some [((1, 0, true), stored (.fin 50)), ((1, 0, false), stored .pinf), ((2, 5, true), stored (.fin (1 / 3)))] = _
    rw [h13, h50]
    rfl
  · have hm := h.tempCourse
    cases hr : r.temp.course with
    | none => rw [hr] at hm; exact hm.elim
    | some c =>
      rw [hr] at hm
      have hm : SameCourse (K := ℝ) { months := [12, 11, 10, 9, 8, 7, 6, 5, 4, 3, 2, 1, 13], hours := [3, 0], val := fun m h => .fin (m + h) } c := hm
      refine ⟨c, rfl, ?_, ?_⟩
      · have hp : c.hours.Perm [0, 3] := hm.hours.trans (List.Perm.swap _ _ _)
        exact List.Perm.eq_of_pairwise (le := (· < ·)) (fun a b _ _ h1 h2 => absurd h1 (lt_asymm h2)) hm.sorted (by decide) hp
      · rw [hm.val 7 (by rw [hm.months]; decide) 3]
        show (Except.ok (stored (.fin (((7 : Int) : ℝ) + ((3 : Int) : ℝ)))) : Py (XF ℝ)) = _
        rw [← Int.cast_add, (C69_precision (0 : ℝ)).2]
        norm_num
  · have hm := h.globCourse
    cases hr : r.glob.course with
    | none => rfl
    | some c => rw [hr] at hm; exact hm.elim

/-- a mean course of a summer campaign: exported, but not imported -/
example : ∃ j, StatObj.toJson { temp := { course := some { months := [6, 7], hours := [0], val := fun _ _ => .fin 1 } } } = .ok j ∧
    StatObj.fromJson j = .error .keyError :=
  C69_missing_month (c := { months := [6, 7], hours := [0], val := fun _ _ => .fin 1 }) (m := 1) default_exportable
    (fun c h => by cases h; decide) (fun c h => by cases h) (Or.inl rfl) (by decide) (by decide)

/-- a single category -/
example : ∃ j, StatObj.toJson { hum := { table := some [((1, 0, true), .fin 50)] } } = .ok j ∧ StatObj.fromJson j = .error .attributeError :=
  C69_single_category (t := [((1, 0, true), .fin 50)]) default_exportable rfl rfl

/-- a repeated month -/
example : StatObj.toJson { temp := { course := some { months := [6, 6], hours := [0], val := fun _ _ => .fin 1 } } } = .error .valueError :=
  C69_repeated_label (c := { months := [6, 6], hours := [0], val := fun _ _ => .fin 1 }) (fun _ h => by cases h) rfl (Or.inl (by decide))

/-- an empty file, and a file with the temperature group only -/
example : StatObj.fromJson (.obj []) = .error .keyError ∧ StatObj.fromJson (.obj [("temp", .obj [])]) = .error .keyError :=
  ⟨C69_missing_group (key := "temp") (by simp) (by simp) (by simp),
    C69_missing_group (key := "glob") (by simp) (by simp) (by
      intro e he
      obtain rfl := List.mem_singleton.1 he
      exact ⟨by simp, [], load_obj loadFields_nil rfl⟩)⟩

end

end Melodist
