import Verif.Lemmas.Json

/-!
# Export and import of a whole statistics object
-/

set_option linter.unusedSectionVars false

namespace Melodist

open Spec

section
variable {K : Type} [Field K] [LinearOrder K] [IsStrictOrderedRing K] [FloorRing K]

/-- an object or None, as loaded -/
def optL {α : Type} (L : α → Loaded K) : Option α → Loaded K
  | none => .null
  | some x => L x

/-- apply to what is there -/
def optM {α β : Type} (f : α → Py β) : Option α → Py (Option β)
  | none => .ok none
  | some x => do .ok (some (← f x))

theorem optField_eq {α β : Type} {read : Loaded K → Py β} {L : α → Loaded K} (hL : ∀ x, L x ≠ .null) {g : List (String × Loaded K)}
    {key : String} {o : Option α} (h : field? key g = some (optL L o)) :
    optField read g key = optM (fun x => read (L x)) o := by
  unfold optField
  rw [h]
  cases o with
  | none => rfl
  | some x =>
    have := hL x
    unfold optM optL
    dsimp only
    generalize L x = v at *
    cases v with
    | null => exact absurd rfl this
    | _ => rfl

theorem optJson_ok {α : Type} {f : α → Py (Json K)} {L : α → Loaded K} {o : Option α}
    (h : ∀ x, o = some x → ∃ j, f x = .ok j ∧ jsonLoad j = .ok (L x)) : ∃ j, optJson f o = .ok j ∧ jsonLoad j = .ok (optL L o) := by
  cases o with
  | none => exact ⟨.null, rfl, by rw [jsonLoad]; rfl⟩
  | some x => exact h x rfl

/-- a number or None, as loaded -/
def optNumL : Option K → Loaded K
  | none => .null
  | some x => .num (.fin x)

theorem load_optNum (x : Option K) : jsonLoad (optNumJson x) = .ok (optNumL x) := by
  cases x <;> (unfold optNumJson; rw [jsonLoad]; rfl)

theorem numField_eq {g : List (String × Loaded K)} {key : String} {x : Option K} (h : field? key g = some (optNumL x)) :
    numField g key = .ok x := by
  unfold numField
  rw [h]
  cases x <;> rfl

/-- the months, as loaded -/
def monthsL (l : List (List Int)) : Loaded K := .arr (l.map fun ms => .arr (ms.map fun m : Int => .num (.fin (m : K))))

theorem load_months (l : List (List Int)) :
    jsonLoad (.arr (l.map fun ms => .arr (ms.map fun m : Int => Json.num (.fin (m : K))))) = .ok (monthsL l) := by
  refine load_arr (loadList_map _ _ l fun ms _ => load_arr (loadList_map _ _ ms fun m _ => ?_))
  rw [jsonLoad]

theorem readMonths_monthsL (l : List (List Int)) : readMonths (monthsL l : Loaded K) = .ok l := by
  have h1 : ∀ ms : List Int, readSeason (.arr (ms.map fun m : Int => .num (.fin (m : K)))) = .ok ms := by
    intro ms
    unfold readSeason
    dsimp only
    induction ms with
    | nil => rfl
    | cons m ms ih => rw [List.map_cons, List.mapM_cons, intOfJson_cast, ih]; rfl
  unfold readMonths monthsL
  dsimp only
  induction l with
  | nil => rfl
  | cons ms l ih => rw [List.map_cons, List.mapM_cons, h1, ih]; rfl

theorem seriesJson_ok {l : List (Int × XF K)} (h : (l.map Prod.fst).Nodup) :
    ∃ j, seriesJson l = .ok j ∧ jsonLoad j = .ok (seriesL l) := ⟨_, if_pos h, load_series l⟩

/-- a frame with two columns, as loaded -/
def pairL (n1 n2 : String) (a b : List (Int × XF K)) : Loaded K := .obj [(n1, seriesL a), (n2, seriesL b)]

theorem pairJson_ok {n1 n2 : String} (h1 : n1 ≠ "p01") (h2 : n2 ≠ "p01") {a b : List (Int × XF K)}
    (he : a.map Prod.fst = b.map Prod.fst) (hn : (a.map Prod.fst).Nodup) :
    ∃ j, pairJson n1 n2 a b = .ok j ∧ jsonLoad j = .ok (pairL n1 n2 a b) := by
  obtain ⟨ja, ea, la⟩ := seriesJson_ok hn
  obtain ⟨jb, eb, lb⟩ := seriesJson_ok (he ▸ hn)
  refine ⟨.obj [(n1, ja), (n2, jb)], ?_, ?_⟩
  · unfold pairJson
    rw [if_pos he, ea, eb]; rfl
  · exact load_obj (loadFields_cons la (loadFields_cons lb loadFields_nil)) (by simp [field?, h1, h2])

theorem readPair_eq {n1 n2 : String} (hn : n1 ≠ n2) (a b : List (Int × XF K)) :
    readPair n1 n2 (pairL n1 n2 a b) = .ok (sortedRows a, sortedRows b) := by
  unfold readPair pairL
  have h1 : columnsOf (Loaded.obj [(n1, seriesL a), (n2, seriesL b)]) = .ok [(n1, seriesL a), (n2, seriesL b)] := rfl
  have h2 : field? n1 [(n1, seriesL a), (n2, seriesL b)] = some (seriesL a) := by simp [field?]
  have h3 : field? n2 [(n1, seriesL a), (n2, seriesL b)] = some (seriesL b) := by simp [field?, hn]
  rw [h1, py_ok_bind, h2, h3]
  dsimp only
  rw [readColumn_series, readColumn_series]
  rfl

theorem readSeries_ok {l : List (Int × XF K)}
    (h : (∃ e ∈ l, ∃ x : K, e.2 = .fin x ∧ x ≤ 31536000) ∨ ∀ e ∈ l, ∀ x : K, e.2 ≠ .fin x) :
    readSeries (seriesL l) = .ok (sortedRows l) := by
  unfold readSeries
  rw [readColumn_series, py_ok_bind, if_neg]
  have hp : (sortedRows l).Perm (l.map fun e => (e.1, stored e.2)) := List.perm_insertionSort _ _
  rw [Bool.and_eq_true, not_and_or]
  rcases h with ⟨e, he, x, hx, hle⟩ | h
  · left
    intro hall
    rw [List.all_eq_true] at hall
    have := hall (e.1, stored e.2) (hp.mem_iff.2 (List.mem_map.2 ⟨e, he, rfl⟩))
    rw [hx] at this
    have this' : decide (31536000 < (round (x * 10 ^ 10) : K) / 10 ^ 10) = true := this
    rw [decide_eq_true_eq, lt_div_iff₀ (by positivity)] at this'
    have h2 : ((31536000 * 10 ^ 10 : Int) : K) < (round (x * 10 ^ 10) : K) := by
      have e : ((31536000 * 10 ^ 10 : Int) : K) = 31536000 * 10 ^ 10 := by push_cast; norm_num
      rw [e]; exact this'
    rw [Int.cast_lt] at h2
    have h3 : round (x * 10 ^ 10) ≤ 31536000 * 10 ^ 10 := by
      have : x * 10 ^ 10 ≤ ((31536000 * 10 ^ 10 : Int) : K) := by
        have e : ((31536000 * 10 ^ 10 : Int) : K) = 31536000 * 10 ^ 10 := by push_cast; norm_num
        rw [e]; exact mul_le_mul_of_nonneg_right hle (by positivity)
      rw [round_eq]
      have h4 : ⌊x * 10 ^ 10 + 1 / 2⌋ ≤ ⌊((31536000 * 10 ^ 10 : Int) : K) + 1 / 2⌋ := Int.floor_le_floor (by linarith)
      have h5 : ⌊((31536000 * 10 ^ 10 : Int) : K) + 1 / 2⌋ = 31536000 * 10 ^ 10 := by
        rw [Int.floor_eq_iff]
        constructor
        · linarith
        · linarith
      omega
    omega
  · right
    intro hany
    rw [List.any_eq_true] at hany
    obtain ⟨e, he, hne⟩ := hany
    obtain ⟨e', he', rfl⟩ := List.mem_map.1 (hp.mem_iff.1 he)
    have h1 := h e' he'
    cases hx : e'.2 with
    | fin x => exact h1 x hx
    | nan => rw [hx] at hne; exact absurd hne (by simp [stored, XF.isNan])
    | pinf => rw [hx] at hne; exact absurd hne (by simp [stored, XF.isNan])
    | ninf => rw [hx] at hne; exact absurd hne (by simp [stored, XF.isNan])

end

/-- an object that can be written -/
structure StatWritable (s : StatObj) : Prop where
  maxDelta : ∀ l, s.temp.maxDelta = some l → (l.map Prod.fst).Nodup
  tempCourse : ∀ c, s.temp.course = some c → c.months.Nodup ∧ c.hours.Nodup
  globCourse : ∀ c, s.glob.course = some c → c.months.Nodup ∧ c.hours.Nodup
  stats : ∀ l, s.precip.stats = some l → ∀ o ∈ l, (∃ c, o = .one c) ∨ ∃ cs, o = .many cs
  ang : s.glob.angA.map Prod.fst = s.glob.angB.map Prod.fst ∧ (s.glob.angA.map Prod.fst).Nodup
  bc : s.glob.bcA.map Prod.fst = s.glob.bcC.map Prod.fst ∧ (s.glob.bcA.map Prod.fst).Nodup

noncomputable section

/-- the object that is read, or the exception -/
def readBack (s : StatObj) : Py StatObj := do
  let maxDelta ← optM (fun l => readSeries (seriesL l)) s.temp.maxDelta
  let course ← optM (fun c => readCourse (courseL c)) s.temp.course
  let table ← optM (fun t => readTable (tableL t)) s.hum.table
  let globCourse ← optM (fun c => readCourse (courseL c)) s.glob.course
  .ok {
    temp := { maxDelta := maxDelta, course := course }
    hum := { a0 := s.hum.a0, a1 := s.hum.a1, kr := s.hum.kr, table := table }
    precip := s.precip
    wind := s.wind
    glob := { angA := sortedRows s.glob.angA, angB := sortedRows s.glob.angB, bcA := sortedRows s.glob.bcA,
              bcC := sortedRows s.glob.bcC, course := globCourse } }

/-- the precipitation statistics, as loaded -/
def statsL (l : List (CascOptions ℝ)) : Loaded ℝ := .arr (l.map optionsL)

theorem round_trip_eq {s : StatObj} (hs : StatWritable s) : ∃ j, s.toJson = .ok j ∧ StatObj.fromJson j = readBack s := by
  obtain ⟨j1, e1, l1⟩ := optJson_ok (f := seriesJson) (L := seriesL) (o := s.temp.maxDelta)
    fun l hl => seriesJson_ok (hs.maxDelta l hl)
  obtain ⟨j2, e2, l2⟩ := optJson_ok (f := courseJson) (L := courseL) (o := s.temp.course)
    fun c hc => courseJson_ok (hs.tempCourse c hc).1 (hs.tempCourse c hc).2
  obtain ⟨j3, e3, l3⟩ := optJson_ok (f := fun l => do .ok (Json.arr (← l.mapM optionsJson))) (L := statsL) (o := s.precip.stats)
    fun l hl => by
      obtain ⟨js, h1, h2, -⟩ := stats_ok (hs.stats l hl)
      exact ⟨.arr js, by rw [h1]; rfl, h2⟩
  obtain ⟨j4, e4, l4⟩ := optJson_ok (f := fun t => .ok (tableJson t)) (L := tableL) (o := s.hum.table)
    fun t _ => ⟨_, rfl, load_table t⟩
  obtain ⟨j5, e5, l5⟩ := pairJson_ok (n1 := "a") (n2 := "b") (by decide) (by decide) hs.ang.1 hs.ang.2
  obtain ⟨j6, e6, l6⟩ := pairJson_ok (n1 := "a") (n2 := "c") (by decide) (by decide) hs.bc.1 hs.bc.2
  obtain ⟨j7, e7, l7⟩ := optJson_ok (f := courseJson) (L := courseL) (o := s.glob.course)
    fun c hc => courseJson_ok (hs.globCourse c hc).1 (hs.globCourse c hc).2
  obtain ⟨j8, e8, l8⟩ : ∃ j8, (match s.precip.months with
        | none => .null
        | some l => .arr (l.map fun ms => .arr (ms.map fun m : Int => .num (.fin (m : ℝ))))) = j8 ∧
      jsonLoad j8 = .ok (optL monthsL s.precip.months) := by
    cases s.precip.months with
    | none => exact ⟨_, rfl, by rw [jsonLoad]; rfl⟩
    | some l => exact ⟨_, rfl, load_months l⟩
  refine ⟨.obj [
    ("temp", .obj [("max_delta", j1), ("mean_course", j2)]),
    ("wind", .obj [("a", optNumJson s.wind.a), ("b", optNumJson s.wind.b), ("t_shift", optNumJson s.wind.tShift)]),
    ("precip", .obj [("months", j8), ("stats", j3)]),
    ("hum", .obj [("a0", optNumJson s.hum.a0), ("a1", optNumJson s.hum.a1), ("kr", optNumJson s.hum.kr), ("month_hour_precip_mean", j4)]),
    ("glob", .obj [("angstroem", j5), ("bristcamp", j6), ("mean_course", j7)])], ?_, ?_⟩
  · unfold StatObj.toJson
    rw [e1, e2, e3, e4, e5, e6, e7, ← e8]
    rfl
  · have hl : jsonLoad (.obj [
        ("temp", .obj [("max_delta", j1), ("mean_course", j2)]),
        ("wind", .obj [("a", optNumJson s.wind.a), ("b", optNumJson s.wind.b), ("t_shift", optNumJson s.wind.tShift)]),
        ("precip", .obj [("months", j8), ("stats", j3)]),
        ("hum", .obj [("a0", optNumJson s.hum.a0), ("a1", optNumJson s.hum.a1), ("kr", optNumJson s.hum.kr),
          ("month_hour_precip_mean", j4)]),
        ("glob", .obj [("angstroem", j5), ("bristcamp", j6), ("mean_course", j7)])]) = .ok (.obj [
        ("temp", .obj [("max_delta", optL seriesL s.temp.maxDelta), ("mean_course", optL courseL s.temp.course)]),
        ("wind", .obj [("a", optNumL s.wind.a), ("b", optNumL s.wind.b), ("t_shift", optNumL s.wind.tShift)]),
        ("precip", .obj [("months", optL monthsL s.precip.months), ("stats", optL statsL s.precip.stats)]),
        ("hum", .obj [("a0", optNumL s.hum.a0), ("a1", optNumL s.hum.a1), ("kr", optNumL s.hum.kr),
          ("month_hour_precip_mean", optL tableL s.hum.table)]),
        ("glob", .obj [("angstroem", pairL "a" "b" s.glob.angA s.glob.angB), ("bristcamp", pairL "a" "c" s.glob.bcA s.glob.bcC),
          ("mean_course", optL courseL s.glob.course)])]) := by
      refine load_obj (loadFields_cons ?_ (loadFields_cons ?_ (loadFields_cons ?_ (loadFields_cons ?_ (loadFields_cons ?_ loadFields_nil)))))
        (by simp [field?])
      · exact load_obj (loadFields_cons l1 (loadFields_cons l2 loadFields_nil)) (by simp [field?])
      · exact load_obj (loadFields_cons (load_optNum _) (loadFields_cons (load_optNum _) (loadFields_cons (load_optNum _) loadFields_nil)))
          (by simp [field?])
      · exact load_obj (loadFields_cons l8 (loadFields_cons l3 loadFields_nil)) (by simp [field?])
      · exact load_obj (loadFields_cons (load_optNum _) (loadFields_cons (load_optNum _) (loadFields_cons (load_optNum _)
          (loadFields_cons l4 loadFields_nil)))) (by simp [field?])
      · exact load_obj (loadFields_cons l5 (loadFields_cons l6 (loadFields_cons l7 loadFields_nil))) (by simp [field?])
    unfold StatObj.fromJson
    rw [hl]
    simp only [py_ok_bind, groupOf, field?, String.reduceEq, if_true, if_false]
    rw [optField_eq (L := seriesL) (o := s.temp.maxDelta) (by intro x h; cases h) (by simp [field?]),
      optField_eq (L := courseL) (o := s.temp.course) (by intro x h; cases h) (by simp [field?]),
      optField_eq (L := tableL) (o := s.hum.table) (by intro x h; cases h) (by simp [field?]),
      optField_eq (L := courseL) (o := s.glob.course) (by intro x h; cases h) (by simp [field?]),
      optField_eq (L := monthsL) (o := s.precip.months) (by intro x h; cases h) (by simp [field?]),
      optField_eq (L := statsL) (o := s.precip.stats) (by intro x h; cases h) (by simp [field?]),
      numField_eq (x := s.hum.a0) (by simp [field?]), numField_eq (x := s.hum.a1) (by simp [field?]),
      numField_eq (x := s.hum.kr) (by simp [field?]), numField_eq (x := s.wind.a) (by simp [field?]),
      numField_eq (x := s.wind.b) (by simp [field?]), numField_eq (x := s.wind.tShift) (by simp [field?])]
    have hp1 : ∀ d, pairField "a" "b" [("angstroem", pairL "a" "b" s.glob.angA s.glob.angB), ("bristcamp", pairL "a" "c" s.glob.bcA s.glob.bcC),
          ("mean_course", optL courseL s.glob.course)] "angstroem" d = .ok (sortedRows s.glob.angA, sortedRows s.glob.angB) := by
      intro d
      unfold pairField
      simp only [field?, if_true]
      exact readPair_eq (by decide) _ _
    have hp2 : ∀ d, pairField "a" "c" [("angstroem", pairL "a" "b" s.glob.angA s.glob.angB), ("bristcamp", pairL "a" "c" s.glob.bcA s.glob.bcC),
          ("mean_course", optL courseL s.glob.course)] "bristcamp" d = .ok (sortedRows s.glob.bcA, sortedRows s.glob.bcC) := by
      intro d
      unfold pairField
      simp only [field?, String.reduceEq, if_true, if_false]
      exact readPair_eq (by decide) _ _
    rw [hp1, hp2]
    have hm : optM (fun x => readMonths (monthsL x : Loaded ℝ)) s.precip.months = .ok s.precip.months := by
      cases s.precip.months with
      | none => rfl
      | some l => unfold optM; dsimp only; rw [readMonths_monthsL]; rfl
    have hst : optM (fun x => readStats (statsL x)) s.precip.stats = .ok s.precip.stats := by
      cases h : s.precip.stats with
      | none => rfl
      | some l =>
        obtain ⟨js, -, -, h3⟩ := stats_ok (hs.stats l h)
        unfold optM statsL
        dsimp only
        rw [h3]; rfl
    rw [hm, hst]
    unfold readBack
    simp only [py_ok_bind]

end

/-! ## Exportable objects -/

theorem Spec.Exportable.writable {s : StatObj} (hs : Exportable s) : StatWritable s :=
  ⟨fun l hl => (hs.maxDelta l hl).1, fun c hc => ⟨(hs.tempCourse c hc).months, (hs.tempCourse c hc).hours⟩,
    fun c hc => ⟨(hs.globCourse c hc).months, (hs.globCourse c hc).hours⟩, hs.stats, hs.ang, hs.bc⟩

noncomputable section

/-- the object that is read, for an exportable object -/
def restoredObj (s : StatObj) : StatObj where
  temp := { maxDelta := s.temp.maxDelta.map sortedRows, course := s.temp.course.map courseRead }
  hum := { a0 := s.hum.a0, a1 := s.hum.a1, kr := s.hum.kr, table := s.hum.table.map fun t => t.map fun e => (e.1, stored e.2) }
  precip := s.precip
  wind := s.wind
  glob := { angA := sortedRows s.glob.angA, angB := sortedRows s.glob.angB, bcA := sortedRows s.glob.bcA,
            bcC := sortedRows s.glob.bcC, course := s.glob.course.map courseRead }

end

theorem optM_ok {α β : Type} {f : α → Py β} {g : α → β} {o : Option α} (h : ∀ x, o = some x → f x = .ok (g x)) :
    optM f o = .ok (o.map g) := by
  cases o with
  | none => rfl
  | some x => unfold optM; dsimp only; rw [h x rfl]; rfl

theorem optM_error {α β : Type} {f : α → Py β} {x : α} {e : PyErr} (h : f x = .error e) : optM f (some x) = .error e := by
  unfold optM; dsimp only; rw [h]; rfl

theorem readBack_maxDelta {s : StatObj} (hs : Exportable s) :
    optM (fun l => readSeries (seriesL l)) s.temp.maxDelta = .ok (s.temp.maxDelta.map sortedRows) :=
  optM_ok fun l hl => readSeries_ok (hs.maxDelta l hl).2

theorem readBack_course {o : Option (MeanCourse ℝ)} (hs : ∀ c, o = some c → FullCourse c) :
    optM (fun c => readCourse (courseL c)) o = .ok (o.map courseRead) :=
  optM_ok fun c hc => readCourse_ok (months12_eq ▸ (hs c hc).all)

theorem readBack_table {s : StatObj} (hs : Exportable s) :
    optM (fun t => readTable (tableL t)) s.hum.table = .ok (s.hum.table.map fun t => t.map fun e => (e.1, stored e.2)) :=
  optM_ok fun t ht => by rw [readTable_eq, if_neg (hs.table t ht)]

theorem readBack_ok {s : StatObj} (hs : Exportable s) : readBack s = .ok (restoredObj s) := by
  unfold readBack
  rw [readBack_maxDelta hs, py_ok_bind, readBack_course hs.tempCourse, py_ok_bind, readBack_table hs, py_ok_bind,
    readBack_course hs.globCourse, py_ok_bind]
  rfl

theorem sameOption_map {α : Type} {P : α → α → Prop} {f : α → α} {o : Option α} (h : ∀ x, o = some x → P x (f x)) :
    SameOption P o (o.map f) := by
  cases o with
  | none => trivial
  | some x => exact h x rfl

theorem restoredObj_restored {s : StatObj} (hs : Exportable s) : Restored s (restoredObj s) where
  position := ⟨rfl, rfl, rfl⟩
  wind := rfl
  precip := rfl
  hum := ⟨rfl, rfl, rfl⟩
  table := rfl
  maxDelta := sameOption_map fun l hl => sortedRows_same (hs.maxDelta l hl).1
  tempCourse := sameOption_map fun c hc => courseRead_same (hs.tempCourse c hc).hours (months12_eq ▸ (hs.tempCourse c hc).all)
  ang := ⟨sortedRows_same hs.ang.2, sortedRows_same (hs.ang.1 ▸ hs.ang.2)⟩
  bc := ⟨sortedRows_same hs.bc.2, sortedRows_same (hs.bc.1 ▸ hs.bc.2)⟩
  globCourse := sameOption_map fun c hc => courseRead_same (hs.globCourse c hc).hours (months12_eq ▸ (hs.globCourse c hc).all)

theorem stored_sortedRows {K : Type} [Field K] [LinearOrder K] [IsStrictOrderedRing K] [FloorRing K] {l : List (Int × XF K)} :
    ∀ e ∈ sortedRows l, stored e.2 = e.2 := by
  intro e he
  obtain ⟨e', _, rfl⟩ := List.mem_map.1 ((List.perm_insertionSort _ _).mem_iff.1 he)
  exact stored_stored _

theorem sortedRows_idem {K : Type} [Field K] [LinearOrder K] [IsStrictOrderedRing K] [FloorRing K] {l : List (Int × XF K)}
    (hn : (l.map Prod.fst).Nodup) : sortedRows (sortedRows l) = sortedRows l :=
  sortedRows_self (sortedRows_same hn).sorted stored_sortedRows

/-- the restored object of a restored object is itself -/
theorem restoredObj_idem {s : StatObj} (hs : Exportable s) : restoredObj (restoredObj s) = restoredObj s := by
  have h1 : (s.temp.maxDelta.map sortedRows).map sortedRows = s.temp.maxDelta.map sortedRows := by
    cases h : s.temp.maxDelta with
    | none => rfl
    | some l => exact congrArg some (sortedRows_idem (hs.maxDelta l h).1)
  have h2 : ∀ o : Option (MeanCourse ℝ), (∀ c, o = some c → FullCourse c) → (o.map courseRead).map courseRead = o.map courseRead := by
    intro o ho
    cases h : o with
    | none => rfl
    | some c => exact congrArg some (courseRead_idem (ho c h).hours)
  have h3 : (s.hum.table.map fun t => t.map fun e => (e.1, stored e.2)).map (fun t => t.map fun e => (e.1, stored e.2)) =
      s.hum.table.map fun t => t.map fun e => (e.1, stored e.2) := by
    cases s.hum.table with
    | none => rfl
    | some t =>
      refine congrArg some ?_
      dsimp only
      rw [List.map_map]
      exact List.map_congr_left fun e _ => by simp only [Function.comp, stored_stored]
  unfold restoredObj
  dsimp only
  rw [h1, h2 _ hs.tempCourse, h2 _ hs.globCourse, h3, sortedRows_idem hs.ang.2, sortedRows_idem (hs.ang.1 ▸ hs.ang.2),
    sortedRows_idem hs.bc.2, sortedRows_idem (hs.bc.1 ▸ hs.bc.2)]

/-- stored values are not above `31536000` if the value is not -/
theorem stored_le {x : ℝ} (h : x ≤ 31536000) : ∃ y : ℝ, stored (.fin x) = .fin y ∧ y ≤ 31536000 := by
  refine ⟨_, rfl, ?_⟩
  rw [div_le_iff₀ (by positivity)]
  have e : ((31536000 * 10 ^ 10 : Int) : ℝ) = 31536000 * 10 ^ 10 := by push_cast; norm_num
  rw [← e, Int.cast_le, round_eq]
  have h5 : ⌊((31536000 * 10 ^ 10 : Int) : ℝ) + 1 / 2⌋ = 31536000 * 10 ^ 10 := by
    rw [Int.floor_eq_iff]
    constructor <;> linarith
  rw [← h5]
  apply Int.floor_le_floor
  rw [e]
  have : x * 10 ^ 10 ≤ 31536000 * 10 ^ 10 := mul_le_mul_of_nonneg_right h (by positivity)
  linarith

theorem restoredObj_exportable {s : StatObj} (hs : Exportable s) : Exportable (restoredObj s) where
  maxDelta l hl := by
    obtain ⟨l', h1, rfl⟩ := Option.map_eq_some_iff.1 hl
    obtain ⟨h2, h3⟩ := hs.maxDelta l' h1
    have hp : (sortedRows l').Perm (l'.map fun e => (e.1, stored e.2)) := List.perm_insertionSort _ _
    refine ⟨((sortedRows_same h2).sorted).imp ne_of_lt, ?_⟩
    rcases h3 with ⟨e, he, x, hx, hle⟩ | h3
    · left
      obtain ⟨y, hy, hyl⟩ := stored_le hle
      exact ⟨(e.1, stored e.2), hp.mem_iff.2 (List.mem_map.2 ⟨e, he, rfl⟩), y, by rw [hx]; exact hy, hyl⟩
    · right
      intro e he x hx
      obtain ⟨e', he', rfl⟩ := List.mem_map.1 (hp.mem_iff.1 he)
      have := h3 e' he'
      cases h : e'.2 with
      | fin y => exact this y h
      | _ => simp [h, stored] at hx
  tempCourse c hc := by
    obtain ⟨c', h1, rfl⟩ := Option.map_eq_some_iff.1 hc
    have := courseRead_same (hs.tempCourse c' h1).hours (months12_eq ▸ (hs.tempCourse c' h1).all)
    exact ⟨by rw [this.months]; decide, this.sorted.imp ne_of_lt, fun m hm => by rw [this.months]; exact hm⟩
  globCourse c hc := by
    obtain ⟨c', h1, rfl⟩ := Option.map_eq_some_iff.1 hc
    have := courseRead_same (hs.globCourse c' h1).hours (months12_eq ▸ (hs.globCourse c' h1).all)
    exact ⟨by rw [this.months]; decide, this.sorted.imp ne_of_lt, fun m hm => by rw [this.months]; exact hm⟩
  table t ht := by
    obtain ⟨t', h1, rfl⟩ := Option.map_eq_some_iff.1 ht
    rw [List.length_map]
    exact hs.table t' h1
  stats := hs.stats
  ang := by
    refine ⟨?_, (sortedRows_same hs.ang.2).sorted.imp ne_of_lt⟩
    show (sortedRows _).map _ = (sortedRows _).map _
    rw [sortedRows_fst, sortedRows_fst, hs.ang.1]
  bc := by
    refine ⟨?_, (sortedRows_same hs.bc.2).sorted.imp ne_of_lt⟩
    show (sortedRows _).map _ = (sortedRows _).map _
    rw [sortedRows_fst, sortedRows_fst, hs.bc.1]

end Melodist
