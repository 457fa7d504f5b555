import Verif.Lemmas.DataIO
import Mathlib.Data.Rat.Floor

/-!
# KNMI files (C74, C90)
-/

set_option linter.unusedSectionVars false

namespace Melodist.DataIO

open Text Spec

variable {K : Type} [Field K] [LinearOrder K] [IsStrictOrderedRing K]

theorem cellOf_div (o : Option Numeral) {k : K} (hk : k ≠ 0) : cellOf id o / XF.fin k = cellOf (fun x => x / k) o := by
  cases o with
  | none => rfl
  | some x => simp [cellOf, XF.fin_div_fin_of_ne _ hk]

/-- **C74.**  A KNMI file with the columns `YYYYMMDD, HH, T, RH, Q, U, FH, SQ` (in any order, among others, any blanks in front of the fields) and hours
1 to 24: one row per record, in the order of the file, at the end of the hour of the record (hour 24: midnight of the next day), the values converted,
empty fields missing, negative precipitation set to 0.  Needs a pandas version with `pd.datetime`; without it a file with records always gives a TypeError. -/
theorem C74_read (api : PandasApi) {explanation : List Text} {names : List (Nat × String)} {recs : List ((String → Nat) × KnmiRecord)}
    (h : KnmiText explanation names recs) (hcols : ∀ n ∈ ["T", "RH", "Q", "U", "FH", "SQ"], n ∈ names.map Prod.snd)
    (hhour : ∀ r ∈ recs, 1 ≤ r.2.hour ∧ r.2.hour ≤ 24) :
    (api.pdDatetime = true → readKnmi (K := K) api (knmiFile explanation names recs) = .ok (knmiFrame (recs.map Prod.snd))) ∧
    (api.pdDatetime = false → recs ≠ [] → readKnmi (K := K) api (knmiFile explanation names recs) = .error .typeError) := by
  have hnot : ¬ ("YYYYMMDD" ∉ names.map Prod.snd ∨ "HH" ∉ names.map Prod.snd) := by
    rintro (hh | hh)
    · exact hh h.day
    · exact hh h.hour
  constructor
  · intro hapi
    unfold readKnmi
    rw [knmi_table h, py_ok_bind]
    dsimp only
    rw [if_neg hnot, if_neg (by rw [hapi]; decide), column_eq (field := fun (r : (String → Nat) × KnmiRecord) n => r.2.field n) h.day,
      column_eq (field := fun (r : (String → Nat) × KnmiRecord) n => r.2.field n) h.hour]
    simp only [pure_bind, py_ok_bind]
    rw [List.zip_map', List.mapM_map]
    rw [mapM_ok (g := fun r : (String → Nat) × KnmiRecord => r.2.day * DAY + r.2.hour * HOUR) (fun r hr => by
      show knmiTime (r.2.field "YYYYMMDD") (r.2.field "HH") = _
      have e1 : r.2.field "YYYYMMDD" = ymd r.2.day := by unfold KnmiRecord.field; rw [if_pos rfl]
      have e2 : r.2.field "HH" = ofNat r.2.hour := by unfold KnmiRecord.field; rw [if_neg (by decide), if_pos rfl]
      rw [e1, e2]
      exact knmiTime_ok (h.years r hr) (hhour r hr).1 (hhour r hr).2), py_ok_bind]
    rw [knmi_nums (hcols "T" (by decide)) (by decide) (by decide), py_ok_bind, knmi_nums (hcols "RH" (by decide)) (by decide) (by decide), py_ok_bind,
      knmi_nums (hcols "Q" (by decide)) (by decide) (by decide), py_ok_bind, knmi_nums (hcols "U" (by decide)) (by decide) (by decide), py_ok_bind,
      knmi_nums (hcols "FH" (by decide)) (by decide) (by decide), py_ok_bind, knmi_nums (hcols "SQ" (by decide)) (by decide) (by decide), py_ok_bind]
    have hT : ∀ o : Option Numeral, cellOf id o / XF.fin (10 : K) + XF.fin (5463 / 20) = cellOf (fun x => x / 10 + 273.15) o := by
      intro o
      rw [cellOf_div _ (by norm_num)]
      cases o with
      | none => rfl
      | some x => simp only [cellOf, XF.fin_add_fin]; norm_num
    have hP : ∀ o : Option Numeral, (if XF.lt (cellOf id o / XF.fin (10 : K)) (.fin 0) then XF.fin (0 : K) else cellOf id o / XF.fin (10 : K)) =
        cellOf (fun x => max 0 (x / 10)) o := by
      intro o
      rw [cellOf_div _ (by norm_num)]
      cases o with
      | none => rfl
      | some x =>
        simp only [cellOf, XF.lt_fin]
        by_cases hx : (x.value : K) / 10 < 0
        · rw [if_pos hx, max_eq_left hx.le]
        · rw [if_neg hx, max_eq_right (not_lt.1 hx)]
    have hQ : ∀ o : Option Numeral, cellOf id o * XF.fin (10000 : K) / XF.fin 3600 = cellOf (fun x => x * 10000 / 3600) o := by
      intro o
      cases o with
      | none => rfl
      | some x => simp [cellOf, XF.fin_div_fin_of_ne]
    have hS : ∀ o : Option Numeral, cellOf id o * XF.fin (6 : K) = cellOf (fun x => x * 6) o := by
      intro o
      cases o with
      | none => rfl
      | some x => rfl
    unfold knmiFrame
    simp only [List.map_map, Function.comp_def, hT, hP, hQ, hS]
    simp only [cellOf_div _ (by norm_num : (10 : K) ≠ 0)]
  · intro hapi hne
    unfold readKnmi
    rw [knmi_table h, py_ok_bind]
    dsimp only
    rw [if_neg hnot, if_pos hapi, if_neg (by simpa using hne)]
    rfl

/-- **C74.**  An hour outside 1..24 gives ValueError; a file without one of the columns `T, RH, Q, U, FH, SQ` gives KeyError. -/
theorem C74_errors (api : PandasApi) (hapi : api.pdDatetime = true) {explanation : List Text} {names : List (Nat × String)}
    {recs : List ((String → Nat) × KnmiRecord)} (h : KnmiText explanation names recs) :
    ((∃ r ∈ recs, ¬ (1 ≤ r.2.hour ∧ r.2.hour ≤ 24)) → readKnmi (K := K) api (knmiFile explanation names recs) = .error .valueError) ∧
    ((∀ r ∈ recs, 1 ≤ r.2.hour ∧ r.2.hour ≤ 24) → (∃ n ∈ ["T", "RH", "Q", "U", "FH", "SQ"], n ∉ names.map Prod.snd) →
      readKnmi (K := K) api (knmiFile explanation names recs) = .error .keyError) := by
  have hnot : ¬ ("YYYYMMDD" ∉ names.map Prod.snd ∨ "HH" ∉ names.map Prod.snd) := by
    rintro (hh | hh)
    · exact hh h.day
    · exact hh h.hour
  have htime : ∀ r ∈ recs, knmiTime (r.2.field "YYYYMMDD") (r.2.field "HH") =
      if 1 ≤ r.2.hour ∧ r.2.hour ≤ 24 then .ok (r.2.day * DAY + r.2.hour * HOUR) else .error .valueError := by
    intro r hr
    have e1 : r.2.field "YYYYMMDD" = ymd r.2.day := by unfold KnmiRecord.field; rw [if_pos rfl]
    have e2 : r.2.field "HH" = ofNat r.2.hour := by unfold KnmiRecord.field; rw [if_neg (by decide), if_pos rfl]
    rw [e1, e2]
    by_cases hc : 1 ≤ r.2.hour ∧ r.2.hour ≤ 24
    · rw [if_pos hc]; exact knmiTime_ok (h.years r hr) hc.1 hc.2
    · rw [if_neg hc]; exact knmiTime_bad (h.years r hr) hc
  have hstart : readKnmi (K := K) api (knmiFile explanation names recs) = (do
      let index ← recs.mapM fun r => knmiTime (r.2.field "YYYYMMDD") (r.2.field "HH")
      let t : Table := ⟨names.map Prod.snd, recs.map fun r => (names.map Prod.snd).map fun n => r.2.field n⟩
      let temp ← t.nums none "T"
      let precip ← t.nums none "RH"
      let glob ← t.nums none "Q"
      let hum ← t.nums none "U"
      let wind ← t.nums none "FH"
      let ssd ← t.nums none "SQ"
      let precip := precip.map fun x => x / .fin 10
      .ok ⟨index, [("temp", temp.map fun x => x / .fin 10 + .fin (5463 / 20)), ("precip", precip.map fun x => if XF.lt x (.fin 0) then .fin 0 else x),
        ("glob", glob.map fun x => x * .fin 10000 / .fin 3600), ("hum", hum), ("wind", wind.map fun x => x / .fin 10), ("ssd", ssd.map fun x => x * .fin 6)]⟩) := by
    unfold readKnmi
    rw [knmi_table h, py_ok_bind]
    dsimp only
    rw [if_neg hnot, if_neg (by rw [hapi]; decide), column_eq (field := fun (r : (String → Nat) × KnmiRecord) n => r.2.field n) h.day,
      column_eq (field := fun (r : (String → Nat) × KnmiRecord) n => r.2.field n) h.hour]
    simp only [pure_bind, py_ok_bind]
    rw [List.zip_map', List.mapM_map]
    rfl
  rw [hstart]
  constructor
  · rintro ⟨r, hr, hbad⟩
    rw [mapM_error (e := .valueError)]
    · rfl
    · intro x hx
      rw [htime x hx]
      by_cases hc : 1 ≤ x.2.hour ∧ x.2.hour ≤ 24
      · exact .inr ⟨_, if_pos hc⟩
      · exact .inl (if_neg hc)
    · exact ⟨r, hr, by rw [htime r hr, if_neg hbad]⟩
  · rintro hok ⟨n, hn, hmiss⟩
    rw [mapM_ok (g := fun r : (String → Nat) × KnmiRecord => r.2.day * DAY + r.2.hour * HOUR) (fun r hr => by rw [htime r hr, if_pos (hok r hr)]), py_ok_bind]
    have hcol : ∀ m ∈ ["T", "RH", "Q", "U", "FH", "SQ"],
        Table.nums ⟨names.map Prod.snd, recs.map fun r => (names.map Prod.snd).map fun n => r.2.field n⟩ (none : Option K) m =
          if m ∈ names.map Prod.snd then .ok (recs.map fun r => cellOf id (r.2.val m)) else .error .keyError := by
      intro m hm
      by_cases hc : m ∈ names.map Prod.snd
      · rw [if_pos hc]
        have : ∀ m ∈ ["T", "RH", "Q", "U", "FH", "SQ"], m ≠ "YYYYMMDD" ∧ m ≠ "HH" := by decide
        exact knmi_nums hc (this m hm).1 (this m hm).2
      · rw [if_neg hc]; exact nums_missing hc
    dsimp only
    rw [hcol "T" (by decide), hcol "RH" (by decide), hcol "Q" (by decide), hcol "U" (by decide), hcol "FH" (by decide), hcol "SQ" (by decide)]
    by_cases c1 : "T" ∈ names.map Prod.snd
    swap
    · rw [if_neg c1]; rfl
    rw [if_pos c1, py_ok_bind]
    by_cases c2 : "RH" ∈ names.map Prod.snd
    swap
    · rw [if_neg c2]; rfl
    rw [if_pos c2, py_ok_bind]
    by_cases c3 : "Q" ∈ names.map Prod.snd
    swap
    · rw [if_neg c3]; rfl
    rw [if_pos c3, py_ok_bind]
    by_cases c4 : "U" ∈ names.map Prod.snd
    swap
    · rw [if_neg c4]; rfl
    rw [if_pos c4, py_ok_bind]
    by_cases c5 : "FH" ∈ names.map Prod.snd
    swap
    · rw [if_neg c5]; rfl
    rw [if_pos c5, py_ok_bind]
    by_cases c6 : "SQ" ∈ names.map Prod.snd
    swap
    · rw [if_neg c6]; rfl
    exfalso
    simp only [List.mem_cons, List.not_mem_nil, or_false] at hn
    rcases hn with rfl | rfl | rfl | rfl | rfl | rfl
    · exact hmiss c1
    · exact hmiss c2
    · exact hmiss c3
    · exact hmiss c4
    · exact hmiss c5
    · exact hmiss c6

theorem concat_knmiFrame (a b : List KnmiRecord) : concat (knmiFrame (K := K) a) (knmiFrame b) = knmiFrame (a ++ b) := by
  unfold concat knmiFrame
  simp only [List.map_append, List.zipWith_cons_cons, List.zipWith_nil_right]

/-- a file of a data set: explanation, column names, records -/
abbrev KnmiParts := List Text × List (Nat × String) × List ((String → Nat) × KnmiRecord)

/-- **C90.**  `read_knmi_dataset`: the records of all files of the directory, file after file in the order of the directory listing, each exactly as in its
file.  Nothing is sorted or checked for duplicates; the files may have different columns.  Without files the table is empty. -/
theorem C90_dataset (api : PandasApi) (hapi : api.pdDatetime = true) (files : List KnmiParts) (h : ∀ f ∈ files, KnmiText f.1 f.2.1 f.2.2)
    (hcols : ∀ f ∈ files, ∀ n ∈ ["T", "RH", "Q", "U", "FH", "SQ"], n ∈ f.2.1.map Prod.snd)
    (hhour : ∀ f ∈ files, ∀ r ∈ f.2.2, 1 ≤ r.2.hour ∧ r.2.hour ≤ 24) :
    readKnmiDataset (K := K) api (files.map fun f => knmiFile f.1 f.2.1 f.2.2) = .ok (knmiFrame (files.flatMap fun f => f.2.2.map Prod.snd)) := by
  have key : ∀ (fs : List KnmiParts) (acc : List KnmiRecord), (∀ f ∈ fs, f ∈ files) →
      (fs.map fun f => knmiFile f.1 f.2.1 f.2.2).foldlM (fun ts g => do .ok (concat ts (← readKnmi (K := K) api g))) (knmiFrame acc) =
        .ok (knmiFrame (acc ++ fs.flatMap fun f => f.2.2.map Prod.snd)) := by
    intro fs
    induction fs with
    | nil => intro acc _; rw [List.flatMap_nil, List.append_nil]; rfl
    | cons f fs ih =>
      intro acc hfs
      have hf := hfs f (by simp)
      rw [List.map_cons, List.foldlM_cons, (C74_read api (h f hf) (hcols f hf) (hhour f hf)).1 hapi, py_ok_bind, py_ok_bind, concat_knmiFrame,
        ih _ fun g hg => hfs g (by simp [hg]), List.flatMap_cons, List.append_assoc]
  cases files with
  | nil => rfl
  | cons f fs =>
    unfold readKnmiDataset
    rw [List.map_cons]
    dsimp only
    rw [(C74_read api (h f (by simp)) (hcols f (by simp)) (hhour f (by simp))).1 hapi, py_ok_bind, key fs _ fun g hg => by simp [hg], List.flatMap_cons]

/-! ## examples -/

/-- the explanation of the example files -/
def exampleText : List Text := List.replicate 31 "# This text is not read, whatever it says".toList

/-- the column names of the example files -/
def exampleNames : List (Nat × String) :=
  [(0, "# STN"), (0, "YYYYMMDD"), (3, "HH"), (3, "FH"), (1, "T"), (0, "SQ"), (0, "Q"), (0, "RH"), (2, "U")]

/-- two records: the last hour of 2015-12-31 with frost, no measured rain (code -1) and no radiation value; a sunny summer hour -/
def exampleRecs : List ((String → Nat) × KnmiRecord) :=
  [(fun _ => 2, ⟨16800, 24, fun n => if n = "T" then some ⟨true, 15, []⟩ else if n = "RH" then some ⟨true, 1, []⟩ else if n = "U" then some ⟨false, 93, []⟩
      else if n = "FH" then some ⟨false, 40, []⟩ else if n = "SQ" then some ⟨false, 0, []⟩ else none⟩),
    (fun _ => 0, ⟨16983, 13, fun n => if n = "T" then some ⟨false, 251, []⟩ else if n = "RH" then some ⟨false, 12, []⟩ else if n = "Q" then some ⟨false, 297, []⟩
      else if n = "U" then some ⟨false, 40, []⟩ else if n = "FH" then some ⟨false, 35, []⟩ else if n = "SQ" then some ⟨false, 10, []⟩ else none⟩)]

theorem example_ok : KnmiText exampleText exampleNames exampleRecs where
  lines := by decide
  text := by
    intro l hl
    rw [exampleText, List.mem_replicate] at hl
    rw [hl.2]
    decide
  plain := by
    have : ∀ n ∈ exampleNames, (∀ c ∈ n.2.toList, c ≠ ',' ∧ c ≠ '\n' ∧ c ≠ '\r' ∧ c ≠ '"') ∧ (n.2.toList.head?.all fun c => !isBlank c) = true := by decide
    intro n hn
    refine ⟨(this n hn).1, fun c hc => ?_⟩
    have := (this n hn).2
    rw [hc] at this
    simpa using this
  nodup := by decide
  day := by decide
  hour := by decide
  years := by
    unfold exampleRecs
    intro r hr
    simp only [List.mem_cons, List.not_mem_nil, or_false] at hr
    rcases hr with rfl | rfl <;> exact ⟨by decide, by decide⟩

example : readKnmi (K := ℚ) .legacy (knmiFile exampleText exampleNames exampleRecs) = .ok (knmiFrame (exampleRecs.map Prod.snd)) :=
  (C74_read .legacy example_ok (by decide) (by decide)).1 rfl

/-- the first record ends at midnight of 2016-01-01; -1.5 °C, no rain, radiation missing -/
example : okAnd (readKnmi (K := ℚ) .legacy (knmiFile exampleText exampleNames exampleRecs)) (fun f => f.index = [16801 * DAY, 16983 * DAY + 13 * HOUR] ∧
    f.cols = [("temp", [.fin (5433 / 20), .fin (5965 / 20)]), ("precip", [.fin 0, .fin (6 / 5)]), ("glob", [.nan, .fin 825]), ("hum", [.fin 93, .fin 40]),
      ("wind", [.fin 4, .fin (7 / 2)]), ("ssd", [.fin 0, .fin 60])]) := by
  decide +kernel

/-- hour 25 -/
example : readKnmi (K := ℚ) .legacy (knmiFile exampleText exampleNames [(fun _ => 0, ⟨16800, 25, fun _ => none⟩)]) = .error .valueError :=
  (C74_errors .legacy rfl { example_ok with years := by simp; exact ⟨by decide, by decide⟩ }).1 ⟨_, List.mem_singleton_self _, by decide⟩

/-- two files, the later one listed first -/
example : readKnmiDataset (K := ℚ) .legacy [knmiFile exampleText exampleNames (exampleRecs.drop 1), knmiFile exampleText exampleNames (exampleRecs.take 1)] =
    .ok (knmiFrame [(exampleRecs.map Prod.snd)[1], (exampleRecs.map Prod.snd)[0]]) := by
  have h : ∀ l : List ((String → Nat) × KnmiRecord), (∀ r ∈ l, r ∈ exampleRecs) → KnmiText exampleText exampleNames l :=
    fun l hl => { example_ok with years := fun r hr => example_ok.years r (hl r hr) }
  have := C90_dataset (K := ℚ) .legacy rfl [(exampleText, exampleNames, exampleRecs.drop 1), (exampleText, exampleNames, exampleRecs.take 1)]
    (by
      intro f hf
      simp only [List.mem_cons, List.not_mem_nil, or_false] at hf
      rcases hf with rfl | rfl
      · exact h _ fun r hr => List.mem_of_mem_drop hr
      · exact h _ fun r hr => List.mem_of_mem_take hr)
    (by decide) (by decide)
  exact this

end Melodist.DataIO
