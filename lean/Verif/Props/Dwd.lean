import Verif.Lemmas.DataIO
import Mathlib.Data.Rat.Floor

/-!
# DWD files (C75, C91)
-/

set_option linter.unusedSectionVars false

namespace Melodist.DataIO

open Text Spec

variable {K : Type} [Field K] [LinearOrder K] [IsStrictOrderedRing K]

/-- the conversion of one column -/
theorem dwd_convert_one (recs : List DwdRecord) {n : String} {e : String × Bool} (hk : dwdKnown n = some e) :
    (if dwdName (stripName n) = "tmin" ∨ dwdName (stripName n) = "tmax" ∨ dwdName (stripName n) = "tmean" ∨ dwdName (stripName n) = "temp" then
      (dwdName (stripName n), (recs.map fun r => dwdCell (K := K) false (r.val n)).map fun x => x + .fin (5463 / 20))
    else (dwdName (stripName n), recs.map fun r => dwdCell (K := K) false (r.val n))) = (e.1, recs.map fun r => dwdCell e.2 (r.val n)) := by
  rw [dwdKnown_eq] at hk
  by_cases hc : (dwdNames.map fun p => p.2).contains (dwdName (stripName n)) = true
  · rw [if_pos hc] at hk
    have he := (Option.some.inj hk).symm
    rw [he]
    generalize dwdName (stripName n) = s
    dsimp only
    by_cases ht : s = "tmin" ∨ s = "tmax" ∨ s = "tmean" ∨ s = "temp"
    · rw [if_pos ht, List.map_map, decide_eq_true ht]
      refine Prod.ext rfl (List.map_congr_left fun r _ => ?_)
      show dwdCell false (r.val n) + XF.fin (5463 / 20) = dwdCell true (r.val n)
      cases r.val n with
      | none => rfl
      | some x =>
        unfold dwdCell
        dsimp only
        by_cases hx : (x.value : K) = -999
        · rw [if_pos hx, if_pos hx]; rfl
        · rw [if_neg hx, if_neg hx, if_neg (by decide), if_pos rfl, XF.fin_add_fin]
          norm_num
    · rw [if_neg ht, decide_eq_false ht]
  · rw [if_neg hc] at hk
    cases hk

theorem dwd_convert (recs : List DwdRecord) (l : List String) : (l.filter fun n => (dwdKnown n).isSome).map ((fun c : String × List (XF K) =>
      if c.1 = "tmin" ∨ c.1 = "tmax" ∨ c.1 = "tmean" ∨ c.1 = "temp" then (c.1, c.2.map fun x => x + .fin (5463 / 20)) else c) ∘
      ((fun c : String × List (XF K) => (dwdName (stripName c.1), c.2)) ∘ fun n => (n, recs.map fun r => dwdCell (K := K) false (r.val n)))) =
      l.filterMap fun n => (dwdKnown n).map fun e => (e.1, recs.map fun r => dwdCell e.2 (r.val n)) := by
  induction l with
  | nil => rfl
  | cons n l ih =>
    rw [List.filterMap_cons]
    cases hk : dwdKnown n with
    | none =>
      rw [List.filter_cons_of_neg (by rw [hk]; simp), ih]
      rfl
    | some e =>
      rw [List.filter_cons_of_pos (by rw [hk]; rfl), List.map_cons, ih]
      rw [Function.comp_apply, Function.comp_apply]
      dsimp only [Option.map_some]
      rw [dwd_convert_one recs hk]

/-- reading the lines of a file, without or with a last line to be skipped -/
theorem dwd_lines_read {hourly : Bool} {mode : String} (hmode : mode = "d" ∧ hourly = false ∨ mode = "h" ∧ hourly = true) {names : List String}
    {recs : List DwdRecord} (h : DwdText hourly names recs) {file : Text} {skipLast : Option Bool}
    (hl : (if skipLast.isSome then (lines (univ file)).dropLast else lines (univ file)) = dwdLines hourly names recs) :
    readSingleDwd (K := K) file mode skipLast = .ok (dwdFrame hourly names recs) := by
  have hm : ¬ (mode ≠ "d" ∧ mode ≠ "h") := by
    rcases hmode with ⟨rfl, _⟩ | ⟨rfl, _⟩ <;> simp
  have hb : decide (mode = "h") = hourly := by
    rcases hmode with ⟨rfl, rfl⟩ | ⟨rfl, rfl⟩ <;> decide
  unfold readSingleDwd
  dsimp only
  rw [hl, if_neg hm, hb]
  rw [dwd_table h, py_ok_bind]
  dsimp only
  rw [if_neg (by simpa using h.date)]
  rw [column_eq (field := fun (r : DwdRecord) n => r.field hourly n) h.date, py_ok_bind, List.mapM_map,
    mapM_ok (f := dwdTime hourly ∘ fun r : DwdRecord => r.field hourly " MESS_DATUM") (g := fun r : DwdRecord => r.day * DAY + if hourly then r.hour * HOUR else 0) (fun r hr => dwdTime_ok h hr), py_ok_bind]
  have hkept : ∀ n ∈ names, (n != " MESS_DATUM" && (dwdNames.map fun p => p.2).contains (dwdName (stripName n))) = (dwdKnown n).isSome := by
    intro n _
    rw [dwdKnown_eq]
    by_cases hn : n = " MESS_DATUM"
    · subst hn; decide
    · rw [show (n != " MESS_DATUM") = true by simpa using hn, Bool.true_and]
      by_cases hc : (dwdNames.map fun p => p.2).contains (dwdName (stripName n)) = true
      · rw [if_pos hc, hc]; rfl
      · rw [if_neg hc, Bool.not_eq_true _ |>.mp hc]; rfl
  rw [List.filter_congr hkept]
  rw [mapM_ok (g := fun n => (n, recs.map fun r => dwdCell (K := K) false (r.val n))) (fun n hn => by
    obtain ⟨hn, hk⟩ := List.mem_filter.1 hn
    rw [column_eq (field := fun (r : DwdRecord) n => r.field hourly n) hn, py_ok_bind, dwdColumn_ok h hn (by
      intro e; rw [e] at hk; cases hk), py_ok_bind]), py_ok_bind]
  unfold dwdFrame
  congr 2
  unfold dwdConvert
  dsimp only
  rw [List.map_map]
  have hfil : (List.map ((fun c : String × List (XF K) => (dwdName (stripName c.1), c.2)) ∘ fun n => (n, recs.map fun r => dwdCell (K := K) false (r.val n)))
      (names.filter fun n => (dwdKnown n).isSome)).filter (fun c => (dwdNames.map fun p => p.2).contains c.1) =
      List.map ((fun c : String × List (XF K) => (dwdName (stripName c.1), c.2)) ∘ fun n => (n, recs.map fun r => dwdCell (K := K) false (r.val n)))
      (names.filter fun n => (dwdKnown n).isSome) := by
    rw [List.filter_eq_self]
    intro c hc
    obtain ⟨n, hn, rfl⟩ := List.mem_map.1 hc
    have hk := (List.mem_filter.1 hn).2
    show (dwdNames.map fun p => p.2).contains (dwdName (stripName n)) = true
    rw [dwdKnown_eq] at hk
    by_contra hc
    rw [if_neg hc] at hk
    cases hk
  rw [hfil, List.map_map]
  exact dwd_convert recs names

theorem univ_textOf {ls : List Text} (h : ∀ l ∈ ls, ∀ c ∈ l, c ≠ '\n' ∧ c ≠ '\r') : lines (univ (textOf ls)) = ls := by
  rw [univ_id]
  · exact lines_textOf fun l hl hc => (h l hl _ hc).1 rfl
  · intro hc
    unfold textOf at hc
    obtain ⟨l', hl', hc⟩ := List.mem_flatten.1 hc
    obtain ⟨l, hl, rfl⟩ := List.mem_map.1 hl'
    rcases List.mem_append.1 hc with hc | hc
    · exact (h l hl _ hc).2 rfl
    · simp at hc

/-- **C75.**  Reading a daily (`mode='d'`) or hourly (`mode='h'`) DWD file: one row per record; exactly the columns of `dwdTable` are kept, under their
melodist names (in hourly files, too, the temperature is called `tmean`), the temperatures are converted to K, -999 is missing, all other columns are
dropped whatever they contain.  With `skip_last=True` and with `skip_last=False` the last line of the file is not read, whatever it contains; with
`skip_last=None` all lines are read. -/
theorem C75_read {hourly : Bool} {mode : String} (hmode : mode = "d" ∧ hourly = false ∨ mode = "h" ∧ hourly = true) {names : List String}
    {recs : List DwdRecord} (h : DwdText hourly names recs) :
    readSingleDwd (K := K) (textOf (dwdLines hourly names recs)) mode none = .ok (dwdFrame hourly names recs) ∧
    ∀ (flag : Bool) (last : Text), '\n' ∉ last → '\r' ∉ last →
      readSingleDwd (K := K) (textOf (dwdLines hourly names recs ++ [last])) mode (some flag) = .ok (dwdFrame hourly names recs) := by
  constructor
  · refine dwd_lines_read hmode h ?_
    rw [if_neg (by simp), univ_textOf (dwdLines_chars h)]
  · intro flag last h1 h2
    refine dwd_lines_read hmode h ?_
    rw [if_pos (by rfl), univ_textOf, List.dropLast_concat]
    intro l hl c hc
    rcases List.mem_append.1 hl with hl | hl
    · exact dwdLines_chars h l hl c hc
    · obtain rfl := List.mem_singleton.1 hl
      exact ⟨fun e => h1 (e ▸ hc), fun e => h2 (e ▸ hc)⟩

/-- **C75.**  `skip_last=False` loses the last record of a file without a closing line. -/
theorem C75_skip_last {hourly : Bool} {mode : String} (hmode : mode = "d" ∧ hourly = false ∨ mode = "h" ∧ hourly = true) {names : List String}
    {recs : List DwdRecord} {r : DwdRecord} (h : DwdText hourly names recs) (hr : DwdText hourly names (recs ++ [r])) :
    readSingleDwd (K := K) (textOf (dwdLines hourly names (recs ++ [r]))) mode (some false) = .ok (dwdFrame hourly names recs) ∧
    readSingleDwd (K := K) (textOf (dwdLines hourly names (recs ++ [r]))) mode none = .ok (dwdFrame hourly names (recs ++ [r])) := by
  refine ⟨?_, (C75_read hmode hr).1⟩
  have e : dwdLines hourly names (recs ++ [r]) = dwdLines hourly names recs ++ [joined ';' (names.map (r.field hourly))] := by
    unfold dwdLines
    rw [List.map_append, List.cons_append]
    rfl
  have hc := dwdLines_chars hr (joined ';' (names.map (r.field hourly))) (by rw [e]; simp)
  rw [e]
  exact (C75_read hmode h).2 false _ (fun hn => (hc _ hn).1 rfl) (fun hn => (hc _ hn).2 rfl)

/-- **C75.**  For every file the two values of the flag have the same effect; a mode other than 'd' and 'h' raises UnboundLocalError. -/
theorem C75_flag (file : Text) (mode : String) (skipLast : Option Bool) :
    readSingleDwd (K := K) file mode (some true) = readSingleDwd file mode (some false) ∧
    (mode ≠ "d" → mode ≠ "h" → readSingleDwd (K := K) file mode skipLast = .error .unboundLocalError) := by
  refine ⟨rfl, fun h1 h2 => ?_⟩
  unfold readSingleDwd
  dsimp only
  rw [if_pos ⟨h1, h2⟩]
  rfl

/-! ## several files -/

theorem at_eq_valueAt (times : List Time) (col : List (XF K)) (t : Time) : (Series.at? (times.zip col) t).getD .nan = valueAt times col t := by
  unfold valueAt Series.at?
  congr 1
  induction times.zip col with
  | nil => rfl
  | cons p l ih =>
    obtain ⟨s, v⟩ := p
    rw [List.find?_cons, List.lookup_cons]
    by_cases h : s = t
    · subst h
      simp
    · have h1 : (s == t) = false := by simpa using h
      have h2 : (t == s) = false := by simpa using fun e : t = s => h e.symm
      rw [h1, h2]
      exact ih

theorem valueAt_absent {times : List Time} {t : Time} (h : t ∉ times) (col : List (XF K)) : valueAt times col t = .nan := by
  unfold valueAt
  have : (times.zip col).lookup t = none := by
    rw [List.lookup_eq_none_iff]
    rintro ⟨s, v⟩ hp
    have hs : s ∈ times := (List.of_mem_zip hp).1
    simpa using fun e : t = s => h (e ▸ hs)
  rw [this]
  rfl

theorem valueAt_map (g : Time → XF K) : ∀ {times : List Time} {t : Time}, t ∈ times → valueAt times (times.map g) t = g t
  | [], _, h => by cases h
  | s :: times, t, h => by
    unfold valueAt
    rw [List.map_cons, List.zip_cons_cons, List.lookup_cons]
    by_cases e : t = s
    · subst e
      simp
    · rw [show (t == s) = false by simpa using e]
      exact valueAt_map g (by rcases List.mem_cons.1 h with h | h; exact absurd h e; exact h)

theorem map_valueAt : ∀ {times : List Time} {col : List (XF K)}, times.Nodup → col.length = times.length → times.map (valueAt times col) = col
  | [], [], _, _ => rfl
  | [], _ :: _, _, h => by cases h
  | _ :: _, [], _, h => by cases h
  | s :: times, v :: col, hn, hl => by
    rw [List.nodup_cons] at hn
    rw [List.map_cons]
    congr 1
    · simp [valueAt]
    · have ih := map_valueAt (times := times) (col := col) hn.2 (Nat.succ.inj hl)
      refine Eq.trans (List.map_congr_left fun t ht => ?_) ih
      unfold valueAt
      rw [List.zip_cons_cons, List.lookup_cons, show (t == s) = false by simpa using fun e : t = s => hn.1 (e ▸ ht)]

/-- the columns of several tables on common times -/
def onTimes (index : List Time) (fs : List (Frame K)) : List (String × List (XF K)) :=
  fs.flatMap fun f => f.cols.map fun c => (c.1, index.map (valueAt f.index c.2))

/-- what has been joined so far -/
structure Joined (a : Frame K) (fs : List (Frame K)) : Prop where
  nodup : a.index.Nodup
  mem : ∀ t, t ∈ a.index ↔ ∃ f ∈ fs, t ∈ f.index
  cols : a.cols = onTimes a.index fs
  order : (∀ f ∈ fs, f.index = a.index) ∨ a.index.Pairwise (· < ·) ∧ ∃ f ∈ fs, ∃ g ∈ fs, f.index ≠ g.index

theorem sorted_lt {l : List Time} (h : l.Nodup) : (l.insertionSort (· ≤ ·)).Pairwise (· < ·) := by
  have hs := List.pairwise_insertionSort (· ≤ ·) l
  have hn : (l.insertionSort (· ≤ ·)).Nodup := (List.perm_insertionSort (· ≤ ·) l).nodup_iff.2 h
  exact (hs.and hn).imp fun h => lt_of_le_of_ne h.1 h.2

theorem join_step {a b : Frame K} {fs : List (Frame K)} (h : Joined a fs) (hne : fs ≠ []) (hb : b.index.Nodup) (hwf : ∀ c ∈ b.cols, c.2.length = b.index.length)
    (hdis : ∀ f ∈ fs, ∀ c ∈ f.cols, ∀ d ∈ b.cols, c.1 ≠ d.1) : ∃ r, outerJoin a b = .ok r ∧ Joined r (fs ++ [b]) := by
  have hcol : ¬ (a.cols.any fun c => b.cols.any fun d => c.1 == d.1) = true := by
    intro hc
    obtain ⟨c, hc, hd'⟩ := List.any_eq_true.1 hc
    obtain ⟨d, hd, he⟩ := List.any_eq_true.1 hd'
    rw [h.cols] at hc
    obtain ⟨f, hf, hc⟩ := List.mem_flatMap.1 hc
    obtain ⟨c', hc', rfl⟩ := List.mem_map.1 hc
    exact hdis f hf c' hc' d hd (by simpa using he)
  unfold outerJoin
  rw [if_neg hcol, if_neg (by rintro (hh | hh); exact hh h.nodup; exact hh hb)]
  dsimp only
  generalize hidx : (if a.index = b.index then a.index else (a.index ++ b.index.filter fun t => !a.index.contains t).insertionSort (· ≤ ·)) = index
  have hnd' : (a.index ++ b.index.filter fun t => !a.index.contains t).Nodup := by
    rw [List.nodup_append]
    refine ⟨h.nodup, hb.filter _, ?_⟩
    rintro x hx y hy rfl
    have := (List.mem_filter.1 hy).2
    simp [hx] at this
  have hmem : ∀ t, t ∈ index ↔ t ∈ a.index ∨ t ∈ b.index := by
    intro t
    rw [← hidx]
    split
    · rename_i e; rw [← e]; simp
    · rw [(List.perm_insertionSort (· ≤ ·) _).mem_iff, List.mem_append, List.mem_filter]
      by_cases ht : t ∈ a.index <;> simp [ht]
  refine ⟨_, rfl, ?_, ?_, ?_, ?_⟩
  · show index.Nodup
    rw [← hidx]
    split
    · exact h.nodup
    · exact (List.perm_insertionSort (· ≤ ·) _).nodup_iff.2 hnd'
  · intro t
    show t ∈ index ↔ _
    rw [hmem, h.mem]
    constructor
    · rintro (⟨f, hf, ht⟩ | ht)
      · exact ⟨f, by simp [hf], ht⟩
      · exact ⟨b, by simp, ht⟩
    · rintro ⟨f, hf, ht⟩
      rcases List.mem_append.1 hf with hf | hf
      · exact .inl ⟨f, hf, ht⟩
      · rw [List.mem_singleton.1 hf] at ht; exact .inr ht
  · show _ ++ _ = onTimes index (fs ++ [b])
    unfold onTimes
    rw [List.flatMap_append]
    simp only [at_eq_valueAt]
    congr 1
    · rw [h.cols]
      unfold onTimes
      rw [List.map_flatMap]
      refine List.flatMap_congr fun f hf => ?_
      rw [List.map_map]
      refine List.map_congr_left fun c _ => ?_
      refine Prod.ext rfl (List.map_congr_left fun t ht => ?_)
      by_cases hta : t ∈ a.index
      · exact valueAt_map _ hta
      · rw [valueAt_absent hta, valueAt_absent fun htf => hta ((h.mem t).2 ⟨f, hf, htf⟩)]
    · simp
  · show (∀ f ∈ fs ++ [b], f.index = index) ∨ index.Pairwise (· < ·) ∧ _
    by_cases e : a.index = b.index
    · rw [if_pos e] at hidx
      rw [← hidx]
      rcases h.order with ho | ⟨ho, f, hf, g, hg, hfg⟩
      · left
        intro f hf
        rcases List.mem_append.1 hf with hf | hf
        · exact ho f hf
        · rw [List.mem_singleton.1 hf, e]
      · exact .inr ⟨ho, f, by simp [hf], g, by simp [hg], hfg⟩
    · rw [if_neg e] at hidx
      right
      rw [← hidx]
      refine ⟨sorted_lt hnd', ?_⟩
      rcases h.order with ho | ⟨_, f, hf, g, hg, hfg⟩
      · obtain ⟨f, hf⟩ := List.exists_mem_of_ne_nil _ hne
        exact ⟨f, by simp [hf], b, by simp, by rw [ho f hf]; exact e⟩
      · exact ⟨f, by simp [hf], g, by simp [hg], hfg⟩

theorem joined_first {f : Frame K} (hn : f.index.Nodup) (hwf : ∀ c ∈ f.cols, c.2.length = f.index.length) : Joined f [f] where
  nodup := hn
  mem := by simp
  cols := by
    unfold onTimes
    rw [List.flatMap_singleton]
    conv_lhs => rw [← List.map_id f.cols]
    exact List.map_congr_left fun c hc => by rw [map_valueAt hn (hwf c hc)]; rfl
  order := .inl (by simp)

/-- **C91.**  A list of DWD files that can be read one by one, each with distinct times, no two with a common column: the result has the columns of all files,
in the order of the list, at the times that occur in any of the files, each once; a value is the one of the file that has the column, and missing at times
that this file does not have.  The times are as in the files if all files have the same ones, otherwise ascending. -/
theorem C91_join {mode : String} {skipLast : Option Bool} {files : List (Text × Frame K)} (hne : files ≠ [])
    (hread : ∀ f ∈ files, readSingleDwd f.1 mode skipLast = .ok f.2) (htimes : ∀ f ∈ files, f.2.index.Nodup)
    (hwf : ∀ f ∈ files, ∀ c ∈ f.2.cols, c.2.length = f.2.index.length)
    (hdis : files.Pairwise fun f g => ∀ c ∈ f.2.cols, ∀ d ∈ g.2.cols, c.1 ≠ d.1) :
    ∃ index : List Time, readDwd (files.map Prod.fst) mode skipLast =
        .ok ⟨index, files.flatMap fun f => f.2.cols.map fun c => (c.1, index.map (valueAt f.2.index c.2))⟩ ∧
      index.Nodup ∧ (∀ t, t ∈ index ↔ ∃ f ∈ files, t ∈ f.2.index) ∧
      ((∀ f ∈ files, f.2.index = index) ∨ index.Pairwise (· < ·) ∧ ∃ f ∈ files, ∃ g ∈ files, f.2.index ≠ g.2.index) := by
  have key : ∀ (fs done : List (Text × Frame K)) (a : Frame K), done ≠ [] → Joined a (done.map Prod.snd) → (∀ f ∈ done ++ fs, f ∈ files) →
      ((done ++ fs).Pairwise fun f g => ∀ c ∈ f.2.cols, ∀ d ∈ g.2.cols, c.1 ≠ d.1) →
      ∃ r, (fs.map Prod.fst).foldlM (fun data g => do outerJoin data (← readSingleDwd g mode skipLast)) a = .ok r ∧ Joined r ((done ++ fs).map Prod.snd) := by
    intro fs
    induction fs with
    | nil => intro done a _ h _ _; exact ⟨a, rfl, by rw [List.append_nil]; exact h⟩
    | cons f fs ih =>
      intro done a hd h hm hp
      have hf := hm f (by simp)
      obtain ⟨r, hr, hj⟩ := join_step h (by simpa using hd) (htimes f hf) (hwf f hf) (by
        intro g' hg' c hc d hdd
        obtain ⟨g, hg, rfl⟩ := List.mem_map.1 hg'
        exact (List.pairwise_append.1 hp).2.2 g hg f (by simp) c hc d hdd)
      obtain ⟨r', hr', hj'⟩ := ih (done ++ [f]) r (by simp) (by rw [List.map_append]; exact hj) (by simpa using hm) (by simpa using hp)
      refine ⟨r', ?_, by simpa using hj'⟩
      rw [List.map_cons, List.foldlM_cons, hread f hf, py_ok_bind, hr, py_ok_bind]
      exact hr'
  cases files with
  | nil => exact absurd rfl hne
  | cons f fs =>
    obtain ⟨r, hr, hj⟩ := key fs [f] f.2 (by simp) (joined_first (htimes f (by simp)) (hwf f (by simp))) (by simp) (by simpa using hdis)
    obtain ⟨index, cols⟩ := r
    refine ⟨index, ?_, hj.nodup, ?_, ?_⟩
    · unfold readDwd
      rw [List.map_cons]
      dsimp only
      rw [hread f (by simp), py_ok_bind, hr]
      have := hj.cols
      unfold onTimes at this
      rw [List.flatMap_map] at this
      dsimp only at this
      rw [this]
      rfl
    · intro t
      refine (hj.mem t).trans ⟨?_, ?_⟩
      · rintro ⟨g', hg', ht⟩
        obtain ⟨g, hg, rfl⟩ := List.mem_map.1 hg'
        exact ⟨g, hg, ht⟩
      · rintro ⟨g, hg, ht⟩
        exact ⟨g.2, List.mem_map.2 ⟨g, hg, rfl⟩, ht⟩
    · rcases hj.order with ho | ⟨ho, g', hg', k', hk', e⟩
      · exact .inl fun g hg => ho g.2 (List.mem_map.2 ⟨g, hg, rfl⟩)
      · obtain ⟨g, hg, rfl⟩ := List.mem_map.1 hg'
        obtain ⟨k, hk, rfl⟩ := List.mem_map.1 hk'
        exact .inr ⟨ho, g, hg, k, hk, e⟩

/-- **C91.**  If two of the files have a column in common, the result is a ValueError; an empty list of files gives UnboundLocalError. -/
theorem C91_overlap {mode : String} {skipLast : Option Bool} {files : List (Text × Frame K)}
    (hread : ∀ f ∈ files, readSingleDwd f.1 mode skipLast = .ok f.2) (htimes : ∀ f ∈ files, f.2.index.Nodup)
    (hwf : ∀ f ∈ files, ∀ c ∈ f.2.cols, c.2.length = f.2.index.length) :
    (¬ files.Pairwise (fun f g => ∀ c ∈ f.2.cols, ∀ d ∈ g.2.cols, c.1 ≠ d.1) → readDwd (K := K) (files.map Prod.fst) mode skipLast = .error .valueError) ∧
    readDwd (K := K) [] mode skipLast = .error .unboundLocalError := by
  refine ⟨fun hnp => ?_, rfl⟩
  have key : ∀ (fs done : List (Text × Frame K)) (a : Frame K), done ≠ [] → Joined a (done.map Prod.snd) → (∀ f ∈ done ++ fs, f ∈ files) →
      (done.Pairwise fun f g => ∀ c ∈ f.2.cols, ∀ d ∈ g.2.cols, c.1 ≠ d.1) →
      ¬ ((done ++ fs).Pairwise fun f g => ∀ c ∈ f.2.cols, ∀ d ∈ g.2.cols, c.1 ≠ d.1) →
      (fs.map Prod.fst).foldlM (fun data g => do outerJoin data (← readSingleDwd g mode skipLast)) a = .error .valueError := by
    intro fs
    induction fs with
    | nil => intro done a _ _ _ hp hn; exact absurd (by rw [List.append_nil]; exact hp) hn
    | cons f fs ih =>
      intro done a hd h hm hp hn
      have hf := hm f (by simp)
      rw [List.map_cons, List.foldlM_cons, hread f hf, py_ok_bind]
      by_cases hc : ∀ g ∈ done, ∀ c ∈ g.2.cols, ∀ d ∈ f.2.cols, c.1 ≠ d.1
      · obtain ⟨r, hr, hj⟩ := join_step h (by simpa using hd) (htimes f hf) (hwf f hf) (by
          intro g' hg' c hcc d hdd
          obtain ⟨g, hg, rfl⟩ := List.mem_map.1 hg'
          exact hc g hg c hcc d hdd)
        rw [hr, py_ok_bind]
        refine ih (done ++ [f]) r (by simp) (by rw [List.map_append]; exact hj) (by simpa using hm) ?_ (by simpa using hn)
        rw [List.pairwise_append]
        refine ⟨hp, List.pairwise_singleton _ _, fun g hg f' hf' => ?_⟩
        rw [List.mem_singleton.1 hf']
        exact hc g hg
      · push Not at hc
        obtain ⟨g, hg, c, hcc, d, hdd, e⟩ := hc
        have : (a.cols.any fun c => f.2.cols.any fun d => c.1 == d.1) = true := by
          rw [List.any_eq_true]
          refine ⟨(c.1, a.index.map (valueAt g.2.index c.2)), ?_, ?_⟩
          · rw [h.cols]
            exact List.mem_flatMap.2 ⟨g.2, List.mem_map.2 ⟨g, hg, rfl⟩, List.mem_map.2 ⟨c, hcc, rfl⟩⟩
          · rw [List.any_eq_true]
            exact ⟨d, hdd, by simpa using e⟩
        unfold outerJoin
        rw [if_pos this]
        rfl
  cases files with
  | nil => exact absurd List.Pairwise.nil hnp
  | cons f fs =>
    unfold readDwd
    rw [List.map_cons]
    dsimp only
    rw [hread f (by simp), py_ok_bind]
    exact key fs [f] f.2 (by simp) (joined_first (htimes f (by simp)) (hwf f (by simp))) (by simp) (List.pairwise_singleton _ _) (by simpa using hnp)

/-! ## examples -/

/-- the names in a file of daily data -/
def dwdExampleNames : List String := ["STATIONS_ID", " MESS_DATUM", " QUALITAETS_NIVEAU", " LUFTTEMPERATUR ", "NIEDERSCHLAGSHOEHE", "  WIND_TEXT"]

/-- a frosty day, and a day without measurements -/
def dwdExampleRecs : List DwdRecord :=
  [⟨16800, 0, fun n => if n = " LUFTTEMPERATUR " then some ⟨true, 1, [5]⟩ else if n = "NIEDERSCHLAGSHOEHE" then some ⟨false, 12, [2]⟩ else none,
      fun n => if n = "  WIND_TEXT" then "calm".toList else "44".toList, fun _ => 4⟩,
    ⟨16801, 0, fun n => if n = " LUFTTEMPERATUR " then some ⟨true, 999, []⟩ else if n = "NIEDERSCHLAGSHOEHE" then some ⟨true, 999, []⟩ else none,
      fun _ => "44".toList, fun _ => 3⟩]

theorem dwd_example_ok : DwdText false dwdExampleNames dwdExampleRecs where
  plain := by decide
  nodup := by decide
  date := by decide
  years := by
    intro r hr
    unfold dwdExampleRecs at hr
    simp only [List.mem_cons, List.not_mem_nil, or_false] at hr
    rcases hr with rfl | rfl <;> exact ⟨by decide, by decide⟩
  hours := by simp
  other := by decide
  codes := by
    intro n hn hk
    left
    have : ∀ n ∈ dwdExampleNames, dwdKnown n ≠ none → n = " LUFTTEMPERATUR " ∨ n = "NIEDERSCHLAGSHOEHE" := by decide
    refine ⟨dwdExampleRecs[0], by simp, ?_⟩
    rcases this n hn hk with rfl | rfl
    · exact ⟨⟨true, 1, [5]⟩, by decide, by decide⟩
    · exact ⟨⟨false, 12, [2]⟩, by decide, by decide⟩

example : readSingleDwd (K := ℚ) (textOf (dwdLines false dwdExampleNames dwdExampleRecs ++ ["eor".toList])) "d" (some false) =
    .ok (dwdFrame false dwdExampleNames dwdExampleRecs) :=
  (C75_read (.inl ⟨rfl, rfl⟩) dwd_example_ok).2 false _ (by decide) (by decide)

example : okAnd (readSingleDwd (K := ℚ) (textOf (dwdLines false dwdExampleNames dwdExampleRecs)) "d" none) (fun f => f.index = [16800 * DAY, 16801 * DAY] ∧
    f.cols = [("tmean", [.fin (5433 / 20), .nan]), ("precip", [.fin (61 / 5), .nan])]) := by
  decide +kernel

/-- `skip_last=False` loses the last record -/
example : okAnd (readSingleDwd (K := ℚ) (textOf (dwdLines false dwdExampleNames dwdExampleRecs)) "d" (some false)) (fun f => f.index = [16800 * DAY] ∧
    f.cols = [("tmean", [.fin (5433 / 20)]), ("precip", [.fin (61 / 5)])]) := by
  decide +kernel

/-- in an hourly file the temperature is called `tmean` -/
example : okAnd (readSingleDwd (K := ℚ) "STATIONS_ID; MESS_DATUM;LUFTTEMPERATUR;eor\n44;2016010123;  4.0;eor\nx".toList "h" (some true)) (fun f =>
    f.index = [16801 * DAY - HOUR + DAY] ∧ f.cols = [("tmean", [.fin (5543 / 20)])]) := by
  decide +kernel

/-- two files with different hours -/
example : okAnd (readDwd (K := ℚ) [" MESS_DATUM;NIEDERSCHLAGSHOEHE\n2016010102;1.5\n2016010101;0.0\n".toList,
    " MESS_DATUM;REL_FEUCHTE\n2016010103;80.0\n2016010102;90.0\n".toList] "h" none) (fun f =>
    f.index = [16801 * DAY + HOUR, 16801 * DAY + 2 * HOUR, 16801 * DAY + 3 * HOUR] ∧
    f.cols = [("precip", [.fin 0, .fin (3 / 2), .nan]), ("hum", [.nan, .fin 90, .fin 80])]) := by
  decide +kernel

/-- two files to which the theorem applies -/
example : ∃ index : List Time, readDwd (K := ℚ) [" MESS_DATUM;NIEDERSCHLAGSHOEHE\n2016010102;1.5\n".toList, " MESS_DATUM;REL_FEUCHTE\n2016010101;80.0\n".toList]
    "h" none = .ok ⟨index, [("precip", index.map (valueAt [16801 * DAY + 2 * HOUR] [.fin (3 / 2)])), ("hum", index.map (valueAt [16801 * DAY + HOUR] [.fin 80]))]⟩ ∧
    index.Nodup ∧ index.Pairwise (· < ·) := by
  obtain ⟨index, h1, h2, _, h4⟩ := C91_join (mode := "h") (skipLast := none)
    (files := [(" MESS_DATUM;NIEDERSCHLAGSHOEHE\n2016010102;1.5\n".toList, ⟨[16801 * DAY + 2 * HOUR], [("precip", [.fin (3 / 2)])]⟩),
      (" MESS_DATUM;REL_FEUCHTE\n2016010101;80.0\n".toList, (⟨[16801 * DAY + HOUR], [("hum", [.fin 80])]⟩ : Frame ℚ))]) (by simp)
    (by intro f hf; simp only [List.mem_cons, List.not_mem_nil, or_false] at hf; rcases hf with rfl | rfl <;> decide +kernel)
    (by decide) (by decide) (by simp)
  refine ⟨index, h1, h2, h4.elim (fun h => ?_) (fun h => h.1)⟩
  rw [← h _ (List.mem_cons_self ..)]
  exact List.pairwise_singleton _ _

/-- two files with the same column -/
example : readDwd (K := ℚ) [" MESS_DATUM;REL_FEUCHTE\n2016010102;90.0\n".toList, " MESS_DATUM;hum\n2016010103;80.0\n".toList] "h" none = .error .valueError :=
  (C91_overlap (files := [(_, ⟨[16801 * DAY + 2 * HOUR], [("hum", [.fin 90])]⟩), (_, ⟨[16801 * DAY + 3 * HOUR], [("hum", [.fin 80])]⟩)])
    (by intro f hf; simp only [List.mem_cons, List.not_mem_nil, or_false] at hf; rcases hf with rfl | rfl <;> decide +kernel)
    (by decide) (by decide)).1 (by simp)

end Melodist.DataIO
