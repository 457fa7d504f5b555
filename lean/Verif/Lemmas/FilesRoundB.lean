import Verif.Lemmas.FilesRound
import Verif.Props.Dwd
import Verif.Props.Knmi

/-!
# Reading KNMI and DWD files in floating-point arithmetic: lemmas for C147
-/

set_option linter.unusedSectionVars false

namespace Melodist.DataIO

open Text Spec

/-- the number read from a field -/
noncomputable def cellR (parse : Text → ℝ → ℝ) : Option Numeral → XF ℝ
  | none => .nan
  | some x => .fin (parse x.text x.value)

/-- a cell of a DWD file -/
noncomputable def dwdCellR (fl : ℝ → ℝ) (parse : Text → ℝ → ℝ) (kelvin : Bool) : Option Numeral → XF ℝ
  | none => .nan
  | some x => if parse x.text x.value = -999 then .nan else .fin (if kelvin then fl (parse x.text x.value + fl (5463 / 20)) else parse x.text x.value)

/-- the table that belongs to the records of a DWD file -/
noncomputable def dwdFrameR (fl : ℝ → ℝ) (parse : Text → ℝ → ℝ) (hourly : Bool) (names : List String) (recs : List DwdRecord) : Frame ℝ :=
  ⟨recs.map fun r => r.day * DAY + if hourly then r.hour * HOUR else 0,
    names.filterMap fun n => (dwdKnown n).map fun e => (e.1, recs.map fun r => dwdCellR fl parse e.2 (r.val n))⟩

theorem knmi_numsR (parse : Text → ℝ → ℝ) {names : List String} {recs : List ((String → Nat) × KnmiRecord)} {n : String} (h : n ∈ names) (h1 : n ≠ "YYYYMMDD") (h2 : n ≠ "HH") :
    Table.numsR parse ⟨names, recs.map fun r => names.map fun n => r.2.field n⟩ (none : Option ℝ) n = .ok (recs.map fun r => cellR parse (r.2.val n)) := by
  unfold Table.numsR
  rw [column_eq (field := fun (r : (String → Nat) × KnmiRecord) n => r.2.field n) h, py_ok_bind]
  have : numbersR? parse (none : Option ℝ) (recs.map fun r => r.2.field n) = some (recs.map fun r => cellR parse (r.2.val n)) := by
    unfold numbersR?
    rw [List.mapM_map]
    refine mapM_some fun r _ => ?_
    show (if r.2.field n = [] then some .nan else (readNumber parse (strip (r.2.field n))).map fun v => v) = _
    cases hv : r.2.val n with
    | none =>
      have e : r.2.field n = [] := by unfold KnmiRecord.field; rw [if_neg h1, if_neg h2, hv]
      rw [e, if_pos rfl]; rfl
    | some x =>
      have e : r.2.field n = x.text := by unfold KnmiRecord.field; rw [if_neg h1, if_neg h2, hv]
      rw [e, if_neg (numeral_chars x).1, strip_id fun c hc => ((numeral_chars x).2 c hc).1, show readNumber parse x.text = _ by unfold readNumber; rw [number_numeral]]
      rfl
  rw [this]

/-- the frame that belongs to the records of a KNMI file -/
noncomputable def knmiFrameR (fl : ℝ → ℝ) (parse : Text → ℝ → ℝ) (recs : List KnmiRecord) : Frame ℝ :=
  ⟨recs.map fun r => r.day * DAY + r.hour * HOUR,
    [("temp", recs.map fun r => ((cellR parse (r.val "T") / .fin 10).rnd fl + .fin (fl (5463 / 20))).rnd fl),
      ("precip", recs.map fun r => if XF.lt ((cellR parse (r.val "RH") / .fin 10).rnd fl) (.fin 0) then .fin 0 else (cellR parse (r.val "RH") / .fin 10).rnd fl),
      ("glob", recs.map fun r => ((cellR parse (r.val "Q") * .fin 10000).rnd fl / .fin 3600).rnd fl), ("hum", recs.map fun r => cellR parse (r.val "U")),
      ("wind", recs.map fun r => (cellR parse (r.val "FH") / .fin 10).rnd fl), ("ssd", recs.map fun r => (cellR parse (r.val "SQ") * .fin 6).rnd fl)]⟩

theorem knmi_readR (fl : ℝ → ℝ) (parse : Text → ℝ → ℝ) {api : PandasApi} {explanation : List Text} {names : List (Nat × String)} {recs : List ((String → Nat) × KnmiRecord)}
    (h : KnmiText explanation names recs) (hcols : ∀ n ∈ ["T", "RH", "Q", "U", "FH", "SQ"], n ∈ names.map Prod.snd)
    (hhour : ∀ r ∈ recs, 1 ≤ r.2.hour ∧ r.2.hour ≤ 24) (hapi : api.pdDatetime = true) :
    readKnmiR fl parse api (knmiFile explanation names recs) = .ok (knmiFrameR fl parse (recs.map Prod.snd)) := by
  have hnot : ¬ ("YYYYMMDD" ∉ names.map Prod.snd ∨ "HH" ∉ names.map Prod.snd) := by
    rintro (hh | hh)
    · exact hh h.day
    · exact hh h.hour
  unfold readKnmiR
  rw [knmi_table h, py_ok_bind]
  dsimp only
  rw [if_neg hnot, if_neg (by rw [hapi]; decide), column_eq (field := fun (r : (String → Nat) × KnmiRecord) n => r.2.field n) h.day,
    column_eq (field := fun (r : (String → Nat) × KnmiRecord) n => r.2.field n) h.hour]
  simp only [pure_bind, py_ok_bind]
  rw [List.zip_map', List.mapM_map]
  rw [mapM_ok (g := fun r : (String → Nat) × KnmiRecord => r.2.day * DAY + r.2.hour * HOUR) (fun r hr => by
    show knmiTime (r.2.field "YYYYMMDD") (r.2.field "HH") = _
    have e1 : r.2.field "YYYYMMDD" = ymd r.2.day := by unfold KnmiRecord.field; rw [if_pos rfl]
    have e2 : r.2.field "HH" = ofNat r.2.hour := by unfold KnmiRecord.field; rw [if_neg (by decide), if_pos rfl]
    rw [e1, e2]
    exact knmiTime_ok (h.years r hr) (hhour r hr).1 (hhour r hr).2), py_ok_bind]
  rw [knmi_numsR parse (hcols "T" (by decide)) (by decide) (by decide), py_ok_bind, knmi_numsR parse (hcols "RH" (by decide)) (by decide) (by decide), py_ok_bind,
    knmi_numsR parse (hcols "Q" (by decide)) (by decide) (by decide), py_ok_bind, knmi_numsR parse (hcols "U" (by decide)) (by decide) (by decide), py_ok_bind,
    knmi_numsR parse (hcols "FH" (by decide)) (by decide) (by decide), py_ok_bind, knmi_numsR parse (hcols "SQ" (by decide)) (by decide) (by decide), py_ok_bind]
  unfold knmiFrameR
  simp only [List.map_map, Function.comp_def]

section
variable {hourly : Bool} {names : List String} {recs : List DwdRecord}

/-- a number read from a column of a DWD file, in its own unit -/
theorem dwdColumnR_ok (parse : Text → ℝ → ℝ) (fl : ℝ → ℝ) (h : DwdText hourly names recs) {n : String} (hn : n ∈ names) (hk : dwdKnown n ≠ none) :
    dwdColumnR parse (recs.map fun r => r.field hourly n) = .ok (recs.map fun r => dwdCellR fl parse false (r.val n)) := by
  have hm : n ≠ " MESS_DATUM" := by rintro rfl; exact hk dwdKnown_date
  have hf : ∀ r : DwdRecord, r.field hourly n = match r.val n with | none => [] | some x => padded (r.blanks n) x.text := by
    intro r
    unfold DwdRecord.field
    rw [if_neg hm, if_neg (by simpa using hk)]
    rfl
  unfold dwdColumnR
  rw [if_neg]
  · have : numbersR? parse (some (-999 : ℝ)) (recs.map fun r => r.field hourly n) = some (recs.map fun r => dwdCellR fl parse false (r.val n)) := by
      unfold numbersR?
      rw [List.mapM_map]
      refine mapM_some fun r _ => ?_
      show (if r.field hourly n = [] then some .nan else (readNumber parse (strip (r.field hourly n))).map fun v => if v = .fin (-999 : ℝ) then .nan else v) = _
      rw [hf r]
      cases hv : r.val n with
      | none => rw [if_pos rfl]; rfl
      | some x =>
        have hne : padded (r.blanks n) x.text ≠ [] := by
          unfold padded
          intro e
          exact (numeral_chars x).1 (List.append_eq_nil_iff.1 e).2
        dsimp only
        rw [if_neg hne, strip_padded, strip_id fun c hc => ((numeral_chars x).2 c hc).1, show readNumber parse x.text = some (.fin (parse x.text x.value)) by unfold readNumber; rw [number_numeral]; rfl]
        unfold dwdCellR
        simp only [Option.map_some, XF.fin.injEq, Bool.false_eq_true, if_false]
    rw [this]
  · rintro ⟨ha, hb⟩
    rcases h.codes n hn hk with ⟨r, hr, x, hv, hx⟩ | hz
    · have := List.all_eq_true.1 ha (r.field hourly n) (List.mem_map.2 ⟨r, hr, rfl⟩)
      rw [hf r, hv] at this
      have hdot : '.' ∈ padded (r.blanks n) x.text := by
        unfold padded Numeral.text
        rw [if_neg hx]
        simp
      dsimp only at this
      simp [hdot] at this
    · obtain ⟨t, ht, hc⟩ := List.any_eq_true.1 hb
      obtain ⟨r, hr, rfl⟩ := List.mem_map.1 ht
      have hc : strip (r.field hourly n) = "-999".toList ∧ r.field hourly n ≠ "-999".toList := by simpa using hc
      rw [hf r] at hc
      cases hv : r.val n with
      | none =>
        rw [hv] at hc
        dsimp only at hc
        exact absurd hc.1 (by decide)
      | some x =>
        rw [hv] at hc
        dsimp only at hc
        have e : padded (r.blanks n) x.text = x.text := by unfold padded; rw [hz r hr]; rfl
        rw [e, strip_id fun c hc => ((numeral_chars x).2 c hc).1] at hc
        exact hc.2 hc.1


end

/-- the conversion of one column -/
theorem dwd_convertR_one (fl : ℝ → ℝ) (parse : Text → ℝ → ℝ) (recs : List DwdRecord) {n : String} {e : String × Bool} (hk : dwdKnown n = some e) :
    (if dwdName (stripName n) = "tmin" ∨ dwdName (stripName n) = "tmax" ∨ dwdName (stripName n) = "tmean" ∨ dwdName (stripName n) = "temp" then
      (dwdName (stripName n), (recs.map fun r => dwdCellR fl parse false (r.val n)).map fun x => (x + .fin (fl (5463 / 20))).rnd fl)
    else (dwdName (stripName n), recs.map fun r => dwdCellR fl parse false (r.val n))) = (e.1, recs.map fun r => dwdCellR fl parse e.2 (r.val n)) := by
  rw [dwdKnown_eq] at hk
  by_cases hc : (dwdNames.map fun p => p.2).contains (dwdName (stripName n)) = true
  · rw [if_pos hc] at hk
    have he := (Option.some.inj hk).symm
    rw [he]
    generalize dwdName (stripName n) = s
    dsimp only
    by_cases ht : s = "tmin" ∨ s = "tmax" ∨ s = "tmean" ∨ s = "temp"
    · rw [if_pos ht, List.map_map, decide_eq_true ht]
      refine Prod.ext rfl (List.map_congr_left fun r _ => ?_)
      show (dwdCellR fl parse false (r.val n) + XF.fin (fl (5463 / 20))).rnd fl = dwdCellR fl parse true (r.val n)
      cases r.val n with
      | none => rfl
      | some x =>
        unfold dwdCellR
        dsimp only
        by_cases hx : parse x.text x.value = -999
        · rw [if_pos hx, if_pos hx]; rfl
        · rw [if_neg hx, if_neg hx, if_neg (by decide), if_pos rfl, XF.fin_add_fin]
          rfl
    · rw [if_neg ht, decide_eq_false ht]
  · rw [if_neg hc] at hk
    cases hk

theorem dwd_convertR (fl : ℝ → ℝ) (parse : Text → ℝ → ℝ) (recs : List DwdRecord) (l : List String) : (l.filter fun n => (dwdKnown n).isSome).map ((fun c : String × List (XF ℝ) =>
      if c.1 = "tmin" ∨ c.1 = "tmax" ∨ c.1 = "tmean" ∨ c.1 = "temp" then (c.1, c.2.map fun x => (x + .fin (fl (5463 / 20))).rnd fl) else c) ∘
      ((fun c : String × List (XF ℝ) => (dwdName (stripName c.1), c.2)) ∘ fun n => (n, recs.map fun r => dwdCellR fl parse false (r.val n)))) =
      l.filterMap fun n => (dwdKnown n).map fun e => (e.1, recs.map fun r => dwdCellR fl parse e.2 (r.val n)) := by
  induction l with
  | nil => rfl
  | cons n l ih =>
    rw [List.filterMap_cons]
    cases hk : dwdKnown n with
    | none =>
      rw [List.filter_cons_of_neg (by rw [hk]; simp), ih]
      rfl
    | some e =>
      rw [List.filter_cons_of_pos (by rw [hk]; rfl), List.map_cons, ih]
      rw [Function.comp_apply, Function.comp_apply]
      dsimp only [Option.map_some]
      rw [dwd_convertR_one fl parse recs hk]

/-- reading the lines of a file, without or with a last line to be skipped -/
theorem dwd_lines_readR (fl : ℝ → ℝ) (parse : Text → ℝ → ℝ) {hourly : Bool} {mode : String} (hmode : mode = "d" ∧ hourly = false ∨ mode = "h" ∧ hourly = true) {names : List String}
    {recs : List DwdRecord} (h : DwdText hourly names recs) {file : Text} {skipLast : Option Bool}
    (hl : (if skipLast.isSome then (lines (univ file)).dropLast else lines (univ file)) = dwdLines hourly names recs) :
    readSingleDwdR fl parse file mode skipLast = .ok (dwdFrameR fl parse hourly names recs) := by
  have hm : ¬ (mode ≠ "d" ∧ mode ≠ "h") := by
    rcases hmode with ⟨rfl, _⟩ | ⟨rfl, _⟩ <;> simp
  have hb : decide (mode = "h") = hourly := by
    rcases hmode with ⟨rfl, rfl⟩ | ⟨rfl, rfl⟩ <;> decide
  unfold readSingleDwdR
  dsimp only
  rw [hl, if_neg hm, hb]
  rw [dwd_table h, py_ok_bind]
  dsimp only
  rw [if_neg (by simpa using h.date)]
  rw [column_eq (field := fun (r : DwdRecord) n => r.field hourly n) h.date, py_ok_bind, List.mapM_map,
    mapM_ok (f := dwdTime hourly ∘ fun r : DwdRecord => r.field hourly " MESS_DATUM") (g := fun r : DwdRecord => r.day * DAY + if hourly then r.hour * HOUR else 0) (fun r hr => dwdTime_ok h hr), py_ok_bind]
  have hkept : ∀ n ∈ names, (n != " MESS_DATUM" && (dwdNames.map fun p => p.2).contains (dwdName (stripName n))) = (dwdKnown n).isSome := by
    intro n _
    rw [dwdKnown_eq]
    by_cases hn : n = " MESS_DATUM"
    · subst hn; decide
    · rw [show (n != " MESS_DATUM") = true by simpa using hn, Bool.true_and]
      by_cases hc : (dwdNames.map fun p => p.2).contains (dwdName (stripName n)) = true
      · rw [if_pos hc, hc]; rfl
      · rw [if_neg hc, Bool.not_eq_true _ |>.mp hc]; rfl
  rw [List.filter_congr hkept]
  rw [mapM_ok (g := fun n => (n, recs.map fun r => dwdCellR fl parse false (r.val n))) (fun n hn => by
    obtain ⟨hn, hk⟩ := List.mem_filter.1 hn
    rw [column_eq (field := fun (r : DwdRecord) n => r.field hourly n) hn, py_ok_bind, dwdColumnR_ok parse fl h hn (by
      intro e; rw [e] at hk; cases hk), py_ok_bind]), py_ok_bind]
  unfold dwdFrameR
  congr 2
  unfold dwdConvertR
  dsimp only
  rw [List.map_map]
  have hfil : (List.map ((fun c : String × List (XF ℝ) => (dwdName (stripName c.1), c.2)) ∘ fun n => (n, recs.map fun r => dwdCellR fl parse false (r.val n)))
      (names.filter fun n => (dwdKnown n).isSome)).filter (fun c => (dwdNames.map fun p => p.2).contains c.1) =
      List.map ((fun c : String × List (XF ℝ) => (dwdName (stripName c.1), c.2)) ∘ fun n => (n, recs.map fun r => dwdCellR fl parse false (r.val n)))
      (names.filter fun n => (dwdKnown n).isSome) := by
    rw [List.filter_eq_self]
    intro c hc
    obtain ⟨n, hn, rfl⟩ := List.mem_map.1 hc
    have hk := (List.mem_filter.1 hn).2
    show (dwdNames.map fun p => p.2).contains (dwdName (stripName n)) = true
    rw [dwdKnown_eq] at hk
    by_contra hc
    rw [if_neg hc] at hk
    cases hk
  rw [hfil, List.map_map]
  exact dwd_convertR fl parse recs names

end Melodist.DataIO
