import Verif.Lemmas.DwdMeta
import Mathlib.Data.Rat.Floor

/-!
# The header returned by `read_dwd` (C106)
-/

set_option linter.unusedSectionVars false

namespace Melodist.DataIO

open Text Spec

variable {K : Type} [Field K] [LinearOrder K] [IsStrictOrderedRing K]

theorem meta_guard {names : List String} {rows : List (List Text)} (h : MetaText names rows) :
    ¬ (¬ (names.map stripName).Nodup ∨ (rows.any fun r => r.any specialTexts.contains) = true) := by
  rintro (h1 | h1)
  · exact h1 (stripped_nodup h.names_differ)
  · obtain ⟨r, hr, h2⟩ := List.any_eq_true.1 h1
    obtain ⟨t, ht, h3⟩ := List.any_eq_true.1 h2
    exact (h.rows_plain r hr t ht).2 (List.contains_iff_mem.1 h3)

theorem named_mem {names : List String} {name : String} : name ∈ names.map stripName ↔ ∃ n ∈ names, Named name n := by
  rw [List.mem_map]
  exact ⟨fun ⟨n, hn, e⟩ => ⟨n, hn, stripName_eq.1 e⟩, fun ⟨n, hn, e⟩ => ⟨n, hn, stripName_eq.2 e⟩⟩

theorem named_idx {names : List String} {name : String} {i : Nat} (hnd : (names.map fun n => strip n.toList).Nodup) (hi : i < names.length)
    (h : Named name names[i]) : (names.map stripName).idxOf name = i := by
  have e : (names.map stripName)[i]'(by simpa using hi) = name := by rw [List.getElem_map]; exact stripName_eq.2 h
  rw [← e]
  exact (stripped_nodup hnd).idxOf_getElem i (by simpa using hi)

/-- **C106.**  The header is taken from the last row with a field that is not empty: the station id and the name from the columns with these names (wherever
they are), latitude and longitude from the third and the fourth column (whatever their names are). -/
theorem C106_header {names : List String} {pre post : List (List Text)} {r : List Text} (h : MetaText names (pre ++ r :: post))
    (hr : ∃ t ∈ r, t ≠ []) (hpost : ∀ p ∈ post, ∀ t ∈ p, t = []) {i j : Nat} (hi : i < names.length) (hid : Named "Stations_id" names[i])
    (hj : j < names.length) (hname : Named "Stationsname" names[j]) (hfour : 4 ≤ names.length)
    (hpure : ∀ c, c = i ∨ c = j ∨ c = 2 ∨ c = 3 → PureColumn (pre ++ r :: post) c) :
    ∃ header : DwdHeader K, readDwdMeta (metaFile names (pre ++ r :: post)) = .ok header ∧
      Reads (pre ++ r :: post) i r header.stationsId ∧ Reads (pre ++ r :: post) j r header.stationsname ∧
      Reads (pre ++ r :: post) 2 r header.breite ∧ Reads (pre ++ r :: post) 3 r header.laenge := by
  have hk : pre.length < (pre ++ r :: post).length := by simp
  have hrk : (pre ++ r :: post)[pre.length] = r := by simp
  have key : ∀ c, c = i ∨ c = j ∨ c = 2 ∨ c = 3 → ∃ v : MetaCell K, metaCell (nthColumn (pre ++ r :: post) c) pre.length = .ok v ∧
      Reads (pre ++ r :: post) c r v := by
    intro c hc
    obtain ⟨v, h1, h2⟩ := metaCell_reads (K := K) hk (hpure c hc)
    rw [hrk] at h2
    exact ⟨v, h1, h2⟩
  obtain ⟨a, ha, hra⟩ := key i (.inl rfl)
  obtain ⟨b, hb, hrb⟩ := key j (.inr (.inl rfl))
  obtain ⟨c, hc, hrc⟩ := key 2 (.inr (.inr (.inl rfl)))
  obtain ⟨d, hd, hrd⟩ := key 3 (.inr (.inr (.inr rfl)))
  refine ⟨⟨a, b, c, d⟩, ?_, hra, hrb, hrc, hrd⟩
  have m1 : "Stations_id" ∈ names.map stripName := named_mem.2 ⟨_, List.getElem_mem hi, hid⟩
  have m2 : "Stationsname" ∈ names.map stripName := named_mem.2 ⟨_, List.getElem_mem hj, hname⟩
  have l : (names.map stripName).length = names.length := List.length_map ..
  unfold readDwdMeta
  rw [meta_table h, py_ok_bind]
  dsimp only
  rw [if_neg (meta_guard h), if_neg (not_not.2 m1), lastValid_append hr hpost]
  dsimp only
  rw [named_idx h.names_differ hi hid, named_idx h.names_differ hj hname, ha, py_ok_bind, if_neg (not_not.2 m2), hb, py_ok_bind,
    if_neg (by omega), hc, py_ok_bind, if_neg (by omega), hd]
  rfl

/-- **C106.**  A closing line that has text in its first field only: where the first column is the station id, this text becomes the station id, and name,
latitude and longitude are missing. -/
theorem C106_closing_line {names : List String} {rows : List (List Text)} {t : Text} (h : MetaText names (rows ++ [[t]]))
    (ht : ∃ c ∈ t, textLetter c = true) (hfour : 4 ≤ names.length) (hid : Named "Stations_id" names[0]) {j : Nat} (hj : j < names.length)
    (hname : Named "Stationsname" names[j]) (hpure : ∀ c, c = j ∨ c = 2 ∨ c = 3 → PureColumn (rows ++ [[t]]) c) :
    readDwdMeta (K := K) (metaFile names (rows ++ [[t]])) = .ok ⟨.text t, .missing, .missing, .missing⟩ := by
  have hne : t ≠ [] := by rintro rfl; obtain ⟨c, hc, _⟩ := ht; cases hc
  have hj0 : 0 < j := by
    rcases Nat.eq_zero_or_pos j with rfl | h0
    · unfold Named at hid hname
      rw [hid] at hname
      exact absurd hname (by decide)
    · exact h0
  have hfield : ∀ c, 0 < c → fieldAt [t] c = [] := by
    intro c hc
    cases c with
    | zero => omega
    | succ c => rfl
  obtain ⟨⟨a, b, c, d⟩, e, ha, hb, hc, hd⟩ := C106_header (K := K) (names := names) (pre := rows) (post := []) (r := [t]) h
    ⟨t, List.mem_singleton_self _, hne⟩ (by simp) (i := 0) (j := j) (by omega) hid hj hname hfour (by
      rintro c (rfl | hc)
      · exact .inr ⟨[t], by simp, ht⟩
      · exact hpure c hc)
  have miss : ∀ {c : Nat} {v : MetaCell K}, 0 < c → Reads (rows ++ [[t]]) c [t] v → v = .missing := by
    intro c v hc hv
    rcases hv with hv | ⟨k, x, hx, _, _⟩ | hv
    · exact hv.2
    · rw [hfield c hc] at hx
      exact absurd (List.append_eq_nil_iff.1 hx.symm).2 (numeral_chars x).1
    · exact absurd (hfield c hc) hv.1
  have e1 : a = .text t := by
    rcases ha with ha | ⟨k, x, hx, hall, _⟩ | ha
    · exact absurd ha.1 hne
    · exfalso
      obtain ⟨ch, hch, hl⟩ := ht
      have hx : t = padded k x.text := hx
      have h1 := numbers_letter (K := ℚ) (col := [t]) ⟨t, List.mem_singleton_self _, ch, hch, hl⟩
      rw [numbers_pure (by intro s hs; obtain rfl := List.mem_singleton.1 hs; exact .inr ⟨k, x, hx⟩)] at h1
      cases h1
    · exact ha.2.2
  dsimp only at hb hc hd
  rw [e, e1, miss hj0 hb, miss (by omega) hc, miss (by omega) hd]

/-- the last row that is not empty -/
theorem split_last : ∀ {rows : List (List Text)}, (∃ r ∈ rows, ∃ t ∈ r, t ≠ []) →
    ∃ pre r post, rows = pre ++ r :: post ∧ (∃ t ∈ r, t ≠ []) ∧ ∀ p ∈ post, ∀ t ∈ p, t = []
  | [], h => by obtain ⟨r, hr, _⟩ := h; cases hr
  | a :: l, h => by
    by_cases hl : ∃ r ∈ l, ∃ t ∈ r, t ≠ []
    · obtain ⟨pre, r, post, e, h5, h6⟩ := split_last hl
      exact ⟨a :: pre, r, post, by rw [e]; rfl, h5, h6⟩
    · refine ⟨[], a, l, rfl, ?_, ?_⟩
      · obtain ⟨r, hr, ht⟩ := h
        rcases List.mem_cons.1 hr with rfl | hr
        · exact ht
        · exact absurd ⟨r, hr, ht⟩ hl
      · intro p hp t ht
        by_contra hc
        exact hl ⟨p, hp, t, ht, hc⟩

/-- **C106.**  Without a row that is not empty: KeyError.  Without the column of the station id, or of the name: AttributeError.  With less than four
columns: IndexError. -/
theorem C106_errors {names : List String} {rows : List (List Text)} (h : MetaText names rows) :
    ((¬ ∃ n ∈ names, Named "Stations_id" n) → readDwdMeta (K := K) (metaFile names rows) = .error .attributeError) ∧
    ((∃ n ∈ names, Named "Stations_id" n) → (∀ r ∈ rows, ∀ t ∈ r, t = []) → readDwdMeta (K := K) (metaFile names rows) = .error .keyError) ∧
    (∀ i, ∀ hi : i < names.length, Named "Stations_id" names[i] → (∃ r ∈ rows, ∃ t ∈ r, t ≠ []) → PureColumn rows i →
      (¬ ∃ n ∈ names, Named "Stationsname" n) → readDwdMeta (K := K) (metaFile names rows) = .error .attributeError) ∧
    (∀ i j, ∀ hi : i < names.length, ∀ hj : j < names.length, Named "Stations_id" names[i] → Named "Stationsname" names[j] →
      (∃ r ∈ rows, ∃ t ∈ r, t ≠ []) → (∀ c, PureColumn rows c) → names.length < 4 → readDwdMeta (K := K) (metaFile names rows) = .error .indexError) := by
  refine ⟨fun h1 => ?_, fun h1 h2 => ?_, fun i hi h1 h2 h3 h4 => ?_, fun i j hi hj h1 h2 h3 h4 h5 => ?_⟩
  · unfold readDwdMeta
    rw [meta_table h, py_ok_bind]
    dsimp only
    rw [if_neg (meta_guard h), if_pos (fun hm => h1 (named_mem.1 hm))]
    rfl
  · unfold readDwdMeta
    rw [meta_table h, py_ok_bind]
    dsimp only
    rw [if_neg (meta_guard h), if_neg (not_not.2 (named_mem.2 h1)), lastValid_none h2]
    rfl
  · obtain ⟨pre, r, post, e, hr, hpost⟩ := split_last h2
    have hk : pre.length < rows.length := by rw [e]; simp
    obtain ⟨v, hv, _⟩ := metaCell_reads (K := K) hk h3
    have hl : lastValid rows = some pre.length := by rw [e]; exact lastValid_append hr hpost
    unfold readDwdMeta
    rw [meta_table h, py_ok_bind]
    dsimp only
    rw [if_neg (meta_guard h), if_neg (not_not.2 (named_mem.2 ⟨_, List.getElem_mem hi, h1⟩)), hl]
    dsimp only
    rw [named_idx h.names_differ hi h1, hv, py_ok_bind, if_pos (fun hm => h4 (named_mem.1 hm))]
    rfl
  · obtain ⟨pre, r, post, e, hr, hpost⟩ := split_last h3
    have hk : pre.length < rows.length := by rw [e]; simp
    obtain ⟨a, ha, _⟩ := metaCell_reads (K := K) hk (h4 i)
    obtain ⟨b, hb, _⟩ := metaCell_reads (K := K) hk (h4 j)
    obtain ⟨c, hc, _⟩ := metaCell_reads (K := K) hk (h4 2)
    have hl : lastValid rows = some pre.length := by rw [e]; exact lastValid_append hr hpost
    have l : (names.map stripName).length = names.length := List.length_map ..
    unfold readDwdMeta
    rw [meta_table h, py_ok_bind]
    dsimp only
    rw [if_neg (meta_guard h), if_neg (not_not.2 (named_mem.2 ⟨_, List.getElem_mem hi, h1⟩)), hl]
    dsimp only
    rw [named_idx h.names_differ hi h1, named_idx h.names_differ hj h2, ha, py_ok_bind,
      if_neg (not_not.2 (named_mem.2 ⟨_, List.getElem_mem hj, h2⟩)), hb, py_ok_bind]
    by_cases h6 : (names.map stripName).length ≤ 2
    · rw [if_pos h6]; rfl
    · rw [if_neg h6, hc, py_ok_bind, if_pos (by omega)]; rfl

/-- **C106.**  Header and data are read independently: for at least one data file `read_dwd` returns the header of the metadata file and the data of the data
files; if the metadata file fails, its exception is raised whatever the data files contain; if only the data fail, theirs.  Without data files:
UnboundLocalError, whatever the metadata file contains. -/
theorem C106_header_and_data (metadata : Text) (mode : String) (skipLast : Option Bool) :
    (∀ f fs (header : DwdHeader K), readDwdMeta metadata = .ok header →
      (∀ data, readDwd (f :: fs) mode skipLast = .ok data → readDwdFull (f :: fs) metadata mode skipLast = .ok (header, data)) ∧
      ∀ e, readDwd (K := K) (f :: fs) mode skipLast = .error e → readDwdFull (K := K) (f :: fs) metadata mode skipLast = .error e) ∧
    (∀ f fs e, readDwdMeta (K := K) metadata = .error e → readDwdFull (K := K) (f :: fs) metadata mode skipLast = .error e) ∧
    readDwdFull (K := K) [] metadata mode skipLast = .error .unboundLocalError := by
  have single : ∀ f (header : DwdHeader K), readDwdMeta metadata = .ok header →
      readSingleDwdFull f metadata mode skipLast = (readSingleDwd f mode skipLast).map fun d => (header, d) := by
    intro f header h
    unfold readSingleDwdFull
    rw [h, py_ok_bind]
    cases readSingleDwd (K := K) f mode skipLast <;> rfl
  have fold : ∀ (header : DwdHeader K), readDwdMeta metadata = .ok header → ∀ (fs : List Text) (first : Frame K),
      (fs.foldlM (fun (acc : DwdHeader K × Frame K) g => do
        let r ← readSingleDwdFull g metadata mode skipLast
        .ok (r.1, ← outerJoin acc.2 r.2)) (header, first) : Py (DwdHeader K × Frame K)) =
      (fs.foldlM (fun data g => do outerJoin data (← readSingleDwd g mode skipLast)) first : Py (Frame K)).map fun d => (header, d) := by
    intro header h fs
    induction fs with
    | nil => intro first; rfl
    | cons g fs ih =>
      intro first
      rw [List.foldlM_cons, List.foldlM_cons, single g header h]
      cases readSingleDwd (K := K) g mode skipLast with
      | error e => rfl
      | ok d =>
        show (outerJoin first d >>= fun x => Except.ok (header, x)) >>= _ = _
        cases hj : outerJoin first d with
        | error e =>
          show Except.error e = Except.map _ (outerJoin first d >>= _)
          rw [hj]
          rfl
        | ok x =>
          show List.foldlM _ (header, x) fs = Except.map _ (outerJoin first d >>= _)
          rw [hj, ih x]
          rfl
  have whole : ∀ f fs (header : DwdHeader K), readDwdMeta metadata = .ok header →
      readDwdFull (f :: fs) metadata mode skipLast = (readDwd (f :: fs) mode skipLast).map fun d => (header, d) := by
    intro f fs header h
    unfold readDwdFull readDwd
    dsimp only
    rw [single f header h]
    cases readSingleDwd (K := K) f mode skipLast with
    | error e => rfl
    | ok d => exact fold header h fs d
  refine ⟨fun f fs header h => ⟨fun data hd => ?_, fun e he => ?_⟩, fun f fs e h => ?_, rfl⟩
  · rw [whole f fs header h, hd]; rfl
  · rw [whole f fs header h, he]; rfl
  · unfold readDwdFull readSingleDwdFull
    dsimp only
    rw [h]
    rfl

/-! ## examples -/

/-- a metadata file of two periods -/
def metaNames : List String := ["Stations_id", "Stationshoehe", " Geogr.Breite", "Geogr.Laenge ", "von_datum", " Stationsname"]

/-- its rows -/
def metaRows : List (List Text) :=
  [["3379", "515.0", " 48.10", "11.50", "19540601", "Muenchen-Riem"], ["3379", "515.0", " 48.1632", "11.5429", "20180611", "Muenchen-Stadt"]].map
    (List.map String.toList)

theorem meta_example_ok (extra : List (List Text)) (h : extra = [] ∨ extra = ["generiert: heute"].map fun s => [s.toList]) :
    MetaText metaNames (metaRows ++ extra) := by
  rcases h with rfl | rfl
  · exact ⟨by unfold PlainText; decide, ⟨"Stations_id", by decide, 'S', by decide, by decide⟩, by decide, by decide, by
      intro r hr
      refine ⟨';', ?_, by decide⟩
      revert r
      decide, by unfold PlainText; decide⟩
  · refine ⟨by unfold PlainText; decide, ⟨"Stations_id", by decide, 'S', by decide, by decide⟩, by decide, by decide, ?_, by unfold PlainText; decide⟩
    intro r hr
    refine ⟨if r.length = 1 then 'g' else ';', ?_, by split <;> decide⟩
    revert r
    decide

example : okAnd (readDwdMeta (K := ℚ) (metaFile metaNames metaRows)) (fun h => h = ⟨.number (.fin 3379), .text "Muenchen-Stadt".toList,
    .number (.fin (481632 / 10000)), .number (.fin (115429 / 10000))⟩) := by
  decide +kernel

theorem meta_example_pure (c : Nat) (h : c = 0 ∨ c = 5 ∨ c = 2 ∨ c = 3) : PureColumn (metaRows ++ []) c := by
  rcases h with rfl | rfl | rfl | rfl
  · left
    intro r hr
    right
    refine ⟨0, ⟨false, 3379, []⟩, ?_⟩
    revert r
    decide
  · right
    exact ⟨metaRows[0], by decide, 'M', by decide, by decide⟩
  · left
    intro r hr
    have : ∀ r ∈ metaRows ++ [], fieldAt r 2 = padded 1 (Numeral.text ⟨false, 48, [1, 0]⟩) ∨ fieldAt r 2 = padded 1 (Numeral.text ⟨false, 48, [1, 6, 3, 2]⟩) := by decide
    exact .inr (this r hr |>.elim (fun h => ⟨_, _, h⟩) (fun h => ⟨_, _, h⟩))
  · left
    intro r hr
    have : ∀ r ∈ metaRows ++ [], fieldAt r 3 = padded 0 (Numeral.text ⟨false, 11, [5, 0]⟩) ∨ fieldAt r 3 = padded 0 (Numeral.text ⟨false, 11, [5, 4, 2, 9]⟩) := by decide
    exact .inr (this r hr |>.elim (fun h => ⟨_, _, h⟩) (fun h => ⟨_, _, h⟩))

example : ∃ header : DwdHeader ℚ, readDwdMeta (metaFile metaNames (metaRows ++ [])) = .ok header ∧
    Reads (metaRows ++ []) 0 metaRows[1] header.stationsId ∧ Reads (metaRows ++ []) 5 metaRows[1] header.stationsname ∧
      Reads (metaRows ++ []) 2 metaRows[1] header.breite ∧ Reads (metaRows ++ []) 3 metaRows[1] header.laenge :=
  C106_header (names := metaNames) (pre := [metaRows[0]]) (post := []) (r := metaRows[1]) (meta_example_ok [] (.inl rfl)) (by decide) (by simp)
    (i := 0) (j := 5) (by decide) (by unfold Named; decide) (by decide) (by unfold Named; decide) (by decide) meta_example_pure

/-- the closing line -/
example : okAnd (readDwdMeta (K := ℚ) (metaFile metaNames (metaRows ++ [["generiert: heute".toList]]))) (fun h =>
    h = ⟨.text "generiert: heute".toList, .missing, .missing, .missing⟩) := by
  decide +kernel

/-- a row without content at the end does not matter -/
example : okAnd (readDwdMeta (K := ℚ) "Stationsname;Stations_id;x;y\nRiem;1;2;3\nStadt;4;5.5;6\n;;;\n\n".toList) (fun h =>
    h = ⟨.number (.fin 4), .text "Stadt".toList, .number (.fin (11 / 2)), .number (.fin 6)⟩) := by
  decide +kernel

example : readDwdMeta (K := ℚ) "Stationsname;Stations_id;x;y\n;;;\n".toList = .error .keyError ∧
    readDwdMeta (K := ℚ) "Stationsname;STATIONS_ID;x;y\nRiem;1;2;3\n".toList = .error .attributeError ∧
    readDwdMeta (K := ℚ) "Stationsname;Stations_id;x\nRiem;1;2\n".toList = .error .indexError := by
  refine ⟨?_, ?_, ?_⟩ <;> decide +kernel

end Melodist.DataIO
