import Verif.Model.Smet
import Verif.Lemmas.Text
import Verif.Lemmas.Frame
import Verif.Lemmas.Master

/-!
# Lemmas about writing and reading SMET files
-/

set_option linter.unusedSectionVars false

namespace Melodist.Smet

open Text

/-! ## dicts -/

theorem setItem_keys (d : Pairs) (k v : String) :
    (setItem d k v).map Prod.fst = if k ∈ d.map Prod.fst then d.map Prod.fst else d.map Prod.fst ++ [k] := by
  unfold setItem
  by_cases h : (d.any fun p => p.1 == k) = true
  · have hm : k ∈ d.map Prod.fst := by
      obtain ⟨p, hp, e⟩ := List.any_eq_true.1 h
      exact List.mem_map.2 ⟨p, hp, by simpa using e⟩
    rw [if_pos h, if_pos hm, List.map_map]
    refine List.map_congr_left fun p _ => ?_
    dsimp only [Function.comp]
    by_cases e : (p.1 == k) = true
    · rw [if_pos e]; exact (by simpa using e : p.1 = k).symm
    · rw [if_neg e]
  · have hm : k ∉ d.map Prod.fst := by
      intro hm
      obtain ⟨p, hp, e⟩ := List.mem_map.1 hm
      exact h (List.any_eq_true.2 ⟨p, hp, by simpa using e⟩)
    rw [if_neg h, if_neg hm, List.map_append]
    rfl

theorem setItem_nodup {d : Pairs} (h : (d.map Prod.fst).Nodup) (k v : String) : ((setItem d k v).map Prod.fst).Nodup := by
  rw [setItem_keys]
  by_cases hm : k ∈ d.map Prod.fst
  · rw [if_pos hm]; exact h
  · rw [if_neg hm]
    rw [List.nodup_append]
    refine ⟨h, by simp, ?_⟩
    intro a ha b hb e
    have hb' := List.mem_singleton.1 hb
    exact hm (hb' ▸ e ▸ ha)

theorem mem_setItem_self (d : Pairs) (k v : String) : (k, v) ∈ setItem d k v := by
  unfold setItem
  by_cases h : (d.any fun p => p.1 == k) = true
  · rw [if_pos h]
    obtain ⟨p, hp, e⟩ := List.any_eq_true.1 h
    exact List.mem_map.2 ⟨p, hp, by rw [if_pos e]⟩
  · rw [if_neg h]; simp

theorem mem_setItem_ne {d : Pairs} {k v : String} {p : String × String} (hp : p ∈ d) (hk : p.1 ≠ k) : p ∈ setItem d k v := by
  unfold setItem
  by_cases h : (d.any fun p => p.1 == k) = true
  · rw [if_pos h]
    exact List.mem_map.2 ⟨p, hp, by rw [if_neg (by simpa using hk)]⟩
  · rw [if_neg h]; exact List.mem_append_left _ hp

theorem mem_setItem {d : Pairs} {k v : String} {p : String × String} (hp : p ∈ setItem d k v) : p = (k, v) ∨ p ∈ d := by
  unfold setItem at hp
  by_cases h : (d.any fun p => p.1 == k) = true
  · rw [if_pos h] at hp
    obtain ⟨q, hq, e⟩ := List.mem_map.1 hp
    by_cases c : (q.1 == k) = true
    · rw [if_pos c] at e; exact .inl e.symm
    · rw [if_neg c] at e; exact .inr (e ▸ hq)
  · rw [if_neg h] at hp
    rcases List.mem_append.1 hp with h' | h'
    · exact .inr h'
    · exact .inl (List.mem_singleton.1 h')

theorem getItem_mem : ∀ {d : Pairs}, (d.map Prod.fst).Nodup → ∀ {k v : String}, (k, v) ∈ d → getItem d k = .ok v
  | p :: r, hn, k, v, hm => by
    unfold getItem
    rw [List.find?_cons]
    rw [List.map_cons, List.nodup_cons] at hn
    rcases List.mem_cons.1 hm with rfl | hm
    · simp
    · have : p.1 ≠ k := fun e => hn.1 (List.mem_map.2 ⟨_, hm, e.symm⟩)
      have e : (p.1 == k) = false := by simpa using this
      rw [e]
      exact getItem_mem hn.2 hm

theorem foldl_setItem : ∀ (l h : Pairs), ((h ++ l).map Prod.fst).Nodup → l.foldl (fun h p => setItem h p.1 p.2) h = h ++ l
  | [], h, _ => by simp
  | p :: r, h, hn => by
    have hp : p.1 ∉ h.map Prod.fst := by
      intro hm
      rw [List.map_append, List.map_cons, List.nodup_append] at hn
      exact hn.2.2 _ hm _ (by simp) rfl
    have e : setItem h p.1 p.2 = h ++ [p] := by
      unfold setItem
      rw [if_neg]
      intro c
      obtain ⟨q, hq, e⟩ := List.any_eq_true.1 c
      exact hp (List.mem_map.2 ⟨q, hq, by simpa using e⟩)
    rw [List.foldl_cons, e, foldl_setItem r _ (by rw [List.append_assoc]; exact hn), List.append_assoc]
    rfl

/-! ## the header -/

/-- a header line without its line end -/
def entry (p : String × String) : Text := p.1.toList ++ ' ' :: '=' :: ' ' :: p.2.toList

/-- the lines before the data -/
def headLines (md : Pairs) : List Text := ["SMET 1.1 ASCII".toList, "[HEADER]".toList] ++ md.map entry ++ ["[DATA]".toList]

theorem fileText_eq (md : Pairs) (data : Text) : fileText md data = ended (headLines md) ++ data := by
  unfold fileText headLines
  rw [ended_append, ended_append]
  have e1 : ended ["SMET 1.1 ASCII".toList, "[HEADER]".toList] = "SMET 1.1 ASCII\n".toList ++ "[HEADER]\n".toList := by decide
  have e2 : ended ["[DATA]".toList] = "[DATA]\n".toList := by decide
  have e3 : ended (md.map entry) = (md.map headerLine).flatten := by
    unfold ended
    rw [List.map_map]
    congr 1
  rw [e1, e2, e3]

/-- text that can be a key or a value of the header: no `=`, no line end, no quotation mark, no white space at the ends -/
def Clean (s : String) : Prop := strip s.toList = s.toList ∧ ∀ c ∈ s.toList, c ≠ '=' ∧ c ≠ '\n' ∧ c ≠ '\r' ∧ c ≠ '"'

/-- text without `=`, line ends, quotation marks -/
def Plain (s : String) : Prop := ∀ c ∈ s.toList, c ≠ '=' ∧ c ≠ '\n' ∧ c ≠ '\r' ∧ c ≠ '"'

theorem entry_chars {p : String × String} (h1 : Plain p.1) (h2 : Plain p.2) : ∀ c ∈ entry p, c ≠ '\n' ∧ c ≠ '\r' ∧ c ≠ '"' := by
  intro c hc
  unfold entry at hc
  rw [List.mem_append, List.mem_cons, List.mem_cons, List.mem_cons] at hc
  rcases hc with hc | rfl | rfl | rfl | hc
  · exact (h1 c hc).2
  · decide
  · decide
  · decide
  · exact (h2 c hc).2

theorem headLines_chars {md : Pairs} (h : ∀ p ∈ md, Plain p.1 ∧ Plain p.2) : ∀ l ∈ headLines md, ∀ c ∈ l, c ≠ '\n' ∧ c ≠ '\r' ∧ c ≠ '"' := by
  intro l hl
  unfold headLines at hl
  rw [List.mem_append, List.mem_append] at hl
  rcases hl with (hl | hl) | hl
  · simp only [List.mem_cons, List.not_mem_nil, or_false] at hl
    rcases hl with rfl | rfl <;> decide
  · obtain ⟨p, hp, rfl⟩ := List.mem_map.1 hl
    exact entry_chars (h p hp).1 (h p hp).2
  · rw [List.mem_singleton.1 hl]; decide

/-- the entry as it is read -/
def stripped (p : String × String) : String × String := (String.ofList (strip p.1.toList), String.ofList (strip p.2.toList))

theorem headerLoop_entries (rest : List Text) : ∀ (md : Pairs) (k : Nat) (h : Pairs), (∀ p ∈ md, Plain p.1 ∧ Plain p.2) →
    headerLoop k true h (md.map entry ++ "[DATA]".toList :: rest) =
      .ok ((md.map stripped).foldl (fun h p => setItem h p.1 p.2) h, some (k + md.length + 1))
  | [], k, h, _ => by
    rw [List.map_nil, List.nil_append]
    unfold headerLoop
    rw [if_neg (by decide), if_pos (by decide)]
    rfl
  | p :: md, k, h, hp => by
    rw [List.map_cons, List.cons_append]
    unfold headerLoop
    have hin : '=' ∈ strip (entry p) := mem_strip (by decide) (by unfold entry; simp)
    rw [if_neg (fun e => absurd (e ▸ hin) (by decide)), if_neg (fun e => absurd (e ▸ hin) (by decide)), if_pos rfl]
    have e : splitBy (· == '=') (entry p) = [p.1.toList ++ [' '], ' ' :: p.2.toList] := by
      have e1 : entry p = (p.1.toList ++ [' ']) ++ '=' :: (' ' :: p.2.toList) := by unfold entry; simp
      rw [e1, splitBy_sep (by rfl), splitBy_none]
      · intro c hc
        rcases List.mem_cons.1 hc with rfl | hc
        · rfl
        · simpa using ((hp p (by simp)).2 c hc).1
      · intro c hc
        rcases List.mem_append.1 hc with hc | hc
        · simpa using ((hp p (by simp)).1 c hc).1
        · rw [List.mem_singleton.1 hc]; rfl
    rw [e]
    dsimp only
    rw [headerLoop_entries rest md (k + 1) _ fun q hq => hp q (by simp [hq]), strip_snoc (by decide), strip_cons (by decide), List.map_cons,
      List.foldl_cons, List.length_cons]
    congr 4
    omega

theorem headerLoop_file (rest : List Text) {md : Pairs} (hp : ∀ p ∈ md, Plain p.1 ∧ Plain p.2) (hn : ((md.map stripped).map Prod.fst).Nodup) :
    headerLoop 0 false [] (headLines md ++ rest) = .ok (md.map stripped, some (headLines md).length) := by
  unfold headLines
  rw [List.append_assoc, List.append_assoc, List.cons_append, List.cons_append, List.nil_append]
  unfold headerLoop
  rw [if_neg (by decide), if_neg (by decide), if_neg (by simp)]
  unfold headerLoop
  rw [if_pos (by decide)]
  have e := headerLoop_entries rest md 2 [] hp
  rw [foldl_setItem _ _ hn, List.nil_append] at e
  rw [List.singleton_append, e]
  congr 3
  simp
  omega

/-! ## the table -/

/-- a printed cell -/
def Word (w : Text) : Prop := w ≠ [] ∧ ∀ c ∈ w, isSpace c = false ∧ c ≠ '"'

theorem rowText_after (layout : Nat → Nat) : ∀ (xs : List Text) (k : Nat) (w : Text), Word w → (∀ x ∈ xs, Word x) →
    pieces isBlank (w ++ rowText layout (k + 1) xs) = w :: xs
  | [], k, w, hw, _ => by
    unfold rowText
    rw [List.append_nil]
    exact pieces_last (fun c hc => isBlank_space (hw.2 c hc).1) hw.1
  | x :: xs, k, w, hw, hx => by
    unfold rowText
    rw [List.append_assoc, List.cons_append, pieces_word (by decide) _ (fun c hc => isBlank_space (hw.2 c hc).1) hw.1,
      pieces_blanks (by decide), rowText_after layout xs (k + 1) x (hx x (by simp)) fun y hy => hx y (by simp [hy])]

theorem fields_rowText (layout : Nat → Nat) : ∀ {xs : List Text}, (∀ x ∈ xs, Word x) → fields (rowText layout 0 xs) = xs
  | [], _ => rfl
  | x :: xs, h => by
    rw [fields_eq]
    unfold rowText
    rw [List.append_assoc, pieces_blanks (by decide), rowText_after layout xs 0 x (h x (by simp)) fun y hy => h y (by simp [hy])]

theorem rowText_chars (layout : Nat → Nat) : ∀ (xs : List Text) (k : Nat), (∀ x ∈ xs, Word x) → ∀ c ∈ rowText layout k xs, c ≠ '\n' ∧ c ≠ '\r'
  | [], k, _ => by
    intro c hc
    cases k <;> cases hc
  | x :: xs, k, h => by
    have hx : ∀ c ∈ x, c ≠ '\n' ∧ c ≠ '\r' := by
      intro c hc
      have := ((h x (by simp)).2 c hc).1
      constructor
      · rintro rfl; exact absurd this (by decide)
      · rintro rfl; exact absurd this (by decide)
    have ih := fun k => rowText_chars layout xs k fun y hy => h y (by simp [hy])
    intro c hc
    cases k with
    | zero =>
      unfold rowText at hc
      rw [List.mem_append, List.mem_append] at hc
      rcases hc with (hc | hc) | hc
      · rw [List.eq_of_mem_replicate hc]; decide
      · exact hx c hc
      · exact ih _ c hc
    | succ k =>
      unfold rowText at hc
      rw [List.mem_append, List.mem_append, List.mem_cons] at hc
      rcases hc with ((rfl | hc) | hc) | hc
      · decide
      · rw [List.eq_of_mem_replicate hc]; decide
      · exact hx c hc
      · exact ih _ c hc

theorem splitBy_joinLines : ∀ {ls : List Text}, ls ≠ [] → (∀ l ∈ ls, '\n' ∉ l) → splitBy (· == '\n') (joinLines ls) = ls
  | [x], _, h => by
    unfold joinLines
    exact splitBy_none fun c hc => by
      have : c ≠ '\n' := fun e => h x (by simp) (e ▸ hc)
      simpa using this
  | x :: y :: r, _, h => by
    unfold joinLines
    rw [splitBy_sep (by rfl) _ (fun c hc => by
        have : c ≠ '\n' := fun e => h x (by simp) (e ▸ hc)
        simpa using this), splitBy_joinLines (by simp) fun l hl => h l (by simp [hl])]

theorem joinLines_no_cr : ∀ {ls : List Text}, (∀ l ∈ ls, '\r' ∉ l) → '\r' ∉ joinLines ls
  | [], _ => by simp [joinLines]
  | [x], h => h x (by simp)
  | x :: y :: r, h => by
    unfold joinLines
    rw [List.mem_append, List.mem_cons]
    rintro (hc | hc | hc)
    · exact h x (by simp) hc
    · exact absurd hc (by decide)
    · exact joinLines_no_cr (fun l hl => h l (by simp [hl])) hc

section
variable {K : Type} [Field K] [LinearOrder K] [IsStrictOrderedRing K] [FloorSemiring K]

theorem parseRow_cells : ∀ {ns : List String}, "timestamp" ∉ ns → ∀ {xs : List Text} {vs : List (XF K)},
    List.Forall₂ (fun x v => cell? x = some v) xs vs → ns.length = xs.length → parseRow ns xs = some (none, vs)
  | [], _, _, _, .nil, _ => rfl
  | n :: ns, hn, _, _, .cons (l₁ := xs) (l₂ := vs) h hs, hl => by
    unfold parseRow
    rw [parseRow_cells (fun e => hn (by simp [e])) hs (by simpa using hl)]
    dsimp only
    rw [if_neg (fun e => hn (by simp [e])), h]
    rfl
  | [], _, _, _, .cons _ _, hl => by simp at hl
  | _ :: _, _, _, _, .nil, hl => by simp at hl

theorem parseRows_map {α : Type} (names : List String) (g : α → Text) (τ : α → Time) (v : α → List (XF K)) : ∀ L : List α,
    (∀ a ∈ L, parseRow names (fields (g a)) = some (some (τ a), v a)) → parseRows names (L.map g) = some (L.map fun a => (τ a, v a))
  | [], _ => rfl
  | a :: L, h => by
    rw [List.map_cons]
    unfold parseRows
    rw [h a (by simp), parseRows_map names g τ v L fun b hb => h b (by simp [hb])]
    rfl

theorem floats_ones : ∀ n, floats (K := K) (List.replicate n ['1']) = .ok (List.replicate n (.fin 1))
  | 0 => rfl
  | n + 1 => by
    rw [List.replicate_succ]
    unfold floats
    have e : (number? ['1'] : Option (XF K)) = some (.fin 1) := by
      have := number_digit (K := K) (n := 1) (by omega) []
      have e1 : digit 1 = '1' := by decide
      rw [e1] at this
      rw [this]
      unfold unsigned?
      rw [if_neg (by decide), splitBy_none (by decide)]
      dsimp only
      have e2 : toNat? ['1'] = some 1 := by decide
      rw [e2]
      simp
    rw [e, floats_ones n]
    rfl

theorem mul_one_cell (x : XF K) : x * .fin 1 = x := by
  cases x with
  | nan => rfl
  | pinf => show XF.mul _ _ = _; simp [XF.mul, XF.infOfSign]
  | ninf => show XF.mul _ _ = _; simp [XF.mul, XF.infOfSign]
  | fin x => rw [XF.fin_mul_fin, mul_one]

/-- what comes back for a cell: the printed number, `-999` being the code of a missing value -/
def back (nodata x : XF K) : XF K :=
  let y := printed (if x.isNan then nodata else x)
  if y = .fin (-999) then .nan else y

theorem cell_fixed2 (nodata x : XF K) : cell? (fixed2 (if x.isNan then nodata else x)) = some (back nodata x) := by
  unfold cell?
  rw [number_fixed2]
  rfl

theorem scale_ones (cols : List (String × List (XF K))) : scale cols (List.replicate cols.length (.fin 1)) = .ok cols := by
  unfold scale
  rw [if_pos (by simp)]
  congr 1
  induction cols with
  | nil => rfl
  | cons c cols ih =>
    rw [List.length_cons, List.replicate_succ, List.zipWith_cons_cons, ih]
    congr 1
    have : c.2.map (fun x => x * .fin 1) = c.2 := by
      conv_rhs => rw [← List.map_id c.2]
      exact List.map_congr_left fun x _ => mul_one_cell x
    rw [this]

theorem table_eq (nodata : XF K) (f : Frame K) (stamps : List Text) (h : "timestamp" ∉ f.cols.map fun c => c.1) :
    table nodata f stamps = ("timestamp", stamps) :: f.cols.map fun c => (c.1, c.2.map fun x => fixed2 (if x.isNan then nodata else x)) := by
  unfold table setColumn
  rw [if_neg]
  · unfold rotate
    simp
  · intro c
    obtain ⟨p, hp, e⟩ := List.any_eq_true.1 c
    obtain ⟨q, hq, rfl⟩ := List.mem_map.1 hp
    exact h (List.mem_map.2 ⟨q, hq, by simpa using e⟩)

/-- the name of a column that survives writing and reading: a word -/
def NameOk (s : String) : Prop := Word s.toList ∧ '=' ∉ s.toList

/-- **Reading what was written** (the frame already has the names used in the file). -/
theorem read_written (api : PandasApi) (layout : Nat → Nat → Nat) {f : Frame K} (hwf : f.WF) (hne : f.index ≠ [])
    (hnames : (f.cols.map fun c => c.1).Nodup) (hts : "timestamp" ∉ f.cols.map fun c => c.1) (hok : ∀ c ∈ f.cols, NameOk c.1)
    {md : Pairs} (hplain : ∀ p ∈ md, Plain p.1 ∧ Plain p.2) (hkeys : ((md.map stripped).map Prod.fst).Nodup)
    (nodata : XF K) (fmt : Time → Text) (τ : Time → Time) (hfmt : ∀ t ∈ f.index, Word (fmt t) ∧ time? (fmt t) = some (τ t))
    {F U : String} (hF : words F.toList = "timestamp".toList :: f.cols.map fun c => c.1.toList)
    (hU : words U.toList = List.replicate (f.cols.length + 1) ['1'])
    (hmF : ("fields", F) ∈ md.map stripped) (hmU : ("units_multiplier", U) ∈ md.map stripped) (mode : String) :
    readSmet api (fileText md (toString layout (table nodata f (f.index.map fmt)) f.index.length)) mode =
      (if api.indexNameDel then
        .ok (md.map stripped, renameCols readD readH mode ⟨f.index.map τ, f.cols.map fun c => (c.1, c.2.map (back nodata))⟩)
      else .error .attributeError) := by
  -- the rows
  have hn0 : f.index.length ≠ 0 := fun e => hne (List.length_eq_zero_iff.1 e)
  rw [table_eq nodata f _ hts]
  set C : Columns := ("timestamp", f.index.map fmt) :: f.cols.map fun c => (c.1, c.2.map fun x => fixed2 (if x.isNan then nodata else x)) with hC
  have hrow : ∀ r < f.index.length, (C.map fun x => x.2.getD r []) =
      fmt (f.index.getD r 0) :: f.cols.map fun c => fixed2 (if (c.2.getD r .nan).isNan then nodata else c.2.getD r .nan) := by
    intro r hr
    rw [hC, List.map_cons, List.map_map]
    congr 1
    · simp [List.getD_eq_getElem?_getD, hr]
    · refine List.map_congr_left fun c hc => ?_
      have : r < c.2.length := by rw [hwf c hc]; exact hr
      simp [List.getD_eq_getElem?_getD, this]
  have hword : ∀ r < f.index.length, ∀ w ∈ (C.map fun x => x.2.getD r []), Word w := by
    intro r hr w hw
    rw [hrow r hr] at hw
    rcases List.mem_cons.1 hw with rfl | hw
    · refine (hfmt _ ?_).1
      rw [List.getD_eq_getElem?_getD, List.getElem?_eq_getElem hr]
      exact List.getElem_mem hr
    · obtain ⟨c, _, rfl⟩ := List.mem_map.1 hw
      exact fixed2_chars _
  set L : List Text := (List.range f.index.length).map fun r => rowText (layout r) 0 (C.map fun x => x.2.getD r []) with hL
  have hLc : ∀ l ∈ L, '\n' ∉ l ∧ '\r' ∉ l := by
    intro l hl
    obtain ⟨r, hr, rfl⟩ := List.mem_map.1 hl
    have := rowText_chars (layout r) _ 0 (hword r (List.mem_range.1 hr))
    exact ⟨fun e => (this _ e).1 rfl, fun e => (this _ e).2 rfl⟩
  have hLne : L ≠ [] := by
    intro e
    have := congrArg List.length e
    rw [hL] at this
    simp at this
    exact hne this
  have hdata : toString layout C f.index.length = joinLines L := by unfold toString; rw [if_neg hn0]
  rw [hdata, fileText_eq]
  have hhead := headLines_chars hplain
  have huniv : univ (ended (headLines md) ++ joinLines L) = ended (headLines md) ++ joinLines L := by
    apply univ_id
    rw [List.mem_append]
    rintro (h | h)
    · unfold ended at h
      rw [List.mem_flatten] at h
      obtain ⟨l, hl, hc⟩ := h
      obtain ⟨l', hl', rfl⟩ := List.mem_map.1 hl
      rcases List.mem_append.1 hc with hc | hc
      · exact (hhead l' hl' _ hc).2.1 rfl
      · exact absurd hc (by decide)
    · exact joinLines_no_cr (fun l hl => (hLc l hl).2) h
  obtain ⟨rest, hlines⟩ := lines_ended (joinLines L) (ls := headLines md) fun l hl e => (hhead l hl _ e).1 rfl
  have hskip := skipRows_ended (joinLines L) (ls := headLines md) fun l hl c hc => ⟨(hhead l hl c hc).1, (hhead l hl c hc).2.2⟩
  have hcolumns : (words F.toList).map String.ofList = "timestamp" :: f.cols.map fun c => c.1 := by
    rw [hF, List.map_cons, List.map_map, String.ofList_toList]
    congr 1
    refine List.map_congr_left fun c _ => ?_
    exact String.ofList_toList
  have hfilter : (splitBy (· == '\n') (joinLines L)).filter (fun l => !(fields l).isEmpty) = L := by
    rw [splitBy_joinLines hLne fun l hl => (hLc l hl).1, List.filter_eq_self]
    intro l hl
    obtain ⟨r, hr, rfl⟩ := List.mem_map.1 hl
    rw [fields_rowText _ (hword r (List.mem_range.1 hr)), hC]
    rfl
  have hparse : parseRows ("timestamp" :: f.cols.map fun c => c.1) L = some ((List.range f.index.length).map fun r =>
      (τ (f.index.getD r 0), f.cols.map fun c => back nodata (c.2.getD r .nan))) := by
    rw [hL]
    refine parseRows_map _ _ _ _ _ fun r hr => ?_
    have hr' := List.mem_range.1 hr
    rw [fields_rowText _ (hword r hr'), hrow r hr']
    have hcells : parseRow (K := K) (f.cols.map fun c => c.1) (f.cols.map fun c => fixed2 (if (c.2.getD r .nan).isNan then nodata else c.2.getD r .nan)) =
        some (none, f.cols.map fun c => back nodata (c.2.getD r .nan)) := by
      refine parseRow_cells hts ?_ (by simp)
      rw [List.forall₂_map_left_iff, List.forall₂_map_right_iff]
      exact List.forall₂_same.2 fun c _ => cell_fixed2 nodata _
    unfold parseRow
    rw [hcells]
    dsimp only
    rw [if_pos rfl, (hfmt _ _).2]
    · rfl
    · rw [List.getD_eq_getElem?_getD, List.getElem?_eq_getElem hr']
      exact List.getElem_mem hr'
  unfold readSmet
  dsimp only
  rw [huniv, hlines, headerLoop_file rest hplain hkeys, py_ok_bind]
  dsimp only
  rw [getItem_mem hkeys hmF, py_ok_bind, getItem_mem hkeys hmU, py_ok_bind, hU, floats_ones, py_ok_bind, hcolumns]
  rw [if_neg]
  · rw [hskip, hfilter, hparse]
    dsimp only
    have hnm : (("timestamp" :: f.cols.map fun c => c.1).filter fun c => c != "timestamp") = f.cols.map fun c => c.1 := by
      rw [List.filter_cons_of_neg (by simp), List.filter_eq_self]
      intro n hn
      have : n ≠ "timestamp" := fun e => hts (e ▸ hn)
      simpa using this
    have hcols : ((f.cols.map fun c => c.1).mapIdx fun i c => (c, ((List.range f.index.length).map fun r =>
        (τ (f.index.getD r 0), f.cols.map fun c => back nodata (c.2.getD r .nan))).map fun r => r.2.getD i XF.nan)) =
        f.cols.map fun c => (c.1, c.2.map (back nodata)) := by
      refine List.ext_getElem (by simp) fun i h1 h2 => ?_
      have hi : i < f.cols.length := by simpa using h2
      rw [List.getElem_mapIdx, List.getElem_map, List.getElem_map]
      congr 1
      rw [List.map_map]
      refine List.ext_getElem (by simp [hwf _ (List.getElem_mem hi)]) fun r h3 h4 => ?_
      have hr : r < f.cols[i].2.length := by simpa using h4
      simp [List.getD_eq_getElem?_getD, hi, hr]
    have hidx : ((List.range f.index.length).map fun r =>
        (τ (f.index.getD r 0), f.cols.map fun c => back nodata (c.2.getD r .nan))).map (fun r => r.1) = f.index.map τ := by
      rw [List.map_map]
      refine List.ext_getElem (by simp) fun r h3 h4 => ?_
      have hr : r < f.index.length := by simpa using h4
      simp [List.getD_eq_getElem?_getD, hr]
    have hscale : scale (f.cols.map fun c => (c.1, c.2.map (back nodata))) ((List.replicate (f.cols.length + 1) (XF.fin (1 : K))).drop 1) =
        .ok (f.cols.map fun c => (c.1, c.2.map (back nodata))) := by
      have := scale_ones (f.cols.map fun c => (c.1, c.2.map (back nodata)))
      rw [List.length_map] at this
      rw [List.replicate_succ, List.drop_one, List.tail_cons]
      exact this
    rw [hnm, hcols, hscale, py_ok_bind, hidx]
    unfold needs
    cases api.indexNameDel <;> rfl
  · rintro (h | h)
    · exact h (List.nodup_cons.2 ⟨hts, hnames⟩)
    · exact h (by simp)

end

end Melodist.Smet
