import Verif.Model.FilesRound
import Verif.Lemmas.Smet

/-!
# Reading SMET files in floating-point arithmetic: lemmas for C147
-/

set_option linter.unusedSectionVars false

namespace Melodist.Smet

open Text

section
variable {K : Type} [Field K] [LinearOrder K] [IsStrictOrderedRing K] [FloorSemiring K]

theorem parseRowR_cells {parse : Text → K → K} : ∀ {ns : List String}, "timestamp" ∉ ns → ∀ {xs : List Text} {vs : List (XF K)},
    List.Forall₂ (fun x v => cellR? parse x = some v) xs vs → ns.length = xs.length → parseRowR parse ns xs = some (none, vs)
  | [], _, _, _, .nil, _ => rfl
  | n :: ns, hn, _, _, .cons (l₁ := xs) (l₂ := vs) h hs, hl => by
    unfold parseRowR
    rw [parseRowR_cells (fun e => hn (by simp [e])) hs (by simpa using hl)]
    dsimp only
    rw [if_neg (fun e => hn (by simp [e])), h]
    rfl
  | [], _, _, _, .cons _ _, hl => by simp at hl
  | _ :: _, _, _, _, .nil, hl => by simp at hl

theorem parseRowsR_map (parse : Text → K → K) {α : Type} (names : List String) (g : α → Text) (τ : α → Time) (v : α → List (XF K)) : ∀ L : List α,
    (∀ a ∈ L, parseRowR parse names (fields (g a)) = some (some (τ a), v a)) → parseRowsR parse names (L.map g) = some (L.map fun a => (τ a, v a))
  | [], _ => rfl
  | a :: L, h => by
    rw [List.map_cons]
    unfold parseRowsR
    rw [h a (by simp), parseRowsR_map parse names g τ v L fun b hb => h b (by simp [hb])]
    rfl

theorem floatsR_ones {parse : Text → K → K} (h1 : parse ['1'] 1 = 1) : ∀ n, floatsR parse (List.replicate n ['1']) = .ok (List.replicate n (.fin 1))
  | 0 => rfl
  | n + 1 => by
    rw [List.replicate_succ]
    unfold floatsR readNumber
    have e : (number? ['1'] : Option (XF K)) = some (.fin 1) := by
      have := number_digit (K := K) (n := 1) (by omega) []
      have e1 : digit 1 = '1' := by decide
      rw [e1] at this
      rw [this]
      unfold unsigned?
      rw [if_neg (by decide), splitBy_none (by decide)]
      dsimp only
      have e2 : toNat? ['1'] = some 1 := by decide
      rw [e2]
      simp
    rw [e, floatsR_ones h1 n, Option.map_some, XF.rnd, h1]
    rfl

/-- what comes back for a cell: the double of the printed number, `-999` being the code of a missing value -/
def backR (parse : Text → K → K) (nodata x : XF K) : XF K :=
  let z := if x.isNan then nodata else x
  let y := (printed z).rnd (parse (fixed2 z))
  if y = .fin (-999) then .nan else y

theorem cellR_fixed2 (parse : Text → K → K) (nodata x : XF K) : cellR? parse (fixed2 (if x.isNan then nodata else x)) = some (backR parse nodata x) := by
  unfold cellR? readNumber
  rw [number_fixed2]
  rfl

theorem backR_double {fl : K → K} {parse : Text → K → K} (hd : ∀ t x, fl (parse t x) = parse t x) (nodata x : XF K) :
    (backR parse nodata x).rnd fl = backR parse nodata x := by
  unfold backR
  dsimp only
  generalize (if x.isNan then nodata else x) = z
  have hr : ((printed z).rnd (parse (fixed2 z))).rnd fl = (printed z).rnd (parse (fixed2 z)) := by
    cases printed z with
    | fin y =>
      show XF.fin (fl _) = XF.fin _
      rw [hd]
    | nan => rfl
    | pinf => rfl
    | ninf => rfl
  by_cases c : (printed z).rnd (parse (fixed2 z)) = .fin (-999)
  · rw [if_pos c]; rfl
  · rw [if_neg c, hr]

theorem scaleR_ones {fl : K → K} (cols : List (String × List (XF K))) (h : ∀ c ∈ cols, ∀ x ∈ c.2, x.rnd fl = x) :
    scaleR fl cols (List.replicate cols.length (.fin 1)) = .ok cols := by
  unfold scaleR
  rw [if_pos (by simp)]
  congr 1
  induction cols with
  | nil => rfl
  | cons c cols ih =>
    rw [List.length_cons, List.replicate_succ, List.zipWith_cons_cons, ih fun d hd => h d (by simp [hd])]
    congr 1
    have : c.2.map (fun x => (x * .fin 1).rnd fl) = c.2 := by
      conv_rhs => rw [← List.map_id c.2]
      exact List.map_congr_left fun x hx => by rw [mul_one_cell, h c (by simp) x hx]; rfl
    rw [this]

/-- reading what was written (the frame already has the names used in the file). -/
theorem read_writtenR {fl : K → K} {parse : Text → K → K} (hd : ∀ t x, fl (parse t x) = parse t x) (h1 : parse ['1'] 1 = 1) (api : PandasApi) (layout : Nat → Nat → Nat) {f : Frame K} (hwf : f.WF) (hne : f.index ≠ [])
    (hnames : (f.cols.map fun c => c.1).Nodup) (hts : "timestamp" ∉ f.cols.map fun c => c.1) (hok : ∀ c ∈ f.cols, NameOk c.1)
    {md : Pairs} (hplain : ∀ p ∈ md, Plain p.1 ∧ Plain p.2) (hkeys : ((md.map stripped).map Prod.fst).Nodup)
    (nodata : XF K) (fmt : Time → Text) (τ : Time → Time) (hfmt : ∀ t ∈ f.index, Word (fmt t) ∧ time? (fmt t) = some (τ t))
    {F U : String} (hF : words F.toList = "timestamp".toList :: f.cols.map fun c => c.1.toList)
    (hU : words U.toList = List.replicate (f.cols.length + 1) ['1'])
    (hmF : ("fields", F) ∈ md.map stripped) (hmU : ("units_multiplier", U) ∈ md.map stripped) (mode : String) :
    readSmetR fl parse api (fileText md (toString layout (table nodata f (f.index.map fmt)) f.index.length)) mode =
      (if api.indexNameDel then
        .ok (md.map stripped, renameCols readD readH mode ⟨f.index.map τ, f.cols.map fun c => (c.1, c.2.map (backR parse nodata))⟩)
      else .error .attributeError) := by
  -- the rows
  have hn0 : f.index.length ≠ 0 := fun e => hne (List.length_eq_zero_iff.1 e)
  rw [table_eq nodata f _ hts]
  set C : Columns := ("timestamp", f.index.map fmt) :: f.cols.map fun c => (c.1, c.2.map fun x => fixed2 (if x.isNan then nodata else x)) with hC
  have hrow : ∀ r < f.index.length, (C.map fun x => x.2.getD r []) =
      fmt (f.index.getD r 0) :: f.cols.map fun c => fixed2 (if (c.2.getD r .nan).isNan then nodata else c.2.getD r .nan) := by
    intro r hr
    rw [hC, List.map_cons, List.map_map]
    congr 1
    · simp [List.getD_eq_getElem?_getD, hr]
    · refine List.map_congr_left fun c hc => ?_
      have : r < c.2.length := by rw [hwf c hc]; exact hr
      simp [List.getD_eq_getElem?_getD, this]
  have hword : ∀ r < f.index.length, ∀ w ∈ (C.map fun x => x.2.getD r []), Word w := by
    intro r hr w hw
    rw [hrow r hr] at hw
    rcases List.mem_cons.1 hw with rfl | hw
    · refine (hfmt _ ?_).1
      rw [List.getD_eq_getElem?_getD, List.getElem?_eq_getElem hr]
      exact List.getElem_mem hr
    · obtain ⟨c, _, rfl⟩ := List.mem_map.1 hw
      exact fixed2_chars _
  set L : List Text := (List.range f.index.length).map fun r => rowText (layout r) 0 (C.map fun x => x.2.getD r []) with hL
  have hLc : ∀ l ∈ L, '\n' ∉ l ∧ '\r' ∉ l := by
    intro l hl
    obtain ⟨r, hr, rfl⟩ := List.mem_map.1 hl
    have := rowText_chars (layout r) _ 0 (hword r (List.mem_range.1 hr))
    exact ⟨fun e => (this _ e).1 rfl, fun e => (this _ e).2 rfl⟩
  have hLne : L ≠ [] := by
    intro e
    have := congrArg List.length e
    rw [hL] at this
    simp at this
    exact hne this
  have hdata : toString layout C f.index.length = joinLines L := by unfold toString; rw [if_neg hn0]
  rw [hdata, fileText_eq]
  have hhead := headLines_chars hplain
  have huniv : univ (ended (headLines md) ++ joinLines L) = ended (headLines md) ++ joinLines L := by
    apply univ_id
    rw [List.mem_append]
    rintro (h | h)
    · unfold ended at h
      rw [List.mem_flatten] at h
      obtain ⟨l, hl, hc⟩ := h
      obtain ⟨l', hl', rfl⟩ := List.mem_map.1 hl
      rcases List.mem_append.1 hc with hc | hc
      · exact (hhead l' hl' _ hc).2.1 rfl
      · exact absurd hc (by decide)
    · exact joinLines_no_cr (fun l hl => (hLc l hl).2) h
  obtain ⟨rest, hlines⟩ := lines_ended (joinLines L) (ls := headLines md) fun l hl e => (hhead l hl _ e).1 rfl
  have hskip := skipRows_ended (joinLines L) (ls := headLines md) fun l hl c hc => ⟨(hhead l hl c hc).1, (hhead l hl c hc).2.2⟩
  have hcolumns : (words F.toList).map String.ofList = "timestamp" :: f.cols.map fun c => c.1 := by
    rw [hF, List.map_cons, List.map_map, String.ofList_toList]
    congr 1
    refine List.map_congr_left fun c _ => ?_
    exact String.ofList_toList
  have hfilter : (splitBy (· == '\n') (joinLines L)).filter (fun l => !(fields l).isEmpty) = L := by
    rw [splitBy_joinLines hLne fun l hl => (hLc l hl).1, List.filter_eq_self]
    intro l hl
    obtain ⟨r, hr, rfl⟩ := List.mem_map.1 hl
    rw [fields_rowText _ (hword r (List.mem_range.1 hr)), hC]
    rfl
  have hparse : parseRowsR parse ("timestamp" :: f.cols.map fun c => c.1) L = some ((List.range f.index.length).map fun r =>
      (τ (f.index.getD r 0), f.cols.map fun c => backR parse nodata (c.2.getD r .nan))) := by
    rw [hL]
    refine parseRowsR_map parse _ _ _ _ _ fun r hr => ?_
    have hr' := List.mem_range.1 hr
    rw [fields_rowText _ (hword r hr'), hrow r hr']
    have hcells : parseRowR (K := K) parse (f.cols.map fun c => c.1) (f.cols.map fun c => fixed2 (if (c.2.getD r .nan).isNan then nodata else c.2.getD r .nan)) =
        some (none, f.cols.map fun c => backR parse nodata (c.2.getD r .nan)) := by
      refine parseRowR_cells hts ?_ (by simp)
      rw [List.forall₂_map_left_iff, List.forall₂_map_right_iff]
      exact List.forall₂_same.2 fun c _ => cellR_fixed2 parse nodata _
    unfold parseRowR
    rw [hcells]
    dsimp only
    rw [if_pos rfl, (hfmt _ _).2]
    · rfl
    · rw [List.getD_eq_getElem?_getD, List.getElem?_eq_getElem hr']
      exact List.getElem_mem hr'
  unfold readSmetR
  dsimp only
  rw [huniv, hlines, headerLoop_file rest hplain hkeys, py_ok_bind]
  dsimp only
  rw [getItem_mem hkeys hmF, py_ok_bind, getItem_mem hkeys hmU, py_ok_bind, hU, floatsR_ones h1, py_ok_bind, hcolumns]
  rw [if_neg]
  · rw [hskip, hfilter, hparse]
    dsimp only
    have hnm : (("timestamp" :: f.cols.map fun c => c.1).filter fun c => c != "timestamp") = f.cols.map fun c => c.1 := by
      rw [List.filter_cons_of_neg (by simp), List.filter_eq_self]
      intro n hn
      have : n ≠ "timestamp" := fun e => hts (e ▸ hn)
      simpa using this
    have hcols : ((f.cols.map fun c => c.1).mapIdx fun i c => (c, ((List.range f.index.length).map fun r =>
        (τ (f.index.getD r 0), f.cols.map fun c => backR parse nodata (c.2.getD r .nan))).map fun r => r.2.getD i XF.nan)) =
        f.cols.map fun c => (c.1, c.2.map (backR parse nodata)) := by
      refine List.ext_getElem (by simp) fun i h1 h2 => ?_
      have hi : i < f.cols.length := by simpa using h2
      rw [List.getElem_mapIdx, List.getElem_map, List.getElem_map]
      congr 1
      rw [List.map_map]
      refine List.ext_getElem (by simp [hwf _ (List.getElem_mem hi)]) fun r h3 h4 => ?_
      have hr : r < f.cols[i].2.length := by simpa using h4
      simp [List.getD_eq_getElem?_getD, hi, hr]
    have hidx : ((List.range f.index.length).map fun r =>
        (τ (f.index.getD r 0), f.cols.map fun c => backR parse nodata (c.2.getD r .nan))).map (fun r => r.1) = f.index.map τ := by
      rw [List.map_map]
      refine List.ext_getElem (by simp) fun r h3 h4 => ?_
      have hr : r < f.index.length := by simpa using h4
      simp [List.getD_eq_getElem?_getD, hr]
    have hscale : scaleR fl (f.cols.map fun c => (c.1, c.2.map (backR parse nodata))) ((List.replicate (f.cols.length + 1) (XF.fin (1 : K))).drop 1) =
        .ok (f.cols.map fun c => (c.1, c.2.map (backR parse nodata))) := by
      have := scaleR_ones (fl := fl) (f.cols.map fun c => (c.1, c.2.map (backR parse nodata))) (fun c hc x hx => by
        obtain ⟨c', _, rfl⟩ := List.mem_map.1 hc
        obtain ⟨x', _, rfl⟩ := List.mem_map.1 hx
        exact backR_double hd nodata x')
      rw [List.length_map] at this
      rw [List.replicate_succ, List.drop_one, List.tail_cons]
      exact this
    rw [hnm, hcols, hscale, py_ok_bind, hidx]
    unfold needs
    cases api.indexNameDel <;> rfl
  · rintro (h | h)
    · exact h (List.nodup_cons.2 ⟨hts, hnames⟩)
    · exact h (by simp)

end

end Melodist.Smet
