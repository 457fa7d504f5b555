import Verif.Lemmas.FilesRound

/-!
# Writing and reading SMET files in floating-point arithmetic: lemmas for C147
-/

set_option linter.unusedSectionVars false

namespace Melodist.Smet

open Text Spec

/-- Writing and reading, whatever the mode is: `W` and `R` are the tables of column names. -/
theorem smet_round_tripR {fl : ℝ → ℝ} {parse : Text → ℝ → ℝ} (P : ReadsDecimals fl parse) (layout : Nat → Nat → Nat) {f : Frame ℝ} {codes : List String} (hf : Writable codes f) {md : Pairs} (hmd : Header md)
    (nodata : XF ℝ) {mode : String} {W R : Pairs} (back' : String → String) (hmode : mode = "d" ∧ W = writeD ∧ R = readD ∨ mode = "h" ∧ W = writeH ∧ R = readH)
    (hW : ∀ n, OneWord n → n ∉ "timestamp" :: codes → OneWord (rename W n) ∧ rename W n ≠ "timestamp" ∧ rename R (rename W n) = back' n)
    (hb : ∀ n, back' (back' n) = n) (checkNan : Bool) (hinf : checkNan = true → ∀ c ∈ f.cols, ¬ (.pinf ∈ c.2 ∧ .ninf ∈ c.2)) :
    let names := f.cols.map fun c => rename W c.1
    let file := fileText (fileHeader md names) (Smet.toString layout (table nodata ⟨f.index, f.cols.map fun c => (rename W c.1, c.2)⟩ (f.index.map fun t =>
        if mode = "d" then stampDay t else stampHour t)) f.index.length)
    writeSmet layout f md nodata mode checkNan = ⟨some file, fileHeader md names, none⟩ ∧
      ∀ api, readSmetR fl parse api file mode = if api.indexNameDel then .ok ((fileHeader md names).map stripped,
        ⟨f.index.map fun t => if mode = "d" then midnight (dayOf t) else t - t % MINUTE, f.cols.map fun c => (back' c.1, c.2.map (backR parse nodata))⟩) else .error .attributeError := by
  have hren : ∀ D H h, renameCols D H mode h = (⟨h.index, h.cols.map fun c => (rename (if mode = "d" then D else H) c.1, c.2)⟩ : Frame ℝ) := by
    intro D H h
    unfold renameCols
    rcases hmode with ⟨rfl, _⟩ | ⟨rfl, _⟩
    · rw [if_pos rfl, if_pos rfl]
    · rw [if_neg (by decide), if_pos rfl, if_neg (by decide)]
  have hWW : (if mode = "d" then writeD else writeH) = W := by
    rcases hmode with ⟨rfl, rfl, _⟩ | ⟨rfl, rfl, _⟩ <;> rfl
  have hRR : (if mode = "d" then readD else readH) = R := by
    rcases hmode with ⟨rfl, _, rfl⟩ | ⟨rfl, _, rfl⟩ <;> rfl
  set g : Frame ℝ := ⟨f.index, f.cols.map fun c => (rename W c.1, c.2)⟩ with hg
  have hg0 : renameCols writeD writeH mode f = g := by rw [hren, hWW]
  have hg1 : (if checkNan then dropNan (renameCols writeD writeH mode f) else renameCols writeD writeH mode f) = g := by
    rw [hg0]
    cases checkNan with
    | false => rfl
    | true =>
      rw [if_pos rfl]
      refine dropNan_id fun c hc => ?_
      obtain ⟨c', hc', rfl⟩ := List.mem_map.1 hc
      exact hinf rfl c' hc'
  have hw := fun c (hc : c ∈ f.cols) => hW c.1 (hf.word c hc) (hf.codes c hc)
  have hnames : (g.cols.map fun c => c.1) = f.cols.map fun c => rename W c.1 := by rw [hg]; simp [Function.comp_def]
  have hts : "timestamp" ∉ g.cols.map fun c => c.1 := by
    rw [hnames]
    intro hm
    obtain ⟨c, hc, e⟩ := List.mem_map.1 hm
    exact (hw c hc).2.1 e
  have hok : ∀ c ∈ g.cols, OneWord c.1 := by
    intro c hc
    obtain ⟨c', hc', rfl⟩ := List.mem_map.1 hc
    exact (hw c' hc').1
  have hnd : (g.cols.map fun c => c.1).Nodup := by
    rw [hnames]
    have hinj : ∀ a ∈ f.cols, ∀ b ∈ f.cols, rename W a.1 = rename W b.1 → a.1 = b.1 := by
      intro a ha b hb' e
      have : back' (rename R (rename W a.1)) = back' (rename R (rename W b.1)) := by rw [e]
      rw [(hw a ha).2.2, (hw b hb').2.2, hb, hb] at this
      exact this
    have h1 : (f.cols.map fun c => rename W c.1) = (f.cols.map fun c => c.1).map (rename W) := by simp [Function.comp_def]
    rw [h1]
    refine List.Nodup.map_on ?_ hf.names
    intro a ha b hb' e
    obtain ⟨c, hc, rfl⟩ := List.mem_map.1 ha
    obtain ⟨d, hd, rfl⟩ := List.mem_map.1 hb'
    exact hinj c hc d hd e
  have hwr := written layout (md := md) (nodata := nodata) (mode := mode) (by rcases hmode with h | h; exact .inl h.1; exact .inr h.1) hg1 hts hok
  obtain ⟨r1, r2, ⟨F, U, r3, r4, r5, r6⟩, r7, r8⟩ := header_read hmd.clean hmd.keys (names := g.cols.map fun c => c.1) (fun n hn => by
    obtain ⟨c, hc, rfl⟩ := List.mem_map.1 hn; exact hok c hc)
  have hread : ∀ api, readSmetR fl parse api (fileText (fileHeader md (g.cols.map fun c => c.1)) (Smet.toString layout (table nodata g (g.index.map fun t =>
        if mode = "d" then stampDay t else stampHour t)) g.index.length)) mode =
      if api.indexNameDel then .ok ((fileHeader md (g.cols.map fun c => c.1)).map stripped,
        ⟨f.index.map fun t => if mode = "d" then midnight (dayOf t) else t - t % MINUTE, f.cols.map fun c => (back' c.1, c.2.map (backR parse nodata))⟩)
      else .error .attributeError := by
    intro api
    have hgwf : g.WF := by
      intro c hc
      obtain ⟨c', hc', rfl⟩ := List.mem_map.1 hc
      exact hf.wf c' hc'
    rw [List.map_map] at r4
    rw [List.length_map] at r6
    have hfmt : ∀ t ∈ g.index, Word (if mode = "d" then stampDay t else stampHour t) ∧
        time? (if mode = "d" then stampDay t else stampHour t) = some (if mode = "d" then midnight (dayOf t) else t - t % MINUTE) := by
      intro t ht
      have h4 : FourDigits t := hf.years t ht
      rcases hmode with ⟨rfl, _⟩ | ⟨rfl, _⟩
      · have := stamp_chars h4 true
        rw [if_pos rfl] at this
        rw [if_pos rfl, if_pos rfl]
        exact ⟨this, time_stampDay h4⟩
      · have := stamp_chars h4 false
        rw [if_neg (by simp)] at this
        rw [if_neg (by decide), if_neg (by decide)]
        exact ⟨this, time_stampHour h4⟩
    rw [read_writtenR P.double (by have := P.whole ['1'] 1 (by decide) (by norm_num); exact_mod_cast this) api layout hgwf hf.rows hnd hts
      (fun c hc => ⟨oneWord_word (hok c hc), fun e => ((hok c hc).2 _ e).2.2 rfl⟩) r1 r2 nodata _ _ hfmt r4 r6 r3 r5 mode, hren, hRR]
    have hc : ((g.cols.map fun c => (c.1, c.2.map (backR parse nodata))).map fun c => (rename R c.1, c.2)) = f.cols.map fun c => (back' c.1, c.2.map (backR parse nodata)) := by
      rw [hg, List.map_map, List.map_map]
      refine List.map_congr_left fun c hc => ?_
      show (rename R (rename W c.1), _) = _
      rw [(hw c hc).2.2]
    rw [hc]
  rw [hnames] at hwr hread
  exact ⟨hwr, hread⟩

/-- the header that was read, written again -/
theorem fileHeader_again {md : Pairs} (hmd : Header md) (names : List String) : fileHeader ((fileHeader md names).map stripped) names = fileHeader md names := by
  set F := String.ofList (spaced ("timestamp".toList :: names.map String.toList)) with hF
  set U := String.ofList (List.replicate (names.length + 1) ['1', ' ']).flatten with hU
  set H := fileHeader md names with hH
  have hnd : (H.map Prod.fst).Nodup := setItem_nodup (setItem_nodup hmd.keys _ _) _ _
  have hmF : ("fields", F) ∈ H := mem_setItem_ne (mem_setItem_self md _ _) (show "fields" ≠ "units_multiplier" by decide)
  have hmU : ("units_multiplier", U) ∈ H := mem_setItem_self _ _ _
  have hmem : ∀ p ∈ H, p = ("units_multiplier", U) ∨ p = ("fields", F) ∨ p ∈ md := by
    intro p hp
    rcases mem_setItem hp with h | h
    · exact .inl h
    · exact .inr (mem_setItem h)
  have huniq : ∀ p ∈ H, ∀ q ∈ H, p.1 = q.1 → p = q := fun p hp q hq e => List.inj_on_of_nodup_map hnd hp hq e
  have s1 : setItem (H.map stripped) "fields" F = (H.map stripped).map fun p => if p.1 == "fields" then ("fields", F) else p := by
    unfold setItem
    rw [if_pos]
    exact List.any_eq_true.2 ⟨_, List.mem_map.2 ⟨_, hmF, rfl⟩, by rw [stripped_fields]; rfl⟩
  have s2 : setItem (setItem (H.map stripped) "fields" F) "units_multiplier" U =
      (setItem (H.map stripped) "fields" F).map fun p => if p.1 == "units_multiplier" then ("units_multiplier", U) else p := by
    unfold setItem
    rw [if_pos]
    refine List.any_eq_true.2 ⟨stripped ("units_multiplier", U), ?_, by rw [stripped_units]; rfl⟩
    exact mem_setItem_ne (List.mem_map.2 ⟨_, hmU, rfl⟩) (by rw [stripped_units]; show "units_multiplier" ≠ "fields"; decide)
  show setItem (setItem (H.map stripped) "fields" F) "units_multiplier" U = H
  rw [s2, s1, List.map_map, List.map_map]
  conv_rhs => rw [← List.map_id H]
  refine List.map_congr_left fun p hp => ?_
  show (if (if (stripped p).1 == "fields" then ("fields", F) else stripped p).1 == "units_multiplier" then ("units_multiplier", U)
    else if (stripped p).1 == "fields" then ("fields", F) else stripped p) = p
  by_cases c1 : p = ("fields", F)
  · rw [c1, stripped_fields]
    rfl
  by_cases c2 : p = ("units_multiplier", U)
  · rw [c2, stripped_units]
    rfl
  have hp' : p ∈ md := by
    rcases hmem p hp with h | h | h
    · exact absurd h c2
    · exact absurd h c1
    · exact h
  rw [stripped_of_clean (hmd.clean p hp').1 (hmd.clean p hp').2]
  have n1 : ¬ (p.1 == "fields") = true := by
    intro e
    exact c1 (huniq p hp _ hmF (by simpa using e))
  have n2 : ¬ (p.1 == "units_multiplier") = true := by
    intro e
    exact c2 (huniq p hp _ hmU (by simpa using e))
  rw [if_neg n1, if_neg n2]

theorem backR_pinf {parse : Text → ℝ → ℝ} {x : XF ℝ} (h : backR parse (.fin (-999)) x = .pinf) : x = .pinf := by
  unfold backR at h
  have key : ∀ v : ℝ, (if XF.fin v = XF.fin (-999) then XF.nan else XF.fin v) ≠ XF.pinf := by
    intro v
    by_cases c : XF.fin v = XF.fin (-999)
    · rw [if_pos c]; simp
    · rw [if_neg c]; simp
  cases x with
  | pinf => rfl
  | ninf =>
    change (if XF.ninf = XF.fin (-999 : ℝ) then XF.nan else XF.ninf) = _ at h
    rw [if_neg (by simp)] at h
    cases h
  | nan =>
    exact absurd h (key _)
  | fin x =>
    exact absurd h (key _)

theorem backR_ninf {parse : Text → ℝ → ℝ} {x : XF ℝ} (h : backR parse (.fin (-999)) x = .ninf) : x = .ninf := by
  unfold backR at h
  have key : ∀ v : ℝ, (if XF.fin v = XF.fin (-999) then XF.nan else XF.fin v) ≠ XF.ninf := by
    intro v
    by_cases c : XF.fin v = XF.fin (-999)
    · rw [if_pos c]; simp
    · rw [if_neg c]; simp
  cases x with
  | ninf => rfl
  | pinf =>
    change (if XF.pinf = XF.fin (-999 : ℝ) then XF.nan else XF.pinf) = _ at h
    rw [if_neg (by simp)] at h
    cases h
  | nan =>
    exact absurd h (key _)
  | fin x =>
    exact absurd h (key _)

/-- the frame that was read can be written, and the file is the same -/
theorem written_again {fl : ℝ → ℝ} {parse : Text → ℝ → ℝ} (P : ReadsDecimals fl parse) (layout : Nat → Nat → Nat) {f : Frame ℝ} (hf : Writable codesH f)
    {md : Pairs} (hmd : Header md) (checkNan : Bool) (hinf : checkNan = true → ∀ c ∈ f.cols, ¬ (.pinf ∈ c.2 ∧ .ninf ∈ c.2))
    (hcells : ∀ c ∈ f.cols, ∀ x ∈ c.2, Printable x ∧ NoMinusZero x) {file : Text} (hfile : (writeSmet layout f md (.fin (-999)) "h" checkNan).file = some file)
    {header : Pairs} (hheader : header = (fileHeader md (f.cols.map fun c => rename writeH c.1)).map stripped) :
    (writeSmet layout ⟨f.index, f.cols.map fun c => (c.1, c.2.map (backR parse (.fin (-999))))⟩ header (.fin (-999)) "h" checkNan).file = some file := by
  have hw := fun c (hc : c ∈ f.cols) => hourly_names c.1 (hf.word c hc) (hf.codes c hc)
  have hren : ∀ h : Frame ℝ, renameCols writeD writeH "h" h = ⟨h.index, h.cols.map fun c => (rename writeH c.1, c.2)⟩ := by
    intro h
    unfold renameCols
    rw [if_neg (by decide), if_pos rfl]
  have hdrop : ∀ {h : Frame ℝ}, (checkNan = true → ∀ c ∈ h.cols, ¬ (.pinf ∈ c.2 ∧ .ninf ∈ c.2)) → (if checkNan then dropNan h else h) = h := by
    intro h hh
    cases checkNan with
    | false => rfl
    | true => rw [if_pos rfl]; exact dropNan_id (hh rfl)
  have hts : "timestamp" ∉ f.cols.map fun c => rename writeH c.1 := by
    intro hm
    obtain ⟨c, hc, e⟩ := List.mem_map.1 hm
    exact (hw c hc).2.1 e
  have e1 := written layout (md := md) (nodata := .fin (-999)) (mode := "h") (f := f) (g := ⟨f.index, f.cols.map fun c => (rename writeH c.1, c.2)⟩) (checkNan := checkNan) (.inr rfl) (by
      rw [hren]
      exact hdrop fun hc c hm => by obtain ⟨c', hc', rfl⟩ := List.mem_map.1 hm; exact hinf hc c' hc')
    (by simpa [Function.comp_def] using hts) (fun c hc => by obtain ⟨c', hc', rfl⟩ := List.mem_map.1 hc; exact (hw c' hc').1)
  have e2 := written layout (md := header) (nodata := .fin (-999)) (mode := "h") (f := ⟨f.index, f.cols.map fun c => (c.1, c.2.map (backR parse (.fin (-999))))⟩)
    (g := ⟨f.index, f.cols.map fun c => (rename writeH c.1, c.2.map (backR parse (.fin (-999))))⟩) (checkNan := checkNan) (.inr rfl) (by
      rw [hren, List.map_map]
      refine hdrop fun hc c hm => ?_
      obtain ⟨c', hc', rfl⟩ := List.mem_map.1 hm
      rintro ⟨m1, m2⟩
      obtain ⟨x1, hx1, i1⟩ := List.mem_map.1 m1
      obtain ⟨x2, hx2, i2⟩ := List.mem_map.1 m2
      rw [backR_pinf i1] at hx1
      rw [backR_ninf i2] at hx2
      exact hinf hc c' hc' ⟨hx1, hx2⟩)
    (by simpa [Function.comp_def] using hts) (fun c hc => by obtain ⟨c', hc', rfl⟩ := List.mem_map.1 hc; exact (hw c' hc').1)
  rw [e2]
  rw [e1] at hfile
  rw [← hfile]
  dsimp only
  rw [List.map_map, List.map_map]
  show some (fileText (fileHeader header (f.cols.map fun c => rename writeH c.1)) _) = some (fileText (fileHeader md (f.cols.map fun c => rename writeH c.1)) _)
  rw [hheader, fileHeader_again hmd]
  congr 3
  rw [table_eq _ _ _ (by simpa [Function.comp_def] using hts), table_eq _ _ _ (by simpa [Function.comp_def] using hts)]
  congr 1
  dsimp only
  rw [List.map_map, List.map_map]
  refine List.map_congr_left fun c hc => ?_
  show (rename writeH c.1, (c.2.map (backR parse (.fin (-999)))).map _) = (rename writeH c.1, _)
  rw [List.map_map]
  refine Prod.ext rfl (List.map_congr_left fun x hx => ?_)
  exact back_printed P (hcells c hc x hx).1 (hcells c hc x hx).2

end Melodist.Smet
