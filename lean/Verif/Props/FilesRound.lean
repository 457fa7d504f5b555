import Verif.Lemmas.FilesRoundC
import Verif.Lemmas.SunNearB
import Verif.Props.RoundingD

/-!
# Files of stations in floating-point arithmetic (C147)
-/

set_option linter.unusedSectionVars false

namespace Melodist

open Text Spec Smet DataIO

theorem XF.rnd_id_cell {K : Type} (c : XF K) : c.rnd (fun x => x) = c := by cases c <;> rfl

theorem readNumber_exact (t : Text) : readNumber (fun _ x => x) t = (number? t : Option (XF ℝ)) := by
  unfold readNumber
  cases (number? t : Option (XF ℝ)) with
  | none => rfl
  | some v => rw [Option.map_some, XF.rnd_id_cell]

theorem floatsR_exact : ∀ l : List Text, floatsR (fun _ x => x) l = (floats l : Py (List (XF ℝ)))
  | [] => rfl
  | x :: xs => by
    unfold floatsR floats
    rw [readNumber_exact, floatsR_exact xs]
    cases (number? x : Option (XF ℝ)) <;> rfl

theorem parseRowR_exact : ∀ (ns : List String) (xs : List Text), parseRowR (fun _ x => x) ns xs = (parseRow ns xs : Option (Option Time × List (XF ℝ)))
  | [], [] => rfl
  | c :: cs, x :: xs => by
    unfold parseRowR parseRow cellR? cell?
    rw [parseRowR_exact cs xs, readNumber_exact]
    cases (parseRow cs xs : Option (Option Time × List (XF ℝ))) <;> rfl
  | [], _ :: _ => rfl
  | _ :: _, [] => rfl

theorem parseRowsR_exact (names : List String) : ∀ l : List Text, parseRowsR (fun _ x => x) names l = (parseRows names l : Option (List (Time × List (XF ℝ))))
  | [] => rfl
  | x :: xs => by
    unfold parseRowsR parseRows
    rw [parseRowR_exact, parseRowsR_exact names xs]
    rfl

theorem numbersR_exact (na : Option ℝ) (col : List Text) : numbersR? (fun _ x => x) na col = numbers? na col := by
  unfold numbersR? numbers?
  simp only [readNumber_exact]
  cases na <;> rfl

/-- C147: without rounding errors the three functions are those of C71 to C75. -/
theorem C147_exact (api : PandasApi) (file : Text) (mode : String) (skipLast : Option Bool) :
    readSmetR (fun x => x) (fun _ x => x) api file mode = (readSmet api file mode : Py (Pairs × Frame ℝ)) ∧
    readKnmiR (fun x => x) (fun _ x => x) api file = (readKnmi api file : Py (Frame ℝ)) ∧
    readSingleDwdR (fun x => x) (fun _ x => x) file mode skipLast = (readSingleDwd file mode skipLast : Py (Frame ℝ)) := by
  refine ⟨?_, ?_, ?_⟩
  · unfold readSmetR readSmet
    simp only [floatsR_exact, parseRowsR_exact]
    have hs : ∀ (c : List (String × List (XF ℝ))) m, scaleR (fun x => x) c m = scale c m := by
      intro c m
      unfold scaleR scale
      simp only [XF.rnd_id_cell]
    simp only [hs]
    rfl
  · unfold readKnmiR readKnmi
    have hn : ∀ (t : Table) na n, t.numsR (fun _ x => x) na n = (t.nums na n : Py (List (XF ℝ))) := by
      intro t na n
      unfold Table.numsR Table.nums
      simp only [numbersR_exact]
      rfl
    simp only [hn, XF.rnd_id_cell]
  · unfold readSingleDwdR readSingleDwd
    have hc : ∀ col : List Text, dwdColumnR (fun _ x => x) col = (dwdColumn col : Py (List (XF ℝ))) := by
      intro col
      unfold dwdColumnR dwdColumn
      rw [numbersR_exact]
      rfl
    have hv : ∀ c : List (String × List (XF ℝ)), dwdConvertR (fun x => x) c = dwdConvert c := by
      intro c
      unfold dwdConvertR dwdConvert
      simp only [XF.rnd_id_cell]
    simp only [hc, hv]

/-- **C147 (SMET).**  An hourly frame whose numbers are at most 10⁹ in absolute value, written and read: the same timestamps, the same columns, the values rounded to two decimals, up to a relative
error of 2⁻⁵⁰; exactly the missing values and those printed as -999.00 are missing.  (The code for missing values is -999 by default.) -/
theorem C147_smet {fl : ℝ → ℝ} {parse : Text → ℝ → ℝ} (P : ReadsDecimals fl parse) (layout : Nat → Nat → Nat) {f : Frame ℝ} (hf : Writable codesH f)
    (hmin : ∀ t ∈ f.index, t % MINUTE = 0) {md : Pairs} (hmd : Header md) {nodata : XF ℝ} (hnodata : Printable nodata) (checkNan : Bool)
    (hinf : checkNan = true → ∀ c ∈ f.cols, ¬ (.pinf ∈ c.2 ∧ .ninf ∈ c.2)) (hcells : ∀ c ∈ f.cols, ∀ x ∈ c.2, Printable x) :
    ∃ file, (writeSmet layout f md nodata "h" checkNan).file = some file ∧
      ∃ header g, (∀ api : PandasApi, api.indexNameDel = true → readSmetR fl parse api file "h" = .ok (header, g)) ∧ g.index = f.index ∧
        List.Forall₂ (fun a b => b.1 = a.1 ∧ List.Forall₂ (CellBackR nodata) a.2 b.2) f.cols g.cols := by
  obtain ⟨h1, h2⟩ := smet_round_tripR P layout hf hmd nodata (mode := "h") id (.inr ⟨rfl, rfl, rfl⟩) hourly_names (fun _ => rfl) checkNan hinf
  refine ⟨_, by rw [h1], _, _, fun api ha => by rw [h2, if_pos ha], ?_, ?_⟩
  · dsimp only
    conv_rhs => rw [← List.map_id f.index]
    refine List.map_congr_left fun t ht => ?_
    rw [if_neg (by decide), hmin t ht, sub_zero]
    rfl
  · rw [List.forall₂_map_right_iff]
    refine List.forall₂_same.2 fun c hc => ⟨rfl, ?_⟩
    rw [List.forall₂_map_right_iff]
    exact List.forall₂_same.2 fun x hx => cellBackR_back P hnodata (hcells c hc x hx)

/-- **C147 (SMET again).**  What was read from an hourly file can be written again, with the header that was read, and the new file is the old one, character by character (with the default code for
missing values; no number is printed as `-0.00`). -/
theorem C147_smet_again {fl : ℝ → ℝ} {parse : Text → ℝ → ℝ} (P : ReadsDecimals fl parse) (layout : Nat → Nat → Nat) {f : Frame ℝ} (hf : Writable codesH f)
    (hmin : ∀ t ∈ f.index, t % MINUTE = 0) {md : Pairs} (hmd : Header md) (checkNan : Bool)
    (hinf : checkNan = true → ∀ c ∈ f.cols, ¬ (.pinf ∈ c.2 ∧ .ninf ∈ c.2)) (hcells : ∀ c ∈ f.cols, ∀ x ∈ c.2, Printable x ∧ NoMinusZero x)
    {api : PandasApi} (hapi : api.indexNameDel = true) :
    ∃ file header g, (writeSmet layout f md (.fin (-999)) "h" checkNan).file = some file ∧ readSmetR fl parse api file "h" = .ok (header, g) ∧
      (writeSmet layout g header (.fin (-999)) "h" checkNan).file = some file := by
  obtain ⟨h1, h2⟩ := smet_round_tripR P layout hf hmd (.fin (-999)) (mode := "h") id (.inr ⟨rfl, rfl, rfl⟩) hourly_names (fun _ => rfl) checkNan hinf
  have hi : (f.index.map fun t => if "h" = "d" then midnight (dayOf t) else t - t % MINUTE) = f.index := by
    conv_rhs => rw [← List.map_id f.index]
    refine List.map_congr_left fun t ht => ?_
    rw [if_neg (by decide), hmin t ht, sub_zero]
    rfl
  refine ⟨_, _, _, by rw [h1], by rw [h2, if_pos hapi], ?_⟩
  rw [hi]
  exact written_again P layout hf hmd checkNan hinf hcells (by rw [h1]) rfl

theorem double_err (x : ℝ) : |roundBits 53 x - x| ≤ |x| / 2 ^ 53 := by
  have := R53.err x
  rw [R53_fl, R53_u] at this
  norm_num at this ⊢
  linarith

/-- **C147 (KNMI).**  A KNMI file with integers of at most nine digits in the columns used, read in double precision: rows and columns as in C74; humidity is exact, precipitation, wind and
sunshine are the correctly rounded quotients and products (precipitation never negative), temperature and radiation have the errors stated. -/
theorem C147_knmi {parse : Text → ℝ → ℝ} (P : ReadsDecimals (roundBits 53) parse) {api : PandasApi} {explanation : List Text} {names : List (Nat × String)}
    {recs : List ((String → Nat) × KnmiRecord)} (h : KnmiText explanation names recs) (hcols : ∀ n ∈ ["T", "RH", "Q", "U", "FH", "SQ"], n ∈ names.map Prod.snd)
    (hhour : ∀ r ∈ recs, 1 ≤ r.2.hour ∧ r.2.hour ≤ 24) (hapi : api.pdDatetime = true)
    (hcode : ∀ r ∈ recs, ∀ n ∈ ["T", "RH", "Q", "U", "FH", "SQ"], KnmiCode (r.2.val n)) :
    ∃ temp precip glob hum wind ssd, readKnmiR (roundBits 53) parse api (knmiFile explanation names recs) =
        .ok ⟨recs.map fun r => r.2.day * DAY + r.2.hour * HOUR, [("temp", temp), ("precip", precip), ("glob", glob), ("hum", hum), ("wind", wind), ("ssd", ssd)]⟩ ∧
      List.Forall₂ (fun r c => CellNear (fun x => x / 10 + 273.15) (fun x => (|x / 10| + 274) / 2 ^ 49) (r.2.val "T") c) recs temp ∧
      List.Forall₂ (fun r c => CellNear (fun x => max 0 (x / 10)) (fun x => max 0 (x / 10) / 2 ^ 53) (r.2.val "RH") c) recs precip ∧
      List.Forall₂ (fun r c => CellNear (fun x => x * 10000 / 3600) (fun x => |x * 10000 / 3600| / 2 ^ 51) (r.2.val "Q") c) recs glob ∧
      List.Forall₂ (fun r c => CellNear (fun x => x) (fun _ => 0) (r.2.val "U") c) recs hum ∧
      List.Forall₂ (fun r c => CellNear (fun x => x / 10) (fun x => |x / 10| / 2 ^ 53) (r.2.val "FH") c) recs wind ∧
      List.Forall₂ (fun r c => CellNear (fun x => x * 6) (fun x => |x * 6| / 2 ^ 53) (r.2.val "SQ") c) recs ssd := by
  have hr := knmi_readR (roundBits 53) parse h hcols hhour hapi
  unfold knmiFrameR at hr
  simp only [List.map_map, Function.comp_def] at hr
  refine ⟨_, _, _, _, _, _, hr, ?_, ?_, ?_, ?_, ?_, ?_⟩ <;> rw [List.forall₂_map_right_iff] <;> refine List.forall₂_same.2 fun r hm => ?_
  · exact knmi_temp double_err P (hcode r hm _ (by decide))
  · exact knmi_precip double_err P (hcode r hm _ (by decide))
  · exact knmi_glob double_err P (hcode r hm _ (by decide))
  · exact knmi_hum P (hcode r hm _ (by decide))
  · exact knmi_wind double_err P (hcode r hm _ (by decide))
  · exact knmi_ssd double_err P (hcode r hm _ (by decide))

/-- **C147 (DWD).**  A DWD file whose numbers have at most nine decimals and 15 characters, read in double precision: rows and columns as in C75, exactly the empty fields and those equal to -999 are
missing, the errors of the others are bounded. -/
theorem C147_dwd {parse : Text → ℝ → ℝ} (P : ReadsDecimals (roundBits 53) parse) {hourly : Bool} {mode : String}
    (hmode : mode = "d" ∧ hourly = false ∨ mode = "h" ∧ hourly = true) {names : List String} {recs : List DwdRecord} (h : DwdText hourly names recs)
    (hnum : ∀ r ∈ recs, ∀ n ∈ names, ∀ x, r.val n = some x → x.text.length ≤ 15 ∧ x.frac.length ≤ 9) :
    ∃ g, readSingleDwdR (roundBits 53) parse (textOf (dwdLines hourly names recs)) mode none = .ok g ∧
      g.index = (recs.map fun r => r.day * DAY + if hourly then r.hour * HOUR else 0) ∧
      List.Forall₂ (fun n c => ∃ e, dwdKnown n = some e ∧ c.1 = e.1 ∧ List.Forall₂ (fun r d => DwdNear e.2 (r.val n) d) recs c.2)
        (names.filter fun n => (dwdKnown n).isSome) g.cols := by
  refine ⟨dwdFrameR (roundBits 53) parse hourly names recs, dwd_lines_readR _ _ hmode h ?_, rfl, ?_⟩
  · rw [if_neg (by simp), univ_textOf (dwdLines_chars h)]
  · unfold dwdFrameR
    dsimp only
    clear h
    induction names with
    | nil => exact .nil
    | cons n names ih =>
      have ih := ih fun r hr m hm => hnum r hr m (by simp [hm])
      cases hk : dwdKnown n with
      | none =>
        rw [List.filter_cons_of_neg (by rw [hk]; simp), List.filterMap_cons, hk]
        exact ih
      | some e =>
        rw [List.filter_cons_of_pos (by rw [hk]; rfl), List.filterMap_cons, hk]
        refine .cons ⟨e, hk, rfl, ?_⟩ ih
        rw [List.forall₂_map_right_iff]
        exact List.forall₂_same.2 fun r hr => dwd_near double_err P e.2 fun x hx => hnum r hr n (by simp) x hx

/-! ## examples -/

/-- correct rounding is such a way of reading numbers -/
theorem correct_reading : ReadsDecimals (roundBits 53) (fun _ => roundBits 53) where
  double := fun _ x => R53.idem x
  err := fun _ x _ => (double_err x).trans (by gcongr <;> norm_num)
  whole := fun _ n _ hn => by
    by_cases h0 : n = 0
    · rw [h0]; simp [roundBits]
    · refine roundBits_smallint h0 ?_
      have : |(n : ℝ)| ≤ 10 ^ 15 := by exact_mod_cast hn
      refine lt_of_le_of_lt this ?_
      norm_num

/-- two hours with a wind speed that cannot be represented, a temperature and missing values -/
noncomputable def smetReal : Frame ℝ := ⟨[1577836800000000, 1577840400000000], [("temp", [.fin 273.15, .fin (-0.2)]), ("wind", [.nan, .fin 0.1])]⟩

theorem smetReal_writable : Writable codesH smetReal := ⟨by decide, by decide, by decide, by decide, by decide, by decide⟩

/-- the file, read and written again, is the same -/
example (layout : Nat → Nat → Nat) : ∃ file header, ∃ g : Frame ℝ, (writeSmet layout smetReal smetMeta (.fin (-999)) "h" true).file = some file ∧
    readSmetR (roundBits 53) (fun _ => roundBits 53) .legacy file "h" = .ok (header, g) ∧ (writeSmet layout g header (.fin (-999)) "h" true).file = some file := by
  refine C147_smet_again correct_reading layout smetReal_writable (by decide) smetMeta_header true ?_ ?_ rfl
  · intro _ c hc
    simp only [smetReal, List.mem_cons, List.not_mem_nil, or_false] at hc
    rcases hc with rfl | rfl <;> simp
  · intro c hc x hx
    simp only [smetReal, List.mem_cons, List.not_mem_nil, or_false] at hc
    rcases hc with rfl | rfl <;> simp only [List.mem_cons, List.not_mem_nil, or_false] at hx <;> rcases hx with rfl | rfl
    · exact ⟨by show |_| ≤ _; rw [abs_of_pos] <;> norm_num, .inl (by norm_num)⟩
    · exact ⟨by show |_| ≤ _; rw [abs_of_neg] <;> norm_num, .inr (by norm_num)⟩
    · exact ⟨trivial, trivial⟩
    · exact ⟨by show |_| ≤ _; rw [abs_of_pos] <;> norm_num, .inl (by norm_num)⟩

/-- C147 applies to a file with -1.5 °C and a missing radiation -/
example : ∃ f : Frame ℝ, readKnmiR (roundBits 53) (fun _ => roundBits 53) .legacy (knmiFile exampleText exampleNames exampleRecs) = .ok f ∧
    ∃ w : ℝ, f.cols[0]?.bind (fun c => c.2[0]?) = some (.fin w) ∧ |w - 271.65| ≤ 1 / 10 ^ 12 := by
  obtain ⟨temp, precip, glob, hum, wind, ssd, h, h1, _⟩ := C147_knmi correct_reading (api := .legacy) example_ok (by decide) (by decide) rfl (by
    intro r hr n hn
    simp only [exampleRecs, List.mem_cons, List.not_mem_nil, or_false] at hr hn
    rcases hr with rfl | rfl <;> rcases hn with rfl | rfl | rfl | rfl | rfl | rfl <;> first | trivial | exact ⟨rfl, by decide⟩)
  refine ⟨_, h, ?_⟩
  cases h1 with
  | cons h0 _ =>
    obtain ⟨w, rfl, hw⟩ := h0
    refine ⟨w, rfl, ?_⟩
    have e : ((⟨true, 15, []⟩ : Numeral).value : ℝ) = -15 := by unfold Numeral.value; norm_num
    rw [e] at hw
    have hw : |w - ((-15) / 10 + 273.15)| ≤ (|(-15 : ℝ) / 10| + 274) / 2 ^ 49 := hw
    rw [show ((-15 : ℝ)) / 10 + 273.15 = 271.65 by norm_num, show |(-15 : ℝ) / 10| = 1.5 by rw [abs_of_neg] <;> norm_num] at hw
    refine hw.trans ?_
    norm_num

/-- C147 applies to a DWD file -/
example : ∃ g : Frame ℝ, readSingleDwdR (roundBits 53) (fun _ => roundBits 53) (textOf (dwdLines false dwdExampleNames dwdExampleRecs)) "d" none = .ok g ∧ g.cols.length = 2 := by
  obtain ⟨g, h1, _, h2⟩ := C147_dwd correct_reading (.inl ⟨rfl, rfl⟩) dwd_example_ok (by
    have : ∀ r ∈ dwdExampleRecs, ∀ n ∈ dwdExampleNames, ∀ x ∈ (r.val n).toList, x.text.length ≤ 15 ∧ x.frac.length ≤ 9 := by decide
    intro r hr n hn x hx
    exact this r hr n hn x (by rw [hx]; simp))
  exact ⟨g, h1, by rw [← h2.length_eq]; decide⟩

end Melodist
