import Verif.Spec.Smet
import Verif.Lemmas.Smet
import Verif.Lemmas.Stats
import Verif.Spec.Basic
import Mathlib.Data.Rat.Floor

/-!
# C71, C72, C73, C89: SMET files
-/

set_option linter.unusedSectionVars false

namespace Melodist

open Spec Smet Text

/-! ## helpers -/

theorem strip_of_ends {t : Text} (h1 : ∀ c, t.head? = some c → isSpace c = false) (h2 : ∀ c, t.getLast? = some c → isSpace c = false) : strip t = t := by
  have hd : ∀ {u : Text}, (∀ c, u.head? = some c → isSpace c = false) → u.dropWhile isSpace = u := by
    intro u hu
    cases u with
    | nil => rfl
    | cons x xs => rw [List.dropWhile_cons, if_neg (by rw [hu x rfl]; simp)]
  unfold strip
  rw [hd h1, hd (fun c hc => h2 c (by rw [List.head?_reverse] at hc; exact hc)), List.reverse_reverse]

theorem stripped_of_clean {p : String × String} (h1 : Spec.Clean p.1) (h2 : Spec.Clean p.2) : stripped p = p := by
  unfold stripped
  rw [strip_of_ends h1.2.1 h1.2.2, strip_of_ends h2.2.1 h2.2.2, String.ofList_toList, String.ofList_toList]

section
variable {K : Type} [Field K] [LinearOrder K] [IsStrictOrderedRing K] [FloorSemiring K]

theorem rounded2_spec (x : K) : IsRounded2 x (rounded2 x) := by
  have key : ∀ z : K, 0 ≤ z → |z - (roundEven (z * 100) : K) / 100| ≤ 1 / 200 ∧
      (|z - (roundEven (z * 100) : K) / 100| = 1 / 200 → roundEven (z * 100) % 2 = 0) := by
    intro z hz
    obtain ⟨h1, h2⟩ := roundEven_spec (x := z * 100) (by positivity)
    have e : |z * 100 - (roundEven (z * 100) : K)| = 100 * |z - (roundEven (z * 100) : K) / 100| := by
      rw [show z * 100 - (roundEven (z * 100) : K) = 100 * (z - (roundEven (z * 100) : K) / 100) by ring, abs_mul, abs_of_pos (by norm_num : (0 : K) < 100)]
    rw [e] at h1 h2
    exact ⟨by linarith, fun h => h2 (by rw [h]; norm_num)⟩
  unfold rounded2
  by_cases h : x < 0
  · rw [if_pos h]
    obtain ⟨h1, h2⟩ := key (-x) (by linarith)
    have e : |x - -((roundEven (-x * 100) : K) / 100)| = |-x - (roundEven (-x * 100) : K) / 100| := by
      rw [← abs_neg]; congr 1; ring
    refine ⟨-(roundEven (-x * 100) : ℤ), by push_cast; ring, e ▸ h1, fun hh => ?_⟩
    have := h2 (e ▸ hh)
    rw [even_neg, Int.even_iff]
    omega
  · rw [if_neg h]
    obtain ⟨h1, h2⟩ := key x (not_lt.1 h)
    refine ⟨(roundEven (x * 100) : ℤ), by push_cast; ring, h1, fun hh => ?_⟩
    have := h2 hh
    rw [Int.even_iff]
    omega

/-- two decimals determine the rounded number -/
theorem IsRounded2.unique {x y z : K} (hy : IsRounded2 x y) (hz : IsRounded2 x z) : y = z := by
  obtain ⟨n, rfl, h1, h2⟩ := hy
  obtain ⟨m, rfl, h3, h4⟩ := hz
  have hd : |((n : K) - m)| ≤ 1 := by
    have e : (n : K) - m = 100 * ((x - (m : K) / 100) - (x - (n : K) / 100)) := by ring
    rw [e, abs_mul, abs_of_pos (by norm_num : (0 : K) < 100)]
    have := abs_sub (x - (m : K) / 100) (x - (n : K) / 100)
    linarith
  have hi : |n - m| ≤ 1 := by exact_mod_cast hd
  by_cases hnm : n = m
  · rw [hnm]
  · exfalso
    have hodd : |n - m| = 1 := by
      have : 0 < |n - m| := abs_pos.2 (sub_ne_zero.2 hnm)
      omega
    have h1' := abs_le.1 h1
    have h3' := abs_le.1 h3
    have two : n = m + 1 ∨ m = n + 1 := by
      rcases abs_eq (by norm_num : (0 : ℤ) ≤ 1) |>.1 hodd with h | h
      · left; omega
      · right; omega
    rcases two with rfl | rfl
    · push_cast at *
      have hx : x = (m : K) / 100 + 1 / 200 := by
        apply le_antisymm
        · linarith [h3'.2]
        · have := h1'.1; ring_nf at this ⊢; linarith
      have e1 := h2 (by rw [hx]; rw [show (m : K) / 100 + 1 / 200 - ((m : K) + 1) / 100 = -(1 / 200) by ring, abs_neg, abs_of_pos (by norm_num)])
      have e2 := h4 (by rw [hx]; rw [show (m : K) / 100 + 1 / 200 - (m : K) / 100 = 1 / 200 by ring, abs_of_pos (by norm_num)])
      rw [Int.even_iff] at e1 e2
      omega
    · push_cast at *
      have hx : x = (n : K) / 100 + 1 / 200 := by
        apply le_antisymm
        · linarith [h1'.2]
        · have := h3'.1; ring_nf at this ⊢; linarith
      have e1 := h4 (by rw [hx]; rw [show (n : K) / 100 + 1 / 200 - ((n : K) + 1) / 100 = -(1 / 200) by ring, abs_neg, abs_of_pos (by norm_num)])
      have e2 := h2 (by rw [hx]; rw [show (n : K) / 100 + 1 / 200 - (n : K) / 100 = 1 / 200 by ring, abs_of_pos (by norm_num)])
      rw [Int.even_iff] at e1 e2
      omega

theorem shown_back (x : XF K) : Shown x (if printed x = .fin (-999) then .nan else printed x) := by
  cases x with
  | nan => show _ = _; simp [printed]
  | pinf => show _ = _; simp [printed]
  | ninf => show _ = _; simp [printed]
  | fin x =>
    refine ⟨rounded2 x, rounded2_spec x, ?_⟩
    unfold printed
    simp only [XF.fin.injEq]

theorem cellBack_back (nodata x : XF K) : CellBack nodata x (back nodata x) := by
  unfold back
  cases x with
  | nan => exact shown_back nodata
  | pinf => exact shown_back .pinf
  | ninf => exact shown_back .ninf
  | fin x => exact shown_back (.fin x)

/-- a sum of cells is NaN only with a missing value or with infinities of both signs -/
theorem sumSkip_isNan {l : List (XF K)} (h : (sumSkip l).isNan = true) : .pinf ∈ l ∧ .ninf ∈ l := by
  have key : ∀ l : List (XF K), (∀ x ∈ l, x.isNan = false) →
      (sumCells l = .nan → .pinf ∈ l ∧ .ninf ∈ l) ∧ (sumCells l = .pinf → .pinf ∈ l) ∧ (sumCells l = .ninf → .ninf ∈ l) := by
    intro l
    induction l with
    | nil => intro _; exact ⟨fun h => (by cases h), fun h => (by cases h), fun h => (by cases h)⟩
    | cons x l ih =>
      intro hx
      obtain ⟨i1, i2, i3⟩ := ih fun y hy => hx y (by simp [hy])
      have h0 := hx x (by simp)
      have e : sumCells (x :: l) = x + sumCells l := rfl
      rw [e]
      cases x with
      | nan => cases h0
      | pinf =>
        cases hs : sumCells l with
        | nan => exact ⟨fun _ => ⟨by simp, by simp [(i1 hs).2]⟩, fun _ => by simp, fun h => (by cases h)⟩
        | pinf => exact ⟨fun h => (by cases h), fun _ => by simp, fun h => (by cases h)⟩
        | ninf => exact ⟨fun _ => ⟨by simp, by simp [i3 hs]⟩, fun _ => by simp, fun h => (by cases h)⟩
        | fin y => exact ⟨fun h => (by cases h), fun _ => by simp, fun h => (by cases h)⟩
      | ninf =>
        cases hs : sumCells l with
        | nan => exact ⟨fun _ => ⟨by simp [(i1 hs).1], by simp⟩, fun h => (by cases h), fun _ => by simp⟩
        | pinf => exact ⟨fun _ => ⟨by simp [i2 hs], by simp⟩, fun h => (by cases h), fun _ => by simp⟩
        | ninf => exact ⟨fun h => (by cases h), fun h => (by cases h), fun _ => by simp⟩
        | fin y => exact ⟨fun h => (by cases h), fun h => (by cases h), fun _ => by simp⟩
      | fin z =>
        cases hs : sumCells l with
        | nan => exact ⟨fun _ => ⟨by simp [(i1 hs).1], by simp [(i1 hs).2]⟩, fun h => (by cases h), fun h => (by cases h)⟩
        | pinf => exact ⟨fun h => (by cases h), fun _ => (by simp [i2 hs]), fun h => (by cases h)⟩
        | ninf => exact ⟨fun h => (by cases h), fun h => (by cases h), fun _ => by simp [i3 hs]⟩
        | fin y => exact ⟨fun h => (by cases h), fun h => (by cases h), fun h => (by cases h)⟩
  have hn : sumSkip l = .nan := by
    cases hs : sumSkip l <;> rw [hs] at h <;> first | rfl | cases h
  have := (key (l.filter fun x => !x.isNan) (fun x hx => by simpa using (List.mem_filter.1 hx).2)).1 hn
  exact ⟨(List.mem_filter.1 this.1).1, (List.mem_filter.1 this.2).1⟩

theorem dropNan_id {f : Frame K} (h : ∀ c ∈ f.cols, ¬ (.pinf ∈ c.2 ∧ .ninf ∈ c.2)) : dropNan f = f := by
  unfold dropNan
  dsimp only
  have hf : (f.cols.filter fun c => !(sumSkip c.2).isNan) = f.cols := by
    rw [List.filter_eq_self]
    intro c hc
    cases hs : (sumSkip c.2).isNan with
    | false => rfl
    | true => exact absurd (sumSkip_isNan hs) (h c hc)
  rw [hf]
  have e : (f.cols.map fun c => c.1).filter (fun name => !(f.cols.map fun c => c.1).contains name) = [] := by
    rw [List.filter_eq_nil_iff]
    intro a ha
    simp [List.mem_map.1 ha]
  rw [e]
  simp

theorem oneWord_word {s : String} (h : OneWord s) : Word s.toList := by
  refine ⟨fun e => h.1 ?_, fun c hc => ⟨(h.2 c hc).1, (h.2 c hc).2.1⟩⟩
  rw [← String.toList_inj, e]
  rfl

theorem plain_of_clean {s : String} (h : Spec.Clean s) : Plain s := h.1

theorem spaced_chars : ∀ {l : List Text}, (∀ w ∈ l, ∀ c ∈ w, c ≠ '=' ∧ c ≠ '\n' ∧ c ≠ '\r' ∧ c ≠ '"') →
    ∀ c ∈ spaced l, c ≠ '=' ∧ c ≠ '\n' ∧ c ≠ '\r' ∧ c ≠ '"'
  | [], _ => by simp [spaced]
  | [x], h => h x (by simp)
  | x :: y :: r, h => by
    intro c hc
    unfold spaced at hc
    rw [List.mem_append, List.mem_cons] at hc
    rcases hc with hc | rfl | hc
    · exact h x (by simp) c hc
    · decide
    · exact spaced_chars (fun w hw => h w (by simp [hw])) c hc

theorem word_plain {s : String} (h : OneWord s) : ∀ c ∈ s.toList, c ≠ '=' ∧ c ≠ '\n' ∧ c ≠ '\r' ∧ c ≠ '"' := by
  intro c hc
  obtain ⟨h1, h2, h3⟩ := h.2 c hc
  refine ⟨h3, ?_, ?_, h2⟩
  · rintro rfl; exact absurd h1 (by decide)
  · rintro rfl; exact absurd h1 (by decide)

/-- the header entries of the file -/
def fileHeader (md : Pairs) (names : List String) : Pairs :=
  setItem (setItem md "fields" (String.ofList (spaced ("timestamp".toList :: names.map String.toList)))) "units_multiplier"
    (String.ofList (List.replicate (names.length + 1) ['1', ' ']).flatten)

/-- what `write_smet` does with columns whose names in the file are words -/
theorem written (layout : Nat → Nat → Nat) {f g : Frame K} {md : Pairs} {nodata : XF K} {mode : String} (hmode : mode = "d" ∨ mode = "h")
    {checkNan : Bool} (hg : (if checkNan then dropNan (renameCols writeD writeH mode f) else renameCols writeD writeH mode f) = g)
    (hts : "timestamp" ∉ g.cols.map fun c => c.1) (hok : ∀ c ∈ g.cols, OneWord c.1) :
    writeSmet layout f md nodata mode checkNan =
      ⟨some (fileText (fileHeader md (g.cols.map fun c => c.1)) (toString layout (table nodata g (g.index.map fun t =>
        if mode = "d" then stampDay t else stampHour t)) g.index.length)), fileHeader md (g.cols.map fun c => c.1), none⟩ := by
  unfold writeSmet
  dsimp only
  rw [hg, if_neg (by rcases hmode with rfl | rfl <;> simp)]
  have hn : (table nodata g (g.index.map fun t => if mode = "d" then stampDay t else stampHour t)).map (fun x => x.1.toList) =
      "timestamp".toList :: (g.cols.map fun c => c.1).map String.toList := by
    rw [table_eq nodata g _ hts, List.map_cons, List.map_map, List.map_map]
    rfl
  have hw : words (spaced ("timestamp".toList :: (g.cols.map fun c => c.1).map String.toList)) =
      "timestamp".toList :: (g.cols.map fun c => c.1).map String.toList := by
    refine words_spaced fun w hw => ?_
    rcases List.mem_cons.1 hw with rfl | hw
    · decide
    · obtain ⟨n, hn', rfl⟩ := List.mem_map.1 hw
      obtain ⟨c, hc, rfl⟩ := List.mem_map.1 hn'
      have := oneWord_word (hok c hc)
      exact ⟨this.1, fun x hx => (this.2 x hx).1⟩
  unfold fileHeader
  rw [hn, String.toList_ofList (l := spaced ("timestamp".toList :: (g.cols.map fun c => c.1).map String.toList)), hw]
  simp

theorem stripped_fields (v : String) : stripped ("fields", v) = ("fields", String.ofList (strip v.toList)) := by
  show (String.ofList (strip "fields".toList), _) = _
  rw [show String.ofList (strip "fields".toList) = "fields" from by decide]

theorem stripped_units (v : String) : stripped ("units_multiplier", v) = ("units_multiplier", String.ofList (strip v.toList)) := by
  show (String.ofList (strip "units_multiplier".toList), _) = _
  rw [show String.ofList (strip "units_multiplier".toList) = "units_multiplier" from by decide]

theorem plain_keys : Plain "fields" ∧ Plain "units_multiplier" := by unfold Plain; decide

/-- the header as it is read -/
theorem header_read {md : Pairs} (hclean : ∀ p ∈ md, Spec.Clean p.1 ∧ Spec.Clean p.2) (hkeys : (md.map Prod.fst).Nodup) {names : List String}
    (hok : ∀ n ∈ names, OneWord n) :
    (∀ p ∈ fileHeader md names, Plain p.1 ∧ Plain p.2) ∧ (((fileHeader md names).map stripped).map Prod.fst).Nodup ∧
    (∃ F U, ("fields", F) ∈ (fileHeader md names).map stripped ∧ words F.toList = "timestamp".toList :: names.map String.toList ∧
      ("units_multiplier", U) ∈ (fileHeader md names).map stripped ∧ words U.toList = List.replicate (names.length + 1) ['1']) ∧
    (∀ p ∈ md, p.1 ≠ "fields" → p.1 ≠ "units_multiplier" → p ∈ (fileHeader md names).map stripped) ∧
    ∀ p ∈ (fileHeader md names).map stripped, p.1 = "fields" ∨ p.1 = "units_multiplier" ∨ p ∈ md := by
  have hmem : ∀ p ∈ fileHeader md names, p = ("units_multiplier", String.ofList (List.replicate (names.length + 1) ['1', ' ']).flatten) ∨
      p = ("fields", String.ofList (spaced ("timestamp".toList :: names.map String.toList))) ∨ p ∈ md := by
    intro p hp
    rcases mem_setItem hp with h | h
    · exact .inl h
    · exact .inr (mem_setItem h)
  have hkey : ∀ p ∈ fileHeader md names, (stripped p).1 = p.1 := by
    intro p hp
    rcases hmem p hp with rfl | rfl | h
    · rw [stripped_units]
    · rw [stripped_fields]
    · rw [stripped_of_clean (hclean p h).1 (hclean p h).2]
  have hnd : ((fileHeader md names).map Prod.fst).Nodup := setItem_nodup (setItem_nodup hkeys _ _) _ _
  refine ⟨?_, ?_, ?_, ?_, ?_⟩
  · intro p hp
    rcases hmem p hp with rfl | rfl | h
    · refine ⟨plain_keys.2, fun c hc => ?_⟩
      rw [String.toList_ofList, List.mem_flatten] at hc
      obtain ⟨l, hl, hc⟩ := hc
      rw [List.eq_of_mem_replicate hl] at hc
      simp only [List.mem_cons, List.not_mem_nil, or_false] at hc
      rcases hc with rfl | rfl <;> decide
    · refine ⟨plain_keys.1, ?_⟩
      unfold Plain
      rw [String.toList_ofList (l := spaced ("timestamp".toList :: names.map String.toList))]
      refine spaced_chars fun w hw => ?_
      rcases List.mem_cons.1 hw with rfl | hw
      · decide
      · obtain ⟨n, hn, rfl⟩ := List.mem_map.1 hw
        exact word_plain (hok n hn)
    · exact ⟨(hclean p h).1.1, (hclean p h).2.1⟩
  · rw [List.map_map]
    have : (fileHeader md names).map (Prod.fst ∘ stripped) = (fileHeader md names).map Prod.fst := List.map_congr_left fun p hp => hkey p hp
    rw [this]
    exact hnd
  · refine ⟨_, _, List.mem_map.2 ⟨("fields", _), mem_setItem_ne (mem_setItem_self md _ _) (show "fields" ≠ "units_multiplier" by decide), stripped_fields _⟩, ?_,
      List.mem_map.2 ⟨("units_multiplier", _), mem_setItem_self _ _ _, stripped_units _⟩, ?_⟩
    · rw [String.toList_ofList (l := strip _), words_strip, String.toList_ofList (l := spaced ("timestamp".toList :: names.map String.toList))]
      refine words_spaced fun w hw => ?_
      rcases List.mem_cons.1 hw with rfl | hw
      · decide
      · obtain ⟨n, hn, rfl⟩ := List.mem_map.1 hw
        have := oneWord_word (hok n hn)
        exact ⟨this.1, fun x hx => (this.2 x hx).1⟩
    · rw [String.toList_ofList (l := strip _), words_strip, String.toList_ofList (l := List.flatten _), words_ones]
  · intro p hp h1 h2
    exact List.mem_map.2 ⟨p, mem_setItem_ne (mem_setItem_ne hp h1) h2, stripped_of_clean (hclean p hp).1 (hclean p hp).2⟩
  · intro q hq
    obtain ⟨p, hp, rfl⟩ := List.mem_map.1 hq
    rcases hmem p hp with rfl | rfl | h
    · exact .inr (.inl (hkey _ hp))
    · exact .inl (hkey _ hp)
    · rw [stripped_of_clean (hclean p h).1 (hclean p h).2]
      exact .inr (.inr h)

/-- A frame that can be written: columns of the length of the index, at least one row, different column names consisting of one word, none of them
`timestamp` or in `codes` (the names used in the file), dates with a year of four digits. -/
structure Writable (codes : List String) (f : Frame K) : Prop where
  wf : ∀ c ∈ f.cols, c.2.length = f.index.length
  rows : f.index ≠ []
  names : (f.cols.map fun c => c.1).Nodup
  word : ∀ c ∈ f.cols, OneWord c.1
  codes : ∀ c ∈ f.cols, c.1 ∉ "timestamp" :: codes
  years : ∀ t ∈ f.index, 1000 ≤ yearOf t ∧ yearOf t ≤ 9999

/-- header entries that can be written: different keys, keys and values being clean texts -/
structure Header (md : Pairs) : Prop where
  keys : (md.map Prod.fst).Nodup
  clean : ∀ p ∈ md, Spec.Clean p.1 ∧ Spec.Clean p.2

/-- Writing and reading, whatever the mode is: `W` and `R` are the tables of column names. -/
theorem smet_round_trip (layout : Nat → Nat → Nat) {f : Frame K} {codes : List String} (hf : Writable codes f) {md : Pairs} (hmd : Header md)
    (nodata : XF K) {mode : String} {W R : Pairs} (back' : String → String) (hmode : mode = "d" ∧ W = writeD ∧ R = readD ∨ mode = "h" ∧ W = writeH ∧ R = readH)
    (hW : ∀ n, OneWord n → n ∉ "timestamp" :: codes → OneWord (rename W n) ∧ rename W n ≠ "timestamp" ∧ rename R (rename W n) = back' n)
    (hb : ∀ n, back' (back' n) = n) (checkNan : Bool) (hinf : checkNan = true → ∀ c ∈ f.cols, ¬ (.pinf ∈ c.2 ∧ .ninf ∈ c.2)) :
    ∃ file header, (writeSmet layout f md nodata mode checkNan).file = some file ∧ (writeSmet layout f md nodata mode checkNan).exn = none ∧
      (∀ api, readSmet api file mode = if api.indexNameDel then .ok (header, ⟨f.index.map fun t => if mode = "d" then midnight (dayOf t) else t - t % MINUTE,
        f.cols.map fun c => (back' c.1, c.2.map (back nodata))⟩) else .error .attributeError) ∧
      (header.map Prod.fst).Nodup ∧ (∀ p ∈ md, p.1 ≠ "fields" → p.1 ≠ "units_multiplier" → p ∈ header) ∧
      ∀ p ∈ header, p.1 = "fields" ∨ p.1 = "units_multiplier" ∨ p ∈ md := by
  have hren : ∀ D H h, renameCols D H mode h = (⟨h.index, h.cols.map fun c => (rename (if mode = "d" then D else H) c.1, c.2)⟩ : Frame K) := by
    intro D H h
    unfold renameCols
    rcases hmode with ⟨rfl, _⟩ | ⟨rfl, _⟩
    · rw [if_pos rfl, if_pos rfl]
    · rw [if_neg (by decide), if_pos rfl, if_neg (by decide)]
  have hWW : (if mode = "d" then writeD else writeH) = W := by
    rcases hmode with ⟨rfl, rfl, _⟩ | ⟨rfl, rfl, _⟩ <;> rfl
  have hRR : (if mode = "d" then readD else readH) = R := by
    rcases hmode with ⟨rfl, _, rfl⟩ | ⟨rfl, _, rfl⟩ <;> rfl
  set g : Frame K := ⟨f.index, f.cols.map fun c => (rename W c.1, c.2)⟩ with hg
  have hg0 : renameCols writeD writeH mode f = g := by rw [hren, hWW]
  have hg1 : (if checkNan then dropNan (renameCols writeD writeH mode f) else renameCols writeD writeH mode f) = g := by
    rw [hg0]
    cases checkNan with
    | false => rfl
    | true =>
      rw [if_pos rfl]
      refine dropNan_id fun c hc => ?_
      obtain ⟨c', hc', rfl⟩ := List.mem_map.1 hc
      exact hinf rfl c' hc'
  have hw := fun c (hc : c ∈ f.cols) => hW c.1 (hf.word c hc) (hf.codes c hc)
  have hnames : (g.cols.map fun c => c.1) = f.cols.map fun c => rename W c.1 := by rw [hg]; simp [Function.comp_def]
  have hts : "timestamp" ∉ g.cols.map fun c => c.1 := by
    rw [hnames]
    intro hm
    obtain ⟨c, hc, e⟩ := List.mem_map.1 hm
    exact (hw c hc).2.1 e
  have hok : ∀ c ∈ g.cols, OneWord c.1 := by
    intro c hc
    obtain ⟨c', hc', rfl⟩ := List.mem_map.1 hc
    exact (hw c' hc').1
  have hnd : (g.cols.map fun c => c.1).Nodup := by
    rw [hnames]
    have hinj : ∀ a ∈ f.cols, ∀ b ∈ f.cols, rename W a.1 = rename W b.1 → a.1 = b.1 := by
      intro a ha b hb' e
      have : back' (rename R (rename W a.1)) = back' (rename R (rename W b.1)) := by rw [e]
      rw [(hw a ha).2.2, (hw b hb').2.2, hb, hb] at this
      exact this
    have h1 : (f.cols.map fun c => rename W c.1) = (f.cols.map fun c => c.1).map (rename W) := by simp [Function.comp_def]
    rw [h1]
    refine List.Nodup.map_on ?_ hf.names
    intro a ha b hb' e
    obtain ⟨c, hc, rfl⟩ := List.mem_map.1 ha
    obtain ⟨d, hd, rfl⟩ := List.mem_map.1 hb'
    exact hinj c hc d hd e
  have hwr := written layout (md := md) (nodata := nodata) (mode := mode) (by rcases hmode with h | h; exact .inl h.1; exact .inr h.1) hg1 hts hok
  obtain ⟨r1, r2, ⟨F, U, r3, r4, r5, r6⟩, r7, r8⟩ := header_read hmd.clean hmd.keys (names := g.cols.map fun c => c.1) (fun n hn => by
    obtain ⟨c, hc, rfl⟩ := List.mem_map.1 hn; exact hok c hc)
  have hf1 := congrArg Written.file hwr
  have hf2 := congrArg Written.exn hwr
  have hread : ∀ api, readSmet api (fileText (fileHeader md (g.cols.map fun c => c.1)) (Smet.toString layout (table nodata g (g.index.map fun t =>
        if mode = "d" then stampDay t else stampHour t)) g.index.length)) mode =
      if api.indexNameDel then .ok ((fileHeader md (g.cols.map fun c => c.1)).map stripped,
        ⟨f.index.map fun t => if mode = "d" then midnight (dayOf t) else t - t % MINUTE, f.cols.map fun c => (back' c.1, c.2.map (back nodata))⟩)
      else .error .attributeError := by
    intro api
    have hgwf : g.WF := by
      intro c hc
      obtain ⟨c', hc', rfl⟩ := List.mem_map.1 hc
      exact hf.wf c' hc'
    rw [List.map_map] at r4
    rw [List.length_map] at r6
    have hfmt : ∀ t ∈ g.index, Word (if mode = "d" then stampDay t else stampHour t) ∧
        time? (if mode = "d" then stampDay t else stampHour t) = some (if mode = "d" then midnight (dayOf t) else t - t % MINUTE) := by
      intro t ht
      have h4 : FourDigits t := hf.years t ht
      rcases hmode with ⟨rfl, _⟩ | ⟨rfl, _⟩
      · have := stamp_chars h4 true
        rw [if_pos rfl] at this
        rw [if_pos rfl, if_pos rfl]
        exact ⟨this, time_stampDay h4⟩
      · have := stamp_chars h4 false
        rw [if_neg (by simp)] at this
        rw [if_neg (by decide), if_neg (by decide)]
        exact ⟨this, time_stampHour h4⟩
    rw [read_written api layout hgwf hf.rows hnd hts
      (fun c hc => ⟨oneWord_word (hok c hc), fun e => ((hok c hc).2 _ e).2.2 rfl⟩) r1 r2 nodata _ _ hfmt r4 r6 r3 r5 mode, hren, hRR]
    have hc : ((g.cols.map fun c => (c.1, c.2.map (back nodata))).map fun c => (rename R c.1, c.2)) = f.cols.map fun c => (back' c.1, c.2.map (back nodata)) := by
      rw [hg, List.map_map, List.map_map]
      refine List.map_congr_left fun c hc => ?_
      show (rename R (rename W c.1), _) = _
      rw [(hw c hc).2.2]
    rw [hc]
  exact Exists.intro _ (Exists.intro _ (And.intro hf1 (And.intro hf2 (And.intro hread (And.intro r2 (And.intro r7 r8))))))

/-! ## the properties -/

/-- the names used in hourly files -/
def codesH : List String := ["TA", "PSUM", "ISWR", "RH", "VW"]

/-- the names used in daily files -/
def codesD : List String := ["TA", "TMAX", "TMIN", "PSUM", "ISWR", "RH", "VW"]

theorem hourly_names (n : String) (hn : OneWord n) (h : n ∉ "timestamp" :: codesH) :
    OneWord (rename writeH n) ∧ rename writeH n ≠ "timestamp" ∧ rename readH (rename writeH n) = n := by
  simp only [codesH, List.mem_cons, List.not_mem_nil, or_false, not_or] at h
  obtain ⟨h0, h1, h2, h3, h4, h5⟩ := h
  by_cases c1 : n = "temp"
  · subst c1; decide
  by_cases c2 : n = "precip"
  · subst c2; decide
  by_cases c3 : n = "glob"
  · subst c3; decide
  by_cases c4 : n = "hum"
  · subst c4; decide
  by_cases c5 : n = "wind"
  · subst c5; decide
  have e1 : rename writeH n = n := by
    simp [rename, writeH, List.find?, beq_eq_false_iff_ne.2 (Ne.symm c1), beq_eq_false_iff_ne.2 (Ne.symm c2), beq_eq_false_iff_ne.2 (Ne.symm c3),
      beq_eq_false_iff_ne.2 (Ne.symm c4), beq_eq_false_iff_ne.2 (Ne.symm c5)]
  have e2 : rename readH n = n := by
    simp [rename, readH, List.find?, beq_eq_false_iff_ne.2 (Ne.symm h1), beq_eq_false_iff_ne.2 (Ne.symm h2), beq_eq_false_iff_ne.2 (Ne.symm h3),
      beq_eq_false_iff_ne.2 (Ne.symm h4), beq_eq_false_iff_ne.2 (Ne.symm h5)]
  rw [e1]
  exact ⟨hn, h0, e2⟩

theorem daily_names (n : String) (hn : OneWord n) (h : n ∉ "timestamp" :: codesD) :
    OneWord (rename writeD n) ∧ rename writeD n ≠ "timestamp" ∧ rename readD (rename writeD n) = swapMinMax n := by
  simp only [codesD, List.mem_cons, List.not_mem_nil, or_false, not_or] at h
  obtain ⟨h0, h1, h2, h3, h4, h5, h6, h7⟩ := h
  by_cases c1 : n = "tmean"
  · subst c1; decide
  by_cases c2 : n = "precip"
  · subst c2; decide
  by_cases c3 : n = "glob"
  · subst c3; decide
  by_cases c4 : n = "hum"
  · subst c4; decide
  by_cases c5 : n = "wind"
  · subst c5; decide
  by_cases c6 : n = "tmin"
  · subst c6; decide
  by_cases c7 : n = "tmax"
  · subst c7; decide
  have e1 : rename writeD n = n := by
    simp [rename, writeD, List.find?, beq_eq_false_iff_ne.2 (Ne.symm c1), beq_eq_false_iff_ne.2 (Ne.symm c2), beq_eq_false_iff_ne.2 (Ne.symm c3),
      beq_eq_false_iff_ne.2 (Ne.symm c4), beq_eq_false_iff_ne.2 (Ne.symm c5), beq_eq_false_iff_ne.2 (Ne.symm c6), beq_eq_false_iff_ne.2 (Ne.symm c7)]
  have e2 : rename readD n = n := by
    simp [rename, readD, List.find?, beq_eq_false_iff_ne.2 (Ne.symm h1), beq_eq_false_iff_ne.2 (Ne.symm h2), beq_eq_false_iff_ne.2 (Ne.symm h3),
      beq_eq_false_iff_ne.2 (Ne.symm h4), beq_eq_false_iff_ne.2 (Ne.symm h5), beq_eq_false_iff_ne.2 (Ne.symm h6), beq_eq_false_iff_ne.2 (Ne.symm h7)]
  rw [e1]
  refine ⟨hn, h0, ?_⟩
  rw [e2]
  unfold swapMinMax
  rw [if_neg c6, if_neg c7]

theorem swap_swap (n : String) : swapMinMax (swapMinMax n) = n := by
  unfold swapMinMax
  by_cases h1 : n = "tmin"
  · subst h1; decide
  · rw [if_neg h1]
    by_cases h2 : n = "tmax"
    · subst h2; decide
    · rw [if_neg h2, if_neg h1, if_neg h2]

theorem cells_back (nodata : XF K) (l : List (XF K)) : List.Forall₂ (CellBack nodata) l (l.map (back nodata)) := by
  rw [List.forall₂_map_right_iff]
  exact List.forall₂_same.2 fun x _ => cellBack_back nodata x

/-- **C71.**  An hourly frame (timestamps on full minutes) with clean header entries is written without an exception, and `read_smet` gives back, on
a pandas where `del index.name` is possible, the same timestamps, the same columns in the same order, every value rounded to two decimals (a value
that rounds to -999 becomes missing, a missing value is read as the code for missing values is read), and the same header entries besides `fields` and
`units_multiplier`.  On current pandas the file that was written cannot be read: AttributeError. -/
theorem C71_hourly_round_trip (layout : Nat → Nat → Nat) {f : Frame K} (hf : Writable codesH f) (hmin : ∀ t ∈ f.index, t % MINUTE = 0)
    {md : Pairs} (hmd : Header md) (nodata : XF K) (checkNan : Bool)
    (hinf : checkNan = true → ∀ c ∈ f.cols, ¬ (.pinf ∈ c.2 ∧ .ninf ∈ c.2)) :
    ∃ file, (writeSmet layout f md nodata "h" checkNan).file = some file ∧ (writeSmet layout f md nodata "h" checkNan).exn = none ∧
      (∃ header g, (∀ api : PandasApi, api.indexNameDel = true → readSmet api file "h" = .ok (header, g)) ∧ g.index = f.index ∧
        List.Forall₂ (fun a b => b.1 = a.1 ∧ List.Forall₂ (CellBack nodata) a.2 b.2) f.cols g.cols ∧
        (header.map Prod.fst).Nodup ∧ (∀ p ∈ md, p.1 ≠ "fields" → p.1 ≠ "units_multiplier" → p ∈ header) ∧
        ∀ p ∈ header, p.1 = "fields" ∨ p.1 = "units_multiplier" ∨ p ∈ md) ∧
      ∀ api : PandasApi, api.indexNameDel = false → readSmet (K := K) api file "h" = .error .attributeError := by
  obtain ⟨file, header, h1, h2, h3, h4, h5, h6⟩ := smet_round_trip layout hf hmd nodata (mode := "h") id (.inr ⟨rfl, rfl, rfl⟩) hourly_names
    (fun _ => rfl) checkNan hinf
  refine ⟨file, h1, h2, ⟨header, _, fun api ha => by rw [h3, if_pos ha], ?_, ?_, h4, h5, h6⟩, fun api ha => by rw [h3, ha]; rfl⟩
  · dsimp only
    conv_rhs => rw [← List.map_id f.index]
    refine List.map_congr_left fun t ht => ?_
    rw [if_neg (by decide), hmin t ht, sub_zero]
    rfl
  · rw [List.forall₂_map_right_iff]
    exact List.forall₂_same.2 fun c _ => ⟨rfl, cells_back nodata c.2⟩

/-- **C72.**  A daily frame written with mode 'd' and read with mode 'd' comes back with the columns tmin and tmax exchanged, whatever the data: the
names are swapped, the values stay in place (rounded to two decimals), the timestamps are the midnights of the days. -/
theorem C72_daily_exchange (layout : Nat → Nat → Nat) {f : Frame K} (hf : Writable codesD f) {md : Pairs} (hmd : Header md) (nodata : XF K)
    (checkNan : Bool) (hinf : checkNan = true → ∀ c ∈ f.cols, ¬ (.pinf ∈ c.2 ∧ .ninf ∈ c.2)) {tmin tmax : List (XF K)}
    (h1 : ("tmin", tmin) ∈ f.cols) (h2 : ("tmax", tmax) ∈ f.cols) :
    ∃ file, (writeSmet layout f md nodata "d" checkNan).file = some file ∧ (writeSmet layout f md nodata "d" checkNan).exn = none ∧
      ∃ header g, (∀ api : PandasApi, api.indexNameDel = true → readSmet api file "d" = .ok (header, g)) ∧
        g.index = f.index.map (fun t => midnight (dayOf t)) ∧
        List.Forall₂ (fun a b => b.1 = swapMinMax a.1 ∧ List.Forall₂ (CellBack nodata) a.2 b.2) f.cols g.cols ∧
        ∃ low high, ("tmax", low) ∈ g.cols ∧ List.Forall₂ (CellBack nodata) tmin low ∧ ("tmin", high) ∈ g.cols ∧
          List.Forall₂ (CellBack nodata) tmax high := by
  obtain ⟨file, header, e1, e2, e3, _⟩ := smet_round_trip layout hf hmd nodata (mode := "d") swapMinMax (.inl ⟨rfl, rfl, rfl⟩) daily_names
    swap_swap checkNan hinf
  refine ⟨file, e1, e2, header, _, fun api ha => by rw [e3, if_pos ha], ?_, ?_, tmin.map (back nodata), tmax.map (back nodata), ?_, cells_back _ _, ?_,
    cells_back _ _⟩
  · dsimp only
    refine List.map_congr_left fun t ht => ?_
    rw [if_pos rfl]
  · rw [List.forall₂_map_right_iff]
    exact List.forall₂_same.2 fun c _ => ⟨rfl, cells_back nodata c.2⟩
  · exact List.mem_map.2 ⟨_, h1, rfl⟩
  · exact List.mem_map.2 ⟨_, h2, rfl⟩

/-- **C73.**  `check_nan` makes no difference unless a column contains infinities of both signs; in particular columns without any value are written. -/
theorem C73_check_nan (layout : Nat → Nat → Nat) {f : Frame K} (h : ∀ c ∈ f.cols, ¬ (.pinf ∈ c.2 ∧ .ninf ∈ c.2)) (md : Pairs) (nodata : XF K)
    (mode : String) : writeSmet layout f md nodata mode true = writeSmet layout f md nodata mode false := by
  have hd : dropNan (renameCols writeD writeH mode f) = renameCols writeD writeH mode f := by
    refine dropNan_id fun c hc => ?_
    unfold renameCols at hc
    by_cases c1 : mode = "d"
    · rw [if_pos c1] at hc
      obtain ⟨c', hc', rfl⟩ := List.mem_map.1 hc
      exact h c' hc'
    · rw [if_neg c1] at hc
      by_cases c2 : mode = "h"
      · rw [if_pos c2] at hc
        obtain ⟨c', hc', rfl⟩ := List.mem_map.1 hc
        exact h c' hc'
      · rw [if_neg c2] at hc
        exact h c hc
  unfold writeSmet
  dsimp only
  rw [if_pos rfl, hd]
  rfl

/-- a column with infinities of both signs has no sum -/
theorem sumSkip_infinities {l : List (XF K)} (h1 : .pinf ∈ l) (h2 : .ninf ∈ l) : (sumSkip l).isNan = true := by
  have key : ∀ l : List (XF K), (.pinf ∈ l → sumCells l = .nan ∨ sumCells l = .pinf) ∧ (.ninf ∈ l → sumCells l = .nan ∨ sumCells l = .ninf) := by
    intro l
    induction l with
    | nil => exact ⟨fun h => (by cases h), fun h => (by cases h)⟩
    | cons x l ih =>
      have e : sumCells (x :: l) = x + sumCells l := rfl
      rw [e]
      constructor
      · intro h
        rcases List.mem_cons.1 h with rfl | h
        · cases sumCells l <;> first | exact .inl rfl | exact .inr rfl
        · rcases ih.1 h with hs | hs <;> rw [hs] <;> cases x <;> first | exact .inl rfl | exact .inr rfl
      · intro h
        rcases List.mem_cons.1 h with rfl | h
        · cases sumCells l <;> first | exact .inl rfl | exact .inr rfl
        · rcases ih.2 h with hs | hs <;> rw [hs] <;> cases x <;> first | exact .inl rfl | exact .inr rfl
  have hm1 : .pinf ∈ l.filter fun x => !x.isNan := List.mem_filter.2 ⟨h1, rfl⟩
  have hm2 : .ninf ∈ l.filter fun x => !x.isNan := List.mem_filter.2 ⟨h2, rfl⟩
  unfold sumSkip
  rcases (key _).1 hm1 with h | h
  · rw [h]; rfl
  · rcases (key _).2 hm2 with h' | h'
    · rw [h']; rfl
    · rw [h] at h'; cases h'

/-- C73: a column with infinities of both signs is the only kind of column that `check_nan` drops, and it does drop it: the columns listed in the
file are those without infinities of both signs. -/
theorem C73_dropped (layout : Nat → Nat → Nat) {f : Frame K} (hf : Writable codesH f) (md : Pairs) (nodata : XF K) (n : String) :
    (∃ v, ("fields", v) ∈ (writeSmet layout f md nodata "h" true).metadata ∧ n.toList ∈ words v.toList) ↔
      n = "timestamp" ∨ ∃ c ∈ f.cols, n = rename writeH c.1 ∧ ¬ (.pinf ∈ c.2 ∧ .ninf ∈ c.2) := by
  have hinj : ∀ a ∈ f.cols, ∀ b ∈ f.cols, rename writeH a.1 = rename writeH b.1 → a = b := by
    intro a ha b hb e
    have h' : a.1 = b.1 := by
      have := congrArg (rename readH) e
      rw [(hourly_names a.1 (hf.word a ha) (hf.codes a ha)).2.2, (hourly_names b.1 (hf.word b hb) (hf.codes b hb)).2.2] at this
      exact this
    exact List.inj_on_of_nodup_map hf.names ha hb h'
  have hdn : dropNan (renameCols writeD writeH "h" f) =
      ⟨f.index, (f.cols.filter fun c => !(sumSkip c.2).isNan).map fun c => (rename writeH c.1, c.2)⟩ := by
    have hr : renameCols writeD writeH "h" f = ⟨f.index, f.cols.map fun c => (rename writeH c.1, c.2)⟩ := by
      unfold renameCols
      rw [if_neg (by decide), if_pos rfl]
    rw [hr]
    unfold dropNan
    dsimp only
    congr 1
    rw [List.filter_map]
    congr 1
    refine List.filter_congr fun c hc => ?_
    have hiff : (sumSkip c.2).isNan = true ↔ rename writeH c.1 ∈ ((f.cols.map fun c => (rename writeH c.1, c.2)).map fun c => c.1).filter fun name =>
        !(((f.cols.map fun c => (rename writeH c.1, c.2)).filter fun c => !(sumSkip c.2).isNan).map fun c => c.1).contains name := by
      rw [List.mem_filter]
      constructor
      · intro hs
        refine ⟨by rw [List.map_map]; exact List.mem_map.2 ⟨c, hc, rfl⟩, ?_⟩
        rw [Bool.not_eq_true', ← Bool.not_eq_true, List.contains_iff_mem]
        intro hm
        obtain ⟨d, hd, e⟩ := List.mem_map.1 hm
        obtain ⟨hd1, hd2⟩ := List.mem_filter.1 hd
        obtain ⟨d', hd', rfl⟩ := List.mem_map.1 hd1
        have := hinj d' hd' c hc e
        subst this
        rw [hs] at hd2
        cases hd2
      · rintro ⟨_, hm⟩
        rw [Bool.not_eq_true', ← Bool.not_eq_true, List.contains_iff_mem] at hm
        by_contra hs
        exact hm (List.mem_map.2 ⟨(rename writeH c.1, c.2), List.mem_filter.2 ⟨List.mem_map.2 ⟨c, hc, rfl⟩, by simpa using hs⟩, rfl⟩)
    dsimp only [Function.comp]
    cases hs : (sumSkip c.2).isNan with
    | true =>
      have := List.contains_iff_mem.2 (hiff.1 hs)
      rw [this]
    | false =>
      have : ¬ _ := fun h => absurd (hiff.2 (List.contains_iff_mem.1 h)) (by rw [hs]; simp)
      rw [Bool.not_eq_true] at this
      rw [this]
  have hmem : ∀ c ∈ (f.cols.filter fun c => !(sumSkip c.2).isNan).map (fun c => (rename writeH c.1, c.2)), OneWord c.1 ∧ c.1 ≠ "timestamp" := by
    intro c hc
    obtain ⟨d, hd, rfl⟩ := List.mem_map.1 hc
    have hd' := (List.mem_filter.1 hd).1
    exact ⟨(hourly_names d.1 (hf.word d hd') (hf.codes d hd')).1, (hourly_names d.1 (hf.word d hd') (hf.codes d hd')).2.1⟩
  have hwr := written layout (f := f) (md := md) (nodata := nodata) (mode := "h") (.inr rfl) (checkNan := true)
    (g := ⟨f.index, (f.cols.filter fun c => !(sumSkip c.2).isNan).map fun c => (rename writeH c.1, c.2)⟩) (by rw [if_pos rfl]; exact hdn)
    (by
      intro hm
      obtain ⟨c, hc, e⟩ := List.mem_map.1 hm
      exact (hmem c hc).2 e)
    (fun c hc => (hmem c hc).1)
  rw [congrArg Written.metadata hwr]
  dsimp only
  set names := ((f.cols.filter fun c => !(sumSkip c.2).isNan).map fun c => (rename writeH c.1, c.2)).map fun c => c.1 with hnames
  have hwords : words (spaced ("timestamp".toList :: names.map String.toList)) = "timestamp".toList :: names.map String.toList := by
    refine words_spaced fun w hw => ?_
    rcases List.mem_cons.1 hw with rfl | hw
    · decide
    · obtain ⟨m, hm, rfl⟩ := List.mem_map.1 hw
      obtain ⟨c, hc, rfl⟩ := List.mem_map.1 hm
      have := oneWord_word (hmem c hc).1
      exact ⟨this.1, fun x hx => (this.2 x hx).1⟩
  have hv : ∀ v, ("fields", v) ∈ fileHeader md names ↔ v = String.ofList (spaced ("timestamp".toList :: names.map String.toList)) := by
    intro v
    constructor
    · intro h
      have h1 : ("fields", v) ∈ setItem md "fields" (String.ofList (spaced ("timestamp".toList :: names.map String.toList))) := by
        rcases mem_setItem h with h | h
        · exact absurd (congrArg Prod.fst h) (show "fields" ≠ "units_multiplier" by decide)
        · exact h
      unfold setItem at h1
      by_cases c : (md.any fun p => p.1 == "fields") = true
      · rw [if_pos c] at h1
        obtain ⟨q, _, e⟩ := List.mem_map.1 h1
        by_cases c' : (q.1 == "fields") = true
        · rw [if_pos c'] at e; exact (congrArg Prod.snd e).symm
        · rw [if_neg c'] at e
          rw [e] at c'
          exact absurd (by simp) c'
      · rw [if_neg c] at h1
        rcases List.mem_append.1 h1 with h2 | h2
        · exact absurd (List.any_eq_true.2 ⟨_, h2, by simp⟩) c
        · exact congrArg Prod.snd (List.mem_singleton.1 h2)
    · rintro rfl
      exact mem_setItem_ne (mem_setItem_self md _ _) (show "fields" ≠ "units_multiplier" by decide)
  constructor
  · rintro ⟨v, h1, h2⟩
    rw [hv] at h1
    rw [h1, String.toList_ofList (l := spaced _), hwords] at h2
    rcases List.mem_cons.1 h2 with h | h
    · exact .inl (String.toList_inj.1 h)
    · obtain ⟨m, hm, e⟩ := List.mem_map.1 h
      rw [String.toList_inj] at e
      subst e
      obtain ⟨c, hc, rfl⟩ := List.mem_map.1 hm
      obtain ⟨d, hd, rfl⟩ := List.mem_map.1 hc
      obtain ⟨hd1, hd2⟩ := List.mem_filter.1 hd
      exact .inr ⟨d, hd1, rfl, fun h => by rw [sumSkip_infinities h.1 h.2] at hd2; cases hd2⟩
  · intro h
    refine ⟨_, (hv _).2 rfl, ?_⟩
    rw [String.toList_ofList (l := spaced _), hwords]
    rcases h with rfl | ⟨c, hc, rfl, hi⟩
    · simp
    · refine List.mem_cons_of_mem _ (List.mem_map.2 ⟨_, List.mem_map.2 ⟨_, List.mem_map.2 ⟨c, List.mem_filter.2 ⟨hc, ?_⟩, rfl⟩, rfl⟩, rfl⟩)
      cases hs : (sumSkip c.2).isNan with
      | false => rfl
      | true => exact absurd (sumSkip_isNan hs) hi

/-- **C89.**  What `write_smet` leaves behind besides the file.  With mode 'd' or 'h' the caller's dict keeps its other entries and gets the column
names under `fields` and one `1` per column under `units_multiplier`.  With any other mode (and at least one row) the call raises an exception, the dict is
unchanged, and the file that was to be written is empty, even if it had content before. -/
theorem C89_effects (layout : Nat → Nat → Nat) {f : Frame K} {codes : List String} (hf : Writable codes f) (md : Pairs) (nodata : XF K)
    (checkNan : Bool) (hinf : checkNan = true → ∀ c ∈ f.cols, ¬ (.pinf ∈ c.2 ∧ .ninf ∈ c.2)) (mode : String) :
    ((mode = "d" ∧ codes = codesD ∨ mode = "h" ∧ codes = codesH) →
      (∀ p ∈ md, p.1 ≠ "fields" → p.1 ≠ "units_multiplier" → p ∈ (writeSmet layout f md nodata mode checkNan).metadata) ∧
      (∀ p ∈ (writeSmet layout f md nodata mode checkNan).metadata, p.1 = "fields" ∨ p.1 = "units_multiplier" ∨ p ∈ md) ∧
      (∃ F, ("fields", F) ∈ (writeSmet layout f md nodata mode checkNan).metadata ∧
        words F.toList = "timestamp".toList :: f.cols.map fun c => (rename (if mode = "d" then writeD else writeH) c.1).toList) ∧
      ∃ U, ("units_multiplier", U) ∈ (writeSmet layout f md nodata mode checkNan).metadata ∧
        words U.toList = List.replicate (f.cols.length + 1) ['1']) ∧
    (mode ≠ "d" → mode ≠ "h" → writeSmet layout f md nodata mode checkNan = ⟨some [], md, some .unboundLocalError⟩) := by
  constructor
  · intro hmode
    have hW : ∀ c ∈ f.cols, OneWord (rename (if mode = "d" then writeD else writeH) c.1) ∧ rename (if mode = "d" then writeD else writeH) c.1 ≠ "timestamp" := by
      intro c hc
      rcases hmode with ⟨rfl, rfl⟩ | ⟨rfl, rfl⟩
      · rw [if_pos rfl]
        have := daily_names c.1 (hf.word c hc) (hf.codes c hc)
        exact ⟨this.1, this.2.1⟩
      · rw [if_neg (by decide)]
        have := hourly_names c.1 (hf.word c hc) (hf.codes c hc)
        exact ⟨this.1, this.2.1⟩
    have hren : renameCols writeD writeH mode f = ⟨f.index, f.cols.map fun c => (rename (if mode = "d" then writeD else writeH) c.1, c.2)⟩ := by
      unfold renameCols
      rcases hmode with ⟨rfl, _⟩ | ⟨rfl, _⟩
      · rw [if_pos rfl, if_pos rfl]
      · rw [if_neg (by decide), if_pos rfl, if_neg (by decide)]
    have hg1 : (if checkNan then dropNan (renameCols writeD writeH mode f) else renameCols writeD writeH mode f) =
        ⟨f.index, f.cols.map fun c => (rename (if mode = "d" then writeD else writeH) c.1, c.2)⟩ := by
      rw [hren]
      cases checkNan with
      | false => rfl
      | true =>
        rw [if_pos rfl]
        refine dropNan_id fun c hc => ?_
        obtain ⟨c', hc', rfl⟩ := List.mem_map.1 hc
        exact hinf rfl c' hc'
    have hwr := written layout (md := md) (nodata := nodata) (mode := mode) (by rcases hmode with h | h; exact .inl h.1; exact .inr h.1) hg1
      (by
        intro hm
        obtain ⟨c, hc, e⟩ := List.mem_map.1 hm
        obtain ⟨c', hc', rfl⟩ := List.mem_map.1 hc
        exact (hW c' hc').2 e)
      (by
        intro c hc
        obtain ⟨c', hc', rfl⟩ := List.mem_map.1 hc
        exact (hW c' hc').1)
    rw [congrArg Written.metadata hwr]
    dsimp only
    rw [List.map_map]
    refine ⟨fun p hp h1 h2 => mem_setItem_ne (mem_setItem_ne hp h1) h2, fun p hp => ?_, ⟨_, mem_setItem_ne (mem_setItem_self md _ _)
      (show "fields" ≠ "units_multiplier" by decide), ?_⟩, ⟨_, mem_setItem_self _ _ _, ?_⟩⟩
    · rcases mem_setItem hp with h | h
      · exact .inr (.inl (congrArg Prod.fst h))
      · rcases mem_setItem h with h | h
        · exact .inl (congrArg Prod.fst h)
        · exact .inr (.inr h)
    · rw [String.toList_ofList (l := spaced _), words_spaced, List.map_map]
      · rfl
      · intro w hw
        rcases List.mem_cons.1 hw with rfl | hw
        · decide
        · obtain ⟨n, hn, rfl⟩ := List.mem_map.1 hw
          obtain ⟨c, hc, rfl⟩ := List.mem_map.1 hn
          have := oneWord_word (hW c hc).1
          exact ⟨this.1, fun x hx => (this.2 x hx).1⟩
    · rw [String.toList_ofList (l := List.flatten _), words_ones, List.length_map]
  · intro h1 h2
    unfold writeSmet
    dsimp only
    rw [if_pos]
    refine ⟨h1, h2, ?_⟩
    have hr : renameCols writeD writeH mode f = f := by unfold renameCols; rw [if_neg h1, if_neg h2]
    rw [hr]
    cases checkNan with
    | false => exact hf.rows
    | true => exact hf.rows

end

/-! ## examples -/

/-- two hours on 1 January 2020 with temperatures and a column without values -/
def smetFrame : Frame ℚ :=
  ⟨[1577836800000000, 1577840400000000], [("temp", [.fin (27315 / 100), .fin (-5 / 1000)]), ("wind", [.nan, .nan]), ("ssd", [.fin (-9990049 / 10000), .pinf])]⟩

theorem smetFrame_writable : Writable codesH smetFrame where
  wf := by decide
  rows := by decide
  names := by decide
  word := by decide
  codes := by decide
  years := by decide

def smetMeta : Pairs := [("station_id", "x 1"), ("nodata", "-999")]

theorem smetMeta_header : Header smetMeta where
  keys := by decide
  clean := by
    intro p hp
    simp only [smetMeta, List.mem_cons, List.not_mem_nil, or_false] at hp
    have ends : ∀ t : Text, (t.head?.all fun c => !isSpace c) = true → (t.getLast?.all fun c => !isSpace c) = true →
        (∀ c, t.head? = some c → isSpace c = false) ∧ ∀ c, t.getLast? = some c → isSpace c = false := by
      intro t h1 h2
      constructor
      · intro c hc; rw [hc] at h1; simpa using h1
      · intro c hc; rw [hc] at h2; simpa using h2
    rcases hp with rfl | rfl
    · exact ⟨⟨by decide, ends _ (by decide) (by decide)⟩, ⟨by decide, ends _ (by decide) (by decide)⟩⟩
    · exact ⟨⟨by decide, ends _ (by decide) (by decide)⟩, ⟨by decide, ends _ (by decide) (by decide)⟩⟩

/-- the file, in one layout -/
example : (writeSmet (fun _ _ => 0) smetFrame smetMeta).file = some
    ("SMET 1.1 ASCII\n[HEADER]\nstation_id = x 1\nnodata = -999\nfields = timestamp TA VW ssd\nunits_multiplier = 1 1 1 1 \n[DATA]\n" ++
      "2020-01-01T00:00 273.15 -999.00 -999.00\n2020-01-01T01:00 -0.00 -999.00 inf").toList := by decide +kernel

/-- the file read back: the column wind has no values, the third column has a missing value where -999.0049 was -/
example : okAnd (readSmet (K := ℚ) .legacy (((writeSmet (fun _ _ => 3) smetFrame smetMeta).file).getD []) "h") (fun r => r.2 = ⟨smetFrame.index,
    [("temp", [.fin (27315 / 100), .fin 0]), ("wind", [.nan, .nan]), ("ssd", [.nan, .pinf])]⟩ ∧
    r.1 = [("station_id", "x 1"), ("nodata", "-999"), ("fields", "timestamp TA VW ssd"), ("units_multiplier", "1 1 1 1")]) = true := by
  decide +kernel

/-- C71 applies to this frame -/
example (layout : Nat → Nat → Nat) : ∃ file, (writeSmet layout smetFrame smetMeta).file = some file ∧
    ∀ api : PandasApi, api.indexNameDel = false → readSmet (K := ℚ) api file "h" = .error .attributeError := by
  obtain ⟨file, h1, _, _, h2⟩ := C71_hourly_round_trip layout smetFrame_writable (by decide) smetMeta_header (.fin (-999)) true (fun _ => by decide)
  exact ⟨file, h1, h2⟩

/-- a header value with an odd number of quotation marks makes the reader skip the data: the hypothesis of C71 about quotation marks is needed -/
example : (readSmet (K := ℚ) .legacy (((writeSmet (fun _ _ => 0) smetFrame [("name", "6\"")]).file).getD []) "h") ≠
    readSmet (K := ℚ) .legacy (((writeSmet (fun _ _ => 0) smetFrame [("name", "6")]).file).getD []) "h" := by decide +kernel

/-- another code for missing values is read as a number -/
example : okAnd (readSmet (K := ℚ) .legacy (((writeSmet (fun _ _ => 0) smetFrame [] (.fin (-9999))).file).getD []) "h") (fun r =>
    r.2.cols = [("temp", [.fin (27315 / 100), .fin 0]), ("wind", [.fin (-9999), .fin (-9999)]), ("ssd", [.nan, .pinf])]) = true := by
  decide +kernel

/-- a frame without rows: the data section is not empty but a placeholder text of pandas -/
example : (writeSmet (fun _ _ => 0) (⟨[], [("temp", [])]⟩ : Frame ℚ) []).file = some
    ("SMET 1.1 ASCII\n[HEADER]\nfields = timestamp TA\nunits_multiplier = 1 1 \n[DATA]\nEmpty DataFrame\nColumns: [timestamp, TA]\nIndex: []").toList := by
  decide +kernel

/-- two days with a minimum and a maximum -/
def smetDaily : Frame ℚ := ⟨[1577836800000000, 1577923200000000], [("tmin", [.fin 1, .fin 2]), ("tmax", [.fin 3, .fin 4])]⟩

/-- C72: reading what was written exchanges the columns -/
example : okAnd (readSmet (K := ℚ) .legacy (((writeSmet (fun _ _ => 0) smetDaily [] (.fin (-999)) "d").file).getD []) "d") (fun r =>
    r.2 = ⟨smetDaily.index, [("tmax", [.fin 1, .fin 2]), ("tmin", [.fin 3, .fin 4])]⟩) = true := by
  decide +kernel

/-- C72 applies to it -/
example (layout : Nat → Nat → Nat) : ∃ file header, ∃ g : Frame ℚ, (writeSmet layout smetDaily [] (.fin (-999)) "d").file = some file ∧
    readSmet .legacy file "d" = .ok (header, g) ∧ ∃ low, ("tmax", low) ∈ g.cols ∧ List.Forall₂ (CellBack (.fin (-999))) [.fin 1, .fin 2] low := by
  obtain ⟨file, h1, _, header, g, h2, _, _, low, _, h3, h4, _⟩ := C72_daily_exchange layout (f := smetDaily) (md := [])
    ⟨by decide, by decide, by decide, by decide, by decide, by decide⟩ ⟨by decide, fun p hp => by cases hp⟩ (.fin (-999)) true (fun _ => by decide)
    (tmin := [.fin 1, .fin 2]) (tmax := [.fin 3, .fin 4]) (by decide) (by decide)
  exact ⟨file, header, g, h1, h2 _ rfl, low, h3, h4⟩

/-- C73: a column with both infinities is dropped, a column without values is not -/
example : (writeSmet (fun _ _ => 0) (⟨[1577836800000000, 1577840400000000], [("temp", [.pinf, .ninf]), ("wind", [.nan, .nan])]⟩ : Frame ℚ) []).metadata =
    [("fields", "timestamp VW"), ("units_multiplier", "1 1 ")] := by decide +kernel

/-- C89: an unknown mode -/
example (layout : Nat → Nat → Nat) : writeSmet layout smetFrame smetMeta (.fin (-999)) "m" = ⟨some [], smetMeta, some .unboundLocalError⟩ :=
  (C89_effects layout smetFrame_writable smetMeta (.fin (-999)) true (fun _ => by decide) "m").2 (by decide) (by decide)

end Melodist
