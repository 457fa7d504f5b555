import Verif.Spec.DwdMeta
import Verif.Lemmas.DataIO

/-!
# Helper lemmas for the DWD metadata file
-/

set_option linter.unusedSectionVars false

namespace Melodist.DataIO

open Text Spec

variable {K : Type} [Field K] [LinearOrder K] [IsStrictOrderedRing K]

/-- like `csvTable_eq`, rows may be shorter than the header -/
theorem csvTable_le {sep : Char} {hdr : List Text} {rows : List (List Text)} (hsep : sep ≠ '"') (hne : hdr ≠ [])
    (hh : ∀ x ∈ hdr, sep ∉ x ∧ '"' ∉ x) (hr : ∀ r ∈ rows, r ≠ [] ∧ r.length ≤ hdr.length ∧ ∀ x ∈ r, sep ∉ x ∧ '"' ∉ x)
    (hnd : (hdr.map fun x => String.ofList x).Nodup) :
    csvTable sep id (joined sep hdr :: rows.map (joined sep)) = .ok ⟨hdr.map fun x => String.ofList x, rows⟩ := by
  unfold csvTable
  dsimp only
  have e1 : splitBy (· == sep) (joined sep hdr) = hdr := splitBy_joined hne fun x hx => (hh x hx).1
  have e2 : ((rows.map (joined sep)).map fun l => (splitBy (· == sep) l).map id) = rows := by
    rw [List.map_map]
    conv_rhs => rw [← List.map_id rows]
    refine List.map_congr_left fun r hr' => ?_
    show (splitBy (· == sep) (joined sep r)).map id = _
    rw [splitBy_joined (hr r hr').1 fun x hx => ((hr r hr').2.2 x hx).1, List.map_id]
    rfl
  rw [e1, e2, if_neg]
  · rfl
  rintro (h | h | h)
  · exact h hnd
  · obtain ⟨r, hr', hlt⟩ := List.any_eq_true.1 h
    have := (hr r hr').2.1
    simp at hlt
    omega
  · obtain ⟨l, hl, hq⟩ := List.any_eq_true.1 h
    have hq : '"' ∈ l := by simpa using hq
    rcases List.mem_cons.1 hl with rfl | hl
    · rcases mem_joined hq with e | ⟨x, hx, hc⟩
      · exact hsep e.symm
      · exact (hh x hx).2 hc
    · obtain ⟨r, hr', rfl⟩ := List.mem_map.1 hl
      rcases mem_joined hq with e | ⟨x, hx, hc⟩
      · exact hsep e.symm
      · exact ((hr r hr').2.2 x hx).2 hc

theorem stripName_eq {s name : String} : stripName s = name ↔ Named name s := by
  unfold stripName Named
  constructor
  · rintro rfl; rw [String.toList_ofList]
  · intro h; rw [h, String.ofList_toList]

theorem stripped_nodup {names : List String} (h : (names.map fun n => strip n.toList).Nodup) : (names.map stripName).Nodup := by
  have : names.map stripName = (names.map fun n => strip n.toList).map String.ofList := by rw [List.map_map]; rfl
  rw [this]
  exact h.map_on (f := String.ofList) fun x _ y _ e => String.ofList_injective e

theorem meta_table {names : List String} {rows : List (List Text)} (h : MetaText names rows) :
    csvTable ';' id (csvLines (univ (metaFile names rows))) = .ok ⟨names, rows⟩ := by
  obtain ⟨n0, hn0, c0, hc0, hb0⟩ := h.names_nonblank
  have hchars : ∀ l ∈ joined ';' (names.map String.toList) :: rows.map (joined ';'), ∀ c ∈ l, c ≠ '\n' ∧ c ≠ '\r' := by
    intro l hl c hc
    have hs : c = ';' → c ≠ '\n' ∧ c ≠ '\r' := by rintro rfl; decide
    rcases List.mem_cons.1 hl with rfl | hl
    · rcases mem_joined hc with e | ⟨x, hx, hc⟩
      · exact hs e
      · obtain ⟨n, hn, rfl⟩ := List.mem_map.1 hx
        exact ⟨(h.names_plain n hn c hc).2.1, (h.names_plain n hn c hc).2.2.1⟩
    · obtain ⟨r, hr, rfl⟩ := List.mem_map.1 hl
      rcases mem_joined hc with e | ⟨x, hx, hc⟩
      · exact hs e
      · exact ⟨((h.rows_plain r hr x hx).1 c hc).2.1, ((h.rows_plain r hr x hx).1 c hc).2.2.1⟩
  unfold metaFile
  rw [univ_id]
  · rw [csvLines_textOf (fun l hl hc => (hchars l hl _ hc).1 rfl)]
    · have e := csvTable_le (sep := ';') (hdr := names.map String.toList) (rows := rows) (by decide)
        (by
          intro e
          rw [List.map_eq_nil_iff] at e
          rw [e] at hn0
          cases hn0)
        (by
          intro x hx
          obtain ⟨n, hn, rfl⟩ := List.mem_map.1 hx
          exact ⟨fun hc => (h.names_plain n hn _ hc).1 rfl, fun hc => (h.names_plain n hn _ hc).2.2.2 rfl⟩)
        (by
          intro r hr
          refine ⟨(h.rows_short r hr).1, by simpa using (h.rows_short r hr).2, fun x hx => ?_⟩
          exact ⟨fun hc => ((h.rows_plain r hr x hx).1 _ hc).1 rfl, fun hc => ((h.rows_plain r hr x hx).1 _ hc).2.2.2 rfl⟩)
      have e1 : ((names.map String.toList).map fun x => String.ofList x) = names := by
        rw [List.map_map]
        conv_rhs => rw [← List.map_id names]
        exact List.map_congr_left fun n _ => String.ofList_toList
      rw [e1] at e
      refine e ?_
      exact List.Nodup.of_map _ (stripped_nodup h.names_differ)
    · intro l hl
      rcases List.mem_cons.1 hl with rfl | hl
      · exact ⟨c0, joined_mem (List.mem_map.2 ⟨n0, hn0, rfl⟩) hc0, hb0⟩
      · obtain ⟨r, hr, rfl⟩ := List.mem_map.1 hl
        exact h.rows_nonblank r hr
  · intro hc
    unfold textOf at hc
    obtain ⟨l', hl', hc⟩ := List.mem_flatten.1 hc
    obtain ⟨l, hl, rfl⟩ := List.mem_map.1 hl'
    rcases List.mem_append.1 hc with hc | hc
    · exact (hchars l hl _ hc).2 rfl
    · simp at hc

theorem lastValid_append {pre post : List (List Text)} {r : List Text} (hr : ∃ t ∈ r, t ≠ []) (hpost : ∀ p ∈ post, ∀ t ∈ p, t = []) :
    lastValid (pre ++ r :: post) = some pre.length := by
  unfold lastValid
  have hlen : (pre ++ r :: post).length = (pre.length + 1) + post.length := by simp; omega
  rw [hlen, List.range_add, List.filter_append, List.getLast?_append]
  have e2 : ((List.range post.length).map fun x => pre.length + 1 + x).filter
      (fun i => ((pre ++ r :: post).getD i []).any fun t => !t.isEmpty) = [] := by
    rw [List.filter_eq_nil_iff]
    intro i hi
    obtain ⟨j, hj, rfl⟩ := List.mem_map.1 hi
    have hj := List.mem_range.1 hj
    have e : (pre ++ r :: post).getD (pre.length + 1 + j) [] = post[j] := by
      rw [List.getD_eq_getElem?_getD, List.getElem?_append_right (by omega), show pre.length + 1 + j - pre.length = j + 1 by omega,
        List.getElem?_cons_succ, List.getElem?_eq_getElem hj]
      rfl
    rw [e]
    intro ha
    obtain ⟨t, ht, hte⟩ := List.any_eq_true.1 ha
    rw [hpost _ (List.getElem_mem hj) t ht] at hte
    cases hte
  rw [e2, List.range_succ, List.filter_append]
  have e3 : ([pre.length].filter fun i => ((pre ++ r :: post).getD i []).any fun t => !t.isEmpty) = [pre.length] := by
    rw [List.filter_eq_self]
    intro i hi
    obtain rfl := List.mem_singleton.1 hi
    have e : (pre ++ r :: post).getD pre.length [] = r := by
      rw [List.getD_eq_getElem?_getD, List.getElem?_append_right (by omega), Nat.sub_self]
      rfl
    rw [e]
    obtain ⟨t, ht, hne⟩ := hr
    exact List.any_eq_true.2 ⟨t, ht, by cases t with | nil => exact absurd rfl hne | cons a b => rfl⟩
  rw [e3]
  simp

theorem lastValid_none {rows : List (List Text)} (h : ∀ p ∈ rows, ∀ t ∈ p, t = []) : lastValid rows = none := by
  unfold lastValid
  rw [List.getLast?_eq_none_iff, List.filter_eq_nil_iff]
  intro i hi ha
  have hi := List.mem_range.1 hi
  obtain ⟨t, ht, hte⟩ := List.any_eq_true.1 ha
  rw [List.getD_eq_getElem?_getD, List.getElem?_eq_getElem hi] at ht
  rw [h _ (List.getElem_mem hi) t ht] at hte
  cases hte

/-- a number has no letter that occurs in no number -/
theorem digit_letter (k : Nat) (hk : k < 10) : textLetter (digit k) = false := by
  have : ∀ k : Fin 10, textLetter (digit k.val) = false := by decide
  exact this ⟨k, hk⟩

theorem toNatAux_letters : ∀ {t : Text} {acc n : Nat}, toNatAux acc t = some n → ∀ c ∈ t, textLetter c = false
  | [], _, _, _, c, hc => by cases hc
  | d :: t, acc, n, h, c, hc => by
    unfold toNatAux at h
    cases hd : digit? d with
    | none => rw [hd] at h; cases h
    | some m =>
      rw [hd] at h
      rcases List.mem_cons.1 hc with rfl | hc
      · unfold digit? at hd
        split at hd
        · rename_i hr
          unfold textLetter Char.isAlpha Char.isUpper Char.isLower
          rw [Bool.and_eq_false_iff]
          left
          have h1 : c.val.toNat ≤ 57 := hr.2
          simp only [ge_iff_le, Bool.or_eq_false_iff, Bool.and_eq_false_iff, decide_eq_false_iff_not]
          constructor
          · rintro ⟨h, _⟩
            have := UInt32.le_iff_toNat_le.1 h
            simp at this
            omega
          · left
            intro h
            have := UInt32.le_iff_toNat_le.1 h
            simp at this
            omega
        · cases hd
      · exact toNatAux_letters h c hc

theorem toNat_letters {t : Text} {n : Nat} (h : toNat? t = some n) : ∀ c ∈ t, textLetter c = false := by
  unfold toNat? at h
  split at h
  · cases h
  · exact toNatAux_letters h

/-- every character is a separator or in one of the pieces -/
theorem mem_splitBy {p : Char → Bool} {c : Char} : ∀ {t : Text}, c ∈ t → p c = true ∨ ∃ w ∈ splitBy p t, c ∈ w
  | d :: t, hc => by
    unfold splitBy
    rcases List.mem_cons.1 hc with rfl | hc
    · by_cases hp : p c = true
      · exact .inl hp
      · rw [if_neg hp]
        right
        cases splitBy p t with
        | nil => exact ⟨[c], List.mem_singleton_self _, List.mem_singleton_self _⟩
        | cons w ws => exact ⟨c :: w, List.mem_cons_self .., List.mem_cons_self ..⟩
    · rcases mem_splitBy (p := p) hc with h | ⟨w, hw, hcw⟩
      · exact .inl h
      · right
        by_cases hp : p d = true
        · rw [if_pos hp]
          exact ⟨w, List.mem_cons_of_mem _ hw, hcw⟩
        · rw [if_neg hp]
          cases e : splitBy p t with
          | nil => rw [e] at hw; cases hw
          | cons w' ws =>
            rw [e] at hw
            rcases List.mem_cons.1 hw with rfl | hw
            · exact ⟨d :: w, List.mem_cons_self .., List.mem_cons_of_mem _ hcw⟩
            · exact ⟨w, List.mem_cons_of_mem _ hw, hcw⟩

theorem unsigned_letters {t : Text} {v : XF K} (h : unsigned? t = some v) : ∀ c ∈ t, textLetter c = false := by
  intro c hc
  unfold unsigned? at h
  split at h
  · rename_i e
    rw [e] at hc
    revert c
    decide
  · have hp := mem_splitBy (p := (· == '.')) hc
    rcases hp with hp | ⟨w, hw, hcw⟩
    · have : c = '.' := by simpa using hp
      rw [this]
      decide
    · split at h
      · rename_i a ea
        rw [ea] at hw
        obtain rfl := List.mem_singleton.1 hw
        cases e : toNat? w with
        | none => rw [e] at h; cases h
        | some n => exact toNat_letters e c hcw
      · rename_i a b eab
        rw [eab] at hw
        cases ea : toNat? a with
        | none => rw [ea] at h; cases h
        | some n =>
          cases eb : toNat? b with
          | none => rw [ea, eb] at h; cases h
          | some m =>
            rcases List.mem_cons.1 hw with rfl | hw
            · exact toNat_letters ea c hcw
            · obtain rfl := List.mem_singleton.1 hw
              exact toNat_letters eb c hcw
      · cases h

theorem number_letters {t : Text} {v : XF K} (h : number? t = some v) : ∀ c ∈ t, textLetter c = false := by
  intro c hc
  unfold number? at h
  split at h
  · rename_i r
    rcases List.mem_cons.1 hc with rfl | hc
    · decide
    · cases e : (unsigned? r : Option (XF K)) with
      | none => rw [e] at h; cases h
      | some w => exact unsigned_letters e c hc
  · split at h
    · rename_i e
      rw [e] at hc
      revert c
      decide
    · exact unsigned_letters h c hc

theorem space_letter {c : Char} (h : isSpace c = true) : textLetter c = false := by
  by_contra hn
  have hn : textLetter c = true := by simpa using hn
  unfold textLetter at hn
  rw [Bool.and_eq_true] at hn
  have ha := hn.1
  unfold Char.isAlpha Char.isUpper Char.isLower at ha
  simp only [ge_iff_le, Bool.or_eq_true, Bool.and_eq_true, decide_eq_true_eq] at ha
  have e : c.toNat = c.val.toNat := rfl
  have hr : (65 ≤ c.toNat ∧ c.toNat ≤ 90) ∨ (97 ≤ c.toNat ∧ c.toNat ≤ 122) := by
    rw [e]
    rcases ha with ⟨h1, h2⟩ | ⟨h1, h2⟩
    · have a := UInt32.le_iff_toNat_le.1 h1
      have b := UInt32.le_iff_toNat_le.1 h2
      simp at a b
      exact .inl ⟨a, b⟩
    · have a := UInt32.le_iff_toNat_le.1 h1
      have b := UInt32.le_iff_toNat_le.1 h2
      simp at a b
      exact .inr ⟨a, b⟩
  unfold isSpace at h
  simp only [Bool.or_eq_true, Bool.and_eq_true, decide_eq_true_eq, beq_iff_eq] at h
  omega

theorem mem_dropWhile_or {p : Char → Bool} {c : Char} : ∀ {t : Text}, c ∈ t → p c = true ∨ c ∈ t.dropWhile p
  | d :: t, hc => by
    by_cases hp : p d = true
    · rw [List.dropWhile_cons_of_pos hp]
      rcases List.mem_cons.1 hc with rfl | hc
      · exact .inl hp
      · exact mem_dropWhile_or hc
    · rw [List.dropWhile_cons_of_neg hp]
      exact .inr hc

theorem mem_strip_or {t : Text} {c : Char} (hc : c ∈ t) : isSpace c = true ∨ c ∈ strip t := by
  unfold strip
  rcases mem_dropWhile_or (p := isSpace) hc with h | h
  · exact .inl h
  · rcases mem_dropWhile_or (p := isSpace) (List.mem_reverse.2 h) with h | h
    · exact .inl h
    · exact .inr (List.mem_reverse.2 h)

theorem numbers_letter {col : List Text} (h : ∃ t ∈ col, ∃ c ∈ t, textLetter c = true) : numbers? (K := K) none col = none := by
  obtain ⟨t, ht, c, hc, hl⟩ := h
  unfold numbers?
  induction col with
  | nil => cases ht
  | cons a l ih =>
    rw [List.mapM_cons]
    rcases List.mem_cons.1 ht with rfl | ht
    · have e : (number? (strip t) : Option (XF K)) = none := by
        cases e : (number? (strip t) : Option (XF K)) with
        | none => rfl
        | some v =>
          rcases mem_strip_or hc with hs | hs
          · rw [space_letter hs] at hl; cases hl
          · rw [number_letters e c hs] at hl; cases hl
      rw [e, if_neg (by rintro rfl; cases hc)]
      rfl
    · rw [ih ht]
      cases (if a = [] then some XF.nan else Option.map (fun v => v) (number? (strip a)) : Option (XF K)) <;> rfl

theorem strip_numeral (x : Numeral) : strip x.text = x.text := by
  have h := (numeral_chars x).2
  have hd : ∀ l : Text, (∀ c ∈ l, isSpace c = false) → l.dropWhile isSpace = l := by
    intro l hl
    cases l with
    | nil => rfl
    | cons a b => exact List.dropWhile_cons_of_neg (by rw [hl a (List.mem_cons_self ..)]; simp)
  unfold strip
  rw [hd _ fun c hc => (h c hc).1, hd _ fun c hc => (h c (List.mem_reverse.1 hc)).1, List.reverse_reverse]

/-- the number in a field -/
noncomputable def fieldNumber (t : Text) : XF K := if t = [] then .nan else (number? (strip t)).getD .nan

theorem fieldNumber_padded (k : Nat) (x : Numeral) : fieldNumber (K := K) (padded k x.text) = .fin x.value := by
  unfold fieldNumber
  have hne : padded k x.text ≠ [] := by
    unfold padded
    intro e
    exact (numeral_chars x).1 (List.append_eq_nil_iff.1 e).2
  rw [if_neg hne, strip_padded, strip_numeral, number_numeral]
  rfl

theorem numbers_pure {col : List Text} (h : ∀ t ∈ col, IsNumberField t) : numbers? (K := K) none col = some (col.map fieldNumber) := by
  unfold numbers?
  refine mapM_some fun t ht => ?_
  rcases h t ht with rfl | ⟨k, x, rfl⟩
  · rfl
  · rw [fieldNumber_padded]
    have hne : padded k x.text ≠ [] := by
      unfold padded
      intro e
      exact (numeral_chars x).1 (List.append_eq_nil_iff.1 e).2
    rw [if_neg hne, strip_padded, strip_numeral, number_numeral]
    rfl

theorem metaCell_reads {rows : List (List Text)} {j k : Nat} (hk : k < rows.length) (h : PureColumn rows j) :
    ∃ v : MetaCell K, metaCell (nthColumn rows j) k = .ok v ∧ Reads rows j rows[k] v := by
  have hget : (nthColumn rows j).getD k [] = fieldAt rows[k] j := by
    unfold nthColumn
    rw [List.getD_eq_getElem?_getD, List.getElem?_map, List.getElem?_eq_getElem hk]
    rfl
  unfold metaCell
  rcases h with h | ⟨r, hr, c, hc, hl⟩
  · rw [numbers_pure (K := K) (col := nthColumn rows j) (by
      intro t ht
      obtain ⟨r, hr, rfl⟩ := List.mem_map.1 ht
      exact h r hr)]
    dsimp only
    have e : (List.map (fieldNumber (K := K)) (nthColumn rows j)).getD k .nan = fieldNumber (fieldAt rows[k] j) := by
      rw [List.getD_eq_getElem?_getD, List.getElem?_map]
      unfold nthColumn
      rw [List.getElem?_map, List.getElem?_eq_getElem hk]
      rfl
    rw [e]
    rcases h _ (List.getElem_mem hk) with h0 | ⟨n, x, h0⟩
    · rw [h0]
      exact ⟨.missing, rfl, .inl ⟨h0, rfl⟩⟩
    · rw [h0, fieldNumber_padded]
      exact ⟨.number (.fin x.value), rfl, .inr (.inl ⟨n, x, h0, h, rfl⟩)⟩
  · rw [numbers_letter (K := K) (col := nthColumn rows j) ⟨fieldAt r j, List.mem_map.2 ⟨r, hr, rfl⟩, c, hc, hl⟩]
    dsimp only
    have hany : ((nthColumn rows j).any fun t => t.any textLetter) = true :=
      List.any_eq_true.2 ⟨fieldAt r j, List.mem_map.2 ⟨r, hr, rfl⟩, List.any_eq_true.2 ⟨c, hc, hl⟩⟩
    rw [if_pos hany, hget]
    by_cases h0 : fieldAt rows[k] j = []
    · exact ⟨.missing, by rw [if_pos h0], .inl ⟨h0, rfl⟩⟩
    · exact ⟨.text (fieldAt rows[k] j), by rw [if_neg h0], .inr (.inr ⟨h0, ⟨r, hr, c, hc, hl⟩, rfl⟩)⟩

end Melodist.DataIO
