import Verif.Model.DataIO
import Verif.Spec.DataIO
import Verif.Lemmas.Text
import Verif.Lemmas.Humidity

/-!
# Helper lemmas for the KNMI and DWD readers
-/

set_option linter.unusedSectionVars false

namespace Melodist.DataIO

open Text Spec

theorem splitBy_joined {sep : Char} : ∀ {l : List Text}, l ≠ [] → (∀ x ∈ l, sep ∉ x) → splitBy (· == sep) (joined sep l) = l
  | [], h, _ => absurd rfl h
  | [x], _, h => by
    unfold joined
    exact splitBy_none fun c hc => by
      have : c ≠ sep := fun e => h x (by simp) (e ▸ hc)
      simpa using this
  | x :: y :: r, _, h => by
    have ih := splitBy_joined (sep := sep) (l := y :: r) (by simp) (fun z hz => h z (by simp [hz]))
    unfold joined
    rw [splitBy_sep (by simp) _ (fun c hc => by
      have : c ≠ sep := fun e => h x (by simp) (e ▸ hc)
      simpa using this), ih]

theorem mem_joined {sep c : Char} : ∀ {l : List Text}, c ∈ joined sep l → c = sep ∨ ∃ x ∈ l, c ∈ x
  | [], h => by cases h
  | [x], h => .inr ⟨x, by simp, h⟩
  | x :: y :: r, h => by
    unfold joined at h
    rw [List.mem_append, List.mem_cons] at h
    rcases h with h | h | h
    · exact .inr ⟨x, by simp, h⟩
    · exact .inl h
    · rcases mem_joined h with h | ⟨z, hz, h⟩
      · exact .inl h
      · exact .inr ⟨z, by simp [hz], h⟩

theorem joined_mem {sep c : Char} : ∀ {l : List Text} {x : Text}, x ∈ l → c ∈ x → c ∈ joined sep l
  | [], _, h, _ => by cases h
  | [y], x, h, hc => by
    obtain rfl : x = y := by simpa using h
    exact hc
  | y :: z :: r, x, h, hc => by
    unfold joined
    rw [List.mem_append, List.mem_cons]
    rcases List.mem_cons.1 h with rfl | h
    · exact .inl hc
    · exact .inr (.inr (joined_mem h hc))

theorem textOf_eq (ls : List Text) : textOf ls = ended ls := rfl

theorem notBlank {l : Text} {c : Char} (hc : c ∈ l) (hb : isBlank c = false) : (!(l.dropWhile isBlank).isEmpty) = true := by
  have := mem_dropWhile hb hc
  cases h : List.dropWhile isBlank l with
  | nil => rw [h] at this; cases this
  | cons a b => rfl

theorem csvLines_textOf {ls : List Text} (h : ∀ l ∈ ls, '\n' ∉ l) (hb : ∀ l ∈ ls, ∃ c ∈ l, isBlank c = false) :
    csvLines (textOf ls) = ls := by
  unfold csvLines
  have := splitBy_ended [] h
  rw [List.append_nil] at this
  rw [textOf_eq, this, List.filter_append]
  have e1 : (splitBy (· == '\n') ([] : Text)).filter (fun l => !(l.dropWhile isBlank).isEmpty) = [] := by decide
  rw [e1, List.append_nil, List.filter_eq_self]
  intro l hl
  obtain ⟨c, hc, hbc⟩ := hb l hl
  exact notBlank hc hbc

theorem dropWhile_padded {n : Nat} {t : Text} (h : ∀ c, t.head? = some c → isBlank c = false) : (padded n t).dropWhile isBlank = t := by
  unfold padded
  induction n with
  | zero =>
    cases t with
    | nil => rfl
    | cons c cs => rw [List.replicate_zero, List.nil_append, List.dropWhile_cons, h c rfl]; rfl
  | succ n ih =>
    rw [List.replicate_succ, List.cons_append, List.dropWhile_cons, show isBlank ' ' = true by decide]
    exact ih

theorem strip_padded {n : Nat} {t : Text} : strip (padded n t) = strip t := by
  unfold padded
  induction n with
  | zero => rfl
  | succ n ih => rw [List.replicate_succ, List.cons_append, strip_cons (by decide), ih]

theorem mem_padded {n : Nat} {t : Text} {c : Char} (h : c ∈ padded n t) : c = ' ' ∨ c ∈ t := by
  unfold padded at h
  rcases List.mem_append.1 h with h | h
  · exact .inl (List.mem_replicate.1 h).2
  · exact .inr h

theorem getD_idxOf {α β : Type} [BEq α] [LawfulBEq α] (g : α → β) (d : β) : ∀ {l : List α} {a : α}, a ∈ l → (l.map g).getD (l.idxOf a) d = g a
  | [], _, h => by cases h
  | b :: l, a, h => by
    by_cases e : b = a
    · subst e
      rw [List.idxOf_cons_self]; rfl
    · rw [List.idxOf_cons_ne _ e, List.map_cons, List.getD_cons_succ]
      exact getD_idxOf g d (by rcases List.mem_cons.1 h with h | h; exact absurd h.symm e; exact h)

/-! ## numerals -/

theorem toNatAux_digits : ∀ (l : List (Fin 10)) (acc : Nat), toNatAux acc (l.map fun d => digit d.val) = some (l.foldl (fun n d => 10 * n + d.val) acc)
  | [], _ => rfl
  | d :: l, acc => by
    rw [List.map_cons, List.foldl_cons]
    unfold toNatAux
    rw [(digit_spec d.val d.isLt).1]
    exact toNatAux_digits l _

section number
variable {K : Type} [Field K] [LinearOrder K] [IsStrictOrderedRing K]

theorem digit_head {n : Nat} : ∃ k < 10, ∃ r, ofNat n = digit k :: r := by
  cases h : ofNat n with
  | nil => exact absurd h (ofNatAux_ne_nil n n)
  | cons c r =>
    obtain ⟨k, hk, rfl⟩ := ofNat_digits n c (by rw [h]; simp)
    exact ⟨k, hk, r, rfl⟩

theorem unsigned_numeral (w : Nat) (l : List (Fin 10)) :
    (unsigned? (ofNat w ++ if l = [] then [] else '.' :: l.map fun d => digit d.val) : Option (XF K)) =
      some (.fin ((w : K) + ((l.foldl (fun (n : Nat) d => 10 * n + d.val) 0 : Nat) : K) / 10 ^ l.length)) := by
  have hnd : ∀ c ∈ ofNat w, (c == '.') = false := fun c hc => by
    obtain ⟨k, hk, rfl⟩ := ofNat_digits w c hc
    simpa using (digit_spec k hk).2.2.1
  have hinf : ∀ t : Text, ofNat w ++ t ≠ ['i', 'n', 'f'] := by
    intro t e
    obtain ⟨k, hk, r, h⟩ := digit_head (n := w)
    rw [h, List.cons_append] at e
    exact (digit_spec k hk).2.2.2.2.2.1 (List.cons.inj e).1
  unfold unsigned?
  rw [if_neg (hinf _)]
  by_cases hl : l = []
  · subst hl
    rw [if_pos rfl, List.append_nil, splitBy_none hnd]
    dsimp only
    rw [toNat_ofNat]
    simp
  · rw [if_neg hl, splitBy_sep (by rfl) _ hnd, splitBy_none (fun c hc => by
      obtain ⟨d, _, rfl⟩ := List.mem_map.1 hc
      simpa using (digit_spec d.val d.isLt).2.2.1)]
    dsimp only
    have h2 : toNat? (l.map fun d => digit d.val) = some (l.foldl (fun (n : Nat) d => 10 * n + d.val) 0) := by
      unfold toNat?
      rw [if_neg (by simpa using hl), toNatAux_digits]
    rw [toNat_ofNat, h2]
    dsimp only
    rw [List.length_map]

theorem number_numeral (x : Numeral) : (number? x.text : Option (XF K)) = some (.fin x.value) := by
  obtain ⟨neg, w, l⟩ := x
  unfold Numeral.text Numeral.value
  dsimp only
  cases neg with
  | true =>
    rw [if_pos rfl, if_pos rfl, List.append_assoc, List.cons_append, List.nil_append, number_minus, unsigned_numeral]
    rfl
  | false =>
    simp only [Bool.false_eq_true, if_false, List.nil_append]
    rw [← unsigned_numeral w l]
    obtain ⟨k, hk, r, h⟩ := digit_head (n := w)
    rw [h, List.cons_append]
    exact number_digit hk _

theorem numeral_chars (x : Numeral) : x.text ≠ [] ∧ ∀ c ∈ x.text, isSpace c = false ∧ c ≠ ',' ∧ c ≠ ';' ∧ c ≠ '\n' ∧ c ≠ '\r' ∧ c ≠ '"' := by
  have hd : ∀ k < 10, isSpace (digit k) = false ∧ digit k ≠ ',' ∧ digit k ≠ ';' ∧ digit k ≠ '\n' ∧ digit k ≠ '\r' ∧ digit k ≠ '"' := by
    intro k hk
    have : ∀ k : Fin 10, isSpace (digit k.val) = false ∧ digit k.val ≠ ',' ∧ digit k.val ≠ ';' ∧ digit k.val ≠ '\n' ∧ digit k.val ≠ '\r' ∧ digit k.val ≠ '"' := by decide
    exact this ⟨k, hk⟩
  unfold Numeral.text
  constructor
  · intro e
    obtain ⟨k, hk, r, h⟩ := digit_head (n := x.whole)
    rw [h] at e
    simp at e
  · intro c hc
    rw [List.mem_append, List.mem_append] at hc
    rcases hc with (hc | hc) | hc
    · split at hc
      · rw [List.mem_singleton] at hc; subst hc; decide
      · cases hc
    · obtain ⟨k, hk, rfl⟩ := ofNat_digits _ c hc
      exact hd k hk
    · split at hc
      · cases hc
      · rcases List.mem_cons.1 hc with rfl | hc
        · decide
        · obtain ⟨d, _, rfl⟩ := List.mem_map.1 hc
          exact hd d.val d.isLt

end number

/-! ## dates -/

theorem ymd_parts {day : Int} (h : FourDigitYear day) :
    date ((ymd day).take 4) (((ymd day).drop 4).take 2) (((ymd day).drop 6).take 2) = .ok day ∧ (ymd day).length = 8 := by
  obtain ⟨h1, h2⟩ := h
  have hb := civil_bounds day
  have hy : ofNat (civil day).1.toNat = two ((civil day).1.toNat / 100) ++ two ((civil day).1.toNat % 100) := ofNat_four (by omega) (by omega)
  have ey : toNat? (two ((civil day).1.toNat / 100) ++ two ((civil day).1.toNat % 100)) = some (civil day).1.toNat := by
    rw [← hy]; exact toNat_ofNat _
  have em : toNat? (two (civil day).2.1.toNat) = some (civil day).2.1.toNat := toNat_two (by omega)
  have ed : toNat? (two (civil day).2.2.toNat) = some (civil day).2.2.toNat := toNat_two (by omega)
  unfold ymd
  rw [hy]
  have t2 : ∀ n, two n = [digit (n / 10), digit (n % 10)] := fun _ => rfl
  constructor
  · have e1 : ∀ a b c d : Nat, ((two a ++ two b ++ two c ++ two d).take 4) = two a ++ two b := fun _ _ _ _ => rfl
    have e2 : ∀ a b c d : Nat, (((two a ++ two b ++ two c ++ two d).drop 4).take 2) = two c := fun _ _ _ _ => rfl
    have e3 : ∀ a b c d : Nat, (((two a ++ two b ++ two c ++ two d).drop 6).take 2) = two d := fun _ _ _ _ => rfl
    rw [e1, e2, e3]
    unfold date
    rw [ey, em, ed]
    dsimp only
    rw [Int.toNat_of_nonneg (by omega), Int.toNat_of_nonneg (by omega), Int.toNat_of_nonneg (by omega)]
    have := daysFromCivil_civil day
    rw [this, if_pos ⟨rfl, by omega⟩]
  · rfl

theorem ymd_chars {day : Int} (h : FourDigitYear day) : ∀ c ∈ ymd day, IsDigit c := by
  have hb := civil_bounds day
  intro c hc
  unfold ymd at hc
  rw [List.mem_append, List.mem_append] at hc
  rcases hc with (hc | hc) | hc
  · exact ofNat_digits _ c hc
  · exact two_digits (by omega) c hc
  · exact two_digits (by omega) c hc

/-! ## tables -/

theorem csvTable_eq {sep : Char} {trim : Text → Text} {hdr : List Text} {rows : List (List Text)} (hsep : sep ≠ '"') (hne : hdr ≠ [])
    (hh : ∀ x ∈ hdr, sep ∉ x ∧ '"' ∉ x) (hr : ∀ r ∈ rows, r.length = hdr.length ∧ ∀ x ∈ r, sep ∉ x ∧ '"' ∉ x)
    (hnd : (hdr.map fun x => String.ofList (trim x)).Nodup) :
    csvTable sep trim (joined sep hdr :: rows.map (joined sep)) =
      .ok ⟨hdr.map fun x => String.ofList (trim x), rows.map fun r => r.map trim⟩ := by
  unfold csvTable
  dsimp only
  have e1 : splitBy (· == sep) (joined sep hdr) = hdr := splitBy_joined hne fun x hx => (hh x hx).1
  have hrne : ∀ r ∈ rows, r ≠ [] := by
    rintro r hr' rfl
    have := (hr _ hr').1
    exact hne (List.length_eq_zero_iff.1 this.symm)
  have e2 : ((rows.map (joined sep)).map fun l => (splitBy (· == sep) l).map trim) = rows.map fun r => r.map trim := by
    rw [List.map_map]
    refine List.map_congr_left fun r hr' => ?_
    show (splitBy (· == sep) (joined sep r)).map trim = _
    rw [splitBy_joined (hrne r hr') fun x hx => ((hr r hr').2 x hx).1]
  rw [e1, e2, if_neg]
  rintro (h | h | h)
  · exact h hnd
  · obtain ⟨r, hr', hlt⟩ := List.any_eq_true.1 h
    obtain ⟨r0, hr0, rfl⟩ := List.mem_map.1 hr'
    have := (hr r0 hr0).1
    simp [this] at hlt
  · obtain ⟨l, hl, hq⟩ := List.any_eq_true.1 h
    have hq : '"' ∈ l := by simpa using hq
    rcases List.mem_cons.1 hl with rfl | hl
    · rcases mem_joined hq with e | ⟨x, hx, hc⟩
      · exact hsep e.symm
      · exact (hh x hx).2 hc
    · obtain ⟨r, hr', rfl⟩ := List.mem_map.1 hl
      rcases mem_joined hq with e | ⟨x, hx, hc⟩
      · exact hsep e.symm
      · exact ((hr r hr').2 x hx).2 hc

theorem column_eq {α : Type} {names : List String} {recs : List α} {field : α → String → Text} {n : String} (h : n ∈ names) :
    Table.column ⟨names, recs.map fun r => names.map (field r)⟩ n = .ok (recs.map fun r => field r n) := by
  unfold Table.column
  rw [if_pos h]
  congr 1
  dsimp only
  rw [List.map_map]
  exact List.map_congr_left fun r _ => getD_idxOf (field r) [] h

theorem column_missing {t : Table} {n : String} (h : n ∉ t.names) : t.column n = .error .keyError := by
  unfold Table.column
  rw [if_neg h]

/-! ## KNMI files -/

theorem field_chars {r : KnmiRecord} (h : FourDigitYear r.day) (n : String) : ∀ c ∈ r.field n, isSpace c = false ∧ c ≠ ',' ∧ c ≠ '\n' ∧ c ≠ '\r' ∧ c ≠ '"' := by
  have hd : ∀ c, IsDigit c → isSpace c = false ∧ c ≠ ',' ∧ c ≠ '\n' ∧ c ≠ '\r' ∧ c ≠ '"' := by
    rintro _ ⟨k, hk, rfl⟩
    have : ∀ k : Fin 10, isSpace (digit k.val) = false ∧ digit k.val ≠ ',' ∧ digit k.val ≠ '\n' ∧ digit k.val ≠ '\r' ∧ digit k.val ≠ '"' := by decide
    exact this ⟨k, hk⟩
  intro c hc
  unfold KnmiRecord.field at hc
  split at hc
  · exact hd c (ymd_chars h c hc)
  · split at hc
    · exact hd c (ofNat_digits _ c hc)
    · split at hc
      · cases hc
      · have := (numeral_chars _).2 c hc
        exact ⟨this.1, this.2.1, this.2.2.2.1, this.2.2.2.2.1, this.2.2.2.2.2⟩

/-- a readable KNMI file: 31 lines of explanation, different plain column names among which are day and hour, days that have four-digit years -/
structure KnmiText (explanation : List Text) (names : List (Nat × String)) (recs : List ((String → Nat) × KnmiRecord)) : Prop where
  lines : explanation.length = 31
  text : ∀ l ∈ explanation, ∀ c ∈ l, c ≠ '\n' ∧ c ≠ '\r' ∧ c ≠ '"'
  plain : ∀ n ∈ names, PlainName ',' n.2
  nodup : (names.map Prod.snd).Nodup
  day : "YYYYMMDD" ∈ names.map Prod.snd
  hour : "HH" ∈ names.map Prod.snd
  years : ∀ r ∈ recs, FourDigitYear r.2.day

theorem knmi_table {explanation : List Text} {names : List (Nat × String)} {recs : List ((String → Nat) × KnmiRecord)} (h : KnmiText explanation names recs) :
    csvTable ',' (fun x => x.dropWhile isBlank) (csvLines (skipRows (univ (knmiFile explanation names recs)) 31 false)) =
      .ok ⟨names.map Prod.snd, recs.map fun r => (names.map Prod.snd).map fun n => r.2.field n⟩ := by
  have hblank : ∀ {c}, c = ' ' → c ≠ ',' ∧ c ≠ '\n' ∧ c ≠ '\r' ∧ c ≠ '"' := by rintro _ rfl; decide
  have hne : names ≠ [] := by
    rintro rfl
    have := h.day
    simp at this
  have hname : ∀ n ∈ names, ∀ c ∈ padded n.1 n.2.toList, c ≠ ',' ∧ c ≠ '\n' ∧ c ≠ '\r' ∧ c ≠ '"' := by
    intro n hn c hc
    rcases mem_padded hc with hc | hc
    · exact hblank hc
    · exact (h.plain n hn).1 c hc
  have hfield : ∀ r ∈ recs, ∀ n : Nat × String, ∀ c ∈ padded (r.1 n.2) (r.2.field n.2), c ≠ ',' ∧ c ≠ '\n' ∧ c ≠ '\r' ∧ c ≠ '"' := by
    intro r hr n c hc
    rcases mem_padded hc with hc | hc
    · exact hblank hc
    · exact (field_chars (h.years r hr) n.2 c hc).2
  have hline : ∀ l ∈ (joined ',' (names.map fun n => padded n.1 n.2.toList) :: recs.map fun r => joined ',' (names.map fun n => padded (r.1 n.2) (r.2.field n.2))),
      ∀ c ∈ l, c ≠ '\n' ∧ c ≠ '\r' := by
    intro l hl c hc
    have hcomma : c = ',' → c ≠ '\n' ∧ c ≠ '\r' := by rintro rfl; decide
    rcases List.mem_cons.1 hl with rfl | hl
    · rcases mem_joined hc with e | ⟨x, hx, hc⟩
      · exact hcomma e
      · obtain ⟨n, hn, rfl⟩ := List.mem_map.1 hx
        exact ⟨(hname n hn c hc).2.1, (hname n hn c hc).2.2.1⟩
    · obtain ⟨r, hr, rfl⟩ := List.mem_map.1 hl
      rcases mem_joined hc with e | ⟨x, hx, hc⟩
      · exact hcomma e
      · obtain ⟨n, hn, rfl⟩ := List.mem_map.1 hx
        exact ⟨(hfield r hr n c hc).2.1, (hfield r hr n c hc).2.2.1⟩
  obtain ⟨nd, hnd, end'⟩ := List.mem_map.1 h.day
  have hb : ∀ l ∈ (joined ',' (names.map fun n => padded n.1 n.2.toList) :: recs.map fun r => joined ',' (names.map fun n => padded (r.1 n.2) (r.2.field n.2))),
      ∃ c ∈ l, isBlank c = false := by
    intro l hl
    rcases List.mem_cons.1 hl with rfl | hl
    · refine ⟨'Y', joined_mem (List.mem_map.2 ⟨nd, hnd, rfl⟩) ?_, by decide⟩
      unfold padded
      rw [List.mem_append, end']
      right; decide
    · obtain ⟨r, hr, rfl⟩ := List.mem_map.1 hl
      have hlen := (ymd_parts (h.years r hr)).2
      have hf : r.2.field nd.2 = ymd r.2.day := by unfold KnmiRecord.field; rw [end', if_pos rfl]
      cases e : ymd r.2.day with
      | nil => rw [e] at hlen; cases hlen
      | cons c cs =>
        refine ⟨c, joined_mem (List.mem_map.2 ⟨nd, hnd, rfl⟩) ?_, ?_⟩
        · unfold padded
          rw [List.mem_append, hf, e]
          right; simp
        · have := (field_chars (h.years r hr) nd.2 c (by rw [hf, e]; simp)).1
          exact isBlank_space this
  have hsplit : knmiFile explanation names recs = ended explanation ++
      textOf (joined ',' (names.map fun n => padded n.1 n.2.toList) :: recs.map fun r => joined ',' (names.map fun n => padded (r.1 n.2) (r.2.field n.2))) := by
    unfold knmiFile
    rw [textOf_eq, ended_append]
    rfl
  have huniv : univ (knmiFile explanation names recs) = knmiFile explanation names recs := by
    refine univ_id fun hc => ?_
    unfold knmiFile textOf at hc
    obtain ⟨l', hl', hc⟩ := List.mem_flatten.1 hc
    obtain ⟨l, hl, rfl⟩ := List.mem_map.1 hl'
    rcases List.mem_append.1 hc with hc | hc
    · rcases List.mem_append.1 hl with hl | hl
      · exact (h.text l hl _ hc).2.1 rfl
      · exact (hline l hl _ hc).2 rfl
    · simp at hc
  rw [huniv, hsplit, ← h.lines, skipRows_ended _ (fun l hl c hc => ⟨(h.text l hl c hc).1, (h.text l hl c hc).2.2⟩),
    csvLines_textOf (fun l hl hc => (hline l hl _ hc).1 rfl) hb]
  have e := csvTable_eq (sep := ',') (trim := fun x => x.dropWhile isBlank) (hdr := names.map fun n => padded n.1 n.2.toList)
    (rows := recs.map fun r => names.map fun n => padded (r.1 n.2) (r.2.field n.2)) (by decide) (by simpa using hne)
    (by
      intro x hx
      obtain ⟨n, hn, rfl⟩ := List.mem_map.1 hx
      exact ⟨fun hc => (hname n hn _ hc).1 rfl, fun hc => (hname n hn _ hc).2.2.2 rfl⟩)
    (by
      intro r' hr'
      obtain ⟨r, hr, rfl⟩ := List.mem_map.1 hr'
      refine ⟨by simp, fun x hx => ?_⟩
      obtain ⟨n, hn, rfl⟩ := List.mem_map.1 hx
      exact ⟨fun hc => (hfield r hr n _ hc).1 rfl, fun hc => (hfield r hr n _ hc).2.2.2 rfl⟩)
  have e1 : ((names.map fun n => padded n.1 n.2.toList).map fun x => String.ofList (x.dropWhile isBlank)) = names.map Prod.snd := by
    rw [List.map_map]
    refine List.map_congr_left fun n hn => ?_
    show String.ofList ((padded n.1 n.2.toList).dropWhile isBlank) = n.2
    rw [dropWhile_padded (h.plain n hn).2, String.ofList_toList]
  rw [e1] at e
  rw [List.map_map] at e
  have e2 := e h.nodup
  refine Eq.trans e2 ?_
  congr 2
  rw [List.map_map]
  refine List.map_congr_left fun r hr => ?_
  show (names.map fun n => padded (r.1 n.2) (r.2.field n.2)).map (fun x => x.dropWhile isBlank) = _
  rw [List.map_map, List.map_map]
  refine List.map_congr_left fun n hn => ?_
  exact dropWhile_padded fun c hc => isBlank_space (field_chars (h.years r hr) n.2 c (List.mem_of_mem_head? hc)).1

theorem knmiTime_ok {r : KnmiRecord} (hy : FourDigitYear r.day) (h1 : 1 ≤ r.hour) (h2 : r.hour ≤ 24) :
    knmiTime (ymd r.day) (ofNat r.hour) = .ok (r.day * DAY + r.hour * HOUR) := by
  unfold knmiTime
  rw [(ymd_parts hy).1, py_ok_bind, strip_id (fun c hc => by obtain ⟨k, hk, rfl⟩ := ofNat_digits _ c hc; exact (digit_spec k hk).2.1), toNat_ofNat]
  dsimp only
  rw [if_pos ⟨h1, h2⟩]
  congr 1
  ring

theorem knmiTime_bad {r : KnmiRecord} (hy : FourDigitYear r.day) (h : ¬ (1 ≤ r.hour ∧ r.hour ≤ 24)) :
    knmiTime (ymd r.day) (ofNat r.hour) = .error .valueError := by
  unfold knmiTime
  rw [(ymd_parts hy).1, py_ok_bind, strip_id (fun c hc => by obtain ⟨k, hk, rfl⟩ := ofNat_digits _ c hc; exact (digit_spec k hk).2.1), toNat_ofNat]
  dsimp only
  rw [if_neg h]

section
variable {K : Type} [Field K] [LinearOrder K] [IsStrictOrderedRing K]

theorem mapM_some {α β : Type} {f : α → Option β} {g : α → β} : ∀ {l : List α}, (∀ x ∈ l, f x = some (g x)) → l.mapM f = some (l.map g)
  | [], _ => rfl
  | x :: l, h => by
    rw [List.mapM_cons, h x (by simp), Option.bind_eq_bind, Option.bind_some, mapM_some (fun y hy => h y (by simp [hy]))]
    rfl

theorem knmi_nums {names : List String} {recs : List ((String → Nat) × KnmiRecord)} {n : String} (h : n ∈ names) (h1 : n ≠ "YYYYMMDD") (h2 : n ≠ "HH") :
    Table.nums ⟨names, recs.map fun r => names.map fun n => r.2.field n⟩ (none : Option K) n = .ok (recs.map fun r => cellOf id (r.2.val n)) := by
  unfold Table.nums
  rw [column_eq (field := fun (r : (String → Nat) × KnmiRecord) n => r.2.field n) h, py_ok_bind]
  have : numbers? (none : Option K) (recs.map fun r => r.2.field n) = some (recs.map fun r => cellOf id (r.2.val n)) := by
    unfold numbers?
    rw [List.mapM_map]
    refine mapM_some fun r _ => ?_
    show (if r.2.field n = [] then some .nan else (number? (strip (r.2.field n))).map fun v => v) = _
    cases hv : r.2.val n with
    | none =>
      have e : r.2.field n = [] := by unfold KnmiRecord.field; rw [if_neg h1, if_neg h2, hv]
      rw [e, if_pos rfl]; rfl
    | some x =>
      have e : r.2.field n = x.text := by unfold KnmiRecord.field; rw [if_neg h1, if_neg h2, hv]
      rw [e, if_neg (numeral_chars x).1, strip_id fun c hc => ((numeral_chars x).2 c hc).1, number_numeral]
      rfl
  rw [this]

theorem nums_missing {t : Table} {n : String} (h : n ∉ t.names) : Table.nums t (none : Option K) n = .error .keyError := by
  unfold Table.nums
  rw [column_missing h]
  rfl

end

/-! ## DWD files -/

theorem lines_textOf {ls : List Text} (h : ∀ l ∈ ls, '\n' ∉ l) : lines (textOf ls) = ls := by
  unfold lines
  have := splitBy_ended [] h
  rw [List.append_nil] at this
  rw [textOf_eq, this]
  have e : splitBy (· == '\n') ([] : Text) = [[]] := rfl
  rw [e]
  dsimp only
  rw [if_pos (by simp), List.dropLast_concat]

/-- the table of names in the model and in the specification -/
theorem dwdKnown_eq (n : String) : dwdKnown n =
    if (dwdNames.map fun p => p.2).contains (dwdName (stripName n)) then
      some (dwdName (stripName n), decide (dwdName (stripName n) = "tmin" ∨ dwdName (stripName n) = "tmax" ∨ dwdName (stripName n) = "tmean" ∨
        dwdName (stripName n) = "temp"))
    else none := by
  unfold dwdKnown stripName
  generalize String.ofList (strip n.toList) = s
  have key : ∀ s ∈ (dwdTable.map fun e => e.1) ++ (dwdTable.map fun e => e.2.1),
      ((dwdTable.find? fun e => e.1 == s || e.2.1 == s).map fun e => e.2) =
      if (dwdNames.map fun p => p.2).contains (dwdName s) then
        some (dwdName s, decide (dwdName s = "tmin" ∨ dwdName s = "tmax" ∨ dwdName s = "tmean" ∨ dwdName s = "temp")) else none := by decide
  by_cases hs : s ∈ (dwdTable.map fun e => e.1) ++ (dwdTable.map fun e => e.2.1)
  · exact key s hs
  · have h1 : ∀ e ∈ dwdTable, (e.1 == s || e.2.1 == s) = false := by
      intro e he
      have a : e.1 ≠ s := by rintro rfl; exact hs (List.mem_append.2 (.inl (List.mem_map.2 ⟨e, he, rfl⟩)))
      have b : e.2.1 ≠ s := by rintro rfl; exact hs (List.mem_append.2 (.inr (List.mem_map.2 ⟨e, he, rfl⟩)))
      rw [Bool.or_eq_false_iff]
      exact ⟨by simpa using a, by simpa using b⟩
    have h2 : (dwdTable.find? fun e => e.1 == s || e.2.1 == s) = none := List.find?_eq_none.2 fun e he => by rw [h1 e he]; simp
    have h3 : dwdName s = s := by
      unfold dwdName
      have : (dwdNames.find? fun p => p.1 == s) = none := List.find?_eq_none.2 fun p hp => by
        have : ∀ p ∈ dwdNames, p.1 ∈ dwdTable.map fun e => e.1 := by decide
        have hm := this p hp
        intro e
        have e : p.1 = s := by simpa using e
        exact hs (List.mem_append.2 (.inl (e ▸ hm)))
      rw [this]
    have h4 : (dwdNames.map fun p => p.2).contains (dwdName s) = false := by
      rw [h3]
      have e : (dwdNames.map fun p => p.2) = dwdTable.map fun e => e.2.1 := by decide
      rw [e]
      rw [Bool.eq_false_iff]
      intro hc
      rw [List.contains_iff_mem] at hc
      exact hs (List.mem_append.2 (.inr hc))
    rw [h2, h4]
    rfl

theorem dwdKnown_date : dwdKnown " MESS_DATUM" = none := by decide

/-- a readable DWD file: different plain column names among which is the date, days with four-digit years, and the code for missing values in columns
without decimal points not preceded by blanks -/
structure DwdText (hourly : Bool) (names : List String) (recs : List DwdRecord) : Prop where
  plain : ∀ n ∈ names, ∀ c ∈ n.toList, c ≠ ';' ∧ c ≠ '\n' ∧ c ≠ '\r' ∧ c ≠ '"'
  nodup : names.Nodup
  date : " MESS_DATUM" ∈ names
  years : ∀ r ∈ recs, FourDigitYear r.day
  hours : hourly = true → ∀ r ∈ recs, r.hour < 24
  other : ∀ r ∈ recs, ∀ n ∈ names, ∀ c ∈ r.other n, c ≠ ';' ∧ c ≠ '\n' ∧ c ≠ '\r' ∧ c ≠ '"'
  codes : ∀ n ∈ names, dwdKnown n ≠ none → (∃ r ∈ recs, ∃ x, r.val n = some x ∧ x.frac ≠ []) ∨ ∀ r ∈ recs, r.blanks n = 0

section dwd
variable {hourly : Bool} {names : List String} {recs : List DwdRecord}

theorem digit_plain {c : Char} (h : IsDigit c) : c ≠ ';' ∧ c ≠ '\n' ∧ c ≠ '\r' ∧ c ≠ '"' := by
  obtain ⟨k, hk, rfl⟩ := h
  have : ∀ k : Fin 10, digit k.val ≠ ';' ∧ digit k.val ≠ '\n' ∧ digit k.val ≠ '\r' ∧ digit k.val ≠ '"' := by decide
  exact this ⟨k, hk⟩

theorem dwd_field_chars (h : DwdText hourly names recs) {r : DwdRecord} (hr : r ∈ recs) {n : String} (hn : n ∈ names) :
    ∀ c ∈ r.field hourly n, c ≠ ';' ∧ c ≠ '\n' ∧ c ≠ '\r' ∧ c ≠ '"' := by
  intro c hc
  unfold DwdRecord.field at hc
  split at hc
  · rcases List.mem_append.1 hc with hc | hc
    · exact digit_plain (ymd_chars (h.years r hr) c hc)
    · cases hourly with
      | false => cases hc
      | true => exact digit_plain (two_digits (by have := h.hours rfl r hr; omega) c hc)
  · split at hc
    · exact h.other r hr n hn c hc
    · split at hc
      · cases hc
      · rcases mem_padded hc with rfl | hc
        · decide
        · have := (numeral_chars _).2 c hc
          exact ⟨this.2.2.1, this.2.2.2.1, this.2.2.2.2.1, this.2.2.2.2.2⟩

theorem dwdLines_chars (h : DwdText hourly names recs) : ∀ l ∈ dwdLines hourly names recs, ∀ c ∈ l, c ≠ '\n' ∧ c ≠ '\r' := by
  intro l hl c hc
  unfold dwdLines at hl
  have hs : c = ';' → c ≠ '\n' ∧ c ≠ '\r' := by rintro rfl; decide
  rcases List.mem_cons.1 hl with rfl | hl
  · rcases mem_joined hc with e | ⟨x, hx, hc⟩
    · exact hs e
    · obtain ⟨n, hn, rfl⟩ := List.mem_map.1 hx
      exact ⟨(h.plain n hn c hc).2.1, (h.plain n hn c hc).2.2.1⟩
  · obtain ⟨r, hr, rfl⟩ := List.mem_map.1 hl
    rcases mem_joined hc with e | ⟨x, hx, hc⟩
    · exact hs e
    · obtain ⟨n, hn, rfl⟩ := List.mem_map.1 hx
      exact ⟨(dwd_field_chars h hr hn c hc).2.1, (dwd_field_chars h hr hn c hc).2.2.1⟩

theorem dwd_table (h : DwdText hourly names recs) :
    csvTable ';' id ((dwdLines hourly names recs).filter fun l => !(l.dropWhile isBlank).isEmpty) =
      .ok ⟨names, recs.map fun r => names.map (r.field hourly)⟩ := by
  have hne : names ≠ [] := by
    rintro rfl
    have := h.date
    simp at this
  have hf : ((dwdLines hourly names recs).filter fun l => !(l.dropWhile isBlank).isEmpty) = dwdLines hourly names recs := by
    rw [List.filter_eq_self]
    intro l hl
    unfold dwdLines at hl
    rcases List.mem_cons.1 hl with rfl | hl
    · exact notBlank (c := 'M') (joined_mem (List.mem_map.2 ⟨_, h.date, rfl⟩) (by decide)) (by decide)
    · obtain ⟨r, hr, rfl⟩ := List.mem_map.1 hl
      have hlen := (ymd_parts (h.years r hr)).2
      cases e : ymd r.day with
      | nil => rw [e] at hlen; cases hlen
      | cons c cs =>
        have hd := ymd_chars (h.years r hr) c (by rw [e]; simp)
        refine notBlank (c := c) (joined_mem (List.mem_map.2 ⟨_, h.date, rfl⟩) ?_) ?_
        · unfold DwdRecord.field
          rw [if_pos rfl, e]
          simp
        · obtain ⟨k, hk, rfl⟩ := hd
          exact isBlank_space (digit_spec k hk).2.1
  rw [hf]
  have e := csvTable_eq (sep := ';') (trim := id) (hdr := names.map String.toList) (rows := recs.map fun r => names.map (r.field hourly)) (by decide)
    (by simpa using hne)
    (by
      intro x hx
      obtain ⟨n, hn, rfl⟩ := List.mem_map.1 hx
      exact ⟨fun hc => (h.plain n hn _ hc).1 rfl, fun hc => (h.plain n hn _ hc).2.2.2 rfl⟩)
    (by
      intro r' hr'
      obtain ⟨r, hr, rfl⟩ := List.mem_map.1 hr'
      refine ⟨by simp, fun x hx => ?_⟩
      obtain ⟨n, hn, rfl⟩ := List.mem_map.1 hx
      exact ⟨fun hc => (dwd_field_chars h hr hn _ hc).1 rfl, fun hc => (dwd_field_chars h hr hn _ hc).2.2.2 rfl⟩)
  have e1 : ((names.map String.toList).map fun x => String.ofList (id x)) = names := by
    rw [List.map_map]
    conv_rhs => rw [← List.map_id names]
    exact List.map_congr_left fun n _ => String.ofList_toList
  rw [e1, List.map_map] at e
  refine Eq.trans (e h.nodup) ?_
  congr 2
  rw [List.map_map]
  exact List.map_congr_left fun r _ => List.map_id _

theorem dwdTime_ok (h : DwdText hourly names recs) {r : DwdRecord} (hr : r ∈ recs) :
    dwdTime hourly (r.field hourly " MESS_DATUM") = .ok (r.day * DAY + if hourly then r.hour * HOUR else 0) := by
  have hy := ymd_parts (h.years r hr)
  have ef : r.field hourly " MESS_DATUM" = ymd r.day ++ (if hourly then two r.hour else []) := by
    unfold DwdRecord.field; rw [if_pos rfl]
  rw [ef]
  have t1 : ∀ t : Text, (ymd r.day ++ t).take 4 = (ymd r.day).take 4 := fun t => by rw [List.take_append_of_le_length (by omega)]
  have t2 : ∀ t : Text, ((ymd r.day ++ t).drop 4).take 2 = ((ymd r.day).drop 4).take 2 := fun t => by
    rw [List.drop_append_of_le_length (by omega), List.take_append_of_le_length (by rw [List.length_drop]; omega)]
  have t3 : ∀ t : Text, ((ymd r.day ++ t).drop 6).take 2 = ((ymd r.day).drop 6).take 2 := fun t => by
    rw [List.drop_append_of_le_length (by omega), List.take_append_of_le_length (by rw [List.length_drop]; omega)]
  unfold dwdTime
  rw [t1, t2, t3, hy.1, py_ok_bind]
  cases hourly with
  | true =>
    have hh := h.hours rfl r hr
    have e : ((ymd r.day ++ (if true = true then two r.hour else [])).drop 8).take 2 = two r.hour := by
      rw [if_pos rfl, List.drop_append, hy.2, List.drop_eq_nil_of_le (by omega)]
      rfl
    rw [if_pos rfl, e, toNat_two (by omega)]
    dsimp only
    rw [if_pos hh, if_pos rfl]
  | false =>
    simp only [Bool.false_eq_true, if_false, List.append_nil]
    rw [if_pos hy.2, Int.add_zero]

section
variable {K : Type} [Field K] [LinearOrder K] [IsStrictOrderedRing K]

/-- a number read from a column of a DWD file, in its own unit -/
theorem dwdColumn_ok (h : DwdText hourly names recs) {n : String} (hn : n ∈ names) (hk : dwdKnown n ≠ none) :
    dwdColumn (recs.map fun r => r.field hourly n) = .ok (recs.map fun r => dwdCell (K := K) false (r.val n)) := by
  have hm : n ≠ " MESS_DATUM" := by rintro rfl; exact hk dwdKnown_date
  have hf : ∀ r : DwdRecord, r.field hourly n = match r.val n with | none => [] | some x => padded (r.blanks n) x.text := by
    intro r
    unfold DwdRecord.field
    rw [if_neg hm, if_neg (by simpa using hk)]
    rfl
  unfold dwdColumn
  rw [if_neg]
  · have : numbers? (some (-999 : K)) (recs.map fun r => r.field hourly n) = some (recs.map fun r => dwdCell (K := K) false (r.val n)) := by
      unfold numbers?
      rw [List.mapM_map]
      refine mapM_some fun r _ => ?_
      show (if r.field hourly n = [] then some .nan else (number? (strip (r.field hourly n))).map fun v => if v = .fin (-999 : K) then .nan else v) = _
      rw [hf r]
      cases hv : r.val n with
      | none => rw [if_pos rfl]; rfl
      | some x =>
        have hne : padded (r.blanks n) x.text ≠ [] := by
          unfold padded
          intro e
          exact (numeral_chars x).1 (List.append_eq_nil_iff.1 e).2
        dsimp only
        rw [if_neg hne, strip_padded, strip_id fun c hc => ((numeral_chars x).2 c hc).1, number_numeral]
        unfold dwdCell
        simp only [Option.map_some, XF.fin.injEq, Bool.false_eq_true, if_false]
    rw [this]
  · rintro ⟨ha, hb⟩
    rcases h.codes n hn hk with ⟨r, hr, x, hv, hx⟩ | hz
    · have := List.all_eq_true.1 ha (r.field hourly n) (List.mem_map.2 ⟨r, hr, rfl⟩)
      rw [hf r, hv] at this
      have hdot : '.' ∈ padded (r.blanks n) x.text := by
        unfold padded Numeral.text
        rw [if_neg hx]
        simp
      dsimp only at this
      simp [hdot] at this
    · obtain ⟨t, ht, hc⟩ := List.any_eq_true.1 hb
      obtain ⟨r, hr, rfl⟩ := List.mem_map.1 ht
      have hc : strip (r.field hourly n) = "-999".toList ∧ r.field hourly n ≠ "-999".toList := by simpa using hc
      rw [hf r] at hc
      cases hv : r.val n with
      | none =>
        rw [hv] at hc
        dsimp only at hc
        exact absurd hc.1 (by decide)
      | some x =>
        rw [hv] at hc
        dsimp only at hc
        have e : padded (r.blanks n) x.text = x.text := by unfold padded; rw [hz r hr]; rfl
        rw [e, strip_id fun c hc => ((numeral_chars x).2 c hc).1] at hc
        exact hc.2 hc.1

end
end dwd

end Melodist.DataIO
