import Verif.Base.Text
import Verif.Lemmas.Calendar
import Mathlib.Tactic.FieldSimp
import Mathlib.Tactic.Ring
import Mathlib.Tactic.NormNum

/-!
# Lemmas about texts: splitting, numbers and timestamps written and read back
-/

set_option linter.unusedSectionVars false

namespace Melodist.Text

/-! ## splitting -/

theorem splitBy_ne_nil (p : Char → Bool) (t : Text) : splitBy p t ≠ [] := by
  cases t with
  | nil => simp [splitBy]
  | cons c cs =>
    unfold splitBy
    by_cases h : p c
    · rw [if_pos h]; simp
    · rw [if_neg h]
      cases splitBy p cs <;> simp

theorem splitBy_none {p : Char → Bool} : ∀ {t : Text}, (∀ c ∈ t, p c = false) → splitBy p t = [t]
  | [], _ => rfl
  | c :: cs, h => by
    unfold splitBy
    rw [if_neg (by rw [h c (by simp)]; simp), splitBy_none fun x hx => h x (by simp [hx])]

theorem splitBy_sep {p : Char → Bool} {s : Char} (hs : p s = true) (r : Text) : ∀ {t : Text}, (∀ c ∈ t, p c = false) →
    splitBy p (t ++ s :: r) = t :: splitBy p r
  | [], _ => by
    rw [List.nil_append]
    conv_lhs => unfold splitBy
    rw [if_pos hs]
  | c :: cs, h => by
    rw [List.cons_append]
    conv_lhs => unfold splitBy
    rw [if_neg (by rw [h c (by simp)]; simp), splitBy_sep hs r fun x hx => h x (by simp [hx])]

/-- the non-empty pieces -/
def pieces (p : Char → Bool) (t : Text) : List Text := (splitBy p t).filter fun w => !w.isEmpty

theorem pieces_blanks {p : Char → Bool} {s : Char} (hs : p s = true) (r : Text) : ∀ n, pieces p (List.replicate n s ++ r) = pieces p r
  | 0 => rfl
  | n + 1 => by
    rw [List.replicate_succ, List.cons_append]
    have := splitBy_sep hs (List.replicate n s ++ r) (t := []) (by simp)
    rw [List.nil_append] at this
    unfold pieces
    rw [this]
    exact pieces_blanks hs r n

theorem pieces_word {p : Char → Bool} {s : Char} (hs : p s = true) (r : Text) {w : Text} (hw : ∀ c ∈ w, p c = false) (hne : w ≠ []) :
    pieces p (w ++ s :: r) = w :: pieces p r := by
  unfold pieces
  rw [splitBy_sep hs r hw, List.filter_cons_of_pos (by cases w <;> simp_all)]

theorem pieces_last {p : Char → Bool} {w : Text} (hw : ∀ c ∈ w, p c = false) (hne : w ≠ []) : pieces p w = [w] := by
  unfold pieces
  rw [splitBy_none hw]
  cases w <;> simp_all

theorem words_eq (t : Text) : words t = pieces isSpace t := rfl
theorem fields_eq (t : Text) : fields t = pieces isBlank t := rfl

theorem isBlank_space {c : Char} (h : isSpace c = false) : isBlank c = false := by
  unfold isBlank
  by_cases h1 : c = ' '
  · subst h1; exact absurd h (by decide)
  · by_cases h2 : c = '\t'
    · subst h2; exact absurd h (by decide)
    · simp [h1, h2]

/-! ## strip -/

theorem dropWhile_snoc {p : Char → Bool} {c : Char} (hc : p c = true) : ∀ t : Text,
    List.dropWhile p (t ++ [c]) = if t.all p then [] else List.dropWhile p t ++ [c]
  | [] => by simp [hc]
  | x :: xs => by
    rw [List.cons_append, List.dropWhile_cons, List.dropWhile_cons, List.all_cons]
    by_cases h : p x = true
    · rw [if_pos h, if_pos h, h, Bool.true_and]
      exact dropWhile_snoc hc xs
    · rw [if_neg h, if_neg h]
      simp [h]

theorem dropWhile_all {p : Char → Bool} : ∀ {t : Text}, t.all p = true → List.dropWhile p t = []
  | [], _ => rfl
  | x :: xs, h => by
    rw [List.all_cons, Bool.and_eq_true] at h
    rw [List.dropWhile_cons, if_pos h.1]
    exact dropWhile_all h.2

theorem strip_cons {c : Char} (hc : isSpace c = true) (t : Text) : strip (c :: t) = strip t := by
  unfold strip
  rw [List.dropWhile_cons, if_pos hc]

theorem strip_snoc {c : Char} (hc : isSpace c = true) (t : Text) : strip (t ++ [c]) = strip t := by
  unfold strip
  rw [dropWhile_snoc hc]
  by_cases h : t.all isSpace = true
  · rw [if_pos h, dropWhile_all h]
  · rw [if_neg h, List.reverse_append, List.reverse_singleton, List.singleton_append, List.dropWhile_cons, if_pos hc]

theorem mem_dropWhile {p : Char → Bool} {c : Char} (hc : p c = false) : ∀ {t : Text}, c ∈ t → c ∈ List.dropWhile p t
  | x :: xs, h => by
    rw [List.dropWhile_cons]
    by_cases hx : p x = true
    · rw [if_pos hx]
      rcases List.mem_cons.1 h with rfl | h
      · rw [hc] at hx; cases hx
      · exact mem_dropWhile hc h
    · rw [if_neg hx]; exact h

theorem mem_strip {c : Char} (hc : isSpace c = false) {t : Text} (h : c ∈ t) : c ∈ strip t := by
  unfold strip
  rw [List.mem_reverse]
  exact mem_dropWhile hc (List.mem_reverse.2 (mem_dropWhile hc h))

theorem pieces_cons {p : Char → Bool} {c : Char} (hc : p c = true) (t : Text) : pieces p (c :: t) = pieces p t := by
  have := pieces_blanks hc t 1
  exact this

theorem splitBy_snoc {p : Char → Bool} {c : Char} (hc : p c = true) : ∀ t : Text, splitBy p (t ++ [c]) = splitBy p t ++ [[]]
  | [] => by
    rw [List.nil_append]
    unfold splitBy
    rw [if_pos hc]
    rfl
  | x :: xs => by
    rw [List.cons_append, splitBy, splitBy, splitBy_snoc hc xs]
    by_cases h : p x = true
    · rw [if_pos h, if_pos h]; rfl
    · rw [if_neg h, if_neg h]
      cases hs : splitBy p xs with
      | nil => exact absurd hs (splitBy_ne_nil p xs)
      | cons w ws => rfl

theorem pieces_snoc {p : Char → Bool} {c : Char} (hc : p c = true) (t : Text) : pieces p (t ++ [c]) = pieces p t := by
  unfold pieces
  rw [splitBy_snoc hc, List.filter_append]
  simp

theorem pieces_dropWhile {p : Char → Bool} : ∀ t : Text, pieces p (t.dropWhile p) = pieces p t
  | [] => rfl
  | x :: xs => by
    rw [List.dropWhile_cons]
    by_cases h : p x = true
    · rw [if_pos h, pieces_dropWhile xs, pieces_cons h]
    · rw [if_neg h]

theorem pieces_dropWhile_reverse {p : Char → Bool} : ∀ t : Text, pieces p (t.dropWhile p).reverse = pieces p t.reverse
  | [] => rfl
  | x :: xs => by
    rw [List.dropWhile_cons]
    by_cases h : p x = true
    · rw [if_pos h, pieces_dropWhile_reverse xs, List.reverse_cons, pieces_snoc h]
    · rw [if_neg h]

theorem words_strip (t : Text) : words (strip t) = words t := by
  rw [words_eq, words_eq]
  unfold strip
  rw [pieces_dropWhile_reverse, List.reverse_reverse, pieces_dropWhile]

theorem words_spaced : ∀ {l : List Text}, (∀ w ∈ l, w ≠ [] ∧ ∀ c ∈ w, isSpace c = false) → words (spaced l) = l
  | [], _ => rfl
  | [x], h => by
    rw [words_eq]
    exact pieces_last (h x (by simp)).2 (h x (by simp)).1
  | x :: y :: r, h => by
    rw [words_eq]
    unfold spaced
    rw [pieces_word (by decide) _ (h x (by simp)).2 (h x (by simp)).1, ← words_eq, words_spaced fun w hw => h w (by simp [hw])]

theorem words_ones (n : Nat) : words (List.replicate n ['1', ' ']).flatten = List.replicate n ['1'] := by
  rw [words_eq]
  induction n with
  | zero => rfl
  | succ n ih =>
    rw [List.replicate_succ, List.flatten_cons]
    have := pieces_word (p := isSpace) (s := ' ') (by decide) (List.replicate n ['1', ' ']).flatten (w := ['1']) (by decide) (by simp)
    rw [List.replicate_succ, ← ih]
    exact this

theorem strip_id {t : Text} (h : ∀ c ∈ t, isSpace c = false) : strip t = t := by
  have hd : ∀ {u : Text}, (∀ c ∈ u, isSpace c = false) → u.dropWhile isSpace = u := by
    intro u hu
    cases u with
    | nil => rfl
    | cons x xs => rw [List.dropWhile_cons, if_neg (by rw [hu x (by simp)]; simp)]
  unfold strip
  rw [hd h, hd (fun c hc => h c (List.mem_reverse.1 hc)), List.reverse_reverse]

/-! ## line ends -/

theorem univ_id : ∀ {t : Text}, '\r' ∉ t → univ t = t
  | [], _ => rfl
  | c :: cs, h => by
    have h1 : c ≠ '\r' := fun e => h (by simp [e])
    have h2 : '\r' ∉ cs := fun e => h (by simp [e])
    unfold univ
    split
    · rename_i heq; cases heq; exact absurd rfl h1
    · rename_i heq; cases heq; exact absurd rfl h1
    · rename_i heq; cases heq; rw [univ_id h2]
    · rename_i heq; cases heq

/-- lines, each with its line end -/
def ended (ls : List Text) : Text := (ls.map fun l => l ++ ['\n']).flatten

theorem ended_cons (l : Text) (ls : List Text) : ended (l :: ls) = l ++ '\n' :: ended ls := by
  unfold ended
  rw [List.map_cons, List.flatten_cons, List.append_assoc]
  rfl

theorem ended_append (a b : List Text) : ended (a ++ b) = ended a ++ ended b := by
  unfold ended
  rw [List.map_append, List.flatten_append]

theorem splitBy_ended (r : Text) : ∀ {ls : List Text}, (∀ l ∈ ls, '\n' ∉ l) →
    splitBy (· == '\n') (ended ls ++ r) = ls ++ splitBy (· == '\n') r
  | [], _ => rfl
  | l :: ls, h => by
    rw [ended_cons, List.append_assoc, List.cons_append,
      splitBy_sep (by rfl) _ (fun c hc => by
        have : c ≠ '\n' := fun e => h l (by simp) (e ▸ hc)
        simpa using this),
      splitBy_ended r fun x hx => h x (by simp [hx])]
    rfl

theorem lines_ended (r : Text) {ls : List Text} (h : ∀ l ∈ ls, '\n' ∉ l) : ∃ rest, lines (ended ls ++ r) = ls ++ rest := by
  unfold lines
  dsimp only
  rw [splitBy_ended r h]
  by_cases hc : (ls ++ splitBy (· == '\n') r).getLast? = some []
  · rw [if_pos hc, List.dropLast_append_of_ne_nil (splitBy_ne_nil _ r)]
    exact ⟨_, rfl⟩
  · rw [if_neg hc]
    exact ⟨_, rfl⟩

theorem skipRows_line (r : Text) (n : Nat) : ∀ {l : Text}, (∀ c ∈ l, c ≠ '\n' ∧ c ≠ '"') →
    skipRows (l ++ '\n' :: r) (n + 1) false = skipRows r n false
  | [], _ => by
    rw [List.nil_append]
    conv_lhs => unfold skipRows
    rw [if_neg (by decide), if_pos ⟨rfl, rfl⟩]
  | c :: cs, h => by
    rw [List.cons_append]
    conv_lhs => unfold skipRows
    rw [if_neg (h c (by simp)).2, if_neg (fun e => (h c (by simp)).1 e.1)]
    exact skipRows_line r n fun x hx => h x (by simp [hx])

theorem skipRows_zero (r : Text) : skipRows r 0 false = r := by cases r <;> rfl

theorem skipRows_ended (r : Text) : ∀ {ls : List Text}, (∀ l ∈ ls, ∀ c ∈ l, c ≠ '\n' ∧ c ≠ '"') →
    skipRows (ended ls ++ r) ls.length false = r
  | [], _ => skipRows_zero r
  | l :: ls, h => by
    rw [ended_cons, List.append_assoc, List.cons_append, List.length_cons, skipRows_line _ _ (h l (by simp))]
    exact skipRows_ended r fun x hx => h x (by simp [hx])

/-! ## numbers -/

theorem digit_spec (n : Nat) (h : n < 10) : digit? (digit n) = some n ∧ isSpace (digit n) = false ∧ digit n ≠ '.' ∧ digit n ≠ '-' ∧
    digit n ≠ 'N' ∧ digit n ≠ 'i' ∧ digit n ≠ '\n' ∧ digit n ≠ '\r' ∧ digit n ≠ '"' := by
  have : ∀ n : Fin 10, digit? (digit n.val) = some n.val ∧ isSpace (digit n.val) = false ∧ digit n.val ≠ '.' ∧ digit n.val ≠ '-' ∧
      digit n.val ≠ 'N' ∧ digit n.val ≠ 'i' ∧ digit n.val ≠ '\n' ∧ digit n.val ≠ '\r' ∧ digit n.val ≠ '"' := by decide
  exact this ⟨n, h⟩

/-- a character that is a decimal digit -/
def IsDigit (c : Char) : Prop := ∃ n < 10, c = digit n

theorem two_digits {n : Nat} (h : n < 100) : ∀ c ∈ two n, IsDigit c := by
  intro c hc
  simp only [two, List.mem_cons, List.not_mem_nil, or_false] at hc
  rcases hc with rfl | rfl
  · exact ⟨_, by omega, rfl⟩
  · exact ⟨_, by omega, rfl⟩

theorem ofNatAux_digits : ∀ fuel n, ∀ c ∈ ofNatAux fuel n, IsDigit c
  | 0, n, c, hc => by
    simp only [ofNatAux, List.mem_cons, List.not_mem_nil, or_false] at hc
    exact ⟨_, by omega, hc⟩
  | fuel + 1, n, c, hc => by
    unfold ofNatAux at hc
    by_cases h : n < 10
    · rw [if_pos h] at hc
      exact ⟨n, h, by simpa using hc⟩
    · rw [if_neg h, List.mem_append] at hc
      rcases hc with hc | hc
      · exact ofNatAux_digits fuel _ c hc
      · exact ⟨n % 10, by omega, by simpa using hc⟩

theorem ofNat_digits (n : Nat) : ∀ c ∈ ofNat n, IsDigit c := ofNatAux_digits n n

theorem ofNatAux_ne_nil : ∀ fuel n, ofNatAux fuel n ≠ []
  | 0, n => by simp [ofNatAux]
  | fuel + 1, n => by
    unfold ofNatAux
    by_cases h : n < 10
    · rw [if_pos h]; simp
    · rw [if_neg h]; simp

theorem toNatAux_append (a b : Text) : ∀ acc, toNatAux acc (a ++ b) = (toNatAux acc a).bind fun n => toNatAux n b := by
  induction a with
  | nil => intro acc; rfl
  | cons c cs ih =>
    intro acc
    rw [List.cons_append, toNatAux, toNatAux]
    cases digit? c with
    | none => rfl
    | some d => exact ih _

theorem toNatAux_digit (acc : Nat) {d : Nat} (h : d < 10) : toNatAux acc [digit d] = some (10 * acc + d) := by
  unfold toNatAux
  rw [(digit_spec d h).1]
  rfl

theorem toNatAux_ofNatAux : ∀ fuel n, n ≤ fuel → toNatAux 0 (ofNatAux fuel n) = some n
  | 0, n, h => by
    obtain rfl : n = 0 := by omega
    decide
  | fuel + 1, n, h => by
    unfold ofNatAux
    by_cases h1 : n < 10
    · rw [if_pos h1, toNatAux_digit 0 h1]; simp
    · rw [if_neg h1, toNatAux_append, toNatAux_ofNatAux fuel (n / 10) (by omega), Option.bind_some, toNatAux_digit _ (by omega)]
      congr 1
      omega

theorem toNat_ofNat (n : Nat) : toNat? (ofNat n) = some n := by
  unfold toNat? ofNat
  rw [if_neg (ofNatAux_ne_nil n n)]
  exact toNatAux_ofNatAux n n le_rfl

theorem toNat_two {n : Nat} (h : n < 100) : toNat? (two n) = some n := by
  unfold toNat? two
  rw [if_neg (by simp)]
  have : ([digit (n / 10), digit (n % 10)] : Text) = [digit (n / 10)] ++ [digit (n % 10)] := rfl
  rw [this, toNatAux_append, toNatAux_digit _ (by omega), Option.bind_some, toNatAux_digit _ (by omega)]
  congr 1
  omega

theorem digits_no {p : Char → Bool} {t : Text} (h : ∀ c ∈ t, IsDigit c) (hp : ∀ n < 10, p (digit n) = false) : ∀ c ∈ t, p c = false := by
  intro c hc
  obtain ⟨n, hn, rfl⟩ := h c hc
  exact hp n hn

section number
variable {K : Type} [Field K] [LinearOrder K] [IsStrictOrderedRing K] [FloorSemiring K]

theorem roundEven_spec {x : K} (hx : 0 ≤ x) : |x - (roundEven x : K)| ≤ 1 / 2 ∧ (|x - (roundEven x : K)| = 1 / 2 → roundEven x % 2 = 0) := by
  have h1 := Nat.floor_le hx
  have h2 := Nat.lt_floor_add_one x
  unfold roundEven
  by_cases c1 : x - ⌊x⌋₊ < 1 / 2
  · rw [if_pos c1, abs_of_nonneg (by linarith)]
    exact ⟨c1.le, fun e => absurd e c1.ne⟩
  · rw [if_neg c1]
    by_cases c2 : 1 / 2 < x - ⌊x⌋₊
    · rw [if_pos c2]
      push_cast
      rw [abs_of_nonpos (by linarith)]
      exact ⟨by linarith, fun e => absurd c2 (by linarith)⟩
    · rw [if_neg c2]
      have c3 : x - ⌊x⌋₊ = 1 / 2 := le_antisymm (not_lt.1 c2) (not_lt.1 c1)
      by_cases c4 : ⌊x⌋₊ % 2 = 0
      · rw [if_pos c4, c3, abs_of_nonneg (by norm_num)]
        exact ⟨le_rfl, fun _ => c4⟩
      · rw [if_neg c4]
        push_cast
        rw [show x - ((⌊x⌋₊ : K) + 1) = -(1 / 2) by linarith, abs_neg, abs_of_nonneg (by norm_num)]
        exact ⟨le_rfl, fun _ => by omega⟩

theorem hundredths_read {x : K} : unsigned? (hundredths x) = some (.fin ((roundEven (x * 100) : K) / 100)) := by
  unfold hundredths
  dsimp only
  generalize roundEven (x * 100) = r
  have hd : ∀ c ∈ ofNat (r / 100), (c == '.') = false := digits_no (ofNat_digits _) fun n hn => by simpa using (digit_spec n hn).2.2.1
  have ht : ∀ c ∈ two (r % 100), (c == '.') = false :=
    digits_no (two_digits (by omega)) fun n hn => by simpa using (digit_spec n hn).2.2.1
  unfold unsigned?
  rw [if_neg, splitBy_sep (by rfl) _ hd, splitBy_none ht]
  · dsimp only
    rw [toNat_ofNat, toNat_two (by omega)]
    dsimp only
    congr 2
    have e : (two (r % 100)).length = 2 := rfl
    rw [e]
    have hr : (r : K) = 100 * ((r / 100 : Nat) : K) + ((r % 100 : Nat) : K) := by
      have := Nat.div_add_mod r 100
      exact_mod_cast this.symm
    rw [hr]
    field_simp
    ring
  · intro e
    cases ho : ofNat (r / 100) with
    | nil => exact ofNatAux_ne_nil _ _ ho
    | cons c cs =>
      rw [ho, List.cons_append] at e
      obtain ⟨n, hn, hc⟩ := ofNat_digits (r / 100) c (by rw [ho]; simp)
      have := (List.cons.inj e).1
      exact (digit_spec n hn).2.2.2.2.2.1 (hc ▸ this)

theorem hundredths_head (x : K) : ∃ n < 10, ∃ r, hundredths x = digit n :: r := by
  unfold hundredths
  dsimp only
  cases ho : ofNat (roundEven (x * 100) / 100) with
  | nil => exact absurd ho (ofNatAux_ne_nil _ _)
  | cons c cs =>
    obtain ⟨n, hn, hc⟩ := ofNat_digits (roundEven (x * 100) / 100) c (by rw [ho]; simp)
    exact ⟨n, hn, cs ++ '.' :: two _, by rw [hc]; rfl⟩

/-- the number that `{:.2f}` prints -/
def rounded2 (x : K) : K := if x < 0 then -((roundEven (-x * 100) : K) / 100) else (roundEven (x * 100) : K) / 100

/-- what is read back: the rounded number -/
def printed : XF K → XF K
  | .fin x => .fin (rounded2 x)
  | y => y

omit [IsStrictOrderedRing K] [FloorSemiring K] in
theorem number_minus {r : Text} : (number? ('-' :: r) : Option (XF K)) = (unsigned? r).map fun x => -x := rfl

omit [IsStrictOrderedRing K] [FloorSemiring K] in
theorem number_digit {n : Nat} (hn : n < 10) (r : Text) : (number? (digit n :: r) : Option (XF K)) = unsigned? (digit n :: r) := by
  have h := digit_spec n hn
  unfold number?
  split
  · rename_i heq
    exact absurd (List.cons.inj heq).1 h.2.2.2.1
  · rw [if_neg (fun e => h.2.2.2.2.1 (List.cons.inj e).1)]

theorem number_fixed2 (x : XF K) : number? (fixed2 x) = some (printed x) := by
  cases x with
  | nan => rfl
  | pinf =>
    unfold fixed2 number?
    simp only [List.cons.injEq, reduceCtorEq]
    rw [if_neg (by decide)]
    rfl
  | ninf =>
    show (unsigned? ['i', 'n', 'f']).map _ = _
    unfold unsigned?
    rw [if_pos rfl]
    rfl
  | fin x =>
    unfold fixed2 printed rounded2
    dsimp only
    by_cases h : x < 0
    · rw [if_pos h, if_pos h, number_minus, hundredths_read]
      rfl
    · rw [if_neg h, if_neg h]
      obtain ⟨n, hn, r, e⟩ := hundredths_head x
      rw [e, number_digit hn, ← e, hundredths_read]

/-- a printed cell: not empty, no white space, no quotation mark -/
theorem fixed2_chars (x : XF K) : fixed2 x ≠ [] ∧ ∀ c ∈ fixed2 x, isSpace c = false ∧ c ≠ '"' := by
  have hu : ∀ y : K, ∀ c ∈ hundredths y, isSpace c = false ∧ c ≠ '"' := by
    intro y c hc
    unfold hundredths at hc
    dsimp only at hc
    rw [List.mem_append, List.mem_cons] at hc
    have hdig : IsDigit c → isSpace c = false ∧ c ≠ '"' := by
      rintro ⟨n, hn, rfl⟩
      exact ⟨(digit_spec n hn).2.1, (digit_spec n hn).2.2.2.2.2.2.2.2⟩
    rcases hc with hc | rfl | hc
    · exact hdig (ofNat_digits _ c hc)
    · decide
    · exact hdig (two_digits (by omega) c hc)
  cases x with
  | nan => exact ⟨by simp [fixed2], by unfold fixed2; dsimp only; decide⟩
  | pinf => exact ⟨by simp [fixed2], by unfold fixed2; dsimp only; decide⟩
  | ninf => exact ⟨by simp [fixed2], by unfold fixed2; dsimp only; decide⟩
  | fin x =>
    unfold fixed2
    dsimp only
    by_cases h : x < 0
    · rw [if_pos h]
      refine ⟨by simp, fun c hc => ?_⟩
      rcases List.mem_cons.1 hc with rfl | hc
      · decide
      · exact hu _ c hc
    · rw [if_neg h]
      obtain ⟨n, hn, r, e⟩ := hundredths_head x
      exact ⟨by rw [e]; simp, hu _⟩

end number

/-! ## timestamps -/

theorem ofNat_four {y : Nat} (h1 : 1000 ≤ y) (h2 : y ≤ 9999) : ofNat y = two (y / 100) ++ two (y % 100) := by
  unfold ofNat
  obtain ⟨f, rfl⟩ : ∃ f, y = f + 4 := ⟨y - 4, by omega⟩
  unfold ofNatAux
  rw [if_neg (by omega)]
  unfold ofNatAux
  rw [if_neg (by omega)]
  unfold ofNatAux
  rw [if_neg (by omega)]
  unfold ofNatAux
  rw [if_pos (by omega)]
  unfold two
  have e1 : (f + 4) / 10 / 10 / 10 = (f + 4) / 100 / 10 := by omega
  have e2 : (f + 4) / 10 / 10 % 10 = (f + 4) / 100 % 10 := by omega
  have e3 : (f + 4) / 10 % 10 = (f + 4) % 100 / 10 := by omega
  have e4 : (f + 4) % 10 = (f + 4) % 100 % 10 := by omega
  rw [e1, e2, e3, e4]
  rfl

theorem time_read {y m d h n : Nat} (hy1 : 1000 ≤ y) (hy2 : y ≤ 9999) (hm : m < 100) (hd : d < 100) (hh : h < 24) (hn : n < 60) {day : Int}
    (hday : civil day = ((y : Int), (m : Int), (d : Int))) :
    time? (ofNat y ++ '-' :: two m ++ '-' :: two d ++ 'T' :: two h ++ ':' :: two n) = some (day * DAY + h * HOUR + n * MINUTE) := by
  have e : daysFromCivil y m d = day := by
    have := daysFromCivil_civil day
    rw [hday] at this
    exact this
  rw [← e] at hday ⊢
  have hy : toNat? (two (y / 100) ++ two (y % 100)) = some y := by rw [← ofNat_four hy1 hy2]; exact toNat_ofNat y
  rw [ofNat_four hy1 hy2]
  unfold time?
  simp only [two, List.cons_append, List.nil_append] at hy ⊢
  have g := fun {k : Nat} (hk : k < 100) => toNat_two hk
  simp only [two] at g
  rw [hy, g hm, g hd, g (by omega : h < 100), g (by omega : n < 100)]
  dsimp only
  rw [if_pos ⟨hday, hh, hn⟩]

/-- the years that are written with four digits -/
def FourDigits (t : Time) : Prop := 1000 ≤ yearOf t ∧ yearOf t ≤ 9999

theorem time_stampHour {t : Time} (h : FourDigits t) : time? (stampHour t) = some (t - t % MINUTE) := by
  unfold stampHour
  have hb := civil_bounds (dayOf t)
  obtain ⟨h1, h2⟩ := h
  have hm : 1 ≤ monthOf t ∧ monthOf t ≤ 12 := ⟨hb.1, hb.2.1⟩
  have hd : 1 ≤ domOf t ∧ domOf t ≤ 31 := ⟨hb.2.2.1, hb.2.2.2⟩
  rw [time_read (day := dayOf t) (by omega) (by omega) (by omega) (by omega) (by unfold hourOf; omega) (by unfold minuteOf; omega)]
  · congr 1
    unfold dayOf hourOf minuteOf
    omega
  · rw [Int.toNat_of_nonneg (by omega), Int.toNat_of_nonneg (by omega), Int.toNat_of_nonneg (by omega)]
    rfl

theorem time_stampDay {t : Time} (h : FourDigits t) : time? (stampDay t) = some (midnight (dayOf t)) := by
  unfold stampDay
  have hb := civil_bounds (dayOf t)
  obtain ⟨h1, h2⟩ := h
  have hm : 1 ≤ monthOf t ∧ monthOf t ≤ 12 := ⟨hb.1, hb.2.1⟩
  have hd : 1 ≤ domOf t ∧ domOf t ≤ 31 := ⟨hb.2.2.1, hb.2.2.2⟩
  have e := time_read (day := dayOf t) (y := (yearOf t).toNat) (m := (monthOf t).toNat) (d := (domOf t).toNat) (h := 0) (n := 0)
    (by omega) (by omega) (by omega) (by omega) (by omega) (by omega)
    (by rw [Int.toNat_of_nonneg (by omega), Int.toNat_of_nonneg (by omega), Int.toNat_of_nonneg (by omega)]; rfl)
  have e0 : 'T' :: two 0 ++ ':' :: two 0 = ['T', '0', '0', ':', '0', '0'] := by decide
  rw [List.append_assoc _ ('T' :: two 0), e0] at e
  rw [e]
  congr 1
  unfold midnight
  omega

theorem stamp_chars {t : Time} (h : FourDigits t) (daily : Bool) :
    (if daily then stampDay t else stampHour t) ≠ [] ∧
    ∀ c ∈ (if daily then stampDay t else stampHour t), isSpace c = false ∧ c ≠ '"' := by
  have hb := civil_bounds (dayOf t)
  have hm : 1 ≤ monthOf t ∧ monthOf t ≤ 12 := ⟨hb.1, hb.2.1⟩
  have hd : 1 ≤ domOf t ∧ domOf t ≤ 31 := ⟨hb.2.2.1, hb.2.2.2⟩
  have hdig : ∀ c, IsDigit c → isSpace c = false ∧ c ≠ '"' := by
    rintro c ⟨n, hn, rfl⟩
    exact ⟨(digit_spec n hn).2.1, (digit_spec n hn).2.2.2.2.2.2.2.2⟩
  cases daily with
  | true =>
    rw [if_pos rfl]
    unfold stampDay
    refine ⟨by simp, fun c hc => ?_⟩
    simp only [List.mem_append, List.mem_cons, List.not_mem_nil, or_false] at hc
    rcases hc with ((hc | rfl | hc) | rfl | hc) | hc
    · exact hdig c (ofNat_digits _ c hc)
    · decide
    · exact hdig c (two_digits (by omega) c hc)
    · decide
    · exact hdig c (two_digits (by omega) c hc)
    · rcases hc with rfl | rfl | rfl | rfl | rfl | rfl <;> decide
  | false =>
    rw [if_neg (by simp)]
    unfold stampHour
    refine ⟨by simp, fun c hc => ?_⟩
    simp only [List.mem_append, List.mem_cons] at hc
    rcases hc with (((hc | rfl | hc) | rfl | hc) | rfl | hc) | rfl | hc
    · exact hdig c (ofNat_digits _ c hc)
    · decide
    · exact hdig c (two_digits (by omega) c hc)
    · decide
    · exact hdig c (two_digits (by omega) c hc)
    · decide
    · exact hdig c (two_digits (by unfold hourOf; omega) c hc)
    · decide
    · exact hdig c (two_digits (by unfold minuteOf; omega) c hc)

end Melodist.Text
