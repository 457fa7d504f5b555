import Verif.Lemmas.SmetRound
import Verif.Lemmas.DataIO
import Verif.Spec.FilesRound
import Verif.Props.Smet
import Mathlib.Tactic.Linarith
import Mathlib.Tactic.Ring

/-!
# Cells of files in floating-point arithmetic: lemmas for C147
-/

set_option linter.unusedSectionVars false

namespace Melodist

open Text Spec Smet

/-! ## lengths of texts -/

theorem ofNatAux_length : ∀ (k fuel n : Nat), n < 10 ^ (k + 1) → (ofNatAux fuel n).length ≤ k + 1
  | k, 0, n, _ => by unfold ofNatAux; simp
  | 0, fuel + 1, n, h => by
    unfold ofNatAux
    rw [if_pos (by simpa using h)]
    simp
  | k + 1, fuel + 1, n, h => by
    unfold ofNatAux
    by_cases c : n < 10
    · rw [if_pos c]; simp
    · rw [if_neg c, List.length_append, List.length_singleton]
      have := ofNatAux_length k fuel (n / 10) (by rw [Nat.div_lt_iff_lt_mul (by norm_num)]; rw [pow_succ] at h; exact h)
      omega

theorem ofNat_length {k n : Nat} (h : n < 10 ^ (k + 1)) : (ofNat n).length ≤ k + 1 := ofNatAux_length k n n h

theorem hundredths_length {x : ℝ} (hx : 0 ≤ x) (h : x ≤ 10 ^ 9) : (hundredths x).length ≤ 14 := by
  unfold hundredths
  dsimp only
  obtain ⟨h1, _⟩ := roundEven_spec (x := x * 100) (by positivity)
  have h2 : ((roundEven (x * 100) : ℕ) : ℝ) ≤ 10 ^ 11 + 1 := by
    have := (abs_le.1 h1).1
    linarith
  have h3 : roundEven (x * 100) ≤ 10 ^ 11 + 1 := by exact_mod_cast h2
  have h4 : roundEven (x * 100) / 100 < 10 ^ (9 + 1) := by
    rw [Nat.div_lt_iff_lt_mul (by norm_num)]
    norm_num at h3 ⊢
    omega
  have := ofNat_length h4
  have e : (two (roundEven (x * 100) % 100)).length = 2 := rfl
  rw [List.length_append, List.length_cons, e]
  omega

theorem fixed2_length {x : ℝ} (h : |x| ≤ 10 ^ 9) : (fixed2 (.fin x)).length ≤ 15 := by
  unfold fixed2
  dsimp only
  by_cases c : x < 0
  · rw [if_pos c, List.length_cons]
    have := hundredths_length (x := -x) (by linarith) (by rw [abs_of_neg c] at h; exact h)
    omega
  · rw [if_neg c]
    have := hundredths_length (x := x) (not_lt.1 c) (by rw [abs_of_nonneg (not_lt.1 c)] at h; exact h)
    omega

/-! ## SMET cells -/

variable {fl : ℝ → ℝ} {parse : Text → ℝ → ℝ}

theorem IsRounded2.abs_le {x y : ℝ} (h : IsRounded2 x y) : |y| ≤ |x| + 1 / 200 := by
  obtain ⟨_, _, h, _⟩ := h
  have := abs_sub_abs_le_abs_sub y x
  rw [abs_sub_comm] at this
  linarith

/-- a hundredth other than -999 is not read as -999 -/
theorem parse_ne {t : Text} (P : ReadsDecimals fl parse) (ht : t.length ≤ 15) {y : ℝ} (hy : ∃ n : ℤ, y = n / 100) (hb : |y| ≤ 10 ^ 9 + 1) :
    parse t y = -999 ↔ y = -999 := by
  constructor
  · intro e
    have h := P.err t y ht
    rw [e] at h
    obtain ⟨n, rfl⟩ := hy
    by_contra hne
    have h1 : (n + 99900 : ℤ) ≠ 0 := by
      intro e
      apply hne
      have : (n : ℝ) = -99900 := by
        have : n = -99900 := by omega
        exact_mod_cast this
      rw [this]; norm_num
    have h2 : (1 : ℝ) ≤ |(n : ℝ) + 99900| := by exact_mod_cast Int.one_le_abs h1
    have h3 : |(-999 : ℝ) - n / 100| = |(n : ℝ) + 99900| / 100 := by
      rw [show (-999 : ℝ) - n / 100 = -((n + 99900) / 100) by ring, abs_neg, abs_div, abs_of_pos (by norm_num : (0 : ℝ) < 100)]
    rw [h3] at h
    have h4 : |(n : ℝ) / 100| / 2 ^ 50 ≤ (10 ^ 9 + 1) / 2 ^ 50 := by gcongr
    norm_num at h4
    linarith
  · rintro rfl
    have := P.whole t (-999) ht (by norm_num)
    exact_mod_cast this

theorem shownR_back (P : ReadsDecimals fl parse) {x : XF ℝ} (hx : Printable x) :
    ShownR x (if (printed x).rnd (parse (fixed2 x)) = .fin (-999) then .nan else (printed x).rnd (parse (fixed2 x))) := by
  cases x with
  | nan => show _ = _; simp [printed, XF.rnd]
  | pinf => show _ = _; simp [printed, XF.rnd]
  | ninf => show _ = _; simp [printed, XF.rnd]
  | fin x =>
    have hr := rounded2_spec x
    have hl := fixed2_length hx
    have hx : |x| ≤ 10 ^ 9 := hx
    refine ⟨rounded2 x, hr, ?_⟩
    have hb : |rounded2 x| ≤ 10 ^ 9 + 1 := by linarith [IsRounded2.abs_le hr]
    have hiff := parse_ne P hl (by obtain ⟨n, hn, _⟩ := hr; exact ⟨n, hn⟩) hb
    show if rounded2 x = -999 then (if XF.fin (parse (fixed2 (.fin x)) (rounded2 x)) = .fin (-999) then XF.nan else XF.fin (parse (fixed2 (.fin x)) (rounded2 x))) = .nan else _
    by_cases c : rounded2 x = -999
    · rw [if_pos c, if_pos (by rw [hiff.2 c])]
    · rw [if_neg c]
      refine ⟨parse (fixed2 (.fin x)) (rounded2 x), ?_, P.err _ _ hl⟩
      show (if XF.fin (parse (fixed2 (.fin x)) (rounded2 x)) = .fin (-999) then XF.nan else XF.fin (parse (fixed2 (.fin x)) (rounded2 x))) = _
      rw [if_neg]
      intro e
      exact c (hiff.1 (XF.fin.inj e))

theorem cellBackR_back (P : ReadsDecimals fl parse) {nodata x : XF ℝ} (hn : Printable nodata) (hx : Printable x) :
    CellBackR nodata x (backR parse nodata x) := by
  unfold backR
  cases x with
  | nan => exact shownR_back P hn
  | pinf => exact shownR_back P (x := .pinf) trivial
  | ninf => exact shownR_back P (x := .ninf) trivial
  | fin x => exact shownR_back P hx

/-- a number near an integer is rounded to it -/
theorem roundEven_near {x : ℝ} {n : ℕ} (hx : 0 ≤ x) (h : |x - n| < 1 / 2) : roundEven x = n := by
  obtain ⟨h1, _⟩ := roundEven_spec hx
  have h2 : |((roundEven x : ℕ) : ℝ) - n| < 1 := by
    have := abs_add_le (((roundEven x : ℕ) : ℝ) - x) (x - n)
    rw [sub_add_sub_cancel, abs_sub_comm ((roundEven x : ℕ) : ℝ) x] at this
    linarith
  have h3 : |((roundEven x : ℕ) : ℤ) - n| < 1 := by exact_mod_cast h2
  have := Int.abs_lt_one_iff.1 h3
  omega

/-- a number that is read from a printed one is printed in the same way -/
theorem fixed2_again {x w : ℝ} (hx : |x| ≤ 10 ^ 9) (hz : 0 ≤ x ∨ x < -(1 / 200)) (hw : |w - rounded2 x| ≤ |rounded2 x| / 2 ^ 50) :
    fixed2 (.fin w) = fixed2 (.fin x) := by
  have hr := rounded2_spec x
  have hb : |rounded2 x| ≤ 10 ^ 9 + 1 := by linarith [IsRounded2.abs_le hr]
  have hw' : |w - rounded2 x| ≤ 1 / 1000 := by
    refine hw.trans ((div_le_div_of_nonneg_right hb (by positivity)).trans ?_)
    norm_num
  unfold rounded2 at *
  unfold fixed2
  dsimp only
  by_cases c : x < 0
  · rw [if_pos c] at *
    have hx1 : x < -(1 / 200) := by rcases hz with h | h <;> linarith
    obtain ⟨h1, _⟩ := roundEven_spec (x := -x * 100) (by linarith)
    have hn0 : 0 < roundEven (-x * 100) := by
      rw [Nat.pos_iff_ne_zero]
      intro e
      rw [e] at h1
      have := (abs_le.1 h1).2
      push_cast at this
      linarith
    have hn1 : (1 : ℝ) ≤ (roundEven (-x * 100) : ℕ) := by exact_mod_cast hn0
    obtain ⟨a1, a2⟩ := abs_le.1 hw'
    have hwn : w < 0 := by linarith
    rw [if_pos hwn]
    congr 1
    unfold hundredths
    rw [roundEven_near (x := -w * 100) (n := roundEven (-x * 100)) (by linarith) (by rw [abs_lt]; constructor <;> linarith)]
  · rw [if_neg c] at *
    have hx0 := not_lt.1 c
    have hn1 : (0 : ℝ) ≤ (roundEven (x * 100) : ℕ) := by positivity
    obtain ⟨a1, a2⟩ := abs_le.1 hw'
    have hwn : 0 ≤ w := by
      by_cases e : roundEven (x * 100) = 0
      · rw [e] at hw
        norm_num at hw
        rw [hw]
      · have : (1 : ℝ) ≤ (roundEven (x * 100) : ℕ) := by exact_mod_cast Nat.one_le_iff_ne_zero.2 e
        linarith
    rw [if_neg (not_lt.2 hwn)]
    unfold hundredths
    rw [roundEven_near (x := w * 100) (n := roundEven (x * 100)) (by linarith) (by rw [abs_lt]; constructor <;> linarith)]

/-- the cell that is read back is written in the same way, the code for missing values being -999 -/
theorem back_printed (P : ReadsDecimals fl parse) {x : XF ℝ} (hx : Printable x) (hz : NoMinusZero x) :
    fixed2 (if (backR parse (.fin (-999)) x).isNan then .fin (-999) else backR parse (.fin (-999)) x) = fixed2 (if x.isNan then .fin (-999) else x) := by
  have h999 : rounded2 (-999 : ℝ) = -999 := by
    have h := rounded2_spec (-999 : ℝ)
    refine IsRounded2.unique h ⟨-99900, by norm_num, by norm_num, fun h => ?_⟩
    norm_num at h
  have hp : parse (fixed2 (.fin (-999 : ℝ))) (-999) = -999 := by
    have := P.whole (fixed2 (.fin (-999 : ℝ))) (-999) (fixed2_length (by rw [abs_neg, abs_of_pos] <;> norm_num)) (by norm_num)
    rw [show (((-999 : ℤ)) : ℝ) = -999 by norm_num] at this
    exact this
  cases x with
  | nan =>
    have : backR parse (.fin (-999)) .nan = .nan := by
      unfold backR
      show (if XF.fin (parse (fixed2 (.fin (-999))) (rounded2 (-999))) = XF.fin (-999) then XF.nan else _) = _
      rw [h999, hp, if_pos rfl]
    rw [this]
  | pinf => rfl
  | ninf => rfl
  | fin x =>
    have hx : |x| ≤ 10 ^ 9 := hx
    have hl := fixed2_length hx
    have hr := rounded2_spec x
    have hb : |rounded2 x| ≤ 10 ^ 9 + 1 := by linarith [IsRounded2.abs_le hr]
    have hiff := parse_ne P hl (by obtain ⟨n, hn, _⟩ := hr; exact ⟨n, hn⟩) hb
    have e : backR parse (.fin (-999)) (.fin x) = if XF.fin (parse (fixed2 (.fin x)) (rounded2 x)) = XF.fin (-999) then XF.nan else XF.fin (parse (fixed2 (.fin x)) (rounded2 x)) := rfl
    by_cases c : rounded2 x = -999
    · have e' : backR parse (.fin (-999)) (.fin x) = XF.nan := by rw [e, if_pos (by rw [hiff.2 c])]
      rw [e']
      show fixed2 (.fin (-999)) = fixed2 (.fin x)
      exact fixed2_again hx hz (by rw [c]; norm_num)
    · have e' : backR parse (.fin (-999)) (.fin x) = XF.fin (parse (fixed2 (.fin x)) (rounded2 x)) := by rw [e, if_neg fun e => c (hiff.1 (XF.fin.inj e))]
      rw [e']
      show fixed2 (.fin _) = fixed2 (.fin x)
      exact fixed2_again hx hz (P.err _ _ hl)

end Melodist
