import Verif.Lemmas.FilesRoundB
import Verif.Lemmas.SmetAgain

/-!
# Error bounds for cells of KNMI and DWD files: lemmas for C147
-/

set_option linter.unusedSectionVars false

namespace Melodist.DataIO

open Text Spec

variable {fl : ℝ → ℝ} {parse : Text → ℝ → ℝ}

theorem code_value {x : Numeral} (h : x.frac = []) (hw : x.whole < 10 ^ 9) : ∃ n : ℤ, (x.value : ℝ) = n ∧ |n| ≤ 10 ^ 15 := by
  unfold Numeral.value
  rw [h]
  dsimp only
  by_cases c : x.neg
  · exact ⟨-(x.whole : ℤ), by rw [if_pos c]; push_cast; simp, by rw [abs_neg, abs_of_nonneg (by positivity)]; norm_num at hw ⊢; omega⟩
  · exact ⟨(x.whole : ℤ), by rw [if_neg c]; push_cast; simp, by rw [abs_of_nonneg (by positivity)]; norm_num at hw ⊢; omega⟩

theorem code_length {x : Numeral} (h : x.frac = []) (hw : x.whole < 10 ^ 9) : x.text.length ≤ 15 := by
  unfold Numeral.text
  rw [if_pos h]
  have := ofNat_length (k := 8) hw
  rw [List.append_nil, List.length_append]
  by_cases c : x.neg
  · rw [if_pos c]; simp; omega
  · rw [if_neg c]; simp; omega

theorem code_read (P : ReadsDecimals fl parse) {x : Numeral} (h : KnmiCode (some x)) : parse x.text x.value = x.value := by
  obtain ⟨n, hn, hb⟩ := code_value h.1 h.2
  rw [hn]
  exact P.whole _ n (code_length h.1 h.2) hb

theorem cellR_eq (P : ReadsDecimals fl parse) {o : Option Numeral} (h : KnmiCode o) : cellR parse o = cellOf id o := by
  cases o with
  | none => rfl
  | some x =>
    show XF.fin _ = XF.fin _
    rw [code_read P h]
    rfl

variable (hfl : ∀ x, |fl x - x| ≤ |x| / 2 ^ 53)
include hfl

theorem knmi_wind (P : ReadsDecimals fl parse) {o : Option Numeral} (h : KnmiCode o) :
    CellNear (fun x => x / 10) (fun x => |x / 10| / 2 ^ 53) o ((cellR parse o / .fin 10).rnd fl) := by
  rw [cellR_eq P h]
  cases o with
  | none => rfl
  | some x =>
    refine ⟨fl (x.value / 10), ?_, hfl _⟩
    show (XF.fin (id (x.value : ℝ)) / XF.fin 10).rnd fl = _
    rw [XF.fin_div_fin_of_ne _ (by norm_num)]
    rfl

theorem knmi_ssd (P : ReadsDecimals fl parse) {o : Option Numeral} (h : KnmiCode o) :
    CellNear (fun x => x * 6) (fun x => |x * 6| / 2 ^ 53) o ((cellR parse o * .fin 6).rnd fl) := by
  rw [cellR_eq P h]
  cases o with
  | none => rfl
  | some x => exact ⟨fl (x.value * 6), rfl, hfl _⟩

omit hfl in
theorem knmi_hum (P : ReadsDecimals fl parse) {o : Option Numeral} (h : KnmiCode o) : CellNear (fun x => x) (fun _ => 0) o (cellR parse o) := by
  rw [cellR_eq P h]
  cases o with
  | none => rfl
  | some x => exact ⟨x.value, rfl, by simp⟩

theorem knmi_precip (P : ReadsDecimals fl parse) {o : Option Numeral} (h : KnmiCode o) :
    CellNear (fun x => max 0 (x / 10)) (fun x => max 0 (x / 10) / 2 ^ 53) o
      (if XF.lt ((cellR parse o / .fin 10).rnd fl) (.fin 0) then .fin 0 else (cellR parse o / .fin 10).rnd fl) := by
  rw [cellR_eq P h]
  cases o with
  | none => rfl
  | some x =>
    have e : (cellOf id (some x) / XF.fin (10 : ℝ)).rnd fl = XF.fin (fl (x.value / 10)) := by
      show (XF.fin (id (x.value : ℝ)) / XF.fin 10).rnd fl = _
      rw [XF.fin_div_fin_of_ne _ (by norm_num)]
      rfl
    rw [e]
    simp only [XF.lt_fin]
    have key : ∀ y : ℝ, ∃ w, (if fl y < 0 then XF.fin 0 else XF.fin (fl y)) = XF.fin w ∧ |w - max 0 y| ≤ max 0 y / 2 ^ 53 := by
      intro y
      have hy := hfl y
      by_cases c : y < 0
      · have : fl y < 0 := by
          rw [abs_of_neg c] at hy
          have := (abs_le.1 hy).2
          have h2 : -y / 2 ^ 53 ≤ -y / 2 := by gcongr <;> [linarith; norm_num]
          linarith
        rw [if_pos this, max_eq_left c.le]
        exact ⟨0, rfl, by simp⟩
      · have c := not_lt.1 c
        rw [abs_of_nonneg c] at hy
        have : ¬ fl y < 0 := by
          have := (abs_le.1 hy).1
          have h2 : y / 2 ^ 53 ≤ y / 2 := by gcongr; norm_num
          intro h
          linarith
        rw [if_neg this, max_eq_right c]
        exact ⟨_, rfl, hy⟩
    exact key _

theorem knmi_glob (P : ReadsDecimals fl parse) {o : Option Numeral} (h : KnmiCode o) :
    CellNear (fun x => x * 10000 / 3600) (fun x => |x * 10000 / 3600| / 2 ^ 51) o (((cellR parse o * .fin 10000).rnd fl / .fin 3600).rnd fl) := by
  rw [cellR_eq P h]
  cases o with
  | none => rfl
  | some x =>
    refine ⟨fl (fl (x.value * 10000) / 3600), ?_, ?_⟩
    · show (XF.fin (fl (id (x.value : ℝ) * 10000)) / XF.fin 3600).rnd fl = _
      rw [XF.fin_div_fin_of_ne _ (by norm_num)]
      rfl
    · show |fl (fl (x.value * 10000) / 3600) - x.value * 10000 / 3600| ≤ |x.value * 10000 / 3600| / 2 ^ 51
      generalize (x.value : ℝ) * 10000 = y
      have h1 := hfl y
      have h2 := hfl (fl y / 3600)
      have h3 := abs_add_le (fl (fl y / 3600) - fl y / 3600) (fl y / 3600 - y / 3600)
      have h4 : |fl y / 3600 - y / 3600| = |fl y - y| / 3600 := by
        rw [← sub_div, abs_div, abs_of_pos (by norm_num : (0 : ℝ) < 3600)]
      have h5 := abs_sub_abs_le_abs_sub (fl y) y
      rw [sub_add_sub_cancel, h4] at h3
      rw [abs_div, abs_of_pos (by norm_num : (0 : ℝ) < 3600)] at h2 ⊢
      norm_num at *
      linarith [abs_nonneg y]

theorem kelvin_near {v x B : ℝ} (hv : |v - x| ≤ |x| / 2 ^ 50) (hB : |x| ≤ B) : |fl (v + fl (5463 / 20)) - (x + 273.15)| ≤ (B + 274) / 2 ^ 49 := by
  have h1 := hfl (5463 / 20)
  have h2 := hfl (v + fl (5463 / 20))
  rw [abs_of_pos (by norm_num : (0 : ℝ) < 5463 / 20)] at h1
  generalize fl (5463 / 20) = k at *
  have h3 := abs_add_le (fl (v + k) - (v + k)) ((v + k) - (x + 5463 / 20))
  have h4 := abs_add_le (v - x) (k - 5463 / 20)
  have h5 : |v + k| ≤ |v - x| + |x| + |k - 5463 / 20| + 5463 / 20 := by
    have a1 := abs_add_le (v - x) x
    have a2 := abs_add_le (k - 5463 / 20) (5463 / 20)
    have a3 := abs_add_le v k
    rw [sub_add_cancel] at a1 a2
    rw [abs_of_pos (by norm_num : (0 : ℝ) < 5463 / 20)] at a2
    linarith
  rw [sub_add_sub_cancel, show v + k - (x + 5463 / 20) = (v - x) + (k - 5463 / 20) by ring] at h3
  rw [show (273.15 : ℝ) = 5463 / 20 by norm_num]
  generalize |v - x| = a at *
  generalize |k - 5463 / 20| = b at *
  generalize |v + k| = c at *
  generalize |fl (v + k) - (x + 5463 / 20)| = d at *
  have hx := abs_nonneg x
  generalize |x| = m at *
  norm_num at *
  linarith

theorem knmi_temp (P : ReadsDecimals fl parse) {o : Option Numeral} (h : KnmiCode o) :
    CellNear (fun x => x / 10 + 273.15) (fun x => (|x / 10| + 274) / 2 ^ 49) o (((cellR parse o / .fin 10).rnd fl + .fin (fl (5463 / 20))).rnd fl) := by
  rw [cellR_eq P h]
  cases o with
  | none => rfl
  | some x =>
    refine ⟨fl (fl (x.value / 10) + fl (5463 / 20)), ?_, ?_⟩
    · have e : (cellOf id (some x) / XF.fin (10 : ℝ)).rnd fl = XF.fin (fl (x.value / 10)) := by
        show (XF.fin (id (x.value : ℝ)) / XF.fin 10).rnd fl = _
        rw [XF.fin_div_fin_of_ne _ (by norm_num)]
        rfl
      rw [e]
      rfl
    · refine kelvin_near hfl ((hfl _).trans ?_) le_rfl
      gcongr <;> norm_num

/-! ## DWD -/

omit hfl in
/-- a number with at most nine decimals other than -999 is not read as -999 -/
theorem dwd_code (P : ReadsDecimals fl parse) {x : Numeral} (hl : x.text.length ≤ 15) (hf : x.frac.length ≤ 9) :
    parse x.text x.value = -999 ↔ (x.value : ℝ) = -999 := by
  constructor
  · intro e
    have h := P.err x.text x.value hl
    rw [e] at h
    by_contra hne
    have h10 : (0 : ℝ) < 10 ^ x.frac.length := by positivity
    obtain ⟨n, hn⟩ : ∃ n : ℤ, (x.value : ℝ) * 10 ^ x.frac.length = n := by
      unfold Numeral.value
      dsimp only
      by_cases c : x.neg
      · refine ⟨-((x.whole : ℤ) * 10 ^ x.frac.length + (x.frac.foldl (fun (n : Nat) d => 10 * n + d.val) 0 : Nat)), ?_⟩
        rw [if_pos c]
        push_cast
        field_simp
      · refine ⟨(x.whole : ℤ) * 10 ^ x.frac.length + (x.frac.foldl (fun (n : Nat) d => 10 * n + d.val) 0 : Nat), ?_⟩
        rw [if_neg c]
        push_cast
        field_simp
    have h1 : (n + 999 * 10 ^ x.frac.length : ℤ) ≠ 0 := by
      intro e
      apply hne
      have e' : (n : ℝ) + 999 * 10 ^ x.frac.length = 0 := by exact_mod_cast e
      have : ((x.value : ℝ) + 999) * 10 ^ x.frac.length = 0 := by rw [add_mul, hn]; exact e'
      rcases mul_eq_zero.1 this with h | h
      · linarith
      · exact absurd h h10.ne'
    have h2 : (1 : ℝ) ≤ |((x.value : ℝ) + 999)| * 10 ^ x.frac.length := by
      have h2 : (1 : ℝ) ≤ |(n : ℝ) + 999 * 10 ^ x.frac.length| := by exact_mod_cast Int.one_le_abs h1
      rw [← hn, ← add_mul, abs_mul, abs_of_pos h10] at h2
      exact h2
    have h3 : (10 : ℝ) ^ x.frac.length ≤ 10 ^ 9 := pow_le_pow_right₀ (by norm_num) hf
    have h4 : (1 : ℝ) ≤ |((x.value : ℝ) + 999)| * 10 ^ 9 := h2.trans (by gcongr)
    rw [show (-999 : ℝ) - x.value = -(x.value + 999) by ring, abs_neg] at h
    have h5 : |(x.value : ℝ)| ≤ |(x.value : ℝ) + 999| + 999 := by
      have := abs_add_le ((x.value : ℝ) + 999) (-999)
      rw [add_neg_cancel_right, abs_neg, abs_of_pos (by norm_num : (0 : ℝ) < 999)] at this
      exact this
    generalize |(x.value : ℝ) + 999| = a at *
    generalize |(x.value : ℝ)| = b at *
    norm_num at *
    linarith
  · intro e
    have := P.whole x.text (-999) hl (by norm_num)
    rw [show (((-999 : ℤ)) : ℝ) = -999 by norm_num] at this
    rw [e, this]

theorem dwd_near (P : ReadsDecimals fl parse) (kelvin : Bool) {o : Option Numeral} (ho : ∀ x, o = some x → x.text.length ≤ 15 ∧ x.frac.length ≤ 9) :
    DwdNear kelvin o (dwdCellR fl parse kelvin o) := by
  cases o with
  | none => rfl
  | some x =>
    obtain ⟨hl, hf⟩ := ho x rfl
    have hc := dwd_code P hl hf
    unfold DwdNear dwdCellR
    dsimp only
    by_cases c : (x.value : ℝ) = -999
    · rw [if_pos c, if_pos (hc.2 c)]
    · rw [if_neg c, if_neg fun e => c (hc.1 e)]
      refine ⟨_, rfl, ?_⟩
      have he := P.err x.text x.value hl
      cases kelvin with
      | false => simpa using he
      | true =>
        rw [if_pos rfl, if_pos rfl]
        exact kelvin_near hfl he le_rfl

end Melodist.DataIO
