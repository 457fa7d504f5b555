import Verif.Lemmas.Mix
import Verif.Lemmas.Radiation

/-!
# Lemmas for C118: the cut-off of radiation and the limits of humidity
-/

set_option linter.unusedSectionVars false

namespace Melodist
open Spec

noncomputable section

variable {α β : ℝ}

/-- the cut of values below 0.01 -/
theorem radCell_cut {p mean g : XF ℝ} {x : ℝ} (h : p / mean * g = .fin x) (h0 : 0 ≤ x) : ∃ y, radCell p mean g = .fin y ∧ y ≤ x ∧ x ≤ y + 0.01 := by
  unfold radCell
  rw [h]
  simp only [XF.lt_fin]
  by_cases hx : x < 0.01
  · rw [if_pos hx]
    exact ⟨0, rfl, h0, by linarith⟩
  · rw [if_neg hx]
    exact ⟨x, rfl, le_refl x, by norm_num⟩

theorem radCell_missing {p mean g : XF ℝ} (h : p / mean * g = .nan) : radCell p mean g = .nan := by
  unfold radCell
  rw [h]
  simp [XF.lt]

/-- cells that are missing or percentages -/
theorem clip_mix {a b c : XF ℝ} (h : Mix α β a b c) (ha : ∀ x, a = .fin x → 0 ≤ x ∧ x ≤ 100) (hb : ∀ x, b = .fin x → 0 ≤ x ∧ x ≤ 100)
    (h0 : 0 ≤ α) (h1 : 0 ≤ β) (h2 : α + β = 1) : Mix α β (a.clip 0 100) (b.clip 0 100) (c.clip 0 100) := by
  have id : ∀ {x : ℝ}, 0 ≤ x ∧ x ≤ 100 → (XF.fin x).clip 0 100 = .fin x := by
    intro x hx
    show XF.fin (min (max x 0) 100) = _
    rw [max_eq_left hx.1, min_eq_left hx.2]
  have nan : ∀ a : XF ℝ, a.NanOrFin → a.clip 0 100 = .nan ∧ a = .nan ∨ ∃ x, a.clip 0 100 = .fin x ∧ ∃ y, a = .fin y := by
    intro a ha
    cases a with
    | nan => exact .inl ⟨rfl, rfl⟩
    | fin y => exact .inr ⟨_, rfl, y, rfl⟩
    | ninf => exact absurd ha (by simp [XF.NanOrFin])
    | pinf => exact absurd ha (by simp [XF.NanOrFin])
  rcases mix_iff.1 h with ⟨e, fa, fb, rfl⟩ | ⟨x, y, rfl, rfl, rfl⟩
  · show Mix α β (a.clip 0 100) (b.clip 0 100) .nan
    rcases nan a fa with ⟨k1, ea⟩ | ⟨x, k1, _, ea⟩ <;> rcases nan b fb with ⟨k2, eb⟩ | ⟨y, k2, _, eb⟩ <;> rw [k1, k2]
    · trivial
    · trivial
    · trivial
    · rw [ea, eb] at e; rcases e with e | e <;> cases e
  · have hx := ha x rfl
    have hy := hb y rfl
    rw [id hx, id hy, id ⟨by nlinarith [hx.1, hy.1, mul_nonneg h0 hx.1, mul_nonneg h1 hy.1], by nlinarith [mul_le_mul_of_nonneg_left hx.2 h0, mul_le_mul_of_nonneg_left hy.2 h1]⟩]
    exact rfl

theorem mix_fin {a b c : XF ℝ} (h : Mix α β a b c) : a.NanOrFin ∧ b.NanOrFin := by
  rcases mix_iff.1 h with ⟨_, fa, fb, _⟩ | ⟨x, y, rfl, rfl, _⟩
  · exact ⟨fa, fb⟩
  · exact ⟨XF.nanOrFin_fin x, XF.nanOrFin_fin y⟩

/-- a value between two percentages is one -/
theorem minmax_range {w a b : XF ℝ} (hw : w = .nan ∨ ∃ x, w = .fin x ∧ 0 ≤ x ∧ x ≤ 1) (fa : a.NanOrFin) (fb : b.NanOrFin)
    (pa : ∀ x, a = .fin x → 0 ≤ x ∧ x ≤ 100) (pb : ∀ x, b = .fin x → 0 ≤ x ∧ x ≤ 100) (x : ℝ) (hx : b + w * (a - b) = .fin x) : 0 ≤ x ∧ x ≤ 100 := by
  rcases hw with e | ⟨w, e, w0, w1⟩
  · rw [e, XF.nan_mul, XF.add_nan] at hx; cases hx
  · rw [e] at hx
    cases a with
    | nan => rw [XF.nan_sub, XF.mul_nan, XF.add_nan] at hx; cases hx
    | ninf => exact absurd fa (by simp [XF.NanOrFin])
    | pinf => exact absurd fa (by simp [XF.NanOrFin])
    | fin a =>
      cases b with
      | nan => rw [XF.nan_add] at hx; cases hx
      | ninf => exact absurd fb (by simp [XF.NanOrFin])
      | pinf => exact absurd fb (by simp [XF.NanOrFin])
      | fin b =>
        rw [XF.fin_sub_fin, XF.fin_mul_fin, XF.fin_add_fin] at hx
        cases hx
        obtain ⟨p0, p1⟩ := pa _ rfl
        obtain ⟨r0, r1⟩ := pb _ rfl
        constructor <;> nlinarith [mul_nonneg w0 p0, mul_nonneg (sub_nonneg.2 w1) r0, mul_nonneg w0 (sub_nonneg.2 p1), mul_nonneg (sub_nonneg.2 w1) (sub_nonneg.2 r1)]

end

end Melodist
