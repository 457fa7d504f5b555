import Verif.Spec.Mono
import Verif.Lemmas.Locality
import Verif.Lemmas.LocalityB

/-!
# Lemmas for C101
-/

set_option linter.unusedSectionVars false

namespace Melodist
open Spec

section general
variable {K : Type} [Field K] [LinearOrder K] [IsStrictOrderedRing K]

theorem atMost_iff {a b : XF K} : AtMost a b ↔ (a = .nan ∧ b = .nan) ∨ ∃ x y, a = .fin x ∧ b = .fin y ∧ x ≤ y := by
  cases a <;> cases b <;> simp [AtMost]

theorem le_daily {d0 : Int} {n : Nat} {v v' : Nat → XF K} (h : SeriesAtMost (dailyS d0 n v) (dailyS d0 n v')) : ∀ i < n, AtMost (v i) (v' i) := by
  intro i hi
  unfold SeriesAtMost at h
  rw [List.forall₂_iff_get] at h
  have := (h.2 i (by simpa [dailyS] using hi) (by simpa [dailyS] using hi)).2
  simpa [dailyS] using this

theorem le_hourly {d0 : Int} {n : Nat} {f f' : Nat → Nat → XF K} (h : ∀ i < n, ∀ k < 24, AtMost (f i k) (f' i k)) :
    SeriesAtMost (hourlyS d0 n f) (hourlyS d0 n f') := by
  unfold SeriesAtMost hourlyS
  rw [List.forall₂_map_left_iff, List.forall₂_map_right_iff, List.forall₂_same]
  intro k hk
  rw [List.mem_range] at hk
  exact ⟨rfl, h _ (by omega) _ (Nat.mod_lt _ (by omega))⟩

/-- a column of two tables of the same days -/
theorem colAtMost_daily {f g : Frame K} {d0 : Int} {n : Nat} {name : String} {v v' : Nat → XF K} (h : ColAtMost f g name)
    (hf : f.col? name = some (dailyS d0 n v)) (hg : g.col? name = some (dailyS d0 n v')) : ∀ i < n, AtMost (v i) (v' i) := by
  obtain ⟨s, s', h1, h2, h3⟩ := h
  rw [hf] at h1; rw [hg] at h2
  cases h1; cases h2
  exact le_daily h3

theorem atMost_refl_of {a b : XF K} (h : AtMost a b) : AtMost a a := by
  rcases atMost_iff.1 h with ⟨rfl, rfl⟩ | ⟨x, y, rfl, rfl, _⟩
  · trivial
  · exact le_refl x

theorem atMost_scale {a b q : XF K} (h : AtMost a b) (hq : q = .nan ∨ ∃ c, q = .fin c ∧ 0 ≤ c) : AtMost (q * a) (q * b) := by
  rcases hq with rfl | ⟨c, rfl, hc⟩
  · rw [XF.nan_mul, XF.nan_mul]; trivial
  · rcases atMost_iff.1 h with ⟨rfl, rfl⟩ | ⟨x, y, rfl, rfl, hxy⟩
    · rw [XF.mul_nan]; trivial
    · rw [XF.fin_mul_fin, XF.fin_mul_fin]
      exact mul_le_mul_of_nonneg_left hxy hc

theorem atMost_add {a b a' b' : XF K} (h : AtMost a b) (h' : AtMost a' b') : AtMost (a + a') (b + b') := by
  rcases atMost_iff.1 h with ⟨rfl, rfl⟩ | ⟨x, y, rfl, rfl, hxy⟩
  · rw [XF.nan_add, XF.nan_add]; trivial
  · rcases atMost_iff.1 h' with ⟨rfl, rfl⟩ | ⟨x', y', rfl, rfl, hxy'⟩
    · rw [XF.add_nan, XF.add_nan]; trivial
    · rw [XF.fin_add_fin, XF.fin_add_fin]
      exact add_le_add hxy hxy'

/-- between `lo` and `hi`, the share `c` from -1 (all `lo`) to 1 (all `hi`) -/
theorem atMost_mix {lo lo' hi hi' c : XF K} (h1 : AtMost lo lo') (h2 : AtMost hi hi') (hc : c = .nan ∨ ∃ x, c = .fin x ∧ -1 ≤ x ∧ x ≤ 1) :
    AtMost (lo + (hi - lo) / .fin 2 + (hi - lo) / .fin 2 * c) (lo' + (hi' - lo') / .fin 2 + (hi' - lo') / .fin 2 * c) := by
  rcases hc with rfl | ⟨c, rfl, c1, c2⟩
  · simp only [XF.mul_nan, XF.add_nan]; trivial
  · rcases atMost_iff.1 h1 with ⟨rfl, rfl⟩ | ⟨x, y, rfl, rfl, hxy⟩
    · simp only [XF.nan_add]; trivial
    · rcases atMost_iff.1 h2 with ⟨rfl, rfl⟩ | ⟨x', y', rfl, rfl, hxy'⟩
      · simp only [XF.nan_sub, XF.nan_div, XF.nan_mul, XF.add_nan]; trivial
      · have h2 : (2 : K) ≠ 0 := by norm_num
        simp only [XF.fin_sub_fin, XF.fin_div_fin_of_ne _ h2, XF.fin_mul_fin, XF.fin_add_fin]
        show x + (x' - x) / 2 + (x' - x) / 2 * c ≤ y + (y' - y) / 2 + (y' - y) / 2 * c
        nlinarith [mul_nonneg (sub_nonneg.2 hxy) (by linarith : 0 ≤ 1 - c), mul_nonneg (sub_nonneg.2 hxy') (by linarith : 0 ≤ 1 + c)]

end general

theorem cos_range (x : XF ℝ) : XF.cos x = .nan ∨ ∃ c, XF.cos x = .fin c ∧ -1 ≤ c ∧ c ≤ 1 := by
  cases x with
  | fin x => exact .inr ⟨_, rfl, Real.neg_one_le_cos x, Real.cos_le_one x⟩
  | nan => exact .inl rfl
  | ninf => exact .inl rfl
  | pinf => exact .inl rfl

/-- 'sine' and 'sine_min_max': larger extremes, larger values -/
theorem sineCell_mono {modNight : Bool} {n : Nat} {tmin tmin' tmax tmax' temp temp' : Nat → XF ℝ} {lo hi : Nat → Int} (h1 : ∀ i < n, AtMost (tmin i) (tmin' i))
    (h2 : ∀ i < n, AtMost (tmax i) (tmax' i)) {i : Nat} (hi' : i < n) (h : Int) :
    AtMost (sineCell modNight h (locRow n tmin tmax temp lo hi i)) (sineCell modNight h (locRow n tmin' tmax' temp' lo hi i)) := by
  have m1 : AtMost (minValAt h (locRow n tmin tmax temp lo hi i)) (minValAt h (locRow n tmin' tmax' temp' lo hi i)) := by
    unfold minValAt locRow nextDay
    dsimp only
    by_cases a : h < hi i
    · rw [if_pos a, if_pos a]; exact h1 i hi'
    · rw [if_neg a, if_neg a]
      by_cases b : i + 1 < n
      · rw [if_pos b, if_pos b]; exact h1 _ b
      · rw [if_neg b, if_neg b]; exact h1 i hi'
  have m2 : AtMost (maxValAt h (locRow n tmin tmax temp lo hi i)) (maxValAt h (locRow n tmin' tmax' temp' lo hi i)) := by
    unfold maxValAt locRow prevDay
    dsimp only
    by_cases a : h < lo i
    · rw [if_pos a, if_pos a]
      by_cases b : i = 0
      · rw [if_pos b, if_pos b]; exact h2 i hi'
      · rw [if_neg b, if_neg b]; exact h2 _ (by omega)
    · rw [if_neg a, if_neg a]; exact h2 i hi'
  have e1 : (locRow n tmin tmax temp lo hi i).minLoc = (locRow n tmin' tmax' temp' lo hi i).minLoc := rfl
  have e2 : (locRow n tmin tmax temp lo hi i).maxLoc = (locRow n tmin' tmax' temp' lo hi i).maxLoc := rfl
  unfold sineCell
  rw [e1, e2]
  dsimp only
  generalize (locRow n tmin' tmax' temp' lo hi i).minLoc = l at *
  generalize (locRow n tmin' tmax' temp' lo hi i).maxLoc = u at *
  cases modNight with
  | false => exact atMost_mix m1 m2 (cos_range _)
  | true =>
    simp only [if_true]
    by_cases a : u ≤ h
    · rw [if_pos a, if_pos a]; exact atMost_mix m1 m2 (cos_range _)
    · rw [if_neg a, if_neg a]
      by_cases b : l < h ∧ h < u
      · rw [if_pos b, if_pos b]; exact atMost_mix m1 m2 (cos_range _)
      · rw [if_neg b, if_neg b]
        by_cases c : h ≤ l
        · rw [if_pos c, if_pos c]; exact atMost_mix m1 m2 (cos_range _)
        · rw [if_neg c, if_neg c]; trivial

end Melodist
