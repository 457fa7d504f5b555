import Verif.Spec.Near
import Verif.Lemmas.Mono

/-!
# Lemmas for C113
-/

set_option linter.unusedSectionVars false

namespace Melodist
open Spec

section general
variable {K : Type} [Field K] [LinearOrder K] [IsStrictOrderedRing K]

theorem near_iff {ε : K} {a b : XF K} : Near ε a b ↔ (a = .nan ∧ b = .nan) ∨ ∃ x y, a = .fin x ∧ b = .fin y ∧ |x - y| ≤ ε := by
  cases a <;> cases b <;> simp [Near]

theorem Near.weaken {ε δ : K} (h : ε ≤ δ) {a b : XF K} (n : Near ε a b) : Near δ a b := by
  rcases near_iff.1 n with ⟨rfl, rfl⟩ | ⟨x, y, rfl, rfl, hxy⟩
  · trivial
  · exact le_trans hxy h

theorem near_daily {ε : K} {d0 : Int} {n : Nat} {v v' : Nat → XF K} (h : SeriesNear ε (dailyS d0 n v) (dailyS d0 n v')) : ∀ i < n, Near ε (v i) (v' i) := by
  intro i hi
  unfold SeriesNear at h
  rw [List.forall₂_iff_get] at h
  have := (h.2 i (by simpa [dailyS] using hi) (by simpa [dailyS] using hi)).2
  simpa [dailyS] using this

theorem near_hourly {ε : K} {d0 : Int} {n : Nat} {f f' : Nat → Nat → XF K} (h : ∀ i < n, ∀ k < 24, Near ε (f i k) (f' i k)) :
    SeriesNear ε (hourlyS d0 n f) (hourlyS d0 n f') := by
  unfold SeriesNear hourlyS
  rw [List.forall₂_map_left_iff, List.forall₂_map_right_iff, List.forall₂_same]
  intro k hk
  rw [List.mem_range] at hk
  exact ⟨rfl, h _ (by omega) _ (Nat.mod_lt _ (by omega))⟩

/-- a column of two tables of the same days -/
theorem colNear_daily {ε : K} {f g : Frame K} {d0 : Int} {n : Nat} {name : String} {v v' : Nat → XF K} (h : ColNear ε f g name)
    (hf : f.col? name = some (dailyS d0 n v)) (hg : g.col? name = some (dailyS d0 n v')) : ∀ i < n, Near ε (v i) (v' i) := by
  obtain ⟨s, s', h1, h2, h3⟩ := h
  rw [hf] at h1; rw [hg] at h2
  cases h1; cases h2
  exact near_daily h3

theorem near_scale {ε : K} {a b q : XF K} {M : K} (h : Near ε a b) (hq : q = .nan ∨ ∃ c, q = .fin c ∧ |c| ≤ M) (hε : 0 ≤ ε) : Near (M * ε) (q * a) (q * b) := by
  rcases hq with rfl | ⟨c, rfl, hc⟩
  · rw [XF.nan_mul, XF.nan_mul]; trivial
  · rcases near_iff.1 h with ⟨rfl, rfl⟩ | ⟨x, y, rfl, rfl, hxy⟩
    · rw [XF.mul_nan]; trivial
    · rw [XF.fin_mul_fin, XF.fin_mul_fin]
      show |c * x - c * y| ≤ M * ε
      rw [← mul_sub, abs_mul]
      exact mul_le_mul hc hxy (abs_nonneg _) ((abs_nonneg _).trans hc)

theorem near_add {ε δ : K} {a b a' b' : XF K} (h : Near ε a b) (h' : Near δ a' b') : Near (ε + δ) (a + a') (b + b') := by
  rcases near_iff.1 h with ⟨rfl, rfl⟩ | ⟨x, y, rfl, rfl, hxy⟩
  · rw [XF.nan_add, XF.nan_add]; trivial
  · rcases near_iff.1 h' with ⟨rfl, rfl⟩ | ⟨x', y', rfl, rfl, hxy'⟩
    · rw [XF.add_nan, XF.add_nan]; trivial
    · rw [XF.fin_add_fin, XF.fin_add_fin]
      show |x + x' - (y + y')| ≤ ε + δ
      rw [add_sub_add_comm]
      exact (abs_add_le _ _).trans (add_le_add hxy hxy')

theorem near_sub {ε δ : K} {a b a' b' : XF K} (h : Near ε a b) (h' : Near δ a' b') : Near (ε + δ) (a - a') (b - b') := by
  rcases near_iff.1 h with ⟨rfl, rfl⟩ | ⟨x, y, rfl, rfl, hxy⟩
  · rw [XF.nan_sub, XF.nan_sub]; trivial
  · rcases near_iff.1 h' with ⟨rfl, rfl⟩ | ⟨x', y', rfl, rfl, hxy'⟩
    · rw [XF.sub_nan, XF.sub_nan]; trivial
    · rw [XF.fin_sub_fin, XF.fin_sub_fin]
      show |x - x' - (y - y')| ≤ ε + δ
      rw [show x - x' - (y - y') = (x - y) + -(x' - y') by ring]
      refine (abs_add_le _ _).trans (add_le_add hxy ?_)
      rwa [abs_neg]

/-- a weighted mean of two numbers, weights `w` and `1 - w` -/
theorem abs_mix {x x' y y' w ε : K} (w0 : 0 ≤ w) (w1 : w ≤ 1) (hx : |x - x'| ≤ ε) (hy : |y - y'| ≤ ε) :
    |(w * x + (1 - w) * y) - (w * x' + (1 - w) * y')| ≤ ε := by
  rw [abs_le] at *
  have w2 : 0 ≤ 1 - w := by linarith
  constructor
  · nlinarith [mul_le_mul_of_nonneg_left hx.1 w0, mul_le_mul_of_nonneg_left hy.1 w2]
  · nlinarith [mul_le_mul_of_nonneg_left hx.2 w0, mul_le_mul_of_nonneg_left hy.2 w2]

/-- between `lo` and `hi`, the share `c` from -1 (all `lo`) to 1 (all `hi`) -/
theorem near_mix {ε : K} {lo lo' hi hi' c : XF K} (h1 : Near ε lo lo') (h2 : Near ε hi hi') (hc : c = .nan ∨ ∃ x, c = .fin x ∧ -1 ≤ x ∧ x ≤ 1) :
    Near ε (lo + (hi - lo) / .fin 2 + (hi - lo) / .fin 2 * c) (lo' + (hi' - lo') / .fin 2 + (hi' - lo') / .fin 2 * c) := by
  rcases hc with rfl | ⟨c, rfl, c1, c2⟩
  · simp only [XF.mul_nan, XF.add_nan]; trivial
  · rcases near_iff.1 h1 with ⟨rfl, rfl⟩ | ⟨x, y, rfl, rfl, hxy⟩
    · simp only [XF.nan_add]; trivial
    · rcases near_iff.1 h2 with ⟨rfl, rfl⟩ | ⟨x', y', rfl, rfl, hxy'⟩
      · simp only [XF.nan_sub, XF.nan_div, XF.nan_mul, XF.add_nan]; trivial
      · have h2 : (2 : K) ≠ 0 := by norm_num
        simp only [XF.fin_sub_fin, XF.fin_div_fin_of_ne _ h2, XF.fin_mul_fin, XF.fin_add_fin]
        show |x + (x' - x) / 2 + (x' - x) / 2 * c - (y + (y' - y) / 2 + (y' - y) / 2 * c)| ≤ ε
        have e : x + (x' - x) / 2 + (x' - x) / 2 * c - (y + (y' - y) / 2 + (y' - y) / 2 * c) =
            ((1 + c) / 2 * x' + (1 - (1 + c) / 2) * x) - ((1 + c) / 2 * y' + (1 - (1 + c) / 2) * y) := by ring
        rw [e]
        exact abs_mix (by linarith) (by linarith) hxy' hxy

end general

/-- 'sine' and 'sine_min_max': extremes close together, values close together -/
theorem sineCell_near {ε : ℝ} {modNight : Bool} {n : Nat} {tmin tmin' tmax tmax' temp temp' : Nat → XF ℝ} {lo hi : Nat → Int} (h1 : ∀ i < n, Near ε (tmin i) (tmin' i))
    (h2 : ∀ i < n, Near ε (tmax i) (tmax' i)) {i : Nat} (hi' : i < n) (h : Int) :
    Near ε (sineCell modNight h (locRow n tmin tmax temp lo hi i)) (sineCell modNight h (locRow n tmin' tmax' temp' lo hi i)) := by
  have m1 : Near ε (minValAt h (locRow n tmin tmax temp lo hi i)) (minValAt h (locRow n tmin' tmax' temp' lo hi i)) := by
    unfold minValAt locRow nextDay
    dsimp only
    by_cases a : h < hi i
    · rw [if_pos a, if_pos a]; exact h1 i hi'
    · rw [if_neg a, if_neg a]
      by_cases b : i + 1 < n
      · rw [if_pos b, if_pos b]; exact h1 _ b
      · rw [if_neg b, if_neg b]; exact h1 i hi'
  have m2 : Near ε (maxValAt h (locRow n tmin tmax temp lo hi i)) (maxValAt h (locRow n tmin' tmax' temp' lo hi i)) := by
    unfold maxValAt locRow prevDay
    dsimp only
    by_cases a : h < lo i
    · rw [if_pos a, if_pos a]
      by_cases b : i = 0
      · rw [if_pos b, if_pos b]; exact h2 i hi'
      · rw [if_neg b, if_neg b]; exact h2 _ (by omega)
    · rw [if_neg a, if_neg a]; exact h2 i hi'
  have e1 : (locRow n tmin tmax temp lo hi i).minLoc = (locRow n tmin' tmax' temp' lo hi i).minLoc := rfl
  have e2 : (locRow n tmin tmax temp lo hi i).maxLoc = (locRow n tmin' tmax' temp' lo hi i).maxLoc := rfl
  unfold sineCell
  rw [e1, e2]
  dsimp only
  generalize (locRow n tmin' tmax' temp' lo hi i).minLoc = l at *
  generalize (locRow n tmin' tmax' temp' lo hi i).maxLoc = u at *
  cases modNight with
  | false => exact near_mix m1 m2 (cos_range _)
  | true =>
    simp only [if_true]
    by_cases a : u ≤ h
    · rw [if_pos a, if_pos a]; exact near_mix m1 m2 (cos_range _)
    · rw [if_neg a, if_neg a]
      by_cases b : l < h ∧ h < u
      · rw [if_pos b, if_pos b]; exact near_mix m1 m2 (cos_range _)
      · rw [if_neg b, if_neg b]
        by_cases c : h ≤ l
        · rw [if_pos c, if_pos c]; exact near_mix m1 m2 (cos_range _)
        · rw [if_neg c, if_neg c]; trivial

end Melodist
