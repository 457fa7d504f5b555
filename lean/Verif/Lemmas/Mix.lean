import Verif.Spec.Mix
import Verif.Lemmas.Mono

/-!
# Lemmas for C118
-/

set_option linter.unusedSectionVars false

namespace Melodist
open Spec

section general
variable {K : Type} [Field K] [LinearOrder K] [IsStrictOrderedRing K] {α β : K}

theorem mix_iff {a b c : XF K} : Mix α β a b c ↔
    ((a = .nan ∨ b = .nan) ∧ a.NanOrFin ∧ b.NanOrFin ∧ c = .nan) ∨ ∃ x y, a = .fin x ∧ b = .fin y ∧ c = .fin (α * x + β * y) := by
  cases a <;> cases b <;> cases c <;> simp [Mix, XF.NanOrFin]

theorem mix_nan : Mix α β (.nan : XF K) .nan .nan := trivial

theorem mix_daily {d0 : Int} {n : Nat} {u v w : Nat → XF K} (h : SeriesMix α β (dailyS d0 n u) (dailyS d0 n v) (dailyS d0 n w)) :
    ∀ i < n, Mix α β (u i) (v i) (w i) := by
  intro i hi
  exact h.2.2 i (at00 (d0 + i), u i) (at00 (d0 + i), v i) (at00 (d0 + i), w i) (by simp [dailyS, hi]) (by simp [dailyS, hi]) (by simp [dailyS, hi])

theorem mix_hourly {d0 : Int} {n : Nat} {u v w : Nat → Nat → XF K} (h : ∀ i < n, ∀ k < 24, Mix α β (u i k) (v i k) (w i k)) :
    SeriesMix α β (hourlyS d0 n u) (hourlyS d0 n v) (hourlyS d0 n w) := by
  refine ⟨by simp [Series.index, hourlyS, Function.comp_def], by simp [Series.index, hourlyS, Function.comp_def], ?_⟩
  intro k a b c ha hb hc
  unfold hourlyS at ha hb hc
  rw [List.getElem?_map] at ha hb hc
  by_cases hk : k < 24 * n
  · rw [List.getElem?_range (by omega), Option.map_some] at ha hb hc
    cases ha; cases hb; cases hc
    exact h _ (by omega) _ (Nat.mod_lt _ (by omega))
  · rw [List.getElem?_eq_none (by simpa using hk)] at ha
    cases ha

theorem mix_of_daily {d0 : Int} {n : Nat} {u v w : Nat → XF K} (h : ∀ i < n, Mix α β (u i) (v i) (w i)) :
    SeriesMix α β (dailyS d0 n u) (dailyS d0 n v) (dailyS d0 n w) := by
  refine ⟨by simp [Series.index, dailyS, Function.comp_def], by simp [Series.index, dailyS, Function.comp_def], ?_⟩
  intro k a b c ha hb hc
  by_cases hk : k < n
  · simp [dailyS, hk] at ha hb hc
    subst ha; subst hb; subst hc
    exact h k hk
  · simp [dailyS, hk] at ha

theorem colMix_daily {f g h : Frame K} {d0 : Int} {n : Nat} {name : String} {u v w : Nat → XF K} (hm : ColMix α β f g h name)
    (hf : f.col? name = some (dailyS d0 n u)) (hg : g.col? name = some (dailyS d0 n v)) (hh : h.col? name = some (dailyS d0 n w)) :
    ∀ i < n, Mix α β (u i) (v i) (w i) := by
  obtain ⟨s, s', t, h1, h2, h3, h4⟩ := hm
  rw [hf] at h1; rw [hg] at h2; rw [hh] at h3
  cases h1; cases h2; cases h3
  exact mix_daily h4

theorem mix_add {a b c a' b' c' : XF K} (h : Mix α β a b c) (h' : Mix α β a' b' c') : Mix α β (a + a') (b + b') (c + c') := by
  cases a <;> cases b <;> cases c <;> cases a' <;> cases b' <;> cases c' <;>
    simp only [Mix, XF.nan_add, XF.add_nan, XF.fin_add_fin] at * <;> first | trivial | (subst h; subst h'; ring)

theorem mix_sub {a b c a' b' c' : XF K} (h : Mix α β a b c) (h' : Mix α β a' b' c') : Mix α β (a - a') (b - b') (c - c') := by
  cases a <;> cases b <;> cases c <;> cases a' <;> cases b' <;> cases c' <;>
    simp only [Mix, XF.nan_sub, XF.sub_nan, XF.fin_sub_fin] at * <;> first | trivial | (subst h; subst h'; ring)

theorem mix_scale {a b c q : XF K} (h : Mix α β a b c) (hq : q.NanOrFin) : Mix α β (q * a) (q * b) (q * c) := by
  cases q <;> simp only [XF.NanOrFin] at hq
  · simp only [XF.nan_mul]; trivial
  · cases a <;> cases b <;> cases c <;> simp only [Mix, XF.mul_nan, XF.fin_mul_fin] at * <;> first | trivial | (subst h; ring)

theorem mix_scale_right {a b c q : XF K} (h : Mix α β a b c) (hq : q.NanOrFin) : Mix α β (a * q) (b * q) (c * q) := by
  cases q <;> simp only [XF.NanOrFin] at hq
  · simp only [XF.mul_nan]; trivial
  · cases a <;> cases b <;> cases c <;> simp only [Mix, XF.nan_mul, XF.fin_mul_fin] at * <;> first | trivial | (subst h; ring)

theorem mix_div {a b c : XF K} (h : Mix α β a b c) {y : K} (hy : y ≠ 0) : Mix α β (a / .fin y) (b / .fin y) (c / .fin y) := by
  cases a <;> cases b <;> cases c <;> simp only [Mix, XF.nan_div, XF.fin_div_fin_of_ne _ hy] at * <;> first | trivial | (subst h; field_simp)

theorem sub_nanOrFin {a b : XF K} (ha : a.NanOrFin) (hb : b.NanOrFin) : (a - b).NanOrFin := by
  cases a <;> cases b <;> simp only [XF.NanOrFin, XF.nan_sub, XF.sub_nan, XF.fin_sub_fin] at *

/-- between `lo` and `hi`, the share `q` from -1 (all `lo`) to 1 (all `hi`) -/
theorem mix_between {a b c a' b' c' q : XF K} (h : Mix α β a b c) (h' : Mix α β a' b' c') (hq : q.NanOrFin) :
    Mix α β (a + (a' - a) / .fin 2 + (a' - a) / .fin 2 * q) (b + (b' - b) / .fin 2 + (b' - b) / .fin 2 * q) (c + (c' - c) / .fin 2 + (c' - c) / .fin 2 * q) := by
  have hd := mix_div (mix_sub h' h) (y := (2 : K)) two_ne_zero
  exact mix_add (mix_add h hd) (mix_scale_right hd hq)

end general

theorem cos_nanOrFin (x : XF ℝ) : (XF.cos x).NanOrFin := by
  rcases cos_range x with e | ⟨c, e, _⟩ <;> rw [e]
  · exact XF.nanOrFin_nan
  · exact XF.nanOrFin_fin c

/-- 'sine' and 'sine_min_max' -/
theorem sineCell_mix {α β : ℝ} {modNight : Bool} {n : Nat} {tmin tmin' tmin'' tmax tmax' tmax'' temp temp' temp'' : Nat → XF ℝ} {lo hi : Nat → Int}
    (h1 : ∀ i < n, Mix α β (tmin i) (tmin' i) (tmin'' i)) (h2 : ∀ i < n, Mix α β (tmax i) (tmax' i) (tmax'' i)) {i : Nat} (hi' : i < n) (h : Int) :
    Mix α β (sineCell modNight h (locRow n tmin tmax temp lo hi i)) (sineCell modNight h (locRow n tmin' tmax' temp' lo hi i))
      (sineCell modNight h (locRow n tmin'' tmax'' temp'' lo hi i)) := by
  have m1 : Mix α β (minValAt h (locRow n tmin tmax temp lo hi i)) (minValAt h (locRow n tmin' tmax' temp' lo hi i))
      (minValAt h (locRow n tmin'' tmax'' temp'' lo hi i)) := by
    unfold minValAt locRow nextDay
    dsimp only
    by_cases a : h < hi i
    · rw [if_pos a, if_pos a, if_pos a]; exact h1 i hi'
    · rw [if_neg a, if_neg a, if_neg a]
      by_cases b : i + 1 < n
      · rw [if_pos b, if_pos b, if_pos b]; exact h1 _ b
      · rw [if_neg b, if_neg b, if_neg b]; exact h1 i hi'
  have m2 : Mix α β (maxValAt h (locRow n tmin tmax temp lo hi i)) (maxValAt h (locRow n tmin' tmax' temp' lo hi i))
      (maxValAt h (locRow n tmin'' tmax'' temp'' lo hi i)) := by
    unfold maxValAt locRow prevDay
    dsimp only
    by_cases a : h < lo i
    · rw [if_pos a, if_pos a, if_pos a]
      by_cases b : i = 0
      · rw [if_pos b, if_pos b, if_pos b]; exact h2 i hi'
      · rw [if_neg b, if_neg b, if_neg b]; exact h2 _ (by omega)
    · rw [if_neg a, if_neg a, if_neg a]; exact h2 i hi'
  have e1 : (locRow n tmin tmax temp lo hi i).minLoc = lo i := rfl
  have e2 : (locRow n tmin tmax temp lo hi i).maxLoc = hi i := rfl
  have e3 : (locRow n tmin' tmax' temp' lo hi i).minLoc = lo i := rfl
  have e4 : (locRow n tmin' tmax' temp' lo hi i).maxLoc = hi i := rfl
  have e5 : (locRow n tmin'' tmax'' temp'' lo hi i).minLoc = lo i := rfl
  have e6 : (locRow n tmin'' tmax'' temp'' lo hi i).maxLoc = hi i := rfl
  unfold sineCell
  rw [e1, e2, e3, e4, e5, e6]
  dsimp only
  cases modNight with
  | false => exact mix_between m1 m2 (cos_nanOrFin _)
  | true =>
    simp only [if_true]
    by_cases a : hi i ≤ h
    · simp only [if_pos a]; exact mix_between m1 m2 (cos_nanOrFin _)
    · simp only [if_neg a]
      by_cases b : lo i < h ∧ h < hi i
      · simp only [if_pos b]; exact mix_between m1 m2 (cos_nanOrFin _)
      · simp only [if_neg b]
        by_cases c : h ≤ lo i
        · simp only [if_pos c]; exact mix_between m1 m2 (cos_nanOrFin _)
        · simp only [if_neg c]; trivial

end Melodist
