import Verif.Props.PackageTestsB
import Verif.Props.StatsRoundingB
import Mathlib.Data.Rat.Floor

/-!
# C145: radiation, and where the assertions of the tests fail
-/

set_option linter.unusedSectionVars false

namespace Melodist
open Spec

noncomputable section

variable {daily : Frame ℝ} {d0 : Int} {n : Nat} {tmin tmax temp : Nat → XF ℝ}

/-! ## radiation -/

theorem sum_day24_finset (f : Nat → ℝ) : (day24 f).sum = ∑ h ∈ Finset.range 24, f h := rfl

/-- the hourly values of a day, before and after setting small ones to 0 -/
theorem radiation_cells (F : FloatMath) (hF : DoubleMath F) {mean' : List (XF ℝ) → XF ℝ} (hm' : RoundedMean (roundBits 53) mean') (hn : 0 < n) (v : Nat → XF ℝ) (p : Nat → Nat → XF ℝ) :
    ∃ out, radiationCoreR F mean' (hourlyS d0 n p) (dailyS d0 n v) = .ok out ∧
      ∀ i < n, ∀ (q : Nat → ℝ) (g : ℝ), (∀ h < 24, p i h = .fin (q h) ∧ 0 ≤ q h) → (∃ h < 24, 0 < q h) → v i = .fin g → 0 ≤ g →
        ∃ w y : Nat → ℝ, dayCells out (d0 + i) = (day24 y).map .fin ∧
          ∀ h < 24, (1 - 1e-14) * (g / ((day24 q).sum / 24)) * q h ≤ w h ∧ w h ≤ (1 + 1e-14) * (g / ((day24 q).sum / 24)) * q h ∧
            (w h < R53.fl 0.01 ∧ y h = 0 ∨ R53.fl 0.01 ≤ w h ∧ y h = w h) := by
  refine ⟨_, radiationCoreR_eq _ mean' d0 hn v d0 p, ?_⟩
  intro i hi q g hq hpos hg hg0
  obtain ⟨μ, hμ, acc⟩ := roundedMean_day (R := R53) hm' q
  have e : (day24 q).map XF.fin = day24 (p i) := by
    rw [day24_map]
    exact (day24_congr fun h hh => (hq h hh).1).symm
  rw [e] at hμ
  have e2 : (day24 fun h => |q h|) = day24 q := day24_congr fun h hh => abs_of_nonneg (hq h hh).2
  rw [e2] at acc
  rw [dayCells_hourlyS d0 _ hi]
  set A := (day24 q).sum / 24 with hA
  have hA0 : 0 < A := by
    obtain ⟨k, hk, hk0⟩ := hpos
    refine div_pos (lt_of_lt_of_le hk0 ?_) (by norm_num)
    refine List.single_le_sum ?_ _ (mem_day24.2 ⟨k, hk, rfl⟩)
    intro x hx
    obtain ⟨h, hh, rfl⟩ := mem_day24.1 hx
    exact (hq h hh).2
  have h24 : (1 + R53.u) ^ 24 - 1 ≤ 3e-15 := by rw [R53_u]; norm_num
  obtain ⟨m1, m2⟩ := abs_le.1 (acc.1.trans (mul_le_mul_of_nonneg_right h24 hA0.le))
  have hμ1 : (1 - 3e-15) * A ≤ μ := by linarith
  have hμ2 : μ ≤ (1 + 3e-15) * A := by linarith
  have hμ0 : 0 < μ := lt_of_lt_of_le (mul_pos (by norm_num) hA0) hμ1
  have hfl : F.fl = R53.fl := hF.fl
  set w : Nat → ℝ := fun h => R53.fl (R53.fl (q h / μ) * g) with hw
  set y : Nat → ℝ := fun h => if w h < R53.fl 0.01 then 0 else w h with hy
  refine ⟨w, y, ?_, ?_⟩
  · rw [day24_map]
    apply day24_congr
    intro h hh
    rw [hμ, (hq h hh).1, lastValue_self hi, hg, XF.fin_div_fin_of_ne _ hμ0.ne', hfl]
    simp only [XF.rnd, XF.fin_mul_fin, XF.lt_fin, hy, hw]
    split <;> rfl
  · intro h hh
    have u : R53.u ≤ 1.2e-16 := by rw [R53_u]; norm_num
    have u0 := R53.u_nonneg
    have q0 : 0 ≤ q h / μ := div_nonneg (hq h hh).2 hμ0.le
    obtain ⟨a1, a2⟩ := R53.fl_bounds q0
    have f0 := R53.fl_nonneg q0
    obtain ⟨b1, b2⟩ := R53.fl_bounds (mul_nonneg f0 hg0)
    have c1 := mul_le_mul_of_nonneg_left (mul_le_mul_of_nonneg_right a1 hg0) R53.lo_nonneg
    have c2 := mul_le_mul_of_nonneg_left (mul_le_mul_of_nonneg_right a2 hg0) R53.hi_nonneg
    have gq : 0 ≤ g * q h := mul_nonneg hg0 (hq h hh).2
    have lo2 : (1 - 2.5e-16 : ℝ) ≤ (1 - R53.u) * (1 - R53.u) := by nlinarith
    have hi2 : (1 + R53.u) * (1 + R53.u) ≤ 1 + 2.5e-16 := by nlinarith
    refine ⟨?_, ?_, ?_⟩
    · refine le_trans ?_ (c1.trans b1)
      have : (1 - R53.u) * ((1 - R53.u) * (q h / μ) * g) = ((1 - R53.u) * (1 - R53.u)) * (g * q h) / μ := by ring
      rw [this, show (1 - 1e-14) * (g / A) * q h = (1 - 1e-14) * (g * q h) / A by ring, div_le_div_iff₀ hA0 hμ0]
      have k1 := mul_le_mul_of_nonneg_left hμ2 (mul_nonneg (show (0 : ℝ) ≤ 1 - 1e-14 by norm_num) gq)
      have k2 := mul_le_mul_of_nonneg_right lo2 (mul_nonneg gq hA0.le)
      have k3 : (1 - 1e-14 : ℝ) * (1 + 3e-15) * (g * q h * A) ≤ (1 - 2.5e-16) * (g * q h * A) :=
        mul_le_mul_of_nonneg_right (by norm_num) (mul_nonneg gq hA0.le)
      calc _ ≤ _ := k1
        _ = (1 - 1e-14 : ℝ) * (1 + 3e-15) * (g * q h * A) := by ring
        _ ≤ _ := k3
        _ ≤ _ := k2
        _ = _ := by ring
    · refine (b2.trans c2).trans ?_
      have : (1 + R53.u) * ((1 + R53.u) * (q h / μ) * g) = ((1 + R53.u) * (1 + R53.u)) * (g * q h) / μ := by ring
      rw [this, show (1 + 1e-14) * (g / A) * q h = (1 + 1e-14) * (g * q h) / A by ring, div_le_div_iff₀ hμ0 hA0]
      have k1 := mul_le_mul_of_nonneg_left hμ1 (mul_nonneg (show (0 : ℝ) ≤ 1 + 1e-14 by norm_num) gq)
      have k2 := mul_le_mul_of_nonneg_right hi2 (mul_nonneg gq hA0.le)
      have k3 : (1 + 2.5e-16 : ℝ) * (g * q h * A) ≤ (1 + 1e-14) * (1 - 3e-15) * (g * q h * A) :=
        mul_le_mul_of_nonneg_right (by norm_num) (mul_nonneg gq hA0.le)
      calc _ = (1 + R53.u) * (1 + R53.u) * (g * q h * A) := by ring
        _ ≤ _ := k2
        _ ≤ _ := k3
        _ = (1 + 1e-14) * (g * q h) * ((1 - 3e-15) * A) := by ring
        _ ≤ _ := k1
    · simp only [hy]
      split
      · rename_i h; exact .inl ⟨h, rfl⟩
      · rename_i h; exact .inr ⟨not_lt.1 h, rfl⟩

theorem sum_weights {q : Nat → ℝ} {g : ℝ} (hpos : 0 < (day24 q).sum) : (day24 fun h => g / ((day24 q).sum / 24) * q h).sum = 24 * g := by
  rw [sum_day24_mul]
  field_simp

/-- **C145 (radiation).**  tests/test_radiation.py:9-21: on a day with sunshine and 0 ≤ daily value ≤ 10⁶ all 24 values are numbers, those of the hours without potential radiation are exactly 0, and the comparison
of the daily mean passes if at most two hours with potential radiation were set to 0. -/
theorem C145_radiation (F : FloatMath) (hF : DoubleMath F) {mean mean' : List (XF ℝ) → XF ℝ} (hm : AveragesDay mean) (hm' : RoundedMean (roundBits 53) mean') (hn : 0 < n) (v : Nat → XF ℝ)
    (p : Nat → Nat → XF ℝ) :
    ∃ out, radiationCoreR F mean' (hourlyS d0 n p) (dailyS d0 n v) = .ok out ∧
      ∀ i < n, ∀ (q : Nat → ℝ) (g : ℝ), (∀ h < 24, p i h = .fin (q h) ∧ 0 ≤ q h) → (∃ h < 24, 0 < q h) → v i = .fin g → 0 ≤ g → g ≤ 10 ^ 6 →
        (∀ c ∈ dayCells out (d0 + i), ∃ x, c = .fin x) ∧
        (∀ h < 24, q h = 0 → (dayCells out (d0 + i))[h]? = some (.fin 0)) ∧
        ((∃ k₁ k₂, ∀ h < 24, 0 < q h → (dayCells out (d0 + i))[h]? = some (.fin 0) → h = k₁ ∨ h = k₂) → IsClose (roundBits 53) (v i) (mean (dayCells out (d0 + i)))) := by
  obtain ⟨out, h1, h2⟩ := radiation_cells (d0 := d0) F hF hm' hn v p
  refine ⟨out, h1, ?_⟩
  intro i hi q g hq hpos hg hg0 hg1
  obtain ⟨w, y, e, hy⟩ := h2 i hi q g hq hpos hg hg0
  have hget : ∀ h < 24, (dayCells out (d0 + i))[h]? = some (.fin (y h)) := by
    intro h hh
    rw [e, day24_map]
    unfold day24
    rw [List.getElem?_map, List.getElem?_range hh]
    rfl
  have hS : 0 < (day24 q).sum := by
    obtain ⟨k, hk, hk0⟩ := hpos
    refine lt_of_lt_of_le hk0 (List.single_le_sum ?_ _ (mem_day24.2 ⟨k, hk, rfl⟩))
    intro x hx
    obtain ⟨h, hh, rfl⟩ := mem_day24.1 hx
    exact (hq h hh).2
  have hA0 : 0 < (day24 q).sum / 24 := by positivity
  have hgA : 0 ≤ g / ((day24 q).sum / 24) := div_nonneg hg0 hA0.le
  have hw0 : ∀ h < 24, 0 ≤ w h := fun h hh => le_trans (mul_nonneg (mul_nonneg (by norm_num) hgA) (hq h hh).2) (hy h hh).1
  have hz : ∀ h < 24, q h = 0 → y h = 0 := by
    intro h hh hq0
    obtain ⟨a1, a2, a3⟩ := hy h hh
    rw [hq0, mul_zero] at a1 a2
    rcases a3 with ⟨_, a3⟩ | ⟨_, a3⟩
    · exact a3
    · rw [a3]; exact le_antisymm a2 a1
  refine ⟨?_, ?_, ?_⟩
  · intro c hc
    rw [e] at hc
    obtain ⟨z, _, rfl⟩ := List.mem_map.1 hc
    exact ⟨z, rfl⟩
  · intro h hh hq0
    rw [hget h hh, hz h hh hq0]
  · rintro ⟨k₁, k₂, hk⟩
    have hf : R53.fl 0.01 ≤ 0.01001 := by
      refine (R53.fl_bounds (x := 0.01) (by norm_num)).2.trans ?_
      rw [R53_u]; norm_num
    have hlow : ∀ h < 24, (1 - 1e-14) * (g / ((day24 q).sum / 24) * q h) - ((if h = k₁ then 0.01001 else 0) + if h = k₂ then 0.01001 else 0) ≤ y h := by
      intro h hh
      obtain ⟨a1, a2, a3⟩ := hy h hh
      have i1 : (0 : ℝ) ≤ if h = k₁ then 0.01001 else 0 := by split <;> norm_num
      have i2 : (0 : ℝ) ≤ if h = k₂ then 0.01001 else 0 := by split <;> norm_num
      rw [mul_assoc] at a1
      rcases a3 with ⟨a4, a3⟩ | ⟨_, a3⟩
      · rcases (hq h hh).2.lt_or_eq with hq0 | hq0
        · have hkk := hk h hh hq0 (by rw [hget h hh, a3])
          rw [a3]
          rcases hkk with rfl | rfl
          · rw [if_pos rfl]; linarith
          · rw [if_pos (rfl : h = h)]; linarith
        · rw [hz h hh hq0.symm, ← hq0]; linarith
      · rw [a3]; linarith
    have hupp : ∀ h < 24, y h ≤ (1 + 1e-14) * (g / ((day24 q).sum / 24) * q h) := by
      intro h hh
      obtain ⟨a1, a2, a3⟩ := hy h hh
      rw [mul_assoc] at a2
      rcases a3 with ⟨a4, a3⟩ | ⟨_, a3⟩
      · rw [a3]; exact (hw0 h hh).trans a2
      · rw [a3]; exact a2
    have hy0 : ∀ h < 24, 0 ≤ y h := by
      intro h hh
      rcases (hy h hh).2.2 with ⟨_, a3⟩ | ⟨_, a3⟩
      · rw [a3]
      · rw [a3]; exact hw0 h hh
    have ind : ∀ k : Nat, (∑ h ∈ Finset.range 24, if h = k then (0.01001 : ℝ) else 0) ≤ 0.01001 := by
      intro k
      rw [Finset.sum_ite_eq']
      split <;> norm_num
    have s1 : (1 - 1e-14) * (24 * g) - 0.02002 ≤ (day24 y).sum := by
      have : (day24 fun h => (1 - 1e-14) * (g / ((day24 q).sum / 24) * q h) - ((if h = k₁ then 0.01001 else 0) + if h = k₂ then 0.01001 else 0)).sum ≤ (day24 y).sum :=
        List.sum_le_sum fun h hh => hlow h (List.mem_range.1 hh)
      rw [sum_day24_finset, Finset.sum_sub_distrib, Finset.sum_add_distrib, ← Finset.mul_sum, ← sum_day24_finset, sum_weights hS] at this
      have j1 := ind k₁
      have j2 := ind k₂
      linarith
    have s2 : (day24 y).sum ≤ (1 + 1e-14) * (24 * g) := by
      have : (day24 y).sum ≤ (day24 fun h => (1 + 1e-14) * (g / ((day24 q).sum / 24) * q h)).sum := List.sum_le_sum fun h hh => hupp h (List.mem_range.1 hh)
      rwa [sum_day24_mul, sum_weights hS] at this
    have hB : ∀ h < 24, |y h| ≤ 3 * 10 ^ 7 := by
      intro h hh
      rw [abs_of_nonneg (hy0 h hh)]
      have : y h ≤ (day24 y).sum := List.single_le_sum (fun x hx => by
        obtain ⟨k, hk, rfl⟩ := mem_day24.1 hx
        exact hy0 k hk) _ (mem_day24.2 ⟨h, hh, rfl⟩)
      norm_num at s2 hg1 ⊢
      linarith
    obtain ⟨s, t1, t2⟩ := averages_day hm hB (by
      calc (3 * 10 ^ 7 : ℝ) ≤ 10 ^ 8 := by norm_num
        _ ≤ 10 ^ 290 := pow_le_pow_right₀ (by norm_num) (by norm_num))
    rw [e, hg, t1]
    apply isClose53
    have := abs_nonneg s
    obtain ⟨t3, t4⟩ := abs_le.1 t2
    rw [abs_le]
    norm_num at s1 s2 t3 t4 hg1 ⊢
    constructor <;> linarith

/-- **C145 (radiation, where the comparison fails).**  On a day with daily value g between 0.0012 and 10⁶ whose hourly values would all be below 0.0099 W/m² (as on a day with evenly spread sunshine and g = 0.005), all
values are set to 0 and the comparison fails. -/
theorem C145_radiation_lost (F : FloatMath) (hF : DoubleMath F) {mean mean' : List (XF ℝ) → XF ℝ} (hm : AveragesDay mean) (hm' : RoundedMean (roundBits 53) mean') (hn : 0 < n) (v : Nat → XF ℝ)
    (p : Nat → Nat → XF ℝ) :
    ∃ out, radiationCoreR F mean' (hourlyS d0 n p) (dailyS d0 n v) = .ok out ∧
      ∀ i < n, ∀ (q : Nat → ℝ) (g : ℝ), (∀ h < 24, p i h = .fin (q h) ∧ 0 ≤ q h) → (∃ h < 24, 0 < q h) → v i = .fin g → 0.0012 ≤ g →
        (∀ h < 24, g * q h ≤ 0.0099 * ((day24 q).sum / 24)) →
        (∀ c ∈ dayCells out (d0 + i), c = .fin 0) ∧ ¬ IsClose (roundBits 53) (v i) (mean (dayCells out (d0 + i))) := by
  obtain ⟨out, h1, h2⟩ := radiation_cells (d0 := d0) F hF hm' hn v p
  refine ⟨out, h1, ?_⟩
  intro i hi q g hq hpos hg hg1 hsmall
  have hg0 : 0 ≤ g := le_trans (by norm_num) hg1
  obtain ⟨w, y, e, hy⟩ := h2 i hi q g hq hpos hg hg0
  have hS : 0 < (day24 q).sum := by
    obtain ⟨k, hk, hk0⟩ := hpos
    refine lt_of_lt_of_le hk0 (List.single_le_sum ?_ _ (mem_day24.2 ⟨k, hk, rfl⟩))
    intro x hx
    obtain ⟨h, hh, rfl⟩ := mem_day24.1 hx
    exact (hq h hh).2
  have hA0 : 0 < (day24 q).sum / 24 := by positivity
  have hf : 0.00999 ≤ R53.fl 0.01 := by
    refine le_trans ?_ (R53.fl_bounds (x := 0.01) (by norm_num)).1
    rw [R53_u]; norm_num
  have hy0 : ∀ h < 24, y h = 0 := by
    intro h hh
    obtain ⟨a1, a2, a3⟩ := hy h hh
    have b1 : g / ((day24 q).sum / 24) * q h ≤ 0.0099 := by
      rw [div_mul_eq_mul_div, div_le_iff₀ hA0]
      exact hsmall h hh
    have b2 := mul_le_mul_of_nonneg_left b1 (show (0 : ℝ) ≤ 1 + 1e-14 by norm_num)
    rcases a3 with ⟨_, a3⟩ | ⟨a4, _⟩
    · exact a3
    · exfalso
      rw [mul_assoc] at a2
      norm_num at a2 a4 hf b2
      linarith
  have ey : day24 y = day24 fun _ => (0 : ℝ) := day24_congr hy0
  obtain ⟨s, t1, t2⟩ := averages_day hm (f := fun _ => 0) (B := 0) (fun _ _ => by simp) (by positivity)
  rw [e, ey, hg, t1]
  refine ⟨?_, not_isClose53 ?_⟩
  · intro c hc
    obtain ⟨z, hz, rfl⟩ := List.mem_map.1 hc
    obtain ⟨_, _, rfl⟩ := mem_day24.1 hz
    rfl
  · rw [sum_day24_const, mul_zero, zero_div, sub_zero] at t2
    have h3 : |g| ≤ |g - s| + |s| := by
      have := abs_add_le (g - s) s
      simpa using this
    rw [abs_of_nonneg hg0] at h3
    norm_num at t2 hg1 ⊢
    linarith

/-! ## sums and means in the order of the list -/

/-- addition from left to right, missing values apart -/
def leftSum (fl : ℝ → ℝ) (l : List (XF ℝ)) : XF ℝ :=
  match numbers l with
  | [] => .fin 0
  | x :: xs => .fin (xs.foldl (fun a b => fl (a + b)) x)

theorem numbers_length_le {K : Type} (l : List (XF K)) : (numbers l).length ≤ l.length := List.length_filterMap_le _ _

theorem R53_pow288 {k : Nat} (hk : k ≤ 288) : (1 + R53.u) ^ k - 1 ≤ 1e-13 := by
  have h1 : (1 + R53.u) ^ k ≤ (1 + R53.u) ^ 288 := pow_le_pow_right₀ R53.one_le hk
  have h2 : (1 + R53.u) ^ 16 ≤ 1 + 2e-15 := by rw [R53_u]; norm_num
  have h3 : (1 + R53.u) ^ 288 ≤ 1 + 1e-13 := by
    calc (1 + R53.u) ^ 288 = ((1 + R53.u) ^ 16) ^ 18 := by rw [← pow_mul]
      _ ≤ (1 + 2e-15) ^ 18 := pow_le_pow_left₀ (pow_nonneg R53.hi_nonneg _) h2 _
      _ ≤ 1 + 1e-13 := by norm_num
  linarith

/-- adding from left to right satisfies the hypothesis on sums -/
theorem C145_left_sum : AddsDay (leftSum (roundBits 53)) := by
  intro cells hl _ _
  unfold leftSum
  have hlen := (numbers_length_le cells).trans hl
  cases e : numbers cells with
  | nil => exact ⟨0, rfl, by norm_num⟩
  | cons x xs =>
    rw [e] at hlen
    refine ⟨_, rfl, ?_⟩
    have a := (Acc.addsTo R53 (addsTo_left R53.fl xs [x] x (.one x))).2.1
    rw [List.singleton_append] at a
    have h0 : 0 ≤ ((x :: xs).map fun x => |x|).sum := List.sum_nonneg (by
      intro z hz
      obtain ⟨_, _, rfl⟩ := List.mem_map.1 hz
      exact abs_nonneg _)
    refine a.trans ((mul_le_mul_of_nonneg_right (R53_pow288 (k := (x :: xs).length - 1) (by omega)) h0).trans ?_)
    generalize ((x :: xs).map fun x => |x|).sum = z at h0 ⊢
    norm_num
    linarith

/-- averaging with additions from left to right satisfies the hypothesis on means -/
theorem C145_left_mean : AveragesDay (leftMean (roundBits 53)) := by
  intro cells hl _ _
  unfold leftMean
  have hlen := (numbers_length_le cells).trans hl
  cases e : numbers cells with
  | nil => exact ⟨fun _ => rfl, fun h => absurd rfl h⟩
  | cons x xs =>
    rw [e] at hlen
    refine ⟨fun h => by simp at h, fun _ => ⟨_, rfl, ?_⟩⟩
    have a := (Acc.addsTo R53 (addsTo_left R53.fl xs [x] x (.one x))).2
    rw [List.singleton_append] at a
    have hpos : (0 : ℝ) < (x :: xs).length := by simp; positivity
    have b := (a.mul_const (c := 1 / ((x :: xs).length : ℝ)) (C := 1 / ((x :: xs).length : ℝ)) (by rw [abs_of_pos (by positivity)])).round
    have b1 := b.1
    have h0 : 0 ≤ ((x :: xs).map fun x => |x|).sum * (1 / ((x :: xs).length : ℝ)) := b.bound_nonneg
    have b2 := b1.trans (mul_le_mul_of_nonneg_right (R53_pow288 (by omega)) h0)
    simp only [mul_one_div] at b2 h0
    refine b2.trans ?_
    generalize ((x :: xs).map fun x => |x|).sum / ((x :: xs).length : ℝ) = z at h0 ⊢
    norm_num
    linarith

/-! ## a mean outside the range of the values -/

theorem natFloor_ratCast (q : ℚ) : ⌊(q : ℝ)⌋₊ = ⌊q⌋₊ := by
  rw [← Int.floor_toNat, ← Int.floor_toNat, Rat.floor_cast]

theorem natCeil_ratCast (q : ℚ) : ⌈(q : ℝ)⌉₊ = ⌈q⌉₊ := by
  rw [← Int.ceil_toNat, ← Int.ceil_toNat, Rat.ceil_cast]

theorem intLog_ratCast (q : ℚ) : Int.log 2 (q : ℝ) = Int.log 2 q := by
  unfold Int.log
  have h1 : (1 ≤ (q : ℝ)) ↔ 1 ≤ q := by exact_mod_cast Iff.rfl
  rw [natFloor_ratCast, show ((q : ℝ))⁻¹ = ((q⁻¹ : ℚ) : ℝ) by push_cast; rfl, natCeil_ratCast]
  simp only [h1]

theorem nearestEven_ratCast (q : ℚ) : nearestEven (q : ℝ) = nearestEven q := by
  unfold nearestEven
  rw [Rat.floor_cast]
  have h1 : ((q : ℝ) - ((⌊q⌋ : Int) : ℝ) < 1 / 2) ↔ q - ((⌊q⌋ : Int) : ℚ) < 1 / 2 := by
    rw [← Rat.cast_lt (K := ℝ)]; push_cast; rfl
  have h2 : (1 / 2 < (q : ℝ) - ((⌊q⌋ : Int) : ℝ)) ↔ 1 / 2 < q - ((⌊q⌋ : Int) : ℚ) := by
    rw [← Rat.cast_lt (K := ℝ)]; push_cast; rfl
  simp only [h1, h2]

theorem roundBits_ratCast (p : Nat) (q : ℚ) : roundBits p (q : ℝ) = ((roundBits p q : ℚ) : ℝ) := by
  unfold roundBits
  by_cases h : q = 0
  · rw [h]; simp
  · rw [if_neg (by exact_mod_cast h), if_neg h, show |(q : ℝ)| = ((|q| : ℚ) : ℝ) by push_cast; rfl, intLog_ratCast]
    push_cast
    rw [← nearestEven_ratCast]
    push_cast
    rfl

theorem foldl_ratCast (xs : List ℚ) : ∀ a : ℚ, (xs.map fun q : ℚ => (q : ℝ)).foldl (fun a b => roundBits 53 (a + b)) (a : ℝ) =
    ((xs.foldl (fun a b => roundBits 53 (a + b)) a : ℚ) : ℝ) := by
  induction xs with
  | nil => intro a; rfl
  | cons x xs ih =>
    intro a
    rw [List.map_cons, List.foldl_cons, List.foldl_cons, ← ih]
    congr 1
    rw [← roundBits_ratCast]
    push_cast
    rfl

/-- 0.7 in binary64 -/
def float07 : ℚ := 3152519739159347 / 2 ^ 52

/-- **C145 (where the bounds on the daily mean fail).**  tests/test_temperature.py:16-17, 33-34 also assert that no daily mean is below the smallest tmin: with tmin = tmax = 0.7 (in binary64) in every hour the
value is 0.7, but the mean of the 24 values, added from left to right, is smaller. -/
theorem C145_mean_below_min (F : FloatMath) (hF : DoubleMath F) (mean' : List (XF ℝ) → XF ℝ) (api : PandasApi) (hd : TempDays daily d0 n tmin tmax temp) (hn : 0 < n) (mmt : String)
    (modNight : Bool) (md : Option (List (Int × XF ℝ))) (sun : Option (Series SunTimes)) (c : MeanCourse ℝ) (hc : Covers c d0 n) :
    ∃ out, disaggregateTemperatureR F mean' api daily "mean_course_min_max" mmt modNight md (some c) sun = .ok out ∧
      ∀ i < n, tmin i = .fin (float07 : ℝ) → tmax i = .fin (float07 : ℝ) → Normalized c (monthOf (at00 (d0 + i))) →
        (∀ c ∈ dayCells out (d0 + i), c = .fin (float07 : ℝ)) ∧ ∃ x, leftMean (roundBits 53) (dayCells out (d0 + i)) = .fin x ∧ x < float07 := by
  refine ⟨_, by rw [hF.eta]; exact courseMinMaxR_run R53 F.cos F.pi mean' api hd.index hn hd.hmin hd.hmax mmt modNight md sun c hc, ?_⟩
  intro i hi ha hb hnorm
  obtain ⟨f, f1, -⟩ := normalized_fun hnorm
  have hfl : R53.fl (float07 : ℝ) = float07 := by
    rw [R53_fl, roundBits_ratCast]
    have : roundBits 53 float07 = float07 := by decide +kernel
    rw [this]
  have e : dayCells (hourlyS d0 n fun i h => ((c.val (monthOf (at00 (d0 + (i : Nat)))) (h : Nat) * (tmax i - tmin i).rnd R53.fl).rnd R53.fl + tmin i).rnd R53.fl) (d0 + i) =
      (day24 fun _ => (float07 : ℝ)).map .fin := by
    rw [dayCells_hourlyS d0 _ hi, day24_map]
    apply day24_congr
    intro h hh
    rw [f1 h hh, ha, hb, XF.fin_sub_fin]
    simp only [XF.rnd, XF.fin_mul_fin, XF.fin_add_fin, sub_self, R53.fl_zero, mul_zero, zero_add, hfl]
  rw [e]
  refine ⟨?_, ?_⟩
  · intro c hc
    obtain ⟨z, hz, rfl⟩ := List.mem_map.1 hc
    obtain ⟨_, _, rfl⟩ := mem_day24.1 hz
    rfl
  · have e2 : (day24 fun _ => (float07 : ℝ)) = (float07 : ℝ) :: (List.replicate 23 float07).map fun q : ℚ => (q : ℝ) := by
      rw [List.map_replicate]; rfl
    unfold leftMean
    rw [numbers_map_fin, e2]
    refine ⟨_, rfl, ?_⟩
    rw [foldl_ratCast]
    have e3 : (((float07 : ℝ) :: (List.replicate 23 float07).map fun q : ℚ => (q : ℝ)).length : ℝ) = ((24 : ℚ) : ℝ) := by simp
    rw [e3, ← Rat.cast_div, roundBits_ratCast, Rat.cast_lt]
    decide +kernel

/-! ## the hypotheses are met -/

/-- double precision -/
private def exF : FloatMath := ⟨roundBits 53, fun x => roundBits 53 (Real.cos x), roundBits 53 Real.pi⟩

/-- wind: a windy and a missing day -/
example : ∃ l, disaggregateWindR exF .modern (dailyS 0 2 fun i => if i = 0 then .fin 5 else .nan) "equal" 0 0 0 = .ok l ∧ l.length = 48 ∧
    IsClose (roundBits 53) (.fin 5) (leftMean (roundBits 53) (arrayDay l 0)) ∧ IsClose (roundBits 53) .nan (leftMean (roundBits 53) (arrayDay l 1)) := by
  obtain ⟨l, h1, h2, h3⟩ := C145_wind exF C145_left_mean .modern 0 (n := 2) (by decide) (v := fun i => if i = 0 then .fin 5 else .nan)
    (by intro i hi; by_cases h : i = 0
        · right; exact ⟨5, by simp [h], by rw [abs_of_pos (by norm_num)]; exact (show (5 : ℝ) ≤ 10 ^ 1 by norm_num).trans (pow_le_pow_right₀ (by norm_num) (by norm_num))⟩
        · left; simp [h]) 0 0 0
  exact ⟨l, h1, h2, h3 0 (by decide), h3 1 (by decide)⟩

/-- humidity: 80 % and a missing day -/
example (F : FloatHum) : ∃ out, disaggregateHumidityR F (leftMean (roundBits 53)) .modern ⟨[at00 0, at00 1], [("hum", [.fin 80, .nan])]⟩ "equal" none none none none none = .ok out ∧
    IsClose (roundBits 53) (leftMean (roundBits 53) (dayCells out (0 + (0 : Nat)))) (.fin 80) := by
  obtain ⟨out, h1, -, h2⟩ := C145_humidity F C145_left_mean (mean' := leftMean (roundBits 53)) .modern 0 (n := 2) (by decide) (v := fun i => if i = 0 then .fin 80 else .nan)
    (daily := ⟨[at00 0, at00 1], [("hum", [.fin 80, .nan])]⟩) rfl
    (by intro i hi; by_cases h : i = 0
        · right; exact ⟨80, by simp [h], by norm_num, by norm_num⟩
        · left; simp [h]) none none none none none
  exact ⟨out, h1, h2 0 (by decide)⟩

/-- precipitation: the check holds on the first day and fails on the second, missing one -/
example : ∃ out, distributeEquallyR (roundBits 53) .modern (dailyS 0 2 fun i => if i = 0 then .fin 5 else .nan) = .ok out ∧
    IsClose (roundBits 53) (.fin 5) (leftSum (roundBits 53) (dayCells out 0)) ∧ ¬ IsClose (roundBits 53) .nan (leftSum (roundBits 53) (dayCells out 1)) := by
  obtain ⟨out, h1, h2⟩ := C145_precipitation C145_left_sum .modern 0 (n := 2) (by decide) (v := fun i => if i = 0 then .fin 5 else .nan)
    (by intro i hi; by_cases h : i = 0
        · right; exact ⟨5, by simp [h], by rw [abs_of_pos (by norm_num)]; exact (show (5 : ℝ) ≤ 10 ^ 1 by norm_num).trans (pow_le_pow_right₀ (by norm_num) (by norm_num))⟩
        · left; simp [h])
  exact ⟨out, h1, (h2 0 (by decide)).2 (by simp), fun h => (h2 1 (by decide)).1 h (by simp)⟩

/-- temperature: the first day of the example, 10 to 20 °C with mean 15 °C -/
example : (∃ out, disaggregateTemperatureR exF (leftMean (roundBits 53)) .modern exFrame "sine_mean" "fix" false none none (some exSun) = .ok out ∧
      IsClose (roundBits 53) (.fin 288) (leftMean (roundBits 53) (dayCells out (0 + (0 : Nat))))) ∧
    (∃ out, disaggregateTemperatureR exF (leftMean (roundBits 53)) .modern exFrame "mean_course_mean" "fix" false none (some exCourse) none = .ok out ∧
      IsClose (roundBits 53) (.fin 288) (leftMean (roundBits 53) (dayCells out (0 + (0 : Nat))))) ∧
    ∃ out mn mx, disaggregateTemperatureR exF (leftMean (roundBits 53)) .modern exFrame "mean_course_min_max" "fix" false none (some exCourse) none = .ok out ∧
      MinIs (dayCells out (0 + (0 : Nat))) mn ∧ MaxIs (dayCells out (0 + (0 : Nat))) mx ∧ IsClose (roundBits 53) (.fin 283) (.fin mn) ∧ IsClose (roundBits 53) (.fin 293) (.fin mx) := by
  refine ⟨?_, ?_, ?_⟩
  · obtain ⟨out, h⟩ := exOkR exF (leftMean (roundBits 53)) (.inr (.inl rfl)) false
    exact ⟨out, h, (C145_sine_mean exF double_exists C145_left_mean (leftMean_rounded _) .modern exDays (by decide) "fix" false none none exSun out h 0 (by decide) 283 293 288 rfl rfl rfl
      (by norm_num) (by norm_num [abs_of_pos]) 7 14 (.inl ⟨rfl, rfl, rfl⟩) (by decide) (by decide) (by decide)).2.1⟩
  · obtain ⟨out, h, h2⟩ := C145_course_mean exF double_exists C145_left_mean (leftMean_rounded _) .modern exDays (by decide) "fix" false none none exCourse exCovers rfl
    exact ⟨out, h, (h2 0 (by decide) 283 293 288 rfl rfl rfl (by norm_num) (by norm_num [abs_of_pos]) (exCourse_norm _)).2.1⟩
  · obtain ⟨out, h, h2⟩ := C145_course_min_max exF double_exists C145_left_mean (mean' := leftMean (roundBits 53)) .modern exDays (by decide) "fix" false none none exCourse exCovers
    have e : roundBits 53 (283 : ℝ) = 283 := by
      have := roundBits_ratCast 53 283
      rw [show roundBits 53 (283 : ℚ) = 283 by decide +kernel] at this
      exact_mod_cast this
    obtain ⟨-, ⟨mn, mx, a, b, c, d⟩, -⟩ := h2 0 (by decide) 283 293 rfl rfl e (by norm_num) (by norm_num [abs_of_pos]) (exCourse_norm _)
    exact ⟨out, mn, mx, h, a, b, c, d⟩

private def exFlat : Frame ℝ :=
  ⟨[at00 0, at00 1], [("tmin", [.fin float07, .fin float07]), ("tmax", [.fin float07, .fin float07]), ("temp", [.fin float07, .fin float07])]⟩

/-- temperature: two days with tmin = tmax = 0.7 -/
example : ∃ out x, disaggregateTemperatureR exF (leftMean (roundBits 53)) .modern
      exFlat
      "mean_course_min_max" "fix" false none (some exCourse) none = .ok out ∧
    leftMean (roundBits 53) (dayCells out (0 + (0 : Nat))) = .fin x ∧ x < float07 := by
  obtain ⟨out, h, h2⟩ := C145_mean_below_min exF double_exists (leftMean (roundBits 53)) .modern
    (daily := exFlat)
    (d0 := 0) (n := 2) (tmin := fun _ => XF.fin (float07 : ℝ)) (tmax := fun _ => XF.fin (float07 : ℝ)) (temp := fun _ => XF.fin (float07 : ℝ)) ⟨rfl, rfl, rfl, rfl⟩ (by decide) "fix" false none none exCourse exCovers
  obtain ⟨-, x, a, b⟩ := h2 0 (by decide) rfl rfl (exCourse_norm _)
  exact ⟨out, x, h, a, b⟩

/-- radiation: a day with 20 W/m² in two hours passes; 0.005 W/m² spread evenly is lost and the check fails -/
example : (∃ out, radiationCoreR exF (leftMean (roundBits 53)) (hourlyS 0 1 fun _ h => .fin (if h = 12 then 500 else if h = 13 then 300 else 0)) (dailyS 0 1 fun _ => .fin 20) = .ok out ∧
      IsClose (roundBits 53) (.fin 20) (leftMean (roundBits 53) (dayCells out (0 + (0 : Nat))))) ∧
    ∃ out, radiationCoreR exF (leftMean (roundBits 53)) (hourlyS 0 1 fun _ _ => .fin 100) (dailyS 0 1 fun _ => .fin 0.005) = .ok out ∧
      ¬ IsClose (roundBits 53) (.fin 0.005) (leftMean (roundBits 53) (dayCells out (0 + (0 : Nat)))) := by
  constructor
  · obtain ⟨out, h, h2⟩ := C145_radiation exF double_exists C145_left_mean (leftMean_rounded _) (d0 := 0) (n := 1) (by decide) (fun _ => .fin 20)
      (fun _ h => .fin (if h = 12 then 500 else if h = 13 then 300 else 0))
    obtain ⟨-, -, h3⟩ := h2 0 (by decide) (fun h => if h = 12 then 500 else if h = 13 then 300 else 0) 20
      (fun h _ => ⟨rfl, by split <;> [norm_num; split <;> norm_num]⟩) ⟨12, by decide, by norm_num⟩ rfl (by norm_num) (by norm_num)
    refine ⟨out, h, h3 ⟨12, 13, fun k _ hk _ => ?_⟩⟩
    by_contra hne
    simp only [not_or] at hne
    simp [hne.1, hne.2] at hk
  · obtain ⟨out, h, h2⟩ := C145_radiation_lost exF double_exists C145_left_mean (leftMean_rounded _) (d0 := 0) (n := 1) (by decide) (fun _ => .fin 0.005) (fun _ _ => .fin 100)
    refine ⟨out, h, (h2 0 (by decide) (fun _ => 100) 0.005 (fun _ _ => ⟨rfl, by norm_num⟩) ⟨0, by decide, by norm_num⟩ rfl (by norm_num) (fun _ _ => ?_)).2⟩
    rw [sum_day24_const]
    norm_num

/-- statistics with the same frequencies everywhere -/
private def exEvenStats : CascStats ℝ :=
  { CascStats.init with p01 := fun _ _ => .fin (1 / 4), p10 := fun _ _ => .fin (1 / 4), pxx := fun _ _ => .fin (1 / 2), wxx := fun _ _ _ => .fin (1 / 7),
                        threshold := List.replicate 5 (.fin 1) }

/-- the cascade returns on a day with 12.3 mm before a missing one, and the check holds -/
example : ∃ r, cascadeR (roundBits 53) .modern (fun _ => 1 / 2) (dailyS 0 2 fun i => if i = 0 then .fin 12.3 else .nan) (.one exEvenStats) = .ok r ∧
    IsClose (roundBits 53) (.fin 12.3) (leftSum (roundBits 53) (dayCells r.series (0 + (0 : Nat)))) := by
  obtain ⟨r, h⟩ := C128_cascade_returns R53 (roundBits_one (by norm_num)) .modern (fun _ => (1 / 2 : ℝ)) (lo := 1) (hi := 1) (by intro _; rw [R53_u]; norm_num) (.one exEvenStats)
    (.inl ⟨exEvenStats, rfl, by
      intro b t
      exact ⟨⟨1 / 4, 1 / 4, 1 / 2, rfl, rfl, rfl, by norm_num, by norm_num, by norm_num, by norm_num, by norm_num⟩, fun _ => 1 / 7, fun _ => rfl, fun _ => by norm_num,
        by simp, by simp⟩, by simp [exEvenStats]⟩) 0 2 (by decide)
    (fun i => if i = 0 then .fin 12.3 else .nan) (by
      intro i hi; by_cases h : i = 0
      · right; exact ⟨12.3, by norm_num, by simp [h]⟩
      · left; simp [h]) 0
  refine ⟨r, h, C145_cascade C145_left_sum (v := fun i => if i = 0 then .fin 12.3 else .nan) (by decide) ?_ ?_ h (i := 0) (by decide) (P := 12.3) rfl⟩
  · intro i hi x hx
    by_cases h : i = 0
    · simp [h] at hx; rw [← hx]; norm_num
    · simp [h] at hx
  · simp [List.range_succ, numbers]
    norm_num

end

end Melodist
