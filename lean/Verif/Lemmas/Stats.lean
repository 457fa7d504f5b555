import Verif.Spec.Basic
import Verif.Base.Pandas
import Verif.Lemmas.Series
import Mathlib.Algebra.BigOperators.Group.List.Basic
import Mathlib.Tactic.Ring
import Mathlib.Tactic.FieldSimp

set_option linter.unusedSectionVars false

namespace Melodist
open Spec

variable {K : Type}

section
variable [Field K] [LinearOrder K]

@[simp] theorem numbers_nil : numbers ([] : List (XF K)) = [] := rfl
@[simp] theorem numbers_cons_fin (x : K) (l : List (XF K)) : numbers (.fin x :: l) = x :: numbers l := rfl
@[simp] theorem numbers_cons_nan (l : List (XF K)) : numbers (.nan :: l) = numbers l := rfl
@[simp] theorem numbers_map_fin (ys : List K) : numbers (ys.map XF.fin) = ys := by
  induction ys with
  | nil => rfl
  | cons y ys ih => simp [ih]

theorem filter_valid_eq {l : List (XF K)} (h : ∀ c ∈ l, c.NanOrFin) :
    l.filter (fun x => !x.isNan) = (numbers l).map XF.fin := by
  induction l with
  | nil => rfl
  | cons c l ih =>
    have ih := ih fun c hc => h c (by simp [hc])
    have hc := h c (by simp)
    cases c with
    | nan => simpa using ih
    | fin x => simpa using ih
    | pinf => exact absurd hc (by simp)
    | ninf => exact absurd hc (by simp)

@[simp] theorem sumCells_map_fin (ys : List K) : sumCells (ys.map XF.fin) = .fin ys.sum := by
  induction ys with
  | nil => rfl
  | cons y ys ih => simp [sumCells, ih]

theorem sumSkip_eq {l : List (XF K)} (h : ∀ c ∈ l, c.NanOrFin) : sumSkip l = .fin (numbers l).sum := by
  unfold sumSkip; rw [filter_valid_eq h, sumCells_map_fin]

theorem countValid_eq {l : List (XF K)} (h : ∀ c ∈ l, c.NanOrFin) : countValid l = (numbers l).length := by
  unfold countValid; rw [filter_valid_eq h, List.length_map]

theorem meanSkip_eq [IsStrictOrderedRing K] {l : List (XF K)} (h : ∀ c ∈ l, c.NanOrFin) (hne : numbers l ≠ []) :
    meanSkip l = .fin ((numbers l).sum / ((numbers l).length : K)) := by
  unfold meanSkip
  have : (numbers l).length ≠ 0 := by simpa using hne
  rw [countValid_eq h, if_neg this, sumSkip_eq h, XF.fin_div_fin_of_ne]
  exact_mod_cast this

theorem meanSkip_nan {l : List (XF K)} (h : ∀ c ∈ l, c = .nan) : meanSkip l = .nan := by
  unfold meanSkip
  rw [if_pos]
  unfold countValid
  rw [List.length_eq_zero_iff, List.filter_eq_nil_iff]
  intro c hc
  rw [h c hc]; simp

theorem nanOrFin_map_fin (ys : List K) : ∀ c ∈ ys.map XF.fin, c.NanOrFin := by
  intro c hc
  rw [List.mem_map] at hc
  obtain ⟨y, _, rfl⟩ := hc
  simp

theorem minSkip_map_fin : ∀ (ys : List K), ys ≠ [] → ∃ m, minSkip (ys.map XF.fin) = .fin m ∧ m ∈ ys ∧ ∀ y ∈ ys, m ≤ y := by
  intro ys hne
  induction ys with
  | nil => exact absurd rfl hne
  | cons y ys ih =>
    by_cases h : ys = []
    · subst h
      exact ⟨y, rfl, by simp, by simp⟩
    · obtain ⟨m, hm, hmem, hle⟩ := ih h
      simp only [List.map_cons, minSkip, XF.isNan_fin, Bool.false_eq_true, if_false, hm, XF.lt_fin]
      by_cases hlt : m < y
      · rw [if_pos hlt]
        refine ⟨m, rfl, by simp [hmem], ?_⟩
        intro z hz
        rcases List.mem_cons.1 hz with rfl | hz
        · exact hlt.le
        · exact hle z hz
      · rw [if_neg hlt]
        refine ⟨y, rfl, by simp, ?_⟩
        intro z hz
        rcases List.mem_cons.1 hz with rfl | hz
        · exact le_refl _
        · exact (not_lt.1 hlt).trans (hle z hz)

theorem maxSkip_map_fin : ∀ (ys : List K), ys ≠ [] → ∃ m, maxSkip (ys.map XF.fin) = .fin m ∧ m ∈ ys ∧ ∀ y ∈ ys, y ≤ m := by
  intro ys hne
  induction ys with
  | nil => exact absurd rfl hne
  | cons y ys ih =>
    by_cases h : ys = []
    · subst h
      exact ⟨y, rfl, by simp, by simp⟩
    · obtain ⟨m, hm, hmem, hle⟩ := ih h
      simp only [List.map_cons, maxSkip, XF.isNan_fin, Bool.false_eq_true, if_false, hm, XF.lt_fin]
      by_cases hlt : y < m
      · rw [if_pos hlt]
        refine ⟨m, rfl, by simp [hmem], ?_⟩
        intro z hz
        rcases List.mem_cons.1 hz with rfl | hz
        · exact hlt.le
        · exact hle z hz
      · rw [if_neg hlt]
        refine ⟨y, rfl, by simp, ?_⟩
        intro z hz
        rcases List.mem_cons.1 hz with rfl | hz
        · exact le_refl _
        · exact (hle z hz).trans (not_lt.1 hlt)

theorem minSkip_filter (l : List (XF K)) : minSkip l = minSkip (l.filter fun x => !x.isNan) := by
  induction l with
  | nil => rfl
  | cons c l ih =>
    by_cases h : c.isNan = true
    · simp only [minSkip, h, if_true, ih]
      rw [List.filter_cons_of_neg (by simp [h])]
    · rw [List.filter_cons_of_pos (by simpa using h)]
      simp only [minSkip, h, if_false, ih]

theorem maxSkip_filter (l : List (XF K)) : maxSkip l = maxSkip (l.filter fun x => !x.isNan) := by
  induction l with
  | nil => rfl
  | cons c l ih =>
    by_cases h : c.isNan = true
    · simp only [maxSkip, h, if_true, ih]
      rw [List.filter_cons_of_neg (by simp [h])]
    · rw [List.filter_cons_of_pos (by simpa using h)]
      simp only [maxSkip, h, if_false, ih]

theorem minSkip_eq {l : List (XF K)} (h : ∀ c ∈ l, c.NanOrFin) (hne : numbers l ≠ []) :
    ∃ m, minSkip l = .fin m ∧ m ∈ numbers l ∧ ∀ y ∈ numbers l, m ≤ y := by
  rw [minSkip_filter, filter_valid_eq h]
  exact minSkip_map_fin _ hne

theorem maxSkip_eq {l : List (XF K)} (h : ∀ c ∈ l, c.NanOrFin) (hne : numbers l ≠ []) :
    ∃ m, maxSkip l = .fin m ∧ m ∈ numbers l ∧ ∀ y ∈ numbers l, y ≤ m := by
  rw [maxSkip_filter, filter_valid_eq h]
  exact maxSkip_map_fin _ hne

theorem minSkip_nan {l : List (XF K)} (h : ∀ c ∈ l, c = .nan) : minSkip l = .nan := by
  induction l with
  | nil => rfl
  | cons c l ih =>
    rw [h c (by simp)]
    simp only [minSkip, XF.isNan_nan, if_true]
    exact ih fun c hc => h c (by simp [hc])

theorem maxSkip_nan {l : List (XF K)} (h : ∀ c ∈ l, c = .nan) : maxSkip l = .nan := by
  induction l with
  | nil => rfl
  | cons c l ih =>
    rw [h c (by simp)]
    simp only [maxSkip, XF.isNan_nan, if_true]
    exact ih fun c hc => h c (by simp [hc])

theorem sumSkip_nan {l : List (XF K)} (h : ∀ c ∈ l, c = .nan) : sumSkip l = .fin 0 := by
  unfold sumSkip
  rw [List.filter_eq_nil_iff.2]
  · rfl
  · intro c hc; rw [h c hc]; simp

theorem numbers_day24 (g : Nat → K) : numbers (day24 fun h => XF.fin (g h)) = day24 g := by
  rw [← day24_map g XF.fin, numbers_map_fin]

theorem nanOrFin_day24 (g : Nat → K) : ∀ c ∈ day24 (fun h => XF.fin (g h)), c.NanOrFin := by
  rw [← day24_map g XF.fin]; exact nanOrFin_map_fin _

theorem sum_day24_const (x : K) : (day24 fun _ => x).sum = 24 * x := by
  simp [day24, List.map_const']
  ring

end

/-! ### resample / groupby on complete hourly series -/

section
variable {V W : Type}

theorem daySpan_hourlyS (d0 : Int) (n : Nat) (f : Nat → Nat → V) :
    Series.daySpan (Series.index (hourlyS d0 n f)) = (List.range n).map fun i : Nat => d0 + i := by
  rcases n with _ | n
  · rfl
  · unfold Series.daySpan
    rw [hourlyS_index, List.map_map]
    have hmin : ((List.range (24 * (n + 1))).map (dayOf ∘ fun k : Nat => d0 * DAY + (k : Int) * HOUR)).min? = some d0 := by
      rw [List.min?_eq_some_iff]
      constructor
      · rw [List.mem_map]
        exact ⟨0, List.mem_range.2 (by omega), by simp [Function.comp_def, dayOf]⟩
      · intro b hb
        rw [List.mem_map] at hb
        obtain ⟨k, _, rfl⟩ := hb
        simp only [Function.comp_def, dayOf]; omega
    have hmax : ((List.range (24 * (n + 1))).map (dayOf ∘ fun k : Nat => d0 * DAY + (k : Int) * HOUR)).max? = some (d0 + n) := by
      rw [List.max?_eq_some_iff]
      constructor
      · rw [List.mem_map]
        exact ⟨24 * n, List.mem_range.2 (by omega), by simp only [Function.comp_def, dayOf]; omega⟩
      · intro b hb
        rw [List.mem_map] at hb
        obtain ⟨k, hk, rfl⟩ := hb
        have := List.mem_range.1 hk
        simp only [Function.comp_def, dayOf]; omega
    rw [hmin, hmax]
    simp only []
    rw [show (d0 + (n : Int) - d0 + 1).toNat = n + 1 by omega]

theorem resampleD_hourlyS (agg : List V → W) (d0 : Int) (n : Nat) (f : Nat → Nat → V) :
    Series.resampleD agg (hourlyS d0 n f) = dailyS d0 n fun i => agg (day24 (f i)) := by
  unfold Series.resampleD
  rw [daySpan_hourlyS, List.map_map]
  unfold dailyS
  apply List.map_congr_left
  intro i hi
  simp only [Function.comp_def]
  rw [onDay_eq_dayCells, dayCells_hourlyS d0 f (List.mem_range.1 hi)]
  rfl

theorem groupbyDate_hourlyS (agg : List V → W) (d0 : Int) (n : Nat) (f : Nat → Nat → V) :
    Series.groupbyDate agg (hourlyS d0 n f) = dailyS d0 n fun i => agg (day24 (f i)) := by
  rw [← resampleD_hourlyS]
  unfold Series.groupbyDate Series.resampleD
  rw [List.filter_eq_self.2]
  intro d hd
  rw [daySpan_hourlyS, List.mem_map] at hd
  obtain ⟨i, hi, rfl⟩ := hd
  have hi := List.mem_range.1 hi
  rw [List.any_eq_true]
  refine ⟨(atHour (d0 + i) 0, f i 0), ?_, by simp [dayOf_atHour]⟩
  unfold hourlyS
  rw [List.mem_map]
  refine ⟨24 * i, List.mem_range.2 (by omega), ?_⟩
  rw [show 24 * i / 24 = i by omega, show 24 * i % 24 = 0 by omega]

end

section
variable [Field K] [LinearOrder K] [IsStrictOrderedRing K]

theorem hourlyS_eq_of_index {s : Series V} {d0 : Int} {n : Nat} {f : Nat → Nat → V}
    (h : s.index = Series.index (hourlyS d0 n f)) : ∃ g, s = hourlyS d0 n g := by
  have hlen : s.length = 24 * n := by
    have := congrArg List.length h
    simpa [Series.index] using this
  rcases Nat.eq_zero_or_pos n with rfl | hn
  · exact ⟨f, by simpa [hourlyS] using hlen⟩
  · refine ⟨fun i h => (s.values[24 * i + h]?).getD (f 0 0), ?_⟩
    have hs : s = (Series.index (hourlyS d0 n f)).zip s.values := by rw [← h, index_zip_values]
    conv_lhs => rw [hs]
    apply List.ext_getElem
    · simp [Series.index, Series.values, hlen]
    · intro k hk1 hk2
      simp only [hourlyS_length] at hk2
      simp only [List.getElem_zip, hourlyS_index, List.getElem_map, List.getElem_range]
      rw [hourlyS_getElem]
      congr 1
      simp only [Nat.div_add_mod]
      rw [List.getElem?_eq_getElem, Option.getD_some]

end

end Melodist
