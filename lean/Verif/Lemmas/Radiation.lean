import Verif.Model.Radiation
import Verif.Lemmas.TemperatureCourse
import Verif.Spec.Rad

/-!
# Helper lemmas for radiation
-/

set_option linter.unusedSectionVars false

namespace Melodist
open Spec

noncomputable section

variable {V : Type}

theorem asof?_daily_general (d0 : Int) {n : Nat} (hn : 0 < n) (v : Nat → V) (d : Int) {h : Nat} (hh : h < 24) :
    Series.asof? (dailyS d0 n v) (atHour d h) =
      if d < d0 then none else some (at00 (d0 + (min (d - d0).toNat (n - 1) : Nat)), v (min (d - d0).toNat (n - 1))) := by
  by_cases hd : d < d0
  · rw [if_pos hd]
    unfold Series.asof? dailyS
    rw [List.getLast?_eq_none_iff, List.filter_eq_nil_iff]
    intro r hr
    obtain ⟨i, _, rfl⟩ := List.mem_map.1 hr
    unfold at00 atHour
    simp only [decide_eq_true_eq]
    omega
  · rw [if_neg hd]
    obtain ⟨k, rfl⟩ : ∃ k : Nat, d = d0 + k := ⟨(d - d0).toNat, by omega⟩
    rw [show (d0 + (k : Int) - d0).toNat = k by omega]
    by_cases hk : k < n
    · rw [asof?_daily d0 v hk hh, Nat.min_eq_left (by omega)]
    · have e : min k (n - 1) = n - 1 := by omega
      rw [e, ← asof?_daily d0 (n := n) v (i := n - 1) (by omega) hh]
      unfold Series.asof?
      congr 1
      apply List.filter_congr
      intro r hr
      obtain ⟨i, hi, rfl⟩ := List.mem_map.1 hr
      have hi := List.mem_range.1 hi
      rw [decide_eq_decide]
      unfold at00 atHour
      constructor <;> intro _ <;> omega

theorem reindexFfill_general (d0 : Int) {n : Nat} (hn : 0 < n) (v : Nat → XF ℝ) (d1 : Int) (m : Nat) (f : Nat → Nat → V) :
    Series.reindexFfill (dailyS d0 n v) (Series.index (hourlyS d1 m f)) = .ok (hourlyS d1 m fun j _ => lastValue d0 n v (d1 + j)) := by
  unfold Series.reindexFfill
  rw [if_pos (dailyS_index_sorted d0 n v)]
  congr 1
  rw [hourlyS_index_atHour, List.map_map]
  unfold hourlyS
  apply List.map_congr_left
  intro k hk
  have hk := List.mem_range.1 hk
  simp only [Function.comp_def]
  rw [asof?_daily_general d0 hn v _ (by omega)]
  unfold lastValue
  split <;> simp_all

theorem lastValue_self {d0 : Int} {n : Nat} {v : Nat → XF ℝ} {i : Nat} (hi : i < n) : lastValue d0 n v (d0 + i) = v i := by
  unfold lastValue
  rw [if_neg (by omega), show (d0 + (i : Int) - d0).toNat = i by omega, Nat.min_eq_left (by omega)]

/-- one hour of the output -/
def radCell (p mean g : XF ℝ) : XF ℝ := if XF.lt (p / mean * g) (.fin 0.01) then .fin 0 else p / mean * g

theorem radiationCore_eq (d0 : Int) {n : Nat} (hn : 0 < n) (v : Nat → XF ℝ) (d1 : Int) {m : Nat} (p : Nat → Nat → XF ℝ) :
    radiationCore (hourlyS d1 m p) (dailyS d0 n v) =
      .ok (hourlyS d1 m fun j h => radCell (p j h) (meanSkip (day24 (p j))) (lastValue d0 n v (d1 + j))) := by
  unfold radiationCore
  rw [reindexFfill_general d0 hn, py_ok_bind, resampleD_hourlyS, reindexFfill_daily_hourly, py_ok_bind]
  congr 1
  rw [hourlyS_values, hourlyS_values, List.zip_eq_zipWith, List.zip_eq_zipWith, List.zipWith_map, List.zipWith_self]
  conv_lhs => rw [hourlyS]
  rw [List.zipWith_map, List.zipWith_self, List.map_map]
  rfl

end

end Melodist
