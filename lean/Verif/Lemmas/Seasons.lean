import Verif.Lemmas.Station
import Verif.Props.Aggregate
import Verif.Props.CascadeRun
import Verif.Props.Index

/-!
# Lemmas for the seasonal cascade of a station
-/

set_option linter.unusedSectionVars false

namespace Melodist
open Spec

/-- day `i` of the data that start on day `d0` is in one of the months -/
def InSeason (d0 : Int) (months : List Int) (i : Nat) : Prop := monthOf (at00 (d0 + i)) ∈ months

instance (d0 : Int) (months : List Int) : DecidablePred (InSeason d0 months) := fun i => by unfold InSeason; infer_instance

/-- the season has at least two of the `n` days -/
def TwoDays (d0 : Int) (n : Nat) (months : List Int) : Prop := ∃ i j, i < j ∧ j < n ∧ InSeason d0 months i ∧ InSeason d0 months j

/-- no other day lies between two days of the season -/
def Contiguous (d0 : Int) (n : Nat) (months : List Int) : Prop :=
  ∀ i g j, i < g → g < j → j < n → InSeason d0 months i → InSeason d0 months j → InSeason d0 months g

/-- the season's days as numbers -/
def seasonDays (d0 : Int) (n : Nat) (months : List Int) : List Nat := (List.range n).filter fun i => decide (InSeason d0 months i)

theorem mem_seasonDays {d0 : Int} {n : Nat} {months : List Int} {i : Nat} : i ∈ seasonDays d0 n months ↔ i < n ∧ InSeason d0 months i := by
  simp [seasonDays]

theorem seasonDays_sorted (d0 : Int) (n : Nat) (months : List Int) : (seasonDays d0 n months).Pairwise (· < ·) :=
  List.pairwise_lt_range.filter _

theorem twoDays_iff {d0 : Int} {n : Nat} {months : List Int} : 1 < (seasonDays d0 n months).length ↔ TwoDays d0 n months := by
  have hs := seasonDays_sorted d0 n months
  have hm : ∀ i, i ∈ seasonDays d0 n months ↔ i < n ∧ InSeason d0 months i := fun i => mem_seasonDays
  generalize seasonDays d0 n months = l at hs hm
  constructor
  · intro h
    match l, h with
    | x :: y :: l, _ =>
      have hx := (hm x).1 (by simp)
      have hy := (hm y).1 (by simp)
      exact ⟨x, y, List.rel_of_pairwise_cons hs (by simp), hy.1, hx.2, hy.2⟩
  · rintro ⟨i, j, hij, hj, h1, h2⟩
    have m1 := (hm i).2 ⟨by omega, h1⟩
    have m2 := (hm j).2 ⟨hj, h2⟩
    match l, m1, m2 with
    | [x], m1, m2 => simp at m1 m2; omega
    | _ :: _ :: _, _, _ => simp

theorem subset_eq {V : Type} (d0 : Int) (n : Nat) (v : Nat → V) {months : List Int} (hne : months ≠ []) (hd : months.Nodup) :
    seasonalSubset (dailyS d0 n v) months = .ok ((seasonDays d0 n months).map fun i : Nat => (at00 (d0 + i), v i)) := by
  have hs : (dailyS d0 n v).Pairwise fun a b => a.1 < b.1 := by
    have := dailyS_index_sorted d0 n v
    unfold Series.index at this
    rwa [List.pairwise_map] at this
  rw [C24_seasonal_subset_sorted _ hs months hne hd]
  congr 1
  unfold dailyS seasonDays
  rw [List.filter_map]
  rfl

/-- the days of a contiguous season are `a, …, a + m - 1` -/
theorem contiguous_range {d0 : Int} {n : Nat} {months : List Int} (hc : Contiguous d0 n months) (h2 : TwoDays d0 n months) :
    ∃ a m, 2 ≤ m ∧ a + m ≤ n ∧ (∀ i < n, InSeason d0 months i ↔ a ≤ i ∧ i < a + m) ∧ seasonDays d0 n months = (List.range m).map (a + ·) := by
  classical
  obtain ⟨i0, j0, hij, hj, hi0, hj0⟩ := h2
  have hex : ∃ i, i < n ∧ InSeason d0 months i := ⟨i0, by omega, hi0⟩
  let a := Nat.find hex
  have ha : a < n ∧ InSeason d0 months a := Nat.find_spec hex
  have hamin : ∀ i, i < n → InSeason d0 months i → a ≤ i := fun i h h' => Nat.find_min' hex ⟨h, h'⟩
  let b := Nat.findGreatest (fun i => i < n ∧ InSeason d0 months i) n
  have hb : b < n ∧ InSeason d0 months b := Nat.findGreatest_spec (P := fun i => i < n ∧ InSeason d0 months i) (m := j0) (by omega) ⟨hj, hj0⟩
  have hbmax : ∀ i, i < n → InSeason d0 months i → i ≤ b := fun i h h' =>
    Nat.le_findGreatest (P := fun i => i < n ∧ InSeason d0 months i) (by omega) ⟨h, h'⟩
  have hai := hamin i0 (by omega) hi0
  have hbj := hbmax j0 hj hj0
  have hiff : ∀ i < n, InSeason d0 months i ↔ a ≤ i ∧ i < a + (b + 1 - a) := by
    intro i hi
    constructor
    · intro h; have := hamin i hi h; have := hbmax i hi h; omega
    · rintro ⟨h1, h2⟩
      rcases Nat.eq_or_lt_of_le h1 with h | h
      · rw [← h]; exact ha.2
      rcases Nat.eq_or_lt_of_le (show i ≤ b by omega) with h' | h'
      · rw [h']; exact hb.2
      exact hc a i b h h' hb.1 ha.2 hb.2
  refine ⟨a, b + 1 - a, by omega, by omega, hiff, ?_⟩
  have hsr : ((List.range (b + 1 - a)).map (a + ·)).Pairwise (· < ·) := by
    rw [List.pairwise_map]; exact List.pairwise_lt_range.imp (by intro x y h; omega)
  have hperm : (seasonDays d0 n months).Perm ((List.range (b + 1 - a)).map (a + ·)) := by
    rw [List.perm_ext_iff_of_nodup ((seasonDays_sorted d0 n months).imp fun h => h.ne) (hsr.imp fun h => h.ne)]
    intro i
    rw [mem_seasonDays, List.mem_map]
    constructor
    · rintro ⟨h1, h2⟩
      have := (hiff i h1).1 h2
      exact ⟨i - a, List.mem_range.2 (by omega), by omega⟩
    · rintro ⟨k, hk, rfl⟩
      have hk := List.mem_range.1 hk
      exact ⟨by omega, (hiff _ (by omega)).2 ⟨by omega, by omega⟩⟩
  exact hperm.eq_of_pairwise (fun x y _ _ h h' => absurd (lt_trans h h') (lt_irrefl _)) (seasonDays_sorted d0 n months) hsr

theorem hourlyS_at?_outside {V : Type} (d0 : Int) {n : Nat} (f : Nat → Nat → V) {d : Int} {h : Nat} (hh : h < 24) (hd : d < d0 ∨ d0 + n ≤ d) :
    Series.at? (hourlyS d0 n f) (atHour d h) = none := by
  unfold Series.at? hourlyS
  rw [Option.map_eq_none_iff, List.find?_eq_none]
  intro r hr
  obtain ⟨k, hk, rfl⟩ := List.mem_map.1 hr
  have hk := List.mem_range.1 hk
  simp only [beq_iff_eq]
  intro e
  unfold atHour at e
  omega

open World in
/-- writing the hours of the days `a, …, a + m - 1` -/
theorem locAssign_hourly (d0 : Int) {n a m : Nat} (ham : a + m ≤ n) (f g : Nat → Nat → XF ℝ) :
    locAssign (hourlyS d0 n f) (hourlyS (d0 + a) m g) = .ok (hourlyS d0 n fun i h => if a ≤ i ∧ i < a + m then g (i - a) h else f i h) := by
  unfold locAssign
  rw [if_pos]
  · congr 1
    unfold hourlyS
    rw [List.map_map]
    apply List.map_congr_left
    intro k hk
    have hk := List.mem_range.1 hk
    simp only [Function.comp_apply]
    congr 1
    change (match Series.at? (hourlyS (d0 + a) m g) (atHour (d0 + (k / 24 : Nat)) (k % 24)) with | some v => v | none => _) = _
    by_cases hin : a ≤ k / 24 ∧ k / 24 < a + m
    · rw [if_pos hin, show d0 + ((k / 24 : Nat) : Int) = d0 + (a : Int) + ((k / 24 - a : Nat) : Int) by omega,
        hourlyS_at? (d0 + a) g (by omega) (Nat.mod_lt _ (by omega))]
    · rw [if_neg hin, hourlyS_at?_outside (d0 + a) g (Nat.mod_lt _ (by omega)) (by omega)]
  · rw [List.all_eq_true]
    intro r hr
    obtain ⟨k, hk, rfl⟩ := List.mem_map.1 hr
    have hk := List.mem_range.1 hk
    rw [List.contains_iff_mem]
    refine List.mem_map.2 ⟨(atHour (d0 + ((a + k / 24 : Nat) : Int)) (k % 24), f (a + k / 24) (k % 24)), List.mem_map.2 ⟨24 * a + k, List.mem_range.2 (by omega), ?_⟩, ?_⟩
    · rw [show (24 * a + k) / 24 = a + k / 24 by omega, show (24 * a + k) % 24 = k % 24 by omega]
    · dsimp only; congr 1; push_cast; ring

/-- the 24 values of a day with daily value `x` are missing if `x` is, and otherwise non-negative with the right sum -/
def DayDone (x : XF ℝ) (cells : Nat → XF ℝ) : Prop :=
  (x = .nan → ∀ h < 24, cells h = .nan) ∧
  ∀ y, x = .fin y → ∃ z : Nat → ℝ, (∀ h < 24, cells h = .fin (z h) ∧ 0 ≤ z h) ∧ (day24 z).sum = max y 0

section step
variable {api : PandasApi} {d0 : Int} {n : Nat} {v : Nat → XF ℝ} {months : List Int} {rnd : Nat → ℝ} {opts : CascOptions ℝ} {zerodiv : String}

theorem cascade_call (sub : Series (XF ℝ)) (shift : Int) : disaggPrec api rnd (.series sub) "cascade" (some opts) none zerodiv shift =
    (disaggPrecCascade api rnd sub opts (shift := shift)).map CascadeOut.series := by
  unfold disaggPrec
  rw [if_neg (by decide), if_neg (by decide), if_neg (by decide)]
  dsimp only
  cases disaggPrecCascade api rnd sub opts (shift := shift) <;> rfl

/-- a season that is returned by the cascade on current pandas has no gap -/
theorem season_no_gap (hapi : api.indexToDatetime = false) {r : CascadeOut ℝ}
    (h : disaggPrecCascade api rnd ((seasonDays d0 n months).map fun i : Nat => (at00 (d0 + i), v i)) opts = .ok r) : Contiguous d0 n months := by
  intro i g j hig hgj hj hi hjs
  by_contra hg
  obtain ⟨_, w, levels, fine, s, _, _, _, _, ha, _⟩ := disagg_inv h
  unfold assembleSeries at ha
  have hidx : Series.index ((seasonDays d0 n months).map fun i : Nat => (at00 (d0 + i), v i)) =
      ((seasonDays d0 n months).map fun i : Nat => d0 + (i : Int)).map at00 := by
    simp [Series.index, Function.comp_def]
  rw [hidx, if_pos rfl, C02_hourly_index_gaps_raises api hapi _ ?_ (d0 + i) (d0 + j) (d0 + g) ?_ ?_ ⟨by omega, by omega, ?_⟩] at ha
  · cases ha
  · rw [List.Nodup, List.pairwise_map]
    exact (seasonDays_sorted d0 n months).imp (by intro x y h; omega)
  · exact List.mem_map.2 ⟨i, mem_seasonDays.2 ⟨by omega, hi⟩, rfl⟩
  · exact List.mem_map.2 ⟨j, mem_seasonDays.2 ⟨hj, hjs⟩, rfl⟩
  · intro hm
    obtain ⟨k, hk, e⟩ := List.mem_map.1 hm
    have : k = g := by omega
    exact hg (this ▸ (mem_seasonDays.1 hk).2)

/-- a season with a gap raises AttributeError on current pandas -/
theorem season_gap_raises (hapi : api.indexToDatetime = false) (hr : ∀ j, rnd j ≤ 1) (ho : UsableOptions 5 opts)
    (hv : ∀ i < n, v i = .nan ∨ ∃ x, 0 ≤ x ∧ v i = .fin x) (h2 : TwoDays d0 n months) (hc : ¬ Contiguous d0 n months) :
    disaggPrecCascade api rnd ((seasonDays d0 n months).map fun i : Nat => (at00 (d0 + i), v i)) opts = .error .attributeError := by
  have hlen := twoDays_iff.2 h2
  have hvals : Series.values ((seasonDays d0 n months).map fun i : Nat => (at00 (d0 + i), v i)) =
      (List.range (seasonDays d0 n months).length).map fun k => v ((seasonDays d0 n months).getD k 0) := by
    apply List.ext_getElem
    · simp [Series.values]
    · intro k h1 h2
      simp [Series.values] at h1
      simp [Series.values, h1]
  obtain ⟨w, hw, _, ls, hls⟩ := cascade_levels_ok hr ho (seasonDays d0 n months).length (by omega)
    (fun k => v ((seasonDays d0 n months).getD k 0)) (fun k hk => hv _ (by
      rw [List.getD_eq_getElem?_getD, List.getElem?_eq_getElem hk]; exact (mem_seasonDays.1 (List.getElem_mem hk)).1))
  unfold Contiguous at hc
  push Not at hc
  obtain ⟨i, g, j, hig, hgj, hj, hi, hjs, hg⟩ := hc
  have hidx : Series.index ((seasonDays d0 n months).map fun i : Nat => (at00 (d0 + i), v i)) =
      ((seasonDays d0 n months).map fun i : Nat => d0 + (i : Int)).map at00 := by
    simp [Series.index, Function.comp_def]
  have hgap : hourlyIndex api (Series.index ((seasonDays d0 n months).map fun i : Nat => (at00 (d0 + i), v i))) false = .error .attributeError := by
    rw [hidx]
    apply C02_hourly_index_gaps_raises api hapi _ ?_ (d0 + i) (d0 + j) (d0 + g) ?_ ?_ ⟨by omega, by omega, ?_⟩
    · rw [List.Nodup, List.pairwise_map]
      exact (seasonDays_sorted d0 n months).imp (by intro x y h; omega)
    · exact List.mem_map.2 ⟨i, mem_seasonDays.2 ⟨by omega, hi⟩, rfl⟩
    · exact List.mem_map.2 ⟨j, mem_seasonDays.2 ⟨hj, hjs⟩, rfl⟩
    · intro hm
      obtain ⟨k, hk, e⟩ := List.mem_map.1 hm
      have : k = g := by omega
      exact hg (this ▸ (mem_seasonDays.1 hk).2)
  unfold disaggPrecCascade
  rw [if_neg (by simp; omega), hvals, hw]
  simp only [if_true, bind, Except.bind]
  rw [if_neg (by omega), ho.levelStats.1, hls]
  simp only [assembleSeries, if_true, bind, Except.bind, hgap]

end step

end Melodist
