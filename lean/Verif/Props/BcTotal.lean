import Verif.Props.RadiationFit
import Verif.Props.RadiationModels

/-!
# C174: radiation disaggregated with calibrated Bristow-Campbell parameters keeps the observed total
-/

set_option linter.unusedSectionVars false

namespace Melodist
open Spec

noncomputable section

/-- every day of the record of `n` days has a positive temperature range: the maximum lies above the mean of this day's and the next day's minimum, on the last day above the minimum -/
def Spec.WarmDays (n : Nat) (tn tx : Nat → ℝ) : Prop :=
  (∀ i, i + 1 < n → (tn i + tn (i + 1)) / 2 < tx i) ∧ tn (n - 1) < tx (n - 1)

theorem Spec.WarmDays.range {n : Nat} {tn tx : Nat → ℝ} (W : WarmDays n tn tx) {i : Nat} (hi : i < n) :
    ∃ r, bcRange n (fun i => .fin (tn i)) (fun i => .fin (tx i)) i = .fin r ∧ 0 < r := by
  unfold bcRange nextMin
  by_cases h : i + 1 < n
  · rw [if_pos h, XF.fin_add_fin, XF.fin_div_fin_of_ne _ two_ne_zero, XF.fin_sub_fin]
    exact ⟨_, rfl, sub_pos.2 (W.1 i h)⟩
  · rw [if_neg h, XF.fin_add_fin, XF.fin_div_fin_of_ne _ two_ne_zero, XF.fin_sub_fin]
    refine ⟨_, rfl, ?_⟩
    have := W.2
    rw [show n - 1 = i by omega] at this
    linarith

/-- the days of a record -/
def recordDays (d0 : Int) (n : Nat) : List Int := (List.range n).map fun i : Nat => d0 + i

theorem dailyS_onDays {V : Type} (d0 : Int) (n : Nat) (f : Nat → V) : dailyS d0 n f = onDays (recordDays d0 n) fun d => f (d - d0).toNat := by
  unfold dailyS onDays recordDays
  rw [List.map_map]
  apply List.map_congr_left
  intro i _
  simp

theorem recordDays_sorted (d0 : Int) (n : Nat) : (recordDays d0 n).Pairwise (· < ·) := by
  unfold recordDays
  rw [List.pairwise_map]
  exact List.pairwise_lt_range.imp fun h => by omega

theorem recordDays_sample (d0 : Int) (n : Nat) (x y z u : Nat → ℝ) :
    Sample (dailyS d0 n fun i => .fin (x i)) (dailyS d0 n fun i => .fin (y i)) (dailyS d0 n fun i => .fin (z i)) (dailyS d0 n fun i => .fin (u i)) (recordDays d0 n)
      (fun d => x (d - d0).toNat) (fun d => y (d - d0).toNat) (fun d => z (d - d0).toNat) fun d => u (d - d0).toNat := by
  simp only [dailyS_onDays]
  have hs := recordDays_sorted d0 n
  refine ⟨?_, hs, fun e he => ⟨onDays_at? _ he, onDays_at? _ he, onDays_at? _ he, onDays_at? _ he⟩, ?_⟩
  · rw [onDays_index, List.pairwise_map]
    exact hs.imp fun h => by unfold at00; omega
  · intro t ht hn
    rw [onDays_index] at ht
    exact absurd ht hn

theorem recordDays_last (d0 : Int) {n : Nat} (hn : 0 < n) : (recordDays d0 n).getLast? = some (d0 + (n - 1 : Nat)) := by
  obtain ⟨m, rfl⟩ : ∃ m, n = m + 1 := ⟨n - 1, by omega⟩
  unfold recordDays
  rw [List.range_succ, List.map_append, List.map_singleton, List.getLast?_append]
  simp

theorem potMeans (d0 : Int) (n : Nat) (q : Nat → Nat → ℝ) :
    Series.resampleD meanSkip (hourlyS d0 n fun i h => XF.fin (q i h)) = dailyS d0 n fun i => .fin ((day24 (q i)).sum / 24) := by
  rw [resampleD_hourlyS]
  congr 1
  funext i
  exact meanSkip_day24 (fun _ _ => rfl)

variable {minimize : (ℝ → ℝ → Py (XF ℝ)) → ℝ × ℝ → Py (XF ℝ × XF ℝ)}

/-- **C174** The Bristow-Campbell parameters are fitted to complete records of `n` days (temperatures `tn`, `tx`, hourly potential radiation `q`, observed daily means `o`), and the same days are disaggregated by
'pot_rad_via_bc' with the result (A, C), where C > 0.  If every day has a positive temperature range and potential radiation that is not 0 all day, and the observations are not negative, the disaggregation
succeeds, no value is missing, and the sum of the daily means of the result lies between the sum of the observations and 0.01 per day less. -/
theorem C174_total (hmin : Minimizes minimize) {api : PandasApi} {daily : Frame ℝ} {d0 : Int} {n : Nat} (hi : daily.index = (List.range n).map fun i : Nat => at00 (d0 + i)) (hn : 0 < n)
    {tn tx o : Nat → ℝ} {q : Nat → Nat → ℝ} (htn : daily.col? "tmin" = some (dailyS d0 n fun i => .fin (tn i))) (htx : daily.col? "tmax" = some (dailyS d0 n fun i => .fin (tx i)))
    (W : WarmDays n tn tx) (hq0 : ∀ i < n, ∀ h < 24, 0 ≤ q i h) (hpos : ∀ i < n, 0 < (day24 (q i)).sum) (ho : ∀ i < n, 0 ≤ o i) {A C : ℝ} (hC : 0 < C)
    (hp : fitBristowCampbell minimize (dailyS d0 n fun i => .fin (tn i)) (dailyS d0 n fun i => .fin (tx i)) (Series.resampleD meanSkip (hourlyS d0 n fun i h => .fin (q i h)))
      (dailyS d0 n fun i => .fin (o i)) = .ok (.fin A, .fin C)) {sun : Option (Series SunTimes)} {angstr : ParPair ℝ} {course : Option (MeanCourse ℝ)} :
    ∃ out, disaggregateRadiation api daily sun (some (hourlyS d0 n fun i h => .fin (q i h))) "pot_rad_via_bc" angstr (.scalar (.fin A) (.fin C)) course = .ok out ∧
      ∃ y : Nat → ℝ, (∀ i < n, MeanIs (dayCells out (d0 + i)) (y i)) ∧
        ((List.range n).map y).sum ≤ ((List.range n).map o).sum ∧ ((List.range n).map o).sum - 0.01 * n ≤ ((List.range n).map y).sum := by
  have hpot := potMeans d0 n q
  rw [hpot] at hp
  have hqm : ∀ i < n, 0 < (day24 (q i)).sum / 24 := fun i h => div_pos (hpos i h) (by norm_num)
  have S := recordDays_sample d0 n tn tx (fun i => (day24 (q i)).sum / 24) o
  have mem : ∀ d ∈ recordDays d0 n, ∃ i < n, d = d0 + (i : Nat) := by
    intro d hd
    obtain ⟨i, hi, rfl⟩ := List.mem_map.1 hd
    exact ⟨i, List.mem_range.1 hi, rfl⟩
  have tn' : ∀ i : Nat, (d0 + (i : Int) - d0).toNat = i := fun i => by omega
  obtain ⟨a, c, e, est, hest, y, hy, _, hsum⟩ := C94_no_bias hmin S (fun d hd => by
    obtain ⟨i, h, rfl⟩ := mem d hd
    rw [tn']
    exact (hqm i h).le) ⟨d0 + (n - 1 : Nat), List.mem_map.2 ⟨n - 1, List.mem_range.2 (by omega), rfl⟩, by rw [tn']; exact hqm _ (by omega), by
      unfold gapRange
      rw [if_pos (recordDays_last d0 hn)]
      dsimp only
      rw [tn']
      exact ⟨_, rfl, (sub_pos.2 W.2).ne'⟩⟩ hp
  cases e
  rw [← dailyS_onDays d0 n fun i => XF.fin (tn i), ← dailyS_onDays d0 n fun i => XF.fin (tx i), ← dailyS_onDays d0 n fun i => XF.fin ((day24 (q i)).sum / 24)] at hest
  have hpar : ∀ i : Nat, i < n → ParAt (.scalar (.fin A) (.fin C)) (monthOf (at00 (d0 + i))) (XF.fin ((fun _ : Int => A) (monthOf (at00 (d0 + i))))) (.fin ((fun _ : Int => C) (monthOf (at00 (d0 + i))))) :=
    fun _ _ => ⟨rfl, rfl⟩
  obtain ⟨est2, hest2, hv, _⟩ := bc_value (m := n) (d1 := d0) (a := fun _ => A) (c := fun _ => C) hn (fun i => .fin (tn i)) (fun i => .fin (tx i)) (fun i => .fin ((day24 (q i)).sum / 24)) le_rfl le_rfl hpar
  rw [hest2] at hest
  have same : ∀ i < n, est2 i = est (d0 + (i : Nat)) := by
    intro i h
    have := Except.ok.inj hest
    have h1 := dailyS_at? d0 est2 h
    rw [this, onDays_at? (ds := recordDays d0 n) (d := d0 + (i : Nat)) est (List.mem_map.2 ⟨i, List.mem_range.2 h, rfl⟩)] at h1
    exact (Option.some.inj h1).symm
  -- the estimates
  have val : ∀ i < n, ∃ u, 0 < u ∧ est2 i = .fin (A * u) := by
    intro i h
    obtain ⟨r, hr, hr0⟩ := W.range h
    obtain ⟨μ, hμ⟩ := bcMean_fin (tmin := fun i => .fin (tn i)) (tmax := fun i => .fin (tx i)) (d0 := d0) (fun i _ => trivial) (fun i _ => trivial) h hr
    refine ⟨bcReal 1 C μ r ((day24 (q i)).sum / 24), ((bcReal_bounds zero_le_one hr0 (hqm i h).le).2.2 one_pos (hqm i h)).1, ?_⟩
    rw [(hv i h r _ μ hr (by rw [tn']) hμ hC).1 hr0]
    congr 1
    unfold bcReal
    ring
  choose! u hu0 hu using val
  have hall : (recordDays d0 n).filter (fun d => !(est d).isNan) = recordDays d0 n := by
    rw [List.filter_eq_self]
    intro d hd
    obtain ⟨i, h, rfl⟩ := mem d hd
    rw [← same i h, hu i h]
    rfl
  rw [hall] at hsum
  have hyu : ∀ i < n, y (d0 + (i : Nat)) = A * u i := by
    intro i h
    have := hy _ (List.mem_map.2 ⟨i, List.mem_range.2 h, rfl⟩)
    rw [← same i h, hu i h] at this
    rcases this with h | h
    · cases h
    · exact (XF.fin.inj h).symm
  have hsum2 : ((List.range n).map fun i => A * u i).sum = ((List.range n).map o).sum := by
    unfold recordDays at hsum
    rw [List.map_map, List.map_map] at hsum
    rw [← List.map_congr_left (f := y ∘ fun i : Nat => d0 + (i : Int)) (fun i hi => hyu i (List.mem_range.1 hi)), hsum]
    congr 1
    apply List.map_congr_left
    intro i _
    simp only [Function.comp_apply, tn']
  have hA : 0 ≤ A := by
    by_contra hneg
    have h1 : 0 ≤ ((List.range n).map o).sum := List.sum_nonneg (by
      intro x hx
      obtain ⟨i, hi, rfl⟩ := List.mem_map.1 hx
      exact ho i (List.mem_range.1 hi))
    rw [← hsum2, List.sum_map_mul_left] at h1
    have h2 : 0 < ((List.range n).map u).sum := by
      apply List.sum_pos
      · intro x hx
        obtain ⟨i, hi, rfl⟩ := List.mem_map.1 hx
        exact hu0 i (List.mem_range.1 hi)
      · simp; omega
    nlinarith [not_le.1 hneg]
  obtain ⟨out, est3, hout, hest3, H⟩ := C59_disaggregate (m := n) (d1 := d0) api hi hn _ _ htn htx sun (fun i h => .fin (q i h)) le_rfl le_rfl angstr (.scalar (.fin A) (.fin C)) course
    (fun _ => A) (fun _ => C) hpar (fun _ => hA) (fun _ => hC) (fun i _ => trivial) (fun i _ => trivial)
  rw [hpot, hest2] at hest3
  have same3 : ∀ i < n, est2 i = est3 i := by
    intro i h
    have h1 := dailyS_at? d0 est2 h
    rw [Except.ok.inj hest3, dailyS_at? d0 est3 h] at h1
    exact (Option.some.inj h1).symm
  have means : ∀ i < n, ∃ z, MeanIs (dayCells out (d0 + (i : Nat))) z ∧ A * u i - 0.01 ≤ z ∧ z ≤ A * u i := by
    intro i h
    obtain ⟨r, hr, hr0⟩ := W.range h
    obtain ⟨g, z, hg, hz, z1, z2, _⟩ := H i h (q i) (fun k _ => by rw [tn']) (hq0 i h) (hpos i h) r hr hr0
    rw [← same3 i h, hu i h] at hg
    cases hg
    exact ⟨z, hz, z1.le, z2⟩
  choose! z hz z1 z2 using means
  refine ⟨out, hout, z, hz, ?_, ?_⟩
  · rw [← hsum2]
    exact List.sum_le_sum fun i hi => z2 i (List.mem_range.1 hi)
  · have : ((List.range n).map fun i => A * u i).sum ≤ ((List.range n).map fun i => z i + 0.01).sum :=
      List.sum_le_sum fun i hi => by have := z1 i (List.mem_range.1 hi); linarith
    rw [hsum2, List.sum_map_add] at this
    simp only [List.map_const', List.sum_replicate, List.length_range, nsmul_eq_mul] at this
    linarith

open Classical in
/-- an optimiser that leaves the exponent at its start value and finds the best factor whenever there is one -/
def keepExponent (f : ℝ → ℝ → Py (XF ℝ)) (p0 : ℝ × ℝ) : Py (XF ℝ × XF ℝ) :=
  if h : ∃ a, ∃ v, f a p0.2 = .ok (.fin v) ∧ ∀ a' c' v', f a' c' = .ok (.fin v') → v ≤ v' then .ok (.fin h.choose, .fin p0.2) else .error .valueError

theorem keepExponent_minimizes : Minimizes keepExponent := by
  intro f p0 p h
  unfold keepExponent at h
  split at h
  · rename_i hex
    cases h
    obtain ⟨v, h1, h2⟩ := hex.choose_spec
    exact ⟨_, _, v, rfl, h1, h2⟩
  · cases h

theorem keepExponent_fits (d0 : Int) {n : Nat} (hn : 0 < n) {tn tx o : Nat → ℝ} {q : Nat → Nat → ℝ} (W : WarmDays n tn tx) (hpos : ∀ i < n, 0 < (day24 (q i)).sum) :
    ∃ A, fitBristowCampbell keepExponent (dailyS d0 n fun i => .fin (tn i)) (dailyS d0 n fun i => .fin (tx i)) (Series.resampleD meanSkip (hourlyS d0 n fun i h => .fin (q i h)))
      (dailyS d0 n fun i => .fin (o i)) = .ok (.fin A, .fin 2.4) := by
  rw [potMeans]
  have S := recordDays_sample d0 n tn tx (fun i => (day24 (q i)).sum / 24) o
  have tn' : ∀ i : Nat, (d0 + (i : Int) - d0).toNat = i := fun i => by omega
  have hqm : ∀ i < n, 0 < (day24 (q i)).sum / 24 := fun i h => div_pos (hpos i h) (by norm_num)
  have hlast := recordDays_last d0 hn
  obtain ⟨a, ha, _⟩ := C94_every_exponent (c := 2.4) S (by
    intro d hd
    obtain ⟨i, hi, rfl⟩ := List.mem_map.1 hd
    rw [tn']
    exact (hqm i (List.mem_range.1 hi)).le) (by
    intro d hd r h
    obtain ⟨i, hi, rfl⟩ := List.mem_map.1 hd
    have hi := List.mem_range.1 hi
    unfold gapRange at h
    rw [hlast] at h
    by_cases e : i = n - 1
    · subst e
      rw [if_pos rfl] at h
      cases h
      dsimp only
      rw [tn']
      exact sub_pos.2 W.2
    · rw [if_neg (by intro h; have := Option.some.inj h; omega)] at h
      split at h
      · cases h
        dsimp only
        rw [tn', show d0 + (i : Int) + 1 - d0 = ((i + 1 : Nat) : Int) by push_cast; ring, Int.toNat_natCast]
        exact sub_pos.2 (W.1 i (by omega))
      · cases h) ⟨d0 + (n - 1 : Nat), List.mem_map.2 ⟨n - 1, List.mem_range.2 (by omega), rfl⟩, by rw [tn']; exact hqm _ (by omega), by
      unfold gapRange
      rw [if_pos hlast]
      simp⟩ (by norm_num)
  unfold fitBristowCampbell keepExponent
  rw [dif_pos]
  · exact ⟨_, rfl⟩
  · refine ⟨a, 0, ha, ?_⟩
    intro a' c' v' h
    rw [sample_rows S, bcAbsBias_eq S.sorted (by intro h; rw [h] at hlast; cases hlast)] at h
    obtain ⟨_, rfl⟩ := bias_fin (Except.ok.inj h)
    exact abs_nonneg _

/-- C174 at work: two days with the temperatures 0-10 and 2-8 degrees and observed radiation of 5 and 6 W/m2: the daily means of the result add up to 11 or up to 0.02 less -/
example : ∃ A, fitBristowCampbell keepExponent (dailyS 0 2 fun i => .fin (if i = 0 then 0 else 2)) (dailyS 0 2 fun i => .fin (if i = 0 then 10 else 8))
      (Series.resampleD meanSkip (hourlyS 0 2 fun _ h => .fin (exPotReal h))) (dailyS 0 2 fun i => .fin (if i = 0 then 5 else 6)) = .ok (.fin A, .fin 2.4) ∧
    ∃ out, disaggregateRadiation .modern exRad none (some (hourlyS 0 2 fun _ h => .fin (exPotReal h))) "pot_rad_via_bc" (.scalar (.fin 0) (.fin 0)) (.scalar (.fin A) (.fin 2.4)) none = .ok out ∧
      ∃ y : Nat → ℝ, (∀ i < 2, MeanIs (dayCells out (0 + (i : Nat))) (y i)) ∧ y 0 + y 1 ≤ 11 ∧ 10.98 ≤ y 0 + y 1 := by
  have W : WarmDays 2 (fun i => if i = 0 then (0 : ℝ) else 2) fun i => if i = 0 then (10 : ℝ) else 8 := by
    refine ⟨fun i h => ?_, by norm_num⟩
    obtain rfl : i = 0 := by omega
    norm_num
  have hpos : ∀ i < 2, 0 < (day24 ((fun _ h => exPotReal h : Nat → Nat → ℝ) i)).sum := by
    intro i _
    norm_num [day24, exPotReal, List.range_succ]
  obtain ⟨A, hA⟩ := keepExponent_fits 0 (n := 2) (by norm_num) (o := fun i => if i = 0 then 5 else 6) W hpos
  refine ⟨A, hA, ?_⟩
  obtain ⟨out, h, y, hy, h1, h2⟩ := C174_total keepExponent_minimizes (api := .modern) (daily := exRad) (d0 := 0) (n := 2) rfl (by norm_num) (by rfl) (by rfl) W
    (fun _ _ h _ => by unfold exPotReal; split_ifs <;> norm_num) hpos (fun i _ => by split_ifs <;> norm_num) (by norm_num) hA (sun := none) (angstr := .scalar (.fin 0) (.fin 0)) (course := none)
  refine ⟨out, h, y, hy, ?_, ?_⟩
  · norm_num [List.range_succ] at h1
    linarith
  · norm_num [List.range_succ] at h2
    norm_num
    linarith

end

end Melodist
