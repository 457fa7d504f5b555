import Verif.Props.RefitAng

/-!
# C180: the Bristow-Campbell fit to the package's own radiation
-/

set_option linter.unusedSectionVars false

namespace Melodist
open Spec

noncomputable section

variable {minimize : (ℝ → ℝ → Py (XF ℝ)) → ℝ × ℝ → Py (XF ℝ × XF ℝ)}

/-- on warm days the Bristow-Campbell estimates are positive and proportional to A -/
theorem bc_unit (d0 : Int) {n : Nat} (hn : 0 < n) {tn tx Q : Nat → ℝ} (W : WarmDays n tn tx) (hQ : ∀ i < n, 0 < Q i) {C : ℝ} (hC : 0 < C) :
    ∃ u : Nat → ℝ, (∀ i < n, 0 < u i) ∧ ∀ A : ℝ, bristowCampbell (dailyS d0 n fun i => .fin (tn i)) (dailyS d0 n fun i => .fin (tx i)) (dailyS d0 n fun i => .fin (Q i)) (.scalar (.fin A) (.fin C)) =
      .ok (dailyS d0 n fun i => .fin (A * u i)) := by
  have tn' : ∀ i : Nat, (d0 + (i : Int) - d0).toNat = i := fun i => by omega
  have data : ∀ i < n, ∃ r μ, bcRange n (fun i => .fin (tn i)) (fun i => .fin (tx i)) i = .fin r ∧ 0 < r ∧
      meanSkip (bcMonthRanges d0 n (fun i => .fin (tn i)) (fun i => .fin (tx i)) i) = .fin μ := by
    intro i h
    obtain ⟨r, hr, hr0⟩ := W.range h
    obtain ⟨μ, hμ⟩ := bcMean_fin (tmin := fun i => .fin (tn i)) (tmax := fun i => .fin (tx i)) (d0 := d0) (fun i _ => trivial) (fun i _ => trivial) h hr
    exact ⟨r, μ, hr, hr0, hμ⟩
  choose! r μ hr hr0 hμ using data
  refine ⟨fun i => bcReal 1 C (μ i) (r i) (Q i), fun i h => ((bcReal_bounds zero_le_one (hr0 i h) (hQ i h).le).2.2 one_pos (hQ i h)).1, ?_⟩
  intro A
  have hpar : ∀ i : Nat, i < n → ParAt (.scalar (.fin A) (.fin C)) (monthOf (at00 (d0 + i))) (XF.fin ((fun _ : Int => A) (monthOf (at00 (d0 + i))))) (.fin ((fun _ : Int => C) (monthOf (at00 (d0 + i))))) :=
    fun _ _ => ⟨rfl, rfl⟩
  obtain ⟨est, hest, hv, _⟩ := bc_value (m := n) (d1 := d0) (a := fun _ => A) (c := fun _ => C) hn (fun i => .fin (tn i)) (fun i => .fin (tx i)) (fun i => .fin (Q i)) le_rfl le_rfl hpar
  rw [hest]
  congr 1
  unfold dailyS
  apply List.map_congr_left
  intro i hi
  have h := List.mem_range.1 hi
  rw [(hv i h _ _ _ (hr i h) (by rw [tn']) (hμ i h) hC).1 (hr0 i h)]
  dsimp only
  congr 2
  unfold bcReal
  ring

/-- 'pot_rad_via_bc' with estimates `e` -/
theorem bc_formula (api : PandasApi) {daily : Frame ℝ} {d0 : Int} {n : Nat} (hi : daily.index = (List.range n).map fun i : Nat => at00 (d0 + i)) (hn : 0 < n)
    {tn tx e : Nat → ℝ} {q : Nat → Nat → ℝ} (htn : daily.col? "tmin" = some (dailyS d0 n fun i => .fin (tn i))) (htx : daily.col? "tmax" = some (dailyS d0 n fun i => .fin (tx i)))
    {par angstr : ParPair ℝ} {sun : Option (Series SunTimes)} {course : Option (MeanCourse ℝ)}
    (he : bristowCampbell (dailyS d0 n fun i => .fin (tn i)) (dailyS d0 n fun i => .fin (tx i)) (dailyS d0 n fun i => .fin ((day24 (q i)).sum / 24)) par = .ok (dailyS d0 n fun i => .fin (e i))) :
    disaggregateRadiation api daily sun (some (hourlyS d0 n fun i h => .fin (q i h))) "pot_rad_via_bc" angstr par course =
      .ok (hourlyS d0 n fun i h => radCell (.fin (q i h)) (.fin ((day24 (q i)).sum / 24)) (.fin (e i))) := by
  unfold disaggregateRadiation
  rw [if_neg (by simp), temp_hourly_index api hi hn, py_ok_bind, if_neg (by decide)]
  dsimp only
  rw [if_neg (by decide), if_neg (by decide), attr_ok htn, py_ok_bind, attr_ok htx, py_ok_bind, potMeans, he, py_ok_bind, radiationCore_eq d0 hn]
  congr 1
  apply hourlyS_congr
  intro i hi' h _
  have hm : meanSkip (day24 fun h => XF.fin (q i h)) = .fin ((day24 (q i)).sum / 24) := meanSkip_day24 fun _ _ => rfl
  rw [lastValue_self hi', hm]

/-- the fitted estimates have the total of the observations -/
theorem bc_fit_total (hmin : Minimizes minimize) {d0 : Int} {n : Nat} (hn : 0 < n) {tn tx Q o u : Nat → ℝ} (W : WarmDays n tn tx) (hQ : ∀ i < n, 0 < Q i) {A C : ℝ}
    (hu : bristowCampbell (dailyS d0 n fun i => .fin (tn i)) (dailyS d0 n fun i => .fin (tx i)) (dailyS d0 n fun i => .fin (Q i)) (.scalar (.fin A) (.fin C)) = .ok (dailyS d0 n fun i => .fin (A * u i)))
    (hp : fitBristowCampbell minimize (dailyS d0 n fun i => .fin (tn i)) (dailyS d0 n fun i => .fin (tx i)) (dailyS d0 n fun i => .fin (Q i)) (dailyS d0 n fun i => .fin (o i)) = .ok (.fin A, .fin C)) :
    ((List.range n).map fun i => A * u i).sum = ((List.range n).map o).sum := by
  have S := recordDays_sample d0 n tn tx Q o
  have mem : ∀ d ∈ recordDays d0 n, ∃ i < n, d = d0 + (i : Nat) := by
    intro d hd
    obtain ⟨i, hi, rfl⟩ := List.mem_map.1 hd
    exact ⟨i, List.mem_range.1 hi, rfl⟩
  have tn' : ∀ i : Nat, (d0 + (i : Int) - d0).toNat = i := fun i => by omega
  obtain ⟨a, c, e, est, hest, y, hy, _, hsum⟩ := C94_no_bias hmin S (fun d hd => by
    obtain ⟨i, h, rfl⟩ := mem d hd
    rw [tn']
    exact (hQ i h).le) ⟨d0 + (n - 1 : Nat), List.mem_map.2 ⟨n - 1, List.mem_range.2 (by omega), rfl⟩, by rw [tn']; exact hQ _ (by omega), by
      unfold gapRange
      rw [if_pos (recordDays_last d0 hn)]
      dsimp only
      rw [tn']
      exact ⟨_, rfl, (sub_pos.2 W.2).ne'⟩⟩ hp
  cases e
  rw [← dailyS_onDays d0 n fun i => XF.fin (tn i), ← dailyS_onDays d0 n fun i => XF.fin (tx i), ← dailyS_onDays d0 n fun i => XF.fin (Q i), hu] at hest
  have same : ∀ i < n, XF.fin (A * u i) = est (d0 + (i : Nat)) := by
    intro i h
    have h1 := dailyS_at? d0 (fun i => XF.fin (A * u i)) h
    rw [Except.ok.inj hest, onDays_at? (ds := recordDays d0 n) (d := d0 + (i : Nat)) est (List.mem_map.2 ⟨i, List.mem_range.2 h, rfl⟩)] at h1
    exact (Option.some.inj h1).symm
  have hall : (recordDays d0 n).filter (fun d => !(est d).isNan) = recordDays d0 n := by
    rw [List.filter_eq_self]
    intro d hd
    obtain ⟨i, h, rfl⟩ := mem d hd
    rw [← same i h]
    rfl
  rw [hall] at hsum
  have hyu : ∀ i < n, y (d0 + (i : Nat)) = A * u i := by
    intro i h
    have := hy _ (List.mem_map.2 ⟨i, List.mem_range.2 h, rfl⟩)
    rw [← same i h] at this
    rcases this with h | h
    · cases h
    · exact (XF.fin.inj h).symm
  unfold recordDays at hsum
  rw [List.map_map, List.map_map] at hsum
  rw [← List.map_congr_left (f := y ∘ fun i : Nat => d0 + (i : Int)) (fun i hi => hyu i (List.mem_range.1 hi)), hsum]
  congr 1
  apply List.map_congr_left
  intro i _
  simp only [Function.comp_apply, tn']

/-- **C180** Radiation is disaggregated by 'pot_rad_via_bc' with A ≥ 0, C > 0 for `n` days with positive temperature ranges and hourly potential radiation `q` (not 0 all day).  The call succeeds with hourly
values `v`.  Let fit_bristow_campbell_params on the same temperatures and potential radiation and the daily means of `v` return (A', C') with C' > 0.  Then the estimates with (A', C') have the same total as the
daily means of `v`; and if no hour with potential radiation was cut to 0 and the optimiser leaves the exponent at C' = C, then A' = A. -/
theorem C180_recovers (hmin : Minimizes minimize) {api : PandasApi} {daily : Frame ℝ} {d0 : Int} {n : Nat} (hi : daily.index = (List.range n).map fun i : Nat => at00 (d0 + i)) (hn : 0 < n)
    {tn tx : Nat → ℝ} {q : Nat → Nat → ℝ} (htn : daily.col? "tmin" = some (dailyS d0 n fun i => .fin (tn i))) (htx : daily.col? "tmax" = some (dailyS d0 n fun i => .fin (tx i)))
    (W : WarmDays n tn tx) (hq0 : ∀ i < n, ∀ h < 24, 0 ≤ q i h) (hpos : ∀ i < n, 0 < (day24 (q i)).sum) {A C : ℝ} (hA : 0 ≤ A) (hC : 0 < C)
    {sun : Option (Series SunTimes)} {angstr : ParPair ℝ} {course : Option (MeanCourse ℝ)} :
    ∃ v : Nat → Nat → ℝ, disaggregateRadiation api daily sun (some (hourlyS d0 n fun i h => .fin (q i h))) "pot_rad_via_bc" angstr (.scalar (.fin A) (.fin C)) course =
        .ok (hourlyS d0 n fun i h => .fin (v i h)) ∧
      ∀ A' C', 0 < C' → fitBristowCampbell minimize (dailyS d0 n fun i => .fin (tn i)) (dailyS d0 n fun i => .fin (tx i)) (Series.resampleD meanSkip (hourlyS d0 n fun i h => .fin (q i h)))
          (Series.resampleD meanSkip (hourlyS d0 n fun i h => .fin (v i h))) = .ok (.fin A', .fin C') →
        (∃ e : Nat → ℝ, bristowCampbell (dailyS d0 n fun i => .fin (tn i)) (dailyS d0 n fun i => .fin (tx i)) (Series.resampleD meanSkip (hourlyS d0 n fun i h => .fin (q i h)))
            (.scalar (.fin A') (.fin C')) = .ok (dailyS d0 n fun i => .fin (e i)) ∧ ((List.range n).map e).sum = ((List.range n).map fun i => (day24 (v i)).sum / 24).sum) ∧
        ((∀ i < n, ∀ h < 24, q i h ≠ 0 → v i h ≠ 0) → C' = C → A' = A) := by
  have hQ : ∀ i < n, 0 < (day24 (q i)).sum / 24 := fun i h => div_pos (hpos i h) (by norm_num)
  obtain ⟨u, hu0, hu⟩ := bc_unit d0 hn W hQ hC
  let v : Nat → Nat → ℝ := fun i h => if q i h / ((day24 (q i)).sum / 24) * (A * u i) < 0.01 then 0 else q i h / ((day24 (q i)).sum / 24) * (A * u i)
  have hv : (hourlyS d0 n fun i h => radCell (.fin (q i h)) (.fin ((day24 (q i)).sum / 24)) (.fin (A * u i))) = hourlyS d0 n fun i h => .fin (v i h) := by
    apply hourlyS_congr
    intro i hi' h _
    exact radCell_fin (hQ i hi')
  refine ⟨v, by rw [bc_formula api hi hn htn htx (hu A), hv], ?_⟩
  intro A' C' hC' hp
  obtain ⟨u', hu0', hu'⟩ := bc_unit d0 hn W hQ hC'
  rw [potMeans, potMeans] at hp
  have htot := bc_fit_total hmin hn W hQ (hu' A') hp
  refine ⟨⟨_, by rw [potMeans]; exact hu' A', htot⟩, ?_⟩
  intro hcut e
  subst e
  have h1 := bc_fit_total hmin hn W hQ (hu A') hp
  have hmean : ∀ i < n, (day24 (v i)).sum / 24 = A * u i := by
    intro i h
    have e : day24 (v i) = day24 fun k => (A * u i / ((day24 (q i)).sum / 24)) * q i k := by
      apply day24_congr
      intro k hk
      have hne := hcut i h k hk
      by_cases e0 : q i k = 0
      · simp [v, e0]
      · have := hne e0
        simp only [v] at this ⊢
        split_ifs at this ⊢ with hlt
        · exact absurd rfl this
        · ring
    rw [e, sum_day24_mul]
    have := (hpos i h).ne'
    field_simp
  rw [List.map_congr_left (g := fun i => A * u i) fun i hi => hmean i (List.mem_range.1 hi), List.sum_map_mul_left, List.sum_map_mul_left] at h1
  have h2 : 0 < ((List.range n).map u).sum := by
    apply List.sum_pos
    · intro x hx
      obtain ⟨i, hi, rfl⟩ := List.mem_map.1 hx
      exact hu0 i (List.mem_range.1 hi)
    · simp; omega
  exact mul_right_cancel₀ h2.ne' h1

theorem hourlyS_values_eq {V : Type} {d0 : Int} {n : Nat} {f g : Nat → Nat → V} (h : hourlyS d0 n f = hourlyS d0 n g) {i k : Nat} (hi : i < n) (hk : k < 24) : f i k = g i k := by
  have := congrArg (fun s => dayCells s (d0 + (i : Nat))) h
  rw [dayCells_hourlyS d0 f hi, dayCells_hourlyS d0 g hi] at this
  exact List.map_inj_left.1 this k (List.mem_range.2 hk)

/-- Two days with the temperatures 0-10 and 2-8 degrees: there is an A so that no hour of the radiation for (A, 2.4) is cut; it is fitted by an optimiser that keeps the exponent at its start value 2.4, and A comes
back. -/
example : ∃ (A : ℝ) (v : Nat → Nat → ℝ), 0 < A ∧
    disaggregateRadiation .modern exRad none (some (hourlyS 0 2 fun _ h => .fin (exPotReal h))) "pot_rad_via_bc" (.scalar (.fin 0) (.fin 0)) (.scalar (.fin A) (.fin 2.4)) none =
      .ok (hourlyS 0 2 fun i h => .fin (v i h)) ∧
    fitBristowCampbell keepExponent (dailyS 0 2 fun i => .fin (if i = 0 then 0 else 2)) (dailyS 0 2 fun i => .fin (if i = 0 then 10 else 8)) (Series.resampleD meanSkip (hourlyS 0 2 fun _ h => .fin (exPotReal h)))
      (Series.resampleD meanSkip (hourlyS 0 2 fun i h => .fin (v i h))) = .ok (.fin A, .fin 2.4) := by
  have W : WarmDays 2 (fun i => if i = 0 then (0 : ℝ) else 2) fun i => if i = 0 then (10 : ℝ) else 8 := by
    refine ⟨fun i h => ?_, by norm_num⟩
    obtain rfl : i = 0 := by omega
    norm_num
  have hsum : (day24 exPotReal).sum = 240 := by norm_num [day24, exPotReal, List.range_succ]
  have hpos : ∀ i < 2, 0 < (day24 ((fun _ h => exPotReal h : Nat → Nat → ℝ) i)).sum := by
    intro i _
    dsimp only
    rw [hsum]
    norm_num
  obtain ⟨u, hu0, hu⟩ := bc_unit 0 (n := 2) (by norm_num) W (Q := fun _ => (day24 exPotReal).sum / 24) (fun i h => div_pos (hpos i h) (by norm_num)) (C := 2.4) (by norm_num)
  have u0 := hu0 0 (by norm_num)
  have u1 := hu0 1 (by norm_num)
  have hA : 0 < 1 / u 0 + 1 / u 1 := by positivity
  obtain ⟨v, hv, H⟩ := C180_recovers keepExponent_minimizes (api := .modern) (daily := exRad) (d0 := 0) (n := 2) rfl (by norm_num) (q := fun _ h => exPotReal h) (by rfl) (by rfl) W
    (fun _ _ h _ => by unfold exPotReal; split_ifs <;> norm_num) hpos (A := 1 / u 0 + 1 / u 1) (C := 2.4) hA.le (by norm_num) (sun := none) (angstr := .scalar (.fin 0) (.fin 0)) (course := none)
  obtain ⟨A', hA'⟩ := keepExponent_fits 0 (n := 2) (by norm_num) (o := fun i => (day24 (v i)).sum / 24) W hpos
  rw [← potMeans 0 2 v] at hA'
  have hcut : ∀ i < 2, ∀ h < 24, exPotReal h ≠ 0 → v i h ≠ 0 := by
    intro i hi h hh hne e
    have f := bc_formula .modern (daily := exRad) (d0 := 0) (n := 2) rfl (by norm_num) (q := fun _ h => exPotReal h) (by rfl) (by rfl) (angstr := .scalar (.fin 0) (.fin 0)) (sun := none) (course := none)
      (hu (1 / u 0 + 1 / u 1))
    rw [hv] at f
    have := hourlyS_values_eq (Except.ok.inj f) hi hh
    rw [e, hsum, radCell_fin (by norm_num)] at this
    have := XF.fin.inj this
    have hu1 : 1 ≤ (1 / u 0 + 1 / u 1) * u i := by
      have : i = 0 ∨ i = 1 := by omega
      rcases this with rfl | rfl
      · rw [add_mul, one_div_mul_cancel u0.ne']
        have : 0 < 1 / u 1 * u 0 := by positivity
        linarith
      · rw [add_mul, one_div_mul_cancel u1.ne']
        have : 0 < 1 / u 0 * u 1 := by positivity
        linarith
    have hq : 1 ≤ exPotReal h := by
      unfold exPotReal at hne ⊢
      split_ifs at hne ⊢ <;> first | exact absurd rfl hne | norm_num
    have h3 : (0.1 : ℝ) ≤ exPotReal h / (240 / 24) * ((1 / u 0 + 1 / u 1) * u i) := by
      have : (0.1 : ℝ) ≤ exPotReal h / (240 / 24) := by norm_num; linarith
      have := mul_le_mul this hu1 zero_le_one (le_trans (by norm_num) this)
      linarith
    rw [if_neg (not_lt.2 (le_trans (by norm_num) h3))] at this
    rw [← this] at h3
    norm_num at h3
  have e := (H A' 2.4 (by norm_num) hA').2 hcut rfl
  rw [e] at hA'
  exact ⟨_, v, hA, hv, hA'⟩

end

end Melodist
