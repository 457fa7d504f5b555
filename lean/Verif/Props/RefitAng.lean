import Verif.Props.AngTotal

/-!
# C177: the Angstroem fit to the package's own radiation gives its parameters back
-/

set_option linter.unusedSectionVars false

namespace Melodist
open Spec

noncomputable section

variable {curveFit : (ℝ → ℝ → List (XF ℝ)) → List (XF ℝ) → ℝ × ℝ → Py (XF ℝ × XF ℝ)}

/-- 'pot_rad_via_ssd' with one pair of parameters and positive day lengths as a formula -/
theorem ssd_formula (api : PandasApi) {daily : Frame ℝ} {d0 : Int} {n : Nat} (hi : daily.index = (List.range n).map fun i : Nat => at00 (d0 + i)) (hn : 0 < n)
    {s l : Nat → ℝ} {q : Nat → Nat → ℝ} (hs : daily.col? "ssd" = some (dailyS d0 n fun i => .fin (s i))) {st : Nat → SunTimes} (hst : ∀ i < n, (st i).daylength = .fin (l i))
    (hl : ∀ i < n, 0 < l i) (a b : ℝ) (bc : ParPair ℝ) (course : Option (MeanCourse ℝ)) :
    disaggregateRadiation api daily (some (dailyS d0 n st)) (some (hourlyS d0 n fun i h => .fin (q i h))) "pot_rad_via_ssd" (.scalar (.fin a) (.fin b)) bc course =
      .ok (hourlyS d0 n fun i h => radCell (.fin (q i h)) (.fin ((day24 (q i)).sum / 24)) (.fin ((a + b * s i / l i) * ((day24 (q i)).sum / 24)))) := by
  unfold disaggregateRadiation
  rw [if_neg (by simp), temp_hourly_index api hi hn, py_ok_bind, if_neg (by decide)]
  dsimp only
  rw [if_neg (by decide), if_pos rfl, resampleD_hourlyS,
    ssdDaily_eq hi hs st _ le_rfl le_rfl (par := .scalar (.fin a) (.fin b)) (a := fun _ => .fin a) (b := fun _ => .fin b) (fun _ _ => ⟨rfl, rfl⟩), py_ok_bind, radiationCore_eq d0 hn]
  congr 1
  apply hourlyS_congr
  intro i hi' h _
  have hm : meanSkip (day24 fun h => XF.fin (q i h)) = .fin ((day24 (q i)).sum / 24) := meanSkip_day24 fun _ _ => rfl
  rw [lastValue_self hi', show (d0 + (i : Int) - d0).toNat = i by omega, hm, hst i hi', if_pos (by simpa using hl i hi'), XF.fin_mul_fin, XF.fin_div_fin_of_ne _ (hl i hi').ne', XF.fin_add_fin,
    XF.fin_mul_fin]

/-- if no hour is cut, the daily means are the estimates -/
theorem ssd_daily_means (d0 : Int) (n : Nat) {e : Nat → ℝ} {q : Nat → Nat → ℝ} (hq0 : ∀ i < n, ∀ h < 24, 0 ≤ q i h) (hpos : ∀ i < n, 0 < (day24 (q i)).sum) (hest : ∀ i < n, 0 ≤ e i)
    (hcut : ∀ i < n, ∀ h < 24, q i h = 0 ∨ 0.01 ≤ q i h * e i) :
    Series.resampleD meanSkip (hourlyS d0 n fun i h => radCell (.fin (q i h)) (.fin ((day24 (q i)).sum / 24)) (.fin (e i * ((day24 (q i)).sum / 24)))) =
      dailyS d0 n fun i => .fin (e i * ((day24 (q i)).sum / 24)) := by
  rw [resampleD_hourlyS]
  unfold dailyS
  apply List.map_congr_left
  intro i hi'
  have hi' := List.mem_range.1 hi'
  have hμ : 0 < (day24 (q i)).sum / 24 := div_pos (hpos i hi') (by norm_num)
  dsimp only
  obtain ⟨ys, hys, hne, hsum⟩ := (rad_day_mean (hq0 i hi') (hpos i hi') (mul_nonneg (hest i hi') hμ.le)).2 (by
    intro h hh
    refine (hcut i hi' h hh).imp id fun hc => hc.trans (le_of_eq ?_)
    rw [div_mul_eq_mul_div, ← mul_assoc, mul_div_assoc (q i h * _), div_self hμ.ne', mul_one])
  rw [hys, meanSkip_eq (by intro c hc; obtain ⟨y, _, rfl⟩ := List.mem_map.1 hc; exact trivial) (by rw [numbers_map_fin]; exact hne), numbers_map_fin, hsum]

/-- **C177** Radiation is disaggregated by 'pot_rad_via_ssd' with parameters a, b for `n` days with sunshine durations `s`, day lengths `l` > 0 and hourly potential radiation `q` (not 0 all day).  If every hour
with potential radiation gets at least 0.01, and two days differ in s / l, then fit_angstroem_params on the same sunshine durations, day lengths and potential radiation and the daily means of the result returns
exactly (a, b), if it returns, whatever least-squares optimiser is used. -/
theorem C177_recovers (hfit : LeastSquares curveFit) {api : PandasApi} {daily : Frame ℝ} {d0 : Int} {n : Nat} (hi : daily.index = (List.range n).map fun i : Nat => at00 (d0 + i))
    {s l : Nat → ℝ} {q : Nat → Nat → ℝ} (hs : daily.col? "ssd" = some (dailyS d0 n fun i => .fin (s i))) {st : Nat → SunTimes} (hst : ∀ i < n, (st i).daylength = .fin (l i))
    (hl : ∀ i < n, 0 < l i) (hq0 : ∀ i < n, ∀ h < 24, 0 ≤ q i h) (hpos : ∀ i < n, 0 < (day24 (q i)).sum) {a b : ℝ} (hest : ∀ i < n, 0 ≤ a + b * s i / l i)
    (hcut : ∀ i < n, ∀ h < 24, q i h = 0 ∨ 0.01 ≤ q i h * (a + b * s i / l i)) (hvar : ∃ i < n, ∃ j < n, s i / l i ≠ s j / l j) {bc : ParPair ℝ} {course : Option (MeanCourse ℝ)} :
    ∃ out, disaggregateRadiation api daily (some (dailyS d0 n st)) (some (hourlyS d0 n fun i h => .fin (q i h))) "pot_rad_via_ssd" (.scalar (.fin a) (.fin b)) bc course = .ok out ∧
      ∀ p, fitAngstroem curveFit (dailyS d0 n fun i => .fin (s i)) (dailyS d0 n fun i => .fin (l i)) (Series.resampleD meanSkip (hourlyS d0 n fun i h => .fin (q i h)))
        (Series.resampleD meanSkip out) = .ok p → p = (.fin a, .fin b) := by
  have hn : 0 < n := by obtain ⟨i, hi, _⟩ := hvar; omega
  refine ⟨_, ssd_formula api hi hn hs hst hl a b bc course, ?_⟩
  intro p hp
  have hobs := ssd_daily_means d0 n hq0 hpos hest hcut
  rw [potMeans, hobs] at hp
  have tn' : ∀ i : Nat, (d0 + (i : Int) - d0).toNat = i := fun i => by omega
  obtain ⟨i, hi', j, hj, hne⟩ := hvar
  exact C93_recovers hfit (recordDays_sample d0 n s l (fun i => (day24 (q i)).sum / 24) fun i => (a + b * s i / l i) * ((day24 (q i)).sum / 24)) (by
      intro d hd
      obtain ⟨i, hi, rfl⟩ := List.mem_map.1 hd
      rw [tn']
      exact (hl i (List.mem_range.1 hi)).ne') hp (d := d0 + (i : Nat)) (d' := d0 + (j : Nat)) (List.mem_map.2 ⟨i, List.mem_range.2 hi', rfl⟩) (List.mem_map.2 ⟨j, List.mem_range.2 hj, rfl⟩)
    (by rw [tn']; exact (div_pos (hpos i hi') (by norm_num)).ne') (by rw [tn']; exact (div_pos (hpos j hj) (by norm_num)).ne') (by rw [tn', tn']; exact hne) (fun _ _ => rfl)

/-- C177 (cut).  The condition on the cut is needed: if all hours are below 0.01, the result is 0 and the fit returns (0, 0). -/
theorem C177_cut (hfit : LeastSquares curveFit) {api : PandasApi} {daily : Frame ℝ} {d0 : Int} {n : Nat} (hi : daily.index = (List.range n).map fun i : Nat => at00 (d0 + i))
    {s l : Nat → ℝ} {q : Nat → Nat → ℝ} (hs : daily.col? "ssd" = some (dailyS d0 n fun i => .fin (s i))) {st : Nat → SunTimes} (hst : ∀ i < n, (st i).daylength = .fin (l i))
    (hl : ∀ i < n, 0 < l i) (hpos : ∀ i < n, 0 < (day24 (q i)).sum) {a b : ℝ} (hcut : ∀ i < n, ∀ h < 24, q i h * (a + b * s i / l i) < 0.01)
    (hvar : ∃ i < n, ∃ j < n, s i / l i ≠ s j / l j) {bc : ParPair ℝ} {course : Option (MeanCourse ℝ)} :
    ∃ out, disaggregateRadiation api daily (some (dailyS d0 n st)) (some (hourlyS d0 n fun i h => .fin (q i h))) "pot_rad_via_ssd" (.scalar (.fin a) (.fin b)) bc course = .ok out ∧
      ∀ p, fitAngstroem curveFit (dailyS d0 n fun i => .fin (s i)) (dailyS d0 n fun i => .fin (l i)) (Series.resampleD meanSkip (hourlyS d0 n fun i h => .fin (q i h)))
        (Series.resampleD meanSkip out) = .ok p → p = (.fin 0, .fin 0) := by
  have hn : 0 < n := by obtain ⟨i, hi, _⟩ := hvar; omega
  refine ⟨_, ssd_formula api hi hn hs hst hl a b bc course, ?_⟩
  intro p hp
  have hobs : Series.resampleD meanSkip (hourlyS d0 n fun i h => radCell (.fin (q i h)) (.fin ((day24 (q i)).sum / 24)) (.fin ((a + b * s i / l i) * ((day24 (q i)).sum / 24)))) =
      dailyS d0 n fun _ => .fin 0 := by
    rw [resampleD_hourlyS]
    unfold dailyS
    apply List.map_congr_left
    intro i hi'
    have hi' := List.mem_range.1 hi'
    have hμ : 0 < (day24 (q i)).sum / 24 := div_pos (hpos i hi') (by norm_num)
    have e : (day24 fun h => radCell (.fin (q i h)) (.fin ((day24 (q i)).sum / 24)) (.fin ((a + b * s i / l i) * ((day24 (q i)).sum / 24)))) = day24 fun _ => XF.fin (0 : ℝ) := by
      apply day24_congr
      intro h hh
      rw [radCell_fin hμ, div_mul_eq_mul_div, ← mul_assoc, mul_div_assoc (q i h * _), div_self hμ.ne', mul_one, if_pos (hcut i hi' h hh)]
    dsimp only
    rw [e, meanSkip_day24_const]
  rw [potMeans, hobs] at hp
  have tn' : ∀ i : Nat, (d0 + (i : Int) - d0).toNat = i := fun i => by omega
  obtain ⟨i, hi', j, hj, hne⟩ := hvar
  exact C93_recovers hfit (recordDays_sample d0 n s l (fun i => (day24 (q i)).sum / 24) fun _ => 0) (by
      intro d hd
      obtain ⟨i, hi, rfl⟩ := List.mem_map.1 hd
      rw [tn']
      exact (hl i (List.mem_range.1 hi)).ne') hp (d := d0 + (i : Nat)) (d' := d0 + (j : Nat)) (List.mem_map.2 ⟨i, List.mem_range.2 hi', rfl⟩) (List.mem_map.2 ⟨j, List.mem_range.2 hj, rfl⟩)
    (by rw [tn']; exact (div_pos (hpos i hi') (by norm_num)).ne') (by rw [tn']; exact (div_pos (hpos j hj) (by norm_num)).ne') (by rw [tn', tn']; exact hne) (fun _ _ => by ring)

/-- Two days with 6 and 12 of 12 hours of sunshine and potential radiation of 240 and 480 at noon: the radiation for a = 1/4, b = 1/2 is fitted, and the parameters come back. -/
example : ∃ out, disaggregateRadiation .modern exRad (some (dailyS 0 2 fun _ => ⟨.fin 6, .fin 12, .fin 18, .fin 12⟩)) (some (hourlyS 0 2 fun i h => .fin (noonPot i h))) "pot_rad_via_ssd"
      (.scalar (.fin (1 / 4)) (.fin (1 / 2))) (.scalar (.fin 0) (.fin 0)) none = .ok out ∧
    fitAngstroem bestFit (dailyS 0 2 fun i => .fin (if i = 0 then 6 else 12)) (dailyS 0 2 fun _ => .fin 12) (Series.resampleD meanSkip (hourlyS 0 2 fun i h => .fin (noonPot i h)))
      (Series.resampleD meanSkip out) = .ok (.fin (1 / 4), .fin (1 / 2)) := by
  have h0 : ∀ i < 2, ∀ h < 24, 0 ≤ noonPot i h := fun i _ h _ => by unfold noonPot; split_ifs <;> positivity
  have hp : ∀ i < 2, 0 < (day24 (noonPot i)).sum := fun i _ => by
    have := noonPot_mean i
    have h2 : (0 : ℝ) ≤ i := Nat.cast_nonneg i
    linarith
  have he : ∀ i < 2, (0 : ℝ) ≤ 1 / 4 + 1 / 2 * (if i = 0 then 6 else 12) / 12 := fun i _ => by split_ifs <;> norm_num
  have hc : ∀ i < 2, ∀ h < 24, noonPot i h = 0 ∨ 0.01 ≤ noonPot i h * (1 / 4 + 1 / 2 * (if i = 0 then 6 else 12) / 12) := fun i _ h _ => by
    unfold noonPot
    have h2 : (0 : ℝ) ≤ i := Nat.cast_nonneg i
    split_ifs
    · right; norm_num; linarith
    · right; norm_num; linarith
    · left; rfl
    · left; rfl
  have f := ssd_formula .modern (daily := exRad) (d0 := 0) (n := 2) rfl (by norm_num) (s := fun i => if i = 0 then 6 else 12) (l := fun _ => 12) (q := noonPot) (by rfl)
    (st := fun _ => ⟨.fin 6, .fin 12, .fin 18, .fin 12⟩) (fun _ _ => rfl) (fun _ _ => by norm_num) (1 / 4) (1 / 2) (.scalar (.fin 0) (.fin 0)) none
  obtain ⟨out, h, H⟩ := C177_recovers bestFit_leastSquares (api := .modern) (daily := exRad) (d0 := 0) (n := 2) rfl (s := fun i => if i = 0 then 6 else 12) (l := fun _ => 12) (q := noonPot) (by rfl)
    (st := fun _ => ⟨.fin 6, .fin 12, .fin 18, .fin 12⟩) (fun _ _ => rfl) (fun _ _ => by norm_num) h0 hp he hc ⟨0, by norm_num, 1, by norm_num, by norm_num⟩ (bc := .scalar (.fin 0) (.fin 0)) (course := none)
  refine ⟨out, h, ?_⟩
  obtain ⟨p, hp'⟩ := bestFit_exact 0 2 (s := fun i => if i = 0 then 6 else 12) (l := fun _ => 12) (Q := fun i => (day24 (noonPot i)).sum / 24) (fun _ _ => by norm_num) (1 / 4) (1 / 2)
  rw [← ssd_daily_means 0 2 h0 hp he hc, ← potMeans] at hp'
  rw [f] at h
  cases h
  rw [hp', H p hp']

/-- The conditions of C177 (cut) can be met: 0.001 times 1 is below 0.01. -/
example : ∃ out, disaggregateRadiation .modern exRad (some (dailyS 0 2 fun _ => ⟨.fin 6, .fin 12, .fin 18, .fin 12⟩)) (some (hourlyS 0 2 fun _ _ => .fin 1)) "pot_rad_via_ssd"
      (.scalar (.fin 0.001) (.fin 0)) (.scalar (.fin 0) (.fin 0)) none = .ok out ∧
    ∀ p, fitAngstroem bestFit (dailyS 0 2 fun i => .fin (if i = 0 then 6 else 12)) (dailyS 0 2 fun _ => .fin 12) (Series.resampleD meanSkip (hourlyS 0 2 fun _ _ => .fin 1))
      (Series.resampleD meanSkip out) = .ok p → p = (.fin 0, .fin 0) :=
  C177_cut bestFit_leastSquares (daily := exRad) (d0 := 0) (n := 2) rfl (s := fun i => if i = 0 then 6 else 12) (l := fun _ => 12) (q := fun _ _ => 1) (by rfl) (fun _ _ => rfl) (fun _ _ => by norm_num)
    (fun _ _ => by norm_num [day24, List.range_succ]) (fun _ _ _ _ => by norm_num) ⟨0, by norm_num, 1, by norm_num, by norm_num⟩

end

end Melodist
