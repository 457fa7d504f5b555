import Verif.Props.BcTotal

/-!
# C175: radiation disaggregated with calibrated Angstroem parameters keeps two weighted totals of the observations
-/

set_option linter.unusedSectionVars false

namespace Melodist
open Spec

noncomputable section

variable {curveFit : (ℝ → ℝ → List (XF ℝ)) → List (XF ℝ) → ℝ × ℝ → Py (XF ℝ × XF ℝ)}

/-- sums of products with weights that are not negative, of numbers that lie at most 0.01 below others -/
theorem weighted_close {n : Nat} {w y e o : Nat → ℝ} (hw : ∀ i < n, 0 ≤ w i) (h1 : ∀ i < n, e i - 0.01 ≤ y i) (h2 : ∀ i < n, y i ≤ e i)
    (h : ((List.range n).map fun i => w i * (e i - o i)).sum = 0) :
    ((List.range n).map fun i => w i * y i).sum ≤ ((List.range n).map fun i => w i * o i).sum ∧
    ((List.range n).map fun i => w i * o i).sum - 0.01 * ((List.range n).map w).sum ≤ ((List.range n).map fun i => w i * y i).sum := by
  have he : ((List.range n).map fun i => w i * e i).sum = ((List.range n).map fun i => w i * o i).sum := by
    have : ((List.range n).map fun i => w i * e i).sum = ((List.range n).map fun i => w i * (e i - o i) + w i * o i).sum := by
      congr 1
      apply List.map_congr_left
      intro i _
      ring
    rw [this, List.sum_map_add, h, zero_add]
  constructor
  · rw [← he]
    exact List.sum_le_sum fun i hi => mul_le_mul_of_nonneg_left (h2 i (List.mem_range.1 hi)) (hw i (List.mem_range.1 hi))
  · rw [← he]
    have : ((List.range n).map fun i => w i * e i).sum ≤ ((List.range n).map fun i => w i * y i + 0.01 * w i).sum :=
      List.sum_le_sum fun i hi => by
        have := mul_le_mul_of_nonneg_left (h1 i (List.mem_range.1 hi)) (hw i (List.mem_range.1 hi))
        linarith
    rw [List.sum_map_add, List.sum_map_mul_left (f := w)] at this
    linarith

/-- **C175** The Angstroem parameters are fitted to complete records of `n` days (sunshine durations `s`, day lengths `l`, hourly potential radiation `q` with the daily means `Q`, observed daily means `o`), and the
same days are disaggregated by 'pot_rad_via_ssd' with the result (a, b).  If the days have positive lengths, potential radiation that is not 0 all day, and estimates that are not negative, the disaggregation
succeeds, no value is missing, and for the daily means `y` of the result Σ Q y lies between Σ Q o and 0.01 Σ Q less, and Σ (s/l) Q y between Σ (s/l) Q o and 0.01 Σ (s/l) Q less. -/
theorem C175_weighted_totals (hfit : LeastSquares curveFit) {api : PandasApi} {daily : Frame ℝ} {d0 : Int} {n : Nat} (hi : daily.index = (List.range n).map fun i : Nat => at00 (d0 + i)) (hn : 0 < n)
    {s l o Q : Nat → ℝ} {q : Nat → Nat → ℝ} (hs : daily.col? "ssd" = some (dailyS d0 n fun i => .fin (s i))) {st : Nat → SunTimes} (hst : ∀ i < n, (st i).daylength = .fin (l i))
    (hl : ∀ i < n, 0 < l i) (hs0 : ∀ i < n, 0 ≤ s i) (hq0 : ∀ i < n, ∀ h < 24, 0 ≤ q i h) (hQ : ∀ i < n, Q i = (day24 (q i)).sum / 24) (hpos : ∀ i < n, 0 < Q i) {a b : ℝ}
    (hp : fitAngstroem curveFit (dailyS d0 n fun i => .fin (s i)) (dailyS d0 n fun i => .fin (l i)) (Series.resampleD meanSkip (hourlyS d0 n fun i h => .fin (q i h)))
      (dailyS d0 n fun i => .fin (o i)) = .ok (.fin a, .fin b)) (hest : ∀ i < n, 0 ≤ a + b * s i / l i) {bc : ParPair ℝ} {course : Option (MeanCourse ℝ)} :
    ∃ out, disaggregateRadiation api daily (some (dailyS d0 n st)) (some (hourlyS d0 n fun i h => .fin (q i h))) "pot_rad_via_ssd" (.scalar (.fin a) (.fin b)) bc course = .ok out ∧
      ∃ y : Nat → ℝ, (∀ i < n, MeanIs (dayCells out (d0 + i)) (y i)) ∧
        (((List.range n).map fun i => Q i * y i).sum ≤ ((List.range n).map fun i => Q i * o i).sum ∧
          ((List.range n).map fun i => Q i * o i).sum - 0.01 * ((List.range n).map Q).sum ≤ ((List.range n).map fun i => Q i * y i).sum) ∧
        ((List.range n).map fun i => s i / l i * Q i * y i).sum ≤ ((List.range n).map fun i => s i / l i * Q i * o i).sum ∧
          ((List.range n).map fun i => s i / l i * Q i * o i).sum - 0.01 * ((List.range n).map fun i => s i / l i * Q i).sum ≤ ((List.range n).map fun i => s i / l i * Q i * y i).sum := by
  have hpot : Series.resampleD meanSkip (hourlyS d0 n fun i h => XF.fin (q i h)) = dailyS d0 n fun i => .fin (Q i) := by
    rw [potMeans]
    unfold dailyS
    apply List.map_congr_left
    intro i hi
    dsimp only
    rw [hQ i (List.mem_range.1 hi)]
  rw [hpot] at hp
  have S := recordDays_sample d0 n s l Q o
  have tn' : ∀ i : Nat, (d0 + (i : Int) - d0).toNat = i := fun i => by omega
  obtain ⟨a1, b1, e1, _, n1, n2⟩ := C93_least_squares hfit S (by
    intro d hd
    obtain ⟨i, hi, rfl⟩ := List.mem_map.1 hd
    rw [tn']
    exact (hl i (List.mem_range.1 hi)).ne') hp
  cases e1
  unfold recordDays at n1 n2
  rw [List.map_map] at n1 n2
  simp only [Function.comp_def, angEst, tn'] at n1 n2
  obtain ⟨out, hout, H⟩ := C58_disaggregate (m := n) (d1 := d0) api hi hn _ hs st (fun i h => .fin (q i h)) le_rfl le_rfl (.scalar (.fin a) (.fin b)) bc course (fun _ => a) (fun _ => b)
    (fun _ _ => ⟨rfl, rfl⟩)
  have means : ∀ i < n, ∃ y, MeanIs (dayCells out (d0 + (i : Nat))) y ∧ (a + b * s i / l i) * Q i - 0.01 ≤ y ∧ y ≤ (a + b * s i / l i) * Q i := by
    intro i h
    have hpos' : 0 < (day24 (q i)).sum := by
      have := hpos i h
      rw [hQ i h] at this
      linarith
    obtain ⟨y, hy, y1, y2⟩ := (H i h (q i) (fun k _ => by rw [tn']) (hq0 i h) hpos').1 (l i) (s i) ((a + b * s i / l i) * Q i) (hst i h) (hl i h) rfl (by rw [hQ i h])
      (mul_nonneg (hest i h) (hpos i h).le)
    exact ⟨y, hy, y1.le, y2⟩
  choose! y hy y1 y2 using means
  refine ⟨out, hout, y, hy, weighted_close (fun i h => (hpos i h).le) y1 y2 n1, ?_⟩
  exact weighted_close (w := fun i => s i / l i * Q i) (fun i h => mul_nonneg (div_nonneg (hs0 i h) (hl i h).le) (hpos i h).le) y1 y2 n2

/-- **C175** (equal potential) If in C175 the mean potential radiation is the same on all days, the sum of the daily means of the result lies between the sum of the observations and 0.01 per day less. -/
theorem C175_total (hfit : LeastSquares curveFit) {api : PandasApi} {daily : Frame ℝ} {d0 : Int} {n : Nat} (hi : daily.index = (List.range n).map fun i : Nat => at00 (d0 + i)) (hn : 0 < n)
    {s l o : Nat → ℝ} {Q : ℝ} {q : Nat → Nat → ℝ} (hs : daily.col? "ssd" = some (dailyS d0 n fun i => .fin (s i))) {st : Nat → SunTimes} (hst : ∀ i < n, (st i).daylength = .fin (l i))
    (hl : ∀ i < n, 0 < l i) (hs0 : ∀ i < n, 0 ≤ s i) (hq0 : ∀ i < n, ∀ h < 24, 0 ≤ q i h) (hQ : ∀ i < n, Q = (day24 (q i)).sum / 24) (hpos : 0 < Q) {a b : ℝ}
    (hp : fitAngstroem curveFit (dailyS d0 n fun i => .fin (s i)) (dailyS d0 n fun i => .fin (l i)) (Series.resampleD meanSkip (hourlyS d0 n fun i h => .fin (q i h)))
      (dailyS d0 n fun i => .fin (o i)) = .ok (.fin a, .fin b)) (hest : ∀ i < n, 0 ≤ a + b * s i / l i) {bc : ParPair ℝ} {course : Option (MeanCourse ℝ)} :
    ∃ out, disaggregateRadiation api daily (some (dailyS d0 n st)) (some (hourlyS d0 n fun i h => .fin (q i h))) "pot_rad_via_ssd" (.scalar (.fin a) (.fin b)) bc course = .ok out ∧
      ∃ y : Nat → ℝ, (∀ i < n, MeanIs (dayCells out (d0 + i)) (y i)) ∧
        ((List.range n).map y).sum ≤ ((List.range n).map o).sum ∧ ((List.range n).map o).sum - 0.01 * n ≤ ((List.range n).map y).sum := by
  obtain ⟨out, h, y, hy, ⟨h1, h2⟩, _⟩ := C175_weighted_totals hfit (api := api) hi hn (Q := fun _ => Q) hs hst hl hs0 hq0 hQ (fun _ _ => hpos) hp hest (bc := bc) (course := course)
  refine ⟨out, h, y, hy, ?_⟩
  rw [List.sum_map_mul_left (f := y), List.sum_map_mul_left (f := o)] at h1 h2
  simp only [List.map_const', List.sum_replicate, List.length_range, nsmul_eq_mul] at h2
  refine ⟨le_of_mul_le_mul_left h1 hpos, le_of_mul_le_mul_left (?_ : Q * _ ≤ Q * _) hpos⟩
  linarith

/-- observations that follow the formula exactly are fitted -/
theorem bestFit_exact (d0 : Int) (n : Nat) {s l Q : Nat → ℝ} (hl : ∀ i < n, l i ≠ 0) (a b : ℝ) :
    ∃ p, fitAngstroem bestFit (dailyS d0 n fun i => .fin (s i)) (dailyS d0 n fun i => .fin (l i)) (dailyS d0 n fun i => .fin (Q i))
      (dailyS d0 n fun i => .fin ((a + b * s i / l i) * Q i)) = .ok p := by
  have S := recordDays_sample d0 n s l Q fun i => (a + b * s i / l i) * Q i
  cases e : fitAngstroem bestFit (dailyS d0 n fun i => .fin (s i)) (dailyS d0 n fun i => .fin (l i)) (dailyS d0 n fun i => .fin (Q i))
      (dailyS d0 n fun i => .fin ((a + b * s i / l i) * Q i)) with
  | ok p => exact ⟨p, rfl⟩
  | error x =>
    exfalso
    unfold fitAngstroem at e
    rw [sample_rows S] at e
    dsimp only at e
    unfold bestFit at e
    split at e
    · cases e
    · rename_i hno
      apply hno
      refine ⟨(a, b), ?_⟩
      intro g y' hg hy a' b'
      have inj : Function.Injective (XF.fin : ℝ → XF ℝ) := fun a b h => XF.fin.inj h
      have h1 : g a b = y' := by
        have h2 := hg a b
        rw [angstroemOpt_eq (s := fun d => s (d - d0).toNat) (l := fun d => l (d - d0).toNat) (q := fun d => Q (d - d0).toNat) (by
          intro d hd
          obtain ⟨i, hi, rfl⟩ := List.mem_map.1 hd
          rw [show (d0 + (i : Int) - d0).toNat = i by omega]
          exact hl i (List.mem_range.1 hi))] at h2
        have h3 := List.map_injective_iff.2 inj h2
        have h4 : ((recordDays d0 n).map fun d : Int => (a + b * s (d - d0).toNat / l (d - d0).toNat) * Q (d - d0).toNat).map XF.fin = y'.map XF.fin := by
          rw [← hy]
          unfold fitCol4 Series.values
          rw [List.map_map, List.map_map, List.map_map]
          rfl
        have h5 := List.map_injective_iff.2 inj h4
        rw [← h3, ← h5]
        rfl
      have h2 : sqErr (g a b) y' = 0 := by
        rw [h1]
        unfold sqErr
        apply List.sum_eq_zero
        intro x hx
        obtain ⟨r, hr, rfl⟩ := List.mem_map.1 hx
        have : r.1 = r.2 := by
          rw [List.zip_eq_zipWith, List.zipWith_self] at hr
          obtain ⟨z, _, rfl⟩ := List.mem_map.1 hr
          rfl
        rw [this]
        simp
      dsimp only
      rw [h2]
      unfold sqErr
      apply List.sum_nonneg
      intro x hx
      obtain ⟨e, _, rfl⟩ := List.mem_map.1 hx
      positivity

/-- C175 at work: two days with 6 and 12 of 12 hours of sunshine, a mean potential of 10 W/m2 and observations of 5 and 7.5 W/m2: the daily means of the result add up to 12.5 or up to 0.02 less -/
example : ∃ a b, fitAngstroem bestFit (dailyS 0 2 fun i => .fin (if i = 0 then 6 else 12)) (dailyS 0 2 fun _ => .fin 12) (Series.resampleD meanSkip (hourlyS 0 2 fun _ h => .fin (exPotReal h)))
      (dailyS 0 2 fun i => .fin ((1 / 4 + 1 / 2 * (if i = 0 then 6 else 12) / 12) * 10)) = .ok (.fin a, .fin b) ∧
    ∃ out, disaggregateRadiation .modern exRad (some (dailyS 0 2 fun _ => ⟨.fin 6, .fin 12, .fin 18, .fin 12⟩)) (some (hourlyS 0 2 fun _ h => .fin (exPotReal h))) "pot_rad_via_ssd"
        (.scalar (.fin a) (.fin b)) (.scalar (.fin 0) (.fin 0)) none = .ok out ∧
      ∃ y : Nat → ℝ, (∀ i < 2, MeanIs (dayCells out (0 + (i : Nat))) (y i)) ∧ y 0 + y 1 ≤ 12.5 ∧ 12.48 ≤ y 0 + y 1 := by
  have hQ : (10 : ℝ) = (day24 exPotReal).sum / 24 := by
    rw [exPot_sum]
    norm_num
  have hpot : Series.resampleD meanSkip (hourlyS 0 2 fun _ h => XF.fin (exPotReal h)) = dailyS 0 2 fun _ => .fin 10 := by
    rw [potMeans 0 2 fun _ => exPotReal, ← hQ]
  obtain ⟨p, hp⟩ := bestFit_exact 0 2 (s := fun i => if i = 0 then 6 else 12) (l := fun _ => 12) (Q := fun _ => 10) (fun _ _ => by norm_num) (1 / 4) (1 / 2)
  have := C93_recovers bestFit_leastSquares (recordDays_sample 0 2 (fun i => if i = 0 then 6 else 12) (fun _ => 12) (fun _ => 10) fun i => (1 / 4 + 1 / 2 * (if i = 0 then 6 else 12) / 12) * 10)
    (fun _ _ => by norm_num) hp (d := 0) (d' := 1) (by decide) (by decide) (by norm_num) (by norm_num) (by norm_num) (a := 1 / 4) (b := 1 / 2) (fun _ _ => rfl)
  subst this
  rw [← hpot] at hp
  refine ⟨1 / 4, 1 / 2, hp, ?_⟩
  obtain ⟨out, h, y, hy, h1, h2⟩ := C175_total bestFit_leastSquares (api := .modern) (daily := exRad) (d0 := 0) (n := 2) rfl (by norm_num) (s := fun i => if i = 0 then 6 else 12) (l := fun _ => 12)
    (by rfl) (st := fun _ => ⟨.fin 6, .fin 12, .fin 18, .fin 12⟩) (fun _ _ => rfl) (fun _ _ => by norm_num) (fun i _ => by split_ifs <;> norm_num)
    (fun _ _ => exPot_nonneg) (fun _ _ => hQ) (by norm_num) hp (fun i _ => by split_ifs <;> norm_num) (bc := .scalar (.fin 0) (.fin 0)) (course := none)
  refine ⟨out, h, y, hy, ?_, ?_⟩
  · norm_num [List.range_succ] at h1 ⊢
    linarith
  · norm_num [List.range_succ] at h2 ⊢
    linarith

/-- two days with 6 of 12 hours of sunshine each -/
def twoSunny : Frame ℝ := ⟨[at00 0, at00 1], [("ssd", [.fin 6, .fin 6])]⟩

/-- potential radiation at noon only, on the second day twice as much as on the first: daily means of 10 and 20 -/
def noonPot (i h : Nat) : ℝ := if h = 12 then 240 * (i + 1) else 0

theorem noonPot_mean (i : Nat) : 10 * ((i : ℝ) + 1) = (day24 (noonPot i)).sum / 24 := by
  norm_num [day24, List.range_succ]
  norm_num [noonPot]
  ring

/-- **C175** (the plain total is not kept) Two days with the same relative sunshine duration, potential radiation of 10 and 20 and observations of 10 and 0.  With every least-squares optimiser the fitted parameters
give daily means that add up to at most 6, while the observations add up to 10. -/
theorem C175_plain_total_not_kept (hfit : LeastSquares curveFit) {api : PandasApi} {a b : ℝ}
    (hp : fitAngstroem curveFit (dailyS 0 2 fun _ => .fin 6) (dailyS 0 2 fun _ => .fin 12) (Series.resampleD meanSkip (hourlyS 0 2 fun i h => .fin (noonPot i h)))
      (dailyS 0 2 fun i => .fin (if i = 0 then 10 else 0)) = .ok (.fin a, .fin b)) {bc : ParPair ℝ} {course : Option (MeanCourse ℝ)} :
    ∃ out, disaggregateRadiation api twoSunny (some (dailyS 0 2 fun _ => ⟨.fin 6, .fin 12, .fin 18, .fin 12⟩)) (some (hourlyS 0 2 fun i h => .fin (noonPot i h))) "pot_rad_via_ssd"
        (.scalar (.fin a) (.fin b)) bc course = .ok out ∧
      ∃ y : Nat → ℝ, (∀ i < 2, MeanIs (dayCells out (0 + (i : Nat))) (y i)) ∧ y 0 + y 1 ≤ 6 := by
  have hpot : Series.resampleD meanSkip (hourlyS 0 2 fun i h => XF.fin (noonPot i h)) = dailyS 0 2 fun i => .fin (10 * ((i : ℝ) + 1)) := by
    rw [potMeans]
    simp only [noonPot_mean]
  rw [hpot] at hp
  obtain ⟨a1, b1, e1, _, n1, _⟩ := C93_least_squares hfit (recordDays_sample 0 2 (fun _ => 6) (fun _ => 12) (fun i => 10 * ((i : ℝ) + 1)) fun i => if i = 0 then 10 else 0) (fun _ _ => by norm_num) hp
  cases e1
  norm_num [recordDays, List.range_succ, angEst] at n1
  have hk : a + b * 6 / 12 = 1 / 5 := by linarith
  obtain ⟨out, hout, H⟩ := C58_disaggregate (m := 2) (d1 := 0) api (daily := twoSunny) (d0 := 0) (n := 2) rfl (by norm_num) (fun _ => .fin 6) rfl (fun _ => ⟨.fin 6, .fin 12, .fin 18, .fin 12⟩)
    (fun i h => .fin (noonPot i h)) le_rfl le_rfl (.scalar (.fin a) (.fin b)) bc course (fun _ => a) (fun _ => b) (fun _ _ => ⟨rfl, rfl⟩)
  have means : ∀ i < 2, ∃ y, MeanIs (dayCells out (0 + (i : Nat))) y ∧ y ≤ 1 / 5 * (10 * ((i : ℝ) + 1)) := by
    intro i h
    have hm := noonPot_mean i
    have hi0 : (0 : ℝ) ≤ i := Nat.cast_nonneg i
    obtain ⟨y, hy, _, y2⟩ := (H i h (noonPot i) (fun k _ => by simp) (fun h _ => by unfold noonPot; split_ifs <;> positivity) (by linarith)).1 12 6 (1 / 5 * (10 * ((i : ℝ) + 1))) rfl (by norm_num) rfl
      (by rw [hk, ← hm]) (by positivity)
    exact ⟨y, hy, y2⟩
  choose! y hy y2 using means
  refine ⟨out, hout, y, hy, ?_⟩
  have h0 := y2 0 (by norm_num)
  have h1 := y2 1 (by norm_num)
  norm_num at h0 h1
  linarith

/-- the fit of C175_plain_total_not_kept succeeds -/
example : ∃ a b, fitAngstroem bestFit (dailyS 0 2 fun _ => .fin 6) (dailyS 0 2 fun _ => .fin 12) (Series.resampleD meanSkip (hourlyS 0 2 fun i h => .fin (noonPot i h)))
      (dailyS 0 2 fun i => .fin (if i = 0 then 10 else 0)) = .ok (.fin a, .fin b) := by
  have hpot : Series.resampleD meanSkip (hourlyS 0 2 fun i h => XF.fin (noonPot i h)) = dailyS 0 2 fun i => .fin (10 * ((i : ℝ) + 1)) := by
    rw [potMeans]
    simp only [noonPot_mean]
  rw [hpot]
  unfold fitAngstroem
  rw [sample_rows (recordDays_sample 0 2 (fun _ => 6) (fun _ => 12) (fun i => 10 * ((i : ℝ) + 1)) fun i => if i = 0 then 10 else 0)]
  dsimp only
  unfold bestFit
  rw [dif_pos]
  · exact ⟨_, _, rfl⟩
  · refine ⟨(1 / 5, 0), ?_⟩
    intro g y' hg hy a' b'
    have inj : Function.Injective (XF.fin : ℝ → XF ℝ) := fun a b h => XF.fin.inj h
    have hg' : ∀ a b, g a b = [(a + b * 6 / 12) * 10, (a + b * 6 / 12) * 20] := by
      intro a b
      have h2 := hg a b
      rw [angstroemOpt_eq (s := fun _ => 6) (l := fun _ => 12) (q := fun d => 10 * (((d - 0).toNat : ℝ) + 1)) (fun _ _ => by norm_num)] at h2
      have h3 := List.map_injective_iff.2 inj h2
      rw [← h3]
      norm_num [recordDays, List.range_succ, angEst]
    have hy' : y' = [10, 0] := by
      have h4 : ([10, 0] : List ℝ).map XF.fin = y'.map XF.fin := by
        rw [← hy]
        simp [fitCol4, Series.values, recordDays, List.range_succ]
      exact (List.map_injective_iff.2 inj h4).symm
    rw [hg', hg', hy']
    unfold sqErr
    norm_num
    nlinarith [sq_nonneg (5 * (a' + b' * 6 / 12) - 1)]

end

end Melodist
