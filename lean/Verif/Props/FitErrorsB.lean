import Verif.Props.RadiationFit
import Verif.Props.WindFit

/-!
# C168: the least-squares fits do not amplify errors of the observations
-/

set_option linter.unusedSectionVars false

namespace Melodist
open Spec StatsObj

noncomputable section

/-- fits `f`, `g` of observations `o`, `o'` whose residuals are orthogonal to the difference of the fits -/
theorem fits_near (l : List Int) (f g o o' : Int → ℝ) (h1 : (l.map fun d => (f d - g d) * (f d - o d)).sum = 0)
    (h2 : (l.map fun d => (f d - g d) * (g d - o' d)).sum = 0) :
    (l.map fun d => (f d - g d) ^ 2).sum ≤ (l.map fun d => (o d - o' d) ^ 2).sum := by
  have e : (l.map fun d => (f d - g d) ^ 2).sum = (l.map fun d => (o d - o' d) ^ 2).sum - (l.map fun d => ((o d - o' d) - (f d - g d)) ^ 2).sum +
      2 * ((l.map fun d => (f d - g d) * (f d - o d)).sum - (l.map fun d => (f d - g d) * (g d - o' d)).sum) := by
    clear h1 h2
    induction l with
    | nil => simp
    | cons a l ih =>
      simp only [List.map_cons, List.sum_cons, ih]
      ring
  have hnn : 0 ≤ (l.map fun d => ((o d - o' d) - (f d - g d)) ^ 2).sum := by
    apply List.sum_nonneg
    intro y hy
    obtain ⟨r, _, rfl⟩ := List.mem_map.1 hy
    exact sq_nonneg _
  rw [h1, h2] at e
  linarith

/-- one term of a sum of squares -/
theorem term_le_root {l : List Int} {e : Int → ℝ} {S : ℝ} (h : (l.map fun d => e d ^ 2).sum ≤ S) {d : Int} (hd : d ∈ l) : |e d| ≤ Real.sqrt S := by
  apply Real.abs_le_sqrt
  refine (List.single_le_sum ?_ _ (List.mem_map_of_mem (f := fun d => e d ^ 2) hd)).trans h
  intro x hx
  obtain ⟨i, _, rfl⟩ := List.mem_map.1 hx
  exact sq_nonneg _

/-! ## Angstroem -/

variable {curveFit curveFit' : (ℝ → ℝ → List (XF ℝ)) → List (XF ℝ) → ℝ × ℝ → Py (XF ℝ × XF ℝ)}
  {ssd dl pot obs obs' : Series (XF ℝ)} {ds : List Int} {s l q o o' : Int → ℝ} {p p' : XF ℝ × XF ℝ}

/-- estimates with parameters that meet the normal equations, for two sets of observations -/
theorem ang_orth {a b a' b' : ℝ} {r : Int → ℝ} (n1 : (ds.map fun d => q d * r d).sum = 0) (n2 : (ds.map fun d => s d / l d * q d * r d).sum = 0) :
    (ds.map fun d => (angEst s l q a b d - angEst s l q a' b' d) * r d).sum = 0 := by
  have e : (ds.map fun d => (angEst s l q a b d - angEst s l q a' b' d) * r d).sum =
      (a - a') * (ds.map fun d => q d * r d).sum + (b - b') * (ds.map fun d => s d / l d * q d * r d).sum := by
    clear n1 n2
    induction ds with
    | nil => simp
    | cons d l' ih =>
      simp only [List.map_cons, List.sum_cons, ih]
      unfold angEst
      ring
  rw [e, n1, n2]
  ring

/-- **C168** (Angstroem) Two records of observed radiation on the same days, with the same sunshine durations, day lengths (not zero) and potential radiation: the daily estimates with the two fitted
parameter pairs differ, in the sum of their squares, by no more than the observations do; so on each of the days they differ by at most `E`, the root of this sum. -/
theorem C168_angstroem (hfit : LeastSquares curveFit) (hfit' : LeastSquares curveFit') (S : Sample ssd dl pot obs ds s l q o) (S' : Sample ssd dl pot obs' ds s l q o')
    (hl : ∀ d ∈ ds, l d ≠ 0) (h : fitAngstroem curveFit ssd dl pot obs = .ok p) (h' : fitAngstroem curveFit' ssd dl pot obs' = .ok p') :
    ∃ a b a' b', p = (.fin a, .fin b) ∧ p' = (.fin a', .fin b') ∧
      (ds.map fun d => ((a + b * s d / l d) * q d - (a' + b' * s d / l d) * q d) ^ 2).sum ≤ (ds.map fun d => (o d - o' d) ^ 2).sum ∧
      ∀ d ∈ ds, |(a + b * s d / l d) * q d - (a' + b' * s d / l d) * q d| ≤ Real.sqrt (ds.map fun d => (o d - o' d) ^ 2).sum := by
  obtain ⟨a, b, rfl, _, n1, n2⟩ := C93_least_squares hfit S hl h
  obtain ⟨a', b', rfl, _, m1, m2⟩ := C93_least_squares hfit' S' hl h'
  have key := fits_near ds (angEst s l q a b) (angEst s l q a' b') o o' (ang_orth n1 n2) (ang_orth m1 m2)
  exact ⟨a, b, a', b', rfl, rfl, key, fun d hd => term_le_root key hd⟩

/-- **C168** (Angstroem, parameters) … and the parameters: for any two of the days with different relative sunshine durations and potential radiation above zero, the slopes differ by at most
`E (1/q + 1/q') / |s/l - s'/l'|`. -/
theorem C168_angstroem_slope (hfit : LeastSquares curveFit) (hfit' : LeastSquares curveFit') (S : Sample ssd dl pot obs ds s l q o) (S' : Sample ssd dl pot obs' ds s l q o')
    (hl : ∀ d ∈ ds, l d ≠ 0) {d e : Int} (hd : d ∈ ds) (he : e ∈ ds) (hqd : 0 < q d) (hqe : 0 < q e) (hde : s d / l d ≠ s e / l e) {a b a' b' : ℝ}
    (h : fitAngstroem curveFit ssd dl pot obs = .ok (.fin a, .fin b)) (h' : fitAngstroem curveFit' ssd dl pot obs' = .ok (.fin a', .fin b')) :
    |b - b'| ≤ Real.sqrt (ds.map fun d => (o d - o' d) ^ 2).sum * (1 / q d + 1 / q e) / |s d / l d - s e / l e| := by
  obtain ⟨a1, b1, a1', b1', e1, e2, _, key⟩ := C168_angstroem hfit hfit' S S' hl h h'
  cases e1
  cases e2
  set E := Real.sqrt (ds.map fun d => (o d - o' d) ^ 2).sum
  have hr : 0 < |s d / l d - s e / l e| := abs_pos.2 (sub_ne_zero.2 hde)
  have one : ∀ k ∈ ds, 0 < q k → |(a - a') + (b - b') * (s k / l k)| ≤ E * (1 / q k) := by
    intro k hk hq
    have := key k hk
    rw [show (a + b * s k / l k) * q k - (a' + b' * s k / l k) * q k = ((a - a') + (b - b') * (s k / l k)) * q k by ring, abs_mul, abs_of_pos hq] at this
    rw [mul_one_div, le_div_iff₀ hq]
    exact this
  rw [le_div_iff₀ hr, ← abs_mul, show (b - b') * (s d / l d - s e / l e) = ((a - a') + (b - b') * (s d / l d)) - ((a - a') + (b - b') * (s e / l e)) by ring, mul_add]
  exact (abs_sub _ _).trans (add_le_add (one d hd hqd) (one e he hqe))

/-- **C168** (Angstroem, true parameters) If the observations are the values of the formula with some parameters `a`, `b` plus errors, the estimates with the fitted parameters differ from the true values,
in the sum of the squares, by no more than the observations do. -/
theorem C168_angstroem_truth (hfit : LeastSquares curveFit) (S : Sample ssd dl pot obs ds s l q o) (hl : ∀ d ∈ ds, l d ≠ 0) (a b : ℝ)
    (h : fitAngstroem curveFit ssd dl pot obs = .ok p) :
    ∃ a' b', p = (.fin a', .fin b') ∧
      (ds.map fun d => ((a' + b' * s d / l d) * q d - (a + b * s d / l d) * q d) ^ 2).sum ≤ (ds.map fun d => (o d - (a + b * s d / l d) * q d) ^ 2).sum := by
  obtain ⟨a', b', rfl, _, n1, n2⟩ := C93_least_squares hfit S hl h
  refine ⟨a', b', rfl, fits_near ds (angEst s l q a' b') (angEst s l q a b) o (angEst s l q a b) (ang_orth n1 n2) ?_⟩
  apply List.sum_eq_zero
  intro x hx
  obtain ⟨d, _, rfl⟩ := List.mem_map.1 hx
  simp

/-! ## wind -/

/-- the recorded numbers with their times -/
def Spec.recorded (w : List (Int × XF ℝ)) : List (Int × ℝ) :=
  w.filterMap fun r => match r.2 with
    | .fin y => some (r.1, y)
    | _ => none

/-- along the line through two parameter sets -/
theorem line_params (p q : ℝ × ℝ × ℝ) (u : ℝ) : ∃ s : ℝ × ℝ × ℝ, ∀ m h : ℝ,
    s.1 * m * Real.cos (Real.pi * (h - s.2.2) / 12) + s.2.1 * m =
      (p.1 * m * Real.cos (Real.pi * (h - p.2.2) / 12) + p.2.1 * m) +
        u * ((p.1 * m * Real.cos (Real.pi * (h - p.2.2) / 12) + p.2.1 * m) - (q.1 * m * Real.cos (Real.pi * (h - q.2.2) / 12) + q.2.1 * m)) := by
  obtain ⟨a, t, H⟩ := amp_phase (p.1 * Real.cos (Real.pi * p.2.2 / 12) + u * (p.1 * Real.cos (Real.pi * p.2.2 / 12) - q.1 * Real.cos (Real.pi * q.2.2 / 12)))
    (p.1 * Real.sin (Real.pi * p.2.2 / 12) + u * (p.1 * Real.sin (Real.pi * p.2.2 / 12) - q.1 * Real.sin (Real.pi * q.2.2 / 12)))
  refine ⟨(a, p.2.1 + u * (p.2.1 - q.2.1), t), ?_⟩
  intro m h
  have := H h
  have hp := phase_amp p.1 p.2.2 h
  have hq := phase_amp q.1 q.2.2 h
  simp only
  have e : ∀ a c : ℝ, a * m * c = m * (a * c) := fun a c => by ring
  rw [e, e, e, this, hp, hq]
  ring

theorem recordedRows_eq {w : Series (XF ℝ)} {ts : List Int} {y : Int → ℝ} (h : recorded w = ts.map fun t => (t, y t)) :
    recordedRows w = ts.map fun t => (recordedMean w (t / 86400000000), t % 86400000000 / 3600000000, y t) := by
  have e : recordedRows w = (recorded w).map fun r => (recordedMean w (r.1 / 86400000000), r.1 % 86400000000 / 3600000000, r.2) := by
    unfold recordedRows recorded
    rw [List.map_filterMap]
    congr 1
    funext r
    rcases r with ⟨t, c⟩
    cases c <;> rfl
  rw [e, h, List.map_map]
  rfl

/-- the wind speed at time `t` by the fitted cosine of the daily mean `m` -/
def Spec.cosineAt (p : ℝ × ℝ × ℝ) (m : ℝ) (t : Int) : ℝ :=
  p.1 * m * Real.cos (Real.pi * (((t % 86400000000 / 3600000000 : Int) : ℝ) - p.2.2) / 12) + p.2.1 * m

theorem wind_orth {ts : List Int} {m y : Int → ℝ} {p : ℝ × ℝ × ℝ} (hp : IsLeastSquares (ts.map fun t => (m t, t % 86400000000 / 3600000000, y t)) p) (q : ℝ × ℝ × ℝ) :
    (ts.map fun t => (cosineAt p (m t) t - cosineAt q (m t) t) * (cosineAt p (m t) t - y t)).sum = 0 := by
  apply normal_eq
  intro u
  obtain ⟨s, hs⟩ := line_params p q u
  have := hp s
  rw [List.map_map, List.map_map] at this
  refine this.trans (le_of_eq ?_)
  congr 1
  apply List.map_congr_left
  intro t _
  simp only [Function.comp_def]
  rw [hs]
  unfold cosineAt
  ring

/-- **C168** (wind) Two hourly wind records with numbers `y`, `y'` at the same times `ts` and with the same daily means: the fitted cosines differ at the recorded times, in the sum of the squares, by no more
than the records do. -/
theorem C168_wind {w w' : Series (XF ℝ)} (hw : ∀ r ∈ w, r.2.NanOrFin) (hw' : ∀ r ∈ w', r.2.NanOrFin) {ts : List Int} {y y' : Int → ℝ}
    (h : recorded w = ts.map fun t => (t, y t)) (h' : recorded w' = ts.map fun t => (t, y' t))
    (hm : ∀ t ∈ ts, recordedMean w' (t / 86400000000) = recordedMean w (t / 86400000000))
    (opt opt' : List (ℝ × Int × ℝ) → Py (ℝ × ℝ × ℝ)) (hopt : ∀ rows p, opt rows = .ok p → IsLeastSquares rows p)
    (hopt' : ∀ rows p, opt' rows = .ok p → IsLeastSquares rows p) {p p' : ℝ × ℝ × ℝ} (hp : fitCosineFunction opt w = .ok p) (hp' : fitCosineFunction opt' w' = .ok p') :
    (ts.map fun t => (cosineAt p (recordedMean w (t / 86400000000)) t - cosineAt p' (recordedMean w (t / 86400000000)) t) ^ 2).sum ≤ (ts.map fun t => (y t - y' t) ^ 2).sum := by
  unfold fitCosineFunction at hp hp'
  rw [C108_fit_rows w hw, recordedRows_eq h] at hp
  rw [C108_fit_rows w' hw', recordedRows_eq h'] at hp'
  have e : (ts.map fun t => (recordedMean w' (t / 86400000000), t % 86400000000 / 3600000000, y' t)) =
      ts.map fun t => (recordedMean w (t / 86400000000), t % 86400000000 / 3600000000, y' t) := by
    apply List.map_congr_left
    intro t ht
    rw [hm t ht]
  rw [e] at hp'
  have l1 := wind_orth (hopt _ _ hp) p'
  have l2 := wind_orth (hopt' _ _ hp') p
  refine fits_near ts (fun t => cosineAt p (recordedMean w (t / 86400000000)) t) (fun t => cosineAt p' (recordedMean w (t / 86400000000)) t) y y' l1 ?_
  have e2 : (fun t => (cosineAt p (recordedMean w (t / 86400000000)) t - cosineAt p' (recordedMean w (t / 86400000000)) t) * (cosineAt p' (recordedMean w (t / 86400000000)) t - y' t)) =
      fun t => -1 * ((cosineAt p' (recordedMean w (t / 86400000000)) t - cosineAt p (recordedMean w (t / 86400000000)) t) * (cosineAt p' (recordedMean w (t / 86400000000)) t - y' t)) := by
    funext t
    ring
  rw [e2, List.sum_map_mul_left, l2, mul_zero]

/-! ## concrete cases -/

/-- two days in January, without sunshine and with 6 of 12 hours, and observations on the line with parameters `A`, `B`: the fit succeeds -/
theorem two_days (A B : ℝ) :
    Sample (onDays [0, 1] fun d => .fin (6 * d)) (onDays [0, 1] fun _ => .fin 12) (onDays [0, 1] fun _ => .fin 100)
      (onDays [0, 1] fun d => .fin ((A + B * (6 * d) / 12) * 100)) [0, 1] (fun d => 6 * d) (fun _ => 12) (fun _ => 100) (fun d => (A + B * (6 * d) / 12) * 100) ∧
    ∃ p, fitAngstroem bestFit (onDays [0, 1] fun d => .fin (6 * d)) (onDays [0, 1] fun _ => .fin 12) (onDays [0, 1] fun _ => .fin 100)
      (onDays [0, 1] fun d => .fin ((A + B * (6 * d) / 12) * 100)) = .ok p := by
  have S : Sample (onDays [0, 1] fun d => .fin (6 * d)) (onDays [0, 1] fun _ => .fin 12) (onDays [0, 1] fun _ => .fin 100)
      (onDays [0, 1] fun d => .fin ((A + B * (6 * d) / 12) * 100)) [0, 1] (fun d => 6 * d) (fun _ => 12) (fun _ => 100) fun d => (A + B * (6 * d) / 12) * 100 := by
    refine ⟨by rw [onDays_index]; decide, by decide, fun e he => ⟨onDays_at? _ he, onDays_at? _ he, onDays_at? _ he, onDays_at? _ he⟩, ?_⟩
    intro t ht hn
    rw [onDays_index] at ht
    exact absurd ht hn
  refine ⟨S, ?_⟩
  cases e : fitAngstroem bestFit (onDays [0, 1] fun d => .fin (6 * d)) (onDays [0, 1] fun _ => .fin 12) (onDays [0, 1] fun _ => .fin 100)
      (onDays [0, 1] fun d => .fin ((A + B * (6 * d) / 12) * 100)) with
  | ok p => exact ⟨p, rfl⟩
  | error x =>
    exfalso
    unfold fitAngstroem at e
    rw [sample_rows S] at e
    dsimp only at e
    unfold bestFit at e
    split at e
    · cases e
    · rename_i hno
      apply hno
      refine ⟨(A, B), ?_⟩
      intro g y' hg hy a' b'
      have h1 : g A B = y' := by
        have h2 := hg A B
        rw [angstroemOpt_eq (fun _ _ => by norm_num)] at h2
        have inj : Function.Injective (XF.fin : ℝ → XF ℝ) := fun a b h => XF.fin.inj h
        have h3 := List.map_injective_iff.2 inj h2
        have h4 : (List.map (fun d : Int => ((A + B * (6 * d) / 12) * 100)) [0, 1]).map XF.fin = y'.map XF.fin := by
          rw [← hy]; rfl
        have h5 := List.map_injective_iff.2 inj h4
        rw [← h3, ← h5]
        rfl
      have h2 : sqErr (g A B) y' = 0 := by
        rw [h1]
        unfold sqErr
        apply List.sum_eq_zero
        intro x hx
        obtain ⟨r, hr, rfl⟩ := List.mem_map.1 hx
        have : r.1 = r.2 := by
          rw [List.zip_eq_zipWith, List.zipWith_self] at hr
          obtain ⟨z, _, rfl⟩ := List.mem_map.1 hr
          rfl
        rw [this]
        simp
      rw [h2]
      unfold sqErr
      apply List.sum_nonneg
      intro x hx
      obtain ⟨r, hr, rfl⟩ := List.mem_map.1 hx
      exact sq_nonneg _

/-- C168 (Angstroem): observations 25 and 62.5 instead of 30 and 65; the errors 5 and 2.5 bound those of the estimates -/
example : ∃ a b a' b', fitAngstroem bestFit (onDays [0, 1] fun d => .fin (6 * d)) (onDays [0, 1] fun _ => .fin 12) (onDays [0, 1] fun _ => .fin 100)
      (onDays [0, 1] fun d => .fin ((1 / 4 + 3 / 4 * (6 * d) / 12) * 100)) = .ok (.fin a, .fin b) ∧
    fitAngstroem bestFit (onDays [0, 1] fun d => .fin (6 * d)) (onDays [0, 1] fun _ => .fin 12) (onDays [0, 1] fun _ => .fin 100)
      (onDays [0, 1] fun d => .fin ((3 / 10 + 7 / 10 * (6 * d) / 12) * 100)) = .ok (.fin a', .fin b') ∧
    |a * 100 - a' * 100| ≤ Real.sqrt (5 ^ 2 + 2.5 ^ 2) ∧ |b - b'| ≤ Real.sqrt (5 ^ 2 + 2.5 ^ 2) * (1 / 100 + 1 / 100) / (1 / 2) := by
  obtain ⟨S, p, hp⟩ := two_days (1 / 4) (3 / 4)
  obtain ⟨S', p', hp'⟩ := two_days (3 / 10) (7 / 10)
  obtain ⟨a, b, a', b', rfl, rfl, _, h⟩ := C168_angstroem bestFit_leastSquares bestFit_leastSquares S S' (fun _ _ => by norm_num) hp hp'
  have k := C168_angstroem_slope bestFit_leastSquares bestFit_leastSquares S S' (fun _ _ => by norm_num) (d := 0) (e := 1) (by simp) (by simp) (by norm_num) (by norm_num)
    (by norm_num) hp hp'
  have h0 := h 0 (by simp)
  refine ⟨a, b, a', b', hp, hp', ?_, ?_⟩
  · refine (le_of_eq ?_).trans (h0.trans (le_of_eq ?_))
    · simp
    · congr 1
      norm_num
  · refine k.trans (le_of_eq ?_)
    have : |(6 * ((0 : Int) : ℝ)) / 12 - 6 * ((1 : Int) : ℝ) / 12| = 1 / 2 := by norm_num [abs_of_neg]
    rw [this]
    congr 3
    norm_num

open Classical in
/-- an optimiser that finds least-squares parameters whenever there are some -/
def bestCosine (rows : List (ℝ × Int × ℝ)) : Py (ℝ × ℝ × ℝ) := if h : ∃ p, IsLeastSquares rows p then .ok h.choose else .error .valueError

theorem bestCosine_leastSquares (rows : List (ℝ × Int × ℝ)) (p : ℝ × ℝ × ℝ) (h : bestCosine rows = .ok p) : IsLeastSquares rows p := by
  unfold bestCosine at h
  split at h
  · rename_i hex
    cases h
    exact hex.choose_spec
  · cases h

/-- a day with 2 + `x` at midnight and 2 - `x` at noon: the fit succeeds -/
theorem two_hours (x : ℝ) : (∀ d, d = 0 → recordedMean [(atHour 0 0, .fin (2 + x)), (atHour 0 12, .fin (2 - x))] d = 2) ∧
    ∃ p, fitCosineFunction bestCosine [(atHour 0 0, .fin (2 + x)), (atHour 0 12, .fin (2 - x))] = .ok p := by
  have d0 : atHour 0 0 / 86400000000 = 0 := by decide
  have d12 : atHour 0 12 / 86400000000 = 0 := by decide
  have hm : ∀ d, d = 0 → recordedMean [(atHour 0 0, .fin (2 + x)), (atHour 0 12, .fin (2 - x))] d = 2 := by
    rintro d rfl
    simp [recordedMean, dayCells, d0, d12, numbers]
  refine ⟨hm, ?_⟩
  have hfin : ∀ r ∈ ([(atHour 0 0, .fin (2 + x)), (atHour 0 12, .fin (2 - x))] : Series (XF ℝ)), r.2.NanOrFin := by
    intro r hr
    simp only [List.mem_cons, List.not_mem_nil, or_false] at hr
    rcases hr with rfl | rfl <;> trivial
  unfold fitCosineFunction
  rw [C108_fit_rows _ hfin]
  show ∃ p, bestCosine _ = .ok p
  unfold bestCosine
  rw [dif_pos]
  · exact ⟨_, rfl⟩
  · refine ⟨(x / 2, 1, 0), exact_leastSquares ?_⟩
    intro τ y h
    simp only [List.mem_cons, List.not_mem_nil, or_false, Prod.mk.injEq, XF.fin.injEq] at h
    rcases h with ⟨rfl, rfl⟩ | ⟨rfl, rfl⟩
    · rw [hm _ (by decide), show hourOf (atHour 0 0) = 0 by decide]
      simp
      ring
    · rw [hm _ (by decide), show hourOf (atHour 0 12) = 12 by decide]
      rw [show Real.pi * (((12 : Int) : ℝ) - 0) / 12 = Real.pi by push_cast; ring, Real.cos_pi]
      ring

/-- C168 (wind): 3 and 1 m/s at midnight and noon instead of 1 and 3: the same mean, and the fits differ at these hours by at most the errors -/
example : ∃ p p', fitCosineFunction bestCosine [(atHour 0 0, .fin (2 + 1)), (atHour 0 12, .fin (2 - 1))] = .ok p ∧
    fitCosineFunction bestCosine [(atHour 0 0, .fin (2 + -1)), (atHour 0 12, .fin (2 - -1))] = .ok p' ∧
    (cosineAt p 2 (atHour 0 0) - cosineAt p' 2 (atHour 0 0)) ^ 2 + (cosineAt p 2 (atHour 0 12) - cosineAt p' 2 (atHour 0 12)) ^ 2 ≤ 2 ^ 2 + 2 ^ 2 := by
  obtain ⟨m, p, hp⟩ := two_hours 1
  obtain ⟨m', p', hp'⟩ := two_hours (-1)
  have d0 : atHour 0 0 / 86400000000 = 0 := by decide
  have d12 : atHour 0 12 / 86400000000 = 0 := by decide
  have ne : atHour 0 12 ≠ atHour 0 0 := by decide
  refine ⟨p, p', hp, hp', ?_⟩
  have fin : ∀ x : ℝ, ∀ r ∈ ([(atHour 0 0, .fin (2 + x)), (atHour 0 12, .fin (2 - x))] : Series (XF ℝ)), r.2.NanOrFin := by
    intro x r hr
    simp only [List.mem_cons, List.not_mem_nil, or_false] at hr
    rcases hr with rfl | rfl <;> trivial
  have hrec : ∀ x : ℝ, recorded [(atHour 0 0, .fin (2 + x)), (atHour 0 12, .fin (2 - x))] = [atHour 0 0, atHour 0 12].map fun t => (t, if t = atHour 0 0 then 2 + x else 2 - x) := by
    intro x
    simp [recorded, ne]
  have := C168_wind (fin 1) (fin (-1)) (hrec 1) (hrec (-1))
    (by
      intro t ht
      have : t / 86400000000 = 0 := by
        simp only [List.mem_cons, List.not_mem_nil, or_false] at ht
        rcases ht with rfl | rfl
        · exact d0
        · exact d12
      rw [m _ this, m' _ this])
    bestCosine bestCosine bestCosine_leastSquares bestCosine_leastSquares hp hp'
  simp only [List.map_cons, List.map_nil, List.sum_cons, List.sum_nil, d0, d12, m 0 rfl, if_neg ne, if_true, add_zero] at this
  refine this.trans (le_of_eq ?_)
  norm_num

end

end Melodist
