import Verif.Lemmas.WindFit

/-!
# C108: the wind fit is determined by the data
-/

set_option linter.unusedSectionVars false

namespace Melodist
open Spec

/-- the mean of the wind speeds recorded on day `d` -/
noncomputable def recordedMean (wind : Series (XF ℝ)) (d : Int) : ℝ :=
  (numbers (dayCells wind d)).sum / ((numbers (dayCells wind d)).length : ℝ)

/-- one row (mean of the day, hour of the day, wind speed) for each recorded wind speed, in the order of the record -/
noncomputable def recordedRows (wind : Series (XF ℝ)) : List (ℝ × Int × ℝ) :=
  wind.filterMap fun r => match r.2 with
    | .fin y => some (recordedMean wind (r.1 / 86400000000), r.1 % 86400000000 / 3600000000, y)
    | _ => none

/-- **C108 (rows).**  Whatever the index: the fit sees all recorded wind speeds and nothing else, each with its hour and the mean of the speeds
recorded on the same day. -/
theorem C108_fit_rows (wind : Series (XF ℝ)) (hw : ∀ r ∈ wind, r.2.NanOrFin) : fitRows wind = .ok (recordedRows wind) := by
  have key : ∀ r ∈ wind, ∀ y, r.2 = .fin y →
      ((Series.groupbyDate meanSkip wind).at? (midnight (dayOf r.1))).getD .nan = .fin (recordedMean wind (dayOf r.1)) := by
    intro r hr y hy
    rw [groupbyDate_at? _ _ hr rfl, Option.getD_some, onDay_eq_dayCells]
    apply meanSkip_eq
    · intro c hc
      unfold dayCells at hc
      obtain ⟨x, hx, rfl⟩ := List.mem_map.1 hc
      exact hw x (List.mem_filter.1 hx).1
    · intro e
      have : y ∈ numbers (dayCells wind (dayOf r.1)) := by
        unfold numbers
        rw [List.mem_filterMap]
        refine ⟨.fin y, ?_, rfl⟩
        unfold dayCells
        rw [List.mem_map]
        exact ⟨r, List.mem_filter.2 ⟨hr, by simp [dayOf]⟩, hy⟩
      rw [e] at this
      exact absurd this List.not_mem_nil
  unfold fitRows recordedRows
  simp only
  generalize (Series.groupbyDate meanSkip wind) = daily at key
  generalize recordedMean wind = mean at key ⊢
  induction wind with
  | nil => rfl
  | cons x w ih =>
    have ih := ih (fun r hr => hw r (List.mem_cons_of_mem _ hr)) (fun r hr => key r (List.mem_cons_of_mem _ hr))
    rcases hx : x.2 with _ | _ | y | _
    · rw [List.map_cons, List.filter_cons_of_neg (by simp [hx, XF.isNan]), ih]
      simp only [List.filterMap_cons, hx]
    · have := hw x List.mem_cons_self
      rw [hx] at this
      exact absurd this (by simp [XF.NanOrFin])
    · have hk := key x List.mem_cons_self y hx
      rw [List.map_cons, List.filter_cons_of_pos (by rw [hk]; simp [hx, XF.isNan]), List.mapM_cons, ih]
      simp only [List.filterMap_cons, hx, hk]
      rfl
    · have := hw x List.mem_cons_self
      rw [hx] at this
      exact absurd this (by simp [XF.NanOrFin])


/-- the fitted wind speed of one row -/
noncomputable def fittedValue (p : ℝ × ℝ × ℝ) (r : ℝ × Int × ℝ) : ℝ :=
  p.1 * r.1 * Real.cos (Real.pi * ((r.2.1 : ℝ) - p.2.2) / 12) + p.2.1 * r.1

/-- **C108 (unique).**  For any rows: two least-squares solutions fit every row with the same value. -/
theorem C108_fitted_values_unique (rows : List (ℝ × Int × ℝ)) {p q : ℝ × ℝ × ℝ} (hp : IsLeastSquares rows p) (hq : IsLeastSquares rows q) :
    ∀ r ∈ rows, fittedValue p r = fittedValue q r := by
  obtain ⟨s, hs⟩ := mid_params p q
  have h1 := hp s
  have h2 := hq s
  have e : (rows.map fun r => (s.1 * r.1 * Real.cos (Real.pi * ((r.2.1 : ℝ) - s.2.2) / 12) + s.2.1 * r.1 - r.2.2) ^ 2) =
      rows.map fun r => (((fittedValue p r - r.2.2) + (fittedValue q r - r.2.2)) / 2) ^ 2 := by
    apply List.map_congr_left
    intro r _
    rw [hs r.1 r.2.1]
    unfold fittedValue
    ring
  rw [e, sum_sq_mid] at h1 h2
  have h3 := sum_sq_zero_wind rows (fun r => (fittedValue p r - r.2.2) - (fittedValue q r - r.2.2)) (by
    unfold fittedValue at h1 h2 ⊢
    linarith)
  intro r hr
  have := h3 r hr
  linarith

theorem infOfSign_mul_fin (a c : ℝ) : XF.infOfSign a * XF.fin c = XF.infOfSign (a * c) := by
  unfold XF.infOfSign
  rcases lt_trichotomy a 0 with ha | rfl | ha
  · rw [if_neg (not_lt.2 ha.le), if_pos ha]
    show XF.infOfSign (-c) = _
    unfold XF.infOfSign
    rcases lt_trichotomy c 0 with hc | rfl | hc
    · rw [if_pos (by linarith), if_pos (mul_pos_of_neg_of_neg ha hc)]
    · simp
    · rw [if_neg (by linarith), if_pos (by linarith), if_neg (not_lt.2 (mul_neg_of_neg_of_pos ha hc).le), if_pos (mul_neg_of_neg_of_pos ha hc)]
  · simp
  · rw [if_pos ha]
    show XF.infOfSign c = _
    unfold XF.infOfSign
    rcases lt_trichotomy c 0 with hc | rfl | hc
    · rw [if_neg (not_lt.2 hc.le), if_pos hc, if_neg (not_lt.2 (mul_neg_of_pos_of_neg ha hc).le), if_pos (mul_neg_of_pos_of_neg ha hc)]
    · simp
    · rw [if_pos hc, if_pos (mul_pos ha hc)]

/-- equal harmonics and offsets: equal hourly values, even for an infinite mean -/
theorem cosineCell_congr {p q : ℝ × ℝ × ℝ}
    (h : ∀ t : Int, p.1 * Real.cos (Real.pi * ((t : ℝ) - p.2.2) / 12) = q.1 * Real.cos (Real.pi * ((t : ℝ) - q.2.2) / 12)) (hb : p.2.1 = q.2.1)
    (x : XF ℝ) (t : Int) : cosineCell p.1 p.2.1 p.2.2 x t = cosineCell q.1 q.2.1 q.2.2 x t := by
  unfold cosineCell
  rw [hb]
  congr 1
  have ht := h t
  show XF.fin p.1 * x * XF.fin _ = XF.fin q.1 * x * XF.fin _
  cases x with
  | nan => rfl
  | ninf =>
    show XF.infOfSign (-p.1) * _ = XF.infOfSign (-q.1) * _
    rw [infOfSign_mul_fin, infOfSign_mul_fin, neg_mul, neg_mul, ht]
  | fin m =>
    rw [XF.fin_mul_fin, XF.fin_mul_fin, XF.fin_mul_fin, XF.fin_mul_fin, mul_right_comm, ht, mul_right_comm]
  | pinf =>
    show XF.infOfSign p.1 * _ = XF.infOfSign q.1 * _
    rw [infOfSign_mul_fin, infOfSign_mul_fin, ht]

/-- the record has wind speeds at three different hours of the day, on days with a mean other than zero -/
def ThreeHours (wind : Series (XF ℝ)) : Prop :=
  ∃ t1 t2 t3 : Time, (hourOf t1 ≠ hourOf t2 ∧ hourOf t1 ≠ hourOf t3 ∧ hourOf t2 ≠ hourOf t3) ∧
    ∀ t, t = t1 ∨ t = t2 ∨ t = t3 → (∃ y : ℝ, (t, XF.fin y) ∈ wind) ∧ recordedMean wind (dayOf t) ≠ 0

theorem mem_recordedRows {wind : Series (XF ℝ)} {t : Time} {y : ℝ} (h : (t, XF.fin y) ∈ wind) :
    (recordedMean wind (dayOf t), hourOf t, y) ∈ recordedRows wind := by
  unfold recordedRows
  rw [List.mem_filterMap]
  exact ⟨_, h, rfl⟩

theorem hourOf_lt24 (t : Time) : 0 ≤ hourOf t ∧ hourOf t < 24 := by
  unfold hourOf
  omega

/-- parameters that agree on a record with three hours agree everywhere -/
theorem same_cosine {wind : Series (XF ℝ)} (h3 : ThreeHours wind) {p q : ℝ × ℝ × ℝ}
    (h : ∀ r ∈ recordedRows wind, fittedValue p r = fittedValue q r) :
    (∀ t : Int, p.1 * Real.cos (Real.pi * ((t : ℝ) - p.2.2) / 12) = q.1 * Real.cos (Real.pi * ((t : ℝ) - q.2.2) / 12)) ∧ p.2.1 = q.2.1 := by
  obtain ⟨t1, t2, t3, ⟨n12, n13, n23⟩, ht⟩ := h3
  have z : ∀ k : Int, k = hourOf t1 ∨ k = hourOf t2 ∨ k = hourOf t3 →
      (p.1 * Real.cos (Real.pi * p.2.2 / 12) - q.1 * Real.cos (Real.pi * q.2.2 / 12)) * Real.cos (Real.pi * k / 12) +
      (p.1 * Real.sin (Real.pi * p.2.2 / 12) - q.1 * Real.sin (Real.pi * q.2.2 / 12)) * Real.sin (Real.pi * k / 12) + (p.2.1 - q.2.1) = 0 := by
    have : ∀ t, t = t1 ∨ t = t2 ∨ t = t3 →
      (p.1 * Real.cos (Real.pi * p.2.2 / 12) - q.1 * Real.cos (Real.pi * q.2.2 / 12)) * Real.cos (Real.pi * (hourOf t) / 12) +
      (p.1 * Real.sin (Real.pi * p.2.2 / 12) - q.1 * Real.sin (Real.pi * q.2.2 / 12)) * Real.sin (Real.pi * (hourOf t) / 12) + (p.2.1 - q.2.1) = 0 := by
      intro t htt
      obtain ⟨⟨y, hy⟩, hm⟩ := ht t htt
      have hv := h _ (mem_recordedRows hy)
      unfold fittedValue at hv
      simp only at hv
      have hp := phase_amp p.1 p.2.2 (hourOf t)
      have hq := phase_amp q.1 q.2.2 (hourOf t)
      have e : ∀ a c b : ℝ, a * recordedMean wind (dayOf t) * c + b * recordedMean wind (dayOf t) = recordedMean wind (dayOf t) * (a * c + b) :=
        fun a c b => by ring
      rw [e, e] at hv
      have := mul_left_cancel₀ hm hv
      rw [hp, hq] at this
      linarith
    rintro k (rfl | rfl | rfl)
    · exact this t1 (.inl rfl)
    · exact this t2 (.inr (.inl rfl))
    · exact this t3 (.inr (.inr rfl))
  obtain ⟨h1, h2, hb⟩ := harmonic_zero (hourOf_lt24 t1) (hourOf_lt24 t2) (hourOf_lt24 t3) n12 n13 n23 z
  refine ⟨?_, by linarith⟩
  intro t
  rw [phase_amp, phase_amp, show p.1 * Real.cos (Real.pi * p.2.2 / 12) = q.1 * Real.cos (Real.pi * q.2.2 / 12) by linarith,
    show p.1 * Real.sin (Real.pi * p.2.2 / 12) = q.1 * Real.sin (Real.pi * q.2.2 / 12) by linarith]

theorem disaggregateWind_congr {p q : ℝ × ℝ × ℝ} (h : ∀ x t, cosineCell p.1 p.2.1 p.2.2 x t = cosineCell q.1 q.2.1 q.2.2 x t)
    (api : PandasApi) (draw : Nat → ℝ) (daily : Series (XF ℝ)) :
    disaggregateWind api draw daily "cosine" (some p.1) (some p.2.1) (some p.2.2) =
      disaggregateWind api draw daily "cosine" (some q.1) (some q.2.1) (some q.2.2) := by
  unfold disaggregateWind
  simp only [h]

/-- **C108.**  A record of numbers and missing values, at any times, with wind speeds at three hours of the day at least: whichever
least-squares solutions two optimisers return (parameters themselves are not unique: `(a, b, t)` and `(-a, b, t + 12)` are the same
function), the disaggregation of any daily data is the same with both. -/
theorem C108_fit_determined (wind : Series (XF ℝ)) (hw : ∀ r ∈ wind, r.2.NanOrFin) (h3 : ThreeHours wind)
    (opt opt' : List (ℝ × Int × ℝ) → Py (ℝ × ℝ × ℝ)) (hopt : ∀ rows p, opt rows = .ok p → IsLeastSquares rows p)
    (hopt' : ∀ rows p, opt' rows = .ok p → IsLeastSquares rows p) {a b t a' b' t' : ℝ}
    (hfit : fitCosineFunction opt wind = .ok (a, b, t)) (hfit' : fitCosineFunction opt' wind = .ok (a', b', t')) :
    b = b' ∧ ∀ (api : PandasApi) (draw : Nat → ℝ) (daily : Series (XF ℝ)),
      disaggregateWind api draw daily "cosine" (some a) (some b) (some t) =
        disaggregateWind api draw daily "cosine" (some a') (some b') (some t') := by
  unfold fitCosineFunction at hfit hfit'
  rw [C108_fit_rows wind hw] at hfit hfit'
  have hs := same_cosine h3 (C108_fitted_values_unique _ (hopt _ _ hfit) (hopt' _ _ hfit'))
  exact ⟨hs.2, fun api draw daily => disaggregateWind_congr (p := (a, b, t)) (q := (a', b', t')) (cosineCell_congr hs.1 hs.2) api draw daily⟩

/-- parameters that reproduce the record are a least-squares solution -/
theorem exact_leastSquares {wind : Series (XF ℝ)} {a b t : ℝ}
    (htrue : ∀ τ y, (τ, XF.fin y) ∈ wind →
      y = a * recordedMean wind (dayOf τ) * Real.cos (Real.pi * ((hourOf τ : ℝ) - t) / 12) + b * recordedMean wind (dayOf τ)) :
    IsLeastSquares (recordedRows wind) (a, b, t) := by
  intro q
  have e : ((recordedRows wind).map fun r => (a * r.1 * Real.cos (Real.pi * ((r.2.1 : ℝ) - t) / 12) + b * r.1 - r.2.2) ^ 2) =
      (recordedRows wind).map fun _ => 0 := by
    apply List.map_congr_left
    intro r hr
    unfold recordedRows at hr
    obtain ⟨x, hx, e⟩ := List.mem_filterMap.1 hr
    rcases x with ⟨τ, c⟩
    cases c with
    | fin y =>
      have e := Option.some.inj e
      subst e
      have := htrue τ y hx
      simp only
      rw [pow_eq_zero_iff two_ne_zero]
      simp only [dayOf, hourOf] at this
      linarith
    | nan => exact absurd e (by simp)
    | ninf => exact absurd e (by simp)
    | pinf => exact absurd e (by simp)
  simp only
  rw [e]
  simp only [List.map_const', List.sum_replicate, smul_zero]
  apply List.sum_nonneg
  intro y hy
  obtain ⟨r, _, rfl⟩ := List.mem_map.1 hy
  exact sq_nonneg _

/-- **C108 (recovery).**  If the recorded wind speeds follow some cosine of the daily means exactly, the fitted parameters disaggregate any
daily data as the true parameters do. -/
theorem C108_recovers (wind : Series (XF ℝ)) (hw : ∀ r ∈ wind, r.2.NanOrFin) (h3 : ThreeHours wind)
    (opt : List (ℝ × Int × ℝ) → Py (ℝ × ℝ × ℝ)) (hopt : ∀ rows p, opt rows = .ok p → IsLeastSquares rows p) {a b t a' b' t' : ℝ}
    (htrue : ∀ τ y, (τ, XF.fin y) ∈ wind →
      y = a * recordedMean wind (dayOf τ) * Real.cos (Real.pi * ((hourOf τ : ℝ) - t) / 12) + b * recordedMean wind (dayOf τ))
    (hfit : fitCosineFunction opt wind = .ok (a', b', t')) :
    b' = b ∧ ∀ (api : PandasApi) (draw : Nat → ℝ) (daily : Series (XF ℝ)),
      disaggregateWind api draw daily "cosine" (some a') (some b') (some t') =
        disaggregateWind api draw daily "cosine" (some a) (some b) (some t) := by
  unfold fitCosineFunction at hfit
  rw [C108_fit_rows wind hw] at hfit
  have hls := exact_leastSquares htrue
  have hs := same_cosine h3 (C108_fitted_values_unique _ (hopt _ _ hfit) hls)
  exact ⟨hs.2, fun api draw daily => disaggregateWind_congr (p := (a', b', t')) (q := (a, b, t)) (cosineCell_congr hs.1 hs.2) api draw daily⟩

/-- **C108 (round trip).**  Daily data (numbers or missing, at least one number other than zero) disaggregated with a cosine that keeps the daily mean
(`b = 1`), the result taken as hourly record and fitted: the fitted parameters disaggregate any daily data as the original ones do. -/
theorem C108_refit (api : PandasApi) (draw : Nat → ℝ) (d0 : Int) (n : Nat) (v : Nat → XF ℝ) (hv : ∀ i < n, (v i).NanOrFin)
    (hne : ∃ i < n, ∃ m : ℝ, v i = .fin m ∧ m ≠ 0) (a t : ℝ)
    (opt : List (ℝ × Int × ℝ) → Py (ℝ × ℝ × ℝ)) (hopt : ∀ rows p, opt rows = .ok p → IsLeastSquares rows p) :
    ∃ l, disaggregateWind api draw (dailyS d0 n v) "cosine" (some a) (some 1) (some t) = .ok (.array l) ∧
      ∀ a' b' t', fitCosineFunction opt (hourlyS d0 n fun i h => l.getD (24 * i + h) .nan) = .ok (a', b', t') →
        b' = 1 ∧ ∀ (api : PandasApi) (draw : Nat → ℝ) (daily : Series (XF ℝ)),
          disaggregateWind api draw daily "cosine" (some a') (some b') (some t') =
            disaggregateWind api draw daily "cosine" (some a) (some 1) (some t) := by
  obtain ⟨j, hj, μ, hμ, hμ0⟩ := hne
  refine ⟨_, wind_cosine api draw d0 n (by omega) v a 1 t, ?_⟩
  intro a' b' t' hfit
  rw [hourlyS_congr (g := fun i h => cosineCell a 1 t (v i) (h : Int))] at hfit
  · have hday : ∀ i < n, dayCells (hourlyS d0 n fun i h => cosineCell a 1 t (v i) (h : Int)) (d0 + (i : Int)) =
        day24 fun h => cosineCell a 1 t (v i) (h : Int) := fun i hi => dayCells_hourlyS d0 _ hi
    have hmean : ∀ i < n, ∀ m, v i = .fin m →
        recordedMean (hourlyS d0 n fun i h => cosineCell a 1 t (v i) (h : Int)) (d0 + (i : Int)) = m := by
      intro i hi m hm
      unfold recordedMean
      rw [hday i hi, hm]
      simp only [cosineCell_fin]
      rw [numbers_day24, day24_length, sum_day24_add, sum_day24_mul, cos_day_sum, sum_day24_const]
      push_cast
      ring
    have hcell : ∀ τ y, (τ, XF.fin y) ∈ (hourlyS d0 n fun i h => cosineCell a 1 t (v i) (h : Int)) →
        ∃ i < n, ∃ h < 24, ∃ m, v i = .fin m ∧ τ = atHour (d0 + (i : Int)) h ∧
          y = a * m * Real.cos (Real.pi * ((h : ℝ) - t) / 12) + 1 * m := by
      intro τ y hy
      unfold hourlyS at hy
      obtain ⟨k, hk, e⟩ := List.mem_map.1 hy
      have hk := List.mem_range.1 hk
      obtain ⟨e1, e2⟩ := Prod.mk.inj e
      have hi : k / 24 < n := by omega
      have := hv _ hi
      rcases hvi : v (k / 24) with _ | _ | m | _
      · simp [cosineCell, hvi] at e2
      · rw [hvi] at this; exact absurd this (by simp [XF.NanOrFin])
      · refine ⟨k / 24, hi, k % 24, by omega, m, hvi, e1.symm, ?_⟩
        simp only [hvi] at e2
        rw [cosineCell_fin] at e2
        exact (XF.fin.inj e2).symm
      · rw [hvi] at this; exact absurd this (by simp [XF.NanOrFin])
    refine C108_recovers _ ?_ ?_ opt hopt ?_ hfit
    · intro r hr
      unfold hourlyS at hr
      obtain ⟨k, hk, rfl⟩ := List.mem_map.1 hr
      have hk := List.mem_range.1 hk
      have := hv (k / 24) (by omega)
      rcases hvi : v (k / 24) with _ | _ | m | _
      · simp [cosineCell, hvi, XF.NanOrFin]
      · rw [hvi] at this; exact absurd this (by simp [XF.NanOrFin])
      · simp only [hvi]; rw [cosineCell_fin]; trivial
      · rw [hvi] at this; exact absurd this (by simp [XF.NanOrFin])
    · refine ⟨atHour (d0 + (j : Int)) 0, atHour (d0 + (j : Int)) 1, atHour (d0 + (j : Int)) 2, ?_, ?_⟩
      · rw [hourOf_atHour _ (by omega), hourOf_atHour _ (by omega), hourOf_atHour _ (by omega)]
        omega
      · have : ∀ h : Nat, h < 24 → (∃ y : ℝ, (atHour (d0 + (j : Int)) h, XF.fin y) ∈
            (hourlyS d0 n fun i h => cosineCell a 1 t (v i) (h : Int))) ∧
            recordedMean (hourlyS d0 n fun i h => cosineCell a 1 t (v i) (h : Int)) (dayOf (atHour (d0 + (j : Int)) h)) ≠ 0 := by
          intro h hh
          refine ⟨⟨a * μ * Real.cos (Real.pi * ((h : ℝ) - t) / 12) + 1 * μ, ?_⟩, ?_⟩
          · unfold hourlyS
            rw [List.mem_map]
            refine ⟨24 * j + h, List.mem_range.2 (by omega), ?_⟩
            rw [show (24 * j + h) / 24 = j by omega, show (24 * j + h) % 24 = h by omega]
            simp only [hμ, cosineCell_fin]
          · rw [dayOf_atHour _ hh, hmean j hj μ hμ]
            exact hμ0
        rintro τ (rfl | rfl | rfl)
        · exact this 0 (by omega)
        · exact this 1 (by omega)
        · exact this 2 (by omega)
    · intro τ y hy
      obtain ⟨i, hi, h, hh, m, hm, rfl, rfl⟩ := hcell τ y hy
      rw [dayOf_atHour _ hh, hourOf_atHour _ hh, hmean i hi m hm]
      push_cast
      rfl
  · intro i hi h hh
    rw [hourlyS_values, List.getD_eq_getElem?_getD, List.getElem?_map, List.getElem?_range (by omega)]
    simp only [Option.map_some, Option.getD_some]
    rw [show (24 * i + h) / 24 = i by omega, show (24 * i + h) % 24 = h by omega]

/-- C108: a record of two days at odd times with a missing value, read as two times three rows; the mean is that of the recorded values. -/
example : recordedRows [(0, .fin 1), (3600000000, .fin 2), (7260000000, .fin 6), (10800000000, .nan), (86400000000, .fin 5)] =
    [(3, 0, 1), (3, 1, 2), (3, 2, 6), (5, 0, 5)] := by
  norm_num [recordedRows, recordedMean, dayCells, numbers, List.filterMap_cons, List.filter_cons]

/-- C108: this record has three hours; so the fit is determined. -/
example : ThreeHours [(0, .fin 1), (3600000000, .fin 2), (7260000000, .fin 6), (10800000000, .nan), (86400000000, .fin 5)] := by
  refine ⟨0, 3600000000, 7260000000, by decide, ?_⟩
  rintro t (rfl | rfl | rfl)
  · exact ⟨⟨1, by simp⟩, by norm_num [recordedMean, dayCells, numbers, dayOf, List.filterMap_cons, List.filter_cons]⟩
  · exact ⟨⟨2, by simp⟩, by norm_num [recordedMean, dayCells, numbers, dayOf, List.filterMap_cons, List.filter_cons]⟩
  · exact ⟨⟨6, by simp⟩, by norm_num [recordedMean, dayCells, numbers, dayOf, List.filterMap_cons, List.filter_cons]⟩

/-- C108: there is such an optimiser, and it finds the parameters of a record that follows a cosine (6 m/s at 0 h, 3 m/s at 6 h, calm at 12 h). -/
example : ∃ opt : List (ℝ × Int × ℝ) → Py (ℝ × ℝ × ℝ), (∀ rows p, opt rows = .ok p → IsLeastSquares rows p) ∧
    fitCosineFunction opt [(0, .fin 6), (6 * 3600000000, .fin 3), (9 * 3600000000, .nan), (12 * 3600000000, .fin 0)] = .ok (1, 1, 0) := by
  classical
  refine ⟨fun rows => if IsLeastSquares rows (1, 1, 0) then .ok (1, 1, 0) else .error .valueError, ?_, ?_⟩
  · intro rows p h
    dsimp only at h
    by_cases h1 : IsLeastSquares rows (1, 1, 0)
    · rw [if_pos h1] at h
      exact Except.ok.inj h ▸ h1
    · rw [if_neg h1] at h
      exact absurd h (by simp)
  · unfold fitCosineFunction
    rw [C108_fit_rows _ (by simp [XF.NanOrFin]), py_ok_bind]
    refine if_pos ?_
    apply exact_leastSquares
    have hm : recordedMean [(0, .fin 6), (6 * 3600000000, .fin 3), (9 * 3600000000, .nan), (12 * 3600000000, .fin 0)] 0 = 3 := by
      norm_num [recordedMean, dayCells, numbers, List.filterMap_cons, List.filter_cons]
    have h : Real.cos (Real.pi * 6 / 12) = 0 := by rw [show Real.pi * 6 / 12 = Real.pi / 2 by ring]; simp
    intro τ y hy
    simp only [List.mem_cons, Prod.mk.injEq, List.not_mem_nil, or_false, XF.fin.injEq, reduceCtorEq, and_false, false_or] at hy
    rcases hy with ⟨rfl, rfl⟩ | ⟨rfl, rfl⟩ | ⟨rfl, rfl⟩
    · rw [show dayOf 0 = 0 from rfl, show hourOf 0 = 0 from rfl, hm]
      norm_num
    · rw [show dayOf (6 * 3600000000) = 0 by decide, show hourOf (6 * 3600000000) = 6 by decide, hm]
      simp only [Int.cast_ofNat, sub_zero, h]
      norm_num
    · rw [show dayOf (12 * 3600000000) = 0 by decide, show hourOf (12 * 3600000000) = 12 by decide, hm]
      simp only [Int.cast_ofNat, sub_zero]
      rw [mul_div_assoc]
      norm_num

/-- C108: the two parameter sets `(1, 1, 0)` and `(-1, 1, 12)` are the same function: both are least-squares solutions for the rows of that function. -/
example : IsLeastSquares [(3, 0, 6), (3, 6, 3), (3, 12, 0)] (1, 1, 0) ∧ IsLeastSquares [(3, 0, 6), (3, 6, 3), (3, 12, 0)] (-1, 1, 12) := by
  have h : Real.cos (Real.pi * 6 / 12) = 0 := by rw [show Real.pi * 6 / 12 = Real.pi / 2 by ring]; simp
  have h' : Real.cos (Real.pi * (6 - 12) / 12) = 0 := by rw [show Real.pi * (6 - 12) / 12 = -(Real.pi / 2) by ring]; simp
  have h'' : Real.cos (Real.pi * (0 - 12) / 12) = -1 := by rw [show Real.pi * (0 - 12) / 12 = -Real.pi by ring]; simp
  constructor
  · intro q
    refine le_trans (le_of_eq ?_) (List.sum_nonneg ?_)
    · simp only [List.map_cons, List.map_nil, List.sum_cons, List.sum_nil, Int.cast_ofNat, sub_zero, h, Int.cast_zero]
      norm_num
    · intro y hy
      obtain ⟨r, _, rfl⟩ := List.mem_map.1 hy
      exact sq_nonneg _
  · intro q
    refine le_trans (le_of_eq ?_) (List.sum_nonneg ?_)
    · simp only [List.map_cons, List.map_nil, List.sum_cons, List.sum_nil, Int.cast_ofNat, h', h'', Int.cast_zero]
      norm_num
    · intro y hy
      obtain ⟨r, _, rfl⟩ := List.mem_map.1 hy
      exact sq_nonneg _

end Melodist
