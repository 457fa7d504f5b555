import Verif.Props.RefitDew

/-!
# C178: humidity from a calibrated dew point regression keeps the mean of the observed dew points
-/

set_option linter.unusedSectionVars false

namespace Melodist
open Spec

noncomputable section

/-- residuals whose sum of squares does not fall in the direction `w` or `-w` are orthogonal to `w` -/
theorem residuals_orthogonal {α : Type} {ds : List α} {r w : α → ℝ} (h : ∀ t : ℝ, (ds.map fun d => r d ^ 2).sum ≤ (ds.map fun d => (r d + t * w d) ^ 2).sum) :
    (ds.map fun d => w d * r d).sum = 0 := by
  have hC : 0 ≤ (ds.map fun d => w d ^ 2).sum := List.sum_nonneg (by
    intro x hx
    obtain ⟨d, _, rfl⟩ := List.mem_map.1 hx
    positivity)
  have e : ∀ t : ℝ, (ds.map fun d => (r d + t * w d) ^ 2).sum = (ds.map fun d => r d ^ 2).sum + 2 * t * (ds.map fun d => w d * r d).sum + t ^ 2 * (ds.map fun d => w d ^ 2).sum := by
    intro t
    rw [← List.sum_map_mul_left, ← List.sum_map_mul_left, ← List.sum_map_add, ← List.sum_map_add]
    congr 1
    apply List.map_congr_left
    intro d _
    ring
  generalize (ds.map fun d => w d ^ 2).sum = C at *
  generalize (ds.map fun d => w d * r d).sum = B at *
  have := h (-B / (C + 1))
  rw [e] at this
  have hp : 0 < C + 1 := by linarith
  have h2 : 2 * (-B / (C + 1)) * B + (-B / (C + 1)) ^ 2 * C = -(B ^ 2 * (C + 2)) / (C + 1) ^ 2 := by
    field_simp
    ring
  have h3 : 0 ≤ -(B ^ 2 * (C + 2)) / (C + 1) ^ 2 := by linarith
  have h4 : 0 ≤ -(B ^ 2 * (C + 2)) := by
    by_contra hlt
    exact absurd h3 (not_le.2 (div_neg_of_neg_of_pos (not_le.1 hlt) (by positivity)))
  have h5 : B ^ 2 ≤ 0 := by
    by_contra hlt
    have := mul_pos (not_le.1 hlt) (by linarith : 0 < C + 2)
    linarith
  exact pow_eq_zero_iff (two_ne_zero) |>.1 (le_antisymm h5 (sq_nonneg B))

/-- the dew points of a day of a complete record, in the order of the hours -/
theorem dewOn_day24 (d0 : Int) {n : Nat} (T H : Nat → Nat → ℝ) {i : Nat} (hi : i < n) :
    dewOn (hourlyS d0 n fun i h => .fin (T i h)) (hourlyS d0 n fun i h => .fin (H i h)) (d0 + i) = day24 fun h => dewPoint (T i h) (H i h) := by
  rw [← dayCells_hourlyS d0 (fun i h => dewPoint (T i h) (H i h)) hi]
  unfold dewOn dayCells hourlyS
  rw [List.zip_map', List.filterMap_map, ← List.filterMap_eq_filter, List.map_filterMap, List.filterMap_map]
  apply List.filterMap_congr
  intro k _
  by_cases e : atHour (d0 + (k / 24 : Nat)) (k % 24) / 86400000000 = d0 + (i : Int)
  · simp [e, Option.guard]
  · simp [e, Option.guard]

/-- **C178** The dew point regression is fitted to a complete hourly record of `n` days (temperatures `T` above 0.53 K with the daily minima `m`, two of them different; humidities `H` in (0, 100]).  The result
(a1, a0) exists, and the dew points a0 + a1 m of the days have the same sum as the observed daily means, and the same sum of products with the minima.  If the same days are disaggregated by 'dewpoint_regression' with these parameters and the observed temperatures, and on every day the dew point a0 + a1 m is above 0.53 K, not above the minimum
and on the same side of the freezing point as all temperatures of the day, then the hourly dew points of the result have the same sum over all hours as the observed ones, and the same sum of products with the
daily minima. -/
theorem C178_dew_totals {d0 : Int} {n : Nat} {m : Nat → ℝ} {T H : Nat → Nat → ℝ} {obs : Frame ℝ} (hwf : obs.WF) (h1 : obs.col? "temp" = some (hourlyS d0 n fun i h => .fin (T i h)))
    (h2 : obs.col? "hum" = some (hourlyS d0 n fun i h => .fin (H i h))) (hm : ∀ i < n, (∃ h < 24, T i h = m i) ∧ ∀ h < 24, m i ≤ T i h) (hT : ∀ i < n, 0.53 < m i)
    (hH : ∀ i < n, ∀ h < 24, 0 < H i h ∧ H i h ≤ 100) (hvar : ∃ i < n, ∃ j < n, m i ≠ m j) :
    ∃ a1 a0, dewpointRegression obs = .ok (.fin a1, .fin a0) ∧
      ((List.range n).map fun i => a0 + a1 * m i).sum = ((List.range n).map fun i => (day24 fun h => dewPoint (T i h) (H i h)).sum / 24).sum ∧
      ((List.range n).map fun i => m i * (a0 + a1 * m i)).sum = ((List.range n).map fun i => m i * ((day24 fun h => dewPoint (T i h) (H i h)).sum / 24)).sum ∧
      ∀ {api : PandasApi} {daily : Frame ℝ} {kr : Option ℝ} {table : Option (CatMeans ℝ)}, daily.col? "tmin" = some (dailyS d0 n fun i => .fin (m i)) →
        (∀ i < n, 0.53 < a0 + a1 * m i ∧ a0 + a1 * m i ≤ m i) → (∀ i < n, ∀ h < 24, 273.15 ≤ T i h ↔ 273.15 ≤ a0 + a1 * m i) →
        ∃ R : Nat → Nat → ℝ, disaggregateHumidity api daily "dewpoint_regression" (some (hourlyS d0 n fun i h => .fin (T i h))) (some a0) (some a1) kr table = .ok (hourlyS d0 n fun i h => .fin (R i h)) ∧
          ((List.range n).map fun i => (day24 fun h => dewPoint (T i h) (R i h)).sum).sum = ((List.range n).map fun i => (day24 fun h => dewPoint (T i h) (H i h)).sum).sum ∧
          ((List.range n).map fun i => m i * (day24 fun h => dewPoint (T i h) (R i h)).sum).sum = ((List.range n).map fun i => m i * (day24 fun h => dewPoint (T i h) (H i h)).sum).sum := by
  have tn' : ∀ i : Nat, (d0 + (i : Int) - d0).toNat = i := fun i => by omega
  have mem : ∀ d ∈ recordDays d0 n, ∃ i < n, d = d0 + (i : Nat) := by
    intro d hd
    obtain ⟨i, hi, rfl⟩ := List.mem_map.1 hd
    exact ⟨i, List.mem_range.1 hi, rfl⟩
  have hn : 0 < n := by obtain ⟨i, hi, _⟩ := hvar; omega
  let D : Nat → ℝ := fun i => (day24 fun h => dewPoint (T i h) (H i h)).sum
  obtain ⟨a1, a0, hr, hb⟩ := C79_dewpoint_regression obs hwf _ _ h1 h2
    (by
      intro r hr
      obtain ⟨i, hi, h, hh, rfl⟩ := mem_hourlyS_val hr
      exact .inr ⟨_, rfl, (hT i hi).trans_le ((hm i hi).2 h hh)⟩)
    (by
      intro r hr
      obtain ⟨i, hi, h, hh, rfl⟩ := mem_hourlyS_val hr
      exact .inr ⟨_, rfl, hH i hi h hh⟩)
    (recordDays d0 n) ((recordDays_sorted d0 n).imp fun h => h.ne) (fun d => dewOn_hourlyS.1.symm) (fun d => m (d - d0).toNat) (fun d => D (d - d0).toNat / 24)
    (by
      intro d hd'
      obtain ⟨i, hi, rfl⟩ := mem d hd'
      rw [tn', dayCells_hourlyS d0 _ hi, numbers_day24]
      obtain ⟨⟨h, hh, e⟩, hle⟩ := hm i hi
      refine ⟨List.mem_map.2 ⟨h, List.mem_range.2 hh, e⟩, ?_⟩
      intro y hy
      obtain ⟨k, hk, rfl⟩ := List.mem_map.1 hy
      exact hle k (List.mem_range.1 hk))
    (by
      intro d hd'
      obtain ⟨i, hi, rfl⟩ := mem d hd'
      rw [tn', dewOn_day24 d0 T H hi]
      simp [D, day24])
    (by
      obtain ⟨i, hi, j, hj, e⟩ := hvar
      refine ⟨d0 + (i : Nat), List.mem_map.2 ⟨i, List.mem_range.2 hi, rfl⟩, d0 + (j : Nat), List.mem_map.2 ⟨j, List.mem_range.2 hj, rfl⟩, ?_⟩
      rw [tn', tn']
      exact e)
  have hb' : ∀ s c : ℝ, ((List.range n).map fun i => (a1 * m i + a0 - D i / 24) ^ 2).sum ≤ ((List.range n).map fun i => (s * m i + c - D i / 24) ^ 2).sum := by
    intro s c
    have := (hb s c).1
    unfold recordDays at this
    rw [List.map_map, List.map_map] at this
    simpa only [Function.comp_def, tn'] using this
  have n1 := residuals_orthogonal (w := fun _ => 1) fun t => (hb' a1 (a0 + t)).trans (le_of_eq (by congr 1; apply List.map_congr_left; intro i _; ring))
  have n2 := residuals_orthogonal (w := m) fun t => (hb' (a1 + t) a0).trans (le_of_eq (by congr 1; apply List.map_congr_left; intro i _; ring))
  have close : ∀ w : Nat → ℝ, ((List.range n).map fun i => w i * (a1 * m i + a0 - D i / 24)).sum = 0 →
      ((List.range n).map fun i => w i * (a0 + a1 * m i)).sum = ((List.range n).map fun i => w i * (D i / 24)).sum := by
    intro w hw
    have e : ((List.range n).map fun i => w i * (a0 + a1 * m i)) = (List.range n).map fun i => w i * (a1 * m i + a0 - D i / 24) + w i * (D i / 24) := by
      apply List.map_congr_left
      intro i _
      ring
    rw [e, List.sum_map_add, hw, zero_add]
  refine ⟨a1, a0, hr, by simpa only [one_mul] using close (fun _ => 1) n1, close m n2, ?_⟩
  intro api daily kr table htmin hd hside
  have td_le : ∀ i < n, ∀ h < 24, a0 + a1 * m i ≤ T i h := fun i hi h hh => (hd i hi).2.trans ((hm i hi).2 h hh)
  have hout := (hum_finish (raw_regression api daily a0 a1 kr table d0 n hn (fun i => .fin (m i)) (fun i h => .fin (T i h)) htmin)).1
  have heq : (hourlyS d0 n fun i h => (rhCell (.fin a0 + .fin a1 * .fin (m i)) (.fin (T i h))).clip 0 100) = hourlyS d0 n fun i h => .fin (relHum (a0 + a1 * m i) (T i h)) := by
    apply hourlyS_congr
    intro i hi h hh
    rw [XF.fin_mul_fin, XF.fin_add_fin, rhCell_fin (hd i hi).1 ((hd i hi).1.trans_le (td_le i hi h hh))]
  rw [heq] at hout
  refine ⟨_, hout, ?_⟩
  have hR : ∀ i < n, (day24 fun h => dewPoint (T i h) (relHum (a0 + a1 * m i) (T i h))).sum = 24 * (a0 + a1 * m i) := by
    intro i hi
    rw [day24_congr (g := fun _ => a0 + a1 * m i) fun h hh => dewPoint_relHum (hd i hi).1 (td_le i hi h hh) (hside i hi h hh)]
    simp only [day24, List.map_const', List.length_range, List.sum_replicate, nsmul_eq_mul, Nat.cast_ofNat]
  have key : ∀ w : Nat → ℝ, ((List.range n).map fun i => w i * (a1 * m i + a0 - D i / 24)).sum = 0 →
      ((List.range n).map fun i => w i * (day24 fun h => dewPoint (T i h) (relHum (a0 + a1 * m i) (T i h))).sum).sum = ((List.range n).map fun i => w i * D i).sum := by
    intro w hw
    have e : ((List.range n).map fun i => w i * (day24 fun h => dewPoint (T i h) (relHum (a0 + a1 * m i) (T i h))).sum) =
        (List.range n).map fun i => 24 * (w i * (a1 * m i + a0 - D i / 24)) + w i * D i := by
      apply List.map_congr_left
      intro i hi
      rw [hR i (List.mem_range.1 hi)]
      ring
    rw [e, List.sum_map_add, List.sum_map_mul_left, hw, mul_zero, zero_add]
  exact ⟨by simpa only [one_mul] using key (fun _ => 1) n1, key m n2⟩

/-- observed dew points of three days with the minima 285 K, 290 K and 295 K -/
def threeDew (i : Nat) : ℝ := if i = 1 then 284 else 280 + 5 * i

/-- Three days with the minima 285 K, 290 K, 295 K and dew points 280 K, 284 K, 290 K, which do not lie on a line: the regression is -16/3 + 1 tmin, and humidity disaggregated with it has the same sum of dew points. -/
example : ∃ R : Nat → Nat → ℝ,
    dewpointRegression (tempHum 0 3 (fun i h => .fin (285 + 5 * i + h)) fun i h => .fin (relHum (threeDew i) (285 + 5 * i + h))) = .ok (.fin 1, .fin (-16 / 3)) ∧
    disaggregateHumidity .modern ⟨[at00 0, at00 1, at00 2], [("tmin", [.fin 285, .fin 290, .fin 295])]⟩ "dewpoint_regression" (some (hourlyS 0 3 fun i h => .fin (285 + 5 * i + h))) (some (-16 / 3)) (some 1) =
      .ok (hourlyS 0 3 fun i h => .fin (R i h)) ∧
    ((List.range 3).map fun i : Nat => (day24 fun h : Nat => dewPoint (285 + 5 * i + h) (R i h)).sum).sum = 24 * (280 + 284 + 290) := by
  have three : ∀ {i : Nat}, i < 3 → i = 0 ∨ i = 1 ∨ i = 2 := by omega
  have htmin : (⟨[at00 0, at00 1, at00 2], [("tmin", [.fin 285, .fin 290, .fin 295])]⟩ : Frame ℝ).col? "tmin" = some (dailyS 0 3 fun i => .fin (285 + 5 * i)) := by
    show some [(at00 0, XF.fin 285), (at00 1, .fin 290), (at00 2, .fin 295)] = _
    norm_num [dailyS, List.range_succ]
  have hD : ∀ i : Nat, i < 3 → 273.15 ≤ threeDew i ∧ threeDew i < 285 + 5 * (i : ℝ) := by
    intro i hi
    rcases three hi with rfl | rfl | rfl <;> norm_num [threeDew]
  have hlt : ∀ i : Nat, i < 3 → ∀ h : Nat, threeDew i < 285 + 5 * (i : ℝ) + h := fun i hi h => (hD i hi).2.trans_le (by have : (0 : ℝ) ≤ h := Nat.cast_nonneg h; linarith)
  have hsum : ∀ i : Nat, i < 3 → (day24 fun h => dewPoint (285 + 5 * (i : ℝ) + h) (relHum (threeDew i) (285 + 5 * i + h))).sum = 24 * threeDew i := by
    intro i hi
    rw [day24_congr (g := fun _ => threeDew i) fun h _ => dewPoint_relHum (by have := (hD i hi).1; norm_num at this ⊢; linarith) (hlt i hi h).le
      (iff_of_true ((hD i hi).1.trans (hlt i hi h).le) (hD i hi).1)]
    simp only [day24, List.map_const', List.length_range, List.sum_replicate, nsmul_eq_mul, Nat.cast_ofNat]
  obtain ⟨w, c1, c2⟩ := tempHum_cols 0 3 (fun i h => .fin (285 + 5 * i + h)) fun i h => .fin (relHum (threeDew i) (285 + 5 * i + h))
  obtain ⟨a1, a0, hr, s1, s2, H⟩ := C178_dew_totals w c1 c2 (m := fun i => 285 + 5 * i) (fun i _ => ⟨⟨0, by norm_num, by norm_num⟩, fun h _ => by have : (0 : ℝ) ≤ h := Nat.cast_nonneg h; linarith⟩)
    (fun i _ => by have : (0 : ℝ) ≤ i := Nat.cast_nonneg i; norm_num; linarith)
    (fun i hi h _ => by
      have := relHum_between (td := threeDew i) (by have := (hD i hi).1; norm_num at this ⊢; linarith) (hlt i hi h)
      exact ⟨this.1, this.2.le⟩)
    ⟨0, by norm_num, 1, by norm_num, by norm_num⟩
  have q0 := hsum 0 (by norm_num)
  have q1 := hsum 1 (by norm_num)
  have q2 := hsum 2 (by norm_num)
  simp only [List.range_succ, List.range_zero, List.nil_append, List.cons_append, List.map_cons, List.map_nil, List.sum_cons, List.sum_nil, q0, q1, q2] at s1 s2
  norm_num [threeDew] at s1 s2
  have e1 : a1 = 1 := by linarith
  have e0 : a0 = -16 / 3 := by linarith
  subst e1 e0
  obtain ⟨R, hR, t1, _⟩ := H (api := .modern) (kr := none) (table := none) htmin (fun i hi => by rcases three hi with rfl | rfl | rfl <;> norm_num)
    (fun i hi h _ => by
      have : (0 : ℝ) ≤ h := Nat.cast_nonneg h
      refine iff_of_true ?_ ?_ <;> rcases three hi with rfl | rfl | rfl <;> norm_num <;> linarith)
  refine ⟨R, hr, hR, t1.trans ?_⟩
  simp only [List.range_succ, List.range_zero, List.nil_append, List.cons_append, List.map_cons, List.map_nil, List.sum_cons, List.sum_nil, q0, q1, q2]
  norm_num [threeDew]

end

end Melodist
