import Verif.Props.BcTotal
import Verif.Props.HumidityStats
import Verif.Lemmas.Refit

/-!
# C176: the dew point regression fitted to the package's own humidity gives its parameters back
-/

set_option linter.unusedSectionVars false

namespace Melodist
open Spec

noncomputable section

/-- the dew point of the humidity computed from a dew point is this dew point, if temperature and dew point lie on the same side of the freezing point -/
theorem dewPoint_relHum {td T : ℝ} (h1 : 0.53 < td) (h : td ≤ T) (hside : 273.15 ≤ T ↔ 273.15 ≤ td) : dewPoint T (relHum td T) = td := by
  have p1 := satPressure_pos td
  have p2 := satPressure_pos T
  have hle : satPressure td ≤ satPressure T := by
    rcases h.lt_or_eq with h | h
    · exact (satPressure_lt h1 h).le
    · rw [h]
  have e : relHum td T = 100 * satPressure td / satPressure T := by
    unfold relHum
    rw [max_eq_left (by positivity), min_eq_left]
    rw [div_le_iff₀ p2]
    linarith
  unfold dewPoint
  rw [e, show satPressure T * (100 * satPressure td / satPressure T) / 100 / 6.112 = satPressure td / 6.112 by field_simp]
  dsimp only
  unfold satPressure
  by_cases hw : 273.15 ≤ td
  · rw [if_pos hw, if_pos (hside.2 hw), mul_div_cancel_left₀ _ (by norm_num), Real.log_exp]
    have : 243.12 + (td - 273.15) ≠ 0 := by
      have : 0 < 243.12 + (td - 273.15) := by norm_num at hw ⊢; linarith
      exact this.ne'
    have h3 : 17.62 - 17.62 * (td - 273.15) / (243.12 + (td - 273.15)) ≠ 0 := by
      rw [show 17.62 - 17.62 * (td - 273.15) / (243.12 + (td - 273.15)) = 17.62 * 243.12 / (243.12 + (td - 273.15)) by field_simp; ring]
      positivity
    rw [← sub_eq_zero]
    field_simp
    ring
  · rw [if_neg hw, if_neg (fun h => hw (hside.1 h)), mul_div_cancel_left₀ _ (by norm_num), Real.log_exp]
    have h2 : 0 < 272.62 + (td - 273.15) := by norm_num at h1 ⊢; linarith
    have h3 : 22.46 - 22.46 * (td - 273.15) / (272.62 + (td - 273.15)) ≠ 0 := by
      rw [show 22.46 - 22.46 * (td - 273.15) / (272.62 + (td - 273.15)) = 22.46 * 272.62 / (272.62 + (td - 273.15)) by field_simp; ring]
      positivity
    rw [← sub_eq_zero]
    field_simp
    ring

/-- the dew points of a day of a complete record -/
theorem dewOn_hourlyS {d0 : Int} {n : Nat} {T H : Nat → Nat → ℝ} {d : Int} :
    (dewOn (hourlyS d0 n fun i h => .fin (T i h)) (hourlyS d0 n fun i h => .fin (H i h)) d ≠ [] ↔ d ∈ recordDays d0 n) ∧
    ∀ x ∈ dewOn (hourlyS d0 n fun i h => .fin (T i h)) (hourlyS d0 n fun i h => .fin (H i h)) d, ∃ i < n, d = d0 + (i : Nat) ∧ ∃ h < 24, x = dewPoint (T i h) (H i h) := by
  have hz : List.zip (hourlyS d0 n fun i h => XF.fin (T i h)) (hourlyS d0 n fun i h => XF.fin (H i h)) =
      (List.range (24 * n)).map fun k => ((atHour (d0 + (k / 24 : Nat)) (k % 24), .fin (T (k / 24) (k % 24))), (atHour (d0 + (k / 24 : Nat)) (k % 24), .fin (H (k / 24) (k % 24)))) := by
    unfold hourlyS
    rw [List.zip_map', ]
  have hd : ∀ k : Nat, atHour (d0 + (k / 24 : Nat)) (k % 24) / 86400000000 = d0 + (k / 24 : Nat) := by
    intro k
    unfold atHour
    omega
  have hm : ∀ x, x ∈ dewOn (hourlyS d0 n fun i h => .fin (T i h)) (hourlyS d0 n fun i h => .fin (H i h)) d ↔
      ∃ k < 24 * n, d0 + ((k / 24 : Nat) : Int) = d ∧ x = dewPoint (T (k / 24) (k % 24)) (H (k / 24) (k % 24)) := by
    intro x
    unfold dewOn
    rw [hz, List.mem_filterMap]
    constructor
    · rintro ⟨rq, hr, hx⟩
      obtain ⟨k, hk, rfl⟩ := List.mem_map.1 hr
      dsimp only at hx
      rw [hd] at hx
      split at hx
      · rename_i e
        exact ⟨k, List.mem_range.1 hk, e, (Option.some.inj hx).symm⟩
      · cases hx
    · rintro ⟨k, hk, e, rfl⟩
      refine ⟨_, List.mem_map.2 ⟨k, List.mem_range.2 hk, rfl⟩, ?_⟩
      dsimp only
      rw [hd, if_pos e]
  constructor
  · constructor
    · intro hne
      obtain ⟨x, hx⟩ := List.exists_mem_of_ne_nil _ hne
      obtain ⟨k, hk, e, _⟩ := (hm x).1 hx
      exact List.mem_map.2 ⟨k / 24, List.mem_range.2 (by omega), e⟩
    · intro h
      obtain ⟨i, hi, rfl⟩ := List.mem_map.1 h
      have hi := List.mem_range.1 hi
      exact List.ne_nil_of_mem ((hm _).2 ⟨24 * i, by omega, by rw [Nat.mul_div_cancel_left _ (by norm_num)], rfl⟩)
  · intro x hx
    obtain ⟨k, hk, e, rfl⟩ := (hm x).1 hx
    exact ⟨k / 24, by omega, e.symm, k % 24, by omega, rfl⟩

/-- **C176** Humidity is disaggregated by 'dewpoint_regression' with the parameters a0, a1 for `n` days with the minima `m` and the hourly temperatures `T`, whose daily minima are `m`.  If no day has a dew point
a0 + a1 m above the minimum, the temperatures of a day and its dew point lie on the same side of the freezing point, and two minima differ, then calculate_dewpoint_regression on the table of these temperatures
and humidities returns exactly (a1, a0). -/
theorem C176_recovers {api : PandasApi} {daily : Frame ℝ} {d0 : Int} {n : Nat} (hn : 0 < n) {m : Nat → ℝ} {T : Nat → Nat → ℝ} (htmin : daily.col? "tmin" = some (dailyS d0 n fun i => .fin (m i)))
    (hm : ∀ i < n, (∃ h < 24, T i h = m i) ∧ ∀ h < 24, m i ≤ T i h) {a0 a1 : ℝ} (hd : ∀ i < n, 0.53 < a0 + a1 * m i ∧ a0 + a1 * m i ≤ m i)
    (hside : ∀ i < n, ∀ h < 24, 273.15 ≤ T i h ↔ 273.15 ≤ a0 + a1 * m i) (hvar : ∃ i < n, ∃ j < n, m i ≠ m j) {kr : Option ℝ} {table : Option (CatMeans ℝ)} :
    ∃ out, disaggregateHumidity api daily "dewpoint_regression" (some (hourlyS d0 n fun i h => .fin (T i h))) (some a0) (some a1) kr table = .ok out ∧
      ∀ obs : Frame ℝ, obs.WF → obs.col? "temp" = some (hourlyS d0 n fun i h => .fin (T i h)) → obs.col? "hum" = some out → dewpointRegression obs = .ok (.fin a1, .fin a0) := by
  have td_le : ∀ i < n, ∀ h < 24, a0 + a1 * m i ≤ T i h := fun i hi h hh => (hd i hi).2.trans ((hm i hi).2 h hh)
  have hout := (hum_finish (raw_regression api daily a0 a1 kr table d0 n hn (fun i => .fin (m i)) (fun i h => .fin (T i h)) htmin)).1
  have heq : (hourlyS d0 n fun i h => (rhCell (.fin a0 + .fin a1 * .fin (m i)) (.fin (T i h))).clip 0 100) = hourlyS d0 n fun i h => .fin (relHum (a0 + a1 * m i) (T i h)) := by
    apply hourlyS_congr
    intro i hi h hh
    rw [XF.fin_mul_fin, XF.fin_add_fin, rhCell_fin (hd i hi).1 ((hd i hi).1.trans_le (td_le i hi h hh))]
  rw [heq] at hout
  refine ⟨_, hout, ?_⟩
  intro obs hwf h1 h2
  have tn' : ∀ i : Nat, (d0 + (i : Int) - d0).toNat = i := fun i => by omega
  have mem : ∀ d ∈ recordDays d0 n, ∃ i < n, d = d0 + (i : Nat) := by
    intro d hd
    obtain ⟨i, hi, rfl⟩ := List.mem_map.1 hd
    exact ⟨i, List.mem_range.1 hi, rfl⟩
  have hrange : ∀ i < n, ∀ h < 24, 0 < relHum (a0 + a1 * m i) (T i h) ∧ relHum (a0 + a1 * m i) (T i h) ≤ 100 := by
    intro i hi h hh
    rcases (td_le i hi h hh).lt_or_eq with e | e
    · exact ⟨(relHum_between (hd i hi).1 e).1, (relHum_between (hd i hi).1 e).2.le⟩
    · rw [e, relHum_self]
      norm_num
  obtain ⟨b1, b0, hr, hb⟩ := C79_dewpoint_regression obs hwf _ _ h1 h2
    (by
      intro r hr
      obtain ⟨i, hi, h, hh, rfl⟩ := mem_hourlyS_val hr
      exact .inr ⟨_, rfl, (hd i hi).1.trans_le (td_le i hi h hh)⟩)
    (by
      intro r hr
      obtain ⟨i, hi, h, hh, rfl⟩ := mem_hourlyS_val hr
      exact .inr ⟨_, rfl, hrange i hi h hh⟩)
    (recordDays d0 n) ((recordDays_sorted d0 n).imp fun h => h.ne) (fun d => dewOn_hourlyS.1.symm) (fun d => m (d - d0).toNat) (fun d => a0 + a1 * m (d - d0).toNat)
    (by
      intro d hd'
      obtain ⟨i, hi, rfl⟩ := mem d hd'
      rw [tn', dayCells_hourlyS d0 _ hi, numbers_day24]
      obtain ⟨⟨h, hh, e⟩, hle⟩ := hm i hi
      refine ⟨List.mem_map.2 ⟨h, List.mem_range.2 hh, e⟩, ?_⟩
      intro y hy
      obtain ⟨k, hk, rfl⟩ := List.mem_map.1 hy
      exact hle k (List.mem_range.1 hk))
    (by
      intro d hd'
      have hne := dewOn_hourlyS (T := T) (H := fun i h => relHum (a0 + a1 * m i) (T i h)).1.2 hd'
      have hall : ∀ x ∈ dewOn (hourlyS d0 n fun i h => .fin (T i h)) (hourlyS d0 n fun i h => .fin (relHum (a0 + a1 * m i) (T i h))) d, x = a0 + a1 * m (d - d0).toNat := by
        intro x hx
        obtain ⟨i, hi, rfl, h, hh, rfl⟩ := dewOn_hourlyS.2 x hx
        rw [tn']
        exact dewPoint_relHum (hd i hi).1 (td_le i hi h hh) (hside i hi h hh)
      generalize dewOn (hourlyS d0 n fun i h => XF.fin (T i h)) (hourlyS d0 n fun i h => XF.fin (relHum (a0 + a1 * m i) (T i h))) d = l at *
      have hl : (l.length : ℝ) ≠ 0 := by simpa using hne
      rw [List.sum_eq_card_nsmul _ _ hall, nsmul_eq_mul]
      field_simp)
    (by
      obtain ⟨i, hi, j, hj, e⟩ := hvar
      refine ⟨d0 + (i : Nat), List.mem_map.2 ⟨i, List.mem_range.2 hi, rfl⟩, d0 + (j : Nat), List.mem_map.2 ⟨j, List.mem_range.2 hj, rfl⟩, ?_⟩
      rw [tn', tn']
      exact e)
  have hzero : ((recordDays d0 n).map fun d => (a1 * m (d - d0).toNat + a0 - (a0 + a1 * m (d - d0).toNat)) ^ 2).sum = 0 := by
    apply List.sum_eq_zero
    intro x hx
    obtain ⟨d, _, rfl⟩ := List.mem_map.1 hx
    ring
  have hnn : 0 ≤ ((recordDays d0 n).map fun d => (b1 * m (d - d0).toNat + b0 - (a0 + a1 * m (d - d0).toNat)) ^ 2).sum := by
    apply List.sum_nonneg
    intro x hx
    obtain ⟨d, _, rfl⟩ := List.mem_map.1 hx
    positivity
  have := hb a1 a0
  rw [hzero] at this
  obtain ⟨e1, e0⟩ := this.2 (le_antisymm hnn this.1)
  rw [hr, e1, e0]

/-- a table with hourly temperatures and humidities -/
def tempHum (d0 : Int) (n : Nat) (T H : Nat → Nat → XF ℝ) : Frame ℝ :=
  ⟨Series.index (hourlyS d0 n T), [("temp", Series.values (hourlyS d0 n T)), ("hum", Series.values (hourlyS d0 n H))]⟩

theorem tempHum_cols (d0 : Int) (n : Nat) (T H : Nat → Nat → XF ℝ) :
    (tempHum d0 n T H).WF ∧ (tempHum d0 n T H).col? "temp" = some (hourlyS d0 n T) ∧ (tempHum d0 n T H).col? "hum" = some (hourlyS d0 n H) := by
  have e : Series.index (hourlyS d0 n T) = Series.index (hourlyS d0 n H) := by rw [hourlyS_index, hourlyS_index]
  refine ⟨?_, ?_, ?_⟩
  · intro c hc
    simp only [tempHum, List.mem_cons, List.not_mem_nil, or_false] at hc
    rcases hc with rfl | rfl <;> simp [tempHum, Series.index, Series.values, hourlyS]
  · show some ((Series.index (hourlyS d0 n T)).zip (Series.values (hourlyS d0 n T))) = _
    rw [index_zip_values]
  · show some ((Series.index (hourlyS d0 n T)).zip (Series.values (hourlyS d0 n H))) = _
    rw [e, index_zip_values]

/-- C176 at work: two days with minima of 285 and 290 K and dew points 5 + 0.98 tmin: the regression on the resulting table is (0.98, 5) -/
example : ∃ H, disaggregateHumidity .modern ⟨[at00 0, at00 1], [("tmin", [.fin 285, .fin 290])]⟩ "dewpoint_regression"
      (some (hourlyS 0 2 fun i h => .fin (285 + 5 * i + h))) (some 5) (some 0.98) = .ok (hourlyS 0 2 H) ∧
    dewpointRegression (tempHum 0 2 (fun i h => .fin (285 + 5 * i + h)) H) = .ok (.fin 0.98, .fin 5) := by
  have htmin : (⟨[at00 0, at00 1], [("tmin", [.fin 285, .fin 290])]⟩ : Frame ℝ).col? "tmin" = some (dailyS 0 2 fun i => .fin (285 + 5 * i)) := by
    show some [(at00 0, XF.fin 285), (at00 1, .fin 290)] = _
    norm_num [dailyS, List.range_succ]
  have h0 := (hum_finish (raw_regression .modern _ 5 0.98 none none 0 2 (by norm_num) _ (fun i h => .fin (285 + 5 * i + h)) htmin)).1
  have two : ∀ {i : Nat}, i < 2 → (i : ℝ) = 0 ∨ (i : ℝ) = 1 := by
    intro i hi
    have : i = 0 ∨ i = 1 := by omega
    rcases this with rfl | rfl <;> simp
  obtain ⟨out, h, H⟩ := C176_recovers (api := .modern) (n := 2) (by norm_num) htmin (T := fun i h => 285 + 5 * i + h) (a0 := 5) (a1 := 0.98)
    (fun i _ => ⟨⟨0, by norm_num, by norm_num⟩, fun h _ => by have : (0 : ℝ) ≤ h := Nat.cast_nonneg h; linarith⟩)
    (fun i hi => by rcases two hi with e | e <;> rw [e] <;> norm_num)
    (fun i hi h _ => by
      have : (0 : ℝ) ≤ h := Nat.cast_nonneg h
      refine iff_of_true ?_ ?_ <;> rcases two hi with e | e <;> rw [e] <;> norm_num <;> linarith)
    ⟨0, by norm_num, 1, by norm_num, by norm_num⟩ (kr := none) (table := none)
  rw [h] at h0
  cases h0
  obtain ⟨w, c1, c2⟩ := tempHum_cols 0 2 (fun i h => .fin (285 + 5 * i + h)) fun i h => (rhCell (.fin 5 + .fin 0.98 * .fin (285 + 5 * (i : ℝ))) (.fin (285 + 5 * i + h))).clip 0 100
  exact ⟨_, h, H _ w c1 c2⟩

end

end Melodist
