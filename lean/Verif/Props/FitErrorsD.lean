import Verif.Props.FitErrors
import Verif.Props.ParamErrors

/-!
# C171: from observed humidity to disaggregated humidity
-/

set_option linter.unusedSectionVars false

namespace Melodist
open Spec

noncomputable section

/-- **C171** Two hourly tables `obs`, `obs'` as in C166 (the same temperatures, humidities of at least `H` percent that differ by at most ε).  The dew point regression is fitted to both, and the same daily
data are disaggregated by 'dewpoint_regression' or 'linear_dewpoint_variation' with the two results.  With `tmin`, `m` and `Q` as in C166, if no daily minimum is farther than `R` from `m`, all daily dew
points are at least 231 K and all hourly temperatures at least 230 K, the hourly values are missing in the same hours and differ by at most `12 · 20.1 ε / H · (1 + R Q)` percent. -/
theorem C171_dewpoint {ε H : ℝ} (hH : 0 < H) {obs obs' : Frame ℝ} (hwf : obs.WF) (hwf' : obs'.WF) {temp hum hum' : Series (XF ℝ)} (e1 : obs.col? "temp" = some temp)
    (e1' : obs'.col? "temp" = some temp) (e2 : obs.col? "hum" = some hum) (e2' : obs'.col? "hum" = some hum')
    (h1 : ∀ r ∈ temp, r.2 = .nan ∨ ∃ T, r.2 = .fin T ∧ 0.53 < T ∧ T ≤ 323.15) (h2 : ∀ r ∈ hum, r.2 = .nan ∨ ∃ h, r.2 = .fin h ∧ H ≤ h ∧ h ≤ 100)
    (h3 : ∀ r ∈ hum', r.2 = .nan ∨ ∃ h, r.2 = .fin h ∧ H ≤ h ∧ h ≤ 100) (hn : SeriesNear ε hum hum') (days : List Int) (hnd : days.Nodup)
    (hdays : ∀ d, d ∈ days ↔ ∃ rq ∈ temp.zip hum, rq.1.1 / 86400000000 = d ∧ rq.1.2 ≠ .nan ∧ rq.2.2 ≠ .nan) (tmin : Int → ℝ)
    (hmin : ∀ d ∈ days, tmin d ∈ numbers (dayCells temp d) ∧ ∀ y ∈ numbers (dayCells temp d), tmin d ≤ y) (hvar : ∃ d ∈ days, ∃ e ∈ days, tmin d ≠ tmin e) :
    ∃ a1 a0 a1' a0', dewpointRegression obs = .ok (.fin a1, .fin a0) ∧ dewpointRegression obs' = .ok (.fin a1', .fin a0') ∧
      let m := (days.map tmin).sum / days.length
      let Q := (days.map fun d => |tmin d - m|).sum / (days.map fun d => (tmin d - m) ^ 2).sum
      ∀ {f : Frame ℝ}, f.WF → ∀ {d0 : Int} {n : Nat}, 0 < n → Spec.Covers f.index d0 n → ∀ {api : PandasApi} {method : String} {T : Nat → Nat → XF ℝ} {kr R : ℝ} {table : Option (CatMeans ℝ)}
        {out out' : Series (XF ℝ)}, (method = "dewpoint_regression" ∨ method = "linear_dewpoint_variation" ∧ (kr = 6 ∨ kr = 12)) →
        ∀ {v : Nat → XF ℝ}, f.col? "tmin" = some (dailyS d0 n v) →
        (∀ i < n, v i = .nan ∨ ∃ x, v i = .fin x ∧ |x - m| ≤ R ∧ 231 ≤ a0 + a1 * x ∧ 231 ≤ a0' + a1' * x) →
        (∀ i < n, ∀ k < 24, T i k = .nan ∨ ∃ x, T i k = .fin x ∧ 230 ≤ x) →
        disaggregateHumidity api f method (some (hourlyS d0 n T)) (some a0) (some a1) (some kr) table false = .ok out →
        disaggregateHumidity api f method (some (hourlyS d0 n T)) (some a0') (some a1') (some kr) table false = .ok out' →
        SeriesNear (12 * (20.1 * (ε / H) * (1 + R * Q))) out out' := by
  obtain ⟨a1, a0, a1', a0', r1, r2, _, key⟩ := C166_regression hH hwf hwf' e1 e1' e2 e2' h1 h2 h3 hn days hnd hdays tmin hmin hvar
  refine ⟨a1, a0, a1', a0', r1, r2, ?_⟩
  dsimp only at key ⊢
  intro f hf d0 n hn0 cf api method T kr R table out out' hm v hv hvR hT ho ho'
  generalize (days.map tmin).sum / (days.length : ℝ) = m at *
  have hQ : 0 ≤ (days.map fun d => |tmin d - m|).sum / (days.map fun d => (tmin d - m) ^ 2).sum := by
    apply div_nonneg <;> apply List.sum_nonneg <;> intro y hy <;> obtain ⟨r, _, rfl⟩ := List.mem_map.1 hy
    · exact abs_nonneg _
    · exact sq_nonneg _
  generalize (days.map fun d => |tmin d - m|).sum / (days.map fun d => (tmin d - m) ^ 2).sum = Q at *
  have hδ : 0 ≤ 20.1 * (ε / H) := by
    have := (abs_nonneg _).trans (key m)
    simpa using this
  refine dew_runs_near hf hn0 cf hm hv (fun i hi => (hvR i hi).imp id ?_) hT ho ho'
  rintro ⟨x, e, hx, b1, b2⟩
  refine ⟨x, e, ?_, b1, b2⟩
  rw [show a0 + a1 * x - (a0' + a1' * x) = a1 * x + a0 - (a1' * x + a0') by ring]
  exact (key x).trans (mul_le_mul_of_nonneg_left (add_le_add le_rfl (mul_le_mul_of_nonneg_right hx hQ)) hδ)

/-! ## a concrete case -/

/-- the table `saturated` with 99 % on the first day -/
def almostSaturated : Frame ℝ := ⟨[at00 0, at00 1], [("temp", [.fin 290, .fin 280]), ("hum", [.fin 99, .fin 100])]⟩

/-- C171: the regressions of C166 (100 % or 99 % on one of two days), used for a day with the minimum 285 K and a day without: the hours differ by at most 2.5 percent -/
example : ∃ a1 a0 a1' a0', dewpointRegression saturated = .ok (.fin a1, .fin a0) ∧ dewpointRegression almostSaturated = .ok (.fin a1', .fin a0') ∧ ∃ out out',
    disaggregateHumidity .modern ⟨[at00 0, at00 1], [("tmin", [.fin 285, .nan])]⟩ "dewpoint_regression"
      (some (hourlyS 0 2 fun _ h => .fin (286 + h))) (some a0) (some a1) (some 6) none false = .ok out ∧
    disaggregateHumidity .modern ⟨[at00 0, at00 1], [("tmin", [.fin 285, .nan])]⟩ "dewpoint_regression"
      (some (hourlyS 0 2 fun _ h => .fin (286 + h))) (some a0') (some a1') (some 6) none false = .ok out' ∧ SeriesNear (12 * (20.1 * (1 / 99))) out out' := by
  have d0 : at00 0 / 86400000000 = 0 := by decide
  have d1 : at00 1 / 86400000000 = 1 := by decide
  have hd : ∀ d : Int, d ∈ [0, 1] ↔ ∃ rq ∈ List.zip ([(at00 0, .fin 290), (at00 1, .fin 280)] : Series (XF ℝ)) ([(at00 0, .fin 100), (at00 1, .fin 100)] : Series (XF ℝ)),
      rq.1.1 / 86400000000 = d ∧ rq.1.2 ≠ .nan ∧ rq.2.2 ≠ .nan := by
    intro d
    simp only [List.zip_cons_cons, List.zip_nil_left, List.mem_cons, List.not_mem_nil, or_false]
    constructor
    · rintro (rfl | rfl)
      · exact ⟨_, .inl rfl, d0, by simp, by simp⟩
      · exact ⟨_, .inr rfl, d1, by simp, by simp⟩
    · rintro ⟨rq, rfl | rfl, h, _⟩
      · rw [← h, d0]; simp
      · rw [← h, d1]; simp
  obtain ⟨a1, a0, a1', a0', r1, r2, _, key⟩ := C166_regression (ε := 1) (H := 99) (by norm_num) (obs := saturated) (obs' := almostSaturated)
    (by intro c hc; simp [saturated] at hc; rcases hc with rfl | rfl | rfl <;> rfl) (by intro c hc; simp [almostSaturated] at hc; rcases hc with rfl | rfl <;> rfl)
    (temp := [(at00 0, .fin 290), (at00 1, .fin 280)]) (hum := [(at00 0, .fin 100), (at00 1, .fin 100)]) (hum' := [(at00 0, .fin 99), (at00 1, .fin 100)]) rfl rfl rfl rfl
    (by intro r hr; simp at hr; rcases hr with rfl | rfl <;> exact .inr ⟨_, rfl, by norm_num, by norm_num⟩)
    (by intro r hr; simp at hr; rcases hr with rfl | rfl <;> exact .inr ⟨_, rfl, by norm_num, by norm_num⟩)
    (by intro r hr; simp at hr; rcases hr with rfl | rfl <;> exact .inr ⟨_, rfl, by norm_num, by norm_num⟩)
    (.cons ⟨rfl, (by norm_num : |(100 : ℝ) - 99| ≤ 1)⟩ (.cons ⟨rfl, (by norm_num : |(100 : ℝ) - 100| ≤ 1)⟩ .nil)) [0, 1] (by decide) hd
    (fun d => if d = 0 then 290 else 280)
    (by intro d hd; simp at hd; rcases hd with rfl | rfl <;> simp [dayCells, at00, numbers])
    ⟨0, by simp, 1, by simp, by norm_num⟩
  obtain ⟨b1, b0, b1', b0', s1, s2, runs⟩ := C171_dewpoint (ε := 1) (H := 99) (by norm_num) (obs := saturated) (obs' := almostSaturated)
    (by intro c hc; simp [saturated] at hc; rcases hc with rfl | rfl | rfl <;> rfl) (by intro c hc; simp [almostSaturated] at hc; rcases hc with rfl | rfl <;> rfl)
    (temp := [(at00 0, .fin 290), (at00 1, .fin 280)]) (hum := [(at00 0, .fin 100), (at00 1, .fin 100)]) (hum' := [(at00 0, .fin 99), (at00 1, .fin 100)]) rfl rfl rfl rfl
    (by intro r hr; simp at hr; rcases hr with rfl | rfl <;> exact .inr ⟨_, rfl, by norm_num, by norm_num⟩)
    (by intro r hr; simp at hr; rcases hr with rfl | rfl <;> exact .inr ⟨_, rfl, by norm_num, by norm_num⟩)
    (by intro r hr; simp at hr; rcases hr with rfl | rfl <;> exact .inr ⟨_, rfl, by norm_num, by norm_num⟩)
    (.cons ⟨rfl, (by norm_num : |(100 : ℝ) - 99| ≤ 1)⟩ (.cons ⟨rfl, (by norm_num : |(100 : ℝ) - 100| ≤ 1)⟩ .nil)) [0, 1] (by decide) hd
    (fun d => if d = 0 then 290 else 280)
    (by intro d hd; simp at hd; rcases hd with rfl | rfl <;> simp [dayCells, at00, numbers])
    ⟨0, by simp, 1, by simp, by norm_num⟩
  obtain ⟨rfl, rfl⟩ : a1 = b1 ∧ a0 = b0 := by
    have := r1.symm.trans s1
    simpa using this
  obtain ⟨rfl, rfl⟩ : a1' = b1' ∧ a0' = b0' := by
    have := r2.symm.trans s2
    simpa using this
  obtain ⟨rfl, rfl⟩ : a1 = 1 ∧ a0 = 0 := by
    have := r1.symm.trans saturated_regression
    simpa using this
  have h285 := key 285
  norm_num at h285
  rw [abs_le] at h285
  refine ⟨1, 0, a1', a0', r1, r2, ?_⟩
  have q1 := raw_regression .modern (⟨[at00 0, at00 1], [("tmin", [.fin 285, .nan])]⟩ : Frame ℝ) 0 1 (some 6) none 0 2 (by omega)
    (fun i => if i = 0 then .fin 285 else .nan) (fun _ h => .fin (286 + h)) rfl
  have q2 := raw_regression .modern (⟨[at00 0, at00 1], [("tmin", [.fin 285, .nan])]⟩ : Frame ℝ) a0' a1' (some 6) none 0 2 (by omega)
    (fun i => if i = 0 then .fin 285 else .nan) (fun _ h => .fin (286 + h)) rfl
  refine ⟨_, _, (hum_finish q1).1, (hum_finish q2).1, ?_⟩
  have := runs (f := ⟨[at00 0, at00 1], [("tmin", [.fin 285, .nan])]⟩) (by intro c hc; simp at hc; subst hc; rfl) (d0 := 0) (n := 2) (by omega) rfl (R := 0) (.inl rfl)
    (v := fun i => if i = 0 then .fin 285 else .nan) rfl ?_ ?_ (hum_finish q1).1 (hum_finish q2).1
  · rwa [zero_mul, add_zero, mul_one] at this
  · intro i _
    by_cases h : i = 0
    · rw [if_pos h]
      refine .inr ⟨285, rfl, by norm_num, by norm_num, by linarith⟩
    · rw [if_neg h]
      exact .inl rfl
  · intro i _ k _
    exact .inr ⟨286 + k, rfl, by have : (0 : ℝ) ≤ k := Nat.cast_nonneg k; linarith⟩

end

end Melodist
