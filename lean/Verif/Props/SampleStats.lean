import Verif.Props.OtherStats
import Verif.Props.WetCount
import Verif.Spec.SampleStats

/-!
# C162: the sample statistics of the package
-/

set_option linter.unusedSectionVars false

namespace Melodist
open Spec MeasureTheory ProbabilityTheory

noncomputable section

variable {Ω : Type} [MeasurableSpace Ω] {P : Measure Ω} {U : Nat → Ω → ℝ} {api : PandasApi} {s₀ : CascStats ℝ} {level n : Nat} {test : Bool} {d0 : Int} {v : Nat → XF ℝ}

/-- **C162** (columns): `fill_with_sample_data` keeps the thresholds and sets positive probabilities below 1 and positive weights; in every column P(0/1) + P(1/0) + P(x/x) and
the sum of the seven weights are 1 up to 10⁻¹⁵. -/
theorem C162_columns (s₀ : CascStats ℝ) : s₀.fillSample.threshold = s₀.threshold ∧ ∀ b t, ∃ (p01 p10 pxx : ℝ) (w : Fin 7 → ℝ),
    s₀.fillSample.p01 b t = .fin p01 ∧ s₀.fillSample.p10 b t = .fin p10 ∧ s₀.fillSample.pxx b t = .fin pxx ∧ (∀ k, s₀.fillSample.wxx k b t = .fin (w k)) ∧
    0 < p01 ∧ 0 < p10 ∧ 0 < pxx ∧ (∀ k, 0 < w k) ∧ |p01 + p10 + pxx - 1| ≤ 1 / 10 ^ 15 ∧ |(∑ k, w k) - 1| ≤ 1 / 10 ^ 15 := by
  refine ⟨rfl, fun b t => ⟨sampleP01 b t, sampleP10 b t, samplePxx b t, fun k => sampleWxx k b t, rfl, rfl, rfl, fun k => rfl, ?_⟩⟩
  simp only [Fin.sum_univ_succ, Fin.forall_fin_succ]
  fin_cases b <;> fin_cases t <;> simp [sampleP01, sampleP10, samplePxx, sampleWxx, abs_le] <;> norm_num

theorem sampleLaw_shares (b : Fin 2) :
    (sampleLaw b 0).firstShare < 3 / 10 ∧ 7 / 10 < (sampleLaw b 2).firstShare ∧
    (∀ t, t = 1 ∨ t = 3 → 1 / 2 < (sampleLaw b t).firstShare ∧ (sampleLaw b t).firstShare < 11 / 20) ∧ ∀ t, (sampleLaw 0 t).bothWet + 37 / 100 < (sampleLaw 1 t).bothWet := by
  have e : ∀ t, t = 1 ∨ t = 3 → 1 / 2 < (sampleLaw b t).firstShare ∧ (sampleLaw b t).firstShare < 11 / 20 := by
    rintro t (rfl | rfl) <;> simp only [SplitLaw.firstShare, sampleLaw, Fin.sum_univ_seven, centre0, centre1, centre2, centre3, centre4, centre5, centre6] <;> fin_cases b <;> simp [sampleP01, sampleP10, sampleWxx] <;> norm_num
  refine ⟨?_, ?_, e, ?_⟩
  · simp only [SplitLaw.firstShare, sampleLaw, Fin.sum_univ_seven, centre0, centre1, centre2, centre3, centre4, centre5, centre6]
    fin_cases b <;> simp [sampleP01, sampleP10, sampleWxx] <;> norm_num
  · simp only [SplitLaw.firstShare, sampleLaw, Fin.sum_univ_seven, centre0, centre1, centre2, centre3, centre4, centre5, centre6]
    fin_cases b <;> simp [sampleP01, sampleP10, sampleWxx] <;> norm_num
  · intro t
    simp only [SplitLaw.bothWet, sampleLaw]
    fin_cases t <;> simp [sampleP01, sampleP10] <;> norm_num

/-- **C162** (shares): with the sample statistics a box at the start of a wet spell passes on less than 3/10 of its amount to its first half in the mean, a box at the end more than
7/10, and enclosed and isolated boxes between 1/2 and 11/20; above the threshold both halves are wet more often than below, by more than 37 percent points. -/
theorem C162_shares {q : Fin 2 → Fin 4 → SplitLaw} (hq : CellsOf s₀.fillSample q) (b : Fin 2) :
    (q b 0).firstShare < 3 / 10 ∧ 7 / 10 < (q b 2).firstShare ∧
    (∀ t, t = 1 ∨ t = 3 → 1 / 2 < (q b t).firstShare ∧ (q b t).firstShare < 11 / 20) ∧ ∀ t, (q 0 t).bothWet + 37 / 100 < (q 1 t).bothWet := by
  have e : q = sampleLaw := by
    funext b t
    obtain ⟨h1, h2, h3⟩ := hq b t
    cases hq' : q b t with
    | mk a c w =>
      rw [hq'] at h1 h2 h3
      have e1 := XF.fin.inj h1
      have e2 := XF.fin.inj h2
      have e3 : w = fun k => sampleWxx k b t := funext fun k => (XF.fin.inj (h3 k)).symm
      simp only [sampleLaw, SplitLaw.mk.injEq]
      exact ⟨e1.symm, e2.symm, e3⟩
  rw [e]
  exact sampleLaw_shares b

theorem exactLaw_proper (b : Fin 2) (t : Fin 4) : (exactLaw b t).Proper := by
  refine ⟨⟨?_, ?_, ?_⟩, ?_, ?_⟩
  · fin_cases b <;> fin_cases t <;> simp [exactLaw, sampleP01] <;> norm_num
  · fin_cases b <;> fin_cases t <;> simp [exactLaw, sampleP10] <;> norm_num
  · intro k
    simp only [exactLaw]
    fin_cases k <;> fin_cases b <;> fin_cases t <;> simp [sampleWxx] <;> norm_num
  · fin_cases b <;> fin_cases t <;> simp [exactLaw, sampleP01, sampleP10] <;> norm_num
  · simp only [Fin.sum_univ_seven, exactLaw]
    simp
    ring

theorem exactLaw_near (b : Fin 2) (t : Fin 4) : LawNear (1 / 10 ^ 15) (sampleLaw b t) (exactLaw b t) := by
  refine ⟨by simp [sampleLaw, exactLaw], by simp [sampleLaw, exactLaw], fun k => ?_⟩
  by_cases hk : k = 3
  · subst hk
    simp only [sampleLaw, exactLaw, if_true]
    fin_cases b <;> fin_cases t <;> simp [sampleWxx, abs_le] <;> norm_num
  · simp [sampleLaw, exactLaw, hk]

theorem sample_are (h5 : s₀.threshold.length = 5) : StatsAre (.one s₀.fillSample) 5 (fun _ => sampleLaw) fun l => s₀.threshold.getD (4 - l) .nan := by
  refine ⟨by simp, fun l hl => ⟨s₀.fillSample, ⟨rfl, ?_⟩, fun b t => ⟨rfl, rfl, fun k => rfl⟩⟩⟩
  show s₀.threshold[5 - (l + 1)]? = some (s₀.threshold.getD (4 - l) .nan)
  rw [show 5 - (l + 1) = 4 - l by omega, List.getD_eq_getElem?_getD, List.getElem?_eq_getElem (by omega)]
  rfl

theorem exact_are (h5 : s₀.threshold.length = 5) : StatsAre (.one (fillExact s₀)) 5 (fun _ => exactLaw) fun l => s₀.threshold.getD (4 - l) .nan := by
  refine ⟨by simp, fun l hl => ⟨fillExact s₀, ⟨rfl, ?_⟩, fun b t => ⟨rfl, rfl, fun k => rfl⟩⟩⟩
  show s₀.threshold[5 - (l + 1)]? = some (s₀.threshold.getD (4 - l) .nan)
  rw [show 5 - (l + 1) = 4 - l by omega, List.getD_eq_getElem?_getD, List.getElem?_eq_getElem (by omega)]
  rfl

/-- **C162** (rounding): the result of a run for n days with the sample statistics differs from that with weights that add up to 1 with a probability of at most 10⁻¹⁰ n. -/
theorem C162_rounding (hU : UniformDraws P U) (h5 : s₀.threshold.length = 5) (daily : Series (XF ℝ)) (level : Nat) (shift : Int) (test : Bool) :
    P.real {ω | disaggPrecCascade api (fun k => U k ω) daily (.one s₀.fillSample) true level shift test ≠
      disaggPrecCascade api (fun k => U k ω) daily (.one (fillExact s₀)) true level shift test} ≤ daily.length / 10 ^ 10 := by
  have h := C154_probability (api := api) hU daily (hourly := true) (level := level) (L := 5) shift test rfl (sample_are h5) (exact_are h5) (ε := 1 / 10 ^ 15) (fun l _ b t => exactLaw_near b t)
  refine h.trans ?_
  have : (0 : ℝ) ≤ daily.length := Nat.cast_nonneg _
  norm_num
  linarith

/-- **C162** (failures): on days that are missing or not negative the run with the sample statistics raises an exception (see C19) with a probability of at most 10⁻¹⁰ n. -/
theorem C162_failures (hU : UniformDraws P U) (h5 : s₀.threshold.length = 5) (hn : 2 ≤ n) (hv : ∀ i < n, v i = .nan ∨ ∃ x, 0 ≤ x ∧ v i = .fin x) :
    P.real {ω | ∃ e, disaggPrecCascade api (fun k => U k ω) (dailyS d0 n v) (.one s₀.fillSample) true level 0 test = .error e} ≤ n / 10 ^ 10 := by
  have := uniformDraws_prob hU
  have hlen : (dailyS d0 n v).length = n := by simp [dailyS]
  have hr := C162_rounding (api := api) hU h5 (dailyS d0 n v) level 0 test
  rw [hlen] at hr
  refine le_trans ?_ hr
  have hae := (cascade_expect (P := P) (api := api) (shift := 0) (d0 := d0) (hourly := true) (level := level) (test := test) (L := 5) hU (.inl rfl) hn hv rfl
    (by norm_num) (by norm_num) (fun _ => exactLaw_proper) (exact_are h5)).1
  refine ENNReal.toReal_mono (measure_ne_top _ _) (measure_mono_ae ?_)
  filter_upwards [hae] with ω ⟨r, h⟩ ⟨e, he⟩ hc
  rw [he, h] at hc
  cases hc

/-- **C162** (wet hours): with the sample statistics every hour of a wet day is wet with a probability of more than 13/1000 - 10⁻¹⁰ n, whatever the thresholds and the other days are. -/
theorem C162_hour (hU : UniformDraws P U) (h5 : s₀.threshold.length = 5) (hn : 2 ≤ n) (hv : ∀ i < n, v i = .nan ∨ ∃ x, 0 ≤ x ∧ v i = .fin x)
    {i : Nat} (hi : i < n) {x : ℝ} (hx : v i = .fin x) (hx0 : 0 < x) {k : Nat} (hk : k < 24) :
    13 / 1000 - n / 10 ^ 10 ≤ P.real {ω | 0 < hourAmount (disaggPrecCascade api (fun k => U k ω) (dailyS d0 n v) (.one s₀.fillSample) true level 0 test) (d0 + i) k} := by
  have := uniformDraws_prob hU
  have hlen : (dailyS d0 n v).length = n := by simp [dailyS]
  have hr := C162_rounding (api := api) hU h5 (dailyS d0 n v) level 0 test
  rw [hlen] at hr
  have h := (C142_hour (P := P) (api := api) (d0 := d0) (level := level) (test := test) hU hn hv (fun _ => exactLaw_proper) (exact_are h5) (α := 423 / 1000) (β := 1) (by norm_num) (by
    intro l b t
    simp only [exactLaw]
    fin_cases b <;> fin_cases t <;> simp [sampleP01, sampleP10] <;> norm_num) hi hx hx0 hk).1
  have hsub := measureReal_mono (μ := P) (s₁ := {ω | 0 < hourAmount (disaggPrecCascade api (fun k => U k ω) (dailyS d0 n v) (.one (fillExact s₀)) true level 0 test) (d0 + i) k})
    (s₂ := {ω | 0 < hourAmount (disaggPrecCascade api (fun k => U k ω) (dailyS d0 n v) (.one s₀.fillSample) true level 0 test) (d0 + i) k} ∪
      {ω | disaggPrecCascade api (fun k => U k ω) (dailyS d0 n v) (.one s₀.fillSample) true level 0 test ≠
        disaggPrecCascade api (fun k => U k ω) (dailyS d0 n v) (.one (fillExact s₀)) true level 0 test}) (by
      intro ω hω
      by_cases hc : disaggPrecCascade api (fun k => U k ω) (dailyS d0 n v) (.one s₀.fillSample) true level 0 test =
        disaggPrecCascade api (fun k => U k ω) (dailyS d0 n v) (.one (fillExact s₀)) true level 0 test
      · left
        show 0 < hourAmount _ _ _
        rw [hc]
        exact hω
      · exact .inr hc)
  have hun := measureReal_union_le (μ := P) {ω | 0 < hourAmount (disaggPrecCascade api (fun k => U k ω) (dailyS d0 n v) (.one s₀.fillSample) true level 0 test) (d0 + i) k}
      {ω | disaggPrecCascade api (fun k => U k ω) (dailyS d0 n v) (.one s₀.fillSample) true level 0 test ≠
        disaggPrecCascade api (fun k => U k ω) (dailyS d0 n v) (.one (fillExact s₀)) true level 0 test}
  have hnum : (13 / 1000 : ℝ) ≤ (423 / 1000) ^ 5 := by norm_num
  linarith

/-- C162 at work: a year with 4 mm on every day fails with a probability of less than one in ten million -/
example : (Measure.infinitePi fun _ : Nat => unit).real {ω | ∃ e, disaggPrecCascade .modern (fun k => ω k) (dailyS 0 365 fun _ => .fin 4) (.one (CascStats.fillSample .init)) true 5 0 false = .error e} ≤
    1 / 10 ^ 7 :=
  (C162_failures (U := fun k (ω : Nat → ℝ) => ω k) uniformDraws_exist rfl (by norm_num) fun _ _ => .inr ⟨4, by norm_num, rfl⟩).trans (by norm_num)

/-- ... and every hour of it is wet with a probability of more than 1.2 % -/
example {i k : Nat} (hi : i < 365) (hk : k < 24) : 12 / 1000 < (Measure.infinitePi fun _ : Nat => unit).real {ω | 0 < hourAmount
    (disaggPrecCascade .modern (fun k => ω k) (dailyS 0 365 fun _ => .fin 4) (.one (CascStats.fillSample .init)) true 5 0 false) (0 + i) k} :=
  lt_of_lt_of_le (by norm_num) (C162_hour (U := fun k (ω : Nat → ℝ) => ω k) uniformDraws_exist rfl (by norm_num) (fun _ _ => .inr ⟨4, by norm_num, rfl⟩) hi rfl (x := 4) (by norm_num) hk)

end

end Melodist
