import Verif.Lemmas.Averages
import Verif.Props.WetCount
import Verif.Props.Cascade

/-!
# C148: averages over many days come close to their expectations
-/

set_option linter.unusedSectionVars false

namespace Melodist
open Spec MeasureTheory ProbabilityTheory Filter Topology

noncomputable section

section
variable {Ω : Type} [MeasurableSpace Ω] {P : Measure Ω} {U : Nat → Ω → ℝ}
  {api : PandasApi} {opts : CascOptions ℝ} {level : Nat} {test : Bool}
  {q : Nat → Fin 2 → Fin 4 → SplitLaw} {thr : Nat → XF ℝ}

/-- **C148** (independence): quantities of the hourly values of days that are separated by dry or missing days are independent of each other (all of them together, not only
in pairs). -/
theorem C148_independent (hU : UniformDraws P U) (hq : ∀ l b t, (q l b t).Proper) (hs : StatsAre opts 5 q thr) (d0 : Int) {n : Nat} (hn : 2 ≤ n) {v : Nat → XF ℝ}
    (hv : ∀ i < n, v i = .nan ∨ ∃ x, 0 ≤ x ∧ v i = .fin x) {w : Nat → Nat} {N : Nat} (hw : Separated v n w N) (f : Nat → List (XF ℝ) → ℝ) :
    iIndepFun (fun (k : Fin N) ω => dayQuantity (f k) (disaggPrecCascade api (fun i => U i ω) (dailyS d0 n v) opts true level 0 test) (d0 + (w k : Nat))) P :=
  separated_indep hU hq hs d0 hn hv hw f

/-- **C148** (sums): the sum over separated days of quantities with values between `a k` and `b k` deviates from its expectation by `ε` or more with a probability of at most
2 exp(-2 ε² / Σ (b k - a k)²). -/
theorem C148_deviation (hU : UniformDraws P U) (hq : ∀ l b t, (q l b t).Proper) (hs : StatsAre opts 5 q thr) (d0 : Int) {n : Nat} (hn : 2 ≤ n) {v : Nat → XF ℝ}
    (hv : ∀ i < n, v i = .nan ∨ ∃ x, 0 ≤ x ∧ v i = .fin x) {w : Nat → Nat} {N : Nat} (hw : Separated v n w N) (f : Nat → List (XF ℝ) → ℝ) {a b : Nat → ℝ}
    (hf : ∀ k < N, ∀ ω r, disaggPrecCascade api (fun i => U i ω) (dailyS d0 n v) opts true level 0 test = .ok r →
      a k ≤ f k (dayCells r.series (d0 + (w k : Nat))) ∧ f k (dayCells r.series (d0 + (w k : Nat))) ≤ b k) {ε : ℝ} (hε : 0 ≤ ε) :
    let X := fun k ω => dayQuantity (f k) (disaggPrecCascade api (fun i => U i ω) (dailyS d0 n v) opts true level 0 test) (d0 + (w k : Nat))
    P.real {ω | ε ≤ |∑ k ∈ Finset.range N, X k ω - ∑ k ∈ Finset.range N, ∫ ω, X k ω ∂P|} ≤ 2 * Real.exp (-2 * ε ^ 2 / ∑ k ∈ Finset.range N, (b k - a k) ^ 2) := by
  intro X
  have := uniformDraws_prob hU
  have hae := run_ok_ae (P := P) (U := U) (api := api) (level := level) (test := test) hU hq hs d0 hn hv
  have h := deviation_two (P := P) (X := fun (k : Fin N) ω => X k ω) (separated_indep hU hq hs d0 hn hv hw f)
    (fun k => (dayQuantity_integrable hU hq hs d0 hn hv (f k) (hw.inside k k.2)).aestronglyMeasurable.aemeasurable) (a := fun k => a k) (b := fun k => b k)
    (fun k => by
      filter_upwards [hae] with ω ⟨r, hr⟩
      have e : X k ω = f k (dayCells r.series (d0 + (w k : Nat))) := by simp only [X, hr, dayQuantity]
      rw [e]
      exact hf k k.2 ω r hr) hε
  simp only [Finset.sum_range]
  exact h

/-- the amount in an hour, as a quantity of the day -/
def hourOf24 (h : Nat) (cells : List (XF ℝ)) : ℝ := match cells.getD h .nan with
  | .fin x => x
  | _ => 0

theorem hourAmount_quantity (run : Py (CascadeOut ℝ)) (d : Int) (h : Nat) : hourAmount run d h = dayQuantity (hourOf24 h) run d := by
  unfold hourAmount dayQuantity hourOf24
  cases run <;> rfl

theorem hour_between {rnd : Nat → ℝ} {d0 : Int} {n : Nat} {v : Nat → XF ℝ} {r : CascadeOut ℝ}
    (h : disaggPrecCascade api rnd (dailyS d0 n v) opts true level 0 test = .ok r) {i : Nat} (hi : i < n) {x : ℝ} (hx : v i = .fin x) (h0 : 0 ≤ x) {k : Nat} (hk : k < 24) :
    0 ≤ hourOf24 k (dayCells r.series (d0 + i)) ∧ hourOf24 k (dayCells r.series (d0 + i)) ≤ x := by
  have hc := cascade_cells h hi
  have hl : (dayCells r.series (d0 + i)).length = 24 := by rw [hc]; simp [day24]
  unfold hourOf24
  rw [List.getD_eq_getElem _ _ (by omega)]
  have hm : (dayCells r.series (d0 + i))[k]'(by omega) ∈ dayCells r.series (d0 + i) := List.getElem_mem _
  cases e : (dayCells r.series (d0 + i))[k]'(by omega) with
  | fin y =>
    rw [e] at hm
    exact C17_cascade_bounds api rnd opts level test d0 n v r h i hi x hx h0 y hm
  | nan => exact ⟨le_refl _, h0⟩
  | pinf => exact ⟨le_refl _, h0⟩
  | ninf => exact ⟨le_refl _, h0⟩

/-- **C148** (an hour of the day): the precipitation of one hour, added up over separated days with the amounts `x k`, lies between 32 `α ^ 5` and 32 `β ^ 5` times a 24th of the
total (`α`, `β` as in C136), up to `ε`, except with a probability of at most 2 exp(-2 ε² / Σ x²). -/
theorem C148_hours (hU : UniformDraws P U) (hq : ∀ l b t, (q l b t).Proper) (hs : StatsAre opts 5 q thr) (d0 : Int) {n : Nat} (hn : 2 ≤ n) {v : Nat → XF ℝ}
    (hv : ∀ i < n, v i = .nan ∨ ∃ x, 0 ≤ x ∧ v i = .fin x) {w : Nat → Nat} {N : Nat} (hw : Separated v n w N) {x : Nat → ℝ} (hx : ∀ k < N, v (w k) = .fin (x k))
    {α β : ℝ} (hα : 0 ≤ α)
    (hsh : ∀ l b t, α ≤ (q l b t).firstShare ∧ (q l b t).firstShare ≤ β ∧ α ≤ (q l b t).secondShare ∧ (q l b t).secondShare ≤ β)
    {h : Nat} (hh : h < 24) {ε : ℝ} (hε : 0 ≤ ε) :
    let total := ∑ k ∈ Finset.range N, x k
    let sum := fun ω => ∑ k ∈ Finset.range N, hourAmount (disaggPrecCascade api (fun i => U i ω) (dailyS d0 n v) opts true level 0 test) (d0 + (w k : Nat)) h
    P.real {ω | sum ω ≤ 32 * α ^ 5 * (total / 24) - ε ∨ 32 * β ^ 5 * (total / 24) + ε ≤ sum ω} ≤
      2 * Real.exp (-2 * ε ^ 2 / ∑ k ∈ Finset.range N, x k ^ 2) := by
  intro total sum
  have := uniformDraws_prob hU
  have hx0 : ∀ k < N, 0 ≤ x k := by
    intro k hk
    rcases hv (w k) (hw.inside k hk) with h | ⟨y, hy, e⟩
    · rw [hx k hk] at h; cases h
    · rw [hx k hk] at e; injection e with e; rw [e]; exact hy
  have H := C148_deviation (P := P) (api := api) (level := level) (test := test) hU hq hs d0 hn hv hw (fun _ => hourOf24 h) (a := fun _ => 0) (b := x)
    (fun k hk ω r e => hour_between e (hw.inside k hk) (hx k hk) (hx0 k hk) hh) hε
  simp only [sub_zero, ← hourAmount_quantity] at H
  refine le_trans (measureReal_mono ?_) H
  intro ω hω
  have hE : ∀ k ∈ Finset.range N, _ := fun k hk => (C136_hours (P := P) (api := api) (level := level) (test := test) (d0 := d0) hU hn hv hq hs hα hsh
    (hw.inside k (Finset.mem_range.1 hk)) (hx k (Finset.mem_range.1 hk)) hh).2
  have lo := Finset.sum_le_sum fun k hk => (hE k hk).1
  have up := Finset.sum_le_sum fun k hk => (hE k hk).2
  rw [← Finset.mul_sum, ← Finset.sum_div] at lo up
  simp only [Set.mem_setOf_eq] at hω ⊢
  change 32 * α ^ 5 * (total / 24) ≤ _ at lo
  change _ ≤ 32 * β ^ 5 * (total / 24) at up
  change ε ≤ |sum ω - _|
  rcases hω with hω | hω
  · exact le_trans (by linarith) (neg_le_abs _)
  · exact le_trans (by linarith) (le_abs_self _)

/-- **C148** (mean daily course): for balanced statistics (C136) and `N` separated days with the amount `x` each, the mean precipitation of every hour of the day is a 24th of
the daily amount within 0.03 %, up to `δ` times the daily amount, except with a probability of at most 2 exp(-2 N δ²). -/
theorem C148_balanced (hU : UniformDraws P U) (hq : ∀ l b t, (q l b t).Proper) (hs : StatsAre opts 5 q thr)
    (hp : ∀ l b t, (q l b t).p01 = (q l b t).p10) (hsym : ∀ l b t k, (q l b t).w k = (q l b t).w (Fin.rev k))
    (d0 : Int) {n : Nat} (hn : 2 ≤ n) {v : Nat → XF ℝ}
    (hv : ∀ i < n, v i = .nan ∨ ∃ x, 0 ≤ x ∧ v i = .fin x) {w : Nat → Nat} {N : Nat} (hw : Separated v n w N) {x : ℝ} (hx0 : 0 < x) (hx : ∀ k < N, v (w k) = .fin x) (hN : 0 < N)
    {h : Nat} (hh : h < 24) {δ : ℝ} (hδ : 0 ≤ δ) :
    P.real {ω | 3 / 10000 * (x / 24) + δ * x ≤
        |(∑ k ∈ Finset.range N, hourAmount (disaggPrecCascade api (fun i => U i ω) (dailyS d0 n v) opts true level 0 test) (d0 + (w k : Nat)) h) / N - x / 24|} ≤
      2 * Real.exp (-2 * N * δ ^ 2) := by
  have := uniformDraws_prob hU
  have hN' : (0 : ℝ) < N := by exact_mod_cast hN
  have H := C148_deviation (P := P) (api := api) (level := level) (test := test) hU hq hs d0 hn hv hw (fun _ => hourOf24 h) (a := fun _ => 0) (b := fun _ => x)
    (fun k hk ω r e => hour_between e (hw.inside k hk) (hx k hk) hx0.le hh) (ε := N * (δ * x)) (by positivity)
  simp only [sub_zero, ← hourAmount_quantity, Finset.sum_const, Finset.card_range, nsmul_eq_mul] at H
  have e : -2 * ((N : ℝ) * (δ * x)) ^ 2 / (N * x ^ 2) = -2 * N * δ ^ 2 := by field_simp
  rw [e] at H
  refine le_trans (measureReal_mono ?_) H
  intro ω hω
  have hE : ∀ k ∈ Finset.range N, _ := fun k hk => (C136_balanced (P := P) (api := api) (hourly := true) (level := level) (shift := 0) (test := test) (d0 := d0) (L := 5) hU (.inl rfl) hn hv rfl
    (by norm_num) (by norm_num) hq hs hp hsym).2 rfl rfl (w k) (hw.inside k (Finset.mem_range.1 hk)) x (hx k (Finset.mem_range.1 hk)) h hh
  set E := fun k => ∫ ω, hourAmount (disaggPrecCascade api (fun i => U i ω) (dailyS d0 n v) opts true level 0 test) (d0 + (w k : Nat)) h ∂P
  have hsum : |∑ k ∈ Finset.range N, E k - N * (x / 24)| ≤ N * (3 / 10000 * (x / 24)) := by
    have e : ∑ k ∈ Finset.range N, E k - N * (x / 24) = ∑ k ∈ Finset.range N, (E k - x / 24) := by
      rw [Finset.sum_sub_distrib]; simp
    rw [e]
    refine (Finset.abs_sum_le_sum_abs _ _).trans ((Finset.sum_le_card_nsmul _ _ _ hE).trans (le_of_eq ?_))
    simp
  simp only [Set.mem_setOf_eq] at hω ⊢
  set S := ∑ k ∈ Finset.range N, hourAmount (disaggPrecCascade api (fun i => U i ω) (dailyS d0 n v) opts true level 0 test) (d0 + (w k : Nat)) h
  have h1 : |S / N - x / 24| = |S - N * (x / 24)| / N := by
    rw [← abs_of_pos hN', ← abs_div, abs_of_pos hN']
    congr 1
    field_simp
  rw [h1, le_div_iff₀ hN'] at hω
  have h2 : |S - N * (x / 24)| ≤ |S - ∑ k ∈ Finset.range N, E k| + |∑ k ∈ Finset.range N, E k - N * (x / 24)| := abs_sub_le _ _ _
  change N * (δ * x) ≤ |S - ∑ k ∈ Finset.range N, E k|
  nlinarith

/-- **C148** (wet hours): the share of `N` separated wet days on which a given hour is wet lies between `α ^ 5` and 2 `β ^ 5` (`α`, `β` as in C142), up to `δ`, except with a
probability of at most 2 exp(-2 N δ²). -/
theorem C148_wet (hU : UniformDraws P U) (hq : ∀ l b t, (q l b t).Proper) (hs : StatsAre opts 5 q thr) (d0 : Int) {n : Nat} (hn : 2 ≤ n) {v : Nat → XF ℝ}
    (hv : ∀ i < n, v i = .nan ∨ ∃ x, 0 ≤ x ∧ v i = .fin x) {w : Nat → Nat} {N : Nat} (hw : Separated v n w N) (hx : ∀ k < N, ∃ x, 0 < x ∧ v (w k) = .fin x) (hN : 0 < N)
    {α β : ℝ} (hα : 0 ≤ α)
    (hsh : ∀ l b t, α ≤ 1 - (q l b t).p01 ∧ 1 - (q l b t).p01 ≤ β ∧ α ≤ 1 - (q l b t).p10 ∧ 1 - (q l b t).p10 ≤ β)
    {h : Nat} (hh : h < 24) {δ : ℝ} (hδ : 0 ≤ δ) :
    let share := fun ω => (((Finset.range N).filter fun k => 0 < hourAmount (disaggPrecCascade api (fun i => U i ω) (dailyS d0 n v) opts true level 0 test) (d0 + (w k : Nat)) h).card : ℝ) / N
    P.real {ω | share ω ≤ α ^ 5 - δ ∨ 2 * β ^ 5 + δ ≤ share ω} ≤ 2 * Real.exp (-2 * N * δ ^ 2) := by
  classical
  intro share
  have := uniformDraws_prob hU
  have hN' : (0 : ℝ) < N := by exact_mod_cast hN
  have H := C148_deviation (P := P) (api := api) (level := level) (test := test) hU hq hs d0 hn hv hw (fun _ cells => if 0 < hourOf24 h cells then 1 else 0) (a := fun _ => 0)
    (b := fun _ => 1) (fun k hk ω r e => by split_ifs <;> norm_num) (ε := N * δ) (by positivity)
  have hX : ∀ ω, ∀ k, dayQuantity (fun cells => if 0 < hourOf24 h cells then (1 : ℝ) else 0) (disaggPrecCascade api (fun i => U i ω) (dailyS d0 n v) opts true level 0 test)
      (d0 + (w k : Nat)) = if 0 < hourAmount (disaggPrecCascade api (fun i => U i ω) (dailyS d0 n v) opts true level 0 test) (d0 + (w k : Nat)) h then 1 else 0 := by
    intro ω k
    rw [hourAmount_quantity]
    generalize disaggPrecCascade api (fun i => U i ω) (dailyS d0 n v) opts true level 0 test = run
    cases run with
    | ok r => rfl
    | error _ => simp [dayQuantity]
  have hI := fun k (hk : k < N) => dayQuantity_integrable (P := P) (api := api) (level := level) (test := test) hU hq hs d0 hn hv
    (fun cells => if 0 < hourOf24 h cells then (1 : ℝ) else 0) (hw.inside k hk)
  simp only [sub_zero, hX, Finset.sum_const, Finset.card_range, nsmul_eq_mul, one_pow, mul_one] at H hI
  have e : -2 * ((N : ℝ) * δ) ^ 2 / N = -2 * N * δ ^ 2 := by field_simp
  rw [e] at H
  refine le_trans (measureReal_mono ?_) H
  intro ω hω
  have hE : ∀ k ∈ Finset.range N, α ^ 5 ≤ (∫ ω, (if 0 < hourAmount (disaggPrecCascade api (fun i => U i ω) (dailyS d0 n v) opts true level 0 test) (d0 + (w k : Nat)) h then (1 : ℝ) else 0) ∂P) ∧
      (∫ ω, (if 0 < hourAmount (disaggPrecCascade api (fun i => U i ω) (dailyS d0 n v) opts true level 0 test) (d0 + (w k : Nat)) h then (1 : ℝ) else 0) ∂P) ≤ 2 * β ^ 5 := by
    intro k hk
    obtain ⟨x, x0, hxk⟩ := hx k (Finset.mem_range.1 hk)
    have := C142_hour (P := P) (api := api) (level := level) (test := test) (d0 := d0) hU hn hv hq hs hα hsh (hw.inside k (Finset.mem_range.1 hk)) hxk x0 hh
    dsimp only at this
    rw [prob_of_mark (hI k (Finset.mem_range.1 hk))] at this
    exact this
  have lo := Finset.card_nsmul_le_sum _ _ _ fun k hk => (hE k hk).1
  have up := Finset.sum_le_card_nsmul _ _ _ fun k hk => (hE k hk).2
  rw [Finset.card_range, nsmul_eq_mul] at lo up
  simp only [Set.mem_setOf_eq] at hω ⊢
  have hshare : share ω = (∑ k ∈ Finset.range N, if 0 < hourAmount (disaggPrecCascade api (fun i => U i ω) (dailyS d0 n v) opts true level 0 test) (d0 + (w k : Nat)) h then (1 : ℝ) else 0) / N := by
    simp only [share, Finset.sum_boole]
  rw [hshare, div_le_iff₀ hN', le_div_iff₀ hN'] at hω
  rcases hω with hω | hω
  · exact le_trans (by linarith) (neg_le_abs _)
  · exact le_trans (by linarith) (le_abs_self _)

/-- **C148** (law of large numbers): for the record `x, 0, x, 0, …` of `2 N` days and balanced statistics, the probability that the mean precipitation of an hour of the day
deviates from `x / 24` by more than 0.03 % and `δ x` tends to 0 when the record gets longer. -/
theorem C148_limit (hU : UniformDraws P U) (hq : ∀ l b t, (q l b t).Proper) (hs : StatsAre opts 5 q thr)
    (hp : ∀ l b t, (q l b t).p01 = (q l b t).p10) (hsym : ∀ l b t k, (q l b t).w k = (q l b t).w (Fin.rev k)) (d0 : Int) {x : ℝ} (hx : 0 < x)
    {h : Nat} (hh : h < 24) {δ : ℝ} (hδ : 0 < δ) :
    Tendsto (fun N : Nat => P.real {ω | 3 / 10000 * (x / 24) + δ * x ≤
        |(∑ k ∈ Finset.range N, hourAmount (disaggPrecCascade api (fun i => U i ω) (dailyS d0 (2 * N) fun i => if i % 2 = 0 then .fin x else .fin 0) opts true level 0 test)
          (d0 + (2 * k : Nat)) h) / N - x / 24|}) atTop (𝓝 0) := by
  have b : ∀ N : Nat, 0 < N → P.real {ω | 3 / 10000 * (x / 24) + δ * x ≤
        |(∑ k ∈ Finset.range N, hourAmount (disaggPrecCascade api (fun i => U i ω) (dailyS d0 (2 * N) fun i => if i % 2 = 0 then .fin x else .fin 0) opts true level 0 test)
          (d0 + (2 * k : Nat)) h) / N - x / 24|} ≤ 2 * Real.exp (-2 * N * δ ^ 2) := fun N hN =>
    C148_balanced (P := P) (api := api) (level := level) (test := test) hU hq hs hp hsym d0 (n := 2 * N) (by omega) (v := fun i => if i % 2 = 0 then .fin x else .fin 0)
      (fun i _ => by by_cases h : i % 2 = 0 <;> simp [h, hx.le]) (w := fun k => 2 * k) (N := N)
      ⟨fun k hk => by omega, fun k hk => ⟨2 * k + 1, by omega, by omega, .inr (by rw [if_neg (by omega)])⟩⟩ hx (fun k _ => by simp) hN hh hδ.le
  have hlim : Tendsto (fun N : Nat => 2 * Real.exp (-2 * (N : ℝ) * δ ^ 2)) atTop (𝓝 0) := by
    have h1 : Tendsto (fun N : Nat => -2 * (N : ℝ) * δ ^ 2) atTop atBot := by
      have h2 : Tendsto (fun N : Nat => (2 * δ ^ 2) * (N : ℝ)) atTop atTop := tendsto_natCast_atTop_atTop.const_mul_atTop (by positivity)
      refine (tendsto_neg_atTop_atBot.comp h2).congr fun N => ?_
      simp only [Function.comp]
      ring
    simpa using (Real.tendsto_exp_atBot.comp h1).const_mul 2
  refine squeeze_zero' (Eventually.of_forall fun N => measureReal_nonneg) ?_ hlim
  filter_upwards [eventually_gt_atTop 0] with N hN
  exact b N hN

end

/-! ### non-vacuity -/

/-- C148 at work: 10000 days of 4 mm, each followed by a dry day, with the balanced statistics of C136: the mean precipitation of the hour from 7 to 8 deviates from 4/24 mm by
0.0801 mm or more with a probability of at most 2 exp(-8) (less than 0.1 %). -/
example : (Measure.infinitePi fun _ : Nat => unit).real {ω | 3 / 10000 * (4 / 24) + 1 / 50 * 4 ≤
      |(∑ k ∈ Finset.range 10000, hourAmount (disaggPrecCascade .modern (fun i => ω i) (dailyS 0 20000 fun i => if i % 2 = 0 then .fin 4 else .fin 0) (.one balancedStats) true 5 0 false)
        (0 + (2 * k : Nat)) 7) / (10000 : Nat) - 4 / 24|} ≤ 2 * Real.exp (-8) := by
  have h := C148_balanced (P := Measure.infinitePi fun _ : Nat => unit) (U := fun k ω => ω k) (api := .modern) (opts := .one balancedStats) (level := 5)
    (test := false) (q := fun _ _ _ => ⟨1 / 4, 1 / 4, fun _ => 1 / 7⟩) (thr := fun _ => .fin 1) uniformDraws_exist (fun _ _ _ => balanced_law) balanced_are
    (fun _ _ _ => rfl) (fun _ _ _ _ => rfl) 0 (n := 20000) (by norm_num) (v := fun i => if i % 2 = 0 then .fin 4 else .fin 0)
    (fun i _ => by by_cases h : i % 2 = 0 <;> simp [h]) (w := fun k => 2 * k) (N := 10000)
    ⟨fun k hk => by omega, fun k hk => ⟨2 * k + 1, by omega, by omega, .inr (by rw [if_neg (by omega)])⟩⟩ (x := 4) (by norm_num) (fun k _ => by simp) (by norm_num)
    (h := 7) (by norm_num) (δ := 1 / 50) (by norm_num)
  rw [show (-2 * ((10000 : Nat) : ℝ) * (1 / 50) ^ 2) = -8 by norm_num] at h
  exact h

/-- and that hour is wet on at least 22 % of these days, except with a probability of at most 2 exp(-2) (0.237… = (3/4)^5). -/
example : (Measure.infinitePi fun _ : Nat => unit).real {ω |
      (((Finset.range 10000).filter fun k => 0 < hourAmount (disaggPrecCascade .modern (fun i => ω i) (dailyS 0 20000 fun i => if i % 2 = 0 then .fin 4 else .fin 0)
        (.one balancedStats) true 5 0 false) (0 + (2 * k : Nat)) 7).card : ℝ) / (10000 : Nat) ≤ 22 / 100} ≤ 2 * Real.exp (-2) := by
  have h := C148_wet (P := Measure.infinitePi fun _ : Nat => unit) (U := fun k ω => ω k) (api := .modern) (opts := .one balancedStats) (level := 5)
    (test := false) (q := fun _ _ _ => ⟨1 / 4, 1 / 4, fun _ => 1 / 7⟩) (thr := fun _ => .fin 1) uniformDraws_exist (fun _ _ _ => balanced_law) balanced_are
    0 (n := 20000) (by norm_num) (v := fun i => if i % 2 = 0 then .fin 4 else .fin 0)
    (fun i _ => by by_cases h : i % 2 = 0 <;> simp [h]) (w := fun k => 2 * k) (N := 10000)
    ⟨fun k hk => by omega, fun k hk => ⟨2 * k + 1, by omega, by omega, .inr (by rw [if_neg (by omega)])⟩⟩ (fun k _ => ⟨4, by norm_num, by simp⟩) (by norm_num)
    (α := 3 / 4) (β := 3 / 4) (by norm_num) (by intro l b t; norm_num) (h := 7) (by norm_num) (δ := 1 / 100) (by norm_num)
  rw [show (-2 * ((10000 : Nat) : ℝ) * (1 / 100) ^ 2) = -2 by norm_num] at h
  have := uniformDraws_prob uniformDraws_exist
  refine le_trans (measureReal_mono ?_) h
  intro ω hω
  exact .inl (le_trans hω (by norm_num))

end

end Melodist
