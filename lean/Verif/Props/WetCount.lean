import Verif.Lemmas.WetCount

/-!
# C142: how often boxes and hours are wet in the cascade
-/

set_option linter.unusedSectionVars false

namespace Melodist
open Spec MeasureTheory ProbabilityTheory

noncomputable section

theorem mark_and (x y : ℝ) [Decidable (0 < x ∧ 0 < y)] : (if 0 < x ∧ 0 < y then (1 : ℝ) else 0) = wetMark x * wetMark y := by
  unfold wetMark
  by_cases h1 : 0 < x <;> by_cases h2 : 0 < y <;> simp [h1, h2]

section
variable {Ω : Type} [MeasurableSpace Ω] {P : Measure Ω} {U : Nat → Ω → ℝ}
  {api : PandasApi} {opts : CascOptions ℝ} {hourly : Bool} {level : Nat} {shift : Int} {test : Bool}
  {d0 : Int} {n : Nat} {v : Nat → XF ℝ} {L : Nat} {q : Nat → Fin 2 → Fin 4 → SplitLaw} {thr : Nat → XF ℝ}

/-- **C142** (halves of a box): given the levels before, the first half of a wet box is wet with probability 1 - P(0/1), the second with probability
1 - P(1/0), both with probability 1 - P(0/1) - P(1/0), with the probabilities of the level's statistics for the box's class and type; the halves of a dry box are
dry.  Stated as probabilities of the events together with the event that the first `l` levels are `past`. -/
theorem C142_halves (hU : UniformDraws P U)
    (ht : hourly = true ∨ test = false ∨ 9 ≤ level) (hn : 2 ≤ n)
    (hv : ∀ i < n, v i = .nan ∨ ∃ x, 0 ≤ x ∧ v i = .fin x) (hL : L = if hourly then 5 else level) (h11 : L ≤ 11)
    (hq : ∀ l b t, (q l b t).Proper) (hs : StatsAre opts L q thr) {l : Nat} (hl : l < L) (past : List (List ℝ)) (hp : past.length = l)
    {p : List ℝ} (hpl : p = (dailyAmounts n v :: past).getD l []) {j : Nat} (hj : j < p.length) {sl : SplitLaw}
    (hsl : sl = q l (if XF.lt (thr l) (.fin (p.getD j 0)) then 1 else 0) (posType p j)) :
    let run := fun ω => disaggPrecCascade api (fun k => U k ω) (dailyS d0 n v) opts hourly level shift test
    let pr := P.real {ω | firstLevels (run ω) l past}
    let wet := wetMark (p.getD j 0)
    P.real {ω | firstLevels (run ω) l past ∧ 0 < amountIn (run ω) l (2 * j)} = (1 - sl.p01) * wet * pr ∧
    P.real {ω | firstLevels (run ω) l past ∧ 0 < amountIn (run ω) l (2 * j + 1)} = (1 - sl.p10) * wet * pr ∧
    P.real {ω | firstLevels (run ω) l past ∧ 0 < amountIn (run ω) l (2 * j) ∧ 0 < amountIn (run ω) l (2 * j + 1)} = (1 - sl.p01 - sl.p10) * wet * pr := by
  classical
  intro run pr wet
  have hE := (cascade_expect (P := P) (api := api) (shift := shift) (d0 := d0) hU ht hn hv hL (by omega) h11 hq hs).2
  have hfl : ∀ ω r, disaggPrecCascade api (fun k => U k ω) (dailyS d0 n v) opts hourly level shift test = .ok r →
      (firstLevels (run ω) l past ↔ r.levels.take l = past) := by
    intro ω r h
    unfold firstLevels
    constructor
    · rintro ⟨r', e, h'⟩
      have : run ω = .ok r := h
      rw [this] at e
      injection e with e
      rw [e]; exact h'
    · intro h'; exact ⟨r, h, h'⟩
  have hpr : pr = ∑ ls ∈ outcomes L (dailyAmounts n v), (if ls.take l = past then levelsProb q thr 0 none (dailyAmounts n v) ls else 0) := by
    obtain ⟨i1, i2⟩ := hE (fun ω => if firstLevels (run ω) l past then 1 else 0) (fun ls => if ls.take l = past then 1 else 0) (by
      intro ω r h
      simp only [hfl ω r h])
    exact (prob_of_mark i1).trans (i2.trans (Finset.sum_congr rfl fun ls _ => by split_ifs <;> ring))
  have ha : ∀ ω r, disaggPrecCascade api (fun k => U k ω) (dailyS d0 n v) opts hourly level shift test = .ok r → ∀ m,
      amountIn (run ω) l m = (r.levels.getD l []).getD m 0 := by
    intro ω r h m
    have : run ω = .ok r := h
    rw [this]; rfl
  have hnn := dailyAmounts_nonneg hv
  have hex : ∀ (A : Ω → Prop) (G : List ℝ → ℝ) (_ : ∀ ω r, disaggPrecCascade api (fun k => U k ω) (dailyS d0 n v) opts hourly level shift test = .ok r →
        (if A ω then (1 : ℝ) else 0) = G (r.levels.getD l []))
      (coef : SplitLaw → ℝ) (_ : ∀ (l : Nat) (start : Option ℝ) (p : List ℝ), (∀ x ∈ p, 0 ≤ x) → j < p.length →
        ∑ c ∈ levelOutcomes p, levelProb (q l) (thr l) start p c * G c = coef (lawOf (q l) (thr l) p j) * wetMark (p.getD j 0)),
      P.real {ω | firstLevels (run ω) l past ∧ A ω} = coef sl * wet * pr := by
    intro A G hA coef hone
    have h := levels_past_fun (thr := thr) hq G (fun l p => coef (lawOf (q l) (thr l) p j) * wetMark (p.getD j 0)) hone l L 0 none (dailyAmounts n v) past
      hl hp hnn (by rw [← hpl]; exact hj)
    rw [← hpr, ← hpl, Nat.zero_add] at h
    obtain ⟨i1, i2⟩ := hE (fun ω => if firstLevels (run ω) l past ∧ A ω then 1 else 0) (fun ls => if ls.take l = past then G (ls.getD l []) else 0) (by
      intro ω r hr
      simp only [← hA ω r hr, hfl ω r hr]
      by_cases h1 : r.levels.take l = past <;> simp [h1])
    rw [hsl]
    exact (prob_of_mark i1).trans ((i2.trans (Finset.sum_congr rfl fun ls _ => by split_ifs <;> ring)).trans h)
  refine ⟨hex _ (fun c => wetMark (c.getD (2 * j) 0)) ?_ (fun s => 1 - s.p01) fun l start p hp hj => (level_wet (hq l) start hp hj).1,
    hex _ (fun c => wetMark (c.getD (2 * j + 1) 0)) ?_ (fun s => 1 - s.p10) fun l start p hp hj => (level_wet (hq l) start hp hj).2.1,
    hex _ (fun c => wetMark (c.getD (2 * j) 0) * wetMark (c.getD (2 * j + 1) 0)) ?_ (fun s => 1 - s.p01 - s.p10)
      fun l start p hp hj => (level_wet (hq l) start hp hj).2.2⟩
  · intro ω r h
    simp only [ha ω r h, wetMark]
  · intro ω r h
    simp only [ha ω r h, wetMark]
  · intro ω r h
    simp only [ha ω r h]
    exact mark_and _ _

theorem day_mark {i : Nat} (hi : i < n) {x : ℝ} (hx : v i = .fin x) : (dailyAmounts n v).getD i 0 = x := by
  rw [List.getD_eq_getElem _ _ (by simpa [dailyAmounts] using hi)]
  simp [dailyAmounts, hx]

theorem day_missing {i : Nat} (hi : i < n) (hx : v i = .nan) : (dailyAmounts n v).getD i 0 = 0 := by
  rw [List.getD_eq_getElem _ _ (by simpa [dailyAmounts] using hi)]
  simp [dailyAmounts, hx]

/-- **C142** (boxes): if 1 - P(0/1) and 1 - P(1/0) lie between `α` and `β` for all levels, classes and types, a box of level `l` of a day with precipitation is
wet with a probability between `α ^ (l + 1)` and `β ^ (l + 1)`. -/
theorem C142_boxes (hU : UniformDraws P U)
    (ht : hourly = true ∨ test = false ∨ 9 ≤ level) (hn : 2 ≤ n)
    (hv : ∀ i < n, v i = .nan ∨ ∃ x, 0 ≤ x ∧ v i = .fin x) (hL : L = if hourly then 5 else level) (h11 : L ≤ 11)
    (hq : ∀ l b t, (q l b t).Proper) (hs : StatsAre opts L q thr) {α β : ℝ} (hα : 0 ≤ α)
    (hsh : ∀ l b t, α ≤ 1 - (q l b t).p01 ∧ 1 - (q l b t).p01 ≤ β ∧ α ≤ 1 - (q l b t).p10 ∧ 1 - (q l b t).p10 ≤ β)
    {l : Nat} (hl : l < L) {j : Nat} (hj : j < n * 2 ^ (l + 1)) {x : ℝ} (hx : v (j / 2 ^ (l + 1)) = .fin x) (hx0 : 0 < x) :
    let run := fun ω => disaggPrecCascade api (fun k => U k ω) (dailyS d0 n v) opts hourly level shift test
    α ^ (l + 1) ≤ P.real {ω | 0 < amountIn (run ω) l j} ∧ P.real {ω | 0 < amountIn (run ω) l j} ≤ β ^ (l + 1) := by
  classical
  intro run
  have hE := (cascade_expect (P := P) (api := api) (shift := shift) (d0 := d0) hU ht hn hv hL (by omega) h11 hq hs).2
  obtain ⟨i1, i2⟩ := hE (fun ω => if 0 < amountIn (run ω) l j then 1 else 0) (fun ls => wetMark ((ls.getD l []).getD j 0)) (by
    intro ω r h
    have : run ω = .ok r := h
    simp only [this, wetMark, amountIn])
  have hlen : (dailyAmounts n v).length = n := by simp [dailyAmounts]
  have h := levels_wet (thr := thr) hq hα (hα.trans ((hsh 0 0 0).1.trans (hsh 0 0 0).2.1)) hsh (dailyAmounts_nonneg hv) hl (by rw [hlen]; exact hj)
  have hi : j / 2 ^ (l + 1) < n := by rwa [Nat.div_lt_iff_lt_mul (by positivity)]
  rw [← i2, day_mark hi hx, wetMark_pos hx0, mul_one, mul_one, ← prob_of_mark i1] at h
  exact h

/-- **C142** (number of wet boxes): if 1 + (1 - P(0/1) - P(1/0)) lies between `a` and `b` for all levels, classes and types, the expected number of wet boxes of
level `l` of a day with precipitation lies between `a ^ (l + 1)` and `b ^ (l + 1)`; on a day that is dry or missing it is 0. -/
theorem C142_count (hU : UniformDraws P U)
    (ht : hourly = true ∨ test = false ∨ 9 ≤ level) (hn : 2 ≤ n)
    (hv : ∀ i < n, v i = .nan ∨ ∃ x, 0 ≤ x ∧ v i = .fin x) (hL : L = if hourly then 5 else level) (h11 : L ≤ 11)
    (hq : ∀ l b t, (q l b t).Proper) (hs : StatsAre opts L q thr) {a b : ℝ} (ha : 0 ≤ a)
    (hsh : ∀ l c t, a ≤ 1 + (q l c t).bothWet ∧ 1 + (q l c t).bothWet ≤ b)
    {l : Nat} (hl : l < L) {i : Nat} (hi : i < n) :
    let run := fun ω => disaggPrecCascade api (fun k => U k ω) (dailyS d0 n v) opts hourly level shift test
    Integrable (fun ω => wetBoxCount (run ω) l i) P ∧
    (∀ x, v i = .fin x → 0 < x → a ^ (l + 1) ≤ ∫ ω, wetBoxCount (run ω) l i ∂P ∧ ∫ ω, wetBoxCount (run ω) l i ∂P ≤ b ^ (l + 1)) ∧
    (v i = .nan ∨ v i = .fin 0 → ∫ ω, wetBoxCount (run ω) l i ∂P = 0) := by
  intro run
  have hE := (cascade_expect (P := P) (api := api) (shift := shift) (d0 := d0) hU ht hn hv hL (by omega) h11 hq hs).2
  obtain ⟨i1, i2⟩ := hE (fun ω => wetBoxCount (run ω) l i) (fun ls => ∑ j ∈ Finset.range (2 ^ (l + 1)), wetMark ((ls.getD l []).getD (2 ^ (l + 1) * i + j) 0)) (by
    intro ω r h
    have : run ω = .ok r := h
    simp only [this, wetBoxCount, amountIn])
  have hlen : (dailyAmounts n v).length = n := by simp [dailyAmounts]
  have h := levels_count (thr := thr) hq ha (ha.trans ((hsh 0 0 0).1.trans (hsh 0 0 0).2)) hsh (dailyAmounts_nonneg hv) (k := i) (by rw [hlen]; exact hi) hl
  rw [← i2] at h
  refine ⟨i1, ?_, ?_⟩
  · intro x hx hx0
    rw [day_mark hi hx, wetMark_pos hx0, mul_one, mul_one] at h
    exact h
  · intro hx
    have : (dailyAmounts n v).getD i 0 = 0 := by
      rcases hx with hx | hx
      · exact day_missing hi hx
      · exact day_mark hi hx
    rw [this, wetMark_zero, mul_zero, mul_zero] at h
    exact le_antisymm h.2 h.1

/-- **C142** (wet hours): with hourly output the expected number of wet hours of a day with precipitation lies between 3/4 `a ^ 5` and the smaller of 24 and 2 `b ^ 5`
(`a`, `b` as for the boxes). -/
theorem C142_hours (hU : UniformDraws P U) (hn : 2 ≤ n)
    (hv : ∀ i < n, v i = .nan ∨ ∃ x, 0 ≤ x ∧ v i = .fin x)
    (hq : ∀ l b t, (q l b t).Proper) (hs : StatsAre opts 5 q thr) {a b : ℝ} (ha : 0 ≤ a)
    (hsh : ∀ l c t, a ≤ 1 + (q l c t).bothWet ∧ 1 + (q l c t).bothWet ≤ b)
    {i : Nat} (hi : i < n) {x : ℝ} (hx : v i = .fin x) (hx0 : 0 < x) :
    let run := fun ω => disaggPrecCascade api (fun k => U k ω) (dailyS d0 n v) opts true level 0 test
    Integrable (fun ω => wetHourCount (run ω) (d0 + i)) P ∧
    3 / 4 * a ^ 5 ≤ ∫ ω, wetHourCount (run ω) (d0 + i) ∂P ∧ ∫ ω, wetHourCount (run ω) (d0 + i) ∂P ≤ min 24 (2 * b ^ 5) := by
  intro run
  have hE := (cascade_expect (P := P) (api := api) (shift := 0) (d0 := d0) (hourly := true) (level := level) (test := test) (L := 5) hU (.inl rfl) hn hv rfl
    (by norm_num) (by norm_num) hq hs).2
  obtain ⟨i1, i2⟩ := hE (fun ω => wetHourCount (run ω) (d0 + i)) (fun ls => ∑ k ∈ Finset.range 24, wetMark (hourSum (ls.getD 4 []) i k)) (by
    intro ω r h
    have e : run ω = .ok r := h
    simp only [e, wetHourCount]
    exact Finset.sum_congr rfl fun k hk => by rw [cascade_hour h hi hx (Finset.mem_range.1 hk)]; rfl)
  have hlen : (dailyAmounts n v).length = n := by simp [dailyAmounts]
  have h := levels_count (thr := thr) hq ha (ha.trans ((hsh 0 0 0).1.trans (hsh 0 0 0).2)) hsh (dailyAmounts_nonneg hv) (k := i) (i := 4) (L := 5)
    (by rw [hlen]; exact hi) (by norm_num)
  rw [day_mark hi hx, wetMark_pos hx0, mul_one, mul_one] at h
  norm_num only at h
  have hp : ∀ ls, 0 ≤ levelsProb q thr 0 none (dailyAmounts n v) ls := fun ls => levelsProb_nonneg hq _ _ _ _
  have hb : ∀ ls ∈ outcomes 5 (dailyAmounts n v), _ := fun ls h => hours_boxes (outcomes_nonneg 5 _ ls h 4) i
  refine ⟨i1, ?_, ?_⟩
  · rw [i2]
    refine (mul_le_mul_of_nonneg_left h.1 (by norm_num)).trans ?_
    rw [Finset.mul_sum]
    refine Finset.sum_le_sum fun ls hls => ?_
    rw [mul_left_comm]
    exact mul_le_mul_of_nonneg_left (hb ls hls).1 (hp ls)
  · rw [i2]
    refine le_min ?_ ?_
    · refine (Finset.sum_le_sum fun ls hls => mul_le_mul_of_nonneg_left (hb ls hls).2.2 (hp ls)).trans ?_
      rw [← Finset.sum_mul, levels_one hq, one_mul]
    · refine le_trans ?_ (mul_le_mul_of_nonneg_left h.2 (by norm_num))
      rw [Finset.mul_sum]
      refine Finset.sum_le_sum fun ls hls => ?_
      rw [mul_left_comm]
      exact mul_le_mul_of_nonneg_left (hb ls hls).2.1 (hp ls)

/-- **C142** (an hour): with hourly output every hour of a day with precipitation is wet with a probability between `α ^ 5` and 2 `β ^ 5`
(`α`, `β` as for the boxes). -/
theorem C142_hour (hU : UniformDraws P U) (hn : 2 ≤ n)
    (hv : ∀ i < n, v i = .nan ∨ ∃ x, 0 ≤ x ∧ v i = .fin x)
    (hq : ∀ l b t, (q l b t).Proper) (hs : StatsAre opts 5 q thr) {α β : ℝ} (hα : 0 ≤ α)
    (hsh : ∀ l b t, α ≤ 1 - (q l b t).p01 ∧ 1 - (q l b t).p01 ≤ β ∧ α ≤ 1 - (q l b t).p10 ∧ 1 - (q l b t).p10 ≤ β)
    {i : Nat} (hi : i < n) {x : ℝ} (hx : v i = .fin x) (hx0 : 0 < x) {k : Nat} (hk : k < 24) :
    let run := fun ω => disaggPrecCascade api (fun k => U k ω) (dailyS d0 n v) opts true level 0 test
    α ^ 5 ≤ P.real {ω | 0 < hourAmount (run ω) (d0 + i) k} ∧ P.real {ω | 0 < hourAmount (run ω) (d0 + i) k} ≤ 2 * β ^ 5 := by
  classical
  intro run
  have hE := (cascade_expect (P := P) (api := api) (shift := 0) (d0 := d0) (hourly := true) (level := level) (test := test) (L := 5) hU (.inl rfl) hn hv rfl
    (by norm_num) (by norm_num) hq hs).2
  obtain ⟨i1, i2⟩ := hE (fun ω => if 0 < hourAmount (run ω) (d0 + i) k then 1 else 0) (fun ls => wetMark (hourSum (ls.getD 4 []) i k)) (by
    intro ω r h
    have e : run ω = .ok r := h
    simp only [e, cascade_hour h hi hx hk]
    unfold wetMark hourSum
    rfl)
  have hlen : (dailyAmounts n v).length = n := by simp [dailyAmounts]
  have hp : ∀ ls, 0 ≤ levelsProb q thr 0 none (dailyAmounts n v) ls := fun ls => levelsProb_nonneg hq _ _ _ _
  have hw : ∀ m, m = (4 * (24 * i + k)) / 3 ∨ m = (4 * (24 * i + k)) / 3 + 1 → _ := fun m hm =>
    levels_wet (thr := thr) (L := 5) (i := 4) (j := m) hq hα (hα.trans ((hsh 0 0 0).1.trans (hsh 0 0 0).2.1)) hsh (dailyAmounts_nonneg hv) (by norm_num)
      (by rw [hlen]; omega)
  obtain ⟨a1, b1⟩ := hw _ (.inl rfl)
  obtain ⟨a2, b2⟩ := hw _ (.inr rfl)
  rw [show (4 * (24 * i + k)) / 3 / 2 ^ (4 + 1) = i by omega, day_mark hi hx, wetMark_pos hx0, mul_one] at a1 b1
  rw [show ((4 * (24 * i + k)) / 3 + 1) / 2 ^ (4 + 1) = i by omega, day_mark hi hx, wetMark_pos hx0, mul_one] at a2 b2
  have two : ∀ ls ∈ outcomes 5 (dailyAmounts n v), _ := fun ls h => hour_two (outcomes_nonneg 5 _ ls h 4) i k
  rw [prob_of_mark i1, i2]
  constructor
  · refine a1.trans (Finset.sum_le_sum fun ls h => mul_le_mul_of_nonneg_left ?_ (hp ls))
    rw [two ls h]; exact le_max_left _ _
  · rw [two_mul]
    refine le_trans ?_ (add_le_add b1 b2)
    rw [← Finset.sum_add_distrib]
    refine Finset.sum_le_sum fun ls h => ?_
    rw [← mul_add, two ls h]
    refine mul_le_mul_of_nonneg_left (max_le ?_ ?_) (hp ls)
    · exact le_add_of_nonneg_right (wetMark_nonneg _)
    · exact le_add_of_nonneg_left (wetMark_nonneg _)

end

/-! ### non-vacuity -/

theorem balanced_law : (⟨1 / 4, 1 / 4, fun _ => 1 / 7⟩ : SplitLaw).Proper := ⟨⟨by norm_num, by norm_num, fun _ => by norm_num⟩, by norm_num, by norm_num⟩

theorem balanced_are : StatsAre (.one balancedStats) 5 (fun _ _ _ => ⟨1 / 4, 1 / 4, fun _ => 1 / 7⟩) fun _ => .fin 1 :=
  ⟨by simp, by
    intro l hl
    refine ⟨balancedStats, ⟨rfl, ?_⟩, fun b t => ⟨rfl, rfl, fun k => rfl⟩⟩
    interval_cases l <;> rfl⟩

/-- C142 at work: 4 mm on the first of two days, P(0/1) = P(1/0) = 1/4: on average (3/2)^5 of the 32 boxes of the last level of the first day are wet, none of the second; between
5.6 and 15.2 of its hours are wet on average, and every hour is wet with probability at least (3/4)^5. -/
example : let run := fun ω : Nat → ℝ => disaggPrecCascade .modern (fun k => ω k) (dailyS 0 2 fun i => if i = 0 then .fin 4 else .fin 0) (.one balancedStats) true 5 0 false
    (∫ ω, wetBoxCount (run ω) 4 0 ∂(Measure.infinitePi fun _ : Nat => unit)) = 243 / 32 ∧
    (∫ ω, wetBoxCount (run ω) 4 1 ∂(Measure.infinitePi fun _ : Nat => unit)) = 0 ∧
    729 / 128 ≤ (∫ ω, wetHourCount (run ω) 0 ∂(Measure.infinitePi fun _ : Nat => unit)) ∧
    (∫ ω, wetHourCount (run ω) 0 ∂(Measure.infinitePi fun _ : Nat => unit)) ≤ 243 / 16 ∧
    243 / 1024 ≤ (Measure.infinitePi fun _ : Nat => unit).real {ω | 0 < hourAmount (run ω) 0 7} := by
  intro run
  have hv : ∀ i < 2, (fun i => if i = 0 then XF.fin (4 : ℝ) else .fin 0) i = .nan ∨ ∃ x, 0 ≤ x ∧ (fun i => if i = 0 then XF.fin (4 : ℝ) else .fin 0) i = .fin x := by
    intro i _; by_cases h : i = 0 <;> simp [h]
  have hb : ∀ (l : Nat) (c : Fin 2) (t : Fin 4), (3 / 2 : ℝ) ≤ 1 + ((fun _ _ _ => ⟨1 / 4, 1 / 4, fun _ => 1 / 7⟩ : Nat → Fin 2 → Fin 4 → SplitLaw) l c t).bothWet ∧
      1 + ((fun _ _ _ => ⟨1 / 4, 1 / 4, fun _ => 1 / 7⟩ : Nat → Fin 2 → Fin 4 → SplitLaw) l c t).bothWet ≤ 3 / 2 := by
    intro l c t; simp only [SplitLaw.bothWet]; norm_num
  have c := fun i (hi : i < 2) => C142_count (P := Measure.infinitePi fun _ : Nat => unit) (U := fun k ω => ω k) (api := .modern) (opts := .one balancedStats) (hourly := true) (level := 5)
    (shift := 0) (test := false) (d0 := 0) (n := 2) (v := fun i => if i = 0 then .fin 4 else .fin 0) (thr := fun _ => .fin 1)
    uniformDraws_exist (.inl rfl) (by norm_num) hv rfl (by norm_num) (fun _ _ _ => balanced_law) balanced_are (by norm_num) hb (l := 4) (by norm_num) (i := i) hi
  have h := C142_hours (P := Measure.infinitePi fun _ : Nat => unit) (U := fun k ω => ω k) (api := .modern) (opts := .one balancedStats) (level := 5)
    (test := false) (d0 := 0) (n := 2) (v := fun i => if i = 0 then .fin 4 else .fin 0) (thr := fun _ => .fin 1)
    uniformDraws_exist (by norm_num) hv (fun _ _ _ => balanced_law) balanced_are (by norm_num) hb (i := 0) (by norm_num) rfl (by norm_num)
  have w := C142_hour (P := Measure.infinitePi fun _ : Nat => unit) (U := fun k ω => ω k) (api := .modern) (opts := .one balancedStats) (level := 5)
    (test := false) (d0 := 0) (n := 2) (v := fun i => if i = 0 then .fin 4 else .fin 0) (q := fun _ _ _ => ⟨1 / 4, 1 / 4, fun _ => 1 / 7⟩) (thr := fun _ => .fin 1)
    uniformDraws_exist (by norm_num) hv (fun _ _ _ => balanced_law) balanced_are (α := 3 / 4) (β := 3 / 4) (by norm_num) (by intro l b t; norm_num) (i := 0) (by norm_num) rfl (by norm_num)
    (k := 7) (by norm_num)
  have c0 := (c 0 (by norm_num)).2.1 4 rfl (by norm_num)
  have c1 := (c 1 (by norm_num)).2.2 (.inr rfl)
  refine ⟨le_antisymm (c0.2.trans (by norm_num)) (le_trans (by norm_num) c0.1), c1, ?_, ?_, ?_⟩
  · exact le_trans (by norm_num) h.2.1
  · exact h.2.2.trans ((min_le_right _ _).trans (by norm_num))
  · exact le_trans (by norm_num) w.1

end

end Melodist
