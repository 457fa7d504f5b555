import Verif.Lemmas.Peaks

/-!
# C160: how concentrated the precipitation of a day is in the cascade
-/

set_option linter.unusedSectionVars false

namespace Melodist
open Spec MeasureTheory ProbabilityTheory

noncomputable section

section
variable {Ω : Type} [MeasurableSpace Ω] {P : Measure Ω} {U : Nat → Ω → ℝ}
  {api : PandasApi} {opts : CascOptions ℝ} {hourly : Bool} {level : Nat} {shift : Int} {test : Bool}
  {d0 : Int} {n : Nat} {v : Nat → XF ℝ} {L : Nat} {q : Nat → Fin 2 → Fin 4 → SplitLaw} {thr : Nat → XF ℝ}

/-- **C160** (moments of the halves of a box): given the levels before, the expected `r`-th power of the amount in the first half of a box with the amount `y` is
P(1/0) + (1 - P(0/1) - P(1/0)) * (mean `r`-th power of the weight) times `y ^ r`, that of the second half P(0/1) + (1 - P(0/1) - P(1/0)) * (mean `r`-th power of 1 - weight)
times `y ^ r`, with the probabilities of the level's statistics for the box's class and type.  Stated as expectations over the event that the first `l` levels are `past`. -/
theorem C160_halves (hU : UniformDraws P U)
    (ht : hourly = true ∨ test = false ∨ 9 ≤ level) (hn : 2 ≤ n)
    (hv : ∀ i < n, v i = .nan ∨ ∃ x, 0 ≤ x ∧ v i = .fin x) (hL : L = if hourly then 5 else level) (h11 : L ≤ 11)
    (hq : ∀ l b t, (q l b t).Proper) (hs : StatsAre opts L q thr) {r : Nat} (hr : r ≠ 0) {l : Nat} (hl : l < L) (past : List (List ℝ)) (hp : past.length = l)
    {p : List ℝ} (hpl : p = (dailyAmounts n v :: past).getD l []) {j : Nat} (hj : j < p.length) {sl : SplitLaw}
    (hsl : sl = q l (if XF.lt (thr l) (.fin (p.getD j 0)) then 1 else 0) (posType p j)) :
    open Classical in
    let run := fun ω => disaggPrecCascade api (fun k => U k ω) (dailyS d0 n v) opts hourly level shift test
    let pr := P.real {ω | firstLevels (run ω) l past}
    (∫ ω, (if firstLevels (run ω) l past then amountIn (run ω) l (2 * j) ^ r else 0) ∂P) = sl.firstMoment r * p.getD j 0 ^ r * pr ∧
    (∫ ω, (if firstLevels (run ω) l past then amountIn (run ω) l (2 * j + 1) ^ r else 0) ∂P) = sl.secondMoment r * p.getD j 0 ^ r * pr := by
  classical
  intro run pr
  have hE := (cascade_expect (P := P) (api := api) (shift := shift) (d0 := d0) hU ht hn hv hL (by omega) h11 hq hs).2
  have hfl : ∀ ω r, disaggPrecCascade api (fun k => U k ω) (dailyS d0 n v) opts hourly level shift test = .ok r →
      (firstLevels (run ω) l past ↔ r.levels.take l = past) := by
    intro ω r h
    unfold firstLevels
    constructor
    · rintro ⟨r', e, h'⟩
      have : run ω = .ok r := h
      rw [this] at e
      injection e with e
      rw [e]; exact h'
    · intro h'; exact ⟨r, h, h'⟩
  have hpr : pr = ∑ ls ∈ outcomes L (dailyAmounts n v), (if ls.take l = past then levelsProb q thr 0 none (dailyAmounts n v) ls else 0) := by
    obtain ⟨i1, i2⟩ := hE (fun ω => if firstLevels (run ω) l past then 1 else 0) (fun ls => if ls.take l = past then 1 else 0) (by
      intro ω r h
      simp only [hfl ω r h])
    exact (prob_of_mark i1).trans (i2.trans (Finset.sum_congr rfl fun ls _ => by split_ifs <;> ring))
  have hnn := dailyAmounts_nonneg hv
  have hex : ∀ (m : Nat) (coef : SplitLaw → ℝ) (_ : ∀ (l : Nat) (start : Option ℝ) (p : List ℝ), (∀ x ∈ p, 0 ≤ x) → j < p.length →
        ∑ c ∈ levelOutcomes p, levelProb (q l) (thr l) start p c * c.getD m 0 ^ r = coef (lawOf (q l) (thr l) p j) * p.getD j 0 ^ r),
      (∫ ω, (if firstLevels (run ω) l past then amountIn (run ω) l m ^ r else 0) ∂P) = coef sl * p.getD j 0 ^ r * pr := by
    intro m coef hone
    have h := levels_past_fun (thr := thr) hq (fun c => c.getD m 0 ^ r) (fun l p => coef (lawOf (q l) (thr l) p j) * p.getD j 0 ^ r) hone l L 0 none (dailyAmounts n v) past
      hl hp hnn (by rw [← hpl]; exact hj)
    rw [← hpr, ← hpl, Nat.zero_add] at h
    obtain ⟨i1, i2⟩ := hE (fun ω => if firstLevels (run ω) l past then amountIn (run ω) l m ^ r else 0) (fun ls => if ls.take l = past then (ls.getD l []).getD m 0 ^ r else 0) (by
      intro ω r' hr'
      have : amountIn (run ω) l m = (r'.levels.getD l []).getD m 0 := by
        have : run ω = .ok r' := hr'
        rw [this]; rfl
      simp only [hfl ω r' hr', this])
    rw [hsl]
    exact (i2.trans (Finset.sum_congr rfl fun ls _ => by split_ifs <;> ring)).trans h
  exact ⟨hex _ (fun s => s.firstMoment r) fun l start p hp hj => (level_moment (hq l) start hp hj hr).1,
    hex _ (fun s => s.secondMoment r) fun l start p hp hj => (level_moment (hq l) start hp hj hr).2⟩

/-- **C160** (moments of the boxes): if the expected `r`-th powers of the shares of both halves lie between `α` and `β` for all levels, classes and types, the expected `r`-th
power of the amount in a box of level `l` lies between `α ^ (l + 1)` and `β ^ (l + 1)` times the `r`-th power of the amount of its day. -/
theorem C160_boxes (hU : UniformDraws P U)
    (ht : hourly = true ∨ test = false ∨ 9 ≤ level) (hn : 2 ≤ n)
    (hv : ∀ i < n, v i = .nan ∨ ∃ x, 0 ≤ x ∧ v i = .fin x) (hL : L = if hourly then 5 else level) (h11 : L ≤ 11)
    (hq : ∀ l b t, (q l b t).Proper) (hs : StatsAre opts L q thr) {r : Nat} (hr : r ≠ 0) {α β : ℝ} (hα : 0 ≤ α)
    (hsh : ∀ l b t, α ≤ (q l b t).firstMoment r ∧ (q l b t).firstMoment r ≤ β ∧ α ≤ (q l b t).secondMoment r ∧ (q l b t).secondMoment r ≤ β)
    {l : Nat} (hl : l < L) {j : Nat} (hj : j < n * 2 ^ (l + 1)) {x : ℝ} (hx : v (j / 2 ^ (l + 1)) = .fin x) :
    let run := fun ω => disaggPrecCascade api (fun k => U k ω) (dailyS d0 n v) opts hourly level shift test
    Integrable (fun ω => amountIn (run ω) l j ^ r) P ∧
    α ^ (l + 1) * x ^ r ≤ ∫ ω, amountIn (run ω) l j ^ r ∂P ∧ ∫ ω, amountIn (run ω) l j ^ r ∂P ≤ β ^ (l + 1) * x ^ r := by
  intro run
  have hE := (cascade_expect (P := P) (api := api) (shift := shift) (d0 := d0) hU ht hn hv hL (by omega) h11 hq hs).2
  obtain ⟨i1, i2⟩ := hE (fun ω => amountIn (run ω) l j ^ r) (fun ls => (ls.getD l []).getD j 0 ^ r) (by
    intro ω r h
    have : run ω = .ok r := h
    simp only [this, amountIn])
  have hlen : (dailyAmounts n v).length = n := by simp [dailyAmounts]
  have h := levels_moment (thr := thr) hq hr hα (hα.trans ((hsh 0 0 0).1.trans (hsh 0 0 0).2.1)) hsh (dailyAmounts_nonneg hv) hl (by rw [hlen]; exact hj)
  have hi : j / 2 ^ (l + 1) < n := by rwa [Nat.div_lt_iff_lt_mul (by positivity)]
  rw [← i2, day_mark hi hx] at h
  exact ⟨i1, h⟩

/-- **C160** (boxes of a day): if the expected `r`-th powers of the shares of the two halves add up to a number between `a` and `b` for all levels, classes and types, the
expected sum of the `r`-th powers of the boxes of level `l` of a day with the amount `x` lies between `a ^ (l + 1) * x ^ r` and `b ^ (l + 1) * x ^ r`, and the probability that
one of these boxes gets `u` or more is at most `b ^ (l + 1) * (x / u) ^ r`. -/
theorem C160_day (hU : UniformDraws P U)
    (ht : hourly = true ∨ test = false ∨ 9 ≤ level) (hn : 2 ≤ n)
    (hv : ∀ i < n, v i = .nan ∨ ∃ x, 0 ≤ x ∧ v i = .fin x) (hL : L = if hourly then 5 else level) (h11 : L ≤ 11)
    (hq : ∀ l b t, (q l b t).Proper) (hs : StatsAre opts L q thr) {r : Nat} (hr : r ≠ 0) {a b : ℝ} (ha : 0 ≤ a)
    (hsh : ∀ l c t, a ≤ (q l c t).firstMoment r + (q l c t).secondMoment r ∧ (q l c t).firstMoment r + (q l c t).secondMoment r ≤ b)
    {l : Nat} (hl : l < L) {i : Nat} (hi : i < n) {x : ℝ} (hx : v i = .fin x) :
    let run := fun ω => disaggPrecCascade api (fun k => U k ω) (dailyS d0 n v) opts hourly level shift test
    Integrable (fun ω => boxPowers (run ω) r l i) P ∧
    a ^ (l + 1) * x ^ r ≤ ∫ ω, boxPowers (run ω) r l i ∂P ∧ ∫ ω, boxPowers (run ω) r l i ∂P ≤ b ^ (l + 1) * x ^ r ∧
    ∀ u, 0 < u → P.real {ω | ∃ j < 2 ^ (l + 1), u ≤ amountIn (run ω) l (2 ^ (l + 1) * i + j)} ≤ b ^ (l + 1) * (x / u) ^ r := by
  classical
  intro run
  have hE := (cascade_expect (P := P) (api := api) (shift := shift) (d0 := d0) hU ht hn hv hL (by omega) h11 hq hs).2
  obtain ⟨i1, i2⟩ := hE (fun ω => boxPowers (run ω) r l i) (fun ls => ∑ j ∈ Finset.range (2 ^ (l + 1)), (ls.getD l []).getD (2 ^ (l + 1) * i + j) 0 ^ r) (by
    intro ω r h
    have : run ω = .ok r := h
    simp only [this, boxPowers, amountIn])
  have hlen : (dailyAmounts n v).length = n := by simp [dailyAmounts]
  have h := levels_powers (thr := thr) hq hr ha (ha.trans ((hsh 0 0 0).1.trans (hsh 0 0 0).2)) hsh (dailyAmounts_nonneg hv) (k := i) (by rw [hlen]; exact hi) hl
  rw [day_mark hi hx] at h
  refine ⟨i1, i2 ▸ h.1, i2 ▸ h.2, fun u hu => ?_⟩
  obtain ⟨A, hA⟩ : ∃ A : Ω → Prop, A = fun ω => ∃ j < 2 ^ (l + 1), u ≤ amountIn (run ω) l (2 ^ (l + 1) * i + j) := ⟨_, rfl⟩
  obtain ⟨B, hB⟩ : ∃ B : List (List ℝ) → Prop, B = fun ls => ∃ j < 2 ^ (l + 1), u ≤ (ls.getD l []).getD (2 ^ (l + 1) * i + j) 0 := ⟨_, rfl⟩
  obtain ⟨m1, m2⟩ := hE (fun ω => if A ω then 1 else 0) (fun ls => if B ls then 1 else 0) (by
    intro ω r h
    have : run ω = .ok r := h
    have e : A ω ↔ B r.levels := by rw [hA, hB]; simp only [this, amountIn]
    simp only [e])
  have hset : {ω | ∃ j < 2 ^ (l + 1), u ≤ amountIn (run ω) l (2 ^ (l + 1) * i + j)} = {ω | A ω} := by rw [hA]
  rw [hset, prob_of_mark m1, m2]
  refine (Finset.sum_le_sum fun ls hls => mul_le_mul_of_nonneg_left
    (reach_powers (r := r) (fun j _ => getD_nonneg (outcomes_nonneg L _ ls hls l) (2 ^ (l + 1) * i + j)) hu (fun h => by rw [hB] at h; exact h))
    (levelsProb_nonneg hq _ _ _ _)).trans ?_
  simp only [← mul_div_assoc]
  rw [← Finset.sum_div, div_pow, ← mul_div_assoc]
  exact div_le_div_of_nonneg_right h.2 (by positivity)

/-- **C160** (hours of a day): with hourly output the expected sum of the `r`-th powers of the hours of a day with the amount `x` is at most 3/4 (4/3)^r `b ^ 5 * x ^ r` (`b` as for
the boxes), and the probability that some hour of the day gets `u` or more is at most 3/4 `b ^ 5` (4/3 `x / u`)^r. -/
theorem C160_hours (hU : UniformDraws P U) (hn : 2 ≤ n)
    (hv : ∀ i < n, v i = .nan ∨ ∃ x, 0 ≤ x ∧ v i = .fin x)
    (hq : ∀ l b t, (q l b t).Proper) (hs : StatsAre opts 5 q thr) {r : Nat} (hr : r ≠ 0) {b : ℝ}
    (hsh : ∀ l c t, (q l c t).firstMoment r + (q l c t).secondMoment r ≤ b)
    {i : Nat} (hi : i < n) {x : ℝ} (hx : v i = .fin x) :
    let run := fun ω => disaggPrecCascade api (fun k => U k ω) (dailyS d0 n v) opts true level 0 test
    Integrable (fun ω => hourPowers (run ω) r (d0 + i)) P ∧
    ∫ ω, hourPowers (run ω) r (d0 + i) ∂P ≤ 3 / 4 * (4 / 3) ^ r * b ^ 5 * x ^ r ∧
    ∀ u, 0 < u → P.real {ω | ∃ h < 24, u ≤ hourAmount (run ω) (d0 + i) h} ≤ 3 / 4 * b ^ 5 * (4 / 3 * x / u) ^ r := by
  classical
  intro run
  have hE := (cascade_expect (P := P) (api := api) (shift := 0) (d0 := d0) (hourly := true) (level := level) (test := test) (L := 5) hU (.inl rfl) hn hv rfl
    (by norm_num) (by norm_num) hq hs).2
  have hm : ∀ l c t, 0 ≤ (q l c t).firstMoment r + (q l c t).secondMoment r := by
    intro l c t
    obtain ⟨⟨p1, p2, wn⟩, p3, -⟩ := hq l c t
    have h1 : 0 ≤ ∑ k, (q l c t).w k * centre k ^ r := Finset.sum_nonneg fun k _ => mul_nonneg (wn k) (pow_nonneg (centre_pos k).1.le r)
    have h2 : 0 ≤ ∑ k, (q l c t).w k * (1 - centre k) ^ r := Finset.sum_nonneg fun k _ => mul_nonneg (wn k) (pow_nonneg (sub_pos.2 (centre_pos k).2).le r)
    have h3 : 0 ≤ 1 - (q l c t).p01 - (q l c t).p10 := by linarith
    unfold SplitLaw.firstMoment SplitLaw.secondMoment
    linarith [mul_nonneg h3 h1, mul_nonneg h3 h2]
  obtain ⟨i1, i2⟩ := hE (fun ω => hourPowers (run ω) r (d0 + i)) (fun ls => ∑ k ∈ Finset.range 24, hourSum (ls.getD 4 []) i k ^ r) (by
    intro ω r h
    have e : run ω = .ok r := h
    simp only [e, hourPowers]
    exact Finset.sum_congr rfl fun k hk => by rw [cascade_hour h hi hx (Finset.mem_range.1 hk)]; rfl)
  have hlen : (dailyAmounts n v).length = n := by simp [dailyAmounts]
  have h := (levels_powers (thr := thr) hq hr (le_refl 0) ((hm 0 0 0).trans (hsh 0 0 0)) (fun l c t => ⟨hm l c t, hsh l c t⟩) (dailyAmounts_nonneg hv) (k := i) (i := 4) (L := 5)
    (by rw [hlen]; exact hi) (by norm_num)).2
  rw [day_mark hi hx] at h
  norm_num only at h
  have hp : ∀ ls, 0 ≤ levelsProb q thr 0 none (dailyAmounts n v) ls := fun ls => levelsProb_nonneg hq _ _ _ _
  have key : ∑ ls ∈ outcomes 5 (dailyAmounts n v), levelsProb q thr 0 none (dailyAmounts n v) ls * ∑ k ∈ Finset.range 24, hourSum (ls.getD 4 []) i k ^ r ≤
      3 / 4 * (4 / 3) ^ r * b ^ 5 * x ^ r := by
    refine (Finset.sum_le_sum fun ls hls => mul_le_mul_of_nonneg_left (hour_powers (outcomes_nonneg 5 _ ls hls 4) i r) (hp ls)).trans ?_
    have := mul_le_mul_of_nonneg_left h (show (0 : ℝ) ≤ 3 / 4 * (4 / 3) ^ r by positivity)
    rw [Finset.mul_sum] at this
    refine le_trans (le_of_eq (Finset.sum_congr rfl fun ls _ => mul_left_comm _ _ _)) (this.trans (le_of_eq ?_))
    ring
  refine ⟨i1, i2 ▸ key, fun u hu => ?_⟩
  obtain ⟨A, hA⟩ : ∃ A : Ω → Prop, A = fun ω => ∃ h < 24, u ≤ hourAmount (run ω) (d0 + i) h := ⟨_, rfl⟩
  obtain ⟨B, hB⟩ : ∃ B : List (List ℝ) → Prop, B = fun ls => ∃ k < 24, u ≤ hourSum (ls.getD 4 []) i k := ⟨_, rfl⟩
  obtain ⟨m1, m2⟩ := hE (fun ω => if A ω then 1 else 0) (fun ls => if B ls then 1 else 0) (by
    intro ω r h
    have e : run ω = .ok r := h
    have e2 : A ω ↔ B r.levels := by
      rw [hA, hB]
      simp only [e]
      exact exists_congr fun k => and_congr_right fun hk => by rw [cascade_hour h hi hx hk]; rfl
    simp only [e2])
  have hset : {ω | ∃ h < 24, u ≤ hourAmount (run ω) (d0 + i) h} = {ω | A ω} := by rw [hA]
  rw [hset, prob_of_mark m1, m2]
  refine (Finset.sum_le_sum fun ls hls => mul_le_mul_of_nonneg_left
    (reach_powers (r := r) (fun k _ => hourSum_nonneg (outcomes_nonneg 5 _ ls hls 4) i k) hu (fun h => by rw [hB] at h; exact h)) (hp ls)).trans ?_
  simp only [← mul_div_assoc]
  rw [← Finset.sum_div]
  refine (div_le_div_of_nonneg_right key (by positivity)).trans (le_of_eq ?_)
  rw [mul_div_assoc (4 / 3 : ℝ) x u, mul_pow (4 / 3 : ℝ) (x / u) r, div_pow x u r]
  ring

/-- **C160** (heavy hours): if both halves of a wet box are wet with a probability of at least `δ` for all levels, classes and types, the probability that some hour of a day with the
amount `x` gets `u` or more is at most 4/3 (1 - 13/98 `δ`)^5 (`x / u`)². -/
theorem C160_heavy (hU : UniformDraws P U) (hn : 2 ≤ n)
    (hv : ∀ i < n, v i = .nan ∨ ∃ x, 0 ≤ x ∧ v i = .fin x)
    (hq : ∀ l b t, (q l b t).Proper) (hs : StatsAre opts 5 q thr) {δ : ℝ} (hδ : ∀ l c t, δ ≤ (q l c t).bothWet)
    {i : Nat} (hi : i < n) {x : ℝ} (hx : v i = .fin x) {u : ℝ} (hu : 0 < u) :
    P.real {ω | ∃ h < 24, u ≤ hourAmount (disaggPrecCascade api (fun k => U k ω) (dailyS d0 n v) opts true level 0 test) (d0 + i) h} ≤
      4 / 3 * (1 - 13 / 98 * δ) ^ 5 * (x / u) ^ 2 := by
  have hb : ∀ l c t, (q l c t).firstMoment 2 + (q l c t).secondMoment 2 ≤ 1 - 13 / 98 * δ := by
    intro l c t
    have hd := hδ l c t
    obtain ⟨⟨p1, p2, wn⟩, p3, h⟩ := hq l c t
    have hsum : ∑ k, (q l c t).w k * centre k ^ 2 + ∑ k, (q l c t).w k * (1 - centre k) ^ 2 ≤ 85 / 98 := by
      rw [← Finset.sum_add_distrib]
      have h1 : ∀ k : Fin 7, centre k ^ 2 + (1 - centre k) ^ 2 ≤ 85 / 98 := by
        intro k
        fin_cases k
        · show centre 0 ^ 2 + (1 - centre 0) ^ 2 ≤ _; rw [centre0]; norm_num
        · show centre 1 ^ 2 + (1 - centre 1) ^ 2 ≤ _; rw [centre1]; norm_num
        · show centre 2 ^ 2 + (1 - centre 2) ^ 2 ≤ _; rw [centre2]; norm_num
        · show centre 3 ^ 2 + (1 - centre 3) ^ 2 ≤ _; rw [centre3]; norm_num
        · show centre 4 ^ 2 + (1 - centre 4) ^ 2 ≤ _; rw [centre4]; norm_num
        · show centre 5 ^ 2 + (1 - centre 5) ^ 2 ≤ _; rw [centre5]; norm_num
        · show centre 6 ^ 2 + (1 - centre 6) ^ 2 ≤ _; rw [centre6]; norm_num
      have := Finset.sum_le_sum fun k (_ : k ∈ Finset.univ) => mul_le_mul_of_nonneg_left (h1 k) (wn k)
      rw [← Finset.sum_mul, h, one_mul] at this
      simpa only [mul_add] using this
    unfold SplitLaw.bothWet at hd
    unfold SplitLaw.firstMoment SplitLaw.secondMoment
    have h3 : 0 ≤ 1 - (q l c t).p01 - (q l c t).p10 := by linarith
    have := mul_le_mul_of_nonneg_left hsum h3
    rw [mul_add] at this
    linarith
  have h := (C160_hours (P := P) (api := api) (level := level) (test := test) (d0 := d0) hU hn hv hq hs two_ne_zero hb hi hx).2.2 u hu
  refine h.trans (le_of_eq ?_)
  rw [mul_div_assoc, mul_pow]
  ring

end

/-! ### non-vacuity -/

/-- C160 at work: 4 mm on the first of two days, P(0/1) = P(1/0) = 1/4 and equal weights: the expected fourth power of a half is less than 0.355 times that of the box, both together less
than 0.71; so the probability that an hour gets the 4 mm of the first day is at most 0.43, that one gets 3.9 mm or more at most 0.48; the expected sum of the squares of the half days
is at least half of that of the day. -/
example : let run := fun ω : Nat → ℝ => disaggPrecCascade .modern (fun k => ω k) (dailyS 0 2 fun i => if i = 0 then .fin 4 else .fin 0) (.one balancedStats) true 5 0 false
    (Measure.infinitePi fun _ : Nat => unit).real {ω | ∃ h < 24, 4 ≤ hourAmount (run ω) 0 h} ≤ 43 / 100 ∧
    (Measure.infinitePi fun _ : Nat => unit).real {ω | ∃ h < 24, 39 / 10 ≤ hourAmount (run ω) 0 h} ≤ 48 / 100 ∧
    1 / 2 * 4 ^ 2 ≤ ∫ ω, boxPowers (run ω) 2 0 0 ∂(Measure.infinitePi fun _ : Nat => unit) := by
  intro run
  have hv : ∀ i < 2, (fun i => if i = 0 then XF.fin (4 : ℝ) else .fin 0) i = .nan ∨ ∃ x, 0 ≤ x ∧ (fun i => if i = 0 then XF.fin (4 : ℝ) else .fin 0) i = .fin x := by
    intro i _; by_cases h : i = 0 <;> simp [h]
  have h := (C160_hours (P := Measure.infinitePi fun _ : Nat => unit) (U := fun k ω => ω k) (api := .modern) (opts := .one balancedStats) (level := 5)
    (test := false) (d0 := 0) (n := 2) (v := fun i => if i = 0 then .fin 4 else .fin 0) (thr := fun _ => .fin 1)
    uniformDraws_exist (by norm_num) hv (fun _ _ _ => balanced_law) balanced_are (r := 4) (by norm_num) (b := 71 / 100)
    (by
      intro l c t
      simp only [SplitLaw.firstMoment, SplitLaw.secondMoment, Fin.sum_univ_seven, centre0, centre1, centre2, centre3, centre4, centre5, centre6]
      norm_num) (i := 0) (by norm_num) rfl).2.2
  have d := C160_day (P := Measure.infinitePi fun _ : Nat => unit) (U := fun k ω => ω k) (api := .modern) (opts := .one balancedStats) (hourly := true) (level := 5)
    (shift := 0) (test := false) (d0 := 0) (n := 2) (v := fun i => if i = 0 then .fin 4 else .fin 0) (thr := fun _ => .fin 1)
    uniformDraws_exist (.inl rfl) (by norm_num) hv rfl (by norm_num) (fun _ _ _ => balanced_law) balanced_are (r := 2) (by norm_num) (a := 1 / 2) (b := 1) (by norm_num)
    (by
      intro l c t
      simp only [SplitLaw.firstMoment, SplitLaw.secondMoment, Fin.sum_univ_seven, centre0, centre1, centre2, centre3, centre4, centre5, centre6]
      norm_num) (l := 0) (by norm_num) (i := 0) (by norm_num) rfl
  refine ⟨(h 4 (by norm_num)).trans (by norm_num), (h (39 / 10) (by norm_num)).trans (by norm_num), le_trans (by norm_num) d.2.1⟩

/-- The bound for heavy hours at work: for the same days, with both halves wet in half of the splits, an hour gets the whole 4 mm with a probability of at most 95 %. -/
example : (Measure.infinitePi fun _ : Nat => unit).real {ω | ∃ h < 24, 4 ≤ hourAmount (disaggPrecCascade .modern (fun k => ω k)
    (dailyS 0 2 fun i => if i = 0 then .fin 4 else .fin 0) (.one balancedStats) true 5 0 false) 0 h} ≤ 95 / 100 := by
  have h := C160_heavy (P := Measure.infinitePi fun _ : Nat => unit) (U := fun k ω => ω k) (api := .modern) (opts := .one balancedStats) (level := 5)
    (test := false) (d0 := 0) (n := 2) (v := fun i => if i = 0 then .fin 4 else .fin 0) (thr := fun _ => .fin 1)
    uniformDraws_exist (by norm_num) (by intro i _; by_cases h : i = 0 <;> simp [h]) (fun _ _ _ => balanced_law) balanced_are (δ := 1 / 2)
    (by intro l c t; simp only [SplitLaw.bothWet]; norm_num) (i := 0) (by norm_num) rfl (u := 4) (by norm_num)
  exact h.trans (by norm_num)

end

end Melodist
