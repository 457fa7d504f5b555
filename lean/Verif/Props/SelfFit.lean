import Verif.Lemmas.SelfFitMean
import Verif.Props.Cascade
import Verif.Props.WetCount

/-!
# C143: statistics fitted to the splits of the cascade itself
-/

set_option linter.unusedSectionVars false

namespace Melodist
open Spec MeasureTheory ProbabilityTheory

noncomputable section

section
variable {Ω : Type} [MeasurableSpace Ω] {P : Measure Ω} {U : Nat → Ω → ℝ}
  {api : PandasApi} {opts : CascOptions ℝ} {hourly : Bool} {level : Nat} {shift : Int} {test : Bool}
  {d0 : Int} {n : Nat} {v : Nat → XF ℝ} {L : Nat} {q : Nat → Fin 2 → Fin 4 → SplitLaw} {thr : Nat → XF ℝ}

/-- **C143** (unbiased): `aggregate_precipitation` is applied to level `l` of a cascade run, given the levels before (`past`), whose last one (or the daily values)
is `p`.  The percentile of the wet boxes of `p` is `m`, it separates them like the threshold used by the run, and every class and type occurs among the wet boxes.
Then the fit succeeds (with threshold `m`), and the expected values of the fitted P(0/1), P(1/0), P(x/x) and of P(x/x) times the frequency of each ratio class are
the probabilities the run has used.  Stated as integrals over the event that the first `l` levels are `past`. -/
theorem C143_unbiased (hU : UniformDraws P U)
    (ht : hourly = true ∨ test = false ∨ 9 ≤ level) (hn : 2 ≤ n)
    (hv : ∀ i < n, v i = .nan ∨ ∃ x, 0 ≤ x ∧ v i = .fin x) (hL : L = if hourly then 5 else level) (h11 : L ≤ 11)
    (hq : ∀ l b t, (q l b t).Proper) (hs : StatsAre opts L q thr) {l : Nat} (hl : l < L) (past : List (List ℝ)) (hp : past.length = l)
    {p : List ℝ} (hpl : p = (dailyAmounts n v :: past).getD l []) (hp0 : ∀ x ∈ p, 0 ≤ x) (hp2 : 2 ≤ p.length)
    {times : List Time} (htm : times.length = 2 * p.length) {pct m : ℝ} (hm : npPercentile (p.filter fun x => decide (0 < x)) pct = .ok m)
    (hc : ∀ y ∈ p, 0 < y → (m < y ↔ XF.lt (thr l) (.fin y))) (hne : ∀ b t, (boxesOf (thr l) p b t).Nonempty) :
    let run := fun ω => disaggPrecCascade api (fun k => U k ω) (dailyS d0 n v) opts hourly level shift test
    let fit := fun ω => levelFit times (run ω) l pct
    let A := {ω | firstLevels (run ω) l past}
    P.real {ω | firstLevels (run ω) l past ∧ ∃ s, fit ω = .ok s ∧ s.threshold = [.fin m]} = P.real A ∧
    ∀ b t,
      ∫ ω in A, fitEntry (fit ω) (fun s => s.p01 b t) ∂P = (q l b t).p01 * P.real A ∧
      ∫ ω in A, fitEntry (fit ω) (fun s => s.p10 b t) ∂P = (q l b t).p10 * P.real A ∧
      ∫ ω in A, fitEntry (fit ω) (fun s => s.pxx b t) ∂P = (1 - (q l b t).p01 - (q l b t).p10) * P.real A ∧
      ∀ k, ∫ ω in A, fitEntry (fit ω) (fun s => s.pxx b t) * fitEntry (fit ω) (fun s => s.wxx k b t) ∂P =
        (1 - (q l b t).p01 - (q l b t).p10) * (q l b t).w k * P.real A := by
  classical
  intro run fit A
  have hfit : ∀ ω r, disaggPrecCascade api (fun k => U k ω) (dailyS d0 n v) opts hourly level shift test = .ok r →
      fit ω = (aggregatePrecipitation (times.zip ((r.levels.getD l []).map .fin)) pct).map Prod.fst := by
    intro ω r h
    have : run ω = .ok r := h
    simp only [fit, this]
    rfl
  constructor
  · have h := given_past_prob (P := P) (api := api) (shift := shift) (d0 := d0) hU ht hn hv hL h11 hq hs hl past hp hpl (by omega)
      (fun ω => ∃ s, fit ω = .ok s ∧ s.threshold = [.fin m])
      (fun c => ∃ s, (aggregatePrecipitation (times.zip (c.map .fin)) pct).map Prod.fst = .ok s ∧ s.threshold = [.fin m]) (by
        intro ω r h
        rw [hfit ω r h])
    refine h.trans ?_
    rw [Finset.sum_congr rfl (g := fun c => levelProb (q l) (thr l) none p c), level_one (hq l), one_mul]
    intro c hcm
    obtain ⟨s, w, e1, e2⟩ := fit_ok hp0 hp2 hcm htm hm
    rw [if_pos ⟨s, by rw [e1]; rfl, e2⟩, mul_one]
  · intro b t
    obtain ⟨e1, e2, e3, e4, -⟩ := fit_expect (hq l) hp0 hp2 htm hm hc hne b t rfl rfl
    have one := fun (G : Py (CascStats ℝ) → ℝ) => (given_past (P := P) (api := api) (shift := shift) (d0 := d0) hU ht hn hv hL h11 hq hs hl past hp hpl (by omega)
      (fun ω => G (fit ω)) (fun c => G ((aggregatePrecipitation (times.zip (c.map .fin)) pct).map Prod.fst)) (fun ω r h => by rw [hfit ω r h])).2
    refine ⟨(one fun f => fitEntry f fun s => s.p01 b t).trans ?_, (one fun f => fitEntry f fun s => s.p10 b t).trans ?_,
      (one fun f => fitEntry f fun s => s.pxx b t).trans ?_, fun k => (one fun f => fitEntry f (fun s => s.pxx b t) * fitEntry f fun s => s.wxx k b t).trans ?_⟩
    · rw [e1]
    · rw [e2]
    · rw [e3]
    · rw [e4]

/-- **C143** (error): the squared error of the fitted P(0/1), P(1/0) and P(x/x) is on average `P (1 - P) / N`, where `N` is the number of wet boxes of the class and
type; so errors of at least `ε` have at most the probability `P (1 - P) / (N ε²)`. -/
theorem C143_error (hU : UniformDraws P U)
    (ht : hourly = true ∨ test = false ∨ 9 ≤ level) (hn : 2 ≤ n)
    (hv : ∀ i < n, v i = .nan ∨ ∃ x, 0 ≤ x ∧ v i = .fin x) (hL : L = if hourly then 5 else level) (h11 : L ≤ 11)
    (hq : ∀ l b t, (q l b t).Proper) (hs : StatsAre opts L q thr) {l : Nat} (hl : l < L) (past : List (List ℝ)) (hp : past.length = l)
    {p : List ℝ} (hpl : p = (dailyAmounts n v :: past).getD l []) (hp0 : ∀ x ∈ p, 0 ≤ x) (hp2 : 2 ≤ p.length)
    {times : List Time} (htm : times.length = 2 * p.length) {pct m : ℝ} (hm : npPercentile (p.filter fun x => decide (0 < x)) pct = .ok m)
    (hc : ∀ y ∈ p, 0 < y → (m < y ↔ XF.lt (thr l) (.fin y))) (hne : ∀ b t, (boxesOf (thr l) p b t).Nonempty) (b : Fin 2) (t : Fin 4)
    (entry : CascStats ℝ → XF ℝ) (μ : ℝ)
    (he : entry = (fun s => s.p01 b t) ∧ μ = (q l b t).p01 ∨ entry = (fun s => s.p10 b t) ∧ μ = (q l b t).p10 ∨
      entry = (fun s => s.pxx b t) ∧ μ = 1 - (q l b t).p01 - (q l b t).p10) :
    let run := fun ω => disaggPrecCascade api (fun k => U k ω) (dailyS d0 n v) opts hourly level shift test
    let A := {ω | firstLevels (run ω) l past}
    let err := fun ω => fitEntry (levelFit times (run ω) l pct) entry - μ
    ∫ ω in A, err ω ^ 2 ∂P = μ * (1 - μ) / (boxesOf (thr l) p b t).card * P.real A ∧
    ∀ ε > 0, P.real {ω | firstLevels (run ω) l past ∧ ε ≤ |err ω|} ≤ μ * (1 - μ) / ((boxesOf (thr l) p b t).card * ε ^ 2) * P.real A := by
  classical
  intro run A err
  have hfit : ∀ ω r, disaggPrecCascade api (fun k => U k ω) (dailyS d0 n v) opts hourly level shift test = .ok r →
      err ω = fitEntry ((aggregatePrecipitation (times.zip ((r.levels.getD l []).map .fin)) pct).map Prod.fst) entry - μ := by
    intro ω r h
    have : run ω = .ok r := h
    simp only [err, this]
    rfl
  have sq : ∑ c ∈ levelOutcomes p, levelProb (q l) (thr l) none p c * (fitEntry ((aggregatePrecipitation (times.zip (c.map .fin)) pct).map Prod.fst) entry - μ) ^ 2 =
      μ * (1 - μ) / (boxesOf (thr l) p b t).card := by
    obtain ⟨-, -, -, -, e1, e2, e3⟩ := fit_expect (hq l) hp0 hp2 htm hm hc hne b t rfl rfl
    rcases he with ⟨rfl, rfl⟩ | ⟨rfl, rfl⟩ | ⟨rfl, rfl⟩
    · exact e1
    · exact e2
    · exact e3.trans (by ring)
  constructor
  · refine ((given_past (P := P) (api := api) (shift := shift) (d0 := d0) hU ht hn hv hL h11 hq hs hl past hp hpl (by omega) (fun ω => err ω ^ 2)
      (fun c => (fitEntry ((aggregatePrecipitation (times.zip (c.map .fin)) pct).map Prod.fst) entry - μ) ^ 2) (fun ω r h => by rw [hfit ω r h])).2).trans ?_
    rw [sq]
  · intro ε hε
    refine (given_past_prob (P := P) (api := api) (shift := shift) (d0 := d0) hU ht hn hv hL h11 hq hs hl past hp hpl (by omega) (fun ω => ε ≤ |err ω|)
      (fun c => ε ≤ |fitEntry ((aggregatePrecipitation (times.zip (c.map .fin)) pct).map Prod.fst) entry - μ|) (fun ω r h => by rw [hfit ω r h])).le.trans ?_
    refine mul_le_mul_of_nonneg_right ?_ measureReal_nonneg
    rw [← div_div, ← sq, Finset.sum_div]
    refine Finset.sum_le_sum fun c _ => ?_
    rw [mul_div_assoc]
    refine mul_le_mul_of_nonneg_left ?_ (levelProb_nonneg (hq l) _ _ _)
    split_ifs with h
    · rw [le_div_iff₀ (by positivity), one_mul, ← sq_abs (_ - μ)]
      exact pow_le_pow_left₀ hε.le h 2
    · positivity

theorem half_hours (f : Nat → ℝ) : ∑ j ∈ Finset.range 12, ∑ m ∈ Finset.range 4, f ((4 * j + m) / 3) / 3 = ∑ j ∈ Finset.range 16, f j := by
  simp only [Finset.sum_range_succ, Finset.sum_range_zero, zero_add]
  norm_num only
  ring

/-- **C143** (half days): level 0 of a run with hourly output, the boxes to which the statistics of the days are applied, are the sums of twelve hours of the result;
so the fit of `C143_unbiased` with `l = 0` can be made from the result. -/
theorem C143_half_days {rnd : Nat → ℝ} {r : CascadeOut ℝ} (hv : ∀ i < n, ∃ x, 0 ≤ x ∧ v i = .fin x)
    (h : disaggPrecCascade api rnd (dailyS d0 n v) opts true level 0 test = .ok r) :
    r.levels.getD 0 [] = (List.range (2 * n)).map fun k => ∑ j ∈ Finset.range 12, hourAmount (.ok r) (d0 + (k / 2 : Nat)) (12 * (k % 2) + j) := by
  have h21 := C21_cascade_levels api rnd opts true level 0 test d0 n v (by
    intro i hi x hx
    obtain ⟨y, hy, e⟩ := hv i hi
    rw [e] at hx; injection hx with hx; rw [← hx]; exact hy) r h
  obtain ⟨c1, c2, c3⟩ := h21
  simp only [if_true] at c1
  have get : ∀ l < 5, r.levels[l]? = some (r.levels.getD l []) := by
    intro l hl
    rw [List.getD_eq_getElem _ _ (by omega), List.getElem?_eq_getElem (by omega)]
  have len : ∀ l < 5, (r.levels.getD l []).length = 2 ^ (l + 1) * n := fun l hl => c2 l _ (get l hl)
  have pair : ∀ l < 4, ∀ k < 2 ^ (l + 1) * n, (r.levels.getD (l + 1) []).getD (2 * k) 0 + (r.levels.getD (l + 1) []).getD (2 * k + 1) 0 = (r.levels.getD l []).getD k 0 := by
    intro l hl k hk
    obtain ⟨a, b, e1, e2, -, -, e3, -⟩ := c3 (l + 1) (r.levels.getD l []) (r.levels.getD (l + 1) []) (by simpa using get l (by omega)) (get (l + 1) (by omega)) k
      ((r.levels.getD l []).getD k 0) (by
        have hk' : k < (r.levels.getD l []).length := by rw [len l (by omega)]; exact hk
        generalize r.levels.getD l [] = c at hk'
        rw [List.getD_eq_getElem _ _ hk', List.getElem?_eq_getElem hk'])
    generalize r.levels.getD (l + 1) [] = c at *
    rw [List.getD_eq_getElem?_getD, List.getD_eq_getElem?_getD, e1, e2]
    exact e3
  have fold : ∀ s l, l + s = 4 → ∀ k < 2 ^ (l + 1) * n, (r.levels.getD l []).getD k 0 = ∑ j ∈ Finset.range (2 ^ s), (r.levels.getD 4 []).getD (2 ^ s * k + j) 0 := by
    intro s
    induction s with
    | zero =>
      intro l hl k hk
      have : l = 4 := by omega
      subst this
      simp
    | succ s ih =>
      intro l hl k hk
      have hk1 : 2 * k < 2 ^ (l + 1 + 1) * n := by rw [pow_succ]; nlinarith
      have hk2 : 2 * k + 1 < 2 ^ (l + 1 + 1) * n := by rw [pow_succ]; nlinarith
      rw [← pair l (by omega) k hk, ih (l + 1) (by omega) _ hk1, ih (l + 1) (by omega) _ hk2, pow_succ, mul_two, Finset.sum_range_add]
      congr 1
      · exact Finset.sum_congr rfl fun j _ => by congr 1; ring
      · exact Finset.sum_congr rfl fun j _ => by congr 1; ring
  apply List.ext_getElem
  · rw [len 0 (by norm_num)]; simp
  · intro k h1 h2
    have hk : k < 2 * n := by simpa using h2
    have hi : k / 2 < n := by omega
    obtain ⟨x, -, hx⟩ := hv _ hi
    rw [List.getElem_map, List.getElem_range]
    have e : ∀ j ∈ Finset.range 12, hourAmount (.ok r) (d0 + (k / 2 : Nat)) (12 * (k % 2) + j) = hourSum (r.levels.getD 4 []) (k / 2) (12 * (k % 2) + j) := by
      intro j hj
      have := Finset.mem_range.1 hj
      exact cascade_hour h hi hx (by omega)
    rw [Finset.sum_congr rfl e, ← List.getD_eq_getElem _ 0 h1, fold 4 0 (by norm_num) k (by simpa using hk)]
    unfold hourSum
    have e : ∑ j ∈ Finset.range 12, ∑ m ∈ Finset.range 4, (r.levels.getD 4 []).getD (16 * k + (4 * j + m) / 3) 0 / 3 =
        ∑ j ∈ Finset.range 12, ∑ m ∈ Finset.range 4, (r.levels.getD 4 []).getD ((4 * (24 * (k / 2) + (12 * (k % 2) + j)) + m) / 3) 0 / 3 := by
      refine Finset.sum_congr rfl fun j _ => Finset.sum_congr rfl fun m _ => ?_
      congr 2
      omega
    rw [← e, half_hours fun j => (r.levels.getD 4 []).getD (16 * k + j) 0]
    norm_num

end

/-! ### example -/

/-- eleven days with all classes and types -/
def variedDays : List ℝ := [1, 1, 1, 0, 5, 5, 5, 0, 1, 0, 5]

theorem varied_amounts : dailyAmounts 11 (fun i => .fin (variedDays.getD i 0)) = variedDays := by
  apply List.ext_getElem
  · simp [dailyAmounts, variedDays]
  · intro i h1 h2
    simp only [dailyAmounts, List.getElem_map, List.getElem_range]
    rw [List.getD_eq_getElem _ _ h2]

theorem varied_percentile : npPercentile (variedDays.filter fun x => decide (0 < x)) 50 = .ok 3 := by
  have e : (variedDays.filter fun x => decide (0 < x)) = [1, 1, 1, 5, 5, 5, 1, 5] := by
    simp [variedDays, List.filter_cons]
  have e2 : ([1, 1, 1, 5, 5, 5, 1, 5] : List ℝ).insertionSort (· ≤ ·) = [1, 1, 1, 1, 5, 5, 5, 5] := by
    simp only [List.insertionSort, List.foldr, List.orderedInsert]
    norm_num
  unfold npPercentile
  rw [e, e2]
  simp only [List.length_cons, List.length_nil]
  have e7 : ((0 + 1 + 1 + 1 + 1 + 1 + 1 + 1 : Nat) : ℝ) * (50 / 100) = 7 / 2 := by norm_num
  have e8 : ⌊(7 / 2 : ℝ)⌋ = 3 := by rw [Int.floor_eq_iff]; norm_num
  simp only [e7, e8]
  rw [if_neg (by norm_num), show (3 : Int).toNat = 3 from rfl, show min (3 + 1) (0 + 1 + 1 + 1 + 1 + 1 + 1 + 1) = 4 from rfl]
  simp only [List.getD_cons_succ, List.getD_cons_zero]
  norm_num

theorem varied_boxes (b : Fin 2) (t : Fin 4) : (boxesOf (.fin 1) variedDays b t).card = 1 := by
  have tab : boxesOf (.fin 1) variedDays b t = (Finset.range 11).filter fun j =>
      (j, b, t) ∈ ([(0, 0, 0), (1, 0, 1), (2, 0, 2), (4, 1, 0), (5, 1, 1), (6, 1, 2), (8, 0, 3), (10, 1, 3)] : List (Nat × Fin 2 × Fin 4)) := by
    unfold boxesOf
    apply Finset.filter_congr
    intro j hj
    have hj : j < 11 := by simpa [variedDays] using hj
    interval_cases j <;> simp [variedDays, posType, XF.lt, eq_comm]
  rw [tab]
  clear tab
  revert b t
  decide

/-- C143 at work: 1 mm and 5 mm days of all position types with the statistics P(0/1) = P(1/0) = 1/4: the statistics fitted to the half days succeed almost surely with the
threshold 3, their entries are 1/4, 1/4 and 1/2 on average, and the squared error of P(0/1) is 3/16 on average (one box of each class and type). -/
example : let run := fun ω : Nat → ℝ => disaggPrecCascade .modern (fun k => ω k) (dailyS 0 11 fun i => .fin (variedDays.getD i 0)) (.one balancedStats) true 5 0 false
    let times : List Time := (List.range 22).map Int.ofNat
    let P := Measure.infinitePi fun _ : Nat => unit
    P.real {ω | ∃ s, levelFit times (run ω) 0 50 = .ok s ∧ s.threshold = [.fin 3]} = 1 ∧
    (∀ b t, ∫ ω, fitEntry (levelFit times (run ω) 0 50) (fun s => s.p01 b t) ∂P = 1 / 4 ∧ ∫ ω, fitEntry (levelFit times (run ω) 0 50) (fun s => s.pxx b t) ∂P = 1 / 2) ∧
    ∀ b t, ∫ ω, (fitEntry (levelFit times (run ω) 0 50) (fun s => s.p01 b t) - 1 / 4) ^ 2 ∂P = 3 / 16 := by
  intro run times P
  have hv : ∀ i < 11, (fun i => XF.fin (variedDays.getD i 0)) i = .nan ∨ ∃ x, 0 ≤ x ∧ (fun i => XF.fin (variedDays.getD i 0)) i = .fin x := by
    intro i hi
    exact .inr ⟨_, by interval_cases i <;> simp [variedDays], rfl⟩
  have hne : ∀ b t, (boxesOf (.fin 1) variedDays b t).Nonempty := fun b t => Finset.card_pos.1 (by rw [varied_boxes]; norm_num)
  have hc : ∀ y ∈ variedDays, 0 < y → ((3 : ℝ) < y ↔ XF.lt (.fin 1) (.fin y)) := by
    intro y hy h0
    simp only [variedDays, List.mem_cons, List.not_mem_nil, or_false] at hy
    simp only [XF.lt]
    rcases hy with rfl | rfl | rfl | rfl | rfl | rfl | rfl | rfl | rfl | rfl | rfl <;> norm_num
  have hp0 : ∀ x ∈ variedDays, 0 ≤ x := by
    intro x hx
    simp only [variedDays, List.mem_cons, List.not_mem_nil, or_false] at hx
    rcases hx with rfl | rfl | rfl | rfl | rfl | rfl | rfl | rfl | rfl | rfl | rfl <;> norm_num
  have hU := uniformDraws_exist
  have := uniformDraws_prob hU
  have hok := (cascade_expect (P := P) (U := fun k ω => ω k) (api := .modern) (opts := .one balancedStats) (hourly := true) (level := 5) (shift := 0) (test := false) (d0 := 0) (n := 11)
    (v := fun i => .fin (variedDays.getD i 0)) (thr := fun _ => .fin 1) hU (.inl rfl) (by norm_num) hv rfl (by norm_num) (by norm_num) (fun _ _ _ => balanced_law) balanced_are).1
  have hA : ∀ᵐ ω ∂P, ω ∈ {ω | firstLevels (run ω) 0 []} := by
    filter_upwards [hok] with ω h
    obtain ⟨r, h⟩ := h
    exact ⟨r, h, rfl⟩
  have hA1 : P.real {ω | firstLevels (run ω) 0 []} = 1 := by
    rw [measureReal_congr (s := {ω | firstLevels (run ω) 0 []}) (t := Set.univ) (by filter_upwards [hA] with ω h; exact propext ⟨fun _ => trivial, fun _ => h⟩)]
    simp
  have hR : P.restrict {ω | firstLevels (run ω) 0 []} = P := Measure.restrict_eq_self_of_ae_mem hA
  obtain ⟨u1, u2⟩ := C143_unbiased (P := P) (U := fun k ω => ω k) (api := .modern) (opts := .one balancedStats) (hourly := true) (level := 5)
    (shift := 0) (test := false) (d0 := 0) (n := 11) (v := fun i => .fin (variedDays.getD i 0)) (thr := fun _ => .fin 1)
    hU (.inl rfl) (by norm_num) hv rfl (by norm_num) (fun _ _ _ => balanced_law) balanced_are (l := 0) (by norm_num) [] rfl
    (p := variedDays) (by rw [varied_amounts]; rfl) hp0 (by simp [variedDays]) (times := times) (by simp [times, variedDays]) varied_percentile hc hne
  simp only [run] at hA hA1 hR
  simp only [hA1, hR, mul_one] at u1 u2
  refine ⟨?_, ?_, ?_⟩
  · rw [← u1]
    refine measureReal_congr ?_
    filter_upwards [hA] with ω h
    exact propext ⟨fun h' => ⟨h, h'⟩, fun h' => h'.2⟩
  · intro b t
    obtain ⟨a1, -, a3, -⟩ := u2 b t
    exact ⟨a1, a3.trans (by norm_num)⟩
  · intro b t
    have e := (C143_error (P := P) (U := fun k ω => ω k) (api := .modern) (opts := .one balancedStats) (hourly := true) (level := 5)
      (shift := 0) (test := false) (d0 := 0) (n := 11) (v := fun i => .fin (variedDays.getD i 0)) (thr := fun _ => .fin 1)
      hU (.inl rfl) (by norm_num) hv rfl (by norm_num) (fun _ _ _ => balanced_law) balanced_are (l := 0) (by norm_num) [] rfl
      (p := variedDays) (by rw [varied_amounts]; rfl) hp0 (by simp [variedDays]) (times := times) (by simp [times, variedDays]) varied_percentile hc hne b t
      (fun s => s.p01 b t) (1 / 4) (.inl ⟨rfl, rfl⟩)).1
    simp only [hA1, hR, mul_one, varied_boxes] at e
    exact e.trans (by norm_num)

end

end Melodist
