import Verif.Lemmas.Rounding
import Verif.Lemmas.RoundBits
import Verif.Lemmas.Master

/-!
# C102: precipitation disaggregation in floating-point arithmetic
-/

set_option linter.unusedSectionVars false

namespace Melodist
open Spec

variable {K : Type} [Field K] [LinearOrder K] [IsStrictOrderedRing K]

/-! ## without rounding the rounded model is the model -/

theorem rnd_id (c : XF K) : c.rnd id = c := by cases c <;> rfl

theorem wxxcumR_id (s : CascStats K) (k : Nat) : wxxcumR id s k = wxxcum s k := by
  induction k with
  | zero => rfl
  | succ k ih => funext b t; unfold wxxcumR wxxcum; rw [rnd_id, ih]

theorem guessW1R_id (s : CascStats K) (b : Fin 2) (t : Fin 4) (r : K) (stale : Option K) : guessW1R id s b t r stale = guessW1 s b t r stale := by
  unfold guessW1R guessW1
  simp only [wxxcumR_id]
  rfl

theorem boxStepR_id (rnd : Nat → K) (s : CascStats K) (mv : XF K) (prev : Option K) (x : K) (next : Option K) (st : CascVars K) :
    boxStepR id rnd s mv prev x next st = boxStep rnd s mv prev x next st := by
  unfold boxStepR boxStep
  simp only [guessW1R_id, rnd_id]
  rfl

theorem boxLoopR_id (rnd : Nat → K) (s : CascStats K) (mv : XF K) (v : List K) : ∀ (prev : Option K) (st : CascVars K),
    boxLoopR id rnd s mv prev v st = boxLoop rnd s mv prev v st := by
  induction v with
  | nil => intro prev st; rfl
  | cons x xs ih =>
    intro prev st
    unfold boxLoopR boxLoop
    rw [boxStepR_id]
    simp only [ih]

theorem levelLoopR_id (rnd : Nat → K) (opts : CascOptions K) (si : Nat) : ∀ (vin : List K) (st : CascVars K),
    levelLoopR id rnd opts si vin st = levelLoop rnd opts si vin st := by
  induction si with
  | zero => intro vin st; rfl
  | succ si ih =>
    intro vin st
    unfold levelLoopR levelLoop
    simp only [boxLoopR_id, ih]

theorem cumsumR_id (q : List K) : ∀ acc, cumsumR id acc q = cumsum acc q := by
  induction q with
  | nil => intro acc; rfl
  | cons x xs ih => intro acc; unfold cumsumR cumsum; rw [ih]; rfl

theorem hourlyFromQuarterR_id (q : List K) : hourlyFromQuarterR id q = hourlyFromQuarter q := by
  unfold hourlyFromQuarterR hourlyFromQuarter
  rw [cumsumR_id]
  rfl

/-- **C102** (refinement) If nothing is rounded, the rounded model is the model of all other properties. -/
theorem C102_exact (api : PandasApi) (rnd : Nat → K) (daily : Series (XF K)) (opts : CascOptions K) (shift : Int) :
    cascadeR id api rnd daily opts shift = disaggPrecCascade api rnd daily opts true 9 shift false := by
  unfold cascadeR disaggPrecCascade
  split
  · rfl
  · cases hz : zeroMissing daily.values with
    | error e => rfl
    | ok v =>
      simp only [py_ok_bind, if_true]
      rw [if_neg (by omega : ¬ ((5 : Nat) < 1 ∨ 11 < 5)), levelLoopR_id]
      cases hc : checkOptions opts 5 with
      | error e => rfl
      | ok _ =>
        cases hl : levelLoop rnd opts 5 v {} with
        | error e => rfl
        | ok levels =>
          simp only [py_ok_bind]
          unfold assembleSeries
          simp only [if_true]
          cases hi : hourlyIndex api daily.index with
          | error e => rfl
          | ok idx =>
            simp only [py_ok_bind]
            rw [show quarterHoursR id (levels.getLastD []) = quarterHours (levels.getLastD []) from rfl, hourlyFromQuarterR_id]
            cases hm : Series.make idx (hourlyFromQuarter (quarterHours (levels.getLastD []))) with
            | error e => rfl
            | ok s =>
              simp only [py_ok_bind]
              exact (if_neg (by simp)).symm

theorem C102_exact_equal (api : PandasApi) (daily : Series (XF K)) : distributeEquallyR id api daily = distributeEqually api daily true := by
  unfold distributeEquallyR distributeEqually
  simp only [rnd_id, if_true]

theorem C102_exact_master (api : PandasApi) (daily master : Series (XF K)) (zerodiv : String) :
    precipMasterStationR id sumSkip api daily master zerodiv = precipMasterStation api daily master zerodiv := by
  unfold precipMasterStationR precipMasterStation masterDayR masterDay
  simp only [rnd_id, id]

/-! ## the cascade -/

/-- the rounded cascade in normal form -/
theorem cascadeR_eq (R : Rounding K) {api : PandasApi} {rnd : Nat → K} {opts : CascOptions K} {r : CascadeOut K} {d0 : Int} {n : Nat} {v : Nat → XF K}
    (hv : ∀ i < n, ∀ x, v i = .fin x → 0 ≤ x) (h : cascadeR R.fl api rnd (dailyS d0 n v) opts = .ok r) :
    ∃ (w q : List K), w = (List.range n).map (fun i => match v i with | .fin x => x | _ => 0) ∧ q.length = 96 * n ∧
      NearSplit ((1 - R.u) ^ 11) ((1 + R.u) ^ 11) 96 w q ∧
      r.series = hourlyS d0 n fun i h => if (v i).isNan then XF.nan else
        .fin (R.fl (runR R.fl 0 (fun j => q.getD j 0) (96 * i + 4 * h + 4) - runR R.fl 0 (fun j => q.getD j 0) (96 * i + 4 * h))) := by
  unfold cascadeR at h
  split at h
  · cases h
  rename_i hl
  rw [dailyS_length] at hl
  obtain ⟨w, hz, h⟩ := Except.bind_ok h
  obtain ⟨_, _, h⟩ := Except.bind_ok h
  obtain ⟨levels, hlev, h⟩ := Except.bind_ok h
  rw [hourlyIndex_daily api d0 (by omega : 0 < n) v false (fun _ _ => XF.nan), py_ok_bind] at h
  rw [dailyS_values] at hz
  obtain ⟨z1, z2⟩ := zeroMissing_ok hz
  have hw : w = (List.range n).map (fun i => match v i with | .fin x => x | _ => 0) := by
    apply List.ext_getElem?
    intro i
    by_cases hi : i < n
    · obtain ⟨c1, c2, c3⟩ := z2 i (v i) (by simp [hi])
      rw [List.getElem?_map, List.getElem?_range hi]
      cases hvi : v i with
      | nan => rw [c3 hvi]; simp [hvi]
      | fin x => rw [c2 x hvi]; simp [hvi]
      | pinf => rw [hvi] at c1; simp at c1
      | ninf => rw [hvi] at c1; simp at c1
    · rw [List.getElem?_eq_none (by simp at z1; omega), List.getElem?_eq_none (by simp; omega)]
  have hw0 : ∀ x ∈ w, 0 ≤ x := by
    intro x hx
    rw [hw] at hx
    obtain ⟨i, hi, rfl⟩ := List.mem_map.1 hx
    cases hvi : v i with
    | fin y => exact hv i (List.mem_range.1 hi) y hvi
    | _ => exact le_refl _
  have s1 := levelLoopR_last R hw0 hlev
  have s2 := s1.trans R.lo_nonneg R.hi_nonneg (quarterHoursR_split R _ s1.nonneg)
  rw [← pow_succ', ← pow_succ'] at s2
  generalize hq : quarterHoursR R.fl (levels.getLastD []) = q at *
  have hlen : q.length = 96 * n := by rw [s2.length, z1]; simp
  have hh := hourlyFromQuarterR_eq R q (by rw [hlen]; exact ⟨24 * n, by ring⟩)
  have hhl : (hourlyFromQuarterR R.fl q).length = 24 * n := by rw [hh]; simp [hlen]; omega
  have hm := make_hourly (d0 := d0) (n := n) _ hhl (fun _ _ => 0)
  have hidx : Series.index (hourlyS d0 n fun _ _ => (XF.nan : XF K)) = Series.index (hourlyS d0 n fun _ _ => (0 : K)) := by
    rw [hourlyS_index, hourlyS_index]
  rw [hidx, hm, py_ok_bind] at h
  simp only [ne_eq, not_true_eq_false, if_false] at h
  cases h
  refine ⟨w, q, hw, hlen, s2, ?_⟩
  dsimp only
  rw [restoreMissing_hourly]
  apply hourlyS_congr
  intro i hi k hk
  by_cases hn : (v i).isNan
  · rw [if_pos hn, if_pos hn]
  · rw [if_neg hn, if_neg hn]
    unfold blockEntry
    rw [hh, List.getD_eq_getElem?_getD, List.getElem?_map, List.getElem?_range (by omega)]
    show XF.fin (R.fl (runR R.fl 0 _ (4 * (24 * i + k) + 4) - runR R.fl 0 _ (4 * (24 * i + k)))) = _
    rw [show 4 * (24 * i + k) = 96 * i + 4 * k by ring]

theorem sum_map_range (f : Nat → K) (m : Nat) : ((List.range m).map f).sum = ∑ j ∈ Finset.range m, f j := by
  induction m with
  | zero => rfl
  | succ m ih => rw [List.range_succ, List.map_append, List.sum_append, ih, Finset.sum_range_succ]; simp

theorem two_sub_le_pow {u : K} (h0 : 0 ≤ u) (h1 : u < 1) (k : Nat) : 2 - (1 + u) ^ k ≤ (1 - u) ^ k := by
  induction k with
  | zero => norm_num
  | succ k ih =>
    have a : (1 - u) ^ k ≤ (1 + u) ^ k := pow_le_pow_left₀ (by linarith) (by linarith) k
    rw [pow_succ, pow_succ]
    nlinarith [mul_nonneg h0 (sub_nonneg.2 a)]

/-- **C102** (cascade, totals) In arithmetic with relative rounding error u the 24 hourly values of a day with precipitation P add up to P, up to the relative error
of twelve roundings and up to 96 roundings of a number of the size of the precipitation S of the whole record.  (With u = 2⁻⁵³ and a record of 100 years the factor
of P is about 1.3e-15 and that of S about 1.1e-14.) -/
theorem C102_cascade_total (R : Rounding K) {api : PandasApi} {rnd : Nat → K} {opts : CascOptions K} {r : CascadeOut K} {d0 : Int} {n : Nat}
    {v : Nat → XF K} (hv : ∀ i < n, ∀ x, v i = .fin x → 0 ≤ x) (h : cascadeR R.fl api rnd (dailyS d0 n v) opts = .ok r) {i : Nat} (hi : i < n) {P : K}
    (hP : v i = .fin P) :
    ∃ T, TotalIs (dayCells r.series (d0 + i)) T ∧
      |T - P| ≤ ((1 + R.u) ^ 12 - 1) * P + 96 * R.u * (1 + R.u) ^ (96 * n + 12) * (numbers ((List.range n).map v)).sum := by
  obtain ⟨w, q, hw, hlen, hs, hr⟩ := cascadeR_eq R hv h
  have hq : ∀ k, 0 ≤ q.getD k 0 := by
    intro k
    rw [List.getD_eq_getElem?_getD]
    cases e : q[k]? with
    | none => exact le_refl _
    | some y => exact hs.nonneg y (List.mem_of_getElem? e)
  have hP0 : 0 ≤ P := hv i hi P hP
  set run := runR R.fl 0 (fun j => q.getD j 0) with hrun
  refine ⟨(day24 fun k => R.fl (run (96 * i + 4 * k + 4) - run (96 * i + 4 * k))).sum, ?_, ?_⟩
  · rw [hr, dayCells_hourlyS d0 _ hi]
    refine ⟨day24 fun k => R.fl (run (96 * i + 4 * k + 4) - run (96 * i + 4 * k)), ?_, rfl⟩
    rw [day24_map]
    simp [hP, hrun]
  · -- sums of the record
    have hS : (numbers ((List.range n).map v)).sum = w.sum := by
      rw [hw]
      clear hw hs hr h hi hP hv hlen hrun hq
      induction n with
      | zero => rfl
      | succ n ih =>
        rw [List.range_succ, List.map_append, List.map_append, List.sum_append, ← ih]
        unfold numbers
        rw [List.filterMap_append, List.sum_append]
        congr 1
        show (List.filterMap _ [v n]).sum = (List.map _ [n]).sum
        rw [List.map_cons, List.map_nil, List.sum_singleton]
        cases hvn : v n <;> simp
    have hwi : w[i]? = some P := by rw [hw]; simp [hi, hP]
    have blk := hs.block hwi
    rw [block_eq_map 96 q i (by rw [hlen]; omega)] at blk
    have hblk : ((List.range 96).map (blockEntry 96 q i)).sum = ∑ j ∈ Finset.range 96, q.getD (96 * i + j) 0 := sum_map_range _ _
    rw [hblk] at blk
    have hQ : q.sum = ∑ j ∈ Finset.range (96 * n), q.getD j 0 := by
      have : q = (List.range (96 * n)).map fun j => q.getD j 0 := by
        apply List.ext_getElem
        · simp [hlen]
        · intro k h1 h2
          simp [List.getD_eq_getElem?_getD, List.getElem?_eq_getElem h1]
      conv_lhs => rw [this]
      exact sum_map_range _ _
    have hQS := hs.sum.2
    rw [← hS, hQ] at hQS
    -- the running sum over the day
    have hd := runR_diff R (q := fun j => q.getD j 0) hq (N := 96 * n) (96 * i) 96 (by omega)
    rw [← hrun] at hd
    -- telescoping
    have hinc : ∀ k, 0 ≤ run (k + 4) - run k := by
      intro k
      have m := fun k => runR_mono R (q := fun j => q.getD j 0) hq k
      rw [← hrun] at m
      have a := m k
      have b := m (k + 1)
      have c := m (k + 1 + 1)
      have d := m (k + 1 + 1 + 1)
      have : k + 4 = k + 1 + 1 + 1 + 1 := by ring
      rw [this]
      linarith
    have tel : ∑ k ∈ Finset.range 24, (run (96 * i + 4 * k + 4) - run (96 * i + 4 * k)) = run (96 * i + 96) - run (96 * i) := by
      have : _ = run (96 * i + 96) - run (96 * i) := Finset.sum_range_sub (fun k => run (96 * i + 4 * k)) 24
      rw [← this]
      apply Finset.sum_congr rfl
      intro k _
      rw [show 96 * i + 4 * (k + 1) = 96 * i + 4 * k + 4 by ring]
    have hT : (day24 fun k => R.fl (run (96 * i + 4 * k + 4) - run (96 * i + 4 * k))).sum =
        ∑ k ∈ Finset.range 24, R.fl (run (96 * i + 4 * k + 4) - run (96 * i + 4 * k)) := sum_map_range _ _
    have up : ∑ k ∈ Finset.range 24, R.fl (run (96 * i + 4 * k + 4) - run (96 * i + 4 * k)) ≤ (1 + R.u) * (run (96 * i + 96) - run (96 * i)) := by
      rw [← tel, Finset.mul_sum]
      exact Finset.sum_le_sum fun k _ => (R.fl_bounds (hinc _)).2
    have low : (1 - R.u) * (run (96 * i + 96) - run (96 * i)) ≤ ∑ k ∈ Finset.range 24, R.fl (run (96 * i + 4 * k + 4) - run (96 * i + 4 * k)) := by
      rw [← tel, Finset.mul_sum]
      exact Finset.sum_le_sum fun k _ => (R.fl_bounds (hinc _)).1
    rw [hT]
    generalize ∑ k ∈ Finset.range 24, R.fl (run (96 * i + 4 * k + 4) - run (96 * i + 4 * k)) = T at up low ⊢
    generalize run (96 * i + 96) - run (96 * i) = D at up low hd
    generalize ∑ j ∈ Finset.range 96, q.getD (96 * i + j) 0 = B at hd blk
    generalize ∑ j ∈ Finset.range (96 * n), q.getD j 0 = Q at hd hQS
    generalize (numbers ((List.range n).map v)).sum = S at hQS ⊢
    have u0 := R.u_nonneg
    have hi0 := R.hi_nonneg
    have lo0 := R.lo_nonneg
    have hpow : (0 : K) ≤ (1 + R.u) ^ (96 * n) := pow_nonneg hi0 _
    have E1 : R.u * ((1 + R.u) ^ (96 * n) * Q) ≤ R.u * (1 + R.u) ^ (96 * n + 11) * S := by
      rw [pow_add, mul_assoc R.u, mul_assoc ((1 + R.u) ^ (96 * n))]
      exact mul_le_mul_of_nonneg_left (mul_le_mul_of_nonneg_left hQS hpow) u0
    generalize hEdef : R.u * ((1 + R.u) ^ (96 * n) * Q) = E at hd E1
    have hd' := abs_le.1 hd
    push_cast at hd'
    have hE0 : 0 ≤ E := by
      have := le_trans (abs_nonneg _) hd
      push_cast at this
      linarith
    have E2 : (1 + R.u) * E ≤ R.u * (1 + R.u) ^ (96 * n + 12) * S := by
      calc (1 + R.u) * E ≤ (1 + R.u) * (R.u * (1 + R.u) ^ (96 * n + 11) * S) := mul_le_mul_of_nonneg_left E1 hi0
        _ = R.u * (1 + R.u) ^ (96 * n + 12) * S := by rw [show 96 * n + 12 = 96 * n + 11 + 1 by ring, pow_succ]; ring
    have T1 : T ≤ (1 + R.u) ^ 12 * P + 96 * ((1 + R.u) * E) := by
      have : D ≤ (1 + R.u) ^ 11 * P + 96 * E := by linarith [blk.2, hd'.2]
      calc T ≤ (1 + R.u) * D := up
        _ ≤ (1 + R.u) * ((1 + R.u) ^ 11 * P + 96 * E) := mul_le_mul_of_nonneg_left this hi0
        _ = _ := by ring
    have T2 : (1 - R.u) ^ 12 * P - 96 * ((1 + R.u) * E) ≤ T := by
      have : (1 - R.u) ^ 11 * P - 96 * E ≤ D := by linarith [blk.1, hd'.1]
      calc (1 - R.u) ^ 12 * P - 96 * ((1 + R.u) * E) ≤ (1 - R.u) ^ 12 * P - 96 * ((1 - R.u) * E) := by
            have : (1 - R.u) * E ≤ (1 + R.u) * E := mul_le_mul_of_nonneg_right (by linarith) hE0
            linarith
        _ = (1 - R.u) * ((1 - R.u) ^ 11 * P - 96 * E) := by ring
        _ ≤ (1 - R.u) * D := mul_le_mul_of_nonneg_left this lo0
        _ ≤ T := low
    have T3 := mul_le_mul_of_nonneg_right (two_sub_le_pow u0 R.u_lt_one 12) hP0
    have e3 : 96 * R.u * (1 + R.u) ^ (96 * n + 12) * S = 96 * (R.u * (1 + R.u) ^ (96 * n + 12) * S) := by ring
    rw [abs_le, e3]
    constructor <;> nlinarith

/-- **C102** (cascade, sign, dry and missing days) In any such arithmetic every hourly value of a day is a number and not negative; all 24 values of a dry day are
exactly 0; those of a missing day are missing. -/
theorem C102_cascade_cells (R : Rounding K) {api : PandasApi} {rnd : Nat → K} {opts : CascOptions K} {r : CascadeOut K} {d0 : Int} {n : Nat}
    {v : Nat → XF K} (hv : ∀ i < n, ∀ x, v i = .fin x → 0 ≤ x) (h : cascadeR R.fl api rnd (dailyS d0 n v) opts = .ok r) {i : Nat} (hi : i < n) :
    (∀ P, v i = .fin P → ∀ c ∈ dayCells r.series (d0 + i), ∃ y, c = .fin y ∧ 0 ≤ y) ∧
    (v i = .fin 0 → dayCells r.series (d0 + i) = List.replicate 24 (.fin 0)) ∧
    (v i = .nan → dayCells r.series (d0 + i) = List.replicate 24 .nan) := by
  obtain ⟨w, q, hw, hlen, hs, hr⟩ := cascadeR_eq R hv h
  have hq : ∀ k, 0 ≤ q.getD k 0 := by
    intro k
    rw [List.getD_eq_getElem?_getD]
    cases e : q[k]? with
    | none => exact le_refl _
    | some y => exact hs.nonneg y (List.mem_of_getElem? e)
  have m := fun k => runR_mono R (q := fun j => q.getD j 0) hq k
  rw [hr, dayCells_hourlyS d0 _ hi]
  refine ⟨?_, ?_, ?_⟩
  · intro P hP c hc
    obtain ⟨k, hk, rfl⟩ := List.mem_map.1 hc
    rw [hP]
    refine ⟨_, rfl, R.fl_nonneg ?_⟩
    have a := m (96 * i + 4 * k)
    have b := m (96 * i + 4 * k + 1)
    have c := m (96 * i + 4 * k + 1 + 1)
    have d := m (96 * i + 4 * k + 1 + 1 + 1)
    rw [show 96 * i + 4 * k + 4 = 96 * i + 4 * k + 1 + 1 + 1 + 1 by ring]
    linarith
  · intro hP
    have hwi : w[i]? = some 0 := by rw [hw]; simp [hi, hP]
    have blk := (hs.block hwi).2
    rw [mul_zero, block_eq_map 96 q i (by rw [hlen]; omega)] at blk
    have zero : ∀ j < 96, q.getD (96 * i + j) 0 = 0 := by
      intro j hj
      have : blockEntry 96 q i j ≤ ((List.range 96).map (blockEntry 96 q i)).sum :=
        List.single_le_sum (fun y hy => by obtain ⟨k, _, rfl⟩ := List.mem_map.1 hy; exact hq _) _ (List.mem_map.2 ⟨j, List.mem_range.2 hj, rfl⟩)
      exact le_antisymm (le_trans this blk) (hq _)
    have step : ∀ j < 96, runR R.fl 0 (fun j => q.getD j 0) (96 * i + j + 1) = runR R.fl 0 (fun j => q.getD j 0) (96 * i + j) := by
      intro j hj
      show R.fl (_ + q.getD (96 * i + j) 0) = _
      rw [zero j hj, add_zero, runR_fl]
    have : ∀ k < 24, R.fl (runR R.fl 0 (fun j => q.getD j 0) (96 * i + 4 * k + 4) - runR R.fl 0 (fun j => q.getD j 0) (96 * i + 4 * k)) = 0 := by
      intro k hk
      rw [show 96 * i + 4 * k + 4 = 96 * i + (4 * k + 3) + 1 by ring, step _ (by omega), show 96 * i + (4 * k + 3) = 96 * i + (4 * k + 2) + 1 by ring,
        step _ (by omega), show 96 * i + (4 * k + 2) = 96 * i + (4 * k + 1) + 1 by ring, step _ (by omega),
        show 96 * i + (4 * k + 1) = 96 * i + 4 * k + 1 by ring, step _ (by omega), sub_self, R.fl_zero]
    have e : (day24 fun k => if (v i).isNan = true then XF.nan else
        .fin (R.fl (runR R.fl 0 (fun j => q.getD j 0) (96 * i + 4 * k + 4) - runR R.fl 0 (fun j => q.getD j 0) (96 * i + 4 * k)))) =
        day24 fun _ => XF.fin 0 := by
      apply day24_congr
      intro k hk
      rw [hP, this k hk]
      rfl
    rw [e]
    rfl
  · intro hP
    rw [hP]
    rfl

end Melodist
