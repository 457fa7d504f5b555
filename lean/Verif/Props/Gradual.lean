import Verif.Lemmas.Gradual
import Verif.Props.Rounding
import Verif.Props.RoundingB

/-!
# C129: precipitation disaggregation in IEEE arithmetic with underflow
-/

set_option linter.unusedSectionVars false

namespace Melodist
open Spec

variable {K : Type} [Field K] [LinearOrder K] [IsStrictOrderedRing K]

/-- the rounded cascade in normal form -/
theorem cascadeG_eq (G : GradualRounding K) {api : PandasApi} {rnd : Nat → K} {opts : CascOptions K} {r : CascadeOut K} {d0 : Int} {n : Nat} {v : Nat → XF K}
    (hv : ∀ i < n, ∀ x, v i = .fin x → 0 ≤ x) (h : cascadeR G.fl api rnd (dailyS d0 n v) opts = .ok r) :
    ∃ (w q : List K), w = (List.range n).map (fun i => match v i with | .fin x => x | _ => 0) ∧ q.length = 96 * n ∧
      SlackSplit ((1 - G.u) ^ 11) ((1 + G.u) ^ 11) (158 * ((1 + G.u) ^ 11 * G.a)) 96 w q ∧ (∀ y ∈ q, G.fl y = y) ∧
      r.series = hourlyS d0 n fun i h => if (v i).isNan then XF.nan else
        .fin (G.fl (runR G.fl 0 (fun j => q.getD j 0) (96 * i + 4 * h + 4) - runR G.fl 0 (fun j => q.getD j 0) (96 * i + 4 * h))) := by
  unfold cascadeR at h
  split at h
  · cases h
  rename_i hl
  rw [dailyS_length] at hl
  obtain ⟨w, hz, h⟩ := Except.bind_ok h
  obtain ⟨_, _, h⟩ := Except.bind_ok h
  obtain ⟨levels, hlev, h⟩ := Except.bind_ok h
  rw [hourlyIndex_daily api d0 (by omega : 0 < n) v false (fun _ _ => XF.nan), py_ok_bind] at h
  rw [dailyS_values] at hz
  obtain ⟨z1, z2⟩ := zeroMissing_ok hz
  have hw : w = (List.range n).map (fun i => match v i with | .fin x => x | _ => 0) := by
    apply List.ext_getElem?
    intro i
    by_cases hi : i < n
    · obtain ⟨c1, c2, c3⟩ := z2 i (v i) (by simp [hi])
      rw [List.getElem?_map, List.getElem?_range hi]
      cases hvi : v i with
      | nan => rw [c3 hvi]; simp [hvi]
      | fin x => rw [c2 x hvi]; simp [hvi]
      | pinf => rw [hvi] at c1; simp at c1
      | ninf => rw [hvi] at c1; simp at c1
    · rw [List.getElem?_eq_none (by simp at z1; omega), List.getElem?_eq_none (by simp; omega)]
  have hw0 : ∀ x ∈ w, 0 ≤ x := by
    intro x hx
    rw [hw] at hx
    obtain ⟨i, hi, rfl⟩ := List.mem_map.1 hx
    cases hvi : v i with
    | fin y => exact hv i (List.mem_range.1 hi) y hvi
    | _ => exact le_refl _
  have s1 := levelLoopG_last G hw0 (by intro w e; cases e) hlev
  have hc : (1 + G.u) * ((2 ^ (4 + 2) - 2) * ((1 + G.u) ^ (2 * 4) * G.a)) + ((2 ^ (4 + 1) : Nat) : K) * (3 * G.a) ≤ 158 * ((1 + G.u) ^ 11 * G.a) := by
    have h1 : (1 + G.u) ^ 9 * G.a ≤ (1 + G.u) ^ 11 * G.a := mul_le_mul_of_nonneg_right (pow_le_pow_right₀ G.one_le (by omega)) G.a_nonneg
    have h2 : G.a ≤ (1 + G.u) ^ 11 * G.a := le_mul_of_one_le_left G.a_nonneg (one_le_pow₀ G.one_le)
    have h3 : (1 + G.u) * ((2 ^ (4 + 2) - 2) * ((1 + G.u) ^ (2 * 4) * G.a)) = 62 * ((1 + G.u) ^ 9 * G.a) := by ring
    rw [h3]; push_cast; linarith
  have s2 := s1.trans G.lo_nonneg (by linarith [G.u_nonneg]) (mul_nonneg (by norm_num) (mul_nonneg (pow_nonneg G.hi_nonneg _) G.a_nonneg)) hc
    (quarterHoursG_split G _ s1.nonneg)
  have s3 := quarterHoursG_fl G (levels.getLastD [])
  rw [← pow_succ', ← pow_succ'] at s2
  generalize hq : quarterHoursR G.fl (levels.getLastD []) = q at *
  have hlen : q.length = 96 * n := by rw [s2.length, z1]; simp
  have hh := hourlyFromQuarterG_eq G q (by rw [hlen]; exact ⟨24 * n, by ring⟩)
  have hhl : (hourlyFromQuarterR G.fl q).length = 24 * n := by rw [hh]; simp [hlen]; omega
  have hm := make_hourly (d0 := d0) (n := n) _ hhl (fun _ _ => 0)
  have hidx : Series.index (hourlyS d0 n fun _ _ => (XF.nan : XF K)) = Series.index (hourlyS d0 n fun _ _ => (0 : K)) := by
    rw [hourlyS_index, hourlyS_index]
  rw [hidx, hm, py_ok_bind] at h
  simp only [ne_eq, not_true_eq_false, if_false] at h
  cases h
  refine ⟨w, q, hw, hlen, s2, s3, ?_⟩
  dsimp only
  rw [restoreMissing_hourly]
  apply hourlyS_congr
  intro i hi k hk
  by_cases hn : (v i).isNan
  · rw [if_pos hn, if_pos hn]
  · rw [if_neg hn, if_neg hn]
    unfold blockEntry
    rw [hh, List.getD_eq_getElem?_getD, List.getElem?_map, List.getElem?_range (by omega)]
    show XF.fin (G.fl (runR G.fl 0 _ (4 * (24 * i + k) + 4) - runR G.fl 0 _ (4 * (24 * i + k)))) = _
    rw [show 4 * (24 * i + k) = 96 * i + 4 * k by ring]

/-- **C129** (cascade, totals) With relative rounding error u and absolute error a of products and quotients, the 24 hourly values of a day with precipitation P add up to P, up to the bound
of C102 and 158 times the absolute error per day. -/
theorem C129_cascade_total (G : GradualRounding K) {api : PandasApi} {rnd : Nat → K} {opts : CascOptions K} {r : CascadeOut K} {d0 : Int} {n : Nat}
    {v : Nat → XF K} (hv : ∀ i < n, ∀ x, v i = .fin x → 0 ≤ x) (h : cascadeR G.fl api rnd (dailyS d0 n v) opts = .ok r) {i : Nat} (hi : i < n) {P : K}
    (hP : v i = .fin P) :
    ∃ T, TotalIs (dayCells r.series (d0 + i)) T ∧
      |T - P| ≤ ((1 + G.u) ^ 12 - 1) * P + 96 * G.u * (1 + G.u) ^ (96 * n + 12) * ((numbers ((List.range n).map v)).sum + 158 * n * G.a) +
        158 * (1 + G.u) ^ 12 * G.a := by
  obtain ⟨w, q, hw, hlen, hs, hqf, hr⟩ := cascadeG_eq G hv h
  have hq : ∀ k, 0 ≤ q.getD k 0 := by
    intro k
    rw [List.getD_eq_getElem?_getD]
    cases e : q[k]? with
    | none => exact le_refl _
    | some y => exact hs.nonneg y (List.mem_of_getElem? e)
  have hf : ∀ k, G.fl (q.getD k 0) = q.getD k 0 := by
    intro k
    rw [List.getD_eq_getElem?_getD]
    cases e : q[k]? with
    | none => exact G.zero
    | some y => exact hqf y (List.mem_of_getElem? e)
  have hP0 : 0 ≤ P := hv i hi P hP
  set run := runR G.fl 0 (fun j => q.getD j 0) with hrun
  refine ⟨(day24 fun k => G.fl (run (96 * i + 4 * k + 4) - run (96 * i + 4 * k))).sum, ?_, ?_⟩
  · rw [hr, dayCells_hourlyS d0 _ hi]
    refine ⟨day24 fun k => G.fl (run (96 * i + 4 * k + 4) - run (96 * i + 4 * k)), ?_, rfl⟩
    rw [day24_map]
    simp [hP, hrun]
  · -- sums of the record
    have hS : (numbers ((List.range n).map v)).sum = w.sum := by
      rw [hw]
      clear hw hs hr h hi hP hv hlen hrun hq hqf hf
      induction n with
      | zero => rfl
      | succ n ih =>
        rw [List.range_succ, List.map_append, List.map_append, List.sum_append, ← ih]
        unfold numbers
        rw [List.filterMap_append, List.sum_append]
        congr 1
        show (List.filterMap _ [v n]).sum = (List.map _ [n]).sum
        rw [List.map_cons, List.map_nil, List.sum_singleton]
        cases hvn : v n <;> simp
    have hwi : w[i]? = some P := by rw [hw]; simp [hi, hP]
    obtain ⟨blk1, blk2, _⟩ := hs.block hwi
    have blk := And.intro blk1 blk2
    rw [block_eq_map 96 q i (by rw [hlen]; omega)] at blk
    have hblk : ((List.range 96).map (blockEntry 96 q i)).sum = ∑ j ∈ Finset.range 96, q.getD (96 * i + j) 0 := sum_map_range _ _
    rw [hblk] at blk
    have hQ : q.sum = ∑ j ∈ Finset.range (96 * n), q.getD j 0 := by
      have : q = (List.range (96 * n)).map fun j => q.getD j 0 := by
        apply List.ext_getElem
        · simp [hlen]
        · intro k h1 h2
          simp [List.getD_eq_getElem?_getD, List.getElem?_eq_getElem h1]
      conv_lhs => rw [this]
      exact sum_map_range _ _
    have hQS := hs.sum.2
    rw [← hS, hQ] at hQS
    -- the running sum over the day
    have hd := runG_diff G (q := fun j => q.getD j 0) hq hf (N := 96 * n) (96 * i) 96 (by omega)
    rw [← hrun] at hd
    -- telescoping
    have hinc : ∀ k, 0 ≤ run (k + 4) - run k := by
      intro k
      have m := fun k => runG_mono G (q := fun j => q.getD j 0) hq k
      rw [← hrun] at m
      have a := m k
      have b := m (k + 1)
      have c := m (k + 1 + 1)
      have d := m (k + 1 + 1 + 1)
      have : k + 4 = k + 1 + 1 + 1 + 1 := by ring
      rw [this]
      linarith
    have tel : ∑ k ∈ Finset.range 24, (run (96 * i + 4 * k + 4) - run (96 * i + 4 * k)) = run (96 * i + 96) - run (96 * i) := by
      have : _ = run (96 * i + 96) - run (96 * i) := Finset.sum_range_sub (fun k => run (96 * i + 4 * k)) 24
      rw [← this]
      apply Finset.sum_congr rfl
      intro k _
      rw [show 96 * i + 4 * (k + 1) = 96 * i + 4 * k + 4 by ring]
    have hT : (day24 fun k => G.fl (run (96 * i + 4 * k + 4) - run (96 * i + 4 * k))).sum =
        ∑ k ∈ Finset.range 24, G.fl (run (96 * i + 4 * k + 4) - run (96 * i + 4 * k)) := sum_map_range _ _
    have up : ∑ k ∈ Finset.range 24, G.fl (run (96 * i + 4 * k + 4) - run (96 * i + 4 * k)) ≤ (1 + G.u) * (run (96 * i + 96) - run (96 * i)) := by
      rw [← tel, Finset.mul_sum]
      exact Finset.sum_le_sum fun k _ => (G.sub_bounds (runG_fl G _) (runG_fl G _) (hinc _)).2
    have low : (1 - G.u) * (run (96 * i + 96) - run (96 * i)) ≤ ∑ k ∈ Finset.range 24, G.fl (run (96 * i + 4 * k + 4) - run (96 * i + 4 * k)) := by
      rw [← tel, Finset.mul_sum]
      exact Finset.sum_le_sum fun k _ => (G.sub_bounds (runG_fl G _) (runG_fl G _) (hinc _)).1
    rw [hT]
    generalize ∑ k ∈ Finset.range 24, G.fl (run (96 * i + 4 * k + 4) - run (96 * i + 4 * k)) = T at up low ⊢
    generalize run (96 * i + 96) - run (96 * i) = D at up low hd
    generalize ∑ j ∈ Finset.range 96, q.getD (96 * i + j) 0 = B at hd blk
    generalize ∑ j ∈ Finset.range (96 * n), q.getD j 0 = Q at hd hQS
    generalize (numbers ((List.range n).map v)).sum = S at hQS ⊢
    have u0 := G.u_nonneg
    have hi0 := G.hi_nonneg
    have lo0 := G.lo_nonneg
    have hpow : (0 : K) ≤ (1 + G.u) ^ (96 * n) := pow_nonneg hi0 _
    set c := 158 * ((1 + G.u) ^ 11 * G.a) with hc
    have hc0 : 0 ≤ c := mul_nonneg (by norm_num) (mul_nonneg (pow_nonneg hi0 _) G.a_nonneg)
    have hwl : (w.length : K) = n := by rw [hw]; simp
    rw [hwl] at hQS
    have E1 : G.u * ((1 + G.u) ^ (96 * n) * Q) ≤ G.u * (1 + G.u) ^ (96 * n + 11) * (S + 158 * n * G.a) := by
      have : (1 + G.u) ^ 11 * S + n * c = (1 + G.u) ^ 11 * (S + 158 * n * G.a) := by rw [hc]; ring
      rw [this] at hQS
      rw [pow_add, mul_assoc G.u, mul_assoc ((1 + G.u) ^ (96 * n))]
      exact mul_le_mul_of_nonneg_left (mul_le_mul_of_nonneg_left hQS hpow) u0
    generalize hEdef : G.u * ((1 + G.u) ^ (96 * n) * Q) = E at hd E1
    have hd' := abs_le.1 hd
    push_cast at hd'
    have hE0 : 0 ≤ E := by
      have := le_trans (abs_nonneg _) hd
      push_cast at this
      linarith
    have E2 : (1 + G.u) * E ≤ G.u * (1 + G.u) ^ (96 * n + 12) * (S + 158 * n * G.a) := by
      calc (1 + G.u) * E ≤ (1 + G.u) * (G.u * (1 + G.u) ^ (96 * n + 11) * (S + 158 * n * G.a)) := mul_le_mul_of_nonneg_left E1 hi0
        _ = G.u * (1 + G.u) ^ (96 * n + 12) * (S + 158 * n * G.a) := by rw [show 96 * n + 12 = 96 * n + 11 + 1 by ring, pow_succ]; ring
    have T1 : T ≤ (1 + G.u) ^ 12 * P + (1 + G.u) * c + 96 * ((1 + G.u) * E) := by
      have : D ≤ (1 + G.u) ^ 11 * P + c + 96 * E := by linarith [blk.2, hd'.2]
      calc T ≤ (1 + G.u) * D := up
        _ ≤ (1 + G.u) * ((1 + G.u) ^ 11 * P + c + 96 * E) := mul_le_mul_of_nonneg_left this hi0
        _ = _ := by ring
    have T2 : (1 - G.u) ^ 12 * P - (1 + G.u) * c - 96 * ((1 + G.u) * E) ≤ T := by
      have : (1 - G.u) ^ 11 * P - c - 96 * E ≤ D := by linarith [blk.1, hd'.1]
      calc (1 - G.u) ^ 12 * P - (1 + G.u) * c - 96 * ((1 + G.u) * E) ≤ (1 - G.u) ^ 12 * P - (1 - G.u) * c - 96 * ((1 - G.u) * E) := by
            have : (1 - G.u) * E ≤ (1 + G.u) * E := mul_le_mul_of_nonneg_right (by linarith) hE0
            have : (1 - G.u) * c ≤ (1 + G.u) * c := mul_le_mul_of_nonneg_right (by linarith) hc0
            linarith
        _ = (1 - G.u) * ((1 - G.u) ^ 11 * P - c - 96 * E) := by ring
        _ ≤ (1 - G.u) * D := mul_le_mul_of_nonneg_left this lo0
        _ ≤ T := low
    have T3 := mul_le_mul_of_nonneg_right (two_sub_le_pow u0 G.u_lt_one 12) hP0
    have e4 : (1 + G.u) * c = 158 * (1 + G.u) ^ 12 * G.a := by rw [hc]; ring
    have e3 : 96 * G.u * (1 + G.u) ^ (96 * n + 12) * (S + 158 * n * G.a) = 96 * (G.u * (1 + G.u) ^ (96 * n + 12) * (S + 158 * n * G.a)) := by ring
    rw [sub_mul] at T3
    rw [abs_le, e3, ← e4, sub_mul, one_mul]
    generalize (1 + G.u) ^ 12 * P = X at *
    generalize (1 - G.u) ^ 12 * P = Y at *
    generalize G.u * (1 + G.u) ^ (96 * n + 12) * (S + 158 * n * G.a) = Z at *
    constructor <;> linarith

/-- **C129** (cascade, sign, dry and missing days) Also with underflow every hourly value of a day is a number and not negative; all 24 values of a dry day are
exactly 0; those of a missing day are missing. -/
theorem C129_cascade_cells (G : GradualRounding K) {api : PandasApi} {rnd : Nat → K} {opts : CascOptions K} {r : CascadeOut K} {d0 : Int} {n : Nat}
    {v : Nat → XF K} (hv : ∀ i < n, ∀ x, v i = .fin x → 0 ≤ x) (h : cascadeR G.fl api rnd (dailyS d0 n v) opts = .ok r) {i : Nat} (hi : i < n) :
    (∀ P, v i = .fin P → ∀ c ∈ dayCells r.series (d0 + i), ∃ y, c = .fin y ∧ 0 ≤ y) ∧
    (v i = .fin 0 → dayCells r.series (d0 + i) = List.replicate 24 (.fin 0)) ∧
    (v i = .nan → dayCells r.series (d0 + i) = List.replicate 24 .nan) := by
  obtain ⟨w, q, hw, hlen, hs, _, hr⟩ := cascadeG_eq G hv h
  have hq : ∀ k, 0 ≤ q.getD k 0 := by
    intro k
    rw [List.getD_eq_getElem?_getD]
    cases e : q[k]? with
    | none => exact le_refl _
    | some y => exact hs.nonneg y (List.mem_of_getElem? e)
  have m := fun k => runG_mono G (q := fun j => q.getD j 0) hq k
  rw [hr, dayCells_hourlyS d0 _ hi]
  refine ⟨?_, ?_, ?_⟩
  · intro P hP c hc
    obtain ⟨k, hk, rfl⟩ := List.mem_map.1 hc
    rw [hP]
    refine ⟨_, rfl, G.fl_nonneg ?_⟩
    have a := m (96 * i + 4 * k)
    have b := m (96 * i + 4 * k + 1)
    have c := m (96 * i + 4 * k + 1 + 1)
    have d := m (96 * i + 4 * k + 1 + 1 + 1)
    rw [show 96 * i + 4 * k + 4 = 96 * i + 4 * k + 1 + 1 + 1 + 1 by ring]
    linarith
  · intro hP
    have hwi : w[i]? = some 0 := by rw [hw]; simp [hi, hP]
    have blk := (hs.block hwi).2.2 rfl
    rw [block_eq_map 96 q i (by rw [hlen]; omega)] at blk
    have zero : ∀ j < 96, q.getD (96 * i + j) 0 = 0 := by
      intro j hj
      exact blk (blockEntry 96 q i j) (List.mem_map.2 ⟨j, List.mem_range.2 hj, rfl⟩)
    have step : ∀ j < 96, runR G.fl 0 (fun j => q.getD j 0) (96 * i + j + 1) = runR G.fl 0 (fun j => q.getD j 0) (96 * i + j) := by
      intro j hj
      show G.fl (_ + q.getD (96 * i + j) 0) = _
      rw [zero j hj, add_zero, runG_fl]
    have : ∀ k < 24, G.fl (runR G.fl 0 (fun j => q.getD j 0) (96 * i + 4 * k + 4) - runR G.fl 0 (fun j => q.getD j 0) (96 * i + 4 * k)) = 0 := by
      intro k hk
      rw [show 96 * i + 4 * k + 4 = 96 * i + (4 * k + 3) + 1 by ring, step _ (by omega), show 96 * i + (4 * k + 3) = 96 * i + (4 * k + 2) + 1 by ring,
        step _ (by omega), show 96 * i + (4 * k + 2) = 96 * i + (4 * k + 1) + 1 by ring, step _ (by omega),
        show 96 * i + (4 * k + 1) = 96 * i + 4 * k + 1 by ring, step _ (by omega), sub_self, G.zero]
    have e : (day24 fun k => if (v i).isNan = true then XF.nan else
        .fin (G.fl (runR G.fl 0 (fun j => q.getD j 0) (96 * i + 4 * k + 4) - runR G.fl 0 (fun j => q.getD j 0) (96 * i + 4 * k)))) =
        day24 fun _ => XF.fin 0 := by
      apply day24_congr
      intro k hk
      rw [hP, this k hk]
      rfl
    rw [e]
    rfl
  · intro hP
    rw [hP]
    rfl

end Melodist
