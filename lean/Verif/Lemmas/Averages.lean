import Verif.Spec.Averages
import Verif.Props.CascadeIndep
import Verif.Props.CascadeMean
import Mathlib.Probability.Moments.SubGaussian

/-!
# Days separated by dry days are independent
-/

set_option linter.unusedSectionVars false

namespace Melodist
open Spec MeasureTheory ProbabilityTheory

noncomputable section

variable {Ω : Type} [MeasurableSpace Ω] {P : Measure Ω} {U : Nat → Ω → ℝ}
  {api : PandasApi} {opts : CascOptions ℝ} {level : Nat} {test : Bool}
  {q : Nat → Fin 2 → Fin 4 → SplitLaw} {thr : Nat → XF ℝ}

theorem daysCells_getD (s : Series (XF ℝ)) (d : Int) {k i : Nat} (hi : i < k) : (daysCells s d k).getD i [] = dayCells s (d + i) := by
  unfold daysCells
  rw [List.getD_eq_getElem _ _ (by simpa using hi)]
  simp

/-- the runs fail with probability 0 -/
theorem run_ok_ae (hU : UniformDraws P U) (hq : ∀ l b t, (q l b t).Proper) (hs : StatsAre opts 5 q thr) (d0 : Int) {n : Nat} (hn : 2 ≤ n) {v : Nat → XF ℝ}
    (hv : ∀ i < n, v i = .nan ∨ ∃ x, 0 ≤ x ∧ v i = .fin x) :
    ∀ᵐ ω ∂P, ∃ r, disaggPrecCascade api (fun k => U k ω) (dailyS d0 n v) opts true level 0 test = .ok r :=
  (cascade_expect (P := P) (api := api) (shift := 0) (d0 := d0) (hourly := true) (level := level) (test := test) (L := 5) hU (.inl rfl) hn hv rfl
    (by norm_num) (by norm_num) hq hs).1

theorem run_ok_real (hU : UniformDraws P U) (hq : ∀ l b t, (q l b t).Proper) (hs : StatsAre opts 5 q thr) (d0 : Int) {n : Nat} (hn : 2 ≤ n) {v : Nat → XF ℝ}
    (hv : ∀ i < n, v i = .nan ∨ ∃ x, 0 ≤ x ∧ v i = .fin x) :
    P.real {ω | ∃ r, disaggPrecCascade api (fun k => U k ω) (dailyS d0 n v) opts true level 0 test = .ok r} = 1 := by
  have := uniformDraws_prob hU
  have h := run_ok_ae (P := P) (U := U) (api := api) (level := level) (test := test) hU hq hs d0 hn hv
  have e : {ω | ∃ r, disaggPrecCascade api (fun k => U k ω) (dailyS d0 n v) opts true level 0 test = .ok r} =ᵐ[P] Set.univ := by
    filter_upwards [h] with ω hω
    exact propext ⟨fun _ => trivial, fun _ => hω⟩
  rw [measureReal_congr e]
  simp

/-- joint probabilities of events on separated days -/
theorem separated_joint (hU : UniformDraws P U) (hq : ∀ l b t, (q l b t).Proper) (hs : StatsAre opts 5 q thr) :
    ∀ (N : Nat) (d0 : Int) (n : Nat) (v : Nat → XF ℝ) (w : Nat → Nat) (A : Nat → Set (List (XF ℝ))), 2 ≤ n →
      (∀ i < n, v i = .nan ∨ ∃ x, 0 ≤ x ∧ v i = .fin x) → Separated v n w N →
      P.real {ω | ∃ r, disaggPrecCascade api (fun k => U k ω) (dailyS d0 n v) opts true level 0 test = .ok r ∧ ∀ k < N, dayCells r.series (d0 + (w k : Nat)) ∈ A k} =
        ∏ k ∈ Finset.range N, P.real {ω | ∃ r, disaggPrecCascade api (fun k => U k ω) (dailyS d0 n v) opts true level 0 test = .ok r ∧
          dayCells r.series (d0 + (w k : Nat)) ∈ A k} := by
  intro N
  induction N with
  | zero =>
    intro d0 n v w A hn hv _
    simpa using run_ok_real (P := P) (U := U) (api := api) (level := level) (test := test) hU hq hs d0 hn hv
  | succ N ih =>
    intro d0 n v w A hn hv hw
    rcases Nat.eq_zero_or_pos N with rfl | hN
    · simp
    · obtain ⟨m, h1, h2, h3⟩ := hw.dry 0 (by omega)
      have hw1 := hw.inside (0 + 1) (by omega)
      obtain ⟨k, rfl⟩ : ∃ k, n = m + 1 + k := ⟨n - (m + 1), by omega⟩
      have hk : 1 ≤ k := by omega
      have hwm : ∀ j, j + 1 < N + 1 → m + 1 ≤ w (j + 1) := by
        intro j
        induction j with
        | zero => intro _; omega
        | succ j ihj =>
          intro hj
          obtain ⟨c, c1, c2, _⟩ := hw.dry (j + 1) (by omega)
          have := ihj (by omega)
          omega
      have cut := fun S T => C137_hours (P := P) (api := api) (level := level) (test := test) hU hq hs d0 v (m := m) (k := k) (by omega) hk hv h3 S T
      have hvr : ∀ i < 1 + k, v (m + i) = .nan ∨ ∃ x, 0 ≤ x ∧ v (m + i) = .fin x := fun i hi => hv _ (by omega)
      have right := ih (d0 + m) (1 + k) (fun i => v (m + i)) (fun j => w (j + 1) - m) (fun j => A (j + 1)) (by omega) hvr
        ⟨fun j hj => by have := hw.inside (j + 1) (by omega); omega, fun j hj => by
          obtain ⟨c, c1, c2, c3⟩ := hw.dry (j + 1) (by omega)
          have := hwm j (by omega)
          refine ⟨c - m, by omega, by omega, ?_⟩
          simp only [show m + (c - m) = c by omega]
          exact c3⟩
      have hday : ∀ j < N, d0 + (m : Int) + ((w (j + 1) - m : Nat) : Int) = d0 + (w (j + 1) : Nat) := by
        intro j hj
        have := hwm j (by omega)
        omega
      have hcell : ∀ (s : Series (XF ℝ)), ∀ j < N, (daysCells s (d0 + (m + 1 : Nat)) k).getD (w (j + 1) - (m + 1)) [] = dayCells s (d0 + (w (j + 1) : Nat)) := by
        intro s j hj
        have a := hwm j (by omega)
        have b := hw.inside (j + 1) (by omega)
        rw [daysCells_getD _ _ (by omega)]
        congr 1
        omega
      have hcell0 : ∀ (s : Series (XF ℝ)), (daysCells s d0 m).getD (w 0) [] = dayCells s (d0 + (w 0 : Nat)) := fun s => daysCells_getD _ _ h1
      have okR := run_ok_real (P := P) (U := U) (api := api) (level := level) (test := test) hU hq hs (d0 + m) (n := 1 + k) (by omega) hvr
      have okL := run_ok_real (P := P) (U := U) (api := api) (level := level) (test := test) hU hq hs d0 (n := m + 1) (by omega) (fun i hi => hv i (by omega))
      -- the first day
      have first := cut {l | l.getD (w 0) [] ∈ A 0} Set.univ
      simp only [Set.mem_setOf_eq, hcell0, Set.mem_univ, and_true, okR, mul_one] at first
      -- each later day
      have later : ∀ j < N, P.real {ω | ∃ r, disaggPrecCascade api (fun k => U k ω) (dailyS d0 (m + 1 + k) v) opts true level 0 test = .ok r ∧
          dayCells r.series (d0 + (w (j + 1) : Nat)) ∈ A (j + 1)} =
          P.real {ω | ∃ r, disaggPrecCascade api (fun k => U k ω) (dailyS (d0 + m) (1 + k) fun i => v (m + i)) opts true level 0 test = .ok r ∧
            dayCells r.series (d0 + (w (j + 1) : Nat)) ∈ A (j + 1)} := by
        intro j hj
        have h := cut Set.univ {l | l.getD (w (j + 1) - (m + 1)) [] ∈ A (j + 1)}
        simp only [Set.mem_setOf_eq, Set.mem_univ, true_and, and_true, okL, one_mul, hcell _ j hj] at h
        exact h
      -- all of them
      have all := cut {l | l.getD (w 0) [] ∈ A 0} {l | ∀ j < N, l.getD (w (j + 1) - (m + 1)) [] ∈ A (j + 1)}
      simp only [Set.mem_setOf_eq, hcell0] at all
      have e1 : {ω | ∃ r, disaggPrecCascade api (fun k => U k ω) (dailyS d0 (m + 1 + k) v) opts true level 0 test = .ok r ∧
          ∀ j < N + 1, dayCells r.series (d0 + (w j : Nat)) ∈ A j} =
          {ω | ∃ r, disaggPrecCascade api (fun k => U k ω) (dailyS d0 (m + 1 + k) v) opts true level 0 test = .ok r ∧ dayCells r.series (d0 + (w 0 : Nat)) ∈ A 0 ∧
            ∀ j < N, (daysCells r.series (d0 + (m + 1 : Nat)) k).getD (w (j + 1) - (m + 1)) [] ∈ A (j + 1)} := by
        ext ω
        refine exists_congr fun r => and_congr_right fun _ => ?_
        constructor
        · intro h
          refine ⟨h 0 (by omega), fun j hj => ?_⟩
          rw [hcell _ j hj]
          exact h (j + 1) (by omega)
        · rintro ⟨h0, h⟩ j hj
          cases j with
          | zero => exact h0
          | succ j =>
            have := h j (by omega)
            rw [hcell _ j (by omega)] at this
            exact this
      have e2 : {ω | ∃ r, disaggPrecCascade api (fun k => U k ω) (dailyS (d0 + m) (1 + k) fun i => v (m + i)) opts true level 0 test = .ok r ∧
            ∀ j < N, (daysCells r.series (d0 + (m + 1 : Nat)) k).getD (w (j + 1) - (m + 1)) [] ∈ A (j + 1)} =
          {ω | ∃ r, disaggPrecCascade api (fun k => U k ω) (dailyS (d0 + m) (1 + k) fun i => v (m + i)) opts true level 0 test = .ok r ∧
            ∀ j < N, dayCells r.series (d0 + (m : Int) + ((w (j + 1) - m : Nat) : Int)) ∈ A (j + 1)} := by
        ext ω
        refine exists_congr fun r => and_congr_right fun _ => ?_
        refine forall_congr' fun j => forall_congr' fun hj => ?_
        rw [hcell _ j hj, hday j hj]
      rw [e1, all, e2, right, Finset.prod_range_succ', mul_comm, first]
      congr 1
      refine Finset.prod_congr rfl fun j hj => ?_
      rw [later j (Finset.mem_range.1 hj), hday j (Finset.mem_range.1 hj)]

/-- independence from the probabilities of joint events -/
theorem indep_of_joint [IsProbabilityMeasure P] {run : Ω → Py (CascadeOut ℝ)} (hae : ∀ᵐ ω ∂P, ∃ r, run ω = .ok r) (day : Nat → Int) {N : Nat}
    (J : ∀ A : Nat → Set (List (XF ℝ)), P.real {ω | ∃ r, run ω = .ok r ∧ ∀ k < N, dayCells r.series (day k) ∈ A k} =
      ∏ k ∈ Finset.range N, P.real {ω | ∃ r, run ω = .ok r ∧ dayCells r.series (day k) ∈ A k}) (f : Nat → List (XF ℝ) → ℝ) :
    iIndepFun (fun (k : Fin N) ω => dayQuantity (f k) (run ω) (day k)) P := by
  rw [iIndepFun_iff_measure_inter_preimage_eq_mul]
  intro S sets _
  classical
  set A : Nat → Set (List (XF ℝ)) := fun k => if h : k < N then (if (⟨k, h⟩ : Fin N) ∈ S then f k ⁻¹' sets ⟨k, h⟩ else Set.univ) else Set.univ with hA
  have e1 : (⋂ i ∈ S, (fun ω => dayQuantity (f i) (run ω) (day i)) ⁻¹' sets i) =ᵐ[P] {ω | ∃ r, run ω = .ok r ∧ ∀ k < N, dayCells r.series (day k) ∈ A k} := by
    filter_upwards [hae] with ω ⟨r, hr⟩
    apply propext
    change (ω ∈ ⋂ i ∈ S, _) ↔ (ω ∈ {ω | _})
    simp only [Set.mem_iInter, Set.mem_preimage, Set.mem_setOf_eq, hr, Except.ok.injEq, exists_eq_left', dayQuantity, hA]
    constructor
    · intro h k hk
      rw [dif_pos hk]
      split_ifs with hS
      · exact h ⟨k, hk⟩ hS
      · trivial
    · intro h i hi
      have := h i i.2
      rw [dif_pos i.2, if_pos hi] at this
      exact this
  have e2 : ∀ i ∈ S, ((fun ω => dayQuantity (f i) (run ω) (day i)) ⁻¹' sets i) =ᵐ[P] {ω | ∃ r, run ω = .ok r ∧ dayCells r.series (day i) ∈ A i} := by
    intro i hi
    filter_upwards [hae] with ω ⟨r, hr⟩
    apply propext
    have : A i = f i ⁻¹' sets i := by simp only [hA, dif_pos i.2]; rw [if_pos hi]
    show dayQuantity (f i) (run ω) (day i) ∈ sets i ↔ ∃ r, run ω = .ok r ∧ dayCells r.series (day i) ∈ A i
    simp only [hr, Except.ok.injEq, exists_eq_left', dayQuantity, this, Set.mem_preimage]
  have ok : P.real {ω | ∃ r, run ω = .ok r} = 1 := by
    have e : {ω | ∃ r, run ω = .ok r} =ᵐ[P] Set.univ := by
      filter_upwards [hae] with ω hω
      exact propext ⟨fun _ => trivial, fun _ => hω⟩
    rw [measureReal_congr e]
    simp
  have e3 : ∀ i : Fin N, i ∉ S → P.real {ω | ∃ r, run ω = .ok r ∧ dayCells r.series (day i) ∈ A i} = 1 := by
    intro i hi
    have : A i = Set.univ := by simp only [hA, dif_pos i.2]; rw [if_neg hi]
    simp only [this, Set.mem_univ, and_true]
    exact ok
  rw [measure_congr e1, Finset.prod_congr rfl fun i hi => measure_congr (e2 i hi)]
  rw [← ENNReal.toReal_eq_toReal_iff' (measure_ne_top _ _) (ENNReal.prod_ne_top fun _ _ => measure_ne_top _ _), ENNReal.toReal_prod]
  change P.real _ = ∏ i ∈ S, P.real _
  rw [J A, Finset.prod_range (f := fun k => P.real {ω | ∃ r, run ω = .ok r ∧ dayCells r.series (day k) ∈ A k})]
  exact (Finset.prod_subset (Finset.subset_univ S) fun i _ hi => e3 i hi).symm

/-- quantities of separated days are independent -/
theorem separated_indep (hU : UniformDraws P U) (hq : ∀ l b t, (q l b t).Proper) (hs : StatsAre opts 5 q thr) (d0 : Int) {n : Nat} (hn : 2 ≤ n) {v : Nat → XF ℝ}
    (hv : ∀ i < n, v i = .nan ∨ ∃ x, 0 ≤ x ∧ v i = .fin x) {w : Nat → Nat} {N : Nat} (hw : Separated v n w N) (f : Nat → List (XF ℝ) → ℝ) :
    iIndepFun (fun (k : Fin N) ω => dayQuantity (f k) (disaggPrecCascade api (fun i => U i ω) (dailyS d0 n v) opts true level 0 test) (d0 + (w k : Nat))) P := by
  have := uniformDraws_prob hU
  exact indep_of_joint (run_ok_ae (P := P) (U := U) (api := api) (level := level) (test := test) hU hq hs d0 hn hv) (fun k => d0 + (w k : Nat))
    (fun A => separated_joint (P := P) (U := U) (api := api) (level := level) (test := test) hU hq hs N d0 n v w A hn hv hw) f

/-- a quantity of a day is integrable -/
theorem dayQuantity_integrable (hU : UniformDraws P U) (hq : ∀ l b t, (q l b t).Proper) (hs : StatsAre opts 5 q thr) (d0 : Int) {n : Nat} (hn : 2 ≤ n) {v : Nat → XF ℝ}
    (hv : ∀ i < n, v i = .nan ∨ ∃ x, 0 ≤ x ∧ v i = .fin x) (f : List (XF ℝ) → ℝ) {i : Nat} (hi : i < n) :
    Integrable (fun ω => dayQuantity f (disaggPrecCascade api (fun i => U i ω) (dailyS d0 n v) opts true level 0 test) (d0 + i)) P := by
  refine ((cascade_expect (P := P) (api := api) (shift := 0) (d0 := d0) (hourly := true) (level := level) (test := test) (L := 5) hU (.inl rfl) hn hv rfl
    (by norm_num) (by norm_num) hq hs).2 _ (fun ls => f (day24 fun k => if (v i).isNan then .nan else
      .fin (∑ m ∈ Finset.range 4, (ls.getD 4 []).getD ((4 * (24 * i + k) + m) / 3) 0 / 3)) ) ?_).1
  intro ω r h
  simp only [h, dayQuantity, cascade_cells h hi]

/-- two-sided Hoeffding inequality -/
theorem deviation_two {N : Nat} [IsProbabilityMeasure P] {X : Fin N → Ω → ℝ} (hX : iIndepFun X P) (hm : ∀ k, AEMeasurable (X k) P) {a b : Fin N → ℝ}
    (hb : ∀ k, ∀ᵐ ω ∂P, X k ω ∈ Set.Icc (a k) (b k)) {ε : ℝ} (hε : 0 ≤ ε) :
    P.real {ω | ε ≤ |∑ k, X k ω - ∑ k, ∫ ω, X k ω ∂P|} ≤ 2 * Real.exp (-2 * ε ^ 2 / ∑ k, (b k - a k) ^ 2) := by
  have hsub : ∀ k, HasSubgaussianMGF (fun ω => X k ω - ∫ ω, X k ω ∂P) ((‖b k - a k‖₊ / 2) ^ 2) P := fun k => hasSubgaussianMGF_of_mem_Icc (hm k) (hb k)
  have hind : iIndepFun (fun k ω => X k ω - ∫ ω, X k ω ∂P) P :=
    hX.comp (fun k x => x - ∫ ω, X k ω ∂P) fun k => measurable_id.sub_const _
  have hneg : iIndepFun (fun k ω => -(X k ω - ∫ ω, X k ω ∂P)) P :=
    hX.comp (fun k x => -(x - ∫ ω, X k ω ∂P)) fun k => (measurable_id.sub_const _).neg
  have h1 := HasSubgaussianMGF.measure_sum_ge_le_of_iIndepFun hind (s := Finset.univ) (fun k _ => hsub k) hε
  have h2 := HasSubgaussianMGF.measure_sum_ge_le_of_iIndepFun hneg (s := Finset.univ) (fun k _ => (hsub k).neg) hε
  have hc : (((2 : ℝ) * ∑ k, (((‖b k - a k‖₊ / 2) ^ 2 : NNReal) : ℝ))) = (∑ k, (b k - a k) ^ 2) / 2 := by
    rw [Finset.mul_sum, Finset.sum_div]
    refine Finset.sum_congr rfl fun k _ => ?_
    push_cast
    rw [Real.norm_eq_abs, div_pow, sq_abs]
    ring
  have hexp : Real.exp (-ε ^ 2 / (2 * ((∑ k, (‖b k - a k‖₊ / 2) ^ 2 : NNReal) : ℝ))) = Real.exp (-2 * ε ^ 2 / ∑ k, (b k - a k) ^ 2) := by
    congr 1
    have : ((∑ k, (‖b k - a k‖₊ / 2) ^ 2 : NNReal) : ℝ) = ∑ k, (((‖b k - a k‖₊ / 2) ^ 2 : NNReal) : ℝ) := by push_cast; rfl
    rw [this, hc, div_div_eq_mul_div]
    congr 1
    ring
  rw [hexp] at h1 h2
  have hsub2 : {ω | ε ≤ |∑ k, X k ω - ∑ k, ∫ ω, X k ω ∂P|} ⊆
      {ω | ε ≤ ∑ k, (X k ω - ∫ ω, X k ω ∂P)} ∪ {ω | ε ≤ ∑ k, -(X k ω - ∫ ω, X k ω ∂P)} := by
    intro ω hω
    simp only [Set.mem_union, Set.mem_setOf_eq, Finset.sum_neg_distrib, Finset.sum_sub_distrib] at hω ⊢
    exact le_abs.1 hω
  calc _ ≤ _ := measureReal_mono hsub2
    _ ≤ _ := measureReal_union_le _ _
    _ ≤ _ := add_le_add h1 h2
    _ = _ := by ring

end

end Melodist
