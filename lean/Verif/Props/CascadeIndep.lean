import Verif.Lemmas.CascadeIndep

/-!
# C137: wet periods separated by a dry day are disaggregated independently
-/

set_option linter.unusedSectionVars false

namespace Melodist
open Spec MeasureTheory ProbabilityTheory

noncomputable section

section
variable {Ω : Type} [MeasurableSpace Ω] {P : Measure Ω} {U : Nat → Ω → ℝ}
  {api : PandasApi} {opts : CascOptions ℝ} {hourly : Bool} {level : Nat} {shift : Int} {test : Bool}
  {L : Nat} {q : Nat → Fin 2 → Fin 4 → SplitLaw} {thr : Nat → XF ℝ}

theorem statsAre_check (h1 : 1 ≤ L) (hs : StatsAre opts L q thr) : checkOptions opts L = .ok () := by
  unfold checkOptions
  cases opts with
  | one o => rfl
  | many os => simp only; rw [if_pos (hs.1 os rfl)]
  | other =>
    obtain ⟨s, h, _⟩ := hs.2 0 h1
    exact h.elim

/-- the conditions on a record with `m` days, a dry day and `k` days -/
structure DryAt (v : Nat → XF ℝ) (m k : Nat) : Prop where
  cells : ∀ i < m + 1 + k, v i = .nan ∨ ∃ x, 0 ≤ x ∧ v i = .fin x
  dry : v m = .nan ∨ v m = .fin 0

theorem DryAt.before {v : Nat → XF ℝ} {m k : Nat} (h : DryAt v m k) : DryAt v m 0 := ⟨fun i hi => h.cells i (by omega), h.dry⟩

theorem DryAt.after {v : Nat → XF ℝ} {m k : Nat} (h : DryAt v m k) : DryAt (fun i => v (m + i)) 0 k :=
  ⟨fun i hi => h.cells (m + i) (by omega), h.dry⟩

theorem dailyAmounts_join {v : Nat → XF ℝ} {m k : Nat} (h : v m = .nan ∨ v m = .fin 0) :
    dailyAmounts (m + 1 + k) v = dailyAmounts m v ++ [0] ++ dailyAmounts k (fun i => v (m + 1 + i)) := by
  unfold dailyAmounts
  rw [List.range_add, List.range_succ, List.map_append, List.map_append, List.map_map]
  congr 2
  rcases h with h | h <;> simp [h]

theorem pieces_getD {v : Nat → XF ℝ} {m k : Nat} (h : v m = .nan ∨ v m = .fin 0) (a b : List (List ℝ)) {i : Nat} (hi : i ≤ L) :
    (dailyAmounts (m + 1 + k) v :: joinParts L a b).getD i [] =
      (dailyAmounts m v :: a).getD i [] ++ List.replicate (2 ^ i) 0 ++ (dailyAmounts k (fun i => v (m + 1 + i)) :: b).getD i [] := by
  cases i with
  | zero => simp only [List.getD_cons_zero, dailyAmounts_join h, pow_zero, List.replicate_one]
  | succ i => simp only [List.getD_cons_succ, joinParts_getD a b (show i < L by omega)]

theorem pieces_length {v : Nat → XF ℝ} {m : Nat} {a : List (List ℝ)} (ha : PartShape L m a) {i : Nat} (hi : i < L) :
    (a.getD i []).length = 2 * ((dailyAmounts m v :: a).getD i []).length := by
  rw [ha.2 i hi]
  cases i with
  | zero => simp [dailyAmounts]; ring
  | succ i => rw [List.getD_cons_succ, ha.2 i (by omega)]; ring

theorem join_prob (hU : UniformDraws P U) (ht : hourly = true ∨ test = false ∨ 9 ≤ level) (hL : L = if hourly then 5 else level) (h1 : 1 ≤ L) (h11 : L ≤ 11)
    (hq : ∀ l b t, (q l b t).Proper) (hs : StatsAre opts L q thr) (d0 : Int) {v : Nat → XF ℝ} {m k : Nat} (hv : DryAt v m k) (hmk : 1 ≤ m + k)
    {a b : List (List ℝ)} (ha : PartShape L m a) (hb : PartShape L k b) :
    P.real {ω | ∃ r, disaggPrecCascade api (fun k => U k ω) (dailyS d0 (m + 1 + k) v) opts hourly level shift test = .ok r ∧ r.levels = joinParts L a b} =
      ∏ i ∈ Finset.range L, ∏ j ∈ Finset.range ((dailyAmounts m v :: a).getD i [] ++ List.replicate (2 ^ i) 0 ++ (dailyAmounts k (fun i => v (m + 1 + i)) :: b).getD i []).length,
        boxTerm (q i) (thr i) ((dailyAmounts m v :: a).getD i [] ++ List.replicate (2 ^ i) 0 ++ (dailyAmounts k (fun i => v (m + 1 + i)) :: b).getD i [])
          (a.getD i [] ++ List.replicate (2 ^ (i + 1)) 0 ++ b.getD i []) j := by
  rw [C96_proper P U hU api opts hourly level shift test ht d0 (m + 1 + k) (by omega) v hv.cells L hL h1 h11 q hq thr hs _ (joinParts_length _ _ _) (by
    intro i hi
    rw [pieces_getD hv.dry a b (by omega), joinParts_getD a b hi]
    simp only [List.length_append, List.length_replicate, pieces_length (v := v) ha hi, pieces_length (v := fun i => v (m + 1 + i)) hb hi, pow_succ]
    ring)]
  refine Finset.prod_congr rfl fun i hi => ?_
  have hi := Finset.mem_range.1 hi
  rw [pieces_getD hv.dry a b (by omega), joinParts_getD a b hi]
  rfl

theorem nil_shape (L : Nat) : PartShape L 0 (List.replicate L []) := by
  refine ⟨by simp, fun l hl => ?_⟩
  rw [List.getD_eq_getElem _ _ (by simpa using hl)]
  simp

theorem nil_pieces (L : Nat) (v : Nat → XF ℝ) (i : Nat) : (dailyAmounts 0 v :: List.replicate L []).getD i [] = [] := by
  cases i with
  | zero => simp [dailyAmounts]
  | succ i =>
    rw [List.getD_cons_succ]
    by_cases h : i < L
    · rw [List.getD_eq_getElem _ _ (by simpa using h)]; simp
    · rw [List.getD_eq_default _ _ (by simpa using h)]

theorem nil_getD (L i : Nat) : (List.replicate L ([] : List ℝ)).getD i [] = [] := by
  have := nil_pieces L (fun _ => .nan) (i + 1)
  rwa [List.getD_cons_succ] at this

/-- probabilities of single outcomes factorise -/
theorem join_factor (hU : UniformDraws P U) (ht : hourly = true ∨ test = false ∨ 9 ≤ level) (hL : L = if hourly then 5 else level) (h1 : 1 ≤ L) (h11 : L ≤ 11)
    (hq : ∀ l b t, (q l b t).Proper) (hs : StatsAre opts L q thr) (d0 d1 d2 : Int) {v : Nat → XF ℝ} {m k : Nat} (hv : DryAt v m k) (hm : 1 ≤ m) (hk : 1 ≤ k)
    {a b : List (List ℝ)} (ha : PartShape L m a) (hb : PartShape L k b) :
    P.real {ω | ∃ r, disaggPrecCascade api (fun k => U k ω) (dailyS d0 (m + 1 + k) v) opts hourly level shift test = .ok r ∧ r.levels = joinParts L a b} =
      P.real {ω | ∃ r, disaggPrecCascade api (fun k => U k ω) (dailyS d1 (m + 1 + 0) v) opts hourly level shift test = .ok r ∧
        r.levels = joinParts L a (List.replicate L [])} *
      P.real {ω | ∃ r, disaggPrecCascade api (fun k => U k ω) (dailyS d2 (0 + 1 + k) fun i => v (m + i)) opts hourly level shift test = .ok r ∧
        r.levels = joinParts L (List.replicate L []) b} := by
  rw [join_prob hU ht hL h1 h11 hq hs d0 hv (by omega) ha hb, join_prob hU ht hL h1 h11 hq hs d1 hv.before (by omega) ha (nil_shape L),
    join_prob hU ht hL h1 h11 hq hs d2 hv.after (by omega) (nil_shape L) hb, ← Finset.prod_mul_distrib]
  refine Finset.prod_congr rfl fun i hi => ?_
  have hi := Finset.mem_range.1 hi
  rw [boxTerm_split (q i) (thr i) (fun x hx => (List.mem_replicate.1 hx).2) (by simp) (fun x hx => (List.mem_replicate.1 hx).2)
    (pieces_length (v := v) ha hi) (by simp [pow_succ]; ring)]
  simp only [nil_pieces, nil_getD, List.append_nil, List.nil_append]
  have e : (fun i => v (m + (0 + 1 + i))) = fun i => v (m + 1 + i) := by funext i; congr 1; omega
  rw [e]

/-- the event that the parts before and after the dry day are `a` and `b` -/
theorem part_event (ht : hourly = true ∨ test = false ∨ 9 ≤ level) (hL : L = if hourly then 5 else level) (h1 : 1 ≤ L) (h11 : L ≤ 11)
    (hs : StatsAre opts L q thr) (d0 : Int) {v : Nat → XF ℝ} {m k : Nat} (hv : DryAt v m k) (hmk : 1 ≤ m + k) (rnd : Nat → ℝ) (r : CascadeOut ℝ)
    (h : disaggPrecCascade api rnd (dailyS d0 (m + 1 + k) v) opts hourly level shift test = .ok r) :
    PartShape L m (daysPart 0 m r.levels) ∧ PartShape L k (daysPart (m + 1) k r.levels) ∧
      r.levels = joinParts L (daysPart 0 m r.levels) (daysPart (m + 1) k r.levels) := by
  have hc := statsAre_check h1 hs
  have h' := (run_levels api rnd opts hourly level shift test ht d0 (m + 1 + k) (by omega) v hv.cells (by rwa [hL] at h1) (by rwa [hL] at h11) (by rwa [hL] at hc) r.levels).1
    ⟨r, h, rfl⟩
  rw [← hL] at h'
  refine levels_join (by simp [dailyAmounts]) ?_ h'
  rw [dailyAmounts_join hv.dry, List.append_assoc, List.getElem?_append_right (by simp [dailyAmounts])]
  simp [dailyAmounts]

theorem shape_nil {b : List (List ℝ)} (h : PartShape L 0 b) : b = List.replicate L [] := by
  refine list_ext_getD h.1 (by simp) fun l hl => ?_
  rw [nil_getD]
  have := h.2 l hl
  rw [Nat.zero_mul] at this
  exact List.length_eq_zero_iff.1 this

open Classical in
/-- expectation of a function of the two parts -/
theorem parts_law (hU : UniformDraws P U) (ht : hourly = true ∨ test = false ∨ 9 ≤ level) (hL : L = if hourly then 5 else level) (h1 : 1 ≤ L) (h11 : L ≤ 11)
    (hq : ∀ l b t, (q l b t).Proper) (hs : StatsAre opts L q thr) (d0 : Int) {v : Nat → XF ℝ} {m k : Nat} (hv : DryAt v m k) (hmk : 1 ≤ m + k)
    (O : Finset (List (List ℝ) × List (List ℝ))) (hO : ∀ x ∈ O, PartShape L m x.1 ∧ PartShape L k x.2)
    (hsum : ∑ x ∈ O, P.real {ω | ∃ r, disaggPrecCascade api (fun k => U k ω) (dailyS d0 (m + 1 + k) v) opts hourly level shift test = .ok r ∧
      r.levels = joinParts L x.1 x.2} = 1) (S T : Set (List (List ℝ))) :
    P.real {ω | ∃ r, disaggPrecCascade api (fun k => U k ω) (dailyS d0 (m + 1 + k) v) opts hourly level shift test = .ok r ∧
        daysPart 0 m r.levels ∈ S ∧ daysPart (m + 1) k r.levels ∈ T} =
      ∑ x ∈ O, P.real {ω | ∃ r, disaggPrecCascade api (fun k => U k ω) (dailyS d0 (m + 1 + k) v) opts hourly level shift test = .ok r ∧
        r.levels = joinParts L x.1 x.2} * if x.1 ∈ S ∧ x.2 ∈ T then 1 else 0 := by
  have := uniformDraws_prob hU
  obtain ⟨hae, _⟩ := expect_finite (P := P)
    (fun x : List (List ℝ) × List (List ℝ) => {ω | ∃ r, disaggPrecCascade api (fun k => U k ω) (dailyS d0 (m + 1 + k) v) opts hourly level shift test = .ok r ∧
      r.levels = joinParts L x.1 x.2}) O
    (fun x _ => run_measurable hU ht (by omega) hv.cells hL h1 h11 (fun l b t => (hq l b t).1) hs _ (joinParts_length _ _ _))
    (by
      intro x hx y hy hxy
      apply Set.disjoint_left.2
      rintro ω ⟨r, e1, e2⟩ ⟨r', e3, e4⟩
      rw [e1] at e3
      injection e3 with e3
      subst e3
      rw [e2] at e4
      have px := joinParts_parts (hO x hx).1 (hO x hx).2
      have py := joinParts_parts (hO y hy).1 (hO y hy).2
      rw [e4] at px
      exact hxy (Prod.ext (px.1.symm.trans py.1) (px.2.symm.trans py.2)))
    hsum
  have hset : {ω | ∃ r, disaggPrecCascade api (fun k => U k ω) (dailyS d0 (m + 1 + k) v) opts hourly level shift test = .ok r ∧
        daysPart 0 m r.levels ∈ S ∧ daysPart (m + 1) k r.levels ∈ T} =ᵐ[P]
      ⋃ x ∈ O.filter (fun x => x.1 ∈ S ∧ x.2 ∈ T), {ω | ∃ r, disaggPrecCascade api (fun k => U k ω) (dailyS d0 (m + 1 + k) v) opts hourly level shift test = .ok r ∧
        r.levels = joinParts L x.1 x.2} := by
    filter_upwards [hae] with ω ⟨x, hx, r, e1, e2⟩
    have px := joinParts_parts (hO x hx).1 (hO x hx).2
    apply propext
    show (∃ r, _ ∧ _) ↔ _ ∈ ⋃ x ∈ _, _
    simp only [Set.mem_iUnion, Finset.mem_filter, Set.mem_setOf_eq, exists_prop]
    constructor
    · rintro ⟨r', e3, e4, e5⟩
      rw [e1] at e3
      injection e3 with e3
      subst e3
      rw [e2, px.1] at e4
      rw [e2, px.2] at e5
      exact ⟨x, ⟨hx, e4, e5⟩, r, e1, e2⟩
    · rintro ⟨y, ⟨hy, s1, s2⟩, r', e3, e4⟩
      have py := joinParts_parts (hO y hy).1 (hO y hy).2
      exact ⟨r', e3, by rw [e4, py.1]; exact s1, by rw [e4, py.2]; exact s2⟩
  rw [measureReal_congr hset, measureReal_biUnion_finset, Finset.sum_filter]
  · exact Finset.sum_congr rfl fun x _ => by split_ifs <;> simp
  · intro x hx y hy hxy
    have hx := Finset.mem_filter.1 (Finset.mem_coe.1 hx)
    have hy := Finset.mem_filter.1 (Finset.mem_coe.1 hy)
    apply Set.disjoint_left.2
    rintro ω ⟨r, e1, e2⟩ ⟨r', e3, e4⟩
    rw [e1] at e3
    injection e3 with e3
    subst e3
    rw [e2] at e4
    have px := joinParts_parts (hO x hx.1).1 (hO x hx.1).2
    have py := joinParts_parts (hO y hy.1).1 (hO y hy.1).2
    rw [e4] at px
    exact hxy (Prod.ext (px.1.symm.trans py.1) (px.2.symm.trans py.2))
  · intro x _
    exact run_measurable hU ht (by omega) hv.cells hL h1 h11 (fun l b t => (hq l b t).1) hs _ (joinParts_length _ _ _)

open Classical in
/-- a finite set of pairs of parts with total probability 1 -/
theorem parts_total (hU : UniformDraws P U) (ht : hourly = true ∨ test = false ∨ 9 ≤ level) (hL : L = if hourly then 5 else level) (h1 : 1 ≤ L) (h11 : L ≤ 11)
    (hq : ∀ l b t, (q l b t).Proper) (hs : StatsAre opts L q thr) (d0 : Int) {v : Nat → XF ℝ} {m k : Nat} (hv : DryAt v m k) (hmk : 1 ≤ m + k) :
    ∃ O : Finset (List (List ℝ) × List (List ℝ)), (∀ x ∈ O, PartShape L m x.1 ∧ PartShape L k x.2) ∧
      ∑ x ∈ O, P.real {ω | ∃ r, disaggPrecCascade api (fun k => U k ω) (dailyS d0 (m + 1 + k) v) opts hourly level shift test = .ok r ∧
        r.levels = joinParts L x.1 x.2} = 1 := by
  have := uniformDraws_prob hU
  set O := ((outcomes L (dailyAmounts (m + 1 + k) v)).image fun ls => (daysPart 0 m ls, daysPart (m + 1) k ls)).filter
    fun x => PartShape L m x.1 ∧ PartShape L k x.2 with hOdef
  have hO : ∀ x ∈ O, PartShape L m x.1 ∧ PartShape L k x.2 := fun x hx => (Finset.mem_filter.1 hx).2
  refine ⟨O, hO, ?_⟩
  have hmeas : ∀ x ∈ O, MeasurableSet {ω | ∃ r, disaggPrecCascade api (fun k => U k ω) (dailyS d0 (m + 1 + k) v) opts hourly level shift test = .ok r ∧
      r.levels = joinParts L x.1 x.2} := fun x _ =>
    run_measurable hU ht (by omega) hv.cells hL h1 h11 (fun l b t => (hq l b t).1) hs _ (joinParts_length _ _ _)
  have hae : ∀ᵐ ω ∂P, ω ∈ ⋃ x ∈ O, {ω | ∃ r, disaggPrecCascade api (fun k => U k ω) (dailyS d0 (m + 1 + k) v) opts hourly level shift test = .ok r ∧
      r.levels = joinParts L x.1 x.2} := by
    have hprob : ∀ ls ∈ outcomes L (dailyAmounts (m + 1 + k) v),
        P.real {ω | ∃ r, disaggPrecCascade api (fun k => U k ω) (dailyS d0 (m + 1 + k) v) opts hourly level shift test = .ok r ∧ r.levels = ls} =
          levelsProb q thr 0 none (dailyAmounts (m + 1 + k) v) ls := fun ls h =>
      C96_law P U hU api opts hourly level shift test ht d0 _ (by omega) v hv.cells L hL h1 h11 q (fun l b t => (hq l b t).1) thr hs ls (outcomes_length L _ ls h)
    obtain ⟨h2, _⟩ := expect_finite (P := P)
      (fun ls => {ω | ∃ r, disaggPrecCascade api (fun k => U k ω) (dailyS d0 (m + 1 + k) v) opts hourly level shift test = .ok r ∧ r.levels = ls})
      (outcomes L (dailyAmounts (m + 1 + k) v))
      (fun ls h => run_measurable hU ht (by omega) hv.cells hL h1 h11 (fun l b t => (hq l b t).1) hs ls (outcomes_length L _ ls h))
      (by
        intro a _ b _ hab
        apply Set.disjoint_left.2
        rintro ω ⟨r, e1, rfl⟩ ⟨r', e2, rfl⟩
        rw [e1] at e2
        injection e2 with e2
        exact hab (congrArg CascadeOut.levels e2))
      (by rw [Finset.sum_congr rfl hprob]; exact levels_one hq L 0 none _)
    filter_upwards [h2] with ω ⟨ls, hls, r, e1, e2⟩
    obtain ⟨s1, s2, s3⟩ := part_event ht hL h1 h11 hs d0 hv hmk _ r e1
    simp only [Set.mem_iUnion, Set.mem_setOf_eq, exists_prop]
    refine ⟨(daysPart 0 m r.levels, daysPart (m + 1) k r.levels), ?_, r, e1, s3⟩
    rw [hOdef, Finset.mem_filter, Finset.mem_image]
    exact ⟨⟨ls, hls, by rw [e2]⟩, s1, s2⟩
  rw [← measureReal_biUnion_finset _ hmeas]
  · rw [measureReal_def, show P _ = 1 from (prob_compl_eq_zero_iff (Finset.measurableSet_biUnion O hmeas)).1 hae, ENNReal.toReal_one]
  · intro x hx y hy hxy
    apply Set.disjoint_left.2
    rintro ω ⟨r, e1, e2⟩ ⟨r', e3, e4⟩
    rw [e1] at e3
    injection e3 with e3
    subst e3
    rw [e2] at e4
    have px := joinParts_parts (hO x hx).1 (hO x hx).2
    have py := joinParts_parts (hO y hy).1 (hO y hy).2
    rw [e4] at px
    exact hxy (Prod.ext (px.1.symm.trans py.1) (px.2.symm.trans py.2))

open Classical in
/-- **C137.**  The record has `m` days, a dry or missing day, and `k` days.  The boxes (of all levels) of the days before and of the days after the dry day are independent:
the probability that the former are in `S` and the latter in `T` is the product of the probability of `S` for the record that ends with the dry day and the
probability of `T` for the record that begins with it. -/
theorem C137_levels (hU : UniformDraws P U) (ht : hourly = true ∨ test = false ∨ 9 ≤ level) (hL : L = if hourly then 5 else level) (h1 : 1 ≤ L) (h11 : L ≤ 11)
    (hq : ∀ l b t, (q l b t).Proper) (hs : StatsAre opts L q thr) (d0 : Int) (v : Nat → XF ℝ) {m k : Nat} (hm : 1 ≤ m) (hk : 1 ≤ k)
    (hv : ∀ i < m + 1 + k, v i = .nan ∨ ∃ x, 0 ≤ x ∧ v i = .fin x) (hdry : v m = .nan ∨ v m = .fin 0) (S T : Set (List (List ℝ))) :
    P.real {ω | ∃ r, disaggPrecCascade api (fun k => U k ω) (dailyS d0 (m + 1 + k) v) opts hourly level shift test = .ok r ∧
        daysPart 0 m r.levels ∈ S ∧ daysPart (m + 1) k r.levels ∈ T} =
      P.real {ω | ∃ r, disaggPrecCascade api (fun k => U k ω) (dailyS d0 (m + 1) v) opts hourly level shift test = .ok r ∧ daysPart 0 m r.levels ∈ S} *
      P.real {ω | ∃ r, disaggPrecCascade api (fun k => U k ω) (dailyS (d0 + m) (1 + k) fun i => v (m + i)) opts hourly level shift test = .ok r ∧
        daysPart 1 k r.levels ∈ T} := by
  have hd : DryAt v m k := ⟨hv, hdry⟩
  obtain ⟨O1, s1, t1⟩ := parts_total (api := api) (shift := shift) hU ht hL h1 h11 hq hs d0 hd.before (by omega)
  obtain ⟨O2, s2, t2⟩ := parts_total (api := api) (shift := shift) hU ht hL h1 h11 hq hs (d0 + m) hd.after (by omega)
  have l1 := parts_law hU ht hL h1 h11 hq hs d0 hd.before (by omega) O1 s1 t1 S Set.univ
  have l2 := parts_law hU ht hL h1 h11 hq hs (d0 + m) hd.after (by omega) O2 s2 t2 Set.univ T
  have inj1 : Set.InjOn Prod.fst (O1 : Set (List (List ℝ) × List (List ℝ))) := by
    intro x hx y hy h
    exact Prod.ext h ((shape_nil (s1 x hx).2).trans (shape_nil (s1 y hy).2).symm)
  have inj2 : Set.InjOn Prod.snd (O2 : Set (List (List ℝ) × List (List ℝ))) := by
    intro x hx y hy h
    exact Prod.ext ((shape_nil (s2 x hx).1).trans (shape_nil (s2 y hy).1).symm) h
  have s : ∀ x ∈ O1.image Prod.fst ×ˢ O2.image Prod.snd, PartShape L m x.1 ∧ PartShape L k x.2 := by
    intro x hx
    rw [Finset.mem_product, Finset.mem_image, Finset.mem_image] at hx
    obtain ⟨⟨y, hy, e1⟩, z, hz, e2⟩ := hx
    rw [← e1, ← e2]
    exact ⟨(s1 y hy).1, (s2 z hz).2⟩
  have sum : ∀ (f g : List (List ℝ) → ℝ), ∑ x ∈ O1.image Prod.fst ×ˢ O2.image Prod.snd,
      P.real {ω | ∃ r, disaggPrecCascade api (fun k => U k ω) (dailyS d0 (m + 1 + k) v) opts hourly level shift test = .ok r ∧ r.levels = joinParts L x.1 x.2} * (f x.1 * g x.2) =
      (∑ x ∈ O1, P.real {ω | ∃ r, disaggPrecCascade api (fun k => U k ω) (dailyS d0 (m + 1 + 0) v) opts hourly level shift test = .ok r ∧
        r.levels = joinParts L x.1 x.2} * f x.1) *
      ∑ x ∈ O2, P.real {ω | ∃ r, disaggPrecCascade api (fun k => U k ω) (dailyS (d0 + m) (0 + 1 + k) fun i => v (m + i)) opts hourly level shift test = .ok r ∧
        r.levels = joinParts L x.1 x.2} * g x.2 := by
    intro f g
    rw [Finset.sum_mul_sum, Finset.sum_product, Finset.sum_image inj1]
    refine Finset.sum_congr rfl fun x hx => ?_
    rw [Finset.sum_image inj2]
    refine Finset.sum_congr rfl fun y hy => ?_
    simp only
    rw [join_factor hU ht hL h1 h11 hq hs d0 d0 (d0 + m) hd hm hk (s1 x hx).1 (s2 y hy).2, shape_nil (s1 x hx).2, shape_nil (s2 y hy).1]
    ring
  have t : ∑ x ∈ O1.image Prod.fst ×ˢ O2.image Prod.snd,
      P.real {ω | ∃ r, disaggPrecCascade api (fun k => U k ω) (dailyS d0 (m + 1 + k) v) opts hourly level shift test = .ok r ∧ r.levels = joinParts L x.1 x.2} = 1 := by
    have := sum (fun _ => 1) (fun _ => 1)
    simp only [mul_one] at this
    rw [this, t1, t2, one_mul]
  have l := parts_law hU ht hL h1 h11 hq hs d0 hd (by omega) _ s t S T
  have e := sum (fun a => if a ∈ S then 1 else 0) (fun b => if b ∈ T then 1 else 0)
  simp only [Set.mem_univ, and_true, true_and] at l1 l2
  rw [← l1, ← l2] at e
  rw [l]
  simp only [Nat.add_zero, Nat.zero_add] at e
  rw [← e]
  refine Finset.sum_congr rfl fun x _ => ?_
  congr 1
  by_cases c1 : x.1 ∈ S <;> by_cases c2 : x.2 ∈ T <;> simp [c1, c2]

/-- the hours of `k` days from the boxes of those days -/
def hoursFn (v : Nat → XF ℝ) (k : Nat) (part : List (List ℝ)) : List (List (XF ℝ)) := (List.range k).map fun i => day24 fun h => if (v i).isNan then .nan else
  .fin (∑ m ∈ Finset.range 4, (part.getD 4 []).getD ((4 * (24 * i + h) + m) / 3) 0 / 3)

theorem hoursOf_run {rnd : Nat → ℝ} {r : CascadeOut ℝ} {d0 : Int} {n : Nat} {v : Nat → XF ℝ}
    (h : disaggPrecCascade api rnd (dailyS d0 n v) opts true level 0 test = .ok r) {a k : Nat} (hak : a + k ≤ n) :
    daysCells r.series (d0 + a) k = hoursFn (fun i => v (a + i)) k (daysPart a k r.levels) := by
  unfold daysCells hoursFn
  refine List.map_congr_left fun i hi => ?_
  have hi := List.mem_range.1 hi
  have := cascade_cells h (i := a + i) (by omega)
  rw [show d0 + (a : Int) + (i : Int) = d0 + ((a + i : Nat) : Int) by push_cast; ring, this]
  refine day24_congr fun t ht => ?_
  congr 2
  refine Finset.sum_congr rfl fun m hm => ?_
  have hm := Finset.mem_range.1 hm
  congr 1
  rw [daysPart_getD]
  simp only [List.getD_eq_getElem?_getD]
  rw [List.getElem?_take_of_lt (by norm_num; omega), List.getElem?_drop]
  congr 3
  norm_num
  omega

/-- **C137** (hours): with hourly output the hourly values of the days before and after a dry or missing day are independent, and each part has the law it has in the
record cut at the dry day. -/
theorem C137_hours (hU : UniformDraws P U) (hq : ∀ l b t, (q l b t).Proper) (hs : StatsAre opts 5 q thr) (d0 : Int) (v : Nat → XF ℝ) {m k : Nat} (hm : 1 ≤ m) (hk : 1 ≤ k)
    (hv : ∀ i < m + 1 + k, v i = .nan ∨ ∃ x, 0 ≤ x ∧ v i = .fin x) (hdry : v m = .nan ∨ v m = .fin 0) (S T : Set (List (List (XF ℝ)))) :
    P.real {ω | ∃ r, disaggPrecCascade api (fun k => U k ω) (dailyS d0 (m + 1 + k) v) opts true level 0 test = .ok r ∧
        daysCells r.series d0 m ∈ S ∧ daysCells r.series (d0 + (m + 1 : Nat)) k ∈ T} =
      P.real {ω | ∃ r, disaggPrecCascade api (fun k => U k ω) (dailyS d0 (m + 1) v) opts true level 0 test = .ok r ∧ daysCells r.series d0 m ∈ S} *
      P.real {ω | ∃ r, disaggPrecCascade api (fun k => U k ω) (dailyS (d0 + m) (1 + k) fun i => v (m + i)) opts true level 0 test = .ok r ∧
        daysCells r.series (d0 + (m + 1 : Nat)) k ∈ T} := by
  have h := C137_levels (P := P) (api := api) (level := level) (shift := 0) (test := test) (L := 5) hU (hourly := true) (.inl rfl) rfl (by norm_num) (by norm_num) hq hs
    d0 v hm hk hv hdry (hoursFn v m ⁻¹' S) (hoursFn (fun i => v (m + 1 + i)) k ⁻¹' T)
  convert h using 3
  · ext ω
    refine exists_congr fun r => and_congr_right fun e => ?_
    have h1 := hoursOf_run e (a := 0) (k := m) (by omega)
    have h2 := hoursOf_run e (a := m + 1) (k := k) (by omega)
    simp only [Nat.cast_zero, add_zero, zero_add] at h1
    rw [h1, h2, Set.mem_preimage, Set.mem_preimage]
  · ext ω
    refine exists_congr fun r => and_congr_right fun e => ?_
    have h1 := hoursOf_run e (a := 0) (k := m) (by omega)
    simp only [Nat.cast_zero, add_zero, zero_add] at h1
    rw [h1, Set.mem_preimage]
  · ext ω
    refine exists_congr fun r => and_congr_right fun e => ?_
    have h1 := hoursOf_run e (a := 1) (k := k) (by omega)
    rw [show d0 + ((m + 1 : Nat) : Int) = d0 + (m : Int) + ((1 : Nat) : Int) by push_cast; ring, h1, Set.mem_preimage]
    have e : (fun i => v (m + (1 + i))) = fun i => v (m + 1 + i) := by funext i; congr 1; omega
    rw [e]

end

/-- C137 at work: 4 mm, dry, 2 mm with balanced statistics: the first hour of the first day is dry and the last hour of the third day is dry with the product of the two
probabilities. -/
example : (Measure.infinitePi fun _ : Nat => unit).real {ω | ∃ r, disaggPrecCascade .modern (fun k => ω k) (dailyS 0 3 fun i => if i = 0 then .fin 4 else if i = 1 then .fin 0 else .fin 2)
      (.one balancedStats) true 5 0 false = .ok r ∧ daysCells r.series 0 1 ∈ {x | (x.getD 0 []).getD 0 .nan = .fin 0} ∧ daysCells r.series 2 1 ∈ {x | (x.getD 0 []).getD 23 .nan = .fin 0}} =
    (Measure.infinitePi fun _ : Nat => unit).real {ω | ∃ r, disaggPrecCascade .modern (fun k => ω k) (dailyS 0 2 fun i => if i = 0 then .fin 4 else if i = 1 then .fin 0 else .fin 2)
      (.one balancedStats) true 5 0 false = .ok r ∧ daysCells r.series 0 1 ∈ {x | (x.getD 0 []).getD 0 .nan = .fin 0}} *
    (Measure.infinitePi fun _ : Nat => unit).real {ω | ∃ r, disaggPrecCascade .modern (fun k => ω k) (dailyS 1 2 fun i => if i = 0 then .fin 0 else .fin 2)
      (.one balancedStats) true 5 0 false = .ok r ∧ daysCells r.series 2 1 ∈ {x | (x.getD 0 []).getD 23 .nan = .fin 0}} := by
  have h := C137_hours (P := Measure.infinitePi fun _ : Nat => unit) (U := fun k ω => ω k) (api := .modern) (opts := .one balancedStats) (level := 5) (test := false)
    (q := fun _ _ _ => ⟨1 / 4, 1 / 4, fun _ => 1 / 7⟩) (thr := fun _ => .fin 1) uniformDraws_exist
    (fun _ _ _ => ⟨⟨by norm_num, by norm_num, fun _ => by norm_num⟩, by norm_num, by norm_num⟩)
    ⟨by simp, by
      intro l hl
      refine ⟨balancedStats, ⟨rfl, ?_⟩, fun b t => ⟨rfl, rfl, fun k => rfl⟩⟩
      interval_cases l <;> rfl⟩
    0 (fun i => if i = 0 then .fin 4 else if i = 1 then .fin 0 else .fin 2) (m := 1) (k := 1) (by norm_num) (by norm_num)
    (by intro i hi; interval_cases i <;> simp) (.inr rfl) {x | (x.getD 0 []).getD 0 .nan = .fin 0} {x | (x.getD 0 []).getD 23 .nan = .fin 0}
  have e : (fun i : Nat => (if 1 + i = 0 then .fin 4 else if 1 + i = 1 then .fin 0 else .fin 2 : XF ℝ)) = fun i => if i = 0 then .fin 0 else .fin 2 := by
    funext i
    by_cases hi : i = 0 <;> simp [hi]
  rw [e] at h
  exact h

end

end Melodist
