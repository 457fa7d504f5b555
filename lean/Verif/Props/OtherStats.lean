import Verif.Props.Averages

/-!
# C154: slightly different cascade statistics
-/

set_option linter.unusedSectionVars false

namespace Melodist
open Spec MeasureTheory ProbabilityTheory

noncomputable section

/-- the number is on the same side of all limits of two split laws: P(0/1), P(0/1) + P(1/0), and the seven cumulative weights -/
def Spec.SameSides (q q' : SplitLaw) (u : ℝ) : Prop :=
  (u ≤ q.p01 ↔ u ≤ q'.p01) ∧ (u ≤ q.p01 + q.p10 ↔ u ≤ q'.p01 + q'.p10) ∧ ∀ c : Fin 7, u ≤ ∑ k ∈ Finset.Iic c, q.w k ↔ u ≤ ∑ k ∈ Finset.Iic c, q'.w k

/-- all entries of two split laws differ by at most `ε` -/
def Spec.LawNear (ε : ℝ) (q q' : SplitLaw) : Prop := |q.p01 - q'.p01| ≤ ε ∧ |q.p10 - q'.p10| ≤ ε ∧ ∀ k, |q.w k - q'.w k| ≤ ε

/-! ### one box, one level, all levels -/

theorem guess_same {s s' : CascStats ℝ} {q q' : Fin 2 → Fin 4 → SplitLaw} (hs : CellsOf s q) (hs' : CellsOf s' q') (b : Fin 2) (t : Fin 4) {u : ℝ}
    (h : SameSides (q b t) (q' b t) u) (stale : Option ℝ) : guessW1 s b t u stale = guessW1 s' b t u stale := by
  have e : (fun k => s.wxx k b t) = fun k => .fin ((q b t).w k) := funext fun k => (hs b t).2.2 k
  have e' : (fun k => s'.wxx k b t) = fun k => .fin ((q' b t).w k) := funext fun k => (hs' b t).2.2 k
  have hset : ∀ c, u ∈ ClassSet (q b t) c ↔ u ∈ ClassSet (q' b t) c := by
    intro c
    unfold ClassSet
    simp only [Set.mem_setOf_eq, h.2.2]
  have hno : (∀ c, ¬ XF.le (.fin u) (cumWeight (fun k => .fin ((q b t).w k)) c)) ↔ ∀ c, ¬ XF.le (.fin u) (cumWeight (fun k => .fin ((q' b t).w k)) c) := by
    simp only [cumWeight_fin, XF.le_fin, h.2.2]
  rcases guessW1_class s b t u stale with ⟨c, h1, h2⟩ | ⟨h1, h2⟩ <;> rcases guessW1_class s' b t u stale with ⟨c', h1', h2'⟩ | ⟨h1', h2'⟩
  · rw [e, firstClass_iff, hset] at h1
    rw [e', firstClass_iff] at h1'
    rw [h2, h2', classSet_unique h1 h1']
  · rw [e] at h1
    rw [e', ← hno] at h1'
    exact absurd h1.1 (h1' c)
  · rw [e, hno] at h1
    rw [e'] at h1'
    exact absurd h1'.1 (h1 c')
  · rw [h2, h2']

theorem boxStep_same {rnd : Nat → ℝ} {s s' : CascStats ℝ} {q q' : Fin 2 → Fin 4 → SplitLaw} (hs : CellsOf s q) (hs' : CellsOf s' q') (mv : XF ℝ) (prev : Option ℝ) (x : ℝ) (next : Option ℝ)
    {st : CascVars ℝ} {D : Nat} (hD : st.draws + 2 ≤ D) (h : ∀ k < D, ∀ b t, SameSides (q b t) (q' b t) (rnd k)) :
    boxStep rnd s mv prev x next st = boxStep rnd s' mv prev x next st ∧ ∀ ab st', boxStep rnd s mv prev x next st = .ok (ab, st') → st'.draws ≤ st.draws + 2 := by
  unfold boxStep
  by_cases hx : 0 < x
  swap
  · rw [if_neg hx, if_neg hx]
    exact ⟨rfl, fun ab st' h => by cases h; omega⟩
  · rw [if_pos hx, if_pos hx]
    cases hb : boxType prev next st.vbtype with
    | error e => exact ⟨rfl, fun ab st' h => by cases h⟩
    | ok vb =>
      simp only [bind, Except.bind]
      cases vb with
      | none => exact ⟨rfl, fun ab st' h => by cases h⟩
      | some ty =>
        dsimp only
        generalize (if XF.lt mv (.fin x) then (1 : Fin 2) else 0) = b
        have h0 := h st.draws (by omega) b ty.col
        have h1 := h (st.draws + 1) (by omega) b ty.col
        rw [(hs b ty.col).1, (hs b ty.col).2.1, (hs' b ty.col).1, (hs' b ty.col).2.1, guess_same hs hs' b ty.col h1]
        simp only [XF.fin_add_fin, XF.le_fin, XF.lt_fin, ← not_le, h0.1, h0.2.1]
        refine ⟨trivial, ?_⟩
        intro ab st' hr
        split_ifs at hr
        · cases hr; dsimp only; omega
        · cases hr; dsimp only; omega
        · generalize guessW1 s' b ty.col (rnd (st.draws + 1)) st.w1 = g at hr
          cases g with
          | none => cases hr
          | some w =>
            dsimp only at hr
            split_ifs at hr
            cases hr
            exact le_rfl

theorem boxLoop_same {rnd : Nat → ℝ} {s s' : CascStats ℝ} {q q' : Fin 2 → Fin 4 → SplitLaw} (hs : CellsOf s q) (hs' : CellsOf s' q') (mv : XF ℝ) {D : Nat}
    (h : ∀ k < D, ∀ b t, SameSides (q b t) (q' b t) (rnd k)) : ∀ (v : List ℝ) (prev : Option ℝ) (st : CascVars ℝ), st.draws + 2 * v.length ≤ D →
    boxLoop rnd s mv prev v st = boxLoop rnd s' mv prev v st ∧ ∀ out st', boxLoop rnd s mv prev v st = .ok (out, st') → st'.draws ≤ st.draws + 2 * v.length := by
  intro v
  induction v with
  | nil => intro prev st _; exact ⟨rfl, fun out st' h => by unfold boxLoop at h; cases h; omega⟩
  | cons x xs ih =>
    intro prev st hD
    rw [List.length_cons] at hD
    obtain ⟨a1, a2⟩ := boxStep_same hs hs' mv prev x xs.head? (st := st) (by omega) h
    constructor
    · unfold boxLoop
      rw [← a1]
      cases hb : boxStep rnd s mv prev x xs.head? st with
      | error e => rfl
      | ok r =>
        obtain ⟨ab, st1⟩ := r
        have := a2 _ _ hb
        simp only [bind, Except.bind]
        rw [(ih (some x) st1 (by omega)).1]
    · intro out st' hr
      obtain ⟨a, b, st1, rest, h1, h2, rfl⟩ := boxLoop_cons hr
      have := a2 _ _ h1
      have := (ih (some x) st1 (by omega)).2 _ _ h2
      rw [List.length_cons]
      omega

theorem levelLoop_same {rnd : Nat → ℝ} {opts opts' : CascOptions ℝ} {L : Nat} {q q' : Nat → Fin 2 → Fin 4 → SplitLaw} {thr : Nat → XF ℝ}
    (hs : StatsAre opts L q thr) (hs' : StatsAre opts' L q' thr) {D : Nat} (h : ∀ k < D, ∀ l < L, ∀ b t, SameSides (q l b t) (q' l b t) (rnd k)) :
    ∀ (si : Nat) (v : List ℝ) (st : CascVars ℝ), si ≤ L → st.draws + 2 * v.length * (2 ^ si - 1) ≤ D → levelLoop rnd opts si v st = levelLoop rnd opts' si v st := by
  intro si
  induction si with
  | zero => intro v st _ _; rfl
  | succ si ih =>
    intro v st hL hD
    have hp : 2 ^ (si + 1) - 1 = 2 * (2 ^ si - 1) + 1 := by
      have := Nat.one_le_two_pow (n := si)
      rw [pow_succ]
      omega
    rw [hp, Nat.mul_add, Nat.mul_one] at hD
    obtain ⟨s, e, c⟩ := hs.2 (L - (si + 1)) (by omega)
    obtain ⟨s', e', c'⟩ := hs'.2 (L - (si + 1)) (by omega)
    have e := statsOfLevel_levelStats e
    have e' := statsOfLevel_levelStats e'
    rw [show L - (L - (si + 1) + 1) = si by omega] at e e'
    obtain ⟨a1, a2⟩ := boxLoop_same (rnd := rnd) (s := s) (s' := s') (q := q (L - (si + 1))) (q' := q' (L - (si + 1))) c c' (thr (L - (si + 1)))
      (fun k hk => h k hk _ (by omega)) v none st (by omega)
    unfold levelLoop
    rw [e, e']
    simp only [bind, Except.bind]
    rw [← a1]
    cases hb : boxLoop rnd s (thr (L - (si + 1))) none v st with
    | error e => rfl
    | ok r =>
      obtain ⟨vout, st1⟩ := r
      have hd := a2 _ _ hb
      have hl := (boxLoop_split hb).length
      simp only
      rw [ih vout st1 (by omega) (by
        rw [hl]
        have : 2 * (v.length * 2) * (2 ^ si - 1) = 2 * v.length * (2 * (2 ^ si - 1)) := by ring
        have h2 : 2 * (2 * v.length) * (2 ^ si - 1) = 2 * v.length * (2 * (2 ^ si - 1)) := by ring
        first | rw [this]; omega | rw [h2]; omega)]

theorem zeroMissing_length : ∀ {l : List (XF ℝ)} {v : List ℝ}, zeroMissing l = .ok v → v.length = l.length := by
  intro l
  induction l with
  | nil => intro v h; cases h; rfl
  | cons c l ih =>
    intro v h
    cases c with
    | pinf => cases h
    | ninf => cases h
    | nan =>
      unfold zeroMissing at h
      cases hz : zeroMissing l with
      | error e => rw [hz] at h; cases h
      | ok w => rw [hz] at h; cases h; rw [List.length_cons, List.length_cons, ih hz]
    | fin x =>
      unfold zeroMissing at h
      cases hz : zeroMissing l with
      | error e => rw [hz] at h; cases h
      | ok w => rw [hz] at h; cases h; rw [List.length_cons, List.length_cons, ih hz]

/-- **C154** (same random numbers): for two sets of statistics with the same thresholds the cascade gives the same result (values, levels, exceptions) if no random number used lies between corresponding limits.
At most 2 n (2^L - 1) random numbers are used for n days and L levels. -/
theorem C154_same (api : PandasApi) (rnd : Nat → ℝ) (daily : Series (XF ℝ)) {opts opts' : CascOptions ℝ} {hourly : Bool} {level L : Nat} (shift : Int) (test : Bool) (hL : L = if hourly then 5 else level)
    {q q' : Nat → Fin 2 → Fin 4 → SplitLaw} {thr : Nat → XF ℝ} (hs : StatsAre opts L q thr) (hs' : StatsAre opts' L q' thr)
    (h : ∀ k < 2 * daily.length * (2 ^ L - 1), ∀ l < L, ∀ b t, SameSides (q l b t) (q' l b t) (rnd k)) :
    disaggPrecCascade api rnd daily opts hourly level shift test = disaggPrecCascade api rnd daily opts' hourly level shift test := by
  unfold disaggPrecCascade
  by_cases h2 : daily.length < 2
  · rw [if_pos h2, if_pos h2]
  rw [if_neg h2, if_neg h2]
  cases hz : zeroMissing daily.values with
  | error e => rfl
  | ok v =>
    have hlen : v.length = daily.length := by
      rw [zeroMissing_length hz]
      unfold Series.values
      rw [List.length_map]
    simp only [bind, Except.bind]
    rw [← hL]
    by_cases hr : L < 1 ∨ 11 < L
    · rw [if_pos hr, if_pos hr]
    rw [if_neg hr, if_neg hr]
    have hc : ∀ {o : CascOptions ℝ} {p : Nat → Fin 2 → Fin 4 → SplitLaw}, StatsAre o L p thr → checkOptions o L = .ok () := by
      intro o p ho
      cases o with
      | one s => rfl
      | many l => exact if_pos (ho.1 l rfl)
      | other => obtain ⟨s, e, _⟩ := ho.2 0 (by omega); exact e.elim
    rw [hc hs, hc hs', levelLoop_same hs hs' h L v {} le_rfl (by rw [hlen]; show 0 + _ ≤ _; omega)]

/-! ### probabilities -/

theorem sides_set (a a' : ℝ) : {u : ℝ | ¬ (u ≤ a ↔ u ≤ a')} ⊆ Set.Ioc (min a a') (max a a') := by
  intro u hu
  simp only [Set.mem_setOf_eq] at hu
  rw [Set.mem_Ioc, min_lt_iff, le_max_iff]
  by_cases h1 : u ≤ a <;> by_cases h2 : u ≤ a'
  · exact absurd (iff_of_true h1 h2) hu
  · exact ⟨.inr (not_le.1 h2), .inl h1⟩
  · exact ⟨.inl (not_le.1 h1), .inr h2⟩
  · exact absurd (iff_of_false h1 h2) hu

theorem sides_prob {a a' d : ℝ} (h : |a - a'| ≤ d) : unit.real (Set.Ioc (min a a') (max a a')) ≤ d := by
  have h1 : unit (Set.Ioc (min a a') (max a a')) ≤ ENNReal.ofReal d := by
    refine (Measure.restrict_apply_le _ _).trans ?_
    rw [Real.volume_Ioc, max_sub_min_eq_abs]
    exact ENNReal.ofReal_le_ofReal (by rwa [abs_sub_comm])
  exact ENNReal.toReal_le_of_le_ofReal ((abs_nonneg _).trans h) h1

/-- the numbers between corresponding limits of two split laws -/
def betweenLimits (q q' : SplitLaw) : Set ℝ :=
  Set.Ioc (min q.p01 q'.p01) (max q.p01 q'.p01) ∪ Set.Ioc (min (q.p01 + q.p10) (q'.p01 + q'.p10)) (max (q.p01 + q.p10) (q'.p01 + q'.p10)) ∪
    ⋃ c : Fin 7, Set.Ioc (min (∑ k ∈ Finset.Iic c, q.w k) (∑ k ∈ Finset.Iic c, q'.w k)) (max (∑ k ∈ Finset.Iic c, q.w k) (∑ k ∈ Finset.Iic c, q'.w k))

theorem betweenLimits_measurable (q q' : SplitLaw) : MeasurableSet (betweenLimits q q') :=
  (measurableSet_Ioc.union measurableSet_Ioc).union (MeasurableSet.iUnion fun _ => measurableSet_Ioc)

theorem sameSides_of {q q' : SplitLaw} {u : ℝ} (h : u ∉ betweenLimits q q') : SameSides q q' u := by
  unfold betweenLimits at h
  simp only [Set.mem_union, Set.mem_iUnion, not_or, not_exists] at h
  obtain ⟨⟨h1, h2⟩, h3⟩ := h
  refine ⟨?_, ?_, fun c => ?_⟩
  · by_contra hc; exact h1 (sides_set _ _ hc)
  · by_contra hc; exact h2 (sides_set _ _ hc)
  · by_contra hc; exact h3 c (sides_set _ _ hc)

theorem betweenLimits_prob {ε : ℝ} {q q' : SplitLaw} (h : LawNear ε q q') : unit.real (betweenLimits q q') ≤ 31 * ε := by
  have h1 := sides_prob h.1
  have h2 := sides_prob (a := q.p01 + q.p10) (a' := q'.p01 + q'.p10) (d := 2 * ε) (by
    rw [show q.p01 + q.p10 - (q'.p01 + q'.p10) = (q.p01 - q'.p01) + (q.p10 - q'.p10) by ring]
    exact (abs_add_le _ _).trans (by linarith [h.1, h.2.1]))
  have h3 : ∀ c : Fin 7, unit.real (Set.Ioc (min (∑ k ∈ Finset.Iic c, q.w k) (∑ k ∈ Finset.Iic c, q'.w k)) (max (∑ k ∈ Finset.Iic c, q.w k) (∑ k ∈ Finset.Iic c, q'.w k))) ≤
      ((c : Nat) + 1 : ℝ) * ε := by
    intro c
    apply sides_prob
    rw [← Finset.sum_sub_distrib]
    refine (Finset.abs_sum_le_sum_abs _ _).trans ((Finset.sum_le_card_nsmul _ _ ε fun k _ => h.2.2 k).trans ?_)
    rw [Fin.card_Iic, nsmul_eq_mul]
    push_cast
    exact le_rfl
  refine (measureReal_union_le _ _).trans ?_
  refine (add_le_add ((measureReal_union_le _ _).trans (add_le_add h1 h2)) ((measureReal_iUnion_fintype_le _).trans (Finset.sum_le_sum fun c _ => h3 c))).trans ?_
  rw [Fin.sum_univ_seven]
  norm_num
  linarith

section
variable {Ω : Type} [MeasurableSpace Ω] {P : Measure Ω} {U : Nat → Ω → ℝ}
  {api : PandasApi} {opts opts' : CascOptions ℝ} {q q' : Nat → Fin 2 → Fin 4 → SplitLaw} {thr : Nat → XF ℝ}

/-- some random number used lies between limits -/
def someBetween (U : Nat → Ω → ℝ) (q q' : Nat → Fin 2 → Fin 4 → SplitLaw) (D L : Nat) : Set Ω :=
  ⋃ k ∈ Finset.range D, ⋃ l ∈ Finset.range L, ⋃ b : Fin 2, ⋃ t : Fin 4, U k ⁻¹' betweenLimits (q l b t) (q' l b t)

theorem someBetween_measurable (hU : UniformDraws P U) (D L : Nat) : MeasurableSet (someBetween U q q' D L) :=
  Finset.measurableSet_biUnion _ fun k _ => Finset.measurableSet_biUnion _ fun _ _ => MeasurableSet.iUnion fun _ => MeasurableSet.iUnion fun _ =>
    hU.measurable k (betweenLimits_measurable _ _)

theorem someBetween_prob (hU : UniformDraws P U) {ε : ℝ} {D L : Nat} (hn : ∀ l < L, ∀ b t, LawNear ε (q l b t) (q' l b t)) :
    P.real (someBetween U q q' D L) ≤ D * (248 * L * ε) := by
  have := uniformDraws_prob hU
  have h1 : ∀ k, ∀ l < L, ∀ b t, P.real (U k ⁻¹' betweenLimits (q l b t) (q' l b t)) ≤ 31 * ε := by
    intro k l hl b t
    have e : P.real (U k ⁻¹' betweenLimits (q l b t) (q' l b t)) = unit.real (betweenLimits (q l b t) (q' l b t)) := by
      rw [Measure.real, Measure.real, show unit = P.map (U k) from (hU.uniform k).symm, Measure.map_apply (hU.measurable k) (betweenLimits_measurable _ _)]
    rw [e]
    exact betweenLimits_prob (hn l hl b t)
  unfold someBetween
  refine (measureReal_biUnion_finset_le _ _).trans ?_
  refine (Finset.sum_le_card_nsmul _ _ (248 * L * ε) fun k _ => ?_).trans (by rw [Finset.card_range, nsmul_eq_mul])
  refine (measureReal_biUnion_finset_le _ _).trans ?_
  refine (Finset.sum_le_card_nsmul _ _ (248 * ε) fun l hl => ?_).trans (by rw [Finset.card_range, nsmul_eq_mul]; linarith)
  refine (measureReal_iUnion_fintype_le _).trans ?_
  refine (Finset.sum_le_card_nsmul _ _ (124 * ε) fun b _ => ?_).trans (by rw [Finset.card_univ, Fintype.card_fin, nsmul_eq_mul]; push_cast; linarith)
  refine (measureReal_iUnion_fintype_le _).trans ?_
  refine (Finset.sum_le_card_nsmul _ _ (31 * ε) fun t _ => h1 k l (Finset.mem_range.1 hl) b t).trans (by rw [Finset.card_univ, Fintype.card_fin, nsmul_eq_mul]; push_cast; linarith)

theorem same_outside (daily : Series (XF ℝ)) {hourly : Bool} {level L : Nat} (shift : Int) (test : Bool) (hL : L = if hourly then 5 else level)
    (hs : StatsAre opts L q thr) (hs' : StatsAre opts' L q' thr) {ω : Ω} (h : ω ∉ someBetween U q q' (2 * daily.length * (2 ^ L - 1)) L) :
    disaggPrecCascade api (fun k => U k ω) daily opts hourly level shift test = disaggPrecCascade api (fun k => U k ω) daily opts' hourly level shift test := by
  apply C154_same api _ daily shift test hL hs hs'
  intro k hk l hl b t
  apply sameSides_of
  intro hm
  apply h
  unfold someBetween
  simp only [Set.mem_iUnion, Finset.mem_range]
  exact ⟨k, hk, l, hl, b, t, hm⟩

/-- **C154** (probability): if all probabilities and weights of the two sets differ by at most `ε`, the results for n days and L levels differ with a probability of at most 2 n (2^L - 1) · 248 L ε. -/
theorem C154_probability (hU : UniformDraws P U) (daily : Series (XF ℝ)) {hourly : Bool} {level L : Nat} (shift : Int) (test : Bool) (hL : L = if hourly then 5 else level)
    (hs : StatsAre opts L q thr) (hs' : StatsAre opts' L q' thr) {ε : ℝ} (hn : ∀ l < L, ∀ b t, LawNear ε (q l b t) (q' l b t)) :
    P.real {ω | disaggPrecCascade api (fun k => U k ω) daily opts hourly level shift test ≠ disaggPrecCascade api (fun k => U k ω) daily opts' hourly level shift test} ≤
      2 * daily.length * (2 ^ L - 1) * (248 * L * ε) := by
  have := uniformDraws_prob hU
  have h := someBetween_prob (q := q) (q' := q') hU (D := 2 * daily.length * (2 ^ L - 1)) hn
  refine (measureReal_mono ?_).trans (h.trans (le_of_eq ?_))
  · intro ω hω
    by_contra hc
    exact hω (same_outside daily shift test hL hs hs' hc)
  · have h1 : 1 ≤ 2 ^ L := Nat.one_le_two_pow
    push_cast [h1]
    ring

theorem expectation_diff [IsProbabilityMeasure P] {A : Set Ω} (hA : MeasurableSet A) {x : ℝ} (hx : 0 ≤ x) {f g : Ω → ℝ} (hf : Integrable f P) (hg : Integrable g P)
    (bf : ∀ ω, 0 ≤ f ω ∧ f ω ≤ x) (bg : ∀ ω, 0 ≤ g ω ∧ g ω ≤ x) (h : ∀ ω, ω ∉ A → f ω = g ω) : |(∫ ω, f ω ∂P) - ∫ ω, g ω ∂P| ≤ P.real A * x := by
  rw [← integral_sub hf hg]
  have hle : ∀ ω, ‖f ω - g ω‖ ≤ A.indicator (fun _ => x) ω := by
    intro ω
    by_cases hω : ω ∈ A
    · rw [Set.indicator_of_mem hω, Real.norm_eq_abs, abs_le]
      have b1 := bf ω
      have b2 := bg ω
      exact ⟨by linarith, by linarith⟩
    · rw [Set.indicator_of_notMem hω, h ω hω, sub_self, norm_zero]
  have hi' : Integrable (A.indicator fun _ => x) P := (integrable_const x).indicator hA
  calc _ = ‖∫ ω, f ω - g ω ∂P‖ := (Real.norm_eq_abs _).symm
    _ ≤ ∫ ω, A.indicator (fun _ => x) ω ∂P := norm_integral_le_of_norm_le hi' (Filter.Eventually.of_forall hle)
    _ = P.real A * x := by rw [integral_indicator hA, setIntegral_const, smul_eq_mul]

/-- **C154** (expectation): the expected precipitation of an hour of a day with the amount `x` changes by at most 76880 n ε x. -/
theorem C154_expectation (hU : UniformDraws P U) (hq : ∀ l b t, (q l b t).Proper) (hq' : ∀ l b t, (q' l b t).Proper) (hs : StatsAre opts 5 q thr) (hs' : StatsAre opts' 5 q' thr)
    {ε : ℝ} (hne : ∀ l < 5, ∀ b t, LawNear ε (q l b t) (q' l b t)) (d0 : Int) {n : Nat} (hn : 2 ≤ n) {v : Nat → XF ℝ} (hv : ∀ i < n, v i = .nan ∨ ∃ x, 0 ≤ x ∧ v i = .fin x)
    (level : Nat) (test : Bool) {i : Nat} (hi : i < n) {x : ℝ} (hx : v i = .fin x) {k : Nat} (hk : k < 24) :
    |(∫ ω, hourAmount (disaggPrecCascade api (fun k => U k ω) (dailyS d0 n v) opts true level 0 test) (d0 + i) k ∂P) -
      ∫ ω, hourAmount (disaggPrecCascade api (fun k => U k ω) (dailyS d0 n v) opts' true level 0 test) (d0 + i) k ∂P| ≤ 76880 * n * ε * x := by
  have := uniformDraws_prob hU
  have hx0 : 0 ≤ x := by
    rcases hv i hi with h | ⟨y, hy, e⟩
    · rw [hx] at h; cases h
    · rw [hx] at e; injection e with e; rwa [e]
  have hlen : (dailyS d0 n v).length = n := by simp [dailyS]
  have b : ∀ (o : CascOptions ℝ) (ω : Ω), 0 ≤ hourAmount (disaggPrecCascade api (fun k => U k ω) (dailyS d0 n v) o true level 0 test) (d0 + i) k ∧
      hourAmount (disaggPrecCascade api (fun k => U k ω) (dailyS d0 n v) o true level 0 test) (d0 + i) k ≤ x := by
    intro o ω
    cases hr : disaggPrecCascade api (fun k => U k ω) (dailyS d0 n v) o true level 0 test with
    | error e => exact ⟨le_rfl, hx0⟩
    | ok r =>
      rw [hourAmount_quantity]
      exact hour_between hr hi hx hx0 hk
  have i1 := dayQuantity_integrable (api := api) (level := level) (test := test) hU hq hs d0 hn hv (hourOf24 k) hi
  have i2 := dayQuantity_integrable (api := api) (level := level) (test := test) hU hq' hs' d0 hn hv (hourOf24 k) hi
  simp only [← hourAmount_quantity] at i1 i2
  have hAp := someBetween_prob (q := q) (q' := q') hU (D := 2 * (dailyS d0 n v).length * (2 ^ 5 - 1)) (L := 5) hne
  have hs0 : ∀ ω, ω ∉ someBetween U q q' (2 * (dailyS d0 n v).length * (2 ^ 5 - 1)) 5 → _ := fun ω hω =>
    same_outside (api := api) (U := U) (q := q) (q' := q') (thr := thr) (hourly := true) (level := level) (L := 5) (dailyS d0 n v) 0 test (if_pos rfl).symm hs hs' hω
  refine (expectation_diff (someBetween_measurable hU _ _) hx0 i1 i2 (b opts) (b opts') fun ω hω => by rw [hs0 ω hω]).trans (mul_le_mul_of_nonneg_right (hAp.trans (le_of_eq ?_)) hx0)
  rw [hlen]
  push_cast
  ring

end

/-- the statistics of `balancedStats` with slightly other probabilities -/
def nearlyBalanced (e : ℝ) : CascStats ℝ := { balancedStats with p01 := fun _ _ => .fin (1 / 4 + e), p10 := fun _ _ => .fin (1 / 4 - e) }

theorem nearlyBalanced_are (e : ℝ) : StatsAre (.one (nearlyBalanced e)) 5 (fun _ _ _ => ⟨1 / 4 + e, 1 / 4 - e, fun _ => 1 / 7⟩) fun _ => .fin 1 :=
  ⟨by simp, by
    intro l hl
    refine ⟨nearlyBalanced e, ⟨rfl, ?_⟩, fun b t => ⟨rfl, rfl, fun k => rfl⟩⟩
    interval_cases l <;> rfl⟩

/-- C154 at work: random numbers 1/8, 3/8, 1/8, ... are on the same sides of P(0/1) = 1/4 and P(0/1) = 1/4 + 1/100 (and of the sum 1/2 and the cumulative weights) -/
example (daily : Series (XF ℝ)) : disaggPrecCascade .modern (fun k => if k % 2 = 0 then 1 / 8 else 3 / 8) daily (.one balancedStats) true 5 0 false =
    disaggPrecCascade .modern (fun k => if k % 2 = 0 then 1 / 8 else 3 / 8) daily (.one (nearlyBalanced (1 / 100))) true 5 0 false := by
  refine C154_same _ _ _ _ _ rfl balanced_are (nearlyBalanced_are _) fun k _ l _ b t => ?_
  refine ⟨?_, ?_, fun c => Iff.rfl⟩
  · show (if k % 2 = 0 then (1 / 8 : ℝ) else 3 / 8) ≤ 1 / 4 ↔ (if k % 2 = 0 then (1 / 8 : ℝ) else 3 / 8) ≤ 1 / 4 + 1 / 100
    split_ifs <;> norm_num
  · show (if k % 2 = 0 then (1 / 8 : ℝ) else 3 / 8) ≤ 1 / 4 + 1 / 4 ↔ (if k % 2 = 0 then (1 / 8 : ℝ) else 3 / 8) ≤ 1 / 4 + 1 / 100 + (1 / 4 - 1 / 100)
    split_ifs <;> norm_num

/-- ... with P(0/1) off by 10⁻⁹ the results for 10 days differ with a probability below one in a thousand -/
example (daily : Series (XF ℝ)) (h : daily.length = 10) : (Measure.infinitePi fun _ : Nat => unit).real {ω | disaggPrecCascade .modern (fun k => ω k) daily (.one balancedStats) true 5 0 false ≠
    disaggPrecCascade .modern (fun k => ω k) daily (.one (nearlyBalanced (1 / 10 ^ 9))) true 5 0 false} ≤ 1 / 1000 := by
  have := C154_probability (U := fun k (ω : Nat → ℝ) => ω k) (api := .modern) uniformDraws_exist daily (hourly := true) (level := 5) 0 false rfl balanced_are (nearlyBalanced_are (1 / 10 ^ 9))
    (ε := 1 / 10 ^ 9) (fun l _ b t => ⟨by norm_num [abs_le], by norm_num [abs_le], fun k => by norm_num⟩)
  refine this.trans ?_
  rw [h]
  norm_num

/-- ... and the expected precipitation of each hour of a day with 4 mm changes by less than 0.001 mm for two days -/
example {k : Nat} (hk : k < 24) : |(∫ ω, hourAmount (disaggPrecCascade .modern (fun k => ω k) (dailyS 0 2 fun i => if i = 0 then .fin 4 else .nan) (.one balancedStats) true 5 0 false) (0 + (0 : Nat)) k
      ∂(Measure.infinitePi fun _ : Nat => unit)) -
    ∫ ω, hourAmount (disaggPrecCascade .modern (fun k => ω k) (dailyS 0 2 fun i => if i = 0 then .fin 4 else .nan) (.one (nearlyBalanced (1 / 10 ^ 9))) true 5 0 false) (0 + (0 : Nat)) k
      ∂(Measure.infinitePi fun _ : Nat => unit)| ≤ 1 / 1000 := by
  have := C154_expectation (U := fun k (ω : Nat → ℝ) => ω k) (api := .modern) uniformDraws_exist (fun _ _ _ => balanced_law)
    (q' := fun _ _ _ => ⟨1 / 4 + 1 / 10 ^ 9, 1 / 4 - 1 / 10 ^ 9, fun _ => 1 / 7⟩)
    (fun _ _ _ => ⟨⟨by norm_num, by norm_num, fun _ => by norm_num⟩, by norm_num, by norm_num⟩) balanced_are (nearlyBalanced_are (1 / 10 ^ 9))
    (ε := 1 / 10 ^ 9) (fun l _ b t => ⟨by norm_num [abs_le], by norm_num [abs_le], fun k => by norm_num⟩) 0 (n := 2) le_rfl
    (v := fun i => if i = 0 then .fin 4 else .nan) (fun i _ => by by_cases h : i = 0 <;> simp [h]) 5 false (i := 0) (by norm_num) (x := 4) rfl hk
  exact this.trans (by norm_num)

end

end Melodist
