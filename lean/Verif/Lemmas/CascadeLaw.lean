import Verif.Lemmas.Branching
import Verif.Spec.CascadeLaw
import Mathlib.Probability.Independence.InfinitePi
import Mathlib.MeasureTheory.Measure.Lebesgue.Basic

/-!
# Lemmas for the law of the cascade (C96)
-/

set_option linter.unusedSectionVars false

namespace Melodist
open Spec MeasureTheory ProbabilityTheory

noncomputable section

/-! ### conditions on consecutive random numbers -/

/-- the random numbers from number `k` on lie in the sets of a list -/
def Holds (rnd : Nat → ℝ) : Nat → List (Set ℝ) → Prop
  | _, [] => True
  | k, A :: L => rnd k ∈ A ∧ Holds rnd (k + 1) L

theorem holds_append (rnd : Nat → ℝ) : ∀ (L M : List (Set ℝ)) (k : Nat), Holds rnd k (L ++ M) ↔ Holds rnd k L ∧ Holds rnd (k + L.length) M
  | [], M, k => by simp [Holds]
  | A :: L, M, k => by
    simp only [List.cons_append, Holds, holds_append rnd L M (k + 1), List.length_cons, and_assoc]
    rw [show k + 1 + L.length = k + (L.length + 1) by omega]

theorem holds_iff (rnd : Nat → ℝ) : ∀ (L : List (Set ℝ)) (k : Nat),
    Holds rnd k L ↔ ∀ i ∈ Finset.range L.length, rnd (k + i) ∈ L.getD i Set.univ
  | [], k => by simp [Holds]
  | A :: L, k => by
    simp only [Holds, holds_iff rnd L (k + 1), List.length_cons, Finset.mem_range]
    constructor
    · rintro ⟨h1, h2⟩ i hi
      cases i with
      | zero => simpa using h1
      | succ i =>
        have := h2 i (by omega)
        rw [show k + 1 + i = k + (i + 1) by omega] at this
        simpa using this
    · intro h
      refine ⟨by simpa using h 0 (by omega), fun i hi => ?_⟩
      have := h (i + 1) (by omega)
      rw [show k + (i + 1) = k + 1 + i by omega] at this
      simpa using this

/-- Lebesgue measure on the unit interval -/
abbrev unit : Measure ℝ := volume.restrict (Set.Icc 0 1)

/-- product of the measures of the sets -/
def condProb (L : List (Set ℝ)) : ℝ := (L.map fun A => unit.real A).prod

theorem condProb_append (L M : List (Set ℝ)) : condProb (L ++ M) = condProb L * condProb M := by
  simp [condProb]

theorem prod_getD (f : Set ℝ → ℝ) : ∀ (L : List (Set ℝ)), ∏ i ∈ Finset.range L.length, f (L.getD i Set.univ) = (L.map f).prod
  | [] => by simp
  | A :: L => by
    rw [List.length_cons, Finset.prod_range_succ', List.map_cons, List.prod_cons, ← prod_getD f L, mul_comm]
    simp

theorem holds_prob {Ω : Type} {mΩ : MeasurableSpace Ω} {P : Measure Ω} {U : Nat → Ω → ℝ} (hI : iIndepFun U P)
    (hU : ∀ k, Measurable (U k)) (hl : ∀ k, P.map (U k) = unit) (L : List (Set ℝ)) (hm : ∀ A ∈ L, MeasurableSet A) (k : Nat) :
    P.real {ω | Holds (fun i => U i ω) k L} = condProb L := by
  have hm' : ∀ i, MeasurableSet (L.getD i Set.univ) := by
    intro i
    by_cases h : i < L.length
    · rw [List.getD_eq_getElem _ _ h]; exact hm _ (List.getElem_mem h)
    · rw [List.getD_eq_default _ _ (by omega)]; exact MeasurableSet.univ
  have hI' : iIndepFun (fun i => U (k + i)) P := hI.precomp (g := fun i => k + i) (fun a b h => by simpa using h)
  have e : {ω | Holds (fun i => U i ω) k L} = ⋂ i ∈ Finset.range L.length, (U (k + i)) ⁻¹' (L.getD i Set.univ) := by
    ext ω
    simp only [Set.mem_setOf_eq, holds_iff, Set.mem_iInter, Set.mem_preimage]
  have h1 := hI'.measure_inter_preimage_eq_mul (Finset.range L.length) (sets := fun i => L.getD i Set.univ) (fun i _ => hm' i)
  unfold condProb
  rw [e, Measure.real, h1, ENNReal.toReal_prod, ← prod_getD (fun A => unit.real A) L]
  apply Finset.prod_congr rfl
  intro i _
  rw [Measure.real, ← hl (k + i), Measure.map_apply (hU _) (hm' i)]

/-! ### measures of intervals -/

theorem unit_Iic {a : ℝ} (ha : 0 ≤ a) : unit.real (Set.Iic a) = min 1 a := by
  rw [Measure.real, Measure.restrict_apply measurableSet_Iic]
  have : Set.Iic a ∩ Set.Icc (0 : ℝ) 1 = Set.Icc 0 (min 1 a) := by
    ext x; simp; tauto
  rw [this, Real.volume_Icc, ENNReal.toReal_ofReal (by simp [ha])]
  ring

instance : IsProbabilityMeasure unit := ⟨by simp⟩

theorem unit_Ioc {a b : ℝ} (ha : 0 ≤ a) (h : a ≤ b) : unit.real (Set.Ioc a b) = min 1 b - min 1 a := by
  have : Set.Ioc a b = Set.Iic b \ Set.Iic a := by ext x; simp [and_comm]
  rw [this, measureReal_diff (Set.Iic_subset_Iic.2 h) measurableSet_Iic, unit_Iic ha, unit_Iic (ha.trans h)]

theorem unit_Ioi {a : ℝ} (ha : 0 ≤ a) : unit.real (Set.Ioi a) = 1 - min 1 a := by
  rw [← Set.compl_Iic, probReal_compl_eq_one_sub measurableSet_Iic, unit_Iic ha]

/-! ### one box -/

theorem centre_eq (c : Fin 7) : classCentre c = centre c := classCentre_eq c

theorem centre_pos (c : Fin 7) : 0 < centre c ∧ centre c < 1 := by
  unfold centre
  fin_cases c <;> simp [classLimit] <;> norm_num

theorem centre_inj {c c' : Fin 7} (h : centre c = centre c') : c = c' := by
  unfold centre at h
  revert h
  fin_cases c <;> fin_cases c' <;> simp [classLimit] <;> norm_num

theorem cumWeight_fin (w : Fin 7 → ℝ) (c : Fin 7) : cumWeight (fun k => .fin (w k)) c = .fin (∑ k ∈ Finset.Iic c, w k) := by
  have h : ∀ c : Fin 7, Finset.Iic c = Finset.univ.filter (· ≤ c) := by intro c; ext k; simp
  rw [h, Finset.sum_filter]
  fin_cases c <;> simp [cumWeight, Fin.sum_univ_succ, List.finRange, List.ofFn, Fin.foldr, Fin.foldr.loop] <;> ring_nf

/-- class `c` is the first one whose cumulative weight reaches `u` -/
def ClassSet (q : SplitLaw) (c : Fin 7) : Set ℝ :=
  {u | u ≤ ∑ k ∈ Finset.Iic c, q.w k ∧ ∀ c' < c, ¬ u ≤ ∑ k ∈ Finset.Iic c', q.w k}

/-- the cells of a statistics object hold the numbers of `q` -/
def CellsOf (s : CascStats ℝ) (q : Fin 2 → Fin 4 → SplitLaw) : Prop :=
  ∀ b t, s.p01 b t = .fin (q b t).p01 ∧ s.p10 b t = .fin (q b t).p10 ∧ ∀ k, s.wxx k b t = .fin ((q b t).w k)

/-- nothing remembered, or the centre of a class -/
def LastOk (last : Option ℝ) : Prop := last = none ∨ ∃ c, last = some (centre c)

theorem firstClass_iff (q : SplitLaw) (u : ℝ) (c : Fin 7) : FirstClass (fun k => .fin (q.w k)) u c ↔ u ∈ ClassSet q c := by
  unfold FirstClass ClassSet
  simp only [cumWeight_fin, XF.le_fin, Set.mem_setOf_eq]

theorem noClass_iff (q : SplitLaw) (hq : q.NonNeg) (u : ℝ) :
    (∀ c, ¬ XF.le (.fin u) (cumWeight (fun k => .fin (q.w k)) c)) ↔ ∑ k, q.w k < u := by
  simp only [cumWeight_fin, XF.le_fin, not_le]
  constructor
  · intro h
    have := h 6
    rwa [show Finset.Iic (6 : Fin 7) = Finset.univ by decide] at this
  · intro h c
    exact lt_of_le_of_lt (Finset.sum_le_sum_of_subset_of_nonneg (Finset.subset_univ _) fun k _ _ => hq.2.2 k) h

theorem guess_law {s : CascStats ℝ} {q : Fin 2 → Fin 4 → SplitLaw} (hs : CellsOf s q) (b : Fin 2) (t : Fin 4) (hq : (q b t).NonNeg) (u : ℝ)
    (stale : Option ℝ) :
    (∃ c, u ∈ ClassSet (q b t) c ∧ guessW1 s b t u stale = some (centre c)) ∨
    (∑ k, (q b t).w k < u ∧ guessW1 s b t u stale = stale) := by
  have e : (fun k => s.wxx k b t) = fun k => .fin ((q b t).w k) := funext fun k => (hs b t).2.2 k
  rcases guessW1_class s b t u stale with ⟨c, h1, h2⟩ | ⟨h1, h2⟩
  · left
    rw [e, firstClass_iff] at h1
    exact ⟨c, h1, h2⟩
  · right
    rw [e, noClass_iff _ hq] at h1
    exact ⟨h1, h2⟩

theorem classSet_unique {q : SplitLaw} {u : ℝ} {c c' : Fin 7} (h : u ∈ ClassSet q c) (h' : u ∈ ClassSet q c') : c = c' := by
  rcases lt_trichotomy c c' with l | l | l
  · exact absurd h.1 (h'.2 c l)
  · exact l
  · exact absurd h'.1 (h.2 c' l)

theorem classSet_le {q : SplitLaw} (hq : q.NonNeg) {u : ℝ} {c : Fin 7} (h : u ∈ ClassSet q c) : u ≤ ∑ k, q.w k :=
  h.1.trans (Finset.sum_le_sum_of_subset_of_nonneg (Finset.subset_univ _) fun k _ _ => hq.2.2 k)

/-- the second random number selects class `c` -/
def Selects (q : SplitLaw) (last : Option ℝ) (u : ℝ) (c : Fin 7) : Prop :=
  u ∈ ClassSet q c ∨ (last = some (centre c) ∧ ∑ k, q.w k < u)

/-- the values of the second random number that give the halves `a` and `b` -/
def weightSet (q : SplitLaw) (last : Option ℝ) (y a b : ℝ) : Set ℝ :=
  {u | ∃ c, (a = centre c * y ∧ b = (1 - centre c) * y) ∧ Selects q last u c}

/-- conditions on the random numbers for the split of a box -/
def stepConds (q : SplitLaw) (last : Option ℝ) (y a b : ℝ) : List (Set ℝ) :=
  if y ≤ 0 then (if a = 0 ∧ b = 0 then [] else [∅])
  else if a = 0 ∧ b = y then [Set.Iic q.p01]
  else if a = y ∧ b = 0 then [Set.Ioc q.p01 (q.p01 + q.p10)]
  else [Set.Ioi (q.p01 + q.p10), weightSet q last y a b]

/-- the weight remembered after a box -/
def nextLast (last : Option ℝ) (y a b : ℝ) : Option ℝ := if 0 < a ∧ 0 < b then some (a / y) else last

theorem selects_unique {q : SplitLaw} (hq : q.NonNeg) {last : Option ℝ} {u : ℝ} {c c' : Fin 7} (h : Selects q last u c)
    (h' : Selects q last u c') : c = c' := by
  rcases h with h | ⟨h, g⟩ <;> rcases h' with h' | ⟨h', g'⟩
  · exact classSet_unique h h'
  · exact absurd (classSet_le hq h) (not_le.2 g')
  · exact absurd (classSet_le hq h') (not_le.2 g)
  · rw [h] at h'; injection h' with h'; exact centre_inj h'

theorem guess_selects {s : CascStats ℝ} {q : Fin 2 → Fin 4 → SplitLaw} (hs : CellsOf s q) (b : Fin 2) (t : Fin 4) (hq : (q b t).NonNeg) (u : ℝ)
    {stale : Option ℝ} (hst : LastOk stale) :
    (guessW1 s b t u stale = none ∧ ∀ c, ¬ Selects (q b t) stale u c) ∨
      ∃ c, guessW1 s b t u stale = some (centre c) ∧ Selects (q b t) stale u c := by
  rcases guess_law hs b t hq u stale with ⟨c, h1, h2⟩ | ⟨h1, h2⟩
  · exact .inr ⟨c, h2, .inl h1⟩
  · rcases hst with rfl | ⟨c, rfl⟩
    · left
      refine ⟨h2, fun c hc => ?_⟩
      rcases hc with hc | ⟨hc, _⟩
      · exact absurd (classSet_le hq hc) (not_le.2 h1)
      · cases hc
    · exact .inr ⟨c, h2, .inr ⟨rfl, h1⟩⟩

/-- the two halves of a box and the remembered weight, as a function of the random numbers -/
theorem boxStep_law {rnd : Nat → ℝ} {s : CascStats ℝ} {q : Fin 2 → Fin 4 → SplitLaw} (hs : CellsOf s q) (hq : ∀ b t, (q b t).NonNeg)
    (mv : XF ℝ) {prev next : Option ℝ} {y : ℝ} (hp : ∀ x, prev = some x → 0 ≤ x) (hn : ∀ x, next = some x → 0 ≤ x)
    (h : prev ≠ none ∨ next ≠ none) (st : CascVars ℝ) (hst : LastOk st.w1) (a b : ℝ) :
    let k : SplitLaw := q (if XF.lt mv (.fin y) then 1 else 0) (kindOf prev next)
    ((∃ st', boxStep rnd s mv prev y next st = .ok ((a, b), st')) ↔ Holds rnd st.draws (stepConds k st.w1 y a b)) ∧
    ∀ st', boxStep rnd s mv prev y next st = .ok ((a, b), st') →
      st'.draws = st.draws + (stepConds k st.w1 y a b).length ∧ st'.w1 = nextLast st.w1 y a b ∧ LastOk st'.w1 := by
  intro k
  have hkk : k = q (if XF.lt mv (.fin y) then 1 else 0) (kindOf prev next) := rfl
  clear_value k
  unfold boxStep stepConds nextLast
  by_cases hy : 0 < y
  · rw [if_pos hy, if_neg (not_le.2 hy)]
    obtain ⟨ty, hty⟩ := boxType_some hp hn h st.vbtype
    obtain ⟨ty', e1, hk⟩ := boxType_kind hp hn hty
    injection e1 with e1
    subst e1
    rw [hty]
    simp only [bind, Except.bind, hk]
    generalize hb : (if XF.lt mv (.fin y) then (1 : Fin 2) else 0) = bb at hkk ⊢
    generalize ht : kindOf prev next = t at hkk ⊢
    subst hkk
    obtain ⟨c1, c2, c3⟩ := hs bb t
    obtain ⟨q1, q2, q3⟩ := hq bb t
    rw [c1, c2]
    simp only [XF.fin_add_fin, XF.le_fin, XF.lt_fin]
    by_cases u1 : rnd st.draws ≤ (q bb t).p01
    · rw [if_pos u1]
      by_cases ab : a = 0 ∧ b = y
      · obtain ⟨rfl, rfl⟩ := ab
        simp [Holds, u1, hst]
      · have hne : ∀ st', ¬ (Except.ok ((0, y), { draws := st.draws + 1, vbtype := some ty, w1 := st.w1 }) : Py ((ℝ × ℝ) × CascVars ℝ)) =
            .ok ((a, b), st') := by
          intro st' h
          simp at h
          exact ab ⟨h.1.1.symm, h.1.2.symm⟩
        refine ⟨⟨fun ⟨st', h⟩ => absurd h (hne st'), fun h => ?_⟩, fun st' h => absurd h (hne st')⟩
        rw [if_neg ab] at h
        split at h
        · exact absurd u1 (not_le.2 h.1.1)
        · have := h.1
          simp only [Set.mem_Ioi] at this
          linarith
    · rw [if_neg u1]
      by_cases u2 : rnd st.draws ≤ (q bb t).p01 + (q bb t).p10
      · rw [if_pos ⟨not_le.1 u1, u2⟩]
        have h0 : ¬ (a = 0 ∧ b = y ∧ a = y ∧ b = 0) := by rintro ⟨h1, h2, h3, h4⟩; exact hy.ne' (h2 ▸ h4)
        by_cases ab : a = y ∧ b = 0
        · have ab' : ¬ (a = 0 ∧ b = y) := fun h => h0 ⟨h.1, h.2, ab.1, ab.2⟩
          rw [if_neg ab', if_pos ab]
          obtain ⟨rfl, rfl⟩ := ab
          simp [Holds, not_le.1 u1, u2, hst]
        · have hne : ∀ st', ¬ (Except.ok ((y, 0), { draws := st.draws + 1, vbtype := some ty, w1 := st.w1 }) : Py ((ℝ × ℝ) × CascVars ℝ)) =
              .ok ((a, b), st') := by
            intro st' h
            simp at h
            exact ab ⟨h.1.1.symm, h.1.2.symm⟩
          refine ⟨⟨fun ⟨st', h⟩ => absurd h (hne st'), fun h => ?_⟩, fun st' h => absurd h (hne st')⟩
          rw [if_neg ab] at h
          split at h
          · exact absurd h.1 u1
          · exact absurd u2 (not_le.2 h.1)
      · rw [if_neg (fun h => u2 h.2)]
        have hc1 : ¬ (a = 0 ∧ b = y) ∧ ¬ (a = y ∧ b = 0) ∨ ¬ Holds rnd st.draws (if a = 0 ∧ b = y then [Set.Iic (q bb t).p01]
            else if a = y ∧ b = 0 then [Set.Ioc (q bb t).p01 ((q bb t).p01 + (q bb t).p10)]
            else [Set.Ioi ((q bb t).p01 + (q bb t).p10), weightSet (q bb t) st.w1 y a b]) := by
          by_cases h1 : a = 0 ∧ b = y
          · right; rw [if_pos h1]; exact fun h => u1 h.1
          · by_cases h2 : a = y ∧ b = 0
            · right; rw [if_neg h1, if_pos h2]; exact fun h => u2 h.1.2
            · exact .inl ⟨h1, h2⟩
        rcases guess_selects hs bb t (hq bb t) (rnd (st.draws + 1)) hst with ⟨g, hg⟩ | ⟨c, g, hg⟩
        · simp only [g]
          refine ⟨⟨fun h => by (obtain ⟨st', h⟩ := h; cases h), fun h => ?_⟩, fun st' h => by cases h⟩
          rcases hc1 with ⟨h1, h2⟩ | h1
          · rw [if_neg h1, if_neg h2] at h
            obtain ⟨c, _, hc⟩ := h.2.1
            exact absurd hc (hg c)
          · exact absurd h h1
        · obtain ⟨p1, p2⟩ := centre_pos c
          simp only [g]
          rw [if_neg (by push Not; exact ⟨p1.le, p2.le⟩)]
          by_cases ab : a = centre c * y ∧ b = (1 - centre c) * y
          · have n1 : 0 < centre c * y := by positivity
            have n2 : 0 < (1 - centre c) * y := mul_pos (by linarith) hy
            have h1 : ¬ (a = 0 ∧ b = y) := fun h => by rw [ab.1] at h; exact n1.ne' h.1
            have h2 : ¬ (a = y ∧ b = 0) := fun h => by rw [ab.2] at h; exact n2.ne' h.2
            rw [if_neg h1, if_neg h2]
            constructor
            · refine ⟨fun _ => ⟨not_le.1 u2, ⟨c, ab, hg⟩, trivial⟩, fun _ => ⟨_, by rw [ab.1, ab.2]⟩⟩
            · intro st' h
              simp at h
              obtain ⟨_, rfl⟩ := h
              refine ⟨rfl, ?_, .inr ⟨c, rfl⟩⟩
              rw [if_pos ⟨by rw [ab.1]; exact n1, by rw [ab.2]; exact n2⟩, ab.1]
              simp only [Option.some.injEq]
              field_simp
          · have hne : ∀ x st', ¬ (Except.ok ((centre c * y, (1 - centre c) * y), x) : Py ((ℝ × ℝ) × CascVars ℝ)) =
                .ok ((a, b), st') := by
              intro x st' h
              simp at h
              exact ab ⟨h.1.1.symm, h.1.2.symm⟩
            refine ⟨⟨fun ⟨st', h⟩ => absurd h (hne _ st'), fun h => ?_⟩, fun st' h => absurd h (hne _ st')⟩
            rcases hc1 with ⟨h1, h2⟩ | h1
            · rw [if_neg h1, if_neg h2] at h
              obtain ⟨c', e, hc⟩ := h.2.1
              have := selects_unique (hq bb t) hc hg
              subst this
              exact absurd e ab
            · exact absurd h h1
  · rw [if_neg hy, if_pos (not_lt.1 hy)]
    constructor
    · by_cases hab : a = 0 ∧ b = 0
      · rw [if_pos hab, hab.1, hab.2]; simp [Holds]
      · rw [if_neg hab]
        simp only [Holds, Set.mem_empty_iff_false, false_and, iff_false]
        rintro ⟨st', h⟩
        simp at h
        exact hab ⟨h.1.1.symm, h.1.2.symm⟩
    · intro st' h
      simp at h
      obtain ⟨⟨rfl, rfl⟩, rfl⟩ := h
      simpa using hst

/-! ### one level -/

/-- conditions on the random numbers for a level -/
def loopConds (q : Fin 2 → Fin 4 → SplitLaw) (mv : XF ℝ) : Option ℝ → Option ℝ → List ℝ → List ℝ → List (Set ℝ)
  | _, _, [], [] => []
  | prev, last, y :: ys, a :: b :: out =>
    stepConds (q (if XF.lt mv (.fin y) then 1 else 0) (kindOf prev ys.head?)) last y a b ++ loopConds q mv (some y) (nextLast last y a b) ys out
  | _, _, _, _ => [∅]

/-- the weight remembered after a level -/
def loopLast : Option ℝ → List ℝ → List ℝ → Option ℝ
  | last, y :: ys, a :: b :: out => loopLast (nextLast last y a b) ys out
  | last, _, _ => last

theorem boxLoop_law {rnd : Nat → ℝ} {s : CascStats ℝ} {q : Fin 2 → Fin 4 → SplitLaw} (hs : CellsOf s q) (hq : ∀ b t, (q b t).NonNeg)
    (mv : XF ℝ) : ∀ (v out : List ℝ) (prev : Option ℝ) (st : CascVars ℝ), (∀ x ∈ v, 0 ≤ x) → (∀ x, prev = some x → 0 ≤ x) →
      (prev ≠ none ∨ 2 ≤ v.length) → LastOk st.w1 →
      ((∃ st', boxLoop rnd s mv prev v st = .ok (out, st')) ↔ Holds rnd st.draws (loopConds q mv prev st.w1 v out)) ∧
      ∀ st', boxLoop rnd s mv prev v st = .ok (out, st') →
        st'.draws = st.draws + (loopConds q mv prev st.w1 v out).length ∧ st'.w1 = loopLast st.w1 v out ∧ LastOk st'.w1 := by
  intro v
  induction v with
  | nil =>
    intro out prev st _ _ _ hst
    unfold boxLoop
    cases out with
    | nil => simp [loopConds, Holds, loopLast, hst]
    | cons a out => simp [loopConds, Holds]
  | cons y ys ih =>
    intro out prev st hv hp hlen hst
    have hh : prev ≠ none ∨ ys.head? ≠ none := by
      rcases hlen with h | h
      · exact .inl h
      · right; intro hx; rw [List.head?_eq_none_iff] at hx; subst hx; simp at h
    have hn : ∀ x, ys.head? = some x → 0 ≤ x := fun x hx => hv x (List.mem_cons_of_mem _ (List.mem_of_mem_head? hx))
    have hys : ∀ x ∈ ys, 0 ≤ x := fun x hx => hv x (List.mem_cons_of_mem _ hx)
    have hy : ∀ x, some y = some x → 0 ≤ x := by rintro x ⟨⟩; exact hv y (by simp)
    rcases out with _ | ⟨a, _ | ⟨b, out⟩⟩
    · have hne : ∀ st', boxLoop rnd s mv prev (y :: ys) st ≠ .ok ([], st') := by
        intro st' h
        obtain ⟨_, _, _, _, _, _, e⟩ := boxLoop_cons h
        cases e
      refine ⟨⟨fun ⟨st', h⟩ => absurd h (hne st'), fun h => ?_⟩, fun st' h => absurd h (hne st')⟩
      simp [loopConds, Holds] at h
    · have hne : ∀ st', boxLoop rnd s mv prev (y :: ys) st ≠ .ok ([a], st') := by
        intro st' h
        obtain ⟨_, _, _, _, _, _, e⟩ := boxLoop_cons h
        cases e
      refine ⟨⟨fun ⟨st', h⟩ => absurd h (hne st'), fun h => ?_⟩, fun st' h => absurd h (hne st')⟩
      simp [loopConds, Holds] at h
    · obtain ⟨s1, s2⟩ := boxStep_law (rnd := rnd) hs hq mv (y := y) hp hn hh st hst a b
      have fwd : ∀ st', boxLoop rnd s mv prev (y :: ys) st = .ok (a :: b :: out, st') →
          ∃ st1, boxStep rnd s mv prev y ys.head? st = .ok ((a, b), st1) ∧ boxLoop rnd s mv (some y) ys st1 = .ok (out, st') := by
        intro st' h
        obtain ⟨a', b', st1, rest, h1, h2, e⟩ := boxLoop_cons h
        injection e with e1 e2
        injection e2 with e2 e3
        subst e1; subst e2; subst e3
        exact ⟨st1, h1, h2⟩
      constructor
      · unfold loopConds
        rw [holds_append, ← s1]
        constructor
        · rintro ⟨st', h⟩
          obtain ⟨st1, h1, h2⟩ := fwd st' h
          obtain ⟨d1, d2, d3⟩ := s2 st1 h1
          refine ⟨⟨st1, h1⟩, ?_⟩
          rw [← d1, ← d2]
          exact (ih out (some y) st1 hys hy (.inl (by simp)) d3).1.1 ⟨st', h2⟩
        · rintro ⟨⟨st1, h1⟩, h⟩
          obtain ⟨d1, d2, d3⟩ := s2 st1 h1
          rw [← d1, ← d2] at h
          obtain ⟨st', h2⟩ := (ih out (some y) st1 hys hy (.inl (by simp)) d3).1.2 h
          exact ⟨st', by unfold boxLoop; rw [h1]; simp only [bind, Except.bind]; rw [h2]⟩
      · intro st' h
        obtain ⟨st1, h1, h2⟩ := fwd st' h
        obtain ⟨d1, d2, d3⟩ := s2 st1 h1
        obtain ⟨e1, e2, e3⟩ := (ih out (some y) st1 hys hy (.inl (by simp)) d3).2 st' h2
        unfold loopConds loopLast
        rw [List.length_append, e1, d1, d2, ← add_assoc]
        refine ⟨rfl, ?_, e3⟩
        rw [e2, d2]

/-! ### all levels -/

/-- conditions on the random numbers for all levels -/
def levelConds (q : Nat → Fin 2 → Fin 4 → SplitLaw) (thr : Nat → XF ℝ) : Nat → Option ℝ → List ℝ → List (List ℝ) → List (Set ℝ)
  | _, _, _, [] => []
  | l, last, p, c :: ls => loopConds (q l) (thr l) none last p c ++ levelConds q thr (l + 1) (loopLast last p c) c ls

theorem levelLoop_law {rnd : Nat → ℝ} {opts : CascOptions ℝ} {q : Nat → Fin 2 → Fin 4 → SplitLaw} (hq : ∀ l b t, (q l b t).NonNeg)
    (thr : Nat → XF ℝ) : ∀ (ls : List (List ℝ)) (l : Nat) (v : List ℝ) (st : CascVars ℝ), (∀ x ∈ v, 0 ≤ x) → 2 ≤ v.length → LastOk st.w1 →
      (∀ j < ls.length, ∃ s, levelStats opts (ls.length - (j + 1)) = .ok (s, thr (l + j)) ∧ CellsOf s (q (l + j))) →
      (levelLoop rnd opts ls.length v st = .ok ls ↔ Holds rnd st.draws (levelConds q thr l st.w1 v ls)) := by
  intro ls
  induction ls with
  | nil => intro l v st _ _ _ _; simp [levelLoop, levelConds, Holds]
  | cons c ls ih =>
    intro l v st hv hlen hst hstat
    obtain ⟨s, e1, hs⟩ := hstat 0 (by simp)
    simp only [List.length_cons, Nat.zero_add, Nat.add_sub_cancel, Nat.add_zero] at e1 hs
    obtain ⟨b1, b2⟩ := boxLoop_law (rnd := rnd) hs (hq l) (thr l) v c none st hv (by simp) (.inr hlen) hst
    have hstat' : ∀ j < ls.length, ∃ s, levelStats opts (ls.length - (j + 1)) = .ok (s, thr (l + 1 + j)) ∧ CellsOf s (q (l + 1 + j)) := by
      intro j hj
      have := hstat (j + 1) (by simp; omega)
      rw [show (c :: ls).length - (j + 1 + 1) = ls.length - (j + 1) by simp, show l + (j + 1) = l + 1 + j by omega] at this
      exact this
    unfold levelConds
    rw [holds_append, ← b1, List.length_cons]
    constructor
    · intro h
      obtain ⟨s', mv, vout, st1, rest, h1, h2, h3, e⟩ := levelLoop_succ h
      rw [e1] at h1
      injection h1 with h1
      injection h1 with h1 h1'
      subst h1; subst h1'
      injection e with e e'
      subst e; subst e'
      obtain ⟨d1, d2, d3⟩ := b2 st1 h2
      have hsp := boxLoop_split h2
      refine ⟨⟨st1, h2⟩, ?_⟩
      rw [← d1, ← d2]
      exact (ih (l + 1) c st1 hsp.nonneg (by rw [hsp.length]; omega) d3 hstat').1 h3
    · rintro ⟨⟨st1, h2⟩, h⟩
      obtain ⟨d1, d2, d3⟩ := b2 st1 h2
      have hsp := boxLoop_split h2
      rw [← d1, ← d2] at h
      have h3 := (ih (l + 1) c st1 hsp.nonneg (by rw [hsp.length]; omega) d3 hstat').2 h
      unfold levelLoop
      rw [e1]
      simp only [bind, Except.bind]
      rw [h2]
      simp only
      rw [h3]

/-! ### the measures of the conditions -/

theorem classSet_measurable (q : SplitLaw) (c : Fin 7) : MeasurableSet (ClassSet q c) := by
  have : ClassSet q c = Set.Iic (∑ k ∈ Finset.Iic c, q.w k) ∩ ⋂ c' : Fin 7, ⋂ _ : c' < c, (Set.Iic (∑ k ∈ Finset.Iic c', q.w k))ᶜ := by
    ext u; simp [ClassSet]
  rw [this]
  exact measurableSet_Iic.inter (MeasurableSet.iInter fun c' => MeasurableSet.iInter fun _ => measurableSet_Iic.compl)

theorem cum_mono {q : SplitLaw} (hq : q.NonNeg) {s t : Finset (Fin 7)} (h : s ⊆ t) : ∑ k ∈ s, q.w k ≤ ∑ k ∈ t, q.w k :=
  Finset.sum_le_sum_of_subset_of_nonneg h fun k _ _ => hq.2.2 k

theorem cum_nonneg {q : SplitLaw} (hq : q.NonNeg) (s : Finset (Fin 7)) : 0 ≤ ∑ k ∈ s, q.w k :=
  Finset.sum_nonneg fun k _ => hq.2.2 k

theorem classSet_prob {q : SplitLaw} (hq : q.NonNeg) (c : Fin 7) : unit.real (ClassSet q c) = q.cls c := by
  unfold SplitLaw.cls
  by_cases h0 : c = 0
  · subst h0
    have e : ClassSet q 0 = Set.Iic (∑ k ∈ Finset.Iic (0 : Fin 7), q.w k) := by
      ext u; simp [ClassSet]
    rw [e, unit_Iic (cum_nonneg hq _), show Finset.Iio (0 : Fin 7) = ∅ by decide]
    simp
  · obtain ⟨d, rfl⟩ : ∃ d : Fin 6, c = d.succ := ⟨c.pred h0, by simp⟩
    have hIio : Finset.Iio d.succ = Finset.Iic d.castSucc := by
      ext k
      simp only [Finset.mem_Iio, Finset.mem_Iic, Fin.lt_def, Fin.le_def, Fin.val_succ, Fin.val_castSucc]
      omega
    have e : ClassSet q d.succ = Set.Ioc (∑ k ∈ Finset.Iio d.succ, q.w k) (∑ k ∈ Finset.Iic d.succ, q.w k) := by
      ext u
      simp only [ClassSet, Set.mem_setOf_eq, Set.mem_Ioc, not_le]
      rw [and_comm]
      refine and_congr_left fun _ => ⟨fun h => ?_, fun h c' hc' => ?_⟩
      · rw [hIio]; exact h _ (by simp [Fin.lt_def])
      · refine lt_of_le_of_lt (cum_mono hq ?_) h
        intro k hk
        simp only [Finset.mem_Iic, Finset.mem_Iio] at hk ⊢
        exact lt_of_le_of_lt hk hc'
    rw [e, unit_Ioc (cum_nonneg hq _) (cum_mono hq Finset.Iio_subset_Iic_self)]

theorem weightSet_eq {q : SplitLaw} {last : Option ℝ} {y a b : ℝ} (hy : 0 < y) (c : Fin 7)
    (h : a = centre c * y ∧ b = (1 - centre c) * y) : weightSet q last y a b = {u | Selects q last u c} := by
  ext u
  constructor
  · rintro ⟨c', e, hc⟩
    have : c' = c := centre_inj (mul_right_cancel₀ hy.ne' (e.1.symm.trans h.1))
    subst this
    exact hc
  · exact fun hu => ⟨c, h, hu⟩

theorem selects_set (q : SplitLaw) (last : Option ℝ) (c : Fin 7) :
    {u | Selects q last u c} = ClassSet q c ∪ (if last = some (centre c) then Set.Ioi (∑ k, q.w k) else ∅) := by
  ext u
  by_cases h : last = some (centre c) <;> simp [Selects, h]

theorem selects_measurable (q : SplitLaw) (last : Option ℝ) (c : Fin 7) : MeasurableSet {u | Selects q last u c} := by
  rw [selects_set]
  refine (classSet_measurable q c).union ?_
  split
  · exact measurableSet_Ioi
  · exact MeasurableSet.empty

theorem selects_prob {q : SplitLaw} (hq : q.NonNeg) (last : Option ℝ) (c : Fin 7) :
    unit.real {u | Selects q last u c} = q.cls c + (if last = some (centre c) then q.noClass else 0) := by
  rw [selects_set]
  by_cases h : last = some (centre c)
  · rw [if_pos h, if_pos h, measureReal_union _ measurableSet_Ioi, classSet_prob hq, unit_Ioi (cum_nonneg hq _)]
    · rfl
    · rw [Set.disjoint_left]
      intro u hu hu'
      exact absurd (classSet_le hq hu) (not_le.2 hu')
  · rw [if_neg h, if_neg h, Set.union_empty, classSet_prob hq, add_zero]

theorem weightSet_measurable (q : SplitLaw) (last : Option ℝ) {y : ℝ} (hy : 0 < y) (a b : ℝ) : MeasurableSet (weightSet q last y a b) := by
  by_cases h : ∃ c, a = centre c * y ∧ b = (1 - centre c) * y
  · obtain ⟨c, h⟩ := h
    rw [weightSet_eq hy c h]
    exact selects_measurable q last c
  · have : weightSet q last y a b = ∅ := by
      ext u
      simp only [Set.mem_empty_iff_false, iff_false]
      rintro ⟨c, e, _⟩
      exact h ⟨c, e⟩
    rw [this]
    exact MeasurableSet.empty

theorem weightSet_prob {q : SplitLaw} (hq : q.NonNeg) (last : Option ℝ) {y : ℝ} (hy : 0 < y) (a b : ℝ) :
    unit.real (weightSet q last y a b) =
      ∑ c, if a = centre c * y ∧ b = (1 - centre c) * y then q.cls c + (if last = some (centre c) then q.noClass else 0) else 0 := by
  by_cases h : ∃ c, a = centre c * y ∧ b = (1 - centre c) * y
  · obtain ⟨c, h⟩ := h
    rw [weightSet_eq hy c h, selects_prob hq, Finset.sum_eq_single c, if_pos h]
    · intro c' _ hne
      rw [if_neg]
      rintro ⟨e, _⟩
      exact hne (centre_inj (mul_right_cancel₀ hy.ne' (e.symm.trans h.1)))
    · simp
  · have : weightSet q last y a b = ∅ := by
      ext u
      simp only [Set.mem_empty_iff_false, iff_false]
      rintro ⟨c, e, _⟩
      exact h ⟨c, e⟩
    rw [this, measureReal_empty, Finset.sum_eq_zero]
    intro c _
    rw [if_neg fun e => h ⟨c, e⟩]

theorem stepConds_measurable (q : SplitLaw) (last : Option ℝ) (y a b : ℝ) : ∀ A ∈ stepConds q last y a b, MeasurableSet A := by
  unfold stepConds
  intro A hA
  split at hA
  · split at hA
    · simp at hA
    · simp at hA; subst hA; exact MeasurableSet.empty
  · rename_i hy
    split at hA
    · simp at hA; subst hA; exact measurableSet_Iic
    · split at hA
      · simp at hA; subst hA; exact measurableSet_Ioc
      · simp at hA
        rcases hA with rfl | rfl
        · exact measurableSet_Ioi
        · exact weightSet_measurable q last (not_le.1 hy) a b

theorem stepConds_prob {q : SplitLaw} (hq : q.NonNeg) (last : Option ℝ) (y a b : ℝ) :
    condProb (stepConds q last y a b) = splitProb q last y a b := by
  have h2 : 0 ≤ q.p01 + q.p10 := add_nonneg hq.1 hq.2.1
  unfold stepConds splitProb condProb
  split
  · split <;> simp
  · rename_i hy
    split
    · simp only [List.map_cons, List.map_nil, List.prod_cons, List.prod_nil, mul_one, SplitLaw.second, unit_Iic hq.1]
    · split
      · simp only [List.map_cons, List.map_nil, List.prod_cons, List.prod_nil, mul_one, SplitLaw.first,
          unit_Ioc hq.1 (by linarith [hq.2.1] : q.p01 ≤ q.p01 + q.p10)]
      · simp only [List.map_cons, List.map_nil, List.prod_cons, List.prod_nil, mul_one, SplitLaw.both]
        rw [unit_Ioi h2, weightSet_prob hq last (not_le.1 hy)]

theorem lastWeight_cons (y : ℝ) (ys : List ℝ) (a b : ℝ) (out : List ℝ) (last : Option ℝ) : ∀ j,
    lastWeight (y :: ys) (a :: b :: out) last (j + 1) = lastWeight ys out (nextLast last y a b) j
  | 0 => by simp [lastWeight, nextLast]
  | j + 1 => by
    rw [lastWeight, lastWeight_cons y ys a b out last j, lastWeight]
    rw [show 2 * (j + 1) = 2 * j + 1 + 1 by omega]
    simp

theorem loopLast_eq : ∀ (v out : List ℝ) (last : Option ℝ), out.length = 2 * v.length → loopLast last v out = lastWeight v out last v.length
  | [], out, last, _ => by simp [loopLast, lastWeight]
  | y :: ys, [], last, h => by simp at h
  | y :: ys, [a], last, h => by simp at h; omega
  | y :: ys, a :: b :: out, last, h => by
    rw [List.length_cons, lastWeight_cons, loopLast, loopLast_eq ys out _ (by simp at h; omega)]

theorem loopConds_measurable (q : Fin 2 → Fin 4 → SplitLaw) (mv : XF ℝ) : ∀ (v out : List ℝ) (prev last : Option ℝ),
    ∀ A ∈ loopConds q mv prev last v out, MeasurableSet A
  | [], [], _, _, A, h => by simp [loopConds] at h
  | [], _ :: _, _, _, A, h => by simp [loopConds] at h; subst h; exact MeasurableSet.empty
  | y :: ys, [], _, _, A, h => by simp [loopConds] at h; subst h; exact MeasurableSet.empty
  | y :: ys, [_], _, _, A, h => by simp [loopConds] at h; subst h; exact MeasurableSet.empty
  | y :: ys, a :: b :: out, prev, last, A, h => by
    rw [loopConds, List.mem_append] at h
    rcases h with h | h
    · exact stepConds_measurable _ _ _ _ _ A h
    · exact loopConds_measurable q mv ys out _ _ A h

theorem loopConds_mismatch (q : Fin 2 → Fin 4 → SplitLaw) (mv : XF ℝ) : ∀ (v out : List ℝ) (prev last : Option ℝ),
    out.length ≠ 2 * v.length → condProb (loopConds q mv prev last v out) = 0
  | [], [], _, _, h => by simp at h
  | [], _ :: _, _, _, h => by simp [loopConds, condProb]
  | y :: ys, [], _, _, h => by simp [loopConds, condProb]
  | y :: ys, [_], _, _, h => by simp [loopConds, condProb]
  | y :: ys, a :: b :: out, prev, last, h => by
    rw [loopConds, condProb_append, loopConds_mismatch q mv ys out _ _ (by simp at h; omega), mul_zero]

theorem loopConds_prob {q : Fin 2 → Fin 4 → SplitLaw} (hq : ∀ b t, (q b t).NonNeg) (mv : XF ℝ) : ∀ (v out : List ℝ) (prev last : Option ℝ),
    out.length = 2 * v.length → condProb (loopConds q mv prev last v out) =
      ∏ j ∈ Finset.range v.length, splitProb (q (if XF.lt mv (.fin (v.getD j 0)) then 1 else 0)
        (kindOf (if j = 0 then prev else v[j - 1]?) v[j + 1]?)) (lastWeight v out last j) (v.getD j 0) (out.getD (2 * j) 0) (out.getD (2 * j + 1) 0)
  | [], [], _, _, h => by simp [loopConds, condProb]
  | [], _ :: _, _, _, h => by simp at h
  | y :: ys, [], _, _, h => by simp at h
  | y :: ys, [_], _, _, h => by simp at h; omega
  | y :: ys, a :: b :: out, prev, last, h => by
    rw [loopConds, condProb_append, stepConds_prob (hq _ _), loopConds_prob hq mv ys out _ _ (by simp at h; omega), List.length_cons,
      Finset.prod_range_succ', mul_comm]
    congr 1
    · apply Finset.prod_congr rfl
      intro j _
      rw [lastWeight_cons, show 2 * (j + 1) = 2 * j + 1 + 1 by omega]
      have e : (if j = 0 then some y else ys[j - 1]?) = (y :: ys)[j]? := by
        cases j with
        | zero => rfl
        | succ j => simp
      simp [e]
    · simp [lastWeight, List.head?_eq_getElem?]

theorem loopConds_level {q : Fin 2 → Fin 4 → SplitLaw} (hq : ∀ b t, (q b t).NonNeg) (mv : XF ℝ) (v out : List ℝ) (last : Option ℝ) :
    condProb (loopConds q mv none last v out) = levelProb q mv last v out := by
  unfold levelProb
  split
  · rename_i h
    rw [loopConds_prob hq mv v out none last h]
    apply Finset.prod_congr rfl
    intro j hj
    rw [kind_posType v j (Finset.mem_range.1 hj)]
  · rename_i h
    exact loopConds_mismatch q mv v out none last h

theorem levelConds_measurable (q : Nat → Fin 2 → Fin 4 → SplitLaw) (thr : Nat → XF ℝ) : ∀ (ls : List (List ℝ)) (l : Nat) (last : Option ℝ)
    (p : List ℝ), ∀ A ∈ levelConds q thr l last p ls, MeasurableSet A
  | [], _, _, _, A, h => by simp [levelConds] at h
  | c :: ls, l, last, p, A, h => by
    rw [levelConds, List.mem_append] at h
    rcases h with h | h
    · exact loopConds_measurable _ _ _ _ _ _ A h
    · exact levelConds_measurable q thr ls _ _ _ A h

theorem levelConds_prob {q : Nat → Fin 2 → Fin 4 → SplitLaw} (hq : ∀ l b t, (q l b t).NonNeg) (thr : Nat → XF ℝ) : ∀ (ls : List (List ℝ)) (l : Nat)
    (last : Option ℝ) (p : List ℝ), condProb (levelConds q thr l last p ls) = levelsProb q thr l last p ls
  | [], _, _, _ => by simp [levelConds, levelsProb, condProb]
  | c :: ls, l, last, p => by
    rw [levelConds, condProb_append, levelsProb, loopConds_level (hq l)]
    by_cases h : c.length = 2 * p.length
    · rw [levelConds_prob hq thr ls, loopLast_eq p c last h]
    · rw [levelProb, if_neg h, zero_mul, zero_mul]

end

end Melodist
