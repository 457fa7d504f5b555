import Verif.Lemmas.SelfFit

/-!
# Helper lemmas: expectations of fitted statistics
-/

set_option linter.unusedSectionVars false

namespace Melodist
open Spec MeasureTheory ProbabilityTheory

noncomputable section

section
variable {Ω : Type} [MeasurableSpace Ω] {P : Measure Ω} {U : Nat → Ω → ℝ}
  {api : PandasApi} {opts : CascOptions ℝ} {hourly : Bool} {level : Nat} {shift : Int} {test : Bool}
  {d0 : Int} {n : Nat} {v : Nat → XF ℝ} {L : Nat} {q : Nat → Fin 2 → Fin 4 → SplitLaw} {thr : Nat → XF ℝ}

/-- integrals over the event that the first levels are `past` of functions of the next level -/
theorem given_past (hU : UniformDraws P U)
    (ht : hourly = true ∨ test = false ∨ 9 ≤ level) (hn : 2 ≤ n)
    (hv : ∀ i < n, v i = .nan ∨ ∃ x, 0 ≤ x ∧ v i = .fin x) (hL : L = if hourly then 5 else level) (h11 : L ≤ 11)
    (hq : ∀ l b t, (q l b t).Proper) (hs : StatsAre opts L q thr) {l : Nat} (hl : l < L) (past : List (List ℝ)) (hp : past.length = l)
    {p : List ℝ} (hpl : p = (dailyAmounts n v :: past).getD l []) (hj : 0 < p.length) (F : Ω → ℝ) (G : List ℝ → ℝ)
    (hF : ∀ ω r, disaggPrecCascade api (fun k => U k ω) (dailyS d0 n v) opts hourly level shift test = .ok r → F ω = G (r.levels.getD l [])) :
    let run := fun ω => disaggPrecCascade api (fun k => U k ω) (dailyS d0 n v) opts hourly level shift test
    Integrable F P ∧
    ∫ ω in {ω | firstLevels (run ω) l past}, F ω ∂P = (∑ c ∈ levelOutcomes p, levelProb (q l) (thr l) none p c * G c) * P.real {ω | firstLevels (run ω) l past} := by
  classical
  intro run
  have hE := (cascade_expect (P := P) (api := api) (shift := shift) (d0 := d0) hU ht hn hv hL (by omega) h11 hq hs).2
  have hfl : ∀ ω r, disaggPrecCascade api (fun k => U k ω) (dailyS d0 n v) opts hourly level shift test = .ok r →
      (firstLevels (run ω) l past ↔ r.levels.take l = past) := by
    intro ω r h
    unfold firstLevels
    constructor
    · rintro ⟨r', e, h'⟩
      have : run ω = .ok r := h
      rw [this] at e
      injection e with e
      rw [e]; exact h'
    · intro h'; exact ⟨r, h, h'⟩
  obtain ⟨m1, m2⟩ := hE (fun ω => if firstLevels (run ω) l past then 1 else 0) (fun ls => if ls.take l = past then 1 else 0) (by
    intro ω r h
    simp only [hfl ω r h])
  have hpr : P.real {ω | firstLevels (run ω) l past} =
      ∑ ls ∈ outcomes L (dailyAmounts n v), (if ls.take l = past then levelsProb q thr 0 none (dailyAmounts n v) ls else 0) :=
    (prob_of_mark m1).trans (m2.trans (Finset.sum_congr rfl fun ls _ => by split_ifs <;> ring))
  have hm : NullMeasurableSet {ω | firstLevels (run ω) l past} P := by
    have := m1.aestronglyMeasurable.aemeasurable.nullMeasurableSet_preimage (measurableSet_singleton (1 : ℝ))
    refine this.congr (Filter.Eventually.of_forall fun ω => ?_)
    apply propext
    show (if firstLevels (run ω) l past then (1 : ℝ) else 0) = 1 ↔ firstLevels (run ω) l past
    split_ifs with h <;> simp [h]
  refine ⟨(hE F (fun ls => G (ls.getD l [])) hF).1, ?_⟩
  have h := levels_past_fun (thr := thr) hq (j := 0) G (fun l p => ∑ c ∈ levelOutcomes p, levelProb (q l) (thr l) none p c * G c) (by
    intro l start p _ _
    rw [level_sum, level_sum]
    simp only [levelProb_flat (hq l)]) l L 0 none (dailyAmounts n v) past hl hp (dailyAmounts_nonneg hv) (by rw [← hpl]; exact hj)
  rw [← hpr, ← hpl, Nat.zero_add] at h
  obtain ⟨-, i2⟩ := hE (fun ω => if firstLevels (run ω) l past then F ω else 0) (fun ls => if ls.take l = past then G (ls.getD l []) else 0) (by
    intro ω r hr
    simp only [← hF ω r hr, hfl ω r hr])
  rw [← integral_indicator₀ hm]
  refine Eq.trans ?_ (i2.trans ((Finset.sum_congr rfl fun ls _ => by split_ifs <;> ring).trans h))
  exact integral_congr_ae (Filter.Eventually.of_forall fun ω => by simp [Set.indicator])

/-- probabilities of events in the next level -/
theorem given_past_prob (hU : UniformDraws P U)
    (ht : hourly = true ∨ test = false ∨ 9 ≤ level) (hn : 2 ≤ n)
    (hv : ∀ i < n, v i = .nan ∨ ∃ x, 0 ≤ x ∧ v i = .fin x) (hL : L = if hourly then 5 else level) (h11 : L ≤ 11)
    (hq : ∀ l b t, (q l b t).Proper) (hs : StatsAre opts L q thr) {l : Nat} (hl : l < L) (past : List (List ℝ)) (hp : past.length = l)
    {p : List ℝ} (hpl : p = (dailyAmounts n v :: past).getD l []) (hj : 0 < p.length) (A : Ω → Prop) (B : List ℝ → Prop) [DecidablePred B]
    (hA : ∀ ω r, disaggPrecCascade api (fun k => U k ω) (dailyS d0 n v) opts hourly level shift test = .ok r → (A ω ↔ B (r.levels.getD l []))) :
    let run := fun ω => disaggPrecCascade api (fun k => U k ω) (dailyS d0 n v) opts hourly level shift test
    P.real {ω | firstLevels (run ω) l past ∧ A ω} =
      (∑ c ∈ levelOutcomes p, levelProb (q l) (thr l) none p c * if B c then 1 else 0) * P.real {ω | firstLevels (run ω) l past} := by
  classical
  intro run
  obtain ⟨i1, i2⟩ := given_past (P := P) (api := api) (shift := shift) (d0 := d0) hU ht hn hv hL h11 hq hs hl past hp hpl hj (fun ω => if A ω then 1 else 0)
    (fun c => if B c then 1 else 0) (by
      intro ω r h
      have := hA ω r h
      by_cases hB : B (r.levels.getD l [])
      · rw [if_pos hB, if_pos (this.2 hB)]
      · rw [if_neg hB, if_neg fun h => hB (this.1 h)])
  rw [← i2]
  have hm : NullMeasurableSet {ω | A ω} P := by
    have := i1.aestronglyMeasurable.aemeasurable.nullMeasurableSet_preimage (measurableSet_singleton (1 : ℝ))
    refine this.congr (Filter.Eventually.of_forall fun ω => ?_)
    apply propext
    show (if A ω then (1 : ℝ) else 0) = 1 ↔ A ω
    split_ifs with h <;> simp [h]
  have e : (fun ω => if A ω then (1 : ℝ) else 0) = Set.indicator {ω | A ω} fun _ => 1 := by
    funext ω
    simp [Set.indicator]
  have hm' : NullMeasurableSet {ω | A ω} (P.restrict {ω | firstLevels (run ω) l past}) := hm.mono_ac Measure.restrict_le_self.absolutelyContinuous
  rw [e, integral_indicator₀ hm']
  simp only [integral_const, smul_eq_mul, mul_one]
  rw [Measure.restrict_restrict₀ hm', measureReal_restrict_apply_univ]
  congr 1
  ext ω
  simp [and_comm]

/-- the entries of the fit as functions of the level -/
theorem levelFit_ok {times : List Time} {l : Nat} {pct : ℝ} {r : CascadeOut ℝ} :
    levelFit times (.ok r) l pct = (aggregatePrecipitation (times.zip ((r.levels.getD l []).map .fin)) pct).map Prod.fst := rfl

open Classical in
/-- the first half has a share of class `k` -/
def ratioMark (k : Fin 7) (x : ℝ × ℝ) : ℝ :=
  if 0 < x.1 ∧ 0 < x.2 ∧ classLimit k.castSucc < x.1 / (x.1 + x.2) ∧ x.1 / (x.1 + x.2) ≤ classLimit k.succ then 1 else 0

theorem mean_count {q : Fin 2 → Fin 4 → SplitLaw} {thr : XF ℝ} (hq : ∀ b t, (q b t).Proper) {p : List ℝ} {S : Finset (Fin p.length)} (hS : (S.card : ℝ) ≠ 0)
    (g : ℝ × ℝ → ℝ) {μ : ℝ} (h : ∀ j ∈ S, ∑ x ∈ boxOutcomes (p.getD j 0), splitProbProper (lawOf q thr p j) (p.getD j 0) x.1 x.2 * g x = μ) {G : List ℝ → ℝ}
    (hG : ∀ x, x ∈ (Fintype.piFinset fun j : Fin p.length => boxOutcomes (p.getD j 0)) → G (flat x) = (∑ j ∈ S, g (x j)) / S.card) :
    ∑ c ∈ levelOutcomes p, levelProb q thr none p c * G c = μ := by
  rw [level_sum, Finset.sum_congr rfl fun x hx => by rw [hG x hx]]
  have := level_count hq none p S g h
  simp only [← mul_div_assoc]
  rw [← Finset.sum_div, this]
  field_simp

theorem mean_variance {q : Fin 2 → Fin 4 → SplitLaw} {thr : XF ℝ} (hq : ∀ b t, (q b t).Proper) {p : List ℝ} {S : Finset (Fin p.length)} (hS : (S.card : ℝ) ≠ 0)
    (A : ℝ × ℝ → Prop) [DecidablePred A] {μ : ℝ}
    (h : ∀ j ∈ S, ∑ x ∈ boxOutcomes (p.getD j 0), splitProbProper (lawOf q thr p j) (p.getD j 0) x.1 x.2 * (if A x then 1 else 0) = μ) {G : List ℝ → ℝ}
    (hG : ∀ x, x ∈ (Fintype.piFinset fun j : Fin p.length => boxOutcomes (p.getD j 0)) → G (flat x) = (∑ j ∈ S, if A (x j) then (1 : ℝ) else 0) / S.card) :
    ∑ c ∈ levelOutcomes p, levelProb q thr none p c * (G c - μ) ^ 2 = μ * (1 - μ) / S.card := by
  rw [level_sum, Finset.sum_congr rfl fun x hx => by rw [hG x hx]]
  have := level_variance hq none p S A h
  have e : ∀ x : Fin p.length → ℝ × ℝ, levelProb q thr none p (flat x) * ((∑ j ∈ S, if A (x j) then (1 : ℝ) else 0) / S.card - μ) ^ 2 =
      (levelProb q thr none p (flat x) * ((∑ j ∈ S, if A (x j) then (1 : ℝ) else 0) - S.card * μ) ^ 2) / (S.card : ℝ) ^ 2 := by
    intro x
    field_simp
  simp only [e]
  rw [← Finset.sum_div, this]
  field_simp

open Classical in
theorem fit_marks {thr : XF ℝ} {p : List ℝ} (hp : ∀ x ∈ p, 0 ≤ x) (h2 : 2 ≤ p.length) {times : List Time}
    (ht : times.length = 2 * p.length) {pct m : ℝ} (hm : npPercentile (p.filter fun x => decide (0 < x)) pct = .ok m)
    (hc : ∀ y ∈ p, 0 < y → (m < y ↔ XF.lt thr (.fin y))) (hne : ∀ b t, (boxesOf thr p b t).Nonempty) (b : Fin 2) (t : Fin 4)
    {fit : List ℝ → Py (CascStats ℝ)} (hfit : fit = fun c => (aggregatePrecipitation (times.zip (c.map .fin)) pct).map Prod.fst)
    (x : Fin p.length → ℝ × ℝ) (hx : x ∈ (Fintype.piFinset fun j : Fin p.length => boxOutcomes (p.getD j 0))) :
      fitEntry (fit (flat x)) (fun s => s.p01 b t) = (∑ j ∈ boxesFin thr p b t, if (x j).1 = 0 ∧ 0 < (x j).2 then (1 : ℝ) else 0) / (boxesFin thr p b t).card ∧
      fitEntry (fit (flat x)) (fun s => s.p10 b t) = (∑ j ∈ boxesFin thr p b t, if 0 < (x j).1 ∧ (x j).2 = 0 then (1 : ℝ) else 0) / (boxesFin thr p b t).card ∧
      fitEntry (fit (flat x)) (fun s => s.pxx b t) = (∑ j ∈ boxesFin thr p b t, if 0 < (x j).1 ∧ 0 < (x j).2 then (1 : ℝ) else 0) / (boxesFin thr p b t).card ∧
      ∀ k, fitEntry (fit (flat x)) (fun s => s.pxx b t) * fitEntry (fit (flat x)) (fun s => s.wxx k b t) =
        (∑ j ∈ boxesFin thr p b t, ratioMark k (x j)) / (boxesFin thr p b t).card := by
  obtain ⟨s, w, e1, -, e2⟩ := fit_entries hp h2 (Finset.mem_image.2 ⟨x, hx, rfl⟩) ht hm hc hne
  obtain ⟨a1, a2, a3, a4⟩ := e2 b t
  have hf : fit (flat x) = .ok s := by rw [hfit]; simp only [e1]; rfl
  rw [hf]
  refine ⟨?_, ?_, ?_, fun k => ?_⟩
  · simp only [fitEntry, a1]
  · simp only [fitEntry, a2]
  · simp only [fitEntry, a3]
  · obtain ⟨w, b1, b2⟩ := a4 k
    simp only [fitEntry, a3, b1]
    unfold ratioMark
    exact b2

/-- the expected entries of a fit to one level -/
theorem fit_expect {q : Fin 2 → Fin 4 → SplitLaw} {thr : XF ℝ} (hq : ∀ b t, (q b t).Proper) {p : List ℝ} (hp : ∀ x ∈ p, 0 ≤ x) (h2 : 2 ≤ p.length) {times : List Time}
    (ht : times.length = 2 * p.length) {pct m : ℝ} (hm : npPercentile (p.filter fun x => decide (0 < x)) pct = .ok m)
    (hc : ∀ y ∈ p, 0 < y → (m < y ↔ XF.lt thr (.fin y))) (hne : ∀ b t, (boxesOf thr p b t).Nonempty) (b : Fin 2) (t : Fin 4)
    {fit : List ℝ → Py (CascStats ℝ)} (hfit : fit = fun c => (aggregatePrecipitation (times.zip (c.map .fin)) pct).map Prod.fst)
    {E : (List ℝ → ℝ) → ℝ} (hE : E = fun G => ∑ c ∈ levelOutcomes p, levelProb q thr none p c * G c) :
    E (fun c => fitEntry (fit c) fun s => s.p01 b t) = (q b t).p01 ∧ E (fun c => fitEntry (fit c) fun s => s.p10 b t) = (q b t).p10 ∧
    E (fun c => fitEntry (fit c) fun s => s.pxx b t) = 1 - (q b t).p01 - (q b t).p10 ∧
    (∀ k, E (fun c => fitEntry (fit c) (fun s => s.pxx b t) * fitEntry (fit c) fun s => s.wxx k b t) = (1 - (q b t).p01 - (q b t).p10) * (q b t).w k) ∧
    E (fun c => (fitEntry (fit c) (fun s => s.p01 b t) - (q b t).p01) ^ 2) = (q b t).p01 * (1 - (q b t).p01) / (boxesOf thr p b t).card ∧
    E (fun c => (fitEntry (fit c) (fun s => s.p10 b t) - (q b t).p10) ^ 2) = (q b t).p10 * (1 - (q b t).p10) / (boxesOf thr p b t).card ∧
    E (fun c => (fitEntry (fit c) (fun s => s.pxx b t) - (1 - (q b t).p01 - (q b t).p10)) ^ 2) =
      (1 - (q b t).p01 - (q b t).p10) * ((q b t).p01 + (q b t).p10) / (boxesOf thr p b t).card := by
  classical
  have ent := fit_marks hp h2 ht hm hc hne b t hfit
  have hN : ((boxesFin thr p b t).card : ℝ) ≠ 0 := by
    rw [boxesFin_card]
    have := Finset.card_pos.2 (hne b t)
    positivity
  have law : ∀ j ∈ boxesFin thr p b t, 0 < p.getD j 0 ∧ lawOf q thr p j = q b t := fun j hj => ⟨(boxesFin_mem hj).1, (boxesFin_mem hj).2 q⟩
  have br := fun j (hj : j ∈ boxesFin thr p b t) => box_branch (q := lawOf q thr p j) (hq _ _) (law j hj).1
  rw [← boxesFin_card, hE]
  simp only
  have m01 := fun j hj => (br j hj).1.trans (by rw [(law j hj).2] : _ = (q b t).p01)
  have m10 := fun j hj => (br j hj).2.1.trans (by rw [(law j hj).2] : _ = (q b t).p10)
  have mxx := fun j hj => (br j hj).2.2.1.trans (by rw [(law j hj).2] : _ = 1 - (q b t).p01 - (q b t).p10)
  refine ⟨mean_count hq hN _ m01 fun x hx => (ent x hx).1, mean_count hq hN _ m10 fun x hx => (ent x hx).2.1, mean_count hq hN _ mxx fun x hx => (ent x hx).2.2.1,
    fun k => mean_count hq hN (ratioMark k) ?_ fun x hx => (ent x hx).2.2.2 k,
    mean_variance hq hN (fun x => x.1 = 0 ∧ 0 < x.2) m01 fun x hx => (ent x hx).1, mean_variance hq hN (fun x => 0 < x.1 ∧ x.2 = 0) m10 fun x hx => (ent x hx).2.1, ?_⟩
  · intro j hj
    have := (br j hj).2.2.2 k
    rw [(law j hj).2] at this ⊢
    unfold ratioMark
    exact this
  · rw [show (1 - (q b t).p01 - (q b t).p10) * ((q b t).p01 + (q b t).p10) = (1 - (q b t).p01 - (q b t).p10) * (1 - (1 - (q b t).p01 - (q b t).p10)) by ring]
    exact mean_variance hq hN (fun x => 0 < x.1 ∧ 0 < x.2) mxx fun x hx => (ent x hx).2.2.1

end

end

end Melodist
