import Verif.Model.AggregateRound
import Verif.Lemmas.Rounding
import Verif.Lemmas.Aggregate

/-!
# Helper lemmas for cascade statistics fitted in rounded arithmetic (C128)
-/

set_option linter.unusedSectionVars false

namespace Melodist
open Spec

variable {K : Type} [Field K] [LinearOrder K] [IsStrictOrderedRing K]

/-- a missing value or a non-negative representable number -/
def CellOk (R : Rounding K) (c : XF K) : Prop := c = .nan ∨ ∃ x, 0 ≤ x ∧ R.fl x = x ∧ c = .fin x

theorem CellOk.nn {R : Rounding K} {c : XF K} (h : CellOk R c) : c = .nan ∨ ∃ x, 0 ≤ x ∧ c = .fin x := by
  rcases h with h | ⟨x, h0, _, h⟩
  · exact .inl h
  · exact .inr ⟨x, h0, h⟩

theorem fl_pos (R : Rounding K) {x : K} (h : 0 < x) : 0 < R.fl x := by
  have := (R.fl_bounds h.le).1
  have h1 : 0 < 1 - R.u := by linarith [R.u_lt_one]
  exact lt_of_lt_of_le (mul_pos h1 h) this

theorem pairSumsR_ok (R : Rounding K) : ∀ s : Series (XF K), (∀ r ∈ s, CellOk R r.2) → ∀ r ∈ pairSumsR R.fl s, CellOk R r.2
  | [], _, r, h => by simp [pairSumsR] at h
  | [_], _, r, h => by simp [pairSumsR] at h
  | a :: b :: rest, hs, r, h => by
    simp only [pairSumsR, List.mem_cons] at h
    rcases h with rfl | h
    · have ha := hs a (by simp)
      have hb := hs b (by simp)
      rcases ha with ha | ⟨x, hx, _, ha⟩
      · left; simp only [ha]; rfl
      · rcases hb with hb | ⟨y, hy, _, hb⟩
        · left; simp only [ha, hb]; rfl
        · right
          simp only [ha, hb]
          exact ⟨R.fl (x + y), R.fl_nonneg (add_nonneg hx hy), R.idem _, rfl⟩
    · exact pairSumsR_ok R rest (fun r hr => hs r (by simp [hr])) r h

/-! ### counting -/

theorem weightClassR_some (R : Rounding K) (h1' : R.fl 1 = 1) {w : K} (h0 : 0 < w) (h1 : w ≤ 1) : ∃ k, weightClassR R.fl w = some k := by
  unfold weightClassR
  cases hf : (List.finRange 7).find? fun k : Fin 7 => decide (R.fl (wlower k) < w ∧ w ≤ R.fl (wupper k)) with
  | some k => exact ⟨k, rfl⟩
  | none =>
    exfalso
    rw [List.find?_eq_none] at hf
    have h : ∀ k : Fin 7, ¬ (R.fl (wlower k) < w ∧ w ≤ R.fl (wupper k)) := fun k => by simpa using hf k (List.mem_finRange k)
    have z := R.fl_zero
    have step : ∀ k : Fin 7, R.fl (wlower k) < w → R.fl (wupper k) < w := fun k hk => not_le.1 fun hw => h k ⟨hk, hw⟩
    have a0 := step 0 (by simpa [wlower, z] using h0)
    have a1 := step 1 a0
    have a2 := step 2 a1
    have a3 := step 3 a2
    have a4 := step 4 a3
    have a5 := step 5 a4
    have a6 := step 6 a5
    have e : (wupper 6 : K) = 1 := by simp [wupper]; norm_num
    rw [e, h1'] at a6
    linarith

theorem aggStepR_ok (R : Rounding K) (h1' : R.fl 1 = 1) {mv : K} {a b : XF K} (ha : CellOk R a) (hb : CellOk R b)
    (ty : Option BoxType) {c : AggCounts} (h : CountsOk c) : CountsOk (aggStepR R.fl mv a b ty c) := by
  rcases ha with rfl | ⟨x, hx, rx, rfl⟩
  · simpa [aggStepR, XF.rnd] using h
  rcases hb with rfl | ⟨y, hy, _, rfl⟩
  · simpa [aggStepR, XF.rnd] using h
  unfold aggStepR
  simp only [XF.fin_add_fin, XF.rnd, XF.lt_fin, XF.feq_fin]
  split
  · rename_i hpos
    generalize (if mv < R.fl (x + y) then (1 : Fin 2) else 0) = ba
    rcases hx.lt_or_eq with hx | rfl <;> rcases hy.lt_or_eq with hy | rfl
    · have n1 : ¬ y = 0 := hy.ne'
      have n2 : ¬ x = 0 := hx.ne'
      have hle : x ≤ R.fl (x + y) := by
        rw [← rx]
        exact R.mono _ _ (by rw [rx]; linarith)
      have hw0 : 0 < R.fl (x / R.fl (x + y)) := fl_pos R (by positivity)
      have hw1 : R.fl (x / R.fl (x + y)) ≤ 1 := by
        rw [← h1']
        exact R.mono _ _ (by rw [div_le_one hpos]; exact hle)
      obtain ⟨k, hk⟩ := weightClassR_some R h1' hw0 hw1
      simp only [hx, hy, n1, n2, and_true, and_false, false_and, if_false, if_true, hk]
      refine ⟨fun b t => ?_, fun b t => ?_, fun b t => ?_⟩
      · simp only [Mat24.bump_apply, ← h.sum b t]; ring
      · simp only [Mat24.bump_apply, h.xx b t]
      · simp only [Mat24.bump_apply, ← h.hist b t]
        rw [← Finset.add_sum_erase _ _ (Finset.mem_univ k), ← Finset.add_sum_erase _ (fun k => c.wxx k b t) (Finset.mem_univ k)]
        simp only [if_true, Mat24.bump_apply]
        have : ∑ x ∈ Finset.univ.erase k, (if x = k then (c.wxx x).bump ba (aggCol ty) else c.wxx x) b t =
            ∑ x ∈ Finset.univ.erase k, c.wxx x b t := by
          apply Finset.sum_congr rfl
          intro q hq
          rw [if_neg (Finset.ne_of_mem_erase hq)]
        rw [this]
        ring
    · simp only [hx, hx.ne', lt_irrefl, and_true, and_false, false_and, if_false, if_true]
      refine ⟨fun b t => ?_, h.xx, h.hist⟩
      simp only [Mat24.bump_apply, ← h.sum b t]; ring
    · simp only [hy, hy.ne', lt_irrefl, and_true, and_false, false_and, if_false, if_true]
      refine ⟨fun b t => ?_, h.xx, h.hist⟩
      simp only [Mat24.bump_apply, ← h.sum b t]; ring
    · simp [R.fl_zero] at hpos
  · exact h

theorem aggCountR_ok (R : Rounding K) (h1' : R.fl 1 = 1) {mv : K} : ∀ (ps : List (XF K × XF K)) (tys : List (Option BoxType)) (c : AggCounts),
    (∀ p ∈ ps, CellOk R p.1 ∧ CellOk R p.2) → CountsOk c → CountsOk (aggCountR R.fl mv ps tys c)
  | [], _, c, _, h => by unfold aggCountR; exact h
  | _ :: _, [], c, _, h => by unfold aggCountR; exact h
  | (a, b) :: ps, ty :: tys, c, hp, h => by
    unfold aggCountR
    refine aggCountR_ok R h1' ps tys _ (fun p hp' => hp p (by simp [hp'])) ?_
    have := hp (a, b) (by simp)
    exact aggStepR_ok R h1' this.1 this.2 ty h

/-! ### from counts to percentages -/

/-- numbers that are non-negative and have a sum between `lo` and `hi` -/
def Between {ι : Type} [Fintype ι] (lo hi : K) (f : ι → XF K) : Prop :=
  ∃ w : ι → K, (∀ i, f i = .fin (w i)) ∧ (∀ i, 0 ≤ w i) ∧ lo ≤ ∑ i, w i ∧ ∑ i, w i ≤ hi

theorem Between.mono {ι : Type} [Fintype ι] {lo hi lo' hi' : K} {f : ι → XF K} (h : Between lo hi f) (h1 : lo' ≤ lo) (h2 : hi ≤ hi') :
    Between lo' hi' f := by
  obtain ⟨w, a, b, c, d⟩ := h
  exact ⟨w, a, b, h1.trans c, d.trans h2⟩

/-- rounding the entries -/
theorem Between.rnd (R : Rounding K) {ι : Type} [Fintype ι] {lo hi : K} {f : ι → XF K} (h : Between lo hi f) :
    Between ((1 - R.u) * lo) ((1 + R.u) * hi) fun i => (f i).rnd R.fl := by
  obtain ⟨w, a, b, c, d⟩ := h
  refine ⟨fun i => R.fl (w i), fun i => by simp only [a i]; rfl, fun i => R.fl_nonneg (b i), ?_, ?_⟩
  · calc (1 - R.u) * lo ≤ (1 - R.u) * ∑ i, w i := mul_le_mul_of_nonneg_left c R.lo_nonneg
      _ = ∑ i, (1 - R.u) * w i := Finset.mul_sum _ _ _
      _ ≤ _ := Finset.sum_le_sum fun i _ => (R.fl_bounds (b i)).1
  · calc ∑ i, R.fl (w i) ≤ ∑ i, (1 + R.u) * w i := Finset.sum_le_sum fun i _ => (R.fl_bounds (b i)).2
      _ = (1 + R.u) * ∑ i, w i := (Finset.mul_sum _ _ _).symm
      _ ≤ _ := mul_le_mul_of_nonneg_left d R.hi_nonneg

theorem Between.scale {ι : Type} [Fintype ι] {lo hi : K} {f : ι → XF K} (h : Between lo hi f) {c : K} (hc : 0 ≤ c) :
    Between (lo * c) (hi * c) fun i => f i * .fin c := by
  obtain ⟨w, a, b, l, u⟩ := h
  refine ⟨fun i => w i * c, fun i => by simp only [a i]; simp, fun i => mul_nonneg (b i) hc, ?_, ?_⟩
  · rw [← Finset.sum_mul]; exact mul_le_mul_of_nonneg_right l hc
  · rw [← Finset.sum_mul]; exact mul_le_mul_of_nonneg_right u hc

theorem Between.add {ι : Type} [Fintype ι] {lo hi lo' hi' : K} {f g : ι → XF K} (h : Between lo hi f) (h' : Between lo' hi' g) :
    Between (lo + lo') (hi + hi') fun i => f i + g i := by
  obtain ⟨w, a, b, l, u⟩ := h
  obtain ⟨w', a', b', l', u'⟩ := h'
  refine ⟨fun i => w i + w' i, fun i => by simp only [a i, a' i]; simp, fun i => add_nonneg (b i) (b' i), ?_, ?_⟩
  · rw [Finset.sum_add_distrib]; exact add_le_add l l'
  · rw [Finset.sum_add_distrib]; exact add_le_add u u'

/-- the three branching probabilities of a class and a type -/
def branch (b : Fin 2) (t : Fin 4) (s : CascStats K) : Fin 3 → XF K := ![s.p01 b t, s.p10 b t, s.pxx b t]

/-- the seven weights of a class and a type -/
def hist (b : Fin 2) (t : Fin 4) (s : CascStats K) : Fin 7 → XF K := fun k => s.wxx k b t

theorem XF.isNan_rnd (fl : K → K) (c : XF K) : (c.rnd fl).isNan = c.isNan := by cases c <;> rfl

theorem anyNan_ratioR (fl : K → K) (m d : Mat24 Nat) : anyNan (ratioMatR (K := K) fl m d) = anyNan (ratioMat (K := K) m d) := by
  unfold anyNan ratioMatR
  simp only [XF.isNan_rnd]

theorem sumCellsR_pos (R : Rounding K) : ∀ (l : List K) (a : K), 0 ≤ a → (0 < a ∨ l ≠ []) → (∀ x ∈ l, 0 < x) →
    ∃ y, 0 < y ∧ (l.map XF.fin).foldl (fun a c => (a + c).rnd R.fl) (.fin a) = .fin y
  | [], a, _, h, _ => ⟨a, by simpa using h, rfl⟩
  | x :: xs, a, ha, _, hl => by
    have hx := hl x (by simp)
    have : 0 < R.fl (a + x) := fl_pos R (by linarith)
    exact sumCellsR_pos R xs (R.fl (a + x)) this.le (.inl this) (fun y hy => hl y (by simp [hy]))

theorem finishStatsR_fields (fl : K → K) (s : CascStats K) (c : AggCounts) :
    (finishStatsR fl s c).threshold = s.threshold ∧ (finishStatsR fl s c).percentile = s.percentile := by
  unfold finishStatsR
  simp only
  split <;> split <;> (try split) <;> exact ⟨rfl, rfl⟩

/-- the rounded percentages are the exact ones, rounded -/
theorem finishStatsR_entries (R : Rounding K) (s : CascStats K) {c : AggCounts} (h : CountsOk c) (b : Fin 2) (t : Fin 4) :
    branch b t (finishStatsR R.fl s c) = (fun i => (branch b t (finishStats s c) i).rnd R.fl) ∧
    hist b t (finishStatsR R.fl s c) = fun k => (hist b t (finishStats s c) k).rnd R.fl := by
  by_cases hz : (anyNan (ratioMat (K := K) c.p01 c.nb) || anyNan (ratioMat (K := K) c.p10 c.nb) || anyNan (ratioMat (K := K) c.pxx c.nb)) = true
  · have hf : ∀ (s : CascStats K) (k : Fin 7), anyNan ((s.fillSampleR R.fl).wxx k) = false := by
      intro s k; rw [anyNan_eq_false]; intro b t; rfl
    have hf' : ∀ (s : CascStats K) (k : Fin 7), anyNan (s.fillSample.wxx k) = false := by
      intro s k; rw [anyNan_eq_false]; intro b t; rfl
    unfold finishStatsR finishStats
    simp only [anyNan_ratioR, hz, if_true, hf, hf', List.any_eq_true, Bool.false_eq_true, and_false, exists_false, if_false]
    refine ⟨?_, rfl⟩
    funext i
    fin_cases i <;> rfl
  · unfold finishStatsR finishStats
    simp only [anyNan_ratioR, hz, Bool.false_eq_true, if_false]
    by_cases hany : ((List.finRange 7).any fun k => anyNan (ratioMat (K := K) (c.wxx k) c.nbxx)) = true
    · rw [if_pos hany, if_pos hany]
      obtain ⟨k, _, hk⟩ := List.any_eq_true.1 hany
      have : ∃ b t, (ratioMat (K := K) (c.wxx k) c.nbxx b t).isNan = true := by
        by_contra hcon
        push Not at hcon
        have := anyNan_eq_false.2 fun b t => by simpa using hcon b t
        rw [this] at hk; simp at hk
      obtain ⟨b', t', hbt⟩ := this
      have hnb : c.nbxx b' t' = 0 := by
        by_contra hne
        rw [ratioMat_ne hne] at hbt; simp at hbt
      have hz' : ∀ k, c.wxx k b' t' = 0 := by
        intro k
        have := h.hist b' t'
        rw [hnb] at this
        exact (Finset.sum_eq_zero_iff.1 this) k (Finset.mem_univ k)
      rw [if_pos, if_pos]
      · refine ⟨?_, ?_⟩
        · funext i
          fin_cases i <;> rfl
        · funext k
          unfold hist
          simp only
          unfold ratioMatR
          rw [XF.isNan_rnd]
          split <;> rfl
      · refine List.any_eq_true.2 ⟨b', List.mem_finRange _, List.any_eq_true.2 ⟨t', List.mem_finRange _, ?_⟩⟩
        have hcell : ∀ k, (if (ratioMat (K := K) (c.wxx k) c.nbxx b' t').isNan = true then XF.fin (1 / 7 : K) else
            ratioMat (c.wxx k) c.nbxx b' t') = .fin (1 / 7) := by
          intro k
          rw [ratioMat_zero hnb (hz' k)]; rfl
        simp only [hcell]
        simp [List.finRange_succ, sumCells]
        norm_num
      · refine List.any_eq_true.2 ⟨b', List.mem_finRange _, List.any_eq_true.2 ⟨t', List.mem_finRange _, ?_⟩⟩
        have hcell : ∀ k, (if (ratioMatR (K := K) R.fl (c.wxx k) c.nbxx b' t').isNan = true then XF.fin (R.fl (1 / 7) : K) else
            ratioMatR R.fl (c.wxx k) c.nbxx b' t') = .fin (R.fl (1 / 7)) := by
          intro k
          unfold ratioMatR
          rw [ratioMat_zero hnb (hz' k)]; rfl
        simp only [hcell]
        have e : ((List.finRange 7).map fun _ => XF.fin (R.fl (1 / 7) : K)) = ((List.finRange 7).map fun _ => (R.fl (1 / 7) : K)).map XF.fin := by
          rw [List.map_map]; rfl
        obtain ⟨y, hy, hs⟩ := sumCellsR_pos R ((List.finRange 7).map fun _ => (R.fl (1 / 7) : K)) 0 (le_refl _) (.inr (by simp)) (by
          intro x hx
          obtain ⟨_, _, rfl⟩ := List.mem_map.1 hx
          exact fl_pos R (by norm_num))
        unfold sumCellsR
        rw [e, hs]
        simp [hy.ne']
    · rw [if_neg hany, if_neg hany]
      refine ⟨?_, rfl⟩
      funext i
      fin_cases i <;> rfl

/-- percentages of counts that belong together -/
theorem finishStats_between (s : CascStats K) {c : AggCounts} (h : CountsOk c) (b : Fin 2) (t : Fin 4) :
    Between (1 - 1 / 10 ^ 14) (1 + 1 / 10 ^ 14) (branch b t (finishStats s c)) ∧ Between (1 - 1 / 10 ^ 14) (1 + 1 / 10 ^ 14) (hist b t (finishStats s c)) := by
  have e : (0 : K) ≤ 1 / 10 ^ 14 := by positivity
  rcases finishStats_dist s h with hd | ⟨h1, h2⟩
  · obtain ⟨⟨x, y, z, a, b', d, x0, y0, z0, hs⟩, w, hw, w0, ws⟩ := hd b t
    refine ⟨⟨![x, y, z], ?_, ?_, ?_, ?_⟩, w, hw, w0, ?_, ?_⟩
    · intro i; fin_cases i <;> simp [branch, a, b', d]
    · intro i; fin_cases i <;> simp [x0, y0, z0]
    · rw [Fin.sum_univ_three]; simp; linarith
    · rw [Fin.sum_univ_three]; simp; linarith
    · rw [ws]; linarith
    · rw [ws]; linarith
  · obtain ⟨a1, a2, a3, a4⟩ := sample_branch (K := K) b t
    obtain ⟨b1, b2⟩ := sample_hist (K := K) b t
    rw [abs_le] at a4 b2
    obtain ⟨c1, c2, c3⟩ := h1 b t
    refine ⟨⟨![sampleP01 b t, sampleP10 b t, samplePxx b t], ?_, ?_, ?_, ?_⟩, fun k => sampleWxx k b t, fun k => h2 k b t, b1, by linarith, by linarith⟩
    · intro i; fin_cases i <;> simp [branch, c1, c2, c3]
    · intro i; fin_cases i <;> simp [a1, a2, a3]
    · rw [Fin.sum_univ_three]; simp; linarith
    · rw [Fin.sum_univ_three]; simp; linarith

theorem aggregateR_inv {fl : K → K} {perc : List K → K → Py K} {data : Series (XF K)} {p : K} {s : CascStats K} {vdn : Series (XF K)}
    (h : aggregateR fl perc data p = .ok (s, vdn)) :
    vdn = pairSumsR fl data ∧ ∃ mv types, 
      s = finishStatsR fl { CascStats.init with percentile := p, threshold := [.fin mv] } (aggCountR fl mv (valuePairs data.values) types {}) := by
  unfold aggregateR at h
  simp only [bind, Except.bind] at h
  split at h
  · cases h
  cases h1 : perc (wetValues (pairSumsR fl data).values) p with
  | error e => rw [h1] at h; cases h
  | ok mv =>
    rw [h1] at h
    simp only at h
    cases h2 : aggBoxTypes none (pairSumsR fl data).values with
    | error e => rw [h2] at h; cases h
    | ok types =>
      rw [h2] at h
      simp only at h
      cases h
      exact ⟨rfl, mv, types, rfl⟩

/-- one level -/
theorem aggregateR_between (R : Rounding K) (h1 : R.fl 1 = 1) {perc : List K → K → Py K} {data : Series (XF K)} {p : K} {s : CascStats K} {vdn : Series (XF K)}
    (hd : ∀ r ∈ data, CellOk R r.2) (h : aggregateR R.fl perc data p = .ok (s, vdn)) :
    (∀ r ∈ vdn, CellOk R r.2) ∧ s.threshold.length = 1 ∧ ∀ b t,
      Between ((1 - R.u) * (1 - 1 / 10 ^ 14)) ((1 + R.u) * (1 + 1 / 10 ^ 14)) (branch b t s) ∧
      Between ((1 - R.u) * (1 - 1 / 10 ^ 14)) ((1 + R.u) * (1 + 1 / 10 ^ 14)) (hist b t s) := by
  obtain ⟨rfl, mv, ty, rfl⟩ := aggregateR_inv h
  have hc : CountsOk (aggCountR R.fl mv (valuePairs data.values) ty {}) := by
    refine aggCountR_ok R h1 _ _ _ ?_ countsOk_zero
    intro q hq
    obtain ⟨h1, h2⟩ := mem_valuePairs hq
    obtain ⟨r1, hr1, e1⟩ := List.mem_map.1 h1
    obtain ⟨r2, hr2, e2⟩ := List.mem_map.1 h2
    rw [← e1, ← e2]
    exact ⟨hd r1 hr1, hd r2 hr2⟩
  refine ⟨pairSumsR_ok R data hd, by rw [(finishStatsR_fields _ _ _).1]; rfl, fun b t => ?_⟩
  obtain ⟨e1, e2⟩ := finishStatsR_entries R { CascStats.init with percentile := p, threshold := [.fin mv] } hc b t
  obtain ⟨f1, f2⟩ := finishStats_between { CascStats.init with percentile := p, threshold := [.fin mv] } hc b t
  rw [e1, e2]
  exact ⟨f1.rnd R, f2.rnd R⟩

/-! ### the level loop -/

/-- entries that `+` adds and `*` multiplies -/
structure Entries (fl : K → K) {ι : Type} (e : CascStats K → ι → XF K) : Prop where
  add : ∀ a b i, e (a.addR fl b) i = (e a i + e b i).rnd fl
  scale : ∀ a f i, e (a.scaleR fl f) i = (e a i * .fin f).rnd fl
  threshold : ∀ th s i, e { s with threshold := th } i = e s i
  init : ∀ p i, e { (CascStats.init : CascStats K) with percentile := p } i = .fin 0

theorem entries_branch (fl : K → K) (b : Fin 2) (t : Fin 4) : Entries fl (branch (K := K) b t) := by
  refine ⟨?_, ?_, ?_, ?_⟩
  · intro _ _ i; fin_cases i <;> rfl
  · intro _ _ i; fin_cases i <;> rfl
  · intro _ _ i; fin_cases i <;> rfl
  · intro _ i; fin_cases i <;> rfl

theorem entries_hist (fl : K → K) (b : Fin 2) (t : Fin 4) : Entries fl (hist (K := K) b t) :=
  ⟨fun _ _ _ => rfl, fun _ _ _ => rfl, fun _ _ _ => rfl, fun _ _ => rfl⟩

theorem levelStatsLoopR_levels (R : Rounding K) (h1 : R.fl 1 = 1) {perc : List K → K → Py K} {p : K} : ∀ (k : Nat) {vdn : Series (XF K)} {acc : CascStats K} {count : Nat}
    {l : List (CascStats K)} {acc' : CascStats K} {count' : Nat}, (∀ r ∈ vdn, CellOk R r.2) → levelStatsLoopR R.fl perc p k vdn acc count = .ok (l, acc', count') →
    l.length = k ∧ ∀ s ∈ l, s.threshold.length = 1 ∧ ∀ b t,
      Between ((1 - R.u) * (1 - 1 / 10 ^ 14)) ((1 + R.u) * (1 + 1 / 10 ^ 14)) (branch b t s) ∧
      Between ((1 - R.u) * (1 - 1 / 10 ^ 14)) ((1 + R.u) * (1 + 1 / 10 ^ 14)) (hist b t s)
  | 0, vdn, acc, count, l, acc', count', hv, h => by
    unfold levelStatsLoopR at h
    cases h
    exact ⟨rfl, by simp⟩
  | k + 1, vdn, acc, count, l, acc', count', hv, h => by
    unfold levelStatsLoopR at h
    obtain ⟨⟨s, v⟩, h2, h⟩ := Except.bind_ok h
    simp only at h
    obtain ⟨⟨rest, acc2, count2⟩, h3, h⟩ := Except.bind_ok h
    cases h
    obtain ⟨a1, a2, a3⟩ := aggregateR_between R h1 hv h2
    obtain ⟨i1, i2⟩ := levelStatsLoopR_levels R h1 k a1 h3
    refine ⟨by simp [i1], ?_⟩
    intro s' hs'
    rcases List.mem_cons.1 hs' with rfl | hs'
    · exact ⟨a2, a3⟩
    · exact i2 s' hs'

theorem levelStatsLoopR_sum (R : Rounding K) {ι : Type} [Fintype ι] {e : CascStats K → ι → XF K} (he : Entries R.fl e) {lo hi : K} (hlo : 0 ≤ lo) (hhi : 0 ≤ hi)
    {perc : List K → K → Py K} {p : K} : ∀ (k m : Nat) {vdn : Series (XF K)} {acc : CascStats K} {count : Nat}
    {l : List (CascStats K)} {acc' : CascStats K} {count' : Nat}, levelStatsLoopR R.fl perc p k vdn acc count = .ok (l, acc', count') →
    (∀ s ∈ l, Between lo hi (e s)) → Between ((1 - R.u) ^ (m + 1) * lo * count) ((1 + R.u) ^ (m + 1) * hi * count) (e acc) →
    Between ((1 - R.u) ^ (m + k + 1) * lo * count') ((1 + R.u) ^ (m + k + 1) * hi * count') (e acc')
  | 0, m, vdn, acc, count, l, acc', count', h, _, hb => by
    unfold levelStatsLoopR at h
    cases h
    exact hb
  | k + 1, m, vdn, acc, count, l, acc', count', h, hl, hb => by
    unfold levelStatsLoopR at h
    obtain ⟨⟨s, v⟩, h2, h⟩ := Except.bind_ok h
    simp only at h
    obtain ⟨⟨rest, acc2, count2⟩, h3, h⟩ := Except.bind_ok h
    cases h
    have := levelStatsLoopR_sum R he hlo hhi k (m + 1) h3 (fun s hs => hl s (List.mem_cons_of_mem _ hs)) (by
      have hs := ((hl s (by simp)).scale (c := (v.length : K)) (by positivity)).rnd R
      have := (hb.add hs).rnd R
      have hfun : (fun i => (e acc i + (e s i * .fin (v.length : K)).rnd R.fl).rnd R.fl) = e (acc.addR R.fl (s.scaleR R.fl (v.length : K))) := by
        funext i
        rw [he.add, he.scale]
      rw [hfun] at this
      refine this.mono ?_ ?_
      · push_cast
        have h1 : (1 - R.u) ^ (m + 1) ≤ 1 - R.u := by
          rw [pow_succ]
          exact mul_le_of_le_one_left R.lo_nonneg (pow_le_one₀ R.lo_nonneg R.lo_le_one)
        have h2 : (1 - R.u) ^ (m + 1) * (lo * v.length) ≤ (1 - R.u) * (lo * v.length) :=
          mul_le_mul_of_nonneg_right h1 (by positivity)
        have h3 := mul_le_mul_of_nonneg_left (add_le_add (le_refl ((1 - R.u) ^ (m + 1) * lo * count)) h2) R.lo_nonneg
        refine le_trans (le_of_eq ?_) h3
        ring
      · push_cast
        have h1 : 1 + R.u ≤ (1 + R.u) ^ (m + 1) := by
          rw [pow_succ]
          exact le_mul_of_one_le_left R.hi_nonneg (one_le_pow₀ R.one_le)
        have h2 : (1 + R.u) * (hi * v.length) ≤ (1 + R.u) ^ (m + 1) * (hi * v.length) :=
          mul_le_mul_of_nonneg_right h1 (by positivity)
        have h3 := mul_le_mul_of_nonneg_left (add_le_add (le_refl ((1 + R.u) ^ (m + 1) * hi * count)) h2) R.hi_nonneg
        refine le_trans h3 (le_of_eq ?_)
        ring)
    rw [show m + 1 + k + 1 = m + (k + 1) + 1 by ring] at this
    exact this

theorem seasonStatsR_between (R : Rounding K) (h1 : R.fl 1 = 1) {perc : List K → K → Py K} {vdn : Series (XF K)} {levels : Nat} {avg : Bool} {p : K}
    {r : CascStats K ⊕ List (CascStats K)} (hv : ∀ q ∈ vdn, CellOk R q.2) (h : seasonStatsR R.fl perc vdn levels avg p = .ok r) :
    (∀ l, r = .inr l → l.length = levels ∧ ∀ s ∈ l, s.threshold.length = 1 ∧ ∀ b t,
      Between ((1 - R.u) * (1 - 1 / 10 ^ 14)) ((1 + R.u) * (1 + 1 / 10 ^ 14)) (branch b t s) ∧
      Between ((1 - R.u) * (1 - 1 / 10 ^ 14)) ((1 + R.u) * (1 + 1 / 10 ^ 14)) (hist b t s)) ∧
    (∀ s, r = .inl s → s.threshold.length = levels ∧ ∀ b t,
      Between ((1 - R.u) ^ (levels + 4) * (1 - 1 / 10 ^ 14)) ((1 + R.u) ^ (levels + 4) * (1 + 1 / 10 ^ 14)) (branch b t s) ∧
      Between ((1 - R.u) ^ (levels + 4) * (1 - 1 / 10 ^ 14)) ((1 + R.u) ^ (levels + 4) * (1 + 1 / 10 ^ 14)) (hist b t s)) := by
  unfold seasonStatsR at h
  obtain ⟨⟨l, acc, count⟩, h2, h⟩ := Except.bind_ok h
  simp only at h
  by_cases hc : count = 0
  · simp [hc, bind, Except.bind] at h
  simp only [hc, if_false, bind, Except.bind, pure, Except.pure] at h
  injection h with h
  obtain ⟨i1, i2⟩ := levelStatsLoopR_levels R h1 levels hv h2
  have hcp : (0 : K) < count := by exact_mod_cast Nat.pos_of_ne_zero hc
  have main : ∀ {ι : Type} [Fintype ι] (e : CascStats K → ι → XF K), Entries R.fl e →
      (∀ s ∈ l, Between ((1 - R.u) * (1 - 1 / 10 ^ 14)) ((1 + R.u) * (1 + 1 / 10 ^ 14)) (e s)) → ∀ th : List (XF K),
      Between ((1 - R.u) ^ (levels + 4) * (1 - 1 / 10 ^ 14)) ((1 + R.u) ^ (levels + 4) * (1 + 1 / 10 ^ 14))
        (e { acc.scaleR R.fl (R.fl (1 / (count : K))) with threshold := th }) := by
    intro ι _ e he hl th
    have e14 : (0 : K) ≤ 1 - 1 / 10 ^ 14 := by norm_num
    have e14' : (0 : K) ≤ 1 + 1 / 10 ^ 14 := by norm_num
    have hb := levelStatsLoopR_sum R he (mul_nonneg R.lo_nonneg e14) (mul_nonneg R.hi_nonneg e14') levels 0 h2 hl
      ⟨fun _ => 0, fun i => he.init p i, fun _ => le_refl _, by simp, by simp⟩
    have hq : (0 : K) ≤ 1 / count := by positivity
    have hfl := R.fl_bounds hq
    have := (hb.scale (R.fl_nonneg hq)).rnd R
    have hfun : (fun i => (e acc i * .fin (R.fl (1 / (count : K)))).rnd R.fl) = e { acc.scaleR R.fl (R.fl (1 / (count : K))) with threshold := th } := by
      funext i
      exact ((he.threshold th _ i).trans (he.scale acc _ i)).symm
    rw [hfun] at this
    refine this.mono ?_ ?_
    · have g : 0 ≤ (1 - R.u) ^ (0 + levels + 1) * ((1 - R.u) * (1 - 1 / 10 ^ 14)) * count :=
        mul_nonneg (mul_nonneg (pow_nonneg R.lo_nonneg _) (mul_nonneg R.lo_nonneg e14)) hcp.le
      refine le_trans (le_of_eq ?_) (mul_le_mul_of_nonneg_left (mul_le_mul_of_nonneg_left hfl.1 g) R.lo_nonneg)
      field_simp
      ring
    · have g : 0 ≤ (1 + R.u) ^ (0 + levels + 1) * ((1 + R.u) * (1 + 1 / 10 ^ 14)) * count :=
        mul_nonneg (mul_nonneg (pow_nonneg R.hi_nonneg _) (mul_nonneg R.hi_nonneg e14')) hcp.le
      refine le_trans (mul_le_mul_of_nonneg_left (mul_le_mul_of_nonneg_left hfl.2 g) R.hi_nonneg) (le_of_eq ?_)
      field_simp
      ring
  constructor
  · intro l' hl'
    cases avg with
    | true => simp at h; rw [← h] at hl'; cases hl'
    | false => simp at h; rw [← h] at hl'; cases hl'; exact ⟨i1, i2⟩
  · intro s hs
    cases avg with
    | false => simp at h; rw [← h] at hs; cases hs
    | true =>
      rw [if_pos rfl] at h
      rw [← h] at hs
      injection hs with hs
      subst hs
      refine ⟨by simp [i1], fun b t => ⟨?_, ?_⟩⟩
      · exact main _ (entries_branch R.fl b t) (fun s hs => ((i2 s hs).2 b t).1) _
      · exact main _ (entries_hist R.fl b t) (fun s hs => ((i2 s hs).2 b t).2) _

end Melodist
