import Verif.Lemmas.StatsRounding
import Verif.Props.RoundingB
import Verif.Props.BuildCasc

/-!
# C128: cascade statistics fitted in floating-point arithmetic, and cascades driven by them
-/

set_option linter.unusedSectionVars false

namespace Melodist
open Spec

section
variable {K : Type} [Field K] [LinearOrder K] [IsStrictOrderedRing K] [FloorRing K]

/-! ## the rounded functions without rounding -/

theorem pairSumsR_id : ∀ s : Series (XF K), pairSumsR id s = pairSums s
  | [] => rfl
  | [_] => rfl
  | a :: b :: rest => by simp only [pairSumsR, pairSums, rnd_id, pairSumsR_id rest]

theorem aggCountR_id (mv : K) : ∀ (ps : List (XF K × XF K)) (tys : List (Option BoxType)) (c : AggCounts), aggCountR id mv ps tys c = aggCount mv ps tys c
  | [], _, c => by unfold aggCountR aggCount; rfl
  | _ :: _, [], c => by unfold aggCountR aggCount; rfl
  | (a, b) :: ps, ty :: tys, c => by
    unfold aggCountR aggCount
    rw [aggCountR_id mv ps tys]
    congr 1
    unfold aggStepR aggStep
    simp only [rnd_id]
    rfl

theorem sumCellsR_id (l : List (XF K)) : sumCellsR id l = sumCells l := by
  have h : ∀ (l : List (XF K)) (a : XF K), l.foldl (fun a c => (a + c).rnd id) a = a + sumCells l := by
    intro l
    induction l with
    | nil => intro a; cases a <;> first | rfl | simp [sumCells]
    | cons c l ih =>
      intro a
      rw [List.foldl_cons, ih, rnd_id, XF.add_assoc']
      rfl
  unfold sumCellsR
  rw [h]
  generalize sumCells l = c
  cases c <;> first | rfl | simp

theorem finishStatsR_id (s : CascStats K) (c : AggCounts) : finishStatsR id s c = finishStats s c := by
  unfold finishStatsR finishStats
  have e : ∀ m d : Mat24 Nat, ratioMatR (K := K) id m d = ratioMat m d := by
    intro m d; funext b t; exact rnd_id _
  have f : ∀ s : CascStats K, s.fillSampleR id = s.fillSample := fun s => rfl
  simp only [e, f, sumCellsR_id, id]

theorem aggregateR_id (data : Series (XF K)) (p : K) : aggregateR id npPercentile data p = aggregatePrecipitation data p := by
  unfold aggregateR aggregatePrecipitation
  simp only [pairSumsR_id, aggCountR_id, finishStatsR_id]

theorem levelStatsLoopR_id (p : K) : ∀ (k : Nat) (vdn : Series (XF K)) (acc : CascStats K) (count : Nat),
    levelStatsLoopR id npPercentile p k vdn acc count = levelStatsLoop p k vdn acc count
  | 0, _, _, _ => rfl
  | k + 1, vdn, acc, count => by
    unfold levelStatsLoopR levelStatsLoop
    rw [aggregateR_id]
    have e : ∀ (a b : CascStats K), a.addR id b = a.add b := by
      intro a b; unfold CascStats.addR CascStats.add; simp only [rnd_id]
    have f : ∀ (a : CascStats K) (c : K), a.scaleR id c = a.scale (.fin c) := by
      intro a c; unfold CascStats.scaleR CascStats.scale; simp only [rnd_id]
    simp only [e, f, levelStatsLoopR_id p k]

theorem buildLoopR_id (levels : Nat) (avg : Bool) (p : K) : ∀ (ms : List (List Int)) (obs : Series (XF K)),
    buildLoopR id npPercentile levels avg p obs ms = buildLoop levels avg p obs ms
  | [], _ => rfl
  | m :: ms, obs => by
    have g : ∀ vdn : Series (XF K), seasonStatsR id npPercentile vdn levels avg p = seasonStats vdn levels avg p := by
      intro vdn
      unfold seasonStatsR seasonStats
      rw [levelStatsLoopR_id]
      have f : ∀ (a : CascStats K) (c : K), a.scaleR id c = a.scale (.fin c) := by
        intro a c; unfold CascStats.scaleR CascStats.scale; simp only [rnd_id]
      simp only [f, id]
    unfold buildLoopR buildLoop
    simp only [g, buildLoopR_id levels avg p ms]
    cases seasonalSubset obs m with
    | error e => rfl
    | ok vdn =>
      simp only
      cases seasonStats vdn levels avg p <;> rfl

/-- **C128** (refinement) If nothing is rounded and percentiles are exact, the rounded fit is the one of all other properties. -/
theorem C128_exact (obs : Series (XF K)) (hourly : Bool) (level : Nat) (months : Option (List (List Int))) (avg : Bool) (p : K) :
    buildCascR id npPercentile obs hourly level months avg p = buildCasc obs hourly level months avg p := by
  unfold buildCascR buildCasc
  exact buildLoopR_id _ _ _ _ _

end

section
variable {K : Type} [Field K] [LinearOrder K] [IsStrictOrderedRing K]

/-- All entries are non-negative numbers; for every intensity class and box type the three branching probabilities and the seven weights have sums
between `lo` and `hi`. -/
def StatsBetween (lo hi : K) (s : CascStats K) : Prop :=
  ∀ b t, (∃ x y z : K, s.p01 b t = .fin x ∧ s.p10 b t = .fin y ∧ s.pxx b t = .fin z ∧ 0 ≤ x ∧ 0 ≤ y ∧ 0 ≤ z ∧ lo ≤ x + y + z ∧ x + y + z ≤ hi) ∧
    ∃ w : Fin 7 → K, (∀ k, s.wxx k b t = .fin (w k)) ∧ (∀ k, 0 ≤ w k) ∧ lo ≤ ∑ k, w k ∧ ∑ k, w k ≤ hi

theorem statsBetween_of {lo hi : K} {s : CascStats K} (h : ∀ b t, Between lo hi (branch b t s) ∧ Between lo hi (hist b t s)) : StatsBetween lo hi s := by
  intro b t
  obtain ⟨⟨w, a1, a2, a3, a4⟩, h2⟩ := h b t
  rw [Fin.sum_univ_three] at a3 a4
  exact ⟨⟨w 0, w 1, w 2, a1 0, a1 1, a1 2, a2 0, a2 1, a2 2, a3, a4⟩, h2⟩

theorem StatsBetween.mono {lo hi lo' hi' : K} {s : CascStats K} (h : StatsBetween lo hi s) (h1 : lo' ≤ lo) (h2 : hi ≤ hi') : StatsBetween lo' hi' s := by
  intro b t
  obtain ⟨⟨x, y, z, a, b', c, x0, y0, z0, l, u⟩, w, d, w0, l', u'⟩ := h b t
  exact ⟨⟨x, y, z, a, b', c, x0, y0, z0, h1.trans l, u.trans h2⟩, w, d, w0, h1.trans l', u'.trans h2⟩

theorem buildLoopR_between (R : Rounding K) (h1 : R.fl 1 = 1) {perc : List K → K → Py K} {levels : Nat} {avg : Bool} {p : K} :
    ∀ (ms : List (List Int)) (obs : Series (XF K)) {r : List (CascStats K ⊕ List (CascStats K))}, (∀ q ∈ obs, CellOk R q.2) →
    (buildLoopR R.fl perc levels avg p obs ms).2 = .ok r →
    (∀ l, .inr l ∈ r → l.length = levels ∧ ∀ s ∈ l, s.threshold.length = 1 ∧
      StatsBetween ((1 - R.u) * (1 - 1 / 10 ^ 14)) ((1 + R.u) * (1 + 1 / 10 ^ 14)) s) ∧
    (∀ s, .inl s ∈ r → s.threshold.length = levels ∧
      StatsBetween ((1 - R.u) ^ (levels + 4) * (1 - 1 / 10 ^ 14)) ((1 + R.u) ^ (levels + 4) * (1 + 1 / 10 ^ 14)) s)
  | [], obs, r, _, h => by
    unfold buildLoopR at h
    cases h
    simp
  | m :: ms, obs, r, ho, h => by
    unfold buildLoopR at h
    cases hs : seasonalSubset obs m with
    | error e => rw [hs] at h; cases h
    | ok vdn =>
      rw [hs] at h
      simp only at h
      cases hst : seasonStatsR R.fl perc vdn levels avg p with
      | error e => rw [hst] at h; cases h
      | ok st =>
        rw [hst] at h
        simp only at h
        have hv : ∀ q ∈ vdn, CellOk R q.2 := fun q hq => ho q (((C24_seasonal_subset obs m vdn hs).2.1 q).1 hq).1
        have hf : ∀ q ∈ fillna0 obs, CellOk R q.2 := by
          intro q hq
          obtain ⟨r, hr, rfl⟩ := List.mem_map.1 hq
          show CellOk R (if r.2.isNan = true then .fin 0 else r.2)
          split
          · exact .inr ⟨0, le_refl _, R.fl_zero, rfl⟩
          · exact ho r hr
        obtain ⟨s1, s2⟩ := seasonStatsR_between R h1 hv hst
        cases hr : (buildLoopR R.fl perc levels avg p (fillna0 obs) ms).2 with
        | error e => rw [hr] at h; cases h
        | ok rest =>
          rw [hr] at h
          cases h
          obtain ⟨i1, i2⟩ := buildLoopR_between R h1 ms (fillna0 obs) hf hr
          constructor
          · intro l hl
            rcases List.mem_cons.1 hl with hl | hl
            · obtain ⟨a, b⟩ := s1 l hl.symm
              exact ⟨a, fun s hs => ⟨(b s hs).1, statsBetween_of (b s hs).2⟩⟩
            · exact i1 l hl
          · intro s hl
            rcases List.mem_cons.1 hl with hl | hl
            · obtain ⟨a, b⟩ := s2 s hl.symm
              exact ⟨a, statsBetween_of b⟩
            · exact i2 s hl

/-- **C128** (fitted statistics) Observations that are missing or non-negative and representable give, in any arithmetic in which 1 is representable and however
percentiles are computed: all statistics that are returned consist of non-negative numbers, and the branching probabilities and the weights of every intensity class and box type add
up to 1 up to rounding (one rounding for level statistics, `levels + 4` roundings for averages) and the 10⁻¹⁴ of the sample data. -/
theorem C128_statistics (R : Rounding K) (h1 : R.fl 1 = 1) (perc : List K → K → Py K) (obs : Series (XF K))
    (hobs : ∀ q ∈ obs, q.2 = .nan ∨ ∃ x, 0 ≤ x ∧ R.fl x = x ∧ q.2 = .fin x) (hourly : Bool) (level : Nat) (months : Option (List (List Int)))
    (p : K) :
    (∀ r, (buildCascR R.fl perc obs hourly level months false p).2 = .ok r → ∀ l, .inr l ∈ r → l.length = (if hourly then 5 else level) ∧
      ∀ s ∈ l, StatsBetween ((1 - R.u) * (1 - 1 / 10 ^ 14)) ((1 + R.u) * (1 + 1 / 10 ^ 14)) s) ∧
    (∀ r, (buildCascR R.fl perc obs hourly level months true p).2 = .ok r → ∀ s, .inl s ∈ r →
      StatsBetween ((1 - R.u) ^ ((if hourly then 5 else level) + 4) * (1 - 1 / 10 ^ 14)) ((1 + R.u) ^ ((if hourly then 5 else level) + 4) * (1 + 1 / 10 ^ 14)) s) := by
  constructor
  · intro r hr l hl
    obtain ⟨a, -⟩ := buildLoopR_between R h1 _ obs hobs hr
    obtain ⟨b, c⟩ := a l hl
    exact ⟨b, fun s hs => (c s hs).2⟩
  · intro r hr s hs
    obtain ⟨-, a⟩ := buildLoopR_between R h1 _ obs hobs hr
    exact (a s hs).2

/-! ## cascades driven by such statistics -/

theorem classCentreR_mem (R : Rounding K) (h1 : R.fl 1 = 1) (k : Fin 7) : (0 : K) ≤ classCentreR R.fl k ∧ classCentreR R.fl k ≤ (1 : K) := by
  have lo : (1 / 14 : K) ≤ wclassbounds k.succ := by fin_cases k <;> simp [wclassbounds] <;> norm_num
  have hi : (wclassbounds k.succ : K) ≤ 1 := by fin_cases k <;> simp [wclassbounds] <;> norm_num
  have a := R.mono _ _ lo
  have b := R.mono _ _ hi
  rw [h1] at b
  have c : 0 ≤ R.fl (1 / 14) := R.fl_nonneg (by norm_num)
  unfold classCentreR
  refine ⟨R.fl_nonneg (by linarith), ?_⟩
  calc R.fl (R.fl (wclassbounds k.succ) - R.fl (1 / 14)) ≤ R.fl 1 := R.mono _ _ (by linarith)
    _ = 1 := h1

theorem wxxcumR_lower (R : Rounding K) {s : CascStats K} {b : Fin 2} {t : Fin 4} {w : Fin 7 → K} (hw : ∀ k, s.wxx k b t = .fin (w k)) (h0 : ∀ k, 0 ≤ w k) :
    ∀ k < 7, ∃ y, wxxcumR R.fl s k b t = .fin y ∧ (1 - R.u) ^ k * ∑ j ∈ Finset.range (k + 1), (if h : j < 7 then w ⟨j, h⟩ else 0) ≤ y := by
  intro k
  induction k with
  | zero =>
    intro _
    refine ⟨w 0, hw 0, ?_⟩
    rw [Finset.sum_range_one, dif_pos (by norm_num), pow_zero, one_mul]
    exact le_of_eq rfl
  | succ k ih =>
    intro hk
    obtain ⟨y, hy, hb⟩ := ih (by omega)
    have hwk := h0 ⟨k + 1, hk⟩
    have hS : 0 ≤ ∑ j ∈ Finset.range (k + 1), (if h : j < 7 then w ⟨j, h⟩ else 0) := by
      apply Finset.sum_nonneg
      intro j _
      split
      · exact h0 _
      · exact le_refl _
    have hy0 : 0 ≤ y := (mul_nonneg (pow_nonneg R.lo_nonneg _) hS).trans hb
    refine ⟨R.fl (y + w ⟨k + 1, hk⟩), ?_, ?_⟩
    · show (wxxcumR R.fl s k b t + (if h : k + 1 < 7 then s.wxx ⟨k + 1, h⟩ b t else .fin 0)).rnd R.fl = _
      rw [hy, dif_pos hk, hw]
      rfl
    · rw [Finset.sum_range_succ, dif_pos hk]
      refine le_trans ?_ (R.fl_bounds (add_nonneg hy0 hwk)).1
      rw [pow_succ', mul_assoc]
      refine mul_le_mul_of_nonneg_left ?_ R.lo_nonneg
      rw [mul_add]
      exact add_le_add hb (mul_le_of_le_one_left hwk (pow_le_one₀ R.lo_nonneg R.lo_le_one))

theorem wxxcumR_last (R : Rounding K) {s : CascStats K} {lo hi : K} (hs : StatsBetween lo hi s) (b : Fin 2) (t : Fin 4) :
    ∃ y, wxxcumR R.fl s 6 b t = .fin y ∧ (1 - R.u) ^ 6 * lo ≤ y := by
  obtain ⟨-, w, hw, h0, hl, -⟩ := hs b t
  obtain ⟨y, hy, hb⟩ := wxxcumR_lower R hw h0 6 (by norm_num)
  refine ⟨y, hy, le_trans (mul_le_mul_of_nonneg_left ?_ (pow_nonneg R.lo_nonneg _)) hb⟩
  refine hl.trans (le_of_eq ?_)
  simp [Finset.sum_range_succ, Fin.sum_univ_seven]

theorem guessW1R_some (R : Rounding K) {s : CascStats K} {lo hi : K} (hs : StatsBetween lo hi s) (b : Fin 2) (t : Fin 4) {r : K}
    (hr : r ≤ (1 - R.u) ^ 6 * lo) (stale : Option K) : ∃ k, guessW1R R.fl s b t r stale = some (classCentreR R.fl k) := by
  unfold guessW1R
  cases hf : (List.finRange 7).find? fun k : Fin 7 => decide (XF.le (.fin r) (wxxcumR R.fl s k.1 b t)) with
  | some k => exact ⟨k, rfl⟩
  | none =>
    rw [List.find?_eq_none] at hf
    have := hf 6 (List.mem_finRange 6)
    obtain ⟨y, hy, hb⟩ := wxxcumR_last R hs b t
    rw [show ((6 : Fin 7)).1 = 6 from rfl, hy] at this
    simp at this
    linarith

theorem boxStepR_ok (R : Rounding K) (h1 : R.fl 1 = 1) {rnd : Nat → K} {lo hi : K} (hr : ∀ j, rnd j ≤ (1 - R.u) ^ 6 * lo) {s : CascStats K} (hs : StatsBetween lo hi s)
    (mv : XF K) {prev next : Option K} {x : K}
    (hp : ∀ x, prev = some x → 0 ≤ x) (hn : ∀ x, next = some x → 0 ≤ x) (h : prev ≠ none ∨ next ≠ none) (st : CascVars K) :
    ∃ o, boxStepR R.fl rnd s mv prev x next st = .ok o := by
  unfold boxStepR
  split
  · obtain ⟨ty, hty⟩ := boxType_some hp hn h st.vbtype
    rw [hty]
    simp only [bind, Except.bind]
    generalize (if XF.lt mv (.fin x) then (1 : Fin 2) else 0) = bb
    split
    · exact ⟨_, rfl⟩
    · split
      · exact ⟨_, rfl⟩
      · obtain ⟨k, hk⟩ := guessW1R_some R hs bb ty.col (hr (st.draws + 1)) st.w1
        simp only [hk]
        obtain ⟨c1, c2⟩ := classCentreR_mem R h1 k
        rw [if_neg (by push Not; exact ⟨c1, c2⟩)]
        exact ⟨_, rfl⟩
  · exact ⟨_, rfl⟩

theorem boxLoopR_ok (R : Rounding K) (h1 : R.fl 1 = 1) {rnd : Nat → K} {lo hi : K} (hr : ∀ j, rnd j ≤ (1 - R.u) ^ 6 * lo) {s : CascStats K} (hs : StatsBetween lo hi s)
    (mv : XF K) :
    ∀ (v : List K) (prev : Option K) (st : CascVars K), (∀ x ∈ v, 0 ≤ x) → (∀ x, prev = some x → 0 ≤ x) →
      (prev ≠ none ∨ 2 ≤ v.length) → ∃ o, boxLoopR R.fl rnd s mv prev v st = .ok o
  | [], _, _, _, _, _ => ⟨_, rfl⟩
  | x :: xs, prev, st, hv, hp, hlen => by
    have hh : prev ≠ none ∨ xs.head? ≠ none := by
      rcases hlen with h | h
      · exact .inl h
      · right; intro hx; rw [List.head?_eq_none_iff] at hx; subst hx; simp at h
    obtain ⟨⟨⟨a, b⟩, st1⟩, ho⟩ := boxStepR_ok R h1 hr hs mv (x := x) hp
      (fun y hy => hv y (List.mem_cons_of_mem _ (List.mem_of_mem_head? hy))) hh st
    obtain ⟨⟨rest, st2⟩, h2⟩ := boxLoopR_ok R h1 hr hs mv xs (some x) st1 (fun y hy => hv y (List.mem_cons_of_mem _ hy))
      (fun y hy => by cases hy; exact hv _ List.mem_cons_self) (.inl (by simp))
    exact ⟨_, by unfold boxLoopR; rw [ho]; simp only [bind, Except.bind]; rw [h2]⟩

theorem levelLoopR_ok (R : Rounding K) (h1 : R.fl 1 = 1) {rnd : Nat → K} {lo hi : K} (hr : ∀ j, rnd j ≤ (1 - R.u) ^ 6 * lo) {opts : CascOptions K} :
    ∀ (si : Nat), (∀ j < si, ∃ s mv, levelStats opts j = .ok (s, mv) ∧ StatsBetween lo hi s) → ∀ (v : List K) (st : CascVars K),
      (∀ x ∈ v, 0 ≤ x) → 2 ≤ v.length → ∃ ls, levelLoopR R.fl rnd opts si v st = .ok ls
  | 0, _, _, _, _, _ => ⟨_, rfl⟩
  | si + 1, hopt, v, st, hv, hlen => by
    obtain ⟨s, mv, hl, hs⟩ := hopt si (by omega)
    obtain ⟨⟨vout, st1⟩, h2⟩ := boxLoopR_ok R h1 hr hs mv v none st hv (by simp) (.inr hlen)
    have hsp := boxLoopR_split R hv h2
    obtain ⟨ls, h3⟩ := levelLoopR_ok R h1 hr si (fun j hj => hopt j (by omega)) vout st1 hsp.nonneg (by rw [hsp.length]; omega)
    exact ⟨vout :: ls, by unfold levelLoopR; rw [hl]; simp only [bind, Except.bind]; rw [h2]; simp only; rw [h3]⟩

/-- **C128** (the cascade returns) In any arithmetic in which 1 is representable: with statistics whose probabilities and weights are numbers adding up to at least
`lo`, the hourly cascade returns on every gap-free series of at least two days of missing or non-negative values, if no random number exceeds `(1 - u)⁶ lo`. -/
theorem C128_cascade_returns (R : Rounding K) (h1 : R.fl 1 = 1) (api : PandasApi) (rnd : Nat → K) {lo hi : K} (hr : ∀ j, rnd j ≤ (1 - R.u) ^ 6 * lo)
    (opts : CascOptions K)
    (ho : (∃ s, opts = .one s ∧ StatsBetween lo hi s ∧ 5 ≤ s.threshold.length) ∨
      ∃ l, opts = .many l ∧ l.length = 5 ∧ ∀ s ∈ l, StatsBetween lo hi s ∧ s.threshold ≠ [])
    (d0 : Int) (n : Nat) (hn : 2 ≤ n) (v : Nat → XF K) (hv : ∀ i < n, v i = .nan ∨ ∃ x, 0 ≤ x ∧ v i = .fin x) (shift : Int) :
    ∃ r, cascadeR R.fl api rnd (dailyS d0 n v) opts shift = .ok r := by
  have hlev : checkOptions opts 5 = .ok () ∧ ∀ j < 5, ∃ s mv, levelStats opts j = .ok (s, mv) ∧ StatsBetween lo hi s := by
    rcases ho with ⟨s, rfl, hs, ht⟩ | ⟨l, rfl, hl, hs⟩
    · refine ⟨rfl, fun j hj => ?_⟩
      unfold Melodist.levelStats
      refine ⟨s, s.threshold[j]'(by omega), ?_, hs⟩
      simp only [List.getElem?_eq_getElem (show j < s.threshold.length by omega)]
    · refine ⟨by simp [checkOptions, hl], fun j hj => ?_⟩
      have hj' : j < l.length := by omega
      obtain ⟨h3, h4⟩ := hs l[j] (List.getElem_mem _)
      unfold Melodist.levelStats
      refine ⟨l[j], l[j].threshold[0]'(by have := List.length_pos_iff.2 h4; omega), ?_, h3⟩
      simp only [List.getElem?_eq_getElem hj',
        List.getElem?_eq_getElem (show 0 < l[j].threshold.length by have := List.length_pos_iff.2 h4; omega)]
  obtain ⟨w, hw⟩ := zeroMissing_of_nanOrFin (l := (List.range n).map v) (by
    intro c hc
    obtain ⟨i, hi, rfl⟩ := List.mem_map.1 hc
    rcases hv i (List.mem_range.1 hi) with h | ⟨x, _, h⟩ <;> rw [h] <;> simp)
  obtain ⟨z1, z2⟩ := zeroMissing_ok hw
  have hlen : w.length = n := by simpa using z1
  have hw0 : ∀ y ∈ w, 0 ≤ y := by
    intro y hy
    obtain ⟨i, hi, rfl⟩ := List.getElem_of_mem hy
    have hin : i < n := by omega
    have hz := z2 i (v i) (by simp [hin])
    rcases hv i hin with h | ⟨x, hx, h⟩
    · have := hz.2.2 h
      rw [List.getElem?_eq_getElem hi] at this
      injection this with this; rw [this]
    · have := hz.2.1 x h
      rw [List.getElem?_eq_getElem hi] at this
      injection this with this; rw [this]; exact hx
  obtain ⟨ls, hls⟩ := levelLoopR_ok R h1 hr 5 hlev.2 w {} hw0 (by omega)
  have s1 := levelLoopR_last R hw0 hls
  have hq : (quarterHoursR R.fl (ls.getLastD [])).length = 96 * n := by
    rw [(quarterHoursR_split R _ s1.nonneg).length, s1.length, hlen]; ring
  have hl : (hourlyFromQuarterR R.fl (quarterHoursR R.fl (ls.getLastD []))).length = 24 * n := by
    rw [hourlyFromQuarterR_eq R _ (by rw [hq]; exact ⟨24 * n, by ring⟩)]
    rw [List.length_map, List.length_range, hq]; omega
  have hm := make_hourly (d0 := d0) (n := n) _ hl (fun _ _ => 0)
  unfold cascadeR
  rw [if_neg (by simp; omega), dailyS_values, hw]
  simp only [bind, Except.bind]
  rw [hlev.1, hls]
  simp only
  rw [hourlyIndex_daily api d0 (by omega : 0 < n) v false (fun _ _ => XF.nan),
    show Series.index (hourlyS d0 n fun _ _ => (XF.nan : XF K)) = Series.index (hourlyS d0 n fun _ _ => (0 : K)) by
      rw [hourlyS_index, hourlyS_index]]
  simp only
  rw [hm]
  exact ⟨_, rfl⟩

end

end Melodist
