import Verif.Props.Aggregate
import Verif.Props.CascadeRun

/-!
# C27, C28: statistics of the seasons (build_casc)
-/

set_option linter.unusedSectionVars false

namespace Melodist
open Spec

variable {K : Type} [Field K] [LinearOrder K] [IsStrictOrderedRing K] [FloorRing K]

theorem buildCasc_one {obs : Series (XF K)} {hourly : Bool} {level : Nat} {ms : List Int} {avg : Bool} {p : K}
    {r : List (CascStats K ⊕ List (CascStats K))} (h : (buildCasc obs hourly level (some [ms]) avg p).2 = .ok r) :
    ∃ vdn st, seasonalSubset obs ms = .ok vdn ∧ seasonStats vdn (if hourly then 5 else level) avg p = .ok st ∧ r = [st] := by
  unfold buildCasc at h
  simp only [Option.getD_some, buildLoop] at h
  cases h1 : seasonalSubset obs ms with
  | error e => rw [h1] at h; cases h
  | ok vdn =>
    rw [h1] at h
    simp only at h
    cases h2 : seasonStats vdn (if hourly then 5 else level) avg p with
    | error e => rw [h2] at h; cases h
    | ok st => rw [h2] at h; cases h; exact ⟨vdn, st, rfl, h2, rfl⟩

theorem buildCasc_of {obs : Series (XF K)} {hourly : Bool} {level : Nat} {ms : List Int} {avg : Bool} {p : K} {vdn : Series (XF K)}
    {st : CascStats K ⊕ List (CascStats K)} (h1 : seasonalSubset obs ms = .ok vdn)
    (h2 : seasonStats vdn (if hourly then 5 else level) avg p = .ok st) :
    (buildCasc obs hourly level (some [ms]) avg p).2 = .ok [st] := by
  unfold buildCasc
  simp only [Option.getD_some, buildLoop, h1, h2, Except.map]

/-- **C27**, level statistics: with `avg_stats=False` entry `i` of a season's list holds the statistics returned by `aggregate_precipitation` for the
season's data aggregated `i` times (so entry 0 is the finest level). -/
theorem C27_level_statistics (obs : Series (XF K)) (hourly : Bool) (level : Nat) (ms : List Int) (p : K)
    (r : List (CascStats K ⊕ List (CascStats K))) (h : (buildCasc obs hourly level (some [ms]) false p).2 = .ok r) :
    ∃ (l : List (CascStats K)) (v : Nat → Series (XF K)), r = [.inr l] ∧ l.length = (if hourly then 5 else level) ∧
      seasonalSubset obs ms = .ok (v 0) ∧
      ∀ (i : Nat) (hi : i < l.length), aggregatePrecipitation (v i) p = .ok (l[i], v (i + 1)) := by
  obtain ⟨vdn, st, h1, h2, rfl⟩ := buildCasc_one h
  obtain ⟨l, hl, hagg, -, hr, -⟩ := seasonStats_spec h2
  refine ⟨l, fun i => pairSums^[i] vdn, by rw [hr rfl], hl, h1, ?_⟩
  intro i hi
  obtain ⟨v, hv⟩ := hagg i l[i] (List.getElem?_eq_getElem hi)
  obtain ⟨-, hv', -⟩ := aggregate_inv hv
  show aggregatePrecipitation (pairSums^[i] vdn) p = .ok (l[i], pairSums^[i + 1] vdn)
  rw [hv, hv', Function.iterate_succ_apply']

/-- the weighted mean of `f 0, …, f (k-1)` with the weights `w 0, …, w (k-1)` -/
def weightedMean (k : Nat) (w : Nat → Nat) (f : Nat → K) : K :=
  (∑ i ∈ Finset.range k, f i * (w i : K)) / ((∑ i ∈ Finset.range k, w i : Nat) : K)

/-- **C27**, averaged statistics: `avg_stats=True` returns for every entry the mean over the levels, weighted with the number of boxes of the level,
and the thresholds of all levels. -/
theorem C27_average (obs : Series (XF K)) (hourly : Bool) (level : Nat) (ms : List Int) (p : K)
    (l : List (CascStats K)) (h : (buildCasc obs hourly level (some [ms]) false p).2 = .ok [.inr l])
    (sub : Series (XF K)) (hsub : seasonalSubset obs ms = .ok sub) :
    ∃ a, (buildCasc obs hourly level (some [ms]) true p).2 = .ok [.inl a] ∧ a.percentile = p ∧
      a.threshold.length = l.length ∧
      (∀ (i : Nat) (s : CascStats K), l[i]? = some s → s.threshold.length = 1 ∧ a.threshold[i]? = s.threshold[0]?) ∧
      let mean := weightedMean (K := K) l.length fun i => sub.length / 2 ^ (i + 1)
      ∀ b t, (∀ f : Nat → K, (∀ (i : Nat) (s : CascStats K), l[i]? = some s → s.p01 b t = .fin (f i)) → a.p01 b t = .fin (mean f)) ∧
        (∀ f : Nat → K, (∀ (i : Nat) (s : CascStats K), l[i]? = some s → s.p10 b t = .fin (f i)) → a.p10 b t = .fin (mean f)) ∧
        (∀ f : Nat → K, (∀ (i : Nat) (s : CascStats K), l[i]? = some s → s.pxx b t = .fin (f i)) → a.pxx b t = .fin (mean f)) ∧
        ∀ k, ∀ f : Nat → K, (∀ (i : Nat) (s : CascStats K), l[i]? = some s → s.wxx k b t = .fin (f i)) → a.wxx k b t = .fin (mean f) := by
  obtain ⟨vdn, st, h1, h2, hst⟩ := buildCasc_one h
  cases hsub.symm.trans h1
  have hst : st = .inr l := by simpa using hst.symm
  subst hst
  -- the same loop with averaging
  obtain ⟨l', hl', hagg, hpos, hr, -⟩ := seasonStats_spec h2
  have : l' = l := by simpa using (hr rfl).symm
  subst this
  have h3 : ∃ a, seasonStats sub (if hourly then 5 else level) true p = .ok (.inl a) := by
    unfold seasonStats at h2 ⊢
    obtain ⟨⟨l2, acc, count⟩, h4, h2⟩ := Except.bind_ok h2
    rw [h4]
    by_cases hc : count = 0
    · simp [hc, bind, Except.bind] at h2
    · exact ⟨_, by simp [hc, bind, Except.bind, pure, Except.pure]; rfl⟩
  obtain ⟨a, h3⟩ := h3
  obtain ⟨l2, hl2, hagg2, -, -, ha⟩ := seasonStats_spec h3
  obtain ⟨a', haa, hp, hth, hmean⟩ := ha rfl
  have : a = a' := by simpa using haa
  subst this
  have hll : l2 = l' := by
    apply List.ext_getElem?
    intro i
    by_cases hi : i < l'.length
    · obtain ⟨v, hv⟩ := hagg i l'[i] (List.getElem?_eq_getElem hi)
      have hi2 : i < l2.length := by omega
      obtain ⟨v2, hv2⟩ := hagg2 i l2[i] (List.getElem?_eq_getElem hi2)
      rw [hv] at hv2
      rw [List.getElem?_eq_getElem hi, List.getElem?_eq_getElem hi2]
      injection hv2 with hv2
      injection hv2 with hv2
      rw [hv2]
    · rw [List.getElem?_eq_none (by omega), List.getElem?_eq_none (by omega)]
  subst hll
  refine ⟨a, buildCasc_of h1 h3, hp, by rw [hth]; simp, ?_, ?_⟩
  · intro i s hi
    obtain ⟨v, hv⟩ := hagg i s hi
    obtain ⟨-, -, mv, ty, -, -, rfl⟩ := aggregate_inv hv
    rw [hth]
    have := (finishStats_fields { CascStats.init with percentile := p, threshold := [.fin mv] }
      (aggCount mv (valuePairs (Series.values (pairSums^[i] sub))) ty {})).1
    rw [List.getElem?_map, hi]
    simp [this]
  · intro mean b t
    rw [← hl'] at hmean
    exact ⟨hmean _ (linEntry_p01 b t) (fun _ _ => rfl) rfl, hmean _ (linEntry_p10 b t) (fun _ _ => rfl) rfl,
      hmean _ (linEntry_pxx b t) (fun _ _ => rfl) rfl, fun k => hmean _ (linEntry_wxx k b t) (fun _ _ => rfl) rfl⟩

theorem weightedMean_nonneg {k : Nat} {w : Nat → Nat} {f : Nat → K} (hf : ∀ i < k, 0 ≤ f i) : 0 ≤ weightedMean k w f := by
  unfold weightedMean
  apply div_nonneg
  · exact Finset.sum_nonneg fun i hi => mul_nonneg (hf i (Finset.mem_range.1 hi)) (Nat.cast_nonneg _)
  · exact Nat.cast_nonneg _

theorem weightedMean_near {k : Nat} {w : Nat → Nat} (hw : 0 < ∑ i ∈ Finset.range k, w i) {f : Nat → K} {ε : K} (hf : ∀ i < k, |f i - 1| ≤ ε) :
    |weightedMean k w f - 1| ≤ ε := by
  unfold weightedMean
  have hW : (0 : K) < ((∑ i ∈ Finset.range k, w i : Nat) : K) := by exact_mod_cast hw
  rw [div_sub_one hW.ne', abs_div, abs_of_pos hW, div_le_iff₀ hW]
  rw [Nat.cast_sum, ← Finset.sum_sub_distrib, Finset.mul_sum]
  refine (Finset.abs_sum_le_sum_abs _ _).trans (Finset.sum_le_sum fun i hi => ?_)
  rw [← sub_one_mul, abs_mul, abs_of_nonneg (Nat.cast_nonneg (w i) : (0 : K) ≤ _)]
  exact mul_le_mul_of_nonneg_right (hf i (Finset.mem_range.1 hi)) (Nat.cast_nonneg _)

theorem weightedMean_add {k : Nat} {w : Nat → Nat} (f g : Nat → K) :
    weightedMean k w f + weightedMean k w g = weightedMean k w fun i => f i + g i := by
  unfold weightedMean
  rw [← add_div, ← Finset.sum_add_distrib]
  simp only [add_mul]

theorem weightedMean_sum {k : Nat} {w : Nat → Nat} (f : Fin 7 → Nat → K) :
    ∑ q, weightedMean k w (f q) = weightedMean k w fun i => ∑ q, f q i := by
  simp only [Fin.sum_univ_seven, weightedMean_add]

theorem pairSums_nonneg : ∀ {data : Series (XF K)}, (∀ r ∈ data, r.2 = .nan ∨ ∃ x, 0 ≤ x ∧ r.2 = .fin x) →
    ∀ r ∈ pairSums data, r.2 = .nan ∨ ∃ x, 0 ≤ x ∧ r.2 = .fin x
  | [], _, r, hr => by simp [pairSums] at hr
  | [_], _, r, hr => by simp [pairSums] at hr
  | a :: b :: rest, h, r, hr => by
    simp only [pairSums, List.mem_cons] at hr
    rcases hr with rfl | hr
    · rcases h a (by simp) with ha | ⟨x, hx, ha⟩ <;> rcases h b (by simp) with hb | ⟨y, hy, hb⟩ <;> simp only [ha, hb]
      · simp
      · simp
      · simp
      · exact .inr ⟨x + y, add_nonneg hx hy, by simp⟩
    · exact pairSums_nonneg (fun q hq => h q (by simp [hq])) r hr

/-- **C27**: all statistics returned for a season are probability distributions (sums within 1e-14 of 1); the averaged ones exactly when no level had to
fall back on the sample data. -/
theorem C27_distributions (obs : Series (XF K)) (hobs : ∀ r ∈ obs, r.2 = .nan ∨ ∃ x, 0 ≤ x ∧ r.2 = .fin x) (hourly : Bool) (level : Nat)
    (ms : List Int) (p : K) (l : List (CascStats K)) (h : (buildCasc obs hourly level (some [ms]) false p).2 = .ok [.inr l]) :
    (∀ s ∈ l, StatsWithin (1 / 10 ^ 14) s) ∧
    ∃ a, (buildCasc obs hourly level (some [ms]) true p).2 = .ok [.inl a] ∧ StatsWithin (1 / 10 ^ 14) a ∧
      ((∀ s ∈ l, StatsWithin 0 s) → StatsWithin 0 a) := by
  obtain ⟨l', v, hr, hlen, hv0, hagg⟩ := C27_level_statistics obs hourly level ms p _ h
  have : l' = l := by simpa using hr.symm
  subst this
  have hvn : ∀ i, i ≤ l'.length → ∀ r ∈ v i, r.2 = .nan ∨ ∃ x, 0 ≤ x ∧ r.2 = .fin x := by
    intro i
    induction i with
    | zero =>
      intro _ r hr
      exact hobs r (((C24_seasonal_subset obs ms (v 0) hv0).2.1 r).1 hr).1
    | succ i ih =>
      intro hi
      obtain ⟨-, hv, -⟩ := aggregate_inv (hagg i (by omega))
      rw [hv]
      exact pairSums_nonneg (ih (by omega))
  have hl : ∀ s ∈ l', StatsWithin (1 / 10 ^ 14) s := by
    intro s hs
    obtain ⟨i, hi, rfl⟩ := List.getElem_of_mem hs
    rcases C26_statistics_distributions (v i) p (hvn i (by omega)) _ _ (hagg i hi) with h | h
    · exact h.mono (by positivity)
    · exact h.2
  obtain ⟨a, ha, -, -, -, hmean⟩ := C27_average obs hourly level ms p l' h (v 0) hv0
  have key : ∀ ε : K, (∀ s ∈ l', StatsWithin ε s) → StatsWithin ε a := by
    intro ε hε b t
    have hpos : 0 < ∑ i ∈ Finset.range l'.length, (v 0).length / 2 ^ (i + 1) := by
      obtain ⟨vdn, st, h1, h2, hst⟩ := buildCasc_one h
      cases hv0.symm.trans h1
      obtain ⟨l2, hl2, -, hpos, -⟩ := seasonStats_spec h2
      rw [hlen]; exact hpos
    have hex : ∀ i : Nat, ∃ (x y z : K) (w : Fin 7 → K), ∀ s : CascStats K, l'[i]? = some s → s.p01 b t = .fin x ∧ s.p10 b t = .fin y ∧ s.pxx b t = .fin z ∧
        0 ≤ x ∧ 0 ≤ y ∧ 0 ≤ z ∧ |x + y + z - 1| ≤ ε ∧ (∀ k, s.wxx k b t = .fin (w k)) ∧ (∀ k, 0 ≤ w k) ∧ |∑ k, w k - 1| ≤ ε := by
      intro i
      cases hi : l'[i]? with
      | none => exact ⟨0, 0, 0, fun _ => 0, fun s hs => by cases hs⟩
      | some s =>
        obtain ⟨⟨x, y, z, h1, h2, h3, h4, h5, h6, h7⟩, w, g1, g2, g3⟩ := hε s (List.mem_of_getElem? hi) b t
        exact ⟨x, y, z, w, fun s' hs => by cases hs; exact ⟨h1, h2, h3, h4, h5, h6, h7, g1, g2, g3⟩⟩
    choose x y z w hx using hex
    have hi := fun (i : Nat) (hi : i < l'.length) => hx i l'[i] (List.getElem?_eq_getElem hi)
    obtain ⟨m1, m2, m3, m4⟩ := hmean b t
    refine ⟨⟨_, _, _, m1 x fun i s hs => (hx i s hs).1, m2 y fun i s hs => (hx i s hs).2.1, m3 z fun i s hs => (hx i s hs).2.2.1,
      weightedMean_nonneg fun i h => (hi i h).2.2.2.1, weightedMean_nonneg fun i h => (hi i h).2.2.2.2.1,
      weightedMean_nonneg fun i h => (hi i h).2.2.2.2.2.1, ?_⟩, ⟨fun k => _, fun k => m4 k (fun i => w i k) fun i s hs => (hx i s hs).2.2.2.2.2.2.2.1 k,
      fun k => weightedMean_nonneg fun i h => (hi i h).2.2.2.2.2.2.2.2.1 k, ?_⟩⟩
    · rw [weightedMean_add, weightedMean_add]
      exact weightedMean_near hpos fun i h => (hi i h).2.2.2.2.2.2.1
    · rw [weightedMean_sum fun k i => w i k]
      exact weightedMean_near hpos fun i h => (hi i h).2.2.2.2.2.2.2.2.2
  exact ⟨hl, a, ha, key _ hl, key 0⟩

/-- **C27** with **C19**: statistics built from hourly observations without fall-back to the sample data make the hourly cascade succeed, whatever the
daily series and the random numbers. -/
theorem C27_usable_by_cascade (obs : Series (XF K)) (hobs : ∀ r ∈ obs, r.2 = .nan ∨ ∃ x, 0 ≤ x ∧ r.2 = .fin x)
    (ms : List Int) (p : K) (l : List (CascStats K)) (h : (buildCasc obs true 9 (some [ms]) false p).2 = .ok [.inr l]) (hex : ∀ s ∈ l, StatsWithin 0 s)
    (api : PandasApi) (rnd : Nat → K) (hr : ∀ j, rnd j ≤ 1) (d0 : Int) (n : Nat) (hn : 2 ≤ n) (v : Nat → XF K)
    (hv : ∀ i < n, v i = .nan ∨ ∃ x, 0 ≤ x ∧ v i = .fin x) (shift : Int) :
    (∃ out, disaggPrecCascade api rnd (dailyS d0 n v) (.many l) (shift := shift) = .ok out) ∧
    ∃ a, (buildCasc obs true 9 (some [ms]) true p).2 = .ok [.inl a] ∧
      ∃ out, disaggPrecCascade api rnd (dailyS d0 n v) (.one a) (shift := shift) = .ok out := by
  have huse : ∀ s : CascStats K, StatsWithin 0 s → UsableWeights s := by
    intro s hs b t
    obtain ⟨-, w, h1, -, h3⟩ := hs b t
    have h4 : ∑ k, w k - 1 = 0 := abs_nonpos_iff.1 h3
    exact ⟨w, h1, by linarith⟩
  obtain ⟨-, a, ha, -, hex'⟩ := C27_distributions obs hobs true 9 ms p l h
  obtain ⟨l', vv, hr', hlen, hv0, hagg⟩ := C27_level_statistics obs true 9 ms p _ h
  have : l' = l := by simpa using hr'.symm
  subst this
  obtain ⟨a', ha', -, hthl, hth, -⟩ := C27_average obs true 9 ms p l' h (vv 0) hv0
  have : a' = a := by rw [ha] at ha'; simpa using ha'.symm
  subst this
  simp only [if_true] at hlen
  refine ⟨C19_cascade_total api rnd hr (.many l') ⟨hlen, fun s hs => ⟨huse s (hex s hs), ?_⟩⟩ d0 n hn v hv 9 shift false,
    a', ha, C19_cascade_total api rnd hr (.one a') ⟨huse a' (hex' hex), by omega⟩ d0 n hn v hv 9 shift false⟩
  obtain ⟨i, hi, rfl⟩ := List.getElem_of_mem hs
  have := (hth i _ (List.getElem?_eq_getElem hi)).1
  intro h0
  rw [h0] at this
  simp at this

/-! ### C28 -/

theorem fillna0_idem (s : Series (XF K)) : fillna0 (fillna0 s) = fillna0 s := by
  unfold fillna0
  rw [List.map_map]
  apply List.map_congr_left
  intro r _
  rcases r with ⟨t, v⟩
  cases v <;> simp

theorem buildLoop_fst (levels : Nat) (avg : Bool) (p : K) : ∀ (seasons : List (List Int)) (obs : Series (XF K)),
    (buildLoop levels avg p obs seasons).1 = match seasons with
      | [] => obs
      | [] :: _ => obs
      | _ => fillna0 obs
  | [], obs => rfl
  | [] :: rest, obs => rfl
  | (m :: ms) :: rest, obs => by
    unfold buildLoop
    simp only [seasonalSubset]
    cases seasonStats (((m :: ms).flatMap (monthRows obs)).insertionSort fun a b => a.1 ≤ b.1) levels avg p with
    | error e => rfl
    | ok st =>
      simp only
      rw [buildLoop_fst levels avg p rest (fillna0 obs)]
      match rest with
      | [] => rfl
      | [] :: _ => rfl
      | (_ :: _) :: _ => exact fillna0_idem obs

/-- **C28**, effect on the caller's data: the missing values of the caller's column are 0 afterwards and nothing else is changed - also when an exception is
raised; only a call without seasons, or whose first season has no months, leaves the column alone. -/
theorem C28_fills_caller_data (obs : Series (XF K)) (hourly : Bool) (level : Nat) (months : Option (List (List Int))) (avg : Bool) (p : K) :
    let after := (buildCasc obs hourly level months avg p).1
    let untouched := months = some [] ∨ ∃ rest, months = some ([] :: rest)
    (untouched → after = obs) ∧
    (¬ untouched → after.length = obs.length ∧ ∀ (i : Nat) (r : Time × XF K), obs[i]? = some r →
      after[i]? = some (r.1, if r.2 = .nan then .fin 0 else r.2)) := by
  intro after untouched
  have hfill : ∀ ss : List (List Int), (buildCasc obs hourly level (some ss) avg p).1 = _ := fun ss => buildLoop_fst _ avg p ss obs
  have hg : ∀ s : Series (XF K), s = fillna0 obs → s.length = obs.length ∧ ∀ (i : Nat) (r : Time × XF K), obs[i]? = some r →
      s[i]? = some (r.1, if r.2 = .nan then .fin 0 else r.2) := by
    rintro s rfl
    refine ⟨by simp [fillna0], fun i r hr => ?_⟩
    unfold fillna0
    rw [List.getElem?_map, hr]
    rcases r with ⟨t, v⟩
    cases v <;> simp
  constructor
  · rintro (h | ⟨rest, h⟩)
    · simp only [after, h]; exact hfill []
    · simp only [after, h]; exact hfill ([] :: rest)
  · intro hu
    apply hg
    cases hm : months with
    | none => simp only [after, hm]; exact hfill [[1, 2, 3, 4, 5, 6, 7, 8, 9, 10, 11, 12]]
    | some ss =>
      match ss, hm with
      | [], hm => exact absurd (.inl hm) hu
      | [] :: rest, hm => exact absurd (.inr ⟨rest, hm⟩) hu
      | (m :: ms) :: rest, hm => simp only [after, hm]; exact hfill ((m :: ms) :: rest)

/-- **C28**, dependence on the position: the first season's statistics are those of the data before filling, the others' those of the filled data. -/
theorem C28_first_season (obs : Series (XF K)) (hourly : Bool) (level : Nat) (seasons : List (List Int)) (avg : Bool) (p : K)
    (r : List (CascStats K ⊕ List (CascStats K))) (h : (buildCasc obs hourly level (some seasons) avg p).2 = .ok r) :
    r.length = seasons.length ∧ ∀ (i : Nat) (ms : List Int), seasons[i]? = some ms → ∃ st, r[i]? = some st ∧
      (i = 0 → (buildCasc obs hourly level (some [ms]) avg p).2 = .ok [st]) ∧
      (0 < i → (buildCasc (obs.map fun q => (q.1, if q.2 = .nan then .fin 0 else q.2)) hourly level (some [ms]) avg p).2 = .ok [st]) := by
  have hfill : (obs.map fun q => (q.1, if q.2 = .nan then .fin 0 else q.2)) = fillna0 obs := by
    unfold fillna0
    apply List.map_congr_left
    rintro ⟨t, v⟩ _
    cases v <;> simp
  rw [hfill]
  have gen : ∀ (seasons : List (List Int)) (o : Series (XF K)) (r : List (CascStats K ⊕ List (CascStats K))),
      (buildLoop (if hourly then 5 else level) avg p o seasons).2 = .ok r →
      r.length = seasons.length ∧ ∀ (i : Nat) (ms : List Int), seasons[i]? = some ms → ∃ st, r[i]? = some st ∧
        (buildCasc (if i = 0 then o else fillna0 o) hourly level (some [ms]) avg p).2 = .ok [st] := by
    intro seasons
    induction seasons with
    | nil => intro o r h; simp [buildLoop] at h; subst h; simp
    | cons ms seasons ih =>
      intro o r h
      unfold buildLoop at h
      cases h1 : seasonalSubset o ms with
      | error e => rw [h1] at h; cases h
      | ok vdn =>
        rw [h1] at h
        simp only at h
        cases h2 : seasonStats vdn (if hourly then 5 else level) avg p with
        | error e => rw [h2] at h; cases h
        | ok st =>
          rw [h2] at h
          simp only at h
          cases h3 : (buildLoop (if hourly then 5 else level) avg p (fillna0 o) seasons).2 with
          | error e => rw [h3] at h; cases h
          | ok r' =>
            rw [h3] at h
            cases h
            obtain ⟨i1, i2⟩ := ih (fillna0 o) r' h3
            refine ⟨by simp [i1], ?_⟩
            intro i ms' hi
            cases i with
            | zero =>
              simp at hi; subst hi
              exact ⟨st, rfl, by simpa using buildCasc_of h1 h2⟩
            | succ i =>
              obtain ⟨st', e1, e2⟩ := i2 i ms' (by simpa using hi)
              refine ⟨st', by simpa using e1, ?_⟩
              have : (if i = 0 then fillna0 o else fillna0 (fillna0 o)) = fillna0 o := by split <;> simp [fillna0_idem]
              rw [this] at e2
              simpa using e2
  obtain ⟨g1, g2⟩ := gen seasons obs r h
  refine ⟨g1, fun i ms hi => ?_⟩
  obtain ⟨st, e1, e2⟩ := g2 i ms hi
  refine ⟨st, e1, fun h0 => by simpa [h0] using e2, fun h0 => ?_⟩
  rw [if_neg (by omega)] at e2
  exact e2

/-- 5-minute values of January with a missing value: boxes NaN, 2 before filling, 1, 2 afterwards -/
def exampleGappy : Series (XF ℚ) :=
  [(0, .fin 1), (5 * MINUTE, .nan), (10 * MINUTE, .fin 1), (15 * MINUTE, .fin 1)]

/-- **C28**: the same season given twice gets different statistics (threshold 2 the first time, 3/2 the second time). -/
theorem C28_position_matters :
    ∃ s0 s1, (buildCasc exampleGappy false 1 (some [[1], [1]]) true 50).2 = .ok [.inl s0, .inl s1] ∧ s0.threshold = [.fin 2] ∧ s1.threshold = [.fin (3 / 2)] := by
  have h : okAnd (buildCasc exampleGappy false 1 (some [[1], [1]]) true 50).2 (fun r => match r with
      | [.inl s0, .inl s1] => decide (s0.threshold = [.fin 2] ∧ s1.threshold = [.fin (3 / 2)])
      | _ => false) = true := by decide +kernel
  obtain ⟨r, h1, h2⟩ := okAnd_iff.1 h
  rw [h1]
  split at h2
  · exact ⟨_, _, rfl, by simpa using h2⟩
  · simp at h2

-- the caller's column after that call
example : (buildCasc exampleGappy false 1 (some [[1], [1]]) true 50).1 =
    [(0, .fin 1), (5 * MINUTE, .fin 0), (10 * MINUTE, .fin 1), (15 * MINUTE, .fin 1)] := by decide +kernel

-- hypotheses of C27: one level of the example data, without fall-back
example : okAnd (buildCasc exampleObs false 1 (some [[1, 2, 3, 4, 5, 6, 7, 8, 9, 10, 11, 12]]) false 50).2 (fun r => match r with
    | [.inr [s]] => decide (s.p01 0 0 = .fin 1 ∧ s.p10 0 0 = .fin 0 ∧ s.pxx 0 0 = .fin 0)
    | _ => false) = true := by decide +kernel

/-- eleven blocks of 32 hours in January: three low blocks, a dry one, three high blocks, a dry one, one low hour, a dry block, one high hour -/
def exampleLong : Series (XF ℚ) :=
  ((List.replicate 96 (1 / 100 : ℚ) ++ List.replicate 32 0 ++ List.replicate 96 10 ++ List.replicate 32 0 ++ [1 / 1000] ++ List.replicate 63 0 ++
    [1000] ++ List.replicate 31 0 : List ℚ).zipIdx).map fun q => ((q.2 : Int) * HOUR, .fin q.1)

-- hypotheses of C27_usable_by_cascade: five levels, no fall-back on sample data
theorem exampleLong_levels : ∃ l, (buildCasc exampleLong true 9 (some [[1]]) false 50).2 = .ok [.inr l] ∧ ∀ s ∈ l, StatsWithin 0 s := by
  have h : okAnd (buildCasc exampleLong true 9 (some [[1]]) false 50).2 (fun r => match r with
      | [.inr l] => l.all fun s => ! decide (s.p01 0 0 = .fin (sampleP01 0 0))
      | _ => false) = true := by decide +kernel
  obtain ⟨r, h1, h2⟩ := okAnd_iff.1 h
  split at h2
  · rename_i l
    refine ⟨l, h1, fun s hs => ?_⟩
    have hne := List.all_eq_true.1 h2 s hs
    simp only [Bool.not_eq_true', decide_eq_false_iff_not] at hne
    obtain ⟨l', v, hr, hlen, hv0, hagg⟩ := C27_level_statistics exampleLong true 9 [1] 50 _ h1
    have hll : l' = l := by simpa using hr.symm
    subst hll
    obtain ⟨i, hi, rfl⟩ := List.getElem_of_mem hs
    have hnn : ∀ j, j ≤ l'.length → ∀ r ∈ v j, r.2 = .nan ∨ ∃ x, 0 ≤ x ∧ r.2 = .fin x := by
      intro j
      induction j with
      | zero =>
        intro _ r hr
        have hm := (((C24_seasonal_subset exampleLong [1] (v 0) hv0).2.1 r).1 hr).1
        have hall : ∀ r ∈ exampleLong, (match r.2 with | .fin x => decide (0 ≤ x) | _ => false) = true := by decide +kernel
        have := hall r hm
        rcases h : r.2 with _ | _ | x | _ <;> rw [h] at this <;> simp at this
        exact .inr ⟨x, this, rfl⟩
      | succ j ih =>
        intro hj
        obtain ⟨-, hv, -⟩ := aggregate_inv (hagg j (by omega))
        rw [hv]
        exact pairSums_nonneg (ih (by omega))
    rcases C26_statistics_distributions (v i) 50 (hnn i (by omega)) _ _ (hagg i hi) with h | h
    · exact h
    · exact absurd (h.1 0 0).1 hne
  · simp at h2

end Melodist
