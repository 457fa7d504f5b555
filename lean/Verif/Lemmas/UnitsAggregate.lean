import Verif.Lemmas.UnitsPrecip

/-!
# Change of units: statistics of the cascade
-/

set_option linter.unusedSectionVars false

namespace Melodist
open Spec

section
variable {K : Type} [Field K] [LinearOrder K] [IsStrictOrderedRing K] [FloorRing K] {s : K} (hs : 0 < s)

theorem pairSums_units : ∀ x : Series (XF K), pairSums (seriesInUnits s 0 x) = seriesInUnits s 0 (pairSums x)
  | [] => rfl
  | [_] => rfl
  | a :: b :: x => by
    have := pairSums_units x
    simp only [seriesInUnits] at this
    simp only [seriesInUnits, List.map_cons, pairSums, this, units_add2, add_zero]

theorem valuePairs_units : ∀ x : List (XF K), valuePairs (x.map (inUnits s 0)) = (valuePairs x).map fun r => (inUnits s 0 r.1, inUnits s 0 r.2)
  | [] => rfl
  | [_] => rfl
  | a :: b :: x => by
    simp only [List.map_cons, valuePairs, valuePairs_units x]

include hs

theorem wetValues_units (l : List (XF K)) : wetValues (l.map (inUnits s 0)) = (wetValues l).map (s * ·) := by
  unfold wetValues
  rw [List.filterMap_map, List.map_filterMap]
  congr 1
  funext x
  cases x <;> try rfl
  rename_i x
  simp only [Function.comp_def, inUnits, add_zero, scale_pos_iff hs]
  split <;> rfl

theorem npPercentile_units (v : List K) (p : K) : npPercentile (v.map (s * ·)) p = (npPercentile v p).map (s * ·) := by
  unfold npPercentile
  split
  · rfl
  · have hsort : (v.map (s * ·)).insertionSort (· ≤ ·) = (v.insertionSort (· ≤ ·)).map (s * ·) := by
      symm
      apply List.map_insertionSort
      intro a _ b _
      exact (mul_le_mul_iff_right₀ hs).symm
    simp only [hsort, List.length_map]
    generalize v.insertionSort (· ≤ ·) = w
    cases hl : w.length with
    | zero => rfl
    | succ n =>
      simp only [Except.map, getD_units]
      congr 1
      ring

theorem lt0_units (x : XF K) : XF.lt (.fin 0) (inUnits s 0 x) ↔ XF.lt (.fin 0) x := by
  have := lt_units (c := 0) hs (.fin 0) x
  simpa [inUnits] using this

theorem feq0_units (x : XF K) : XF.feq (inUnits s 0 x) (.fin 0) ↔ XF.feq x (.fin 0) := by
  have := feq_units (c := 0) hs x (.fin 0)
  simpa [inUnits] using this

theorem aggBoxType_units (p : Option (XF K)) (x : XF K) (n : Option (XF K)) :
    aggBoxType (p.map (inUnits s 0)) (inUnits s 0 x) (n.map (inUnits s 0)) = aggBoxType p x n := by
  unfold aggBoxType
  simp only [lt0_units hs]
  cases p <;> cases n <;> simp only [Option.map_none, Option.map_some, lt0_units hs, feq0_units hs]

theorem aggBoxTypes_units (p : Option (XF K)) (l : List (XF K)) : aggBoxTypes (p.map (inUnits s 0)) (l.map (inUnits s 0)) = aggBoxTypes p l := by
  induction l generalizing p with
  | nil => rfl
  | cons x l ih =>
    simp only [List.map_cons, aggBoxTypes, List.head?_map, aggBoxType_units hs]
    have := ih (some x)
    rw [Option.map_some] at this
    rw [this]

theorem aggStep_units (m : K) (a b : XF K) (ty : Option BoxType) (c : AggCounts) :
    aggStep (s * m) (inUnits s 0 a) (inUnits s 0 b) ty c = aggStep m a b ty c := by
  have hlt : XF.lt (.fin (s * m)) (inUnits s 0 (a + b)) ↔ XF.lt (.fin m) (a + b) := by
    have := lt_units (c := 0) hs (.fin m) (a + b)
    simpa only [inUnits, add_zero] using this
  have hsum : inUnits s 0 a + inUnits s 0 b = inUnits s 0 (a + b) := by rw [units_add2, add_zero]
  unfold aggStep
  simp only [hsum, lt0_units hs, hlt, feq0_units hs]
  cases a with
  | fin r1 =>
    cases b with
    | fin r2 =>
      simp only [inUnits, add_zero, scale_pos_iff hs, ← mul_add, mul_div_mul_left _ _ hs.ne']
    | _ => rfl
  | _ => cases b <;> rfl

theorem aggCount_units (m : K) (ps : List (XF K × XF K)) (ty : List (Option BoxType)) (c : AggCounts) :
    aggCount (s * m) (ps.map fun r => (inUnits s 0 r.1, inUnits s 0 r.2)) ty c = aggCount m ps ty c := by
  induction ps generalizing ty c with
  | nil => rfl
  | cons r ps ih =>
    cases ty with
    | nil => rfl
    | cons t ty =>
      simp only [List.map_cons, aggCount, aggStep_units hs, ih]

omit hs in
theorem finishStats_units (st : CascStats K) (c : AggCounts) : finishStats (st.inUnits s) c = (finishStats st c).inUnits s := by
  have hf : ∀ x : CascStats K, x.fillSample.inUnits s = (x.inUnits s).fillSample := fun _ => rfl
  unfold finishStats
  simp only [CascStats.inUnits, CascStats.fillSample]
  split <;> split <;> try split
  all_goals rfl

theorem aggregate_units (x : Series (XF K)) (p : K) :
    aggregatePrecipitation (seriesInUnits s 0 x) p = (aggregatePrecipitation x p).map fun r => (r.1.inUnits s, seriesInUnits s 0 r.2) := by
  unfold aggregatePrecipitation
  have hany : ((seriesInUnits s 0 x).any fun r => ! decide r.2.NanOrFin) = x.any fun r => ! decide r.2.NanOrFin := by
    unfold seriesInUnits
    rw [List.any_map]
    congr 1
    funext r
    obtain ⟨t, v⟩ := r
    cases v <;> rfl
  rw [hany, pairSums_units]
  have hv : ∀ y : Series (XF K), Series.values (seriesInUnits s 0 y) = y.values.map (inUnits s 0) := fun y => onValues_values _ y
  simp only [hv, wetValues_units hs, npPercentile_units hs, valuePairs_units]
  have ht := aggBoxTypes_units hs none (Series.values (pairSums x))
  rw [Option.map_none] at ht
  rw [ht]
  by_cases h : (x.any fun r => ! decide r.2.NanOrFin) = true
  · rw [if_pos h, if_pos h]; rfl
  · rw [if_neg h, if_neg h]
    simp only [bind, Except.bind]
    cases npPercentile (wetValues (Series.values (pairSums x))) p with
    | error e => rfl
    | ok m =>
      simp only [Except.map]
      cases aggBoxTypes none (Series.values (pairSums x)) with
      | error e => rfl
      | ok ty =>
        simp only [aggCount_units hs]
        rw [← finishStats_units]
        simp [CascStats.inUnits, inUnits]

theorem levelStatsLoop_units (p : K) (k : Nat) (x : Series (XF K)) (acc : CascStats K) (n : Nat) :
    levelStatsLoop p k (seriesInUnits s 0 x) acc n = (levelStatsLoop p k x acc n).map fun r => (r.1.map (CascStats.inUnits s), r.2) := by
  induction k generalizing x acc n with
  | zero => rfl
  | succ k ih =>
    simp only [levelStatsLoop]
    rw [aggregate_units hs]
    simp only [bind, Except.bind]
    cases aggregatePrecipitation x p with
    | error e => rfl
    | ok r =>
      simp only [Except.map]
      have hl : (seriesInUnits s 0 r.2).length = r.2.length := by simp [seriesInUnits]
      rw [hl, ih]
      have ha : acc.add ((r.1.inUnits s).scale (.fin (r.2.length : K))) = acc.add (r.1.scale (.fin (r.2.length : K))) := rfl
      rw [ha]
      cases levelStatsLoop p k r.2 (acc.add (r.1.scale (.fin (r.2.length : K)))) (n + r.2.length) with
      | error e => rfl
      | ok q => rfl

theorem seasonStats_units (x : Series (XF K)) (k : Nat) (avg : Bool) (p : K) :
    seasonStats (seriesInUnits s 0 x) k avg p = (seasonStats x k avg p).map (seasonUnits s) := by
  unfold seasonStats
  rw [levelStatsLoop_units hs]
  simp only [bind, Except.bind]
  cases levelStatsLoop p k x { CascStats.init with percentile := p } 0 with
  | error e => rfl
  | ok r =>
    simp only [Except.map]
    by_cases h : r.2.2 = 0
    · rw [if_pos h, if_pos h]; rfl
    · rw [if_neg h, if_neg h]
      cases avg with
      | true =>
        simp only [if_true, seasonUnits, CascStats.inUnits]
        congr 3
        rw [List.map_map, List.map_map]
        apply List.map_congr_left
        intro c _
        simp only [Function.comp_def]
        show (c.threshold.map (inUnits s 0)).headD .nan = _
        cases c.threshold <;> rfl
      | false => simp [seasonUnits]

omit hs in
theorem seasonalSubset_units {V W : Type} (φ : V → W) (x : Series V) (ms : List Int) :
    seasonalSubset (onValues φ x) ms = (seasonalSubset x ms).map (onValues φ) := by
  unfold seasonalSubset
  cases ms with
  | nil => rfl
  | cons m ms =>
    simp only [Except.map]
    congr 1
    have h : ∀ m, monthRows (onValues φ x) m = onValues φ (monthRows x m) := fun m => onValues_filter φ (fun t => monthOf t == m) x
    have h2 : (m :: ms).flatMap (monthRows (onValues φ x)) = onValues φ ((m :: ms).flatMap (monthRows x)) := by
      unfold onValues
      rw [List.map_flatMap]
      congr 1
      funext k
      exact h k
    rw [h2]
    unfold onValues
    symm
    apply List.map_insertionSort
    intros
    rfl

omit hs in
theorem fillna0_units (x : Series (XF K)) : fillna0 (seriesInUnits s 0 x) = seriesInUnits s 0 (fillna0 x) := by
  unfold fillna0 seriesInUnits
  rw [List.map_map, List.map_map]
  apply List.map_congr_left
  intro r _
  simp only [Function.comp_def, inUnits_isNan]
  split <;> simp [inUnits]

theorem buildLoop_units (k : Nat) (avg : Bool) (p : K) (x : Series (XF K)) (seasons : List (List Int)) :
    buildLoop k avg p (seriesInUnits s 0 x) seasons =
      (seriesInUnits s 0 (buildLoop k avg p x seasons).1, (buildLoop k avg p x seasons).2.map (List.map (seasonUnits s))) := by
  induction seasons generalizing x with
  | nil => rfl
  | cons ms seasons ih =>
    simp only [buildLoop]
    have h := seasonalSubset_units (inUnits s 0) x ms
    rw [show onValues (inUnits s 0) x = seriesInUnits s 0 x from rfl] at h
    rw [h]
    cases seasonalSubset x ms with
    | error e => rfl
    | ok vdn =>
      simp only [Except.map]
      rw [show onValues (inUnits s 0) vdn = seriesInUnits s 0 vdn from rfl, seasonStats_units hs, fillna0_units]
      cases seasonStats vdn k avg p with
      | error e => rfl
      | ok st =>
        simp only [Except.map, ih]
        cases (buildLoop k avg p (fillna0 x) seasons).2 <;> rfl

theorem buildCasc_units (x : Series (XF K)) (hourly : Bool) (level : Nat) (months : Option (List (List Int))) (avg : Bool) (p : K) :
    buildCasc (seriesInUnits s 0 x) hourly level months avg p =
      (seriesInUnits s 0 (buildCasc x hourly level months avg p).1, (buildCasc x hourly level months avg p).2.map (List.map (seasonUnits s))) :=
  buildLoop_units hs _ avg p x _

end

end Melodist
