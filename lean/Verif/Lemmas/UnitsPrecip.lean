import Verif.Lemmas.UnitsWind
import Verif.Spec.UnitsPrecip
import Verif.Lemmas.Cascade

/-!
# Change of units: precipitation
-/

set_option linter.unusedSectionVars false

namespace Melodist
open Spec

section
variable {K : Type} [Field K] [LinearOrder K] [IsStrictOrderedRing K] {s : K} (hs : 0 < s)

/-! ### the cascade -/

section run
variable [FloorRing K]
include hs

theorem scale_pos_iff (x : K) : 0 < s * x ↔ 0 < x := by
  constructor
  · intro h; by_contra hn; exact absurd h (not_lt.2 (mul_nonpos_of_nonneg_of_nonpos hs.le (not_lt.1 hn)))
  · exact mul_pos hs

theorem scale_zero_iff (x : K) : s * x = 0 ↔ x = 0 := by simp [hs.ne']

theorem boxType_units (p n : Option K) (st : Option BoxType) : boxType (p.map (s * ·)) (n.map (s * ·)) st = boxType p n st := by
  unfold boxType
  cases p <;> cases n <;> simp only [Option.map_none, Option.map_some, scale_pos_iff hs, scale_zero_iff hs]

theorem boxStep_units (rnd : Nat → K) (c : CascStats K) (m : XF K) (p : Option K) (x : K) (n : Option K) (st : CascVars K) (c' : CascStats K)
    (h01 : c'.p01 = c.p01) (h10 : c'.p10 = c.p10) (hw : c'.wxx = c.wxx) :
    boxStep rnd c' (inUnits s 0 m) (p.map (s * ·)) (s * x) (n.map (s * ·)) st =
      (boxStep rnd c m p x n st).map fun r => ((s * r.1.1, s * r.1.2), r.2) := by
  have hwc : ∀ k, wxxcum c' k = wxxcum c k := by
    intro k
    induction k with
    | zero => funext b t; simp [wxxcum, hw]
    | succ k ih => funext b t; simp only [wxxcum, hw, ih]
  have hg : ∀ b t r w, guessW1 c' b t r w = guessW1 c b t r w := by
    intro b t r w
    unfold guessW1
    simp only [hwc]
  have hlt : XF.lt (inUnits s 0 m) (.fin (s * x)) ↔ XF.lt m (.fin x) := by
    have := lt_units (c := 0) hs m (.fin x)
    simpa only [inUnits, add_zero] using this
  unfold boxStep
  simp only [scale_pos_iff hs, boxType_units hs, hlt, h01, h10, hg]
  split
  · simp only [bind, Except.bind]
    cases boxType p n st.vbtype with
    | error e => rfl
    | ok vb =>
      simp only
      cases vb with
      | none => rfl
      | some ty =>
        simp only
        generalize (if XF.lt m (.fin x) then (1 : Fin 2) else 0) = b
        split
        · simp [Except.map]
        · split
          · simp [Except.map]
          · cases guessW1 c b ty.col (rnd (st.draws + 1)) st.w1 with
            | none => rfl
            | some w =>
              simp only
              split
              · rfl
              · simp only [Except.map]
                congr 3 <;> ring
  · simp [Except.map]

theorem boxLoop_units (rnd : Nat → K) (c : CascStats K) (m : XF K) (c' : CascStats K)
    (h01 : c'.p01 = c.p01) (h10 : c'.p10 = c.p10) (hw : c'.wxx = c.wxx) (p : Option K) (l : List K) (st : CascVars K) :
    boxLoop rnd c' (inUnits s 0 m) (p.map (s * ·)) (l.map (s * ·)) st = (boxLoop rnd c m p l st).map fun r => (r.1.map (s * ·), r.2) := by
  induction l generalizing p st with
  | nil => rfl
  | cons x l ih =>
    simp only [List.map_cons, boxLoop, List.head?_map]
    rw [boxStep_units hs rnd c m p x l.head? st c' h01 h10 hw]
    simp only [bind, Except.bind]
    cases boxStep rnd c m p x l.head? st with
    | error e => rfl
    | ok r =>
      simp only [Except.map]
      have := ih (some x) r.2
      rw [Option.map_some] at this
      rw [this]
      cases boxLoop rnd c m (some x) l r.2 with
      | error e => rfl
      | ok q => rfl

end run

theorem levelStats_units (o : CascOptions K) (si : Nat) :
    levelStats (o.inUnits s) si = (levelStats o si).map fun r => (r.1.inUnits s, Spec.inUnits s 0 r.2) := by
  unfold levelStats
  cases o with
  | one c =>
    simp only [CascOptions.inUnits, CascStats.inUnits, List.getElem?_map]
    cases c.threshold[si]? <;> rfl
  | many l =>
    simp only [CascOptions.inUnits, List.getElem?_map]
    cases l[si]? with
    | none => rfl
    | some c =>
      simp only [Option.map_some, CascStats.inUnits, List.getElem?_map]
      cases c.threshold[0]? <;> rfl
  | other => rfl

theorem checkOptions_units (o : CascOptions K) (si : Nat) : checkOptions (o.inUnits s) si = checkOptions o si := by
  unfold checkOptions
  cases o <;> simp [CascOptions.inUnits]

include hs in
theorem levelLoop_units [FloorRing K] (rnd : Nat → K) (o : CascOptions K) (si : Nat) (v : List K) (st : CascVars K) :
    levelLoop rnd (o.inUnits s) si (v.map (s * ·)) st = (levelLoop rnd o si v st).map (List.map (List.map (s * ·))) := by
  induction si generalizing v st with
  | zero => rfl
  | succ si ih =>
    simp only [levelLoop]
    rw [levelStats_units]
    simp only [bind, Except.bind]
    cases levelStats o si with
    | error e => rfl
    | ok c =>
      simp only [Except.map]
      have := boxLoop_units hs rnd c.1 c.2 (c.1.inUnits s) rfl rfl rfl none v st
      rw [Option.map_none] at this
      rw [this]
      cases boxLoop rnd c.1 c.2 none v st with
      | error e => rfl
      | ok q =>
        simp only [Except.map]
        rw [ih]
        cases levelLoop rnd o si q.1 q.2 with
        | error e => rfl
        | ok r => rfl

theorem quarterHours_units (v : List K) : quarterHours (v.map (s * ·)) = (quarterHours v).map (s * ·) := by
  unfold quarterHours
  induction v with
  | nil => rfl
  | cons x v ih =>
    simp only [List.map_cons, List.flatMap_cons, List.map_append, ih, List.map_nil]
    congr 1
    simp only [mul_div_assoc]

theorem cumsum_units (a : K) (v : List K) : cumsum (s * a) (v.map (s * ·)) = (cumsum a v).map (s * ·) := by
  induction v generalizing a with
  | nil => rfl
  | cons x v ih =>
    simp only [List.map_cons, cumsum, ← mul_add, ih]

theorem getD_units (v : List K) (k : Nat) : (v.map (s * ·)).getD k 0 = s * v.getD k 0 := by
  simp only [List.getD_eq_getElem?_getD, List.getElem?_map]
  cases v[k]? <;> simp

theorem hourlyFromQuarter_units (q : List K) : hourlyFromQuarter (q.map (s * ·)) = (hourlyFromQuarter q).map (s * ·) := by
  unfold hourlyFromQuarter
  have h := cumsum_units (s := s) 0 q
  rw [mul_zero] at h
  simp only [h, List.length_map, List.map_map, getD_units]
  apply List.map_congr_left
  intro k _
  simp only [Function.comp_def]
  split
  · rfl
  · ring

theorem make_units {V W : Type} (φ : V → W) (idx : List Time) (v : List V) : Series.make idx (v.map φ) = (Series.make idx v).map (onValues φ) := by
  unfold Series.make
  rw [List.length_map]
  split
  · simp only [Except.map, onValues, List.zip_map_right]
    rfl
  · rfl

theorem resample5min_units (x : Series K) : resample5min (onValues (s * ·) x) = onValues (s * ·) (resample5min x) := by
  unfold resample5min
  rw [onValues_index]
  cases x.index.min? <;> cases x.index.max? <;> try rfl
  rename_i a b
  simp only [onValues, List.map_map]
  apply List.map_congr_left
  intro k _
  simp only [Function.comp_def]
  rw [show (List.map (fun r : Time × K => (r.1, s * r.2)) x) = onValues (s * ·) x from rfl,
    onValues_filter (s * ·) (fun t => t / (5 * MINUTE) == _)]
  simp only [onValues, List.map_map, Function.comp_def, List.sum_map_mul_left]

theorem assemble_units (api : PandasApi) (idx : List Time) (hourly : Bool) (level : Nat) (v : List K) :
    assembleSeries api idx hourly level (v.map (s * ·)) = (assembleSeries api idx hourly level v).map fun r => (r.1.map (s * ·), onValues (s * ·) r.2) := by
  unfold assembleSeries
  simp only [quarterHours_units, hourlyFromQuarter_units, make_units]
  split
  · simp only [bind, Except.bind]
    cases hourlyIndex api idx with
    | error e => rfl
    | ok i =>
      simp only
      cases Series.make i (hourlyFromQuarter (quarterHours v)) <;> rfl
  · simp only [bind, Except.bind]
    cases subLevelIndex api idx level with
    | error e => rfl
    | ok i =>
      simp only
      cases Series.make i v with
      | error e => rfl
      | ok z => simp only [Except.map, resample5min_units]

theorem zeroMissing_units (l : List (XF K)) : zeroMissing (l.map (inUnits s 0)) = (zeroMissing l).map (List.map (s * ·)) := by
  induction l with
  | nil => rfl
  | cons x l ih =>
    cases x <;> simp only [List.map_cons, inUnits, zeroMissing, ih, bind, Except.bind] <;> try rfl
    all_goals cases zeroMissing l <;> simp [Except.map]

theorem restore_units (m : List Time) (x : Series K) : restoreMissing m (onValues (s * ·) x) = seriesInUnits s 0 (restoreMissing m x) := by
  unfold restoreMissing onValues seriesInUnits
  simp only [List.map_map]
  apply List.map_congr_left
  intro r _
  simp only [Function.comp_def]
  split <;> simp [inUnits]

theorem onValues_shiftRows (ψ : XF K → XF K) (hψ : ψ .nan = .nan) (x : Series (XF K)) (k : Int) :
    Series.shiftRows (onValues ψ x) k = onValues ψ (Series.shiftRows x k) := by
  unfold Series.shiftRows
  rw [onValues_values]
  unfold onValues
  rw [List.zipIdx_map, List.map_map, List.map_map]
  apply List.map_congr_left
  intro r _
  simp only [Function.comp_def, Prod.map, List.getElem?_map]
  congr 1
  show (if 0 ≤ (r.2 : Int) - k then ((x.values[((r.2 : Int) - k).toNat]?).map ψ).getD .nan else .nan) =
    ψ (if 0 ≤ (r.2 : Int) - k then (x.values[((r.2 : Int) - k).toNat]?).getD .nan else .nan)
  by_cases h : 0 ≤ (r.2 : Int) - k
  · rw [if_pos h, if_pos h]
    cases x.values[((r.2 : Int) - k).toNat]? with
    | none => exact hψ.symm
    | some y => rfl
  · rw [if_neg h, if_neg h]
    exact hψ.symm

include hs in
theorem cascade_units [FloorRing K] (api : PandasApi) (rnd : Nat → K) (x : Series (XF K)) (o : CascOptions K) (hourly : Bool) (level : Nat) (shift : Int) (test : Bool) :
    disaggPrecCascade api rnd (seriesInUnits s 0 x) (o.inUnits s) hourly level shift test =
      (disaggPrecCascade api rnd x o hourly level shift test).map (CascadeOut.inUnits s) := by
  unfold disaggPrecCascade
  have hmiss : ((seriesInUnits s 0 x).filter fun r => r.2.isNan).map Prod.fst = (x.filter fun r => r.2.isNan).map Prod.fst := by
    unfold seriesInUnits
    rw [List.filter_map, List.map_map]
    simp only [Function.comp_def, inUnits_isNan]
  rw [hmiss]
  have hlen : (seriesInUnits s 0 x).length = x.length := by simp [seriesInUnits]
  rw [hlen, index_units]
  split
  · rfl
  · rw [show Series.values (seriesInUnits s 0 x) = x.values.map (inUnits s 0) from onValues_values _ _, zeroMissing_units]
    simp only [bind, Except.bind]
    cases zeroMissing x.values with
    | error e => rfl
    | ok v =>
      simp only [Except.map]
      generalize (if hourly = true then 5 else level) = si
      split
      · rfl
      · rw [checkOptions_units]
        cases checkOptions o si with
        | error e => rfl
        | ok _ =>
          simp only
          rw [levelLoop_units hs]
          cases levelLoop rnd o si v {} with
          | error e => rfl
          | ok levels =>
            simp only [Except.map]
            have hl : (levels.map (List.map (s * ·))).getLastD [] = (levels.getLastD []).map (s * ·) := by
              simp only [List.getLastD_eq_getLast?, List.getLast?_map]
              cases levels.getLast? <;> rfl
            rw [hl, assemble_units]
            cases assembleSeries api x.index hourly level (levels.getLastD []) with
            | error e => rfl
            | ok r =>
              simp only [Except.map, restore_units]
              split
              · rfl
              · congr 2
                split
                · exact onValues_shiftRows _ rfl _ _
                · rfl

/-! ### master station -/

theorem masterDay_units {u : K} (hs : 0 < s) (hu : 0 < u) (z : String) (d : Int) (p : XF K) (m acc : Series (XF K)) :
    masterDay z d (inUnits s 0 p) (seriesInUnits u 0 m) (seriesInUnits s 0 acc) = (masterDay z d p m acc).map (seriesInUnits s 0) := by
  unfold masterDay
  have ht : sumSkip (Series.values (seriesInUnits u 0 m)) = inUnits u 0 (sumSkip m.values) := by
    rw [show Series.values (seriesInUnits u 0 m) = m.values.map (inUnits u 0) from onValues_values _ _, sumSkip_units]
  have h0 : ∀ y : XF K, XF.feq (inUnits u 0 y) (.fin 0) ↔ XF.feq y (.fin 0) := by
    intro y
    have := feq_units (c := 0) hu y (.fin 0)
    simpa [inUnits] using this
  rw [ht]
  generalize sumSkip m.values = tot
  have h1 : (XF.feq (inUnits u 0 tot) (if (inUnits u 0 tot).isNan then .fin 1 else .fin 0)) ↔ XF.feq tot (if tot.isNan then .fin 1 else .fin 0) := by
    rw [inUnits_isNan]
    cases tot with
    | nan => exact Iff.rfl
    | fin x => exact h0 _
    | pinf => exact Iff.rfl
    | ninf => exact Iff.rfl
  by_cases hc : ¬ XF.feq tot (.fin 0) ∧ ¬ XF.feq tot (if tot.isNan then .fin 1 else .fin 0)
  · rw [if_pos hc, if_pos (by rw [h0, h1]; exact hc)]
    have hrel : List.map (fun r => (r.1, r.2 / inUnits u 0 tot * inUnits s 0 p)) (seriesInUnits u 0 m) =
        seriesInUnits s 0 (m.map fun r => (r.1, r.2 / tot * p)) := by
      unfold seriesInUnits
      rw [List.map_map, List.map_map]
      apply List.map_congr_left
      intro r _
      simp only [Function.comp_def, units_div_div hu, units_mul' hs]
    rw [hrel]
    generalize hgen : (m.map fun r => (r.1, r.2 / tot * p) : Series (XF K)) = rel
    have hacc : ((seriesInUnits s 0 acc).filter fun r => dayOf r.1 == d).map Prod.fst = (acc.filter fun r => dayOf r.1 == d).map Prod.fst := by
      rw [show seriesInUnits s 0 acc = onValues (inUnits s 0) acc from rfl, onValues_filter _ (fun t => dayOf t == d)]
      simp [onValues, Function.comp_def]
    dsimp only
    rw [index_units, hacc]
    have e : ∀ t, ((seriesInUnits s 0 rel).at? t).getD .nan = inUnits s 0 ((Series.at? rel t).getD .nan) := fun t =>
      onValues_getD (inUnits s 0) rfl _ t
    simp only [e, bind, Except.bind]
    split
    · simp only [Except.map]
      congr 1
      unfold seriesInUnits
      rw [List.map_map, List.map_map]
      apply List.map_congr_left
      intro r _
      simp only [Function.comp_def]
      split <;> rfl
    · rfl
  · rw [if_neg hc, if_neg (by rw [h0, h1]; exact hc)]
    split
    · simp only [Except.map]
      congr 1
      unfold seriesInUnits
      rw [List.map_map, List.map_map]
      apply List.map_congr_left
      intro r _
      simp only [Function.comp_def, units_mul' hs]
      split <;> rfl
    · simp only [Except.map]
      congr 1
      unfold seriesInUnits
      rw [List.map_map, List.map_map]
      apply List.map_congr_left
      intro r _
      simp only [Function.comp_def]
      split <;> simp [inUnits]

theorem onValues_selectDate {V W : Type} (φ : V → W) (m : Series V) (d : Int) :
    selectDate (onValues φ m) d = (selectDate m d).map (onValues φ) := by
  unfold selectDate
  have h1 : ∀ p : Time → Bool, (onValues φ m).all (fun q => p q.1) = m.all fun q => p q.1 := by
    intro p; simp [onValues, List.all_map, Function.comp_def]
  have h2 : (onValues φ m).isEmpty = m.isEmpty := by simp [onValues]
  have h3 : (onValues φ m).map Prod.fst = m.map Prod.fst := onValues_index φ m
  rw [h1 fun t => t % DAY == 0, h1 fun t => decide (d < dayOf t), h1 fun t => decide (dayOf t < d), h2, h3, onValues_filter φ fun t => dayOf t == d]
  split
  · split <;> rfl
  · split <;> rfl

theorem master_units {u : K} (hs : 0 < s) (hu : 0 < u) (api : PandasApi) (x m : Series (XF K)) (z : String) :
    precipMasterStation api (seriesInUnits s 0 x) (seriesInUnits u 0 m) z = (precipMasterStation api x m z).map (seriesInUnits s 0) := by
  unfold precipMasterStation
  rw [index_units]
  simp only [bind, Except.bind]
  cases hourlyIndex api x.index with
  | error e => rfl
  | ok idx =>
    simp only
    cases needs api.seriesIteritems with
    | error e => rfl
    | ok _ =>
      simp only
      have hst : (idx.map fun t => (t, (XF.nan : XF K))) = seriesInUnits s 0 (idx.map fun t => (t, XF.nan)) := by
        simp [seriesInUnits, Function.comp_def, inUnits]
      conv_lhs => rw [hst]
      generalize (idx.map fun t => (t, (XF.nan : XF K))) = acc
      induction x generalizing acc with
      | nil => rfl
      | cons r x ih =>
        simp only [seriesInUnits, List.map_cons, List.foldlM_cons]
        rw [show (List.map (fun r : Time × XF K => (r.1, inUnits u 0 r.2)) m) = onValues (inUnits u 0) m from rfl, onValues_selectDate]
        simp only [bind, Except.bind]
        cases selectDate m (dayOf r.1) with
        | error e => rfl
        | ok sel =>
          simp only [Except.map]
          have := masterDay_units hs hu z (dayOf r.1) r.2 sel acc
          simp only [seriesInUnits] at this
          rw [show onValues (inUnits u 0) sel = sel.map fun r => (r.1, inUnits u 0 r.2) from rfl, this]
          cases masterDay z (dayOf r.1) r.2 sel acc with
          | error e => rfl
          | ok acc' => exact ih acc'

end

end Melodist
