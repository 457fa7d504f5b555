import Verif.Lemmas.Units
import Verif.Model.Wind
import Verif.Model.Radiation
import Verif.Props.Wind

/-!
# Change of units: wind and radiation
-/

set_option linter.unusedSectionVars false

namespace Melodist
open Spec

section distribute
variable {K : Type} (ψ : XF K → XF K) (hψ : ψ .nan = .nan) (hn : ∀ x, (ψ x).isNan = x.isNan)
include hψ

theorem onValues_reindex (s : Series (XF K)) (idx : List Time) :
    Series.reindex (onValues ψ s) idx = (Series.reindex s idx).map (onValues ψ) := by
  unfold Series.reindex
  rw [onValues_index]
  split
  · simp only [Except.map, onValues_getD ψ hψ]
    simp [onValues, Function.comp_def]
  · rfl

include hn in
theorem ffillAux_map (limit : Nat) (last : Option (XF K)) (cnt : Nat) (l : List (XF K)) :
    ffillAux limit (last.map ψ) cnt (l.map ψ) = (ffillAux limit last cnt l).map ψ := by
  induction l generalizing last cnt with
  | nil => rfl
  | cons x l ih =>
    simp only [List.map_cons, ffillAux, hn]
    split
    · cases last with
      | none => simp only [Option.map_none, List.map_cons, hψ]; exact congrArg _ (ih none cnt)
      | some v =>
        simp only [Option.map_some, List.map_cons]
        rw [← ih (some v) (cnt + 1)]
        split <;> simp [hψ]
    · simp only [List.map_cons]
      exact congrArg _ (ih (some x) 0)

theorem scatter_map (key : Time → Int) (st : Int → List (XF K)) (ts : List Time) :
    scatter key (fun k => (st k).map ψ) ts = (scatter key st ts).map ψ := by
  induction ts generalizing st with
  | nil => rfl
  | cons t ts ih =>
    simp only [scatter, List.map_cons]
    rw [← ih]
    congr 1
    · cases st (key t) <;> simp [hψ]
    · congr 1
      funext k
      split <;> simp

theorem onValues_groupTransform (key : Time → Int) (f : List (XF K) → List (XF K)) (hf : ∀ l, f (l.map ψ) = (f l).map ψ) (s : Series (XF K)) :
    groupTransform key f (onValues ψ s) = onValues ψ (groupTransform key f s) := by
  unfold groupTransform
  rw [onValues_index]
  have : ∀ k, ((onValues ψ s).filter fun r => key r.1 == k).map Prod.snd = ((s.filter fun r => key r.1 == k).map Prod.snd).map ψ := by
    intro k
    rw [onValues_filter ψ (fun t => key t == k)]
    simp [onValues]
  simp only [this, hf]
  rw [scatter_map ψ hψ key, List.zip_map_right]
  rfl

include hn in
theorem onValues_distribute [Field K] [LinearOrder K] (api : PandasApi) (s : Series (XF K)) :
    distributeEqually api (onValues ψ s) = (distributeEqually api s).map (onValues ψ) := by
  unfold distributeEqually
  rw [onValues_index]
  simp only [bind, Except.bind, Bool.false_eq_true, if_false]
  cases hourlyIndex api s.index with
  | error e => rfl
  | ok idx =>
    simp only [onValues_reindex ψ hψ]
    cases s.reindex idx with
    | error e => rfl
    | ok h =>
      simp only [Except.map]
      rw [onValues_groupTransform ψ hψ domOf (ffill 23) (fun l => ffillAux_map ψ hψ hn 23 none 0 l)]

end distribute

theorem distribute_units {K : Type} [Field K] [LinearOrder K] [IsStrictOrderedRing K] {s : K} (hs : 0 < s) (api : PandasApi) (x : Series (XF K)) (divide : Bool) :
    distributeEqually api (seriesInUnits s 0 x) divide = (distributeEqually api x divide).map (seriesInUnits s 0) := by
  cases divide with
  | false => exact onValues_distribute _ rfl inUnits_isNan api x
  | true =>
    have h := onValues_distribute (inUnits s 0) rfl inUnits_isNan api x
    have e : ∀ y : Series (XF K), distributeEqually api y true = (distributeEqually api y).map fun z => z.map fun r => (r.1, r.2 / .fin 24) := by
      intro y
      unfold distributeEqually
      simp only [bind, Except.bind, if_true, Bool.false_eq_true, if_false]
      cases hourlyIndex api y.index with
      | error e => rfl
      | ok idx => simp only; cases y.reindex idx <;> rfl
    rw [e, e]
    rw [show seriesInUnits s 0 x = onValues (inUnits s 0) x from rfl, h]
    cases distributeEqually api x with
    | error e => rfl
    | ok z =>
      simp only [Except.map, onValues, seriesInUnits, List.map_map, Function.comp_def, units_div hs]

theorem mapM_through {A A' B B' : Type} (f : A → Py B) (g : A' → Py B') (φ : A → A') (ψ : B → B') (h : ∀ r, g (φ r) = (f r).map ψ)
    (l : List A) : (l.map φ).mapM g = (l.mapM f).map (List.map ψ) := by
  induction l with
  | nil => rfl
  | cons r l ih =>
    rw [List.map_cons, List.mapM_cons, List.mapM_cons, h, ih]
    cases f r with
    | error e => rfl
    | ok b =>
      cases l.mapM f with
      | error e => rfl
      | ok l => rfl

/-! ### wind -/

/-- a result of `disaggregate_wind` in other units -/
noncomputable def WindResult.inUnits (s : ℝ) : WindResult → WindResult
  | .series x => .series (seriesInUnits s 0 x)
  | .array l => .array (l.map (Spec.inUnits s 0))

theorem cosineCell_units {s : ℝ} (hs : 0 < s) (a b p : ℝ) (m : XF ℝ) (t : Int) :
    cosineCell a b p (inUnits s 0 m) t = inUnits s 0 (cosineCell a b p m t) := by
  unfold cosineCell
  rw [units_mul' hs, units_mul' hs, units_mul hs, units_add hs]

theorem disaggregateWind_units {s : ℝ} (hs : 0 < s) (api : PandasApi) (draw : Nat → ℝ) (x : Series (XF ℝ)) (method : String) (a b p : Option ℝ) :
    disaggregateWind api draw (seriesInUnits s 0 x) method a b p = (disaggregateWind api draw x method a b p).map (WindResult.inUnits s) := by
  unfold disaggregateWind
  rw [distribute_units hs]
  by_cases hm : ¬ (method = "equal" ∨ method = "cosine" ∨ method = "random")
  · simp only [if_pos hm]; rfl
  · simp only [if_neg hm, bind, Except.bind]
    cases distributeEqually api x with
    | error e => rfl
    | ok y =>
      simp only [Except.map]
      split
      · rfl
      · split
        · cases a <;> cases b <;> cases p <;> try rfl
          simp only [seriesInUnits, List.map_map, Function.comp_def, cosineCell_units hs, WindResult.inUnits]
        · simp only [WindResult.inUnits, seriesInUnits, List.map_map]
          rw [List.zipIdx_map, List.map_map]
          simp only [Function.comp_def, Prod.map, units_mul hs]
          rfl

/-- rows of the fit in other units -/
noncomputable def fitRowsUnits (s : ℝ) (rows : List (ℝ × Int × ℝ)) : List (ℝ × Int × ℝ) := rows.map fun r => (s * r.1, r.2.1, s * r.2.2)

theorem fitRows_units {s : ℝ} (x : Series (XF ℝ)) : fitRows (seriesInUnits s 0 x) = (fitRows x).map (fitRowsUnits s) := by
  unfold fitRows
  simp only [groupbyDate_units meanSkip_units]
  have e : ∀ t, ((seriesInUnits s 0 (x.groupbyDate meanSkip)).at? t).getD .nan = inUnits s 0 (((x.groupbyDate meanSkip).at? t).getD .nan) := fun t =>
    onValues_getD (inUnits s 0) rfl _ t
  simp only [e]
  generalize x.groupbyDate meanSkip = d
  have e2 : (List.map (fun r => (inUnits s 0 ((Series.at? d (midnight (dayOf r.1))).getD .nan), hourOf r.1, r.2)) (seriesInUnits s 0 x)) =
      (x.map fun r => ((d.at? (midnight (dayOf r.1))).getD .nan, hourOf r.1, r.2)).map fun r => (inUnits s 0 r.1, r.2.1, inUnits s 0 r.2.2) := by
    simp [seriesInUnits, Function.comp_def]
  rw [e2, List.filter_map]
  simp only [Function.comp_def, inUnits_isNan]
  generalize ((x.map fun r => ((d.at? (midnight (dayOf r.1))).getD .nan, hourOf r.1, r.2)).filter _) = rows
  refine mapM_through _ _ _ _ ?_ rows
  rintro ⟨m, h, y⟩
  cases m <;> cases y <;> try rfl
  simp [inUnits, Except.map]

theorem leastSquares_units {s : ℝ} (hs : 0 < s) (rows : List (ℝ × Int × ℝ)) (p : ℝ × ℝ × ℝ) :
    IsLeastSquares (fitRowsUnits s rows) p ↔ IsLeastSquares rows p := by
  have e : ∀ q : ℝ × ℝ × ℝ, ((fitRowsUnits s rows).map fun r => (q.1 * r.1 * Real.cos (Real.pi * ((r.2.1 : ℝ) - q.2.2) / 12) + q.2.1 * r.1 - r.2.2) ^ 2).sum =
      s ^ 2 * (rows.map fun r => (q.1 * r.1 * Real.cos (Real.pi * ((r.2.1 : ℝ) - q.2.2) / 12) + q.2.1 * r.1 - r.2.2) ^ 2).sum := by
    intro q
    rw [← List.sum_map_mul_left]
    unfold fitRowsUnits
    rw [List.map_map]
    congr 1
    apply List.map_congr_left
    intro r _
    simp only [Function.comp_def]
    ring
  unfold IsLeastSquares
  simp only [e]
  exact forall_congr' fun q => mul_le_mul_iff_right₀ (by positivity)

/-! ### radiation -/

/-- what the threshold of 0.01 does to a value -/
noncomputable def cut01 (v : XF ℝ) : XF ℝ := if XF.lt v (.fin 0.01) then .fin 0 else v

theorem radiationCore_cut (pot daily : Series (XF ℝ)) : radiationCore pot daily = (do
    let g ← daily.reindexFfill pot.index
    let p ← (pot.resampleD meanSkip).reindexFfill pot.index
    .ok ((pot.zip (p.values.zip g.values)).map fun r => (r.1.1, cut01 (r.1.2 / r.2.1 * r.2.2)))) := rfl

/-- the hourly values before the cut -/
noncomputable def radiationRaw (pot daily : Series (XF ℝ)) : Py (Series (XF ℝ)) := do
    let g ← daily.reindexFfill pot.index
    let p ← (pot.resampleD meanSkip).reindexFfill pot.index
    .ok ((pot.zip (p.values.zip g.values)).map fun r => (r.1.1, r.1.2 / r.2.1 * r.2.2))

theorem core_raw (pot daily : Series (XF ℝ)) : radiationCore pot daily = (radiationRaw pot daily).map (onValues cut01) := by
  rw [radiationCore_cut]
  unfold radiationRaw
  simp only [bind, Except.bind]
  cases daily.reindexFfill pot.index with
  | error e => rfl
  | ok g =>
    cases (pot.resampleD meanSkip).reindexFfill pot.index with
    | error e => rfl
    | ok p => simp [Except.map, onValues, Function.comp_def]

theorem raw_units {s u : ℝ} (hs : 0 < s) (hu : 0 < u) (pot daily : Series (XF ℝ)) :
    radiationRaw (seriesInUnits u 0 pot) (seriesInUnits s 0 daily) = (radiationRaw pot daily).map (seriesInUnits s 0) := by
  unfold radiationRaw
  simp only [index_units, resampleD_units meanSkip_units]
  rw [show seriesInUnits s 0 daily = onValues (inUnits s 0) daily from rfl,
    show seriesInUnits u 0 (pot.resampleD meanSkip) = onValues (inUnits u 0) (pot.resampleD meanSkip) from rfl,
    onValues_reindexFfill _ rfl, onValues_reindexFfill _ rfl]
  simp only [bind, Except.bind]
  cases daily.reindexFfill pot.index with
  | error e => rfl
  | ok g =>
    cases (pot.resampleD meanSkip).reindexFfill pot.index with
    | error e => rfl
    | ok p =>
      simp only [Except.map, onValues_values]
      congr 1
      unfold seriesInUnits
      rw [List.zip_map, List.zip_map, List.map_map, List.map_map]
      apply List.map_congr_left
      intro r _
      simp only [Function.comp_def, Prod.map, units_div_div hu, units_mul' hs]

theorem onValues_locAll {V W : Type} (φ : V → W) (x : Series V) (idx : List Time) :
    Series.locAll (onValues φ x) idx = (Series.locAll x idx).map (onValues φ) := by
  unfold Series.locAll
  conv_lhs => rw [← List.map_id idx]
  have := mapM_through (fun t => match x.at? t with | some v => (.ok (t, v) : Py (Time × V)) | none => .error .keyError)
    (fun t => match (onValues φ x).at? t with | some v => (.ok (t, v) : Py (Time × W)) | none => .error .keyError) id (fun r => (r.1, φ r.2))
    (by
      intro t
      simp only [id, onValues_at?]
      cases x.at? t <;> rfl) idx
  exact this

theorem onValues_align {K : Type} (f : XF K → XF K → XF K) (ψ : XF K → XF K) (hψ : ψ .nan = .nan) (h : ∀ a b, f a (ψ b) = ψ (f a b))
    (a b : Series (XF K)) : Series.align f a (onValues ψ b) = (Series.align f a b).map (onValues ψ) := by
  unfold Series.align
  rw [onValues_index]
  split
  · simp only [Except.map, onValues, List.zipWith_map_right, List.map_zipWith, h]
  · split
    · simp only [Except.map, onValues_getD ψ hψ, h]
      simp [onValues, Function.comp_def]
    · rfl

theorem angstroem_units {s : ℝ} (hs : 0 < s) (ssd dl pot : Series (XF ℝ)) (par : ParPair ℝ) :
    angstroem ssd dl (seriesInUnits s 0 pot) par = (angstroem ssd dl pot par).map (seriesInUnits s 0) := by
  unfold angstroem
  simp only [bind, Except.bind]
  cases par.values (ssd.index.map monthOf) with
  | error e => rfl
  | ok ab =>
    simp only
    cases Series.align (· / ·) _ dl with
    | error e => rfl
    | ok x =>
      cases par with
      | scalar a b => exact onValues_align _ (inUnits s 0) rfl (fun a b => units_mul' hs b a) _ pot
      | monthly a b =>
        simp only
        split
        · exact onValues_align _ (inUnits s 0) rfl (fun a b => units_mul' hs b a) _ pot
        · rfl

theorem ssdDaily_units {s : ℝ} (hs : 0 < s) (f g : Frame ℝ) (hi : g.index = f.index) (h1 : g.col? "ssd" = f.col? "ssd") (sun : Option (Series SunTimes))
    (pot : Series (XF ℝ)) (par : ParPair ℝ) : ssdDaily g sun (seriesInUnits s 0 pot) par = (ssdDaily f sun pot par).map (seriesInUnits s 0) := by
  unfold ssdDaily
  have ha : g.attr "ssd" = f.attr "ssd" := by unfold Frame.attr; rw [h1]
  rw [hi, ha]
  cases sun with
  | none => rfl
  | some sun =>
    simp only [bind, Except.bind]
    generalize Series.index (sun.filter _) = dates
    cases f.attr "ssd" with
    | error e => rfl
    | ok ssd =>
      simp only
      cases ssd.locAll dates with
      | error e => rfl
      | ok ssd =>
        simp only
        cases Series.locAll (List.map (fun r => (r.1, r.2.daylength)) sun) dates with
        | error e => rfl
        | ok dl =>
          simp only
          rw [show seriesInUnits s 0 pot = onValues (inUnits s 0) pot from rfl, onValues_locAll]
          cases pot.locAll dates with
          | error e => rfl
          | ok pot =>
            simp only [Except.map]
            rw [show onValues (inUnits s 0) pot = seriesInUnits s 0 pot from rfl, angstroem_units hs]
            cases angstroem ssd dl pot par with
            | error e => rfl
            | ok r =>
              simp only [Except.map]
              congr 1
              have e : ∀ t, ((seriesInUnits s 0 r).at? t).getD .nan = inUnits s 0 ((r.at? t).getD .nan) := fun t =>
                onValues_getD (inUnits s 0) rfl _ t
              simp only [e]
              unfold seriesInUnits
              rw [List.map_map]
              apply List.map_congr_left
              intro t _
              simp only [Function.comp_def]
              split
              · rfl
              · simp [inUnits]

theorem bristowCampbell_units {s : ℝ} (hs : 0 < s) (tmin tmax pot : Series (XF ℝ)) (par : ParPair ℝ) :
    bristowCampbell tmin tmax (seriesInUnits s 0 pot) par = (bristowCampbell tmin tmax pot par).map (seriesInUnits s 0) := by
  unfold bristowCampbell
  split
  · rfl
  · cases tmin.index.head? <;> cases tmin.index.getLast? <;> try rfl
    rename_i first last
    simp only [bind, Except.bind]
    cases tmin.reindex (dateRange first last DAY) with
    | error e => rfl
    | ok a =>
      simp only
      cases tmax.reindex (dateRange first last DAY) with
      | error e => rfl
      | ok b =>
        simp only
        cases (bcRows a b).locAll tmin.index with
        | error e => rfl
        | ok temp =>
          simp only
          rw [show seriesInUnits s 0 pot = onValues (inUnits s 0) pot from rfl, onValues_locAll]
          cases pot.locAll tmin.index with
          | error e => rfl
          | ok pot =>
            simp only [Except.map]
            cases par.values (tmin.index.map monthOf) with
            | error e => rfl
            | ok par =>
              simp only
              congr 1
              unfold onValues
              rw [List.zip_map_right, List.zip_map_right]
              unfold seriesInUnits
              rw [List.map_map, List.map_map]
              apply List.map_congr_left
              intro r _
              simp only [Function.comp_def, Prod.map, units_mul' hs]
              rfl

theorem core_units {s u : ℝ} (hs : 0 < s) (hu : 0 < u) (pot daily : Series (XF ℝ)) :
    radiationCore (seriesInUnits u 0 pot) (seriesInUnits s 0 daily) = (radiationRaw pot daily).map (onValues fun v => cut01 (inUnits s 0 v)) := by
  rw [core_raw, raw_units hs hu]
  cases radiationRaw pot daily with
  | error e => rfl
  | ok r => simp [Except.map, onValues, seriesInUnits, Function.comp_def]

/-- the hourly values of `disaggregate_radiation` before the cut -/
noncomputable def disaggregateRaw (api : PandasApi) (daily : Frame ℝ) (sun : Option (Series SunTimes)) (pot : Option (Series (XF ℝ)))
    (method : String) (angstr bristcamp : ParPair ℝ) (course : Option (MeanCourse ℝ)) : Py (Series (XF ℝ)) := do
  if ¬ (method = "pot_rad" ∨ method = "pot_rad_via_ssd" ∨ method = "pot_rad_via_bc" ∨ method = "mean_course") then .error .valueError
  else
  let index ← hourlyIndex api daily.index
  if method = "mean_course" then
    match course with
    | none => .error .assertionError
    | some course => do
      let vals ← index.mapM fun t => course.lookup (monthOf t) (hourOf t)
      radiationRaw (index.zip vals) (← daily.attr "glob")
  else
    match pot with
    | none => .error .assertionError
    | some pot =>
      if method = "pot_rad" then do radiationRaw pot (← daily.attr "glob")
      else if method = "pot_rad_via_ssd" then do radiationRaw pot (← ssdDaily daily sun (pot.resampleD meanSkip) angstr)
      else do
        let tmin ← daily.attr "tmin"
        let tmax ← daily.attr "tmax"
        radiationRaw pot (← bristowCampbell tmin tmax (pot.resampleD meanSkip) bristcamp)

theorem disaggregate_raw (api : PandasApi) (daily : Frame ℝ) (sun : Option (Series SunTimes)) (pot : Option (Series (XF ℝ)))
    (method : String) (angstr bristcamp : ParPair ℝ) (course : Option (MeanCourse ℝ)) :
    disaggregateRadiation api daily sun pot method angstr bristcamp course =
      (disaggregateRaw api daily sun pot method angstr bristcamp course).map (onValues cut01) := by
  unfold disaggregateRadiation disaggregateRaw
  split
  · rfl
  · simp only [bind, Except.bind]
    cases hourlyIndex api daily.index with
    | error e => rfl
    | ok idx =>
      simp only
      split
      · cases course with
        | none => rfl
        | some course =>
          simp only
          cases idx.mapM fun t => course.lookup (monthOf t) (hourOf t) with
          | error e => rfl
          | ok vals =>
            simp only
            cases daily.attr "glob" with
            | error e => rfl
            | ok g => exact core_raw _ _
      · cases pot with
        | none => rfl
        | some pot =>
          simp only
          split
          · cases daily.attr "glob" with
            | error e => rfl
            | ok g => exact core_raw _ _
          · split
            · cases ssdDaily daily sun _ angstr with
              | error e => rfl
              | ok g => exact core_raw _ _
            · cases daily.attr "tmin" with
              | error e => rfl
              | ok a =>
                simp only
                cases daily.attr "tmax" with
                | error e => rfl
                | ok b =>
                  simp only
                  cases bristowCampbell a b _ bristcamp with
                  | error e => rfl
                  | ok g => exact core_raw _ _

theorem disaggregateRaw_units {s u : ℝ} (hs : 0 < s) (hu : 0 < u) {f g : Frame ℝ} (hi : g.index = f.index) (hg : ColumnInUnits s 0 f g "glob")
    (h1 : g.col? "ssd" = f.col? "ssd") (h2 : g.col? "tmin" = f.col? "tmin") (h3 : g.col? "tmax" = f.col? "tmax") (api : PandasApi)
    (sun : Option (Series SunTimes)) (pot : Option (Series (XF ℝ))) (method : String) (hm : method = "pot_rad_via_ssd" ∨ method = "pot_rad_via_bc" → u = s)
    (angstr bristcamp : ParPair ℝ) (course : Option (MeanCourse ℝ)) :
    disaggregateRaw api g sun (pot.map (seriesInUnits u 0)) method angstr bristcamp (course.map (courseInUnits u 0)) =
      (disaggregateRaw api f sun pot method angstr bristcamp course).map (seriesInUnits s 0) := by
  have a2 : g.attr "tmin" = f.attr "tmin" := by unfold Frame.attr; rw [h2]
  have a3 : g.attr "tmax" = f.attr "tmax" := by unfold Frame.attr; rw [h3]
  unfold disaggregateRaw
  rw [hi, attr_units hg, a2, a3]
  split
  · rfl
  · rename_i hmeth
    simp only [bind, Except.bind]
    cases hourlyIndex api f.index with
    | error e => rfl
    | ok idx =>
      simp only
      split
      · cases course with
        | none => rfl
        | some course =>
          simp only [Option.map_some]
          have e := mapM_through (fun t => course.lookup (monthOf t) (hourOf t)) (fun t => (courseInUnits u 0 course).lookup (monthOf t) (hourOf t)) id
            (inUnits u 0) (by
              intro t
              unfold MeanCourse.lookup courseInUnits
              simp only [id]
              split <;> rfl) idx
          rw [List.map_id] at e
          rw [e]
          cases idx.mapM fun t => course.lookup (monthOf t) (hourOf t) with
          | error e => rfl
          | ok vals =>
            simp only [Except.map]
            cases f.attr "glob" with
            | error e => rfl
            | ok x =>
              simp only
              rw [List.zip_map_right]
              exact raw_units hs hu _ x
      · cases pot with
        | none => rfl
        | some pot =>
          simp only [Option.map_some]
          split
          · cases f.attr "glob" with
            | error e => rfl
            | ok x => exact raw_units hs hu _ x
          · rename_i n1 n2
            split
            · rename_i n3
              obtain rfl := hm (.inl n3)
              rw [resampleD_units meanSkip_units, ssdDaily_units hs f g hi h1]
              cases ssdDaily f sun _ angstr with
              | error e => rfl
              | ok x => exact raw_units hs hs _ x
            · rename_i n3
              obtain rfl := hm (.inr (by tauto))
              rw [resampleD_units meanSkip_units]
              cases f.attr "tmin" with
              | error e => rfl
              | ok a =>
                simp only
                cases f.attr "tmax" with
                | error e => rfl
                | ok b =>
                  simp only
                  rw [bristowCampbell_units hs]
                  cases bristowCampbell a b _ bristcamp with
                  | error e => rfl
                  | ok x => exact raw_units hs hs _ x

end Melodist
