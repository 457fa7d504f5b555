import Verif.Props.RowsOut
import Verif.Props.TemperatureShift

/-!
# C126  Rows without observations: wind, humidity, temperature, radiation
-/
set_option linter.unusedSectionVars false

namespace Melodist
open Spec
variable {K : Type}

/-! ## wind -/

/-- a row for the wind fit -/
noncomputable def windRow (s : Series (XF ℝ)) (r : Time × XF ℝ) : XF ℝ × Int × XF ℝ := (meanSkip (s.onDay (dayOf r.1)), hourOf r.1, r.2)

/-- the values of such a row, infinite ones are refused -/
def windPoint : XF ℝ × Int × XF ℝ → Py (ℝ × Int × ℝ)
  | (.fin m, h, .fin y) => .ok (m, h, y)
  | _ => .error .valueError

theorem fitRows_eq (s : Series (XF ℝ)) :
    fitRows s = (((observed s).map (windRow s)).filter fun r => !r.1.isNan).mapM windPoint := by
  unfold fitRows
  have e1 : (s.map fun r => (((s.groupbyDate meanSkip).at? (midnight (dayOf r.1))).getD .nan, hourOf r.1, r.2)) = s.map (windRow s) := by
    apply List.map_congr_left
    intro r _
    rw [groupby_getD (by rfl)]
    rfl
  dsimp only
  rw [e1]
  have e2 : ((s.map (windRow s)).filter fun r => !r.1.isNan && !r.2.2.isNan) = ((observed s).map (windRow s)).filter fun r => !r.1.isNan := by
    unfold observed
    rw [List.filter_map, List.filter_map, List.filter_filter]
    rfl
  rw [e2]
  rfl

theorem mapM_perm {A B : Type} {g : A → Py B} {e : PyErr} (hg : ∀ a b, g a = .error b → b = e) {l l' : List A} (h : l.Perm l') :
    (l.mapM g = .error e ∧ l'.mapM g = .error e) ∨ ∃ r r', l.mapM g = .ok r ∧ l'.mapM g = .ok r' ∧ r.Perm r' := by
  induction h with
  | nil => exact .inr ⟨[], [], rfl, rfl, .refl _⟩
  | cons x _ ih =>
    rw [List.mapM_cons, List.mapM_cons]
    cases hx : g x with
    | error b => rw [hg _ _ hx]; exact .inl ⟨rfl, rfl⟩
    | ok y =>
      rcases ih with ⟨h1, h2⟩ | ⟨r, r', h1, h2, h3⟩
      · rw [h1, h2]; exact .inl ⟨rfl, rfl⟩
      · rw [h1, h2]; exact .inr ⟨y :: r, y :: r', rfl, rfl, h3.cons y⟩
  | swap x y l =>
    simp only [List.mapM_cons]
    cases hx : g x with
    | error b =>
      rw [hg _ _ hx]
      cases hy : g y with
      | error c => rw [hg _ _ hy]; exact .inl ⟨rfl, rfl⟩
      | ok z => exact .inl ⟨rfl, rfl⟩
    | ok u =>
      cases hy : g y with
      | error c => rw [hg _ _ hy]; exact .inl ⟨rfl, rfl⟩
      | ok z =>
        cases hl : l.mapM g with
        | error c =>
          have : c = e := by
            clear hx hy
            induction l generalizing c with
            | nil => cases hl
            | cons a l ih =>
              rw [List.mapM_cons] at hl
              cases ha : g a with
              | error b => rw [ha] at hl; cases hl; exact hg _ _ ha
              | ok w =>
                rw [ha] at hl
                cases hl' : l.mapM g with
                | error b => rw [hl'] at hl; cases hl; exact ih _ hl'
                | ok v => rw [hl'] at hl; cases hl
          rw [this]; exact .inl ⟨rfl, rfl⟩
        | ok v => exact .inr ⟨z :: u :: v, u :: z :: v, rfl, rfl, .swap _ _ _⟩
  | trans _ _ h1 h2 =>
    rcases h1 with ⟨a1, a2⟩ | ⟨r, r', a1, a2, a3⟩ <;> rcases h2 with ⟨b1, b2⟩ | ⟨s, s', b1, b2, b3⟩
    · exact .inl ⟨a1, b2⟩
    · rw [a2] at b1; cases b1
    · rw [a2] at b1; cases b1
    · rw [a2] at b1; cases b1; exact .inr ⟨r, s', a1, b2, a3.trans b3⟩

theorem windRow_same {s s' : Series (XF ℝ)} (h : SameObs s s') : windRow s = windRow s' := by
  funext r
  unfold windRow
  rw [onDay_same skip_mean h]

/-- **C126 (wind).** The rows given to the wind fit are the same up to their order, so the sum of squared residuals is the same for all parameters; infinite
values are refused in both cases. -/
theorem C126_wind {s s' : Series (XF ℝ)} (h : SameObs s s') :
    (fitRows s = .error .valueError ∧ fitRows s' = .error .valueError) ∨
    ∃ r r', fitRows s = .ok r ∧ fitRows s' = .ok r' ∧ r.Perm r' ∧
      ∀ a b t : ℝ, (r.map fun x => fitResidual a b t x ^ 2).sum = (r'.map fun x => fitResidual a b t x ^ 2).sum := by
  rw [fitRows_eq, fitRows_eq, windRow_same h]
  have hp : (((observed s).map (windRow s')).filter fun r => !r.1.isNan).Perm (((observed s').map (windRow s')).filter fun r => !r.1.isNan) := (h.map _).filter _
  have hg : ∀ a b, windPoint a = .error b → b = .valueError := by
    intro a b
    obtain ⟨x, y, z⟩ := a
    cases x <;> cases z <;> intro h <;> cases h <;> rfl
  rcases mapM_perm hg hp with h1 | ⟨r, r', h1, h2, h3⟩
  · exact .inl h1
  · exact .inr ⟨r, r', h1, h2, h3, fun a b t => (h3.map _).sum_eq⟩

/-- **C126 (wind, rows in the same order).** If the rows stay in their order the fit gets exactly the same rows: the same parameters for any optimiser. -/
theorem C126_wind_same (optimise : List (ℝ × Int × ℝ) → Py (ℝ × ℝ × ℝ)) {s s' : Series (XF ℝ)} (h : observed s = observed s') :
    fitCosineFunction optimise s = fitCosineFunction optimise s' := by
  have h' : SameObs s s' := by unfold SameObs; rw [h]
  unfold fitCosineFunction
  rw [fitRows_eq, fitRows_eq, windRow_same h', h]

/-! ## humidity: means by month, hour and wet or dry day -/

section
variable [Field K] [LinearOrder K] [IsStrictOrderedRing K]

/-- month, hour, and whether the day is wet -/
def mhpKey (precip : Series (XF K)) (t : Time) : Int × Int × Bool :=
  (monthOf t, hourOf t, decide (XF.lt (.fin 0) (sumSkip (precip.onDay (dayOf t)))))

theorem mhp_eq {f : Frame K} {precip hum : Series (XF K)} (hp : f.col? "precip" = some precip) (hh : f.col? "hum" = some hum) (hi : hum.index = precip.index) :
    monthHourPrecipMean f = .ok (((hum.map fun r => mhpKey precip r.1).dedup.map fun k =>
      (k, meanSkip ((hum.filter fun r => mhpKey precip r.1 == k).map Prod.snd)))) := by
  have e : (hum.map fun r => ((monthOf r.1, hourOf r.1, decide (XF.lt (.fin 0) (((precip.resampleD sumSkip).at? (midnight (dayOf r.1))).getD .nan))), r.2)) =
      hum.map fun r => (mhpKey precip r.1, r.2) := by
    apply List.map_congr_left
    intro r hr
    have hm : r.1 ∈ precip.index := by rw [← hi]; exact List.mem_map_of_mem hr
    rw [resampleD_at? _ _ (mem_daySpan hm)]
    rfl
  unfold monthHourPrecipMean
  rw [attr_ok hp, attr_ok hh]
  simp only [py_ok_bind]
  rw [e, List.map_map]
  congr 1
  apply List.map_congr_left
  intro k _
  rw [List.filter_map, List.map_map]
  rfl

theorem mhpKey_same {p p' : Series (XF K)} (h : SameObs p p') : mhpKey p = mhpKey p' := by
  funext t
  unfold mhpKey
  rw [onDay_same skip_sum h]

/-- **C126 (humidity means).** The means by month, hour and wet or dry day: every entry for the shorter record is an entry for the longer one, and every further
entry is missing. -/
theorem C126_month_hour_precip {f : Frame K} (hwf : f.WF) {is : List Nat} (h : LeavesOutMissing is f) :
    (∃ e, monthHourPrecipMean f = .error e ∧ monthHourPrecipMean (ilocF is f) = .error e) ∨
    ∃ t t', monthHourPrecipMean f = .ok t ∧ monthHourPrecipMean (ilocF is f) = .ok t' ∧
      (∀ x ∈ t', x ∈ t) ∧ ∀ x ∈ t, x.2 = .nan ∨ x ∈ t' := by
  cases hp : f.col? "precip" with
  | none =>
    refine .inl ⟨.attributeError, ?_, ?_⟩
    · unfold monthHourPrecipMean; rw [attr_missing hp]; rfl
    · unfold monthHourPrecipMean; rw [attr_missing (by rw [iloc_col? hwf, hp]; rfl)]; rfl
  | some p =>
    have hp' : (ilocF is f).col? "precip" = some (ilocS is p) := by rw [iloc_col? hwf, hp]; rfl
    cases hh : f.col? "hum" with
    | none =>
      refine .inl ⟨.attributeError, ?_, ?_⟩
      · unfold monthHourPrecipMean; rw [attr_ok hp, attr_missing hh]; rfl
      · unfold monthHourPrecipMean; rw [attr_ok hp', attr_missing (by rw [iloc_col? hwf, hh]; rfl)]; rfl
    | some u =>
      have hh' : (ilocF is f).col? "hum" = some (ilocS is u) := by rw [iloc_col? hwf, hh]; rfl
      have hix : ∀ {n : String} {s : Series (XF K)}, f.col? n = some s → s.index = f.index := by
        intro n s hs
        unfold Frame.col? at hs
        obtain ⟨c, hc1, rfl⟩ := Option.map_eq_some_iff.1 hs
        exact List.map_fst_zip (hwf c (List.mem_of_find?_eq_some hc1)).symm.le
      have hi : u.index = p.index := by rw [hix hh, hix hp]
      have hi' : Series.index (ilocS is u) = Series.index (ilocS is p) := by
        unfold Series.index at hi ⊢
        rw [← iloc_map, ← iloc_map, hi]
      refine .inr ⟨_, _, mhp_eq hp hh hi, mhp_eq hp' hh' hi', ?_, ?_⟩
      · intro x hx
        obtain ⟨k, hk, rfl⟩ := List.mem_map.1 hx
        rw [← mhpKey_same (col_same hwf h hp)] at hk ⊢
        refine List.mem_map.2 ⟨k, ?_, ?_⟩
        · rw [List.mem_dedup] at hk ⊢
          obtain ⟨r, hr, hrk⟩ := List.mem_map.1 hk
          exact List.mem_map.2 ⟨r, iloc_mem hr, hrk⟩
        · rw [group_same skip_mean (col_same hwf h hh) fun t => mhpKey p t == k]
      · intro x hx
        obtain ⟨k, hk, rfl⟩ := List.mem_map.1 hx
        rw [← mhpKey_same (col_same hwf h hp)]
        rw [group_same skip_mean (col_same hwf h hh) fun t => mhpKey p t == k]
        by_cases hm : k ∈ ((ilocS is u : Series (XF K)).map fun r => mhpKey p r.1).dedup
        · exact .inr (List.mem_map.2 ⟨k, hm, rfl⟩)
        · left
          have : ((ilocS is u : Series (XF K)).filter fun r => mhpKey p r.1 == k) = [] := by
            rw [List.filter_eq_nil_iff]
            intro r hr hrk
            exact hm (List.mem_dedup.2 (List.mem_map.2 ⟨r, hr, by simpa using hrk⟩))
          simp only
          rw [this]; rfl

end

/-! ## dew point -/

theorem iloc_length {A B : Type} (is : List Nat) {a : List A} {b : List B} (h : a.length = b.length) : (ilocS is a).length = (ilocS is b).length := by
  unfold ilocS
  induction is with
  | nil => rfl
  | cons i is ih =>
    rw [List.filterMap_cons, List.filterMap_cons]
    by_cases hi : i < a.length
    · rw [List.getElem?_eq_getElem hi, List.getElem?_eq_getElem (h ▸ hi)]
      simp only [List.length_cons, ih]
    · rw [List.getElem?_eq_none (by omega), List.getElem?_eq_none (by omega)]
      exact ih

theorem daySpan_sorted (idx : List Time) : (Series.daySpan idx).Pairwise (· < ·) := by
  unfold Series.daySpan
  split
  · rw [List.pairwise_map]
    exact List.pairwise_lt_range.imp fun h => by omega
  · exact List.Pairwise.nil

/-- the days with a property that needs a row -/
theorem daySpan_filter {idx idx' : List Time} {p : Int → Bool} (h : ∀ d, p d = true → ∃ t ∈ idx, dayOf t = d) (h' : ∀ d, p d = true → ∃ t ∈ idx', dayOf t = d) :
    (Series.daySpan idx).filter p = (Series.daySpan idx').filter p := by
  have hp : ((Series.daySpan idx).filter p).Perm ((Series.daySpan idx').filter p) := by
    refine (List.perm_ext_iff_of_nodup ((daySpan_nodup _).filter _) ((daySpan_nodup _).filter _)).2 fun d => ?_
    rw [List.mem_filter, List.mem_filter]
    constructor
    · rintro ⟨_, hd⟩
      obtain ⟨t, ht, rfl⟩ := h' d hd
      exact ⟨mem_daySpan ht, hd⟩
    · rintro ⟨_, hd⟩
      obtain ⟨t, ht, rfl⟩ := h d hd
      exact ⟨mem_daySpan ht, hd⟩
  refine List.Perm.eq_of_pairwise (le := (· ≤ ·)) (fun a b _ _ h1 h2 => le_antisymm h1 h2) ?_ ?_ hp
  · exact ((daySpan_sorted _).imp fun h => le_of_lt h).filter _
  · exact ((daySpan_sorted _).imp fun h => le_of_lt h).filter _

theorem onDay_row {s : Series (XF ℝ)} {d : Int} (h : (meanSkip (s.onDay d)).isNan = false) : ∃ t ∈ s.index, dayOf t = d := by
  by_contra hc
  have : s.onDay d = [] := onDay_nil fun ⟨r, hr, e⟩ => hc ⟨r.1, List.mem_map_of_mem hr, e⟩
  rw [this] at h
  cases h

theorem dewRows_eq (temp : Series (XF ℝ)) (td : List (XF ℝ)) (hl : temp.length = td.length) :
    ((Series.resampleD meanSkip (temp.index.zip td)).map fun r => (((temp.groupbyDate minSkip).at? r.1).getD .nan, r.2)).filter
        (fun r : XF ℝ × XF ℝ => !r.1.isNan && !r.2.isNan) =
      ((Series.daySpan temp.index).filter fun d => !(minSkip (temp.onDay d)).isNan && !(meanSkip (Series.onDay (temp.index.zip td) d)).isNan).map fun d =>
        (minSkip (temp.onDay d), meanSkip (Series.onDay (temp.index.zip td) d)) := by
  have hix : Series.index (temp.index.zip td) = temp.index := List.map_fst_zip (by unfold Series.index; rw [List.length_map, hl])
  unfold Series.resampleD
  rw [hix, List.map_map, List.filter_map]
  have e : ((fun r : Time × XF ℝ => (((temp.groupbyDate minSkip).at? r.1).getD .nan, r.2)) ∘ fun d => (midnight d, meanSkip (Series.onDay (temp.index.zip td) d))) =
      fun d => (minSkip (temp.onDay d), meanSkip (Series.onDay (temp.index.zip td) d)) := by
    funext d
    simp only [Function.comp_def]
    rw [groupby_getD (by rfl)]
  rw [e]
  rfl

/-- **C126 (dew point regression).** The regression of the dew point on the daily minimum temperature gives the same parameters, or raises the same exception. -/
theorem C126_dewpoint {f : Frame ℝ} (hwf : f.WF) {is : List Nat} (h : LeavesOutMissing is f) :
    dewpointRegression (ilocF is f) = dewpointRegression f := by
  unfold dewpointRegression
  cases ht : f.col? "temp" with
  | none =>
    have e1 : f.item "temp" = .error .keyError := by unfold Frame.item; rw [ht]
    have e2 : (ilocF is f).item "temp" = .error .keyError := by unfold Frame.item; rw [iloc_col? hwf, ht]; rfl
    rw [e1, e2]; rfl
  | some temp =>
    have ht' : (ilocF is f).col? "temp" = some (ilocS is temp) := by rw [iloc_col? hwf, ht]; rfl
    rw [item_ok ht, item_ok ht', py_ok_bind, py_ok_bind]
    cases hh : f.col? "hum" with
    | none =>
      have e1 : f.item "hum" = .error .keyError := by unfold Frame.item; rw [hh]
      have e2 : (ilocF is f).item "hum" = .error .keyError := by unfold Frame.item; rw [iloc_col? hwf, hh]; rfl
      rw [e1, e2]; rfl
    | some hum =>
      have hh' : (ilocF is f).col? "hum" = some (ilocS is hum) := by rw [iloc_col? hwf, hh]; rfl
      rw [item_ok hh, item_ok hh', py_ok_bind, py_ok_bind]
      have hlen : ∀ {n : String} {s : Series (XF ℝ)}, f.col? n = some s → s.length = f.index.length := by
        intro n s hs
        unfold Frame.col? at hs
        obtain ⟨c, hc1, rfl⟩ := Option.map_eq_some_iff.1 hs
        rw [List.length_zip, hwf c (List.mem_of_find?_eq_some hc1), min_self]
      have hl : temp.length = hum.length := by rw [hlen ht, hlen hh]
      have hv : ∀ s : Series (XF ℝ), Series.values (ilocS is s) = ilocS is s.values := fun s => (iloc_map _ _ _).symm
      have hi : ∀ s : Series (XF ℝ), Series.index (ilocS is s) = ilocS is s.index := fun s => (iloc_map _ _ _).symm
      have hlv : temp.values.length = hum.values.length := by unfold Series.values; rw [List.length_map, List.length_map, hl]
      have htl : temp.length = (List.zipWith dewpointCell temp.values hum.values).length := by
        rw [List.length_zipWith, hlv, min_self]; unfold Series.values; rw [List.length_map, hl]
      have hl' : (ilocS is temp).length = (ilocS is hum).length := iloc_length is hl
      have e1 : dewpointTemperature temp.values hum.values = .ok (List.zipWith dewpointCell temp.values hum.values) := by
        unfold dewpointTemperature; rw [if_pos hlv]
      have e2 : dewpointTemperature (Series.values (ilocS is temp)) (Series.values (ilocS is hum)) =
          .ok (ilocS is (List.zipWith dewpointCell temp.values hum.values)) := by
        unfold dewpointTemperature
        rw [hv, hv, if_pos (iloc_length is hlv), iloc_zipWith _ _ hlv]
      rw [e1, e2, py_ok_bind, py_ok_bind]
      have htd : SameObs (temp.index.zip (List.zipWith dewpointCell temp.values hum.values))
          (Series.index (ilocS is temp)|>.zip (ilocS is (List.zipWith dewpointCell temp.values hum.values))) := by
        have hz : temp.index.length = (List.zipWith dewpointCell temp.values hum.values).length := by unfold Series.index; rw [List.length_map, htl]
        rw [hi, ← iloc_zip is hz]
        have hzl : (temp.index.zip (List.zipWith dewpointCell temp.values hum.values)).length = temp.length := by
          rw [List.length_zip, ← hz, min_self]; unfold Series.index; rw [List.length_map]
        refine sameObs_iloc h.nodup ?_ ?_
        · rw [hzl]; exact (col_missing hwf h ht).1
        · intro i hi1 hi2
          rw [hzl] at hi1
          obtain ⟨t, hti⟩ := (col_missing hwf h ht).2 i hi1 hi2
          refine ⟨t, ?_⟩
          rw [List.getElem?_zip_eq_some]
          constructor
          · unfold Series.index; rw [List.getElem?_map, hti]; rfl
          · have h1 : temp.values[i]? = some .nan := by unfold Series.values; rw [List.getElem?_map, hti]; rfl
            have h2 : ∃ y, hum.values[i]? = some y := by
              have : i < hum.values.length := by unfold Series.values; rw [List.length_map, ← hl]; exact hi1
              exact ⟨_, List.getElem?_eq_getElem this⟩
            obtain ⟨y, h2⟩ := h2
            rw [List.getElem?_zipWith, h1, h2]
            simp only
            rw [dewpointCell_nan (.inl rfl)]
      have htt := col_same hwf h ht
      dsimp only
      rw [dewRows_eq temp _ htl, dewRows_eq (ilocS is temp) _ (iloc_length is htl)]
      have hF : (fun d => (minSkip (Series.onDay (ilocS is temp) d), meanSkip (Series.onDay ((Series.index (ilocS is temp)).zip (ilocS is (List.zipWith dewpointCell temp.values hum.values))) d))) =
          fun d => (minSkip (temp.onDay d), meanSkip (Series.onDay (temp.index.zip (List.zipWith dewpointCell temp.values hum.values)) d)) := by
        funext d
        rw [onDay_same skip_min htt, onDay_same skip_mean htd]
      have hP : (fun d => !(minSkip (Series.onDay (ilocS is temp) d)).isNan && !(meanSkip (Series.onDay ((Series.index (ilocS is temp)).zip (ilocS is (List.zipWith dewpointCell temp.values hum.values))) d)).isNan) =
          fun d => !(minSkip (temp.onDay d)).isNan && !(meanSkip (Series.onDay (temp.index.zip (List.zipWith dewpointCell temp.values hum.values)) d)).isNan := by
        funext d
        rw [onDay_same skip_min htt, onDay_same skip_mean htd]
      have hrow : ∀ {s : Series (XF ℝ)} {d : Int}, (minSkip (s.onDay d)).isNan = false → ∃ t ∈ s.index, dayOf t = d := by
        intro s d hd
        by_contra hc
        have : s.onDay d = [] := onDay_nil fun ⟨r, hr, e⟩ => hc ⟨r.1, List.mem_map_of_mem hr, e⟩
        rw [this] at hd
        cases hd
      rw [hF, hP]
      rw [daySpan_filter (idx := Series.index (ilocS is temp)) (idx' := temp.index)]
      · intro d hd
        rw [Bool.and_eq_true] at hd
        refine hrow ?_
        rw [← onDay_same skip_min htt]
        simpa using hd.1
      · intro d hd
        rw [Bool.and_eq_true] at hd
        refine hrow ?_
        simpa using hd.1

/-! ## shift of the maximum temperature -/

theorem firstMax_obs (s : Series (XF ℝ)) (d : Int) : firstMaxHour s d = firstMaxHour (observed s) d := by
  have hg : maxSkip (Series.values (s.filter fun r => dayOf r.1 == d)) = maxSkip (Series.values ((observed s).filter fun r => dayOf r.1 == d)) := by
    have hs : SameObs s (observed s) := by
      unfold SameObs observed
      rw [List.filter_filter]
      simp only [Bool.and_self]
      exact List.Perm.refl _
    exact group_same skip_max hs fun t => dayOf t == d
  unfold firstMaxHour
  dsimp only
  rw [← hg]
  generalize maxSkip (Series.values (s.filter fun r => dayOf r.1 == d)) = m
  congr 1
  unfold observed
  rw [List.filter_filter]
  rw [List.find?_filter, List.find?_filter]
  congr 1
  funext r
  obtain ⟨t, x⟩ := r
  cases x with
  | nan =>
    have : ¬ XF.feq (.nan : XF ℝ) m := fun h => h
    simp [this, XF.isNan]
  | ninf => simp [XF.isNan]
  | pinf => simp [XF.isNan]
  | fin y => simp [XF.isNan]

theorem daySpan_mono {idx idx' : List Time} (h : ∀ t ∈ idx', t ∈ idx) {d : Int} (hd : d ∈ Series.daySpan idx') : d ∈ Series.daySpan idx := by
  unfold Series.daySpan at hd
  split at hd
  · next a b ha hb =>
    obtain ⟨ta, hta, ea⟩ := List.mem_map.1 (List.min?_mem ha)
    obtain ⟨tb, htb, eb⟩ := List.mem_map.1 (List.max?_mem hb)
    have h1 := mem_daySpan (h ta hta)
    have h2 := mem_daySpan (h tb htb)
    obtain ⟨k, hk, rfl⟩ := List.mem_map.1 hd
    have hk := List.mem_range.1 hk
    rw [ea] at h1
    rw [eb] at h2
    unfold Series.daySpan at h1 h2 ⊢
    split at h1
    · next u v hu hv =>
      simp only [hu, hv] at h2
      obtain ⟨i, hi, ei⟩ := List.mem_map.1 h1
      obtain ⟨j, hj, ej⟩ := List.mem_map.1 h2
      have hi := List.mem_range.1 hi
      have hj := List.mem_range.1 hj
      exact List.mem_map.2 ⟨(a + k - u).toNat, List.mem_range.2 (by omega), by omega⟩
    · cases h1
  · cases hd

theorem firstMax_row {s : Series (XF ℝ)} {d : Int} (h : (firstMaxHour s d).isSome) : ∃ t ∈ s.index, dayOf t = d := by
  unfold firstMaxHour at h
  rw [Option.isSome_map] at h
  obtain ⟨r, hr⟩ := Option.isSome_iff_exists.1 h
  have := List.mem_filter.1 (List.mem_of_find?_eq_some hr)
  exact ⟨r.1, List.mem_map_of_mem this.1, by simpa using this.2⟩

/-- the distance of the day's maximum from solar noon -/
noncomputable def dayDelta (temp : Series (XF ℝ)) (lon lat tz : ℝ) (d : Int) : XF ℝ :=
  hourCell (firstMaxHour temp d) - (sunTimesDoy (doyOf (midnight d)) lon lat tz).sunnoon

theorem shift_eq (temp : Series (XF ℝ)) (lon lat tz : ℝ) : getShiftByData temp lon lat tz =
    (((List.range 12).map fun (k : Nat) => (k : Int) + 1).filter fun m => (Series.daySpan temp.index).any fun d => monthOf (midnight d) == m).map fun m =>
      (m, meanSkip (((Series.daySpan temp.index).filter fun d => monthOf (midnight d) == m).map (dayDelta temp lon lat tz))) := by
  have e : ((Series.daySpan temp.index).map fun d => (midnight d, hourCell (firstMaxHour temp d) -
      ((((getSunTimes (temp.resampleD meanSkip).index lon lat tz).at? (midnight d)).map SunTimes.sunnoon).getD .nan))) =
      (Series.daySpan temp.index).map fun d => (midnight d, dayDelta temp lon lat tz d) := by
    apply List.map_congr_left
    intro d hd
    have : (getSunTimes (temp.resampleD meanSkip).index lon lat tz).at? (midnight d) = some (sunTimesDoy (doyOf (midnight d)) lon lat tz) := by
      unfold getSunTimes Series.at?
      rw [resampleD_index, List.map_map]
      show ((((Series.daySpan temp.index).map fun d => (midnight d, sunTimesDoy (doyOf (midnight d)) lon lat tz))).find? _).map _ = _
      rw [find?_midnight _ _ hd]
      rfl
    rw [this]
    rfl
  unfold getShiftByData
  dsimp only
  rw [e]
  simp only [List.any_map, List.filter_map, List.map_map, Function.comp_def]

/-- **C126 (shift of the maximum).** The mean shift of the daily maximum by month, with the rows in the same order: every entry for the shorter record is an entry
for the longer one, and every further entry is missing. -/
theorem C126_shift {temp temp' : Series (XF ℝ)} (h : observed temp = observed temp') (hsub : ∀ t ∈ temp'.index, t ∈ temp.index) (lon lat tz : ℝ) :
    (∀ x ∈ getShiftByData temp' lon lat tz, x ∈ getShiftByData temp lon lat tz) ∧
    ∀ x ∈ getShiftByData temp lon lat tz, x.2 = .nan ∨ x ∈ getShiftByData temp' lon lat tz := by
  have hd : dayDelta temp lon lat tz = dayDelta temp' lon lat tz := by
    funext d
    unfold dayDelta
    rw [firstMax_obs, h, ← firstMax_obs]
  have hval : ∀ {s : Series (XF ℝ)} {d : Int}, (dayDelta s lon lat tz d).isNan = false → (firstMaxHour s d).isSome := by
    intro s d hx
    unfold dayDelta at hx
    cases hf : firstMaxHour s d with
    | none => rw [hf] at hx; cases hx
    | some y => rfl
  have hv : ∀ m, presentCells (((Series.daySpan temp.index).filter fun d => monthOf (midnight d) == m).map (dayDelta temp lon lat tz)) =
      presentCells (((Series.daySpan temp'.index).filter fun d => monthOf (midnight d) == m).map (dayDelta temp' lon lat tz)) := by
    intro m
    unfold presentCells
    rw [List.filter_map, List.filter_map, hd, List.filter_filter, List.filter_filter]
    congr 1
    apply daySpan_filter
    · intro d hp
      rw [Bool.and_eq_true] at hp
      refine firstMax_row (hval ?_)
      rw [hd]
      simpa using hp.1
    · intro d hp
      rw [Bool.and_eq_true] at hp
      exact firstMax_row (hval (by simpa using hp.1))
  have he : ∀ m, meanSkip (((Series.daySpan temp.index).filter fun d => monthOf (midnight d) == m).map (dayDelta temp lon lat tz)) =
      meanSkip (((Series.daySpan temp'.index).filter fun d => monthOf (midnight d) == m).map (dayDelta temp' lon lat tz)) :=
    fun m => skip_mean _ _ (by rw [hv m])
  constructor
  · intro x hx
    rw [shift_eq] at hx ⊢
    obtain ⟨m, hm, rfl⟩ := List.mem_map.1 hx
    obtain ⟨h1, h2⟩ := List.mem_filter.1 hm
    refine List.mem_map.2 ⟨m, List.mem_filter.2 ⟨h1, ?_⟩, by rw [he]⟩
    obtain ⟨d, hd1, hd2⟩ := List.any_eq_true.1 h2
    exact List.any_eq_true.2 ⟨d, daySpan_mono hsub hd1, hd2⟩
  · intro x hx
    rw [shift_eq] at hx ⊢
    obtain ⟨m, hm, rfl⟩ := List.mem_map.1 hx
    obtain ⟨h1, h2⟩ := List.mem_filter.1 hm
    dsimp only
    rw [he]
    by_cases hc : ((Series.daySpan temp'.index).any fun d => monthOf (midnight d) == m) = true
    · exact .inr (List.mem_map.2 ⟨m, List.mem_filter.2 ⟨h1, hc⟩, rfl⟩)
    · left
      have : ((Series.daySpan temp'.index).filter fun d => monthOf (midnight d) == m) = [] := by
        rw [List.filter_eq_nil_iff]
        intro d hd hm
        exact hc (List.any_eq_true.2 ⟨d, hd, hm⟩)
      rw [this]; rfl

/-! ## radiation models -/

theorem at?_observed {s : Series (XF ℝ)} (hn : s.index.Nodup) (t : Time) : (observed s).at? t = (s.at? t).filter fun x => !x.isNan := by
  unfold observed Series.at?
  induction s with
  | nil => rfl
  | cons r s ih =>
    have hn' : Series.index s |>.Nodup := (List.nodup_cons.1 hn).2
    have hni : r.1 ∉ Series.index s := (List.nodup_cons.1 hn).1
    rw [List.filter_cons, List.find?_cons]
    cases hrt : (r.1 == t) with
    | true =>
      cases hx : r.2.isNan with
      | true =>
        have : (List.filter (fun r : Time × XF ℝ => !r.2.isNan) s).find? (fun r => r.1 == t) = none := by
          rw [List.find?_eq_none]
          intro q hq e
          apply hni
          rw [eq_of_beq hrt, ← eq_of_beq e]
          exact List.mem_map_of_mem (List.mem_filter.1 hq).1
        simp [hx, this, Option.filter]
      | false => simp [hx, hrt, Option.filter]
    | false =>
      rw [← ih hn']
      cases hx : r.2.isNan with
      | true => simp
      | false => simp [hrt]

/-- **C126 (radiation models).** The daily rows used to fit the radiation models depend only on days with values: a day without a value may as well be absent. -/
theorem C126_radiation_rows (a b c d : Series (XF ℝ)) (hb : b.index.Nodup) (hc : c.index.Nodup) (hd : d.index.Nodup) :
    StatsObj.fitFrame (observed a) (observed b) (observed c) (observed d) = StatsObj.fitFrame a b c d := by
  unfold StatsObj.fitFrame
  rw [show (observed a) = a.filter fun r => !r.2.isNan from rfl, List.filterMap_filter]
  congr 1
  funext r
  rw [at?_observed hb, at?_observed hc, at?_observed hd]
  cases hr : r.2.isNan with
  | true =>
    rw [if_neg (show ¬ (!true) = true from Bool.noConfusion)]
    cases Series.at? b r.1 <;> cases Series.at? c r.1 <;> cases Series.at? d r.1 <;> rfl
  | false =>
    rw [if_pos (show (!false) = true from rfl)]
    have hf : ∀ x : XF ℝ, (some x).filter (fun x => !x.isNan) = if x.isNan then none else some x := by intro x; cases x <;> rfl
    cases Series.at? b r.1 with
    | none => rfl
    | some x =>
      cases Series.at? c r.1 with
      | none => rw [hf]; cases x.isNan <;> rfl
      | some y =>
        cases Series.at? d r.1 with
        | none => rw [hf, hf]; cases x.isNan <;> cases y.isNan <;> rfl
        | some z =>
          rw [hf, hf, hf]
          cases hx : x.isNan <;> cases hy : y.isNan <;> cases hz : z.isNan <;> simp [hx, hy, hz]

end Melodist
