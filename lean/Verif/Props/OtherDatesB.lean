import Verif.Props.OtherDates
import Verif.Model.Radiation
import Verif.Model.Precip

/-!
# C124  The same values on other dates: radiation, sun times, wind, humidity and precipitation
-/
set_option linter.unusedSectionVars false

namespace Melodist
open Spec
variable {K : Type}

/-! ## radiation -/

theorem zipIdx_moved {V : Type} (s : Series V) (k : Int) : (s.shiftDays k).zipIdx = s.zipIdx.map fun r => ((r.1.1 + k * DAY, r.1.2), r.2) := by
  unfold Series.shiftDays; rw [List.zipIdx_map]; rfl

theorem zip_shift {A V : Type} (s : Series V) (l : List A) (k : Int) : (s.shiftDays k).zip l = (s.zip l).map fun r => ((r.1.1 + k * DAY, r.1.2), r.2) := by
  unfold Series.shiftDays; rw [List.zip_map_left]; rfl

theorem length_moved {V : Type} (s : Series V) (k : Int) : (s.shiftDays k).length = s.length := by
  unfold Series.shiftDays; rw [List.length_map]

theorem months_moved {idx : List Time} {k : Int} (hm : ∀ t ∈ idx, monthOf (t + k * DAY) = monthOf t) : (idx.map (· + k * DAY)).map monthOf = idx.map monthOf := by
  rw [List.map_map]
  exact List.map_congr_left hm

theorem moved_radiationCore (pot daily : Series (XF ℝ)) (k : Int) : radiationCore (pot.shiftDays k) (daily.shiftDays k) = later k (radiationCore pot daily) := by
  unfold radiationCore
  rw [moved_resampleD, moved_index]
  refine bind_moved (moved_reindexFfill daily pot.index none k) fun g _ => ?_
  refine bind_moved (moved_reindexFfill _ pot.index none k) fun p _ => ?_
  simp only [moved_values, Except.map]
  congr 1
  rw [zip_shift, List.map_map, shiftDays_of_map]
  rfl

theorem moved_angstroem (ssd dl pot : Series (XF ℝ)) (par : ParPair ℝ) (k : Int) (hm : ∀ t ∈ ssd.index, monthOf (t + k * DAY) = monthOf t) :
    angstroem (ssd.shiftDays k) (dl.shiftDays k) (pot.shiftDays k) par = later k (angstroem ssd dl pot par) := by
  unfold angstroem
  rw [moved_index, months_moved hm]
  refine bind_moved (s := fun a => a) (map_id_py _).symm fun ab _ => ?_
  have hx : ((ssd.shiftDays k).zip ab).map (fun r => (r.1.1, r.2.2 * r.1.2)) = Series.shiftDays ((ssd.zip ab).map fun r => (r.1.1, r.2.2 * r.1.2)) k := by
    rw [zip_shift, List.map_map, shiftDays_of_map]; rfl
  rw [hx]
  refine bind_moved (moved_align _ _ dl k) fun x _ => ?_
  cases par with
  | scalar a b =>
    refine bind_moved (x := .ok (x.map fun r => (r.1, a + r.2))) (s := (Series.shiftDays · k)) (f := fun x => Series.align (· * ·) x pot) (f' := fun x => Series.align (· * ·) x (pot.shiftDays k)) ?_ (fun x _ => moved_align _ x pot k)
    simp only [Except.map]
    congr 1
    rw [shiftDays_of_map]
    unfold Series.shiftDays
    rw [List.map_map]; rfl
  | monthly a b =>
    simp only [length_moved]
    split
    · refine bind_moved (x := .ok ((x.zip ab).map fun r => (r.1.1, r.2.1 + r.1.2))) (s := (Series.shiftDays · k)) (f := fun x => Series.align (· * ·) x pot) (f' := fun x => Series.align (· * ·) x (pot.shiftDays k)) ?_ (fun x _ => moved_align _ x pot k)
      simp only [Except.map]
      congr 1
      rw [zip_shift, List.map_map, shiftDays_of_map]; rfl
    · rfl

theorem moved_bcRows (tmin tmax : Series (XF ℝ)) (k : Int) : bcRows (tmin.shiftDays k) (tmax.shiftDays k) = (bcRows tmin tmax).shiftDays k := by
  unfold bcRows
  rw [zipIdx_moved, length_moved, moved_values, shiftDays_of_map]
  unfold Series.shiftDays
  rw [List.zip_map, List.map_map]
  rfl

theorem locAll_index {V : Type} {s r : Series V} {idx : List Time} (h : s.locAll idx = .ok r) : r.index = idx := by
  unfold Series.locAll at h
  induction idx generalizing r with
  | nil => cases h; rfl
  | cons t idx ih =>
    rw [List.mapM_cons] at h
    obtain ⟨a, ha, h⟩ := py_bind_inv h
    obtain ⟨b, hb, h⟩ := py_bind_inv h
    cases h
    have : a.1 = t := by
      split at ha
      · cases ha; rfl
      · cases ha
    show a.1 :: Series.index b = t :: idx
    rw [ih hb, this]

theorem moved_bristow (tmin tmax pot : Series (XF ℝ)) (par : ParPair ℝ) (k : Int) (hm : ∀ t ∈ tmin.index, monthOf (t + k * DAY) = monthOf t) :
    bristowCampbell (tmin.shiftDays k) (tmax.shiftDays k) (pot.shiftDays k) par = later k (bristowCampbell tmin tmax pot par) := by
  unfold bristowCampbell
  simp only [moved_index, ne_eq, moved_index_eq]
  split
  · rfl
  rw [List.head?_map, List.getLast?_map]
  cases tmin.index.head? with
  | none => rfl
  | some a =>
    cases tmin.index.getLast? with
    | none => rfl
    | some b =>
      simp only [Option.map_some]
      rw [dateRange_moved, months_moved hm]
      refine bind_moved (moved_reindex tmin _ k) fun tmin' _ => ?_
      refine bind_moved (moved_reindex tmax _ k) fun tmax' _ => ?_
      rw [moved_bcRows]
      refine bind_moved (moved_locAll _ _ k) fun temp htemp => ?_
      refine bind_moved (moved_locAll pot _ k) fun p _ => ?_
      refine bind_moved (s := fun a => a) (map_id_py _).symm fun pv _ => ?_
      simp only [Except.map]
      congr 1
      have hti := locAll_index htemp
      have hmt : ∀ r ∈ temp, monthOf (r.1 + k * DAY) = monthOf r.1 := fun r hr => hm _ (hti ▸ List.mem_map_of_mem (f := Prod.fst) hr)
      have hdT : (temp.shiftDays k).map (fun r => (r.1, r.2.2.1 - (r.2.1 + r.2.2.2) / .fin 2)) =
          Series.shiftDays (temp.map fun r => (r.1, r.2.2.1 - (r.2.1 + r.2.2.2) / .fin 2)) k := by
        rw [shiftDays_of_map]; unfold Series.shiftDays; rw [List.map_map]; rfl
      rw [hdT]
      generalize hD : temp.map (fun r => (r.1, r.2.2.1 - (r.2.1 + r.2.2.2) / .fin 2)) = dT
      have hmd : ∀ r ∈ dT, monthOf (r.1 + k * DAY) = monthOf r.1 := by
        intro r hr
        rw [← hD] at hr
        obtain ⟨q, hq, rfl⟩ := List.mem_map.1 hr
        exact hmt q hq
      have havg : ∀ m : Int, (((Series.shiftDays dT k).filter fun r => monthOf r.1 == m).map Prod.snd) = ((dT.filter fun r => monthOf r.1 == m).map Prod.snd) := by
        intro m
        unfold Series.shiftDays
        rw [List.filter_map, List.map_map]
        have : dT.filter ((fun r : Time × XF ℝ => monthOf r.1 == m) ∘ fun r : Time × XF ℝ => (r.1 + k * DAY, r.2)) = dT.filter fun r => monthOf r.1 == m := by
          apply List.filter_congr
          intro r hr
          simp only [Function.comp_def, hmd r hr]
        rw [this]; rfl
      simp only [havg]
      rw [shiftDays_of_map]
      have hz : (Series.shiftDays dT k).zip (pv.zip (p.shiftDays k)) = (dT.zip (pv.zip p)).map fun r => ((r.1.1 + k * DAY, r.1.2), (r.2.1, (r.2.2.1 + k * DAY, r.2.2.2))) := by
        unfold Series.shiftDays
        rw [List.zip_map_right, List.zip_map]; rfl
      rw [hz, List.map_map]
      apply List.map_congr_left
      intro r hr
      simp only [Function.comp_def]
      rw [hmd r.1 (List.of_mem_zip hr).1]

theorem moved_ssdDaily (daily : Frame ℝ) (sun : Option (Series SunTimes)) (pot : Series (XF ℝ)) (par : ParPair ℝ) (k : Int)
    (hm : ∀ s, sun = some s → ∀ t ∈ s.index, monthOf (t + k * DAY) = monthOf t) :
    ssdDaily (daily.moved k) (sun.map (Series.shiftDays · k)) (pot.shiftDays k) par = later k (ssdDaily daily sun pot par) := by
  unfold ssdDaily
  cases sun with
  | none => rfl
  | some sun =>
    simp only [Option.map_some]
    have hf : Series.index ((sun.shiftDays k).filter fun r => decide (XF.lt (.fin 0) r.2.daylength)) =
        (Series.index (sun.filter fun r => decide (XF.lt (.fin 0) r.2.daylength))).map (· + k * DAY) := by
      rw [← moved_index]; unfold Series.shiftDays; rw [List.filter_map]; rfl
    rw [hf]
    have hd : ∀ t ∈ Series.index (sun.filter fun r => decide (XF.lt (.fin 0) r.2.daylength)), monthOf (t + k * DAY) = monthOf t := by
      intro t ht
      obtain ⟨r, hr, rfl⟩ := List.mem_map.1 ht
      exact hm sun rfl _ (List.mem_map_of_mem (List.mem_filter.1 hr).1)
    generalize Series.index (sun.filter fun r => decide (XF.lt (.fin 0) r.2.daylength)) = dates at hd
    refine bind_moved (moved_attr daily "ssd" k) fun ssd0 _ => ?_
    refine bind_moved (moved_locAll ssd0 _ k) fun ssd hssd => ?_
    have hdl : ((sun.shiftDays k).map fun r => (r.1, r.2.daylength)) = Series.shiftDays (sun.map fun r => (r.1, r.2.daylength)) k := by
      rw [shiftDays_of_map]; unfold Series.shiftDays; rw [List.map_map]; rfl
    rw [hdl]
    refine bind_moved (moved_locAll _ _ k) fun dl _ => ?_
    refine bind_moved (moved_locAll pot _ k) fun p _ => ?_
    refine bind_moved (moved_angstroem ssd dl p par k (by rw [locAll_index hssd]; exact hd)) fun r _ => ?_
    simp only [Except.map]
    congr 1
    unfold Frame.moved
    simp only
    rw [List.map_map, shiftDays_of_map]
    apply List.map_congr_left
    intro t _
    simp only [Function.comp_def, contains_moved, moved_at?]

/-- **C124 (radiation).** Any daily frame, sun times, potential radiation and parameters.  Methods other than 'pot_rad' need that the
days fall into the same months. -/
theorem C124_radiation (api : PandasApi) (daily : Frame ℝ) (sun : Option (Series SunTimes)) (pot : Option (Series (XF ℝ))) (method : String)
    (angstr bristcamp : ParPair ℝ) (course : Option (MeanCourse ℝ)) (a b k : Int) (hw : WithinDays daily.index a b)
    (hs : ∀ s, sun = some s → WithinDays s.index a b) (hm : method ≠ "pot_rad" → SameMonths a b k) :
    disaggregateRadiation api (daily.moved k) (sun.map (Series.shiftDays · k)) (pot.map (Series.shiftDays · k)) method angstr bristcamp course =
      later k (disaggregateRadiation api daily sun pot method angstr bristcamp course) := by
  unfold disaggregateRadiation
  split
  · rfl
  refine bind_moved (moved_hourlyIndex api daily.index false k) fun index hidx => ?_
  have hin := within_hourlyIndex hw hidx
  split
  · next h0 h =>
    cases course with
    | none => rfl
    | some c =>
      have hm' := hm (by rw [h]; decide)
      refine bind_moved (moved_lookup fun t ht => month_moved hm' (hin t ht).1 (hin t ht).2) fun vals _ => ?_
      refine bind_moved (moved_attr daily "glob" k) fun g _ => ?_
      rw [zip_moved]
      exact moved_radiationCore (index.zip vals) g k
  · cases pot with
    | none => rfl
    | some pot =>
      simp only [Option.map_some]
      split
      · exact bind_moved (moved_attr daily "glob" k) fun g _ => moved_radiationCore pot g k
      · next h1 =>
        have hm' := hm h1
        rw [moved_resampleD]
        split
        · exact bind_moved (moved_ssdDaily daily sun _ angstr k fun s hsn t ht => month_moved hm' (hs s hsn t ht).1 (hs s hsn t ht).2)
            fun g _ => moved_radiationCore pot g k
        · refine bind_moved (moved_attr daily "tmin" k) fun tmin htmin => ?_
          refine bind_moved (moved_attr daily "tmax" k) fun tmax _ => ?_
          refine bind_moved (moved_bristow tmin tmax _ bristcamp k ?_) fun g _ => moved_radiationCore pot g k
          intro t ht
          have : t ∈ daily.index := by
            unfold Frame.attr at htmin
            cases hc : daily.col? "tmin" with
            | none => rw [hc] at htmin; cases htmin
            | some s =>
              rw [hc] at htmin; cases htmin
              unfold Frame.col? at hc
              obtain ⟨c, _, rfl⟩ := Option.map_eq_some_iff.1 hc
              obtain ⟨r, hr, rfl⟩ := List.mem_map.1 ht
              exact (List.of_mem_zip hr).1
          exact month_moved hm' (hw t this).1 (hw t this).2

/-- **C124 (sun times).** -/
theorem C124_sun_times (dates : List Time) (lon lat tz : ℝ) (a b k : Int) (hw : WithinDays dates a b) (hd : SameDayOfYear a b k) :
    getSunTimes (dates.map (· + k * DAY)) lon lat tz = Series.shiftDays (getSunTimes dates lon lat tz) k := by
  unfold getSunTimes
  rw [shiftDays_of_map, List.map_map]
  apply List.map_congr_left
  intro t ht
  simp only [Function.comp_def, doy_moved hd (hw t ht).1 (hw t ht).2]

/-- **C124 (potential radiation).** -/
theorem C124_potential_radiation (dates : List Time) (lon lat tz slope azimuth cloud : ℝ) (a b k : Int) (hw : WithinDays dates a b) (hd : SameDayOfYear a b k) :
    potentialRadiation (dates.map (· + k * DAY)) lon lat tz slope azimuth cloud = Series.shiftDays (potentialRadiation dates lon lat tz slope azimuth cloud) k := by
  unfold potentialRadiation potentialRadiationSplit
  rw [shiftDays_of_map, List.map_map, List.map_map, List.map_map]
  apply List.map_congr_left
  intro t ht
  simp only [Function.comp_def, doy_moved hd (hw t ht).1 (hw t ht).2, hourOf_moved, minuteOf_moved]

end Melodist
