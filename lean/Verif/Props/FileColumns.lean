import Verif.Props.Dwd
import Verif.Props.HumidityStats
import Verif.Props.StationData
import Verif.Props.TemperatureC
import Verif.Props.Smet
import Verif.Lemmas.Station
import Verif.Lemmas.TemperatureCourse

/-!
# C121: the columns of daily data read from files
-/

set_option linter.unusedSectionVars false

namespace Melodist
open Spec

section
variable {K : Type} [Field K] [LinearOrder K]

theorem col_none_iff {f : Frame K} {name : String} : f.col? name = none ↔ name ∉ f.cols.map fun c => c.1 := by
  unfold Frame.col?
  rw [Option.map_eq_none_iff, List.find?_eq_none]
  simp only [beq_iff_eq, List.mem_map, not_exists, not_and]

end

namespace DataIO
section
variable {K : Type} [Field K] [LinearOrder K]

theorem dwdConvert_names (cols : List (String × List (XF K))) : ∀ c ∈ dwdConvert cols, c.1 ∈ dwdNames.map fun p => p.2 := by
  intro c hc
  unfold dwdConvert at hc
  dsimp only at hc
  rw [List.mem_map] at hc
  obtain ⟨c', hc', rfl⟩ := hc
  rw [List.mem_filter] at hc'
  have := List.contains_iff_mem.1 hc'.2
  split <;> exact this

theorem single_names {file : Text} {mode : String} {skipLast : Option Bool} {f : Frame K} (h : readSingleDwd file mode skipLast = .ok f) :
    ∀ c ∈ f.cols, c.1 ∈ dwdNames.map fun p => p.2 := by
  unfold readSingleDwd at h
  dsimp only at h
  split at h
  · cases h
  · obtain ⟨t, _, h⟩ := py_bind_inv h
    split at h
    · cases h
    · obtain ⟨_, _, h⟩ := py_bind_inv h
      obtain ⟨_, _, h⟩ := py_bind_inv h
      obtain ⟨_, _, h⟩ := py_bind_inv h
      cases h
      exact dwdConvert_names _

theorem join_names {a b f : Frame K} {P : String → Prop} (ha : ∀ c ∈ a.cols, P c.1) (hb : ∀ c ∈ b.cols, P c.1) (h : outerJoin a b = .ok f) :
    ∀ c ∈ f.cols, P c.1 := by
  unfold outerJoin at h
  split at h
  · cases h
  · split at h
    · cases h
    · cases h
      intro c hc
      rw [List.mem_append, List.mem_map, List.mem_map] at hc
      rcases hc with ⟨c', h', rfl⟩ | ⟨c', h', rfl⟩
      · exact ha c' h'
      · exact hb c' h'

theorem fold_names {mode : String} {skipLast : Option Bool} : ∀ {files : List Text} {a f : Frame K}, (∀ c ∈ a.cols, c.1 ∈ dwdNames.map fun p => p.2) →
    files.foldlM (fun data g => do outerJoin data (← readSingleDwd g mode skipLast)) a = .ok f →
    ∀ c ∈ f.cols, c.1 ∈ dwdNames.map fun p => p.2
  | [], a, f, ha, h => by
    cases h
    exact ha
  | g :: gs, a, f, ha, h => by
    rw [List.foldlM_cons] at h
    obtain ⟨b, hb, h⟩ := py_bind_inv h
    obtain ⟨s, hs, hb⟩ := py_bind_inv hb
    exact fold_names (join_names (P := fun n => n ∈ dwdNames.map fun p => p.2) ha (single_names hs) hb) h

end
end DataIO

/-- **C121 (DWD files).**  Whatever the files contain: a frame returned by `read_dwd` has no other columns than tmean, tmin, tmax, precip, glob,
hum, wind and sun_h. -/
theorem C121_dwd {K : Type} [Field K] [LinearOrder K] {files : List Text} {mode : String} {skipLast : Option Bool} {f : Frame K}
    (h : DataIO.readDwd files mode skipLast = .ok f) :
    ∀ c ∈ f.cols, c.1 ∈ ["tmean", "tmin", "tmax", "precip", "glob", "hum", "wind", "sun_h"] := by
  unfold DataIO.readDwd at h
  cases files with
  | nil => cases h
  | cons g gs =>
    obtain ⟨a, ha, h⟩ := py_bind_inv h
    exact DataIO.fold_names (DataIO.single_names ha) h

theorem smet_rename (n : String) : Smet.rename Smet.readD n ∈ ["tmean", "tmax", "tmin", "precip", "glob", "hum", "wind"] ∨
    Smet.rename Smet.readD n = n := by
  unfold Smet.rename
  cases hf : Smet.readD.find? fun p => p.1 == n with
  | none => exact .inr rfl
  | some p =>
    left
    have := List.mem_of_find?_eq_some hf
    simp only [Smet.readD, List.mem_cons, List.not_mem_nil, or_false] at this
    rcases this with rfl | rfl | rfl | rfl | rfl | rfl | rfl <;> simp

/-- **C121 (SMET files).**  A frame of daily data returned by `read_smet` has, besides tmean, tmax, tmin, precip, glob, hum and wind, only columns
whose names stand in the entry `fields` of the header of the file. -/
theorem C121_smet {K : Type} [Field K] [LinearOrder K] {api : PandasApi} {file : Text} {header : Smet.Pairs} {f : Frame K}
    (h : Smet.readSmet api file "d" = .ok (header, f)) :
    ∃ fields, Smet.getItem header "fields" = .ok fields ∧
      ∀ c ∈ f.cols, c.1 ∈ ["tmean", "tmax", "tmin", "precip", "glob", "hum", "wind"] ∨ c.1.toList ∈ Text.words fields.toList := by
  unfold Smet.readSmet at h
  dsimp only at h
  obtain ⟨r, _, h⟩ := py_bind_inv h
  obtain ⟨hd, start⟩ := r
  dsimp only at h
  obtain ⟨fs, hfs, h⟩ := py_bind_inv h
  obtain ⟨um, _, h⟩ := py_bind_inv h
  obtain ⟨mult, _, h⟩ := py_bind_inv h
  cases start with
  | none => cases h
  | some start =>
    dsimp only at h
    split at h
    · cases h
    split at h
    · cases h
    · obtain ⟨cols, hcols, h⟩ := py_bind_inv h
      obtain ⟨_, _, h⟩ := py_bind_inv h
      cases h
      refine ⟨fs, hfs, ?_⟩
      unfold Smet.scale at hcols
      split at hcols
      case isFalse => cases hcols
      case isTrue hlen =>
        cases hcols
        intro c hc
        unfold Smet.renameCols at hc
        rw [if_pos rfl, List.mem_map] at hc
        obtain ⟨c', hc', rfl⟩ := hc
        rcases smet_rename c'.1 with h1 | h1
        · exact .inl h1
        · right
          rw [h1]
          obtain ⟨k, hk, hk'⟩ := List.mem_iff_getElem.1 hc'
          rw [List.getElem_zipWith] at hk'
          rw [← hk', List.getElem_mapIdx]
          dsimp only
          have hl : k < (((Text.words fs.toList).map String.ofList).filter fun c => c != "timestamp").length := by
            rw [List.length_zipWith, List.length_mapIdx] at hk
            exact lt_of_lt_of_le hk (min_le_left _ _)
          have hm := List.getElem_mem hl
          have := (List.mem_filter.1 hm).1
          rw [List.mem_map] at this
          obtain ⟨w, hw, hw'⟩ := this
          rw [← hw', String.toList_ofList]
          exact hw

noncomputable section

/-- **C121 (temperature).**  Daily data without a column `temp`: none of the sine methods and not 'mean_course_mean' ever return anything, whatever
the other arguments.  On consecutive days with tmin and tmax, and times of the extremes for every day, the exception is AttributeError;
'mean_course_min_max' returns its result as ever. -/
theorem C121_temperature {daily : Frame ℝ} (hno : daily.col? "temp" = none) (api : PandasApi) (mmt : String) (modNight : Bool)
    (md : Option (List (Int × XF ℝ))) :
    (∀ method, method ≠ "mean_course_min_max" → ∀ course sun, ∃ e, disaggregateTemperature api daily method mmt modNight md course sun = .error e) ∧
    ∀ d0 n tmin tmax, daily.index = (List.range n).map (fun i : Nat => at00 (d0 + i)) → 0 < n →
      daily.col? "tmin" = some (dailyS d0 n tmin) → daily.col? "tmax" = some (dailyS d0 n tmax) →
      (∀ method ∈ ["sine_min_max", "sine_mean", "sine"], ∀ course (sun : Series SunTimes),
        (∀ i < n, ∃ lo hi, IsLoc mmt md sun (at00 (d0 + (i : Nat))) lo hi) → (mmt = "sun_loc_shift" → sun.index = daily.index) →
        disaggregateTemperature api daily method mmt modNight md course (some sun) = .error .attributeError) ∧
      ∀ c : MeanCourse ℝ, (∀ i < n, monthOf (at00 (d0 + (i : Nat))) ∈ c.months) → (∀ h : Nat, h < 24 → (h : Int) ∈ c.hours) → ∀ sun,
        disaggregateTemperature api daily "mean_course_mean" mmt modNight md (some c) sun = .error .attributeError ∧
        disaggregateTemperature api daily "mean_course_min_max" mmt modNight md (some c) sun =
          .ok (hourlyS d0 n fun i h => c.val (monthOf (at00 (d0 + (i : Nat)))) (h : Nat) * (tmax i - tmin i) + tmin i) := by
  constructor
  · intro method hm course sun
    cases hr : disaggregateTemperature api daily method mmt modNight md course sun with
    | error e => exact ⟨e, rfl⟩
    | ok out =>
      exfalso
      unfold disaggregateTemperature at hr
      split at hr
      · cases hr
      · obtain ⟨index, _, hr⟩ := py_bind_inv hr
        split at hr
        · unfold sineTemperature at hr
          obtain ⟨loc, hl, hr⟩ := py_bind_inv hr
          unfold locTable at hl
          obtain ⟨_, _, hl⟩ := py_bind_inv hl
          obtain ⟨_, _, hl⟩ := py_bind_inv hl
          obtain ⟨_, _, hl⟩ := py_bind_inv hl
          obtain ⟨_, _, hl⟩ := py_bind_inv hl
          obtain ⟨_, _, hl⟩ := py_bind_inv hl
          rw [attr_missing hno] at hl
          cases hl
        · unfold courseMean at hr
          obtain ⟨_, _, hr⟩ := py_bind_inv hr
          obtain ⟨_, _, hr⟩ := py_bind_inv hr
          obtain ⟨_, _, hr⟩ := py_bind_inv hr
          obtain ⟨_, _, hr⟩ := py_bind_inv hr
          cases course with
          | none => cases hr
          | some c =>
            dsimp only at hr
            obtain ⟨_, _, hr⟩ := py_bind_inv hr
            rw [attr_missing hno] at hr
            cases hr
  · intro d0 n tmin tmax hi hn hmin hmax
    refine ⟨?_, ?_⟩
    · intro method hm course sun hloc hs
      have hm' : method = "sine_min_max" ∨ method = "sine_mean" ∨ method = "sine" := by simpa using hm
      obtain ⟨locs, hl, ht⟩ := minMaxLoc_ok hi hn hloc hs
      obtain ⟨lo, hlo⟩ := mapM_exists (l := locs) (f := fun p => p.1.toInt) fun p hp => (ht p hp).1
      obtain ⟨hi', hhi⟩ := mapM_exists (l := locs) (f := fun p => p.2.toInt) fun p hp => (ht p hp).2
      unfold disaggregateTemperature
      rw [if_neg (by rcases hm' with rfl | rfl | rfl <;> simp), temp_hourly_index api hi hn, py_ok_bind, if_pos hm']
      unfold sineTemperature locTable
      rw [hl, py_ok_bind, hlo, py_ok_bind, hhi, py_ok_bind, attr_ok hmin, py_ok_bind, attr_ok hmax, py_ok_bind, attr_missing hno]
      rfl
    · intro c hc hh sun
      refine ⟨?_, courseMinMax_eq api hi hn hmin hmax mmt modNight md sun hc hh⟩
      unfold disaggregateTemperature
      rw [if_neg (by simp), temp_hourly_index api hi hn, py_ok_bind, if_neg (by decide), if_neg (by decide)]
      unfold courseMean
      rw [attr_ok hmax, py_ok_bind, reindexFfill_limit_daily_hourly, py_ok_bind, attr_ok hmin, py_ok_bind,
        reindexFfill_limit_daily_hourly, py_ok_bind]
      dsimp only
      rw [mapM_lookup_ok (c := c.zeroMean) hc hh, py_ok_bind, attr_missing hno]
      rfl

/-- the names of the columns stay when a frame is assigned to a station -/
theorem checkDaily_names {f g : Frame ℝ} {dt fr : Bool} (h : checkDaily (.frame f dt fr) = .ok g) : (g.cols.map fun c => c.1) = f.cols.map fun c => c.1 := by
  unfold checkDaily at h
  dsimp only at h
  split at h
  · cases h
  · split at h
    · cases h
    · split at h
      · cases h
      · split at h
        · rw [py_ok_bind] at h
          split at h
          · cases h; rfl
          · cases h
        · split at h
          · obtain ⟨g', hg', h⟩ := py_bind_inv h
            split at h
            · cases h
              unfold Frame.reindex at hg'
              split at hg'
              · cases hg'
                rw [List.map_map]; rfl
              · cases hg'
            · cases h
          · cases h

/-- after a successful assignment the station holds daily data with the columns of the frame -/
theorem setDaily_names {api : PandasApi} {w w' : World} {i : Nat} {f : Frame ℝ} {dt fr : Bool}
    (h : w.setDaily api i (.frame f dt fr) = (w', none)) :
    ∃ g, (w'.stations i).daily = some g ∧ (g.cols.map fun c => c.1) = f.cols.map fun c => c.1 := by
  unfold World.setDaily at h
  cases hc : checkDaily (.frame f dt fr) with
  | error e => rw [hc] at h; cases h
  | ok g =>
    rw [hc] at h
    dsimp only at h
    split at h
    · cases h
    · refine ⟨g, ?_, checkDaily_names hc⟩
      split at h
      · rcases World.calcSunTimes_inv _ i with ⟨e, h'⟩ | ⟨f', lon, lat, tz, hf', _, _, _, h'⟩
        · rw [h'] at h; cases h
        · rw [h'] at h
          cases h
          simp [World.setStation, World.setFrame]
      · cases h
        simp [World.setStation, World.setFrame]

theorem writeCol_error (w : World) (i : Nat) (name : String) {v : Py WindResult} {e : PyErr} (h : v = .error e) : w.writeCol i name v = (w, some e) := by
  rw [h]; rfl

/-- **C121 (stations).**  After `station.data_daily = df` succeeded for a frame without the columns `temp`, `ssd` and `hum_min` (daily data read by
`read_dwd`, or by `read_smet` without such fields): `disaggregate_temperature` with any method but 'mean_course_min_max', `disaggregate_humidity` with
'min_max' and `disaggregate_radiation` with 'pot_rad_via_ssd' raise an exception and leave all frames as they are. -/
theorem C121_station {api : PandasApi} {w w' : World} {i : Nat} {f : Frame ℝ} {dt fr : Bool} (h : w.setDaily api i (.frame f dt fr) = (w', none)) :
    ("temp" ∉ f.cols.map (fun c => c.1) → ∀ method mmt modNight, method ≠ "mean_course_min_max" →
      ∃ e, w'.temperature api i method mmt modNight = (w', some e)) ∧
    ("hum_min" ∉ f.cols.map (fun c => c.1) → ∀ preserve, ∃ e, w'.humidity api i "min_max" preserve = (w', some e)) ∧
    ("ssd" ∉ f.cols.map (fun c => c.1) → ∀ pot, ∃ w'' e, w'.radiation api i "pot_rad_via_ssd" pot = (w'', some e) ∧
      w''.frames = w'.frames ∧ w''.stats = w'.stats ∧ ∀ j, (w''.stations j).daily = (w'.stations j).daily ∧ (w''.stations j).disagg = (w'.stations j).disagg) := by
  obtain ⟨g, hg, hn⟩ := setDaily_names h
  refine ⟨?_, ?_, ?_⟩
  · intro hno method mmt modNight hm
    have hno' : g.col? "temp" = none := col_none_iff.2 (hn ▸ hno)
    obtain ⟨e, he⟩ := (C121_temperature hno' api mmt modNight (w'.statOf i).temp.maxDelta).1 method hm (w'.statOf i).temp.course (w'.stations i).sun
    refine ⟨e, ?_⟩
    unfold World.temperature
    apply writeCol_error
    rw [hg]
    dsimp only
    rw [he]
    rfl
  · intro hno preserve
    have hno' : g.col? "hum_min" = none := col_none_iff.2 (hn ▸ hno)
    unfold World.humidity
    cases ht : w'.disaggAttr i "temp" with
    | error e => exact ⟨e, writeCol_error _ _ _ rfl⟩
    | ok temp =>
      refine ⟨.assertionError, writeCol_error _ _ _ ?_⟩
      rw [py_ok_bind, hg]
      dsimp only
      rw [(C42_invalid_options api g (some temp) _ _ _ _ preserve).2.2.1 (.inl hno')]
      rfl
  · intro hno pot
    have hno' : g.col? "ssd" = none := col_none_iff.2 (hn ▸ hno)
    have key : ∀ v : World, (v.stations i).daily = some g → ∃ e, v.radiationBody api i "pot_rad_via_ssd" pot = (v, some e) := by
      intro v hv
      unfold World.radiationBody
      cases hp : v.potRadArg i "pot_rad_via_ssd" pot with
      | error e => exact ⟨e, writeCol_error _ _ _ rfl⟩
      | ok p =>
        have hr : ∃ e, disaggregateRadiation api g (v.stations i).sun p "pot_rad_via_ssd" (.monthly (v.statOf i).glob.angA (v.statOf i).glob.angB)
            (.monthly (v.statOf i).glob.bcA (v.statOf i).glob.bcC) (v.statOf i).glob.course = .error e := by
          unfold disaggregateRadiation
          rw [if_neg (by simp)]
          cases hourlyIndex api g.index with
          | error e => exact ⟨e, rfl⟩
          | ok idx =>
            rw [py_ok_bind, if_neg (by decide)]
            cases p with
            | none => exact ⟨_, rfl⟩
            | some p =>
              dsimp only
              rw [if_neg (by decide), if_pos rfl]
              unfold ssdDaily
              cases (v.stations i).sun with
              | none => exact ⟨_, rfl⟩
              | some s =>
                dsimp only
                rw [attr_missing hno']
                exact ⟨_, rfl⟩
        obtain ⟨e, hr⟩ := hr
        refine ⟨e, writeCol_error _ _ _ ?_⟩
        rw [py_ok_bind, hv]
        dsimp only
        rw [hr]
        rfl
    unfold World.radiation
    split
    · rcases World.calcSunTimes_inv w' i with ⟨e, h'⟩ | ⟨f', lon, lat, tz, hf', _, _, _, h'⟩
      · rw [h']
        exact ⟨w', e, rfl, rfl, rfl, fun j => ⟨rfl, rfl⟩⟩
      · rw [h']
        dsimp only
        obtain ⟨e, he⟩ := key (w'.setStation i { w'.stations i with sun := some (getSunTimes f'.index lon lat tz) }) (by simp [World.setStation, hg])
        refine ⟨_, e, he, rfl, rfl, fun j => ?_⟩
        by_cases hj : j = i
        · subst hj; simp [World.setStation]
        · simp [World.setStation, Function.update_of_ne hj]
    · obtain ⟨e, he⟩ := key w' hg
      exact ⟨w', e, he, rfl, rfl, fun j => ⟨rfl, rfl⟩⟩

/-! ## examples -/

/-- daily data as they come from the files of a weather service -/
def fileFrame : Frame ℝ :=
  ⟨[at00 0, at00 1], [("tmin", [.fin 283, .fin 273]), ("tmax", [.fin 293, .fin 303]), ("tmean", [.fin 288, .fin 288]), ("sun_h", [.fin 5, .fin 3])]⟩

/-- C121 (temperature): the default method -/
example : disaggregateTemperature .modern fileFrame (sun := some exSun) = .error .attributeError :=
  ((C121_temperature (daily := fileFrame) rfl .modern "fix" false none).2 0 2 exMin exMax rfl (by decide) rfl rfl).1 "sine_min_max" (by simp) none exSun
    (fun _ _ => ⟨7, 14, .inl ⟨rfl, rfl, rfl⟩⟩) (by simp)

/-- C121 (temperature): the only method that works -/
example : ∃ out, disaggregateTemperature .modern fileFrame "mean_course_min_max" "fix" false none (some exCourse) none = .ok out :=
  ⟨_, (((C121_temperature (daily := fileFrame) rfl .modern "fix" false none).2 0 2 exMin exMax rfl (by decide) rfl rfl).2 exCourse exCovers.1 exCovers.2
    none).2⟩

/-- C121 (station): the frame can be assigned, and then the default method of `disaggregate_temperature` fails -/
example : ∃ w e, World.setDaily .modern {} 0 (.frame fileFrame true true) = (w, none) ∧
    w.temperature .modern 0 "sine_min_max" "fix" false = (w, some e) := by
  have h : (World.setDaily .modern {} 0 (.frame fileFrame true true)).2 = none := by
    refine (World.C63_with_frequency .modern {} 0 fileFrame 0 1 (by decide) rfl ?_ ?_).2.2.2 rfl
    · intro name s h r hr
      unfold Frame.col? at h
      rw [Option.map_eq_some_iff] at h
      obtain ⟨c, hc, rfl⟩ := h
      have hc := List.mem_of_find?_eq_some hc
      simp only [fileFrame, List.mem_cons, List.not_mem_nil, or_false] at hc
      rcases hc with rfl | rfl | rfl | rfl <;> simp [fileFrame] at hr <;> rcases hr with rfl | rfl <;> trivial
    · intro name hn s h t x hx
      rcases hn with rfl | rfl | rfl <;> cases h <;> simp [fileFrame] at hx <;> rcases hx with ⟨_, rfl⟩ | ⟨_, rfl⟩ <;> norm_num
  obtain ⟨e, he⟩ := (C121_station (i := 0) (Prod.ext rfl h : World.setDaily .modern {} 0 (.frame fileFrame true true) = (_, none))).1 (by decide)
    "sine_min_max" "fix" false (by decide)
  exact ⟨_, e, Prod.ext rfl h, he⟩

/-- C121 (DWD): a file with a column called `temp` -/
example : okAnd (DataIO.readDwd (K := ℚ) [" MESS_DATUM;LUFTTEMPERATUR;temp;SONNENSCHEINDAUER\n20160101;1.5;9.5;3.0\n".toList] "d" none) (fun f =>
    f.cols.map (fun c => c.1) = ["tmean", "sun_h"]) := by
  decide +kernel

/-- C121 (SMET): a file with temperature and a field the package does not know -/
example : okAnd (Smet.readSmet (K := ℚ) .legacy
    "SMET 1.1 ASCII\n[HEADER]\nfields = timestamp TA HS\nunits_multiplier = 1 1 1\n[DATA]\n2020-01-01T00:00 274 5\n".toList "d") (fun r =>
    r.2.cols = [("tmean", [.fin 274]), ("HS", [.fin 5])]) := by
  decide +kernel

end

end Melodist
