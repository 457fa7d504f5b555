import Verif.Lemmas.SavedStats
import Verif.Props.Order
import Verif.Lemmas.TemperatureCourse
import Verif.Props.Humidity

/-!
# C107: statistics that were fitted, saved, loaded and used
-/

set_option linter.unusedSectionVars false

namespace Melodist
open Spec

namespace StatsObj

/-! ## What was fitted can be saved and loaded -/

/-- hourly data with full columns and rows in each of the twelve calendar months -/
structure AllMonths (f : Frame ℝ) : Prop where
  wf : f.WF
  months : ∀ m : Int, 1 ≤ m → m ≤ 12 → ∃ t ∈ f.index, monthOf t = m

/-- every column has rows in each of the twelve calendar months -/
def ColMonths (f : Frame ℝ) : Prop := ∀ c s, f.col? c = some s → ∀ m : Int, 1 ≤ m → m ≤ 12 → ∃ t ∈ s.index, monthOf t = m

theorem AllMonths.cols {f : Frame ℝ} (h : AllMonths f) : ColMonths f := by
  intro c s hs m h1 h2
  rw [col?_index h.wf hs]
  exact h.months m h1 h2

theorem attr_some {f : Frame ℝ} {c : String} {s : Series (XF ℝ)} (h : f.attr c = .ok s) : f.col? c = some s := by
  unfold Frame.attr at h
  cases hc : f.col? c with
  | none => rw [hc] at h; cases h
  | some x => rw [hc] at h; exact congrArg some (Except.ok.inj h)

/-- what is preserved by every call -/
structure Keeps (s : StatsObj) : Prop where
  obj : Exportable s.obj
  data : ∀ f, s.data = some f → ColMonths f
  pos : ∀ lon tz, s.obj.lon = some lon → s.obj.tz = some tz → lon / 15 - tz ≤ 40

theorem precip_stats (months : Option (List (List Int))) (avg : Bool) (p : ℝ) (s : StatsObj)
    (h : ∀ l, s.obj.precip.stats = some l → ∀ o ∈ l, (∃ c, o = .one c) ∨ ∃ cs, o = .many cs) :
    ∀ l, (s.calcPrecipitation months avg p).1.obj.precip.stats = some l → ∀ o ∈ l, (∃ c, o = CascOptions.one c) ∨ ∃ cs, o = CascOptions.many cs := by
  obtain ⟨⟨slon, slat, stz, w, pr, hu, te, gl⟩, sd⟩ := s
  have hnil : ∀ l, some ([] : List (CascOptions ℝ)) = some l → ∀ o ∈ l, (∃ c, o = CascOptions.one c) ∨ ∃ cs, o = CascOptions.many cs := by
    rintro l e o ho
    cases e
    cases ho
  unfold calcPrecipitation
  dsimp only
  cases sd with
  | none =>
    dsimp only
    cases firstSeasonError (months.getD [wholeYear]) .attributeError with
    | none => exact hnil
    | some e => exact h
  | some f =>
    dsimp only
    cases f.col? "precip" with
    | none =>
      dsimp only
      cases firstSeasonError (months.getD [wholeYear]) .keyError with
      | none => exact hnil
      | some e => exact h
    | some q =>
      dsimp only
      cases (buildCasc q true 9 (some (months.getD [wholeYear])) avg p).2 with
      | error e => exact h
      | ok l =>
        intro l' e o ho
        dsimp only at e
        cases e
        obtain ⟨x, -, rfl⟩ := List.mem_map.1 ho
        cases x with
        | inl c => exact .inl ⟨c, rfl⟩
        | inr cs => exact .inr ⟨cs, rfl⟩

theorem keeps_call {s : StatsObj} (h : Keeps s) (c : Call) (hc : ∀ f d b, c = .data (.frame f d b) → AllMonths f) : Keeps (s.call c).1 := by
  obtain ⟨ho, hd, hp⟩ := h
  have own := C86_own_part s c
  have pos : ∀ lon tz, (s.call c).1.obj.lon = some lon → (s.call c).1.obj.tz = some tz → lon / 15 - tz ≤ 40 := by
    intro lon tz h1 h2
    rw [own.1] at h1
    rw [own.2.2.1] at h2
    exact hp lon tz h1 h2
  cases c with
  | data arg =>
    have e : s.call (.data arg) = s.setData arg := rfl
    refine ⟨?_, ?_, pos⟩
    · rw [e]
      unfold setData
      match arg with
      | .other => exact ho
      | .frame f dt b =>
        dsimp only
        split_ifs <;> exact ho
    · rw [e]
      unfold setData
      match arg, hc with
      | .other, _ => exact hd
      | .frame f dt b, hc =>
        dsimp only
        split_ifs
        · exact hd
        · exact hd
        · rintro f' ⟨⟩
          exact (hc f dt b rfl).cols
  | wind opt =>
    have e : s.call (.wind opt) = s.calcWind opt := rfl
    rw [e, calcWind_eff] at *
    exact ⟨⟨ho.maxDelta, ho.tempCourse, ho.globCourse, ho.table, ho.stats, ho.ang, ho.bc⟩, hd, hp⟩
  | humidity =>
    have e : s.call .humidity = s.calcHumidity := rfl
    rw [e, calcHumidity_eff] at *
    refine ⟨⟨ho.maxDelta, ho.tempCourse, ho.globCourse, ?_, ho.stats, ho.ang, ho.bc⟩, hd, hp⟩
    dsimp only
    unfold humEff
    cases hs : s.data with
    | none => exact ho.table
    | some f =>
      dsimp only
      cases hr : dewpointRegression f with
      | error e => exact ho.table
      | ok r =>
        obtain ⟨a, b⟩ := r
        cases a <;> cases b <;> try exact ho.table
        dsimp only
        cases ht : monthHourPrecipMean f with
        | error e => exact ho.table
        | ok t =>
          rintro t' ⟨⟩
          exact table_length (hd f hs) ht
  | temperature =>
    have e : s.call .temperature = s.calcTemperature := rfl
    rw [e, calcTemperature_eff] at *
    have key : (∀ l, (tempEff s.data s.obj.lon s.obj.lat s.obj.tz s.obj.temp).1.maxDelta = some l → (l.map Prod.fst).Nodup ∧
        ((∃ e ∈ l, ∃ x : ℝ, e.2 = .fin x ∧ x ≤ 31536000) ∨ ∀ e ∈ l, ∀ x : ℝ, e.2 ≠ .fin x)) ∧
        ∀ c, (tempEff s.data s.obj.lon s.obj.lat s.obj.tz s.obj.temp).1.course = some c → FullCourse c := by
      unfold tempEff
      cases hs : s.data with
      | none => exact ⟨ho.maxDelta, ho.tempCourse⟩
      | some f =>
        dsimp only
        cases ht : f.attr "temp" with
        | error e => exact ⟨ho.maxDelta, ho.tempCourse⟩
        | ok temp =>
          dsimp only
          cases hlon : s.obj.lon with
          | none => exact ⟨ho.maxDelta, ho.tempCourse⟩
          | some lon =>
            cases hlat : s.obj.lat with
            | none => exact ⟨ho.maxDelta, ho.tempCourse⟩
            | some lat =>
              cases htz : s.obj.tz with
              | none => exact ⟨ho.maxDelta, ho.tempCourse⟩
              | some tz =>
                refine ⟨?_, ?_⟩
                · rintro l ⟨⟩
                  refine ⟨shift_labels temp lon lat tz, ?_⟩
                  by_cases hex : ∃ e ∈ getShiftByData temp lon lat tz, ∃ x : ℝ, e.2 = .fin x
                  · left
                    obtain ⟨e, he, x, hx⟩ := hex
                    refine ⟨e, he, x, hx, ?_⟩
                    rcases shift_atMost temp (hp lon tz hlon htz) e he with h1 | ⟨y, h1, h2⟩
                    · rw [hx] at h1; cases h1
                    · rw [hx] at h1
                      cases h1
                      linarith
                  · right
                    intro e he x hx
                    exact hex ⟨e, he, x, hx⟩
                · rintro c ⟨⟩
                  exact fullCourse_mean (hd f hs "temp" temp (attr_some ht)) true
    exact ⟨⟨key.1, key.2, ho.globCourse, ho.table, ho.stats, ho.ang, ho.bc⟩, hd, hp⟩
  | precipitation months avg p =>
    have hst := precip_stats months avg p s ho.stats
    have hdata : ∀ f, (s.call (.precipitation months avg p)).1.data = some f → ColMonths f := by
      intro f hf
      have o := own.2.2.2.2.2.2.2.2.2 rfl
      cases hs : s.data with
      | none => rw [o.1 hs] at hf; cases hf
      | some g =>
        obtain ⟨f', h1, h2⟩ := o.2 g hs
        rw [h1] at hf
        cases hf
        intro c q hq m m1 m2
        by_cases hcp : c = "precip"
        · subst hcp
          cases hg : g.col? "precip" with
          | none => rw [h2.2.2.1 hg] at hq; cases hq
          | some p =>
            obtain ⟨t, ht, e⟩ := hd g hs "precip" p hg m m1 m2
            refine ⟨t, ?_, e⟩
            rcases h2.2.2.2 p hg with e1 | e1 <;> rw [e1] at hq <;> cases hq
            · exact ht
            · unfold Series.index at ht ⊢
              rw [List.map_map]
              exact ht
        · rw [h2.2.1 c hcp] at hq
          exact hd g hs c q hq m m1 m2
    have e : s.call (.precipitation months avg p) = s.calcPrecipitation months avg p := rfl
    refine ⟨?_, hdata, pos⟩
    rw [e]
    rw [calcPrecipitation_eff] at hst ⊢
    exact ⟨ho.maxDelta, ho.tempCourse, ho.globCourse, ho.table, hst, ho.ang, ho.bc⟩
  | radiation api ang bc daily dl how =>
    have e : s.call (.radiation api ang bc daily dl how) = s.calcRadiation api ang bc daily dl how := rfl
    rw [e, calcRadiation_eff] at *
    have key : ∀ g : GlobStats, (∀ c, g.course = some c → FullCourse c) → Labelled (g.angA, g.angB) → Labelled (g.bcA, g.bcC) →
        (∀ c, (radEff api ang bc daily dl how s.data s.obj.lon s.obj.lat s.obj.tz g).1.course = some c → FullCourse c) ∧
        Labelled ((radEff api ang bc daily dl how s.data s.obj.lon s.obj.lat s.obj.tz g).1.angA,
          (radEff api ang bc daily dl how s.data s.obj.lon s.obj.lat s.obj.tz g).1.angB) ∧
        Labelled ((radEff api ang bc daily dl how s.data s.obj.lon s.obj.lat s.obj.tz g).1.bcA,
          (radEff api ang bc daily dl how s.data s.obj.lon s.obj.lat s.obj.tz g).1.bcC) := by
      intro g g1 g2 g3
      unfold radEff
      split
      · exact ⟨g1, g2, g3⟩
      · cases hs : s.data with
        | none => exact ⟨g1, g2, g3⟩
        | some f =>
          dsimp only
          cases hg : f.attr "glob" with
          | error e => exact ⟨g1, g2, g3⟩
          | ok glob =>
            have hfull : ∀ c, (some (meanDailyCourseByMonth glob) : Option (MeanCourse ℝ)) = some c → FullCourse c := by
              rintro c ⟨⟩
              exact fullCourse_mean (hd f hs "glob" glob (attr_some hg)) false
            dsimp only
            cases daily with
            | none => exact ⟨hfull, g2, g3⟩
            | some fd =>
              dsimp only
              cases hourlyIndex api fd.index with
              | error e => exact ⟨hfull, g2, g3⟩
              | ok hours =>
                dsimp only
                cases s.obj.lon <;> cases s.obj.lat <;> cases s.obj.tz <;> try exact ⟨hfull, g2, g3⟩
                rename_i lon lat tz
                dsimp only
                obtain ⟨k1, k2, k3⟩ := fitRadiation_labelled ang bc { obj := { glob := { g with course := some (meanDailyCourseByMonth glob) } } } fd dl how
                  ((potentialRadiation hours lon lat tz).resampleD meanSkip) (glob.resampleD meanSkip) g2 g3
                refine ⟨?_, k1, k2⟩
                intro c hc
                exact hfull c (k3.symm.trans hc)
    obtain ⟨k1, k2, k3⟩ := key s.obj.glob ho.globCourse ho.ang ho.bc
    exact ⟨⟨ho.maxDelta, ho.tempCourse, k1, ho.table, ho.stats, k2, k3⟩, hd, hp⟩

theorem keeps_calls : ∀ (l : List Call) {s : StatsObj}, Keeps s → (∀ f d b, Call.data (.frame f d b) ∈ l → AllMonths f) → Keeps (s.calls l)
  | [], _, h, _ => h
  | c :: l, s, h, hl => by
    have e : s.calls (c :: l) = ((s.call c).1).calls l := rfl
    rw [e]
    exact keeps_calls l (keeps_call h c fun f d b hc => hl f d b (hc ▸ List.mem_cons_self ..)) fun f d b hm => hl f d b (List.mem_cons_of_mem _ hm)

theorem allMonths_labels (x : XF ℝ) : (allMonths x).map Prod.fst = [1, 2, 3, 4, 5, 6, 7, 8, 9, 10, 11, 12] := by
  unfold allMonths
  rw [List.map_map]
  rfl

/-- a new object can be exported -/
theorem exportable_new (lon lat tz : Option ℝ) : Exportable { lon := lon, lat := lat, tz := tz } where
  maxDelta := fun _ h => by cases h
  tempCourse := fun _ h => by cases h
  globCourse := fun _ h => by cases h
  table := fun _ h => by cases h
  stats := fun _ h => by cases h
  ang := ⟨by rw [allMonths_labels, allMonths_labels], by rw [allMonths_labels]; decide⟩
  bc := ⟨by rw [allMonths_labels, allMonths_labels], by rw [allMonths_labels]; decide⟩

/-- **C107** (saving and loading).  Whatever methods `calc_…` are called on a new `StationStatistics` object, in whatever order, with whatever
arguments and optimisers, whether they raise or not: if every hourly data set given to the object has full columns with rows in all calendar months
and the longitude and the time zone are at most 360 degrees and 16 hours, then the object can be exported to JSON, the file can be imported, and the
imported object has all parameters, exactly (wind, precipitation, dew point) or to 10 decimals (tables). -/
theorem C107_save_and_load {data : Option DailyArg} {lon lat tz : Option ℝ} {s : StatsObj} (hs : StatsObj.new data lon lat tz = .ok s)
    (hdata : ∀ f d b, data = some (.frame f d b) → AllMonths f) (hlon : ∀ x, lon = some x → |x| ≤ 360) (htz : ∀ x, tz = some x → |x| ≤ 16)
    (l : List Call) (hl : ∀ f d b, Call.data (.frame f d b) ∈ l → AllMonths f) :
    ∃ j r, (s.calls l).obj.toJson = .ok j ∧ StatObj.fromJson j = .ok r ∧ Restored (s.calls l).obj r := by
  have hpos : ∀ x y, lon = some x → tz = some y → x / 15 - y ≤ 40 := by
    intro x y hx hy
    have h1 := (abs_le.1 (hlon x hx)).2
    have h2 := (abs_le.1 (htz y hy)).1
    linarith
  have hk : Keeps s := by
    unfold StatsObj.new at hs
    match data, hdata with
    | none, _ =>
      dsimp only at hs
      cases Except.ok.inj hs
      exact ⟨exportable_new lon lat tz, fun f h => (by cases h), hpos⟩
    | some .other, _ =>
      dsimp only [setData] at hs
      cases hs
    | some (.frame f dt b), hdata =>
      dsimp only [setData] at hs
      by_cases h1 : dt = false
      · rw [if_pos h1] at hs; cases hs
      · rw [if_neg h1] at hs
        by_cases h2 : hourResolution f.index = false
        · rw [if_pos h2] at hs; cases hs
        · rw [if_neg h2] at hs
          cases Except.ok.inj hs
          refine ⟨exportable_new lon lat tz, ?_, hpos⟩
          rintro f' ⟨⟩
          exact (hdata f dt b rfl).cols
  exact C69_round_trip (keeps_calls l hk hl).obj

end StatsObj

namespace World

noncomputable section

/-! ## Loaded statistics give the same results -/

/-- operations on station `i` that do not read the tables of the statistics object -/
def Exact (i : Nat) : Op → Prop
  | .setDaily j _ => j = i
  | .calcSunTimes j => j = i
  | .wind j _ _ => j = i
  | .precipitation j _ _ _ _ _ => j = i
  | .humidity j method _ => j = i ∧ method ≠ "month_hour_precip_mean"
  | .temperature j method minMaxTime _ => j = i ∧ minMaxTime ≠ "sun_loc_shift" ∧ method ≠ "mean_course_min_max" ∧ method ≠ "mean_course_mean"
  | .radiation j method _ => j = i ∧ method ≠ "pot_rad_via_ssd" ∧ method ≠ "pot_rad_via_bc" ∧ method ≠ "mean_course"
  | _ => False

/-- the exceptions of the statements of a program -/
def errors (api : PandasApi) : World → List Op → List (Option PyErr)
  | _, [] => []
  | w, op :: ops => (w.step api op).2 :: errors api (w.step api op).1 ops

/-- two heaps that differ in the statistics object of station `i`, up to tables -/
structure Sim (i : Nat) (w w' : World) : Prop where
  frames : w'.frames = w.frames
  nFrames : w'.nFrames = w.nFrames
  station : w'.stations i = { w.stations i with stat := (w'.stations i).stat }
  wind : (w'.statOf i).wind = (w.statOf i).wind
  precip : (w'.statOf i).precip = (w.statOf i).precip
  a0 : (w'.statOf i).hum.a0 = (w.statOf i).hum.a0
  a1 : (w'.statOf i).hum.a1 = (w.statOf i).hum.a1
  kr : (w'.statOf i).hum.kr = (w.statOf i).hum.kr

section
variable {i : Nat} {w w' : World}

theorem Sim.lon (h : Sim i w w') : (w'.stations i).lon = (w.stations i).lon := by have := congrArg StationObj.lon h.station; exact this
theorem Sim.lat (h : Sim i w w') : (w'.stations i).lat = (w.stations i).lat := by have := congrArg StationObj.lat h.station; exact this
theorem Sim.tz (h : Sim i w w') : (w'.stations i).tz = (w.stations i).tz := by have := congrArg StationObj.tz h.station; exact this
theorem Sim.daily (h : Sim i w w') : (w'.stations i).daily = (w.stations i).daily := by have := congrArg StationObj.daily h.station; exact this
theorem Sim.disagg (h : Sim i w w') : (w'.stations i).disagg = (w.stations i).disagg := by have := congrArg StationObj.disagg h.station; exact this
theorem Sim.sun (h : Sim i w w') : (w'.stations i).sun = (w.stations i).sun := by have := congrArg StationObj.sun h.station; exact this

/-- changing the station in the same way (and not its statistics object) -/
theorem Sim.update (h : Sim i w w') (g : StationObj → StationObj) (hstat : ∀ s, (g s).stat = s.stat)
    (hg : ∀ s x, g { s with stat := x } = { g s with stat := x }) :
    Sim i (w.setStation i (g (w.stations i))) (w'.setStation i (g (w'.stations i))) := by
  have e : ∀ v : World, (v.setStation i (g (v.stations i))).statOf i = v.statOf i := by
    intro v
    unfold statOf
    simp only [setStation_stations, setStation_stats, Function.update_self, hstat]
  refine ⟨h.frames, h.nFrames, ?_, ?_, ?_, ?_, ?_, ?_⟩
  · simp only [setStation_stations, Function.update_self, hstat]
    conv_lhs => rw [h.station, hg]
  · rw [e, e]; exact h.wind
  · rw [e, e]; exact h.precip
  · rw [e, e]; exact h.a0
  · rw [e, e]; exact h.a1
  · rw [e, e]; exact h.kr

theorem Sim.setFrame (h : Sim i w w') (k : Nat) (f : Frame ℝ) : Sim i (w.setFrame k f) (w'.setFrame k f) := by
  refine ⟨?_, h.nFrames, h.station, h.wind, h.precip, h.a0, h.a1, h.kr⟩
  simp only [setFrame_frames, h.frames]

theorem Sim.writeCol (h : Sim i w w') (name : String) {v v' : Py WindResult} (hv : v' = v) :
    Sim i (w.writeCol i name v).1 (w'.writeCol i name v').1 ∧ (w'.writeCol i name v').2 = (w.writeCol i name v).2 := by
  subst hv
  unfold World.writeCol
  cases v' with
  | error e => exact ⟨h, rfl⟩
  | ok r =>
    dsimp only
    rw [h.disagg]
    cases (w.stations i).disagg with
    | none => exact ⟨h, rfl⟩
    | some k =>
      dsimp only
      rw [h.frames]
      cases columnValues (w.frames k).index r with
      | error e => exact ⟨h, rfl⟩
      | ok vals => exact ⟨h.setFrame k _, rfl⟩

theorem Sim.calcSunTimes (h : Sim i w w') :
    Sim i (w.calcSunTimes i).1 (w'.calcSunTimes i).1 ∧ (w'.calcSunTimes i).2 = (w.calcSunTimes i).2 := by
  unfold World.calcSunTimes
  dsimp only
  rw [h.daily, h.lon, h.lat, h.tz]
  cases hd : (w.stations i).daily with
  | none => exact ⟨h, rfl⟩
  | some f =>
    dsimp only
    cases hlon : (w.stations i).lon <;> cases hlat : (w.stations i).lat <;> cases htz : (w.stations i).tz <;> try exact ⟨h, rfl⟩
    rename_i lon lat tz
    have := h.update (fun s => { s with sun := some (getSunTimes f.index lon lat tz) }) (fun _ => rfl) (fun _ _ => rfl)
    simp only [h.daily, h.lon, h.lat, h.tz, hd, hlon, hlat, htz] at this
    exact ⟨this, rfl⟩

theorem Sim.setDaily (api : PandasApi) (h : Sim i w w') (arg : DailyArg) :
    Sim i (w.setDaily api i arg).1 (w'.setDaily api i arg).1 ∧ (w'.setDaily api i arg).2 = (w.setDaily api i arg).2 := by
  unfold World.setDaily
  cases checkDaily arg with
  | error e => exact ⟨h, rfl⟩
  | ok f =>
    dsimp only
    have h1 := h.update (fun s => { s with daily := some f }) (fun _ => rfl) (fun _ _ => rfl)
    cases hourlyIndex api f.index with
    | error e => exact ⟨h1, rfl⟩
    | ok idx =>
      dsimp only
      generalize hv : w.setStation i { w.stations i with daily := some f } = v at h1 ⊢
      generalize hv' : w'.setStation i { w'.stations i with daily := some f } = v' at h1 ⊢
      have h2 : Sim i { v.setFrame v.nFrames (emptyDisagg idx) with nFrames := v.nFrames + 1 }
          { v'.setFrame v'.nFrames (emptyDisagg idx) with nFrames := v'.nFrames + 1 } := by
        rw [h1.nFrames]
        have := h1.setFrame v.nFrames (emptyDisagg idx)
        exact ⟨this.frames, rfl, this.station, this.wind, this.precip, this.a0, this.a1, this.kr⟩
      have key : ∀ {a a' : World}, Sim i a a' →
          Sim i (if (a.stations i).tz.isSome then a.calcSunTimes i else (a, none)).1 (if (a'.stations i).tz.isSome then a'.calcSunTimes i else (a', none)).1 ∧
          (if (a'.stations i).tz.isSome then a'.calcSunTimes i else (a', none)).2 = (if (a.stations i).tz.isSome then a.calcSunTimes i else (a, none)).2 := by
        intro a a' ha
        rw [ha.tz]
        split
        · exact ha.calcSunTimes
        · exact ⟨ha, rfl⟩
      refine key ?_
      have h3 := h2.update (fun s => { s with disagg := some (v.nFrames + 1 - 1) }) (fun _ => rfl) (fun _ _ => rfl)
      rw [h1.nFrames] at h3 ⊢
      exact h3

theorem Sim.dailyAttr (h : Sim i w w') (name : String) : w'.dailyAttr i name = w.dailyAttr i name := by
  unfold World.dailyAttr; rw [h.daily]

theorem Sim.disaggAttr (h : Sim i w w') (name : String) : w'.disaggAttr i name = w.disaggAttr i name := by
  unfold World.disaggAttr; rw [h.disagg, h.frames]

theorem Sim.step (api : PandasApi) (h : Sim i w w') {op : Op} (hop : Exact i op) :
    Sim i (w.step api op).1 (w'.step api op).1 ∧ (w'.step api op).2 = (w.step api op).2 := by
  cases op with
  | setDaily j arg => obtain rfl : j = i := hop; exact h.setDaily api arg
  | calcSunTimes j => obtain rfl : j = i := hop; exact h.calcSunTimes
  | wind j draw m =>
    obtain rfl : j = i := hop
    refine h.writeCol "wind" ?_
    rw [h.dailyAttr, h.wind]
  | precipitation j rnd m z sh ma =>
    obtain rfl : j = i := hop
    refine h.writeCol "precip" ?_
    have : w'.precipSeries api j rnd m z sh ma = w.precipSeries api j rnd m z sh ma := by
      unfold precipSeries
      rw [h.daily, h.disagg, h.precip, h.frames, h.dailyAttr]
    rw [this]
  | humidity j m p =>
    obtain ⟨rfl, hm⟩ : j = i ∧ m ≠ "month_hour_precip_mean" := hop
    refine h.writeCol "hum" ?_
    have hf : ∀ f temp, disaggregateHumidity api f m temp (w'.statOf j).hum.a0 (w'.statOf j).hum.a1 (w'.statOf j).hum.kr (w'.statOf j).hum.table p =
        disaggregateHumidity api f m temp (w.statOf j).hum.a0 (w.statOf j).hum.a1 (w.statOf j).hum.kr (w.statOf j).hum.table p := by
      intro f temp
      rw [h.a0, h.a1, h.kr]
      unfold disaggregateHumidity humidityRaw
      simp only [hm, or_false]
      by_cases h1 : m = "equal"
      · simp only [h1, if_true]
      · by_cases h2 : m = "minimal" ∨ m = "dewpoint_regression" ∨ m = "linear_dewpoint_variation"
        · simp only [h1, h2, if_true, if_false]
        · by_cases h3 : m = "min_max"
          · simp only [h3]
            rfl
          · have : ¬ (m = "equal" ∨ m = "minimal" ∨ m = "dewpoint_regression" ∨ m = "min_max" ∨ m = "linear_dewpoint_variation") := by tauto
            rw [if_pos this, if_pos this]
            rfl
    rw [h.disaggAttr, h.daily]
    simp only [hf]
  | temperature j m mm mn =>
    obtain ⟨rfl, h1, h2, h3⟩ : j = i ∧ mm ≠ "sun_loc_shift" ∧ m ≠ "mean_course_min_max" ∧ m ≠ "mean_course_mean" := hop
    refine h.writeCol "temp" ?_
    have hl : ∀ idx sun (a b : Option (List (Int × XF ℝ))), minMaxLoc idx mm a sun = minMaxLoc idx mm b sun := by
      intro idx sun a b
      unfold minMaxLoc
      simp only [h1, if_false]
    have hf : ∀ f sun (a b : Option (List (Int × XF ℝ))) (c d : Option (MeanCourse ℝ)), disaggregateTemperature api f m mm mn a c sun =
        disaggregateTemperature api f m mm mn b d sun := by
      intro f sun a b c d
      unfold disaggregateTemperature
      simp only [h2, h3, or_false]
      by_cases hm : m = "sine_min_max" ∨ m = "sine_mean" ∨ m = "sine"
      · simp only [hm, if_true]
        unfold sineTemperature locTable
        simp only [hl f.index sun a b]
      · simp only [hm, not_false_eq_true, if_true]
    rw [h.daily, h.sun]
    simp only [hf _ _ (w'.statOf j).temp.maxDelta (w.statOf j).temp.maxDelta (w'.statOf j).temp.course (w.statOf j).temp.course]
  | radiation j m pot =>
    obtain ⟨rfl, h1, h2, h3⟩ : j = i ∧ m ≠ "pot_rad_via_ssd" ∧ m ≠ "pot_rad_via_bc" ∧ m ≠ "mean_course" := hop
    have body : ∀ {w w' : World}, Sim j w w' → Sim j (w.radiationBody api j m pot).1 (w'.radiationBody api j m pot).1 ∧
        (w'.radiationBody api j m pot).2 = (w.radiationBody api j m pot).2 := by
      intro w w' h
      refine h.writeCol "glob" ?_
      have hp : w'.potRadArg j m pot = w.potRadArg j m pot := by
        unfold potRadArg
        rw [h.disagg, h.lon, h.lat, h.tz, h.frames]
      have hf : ∀ f sun pot a b c d (e g : Option (MeanCourse ℝ)), disaggregateRadiation api f sun pot m a c e = disaggregateRadiation api f sun pot m b d g := by
        intro f sun pot a b c d e g
        unfold disaggregateRadiation
        simp only [h1, h2, h3, or_false, if_false]
        by_cases hm : m = "pot_rad"
        · simp only [hm, if_true]
        · simp only [hm, not_false_eq_true, if_true]
      rw [hp, h.daily, h.sun]
      simp only [hf _ _ _ (.monthly (w'.statOf j).glob.angA (w'.statOf j).glob.angB) (.monthly (w.statOf j).glob.angA (w.statOf j).glob.angB)
        (.monthly (w'.statOf j).glob.bcA (w'.statOf j).glob.bcC) (.monthly (w.statOf j).glob.bcA (w.statOf j).glob.bcC)
        (w'.statOf j).glob.course (w.statOf j).glob.course]
    show Sim j (w.radiation api j m pot).1 (w'.radiation api j m pot).1 ∧ (w'.radiation api j m pot).2 = (w.radiation api j m pot).2
    unfold radiation
    rw [h.sun]
    split
    · obtain ⟨k1, k2⟩ := h.calcSunTimes
      generalize w.calcSunTimes j = o at k1 k2 ⊢
      generalize w'.calcSunTimes j = o' at k1 k2 ⊢
      obtain ⟨v, e⟩ := o
      obtain ⟨v', e'⟩ := o'
      dsimp only at k1 k2
      subst k2
      cases e' with
      | some e => exact ⟨k1, rfl⟩
      | none => exact body k1
    · exact body h
  | _ => exact absurd hop id

theorem Sim.run (api : PandasApi) : ∀ (ops : List Op) {w w' : World}, Sim i w w' → (∀ op ∈ ops, Exact i op) →
    Sim i (w.run api ops) (w'.run api ops) ∧ w'.errors api ops = w.errors api ops
  | [], _, _, h, _ => ⟨h, rfl⟩
  | op :: ops, w, w', h, hops => by
    obtain ⟨h1, h2⟩ := h.step api (hops op (List.mem_cons_self ..))
    obtain ⟨h3, h4⟩ := Sim.run api ops h1 fun o ho => hops o (List.mem_cons_of_mem _ ho)
    refine ⟨h3, ?_⟩
    show (w'.step api op).2 :: _ = (w.step api op).2 :: _
    rw [h2, h4]

end

/-- **C107** (same results).  A station whose statistics object is replaced by the one that was saved and loaded behaves as before: any sequence of
assignments of daily data and disaggregations that do not read the rounded tables (wind and precipitation with any method; humidity except
'month_hour_precip_mean'; temperature with the sine methods except with 'sun_loc_shift'; radiation with 'pot_rad') raises the same exceptions and leaves
exactly the same hourly data, although the loaded object had no position. -/
theorem C107_same_results (api : PandasApi) (w : World) (i o : Nat) (hr : Restored (w.statOf i) (w.stats o)) (ops : List Op)
    (hops : ∀ op ∈ ops, Exact i op) :
    let w' := (w.setStatistics i (some o)).1
    (w'.run api ops).frames = (w.run api ops).frames ∧ ((w'.run api ops).stations i).disagg = ((w.run api ops).stations i).disagg ∧
    ((w'.run api ops).stations i).daily = ((w.run api ops).stations i).daily ∧ w'.errors api ops = w.errors api ops := by
  intro w'
  have hs : Sim i w w' := by
    have e1 : (w'.stations i).stat = o := by
      show (Function.update w.stations i { w.stations i with stat := o } i).stat = o
      rw [Function.update_self]
    have e2 : w'.statOf i = { w.stats o with lon := (w.stations i).lon, lat := (w.stations i).lat, tz := (w.stations i).tz } := by
      unfold statOf
      rw [e1]
      show Function.update _ o _ o = _
      rw [Function.update_self]
    refine ⟨rfl, rfl, ?_, ?_, ?_, ?_, ?_, ?_⟩
    · rw [e1]
      show Function.update _ i _ i = _
      rw [Function.update_self]
    · rw [e2]; exact hr.wind
    · rw [e2]; exact hr.precip
    · rw [e2]; exact hr.hum.1
    · rw [e2]; exact hr.hum.2.1
    · rw [e2]; exact hr.hum.2.2
  obtain ⟨h1, h2⟩ := hs.run api ops hops
  exact ⟨h1.frames, h1.disagg, h1.daily, h2⟩

end

end World

/-! ## The methods that read rounded tables give nearly the same results -/

section
noncomputable section

/-- both missing, or numbers that differ by at most `B` -/
def Close (B : ℝ) (x y : XF ℝ) : Prop := (x = .nan ∧ y = .nan) ∨ ∃ a b : ℝ, x = .fin a ∧ y = .fin b ∧ |a - b| ≤ B

/-- the precision of the tables in the file -/
def eps : ℝ := 1 / 2 / 10 ^ 10

theorem eps_nonneg : 0 ≤ eps := by unfold eps; positivity

theorem close_stored {x : XF ℝ} (h : x.NanOrFin) : Close eps x (stored x) := by
  cases x with
  | nan => exact .inl ⟨rfl, rfl⟩
  | fin a =>
    obtain ⟨y, h1, h2⟩ := (C69_precision a).1
    exact .inr ⟨a, y, rfl, h1, h2⟩
  | pinf => exact absurd h (by simp)
  | ninf => exact absurd h (by simp)

theorem close_lookup {c r : MeanCourse ℝ} (h : SameCourse c r) (hc : FullCourse c) (hv : ∀ m k, (c.val m k).NanOrFin) {m k : Int}
    (hm : m ∈ c.months) (hr : m ∈ r.months) (hk : k ∈ c.hours) : r.val m k = stored (c.val m k) ∧ Close eps (c.val m k) (r.val m k) := by
  have e := h.val m hr k
  have h1 : r.lookup m k = .ok (r.val m k) := lookup_ok hr (h.hours.mem_iff.2 hk)
  have h2 : c.lookup m k = .ok (c.val m k) := lookup_ok hm hk
  rw [h1, h2] at e
  have e' : r.val m k = stored (c.val m k) := Except.ok.inj e
  exact ⟨e', by rw [e']; exact close_stored (hv m k)⟩

theorem close_mean {l l' : List (XF ℝ)} {B : ℝ} (h : List.Forall₂ (Close B) l l') (hB : 0 ≤ B) : Close B (meanSkip l) (meanSkip l') := by
  have hfin : (∀ c ∈ l, c.NanOrFin) ∧ (∀ c ∈ l', c.NanOrFin) := by
    induction h with
    | nil => exact ⟨fun _ h => (by cases h), fun _ h => (by cases h)⟩
    | cons h1 _ ih =>
      rcases h1 with ⟨rfl, rfl⟩ | ⟨a, b, rfl, rfl, _⟩ <;>
        exact ⟨List.forall_mem_cons.2 ⟨trivial, ih.1⟩, List.forall_mem_cons.2 ⟨trivial, ih.2⟩⟩
  have hlen : (numbers l').length = (numbers l).length ∧ |(numbers l).sum - (numbers l').sum| ≤ (numbers l).length * B := by
    induction h with
    | nil => simp [numbers]
    | @cons x y l1 l2 h1 _ ih =>
      have hf := ih ⟨fun c hc => hfin.1 c (List.mem_cons_of_mem _ hc), fun c hc => hfin.2 c (List.mem_cons_of_mem _ hc)⟩
      rcases h1 with ⟨rfl, rfl⟩ | ⟨a, b, rfl, rfl, hab⟩
      · exact hf
      · have e1 : numbers ((.fin a : XF ℝ) :: l1) = a :: numbers l1 := rfl
        have e2 : numbers ((.fin b : XF ℝ) :: l2) = b :: numbers l2 := rfl
        rw [e1, e2, List.length_cons, List.length_cons, List.sum_cons, List.sum_cons]
        refine ⟨by rw [hf.1], ?_⟩
        have h3 : a + (numbers l1).sum - (b + (numbers l2).sum) = (a - b) + ((numbers l1).sum - (numbers l2).sum) := by ring
        rw [h3]
        have := abs_add_le (a - b) ((numbers l1).sum - (numbers l2).sum)
        have := hf.2
        push_cast
        linarith
  by_cases hne : numbers l = []
  · left
    have hne' : numbers l' = [] := by
      apply List.eq_nil_of_length_eq_zero
      rw [hlen.1, hne]; rfl
    have nan : ∀ l : List (XF ℝ), (∀ c ∈ l, c.NanOrFin) → numbers l = [] → meanSkip l = .nan := by
      intro l hl h0
      apply meanSkip_nan
      intro c hc
      have := hl c hc
      cases c with
      | nan => rfl
      | fin x =>
        have : x ∈ numbers l := List.mem_filterMap.2 ⟨_, hc, rfl⟩
        rw [h0] at this
        cases this
      | pinf => exact absurd this (by simp)
      | ninf => exact absurd this (by simp)
    exact ⟨nan l hfin.1 hne, nan l' hfin.2 hne'⟩
  · right
    have hne' : numbers l' ≠ [] := by
      intro h0
      apply hne
      apply List.eq_nil_of_length_eq_zero
      rw [← hlen.1, h0]; rfl
    refine ⟨_, _, meanSkip_eq hfin.1 hne, meanSkip_eq hfin.2 hne', ?_⟩
    have hp : (0 : ℝ) < (numbers l).length := by
      have := List.length_pos_of_ne_nil hne
      exact_mod_cast this
    rw [hlen.1, ← sub_div, abs_div, abs_of_pos hp, div_le_iff₀ hp, mul_comm]
    exact hlen.2

/-- the means of a permuted column -/
theorem meanSkip_perm' {l l' : List (XF ℝ)} (h : l.Perm l') (hf : ∀ c ∈ l, c.NanOrFin) : meanSkip l = meanSkip l' := by
  have hf' : ∀ c ∈ l', c.NanOrFin := fun c hc => hf c (h.mem_iff.2 hc)
  have hn : (numbers l).Perm (numbers l') := h.filterMap _
  by_cases hne : numbers l = []
  · have hne' : numbers l' = [] := by rw [hne] at hn; exact hn.nil_eq.symm
    unfold meanSkip
    rw [countValid_eq hf, countValid_eq hf', hne, hne']
    rfl
  · have hne' : numbers l' ≠ [] := fun h0 => hne (by rw [h0] at hn; exact hn.eq_nil)
    rw [meanSkip_eq hf hne, meanSkip_eq hf' hne', hn.sum_eq, hn.length_eq]

variable {daily : Frame ℝ} {d0 : Int} {n : Nat} {tmin tmax temp : Nat → XF ℝ}

/-- **C107** (temperature with a loaded mean course).  With the loaded course, 'mean_course_min_max' gives temperatures missing in the same hours and
otherwise within 5e-11 of the daily range of those with the original course, 'mean_course_mean' within 1e-10 of the range. -/
theorem C107_mean_course_close (api : PandasApi) (hd : TempDays daily d0 n tmin tmax temp) (hn : 0 < n) (mmt : String) (modNight : Bool)
    (md md' : Option (List (Int × XF ℝ))) (sun : Option (Series SunTimes)) {c r : MeanCourse ℝ} (hr : SameCourse c r) (hc : FullCourse c)
    (hh : ∀ h : Nat, h < 24 → (h : Int) ∈ c.hours) (hv : ∀ m h, (c.val m h).NanOrFin)
    (ht : ∀ i, (tmin i).NanOrFin ∧ (tmax i).NanOrFin ∧ (temp i).NanOrFin) :
    (∃ f g, disaggregateTemperature api daily "mean_course_min_max" mmt modNight md (some c) sun = .ok (hourlyS d0 n f) ∧
      disaggregateTemperature api daily "mean_course_min_max" mmt modNight md' (some r) sun = .ok (hourlyS d0 n g) ∧
      ∀ i < n, ∀ h < 24, (f i h = .nan ∧ g i h = .nan) ∨
        ∃ lo hi x y : ℝ, tmin i = .fin lo ∧ tmax i = .fin hi ∧ f i h = .fin x ∧ g i h = .fin y ∧ |x - y| ≤ (1 / 2 / 10 ^ 10) * |hi - lo|) ∧
    (∃ f g, disaggregateTemperature api daily "mean_course_mean" mmt modNight md (some c) sun = .ok (hourlyS d0 n f) ∧
      disaggregateTemperature api daily "mean_course_mean" mmt modNight md' (some r) sun = .ok (hourlyS d0 n g) ∧
      ∀ i < n, ∀ h < 24, (f i h = .nan ∧ g i h = .nan) ∨
        ∃ lo hi x y : ℝ, tmin i = .fin lo ∧ tmax i = .fin hi ∧ f i h = .fin x ∧ g i h = .fin y ∧ |x - y| ≤ (1 / 10 ^ 10) * |hi - lo|) := by
  have hm : ∀ t, monthOf t ∈ ([1, 2, 3, 4, 5, 6, 7, 8, 9, 10, 11, 12] : List Int) := by
    intro t
    have := monthOf_range t
    simp only [List.mem_cons, List.not_mem_nil, or_false]
    omega
  have hmc : ∀ t, monthOf t ∈ c.months := fun t => hc.all _ (hm t)
  have hmr : ∀ t, monthOf t ∈ r.months := fun t => by rw [hr.months]; exact hm t
  have hhr : ∀ h : Nat, h < 24 → (h : Int) ∈ r.hours := fun h h1 => hr.hours.mem_iff.2 (hh h h1)
  refine ⟨⟨_, _, courseMinMax_eq api hd.index hn hd.hmin hd.hmax mmt modNight md sun (fun i _ => hmc _) hh,
    courseMinMax_eq api hd.index hn hd.hmin hd.hmax mmt modNight md' sun (fun i _ => hmr _) hhr, ?_⟩,
    ⟨_, _, courseMean_eq api hd hn mmt modNight md sun (fun i _ => hmc _) hh,
    courseMean_eq api hd hn mmt modNight md' sun (fun i _ => hmr _) hhr, ?_⟩⟩
  · intro i _ h h24
    obtain ⟨h1, h2, -⟩ := ht i
    rcases (close_lookup hr hc hv (hmc (at00 (d0 + (i : Nat)))) (hmr _) (hh h h24)).2 with ⟨e1, e2⟩ | ⟨a, b, e1, e2, hab⟩
    · left
      rw [e1, e2]
      exact ⟨rfl, rfl⟩
    · rw [e1, e2]
      cases h3 : tmin i with
      | nan => left; cases tmax i <;> exact ⟨rfl, rfl⟩
      | pinf => rw [h3] at h1; exact absurd h1 (by simp)
      | ninf => rw [h3] at h1; exact absurd h1 (by simp)
      | fin lo =>
        cases h4 : tmax i with
        | nan => left; exact ⟨rfl, rfl⟩
        | pinf => rw [h4] at h2; exact absurd h2 (by simp)
        | ninf => rw [h4] at h2; exact absurd h2 (by simp)
        | fin hi =>
          right
          refine ⟨lo, hi, a * (hi - lo) + lo, b * (hi - lo) + lo, rfl, rfl, rfl, rfl, ?_⟩
          have : a * (hi - lo) + lo - (b * (hi - lo) + lo) = (a - b) * (hi - lo) := by ring
          rw [this, abs_mul]
          exact mul_le_mul_of_nonneg_right hab (abs_nonneg _)
  · intro i _ h h24
    obtain ⟨h1, h2, h5⟩ := ht i
    generalize hmm : monthOf (at00 (d0 + (i : Nat))) = m
    have hmcm : m ∈ c.months := hmm ▸ hmc _
    have hmrm : m ∈ r.months := hmm ▸ hmr _
    have hmean : Close eps (meanSkip (c.column m)) (meanSkip (r.column m)) := by
      have e : meanSkip (r.column m) = meanSkip (c.hours.map (r.val m)) := by
        apply meanSkip_perm' (hr.hours.map _)
        intro x hx
        obtain ⟨k, hk, rfl⟩ := List.mem_map.1 hx
        rcases (close_lookup hr hc hv hmcm hmrm (hr.hours.mem_iff.1 hk)).2 with ⟨_, e2⟩ | ⟨_, _, _, e2, _⟩ <;> rw [e2] <;> exact trivial
      rw [e]
      apply close_mean _ eps_nonneg
      unfold MeanCourse.column
      rw [List.forall₂_map_left_iff, List.forall₂_map_right_iff, List.forall₂_same]
      intro k hk
      exact (close_lookup hr hc hv hmcm hmrm hk).2
    rcases (close_lookup hr hc hv hmcm hmrm (hh h h24)).2 with ⟨e1, e2⟩ | ⟨a, b, e1, e2, hab⟩
    · left
      rw [e1, e2]
      constructor <;> cases tmax i <;> cases tmin i <;> cases temp i <;> rfl
    · rcases hmean with ⟨e3, e4⟩ | ⟨p, q, e3, e4, hpq⟩
      · left
        rw [e1, e2, e3, e4]
        constructor <;> cases tmax i <;> cases tmin i <;> cases temp i <;> rfl
      · rw [e1, e2, e3, e4]
        cases h3 : tmin i with
        | nan => left; cases tmax i <;> cases temp i <;> exact ⟨rfl, rfl⟩
        | pinf => rw [h3] at h1; exact absurd h1 (by simp)
        | ninf => rw [h3] at h1; exact absurd h1 (by simp)
        | fin lo =>
          cases h4 : tmax i with
          | nan => left; cases temp i <;> exact ⟨rfl, rfl⟩
          | pinf => rw [h4] at h2; exact absurd h2 (by simp)
          | ninf => rw [h4] at h2; exact absurd h2 (by simp)
          | fin hi =>
            cases h6 : temp i with
            | nan => left; exact ⟨rfl, rfl⟩
            | pinf => rw [h6] at h5; exact absurd h5 (by simp)
            | ninf => rw [h6] at h5; exact absurd h5 (by simp)
            | fin t =>
              right
              refine ⟨lo, hi, t + (hi - lo) * (a - p), t + (hi - lo) * (b - q), rfl, rfl, rfl, rfl, ?_⟩
              have e : t + (hi - lo) * (a - p) - (t + (hi - lo) * (b - q)) = ((a - b) - (p - q)) * (hi - lo) := by ring
              rw [e, abs_mul]
              apply mul_le_mul_of_nonneg_right _ (abs_nonneg _)
              have h7 := abs_sub (a - b) (p - q)
              have h8 : eps + eps = 1 / 10 ^ 10 := by unfold eps; norm_num
              linarith

/-- **C107** (humidity with a loaded table).  With the loaded table, 'month_hour_precip_mean' raises KeyError for the same data as with the original
one; otherwise the humidities are missing in the same hours and differ by at most 5e-11. -/
theorem C107_categorical_close (api : PandasApi) {precip : Nat → XF ℝ} (hn : 0 < n) (hp : daily.col? "precip" = some (dailyS d0 n precip))
    (temp' : Option (Series (XF ℝ))) (a0 a1 kr : Option ℝ) {t : CatMeans ℝ} (ht : ∀ e ∈ t, e.2.NanOrFin) :
    (disaggregateHumidity api daily "month_hour_precip_mean" temp' a0 a1 kr (some t) = .error .keyError ∧
      disaggregateHumidity api daily "month_hour_precip_mean" temp' a0 a1 kr (some (t.map fun e => (e.1, stored e.2))) = .error .keyError) ∨
    ∃ f g, disaggregateHumidity api daily "month_hour_precip_mean" temp' a0 a1 kr (some t) = .ok (hourlyS d0 n f) ∧
      disaggregateHumidity api daily "month_hour_precip_mean" temp' a0 a1 kr (some (t.map fun e => (e.1, stored e.2))) = .ok (hourlyS d0 n g) ∧
      ∀ i < n, ∀ h < 24, (f i h = .nan ∧ g i h = .nan) ∨ ∃ x y : ℝ, f i h = .fin x ∧ g i h = .fin y ∧ |x - y| ≤ 1 / 2 / 10 ^ 10 := by
  have hfind : ∀ key, (t.map fun e => (e.1, stored e.2)).find? (fun r => r.1 == key) =
      (t.find? fun r => r.1 == key).map fun e => (e.1, stored e.2) := by
    intro key
    rw [List.find?_map]
    rfl
  by_cases hmiss : ∃ i < n, ∃ h < 24, t.find? (fun r => r.1 == catKey d0 precip i h) = none
  · left
    have hmiss' : ∃ i < n, ∃ h < 24, (t.map fun e => (e.1, stored e.2)).find? (fun r => r.1 == catKey d0 precip i h) = none := by
      obtain ⟨i, hi, h, hh, e⟩ := hmiss
      exact ⟨i, hi, h, hh, by rw [hfind, e]; rfl⟩
    unfold disaggregateHumidity
    rw [raw_cat_missing api daily temp' a0 a1 kr t d0 n hn precip hp hmiss, raw_cat_missing api daily temp' a0 a1 kr _ d0 n hn precip hp hmiss']
    exact ⟨rfl, rfl⟩
  · right
    push Not at hmiss
    have hraw := raw_cat api daily temp' a0 a1 kr t d0 n hn precip hp
      (fun i h => ((t.find? (fun r => r.1 == catKey d0 precip i h)).map Prod.snd).getD .nan) (by
        intro i hi h hh
        obtain ⟨r, hr⟩ := Option.ne_none_iff_exists'.1 (hmiss i hi h hh)
        exact ⟨r, hr, by rw [hr]; rfl⟩)
    have hraw' := raw_cat api daily temp' a0 a1 kr (t.map fun e => (e.1, stored e.2)) d0 n hn precip hp
      (fun i h => stored (((t.find? (fun r => r.1 == catKey d0 precip i h)).map Prod.snd).getD .nan)) (by
        intro i hi h hh
        obtain ⟨r, hr⟩ := Option.ne_none_iff_exists'.1 (hmiss i hi h hh)
        exact ⟨(r.1, stored r.2), by rw [hfind, hr]; rfl, by rw [hr]; rfl⟩)
    refine ⟨_, _, (hum_finish hraw).1, (hum_finish hraw').1, ?_⟩
    intro i hi h hh
    obtain ⟨r, hr⟩ := Option.ne_none_iff_exists'.1 (hmiss i hi h hh)
    rw [hr]
    simp only [Option.map_some, Option.getD_some]
    rcases close_stored (ht r (List.mem_of_find?_eq_some hr)) with ⟨e1, e2⟩ | ⟨a, b, e1, e2, hab⟩
    · left
      rw [e2, e1]
      exact ⟨rfl, rfl⟩
    · right
      rw [e2, e1]
      refine ⟨min (max a 0) 100, min (max b 0) 100, rfl, rfl, ?_⟩
      have h1 := abs_max_sub_max_le_abs a b 0
      have h2 := abs_min_sub_min_le_max (max a 0) 100 (max b 0) 100
      rw [sub_self, abs_zero, max_eq_left (a := |max a 0 - max b 0|) (abs_nonneg _)] at h2
      exact (h2.trans h1).trans hab

/-! ## Non-vacuity -/

/-- hourly data with one row in each month of 1970 -/
def sparseYear : Frame ℝ :=
  ⟨(List.range 12).map fun k : Nat => atHour (15 + 30 * k) 3, [("temp", (List.range 12).map fun k : Nat => .fin (270 + k)), ("glob", List.replicate 12 (.fin 5))]⟩

theorem sparseYear_ok : StatsObj.AllMonths sparseYear where
  wf := by
    intro c hc
    simp only [sparseYear, List.mem_cons, List.not_mem_nil, or_false] at hc
    rcases hc with rfl | rfl <;> simp [sparseYear]
  months := by
    intro m h1 h2
    have : ∀ k : Nat, k < 12 → monthOf (atHour (15 + 30 * k) 3) = (k : Int) + 1 := by decide
    refine ⟨atHour (15 + 30 * ((m - 1).toNat : Nat)) 3, List.mem_map.2 ⟨(m - 1).toNat, List.mem_range.2 (by omega), rfl⟩, ?_⟩
    rw [this _ (by omega)]
    omega

/-- C107: temperature and radiation statistics of such data, an attempt to fit humidity that raises, and no precipitation seasons -/
example (fit : List StatsObj.FitRow → Py (XF ℝ × XF ℝ)) : ∃ s j r, StatsObj.new (some (.frame sparseYear true true)) (some 11) (some 47) (some 1) = .ok s ∧
    (s.calls [.temperature, .humidity, .radiation .modern fit fit none none "all", .precipitation (some []) true 50]).obj.toJson = .ok j ∧
    StatObj.fromJson j = .ok r := by
  have hres : hourResolution sparseYear.index = true := by decide +kernel
  have hs : StatsObj.new (some (.frame sparseYear true true)) (some 11) (some 47) (some 1) =
      .ok { obj := { lon := some 11, lat := some 47, tz := some 1 }, data := some sparseYear } := by
    unfold StatsObj.new StatsObj.setData
    dsimp only
    rw [if_neg (by simp), hres, if_neg (by simp)]
  obtain ⟨j, r, h1, h2, -⟩ := StatsObj.C107_save_and_load hs (by rintro f d b ⟨⟩; exact sparseYear_ok) (by rintro x ⟨⟩; norm_num)
    (by rintro x ⟨⟩; norm_num) [.temperature, .humidity, .radiation .modern fit fit none none "all", .precipitation (some []) true 50] (by
      intro f d b h
      simp at h)
  exact ⟨_, j, r, hs, h1, h2⟩

/-- C107: a station and its saved and loaded statistics, with fitted wind parameters -/
example (draw : Nat → ℝ) (rnd : Nat → Nat → ℝ) (arg : DailyArg) :
    let s : StatObj := { wind := { a := some 1, b := some 2, tShift := some 3 } }
    let w : World := { stations := fun _ => {}, stats := fun k => if k = 0 then s else restoredObj s }
    let ops : List Op := [.setDaily 0 arg, .wind 0 draw "cosine", .temperature 0 "sine_min_max" "sun_loc" false,
      .precipitation 0 rnd "cascade" "uniform" 0 none, .radiation 0 "pot_rad" none]
    ((w.setStatistics 0 (some 1)).1.run .modern ops).frames = (w.run .modern ops).frames := by
  intro s w ops
  have hs : Exportable s :=
    let h := StatsObj.exportable_new none none none
    ⟨fun _ h => (by cases h), fun _ h => (by cases h), fun _ h => (by cases h), fun _ h => (by cases h), fun _ h => (by cases h), h.ang, h.bc⟩
  refine (World.C107_same_results .modern w 0 1 (restoredObj_restored hs) ops ?_).1
  intro op hop
  simp only [ops, List.mem_cons, List.not_mem_nil, or_false] at hop
  rcases hop with rfl | rfl | rfl | rfl | rfl <;> simp [World.Exact]

/-- a course of thirds, and what is loaded -/
def thirds (x : XF ℝ) : MeanCourse ℝ :=
  { months := (List.range 12).map fun k : Nat => (k : Int) + 1, hours := (List.range 24).map fun k : Nat => (k : Int), val := fun _ _ => x }

/-- C107: the hypotheses on the course are satisfied -/
example : FullCourse (thirds (.fin (1 / 3))) ∧ SameCourse (thirds (.fin (1 / 3))) (thirds (stored (.fin (1 / 3)))) ∧
    ∀ h : Nat, h < 24 → (h : Int) ∈ (thirds (.fin (1 / 3))).hours := by
  refine ⟨⟨?_, ?_, ?_⟩, ⟨rfl, List.Perm.refl _, ?_, ?_⟩, ?_⟩
  · show ((List.range 12).map fun k : Nat => (k : Int) + 1).Nodup
    decide
  · show ((List.range 24).map fun k : Nat => (k : Int)).Nodup
    decide
  · show ∀ m ∈ ([1, 2, 3, 4, 5, 6, 7, 8, 9, 10, 11, 12] : List Int), m ∈ (List.range 12).map fun k : Nat => (k : Int) + 1
    decide
  · show ((List.range 24).map fun k : Nat => (k : Int)).Pairwise (· < ·)
    decide
  · intro m _ h
    unfold MeanCourse.lookup
    show (if (thirds (.fin (1 / 3))).months.contains m && (thirds (.fin (1 / 3))).hours.contains h then _ else _) = _
    split <;> rfl
  · intro h hh
    exact List.mem_map.2 ⟨h, List.mem_range.2 hh, rfl⟩

end
end

end Melodist
