import Verif.Model.Station

/-!
# Lemmas about the station model
-/

set_option linter.unusedSectionVars false

namespace Melodist

namespace World

@[simp] theorem setStation_stations (w : World) (i : Nat) (s : StationObj) : (w.setStation i s).stations = Function.update w.stations i s := rfl
@[simp] theorem setStation_stats (w : World) (i : Nat) (s : StationObj) : (w.setStation i s).stats = w.stats := rfl
@[simp] theorem setStation_frames (w : World) (i : Nat) (s : StationObj) : (w.setStation i s).frames = w.frames := rfl
@[simp] theorem setStation_nStations (w : World) (i : Nat) (s : StationObj) : (w.setStation i s).nStations = w.nStations := rfl
@[simp] theorem setStation_nStats (w : World) (i : Nat) (s : StationObj) : (w.setStation i s).nStats = w.nStats := rfl
@[simp] theorem setStation_nFrames (w : World) (i : Nat) (s : StationObj) : (w.setStation i s).nFrames = w.nFrames := rfl
@[simp] theorem setStat_stations (w : World) (i : Nat) (s : StatObj) : (w.setStat i s).stations = w.stations := rfl
@[simp] theorem setStat_stats (w : World) (i : Nat) (s : StatObj) : (w.setStat i s).stats = Function.update w.stats i s := rfl
@[simp] theorem setStat_frames (w : World) (i : Nat) (s : StatObj) : (w.setStat i s).frames = w.frames := rfl
@[simp] theorem setStat_nStations (w : World) (i : Nat) (s : StatObj) : (w.setStat i s).nStations = w.nStations := rfl
@[simp] theorem setStat_nStats (w : World) (i : Nat) (s : StatObj) : (w.setStat i s).nStats = w.nStats := rfl
@[simp] theorem setStat_nFrames (w : World) (i : Nat) (s : StatObj) : (w.setStat i s).nFrames = w.nFrames := rfl
@[simp] theorem setFrame_stations (w : World) (i : Nat) (s : Frame ℝ) : (w.setFrame i s).stations = w.stations := rfl
@[simp] theorem setFrame_stats (w : World) (i : Nat) (s : Frame ℝ) : (w.setFrame i s).stats = w.stats := rfl
@[simp] theorem setFrame_frames (w : World) (i : Nat) (s : Frame ℝ) : (w.setFrame i s).frames = Function.update w.frames i s := rfl
@[simp] theorem setFrame_nStations (w : World) (i : Nat) (s : Frame ℝ) : (w.setFrame i s).nStations = w.nStations := rfl
@[simp] theorem setFrame_nStats (w : World) (i : Nat) (s : Frame ℝ) : (w.setFrame i s).nStats = w.nStats := rfl
@[simp] theorem setFrame_nFrames (w : World) (i : Nat) (s : Frame ℝ) : (w.setFrame i s).nFrames = w.nFrames := rfl

/-- everything except the frames is the same -/
structure SameButFrames (w w' : World) : Prop where
  stations : w'.stations = w.stations
  nStations : w'.nStations = w.nStations
  stats : w'.stats = w.stats
  nStats : w'.nStats = w.nStats
  nFrames : w'.nFrames = w.nFrames

/-- what `self.data_disagg.name = …` does -/
theorem writeCol_inv (w : World) (i : Nat) (name : String) (v : Py WindResult) :
    (∃ e, w.writeCol i name v = (w, some e)) ∨
    ∃ k r vals, (w.stations i).disagg = some k ∧ v = .ok r ∧ columnValues (w.frames k).index r = .ok vals ∧
      w.writeCol i name v = (w.setFrame k (replaceCol (w.frames k) name vals), none) := by
  unfold writeCol
  cases v with
  | error e => exact .inl ⟨e, rfl⟩
  | ok r =>
    dsimp only
    cases h : (w.stations i).disagg with
    | none => exact .inl ⟨_, rfl⟩
    | some k =>
      dsimp only
      cases h2 : columnValues (w.frames k).index r with
      | error e => exact .inl ⟨e, rfl⟩
      | ok vals => exact .inr ⟨k, r, vals, rfl, rfl, h2, rfl⟩

theorem writeCol_same (w : World) (i : Nat) (name : String) (v : Py WindResult) : SameButFrames w (w.writeCol i name v).1 := by
  rcases writeCol_inv w i name v with ⟨e, h⟩ | ⟨k, r, vals, _, _, _, h⟩ <;> rw [h] <;> exact ⟨rfl, rfl, rfl, rfl, rfl⟩

theorem calcSunTimes_inv (w : World) (i : Nat) :
    (∃ e, w.calcSunTimes i = (w, some e)) ∨
    ∃ f lon lat tz, (w.stations i).daily = some f ∧ (w.stations i).lon = some lon ∧ (w.stations i).lat = some lat ∧ (w.stations i).tz = some tz ∧
      w.calcSunTimes i = (w.setStation i { w.stations i with sun := some (getSunTimes f.index lon lat tz) }, none) := by
  unfold calcSunTimes
  dsimp only
  cases h0 : (w.stations i).daily with
  | none => exact .inl ⟨_, rfl⟩
  | some f =>
    cases h1 : (w.stations i).lon with
    | none => exact .inl ⟨_, rfl⟩
    | some lon =>
      cases h2 : (w.stations i).lat with
      | none => exact .inl ⟨_, rfl⟩
      | some lat =>
        cases h3 : (w.stations i).tz with
        | none => exact .inl ⟨_, rfl⟩
        | some tz => exact .inr ⟨f, lon, lat, tz, rfl, rfl, rfl, rfl, rfl⟩

/-- the heap right after the data frames of the `data_daily` setter are stored -/
noncomputable def stored (w : World) (i : Nat) (f : Frame ℝ) (idx : List Time) : World :=
  { w with
    stations := Function.update w.stations i { w.stations i with daily := some f, disagg := some w.nFrames }
    frames := Function.update w.frames w.nFrames (emptyDisagg idx)
    nFrames := w.nFrames + 1 }

/-- the three ways the `data_daily` setter can go -/
theorem setDaily_inv (api : PandasApi) (w : World) (i : Nat) (arg : DailyArg) :
    (∃ e, checkDaily arg = .error e ∧ w.setDaily api i arg = (w, some e)) ∨
    (∃ e f, checkDaily arg = .ok f ∧ hourlyIndex api f.index = .error e ∧
      w.setDaily api i arg = (w.setStation i { w.stations i with daily := some f }, some e)) ∨
    ∃ f idx, checkDaily arg = .ok f ∧ hourlyIndex api f.index = .ok idx ∧
      w.setDaily api i arg = if (w.stations i).tz.isSome then (w.stored i f idx).calcSunTimes i else (w.stored i f idx, none) := by
  unfold setDaily
  cases hc : checkDaily arg with
  | error e => exact .inl ⟨e, rfl, rfl⟩
  | ok f =>
    dsimp only
    cases hh : hourlyIndex api f.index with
    | error e => exact .inr (.inl ⟨e, f, rfl, hh, rfl⟩)
    | ok idx =>
      refine .inr (.inr ⟨f, idx, rfl, hh, ?_⟩)
      have hw : (({ (w.setStation i { w.stations i with daily := some f }).setFrame w.nFrames (emptyDisagg idx) with
          nFrames := w.nFrames + 1 } : World).setStation i
          { (w.setStation i { w.stations i with daily := some f }).stations i with disagg := some w.nFrames }) = w.stored i f idx := by
        unfold stored setStation setFrame
        simp
      have h2 : ((w.stored i f idx).stations i).tz = (w.stations i).tz := by simp [stored]
      refine Eq.trans (b := if ((w.stored i f idx).stations i).tz.isSome then (w.stored i f idx).calcSunTimes i else (w.stored i f idx, none)) ?_
        (by rw [h2])
      rw [← hw]
      rfl

theorem calcSunTimes_other (w : World) {i j : Nat} (h : j ≠ i) : (w.calcSunTimes i).1.stations j = w.stations j := by
  rcases calcSunTimes_inv w i with ⟨e, hc⟩ | ⟨f, lon, lat, tz, _, _, _, _, hc⟩ <;> rw [hc]
  simp [Function.update_of_ne h]

theorem setDaily_other (api : PandasApi) (w : World) {i j : Nat} (arg : DailyArg) (h : j ≠ i) : (w.setDaily api i arg).1.stations j = w.stations j := by
  rcases setDaily_inv api w i arg with ⟨e, _, hs⟩ | ⟨e, f, _, _, hs⟩ | ⟨f, idx, _, _, hs⟩ <;> rw [hs]
  · simp [Function.update_of_ne h]
  · split
    · rw [calcSunTimes_other _ h]; simp [stored, Function.update_of_ne h]
    · simp [stored, Function.update_of_ne h]

theorem setDaily_count (api : PandasApi) (w : World) (i : Nat) (arg : DailyArg) : (w.setDaily api i arg).1.nStations = w.nStations := by
  rcases setDaily_inv api w i arg with ⟨e, _, hs⟩ | ⟨e, f, _, _, hs⟩ | ⟨f, idx, _, _, hs⟩ <;> rw [hs]
  · rfl
  · split
    · rcases calcSunTimes_inv (w.stored i f idx) i with ⟨e, hc⟩ | ⟨f, lon, lat, tz, _, _, _, _, hc⟩ <;> rw [hc] <;> rfl
    · rfl

/-- the state the constructor reaches before it assigns the daily data -/
theorem newStation_eq (api : PandasApi) (w : World) (lon lat tz : Option ℝ) (daily : Option DailyArg) :
    ∃ v : World, (∀ j, j ≠ w.nStations → v.stations j = w.stations j) ∧ v.nStations = w.nStations + 1 ∧
      v.stations w.nStations = { lon := lon, lat := lat, tz := tz, stat := w.nStats } ∧ v.nStats = w.nStats + 1 ∧ v.frames = w.frames ∧
      v.nFrames = w.nFrames ∧ (∀ o, o ≠ w.nStats → v.stats o = w.stats o) ∧ v.stats w.nStats = { lon := lon, lat := lat, tz := tz } ∧
      w.newStation api lon lat tz daily = match daily with
        | none => (v, none)
        | some d => v.setDaily api w.nStations d := by
  refine ⟨(w.newStation api lon lat tz none).1, ?_, ?_, ?_, ?_, ?_, ?_, ?_, ?_, ?_⟩
  · intro j hj
    simp [newStation, newStatistics, setStatistics, setLon, setLat, setTz, Function.update_of_ne hj]
  · simp [newStation, newStatistics, setStatistics, setLon, setLat, setTz]
  · simp [newStation, newStatistics, setStatistics, setLon, setLat, setTz]
  · simp [newStation, newStatistics, setStatistics, setLon, setLat, setTz]
  · simp [newStation, newStatistics, setStatistics, setLon, setLat, setTz]
  · simp [newStation, newStatistics, setStatistics, setLon, setLat, setTz]
  · intro o ho
    simp [newStation, newStatistics, setStatistics, setLon, setLat, setTz, Function.update_of_ne ho]
  · simp [newStation, newStatistics, setStatistics, setLon, setLat, setTz, statOf]
  · cases daily <;> rfl

theorem newStation_other (api : PandasApi) (w : World) (lon lat tz : Option ℝ) (daily : Option DailyArg) {j : Nat} (h : j ≠ w.nStations) :
    (w.newStation api lon lat tz daily).1.stations j = w.stations j := by
  obtain ⟨v, h1, _, _, _, _, _, _, _, h2⟩ := newStation_eq api w lon lat tz daily
  rw [h2]
  cases daily with
  | none => exact h1 j h
  | some d => exact (setDaily_other api v d h).trans (h1 j h)

theorem newStation_count (api : PandasApi) (w : World) (lon lat tz : Option ℝ) (daily : Option DailyArg) :
    (w.newStation api lon lat tz daily).1.nStations = w.nStations + 1 := by
  obtain ⟨v, _, h1, _, _, _, _, _, _, h2⟩ := newStation_eq api w lon lat tz daily
  rw [h2]
  cases daily with
  | none => exact h1
  | some d => exact (setDaily_count api v _ d).trans h1

theorem run_append (api : PandasApi) (w : World) (a b : List Op) : w.run api (a ++ b) = (w.run api a).run api b := by
  induction a generalizing w with
  | nil => rfl
  | cons x xs ih => exact ih _

theorem run_snoc (api : PandasApi) (w : World) (a : List Op) (op : Op) : w.run api (a ++ [op]) = ((w.run api a).step api op).1 := by
  rw [run_append]; rfl

end World

theorem replaceCol_col?_ne (f : Frame ℝ) {name c : String} (v : List (XF ℝ)) (h : c ≠ name) :
    (World.replaceCol f name v).col? c = f.col? c := by
  unfold World.replaceCol Frame.col?
  dsimp only
  congr 1
  induction f.cols with
  | nil => rfl
  | cons x xs ih =>
    rw [List.map_cons, List.find?_cons, List.find?_cons]
    by_cases hx : x.1 = name
    · have h1 : (x.1 == name) = true := by simpa using hx
      have h2 : (x.1 == c) = false := by rw [hx]; simpa using fun e => h e.symm
      have h3 : (name == c) = false := by simpa using fun e => h e.symm
      simp only [h1, if_true, h2, h3]
      exact ih
    · have h1 : (x.1 == name) = false := by simpa using hx
      simp only [h1]
      cases h2 : x.1 == c with
      | true => simp [h2]
      | false => simp [h2]; simpa using ih

theorem replaceCol_col?_eq (f : Frame ℝ) {name : String} (v : List (XF ℝ)) (h : f.has name = true) :
    (World.replaceCol f name v).col? name = some (f.index.zip v) := by
  unfold World.replaceCol Frame.col?
  unfold Frame.has at h
  dsimp only
  induction hc : f.cols generalizing f with
  | nil => rw [hc] at h; simp at h
  | cons x xs ih =>
    rw [List.map_cons, List.find?_cons]
    by_cases hx : x.1 = name
    · have h1 : (x.1 == name) = true := by simpa using hx
      simp [h1]
    · have h1 : (x.1 == name) = false := by simpa using hx
      rw [hc, List.any_cons, h1, Bool.false_or] at h
      rw [show (if (x.1 == name) = true then (name, v) else x) = x by rw [h1]; rfl, h1]
      exact ih ⟨f.index, xs⟩ h rfl

theorem replaceCol_names (f : Frame ℝ) (name : String) (v : List (XF ℝ)) :
    (World.replaceCol f name v).cols.map Prod.fst = f.cols.map Prod.fst := by
  unfold World.replaceCol
  dsimp only
  rw [List.map_map]
  apply List.map_congr_left
  intro c _
  by_cases h : c.1 = name
  · simp [h]
  · simp [h]

end Melodist
