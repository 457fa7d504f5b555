import Verif.Props.StationCoords
import Verif.Props.StationState

/-!
# What one station sees of the heap
-/

set_option linter.unusedSectionVars false

namespace Melodist

/-- everything a program can observe of one station: coordinates, daily data, sun times, the content of its statistics object and of its hourly frame -/
structure StationView where
  coords : Coords
  daily : Option (Frame ℝ)
  sun : Option (Series SunTimes)
  stats : StatObj
  disagg : Option (Frame ℝ)

/-- the fitted parameters of a statistics object (everything except the coordinates) -/
def StatObj.params (s : StatObj) : WindStats × PrecipStats × HumStats × TempStats × GlobStats := (s.wind, s.precip, s.hum, s.temp, s.glob)

theorem StatObj.ext' {s t : StatObj} (h : s.coords = t.coords) (h' : s.params = t.params) : s = t := by
  obtain ⟨_, _, _, _, _, _, _, _⟩ := s
  obtain ⟨_, _, _, _, _, _, _, _⟩ := t
  simp [StatObj.coords, StatObj.params] at h h'
  simp [h, h']

namespace World

noncomputable section

/-- what there is to see of station `i` -/
def view (w : World) (i : Nat) : StationView :=
  ⟨(w.stations i).coords, (w.stations i).daily, (w.stations i).sun, w.statOf i, (w.stations i).disagg.map w.frames⟩

/-- the parts of equal views -/
theorem view_parts {w w' : World} {i : Nat} (h : w.view i = w'.view i) :
    (w.stations i).lon = (w'.stations i).lon ∧ (w.stations i).lat = (w'.stations i).lat ∧ (w.stations i).tz = (w'.stations i).tz ∧
    (w.stations i).daily = (w'.stations i).daily ∧ (w.stations i).sun = (w'.stations i).sun ∧ w.statOf i = w'.statOf i ∧
    (((w.stations i).disagg = none ∧ (w'.stations i).disagg = none) ∨
      ∃ k k', (w.stations i).disagg = some k ∧ (w'.stations i).disagg = some k' ∧ w.frames k = w'.frames k') := by
  unfold view at h
  simp only [StationView.mk.injEq, StationObj.coords, Prod.mk.injEq] at h
  obtain ⟨⟨h1, h2, h3⟩, h4, h5, h6, h7⟩ := h
  refine ⟨h1, h2, h3, h4, h5, h6, ?_⟩
  cases e : (w.stations i).disagg with
  | none =>
    cases e' : (w'.stations i).disagg with
    | none => exact .inl ⟨rfl, rfl⟩
    | some k' => rw [e, e'] at h7; cases h7
  | some k =>
    cases e' : (w'.stations i).disagg with
    | none => rw [e, e'] at h7; cases h7
    | some k' => rw [e, e'] at h7; exact .inr ⟨k, k', rfl, rfl, by simpa using h7⟩

theorem view_mk {w w' : World} {i : Nat} (h1 : (w.stations i).coords = (w'.stations i).coords) (h2 : (w.stations i).daily = (w'.stations i).daily)
    (h3 : (w.stations i).sun = (w'.stations i).sun) (h4 : w.statOf i = w'.statOf i)
    (h5 : (w.stations i).disagg.map w.frames = (w'.stations i).disagg.map w'.frames) : w.view i = w'.view i := by
  unfold view
  rw [h1, h2, h3, h4, h5]

/-- the same outcome, as far as station `i` can see -/
def SameFor (i : Nat) (a b : Out) : Prop := a.1.view i = b.1.view i ∧ a.2 = b.2

theorem write_view {w w' : World} {i : Nat} (h : w.view i = w'.view i) (name : String) {v v' : Py WindResult} (hv : v = v') :
    SameFor i (w.writeCol i name v) (w'.writeCol i name v') := by
  subst hv
  obtain ⟨h1, h2, h3, h4, h5, h6, h7⟩ := view_parts h
  unfold writeCol
  cases v with
  | error e => exact ⟨h, rfl⟩
  | ok r =>
    dsimp only
    rcases h7 with ⟨e, e'⟩ | ⟨k, k', e, e', hf⟩
    · rw [e, e']; exact ⟨h, rfl⟩
    · rw [e, e']
      dsimp only
      rw [hf]
      cases columnValues (w'.frames k').index r with
      | error e => exact ⟨h, rfl⟩
      | ok vals =>
        refine ⟨view_mk ?_ h4 h5 ?_ ?_, rfl⟩
        · simp [StationObj.coords, h1, h2, h3]
        · exact h6
        · simp [e, e', Function.update_self]

theorem calcSun_view {w w' : World} {i : Nat} (h : w.view i = w'.view i) : SameFor i (w.calcSunTimes i) (w'.calcSunTimes i) := by
  obtain ⟨h1, h2, h3, h4, h5, h6, h7⟩ := view_parts h
  unfold calcSunTimes
  dsimp only
  rw [h4]
  cases ed : (w'.stations i).daily with
  | none => exact ⟨h, rfl⟩
  | some f =>
    dsimp only
    rw [h1, h2, h3]
    cases (w'.stations i).lon with
    | none => exact ⟨h, rfl⟩
    | some lon =>
      cases (w'.stations i).lat with
      | none => exact ⟨h, rfl⟩
      | some lat =>
        cases (w'.stations i).tz with
        | none => exact ⟨h, rfl⟩
        | some tz =>
          refine ⟨view_mk ?_ ?_ ?_ ?_ ?_, rfl⟩
          · simp [StationObj.coords, h1, h2, h3]
          · simp [h4]
          · simp
          · unfold statOf at h6 ⊢; simpa using h6
          · rcases h7 with ⟨e, e'⟩ | ⟨k, k', e, e', hf⟩ <;> simp [*]

theorem setDaily_view (api : PandasApi) {w w' : World} {i : Nat} (h : w.view i = w'.view i) (arg : DailyArg) :
    SameFor i (w.setDaily api i arg) (w'.setDaily api i arg) := by
  obtain ⟨h1, h2, h3, h4, h5, h6, h7⟩ := view_parts h
  rcases setDaily_inv api w i arg with ⟨e, hc, hs⟩ | ⟨e, f, hc, hi, hs⟩ | ⟨f, idx, hc, hi, hs⟩ <;>
    rcases setDaily_inv api w' i arg with ⟨e', hc', hs'⟩ | ⟨e', f', hc', hi', hs'⟩ | ⟨f', idx', hc', hi', hs'⟩ <;>
    rw [hc] at hc' <;> cases hc' <;> (try rw [hi] at hi') <;> (try cases hi') <;> rw [hs, hs']
  · exact ⟨h, rfl⟩
  · refine ⟨view_mk ?_ ?_ ?_ ?_ ?_, rfl⟩
    · simp [StationObj.coords, h1, h2, h3]
    · simp
    · simp [h5]
    · unfold statOf at h6 ⊢; simpa using h6
    · rcases h7 with ⟨e, e'⟩ | ⟨k, k', e, e', hf⟩ <;> simp [*]
  · have hst : (w.stored i f idx).view i = (w'.stored i f idx).view i := by
      refine view_mk ?_ ?_ ?_ ?_ ?_
      · simp [stored, StationObj.coords, h1, h2, h3]
      · simp [stored]
      · simp [stored, h5]
      · unfold statOf at h6 ⊢; simpa [stored] using h6
      · simp [stored]
    rw [h3]
    split
    · exact calcSun_view hst
    · exact ⟨hst, rfl⟩

theorem setCoords_view {w w' : World} {i : Nat} (h : w.view i = w'.view i) (x : Option ℝ) :
    (w.setLon i x).view i = (w'.setLon i x).view i ∧ (w.setLat i x).view i = (w'.setLat i x).view i ∧ (w.setTz i x).view i = (w'.setTz i x).view i := by
  obtain ⟨h1, h2, h3, h4, h5, h6, h7⟩ := view_parts h
  have h7' : (w.stations i).disagg.map w.frames = (w'.stations i).disagg.map w'.frames := by
    rcases h7 with ⟨e, e'⟩ | ⟨k, k', e, e', hf⟩ <;> simp [*]
  unfold statOf at h6
  refine ⟨view_mk ?_ ?_ ?_ ?_ ?_, view_mk ?_ ?_ ?_ ?_ ?_, view_mk ?_ ?_ ?_ ?_ ?_⟩ <;>
    simp [setLon, setLat, setTz, statOf, StationObj.coords, *]

theorem radiation_view (api : PandasApi) {w w' : World} {i : Nat} (h : w.view i = w'.view i) (method : String) (pot : Option (Series (XF ℝ))) :
    SameFor i (w.radiation api i method pot) (w'.radiation api i method pot) := by
  have body : ∀ {w w' : World}, w.view i = w'.view i → SameFor i (w.radiationBody api i method pot) (w'.radiationBody api i method pot) := by
    intro w w' h
    obtain ⟨h1, h2, h3, h4, h5, h6, h7⟩ := view_parts h
    unfold radiationBody
    apply write_view h
    have hp : w.potRadArg i method pot = w'.potRadArg i method pot := by
      unfold potRadArg
      rw [h1, h2, h3]
      rcases h7 with ⟨e, e'⟩ | ⟨k, k', e, e', hf⟩
      · rw [e, e']
      · rw [e, e']; dsimp only; rw [hf]
    rw [hp, h4, h5, h6]
  unfold radiation
  obtain ⟨h1, h2, h3, h4, h5, h6, h7⟩ := view_parts h
  rw [h5]
  split
  · have hc := calcSun_view h
    obtain ⟨hv, he⟩ := hc
    rcases ea : w.calcSunTimes i with ⟨a, ae⟩
    rcases eb : w'.calcSunTimes i with ⟨b, be⟩
    rw [ea, eb] at hv he
    dsimp only at hv he
    subst he
    cases ae with
    | none => exact body hv
    | some e => exact ⟨hv, rfl⟩
  · exact body h

theorem wind_view (api : PandasApi) {w w' : World} {i : Nat} (h : w.view i = w'.view i) (draw : Nat → ℝ) (method : String) :
    SameFor i (w.wind api i draw method) (w'.wind api i draw method) := by
  obtain ⟨h1, h2, h3, h4, h5, h6, h7⟩ := view_parts h
  unfold wind
  apply write_view h
  unfold dailyAttr
  rw [h4, h6]

theorem humidity_view (api : PandasApi) {w w' : World} {i : Nat} (h : w.view i = w'.view i) (method : String) (preserve : Bool) :
    SameFor i (w.humidity api i method preserve) (w'.humidity api i method preserve) := by
  obtain ⟨h1, h2, h3, h4, h5, h6, h7⟩ := view_parts h
  unfold humidity
  apply write_view h
  have : w.disaggAttr i "temp" = w'.disaggAttr i "temp" := by
    unfold disaggAttr
    rcases h7 with ⟨e, e'⟩ | ⟨k, k', e, e', hf⟩
    · rw [e, e']
    · rw [e, e']; dsimp only; rw [hf]
  rw [this, h4, h6]

theorem temperature_view (api : PandasApi) {w w' : World} {i : Nat} (h : w.view i = w'.view i) (method mm : String) (modNight : Bool) :
    SameFor i (w.temperature api i method mm modNight) (w'.temperature api i method mm modNight) := by
  obtain ⟨h1, h2, h3, h4, h5, h6, h7⟩ := view_parts h
  unfold temperature
  apply write_view h
  rw [h4, h5, h6]

theorem precipitation_view (api : PandasApi) {w w' : World} {i : Nat} (h : w.view i = w'.view i) (rnd : Nat → Nat → ℝ) (method zerodiv : String) (shift : Int)
    (master : Option (Series (XF ℝ))) :
    SameFor i (w.precipitation api i rnd method zerodiv shift master) (w'.precipitation api i rnd method zerodiv shift master) := by
  obtain ⟨h1, h2, h3, h4, h5, h6, h7⟩ := view_parts h
  unfold precipitation
  apply write_view h
  have : w.precipSeries api i rnd method zerodiv shift master = w'.precipSeries api i rnd method zerodiv shift master := by
    unfold precipSeries dailyAttr
    rw [h4, h6]
    rcases h7 with ⟨e, e'⟩ | ⟨k, k', e, e', hf⟩
    · rw [e, e']
    · rw [e, e']; dsimp only; rw [hf]
  rw [this]

end

end World

end Melodist
