import Verif.Model.Station
import Verif.Props.Humidity

/-!
# C158: columns a method does not read have no effect

Two daily frames with the same index that agree on the columns a method reads give the same hourly values or the same exception.  Additional columns, the
contents of unused columns and the order of the columns play no role.  For whole programs: two programs that differ only in the daily frames assigned to
stations, where the frames agree on the columns the package knows, raise the same exceptions and leave the same hourly results.
-/

set_option linter.unusedSectionVars false

namespace Melodist

namespace Spec

/-- the same index, and the same content of each of the named columns (a column missing in one is missing in the other) -/
def SameCols (cols : List String) (f g : Frame ℝ) : Prop := f.index = g.index ∧ ∀ c ∈ cols, f.col? c = g.col? c

/-- the daily columns read by each method of `disaggregate_temperature` -/
def temperatureReads (method : String) : List String :=
  if method = "mean_course_min_max" then ["tmin", "tmax"]
  else if method = "sine_min_max" ∨ method = "sine_mean" ∨ method = "sine" ∨ method = "mean_course_mean" then ["tmin", "tmax", "temp"] else []

/-- the daily columns read by each method of `disaggregate_humidity` -/
def humidityReads (method : String) (preserve : Bool) : List String :=
  (if method = "equal" then ["hum"]
   else if method = "minimal" ∨ method = "dewpoint_regression" ∨ method = "linear_dewpoint_variation" then ["tmin"]
   else if method = "min_max" then ["hum_min", "hum_max", "tmin", "tmax"]
   else if method = "month_hour_precip_mean" then ["precip"] else []) ++ if preserve then ["hum"] else []

/-- the daily columns read by each method of `disaggregate_radiation` -/
def radiationReads (method : String) : List String :=
  if method = "pot_rad" ∨ method = "mean_course" then ["glob"]
  else if method = "pot_rad_via_ssd" then ["ssd"]
  else if method = "pot_rad_via_bc" then ["tmin", "tmax"] else []

/-- all daily columns the package knows ("tmean" is only checked for plausibility) -/
def knownColumns : List String := ["tmin", "tmax", "tmean", "temp", "precip", "glob", "ssd", "hum", "hum_min", "hum_max", "wind"]

/-- what is assigned to `data_daily`, up to unknown columns -/
inductive SameArg : DailyArg → DailyArg → Prop
  | frame (f g : Frame ℝ) (datetime hasFreq : Bool) (h : SameCols knownColumns f g) : SameArg (.frame f datetime hasFreq) (.frame g datetime hasFreq)
  | other : SameArg .other .other

/-- the same statement, up to unknown columns of the daily data in it -/
inductive SameOp : Op → Op → Prop
  | same (op : Op) : SameOp op op
  | setDaily (i : Nat) (a b : DailyArg) (h : SameArg a b) : SameOp (.setDaily i a) (.setDaily i b)
  | newStation (lon lat tz : Option ℝ) (a b : DailyArg) (h : SameArg a b) : SameOp (.newStation lon lat tz (some a)) (.newStation lon lat tz (some b))

/-- daily data of two stations: both absent, or the same up to unknown columns -/
def SameDaily : Option (Frame ℝ) → Option (Frame ℝ) → Prop
  | none, none => True
  | some f, some g => SameCols knownColumns f g
  | _, _ => False

/-- two heaps that differ at most in unknown columns of daily data: same statistics, same result frames, same coordinates, same sun times -/
structure SameWorld (w v : World) : Prop where
  stats : w.stats = v.stats
  nStats : w.nStats = v.nStats
  frames : w.frames = v.frames
  nFrames : w.nFrames = v.nFrames
  nStations : w.nStations = v.nStations
  rest : ∀ i, { w.stations i with daily := none } = { v.stations i with daily := none }
  daily : ∀ i, SameDaily (w.stations i).daily (v.stations i).daily

/-- the exceptions raised by the statements of a program, in order (`none`: no exception) -/
noncomputable def exceptions (api : PandasApi) (w : World) : List Op → List (Option PyErr)
  | [] => []
  | op :: ops => (w.step api op).2 :: exceptions api (w.step api op).1 ops

end Spec

open Spec

theorem Spec.SameCols.refl (cols : List String) (f : Frame ℝ) : SameCols cols f f := ⟨rfl, fun _ _ => rfl⟩

theorem Spec.SameCols.mono {cols cols' : List String} {f g : Frame ℝ} (h : SameCols cols f g) (hs : ∀ c ∈ cols', c ∈ cols) : SameCols cols' f g :=
  ⟨h.1, fun c hc => h.2 c (hs c hc)⟩

theorem Spec.SameCols.attr {cols : List String} {f g : Frame ℝ} (h : SameCols cols f g) {c : String} (hc : c ∈ cols) : f.attr c = g.attr c := by
  unfold Frame.attr
  rw [h.2 c hc]

theorem Spec.SameCols.item {cols : List String} {f g : Frame ℝ} (h : SameCols cols f g) {c : String} (hc : c ∈ cols) : f.item c = g.item c := by
  unfold Frame.item
  rw [h.2 c hc]

theorem has_eq_col? (f : Frame ℝ) (c : String) : f.has c = (f.col? c).isSome := by
  unfold Frame.has Frame.col?
  rw [Option.isSome_map, List.isSome_find?]

/-! ## The functions -/

theorem locTable_agree {f g : Frame ℝ} (h : SameCols ["tmin", "tmax", "temp"] f g) (mm : String) (md : Option (List (Int × XF ℝ)))
    (sun : Option (Series SunTimes)) : locTable f mm md sun = locTable g mm md sun := by
  unfold locTable
  rw [h.1, h.attr (c := "tmin") (by simp), h.attr (c := "tmax") (by simp), h.attr (c := "temp") (by simp)]

/-- C158: temperature -/
theorem C158_temperature (api : PandasApi) (f g : Frame ℝ) (method mm : String) (modNight : Bool) (md : Option (List (Int × XF ℝ)))
    (course : Option (MeanCourse ℝ)) (sun : Option (Series SunTimes)) (h : SameCols (temperatureReads method) f g) :
    disaggregateTemperature api f method mm modNight md course sun = disaggregateTemperature api g method mm modNight md course sun := by
  unfold disaggregateTemperature
  by_cases h1 : method = "sine_min_max" ∨ method = "sine_mean" ∨ method = "sine" ∨ method = "mean_course_min_max" ∨ method = "mean_course_mean"
  swap
  · rw [if_pos h1, if_pos h1]
  rw [if_neg (not_not.mpr h1), if_neg (not_not.mpr h1), h.1]
  congr 1; funext index
  by_cases h2 : method = "sine_min_max" ∨ method = "sine_mean" ∨ method = "sine"
  · have h3 : SameCols ["tmin", "tmax", "temp"] f g := by
      rcases h2 with rfl | rfl | rfl <;> simpa [temperatureReads] using h
    rw [if_pos h2, if_pos h2]
    unfold sineTemperature
    rw [locTable_agree h3, h.1]
  · rw [if_neg h2, if_neg h2]
    by_cases h4 : method = "mean_course_min_max"
    · subst h4
      have h3 : SameCols ["tmin", "tmax"] f g := by simpa [temperatureReads] using h
      rw [if_pos rfl, if_pos rfl]
      unfold courseMinMax
      rw [h3.attr (c := "tmin") (by simp), h3.attr (c := "tmax") (by simp)]
    · have h5 : method = "mean_course_mean" := by tauto
      subst h5
      have h3 : SameCols ["tmin", "tmax", "temp"] f g := by simpa [temperatureReads] using h
      rw [if_neg h4, if_neg h4]
      unfold courseMean
      rw [h3.attr (c := "tmin") (by simp), h3.attr (c := "tmax") (by simp), h3.attr (c := "temp") (by simp)]

theorem humidityRaw_agree (api : PandasApi) (f g : Frame ℝ) (method : String) (temp : Option (Series (XF ℝ))) (a0 a1 kr : Option ℝ)
    (table : Option (CatMeans ℝ)) (h : SameCols (humidityReads method false) f g) :
    humidityRaw api f method temp a0 a1 kr table = humidityRaw api g method temp a0 a1 kr table := by
  unfold humidityRaw
  by_cases h1 : method = "equal" ∨ method = "minimal" ∨ method = "dewpoint_regression" ∨ method = "min_max" ∨
      method = "linear_dewpoint_variation" ∨ method = "month_hour_precip_mean"
  swap
  · rw [if_pos h1, if_pos h1]; rfl
  rw [if_neg (not_not.mpr h1), if_neg (not_not.mpr h1)]
  by_cases h2 : method = "equal"
  · subst h2
    have h3 : SameCols ["hum"] f g := by simpa [humidityReads] using h
    rw [if_pos rfl, if_pos rfl, h3.attr (c := "hum") (by simp)]
  rw [if_neg h2, if_neg h2]
  by_cases h4 : method = "minimal" ∨ method = "dewpoint_regression" ∨ method = "linear_dewpoint_variation"
  · have h3 : SameCols ["tmin"] f g := by rcases h4 with rfl | rfl | rfl <;> simpa [humidityReads] using h
    rw [if_pos h4, if_pos h4]
    unfold humidityDewpoint
    rw [h3.attr (c := "tmin") (by simp)]
  rw [if_neg h4, if_neg h4]
  by_cases h5 : method = "min_max"
  · subst h5
    have h3 : SameCols ["hum_min", "hum_max", "tmin", "tmax"] f g := by simpa [humidityReads] using h
    rw [if_pos rfl, if_pos rfl]
    unfold humidityMinMax
    rw [has_eq_col?, has_eq_col?, has_eq_col?, has_eq_col?, h3.2 "hum_min" (by simp), h3.2 "hum_max" (by simp), h3.attr (c := "hum_min") (by simp),
      h3.attr (c := "hum_max") (by simp), h3.attr (c := "tmin") (by simp), h3.attr (c := "tmax") (by simp)]
  rw [if_neg h5, if_neg h5]
  have h6 : method = "month_hour_precip_mean" := by tauto
  subst h6
  have h3 : SameCols ["precip"] f g := by simpa [humidityReads] using h
  unfold humidityCategorical
  rw [h3.attr (c := "precip") (by simp)]

/-- C158: humidity -/
theorem C158_humidity (api : PandasApi) (f g : Frame ℝ) (method : String) (temp : Option (Series (XF ℝ))) (a0 a1 kr : Option ℝ)
    (table : Option (CatMeans ℝ)) (preserve : Bool) (h : SameCols (humidityReads method preserve) f g) :
    disaggregateHumidity api f method temp a0 a1 kr table preserve = disaggregateHumidity api g method temp a0 a1 kr table preserve := by
  unfold disaggregateHumidity
  rw [humidityRaw_agree api f g method temp a0 a1 kr table (h.mono fun c hc => by
    simp only [humidityReads, Bool.false_eq_true, if_false, List.append_nil] at hc
    exact List.mem_append_left _ hc)]
  cases preserve
  · rfl
  · unfold preserveDailyMean
    rw [h.attr (c := "hum") (by simp [humidityReads])]

/-- C158: radiation -/
theorem C158_radiation (api : PandasApi) (f g : Frame ℝ) (sun : Option (Series SunTimes)) (pot : Option (Series (XF ℝ))) (method : String)
    (ang bc : ParPair ℝ) (course : Option (MeanCourse ℝ)) (h : SameCols (radiationReads method) f g) :
    disaggregateRadiation api f sun pot method ang bc course = disaggregateRadiation api g sun pot method ang bc course := by
  unfold disaggregateRadiation
  by_cases h1 : method = "pot_rad" ∨ method = "pot_rad_via_ssd" ∨ method = "pot_rad_via_bc" ∨ method = "mean_course"
  swap
  · rw [if_pos h1, if_pos h1]
  rw [if_neg (not_not.mpr h1), if_neg (not_not.mpr h1), h.1]
  congr 1; funext index
  by_cases h2 : method = "mean_course"
  · subst h2
    have h3 : SameCols ["glob"] f g := by simpa [radiationReads] using h
    rw [if_pos rfl, if_pos rfl, h3.attr (c := "glob") (by simp)]
  rw [if_neg h2, if_neg h2]
  by_cases h4 : method = "pot_rad"
  · subst h4
    have h3 : SameCols ["glob"] f g := by simpa [radiationReads] using h
    simp only [if_pos, h3.attr (c := "glob") (by simp)]
  by_cases h5 : method = "pot_rad_via_ssd"
  · subst h5
    have h3 : SameCols ["ssd"] f g := by simpa [radiationReads] using h
    have hs : ∀ p, ssdDaily f sun p ang = ssdDaily g sun p ang := by
      intro p
      unfold ssdDaily
      rw [h3.attr (c := "ssd") (by simp), h.1]
    simp only [if_neg h4, if_pos, hs]
  have h6 : method = "pot_rad_via_bc" := by tauto
  subst h6
  have h3 : SameCols ["tmin", "tmax"] f g := by simpa [radiationReads] using h
  simp only [if_neg h4, if_neg h5, h3.attr (c := "tmin") (by simp), h3.attr (c := "tmax") (by simp)]

/-- C158: precipitation with the method 'equal' -/
theorem C158_precipitation (api : PandasApi) (rnd : Nat → ℝ) (f g : Frame ℝ) (method : String) (opts : Option (CascOptions ℝ))
    (master : Option (Series (XF ℝ))) (zerodiv : String) (shift : Int) (h : SameCols ["precip"] f g) :
    disaggPrec api rnd (.frame f) method opts master zerodiv shift = disaggPrec api rnd (.frame g) method opts master zerodiv shift := by
  unfold disaggPrec
  simp only [h.attr (c := "precip") (by simp)]

/-- C158: `prepare_interpolation_data` and `Station.interpolate` -/
theorem C158_interpolate (api : PandasApi) (f g : Frame ℝ) (columnHours : List (String × Int)) (limit : Nat)
    (h : SameCols (columnHours.map Prod.fst) f g) : stationInterpolate api f columnHours limit = stationInterpolate api g columnHours limit := by
  have hp : prepareInterpolationData api f columnHours = prepareInterpolationData api g columnHours := by
    unfold prepareInterpolationData
    rw [h.1]
    have key : ∀ (l : List (String × Int)), (∀ ch ∈ l, ch.1 ∈ columnHours.map Prod.fst) → ∀ (t0 t1 : Time) (d : Series (XF ℝ)),
        l.foldlM (interpColumn api f t0 t1) d = l.foldlM (interpColumn api g t0 t1) d := by
      intro l
      induction l with
      | nil => intro _ t0 t1 d; rfl
      | cons ch l ih =>
        intro hl t0 t1 d
        rw [List.foldlM_cons, List.foldlM_cons]
        have he : interpColumn api f t0 t1 d ch = interpColumn api g t0 t1 d ch := by
          unfold interpColumn
          rw [h.item (hl ch (List.mem_cons_self ..))]
        rw [he]
        congr 1; funext d'
        exact ih (fun ch hc => hl ch (List.mem_cons_of_mem _ hc)) t0 t1 d'
    cases g.index.head? <;> cases g.index.getLast? <;> try rfl
    simp only [key columnHours (fun ch hc => List.mem_map_of_mem hc)]
  unfold stationInterpolate
  rw [hp]

/-! ## Programs -/

theorem Spec.SameWorld.refl (w : World) : SameWorld w w := by
  refine ⟨rfl, rfl, rfl, rfl, rfl, fun _ => rfl, fun i => ?_⟩
  cases (w.stations i).daily
  · trivial
  · exact Spec.SameCols.refl _ _

theorem Spec.SameWorld.setStation {w v : World} (h : SameWorld w v) (i : Nat) (s t : StationObj)
    (hr : ({ s with daily := none } : StationObj) = { t with daily := none }) (hd : SameDaily s.daily t.daily) :
    SameWorld (w.setStation i s) (v.setStation i t) := by
  refine ⟨h.stats, h.nStats, h.frames, h.nFrames, h.nStations, fun j => ?_, fun j => ?_⟩
  · by_cases hj : j = i
    · subst hj; simpa [World.setStation] using hr
    · simpa [World.setStation, hj] using h.rest j
  · by_cases hj : j = i
    · subst hj; simpa [World.setStation] using hd
    · simpa [World.setStation, hj] using h.daily j

theorem Spec.SameWorld.setStat {w v : World} (h : SameWorld w v) (o : Nat) (s t : StatObj) (hst : s = t) :
    SameWorld (w.setStat o s) (v.setStat o t) := by
  subst hst
  exact ⟨by simp only [World.setStat, h.stats], h.nStats, h.frames, h.nFrames, h.nStations, h.rest, h.daily⟩

theorem Spec.SameWorld.setFrame {w v : World} (h : SameWorld w v) (k : Nat) (s t : Frame ℝ) (hst : s = t) :
    SameWorld (w.setFrame k s) (v.setFrame k t) := by
  subst hst
  exact ⟨h.stats, h.nStats, by simp only [World.setFrame, h.frames], h.nFrames, h.nStations, h.rest, h.daily⟩

theorem Spec.SameWorld.fields {w v : World} (h : SameWorld w v) (i : Nat) : (w.stations i).lon = (v.stations i).lon ∧ (w.stations i).lat = (v.stations i).lat ∧
    (w.stations i).tz = (v.stations i).tz ∧ (w.stations i).stat = (v.stations i).stat ∧ (w.stations i).disagg = (v.stations i).disagg ∧
    (w.stations i).sun = (v.stations i).sun := by
  have := h.rest i
  simp only [StationObj.mk.injEq] at this
  tauto

theorem Spec.SameWorld.statOf {w v : World} (h : SameWorld w v) (i : Nat) : w.statOf i = v.statOf i := by
  unfold World.statOf
  rw [h.stats, (h.fields i).2.2.2.1]

/-- the outcome of a statement in two heaps: the same exception, and heaps that are the same again -/
def SameOut (a b : Out) : Prop := a.2 = b.2 ∧ SameWorld a.1 b.1

theorem Spec.SameWorld.setLon {w v : World} (h : SameWorld w v) (i : Nat) (x : Option ℝ) : SameWorld (w.setLon i x) (v.setLon i x) := by
  have h1 := h.setStation i { w.stations i with lon := x } { v.stations i with lon := x }
    (by have := h.fields i; simp [this]) (h.daily i)
  have h2 := h1.statOf i
  unfold World.setLon
  simp only [← (h1.fields i).2.2.2.1]
  exact h1.setStat _ _ _ (by rw [h2])

theorem Spec.SameWorld.setLat {w v : World} (h : SameWorld w v) (i : Nat) (x : Option ℝ) : SameWorld (w.setLat i x) (v.setLat i x) := by
  have h1 := h.setStation i { w.stations i with lat := x } { v.stations i with lat := x }
    (by have := h.fields i; simp [this]) (h.daily i)
  have h2 := h1.statOf i
  unfold World.setLat
  simp only [← (h1.fields i).2.2.2.1]
  exact h1.setStat _ _ _ (by rw [h2])

theorem Spec.SameWorld.setTz {w v : World} (h : SameWorld w v) (i : Nat) (x : Option ℝ) : SameWorld (w.setTz i x) (v.setTz i x) := by
  have h1 := h.setStation i { w.stations i with tz := x } { v.stations i with tz := x }
    (by have := h.fields i; simp [this]) (h.daily i)
  have h2 := h1.statOf i
  unfold World.setTz
  simp only [← (h1.fields i).2.2.2.1]
  exact h1.setStat _ _ _ (by rw [h2])

theorem Spec.SameWorld.setStatistics {w v : World} (h : SameWorld w v) (i : Nat) (o : Option Nat) :
    SameOut (w.setStatistics i o) (v.setStatistics i o) := by
  cases o with
  | none => exact ⟨rfl, h⟩
  | some o =>
    refine ⟨rfl, ?_⟩
    have hf := h.fields i
    refine SameWorld.setStation (SameWorld.setStat h o _ _ ?_) i _ _ ?_ (h.daily i)
    · rw [h.stats, hf.1, hf.2.1, hf.2.2.1]
    · simp [hf]

theorem Spec.SameWorld.calcSunTimes {w v : World} (h : SameWorld w v) (i : Nat) : SameOut (w.calcSunTimes i) (v.calcSunTimes i) := by
  have hd := h.daily i
  have hf := h.fields i
  unfold World.calcSunTimes
  simp only
  cases hw : (w.stations i).daily with
  | none =>
    cases hv : (v.stations i).daily with
    | none => exact ⟨rfl, h⟩
    | some g => rw [hw, hv] at hd; exact hd.elim
  | some f =>
    cases hv : (v.stations i).daily with
    | none => rw [hw, hv] at hd; exact hd.elim
    | some g =>
      rw [hw, hv] at hd
      simp only [← hf.1, ← hf.2.1, ← hf.2.2.1]
      cases (w.stations i).lon <;> cases (w.stations i).lat <;> cases (w.stations i).tz <;> try exact ⟨rfl, h⟩
      refine ⟨rfl, h.setStation i _ _ ?_ ?_⟩
      · simp only [StationObj.mk.injEq, hf, hd.1, and_self]
      · exact hd

theorem col?_reindex {f f' : Frame ℝ} {idx : List Time} (h : f.reindex idx = .ok f') (c : String) :
    f'.col? c = (f.col? c).map fun s => idx.zip (idx.map fun t => (Series.at? s t).getD .nan) := by
  unfold Frame.reindex at h
  split_ifs at h
  cases h
  unfold Frame.col?
  simp only [List.find?_map, Option.map_map]
  rfl

theorem Spec.SameCols.reindex {cols : List String} {f g : Frame ℝ} (h : SameCols cols f g) (idx : List Time) :
    (∃ f' g', f.reindex idx = .ok f' ∧ g.reindex idx = .ok g' ∧ SameCols cols f' g') ∨
      ∃ e, f.reindex idx = .error e ∧ g.reindex idx = .error e := by
  by_cases hn : f.index.Nodup
  · left
    have hg : g.index.Nodup := h.1 ▸ hn
    have e1 : f.reindex idx = .ok ⟨idx, f.cols.map fun c => (c.1, idx.map fun t => (Series.at? (f.index.zip c.2) t).getD .nan)⟩ := by
      rw [Frame.reindex, if_pos hn]
    have e2 : g.reindex idx = .ok ⟨idx, g.cols.map fun c => (c.1, idx.map fun t => (Series.at? (g.index.zip c.2) t).getD .nan)⟩ := by
      rw [Frame.reindex, if_pos hg]
    refine ⟨_, _, e1, e2, rfl, fun c hc => ?_⟩
    rw [col?_reindex e1, col?_reindex e2, h.2 c hc]
  · right
    have hg : ¬ g.index.Nodup := h.1 ▸ hn
    exact ⟨_, by rw [Frame.reindex, if_neg hn], by rw [Frame.reindex, if_neg hg]⟩

theorem Spec.SameCols.plausible {f g : Frame ℝ} (h : SameCols knownColumns f g) : plausibleTemps f ↔ plausibleTemps g := by
  unfold plausibleTemps
  constructor <;> intro hp n hn s hs
  · exact hp n hn s (by rw [h.2 n (by simp [knownColumns] at hn ⊢; tauto)]; exact hs)
  · exact hp n hn s (by rw [← h.2 n (by simp [knownColumns] at hn ⊢; tauto)]; exact hs)

open Classical in
theorem checkDaily_same {a b : DailyArg} (h : SameArg a b) :
    (∃ f g, checkDaily a = .ok f ∧ checkDaily b = .ok g ∧ SameCols knownColumns f g) ∨ ∃ e, checkDaily a = .error e ∧ checkDaily b = .error e := by
  cases h with
  | other => exact .inr ⟨_, rfl, rfl⟩
  | frame f g datetime hasFreq h =>
    have final : ∀ f g : Frame ℝ, SameCols knownColumns f g →
        (∃ f' g', ((if plausibleTemps f then .ok f else .error .assertionError : Py (Frame ℝ))) = .ok f' ∧
          ((if plausibleTemps g then .ok g else .error .assertionError : Py (Frame ℝ))) = .ok g' ∧ SameCols knownColumns f' g') ∨
        ∃ e, ((if plausibleTemps f then .ok f else .error .assertionError : Py (Frame ℝ))) = .error e ∧
          ((if plausibleTemps g then .ok g else .error .assertionError : Py (Frame ℝ))) = .error e := by
      intro f g h
      by_cases hp : plausibleTemps f
      · exact .inl ⟨f, g, if_pos hp, if_pos (h.plausible.mp hp), h⟩
      · exact .inr ⟨_, if_neg hp, if_neg fun hg => hp (h.plausible.mpr hg)⟩
    unfold checkDaily
    simp only [← h.1]
    by_cases h1 : datetime = false
    · exact .inr ⟨_, if_pos h1, if_pos h1⟩
    rw [if_neg h1, if_neg h1]
    by_cases h2 : dayResolution f.index = false
    · exact .inr ⟨_, if_pos h2, if_pos h2⟩
    rw [if_neg h2, if_neg h2]
    by_cases h3 : ¬ f.index.Pairwise (· ≤ ·)
    · exact .inr ⟨_, if_pos h3, if_pos h3⟩
    rw [if_neg h3, if_neg h3]
    cases hasFreq with
    | true => exact final f g h
    | false =>
      simp only [Bool.false_eq_true, if_false]
      cases f.index.head? with
      | none => exact .inr ⟨_, rfl, rfl⟩
      | some a =>
        cases f.index.getLast? with
        | none => exact .inr ⟨_, rfl, rfl⟩
        | some b =>
          rcases h.reindex (dateRange a b DAY) with ⟨f', g', e1, e2, hr⟩ | ⟨e, e1, e2⟩
          · simp only [e1, e2]
            exact final f' g' hr
          · simp only [e1, e2]
            exact .inr ⟨e, rfl, rfl⟩

theorem Spec.SameWorld.nextFrame {w v : World} (h : SameWorld w v) (f : Frame ℝ) :
    SameWorld { w.setFrame w.nFrames f with nFrames := w.nFrames + 1 } { v.setFrame v.nFrames f with nFrames := v.nFrames + 1 } := by
  have h3 := h.setFrame v.nFrames f f rfl
  rw [h.nFrames]
  exact ⟨h3.stats, h3.nStats, h3.frames, rfl, h3.nStations, h3.rest, h3.daily⟩

theorem Spec.SameWorld.setDisagg {w v : World} (h : SameWorld w v) (i : Nat) :
    SameWorld (w.setStation i { w.stations i with disagg := some (w.nFrames - 1) }) (v.setStation i { v.stations i with disagg := some (v.nFrames - 1) }) :=
  h.setStation i _ _ (by have := h.fields i; simp [this, h.nFrames]) (h.daily i)

theorem Spec.SameWorld.unsetSun {w v : World} (h : SameWorld w v) (i : Nat) :
    SameWorld (w.setStation i { w.stations i with sun := none }) (v.setStation i { v.stations i with sun := none }) :=
  h.setStation i _ _ (by have := h.fields i; simp [this]) (h.daily i)

theorem Spec.SameWorld.sunIfTz {w v : World} (h : SameWorld w v) (i : Nat) :
    SameOut (if (w.stations i).tz.isSome then w.calcSunTimes i else (w, none)) (if (v.stations i).tz.isSome then v.calcSunTimes i else (v, none)) := by
  rw [(h.fields i).2.2.1]
  by_cases ht : (v.stations i).tz.isSome
  · rw [if_pos ht, if_pos ht]
    exact h.calcSunTimes i
  · rw [if_neg ht, if_neg ht]
    exact ⟨rfl, h⟩

theorem Spec.SameWorld.setDaily {w v : World} (h : SameWorld w v) (api : PandasApi) (i : Nat) {a b : DailyArg} (hab : SameArg a b) :
    SameOut (w.setDaily api i a) (v.setDaily api i b) := by
  unfold World.setDaily
  rcases checkDaily_same hab with ⟨f, g, e1, e2, hfg⟩ | ⟨e, e1, e2⟩
  · simp only [e1, e2, hfg.1]
    have h1 := h.setStation i { w.stations i with daily := some f } { v.stations i with daily := some g } (h.rest i) hfg
    cases hourlyIndex api g.index with
    | error e => exact ⟨rfl, h1⟩
    | ok idx => exact ((h1.nextFrame (emptyDisagg idx)).setDisagg i).sunIfTz i
  · simp only [e1, e2]
    exact ⟨rfl, h⟩

theorem Spec.SameWorld.newStatistics {w v : World} (h : SameWorld w v) (lon lat tz : Option ℝ) :
    SameWorld (w.newStatistics lon lat tz).1 (v.newStatistics lon lat tz).1 ∧ (w.newStatistics lon lat tz).2 = (v.newStatistics lon lat tz).2 := by
  refine ⟨⟨?_, ?_, h.frames, h.nFrames, h.nStations, h.rest, h.daily⟩, h.nStats⟩
  · simp only [World.newStatistics, h.stats, h.nStats]
  · simp only [World.newStatistics, h.nStats]

theorem Spec.SameWorld.addStation {w v : World} (h : SameWorld w v) (s t : StationObj)
    (hr : ({ s with daily := none } : StationObj) = { t with daily := none }) (hd : SameDaily s.daily t.daily) :
    SameWorld { w.setStation w.nStations s with nStations := w.nStations + 1 } { v.setStation v.nStations t with nStations := v.nStations + 1 } := by
  rw [h.nStations]
  have := h.setStation v.nStations s t hr hd
  exact ⟨this.stats, this.nStats, this.frames, this.nFrames, rfl, this.rest, this.daily⟩

theorem Spec.SameWorld.newStation {w v : World} (h : SameWorld w v) (api : PandasApi) (lon lat tz : Option ℝ) {a b : Option DailyArg}
    (hab : (a = none ∧ b = none) ∨ ∃ x y, a = some x ∧ b = some y ∧ SameArg x y) :
    SameOut (w.newStation api lon lat tz a) (v.newStation api lon lat tz b) := by
  have h1 := h.addStation {} {} rfl trivial
  have h2 := h1.newStatistics lon lat none
  have h3 := (h2.1.setStatistics w.nStations (some (World.newStatistics { w.setStation w.nStations {} with nStations := w.nStations + 1 } lon lat none).2)).2
  have h4 := (((h3.setLon w.nStations lon).setLat w.nStations lat).setTz w.nStations tz).unsetSun w.nStations
  rw [h2.2] at h4
  have e : (World.newStatistics { w.setStation w.nStations {} with nStations := w.nStations + 1 } lon lat none).2 =
      (World.newStatistics { v.setStation v.nStations {} with nStations := v.nStations + 1 } lon lat none).2 := h2.2
  unfold World.newStation
  simp only
  rw [e]
  revert h4
  rw [h.nStations]
  intro h4
  rcases hab with ⟨rfl, rfl⟩ | ⟨x, y, rfl, rfl, hxy⟩
  · exact ⟨rfl, h4⟩
  · exact h4.setDaily api v.nStations hxy

theorem Spec.SameWorld.writeCol {w v : World} (h : SameWorld w v) (i : Nat) (name : String) {a b : Py WindResult} (hab : a = b) :
    SameOut (w.writeCol i name a) (v.writeCol i name b) := by
  subst hab
  unfold World.writeCol
  rw [(h.fields i).2.2.2.2.1, h.frames]
  cases a with
  | error e => exact ⟨rfl, h⟩
  | ok r =>
    cases hk : (v.stations i).disagg with
    | none => exact ⟨rfl, h⟩
    | some k =>
      cases hv : World.columnValues (v.frames k).index r with
      | error e => simp only [hv]; exact ⟨rfl, h⟩
      | ok l => simp only [hv]; exact ⟨rfl, h.setFrame k _ _ rfl⟩

theorem Spec.SameWorld.dailyAttr {w v : World} (h : SameWorld w v) (i : Nat) {c : String} (hc : c ∈ knownColumns) :
    w.dailyAttr i c = v.dailyAttr i c := by
  have hd := h.daily i
  unfold World.dailyAttr
  cases hw : (w.stations i).daily <;> cases hv : (v.stations i).daily <;> rw [hw, hv] at hd <;> first | rfl | exact hd.elim | exact hd.attr hc

theorem Spec.SameWorld.disaggAttr {w v : World} (h : SameWorld w v) (i : Nat) (c : String) : w.disaggAttr i c = v.disaggAttr i c := by
  unfold World.disaggAttr
  rw [(h.fields i).2.2.2.2.1, h.frames]

/-- a computation that uses the daily frame of a station -/
theorem Spec.SameWorld.useDaily {w v : World} (h : SameWorld w v) (i : Nat) {α : Type} (n : Py α) (k k' : Frame ℝ → Py α)
    (hk : ∀ f g, SameCols knownColumns f g → k f = k' g) :
    (match (w.stations i).daily with | none => n | some f => k f) = (match (v.stations i).daily with | none => n | some f => k' f) := by
  have hd := h.daily i
  cases hw : (w.stations i).daily <;> cases hv : (v.stations i).daily <;> rw [hw, hv] at hd <;> first | rfl | exact hd.elim | exact hk _ _ hd

theorem temperatureReads_known (m : String) : ∀ c ∈ temperatureReads m, c ∈ knownColumns := by
  intro c hc
  unfold temperatureReads at hc
  split_ifs at hc <;> simp [knownColumns] at hc ⊢ <;> tauto

theorem humidityReads_known (m : String) (p : Bool) : ∀ c ∈ humidityReads m p, c ∈ knownColumns := by
  intro c hc
  unfold humidityReads at hc
  split_ifs at hc <;> simp [knownColumns] at hc ⊢ <;> tauto

theorem radiationReads_known (m : String) : ∀ c ∈ radiationReads m, c ∈ knownColumns := by
  intro c hc
  unfold radiationReads at hc
  split_ifs at hc <;> simp [knownColumns] at hc ⊢ <;> tauto

theorem Spec.SameWorld.precipSeries {w v : World} (h : SameWorld w v) (api : PandasApi) (i : Nat) (rnd : Nat → Nat → ℝ) (method zerodiv : String)
    (shift : Int) (master : Option (Series (XF ℝ))) :
    w.precipSeries api i rnd method zerodiv shift master = v.precipSeries api i rnd method zerodiv shift master := by
  unfold World.precipSeries
  by_cases hm : method = "equal"
  · rw [if_pos hm, if_pos hm]
    exact h.useDaily i _ _ _ fun f g hfg => C158_precipitation api _ f g _ _ _ _ _ (hfg.mono (by simp [knownColumns]))
  · rw [if_neg hm, if_neg hm, (h.fields i).2.2.2.2.1, h.statOf i, h.frames, h.dailyAttr i (by simp [knownColumns])]

theorem Spec.SameWorld.radiationBody {w v : World} (h : SameWorld w v) (api : PandasApi) (i : Nat) (method : String) (pot : Option (Series (XF ℝ))) :
    SameOut (w.radiationBody api i method pot) (v.radiationBody api i method pot) := by
  unfold World.radiationBody
  apply h.writeCol
  have hp : w.potRadArg i method pot = v.potRadArg i method pot := by
    unfold World.potRadArg
    have hf := h.fields i
    rw [hf.1, hf.2.1, hf.2.2.1, hf.2.2.2.2.1, h.frames]
  rw [hp, h.statOf i]
  congr 1; funext pot
  exact h.useDaily i _ _ _ fun f g hfg => by
    rw [(h.fields i).2.2.2.2.2, C158_radiation api f g _ _ _ _ _ _ (hfg.mono (radiationReads_known method))]

theorem Spec.SameWorld.step {w v : World} (h : SameWorld w v) (api : PandasApi) {op op' : Op} (ho : SameOp op op') :
    SameOut (w.step api op) (v.step api op') := by
  have argRefl : ∀ a : DailyArg, SameArg a a := fun a => by
    cases a with
    | frame f d q => exact .frame f f d q (Spec.SameCols.refl _ _)
    | other => exact .other
  cases ho with
  | setDaily i a b hab => exact h.setDaily api i hab
  | newStation lon lat tz a b hab => exact h.newStation api lon lat tz (.inr ⟨a, b, rfl, rfl, hab⟩)
  | same =>
    cases op with
    | newStation lon lat tz d =>
      cases d with
      | none => exact h.newStation api lon lat tz (.inl ⟨rfl, rfl⟩)
      | some d => exact h.newStation api lon lat tz (.inr ⟨d, d, rfl, rfl, argRefl d⟩)
    | newStatistics lon lat tz => exact ⟨rfl, (h.newStatistics lon lat tz).1⟩
    | copyStation i => exact ⟨rfl, h.addStation _ _ (h.rest i) (h.daily i)⟩
    | setLon i x => exact ⟨rfl, h.setLon i x⟩
    | setLat i x => exact ⟨rfl, h.setLat i x⟩
    | setTz i x => exact ⟨rfl, h.setTz i x⟩
    | setStatistics i o => exact h.setStatistics i o
    | setDaily i a => exact h.setDaily api i (argRefl a)
    | calcSunTimes i => exact h.calcSunTimes i
    | wind i draw method =>
      exact h.writeCol i "wind" (by rw [h.dailyAttr i (by simp [knownColumns]), h.statOf i])
    | humidity i method preserve =>
      refine h.writeCol i "hum" ?_
      rw [h.disaggAttr i, h.statOf i]
      congr 1; funext temp
      exact h.useDaily i _ _ _ fun f g hfg => by
        rw [C158_humidity api f g method (some temp) _ _ _ _ preserve (hfg.mono (humidityReads_known method preserve))]
    | temperature i method mm modNight =>
      refine h.writeCol i "temp" ?_
      rw [h.statOf i, (h.fields i).2.2.2.2.2]
      exact h.useDaily i _ _ _ fun f g hfg => by
        dsimp only
        rw [C158_temperature api f g method mm modNight _ _ _ (hfg.mono (temperatureReads_known method))]
    | precipitation i rnd method zerodiv shift master =>
      exact h.writeCol i "precip" (by rw [h.precipSeries])
    | radiation i method pot =>
      show SameOut (w.radiation api i method pot) (v.radiation api i method pot)
      unfold World.radiation
      rw [(h.fields i).2.2.2.2.2]
      by_cases hs : (v.stations i).sun.isNone
      · rw [if_pos hs, if_pos hs]
        have hc := h.calcSunTimes i
        revert hc
        rcases w.calcSunTimes i with ⟨w1, e1⟩
        rcases v.calcSunTimes i with ⟨v1, e2⟩
        rintro ⟨he, hw⟩
        cases he
        cases e1 with
        | none => exact hw.radiationBody api i method pot
        | some e => exact ⟨rfl, hw⟩
      · rw [if_neg hs, if_neg hs]
        exact h.radiationBody api i method pot
    | setParams o wi pr hu te gl => exact ⟨rfl, h.setStat o _ _ (by rw [h.stats])⟩

/-- C158: programs that differ only in columns of the daily data the package does not know raise the same exceptions at the same statements and leave the
same hourly results, statistics, coordinates and sun times. -/
theorem C158_programs (api : PandasApi) (l l' : List Op) (hl : List.Forall₂ SameOp l l') (w v : World) (h : SameWorld w v) :
    exceptions api w l = exceptions api v l' ∧ SameWorld (w.run api l) (v.run api l') := by
  induction hl generalizing w v with
  | nil => exact ⟨rfl, h⟩
  | cons ho _ ih =>
    have hs := h.step api ho
    have hr := ih _ _ hs.2
    exact ⟨by rw [exceptions, exceptions, hs.1, hr.1], hr.2⟩

/-- Adding a column nobody reads, with any content, to the frame a program starts with. -/
theorem C158_extra_column (api : PandasApi) (name : String) (hn : name ∉ knownColumns) (vals : List (XF ℝ)) (f : Frame ℝ) (datetime hasFreq : Bool)
    (i : Nat) (l : List Op) (w : World) :
    exceptions api w (.setDaily i (.frame f datetime hasFreq) :: l) =
        exceptions api w (.setDaily i (.frame { f with cols := (name, vals) :: f.cols } datetime hasFreq) :: l) ∧
      (w.run api (.setDaily i (.frame f datetime hasFreq) :: l)).frames =
        (w.run api (.setDaily i (.frame { f with cols := (name, vals) :: f.cols } datetime hasFreq) :: l)).frames := by
  have ha : SameCols knownColumns f { f with cols := (name, vals) :: f.cols } := by
    refine ⟨rfl, fun c hc => ?_⟩
    have hne : (name == c) = false := by
      rw [beq_eq_false_iff_ne]
      rintro rfl
      exact hn hc
    unfold Frame.col?
    simp only [List.find?_cons, hne]
  have hp := C158_programs api (.setDaily i (.frame f datetime hasFreq) :: l)
    (.setDaily i (.frame { f with cols := (name, vals) :: f.cols } datetime hasFreq) :: l)
    (.cons (.setDaily i _ _ (.frame _ _ _ _ ha)) (List.forall₂_same.mpr fun op _ => .same op)) w w (Spec.SameWorld.refl w)
  exact ⟨hp.1, hp.2.frames⟩

/-! ## Examples -/

/-- two frames with different columns in a different order that agree on what 'min_max' reads -/
example : SameCols (humidityReads "min_max" false)
    ⟨[0], [("hum_min", [.fin 40]), ("hum_max", [.fin 90]), ("tmin", [.fin 273]), ("tmax", [.fin 283]), ("hum", [.fin 5])]⟩
    ⟨[0], [("tmax", [.fin 283]), ("tmin", [.fin 273]), ("snow", [.nan]), ("hum_max", [.fin 90]), ("hum_min", [.fin 40])]⟩ := by
  refine ⟨rfl, fun c hc => ?_⟩
  simp [humidityReads] at hc
  rcases hc with rfl | rfl | rfl | rfl <;> rfl

/-- the column that is read matters: 'equal' gives different hours for different "hum" -/
example : ∃ f g : Frame ℝ, f.index = g.index ∧ (∀ c, c ≠ "hum" → f.col? c = g.col? c) ∧
    disaggregateHumidity .modern f "equal" ≠ disaggregateHumidity .modern g "equal" := by
  have key : ∀ x : ℝ, 0 ≤ x → x ≤ 100 → disaggregateHumidity .modern ⟨[at00 0], [("hum", [.fin x])]⟩ "equal" = .ok (hourlyS 0 1 fun _ _ => .fin x) :=
    fun x h0 h1 => C37_equal_unchanged .modern _ none none none none none 0 1 (by norm_num) (fun _ => .fin x) rfl (fun _ _ => .inr ⟨x, rfl, h0, h1⟩) false
  refine ⟨⟨[at00 0], [("hum", [.fin 40])]⟩, ⟨[at00 0], [("hum", [.fin 50])]⟩, rfl, fun c hc => ?_, ?_⟩
  · have : ("hum" == c) = false := by simpa using hc.symm
    simp [Frame.col?, List.find?_cons, this]
  · rw [key 40 (by norm_num) (by norm_num), key 50 (by norm_num) (by norm_num)]
    intro h
    have h1 := congrArg (fun o : Py (Series (XF ℝ)) => match o with | .ok l => l.head?.map Prod.snd | .error _ => none) h
    have h2 : some (XF.fin (40 : ℝ)) = some (.fin 50) := h1
    simp only [Option.some.injEq, XF.fin.injEq] at h2
    norm_num at h2

/-- a column name nobody reads -/
example : "snow_depth" ∉ knownColumns := by simp [knownColumns]

end Melodist
