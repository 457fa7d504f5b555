import Verif.Props.StationWiring
import Verif.Props.PotRadiation
import Verif.Props.Cascade

/-!
# C85: results of a station, end to end
-/

set_option linter.unusedSectionVars false

namespace Melodist
open Spec

namespace World

variable {api : PandasApi} {w : World} {i : Nat} {f : Frame ℝ} {k : Nat} {d0 : Int} {n : Nat}

/-! ## All programs: humidity and radiation in their physical range -/

/-- every cell of column `name` of every frame satisfies `P` -/
def ColumnOk (name : String) (P : XF ℝ → Prop) (w : World) : Prop := ∀ k s, (w.frames k).col? name = some s → ∀ r ∈ s, P r.2

theorem columnValues_cells {idx : List Time} {s : Series (XF ℝ)} {v : List (XF ℝ)} (h : columnValues idx (.series s) = .ok v) {x : XF ℝ} (hx : x ∈ v) :
    x = .nan ∨ ∃ r ∈ s, r.2 = x := by
  unfold columnValues at h
  dsimp only at h
  by_cases h1 : s.index = idx
  · rw [if_pos h1] at h
    cases h
    obtain ⟨r, hr, e⟩ := List.mem_map.1 hx
    exact .inr ⟨r, hr, e⟩
  · rw [if_neg h1] at h
    by_cases h2 : s.index.Nodup
    · rw [if_pos h2] at h
      cases h
      obtain ⟨t, _, rfl⟩ := List.mem_map.1 hx
      cases ha : s.at? t with
      | none => exact .inl rfl
      | some y => exact .inr ⟨_, at?_some_mem ha, rfl⟩
    · rw [if_neg h2] at h; cases h

theorem replaceCol_cells {g : Frame ℝ} {name : String} {v : List (XF ℝ)} {s : Series (XF ℝ)} (h : (replaceCol g name v).col? name = some s)
    {r : Time × XF ℝ} (hr : r ∈ s) : r.2 ∈ v := by
  by_cases hh : g.has name = true
  · rw [replaceCol_col?_eq _ _ hh] at h
    cases h
    exact (List.of_mem_zip hr).2
  · exfalso
    have hs : (replaceCol g name v).has name = true := by
      unfold Frame.col? at h
      unfold Frame.has
      obtain ⟨c, hc, _⟩ := Option.map_eq_some_iff.1 h
      rw [List.any_eq_true]
      exact ⟨c, List.mem_of_find?_eq_some hc, by simpa using List.find?_some hc⟩
    have e : (replaceCol g name v).has name = g.has name := by
      unfold Frame.has
      have := replaceCol_names g name v
      have h1 : ∀ l : List (String × List (XF ℝ)), (l.any fun c => c.1 == name) = (l.map Prod.fst).any (· == name) := by
        intro l; rw [List.any_map]; rfl
      rw [h1, h1, this]
    exact hh (e ▸ hs)

/-- writing a column with good cells keeps all columns of that name good -/
theorem writeCol_columnOk {name c : String} {P : XF ℝ → Prop} (hnan : P .nan) (h : ColumnOk c P w) (v : Py WindResult)
    (hv : c = name → ∀ r, v = .ok r → ∃ s, r = .series s ∧ ∀ q ∈ s, P q.2) : ColumnOk c P (w.writeCol i name v).1 := by
  rcases writeCol_inv w i name v with ⟨e, hw⟩ | ⟨k0, r, vals, hk, hr, hc, hw⟩ <;> rw [hw]
  · exact h
  · intro k s hs q hq
    rw [setFrame_frames] at hs
    by_cases hkk : k = k0
    · subst hkk
      rw [Function.update_self] at hs
      by_cases hn : c = name
      · subst hn
        obtain ⟨s', rfl, hP⟩ := hv rfl r hr
        have hq' := replaceCol_cells hs hq
        rcases columnValues_cells hc hq' with e | ⟨r', hr', e⟩
        · rw [e]; exact hnan
        · rw [← e]; exact hP _ hr'
      · rw [replaceCol_col?_ne _ _ hn] at hs
        exact h k s hs q hq
    · rw [Function.update_of_ne hkk] at hs
      exact h k s hs q hq

theorem emptyDisagg_cells {idx : List Time} {c : String} {s : Series (XF ℝ)} (h : (emptyDisagg idx).col? c = some s) {r : Time × XF ℝ} (hr : r ∈ s) :
    r.2 = .nan := by
  unfold emptyDisagg Frame.col? at h
  obtain ⟨x, hx, rfl⟩ := Option.map_eq_some_iff.1 h
  have hm := List.mem_of_find?_eq_some hx
  obtain ⟨y, _, rfl⟩ := List.mem_map.1 hm
  have := (List.of_mem_zip hr).2
  obtain ⟨t, _, e⟩ := List.mem_map.1 this
  exact e.symm

theorem calcSunTimes_frames (w : World) (i : Nat) : (w.calcSunTimes i).1.frames = w.frames := by
  rcases calcSunTimes_inv w i with ⟨e, hc⟩ | ⟨_, _, _, _, _, _, _, _, hc⟩ <;> rw [hc]
  rfl

theorem setDaily_columnOk {c : String} {P : XF ℝ → Prop} (hnan : P .nan) (h : ColumnOk c P w) (arg : DailyArg) :
    ColumnOk c P (w.setDaily api i arg).1 := by
  have hst : ∀ (w : World) g idx, ColumnOk c P w → ColumnOk c P (w.stored i g idx) := by
    intro w g idx h k s hs r hr
    unfold stored at hs
    dsimp only at hs
    by_cases hk : k = w.nFrames
    · subst hk
      rw [Function.update_self] at hs
      rw [emptyDisagg_cells hs hr]; exact hnan
    · rw [Function.update_of_ne hk] at hs
      exact h k s hs r hr
  rcases setDaily_inv api w i arg with ⟨e, _, hs⟩ | ⟨e, g, _, _, hs⟩ | ⟨g, idx, _, _, hs⟩ <;> rw [hs]
  · exact h
  · exact h
  · split
    · intro k s hs r hr
      rw [calcSunTimes_frames] at hs
      exact hst w g idx h k s hs r hr
    · exact hst w g idx h

/-- one statement keeps a column good if the results stored in it are good -/
theorem step_columnOk {c : String} {P : XF ℝ → Prop} (hnan : P .nan) (hw1 : c ≠ "wind") (hw2 : c ≠ "temp") (hw3 : c ≠ "precip")
    (hhum : c = "hum" → ∀ (w : World) (i : Nat) f method temp (st : HumStats) preserve out,
      (w.stations i).daily = some f → disaggregateHumidity api f method temp st.a0 st.a1 st.kr st.table preserve = .ok out → ∀ q ∈ out, P q.2)
    (hrad : c = "glob" → ∀ f sun pot method a b course out, disaggregateRadiation api f sun pot method a b course = .ok out → ∀ q ∈ out, P q.2)
    (op : Op) (h : ColumnOk c P w) : ColumnOk c P (w.step api op).1 := by
  have hradBody : ∀ (w : World) (i : Nat) method pot, ColumnOk c P w → ColumnOk c P (w.radiationBody api i method pot).1 := by
    intro w i method pot h
    refine writeCol_columnOk hnan h _ fun hc r hr => ?_
    obtain ⟨p, _, hr⟩ := py_bind_inv hr
    dsimp only at hr
    cases hf : (w.stations i).daily with
    | none => rw [hf] at hr; cases hr
    | some g =>
      rw [hf] at hr
      obtain ⟨out, ho, hr⟩ := py_bind_inv hr
      exact ⟨out, (Except.ok.inj hr).symm, hrad hc _ _ _ _ _ _ _ _ ho⟩
  cases op with
  | newStation lon lat tz d =>
    obtain ⟨v, _, _, _, _, hfr, _, _, _, e⟩ := newStation_eq api w lon lat tz d
    show ColumnOk c P (w.newStation api lon lat tz d).1
    rw [e]
    have hv : ColumnOk c P v := by
      intro k s hs r hr; rw [hfr] at hs; exact h k s hs r hr
    cases d with
    | none => exact hv
    | some d => exact setDaily_columnOk hnan hv d
  | newStatistics lon lat tz => exact h
  | copyStation j => exact h
  | setLon j x => exact h
  | setLat j x => exact h
  | setTz j x => exact h
  | setStatistics j o => cases o <;> exact h
  | setDaily j d => exact setDaily_columnOk hnan h d
  | calcSunTimes j =>
    intro k s hs r hr
    have hs' : ((w.calcSunTimes j).1.frames k).col? c = some s := hs
    rw [calcSunTimes_frames] at hs'
    exact h k s hs' r hr
  | wind j draw m => exact writeCol_columnOk hnan h _ fun hc => absurd hc hw1
  | humidity j m p =>
    refine writeCol_columnOk hnan h _ fun hc r hr => ?_
    obtain ⟨temp, _, hr⟩ := py_bind_inv hr
    dsimp only at hr
    cases hf : (w.stations j).daily with
    | none => rw [hf] at hr; cases hr
    | some g =>
      rw [hf] at hr
      obtain ⟨out, ho, hr⟩ := py_bind_inv hr
      exact ⟨out, (Except.ok.inj hr).symm, hhum hc w j _ _ _ _ _ _ hf ho⟩
  | temperature j m mm md => exact writeCol_columnOk hnan h _ fun hc => absurd hc hw2
  | precipitation j rnd m z s ms => exact writeCol_columnOk hnan h _ fun hc => absurd hc hw3
  | radiation j m pot =>
    show ColumnOk c P (w.radiation api j m pot).1
    unfold radiation
    by_cases hs : (w.stations j).sun.isNone = true
    · rw [if_pos hs]
      rcases calcSunTimes_inv w j with ⟨e, hc⟩ | ⟨_, _, _, _, _, _, _, _, hc⟩
      · rw [hc]; exact h
      · rw [hc]
        exact hradBody _ j m pot (fun k s hs r hr => h k s hs r hr)
    · rw [if_neg hs]; exact hradBody w j m pot h
  | setParams o a b c d e => exact h

theorem run_columnOk {c : String} {P : XF ℝ → Prop} (hnan : P .nan) (hw1 : c ≠ "wind") (hw2 : c ≠ "temp") (hw3 : c ≠ "precip")
    (hhum : c = "hum" → ∀ (w : World) (i : Nat) f method temp (st : HumStats) preserve out,
      (w.stations i).daily = some f → disaggregateHumidity api f method temp st.a0 st.a1 st.kr st.table preserve = .ok out → ∀ q ∈ out, P q.2)
    (hrad : c = "glob" → ∀ f sun pot method a b course out, disaggregateRadiation api f sun pot method a b course = .ok out → ∀ q ∈ out, P q.2)
    (ops : List Op) : ColumnOk c P (World.run api {} ops) := by
  induction ops using List.reverseRecOn with
  | nil =>
    intro k s hs
    cases hs
  | append_singleton l op ih =>
    rw [run_snoc]
    exact step_columnOk hnan hw1 hw2 hw3 hhum hrad op ih

/-- C85.  Whatever a program does with stations and statistics objects — any data, any parameters, any methods and options, also after exceptions — at every
moment every hourly relative humidity found in a station's results is missing or within [0, 100] ... -/
theorem C85_humidity_always_in_range (ops : List Op) (k : Nat) (s : Series (XF ℝ)) (h : ((World.run api {} ops).frames k).col? "hum" = some s) :
    ∀ r ∈ s, r.2 = .nan ∨ ∃ x, r.2 = .fin x ∧ 0 ≤ x ∧ x ≤ 100 := by
  refine run_columnOk (P := fun c => c = .nan ∨ ∃ x, c = .fin x ∧ 0 ≤ x ∧ x ≤ 100) (.inl rfl) (by decide) (by decide) (by decide) ?_ ?_ ops k s h
  · intro _ _ _ f method temp st preserve out _ ho
    exact C36_humidity_range api f method temp st.a0 st.a1 st.kr st.table preserve out ho
  · intro e; exact absurd e (by decide)

/-- ... and every hourly radiation is missing, 0, or at least 0.01 (never negative). -/
theorem C85_radiation_never_negative (ops : List Op) (k : Nat) (s : Series (XF ℝ)) (h : ((World.run api {} ops).frames k).col? "glob" = some s) :
    ∀ r ∈ s, r.2 = .nan ∨ r.2 = .fin 0 ∨ (∃ x, 0.01 ≤ x ∧ r.2 = .fin x) ∨ r.2 = .pinf := by
  refine run_columnOk (P := fun c => c = .nan ∨ c = .fin 0 ∨ (∃ x, 0.01 ≤ x ∧ c = .fin x) ∨ c = .pinf) (.inl rfl) (by decide) (by decide) (by decide)
    ?_ ?_ ops k s h
  · intro e; exact absurd e (by decide)
  · intro _ f sun pot method a b course out ho
    exact C54_zero_or_at_least api f sun pot method a b course out ho

/-! ## Single variables -/

/-- C85 (wind).  Cosine wind on a ready station whose statistics have a, b and t_shift: the call succeeds, and the column has on every day with daily mean `m` 24
values of mean b·m. -/
theorem C85_wind_cosine (R : Ready w i f k d0 n) (hn : 0 < n) {v : Nat → XF ℝ} (hd : f.col? "wind" = some (dailyS d0 n v)) (draw : Nat → ℝ) {a b t : ℝ}
    (ha : (w.stats (w.stations i).stat).wind.a = some a) (hb : (w.stats (w.stations i).stat).wind.b = some b)
    (ht : (w.stats (w.stations i).stat).wind.tShift = some t) :
    (w.wind api i draw "cosine").2 = none ∧ ∃ s, ((w.wind api i draw "cosine").1.frames k).col? "wind" = some s ∧
      ∀ j < n, (∀ m, v j = .fin m → MeanIs (dayCells s (d0 + j)) (b * m)) ∧ (v j = .nan → AllNan (dayCells s (d0 + j))) := by
  obtain ⟨l, h1, h2, h3⟩ := C33_wind_cosine_mean api draw d0 n hn v a b t
  have hl := wind_cosine api draw d0 n hn v a b t
  rw [hl] at h1
  obtain rfl : _ = l := by simpa using h1
  obtain ⟨_, _, h4⟩ := C84_wind (api := api) R hd draw "cosine" rfl
  rw [ha, hb, ht] at h4
  obtain ⟨h5, h6⟩ := h4 _ hl h2
  refine ⟨h5, _, h6, fun j hj => ?_⟩
  have e : dayCells ((hoursOf d0 n).zip (Series.values (hourlyS d0 n fun i h => cosineCell a b t (v i) (h : Int)))) (d0 + j) =
      arrayDay (Series.values (hourlyS d0 n fun i h => cosineCell a b t (v i) (h : Int))) j := by
    rw [← hoursOf_eq d0 n (fun i h => cosineCell a b t (v i) (h : Int)), index_zip_values, dayCells_hourlyS d0 _ hj]
    unfold arrayDay
    rw [values_day d0 _ hj]
  rw [e]
  exact h3 j hj

/-- C85 (precipitation).  Equal distribution on a ready station: the call succeeds, every day has its total, in 24 equal values; missing days stay missing. -/
theorem C85_precipitation_equal (R : Ready w i f k d0 n) (hn : 0 < n) {v : Nat → XF ℝ} (hd : f.col? "precip" = some (dailyS d0 n v)) (rnd : Nat → Nat → ℝ)
    (zerodiv : String) (shift : Int) (master : Option (Series (XF ℝ))) :
    (w.precipitation api i rnd "equal" zerodiv shift master).2 = none ∧
    ∃ s, ((w.precipitation api i rnd "equal" zerodiv shift master).1.frames k).col? "precip" = some s ∧
      ∀ j < n, (∀ x, v j = .fin x → dayCells s (d0 + j) = List.replicate 24 (.fin (x / 24)) ∧ TotalIs (dayCells s (d0 + j)) x) ∧
        (v j = .nan → dayCells s (d0 + j) = List.replicate 24 .nan) := by
  obtain ⟨s, h1, h2, h3⟩ := C15_equal api (rnd 0) f d0 n hn v hd none none "uniform" 0
  obtain ⟨h4, h5⟩ := (C84_precipitation (api := api) R rnd zerodiv shift master).1.exact h1 h2
  exact ⟨h4, s, h5, fun j hj => ⟨fun x hx => ⟨((h3 j hj).1 x hx).1, ((h3 j hj).1 x hx).2.1⟩, (h3 j hj).2⟩⟩

/-- C85 (temperature).  A mean course of the statistics that covers the days: 'mean_course_min_max' succeeds, and on every day in whose month the course is
normalised (as fitted by `calc_temperature_stats`) the extremes of the column are tmin and tmax of the day. -/
theorem C85_temperature_course (R : Ready w i f k d0 n) (hn : 0 < n) {tmin tmax : Nat → XF ℝ} (h1 : f.col? "tmin" = some (dailyS d0 n tmin))
    (h2 : f.col? "tmax" = some (dailyS d0 n tmax)) {c : MeanCourse ℝ} (hc : (w.stats (w.stations i).stat).temp.course = some c) (hcov : Covers c d0 n)
    (mmt : String) (modNight : Bool) :
    (w.temperature api i "mean_course_min_max" mmt modNight).2 = none ∧
    ∃ s, ((w.temperature api i "mean_course_min_max" mmt modNight).1.frames k).col? "temp" = some s ∧
      ∀ j < n, ∀ a b : ℝ, tmin j = .fin a → tmax j = .fin b → a ≤ b → Normalized c (monthOf (at00 (d0 + j))) →
        MinIs (dayCells s (d0 + j)) a ∧ MaxIs (dayCells s (d0 + j)) b := by
  obtain ⟨s, e1, e2, e3⟩ := C48_mean_course_min_max api R.days hn h1 h2 mmt modNight (w.stats (w.stations i).stat).temp.maxDelta (w.stations i).sun c hcov
  have hst := C84_temperature (api := api) R "mean_course_min_max" mmt modNight rfl
  rw [hc] at hst
  obtain ⟨h4, h5⟩ := hst.exact e1 (by rw [e2, hoursOf_eq])
  exact ⟨h4, s, h5, e3⟩

/-- C85 (radiation).  Method 'pot_rad' on a ready station with coordinates and time zone: the call succeeds with the potential radiation the station computes
itself; on every day with daily radiation g ≥ 0 on which the sun is above the horizon at some full hour (and in the zenith at none), the
column is 0 in every hour without sun, and its mean lies in (g - 0.01, g]. -/
theorem C85_radiation_pot_rad (R : Ready w i f k d0 n) (hn : 0 < n) {v : Nat → XF ℝ} (hg : f.col? "glob" = some (dailyS d0 n v)) {lon lat tz : ℝ}
    (h1 : (w.stations i).lon = some lon) (h2 : (w.stations i).lat = some lat) (h3 : (w.stations i).tz = some tz) :
    (w.radiation api i "pot_rad" none).2 = none ∧ ∃ s, ((w.radiation api i "pot_rad" none).1.frames k).col? "glob" = some s ∧
      ∀ j < n, ∀ g : ℝ, v j = .fin g → 0 ≤ g → (∃ h < 24, 0 < sinHeight lon lat tz (atHour (d0 + (j : Nat)) h)) →
        (∀ h < 24, sinHeight lon lat tz (atHour (d0 + (j : Nat)) h) ≠ 1) →
        (∀ h < 24, sinHeight lon lat tz (atHour (d0 + (j : Nat)) h) ≤ 0 → (dayCells s (d0 + j))[h]? = some (.fin 0)) ∧
        ∃ x, MeanIs (dayCells s (d0 + j)) x ∧ g - 0.01 < x ∧ x ≤ g := by
  have hpot : ∀ out sun, disaggregateRadiation api f (some sun) (some (potentialRadiation (hoursOf d0 n) lon lat tz)) "pot_rad"
      (.monthly (w.stats (w.stations i).stat).glob.angA (w.stats (w.stations i).stat).glob.angB)
      (.monthly (w.stats (w.stations i).stat).glob.bcA (w.stats (w.stations i).stat).glob.bcC) (w.stats (w.stations i).stat).glob.course = .ok out →
      out.index = hoursOf d0 n := by
    intro out sun ho
    rw [C81_output_index api f (some sun) _ "pot_rad" _ _ _ out (.inl rfl) ho]
    exact (C60_horizontal (hoursOf d0 n) lon lat tz 0 0 (le_refl _) (by norm_num)).1
  obtain ⟨ha, hb⟩ := C84_radiation (api := api) R "pot_rad" none h1 h2 h3 rfl
  have hu : usedPotential none "pot_rad" (hoursOf d0 n) lon lat tz = some (potentialRadiation (hoursOf d0 n) lon lat tz) := by
    unfold usedPotential; simp
  rw [hu] at ha hb
  cases hsun : (w.stations i).sun with
  | some sun =>
    obtain ⟨out, ho, hout⟩ := C56_with_sun api R.days hn v hg (some sun)
      (.monthly (w.stats (w.stations i).stat).glob.angA (w.stats (w.stations i).stat).glob.angB)
      (.monthly (w.stats (w.stations i).stat).glob.bcA (w.stats (w.stations i).stat).glob.bcC) (w.stats (w.stations i).stat).glob.course lon lat tz 0 0
      (le_refl _) (by norm_num)
    rw [hoursOf_eq] at ho
    obtain ⟨h4, h5⟩ := (ha sun hsun).exact ho (hpot out sun ho)
    exact ⟨h4, out, h5, hout⟩
  | none =>
    obtain ⟨out, ho, hout⟩ := C56_with_sun api R.days hn v hg (some (getSunTimes f.index lon lat tz))
      (.monthly (w.stats (w.stations i).stat).glob.angA (w.stats (w.stations i).stat).glob.angB)
      (.monthly (w.stats (w.stations i).stat).glob.bcA (w.stats (w.stations i).stat).glob.bcC) (w.stats (w.stations i).stat).glob.course lon lat tz 0 0
      (le_refl _) (by norm_num)
    rw [hoursOf_eq] at ho
    obtain ⟨h4, h5⟩ := (hb hsun).1.exact ho (hpot out _ ho)
    exact ⟨h4, out, h5, hout⟩

/-! ## Examples -/

/-- two days of daily data -/
noncomputable def twoDays : Frame ℝ := ⟨daysFromTo 0 1, [("precip", [.fin 12, .nan]), ("wind", [.fin 2, .fin 3]), ("hum", [.fin 70, .fin 80])]⟩

theorem twoDays_accepted : checkDaily (.frame twoDays true true) = .ok twoDays := by
  have h1 : dayResolution twoDays.index = true := by decide
  have h2 : twoDays.index.Pairwise (· ≤ ·) := by decide
  have h3 : plausibleTemps twoDays := by
    intro name hname s hs
    exfalso
    have : twoDays.col? name = none := by
      simp only [List.mem_cons, List.not_mem_nil, or_false] at hname
      rcases hname with rfl | rfl | rfl <;> rfl
    rw [this] at hs
    cases hs
  unfold checkDaily
  dsimp only
  rw [if_neg (by simp), if_neg (by rw [h1]; simp), if_neg (not_not.2 h2)]
  show (open Classical in if plausibleTemps twoDays then (.ok twoDays : Py (Frame ℝ)) else .error .assertionError) = _
  exact if_pos h3

/-- a program: a station is created, given two days of data, and disaggregated -/
theorem twoDaysReady : Ready (({} : World).setDaily .modern 0 (.frame twoDays true true)).1 0 twoDays 0 0 2 :=
  C84_ready_after_assignment (api := .modern) {} 0 (by omega) twoDays_accepted rfl

/-- the 12 mm of the first day end up as 0.5 mm in each of its hours, the second day stays missing -/
example : ∃ s, (((({} : World).setDaily .modern 0 (.frame twoDays true true)).1.precipitation .modern 0 (fun _ _ => 0) "equal" "uniform" 0 none).1.frames 0).col?
    "precip" = some s ∧ dayCells s 0 = List.replicate 24 (.fin (1 / 2)) ∧ dayCells s 1 = List.replicate 24 .nan := by
  obtain ⟨_, s, h1, h2⟩ := C85_precipitation_equal (api := .modern) twoDaysReady (by omega) (v := fun j => if j = 0 then .fin 12 else .nan) rfl
    (fun _ _ => 0) "uniform" 0 none
  refine ⟨s, h1, ?_, ?_⟩
  · have := ((h2 0 (by omega)).1 12 rfl).1
    norm_num at this
    simpa using this
  · exact (h2 1 (by omega)).2 rfl

/-- equal humidity of a program: the values in the results are the daily means, hence within the range of C85 -/
example : ∃ s, ((World.run .modern {} [.setDaily 0 (.frame twoDays true true), .humidity 0 "equal" false]).frames 0).col? "hum" = some s ∧
    s.length = 48 ∧ (∀ r ∈ s, r.2 = .fin 70 ∨ r.2 = .fin 80) := by
  have hst := C84_humidity (api := .modern) (temp := (hoursOf 0 2).map fun t => (t, .nan)) twoDaysReady (by
    have := (setDaily_contiguous .modern ({} : World) 0 (by omega : (0 : Int) ≤ 1) twoDays_accepted rfl).2.1
    have h0 := (twoDaysReady).hours
    obtain ⟨idx, hidx, _⟩ := days_hourlyIndex .modern (by omega : (0 : Int) ≤ 1)
    have hs : ({} : World).setDaily .modern 0 (.frame twoDays true true) = (({} : World).stored 0 twoDays idx, none) := by
      rcases setDaily_inv .modern {} 0 (.frame twoDays true true) with ⟨e, he, _⟩ | ⟨e, g, he, hh, _⟩ | ⟨g, idx', he, hh, hs⟩
      · rw [twoDays_accepted] at he; cases he
      · rw [twoDays_accepted] at he; cases he
        have : hourlyIndex .modern (daysFromTo 0 1) = .error e := hh
        rw [hidx] at this; cases this
      · rw [twoDays_accepted] at he; cases he
        have : hourlyIndex .modern (daysFromTo 0 1) = .ok idx' := hh
        rw [hidx] at this; cases this
        exact hs
    rw [hs] at h0 ⊢
    have e : ((({} : World).stored 0 twoDays idx).frames 0) = emptyDisagg idx := rfl
    rw [e] at h0 ⊢
    have h0' : idx = hoursOf 0 2 := h0
    rw [h0']
    show some ((hoursOf 0 2).zip ((hoursOf 0 2).map fun _ => XF.nan)) = _
    rw [zip_map_self]) "equal" false rfl
  have heq : disaggregateHumidity .modern twoDays "equal" (some ((hoursOf 0 2).map fun t => (t, .nan))) none none none none false =
      .ok (hourlyS 0 2 fun j _ => if j = 0 then (.fin 70 : XF ℝ) else .fin 80) := by
    have hraw : humidityRaw .modern twoDays "equal" (some ((hoursOf 0 2).map fun t => (t, .nan))) none none none none =
        .ok (hourlyS 0 2 fun j _ => if j = 0 then (.fin 70 : XF ℝ) else .fin 80) := by
      have hcol : twoDays.col? "hum" = some (dailyS 0 2 fun j => if j = 0 then (.fin 70 : XF ℝ) else .fin 80) := rfl
      unfold humidityRaw
      simp only [true_or, not_true, if_false, if_true]
      rw [attr_ok hcol]
      exact distributeEqually_daily .modern 0 (n := 2) (by omega) _
    rw [(hum_finish hraw).1]
    congr 1
    apply hourlyS_congr
    intro j hj h hh
    by_cases h0 : j = 0
    · simp only [h0, if_true]; norm_num [XF.clip]
    · simp only [h0, if_false]; norm_num [XF.clip]
  obtain ⟨h1, h2⟩ := hst.exact heq (hoursOf_eq _ _ _)
  refine ⟨_, h2, by simp, ?_⟩
  intro r hr
  obtain ⟨j, _, rfl⟩ := List.mem_map.1 hr
  dsimp only
  by_cases h0 : j / 24 = 0
  · simp [h0]
  · simp [h0]

end World

end Melodist
