import Verif.Props.OtherColumns
import Verif.Props.StatisticsState

/-!
# C159: columns the statistics do not read have no effect

The fitted statistics and the daily values of an hourly record depend only on the columns that are named in the documentation; other columns of the
observations and the order of the columns play no role.
-/

set_option linter.unusedSectionVars false

namespace Melodist

namespace Spec

/-- the hourly columns each statistics method reads -/
def statisticsReads : StatsObj.Call → List String
  | .data _ => []
  | .precipitation _ _ _ => ["precip"]
  | .wind _ => ["wind"]
  | .humidity => ["temp", "hum", "precip"]
  | .temperature => ["temp"]
  | .radiation _ _ _ _ _ _ => ["glob"]

/-- the hourly columns the package knows in `StationStatistics.data` -/
def knownHourly : List String := ["temp", "precip", "glob", "hum", "wind"]

/-- the hourly columns read by `daily_from_hourly` -/
def aggregateReads : List String := ["temp", "precip", "glob", "hum", "wind", "ssd"]

/-- hourly data of two objects: both absent, or the same in the named columns -/
def SameData (cols : List String) : Option (Frame ℝ) → Option (Frame ℝ) → Prop
  | none, none => True
  | some f, some g => SameCols cols f g
  | _, _ => False

/-- two statistics objects with the same parameters and coordinates, whose data agree on the named columns -/
def SameStats (cols : List String) (s s' : StatsObj) : Prop := s.obj = s'.obj ∧ SameData cols s.data s'.data

/-- the same call, up to columns of its arguments that are not read -/
inductive SameCall : StatsObj.Call → StatsObj.Call → Prop
  | same (c : StatsObj.Call) : SameCall c c
  | data (f g : Frame ℝ) (datetime hasFreq : Bool) (h : SameCols knownHourly f g) :
      SameCall (.data (.frame f datetime hasFreq)) (.data (.frame g datetime hasFreq))
  | radiation (api : PandasApi) (angFit bcFit : List StatsObj.FitRow → Py (XF ℝ × XF ℝ)) (f g : Frame ℝ) (dayLength : Option (Series (XF ℝ)))
      (how : String) (h : SameCols ["ssd", "tmin", "tmax"] f g) :
      SameCall (.radiation api angFit bcFit (some f) dayLength how) (.radiation api angFit bcFit (some g) dayLength how)

/-- the exceptions of a history of calls, in order -/
noncomputable def callExceptions (s : StatsObj) : List StatsObj.Call → List (Option PyErr)
  | [] => []
  | c :: l => (s.call c).2 :: callExceptions (s.call c).1 l

end Spec

open Spec StatsObj

/-- C159 (daily_from_hourly).  Hourly frames that agree on the six known columns give the identical daily frame, the order of its columns included. -/
theorem C159_daily_from_hourly (f g : Frame ℝ) (h : SameCols aggregateReads f g) : dailyFromHourly f = dailyFromHourly g := by
  unfold dailyFromHourly
  rw [h.2 "temp" (by simp [aggregateReads]), h.2 "precip" (by simp [aggregateReads]), h.2 "glob" (by simp [aggregateReads]),
    h.2 "hum" (by simp [aggregateReads]), h.2 "wind" (by simp [aggregateReads]), h.2 "ssd" (by simp [aggregateReads])]

theorem replaceCol_same {cols : List String} {f g : Frame ℝ} (h : SameCols cols f g) (name : String) (hf : f.has name = true) (hg : g.has name = true)
    (v : List (XF ℝ)) : SameCols cols (World.replaceCol f name v) (World.replaceCol g name v) := by
  refine ⟨h.1, fun c hc => ?_⟩
  by_cases hn : c = name
  · subst hn
    rw [replaceCol_col?_eq f v hf, replaceCol_col?_eq g v hg, h.1]
  · rw [replaceCol_col?_ne f v hn, replaceCol_col?_ne g v hn, h.2 c hc]

/-- the outcome of one call on two objects -/
def SameStatsOut (cols : List String) (a b : StatsOut) : Prop := a.2 = b.2 ∧ SameStats cols a.1 b.1

theorem calcPrecipitation_same {cols : List String} (hc : "precip" ∈ cols) {s s' : StatsObj} (h : SameStats cols s s')
    (months : Option (List (List Int))) (avg : Bool) (p : ℝ) :
    SameStatsOut cols (s.calcPrecipitation months avg p) (s'.calcPrecipitation months avg p) := by
  obtain ⟨o, d⟩ := s
  obtain ⟨o', d'⟩ := s'
  obtain ⟨ho, hd⟩ := h
  dsimp only at ho hd
  subst ho
  cases d with
  | none =>
    cases d' with
    | some g => exact hd.elim
    | none =>
      unfold calcPrecipitation
      dsimp only
      cases firstSeasonError (months.getD [wholeYear]) .attributeError <;> exact ⟨rfl, rfl, trivial⟩
  | some f =>
    cases d' with
    | none => exact hd.elim
    | some g =>
      unfold calcPrecipitation
      dsimp only
      have hp := hd.2 "precip" hc
      have hfh : f.has "precip" = (f.col? "precip").isSome := has_eq_col? f _
      have hgh : g.has "precip" = (g.col? "precip").isSome := has_eq_col? g _
      rw [hp] at hfh ⊢
      cases hq : g.col? "precip" with
      | none =>
        dsimp only
        cases firstSeasonError (months.getD [wholeYear]) .keyError <;> exact ⟨rfl, rfl, hd⟩
      | some q =>
        rw [hq] at hfh hgh
        dsimp only
        rcases buildCasc q true 9 (some (months.getD [wholeYear])) avg p with ⟨q', r⟩
        have hr := replaceCol_same hd "precip" hfh hgh q'.values
        cases r <;> exact ⟨rfl, rfl, hr⟩

theorem fitRadiation_same (ang bc : List FitRow → Py (XF ℝ × XF ℝ)) {cols : List String} {s s' : StatsObj} (h : SameStats cols s s') {f g : Frame ℝ}
    (hfg : SameCols ["ssd", "tmin", "tmax"] f g) (dl : Option (Series (XF ℝ))) (how : String) (pot obs : Series (XF ℝ)) :
    SameStatsOut cols (fitRadiation ang bc s f dl how pot obs) (fitRadiation ang bc s' g dl how pot obs) := by
  obtain ⟨o, d⟩ := s
  obtain ⟨o', d'⟩ := s'
  obtain ⟨ho, hd⟩ := h
  dsimp only at ho hd
  subst ho
  unfold fitRadiation
  rw [hfg.2 "ssd" (by simp), hfg.2 "tmin" (by simp), hfg.2 "tmax" (by simp)]
  dsimp only
  cases g.col? "ssd" with
  | none =>
    cases g.col? "tmin" <;> cases g.col? "tmax" <;> exact ⟨rfl, rfl, hd⟩
  | some ssd =>
    cases dl with
    | none => cases g.col? "tmin" <;> cases g.col? "tmax" <;> exact ⟨rfl, rfl, hd⟩
    | some dl =>
      dsimp only
      rcases fitLoop ang _ (monthRanges how).1 _ with ⟨tab, e⟩
      dsimp only
      cases e with
      | some e => exact ⟨rfl, rfl, hd⟩
      | none => cases g.col? "tmin" <;> cases g.col? "tmax" <;> exact ⟨rfl, rfl, hd⟩

theorem calcRadiation_same (api : PandasApi) (ang bc : List FitRow → Py (XF ℝ × XF ℝ)) {cols : List String} (hc : "glob" ∈ cols) {s s' : StatsObj}
    (h : SameStats cols s s') {f g : Option (Frame ℝ)} (hfg : SameData ["ssd", "tmin", "tmax"] f g) (dl : Option (Series (XF ℝ))) (how : String) :
    SameStatsOut cols (s.calcRadiation api ang bc f dl how) (s'.calcRadiation api ang bc g dl how) := by
  obtain ⟨o, d⟩ := s
  obtain ⟨o', d'⟩ := s'
  obtain ⟨ho, hd⟩ := h
  dsimp only at ho hd
  subst ho
  unfold calcRadiation
  by_cases hh : ¬ (how = "all" ∨ how = "seasonal" ∨ how = "monthly")
  · rw [if_pos hh, if_pos hh]; exact ⟨rfl, rfl, hd⟩
  rw [if_neg hh, if_neg hh]
  cases d with
  | none => cases d' with
    | some _ => exact hd.elim
    | none => exact ⟨rfl, rfl, trivial⟩
  | some a => cases d' with
    | none => exact hd.elim
    | some b =>
      dsimp only
      rw [Spec.SameCols.attr hd hc]
      cases b.attr "glob" with
      | error e => exact ⟨rfl, rfl, hd⟩
      | ok glob =>
        dsimp only
        cases f with
        | none => cases g with
          | some _ => exact hfg.elim
          | none => exact ⟨rfl, rfl, hd⟩
        | some f => cases g with
          | none => exact hfg.elim
          | some g =>
            dsimp only
            rw [hfg.1]
            cases hourlyIndex api g.index with
            | error e => exact ⟨rfl, rfl, hd⟩
            | ok hours =>
              dsimp only
              cases o.lon <;> cases o.lat <;> cases o.tz <;> first
                | exact ⟨rfl, rfl, hd⟩
                | (apply fitRadiation_same (hfg := hfg); exact ⟨rfl, hd⟩)

/-- C159 (methods).  A statistics method on two objects with the same parameters, whose data agree on the columns the method reads: the same exception,
the same parameters afterwards, and data that agree again. -/
theorem C159_methods {cols : List String} (c c' : Call) (hcc : SameCall c c') (hc : ∀ x ∈ statisticsReads c, x ∈ cols)
    (hk : ∀ x ∈ cols, x ∈ knownHourly) (s s' : StatsObj) (h : SameStats cols s s') :
    (s.call c).2 = (s'.call c').2 ∧ SameStats cols (s.call c).1 (s'.call c').1 := by
  cases hcc with
  | data f g datetime hasFreq hfg =>
    show SameStatsOut cols (s.setData _) (s'.setData _)
    unfold setData
    dsimp only
    rw [hfg.1]
    split_ifs
    · exact ⟨rfl, h⟩
    · exact ⟨rfl, h⟩
    · exact ⟨rfl, h.1, hfg.mono hk⟩
  | radiation api ang bc f g dl how hfg => exact calcRadiation_same api ang bc (hc "glob" (by simp [statisticsReads])) h (f := some f) (g := some g) hfg dl how
  | same =>
    cases c with
    | data arg =>
      cases arg with
      | other => exact ⟨rfl, h⟩
      | frame f datetime q =>
        show SameStatsOut cols (s.setData _) (s'.setData _)
        unfold setData
        dsimp only
        split_ifs
        · exact ⟨rfl, h⟩
        · exact ⟨rfl, h⟩
        · exact ⟨rfl, h.1, Spec.SameCols.refl _ _⟩
    | precipitation months avg p => exact calcPrecipitation_same (hc "precip" (by simp [statisticsReads])) h months avg p
    | radiation api ang bc daily dl how =>
      refine calcRadiation_same api ang bc (hc "glob" (by simp [statisticsReads])) h ?_ dl how
      cases daily
      · trivial
      · exact Spec.SameCols.refl _ _
    | wind opt =>
      obtain ⟨o, d⟩ := s
      obtain ⟨o', d'⟩ := s'
      obtain ⟨ho, hd⟩ := h
      dsimp only at ho hd
      subst ho
      show SameStatsOut cols (calcWind opt _) (calcWind opt _)
      unfold calcWind
      cases d with
      | none => cases d' with
        | some _ => exact hd.elim
        | none => exact ⟨rfl, rfl, trivial⟩
      | some a => cases d' with
        | none => exact hd.elim
        | some b =>
          dsimp only
          rw [Spec.SameCols.attr hd (hc "wind" (by simp [statisticsReads]))]
          generalize (do fitCosineFunction opt (← b.attr "wind")) = r
          rcases r with e | ⟨x, y, z⟩ <;> exact ⟨rfl, rfl, hd⟩
    | humidity =>
      obtain ⟨o, d⟩ := s
      obtain ⟨o', d'⟩ := s'
      obtain ⟨ho, hd⟩ := h
      dsimp only at ho hd
      subst ho
      show SameStatsOut cols (calcHumidity _) (calcHumidity _)
      unfold calcHumidity
      cases d with
      | none => cases d' with
        | some _ => exact hd.elim
        | none => exact ⟨rfl, rfl, trivial⟩
      | some a => cases d' with
        | none => exact hd.elim
        | some b =>
          have e1 : dewpointRegression a = dewpointRegression b := by
            unfold dewpointRegression
            rw [Spec.SameCols.item hd (hc "temp" (by simp [statisticsReads])), Spec.SameCols.item hd (hc "hum" (by simp [statisticsReads]))]
          have e2 : monthHourPrecipMean a = monthHourPrecipMean b := by
            unfold monthHourPrecipMean
            rw [Spec.SameCols.attr hd (hc "precip" (by simp [statisticsReads])), Spec.SameCols.attr hd (hc "hum" (by simp [statisticsReads]))]
          dsimp only
          rw [e1, e2]
          rcases dewpointRegression b with e | ⟨x, y⟩
          · exact ⟨rfl, rfl, hd⟩
          · cases x <;> cases y <;> try exact ⟨rfl, rfl, hd⟩
            dsimp only
            cases monthHourPrecipMean b <;> exact ⟨rfl, rfl, hd⟩
    | temperature =>
      obtain ⟨o, d⟩ := s
      obtain ⟨o', d'⟩ := s'
      obtain ⟨ho, hd⟩ := h
      dsimp only at ho hd
      subst ho
      show SameStatsOut cols (calcTemperature _) (calcTemperature _)
      unfold calcTemperature
      cases d with
      | none => cases d' with
        | some _ => exact hd.elim
        | none => exact ⟨rfl, rfl, trivial⟩
      | some a => cases d' with
        | none => exact hd.elim
        | some b =>
          dsimp only
          rw [Spec.SameCols.attr hd (hc "temp" (by simp [statisticsReads]))]
          cases b.attr "temp" with
          | error e => exact ⟨rfl, rfl, hd⟩
          | ok temp =>
            dsimp only
            cases o.lon <;> cases o.lat <;> cases o.tz <;> exact ⟨rfl, rfl, hd⟩

theorem statisticsReads_known (c : Call) : ∀ x ∈ statisticsReads c, x ∈ knownHourly := by
  intro x hx
  cases c <;> simp [statisticsReads, knownHourly] at hx ⊢ <;> tauto

/-- C159 (histories).  Two histories of calls that differ only in columns nobody reads raise the same exceptions and fit the same parameters. -/
theorem C159_histories (l l' : List Call) (hl : List.Forall₂ SameCall l l') (s s' : StatsObj) (h : SameStats knownHourly s s') :
    callExceptions s l = callExceptions s' l' ∧ (s.calls l).obj = (s'.calls l').obj ∧ SameStats knownHourly (s.calls l) (s'.calls l') := by
  have key : callExceptions s l = callExceptions s' l' ∧ SameStats knownHourly (s.calls l) (s'.calls l') := by
    induction hl generalizing s s' with
    | nil => exact ⟨rfl, h⟩
    | @cons c c' _ _ hcc _ ih =>
      have hs := C159_methods c c' hcc (statisticsReads_known c) (fun _ hx => hx) s s' h
      have hr := ih _ _ hs.2
      exact ⟨by rw [callExceptions, callExceptions, hs.1, hr.1], hr.2⟩
  exact ⟨key.1, key.2.1, key.2⟩

/-! ## Examples -/

/-- two records with different further columns in a different order -/
example : SameCols aggregateReads ⟨[0, HOUR], [("temp", [.fin 280, .fin 281]), ("snow", [.nan, .fin 1]), ("wind", [.fin 3, .nan])]⟩
    ⟨[0, HOUR], [("wind", [.fin 3, .nan]), ("temp", [.fin 280, .fin 281])]⟩ := by
  refine ⟨rfl, fun c hc => ?_⟩
  simp [aggregateReads] at hc
  rcases hc with rfl | rfl | rfl | rfl | rfl | rfl <;> rfl

/-- the column that is read matters: `daily_from_hourly` of records that differ in "wind" only -/
example : (dailyFromHourly (⟨[at00 0], [("wind", [.fin 3])]⟩ : Frame ℝ)) ≠ dailyFromHourly ⟨[at00 0], []⟩ := by
  intro h
  have := congrArg (fun f => f.has "wind") h
  simp [dailyFromHourly, Frame.col?, Frame.has, Frame.setCol] at this

/-- the object of the wind method need not agree on other columns: wind statistics of two objects, one of them without temperatures -/
example (opt : List (ℝ × Int × ℝ) → Py (ℝ × ℝ × ℝ)) (v : List (XF ℝ)) (x : List (XF ℝ)) (idx : List Time) (o : StatObj) :
    (calcWind opt ⟨o, some ⟨idx, [("temp", x), ("wind", v)]⟩⟩).1.obj = (calcWind opt ⟨o, some ⟨idx, [("wind", v)]⟩⟩).1.obj :=
  (C159_methods (cols := ["wind"]) (.wind opt) (.wind opt) (.same _) (by simp [statisticsReads]) (by simp [knownHourly])
    ⟨o, some ⟨idx, [("temp", x), ("wind", v)]⟩⟩ ⟨o, some ⟨idx, [("wind", v)]⟩⟩
    ⟨rfl, rfl, fun c hc => by simp at hc; subst hc; rfl⟩).2.1

end Melodist
