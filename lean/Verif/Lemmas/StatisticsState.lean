import Verif.Props.StationStatistics
import Verif.Props.BuildCasc

/-!
# Lemmas on the state of a `StationStatistics` object
-/

set_option linter.unusedSectionVars false

namespace Melodist
open Spec

namespace StatsObj

/-! ## The effect of each call, as a function of the parts it reads -/

noncomputable def windEff (optimise : List (ℝ × Int × ℝ) → Py (ℝ × ℝ × ℝ)) (data : Option (Frame ℝ)) (w : WindStats) : WindStats × Option PyErr :=
  match data with
  | none => (w, some .attributeError)
  | some f =>
    match (do fitCosineFunction optimise (← f.attr "wind")) with
    | .error e => (w, some e)
    | .ok (a, b, t) => ({ a := some a, b := some b, tShift := some t }, none)

theorem calcWind_eff (optimise : List (ℝ × Int × ℝ) → Py (ℝ × ℝ × ℝ)) (s : StatsObj) :
    s.calcWind optimise = ({ s with obj := { s.obj with wind := (windEff optimise s.data s.obj.wind).1 } }, (windEff optimise s.data s.obj.wind).2) := by
  obtain ⟨⟨slon, slat, stz, w, pr, hu, te, gl⟩, sd⟩ := s
  unfold calcWind windEff
  dsimp only
  cases sd with
  | none => rfl
  | some f =>
    dsimp only
    cases (do fitCosineFunction optimise (← f.attr "wind")) with
    | error e => rfl
    | ok r => rfl

noncomputable def humEff (data : Option (Frame ℝ)) (h : HumStats) : HumStats × Option PyErr :=
  match data with
  | none => (h, some .typeError)
  | some f =>
    match dewpointRegression f with
    | .error e => (h, some e)
    | .ok (.fin a1, .fin a0) =>
      match monthHourPrecipMean f with
      | .error e => ({ h with a0 := some a0, a1 := some a1, kr := some 12 }, some e)
      | .ok table => ({ a0 := some a0, a1 := some a1, kr := some 12, table := some table }, none)
    | .ok _ => (h, some .unmodelled)

theorem calcHumidity_eff (s : StatsObj) :
    s.calcHumidity = ({ s with obj := { s.obj with hum := (humEff s.data s.obj.hum).1 } }, (humEff s.data s.obj.hum).2) := by
  obtain ⟨⟨slon, slat, stz, w, pr, hu, te, gl⟩, sd⟩ := s
  unfold calcHumidity humEff
  dsimp only
  cases sd with
  | none => rfl
  | some f =>
    dsimp only
    cases dewpointRegression f with
    | error e => rfl
    | ok r =>
      obtain ⟨a, b⟩ := r
      cases a <;> cases b <;> try rfl
      dsimp only
      cases monthHourPrecipMean f <;> rfl

noncomputable def tempEff (data : Option (Frame ℝ)) (lon lat tz : Option ℝ) (t : TempStats) : TempStats × Option PyErr :=
  match data with
  | none => (t, some .attributeError)
  | some f =>
    match f.attr "temp" with
    | .error e => (t, some e)
    | .ok temp =>
      match lon, lat, tz with
      | some lon, some lat, some tz =>
        ({ maxDelta := some (getShiftByData temp lon lat tz), course := some (meanDailyCourseByMonth temp true) }, none)
      | _, _, _ => (t, some .typeError)

theorem calcTemperature_eff (s : StatsObj) :
    s.calcTemperature = ({ s with obj := { s.obj with temp := (tempEff s.data s.obj.lon s.obj.lat s.obj.tz s.obj.temp).1 } },
      (tempEff s.data s.obj.lon s.obj.lat s.obj.tz s.obj.temp).2) := by
  obtain ⟨⟨slon, slat, stz, w, pr, hu, te, gl⟩, sd⟩ := s
  unfold calcTemperature tempEff
  dsimp only
  cases sd with
  | none => rfl
  | some f =>
    dsimp only
    cases f.attr "temp" with
    | error e => rfl
    | ok r => cases slon <;> cases slat <;> cases stz <;> rfl

/-- the radiation part of a fit -/
noncomputable def radFit (angFit bcFit : List FitRow → Py (XF ℝ × XF ℝ)) (g : GlobStats) (f : Frame ℝ) (dayLength : Option (Series (XF ℝ)))
    (how : String) (pot obs : Series (XF ℝ)) : GlobStats × Option PyErr :=
  ((fitRadiation angFit bcFit { obj := { glob := g } } f dayLength how pot obs).1.obj.glob,
    (fitRadiation angFit bcFit { obj := { glob := g } } f dayLength how pot obs).2)

theorem fitRadiation_eff (angFit bcFit : List FitRow → Py (XF ℝ × XF ℝ)) (s : StatsObj) (f : Frame ℝ) (dayLength : Option (Series (XF ℝ)))
    (how : String) (pot obs : Series (XF ℝ)) : fitRadiation angFit bcFit s f dayLength how pot obs =
      ({ s with obj := { s.obj with glob := (radFit angFit bcFit s.obj.glob f dayLength how pot obs).1 } },
        (radFit angFit bcFit s.obj.glob f dayLength how pot obs).2) := by
  have hb : ∀ (s t : StatsObj) left, t.obj.glob = s.obj.glob → bcPart bcFit s f left pot obs =
      ({ s with obj := { s.obj with glob := (bcPart bcFit t f left pot obs).1.obj.glob } }, (bcPart bcFit t f left pot obs).2) := by
    intro s t left e
    unfold bcPart
    cases f.col? "tmin" with
    | none => dsimp only; rw [e]
    | some a =>
      cases f.col? "tmax" with
      | none => dsimp only; rw [e]
      | some b =>
        dsimp only
        unfold bcLoop withBc
        rw [e]
  unfold radFit
  by_cases hs : f.col? "ssd" = none ∨ dayLength = none
  · rw [fitRadiation_nossd hs, fitRadiation_nossd hs]
    exact hb _ _ _ rfl
  · rw [not_or] at hs
    obtain ⟨ssd, hssd⟩ := Option.ne_none_iff_exists'.1 hs.1
    obtain ⟨dl, rfl⟩ := Option.ne_none_iff_exists'.1 hs.2
    rw [fitRadiation_ssd hssd, fitRadiation_ssd hssd]
    have ha : angLoop angFit s how (fitFrame ssd dl pot obs) = angLoop angFit { obj := { glob := s.obj.glob } } how (fitFrame ssd dl pot obs) := rfl
    rw [ha]
    cases (angLoop angFit { obj := { glob := s.obj.glob } } how (fitFrame ssd dl pot obs)).2 with
    | some e => rfl
    | none =>
      dsimp only
      exact hb (withAng s _) (withAng { obj := { glob := s.obj.glob } } (angLoop angFit { obj := { glob := s.obj.glob } } how
        (fitFrame ssd dl pot obs)).1) _ rfl

noncomputable def radEff (api : PandasApi) (angFit bcFit : List FitRow → Py (XF ℝ × XF ℝ)) (daily : Option (Frame ℝ))
    (dayLength : Option (Series (XF ℝ))) (how : String) (data : Option (Frame ℝ)) (lon lat tz : Option ℝ) (g : GlobStats) : GlobStats × Option PyErr :=
  if ¬ (how = "all" ∨ how = "seasonal" ∨ how = "monthly") then (g, some .assertionError)
  else
    match data with
    | none => (g, some .attributeError)
    | some data =>
      match data.attr "glob" with
      | .error e => (g, some e)
      | .ok glob =>
        match daily with
        | none => ({ g with course := some (meanDailyCourseByMonth glob) }, none)
        | some f =>
          match hourlyIndex api f.index with
          | .error e => ({ g with course := some (meanDailyCourseByMonth glob) }, some e)
          | .ok hours =>
            match lon, lat, tz with
            | some lon, some lat, some tz =>
              radFit angFit bcFit { g with course := some (meanDailyCourseByMonth glob) } f dayLength how
                ((potentialRadiation hours lon lat tz).resampleD meanSkip) (glob.resampleD meanSkip)
            | _, _, _ => ({ g with course := some (meanDailyCourseByMonth glob) }, some .typeError)

theorem calcRadiation_eff (api : PandasApi) (angFit bcFit : List FitRow → Py (XF ℝ × XF ℝ)) (daily : Option (Frame ℝ))
    (dayLength : Option (Series (XF ℝ))) (how : String) (s : StatsObj) : s.calcRadiation api angFit bcFit daily dayLength how =
      ({ s with obj := { s.obj with glob := (radEff api angFit bcFit daily dayLength how s.data s.obj.lon s.obj.lat s.obj.tz s.obj.glob).1 } },
        (radEff api angFit bcFit daily dayLength how s.data s.obj.lon s.obj.lat s.obj.tz s.obj.glob).2) := by
  obtain ⟨⟨slon, slat, stz, w, pr, hu, te, gl⟩, sd⟩ := s
  unfold calcRadiation radEff
  by_cases hh : how = "all" ∨ how = "seasonal" ∨ how = "monthly"
  · rw [if_neg (not_not.2 hh), if_neg (not_not.2 hh)]
    dsimp only
    cases sd with
    | none => rfl
    | some data =>
      dsimp only
      cases data.attr "glob" with
      | error e => rfl
      | ok glob =>
        dsimp only
        cases daily with
        | none => rfl
        | some f =>
          dsimp only
          cases hourlyIndex api f.index with
          | error e => rfl
          | ok hours =>
            dsimp only
            cases slon <;> cases slat <;> cases stz <;> try rfl
            dsimp only
            rw [fitRadiation_eff]
  · rw [if_pos hh, if_pos hh]

/-- the column precip after `calc_precipitation_stats`: missing values are 0, unless there is no season or no month in the first one -/
noncomputable def fillSeasons (seasons : List (List Int)) (p : Series (XF ℝ)) : Series (XF ℝ) :=
  match seasons with
  | [] => p
  | [] :: _ => p
  | (_ :: _) :: _ => fillna0 p

theorem buildLoop_fill (levels : Nat) (avg : Bool) (p : ℝ) (seasons : List (List Int)) (obs : Series (XF ℝ)) :
    (buildLoop levels avg p obs seasons).1 = fillSeasons seasons obs := by
  rw [buildLoop_fst]
  match seasons with
  | [] => rfl
  | [] :: _ => rfl
  | (_ :: _) :: _ => rfl

/-- the hourly data after `calc_precipitation_stats`: in the column precip missing values are 0, unless there is no season or no month in the first one -/
noncomputable def filled (months : Option (List (List Int))) (data : Option (Frame ℝ)) : Option (Frame ℝ) :=
  data.map fun f =>
    match f.col? "precip" with
    | none => f
    | some p => World.replaceCol f "precip" (fillSeasons (months.getD [wholeYear]) p).values

noncomputable def precEff (months : Option (List (List Int))) (avg : Bool) (p : ℝ) (data : Option (Frame ℝ)) (pr : PrecipStats) :
    PrecipStats × Option PyErr :=
  ((calcPrecipitation { obj := { precip := pr }, data := data } months avg p).1.obj.precip,
    (calcPrecipitation { obj := { precip := pr }, data := data } months avg p).2)

theorem calcPrecipitation_eff (months : Option (List (List Int))) (avg : Bool) (p : ℝ) (s : StatsObj) :
    s.calcPrecipitation months avg p = ({ obj := { s.obj with precip := (precEff months avg p s.data s.obj.precip).1 }, data := filled months s.data },
      (precEff months avg p s.data s.obj.precip).2) := by
  obtain ⟨⟨slon, slat, stz, w, pr, hu, te, gl⟩, sd⟩ := s
  unfold precEff filled calcPrecipitation
  dsimp only
  cases sd with
  | none =>
    dsimp only
    cases firstSeasonError (months.getD [wholeYear]) .attributeError <;> rfl
  | some f =>
    dsimp only [Option.map_some]
    cases f.col? "precip" with
    | none =>
      dsimp only
      cases firstSeasonError (months.getD [wholeYear]) .keyError <;> rfl
    | some q =>
      dsimp only
      have h := buildLoop_fill 5 avg p (months.getD [wholeYear]) q
      have e : buildCasc q true 9 (some (months.getD [wholeYear])) avg p = buildLoop 5 avg p q (months.getD [wholeYear]) := rfl
      rw [e]
      rw [← h]
      cases (buildLoop 5 avg p q (months.getD [wholeYear])).2 <;> rfl

/-! ## Filling in zeros does not change what the other statistics read -/

theorem zip_values_zip (g : Time × XF ℝ → XF ℝ) : ∀ (idx : List Time) (c : List (XF ℝ)),
    idx.zip (((idx.zip c).map fun r => (r.1, g r)).map Prod.snd) = (idx.zip c).map fun r => (r.1, g r)
  | [], _ => rfl
  | _ :: _, [] => rfl
  | t :: idx, x :: c => by
    rw [List.zip_cons_cons, List.map_cons, List.map_cons, List.zip_cons_cons, zip_values_zip g idx c]

theorem zip_values_zip' : ∀ (idx : List Time) (c : List (XF ℝ)), idx.zip ((idx.zip c).map Prod.snd) = idx.zip c
  | [], _ => rfl
  | _ :: _, [] => rfl
  | t :: idx, x :: c => by
    rw [List.zip_cons_cons, List.map_cons, List.zip_cons_cons, zip_values_zip' idx c]

/-- the column precip after filling -/
theorem filled_precip {months : Option (List (List Int))} {f : Frame ℝ} {p : Series (XF ℝ)} (h : f.col? "precip" = some p) :
    ∃ f' p', filled months (some f) = some f' ∧ f'.col? "precip" = some p' ∧ (p' = p ∨ p' = fillna0 p) ∧ f'.index = f.index ∧
      (∀ c, c ≠ "precip" → f'.col? c = f.col? c) ∧ p' = fillSeasons (months.getD [wholeYear]) p := by
  have hh : f.has "precip" = true := by
    unfold Frame.col? at h
    unfold Frame.has
    cases hq : f.cols.find? fun c => c.1 == "precip" with
    | none => rw [hq] at h; cases h
    | some c => exact List.any_eq_true.2 ⟨c, List.mem_of_find?_eq_some hq, by simpa using List.find?_some hq⟩
  have hp : ∃ c, p = f.index.zip c := by
    unfold Frame.col? at h
    obtain ⟨c, _, hc⟩ := Option.map_eq_some_iff.1 h
    exact ⟨_, hc.symm⟩
  obtain ⟨c, rfl⟩ := hp
  have key : ∀ q : Series (XF ℝ), (q = f.index.zip c ∨ q = fillna0 (f.index.zip c)) → f.index.zip q.values = q := by
    rintro q (rfl | rfl)
    · exact zip_values_zip' _ _
    · exact zip_values_zip (fun r => if r.2.isNan then .fin 0 else r.2) _ _
  unfold filled
  simp only [Option.map_some, h]
  generalize hq : fillSeasons (months.getD [wholeYear]) (f.index.zip c) = q
  have hq' : q = f.index.zip c ∨ q = fillna0 (f.index.zip c) := by
    rw [← hq]
    match months.getD [wholeYear] with
    | [] => exact .inl rfl
    | [] :: _ => exact .inl rfl
    | (_ :: _) :: _ => exact .inr rfl
  refine ⟨_, q, rfl, ?_, hq', rfl, fun c hc => replaceCol_col?_ne _ _ hc, rfl⟩
  rw [replaceCol_col?_eq _ _ hh, key q hq']

theorem sumSkip_fill (l : List (XF ℝ)) : sumSkip (l.map fun x => if x.isNan then .fin 0 else x) = sumSkip l := by
  unfold sumSkip
  induction l with
  | nil => rfl
  | cons x l ih =>
    cases x with
    | nan =>
      have e : sumCells ((XF.fin 0 : XF ℝ) :: (l.map fun x => if x.isNan then .fin 0 else x).filter fun x => !x.isNan) =
          sumCells ((l.map fun x => if x.isNan then .fin 0 else x).filter fun x => !x.isNan) := by
        rw [sumCells]
        generalize sumCells ((l.map fun x => if x.isNan then .fin 0 else x).filter fun x => !x.isNan) = q
        cases q <;> first | rfl | simp
      simpa [e] using ih
    | fin y => simpa [sumCells] using congrArg (XF.fin y + ·) ih
    | pinf => simpa [sumCells] using congrArg (XF.pinf + ·) ih
    | ninf => simpa [sumCells] using congrArg (XF.ninf + ·) ih

theorem resampleD_fill (p : Series (XF ℝ)) : (fillna0 p).resampleD sumSkip = p.resampleD sumSkip := by
  have hi : (fillna0 p).index = p.index := by
    unfold fillna0 Series.index
    rw [List.map_map]
    rfl
  unfold Series.resampleD
  rw [hi]
  apply List.map_congr_left
  intro d _
  have : (fillna0 p).onDay d = (p.onDay d).map fun x => if x.isNan then .fin 0 else x := by
    unfold Series.onDay fillna0
    rw [List.filter_map, List.map_map, List.map_map]
    rfl
  rw [this, sumSkip_fill]

/-- the statistics of all other methods read the same from the data before and after `calc_precipitation_stats` -/
theorem filled_same (months : Option (List (List Int))) (data : Option (Frame ℝ)) :
    (∀ opt w, windEff opt (filled months data) w = windEff opt data w) ∧ (∀ h, humEff (filled months data) h = humEff data h) ∧
    (∀ lon lat tz t, tempEff (filled months data) lon lat tz t = tempEff data lon lat tz t) ∧
    (∀ api ang bc daily dl how lon lat tz g, radEff api ang bc daily dl how (filled months data) lon lat tz g =
      radEff api ang bc daily dl how data lon lat tz g) := by
  cases data with
  | none => exact ⟨fun _ _ => rfl, fun _ => rfl, fun _ _ _ _ => rfl, fun _ _ _ _ _ _ _ _ _ _ => rfl⟩
  | some f =>
    cases h : f.col? "precip" with
    | none =>
      have : filled months (some f) = some f := by unfold filled; rw [Option.map_some, h]
      rw [this]
      exact ⟨fun _ _ => rfl, fun _ => rfl, fun _ _ _ _ => rfl, fun _ _ _ _ _ _ _ _ _ _ => rfl⟩
    | some p =>
      obtain ⟨f', p', h1, h2, h3, _, h5, _⟩ := filled_precip (months := months) h
      rw [h1]
      have ha : ∀ c, c ≠ "precip" → f'.attr c = f.attr c := by
        intro c hc; unfold Frame.attr; rw [h5 c hc]
      have hit : ∀ c, c ≠ "precip" → f'.item c = f.item c := by
        intro c hc; unfold Frame.item; rw [h5 c hc]
      refine ⟨?_, ?_, ?_, ?_⟩
      · intro opt w
        unfold windEff
        dsimp only
        rw [ha "wind" (by decide)]
      · intro w
        unfold humEff
        dsimp only
        have e1 : dewpointRegression f' = dewpointRegression f := by
          unfold dewpointRegression
          rw [hit "temp" (by decide), hit "hum" (by decide)]
        have e2 : monthHourPrecipMean f' = monthHourPrecipMean f := by
          unfold monthHourPrecipMean
          rw [ha "hum" (by decide), attr_ok h2, attr_ok h]
          have : p'.resampleD sumSkip = p.resampleD sumSkip := by
            rcases h3 with rfl | rfl
            · rfl
            · exact resampleD_fill p
          rw [py_ok_bind, py_ok_bind]
          simp only [this]
        rw [e1, e2]
      · intro lon lat tz t
        unfold tempEff
        dsimp only
        rw [ha "temp" (by decide)]
      · intro api ang bc daily dl how lon lat tz g
        unfold radEff
        dsimp only
        rw [ha "glob" (by decide)]

end StatsObj

end Melodist
