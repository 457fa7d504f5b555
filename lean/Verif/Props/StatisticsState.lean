import Verif.Lemmas.StatisticsState

/-!
# C86, C87: the state of a `StationStatistics` object
-/

set_option linter.unusedSectionVars false

namespace Melodist
open Spec

namespace StatsObj

/-! ## Calls -/

/-- the calls a user can make on a `StationStatistics` object, with all their arguments (and the optimisers of scipy) -/
inductive Call where
  | data (arg : DailyArg)
  | precipitation (months : Option (List (List Int))) (avgStats : Bool) (percentile : ℝ)
  | wind (optimise : List (ℝ × Int × ℝ) → Py (ℝ × ℝ × ℝ))
  | humidity
  | temperature
  | radiation (api : PandasApi) (angFit bcFit : List FitRow → Py (XF ℝ × XF ℝ)) (daily : Option (Frame ℝ)) (dayLength : Option (Series (XF ℝ)))
      (how : String)

/-- the object after one call, and its exception -/
noncomputable def call (s : StatsObj) : Call → StatsOut
  | .data arg => s.setData arg
  | .precipitation months avg p => s.calcPrecipitation months avg p
  | .wind opt => s.calcWind opt
  | .humidity => s.calcHumidity
  | .temperature => s.calcTemperature
  | .radiation api ang bc daily dl how => s.calcRadiation api ang bc daily dl how

/-- a history of calls; exceptions are caught by the caller -/
noncomputable def calls (s : StatsObj) (l : List Call) : StatsObj := l.foldl (fun s c => (s.call c).1) s


/-- the parts of the object -/
inductive Part where
  | data | precip | wind | hum | temp | glob
deriving DecidableEq

/-- the part a call is about -/
def Call.part : Call → Part
  | .data _ => .data
  | .precipitation _ _ _ => .precip
  | .wind _ => .wind
  | .humidity => .hum
  | .temperature => .temp
  | .radiation _ _ _ _ _ _ => .glob

/-- the frames are the same, except that missing values of the column precip may have become 0 -/
def SameButZeros (f f' : Frame ℝ) : Prop :=
  f'.index = f.index ∧ (∀ c, c ≠ "precip" → f'.col? c = f.col? c) ∧
  (f.col? "precip" = none → f'.col? "precip" = none) ∧
  ∀ p, f.col? "precip" = some p → f'.col? "precip" = some p ∨
    f'.col? "precip" = some (p.map fun r => (r.1, if r.2 = .nan then .fin 0 else r.2))

/-- C86 (assignment).  The hourly data of a statistics object are taken over exactly if they are a DataFrame with a DatetimeIndex whose labels are full
hours and not all midnights; everything else raises AssertionError and leaves the object as it was. -/
theorem C86_setter (s : StatsObj) (arg : DailyArg) :
    (∀ f b, arg = .frame f true b → (∀ t ∈ f.index, t % HOUR = 0) → (∃ t ∈ f.index, t % DAY ≠ 0) → s.setData arg = ({ s with data := some f }, none)) ∧
    ((¬ ∃ f b, arg = .frame f true b ∧ (∀ t ∈ f.index, t % HOUR = 0) ∧ ∃ t ∈ f.index, t % DAY ≠ 0) → s.setData arg = (s, some .assertionError)) := by
  have hr : ∀ idx : List Time, hourResolution idx = true ↔ (∀ t ∈ idx, t % HOUR = 0) ∧ ∃ t ∈ idx, t % DAY ≠ 0 := by
    intro idx
    unfold hourResolution
    rw [Bool.and_eq_true, List.all_eq_true, List.any_eq_true]
    simp
  constructor
  · rintro f b rfl h1 h2
    unfold setData
    dsimp only
    rw [if_neg (by simp), if_neg]
    rw [(hr f.index).2 ⟨h1, h2⟩]
    simp
  · intro h
    unfold setData
    match arg with
    | .other => rfl
    | .frame f false b => rfl
    | .frame f true b =>
      dsimp only
      rw [if_neg (by simp), if_pos]
      rw [Bool.eq_false_iff]
      intro hc
      exact h ⟨f, b, rfl, (hr f.index).1 hc⟩

/-- C86 (each method its own part).  A call, with or without exception, changes only the part it is about; the coordinates never change.  The one
exception: `calc_precipitation_stats` replaces missing values of the object's hourly precipitation by 0. -/
theorem C86_own_part (s : StatsObj) (c : Call) :
    (s.call c).1.obj.lon = s.obj.lon ∧ (s.call c).1.obj.lat = s.obj.lat ∧ (s.call c).1.obj.tz = s.obj.tz ∧
    (c.part ≠ .precip → (s.call c).1.obj.precip = s.obj.precip) ∧ (c.part ≠ .wind → (s.call c).1.obj.wind = s.obj.wind) ∧
    (c.part ≠ .hum → (s.call c).1.obj.hum = s.obj.hum) ∧ (c.part ≠ .temp → (s.call c).1.obj.temp = s.obj.temp) ∧
    (c.part ≠ .glob → (s.call c).1.obj.glob = s.obj.glob) ∧
    (c.part ≠ .data → c.part ≠ .precip → (s.call c).1.data = s.data) ∧
    (c.part = .precip → (s.data = none → (s.call c).1.data = none) ∧
      ∀ f, s.data = some f → ∃ f', (s.call c).1.data = some f' ∧ SameButZeros f f') := by
  cases c with
  | data arg =>
    have e : s.call (.data arg) = s.setData arg := rfl
    rw [e]
    unfold setData
    match arg with
    | .other => exact ⟨rfl, rfl, rfl, fun _ => rfl, fun _ => rfl, fun _ => rfl, fun _ => rfl, fun _ => rfl, fun _ _ => rfl, fun h => by cases h⟩
    | .frame f dt b =>
      dsimp only
      split_ifs <;>
        exact ⟨rfl, rfl, rfl, fun _ => rfl, fun _ => rfl, fun _ => rfl, fun _ => rfl, fun _ => rfl, fun h => absurd rfl h, fun h => by cases h⟩
  | wind opt =>
    have e : s.call (.wind opt) = s.calcWind opt := rfl
    rw [e, calcWind_eff]
    exact ⟨rfl, rfl, rfl, fun _ => rfl, fun h => absurd rfl h, fun _ => rfl, fun _ => rfl, fun _ => rfl, fun _ _ => rfl, fun h => by cases h⟩
  | humidity =>
    have e : s.call (.humidity) = s.calcHumidity := rfl
    rw [e, calcHumidity_eff]
    exact ⟨rfl, rfl, rfl, fun _ => rfl, fun _ => rfl, fun h => absurd rfl h, fun _ => rfl, fun _ => rfl, fun _ _ => rfl, fun h => by cases h⟩
  | temperature =>
    have e : s.call (.temperature) = s.calcTemperature := rfl
    rw [e, calcTemperature_eff]
    exact ⟨rfl, rfl, rfl, fun _ => rfl, fun _ => rfl, fun _ => rfl, fun h => absurd rfl h, fun _ => rfl, fun _ _ => rfl, fun h => by cases h⟩
  | radiation api ang bc daily dl how =>
    have e : s.call (.radiation api ang bc daily dl how) = s.calcRadiation api ang bc daily dl how := rfl
    rw [e, calcRadiation_eff]
    exact ⟨rfl, rfl, rfl, fun _ => rfl, fun _ => rfl, fun _ => rfl, fun _ => rfl, fun h => absurd rfl h, fun _ _ => rfl, fun h => by cases h⟩
  | precipitation months avg p =>
    have e : s.call (.precipitation months avg p) = s.calcPrecipitation months avg p := rfl
    rw [e, calcPrecipitation_eff]
    refine ⟨rfl, rfl, rfl, fun h => absurd rfl h, fun _ => rfl, fun _ => rfl, fun _ => rfl, fun _ => rfl, fun _ h => absurd rfl h, fun _ => ⟨?_, ?_⟩⟩
    · intro h; dsimp only; rw [h]; rfl
    · intro f h
      dsimp only
      rw [h]
      cases hp : f.col? "precip" with
      | none =>
        refine ⟨f, by unfold filled; rw [Option.map_some, hp], rfl, fun _ _ => rfl, fun _ => hp, fun p h => ?_⟩
        rw [hp] at h
        cases h
      | some q =>
        obtain ⟨f', p', h1, h2, h3, h4, h5, _⟩ := filled_precip (months := months) hp
        refine ⟨f', h1, h4, h5, fun h => ?_, fun r hr => ?_⟩
        · rw [hp] at h; cases h
        · rw [hp] at hr
          cases hr
          rcases h3 with rfl | rfl
          · exact .inl h2
          · right
            rw [h2]
            unfold fillna0
            congr 1
            apply List.map_congr_left
            rintro ⟨t, x⟩ _
            cases x <;> simp

/-- C86 (invariant).  Whatever is called on a new statistics object, its data are None or have an index of full hours, not all midnight. -/
theorem C86_hourly (data : Option DailyArg) (lon lat tz : Option ℝ) (s : StatsObj) (h : StatsObj.new data lon lat tz = .ok s) (l : List Call) (f : Frame ℝ)
    (hf : (s.calls l).data = some f) : (∀ t ∈ f.index, t % HOUR = 0) ∧ ∃ t ∈ f.index, t % DAY ≠ 0 := by
  let Inv (s : StatsObj) : Prop := ∀ f, s.data = some f → (∀ t ∈ f.index, t % HOUR = 0) ∧ ∃ t ∈ f.index, t % DAY ≠ 0
  have hset : ∀ s arg, Inv s → Inv (setData s arg).1 := by
    intro s arg hs g hg
    by_cases ha : ∃ f b, arg = .frame f true b ∧ (∀ t ∈ f.index, t % HOUR = 0) ∧ ∃ t ∈ f.index, t % DAY ≠ 0
    · obtain ⟨f, b, rfl, h1, h2⟩ := ha
      rw [(C86_setter s _).1 f b rfl h1 h2] at hg
      cases hg
      exact ⟨h1, h2⟩
    · rw [(C86_setter s arg).2 ha] at hg
      exact hs g hg
  have h0 : Inv s := by
    unfold StatsObj.new at h
    cases data with
    | none => cases h; intro f hf; cases hf
    | some d =>
      have := hset { obj := { lon := lon, lat := lat, tz := tz } } d (by intro f hf; cases hf)
      dsimp only at h
      revert this h
      rcases setData { obj := { lon := lon, lat := lat, tz := tz } } d with ⟨r, _ | e⟩
      · intro h this; cases h; exact this
      · intro h; cases h
  suffices hl : ∀ (l : List Call) (s : StatsObj), Inv s → Inv (s.calls l) from hl l s h0 f hf
  intro l
  induction l with
  | nil => intro s hs; exact hs
  | cons c l ih =>
    intro s hs
    refine ih _ ?_
    by_cases hc : c.part = .data
    · cases c <;> try cases hc
      exact hset _ _ hs
    · obtain ⟨_, _, _, _, _, _, _, _, h9, h10⟩ := C86_own_part s c
      by_cases hp : c.part = .precip
      · obtain ⟨h11, h12⟩ := h10 hp
        intro g hg
        cases hd : s.data with
        | none => rw [h11 hd] at hg; cases hg
        | some f =>
          obtain ⟨f', e, hz, _⟩ := h12 f hd
          rw [e] at hg
          cases hg
          rw [hz]
          exact hs f hd
      · intro g hg
        rw [h9 hc hp] at hg
        exact hs g hg

/-- C87.  Two calls of different `calc_…_stats` methods can be exchanged: the object is the same afterwards, and each call raises what it would raise on
its own.  (In particular the zeros that `calc_precipitation_stats` writes into the hourly data do not influence the humidity statistics.) -/
theorem C87_exchange (s : StatsObj) (a b : Call) (h : a.part ≠ b.part) (ha : a.part ≠ .data) (hb : b.part ≠ .data) :
    ((s.call a).1.call b).1 = ((s.call b).1.call a).1 ∧ ((s.call a).1.call b).2 = (s.call b).2 := by
  cases a <;> cases b <;> first | exact absurd rfl h | exact absurd rfl ha | exact absurd rfl hb | skip
  all_goals
    simp only [call, calcWind_eff, calcHumidity_eff, calcTemperature_eff, calcRadiation_eff, calcPrecipitation_eff, (filled_same _ _).1, (filled_same _ _).2.1,
      (filled_same _ _).2.2.1, (filled_same _ _).2.2.2, and_self]

/-- C87 (any order).  Fitting several kinds of statistics, each once, gives the same object in every order. -/
theorem C87_any_order (s : StatsObj) (l l' : List Call) (hp : l.Perm l') (hn : (l.map Call.part).Nodup) (hd : ∀ c ∈ l, c.part ≠ .data) :
    s.calls l = s.calls l' := by
  unfold calls
  apply List.Perm.foldl_eq' hp
  intro a ha b hb z
  by_cases h : a.part = b.part
  · rw [List.inj_on_of_nodup_map hn ha hb h]
  · exact (C87_exchange z a b h (hd a ha) (hd b hb)).1

end StatsObj

end Melodist
