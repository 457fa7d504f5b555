import Verif.Lemmas.Station

/-!
# C65, C66: what the operations on a station leave alone
-/

set_option linter.unusedSectionVars false

namespace Melodist

namespace World

/-! ## C66 -/

/-- the disaggregation methods: the station, and the column of `data_disagg` the method is for -/
def disaggTarget : Op → Option (Nat × String)
  | .wind i _ _ => some (i, "wind")
  | .humidity i _ _ => some (i, "hum")
  | .temperature i _ _ _ => some (i, "temp")
  | .precipitation i _ _ _ _ _ => some (i, "precip")
  | .radiation i _ _ => some (i, "glob")
  | _ => none

/-- `g` is the frame `f` with at most the content of column `name` replaced -/
def OnlyColumn (name : String) (f g : Frame ℝ) : Prop :=
  g.index = f.index ∧ g.cols.map Prod.fst = f.cols.map Prod.fst ∧ ∀ c, c ≠ name → g.col? c = f.col? c

theorem onlyColumn_refl (name : String) (f : Frame ℝ) : OnlyColumn name f f := ⟨rfl, rfl, fun _ _ => rfl⟩

/-- what a disaggregation leaves alone, on the level of frames -/
def FramesOk (w w' : World) (i : Nat) (name : String) (e : Option PyErr) : Prop :=
  (∀ k, (w.stations i).disagg ≠ some k → w'.frames k = w.frames k) ∧
  (∀ k, (w.stations i).disagg = some k → OnlyColumn name (w.frames k) (w'.frames k)) ∧
  (e ≠ none → w'.frames = w.frames)

theorem writeCol_frames (w : World) (i : Nat) (name : String) (v : Py WindResult) :
    FramesOk w (w.writeCol i name v).1 i name (w.writeCol i name v).2 := by
  rcases writeCol_inv w i name v with ⟨e, h⟩ | ⟨k, r, vals, hk, _, _, h⟩ <;> rw [h]
  · exact ⟨fun _ _ => rfl, fun k _ => onlyColumn_refl _ _, fun _ => rfl⟩
  · refine ⟨fun k' hk' => ?_, fun k' hk' => ?_, fun h => absurd rfl h⟩
    · rw [hk] at hk'
      have hne : k' ≠ k := fun e => hk' (by rw [e])
      simp [Function.update_of_ne hne]
    · rw [hk] at hk'
      obtain rfl : k = k' := by simpa using hk'
      simp only [setFrame_frames, Function.update_self]
      exact ⟨rfl, replaceCol_names _ _ _, fun c hc => replaceCol_col?_ne _ _ hc⟩

/-- C66.  Each of the five `disaggregate_*` methods of a station changes at most its own column of the station's `data_disagg` frame: the index, the names
and the contents of all other columns are the same, and so are all frames of other stations, all statistics objects, the daily data and the
coordinates of all stations.  When it raises, no frame changes at all.  The one further effect is that `disaggregate_radiation` may have set
the sun times of the station, if there were none. -/
theorem C66_only_own_column (api : PandasApi) (w : World) (op : Op) (i : Nat) (name : String) (h : disaggTarget op = some (i, name)) :
    (w.step api op).1.stats = w.stats ∧ (w.step api op).1.nStations = w.nStations ∧
    (∀ j, (w.step api op).1.stations j = w.stations j ∨
      (j = i ∧ name = "glob" ∧ (w.stations i).sun = none ∧
        ∃ s, (w.step api op).1.stations j = { w.stations j with sun := some s })) ∧
    (∀ k, (w.stations i).disagg ≠ some k → (w.step api op).1.frames k = w.frames k) ∧
    (∀ k, (w.stations i).disagg = some k → OnlyColumn name (w.frames k) ((w.step api op).1.frames k)) ∧
    ((w.step api op).2 ≠ none → (w.step api op).1.frames = w.frames) := by
  have easy : ∀ v, (w.step api op = w.writeCol i name v) →
      (w.step api op).1.stats = w.stats ∧ (w.step api op).1.nStations = w.nStations ∧
      (∀ j, (w.step api op).1.stations j = w.stations j ∨
        (j = i ∧ name = "glob" ∧ (w.stations i).sun = none ∧
          ∃ s, (w.step api op).1.stations j = { w.stations j with sun := some s })) ∧
      FramesOk w (w.step api op).1 i name (w.step api op).2 := by
    intro v hv
    have hs := writeCol_same w i name v
    rw [hv]
    exact ⟨hs.stats, hs.nStations, fun j => .inl (by rw [hs.stations]), writeCol_frames w i name v⟩
  cases op with
  | wind i' draw m => obtain ⟨rfl, rfl⟩ : i' = i ∧ "wind" = name := by simpa [disaggTarget] using h
                      exact easy _ rfl
  | humidity i' m p => obtain ⟨rfl, rfl⟩ : i' = i ∧ "hum" = name := by simpa [disaggTarget] using h
                       exact easy _ rfl
  | temperature i' m mm mn => obtain ⟨rfl, rfl⟩ : i' = i ∧ "temp" = name := by simpa [disaggTarget] using h
                              exact easy _ rfl
  | precipitation i' r m z s ma => obtain ⟨rfl, rfl⟩ : i' = i ∧ "precip" = name := by simpa [disaggTarget] using h
                                   exact easy _ rfl
  | radiation i' m pot =>
    obtain ⟨rfl, rfl⟩ : i' = i ∧ "glob" = name := by simpa [disaggTarget] using h
    by_cases hsun : (w.stations i').sun.isNone
    · have hst : w.step api (.radiation i' m pot) = match w.calcSunTimes i' with
          | (w, some e) => (w, some e)
          | (w, none) => w.radiationBody api i' m pot := by
        show w.radiation api i' m pot = _
        unfold radiation
        rw [if_pos hsun]
        rcases w.calcSunTimes i' with ⟨a, _ | b⟩ <;> rfl
      rcases calcSunTimes_inv w i' with ⟨e, hc⟩ | ⟨f, lon, lat, tz, _, _, _, _, hc⟩
      · rw [hc] at hst
        rw [hst]
        exact ⟨rfl, rfl, fun j => .inl rfl, fun _ _ => rfl, fun _ _ => onlyColumn_refl _ _, fun _ => rfl⟩
      · rw [hc] at hst
        dsimp only at hst
        set w1 := w.setStation i' { w.stations i' with sun := some (getSunTimes f.index lon lat tz) } with hw1
        have hb : ∃ v, w1.radiationBody api i' m pot = w1.writeCol i' "glob" v := ⟨_, rfl⟩
        obtain ⟨v, hb⟩ := hb
        have hs := writeCol_same w1 i' "glob" v
        have hf := writeCol_frames w1 i' "glob" v
        rw [hst, hb]
        have hd : (w1.stations i').disagg = (w.stations i').disagg := by simp [hw1]
        refine ⟨hs.stats, hs.nStations, fun j => ?_, ?_⟩
        · rw [hs.stations]
          by_cases hj : j = i'
          · right
            subst hj
            exact ⟨rfl, rfl, by simpa using hsun, _, by simp [hw1]; rfl⟩
          · left
            simp [hw1, Function.update_of_ne hj]
        · refine ⟨fun k hk => ?_, fun k hk => ?_, fun he => hf.2.2 he⟩
          · exact hf.1 k (hd ▸ hk)
          · exact hf.2.1 k (hd ▸ hk)
    · apply easy _
      show w.radiation api i' m pot = _
      unfold radiation
      rw [if_neg hsun]
      rfl
  | _ => simp [disaggTarget] at h

/-- C66: a raising call leaves the whole heap unchanged, except for `disaggregate_radiation` -/
theorem C66_raising (api : PandasApi) (w : World) (op : Op) (i : Nat) (name : String) (h : disaggTarget op = some (i, name))
    (he : (w.step api op).2 ≠ none) (hr : name ≠ "glob" ∨ (w.stations i).sun ≠ none) : (w.step api op).1 = w := by
  have easy : ∀ v, (w.step api op = w.writeCol i name v) → (w.step api op).1 = w := by
    intro v hv
    rcases writeCol_inv w i name v with ⟨e, h⟩ | ⟨k, r, vals, _, _, _, h⟩
    · rw [hv, h]
    · rw [hv, h] at he; exact absurd rfl he
  cases op with
  | wind i' draw m => obtain ⟨rfl, rfl⟩ : i' = i ∧ "wind" = name := by simpa [disaggTarget] using h
                      exact easy _ rfl
  | humidity i' m p => obtain ⟨rfl, rfl⟩ : i' = i ∧ "hum" = name := by simpa [disaggTarget] using h
                       exact easy _ rfl
  | temperature i' m mm mn => obtain ⟨rfl, rfl⟩ : i' = i ∧ "temp" = name := by simpa [disaggTarget] using h
                              exact easy _ rfl
  | precipitation i' r m z s ma => obtain ⟨rfl, rfl⟩ : i' = i ∧ "precip" = name := by simpa [disaggTarget] using h
                                   exact easy _ rfl
  | radiation i' m pot =>
    obtain ⟨rfl, rfl⟩ : i' = i ∧ "glob" = name := by simpa [disaggTarget] using h
    have hs : ¬ (w.stations i').sun.isNone := by
      rcases hr with hr | hr
      · exact absurd rfl hr
      · simpa using hr
    apply easy _
    show w.radiation api i' m pot = _
    unfold radiation
    rw [if_neg hs]
    rfl
  | _ => simp [disaggTarget] at h

/-- C66: a `disaggregate_radiation` that raises can leave new sun times behind: here the method name is wrong -/
theorem C66_radiation_leaves_sun_times (api : PandasApi) : ∃ w : World, ∃ op, disaggTarget op = some (0, "glob") ∧ (w.step api op).2 ≠ none ∧
    (w.stations 0).sun = none ∧ ((w.step api op).1.stations 0).sun ≠ none := by
  let w : World := { stations := fun _ => { lon := some 11, lat := some 47, tz := some 1, daily := some ⟨[0], []⟩, disagg := some 0 } }
  have hc : w.calcSunTimes 0 = (w.setStation 0 { w.stations 0 with sun := some (getSunTimes [0] 11 47 1) }, none) := rfl
  set w1 := w.setStation 0 { w.stations 0 with sun := some (getSunTimes [0] 11 47 1) } with hw1
  have hst : w.step api (.radiation 0 "none" none) = w1.radiationBody api 0 "none" none := by
    show w.radiation api 0 "none" none = _
    unfold radiation
    rw [if_pos (by simp [w]), hc]
  have hb : w1.radiationBody api 0 "none" none = w1.writeCol 0 "glob" (.error .valueError) := by
    unfold radiationBody
    congr 1
  have hb' : w1.radiationBody api 0 "none" none = (w1, some .valueError) := by rw [hb]; rfl
  refine ⟨w, .radiation 0 "none" none, rfl, ?_, ?_, ?_⟩
  · rw [hst, hb']; simp
  · rfl
  · rw [hst, hb']
    simp [hw1]

/-! ## C65 -/

/-- the sun times of station `i` belong to the daily data and the coordinates the station has in state `w` -/
def SunCurrent (w : World) (i : Nat) : Prop :=
  ∃ f lon lat tz, (w.stations i).daily = some f ∧ (w.stations i).lon = some lon ∧ (w.stations i).lat = some lat ∧ (w.stations i).tz = some tz ∧
    (w.stations i).sun = some (getSunTimes f.index lon lat tz)

/-- the operations that compute the sun times of station `i` in state `w` -/
def Computes (w : World) (i : Nat) : Op → Prop
  | .calcSunTimes j => j = i
  | .setDaily j _ => j = i ∧ (w.stations i).tz ≠ none
  | .radiation j _ _ => j = i ∧ (w.stations i).sun = none
  | _ => False

/-- C65: the operations that compute sun times.  When one of them succeeds the sun times belong to the current data and coordinates; when it raises the sun
times are either current as well or the old ones. -/
theorem C65_computed (api : PandasApi) (w : World) (i : Nat) (op : Op) (h : Computes w i op) :
    ((w.step api op).2 = none → SunCurrent (w.step api op).1 i) ∧
    (SunCurrent (w.step api op).1 i ∨ ((w.step api op).1.stations i).sun = (w.stations i).sun) := by
  have hcalc : ∀ w' : World, (w'.calcSunTimes i).2 = none → SunCurrent (w'.calcSunTimes i).1 i := by
    intro w' h0
    rcases calcSunTimes_inv w' i with ⟨e, hc⟩ | ⟨f, lon, lat, tz, h1, h2, h3, h4, hc⟩
    · rw [hc] at h0; cases h0
    · rw [hc]
      exact ⟨f, lon, lat, tz, by simp [h1], by simp [h2], by simp [h3], by simp [h4], by simp⟩
  have hcalc2 : ∀ w' : World, SunCurrent (w'.calcSunTimes i).1 i ∨ ((w'.calcSunTimes i).1.stations i).sun = (w'.stations i).sun := by
    intro w'
    rcases calcSunTimes_inv w' i with ⟨e, hc⟩ | ⟨f, lon, lat, tz, h1, h2, h3, h4, hc⟩
    · exact .inr (by rw [hc])
    · exact .inl (hcalc w' (by rw [hc]))
  cases op with
  | calcSunTimes j => obtain rfl : j = i := h; exact ⟨hcalc w, hcalc2 w⟩
  | setDaily j arg =>
    obtain ⟨rfl, htz⟩ := h
    show ((w.setDaily api j arg).2 = none → SunCurrent (w.setDaily api j arg).1 j) ∧
      (SunCurrent (w.setDaily api j arg).1 j ∨ ((w.setDaily api j arg).1.stations j).sun = (w.stations j).sun)
    rcases setDaily_inv api w j arg with ⟨e, _, hs⟩ | ⟨e, f, _, _, hs⟩ | ⟨f, idx, _, _, hs⟩
    · rw [hs]; exact ⟨fun h => (by cases h), .inr rfl⟩
    · rw [hs]; exact ⟨fun h => (by cases h), .inr (by simp)⟩
    · have ht : (w.stations j).tz.isSome := Option.isSome_iff_ne_none.2 htz
      rw [hs, if_pos ht]
      refine ⟨hcalc _, ?_⟩
      rcases hcalc2 (w.stored j f idx) with h | h
      · exact .inl h
      · exact .inr (by rw [h]; simp [stored])
  | radiation j m pot =>
    obtain ⟨rfl, hs⟩ := h
    show ((w.radiation api j m pot).2 = none → SunCurrent (w.radiation api j m pot).1 j) ∧
      (SunCurrent (w.radiation api j m pot).1 j ∨ ((w.radiation api j m pot).1.stations j).sun = (w.stations j).sun)
    unfold radiation
    rw [if_pos (by rw [hs]; rfl)]
    have a := hcalc w
    have b := hcalc2 w
    rcases hc : w.calcSunTimes j with ⟨w', _ | e⟩
    · rw [hc] at a b
      have key : SunCurrent (w'.radiationBody api j m pot).1 j := by
        obtain ⟨f, lon, lat, tz, h1, h2, h3, h4, h5⟩ := a rfl
        have hb : ∃ v, w'.radiationBody api j m pot = w'.writeCol j "glob" v := ⟨_, rfl⟩
        obtain ⟨v, hb⟩ := hb
        have := (writeCol_same w' j "glob" v).stations
        rw [hb]
        exact ⟨f, lon, lat, tz, by rw [this, h1], by rw [this, h2], by rw [this, h3], by rw [this, h4], by rw [this, h5]⟩
      exact ⟨fun _ => key, .inl key⟩
    · rw [hc] at a b
      exact ⟨a, b⟩
  | _ => exact h.elim

/-- C65: no other operation touches the sun times of an existing station; in particular assigning longitude, latitude, time zone or a statistics object does
not, and neither does assigning daily data without a time zone. -/
theorem C65_otherwise_kept (api : PandasApi) (w : World) (i : Nat) (hi : i < w.nStations) (op : Op) (h : ¬ Computes w i op) :
    ((w.step api op).1.stations i).sun = (w.stations i).sun := by
  have upd : ∀ (j : Nat) (s : StationObj), s.sun = (w.stations j).sun → (Function.update w.stations j s i).sun = (w.stations i).sun := by
    intro j s hs
    by_cases e : i = j
    · subst e; simpa using hs
    · rw [Function.update_of_ne e]
  cases op with
  | newStation lon lat tz d =>
    show ((w.newStation api lon lat tz d).1.stations i).sun = _
    rw [newStation_other api w lon lat tz d (Nat.ne_of_lt hi)]
  | newStatistics lon lat tz => rfl
  | copyStation j =>
    show (Function.update w.stations w.nStations (w.stations j) i).sun = _
    rw [Function.update_of_ne (Nat.ne_of_lt hi)]
  | setLon j x => exact upd j { w.stations j with lon := x } rfl
  | setLat j x => exact upd j { w.stations j with lat := x } rfl
  | setTz j x => exact upd j { w.stations j with tz := x } rfl
  | setStatistics j o =>
    cases o with
    | none => rfl
    | some o => exact upd j { w.stations j with stat := o } rfl
  | setDaily j arg =>
    show ((w.setDaily api j arg).1.stations i).sun = _
    by_cases hj : j = i
    · subst hj
      have ht : ¬ (w.stations j).tz.isSome := fun ht => h ⟨rfl, Option.isSome_iff_ne_none.1 ht⟩
      rcases setDaily_inv api w j arg with ⟨e, _, hs⟩ | ⟨e, f, _, _, hs⟩ | ⟨f, idx, _, _, hs⟩
      · rw [hs]
      · rw [hs]; simp
      · rw [hs, if_neg ht]; simp [stored]
    · rw [setDaily_other api w arg (fun e => hj e.symm)]
  | calcSunTimes j =>
    have hj : i ≠ j := fun e => h e.symm
    rcases calcSunTimes_inv w j with ⟨e, hc⟩ | ⟨f, lon, lat, tz, _, _, _, _, hc⟩
    · show ((w.calcSunTimes j).1.stations i).sun = _
      rw [hc]
    · show ((w.calcSunTimes j).1.stations i).sun = _
      rw [hc]
      simp [Function.update_of_ne hj]
  | wind j d m => exact congrArg StationObj.sun (congrFun (writeCol_same _ _ _ _).stations i)
  | humidity j m p => exact congrArg StationObj.sun (congrFun (writeCol_same _ _ _ _).stations i)
  | temperature j m mm mn => exact congrArg StationObj.sun (congrFun (writeCol_same _ _ _ _).stations i)
  | precipitation j r m z s ma => exact congrArg StationObj.sun (congrFun (writeCol_same _ _ _ _).stations i)
  | radiation j m pot =>
    rcases (C66_only_own_column api w (.radiation j m pot) j "glob" rfl).2.2.1 i with h1 | ⟨e, _, h2, _⟩
    · rw [h1]
    · exact absurd ⟨e.symm, e ▸ h2⟩ h
  | setParams o a b c d e => rfl

theorem nStations_mono (api : PandasApi) (w : World) (op : Op) : w.nStations ≤ (w.step api op).1.nStations := by
  cases op with
  | newStation lon lat tz d =>
    show w.nStations ≤ (w.newStation api lon lat tz d).1.nStations
    rw [newStation_count]; omega
  | newStatistics lon lat tz => exact le_refl _
  | copyStation j => exact Nat.le_succ _
  | setLon j x => exact le_refl _
  | setLat j x => exact le_refl _
  | setTz j x => exact le_refl _
  | setStatistics j o => cases o <;> exact le_refl _
  | setDaily j arg => exact (setDaily_count api w j arg).ge
  | calcSunTimes j =>
    show w.nStations ≤ (w.calcSunTimes j).1.nStations
    rcases calcSunTimes_inv w j with ⟨e, hc⟩ | ⟨f, lon, lat, tz, _, _, _, _, hc⟩ <;> rw [hc] <;> exact le_refl _
  | wind j d m => exact (writeCol_same _ _ _ _).nStations.ge
  | humidity j m p => exact (writeCol_same _ _ _ _).nStations.ge
  | temperature j m mm mn => exact (writeCol_same _ _ _ _).nStations.ge
  | precipitation j r m z s ma => exact (writeCol_same _ _ _ _).nStations.ge
  | radiation j m pot => exact ((C66_only_own_column api w (.radiation j m pot) j "glob" rfl).2.1).ge
  | setParams o a b c d e => exact le_refl _

/-- C65, all histories.  Take any program that starts with a station `i` without sun times.  Whenever the station has sun times, they are those of the daily
data, longitude, latitude and time zone the station had after some earlier statement, and they have not changed since then. -/
theorem C65_history (api : PandasApi) (w : World) (i : Nat) (hi : i < w.nStations) (h0 : (w.stations i).sun = none) (ops : List Op)
    (h : ((w.run api ops).stations i).sun ≠ none) :
    ∃ a b, ops = a ++ b ∧ SunCurrent (w.run api a) i ∧ ∀ b' , b' <+: b → ((w.run api (a ++ b')).stations i).sun = ((w.run api a).stations i).sun := by
  have hmono : ∀ ops : List Op, i < (w.run api ops).nStations := by
    intro ops
    induction ops using List.reverseRecOn with
    | nil => exact hi
    | append_singleton l op ih => rw [run_snoc]; exact lt_of_lt_of_le ih (nStations_mono api _ op)
  induction ops using List.reverseRecOn with
  | nil => exact absurd h0 h
  | append_singleton l op ih =>
    -- the last statement either made the sun times current or left them alone
    have hlast : SunCurrent (w.run api (l ++ [op])) i ∨ ((w.run api (l ++ [op])).stations i).sun = ((w.run api l).stations i).sun := by
      rw [run_snoc]
      by_cases hc : Computes (w.run api l) i op
      · exact (C65_computed api _ i op hc).2
      · exact .inr (C65_otherwise_kept api _ i (hmono l) op hc)
    rcases hlast with hcur | hkept
    · refine ⟨l ++ [op], [], by simp, hcur, fun b' hb' => ?_⟩
      rw [List.prefix_nil.1 hb', List.append_nil]
    · obtain ⟨a, b, rfl, hcur, hpre⟩ := ih (hkept ▸ h)
      refine ⟨a, b ++ [op], by simp, hcur, fun b' hb' => ?_⟩
      rcases List.prefix_concat_iff.1 hb' with rfl | hb'
      · rw [← List.append_assoc, hkept]
        exact hpre b (List.prefix_refl _)
      · exact hpre b' hb'

/-- C65: sun times do become stale.  If they are current and the station then gets another longitude (or another time zone), they are no longer those of the
station. -/
theorem C65_stale (w : World) (i : Nat) (h : SunCurrent w i) (hd : ∃ f, (w.stations i).daily = some f ∧ f.index ≠ []) (x : ℝ) :
    ((w.stations i).lon ≠ some x → ¬ SunCurrent (w.setLon i (some x)) i) ∧ ((w.stations i).tz ≠ some x → ¬ SunCurrent (w.setTz i (some x)) i) := by
  obtain ⟨f, lon, lat, tz, h1, h2, h3, h4, h5⟩ := h
  obtain ⟨f', h1', hne⟩ := hd
  obtain rfl : f = f' := by rw [h1] at h1'; simpa using h1'
  obtain ⟨t, ts, ht⟩ := List.exists_cons_of_ne_nil hne
  have key : ∀ lon' lat' tz', getSunTimes f.index lon lat tz = getSunTimes f.index lon' lat' tz' → lon - 15 * tz = lon' - 15 * tz' := by
    intro lon' lat' tz' e
    rw [ht] at e
    have e2 := congrArg (fun s : Series SunTimes => s.map fun r => r.2.sunnoon) e
    simp only [getSunTimes, List.map_cons] at e2
    have e3 := (List.cons.inj e2).1
    simp only [sunTimesDoy, XF.fin_sub_fin, XF.fin.injEq] at e3
    linarith
  constructor
  · rintro hx ⟨f2, lon2, lat2, tz2, g1, g2, g3, g4, g5⟩
    have hst : (w.setLon i (some x)).stations i = { w.stations i with lon := some x } := by simp [setLon]
    rw [hst] at g1 g2 g3 g4 g5
    dsimp only at g1 g2 g3 g4 g5
    rw [h1] at g1; rw [h4] at g4; rw [h5] at g5
    obtain rfl : f = f2 := by simpa using g1
    obtain rfl : tz = tz2 := by simpa using g4
    obtain rfl : x = lon2 := by simpa using g2
    have := key _ _ _ (by simpa using g5)
    exact hx (by rw [h2]; congr 1; linarith)
  · rintro hx ⟨f2, lon2, lat2, tz2, g1, g2, g3, g4, g5⟩
    have hst : (w.setTz i (some x)).stations i = { w.stations i with tz := some x } := by simp [setTz]
    rw [hst] at g1 g2 g3 g4 g5
    dsimp only at g1 g2 g3 g4 g5
    rw [h1] at g1; rw [h2] at g2; rw [h5] at g5
    obtain rfl : f = f2 := by simpa using g1
    obtain rfl : lon = lon2 := by simpa using g2
    obtain rfl : x = tz2 := by simpa using g4
    have := key _ _ _ (by simpa using g5)
    exact hx (by rw [h4]; congr 1; linarith)

/-- a state that meets the hypotheses of `C65_stale` -/
example : ∃ w : World, SunCurrent w 0 ∧ (∃ f, (w.stations 0).daily = some f ∧ f.index ≠ []) ∧ (w.stations 0).lon ≠ some 12 := by
  refine ⟨(({ stations := fun _ => { lon := some 11, lat := some 47, tz := some 1, daily := some ⟨[0], []⟩ } } : World).calcSunTimes 0).1, ?_, ?_, ?_⟩
  · exact ⟨⟨[0], []⟩, 11, 47, 1, rfl, rfl, rfl, rfl, rfl⟩
  · exact ⟨⟨[0], []⟩, rfl, by simp⟩
  · simp [calcSunTimes]

end World

end Melodist
