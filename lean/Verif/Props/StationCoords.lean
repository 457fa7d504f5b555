import Verif.Lemmas.Station

/-!
# C64: a station and its statistics object agree on longitude, latitude and time zone
-/

set_option linter.unusedSectionVars false

namespace Melodist

/-- (longitude, latitude, time zone) -/
abbrev Coords := Option ℝ × Option ℝ × Option ℝ

/-- the coordinates of a station -/
def StationObj.coords (s : StationObj) : Coords := (s.lon, s.lat, s.tz)
/-- the coordinates stored in a statistics object -/
def StatObj.coords (s : StatObj) : Coords := (s.lon, s.lat, s.tz)

namespace World

/-- station `i` and its current statistics object have the same coordinates -/
def InSync (w : World) (i : Nat) : Prop := (w.statOf i).coords = (w.stations i).coords

/-- the operation only names objects that exist -/
def Exists (w : World) : Op → Prop
  | .newStation _ _ _ _ | .newStatistics _ _ _ => True
  | .setStatistics i (some o) => i < w.nStations ∧ o < w.nStats
  | .setStatistics i none => i < w.nStations
  | .setParams o _ _ _ _ _ => o < w.nStats
  | op => ∃ i, op.station = some i ∧ i < w.nStations

/-- the operation does not make two stations share a statistics object -/
def NoSharing (w : World) : Op → Prop
  | .copyStation _ => False
  | .setStatistics i (some o) => ∀ j < w.nStations, j ≠ i → (w.stations j).stat ≠ o
  | _ => True

/-- every operation of the program names existing objects and does not introduce sharing -/
def Unshared (api : PandasApi) (w : World) : List Op → Prop
  | [] => True
  | op :: ops => w.Exists op ∧ w.NoSharing op ∧ Unshared api (w.step api op).1 ops

/-- every operation of the program names existing objects -/
def Executable (api : PandasApi) (w : World) : List Op → Prop
  | [] => True
  | op :: ops => w.Exists op ∧ Executable api (w.step api op).1 ops

/-! ## Which operations touch coordinates -/

/-- the part of the heap that matters for coordinates -/
def coordView (w : World) : (Nat → Coords × Nat) × (Nat → Coords) × Nat × Nat :=
  (fun i => ((w.stations i).coords, (w.stations i).stat), fun o => (w.stats o).coords, w.nStations, w.nStats)

theorem coordView_setStation (w : World) (i : Nat) (s : StationObj) (h : s.coords = (w.stations i).coords) (h' : s.stat = (w.stations i).stat) :
    (w.setStation i s).coordView = w.coordView := by
  unfold coordView
  simp only [setStation_stations, setStation_stats, setStation_nStations, setStation_nStats]
  congr 1
  funext j
  by_cases hj : j = i
  · subst hj; simp [h, h']
  · simp [Function.update_of_ne hj]

theorem coordView_same {w w' : World} (h : SameButFrames w w') : w'.coordView = w.coordView := by
  unfold coordView
  rw [h.stations, h.nStations, h.stats, h.nStats]

theorem coordView_calcSunTimes (w : World) (i : Nat) : (w.calcSunTimes i).1.coordView = w.coordView := by
  rcases calcSunTimes_inv w i with ⟨e, h⟩ | ⟨f, lon, lat, tz, _, _, _, _, h⟩ <;> rw [h]
  exact coordView_setStation _ _ _ rfl rfl

theorem coordView_setDaily (api : PandasApi) (w : World) (i : Nat) (arg : DailyArg) : (w.setDaily api i arg).1.coordView = w.coordView := by
  unfold setDaily
  cases checkDaily arg with
  | error e => rfl
  | ok f =>
    have h1 := coordView_setStation w i { w.stations i with daily := some f } rfl rfl
    dsimp only
    cases hourlyIndex api f.index with
    | error e => exact h1
    | ok idx =>
      dsimp only
      set w1 := w.setStation i { w.stations i with daily := some f } with hw1
      have h2 : ({ w1.setFrame w1.nFrames (emptyDisagg idx) with nFrames := w1.nFrames + 1 } : World).coordView = w1.coordView := rfl
      set w2 : World := { w1.setFrame w1.nFrames (emptyDisagg idx) with nFrames := w1.nFrames + 1 } with hw2
      have h3 := coordView_setStation w2 i { w2.stations i with disagg := some (w2.nFrames - 1) } rfl rfl
      split
      · rw [coordView_calcSunTimes, h3, h2, h1]
      · exact h3.trans (h2.trans h1)

theorem coordView_radiation (api : PandasApi) (w : World) (i : Nat) (method : String) (pot : Option (Series (XF ℝ))) :
    (w.radiation api i method pot).1.coordView = w.coordView := by
  unfold radiation
  split
  · have h := coordView_calcSunTimes w i
    rcases hc : w.calcSunTimes i with ⟨w', e⟩
    rw [hc] at h
    cases e with
    | some e => exact h
    | none => exact (coordView_same (writeCol_same _ _ _ _)).trans h
  · exact coordView_same (writeCol_same _ _ _ _)

/-- the operations that assign no coordinates and no statistics object -/
def Neutral : Op → Prop
  | .newStation _ _ _ _ | .newStatistics _ _ _ | .copyStation _ | .setLon _ _ | .setLat _ _ | .setTz _ _ | .setStatistics _ _ => False
  | _ => True

theorem coordView_neutral (api : PandasApi) (w : World) (op : Op) (h : Neutral op) : (w.step api op).1.coordView = w.coordView := by
  cases op <;> try exact h.elim
  · exact coordView_setDaily _ _ _ _
  · exact coordView_calcSunTimes _ _
  · exact coordView_same (writeCol_same _ _ _ _)
  · exact coordView_same (writeCol_same _ _ _ _)
  · exact coordView_same (writeCol_same _ _ _ _)
  · exact coordView_same (writeCol_same _ _ _ _)
  · exact coordView_radiation _ _ _ _ _
  · rename_i o _ _ _ _ _
    unfold step coordView
    simp only [setStat_stations, setStat_stats, setStat_nStations, setStat_nStats]
    congr 2
    funext j
    by_cases hj : j = o
    · subst hj; simp [StatObj.coords]
    · simp [Function.update_of_ne hj]

/-- the invariant: references are valid, every station has its own statistics object and agrees with it -/
def CoordInv (v : (Nat → Coords × Nat) × (Nat → Coords) × Nat × Nat) : Prop :=
  (∀ i < v.2.2.1, (v.1 i).2 < v.2.2.2) ∧ (∀ i < v.2.2.1, ∀ j < v.2.2.1, i ≠ j → (v.1 i).2 ≠ (v.1 j).2) ∧
  ∀ i < v.2.2.1, v.2.1 (v.1 i).2 = (v.1 i).1

/-- the coordinate view with one station and one statistics object replaced -/
theorem inv_update {v : (Nat → Coords × Nat) × (Nat → Coords) × Nat × Nat} (hv : CoordInv v) {i o : Nat} {c : Coords} (ho : o < v.2.2.2)
    (hj : ∀ j < v.2.2.1, j ≠ i → (v.1 j).2 ≠ o) :
    CoordInv (Function.update v.1 i (c, o), Function.update v.2.1 o c, v.2.2.1, v.2.2.2) := by
  obtain ⟨h1, h2, h3⟩ := hv
  refine ⟨?_, ?_, ?_⟩
  · intro j hjn
    by_cases e : j = i
    · subst e; simpa using ho
    · simpa [Function.update_of_ne e] using h1 j hjn
  · intro j hjn k hkn hne
    dsimp only
    by_cases e : j = i
    · subst e
      simp only [Function.update_self, Function.update_of_ne hne.symm]
      exact fun h => hj k hkn hne.symm h.symm
    · by_cases e' : k = i
      · subst e'
        simp only [Function.update_self, Function.update_of_ne e]
        exact hj j hjn e
      · simp only [Function.update_of_ne e, Function.update_of_ne e']
        exact h2 j hjn k hkn hne
  · intro j hjn
    dsimp only
    by_cases e : j = i
    · subst e; simp
    · simp only [Function.update_of_ne e]
      rw [Function.update_of_ne (hj j hjn e)]
      exact h3 j hjn

theorem view_assign (w : World) (i : Nat) (s : StationObj) (o : Nat) (t : StatObj) :
    ((w.setStation i s).setStat o t).coordView =
      (Function.update w.coordView.1 i (s.coords, s.stat), Function.update w.coordView.2.1 o t.coords, w.coordView.2.2.1, w.coordView.2.2.2) := by
  unfold coordView
  simp only [setStation_stations, setStation_stats, setStation_nStations, setStation_nStats, setStat_stations, setStat_stats, setStat_nStations,
    setStat_nStats]
  congr 1
  · funext j
    by_cases hj : j = i
    · subst hj; simp
    · simp [Function.update_of_ne hj]
  · congr 1
    funext j
    by_cases hj : j = o
    · subst hj; simp
    · simp [Function.update_of_ne hj]

theorem inv_assign {w : World} (hw : CoordInv w.coordView) {i : Nat} (hi : i < w.nStations) {s : StationObj} {t : StatObj}
    (hs : s.stat = (w.stations i).stat) (ht : t.coords = s.coords) :
    CoordInv ((w.setStation i s).setStat (w.stations i).stat t).coordView := by
  rw [view_assign, ht, hs]
  exact inv_update hw (hw.1 i hi) fun j hj hne => hw.2.1 j hj i hi hne

theorem inv_setLon {w : World} (hw : CoordInv w.coordView) {i : Nat} (hi : i < w.nStations) (x : Option ℝ) : CoordInv (w.setLon i x).coordView := by
  have h3 : (w.statOf i).coords = (w.stations i).coords := hw.2.2 i hi
  unfold setLon
  dsimp only
  simp only [setStation_stations, Function.update_self]
  refine inv_assign hw hi rfl ?_
  rw [show ((w.setStation i { w.stations i with lon := x }).statOf i) = w.statOf i by simp [statOf]]
  simp only [StatObj.coords, StationObj.coords, Prod.mk.injEq] at h3 ⊢
  exact ⟨trivial, h3.2.1, h3.2.2⟩

theorem inv_setLat {w : World} (hw : CoordInv w.coordView) {i : Nat} (hi : i < w.nStations) (x : Option ℝ) : CoordInv (w.setLat i x).coordView := by
  have h3 : (w.statOf i).coords = (w.stations i).coords := hw.2.2 i hi
  unfold setLat
  dsimp only
  simp only [setStation_stations, Function.update_self]
  refine inv_assign hw hi rfl ?_
  rw [show ((w.setStation i { w.stations i with lat := x }).statOf i) = w.statOf i by simp [statOf]]
  simp only [StatObj.coords, StationObj.coords, Prod.mk.injEq] at h3 ⊢
  exact ⟨h3.1, trivial, h3.2.2⟩

theorem inv_setTz {w : World} (hw : CoordInv w.coordView) {i : Nat} (hi : i < w.nStations) (x : Option ℝ) : CoordInv (w.setTz i x).coordView := by
  have h3 : (w.statOf i).coords = (w.stations i).coords := hw.2.2 i hi
  unfold setTz
  dsimp only
  simp only [setStation_stations, Function.update_self]
  refine inv_assign hw hi rfl ?_
  rw [show ((w.setStation i { w.stations i with tz := x }).statOf i) = w.statOf i by simp [statOf]]
  simp only [StatObj.coords, StationObj.coords, Prod.mk.injEq] at h3 ⊢
  exact ⟨h3.1, h3.2.1, trivial⟩

theorem inv_setStatistics {w : World} (hw : CoordInv w.coordView) {i o : Nat} (ho : o < w.nStats)
    (hj : ∀ j < w.nStations, j ≠ i → (w.stations j).stat ≠ o) : CoordInv (w.setStatistics i (some o)).1.coordView := by
  have : (w.setStatistics i (some o)).1 =
      (w.setStation i { w.stations i with stat := o }).setStat o { w.stats o with lon := (w.stations i).lon, lat := (w.stations i).lat, tz := (w.stations i).tz } := rfl
  rw [this, view_assign]
  exact inv_update hw ho hj

theorem inv_newStatistics {w : World} (hw : CoordInv w.coordView) (lon lat tz : Option ℝ) : CoordInv (w.newStatistics lon lat tz).1.coordView := by
  obtain ⟨h1, h2, h3⟩ := hw
  refine ⟨fun i hi => Nat.lt_succ_of_lt (h1 i hi), h2, fun i hi => ?_⟩
  have hne : (w.stations i).stat ≠ w.nStats := Nat.ne_of_lt (h1 i hi)
  show (Function.update w.stats w.nStats _ (w.stations i).stat).coords = _
  rw [Function.update_of_ne hne]
  exact h3 i hi

theorem inv_setStation {w : World} (hw : CoordInv w.coordView) {i : Nat} {s : StationObj} (h : s.coords = (w.stations i).coords)
    (h' : s.stat = (w.stations i).stat) : CoordInv (w.setStation i s).coordView := by
  rw [coordView_setStation w i s h h']; exact hw

/-- the station part of the constructor, before daily data -/
theorem inv_newStation {w : World} (hw : CoordInv w.coordView) (api : PandasApi) (lon lat tz : Option ℝ) (daily : Option DailyArg) :
    CoordInv (w.newStation api lon lat tz daily).1.coordView := by
  -- after creation and `self.statistics = …`
  have key : CoordInv ((({ w.setStation w.nStations {} with nStations := w.nStations + 1 } : World).newStatistics lon lat none).1.setStatistics
      w.nStations (some w.nStats)).1.coordView := by
    have hs : ((({ w.setStation w.nStations {} with nStations := w.nStations + 1 } : World).newStatistics lon lat none).1.setStatistics
        w.nStations (some w.nStats)).1.coordView =
        (Function.update w.coordView.1 w.nStations ((none, none, none), w.nStats), Function.update w.coordView.2.1 w.nStats (none, none, none),
          w.nStations + 1, w.nStats + 1) := by
      unfold coordView setStatistics newStatistics
      simp only [setStation_stations, setStation_stats, setStat_stations, setStat_stats, setStation_nStations, setStation_nStats,
        setStat_nStations, setStat_nStats, Function.update_self, Function.update_idem]
      congr 1
      · funext j
        by_cases hj : j = w.nStations
        · subst hj; simp [StationObj.coords]
        · simp [Function.update_of_ne hj]
      · congr 1
        funext j
        by_cases hj : j = w.nStats
        · subst hj; simp [StatObj.coords]
        · simp [Function.update_of_ne hj]
    rw [hs]
    obtain ⟨h1, h2, h3⟩ := hw
    refine ⟨?_, ?_, ?_⟩
    · intro j hj
      dsimp only at hj ⊢
      by_cases e : j = w.nStations
      · subst e; simp
      · rw [Function.update_of_ne e]
        exact Nat.lt_succ_of_lt (h1 j (show j < w.nStations by omega))
    · intro j hj k hk hne
      dsimp only at hj hk ⊢
      by_cases e : j = w.nStations
      · subst e
        rw [Function.update_self, Function.update_of_ne hne.symm]
        exact (Nat.ne_of_lt (h1 k (show k < w.nStations by omega))).symm
      · by_cases e' : k = w.nStations
        · subst e'
          rw [Function.update_self, Function.update_of_ne e]
          exact Nat.ne_of_lt (h1 j (show j < w.nStations by omega))
        · rw [Function.update_of_ne e, Function.update_of_ne e']
          exact h2 j (show j < w.nStations by omega) k (show k < w.nStations by omega) hne
    · intro j hj
      dsimp only at hj ⊢
      by_cases e : j = w.nStations
      · subst e; simp
      · have hne : (w.coordView.1 j).2 ≠ w.nStats := Nat.ne_of_lt (h1 j (show j < w.nStations by omega))
        rw [Function.update_of_ne e, Function.update_of_ne hne]
        exact h3 j (show j < w.nStations by omega)
  have hn : ∀ v : World, v = ((({ w.setStation w.nStations {} with nStations := w.nStations + 1 } : World).newStatistics lon lat none).1.setStatistics
      w.nStations (some w.nStats)).1 → w.nStations < v.nStations := by
    rintro v rfl; exact Nat.lt_succ_self _
  unfold newStation
  dsimp only
  set w1 := ((({ w.setStation w.nStations {} with nStations := w.nStations + 1 } : World).newStatistics lon lat none).1.setStatistics
      w.nStations (some w.nStats)).1 with hw1
  have hlt := hn w1 rfl
  have k2 := inv_setLon key hlt lon
  have k3 := inv_setLat (w := w1.setLon w.nStations lon) k2 hlt lat
  have k4 := inv_setTz (w := (w1.setLon w.nStations lon).setLat w.nStations lat) k3 hlt tz
  have k5 : CoordInv ((((w1.setLon w.nStations lon).setLat w.nStations lat).setTz w.nStations tz).setStation w.nStations
      { (((w1.setLon w.nStations lon).setLat w.nStations lat).setTz w.nStations tz).stations w.nStations with sun := none }).coordView :=
    inv_setStation k4 rfl rfl
  cases daily with
  | none => exact k5
  | some d =>
    have := coordView_setDaily api ((((w1.setLon w.nStations lon).setLat w.nStations lat).setTz w.nStations tz).setStation w.nStations
      { (((w1.setLon w.nStations lon).setLat w.nStations lat).setTz w.nStations tz).stations w.nStations with sun := none }) w.nStations d
    exact this ▸ k5

theorem inv_step {api : PandasApi} {w : World} (hw : CoordInv w.coordView) (op : Op) (he : w.Exists op) (hs : w.NoSharing op) :
    CoordInv (w.step api op).1.coordView := by
  by_cases hn : Neutral op
  · rw [coordView_neutral api w op hn]; exact hw
  cases op with
  | newStation lon lat tz d => exact inv_newStation hw api lon lat tz d
  | newStatistics lon lat tz => exact inv_newStatistics hw lon lat tz
  | copyStation i => exact hs.elim
  | setLon i x => obtain ⟨j, e, hj⟩ := he; cases e; exact inv_setLon hw hj x
  | setLat i x => obtain ⟨j, e, hj⟩ := he; cases e; exact inv_setLat hw hj x
  | setTz i x => obtain ⟨j, e, hj⟩ := he; cases e; exact inv_setTz hw hj x
  | setStatistics i o =>
    cases o with
    | none => exact hw
    | some o => exact inv_setStatistics hw he.2 hs
  | _ => exact absurd trivial hn

theorem inv_run {api : PandasApi} (ops : List Op) {w : World} (hw : CoordInv w.coordView) (h : Unshared api w ops) :
    CoordInv (w.run api ops).coordView := by
  induction ops generalizing w with
  | nil => exact hw
  | cons op ops ih => exact ih (inv_step hw op h.1 h.2.1) h.2.2

/-- C64.  Whatever a program does (creating stations and statistics objects, assigning longitude, latitude, time zone, statistics objects and daily data,
disaggregating, recalculating statistics, with any exceptions caught): as long as it never gives a station the statistics object of another station
and copies no station shallowly, every station agrees with its statistics object on longitude, latitude and time zone. -/
theorem C64_in_sync (api : PandasApi) (ops : List Op) (h : Unshared api {} ops) (i : Nat) (hi : i < (World.run api {} ops).nStations) :
    (World.run api {} ops).InSync i :=
  (inv_run ops (w := {}) ⟨fun _ h => absurd h (Nat.not_lt_zero _), fun _ h => absurd h (Nat.not_lt_zero _), fun _ h => absurd h (Nat.not_lt_zero _)⟩ h).2.2 i hi

/-- C64, the last assignment wins: in every state, shared objects or not, after assigning a coordinate to station `i` the statistics object of *every*
station `j` that shares it with `i` carries the assigned value in that coordinate, and the two other coordinates are as before; other
statistics objects do not change, and no station other than `i` changes. -/
theorem C64_last_assignment_wins (w : World) (i j : Nat) (x : Option ℝ) (hj : (w.stations j).stat = (w.stations i).stat) :
    ((w.setLon i x).statOf j).coords = (x, (w.statOf i).lat, (w.statOf i).tz) ∧
    ((w.setLat i x).statOf j).coords = ((w.statOf i).lon, x, (w.statOf i).tz) ∧
    ((w.setTz i x).statOf j).coords = ((w.statOf i).lon, (w.statOf i).lat, x) ∧
    (∀ o, o ≠ (w.stations i).stat →
      (w.setLon i x).stats o = w.stats o ∧ (w.setLat i x).stats o = w.stats o ∧ (w.setTz i x).stats o = w.stats o) ∧
    ∀ k, k ≠ i → (w.setLon i x).stations k = w.stations k ∧ (w.setLat i x).stations k = w.stations k ∧ (w.setTz i x).stations k = w.stations k := by
  have hst : ∀ (s : StationObj), s.stat = (w.stations i).stat → (Function.update w.stations i s j).stat = (w.stations i).stat := by
    intro s hs
    by_cases e : j = i
    · subst e; simpa using hs
    · rw [Function.update_of_ne e]; exact hj
  refine ⟨?_, ?_, ?_, fun o ho => ⟨?_, ?_, ?_⟩, fun k hk => ⟨?_, ?_, ?_⟩⟩
  · simp only [setLon, statOf, setStation_stations, setStat_stations, setStat_stats, setStation_stats, Function.update_self]
    rw [hst { w.stations i with lon := x } rfl, Function.update_self]; rfl
  · simp only [setLat, statOf, setStation_stations, setStat_stations, setStat_stats, setStation_stats, Function.update_self]
    rw [hst { w.stations i with lat := x } rfl, Function.update_self]; rfl
  · simp only [setTz, statOf, setStation_stations, setStat_stations, setStat_stats, setStation_stats, Function.update_self]
    rw [hst { w.stations i with tz := x } rfl, Function.update_self]; rfl
  all_goals simp [setLon, setLat, setTz, Function.update_of_ne, *]

/-- C64: assigning a statistics object writes the station's coordinates into it, whatever it contained; the fitted parameters stay.  An object of another
type is refused and nothing changes. -/
theorem C64_assign_statistics (w : World) (i o : Nat) :
    (w.setStatistics i (some o)).2 = none ∧
    (w.setStatistics i (some o)).1.InSync i ∧ ((w.setStatistics i (some o)).1.stations i).stat = o ∧
    ((w.setStatistics i (some o)).1.stations i).coords = (w.stations i).coords ∧
    ((w.setStatistics i (some o)).1.stats o).wind = (w.stats o).wind ∧ ((w.setStatistics i (some o)).1.stats o).precip = (w.stats o).precip ∧
    ((w.setStatistics i (some o)).1.stats o).hum = (w.stats o).hum ∧ ((w.setStatistics i (some o)).1.stats o).temp = (w.stats o).temp ∧
    ((w.setStatistics i (some o)).1.stats o).glob = (w.stats o).glob ∧
    w.setStatistics i none = (w, some .assertionError) := by
  unfold setStatistics InSync statOf
  simp [StatObj.coords, StationObj.coords]

/-- C64: without the restriction the agreement can be lost: two stations given the same statistics object, or a shallow copy -/
theorem C64_sharing_breaks_it (api : PandasApi) :
    (∃ ops, Executable api {} ops ∧ (∀ op ∈ ops, ∀ k, op ≠ .copyStation k) ∧ ∃ i < (World.run api {} ops).nStations, ¬ (World.run api {} ops).InSync i) ∧
    ∃ ops, Executable api {} ops ∧ (∀ op ∈ ops, ∀ k o, op ≠ .setStatistics k o) ∧
      ∃ i < (World.run api {} ops).nStations, ¬ (World.run api {} ops).InSync i := by
  refine ⟨⟨[.newStation (some 1) (some 2) (some 3) none, .newStation (some 4) (some 5) (some 6) none, .setStatistics 1 (some 0)], ?_, ?_, 0, ?_, ?_⟩,
    ⟨[.newStation (some 1) (some 2) (some 3) none, .copyStation 0, .setLon 1 (some 4)], ?_, ?_, 0, ?_, ?_⟩⟩
  · simp [Executable, Exists, step, newStation, newStatistics, setStatistics, setLon, setLat, setTz]
  · simp
  · simp [run, step, newStation, newStatistics, setStatistics, setLon, setLat, setTz]
  · simp [InSync, statOf, StatObj.coords, StationObj.coords, run, step, newStation, newStatistics, setStatistics, setLon, setLat, setTz, Function.update]
  · simp [Executable, Exists, step, newStation, newStatistics, setStatistics, setLon, setLat, setTz, copyStation, Op.station]
  · simp
  · simp [run, step, newStation, newStatistics, setStatistics, setLon, setLat, setTz, copyStation]
  · simp [InSync, statOf, StatObj.coords, StationObj.coords, run, step, newStation, newStatistics, setStatistics, setLon, setLat, setTz, copyStation,
      Function.update]

/-- a program that meets the hypotheses of `C64_in_sync`: a station, a new statistics object for it, and a change of longitude -/
example (api : PandasApi) : Unshared api {} [.newStation (some 1) (some 2) none none, .newStation none none none none, .newStatistics none none none,
    .setStatistics 0 (some 2), .setLon 0 (some 7), .setTz 1 (some 3)] := by
  simp [Unshared, Exists, NoSharing, step, newStation, newStatistics, setStatistics, setLon, setLat, setTz, Op.station, Function.update]
  intro j _ _
  split <;> simp

end World

end Melodist
