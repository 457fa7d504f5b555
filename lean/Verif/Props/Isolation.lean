import Verif.Lemmas.Isolation

/-!
# C104: stations do not influence each other
-/

set_option linter.unusedSectionVars false

namespace Melodist

namespace World

noncomputable section

/-! ## The frames of different stations are different objects -/

/-- the frames in use are below the counter, and no two stations share one -/
def FramesApart (w : World) : Prop :=
  (∀ i k, (w.stations i).disagg = some k → k < w.nFrames) ∧
  ∀ i j k, (w.stations i).disagg = some k → (w.stations j).disagg = some k → i = j

theorem framesApart_of {w w' : World} (hw : w.FramesApart) (h : ∀ i k, (w'.stations i).disagg = some k → (w.stations i).disagg = some k)
    (hn : w.nFrames ≤ w'.nFrames) : w'.FramesApart :=
  ⟨fun i k hk => lt_of_lt_of_le (hw.1 i k (h i k hk)) hn, fun i j k hi hj => hw.2 i j k (h i k hi) (h j k hj)⟩

theorem framesApart_set {w : World} (hw : w.FramesApart) {i : Nat} {s : StationObj} (hs : s.disagg = (w.stations i).disagg) :
    (w.setStation i s).FramesApart := by
  refine framesApart_of hw (fun j k h => ?_) (le_refl _)
  by_cases e : j = i
  · subst e
    rw [← hs]
    simpa using h
  · simpa [Function.update_of_ne e] using h

theorem framesApart_sun {w : World} (hw : w.FramesApart) (i : Nat) : (w.calcSunTimes i).1.FramesApart := by
  rcases calcSunTimes_inv w i with ⟨e, h⟩ | ⟨f, lon, lat, tz, _, _, _, _, h⟩ <;> rw [h]
  · exact hw
  · exact framesApart_set hw rfl

theorem framesApart_stored {w : World} (hw : w.FramesApart) (i : Nat) (f : Frame ℝ) (idx : List Time) : (w.stored i f idx).FramesApart := by
  have new : ((w.stored i f idx).stations i).disagg = some w.nFrames := by simp [stored]
  have old : ∀ j, j ≠ i → ((w.stored i f idx).stations j).disagg = (w.stations j).disagg := fun j hj => by simp [stored, Function.update_of_ne hj]
  have hn : (w.stored i f idx).nFrames = w.nFrames + 1 := rfl
  refine ⟨fun j k h => ?_, fun j j' k h h' => ?_⟩
  · rw [hn]
    by_cases e : j = i
    · subst e; rw [new] at h; cases h; omega
    · rw [old j e] at h; have := hw.1 j k h; omega
  · by_cases e : j = i
    · by_cases e' : j' = i
      · rw [e, e']
      · subst e; rw [new] at h; cases h
        rw [old j' e'] at h'
        exact absurd (hw.1 j' _ h') (lt_irrefl _)
    · by_cases e' : j' = i
      · subst e'; rw [new] at h'; cases h'
        rw [old j e] at h
        exact absurd (hw.1 j _ h) (lt_irrefl _)
      · rw [old j e] at h; rw [old j' e'] at h'
        exact hw.2 j j' k h h'

theorem framesApart_setDaily (api : PandasApi) {w : World} (hw : w.FramesApart) (i : Nat) (arg : DailyArg) : (w.setDaily api i arg).1.FramesApart := by
  rcases setDaily_inv api w i arg with ⟨e, _, hs⟩ | ⟨e, f, _, _, hs⟩ | ⟨f, idx, _, _, hs⟩ <;> rw [hs]
  · exact hw
  · exact framesApart_set hw rfl
  · have := framesApart_stored hw i f idx
    split
    · exact framesApart_sun this i
    · exact this

theorem framesApart_write {w : World} (hw : w.FramesApart) (i : Nat) (name : String) (v : Py WindResult) : (w.writeCol i name v).1.FramesApart := by
  have h := writeCol_same w i name v
  exact framesApart_of hw (fun j k hk => by rwa [h.stations] at hk) h.nFrames.ge

theorem framesApart_step (api : PandasApi) {w : World} (hw : w.FramesApart) (op : Op) (hc : ∀ i, op ≠ .copyStation i) :
    (w.step api op).1.FramesApart := by
  cases op with
  | newStation lon lat tz d =>
    obtain ⟨v, h1, _, h2, _, _, hn, _, _, hv⟩ := newStation_eq api w lon lat tz d
    have hvv : v.FramesApart := by
      refine framesApart_of hw (fun j k hk => ?_) hn.ge
      by_cases e : j = w.nStations
      · subst e; rw [h2] at hk; cases hk
      · rwa [h1 j e] at hk
    show (w.newStation api lon lat tz d).1.FramesApart
    rw [hv]
    cases d with
    | none => exact hvv
    | some d => exact framesApart_setDaily api hvv _ d
  | newStatistics lon lat tz => exact framesApart_of hw (fun _ _ h => h) (le_refl _)
  | copyStation i => exact absurd rfl (hc i)
  | setLon i x => exact framesApart_of (framesApart_set hw (i := i) (s := { w.stations i with lon := x }) rfl) (fun _ _ h => h) (le_refl _)
  | setLat i x => exact framesApart_of (framesApart_set hw (i := i) (s := { w.stations i with lat := x }) rfl) (fun _ _ h => h) (le_refl _)
  | setTz i x => exact framesApart_of (framesApart_set hw (i := i) (s := { w.stations i with tz := x }) rfl) (fun _ _ h => h) (le_refl _)
  | setStatistics i o =>
    cases o with
    | none => exact hw
    | some o => exact framesApart_of (framesApart_set hw (i := i) (s := { w.stations i with stat := o }) rfl) (fun _ _ h => h) (le_refl _)
  | setDaily i arg => exact framesApart_setDaily api hw i arg
  | calcSunTimes i => exact framesApart_sun hw i
  | wind i _ _ => exact framesApart_write hw i _ _
  | humidity i _ _ => exact framesApart_write hw i _ _
  | temperature i _ _ _ => exact framesApart_write hw i _ _
  | precipitation i _ _ _ _ _ => exact framesApart_write hw i _ _
  | radiation i m pot =>
    show (w.radiation api i m pot).1.FramesApart
    unfold radiation
    split
    · have h := framesApart_sun hw i
      rcases hc : w.calcSunTimes i with ⟨w', _ | e⟩
      · rw [hc] at h; exact framesApart_write h i _ _
      · rw [hc] at h; exact h
    · exact framesApart_write hw i _ _
  | setParams o a b c d e => exact framesApart_of hw (fun _ _ h => h) (le_refl _)

/-! ## Operations on other stations -/

/-- everything that matters for station `i`: what there is to see of it, its statistics object, the fitted parameters of all statistics objects, and
the addresses the next new objects get -/
structure Agree (i : Nat) (w w' : World) : Prop where
  nStations : w.nStations = w'.nStations
  nStats : w.nStats = w'.nStats
  params : ∀ o, (w.stats o).params = (w'.stats o).params
  view : i < w.nStations → w.view i = w'.view i
  stat : i < w.nStations → (w.stations i).stat = (w'.stations i).stat

theorem Agree.refl (i : Nat) (w : World) : Agree i w w := ⟨rfl, rfl, fun _ => rfl, fun _ => rfl, fun _ => rfl⟩

theorem Agree.trans {i : Nat} {a b c : World} (h : Agree i a b) (h' : Agree i b c) : Agree i a c :=
  ⟨h.nStations.trans h'.nStations, h.nStats.trans h'.nStats, fun o => (h.params o).trans (h'.params o),
    fun hi => (h.view hi).trans (h'.view (h.nStations ▸ hi)), fun hi => (h.stat hi).trans (h'.stat (h.nStations ▸ hi))⟩

/-- nothing but station `j` and frames not belonging to `i` changed -/
theorem agree_of {w w' : World} {i : Nat} (h1 : w'.stations i = w.stations i) (h2 : w'.nStations = w.nStations) (h3 : w'.stats = w.stats)
    (h4 : w'.nStats = w.nStats) (h5 : ∀ k, (w.stations i).disagg = some k → w'.frames k = w.frames k) : Agree i w' w := by
  refine ⟨h2, h4, fun o => by rw [h3], fun _ => ?_, fun _ => by rw [h1]⟩
  refine view_mk (by rw [h1]) (by rw [h1]) (by rw [h1]) (by unfold statOf; rw [h1, h3]) ?_
  rw [h1]
  cases e : (w.stations i).disagg with
  | none => rfl
  | some k => simp [h5 k e]

theorem agree_sun (w : World) {i j : Nat} (h : i ≠ j) : Agree i (w.calcSunTimes j).1 w := by
  rcases calcSunTimes_inv w j with ⟨e, hc⟩ | ⟨f, lon, lat, tz, _, _, _, _, hc⟩ <;> rw [hc]
  · exact Agree.refl i w
  · exact agree_of (by simp [Function.update_of_ne h]) rfl rfl rfl fun _ _ => rfl

theorem agree_setDaily (api : PandasApi) {w : World} (hw : w.FramesApart) {i j : Nat} (h : i ≠ j) (arg : DailyArg) :
    Agree i (w.setDaily api j arg).1 w := by
  rcases setDaily_inv api w j arg with ⟨e, _, hs⟩ | ⟨e, f, _, _, hs⟩ | ⟨f, idx, _, _, hs⟩ <;> rw [hs]
  · exact Agree.refl i w
  · exact agree_of (by simp [Function.update_of_ne h]) rfl rfl rfl fun _ _ => rfl
  · have hst : Agree i (w.stored j f idx) w :=
      agree_of (by simp [stored, Function.update_of_ne h]) rfl rfl rfl fun k hk => by
        have : k ≠ w.nFrames := (hw.1 i k hk).ne
        simp [stored, Function.update_of_ne this]
    split
    · exact (agree_sun _ h).trans hst
    · exact hst

theorem agree_coords {w : World} (hc : CoordInv w.coordView) {i j : Nat} (hi : i < w.nStations) (hj : j < w.nStations) (h : i ≠ j)
    (s : StationObj) (t : StatObj) (ht : t.params = (w.stats (w.stations j).stat).params) :
    Agree i ((w.setStation j s).setStat (w.stations j).stat t) w := by
  have hne : (w.stations i).stat ≠ (w.stations j).stat := hc.2.1 i hi j hj h
  refine ⟨rfl, rfl, fun o => ?_, fun _ => ?_, fun _ => by simp [Function.update_of_ne h]⟩
  · by_cases e : o = (w.stations j).stat
    · subst e; simpa using ht
    · simp [Function.update_of_ne e]
  · refine view_mk ?_ ?_ ?_ ?_ ?_ <;> simp [Function.update_of_ne h, statOf, Function.update_of_ne hne]

/-- an operation on another station changes nothing for station `i` -/
theorem agree_other (api : PandasApi) {w : World} (hw : w.FramesApart) (hc : CoordInv w.coordView) {op : Op} (he : w.Exists op) (hs : w.NoSharing op)
    {i j : Nat} (ho : op.station = some j) (hij : i ≠ j) : Agree i (w.step api op).1 w := by
  have dis : ∀ name, disaggTarget op = some (j, name) → Agree i (w.step api op).1 w := by
    intro name ht
    obtain ⟨h1, h2, h3, h4, _, _⟩ := C66_only_own_column api w op j name ht
    have hn : (w.step api op).1.nStats = w.nStats := by
      have hneu : Neutral op := by cases op <;> first | trivial | (simp [disaggTarget] at ht)
      have := coordView_neutral api w op hneu
      exact congrArg (fun v => v.2.2.2) this
    refine agree_of ?_ h2 h1 hn fun k hk => h4 k fun hk' => hij (hw.2 i j k hk hk')
    rcases h3 i with h | ⟨e, _⟩
    · exact h
    · exact absurd e hij
  cases op with
  | newStation lon lat tz d => cases ho
  | newStatistics lon lat tz => cases ho
  | setParams o a b c d e => cases ho
  | copyStation k => exact hs.elim
  | setLon k x =>
    cases ho
    obtain ⟨k, e, hk⟩ := he; cases e
    by_cases hi : i < w.nStations
    · have := agree_coords hc hi hk hij { w.stations j with lon := x } { w.statOf j with lon := x } rfl
      have hst : (w.setLon j x) = (w.setStation j { w.stations j with lon := x }).setStat (w.stations j).stat { w.statOf j with lon := x } := by
        simp [setLon, statOf]
      show Agree i (w.setLon j x) w
      rw [hst]; exact this
    · refine ⟨rfl, rfl, fun o => ?_, fun h => absurd h hi, fun h => absurd h hi⟩
      by_cases e : o = (w.stations j).stat
      · subst e; simp [step, setLon, statOf, StatObj.params]
      · simp [step, setLon, Function.update_of_ne e]
  | setLat k x =>
    cases ho
    obtain ⟨k, e, hk⟩ := he; cases e
    by_cases hi : i < w.nStations
    · have := agree_coords hc hi hk hij { w.stations j with lat := x } { w.statOf j with lat := x } rfl
      have hst : (w.setLat j x) = (w.setStation j { w.stations j with lat := x }).setStat (w.stations j).stat { w.statOf j with lat := x } := by
        simp [setLat, statOf]
      show Agree i (w.setLat j x) w
      rw [hst]; exact this
    · refine ⟨rfl, rfl, fun o => ?_, fun h => absurd h hi, fun h => absurd h hi⟩
      by_cases e : o = (w.stations j).stat
      · subst e; simp [step, setLat, statOf, StatObj.params]
      · simp [step, setLat, Function.update_of_ne e]
  | setTz k x =>
    cases ho
    obtain ⟨k, e, hk⟩ := he; cases e
    by_cases hi : i < w.nStations
    · have := agree_coords hc hi hk hij { w.stations j with tz := x } { w.statOf j with tz := x } rfl
      have hst : (w.setTz j x) = (w.setStation j { w.stations j with tz := x }).setStat (w.stations j).stat { w.statOf j with tz := x } := by
        simp [setTz, statOf]
      show Agree i (w.setTz j x) w
      rw [hst]; exact this
    · refine ⟨rfl, rfl, fun o => ?_, fun h => absurd h hi, fun h => absurd h hi⟩
      by_cases e : o = (w.stations j).stat
      · subst e; simp [step, setTz, statOf, StatObj.params]
      · simp [step, setTz, Function.update_of_ne e]
  | setStatistics k o =>
    cases ho
    cases o with
    | none => exact Agree.refl i w
    | some o =>
      refine ⟨rfl, rfl, fun o' => ?_, fun hi => ?_, fun hi => by simp [step, setStatistics, Function.update_of_ne hij]⟩
      · by_cases e : o' = o
        · subst e; simp [step, setStatistics, StatObj.params]
        · simp [step, setStatistics, Function.update_of_ne e]
      · have hi' : i < w.nStations := hi
        have hne : (w.stations i).stat ≠ o := hs i hi' hij
        refine view_mk ?_ ?_ ?_ ?_ ?_ <;> simp [step, setStatistics, Function.update_of_ne hij, statOf, Function.update_of_ne hne]
  | setDaily k arg => cases ho; exact agree_setDaily api hw hij arg
  | calcSunTimes k => cases ho; exact agree_sun w hij
  | wind k _ _ => cases ho; exact dis _ rfl
  | humidity k _ _ => cases ho; exact dis _ rfl
  | temperature k _ _ _ => cases ho; exact dis _ rfl
  | precipitation k _ _ _ _ _ => cases ho; exact dis _ rfl
  | radiation k _ _ => cases ho; exact dis _ rfl

/-! ## The station's own operations, and those on no station -/

theorem own_facts (api : PandasApi) {w : World} (op : Op) (hn : Neutral op) (hp : ∀ o a b c d e, op ≠ .setParams o a b c d e) :
    (w.step api op).1.nStations = w.nStations ∧ (w.step api op).1.nStats = w.nStats ∧ (w.step api op).1.stats = w.stats ∧
    ∀ i, ((w.step api op).1.stations i).stat = (w.stations i).stat := by
  have h := coordView_neutral api w op hn
  refine ⟨congrArg (fun v => v.2.2.1) h, congrArg (fun v => v.2.2.2) h, ?_, fun i => congrArg (fun v => (v.1 i).2) h⟩
  cases op with
  | setDaily k arg =>
    show (w.setDaily api k arg).1.stats = _
    rcases setDaily_inv api w k arg with ⟨e, _, hs⟩ | ⟨e, f, _, _, hs⟩ | ⟨f, idx, _, _, hs⟩ <;> rw [hs]
    · rfl
    · split
      · rcases calcSunTimes_inv (w.stored k f idx) k with ⟨e, hc⟩ | ⟨f, lon, lat, tz, _, _, _, _, hc⟩ <;> rw [hc] <;> rfl
      · rfl
  | calcSunTimes k =>
    show (w.calcSunTimes k).1.stats = _
    rcases calcSunTimes_inv w k with ⟨e, hc⟩ | ⟨f, lon, lat, tz, _, _, _, _, hc⟩ <;> rw [hc] <;> rfl
  | wind k a b => exact (C66_only_own_column api w (.wind k a b) k _ rfl).1
  | humidity k a b => exact (C66_only_own_column api w (.humidity k a b) k _ rfl).1
  | temperature k a b c => exact (C66_only_own_column api w (.temperature k a b c) k _ rfl).1
  | precipitation k a b c d e => exact (C66_only_own_column api w (.precipitation k a b c d e) k _ rfl).1
  | radiation k a b => exact (C66_only_own_column api w (.radiation k a b) k _ rfl).1
  | setParams o a b c d e => exact absurd rfl (hp o a b c d e)
  | _ => exact hn.elim

theorem statOf_params {w : World} {i : Nat} : (w.statOf i).params = (w.stats (w.stations i).stat).params := rfl

theorem newStation_agree (api : PandasApi) {w w' : World} {i : Nat} (h : Agree i w w') (hf : w.FramesApart) (hf' : w'.FramesApart)
    (hc : CoordInv w.coordView) (lon lat tz : Option ℝ) (d : Option DailyArg) :
    Agree i (w.newStation api lon lat tz d).1 (w'.newStation api lon lat tz d).1 ∧
      (w.newStation api lon lat tz d).2 = (w'.newStation api lon lat tz d).2 := by
  obtain ⟨v, a1, a2, a3, a4, a5, a6, a7, a8, a9⟩ := newStation_eq api w lon lat tz d
  obtain ⟨v', b1, b2, b3, b4, b5, b6, b7, b8, b9⟩ := newStation_eq api w' lon lat tz d
  rw [← h.nStations] at b1 b2 b3 b9
  rw [← h.nStats] at b3 b4 b7 b8
  have apart : ∀ {w v : World} {n : Nat}, w.FramesApart → (∀ j, j ≠ n → v.stations j = w.stations j) → (v.stations n).disagg = none →
      v.nFrames = w.nFrames → v.FramesApart := by
    intro w v n hw h1 h2 hn
    refine framesApart_of hw (fun j k hk => ?_) hn.ge
    by_cases e : j = n
    · subst e; rw [h2] at hk; cases hk
    · rwa [h1 j e] at hk
  have hv : v.FramesApart := apart hf a1 (by rw [a3]) a6
  have hv' : v'.FramesApart := apart hf' b1 (by rw [b3]) b6
  -- the new station looks the same
  have hnew : v.view w.nStations = v'.view w.nStations := by
    refine view_mk (by rw [a3, b3]) (by rw [a3, b3]) (by rw [a3, b3]) ?_ (by rw [a3, b3]; rfl)
    unfold statOf
    rw [a3, b3, a8, b8]
  -- so does station `i`
  have hag : Agree i v v' := by
    refine ⟨a2.trans b2.symm, a4.trans b4.symm, fun o => ?_, fun hi => ?_, fun hi => ?_⟩
    · by_cases e : o = w.nStats
      · subst e; rw [a8, b8]
      · rw [a7 o e, b7 o e]; exact h.params o
    · by_cases e : i = w.nStations
      · rw [e]; exact hnew
      · have hi' : i < w.nStations := by omega
        obtain ⟨h1, h2, h3, h4, h5, h6, h7⟩ := view_parts (h.view hi')
        have hs : (w.stations i).stat ≠ w.nStats := (hc.1 i hi').ne
        refine view_mk ?_ ?_ ?_ ?_ ?_
        · rw [a1 i e, b1 i e]; simp [StationObj.coords, h1, h2, h3]
        · rw [a1 i e, b1 i e, h4]
        · rw [a1 i e, b1 i e, h5]
        · unfold statOf at h6 ⊢
          rw [a1 i e, b1 i e, a7 _ hs, b7 _ (h.stat hi' ▸ hs), h6]
        · rw [a1 i e, b1 i e, a5, b5]
          rcases h7 with ⟨e, e'⟩ | ⟨k, k', e, e', hf⟩ <;> simp [*]
    · by_cases e : i = w.nStations
      · rw [e, a3, b3]
      · rw [a1 i e, b1 i e]; exact h.stat (by omega)
  rw [a9, b9]
  cases d with
  | none => exact ⟨hag, rfl⟩
  | some d =>
    dsimp only
    have hs := setDaily_view api hnew d
    refine ⟨?_, hs.2⟩
    by_cases e : i = w.nStations
    · obtain ⟨c1, c2, c3, c4⟩ := own_facts api (w := v) (.setDaily w.nStations d) trivial (by simp)
      obtain ⟨d1, d2, d3, d4⟩ := own_facts api (w := v') (.setDaily w.nStations d) trivial (by simp)
      exact ⟨c1.trans (hag.nStations.trans d1.symm), c2.trans (hag.nStats.trans d2.symm),
        fun o => by
          show (((v.step api (.setDaily w.nStations d)).1.stats o).params = ((v'.step api (.setDaily w.nStations d)).1.stats o).params)
          rw [c3, d3]; exact hag.params o,
        fun _ => by rw [e]; exact hs.1,
        fun _ => by
          rw [e]
          show ((v.step api (.setDaily w.nStations d)).1.stations _).stat = ((v'.step api (.setDaily w.nStations d)).1.stations _).stat
          rw [c4, d4, a3, b3]⟩
    · have p := agree_setDaily api hv (i := i) (j := w.nStations) e d
      have q := agree_setDaily api hv' (i := i) (j := w.nStations) e d
      have q' : Agree i v' (v'.setDaily api w.nStations d).1 :=
        ⟨q.nStations.symm, q.nStats.symm, fun o => (q.params o).symm, fun hi => (q.view (q.nStations ▸ hi)).symm, fun hi => (q.stat (q.nStations ▸ hi)).symm⟩
      exact (p.trans hag).trans q'

/-- operations on station `i` and operations on no station have the same effect on `i` in two heaps that agree on `i` -/
theorem agree_step (api : PandasApi) {w w' : World} {i : Nat} (h : Agree i w w') (hf : w.FramesApart) (hf' : w'.FramesApart)
    (hc : CoordInv w.coordView) {op : Op} (he : w.Exists op) (hs : w.NoSharing op) (ho : op.station = none ∨ op.station = some i) :
    Agree i (w.step api op).1 (w'.step api op).1 ∧ (w.step api op).2 = (w'.step api op).2 := by
  -- the operations that touch neither addresses nor statistics objects
  have neutral : Neutral op → (∀ o a b c d e, op ≠ .setParams o a b c d e) → SameFor i (w.step api op) (w'.step api op) →
      Agree i (w.step api op).1 (w'.step api op).1 ∧ (w.step api op).2 = (w'.step api op).2 := by
    intro hn hp hv
    obtain ⟨c1, c2, c3, c4⟩ := own_facts api (w := w) op hn hp
    obtain ⟨d1, d2, d3, d4⟩ := own_facts api (w := w') op hn hp
    exact ⟨⟨c1.trans (h.nStations.trans d1.symm), c2.trans (h.nStats.trans d2.symm), fun o => by rw [c3, d3]; exact h.params o, fun _ => hv.1,
      fun hi => by rw [c4, d4]; exact h.stat (c1 ▸ hi)⟩, hv.2⟩
  have coords : ∀ (t t' : World), i < w.nStations → t.view i = t'.view i → t.nStations = w.nStations → t'.nStations = w'.nStations →
      t.nStats = w.nStats → t'.nStats = w'.nStats → (t.stations i).stat = (w.stations i).stat → (t'.stations i).stat = (w'.stations i).stat →
      (∀ o, (t.stats o).params = (w.stats o).params) → (∀ o, (t'.stats o).params = (w'.stats o).params) → Agree i t t' := by
    intro t t' hi hv n1 n2 n3 n4 s1 s2 p1 p2
    exact ⟨n1.trans (h.nStations.trans n2.symm), n3.trans (h.nStats.trans n4.symm), fun o => (p1 o).trans ((h.params o).trans (p2 o).symm), fun _ => hv,
      fun _ => s1.trans ((h.stat hi).trans s2.symm)⟩
  have hpar : ∀ (v : World) (s : StationObj) (o : Nat) (t : StatObj) (j : Nat), t.params = (v.stats o).params →
      ∀ o', (((v.setStation j s).setStat o t).stats o').params = (v.stats o').params := by
    intro v s o t j ht o'
    by_cases e : o' = o
    · subst e; simpa using ht
    · simp [Function.update_of_ne e]
  cases op with
  | newStation lon lat tz d => exact newStation_agree api h hf hf' hc lon lat tz d
  | newStatistics lon lat tz =>
    refine ⟨⟨h.nStations, ?_, fun o => ?_, fun hi => ?_, fun hi => h.stat hi⟩, rfl⟩
    · show w.nStats + 1 = w'.nStats + 1
      rw [h.nStats]
    · show (Function.update w.stats w.nStats _ o).params = (Function.update w'.stats w'.nStats _ o).params
      rw [← h.nStats]
      by_cases e : o = w.nStats
      · subst e; simp
      · rw [Function.update_of_ne e, Function.update_of_ne e]; exact h.params o
    · have hi' : i < w.nStations := hi
      obtain ⟨h1, h2, h3, h4, h5, h6, h7⟩ := view_parts (h.view hi')
      have hne : (w.stations i).stat ≠ w.nStats := (hc.1 i hi').ne
      refine view_mk ?_ h4 h5 ?_ ?_
      · simp [step, newStatistics, StationObj.coords, h1, h2, h3]
      · show Function.update w.stats w.nStats _ (w.stations i).stat = Function.update w'.stats w'.nStats _ (w'.stations i).stat
        rw [Function.update_of_ne hne, Function.update_of_ne (by rw [← h.stat hi', ← h.nStats]; exact hne)]
        exact h6
      · have := h.view hi'
        unfold view at this
        exact (StationView.mk.injEq .. ▸ this).2.2.2.2
  | setParams o a b c d e =>
    refine ⟨⟨h.nStations, h.nStats, fun o' => ?_, fun hi => ?_, fun hi => h.stat hi⟩, rfl⟩
    · show (Function.update w.stats o _ o').params = (Function.update w'.stats o _ o').params
      by_cases eo : o' = o
      · subst eo; simp [StatObj.params]
      · rw [Function.update_of_ne eo, Function.update_of_ne eo]; exact h.params o'
    · have hi' : i < w.nStations := hi
      obtain ⟨h1, h2, h3, h4, h5, h6, h7⟩ := view_parts (h.view hi')
      refine view_mk ?_ h4 h5 ?_ ?_
      · simp [step, StationObj.coords, h1, h2, h3]
      · show Function.update w.stats o _ (w.stations i).stat = Function.update w'.stats o _ (w'.stations i).stat
        unfold statOf at h6
        rw [← h.stat hi'] at h6 ⊢
        by_cases eo : (w.stations i).stat = o
        · rw [eo] at h6 ⊢
          rw [Function.update_self, Function.update_self, h6]
        · rw [Function.update_of_ne eo, Function.update_of_ne eo]; exact h6
      · have := h.view hi'
        unfold view at this
        exact (StationView.mk.injEq .. ▸ this).2.2.2.2
  | copyStation k => exact hs.elim
  | setLon k x =>
    obtain rfl : k = i := by simpa [Op.station] using ho
    obtain ⟨j, e, hi⟩ := he; cases e
    have hst : ∀ v : World, (v.setLon k x) = (v.setStation k { v.stations k with lon := x }).setStat (v.stations k).stat { v.statOf k with lon := x } := by
      intro v; simp [setLon, statOf]
    refine ⟨coords _ _ hi (setCoords_view (h.view hi) x).1 rfl rfl rfl rfl ?_ ?_ ?_ ?_, rfl⟩
    · simp [step, setLon]
    · simp [step, setLon]
    · show ∀ o, ((w.setLon k x).stats o).params = _
      rw [hst]; exact hpar _ _ _ _ _ rfl
    · show ∀ o, ((w'.setLon k x).stats o).params = _
      rw [hst]; exact hpar _ _ _ _ _ rfl
  | setLat k x =>
    obtain rfl : k = i := by simpa [Op.station] using ho
    obtain ⟨j, e, hi⟩ := he; cases e
    have hst : ∀ v : World, (v.setLat k x) = (v.setStation k { v.stations k with lat := x }).setStat (v.stations k).stat { v.statOf k with lat := x } := by
      intro v; simp [setLat, statOf]
    refine ⟨coords _ _ hi (setCoords_view (h.view hi) x).2.1 rfl rfl rfl rfl ?_ ?_ ?_ ?_, rfl⟩
    · simp [step, setLat]
    · simp [step, setLat]
    · show ∀ o, ((w.setLat k x).stats o).params = _
      rw [hst]; exact hpar _ _ _ _ _ rfl
    · show ∀ o, ((w'.setLat k x).stats o).params = _
      rw [hst]; exact hpar _ _ _ _ _ rfl
  | setTz k x =>
    obtain rfl : k = i := by simpa [Op.station] using ho
    obtain ⟨j, e, hi⟩ := he; cases e
    have hst : ∀ v : World, (v.setTz k x) = (v.setStation k { v.stations k with tz := x }).setStat (v.stations k).stat { v.statOf k with tz := x } := by
      intro v; simp [setTz, statOf]
    refine ⟨coords _ _ hi (setCoords_view (h.view hi) x).2.2 rfl rfl rfl rfl ?_ ?_ ?_ ?_, rfl⟩
    · simp [step, setTz]
    · simp [step, setTz]
    · show ∀ o, ((w.setTz k x).stats o).params = _
      rw [hst]; exact hpar _ _ _ _ _ rfl
    · show ∀ o, ((w'.setTz k x).stats o).params = _
      rw [hst]; exact hpar _ _ _ _ _ rfl
  | setStatistics k o =>
    obtain rfl : k = i := by simpa [Op.station] using ho
    cases o with
    | none => exact ⟨h, rfl⟩
    | some o =>
      have hi : k < w.nStations := he.1
      obtain ⟨h1, h2, h3, h4, h5, h6, h7⟩ := view_parts (h.view hi)
      refine ⟨⟨h.nStations, h.nStats, fun o' => ?_, fun _ => ?_, fun _ => ?_⟩, rfl⟩
      · show (Function.update w.stats o _ o').params = (Function.update w'.stats o _ o').params
        by_cases eo : o' = o
        · subst eo
          rw [Function.update_self, Function.update_self]
          exact h.params o'
        · rw [Function.update_of_ne eo, Function.update_of_ne eo]; exact h.params o'
      · refine view_mk ?_ ?_ ?_ ?_ ?_
        · simp [step, setStatistics, StationObj.coords, h1, h2, h3]
        · simp [step, setStatistics, h4]
        · simp [step, setStatistics, h5]
        · apply StatObj.ext'
          · simp [step, setStatistics, statOf, StatObj.coords, h1, h2, h3]
          · have := h.params o
            simpa [step, setStatistics, statOf, StatObj.params] using this
        · rcases h7 with ⟨e, e'⟩ | ⟨k, k', e, e', hf⟩ <;> simp [step, setStatistics, *]
      · simp [step, setStatistics]
  | setDaily k arg =>
    obtain rfl : k = i := by simpa [Op.station] using ho
    obtain ⟨j, e, hi⟩ := he; cases e
    exact neutral trivial (by simp) (setDaily_view api (h.view hi) arg)
  | calcSunTimes k =>
    obtain rfl : k = i := by simpa [Op.station] using ho
    obtain ⟨j, e, hi⟩ := he; cases e
    exact neutral trivial (by simp) (calcSun_view (h.view hi))
  | wind k a b =>
    obtain rfl : k = i := by simpa [Op.station] using ho
    obtain ⟨j, e, hi⟩ := he; cases e
    exact neutral trivial (by simp) (wind_view api (h.view hi) a b)
  | humidity k a b =>
    obtain rfl : k = i := by simpa [Op.station] using ho
    obtain ⟨j, e, hi⟩ := he; cases e
    exact neutral trivial (by simp) (humidity_view api (h.view hi) a b)
  | temperature k a b c =>
    obtain rfl : k = i := by simpa [Op.station] using ho
    obtain ⟨j, e, hi⟩ := he; cases e
    exact neutral trivial (by simp) (temperature_view api (h.view hi) a b c)
  | precipitation k a b c d e' =>
    obtain rfl : k = i := by simpa [Op.station] using ho
    obtain ⟨j, e, hi⟩ := he; cases e
    exact neutral trivial (by simp) (precipitation_view api (h.view hi) a b c d e')
  | radiation k a b =>
    obtain rfl : k = i := by simpa [Op.station] using ho
    obtain ⟨j, e, hi⟩ := he; cases e
    exact neutral trivial (by simp) (radiation_view api (h.view hi) a b)

/-! ## C104 -/

/-- the statements of a program with the exception each of them raised -/
def trace (api : PandasApi) (w : World) : List Op → List (Op × Option PyErr)
  | [] => []
  | op :: ops => (op, (w.step api op).2) :: trace api (w.step api op).1 ops

/-- a statement that matters for station `i`: it creates an object, sets the parameters of a statistics object, or works on station `i` -/
def matters (i : Nat) (op : Op) : Bool := op.station = none ∨ op.station = some i

theorem isolated (api : PandasApi) (i : Nat) (ops : List Op) {w w' : World} (h : Agree i w w') (hf : w.FramesApart) (hf' : w'.FramesApart)
    (hc : CoordInv w.coordView) (hu : Unshared api w ops) :
    Agree i (w.run api ops) (w'.run api (ops.filter (matters i))) ∧
      (trace api w ops).filter (fun s => matters i s.1) = trace api w' (ops.filter (matters i)) := by
  induction ops generalizing w w' with
  | nil => exact ⟨h, rfl⟩
  | cons op ops ih =>
    obtain ⟨he, hs, hu⟩ := hu
    have hcopy : ∀ j, op ≠ .copyStation j := by rintro j rfl; exact hs
    have hc' := inv_step (api := api) hc op he hs
    have hf1 := framesApart_step api hf op hcopy
    by_cases hm : matters i op
    · have ho : op.station = none ∨ op.station = some i := by simpa [matters] using hm
      obtain ⟨h1, h2⟩ := agree_step api h hf hf' hc he hs ho
      obtain ⟨a, b⟩ := ih h1 hf1 (framesApart_step api hf' op hcopy) hc' hu
      rw [List.filter_cons_of_pos hm]
      refine ⟨a, ?_⟩
      unfold trace
      rw [List.filter_cons_of_pos (by exact hm), b, h2]
    · have ho : ∃ j, op.station = some j ∧ i ≠ j := by
        cases e : op.station with
        | none => simp [matters, e] at hm
        | some j => exact ⟨j, rfl, fun hij => hm (by simp [matters, e, hij])⟩
      obtain ⟨j, hj, hij⟩ := ho
      have h1 := agree_other api hf hc he hs hj hij
      obtain ⟨a, b⟩ := ih (h1.trans h) hf1 hf' hc' hu
      rw [List.filter_cons_of_neg hm]
      refine ⟨a, ?_⟩
      rw [trace, List.filter_cons_of_neg (by exact hm)]
      exact b

/-- C104.  Take any program that creates stations and statistics objects and works with them in any order, and that gives no statistics object to two
stations at a time.  Pick a station and delete from the program every statement that works on another station (every assignment to its attributes,
every one of its method calls).  What there is to see of the picked station at the end (coordinates, daily data, sun times, the content of the
statistics object and of the hourly frame) is the same, and every remaining statement raises the same exception or none as before. -/
theorem C104_isolated (api : PandasApi) (ops : List Op) (h : Unshared api {} ops) (i : Nat) (hi : i < (World.run api {} ops).nStations) :
    (World.run api {} ops).view i = (World.run api {} (ops.filter (matters i))).view i ∧
    (trace api {} ops).filter (fun s => matters i s.1) = trace api {} (ops.filter (matters i)) := by
  have f0 : FramesApart {} := ⟨fun _ _ h => (by cases h), fun _ _ _ h => (by cases h)⟩
  obtain ⟨a, b⟩ := isolated api i ops (Agree.refl i {}) f0 f0
    ⟨fun _ h => absurd h (Nat.not_lt_zero _), fun _ h => absurd h (Nat.not_lt_zero _), fun _ h => absurd h (Nat.not_lt_zero _)⟩ h
  exact ⟨a.view hi, b⟩

/-- C104: two programs that differ only in statements on other stations leave station `i` in the same condition -/
theorem C104_same (api : PandasApi) (ops ops' : List Op) (h : Unshared api {} ops) (h' : Unshared api {} ops') (i : Nat)
    (hi : i < (World.run api {} ops).nStations) (hi' : i < (World.run api {} ops').nStations) (he : ops.filter (matters i) = ops'.filter (matters i)) :
    (World.run api {} ops).view i = (World.run api {} ops').view i := by
  rw [(C104_isolated api ops h i hi).1, (C104_isolated api ops' h' i hi').1, he]

/-- C104: with a shared statistics object, or a shallow copy, it is not so: a statement on station 1 changes what there is to see of station 0 -/
theorem C104_sharing (api : PandasApi) :
    (∃ ops, Executable api {} ops ∧ (∀ op ∈ ops, ∀ k, op ≠ .copyStation k) ∧ 0 < (World.run api {} ops).nStations ∧
      (World.run api {} ops).view 0 ≠ (World.run api {} (ops.filter (matters 0))).view 0) ∧
    ∃ ops, Executable api {} ops ∧ (∀ op ∈ ops, ∀ k o, op ≠ .setStatistics k o) ∧ 0 < (World.run api {} ops).nStations ∧
      (World.run api {} ops).view 0 ≠ (World.run api {} (ops.filter (matters 0))).view 0 := by
  refine ⟨⟨[.newStation (some 1) (some 2) (some 3) none, .newStation (some 4) (some 5) (some 6) none, .setStatistics 1 (some 0)], ?_, ?_, ?_, ?_⟩,
    ⟨[.newStation (some 1) (some 2) (some 3) none, .copyStation 0, .setLon 1 (some 4)], ?_, ?_, ?_, ?_⟩⟩
  · simp [Executable, Exists, step, newStation, newStatistics, setStatistics, setLon, setLat, setTz]
  · simp
  · simp [run, step, newStation, newStatistics, setStatistics, setLon, setLat, setTz]
  · intro h
    have := congrArg (fun v => v.stats.coords) h
    simp [view, matters, Op.station, statOf, StatObj.coords, run, step, newStation, newStatistics, setStatistics, setLon, setLat, setTz,
      Function.update] at this
  · simp [Executable, Exists, step, newStation, newStatistics, setStatistics, setLon, setLat, setTz, copyStation, Op.station]
  · simp
  · simp [run, step, newStation, newStatistics, setStatistics, setLon, setLat, setTz, copyStation]
  · intro h
    have := congrArg (fun v => v.stats.coords) h
    simp [view, matters, Op.station, statOf, StatObj.coords, run, step, newStation, newStatistics, setStatistics, setLon, setLat, setTz, copyStation,
      Function.update] at this

/-- a program that meets the hypotheses, with statements on both stations -/
example (api : PandasApi) :
    let ops := [Op.newStation (some 1) (some 2) none none, .newStation none none none none, .setDaily 1 (.frame ⟨[0, DAY], []⟩ true true),
      .setLon 0 (some 7), .setTz 1 (some 3), .calcSunTimes 0]
    Unshared api {} ops ∧ 0 < (World.run api {} ops).nStations ∧ (ops.filter (matters 0)).length = 4 := by
  intro ops
  have hn : ∀ w : World, ∀ a, (w.setDaily api 1 a).1.nStations = w.nStations := fun w a => setDaily_count api w 1 a
  refine ⟨?_, ?_, ?_⟩
  · simp only [ops, Unshared, Exists, NoSharing, Op.station, step, true_and, and_true, Option.some.injEq, exists_eq_left']
    simp [hn, newStation, newStatistics, setStatistics, setLon, setLat, setTz]
  · simp only [ops, run, step]
    rw [show ∀ w : World, (w.calcSunTimes 0).1.nStations = w.nStations from fun w => by
      rcases calcSunTimes_inv w 0 with ⟨e, hc⟩ | ⟨f, lon, lat, tz, _, _, _, _, hc⟩ <;> rw [hc] <;> rfl]
    simp [hn, newStation, newStatistics, setStatistics, setLon, setLat, setTz]
  · simp [ops, matters, Op.station]

end

end World

end Melodist
