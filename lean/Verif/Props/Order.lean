import Verif.Props.Isolation

/-!
# C105: the order of the disaggregation calls
-/

set_option linter.unusedSectionVars false

namespace Melodist

namespace World

noncomputable section

/-! ## Columns are written independently -/

theorem replaceCol_comm (f : Frame ℝ) {a b : String} (hab : a ≠ b) (va vb : List (XF ℝ)) :
    replaceCol (replaceCol f a va) b vb = replaceCol (replaceCol f b vb) a va := by
  unfold replaceCol
  simp only [List.map_map]
  congr 1
  apply List.map_congr_left
  intro c _
  by_cases h1 : c.1 = a
  · have : ¬ (a = b) := hab
    simp [h1, this]
  · by_cases h2 : c.1 = b
    · have : ¬ (b = a) := fun e => hab e.symm
      simp [h2, this]
    · simp [h1, h2]

theorem replaceCol_twice (f : Frame ℝ) (a : String) (v : List (XF ℝ)) : replaceCol (replaceCol f a v) a v = replaceCol f a v := by
  unfold replaceCol
  simp only [List.map_map]
  congr 1
  apply List.map_congr_left
  intro c _
  by_cases h1 : c.1 = a <;> simp [h1]

theorem writeCol_comm (w : World) (i : Nat) {a b : String} (hab : a ≠ b) (va vb : Py WindResult) :
    ((w.writeCol i a va).1.writeCol i b vb).1 = ((w.writeCol i b vb).1.writeCol i a va).1 ∧
    ((w.writeCol i a va).1.writeCol i b vb).2 = (w.writeCol i b vb).2 := by
  have key : ∀ (w : World) a b va vb, a ≠ b → ((w.writeCol i a va).1.writeCol i b vb).2 = (w.writeCol i b vb).2 := by
    intro w a b va vb hab
    rcases writeCol_inv w i a va with ⟨e, h⟩ | ⟨k, r, vals, hk, _, _, h⟩ <;> rw [h]
    unfold writeCol
    cases vb with
    | error e => rfl
    | ok r' =>
      dsimp only
      simp only [setFrame_stations, hk, setFrame_frames, Function.update_self]
      rw [show (replaceCol (w.frames k) a vals).index = (w.frames k).index from rfl]
      cases columnValues (w.frames k).index r' <;> rfl
  refine ⟨?_, key w a b va vb hab⟩
  rcases writeCol_inv w i a va with ⟨e, h⟩ | ⟨k, r, vals, hk, hr, hv, h⟩
  · have h2 := key w b a vb va (Ne.symm hab)
    rw [h] at h2 ⊢
    rcases writeCol_inv (w.writeCol i b vb).1 i a va with ⟨e', h'⟩ | ⟨_, _, _, _, _, _, h'⟩
    · rw [h']
    · rw [h'] at h2; cases h2
  · rcases writeCol_inv w i b vb with ⟨e, h'⟩ | ⟨k', r', vals', hk', hr', hv', h'⟩
    · have h2 := key w a b va vb hab
      rw [h'] at h2 ⊢
      rcases writeCol_inv (w.writeCol i a va).1 i b vb with ⟨e', h''⟩ | ⟨_, _, _, _, _, _, h''⟩
      · rw [h'']
      · rw [h''] at h2; cases h2
    · obtain rfl : k = k' := by rw [hk] at hk'; simpa using hk'
      rw [h, h']
      subst hr hr'
      unfold writeCol
      dsimp only
      simp only [setFrame_stations, hk, setFrame_frames, Function.update_self]
      rw [show (replaceCol (w.frames k) a vals).index = (w.frames k).index from rfl,
        show (replaceCol (w.frames k) b vals').index = (w.frames k).index from rfl, hv, hv']
      dsimp only
      unfold setFrame
      dsimp only
      rw [Function.update_idem, Function.update_idem, replaceCol_comm _ hab]

/-! ## What the values depend on -/

/-- the value a disaggregation method computes once the sun times are there -/
def calcValue (api : PandasApi) (w : World) : Op → Py WindResult
  | .wind i draw method => do
    let daily ← w.dailyAttr i "wind"
    let s := (w.statOf i).wind
    disaggregateWind api draw daily method s.a s.b s.tShift
  | .humidity i method preserve => do
    let temp ← w.disaggAttr i "temp"
    let s := (w.statOf i).hum
    match (w.stations i).daily with
    | none => .error .attributeError
    | some f => do .ok (.series (← disaggregateHumidity api f method (some temp) s.a0 s.a1 s.kr s.table preserve))
  | .temperature i method minMaxTime modNight =>
    match (w.stations i).daily with
    | none =>
      if method = "sine_min_max" ∨ method = "sine_mean" ∨ method = "sine" ∨ method = "mean_course_min_max" ∨ method = "mean_course_mean" then
        .error .attributeError
      else .error .valueError
    | some f => do
      let s := (w.statOf i).temp
      .ok (.series (← disaggregateTemperature api f method minMaxTime modNight s.maxDelta s.course (w.stations i).sun))
  | .precipitation i rnd method zerodiv shift master => do .ok (.series (← w.precipSeries api i rnd method zerodiv shift master))
  | .radiation i method pot => do
    let pot ← w.potRadArg i method pot
    let s := (w.statOf i).glob
    match (w.stations i).daily with
    | none => .error .attributeError
    | some f => do
      .ok (.series (← disaggregateRadiation api f (w.stations i).sun pot method (.monthly s.angA s.angB) (.monthly s.bcA s.bcC) s.course))
  | _ => .error .valueError

/-- the disaggregation can do without computing sun times -/
def SunReady (w : World) (i : Nat) (name : String) : Prop := name ≠ "glob" ∨ (w.stations i).sun ≠ none

theorem step_write (api : PandasApi) (w : World) {op : Op} {i : Nat} {name : String} (h : disaggTarget op = some (i, name)) (hs : SunReady w i name) :
    w.step api op = w.writeCol i name (calcValue api w op) := by
  cases op with
  | wind i' _ _ => cases h; rfl
  | humidity i' _ _ => cases h; rfl
  | temperature i' _ _ _ => cases h; rfl
  | precipitation i' _ _ _ _ _ => cases h; rfl
  | radiation i' m pot =>
    cases h
    have hs : ¬ (w.stations i).sun.isNone := by
      rcases hs with hs | hs
      · exact absurd rfl hs
      · simpa using hs
    show w.radiation api i m pot = _
    unfold radiation
    rw [if_neg hs]
    rfl
  | _ => cases h

/-- the computed value depends on the station, its statistics object and the index of its frame, and for humidity on the column of temperatures -/
theorem calcValue_congr (api : PandasApi) {w w' : World} {op : Op} {i : Nat} {name : String} (h : disaggTarget op = some (i, name))
    (h1 : w'.stations = w.stations) (h2 : w'.stats = w.stats) (h3 : ∀ k, (w'.frames k).index = (w.frames k).index)
    (h4 : name = "hum" → ∀ k, (w'.frames k).col? "temp" = (w.frames k).col? "temp") : calcValue api w' op = calcValue api w op := by
  have hstat : ∀ i, w'.statOf i = w.statOf i := fun i => by unfold statOf; rw [h1, h2]
  cases op with
  | wind i' _ _ => cases h; simp only [calcValue, dailyAttr, hstat, h1]
  | humidity i' _ _ =>
    cases h
    have : w'.disaggAttr i "temp" = w.disaggAttr i "temp" := by
      unfold disaggAttr
      rw [h1]
      cases (w.stations i).disagg with
      | none => rfl
      | some k => simp only [Frame.attr]; rw [h4 rfl k]
    simp only [calcValue, this, hstat, h1]
  | temperature i' _ _ _ => cases h; simp only [calcValue, hstat, h1]
  | precipitation i' _ _ _ _ _ =>
    cases h
    simp only [calcValue, precipSeries, dailyAttr, hstat, h1, h3]
  | radiation i' m pot =>
    cases h
    simp only [calcValue, potRadArg, hstat, h1, h3]
  | _ => cases h

theorem calcValue_write (api : PandasApi) (w : World) {op : Op} {i : Nat} {name : String} (h : disaggTarget op = some (i, name)) {b : String} (j : Nat)
    (v : Py WindResult) (hb : name = "hum" → b ≠ "temp") : calcValue api (w.writeCol j b v).1 op = calcValue api w op := by
  have hs := writeCol_same w j b v
  have hf := writeCol_frames w j b v
  refine calcValue_congr api h hs.stations hs.stats (fun k => ?_) fun hn k => ?_
  · by_cases hk : (w.stations j).disagg = some k
    · exact (hf.2.1 k hk).1
    · rw [hf.1 k hk]
  · by_cases hk : (w.stations j).disagg = some k
    · exact (hf.2.1 k hk).2.2 _ (Ne.symm (hb hn))
    · rw [hf.1 k hk]

/-- the calls for columns `a` and `b` may be exchanged: different columns, and not temperature and humidity -/
def Independent (a b : String) : Prop := a ≠ b ∧ ¬ (a = "temp" ∧ b = "hum") ∧ ¬ (a = "hum" ∧ b = "temp")

/-- C105: two neighbouring disaggregation calls on a station may be exchanged, unless they are for the same column, or one is
`disaggregate_temperature` and the other `disaggregate_humidity`, or one is `disaggregate_radiation` and the station has no sun times: all objects are
the same afterwards, and each call raises the same. -/
theorem C105_exchange (api : PandasApi) (w : World) (op op' : Op) (i : Nat) (a b : String) (h : disaggTarget op = some (i, a))
    (h' : disaggTarget op' = some (i, b)) (hab : Independent a b) (ha : SunReady w i a) (hb : SunReady w i b) :
    ((w.step api op).1.step api op').1 = ((w.step api op').1.step api op).1 ∧
    ((w.step api op).1.step api op').2 = (w.step api op').2 ∧ ((w.step api op').1.step api op).2 = (w.step api op).2 := by
  obtain ⟨hne, h1, h2⟩ := hab
  have s1 := step_write api w h ha
  have s2 := step_write api w h' hb
  have t1 : SunReady (w.step api op).1 i b := by unfold SunReady at hb ⊢; rw [s1, (writeCol_same _ _ _ _).stations]; exact hb
  have t2 : SunReady (w.step api op').1 i a := by unfold SunReady at ha ⊢; rw [s2, (writeCol_same _ _ _ _).stations]; exact ha
  have s3 := step_write api (w.step api op).1 h' t1
  have s4 := step_write api (w.step api op').1 h t2
  have v3 : calcValue api (w.step api op).1 op' = calcValue api w op' := by
    rw [s1]; exact calcValue_write api w h' i _ fun e e' => h1 ⟨e', e⟩
  have v4 : calcValue api (w.step api op').1 op = calcValue api w op := by
    rw [s2]; exact calcValue_write api w h i _ fun e e' => h2 ⟨e, e'⟩
  rw [s3, s4, v3, v4, s1, s2]
  have c := writeCol_comm w i hne (calcValue api w op) (calcValue api w op')
  have c' := writeCol_comm w i (Ne.symm hne) (calcValue api w op') (calcValue api w op)
  exact ⟨c.1, c.2, c'.2⟩

/-- repeating a write -/
theorem writeCol_twice (w : World) (i : Nat) (a : String) (v : Py WindResult) : (w.writeCol i a v).1.writeCol i a v = w.writeCol i a v := by
  rcases writeCol_inv w i a v with ⟨e, h⟩ | ⟨k, r, vals, hk, hr, hv, h⟩
  · rw [h]; exact h
  · rw [h]
    subst hr
    unfold writeCol
    dsimp only
    simp only [setFrame_stations, hk, setFrame_frames, Function.update_self]
    rw [show (replaceCol (w.frames k) a vals).index = (w.frames k).index from rfl, hv]
    dsimp only
    unfold setFrame
    dsimp only
    rw [Function.update_idem, replaceCol_twice]

/-- C105: repeating a disaggregation call with the same arguments and the same random numbers changes nothing, and raises the same -/
theorem C105_repeat (api : PandasApi) (w : World) (op : Op) (i : Nat) (a : String) (h : disaggTarget op = some (i, a)) :
    (w.step api op).1.step api op = w.step api op := by
  have ready : ∀ w : World, SunReady w i a → (w.step api op).1.step api op = w.step api op := by
    intro w hs
    have s1 := step_write api w h hs
    have hs' : SunReady (w.step api op).1 i a := by
      unfold SunReady at hs ⊢
      rw [s1, (writeCol_same _ _ _ _).stations]; exact hs
    have s2 := step_write api (w.step api op).1 h hs'
    have v2 : calcValue api (w.step api op).1 op = calcValue api w op := by
      rw [s1]; exact calcValue_write api w h i _ fun e e' => absurd (e.symm.trans e') (by decide)
    rw [s2, v2, s1]
    exact writeCol_twice w i a _
  by_cases hs : SunReady w i a
  · exact ready w hs
  · obtain ⟨ha, hsun⟩ : a = "glob" ∧ (w.stations i).sun = none := by
      unfold SunReady at hs; push_neg at hs; exact hs
    subst ha
    cases op with
    | radiation i' m pot =>
      cases h
      have hst : w.step api (.radiation i m pot) = match w.calcSunTimes i with
          | (w, some e) => (w, some e)
          | (w, none) => w.radiationBody api i m pot := by
        show w.radiation api i m pot = _
        unfold radiation
        rw [if_pos (by rw [hsun]; rfl)]
        rcases w.calcSunTimes i with ⟨a, _ | b⟩ <;> rfl
      rcases calcSunTimes_inv w i with ⟨e, hc⟩ | ⟨f, lon, lat, tz, _, _, _, _, hc⟩
      · rw [hc] at hst
        rw [hst]
        exact hst
      · rw [hc] at hst
        dsimp only at hst
        set w1 := w.setStation i { w.stations i with sun := some (getSunTimes f.index lon lat tz) } with hw1
        have hr : SunReady w1 i "glob" := .inr (by simp [hw1])
        have e1 : w1.step api (.radiation i m pot) = w1.radiationBody api i m pot := step_write api w1 rfl hr
        rw [hst, ← e1]
        exact ready w1 hr
    | _ => simp [disaggTarget] at h

/-! ## Whole sequences of calls -/

/-- the column of a disaggregation call -/
def column (op : Op) : String := ((disaggTarget op).map Prod.snd).getD ""

/-- `ops` are disaggregation calls on station `i`, at most one for each column -/
def OncePerColumn (i : Nat) (ops : List Op) : Prop := (∀ op ∈ ops, ∃ a, disaggTarget op = some (i, a)) ∧ (ops.map column).Nodup

/-- the humidity call, if any, does not come before the temperature call -/
def TempFirst (ops : List Op) : Prop := ops.Pairwise fun x y => ¬ (column x = "hum" ∧ column y = "temp")

theorem column_eq {op : Op} {i : Nat} {a : String} (h : disaggTarget op = some (i, a)) : column op = a := by unfold column; rw [h]; rfl

theorem step_sun (api : PandasApi) (w : World) {op : Op} {i : Nat} {a : String} (h : disaggTarget op = some (i, a)) (hs : SunReady w i a) {b : String}
    (hb : SunReady w i b) : SunReady (w.step api op).1 i b := by
  unfold SunReady at hb ⊢
  rw [step_write api w h hs, (writeCol_same _ _ _ _).stations]; exact hb

/-- a call that may be exchanged with all the following ones may be made last -/
theorem to_end (api : PandasApi) (i : Nat) (x : Op) (hx : ∃ a, disaggTarget x = some (i, a)) (l : List Op)
    (hl : ∀ op ∈ l, ∃ b, disaggTarget op = some (i, b)) (hi : ∀ op ∈ l, Independent (column x) (column op)) (w : World)
    (hs : ∀ op ∈ x :: l, SunReady w i (column op)) :
    w.run api (x :: l) = w.run api (l ++ [x]) ∧ (trace api w (x :: l)).Perm (trace api w (l ++ [x])) := by
  induction l generalizing w with
  | nil => exact ⟨rfl, List.Perm.refl _⟩
  | cons y l ih =>
    obtain ⟨a, ha⟩ := hx
    obtain ⟨b, hb⟩ := hl y (by simp)
    have hin := hi y (by simp)
    rw [column_eq ha, column_eq hb] at hin
    have ra : SunReady w i a := column_eq ha ▸ hs x (by simp)
    have rb : SunReady w i b := column_eq hb ▸ hs y (by simp)
    obtain ⟨c1, c2, c3⟩ := C105_exchange api w x y i a b ha hb hin ra rb
    obtain ⟨d1, d2⟩ := ih (fun op h => hl op (by simp [h])) (fun op h => hi op (by simp [h])) (w.step api y).1
      fun op h => step_sun api w hb rb (hs op (by rcases List.mem_cons.1 h with rfl | h <;> simp [*]))
    constructor
    · show World.run api ((w.step api x).1.step api y).1 l = World.run api (w.step api y).1 (l ++ [x])
      rw [← d1, c1]; rfl
    · show ((x, (w.step api x).2) :: (y, ((w.step api x).1.step api y).2) :: trace api ((w.step api x).1.step api y).1 l).Perm
        ((y, (w.step api y).2) :: trace api (w.step api y).1 (l ++ [x]))
      rw [c2, c1]
      refine (List.Perm.swap _ _ _).trans (List.Perm.cons _ ?_)
      rw [← c3]
      exact d2

theorem trace_append (api : PandasApi) (w : World) (a b : List Op) : trace api w (a ++ b) = trace api w a ++ trace api (w.run api a) b := by
  induction a generalizing w with
  | nil => rfl
  | cons x a ih => show _ :: trace api _ (a ++ b) = _ :: (_ ++ _); rw [ih]; rfl

/-- calls that may all be exchanged may be made in any order -/
theorem any_order (api : PandasApi) (i : Nat) {l l' : List Op} (hp : l.Perm l') (hl : ∀ op ∈ l, ∃ b, disaggTarget op = some (i, b))
    (hi : l.Pairwise fun x y => Independent (column x) (column y)) (w : World) (hs : ∀ op ∈ l, SunReady w i (column op)) :
    w.run api l = w.run api l' ∧ (trace api w l).Perm (trace api w l') := by
  induction hp generalizing w with
  | nil => exact ⟨rfl, List.Perm.refl _⟩
  | cons x _ ih =>
    obtain ⟨a, ha⟩ := hl x (by simp)
    obtain ⟨p, q⟩ := ih (fun op h => hl op (by simp [h])) (List.pairwise_cons.1 hi).2 (w.step api x).1
      fun op h => step_sun api w ha (column_eq ha ▸ hs x (by simp)) (hs op (by simp [h]))
    exact ⟨p, List.Perm.cons _ q⟩
  | swap x y l =>
    obtain ⟨a, ha⟩ := hl x (by simp)
    obtain ⟨b, hb⟩ := hl y (by simp)
    have hin := (List.pairwise_cons.1 hi).1 x (by simp)
    rw [column_eq ha, column_eq hb] at hin
    obtain ⟨c1, c2, c3⟩ := C105_exchange api w y x i b a hb ha hin (column_eq hb ▸ hs y (by simp)) (column_eq ha ▸ hs x (by simp))
    constructor
    · show World.run api ((w.step api y).1.step api x).1 l = World.run api ((w.step api x).1.step api y).1 l
      rw [c1]
    · show ((y, (w.step api y).2) :: (x, ((w.step api y).1.step api x).2) :: trace api ((w.step api y).1.step api x).1 l).Perm
        ((x, (w.step api x).2) :: (y, ((w.step api x).1.step api y).2) :: trace api ((w.step api x).1.step api y).1 l)
      rw [c2, c3, c1]
      exact List.Perm.swap _ _ _
  | trans hp _ ih1 ih2 =>
    obtain ⟨a, b⟩ := ih1 hl hi w hs
    have sym : ∀ {x y : Op}, Independent (column x) (column y) → Independent (column y) (column x) :=
      fun h => ⟨h.1.symm, fun e => h.2.2 ⟨e.2, e.1⟩, fun e => h.2.1 ⟨e.2, e.1⟩⟩
    obtain ⟨c, d⟩ := ih2 (fun op h => hl op (hp.mem_iff.2 h)) (hi.perm hp sym) w fun op h => hs op (hp.mem_iff.2 h)
    exact ⟨a.trans c, b.trans d⟩

/-- the humidity call moves to the end -/
theorem hum_last (api : PandasApi) (i : Nat) (ops : List Op) (h : OncePerColumn i ops) (ht : TempFirst ops) (w : World)
    (hs : ∀ op ∈ ops, SunReady w i (column op)) :
    ∃ l m, ops.Perm (l ++ m) ∧ (∀ op ∈ l, column op ≠ "hum") ∧ l = ops.filter (fun op => column op ≠ "hum") ∧
      m = ops.filter (fun op => column op = "hum") ∧
      w.run api ops = w.run api (l ++ m) ∧ (trace api w ops).Perm (trace api w (l ++ m)) := by
  refine ⟨_, _, ?_, ?_, rfl, rfl, ?_⟩
  · have := List.filter_append_perm (fun op => decide (column op ≠ "hum")) ops
    simpa using this.symm
  · intro op hop; simpa using (List.mem_filter.1 hop).2
  · induction ops generalizing w with
    | nil => exact ⟨rfl, List.Perm.refl _⟩
    | cons x ops ih =>
      obtain ⟨h1, h2⟩ := h
      obtain ⟨a, ha⟩ := h1 x (by simp)
      have hnd := List.nodup_cons.1 (by simpa using h2 : (column x :: ops.map column).Nodup)
      have hrest : OncePerColumn i ops := ⟨fun op hop => h1 op (by simp [hop]), hnd.2⟩
      have htt := List.pairwise_cons.1 ht
      obtain ⟨p, q⟩ := ih hrest htt.2 (w.step api x).1
        fun op hop => step_sun api w ha (column_eq ha ▸ hs x (by simp)) (hs op (by simp [hop]))
      by_cases hx : column x = "hum"
      · have none_left : ∀ op ∈ ops, column op ≠ "hum" := fun op hop e => hnd.1 (by rw [hx, ← e]; exact List.mem_map_of_mem hop)
        have e1 : (x :: ops).filter (fun op => decide (column op ≠ "hum")) = ops := by
          rw [List.filter_cons_of_neg (by simp [hx])]
          exact List.filter_eq_self.2 fun op hop => by simpa using none_left op hop
        have e2 : (x :: ops).filter (fun op => decide (column op = "hum")) = [x] := by
          rw [List.filter_cons_of_pos (by simp [hx])]
          rw [List.filter_eq_nil_iff.2 fun op hop => by simpa using none_left op hop]
        rw [e1, e2]
        refine to_end api i x ⟨a, ha⟩ ops hrest.1 (fun op hop => ⟨?_, ?_, ?_⟩) w hs
        · rw [hx]; exact (none_left op hop).symm
        · rw [hx]; rintro ⟨e, _⟩; exact absurd e (by decide)
        · exact htt.1 op hop
      · rw [List.filter_cons_of_pos (by simpa using hx), List.filter_cons_of_neg (by simpa using hx)]
        exact ⟨p, List.Perm.cons _ q⟩

theorem perm_short {α : Type} {l l' : List α} (h : l.Perm l') (hl : l.length ≤ 1) : l = l' := by
  match l, hl with
  | [], _ => exact (List.nil_perm.1 h).symm
  | [x], _ => exact List.singleton_perm.1 h

theorem same_short (cs : List String) (h1 : cs.Nodup) (h2 : ∀ c ∈ cs, c = "hum") : cs.length ≤ 1 := by
  match cs with
  | [] => simp
  | [_] => simp
  | x :: y :: cs =>
    exact absurd ((h2 x (by simp)).trans (h2 y (by simp)).symm) fun e => (List.nodup_cons.1 h1).1 (by simp [e])

theorem hum_once (ops : List Op) (hn : (ops.map column).Nodup) : (ops.filter (fun op => decide (column op = "hum"))).length ≤ 1 := by
  rw [← List.length_map (f := column)]
  refine same_short _ (hn.sublist (List.Sublist.map _ List.filter_sublist)) fun c hc => ?_
  obtain ⟨op, hop, rfl⟩ := List.mem_map.1 hc
  simpa using (List.mem_filter.1 hop).2

/-- C105.  A station gets disaggregation calls for different variables; if one is for radiation the station has its sun times.  The calls may be made in
any order in which the temperature call does not come after the humidity call: all objects are the same at the end, and every call raises the same
exception or none. -/
theorem C105_any_order (api : PandasApi) (w : World) (i : Nat) (ops ops' : List Op) (h : OncePerColumn i ops)
    (hs : (w.stations i).sun ≠ none ∨ ∀ op ∈ ops, column op ≠ "glob")
    (hp : ops.Perm ops') (ht : TempFirst ops) (ht' : TempFirst ops') :
    w.run api ops = w.run api ops' ∧ (trace api w ops).Perm (trace api w ops') := by
  have h' : OncePerColumn i ops' := ⟨fun op hop => h.1 op (hp.mem_iff.2 hop), (hp.map column).nodup_iff.1 h.2⟩
  have hs : ∀ op ∈ ops, SunReady w i (column op) := fun op hop => by
    rcases hs with hs | hs
    · exact .inr hs
    · exact .inl (hs op hop)
  obtain ⟨l, m, _, _, rfl, rfl, a, b⟩ := hum_last api i ops h ht w hs
  obtain ⟨l', m', _, _, rfl, rfl, a', b'⟩ := hum_last api i ops' h' ht' w fun op hop => hs op (hp.mem_iff.2 hop)
  set l := ops.filter (fun op => decide (column op ≠ "hum")) with hl
  set l' := ops'.filter (fun op => decide (column op ≠ "hum")) with hl'
  have hll : l.Perm l' := hp.filter _
  have hmem : ∀ op ∈ l, op ∈ ops ∧ column op ≠ "hum" := fun op hop => by simpa using List.mem_filter.1 hop
  have hm : ops.filter (fun op => decide (column op = "hum")) = ops'.filter (fun op => decide (column op = "hum")) := by
    have hperm := hp.filter (fun op => decide (column op = "hum"))
    exact perm_short hperm (hum_once ops h.2)
  have hpw : l.Pairwise fun x y => Independent (column x) (column y) := by
    have h1 : (l.map column).Nodup := h.2.sublist (List.Sublist.map _ List.filter_sublist)
    have h2 : l.Pairwise fun x y => column x ≠ column y := by
      have := List.pairwise_map.1 h1
      exact this
    exact h2.imp_of_mem fun {x y} hx hy hne => ⟨hne, fun e => (hmem y hy).2 e.2, fun e => (hmem x hx).2 e.1⟩
  obtain ⟨c, d⟩ := any_order api i hll (fun op hop => h.1 op (hmem op hop).1) hpw w fun op hop => hs op (hmem op hop).1
  rw [a, a', hm, run_append, run_append, c]
  refine ⟨rfl, b.trans (List.Perm.trans ?_ b'.symm)⟩
  rw [hm, trace_append, trace_append, c]
  exact d.append_right _

end

end World

end Melodist
