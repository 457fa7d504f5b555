import Verif.Props.StatisticsState
import Verif.Props.StationWiring

/-!
# C87 (repeated calls): fitting the same statistics again
-/

set_option linter.unusedSectionVars false

namespace Melodist
open Spec

namespace StatsObj

/-! ## Tables by month -/

/-- every row of month `m` holds `x`, and there is one -/
def Holds (tab : List (Int × XF ℝ)) (m : Int) (x : XF ℝ) : Prop := (tab.any fun r => r.1 == m) = true ∧ ∀ r ∈ tab, r.1 = m → r.2 = x

theorem setRow_of_holds {tab : List (Int × XF ℝ)} {m : Int} {x : XF ℝ} (h : Holds tab m x) : setRow tab m x = tab := by
  unfold setRow
  rw [if_pos h.1]
  conv_rhs => rw [← List.map_id tab]
  apply List.map_congr_left
  rintro ⟨a, b⟩ hr
  by_cases e : a = m
  · have := h.2 _ hr e
    dsimp only at this
    subst e this
    simp
  · simp [e]

theorem holds_setRow (tab : List (Int × XF ℝ)) (m : Int) (x : XF ℝ) : Holds (setRow tab m x) m x := by
  unfold setRow
  by_cases h : (tab.any fun r => r.1 == m) = true
  · rw [if_pos h]
    constructor
    · obtain ⟨r, hr, e⟩ := List.any_eq_true.1 h
      exact List.any_eq_true.2 ⟨_, List.mem_map_of_mem hr, by simp [e]⟩
    · intro r hr hm
      obtain ⟨q, hq, rfl⟩ := List.mem_map.1 hr
      by_cases e : q.1 = m
      · simp [e]
      · simp [e] at hm
  · rw [if_neg h]
    constructor
    · simp
    · intro r hr hm
      rcases List.mem_append.1 hr with hr | hr
      · exact absurd (List.any_eq_true.2 ⟨r, hr, by simpa using hm⟩) h
      · rw [List.mem_singleton.1 hr]

theorem holds_setRow_ne {tab : List (Int × XF ℝ)} {m m' : Int} {x y : XF ℝ} (h : Holds tab m x) (hne : m ≠ m') : Holds (setRow tab m' y) m x := by
  obtain ⟨r, hr, e⟩ := List.any_eq_true.1 h.1
  have e : r.1 = m := by simpa using e
  unfold setRow
  split
  · constructor
    · exact List.any_eq_true.2 ⟨_, List.mem_map_of_mem hr, by simp [e, hne]⟩
    · intro q hq hm
      obtain ⟨p, hp, rfl⟩ := List.mem_map.1 hq
      by_cases ep : p.1 = m'
      · simp [ep] at hm
        exact absurd hm.symm hne
      · simp only [beq_iff_eq, ep, if_false] at hm ⊢
        exact h.2 p hp hm
  · constructor
    · rw [List.any_append, h.1]; rfl
    · intro q hq hm
      rcases List.mem_append.1 hq with hq | hq
      · exact h.2 q hq hm
      · rw [List.mem_singleton.1 hq] at hm
        exact absurd hm.symm hne

theorem setRows_of_holds {ab : XF ℝ × XF ℝ} : ∀ (months : List Int) {tab : List (Int × XF ℝ) × List (Int × XF ℝ)},
    (∀ m ∈ months, Holds tab.1 m ab.1 ∧ Holds tab.2 m ab.2) → setRows months ab tab = tab
  | [], _, _ => rfl
  | x :: xs, tab, h => by
    have e : setRows (x :: xs) ab tab = setRows xs ab (setRow tab.1 x ab.1, setRow tab.2 x ab.2) := rfl
    obtain ⟨h1, h2⟩ := h x (by simp)
    rw [e, setRow_of_holds h1, setRow_of_holds h2]
    exact setRows_of_holds xs fun m hm => h m (by simp [hm])

theorem holds_setRows_ne {ab : XF ℝ × XF ℝ} {x y : XF ℝ} {m : Int} : ∀ (months : List Int) {tab : List (Int × XF ℝ) × List (Int × XF ℝ)},
    m ∉ months → Holds tab.1 m x ∧ Holds tab.2 m y → Holds (setRows months ab tab).1 m x ∧ Holds (setRows months ab tab).2 m y
  | [], _, _, h => h
  | z :: zs, tab, hm, h => by
    have e : setRows (z :: zs) ab tab = setRows zs ab (setRow tab.1 z ab.1, setRow tab.2 z ab.2) := rfl
    rw [List.mem_cons, not_or] at hm
    rw [e]
    exact holds_setRows_ne zs hm.2 ⟨holds_setRow_ne h.1 hm.1, holds_setRow_ne h.2 hm.1⟩

theorem holds_setRows {ab : XF ℝ × XF ℝ} {m : Int} : ∀ (months : List Int) {tab : List (Int × XF ℝ) × List (Int × XF ℝ)},
    m ∈ months → Holds (setRows months ab tab).1 m ab.1 ∧ Holds (setRows months ab tab).2 m ab.2
  | z :: zs, tab, hm => by
    have e : setRows (z :: zs) ab tab = setRows zs ab (setRow tab.1 z ab.1, setRow tab.2 z ab.2) := rfl
    rw [e]
    by_cases hz : m ∈ zs
    · exact holds_setRows zs hz
    · rcases List.mem_cons.1 hm with rfl | hm
      · exact holds_setRows_ne zs hz ⟨holds_setRow _ _ _, holds_setRow _ _ _⟩
      · exact absurd hm hz

theorem holds_fitLoop {fit : List FitRow → Py (XF ℝ × XF ℝ)} {rows : List Int → List FitRow} {m : Int} {x y : XF ℝ} : ∀ (ranges : List (List Int))
    {tab : List (Int × XF ℝ) × List (Int × XF ℝ)}, (∀ g ∈ ranges, m ∉ g) → Holds tab.1 m x ∧ Holds tab.2 m y →
    Holds (fitLoop fit rows ranges tab).1.1 m x ∧ Holds (fitLoop fit rows ranges tab).1.2 m y
  | [], _, _, h => h
  | g :: rest, tab, hm, h => by
    unfold fitLoop
    cases fit (rows g) with
    | error e => exact h
    | ok ab => exact holds_fitLoop rest (fun g hg => hm g (by simp [hg])) (holds_setRows_ne g (hm g (by simp)) h)

theorem fitLoop_again {fit : List FitRow → Py (XF ℝ × XF ℝ)} {rows : List Int → List FitRow} : ∀ (ranges : List (List Int)),
    (ranges.Pairwise fun g g' => ∀ m ∈ g, m ∉ g') → ∀ tab : List (Int × XF ℝ) × List (Int × XF ℝ),
    fitLoop fit rows ranges (fitLoop fit rows ranges tab).1 = fitLoop fit rows ranges tab
  | [], _, _ => rfl
  | g :: rest, hd, tab => by
    rw [List.pairwise_cons] at hd
    cases hf : fit (rows g) with
    | error e =>
      have hl : ∀ tab, fitLoop fit rows (g :: rest) tab = (tab, some e) := by
        intro tab; unfold fitLoop; rw [hf]
      rw [hl, hl]
    | ok ab =>
      have hl : ∀ tab, fitLoop fit rows (g :: rest) tab = fitLoop fit rows rest (setRows g ab tab) := by
        intro tab
        conv_lhs => unfold fitLoop
        rw [hf]
      rw [hl, hl, setRows_of_holds g, fitLoop_again rest hd.2]
      intro m hm
      exact holds_fitLoop rest (fun g' hg' => hd.1 g' hg' m hm) (holds_setRows g hm)

/-! ## Each effect once more -/

theorem windEff_again (opt : List (ℝ × Int × ℝ) → Py (ℝ × ℝ × ℝ)) (data : Option (Frame ℝ)) (w : WindStats) :
    windEff opt data (windEff opt data w).1 = windEff opt data w := by
  unfold windEff
  cases data with
  | none => rfl
  | some f =>
    dsimp only
    cases (do fitCosineFunction opt (← f.attr "wind")) <;> rfl

theorem humEff_again (data : Option (Frame ℝ)) (h : HumStats) : humEff data (humEff data h).1 = humEff data h := by
  unfold humEff
  cases data with
  | none => rfl
  | some f =>
    dsimp only
    cases dewpointRegression f with
    | error e => rfl
    | ok r =>
      obtain ⟨a, b⟩ := r
      cases a <;> cases b <;> try rfl
      dsimp only
      cases monthHourPrecipMean f <;> rfl

theorem tempEff_again (data : Option (Frame ℝ)) (lon lat tz : Option ℝ) (t : TempStats) :
    tempEff data lon lat tz (tempEff data lon lat tz t).1 = tempEff data lon lat tz t := by
  unfold tempEff
  cases data with
  | none => rfl
  | some f =>
    dsimp only
    cases f.attr "temp" with
    | error e => rfl
    | ok r => cases lon <;> cases lat <;> cases tz <;> rfl

theorem radFit_course (angFit bcFit : List FitRow → Py (XF ℝ × XF ℝ)) (g : GlobStats) (f : Frame ℝ) (dl : Option (Series (XF ℝ)))
    (how : String) (pot obs : Series (XF ℝ)) : (radFit angFit bcFit g f dl how pot obs).1.course = g.course := by
  have hb : ∀ (s : StatsObj) left, (bcPart bcFit s f left pot obs).1.obj.glob.course = s.obj.glob.course := by
    intro s left
    unfold bcPart
    cases f.col? "tmin" with
    | none => rfl
    | some a => cases f.col? "tmax" <;> rfl
  unfold radFit
  by_cases hs : f.col? "ssd" = none ∨ dl = none
  · rw [fitRadiation_nossd hs]
    exact hb _ _
  · rw [not_or] at hs
    obtain ⟨ssd, hssd⟩ := Option.ne_none_iff_exists'.1 hs.1
    obtain ⟨dl, rfl⟩ := Option.ne_none_iff_exists'.1 hs.2
    rw [fitRadiation_ssd hssd]
    cases (angLoop angFit { obj := { glob := g } } how (fitFrame ssd dl pot obs)).2 with
    | some e => rfl
    | none => exact hb _ _

theorem bcPart_again (bcFit : List FitRow → Py (XF ℝ × XF ℝ)) (s : StatsObj) (f : Frame ℝ) (left : List (List Int))
    (hd : left.Pairwise fun g g' => ∀ m ∈ g, m ∉ g') (pot obs : Series (XF ℝ)) :
    bcPart bcFit (bcPart bcFit s f left pot obs).1 f left pot obs = bcPart bcFit s f left pot obs := by
  unfold bcPart
  cases f.col? "tmin" with
  | none => rfl
  | some a =>
    cases f.col? "tmax" with
    | none => rfl
    | some b =>
      dsimp only
      have e : bcLoop bcFit (withBc s (bcLoop bcFit s left (fitFrame a b pot obs)).1) left (fitFrame a b pot obs) =
          bcLoop bcFit s left (fitFrame a b pot obs) := by
        conv_lhs => unfold bcLoop withBc
        exact fitLoop_again left hd (s.obj.glob.bcA, s.obj.glob.bcC)
      rw [e]
      rfl

theorem bcPart_ang (bcFit : List FitRow → Py (XF ℝ × XF ℝ)) (s : StatsObj) (f : Frame ℝ) (left : List (List Int)) (pot obs : Series (XF ℝ)) :
    (bcPart bcFit s f left pot obs).1.obj.glob.angA = s.obj.glob.angA ∧ (bcPart bcFit s f left pot obs).1.obj.glob.angB = s.obj.glob.angB ∧
    ∀ g, s = { obj := { glob := g } } → (bcPart bcFit s f left pot obs).1 = { obj := { glob := (bcPart bcFit s f left pot obs).1.obj.glob } } := by
  unfold bcPart
  cases f.col? "tmin" with
  | none => exact ⟨rfl, rfl, by rintro g rfl; rfl⟩
  | some a =>
    cases f.col? "tmax" with
    | none => exact ⟨rfl, rfl, by rintro g rfl; rfl⟩
    | some b => exact ⟨rfl, rfl, by rintro g rfl; rfl⟩

theorem radFit_again (angFit bcFit : List FitRow → Py (XF ℝ × XF ℝ)) (g : GlobStats) (f : Frame ℝ) (dl : Option (Series (XF ℝ)))
    (how : String) (pot obs : Series (XF ℝ)) :
    radFit angFit bcFit (radFit angFit bcFit g f dl how pot obs).1 f dl how pot obs = radFit angFit bcFit g f dl how pot obs := by
  have hd := ranges_disjoint how
  have hd' : (if (monthRanges how).2 then [] else (monthRanges how).1).Pairwise fun g g' => ∀ m ∈ g, m ∉ g' := by
    split
    · exact List.Pairwise.nil
    · exact hd
  unfold radFit
  by_cases hs : f.col? "ssd" = none ∨ dl = none
  · simp only [fitRadiation_nossd hs]
    rw [← (bcPart_ang bcFit { obj := { glob := g } } f _ pot obs).2.2 g rfl, bcPart_again _ _ _ _ hd]
  · rw [not_or] at hs
    obtain ⟨ssd, hssd⟩ := Option.ne_none_iff_exists'.1 hs.1
    obtain ⟨dl, rfl⟩ := Option.ne_none_iff_exists'.1 hs.2
    have h0 := fitRadiation_ssd (angFit := angFit) (bcFit := bcFit) (s := { obj := { glob := g } }) (how := how) (pot := pot) (obs := obs) (dl := dl) hssd
    cases he : (angLoop angFit { obj := { glob := g } } how (fitFrame ssd dl pot obs)).2 with
    | some e =>
      rw [he] at h0
      dsimp only at h0
      rw [h0]
      rw [fitRadiation_ssd hssd]
      have ha : angLoop angFit { obj := { glob := (withAng { obj := { glob := g } } (angLoop angFit { obj := { glob := g } } how
          (fitFrame ssd dl pot obs)).1).obj.glob } } how (fitFrame ssd dl pot obs) = angLoop angFit { obj := { glob := g } } how (fitFrame ssd dl pot obs) := by
        conv_lhs => unfold angLoop
        exact fitLoop_again _ hd (g.angA, g.angB)
      rw [ha, he]
      rfl
    | none =>
      rw [he] at h0
      dsimp only at h0
      rw [h0]
      rw [fitRadiation_ssd hssd]
      generalize hleft : (if (monthRanges how).2 then [] else (monthRanges how).1) = left at hd' ⊢
      have hb := bcPart_ang bcFit (withAng { obj := { glob := g } } (angLoop angFit { obj := { glob := g } } how (fitFrame ssd dl pot obs)).1) f left pot obs
      rw [← hb.2.2 _ rfl]
      have hag := bcPart_again bcFit (withAng { obj := { glob := g } } (angLoop angFit { obj := { glob := g } } how (fitFrame ssd dl pot obs)).1) f left hd' pot obs
      generalize hS : (bcPart bcFit (withAng { obj := { glob := g } } (angLoop angFit { obj := { glob := g } } how (fitFrame ssd dl pot obs)).1) f left
        pot obs) = S at hb hag ⊢
      have ha : angLoop angFit S.1 how (fitFrame ssd dl pot obs) = angLoop angFit { obj := { glob := g } } how (fitFrame ssd dl pot obs) := by
        conv_lhs => unfold angLoop
        rw [hb.1, hb.2.1]
        exact fitLoop_again _ hd (g.angA, g.angB)
      have hw : withAng S.1 (angLoop angFit { obj := { glob := g } } how (fitFrame ssd dl pot obs)).1 = S.1 := by
        obtain ⟨h1, h2, _⟩ := hb
        have h1 : S.1.obj.glob.angA = (angLoop angFit { obj := { glob := g } } how (fitFrame ssd dl pot obs)).1.1 := h1
        have h2 : S.1.obj.glob.angB = (angLoop angFit { obj := { glob := g } } how (fitFrame ssd dl pot obs)).1.2 := h2
        unfold withAng
        rw [← h1, ← h2]
      rw [ha, he]
      dsimp only
      rw [hw, hag]

theorem radEff_again (api : PandasApi) (angFit bcFit : List FitRow → Py (XF ℝ × XF ℝ)) (daily : Option (Frame ℝ))
    (dl : Option (Series (XF ℝ))) (how : String) (data : Option (Frame ℝ)) (lon lat tz : Option ℝ) (g : GlobStats) :
    radEff api angFit bcFit daily dl how data lon lat tz (radEff api angFit bcFit daily dl how data lon lat tz g).1 =
      radEff api angFit bcFit daily dl how data lon lat tz g := by
  unfold radEff
  by_cases hh : how = "all" ∨ how = "seasonal" ∨ how = "monthly"
  · simp only [if_neg (not_not.2 hh)]
    cases data with
    | none => rfl
    | some data =>
      dsimp only
      cases data.attr "glob" with
      | error e => rfl
      | ok glob =>
        dsimp only
        cases daily with
        | none => rfl
        | some f =>
          dsimp only
          cases hourlyIndex api f.index with
          | error e => rfl
          | ok hours =>
            dsimp only
            cases lon <;> cases lat <;> cases tz <;> try rfl
            dsimp only
            have hc := radFit_course angFit bcFit { g with course := some (meanDailyCourseByMonth glob) } f dl how
            have ha := radFit_again angFit bcFit { g with course := some (meanDailyCourseByMonth glob) } f dl how
            generalize (Series.resampleD meanSkip (potentialRadiation hours _ _ _)) = pot
            specialize hc pot (Series.resampleD meanSkip glob)
            specialize ha pot (Series.resampleD meanSkip glob)
            generalize radFit angFit bcFit { g with course := some (meanDailyCourseByMonth glob) } f dl how pot (Series.resampleD meanSkip glob) = S at hc ha ⊢
            obtain ⟨⟨a1, a2, a3, a4, a5⟩, e⟩ := S
            dsimp only at hc ha ⊢
            rw [← hc]
            exact ha
  · simp only [if_pos hh]

theorem precEff_again (months : Option (List (List Int))) (avg : Bool) (p : ℝ) (data : Option (Frame ℝ)) (pr : PrecipStats) :
    precEff months avg p data (precEff months avg p data pr).1 = precEff months avg p data pr := by
  unfold precEff calcPrecipitation
  dsimp only
  cases data with
  | none =>
    dsimp only
    cases firstSeasonError (months.getD [wholeYear]) .attributeError <;> rfl
  | some f =>
    dsimp only
    cases f.col? "precip" with
    | none =>
      dsimp only
      cases firstSeasonError (months.getD [wholeYear]) .keyError <;> rfl
    | some q =>
      dsimp only
      cases (buildCasc q true 9 (some (months.getD [wholeYear])) avg p).2 <;> rfl

theorem fillna0_of_full {s : Series (XF ℝ)} (h : ∀ r ∈ s, r.2 ≠ .nan) : fillna0 s = s := by
  unfold fillna0
  conv_rhs => rw [← List.map_id s]
  apply List.map_congr_left
  rintro ⟨t, x⟩ hr
  have := h _ hr
  cases x <;> simp_all

theorem fillna0_full (s : Series (XF ℝ)) : ∀ r ∈ fillna0 s, r.2 ≠ .nan := by
  intro r hr
  obtain ⟨q, _, rfl⟩ := List.mem_map.1 hr
  cases q.2 <;> simp

theorem filled_again (months : Option (List (List Int))) (data : Option (Frame ℝ)) : filled months (filled months data) = filled months data := by
  cases data with
  | none => rfl
  | some f =>
    cases h : f.col? "precip" with
    | none =>
      have : filled months (some f) = some f := by unfold filled; rw [Option.map_some, h]
      rw [this, this]
    | some p =>
      obtain ⟨f', p', h1, h2, -, h4, h5, rfl⟩ := filled_precip (months := months) h
      have e1 : f' = World.replaceCol f "precip" (fillSeasons (months.getD [wholeYear]) p).values := by
        unfold filled at h1
        rw [Option.map_some, h] at h1
        exact (Option.some.inj h1).symm
      have e3 : fillSeasons (months.getD [wholeYear]) (fillSeasons (months.getD [wholeYear]) p) = fillSeasons (months.getD [wholeYear]) p := by
        match months.getD [wholeYear] with
        | [] => rfl
        | [] :: _ => rfl
        | (_ :: _) :: _ => exact fillna0_of_full (fillna0_full p)
      have e2 : filled months (some f') = some (World.replaceCol f' "precip" (fillSeasons (months.getD [wholeYear]) p).values) := by
        unfold filled
        rw [Option.map_some, h2]
        dsimp only
        rw [e3]
      rw [h1, e2, e1]
      unfold World.replaceCol
      rw [List.map_map]
      congr 2
      apply List.map_congr_left
      intro c _
      by_cases hc : c.1 = "precip" <;> simp [hc]

theorem filled_full {months : Option (List (List Int))} {f : Frame ℝ} (hfull : ∀ p, f.col? "precip" = some p → ∀ r ∈ p, r.2 ≠ .nan) :
    ∃ f', filled months (some f) = some f' ∧ f'.col? "precip" = f.col? "precip" := by
  cases h : f.col? "precip" with
  | none => exact ⟨f, by unfold filled; rw [Option.map_some, h], h⟩
  | some p =>
    obtain ⟨f', p', h1, h2, h3, -⟩ := filled_precip (months := months) h
    refine ⟨f', h1, ?_⟩
    rw [h2]
    rcases h3 with rfl | rfl
    · rfl
    · rw [fillna0_of_full (hfull p h)]

theorem precEff_column (months : Option (List (List Int))) (avg : Bool) (p : ℝ) {f f' : Frame ℝ} (h : f'.col? "precip" = f.col? "precip")
    (pr : PrecipStats) : precEff months avg p (some f') pr = precEff months avg p (some f) pr := by
  unfold precEff calcPrecipitation
  dsimp only
  rw [h]
  cases f.col? "precip" with
  | none =>
    dsimp only
    cases firstSeasonError (months.getD [wholeYear]) .keyError <;> rfl
  | some q =>
    dsimp only
    cases (buildCasc q true 9 (some (months.getD [wholeYear])) avg p).2 <;> rfl

/-! ## C87 -/

/-- C87 (repeated calls).  Repeating a call of `calc_wind_stats`, `calc_humidity_stats`, `calc_temperature_stats` or `calc_radiation_stats` (with or
without exception) changes nothing, and it raises what the first one raised. -/
theorem C87_repeat (s : StatsObj) (c : Call) (hd : c.part ≠ .data) (hp : c.part ≠ .precip) : (s.call c).1.call c = s.call c := by
  cases c with
  | data arg => exact absurd rfl hd
  | precipitation m a p => exact absurd rfl hp
  | wind opt => simp only [call, calcWind_eff, windEff_again]
  | humidity => simp only [call, calcHumidity_eff, humEff_again]
  | temperature => simp only [call, calcTemperature_eff, tempEff_again]
  | radiation api ang bc daily dl how => simp only [call, calcRadiation_eff, radEff_again]

/-- C87 (repeated calls, precipitation).  A repeated call of `calc_precipitation_stats` changes nothing if the object's hourly precipitation has no missing
values.  Otherwise the second call can give other statistics than the first one — it finds zeros instead of missing values — but a third call changes
nothing. -/
theorem C87_repeat_precipitation (s : StatsObj) (c : Call) (hp : c.part = .precip) :
    ((∀ f p, s.data = some f → f.col? "precip" = some p → ∀ r ∈ p, r.2 ≠ .nan) → (s.call c).1.call c = s.call c) ∧
    ((s.call c).1.call c).1.call c = (s.call c).1.call c := by
  cases c <;> try (cases hp; done)
  rename_i months avg p
  simp only [call, calcPrecipitation_eff, filled_again, precEff_again, and_true]
  intro h
  cases hs : s.data with
  | none =>
    have : filled months none = none := rfl
    rw [this, precEff_again]
  | some f =>
    obtain ⟨f', h1, h2⟩ := filled_full (months := months) (f := f) fun q hq => h f q hs hq
    rw [h1, precEff_column months avg p h2, precEff_again]

/-! ## Examples -/

/-- 352 hours like `exampleLong` with one missing value -/
def exampleGap : Series (XF ℚ) :=
  exampleLong.zipIdx.map fun r => if r.2 = 257 then (r.1.1, .nan) else r.1

/-- the thresholds of the averaged statistics of the only season -/
def thresholdsOf {K : Type} : Py (List (CascStats K ⊕ List (CascStats K))) → List (XF K)
  | .ok [.inl s] => s.threshold
  | _ => []

/-- C87 (precipitation): the statistics of data with a missing value differ from those fitted after the first call has replaced it by 0 (model over ℚ) -/
example : thresholdsOf (buildCasc exampleGap true 9 (some [[1]]) true 0).2 ≠
    thresholdsOf (buildCasc (buildCasc exampleGap true 9 (some [[1]]) true 0).1 true 9 (some [[1]]) true 0).2 := by
  decide +kernel

/-- one day of hourly data -/
noncomputable def exampleDay : Frame ℝ := ⟨hoursOf 0 1, [("wind", (hoursOf 0 1).map fun _ => .fin 3), ("temp", (hoursOf 0 1).map fun _ => .fin 280)]⟩

/-- C86, C87: a new object gets one day of data; an optimiser that fails leaves the parameters as they are; wind and temperature can be fitted in both
orders -/
example : ∃ s : StatsObj, StatsObj.new (some (.frame exampleDay true false)) (some 8) (some 49) (some 1) = .ok s ∧ s.data = some exampleDay ∧
    (s.call (.wind fun _ => .error .valueError)).2 = some .valueError ∧ (s.call .temperature).2 = none ∧ (s.call .temperature).1.obj.temp ≠ s.obj.temp ∧
    (s.call (.wind fun _ => .ok (1, 1, 0))).1.obj.wind = { a := some 1, b := some 1, tShift := some 0 } ∧
    s.calls [.wind fun _ => .ok (1, 1, 0), .temperature] = s.calls [.temperature, .wind fun _ => .ok (1, 1, 0)] := by
  have hset := (C86_setter { obj := { lon := some 8, lat := some 49, tz := some 1 } } (.frame exampleDay true false)).1 exampleDay false rfl (by decide)
    ⟨HOUR, by decide, by decide⟩
  have hw : ∀ opt : List (ℝ × Int × ℝ) → Py (ℝ × ℝ × ℝ), (do fitCosineFunction opt (← exampleDay.attr "wind")) =
      opt ((List.range (24 * 1)).map fun k : Nat => ((day24 fun _ => (3 : ℝ)).sum / 24, ((k % 24 : Nat) : Int), 3)) := by
    intro opt
    have hcol : exampleDay.col? "wind" = some (hourlyS 0 1 fun _ _ => .fin 3) := rfl
    rw [attr_ok hcol, py_ok_bind]
    unfold fitCosineFunction
    rw [fitRows_hourly 0 1 fun _ _ => (3 : ℝ), py_ok_bind]
  refine ⟨{ obj := { lon := some 8, lat := some 49, tz := some 1 }, data := some exampleDay }, ?_, rfl, ?_, rfl, ?_, ?_, ?_⟩
  · unfold StatsObj.new
    dsimp only
    rw [hset]
  · simp only [call, calcWind, hw]
  · intro h
    have := congrArg TempStats.maxDelta h
    cases this
  · simp only [call, calcWind, hw]
  · exact C87_any_order _ _ _ (List.Perm.swap _ _ _) (by simp [Call.part]) (by simp [Call.part])

end StatsObj

end Melodist
