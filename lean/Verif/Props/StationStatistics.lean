import Verif.Lemmas.StationStatistics

/-!
# C68: fitting radiation parameters by month
-/

set_option linter.unusedSectionVars false

namespace Melodist
open Spec

namespace StatsObj

/-! ## Specification -/

/-- the months that are fitted together with month `m`: the whole year, the season of `m`, or `m` alone -/
def monthGroup (how : String) (m : Int) : List Int :=
  if how = "all" then [1, 2, 3, 4, 5, 6, 7, 8, 9, 10, 11, 12]
  else if how = "seasonal" then
    if m = 12 ∨ m = 1 ∨ m = 2 then [12, 1, 2] else if m ≤ 5 then [3, 4, 5] else if m ≤ 8 then [6, 7, 8] else [9, 10, 11]
  else [m]

/-- the days among `rows` in the months fitted together with `m` -/
def groupDays (how : String) (m : Int) (rows : List FitRow) : List FitRow := rows.filter fun r => decide (monthOf r.1 ∈ monthGroup how m)

/-- the two columns hold the result of `fit` on the days of the group, for every month of the year -/
def FittedByMonth (fit : List FitRow → Py (XF ℝ × XF ℝ)) (how : String) (rows : List FitRow) (x y : List (Int × XF ℝ)) : Prop :=
  ∀ m, 1 ≤ m → m ≤ 12 → ∃ p, fit (groupDays how m rows) = .ok p ∧ atMonth x m = some p.1 ∧ atMonth y m = some p.2

/-- nothing but the radiation parameters has changed -/
def OnlyGlob (s s' : StatsObj) : Prop :=
  s'.data = s.data ∧ s'.obj.lon = s.obj.lon ∧ s'.obj.lat = s.obj.lat ∧ s'.obj.tz = s.obj.tz ∧ s'.obj.wind = s.obj.wind ∧ s'.obj.precip = s.obj.precip ∧
  s'.obj.hum = s.obj.hum ∧ s'.obj.temp = s.obj.temp

/-- C68 (sample).  The days used in a fit are those at which all four series have a number. -/
theorem C68_sample (a b c d : Series (XF ℝ)) (r : FitRow) :
    r ∈ fitFrame a b c d ↔ (r.1, r.2.1) ∈ a ∧ Series.at? b r.1 = some r.2.2.1 ∧ Series.at? c r.1 = some r.2.2.2.1 ∧ Series.at? d r.1 = some r.2.2.2.2 ∧
      r.2.1 ≠ .nan ∧ r.2.2.1 ≠ .nan ∧ r.2.2.2.1 ≠ .nan ∧ r.2.2.2.2 ≠ .nan := by
  have hn : ∀ x : XF ℝ, x.isNan = false ↔ x ≠ .nan := by intro x; cases x <;> simp
  obtain ⟨t, x, y, z, u⟩ := r
  unfold fitFrame
  rw [List.mem_filterMap]
  constructor
  · rintro ⟨q, hq, h⟩
    cases hb : Series.at? b q.1 with
    | none => rw [hb] at h; cases h
    | some y' =>
      cases hc : Series.at? c q.1 with
      | none => rw [hb, hc] at h; cases h
      | some z' =>
        cases hd : Series.at? d q.1 with
        | none => rw [hb, hc, hd] at h; cases h
        | some u' =>
          rw [hb, hc, hd] at h
          dsimp only at h
          by_cases hh : (q.2.isNan || y'.isNan || z'.isNan || u'.isNan) = true
          · rw [if_pos hh] at h; cases h
          · rw [if_neg hh] at h
            cases h
            rw [Bool.not_eq_true, Bool.or_eq_false_iff, Bool.or_eq_false_iff, Bool.or_eq_false_iff] at hh
            obtain ⟨⟨⟨e1, e2⟩, e3⟩, e4⟩ := hh
            exact ⟨hq, hb, hc, hd, (hn _).1 e1, (hn _).1 e2, (hn _).1 e3, (hn _).1 e4⟩
  · rintro ⟨h1, h2, h3, h4, e1, e2, e3, e4⟩
    refine ⟨_, h1, ?_⟩
    dsimp only at h2 h3 h4 ⊢
    rw [h2, h3, h4]
    dsimp only
    rw [if_neg]
    rw [Bool.not_eq_true, Bool.or_eq_false_iff, Bool.or_eq_false_iff, Bool.or_eq_false_iff]
    exact ⟨⟨⟨(hn _).2 e1, (hn _).2 e2⟩, (hn _).2 e3⟩, (hn _).2 e4⟩

/-! ## The month groups -/

theorem ranges_disjoint (how : String) : (monthRanges how).1.Pairwise fun g g' => ∀ m ∈ g, m ∉ g' := by
  unfold monthRanges
  by_cases h1 : how = "all"
  · rw [if_pos h1]; simp
  · rw [if_neg h1]
    by_cases h2 : how = "seasonal"
    · rw [if_pos h2]; decide
    · rw [if_neg h2]; decide

theorem ranges_group {how : String} {g : List Int} (hg : g ∈ (monthRanges how).1) {m : Int} (hm : m ∈ g) :
    (1 ≤ m ∧ m ≤ 12) ∧ g = monthGroup how m := by
  unfold monthRanges at hg
  unfold monthGroup
  by_cases h1 : how = "all"
  · rw [if_pos h1] at hg ⊢
    rw [List.mem_singleton] at hg
    subst hg
    simp only [wholeYear, List.mem_cons, List.not_mem_nil, or_false] at hm
    exact ⟨by omega, rfl⟩
  · rw [if_neg h1] at hg ⊢
    by_cases h2 : how = "seasonal"
    · rw [if_pos h2] at hg ⊢
      simp only [List.mem_cons, List.not_mem_nil, or_false] at hg
      rcases hg with rfl | rfl | rfl | rfl <;> simp only [List.mem_cons, List.not_mem_nil, or_false] at hm
      · exact ⟨by omega, by rw [if_neg (by omega), if_pos (by omega)]⟩
      · exact ⟨by omega, by rw [if_neg (by omega), if_neg (by omega), if_pos (by omega)]⟩
      · exact ⟨by omega, by rw [if_neg (by omega), if_neg (by omega), if_neg (by omega)]⟩
      · exact ⟨by omega, by rw [if_pos (by omega)]⟩
    · rw [if_neg h2] at hg ⊢
      obtain ⟨x, hx, rfl⟩ := List.mem_map.1 hg
      rw [List.mem_singleton] at hm
      subst hm
      simp only [wholeYear, List.mem_cons, List.not_mem_nil, or_false] at hx
      exact ⟨by omega, rfl⟩

theorem ranges_cover (how : String) {m : Int} (h1 : 1 ≤ m) (h2 : m ≤ 12) : ∃ g ∈ (monthRanges how).1, m ∈ g := by
  unfold monthRanges
  by_cases h3 : how = "all"
  · rw [if_pos h3]
    refine ⟨_, List.mem_singleton_self _, ?_⟩
    simp only [wholeYear, List.mem_cons, List.not_mem_nil, or_false]
    omega
  · rw [if_neg h3]
    by_cases h4 : how = "seasonal"
    · rw [if_pos h4]
      simp only [List.mem_cons, List.not_mem_nil, or_false, exists_eq_or_imp, exists_eq_left]
      omega
    · rw [if_neg h4]
      refine ⟨[m], List.mem_map.2 ⟨m, ?_, rfl⟩, by simp⟩
      simp only [wholeYear, List.mem_cons, List.not_mem_nil, or_false]
      omega

theorem group_self {how : String} {m : Int} (h1 : 1 ≤ m) (h2 : m ≤ 12) : m ∈ monthGroup how m ∧ monthGroup how m ∈ (monthRanges how).1 := by
  obtain ⟨g, hg, hm⟩ := ranges_cover how h1 h2
  obtain ⟨_, e⟩ := ranges_group hg hm
  exact ⟨e ▸ hm, e ▸ hg⟩

theorem filter_contains (rows : List FitRow) (g : List Int) :
    (rows.filter fun r => g.contains (monthOf r.1)) = rows.filter fun r => decide (monthOf r.1 ∈ g) := by
  apply List.filter_congr
  intro r _
  simp

/-- one complete run through all groups -/
theorem fitLoop_all {fit : List FitRow → Py (XF ℝ × XF ℝ)} {how : String} {rows : List FitRow} {tab tab' : List (Int × XF ℝ) × List (Int × XF ℝ)}
    (h : fitLoop fit (fun g => rows.filter fun r => g.contains (monthOf r.1)) (monthRanges how).1 tab = (tab', none)) :
    FittedByMonth fit how rows tab'.1 tab'.2 ∧
    ∀ m, (m < 1 ∨ 12 < m) → atMonth tab'.1 m = atMonth tab.1 m ∧ atMonth tab'.2 m = atMonth tab.2 m := by
  obtain ⟨pre, post, h1, h2, h3, h4⟩ := fitLoop_spec fit (fun g => rows.filter fun r => g.contains (monthOf r.1)) _ (ranges_disjoint how) tab
  rw [h] at h2 h3 h4
  have hp : post = [] := by
    rcases h4 with ⟨_, h⟩ | ⟨_, _, _, _, _, h⟩
    · exact h
    · cases h
  rw [hp, List.append_nil] at h1
  constructor
  · intro m hm1 hm2
    obtain ⟨hg1, hg2⟩ := group_self (how := how) hm1 hm2
    obtain ⟨p, hp1, hp2⟩ := h2 _ (h1 ▸ hg2)
    refine ⟨p, ?_, hp2 m hg1⟩
    rw [filter_contains] at hp1
    exact hp1
  · intro m hm
    refine h3 m fun g hg hmg => ?_
    have := (ranges_group (h1 ▸ hg) hmg).1
    omega

/-! ## C68 -/

section
variable {api : PandasApi} {angFit bcFit : List FitRow → Py (XF ℝ × XF ℝ)} {s s' : StatsObj} {f data : Frame ℝ} {glob : Series (XF ℝ)}
  {dayLength : Option (Series (XF ℝ))} {how : String} {hours : List Time} {lon lat tz : ℝ}

/-- the daily means of the potential radiation at the object's coordinates, for the days of the daily data -/
noncomputable def potentialMeans (hours : List Time) (lon lat tz : ℝ) : Series (XF ℝ) := (potentialRadiation hours lon lat tz).resampleD meanSkip

/-- the object has hourly radiation `glob` and coordinates, and the daily data have the hours `hours` -/
structure CanFit (api : PandasApi) (s : StatsObj) (data f : Frame ℝ) (glob : Series (XF ℝ)) (hours : List Time) (lon lat tz : ℝ) : Prop where
  hasData : s.data = some data
  hasGlob : data.col? "glob" = some glob
  hours : hourlyIndex api f.index = .ok hours
  lon : s.obj.lon = some lon
  lat : s.obj.lat = some lat
  tz : s.obj.tz = some tz

/-- the object with the new mean course -/
noncomputable def withCourse (s : StatsObj) (glob : Series (XF ℝ)) : StatsObj :=
  { s with obj := { s.obj with glob := { s.obj.glob with course := some (meanDailyCourseByMonth glob) } } }

theorem calcRadiation_eq (C : CanFit api s data f glob hours lon lat tz) (hh : how = "all" ∨ how = "seasonal" ∨ how = "monthly") :
    calcRadiation api angFit bcFit s (some f) dayLength how =
      fitRadiation angFit bcFit (withCourse s glob) f dayLength how (potentialMeans hours lon lat tz) (glob.resampleD meanSkip) := by
  obtain ⟨⟨slon, slat, stz, w, pr, hu, te, gl⟩, sd⟩ := s
  obtain ⟨h1, h2, h3, h4, h5, h6⟩ := C
  dsimp only at h1 h4 h5 h6
  subst h1 h4 h5 h6
  unfold calcRadiation
  rw [if_neg (not_not.2 hh)]
  dsimp only
  rw [attr_ok h2]
  dsimp only
  rw [h3]
  rfl

/-- the Angstroem loop as a function -/
noncomputable def angLoop (angFit : List FitRow → Py (XF ℝ × XF ℝ)) (s : StatsObj) (how : String) (rows : List FitRow) :=
  fitLoop angFit (fun g => rows.filter fun r => g.contains (monthOf r.1)) (monthRanges how).1 (s.obj.glob.angA, s.obj.glob.angB)

/-- the Bristow-Campbell loop over the groups that are left -/
noncomputable def bcLoop (bcFit : List FitRow → Py (XF ℝ × XF ℝ)) (s : StatsObj) (left : List (List Int)) (rows : List FitRow) :=
  fitLoop bcFit (fun g => rows.filter fun r => g.contains (monthOf r.1)) left (s.obj.glob.bcA, s.obj.glob.bcC)

/-- the object with new Angstroem columns -/
def withAng (s : StatsObj) (tab : List (Int × XF ℝ) × List (Int × XF ℝ)) : StatsObj :=
  { s with obj := { s.obj with glob := { s.obj.glob with angA := tab.1, angB := tab.2 } } }

/-- the object with new Bristow-Campbell columns -/
def withBc (s : StatsObj) (tab : List (Int × XF ℝ) × List (Int × XF ℝ)) : StatsObj :=
  { s with obj := { s.obj with glob := { s.obj.glob with bcA := tab.1, bcC := tab.2 } } }

/-- the second part of `calc_radiation_stats` -/
noncomputable def bcPart (bcFit : List FitRow → Py (XF ℝ × XF ℝ)) (s : StatsObj) (f : Frame ℝ) (left : List (List Int)) (pot obs : Series (XF ℝ)) : StatsOut :=
  match f.col? "tmin", f.col? "tmax" with
  | some tmin, some tmax => (withBc s (bcLoop bcFit s left (fitFrame tmin tmax pot obs)).1, (bcLoop bcFit s left (fitFrame tmin tmax pot obs)).2)
  | _, _ => (s, none)

theorem fitRadiation_ssd {pot obs ssd dl : Series (XF ℝ)} (h1 : f.col? "ssd" = some ssd) :
    fitRadiation angFit bcFit s f (some dl) how pot obs =
      match (angLoop angFit s how (fitFrame ssd dl pot obs)).2 with
      | some e => (withAng s (angLoop angFit s how (fitFrame ssd dl pot obs)).1, some e)
      | none => bcPart bcFit (withAng s (angLoop angFit s how (fitFrame ssd dl pot obs)).1) f (if (monthRanges how).2 then [] else (monthRanges how).1)
          pot obs := by
  unfold fitRadiation
  dsimp only
  rw [h1]
  dsimp only
  simp only [fitFrame_extract]
  rfl

theorem fitRadiation_nossd {pot obs : Series (XF ℝ)} (h1 : f.col? "ssd" = none ∨ dayLength = none) :
    fitRadiation angFit bcFit s f dayLength how pot obs = bcPart bcFit s f (monthRanges how).1 pot obs := by
  unfold fitRadiation
  dsimp only
  rcases h1 with h1 | h1
  · rw [h1]; rfl
  · rw [h1]; cases f.col? "ssd" <;> rfl

theorem monthRanges_once (how : String) (hh : how = "all" ∨ how = "seasonal" ∨ how = "monthly") : (monthRanges how).2 = true ↔ how = "monthly" := by
  rcases hh with rfl | rfl | rfl <;> simp [monthRanges]

/-- what is true after a call without exception -/
theorem bcPart_ok {t t' : StatsObj} {left : List (List Int)} {pot obs : Series (XF ℝ)} (h : bcPart bcFit t f left pot obs = (t', none)) :
    OnlyGlob t t' ∧ t'.obj.glob.course = t.obj.glob.course ∧ t'.obj.glob.angA = t.obj.glob.angA ∧ t'.obj.glob.angB = t.obj.glob.angB ∧
    (∀ tmin tmax, f.col? "tmin" = some tmin → f.col? "tmax" = some tmax → left = (monthRanges how).1 →
      FittedByMonth bcFit how (fitFrame tmin tmax pot obs) t'.obj.glob.bcA t'.obj.glob.bcC ∧
      ∀ m, (m < 1 ∨ 12 < m) → atMonth t'.obj.glob.bcA m = atMonth t.obj.glob.bcA m ∧ atMonth t'.obj.glob.bcC m = atMonth t.obj.glob.bcC m) ∧
    (f.col? "tmin" = none ∨ f.col? "tmax" = none ∨ left = [] → t'.obj.glob.bcA = t.obj.glob.bcA ∧ t'.obj.glob.bcC = t.obj.glob.bcC) := by
  unfold bcPart at h
  cases h1 : f.col? "tmin" with
  | none =>
    rw [h1] at h
    dsimp only at h
    cases h
    exact ⟨⟨rfl, rfl, rfl, rfl, rfl, rfl, rfl, rfl⟩, rfl, rfl, rfl, fun _ _ h => (by cases h), fun _ => ⟨rfl, rfl⟩⟩
  | some tmin =>
    cases h2 : f.col? "tmax" with
    | none =>
      rw [h1, h2] at h
      dsimp only at h
      cases h
      exact ⟨⟨rfl, rfl, rfl, rfl, rfl, rfl, rfl, rfl⟩, rfl, rfl, rfl, fun _ _ _ h => (by cases h), fun _ => ⟨rfl, rfl⟩⟩
    | some tmax =>
      rw [h1, h2] at h
      dsimp only at h
      have e1 := congrArg Prod.fst h
      have e2 := congrArg Prod.snd h
      dsimp only at e1 e2
      subst e1
      refine ⟨⟨rfl, rfl, rfl, rfl, rfl, rfl, rfl, rfl⟩, rfl, rfl, rfl, ?_, ?_⟩
      · intro a b ha hb hl
        cases ha
        cases hb
        subst hl
        unfold bcLoop at e2 ⊢
        exact fitLoop_all (by rw [← e2])
      · rintro (h | h | h)
        · cases h
        · cases h
        · subst h; exact ⟨rfl, rfl⟩

/-- C68.  A call of `calc_radiation_stats` with daily data that returns without exception: only radiation parameters have changed; the mean course is that of
the hourly radiation; with sunshine data and day lengths, the Angstroem parameters of every month of the year are those fitted to the days of its
group (year, season or month) — else they are unchanged; with tmin and tmax the same holds for the Bristow-Campbell parameters, *except* that for
how='monthly' together with sunshine data and day lengths no Bristow-Campbell parameter is changed at all. -/
theorem C68_returns (C : CanFit api s data f glob hours lon lat tz) (h : calcRadiation api angFit bcFit s (some f) dayLength how = (s', none)) :
    OnlyGlob s s' ∧ s'.obj.glob.course = some (meanDailyCourseByMonth glob) ∧
    (∀ ssd dl, f.col? "ssd" = some ssd → dayLength = some dl →
      FittedByMonth angFit how (fitFrame ssd dl (potentialMeans hours lon lat tz) (glob.resampleD meanSkip)) s'.obj.glob.angA s'.obj.glob.angB) ∧
    (f.col? "ssd" = none ∨ dayLength = none → s'.obj.glob.angA = s.obj.glob.angA ∧ s'.obj.glob.angB = s.obj.glob.angB) ∧
    (∀ tmin tmax, f.col? "tmin" = some tmin → f.col? "tmax" = some tmax → ¬ (how = "monthly" ∧ f.col? "ssd" ≠ none ∧ dayLength ≠ none) →
      FittedByMonth bcFit how (fitFrame tmin tmax (potentialMeans hours lon lat tz) (glob.resampleD meanSkip)) s'.obj.glob.bcA s'.obj.glob.bcC) ∧
    (how = "monthly" → f.col? "ssd" ≠ none → dayLength ≠ none → s'.obj.glob.bcA = s.obj.glob.bcA ∧ s'.obj.glob.bcC = s.obj.glob.bcC) ∧
    (f.col? "tmin" = none ∨ f.col? "tmax" = none → s'.obj.glob.bcA = s.obj.glob.bcA ∧ s'.obj.glob.bcC = s.obj.glob.bcC) := by
  have hh : how = "all" ∨ how = "seasonal" ∨ how = "monthly" := by
    by_contra hc
    unfold calcRadiation at h
    rw [if_pos hc] at h
    cases congrArg Prod.snd h
  rw [calcRadiation_eq C hh] at h
  by_cases hs : f.col? "ssd" = none ∨ dayLength = none
  · rw [fitRadiation_nossd hs] at h
    obtain ⟨h1, h2, h3, h4, h5, h6⟩ := bcPart_ok (how := how) h
    refine ⟨h1, h2, ?_, fun _ => ⟨h3, h4⟩, ?_, ?_, ?_⟩
    · intro ssd dl e1 e2
      rcases hs with hs | hs
      · rw [hs] at e1; cases e1
      · rw [hs] at e2; cases e2
    · intro tmin tmax e1 e2 _
      exact (h5 tmin tmax e1 e2 rfl).1
    · intro _ e1 e2
      rcases hs with hs | hs
      · exact absurd hs e1
      · exact absurd hs e2
    · intro e
      exact h6 (by rcases e with e | e <;> simp [e])
  · rw [not_or] at hs
    obtain ⟨hs1, hs2⟩ := hs
    obtain ⟨ssd, hssd⟩ := Option.ne_none_iff_exists'.1 hs1
    obtain ⟨dl, rfl⟩ := Option.ne_none_iff_exists'.1 hs2
    rw [fitRadiation_ssd hssd] at h
    cases he : (angLoop angFit (withCourse s glob) how (fitFrame ssd dl (potentialMeans hours lon lat tz) (glob.resampleD meanSkip))).2 with
    | some e => rw [he] at h; cases congrArg Prod.snd h
    | none =>
      rw [he] at h
      dsimp only at h
      obtain ⟨h1, h2, h3, h4, h5, h6⟩ := bcPart_ok (how := how) h
      refine ⟨h1, h2, ?_, ?_, ?_, ?_, ?_⟩
      · intro ssd' dl' e1 e2
        rw [hssd] at e1
        cases e1
        cases e2
        rw [h3, h4]
        exact (fitLoop_all (tab' := (angLoop angFit (withCourse s glob) how (fitFrame ssd dl (potentialMeans hours lon lat tz)
          (glob.resampleD meanSkip))).1) (by rw [← he]; rfl)).1
      · rintro (e | e)
        · exact absurd e hs1
        · cases e
      · intro tmin tmax e1 e2 hne
        refine (h5 tmin tmax e1 e2 ?_).1
        rw [if_neg]
        intro hm
        exact hne ⟨(monthRanges_once how hh).1 hm, hs1, by simp⟩
      · intro e1 _ _
        exact h6 (.inr (.inr (by rw [if_pos ((monthRanges_once how hh).2 e1)])))
      · intro e
        exact h6 (by rcases e with e | e <;> simp [e])

/-- C68 (failing fit).  With sunshine data and day lengths: if the Angstroem fit raises for some month group, the call raises that exception (of the first such
group in the order of the loop); the months of the groups before it have their new parameters, all other months the old ones, the Bristow-Campbell
parameters are unchanged, and the mean course is the new one: the object is left half updated. -/
theorem C68_failing_fit (C : CanFit api s data f glob hours lon lat tz) (hh : how = "all" ∨ how = "seasonal" ∨ how = "monthly") {ssd dl : Series (XF ℝ)}
    (h1 : f.col? "ssd" = some ssd) (h2 : dayLength = some dl) {g : List Int} (hg : g ∈ (monthRanges how).1) {e : PyErr} {rows : List FitRow}
    (hrows : rows = fitFrame ssd dl (potentialMeans hours lon lat tz) (glob.resampleD meanSkip))
    (hf : angFit (rows.filter fun r => decide (monthOf r.1 ∈ g)) = .error e) :
    ∃ e' s', calcRadiation api angFit bcFit s (some f) dayLength how = (s', some e') ∧ OnlyGlob s s' ∧
      s'.obj.glob.course = some (meanDailyCourseByMonth glob) ∧ s'.obj.glob.bcA = s.obj.glob.bcA ∧ s'.obj.glob.bcC = s.obj.glob.bcC ∧
      ∃ pre g' post, (monthRanges how).1 = pre ++ g' :: post ∧ angFit (rows.filter fun r => decide (monthOf r.1 ∈ g')) = .error e' ∧
        (∀ q ∈ pre, ∃ p, angFit (rows.filter fun r => decide (monthOf r.1 ∈ q)) = .ok p ∧ ∀ m ∈ q,
          atMonth s'.obj.glob.angA m = some p.1 ∧ atMonth s'.obj.glob.angB m = some p.2) ∧
        ∀ m, (∀ q ∈ pre, m ∉ q) → atMonth s'.obj.glob.angA m = atMonth s.obj.glob.angA m ∧ atMonth s'.obj.glob.angB m = atMonth s.obj.glob.angB m := by
  subst h2
  obtain ⟨pre, post, e1, e2, e3, e4⟩ := fitLoop_spec angFit (fun g => rows.filter fun r => g.contains (monthOf r.1)) _ (ranges_disjoint how)
    ((withCourse s glob).obj.glob.angA, (withCourse s glob).obj.glob.angB)
  have key : ∃ e' g' rest, post = g' :: rest ∧ angFit (rows.filter fun r => g'.contains (monthOf r.1)) = .error e' ∧
      (fitLoop angFit (fun g => rows.filter fun r => g.contains (monthOf r.1)) (monthRanges how).1
        ((withCourse s glob).obj.glob.angA, (withCourse s glob).obj.glob.angB)).2 = some e' := by
    rcases e4 with ⟨_, hp⟩ | h
    · exfalso
      rw [hp, List.append_nil] at e1
      obtain ⟨p, hp1, _⟩ := e2 g (e1 ▸ hg)
      rw [filter_contains, hf] at hp1
      cases hp1
    · exact h
  obtain ⟨e', g', rest, hp, he', hsnd⟩ := key
  have hloop : (angLoop angFit (withCourse s glob) how (fitFrame ssd dl (potentialMeans hours lon lat tz) (glob.resampleD meanSkip))).2 = some e' := by
    rw [← hrows]; exact hsnd
  refine ⟨e', withAng (withCourse s glob)
    (angLoop angFit (withCourse s glob) how (fitFrame ssd dl (potentialMeans hours lon lat tz) (glob.resampleD meanSkip))).1, ?_, ?_, rfl, rfl, rfl, ?_⟩
  · rw [calcRadiation_eq C hh, fitRadiation_ssd h1, hloop]
  · exact ⟨rfl, rfl, rfl, rfl, rfl, rfl, rfl, rfl⟩
  · rw [filter_contains] at he'
    rw [← hrows]
    refine ⟨pre, g', rest, by rw [e1, hp], he', ?_, e3⟩
    intro q hq
    obtain ⟨p, hp1, hp2⟩ := e2 q hq
    rw [filter_contains] at hp1
    exact ⟨p, hp1, hp2⟩

/-- C68 (arguments).  Any other value of `how` is refused with AssertionError before anything changes; without daily data only the mean course is set; missing
coordinates raise TypeError after the mean course was set. -/
theorem C68_arguments :
    (how ≠ "all" → how ≠ "seasonal" → how ≠ "monthly" → ∀ daily, calcRadiation api angFit bcFit s daily dayLength how = (s, some .assertionError)) ∧
    (how = "all" ∨ how = "seasonal" ∨ how = "monthly" → s.data = some data → data.col? "glob" = some glob →
      calcRadiation api angFit bcFit s none dayLength how = (withCourse s glob, none) ∧
      ((s.obj.lon = none ∨ s.obj.lat = none ∨ s.obj.tz = none) → hourlyIndex api f.index = .ok hours →
        calcRadiation api angFit bcFit s (some f) dayLength how = (withCourse s glob, some .typeError))) := by
  constructor
  · intro h1 h2 h3 daily
    unfold calcRadiation
    rw [if_pos (by simp [h1, h2, h3])]
  · intro hh hd hg
    obtain ⟨⟨slon, slat, stz, w, pr, hu, te, gl⟩, sd⟩ := s
    dsimp only at hd
    subst hd
    constructor
    · unfold calcRadiation
      rw [if_neg (not_not.2 hh)]
      dsimp only
      rw [attr_ok hg]
      rfl
    · intro hc hi
      unfold calcRadiation
      rw [if_neg (not_not.2 hh)]
      dsimp only at hc ⊢
      rw [attr_ok hg]
      dsimp only
      rw [hi]
      dsimp only
      rcases hc with hc | hc | hc
      · subst hc; rfl
      · subst hc; cases slon <;> rfl
      · subst hc; cases slon <;> cases slat <;> rfl

theorem fitLoop_total {fit : List FitRow → Py (XF ℝ × XF ℝ)} (hf : ∀ l, ∃ p, fit l = .ok p) (rows : List Int → List FitRow) :
    ∀ ranges tab, (fitLoop fit rows ranges tab).2 = none
  | [], _ => rfl
  | g :: rest, tab => by
    obtain ⟨p, hp⟩ := hf (rows g)
    rw [fitLoop, hp]
    exact fitLoop_total hf rows rest _

/-- C68 (no exception).  If no fit raises, neither does the call. -/
theorem C68_no_exception (C : CanFit api s data f glob hours lon lat tz) (hh : how = "all" ∨ how = "seasonal" ∨ how = "monthly")
    (ha : ∀ l, ∃ p, angFit l = .ok p) (hb : ∀ l, ∃ p, bcFit l = .ok p) : ∃ s', calcRadiation api angFit bcFit s (some f) dayLength how = (s', none) := by
  have key : ∀ t left pot obs, (bcPart bcFit t f left pot obs).2 = none := by
    intro t left pot obs
    unfold bcPart
    cases f.col? "tmin" with
    | none => rfl
    | some a =>
      cases f.col? "tmax" with
      | none => rfl
      | some b => exact fitLoop_total hb _ _ _
  refine ⟨_, Prod.ext rfl ?_⟩
  dsimp only
  rw [calcRadiation_eq C hh]
  by_cases hs : f.col? "ssd" = none ∨ dayLength = none
  · rw [fitRadiation_nossd hs]; exact key _ _ _ _
  · rw [not_or] at hs
    obtain ⟨ssd, hssd⟩ := Option.ne_none_iff_exists'.1 hs.1
    obtain ⟨dl, rfl⟩ := Option.ne_none_iff_exists'.1 hs.2
    rw [fitRadiation_ssd hssd]
    have : (angLoop angFit (withCourse s glob) how (fitFrame ssd dl (potentialMeans hours lon lat tz) (glob.resampleD meanSkip))).2 = none :=
      fitLoop_total ha _ _ _
    rw [this]
    exact key _ _ _ _

end

/-! ## The hypotheses can be met -/

/-- the daily data of the example: three days with sunshine and temperature -/
noncomputable def exDaily : Frame ℝ :=
  { index := daysFromTo 0 2, cols := [("ssd", [.fin 1, .fin 5, .fin 3]), ("tmin", [.fin 0, .fin 1, .fin 0]), ("tmax", [.fin 9, .fin 8, .nan])] }

/-- the object of the example: two hours of radiation -/
noncomputable def exStats : StatsObj :=
  { obj := { lon := some 11, lat := some 47, tz := some 1 }, data := some { index := [0, HOUR], cols := [("glob", [.fin 0, .fin 100])] } }

theorem exCanFit : ∃ hours glob, CanFit .modern exStats { index := [0, HOUR], cols := [("glob", [.fin 0, .fin 100])] } exDaily glob hours 11 47 1 := by
  obtain ⟨idx, h, _⟩ := World.days_hourlyIndex .modern (a := 0) (b := 2) (by omega)
  exact ⟨idx, _, rfl, rfl, h, rfl, rfl, rfl⟩

/-- a monthly fit: the Angstroem parameters are set, those of Bristow-Campbell are not -/
example : ∃ s', calcRadiation .modern (fun _ => .ok (.fin 1, .fin 2)) (fun _ => .ok (.fin 3, .fin 4)) exStats (some exDaily) (some [(0, .fin 9)]) "monthly" =
    (s', none) ∧ atMonth s'.obj.glob.angA 7 = some (.fin 1) ∧ s'.obj.glob.bcA = exStats.obj.glob.bcA := by
  obtain ⟨hours, glob, C⟩ := exCanFit
  obtain ⟨s', h⟩ := C68_no_exception (angFit := fun _ => .ok (.fin 1, .fin 2)) (bcFit := fun _ => .ok (.fin 3, .fin 4)) (dayLength := some [(0, .fin 9)])
    (how := "monthly") C (.inr (.inr rfl)) (fun _ => ⟨_, rfl⟩) fun _ => ⟨_, rfl⟩
  obtain ⟨_, _, h3, _, _, h6, _⟩ := C68_returns C h
  obtain ⟨p, hp, hp1, _⟩ := h3 _ _ rfl rfl 7 (by omega) (by omega)
  cases hp
  exact ⟨s', h, hp1, (h6 rfl (by simp [exDaily, Frame.col?]) (by simp)).1⟩

/-- the same data with how='all': both are set -/
example : ∃ s', calcRadiation .modern (fun _ => .ok (.fin 1, .fin 2)) (fun _ => .ok (.fin 3, .fin 4)) exStats (some exDaily) (some [(0, .fin 9)]) "all" =
    (s', none) ∧ atMonth s'.obj.glob.angA 7 = some (.fin 1) ∧ atMonth s'.obj.glob.bcC 7 = some (.fin 4) := by
  obtain ⟨hours, glob, C⟩ := exCanFit
  obtain ⟨s', h⟩ := C68_no_exception (angFit := fun _ => .ok (.fin 1, .fin 2)) (bcFit := fun _ => .ok (.fin 3, .fin 4)) (dayLength := some [(0, .fin 9)])
    (how := "all") C (.inl rfl) (fun _ => ⟨_, rfl⟩) fun _ => ⟨_, rfl⟩
  obtain ⟨_, _, h3, _, h5, _, _⟩ := C68_returns C h
  obtain ⟨p, hp, hp1, _⟩ := h3 _ _ rfl rfl 7 (by omega) (by omega)
  cases hp
  obtain ⟨q, hq, _, hq2⟩ := h5 _ _ rfl rfl (by simp) 7 (by omega) (by omega)
  cases hq
  exact ⟨s', h, hp1, hq2⟩

/-- a fit that fails: the first group fails, the exception is passed on -/
example : ∃ s', calcRadiation .modern (fun _ => .error .valueError) (fun _ => .ok (.fin 3, .fin 4)) exStats (some exDaily) (some [(0, .fin 9)]) "all" =
    (s', some .valueError) := by
  obtain ⟨hours, glob, C⟩ := exCanFit
  obtain ⟨e', s', h, _, _, _, _, _, _, _, _, he, _⟩ := C68_failing_fit (angFit := fun _ => .error .valueError) (bcFit := fun _ => .ok (.fin 3, .fin 4))
    (dayLength := some [(0, .fin 9)]) (how := "all") C (.inl rfl) rfl rfl (g := wholeYear) (by simp [monthRanges]) (e := .valueError) rfl rfl
  cases he
  exact ⟨s', h⟩

end StatsObj

end Melodist
