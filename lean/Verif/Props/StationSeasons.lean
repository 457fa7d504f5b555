import Verif.Lemmas.Seasons
import Verif.Lemmas.Humidity
import Verif.Lemmas.Master

/-!
# C67: the seasonal cascade of a station
-/

set_option linter.unusedSectionVars false

namespace Melodist
open Spec

/-- the day is in a season that has at least two days in the data -/
def Covered (d0 : Int) (n : Nat) (seasons : List (List Int × CascOptions ℝ)) (i : Nat) : Prop :=
  ∃ s ∈ seasons, InSeason d0 s.1 i ∧ TwoDays d0 n s.1

section
variable {api : PandasApi} {d0 : Int} {n : Nat} {v : Nat → XF ℝ} {zerodiv : String}

/-- one pass of the loop, for a season without gap or with less than two days -/
theorem season_pass {months : List Int} {rnd : Nat → ℝ} {opts : CascOptions ℝ} (hne : months ≠ []) (hd : months.Nodup) {f : Nat → Nat → XF ℝ}
    {acc : Series (XF ℝ)} (hc : TwoDays d0 n months → Contiguous d0 n months)
    (h : (if 1 < ((seasonDays d0 n months).map fun i : Nat => (at00 (d0 + i), v i)).length then do
        let data ← disaggPrec api rnd (.series ((seasonDays d0 n months).map fun i : Nat => (at00 (d0 + i), v i))) "cascade" (some opts) none zerodiv 0
        World.locAssign (hourlyS d0 n f) data
      else .ok (hourlyS d0 n f)) = .ok acc) :
    ∃ g, acc = hourlyS d0 n g ∧ (∀ i < n, InSeason d0 months i ∧ TwoDays d0 n months → DayDone (v i) (g i)) ∧
      (∀ i < n, ¬ (InSeason d0 months i ∧ TwoDays d0 n months) → ∀ h < 24, g i h = f i h) := by
  by_cases h2 : TwoDays d0 n months
  · obtain ⟨a, m, hm2, ham, hiff, hdays⟩ := contiguous_range (hc h2) h2
    have hsub : ((seasonDays d0 n months).map fun i : Nat => (at00 (d0 + i), v i)) = dailyS (d0 + a) m fun j => v (a + j) := by
      rw [hdays, List.map_map]
      unfold dailyS
      apply List.map_congr_left
      intro j _
      simp only [Function.comp_apply]
      congr 2
      push_cast
      ring
    rw [hsub, if_pos (by rw [dailyS_length]; omega), cascade_call] at h
    cases hr : disaggPrecCascade api rnd (dailyS (d0 + a) m fun j => v (a + j)) opts (shift := 0) with
    | error e => rw [hr] at h; cases h
    | ok r =>
      rw [hr] at h
      obtain ⟨_, hcell, w, z, _, _, hser, hsum⟩ := cascade_hourly_eq hr
      rw [if_neg (by simp)] at hser
      change World.locAssign (hourlyS d0 n f) r.series = .ok acc at h
      rw [hser, locAssign_hourly d0 ham] at h
      refine ⟨_, (Except.ok.inj h).symm, ?_, ?_⟩
      · rintro i hi ⟨hs, _⟩
        obtain ⟨h1, h3⟩ := (hiff i hi).1 hs
        have e : a + (i - a) = i := by omega
        constructor
        · intro hx h' _
          dsimp only
          rw [if_pos ⟨h1, h3⟩, e, hx]
          rfl
        · intro y hy
          obtain ⟨s1, s2⟩ := hsum (i - a) (by omega) y (by rw [e]; exact hy)
          refine ⟨z (i - a), fun h' hh => ⟨?_, s2 h' hh⟩, s1⟩
          dsimp only
          rw [if_pos ⟨h1, h3⟩, e, hy]
          rfl
      · intro i hi hn h' _
        rw [if_neg]
        exact fun hin => hn ⟨(hiff i hi).2 hin, h2⟩
  · rw [if_neg (by rw [List.length_map, twoDays_iff]; exact h2)] at h
    exact ⟨f, (Except.ok.inj h).symm, fun i _ hh => absurd hh.2 h2, fun i _ _ _ _ => rfl⟩

/-- what one season does to the hourly series -/
noncomputable def seasonPass (api : PandasApi) (zerodiv : String) (rnd : Nat → ℝ) (opts : CascOptions ℝ) (sub acc : Series (XF ℝ)) : Py (Series (XF ℝ)) :=
  if 1 < sub.length then do
    let data ← disaggPrec api rnd (.series sub) "cascade" (some opts) none zerodiv 0
    World.locAssign acc data
  else .ok acc

theorem seasonLoop_cons {months : List Int} {opts : CascOptions ℝ} (hne : months ≠ []) (hd : months.Nodup) (rnd : Nat → Nat → ℝ)
    (rest : List (List Int × CascOptions ℝ)) (acc : Series (XF ℝ)) :
    World.seasonLoop api (dailyS d0 n v) 0 zerodiv rnd ((months, opts) :: rest) acc =
      (seasonPass api zerodiv (rnd 0) opts ((seasonDays d0 n months).map fun i : Nat => (at00 (d0 + i), v i)) acc).bind
        fun acc => World.seasonLoop api (dailyS d0 n v) 0 zerodiv (fun k => rnd (k + 1)) rest acc := by
  conv_lhs => unfold World.seasonLoop
  rw [subset_eq d0 n v hne hd, py_ok_bind]
  unfold seasonPass
  by_cases h : 1 < ((seasonDays d0 n months).map fun i : Nat => (at00 (d0 + i), v i)).length
  · rw [if_pos h, if_pos h]
    cases disaggPrec api (rnd 0) (.series ((seasonDays d0 n months).map fun i : Nat => (at00 (d0 + i), v i))) "cascade" (some opts) none zerodiv 0 <;> rfl
  · rw [if_neg h, if_neg h]
    rfl

/-- the whole loop -/
theorem seasonLoop_days (hapi : api.indexToDatetime = false) (seasons : List (List Int × CascOptions ℝ)) (hd : ∀ s ∈ seasons, s.1.Nodup) :
    ∀ (rnd : Nat → Nat → ℝ) (f : Nat → Nat → XF ℝ) (r : Series (XF ℝ)),
      World.seasonLoop api (dailyS d0 n v) 0 zerodiv rnd seasons (hourlyS d0 n f) = .ok r →
      (∀ s ∈ seasons, TwoDays d0 n s.1 → Contiguous d0 n s.1) ∧
      ∃ g, r = hourlyS d0 n g ∧ (∀ i < n, Covered d0 n seasons i → DayDone (v i) (g i)) ∧
        (∀ i < n, ¬ Covered d0 n seasons i → ∀ h < 24, g i h = f i h) := by
  induction seasons with
  | nil =>
    intro rnd f r h
    unfold World.seasonLoop at h
    refine ⟨by simp, f, (Except.ok.inj h).symm, ?_, fun i _ _ _ _ => rfl⟩
    rintro i _ ⟨s, hs, _⟩
    simp at hs
  | cons s rest ih =>
    obtain ⟨months, opts⟩ := s
    intro rnd f r h
    have hd1 : months.Nodup := hd (months, opts) (by simp)
    by_cases hne : months = []
    · subst hne
      unfold World.seasonLoop seasonalSubset at h
      cases h
    rw [seasonLoop_cons hne hd1] at h
    obtain ⟨acc, hacc, hrest⟩ := py_bind_inv h
    unfold seasonPass at hacc
    have hc : TwoDays d0 n months → Contiguous d0 n months := by
      intro h2
      have hh := hacc
      rw [if_pos (by rw [List.length_map, twoDays_iff]; exact h2), cascade_call] at hh
      obtain ⟨data, hdata, _⟩ := py_bind_inv hh
      cases hr : disaggPrecCascade api (rnd 0) ((seasonDays d0 n months).map fun i : Nat => (at00 (d0 + i), v i)) opts (shift := 0) with
      | error e => rw [hr] at hdata; cases hdata
      | ok r => exact season_no_gap hapi hr
    obtain ⟨g1, rfl, k1, k2⟩ := season_pass hne hd1 hc hacc
    obtain ⟨c, g, rfl, k3, k4⟩ := ih (fun s hs => hd s (by simp [hs])) _ _ _ hrest
    refine ⟨?_, g, rfl, ?_, ?_⟩
    · intro s hs
      rcases List.mem_cons.1 hs with rfl | hs
      · exact hc
      · exact c s hs
    · rintro i hi ⟨s, hs, h1, h2⟩
      by_cases hcov : Covered d0 n rest i
      · exact k3 i hi hcov
      · rcases List.mem_cons.1 hs with rfl | hs
        · obtain ⟨q1, q2⟩ := k1 i hi ⟨h1, h2⟩
          refine ⟨fun hx h' hh => by rw [k4 i hi hcov h' hh, q1 hx h' hh], fun y hy => ?_⟩
          obtain ⟨z, z1, z2⟩ := q2 y hy
          exact ⟨z, fun h' hh => by rw [k4 i hi hcov h' hh]; exact z1 h' hh, z2⟩
        · exact absurd ⟨s, hs, h1, h2⟩ hcov
    · intro i hi hn h' hh
      rw [k4 i hi (fun ⟨s, hs, q⟩ => hn ⟨s, List.mem_cons_of_mem _ hs, q⟩) h' hh]
      exact k2 i hi (fun q => hn ⟨(months, opts), List.mem_cons_self, q⟩) h' hh

/-- usable statistics: the loop succeeds exactly when no season has a gap, and raises AttributeError otherwise -/
theorem seasonLoop_decides (hapi : api.indexToDatetime = false) (hv : ∀ i < n, v i = .nan ∨ ∃ x, 0 ≤ x ∧ v i = .fin x)
    (seasons : List (List Int × CascOptions ℝ)) (hd : ∀ s ∈ seasons, s.1 ≠ [] ∧ s.1.Nodup ∧ UsableOptions 5 s.2) :
    ∀ (rnd : Nat → Nat → ℝ) (_ : ∀ k j, rnd k j ≤ 1) (f : Nat → Nat → XF ℝ),
      ((∀ s ∈ seasons, TwoDays d0 n s.1 → Contiguous d0 n s.1) →
        ∃ r, World.seasonLoop api (dailyS d0 n v) 0 zerodiv rnd seasons (hourlyS d0 n f) = .ok r) ∧
      ((∃ s ∈ seasons, TwoDays d0 n s.1 ∧ ¬ Contiguous d0 n s.1) →
        World.seasonLoop api (dailyS d0 n v) 0 zerodiv rnd seasons (hourlyS d0 n f) = .error .attributeError) := by
  induction seasons with
  | nil =>
    intro rnd _ f
    exact ⟨fun _ => ⟨_, rfl⟩, fun ⟨s, hs, _⟩ => by simp at hs⟩
  | cons s rest ih =>
    obtain ⟨months, opts⟩ := s
    intro rnd hr f
    obtain ⟨hne, hd1, ho⟩ := hd (months, opts) (by simp)
    have ih := ih (fun s hs => hd s (by simp [hs])) (fun k => rnd (k + 1)) (fun k j => hr _ _)
    by_cases hbad : TwoDays d0 n months ∧ ¬ Contiguous d0 n months
    · refine ⟨fun h => absurd (h (months, opts) (by simp) hbad.1) hbad.2, fun _ => ?_⟩
      rw [seasonLoop_cons hne hd1]
      unfold seasonPass
      rw [if_pos (by rw [List.length_map, twoDays_iff]; exact hbad.1), cascade_call, season_gap_raises hapi (hr 0) ho hv hbad.1 hbad.2]
      rfl
    · have hc : TwoDays d0 n months → Contiguous d0 n months := fun h => by_contra fun h' => hbad ⟨h, h'⟩
      have hpass : ∃ acc, (if 1 < ((seasonDays d0 n months).map fun i : Nat => (at00 (d0 + i), v i)).length then do
          let data ← disaggPrec api (rnd 0) (.series ((seasonDays d0 n months).map fun i : Nat => (at00 (d0 + i), v i))) "cascade" (some opts) none zerodiv 0
          World.locAssign (hourlyS d0 n f) data
        else .ok (hourlyS d0 n f)) = .ok acc := by
        by_cases h2 : TwoDays d0 n months
        · obtain ⟨a, m, hm2, ham, hiff, hdays⟩ := contiguous_range (hc h2) h2
          have hsub : ((seasonDays d0 n months).map fun i : Nat => (at00 (d0 + i), v i)) = dailyS (d0 + a) m fun j => v (a + j) := by
            rw [hdays, List.map_map]
            unfold dailyS
            apply List.map_congr_left
            intro j _
            simp only [Function.comp_apply]
            congr 2
            push_cast
            ring
          obtain ⟨r, hr⟩ := C19_cascade_total api (rnd 0) (hr 0) opts ho (d0 + a) m hm2 (fun j => v (a + j)) (fun j hj => hv _ (by omega)) 9 0 false
          obtain ⟨_, _, w, z, _, _, hser, _⟩ := cascade_hourly_eq hr
          rw [if_neg (by simp)] at hser
          rw [hsub, if_pos (by rw [dailyS_length]; omega), cascade_call, hr]
          change ∃ acc, World.locAssign (hourlyS d0 n f) r.series = .ok acc
          rw [hser, locAssign_hourly d0 ham]
          exact ⟨_, rfl⟩
        · rw [if_neg (by rw [List.length_map, twoDays_iff]; exact h2)]
          exact ⟨_, rfl⟩
      obtain ⟨acc, hacc⟩ := hpass
      obtain ⟨g, rfl, _, _⟩ := season_pass hne hd1 hc hacc
      have step : World.seasonLoop api (dailyS d0 n v) 0 zerodiv rnd ((months, opts) :: rest) (hourlyS d0 n f) =
          World.seasonLoop api (dailyS d0 n v) 0 zerodiv (fun k => rnd (k + 1)) rest (hourlyS d0 n g) := by
        rw [seasonLoop_cons hne hd1]
        unfold seasonPass
        rw [hacc]
        rfl
      rw [step]
      refine ⟨fun h => (ih g).1 fun s hs => h s (by simp [hs]), fun ⟨s, hs, hb⟩ => (ih g).2 ⟨s, ?_, hb⟩⟩
      rcases List.mem_cons.1 hs with rfl | hs
      · exact absurd hb hbad
      · exact hs

end

namespace World

/-- station `i` has daily precipitation `v` on the `n` days from `d0` on, a result frame `k` with the hours of these days, and seasonal statistics -/
structure SeasonalStation (w : World) (i : Nat) (d0 : Int) (n : Nat) (v : Nat → XF ℝ) (k : Nat) (seasons : List (List Int × CascOptions ℝ)) : Prop where
  daily : ∃ f, (w.stations i).daily = some f ∧ f.col? "precip" = some (dailyS d0 n v)
  disagg : (w.stations i).disagg = some k
  index : (w.frames k).index = Series.index (hourlyS d0 n fun _ _ => (XF.nan : XF ℝ))
  column : (w.frames k).has "precip" = true
  stats : ∃ ms st, (w.statOf i).precip.months = some ms ∧ (w.statOf i).precip.stats = some st ∧ ms.zip st = seasons

variable {api : PandasApi} {w : World} {i : Nat} {d0 : Int} {n : Nat} {v : Nat → XF ℝ} {k : Nat} {seasons : List (List Int × CascOptions ℝ)}
  {rnd : Nat → Nat → ℝ} {zerodiv : String} {master : Option (Series (XF ℝ))}

theorem precipSeries_cascade (h : SeasonalStation w i d0 n v k seasons) :
    w.precipSeries api i rnd "cascade" zerodiv 0 master = seasonLoop api (dailyS d0 n v) 0 zerodiv rnd seasons (hourlyS d0 n fun _ _ => .nan) := by
  obtain ⟨⟨f, h1, h2⟩, h3, h4, _, ms, st, h5, h6, h7⟩ := h
  have hstart : ((w.frames k).index.map fun t => (t, (XF.nan : XF ℝ))) = hourlyS d0 n fun _ _ => .nan := by
    rw [h4]
    simp [Series.index, hourlyS, Function.comp_def]
  unfold precipSeries
  rw [if_neg (by decide), if_pos rfl, h3]
  dsimp only
  rw [h5, h6]
  dsimp only
  rw [h7, hstart]
  cases seasons with
  | nil => rfl
  | cons s rest =>
    dsimp only
    unfold dailyAttr
    rw [h1]
    dsimp only
    rw [attr_ok h2]
    rfl

/-- C67.  Whenever `station.disaggregate_precipitation('cascade')` returns on current pandas (shift 0, no month twice in a season), the precip column of
`data_disagg` has on every day of a season with at least two days in the data the daily total in non-negative values, or 24 missing values
if the daily value is missing; all other days are missing altogether; and no season with two days has a gap. -/
theorem C67_days (hapi : api.indexToDatetime = false) (h : SeasonalStation w i d0 n v k seasons) (hd : ∀ s ∈ seasons, s.1.Nodup)
    (hok : (w.precipitation api i rnd "cascade" zerodiv 0 master).2 = none) :
    (∀ s ∈ seasons, TwoDays d0 n s.1 → Contiguous d0 n s.1) ∧
    ∃ out, ((w.precipitation api i rnd "cascade" zerodiv 0 master).1.frames k).col? "precip" = some out ∧
      out.index = (w.frames k).index ∧
      ∀ j < n,
        (Covered d0 n seasons j → (v j = .nan → AllNan (dayCells out (d0 + j))) ∧
          ∀ x, v j = .fin x → TotalIs (dayCells out (d0 + j)) (max x 0) ∧ ∀ c ∈ dayCells out (d0 + j), ∃ y, 0 ≤ y ∧ c = .fin y) ∧
        (¬ Covered d0 n seasons j → AllNan (dayCells out (d0 + j))) := by
  unfold precipitation at hok ⊢
  rw [precipSeries_cascade h] at hok ⊢
  cases hl : seasonLoop api (dailyS d0 n v) 0 zerodiv rnd seasons (hourlyS d0 n fun _ _ => .nan) with
  | error e => rw [hl] at hok; cases hok
  | ok r =>
    obtain ⟨c, g, rfl, k1, k2⟩ := seasonLoop_days hapi seasons hd rnd _ _ hl
    refine ⟨c, hourlyS d0 n g, ?_, ?_, ?_⟩
    · change ((w.writeCol i "precip" (.ok (.series (hourlyS d0 n g)))).1.frames k).col? "precip" = _
      unfold writeCol
      dsimp only
      rw [h.disagg]
      dsimp only
      have hi : Series.index (hourlyS d0 n g) = (w.frames k).index := by rw [h.index, hourlyS_index, hourlyS_index]
      have hv : columnValues (w.frames k).index (.series (hourlyS d0 n g)) = .ok (Series.values (hourlyS d0 n g)) := by
        unfold columnValues
        dsimp only
        rw [if_pos hi]
      rw [hv]
      dsimp only
      simp only [setFrame, Function.update_self]
      rw [replaceCol_col?_eq _ _ h.column, ← hi]
      congr 1
      unfold Series.index Series.values
      rw [List.zip_map']
      simp
    · rw [h.index, hourlyS_index, hourlyS_index]
    · intro j hj
      rw [dayCells_hourlyS d0 g hj]
      refine ⟨fun hc => ⟨fun hx => ?_, fun x hx => ?_⟩, fun hc => ?_⟩
      · intro q hq
        obtain ⟨h', hh, rfl⟩ := List.mem_map.1 hq
        exact (k1 j hj hc).1 hx h' (List.mem_range.1 hh)
      · obtain ⟨z, z1, z2⟩ := (k1 j hj hc).2 x hx
        refine ⟨⟨day24 z, ?_, z2⟩, ?_⟩
        · unfold day24
          rw [List.map_map]
          exact List.map_congr_left fun h' hh => (z1 h' (List.mem_range.1 hh)).1
        · intro q hq
          obtain ⟨h', hh, rfl⟩ := List.mem_map.1 hq
          exact ⟨z h', (z1 h' (List.mem_range.1 hh)).2, (z1 h' (List.mem_range.1 hh)).1⟩
      · intro q hq
        obtain ⟨h', hh, rfl⟩ := List.mem_map.1 hq
        exact k2 j hj hc h' (List.mem_range.1 hh)

/-- C67: with usable statistics and missing or non-negative precipitation the call on current pandas succeeds if and only if no season with at least two days
has a gap; otherwise it raises AttributeError and changes nothing. -/
theorem C67_gaps (hapi : api.indexToDatetime = false) (h : SeasonalStation w i d0 n v k seasons)
    (hv : ∀ i < n, v i = .nan ∨ ∃ x, 0 ≤ x ∧ v i = .fin x) (hd : ∀ s ∈ seasons, s.1 ≠ [] ∧ s.1.Nodup ∧ UsableOptions 5 s.2)
    (hr : ∀ k j, rnd k j ≤ 1) :
    ((∀ s ∈ seasons, TwoDays d0 n s.1 → Contiguous d0 n s.1) → (w.precipitation api i rnd "cascade" zerodiv 0 master).2 = none) ∧
    ((∃ s ∈ seasons, TwoDays d0 n s.1 ∧ ¬ Contiguous d0 n s.1) →
      w.precipitation api i rnd "cascade" zerodiv 0 master = (w, some .attributeError)) := by
  obtain ⟨d1, d2⟩ := seasonLoop_decides (zerodiv := zerodiv) hapi hv seasons hd rnd hr (fun _ _ => .nan)
  unfold precipitation
  rw [precipSeries_cascade h]
  constructor
  · intro hc
    obtain ⟨r, hl⟩ := d1 hc
    obtain ⟨_, g, rfl, _, _⟩ := seasonLoop_days hapi seasons (fun s hs => (hd s hs).2.1) rnd _ _ hl
    rw [hl]
    change (w.writeCol i "precip" (.ok (.series (hourlyS d0 n g)))).2 = none
    unfold writeCol
    dsimp only
    rw [h.disagg]
    dsimp only
    have hi : Series.index (hourlyS d0 n g) = (w.frames k).index := by rw [h.index, hourlyS_index, hourlyS_index]
    have hv : columnValues (w.frames k).index (.series (hourlyS d0 n g)) = .ok (Series.values (hourlyS d0 n g)) := by
      unfold columnValues
      dsimp only
      rw [if_pos hi]
    rw [hv]
  · intro hc
    rw [d2 hc]
    rfl

/-- C67: without statistics the call raises TypeError, without daily data AttributeError -/
theorem C67_missing (hm : (w.statOf i).precip.months = none ∨ (w.statOf i).precip.stats = none) :
    ((w.stations i).disagg ≠ none → w.precipitation api i rnd "cascade" zerodiv 0 master = (w, some .typeError)) ∧
    ((w.stations i).disagg = none → w.precipitation api i rnd "cascade" zerodiv 0 master = (w, some .attributeError)) := by
  unfold precipitation precipSeries
  rw [if_neg (by decide), if_pos rfl]
  constructor
  · intro h
    obtain ⟨k, hk⟩ := Option.ne_none_iff_exists'.1 h
    rw [hk]
    dsimp only
    rcases hm with hm | hm
    · rw [hm]; rfl
    · rw [hm]
      cases (w.statOf i).precip.months <;> rfl
  · intro h
    rw [h]
    rfl

/-! ## Concrete cases -/

/-- statistics for the examples -/
noncomputable def realStats : CascStats ℝ where
  p01 := fun _ _ => .fin (1 / 4)
  p10 := fun _ _ => .fin (1 / 4)
  pxx := fun _ _ => .fin (1 / 2)
  wxx := fun k _ _ => .fin (if k = 3 then 1 else 0)
  threshold := [.fin 1, .fin 2, .fin 3, .fin 4, .fin 5]
  percentile := 50

theorem realStats_usable : UsableOptions 5 (.one realStats) := by
  refine ⟨fun b t => ⟨fun k => if k = 3 then 1 else 0, fun k => rfl, ?_⟩, by simp [realStats]⟩
  simp

/-- a station with 30 mm on each of the 31 days from 31 January 1970 (day 30) on, and one set of statistics for the given months -/
noncomputable def exampleWorld (months : List Int) : World :=
  { stations := fun _ => { daily := some ⟨Series.index (dailyS 30 31 fun _ => (XF.fin 30 : XF ℝ)), [("precip", Series.values (dailyS 30 31 fun _ => (XF.fin 30 : XF ℝ)))]⟩,
                           disagg := some 0 },
    frames := fun _ => emptyDisagg (Series.index (hourlyS 30 31 fun _ _ => (XF.nan : XF ℝ))),
    stats := fun _ => { precip := { months := some [months], stats := some [.one realStats] } } }

theorem series_of_columns {V : Type} (s : Series V) : s.index.zip s.values = s := by
  unfold Series.index Series.values
  rw [List.zip_map']
  simp

/-- the world of the examples has the required form, whatever the numbers of days -/
theorem exampleWorld_form (months : List Int) (d0 : Int) (n : Nat) (v : Nat → XF ℝ) :
    SeasonalStation
      { stations := fun _ => { daily := some ⟨Series.index (dailyS d0 n v), [("precip", Series.values (dailyS d0 n v))]⟩, disagg := some 0 },
        frames := fun _ => emptyDisagg (Series.index (hourlyS d0 n fun _ _ => (XF.nan : XF ℝ))),
        stats := fun _ => { precip := { months := some [months], stats := some [.one realStats] } } }
      0 d0 n v 0 [(months, .one realStats)] where
  daily := ⟨_, rfl, by simp [Frame.col?, series_of_columns]⟩
  disagg := rfl
  index := rfl
  column := rfl
  stats := ⟨_, _, rfl, rfl, rfl⟩

theorem exampleWorld_seasonal (months : List Int) :
    SeasonalStation (exampleWorld months) 0 30 31 (fun _ => .fin 30) 0 [(months, .one realStats)] :=
  exampleWorld_form months 30 31 fun _ => .fin 30

/-- January and February: no gap, so C67_gaps and C67_days apply: 1 February has its 30 mm, 2 March (in no season) is missing -/
example : ∃ out, (((exampleWorld [1, 2]).precipitation .modern 0 (fun _ _ => 1 / 2) "cascade" "uniform" 0 none).1.frames 0).col? "precip" = some out ∧
    TotalIs (dayCells out (30 + (1 : Nat))) 30 ∧ AllNan (dayCells out (30 + (30 : Nat))) := by
  have hs := exampleWorld_seasonal [1, 2]
  have hin : ∀ i < 31, InSeason 30 [1, 2] i ↔ i < 29 := by decide +kernel
  have h := (C67_gaps (api := .modern) (rnd := fun _ _ => 1 / 2) (zerodiv := "uniform") (master := none) rfl hs
    (fun _ _ => .inr ⟨30, by norm_num, rfl⟩) (by simp [realStats_usable]) (fun _ _ => by norm_num)).1 (by
      simp only [List.mem_singleton, forall_eq]
      intro _ i g j h1 h2 h3 h4 h5
      rw [hin _ (by omega)] at *
      omega)
  obtain ⟨_, out, h1, _, h2⟩ := C67_days (api := .modern) rfl hs (by simp) h
  refine ⟨out, h1, ?_, ?_⟩
  · have := ((h2 1 (by omega)).1 ⟨([1, 2], .one realStats), by simp, (hin 1 (by omega)).2 (by omega), 0, 1, by omega, by omega, (hin 0 (by omega)).2 (by omega), (hin 1 (by omega)).2 (by omega)⟩).2 30 rfl
    simpa using this.1
  · refine (h2 30 (by omega)).2 ?_
    rintro ⟨s, hs, h3, _⟩
    obtain rfl : s = _ := by simpa using hs
    exact absurd ((hin 30 (by omega)).1 h3) (by omega)

/-- January and March: February lies in between, so the call raises AttributeError -/
example : ((exampleWorld [1, 3]).precipitation .modern 0 (fun _ _ => 1 / 2) "cascade" "uniform" 0 none).2 = some .attributeError := by
  have hs := exampleWorld_seasonal [1, 3]
  have hin : InSeason 30 [1, 3] 0 ∧ ¬ InSeason 30 [1, 3] 5 ∧ InSeason 30 [1, 3] 30 := by decide +kernel
  rw [(C67_gaps (api := .modern) (rnd := fun _ _ => 1 / 2) (zerodiv := "uniform") (master := none) rfl hs
    (fun _ _ => .inr ⟨30, by norm_num, rfl⟩) (by simp [realStats_usable]) (fun _ _ => by norm_num)).2
    ⟨([1, 3], .one realStats), by simp, ⟨0, 30, by omega, by omega, hin.1, hin.2.2⟩, fun h => hin.2.1 (h 0 5 30 (by omega) (by omega) (by omega) hin.1 hin.2.2)⟩]

end World

end Melodist
