import Verif.Props.StationSeasons
import Verif.Props.CascadeGaps

/-!
# C67, seasons with gaps (older pandas)
-/

set_option linter.unusedSectionVars false

namespace Melodist
open Spec

section
variable {api : PandasApi} {d0 : Int} {n : Nat} {v : Nat → XF ℝ} {zerodiv : String}

/-- the record of a season -/
theorem season_labelled (d0 : Int) (days : List Nat) (v : Nat → XF ℝ) :
    (days.map fun i : Nat => (at00 (d0 + i), v i)) = labelled 0 (days.map fun i : Nat => d0 + (i : Int)) fun e => v (e - d0).toNat := by
  unfold labelled
  rw [List.map_map]
  apply List.map_congr_left
  intro i _
  simp only [Function.comp_apply]
  have h1 : at00 (d0 + (i : Int)) = atHour (d0 + i) 0 := by unfold at00 atHour; simp
  have h2 : (d0 + (i : Int) - d0).toNat = i := by omega
  rw [h1, h2]

theorem season_dates_sorted (d0 : Int) (n : Nat) (months : List Int) : ((seasonDays d0 n months).map fun i : Nat => d0 + (i : Int)).Pairwise (· < ·) := by
  rw [List.pairwise_map]
  exact (seasonDays_sorted d0 n months).imp (by intro x y h; omega)

/-- what the cascade returns for a season, written into the hourly series -/
theorem season_write {rnd : Nat → ℝ} {opts : CascOptions ℝ} {months : List Int} {r : CascadeOut ℝ} (f : Nat → Nat → XF ℝ)
    (hr : disaggPrecCascade api rnd ((seasonDays d0 n months).map fun i : Nat => (at00 (d0 + i), v i)) opts (shift := 0) = .ok r) :
    ∃ g, World.locAssign (hourlyS d0 n f) r.series = .ok (hourlyS d0 n g) ∧ (∀ i < n, InSeason d0 months i → DayDone (v i) (g i)) ∧
      ∀ i < n, ¬ InSeason d0 months i → ∀ h < 24, g i h = f i h := by
  rw [season_labelled] at hr
  have hs := season_dates_sorted d0 n months
  obtain ⟨c1, c2, _⟩ := C141_hours (hs.imp fun h => ne_of_lt h) hr
  have c3 := C141_hours_in_order hs hr
  have hmem : ∀ i < n, ∀ h < 24, (atHour (d0 + (i : Int)) h ∈ r.series.index ↔ InSeason d0 months i) := by
    intro i hi h hh
    rw [c2]
    constructor
    · rintro ⟨d, hd, j, hj, e⟩
      obtain ⟨k, hk, rfl⟩ := List.mem_map.1 hd
      have : k = i := by unfold atHour at e; omega
      exact this ▸ (mem_seasonDays.1 hk).2
    · intro hin
      exact ⟨d0 + i, List.mem_map.2 ⟨i, mem_seasonDays.2 ⟨hi, hin⟩, rfl⟩, h, hh, rfl⟩
  have hat : ∀ i < n, InSeason d0 months i → ∀ h < 24, ∃ x, (atHour (d0 + (i : Int)) h, x) ∈ r.series := by
    intro i hi hin h hh
    obtain ⟨row, hrow, e⟩ := List.mem_map.1 ((hmem i hi h hh).2 hin)
    exact ⟨row.2, by rw [← e]; exact hrow⟩
  have hnone : ∀ i < n, ¬ InSeason d0 months i → ∀ h < 24, r.series.at? (atHour (d0 + (i : Int)) h) = none := by
    intro i hi hin h hh
    unfold Series.at?
    rw [Option.map_eq_none_iff, List.find?_eq_none]
    intro row hrow
    simp only [beq_iff_eq]
    intro e
    exact hin ((hmem i hi h hh).1 (e ▸ List.mem_map.2 ⟨row, hrow, rfl⟩))
  refine ⟨fun i h => match r.series.at? (atHour (d0 + (i : Int)) h) with | some x => x | none => f i h, ?_, ?_, ?_⟩
  · unfold World.locAssign
    rw [if_pos]
    · congr 1
      unfold hourlyS
      rw [List.map_map]
      rfl
    · rw [List.all_eq_true]
      intro row hrow
      rw [List.contains_iff_mem]
      obtain ⟨d, hd, j, hj, e⟩ := (c2 row.1).1 (List.mem_map.2 ⟨row, hrow, rfl⟩)
      obtain ⟨k, hk, rfl⟩ := List.mem_map.1 hd
      have hkn := (mem_seasonDays.1 hk).1
      rw [e]
      refine List.mem_map.2 ⟨(atHour (d0 + (k : Int)) j, f k j), List.mem_map.2 ⟨24 * k + j, List.mem_range.2 (by omega), ?_⟩, rfl⟩
      rw [show (24 * k + j) / 24 = k by omega, show (24 * k + j) % 24 = j by omega]
  · intro i hi hin
    have hcells : dayCells r.series (d0 + (i : Int)) = (List.range 24).map fun h => (r.series.at? (atHour (d0 + (i : Int)) h)).getD .nan := by
      refine dayCells_of_at c1 _ _ ?_ ?_
      · intro t ht hd
        obtain ⟨d, hd', j, hj, rfl⟩ := (c2 t).1 ht
        have : d = d0 + (i : Int) := by unfold atHour at hd; omega
        exact ⟨j, hj, by rw [this]⟩
      · intro h hh
        obtain ⟨x, hx⟩ := hat i hi hin h hh
        rw [at?_mem_sorted c1 hx]
        exact hx
    have hval : ∀ h < 24, (match r.series.at? (atHour (d0 + (i : Int)) h) with | some x => x | none => f i h) = (r.series.at? (atHour (d0 + (i : Int)) h)).getD .nan := by
      intro h hh
      obtain ⟨x, hx⟩ := hat i hi hin h hh
      rw [at?_mem_sorted c1 hx]
      rfl
    have hvi : v (d0 + (i : Int) - d0).toNat = v i := by congr 1; omega
    obtain ⟨k1, k2⟩ := c3 (d0 + i) (List.mem_map.2 ⟨i, mem_seasonDays.2 ⟨hi, hin⟩, rfl⟩)
    rw [hvi, hcells] at k1 k2
    constructor
    · intro hx h hh
      dsimp only
      rw [hval h hh]
      have := k1 hx
      have hm : (r.series.at? (atHour (d0 + (i : Int)) h)).getD .nan ∈ List.replicate 24 (XF.nan : XF ℝ) := by
        rw [← this]; exact List.mem_map.2 ⟨h, List.mem_range.2 hh, rfl⟩
      exact List.eq_of_mem_replicate hm
    · intro y hy
      obtain ⟨_, w, w1, w2, w3⟩ := k2 (by rw [hy]; simp)
      have hwl : w.length = 24 := by have := congrArg List.length w1; simpa using this.symm
      have hwe : (day24 fun h => w.getD h 0) = w := by
        apply List.ext_getElem
        · simp [day24, hwl]
        · intro h h1 h2
          simp [day24, List.getD_eq_getElem?_getD, h2]
      refine ⟨fun h => w.getD h 0, ?_, ?_⟩
      · intro h hh
        have hh' : h < w.length := by omega
        have e := congrArg (fun l => l[h]?) w1
        simp only [List.getElem?_map, List.getElem?_range hh, Option.map_some, List.getElem?_eq_getElem hh', Option.some.injEq] at e
        dsimp only
        rw [hval h hh, e, List.getD_eq_getElem?_getD, List.getElem?_eq_getElem hh']
        exact ⟨rfl, w2 _ (List.getElem_mem hh')⟩
      · rw [hwe, w3, hy]; rfl
  · intro i hi hin h hh
    dsimp only
    rw [hnone i hi hin h hh]

/-- one pass of the loop, for any season -/
theorem season_pass_any {months : List Int} {rnd : Nat → ℝ} {opts : CascOptions ℝ} {f : Nat → Nat → XF ℝ} {acc : Series (XF ℝ)}
    (h : seasonPass api zerodiv rnd opts ((seasonDays d0 n months).map fun i : Nat => (at00 (d0 + i), v i)) (hourlyS d0 n f) = .ok acc) :
    ∃ g, acc = hourlyS d0 n g ∧ (∀ i < n, InSeason d0 months i ∧ TwoDays d0 n months → DayDone (v i) (g i)) ∧
      (∀ i < n, ¬ (InSeason d0 months i ∧ TwoDays d0 n months) → ∀ h < 24, g i h = f i h) := by
  unfold seasonPass at h
  by_cases h2 : TwoDays d0 n months
  · rw [if_pos (by rw [List.length_map, twoDays_iff]; exact h2), cascade_call] at h
    cases hr : disaggPrecCascade api rnd ((seasonDays d0 n months).map fun i : Nat => (at00 (d0 + i), v i)) opts (shift := 0) with
    | error e => rw [hr] at h; cases h
    | ok r =>
      rw [hr] at h
      obtain ⟨g, hg, k1, k2⟩ := season_write f hr
      change World.locAssign (hourlyS d0 n f) r.series = .ok acc at h
      rw [hg] at h
      exact ⟨g, (Except.ok.inj h).symm, fun i hi hh => k1 i hi hh.1, fun i hi hh => k2 i hi fun q => hh ⟨q, h2⟩⟩
  · rw [if_neg (by rw [List.length_map, twoDays_iff]; exact h2)] at h
    exact ⟨f, (Except.ok.inj h).symm, fun i _ hh => absurd hh.2 h2, fun i _ _ _ _ => rfl⟩

/-- the whole loop -/
theorem seasonLoop_days_any (seasons : List (List Int × CascOptions ℝ)) (hd : ∀ s ∈ seasons, s.1.Nodup) :
    ∀ (rnd : Nat → Nat → ℝ) (f : Nat → Nat → XF ℝ) (r : Series (XF ℝ)),
      World.seasonLoop api (dailyS d0 n v) 0 zerodiv rnd seasons (hourlyS d0 n f) = .ok r →
      ∃ g, r = hourlyS d0 n g ∧ (∀ i < n, Covered d0 n seasons i → DayDone (v i) (g i)) ∧
        (∀ i < n, ¬ Covered d0 n seasons i → ∀ h < 24, g i h = f i h) := by
  induction seasons with
  | nil =>
    intro rnd f r h
    unfold World.seasonLoop at h
    refine ⟨f, (Except.ok.inj h).symm, ?_, fun i _ _ _ _ => rfl⟩
    rintro i _ ⟨s, hs, _⟩
    simp at hs
  | cons s rest ih =>
    obtain ⟨months, opts⟩ := s
    intro rnd f r h
    have hd1 : months.Nodup := hd (months, opts) (by simp)
    by_cases hne : months = []
    · subst hne
      unfold World.seasonLoop seasonalSubset at h
      cases h
    rw [seasonLoop_cons hne hd1] at h
    obtain ⟨acc, hacc, hrest⟩ := py_bind_inv h
    obtain ⟨g1, rfl, k1, k2⟩ := season_pass_any hacc
    obtain ⟨g, rfl, k3, k4⟩ := ih (fun s hs => hd s (by simp [hs])) _ _ _ hrest
    refine ⟨g, rfl, ?_, ?_⟩
    · rintro i hi ⟨s, hs, h1, h2⟩
      by_cases hcov : Covered d0 n rest i
      · exact k3 i hi hcov
      · rcases List.mem_cons.1 hs with rfl | hs
        · obtain ⟨q1, q2⟩ := k1 i hi ⟨h1, h2⟩
          refine ⟨fun hx h' hh => by rw [k4 i hi hcov h' hh, q1 hx h' hh], fun y hy => ?_⟩
          obtain ⟨z, z1, z2⟩ := q2 y hy
          exact ⟨z, fun h' hh => by rw [k4 i hi hcov h' hh]; exact z1 h' hh, z2⟩
        · exact absurd ⟨s, hs, h1, h2⟩ hcov
    · intro i hi hn h' hh
      rw [k4 i hi (fun ⟨s, hs, q⟩ => hn ⟨s, List.mem_cons_of_mem _ hs, q⟩) h' hh]
      exact k2 i hi (fun q => hn ⟨(months, opts), List.mem_cons_self, q⟩) h' hh

/-- with both attributes of old pandas the loop succeeds -/
theorem seasonLoop_ok (h1 : api.indexToDatetime = true) (h2 : api.pdDatetime = true) (hv : ∀ i < n, v i = .nan ∨ ∃ x, 0 ≤ x ∧ v i = .fin x)
    (seasons : List (List Int × CascOptions ℝ)) (hd : ∀ s ∈ seasons, s.1 ≠ [] ∧ s.1.Nodup ∧ UsableOptions 5 s.2) :
    ∀ (rnd : Nat → Nat → ℝ) (_ : ∀ k j, rnd k j ≤ 1) (f : Nat → Nat → XF ℝ),
      ∃ r, World.seasonLoop api (dailyS d0 n v) 0 zerodiv rnd seasons (hourlyS d0 n f) = .ok r := by
  induction seasons with
  | nil => intro rnd _ f; exact ⟨_, rfl⟩
  | cons s rest ih =>
    obtain ⟨months, opts⟩ := s
    intro rnd hr f
    obtain ⟨hne, hd1, ho⟩ := hd (months, opts) (by simp)
    rw [seasonLoop_cons hne hd1]
    have hpass : ∃ acc, seasonPass api zerodiv (rnd 0) opts ((seasonDays d0 n months).map fun i : Nat => (at00 (d0 + i), v i)) (hourlyS d0 n f) = .ok acc := by
      unfold seasonPass
      by_cases hlen : 1 < ((seasonDays d0 n months).map fun i : Nat => (at00 (d0 + i), v i)).length
      · rw [if_pos hlen, cascade_call]
        have hs := season_dates_sorted d0 n months
        obtain ⟨r, hc⟩ := (C141_hours_returns (api := api) (hr 0) ho (hs.imp fun h => ne_of_lt h) (by simp only [List.length_map] at hlen ⊢; omega) (v := fun e => v (e - d0).toNat) (by
          intro e he
          obtain ⟨i, hi, rfl⟩ := List.mem_map.1 he
          exact hv _ (by have := (mem_seasonDays.1 hi).1; omega)) 9 false).2 (.inl ⟨h1, h2⟩)
        rw [← season_labelled] at hc
        obtain ⟨g, hg, _⟩ := season_write f hc
        rw [hc]
        change ∃ acc, World.locAssign (hourlyS d0 n f) r.series = .ok acc
        exact ⟨_, hg⟩
      · rw [if_neg hlen]; exact ⟨_, rfl⟩
    obtain ⟨acc, hacc⟩ := hpass
    obtain ⟨g, rfl, _, _⟩ := season_pass_any hacc
    rw [hacc]
    exact ih (fun s hs => hd s (by simp [hs])) (fun k => rnd (k + 1)) (fun k j => hr _ _) g

end

namespace World

variable {api : PandasApi} {w : World} {i : Nat} {d0 : Int} {n : Nat} {v : Nat → XF ℝ} {k : Nat} {seasons : List (List Int × CascOptions ℝ)}
  {rnd : Nat → Nat → ℝ} {zerodiv : String} {master : Option (Series (XF ℝ))}

/-- C67 on any pandas: whenever the call returns, every day of a season with at least two days in the data has its daily total in non-negative values, or 24 missing
values if the daily value is missing, and all other days are missing altogether; the days of a season need not be contiguous. -/
theorem C67_days_any (h : SeasonalStation w i d0 n v k seasons) (hd : ∀ s ∈ seasons, s.1.Nodup)
    (hok : (w.precipitation api i rnd "cascade" zerodiv 0 master).2 = none) :
    ∃ out, ((w.precipitation api i rnd "cascade" zerodiv 0 master).1.frames k).col? "precip" = some out ∧
      out.index = (w.frames k).index ∧
      ∀ j < n,
        (Covered d0 n seasons j → (v j = .nan → AllNan (dayCells out (d0 + j))) ∧
          ∀ x, v j = .fin x → TotalIs (dayCells out (d0 + j)) (max x 0) ∧ ∀ c ∈ dayCells out (d0 + j), ∃ y, 0 ≤ y ∧ c = .fin y) ∧
        (¬ Covered d0 n seasons j → AllNan (dayCells out (d0 + j))) := by
  unfold precipitation at hok ⊢
  rw [precipSeries_cascade h] at hok ⊢
  cases hl : seasonLoop api (dailyS d0 n v) 0 zerodiv rnd seasons (hourlyS d0 n fun _ _ => .nan) with
  | error e => rw [hl] at hok; cases hok
  | ok r =>
    obtain ⟨g, rfl, k1, k2⟩ := seasonLoop_days_any seasons hd rnd _ _ hl
    refine ⟨hourlyS d0 n g, ?_, ?_, ?_⟩
    · change ((w.writeCol i "precip" (.ok (.series (hourlyS d0 n g)))).1.frames k).col? "precip" = _
      unfold writeCol
      dsimp only
      rw [h.disagg]
      dsimp only
      have hi : Series.index (hourlyS d0 n g) = (w.frames k).index := by rw [h.index, hourlyS_index, hourlyS_index]
      have hv : columnValues (w.frames k).index (.series (hourlyS d0 n g)) = .ok (Series.values (hourlyS d0 n g)) := by
        unfold columnValues
        dsimp only
        rw [if_pos hi]
      rw [hv]
      dsimp only
      simp only [setFrame, Function.update_self]
      rw [replaceCol_col?_eq _ _ h.column, ← hi]
      congr 1
      unfold Series.index Series.values
      rw [List.zip_map']
      simp
    · rw [h.index, hourlyS_index, hourlyS_index]
    · intro j hj
      rw [dayCells_hourlyS d0 g hj]
      refine ⟨fun hc => ⟨fun hx => ?_, fun x hx => ?_⟩, fun hc => ?_⟩
      · intro q hq
        obtain ⟨h', hh, rfl⟩ := List.mem_map.1 hq
        exact (k1 j hj hc).1 hx h' (List.mem_range.1 hh)
      · obtain ⟨z, z1, z2⟩ := (k1 j hj hc).2 x hx
        refine ⟨⟨day24 z, ?_, z2⟩, ?_⟩
        · unfold day24
          rw [List.map_map]
          exact List.map_congr_left fun h' hh => (z1 h' (List.mem_range.1 hh)).1
        · intro q hq
          obtain ⟨h', hh, rfl⟩ := List.mem_map.1 hq
          exact ⟨z h', (z1 h' (List.mem_range.1 hh)).2, (z1 h' (List.mem_range.1 hh)).1⟩
      · intro q hq
        obtain ⟨h', hh, rfl⟩ := List.mem_map.1 hq
        exact k2 j hj hc h' (List.mem_range.1 hh)

/-- C67 on old pandas (`Index.to_datetime` and `pd.datetime`): with usable statistics and missing or non-negative precipitation the call succeeds, whether or not the
seasons have gaps. -/
theorem C67_old_pandas (h1 : api.indexToDatetime = true) (h2 : api.pdDatetime = true) (h : SeasonalStation w i d0 n v k seasons)
    (hv : ∀ i < n, v i = .nan ∨ ∃ x, 0 ≤ x ∧ v i = .fin x) (hd : ∀ s ∈ seasons, s.1 ≠ [] ∧ s.1.Nodup ∧ UsableOptions 5 s.2)
    (hr : ∀ k j, rnd k j ≤ 1) : (w.precipitation api i rnd "cascade" zerodiv 0 master).2 = none := by
  obtain ⟨r, hl⟩ := seasonLoop_ok (zerodiv := zerodiv) (d0 := d0) h1 h2 hv seasons hd rnd hr (fun _ _ => .nan)
  obtain ⟨g, rfl, _, _⟩ := seasonLoop_days_any seasons (fun s hs => (hd s hs).2.1) rnd _ _ hl
  unfold precipitation
  rw [precipSeries_cascade h, hl]
  change (w.writeCol i "precip" (.ok (.series (hourlyS d0 n g)))).2 = none
  unfold writeCol
  dsimp only
  rw [h.disagg]
  dsimp only
  have hi : Series.index (hourlyS d0 n g) = (w.frames k).index := by rw [h.index, hourlyS_index, hourlyS_index]
  have hv : columnValues (w.frames k).index (.series (hourlyS d0 n g)) = .ok (Series.values (hourlyS d0 n g)) := by
    unfold columnValues
    dsimp only
    rw [if_pos hi]
  rw [hv]

/-- January and March on old pandas: the gap in February does no harm; 1 March (day 59) has its 30 mm and 5 February (day 35) is missing -/
example : ∃ out, (((exampleWorld [1, 3]).precipitation .legacy 0 (fun _ _ => 1 / 2) "cascade" "uniform" 0 none).1.frames 0).col? "precip" = some out ∧
    TotalIs (dayCells out (30 + (29 : Nat))) 30 ∧ AllNan (dayCells out (30 + (5 : Nat))) := by
  have hs := exampleWorld_seasonal [1, 3]
  have hin : InSeason 30 [1, 3] 0 ∧ ¬ InSeason 30 [1, 3] 5 ∧ InSeason 30 [1, 3] 29 := by decide +kernel
  have h := C67_old_pandas (api := .legacy) (rnd := fun _ _ => 1 / 2) (zerodiv := "uniform") (master := none) rfl rfl hs
    (fun _ _ => .inr ⟨30, by norm_num, rfl⟩) (by simp [realStats_usable]) (fun _ _ => by norm_num)
  obtain ⟨out, h1, _, h2⟩ := C67_days_any hs (by simp) h
  refine ⟨out, h1, ?_, ?_⟩
  · have := ((h2 29 (by omega)).1 ⟨([1, 3], .one realStats), by simp, hin.2.2, 0, 29, by omega, by omega, hin.1, hin.2.2⟩).2 30 rfl
    simpa using this.1
  · refine (h2 5 (by omega)).2 ?_
    rintro ⟨s, hs, h3, _⟩
    obtain rfl : s = _ := by simpa using hs
    exact hin.2.1 h3

end World

end Melodist
