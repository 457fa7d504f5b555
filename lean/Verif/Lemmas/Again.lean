import Verif.Props.DailyB
import Verif.Props.TemperatureC

/-!
# Daily values of disaggregated data
-/

set_option linter.unusedSectionVars false

namespace Melodist
open Spec

section
variable {K : Type} [Field K] [LinearOrder K] [IsStrictOrderedRing K]

theorem meanOf_meanIs {cells : List (XF K)} {x : K} (h : MeanIs cells x) : meanOf (numbers cells) = .fin x := by
  obtain ⟨ys, rfl, hne, rfl⟩ := h
  rw [numbers_map_fin]
  unfold meanOf
  rw [if_neg hne]

theorem minOf_minIs {cells : List (XF K)} {x : K} (h : MinIs cells x) : minOf (numbers cells) = .fin x := by
  obtain ⟨ys, rfl, hm, hle⟩ := h
  rw [numbers_map_fin]
  unfold minOf
  rw [List.min?_eq_some_iff.2 ⟨hm, hle⟩]

theorem maxOf_maxIs {cells : List (XF K)} {x : K} (h : MaxIs cells x) : maxOf (numbers cells) = .fin x := by
  obtain ⟨ys, rfl, hm, hle⟩ := h
  rw [numbers_map_fin]
  unfold maxOf
  rw [List.max?_eq_some_iff.2 ⟨hm, hle⟩]

theorem numbers_allNan {cells : List (XF K)} (h : AllNan cells) : numbers cells = [] := by
  unfold numbers
  rw [List.filterMap_eq_nil_iff]
  intro c hc
  rw [h c hc]

theorem nanOrFin_of_map {cells : List (XF K)} {ys : List K} (h : cells = ys.map XF.fin) : ∀ c ∈ cells, c.NanOrFin := by
  subst h
  intro c hc
  obtain ⟨y, _, rfl⟩ := List.mem_map.1 hc
  exact XF.nanOrFin_fin y

theorem nanOrFin_of_allNan {cells : List (XF K)} (h : AllNan cells) : ∀ c ∈ cells, c.NanOrFin := by
  intro c hc
  rw [h c hc]
  exact XF.nanOrFin_nan

theorem spans_hourly {V : Type} (d0 : Int) {n : Nat} (hn : 0 < n) (f : Nat → Nat → V) : SpansDays (Series.index (hourlyS d0 n f)) d0 n := by
  have e : Series.index (hourlyS d0 n f) = (List.range (24 * n)).map fun k : Nat => atHour (d0 + (k / 24 : Nat)) (k % 24) := by
    simp only [Series.index, hourlyS, List.map_map, Function.comp_def]
  rw [e]
  refine ⟨hn, ?_, ⟨atHour (d0 + (0 / 24 : Nat)) (0 % 24), List.mem_map.2 ⟨0, List.mem_range.2 (by omega), rfl⟩, ?_⟩,
    ⟨atHour (d0 + ((24 * n - 1) / 24 : Nat)) ((24 * n - 1) % 24), List.mem_map.2 ⟨24 * n - 1, List.mem_range.2 (by omega), rfl⟩, ?_⟩⟩
  · intro t ht
    obtain ⟨k, hk, rfl⟩ := List.mem_map.1 ht
    have := List.mem_range.1 hk
    unfold atHour
    omega
  · unfold atHour
    omega
  · unfold atHour
    omega

/-- cells that are numbers or missing, day by day -/
theorem rows_nanOrFin {d0 : Int} {n : Nat} {f : Nat → Nat → XF K} (h : ∀ i < n, ∀ c ∈ dayCells (hourlyS d0 n f) (d0 + (i : Int)), c.NanOrFin) :
    ∀ r ∈ hourlyS d0 n f, r.2.NanOrFin := by
  intro r hr
  obtain ⟨k, hk, rfl⟩ := List.mem_map.1 hr
  have hk := List.mem_range.1 hk
  have := h (k / 24) (by omega)
  rw [dayCells_hourlyS d0 _ (by omega)] at this
  exact this _ (mem_day24.2 ⟨k % 24, by omega, rfl⟩)

/-- the index of the daily values -/
theorem daily_index {H : Frame K} (hw : H.WF) {name : String} {d0 : Int} {n : Nat} (hn : 0 < n) {f : Nat → Nat → XF K} (hc : H.col? name = some (hourlyS d0 n f))
    {x : String} (hx : ((dailyFromHourly H).col? x).isSome) : (dailyFromHourly H).index = (List.range n).map fun i : Nat => at00 (d0 + i) := by
  have hs : SpansDays H.index d0 n := by
    rw [← col?_index hw hc]
    exact spans_hourly d0 hn f
  have := runStages_idx hw (l := stages) (fun _ h => h) (d := ⟨[], []⟩) (.inl rfl)
  rw [← dailyFromHourly_run H hw] at this
  rcases this with h | h
  · unfold Frame.col? at hx
    rw [h] at hx
    simp at hx
  · rw [h, daySpan_spans hs, List.map_map]
    rfl

/-- daily values of hourly temperatures -/
theorem daily_temp {H : Frame ℝ} (hw : H.WF) {d0 : Int} {n : Nat} (hn : 0 < n) {f : Nat → Nat → XF ℝ} (hc : H.col? "temp" = some (hourlyS d0 n f))
    (hf : ∀ i < n, ∀ c ∈ dayCells (hourlyS d0 n f) (d0 + (i : Int)), c.NanOrFin) :
    TempDays (dailyFromHourly H) d0 n (fun i => minOf (numbers (dayCells (hourlyS d0 n f) (d0 + i)))) (fun i => maxOf (numbers (dayCells (hourlyS d0 n f) (d0 + i))))
      (fun i => meanOf (numbers (dayCells (hourlyS d0 n f) (d0 + i)))) := by
  have hs : SpansDays H.index d0 n := by
    rw [← col?_index hw hc]
    exact spans_hourly d0 hn f
  obtain ⟨h1, h2, h3⟩ := (C92_daily_values H hw d0 n hs _ (rows_nanOrFin hf)).1 hc
  exact ⟨daily_index hw hn hc (by rw [h1]; rfl), h2, h3, h1⟩

end

section
variable {daily daily' : Frame ℝ} {d0 : Int} {n : Nat} {tmin tmax temp tmin' tmax' temp' : Nat → XF ℝ}

/-- a sine run on other values of the same days -/
theorem sine_again {api : PandasApi} (hd : TempDays daily d0 n tmin tmax temp) (hd' : TempDays daily' d0 n tmin' tmax' temp') (hn : 0 < n) {method mmt : String}
    (hm : method = "sine_min_max" ∨ method = "sine_mean" ∨ method = "sine") {modNight : Bool} {md : Option (List (Int × XF ℝ))}
    {course : Option (MeanCourse ℝ)} {sun : Option (Series SunTimes)} {out : Series (XF ℝ)}
    (h : disaggregateTemperature api daily method mmt modNight md course sun = .ok out) :
    ∃ lo hi, out = hourlyS d0 n (fun i h => if method = "sine_mean" then sineMeanCell h (locRow n tmin tmax temp lo hi i)
        else sineCell modNight h (locRow n tmin tmax temp lo hi i)) ∧
      disaggregateTemperature api daily' method mmt modNight md course sun =
        .ok (hourlyS d0 n (fun i h => if method = "sine_mean" then sineMeanCell h (locRow n tmin' tmax' temp' lo hi i)
          else sineCell modNight h (locRow n tmin' tmax' temp' lo hi i))) := by
  obtain ⟨locs, lo, hi, e1, e2, e3, e4, s, rfl, hp⟩ := sine_inv hd hn hm h
  refine ⟨lo, hi, e4, ?_⟩
  have e1' : minMaxLoc daily'.index mmt md (some s) = .ok locs := by rw [hd'.index, ← hd.index]; exact e1
  have hidx : hourlyIndex api daily'.index = .ok (Series.index (hourlyS d0 n fun _ _ => (XF.nan : XF ℝ))) := by
    rw [hd'.index, ← dailyS_index d0 n fun _ => (XF.nan : XF ℝ)]
    exact hourlyIndex_daily api d0 hn _ _ _
  obtain ⟨los, hlo⟩ := mapM_exists (l := locs) (f := fun p => p.1.toInt) fun p hp => by
    obtain ⟨i, hi', rfl⟩ := List.mem_iff_getElem.1 hp
    exact ⟨_, (e3 i hi').1⟩
  obtain ⟨his, hhi⟩ := mapM_exists (l := locs) (f := fun p => p.2.toInt) fun p hp => by
    obtain ⟨i, hi', rfl⟩ := List.mem_iff_getElem.1 hp
    exact ⟨_, (e3 i hi').2⟩
  have hex : ∃ loc, locTable daily' mmt md (some s) = .ok loc := by
    unfold locTable
    rw [e1', py_ok_bind, hlo, py_ok_bind, hhi, py_ok_bind, attr_ok hd'.hmin, py_ok_bind, attr_ok hd'.hmax, py_ok_bind, attr_ok hd'.htemp, py_ok_bind]
    exact ⟨_, rfl⟩
  have hok : ∃ out', disaggregateTemperature api daily' method mmt modNight md course (some s) = .ok out' := by
    obtain ⟨loc, hloc'⟩ := hex
    have hsort : loc.index.Pairwise (· < ·) := by
      obtain ⟨_, _, _, _, _, _, rfl⟩ := locTable_inv hd' hloc'
      exact dailyS_index_sorted _ _ _
    unfold disaggregateTemperature
    rw [if_neg (by rcases hm with rfl | rfl | rfl <;> simp), hidx, py_ok_bind, if_pos hm]
    unfold sineTemperature
    rw [hloc', py_ok_bind, if_neg (not_not.2 hsort)]
    dsimp only
    rw [if_neg]
    · exact ⟨_, rfl⟩
    · rw [List.any_eq_true]
      rintro ⟨r, hr, h⟩
      exact hp r hr (by simpa using h)
  obtain ⟨out', h'⟩ := hok
  obtain ⟨locs', lo', hi', f1, f2, f3, f4, _⟩ := sine_inv hd' hn hm h'
  rw [h', f4]
  congr 1
  rw [e1'] at f1
  cases f1
  apply hourlyS_congr
  intro i hi h _
  have a := e3 i (by omega)
  have b := f3 i (by omega)
  rw [a.1, a.2] at b
  have b1 : lo i = lo' i := Except.ok.inj b.1
  have b2 := Except.ok.inj b.2
  unfold locRow
  rw [b1, b2]

end

end Melodist
