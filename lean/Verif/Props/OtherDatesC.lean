import Verif.Props.OtherDatesB

/-!
# C124  The same values on other dates: wind, humidity, precipitation and the 400-year cycle of the calendar
-/
set_option linter.unusedSectionVars false

namespace Melodist
open Spec
variable {K : Type}

/-! ## wind -/

theorem moved_distribute [Field K] [LinearOrder K] (api : PandasApi) (d0 : Int) (n : Nat) (v : Nat → XF K) (div : Bool) (k : Int) :
    distributeEqually api (Series.shiftDays (dailyS d0 n v) k) div = later k (distributeEqually api (dailyS d0 n v) div) := by
  rw [moved_daily]
  rcases Nat.eq_zero_or_pos n with rfl | hn
  · rfl
  · cases div
    · rw [distributeEqually_daily api _ hn, distributeEqually_daily api _ hn]
      simp only [later, Except.map, moved_hourly]
    · rw [distributeEqually_daily_divide api _ hn, distributeEqually_daily_divide api _ hn]
      simp only [later, Except.map, moved_hourly]

/-- a wind result with its timestamps (if it has any) moved by `k` days -/
def Spec.windLater (k : Int) : WindResult → WindResult
  | .series s => .series (s.shiftDays k)
  | .array l => .array l

/-- **C124 (wind).** Consecutive days with any values, gaps included. -/
theorem C124_wind (api : PandasApi) (draw : Nat → ℝ) (d0 : Int) (n : Nat) (v : Nat → XF ℝ) (method : String) (a b tShift : Option ℝ) (k : Int) :
    disaggregateWind api draw (dailyS (d0 + k) n v) method a b tShift = (disaggregateWind api draw (dailyS d0 n v) method a b tShift).map (windLater k) := by
  rw [← moved_daily]
  unfold disaggregateWind
  by_cases h : ¬ (method = "equal" ∨ method = "cosine" ∨ method = "random")
  · simp only [if_pos h]; rfl
  simp only [if_neg h]
  refine bind_moved (moved_distribute api d0 n v false k) fun w _ => ?_
  split
  · rfl
  split
  · cases a <;> cases b <;> cases tShift <;> try rfl
    simp only [Except.map, windLater]
    congr 2
    unfold Series.shiftDays
    rw [List.map_map]
    apply List.map_congr_left
    intro r _
    simp only [Function.comp_def, hourOf_moved]
  · simp only [Except.map, windLater]
    congr 2
    rw [zipIdx_moved, List.map_map, shiftDays_of_map]
    rfl

/-! ## humidity -/

theorem moved_attrDist {daily : Frame ℝ} {d0 : Int} {n : Nat} (hwf : daily.WF) (hc : Covers daily.index d0 n) {name : String} {s : Series (XF ℝ)}
    (h : daily.attr name = .ok s) (api : PandasApi) (k : Int) : distributeEqually api (s.shiftDays k) = later k (distributeEqually api s) := by
  unfold Frame.attr at h
  cases hcol : daily.col? name with
  | none => rw [hcol] at h; cases h
  | some s' =>
    rw [hcol] at h; cases h
    obtain ⟨v, rfl⟩ := covers_col hwf hc hcol
    exact moved_distribute api d0 n v false k

theorem moved_linearDewpoint (kr : ℝ) (tdew temp : Series (XF ℝ)) (k : Int) : linearDewpoint kr (tdew.shiftDays k) (temp.shiftDays k) = later k (linearDewpoint kr tdew temp) := by
  unfold linearDewpoint
  rw [length_moved, length_moved, moved_values]
  split
  · simp only [later, Except.map]
    congr 1
    rw [zipIdx_moved, shiftDays_of_map, List.map_map]
    unfold Series.shiftDays
    rw [List.zip_map_right, List.zip_map, List.map_map]
    rw [List.zip_map_left, List.zip_map_left, List.zip_map_right, List.zip_map_right, List.map_map, List.map_map]
    apply List.map_congr_left
    intro r _
    simp only [Function.comp_def, Prod.map, id, hourOf_moved]
  · rfl

theorem moved_humidityDewpoint {daily : Frame ℝ} {d0 : Int} {n : Nat} (hwf : daily.WF) (hc : Covers daily.index d0 n) (api : PandasApi) (method : String)
    (temp : Option (Series (XF ℝ))) (a0 a1 kr : Option ℝ) (k : Int) :
    humidityDewpoint api (daily.moved k) method (temp.map (Series.shiftDays · k)) a0 a1 kr = later k (humidityDewpoint api daily method temp a0 a1 kr) := by
  unfold humidityDewpoint
  dsimp only
  generalize (if method = "minimal" then some 0 else a0) = a0'
  generalize (if method = "minimal" then some 1 else a1) = a1'
  cases a0' with
  | none => rfl
  | some a0 =>
  cases a1' with
  | none => rfl
  | some a1 =>
  dsimp only
  refine bind_moved (moved_attr daily "tmin" k) fun tmin htmin => ?_
  have hd : distributeEqually api ((tmin.shiftDays k).map fun r => (r.1, XF.fin a0 + XF.fin a1 * r.2)) = later k (distributeEqually api (tmin.map fun r => (r.1, XF.fin a0 + XF.fin a1 * r.2))) := by
    unfold Frame.attr at htmin
    cases hcol : daily.col? "tmin" with
    | none => rw [hcol] at htmin; cases htmin
    | some s' =>
      rw [hcol] at htmin; cases htmin
      obtain ⟨v, rfl⟩ := covers_col hwf hc hcol
      have e : ∀ d : Int, List.map (fun r : Time × XF ℝ => (r.1, XF.fin a0 + XF.fin a1 * r.2)) (dailyS d n v) = dailyS d n fun i => XF.fin a0 + XF.fin a1 * v i := by
        intro d; unfold dailyS; rw [List.map_map]; rfl
      rw [moved_daily, e, e, ← moved_daily]
      exact moved_distribute api d0 n _ false k
  refine bind_moved hd fun tdew _ => ?_
  refine bind_moved (s := fun a => a) (map_id_py _).symm fun kr _ => ?_
  cases temp with
  | none => rfl
  | some temp =>
    simp only [Option.map_some]
    have fin : ∀ tdew : Series (XF ℝ),
        (vaporPressureScalar (tdew.shiftDays k).values (.fin 100) >>= fun es => vaporPressureScalar (temp.shiftDays k).values (.fin 100) >>= fun e =>
          if es.length ≠ e.length then .error .valueError
          else Series.make (temp.shiftDays k).index (List.zipWith (fun x y => .fin 100 * x / y) es e)) =
        later k (vaporPressureScalar tdew.values (.fin 100) >>= fun es => vaporPressureScalar temp.values (.fin 100) >>= fun e =>
          if es.length ≠ e.length then .error .valueError
          else Series.make temp.index (List.zipWith (fun x y => .fin 100 * x / y) es e)) := by
      intro tdew
      rw [moved_values, moved_values, moved_index]
      refine bind_moved (s := fun a => a) (map_id_py _).symm fun es _ => ?_
      refine bind_moved (s := fun a => a) (map_id_py _).symm fun e _ => ?_
      split
      · rfl
      · exact moved_make _ _ k
    split
    · exact bind_moved (moved_linearDewpoint kr tdew temp k) fun t _ => fin t
    · exact fin tdew

theorem moved_humidityMinMax {daily : Frame ℝ} {d0 : Int} {n : Nat} (hwf : daily.WF) (hc : Covers daily.index d0 n) (api : PandasApi)
    (temp : Option (Series (XF ℝ))) (k : Int) : humidityMinMax api (daily.moved k) (temp.map (Series.shiftDays · k)) = later k (humidityMinMax api daily temp) := by
  unfold humidityMinMax
  by_cases h : (!(daily.has "hum_min" && daily.has "hum_max")) = true
  · have h' : (!((daily.moved k).has "hum_min" && (daily.moved k).has "hum_max")) = true := h
    simp only [if_pos h, if_pos h']; rfl
  have h' : ¬ (!((daily.moved k).has "hum_min" && (daily.moved k).has "hum_max")) = true := h
  simp only [if_neg h, if_neg h']
  refine bind_moved (moved_attr daily "hum_min" k) fun s hs => ?_
  refine bind_moved (moved_attrDist hwf hc hs api k) fun hmin _ => ?_
  refine bind_moved (moved_attr daily "hum_max" k) fun s hs => ?_
  refine bind_moved (moved_attrDist hwf hc hs api k) fun hmax _ => ?_
  refine bind_moved (moved_attr daily "tmin" k) fun s hs => ?_
  refine bind_moved (moved_attrDist hwf hc hs api k) fun tmin _ => ?_
  refine bind_moved (moved_attr daily "tmax" k) fun s hs => ?_
  refine bind_moved (moved_attrDist hwf hc hs api k) fun tmax _ => ?_
  cases temp with
  | none => rfl
  | some temp =>
    simp only [Option.map_some]
    refine bind_moved (moved_align _ temp tmin k) fun a _ => ?_
    refine bind_moved (moved_align _ tmax tmin k) fun b _ => ?_
    refine bind_moved (moved_align _ a b k) fun q _ => ?_
    refine bind_moved (moved_align _ hmin hmax k) fun c _ => ?_
    refine bind_moved (moved_align _ q c k) fun p _ => ?_
    exact moved_align _ hmax p k

theorem moved_humidityCategorical {daily : Frame ℝ} {d0 : Int} {n : Nat} (hwf : daily.WF) (hc : Covers daily.index d0 n) (api : PandasApi)
    (table : Option (CatMeans ℝ)) (k : Int) (hm : SameMonths d0 (d0 + n - 1) k) :
    humidityCategorical api (daily.moved k) table = later k (humidityCategorical api daily table) := by
  unfold humidityCategorical
  cases table with
  | none => rfl
  | some table =>
    refine bind_moved (moved_attr daily "precip" k) fun s hs => ?_
    refine bind_moved (moved_attrDist hwf hc hs api k) fun p hp => ?_
    have hin : ∀ r ∈ p, monthOf (r.1 + k * DAY) = monthOf r.1 := by
      unfold Frame.attr at hs
      cases hcol : daily.col? "precip" with
      | none => rw [hcol] at hs; cases hs
      | some s' =>
        rw [hcol] at hs; cases hs
        obtain ⟨v, rfl⟩ := covers_col hwf hc hcol
        rcases Nat.eq_zero_or_pos n with rfl | hn
        · cases hp
        · rw [distributeEqually_daily api d0 hn] at hp
          cases hp
          intro r hr
          unfold hourlyS at hr
          obtain ⟨j, hj, rfl⟩ := List.mem_map.1 hr
          have hj' := List.mem_range.1 hj
          refine month_moved hm ?_ ?_ <;> dsimp only <;> unfold dayOf atHour <;> omega
    have hkeys : ((p.shiftDays k).map fun r => (monthOf r.1, hourOf r.1, decide (XF.lt (.fin 0) r.2))) = p.map fun r => (monthOf r.1, hourOf r.1, decide (XF.lt (.fin 0) r.2)) := by
      unfold Series.shiftDays
      rw [List.map_map]
      apply List.map_congr_left
      intro r hr
      simp only [Function.comp_def, hin r hr, hourOf_moved]
    rw [hkeys, moved_index]
    refine bind_moved (s := fun a => a) (map_id_py _).symm fun vals _ => ?_
    exact moved_make _ _ k

theorem covers_moved {daily : Frame K} {d0 : Int} {n : Nat} (hc : Covers daily.index d0 n) (k : Int) : Covers (daily.moved k).index (d0 + k) n := by
  unfold Covers at *
  unfold Frame.moved
  simp only [hc, List.map_map]
  apply List.map_congr_left
  intro i _
  simp only [Function.comp_def, at00]
  omega

theorem moved_humidityRaw {daily : Frame ℝ} {d0 : Int} {n : Nat} (hwf : daily.WF) (hc : Covers daily.index d0 n) (api : PandasApi) (method : String)
    (temp : Option (Series (XF ℝ))) (a0 a1 kr : Option ℝ) (table : Option (CatMeans ℝ)) (k : Int)
    (hm : method = "month_hour_precip_mean" → SameMonths d0 (d0 + n - 1) k) :
    humidityRaw api (daily.moved k) method (temp.map (Series.shiftDays · k)) a0 a1 kr table = later k (humidityRaw api daily method temp a0 a1 kr table) := by
  unfold humidityRaw
  by_cases h0 : ¬ (method = "equal" ∨ method = "minimal" ∨ method = "dewpoint_regression" ∨ method = "min_max" ∨
      method = "linear_dewpoint_variation" ∨ method = "month_hour_precip_mean")
  · simp only [if_pos h0]; rfl
  simp only [if_neg h0]
  split
  · exact bind_moved (moved_attr daily "hum" k) fun s hs => moved_attrDist hwf hc hs api k
  split
  · exact moved_humidityDewpoint hwf hc api method temp a0 a1 kr k
  split
  · exact moved_humidityMinMax hwf hc api temp k
  · next h1 h2 h3 =>
    refine moved_humidityCategorical hwf hc api table k (hm ?_)
    tauto

/-- **C124 (humidity).** Consecutive days with any values; the hourly temperatures cover the same days.  Only the categorical means, a table
by month, need that the days fall into the same months. -/
theorem C124_humidity (api : PandasApi) {daily : Frame ℝ} {d0 : Int} {n : Nat} (hn : 0 < n) (hwf : daily.WF) (hc : Covers daily.index d0 n) (method : String)
    (temp : Option (Series (XF ℝ))) (ht : ∀ s, temp = some s → ∃ T, s = hourlyS d0 n T) (a0 a1 kr : Option ℝ) (table : Option (CatMeans ℝ))
    (preserve : Bool) (k : Int) (hm : method = "month_hour_precip_mean" → SameMonths d0 (d0 + n - 1) k) :
    disaggregateHumidity api (daily.moved k) method (temp.map (Series.shiftDays · k)) a0 a1 kr table preserve =
      later k (disaggregateHumidity api daily method temp a0 a1 kr table preserve) := by
  unfold disaggregateHumidity
  refine bind_moved (moved_humidityRaw hwf hc api method temp a0 a1 kr table k hm) fun hum hhum => ?_
  have hclip : ∀ s : Series (XF ℝ), ((s.shiftDays k).map fun r => (r.1, r.2.clip 0 100)) = Series.shiftDays (s.map fun r => (r.1, r.2.clip 0 100)) k := by
    intro s; rw [shiftDays_of_map]; unfold Series.shiftDays; rw [List.map_map]; rfl
  cases preserve with
  | false =>
    show Except.ok _ = Except.map _ (Except.ok _)
    simp only [Except.map, hclip]
  | true =>
    obtain ⟨g, rfl⟩ := raw_shape hn (fun name s h => covers_col hwf hc h) ht hhum
    refine bind_moved (s := (Series.shiftDays · k)) ?_ fun s _ => ?_
    · rcases covers_col? hwf hc "hum" with h | ⟨v, h⟩
      · show preserveDailyMean api (daily.moved k) _ = later k (preserveDailyMean api daily _)
        unfold preserveDailyMean
        rw [moved_attr, attr_missing h]
        rfl
      · show preserveDailyMean api (daily.moved k) _ = later k (preserveDailyMean api daily _)
        rw [preserve_hourly api daily d0 n hn v h g, moved_hourly,
          preserve_hourly api (daily.moved k) (d0 + k) n hn v (by rw [moved_col?, h, Option.map_some, moved_daily]) g]
        simp only [later, Except.map, moved_hourly]
    · simp only [Except.map, hclip]

end Melodist
