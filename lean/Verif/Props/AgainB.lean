import Verif.Lemmas.Again
import Verif.Props.Wind
import Verif.Props.Radiation
import Verif.Props.Humidity
import Verif.Props.Master

/-!
# C103: aggregating hourly results to daily values and disaggregating again: precipitation, wind, humidity, radiation
-/

set_option linter.unusedSectionVars false

namespace Melodist
open Spec

/-- 0 for a missing value -/
def Spec.orZero {K : Type} [Field K] : XF K → XF K
  | .nan => .fin 0
  | x => x

/-- the record with 0 for every missing value -/
def Spec.missingAsZero {K : Type} [Field K] (s : Series (XF K)) : Series (XF K) := s.map fun r => (r.1, orZero r.2)

/-- the 24 hours of each of the `n` days from `d0` -/
def Spec.hoursFrom (d0 : Int) (n : Nat) : List Time := (List.range n).flatMap fun i => (List.range 24).map fun h => atHour (d0 + (i : Nat)) h

section
variable {K : Type} [Field K] [LinearOrder K] [IsStrictOrderedRing K]

/-! ## The daily column -/

/-- the day's cells have the daily mean `v`, or are missing and `v` is missing -/
def DayMean (cells : List (XF K)) (v : XF K) : Prop := (v = .nan ∧ AllNan cells) ∨ ∃ x, v = .fin x ∧ MeanIs cells x

theorem DayMean.nanOrFin {cells : List (XF K)} {v : XF K} (h : DayMean cells v) : ∀ c ∈ cells, c.NanOrFin := by
  rcases h with ⟨_, h⟩ | ⟨x, _, ⟨ys, h, _⟩⟩
  · exact nanOrFin_of_allNan h
  · exact nanOrFin_of_map h

theorem DayMean.meanOf {cells : List (XF K)} {v : XF K} (h : DayMean cells v) : meanOf (numbers cells) = v := by
  rcases h with ⟨rfl, h⟩ | ⟨x, rfl, h⟩
  · rw [numbers_allNan h]; rfl
  · exact meanOf_meanIs h

theorem mean_column {H : Frame K} (hw : H.WF) {d0 : Int} {n : Nat} (hn : 0 < n) {f : Nat → Nat → XF K} {name : String} (hc : H.col? name = some (hourlyS d0 n f))
    (hname : name = "glob" ∨ name = "hum" ∨ name = "wind") {v : Nat → XF K} (hv : ∀ i < n, DayMean (day24 (f i)) (v i)) :
    (dailyFromHourly H).col? name = some (dailyS d0 n v) := by
  have hs : SpansDays H.index d0 n := by
    rw [← col?_index hw hc]
    exact spans_hourly d0 hn f
  have nf : ∀ i < n, ∀ c ∈ dayCells (hourlyS d0 n f) (d0 + (i : Int)), c.NanOrFin := by
    intro i hi
    rw [dayCells_hourlyS d0 _ hi]
    exact (hv i hi).nanOrFin
  have e : (dailyS d0 n fun i => meanOf (numbers (dayCells (hourlyS d0 n f) (d0 + (i : Int))))) = dailyS d0 n v := by
    apply dailyS_congr
    intro i hi
    rw [dayCells_hourlyS d0 _ hi]
    exact (hv i hi).meanOf
  obtain ⟨-, -, h3, h4, h5, -⟩ := C92_daily_values H hw d0 n hs _ (rows_nanOrFin nf)
  rcases hname with rfl | rfl | rfl
  · rw [h3 hc, e]
  · rw [(h4 hc).1, e]
  · rw [h5 hc, e]

theorem dayMean_const {v : XF K} (h : v.NanOrFin) : DayMean (day24 fun _ => v) v := by
  cases v with
  | nan => exact .inl ⟨rfl, by intro c hc; obtain ⟨_, _, rfl⟩ := mem_day24.1 hc; rfl⟩
  | fin x =>
    refine .inr ⟨x, rfl, day24 fun _ => x, by rw [day24_map], by simp [day24], ?_⟩
    rw [sum_day24_const, day24_length]
    push_cast
    field_simp
  | ninf => exact h.elim
  | pinf => exact h.elim

/-! ## Precipitation -/

theorem total_column {H : Frame K} (hw : H.WF) {d0 : Int} {n : Nat} (hn : 0 < n) {f : Nat → Nat → XF K} (hc : H.col? "precip" = some (hourlyS d0 n f))
    (nf : ∀ i < n, ∀ h < 24, (f i h).NanOrFin) :
    (dailyFromHourly H).col? "precip" = some (dailyS d0 n fun i => .fin (numbers (day24 (f i))).sum) := by
  have hs : SpansDays H.index d0 n := by
    rw [← col?_index hw hc]
    exact spans_hourly d0 hn f
  have nf : ∀ i < n, ∀ c ∈ dayCells (hourlyS d0 n f) (d0 + (i : Int)), c.NanOrFin := by
    intro i hi
    rw [dayCells_hourlyS d0 _ hi]
    intro c hc
    obtain ⟨k, hk, rfl⟩ := mem_day24.1 hc
    exact nf i hi k hk
  rw [(C92_daily_values H hw d0 n hs _ (rows_nanOrFin nf)).2.1 hc]
  congr 1
  apply dailyS_congr
  intro i hi
  rw [dayCells_hourlyS d0 _ hi]

theorem missing_hourly (d0 : Int) (n : Nat) (f : Nat → Nat → XF K) :
    missingAsZero (hourlyS d0 n f) = hourlyS d0 n fun i h => orZero (f i h) := hourlyS_map d0 n f orZero

theorem allNan_day24 {f : Nat → XF K} (h : ∀ k < 24, f k = .nan) : AllNan (day24 f) := by
  intro c hc
  obtain ⟨k, hk, rfl⟩ := mem_day24.1 hc
  exact h k hk

theorem numbers_day24_fin {f : Nat → XF K} {y : Nat → K} (h : ∀ k < 24, f k = .fin (y k)) : numbers (day24 f) = day24 y := by
  have e : day24 f = (day24 y).map XF.fin := by
    rw [day24_map]; exact day24_congr h
  rw [e, numbers_map_fin]

/-- **C103** (precipitation, equal) The hourly precipitation of the method 'equal' in an hourly table, aggregated by `daily_from_hourly` and disaggregated again, is the same;
the hours of days without data become 0. -/
theorem C103_precip_equal (api : PandasApi) (d0 : Int) {n : Nat} (hn : 0 < n) (v : Nat → XF K) (hv : ∀ i < n, (v i).NanOrFin) {out : Series (XF K)}
    (hret : distributeEqually api (dailyS d0 n v) true = .ok out) {H : Frame K} (hw : H.WF) (hc : H.col? "precip" = some out) :
    ∃ p, (dailyFromHourly H).col? "precip" = some p ∧ distributeEqually api p true = .ok (missingAsZero out) := by
  have h24 : (24 : K) ≠ 0 := by norm_num
  rw [distributeEqually_daily_divide api d0 hn] at hret
  cases hret
  refine ⟨_, total_column hw hn hc ?_, ?_⟩
  · intro i hi h _
    have := hv i hi
    cases e : v i with
    | nan => rw [XF.nan_div]; exact XF.nanOrFin_nan
    | fin x => rw [XF.fin_div_fin_of_ne _ h24]; exact XF.nanOrFin_fin _
    | ninf => rw [e] at this; exact this.elim
    | pinf => rw [e] at this; exact this.elim
  · rw [distributeEqually_daily_divide api d0 hn, missing_hourly]
    congr 1
    apply hourlyS_congr
    intro i hi h _
    have := hv i hi
    cases e : v i with
    | nan =>
      rw [numbers_allNan (allNan_day24 fun k _ => by rw [XF.nan_div])]
      simp [XF.fin_div_fin_of_ne _ h24, orZero]
    | fin x =>
      rw [numbers_day24_fin (y := fun _ => x / 24) fun k _ => by rw [XF.fin_div_fin_of_ne _ h24], sum_day24_const, XF.fin_div_fin_of_ne _ h24,
        XF.fin_div_fin_of_ne _ h24]
      unfold orZero
      dsimp only
      congr 1
      field_simp
    | ninf => rw [e] at this; exact this.elim
    | pinf => rw [e] at this; exact this.elim

/-- **C103** (precipitation, master station) The same for `precip_master_station` with a master station without missing hours. -/
theorem C103_precip_master (api : PandasApi) (hapi : api.seriesIteritems = true) (zerodiv : String) (d0 : Int) {n : Nat} (hn : 0 < n) (v : Nat → XF K)
    (hv : ∀ i < n, (v i).NanOrFin) {master : Series (XF K)} {q : Nat → Nat → K} (hm : MasterRows master d0 n fun i h => .fin (q i h)) {out : Series (XF K)}
    (hret : precipMasterStation api (dailyS d0 n v) master zerodiv = .ok out) {H : Frame K} (hw : H.WF) (hc : H.col? "precip" = some out) :
    ∃ p, (dailyFromHourly H).col? "precip" = some p ∧ precipMasterStation api p master zerodiv = .ok (missingAsZero out) := by
  have h24 : (24 : K) ≠ 0 := by norm_num
  have hsum : ∀ i, sumSkip (day24 fun h => XF.fin (q i h)) = .fin (day24 (q i)).sum := by
    intro i
    rw [sumSkip_eq (nanOrFin_day24 _), numbers_day24]
  have hfin : ∀ i < n, sumSkip (day24 fun h => XF.fin (q i h)) ≠ .nan := by
    intro i _; rw [hsum]; exact fun h => by cases h
  have val : ∀ i v h, masterValue zerodiv (fun h => XF.fin (q i h)) v h =
      if (day24 (q i)).sum = 0 then (if zerodiv = "uniform" then .fin (1 / 24) * v else .fin 0) else .fin (q i h / (day24 (q i)).sum) * v := by
    intro i v h
    unfold masterValue
    rw [hsum]
    by_cases h0 : (day24 (q i)).sum = 0
    · simp [h0, XF.feq]
    · simp [h0, XF.feq, XF.fin_div_fin_of_ne _ h0]
  -- a day's factors: all 0, or with sum 1
  have fac : ∀ i, ∃ w : Nat → K, (∀ x h, masterValue zerodiv (fun h => XF.fin (q i h)) (.fin x) h = .fin (w h * x)) ∧
      (((∀ h, w h = 0) ∧ ∀ v h, masterValue zerodiv (fun h => XF.fin (q i h)) v h = .fin 0) ∨
        ((day24 w).sum = 1 ∧ ∀ h, masterValue zerodiv (fun h => XF.fin (q i h)) .nan h = .nan)) := by
    intro i
    by_cases h0 : (day24 (q i)).sum = 0
    · by_cases hz : zerodiv = "uniform"
      · refine ⟨fun _ => 1 / 24, fun x h => by rw [val, if_pos h0, if_pos hz, XF.fin_mul_fin], .inr ⟨?_, fun h => by rw [val, if_pos h0, if_pos hz, XF.mul_nan]⟩⟩
        rw [sum_day24_const]
        field_simp
      · refine ⟨fun _ => 0, fun x h => by rw [val, if_pos h0, if_neg hz, zero_mul], .inl ⟨fun _ => rfl, fun v h => by rw [val, if_pos h0, if_neg hz]⟩⟩
    · refine ⟨fun h => q i h / (day24 (q i)).sum, fun x h => by rw [val, if_neg h0, XF.fin_mul_fin], .inr ⟨?_, fun h => by rw [val, if_neg h0, XF.mul_nan]⟩⟩
      have := sum_day24_mul (1 / (day24 (q i)).sum) (q i)
      have e : (day24 fun h => q i h / (day24 (q i)).sum) = day24 fun h => 1 / (day24 (q i)).sum * q i h := day24_congr fun h _ => by ring
      rw [e, this]
      field_simp
  rw [precipMasterStation_daily api hapi zerodiv d0 hn v _ _ hm.filter hfin] at hret
  cases hret
  refine ⟨_, total_column hw hn hc ?_, ?_⟩
  · intro i hi h _
    obtain ⟨w, h1, h2⟩ := fac i
    have := hv i hi
    cases e : v i with
    | nan =>
      rcases h2 with ⟨-, h2⟩ | ⟨-, h2⟩
      · rw [h2]; exact XF.nanOrFin_fin _
      · rw [h2]; exact XF.nanOrFin_nan
    | fin x => rw [h1]; exact XF.nanOrFin_fin _
    | ninf => rw [e] at this; exact this.elim
    | pinf => rw [e] at this; exact this.elim
  · rw [precipMasterStation_daily api hapi zerodiv d0 hn _ _ _ hm.filter hfin, missing_hourly]
    congr 1
    apply hourlyS_congr
    intro i hi h _
    obtain ⟨w, h1, h2⟩ := fac i
    have := hv i hi
    rw [h1]
    cases e : v i with
    | nan =>
      rcases h2 with ⟨h2, h3⟩ | ⟨h2, h3⟩
      · rw [h2, h3, zero_mul]; rfl
      · rw [h3, numbers_allNan (allNan_day24 fun k _ => h3 k)]
        simp [orZero]
    | fin x =>
      rw [h1, numbers_day24_fin (y := fun k => w k * x) fun k _ => h1 x k]
      have e2 : (day24 fun k => w k * x) = day24 fun k => x * w k := day24_congr fun k _ => mul_comm _ _
      rw [e2, sum_day24_mul]
      unfold orZero
      dsimp only
      congr 1
      rcases h2 with ⟨h2, -⟩ | ⟨h2, -⟩
      · rw [h2, zero_mul, zero_mul]
      · rw [h2, mul_one]
    | ninf => rw [e] at this; exact this.elim
    | pinf => rw [e] at this; exact this.elim

end

noncomputable section

/-! ## Wind -/

theorem hours_zip {V : Type} (d0 : Int) (n : Nat) (f : Nat → Nat → V) : (hoursFrom d0 n).zip (Series.values (hourlyS d0 n f)) = hourlyS d0 n f := by
  have e : hoursFrom d0 n = Series.index (hourlyS d0 n f) := by
    rw [hourlyS_index_atHour]
    unfold hoursFrom
    induction n with
    | zero => rfl
    | succ n ih =>
      rw [List.range_succ (n := n), List.flatMap_append, ih, show 24 * (n + 1) = 24 * n + 24 by ring, List.range_add, List.map_append, List.flatMap_singleton, List.map_map]
      congr 1
      apply List.map_congr_left
      intro k hk
      have := List.mem_range.1 hk
      simp only [Function.comp_apply]
      rw [show (24 * n + k) / 24 = n by omega, show (24 * n + k) % 24 = k by omega]
  rw [e, index_zip_values]

/-- **C103** (wind) The hourly wind of 'equal' and of 'cosine' in an hourly table, aggregated by `daily_from_hourly` and disaggregated again: 'equal' gives the same values;
'cosine' gives `b` times the values, thus the same values if `b` = 1. -/
theorem C103_wind_equal (api : PandasApi) (draw : Nat → ℝ) (d0 : Int) {n : Nat} (hn : 0 < n) (v : Nat → XF ℝ) (hv : ∀ i < n, (v i).NanOrFin) (a b tShift : Option ℝ)
    {s : Series (XF ℝ)} (hret : disaggregateWind api draw (dailyS d0 n v) "equal" a b tShift = .ok (.series s)) {H : Frame ℝ} (hw : H.WF) (hc : H.col? "wind" = some s) :
    ∃ w, (dailyFromHourly H).col? "wind" = some w ∧ disaggregateWind api draw w "equal" a b tShift = .ok (.series s) := by
  have e := C32_wind_equal api draw d0 n hn v a b tShift
  rw [e] at hret
  cases hret
  exact ⟨_, mean_column hw hn hc (.inr (.inr rfl)) fun i hi => dayMean_const (hv i hi), e⟩

theorem C103_wind_cosine (api : PandasApi) (draw : Nat → ℝ) (d0 : Int) {n : Nat} (hn : 0 < n) (v : Nat → XF ℝ) (hv : ∀ i < n, (v i).NanOrFin) (a b tShift : ℝ)
    {l : List (XF ℝ)} (hret : disaggregateWind api draw (dailyS d0 n v) "cosine" (some a) (some b) (some tShift) = .ok (.array l))
    {H : Frame ℝ} (hw : H.WF) (hc : H.col? "wind" = some ((hoursFrom d0 n).zip l)) :
    ∃ w l', (dailyFromHourly H).col? "wind" = some w ∧ disaggregateWind api draw w "cosine" (some a) (some b) (some tShift) = .ok (.array l') ∧
      l' = l.map (fun x => .fin b * x) ∧ (b = 1 → l' = l) := by
  obtain ⟨l0, h0, -, h2⟩ := C33_wind_cosine_mean api draw d0 n hn v a b tShift
  rw [hret] at h0
  cases h0
  have e := wind_cosine api draw d0 n hn v a b tShift
  rw [hret] at e
  have el : l = Series.values (hourlyS d0 n fun i h => cosineCell a b tShift (v i) (h : Int)) := by injection e with e; injection e
  rw [el, hours_zip] at hc
  have hm : ∀ i < n, DayMean (day24 fun h : Nat => cosineCell a b tShift (v i) (h : Int)) (.fin b * v i) := by
    intro i hi
    have := h2 i hi
    unfold arrayDay at this
    rw [el, values_day d0 _ hi] at this
    have hf := hv i hi
    cases ev : v i with
    | nan => rw [ev] at this; exact .inl ⟨XF.mul_nan _, this.2 rfl⟩
    | fin x => rw [ev] at this; exact .inr ⟨_, XF.fin_mul_fin _ _, this.1 x rfl⟩
    | ninf => rw [ev] at hf; exact hf.elim
    | pinf => rw [ev] at hf; exact hf.elim
  have key : ∀ i < n, ∀ h : Nat, cosineCell a b tShift (.fin b * v i) (h : Int) = .fin b * cosineCell a b tShift (v i) (h : Int) := by
    intro i hi h
    have hf := hv i hi
    unfold cosineCell
    cases ev : v i with
    | nan => simp
    | fin x => simp; ring
    | ninf => rw [ev] at hf; exact hf.elim
    | pinf => rw [ev] at hf; exact hf.elim
  have fin1 : ∀ i < n, ∀ h : Nat, .fin 1 * cosineCell a b tShift (v i) (h : Int) = cosineCell a b tShift (v i) (h : Int) := by
    intro i hi h
    have hf := hv i hi
    unfold cosineCell
    cases ev : v i with
    | nan => simp
    | fin x => simp
    | ninf => rw [ev] at hf; exact hf.elim
    | pinf => rw [ev] at hf; exact hf.elim
  have hl : Series.values (hourlyS d0 n fun i h => cosineCell a b tShift (.fin b * v i) (h : Int)) = l.map fun x => .fin b * x := by
    rw [el, hourlyS_values, hourlyS_values, List.map_map]
    apply List.map_congr_left
    intro k hk
    have := List.mem_range.1 hk
    exact key _ (by omega) _
  refine ⟨_, _, mean_column hw hn hc (.inr (.inr rfl)) hm, wind_cosine api draw d0 n hn _ a b tShift, hl, ?_⟩
  intro hb
  rw [hl, el, hourlyS_values, List.map_map]
  apply List.map_congr_left
  intro k hk
  have := List.mem_range.1 hk
  have h1 := fin1 (k / 24) (by omega) (k % 24)
  rw [← hb] at h1
  rw [Function.comp_apply, h1]

/-! ## Humidity -/

theorem clip_clip (x : XF ℝ) : (x.clip 0 100).clip 0 100 = x.clip 0 100 := by
  cases x with
  | nan => rfl
  | fin x =>
    unfold XF.clip
    dsimp only
    rw [max_eq_left (le_min (le_max_right _ _) (by norm_num)), min_eq_left (min_le_right _ _)]
  | ninf => unfold XF.clip; simp
  | pinf => unfold XF.clip; simp

theorem clip_nanOrFin (x : XF ℝ) : (x.clip 0 100).NanOrFin := by
  cases x <;> trivial

/-- **C103** (humidity, equal) -/
theorem C103_humidity_equal (api : PandasApi) {daily : Frame ℝ} (temp : Option (Series (XF ℝ))) (a0 a1 kr : Option ℝ) (table : Option (CatMeans ℝ)) (d0 : Int) {n : Nat}
    (hn : 0 < n) {v : Nat → XF ℝ} (hd : daily.col? "hum" = some (dailyS d0 n v)) {out : Series (XF ℝ)}
    (hret : disaggregateHumidity api daily "equal" temp a0 a1 kr table false = .ok out) {H : Frame ℝ} (hw : H.WF) (hc : H.col? "hum" = some out) :
    disaggregateHumidity api (dailyFromHourly H) "equal" temp a0 a1 kr table false = .ok out := by
  rw [(hum_finish (raw_equal api daily temp a0 a1 kr table d0 n hn v hd)).1] at hret
  cases hret
  have := mean_column hw hn hc (.inr (.inl rfl)) fun i _ => dayMean_const (clip_nanOrFin (v i))
  rw [(hum_finish (raw_equal api _ temp a0 a1 kr table d0 n hn _ this)).1]
  congr 1
  apply hourlyS_congr
  intro i _ h _
  exact clip_clip _

theorem temp_columns {H : Frame ℝ} (hw : H.WF) {d0 : Int} {n : Nat} (hn : 0 < n) {T : Nat → Nat → ℝ} (hc : H.col? "temp" = some (hourlyS d0 n fun i h => .fin (T i h)))
    {tmin tmax : Nat → ℝ} (hmin : ∀ i < n, MinIs (day24 fun h => XF.fin (T i h)) (tmin i)) (hmax : ∀ i < n, MaxIs (day24 fun h => XF.fin (T i h)) (tmax i)) :
    (dailyFromHourly H).col? "tmin" = some (dailyS d0 n fun i => .fin (tmin i)) ∧ (dailyFromHourly H).col? "tmax" = some (dailyS d0 n fun i => .fin (tmax i)) := by
  have nf : ∀ i < n, ∀ c ∈ dayCells (hourlyS d0 n fun i h => XF.fin (T i h)) (d0 + (i : Int)), c.NanOrFin := by
    intro i hi
    rw [dayCells_hourlyS d0 _ hi]
    exact nanOrFin_day24 _
  have := daily_temp hw hn hc nf
  constructor
  · rw [this.hmin]
    congr 1
    apply dailyS_congr
    intro i hi
    rw [dayCells_hourlyS d0 _ hi]
    exact minOf_minIs (hmin i hi)
  · rw [this.hmax]
    congr 1
    apply dailyS_congr
    intro i hi
    rw [dayCells_hourlyS d0 _ hi]
    exact maxOf_maxIs (hmax i hi)

theorem exists_max_day24 (y : Nat → ℝ) : ∃ m, MaxIs (day24 fun h => XF.fin (y h)) m := by
  obtain ⟨m, hm⟩ := Option.ne_none_iff_exists'.1 (fun h' => (by simp [day24] : day24 y ≠ []) (List.max?_eq_none_iff.1 h'))
  obtain ⟨h1, h2⟩ := List.max?_eq_some_iff.1 hm
  exact ⟨m, day24 y, by rw [day24_map], h1, h2⟩

/-- **C103** (humidity from the dew point) The same for 'minimal', 'dewpoint_regression' and 'linear_dewpoint_variation' if the hourly temperatures of the table are those used
and their daily minima are the daily minima given. -/
theorem C103_humidity_dewpoint (api : PandasApi) {daily : Frame ℝ} {method : String}
    (hm : method = "minimal" ∨ method = "dewpoint_regression" ∨ method = "linear_dewpoint_variation") (d0 : Int) {n : Nat} (hn : 0 < n)
    {T : Nat → Nat → ℝ} {tmin : Nat → ℝ} (hd : daily.col? "tmin" = some (dailyS d0 n fun i => .fin (tmin i))) (hmin : ∀ i < n, MinIs (day24 fun h => XF.fin (T i h)) (tmin i))
    (a0 a1 kr : ℝ) (hkr : kr = 6 ∨ kr = 12) (table : Option (CatMeans ℝ)) {out : Series (XF ℝ)}
    (hret : disaggregateHumidity api daily method (some (hourlyS d0 n fun i h => .fin (T i h))) (some a0) (some a1) (some kr) table false = .ok out)
    {H : Frame ℝ} (hw : H.WF) (hT : H.col? "temp" = some (hourlyS d0 n fun i h => .fin (T i h))) :
    disaggregateHumidity api (dailyFromHourly H) method (some (hourlyS d0 n fun i h => .fin (T i h))) (some a0) (some a1) (some kr) table false = .ok out := by
  have hd' := (temp_columns hw hn hT hmin fun i _ => (exists_max_day24 (T i)).choose_spec).1
  rw [← hret]
  rcases hm with rfl | rfl | rfl
  · rw [(hum_finish (raw_minimal api daily (some a0) (some a1) (some kr) table d0 n hn _ _ hd)).1, (hum_finish (raw_minimal api _ (some a0) (some a1) (some kr) table d0 n hn _ _ hd')).1]
  · rw [(hum_finish (raw_regression api daily a0 a1 (some kr) table d0 n hn _ _ hd)).1, (hum_finish (raw_regression api _ a0 a1 (some kr) table d0 n hn _ _ hd')).1]
  · rw [(hum_finish (raw_linear api daily a0 a1 kr hkr table d0 n hn _ _ hd)).1, (hum_finish (raw_linear api _ a0 a1 kr hkr table d0 n hn _ _ hd')).1]

/-- **C103** (humidity, min_max) The same for 'min_max' if the hourly temperatures used have the daily extremes, and the humidity extremes lie in order between 0 and 100. -/
theorem C103_humidity_min_max (api : PandasApi) {daily : Frame ℝ} (d0 : Int) {n : Nat} (hn : 0 < n) {T : Nat → Nat → ℝ} {tmin tmax lo hi : Nat → ℝ}
    (h1 : daily.col? "hum_min" = some (dailyS d0 n fun i => .fin (lo i))) (h2 : daily.col? "hum_max" = some (dailyS d0 n fun i => .fin (hi i)))
    (h3 : daily.col? "tmin" = some (dailyS d0 n fun i => .fin (tmin i))) (h4 : daily.col? "tmax" = some (dailyS d0 n fun i => .fin (tmax i)))
    (hmin : ∀ i < n, MinIs (day24 fun h => XF.fin (T i h)) (tmin i)) (hmax : ∀ i < n, MaxIs (day24 fun h => XF.fin (T i h)) (tmax i))
    (ht : ∀ i < n, tmin i < tmax i) (hh : ∀ i < n, 0 ≤ lo i ∧ lo i ≤ hi i ∧ hi i ≤ 100) (a0 a1 kr : Option ℝ) (table : Option (CatMeans ℝ)) {out : Series (XF ℝ)}
    (hret : disaggregateHumidity api daily "min_max" (some (hourlyS d0 n fun i h => .fin (T i h))) a0 a1 kr table false = .ok out)
    {H : Frame ℝ} (hw : H.WF) (hT : H.col? "temp" = some (hourlyS d0 n fun i h => .fin (T i h))) (hc : H.col? "hum" = some out) :
    disaggregateHumidity api (dailyFromHourly H) "min_max" (some (hourlyS d0 n fun i h => .fin (T i h))) a0 a1 kr table false = .ok out := by
  have ht' := temp_columns hw hn hT hmin hmax
  have e := (hum_finish (raw_minmax api daily a0 a1 kr table d0 n hn _ _ _ _ (fun i h => .fin (T i h)) h1 h2 h3 h4)).1
  rw [hret] at e
  injection e with e
  let y : Nat → Nat → ℝ := fun i h => hi i + (T i h - tmin i) / (tmax i - tmin i) * (lo i - hi i)
  have bounds : ∀ i < n, ∀ h < 24, lo i ≤ y i h ∧ y i h ≤ hi i := by
    intro i hi' h hh'
    obtain ⟨ys, hys, -, hle⟩ := hmin i hi'
    obtain ⟨zs, hzs, -, hge⟩ := hmax i hi'
    have m : XF.fin (T i h) ∈ day24 fun h => XF.fin (T i h) := mem_day24.2 ⟨h, hh', rfl⟩
    have b1 : tmin i ≤ T i h := by
      rw [hys] at m
      obtain ⟨z, hz, ez⟩ := List.mem_map.1 m
      cases ez
      exact hle _ hz
    have m : XF.fin (T i h) ∈ day24 fun h => XF.fin (T i h) := mem_day24.2 ⟨h, hh', rfl⟩
    have b2 : T i h ≤ tmax i := by
      rw [hzs] at m
      obtain ⟨z, hz, ez⟩ := List.mem_map.1 m
      cases ez
      exact hge _ hz
    have hpos : 0 < tmax i - tmin i := sub_pos.2 (ht i hi')
    have f0 : 0 ≤ (T i h - tmin i) / (tmax i - tmin i) := div_nonneg (by linarith) hpos.le
    have f1 : (T i h - tmin i) / (tmax i - tmin i) ≤ 1 := (div_le_one hpos).2 (by linarith)
    obtain ⟨_, c, _⟩ := hh i hi'
    constructor
    · show lo i ≤ hi i + _ * (lo i - hi i)
      nlinarith
    · show hi i + _ * (lo i - hi i) ≤ hi i
      nlinarith
  have eo : out = hourlyS d0 n fun i h => .fin (y i h) := by
    rw [e]
    apply hourlyS_congr
    intro i hi' h hh'
    have hpos : tmax i - tmin i ≠ 0 := (sub_pos.2 (ht i hi')).ne'
    obtain ⟨p, q, r⟩ := hh i hi'
    obtain ⟨b1, b2⟩ := bounds i hi' h hh'
    rw [XF.fin_sub_fin, XF.fin_sub_fin, XF.fin_sub_fin, XF.fin_div_fin_of_ne _ hpos, XF.fin_mul_fin, XF.fin_add_fin]
    show XF.fin (min (max (y i h) 0) 100) = _
    rw [max_eq_left (by linarith), min_eq_left (by linarith)]
  have att : ∀ i < n, MinIs (day24 fun h => XF.fin (y i h)) (lo i) ∧ MaxIs (day24 fun h => XF.fin (y i h)) (hi i) := by
    intro i hi'
    have hpos : tmax i - tmin i ≠ 0 := (sub_pos.2 (ht i hi')).ne'
    have get : ∀ {t : ℝ} {ys : List ℝ}, (day24 fun h => XF.fin (T i h)) = ys.map XF.fin → t ∈ ys → ∃ h < 24, T i h = t := by
      intro t ys e hm
      have : XF.fin t ∈ day24 fun h => XF.fin (T i h) := by rw [e]; exact List.mem_map.2 ⟨t, hm, rfl⟩
      obtain ⟨h, hh', e'⟩ := mem_day24.1 this
      exact ⟨h, hh', by injection e'⟩
    obtain ⟨ys, hys, hm1, -⟩ := hmin i hi'
    obtain ⟨zs, hzs, hm2, -⟩ := hmax i hi'
    obtain ⟨k1, hk1, e1⟩ := get hys hm1
    obtain ⟨k2, hk2, e2⟩ := get hzs hm2
    refine ⟨⟨day24 (y i), by rw [day24_map], mem_day24.2 ⟨k2, hk2, ?_⟩, ?_⟩, ⟨day24 (y i), by rw [day24_map], mem_day24.2 ⟨k1, hk1, ?_⟩, ?_⟩⟩
    · show hi i + (T i k2 - tmin i) / (tmax i - tmin i) * (lo i - hi i) = lo i
      rw [e2, div_self hpos]; ring
    · intro z hz
      obtain ⟨k, hk, rfl⟩ := mem_day24.1 hz
      exact (bounds i hi' k hk).1
    · show hi i + (T i k1 - tmin i) / (tmax i - tmin i) * (lo i - hi i) = hi i
      rw [e1]; simp
    · intro z hz
      obtain ⟨k, hk, rfl⟩ := mem_day24.1 hz
      exact (bounds i hi' k hk).2
  rw [eo] at hc
  have hs : SpansDays H.index d0 n := by
    rw [← col?_index hw hc]
    exact spans_hourly d0 hn _
  have nf : ∀ i < n, ∀ c ∈ dayCells (hourlyS d0 n fun i h => XF.fin (y i h)) (d0 + (i : Int)), c.NanOrFin := by
    intro i hi'
    rw [dayCells_hourlyS d0 _ hi']
    exact nanOrFin_day24 _
  obtain ⟨-, c1, c2⟩ := (C92_daily_values H hw d0 n hs _ (rows_nanOrFin nf)).2.2.2.1 hc
  have c1' : (dailyFromHourly H).col? "hum_min" = some (dailyS d0 n fun i => .fin (lo i)) := by
    rw [c1]
    congr 1
    apply dailyS_congr
    intro i hi'
    rw [dayCells_hourlyS d0 _ hi']
    exact minOf_minIs (att i hi').1
  have c2' : (dailyFromHourly H).col? "hum_max" = some (dailyS d0 n fun i => .fin (hi i)) := by
    rw [c2]
    congr 1
    apply dailyS_congr
    intro i hi'
    rw [dayCells_hourlyS d0 _ hi']
    exact maxOf_maxIs (att i hi').2
  rw [(hum_finish (raw_minmax api _ a0 a1 kr table d0 n hn _ _ _ _ (fun i h => .fin (T i h)) c1' c2' ht'.1 ht'.2)).1, e]

/-! ## Radiation -/

theorem rad_dayMean {q : Nat → ℝ} (hq : ∀ h < 24, 0 ≤ q h) (hpos : 0 < (day24 q).sum) {v : XF ℝ}
    (hv : v = .nan ∨ ∃ g, v = .fin g ∧ 0 ≤ g ∧ ∀ h < 24, q h = 0 ∨ 0.01 ≤ q h / ((day24 q).sum / 24) * g) :
    DayMean (day24 fun h => radCell (.fin (q h)) (.fin ((day24 q).sum / 24)) v) v := by
  rcases hv with rfl | ⟨g, rfl, hg, h⟩
  · refine .inl ⟨rfl, allNan_day24 fun k _ => ?_⟩
    unfold radCell
    simp
  · exact .inr ⟨g, rfl, (rad_day_mean hq hpos hg).2 h⟩

/-- **C103** (radiation, pot_rad) The hourly radiation of 'pot_rad' in an hourly table, aggregated by `daily_from_hourly` and disaggregated again with the same potential
radiation, is the same if no daylight hour's share is below 0.01 W/m². -/
theorem C103_pot_rad (api : PandasApi) {daily : Frame ℝ} {d0 : Int} {n : Nat} (hi : daily.index = (List.range n).map fun i : Nat => at00 (d0 + i)) (hn : 0 < n)
    {v : Nat → XF ℝ} (hg : daily.col? "glob" = some (dailyS d0 n v)) {q : Nat → Nat → ℝ} (hq : ∀ i < n, (∀ h < 24, 0 ≤ q i h) ∧ 0 < (day24 (q i)).sum)
    (hv : ∀ i < n, v i = .nan ∨ ∃ g, v i = .fin g ∧ 0 ≤ g ∧ ∀ h < 24, q i h = 0 ∨ 0.01 ≤ q i h / ((day24 (q i)).sum / 24) * g)
    (sun : Option (Series SunTimes)) (angstr bristcamp : ParPair ℝ) (course : Option (MeanCourse ℝ)) {out : Series (XF ℝ)}
    (hret : disaggregateRadiation api daily sun (some (hourlyS d0 n fun i h => .fin (q i h))) "pot_rad" angstr bristcamp course = .ok out)
    {H : Frame ℝ} (hw : H.WF) (hc : H.col? "glob" = some out) :
    disaggregateRadiation api (dailyFromHourly H) sun (some (hourlyS d0 n fun i h => .fin (q i h))) "pot_rad" angstr bristcamp course = .ok out := by
  rw [potRad_eq api hi hn hg] at hret
  have e : out = hourlyS d0 n fun i h => radCell (.fin (q i h)) (.fin ((day24 (q i)).sum / 24)) (v i) := by
    injection hret with hret
    rw [← hret]
    apply hourlyS_congr
    intro i hi' h _
    rw [lastValue_self hi', meanSkip_day24 (q := q i) fun _ _ => rfl]
  have hc' := hc
  rw [e] at hc'
  have hg' := mean_column hw hn hc' (.inl rfl) fun i hi' => rad_dayMean (hq i hi').1 (hq i hi').2 (hv i hi')
  rw [potRad_eq api (daily_index hw hn hc' (by rw [hg']; rfl)) hn hg', hret]

/-- **C103** (radiation, mean_course) -/
theorem C103_mean_course (api : PandasApi) {daily : Frame ℝ} {d0 : Int} {n : Nat} (hi : daily.index = (List.range n).map fun i : Nat => at00 (d0 + i)) (hn : 0 < n)
    {v : Nat → XF ℝ} (hg : daily.col? "glob" = some (dailyS d0 n v)) {c : MeanCourse ℝ} (hcov : Covers c d0 n) {q : Int → Nat → ℝ}
    (hcq : ∀ i < n, ∀ h < 24, c.val (monthOf (at00 (d0 + (i : Nat)))) (h : Nat) = .fin (q (monthOf (at00 (d0 + (i : Nat)))) h))
    (hq : ∀ i < n, (∀ h < 24, 0 ≤ q (monthOf (at00 (d0 + (i : Nat)))) h) ∧ 0 < (day24 (q (monthOf (at00 (d0 + (i : Nat)))))).sum)
    (hv : ∀ i < n, v i = .nan ∨ ∃ g, v i = .fin g ∧ 0 ≤ g ∧ ∀ h < 24, q (monthOf (at00 (d0 + (i : Nat)))) h = 0 ∨
      0.01 ≤ q (monthOf (at00 (d0 + (i : Nat)))) h / ((day24 (q (monthOf (at00 (d0 + (i : Nat)))))).sum / 24) * g)
    (sun : Option (Series SunTimes)) (pot : Option (Series (XF ℝ))) (angstr bristcamp : ParPair ℝ) {out : Series (XF ℝ)}
    (hret : disaggregateRadiation api daily sun pot "mean_course" angstr bristcamp (some c) = .ok out)
    {H : Frame ℝ} (hw : H.WF) (hc : H.col? "glob" = some out) :
    disaggregateRadiation api (dailyFromHourly H) sun pot "mean_course" angstr bristcamp (some c) = .ok out := by
  rw [meanCourseRad_eq api hi hn hg sun pot angstr bristcamp hcov.months hcov.hours] at hret
  have e : out = hourlyS d0 n fun i h => radCell (.fin (q (monthOf (at00 (d0 + (i : Nat)))) h)) (.fin ((day24 (q (monthOf (at00 (d0 + (i : Nat)))))).sum / 24)) (v i) := by
    injection hret with hret
    rw [← hret]
    apply hourlyS_congr
    intro i hi' h hh
    rw [hcq i hi' h hh, meanSkip_day24 (q := q (monthOf (at00 (d0 + (i : Nat))))) (hcq i hi')]
  have hc' := hc
  rw [e] at hc'
  have hg' := mean_column hw hn hc' (.inl rfl) fun i hi' => rad_dayMean (hq i hi').1 (hq i hi').2 (hv i hi')
  rw [meanCourseRad_eq api (daily_index hw hn hc' (by rw [hg']; rfl)) hn hg' sun pot angstr bristcamp hcov.months hcov.hours, hret]

theorem two_WF {d0 : Int} {n : Nat} (f g : Nat → Nat → XF ℝ) (x y : String) :
    (⟨hoursFrom d0 n, [(x, Series.values (hourlyS d0 n f)), (y, Series.values (hourlyS d0 n g))]⟩ : Frame ℝ).WF := by
  have e := congrArg List.length (congrArg Series.index (hours_zip d0 n f))
  have l : (hoursFrom d0 n).length = 24 * n := by
    unfold hoursFrom
    simp [List.length_flatMap]
    ring
  intro c hc
  simp at hc
  rcases hc with rfl | rfl <;> simp [Series.values, l]

theorem two_col {d0 : Int} {n : Nat} (f g : Nat → Nat → XF ℝ) :
    (⟨hoursFrom d0 n, [("temp", Series.values (hourlyS d0 n f)), ("hum", Series.values (hourlyS d0 n g))]⟩ : Frame ℝ).col? "temp" = some (hourlyS d0 n f) ∧
    (⟨hoursFrom d0 n, [("temp", Series.values (hourlyS d0 n f)), ("hum", Series.values (hourlyS d0 n g))]⟩ : Frame ℝ).col? "hum" = some (hourlyS d0 n g) := by
  unfold Frame.col?
  constructor
  · simp [hours_zip]
  · simp [hours_zip]

/-- C103 (radiation): not so in general; shares below 0.01 W/m² are lost each time -/
theorem C103_pot_rad_not : ∃ (daily : Frame ℝ) (pot out out' : Series (XF ℝ)),
    disaggregateRadiation .modern daily none (some pot) = .ok out ∧
    disaggregateRadiation .modern (dailyFromHourly ⟨out.index, [("glob", out.values)]⟩) none (some pot) = .ok out' ∧ out' ≠ out := by
  have hg : (⟨[at00 0], [("glob", [.fin 0.05])]⟩ : Frame ℝ).col? "glob" = some (dailyS 0 1 fun _ => .fin 0.05) := rfl
  let q : Nat → ℝ := fun h => if h = 12 then 239 else if h = 13 then 1 else 0
  have hs : (day24 q).sum = 240 := by
    simp [q, day24, List.range_succ]
    norm_num
  have e := potRad_eq (d0 := 0) (d1 := 0) (n := 1) (m := 1) (daily := ⟨[at00 0], [("glob", [.fin 0.05])]⟩) .modern rfl (by omega)
    hg none (fun _ h => .fin (q h)) (.scalar (.fin 0.25) (.fin 0.5)) (.scalar (.fin 0.75) (.fin 2.4)) none
  have cell : ∀ (h : Nat) (g : ℝ), radCell (.fin (q h)) (meanSkip (day24 fun h => .fin (q h))) (.fin g) = .fin (if q h / 10 * g < 0.01 then 0 else q h / 10 * g) := by
    intro h g
    rw [meanSkip_day24 (q := q) fun _ _ => rfl, hs]
    unfold radCell
    rw [XF.fin_div_fin_of_ne _ (by norm_num), XF.fin_mul_fin, show (240 / 24 : ℝ) = 10 by norm_num]
    by_cases h' : q h / 10 * g < 0.01
    · rw [if_pos h', if_pos (by exact h')]
    · rw [if_neg h', if_neg (by exact h')]
  have eo : (hourlyS 0 1 fun j h => radCell (.fin (q h)) (meanSkip (day24 fun h => .fin (q h))) (lastValue 0 1 (fun _ => .fin 0.05) (0 + j))) =
      hourlyS 0 1 fun _ h => .fin (if h = 12 then 1.195 else 0) := by
    apply hourlyS_congr
    intro i hi h _
    rw [lastValue_self hi, cell]
    refine congrArg XF.fin ?_
    simp only [q]
    by_cases h12 : h = 12
    · rw [if_pos h12, if_pos h12]; norm_num
    · rw [if_neg h12, if_neg h12]
      by_cases h13 : h = 13
      · rw [if_pos h13]; norm_num
      · rw [if_neg h13]; norm_num
  rw [eo] at e
  have hc : (⟨Series.index (hourlyS 0 1 fun _ h => XF.fin (if h = 12 then 1.195 else 0 : ℝ)),
      [("glob", Series.values (hourlyS 0 1 fun _ h => XF.fin (if h = 12 then 1.195 else 0 : ℝ)))]⟩ : Frame ℝ).col? "glob" =
      some (hourlyS 0 1 fun _ h => .fin (if h = 12 then 1.195 else 0)) := congrArg some (index_zip_values _)
  have hw : (⟨Series.index (hourlyS 0 1 fun _ h => XF.fin (if h = 12 then 1.195 else 0 : ℝ)),
      [("glob", Series.values (hourlyS 0 1 fun _ h => XF.fin (if h = 12 then 1.195 else 0 : ℝ)))]⟩ : Frame ℝ).WF := by
    intro c hc
    rw [List.mem_singleton.1 hc]
    simp [Series.index, Series.values]
  have hg' := mean_column hw (by omega) hc (.inl rfl) (v := fun _ => .fin (1.195 / 24)) fun i _ => .inr ⟨_, rfl, day24 fun h => if h = 12 then 1.195 else 0, by rw [day24_map],
    by simp [day24], by simp [day24, List.range_succ]⟩
  have e' := potRad_eq (d0 := 0) (d1 := 0) (n := 1) (m := 1) .modern (daily_index hw (by omega) hc (by rw [hg']; rfl)) (by omega)
    hg' none (fun _ h => .fin (q h)) (.scalar (.fin 0.25) (.fin 0.5)) (.scalar (.fin 0.75) (.fin 2.4)) none
  refine ⟨_, _, _, _, e, e', ?_⟩
  intro heq
  have := congrArg (fun s => dayCells s (0 + (0 : Nat))) heq
  rw [dayCells_hourlyS 0 _ (by omega), dayCells_hourlyS 0 _ (by omega)] at this
  have := congrArg (fun l => l[12]?) this
  simp only [day24, List.getElem?_map, List.getElem?_range (by omega : 12 < 24), Option.map_some] at this
  rw [lastValue_self (by omega)] at this
  have c12 := cell 12 (1.195 / 24)
  unfold day24 at c12
  rw [c12] at this
  simp only [q, if_true] at this
  norm_num at this

/-- C103 (wind): two days, the second without data -/
example : ∃ l l' w, disaggregateWind .modern (fun _ => 0) (dailyS 0 2 fun i => if i = 0 then .fin 3 else .nan) "cosine" (some (-0.2)) (some 0.9) (some 2) = .ok (.array l) ∧
    (dailyFromHourly ⟨hoursFrom 0 2, [("wind", l)]⟩).col? "wind" = some w ∧
    disaggregateWind .modern (fun _ => 0) w "cosine" (some (-0.2)) (some 0.9) (some 2) = .ok (.array l') ∧ l' = l.map fun x => .fin 0.9 * x := by
  have e := wind_cosine .modern (fun _ => 0) 0 2 (by omega) (fun i => if i = 0 then .fin 3 else .nan) (-0.2) 0.9 2
  have hv : ∀ i < 2, (if i = 0 then .fin 3 else .nan : XF ℝ).NanOrFin := by
    intro i _
    split <;> trivial
  obtain ⟨w, l', h1, h2, h3, -⟩ := C103_wind_cosine .modern (fun _ => 0) 0 (by omega) _ hv _ _ _ e (H := ⟨hoursFrom 0 2, [("wind", _)]⟩)
    (by intro c hc; rw [List.mem_singleton.1 hc]; simp [Series.values, hoursFrom, List.length_flatMap]) rfl
  exact ⟨_, l', w, e, h1, h2, h3⟩

/-- C103 (radiation): two days with the same potential radiation at noon and after -/
example : ∃ out, disaggregateRadiation .modern ⟨[at00 0, at00 1], [("glob", [.fin 100, .nan])]⟩ none (some (hourlyS 0 2 fun _ h => .fin (if h = 12 then 3 else 1))) = .ok out ∧
    disaggregateRadiation .modern (dailyFromHourly ⟨out.index, [("glob", out.values)]⟩) none (some (hourlyS 0 2 fun _ h => .fin (if h = 12 then 3 else 1))) = .ok out := by
  have hg : (⟨[at00 0, at00 1], [("glob", [.fin 100, .nan])]⟩ : Frame ℝ).col? "glob" = some (dailyS 0 2 fun i => if i = 0 then .fin 100 else .nan) := rfl
  have e := potRad_eq (d0 := 0) (d1 := 0) (n := 2) (m := 2) (daily := ⟨[at00 0, at00 1], [("glob", [.fin 100, .nan])]⟩) .modern rfl (by omega)
    hg none (fun _ h => .fin (if h = 12 then 3 else 1)) (.scalar (.fin 0.25) (.fin 0.5)) (.scalar (.fin 0.75) (.fin 2.4)) none
  have hs : (day24 fun h => (if h = 12 then 3 else 1 : ℝ)).sum = 26 := by
    simp [day24, List.range_succ]
    norm_num
  refine ⟨_, e, C103_pot_rad .modern (d0 := 0) (n := 2) (q := fun _ h => if h = 12 then 3 else 1) rfl (by omega) hg ?_ ?_ _ _ _ _ e ?_ ?_⟩
  · intro i _
    refine ⟨fun h _ => by split <;> norm_num, ?_⟩
    rw [hs]; norm_num
  · intro i _
    by_cases h : i = 0
    · refine .inr ⟨100, by simp [h], by norm_num, fun k _ => .inr ?_⟩
      rw [hs]
      split <;> norm_num
    · exact .inl (by simp [h])
  · intro c hc
    rw [List.mem_singleton.1 hc]
    simp [Series.index, Series.values]
  · exact congrArg some (index_zip_values _)

/-- C103 (humidity): 'minimal' and 'min_max' on two days with temperatures 280 + hour -/
example : ∃ out out', disaggregateHumidity .modern ⟨[at00 0, at00 1], [("tmin", [.fin 280, .fin 280])]⟩ "minimal" (some (hourlyS 0 2 fun _ h => .fin (280 + h)))
      (some 0) (some 1) (some 6) none false = .ok out ∧
    disaggregateHumidity .modern (dailyFromHourly ⟨hoursFrom 0 2, [("temp", Series.values (hourlyS 0 2 fun _ h => .fin (280 + h))), ("hum", Series.values out)]⟩) "minimal"
      (some (hourlyS 0 2 fun _ h => .fin (280 + h))) (some 0) (some 1) (some 6) none false = .ok out ∧
    disaggregateHumidity .modern ⟨[at00 0, at00 1], [("hum_min", [.fin 40, .fin 30]), ("hum_max", [.fin 90, .fin 100]), ("tmin", [.fin 280, .fin 280]), ("tmax", [.fin 303, .fin 303])]⟩
      "min_max" (some (hourlyS 0 2 fun _ h => .fin (280 + h))) none none none none false = .ok out' ∧
    disaggregateHumidity .modern (dailyFromHourly ⟨hoursFrom 0 2, [("temp", Series.values (hourlyS 0 2 fun _ h => .fin (280 + h))), ("hum", Series.values out')]⟩) "min_max"
      (some (hourlyS 0 2 fun _ h => .fin (280 + h))) none none none none false = .ok out' := by
  have hmin : ∀ i < 2, MinIs (day24 fun h => XF.fin (280 + (h : ℝ))) ((fun _ => 280 : Nat → ℝ) i) := by
    intro i _
    refine ⟨day24 fun h => 280 + (h : ℝ), by rw [day24_map], mem_day24.2 ⟨0, by omega, by simp⟩, ?_⟩
    intro y hy
    obtain ⟨k, _, rfl⟩ := mem_day24.1 hy
    simp
  have hmax : ∀ i < 2, MaxIs (day24 fun h => XF.fin (280 + (h : ℝ))) ((fun _ => 303 : Nat → ℝ) i) := by
    intro i _
    refine ⟨day24 fun h => 280 + (h : ℝ), by rw [day24_map], mem_day24.2 ⟨23, by omega, by norm_num⟩, ?_⟩
    intro y hy
    obtain ⟨k, hk, rfl⟩ := mem_day24.1 hy
    have : (k : ℝ) ≤ 23 := by exact_mod_cast (by omega : k ≤ 23)
    linarith
  have c1 : (⟨[at00 0, at00 1], [("tmin", [.fin 280, .fin 280])]⟩ : Frame ℝ).col? "tmin" = some (dailyS 0 2 fun i => .fin ((fun _ => 280 : Nat → ℝ) i)) := rfl
  have e1 := (hum_finish (raw_minimal .modern (⟨[at00 0, at00 1], [("tmin", [.fin 280, .fin 280])]⟩ : Frame ℝ) (some 0) (some 1) (some 6) none 0 2 (by omega) _
    (fun _ h => .fin (280 + h)) c1)).1
  have e2 := (hum_finish (raw_minmax .modern
    (⟨[at00 0, at00 1], [("hum_min", [.fin 40, .fin 30]), ("hum_max", [.fin 90, .fin 100]), ("tmin", [.fin 280, .fin 280]), ("tmax", [.fin 303, .fin 303])]⟩ : Frame ℝ) none none none none 0 2 (by omega)
    (fun i => .fin (if i = 0 then 40 else 30)) (fun i => .fin (if i = 0 then 90 else 100)) (fun i => .fin ((fun _ => 280 : Nat → ℝ) i)) (fun i => .fin ((fun _ => 303 : Nat → ℝ) i))
    (fun _ h => .fin (280 + h)) (by simp [Frame.col?, dailyS, List.range_succ]) (by simp [Frame.col?, dailyS, List.range_succ]) rfl rfl)).1
  refine ⟨_, _, e1, ?_, e2, ?_⟩
  · exact C103_humidity_dewpoint .modern (.inl rfl) 0 (by omega) c1 hmin _ _ _ (.inl rfl) _ e1 (two_WF _ _ _ _) (two_col _ _).1
  · refine C103_humidity_min_max .modern 0 (by omega) (lo := fun i => if i = 0 then 40 else 30) (hi := fun i => if i = 0 then 90 else 100) ?_ ?_ rfl rfl hmin hmax ?_ ?_ _ _ _ _ e2
      (two_WF _ _ _ _) (two_col _ _).1 (two_col _ _).2
    · simp [Frame.col?, dailyS, List.range_succ]
    · simp [Frame.col?, dailyS, List.range_succ]
    · intro i _; norm_num
    · intro i _; split <;> norm_num

/-- C103 (wind 'equal', humidity 'equal' with a value above 100) -/
example : ∃ s, disaggregateWind .modern (fun _ => 0) (dailyS 0 2 fun i => if i = 0 then .fin 3 else .nan) "equal" none none none = .ok (.series s) ∧
    ∃ w, (dailyFromHourly ⟨Series.index s, [("wind", Series.values s)]⟩).col? "wind" = some w ∧ disaggregateWind .modern (fun _ => 0) w "equal" none none none = .ok (.series s) := by
  have e := C32_wind_equal .modern (fun _ => 0) 0 2 (by omega) (fun i => if i = 0 then .fin 3 else .nan) none none none
  refine ⟨_, e, C103_wind_equal .modern (fun _ => 0) 0 (by omega) _ ?_ _ _ _ e ?_ (congrArg some (index_zip_values _))⟩
  · intro i _
    split <;> trivial
  · intro c hc
    rw [List.mem_singleton.1 hc]
    simp [Series.index, Series.values]

example : ∃ out, disaggregateHumidity .modern ⟨[at00 0, at00 1], [("hum", [.fin 104, .fin 60])]⟩ "equal" none none none none none false = .ok out ∧
    disaggregateHumidity .modern (dailyFromHourly ⟨Series.index out, [("hum", Series.values out)]⟩) "equal" none none none none none false = .ok out := by
  have hd : (⟨[at00 0, at00 1], [("hum", [.fin 104, .fin 60])]⟩ : Frame ℝ).col? "hum" = some (dailyS 0 2 fun i => if i = 0 then .fin 104 else .fin 60) := rfl
  have e := (hum_finish (raw_equal .modern (⟨[at00 0, at00 1], [("hum", [.fin 104, .fin 60])]⟩ : Frame ℝ) none none none none none 0 2 (by omega) _ hd)).1
  refine ⟨_, e, C103_humidity_equal .modern none none none none none 0 (by omega) hd e ?_ (congrArg some (index_zip_values _))⟩
  intro c hc
  rw [List.mem_singleton.1 hc]
  simp [Series.index, Series.values]

end

/-- C103 (precipitation): three days, the second without data, the third with a dry master station -/
example : okAnd (distributeEqually .modern (dailyS 0 3 fun i => if i = 1 then .nan else .fin (i + 3 : ℚ)) true) (fun o =>
    match (dailyFromHourly (⟨Series.index o, [("precip", Series.values o)]⟩ : Frame ℚ)).col? "precip" with
    | some p => okAnd (distributeEqually .modern p true) fun o' => decide (o' = missingAsZero o ∧ o' ≠ o)
    | none => false) = true := by decide +kernel

example : okAnd (precipMasterStation .legacy (dailyS 0 3 fun i => if i = 1 then .nan else .fin (i + 3 : ℚ)) (hourlyS 0 3 fun i h => .fin ((2 - i) * h : ℚ)) "uniform") (fun o =>
    match (dailyFromHourly (⟨Series.index o, [("precip", Series.values o)]⟩ : Frame ℚ)).col? "precip" with
    | some p => okAnd (precipMasterStation .legacy p (hourlyS 0 3 fun i h => .fin ((2 - i) * h : ℚ)) "uniform") fun o' => decide (o' = missingAsZero o ∧ o' ≠ o)
    | none => false) = true := by decide +kernel

end Melodist
