import Verif.Props.Knmi
import Verif.Props.Dwd
import Verif.Props.DailyB

/-!
# C110: from station files to daily values
-/

set_option linter.unusedSectionVars false

namespace Melodist.DataIO

open Text Spec

variable {K : Type} [Field K] [LinearOrder K] [IsStrictOrderedRing K]

/-- the day that `daily_from_hourly` puts a KNMI record on: hour 24 (from 23 to 24 h) counts to the following day -/
def knmiDay (r : KnmiRecord) : Int := if r.hour = 24 then r.day + 1 else r.day

/-- the converted numbers of the records on day `d`, in file order -/
def knmiNumbers (conv : K → K) (recs : List KnmiRecord) (name : String) (d : Int) : List K :=
  (recs.filter fun r => decide (knmiDay r = d)).filterMap fun r => (r.val name).map fun x => conv x.value

theorem dayOf_knmi {r : KnmiRecord} (h : 1 ≤ r.hour ∧ r.hour ≤ 24) : dayOf (r.day * DAY + r.hour * HOUR) = knmiDay r := by
  unfold dayOf knmiDay
  split <;> omega

theorem knmi_numbers_day (conv : K → K) {recs : List KnmiRecord} (h : ∀ r ∈ recs, 1 ≤ r.hour ∧ r.hour ≤ 24) (name : String) (d : Int) :
    numbers (dayCells ((recs.map fun r => r.day * DAY + r.hour * HOUR).zip (recs.map fun r => cellOf conv (r.val name))) d) = knmiNumbers conv recs name d := by
  rw [List.zip_map']
  unfold dayCells knmiNumbers numbers
  rw [List.filter_map, List.map_map, List.filterMap_map]
  have : (recs.filter ((fun r : Time × XF K => decide (r.1 / 86400000000 = d)) ∘ fun r => (r.day * DAY + r.hour * HOUR, cellOf conv (r.val name)))) =
      recs.filter fun r => decide (knmiDay r = d) := by
    apply List.filter_congr
    intro r hr
    have := dayOf_knmi (h r hr)
    unfold dayOf at this
    simp only [Function.comp_def, this]
  rw [this]
  congr 1
  funext r
  simp only [Function.comp_def]
  cases r.val name <;> rfl

theorem cellOf_nanOrFin (conv : K → K) (o : Option Numeral) : (cellOf conv o).NanOrFin := by
  cases o <;> trivial

theorem knmiFrame_wf (recs : List KnmiRecord) : (knmiFrame (K := K) recs).WF := by
  intro c hc
  simp only [knmiFrame, List.mem_cons, List.not_mem_nil, or_false] at hc
  rcases hc with rfl | rfl | rfl | rfl | rfl | rfl <;> simp [knmiFrame]

/-- **C110 (KNMI).**  A KNMI file is read and aggregated with `daily_from_hourly`.  The daily values of a date are those of hour 24 of the day before and
hours 1 to 23 of the day itself; the records may have gaps and be in any order. -/
theorem C110_knmi (api : PandasApi) (hapi : api.pdDatetime = true) {explanation : List Text} {names : List (Nat × String)}
    {recs : List ((String → Nat) × KnmiRecord)} (h : KnmiText explanation names recs)
    (hcols : ∀ n ∈ ["T", "RH", "Q", "U", "FH", "SQ"], n ∈ names.map Prod.snd) (hhour : ∀ r ∈ recs, 1 ≤ r.2.hour ∧ r.2.hour ≤ 24)
    (d0 : Int) (n : Nat) (hn : 0 < n) (hdays : ∀ r ∈ recs, d0 ≤ knmiDay r.2 ∧ knmiDay r.2 < d0 + n) (hfirst : ∃ r ∈ recs, knmiDay r.2 = d0)
    (hlast : ∃ r ∈ recs, knmiDay r.2 = d0 + n - 1) :
    ∃ f, readKnmi (K := K) api (knmiFile explanation names recs) = .ok f ∧
      let rs := recs.map Prod.snd
      (dailyFromHourly f).col? "temp" = some (dailyS d0 n fun i => meanOf (knmiNumbers (fun x => x / 10 + 273.15) rs "T" (d0 + i))) ∧
      (dailyFromHourly f).col? "tmin" = some (dailyS d0 n fun i => minOf (knmiNumbers (fun x => x / 10 + 273.15) rs "T" (d0 + i))) ∧
      (dailyFromHourly f).col? "tmax" = some (dailyS d0 n fun i => maxOf (knmiNumbers (fun x => x / 10 + 273.15) rs "T" (d0 + i))) ∧
      (dailyFromHourly f).col? "precip" = some (dailyS d0 n fun i => .fin (knmiNumbers (fun x => max 0 (x / 10)) rs "RH" (d0 + i)).sum) ∧
      (dailyFromHourly f).col? "glob" = some (dailyS d0 n fun i => meanOf (knmiNumbers (fun x => x * 10000 / 3600) rs "Q" (d0 + i))) ∧
      (dailyFromHourly f).col? "hum" = some (dailyS d0 n fun i => meanOf (knmiNumbers id rs "U" (d0 + i))) ∧
      (dailyFromHourly f).col? "hum_min" = some (dailyS d0 n fun i => minOf (knmiNumbers id rs "U" (d0 + i))) ∧
      (dailyFromHourly f).col? "hum_max" = some (dailyS d0 n fun i => maxOf (knmiNumbers id rs "U" (d0 + i))) ∧
      (dailyFromHourly f).col? "wind" = some (dailyS d0 n fun i => meanOf (knmiNumbers (fun x => x / 10) rs "FH" (d0 + i))) ∧
      (dailyFromHourly f).col? "ssd" = some (dailyS d0 n fun i => .fin ((knmiNumbers (fun x => x * 6) rs "SQ" (d0 + i)).sum / 60)) := by
  refine ⟨knmiFrame (recs.map Prod.snd), (C74_read api h hcols hhour).1 hapi, ?_⟩
  intro rs
  have hh : ∀ r ∈ rs, 1 ≤ r.hour ∧ r.hour ≤ 24 := by
    intro r hr
    obtain ⟨x, hx, rfl⟩ := List.mem_map.1 hr
    exact hhour x hx
  have hspan : SpansDays (knmiFrame (K := K) rs).index d0 n := by
    refine ⟨hn, ?_, ?_, ?_⟩
    · intro t ht
      obtain ⟨r, hr, rfl⟩ := List.mem_map.1 ht
      obtain ⟨x, hx, rfl⟩ := List.mem_map.1 hr
      have := dayOf_knmi (hhour x hx)
      unfold dayOf at this
      rw [this]
      exact hdays x hx
    · obtain ⟨x, hx, e⟩ := hfirst
      refine ⟨_, List.mem_map.2 ⟨x.2, List.mem_map.2 ⟨x, hx, rfl⟩, rfl⟩, ?_⟩
      have := dayOf_knmi (hhour x hx)
      unfold dayOf at this
      rw [this, e]
    · obtain ⟨x, hx, e⟩ := hlast
      refine ⟨_, List.mem_map.2 ⟨x.2, List.mem_map.2 ⟨x, hx, rfl⟩, rfl⟩, ?_⟩
      have := dayOf_knmi (hhour x hx)
      unfold dayOf at this
      rw [this, e]
  have hcol : ∀ (name : String) (conv : K → K), ∀ r ∈ ((knmiFrame (K := K) rs).index.zip (rs.map fun r => cellOf conv (r.val name))), r.2.NanOrFin := by
    intro name conv r hr
    unfold knmiFrame at hr
    rw [List.zip_map'] at hr
    obtain ⟨x, _, rfl⟩ := List.mem_map.1 hr
    exact cellOf_nanOrFin _ _
  have D := fun (name : String) (conv : K → K) => C92_daily_values (knmiFrame (K := K) rs) (knmiFrame_wf rs) d0 n hspan _ (hcol name conv)
  have N := fun (name : String) (conv : K → K) (i : Nat) => knmi_numbers_day conv hh name (d0 + (i : Int))
  have T := (D "T" fun x => x / 10 + 273.15).1 rfl
  have Pr := (D "RH" fun x => max 0 (x / 10)).2.1 rfl
  have G := (D "Q" fun x => x * 10000 / 3600).2.2.1 rfl
  have H := (D "U" id).2.2.2.1 rfl
  have W := (D "FH" fun x => x / 10).2.2.2.2.1 rfl
  have S := (D "SQ" fun x => x * 6).2.2.2.2.2 rfl
  have I : (knmiFrame (K := K) rs).index = rs.map fun r => r.day * DAY + r.hour * HOUR := rfl
  simp only [I, N] at T Pr G H W S
  exact ⟨T.1, T.2.1, T.2.2, Pr, G, H.1, H.2.1, H.2.2, W, S⟩

/-- the records of a file with complete days `d0, …, d0 + n - 1`: hours 1 to 24 of each -/
def completeRecords (d0 : Int) (n : Nat) (val : Nat → String → Option Numeral) : List KnmiRecord :=
  (List.range (24 * n)).map fun k => ⟨d0 + (k / 24 : Nat), k % 24 + 1, val k⟩

/-- **C110 (complete KNMI files).**  A file with the complete days `d0, …, d0 + n - 1` gives `n + 1` dates.  The values of all but the first and
last are from 24 records: numbers `24 i - 1` to `24 i + 22` of the file (counted from 0), i.e. one hour earlier than the day of the file; the first date
has only 23 of them, the additional last date only the very last record. -/
theorem C110_knmi_complete (conv : K → K) (d0 : Int) (n : Nat) (hn : 0 < n) (x : Nat → Numeral) (name : String) (val : Nat → String → Option Numeral)
    (hval : ∀ k, val k name = some (x k)) :
    knmiNumbers conv (completeRecords d0 n val) name d0 = (List.range 23).map (fun h => conv (x h).value) ∧
    (∀ i, 0 < i → i < n → knmiNumbers conv (completeRecords d0 n val) name (d0 + (i : Nat)) =
      (List.range 24).map fun h => conv (x (24 * i - 1 + h)).value) ∧
    knmiNumbers conv (completeRecords d0 n val) name (d0 + (n : Nat)) = [conv (x (24 * n - 1)).value] := by
  have key : ∀ d : Int, knmiNumbers conv (completeRecords d0 n val) name d =
      ((List.range (24 * n)).filter fun k : Nat => decide (d0 + (((k + 1) / 24 : Nat) : Int) = d)).map fun k => conv (x k).value := by
    intro d
    unfold knmiNumbers completeRecords
    rw [List.filter_map, List.filterMap_map]
    have e1 : (List.range (24 * n)).filter ((fun r : KnmiRecord => decide (knmiDay r = d)) ∘ fun k => ⟨d0 + (k / 24 : Nat), k % 24 + 1, val k⟩) =
        (List.range (24 * n)).filter fun k : Nat => decide (d0 + (((k + 1) / 24 : Nat) : Int) = d) := by
      apply List.filter_congr
      intro k _
      simp only [Function.comp_def, knmiDay]
      have : (if k % 24 + 1 = 24 then d0 + ((k / 24 : Nat) : Int) + 1 else d0 + ((k / 24 : Nat) : Int)) = d0 + (((k + 1) / 24 : Nat) : Int) := by
        split <;> omega
      rw [this]
    rw [e1, ← List.filterMap_eq_map]
    congr 1
    funext k
    simp [hval]
  have flt : ∀ (a b : Nat), a + b ≤ 24 * n → ∀ p : Nat → Bool, (∀ k < 24 * n, p k = true ↔ a ≤ k ∧ k < a + b) →
      (List.range (24 * n)).filter p = (List.range b).map fun h => a + h := by
    intro a b hab p hp
    have e : List.range (24 * n) = List.range a ++ (List.range b).map (a + ·) ++ (List.range (24 * n - (a + b))).map (a + b + ·) := by
      rw [← List.range_add, ← List.range_add]
      congr 1
      omega
    rw [e, List.filter_append, List.filter_append]
    rw [List.filter_eq_nil_iff.2, List.filter_eq_self.2, List.filter_eq_nil_iff.2]
    · simp
    · intro k hk
      obtain ⟨j, hj, rfl⟩ := List.mem_map.1 hk
      have hj := List.mem_range.1 hj
      rw [hp _ (by omega)]
      omega
    · intro k hk
      obtain ⟨j, hj, rfl⟩ := List.mem_map.1 hk
      have hj := List.mem_range.1 hj
      rw [hp _ (by omega)]
      omega
    · intro k hk
      have hk := List.mem_range.1 hk
      rw [hp _ (by omega)]
      omega
  refine ⟨?_, ?_, ?_⟩
  · rw [key, flt 0 23 (by omega)]
    · simp
    · intro k hk
      simp only [decide_eq_true_eq]
      omega
  · intro i h0 hi
    rw [key, flt (24 * i - 1) 24 (by omega), List.map_map]
    · rfl
    · intro k hk
      simp only [decide_eq_true_eq]
      omega
  · rw [key, flt (24 * n - 1) 1 (by omega)]
    · simp
    · intro k hk
      simp only [decide_eq_true_eq]
      omega

/-- **C110 (DWD).**  Aggregating an hourly DWD file with `daily_from_hourly` gives no temperature columns, because the temperature is called `tmean`, and no
sunshine duration, because it is called `sun_h`; precipitation, radiation, humidity and wind come through if the file has them. -/
theorem C110_dwd {names : List String} {recs : List DwdRecord} (h : DwdText true names recs) :
    ∃ f, readSingleDwd (K := K) (textOf (dwdLines true names recs)) "h" none = .ok f ∧
      (∀ name ∈ ["temp", "tmin", "tmax", "ssd", "tmean", "sun_h"], (dailyFromHourly f).col? name = none) ∧
      ∀ e ∈ [("NIEDERSCHLAGSHOEHE", "precip"), ("GLOBAL_KW_J", "glob"), ("REL_FEUCHTE", "hum"), ("WINDGESCHWINDIGKEIT", "wind")],
        e.1 ∈ names → ((dailyFromHourly f).col? e.2).isSome := by
  refine ⟨_, (C75_read (.inr ⟨rfl, rfl⟩) h).1, ?_, ?_⟩
  all_goals
    have hwf : (dwdFrame (K := K) true names recs).WF := by
      intro c hc
      unfold dwdFrame at hc
      obtain ⟨n, _, e⟩ := List.mem_filterMap.1 hc
      obtain ⟨y, _, rfl⟩ := Option.map_eq_some_iff.1 e
      simp [dwdFrame]
  · have hnames : ∀ source, ((dwdFrame (K := K) true names recs).col? source).isSome → ∃ e ∈ dwdTable, e.2.1 = source := by
      intro source hs
      unfold Frame.col? at hs
      rw [Option.isSome_map] at hs
      obtain ⟨c, hc⟩ := Option.isSome_iff_exists.1 hs
      have h1 := List.find?_some hc
      have h2 := List.mem_of_find?_eq_some hc
      unfold dwdFrame at h2
      obtain ⟨n, _, e⟩ := List.mem_filterMap.1 h2
      obtain ⟨y, hy, rfl⟩ := Option.map_eq_some_iff.1 e
      unfold dwdKnown at hy
      obtain ⟨z, hz, rfl⟩ := Option.map_eq_some_iff.1 hy
      exact ⟨z, List.mem_of_find?_eq_some hz, by simpa using h1⟩
    intro name hname
    rw [← Option.not_isSome_iff_eq_none, C92_columns _ hwf]
    rintro ⟨source, hsome, hmem⟩
    obtain ⟨e, he, rfl⟩ := hnames source hsome
    simp only [dwdTable, List.mem_cons, List.not_mem_nil, or_false] at he
    simp only [List.mem_cons, List.not_mem_nil, or_false] at hname
    rcases he with rfl | rfl | rfl | rfl | rfl | rfl | rfl | rfl <;> rcases hname with rfl | rfl | rfl | rfl | rfl | rfl <;> simp at hmem
  · intro e he hn
    rw [C92_columns _ hwf]
    have : ((dwdFrame (K := K) true names recs).col? e.2).isSome := by
      unfold Frame.col?
      rw [Option.isSome_map, List.find?_isSome]
      refine ⟨(e.2, recs.map fun r => dwdCell false (r.val e.1)), ?_, by simp⟩
      unfold dwdFrame
      rw [List.mem_filterMap]
      refine ⟨e.1, hn, ?_⟩
      simp only [List.mem_cons, List.not_mem_nil, or_false] at he
      have : dwdKnown e.1 = some (e.2, false) := by
        rcases he with rfl | rfl | rfl | rfl <;> decide
      rw [this]
      rfl
    refine ⟨e.2, this, ?_⟩
    simp only [List.mem_cons, List.not_mem_nil, or_false] at he
    rcases he with rfl | rfl | rfl | rfl <;> simp

/-- the example file of `Props/Knmi.lean`: a record for hour 24 of 2015-12-31 and one for hour 13 of 2016-07-01 -/
example : okAnd (readKnmi (K := ℚ) .legacy (knmiFile exampleText exampleNames exampleRecs)) (fun f =>
    ((dailyFromHourly f).col? "temp").map (fun s => (s.length, s.head?)) = some (183, some (16801 * DAY, .fin (5433 / 20)))) := by
  decide +kernel

/-- the hypotheses hold for it -/
example : ∃ f, readKnmi (K := ℚ) .legacy (knmiFile exampleText exampleNames exampleRecs) = .ok f ∧
    (dailyFromHourly f).col? "hum" = some (dailyS 16801 183 fun i => meanOf (knmiNumbers id (exampleRecs.map Prod.snd) "U" (16801 + i))) := by
  obtain ⟨f, h1, h2⟩ := C110_knmi (K := ℚ) .legacy rfl example_ok (by decide) (by decide) 16801 183 (by decide) (by decide) (by decide) (by decide)
  exact ⟨f, h1, h2.2.2.2.2.2.1⟩

/-- two complete days: 23, 24 and 1 values -/
example : (List.range 3).map (fun i => (knmiNumbers (K := ℚ) id (completeRecords 16801 2 fun k _ => some ⟨false, k, []⟩) "U" (16801 + (i : Nat))).length) = [23, 24, 1] := by
  decide +kernel

/-- an hourly DWD file with temperature and humidity -/
example : okAnd (readSingleDwd (K := ℚ) " MESS_DATUM;LUFTTEMPERATUR;REL_FEUCHTE\n2016010123;4.0;80.0\n".toList "h" none) (fun f =>
    (dailyFromHourly f).col? "temp" = none ∧ (dailyFromHourly f).col? "hum" = some [(16801 * DAY, .fin 80)]) := by
  decide +kernel

end Melodist.DataIO
