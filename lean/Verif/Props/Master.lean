import Verif.Lemmas.Master
import Mathlib.Data.Rat.Defs
import Mathlib.Algebra.Order.Field.Rat

/-!
# C23: disaggregation with a master station
-/

set_option linter.unusedSectionVars false

namespace Melodist
open Spec

variable {K : Type} [Field K] [LinearOrder K] [IsStrictOrderedRing K]

/-- the master station has 24 hourly rows on each of the `n` days from `d0` on: the value at hour `h` of day `d0 + i` is
`m i h`.  (It may have more rows on other days.) -/
def MasterRows (master : Series (XF K)) (d0 : Int) (n : Nat) (m : Nat → Nat → XF K) : Prop :=
  ∀ i < n, master.filter (fun q => decide (q.1 / 86400000000 = d0 + (i : Int))) =
    (List.range 24).map fun h => (atHour (d0 + (i : Int)) h, m i h)

theorem MasterRows.filter {master : Series (XF K)} {d0 : Int} {n : Nat} {m : Nat → Nat → XF K}
    (h : MasterRows master d0 n m) :
    ∀ i < n, master.filter (fun q => dayOf q.1 == d0 + (i : Int)) =
      (List.range 24).map fun h => (atHour (d0 + (i : Int)) h, m i h) := by
  intro i hi
  rw [← h i hi]
  congr 1

/-- the total of day `i` at the master station (missing hours count nothing) -/
def masterTotal (m : Nat → Nat → XF K) (i : Nat) : K := (numbers (day24 (m i))).sum

/-- **C23 (proportional).**  Whenever the master station's hours are numbers or missing, the call returns a complete hourly series.
On a day with a non-zero master total every hour with a master value gets that hour's share of the daily total, and hours the
master station misses are missing. -/
theorem C23_proportional (api : PandasApi) (hapi : api.seriesIteritems = true) (zerodiv : String)
    (d0 : Int) (n : Nat) (hn : 0 < n) (v : Nat → XF K) (m : Nat → Nat → XF K) (master : Series (XF K))
    (hm : MasterRows master d0 n m) (hnum : ∀ i < n, ∀ h < 24, (m i h).NanOrFin) :
    ∃ out : Nat → Nat → XF K, precipMasterStation api (dailyS d0 n v) master zerodiv = .ok (hourlyS d0 n out) ∧
      ∀ i < n, ∀ x : K, v i = .fin x → masterTotal m i ≠ 0 → ∀ h < 24,
        (∀ y, m i h = .fin y → out i h = .fin (y / masterTotal m i * x)) ∧ (m i h = .nan → out i h = .nan) := by
  have hall : ∀ i < n, ∀ c ∈ day24 (m i), c.NanOrFin := by
    intro i hi c hc
    obtain ⟨h, hh, rfl⟩ := mem_day24.1 hc
    exact hnum i hi h hh
  have hsum : ∀ i < n, sumSkip (day24 (m i)) = .fin (masterTotal m i) := fun i hi => sumSkip_eq (hall i hi)
  refine ⟨_, precipMasterStation_daily api hapi zerodiv d0 hn v m master hm.filter ?_, ?_⟩
  · intro i hi; rw [hsum i hi]; simp
  · intro i hi x hx ht h hh
    have e : ∀ c, m i h = c → masterValue zerodiv (m i) (v i) h = c / .fin (masterTotal m i) * .fin x := by
      intro c hc
      unfold masterValue
      rw [hsum i hi, hx, hc, if_neg]
      rw [XF.feq_fin]; exact ht
    constructor
    · intro y hy
      rw [e _ hy, XF.fin_div_fin_of_ne _ ht, XF.fin_mul_fin]
    · intro hy
      rw [e _ hy]; rfl

/-- **C23 (daily totals).**  A day with number `x` and a complete, non-zero master day: the 24 hourly values add up to `x`.
A day with a zero master total: with `zerodiv='uniform'` all hours are `x/24` and add up to `x`, otherwise all hours are 0.
A missing daily value gives a missing day unless the master total is 0 and `zerodiv` is not `'uniform'`. -/
theorem C23_daily_totals (api : PandasApi) (hapi : api.seriesIteritems = true) (zerodiv : String)
    (d0 : Int) (n : Nat) (hn : 0 < n) (v : Nat → XF K) (m : Nat → Nat → K) (master : Series (XF K))
    (hm : MasterRows master d0 n (fun i h => .fin (m i h))) :
    ∃ s, precipMasterStation api (dailyS d0 n v) master zerodiv = .ok s ∧
      s.map Prod.fst = (hourlyS d0 n fun _ _ => ()).map Prod.fst ∧
      ∀ i < n,
        (∀ x : K, v i = .fin x →
          ((day24 (m i)).sum ≠ 0 → TotalIs (dayCells s (d0 + i)) x) ∧
          ((day24 (m i)).sum = 0 → zerodiv = "uniform" →
            TotalIs (dayCells s (d0 + i)) x ∧ ∀ c ∈ dayCells s (d0 + i), c = .fin (x / 24)) ∧
          ((day24 (m i)).sum = 0 → zerodiv ≠ "uniform" → ∀ c ∈ dayCells s (d0 + i), c = .fin 0)) ∧
        (v i = .nan → ((day24 (m i)).sum ≠ 0 ∨ zerodiv = "uniform") → AllNan (dayCells s (d0 + i))) := by
  have hsum : ∀ i, sumSkip (day24 fun h => XF.fin (m i h)) = .fin (day24 (m i)).sum := by
    intro i
    rw [sumSkip_eq (nanOrFin_day24 (m i)), numbers_day24]
  have h24 : (24 : K) ≠ 0 := by norm_num
  refine ⟨_, precipMasterStation_daily api hapi zerodiv d0 hn v _ master hm.filter ?_, ?_, ?_⟩
  · intro i hi; rw [hsum i]; simp
  · exact (hourlyS_index ..).trans (hourlyS_index ..).symm
  · intro i hi
    rw [dayCells_hourlyS d0 _ hi]
    constructor
    · intro x hx
      rw [hx]
      refine ⟨?_, ?_, ?_⟩
      · intro ht
        refine ⟨day24 fun h => m i h / (day24 (m i)).sum * x, ?_, ?_⟩
        · rw [day24_map]
          apply day24_congr
          intro h _
          unfold masterValue
          rw [hsum i, if_neg (by rw [XF.feq_fin]; exact ht), XF.fin_div_fin_of_ne _ ht, XF.fin_mul_fin]
        · have : (day24 fun h => m i h / (day24 (m i)).sum * x) = (day24 (m i)).map (fun y => y / (day24 (m i)).sum * x) := by
            rw [day24_map]
          rw [this]
          have hgen : ∀ (l : List K) (a : K), (l.map fun y => y / a * x).sum = l.sum / a * x := by
            intro l a
            induction l with
            | nil => simp
            | cons b l ih => simp only [List.map_cons, List.sum_cons, ih]; ring
          rw [hgen, div_self ht, one_mul]
      · intro ht hz
        have e : (day24 fun h => masterValue zerodiv (fun h => XF.fin (m i h)) (XF.fin x) h) =
            day24 fun _ => XF.fin (x / 24) := by
          apply day24_congr
          intro h _
          unfold masterValue
          rw [hsum i, if_pos (by rw [XF.feq_fin]; exact ht), if_pos hz, XF.fin_mul_fin]
          congr 1
          ring
        rw [e]
        refine ⟨⟨day24 fun _ => x / 24, by rw [day24_map], ?_⟩, ?_⟩
        · rw [sum_day24_const]
          field_simp
        · intro c hc
          obtain ⟨_, _, rfl⟩ := mem_day24.1 hc
          rfl
      · intro ht hz c hc
        obtain ⟨h, _, rfl⟩ := mem_day24.1 hc
        unfold masterValue
        rw [hsum i, if_pos (by rw [XF.feq_fin]; exact ht), if_neg hz]
    · intro hv hor c hc
      obtain ⟨h, _, rfl⟩ := mem_day24.1 hc
      unfold masterValue
      rw [hsum i, hv]
      by_cases ht : (day24 (m i)).sum = 0
      · rw [if_pos (by rw [XF.feq_fin]; exact ht), if_pos (by tauto)]
        rfl
      · rw [if_neg (by rw [XF.feq_fin]; exact ht), XF.fin_div_fin_of_ne _ ht]
        rfl

/-- **C23 (current pandas).**  On pandas without `Series.iteritems` the call never returns: AttributeError for every non-empty daily
series, whatever the master station. -/
theorem C23_modern_raises (api : PandasApi) (hapi : api.seriesIteritems = false) (daily master : Series (XF K))
    (zerodiv : String) (hne : daily ≠ []) :
    precipMasterStation api daily master zerodiv = .error .attributeError := by
  unfold precipMasterStation
  have hi : Series.index daily ≠ [] := by simpa [Series.index] using hne
  have : ∀ x : Py (List Time), (∃ l, x = .ok l) ∨ x = .error .attributeError →
      (do let index ← x
          let start : Series (XF K) := index.map fun t => (t, .nan)
          needs api.seriesIteritems
          daily.foldlM (init := start) fun acc r => do
            let m ← selectDate master (dayOf r.1)
            masterDay zerodiv (dayOf r.1) r.2 m acc) = (.error .attributeError : Py (Series (XF K))) := by
    rintro x (⟨l, rfl⟩ | rfl)
    · simp only [needs, hapi]; rfl
    · rfl
  apply this
  unfold hourlyIndex
  cases hmin : (Series.index daily).min? with
  | none => rw [List.min?_eq_none_iff] at hmin; exact absurd hmin hi
  | some lo =>
    cases hmax : (Series.index daily).max? with
    | none => rw [List.max?_eq_none_iff] at hmax; exact absurd hmax hi
    | some hi =>
      simp only []
      split
      · unfold needs
        cases api.indexToDatetime <;> cases api.pdDatetime <;> first | exact .inr rfl | exact .inl ⟨_, rfl⟩
      · exact .inl ⟨_, rfl⟩

/-- on each of the `n` days from `d0` on the master station has its 24 hourly rows (`m i = some f`: the value at hour `h` is `f h`, a number or
missing) or no row at all (`m i = none`); it also has an observation at another time than midnight -/
structure MasterDays (master : Series (XF K)) (d0 : Int) (n : Nat) (m : Nat → Option (Nat → XF K)) : Prop where
  full : ∀ i < n, ∀ f, m i = some f →
    master.filter (fun q => decide (q.1 / 86400000000 = d0 + (i : Int))) = (List.range 24).map fun h => (atHour (d0 + (i : Int)) h, f h)
  numbers : ∀ i < n, ∀ f, m i = some f → ∀ h < 24, (f h).NanOrFin
  gap : ∀ i < n, m i = none → ∀ q ∈ master, q.1 / 86400000000 ≠ d0 + (i : Int)
  hourly : ∃ q ∈ master, q.1 % 86400000000 ≠ 0

/-- the rows are in chronological order -/
def Chronological (master : Series (XF K)) : Prop := (master.map Prod.fst).Pairwise (· ≤ ·)

/-- day `d` is before the first or after the last day of the master station -/
def OutOfRange (master : Series (XF K)) (d : Int) : Prop :=
  (∀ q ∈ master, d < q.1 / 86400000000) ∨ (∀ q ∈ master, q.1 / 86400000000 < d)

theorem selectDate_out {master : Series (XF K)} (hh : ∃ q ∈ master, q.1 % 86400000000 ≠ 0) (hc : Chronological master) {d : Int}
    (ho : OutOfRange master d) : selectDate master d = .error .keyError := by
  unfold selectDate
  rw [if_neg, if_pos]
  · refine ⟨hc, ?_⟩
    rcases ho with ho | ho
    · left; exact List.all_eq_true.2 fun q hq => decide_eq_true (ho q hq)
    · right; exact List.all_eq_true.2 fun q hq => decide_eq_true (ho q hq)
  · intro h
    obtain ⟨q, hq, hne⟩ := hh
    exact hne (by simpa using List.all_eq_true.1 h q hq)

theorem MasterDays.select {master : Series (XF K)} {d0 : Int} {n : Nat} {m : Nat → Option (Nat → XF K)} (hm : MasterDays master d0 n m) {i : Nat}
    (hi : i < n) (ho : ¬ (Chronological master ∧ OutOfRange master (d0 + (i : Int)))) :
    selectDate master (d0 + (i : Int)) = .ok (dayRows (d0 + (i : Int)) (m i)) := by
  cases e : m i with
  | some f =>
    apply selectDate_full
    rw [← hm.full i hi f e]
    congr 1
  | none =>
    unfold selectDate
    rw [if_neg, if_neg]
    · show Except.ok _ = Except.ok []
      congr 1
      rw [List.filter_eq_nil_iff]
      intro q hq
      have := hm.gap i hi e q hq
      simpa [dayOf] using this
    · rintro ⟨hc, h⟩
      refine ho ⟨hc, ?_⟩
      rcases h with h | h
      · left; intro q hq; exact of_decide_eq_true (List.all_eq_true.1 h q hq)
      · right; intro q hq; exact of_decide_eq_true (List.all_eq_true.1 h q hq)
    · intro h
      obtain ⟨q, hq, hne⟩ := hm.hourly
      exact hne (by simpa using List.all_eq_true.1 h q hq)

theorem MasterDays.finite {master : Series (XF K)} {d0 : Int} {n : Nat} {m : Nat → Option (Nat → XF K)} (hm : MasterDays master d0 n m) :
    ∀ i < n, ∀ f, m i = some f → sumSkip (day24 f) ≠ .nan := by
  intro i hi f e
  rw [sumSkip_eq]
  · simp
  · intro c hc
    obtain ⟨h, hh, rfl⟩ := mem_day24.1 hc
    exact hm.numbers i hi f e h hh

/-- **C23 (day outside the master's range).**  If the master station's rows are chronological and some day of the daily series lies before its first or after its
last day, the call raises KeyError (on pandas with `iteritems`): there is no partial result. -/
theorem C23_outside_master (api : PandasApi) (hapi : api.seriesIteritems = true) (zerodiv : String)
    (d0 : Int) (n : Nat) (v : Nat → XF K) (m : Nat → Option (Nat → XF K)) (master : Series (XF K))
    (hm : MasterDays master d0 n m) (hc : Chronological master) (hout : ∃ j < n, OutOfRange master (d0 + (j : Int))) :
    precipMasterStation api (dailyS d0 n v) master zerodiv = .error .keyError := by
  classical
  obtain ⟨hj, ho⟩ := Nat.find_spec hout
  have hmin := fun i => Nat.find_min hout (m := i)
  generalize Nat.find hout = j at hj ho hmin
  unfold precipMasterStation
  rw [hourlyIndex_daily api d0 (show 0 < n by omega) v false (fun _ _ => (XF.nan : XF K))]
  simp only [needs, hapi, if_true]
  show (List.foldlM _ ((Series.index (hourlyS d0 n fun _ _ => (XF.nan : XF K))).map (fun t => (t, (XF.nan : XF K)))) _ : Py (Series (XF K))) = _
  have hs : (Series.index (hourlyS d0 n fun _ _ => (XF.nan : XF K))).map (fun t => (t, (XF.nan : XF K))) =
      hourlyS d0 n fun _ _ => XF.nan := by
    simp [Series.index, hourlyS, Function.comp_def]
  rw [hs]
  have hjl : j < (dailyS d0 n v).length := by simpa using hj
  have hsplit : dailyS d0 n v = (dailyS d0 n v).take j ++ (at00 (d0 + j), v j) :: (dailyS d0 n v).drop (j + 1) := by
    rw [← dailyS_getElem d0 n v j hjl, List.getElem_cons_drop, List.take_append_drop]
  rw [hsplit, List.foldlM_append]
  rw [masterLoop_prefix zerodiv d0 v m master j (by omega)
    (fun i hi => hm.select (by omega) fun h => hmin i hi ⟨by omega, h.2⟩) (fun i hi => hm.finite i (by omega))]
  rw [py_ok_bind]
  apply foldlM_error
  intro b
  simp only [dayOf_at00]
  rw [selectDate_out hm.hourly hc ho]
  rfl

/-- **C23 (no observations).**  A master series without rows raises KeyError. -/
theorem C23_empty_master (api : PandasApi) (hapi : api.seriesIteritems = true) (zerodiv : String) (d0 : Int) (n : Nat) (hn : 0 < n) (v : Nat → XF K) :
    precipMasterStation api (dailyS d0 n v) [] zerodiv = .error .keyError := by
  unfold precipMasterStation
  rw [hourlyIndex_daily api d0 hn v false (fun _ _ => (XF.nan : XF K))]
  simp only [needs, hapi, if_true]
  show (List.foldlM _ ((Series.index (hourlyS d0 n fun _ _ => (XF.nan : XF K))).map (fun t => (t, (XF.nan : XF K)))) _ : Py (Series (XF K))) = _
  obtain ⟨k, rfl⟩ : ∃ k, n = k + 1 := ⟨n - 1, by omega⟩
  rw [show dailyS d0 (k + 1) v = (dailyS d0 (k + 1) v).headD (0, .nan) :: (dailyS d0 (k + 1) v).tail by
    simp [dailyS, List.range_succ_eq_map]]
  apply foldlM_error
  intro b
  rfl

/-- **C23 (gap in the master's record).**  A day without rows that is not outside the range of the master station raises nothing: it is treated like a dry
master day, i.e. with `zerodiv='uniform'` the daily total is spread evenly, otherwise all hours are 0 and the day's precipitation is lost. -/
theorem C23_gap_day (api : PandasApi) (hapi : api.seriesIteritems = true) (zerodiv : String)
    (d0 : Int) (n : Nat) (hn : 0 < n) (v : Nat → XF K) (m : Nat → Option (Nat → XF K)) (master : Series (XF K))
    (hm : MasterDays master d0 n m) (hin : ∀ j < n, ¬ (Chronological master ∧ OutOfRange master (d0 + (j : Int)))) :
    ∃ s, precipMasterStation api (dailyS d0 n v) master zerodiv = .ok s ∧
      s.map Prod.fst = (hourlyS d0 n fun _ _ => ()).map Prod.fst ∧
      ∀ i < n, m i = none → ∀ x, v i = .fin x →
        (zerodiv = "uniform" → TotalIs (dayCells s (d0 + i)) x ∧ ∀ c ∈ dayCells s (d0 + i), c = .fin (x / 24)) ∧
        (zerodiv ≠ "uniform" → ∀ c ∈ dayCells s (d0 + i), c = .fin 0) := by
  have h24 : (24 : K) ≠ 0 := by norm_num
  refine ⟨_, precipMasterStation_days api hapi zerodiv d0 hn v m master (fun i hi => hm.select hi (hin i hi)) hm.finite, ?_, ?_⟩
  · exact (hourlyS_index ..).trans (hourlyS_index ..).symm
  · intro i hi e x hx
    rw [dayCells_hourlyS d0 _ hi, e, hx]
    have val : ∀ h, masterValue? zerodiv (none : Option (Nat → XF K)) (.fin x) h = if zerodiv = "uniform" then .fin (x / 24) else .fin 0 := by
      intro h
      unfold masterValue? masterValue
      rw [Option.getD_none, sum_dry, if_pos (by rw [XF.feq_fin]), XF.fin_mul_fin]
      rw [show 1 / 24 * x = x / 24 by ring]
    constructor
    · intro hz
      have ev : (day24 fun h => masterValue? zerodiv (none : Option (Nat → XF K)) (.fin x) h) = day24 fun _ => XF.fin (x / 24) := by
        apply day24_congr
        intro h _
        rw [val, if_pos hz]
      rw [ev]
      refine ⟨⟨day24 fun _ => x / 24, by rw [day24_map], ?_⟩, ?_⟩
      · rw [sum_day24_const]
        field_simp
      · intro c hc
        obtain ⟨_, _, rfl⟩ := mem_day24.1 hc
        rfl
    · intro hz c hc
      obtain ⟨h, _, rfl⟩ := mem_day24.1 hc
      rw [val, if_neg hz]

/-- two days of a master station: 1 mm in hour 3 and 2 mm in hour 7 of day 0, dry on day 1 -/
def exampleMaster : Series (XF ℚ) :=
  hourlyS 0 2 fun i h => if i = 0 then (if h = 3 then .fin 1 else if h = 7 then .fin 2 else .fin 0) else .fin 0

/-- C23 on this master station: 6 mm give 2 mm and 4 mm; the second day is spread uniformly. -/
example :
    okAnd (precipMasterStation .legacy (dailyS 0 2 fun i => .fin (if i = 0 then 6 else 12)) exampleMaster "uniform")
      (fun s => s.at? (atHour 0 3) == some (.fin 2) && s.at? (atHour 0 7) == some (.fin 4) &&
        s.at? (atHour 1 5) == some (.fin (1 / 2))) = true := by decide +kernel

/-- the hypotheses of C23 hold for it -/
example : MasterRows exampleMaster 0 2 (fun i h =>
    if i = 0 then (if h = 3 then .fin 1 else if h = 7 then .fin 2 else .fin 0) else .fin 0) := by
  intro i hi
  match i, hi with
  | 0, _ => decide +kernel
  | 1, _ => decide +kernel

/-- a master station with a gap: rows on days 0 and 2, none on day 1 -/
def gappyMaster : Series (XF ℚ) :=
  exampleMaster.filter (fun q => decide (q.1 / 86400000000 = 0)) ++ (List.range 24).map fun h => (atHour 2 h, .fin 1)

/-- C23 on this one: the gap day is spread evenly (or lost), and day 3 is outside the range -/
example :
    okAnd (precipMasterStation .legacy (dailyS 0 3 fun i => .fin (if i = 0 then 6 else 12)) gappyMaster "uniform")
      (fun s => s.at? (atHour 0 3) == some (.fin 2) && s.at? (atHour 1 7) == some (.fin (1 / 2)) && s.at? (atHour 2 7) == some (.fin (1 / 2))) = true ∧
    okAnd (precipMasterStation .legacy (dailyS 0 3 fun i => .fin (if i = 0 then 6 else 12)) gappyMaster "zero")
      (fun s => s.at? (atHour 1 7) == some (.fin 0)) = true ∧
    precipMasterStation .legacy (dailyS 0 4 fun _ => .fin 1) gappyMaster "uniform" = .error .keyError ∧
    precipMasterStation .legacy (dailyS (-1) 2 fun _ => .fin 1) gappyMaster "uniform" = .error .keyError := by decide +kernel

/-- the hypotheses of C23 (gap) and C23 (outside) hold for it -/
example : MasterDays gappyMaster 0 4 (fun i => if i = 0 then some (fun h => if h = 3 then .fin 1 else if h = 7 then .fin 2 else .fin 0)
      else if i = 2 then some (fun _ => .fin 1) else none) ∧
    Chronological gappyMaster ∧ OutOfRange gappyMaster (0 + (3 : Nat)) ∧ ∀ j : Nat, j < 3 → ¬ OutOfRange gappyMaster (0 + (j : Int)) := by
  refine ⟨⟨?_, ?_, ?_, ⟨(atHour 2 1, .fin 1), by decide +kernel, by decide +kernel⟩⟩, by unfold Chronological; decide +kernel, .inr (by decide +kernel), ?_⟩
  · intro i hi f e
    match i, hi with
    | 0, _ => cases e; decide +kernel
    | 1, _ => cases e
    | 2, _ => cases e; decide +kernel
    | 3, _ => cases e
  · intro i hi f e h hh
    match i, hi with
    | 0, _ => cases e; dsimp only; split <;> [skip; split] <;> simp [XF.NanOrFin]
    | 1, _ => cases e
    | 2, _ => cases e; simp [XF.NanOrFin]
    | 3, _ => cases e
  · intro i hi e
    match i, hi with
    | 0, _ => cases e
    | 1, _ => decide +kernel
    | 2, _ => cases e
    | 3, _ => decide +kernel
  · rintro j hj (h | h)
    · have := h (atHour 0 0, .fin 0) (by decide +kernel)
      simp only [atHour] at this
      omega
    · have := h (atHour 2 0, .fin 1) (by decide +kernel)
      simp only [atHour] at this
      omega

end Melodist
