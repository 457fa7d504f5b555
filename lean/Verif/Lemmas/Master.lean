import Verif.Model.Precip
import Verif.Lemmas.Stats

/-! Lemmas about `precip_master_station`. -/

set_option linter.unusedSectionVars false

namespace Melodist
open Spec

variable {K : Type} [Field K] [LinearOrder K] [IsStrictOrderedRing K]

theorem py_ok_bind {α β : Type} (x : α) (f : α → Py β) : ((Except.ok x : Py α) >>= f) = f x := rfl

/-- writing to the rows of one day of a complete hourly series -/
theorem hourlyS_setDay {V : Type} (d0 : Int) (n : Nat) (f : Nat → Nat → V) (j : Nat) (g : Time → V) :
    (hourlyS d0 n f).map (fun r => if dayOf r.1 = d0 + (j : Int) then (r.1, g r.1) else r) =
      hourlyS d0 n (fun i h => if i = j then g (atHour (d0 + (i : Int)) h) else f i h) := by
  unfold hourlyS
  rw [List.map_map]
  apply List.map_congr_left
  intro k _
  simp only [Function.comp_def]
  rw [dayOf_atHour _ (Nat.mod_lt _ (by omega))]
  by_cases h : k / 24 = j
  · rw [if_pos (by omega), if_pos h]
  · rw [if_neg (by omega), if_neg h]

/-- the timestamps of one day of a complete hourly series -/
theorem hourlyS_dayStamps {V : Type} (d0 : Int) {n : Nat} (f : Nat → Nat → V) {i : Nat} (hi : i < n) :
    ((hourlyS d0 n f).filter fun r => dayOf r.1 == d0 + (i : Int)).map Prod.fst =
      (List.range 24).map fun k : Nat => atHour (d0 + (i : Int)) k := by
  have := filter_range_block n i hi
  unfold hourlyS
  rw [List.filter_map, List.map_map]
  have hc : ((fun r : Time × V => dayOf r.1 == d0 + (i : Int)) ∘
      fun k : Nat => (atHour (d0 + (k / 24 : Nat)) (k % 24), f (k / 24) (k % 24))) =
      fun k => decide (k / 24 = i) := by
    funext k
    simp only [Function.comp_def]
    rw [dayOf_atHour _ (Nat.mod_lt _ (by omega))]
    by_cases h : k / 24 = i
    · simp [h]
    · simp only [h, decide_false, beq_eq_false_iff_ne]; omega
  rw [hc, this, List.map_map]
  apply List.map_congr_left
  intro k hk
  have := List.mem_range.1 hk
  simp only [Function.comp_def]
  rw [show (24 * i + k) / 24 = i by omega, show (24 * i + k) % 24 = k by omega]

/-- the value of one hour according to the master station -/
def masterValue (zerodiv : String) (m : Nat → XF K) (v : XF K) (h : Nat) : XF K :=
  if XF.feq (sumSkip (day24 m)) (.fin 0) then (if zerodiv = "uniform" then .fin (1 / 24) * v else .fin 0)
  else m h / sumSkip (day24 m) * v

theorem index_map_snd {V W : Type} (s : Series V) (g : Time × V → W) :
    Series.index (s.map fun r => (r.1, g r)) = Series.index s := by
  simp [Series.index, Function.comp_def]

theorem masterDay_daily (zerodiv : String) (d0 : Int) (n : Nat) (f : Nat → Nat → XF K) (j : Nat) (hj : j < n) (v : XF K)
    (m : Nat → XF K) (master : Series (XF K))
    (hm : master = (List.range 24).map fun h => (atHour (d0 + (j : Int)) h, m h))
    (hfin : sumSkip (day24 m) ≠ .nan) :
    masterDay zerodiv (d0 + (j : Int)) v master (hourlyS d0 n f) =
      .ok (hourlyS d0 n (fun i h => if i = j then masterValue zerodiv m v h else f i h)) := by
  have hv : Series.values master = day24 m := by
    rw [hm]; simp [Series.values, day24, Function.comp_def]
  have hnd : (Series.index master).Nodup := by
    rw [hm]
    simp only [Series.index, List.map_map, Function.comp_def]
    apply nodup_of_sorted
    rw [List.pairwise_map]
    exact (List.pairwise_lt_range (n := 24)).imp (by intro a b h; unfold atHour; omega)
  unfold masterDay
  simp only [hv]
  have hnan : (sumSkip (day24 m)).isNan = false := by
    cases h : sumSkip (day24 m) <;> simp_all
  rw [hnan]
  simp only [Bool.false_eq_true, if_false, and_self]
  by_cases h0 : XF.feq (sumSkip (day24 m)) (.fin 0)
  · rw [if_neg (by simp [h0])]
    have e : ∀ h, masterValue zerodiv m v h = if zerodiv = "uniform" then .fin (1 / 24) * v else .fin 0 := by
      intro h; unfold masterValue; rw [if_pos h0]
    by_cases hz : zerodiv = "uniform"
    · rw [if_pos hz, hourlyS_setDay d0 n f j (fun _ => .fin (1 / 24) * v)]
      simp only [e, if_pos hz]
    · rw [if_neg hz, hourlyS_setDay d0 n f j (fun _ => .fin 0)]
      simp only [e, if_neg hz]
  · rw [if_pos h0]
    have e : ∀ h, masterValue zerodiv m v h = m h / sumSkip (day24 m) * v := by
      intro h; unfold masterValue; rw [if_neg h0]
    have hir : Series.index (master.map fun r => (r.1, r.2 / sumSkip (day24 m) * v)) =
        ((hourlyS d0 n f).filter fun r => dayOf r.1 == d0 + (j : Int)).map Prod.fst := by
      rw [index_map_snd master (fun r => r.2 / sumSkip (day24 m) * v), hourlyS_dayStamps d0 f hj, hm]
      simp [Series.index, Function.comp_def]
    rw [if_pos hir]
    congr 1
    rw [hourlyS_setDay d0 n f j fun t => (Series.at? _ t).getD .nan]
    apply hourlyS_congr
    intro i hi h hh
    by_cases hij : i = j
    · subst hij
      simp only [if_true]
      rw [e]
      unfold Series.at?
      rw [hm, List.map_map, Function.comp_def]
      rw [find?_map_range 24 (fun k : Nat => atHour (d0 + (i : Int)) k) _ _ h hh rfl
        (by intro k _ e; unfold atHour at e; omega)]
      rfl
    · rw [if_neg hij, if_neg hij]

/-- the rows of a day: 24 hours, or none at all -/
def dayRows (d : Int) : Option (Nat → XF K) → Series (XF K)
  | some m => (List.range 24).map fun h => (atHour d h, m h)
  | none => []

/-- the value of one hour; a day without rows counts as a dry one -/
def masterValue? (zerodiv : String) (m : Option (Nat → XF K)) (v : XF K) (h : Nat) : XF K :=
  masterValue zerodiv (m.getD fun _ => .fin 0) v h

theorem sum_dry : sumSkip (day24 fun _ => (.fin 0 : XF K)) = .fin 0 := by
  rw [sumSkip_eq (nanOrFin_day24 fun _ => (0 : K)), numbers_day24, sum_day24_const]
  simp

theorem masterDay_none (zerodiv : String) (d0 : Int) (n : Nat) (f : Nat → Nat → XF K) (j : Nat) (v : XF K) :
    masterDay zerodiv (d0 + (j : Int)) v [] (hourlyS d0 n f) =
      .ok (hourlyS d0 n (fun i h => if i = j then masterValue? zerodiv none v h else f i h)) := by
  have e : ∀ h, masterValue? zerodiv (none : Option (Nat → XF K)) v h = if zerodiv = "uniform" then .fin (1 / 24) * v else .fin 0 := by
    intro h; unfold masterValue? masterValue; rw [Option.getD_none, sum_dry, if_pos (by rw [XF.feq_fin])]
  have h0 : sumSkip (Series.values ([] : Series (XF K))) = .fin 0 := by simp [Series.values, sumSkip, sumCells]
  unfold masterDay
  simp only [h0]
  rw [if_neg (by rw [XF.feq_fin]; simp)]
  by_cases hz : zerodiv = "uniform"
  · rw [if_pos hz, hourlyS_setDay d0 n f j (fun _ => .fin (1 / 24) * v)]
    simp only [e, if_pos hz]
  · rw [if_neg hz, hourlyS_setDay d0 n f j (fun _ => .fin 0)]
    simp only [e, if_neg hz]

/-- the loop over the first `j` days -/
theorem masterLoop_prefix (zerodiv : String) (d0 : Int) {n : Nat} (v : Nat → XF K) (m : Nat → Option (Nat → XF K))
    (master : Series (XF K)) (j : Nat) (hj : j ≤ n)
    (hm : ∀ i < j, selectDate master (d0 + (i : Int)) = .ok (dayRows (d0 + (i : Int)) (m i)))
    (hfin : ∀ i < j, ∀ f, m i = some f → sumSkip (day24 f) ≠ .nan) :
    ((dailyS d0 n v).take j).foldlM (init := hourlyS d0 n fun _ _ => (XF.nan : XF K)) (fun acc r => (do
        let q ← selectDate master (dayOf r.1)
        masterDay zerodiv (dayOf r.1) r.2 q acc)) =
      (.ok (hourlyS d0 n fun i h => if i < j then masterValue? zerodiv (m i) (v i) h else .nan) : Py (Series (XF K))) := by
  induction j with
  | zero => simp; rfl
  | succ j ih =>
    have hjl : j < (dailyS d0 n v).length := by simp; omega
    rw [List.take_succ_eq_append_getElem hjl, List.foldlM_append,
      ih (by omega) (fun i hi => hm i (by omega)) (fun i hi => hfin i (by omega))]
    rw [py_ok_bind, dailyS_getElem, List.foldlM_cons]
    simp only [List.foldlM_nil, bind_pure]
    simp only [dayOf_at00]
    rw [hm j (by omega), py_ok_bind]
    have key : ∀ g : Nat → Nat → XF K, masterDay zerodiv (d0 + (j : Int)) (v j) (dayRows (d0 + (j : Int)) (m j)) (hourlyS d0 n g) =
        .ok (hourlyS d0 n (fun i h => if i = j then masterValue? zerodiv (m j) (v j) h else g i h)) := by
      intro g
      cases e : m j with
      | none => exact masterDay_none zerodiv d0 n g j (v j)
      | some f => exact masterDay_daily zerodiv d0 n g j (by omega) (v j) f _ rfl (hfin j (by omega) f e)
    rw [key]
    congr 1
    apply hourlyS_congr
    intro i _ h _
    by_cases e : i = j
    · subst e; simp
    · rw [if_neg e]
      by_cases l : i < j
      · rw [if_pos l, if_pos (by omega)]
      · rw [if_neg l, if_neg (by omega)]

theorem precipMasterStation_days (api : PandasApi) (hapi : api.seriesIteritems = true) (zerodiv : String)
    (d0 : Int) {n : Nat} (hn : 0 < n) (v : Nat → XF K) (m : Nat → Option (Nat → XF K)) (master : Series (XF K))
    (hm : ∀ i < n, selectDate master (d0 + (i : Int)) = .ok (dayRows (d0 + (i : Int)) (m i)))
    (hfin : ∀ i < n, ∀ f, m i = some f → sumSkip (day24 f) ≠ .nan) :
    precipMasterStation api (dailyS d0 n v) master zerodiv =
      .ok (hourlyS d0 n fun i h => masterValue? zerodiv (m i) (v i) h) := by
  unfold precipMasterStation
  rw [hourlyIndex_daily api d0 hn v false (fun _ _ => (XF.nan : XF K))]
  have hs : (Series.index (hourlyS d0 n fun _ _ => (XF.nan : XF K))).map (fun t => (t, (XF.nan : XF K))) =
      hourlyS d0 n fun _ _ => XF.nan := by
    simp [Series.index, hourlyS, Function.comp_def]
  have k := masterLoop_prefix zerodiv d0 v m master n (le_refl n) hm hfin
  rw [List.take_of_length_le (by simp)] at k
  simp only [needs, hapi, if_true]
  show (List.foldlM _ ((Series.index (hourlyS d0 n fun _ _ => (XF.nan : XF K))).map (fun t => (t, (XF.nan : XF K)))) _ : Py (Series (XF K))) = _
  rw [hs, k]
  congr 1
  apply hourlyS_congr
  intro i hi h _
  rw [if_pos hi]

/-- a day with 24 rows is found -/
theorem selectDate_full (master : Series (XF K)) (d : Int) (m : Nat → XF K)
    (hm : master.filter (fun q => dayOf q.1 == d) = (List.range 24).map fun h => (atHour d h, m h)) :
    selectDate master d = .ok (dayRows d (some m)) := by
  have hmem : ∀ h < 24, (atHour d h, m h) ∈ master := by
    intro h hh
    have : (atHour d h, m h) ∈ master.filter (fun q => dayOf q.1 == d) := by
      rw [hm]; exact List.mem_map.2 ⟨h, List.mem_range.2 hh, rfl⟩
    exact (List.mem_filter.1 this).1
  unfold selectDate
  rw [if_neg, if_neg, hm]
  · rfl
  · rintro ⟨-, h | h⟩
    · have := (List.all_eq_true.1 h) _ (hmem 0 (by omega))
      rw [decide_eq_true_iff, dayOf_atHour _ (by omega)] at this
      exact lt_irrefl _ this
    · have := (List.all_eq_true.1 h) _ (hmem 0 (by omega))
      rw [decide_eq_true_iff, dayOf_atHour _ (by omega)] at this
      exact lt_irrefl _ this
  · intro h
    have := (List.all_eq_true.1 h) _ (hmem 1 (by omega))
    rw [beq_iff_eq] at this
    simp only [atHour, Nat.cast_one] at this
    omega

theorem precipMasterStation_daily (api : PandasApi) (hapi : api.seriesIteritems = true) (zerodiv : String)
    (d0 : Int) {n : Nat} (hn : 0 < n) (v : Nat → XF K) (m : Nat → Nat → XF K) (master : Series (XF K))
    (hm : ∀ i < n, master.filter (fun q => dayOf q.1 == d0 + (i : Int)) =
      (List.range 24).map fun h => (atHour (d0 + (i : Int)) h, m i h))
    (hfin : ∀ i < n, sumSkip (day24 (m i)) ≠ .nan) :
    precipMasterStation api (dailyS d0 n v) master zerodiv =
      .ok (hourlyS d0 n fun i h => masterValue zerodiv (m i) (v i) h) :=
  precipMasterStation_days api hapi zerodiv d0 hn v (fun i => some (m i)) master
    (fun i hi => selectDate_full master _ _ (hm i hi)) (fun i hi f e => by cases e; exact hfin i hi)

theorem foldlM_error {α β : Type} (l : List α) (step : β → α → Py β) (a : α) (e : PyErr) (b : β)
    (h : ∀ b, step b a = .error e) : (a :: l).foldlM step b = .error e := by
  rw [List.foldlM_cons, h]; rfl

end Melodist
