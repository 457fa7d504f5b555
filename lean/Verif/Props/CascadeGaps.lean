import Verif.Lemmas.CascadeGaps

/-!
# C141  Cascade: records with missing dates or with rows out of order
-/
set_option linter.unusedSectionVars false

namespace Melodist
open Spec
variable {K : Type} [Field K] [LinearOrder K] [IsStrictOrderedRing K]

/-- the amount of rain that a cell of the daily record stands for in the cascade: its value, or 0 if it is missing or negative -/
def Spec.rainOf : XF K → K
  | .fin x => max x 0
  | _ => 0

/-- the cells of one day: non-negative numbers with the sum `x` -/
def Spec.DayOfRain (cells : List (XF K)) (x : K) : Prop := ∃ w : List K, cells = w.map .fin ∧ (∀ y ∈ w, 0 ≤ y) ∧ w.sum = x

theorem zeroMissing_rain {l : List (XF K)} {w : List K} (h : zeroMissing l = .ok w) {k : Nat} {c : XF K} (hk : l[k]? = some c) :
    ∃ x, w[k]? = some x ∧ max x 0 = rainOf c := by
  obtain ⟨h1, h2, h3⟩ := (zeroMissing_ok h).2 k c hk
  cases c with
  | nan => exact ⟨0, h3 rfl, by simp [rainOf]⟩
  | fin x => exact ⟨x, h2 x rfl, rfl⟩
  | ninf => exact absurd h1 (by simp [XF.NanOrFin])
  | pinf => exact absurd h1 (by simp [XF.NanOrFin])

theorem restore_cells (ds : List Int) (v : Int → XF K) (s : Series K) {e : Int} (he : e ∈ ds) :
    dayCells (restoreMissing (((labelled 0 ds v).filter fun r => r.2.isNan).map Prod.fst) s) e =
      (dayCells s e).map fun x => if (v e).isNan then XF.nan else .fin x := by
  rw [dayCells_restoreMissing, labelled_missing]
  simp [he]

theorem restore_index (missing : List Time) (s : Series K) : (restoreMissing missing s).index = s.index := by
  simp [restoreMissing, Series.index, Function.comp_def]

/-- the dates in chronological order -/
theorem sorted_copy {ds : List Int} (hnd : ds.Nodup) : ∃ es : List Int, es.Pairwise (· < ·) ∧ es.Perm ds := by
  have h1 : (ds.mergeSort (· ≤ ·)).Pairwise (· ≤ ·) := by
    have := List.pairwise_mergeSort (le := fun a b : Int => decide (a ≤ b)) (by intro a b c; simp; omega) (by intro a b; simp; omega) ds
    simpa using this
  have h2 : (ds.mergeSort (· ≤ ·)).Nodup := (List.mergeSort_perm ds _).nodup_iff.2 hnd
  exact ⟨_, h1.imp₂ (fun a b h h' => lt_of_le_of_ne h h') h2, List.mergeSort_perm ds _⟩

/-- **C141 (hourly, any record).** A record of daily precipitation of distinct dates `ds`, in whatever order, gaps allowed.  Whenever the hourly cascade
returns, the rows are the 24 hours of the listed dates in chronological order.  The rain is handed out by position: the `k`-th date in chronological order gets
the rain of the `k`-th row of the record.  A date whose own value is missing is missing throughout. -/
theorem C141_hours {api : PandasApi} {rnd : Nat → K} {opts : CascOptions K} {level : Nat} {test : Bool} {r : CascadeOut K}
    {ds : List Int} (hnd : ds.Nodup) {v : Int → XF K} (h : disaggPrecCascade api rnd (labelled 0 ds v) opts true level 0 test = .ok r) :
    r.series.index.Pairwise (· < ·) ∧ (∀ t, t ∈ r.series.index ↔ ∃ d ∈ ds, ∃ j < 24, t = atHour d j) ∧
    ∀ es : List Int, es.Pairwise (· < ·) → es.Perm ds → ∀ (k : Nat) (e d : Int), es[k]? = some e → ds[k]? = some d →
      (v e = .nan → dayCells r.series e = List.replicate 24 .nan) ∧
      (v e ≠ .nan → (dayCells r.series e).length = 24 ∧ DayOfRain (dayCells r.series e) (rainOf (v d))) := by
  have key : ∀ es : List Int, es.Pairwise (· < ·) → es.Perm ds → r.series.index = blockIndex 24 atHour es ∧
      ∀ (k : Nat) (e d : Int), es[k]? = some e → ds[k]? = some d →
      (v e = .nan → dayCells r.series e = List.replicate 24 .nan) ∧
      (v e ≠ .nan → (dayCells r.series e).length = 24 ∧ DayOfRain (dayCells r.series e) (rainOf (v d))) := by
    intro es hs hp
    obtain ⟨hl, w, q, hz, _, _, hb, hr⟩ := cascade_hourly_gap hnd hs hp h
    have hw : w.length = ds.length := by simpa using (zeroMissing_ok hz).1
    have hq : q.length = 24 * es.length := by rw [hb.length, hw, hp.length_eq]
    refine ⟨by rw [hr, restore_index, zipped_index (by rw [blockIndex_length, hq])], ?_⟩
    intro k e d he hd
    have hmem : e ∈ ds := hp.mem_iff.1 (List.mem_of_getElem? he)
    obtain ⟨x, hx, hmax⟩ := zeroMissing_rain hz (k := k) (c := v d) (by simp [hd])
    obtain ⟨b1, b2⟩ := hb.block hx
    have hc : dayCells r.series e = ((q.drop (24 * k)).take 24).map fun x => if (v e).isNan then XF.nan else .fin x := by
      rw [hr, restore_cells ds v _ hmem, block_cells (fun e j hj => dayOf_atHour e hj) (hs.imp fun h => ne_of_lt h) hq he]
    constructor
    · intro hn
      rw [hc, hn]
      simp only [XF.isNan, if_true]
      rw [List.map_const', b1]
    · intro hn
      have hn' : (v e).isNan = false := by cases hv : v e <;> simp_all [XF.isNan]
      rw [hc, hn']
      refine ⟨by simpa using b1, _, rfl, ?_, b2.trans hmax⟩
      intro y hy
      exact hb.nonneg y (List.mem_of_mem_drop (List.mem_of_mem_take hy))
  obtain ⟨fs, hs, hp⟩ := sorted_copy hnd
  refine ⟨?_, ?_, fun es hs hp => (key es hs hp).2⟩
  · rw [(key fs hs hp).1]
    exact blockIndex_sorted hs (fun e j hj => dayOf_atHour e hj) atHour_mono
  · intro t
    rw [(key fs hs hp).1, mem_blockIndex]
    constructor
    · rintro ⟨e, he, h⟩; exact ⟨e, hp.mem_iff.1 he, h⟩
    · rintro ⟨e, he, h⟩; exact ⟨e, hp.mem_iff.2 he, h⟩

/-- **C141 (hourly, dates in order).** When the dates are increasing, with or without gaps, every date keeps its own total. -/
theorem C141_hours_in_order {api : PandasApi} {rnd : Nat → K} {opts : CascOptions K} {level : Nat} {test : Bool} {r : CascadeOut K}
    {ds : List Int} (hs : ds.Pairwise (· < ·)) {v : Int → XF K} (h : disaggPrecCascade api rnd (labelled 0 ds v) opts true level 0 test = .ok r)
    (e : Int) (he : e ∈ ds) :
    (v e = .nan → dayCells r.series e = List.replicate 24 .nan) ∧
    (v e ≠ .nan → (dayCells r.series e).length = 24 ∧ DayOfRain (dayCells r.series e) (rainOf (v e))) := by
  obtain ⟨k, hk, rfl⟩ := List.getElem_of_mem he
  exact (C141_hours (hs.imp fun h => ne_of_lt h) h).2.2 ds hs (List.Perm.refl _) k _ _ (List.getElem?_eq_getElem hk) (List.getElem?_eq_getElem hk)

/-- **C141 (the dates do not matter).** Two records in chronological order with the same values row by row, on whatever dates, give the same hours row by row:
the two days on both sides of a gap are neighbours for the cascade. -/
theorem C141_neighbours {api : PandasApi} {rnd : Nat → K} {opts : CascOptions K} {level level' : Nat} {test test' : Bool} {r r' : CascadeOut K}
    {ds ds' : List Int} (hs : ds.Pairwise (· < ·)) (hs' : ds'.Pairwise (· < ·)) {v v' : Int → XF K} (hv : ds.map v = ds'.map v')
    (h : disaggPrecCascade api rnd (labelled 0 ds v) opts true level 0 test = .ok r)
    (h' : disaggPrecCascade api rnd (labelled 0 ds' v') opts true level' 0 test' = .ok r') :
    r.levels = r'.levels ∧ ∀ (k : Nat) (e e' : Int), ds[k]? = some e → ds'[k]? = some e' → dayCells r.series e = dayCells r'.series e' := by
  have hnd : ds.Nodup := hs.imp fun h => ne_of_lt h
  have hnd' : ds'.Nodup := hs'.imp fun h => ne_of_lt h
  obtain ⟨_, w, q, hz, hlev, hqq, hb, hr⟩ := cascade_hourly_gap hnd hs (List.Perm.refl _) h
  obtain ⟨_, w', q', hz', hlev', hqq', hb', hr'⟩ := cascade_hourly_gap hnd' hs' (List.Perm.refl _) h'
  rw [← hv, hz] at hz'
  injection hz' with hz'
  subst hz'
  rw [hlev] at hlev'
  injection hlev' with hlev'
  rw [← hlev', ← hqq] at hqq'
  subst hqq'
  refine ⟨hlev', ?_⟩
  intro k e e' he he'
  have hw : w.length = ds.length := by simpa using (zeroMissing_ok hz).1
  have hlen : ds.length = ds'.length := by simpa using congrArg List.length hv
  have hve : v e = v' e' := by
    have := congrArg (fun l => l[k]?) hv
    simpa [he, he'] using this
  rw [hr, hr', restore_cells ds v _ (List.mem_of_getElem? he), restore_cells ds' v' _ (List.mem_of_getElem? he'),
    block_cells (fun e j hj => dayOf_atHour e hj) hnd (by rw [hb.length, hw]) he,
    block_cells (fun e j hj => dayOf_atHour e hj) hnd' (by rw [hb.length, hw, hlen]) he', hve]

/-! ### does it return? -/

theorem levels_ok_list {rnd : Nat → K} (hr : ∀ j, rnd j ≤ 1) {si : Nat} {opts : CascOptions K} (ho : UsableOptions si opts)
    {l : List (XF K)} (hn : 2 ≤ l.length) (hv : ∀ c ∈ l, c = .nan ∨ ∃ x, 0 ≤ x ∧ c = .fin x) :
    ∃ w, zeroMissing l = .ok w ∧ w.length = l.length ∧ ∃ ls, levelLoop rnd opts si w {} = .ok ls := by
  have e : l = (List.range l.length).map fun i => l.getD i .nan := by
    apply List.ext_getElem
    · simp
    · intro i h1 h2
      simp [List.getD_eq_getElem?_getD, h1]
  have := cascade_levels_ok hr ho l.length hn (fun i => l.getD i .nan) (by
    intro i hi
    have := hv l[i] (List.getElem_mem hi)
    simpa [List.getD_eq_getElem?_getD, hi] using this)
  rwa [← e] at this

/-- the call up to the index of the output -/
theorem cascade_hourly_red {api : PandasApi} {rnd : Nat → K} (hr : ∀ j, rnd j ≤ 1) {opts : CascOptions K} (ho : UsableOptions 5 opts)
    {ds : List Int} (hn : 2 ≤ ds.length) {v : Int → XF K} (hv : ∀ d ∈ ds, v d = .nan ∨ ∃ x, 0 ≤ x ∧ v d = .fin x) (level : Nat) (test : Bool) :
    ∃ q : List K, q.length = 24 * ds.length ∧
      (∀ e, hourlyIndex api (ds.map at00) = .error e → disaggPrecCascade api rnd (labelled 0 ds v) opts true level 0 test = .error e) ∧
      ∀ idx, hourlyIndex api (ds.map at00) = .ok idx → idx.length = 24 * ds.length →
        ∃ r, disaggPrecCascade api rnd (labelled 0 ds v) opts true level 0 test = .ok r := by
  obtain ⟨w, hw, hlen, ls, hls⟩ := levels_ok_list hr ho (l := ds.map v) (by simpa using hn) (by
    intro c hc
    obtain ⟨d, hd, rfl⟩ := List.mem_map.1 hc
    exact hv d hd)
  have hb := levelLoop_last hls
  have hq := hb.trans (quarterHours_split _ hb.nonneg)
  have hl : (hourlyFromQuarter (quarterHours (ls.getLastD []))).length = 24 * ds.length := by
    rw [hourlyFromQuarter_eq, (BlockSplit.agg (m := 24) hq).length, hlen, List.length_map]
  refine ⟨_, hl, ?_, ?_⟩
  · intro e he
    unfold disaggPrecCascade
    rw [if_neg (by rw [labelled_length]; omega), labelled_values, hw]
    simp only [if_true, bind, Except.bind]
    rw [if_neg (by omega), ho.levelStats.1, hls]
    simp only [assembleSeries, if_true, bind, Except.bind]
    rw [labelled_at00, he]
  · intro idx hi hil
    unfold disaggPrecCascade
    rw [if_neg (by rw [labelled_length]; omega), labelled_values, hw]
    simp only [if_true, bind, Except.bind]
    rw [if_neg (by omega), ho.levelStats.1, hls]
    simp only [assembleSeries, if_true, bind, Except.bind]
    rw [labelled_at00, hi]
    simp only [Series.make]
    rw [if_pos (by rw [hil, hl])]
    simp

/-- **C141 (hourly, does it return?).** Usable statistics, values missing or non-negative.  With a gap in the record: AttributeError on current pandas (no
`Index.to_datetime`).  With both attributes of old pandas, or without a gap (in whatever order), it returns. -/
theorem C141_hours_returns {api : PandasApi} {rnd : Nat → K} (hr : ∀ j, rnd j ≤ 1) {opts : CascOptions K} (ho : UsableOptions 5 opts)
    {ds : List Int} (hnd : ds.Nodup) (hn : 2 ≤ ds.length) {v : Int → XF K} (hv : ∀ d ∈ ds, v d = .nan ∨ ∃ x, 0 ≤ x ∧ v d = .fin x) (level : Nat) (test : Bool) :
    (api.indexToDatetime = false → ∀ a ∈ ds, ∀ b ∈ ds, ∀ g, a < g → g < b → g ∉ ds →
      disaggPrecCascade api rnd (labelled 0 ds v) opts true level 0 test = .error .attributeError) ∧
    ((api.indexToDatetime = true ∧ api.pdDatetime = true) ∨ (∀ a ∈ ds, ∀ b ∈ ds, ∀ g, a < g → g < b → g ∈ ds) →
      ∃ r, disaggPrecCascade api rnd (labelled 0 ds v) opts true level 0 test = .ok r) := by
  obtain ⟨q, _, h1, h2⟩ := cascade_hourly_red (api := api) hr ho hn hv level test
  have hne : ds ≠ [] := by rintro rfl; simp at hn
  refine ⟨fun hapi a ha b hb g hg1 hg2 hg => h1 _ (C02_hourly_index_gaps_raises api hapi ds hnd a b g ha hb ⟨hg1, hg2, hg⟩), ?_⟩
  intro hc
  have hi : ∃ idx, hourlyIndex api (ds.map at00) = .ok idx := by
    obtain ⟨a, b, ha, hb, hin, hmin, hmax⟩ := min_max_at00 ds hne
    have hab := (hin b hb).1
    obtain ⟨hl, _, _⟩ := span_hours a b hab
    unfold hourlyIndex
    rw [hmin, hmax]
    simp only [Bool.not_false, Bool.true_and, List.length_map, hl, decide_eq_true_eq]
    rcases hc with ⟨c1, c2⟩ | hc
    · split
      · exact ⟨_, by simp only [needs, c1, c2, if_true, bind, Except.bind]; rfl⟩
      · exact ⟨_, rfl⟩
    · rw [if_neg]
      · exact ⟨_, rfl⟩
      · have := (days_cover ds hnd a b hab hin).2 (by
          intro d h1 h2
          rcases h1.lt_or_eq with h1 | rfl
          · rcases h2.lt_or_eq with h2 | rfl
            · exact hc a ha b hb d h1 h2
            · exact hb
          · exact ha)
        omega
  obtain ⟨idx, hi⟩ := hi
  refine h2 idx hi ?_
  obtain ⟨es, hs, hp⟩ := sorted_copy hnd
  rw [hourlyIndex_blocks hne hnd hs hp hi, blockIndex_length, hp.length_eq]

/-! ### 5-minute output -/

/-- a 5-minute series over a whole day has 288 cells on that day -/
theorem five_day_length {s : Series K} {a b : Time} (ha : s.index.min? = some a) (hb : s.index.max? = some b) {g : Int} (h1 : a ≤ at00 g) (h2 : at00 (g + 1) ≤ b) :
    (dayCells (resample5min s) g).length = 288 := by
  unfold at00 at h1 h2
  have hM : MINUTE = 60000000 := rfl
  have hD : DAY = 86400000000 := rfl
  have e : (dayCells (resample5min s) g).length = ((resample5min s).index.filter fun t => decide (t / 86400000000 = g)).length := by
    unfold dayCells Series.index
    rw [List.filter_map, List.length_map, List.length_map]
    rfl
  rw [e, resample5min_index ha hb, List.filter_map, List.length_map]
  set q0 := a / (5 * MINUTE) with hq0
  set M := (b / (5 * MINUTE) - q0 + 1).toNat with hMM
  have : (List.range M).filter ((fun t => decide (t / 86400000000 = g)) ∘ fun k : Nat => (q0 + (k : Int)) * (5 * MINUTE)) =
      (List.range 288).map (· + (288 * g - q0).toNat) := by
    have hs1 : ((List.range M).filter ((fun t => decide (t / 86400000000 = g)) ∘ fun k : Nat => (q0 + (k : Int)) * (5 * MINUTE))).Pairwise (· < ·) :=
      (List.pairwise_lt_range (n := M)).filter _
    have hs2 : ((List.range 288).map (· + (288 * g - q0).toNat)).Pairwise (· < ·) := by
      rw [List.pairwise_map]; exact List.pairwise_lt_range.imp (by intro x y h; omega)
    refine List.Perm.eq_of_pairwise (fun a b _ _ h1 h2 => absurd h2 (by have h1 : a < b := h1; show ¬ b < a; omega)) hs1 hs2 ?_
    refine (List.perm_ext_iff_of_nodup (hs1.imp fun h => ne_of_lt h) (hs2.imp fun h => ne_of_lt h)).2 ?_
    intro k
    simp only [List.mem_filter, List.mem_map, List.mem_range, Function.comp_apply, decide_eq_true_eq]
    constructor
    · rintro ⟨hk, hd⟩
      exact ⟨k - (288 * g - q0).toNat, by omega, by omega⟩
    · rintro ⟨j, hj, rfl⟩
      constructor <;> omega
  rw [this]
  simp

/-- **C141 (5 minutes, any record).** Distinct dates in whatever order, gaps allowed.  Whenever the cascade with 5-minute output returns: the `k`-th date in
chronological order gets the rain of the `k`-th row; a date whose own value is missing is missing throughout; and every date that is not in the record but
lies between two dates of it comes out as a dry day, 288 zeros. -/
theorem C141_five {api : PandasApi} {rnd : Nat → K} {opts : CascOptions K} {level : Nat} {test : Bool} {r : CascadeOut K}
    {ds : List Int} (hnd : ds.Nodup) {v : Int → XF K} (h : disaggPrecCascade api rnd (labelled 0 ds v) opts false level 0 test = .ok r) :
    (∀ es : List Int, es.Pairwise (· < ·) → es.Perm ds → ∀ (k : Nat) (e d : Int), es[k]? = some e → ds[k]? = some d →
      (v e = .nan → ∀ c ∈ dayCells r.series e, c = .nan) ∧ (v e ≠ .nan → DayOfRain (dayCells r.series e) (rainOf (v d)))) ∧
    ∀ a ∈ ds, ∀ b ∈ ds, ∀ g, a < g → g < b →
      (dayCells r.series g).length = 288 ∧ (g ∉ ds → dayCells r.series g = List.replicate 288 (.fin 0)) := by
  have hpos : ∀ {w : List K} {idx : List Time}, (∀ y ∈ w, 0 ≤ y) → ∀ e, ∀ y ∈ dayCells (resample5min (idx.zip w)) e, 0 ≤ y := by
    intro w idx hw e y hy
    unfold dayCells at hy
    obtain ⟨r, hr, rfl⟩ := List.mem_map.1 hy
    obtain ⟨_, q, hq⟩ := mem_resample5min (List.mem_filter.1 hr).1
    rw [hq]
    apply List.sum_nonneg
    intro y hy
    obtain ⟨r, hr, rfl⟩ := List.mem_map.1 hy
    exact hw _ (List.of_mem_zip (List.mem_filter.1 hr).1).2
  constructor
  · intro es hs hp k e d he hd
    obtain ⟨hl, l1, l11, w, hz, _, hb, hr⟩ := cascade_5min_gap hnd hs hp h
    have hw : w.length = ds.length := by simpa using (zeroMissing_ok hz).1
    have hq : (r.levels.getLastD []).length = 2 ^ level * es.length := by rw [hb.length, hw, hp.length_eq]
    have hmem : e ∈ ds := hp.mem_iff.1 (List.mem_of_getElem? he)
    obtain ⟨x, hx, hmax⟩ := zeroMissing_rain hz (k := k) (c := v d) (by simp [hd])
    obtain ⟨_, b2⟩ := hb.block hx
    have hc : dayCells r.series e = (dayCells (resample5min ((blockIndex (2 ^ level) (stepTime ds level) es).zip (r.levels.getLastD []))) e).map
        fun x => if (v e).isNan then XF.nan else .fin x := by
      conv_lhs => rw [hr]
      rw [restore_cells ds v _ hmem]
    rw [hc]
    constructor
    · intro hn c hcm
      rw [hn] at hcm
      obtain ⟨x, _, rfl⟩ := List.mem_map.1 hcm
      rfl
    · intro hn
      have hn' : (v e).isNan = false := by cases hv : v e <;> simp_all [XF.isNan]
      rw [hn']
      refine ⟨_, rfl, hpos hb.nonneg e, ?_⟩
      rw [resample5min_day_sum, block_cells (stepTime_day ds l11) (hs.imp fun h => ne_of_lt h) hq he, b2, hmax]
  · intro a ha b hb' g hag hgb
    obtain ⟨es, hs, hp⟩ := sorted_copy hnd
    obtain ⟨hl, l1, l11, w, hz, _, hb, hr⟩ := cascade_5min_gap hnd hs hp h
    have hw : w.length = ds.length := by simpa using (zeroMissing_ok hz).1
    have hq : (r.levels.getLastD []).length = 2 ^ level * es.length := by rw [hb.length, hw, hp.length_eq]
    set s : Series K := (blockIndex (2 ^ level) (stepTime ds level) es).zip (r.levels.getLastD []) with hsdef
    have hidx : s.index = blockIndex (2 ^ level) (stepTime ds level) es := zipped_index (by rw [blockIndex_length, hq])
    have hmem : ∀ d ∈ ds, stepTime ds level d 0 ∈ s.index := by
      intro d hd
      rw [hidx, mem_blockIndex]
      exact ⟨d, hp.mem_iff.2 hd, 0, by positivity, rfl⟩
    have hlen : (dayCells (resample5min s) g).length = 288 := by
      cases hlo : s.index.min? with
      | none =>
        rw [List.min?_eq_none_iff] at hlo
        have := hmem a ha
        rw [hlo] at this; simp at this
      | some lo =>
        cases hhi : s.index.max? with
        | none =>
          rw [List.max?_eq_none_iff] at hhi
          have := hmem a ha
          rw [hhi] at this; simp at this
        | some hi =>
          have h1 := (List.min?_eq_some_iff.1 hlo).2 _ (hmem a ha)
          have h2 := (List.max?_eq_some_iff.1 hhi).2 _ (hmem b hb')
          obtain ⟨_, h3, _⟩ := stepTime_bounds ds l11 a (j := 0) (by positivity)
          obtain ⟨_, _, h4⟩ := stepTime_bounds ds l11 b (j := 0) (by positivity)
          rw [(atStep_day l11 a).1] at h3
          refine five_day_length hlo hhi ?_ ?_
          · unfold at00 at *; omega
          · unfold at00 at *; omega
    refine ⟨by rw [hr, dayCells_restoreMissing, List.length_map, hlen], ?_⟩
    intro hg
    have hsum : (dayCells (resample5min s) g).sum = 0 := by
      rw [resample5min_day_sum, dayCells_none, List.sum_nil]
      intro t ht
      rw [hidx] at ht
      obtain ⟨e, he, j, hj, rfl⟩ := mem_blockIndex.1 ht
      rw [stepTime_day ds l11 e j hj]
      rintro rfl
      exact hg (hp.mem_iff.1 he)
    have hzero : dayCells (resample5min s) g = List.replicate 288 0 := by
      rw [List.eq_replicate_iff]
      refine ⟨hlen, ?_⟩
      intro y hy
      exact le_antisymm (by rw [← hsum]; exact List.single_le_sum (hpos hb.nonneg g) y hy) (hpos hb.nonneg g y hy)
    rw [hr, dayCells_restoreMissing, labelled_missing, hzero, List.map_replicate]
    simp only [hg, decide_false, Bool.false_and, Bool.false_eq_true, if_false]

/-- **C141 (5 minutes, dates in order).** When the dates are increasing, with or without gaps, every date keeps its own total. -/
theorem C141_five_in_order {api : PandasApi} {rnd : Nat → K} {opts : CascOptions K} {level : Nat} {test : Bool} {r : CascadeOut K}
    {ds : List Int} (hs : ds.Pairwise (· < ·)) {v : Int → XF K} (h : disaggPrecCascade api rnd (labelled 0 ds v) opts false level 0 test = .ok r)
    (e : Int) (he : e ∈ ds) :
    (v e = .nan → ∀ c ∈ dayCells r.series e, c = .nan) ∧ (v e ≠ .nan → DayOfRain (dayCells r.series e) (rainOf (v e))) := by
  obtain ⟨k, hk, rfl⟩ := List.getElem_of_mem he
  exact (C141_five (hs.imp fun h => ne_of_lt h) h).1 ds hs (List.Perm.refl _) k _ _ (List.getElem?_eq_getElem hk) (List.getElem?_eq_getElem hk)

/-- **C141 (5 minutes, does it return?).** Usable statistics, values missing or non-negative.  With a gap in the record: AttributeError on current pandas (no
`pd.datetime`).  With `pd.datetime`, or without a gap (in whatever order), it returns. -/
theorem C141_five_returns {api : PandasApi} {rnd : Nat → K} (hr : ∀ j, rnd j ≤ 1) {opts : CascOptions K} {level : Nat} (h1 : 1 ≤ level) (h11 : level ≤ 11)
    (ho : UsableOptions level opts) {ds : List Int} (hnd : ds.Nodup) (hn : 2 ≤ ds.length) {v : Int → XF K}
    (hv : ∀ d ∈ ds, v d = .nan ∨ ∃ x, 0 ≤ x ∧ v d = .fin x) :
    (api.pdDatetime = false → ∀ a ∈ ds, ∀ b ∈ ds, ∀ g, a < g → g < b → g ∉ ds →
      disaggPrecCascade api rnd (labelled 0 ds v) opts false level 0 false = .error .attributeError) ∧
    (api.pdDatetime = true ∨ (∀ a ∈ ds, ∀ b ∈ ds, ∀ g, a < g → g < b → g ∈ ds) →
      ∃ r, disaggPrecCascade api rnd (labelled 0 ds v) opts false level 0 false = .ok r) := by
  have hne : ds ≠ [] := by rintro rfl; simp at hn
  obtain ⟨w, hw, hlen, ls, hls⟩ := levels_ok_list hr ho (l := ds.map v) (by simpa using hn) (by
    intro c hc
    obtain ⟨d, hd, rfl⟩ := List.mem_map.1 hc
    exact hv d hd)
  have hl : (ls.getLastD []).length = 2 ^ level * ds.length := by
    obtain ⟨l, rfl⟩ : ∃ l, level = l + 1 := ⟨level - 1, by omega⟩
    rw [(levelLoop_last hls).length, hlen, List.length_map]
  have hred : disaggPrecCascade api rnd (labelled 0 ds v) opts false level 0 false = (do
      let index ← subLevelIndex api (ds.map at00) level
      let s ← Series.make index (ls.getLastD [])
      .ok ⟨ls, ls.getLastD [], restoreMissing (((labelled 0 ds v).filter fun r => r.2.isNan).map Prod.fst) (resample5min s)⟩) := by
    unfold disaggPrecCascade
    rw [if_neg (by rw [labelled_length]; omega), labelled_values, hw]
    simp only [Bool.false_eq_true, if_false, bind, Except.bind]
    rw [if_neg (by omega), ho.levelStats.1, hls]
    simp only [assembleSeries, Bool.false_eq_true, if_false, bind, Except.bind]
    rw [labelled_at00]
    cases subLevelIndex api (ds.map at00) level with
    | error e => rfl
    | ok i =>
      simp only
      cases Series.make i (ls.getLastD []) with
      | error e => rfl
      | ok s => simp
  rw [hred]
  refine ⟨fun hapi a ha b hb g hg1 hg2 hg => ?_, ?_⟩
  · rw [((C95_gaps (api := api) h11 hnd ha hb ⟨hg1, hg2, hg⟩).1 hapi).1]; rfl
  · intro hc
    have hi : ∃ idx, subLevelIndex api (ds.map at00) level = .ok idx := by
      by_cases hg : NoGap ds
      · obtain ⟨⟨i, e, _⟩, _⟩ := C95_no_gaps (api := api) h11 hne hnd false hg
        exact ⟨i, e⟩
      · obtain ⟨a, ha, b, hb, g, hg'⟩ := gap_of_not hg
        rcases hc with hc | hc
        · obtain ⟨⟨i, e, _⟩, _⟩ := (C95_gaps (api := api) h11 hnd ha hb ⟨hg'.1, hg'.2.1, hg'.2.2⟩).2 hc
          exact ⟨i, e⟩
        · exact absurd (hc a ha b hb g hg'.1 hg'.2.1) hg'.2.2
    obtain ⟨idx, hi⟩ := hi
    obtain ⟨es, hs, hp⟩ := sorted_copy hnd
    have hil : idx.length = 2 ^ level * ds.length := by
      rw [subLevelIndex_blocks h11 hne hnd hs hp hi, blockIndex_length, hp.length_eq]
    rw [hi]
    simp only [bind, Except.bind, Series.make]
    rw [if_pos (by rw [hil, hl])]
    exact ⟨_, rfl⟩

/-! ### examples -/

/-- rain of the examples: 12 mm on day 100, day 103 missing, nothing on day 104 -/
def gapRain (d : Int) : XF ℚ := if d = 100 then .fin 12 else if d = 103 then .nan else .fin 0

theorem gapRain_ok (ds : List Int) : ∀ d ∈ ds, gapRain d = .nan ∨ ∃ x, 0 ≤ x ∧ gapRain d = .fin x := by
  intro d _
  unfold gapRain
  split
  · exact .inr ⟨12, by norm_num, rfl⟩
  · split
    · exact .inl rfl
    · exact .inr ⟨0, le_refl _, rfl⟩

/-- days 100, 103, 104 (gap 101, 102) fail on current pandas -/
example : disaggPrecCascade .modern (fun _ => (3 / 4 : ℚ)) (labelled 0 [100, 103, 104] gapRain) (.one exampleStats) = .error .attributeError :=
  (C141_hours_returns (fun _ => by norm_num) exampleStats_usable (by decide) (by decide) (gapRain_ok _) 9 false).1 rfl 100 (by decide) 104 (by decide) 101
    (by decide) (by decide) (by decide)

/-- on old pandas they return; day 100 keeps its 12 mm and day 103 stays missing -/
example : ∃ r, disaggPrecCascade .legacy (fun _ => (3 / 4 : ℚ)) (labelled 0 [100, 103, 104] gapRain) (.one exampleStats) = .ok r ∧
    DayOfRain (dayCells r.series 100) 12 ∧ dayCells r.series 103 = List.replicate 24 .nan := by
  obtain ⟨r, hr⟩ := (C141_hours_returns (api := .legacy) (rnd := fun _ => (3 / 4 : ℚ)) (fun _ => by norm_num) exampleStats_usable
    (ds := [100, 103, 104]) (by decide) (by decide) (gapRain_ok _) 9 false).2 (.inl ⟨rfl, rfl⟩)
  refine ⟨r, hr, ?_, (C141_hours_in_order (by decide) hr 103 (by decide)).1 (by decide)⟩
  have := ((C141_hours_in_order (by decide) hr 100 (by decide)).2 (by decide)).2
  simpa [gapRain, rainOf] using this

/-- rows in the wrong order, on any pandas: the 12 mm of day 100, given in the second row, come out on day 101 -/
example : ∃ r, disaggPrecCascade .modern (fun _ => (3 / 4 : ℚ)) (labelled 0 [101, 100] gapRain) (.one exampleStats) = .ok r ∧
    DayOfRain (dayCells r.series 101) 12 ∧ DayOfRain (dayCells r.series 100) 0 := by
  obtain ⟨r, hr⟩ := (C141_hours_returns (api := .modern) (rnd := fun _ => (3 / 4 : ℚ)) (fun _ => by norm_num) exampleStats_usable
    (ds := [101, 100]) (by decide) (by decide) (gapRain_ok _) 9 false).2 (.inr (by
      intro a ha b hb g h1 h2
      simp at ha hb ⊢
      omega))
  have key := (C141_hours (by decide) hr).2.2 [100, 101] (by decide) (by decide)
  refine ⟨r, hr, ?_, ?_⟩
  · have := ((key 1 101 100 rfl rfl).2 (by decide)).2
    simpa [gapRain, rainOf] using this
  · have := ((key 0 100 101 rfl rfl).2 (by decide)).2
    simpa [gapRain, rainOf] using this

/-- 5 minutes on old pandas: the days 101 and 102, of which the record says nothing, come out dry -/
example : ∃ r, disaggPrecCascade .legacy (fun _ => (3 / 4 : ℚ)) (labelled 0 [100, 103, 104] gapRain)
    (.one { exampleStats with threshold := List.replicate 9 (.fin 1) }) false 9 = .ok r ∧
    DayOfRain (dayCells r.series 100) 12 ∧ dayCells r.series 101 = List.replicate 288 (.fin 0) := by
  obtain ⟨r, hr⟩ := (C141_five_returns (api := .legacy) (rnd := fun _ => (3 / 4 : ℚ)) (fun _ => by norm_num)
    (opts := .one { exampleStats with threshold := List.replicate 9 (.fin 1) }) (level := 9) (by omega) (by omega) ⟨exampleStats_usable.1, by decide⟩
    (ds := [100, 103, 104]) (by decide) (by decide) (gapRain_ok _)).2 (.inl rfl)
  refine ⟨r, hr, ?_, ((C141_five (by decide) hr).2 100 (by decide) 104 (by decide) 101 (by decide) (by decide)).2 (by decide)⟩
  have := (C141_five_in_order (by decide) hr 100 (by decide)).2 (by decide)
  simpa [gapRain, rainOf] using this

/-- the same with the gap on current pandas -/
example : disaggPrecCascade .modern (fun _ => (3 / 4 : ℚ)) (labelled 0 [100, 103, 104] gapRain)
    (.one { exampleStats with threshold := List.replicate 9 (.fin 1) }) false 9 = .error .attributeError :=
  (C141_five_returns (fun _ => by norm_num) (opts := .one { exampleStats with threshold := List.replicate 9 (.fin 1) }) (by omega) (by omega)
    ⟨exampleStats_usable.1, by decide⟩ (by decide) (by decide) (gapRain_ok _)).1 rfl
    100 (by decide) 104 (by decide) 101 (by decide) (by decide) (by decide)

/-- `C141_neighbours` applies to days 100, 103, 104 and days 7, 8, 9 with the same values -/
example : ∃ r r', disaggPrecCascade .legacy (fun _ => (3 / 4 : ℚ)) (labelled 0 [100, 103, 104] gapRain) (.one exampleStats) = .ok r ∧
    disaggPrecCascade .legacy (fun _ => (3 / 4 : ℚ)) (labelled 0 [7, 8, 9] fun d => if d = 7 then .fin 12 else if d = 8 then .nan else .fin 0) (.one exampleStats) = .ok r' ∧
    dayCells r.series 103 = dayCells r'.series 8 := by
  obtain ⟨r, hr⟩ := (C141_hours_returns (api := .legacy) (rnd := fun _ => (3 / 4 : ℚ)) (fun _ => by norm_num) exampleStats_usable
    (ds := [100, 103, 104]) (by decide) (by decide) (gapRain_ok _) 9 false).2 (.inl ⟨rfl, rfl⟩)
  obtain ⟨r', hr'⟩ := (C141_hours_returns (api := .legacy) (rnd := fun _ => (3 / 4 : ℚ)) (fun _ => by norm_num) exampleStats_usable
    (ds := [7, 8, 9]) (v := fun d => if d = 7 then .fin 12 else if d = 8 then .nan else .fin 0) (by decide) (by decide) (by
      intro d _
      split
      · exact .inr ⟨12, by norm_num, rfl⟩
      · split
        · exact .inl rfl
        · exact .inr ⟨0, le_refl _, rfl⟩) 9 false).2 (.inl ⟨rfl, rfl⟩)
  exact ⟨r, r', hr, hr', (C141_neighbours (by decide) (by decide) (by decide) hr hr').2 1 103 8 rfl rfl⟩

end Melodist
