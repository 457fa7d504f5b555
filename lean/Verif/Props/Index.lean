import Verif.Lemmas.Stats
import Mathlib.Order.Interval.Finset.Basic
import Mathlib.Data.Int.Interval

/-!
# C01–C05: hourly index, equal distribution
-/

set_option linter.unusedSectionVars false

namespace Melodist
open Spec

variable {K : Type}

/-! ## C01 -/

/-- **C01.** For `n` consecutive days (00:00 each) `hourly_index` returns 24·n timestamps, exactly the full
hours of these days, in strictly increasing order – on every pandas version. -/
theorem C01_hourly_index_gapfree (api : PandasApi) (d0 : Int) (n : Nat) (hn : 0 < n) (fillGaps : Bool) :
    ∃ idx, hourlyIndex api ((List.range n).map fun i : Nat => at00 (d0 + i)) fillGaps = .ok idx ∧
      idx.length = 24 * n ∧ idx.Pairwise (· < ·) ∧
      ∀ t, t ∈ idx ↔ ∃ i < n, ∃ h < 24, t = atHour (d0 + (i : Int)) h := by
  have h := hourlyIndex_daily api d0 hn (fun _ => ()) fillGaps fun _ _ => ()
  rw [dailyS_index] at h
  refine ⟨_, h, by simp [Series.index], hourlyS_index_sorted _ _ _, ?_⟩
  intro t
  simp only [Series.index, hourlyS, List.map_map, List.mem_map, List.mem_range, Function.comp_def]
  constructor
  · rintro ⟨k, hk, rfl⟩
    exact ⟨k / 24, by omega, k % 24, by omega, rfl⟩
  · rintro ⟨i, hi, h, hh, rfl⟩
    refine ⟨24 * i + h, by omega, ?_⟩
    rw [show (24 * i + h) / 24 = i by omega, show (24 * i + h) % 24 = h by omega]

/-- C01 applies to a three-day index around New Year 1970. -/
example : ∃ idx, hourlyIndex .modern [-86400000000, 0, 86400000000] false = .ok idx ∧ idx.length = 72 := by
  obtain ⟨idx, h, hl, _⟩ := C01_hourly_index_gapfree .modern (-1) 3 (by omega) false
  exact ⟨idx, h, by omega⟩

/-! ## C02 -/

/-- helper: `[lo, hi]` of a set of days, as the code computes it -/
theorem min_max_at00 (ds : List Int) (hne : ds ≠ []) :
    ∃ a b : Int, a ∈ ds ∧ b ∈ ds ∧ (∀ d ∈ ds, a ≤ d ∧ d ≤ b) ∧
      (ds.map at00).min? = some (at00 a) ∧ (ds.map at00).max? = some (at00 b) := by
  have hm : ∃ a, ds.min? = some a := by
    cases h : ds.min? with
    | none => rw [List.min?_eq_none_iff] at h; exact absurd h hne
    | some a => exact ⟨a, rfl⟩
  have hM : ∃ a, ds.max? = some a := by
    cases h : ds.max? with
    | none => rw [List.max?_eq_none_iff] at h; exact absurd h hne
    | some a => exact ⟨a, rfl⟩
  obtain ⟨a, ha⟩ := hm
  obtain ⟨b, hb⟩ := hM
  rw [List.min?_eq_some_iff] at ha
  rw [List.max?_eq_some_iff] at hb
  refine ⟨a, b, ha.1, hb.1, fun d hd => ⟨ha.2 d hd, hb.2 d hd⟩, ?_, ?_⟩
  · rw [List.min?_eq_some_iff]
    refine ⟨List.mem_map.2 ⟨a, ha.1, rfl⟩, ?_⟩
    intro x hx
    obtain ⟨d, hd, rfl⟩ := List.mem_map.1 hx
    have := ha.2 d hd
    unfold at00; omega
  · rw [List.max?_eq_some_iff]
    refine ⟨List.mem_map.2 ⟨b, hb.1, rfl⟩, ?_⟩
    intro x hx
    obtain ⟨d, hd, rfl⟩ := List.mem_map.1 hx
    have := hb.2 d hd
    unfold at00; omega

theorem span_hours (a b : Int) (hab : a ≤ b) :
    (dateRange (at00 a) (replaceHour (at00 b) 23) HOUR).length = 24 * (b - a + 1).toNat ∧
    (dateRange (at00 a) (replaceHour (at00 b) 23) HOUR).Pairwise (· < ·) ∧
    ∀ t, t ∈ dateRange (at00 a) (replaceHour (at00 b) 23) HOUR ↔
      ∃ d, a ≤ d ∧ d ≤ b ∧ ∃ h < 24, t = atHour d h := by
  obtain ⟨m, rfl⟩ : ∃ m : Nat, b = a + m := ⟨(b - a).toNat, by omega⟩
  rw [dateRange_hours]
  refine ⟨by simp, ?_, ?_⟩
  · rw [List.pairwise_map]
    exact (List.pairwise_lt_range (n := _)).imp (by intro a b h; omega)
  · intro t
    simp only [List.mem_map, List.mem_range]
    constructor
    · rintro ⟨k, hk, rfl⟩
      refine ⟨a + (k / 24 : Nat), by omega, by omega, k % 24, by omega, ?_⟩
      unfold atHour; omega
    · rintro ⟨d, h1, h2, h, hh, rfl⟩
      refine ⟨24 * (d - a).toNat + h, by omega, ?_⟩
      unfold atHour; omega

/-- helper: distinct days within `[a,b]`; they are all of `[a,b]` iff there are enough of them -/
theorem days_cover (ds : List Int) (hnd : ds.Nodup) (a b : Int) (hab : a ≤ b) (hin : ∀ d ∈ ds, a ≤ d ∧ d ≤ b) :
    24 * (b - a + 1).toNat ≤ ds.length * 24 ↔ ∀ d, a ≤ d → d ≤ b → d ∈ ds := by
  have hsub : ds.toFinset ⊆ Finset.Icc a b := by
    intro d hd
    rw [List.mem_toFinset] at hd
    exact Finset.mem_Icc.2 (hin d hd)
  have hcard : ds.toFinset.card = ds.length := List.toFinset_card_of_nodup hnd
  have hI : (Finset.Icc a b).card = (b - a + 1).toNat := by
    rw [Int.card_Icc]; congr 1; omega
  constructor
  · intro h d h1 h2
    have : ds.toFinset = Finset.Icc a b := Finset.eq_of_subset_of_card_le hsub (by omega)
    have hd : d ∈ ds.toFinset := by rw [this]; exact Finset.mem_Icc.2 ⟨h1, h2⟩
    exact List.mem_toFinset.1 hd
  · intro h
    have : Finset.Icc a b ⊆ ds.toFinset := by
      intro d hd
      rw [Finset.mem_Icc] at hd
      exact List.mem_toFinset.2 (h d hd.1 hd.2)
    have := Finset.card_le_card this
    omega

/-- **C02 (fill_gaps=True).** For any set of distinct days `ds` (in any order) every hour of the whole span is
returned, each once, in order. -/
theorem C02_hourly_index_fill (api : PandasApi) (ds : List Int) (hne : ds ≠ []) :
    ∃ idx, hourlyIndex api (ds.map at00) true = .ok idx ∧ idx.Pairwise (· < ·) ∧
      ∀ t, t ∈ idx ↔ ∃ d, (∃ a ∈ ds, a ≤ d) ∧ (∃ b ∈ ds, d ≤ b) ∧ ∃ h < 24, t = atHour d h := by
  obtain ⟨a, b, ha, hb, hin, hmin, hmax⟩ := min_max_at00 ds hne
  have hab := (hin b hb).1
  obtain ⟨hl, hs, hm⟩ := span_hours a b hab
  refine ⟨_, ?_, hs, ?_⟩
  · unfold hourlyIndex; rw [hmin, hmax]; rfl
  · intro t
    rw [hm]
    constructor
    · rintro ⟨d, h1, h2, h⟩; exact ⟨d, ⟨a, ha, h1⟩, ⟨b, hb, h2⟩, h⟩
    · rintro ⟨d, ⟨a', ha', h1⟩, ⟨b', hb', h2⟩, h⟩
      exact ⟨d, (hin a' ha').1.trans h1, h2.trans (hin b' hb').2, h⟩

/-- **C02 (fill_gaps=False).** Whenever the call returns, the result consists of exactly the 24 hours of the listed
days, in order. -/
theorem C02_hourly_index_gaps (api : PandasApi) (ds : List Int) (hne : ds ≠ []) (hnd : ds.Nodup) (idx : List Int)
    (hret : hourlyIndex api (ds.map at00) false = .ok idx) :
    idx.Pairwise (· < ·) ∧ ∀ t, t ∈ idx ↔ ∃ d ∈ ds, ∃ h < 24, t = atHour d h := by
  obtain ⟨a, b, ha, hb, hin, hmin, hmax⟩ := min_max_at00 ds hne
  have hab := (hin b hb).1
  obtain ⟨hl, hs, hm⟩ := span_hours a b hab
  unfold hourlyIndex at hret
  rw [hmin, hmax] at hret
  simp only [Bool.not_false, Bool.true_and, List.length_map, hl, decide_eq_true_eq] at hret
  by_cases hgap : 24 * (b - a + 1).toNat > ds.length * 24
  · rw [if_pos hgap] at hret
    have hkept : idx = ((dateRange (at00 a) (replaceHour (at00 b) 23) HOUR).filter
        fun t => ((ds.map at00).map dayOf).contains (dayOf t)).map fun t => stamp (dayOf t) (hourOf t) := by
      unfold needs at hret
      cases hf1 : api.indexToDatetime <;> cases hf2 : api.pdDatetime <;>
        simp [hf1, hf2, bind, Except.bind] at hret
      rw [← hret]; simp
    have hid : (ds.map at00).map dayOf = ds := by
      rw [List.map_map]; conv_rhs => rw [← List.map_id ds]
      apply List.map_congr_left; intro d _; simp [Function.comp_def, dayOf_at00]
    rw [hid] at hkept
    have hsame : ∀ t ∈ (dateRange (at00 a) (replaceHour (at00 b) 23) HOUR).filter
        (fun t => ds.contains (dayOf t)), stamp (dayOf t) (hourOf t) = t := by
      intro t ht
      have ht := (hm t).1 (List.mem_filter.1 ht).1
      obtain ⟨d, _, _, h, hh, rfl⟩ := ht
      rw [dayOf_atHour d hh, hourOf_atHour d hh]; rfl
    rw [List.map_congr_left hsame, List.map_id'] at hkept
    subst hkept
    refine ⟨hs.filter _, ?_⟩
    intro t
    rw [List.mem_filter, hm]
    constructor
    · rintro ⟨⟨d, h1, h2, h, hh, rfl⟩, hc⟩
      rw [dayOf_atHour d hh] at hc
      exact ⟨d, by simpa using hc, h, hh, rfl⟩
    · rintro ⟨d, hd, h, hh, rfl⟩
      refine ⟨⟨d, (hin d hd).1, (hin d hd).2, h, hh, rfl⟩, ?_⟩
      rw [dayOf_atHour d hh]; simpa using hd
  · rw [if_neg hgap] at hret
    injection hret with hret
    subst hret
    refine ⟨hs, ?_⟩
    intro t
    rw [hm]
    have hall := (days_cover ds hnd a b hab hin).1 (not_lt.1 hgap)
    constructor
    · rintro ⟨d, h1, h2, h⟩; exact ⟨d, hall d h1 h2, h⟩
    · rintro ⟨d, hd, h⟩; exact ⟨d, (hin d hd).1, (hin d hd).2, h⟩

/-- **C02 (current pandas).** Without `Index.to_datetime` the call with `fill_gaps=False` raises AttributeError for
every index with a gap (some day `g` strictly between two listed days is not listed). -/
theorem C02_hourly_index_gaps_raises (api : PandasApi) (hapi : api.indexToDatetime = false) (ds : List Int)
    (hnd : ds.Nodup) (a' b' g : Int) (ha' : a' ∈ ds) (hb' : b' ∈ ds) (hg : a' < g ∧ g < b' ∧ g ∉ ds) :
    hourlyIndex api (ds.map at00) false = .error .attributeError := by
  have hne : ds ≠ [] := by rintro rfl; simp at ha'
  obtain ⟨a, b, ha, hb, hin, hmin, hmax⟩ := min_max_at00 ds hne
  have hab := (hin b hb).1
  obtain ⟨hl, _, _⟩ := span_hours a b hab
  unfold hourlyIndex
  rw [hmin, hmax]
  simp only [Bool.not_false, Bool.true_and, List.length_map, hl, decide_eq_true_eq]
  rw [if_pos]
  · simp [needs, hapi, bind, Except.bind]
  · by_contra hgap
    have := (days_cover ds hnd a b hab hin).1 (not_lt.1 hgap) g
      (by have := (hin a' ha').1; omega) (by have := (hin b' hb').2; omega)
    exact hg.2.2 this

/-- with all attributes available the gap branch does return (so `C02_hourly_index_gaps` is not vacuous there) -/
theorem C02_hourly_index_gaps_legacy (ds : List Int) (hne : ds ≠ []) :
    ∃ idx, hourlyIndex .legacy (ds.map at00) false = .ok idx := by
  obtain ⟨a, b, ha, hb, hin, hmin, hmax⟩ := min_max_at00 ds hne
  unfold hourlyIndex
  rw [hmin, hmax]
  simp only []
  split
  · exact ⟨_, rfl⟩
  · exact ⟨_, rfl⟩

/-- non-vacuity: days 0, 1, 5 have the gap 2, 3, 4 -/
example : hourlyIndex .modern ([0, 5, 1].map at00) false = .error .attributeError :=
  C02_hourly_index_gaps_raises .modern rfl _ (by decide) 0 5 3 (by decide) (by decide) (by decide)

example : ∃ idx, hourlyIndex .legacy ([0, 5, 1].map at00) false = .ok idx ∧ atHour 5 7 ∈ idx ∧ atHour 3 7 ∉ idx := by
  obtain ⟨idx, h⟩ := C02_hourly_index_gaps_legacy [0, 5, 1] (by decide)
  have := (C02_hourly_index_gaps .legacy [0, 5, 1] (by decide) (by decide) idx h).2
  refine ⟨idx, h, (this _).2 ⟨5, by decide, 7, by decide, rfl⟩, fun hc => ?_⟩
  obtain ⟨d, hd, h, hh, e⟩ := (this _).1 hc
  have := (atHour_inj (by omega) hh e).1
  subst this
  exact absurd hd (by decide)

section
variable [Field K] [LinearOrder K] [IsStrictOrderedRing K]

/-! ## C03, C04 -/

/-- **C03.** Equal distribution gives every hour of every day exactly the value of its own day (missing values
included), for every gap-free daily series, on every pandas version. -/
theorem C03_distribute_equally (api : PandasApi) (d0 : Int) (n : Nat) (hn : 0 < n) (v : Nat → XF K) :
    distributeEqually api (dailyS d0 n v) = .ok (hourlyS d0 n fun i _ => v i) :=
  distributeEqually_daily api d0 hn v

/-- non-vacuity: 62 days over two months, second day missing -/
example : distributeEqually .modern (dailyS (-1) 62 fun i => if i = 1 then XF.nan else .fin (i : ℚ)) =
    .ok (hourlyS (-1) 62 fun i _ => if i = 1 then XF.nan else .fin (i : ℚ)) :=
  C03_distribute_equally _ _ _ (by omega) _

/-- **C04.** With `divide=True` every hour is daily/24 (missing days stay missing), and the 24 values of a non-missing
day add up to its daily value. -/
theorem C04_distribute_divide (api : PandasApi) (d0 : Int) (n : Nat) (hn : 0 < n) (v : Nat → XF K) :
    ∃ out, distributeEqually api (dailyS d0 n v) true = .ok out ∧
      out.map Prod.fst = (hourlyS d0 n fun _ _ => ()).map Prod.fst ∧
      ∀ i < n, (∀ x, v i = .fin x →
          dayCells out (d0 + i) = day24 (fun _ => XF.fin (x / 24)) ∧ TotalIs (dayCells out (d0 + i)) x) ∧
        (v i = .nan → AllNan (dayCells out (d0 + i))) := by
  refine ⟨_, distributeEqually_daily_divide api d0 hn v, ?_, ?_⟩
  · have h1 := hourlyS_index d0 n fun i _ => v i / XF.fin 24
    have h2 := hourlyS_index d0 n fun _ _ => ()
    exact h1.trans h2.symm
  · intro i hi
    rw [dayCells_hourlyS d0 _ hi]
    constructor
    · intro x hx
      have h24 : (24 : K) ≠ 0 := by norm_num
      rw [hx, XF.fin_div_fin_of_ne x h24]
      refine ⟨rfl, day24 (fun _ => x / 24), (day24_map _ _).symm, ?_⟩
      rw [sum_day24_const]; field_simp
    · intro hx c hc
      rw [hx] at hc
      obtain ⟨h, _, rfl⟩ := mem_day24.1 hc
      rfl

example : ∃ out, distributeEqually .modern (dailyS 10 2 fun i => if i = 0 then XF.fin (48 : ℚ) else .nan) true = .ok out ∧
    TotalIs (dayCells out 10) 48 ∧ AllNan (dayCells out 11) := by
  obtain ⟨out, h, _, ho⟩ := C04_distribute_divide .modern 10 2 (by omega) fun i => if i = 0 then XF.fin (48 : ℚ) else .nan
  exact ⟨out, h, ((ho 0 (by omega)).1 48 rfl).2, (ho 1 (by omega)).2 rfl⟩

end

end Melodist
