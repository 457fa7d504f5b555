import Verif.Model.SubIndex
import Verif.Lemmas.CascadeRun
import Verif.Props.Index

/-!
# C95: sub-daily indices
-/

set_option linter.unusedSectionVars false

namespace Melodist
open Spec

/-- the common form of `sub_level_index` and `fmin_index`: steps of `S` microseconds, `k` per day -/
def stepIndex (api : PandasApi) (S : Int) (k : Nat) (idx : List Time) (fillGaps : Bool) : Py (List Time) :=
  match idx.min?, idx.max? with
  | some lo, some hi =>
    let index := dateRange lo (replaceHMS hi 23 59 59) S
    if !fillGaps && decide (index.length > idx.length * k) then do
      let kept := index.filter fun t => (idx.map dayOf).contains (dayOf t)
      if kept ≠ [] then needs api.pdDatetime
      .ok (kept.map fun t => dayOf t * DAY + hourOf t * HOUR + minuteOf t * MINUTE + secondOf t * SECOND)
    else .ok index
  | _, _ => .error .valueError

theorem subLevelIndex_step (api : PandasApi) (idx : List Time) (level : Nat) (fg : Bool) :
    subLevelIndex api idx level fg = stepIndex api (42187500 * 2 ^ (11 - level)) (2 ^ level) idx fg := rfl

theorem fminIndex_step (api : PandasApi) (idx : List Time) (fg : Bool) : fminIndex api true idx fg = stepIndex api 300000000 288 idx fg := by
  unfold fminIndex stepIndex
  rfl

theorem span_steps {S : Int} {k : Nat} (hS : 1000000 ≤ S) (hk : S * k = DAY) {a b : Int} (hab : a ≤ b) :
    (dateRange (at00 a) (replaceHMS (at00 b) 23 59 59) S).length = (b - a + 1).toNat * k ∧
    (dateRange (at00 a) (replaceHMS (at00 b) 23 59 59) S).Pairwise (· < ·) ∧
    ∀ t, t ∈ dateRange (at00 a) (replaceHMS (at00 b) 23 59 59) S ↔ ∃ d, a ≤ d ∧ d ≤ b ∧ ∃ j : Nat, j < k ∧ t = at00 d + j * S := by
  obtain ⟨n, rfl⟩ : ∃ n : Nat, b = a + n := ⟨(b - a).toNat, by omega⟩
  have hk0 : 0 < k := by
    rcases Nat.eq_zero_or_pos k with rfl | h
    · simp at hk
    · exact h
  have hr : dateRange (at00 a) (replaceHMS (at00 (a + n)) 23 59 59) S = (List.range ((n + 1) * k)).map fun i : Nat => at00 a + i * S := by
    unfold dateRange
    have e : replaceHMS (at00 (a + n)) 23 59 59 = a * DAY + (n + 1) * DAY - 1000000 := by
      unfold replaceHMS dayOf at00; omega
    rw [e, if_neg (by unfold at00; omega)]
    have : (a * DAY + (n + 1) * DAY - 1000000 - at00 a) / S = ((n : Int) + 1) * k - 1 := by
      rw [Int.ediv_eq_iff_of_pos (by omega)]
      have h2 : ((n : Int) + 1) * k * S = (n + 1) * DAY := by rw [← hk]; ring
      constructor
      · unfold at00; nlinarith
      · unfold at00; nlinarith
    rw [this]
    have : ((n : Int) + 1) * k - 1 + 1 = (((n + 1) * k : Nat) : Int) := by push_cast; ring
    rw [this, Int.toNat_natCast]
  rw [hr]
  refine ⟨by rw [List.length_map, List.length_range]; congr 1; omega, ?_, ?_⟩
  · rw [List.pairwise_map]
    refine (List.pairwise_lt_range (n := _)).imp ?_
    intro i j h
    have : (i : Int) + 1 ≤ j := by omega
    nlinarith
  · intro t
    simp only [List.mem_map, List.mem_range]
    constructor
    · rintro ⟨i, hi, rfl⟩
      have hd : i / k < n + 1 := Nat.div_lt_of_lt_mul (by rw [Nat.mul_comm]; exact hi)
      refine ⟨a + (i / k : Nat), le_add_of_nonneg_right (Int.natCast_nonneg _), by
        have : ((i / k : Nat) : Int) ≤ n := by exact_mod_cast Nat.lt_succ_iff.1 hd
        linarith, i % k, Nat.mod_lt _ hk0, ?_⟩
      have h1 : (i : Int) = (k : Int) * (i / k : Nat) + (i % k : Nat) := by exact_mod_cast (Nat.div_add_mod i k).symm
      have h2 : (i : Int) * S = ((i / k : Nat) : Int) * DAY + ((i % k : Nat) : Int) * S := by
        rw [← hk]
        conv_lhs => rw [h1]
        ring
      rw [h2]
      unfold at00
      ring
    · rintro ⟨d, h1, h2, j, hj, rfl⟩
      obtain ⟨m, rfl⟩ : ∃ m : Nat, d = a + m := ⟨(d - a).toNat, by omega⟩
      refine ⟨m * k + j, ?_, ?_⟩
      · have : m + 1 ≤ n + 1 := by omega
        calc m * k + j < m * k + k := by omega
          _ = (m + 1) * k := by ring
          _ ≤ (n + 1) * k := Nat.mul_le_mul_right k this
      · unfold at00
        push_cast
        rw [show (a + (m : Int)) * DAY = a * DAY + m * (S * k) by rw [hk]; ring]
        ring

theorem days_cover_steps {ds : List Int} (hnd : ds.Nodup) {a b : Int} (hab : a ≤ b) (hin : ∀ d ∈ ds, a ≤ d ∧ d ≤ b) {k : Nat} (hk : 0 < k) :
    (b - a + 1).toNat * k ≤ ds.length * k ↔ ∀ d, a ≤ d → d ≤ b → d ∈ ds := by
  rw [← days_cover ds hnd a b hab hin, Nat.mul_le_mul_right_iff hk]
  omega

section
variable {api : PandasApi} {S : Int} {k : Nat} {ds : List Int}

theorem stepIndex_fill (hS : 1000000 ≤ S) (hk : S * k = DAY) (hne : ds ≠ []) :
    ∃ idx, stepIndex api S k (ds.map at00) true = .ok idx ∧ idx.Pairwise (· < ·) ∧
      ∀ t, t ∈ idx ↔ ∃ d, (∃ a ∈ ds, a ≤ d) ∧ (∃ b ∈ ds, d ≤ b) ∧ ∃ j : Nat, j < k ∧ t = at00 d + j * S := by
  obtain ⟨a, b, ha, hb, hin, hmin, hmax⟩ := min_max_at00 ds hne
  obtain ⟨_, hs, hm⟩ := span_steps hS hk (hin b hb).1
  refine ⟨_, ?_, hs, ?_⟩
  · unfold stepIndex; rw [hmin, hmax]; rfl
  · intro t
    rw [hm]
    constructor
    · rintro ⟨d, h1, h2, h⟩; exact ⟨d, ⟨a, ha, h1⟩, ⟨b, hb, h2⟩, h⟩
    · rintro ⟨d, ⟨a', ha', h1⟩, ⟨b', hb', h2⟩, h⟩
      exact ⟨d, (hin a' ha').1.trans h1, h2.trans (hin b' hb').2, h⟩

theorem step_pos_bound (hk : S * k = DAY) (hS : 1000000 ≤ S) {j : Nat} (hj : j < k) : 0 ≤ (j : Int) * S ∧ (j : Int) * S < DAY := by
  have h1 : (j : Int) + 1 ≤ k := by omega
  constructor
  · positivity
  · rw [← hk]; nlinarith

theorem stepIndex_nogap (hS : 1000000 ≤ S) (hk : S * k = DAY) (hne : ds ≠ []) (hnd : ds.Nodup) (fg : Bool)
    (hall : ∀ d, (∃ a ∈ ds, a ≤ d) → (∃ b ∈ ds, d ≤ b) → d ∈ ds) :
    ∃ idx, stepIndex api S k (ds.map at00) fg = .ok idx ∧ idx.length = ds.length * k ∧ idx.Pairwise (· < ·) ∧
      ∀ t, t ∈ idx ↔ ∃ d ∈ ds, ∃ j : Nat, j < k ∧ t = at00 d + j * S := by
  have hk0 : 0 < k := by
    rcases Nat.eq_zero_or_pos k with rfl | h
    · simp at hk
    · exact h
  obtain ⟨a, b, ha, hb, hin, hmin, hmax⟩ := min_max_at00 ds hne
  have hab := (hin b hb).1
  obtain ⟨hl, hs, hm⟩ := span_steps hS hk hab
  have hcov := (days_cover_steps hnd hab hin hk0).2 fun d h1 h2 => hall d ⟨a, ha, h1⟩ ⟨b, hb, h2⟩
  refine ⟨_, ?_, ?_, hs, ?_⟩
  · unfold stepIndex
    rw [hmin, hmax]
    dsimp only
    rw [if_neg]
    rw [hl, List.length_map]
    simp [not_lt.2 hcov]
  · rw [hl]
    congr 1
    have hsub : ds.toFinset = Finset.Icc a b := by
      ext d
      rw [List.mem_toFinset, Finset.mem_Icc]
      exact ⟨fun h => hin d h, fun h => hall d ⟨a, ha, h.1⟩ ⟨b, hb, h.2⟩⟩
    rw [← List.toFinset_card_of_nodup hnd, hsub, Int.card_Icc]
    congr 1
    omega
  · intro t
    rw [hm]
    constructor
    · rintro ⟨d, h1, h2, h⟩; exact ⟨d, hall d ⟨a, ha, h1⟩ ⟨b, hb, h2⟩, h⟩
    · rintro ⟨d, hd, h⟩; exact ⟨d, (hin d hd).1, (hin d hd).2, h⟩

theorem gap_long (hk0 : 0 < k) (hnd : ds.Nodup) {a b : Int} (hab : a ≤ b) (hin : ∀ d ∈ ds, a ≤ d ∧ d ≤ b) {a' b' g : Int} (ha' : a' ∈ ds)
    (hb' : b' ∈ ds) (hg : a' < g ∧ g < b' ∧ g ∉ ds) : ds.length * k < (b - a + 1).toNat * k := by
  by_contra h
  have := (days_cover_steps hnd hab hin hk0).1 (not_lt.1 h) g (by have := (hin a' ha').1; omega) (by have := (hin b' hb').2; omega)
  exact hg.2.2 this

theorem stepIndex_gap (hS : 1000000 ≤ S) (hk : S * k = DAY) (hnd : ds.Nodup) {a' b' g : Int} (ha' : a' ∈ ds) (hb' : b' ∈ ds)
    (hg : a' < g ∧ g < b' ∧ g ∉ ds) :
    (api.pdDatetime = false → stepIndex api S k (ds.map at00) false = .error .attributeError) ∧
    (api.pdDatetime = true → ∃ idx, stepIndex api S k (ds.map at00) false = .ok idx ∧ idx.Pairwise (· < ·) ∧
      ∀ t, t ∈ idx ↔ ∃ d ∈ ds, ∃ j : Nat, j < k ∧ t = at00 d + j * S / 1000000 * 1000000) := by
  have hk0 : 0 < k := by
    rcases Nat.eq_zero_or_pos k with rfl | h
    · simp at hk
    · exact h
  have hne : ds ≠ [] := List.ne_nil_of_mem ha'
  obtain ⟨a, b, ha, hb, hin, hmin, hmax⟩ := min_max_at00 ds hne
  have hab := (hin b hb).1
  obtain ⟨hl, hs, hm⟩ := span_steps hS hk hab
  have hlong := gap_long hk0 hnd hab hin ha' hb' hg
  have hid : (ds.map at00).map dayOf = ds := by
    rw [List.map_map]; conv_rhs => rw [← List.map_id ds]
    apply List.map_congr_left; intro d _; simp [Function.comp_def, dayOf_at00]
  have hday : ∀ (d : Int) (j : Nat), j < k → dayOf (at00 d + j * S) = d := by
    intro d j hj
    obtain ⟨h1, h2⟩ := step_pos_bound hk hS hj
    unfold dayOf at00
    omega
  have hkept : (dateRange (at00 a) (replaceHMS (at00 b) 23 59 59) S).filter (fun t => ((ds.map at00).map dayOf).contains (dayOf t)) ≠ [] := by
    rw [hid]
    apply List.ne_nil_of_mem (a := at00 a + (0 : Nat) * S)
    rw [List.mem_filter]
    refine ⟨(hm _).2 ⟨a, le_rfl, hab, 0, hk0, rfl⟩, ?_⟩
    rw [hday a 0 hk0]
    simpa using ha
  have heq : stepIndex api S k (ds.map at00) false = (do
      needs api.pdDatetime
      .ok (((dateRange (at00 a) (replaceHMS (at00 b) 23 59 59) S).filter fun t => ds.contains (dayOf t)).map
        fun t => dayOf t * DAY + hourOf t * HOUR + minuteOf t * MINUTE + secondOf t * SECOND)) := by
    unfold stepIndex
    rw [hmin, hmax]
    dsimp only
    rw [if_pos, if_pos hkept, hid]
    rw [hl, List.length_map]
    simp [hlong]
  rw [heq]
  constructor
  · intro h
    rw [h]
    rfl
  · intro h
    rw [h]
    refine ⟨_, rfl, ?_, ?_⟩
    · rw [List.pairwise_map]
      have hmem : ∀ t ∈ (dateRange (at00 a) (replaceHMS (at00 b) 23 59 59) S).filter (fun t => ds.contains (dayOf t)),
          ∃ d, ∃ j : Nat, j < k ∧ t = at00 d + j * S := by
        intro t ht
        obtain ⟨d, _, _, j, hj, rfl⟩ := (hm t).1 (List.mem_filter.1 ht).1
        exact ⟨d, j, hj, rfl⟩
      refine List.Pairwise.imp_of_mem ?_ (hs.filter _)
      intro t t' ht ht' hlt
      obtain ⟨d, j, hj, rfl⟩ := hmem t ht
      obtain ⟨d', j', hj', rfl⟩ := hmem t' ht'
      obtain ⟨p1, p2⟩ := step_pos_bound hk hS hj
      obtain ⟨p1', p2'⟩ := step_pos_bound hk hS hj'
      have hstep : at00 d + (j : Int) * S + 1000000 ≤ at00 d' + (j' : Int) * S := by
        rcases lt_trichotomy d d' with h | h | h
        · have : (j : Int) * S + S ≤ DAY := by
            rw [← hk]
            have : (j : Int) + 1 ≤ k := by omega
            nlinarith
          unfold at00
          omega
        · subst h
          have h0 : (j : Int) * S < (j' : Int) * S := by omega
          have h1 : (j : Int) < j' := by
            by_contra hc
            have : (j' : Int) * S ≤ (j : Int) * S := mul_le_mul_of_nonneg_right (not_lt.1 hc) (by omega)
            omega
          have : (j : Int) * S + S ≤ (j' : Int) * S := by
            have : (j : Int) + 1 ≤ j' := by omega
            nlinarith
          omega
        · unfold at00 at hlt; omega
      generalize (j : Int) * S = r at *
      generalize (j' : Int) * S = r' at *
      unfold dayOf hourOf minuteOf secondOf at00 at *
      omega
    · intro t
      have hfloor : ∀ (d : Int) (j : Nat), j < k →
          dayOf (at00 d + j * S) * DAY + hourOf (at00 d + j * S) * HOUR + minuteOf (at00 d + j * S) * MINUTE + secondOf (at00 d + j * S) * SECOND =
            at00 d + j * S / 1000000 * 1000000 := by
        intro d j hj
        obtain ⟨h1, h2⟩ := step_pos_bound hk hS hj
        generalize (j : Int) * S = r at *
        unfold dayOf hourOf minuteOf secondOf at00
        omega
      rw [List.mem_map]
      constructor
      · rintro ⟨t', ht', rfl⟩
        obtain ⟨h1, h2⟩ := List.mem_filter.1 ht'
        obtain ⟨d, _, _, j, hj, rfl⟩ := (hm t').1 h1
        rw [hday d j hj] at h2
        exact ⟨d, by simpa using h2, j, hj, hfloor d j hj⟩
      · rintro ⟨d, hd, j, hj, rfl⟩
        refine ⟨at00 d + j * S, List.mem_filter.2 ⟨(hm _).2 ⟨d, (hin d hd).1, (hin d hd).2, j, hj, rfl⟩, ?_⟩, hfloor d j hj⟩
        rw [hday d j hj]
        simpa using hd

end

/-- the time of step `j` of day `d` at a cascade level: a day has 2^level steps -/
def Spec.atStep (level : Nat) (d : Int) (j : Nat) : Time := at00 d + j * (42187500 * 2 ^ (11 - level))

/-- the time of the 5-minute step `j` of day `d` -/
def Spec.atFive (d : Int) (j : Nat) : Time := at00 d + j * 300000000

/-- the steps of a level fill the day: step 0 is midnight and after 2^level steps the next day begins -/
theorem atStep_day {level : Nat} (hl : level ≤ 11) (d : Int) : atStep level d 0 = at00 d ∧ atStep level d (2 ^ level) = at00 (d + 1) := by
  have := step_mul hl
  constructor
  · unfold atStep; simp
  · unfold atStep
    push_cast
    rw [mul_comm, this]
    unfold at00
    ring

section
variable {api : PandasApi} {ds : List Int} {level : Nat}

/-- C95 (all days).  With `fill_gaps=True` the index has the steps of all days from the first to the last. -/
theorem C95_fill (hl : level ≤ 11) (hne : ds ≠ []) :
    (∃ idx, subLevelIndex api (ds.map at00) level true = .ok idx ∧ idx.Pairwise (· < ·) ∧
      ∀ t, t ∈ idx ↔ ∃ d, (∃ a ∈ ds, a ≤ d) ∧ (∃ b ∈ ds, d ≤ b) ∧ ∃ j < 2 ^ level, t = atStep level d j) ∧
    ∃ idx, fminIndex api true (ds.map at00) true = .ok idx ∧ idx.Pairwise (· < ·) ∧
      ∀ t, t ∈ idx ↔ ∃ d, (∃ a ∈ ds, a ≤ d) ∧ (∃ b ∈ ds, d ≤ b) ∧ ∃ j < 288, t = atFive d j := by
  have hS := step_ge (11 - level)
  constructor
  · rw [subLevelIndex_step]
    exact stepIndex_fill (by omega) (by have := step_mul hl; push_cast; exact this) hne
  · rw [fminIndex_step]
    exact stepIndex_fill (by norm_num) (by norm_num) hne

/-- C95 (no gaps).  For days without a gap the index has exactly the steps of these days, whatever `fill_gaps`. -/
theorem C95_no_gaps (hl : level ≤ 11) (hne : ds ≠ []) (hnd : ds.Nodup) (fillGaps : Bool)
    (hall : ∀ d, (∃ a ∈ ds, a ≤ d) → (∃ b ∈ ds, d ≤ b) → d ∈ ds) :
    (∃ idx, subLevelIndex api (ds.map at00) level fillGaps = .ok idx ∧ idx.length = ds.length * 2 ^ level ∧ idx.Pairwise (· < ·) ∧
      ∀ t, t ∈ idx ↔ ∃ d ∈ ds, ∃ j < 2 ^ level, t = atStep level d j) ∧
    ∃ idx, fminIndex api true (ds.map at00) fillGaps = .ok idx ∧ idx.length = ds.length * 288 ∧ idx.Pairwise (· < ·) ∧
      ∀ t, t ∈ idx ↔ ∃ d ∈ ds, ∃ j < 288, t = atFive d j := by
  have hS := step_ge (11 - level)
  constructor
  · rw [subLevelIndex_step]
    exact stepIndex_nogap (by omega) (by have := step_mul hl; push_cast; exact this) hne hnd fillGaps hall
  · rw [fminIndex_step]
    exact stepIndex_nogap (by norm_num) (by norm_num) hne hnd fillGaps hall

/-- C95 (gaps).  Days with a gap, `fill_gaps=False`: AttributeError without `pd.datetime`; otherwise the steps of the listed days, but for `sub_level_index`
cut down to full seconds. -/
theorem C95_gaps (hl : level ≤ 11) (hnd : ds.Nodup) {a b g : Int} (ha : a ∈ ds) (hb : b ∈ ds) (hg : a < g ∧ g < b ∧ g ∉ ds) :
    (api.pdDatetime = false → subLevelIndex api (ds.map at00) level false = .error .attributeError ∧
      fminIndex api true (ds.map at00) false = .error .attributeError) ∧
    (api.pdDatetime = true → (∃ idx, subLevelIndex api (ds.map at00) level false = .ok idx ∧ idx.Pairwise (· < ·) ∧
      ∀ t, t ∈ idx ↔ ∃ d ∈ ds, ∃ j < 2 ^ level, t = atStep level d j / 1000000 * 1000000) ∧
      ∃ idx, fminIndex api true (ds.map at00) false = .ok idx ∧ idx.Pairwise (· < ·) ∧ ∀ t, t ∈ idx ↔ ∃ d ∈ ds, ∃ j < 288, t = atFive d j) := by
  have hS := step_ge (11 - level)
  have h1 := stepIndex_gap (api := api) (S := 42187500 * 2 ^ (11 - level)) (k := 2 ^ level) (by omega)
    (by have := step_mul hl; push_cast; exact this) hnd ha hb hg
  have h2 := stepIndex_gap (api := api) (S := 300000000) (k := 288) (by norm_num) (by norm_num) hnd ha hb hg
  rw [subLevelIndex_step, fminIndex_step]
  refine ⟨fun h => ⟨h1.1 h, h2.1 h⟩, fun h => ⟨?_, ?_⟩⟩
  · obtain ⟨idx, e, hs, hm⟩ := h1.2 h
    refine ⟨idx, e, hs, fun t => (hm t).trans ?_⟩
    have (d : Int) (j : Nat) : at00 d + (j : Int) * (42187500 * 2 ^ (11 - level)) / 1000000 * 1000000 = atStep level d j / 1000000 * 1000000 := by
      unfold atStep at00
      omega
    simp only [this]
  · obtain ⟨idx, e, hs, hm⟩ := h2.2 h
    refine ⟨idx, e, hs, fun t => (hm t).trans ?_⟩
    have (d : Int) (j : Nat) : at00 d + (j : Int) * 300000000 / 1000000 * 1000000 = atFive d j := by
      unfold atFive at00
      omega
    simp only [this]

/-- C95 (frequency).  Without the alias 'L', and for an empty index, `fmin_index` raises ValueError. -/
theorem C95_no_alias (idx : List Time) (fillGaps : Bool) :
    fminIndex api false idx fillGaps = .error .valueError ∧ fminIndex api true [] fillGaps = .error .valueError ∧
      subLevelIndex api [] level fillGaps = .error .valueError := by
  refine ⟨?_, rfl, rfl⟩
  unfold fminIndex
  split <;> rfl

/-- three days with a gap at level 9: the second step of day 5 is at 0:02:48.75, but the index has 0:02:48 -/
example : ∃ idx, subLevelIndex .legacy ([0, 5, 1].map at00) 9 false = .ok idx ∧ at00 5 + 168000000 ∈ idx ∧ atStep 9 5 1 = at00 5 + 168750000 ∧
    atStep 9 5 1 ∉ idx := by
  obtain ⟨idx, h, _, hm⟩ := ((C95_gaps (api := .legacy) (level := 9) (ds := [0, 5, 1]) (a := 0) (b := 5) (g := 3) (by norm_num) (by decide) (by decide)
    (by decide) (by decide)).2 rfl).1
  have e : atStep 9 5 1 = at00 5 + 168750000 := by unfold atStep; norm_num
  refine ⟨idx, h, (hm _).2 ⟨5, by decide, 1, by norm_num, ?_⟩, e, ?_⟩
  · rw [e]; unfold at00; norm_num
  · rw [hm, e]
    rintro ⟨d, _, j, _, h⟩
    unfold at00 at h
    omega

end

end Melodist
