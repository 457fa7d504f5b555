import Verif.Lemmas.TemperatureCourse
import Verif.Props.HumidityStats
import Verif.Lemmas.Calendar

/-!
# C53: observed shift of the temperature maximum
-/

set_option linter.unusedSectionVars false

namespace Melodist
open Spec

noncomputable section

namespace Spec

/-- `h` is the hour of the first of the largest values that `s` has on day `d` -/
def FirstMaxAt (s : List (Int × XF ℝ)) (d h : Int) : Prop :=
  ∃ pre r post x, (s.filter fun r => decide (r.1 / 86400000000 = d)) = pre ++ r :: post ∧ r.1 % 86400000000 / 3600000000 = h ∧ r.2 = .fin x ∧
    (∀ y ∈ numbers (pre.map Prod.snd), y < x) ∧ ∀ y ∈ numbers (post.map Prod.snd), y ≤ x

end Spec

theorem mem_numbers_iff {l : List (XF ℝ)} {x : ℝ} : x ∈ numbers l ↔ .fin x ∈ l := by
  unfold numbers
  rw [List.mem_filterMap]
  constructor
  · rintro ⟨c, hc, h⟩
    cases c <;> first | cases h | skip
    exact hc
  · intro h; exact ⟨_, h, rfl⟩

theorem firstMaxHour_eq {temp : Series (XF ℝ)} (hs : ∀ r ∈ temp, r.2.NanOrFin) {d h : Int} (hf : FirstMaxAt temp d h) :
    firstMaxHour temp d = some h := by
  obtain ⟨pre, r, post, x, e, hh, hx, h1, h2⟩ := hf
  have e' : (temp.filter fun r => dayOf r.1 == d) = pre ++ r :: post := by
    rw [← e]
    apply List.filter_congr
    intro r _
    unfold dayOf
    rw [Bool.eq_iff_iff, beq_iff_eq, decide_eq_true_iff]
  have hnf : ∀ c ∈ Series.values (pre ++ r :: post), c.NanOrFin := by
    intro c hc
    obtain ⟨q, hq, rfl⟩ := List.mem_map.1 hc
    rw [← e] at hq
    exact hs q (List.mem_filter.1 hq).1
  have hmem : x ∈ numbers (Series.values (pre ++ r :: post)) := by
    rw [mem_numbers_iff, ← hx]
    exact List.mem_map.2 ⟨r, by simp, rfl⟩
  obtain ⟨m, hm, hm1, hm2⟩ := maxSkip_eq hnf (List.ne_nil_of_mem hmem)
  have hmx : m = x := by
    apply le_antisymm
    · rw [mem_numbers_iff] at hm1
      obtain ⟨q, hq, hq'⟩ := List.mem_map.1 hm1
      rcases List.mem_append.1 hq with hq | hq
      · exact (h1 m (mem_numbers_iff.2 (List.mem_map.2 ⟨q, hq, hq'⟩))).le
      · rcases List.mem_cons.1 hq with rfl | hq
        · rw [hx] at hq'; cases hq'; exact le_rfl
        · exact h2 m (mem_numbers_iff.2 (List.mem_map.2 ⟨q, hq, hq'⟩))
    · exact hm2 x hmem
  unfold firstMaxHour
  dsimp only
  rw [e', hm, hmx, List.find?_append, List.find?_eq_none.2, Option.none_or, List.find?_cons_of_pos]
  · rw [Option.map_some, hourOf, ← hh]
  · rw [hx]; simp
  · intro q hq
    simp only [decide_eq_true_eq]
    intro hfe
    cases hv : q.2 with
    | fin y =>
      have := h1 y (mem_numbers_iff.2 (List.mem_map.2 ⟨q, hq, hv⟩))
      rw [hv] at hfe
      simp only [XF.feq_fin] at hfe
      linarith
    | nan => rw [hv] at hfe; simp [XF.feq] at hfe
    | ninf => rw [hv] at hfe; simp [XF.feq] at hfe
    | pinf => rw [hv] at hfe; simp [XF.feq] at hfe

theorem firstMaxHour_none {temp : Series (XF ℝ)} {d : Int} (h : ∀ r ∈ temp, r.1 / 86400000000 = d → r.2 = .nan) : firstMaxHour temp d = none := by
  unfold firstMaxHour
  dsimp only
  rw [Option.map_eq_none_iff, List.find?_eq_none]
  intro r hr
  obtain ⟨hr, hd⟩ := List.mem_filter.1 hr
  rw [h r hr (by simpa [dayOf] using hd)]
  rw [decide_eq_true_iff]
  exact id

theorem daySpan_iff {idx : List Time} {d : Int} :
    d ∈ Series.daySpan idx ↔ (∃ t ∈ idx, t / 86400000000 ≤ d) ∧ ∃ t ∈ idx, d ≤ t / 86400000000 := by
  constructor
  · intro h
    unfold Series.daySpan at h
    split at h
    · rename_i a b ha hb
      obtain ⟨k, hk, rfl⟩ := List.mem_map.1 h
      have hk := List.mem_range.1 hk
      obtain ⟨t, ht, e⟩ := List.mem_map.1 (List.min?_mem ha)
      obtain ⟨t', ht', e'⟩ := List.mem_map.1 (List.max?_mem hb)
      unfold dayOf at e e'
      refine ⟨⟨t, ht, ?_⟩, ⟨t', ht', ?_⟩⟩
      · rw [show t / 86400000000 = a from e]; omega
      · rw [show t' / 86400000000 = b from e']; omega
    · simp at h
  · rintro ⟨⟨t, ht, h1⟩, t', ht', h2⟩
    unfold Series.daySpan
    have hm : dayOf t ∈ idx.map dayOf := List.mem_map_of_mem ht
    have hm' : dayOf t' ∈ idx.map dayOf := List.mem_map_of_mem ht'
    cases ha : (idx.map dayOf).min? with
    | none => rw [List.min?_eq_none_iff] at ha; rw [ha] at hm; simp at hm
    | some a =>
      cases hb : (idx.map dayOf).max? with
      | none => rw [List.max?_eq_none_iff] at hb; rw [hb] at hm; simp at hm
      | some b =>
        have l1 := (List.min?_eq_some_iff.1 ha).2 _ hm
        have l2 := (List.max?_eq_some_iff.1 hb).2 _ hm'
        unfold dayOf at l1 l2
        have l1 : a ≤ t / 86400000000 := l1
        have l2 : t' / 86400000000 ≤ b := l2
        dsimp only
        exact List.mem_map.2 ⟨(d - a).toNat, List.mem_range.2 (by omega), by omega⟩

theorem numbers_map_if {α : Type} (l : List α) (p : α → Prop) [DecidablePred p] (f : α → ℝ) :
    numbers (l.map fun a => if p a then (.fin (f a) : XF ℝ) else .nan) = (l.filter fun a => decide (p a)).map f := by
  induction l with
  | nil => rfl
  | cons a l ih =>
    unfold numbers at ih ⊢
    by_cases h : p a
    · simp only [List.map_cons, if_pos h, List.filterMap_cons, List.filter_cons, decide_eq_true h, if_true]
      rw [ih]
    · simp only [List.map_cons, if_neg h, List.filterMap_cons, List.filter_cons, decide_eq_false h, Bool.false_eq_true, if_false]
      rw [ih]

/-- **C53.**  `get_shift_by_data` on any hourly series of numbers and missing values, given the solar noon of each day as `get_sun_times` computes
it: the result has exactly one entry for each calendar month of a day between the first and the last row.  The entry is the mean, over the days
of that month (of all years) with at least one number, of the hour of the first daily maximum minus solar noon; missing if there is no such day. -/
theorem C53_shift (temp : Series (XF ℝ)) (hs : ∀ r ∈ temp, r.2.NanOrFin) (lon lat tz : ℝ) (noon : Int → ℝ)
    (hnoon : ∀ d, (sunTimesDoy (doyOf (at00 d)) lon lat tz).sunnoon = .fin (noon d)) :
    ((getShiftByData temp lon lat tz).map Prod.fst).Pairwise (· < ·) ∧
    (∀ m, m ∈ (getShiftByData temp lon lat tz).map Prod.fst ↔
      ∃ d, monthOf (at00 d) = m ∧ (∃ t ∈ temp.index, t / 86400000000 ≤ d) ∧ ∃ t ∈ temp.index, d ≤ t / 86400000000) ∧
    ∀ m x, (m, x) ∈ getShiftByData temp lon lat tz → ∀ (days : List Int) (first : Int → Int), days.Nodup →
      (∀ d, d ∈ days ↔ monthOf (at00 d) = m ∧ ∃ r ∈ temp, r.1 / 86400000000 = d ∧ r.2 ≠ .nan) →
      (∀ d ∈ days, FirstMaxAt temp d (first d)) →
      (days = [] → x = .nan) ∧
      (days ≠ [] → x = .fin ((days.map fun d => (first d : ℝ) - noon d).sum / days.length)) := by
  have hmid : ∀ d : Int, midnight d = at00 d := fun d => rfl
  have hany : ∀ (m : Int) (g : Int → XF ℝ), ((Series.daySpan temp.index).map fun d => (midnight d, g d)).any (fun r => monthOf r.1 == m) = true ↔
      ∃ d, monthOf (at00 d) = m ∧ (∃ t ∈ temp.index, t / 86400000000 ≤ d) ∧ ∃ t ∈ temp.index, d ≤ t / 86400000000 := by
    intro m g
    rw [List.any_eq_true]
    constructor
    · rintro ⟨r, hr, h⟩
      obtain ⟨d, hd, rfl⟩ := List.mem_map.1 hr
      exact ⟨d, by simpa [hmid] using h, daySpan_iff.1 hd⟩
    · rintro ⟨d, h, hd⟩
      exact ⟨_, List.mem_map.2 ⟨d, daySpan_iff.2 hd, rfl⟩, by simpa [hmid] using h⟩
  refine ⟨?_, ?_, ?_⟩
  · unfold getShiftByData
    dsimp only
    rw [List.map_map]
    show (List.map id _).Pairwise _
    rw [List.map_id]
    apply List.Pairwise.filter
    decide
  · intro m
    unfold getShiftByData
    dsimp only
    rw [List.map_map]
    show _ ∈ List.map id _ ↔ _
    rw [List.map_id, List.mem_filter, hany m]
    constructor
    · rintro ⟨_, h⟩; exact h
    · rintro ⟨d, rfl, h⟩
      refine ⟨?_, d, rfl, h⟩
      have := monthOf_range (at00 d)
      exact List.mem_map.2 ⟨(monthOf (at00 d) - 1).toNat, List.mem_range.2 (by omega), by omega⟩
  · intro m x hx days first hnd hdays hfirst
    unfold getShiftByData at hx
    dsimp only at hx
    obtain ⟨m', _, e⟩ := List.mem_map.1 hx
    simp only [Prod.mk.injEq] at e
    obtain ⟨rfl, rfl⟩ := e
    have hsun : ∀ d ∈ Series.daySpan temp.index,
        (((getSunTimes (Series.index (temp.resampleD meanSkip)) lon lat tz).at? (midnight d)).map SunTimes.sunnoon).getD .nan = .fin (noon d) := by
      intro d hd
      have : getSunTimes (Series.index (temp.resampleD meanSkip)) lon lat tz =
          (Series.daySpan temp.index).map fun d => (midnight d, sunTimesDoy (doyOf (midnight d)) lon lat tz) := by
        unfold getSunTimes Series.resampleD Series.index
        rw [List.map_map, List.map_map]
        rfl
      unfold Series.at?
      rw [this, find?_midnight _ _ hd]
      exact hnoon d
    have hcells : (((Series.daySpan temp.index).map fun d => (midnight d,
        hourCell (firstMaxHour temp d) -
        (((getSunTimes (Series.index (temp.resampleD meanSkip)) lon lat tz).at? (midnight d)).map SunTimes.sunnoon).getD .nan)).filter
          fun r => monthOf r.1 == m').map Prod.snd =
        ((Series.daySpan temp.index).filter fun d => monthOf (midnight d) == m').map
          fun d => if d ∈ days then XF.fin ((first d : ℝ) - noon d) else .nan := by
      rw [List.filter_map, List.map_map]
      apply List.map_congr_left
      intro d hd
      obtain ⟨hd, hmd⟩ := List.mem_filter.1 hd
      simp only [Function.comp_def, beq_iff_eq] at hmd ⊢
      rw [hsun d hd]
      by_cases h : d ∈ days
      · rw [if_pos h, firstMaxHour_eq hs (hfirst d h)]
        simp [hourCell]
      · rw [if_neg h, firstMaxHour_none]
        · simp [hourCell]
        · intro r hr he
          by_contra hne
          exact h ((hdays d).2 ⟨hmd, r, hr, he, hne⟩)
    rw [hcells]
    have hnum := numbers_map_if ((Series.daySpan temp.index).filter fun d => monthOf (midnight d) == m') (· ∈ days)
      fun d => (first d : ℝ) - noon d
    have hperm : List.Perm ((((Series.daySpan temp.index).filter fun d => monthOf (midnight d) == m').filter fun d => decide (d ∈ days))) days := by
      refine (List.perm_ext_iff_of_nodup (List.Nodup.filter _ (List.Nodup.filter _ (daySpan_nodup _))) hnd).2 ?_
      intro d
      rw [List.mem_filter, List.mem_filter]
      constructor
      · rintro ⟨_, h⟩; simpa using h
      · intro h
        obtain ⟨h1, r, hr, h2, _⟩ := (hdays d).1 h
        refine ⟨⟨?_, by simpa [hmid] using h1⟩, by simpa using h⟩
        rw [← h2]
        exact mem_daySpan (List.mem_map_of_mem hr)
    have hnf : ∀ c ∈ ((Series.daySpan temp.index).filter fun d => monthOf (midnight d) == m').map
          (fun d => if d ∈ days then XF.fin ((first d : ℝ) - noon d) else .nan), c.NanOrFin := by
      intro c hc
      obtain ⟨d, _, rfl⟩ := List.mem_map.1 hc
      split <;> trivial
    constructor
    · rintro rfl
      apply meanSkip_nan
      intro c hc
      obtain ⟨d, _, rfl⟩ := List.mem_map.1 hc
      simp
    · intro hne
      have hp2 := hperm.map fun d => (first d : ℝ) - noon d
      rw [meanSkip_eq hnf, hnum, hp2.sum_eq, hp2.length_eq, List.length_map]
      rw [hnum]
      intro h
      have := hp2.length_eq
      rw [h, List.length_map] at this
      exact hne (List.length_eq_zero_iff.1 this.symm)

/-- solar noon is a number for every day and place, so the hypothesis of C53 can always be met -/
example (lon lat tz : ℝ) : ∃ noon : Int → ℝ, ∀ d, (sunTimesDoy (doyOf (at00 d)) lon lat tz).sunnoon = .fin (noon d) :=
  ⟨_, fun _ => rfl⟩

/-- C53: one day in January with the maximum at 13:00 -/
example (lon lat tz : ℝ) : ∃ noon, (1, .fin (13 - noon)) ∈
    getShiftByData (hourlyS 0 1 fun _ h => (if h = 13 then .fin 5 else .fin 0 : XF ℝ)) lon lat tz := by
  have hs : ∀ r ∈ hourlyS 0 1 fun _ h => (if h = 13 then .fin 5 else .fin 0 : XF ℝ), r.2.NanOrFin := by
    intro r hr
    obtain ⟨k, _, rfl⟩ := List.mem_map.1 hr
    dsimp only
    split <;> trivial
  obtain ⟨noon, hnoon⟩ : ∃ noon : Int → ℝ, ∀ d, (sunTimesDoy (doyOf (at00 d)) lon lat tz).sunnoon = .fin (noon d) := ⟨_, fun _ => rfl⟩
  obtain ⟨_, h2, h3⟩ := C53_shift _ hs lon lat tz noon hnoon
  have hday : ∀ k : Nat, k < 24 → atHour (0 + (k / 24 : Nat)) (k % 24) / 86400000000 = 0 := by decide
  have hrow : ∀ r ∈ hourlyS 0 1 fun _ h => (if h = 13 then .fin 5 else .fin 0 : XF ℝ), r.1 / 86400000000 = 0 := by
    intro r hr
    obtain ⟨k, hk, rfl⟩ := List.mem_map.1 hr
    exact hday k (by simpa using hk)
  have h13 : (atHour 0 13, .fin 5) ∈ hourlyS 0 1 fun _ h => (if h = 13 then .fin 5 else .fin 0 : XF ℝ) :=
    List.mem_map.2 ⟨13, by simp, rfl⟩
  obtain ⟨⟨m, x⟩, hx, rfl⟩ := List.mem_map.1 ((h2 1).2 ⟨0, by decide, ⟨atHour 0 13, List.mem_map.2 ⟨_, h13, rfl⟩, by decide⟩,
    ⟨atHour 0 13, List.mem_map.2 ⟨_, h13, rfl⟩, by decide⟩⟩)
  refine ⟨noon 0, ?_⟩
  have := (h3 _ x hx [0] (fun _ => 13) (by simp) ?_ ?_).2 (by simp)
  · rw [this] at hx
    simpa using hx
  · intro d
    constructor
    · intro hd
      rw [List.mem_singleton.1 hd]
      exact ⟨by decide, _, h13, by decide, by simp⟩
    · rintro ⟨_, r, hr, rfl, _⟩
      rw [hrow r hr]; simp
  · intro d hd
    rw [List.mem_singleton.1 hd]
    have hf : ((hourlyS 0 1 fun _ h => (if h = 13 then .fin 5 else .fin 0 : XF ℝ)).filter fun r => decide (r.1 / 86400000000 = 0)) =
        hourlyS 0 1 fun _ h => (if h = 13 then .fin 5 else .fin 0 : XF ℝ) := by
      rw [List.filter_eq_self]
      intro r hr
      simpa using hrow r hr
    refine ⟨(List.range 13).map fun k : Nat => (atHour 0 k, .fin 0), (atHour 0 13, .fin 5),
      (List.range 10).map fun k : Nat => (atHour 0 (14 + k), .fin 0), 5, ?_, by decide, rfl, ?_, ?_⟩
    · rw [hf]
      simp [hourlyS, List.range, List.range.loop]
    · intro y hy
      rw [mem_numbers_iff] at hy
      obtain ⟨q, hq, e⟩ := List.mem_map.1 hy
      obtain ⟨k, _, rfl⟩ := List.mem_map.1 hq
      cases e; norm_num
    · intro y hy
      rw [mem_numbers_iff] at hy
      obtain ⟨q, hq, e⟩ := List.mem_map.1 hy
      obtain ⟨k, _, rfl⟩ := List.mem_map.1 hq
      cases e; norm_num

end

end Melodist
