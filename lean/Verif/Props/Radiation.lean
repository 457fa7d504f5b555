import Verif.Lemmas.Radiation
import Verif.Props.HumidityStats

/-!
# C54-C57, C81: radiation, disaggregation with a potential or a mean course
-/

set_option linter.unusedSectionVars false

namespace Melodist
open Spec

noncomputable section

variable {daily : Frame ℝ} {d0 d1 : Int} {n m : Nat}

/-! ## inversion -/

/-- every successful call ends in `radiationCore` -/
theorem radiation_inv {api : PandasApi} {sun : Option (Series SunTimes)} {pot : Option (Series (XF ℝ))} {method : String}
    {angstr bristcamp : ParPair ℝ} {course : Option (MeanCourse ℝ)} {out : Series (XF ℝ)}
    (h : disaggregateRadiation api daily sun pot method angstr bristcamp course = .ok out) :
    (method = "mean_course" ∧ ∃ c index vals g, course = some c ∧ hourlyIndex api daily.index = .ok index ∧
      (index.mapM fun t => c.lookup (monthOf t) (hourOf t)) = .ok vals ∧ daily.attr "glob" = .ok g ∧ radiationCore (index.zip vals) g = .ok out) ∨
    ((method = "pot_rad" ∨ method = "pot_rad_via_ssd" ∨ method = "pot_rad_via_bc") ∧ ∃ p g, pot = some p ∧ radiationCore p g = .ok out) := by
  unfold disaggregateRadiation at h
  split at h
  · cases h
  · rename_i hm
    rw [not_not] at hm
    obtain ⟨index, hidx, h⟩ := py_bind_inv h
    by_cases hc : method = "mean_course"
    · left
      rw [if_pos hc] at h
      cases course with
      | none => cases h
      | some c =>
        dsimp only at h
        obtain ⟨vals, hv, h⟩ := py_bind_inv h
        obtain ⟨g, hg, h⟩ := py_bind_inv h
        exact ⟨hc, c, index, vals, g, rfl, hidx, hv, hg, h⟩
    · right
      rw [if_neg hc] at h
      cases pot with
      | none => cases h
      | some p =>
        dsimp only at h
        refine ⟨by tauto, p, ?_⟩
        split at h
        · obtain ⟨g, hg, h⟩ := py_bind_inv h
          exact ⟨g, rfl, h⟩
        · split at h
          · obtain ⟨g, hg, h⟩ := py_bind_inv h
            exact ⟨g, rfl, h⟩
          · obtain ⟨_, _, h⟩ := py_bind_inv h
            obtain ⟨_, _, h⟩ := py_bind_inv h
            obtain ⟨g, hg, h⟩ := py_bind_inv h
            exact ⟨g, rfl, h⟩

theorem core_shape {pot g out : Series (XF ℝ)} (h : radiationCore pot g = .ok out) :
    out.index = pot.index ∧ ∀ r ∈ out, r.2 = .nan ∨ r.2 = .fin 0 ∨ (∃ x, 0.01 ≤ x ∧ r.2 = .fin x) ∨ r.2 = .pinf := by
  unfold radiationCore at h
  obtain ⟨g', hg, h⟩ := py_bind_inv h
  obtain ⟨p', hp, h⟩ := py_bind_inv h
  have len : ∀ {s s' : Series (XF ℝ)}, s.reindexFfill pot.index = .ok s' → s'.values.length = pot.length := by
    intro s s' h
    unfold Series.reindexFfill at h
    split at h
    · cases h; simp [Series.values, Series.index]
    · cases h
  have l1 := len hg
  have l2 := len hp
  cases h
  constructor
  · unfold Series.index
    rw [List.map_map]
    have : pot = (pot.zip (p'.values.zip g'.values)).map Prod.fst := by
      rw [List.map_fst_zip]
      rw [List.length_zip, l1, l2]; simp
    conv_rhs => rw [this]
    rw [List.map_map]
    rfl
  · intro r hr
    obtain ⟨q, _, rfl⟩ := List.mem_map.1 hr
    dsimp only
    split
    · exact .inr (.inl rfl)
    · rename_i hlt
      cases hv : q.1.2 / q.2.1 * q.2.2 with
      | nan => exact .inl rfl
      | fin x =>
        rw [hv] at hlt
        simp only [XF.lt_fin, not_lt] at hlt
        exact .inr (.inr (.inl ⟨x, hlt, rfl⟩))
      | ninf => rw [hv] at hlt; exact absurd trivial hlt
      | pinf => exact .inr (.inr (.inr rfl))

/-- with a potential covering whole days -/
theorem core_cells {p : Nat → Nat → XF ℝ} {g out : Series (XF ℝ)} (h : radiationCore (hourlyS d1 m p) g = .ok out) :
    ∃ gv : Nat → Nat → XF ℝ, (∀ j h, ∃ a, (gv j h = .nan ∨ gv j h = a ∧ a ∈ g.values)) ∧
      out = hourlyS d1 m fun j h => radCell (p j h) (meanSkip (day24 (p j))) (gv j h) := by
  unfold radiationCore at h
  obtain ⟨g', hg, h⟩ := py_bind_inv h
  rw [resampleD_hourlyS, reindexFfill_daily_hourly, py_ok_bind] at h
  unfold Series.reindexFfill at hg
  split at hg
  · cases hg
    cases h
    refine ⟨fun j h => match g.asof? (atHour (d1 + (j : Nat)) h) with
      | none => .nan
      | some (_, v) => v, ?_, ?_⟩
    · intro j h
      dsimp only
      cases ha : g.asof? (atHour (d1 + (j : Nat)) h) with
      | none => exact ⟨.nan, .inl rfl⟩
      | some r =>
        refine ⟨r.2, .inr ⟨rfl, ?_⟩⟩
        unfold Series.asof? at ha
        exact List.mem_map.2 ⟨r, (List.mem_filter.1 (List.mem_of_getLast? ha)).1, rfl⟩
    · rw [hourlyS_index_atHour, hourlyS_values]
      unfold Series.values
      rw [List.map_map, List.map_map, List.zip_eq_zipWith, List.zip_eq_zipWith, List.zipWith_map, List.zipWith_self]
      conv_lhs => rw [hourlyS]
      rw [List.zipWith_map, List.zipWith_self, List.map_map]
      unfold hourlyS
      apply List.map_congr_left
      intro k _
      simp only [Function.comp_def]
      unfold radCell
      cases g.asof? (atHour (d1 + ((k / 24 : Nat) : Int)) (k % 24)) <;> rfl
  · cases hg

/-! ## C54 -/

/-- **C54.**  Every value a successful call of `disaggregate_radiation` returns, for every method and all data, is missing, 0, or at least
0.01 (possibly +inf); never negative and never strictly between 0 and 0.01. -/
theorem C54_zero_or_at_least (api : PandasApi) (daily : Frame ℝ) (sun : Option (Series SunTimes)) (pot : Option (Series (XF ℝ))) (method : String)
    (angstr bristcamp : ParPair ℝ) (course : Option (MeanCourse ℝ)) (out : Series (XF ℝ))
    (h : disaggregateRadiation api daily sun pot method angstr bristcamp course = .ok out) :
    ∀ r ∈ out, r.2 = .nan ∨ r.2 = .fin 0 ∨ (∃ x, 0.01 ≤ x ∧ r.2 = .fin x) ∨ r.2 = .pinf := by
  rcases radiation_inv h with ⟨_, _, _, _, _, _, _, _, _, h⟩ | ⟨_, _, _, _, h⟩
  · exact (core_shape h).2
  · exact (core_shape h).2

/-- numbers and missing values in, mean of non-negative numbers -/
theorem mean_nonneg_cases {l : List (XF ℝ)} (hl : ∀ c ∈ l, c = .nan ∨ ∃ x, 0 ≤ x ∧ c = .fin x) {x : ℝ} (hx : .fin x ∈ l) :
    ∃ y, meanSkip l = .fin y ∧ (0 < x → 0 < y) ∧ (y = 0 → x = 0) := by
  have hnf : ∀ c ∈ l, c.NanOrFin := by
    intro c hc
    rcases hl c hc with rfl | ⟨x, _, rfl⟩ <;> trivial
  have hxm : x ∈ numbers l := List.mem_filterMap.2 ⟨_, hx, rfl⟩
  have hne : numbers l ≠ [] := List.ne_nil_of_mem hxm
  have hnn : ∀ y ∈ numbers l, 0 ≤ y := by
    intro y hy
    obtain ⟨c, hc, e⟩ := List.mem_filterMap.1 hy
    rcases hl c hc with rfl | ⟨z, hz, rfl⟩
    · cases e
    · cases e; exact hz
  have hlen : 0 < ((numbers l).length : ℝ) := by
    have : 0 < (numbers l).length := List.length_pos_iff.2 hne
    exact_mod_cast this
  have hle : x ≤ (numbers l).sum := List.single_le_sum hnn x hxm
  refine ⟨_, meanSkip_eq hnf hne, ?_, ?_⟩
  · intro h
    exact div_pos (by linarith) hlen
  · intro h
    have := (div_eq_zero_iff.1 h).resolve_right hlen.ne'
    have := hnn x hxm
    linarith

/-- **C54 (finite).**  With a potential radiation (covering whole days) of non-negative numbers and missing values, and daily values without
infinities, the output of 'pot_rad' has no infinite value: every value is missing, 0, or a number of at least 0.01. -/
theorem C54_finite (api : PandasApi) (daily : Frame ℝ) (sun : Option (Series SunTimes)) (p : Nat → Nat → XF ℝ)
    (angstr bristcamp : ParPair ℝ) (course : Option (MeanCourse ℝ)) (out : Series (XF ℝ)) (g : Series (XF ℝ))
    (hp : ∀ j < m, ∀ h < 24, p j h = .nan ∨ ∃ x, 0 ≤ x ∧ p j h = .fin x) (hg : daily.col? "glob" = some g) (hfin : ∀ r ∈ g, r.2.NanOrFin)
    (h : disaggregateRadiation api daily sun (some (hourlyS d1 m p)) "pot_rad" angstr bristcamp course = .ok out) :
    ∀ r ∈ out, r.2 = .nan ∨ r.2 = .fin 0 ∨ (∃ x, 0.01 ≤ x ∧ r.2 = .fin x) := by
  have h' := C54_zero_or_at_least api daily sun _ _ angstr bristcamp course out h
  unfold disaggregateRadiation at h
  rw [if_neg (by simp)] at h
  obtain ⟨index, _, h⟩ := py_bind_inv h
  rw [if_neg (by decide)] at h
  dsimp only at h
  rw [if_pos rfl, attr_ok hg, py_ok_bind] at h
  obtain ⟨gv, hgv, rfl⟩ := core_cells h
  intro r hr
  rcases h' r hr with h1 | h1 | h1 | h1
  · exact .inl h1
  · exact .inr (.inl h1)
  · exact .inr (.inr h1)
  · exfalso
    obtain ⟨k, hk, rfl⟩ := List.mem_map.1 hr
    have hk := List.mem_range.1 hk
    dsimp only at h1
    have hgk : (gv (k / 24) (k % 24)).NanOrFin := by
      obtain ⟨a, h | ⟨h, ha⟩⟩ := hgv (k / 24) (k % 24)
      · rw [h]; trivial
      · obtain ⟨r, hr, rfl⟩ := List.mem_map.1 ha
        rw [h]; exact hfin r hr
    unfold radCell at h1
    split at h1
    · cases h1
    · rcases hp (k / 24) (by omega) (k % 24) (by omega) with e | ⟨x, hx, e⟩
      · rw [e] at h1; simp at h1
      · have hl : ∀ c ∈ day24 (p (k / 24)), c = .nan ∨ ∃ x, 0 ≤ x ∧ c = .fin x := by
          intro c hc
          obtain ⟨h, hh, rfl⟩ := mem_day24.1 hc
          exact hp _ (by omega) h hh
        obtain ⟨y, hy, _, hy0⟩ := mean_nonneg_cases hl (x := x) (mem_day24.2 ⟨k % 24, by omega, e⟩)
        rw [e, hy] at h1
        by_cases h0 : y = 0
        · rw [hy0 h0, h0, XF.zero_div_zero] at h1
          simp at h1
        · rw [XF.fin_div_fin_of_ne _ h0] at h1
          cases hgc : gv (k / 24) (k % 24) with
          | nan => rw [hgc] at h1; simp at h1
          | fin z => rw [hgc] at h1; simp at h1
          | ninf => rw [hgc] at hgk; exact hgk
          | pinf => rw [hgc] at hgk; exact hgk

/-! ## C55 -/

/-- one day with potential `q` and daily value `g` -/
theorem rad_day_mean {q : Nat → ℝ} {g : ℝ} (hq : ∀ h < 24, 0 ≤ q h) (hpos : 0 < (day24 q).sum) (hg : 0 ≤ g) :
    (∃ x, MeanIs (day24 fun h => radCell (.fin (q h)) (.fin ((day24 q).sum / 24)) (.fin g)) x ∧ g - 0.01 < x ∧ x ≤ g) ∧
    ((∀ h < 24, q h = 0 ∨ 0.01 ≤ q h / ((day24 q).sum / 24) * g) →
      MeanIs (day24 fun h => radCell (.fin (q h)) (.fin ((day24 q).sum / 24)) (.fin g)) g) := by
  have hμ : 0 < (day24 q).sum / 24 := by positivity
  let μ := (day24 q).sum / 24
  let y : Nat → ℝ := fun h => q h / μ * g
  let c : Nat → ℝ := fun h => if y h < 0.01 then 0 else y h
  have e : (day24 fun h => radCell (.fin (q h)) (.fin ((day24 q).sum / 24)) (.fin g)) = (day24 c).map XF.fin := by
    rw [day24_map]
    apply day24_congr
    intro h _
    unfold radCell
    rw [XF.fin_div_fin_of_ne _ hμ.ne', XF.fin_mul_fin]
    simp only [XF.lt_fin]
    show _ = XF.fin (if y h < 0.01 then 0 else y h)
    split <;> rfl
  have hsy : (day24 y).sum = 24 * g := by
    have : (day24 y).sum = (day24 fun h => (g / μ) * q h).sum := by
      congr 1; apply day24_congr; intro h _
      show q h / μ * g = g / μ * q h
      ring
    rw [this, sum_day24_mul]
    show g / ((day24 q).sum / 24) * (day24 q).sum = 24 * g
    field_simp
  rw [e]
  constructor
  · refine ⟨(day24 c).sum / 24, ⟨_, rfl, by simp [day24], by rw [day24_length]; norm_num⟩, ?_, ?_⟩
    · have h1 : (day24 y).sum < (day24 c).sum + 24 * 0.01 := by
        have : (day24 y).sum < (day24 fun h => c h + 0.01).sum := by
          unfold day24
          apply List.sum_lt_sum
          · intro h hh
            show y h ≤ (if y h < 0.01 then 0 else y h) + 0.01
            split <;> linarith
          · refine ⟨0, by simp, ?_⟩
            show y 0 < (if y 0 < 0.01 then 0 else y 0) + 0.01
            split <;> linarith
        rw [sum_day24_add, sum_day24_const] at this
        push_cast at this
        linarith
      rw [hsy] at h1
      rw [lt_div_iff₀ (by norm_num)]
      linarith
    · have h1 : (day24 c).sum ≤ (day24 y).sum := by
        unfold day24
        apply List.sum_le_sum
        intro h hh
        have hh := List.mem_range.1 hh
        show (if y h < 0.01 then 0 else y h) ≤ y h
        split
        · exact mul_nonneg (div_nonneg (hq h hh) hμ.le) hg
        · exact le_rfl
      rw [hsy] at h1
      rw [div_le_iff₀ (by norm_num)]
      linarith
  · intro hall
    have hc : day24 c = day24 y := by
      apply day24_congr
      intro h hh
      show (if y h < 0.01 then 0 else y h) = y h
      rcases hall h hh with h0 | h0
      · have : y h = 0 := by show q h / μ * g = 0; rw [h0]; ring
        rw [this]; simp
      · rw [if_neg (not_lt.2 h0)]
    refine ⟨_, rfl, by simp [day24], ?_⟩
    rw [hc, hsy, day24_length]
    push_cast
    ring

theorem meanSkip_day24 {p : Nat → XF ℝ} {q : Nat → ℝ} (h : ∀ h < 24, p h = .fin (q h)) : meanSkip (day24 p) = .fin ((day24 q).sum / 24) := by
  have e : day24 p = (day24 q).map XF.fin := by
    rw [day24_map]; exact day24_congr h
  rw [e, meanSkip_eq (nanOrFin_map_fin _), numbers_map_fin, day24_length]
  · norm_num
  · rw [numbers_map_fin]; simp [day24]

/-- 'pot_rad' as a formula -/
theorem potRad_eq (api : PandasApi) (hi : daily.index = (List.range n).map fun i : Nat => at00 (d0 + i)) (hn : 0 < n) {v : Nat → XF ℝ}
    (hg : daily.col? "glob" = some (dailyS d0 n v)) (sun : Option (Series SunTimes)) (p : Nat → Nat → XF ℝ) (angstr bristcamp : ParPair ℝ)
    (course : Option (MeanCourse ℝ)) :
    disaggregateRadiation api daily sun (some (hourlyS d1 m p)) "pot_rad" angstr bristcamp course =
      .ok (hourlyS d1 m fun j h => radCell (p j h) (meanSkip (day24 (p j))) (lastValue d0 n v (d1 + j))) := by
  unfold disaggregateRadiation
  rw [if_neg (by simp), temp_hourly_index api hi hn, py_ok_bind, if_neg (by decide)]
  dsimp only
  rw [if_pos rfl, attr_ok hg, py_ok_bind, radiationCore_eq d0 hn]

/-- 'mean_course' as a formula -/
theorem meanCourseRad_eq (api : PandasApi) (hi : daily.index = (List.range n).map fun i : Nat => at00 (d0 + i)) (hn : 0 < n) {v : Nat → XF ℝ}
    (hg : daily.col? "glob" = some (dailyS d0 n v)) (sun : Option (Series SunTimes)) (pot : Option (Series (XF ℝ))) (angstr bristcamp : ParPair ℝ)
    {c : MeanCourse ℝ} (hc : ∀ i < n, monthOf (at00 (d0 + (i : Nat))) ∈ c.months) (hh : ∀ h : Nat, h < 24 → (h : Int) ∈ c.hours) :
    disaggregateRadiation api daily sun pot "mean_course" angstr bristcamp (some c) =
      .ok (hourlyS d0 n fun i h => radCell (c.val (monthOf (at00 (d0 + i))) h) (meanSkip (day24 fun h : Nat => c.val (monthOf (at00 (d0 + i))) h)) (v i)) := by
  unfold disaggregateRadiation
  rw [if_neg (by simp), temp_hourly_index api hi hn, py_ok_bind, if_pos rfl]
  dsimp only
  rw [mapM_lookup_ok hc hh, py_ok_bind, attr_ok hg, py_ok_bind,
    zip_hourly (fun _ _ => (XF.nan : XF ℝ)) (fun i h => c.val (monthOf (at00 (d0 + (i : Nat)))) (h : Nat)) d0 n, radiationCore_eq d0 hn]
  congr 1
  apply hourlyS_congr
  intro i hi' h _
  rw [lastValue_self hi']

/-- **C55 (pot_rad).**  Daily values on the `n` days from `d0` on, potential radiation on the `m` days from `d1` on: the call succeeds; on every
common day with non-negative potential that is not 0 all day and a daily value g ≥ 0, the mean of the 24 values is at most g and more than
g - 0.01; it is exactly g if no hour with positive potential has a share below 0.01. -/
theorem C55_daily_mean (api : PandasApi) (hi : daily.index = (List.range n).map fun i : Nat => at00 (d0 + i)) (hn : 0 < n) (v : Nat → XF ℝ)
    (hg : daily.col? "glob" = some (dailyS d0 n v)) (sun : Option (Series SunTimes)) (p : Nat → Nat → XF ℝ) (angstr bristcamp : ParPair ℝ)
    (course : Option (MeanCourse ℝ)) :
    ∃ out, disaggregateRadiation api daily sun (some (hourlyS d1 m p)) "pot_rad" angstr bristcamp course = .ok out ∧
      ∀ i < n, ∀ j < m, d0 + (i : Int) = d1 + (j : Int) → ∀ (q : Nat → ℝ) (g : ℝ), (∀ h < 24, p j h = .fin (q h)) → (∀ h < 24, 0 ≤ q h) →
        0 < (day24 q).sum → v i = .fin g → 0 ≤ g →
        (∃ x, MeanIs (dayCells out (d0 + i)) x ∧ g - 0.01 < x ∧ x ≤ g) ∧
        ((∀ h < 24, q h = 0 ∨ 0.01 ≤ q h / ((day24 q).sum / 24) * g) → MeanIs (dayCells out (d0 + i)) g) := by
  refine ⟨_, potRad_eq api hi hn hg sun p angstr bristcamp course, ?_⟩
  intro i hi' j hj hij q g hq hq0 hpos hv hg0
  rw [hij, dayCells_hourlyS d1 _ hj, ← hij, lastValue_self hi', hv, meanSkip_day24 hq]
  have e : (day24 fun h => radCell (p j h) (.fin ((day24 q).sum / 24)) (.fin g)) =
      day24 fun h => radCell (.fin (q h)) (.fin ((day24 q).sum / 24)) (.fin g) := by
    apply day24_congr; intro h hh; rw [hq h hh]
  rw [e]
  exact rad_day_mean hq0 hpos hg0

/-- **C55 (mean_course).**  The same for a mean course that covers the days. -/
theorem C55_mean_course (api : PandasApi) (hi : daily.index = (List.range n).map fun i : Nat => at00 (d0 + i)) (hn : 0 < n) (v : Nat → XF ℝ)
    (hg : daily.col? "glob" = some (dailyS d0 n v)) (sun : Option (Series SunTimes)) (pot : Option (Series (XF ℝ))) (angstr bristcamp : ParPair ℝ)
    (c : MeanCourse ℝ) (hc : ∀ i : Nat, i < n → monthOf (at00 (d0 + i)) ∈ c.months) (hh : ∀ h : Nat, h < 24 → (h : Int) ∈ c.hours) :
    ∃ out, disaggregateRadiation api daily sun pot "mean_course" angstr bristcamp (some c) = .ok out ∧
      ∀ i < n, ∀ (q : Nat → ℝ) (g : ℝ), (∀ h < 24, c.val (monthOf (at00 (d0 + (i : Nat)))) (h : Nat) = .fin (q h)) → (∀ h < 24, 0 ≤ q h) →
        0 < (day24 q).sum → v i = .fin g → 0 ≤ g →
        (∃ x, MeanIs (dayCells out (d0 + i)) x ∧ g - 0.01 < x ∧ x ≤ g) ∧
        ((∀ h < 24, q h = 0 ∨ 0.01 ≤ q h / ((day24 q).sum / 24) * g) → MeanIs (dayCells out (d0 + i)) g) := by
  refine ⟨_, meanCourseRad_eq api hi hn hg sun pot angstr bristcamp hc hh, ?_⟩
  intro i hi' q g hq hq0 hpos hv hg0
  rw [dayCells_hourlyS d0 _ hi', hv, meanSkip_day24 hq]
  have e : (day24 fun h : Nat => radCell (c.val (monthOf (at00 (d0 + i))) h) (.fin ((day24 q).sum / 24)) (.fin g)) =
      day24 fun h => radCell (.fin (q h)) (.fin ((day24 q).sum / 24)) (.fin g) := by
    apply day24_congr; intro h hh; rw [hq h hh]
  rw [e]
  exact rad_day_mean hq0 hpos hg0

/-! ## C56, C57 -/

theorem radCell_fin {x μ g : ℝ} (hμ : 0 < μ) : radCell (.fin x) (.fin μ) (.fin g) = .fin (if x / μ * g < 0.01 then 0 else x / μ * g) := by
  unfold radCell
  rw [XF.fin_div_fin_of_ne _ hμ.ne', XF.fin_mul_fin]
  simp only [XF.lt_fin]
  split <;> rfl

/-- **C56.**  'pot_rad', on a common day with non-negative potential that is not 0 all day and a daily value g that is a number: every hour gets
g·(potential of the hour)/(mean potential of the day), with values below 0.01 set to 0; so hours without
potential get 0; hours with equal potential get equal values; and if g ≥ 0, hours with more potential get no less. -/
theorem C56_follows_potential (api : PandasApi) (hi : daily.index = (List.range n).map fun i : Nat => at00 (d0 + i)) (hn : 0 < n) (v : Nat → XF ℝ)
    (hg : daily.col? "glob" = some (dailyS d0 n v)) (sun : Option (Series SunTimes)) (p : Nat → Nat → XF ℝ) (angstr bristcamp : ParPair ℝ)
    (course : Option (MeanCourse ℝ)) :
    ∃ out, disaggregateRadiation api daily sun (some (hourlyS d1 m p)) "pot_rad" angstr bristcamp course = .ok out ∧
      ∀ i < n, ∀ j < m, d0 + (i : Int) = d1 + (j : Int) → ∀ (q : Nat → ℝ) (g : ℝ), (∀ h < 24, p j h = .fin (q h)) → 0 < (day24 q).sum → v i = .fin g →
        ∃ y : Nat → ℝ, (∀ h < 24, (dayCells out (d0 + i))[h]? = some (.fin (y h))) ∧
          (∀ h < 24, y h = if g * q h / ((day24 q).sum / 24) < 0.01 then 0 else g * q h / ((day24 q).sum / 24)) ∧
          (∀ h < 24, q h = 0 → y h = 0) ∧ (∀ h < 24, ∀ h' < 24, q h = q h' → y h = y h') ∧
          (0 ≤ g → ∀ h < 24, ∀ h' < 24, q h ≤ q h' → y h ≤ y h') := by
  refine ⟨_, potRad_eq api hi hn hg sun p angstr bristcamp course, ?_⟩
  intro i hi' j hj hij q g hq hpos hv
  have hμ : 0 < (day24 q).sum / 24 := by positivity
  refine ⟨fun h => if q h / ((day24 q).sum / 24) * g < 0.01 then 0 else q h / ((day24 q).sum / 24) * g, ?_, ?_, ?_, ?_, ?_⟩
  · intro h hh
    rw [hij, dayCells_hourlyS d1 _ hj, ← hij, lastValue_self hi', hv, meanSkip_day24 hq, day24_getElem? _ hh, hq h hh, radCell_fin hμ]
  · intro h _
    dsimp only
    rw [show q h / ((day24 q).sum / 24) * g = g * q h / ((day24 q).sum / 24) by ring]
  · intro h _ h0
    dsimp only
    rw [h0]; simp
  · intro h _ h' _ e
    dsimp only
    rw [e]
  · intro hg0 h _ h' _ hle
    have : q h / ((day24 q).sum / 24) * g ≤ q h' / ((day24 q).sum / 24) * g :=
      mul_le_mul_of_nonneg_right (div_le_div_of_nonneg_right hle hμ.le) hg0
    dsimp only
    split
    · split
      · exact le_rfl
      · linarith
    · split
      · linarith
      · exact this

/-- **C57.**  On a day whose potential radiation is 0 in every hour, all 24 values of the output of 'pot_rad', 'pot_rad_via_ssd' and
'pot_rad_via_bc' are missing, whatever the daily data and parameters. -/
theorem C57_polar_night (api : PandasApi) (daily : Frame ℝ) (sun : Option (Series SunTimes)) (p : Nat → Nat → XF ℝ) (method : String)
    (angstr bristcamp : ParPair ℝ) (course : Option (MeanCourse ℝ)) (out : Series (XF ℝ))
    (hm : method = "pot_rad" ∨ method = "pot_rad_via_ssd" ∨ method = "pot_rad_via_bc")
    (h : disaggregateRadiation api daily sun (some (hourlyS d1 m p)) method angstr bristcamp course = .ok out) (j : Nat) (hj : j < m)
    (hp : ∀ h < 24, p j h = .fin 0) : dayCells out (d1 + j) = List.replicate 24 .nan := by
  rcases radiation_inv h with ⟨hmc, _⟩ | ⟨_, p', g, e, h⟩
  · exfalso; rcases hm with rfl | rfl | rfl <;> exact absurd hmc (by decide)
  · cases e
    obtain ⟨gv, _, rfl⟩ := core_cells h
    rw [dayCells_hourlyS d1 _ hj, meanSkip_day24 (q := fun _ => 0) hp]
    have e : (day24 fun h => radCell (p j h) (.fin ((day24 fun _ => (0 : ℝ)).sum / 24)) (gv j h)) = day24 fun _ => (XF.nan : XF ℝ) := by
      apply day24_congr
      intro h hh
      rw [hp h hh, sum_day24_const]
      unfold radCell
      rw [mul_zero, zero_div, XF.zero_div_zero, XF.nan_mul]
      exact if_neg id
    rw [e]
    rfl

/-- **C57 (mean_course).**  The same for a month in which the mean course is 0 in every hour. -/
theorem C57_mean_course (api : PandasApi) (hi : daily.index = (List.range n).map fun i : Nat => at00 (d0 + i)) (hn : 0 < n) (v : Nat → XF ℝ)
    (hg : daily.col? "glob" = some (dailyS d0 n v)) (sun : Option (Series SunTimes)) (pot : Option (Series (XF ℝ))) (angstr bristcamp : ParPair ℝ)
    (c : MeanCourse ℝ) (hc : ∀ i : Nat, i < n → monthOf (at00 (d0 + i)) ∈ c.months) (hh : ∀ h : Nat, h < 24 → (h : Int) ∈ c.hours) :
    ∃ out, disaggregateRadiation api daily sun pot "mean_course" angstr bristcamp (some c) = .ok out ∧
      ∀ i < n, (∀ h < 24, c.val (monthOf (at00 (d0 + (i : Nat)))) (h : Nat) = .fin 0) → dayCells out (d0 + i) = List.replicate 24 .nan := by
  refine ⟨_, meanCourseRad_eq api hi hn hg sun pot angstr bristcamp hc hh, ?_⟩
  intro i hi' hz
  rw [dayCells_hourlyS d0 _ hi', meanSkip_day24 (q := fun _ => 0) hz]
  have e : (day24 fun h : Nat => radCell (c.val (monthOf (at00 (d0 + i))) h) (.fin ((day24 fun _ => (0 : ℝ)).sum / 24)) (v i)) =
      day24 fun _ => (XF.nan : XF ℝ) := by
    apply day24_congr
    intro h hh
    rw [hz h hh, sum_day24_const]
    unfold radCell
    rw [mul_zero, zero_div, XF.zero_div_zero, XF.nan_mul]
    exact if_neg id
  rw [e]
  rfl

/-! ## C81 -/

/-- **C81.**  The output of the methods that use a potential covers exactly the hours of the potential, not those of the daily data: for any data,
its index is the index of the potential.  For 'pot_rad' with whole days: hours before the first day are missing, and days after the last
daily value are computed with the last daily value. -/
theorem C81_output_index (api : PandasApi) (daily : Frame ℝ) (sun : Option (Series SunTimes)) (pot : Series (XF ℝ)) (method : String)
    (angstr bristcamp : ParPair ℝ) (course : Option (MeanCourse ℝ)) (out : Series (XF ℝ))
    (hm : method = "pot_rad" ∨ method = "pot_rad_via_ssd" ∨ method = "pot_rad_via_bc")
    (h : disaggregateRadiation api daily sun (some pot) method angstr bristcamp course = .ok out) : out.index = pot.index := by
  rcases radiation_inv h with ⟨hmc, _⟩ | ⟨_, p', g, e, h⟩
  · exfalso; rcases hm with rfl | rfl | rfl <;> exact absurd hmc (by decide)
  · cases e
    exact (core_shape h).1

theorem C81_outside_days (api : PandasApi) (hi : daily.index = (List.range n).map fun i : Nat => at00 (d0 + i)) (hn : 0 < n) (v : Nat → XF ℝ)
    (hg : daily.col? "glob" = some (dailyS d0 n v)) (sun : Option (Series SunTimes)) (p : Nat → Nat → XF ℝ) (angstr bristcamp : ParPair ℝ)
    (course : Option (MeanCourse ℝ)) :
    ∃ out, disaggregateRadiation api daily sun (some (hourlyS d1 m p)) "pot_rad" angstr bristcamp course = .ok out ∧
      (∀ j < m, d1 + (j : Int) < d0 → dayCells out (d1 + j) = List.replicate 24 .nan) ∧
      ∀ j < m, d0 + (n : Int) ≤ d1 + (j : Int) → ∀ (q : Nat → ℝ) (g : ℝ), (∀ h < 24, p j h = .fin (q h)) → (∀ h < 24, 0 ≤ q h) →
        0 < (day24 q).sum → v (n - 1) = .fin g → 0 ≤ g → ∃ x, MeanIs (dayCells out (d1 + j)) x ∧ g - 0.01 < x ∧ x ≤ g := by
  refine ⟨_, potRad_eq api hi hn hg sun p angstr bristcamp course, ?_, ?_⟩
  · intro j hj hlt
    rw [dayCells_hourlyS d1 _ hj]
    have e : (day24 fun h => radCell (p j h) (meanSkip (day24 (p j))) (lastValue d0 n v (d1 + j))) = day24 fun _ => (XF.nan : XF ℝ) := by
      apply day24_congr
      intro h hh
      unfold lastValue radCell
      rw [if_pos hlt, XF.mul_nan]
      exact if_neg id
    rw [e]; rfl
  · intro j hj hle q g hq hq0 hpos hv hg0
    rw [dayCells_hourlyS d1 _ hj, meanSkip_day24 hq]
    have hl : lastValue d0 n v (d1 + j) = .fin g := by
      unfold lastValue
      rw [if_neg (by omega), ← hv]
      congr 1
      omega
    rw [hl]
    have e : (day24 fun h => radCell (p j h) (.fin ((day24 q).sum / 24)) (.fin g)) =
        day24 fun h => radCell (.fin (q h)) (.fin ((day24 q).sum / 24)) (.fin g) := by
      apply day24_congr; intro h hh; rw [hq h hh]
    rw [e]
    exact (rad_day_mean hq0 hpos hg0).1

/-! ## C82 -/

/-- **C82.**  An unknown method raises ValueError, whatever the other arguments.  With daily data on consecutive days, 'mean_course' without a mean course and the
other methods without potential radiation raise AssertionError, and 'pot_rad_via_ssd' without sun times AttributeError. -/
theorem C82_options (api : PandasApi) (daily : Frame ℝ) (sun : Option (Series SunTimes)) (pot : Option (Series (XF ℝ))) (method : String)
    (angstr bristcamp : ParPair ℝ) (course : Option (MeanCourse ℝ)) :
    (method ∉ ["pot_rad", "pot_rad_via_ssd", "pot_rad_via_bc", "mean_course"] →
      disaggregateRadiation api daily sun pot method angstr bristcamp course = .error .valueError) ∧
    (daily.index = ((List.range n).map fun i : Nat => at00 (d0 + i)) → 0 < n →
      disaggregateRadiation api daily sun pot "mean_course" angstr bristcamp none = .error .assertionError ∧
      (method ∈ ["pot_rad", "pot_rad_via_ssd", "pot_rad_via_bc"] →
        disaggregateRadiation api daily sun none method angstr bristcamp course = .error .assertionError) ∧
      (pot.isSome → disaggregateRadiation api daily none pot "pot_rad_via_ssd" angstr bristcamp course = .error .attributeError)) := by
  constructor
  · intro h
    unfold disaggregateRadiation
    rw [if_pos]
    simpa using h
  · intro hi hn
    refine ⟨?_, ?_, ?_⟩
    · unfold disaggregateRadiation
      rw [if_neg (by simp), temp_hourly_index api hi hn, py_ok_bind, if_pos rfl]
    · intro h
      have hm : method = "pot_rad" ∨ method = "pot_rad_via_ssd" ∨ method = "pot_rad_via_bc" := by simpa using h
      unfold disaggregateRadiation
      rw [if_neg (by tauto), temp_hourly_index api hi hn, py_ok_bind, if_neg]
      rintro rfl
      rcases hm with h | h | h <;> exact absurd h (by decide)
    · intro hp
      obtain ⟨p, rfl⟩ := Option.isSome_iff_exists.1 hp
      unfold disaggregateRadiation
      rw [if_neg (by simp), temp_hourly_index api hi hn, py_ok_bind, if_neg (by decide)]
      dsimp only
      rw [if_neg (by decide), if_pos rfl]
      rfl

/-- C82: a misspelt method -/
example : disaggregateRadiation .modern (⟨[], []⟩ : Frame ℝ) none none "potrad" = .error .valueError :=
  (C82_options (n := 0) (d0 := 0) .modern ⟨[], []⟩ none none "potrad" _ _ none).1 (by decide)

end

end Melodist
