import Verif.Lemmas.Stats
import Mathlib.Algebra.Order.BigOperators.Group.List

/-!
# C14: calculate_mean_daily_course_by_month
-/

set_option linter.unusedSectionVars false

namespace Melodist
open Spec

variable {K : Type} [Field K] [LinearOrder K] [IsStrictOrderedRing K]

namespace Spec
/-- the observations of one calendar month and one hour of the day (rows of all years), in row order -/
def obsOf (s : List (Int × XF K)) (m h : Int) : List (XF K) :=
  (s.filter fun r => decide (monthOf r.1 = m ∧ r.1 % 86400000000 / 3600000000 = h)).map Prod.snd
end Spec

theorem sum_le_length_mul (l : List K) (M : K) (h : ∀ y ∈ l, y ≤ M) : l.sum ≤ l.length * M := by
  induction l with
  | nil => simp
  | cons y l ih =>
    have h1 := h y (by simp)
    have h2 := ih fun z hz => h z (by simp [hz])
    rw [List.sum_cons, List.length_cons]
    push_cast
    linarith

theorem length_mul_le_sum (l : List K) (M : K) (h : ∀ y ∈ l, M ≤ y) : l.length * M ≤ l.sum := by
  induction l with
  | nil => simp
  | cons y l ih =>
    have h1 := h y (by simp)
    have h2 := ih fun z hz => h z (by simp [hz])
    rw [List.sum_cons, List.length_cons]
    push_cast
    linarith

theorem raw_val_eq (s : Series (XF K)) (m h : Int) :
    (meanDailyCourseByMonth s false).val m h = meanSkip (obsOf s m h) := by
  unfold meanDailyCourseByMonth obsOf
  simp only [Bool.false_eq_true, if_false]
  congr 2
  apply List.filter_congr
  intro r _
  unfold hourOf
  rw [Bool.decide_and]
  rfl

theorem obs_nanOrFin (s : Series (XF K)) (hs : ∀ r ∈ s, r.2.NanOrFin) (m h : Int) : ∀ c ∈ obsOf s m h, c.NanOrFin := by
  intro c hc
  obtain ⟨r, hr, rfl⟩ := List.mem_map.1 hc
  exact hs r (List.mem_filter.1 hr).1

/-- **C14 (raw).** The rows/columns of the table are the hours and months that occur; each entry is the arithmetic mean of the
non-missing observations of that month and hour (between their minimum and maximum), NaN if there is none. -/
theorem C14_mean_course (s : Series (XF K)) (hs : ∀ r ∈ s, r.2.NanOrFin) :
    (∀ h, h ∈ (meanDailyCourseByMonth s).hours ↔ ∃ r ∈ s, r.1 % 86400000000 / 3600000000 = h) ∧
    (∀ m, m ∈ (meanDailyCourseByMonth s).months ↔ (1 ≤ m ∧ m ≤ 12) ∧ ∃ r ∈ s, monthOf r.1 = m) ∧
    ∀ m h,
      (numbers (obsOf s m h) = [] → (meanDailyCourseByMonth s).val m h = .nan) ∧
      (numbers (obsOf s m h) ≠ [] → ∃ x, (meanDailyCourseByMonth s).val m h = .fin x ∧
        x * (numbers (obsOf s m h)).length = (numbers (obsOf s m h)).sum ∧
        (∃ a ∈ numbers (obsOf s m h), a ≤ x) ∧ (∃ b ∈ numbers (obsOf s m h), x ≤ b)) := by
  refine ⟨?_, ?_, ?_⟩
  · intro h
    unfold meanDailyCourseByMonth
    simp only [Bool.false_eq_true, if_false, List.mem_filter, List.mem_map, List.mem_range, List.any_eq_true, beq_iff_eq,
      hourOf]
    constructor
    · rintro ⟨_, h2⟩; exact h2
    · rintro ⟨r, hr, rfl⟩
      refine ⟨⟨(r.1 % 86400000000 / 3600000000).toNat, by omega, by omega⟩, r, hr, rfl⟩
  · intro m
    unfold meanDailyCourseByMonth
    simp only [Bool.false_eq_true, if_false, List.mem_filter, List.mem_map, List.mem_range, List.any_eq_true, beq_iff_eq]
    constructor
    · rintro ⟨⟨k, hk, rfl⟩, h2⟩; exact ⟨by omega, h2⟩
    · rintro ⟨h1, h2⟩
      exact ⟨⟨(m - 1).toNat, by omega, by omega⟩, h2⟩
  · intro m h
    rw [raw_val_eq]
    have hn := obs_nanOrFin s hs m h
    constructor
    · intro he
      unfold meanSkip
      rw [countValid_eq hn, he]; simp
    · intro hne
      refine ⟨_, meanSkip_eq hn hne, ?_, ?_, ?_⟩
      · have : ((numbers (obsOf s m h)).length : K) ≠ 0 := by simpa using hne
        field_simp
      · obtain ⟨a, _, hmem, hle⟩ := minSkip_eq hn hne
        refine ⟨a, hmem, ?_⟩
        have hl : (0 : K) < (numbers (obsOf s m h)).length := by
          have := List.length_pos_iff.2 hne; exact_mod_cast this
        rw [le_div_iff₀ hl]
        have := length_mul_le_sum _ a hle
        linarith
      · obtain ⟨a, _, hmem, hle⟩ := maxSkip_eq hn hne
        refine ⟨a, hmem, ?_⟩
        have hl : (0 : K) < (numbers (obsOf s m h)).length := by
          have := List.length_pos_iff.2 hne; exact_mod_cast this
        rw [div_le_iff₀ hl]
        have := sum_le_length_mul _ a hle
        linarith

theorem raw_nanOrFin (s : Series (XF K)) (hs : ∀ r ∈ s, r.2.NanOrFin) (m h : Int) :
    ((meanDailyCourseByMonth s).val m h).NanOrFin := by
  obtain ⟨_, _, h3⟩ := C14_mean_course s hs
  obtain ⟨h4, h5⟩ := h3 m h
  by_cases hn : numbers (obsOf s m h) = []
  · rw [h4 hn]; trivial
  · obtain ⟨x, hx, _⟩ := h5 hn
    rw [hx]; trivial

theorem mem_numbers {l : List (XF K)} {y : K} : y ∈ numbers l ↔ XF.fin y ∈ l := by
  unfold numbers
  rw [List.mem_filterMap]
  constructor
  · rintro ⟨c, hc, h⟩
    cases c <;> simp at h
    subst h; exact hc
  · intro h; exact ⟨_, h, rfl⟩

/-- the entries of the normalised table in terms of the raw one -/
theorem norm_val_eq (s : Series (XF K)) (m h : Int) :
    (meanDailyCourseByMonth s true).hours = (meanDailyCourseByMonth s).hours ∧
    (meanDailyCourseByMonth s true).months = (meanDailyCourseByMonth s).months ∧
    (meanDailyCourseByMonth s true).val m h =
      ((meanDailyCourseByMonth s).val m h - minSkip ((meanDailyCourseByMonth s).column m)) /
        (maxSkip ((meanDailyCourseByMonth s).column m) - minSkip ((meanDailyCourseByMonth s).column m)) :=
  ⟨rfl, rfl, rfl⟩

/-- **C14 (normalised).** If two hours of month `m` have different mean values, every entry of that month is missing (only where
the raw one is) or in [0,1], 0 and 1 are attained, and the order of the raw means is kept; if all its means are equal,
every entry of the month is NaN. -/
theorem C14_mean_course_normalized (s : Series (XF K)) (hs : ∀ r ∈ s, r.2.NanOrFin) (m : Int) :
    ((∃ h₁ ∈ (meanDailyCourseByMonth s).hours, ∃ h₂ ∈ (meanDailyCourseByMonth s).hours, ∃ a b : K,
        (meanDailyCourseByMonth s).val m h₁ = .fin a ∧ (meanDailyCourseByMonth s).val m h₂ = .fin b ∧ a ≠ b) →
      (∀ h ∈ (meanDailyCourseByMonth s).hours,
        ((meanDailyCourseByMonth s).val m h = .nan ∧ (meanDailyCourseByMonth s true).val m h = .nan) ∨
        ∃ y, (meanDailyCourseByMonth s true).val m h = .fin y ∧ 0 ≤ y ∧ y ≤ 1) ∧
      (∃ h ∈ (meanDailyCourseByMonth s).hours, (meanDailyCourseByMonth s true).val m h = .fin 0) ∧
      (∃ h ∈ (meanDailyCourseByMonth s).hours, (meanDailyCourseByMonth s true).val m h = .fin 1) ∧
      (∀ h ∈ (meanDailyCourseByMonth s).hours, ∀ h' ∈ (meanDailyCourseByMonth s).hours, ∀ x x' y y' : K,
        (meanDailyCourseByMonth s).val m h = .fin x → (meanDailyCourseByMonth s).val m h' = .fin x' →
        (meanDailyCourseByMonth s true).val m h = .fin y → (meanDailyCourseByMonth s true).val m h' = .fin y' →
        (x < x' ↔ y < y'))) ∧
    ((∀ h₁ ∈ (meanDailyCourseByMonth s).hours, ∀ h₂ ∈ (meanDailyCourseByMonth s).hours, ∀ a b : K,
        (meanDailyCourseByMonth s).val m h₁ = .fin a → (meanDailyCourseByMonth s).val m h₂ = .fin b → a = b) →
      ∀ h ∈ (meanDailyCourseByMonth s).hours, (meanDailyCourseByMonth s true).val m h = .nan) := by
  set raw := meanDailyCourseByMonth s with hraw
  set nrm := meanDailyCourseByMonth s true with hnrm
  have hval : ∀ h, nrm.val m h = (raw.val m h - minSkip (raw.column m)) / (maxSkip (raw.column m) - minSkip (raw.column m)) :=
    fun h => (norm_val_eq s m h).2.2
  have hcol : ∀ c ∈ raw.column m, c.NanOrFin := by
    intro c hc
    obtain ⟨h, _, rfl⟩ := List.mem_map.1 hc
    exact raw_nanOrFin s hs m h
  have hin : ∀ h ∈ raw.hours, ∀ x, raw.val m h = .fin x → x ∈ numbers (raw.column m) := by
    intro h hh x hx
    rw [mem_numbers, ← hx]
    exact List.mem_map.2 ⟨h, hh, rfl⟩
  constructor
  · rintro ⟨h₁, hh₁, h₂, hh₂, a, b, ha, hb, hab⟩
    have hne : numbers (raw.column m) ≠ [] := List.ne_nil_of_mem (hin h₁ hh₁ a ha)
    obtain ⟨mn, hmn, hmnm, hmnl⟩ := minSkip_eq hcol hne
    obtain ⟨mx, hmx, hmxm, hmxl⟩ := maxSkip_eq hcol hne
    have hlt : mn < mx := by
      have h1 := hmnl a (hin h₁ hh₁ a ha)
      have h2 := hmnl b (hin h₂ hh₂ b hb)
      have h3 := hmxl a (hin h₁ hh₁ a ha)
      have h4 := hmxl b (hin h₂ hh₂ b hb)
      rcases lt_or_gt_of_ne hab with h | h
      · exact lt_of_le_of_lt h1 (lt_of_lt_of_le h h4)
      · exact lt_of_le_of_lt h2 (lt_of_lt_of_le h h3)
    have hd : mx - mn ≠ 0 := sub_ne_zero.2 hlt.ne'
    have hd0 : 0 < mx - mn := sub_pos.2 hlt
    have hfin : ∀ h x, raw.val m h = .fin x → nrm.val m h = .fin ((x - mn) / (mx - mn)) := by
      intro h x hx
      rw [hval, hx, hmn, hmx]
      simp only [XF.fin_sub_fin]
      rw [XF.fin_div_fin_of_ne _ hd]
    refine ⟨?_, ?_, ?_, ?_⟩
    · intro h hh
      cases hv : raw.val m h with
      | nan => left; refine ⟨rfl, ?_⟩; rw [hval, hv]; simp
      | fin x =>
        right
        refine ⟨_, hfin h x hv, ?_, ?_⟩
        · exact div_nonneg (sub_nonneg.2 (hmnl x (hin h hh x hv))) hd0.le
        · rw [div_le_one hd0]
          have := hmxl x (hin h hh x hv)
          linarith
      | pinf => have := raw_nanOrFin s hs m h; rw [← hraw, hv] at this; exact absurd this (by simp)
      | ninf => have := raw_nanOrFin s hs m h; rw [← hraw, hv] at this; exact absurd this (by simp)
    · rw [mem_numbers] at hmnm
      obtain ⟨h, hh, hv⟩ := List.mem_map.1 hmnm
      refine ⟨h, hh, ?_⟩
      rw [hfin h mn hv]; simp
    · rw [mem_numbers] at hmxm
      obtain ⟨h, hh, hv⟩ := List.mem_map.1 hmxm
      refine ⟨h, hh, ?_⟩
      rw [hfin h mx hv, div_self hd]
    · intro h _ h' _ x x' y y' hx hx' hy hy'
      rw [hfin h x hx] at hy
      rw [hfin h' x' hx'] at hy'
      injection hy with hy
      injection hy' with hy'
      rw [← hy, ← hy', div_lt_div_iff_of_pos_right hd0]
      constructor <;> intro <;> linarith
  · intro hall h hh
    rw [hval]
    cases hv : raw.val m h with
    | nan => simp
    | fin x =>
      have hne : numbers (raw.column m) ≠ [] := List.ne_nil_of_mem (hin h hh x hv)
      obtain ⟨mn, hmn, hmnm, hmnl⟩ := minSkip_eq hcol hne
      obtain ⟨mx, hmx, hmxm, hmxl⟩ := maxSkip_eq hcol hne
      rw [mem_numbers] at hmnm hmxm
      obtain ⟨h1, hh1, hv1⟩ := List.mem_map.1 hmnm
      obtain ⟨h2, hh2, hv2⟩ := List.mem_map.1 hmxm
      have e1 := hall h hh h1 hh1 x mn hv hv1
      have e2 := hall h hh h2 hh2 x mx hv hv2
      rw [hmn, hmx, ← e1, ← e2]
      simp
    | pinf => have := raw_nanOrFin s hs m h; rw [← hraw, hv] at this; exact absurd this (by simp)
    | ninf => have := raw_nanOrFin s hs m h; rw [← hraw, hv] at this; exact absurd this (by simp)

/-- **C14 (scaling).**  The normalised table has the same hours and months as the raw one.  If `mn` and `mx` are the smallest and the largest hourly mean of
month `m` and they differ, a mean `x` becomes (x − mn)/(mx − mn). -/
theorem C14_scaling (s : Series (XF K)) (hs : ∀ r ∈ s, r.2.NanOrFin) :
    (meanDailyCourseByMonth s true).hours = (meanDailyCourseByMonth s).hours ∧
    (meanDailyCourseByMonth s true).months = (meanDailyCourseByMonth s).months ∧
    ∀ m (mn mx : K), mn ≠ mx →
      (∃ h ∈ (meanDailyCourseByMonth s).hours, (meanDailyCourseByMonth s).val m h = .fin mn) →
      (∃ h ∈ (meanDailyCourseByMonth s).hours, (meanDailyCourseByMonth s).val m h = .fin mx) →
      (∀ h ∈ (meanDailyCourseByMonth s).hours, ∀ x, (meanDailyCourseByMonth s).val m h = .fin x → mn ≤ x ∧ x ≤ mx) →
      ∀ h x, (meanDailyCourseByMonth s).val m h = .fin x → (meanDailyCourseByMonth s true).val m h = .fin ((x - mn) / (mx - mn)) := by
  refine ⟨rfl, rfl, ?_⟩
  rintro m mn mx hne ⟨h₁, hh₁, e₁⟩ ⟨h₂, hh₂, e₂⟩ hb h x hx
  set raw := meanDailyCourseByMonth s with hraw
  have hcol : ∀ c ∈ raw.column m, c.NanOrFin := by
    intro c hc
    obtain ⟨h, _, rfl⟩ := List.mem_map.1 hc
    exact raw_nanOrFin s hs m h
  have hin : ∀ h ∈ raw.hours, ∀ x, raw.val m h = .fin x → x ∈ numbers (raw.column m) := by
    intro h hh x hx
    rw [mem_numbers, ← hx]
    exact List.mem_map.2 ⟨h, hh, rfl⟩
  have hout : ∀ x ∈ numbers (raw.column m), mn ≤ x ∧ x ≤ mx := by
    intro x hx
    rw [mem_numbers] at hx
    obtain ⟨h, hh, hv⟩ := List.mem_map.1 hx
    exact hb h hh x hv
  have hn : numbers (raw.column m) ≠ [] := List.ne_nil_of_mem (hin h₁ hh₁ mn e₁)
  obtain ⟨a, ha, ham, hal⟩ := minSkip_eq hcol hn
  obtain ⟨b, hbe, hbm, hbl⟩ := maxSkip_eq hcol hn
  have e3 : a = mn := le_antisymm (hal mn (hin h₁ hh₁ mn e₁)) (hout a ham).1
  have e4 : b = mx := le_antisymm (hout b hbm).2 (hbl mx (hin h₂ hh₂ mx e₂))
  rw [(norm_val_eq s m h).2.2, ← hraw, hx, ha, hbe, e3, e4]
  simp only [XF.fin_sub_fin]
  rw [XF.fin_div_fin_of_ne _ (sub_ne_zero.2 hne.symm)]

/-- non-vacuity: four observations in January, two hours, means 2 and 8 (one observation missing) -/
def demoObs : Series (XF ℚ) :=
  [(atHour 0 6, .fin 1), (atHour 0 15, .fin 8), (atHour 1 6, .fin 3), (atHour 1 15, .nan)]

example : (meanDailyCourseByMonth demoObs).val 1 6 = .fin 2 ∧ (meanDailyCourseByMonth demoObs).val 1 15 = .fin 8 ∧
    (meanDailyCourseByMonth demoObs true).val 1 6 = .fin 0 ∧ (meanDailyCourseByMonth demoObs true).val 1 15 = .fin 1 := by
  decide +kernel

example : ∃ h ∈ (meanDailyCourseByMonth demoObs).hours, (meanDailyCourseByMonth demoObs true).val 1 h = .fin 1 :=
  ((C14_mean_course_normalized demoObs (by decide) 1).1
    ⟨6, by decide, 15, by decide, 2, 8, by decide +kernel, by decide +kernel, by decide⟩).2.2.1

/-- three hours with means 2, 5 and 8: the middle one becomes 1/2 -/
example : (meanDailyCourseByMonth (demoObs ++ [(atHour 0 12, .fin 5)]) true).val 1 12 = .fin (1 / 2) := by decide +kernel

end Melodist
