import Verif.Model.CourseRound
import Verif.Props.RoundingE
import Verif.Props.GradualB

/-!
# C133: the normalised mean course in floating-point arithmetic
-/

set_option linter.unusedSectionVars false

namespace Melodist
open Spec

section
variable {K : Type} [Field K] [LinearOrder K] [IsStrictOrderedRing K]

/-- **C133, model.**  Without rounding and with the exact mean it is the table of C14. -/
theorem C133_exact (s : Series (XF K)) (normalize : Bool) : meanDailyCourseByMonthR id meanSkip s normalize = meanDailyCourseByMonth s normalize := by
  have h : ∀ x : XF K, x.rnd id = x := fun x => by cases x <;> rfl
  unfold meanDailyCourseByMonthR meanDailyCourseByMonth
  simp only [h]

/-- a difference of floating-point numbers is rounded to 0 only if it is 0 -/
theorem gradual_sub_pos (G : GradualRounding K) {x y : K} (hx : G.fl x = x) (hy : G.fl y = y) (h : y < x) : 0 < G.fl (x - y) := by
  have h1 := (abs_le.1 (G.sub x y hx hy)).1
  have h2 : 0 < x - y := sub_pos.2 h
  rw [abs_of_pos h2] at h1
  have h3 := mul_lt_mul_of_pos_right G.u_lt_one h2
  linarith

/-- the entries of the normalised table -/
theorem normR_val (fl : K → K) (mean : List (XF K) → XF K) (s : Series (XF K)) (m h : Int) :
    (meanDailyCourseByMonthR fl mean s true).val m h =
      (((meanDailyCourseByMonthR fl mean s).val m h - minSkip ((meanDailyCourseByMonthR fl mean s).column m)).rnd fl /
        (maxSkip ((meanDailyCourseByMonthR fl mean s).column m) - minSkip ((meanDailyCourseByMonthR fl mean s).column m)).rnd fl).rnd fl := rfl

/-- the computed mean of observations (numbers or missing) is missing or a floating-point number -/
def Spec.MeansIn (fl : K → K) (mean : List (XF K) → XF K) : Prop :=
  ∀ l, (∀ c ∈ l, c.NanOrFin) → mean l = .nan ∨ ∃ x, mean l = .fin x ∧ fl x = x

theorem rawR_cases {fl : K → K} {mean : List (XF K) → XF K} (hm : MeansIn fl mean) (s : Series (XF K)) (hs : ∀ r ∈ s, r.2.NanOrFin) (m h : Int) :
    (meanDailyCourseByMonthR fl mean s).val m h = .nan ∨ ∃ x, (meanDailyCourseByMonthR fl mean s).val m h = .fin x ∧ fl x = x :=
  hm _ fun c hc => by
    obtain ⟨r, hr, rfl⟩ := List.mem_map.1 hc
    exact hs r (List.mem_filter.1 hr).1

theorem colR_nanOrFin {fl : K → K} {mean : List (XF K) → XF K} (hm : MeansIn fl mean) (s : Series (XF K)) (hs : ∀ r ∈ s, r.2.NanOrFin) (m : Int) :
    ∀ c ∈ (meanDailyCourseByMonthR fl mean s).column m, c.NanOrFin := by
  intro c hc
  obtain ⟨h, _, rfl⟩ := List.mem_map.1 hc
  rcases rawR_cases hm s hs m h with e | ⟨x, e, _⟩ <;> rw [e] <;> trivial

/-- smallest and largest mean of a month, and the entries in terms of them -/
theorem normR_scaled (G : GradualRounding K) {mean : List (XF K) → XF K} (hm : MeansIn G.fl mean) (s : Series (XF K)) (hs : ∀ r ∈ s, r.2.NanOrFin) (m : Int)
    (hv : ∃ h₁ ∈ (meanDailyCourseByMonthR G.fl mean s).hours, ∃ h₂ ∈ (meanDailyCourseByMonthR G.fl mean s).hours, ∃ a b : K,
        (meanDailyCourseByMonthR G.fl mean s).val m h₁ = .fin a ∧ (meanDailyCourseByMonthR G.fl mean s).val m h₂ = .fin b ∧ a ≠ b) :
    ∃ mn mx : K, mn < mx ∧ G.fl mn = mn ∧ G.fl mx = mx ∧
      (∃ h ∈ (meanDailyCourseByMonthR G.fl mean s).hours, (meanDailyCourseByMonthR G.fl mean s).val m h = .fin mn) ∧
      (∃ h ∈ (meanDailyCourseByMonthR G.fl mean s).hours, (meanDailyCourseByMonthR G.fl mean s).val m h = .fin mx) ∧
      (∀ h ∈ (meanDailyCourseByMonthR G.fl mean s).hours, ∀ x, (meanDailyCourseByMonthR G.fl mean s).val m h = .fin x → mn ≤ x ∧ x ≤ mx) ∧
      ∀ h x, (meanDailyCourseByMonthR G.fl mean s).val m h = .fin x →
        (meanDailyCourseByMonthR G.fl mean s true).val m h = .fin (G.fl (G.fl (x - mn) / G.fl (mx - mn))) := by
  obtain ⟨h₁, hh₁, h₂, hh₂, a, b, ha, hb, hab⟩ := hv
  have hcol := colR_nanOrFin hm s hs m
  have hval := normR_val G.fl mean s m
  have hc := rawR_cases hm s hs m
  set raw := meanDailyCourseByMonthR G.fl mean s with hraw
  have hin : ∀ h ∈ raw.hours, ∀ x, raw.val m h = .fin x → x ∈ numbers (raw.column m) := by
    intro h hh x hx
    rw [mem_numbers, ← hx]
    exact List.mem_map.2 ⟨h, hh, rfl⟩
  have hne : numbers (raw.column m) ≠ [] := List.ne_nil_of_mem (hin h₁ hh₁ a ha)
  obtain ⟨mn, hmn, hmnm, hmnl⟩ := minSkip_eq hcol hne
  obtain ⟨mx, hmx, hmxm, hmxl⟩ := maxSkip_eq hcol hne
  have hlt : mn < mx := by
    have h1 := hmnl a (hin h₁ hh₁ a ha)
    have h2 := hmnl b (hin h₂ hh₂ b hb)
    have h3 := hmxl a (hin h₁ hh₁ a ha)
    have h4 := hmxl b (hin h₂ hh₂ b hb)
    rcases lt_or_gt_of_ne hab with h | h
    · exact lt_of_le_of_lt h1 (lt_of_lt_of_le h h4)
    · exact lt_of_le_of_lt h2 (lt_of_lt_of_le h h3)
  rw [mem_numbers] at hmnm hmxm
  obtain ⟨h3, hh3, hv3⟩ := List.mem_map.1 hmnm
  obtain ⟨h4, hh4, hv4⟩ := List.mem_map.1 hmxm
  have hfl : ∀ h x, raw.val m h = .fin x → G.fl x = x := by
    intro h x hx
    rcases hc h with e | ⟨y, e, hy⟩
    · rw [e] at hx; cases hx
    · rw [e] at hx; cases hx; exact hy
  have hmnf := hfl _ _ hv3
  have hmxf := hfl _ _ hv4
  refine ⟨mn, mx, hlt, hmnf, hmxf, ⟨h3, hh3, hv3⟩, ⟨h4, hh4, hv4⟩, fun h hh x hx => ⟨hmnl x (hin h hh x hx), hmxl x (hin h hh x hx)⟩, ?_⟩
  intro h x hx
  rw [hval, hx, hmn, hmx]
  have hd := gradual_sub_pos G hmxf hmnf hlt
  rw [XF.fin_sub_fin, XF.fin_sub_fin]
  show ((XF.fin (G.fl (x - mn))) / (XF.fin (G.fl (mx - mn)))).rnd G.fl = _
  rw [XF.fin_div_fin_of_ne _ hd.ne']
  rfl

/-- **C133.**  However pandas computes the means of the observations (numbers of the floating-point format, or missing): if two hours of a month have different
means, all entries of that month of the normalised table are missing exactly where the mean is, or between 0 and 1; 0 and 1 are attained exactly; a larger mean
never becomes a smaller entry.  If all means of the month are equal, all its entries are missing. -/
theorem C133_normalised (G : GradualRounding K) {mean : List (XF K) → XF K} (hm : MeansIn G.fl mean) (s : Series (XF K)) (hs : ∀ r ∈ s, r.2.NanOrFin) (m : Int) :
    ((∃ h₁ ∈ (meanDailyCourseByMonthR G.fl mean s).hours, ∃ h₂ ∈ (meanDailyCourseByMonthR G.fl mean s).hours, ∃ a b : K,
        (meanDailyCourseByMonthR G.fl mean s).val m h₁ = .fin a ∧ (meanDailyCourseByMonthR G.fl mean s).val m h₂ = .fin b ∧ a ≠ b) →
      (∀ h ∈ (meanDailyCourseByMonthR G.fl mean s).hours,
        ((meanDailyCourseByMonthR G.fl mean s).val m h = .nan ∧ (meanDailyCourseByMonthR G.fl mean s true).val m h = .nan) ∨
        ((∃ x, (meanDailyCourseByMonthR G.fl mean s).val m h = .fin x) ∧
          ∃ y, (meanDailyCourseByMonthR G.fl mean s true).val m h = .fin y ∧ 0 ≤ y ∧ y ≤ 1)) ∧
      (∃ h ∈ (meanDailyCourseByMonthR G.fl mean s).hours, (meanDailyCourseByMonthR G.fl mean s true).val m h = .fin 0) ∧
      (∃ h ∈ (meanDailyCourseByMonthR G.fl mean s).hours, (meanDailyCourseByMonthR G.fl mean s true).val m h = .fin 1) ∧
      (∀ h h' (x x' y y' : K),
        (meanDailyCourseByMonthR G.fl mean s).val m h = .fin x → (meanDailyCourseByMonthR G.fl mean s).val m h' = .fin x' →
        (meanDailyCourseByMonthR G.fl mean s true).val m h = .fin y → (meanDailyCourseByMonthR G.fl mean s true).val m h' = .fin y' →
        x ≤ x' → y ≤ y')) ∧
    ((∀ h₁ ∈ (meanDailyCourseByMonthR G.fl mean s).hours, ∀ h₂ ∈ (meanDailyCourseByMonthR G.fl mean s).hours, ∀ a b : K,
        (meanDailyCourseByMonthR G.fl mean s).val m h₁ = .fin a → (meanDailyCourseByMonthR G.fl mean s).val m h₂ = .fin b → a = b) →
      ∀ h ∈ (meanDailyCourseByMonthR G.fl mean s).hours, (meanDailyCourseByMonthR G.fl mean s true).val m h = .nan) := by
  constructor
  · intro hv
    obtain ⟨mn, mx, hlt, hmnf, hmxf, ⟨h3, hh3, hv3⟩, ⟨h4, hh4, hv4⟩, hb, hfin⟩ := normR_scaled G hm s hs m hv
    have hd := gradual_sub_pos G hmxf hmnf hlt
    refine ⟨?_, ⟨h3, hh3, ?_⟩, ⟨h4, hh4, ?_⟩, ?_⟩
    · intro h hh
      rcases rawR_cases hm s hs m h with e | ⟨x, e, hx⟩
      · left
        refine ⟨e, ?_⟩
        rw [normR_val, e, XF.nan_sub]
        show ((XF.nan : XF K) / _).rnd G.fl = _
        rw [XF.nan_div]
        rfl
      · right
        obtain ⟨b1, b2⟩ := hb h hh x e
        refine ⟨⟨x, e⟩, _, hfin h x e, ?_, ?_⟩
        · rw [← G.zero]
          apply G.mono
          apply div_nonneg _ hd.le
          rw [← G.zero]
          exact G.mono _ _ (by linarith)
        · rw [← G.one]
          apply G.mono
          rw [div_le_one hd]
          exact G.mono _ _ (by linarith)
    · rw [hfin h3 mn hv3, sub_self, G.zero, zero_div, G.zero]
    · rw [hfin h4 mx hv4, div_self hd.ne', G.one]
    · intro h h' x x' y y' hx hx' hy hy' hle
      rw [hfin h x hx] at hy
      rw [hfin h' x' hx'] at hy'
      injection hy with hy
      injection hy' with hy'
      rw [← hy, ← hy']
      apply G.mono
      exact div_le_div_of_nonneg_right (G.mono _ _ (by linarith)) hd.le
  · intro hall h hh
    have hcol := colR_nanOrFin hm s hs m
    rw [normR_val]
    rcases rawR_cases hm s hs m h with e | ⟨x, e, hx⟩
    · rw [e, XF.nan_sub]
      show ((XF.nan : XF K) / _).rnd G.fl = _
      rw [XF.nan_div]
      rfl
    · set raw := meanDailyCourseByMonthR G.fl mean s with hraw
      have hne : numbers (raw.column m) ≠ [] := by
        apply List.ne_nil_of_mem (a := x)
        rw [mem_numbers, ← e]
        exact List.mem_map.2 ⟨h, hh, rfl⟩
      obtain ⟨mn, hmn, hmnm, hmnl⟩ := minSkip_eq hcol hne
      obtain ⟨mx, hmx, hmxm, hmxl⟩ := maxSkip_eq hcol hne
      rw [mem_numbers] at hmnm hmxm
      obtain ⟨h1, hh1, hv1⟩ := List.mem_map.1 hmnm
      obtain ⟨h2, hh2, hv2⟩ := List.mem_map.1 hmxm
      have e1 := hall h hh h1 hh1 x mn e hv1
      have e2 := hall h hh h2 hh2 x mx e hv2
      rw [e, hmn, hmx, ← e1, ← e2, XF.fin_sub_fin, sub_self]
      show ((XF.fin (G.fl 0)) / (XF.fin (G.fl 0)) : XF K).rnd G.fl = _
      rw [G.zero, XF.zero_div_zero]
      rfl

/-- the scaling of two nearby sets of numbers -/
theorem scaled_close {x x' mn mn' mx mx' δ D : K} (hδ : 0 ≤ δ) (hD : 2 * δ < D) (hD1 : D = mx - mn) (h1 : |x' - x| ≤ δ) (h2 : |mn' - mn| ≤ δ) (h3 : |mx' - mx| ≤ δ)
    (hx0 : mn ≤ x) (hx1 : x ≤ mx) : |(x' - mn') / (mx' - mn') - (x - mn) / (mx - mn)| ≤ 4 * δ / (D - 2 * δ) := by
  obtain ⟨a1, a2⟩ := abs_le.1 h1
  obtain ⟨b1, b2⟩ := abs_le.1 h2
  obtain ⟨c1, c2⟩ := abs_le.1 h3
  have hD0 : 0 < D := by linarith
  have hD' : D - 2 * δ ≤ mx' - mn' := by linarith
  have hDp : 0 < mx' - mn' := by linarith
  rw [← hD1, div_sub_div _ _ hDp.ne' hD0.ne', abs_div, abs_of_pos (mul_pos hDp hD0)]
  have hnum : |(x' - mn') * D - (mx' - mn') * (x - mn)| ≤ 4 * δ * D := by
    have e : (x' - mn') * D - (mx' - mn') * (x - mn) = ((x' - x) - (mn' - mn)) * D - ((mx' - mx) - (mn' - mn)) * (x - mn) := by rw [hD1]; ring
    rw [e]
    have p1 : |((x' - x) - (mn' - mn)) * D| ≤ 2 * δ * D := by
      rw [abs_mul, abs_of_pos hD0]
      exact mul_le_mul_of_nonneg_right (abs_le.2 ⟨by linarith, by linarith⟩) hD0.le
    have p2 : |((mx' - mx) - (mn' - mn)) * (x - mn)| ≤ 2 * δ * D := by
      rw [abs_mul, abs_of_nonneg (by linarith : 0 ≤ x - mn)]
      exact mul_le_mul (abs_le.2 ⟨by linarith, by linarith⟩) (by linarith) (by linarith) (by linarith)
    have := abs_sub (((x' - x) - (mn' - mn)) * D) (((mx' - mx) - (mn' - mn)) * (x - mn))
    linarith
  rw [div_le_div_iff₀ (mul_pos hDp hD0) (by linarith)]
  calc _ ≤ 4 * δ * D * (D - 2 * δ) := mul_le_mul_of_nonneg_right hnum (by linarith)
    _ ≤ 4 * δ * D * (mx' - mn') := mul_le_mul_of_nonneg_left hD' (by positivity)
    _ = _ := by ring

/-- rounding errors of the scaling -/
theorem scaled_round (G : GradualRounding K) {x mn mx : K} (hx : G.fl x = x) (hmn : G.fl mn = mn) (hmx : G.fl mx = mx) (hlt : mn < mx) (h0 : mn ≤ x) (h1 : x ≤ mx) :
    |G.fl (G.fl (x - mn) / G.fl (mx - mn)) - (x - mn) / (mx - mn)| ≤ 2 * G.u / (1 - G.u) + G.u + G.a := by
  have hd := gradual_sub_pos G hmx hmn hlt
  have hD : 0 < mx - mn := sub_pos.2 hlt
  have hu := G.u_nonneg
  have hu1 : 0 < 1 - G.u := by linarith [G.u_lt_one]
  have ea := G.sub x mn hx hmn
  have ed := G.sub mx mn hmx hmn
  rw [abs_of_nonneg (by linarith : 0 ≤ x - mn)] at ea
  rw [abs_of_pos hD] at ed
  have hq0 : 0 ≤ G.fl (x - mn) := by rw [← G.zero]; exact G.mono _ _ (by linarith)
  have hq1 : G.fl (x - mn) ≤ G.fl (mx - mn) := G.mono _ _ (by linarith)
  set a := x - mn with ha
  set d := mx - mn with hd'
  set a' := G.fl a
  set d' := G.fl d
  have had : a ≤ d := by linarith
  have ha0 : 0 ≤ a := by linarith
  obtain ⟨ed1, ed2⟩ := abs_le.1 ed
  have hdl : (1 - G.u) * d ≤ d' := by linarith
  have hq : |a' / d' - a / d| ≤ 2 * G.u / (1 - G.u) := by
    rw [div_sub_div _ _ hd.ne' hD.ne', abs_div, abs_of_pos (mul_pos hd hD), div_le_div_iff₀ (mul_pos hd hD) hu1]
    have e : a' * d - d' * a = (a' - a) * d - (d' - d) * a := by ring
    have n1 : |a' * d - d' * a| ≤ 2 * G.u * d * a := by
      rw [e]
      have p1 : |(a' - a) * d| ≤ G.u * a * d := by
        rw [abs_mul, abs_of_pos hD]
        exact mul_le_mul_of_nonneg_right ea hD.le
      have p2 : |(d' - d) * a| ≤ G.u * d * a := by
        rw [abs_mul, abs_of_nonneg ha0]
        exact mul_le_mul_of_nonneg_right ed ha0
      have := abs_sub ((a' - a) * d) ((d' - d) * a)
      linarith [show G.u * a * d = G.u * d * a by ring]
    calc _ ≤ 2 * G.u * d * a * (1 - G.u) := mul_le_mul_of_nonneg_right n1 hu1.le
      _ ≤ 2 * G.u * d * d * (1 - G.u) := mul_le_mul_of_nonneg_right (mul_le_mul_of_nonneg_left had (by positivity)) hu1.le
      _ = 2 * G.u * d * ((1 - G.u) * d) := by ring
      _ ≤ 2 * G.u * d * d' := mul_le_mul_of_nonneg_left hdl (by positivity)
      _ = _ := by ring
  have hr := G.err (a' / d')
  have hle : |a' / d'| ≤ 1 := by
    rw [abs_of_nonneg (div_nonneg hq0 hd.le), div_le_one hd]
    exact hq1
  have hr' : |G.fl (a' / d') - a' / d'| ≤ G.u + G.a := by
    have := mul_le_mul_of_nonneg_left hle hu
    linarith
  have e2 : G.fl (a' / d') - a / d = (G.fl (a' / d') - a' / d') + (a' / d' - a / d) := by ring
  rw [e2]
  have := abs_add_le (G.fl (a' / d') - a' / d') (a' / d' - a / d)
  linarith

/-- **C133, error.**  If the computed means of the hours of a month are missing where there are no observations and differ from the true means by at most δ, and
the true means span a range D > 2δ, every entry differs from the exact one by at most 4δ/(D - 2δ) and three rounding errors. -/
theorem C133_error (G : GradualRounding K) {mean : List (XF K) → XF K} (hm : MeansIn G.fl mean) (s : Series (XF K)) (hs : ∀ r ∈ s, r.2.NanOrFin) (m : Int) (δ lo hi : K) (hδ : 0 ≤ δ)
    (hD : 2 * δ < hi - lo)
    (hlo : ∃ h ∈ (meanDailyCourseByMonth s).hours, (meanDailyCourseByMonth s).val m h = .fin lo)
    (hhi : ∃ h ∈ (meanDailyCourseByMonth s).hours, (meanDailyCourseByMonth s).val m h = .fin hi)
    (hb : ∀ h ∈ (meanDailyCourseByMonth s).hours, ∀ x, (meanDailyCourseByMonth s).val m h = .fin x → lo ≤ x ∧ x ≤ hi)
    (herr : ∀ h, ((meanDailyCourseByMonth s).val m h = .nan ∧ (meanDailyCourseByMonthR G.fl mean s).val m h = .nan) ∨
      ∃ x x', (meanDailyCourseByMonth s).val m h = .fin x ∧ (meanDailyCourseByMonthR G.fl mean s).val m h = .fin x' ∧ |x' - x| ≤ δ) :
    ∀ h ∈ (meanDailyCourseByMonth s).hours,
      ((meanDailyCourseByMonth s true).val m h = .nan ∧ (meanDailyCourseByMonthR G.fl mean s true).val m h = .nan) ∨
      ∃ y y', (meanDailyCourseByMonth s true).val m h = .fin y ∧ (meanDailyCourseByMonthR G.fl mean s true).val m h = .fin y' ∧
        |y' - y| ≤ 4 * δ / (hi - lo - 2 * δ) + (2 * G.u / (1 - G.u) + G.u + G.a) := by
  have hhours : (meanDailyCourseByMonthR G.fl mean s).hours = (meanDailyCourseByMonth s).hours := rfl
  have hsc := (C14_scaling s hs).2.2 m lo hi (by intro e; rw [e] at hD; linarith) hlo hhi hb
  obtain ⟨h1, hh1, e1⟩ := hlo
  obtain ⟨h2, hh2, e2⟩ := hhi
  have get : ∀ h x, (meanDailyCourseByMonth s).val m h = .fin x →
      ∃ x', (meanDailyCourseByMonthR G.fl mean s).val m h = .fin x' ∧ |x' - x| ≤ δ := by
    intro h x hx
    rcases herr h with ⟨e, _⟩ | ⟨y, y', ey, ey', h'⟩
    · rw [e] at hx; cases hx
    · rw [ey] at hx; cases hx; exact ⟨y', ey', h'⟩
  obtain ⟨lo', el, hl⟩ := get h1 lo e1
  obtain ⟨hi', eh, hh⟩ := get h2 hi e2
  have hl' := abs_le.1 hl
  have hh' := abs_le.1 hh
  obtain ⟨mn, mx, hlt, hmnf, hmxf, ⟨h3, hh3, hv3⟩, ⟨h4, hh4, hv4⟩, hbR, hfin⟩ := normR_scaled G hm s hs m
    ⟨h1, hhours ▸ hh1, h2, hhours ▸ hh2, lo', hi', el, eh, by intro e; rw [e] at hl'; linarith⟩
  rw [hhours] at hh3 hh4 hbR
  -- the extremes of the computed means are near those of the true ones
  have hmn : |mn - lo| ≤ δ := by
    rcases herr h3 with ⟨_, e⟩ | ⟨y, y', ey, ey', h'⟩
    · rw [e] at hv3; cases hv3
    · rw [ey'] at hv3; cases hv3
      have h5 := abs_le.1 h'
      have h6 := (hb h3 hh3 y ey).1
      have h7 := (hbR h1 hh1 lo' el).1
      exact abs_le.2 ⟨by linarith, by linarith⟩
  have hmx : |mx - hi| ≤ δ := by
    rcases herr h4 with ⟨_, e⟩ | ⟨y, y', ey, ey', h'⟩
    · rw [e] at hv4; cases hv4
    · rw [ey'] at hv4; cases hv4
      have h5 := abs_le.1 h'
      have h6 := (hb h4 hh4 y ey).2
      have h7 := (hbR h2 hh2 hi' eh).2
      exact abs_le.2 ⟨by linarith, by linarith⟩
  intro h hh'
  rcases herr h with ⟨e, e'⟩ | ⟨x, x', ex, ex', hx⟩
  · left
    constructor
    · rw [(norm_val_eq s m h).2.2, e, XF.nan_sub, XF.nan_div]
    · rw [normR_val, e', XF.nan_sub]
      show ((XF.nan : XF K) / _).rnd G.fl = _
      rw [XF.nan_div]
      rfl
  · right
    refine ⟨_, _, hsc h x ex, hfin h x' ex', ?_⟩
    obtain ⟨b1, b2⟩ := hbR h hh' x' ex'
    have hxf : G.fl x' = x' := by
      rcases rawR_cases hm s hs m h with e | ⟨y, e, hy⟩
      · rw [e] at ex'; cases ex'
      · rw [e] at ex'; cases ex'; exact hy
    have r1 := scaled_round G hxf hmnf hmxf hlt b1 b2
    have r2 := scaled_close hδ hD rfl hx hmn hmx (hb h hh' x ex).1 (hb h hh' x ex).2
    have e3 : G.fl (G.fl (x' - mn) / G.fl (mx - mn)) - (x - lo) / (hi - lo) =
        (G.fl (G.fl (x' - mn) / G.fl (mx - mn)) - (x' - mn) / (mx - mn)) + ((x' - mn) / (mx - mn) - (x - lo) / (hi - lo)) := by ring
    rw [e3]
    have := abs_add_le (G.fl (G.fl (x' - mn) / G.fl (mx - mn)) - (x' - mn) / (mx - mn)) ((x' - mn) / (mx - mn) - (x - lo) / (hi - lo))
    linarith

end

noncomputable section

/-- a rounding without underflow that keeps 1 -/
def Spec.Rounding.toGradual (R : Rounding ℝ) (h1 : R.fl 1 = 1) : GradualRounding ℝ where
  fl := R.fl
  u := R.u
  a := 0
  mono := R.mono
  idem := R.idem
  zero := by have := R.err 0; simpa using this
  one := h1
  err := fun x => by simpa using R.err x
  add := fun x y _ _ => R.err (x + y)
  sub := fun x y _ _ => R.err (x - y)
  u_nonneg := R.u_nonneg
  u_lt_one := R.u_lt_one
  a_nonneg := le_refl _

/-- the computed hourly means of month `m` exist for all 24 hours and are not all equal -/
def VariableR (c : MeanCourse ℝ) (m : Int) : Prop :=
  (∀ h : Nat, h < 24 → ∃ x, (h : Int) ∈ c.hours ∧ c.val m h = .fin x) ∧ ∃ h₁ h₂ : Nat, h₁ < 24 ∧ h₂ < 24 ∧ c.val m h₁ ≠ c.val m h₂

theorem hoursR_lt {fl : ℝ → ℝ} {mean : List (XF ℝ) → XF ℝ} {s : Series (XF ℝ)} {h : Int} (hh : h ∈ (meanDailyCourseByMonthR fl mean s).hours) : ∃ k : Nat, k < 24 ∧ h = k :=
  hours_lt (s := s) hh

/-- **C133, fitted and used in floating-point arithmetic.**  Temperatures disaggregated with 'mean_course_min_max' and a course that was fitted to observations,
everything in the same rounded arithmetic: the smallest value of a day is exactly tmin, the largest is tmax up to two roundings, in every month whose computed
hourly means are complete and not all equal. -/
theorem C133_temperature (R : Rounding ℝ) (h1 : R.fl 1 = 1) (cosF : ℝ → ℝ) (pi : ℝ) (mean mean' : List (XF ℝ) → XF ℝ) (hm : MeansIn R.fl mean') (api : PandasApi)
    {daily : Frame ℝ} {d0 : Int} {n : Nat} {tmin tmax : Nat → XF ℝ}
    (hi : daily.index = (List.range n).map fun i : Nat => at00 (d0 + i)) (hn : 0 < n)
    (hmin : daily.col? "tmin" = some (dailyS d0 n tmin)) (hmax : daily.col? "tmax" = some (dailyS d0 n tmax)) (mmt : String) (modNight : Bool)
    (md : Option (List (Int × XF ℝ))) (sun : Option (Series SunTimes)) (s : Series (XF ℝ)) (hs : ∀ r ∈ s, r.2.NanOrFin)
    (hc : ∀ i < n, monthOf (at00 (d0 + (i : Nat))) ∈ (meanDailyCourseByMonthR R.fl mean' s).months ∧
      VariableR (meanDailyCourseByMonthR R.fl mean' s) (monthOf (at00 (d0 + (i : Nat))))) :
    ∃ out, disaggregateTemperatureR ⟨R.fl, cosF, pi⟩ mean api daily "mean_course_min_max" mmt modNight md
        (some (meanDailyCourseByMonthR R.fl mean' s true)) sun = .ok out ∧
      ∀ i < n, ∀ a b : ℝ, tmin i = .fin a → tmax i = .fin b → R.fl a = a → a ≤ b →
        MinIs (dayCells out (d0 + i)) a ∧ ∃ x, MaxIs (dayCells out (d0 + i)) x ∧ |x - b| ≤ R.u * ((1 + R.u) * (b - a) + |b|) := by
  have hcov : Covers (meanDailyCourseByMonthR R.fl mean' s true) d0 n := by
    refine ⟨fun i hi => (hc i hi).1, fun h hh => ?_⟩
    obtain ⟨x, hx, _⟩ := (hc 0 hn).2.1 h hh
    exact hx
  obtain ⟨out, ho, h⟩ := C111_course_min_max R cosF pi mean api hi hn hmin hmax mmt modNight md sun _ hcov
  refine ⟨out, ho, fun i hi a b ha hb hfa hab => h i hi a b ha hb hfa hab ?_⟩
  obtain ⟨_, h24, k₁, k₂, l1, l2, hne⟩ := hc i hi
  obtain ⟨x₁, m1, e1⟩ := h24 k₁ l1
  obtain ⟨x₂, m2, e2⟩ := h24 k₂ l2
  obtain ⟨c1, c2, c3, _⟩ := (C133_normalised (R.toGradual h1) hm s hs (monthOf (at00 (d0 + (i : Nat))))).1
    ⟨k₁, m1, k₂, m2, x₁, x₂, e1, e2, by intro h; apply hne; rw [e1, e2, h]⟩
  refine ⟨?_, ?_, ?_⟩
  · intro h hh
    obtain ⟨x, hm', e⟩ := h24 h hh
    rcases c1 h hm' with ⟨e', _⟩ | ⟨_, h⟩
    · have e'' := e'.symm.trans e
      cases e''
    · exact h
  · obtain ⟨h, hm', e⟩ := c2
    obtain ⟨k, hk, rfl⟩ := hoursR_lt hm'
    exact ⟨k, hk, e⟩
  · obtain ⟨h, hm', e⟩ := c3
    obtain ⟨k, hk, rfl⟩ := hoursR_lt hm'
    exact ⟨k, hk, e⟩

/-! ### a case that meets the hypotheses -/

/-- the exact mean rounded once -/
def roundedMeanOnce (R : Rounding ℝ) (l : List (XF ℝ)) : XF ℝ := (meanSkip l).rnd R.fl

theorem roundedMeanOnce_in (R : Rounding ℝ) : MeansIn R.fl (roundedMeanOnce R) := by
  intro l hl
  unfold roundedMeanOnce
  by_cases hn : numbers l = []
  · left
    unfold meanSkip
    rw [countValid_eq hl, hn]
    rfl
  · right
    rw [meanSkip_eq hl hn]
    exact ⟨_, rfl, R.idem _⟩

/-- binary64; observations of one day whose temperature is the hour -/
example : ∃ out, disaggregateTemperatureR ⟨R53.fl, Real.cos, Real.pi⟩ meanSkip .modern exFrame "mean_course_min_max" "fix" false none
      (some (meanDailyCourseByMonthR R53.fl (roundedMeanOnce R53) hourObs true)) none = .ok out ∧
    MinIs (dayCells out (0 + (1 : Nat))) 273 := by
  have h1 : R53.fl 1 = 1 := by rw [R53_fl]; exact roundBits_one (by norm_num)
  have h0 : R53.fl 0 = 0 := by have := R53.err 0; simpa using this
  have hval : ∀ h, (meanDailyCourseByMonthR R53.fl (roundedMeanOnce R53) hourObs).val 1 h = ((meanDailyCourseByMonth hourObs).val 1 h).rnd R53.fl := fun h => rfl
  have hv := hourObs_variable
  have hvar : VariableR (meanDailyCourseByMonthR R53.fl (roundedMeanOnce R53) hourObs) 1 := by
    refine ⟨fun h hh => ?_, 0, 1, by decide, by decide, ?_⟩
    · obtain ⟨x, e⟩ := hv.1 h hh
      refine ⟨R53.fl x, val_hour_mem hh e, ?_⟩
      rw [hval, e]
      rfl
    · rw [hval, hval, Nat.cast_zero, Nat.cast_one, show (0 : Int) = ((0 : Nat) : Int) from rfl, show (1 : Int) = ((1 : Nat) : Int) from rfl]
      have e := hourObs_val
      rw [show ((1 : Nat) : Int) = (1 : Int) from rfl] at *
      rw [show (meanDailyCourseByMonth hourObs).val 1 ((0 : Nat) : Int) = _ from e 0 (by decide), show (meanDailyCourseByMonth hourObs).val 1 1 = _ from e 1 (by decide)]
      show XF.fin (R53.fl ((0 : Nat) : ℝ)) ≠ XF.fin (R53.fl ((1 : Nat) : ℝ))
      rw [Nat.cast_zero, Nat.cast_one, h0, h1]
      simp
  have hmonths : (1 : Int) ∈ (meanDailyCourseByMonthR R53.fl (roundedMeanOnce R53) hourObs).months :=
    ((C14_mean_course _ hourObs_num).2.1 1).2 ⟨by decide, _, hourObs_row 0 (by decide), hourObs_month 0 (by decide)⟩
  obtain ⟨out, h, h2⟩ := C133_temperature R53 h1 Real.cos Real.pi meanSkip _ (roundedMeanOnce_in R53) .modern exDays.index (by decide) exDays.hmin exDays.hmax "fix" false none none
    hourObs hourObs_num (fun i hi => by rw [exMonth i hi]; exact ⟨hmonths, hvar⟩)
  refine ⟨out, h, (h2 1 (by decide) 273 303 rfl rfl ?_ (by norm_num)).1⟩
  rw [R53_fl]
  exact_mod_cast roundBits_small (k := 273) (l := 8) (by norm_num) (by decide +kernel) (by norm_num)

/-- the same observations: the entry of 12 o'clock differs from 12/23 by less than 1e-14 -/
example : ∃ y', (meanDailyCourseByMonthR R53.fl (roundedMeanOnce R53) hourObs true).val 1 12 = .fin y' ∧ |y' - 12 / 23| ≤ 1e-14 := by
  have h1 : R53.fl 1 = 1 := by rw [R53_fl]; exact roundBits_one (by norm_num)
  have hval : ∀ h, (meanDailyCourseByMonthR R53.fl (roundedMeanOnce R53) hourObs).val 1 h = ((meanDailyCourseByMonth hourObs).val 1 h).rnd R53.fl := fun h => rfl
  have hmem : ∀ h : Nat, h < 24 → (h : Int) ∈ (meanDailyCourseByMonth hourObs).hours := fun h hh => val_hour_mem hh (hourObs_val h hh)
  have hb : ∀ h ∈ (meanDailyCourseByMonth hourObs).hours, ∀ x, (meanDailyCourseByMonth hourObs).val 1 h = .fin x → 0 ≤ x ∧ x ≤ 23 := by
    intro h hh x hx
    obtain ⟨k, hk, rfl⟩ := hours_lt hh
    rw [hourObs_val k hk] at hx
    cases hx
    have : (k : ℝ) ≤ 23 := by exact_mod_cast Nat.le_of_lt_succ hk
    exact ⟨by positivity, this⟩
  have herr : ∀ h, ((meanDailyCourseByMonth hourObs).val 1 h = .nan ∧ (meanDailyCourseByMonthR R53.fl (roundedMeanOnce R53) hourObs).val 1 h = .nan) ∨
      ∃ x x', (meanDailyCourseByMonth hourObs).val 1 h = .fin x ∧ (meanDailyCourseByMonthR R53.fl (roundedMeanOnce R53) hourObs).val 1 h = .fin x' ∧ |x' - x| ≤ 1e-14 := by
    intro h
    rw [hval]
    by_cases hh : h ∈ (meanDailyCourseByMonth hourObs).hours
    · obtain ⟨k, hk, rfl⟩ := hours_lt hh
      right
      refine ⟨_, _, hourObs_val k hk, by rw [hourObs_val k hk]; rfl, ?_⟩
      have h2 := R53.err (k : ℝ)
      have h3 : |(k : ℝ)| ≤ 23 := by rw [abs_of_nonneg (by positivity)]; exact_mod_cast Nat.le_of_lt_succ hk
      have h4 := mul_le_mul_of_nonneg_left h3 R53.u_nonneg
      refine (h2.trans h4).trans ?_
      rw [R53_u]
      norm_num
    · left
      have e : (meanDailyCourseByMonth hourObs).val 1 h = .nan := by
        rw [raw_val_eq]
        have : obsOf hourObs 1 h = [] := by
          by_contra hne
          obtain ⟨c, hc⟩ := List.exists_mem_of_ne_nil _ hne
          obtain ⟨r, hr, _⟩ := List.mem_map.1 hc
          obtain ⟨hr1, hr2⟩ := List.mem_filter.1 hr
          exact hh (((C14_mean_course _ hourObs_num).1 h).2 ⟨r, hr1, (of_decide_eq_true hr2).2⟩)
        rw [this]
        rfl
      rw [e]
      exact ⟨rfl, rfl⟩
  have h12 := C133_error (R53.toGradual h1) (roundedMeanOnce_in R53) hourObs hourObs_num 1 1e-14 0 23 (by norm_num) (by norm_num)
    ⟨0, hmem 0 (by decide), by have := hourObs_val 0 (by decide); rwa [Nat.cast_zero, Nat.cast_zero] at this⟩
    ⟨23, hmem 23 (by decide), by have := hourObs_val 23 (by decide); exact_mod_cast this⟩ hb herr 12 (hmem 12 (by decide))
  have hex : (meanDailyCourseByMonth hourObs true).val 1 12 = .fin ((12 - 0) / (23 - 0)) :=
    (C14_scaling hourObs hourObs_num).2.2 1 0 23 (by norm_num) ⟨0, hmem 0 (by decide), by have := hourObs_val 0 (by decide); rwa [Nat.cast_zero, Nat.cast_zero] at this⟩
      ⟨23, hmem 23 (by decide), by have := hourObs_val 23 (by decide); exact_mod_cast this⟩ hb 12 12 (by have := hourObs_val 12 (by decide); exact_mod_cast this)
  rcases h12 with ⟨e, _⟩ | ⟨y, y', ey, ey', hd⟩
  · rw [hex] at e; cases e
  · rw [hex] at ey
    cases ey
    refine ⟨y', ey', ?_⟩
    have hu : (R53.toGradual h1).u = R53.u := rfl
    have ha : (R53.toGradual h1).a = 0 := rfl
    rw [hu, ha, R53_u] at hd
    norm_num at hd ⊢
    linarith

end

end Melodist
