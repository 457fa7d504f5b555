import Verif.Model.ShiftRound
import Verif.Props.SunRound
import Verif.Props.DailyRound
import Verif.Props.TemperatureShift
import Verif.Props.RoundingC
import Verif.Props.Refit

/-!
# C153: the hours of the temperature extremes in floating-point arithmetic
-/

set_option linter.unusedSectionVars false

namespace Melodist
open Spec

noncomputable section

/-- the number is more than `e` away from all half-integers, the places where rounding to a full hour jumps -/
def Spec.OffHalf (e x : ℝ) : Prop := ∀ k : Int, e < |x - (k + 1 / 2)|

/-- two cells that are both missing, or both numbers at most `e` apart and at most `B` -/
def Spec.NearCell (e B : ℝ) : XF ℝ → XF ℝ → Prop
  | .nan, .nan => True
  | .fin y, .fin x => |y - x| ≤ e ∧ |x| ≤ B
  | _, _ => False

theorem sameHour_near {e x y : ℝ} (h : |y - x| ≤ e) (hx : OffHalf e x) : roundEven y = roundEven x := by
  have hk := nearest_roundEven x
  set k := roundEven x with hkd
  have h1 := abs_le.1 hk.1
  have a := hx k
  have b := hx (k - 1)
  push_cast at b
  have h0 := abs_le.1 h
  rw [lt_abs] at a b
  have hlt : |(k : ℝ) - y| < 1 / 2 := by
    rw [abs_lt]
    constructor
    · rcases a with a | a <;> linarith [h1.1]
    · rcases b with b | b <;> linarith [h1.2]
  exact nearest_unique (nearest_roundEven y) ⟨hlt.le, fun h => absurd h hlt.ne⟩

/-- lists of cells that are near each other have means near each other -/
theorem nearCells_sum {e B : ℝ} : ∀ {l' l : List (XF ℝ)}, List.Forall₂ (NearCell e B) l' l →
    (numbers l').length = (numbers l).length ∧ |(numbers l').sum - (numbers l).sum| ≤ (numbers l).length * e ∧
    (∀ c ∈ l', NumberOrMissing c) ∧ (∀ c ∈ l, c.NanOrFin) ∧ (∀ y ∈ numbers l', |y| ≤ B + e) ∧ ∀ x ∈ numbers l, |x| ≤ B := by
  intro l' l h
  induction h with
  | nil => exact ⟨rfl, by simp [numbers], by simp, by simp, by simp [numbers], by simp [numbers]⟩
  | @cons a b l₁ l₂ hab _ ih =>
    obtain ⟨h1, h2, h3, h4, h5, h6⟩ := ih
    cases a with
    | nan =>
      cases b with
      | nan =>
        refine ⟨h1, h2, ?_, ?_, h5, h6⟩
        · intro c hc
          rcases List.mem_cons.1 hc with rfl | hc
          · exact .inl rfl
          · exact h3 c hc
        · intro c hc
          rcases List.mem_cons.1 hc with rfl | hc
          · trivial
          · exact h4 c hc
      | fin x => exact hab.elim
      | pinf => exact hab.elim
      | ninf => exact hab.elim
    | fin y =>
      cases b with
      | nan => exact hab.elim
      | pinf => exact hab.elim
      | ninf => exact hab.elim
      | fin x =>
        obtain ⟨ha, hb⟩ := hab
        have e1 : numbers (XF.fin y :: l₁) = y :: numbers l₁ := rfl
        have e2 : numbers (XF.fin x :: l₂) = x :: numbers l₂ := rfl
        rw [e1, e2]
        refine ⟨by simp [h1], ?_, ?_, ?_, ?_, ?_⟩
        · rw [List.sum_cons, List.sum_cons, List.length_cons]
          push_cast
          rw [show y + (numbers l₁).sum - (x + (numbers l₂).sum) = (y - x) + ((numbers l₁).sum - (numbers l₂).sum) by ring]
          refine (abs_add_le _ _).trans ?_
          linarith
        · intro c hc
          rcases List.mem_cons.1 hc with rfl | hc
          · exact .inr ⟨_, rfl⟩
          · exact h3 c hc
        · intro c hc
          rcases List.mem_cons.1 hc with rfl | hc
          · trivial
          · exact h4 c hc
        · intro z hz
          rcases List.mem_cons.1 hz with rfl | hz
          · have a1 := abs_le.1 ha
            have b1 := abs_le.1 hb
            exact abs_le.2 ⟨by linarith [a1.1, b1.1], by linarith [a1.2, b1.2]⟩
          · exact h5 z hz
        · intro z hz
          rcases List.mem_cons.1 hz with rfl | hz
          · exact hb
          · exact h6 z hz
    | pinf => cases b <;> exact hab.elim
    | ninf => cases b <;> exact hab.elim

theorem nearCells_mean {sum : List (XF ℝ) → XF ℝ} (hsum : SumsDay sum) {e B : ℝ} {l' l : List (XF ℝ)} (h : List.Forall₂ (NearCell e B) l' l) (hl : l.length ≤ 1000000) :
    NearCell (e + (l.length + 9) / 2 ^ 53 * (B + e)) B (meanR (roundBits 53) sum l') (meanSkip l) := by
  obtain ⟨h1, h2, h3, h4, h5, h6⟩ := nearCells_sum h
  have near := meanR_near hsum (by rw [h.length_eq]; exact hl) h3
  by_cases hne : numbers l = []
  · have hne' : numbers l' = [] := by rw [← List.length_eq_zero_iff, h1, hne]; rfl
    have e1 : meanSkip l = .nan := by
      unfold meanSkip
      rw [countValid_eq h4, hne]
      rfl
    rw [e1]
    cases hm : meanR (roundBits 53) sum l' with
    | nan => trivial
    | fin z => rw [hm] at near; exact absurd hne' near.1
    | pinf => rw [hm] at near; exact near.elim
    | ninf => rw [hm] at near; exact near.elim
  · have hne' : numbers l' ≠ [] := by
      intro h
      rw [h] at h1
      exact hne (List.length_eq_zero_iff.1 h1.symm)
    have hpos : (0 : ℝ) < (numbers l).length := by exact_mod_cast List.length_pos_of_ne_nil hne
    have hBe : 0 ≤ B + e := by
      obtain ⟨y, hy⟩ := List.exists_mem_of_ne_nil _ hne'
      exact (abs_nonneg _).trans (h5 y hy)
    rw [meanSkip_eq h4 hne]
    cases hm : meanR (roundBits 53) sum l' with
    | nan => rw [hm] at near; exact absurd near hne'
    | pinf => rw [hm] at near; exact near.elim
    | ninf => rw [hm] at near; exact near.elim
    | fin z =>
      rw [hm] at near
      obtain ⟨-, near⟩ := near
      rw [h1] at near
      constructor
      · have a1 : |(numbers l').sum / (numbers l).length - (numbers l).sum / (numbers l).length| ≤ e := by
          rw [← sub_div, abs_div, abs_of_pos hpos, div_le_iff₀ hpos]
          linarith
        have a2 : absSum (numbers l') / (numbers l).length ≤ B + e := by
          rw [div_le_iff₀ hpos, mul_comm]
          have := absSum_le h5
          rwa [h1] at this
        have a3 : ((numbers l).length + 9 : ℝ) / 2 ^ 53 ≤ (l.length + 9) / 2 ^ 53 := by
          apply div_le_div_of_nonneg_right _ (by positivity)
          have := numbers_length_le l
          have : ((numbers l).length : ℝ) ≤ l.length := by exact_mod_cast this
          linarith
        have a4 := near.trans (mul_le_mul a3 a2 (div_nonneg (absSum_nonneg _) hpos.le) (by positivity))
        calc _ = |(z - (numbers l').sum / (numbers l).length) + ((numbers l').sum / (numbers l).length - (numbers l).sum / (numbers l).length)| := by congr 1; ring
          _ ≤ _ := (abs_add_le _ _).trans (by linarith)
      · rw [abs_div, abs_of_pos hpos, div_le_iff₀ hpos, mul_comm]
        refine le_trans ?_ (absSum_le h6)
        exact sum_le_absSum _

theorem firstMaxHour_range {temp : Series (XF ℝ)} {d h : Int} (e : firstMaxHour temp d = some h) : 0 ≤ h ∧ h ≤ 23 := by
  unfold firstMaxHour at e
  dsimp only at e
  obtain ⟨r, -, rfl⟩ := Option.map_eq_some_iff.1 e
  unfold hourOf
  omega

theorem noon_pair {F : SunMath} (hF : DoubleTan F) (t : Time) {lon tz : ℝ} (lat : ℝ) (hlon : |lon| ≤ 360) (htz : |tz| ≤ 16) :
    ∃ n' n : ℝ, (sunTimesDoyR F (doyOf t) lon lat tz).sunnoon = .fin n' ∧ (sunTimesDoy (doyOf t) lon lat tz).sunnoon = .fin n ∧ |n' - n| ≤ 4e-14 ∧ |n| ≤ 52.35 := by
  obtain ⟨r, n, s, heq, -, -, hn, hN, -⟩ := row_parts hF t lat hlon htz
  have heq : [(t, sunTimesDoyR F (doyOf t) lon lat tz)] = _ := heq
  simp only [List.cons.injEq, Prod.mk.injEq, true_and, and_true] at heq
  refine ⟨n, noonAt (doyOf t) lon tz, by rw [heq], by rw [sunTimesDoy_eq], hn.trans (by norm_num), hN⟩

/-- **C153** (shift): `get_shift_by_data` in double precision for a record of at most `N` ≤ a million days has the months of exact arithmetic; the mean shift of each month is that of exact arithmetic up to
(N + 16) 10⁻¹⁴ hours (1e-8 for a million days, 5e-11 for ten years), and missing where that is. -/
theorem C153_shift {F : SunMath} (hF : DoubleTan F) {sum : List (XF ℝ) → XF ℝ} (hsum : SumsDay sum) (temp : Series (XF ℝ)) (lon lat tz : ℝ) (hlon : |lon| ≤ 360) (htz : |tz| ≤ 16)
    (N : Nat) (hN : N ≤ 1000000) (hdays : ∀ a ∈ temp, ∀ b ∈ temp, b.1 / 86400000000 - a.1 / 86400000000 < N) :
    List.Forall₂ (fun a b => a.1 = b.1 ∧ NearCell ((N + 16) * 1e-14) 77 a.2 b.2) (getShiftByDataR F sum temp lon lat tz) (getShiftByData temp lon lat tz) := by
  have hfl : F.fl = roundBits 53 := hF.trig.fl
  have hspan : (Series.daySpan temp.index).length ≤ N := by
    by_contra hc
    push Not at hc
    have hmem : ∀ d ∈ Series.daySpan temp.index, (∃ t ∈ temp.index, t / 86400000000 ≤ d) ∧ ∃ t ∈ temp.index, d ≤ t / 86400000000 := fun d hd => daySpan_iff.1 hd
    unfold Series.daySpan at hc hmem
    split at hc
    · next lo hi h1 h2 =>
      rw [h1, h2] at hmem
      dsimp only at hmem
      simp only [List.length_map, List.length_range] at hc
      have hlo := List.min?_mem h1
      have hhi := List.max?_mem h2
      obtain ⟨a, ha, rfl⟩ := List.mem_map.1 hlo
      obtain ⟨b, hb, rfl⟩ := List.mem_map.1 hhi
      obtain ⟨ra, hra, rfl⟩ := List.mem_map.1 ha
      obtain ⟨rb, hrb, rfl⟩ := List.mem_map.1 hb
      have := hdays ra hra rb hrb
      unfold dayOf at hc
      omega
    · simp at hc
  have hsunR : ∀ d ∈ Series.daySpan temp.index,
      (((getSunTimesR F (Series.index (temp.resampleD (meanR F.fl sum))) lon lat tz).at? (midnight d)).map SunTimes.sunnoon).getD .nan =
        (sunTimesDoyR F (doyOf (midnight d)) lon lat tz).sunnoon := by
    intro d hd
    have : getSunTimesR F (Series.index (temp.resampleD (meanR F.fl sum))) lon lat tz =
        (Series.daySpan temp.index).map fun d => (midnight d, sunTimesDoyR F (doyOf (midnight d)) lon lat tz) := by
      unfold getSunTimesR Series.resampleD Series.index
      rw [List.map_map, List.map_map]
      rfl
    unfold Series.at?
    rw [this, find?_midnight _ _ hd]
    rfl
  have hsun : ∀ d ∈ Series.daySpan temp.index,
      (((getSunTimes (Series.index (temp.resampleD meanSkip)) lon lat tz).at? (midnight d)).map SunTimes.sunnoon).getD .nan =
        (sunTimesDoy (doyOf (midnight d)) lon lat tz).sunnoon := by
    intro d hd
    have : getSunTimes (Series.index (temp.resampleD meanSkip)) lon lat tz =
        (Series.daySpan temp.index).map fun d => (midnight d, sunTimesDoy (doyOf (midnight d)) lon lat tz) := by
      unfold getSunTimes Series.resampleD Series.index
      rw [List.map_map, List.map_map]
      rfl
    unfold Series.at?
    rw [this, find?_midnight _ _ hd]
    rfl
  unfold getShiftByDataR getShiftByData
  dsimp only
  have hR : ((Series.daySpan temp.index).map fun d => (midnight d, (hourCell (firstMaxHour temp d) -
      (((getSunTimesR F (Series.index (temp.resampleD (meanR F.fl sum))) lon lat tz).at? (midnight d)).map SunTimes.sunnoon).getD .nan).rnd F.fl)) =
      (Series.daySpan temp.index).map fun d => (midnight d, (hourCell (firstMaxHour temp d) - (sunTimesDoyR F (doyOf (midnight d)) lon lat tz).sunnoon).rnd F.fl) :=
    List.map_congr_left fun d hd => by rw [hsunR d hd]
  have hE : ((Series.daySpan temp.index).map fun d => (midnight d, hourCell (firstMaxHour temp d) -
      (((getSunTimes (Series.index (temp.resampleD meanSkip)) lon lat tz).at? (midnight d)).map SunTimes.sunnoon).getD .nan)) =
      (Series.daySpan temp.index).map fun d => (midnight d, hourCell (firstMaxHour temp d) - (sunTimesDoy (doyOf (midnight d)) lon lat tz).sunnoon) :=
    List.map_congr_left fun d hd => by rw [hsun d hd]
  rw [hR, hE]
  have hmon : (((List.range 12).map fun (k : Nat) => (k : Int) + 1).filter fun m => ((Series.daySpan temp.index).map fun d =>
        (midnight d, (hourCell (firstMaxHour temp d) - (sunTimesDoyR F (doyOf (midnight d)) lon lat tz).sunnoon).rnd F.fl)).any fun r => monthOf r.1 == m) =
      (((List.range 12).map fun (k : Nat) => (k : Int) + 1).filter fun m => ((Series.daySpan temp.index).map fun d =>
        (midnight d, hourCell (firstMaxHour temp d) - (sunTimesDoy (doyOf (midnight d)) lon lat tz).sunnoon)).any fun r => monthOf r.1 == m) := by
    simp only [List.any_map, Function.comp_def]
  rw [hmon, List.forall₂_map_left_iff, List.forall₂_map_right_iff, List.forall₂_same]
  intro m _
  refine ⟨rfl, ?_⟩
  rw [List.filter_map, List.filter_map, List.map_map, List.map_map]
  simp only [Function.comp_def]
  rw [hfl]
  have hnear : List.Forall₂ (NearCell 5e-14 76)
      (((Series.daySpan temp.index).filter fun d => monthOf (midnight d) == m).map fun d =>
        (hourCell (firstMaxHour temp d) - (sunTimesDoyR F (doyOf (midnight d)) lon lat tz).sunnoon).rnd (roundBits 53))
      (((Series.daySpan temp.index).filter fun d => monthOf (midnight d) == m).map fun d =>
        hourCell (firstMaxHour temp d) - (sunTimesDoy (doyOf (midnight d)) lon lat tz).sunnoon) := by
    rw [List.forall₂_map_left_iff, List.forall₂_map_right_iff, List.forall₂_same]
    intro d _
    obtain ⟨n', n, e1, e2, hn, hb⟩ := noon_pair hF (midnight d) lat hlon htz
    rw [e1, e2]
    cases hh : firstMaxHour temp d with
    | none => trivial
    | some h =>
      obtain ⟨g1, g2⟩ := firstMaxHour_range hh
      have g1' : (0 : ℝ) ≤ h := by exact_mod_cast g1
      have g2' : (h : ℝ) ≤ 23 := by exact_mod_cast g2
      have hb1 := abs_le.1 hb
      have hn1 := abs_le.1 hn
      show |roundBits 53 ((h : ℝ) - n') - ((h : ℝ) - n)| ≤ 5e-14 ∧ |(h : ℝ) - n| ≤ 76
      have hBB : |(h : ℝ) - n| ≤ 76 := abs_le.2 ⟨by norm_num at hb1 ⊢; linarith, by norm_num at hb1 ⊢; linarith⟩
      exact Nr.fl (e := 4e-14) ⟨abs_le.2 ⟨by linarith, by linarith⟩, hBB⟩ (by norm_num)
  have hlen : (((Series.daySpan temp.index).filter fun d => monthOf (midnight d) == m).map fun d =>
        hourCell (firstMaxHour temp d) - (sunTimesDoy (doyOf (midnight d)) lon lat tz).sunnoon).length ≤ N := by
    rw [List.length_map]
    exact (List.length_filter_le _ _).trans hspan
  have := nearCells_mean hsum hnear (hlen.trans hN)
  revert this hlen
  generalize (((Series.daySpan temp.index).filter fun d => monthOf (midnight d) == m).map fun d =>
        hourCell (firstMaxHour temp d) - (sunTimesDoy (doyOf (midnight d)) lon lat tz).sunnoon) = cells
  intro hlen this
  have hlr : (cells.length : ℝ) ≤ N := by exact_mod_cast hlen
  revert this
  generalize meanR (roundBits 53) sum _ = y
  generalize meanSkip cells = x
  intro this
  cases y <;> cases x <;> try exact this
  rename_i y x
  obtain ⟨a, b⟩ := this
  refine ⟨a.trans ?_, b.trans (by norm_num)⟩
  have : ((cells.length : ℝ) + 9) / 2 ^ 53 * (76 + 5e-14) ≤ (N + 9) * 9e-15 := by
    rw [div_mul_eq_mul_div, div_le_iff₀ (by positivity)]
    norm_num
    linarith
  have h0 : (0 : ℝ) ≤ N := Nat.cast_nonneg N
  norm_num at this ⊢
  linarith

/-! ### the hours of the extremes -/

/-- the row of sun times in double precision beside that of exact arithmetic -/
theorem sun_pair {F : SunMath} (hF : DoubleTan F) (t : Time) {lon lat tz : ℝ} (hlon : |lon| ≤ 360) (hlat : |lat| ≤ 60) (htz : |tz| ≤ 16) :
    ∃ r' n' s' D' r n s D : ℝ, sunTimesDoyR F (doyOf t) lon lat tz = ⟨.fin r', .fin n', .fin s', .fin D'⟩ ∧ sunTimesDoy (doyOf t) lon lat tz = ⟨.fin r, .fin n, .fin s, .fin D⟩ ∧
      |n' - n| ≤ 4e-14 ∧ |n| ≤ 52.35 ∧ |D' - D| ≤ 1e-12 ∧ 4 ≤ D ∧ sameClock 1e-12 r' r ∧ (0 ≤ n' → n' ≤ 24 → 0 ≤ r' ∧ r' ≤ 24) := by
  obtain ⟨r', n', s', D', r, n, s, D, h1, h2, hn, -, -, -, h60, -, -⟩ := C135_accuracy hF t lon lat tz hlon (hlat.trans (by norm_num)) htz
  obtain ⟨r₁, n₁, s₁, D₁, k1, -, -, -, k5⟩ := C135_never_missing hF t lon lat tz hlon htz
  rw [h1] at k1
  simp only [List.cons.injEq, Prod.mk.injEq, SunTimes.mk.injEq, XF.fin.injEq, and_true, true_and] at k1
  obtain ⟨rfl, rfl, rfl, rfl⟩ := k1
  obtain ⟨hD, hr, -⟩ := h60 hlat
  have h1 : [(t, sunTimesDoyR F (doyOf t) lon lat tz)] = _ := h1
  have h2 : [(t, sunTimesDoy (doyOf t) lon lat tz)] = _ := h2
  simp only [List.cons.injEq, Prod.mk.injEq, and_true, true_and] at h1 h2
  obtain ⟨m', m, e1, e2, -, hb⟩ := noon_pair hF t lat hlon htz
  rw [h2] at e2
  injection e2 with e2
  have hD4 : 4 ≤ D := by
    have hd := sunTimesDoy_eq (doyOf t) lon lat tz
    rw [h2] at hd
    simp only [SunTimes.mk.injEq, XF.fin.injEq] at hd
    rw [hd.2.2.2, dayLen_eq]
    have a2 := (abs_le.1 (arg_near60 hF t hlat).2).2
    have h6 : Real.pi / 6 ≤ Real.arccos (sunArg (doyOf t) lat) := by
      have e : Real.arccos (Real.cos (Real.pi / 6)) = Real.pi / 6 := Real.arccos_cos (by positivity) (by linarith [Real.pi_pos])
      rw [← e]
      apply Real.antitone_arccos
      rw [Real.cos_pi_div_six]
      have h3 : (1.7 : ℝ) ≤ √3 := Real.le_sqrt_of_sq_le (by norm_num)
      norm_num at a2 h3 ⊢
      linarith
    have hp := Real.pi_pos
    rw [← mul_div_assoc, le_div_iff₀ hp]
    linarith
  exact ⟨r', n', s', D', r, n, s, D, h1, h2, hn, e2 ▸ hb, hD, hD4, hr, fun a b => ⟨(k5 a b).1, (k5 a b).2.1⟩⟩

/-- no event of the day is within `e` of midnight or of a half hour, where rounding to full hours jumps -/
def Spec.ClearDay (e : ℝ) (s : SunTimes) : Prop :=
  ∃ rise noon : ℝ, s.sunrise = .fin rise ∧ s.sunnoon = .fin noon ∧ e < rise ∧ rise < 24 - e ∧ e < noon ∧ noon < 24 - e ∧ OffHalf e rise ∧ OffHalf e noon

theorem clear_pair {F : SunMath} (hF : DoubleTan F) (t : Time) {lon lat tz : ℝ} (hlon : |lon| ≤ 360) (hlat : |lat| ≤ 60) (htz : |tz| ≤ 16)
    (hc : ClearDay 1e-12 (sunTimesDoy (doyOf t) lon lat tz)) :
    XF.round (sunTimesDoyR F (doyOf t) lon lat tz).sunrise = XF.round (sunTimesDoy (doyOf t) lon lat tz).sunrise ∧
    (XF.round (sunTimesDoyR F (doyOf t) lon lat tz).sunnoon + .fin 2).rnd (roundBits 53) = XF.round (sunTimesDoy (doyOf t) lon lat tz).sunnoon + .fin 2 := by
  obtain ⟨r', n', s', D', r, n, s, D, e1, e2, hn, -, -, -, hr, hrange⟩ := sun_pair hF t hlon hlat htz
  rw [e2] at hc
  obtain ⟨r₀, n₀, a1, a2, b1, b2, b3, b4, c1, c2⟩ := hc
  injection a1 with a1
  injection a2 with a2
  subst a1 a2
  rw [e1, e2]
  have hn1 := abs_le.1 hn
  obtain ⟨g1, g2⟩ := hrange (by norm_num at hn1 b3 ⊢; linarith) (by norm_num at hn1 b4 ⊢; linarith)
  have hr' : |r' - r| ≤ 1e-12 := by
    rcases hr with h | h | h
    · exact h
    · have := abs_le.1 h; norm_num at this b1; linarith
    · have := abs_le.1 h; norm_num at this b2; linarith
  refine ⟨?_, ?_⟩
  · show XF.fin ((roundEven r' : Int) : ℝ) = XF.fin ((roundEven r : Int) : ℝ)
    rw [sameHour_near hr' c1]
  · show XF.fin (roundBits 53 (((roundEven n' : Int) : ℝ) + 2)) = XF.fin (((roundEven n : Int) : ℝ) + 2)
    rw [sameHour_near (hn.trans (by norm_num)) c2]
    have hk := abs_le.1 (nearest_roundEven n).1
    have k1 : (-1 : ℝ) < (roundEven n : Int) := by norm_num at hk b3; linarith
    have k2 : ((roundEven n : Int) : ℝ) < 25 := by norm_num at hk b4; linarith
    have k1' : -1 < roundEven n := by exact_mod_cast k1
    have k2' : roundEven n < 25 := by exact_mod_cast k2
    have := roundBits_smallint (n := roundEven n + 2) (by omega) (by
      rw [abs_lt]
      push_cast
      constructor <;> norm_num at k1 k2 ⊢ <;> linarith)
    push_cast at this
    rw [this]

theorem mapM_zip {p q : Time → Py (XF ℝ)} {a b : Time → SunTimes} {f g : SunTimes → XF ℝ → XF ℝ × XF ℝ} : ∀ {idx : List Time},
    (∀ t ∈ idx, (∃ e, p t = .error e ∧ q t = .error e) ∨ ∃ x y, p t = .ok x ∧ q t = .ok y ∧ f (a t) x = g (b t) y) →
    (idx.mapM p).map (fun ds => List.zipWith f (idx.map a) ds) = (idx.mapM q).map fun ds => List.zipWith g (idx.map b) ds := by
  intro idx
  induction idx with
  | nil => intro _; rfl
  | cons t l ih =>
    intro h
    have ih := ih fun t ht => h t (List.mem_cons_of_mem _ ht)
    rw [List.mapM_cons, List.mapM_cons]
    rcases h t List.mem_cons_self with ⟨e, e1, e2⟩ | ⟨x, y, e1, e2, e3⟩
    · rw [e1, e2]; rfl
    · rw [e1, e2]
      cases hp : l.mapM p with
      | error e =>
        cases hq : l.mapM q with
        | error e' => rw [hp, hq] at ih; injection ih with ih; subst ih; rfl
        | ok _ => rw [hp, hq] at ih; cases ih
      | ok u =>
        cases hq : l.mapM q with
        | error e' => rw [hp, hq] at ih; cases ih
        | ok v =>
          rw [hp, hq] at ih
          injection ih with ih
          dsimp only at ih
          show Except.ok (f (a t) x :: List.zipWith f (l.map a) u) = Except.ok (g (b t) y :: List.zipWith g (l.map b) v)
          rw [e3, ih]

theorem mapM_zip_bind {p q : Time → Py (XF ℝ)} {a b : Time → SunTimes} {f g : SunTimes → XF ℝ → XF ℝ × XF ℝ} {idx : List Time}
    (h : ∀ t ∈ idx, (∃ e, p t = .error e ∧ q t = .error e) ∨ ∃ x y, p t = .ok x ∧ q t = .ok y ∧ f (a t) x = g (b t) y) :
    ((idx.mapM p) >>= fun ds => (.ok (List.zipWith f (idx.map a) ds) : Py _)) = (idx.mapM q) >>= fun ds => .ok (List.zipWith g (idx.map b) ds) := by
  have := mapM_zip h
  cases hp : idx.mapM p <;> cases hq : idx.mapM q <;> rw [hp, hq] at this <;> exact this

theorem shiftFor_near {R : XF ℝ → XF ℝ → Prop} {sh' sh : List (Int × XF ℝ)} (h : List.Forall₂ (fun a b => a.1 = b.1 ∧ R a.2 b.2) sh' sh) (t : Time) :
    (∃ e, shiftFor sh' t = .error e ∧ shiftFor sh t = .error e) ∨ ∃ x y, shiftFor sh' t = .ok x ∧ shiftFor sh t = .ok y ∧ R x y ∧ (monthOf t, y) ∈ sh := by
  unfold shiftFor
  induction h with
  | nil => exact .inl ⟨_, rfl, rfl⟩
  | @cons a b l₁ l₂ hab _ ih =>
    rw [List.find?_cons, List.find?_cons, hab.1]
    by_cases hb : (b.1 == monthOf t) = true
    · rw [hb]
      refine .inr ⟨_, _, rfl, rfl, hab.2, ?_⟩
      rw [← eq_of_beq hb]
      exact List.mem_cons_self
    · have hb : (b.1 == monthOf t) = false := by simpa using hb
      rw [hb]
      rcases ih with ih | ⟨x, y, i1, i2, i3, i4⟩
      · exact .inl ih
      · exact .inr ⟨x, y, i1, i2, i3, List.mem_cons_of_mem _ i4⟩

theorem at?_self {V : Type} {f : Time → V} : ∀ {idx : List Time} {t : Time}, t ∈ idx → Series.at? (idx.map fun t => (t, f t)) t = some (f t) := by
  intro idx t ht
  unfold Series.at?
  induction idx with
  | nil => cases ht
  | cons a l ih =>
    rw [List.map_cons, List.find?_cons]
    by_cases h : a = t
    · subst h
      simp
    · have : ((a, f a).1 == t) = false := by simpa using h
      rw [this]
      exact ih ((List.mem_cons.1 ht).resolve_left fun e => h e.symm)

/-- **C153** (hours): the hours of minimum and maximum temperature computed in double precision from the sun times and shifts of double precision are exactly those of exact arithmetic, if no sunrise or solar noon
of exact arithmetic is within 10⁻¹² hours of midnight or of a half hour and (for 'sun_loc_shift') no sum of solar noon and shift is within (N + 22) 10⁻¹⁴ hours of a half hour. -/
theorem C153_hours {F : SunMath} (hF : DoubleTan F) (idx : List Time) (mmt : String) (lon lat tz : ℝ) (hlon : |lon| ≤ 360) (hlat : |lat| ≤ 60) (htz : |tz| ≤ 16)
    (N : Nat) (hN : N ≤ 1000000) (shift' shift : List (Int × XF ℝ))
    (hshift : List.Forall₂ (fun a b => a.1 = b.1 ∧ NearCell ((N + 16) * 1e-14) 77 a.2 b.2) shift' shift)
    (hclear : ∀ row ∈ getSunTimes idx lon lat tz, ClearDay 1e-12 row.2)
    (hmax : mmt = "sun_loc_shift" → ∀ row ∈ getSunTimes idx lon lat tz, ∀ noon d : ℝ, row.2.sunnoon = .fin noon → (monthOf row.1, XF.fin d) ∈ shift → OffHalf ((N + 22) * 1e-14) (noon + d)) :
    minMaxLocR (roundBits 53) idx mmt (some shift') (some (getSunTimesR F idx lon lat tz)) = minMaxLoc idx mmt (some shift) (some (getSunTimes idx lon lat tz)) := by
  have hclear' : ∀ t ∈ idx, ClearDay 1e-12 (sunTimesDoy (doyOf t) lon lat tz) := fun t ht => hclear (t, _) (List.mem_map.2 ⟨t, ht, rfl⟩)
  unfold minMaxLocR minMaxLoc
  split_ifs with c1 c2 c3
  · rfl
  · dsimp only
    congr 1
    apply List.map_congr_left
    intro t ht
    have e1 : (getSunTimesR F idx lon lat tz).at? t = some (sunTimesDoyR F (doyOf t) lon lat tz) := at?_self (f := fun t => sunTimesDoyR F (doyOf t) lon lat tz) ht
    have e2 : (getSunTimes idx lon lat tz).at? t = some (sunTimesDoy (doyOf t) lon lat tz) := at?_self (f := fun t => sunTimesDoy (doyOf t) lon lat tz) ht
    rw [e1, e2]
    obtain ⟨h1, h2⟩ := clear_pair hF t hlon hlat htz (hclear' t ht)
    dsimp only
    rw [h1, h2]
  · dsimp only
    have i1 : (getSunTimesR F idx lon lat tz).index = idx := by
      unfold getSunTimesR Series.index
      rw [List.map_map]
      exact List.map_id _
    have i2 : (getSunTimes idx lon lat tz).index = idx := by
      unfold getSunTimes Series.index
      rw [List.map_map]
      exact List.map_id _
    have v1 : (getSunTimesR F idx lon lat tz).values = idx.map fun t => sunTimesDoyR F (doyOf t) lon lat tz := by
      unfold getSunTimesR Series.values
      rw [List.map_map]
      rfl
    have v2 : (getSunTimes idx lon lat tz).values = idx.map fun t => sunTimesDoy (doyOf t) lon lat tz := by
      unfold getSunTimes Series.values
      rw [List.map_map]
      rfl
    simp only [i1, i2, v1, v2, ne_eq, not_true, if_false]
    refine mapM_zip_bind ?_
    intro t ht
    rcases shiftFor_near hshift t with h | ⟨x, y, h1, h2, h3, h4⟩
    · exact .inl h
    refine .inr ⟨x, y, h1, h2, ?_⟩
    obtain ⟨g1, g2⟩ := clear_pair hF t hlon hlat htz (hclear' t ht)
    rw [g1, g2]
    have : XF.round (((sunTimesDoyR F (doyOf t) lon lat tz).sunnoon + x).rnd (roundBits 53)) = XF.round ((sunTimesDoy (doyOf t) lon lat tz).sunnoon + y) := by
      obtain ⟨r', n', s', D', r, n, s, D, e1, e2, hn, hb, -⟩ := sun_pair hF t hlon hlat htz
      cases x <;> cases y <;> try exact h3.elim
      · rw [e1, e2]; rfl
      · rename_i x y
        have hoff := hmax c3 (t, sunTimesDoy (doyOf t) lon lat tz) (List.mem_map.2 ⟨t, ht, rfl⟩) n y (by rw [e2]) h4
        rw [e1, e2]
        show XF.fin ((roundEven (roundBits 53 (n' + x)) : Int) : ℝ) = XF.fin ((roundEven (n + y) : Int) : ℝ)
        rw [sameHour_near ?_ hoff]
        obtain ⟨u1, u2⟩ := h3
        have hNr : (N : ℝ) ≤ 1000000 := by exact_mod_cast hN
        have hN0 : (0 : ℝ) ≤ N := Nat.cast_nonneg N
        refine (Nr.fl (e := (N + 16) * 1e-14 + 4e-14) (B := 129.35) ⟨?_, ?_⟩ ?_).1
        · rw [show n' + x - (n + y) = (x - y) + (n' - n) by ring]
          exact (abs_add_le _ _).trans (add_le_add u1 hn)
        · exact (abs_add_le _ _).trans ((add_le_add hb u2).trans (by norm_num))
        · norm_num
          linarith
    rw [this]
  · rfl

/-- **C153** (long days): up to 60 degrees no day is shorter than 3 hours, neither in exact arithmetic nor in double precision, so the special branch of the sine methods is not taken. -/
theorem C153_long_days {F : SunMath} (hF : DoubleTan F) (idx : List Time) (lon lat tz : ℝ) (hlon : |lon| ≤ 360) (hlat : |lat| ≤ 60) (htz : |tz| ≤ 16) :
    (∀ r ∈ getSunTimes idx lon lat tz, ∃ D : ℝ, r.2.daylength = .fin D ∧ 3 ≤ D) ∧ ∀ r ∈ getSunTimesR F idx lon lat tz, ∃ D : ℝ, r.2.daylength = .fin D ∧ 3 ≤ D := by
  constructor <;> intro r hr <;> obtain ⟨t, -, rfl⟩ := List.mem_map.1 hr <;>
    obtain ⟨r', n', s', D', r, n, s, D, e1, e2, -, -, hD, h4, -⟩ := sun_pair hF t hlon hlat htz <;> dsimp only
  · rw [e2]
    exact ⟨D, rfl, by linarith⟩
  · rw [e1]
    have := abs_le.1 hD
    norm_num at this
    exact ⟨D', rfl, by linarith⟩

/-- **C153** (temperature): with the sun times and shifts of double precision, the sine methods give, under the conditions of `C153_hours`, the same hourly temperatures as with the sun times and shifts of exact
arithmetic (whose distance to exact hourly temperatures is bounded in C111). -/
theorem C153_temperature {F : SunMath} (hF : DoubleTan F) (G : FloatMath) (hG : G.fl = roundBits 53) (mean : List (XF ℝ) → XF ℝ) (api : PandasApi) (daily : Frame ℝ) (method mmt : String)
    (hm : method = "sine_min_max" ∨ method = "sine_mean" ∨ method = "sine") (modNight : Bool) (course : Option (MeanCourse ℝ))
    (lon lat tz : ℝ) (hlon : |lon| ≤ 360) (hlat : |lat| ≤ 60) (htz : |tz| ≤ 16) (N : Nat) (hN : N ≤ 1000000) (shift' shift : List (Int × XF ℝ))
    (hshift : List.Forall₂ (fun a b => a.1 = b.1 ∧ NearCell ((N + 16) * 1e-14) 77 a.2 b.2) shift' shift)
    (hclear : ∀ row ∈ getSunTimes daily.index lon lat tz, ClearDay 1e-12 row.2)
    (hmax : mmt = "sun_loc_shift" →
      ∀ row ∈ getSunTimes daily.index lon lat tz, ∀ noon d : ℝ, row.2.sunnoon = .fin noon → (monthOf row.1, XF.fin d) ∈ shift → OffHalf ((N + 22) * 1e-14) (noon + d)) :
    disaggregateTemperatureS G api daily method mmt modNight (some shift') (some (getSunTimesR F daily.index lon lat tz)) =
      disaggregateTemperatureR G mean api daily method mmt modNight (some shift) course (some (getSunTimes daily.index lon lat tz)) := by
  have hloc : locTableR G.fl daily mmt (some shift') (some (getSunTimesR F daily.index lon lat tz)) = locTable daily mmt (some shift) (some (getSunTimes daily.index lon lat tz)) := by
    unfold locTableR locTable
    rw [hG, C153_hours hF daily.index mmt lon lat tz hlon hlat htz N hN shift' shift hshift hclear hmax]
  have p1 : (getSunTimesR F daily.index lon lat tz).any (fun r => decide (XF.lt r.2.daylength (.fin 3))) = false := by
    rw [List.any_eq_false]
    intro r hr
    obtain ⟨t, -, rfl⟩ := List.mem_map.1 hr
    obtain ⟨r', n', s', D', r, n, s, D, e1, e2, -, -, hD, h4, -⟩ := sun_pair hF t hlon hlat htz
    have := abs_le.1 hD
    rw [decide_eq_true_eq]
    dsimp only
    rw [e1]
    show ¬ D' < 3
    norm_num at this ⊢
    linarith
  have p2 : (getSunTimes daily.index lon lat tz).any (fun r => decide (XF.lt r.2.daylength (.fin 3))) = false := by
    rw [List.any_eq_false]
    intro r hr
    obtain ⟨t, -, rfl⟩ := List.mem_map.1 hr
    obtain ⟨r', n', s', D', r, n, s, D, e1, e2, -, -, hD, h4, -⟩ := sun_pair hF t hlon hlat htz
    rw [decide_eq_true_eq]
    dsimp only
    rw [e2]
    show ¬ D < 3
    linarith
  unfold disaggregateTemperatureS disaggregateTemperatureR
  rw [if_neg (by
    rcases hm with h | h | h <;> simp [h])]
  simp only [if_pos hm]
  unfold sineTemperatureS sineTemperatureR
  simp only [hloc, p1, p2, Bool.false_eq_true, if_false]
  rfl

/-- **C153** (what the rounded functions round): with exact operations they are `get_shift_by_data` and the hours of `disaggregate_temperature`. -/
theorem C153_exact (temp : Series (XF ℝ)) (lon lat tz : ℝ) (idx : List Time) (mmt : String) (md : Option (List (Int × XF ℝ))) (sun : Option (Series SunTimes)) :
    getShiftByDataR SunMath.exact sumSkip temp lon lat tz = getShiftByData temp lon lat tz ∧ minMaxLocR id idx mmt md sun = minMaxLoc idx mmt md sun ∧
    ∀ (G : FloatMath) (mean : List (XF ℝ) → XF ℝ) (api : PandasApi) (daily : Frame ℝ) (method : String) (modNight : Bool) (course : Option (MeanCourse ℝ)),
      G.fl = id → (method = "sine_min_max" ∨ method = "sine_mean" ∨ method = "sine") →
      disaggregateTemperatureS G api daily method mmt modNight md sun = disaggregateTemperatureR G mean api daily method mmt modNight md course sun := by
  have h5 : ∀ c : XF ℝ, c.rnd SunMath.exact.fl = c := rndCell_id
  have hloc : ∀ (idx : List Time), minMaxLocR id idx mmt md sun = minMaxLoc idx mmt md sun := by
    intro idx
    unfold minMaxLocR minMaxLoc
    simp only [rndCell_id]
    rfl
  refine ⟨?_, hloc idx, ?_⟩
  · have em : meanR SunMath.exact.fl sumSkip = meanSkip := by
      funext l
      unfold meanR meanSkip
      simp only [h5]
    unfold getShiftByDataR getShiftByData
    simp only [h5, em, (C135_exact SunMath.exact _ lon lat tz).1]
  · intro G mean api daily method modNight course hG hm
    have hl : locTableR G.fl daily mmt md sun = locTable daily mmt md sun := by
      unfold locTableR locTable
      rw [hG, hloc]
    unfold disaggregateTemperatureS disaggregateTemperatureR
    rw [if_neg (by
      rcases hm with h | h | h <;> simp [h])]
    simp only [if_pos hm]
    unfold sineTemperatureS sineTemperatureR
    simp only [hl]
    rfl

/-! ### cases that meet the hypotheses -/

theorem offHalf_of_near {x d e : ℝ} {m : Int} (h : |x - m| ≤ d) (he : e + d < 1 / 2) : OffHalf e x := by
  intro k
  by_contra hc
  push Not at hc
  have h1 := abs_le.1 h
  have h2 := abs_le.1 hc
  rcases le_or_gt m k with hk | hk
  · have : (m : ℝ) ≤ k := by exact_mod_cast hk
    linarith
  · have : (k : ℝ) + 1 ≤ m := by exact_mod_cast hk
    linarith

/-- days at the equator -/
theorem equator_clear (idx : List Time) : ∀ row ∈ getSunTimes idx 0 0 0, ClearDay 1e-12 row.2 := by
  intro row hr
  obtain ⟨t, -, rfl⟩ := List.mem_map.1 hr
  obtain ⟨rise, noon, set, e, h1, h2⟩ := equator_sun (doyOf t)
  dsimp only
  rw [e]
  have a1 := abs_le.1 h1
  have a2 := abs_le.1 h2
  refine ⟨rise, noon, rfl, rfl, ?_, ?_, ?_, ?_, offHalf_of_near (m := 6) (by push_cast; exact h1) (by norm_num), offHalf_of_near (m := 12) (by push_cast; exact h2) (by norm_num)⟩ <;>
    norm_num at a1 a2 ⊢ <;> linarith

/-- one January day with the maximum at 13:00 -/
def peakDay : Series (XF ℝ) := hourlyS 0 1 fun _ h => if h = 13 then .fin 5 else .fin 0

theorem peakDay_days : ∀ r ∈ peakDay, r.1 / 86400000000 = 0 := by
  have hday : ∀ k : Nat, k < 24 → atHour (0 + (k / 24 : Nat)) (k % 24) / 86400000000 = 0 := by decide
  intro r hr
  obtain ⟨k, hk, rfl⟩ := List.mem_map.1 hr
  exact hday k (by simpa using hk)

/-- the shift of that day at the equator: the month is 1, and solar noon and shift add up to 13 -/
theorem peakDay_shift : ∃ noon : ℝ, (sunTimesDoy (doyOf (at00 0)) 0 0 0).sunnoon = .fin noon ∧ ∀ d, (1, XF.fin d) ∈ getShiftByData peakDay 0 0 0 → noon + d = 13 := by
  have hs : ∀ r ∈ peakDay, r.2.NanOrFin := by
    intro r hr
    obtain ⟨k, _, rfl⟩ := List.mem_map.1 hr
    dsimp only
    split <;> trivial
  obtain ⟨noon, hnoon⟩ : ∃ noon : Int → ℝ, ∀ d, (sunTimesDoy (doyOf (at00 d)) 0 0 0).sunnoon = .fin (noon d) := ⟨_, fun _ => rfl⟩
  obtain ⟨-, -, h3⟩ := C53_shift _ hs 0 0 0 noon hnoon
  refine ⟨noon 0, hnoon 0, fun x hx => ?_⟩
  have h13 : (atHour 0 13, .fin 5) ∈ peakDay := List.mem_map.2 ⟨13, by simp, rfl⟩
  have := (h3 _ _ hx [0] (fun _ => 13) (by simp) ?_ ?_).2 (by simp)
  · injection this with this
    rw [this]
    simp
  · intro d
    constructor
    · intro hd
      rw [List.mem_singleton.1 hd]
      exact ⟨by decide, _, h13, by decide, by simp⟩
    · rintro ⟨-, r, hr, rfl, -⟩
      rw [peakDay_days r hr]
      simp
  · intro d hd
    rw [List.mem_singleton.1 hd]
    have hf : (peakDay.filter fun r => decide (r.1 / 86400000000 = 0)) = peakDay := by
      rw [List.filter_eq_self]
      intro r hr
      simpa using peakDay_days r hr
    refine ⟨(List.range 13).map fun k : Nat => (atHour 0 k, .fin 0), (atHour 0 13, .fin 5),
      (List.range 10).map fun k : Nat => (atHour 0 (14 + k), .fin 0), 5, ?_, by decide, rfl, ?_, ?_⟩
    · rw [hf]
      simp [peakDay, hourlyS, List.range, List.range.loop]
    · intro y hy
      rw [mem_numbers_iff] at hy
      obtain ⟨q, hq, e⟩ := List.mem_map.1 hy
      obtain ⟨k, _, rfl⟩ := List.mem_map.1 hq
      cases e; norm_num
    · intro y hy
      rw [mem_numbers_iff] at hy
      obtain ⟨q, hq, e⟩ := List.mem_map.1 hy
      obtain ⟨k, _, rfl⟩ := List.mem_map.1 hq
      cases e; norm_num

theorem peakDay_near : ∀ a ∈ peakDay, ∀ b ∈ peakDay, b.1 / 86400000000 - a.1 / 86400000000 < ((1 : Nat) : Int) := by
  intro a ha b hb
  rw [peakDay_days a ha, peakDay_days b hb]
  decide

theorem peakDay_off : ∀ row ∈ getSunTimes [at00 0] 0 0 0, ∀ noon d : ℝ, row.2.sunnoon = .fin noon → (monthOf row.1, XF.fin d) ∈ getShiftByData peakDay 0 0 0 →
    OffHalf (((1 : Nat) + 22) * 1e-14) (noon + d) := by
  intro row hr noon d hn hd
  obtain rfl : row = (at00 0, sunTimesDoy (doyOf (at00 0)) 0 0 0) := by simpa [getSunTimes] using hr
  obtain ⟨noon', h1, h2⟩ := peakDay_shift
  have hn' : (sunTimesDoy (doyOf (at00 0)) 0 0 0).sunnoon = .fin noon := hn
  rw [h1] at hn'
  injection hn' with hn'
  subst hn'
  have hm : monthOf (at00 0) = 1 := by decide
  have hd' : (monthOf (at00 0), XF.fin d) ∈ getShiftByData peakDay 0 0 0 := hd
  rw [hm] at hd'
  rw [h2 d hd']
  exact offHalf_of_near (m := 13) (d := 0) (by norm_num) (by norm_num)

/-- C153: shifts of one day at the equator, used for the hours of that day -/
example : ∃ F : SunMath, DoubleTan F ∧
    minMaxLocR (roundBits 53) [at00 0] "sun_loc_shift" (some (getShiftByDataR F (groupSum (roundBits 53)) peakDay 0 0 0)) (some (getSunTimesR F [at00 0] 0 0 0)) =
      minMaxLoc [at00 0] "sun_loc_shift" (some (getShiftByData peakDay 0 0 0)) (some (getSunTimes [at00 0] 0 0 0)) := by
  refine ⟨_, doubleTan_exists, ?_⟩
  exact C153_hours doubleTan_exists [at00 0] "sun_loc_shift" 0 0 0 (by norm_num) (by norm_num) (by norm_num) 1 (by norm_num) _ _
    (C153_shift doubleTan_exists C149_plain peakDay 0 0 0 (by norm_num) (by norm_num) 1 (by norm_num) peakDay_near) (equator_clear _) fun _ => peakDay_off

/-- C153: hourly temperatures with sun times of double precision -/
example : ∃ F : SunMath, DoubleTan F ∧ ∃ out, disaggregateTemperatureS ⟨roundBits 53, fun x => roundBits 53 (Real.cos x), roundBits 53 Real.pi⟩ .modern exFrame "sine_mean" "sun_loc" false (some [])
    (some (getSunTimesR F exFrame.index 0 0 0)) = .ok out := by
  refine ⟨_, doubleTan_exists, ?_⟩
  rw [C153_temperature doubleTan_exists _ rfl meanSkip .modern exFrame "sine_mean" "sun_loc" (.inr (.inl rfl)) false none 0 0 0 (by norm_num) (by norm_num) (by norm_num) 0 (by norm_num) [] []
    .nil (equator_clear _) (fun h => absurd h (by decide))]
  obtain ⟨out, h⟩ := equator_ok (.inr (.inl rfl))
  have h' : disaggregateTemperature .modern exFrame "sine_mean" "sun_loc" false (some []) none (some (getSunTimes exFrame.index 0 0 0)) = .ok out := h
  have := C111_same_outcome ⟨roundBits 53, fun x => roundBits 53 (Real.cos x), roundBits 53 Real.pi⟩ meanSkip .modern exFrame "sine_mean" "sun_loc" false (some []) none
    (some (getSunTimes exFrame.index 0 0 0))
  rw [h'] at this
  cases hh : disaggregateTemperatureR ⟨roundBits 53, fun x => roundBits 53 (Real.cos x), roundBits 53 Real.pi⟩ meanSkip .modern exFrame "sine_mean" "sun_loc" false (some []) none
    (some (getSunTimes exFrame.index 0 0 0)) with
  | error e => rw [hh] at this; cases this
  | ok o => exact ⟨o, rfl⟩

end

end Melodist
