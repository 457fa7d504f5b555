import Verif.Props.ObsErrors
import Verif.Props.TemperatureShift

/-!
# C166: errors of hourly observations: dew points, the dew point regression, and the hour of the temperature maximum
-/

set_option linter.unusedSectionVars false

namespace Melodist
open Spec

noncomputable section

/-! ## dew points -/

/-- the dew point in terms of L = ln(e / 6.112 hPa) -/
theorem dew_share {a b t L L' E : ℝ} (ha : 0 < a) (hb : 0 < b + t) (hb' : 0 < b) (h1 : a - L ≥ a * b / (b + t)) (h2 : a - L' ≥ a * b / (b + t)) (hE : |L - L'| ≤ E) :
    |b * L / (a - L) - b * L' / (a - L')| ≤ (b + t) ^ 2 / (a * b) * E := by
  have hg : 0 < a * b / (b + t) := by positivity
  have p1 : 0 < a - L := by linarith
  have p2 : 0 < a - L' := by linarith
  have e : b * L / (a - L) - b * L' / (a - L') = a * b * (L - L') / ((a - L) * (a - L')) := by
    field_simp
    ring
  have hden : (a * b / (b + t)) * (a * b / (b + t)) ≤ (a - L) * (a - L') := mul_le_mul h1 h2 hg.le p1.le
  rw [e, abs_div, abs_mul, abs_of_pos (mul_pos p1 p2), abs_of_pos (mul_pos ha hb')]
  calc a * b * |L - L'| / ((a - L) * (a - L')) ≤ a * b * E / ((a * b / (b + t)) * (a * b / (b + t))) :=
        div_le_div₀ (mul_nonneg (by positivity) ((abs_nonneg _).trans hE)) (mul_le_mul_of_nonneg_left hE (by positivity)) (by positivity) hden
    _ = (b + t) ^ 2 / (a * b) * E := by field_simp

theorem log_near {h h' H : ℝ} (hH : 0 < H) (h1 : H ≤ h) (h2 : H ≤ h') : |Real.log h - Real.log h'| ≤ |h - h'| / H := by
  have key : ∀ {x y : ℝ}, H ≤ x → H ≤ y → x ≤ y → Real.log y - Real.log x ≤ (y - x) / H := by
    intro x y hx hy hxy
    have x0 : 0 < x := by linarith
    have y0 : 0 < y := by linarith
    rw [← Real.log_div y0.ne' x0.ne']
    refine (Real.log_le_sub_one_of_pos (by positivity)).trans ?_
    have : y / x - 1 = (y - x) / x := by field_simp
    rw [this]
    exact div_le_div_of_nonneg_left (by linarith) hH hx
  rcases le_total h h' with hc | hc
  · rw [abs_of_nonpos (sub_nonpos.2 (Real.log_le_log (by linarith) hc)), abs_of_nonpos (by linarith)]
    have := key h1 h2 hc
    linarith [this, show (-(h - h')) / H = (h' - h) / H by ring]
  · rw [abs_of_nonneg (sub_nonneg.2 (Real.log_le_log (by linarith) hc)), abs_of_nonneg (by linarith)]
    exact key h2 h1 hc

/-- **C166** (dew point) At the same temperature (up to 50 degrees Celsius) and two relative humidities of at least `H` percent, the dew points differ by at most 20.1 K times the difference divided by `H`. -/
theorem C166_dewpoint {T h h' H : ℝ} (hT : 0.53 < T) (hT' : T ≤ 323.15) (hH : 0 < H) (h1 : H ≤ h) (h2 : H ≤ h') (h3 : h ≤ 100) (h4 : h' ≤ 100) :
    ∃ D D', dewpointCell (.fin T) (.fin h) = .fin D ∧ dewpointCell (.fin T) (.fin h') = .fin D' ∧ |D - D'| ≤ 20.1 * (|h - h'| / H) := by
  have p1 : 0 < h := by linarith
  have p2 : 0 < h' := by linarith
  refine ⟨_, _, dewpointCell_dewPoint hT p1 h3, dewpointCell_dewPoint hT p2 h4, ?_⟩
  have e1 : ∀ x q : ℝ, 0 < q → Real.log (6.112 * Real.exp x * q / 100 / 6.112) = x + Real.log (q / 100) := fun x q hq => by
    rw [show 6.112 * Real.exp x * q / 100 / 6.112 = Real.exp x * (q / 100) by ring, Real.log_mul (Real.exp_pos _).ne' (by positivity), Real.log_exp]
  have hl : ∀ q : ℝ, 0 < q → q ≤ 100 → Real.log (q / 100) ≤ 0 := fun q hq hq' => Real.log_nonpos (by positivity) (by linarith)
  have hd : |Real.log (h / 100) - Real.log (h' / 100)| ≤ |h - h'| / H := by
    rw [Real.log_div p1.ne' (by norm_num), Real.log_div p2.ne' (by norm_num)]
    have := log_near hH h1 h2
    rwa [show Real.log h - Real.log 100 - (Real.log h' - Real.log 100) = Real.log h - Real.log h' by ring]
  have hE : 0 ≤ |h - h'| / H := by positivity
  unfold dewPoint satPressure
  dsimp only
  by_cases hc : 273.15 ≤ T
  · rw [if_pos hc, if_pos hc, if_pos hc, e1 _ _ p1, e1 _ _ p2]
    set t := T - 273.15 with ht
    have hb : (0 : ℝ) < 243.12 + t := by linarith
    have hx : (17.62 : ℝ) - 17.62 * t / (243.12 + t) = 17.62 * 243.12 / (243.12 + t) := by field_simp; ring
    have := dew_share (a := 17.62) (b := 243.12) (t := t) (L := 17.62 * t / (243.12 + t) + Real.log (h / 100)) (L' := 17.62 * t / (243.12 + t) + Real.log (h' / 100))
      (E := |h - h'| / H) (by norm_num) hb (by norm_num) (by linarith [hl h p1 h3]) (by linarith [hl h' p2 h4]) (by rwa [add_sub_add_left_eq_sub])
    have hk : (243.12 + t) ^ 2 / (17.62 * 243.12) ≤ 20.1 := by
      rw [div_le_iff₀ (by norm_num)]
      have : 243.12 + t ≤ 293.12 := by linarith
      nlinarith
    have h6 := mul_le_mul_of_nonneg_right hk hE
    rw [add_sub_add_left_eq_sub]
    exact this.trans h6
  · rw [if_neg hc, if_neg hc, if_neg hc, e1 _ _ p1, e1 _ _ p2]
    set t := T - 273.15 with ht
    have hb : (0 : ℝ) < 272.62 + t := by linarith
    have hx : (22.46 : ℝ) - 22.46 * t / (272.62 + t) = 22.46 * 272.62 / (272.62 + t) := by field_simp; ring
    have := dew_share (a := 22.46) (b := 272.62) (t := t) (L := 22.46 * t / (272.62 + t) + Real.log (h / 100)) (L' := 22.46 * t / (272.62 + t) + Real.log (h' / 100))
      (E := |h - h'| / H) (by norm_num) hb (by norm_num) (by linarith [hl h p1 h3]) (by linarith [hl h' p2 h4]) (by rwa [add_sub_add_left_eq_sub])
    have hk : (272.62 + t) ^ 2 / (22.46 * 272.62) ≤ 20.1 := by
      rw [div_le_iff₀ (by norm_num)]
      have : 272.62 + t ≤ 272.62 := by linarith
      nlinarith
    have h6 := mul_le_mul_of_nonneg_right hk hE
    rw [add_sub_add_left_eq_sub]
    exact this.trans h6

/-! ## the hour of the maximum -/

theorem firstMaxHour_clear {temp : Series (XF ℝ)} (hs : ∀ r ∈ temp, r.2.NanOrFin) {d : Int} {r : Time × XF ℝ} {x : ℝ} (hr : r ∈ temp) (hd : r.1 / 86400000000 = d) (hx : r.2 = .fin x)
    (hc : ∀ q ∈ temp, q.1 / 86400000000 = d → ∀ y, q.2 = .fin y → x ≤ y → hourOf q.1 = hourOf r.1) : firstMaxHour temp d = some (hourOf r.1) := by
  have hmemr : r ∈ temp.filter fun r => dayOf r.1 == d := List.mem_filter.2 ⟨hr, by simpa [dayOf] using hd⟩
  unfold firstMaxHour
  dsimp only
  set rows : Series (XF ℝ) := temp.filter fun r => dayOf r.1 == d with hrows
  have hnf : ∀ c ∈ rows.values, c.NanOrFin := by
    intro c hc
    obtain ⟨q, hq, rfl⟩ := List.mem_map.1 hc
    exact hs q (List.mem_filter.1 hq).1
  have hmem : x ∈ numbers rows.values := by
    rw [mem_numbers_iff, ← hx]
    exact List.mem_map_of_mem hmemr
  obtain ⟨m, hm, hm1, hm2⟩ := maxSkip_eq hnf (List.ne_nil_of_mem hmem)
  rw [hm]
  cases hf : rows.find? fun r => decide (XF.feq r.2 (.fin m)) with
  | none =>
    rw [mem_numbers_iff] at hm1
    obtain ⟨q, hq, e⟩ := List.mem_map.1 hm1
    have := List.find?_eq_none.1 hf q hq
    rw [e] at this
    simp at this
  | some q =>
    have h1 := List.find?_some hf
    have h2 := List.mem_of_find?_eq_some hf
    obtain ⟨h2, h3⟩ := List.mem_filter.1 h2
    rw [Option.map_some]
    have hq := hs q h2
    have h1 : XF.feq q.2 (.fin m) := by simpa using h1
    cases hv : q.2 with
    | fin y =>
      rw [hv] at h1
      simp only [XF.feq_fin] at h1
      rw [hc q h2 (by simpa [dayOf] using h3) y hv (by rw [h1]; exact hm2 x hmem)]
    | nan => rw [hv] at h1; simp [XF.feq] at h1
    | ninf => rw [hv] at h1; simp [XF.feq] at h1
    | pinf => rw [hv] at h1; simp [XF.feq] at h1

/-- On day `d` the values outside one hour of the day are more than `g` below a value in that hour. -/
def Spec.ClearMax (s : List (Int × XF ℝ)) (g : ℝ) (d : Int) : Prop :=
  ∃ r ∈ s, r.1 / 86400000000 = d ∧ ∃ x, r.2 = .fin x ∧ ∀ q ∈ s, q.1 / 86400000000 = d → ∀ y, q.2 = .fin y →
    q.1 % 86400000000 / 3600000000 = r.1 % 86400000000 / 3600000000 ∨ y < x - g

/-- **C166** (temperature shift) Two hourly records with the same times and missing values that differ by at most ε.  If on every day with numbers the maximum of the first record is more than 2 ε above the
values of the other hours, `get_shift_by_data` gives exactly the same result for both. -/
theorem C166_shift {ε : ℝ} {s s' : Series (XF ℝ)} (h : SeriesNear ε s s') (hc : ∀ r ∈ s, r.2 ≠ .nan → ClearMax s (2 * ε) (r.1 / 86400000000)) (lon lat tz : ℝ) :
    getShiftByData s' lon lat tz = getShiftByData s lon lat tz := by
  obtain ⟨f, f'⟩ := near_fins h
  have hi : Series.index s' = Series.index s := (seriesNear_index h).symm
  have key : ∀ d, firstMaxHour s' d = firstMaxHour s d := by
    intro d
    by_cases hd : ∃ r ∈ s, r.1 / 86400000000 = d ∧ r.2 ≠ .nan
    · obtain ⟨r0, hr0, rfl, hne⟩ := hd
      obtain ⟨r, hr, hd, x, hx, hq⟩ := hc r0 hr0 hne
      obtain ⟨r', hr', e1, e2⟩ := forall₂_mem_left h hr
      obtain ⟨x', hx', hxx⟩ : ∃ x', r'.2 = .fin x' ∧ |x - x'| ≤ ε := by
        rcases near_iff.1 e2 with ⟨n, _⟩ | ⟨a, b, n1, n2, n3⟩
        · rw [hx] at n; cases n
        · rw [hx] at n1; cases n1; exact ⟨b, n2, n3⟩
      have hxx' := abs_le.1 hxx
      have h0 : 0 ≤ ε := (abs_nonneg _).trans hxx
      rw [firstMaxHour_clear f hr hd hx fun q hqm hqd y hy hxy => (hq q hqm hqd y hy).resolve_right (by linarith),
        firstMaxHour_clear f' hr' (by rw [← e1]; exact hd) hx' ?_, e1]
      intro q' hq' hqd y' hy' hxy
      obtain ⟨q, hqm, e3, e4⟩ := forall₂_mem_right h hq'
      rcases near_iff.1 e4 with ⟨_, n⟩ | ⟨y, b, n1, n2, n3⟩
      · rw [hy'] at n; cases n
      · rw [hy'] at n2; cases n2
        have n3 := abs_le.1 n3
        have := (hq q hqm (by rw [e3]; exact hqd) y n1).resolve_right (by linarith)
        rw [← e3, ← e1]; exact this
    · push Not at hd
      rw [firstMaxHour_none hd, firstMaxHour_none]
      intro r' hr' hd'
      obtain ⟨r, hr, e1, e2⟩ := forall₂_mem_right h hr'
      rcases near_iff.1 e2 with ⟨_, n⟩ | ⟨y, b, n1, n2, n3⟩
      · exact n
      · have := hd r hr (by rw [e1]; exact hd')
        rw [n1] at this; cases this
  have hr : (Series.resampleD meanSkip s').index = (Series.resampleD meanSkip s).index := by
    unfold Series.resampleD
    rw [hi]
    simp [Series.index, Function.comp_def]
  unfold getShiftByData
  dsimp only
  rw [hi, hr]
  simp only [key]

/-- one day, rows at hours 0 and 23 -/
def twoRows (x y : ℝ) : Series (XF ℝ) := [(atHour 0 0, .fin x), (atHour 0 23, .fin y)]

theorem twoRows_shift (lon lat tz : ℝ) : ∃ noon : ℝ, ∀ x y h, firstMaxHour (twoRows x y) 0 = some h → getShiftByData (twoRows x y) lon lat tz = [(1, .fin ((h : ℝ) - noon))] := by
  obtain ⟨noon, hnoon⟩ : ∃ noon : ℝ, (sunTimesDoy (doyOf (at00 0)) lon lat tz).sunnoon = .fin noon := ⟨_, rfl⟩
  refine ⟨noon, fun x y h hf => ?_⟩
  have h1 : Series.daySpan (twoRows x y).index = [0] := by
    show Series.daySpan [atHour 0 0, atHour 0 23] = [0]
    decide
  have h2 : ((List.range 12).map fun (k : Nat) => (k : Int) + 1).filter (fun m => monthOf (midnight 0) == m) = [1] := by decide
  have h3 : monthOf (midnight 0) = 1 := by decide
  have h4 : ((getSunTimes (Series.resampleD meanSkip (twoRows x y)).index lon lat tz).at? (midnight 0)).map SunTimes.sunnoon = some (.fin noon) := by
    rw [← hnoon]
    unfold Series.resampleD
    rw [h1]
    rfl
  unfold getShiftByData
  dsimp only
  rw [h1, List.map_singleton, hf, h4]
  simp only [List.any_cons, List.any_nil, Bool.or_false, h2, List.map_singleton]
  simp only [List.filter_cons, List.filter_nil, h3, beq_self_eq_true, if_true, List.map_singleton, Option.getD_some, hourCell, XF.fin_sub_fin]
  rw [meanSkip_eq (by simp [XF.NanOrFin]) (by simp [numbers])]
  simp [numbers]

/-- **C166** (temperature shift, ties) Without such a distance there is no bound: for every ε > 0 there are two records of one day that differ by at most ε and whose shifts differ by 23 hours. -/
theorem C166_shift_jump {ε : ℝ} (h0 : 0 < ε) (lon lat tz : ℝ) : ∃ s s' : Series (XF ℝ), ∃ x : ℝ, SeriesNear ε s s' ∧
    getShiftByData s lon lat tz = [(1, .fin x)] ∧ getShiftByData s' lon lat tz = [(1, .fin (x + 23))] := by
  obtain ⟨noon, hn⟩ := twoRows_shift lon lat tz
  have d0 : atHour 0 0 / 86400000000 = 0 := by decide
  have d23 : atHour 0 23 / 86400000000 = 0 := by decide
  have fin : ∀ x y, ∀ r ∈ twoRows x y, r.2.NanOrFin := by
    intro x y r hr
    simp only [twoRows, List.mem_cons, List.not_mem_nil, or_false] at hr
    rcases hr with rfl | rfl <;> trivial
  have filt : ∀ x y, ((twoRows x y).filter fun r => decide (r.1 / 86400000000 = 0)) = twoRows x y := by
    intro x y
    rw [List.filter_eq_self]
    intro r hr
    simp only [twoRows, List.mem_cons, List.not_mem_nil, or_false] at hr
    rcases hr with rfl | rfl <;> simp [d0, d23]
  refine ⟨twoRows 280 280, twoRows 280 (280 + ε), 0 - noon, ?_, ?_, ?_⟩
  · refine .cons ⟨rfl, ?_⟩ (.cons ⟨rfl, ?_⟩ .nil)
    · show |(280 : ℝ) - 280| ≤ ε
      simp [h0.le]
    · show |(280 : ℝ) - (280 + ε)| ≤ ε
      rw [sub_add_cancel_left, abs_neg, abs_of_pos h0]
  · rw [hn 280 280 0 (firstMaxHour_eq (fin _ _) ⟨[], (atHour 0 0, .fin 280), [(atHour 0 23, .fin 280)], 280, filt _ _, by decide, rfl, by simp [numbers], by simp [numbers]⟩)]
    simp
  · rw [hn 280 (280 + ε) 23 (firstMaxHour_eq (fin _ _) ⟨[(atHour 0 0, .fin 280)], (atHour 0 23, .fin (280 + ε)), [], 280 + ε, filt _ _, (by decide : atHour 0 23 % 86400000000 / 3600000000 = 23), rfl, by simp [numbers, h0], by simp [numbers]⟩)]
    congr 3
    push_cast
    ring

/-! ## the dew point regression -/

theorem linregress_val {pts : List (ℝ × ℝ)} (hne : ∃ p ∈ pts, ∃ q ∈ pts, p.1 ≠ q.1) {s c : ℝ} (h : linregress pts = .ok (.fin s, .fin c)) :
    let mx := (pts.map Prod.fst).sum / (pts.length : ℝ)
    let my := (pts.map Prod.snd).sum / (pts.length : ℝ)
    let A := (pts.map fun p => (p.1 - mx) * (p.1 - mx)).sum
    0 < A ∧ s = (pts.map fun p => (p.1 - mx) * (p.2 - my)).sum / A ∧ c = my - s * mx := by
  obtain ⟨p, hp, q, hq, hpq⟩ := hne
  intro mx my A
  have hA0 : A ≠ 0 := by
    intro h
    have h' := sum_sq_zero (pts.map fun p => p.1 - mx) (by rw [List.map_map]; exact h)
    have e1 := h' _ (List.mem_map_of_mem hp)
    have e2 := h' _ (List.mem_map_of_mem hq)
    exact hpq (by linear_combination e1 - e2)
  have hAp : 0 < A := by
    refine lt_of_le_of_ne ?_ hA0.symm
    apply List.sum_nonneg
    intro y hy
    obtain ⟨z, _, rfl⟩ := List.mem_map.1 hy
    exact mul_self_nonneg _
  unfold linregress at h
  dsimp only at h
  rw [if_neg (List.ne_nil_of_mem hp), if_neg (by rintro ⟨_, h⟩; exact hpq (h p hp q hq)), XF.fin_div_fin_of_ne _ hA0, XF.fin_mul_fin, XF.fin_sub_fin] at h
  have h1 := Except.ok.inj h
  have h2 := XF.fin.inj (congrArg Prod.fst h1)
  have h3 := XF.fin.inj (congrArg Prod.snd h1)
  exact ⟨hAp, h2.symm, by rw [← h2]; exact h3.symm⟩

theorem sum_map_sub' {α : Type} (l : List α) (f g : α → ℝ) : (l.map fun a => f a - g a).sum = (l.map f).sum - (l.map g).sum := by
  induction l with
  | nil => simp
  | cons a l ih => simp only [List.map_cons, List.sum_cons, ih]; ring

theorem list_sum_abs_le {α : Type} (l : List α) (w v : α → ℝ) {δ : ℝ} (hv : ∀ a ∈ l, |v a| ≤ δ) : |(l.map fun a => w a * v a).sum| ≤ δ * (l.map fun a => |w a|).sum := by
  induction l with
  | nil => simp
  | cons a l ih =>
    simp only [List.map_cons, List.sum_cons]
    have h1 := ih fun b hb => hv b (List.mem_cons_of_mem _ hb)
    have h2 : |w a * v a| ≤ δ * |w a| := by
      rw [abs_mul, mul_comm]
      exact mul_le_mul_of_nonneg_right (hv a List.mem_cons_self) (abs_nonneg _)
    linarith [abs_add_le (w a * v a) (l.map fun a => w a * v a).sum]

/-- the regression lines through points with the same x and y that differ by at most δ -/
theorem regression_near (l : List Int) (x y y' : Int → ℝ) {δ : ℝ} (hy : ∀ d ∈ l, |y d - y' d| ≤ δ) (hvar : ∃ d ∈ l, ∃ e ∈ l, x d ≠ x e) {a1 a0 a1' a0' : ℝ}
    (h : linregress (l.map fun d => (x d, y d)) = .ok (.fin a1, .fin a0)) (h' : linregress (l.map fun d => (x d, y' d)) = .ok (.fin a1', .fin a0')) :
    let m := (l.map x).sum / l.length
    let Q := (l.map fun d => |x d - m|).sum / (l.map fun d => (x d - m) ^ 2).sum
    |a1 - a1'| ≤ δ * Q ∧ ∀ t, |(a1 * t + a0) - (a1' * t + a0')| ≤ δ * (1 + |t - m| * Q) := by
  intro m Q
  obtain ⟨d, hd, e, he, hde⟩ := hvar
  obtain ⟨p1, p2, p3⟩ := linregress_val ⟨_, List.mem_map_of_mem hd, _, List.mem_map_of_mem he, hde⟩ h
  obtain ⟨q1, q2, q3⟩ := linregress_val ⟨_, List.mem_map_of_mem hd, _, List.mem_map_of_mem he, hde⟩ h'
  simp only [List.map_map, Function.comp_def, List.length_map] at p1 p2 p3 q1 q2 q3
  have hlen : (0 : ℝ) < l.length := Nat.cast_pos.2 (List.length_pos_of_mem hd)
  have hm : (l.map fun d => x d).sum / (l.length : ℝ) = m := rfl
  set my := (l.map fun d => y d).sum / (l.length : ℝ) with hmy
  set my' := (l.map fun d => y' d).sum / (l.length : ℝ) with hmy'
  rw [hm] at p1 p2 p3 q1 q2 q3
  have hA : (l.map fun d => (x d - m) * (x d - m)).sum = (l.map fun d => (x d - m) ^ 2).sum := by simp only [sq]
  rw [hA] at p1 p2 q1 q2
  set A := (l.map fun d => (x d - m) ^ 2).sum
  have hmean : |my - my'| ≤ δ := by
    have := list_sum_abs_le l (fun _ => 1) (fun d => y d - y' d) hy
    rw [hmy, hmy', ← sub_div, abs_div, abs_of_pos hlen, div_le_iff₀ hlen]
    simp only [one_mul, abs_one, List.map_const', List.sum_replicate, nsmul_eq_mul, mul_one] at this
    rwa [sum_map_sub'] at this
  have hz : (l.map fun d => x d - m).sum = 0 := by
    rw [sum_map_sub', List.map_const', List.sum_replicate, nsmul_eq_mul]
    show (l.map x).sum - _ * ((l.map x).sum / _) = 0
    field_simp
    ring
  have hc : ∀ (z : Int → ℝ) (c : ℝ), (l.map fun d => (x d - m) * (z d - c)).sum = (l.map fun d => (x d - m) * z d).sum := by
    intro z c
    have : (fun d => (x d - m) * (z d - c)) = fun d => (x d - m) * z d - (x d - m) * c := by funext d; ring
    rw [this, sum_map_sub', List.sum_map_mul_right, hz, zero_mul, sub_zero]
  have hslope : |a1 - a1'| ≤ δ * Q := by
    rw [p2, q2, hc, hc, ← sub_div, ← sum_map_sub']
    have e : (fun d => (x d - m) * y d - (x d - m) * y' d) = fun d => (x d - m) * (y d - y' d) := by funext d; ring
    rw [e, abs_div, abs_of_pos p1]
    show _ ≤ δ * (_ / A)
    rw [← mul_div_assoc]
    exact div_le_div_of_nonneg_right (list_sum_abs_le l (fun d => x d - m) (fun d => y d - y' d) hy) p1.le
  refine ⟨hslope, fun t => ?_⟩
  have e : (a1 * t + a0) - (a1' * t + a0') = (my - my') + (t - m) * (a1 - a1') := by rw [p3, q3]; ring
  rw [e]
  refine (abs_add_le _ _).trans ?_
  rw [abs_mul]
  have := mul_le_mul_of_nonneg_left hslope (abs_nonneg (t - m))
  nlinarith

theorem dewOn_near {ε H : ℝ} (hH : 0 < H) {temp hum hum' : Series (XF ℝ)} (h1 : ∀ r ∈ temp, r.2 = .nan ∨ ∃ T, r.2 = .fin T ∧ 0.53 < T ∧ T ≤ 323.15)
    (h2 : ∀ r ∈ hum, r.2 = .nan ∨ ∃ h, r.2 = .fin h ∧ H ≤ h ∧ h ≤ 100) (h3 : ∀ r ∈ hum', r.2 = .nan ∨ ∃ h, r.2 = .fin h ∧ H ≤ h ∧ h ≤ 100) (hn : SeriesNear ε hum hum') (d : Int) :
    List.Forall₂ (fun x y => |x - y| ≤ 20.1 * (ε / H)) (dewOn temp hum d) (dewOn temp hum' d) := by
  induction hn generalizing temp with
  | nil => simp [dewOn]
  | @cons r r' l l' hr _ ih =>
    cases temp with
    | nil => simp [dewOn]
    | cons q temp =>
      have i := ih (temp := temp) (fun r hr => h1 r (List.mem_cons_of_mem _ hr)) (fun r hr => h2 r (List.mem_cons_of_mem _ hr)) fun r hr => h3 r (List.mem_cons_of_mem _ hr)
      have c1 := h1 q List.mem_cons_self
      have c2 := h2 r List.mem_cons_self
      have c3 := h3 r' List.mem_cons_self
      unfold dewOn at i ⊢
      rw [List.zip_cons_cons, List.zip_cons_cons, List.filterMap_cons, List.filterMap_cons]
      dsimp only
      by_cases hd : q.1 / 86400000000 = d
      · rw [if_pos hd, if_pos hd]
        rcases c1 with c1 | ⟨T, c1, t1, t2⟩
        · rw [c1]; exact i
        · rcases near_iff.1 hr.2 with ⟨n1, n2⟩ | ⟨x, y, n1, n2, n3⟩
          · rw [c1, n1, n2]; exact i
          · rw [c1, n1, n2]
            rw [n1] at c2
            rw [n2] at c3
            obtain ⟨x', e, x1, x2⟩ := c2.resolve_left (by simp)
            cases e
            obtain ⟨y', e, y1, y2⟩ := c3.resolve_left (by simp)
            cases e
            obtain ⟨D, D', e1, e2, e3⟩ := C166_dewpoint t1 t2 hH x1 y1 x2 y2
            rw [dewpointCell_dewPoint t1 (by linarith) x2] at e1
            rw [dewpointCell_dewPoint t1 (by linarith) y2] at e2
            cases e1; cases e2
            refine List.Forall₂.cons (e3.trans ?_) i
            exact mul_le_mul_of_nonneg_left (div_le_div_of_nonneg_right n3 hH.le) (by norm_num)
      · rw [if_neg hd, if_neg hd]; exact i

/-- **C166** (dew point regression) Two hourly tables with the same temperatures (up to 50 degrees Celsius) whose humidities are at least `H` percent and differ by at most ε: with `tmin` the daily minimum
temperatures on the days with dew points (two of them different), `m` their mean and `Q = Σ |tmin - m| / Σ (tmin - m)²`, the fitted slopes differ by at most `δ Q` and the dew points of the two lines for
a daily minimum `t` by at most `δ (1 + |t - m| Q)`, where `δ = 20.1 ε / H`. -/
theorem C166_regression {ε H : ℝ} (hH : 0 < H) {obs obs' : Frame ℝ} (hwf : obs.WF) (hwf' : obs'.WF) {temp hum hum' : Series (XF ℝ)} (e1 : obs.col? "temp" = some temp)
    (e1' : obs'.col? "temp" = some temp) (e2 : obs.col? "hum" = some hum) (e2' : obs'.col? "hum" = some hum')
    (h1 : ∀ r ∈ temp, r.2 = .nan ∨ ∃ T, r.2 = .fin T ∧ 0.53 < T ∧ T ≤ 323.15) (h2 : ∀ r ∈ hum, r.2 = .nan ∨ ∃ h, r.2 = .fin h ∧ H ≤ h ∧ h ≤ 100)
    (h3 : ∀ r ∈ hum', r.2 = .nan ∨ ∃ h, r.2 = .fin h ∧ H ≤ h ∧ h ≤ 100) (hn : SeriesNear ε hum hum') (days : List Int) (hnd : days.Nodup)
    (hdays : ∀ d, d ∈ days ↔ ∃ rq ∈ temp.zip hum, rq.1.1 / 86400000000 = d ∧ rq.1.2 ≠ .nan ∧ rq.2.2 ≠ .nan) (tmin : Int → ℝ)
    (hmin : ∀ d ∈ days, tmin d ∈ numbers (dayCells temp d) ∧ ∀ y ∈ numbers (dayCells temp d), tmin d ≤ y) (hvar : ∃ d ∈ days, ∃ e ∈ days, tmin d ≠ tmin e) :
    ∃ a1 a0 a1' a0', dewpointRegression obs = .ok (.fin a1, .fin a0) ∧ dewpointRegression obs' = .ok (.fin a1', .fin a0') ∧
      let m := (days.map tmin).sum / days.length
      let Q := (days.map fun d => |tmin d - m|).sum / (days.map fun d => (tmin d - m) ^ 2).sum
      |a1 - a1'| ≤ 20.1 * (ε / H) * Q ∧ ∀ t, |(a1 * t + a0) - (a1' * t + a0')| ≤ 20.1 * (ε / H) * (1 + |t - m| * Q) := by
  have ok1 : ∀ r ∈ temp, TempOk r.2 := fun r hr => (h1 r hr).imp id fun ⟨T, a, b, _⟩ => ⟨T, a, b⟩
  have ok2 : ∀ r ∈ hum, HumOk r.2 := fun r hr => (h2 r hr).imp id fun ⟨T, a, b, c⟩ => ⟨T, a, by linarith, c⟩
  have ok3 : ∀ r ∈ hum', HumOk r.2 := fun r hr => (h3 r hr).imp id fun ⟨T, a, b, c⟩ => ⟨T, a, by linarith, c⟩
  have hdn := dewOn_near hH h1 h2 h3 hn
  have hlen : ∀ d, (dewOn temp hum d).length = (dewOn temp hum' d).length := fun d => (hdn d).length_eq
  have hiff : ∀ d, dewOn temp hum' d ≠ [] ↔ dewOn temp hum d ≠ [] := fun d => by
    rw [← List.length_pos_iff, ← List.length_pos_iff, hlen]
  have hday : ∀ d, d ∈ days ↔ dewOn temp hum d ≠ [] := by
    intro d
    rw [hdays]
    constructor
    · rintro ⟨rq, hrq, hd, n1, n2⟩
      obtain ⟨T, t, _⟩ := (h1 _ (List.of_mem_zip hrq).1).resolve_left n1
      obtain ⟨q, u, _⟩ := (h2 _ (List.of_mem_zip hrq).2).resolve_left n2
      refine List.ne_nil_of_mem (a := dewPoint T q) (List.mem_filterMap.2 ⟨rq, hrq, ?_⟩)
      rw [if_pos hd, t, u]
    · intro hne
      obtain ⟨x, hx⟩ := List.exists_mem_of_ne_nil _ hne
      obtain ⟨rq, hrq, he⟩ := List.mem_filterMap.1 hx
      by_cases hd : rq.1.1 / 86400000000 = d
      · rw [if_pos hd] at he
        refine ⟨rq, hrq, hd, ?_, ?_⟩
        · intro hc; rw [hc] at he; cases he
        · intro hc; rw [hc] at he; cases h : rq.1.2 <;> rw [h] at he <;> cases he
      · rw [if_neg hd] at he; cases he
  set D := (Series.daySpan temp.index).filter fun d => dewOn temp hum d ≠ [] with hD
  have hD' : ((Series.daySpan temp.index).filter fun d => dewOn temp hum' d ≠ []) = D := by
    rw [hD]
    apply List.filter_congr
    intro d _
    simp only [hiff]
  have hperm : D.Perm days := by
    rw [List.perm_ext_iff_of_nodup ((daySpan_nodup _).filter _) hnd]
    intro d
    rw [List.mem_filter, hday]
    simp only [decide_eq_true_iff]
    refine ⟨fun h => h.2, fun h => ⟨?_, h⟩⟩
    obtain ⟨x, hx⟩ := List.exists_mem_of_ne_nil _ h
    obtain ⟨rq, hrq, he⟩ := List.mem_filterMap.1 hx
    have hr : rq.1 ∈ temp := (List.of_mem_zip hrq).1
    by_cases hd : rq.1.1 / 86400000000 = d
    · rw [← hd]; exact mem_daySpan (List.mem_map_of_mem hr)
    · rw [if_neg hd] at he; cases he
  have r1 := dewpointRegression_eq hwf e1 e2 ok1 ok2 tmin (fun d => (dewOn temp hum d).sum / (dewOn temp hum d).length) (fun d hd => hmin d ((hday d).2 hd)) fun d _ => rfl
  have r2 := dewpointRegression_eq hwf' e1' e2' ok1 ok3 tmin (fun d => (dewOn temp hum' d).sum / (dewOn temp hum' d).length)
    (fun d hd => hmin d ((hday d).2 ((hiff d).1 hd))) fun d _ => rfl
  rw [← hD] at r1
  rw [hD'] at r2
  obtain ⟨d, hd, e, he, hde⟩ := hvar
  have hd := hperm.mem_iff.2 hd
  have he := hperm.mem_iff.2 he
  obtain ⟨a1, a0, q1, _⟩ := linregress_spec (D.map fun d => (tmin d, (dewOn temp hum d).sum / ((dewOn temp hum d).length : ℝ))) ⟨_, List.mem_map_of_mem hd, _, List.mem_map_of_mem he, hde⟩
  obtain ⟨a1', a0', q2, _⟩ := linregress_spec (D.map fun d => (tmin d, (dewOn temp hum' d).sum / ((dewOn temp hum' d).length : ℝ))) ⟨_, List.mem_map_of_mem hd, _, List.mem_map_of_mem he, hde⟩
  refine ⟨a1, a0, a1', a0', r1.trans q1, r2.trans q2, ?_⟩
  have := regression_near D tmin (fun d => (dewOn temp hum d).sum / (dewOn temp hum d).length) (fun d => (dewOn temp hum' d).sum / (dewOn temp hum' d).length) (δ := 20.1 * (ε / H))
    (fun d hd => by
      have h4 : dewOn temp hum d ≠ [] := (hday d).1 (hperm.mem_iff.1 hd)
      have h5 : (0 : ℝ) < (dewOn temp hum d).length := Nat.cast_pos.2 (List.length_pos_of_ne_nil h4)
      rw [← hlen, ← sub_div, abs_div, abs_of_pos h5, div_le_iff₀ h5, mul_comm]
      exact sum_near (hdn d))
    ⟨d, hd, e, he, hde⟩ q1 q2
  dsimp only at this ⊢
  simp only [(hperm.map _).sum_eq, hperm.length_eq] at this
  exact this

/-! ## concrete cases -/

/-- C166 (dew point): 50 % and 55 % at 20 degrees Celsius -/
example : ∃ D D', dewpointCell (.fin 293.15) (.fin 50) = .fin D ∧ dewpointCell (.fin 293.15) (.fin 55) = .fin D' ∧ |D - D'| ≤ 20.1 * (|50 - 55| / 50) :=
  C166_dewpoint (by norm_num) (by norm_num) (by norm_num) (by norm_num) (by norm_num) (by norm_num) (by norm_num)

/-- C166 (temperature shift): 285 K at 23 o'clock is more than 2 K above the other row; errors of 1 K do not matter -/
example (lon lat tz : ℝ) : getShiftByData (twoRows 281 284) lon lat tz = getShiftByData (twoRows 280 285) lon lat tz := by
  have hn : SeriesNear 1 (twoRows 280 285) (twoRows 281 284) := by
    refine .cons ⟨rfl, ?_⟩ (.cons ⟨rfl, ?_⟩ .nil)
    · show |(280 : ℝ) - 281| ≤ 1
      norm_num [abs_of_neg]
    · show |(285 : ℝ) - 284| ≤ 1
      norm_num
  refine C166_shift hn ?_ lon lat tz
  · have d0 : atHour 0 0 / 86400000000 = 0 := by decide
    have d23 : atHour 0 23 / 86400000000 = 0 := by decide
    have key : ClearMax (twoRows 280 285) (2 * 1) 0 := by
      refine ⟨(atHour 0 23, .fin 285), by simp [twoRows], d23, 285, rfl, ?_⟩
      intro q hq _ y hy
      simp only [twoRows, List.mem_cons, List.not_mem_nil, or_false] at hq
      rcases hq with rfl | rfl
      · cases hy; exact .inr (by norm_num)
      · exact .inl rfl
    intro r hr _
    simp only [twoRows, List.mem_cons, List.not_mem_nil, or_false] at hr
    rcases hr with rfl | rfl
    · rw [d0]; exact key
    · rw [d23]; exact key

/-- C166 (regression): two saturated days at 290 K and 280 K; 99 % instead of 100 % on the first one changes the slope by at most 20.1 / 99 / 5 -/
example : ∃ a1 a0 a1' a0', dewpointRegression saturated = .ok (.fin a1, .fin a0) ∧
    dewpointRegression (⟨[at00 0, at00 1], [("temp", [.fin 290, .fin 280]), ("hum", [.fin 99, .fin 100])]⟩ : Frame ℝ) = .ok (.fin a1', .fin a0') ∧ |a1 - a1'| ≤ 20.1 * (1 / 99) * (1 / 5) := by
  have d0 : at00 0 / 86400000000 = 0 := by decide
  have d1 : at00 1 / 86400000000 = 1 := by decide
  obtain ⟨a1, a0, a1', a0', r1, r2, r3, _⟩ := C166_regression (ε := 1) (H := 99) (by norm_num) (obs := saturated)
    (obs' := ⟨[at00 0, at00 1], [("temp", [.fin 290, .fin 280]), ("hum", [.fin 99, .fin 100])]⟩)
    (by intro c hc; simp [saturated] at hc; rcases hc with rfl | rfl | rfl <;> rfl) (by intro c hc; simp at hc; rcases hc with rfl | rfl <;> rfl)
    (temp := [(at00 0, .fin 290), (at00 1, .fin 280)]) (hum := [(at00 0, .fin 100), (at00 1, .fin 100)]) (hum' := [(at00 0, .fin 99), (at00 1, .fin 100)]) rfl rfl rfl rfl
    (by intro r hr; simp at hr; rcases hr with rfl | rfl <;> exact .inr ⟨_, rfl, by norm_num, by norm_num⟩)
    (by intro r hr; simp at hr; rcases hr with rfl | rfl <;> exact .inr ⟨_, rfl, by norm_num, by norm_num⟩)
    (by intro r hr; simp at hr; rcases hr with rfl | rfl <;> exact .inr ⟨_, rfl, by norm_num, by norm_num⟩)
    (.cons ⟨rfl, (by norm_num : |(100 : ℝ) - 99| ≤ 1)⟩ (.cons ⟨rfl, (by norm_num : |(100 : ℝ) - 100| ≤ 1)⟩ .nil)) [0, 1] (by decide)
    (by
      intro d
      simp only [List.zip_cons_cons, List.zip_nil_left, List.mem_cons, List.not_mem_nil, or_false]
      constructor
      · rintro (rfl | rfl)
        · exact ⟨_, .inl rfl, d0, by simp, by simp⟩
        · exact ⟨_, .inr rfl, d1, by simp, by simp⟩
      · rintro ⟨rq, rfl | rfl, h, _⟩
        · rw [← h, d0]; simp
        · rw [← h, d1]; simp)
    (fun d => if d = 0 then 290 else 280)
    (by intro d hd; simp at hd; rcases hd with rfl | rfl <;> simp [dayCells, at00, numbers])
    ⟨0, by simp, 1, by simp, by norm_num⟩
  refine ⟨a1, a0, a1', a0', r1, r2, r3.trans (le_of_eq ?_)⟩
  norm_num [abs_of_pos, abs_of_neg]

end

end Melodist
