import Verif.Spec.PackageTests
import Verif.Props.RoundingD
import Verif.Props.RoundingE
import Verif.Props.FiveMinutes

/-!
# C145: the assertions of the tests of the package, for all records

Totals and means of a day are computed in floating-point arithmetic, too.
-/

set_option linter.unusedSectionVars false

namespace Melodist
open Spec

noncomputable section

/-! ## the comparison -/

/-- rounding up to numbers of size `B` -/
def CloseFl (fl : ℝ → ℝ) (B : ℝ) : Prop := ∀ x, |x| ≤ B → |fl x - x| ≤ 1e-15 * |x| + 1e-20

theorem closeFl_R53 (B : ℝ) : CloseFl R53.fl B := by
  intro x _
  have := R53.err x
  rw [R53_u] at this
  refine this.trans ?_
  have h := abs_nonneg x
  have : (1 / 2 ^ 53 : ℝ) ≤ 1e-15 := by norm_num
  nlinarith

theorem isClose_of {fl : ℝ → ℝ} {B : ℝ} (hfl : CloseFl fl B) {a b : ℝ} (h : |a - b| ≤ 9e-4 + 1e-6 * |b|) (hB : |b| + 1 ≤ B) : IsClose fl (.fin a) (.fin b) := by
  have hb := abs_nonneg b
  have k1 : |fl 1e-3 - 1e-3| ≤ 1e-15 * 1e-3 + 1e-20 := by
    have := hfl 1e-3 (by rw [abs_of_pos] <;> [linarith; norm_num])
    rwa [abs_of_pos (by norm_num : (0 : ℝ) < 1e-3)] at this
  have k2 : |fl 1e-5 - 1e-5| ≤ 1e-15 * 1e-5 + 1e-20 := by
    have := hfl 1e-5 (by rw [abs_of_pos] <;> [linarith; norm_num])
    rwa [abs_of_pos (by norm_num : (0 : ℝ) < 1e-5)] at this
  obtain ⟨k1a, k1b⟩ := abs_le.1 k1
  obtain ⟨k2a, k2b⟩ := abs_le.1 k2
  have p2 : (9e-6 : ℝ) ≤ fl 1e-5 := by norm_num at k2a ⊢; linarith
  have p2' : fl 1e-5 ≤ (2e-5 : ℝ) := by norm_num at k2b ⊢; linarith
  have p1 : (9.9e-4 : ℝ) ≤ fl 1e-3 := by norm_num at k1a ⊢; linarith
  have p1' : fl 1e-3 ≤ (2e-3 : ℝ) := by norm_num at k1b ⊢; linarith
  set m := fl 1e-5 * |b| with hm
  have m1 : 9e-6 * |b| ≤ m := mul_le_mul_of_nonneg_right p2 hb
  have m2 : m ≤ 2e-5 * |b| := mul_le_mul_of_nonneg_right p2' hb
  have m0 : 0 ≤ m := by linarith
  have k3 := hfl m (by rw [abs_of_nonneg m0]; linarith)
  rw [abs_of_nonneg m0] at k3
  obtain ⟨k3a, k3b⟩ := abs_le.1 k3
  set s := fl 1e-3 + fl m with hs
  have s1 : 9.8e-4 + 8e-6 * |b| ≤ s := by rw [hs]; norm_num at k3a p1 m1 ⊢; linarith
  have s2 : s ≤ 3e-3 + 3e-5 * |b| := by rw [hs]; norm_num at k3b p1' m2 ⊢; linarith
  have s0 : 0 ≤ s := by linarith
  have k4 := hfl s (by rw [abs_of_nonneg s0]; linarith)
  rw [abs_of_nonneg s0] at k4
  obtain ⟨k4a, -⟩ := abs_le.1 k4
  have k5 := hfl (a - b) (by linarith)
  have k6 : |fl (a - b)| ≤ |fl (a - b) - (a - b)| + |a - b| := by
    have := abs_add_le (fl (a - b) - (a - b)) (a - b)
    simpa using this
  show |fl (a - b)| ≤ fl s
  norm_num at *
  linarith

theorem isClose53 {a b : ℝ} (h : |a - b| ≤ 9e-4 + 1e-6 * |b|) : IsClose (roundBits 53) (.fin a) (.fin b) := by
  rw [← R53_fl]
  exact isClose_of (closeFl_R53 _) h (le_refl _)

/-- the comparison fails when the values differ by more than the tolerance -/
theorem not_isClose53 {a b : ℝ} (h : 1.1e-3 + 1.1e-5 * |b| < |a - b|) : ¬ IsClose (roundBits 53) (.fin a) (.fin b) := by
  intro hc
  rw [← R53_fl] at hc
  have hc : |R53.fl (a - b)| ≤ R53.fl (R53.fl 1e-3 + R53.fl (R53.fl 1e-5 * |b|)) := hc
  have hb := abs_nonneg b
  have u : R53.u ≤ 1e-15 := by rw [R53_u]; norm_num
  have hi : ∀ x : ℝ, 0 ≤ x → 0 ≤ R53.fl x ∧ R53.fl x ≤ (1 + 1e-15) * x := fun x hx =>
    ⟨R53.fl_nonneg hx, (R53.fl_bounds hx).2.trans (mul_le_mul_of_nonneg_right (by linarith) hx)⟩
  have h1 := hi 1e-3 (by norm_num)
  have h2 := hi 1e-5 (by norm_num)
  have h3 := hi (R53.fl 1e-5 * |b|) (mul_nonneg h2.1 hb)
  have h4 := hi (R53.fl 1e-3 + R53.fl (R53.fl 1e-5 * |b|)) (add_nonneg h1.1 h3.1)
  have h5 := mul_le_mul_of_nonneg_right h2.2 hb
  have h6 := R53.err (a - b)
  have h7 : |a - b| ≤ |R53.fl (a - b)| + |R53.fl (a - b) - (a - b)| := by
    have := abs_sub (R53.fl (a - b)) (R53.fl (a - b) - (a - b))
    simpa using this
  have h8 := mul_le_mul_of_nonneg_right u (abs_nonneg (a - b))
  set x := |a - b|
  set y := R53.fl (R53.fl 1e-3 + R53.fl (R53.fl 1e-5 * |b|))
  set z := R53.fl (R53.fl 1e-5 * |b|)
  set w := R53.fl 1e-5 * |b|
  set v := R53.fl (1e-3 : ℝ)
  have hx : x ≤ y + 1e-15 * x := by linarith
  have h12 := h1.2
  have h32 := h3.2
  have h42 := h4.2
  clear_value x y z w v
  clear h1 h2 h3 h4 hi h6 h7 h8 hc
  norm_num at h h5 hx h12 h32 h42
  linarith

/-- the numbers of a list of numbers, and its size -/
theorem addsDay_nums {sum : List (XF ℝ) → XF ℝ} (h : AddsDay sum) {l : List ℝ} (h1 : l.length ≤ 288) (h2 : (l.map fun x => |x|).sum ≤ 10 ^ 300) :
    ∃ t, sum (l.map .fin) = .fin t ∧ |t - l.sum| ≤ 1e-12 * (1 + (l.map fun x => |x|).sum) := by
  have := h (l.map .fin) (by simpa using h1) (by
    intro c hc
    obtain ⟨x, _, rfl⟩ := List.mem_map.1 hc
    exact .inr ⟨x, rfl⟩) (by rwa [numbers_map_fin])
  rwa [numbers_map_fin] at this

theorem averages_nums {mean : List (XF ℝ) → XF ℝ} (h : AveragesDay mean) {l : List ℝ} (h0 : l ≠ []) (h1 : l.length ≤ 288) (h2 : (l.map fun x => |x|).sum ≤ 10 ^ 300) :
    ∃ t, mean (l.map .fin) = .fin t ∧ |t - l.sum / l.length| ≤ 1e-12 * (1 + (l.map fun x => |x|).sum / l.length) := by
  have := (h (l.map .fin) (by simpa using h1) (by
    intro c hc
    obtain ⟨x, _, rfl⟩ := List.mem_map.1 hc
    exact .inr ⟨x, rfl⟩) (by rwa [numbers_map_fin])).2
  rw [numbers_map_fin] at this
  exact this h0

theorem averages_nan {mean : List (XF ℝ) → XF ℝ} (h : AveragesDay mean) {l : List (XF ℝ)} (h1 : l.length ≤ 288) (hl : AllNan l) : mean l = .nan := by
  have e : numbers l = [] := by
    unfold numbers
    rw [List.filterMap_eq_nil_iff]
    intro c hc
    rw [hl c hc]
  exact (h l h1 (fun c hc => .inl (hl c hc)) (by rw [e]; simp)).1 e

theorem averages_day {mean : List (XF ℝ) → XF ℝ} (h : AveragesDay mean) {f : Nat → ℝ} {B : ℝ} (hf : ∀ k < 24, |f k| ≤ B) (hB : B ≤ 10 ^ 290) :
    ∃ t, mean ((day24 f).map .fin) = .fin t ∧ |t - (day24 f).sum / 24| ≤ 1e-12 * (1 + B) := by
  have e : ((day24 f).map fun x => |x|).sum ≤ 24 * B := by
    rw [day24_map, ← sum_day24_const]
    exact List.sum_le_sum fun k hk => hf k (List.mem_range.1 hk)
  obtain ⟨t, h1, h2⟩ := averages_nums h (l := day24 f) (by simp [day24]) (by simp) (e.trans (by
    calc 24 * B ≤ 24 * 10 ^ 290 := by linarith
      _ ≤ 10 ^ 10 * 10 ^ 290 := mul_le_mul_of_nonneg_right (by norm_num) (by positivity)
      _ = 10 ^ 300 := by rw [← pow_add]))
  refine ⟨t, h1, ?_⟩
  rw [day24_length] at h2
  refine h2.trans (mul_le_mul_of_nonneg_left ?_ (by norm_num))
  push_cast
  linarith

/-! ## wind, humidity and precipitation spread over the day -/

/-- the numbers of a record are not astronomically large -/
def Sane (n : Nat) (v : Nat → XF ℝ) : Prop := ∀ i < n, v i = .nan ∨ ∃ x, v i = .fin x ∧ |x| ≤ 10 ^ 290

theorem mean_const {mean : List (XF ℝ) → XF ℝ} (h : AveragesDay mean) {c : XF ℝ} (hc : c = .nan ∨ ∃ x, c = .fin x ∧ |x| ≤ 10 ^ 290) :
    IsClose (roundBits 53) c (mean (day24 fun _ => c)) := by
  rcases hc with rfl | ⟨x, rfl, hx⟩
  · rw [averages_nan h (by simp) (by intro c hc; obtain ⟨_, _, rfl⟩ := mem_day24.1 hc; rfl)]
    trivial
  · obtain ⟨t, h1, h2⟩ := averages_day h (f := fun _ => x) (B := |x|) (fun _ _ => le_refl _) hx
    rw [day24_map] at h1
    rw [h1]
    apply isClose53
    rw [sum_day24_const, mul_div_cancel_left₀ _ (by norm_num)] at h2
    have h3 : |x| ≤ |t| + |t - x| := by
      have := abs_sub t (t - x)
      simpa using this
    have h4 := abs_nonneg t
    rw [abs_sub_comm]
    norm_num at h2 ⊢
    linarith

/-- **C145 (wind).**  tests/test_wind.py:17-23: with 'equal' the daily means of the hourly values pass the comparison with the daily values on every day, missing or not. -/
theorem C145_wind (F : FloatMath) {mean : List (XF ℝ) → XF ℝ} (hm : AveragesDay mean) (api : PandasApi) (d0 : Int) {n : Nat} (hn : 0 < n) {v : Nat → XF ℝ}
    (hv : Sane n v) (a b tShift : ℝ) :
    ∃ l, disaggregateWindR F api (dailyS d0 n v) "equal" a b tShift = .ok l ∧ l.length = 24 * n ∧ ∀ i < n, IsClose (roundBits 53) (v i) (mean (arrayDay l i)) := by
  obtain ⟨l, h1, h2⟩ := (C111_wind R53 Real.cos Real.abs_cos_le_one Real.pi api d0 n hn v a b tShift).1
  have h1' : disaggregateWindR F api (dailyS d0 n v) "equal" a b tShift = .ok l := by
    unfold disaggregateWindR at h1 ⊢
    exact h1
  refine ⟨l, h1', ?_, ?_⟩
  · unfold disaggregateWindR at h1
    rw [distributeEqually_daily api d0 hn v, py_ok_bind, if_pos rfl] at h1
    cases h1
    rw [hourlyS_values, List.length_map, List.length_range]
  · intro i hi
    rw [h2 i hi]
    exact mean_const hm (hv i hi)

/-- **C145 (humidity).**  tests/test_humidity.py:20-32: with 'equal' the daily means of the hourly values pass the comparison with daily values between -0.0001 and 100.0001 (which are clipped), missing or
not; no value exceeds 100. -/
theorem C145_humidity (F : FloatHum) {mean mean' : List (XF ℝ) → XF ℝ} (hm : AveragesDay mean) (api : PandasApi) (d0 : Int) {n : Nat} (hn : 0 < n) {v : Nat → XF ℝ} {daily : Frame ℝ}
    (hd : daily.col? "hum" = some (dailyS d0 n v)) (hv : ∀ i < n, v i = .nan ∨ ∃ x, v i = .fin x ∧ -1e-4 ≤ x ∧ x ≤ 100 + 1e-4)
    (temp : Option (Series (XF ℝ))) (a0 a1 kr : Option ℝ) (table : Option (CatMeans ℝ)) :
    ∃ out, disaggregateHumidityR F mean' api daily "equal" temp a0 a1 kr table = .ok out ∧ (∀ r ∈ out, r.2 = .nan ∨ ∃ x, r.2 = .fin x ∧ 0 ≤ x ∧ x ≤ 100) ∧
      ∀ i < n, IsClose (roundBits 53) (mean (dayCells out (d0 + i))) (v i) := by
  have e : disaggregateHumidityR F mean' api daily "equal" temp a0 a1 kr table = .ok (hourlyS d0 n fun i _ => (v i).clip 0 100) := by
    unfold disaggregateHumidityR humidityRawR
    rw [if_neg (by simp), if_pos rfl, attr_ok hd, py_ok_bind, distributeEqually_daily api d0 hn v, py_ok_bind, if_neg (by simp)]
    simp only [py_ok_bind]
    congr 1
    unfold hourlyS
    rw [List.map_map]
    rfl
  have cell : ∀ i < n, (v i = .nan ∧ (v i).clip 0 100 = .nan) ∨ ∃ x y, v i = .fin x ∧ (v i).clip 0 100 = .fin y ∧ 0 ≤ y ∧ y ≤ 100 ∧ |x - y| ≤ 1e-4 := by
    intro i hi
    rcases hv i hi with h | ⟨x, h, h1, h2⟩
    · exact .inl ⟨h, by rw [h]; rfl⟩
    · refine .inr ⟨x, min (max x 0) 100, h, by rw [h]; rfl, le_min (le_max_right _ _) (by norm_num), min_le_right _ _, ?_⟩
      rcases min_cases (max x 0) 100 with ⟨e, _⟩ | ⟨e, _⟩ <;> rcases max_cases x 0 with ⟨e', _⟩ | ⟨e', _⟩ <;> rw [abs_le, e] <;> constructor <;> linarith
  refine ⟨_, e, ?_, ?_⟩
  · intro r hr
    unfold hourlyS at hr
    obtain ⟨k, hk, rfl⟩ := List.mem_map.1 hr
    have hk := List.mem_range.1 hk
    rcases cell (k / 24) (by omega) with ⟨_, h⟩ | ⟨x, y, _, h, h0, h1, _⟩
    · exact .inl h
    · exact .inr ⟨y, h, h0, h1⟩
  · intro i hi
    rw [dayCells_hourlyS d0 _ hi]
    rcases cell i hi with ⟨h, h'⟩ | ⟨x, y, h, h', h0, h1, h2⟩
    · rw [h', h, averages_nan hm (by simp) (by intro c hc; obtain ⟨_, _, rfl⟩ := mem_day24.1 hc; rfl)]
      trivial
    · obtain ⟨t, k1, k2⟩ := averages_day hm (f := fun _ => y) (B := 100) (fun _ _ => by rw [abs_of_nonneg h0]; exact h1) (by
        calc (100 : ℝ) = 10 ^ 2 := by norm_num
          _ ≤ 10 ^ 290 := pow_le_pow_right₀ (by norm_num) (by norm_num))
      rw [day24_map] at k1
      rw [h', h, k1]
      apply isClose53
      rw [sum_day24_const, mul_div_cancel_left₀ _ (by norm_num)] at k2
      have := abs_nonneg x
      have e : |t - x| ≤ |t - y| + |y - x| := abs_sub_le _ _ _
      rw [abs_sub_comm y x] at e
      norm_num at k2 h2 ⊢
      linarith

/-- **C145 (precipitation, equal).**  tests/test_precipitation.py:6-14: with 'equal' the comparison of the daily totals passes on the days with a number and fails on every missing day, since the
total of missing values is 0: it passes on the whole record exactly if no day is missing. -/
theorem C145_precipitation {sum : List (XF ℝ) → XF ℝ} (hs : AddsDay sum) (api : PandasApi) (d0 : Int) {n : Nat} (hn : 0 < n) {v : Nat → XF ℝ} (hv : Sane n v) :
    ∃ out, distributeEquallyR (roundBits 53) api (dailyS d0 n v) = .ok out ∧ ∀ i < n, (IsClose (roundBits 53) (v i) (sum (dayCells out (d0 + i))) ↔ v i ≠ .nan) := by
  obtain ⟨out, h1, h2⟩ := C102_equal R53 api d0 hn v
  refine ⟨out, h1, ?_⟩
  have e : out = hourlyS d0 n fun i _ => (v i / .fin 24).rnd R53.fl := by
    rw [equalR_run R53.fl api d0 hn v] at h1
    exact (Except.ok.inj h1).symm
  intro i hi
  rcases hv i hi with h | ⟨x, h, hx⟩
  · refine ⟨fun hc => ?_, fun hne => absurd h hne⟩
    have hn' : AllNan (dayCells out (d0 + i)) := (h2 i hi).1 h
    have en : numbers (dayCells out (d0 + i)) = [] := by
      unfold numbers
      rw [List.filterMap_eq_nil_iff]
      intro c hc
      rw [hn' c hc]
    have hl : (dayCells out (d0 + i)).length ≤ 288 := by rw [e, dayCells_hourlyS d0 _ hi]; simp
    obtain ⟨t, ht, _⟩ := hs _ hl (fun c hc => .inl (hn' c hc)) (by rw [en]; simp)
    rw [h, ht] at hc
    exact hc.elim
  · refine ⟨fun _ hc => (by rw [h] at hc; cases hc), fun _ => ?_⟩
    have ec : dayCells out (d0 + i) = (day24 fun _ => R53.fl (x / 24)).map .fin := by
      rw [e, dayCells_hourlyS d0 _ hi, day24_map, h]
      apply day24_congr
      intro _ _
      rw [XF.fin_div_fin_of_ne _ (by norm_num)]
      rfl
    have err := R53.err (x / 24)
    have u : R53.u ≤ 1e-15 := by rw [R53_u]; norm_num
    have ex : |x / 24| = |x| / 24 := by rw [abs_div, abs_of_pos (by norm_num : (0 : ℝ) < 24)]
    have u' := mul_le_mul_of_nonneg_right u (abs_nonneg (x / 24))
    rw [ex] at err u'
    have hx0 := abs_nonneg x
    set y := R53.fl (x / 24) with hy
    have hy1 : |y| ≤ |y - x / 24| + |x| / 24 := by
      have := abs_add_le (y - x / 24) (x / 24)
      rw [ex] at this
      simpa using this
    have e24 : ((day24 fun _ => y).map fun x => |x|).sum = 24 * |y| := by rw [day24_map, sum_day24_const]
    obtain ⟨t, t1, t2⟩ := addsDay_nums hs (l := day24 fun _ => y) (by simp) (by
      rw [e24]
      have : 24 * |y| ≤ 10 ^ 10 * |x| := by norm_num at u' ⊢; linarith
      refine this.trans ((mul_le_mul_of_nonneg_left hx (by norm_num)).trans (le_of_eq ?_))
      rw [← pow_add])
    rw [ec, h, t1]
    apply isClose53
    rw [e24, sum_day24_const] at t2
    have a1 : |x - t| ≤ |x - 24 * y| + |24 * y - t| := abs_sub_le _ _ _
    rw [show x - 24 * y = 24 * -(y - x / 24) by ring, abs_mul, abs_neg, abs_of_pos (by norm_num : (0 : ℝ) < 24), abs_sub_comm (24 * y)] at a1
    have a2 : |x| ≤ |t| + |x - t| := by
      have := abs_add_le t (x - t)
      simpa using this
    norm_num at u' t2 ⊢
    linarith

/-! ## the cascade -/

/-- the total of non-negative numbers passes the comparison with a number close to their exact total -/
theorem total_close {sum : List (XF ℝ) → XF ℝ} (hs : AddsDay sum) {fl : ℝ → ℝ} {B : ℝ} (hfl : CloseFl fl B) {cells : List (XF ℝ)} (hl : cells.length ≤ 288) {T P : ℝ} (hT : TotalIs cells T)
    (h0 : ∀ c ∈ cells, ∃ y, c = .fin y ∧ 0 ≤ y) (hP : 0 ≤ P) (hB : 2 * P + 3 ≤ B) (hB' : 2 * P + 3 ≤ 10 ^ 300) (h : |T - P| ≤ 2e-4 + 1e-7 * P) :
    IsClose fl (.fin P) (sum cells) := by
  obtain ⟨ys, rfl, rfl⟩ := hT
  have hy : ∀ y ∈ ys, 0 ≤ y := by
    intro y hy
    obtain ⟨z, e, hz⟩ := h0 _ (List.mem_map.2 ⟨y, hy, rfl⟩)
    cases e
    exact hz
  have es : (ys.map fun x => |x|) = ys := by
    conv_rhs => rw [← List.map_id ys]
    exact List.map_congr_left fun y hy' => abs_of_nonneg (hy y hy')
  have hs0 : 0 ≤ ys.sum := List.sum_nonneg hy
  obtain ⟨h1, h2⟩ := abs_le.1 h
  obtain ⟨t, t1, t2⟩ := addsDay_nums hs (l := ys) (by simpa using hl) (by
    rw [es]
    refine le_trans ?_ hB'
    norm_num at h2 ⊢
    linarith)
  rw [t1]
  rw [es] at t2
  obtain ⟨t3, t4⟩ := abs_le.1 t2
  have ht : t ≤ |t| := le_abs_self t
  have ht' : |t| ≤ ys.sum + 1e-12 * (1 + ys.sum) := by rw [abs_le]; norm_num at t3 t4 ⊢; constructor <;> linarith
  apply isClose_of hfl
  · rw [abs_le]; norm_num at h1 h2 t3 t4 ⊢; constructor <;> linarith
  · norm_num at h1 h2 t3 t4 ht' ⊢; linarith

/-- **C145 (cascade).**  tests/test_precipitation.py:16-26: in a record of up to a million days with up to 10¹⁰ mm the comparison of the daily totals passes on every day with a number. -/
theorem C145_cascade {sum : List (XF ℝ) → XF ℝ} (hs : AddsDay sum) {api : PandasApi} {rnd : Nat → ℝ} {opts : CascOptions ℝ} {r : CascadeOut ℝ} {d0 : Int} {n : Nat} (hn : n ≤ 10 ^ 6)
    {v : Nat → XF ℝ} (hv : ∀ i < n, ∀ x, v i = .fin x → 0 ≤ x) (hT : (numbers ((List.range n).map v)).sum ≤ 10 ^ 10)
    (h : cascadeR (roundBits 53) api rnd (dailyS d0 n v) opts = .ok r) {i : Nat} (hi : i < n) {P : ℝ} (hP : v i = .fin P) :
    IsClose (roundBits 53) (v i) (sum (dayCells r.series (d0 + i))) := by
  obtain ⟨T, h1, h2⟩ := C102_cascade_double hn hv h hi hP
  have h3 := (C102_cascade_cells R53 hv h hi).1 P hP
  have hP0 := hv i hi P hP
  have hPS : P ≤ (numbers ((List.range n).map v)).sum := by
    apply List.single_le_sum
    · intro x hx
      obtain ⟨j, hj, e⟩ := List.mem_map.1 (mem_numbersR.1 hx)
      exact hv j (List.mem_range.1 hj) x e
    · exact mem_numbersR.2 (List.mem_map.2 ⟨i, List.mem_range.2 hi, hP⟩)
  rw [hP, ← R53_fl]
  have hl : (dayCells r.series (d0 + i)).length ≤ 288 := by
    obtain ⟨w, q, hw, hlen, hs, hr⟩ := cascadeR_eq R53 hv h
    rw [hr, dayCells_hourlyS d0 _ hi]
    simp
  refine total_close hs (closeFl_R53 (2 * P + 3)) hl h1 h3 hP0 (le_refl _) ?_ (h2.trans ?_)
  · calc 2 * P + 3 ≤ 10 ^ 11 := by norm_num at hT ⊢; linarith
      _ ≤ 10 ^ 300 := pow_le_pow_right₀ (by norm_num) (by norm_num)
  · norm_num at hT ⊢
    linarith

/-- **C145 (cascade, 5 minutes).**  tests/test_precipitation_5min.py: with values every five minutes, in binary64 with underflow, the comparison passes on every day with a precipitation of at most
10²⁹⁰ mm, whatever the rest of the record. -/
theorem C145_five_minutes {fl : ℝ → ℝ} (hfl : IsBinary64 fl) {bin : List ℝ → ℝ} (hbin : SumsWithin fl (1 / 10 ^ 15) (2 ^ 1021) bin) {sum : List (XF ℝ) → XF ℝ} (hs : AddsDay sum) {api : PandasApi}
    {rnd : Nat → ℝ} {opts : CascOptions ℝ} (ho : FrequencyTables opts) {level : Nat} (hlev : 9 ≤ level) {r : CascadeOut ℝ} {d0 : Int} {n : Nat} {v : Nat → XF ℝ}
    (hv : ∀ i < n, ∀ x, v i = .fin x → 0 ≤ x ∧ x ≤ 10 ^ 290 ∧ fl x = x) (h : cascade5R fl bin api rnd (dailyS d0 n v) opts level = .ok r) {i : Nat} (hi : i < n) {P : ℝ} (hP : v i = .fin P) :
    IsClose fl (v i) (sum (dayCells r.series (d0 + i))) := by
  have h290 : (10 : ℝ) ^ 290 ≤ 10 ^ 300 := pow_le_pow_right₀ (by norm_num) (by norm_num)
  obtain ⟨k1, k2, k3, -⟩ := C131_binary64 hfl hbin ho (fun i hi x hx => ⟨(hv i hi x hx).1, (hv i hi x hx).2.1.trans h290, (hv i hi x hx).2.2⟩) h hi
  obtain ⟨T, h1, h2⟩ := k2 P hP
  obtain ⟨hP0, hP1, -⟩ := hv i hi P hP
  have hc : CloseFl fl (2 ^ 1023) := by
    intro x hx
    rw [hfl x hx, ← b64_fl]
    have := b64.err x
    rw [b64_u, b64_a] at this
    refine this.trans (add_le_add (mul_le_mul_of_nonneg_right (by norm_num) (abs_nonneg x)) ?_)
    calc (1 / 2 ^ 1075 : ℝ) ≤ 1 / 2 ^ 100 := one_div_le_one_div_of_le (by positivity) (pow_le_pow_right₀ (by norm_num) (by norm_num))
      _ ≤ _ := by norm_num
  have h3 : 2 * P + 3 ≤ 10 ^ 300 := by
    have h1 : (1 : ℝ) ≤ 10 ^ 290 := one_le_pow₀ (by norm_num)
    calc 2 * P + 3 ≤ 10 ^ 10 * 10 ^ 290 := by
          generalize (10 : ℝ) ^ 290 = y at h1 hP1 ⊢
          linarith
      _ = 10 ^ 300 := by rw [← pow_add]
  rw [hP]
  refine total_close hs hc (by rw [k1 hlev]) h1 (k3 P hP) hP0 (h3.trans ?_) h3 (h2.trans ?_)
  · calc (10 : ℝ) ^ 300 = (10 ^ 3) ^ 100 := by rw [← pow_mul]
      _ ≤ (2 ^ 10) ^ 100 := pow_le_pow_left₀ (by norm_num) (by norm_num) _
      _ = 2 ^ 1000 := by rw [← pow_mul]
      _ ≤ 2 ^ 1023 := pow_le_pow_right₀ (by norm_num) (by norm_num)
  · have : (2048 * (1 / 2 ^ 1074) : ℝ) ≤ 2048 * (1 / 2 ^ 100) :=
      mul_le_mul_of_nonneg_left (one_div_le_one_div_of_le (by positivity) (pow_le_pow_right₀ (by norm_num) (by norm_num))) (by norm_num)
    have h4 : (2048 * (1 / 2 ^ 100) : ℝ) ≤ 2e-4 := by norm_num
    have h5 : (4 / 10 ^ 15 : ℝ) * P ≤ 1e-7 * P := mul_le_mul_of_nonneg_right (by norm_num) hP0
    linarith only [this, h4, h5]

end

end Melodist
