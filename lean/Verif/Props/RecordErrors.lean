import Verif.Props.Near
import Verif.Props.Master
import Verif.Props.RadiationModels

/-!
# C164: errors of the accompanying hourly records (master station, potential radiation, temperature) have bounded effects,
except on dry days of the master station
-/

set_option linter.unusedSectionVars false

namespace Melodist
open Spec

/-! ## shares of a total -/

section shares
variable {K : Type} [Field K] [LinearOrder K] [IsStrictOrderedRing K]

theorem sum_day24_le {f g : Nat → K} (h : ∀ k < 24, f k ≤ g k) : (day24 f).sum ≤ (day24 g).sum := by
  unfold day24
  refine List.sum_le_sum fun k hk => h k (List.mem_range.1 hk)

theorem abs_sum_day24_sub (f g : Nat → K) : |(day24 f).sum - (day24 g).sum| ≤ (day24 fun h => |f h - g h|).sum := by
  unfold day24
  induction List.range 24 with
  | nil => simp
  | cons a l ih =>
    simp only [List.map_cons, List.sum_cons]
    rw [show f a + (l.map f).sum - (g a + (l.map g).sum) = (f a - g a) + ((l.map f).sum - (l.map g).sum) by ring]
    exact (abs_add_le _ _).trans (add_le_add le_rfl ih)

/-- the shares of two records differ by at most the difference of the values plus the share times the difference of the totals -/
theorem shares_near {m m' : Nat → K} (h0 : ∀ k < 24, 0 ≤ m k) (hS : 0 < (day24 m).sum) (hS' : 0 < (day24 m').sum) {k : Nat} (hk : k < 24) :
    |m k / (day24 m).sum - m' k / (day24 m').sum| ≤
      (|m k - m' k| + m k / (day24 m).sum * (day24 fun h => |m h - m' h|).sum) / (day24 m').sum := by
  have hp : 0 ≤ m k / (day24 m).sum := div_nonneg (h0 k hk) hS.le
  have e : m k / (day24 m).sum - m' k / (day24 m').sum = ((m k - m' k) + m k / (day24 m).sum * ((day24 m').sum - (day24 m).sum)) / (day24 m').sum := by
    field_simp
    ring
  rw [e, abs_div, abs_of_pos hS']
  refine div_le_div_of_nonneg_right ?_ hS'.le
  refine (abs_add_le _ _).trans (add_le_add le_rfl ?_)
  rw [abs_mul, abs_of_nonneg hp, abs_sub_comm]
  exact mul_le_mul_of_nonneg_left (abs_sum_day24_sub m m') hp

theorem sum_single (e : K) {k : Nat} (hk : k < 24) : e = (day24 fun h => if h = k then e else 0).sum := by
  have : ∀ n : Nat, k < n → e = ((List.range n).map fun h => if h = k then e else 0).sum := by
    intro n hn
    induction n with
    | zero => omega
    | succ n ih =>
      rw [List.range_succ, List.map_append, List.sum_append]
      by_cases h : k = n
      · subst h
        have z : ((List.range k).map fun h => if h = k then e else 0) = (List.range k).map fun _ => (0 : K) :=
          List.map_congr_left fun j hj => if_neg (by have := List.mem_range.1 hj; omega)
        rw [z]
        simp
      · rw [← ih (by omega)]
        simp [Ne.symm h]
  exact this 24 hk

theorem share_le_one {m : Nat → K} (h0 : ∀ k < 24, 0 ≤ m k) (hS : 0 < (day24 m).sum) {k : Nat} (hk : k < 24) : m k / (day24 m).sum ≤ 1 := by
  rw [div_le_one hS]
  have : (day24 fun h => if h = k then m k else 0).sum ≤ (day24 m).sum := by
    refine sum_day24_le fun j hj => ?_
    by_cases e : j = k
    · rw [if_pos e, e]
    · rw [if_neg e]
      exact h0 j hj
  exact (sum_single (m k) hk).le.trans this

theorem sum_shares {m : Nat → K} (hS : 0 < (day24 m).sum) : (day24 fun h => m h / (day24 m).sum).sum = 1 := by
  have e : (fun h => m h / (day24 m).sum) = fun h => (day24 m).sum⁻¹ * m h := by
    funext h
    rw [div_eq_mul_inv, mul_comm]
  rw [e, sum_day24_mul, inv_mul_cancel₀ hS.ne']

/-- **C164** (master station) Two complete records of the master station.  On a day with precipitation `x` on which both records have precipitation
(totals `S` and `S'`, hours of the first record not negative) and the hours of the two records differ by `D` in total, every hour of the result
changes by at most `|x| (difference of that hour + D) / S'`, and all 24 changes together are at most `2 |x| D / S'`. -/
theorem C164_master (api : PandasApi) (hapi : api.seriesIteritems = true) (zerodiv : String) (d0 : Int) (n : Nat) (hn : 0 < n) (v : Nat → XF K)
    (m m' : Nat → Nat → K) (master master' : Series (XF K)) (hm : MasterRows master d0 n fun i h => .fin (m i h))
    (hm' : MasterRows master' d0 n fun i h => .fin (m' i h)) :
    ∃ out out' : Nat → Nat → XF K, precipMasterStation api (dailyS d0 n v) master zerodiv = .ok (hourlyS d0 n out) ∧
      precipMasterStation api (dailyS d0 n v) master' zerodiv = .ok (hourlyS d0 n out') ∧
      ∀ i < n, ∀ x, v i = .fin x → (∀ h < 24, 0 ≤ m i h) → 0 < (day24 (m i)).sum → 0 < (day24 (m' i)).sum →
        ∃ y y' : Nat → K, (∀ h < 24, out i h = .fin (y h) ∧ out' i h = .fin (y' h) ∧
            |y h - y' h| ≤ |x| * ((|m i h - m' i h| + (day24 fun h => |m i h - m' i h|).sum) / (day24 (m' i)).sum)) ∧
          (day24 fun h => |y h - y' h|).sum ≤ 2 * |x| * ((day24 fun h => |m i h - m' i h|).sum / (day24 (m' i)).sum) := by
  have tot : ∀ (m : Nat → Nat → K) (i : Nat), masterTotal (fun i h => XF.fin (m i h)) i = (day24 (m i)).sum := by
    intro m i
    unfold masterTotal
    rw [numbers_day24]
  obtain ⟨out, h1, c1⟩ := C23_proportional api hapi zerodiv d0 n hn v (fun i h => .fin (m i h)) master hm (fun _ _ _ _ => trivial)
  obtain ⟨out', h2, c2⟩ := C23_proportional api hapi zerodiv d0 n hn v (fun i h => .fin (m' i h)) master' hm' (fun _ _ _ _ => trivial)
  refine ⟨out, out', h1, h2, fun i hi x hx h0 hS hS' => ?_⟩
  have D0 : 0 ≤ (day24 fun h => |m i h - m' i h|).sum := (abs_nonneg _).trans (abs_sum_day24_sub (m i) (m' i))
  have diff : ∀ h < 24, |m i h / (day24 (m i)).sum * x - m' i h / (day24 (m' i)).sum * x| ≤
      |x| * ((|m i h - m' i h| + m i h / (day24 (m i)).sum * (day24 fun h => |m i h - m' i h|).sum) / (day24 (m' i)).sum) := by
    intro h hh
    rw [← sub_mul, abs_mul, mul_comm]
    exact mul_le_mul_of_nonneg_left (shares_near h0 hS hS' hh) (abs_nonneg x)
  refine ⟨fun h => m i h / (day24 (m i)).sum * x, fun h => m' i h / (day24 (m' i)).sum * x, fun h hh => ⟨?_, ?_, ?_⟩, ?_⟩
  · have := (c1 i hi x hx (by rw [tot]; exact hS.ne') h hh).1 _ rfl
    rwa [tot] at this
  · have := (c2 i hi x hx (by rw [tot]; exact hS'.ne') h hh).1 _ rfl
    rwa [tot] at this
  · refine (diff h hh).trans (mul_le_mul_of_nonneg_left (div_le_div_of_nonneg_right (add_le_add le_rfl ?_) hS'.le) (abs_nonneg x))
    exact mul_le_of_le_one_left D0 (share_le_one h0 hS hh)
  · refine (sum_day24_le diff).trans (le_of_eq ?_)
    have e : (fun h => |x| * ((|m i h - m' i h| + m i h / (day24 (m i)).sum * (day24 fun h => |m i h - m' i h|).sum) / (day24 (m' i)).sum)) =
        fun h => |x| / (day24 (m' i)).sum * (|m i h - m' i h| + (day24 fun h => |m i h - m' i h|).sum * (m i h / (day24 (m i)).sum)) := by
      funext h
      ring
    rw [e, sum_day24_mul, sum_day24_add, sum_day24_mul, sum_shares hS]
    ring

/-- the rows of a master record of one day -/
theorem oneDay_rows (d0 : Int) (f : Nat → K) : MasterRows (hourlyS d0 1 fun _ h => XF.fin (f h)) d0 1 fun _ h => .fin (f h) := by
  intro i hi
  obtain rfl : i = 0 := by omega
  have : (hourlyS d0 1 fun _ h => XF.fin (f h)) = (List.range 24).map fun h => (atHour (d0 + ((0 : Nat) : Int)) h, XF.fin (f h)) := by
    unfold hourlyS
    refine List.map_congr_left fun j hj => ?_
    have := List.mem_range.1 hj
    rw [show j / 24 = 0 by omega, show j % 24 = j by omega]
  rw [this, List.filter_eq_self]
  intro r hr
  obtain ⟨h, hh, rfl⟩ := List.mem_map.1 hr
  have := List.mem_range.1 hh
  exact decide_eq_true (dayOf_atHour _ this)

/-- **C164** (dry master station) There is no such bound on a day on which one of the records is dry: however small the amount `e` is that the second
record has in a single hour, with 'uniform' that hour gets `x/24` with the first record and all of `x` with the second, and the other hours `x/24`
and 0. -/
theorem C164_master_dry (api : PandasApi) (hapi : api.seriesIteritems = true) (d0 : Int) (x e : K) (he : 0 < e) (k : Nat) (hk : k < 24) :
    ∃ out out' : Nat → Nat → XF K,
      precipMasterStation api (dailyS d0 1 fun _ => .fin x) (hourlyS d0 1 fun _ _ => .fin 0) "uniform" = .ok (hourlyS d0 1 out) ∧
      precipMasterStation api (dailyS d0 1 fun _ => .fin x) (hourlyS d0 1 fun _ h => .fin (if h = k then e else 0)) "uniform" = .ok (hourlyS d0 1 out') ∧
      out 0 k = .fin (x / 24) ∧ out' 0 k = .fin x ∧ ∀ h < 24, h ≠ k → out 0 h = .fin (x / 24) ∧ out' 0 h = .fin 0 := by
  have tot : ∀ f : Nat → K, sumSkip (day24 fun h => XF.fin (f h)) = .fin (day24 f).sum := by
    intro f
    rw [sumSkip_eq (nanOrFin_day24 f), numbers_day24]
  have one : (day24 fun h => if h = k then e else 0).sum = e := (sum_single e hk).symm
  have a := precipMasterStation_daily api hapi "uniform" d0 (n := 1) (by omega) (fun _ => .fin x) (fun _ _ => .fin 0) _ (oneDay_rows d0 fun _ => (0 : K)).filter
    (fun _ _ => by rw [tot]; simp)
  have b := precipMasterStation_daily api hapi "uniform" d0 (n := 1) (by omega) (fun _ => .fin x) (fun _ h => .fin (if h = k then e else 0)) _
    (oneDay_rows d0 fun h => if h = k then e else 0).filter (fun _ _ => by rw [tot]; simp)
  have va : ∀ h, masterValue "uniform" (fun _ => XF.fin (0 : K)) (.fin x) h = .fin (x / 24) := by
    intro h
    unfold masterValue
    rw [sum_dry, if_pos (by simp), if_pos rfl, XF.fin_mul_fin]
    congr 1
    ring
  have vb : ∀ h, masterValue "uniform" (fun h => XF.fin (if h = k then e else 0)) (.fin x) h = .fin ((if h = k then e else 0) / e * x) := by
    intro h
    unfold masterValue
    rw [tot, one, if_neg (by simpa using he.ne'), XF.fin_div_fin_of_ne _ he.ne', XF.fin_mul_fin]
  refine ⟨_, _, a, b, va k, ?_, fun h _ hne => ⟨va h, ?_⟩⟩
  · rw [vb, if_pos rfl, div_self he.ne', one_mul]
  · rw [vb, if_neg hne, zero_div, zero_mul]

end shares

noncomputable section

/-! ## radiation -/

theorem radCut_near {ε : ℝ} (hε : 0 ≤ ε) {p p' mean mean' g g' : XF ℝ} (h : Near ε (p / mean * g) (p' / mean' * g')) :
    Near (ε + 0.01) (radCell p mean g) (radCell p' mean' g') := by
  have e : ∀ p mean g : XF ℝ, (p / mean * g = .nan ∨ ∃ x, p / mean * g = .fin x) → radCell p mean g = radCell (.fin 1) (.fin 1) (p / mean * g) := by
    intro p mean g h
    have : (XF.fin (1 : ℝ) / .fin 1) * (p / mean * g) = p / mean * g := by
      rw [XF.fin_div_fin_of_ne _ one_ne_zero, div_one]
      rcases h with h | ⟨x, h⟩
      · rw [h, XF.mul_nan]
      · rw [h, XF.fin_mul_fin, one_mul]
    unfold radCell
    rw [this]
  have hh := near_iff.1 h
  rw [e p mean g (hh.elim (fun h => .inl h.1) fun ⟨x, _, h, _⟩ => .inr ⟨x, h⟩), e p' mean' g' (hh.elim (fun h => .inl h.2) fun ⟨_, y, _, h, _⟩ => .inr ⟨y, h⟩)]
  have := radCell_near (c := 1) (p := .fin 1) (mean := .fin 1) hε zero_le_one (.inr ⟨1, by rw [XF.fin_div_fin_of_ne _ one_ne_zero, div_one], by simp⟩) h
  rwa [one_mul] at this

/-- **C164** (radiation) Two records of potential radiation (not negative, with some radiation on the day) that differ by `D` in total over the 24 hours
of a day: every hour of the day changes by at most `|g| (difference of that hour + D) / (mean of the second record)`, where `g` is the daily value,
plus 0.01 (values below 0.01 are set to 0). -/
theorem C164_radiation {daily : Frame ℝ} {d0 : Int} {n : Nat} {api : PandasApi} (hi : daily.index = (List.range n).map fun i : Nat => at00 (d0 + i)) (hn : 0 < n)
    {v : Nat → XF ℝ} (hg : daily.col? "glob" = some (dailyS d0 n v)) {sun sun' : Option (Series SunTimes)} {q q' : Nat → Nat → ℝ}
    {angstr angstr' bc bc' : ParPair ℝ} {course course' : Option (MeanCourse ℝ)} :
    ∃ out out', disaggregateRadiation api daily sun (some (hourlyS d0 n fun i h => .fin (q i h))) "pot_rad" angstr bc course = .ok out ∧
      disaggregateRadiation api daily sun' (some (hourlyS d0 n fun i h => .fin (q' i h))) "pot_rad" angstr' bc' course' = .ok out' ∧
      ∀ i < n, ∀ g, v i = .fin g → (∀ h < 24, 0 ≤ q i h) → 0 < (day24 (q i)).sum → 0 < (day24 (q' i)).sum → ∀ k < 24, ∃ c c',
        (dayCells out (d0 + i))[k]? = some c ∧ (dayCells out' (d0 + i))[k]? = some c' ∧
        Near (|g| * ((|q i k - q' i k| + (day24 fun h => |q i h - q' i h|).sum) / ((day24 (q' i)).sum / 24)) + 0.01) c c' := by
  refine ⟨_, _, potRad_eq api hi hn hg _ _ _ _ _, potRad_eq api hi hn hg _ _ _ _ _, fun i hi' g hv h0 hS hS' k hk => ?_⟩
  refine ⟨_, _, by rw [dayCells_hourlyS d0 _ hi', day24_getElem? _ hk], by rw [dayCells_hourlyS d0 _ hi', day24_getElem? _ hk], ?_⟩
  rw [lastValue_self hi', hv, meanSkip_day24 (p := fun h => XF.fin (q i h)) (fun _ _ => rfl), meanSkip_day24 (p := fun h => XF.fin (q' i h)) (fun _ _ => rfl)]
  have D0 : 0 ≤ (day24 fun h => |q i h - q' i h|).sum := (abs_nonneg _).trans (abs_sum_day24_sub (q i) (q' i))
  refine radCut_near (by positivity) ?_
  rw [XF.fin_div_fin_of_ne _ (by positivity), XF.fin_div_fin_of_ne _ (by positivity), XF.fin_mul_fin, XF.fin_mul_fin]
  show |q i k / ((day24 (q i)).sum / 24) * g - q' i k / ((day24 (q' i)).sum / 24) * g| ≤ _
  have s := shares_near h0 hS hS' hk
  have o := mul_le_of_le_one_left D0 (share_le_one h0 hS hk)
  rw [show q i k / ((day24 (q i)).sum / 24) * g - q' i k / ((day24 (q' i)).sum / 24) * g =
      (24 * g) * (q i k / (day24 (q i)).sum - q' i k / (day24 (q' i)).sum) by field_simp, abs_mul, abs_mul, abs_of_pos (by norm_num : (0 : ℝ) < 24)]
  calc _ ≤ 24 * |g| * ((|q i k - q' i k| + (day24 fun h => |q i h - q' i h|).sum) / (day24 (q' i)).sum) :=
        mul_le_mul_of_nonneg_left (s.trans (div_le_div_of_nonneg_right (add_le_add le_rfl o) hS'.le)) (by positivity)
    _ = _ := by field_simp

/-! ## humidity -/

/-- **C164** (humidity, min_max) If the hourly temperatures differ by at most δ, relative humidity of a day changes by at most
`δ |hum_max - hum_min| / (tmax - tmin)`. -/
theorem C164_humidity_minmax {δ : ℝ} {f : Frame ℝ} (hf : f.WF) {d0 : Int} {n : Nat} (hn : 0 < n) (cf : Spec.Covers f.index d0 n)
    {api : PandasApi} {T T' : Nat → Nat → XF ℝ} {a0 a1 kr : Option ℝ} {table : Option (CatMeans ℝ)} {out out' : Series (XF ℝ)}
    {lo hi v1 v2 : Nat → XF ℝ} (t1 : f.col? "tmin" = some (dailyS d0 n lo)) (t2 : f.col? "tmax" = some (dailyS d0 n hi))
    (t3 : f.col? "hum_min" = some (dailyS d0 n v1)) (t4 : f.col? "hum_max" = some (dailyS d0 n v2))
    (ho : disaggregateHumidity api f "min_max" (some (hourlyS d0 n T)) a0 a1 kr table false = .ok out)
    (ho' : disaggregateHumidity api f "min_max" (some (hourlyS d0 n T')) a0 a1 kr table false = .ok out')
    {i : Nat} (hi' : i < n) {x y p q : ℝ} (hx : lo i = .fin x) (hy : hi i = .fin y) (hxy : x < y) (hp : v1 i = .fin p) (hq : v2 i = .fin q)
    {k : Nat} (hk : k < 24) (hT : Near δ (T i k) (T' i k)) :
    ∃ c c', (dayCells out (d0 + i))[k]? = some c ∧ (dayCells out' (d0 + i))[k]? = some c' ∧ Near (δ * |q - p| / (y - x)) c c' := by
  obtain ⟨r, hr, q1, _⟩ := hum_run hf cf hn (fun s hs => ⟨T, (Option.some.inj hs).symm⟩) ho
  obtain ⟨r', hr', q1', _⟩ := hum_run hf cf hn (fun s hs => ⟨T', (Option.some.inj hs).symm⟩) ho'
  rw [q1 rfl, q1' rfl]
  rw [raw_minmax api f _ _ _ _ d0 n hn v1 v2 _ _ T t3 t4 t1 t2] at hr
  rw [raw_minmax api f _ _ _ _ d0 n hn v1 v2 _ _ T' t3 t4 t1 t2] at hr'
  refine ⟨_, _, by rw [dayCells_hourlyS d0 _ hi', day24_getElem? _ hk], by rw [dayCells_hourlyS d0 _ hi', day24_getElem? _ hk], ?_⟩
  rw [← hourlyS_inj (Except.ok.inj hr) hi' hk, ← hourlyS_inj (Except.ok.inj hr') hi' hk]
  apply clip_near
  have hd : y - x ≠ 0 := (sub_pos.2 hxy).ne'
  rw [hx, hy, hp, hq]
  rcases near_iff.1 hT with ⟨e, e'⟩ | ⟨t, t', e, e', ht⟩
  · simp only [e, e', XF.nan_sub, XF.nan_div, XF.nan_mul, XF.add_nan]; trivial
  · simp only [e, e', XF.fin_sub_fin, XF.fin_div_fin_of_ne _ hd, XF.fin_mul_fin, XF.fin_add_fin]
    show |q + (t - x) / (y - x) * (p - q) - (q + (t' - x) / (y - x) * (p - q))| ≤ δ * |q - p| / (y - x)
    rw [show q + (t - x) / (y - x) * (p - q) - (q + (t' - x) / (y - x) * (p - q)) = (t - t') * (p - q) / (y - x) by field_simp; ring,
      abs_div, abs_of_pos (sub_pos.2 hxy), abs_mul, abs_sub_comm p q]
    exact div_le_div_of_nonneg_right (mul_le_mul_of_nonneg_right ht (abs_nonneg _)) (sub_pos.2 hxy).le

/-- **C164** (humidity, linear_dewpoint_variation) If the hourly temperatures (at least 230 K) differ by at most δ and the daily dew points are at least
231 K, relative humidity changes by at most 12 δ percent. -/
theorem C164_humidity_linear {δ : ℝ} {f : Frame ℝ} (hf : f.WF) {d0 : Int} {n : Nat} (hn : 0 < n) (cf : Spec.Covers f.index d0 n) {api : PandasApi}
    {T T' : Nat → Nat → XF ℝ} {a0 a1 kr : ℝ} (hkr : kr = 6 ∨ kr = 12) {table : Option (CatMeans ℝ)} {out out' : Series (XF ℝ)}
    {v : Nat → XF ℝ} (hv : f.col? "tmin" = some (dailyS d0 n v)) (hvM : ∀ i < n, v i = .nan ∨ ∃ x, v i = .fin x ∧ 231 ≤ a0 + a1 * x)
    (hT : ∀ i < n, ∀ k < 24, Near δ (T i k) (T' i k) ∧ ∀ x, T i k = .fin x ∨ T' i k = .fin x → 230 ≤ x)
    (ho : disaggregateHumidity api f "linear_dewpoint_variation" (some (hourlyS d0 n T)) (some a0) (some a1) (some kr) table false = .ok out)
    (ho' : disaggregateHumidity api f "linear_dewpoint_variation" (some (hourlyS d0 n T')) (some a0) (some a1) (some kr) table false = .ok out') :
    SeriesNear (12 * δ) out out' := by
  obtain ⟨r, hr, q1, _⟩ := hum_run hf cf hn (fun s hs => ⟨T, (Option.some.inj hs).symm⟩) ho
  obtain ⟨r', hr', q1', _⟩ := hum_run hf cf hn (fun s hs => ⟨T', (Option.some.inj hs).symm⟩) ho'
  rw [q1 rfl, q1' rfl]
  have td : ∀ i < n, XF.fin a0 + .fin a1 * v i = .nan ∨ ∃ y, XF.fin a0 + .fin a1 * v i = .fin y ∧ 231 ≤ y := by
    intro i hi
    rcases hvM i hi with e | ⟨x, e, h1⟩
    · left
      rw [e, XF.mul_nan, XF.add_nan]
    · right
      rw [e, XF.fin_mul_fin, XF.fin_add_fin]
      exact ⟨_, rfl, h1⟩
  rw [raw_linear api f a0 a1 kr hkr table d0 n hn v T hv] at hr
  rw [raw_linear api f a0 a1 kr hkr table d0 n hn v T' hv] at hr'
  apply near_hourly
  intro i hi k hk
  rw [← hourlyS_inj (Except.ok.inj hr) hi hk, ← hourlyS_inj (Except.ok.inj hr') hi hk]
  obtain ⟨i2, hi2, hw⟩ : ∃ i2 < n, (∀ w : Nat → XF ℝ, (if i + 1 < n then w (i + 1) else w i) = w i2) := by
    by_cases hx : i + 1 < n
    · exact ⟨i + 1, hx, fun w => if_pos hx⟩
    · exact ⟨i, hi, fun w => if_neg hx⟩
  have ed : tdewDelta kr k = .fin (0.5 * Real.sin (((k : ℝ) + 1) * Real.pi / kr - 3 * Real.pi / 4)) := by
    unfold tdewDelta
    rw [show (((k : Nat) : Int) : ℝ) = (k : ℝ) by simp]
    rfl
  have hs := Real.neg_one_le_sin (((k : ℝ) + 1) * Real.pi / kr - 3 * Real.pi / 4)
  have hk24 : (0 : ℝ) ≤ (k : ℝ) / 24 ∧ (k : ℝ) / 24 ≤ 1 := by
    have : (k : ℝ) < 24 := by exact_mod_cast hk
    constructor
    · positivity
    · linarith
  have key : linTdew kr n (fun i => .fin a0 + .fin a1 * v i) i k = .nan ∨ ∃ y, linTdew kr n (fun i => .fin a0 + .fin a1 * v i) i k = .fin y ∧ 230 ≤ y := by
    unfold linTdew
    dsimp only
    rw [hw (fun i => XF.fin a0 + XF.fin a1 * v i), ed]
    generalize Real.sin (((k : ℝ) + 1) * Real.pi / kr - 3 * Real.pi / 4) = sn at *
    generalize (k : ℝ) / 24 = w at *
    rcases td i hi with e | ⟨y, e, h1⟩
    · left
      rw [e, XF.nan_add]
    · rcases td i2 hi2 with g | ⟨z, g, k1⟩
      · left
        rw [g]
        simp
      · right
        rw [e, g]
        simp only [XF.fin_sub_fin, XF.fin_mul_fin, XF.fin_add_fin]
        refine ⟨_, rfl, ?_⟩
        have := mul_nonneg hk24.1 (by linarith : 0 ≤ z - 231)
        have := mul_nonneg (by linarith [hk24.2] : 0 ≤ 1 - w) (by linarith : 0 ≤ y - 231)
        norm_num
        nlinarith
  have := rhCell_near (ε := 0) (td := linTdew kr n (fun i => .fin a0 + .fin a1 * v i) i k) (td' := linTdew kr n (fun i => .fin a0 + .fin a1 * v i) i k) ?_
    (hT i hi k hk).1 ?_ (hT i hi k hk).2
  · rwa [zero_add] at this
  · rcases key with e | ⟨y, e, _⟩
    · rw [e]; trivial
    · rw [e]
      show |y - y| ≤ 0
      simp
  · rcases key with e | ⟨y, e, h1⟩
    · rw [e]
      rintro x (h | h) <;> cases h
    · rw [e]
      rintro x (h | h) <;> cases h <;> linarith

/-! ## concrete cases -/

/-- C164 (master station): 6 mm distributed with 3 mm in hour 3 and 1 mm in hour 7 instead of 2 and 2 mm -/
example : ∃ out out' : Nat → Nat → XF ℚ,
    precipMasterStation .legacy (dailyS 0 1 fun _ => .fin 6) (hourlyS 0 1 fun _ h => .fin (if h = 3 then 3 else if h = 7 then 1 else 0)) "uniform" = .ok (hourlyS 0 1 out) ∧
    precipMasterStation .legacy (dailyS 0 1 fun _ => .fin 6) (hourlyS 0 1 fun _ h => .fin (if h = 3 then 2 else if h = 7 then 2 else 0)) "uniform" = .ok (hourlyS 0 1 out') ∧
    ∃ y y' : Nat → ℚ, (∀ h < 24, out 0 h = .fin (y h) ∧ out' 0 h = .fin (y' h)) ∧ (day24 fun h => |y h - y' h|).sum ≤ 6 := by
  obtain ⟨out, out', h, h', c⟩ := C164_master (K := ℚ) .legacy rfl "uniform" 0 1 (by decide) (fun _ => .fin 6) (fun _ h => if h = 3 then 3 else if h = 7 then 1 else 0)
    (fun _ h => if h = 3 then 2 else if h = 7 then 2 else 0) _ _ (oneDay_rows 0 fun h => if h = 3 then 3 else if h = 7 then 1 else 0)
    (oneDay_rows 0 fun h => if h = 3 then 2 else if h = 7 then 2 else 0)
  obtain ⟨y, y', c1, c2⟩ := c 0 (by decide) 6 rfl (by decide) (by norm_num [day24, List.range_succ]) (by norm_num [day24, List.range_succ])
  exact ⟨out, out', h, h', y, y', fun h hh => ⟨(c1 h hh).1, (c1 h hh).2.1⟩, c2.trans (by norm_num [day24, List.range_succ, abs_of_pos])⟩

/-- C164 (humidity, min_max): temperatures that are 0.5 K too high change humidity by at most 2 percent (range 40 percent and 10 K) -/
example : ∃ out out', disaggregateHumidity .modern (⟨[at00 0], [("hum_min", [.fin 50]), ("hum_max", [.fin 90]), ("tmin", [.fin 280]), ("tmax", [.fin 290])]⟩ : Frame ℝ) "min_max"
      (some (hourlyS 0 1 fun _ _ => .fin 284)) none none none none false = .ok out ∧
    disaggregateHumidity .modern (⟨[at00 0], [("hum_min", [.fin 50]), ("hum_max", [.fin 90]), ("tmin", [.fin 280]), ("tmax", [.fin 290])]⟩ : Frame ℝ) "min_max"
      (some (hourlyS 0 1 fun _ _ => .fin 284.5)) none none none none false = .ok out' ∧
    ∃ c c', (dayCells out (0 + (0 : Nat)))[12]? = some c ∧ (dayCells out' (0 + (0 : Nat)))[12]? = some c' ∧ Near (2 : ℝ) c c' := by
  have r1 := raw_minmax .modern (⟨[at00 0], [("hum_min", [.fin 50]), ("hum_max", [.fin 90]), ("tmin", [.fin 280]), ("tmax", [.fin 290])]⟩ : Frame ℝ) none none none none 0 1 (by omega)
    (fun _ => .fin 50) (fun _ => .fin 90) (fun _ => .fin 280) (fun _ => .fin 290) (fun _ _ => .fin 284) rfl rfl rfl rfl
  have r2 := raw_minmax .modern (⟨[at00 0], [("hum_min", [.fin 50]), ("hum_max", [.fin 90]), ("tmin", [.fin 280]), ("tmax", [.fin 290])]⟩ : Frame ℝ) none none none none 0 1 (by omega)
    (fun _ => .fin 50) (fun _ => .fin 90) (fun _ => .fin 280) (fun _ => .fin 290) (fun _ _ => .fin 284.5) rfl rfl rfl rfl
  refine ⟨_, _, (hum_finish r1).1, (hum_finish r2).1, ?_⟩
  obtain ⟨c, c', e, e', h⟩ := C164_humidity_minmax (δ := 0.5) (d0 := 0) (n := 1) (i := 0) (k := 12)
    (f := ⟨[at00 0], [("hum_min", [.fin 50]), ("hum_max", [.fin 90]), ("tmin", [.fin 280]), ("tmax", [.fin 290])]⟩) (by intro c hc; simp at hc; rcases hc with rfl | rfl | rfl | rfl <;> rfl) (by decide) rfl
    (lo := fun _ => .fin 280) (hi := fun _ => .fin 290) (v1 := fun _ => .fin 50) (v2 := fun _ => .fin 90) rfl rfl rfl rfl (hum_finish r1).1 (hum_finish r2).1 (by decide) rfl rfl
    (by norm_num) rfl rfl (by decide) (by show |(284 : ℝ) - 284.5| ≤ 0.5; norm_num [abs_of_neg])
  exact ⟨c, c', e, e', Near.weaken (by norm_num [abs_of_pos]) h⟩

/-- C164 (radiation): 240 instead of 239 W/m2 of potential radiation at noon change a daily value of 100 W/m2 at noon by less than 20 W/m2 of 2390 -/
example : ∃ out out', disaggregateRadiation .modern exRad none (some (hourlyS 0 2 fun _ h => .fin (exPotReal h))) "pot_rad" (.scalar (.fin 0.25) (.fin 0.5)) (.scalar (.fin 0.75) (.fin 2.4)) none = .ok out ∧
    disaggregateRadiation .modern exRad none (some (hourlyS 0 2 fun _ h => .fin (if h = 12 then 240 else exPotReal h))) "pot_rad" (.scalar (.fin 0.25) (.fin 0.5)) (.scalar (.fin 0.75) (.fin 2.4)) none = .ok out' ∧
    ∃ c c', (dayCells out (0 + (0 : Nat)))[12]? = some c ∧ (dayCells out' (0 + (0 : Nat)))[12]? = some c' ∧ Near (20 : ℝ) c c' := by
  obtain ⟨out, out', h, h', b⟩ := C164_radiation (daily := exRad) (d0 := 0) (n := 2) (api := .modern) rfl (by decide) (v := fun i => if i = 0 then .fin 100 else .fin 50) rfl
    (q := fun _ h => exPotReal h) (q' := fun _ h => if h = 12 then 240 else exPotReal h)
  refine ⟨out, out', h, h', ?_⟩
  have s1 : (day24 fun h => if h = 12 then (240 : ℝ) else exPotReal h).sum = 241 := by
    unfold day24 exPotReal
    norm_num [List.range_succ]
  have s2 : (day24 fun h => |exPotReal h - if h = 12 then (240 : ℝ) else exPotReal h|).sum = 1 := by
    unfold day24 exPotReal
    norm_num [List.range_succ, abs_of_neg]
  obtain ⟨c, c', e, e', hb⟩ := b 0 (by decide) 100 rfl exPot_nonneg (by rw [exPot_sum]; norm_num) (by rw [s1]; norm_num) 12 (by decide)
  refine ⟨c, c', e, e', Near.weaken ?_ hb⟩
  rw [s1, s2]
  norm_num [exPotReal, abs_of_neg, abs_of_pos]

end

end Melodist
