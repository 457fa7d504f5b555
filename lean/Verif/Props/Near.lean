import Verif.Lemmas.Near
import Verif.Props.MonoB

/-!
# C113: an error in the daily values is not amplified

Two runs with the same method and parameters whose daily data differ by at most `ε`: how far apart can the hourly values be?
-/

set_option linter.unusedSectionVars false

namespace Melodist
open Spec

noncomputable section

/-! ## temperature -/

/-- **C113** (temperature, extremes) 'sine', 'sine_min_max' and, for a course with values in [0, 1], 'mean_course_min_max': if tmin and tmax of the two
tables differ by at most ε, so do the hourly values. -/
theorem C113_temperature_extremes {ε : ℝ} {f g : Frame ℝ} (hf : f.WF) (hg : g.WF) {d0 : Int} {n : Nat} (hn : 0 < n) (cf : Covers f.index d0 n)
    (cg : Covers g.index d0 n) {api api' : PandasApi} {method mmt : String} {modNight : Bool} {md : Option (List (Int × XF ℝ))}
    {course : Option (MeanCourse ℝ)} {sun : Option (Series SunTimes)} {out out' : Series (XF ℝ)}
    (hm : method = "sine" ∨ method = "sine_min_max" ∨ method = "mean_course_min_max")
    (hcourse : method = "mean_course_min_max" → ∀ c, course = some c → ∀ m h, c.val m h = .nan ∨ ∃ x, c.val m h = .fin x ∧ 0 ≤ x ∧ x ≤ 1)
    (h1 : ColNear ε f g "tmin") (h2 : ColNear ε f g "tmax")
    (ho : disaggregateTemperature api f method mmt modNight md course sun = .ok out)
    (ho' : disaggregateTemperature api' g method mmt modNight md course sun = .ok out') : SeriesNear ε out out' := by
  by_cases hs : method = "sine" ∨ method = "sine_min_max"
  · have hm3 : method = "sine_min_max" ∨ method = "sine_mean" ∨ method = "sine" := by tauto
    have hne : method ≠ "sine_mean" := by rcases hs with rfl | rfl <;> decide
    obtain ⟨s, tmin, tmax, temp, lo, hi, rfl, td, hl, rfl⟩ := sine_run hf cf hn hm3 ho
    obtain ⟨s', tmin', tmax', temp', lo', hi', es, td', hl', rfl⟩ := sine_run hg cg hn hm3 ho'
    cases es
    have b1 := colNear_daily h1 td.hmin td'.hmin
    have b2 := colNear_daily h2 td.hmax td'.hmax
    apply near_hourly
    intro i hi2 k _
    rw [if_neg hne, if_neg hne]
    have e1 : lo i = lo' i := Except.ok.inj ((hl i hi2).1.symm.trans (hl' i hi2).1)
    have e2 : hi i = hi' i := Except.ok.inj ((hl i hi2).2.symm.trans (hl' i hi2).2)
    have e3 : locRow n tmin' tmax' temp' lo' hi' i = locRow n tmin' tmax' temp' lo hi i := by
      unfold locRow
      rw [e1, e2]
    rw [e3]
    exact sineCell_near b1 b2 hi2 _
  · have hm' : method = "mean_course_min_max" := by tauto
    subst hm'
    obtain ⟨c, tmin, tmax, rfl, t1, t2, q⟩ := course_run hf cf hn (.inl rfl) ho
    obtain ⟨c', tmin', tmax', ec, t1', t2', q'⟩ := course_run hg cg hn (.inl rfl) ho'
    cases ec
    have b1 := colNear_daily h1 t1 t1'
    have b2 := colNear_daily h2 t2 t2'
    rcases q with ⟨_, rfl⟩ | ⟨e, _⟩
    · rcases q' with ⟨_, rfl⟩ | ⟨e, _⟩
      · apply near_hourly
        intro i hi k _
        rcases hcourse rfl c rfl (monthOf (at00 (d0 + (i : Nat)))) (k : Nat) with e | ⟨x, e, x0, x1⟩
        · simp only [e, XF.nan_mul, XF.nan_add]; trivial
        · rw [e]
          rcases near_iff.1 (b1 i hi) with ⟨e1, e2⟩ | ⟨y, y', e1, e2, hy⟩
          · simp only [e1, e2, XF.add_nan]; trivial
          · rcases near_iff.1 (b2 i hi) with ⟨e3, e4⟩ | ⟨z, z', e3, e4, hz⟩
            · simp only [e3, e4, XF.nan_sub, XF.mul_nan, XF.nan_add]; trivial
            · simp only [e1, e2, e3, e4, XF.fin_sub_fin, XF.fin_mul_fin, XF.fin_add_fin]
              show |x * (z - y) + y - (x * (z' - y') + y')| ≤ ε
              rw [show x * (z - y) + y - (x * (z' - y') + y') = (x * z + (1 - x) * y) - (x * z' + (1 - x) * y') by ring]
              exact abs_mix x0 x1 hz hy
      · exact absurd e (by decide)
    · exact absurd e (by decide)

/-- the deviation of a course with values in [0, 1] from its mean -/
theorem dev_range {l : List (XF ℝ)} {x : XF ℝ} (h : ∀ c ∈ x :: l, c = .nan ∨ ∃ y, c = .fin y ∧ 0 ≤ y ∧ y ≤ 1) :
    x - meanSkip l = .nan ∨ ∃ q, x - meanSkip l = .fin q ∧ |q| ≤ 1 := by
  have hf : ∀ c ∈ l, c.NanOrFin := by
    intro c hc
    rcases h c (List.mem_cons_of_mem _ hc) with e | ⟨y, e, _⟩ <;> rw [e]
    · exact XF.nanOrFin_nan
    · exact XF.nanOrFin_fin y
  rcases h x List.mem_cons_self with e | ⟨y, e, y0, y1⟩
  · left; rw [e, XF.nan_sub]
  · by_cases hne : numbers l = []
    · left
      have : ∀ c ∈ l, c = .nan := by
        intro c hc
        rcases h c (List.mem_cons_of_mem _ hc) with e | ⟨y, e, _⟩
        · exact e
        · have : y ∈ numbers l := List.mem_filterMap.2 ⟨c, hc, by rw [e]⟩
          rw [hne] at this
          cases this
      rw [meanSkip_nan this, XF.sub_nan]
    · right
      rw [e, meanSkip_eq hf hne, XF.fin_sub_fin]
      refine ⟨_, rfl, ?_⟩
      have hb : ∀ z ∈ numbers l, 0 ≤ z ∧ z ≤ 1 := by
        intro z hz
        obtain ⟨c, hc, hcz⟩ := List.mem_filterMap.1 hz
        rcases h c (List.mem_cons_of_mem _ hc) with e | ⟨w, e, w0, w1⟩
        · rw [e] at hcz; cases hcz
        · rw [e] at hcz; cases hcz; exact ⟨w0, w1⟩
      have hlen : (0 : ℝ) < ((numbers l).length : ℝ) := by
        exact_mod_cast List.length_pos_iff.2 hne
      have s0 : 0 ≤ (numbers l).sum := List.sum_nonneg fun z hz => (hb z hz).1
      have s1 : (numbers l).sum ≤ (numbers l).length := by
        have := List.sum_le_card_nsmul (numbers l) 1 fun z hz => (hb z hz).2
        simpa using this
      have m0 : 0 ≤ (numbers l).sum / (numbers l).length := div_nonneg s0 hlen.le
      have m1 : (numbers l).sum / (numbers l).length ≤ 1 := (div_le_one hlen).2 s1
      rw [abs_le]
      constructor <;> linarith

/-- **C113** (temperature, mean) If the daily means differ by at most δ and tmin and tmax by at most ε, the hourly values differ by at most δ + ε with
'sine_mean', and with 'mean_course_mean' by at most δ + 2 ε (course with values in [0, 1]). -/
theorem C113_temperature_mean {ε δ : ℝ} (hε : 0 ≤ ε) {f g : Frame ℝ} (hf : f.WF) (hg : g.WF) {d0 : Int} {n : Nat} (hn : 0 < n) (cf : Covers f.index d0 n)
    (cg : Covers g.index d0 n) {api api' : PandasApi} {method mmt : String} {modNight : Bool} {md : Option (List (Int × XF ℝ))}
    {course : Option (MeanCourse ℝ)} {sun : Option (Series SunTimes)} {out out' : Series (XF ℝ)} (hm : method = "sine_mean" ∨ method = "mean_course_mean")
    (hcourse : ∀ c, course = some c → ∀ m h, c.val m h = .nan ∨ ∃ x, c.val m h = .fin x ∧ 0 ≤ x ∧ x ≤ 1)
    (h1 : ColNear ε f g "tmin") (h2 : ColNear ε f g "tmax") (h3 : ColNear δ f g "temp")
    (ho : disaggregateTemperature api f method mmt modNight md course sun = .ok out)
    (ho' : disaggregateTemperature api' g method mmt modNight md course sun = .ok out') :
    SeriesNear (if method = "sine_mean" then δ + ε else δ + 2 * ε) out out' := by
  rcases hm with rfl | rfl
  · obtain ⟨s, tmin, tmax, temp, lo, hi, rfl, td, hl, rfl⟩ := sine_run hf cf hn (.inr (.inl rfl)) ho
    obtain ⟨s', tmin', tmax', temp', lo', hi', es, td', hl', rfl⟩ := sine_run hg cg hn (.inr (.inl rfl)) ho'
    cases es
    have b1 := colNear_daily h1 td.hmin td'.hmin
    have b2 := colNear_daily h2 td.hmax td'.hmax
    have b3 := colNear_daily h3 td.htemp td'.htemp
    rw [if_pos rfl]
    apply near_hourly
    intro i hi2 k _
    have e2 : hi i = hi' i := Except.ok.inj ((hl i hi2).2.symm.trans (hl' i hi2).2)
    rw [if_pos rfl, if_pos rfl]
    unfold sineMeanCell locRow
    dsimp only
    rw [← e2]
    refine near_add (b3 i hi2) ?_
    rcases cos_range (.fin (2 * Real.pi / 24 * ((((k : Nat) : Int) - hi i : Int) : ℝ))) with e | ⟨c, e, c1, c2⟩
    · rw [e, XF.mul_nan, XF.mul_nan]; trivial
    · rw [e]
      rcases near_iff.1 (near_sub (b2 i hi2) (b1 i hi2)) with ⟨e1, e2⟩ | ⟨y, y', e1, e2, hy⟩
      · rw [e1, e2, XF.nan_div, XF.nan_mul]; trivial
      · rw [e1, e2, XF.fin_div_fin_of_ne _ (by norm_num), XF.fin_div_fin_of_ne _ (by norm_num), XF.fin_mul_fin, XF.fin_mul_fin]
        show |y / 2 * c - y' / 2 * c| ≤ ε
        rw [show y / 2 * c - y' / 2 * c = (y - y') / 2 * c by ring, abs_mul, abs_div]
        have hc : |c| ≤ 1 := abs_le.2 ⟨c1, c2⟩
        have h2 : |y - y'| / |(2 : ℝ)| ≤ ε := by
          rw [abs_of_pos (by norm_num : (0 : ℝ) < 2)]
          linarith
        calc |y - y'| / |(2 : ℝ)| * |c| ≤ ε * 1 := mul_le_mul h2 hc (abs_nonneg _) hε
          _ = ε := mul_one _
  · obtain ⟨c, tmin, tmax, rfl, t1, t2, q⟩ := course_run hf cf hn (.inr rfl) ho
    obtain ⟨c', tmin', tmax', ec, t1', t2', q'⟩ := course_run hg cg hn (.inr rfl) ho'
    cases ec
    have b1 := colNear_daily h1 t1 t1'
    have b2 := colNear_daily h2 t2 t2'
    rcases q with ⟨e, _⟩ | ⟨_, temp, t3, rfl⟩
    · exact absurd e (by decide)
    · rcases q' with ⟨e, _⟩ | ⟨_, temp', t3', rfl⟩
      · exact absurd e (by decide)
      · have b3 := colNear_daily h3 t3 t3'
        rw [if_neg (by decide)]
        apply near_hourly
        intro i hi k _
        refine near_add (b3 i hi) ?_
        have hd : c.val (monthOf (at00 (d0 + (i : Nat)))) (k : Nat) - meanSkip (c.column (monthOf (at00 (d0 + (i : Nat))))) = .nan ∨
            ∃ q, c.val (monthOf (at00 (d0 + (i : Nat)))) (k : Nat) - meanSkip (c.column (monthOf (at00 (d0 + (i : Nat))))) = .fin q ∧ |q| ≤ 1 := by
          apply dev_range
          intro x hx
          rcases List.mem_cons.1 hx with rfl | hx
          · exact hcourse c rfl _ _
          · obtain ⟨h, _, rfl⟩ := List.mem_map.1 hx
            exact hcourse c rfl _ _
        rcases near_iff.1 (near_sub (b2 i hi) (b1 i hi)) with ⟨e1, e2⟩ | ⟨y, y', e1, e2, hy⟩
        · rw [e1, e2, XF.nan_mul]; trivial
        · rcases hd with e | ⟨q, e, hq⟩
          · rw [e, XF.mul_nan, XF.mul_nan]; trivial
          · rw [e1, e2, e, XF.fin_mul_fin, XF.fin_mul_fin]
            show |y * q - y' * q| ≤ 2 * ε
            rw [← sub_mul, abs_mul]
            calc |y - y'| * |q| ≤ (ε + ε) * 1 := mul_le_mul hy hq (abs_nonneg _) (by linarith)
              _ = 2 * ε := by ring

/-! ## wind -/

/-- **C113** (wind) If the daily means differ by at most ε, the hourly values differ by at most ε with 'equal', by at most (|a| + |b|) ε with 'cosine', and by at
most (−ln u)^0.3 ε in an hour with the draw u with 'random'. -/
theorem C113_wind {ε : ℝ} (hε : 0 ≤ ε) {s s' : Series (XF ℝ)} {d0 : Int} {n : Nat} (hn : 0 < n) (cs : Covers s.index d0 n) (cs' : Covers s'.index d0 n)
    (h : SeriesNear ε s s') {api api' : PandasApi} {draw : Nat → ℝ} {method : String} {a b t : Option ℝ}
    (hdraw : method = "random" → ∀ k, 0 < draw k ∧ draw k < 1)
    {r r' : WindResult} (hr : disaggregateWind api draw s method a b t = .ok r) (hr' : disaggregateWind api' draw s' method a b t = .ok r') :
    r.values.length = 24 * n ∧ r'.values.length = 24 * n ∧ ∀ k < 24 * n, ∃ c c', r.values[k]? = some c ∧ r'.values[k]? = some c' ∧
      (method = "equal" → Near ε c c') ∧ (∀ x y, method = "cosine" → a = some x → b = some y → Near ((|x| + |y|) * ε) c c') ∧
      (method = "random" → Near ((-Real.log (draw k)) ^ (0.3 : ℝ) * ε) c c') := by
  obtain ⟨v, rfl⟩ := covers_series cs
  obtain ⟨v', rfl⟩ := covers_series cs'
  have hv := near_daily h
  have hlen : ∀ {f : Nat → Nat → XF ℝ}, (Series.values (hourlyS d0 n f)).length = 24 * n := by
    intro f
    simp [Series.values, hourlyS]
  have hget : ∀ (f : Nat → Nat → XF ℝ) (k : Nat), k < 24 * n → (Series.values (hourlyS d0 n f))[k]? = some (f (k / 24) (k % 24)) := by
    intro f k hk
    rw [hourlyS_values, List.getElem?_map, List.getElem?_range (by omega), Option.map_some]
  rcases wind_run hn hr with ⟨rfl, rfl⟩ | ⟨rfl, x, y, z, rfl, rfl, rfl, rfl⟩ | ⟨rfl, rfl⟩
  · rcases wind_run hn hr' with ⟨_, rfl⟩ | ⟨e', _⟩ | ⟨e', _⟩
    · refine ⟨hlen, hlen, fun k hk => ⟨_, _, hget _ k hk, hget _ k hk, fun _ => hv _ (by omega), fun _ _ e => absurd e (by decide), fun e => absurd e (by decide)⟩⟩
    · exact absurd e' (by decide)
    · exact absurd e' (by decide)
  · rcases wind_run hn hr' with ⟨e', _⟩ | ⟨_, x', y', z', e1, e2, e3, rfl⟩ | ⟨e', _⟩
    · exact absurd e' (by decide)
    · cases e1; cases e2; cases e3
      refine ⟨hlen, hlen, fun k hk => ⟨_, _, hget _ k hk, hget _ k hk, fun e => absurd e (by decide), ?_, fun e => absurd e (by decide)⟩⟩
      intro x2 y2 _ hx hy
      cases hx; cases hy
      unfold cosineCell
      rcases near_iff.1 (hv (k / 24) (by omega)) with ⟨e1, e2⟩ | ⟨p, q, e1, e2, hpq⟩
      · rw [e1, e2, XF.mul_nan, XF.mul_nan, XF.add_nan]; trivial
      · rw [e1, e2]
        generalize (((k % 24 : Nat) : Int) : ℝ) = t
        show |x * p * Real.cos _ + y * p - (x * q * Real.cos _ + y * q)| ≤ (|x| + |y|) * ε
        have hc := Real.abs_cos_le_one (Real.pi * (t - z) / 12)
        generalize Real.cos (Real.pi * (t - z) / 12) = c at *
        rw [show x * p * c + y * p - (x * q * c + y * q) = (x * c + y) * (p - q) by ring, abs_mul]
        refine mul_le_mul ?_ hpq (abs_nonneg _) (by positivity)
        refine (abs_add_le _ _).trans (add_le_add_left ?_ _)
        rw [abs_mul]
        exact mul_le_of_le_one_right (abs_nonneg _) hc
    · exact absurd e' (by decide)
  · rcases wind_run hn hr' with ⟨e', _⟩ | ⟨e', _⟩ | ⟨_, rfl⟩
    · exact absurd e' (by decide)
    · exact absurd e' (by decide)
    · refine ⟨hlen, hlen, fun k hk => ⟨_, _, hget _ k hk, hget _ k hk, fun e => absurd e (by decide), fun _ _ e => absurd e (by decide), fun _ => ?_⟩⟩
      obtain ⟨u0, u1⟩ := hdraw rfl k
      have hp : 0 ≤ (-Real.log (draw k)) ^ (0.3 : ℝ) := Real.rpow_nonneg (by have := Real.log_neg u0 u1; linarith) _
      have ek : 24 * (k / 24) + k % 24 = k := by omega
      rw [ek, powPos_log u0 u1]
      rcases near_iff.1 (hv (k / 24) (by omega)) with ⟨e1, e2⟩ | ⟨p, q, e1, e2, hpq⟩
      · rw [e1, e2, XF.nan_mul]; trivial
      · rw [e1, e2, XF.fin_mul_fin, XF.fin_mul_fin]
        show |p * _ - q * _| ≤ _
        rw [← sub_mul, abs_mul, abs_of_nonneg hp, mul_comm]
        exact mul_le_mul_of_nonneg_left hpq hp

/-! ## radiation -/

theorem radCell_near {ε c : ℝ} {p mean g g' : XF ℝ} (hε : 0 ≤ ε) (h0 : 0 ≤ c) (hq : p / mean = .nan ∨ ∃ x, p / mean = .fin x ∧ |x| ≤ c) (h : Near ε g g') :
    Near (c * ε + 0.01) (radCell p mean g) (radCell p mean g') := by
  unfold radCell
  have hce : 0 ≤ c * ε := mul_nonneg h0 hε
  rcases near_iff.1 (near_scale h hq hε) with ⟨e1, e2⟩ | ⟨x, y, e1, e2, hxy⟩
  · rw [e1, e2]
    simp [XF.lt]
    trivial
  · rw [e1, e2]
    simp only [XF.lt_fin]
    rw [abs_le] at hxy
    by_cases hx : x < 0.01
    · rw [if_pos hx]
      by_cases hy : y < 0.01
      · rw [if_pos hy]
        show |(0 : ℝ) - 0| ≤ _
        norm_num
        linarith
      · rw [if_neg hy]
        show |0 - y| ≤ _
        rw [abs_le]
        norm_num at *
        constructor <;> linarith
    · rw [if_neg hx]
      by_cases hy : y < 0.01
      · rw [if_pos hy]
        show |x - 0| ≤ _
        rw [abs_le]
        norm_num at *
        constructor <;> linarith
      · rw [if_neg hy]
        show |x - y| ≤ _
        rw [abs_le]
        norm_num at *
        constructor <;> linarith

/-- **C113** (radiation) 'pot_rad' with non-negative potential radiation, positive in some hour of the day: if the daily values differ by at most ε, the values of
an hour differ by at most ε times the potential radiation of the hour divided by its daily mean, plus 0.01 (because values below 0.01 are set to zero). -/
theorem C113_radiation {ε : ℝ} (hε : 0 ≤ ε) {f g : Frame ℝ} (hf : f.WF) (hg : g.WF) {d0 : Int} {n : Nat} (hn : 0 < n) (cf : Covers f.index d0 n)
    (cg : Covers g.index d0 n) {api api' : PandasApi} {sun sun' : Option (Series SunTimes)} {q : Nat → Nat → ℝ} (hq : ∀ i < n, ∀ h < 24, 0 ≤ q i h)
    (hpos : ∀ i < n, 0 < (day24 (q i)).sum) {angstr angstr' bc bc' : ParPair ℝ} {course course' : Option (MeanCourse ℝ)} {out out' : Series (XF ℝ)}
    (h : ColNear ε f g "glob")
    (ho : disaggregateRadiation api f sun (some (hourlyS d0 n fun i h => .fin (q i h))) "pot_rad" angstr bc course = .ok out)
    (ho' : disaggregateRadiation api' g sun' (some (hourlyS d0 n fun i h => .fin (q i h))) "pot_rad" angstr' bc' course' = .ok out') :
    ∀ i < n, ∀ h < 24, ∃ c c', (dayCells out (d0 + i))[h]? = some c ∧ (dayCells out' (d0 + i))[h]? = some c' ∧
      Near (q i h / ((day24 (q i)).sum / 24) * ε + 0.01) c c' := by
  obtain ⟨v, hv⟩ := glob_col hf cf hn (.inl rfl) ho
  obtain ⟨v', hv'⟩ := glob_col hg cg hn (.inl rfl) ho'
  have b := colNear_daily h hv hv'
  rw [potRad_eq api cf hn hv] at ho
  rw [potRad_eq api' cg hn hv'] at ho'
  cases ho; cases ho'
  intro i hi k hk
  refine ⟨_, _, by rw [dayCells_hourlyS d0 _ hi, day24_getElem? _ hk], by rw [dayCells_hourlyS d0 _ hi, day24_getElem? _ hk], ?_⟩
  rw [lastValue_self hi, lastValue_self hi]
  have hs := hpos i hi
  have h0 : 0 ≤ q i k / ((day24 (q i)).sum / 24) := div_nonneg (hq i hi k hk) (by positivity)
  refine radCell_near hε h0 (.inr ⟨q i k / ((day24 (q i)).sum / 24), ?_, (abs_of_nonneg h0).le⟩) (b i hi)
  rw [meanSkip_day24 (p := fun h => XF.fin (q i h)) (fun _ _ => rfl)]
  exact XF.fin_div_fin_of_ne _ (by positivity)

/-! ## humidity -/

theorem clip_near {ε : ℝ} {a b : XF ℝ} (h : Near ε a b) : Near ε (a.clip 0 100) (b.clip 0 100) := by
  rcases near_iff.1 h with ⟨rfl, rfl⟩ | ⟨x, y, rfl, rfl, hxy⟩
  · trivial
  · show |min (max x 0) 100 - min (max y 0) 100| ≤ ε
    exact (abs_min_sub_min_le_max _ _ _ _).trans (max_le ((abs_max_sub_max_le_max _ _ _ _).trans (max_le hxy (by simpa using (abs_nonneg _).trans hxy)))
      (by simpa using (abs_nonneg _).trans hxy))

/-- **C113** (humidity, equal) If the daily values differ by at most ε, so do the hourly values. -/
theorem C113_humidity_equal {ε : ℝ} {f g : Frame ℝ} (hf : f.WF) (hg : g.WF) {d0 : Int} {n : Nat} (hn : 0 < n) (cf : Covers f.index d0 n) (cg : Covers g.index d0 n)
    {api api' : PandasApi} {T T' : Option (Nat → Nat → XF ℝ)} {a0 a1 kr a0' a1' kr' : Option ℝ} {table table' : Option (CatMeans ℝ)} {out out' : Series (XF ℝ)}
    (h : ColNear ε f g "hum") (ho : disaggregateHumidity api f "equal" (T.map (hourlyS d0 n)) a0 a1 kr table false = .ok out)
    (ho' : disaggregateHumidity api' g "equal" (T'.map (hourlyS d0 n)) a0' a1' kr' table' false = .ok out') : SeriesNear ε out out' := by
  have hT : ∀ {T : Option (Nat → Nat → XF ℝ)}, ∀ s, T.map (hourlyS d0 n) = some s → ∃ U, s = hourlyS d0 n U := by
    intro T s hs
    obtain ⟨U, _, e⟩ := Option.map_eq_some_iff.1 hs
    exact ⟨U, e.symm⟩
  obtain ⟨r, hr, q1, _⟩ := hum_run hf cf hn hT ho
  obtain ⟨r', hr', q1', _⟩ := hum_run hg cg hn hT ho'
  rw [q1 rfl, q1' rfl]
  obtain ⟨s, s', e, e', _⟩ := id h
  obtain ⟨v, rfl⟩ := covers_col hf cf e
  obtain ⟨v', rfl⟩ := covers_col hg cg e'
  have bv := colNear_daily h e e'
  rw [raw_equal api f _ _ _ _ _ d0 n hn v e] at hr
  rw [raw_equal api' g _ _ _ _ _ d0 n hn v' e'] at hr'
  apply near_hourly
  intro i hi k hk
  rw [← hourlyS_inj (Except.ok.inj hr) hi hk, ← hourlyS_inj (Except.ok.inj hr') hi hk]
  exact clip_near (bv i hi)

/-- **C113** (humidity, 'min_max') With the same temperatures (hourly values between tmin and tmax, tmin < tmax): if hum_min and hum_max differ by at most ε, so do
the hourly values. -/
theorem C113_humidity_minmax {ε : ℝ} {f g : Frame ℝ} (hf : f.WF) (hg : g.WF) {d0 : Int} {n : Nat} (hn : 0 < n) (cf : Covers f.index d0 n) (cg : Covers g.index d0 n)
    {api api' : PandasApi} {T : Nat → Nat → XF ℝ} {a0 a1 kr a0' a1' kr' : Option ℝ} {table table' : Option (CatMeans ℝ)} {out out' : Series (XF ℝ)}
    {lo hi : Nat → ℝ} (t1 : f.col? "tmin" = some (dailyS d0 n fun i => .fin (lo i))) (t2 : f.col? "tmax" = some (dailyS d0 n fun i => .fin (hi i)))
    (t1' : g.col? "tmin" = f.col? "tmin") (t2' : g.col? "tmax" = f.col? "tmax") (hlt : ∀ i < n, lo i < hi i)
    (hT : ∀ i < n, ∀ h < 24, T i h = .nan ∨ ∃ t, T i h = .fin t ∧ lo i ≤ t ∧ t ≤ hi i)
    (h1 : ColNear ε f g "hum_min") (h2 : ColNear ε f g "hum_max")
    (ho : disaggregateHumidity api f "min_max" (some (hourlyS d0 n T)) a0 a1 kr table false = .ok out)
    (ho' : disaggregateHumidity api' g "min_max" (some (hourlyS d0 n T)) a0' a1' kr' table' false = .ok out') : SeriesNear ε out out' := by
  obtain ⟨r, hr, q1, _⟩ := hum_run hf cf hn (fun s hs => ⟨T, (Option.some.inj hs).symm⟩) ho
  obtain ⟨r', hr', q1', _⟩ := hum_run hg cg hn (fun s hs => ⟨T, (Option.some.inj hs).symm⟩) ho'
  rw [q1 rfl, q1' rfl]
  obtain ⟨s1, s1', e1, e1', _⟩ := id h1
  obtain ⟨s2, s2', e2, e2', _⟩ := id h2
  obtain ⟨v1, rfl⟩ := covers_col hf cf e1
  obtain ⟨v1', rfl⟩ := covers_col hg cg e1'
  obtain ⟨v2, rfl⟩ := covers_col hf cf e2
  obtain ⟨v2', rfl⟩ := covers_col hg cg e2'
  have b1 := colNear_daily h1 e1 e1'
  have b2 := colNear_daily h2 e2 e2'
  rw [raw_minmax api f _ _ _ _ d0 n hn v1 v2 _ _ T e1 e2 t1 t2] at hr
  rw [raw_minmax api' g _ _ _ _ d0 n hn v1' v2' _ _ T e1' e2' (t1'.trans t1) (t2'.trans t2)] at hr'
  apply near_hourly
  intro i hi' k hk
  rw [← hourlyS_inj (Except.ok.inj hr) hi' hk, ← hourlyS_inj (Except.ok.inj hr') hi' hk]
  apply clip_near
  have hd : hi i - lo i ≠ 0 := (sub_pos.2 (hlt i hi')).ne'
  rcases hT i hi' k hk with e | ⟨t, e, tl, tu⟩
  · simp only [e, XF.nan_sub, XF.nan_div, XF.nan_mul, XF.add_nan]; trivial
  · rw [e]
    rcases near_iff.1 (b1 i hi') with ⟨x1, x2⟩ | ⟨p, q, x1, x2, hpq⟩
    · simp only [x1, x2, XF.nan_sub, XF.mul_nan, XF.add_nan]; trivial
    · rcases near_iff.1 (b2 i hi') with ⟨x3, x4⟩ | ⟨p2, q2, x3, x4, hpq2⟩
      · simp only [x3, x4, XF.nan_add]; trivial
      · simp only [x1, x2, x3, x4, XF.fin_sub_fin, XF.fin_div_fin_of_ne _ hd, XF.fin_mul_fin, XF.fin_add_fin]
        have w0 : 0 ≤ (t - lo i) / (hi i - lo i) := div_nonneg (by linarith) (sub_pos.2 (hlt i hi')).le
        have w1 : (t - lo i) / (hi i - lo i) ≤ 1 := (div_le_one (sub_pos.2 (hlt i hi'))).2 (by linarith)
        generalize (t - lo i) / (hi i - lo i) = w at *
        show |p2 + w * (p - p2) - (q2 + w * (q - q2))| ≤ ε
        rw [show p2 + w * (p - p2) - (q2 + w * (q - q2)) = (w * p + (1 - w) * p2) - (w * q + (1 - w) * q2) by ring]
        exact abs_mix w0 w1 hpq hpq2

theorem hyper_lip {A B x y : ℝ} (hx : B + x ≠ 0) (hy : B + y ≠ 0) : A * x / (B + x) - A * y / (B + y) = A * B * (x - y) / ((B + x) * (B + y)) := by
  field_simp
  ring

/-- the exponent of the Magnus formula changes by at most 0.12 per K above 230 K -/
theorem magnus_lip {T U : ℝ} (hT : 230 ≤ T) (hU : 230 ≤ U) : |magnus T - magnus U| ≤ 0.12 * |T - U| := by
  have ice : ∀ {T U : ℝ}, 230 ≤ T → 230 ≤ U →
      |22.46 * (T - 273.15) / (272.62 + (T - 273.15)) - 22.46 * (U - 273.15) / (272.62 + (U - 273.15))| ≤ 0.12 * |T - U| := by
    intro T U hT hU
    have p1 : 229 ≤ 272.62 + (T - 273.15) := by norm_num; linarith
    have p2 : 229 ≤ 272.62 + (U - 273.15) := by norm_num; linarith
    rw [hyper_lip (by linarith) (by linarith), abs_div, abs_mul, sub_sub_sub_cancel_right, abs_of_pos (by norm_num : (0 : ℝ) < 22.46 * 272.62),
      abs_of_pos (mul_pos (by linarith) (by linarith) : 0 < (272.62 + (T - 273.15)) * (272.62 + (U - 273.15))), div_le_iff₀ (mul_pos (by linarith) (by linarith))]
    have : (229 * 229 : ℝ) ≤ (272.62 + (T - 273.15)) * (272.62 + (U - 273.15)) := mul_le_mul p1 p2 (by norm_num) (by linarith)
    nlinarith [abs_nonneg (T - U), mul_le_mul_of_nonneg_left this (abs_nonneg (T - U))]
  have water : ∀ {T U : ℝ}, 273.15 ≤ T → 273.15 ≤ U →
      |17.62 * (T - 273.15) / (243.12 + (T - 273.15)) - 17.62 * (U - 273.15) / (243.12 + (U - 273.15))| ≤ 0.12 * |T - U| := by
    intro T U hT hU
    have p1 : 243 ≤ 243.12 + (T - 273.15) := by norm_num at *; linarith
    have p2 : 243 ≤ 243.12 + (U - 273.15) := by norm_num at *; linarith
    rw [hyper_lip (by linarith) (by linarith), abs_div, abs_mul, sub_sub_sub_cancel_right, abs_of_pos (by norm_num : (0 : ℝ) < 17.62 * 243.12),
      abs_of_pos (mul_pos (by linarith) (by linarith) : 0 < (243.12 + (T - 273.15)) * (243.12 + (U - 273.15))), div_le_iff₀ (mul_pos (by linarith) (by linarith))]
    have : (243 * 243 : ℝ) ≤ (243.12 + (T - 273.15)) * (243.12 + (U - 273.15)) := mul_le_mul p1 p2 (by norm_num) (by linarith)
    nlinarith [abs_nonneg (T - U), mul_le_mul_of_nonneg_left this (abs_nonneg (T - U))]
  have cross : ∀ {T U : ℝ}, 230 ≤ T → T < 273.15 → 273.15 ≤ U →
      |22.46 * (T - 273.15) / (272.62 + (T - 273.15)) - 17.62 * (U - 273.15) / (243.12 + (U - 273.15))| ≤ 0.12 * |T - U| := by
    intro T U hT hT2 hU
    have a := ice hT (show (230 : ℝ) ≤ 273.15 by norm_num)
    have b := water (le_refl (273.15 : ℝ)) hU
    rw [sub_self, mul_zero, zero_div, sub_zero] at a
    rw [sub_self, mul_zero, zero_div, zero_sub] at b
    rw [sub_eq_add_neg]
    calc _ ≤ 0.12 * |T - 273.15| + 0.12 * |273.15 - U| := (abs_add_le _ _).trans (add_le_add a b)
      _ = 0.12 * |T - U| := by
        rw [abs_of_neg (by linarith : T - 273.15 < 0), abs_of_nonpos (by linarith : 273.15 - U ≤ 0), abs_of_neg (by linarith : T - U < 0)]
        ring
  unfold magnus
  by_cases h1 : (273.15 : ℝ) ≤ T
  · rw [if_pos h1]
    by_cases h2 : (273.15 : ℝ) ≤ U
    · rw [if_pos h2]; exact water h1 h2
    · rw [if_neg h2, abs_sub_comm, abs_sub_comm T U]; exact cross hU (not_le.1 h2) h1
  · rw [if_neg h1]
    by_cases h2 : (273.15 : ℝ) ≤ U
    · rw [if_pos h2]; exact cross hT (not_le.1 h1) h2
    · rw [if_neg h2]; exact ice hT hU

/-- relative humidity changes by at most 12 % per K of the dew point and 12 % per K of the temperature -/
theorem relHum_lip {td td' T T' : ℝ} (h1 : 230 ≤ td) (h2 : 230 ≤ td') (h3 : 230 ≤ T) (h4 : 230 ≤ T') :
    |relHum td T - relHum td' T'| ≤ 12 * (|td - td'| + |T - T'|) := by
  have form : ∀ td T : ℝ, relHum td T = 100 * min (Real.exp (magnus td - magnus T)) 1 := by
    intro td T
    unfold relHum
    have e : 100 * satPressure td / satPressure T = 100 * Real.exp (magnus td - magnus T) := by
      rw [satPressure_eq, satPressure_eq, Real.exp_sub]
      have := Real.exp_pos (magnus T)
      field_simp
    rw [e, max_eq_left (by positivity), mul_min_of_nonneg _ _ (by norm_num : (0 : ℝ) ≤ 100), mul_one]
  have key : ∀ a b : ℝ, min (Real.exp a) 1 - min (Real.exp b) 1 ≤ |a - b| := by
    intro a b
    by_cases hab : a ≤ b
    · have := min_le_min_right 1 (Real.exp_le_exp.2 hab)
      have := abs_nonneg (a - b)
      linarith
    · have hab' : b < a := not_le.1 hab
      by_cases hb : 0 ≤ b
      · rw [min_eq_right (Real.one_le_exp hb), min_eq_right (Real.one_le_exp (by linarith))]
        simp
      · have hb' : Real.exp b < 1 := Real.exp_lt_one_iff.2 (by linarith)
        rw [min_eq_left hb'.le, abs_of_pos (by linarith)]
        have h1 : min (Real.exp a) 1 = Real.exp (min a 0) := by
          rw [← Real.exp_zero]
          exact (Real.exp_monotone.map_min).symm
        rw [h1]
        have hm : min a 0 ≤ 0 := min_le_right _ _
        have hm2 : min a 0 ≤ a := min_le_left _ _
        have h2 : Real.exp (min a 0) ≤ 1 := Real.exp_le_one_iff.2 hm
        have h3 : Real.exp b = Real.exp (min a 0) * Real.exp (b - min a 0) := by rw [← Real.exp_add]; congr 1; ring
        have h4 := Real.add_one_le_exp (b - min a 0)
        have h5 := Real.exp_pos (min a 0)
        have h6 : b ≤ min a 0 := le_min hab'.le (by linarith)
        rw [h3]
        nlinarith [mul_le_mul_of_nonneg_left h4 h5.le, mul_nonneg (sub_nonneg.2 h2) (sub_nonneg.2 h6)]
  rw [form, form, ← mul_sub, abs_mul, abs_of_pos (by norm_num : (0 : ℝ) < 100)]
  have k : |min (Real.exp (magnus td - magnus T)) 1 - min (Real.exp (magnus td' - magnus T')) 1| ≤ |magnus td - magnus T - (magnus td' - magnus T')| := by
    rw [abs_le]
    have a := key (magnus td - magnus T) (magnus td' - magnus T')
    have b := key (magnus td' - magnus T') (magnus td - magnus T)
    rw [abs_sub_comm] at b
    constructor <;> linarith
  have m : |magnus td - magnus T - (magnus td' - magnus T')| ≤ |magnus td - magnus td'| + |magnus T - magnus T'| := by
    rw [show magnus td - magnus T - (magnus td' - magnus T') = (magnus td - magnus td') - (magnus T - magnus T') by ring]
    exact abs_sub _ _
  have l1 := magnus_lip h1 h2
  have l2 := magnus_lip h3 h4
  norm_num at l1 l2
  linarith

theorem rhCell_near {td td' T T' : XF ℝ} {ε δ : ℝ} (h1 : Near ε td td') (h2 : Near δ T T') (k1 : ∀ x, td = .fin x ∨ td' = .fin x → 230 ≤ x)
    (k2 : ∀ x, T = .fin x ∨ T' = .fin x → 230 ≤ x) : Near (12 * (ε + δ)) ((rhCell td T).clip 0 100) ((rhCell td' T').clip 0 100) := by
  rcases near_iff.1 h1 with ⟨rfl, rfl⟩ | ⟨x, x', rfl, rfl, hx⟩
  · have e : ∀ T : XF ℝ, rhCell .nan T = .nan := by
      intro T
      unfold rhCell
      rw [C06_vapor_pressure.2.1, XF.mul_nan, XF.nan_div]
    rw [e, e]
    trivial
  · rcases near_iff.1 h2 with ⟨rfl, rfl⟩ | ⟨t, t', rfl, rfl, ht⟩
    · have e : ∀ x : XF ℝ, rhCell x .nan = .nan := by
        intro T
        unfold rhCell
        rw [C06_vapor_pressure.2.1, XF.div_nan]
      rw [e, e]
      trivial
    · have a1 := k1 x (.inl rfl)
      have a2 := k1 x' (.inr rfl)
      have a3 := k2 t (.inl rfl)
      have a4 := k2 t' (.inr rfl)
      rw [rhCell_fin (by norm_num; linarith) (by norm_num; linarith), rhCell_fin (by norm_num; linarith) (by norm_num; linarith)]
      show |relHum x t - relHum x' t'| ≤ 12 * (ε + δ)
      exact (relHum_lip a1 a2 a3 a4).trans (by linarith)

/-- **C113** (humidity, dew point methods) 'minimal' and 'dewpoint_regression' with dew points and temperatures above 230 K: if tmin differs by at most ε and the
hourly temperature by at most δ, relative humidity differs by at most 12 (|a₁| ε + δ) percent (a₁ = 1 for 'minimal'). -/
theorem C113_humidity_dewpoint {ε δ : ℝ} (hε : 0 ≤ ε) {f g : Frame ℝ} (hf : f.WF) (hg : g.WF) {d0 : Int} {n : Nat} (hn : 0 < n) (cf : Covers f.index d0 n)
    (cg : Covers g.index d0 n) {api api' : PandasApi} {method : String} {T T' : Nat → Nat → XF ℝ} {a0 a1 : ℝ} {kr : Option ℝ} {table : Option (CatMeans ℝ)}
    {out out' : Series (XF ℝ)} (hm : method = "dewpoint_regression" ∨ (method = "minimal" ∧ a0 = 0 ∧ a1 = 1))
    (h1 : ColNear ε f g "tmin") (h2 : SeriesNear δ (hourlyS d0 n T) (hourlyS d0 n T'))
    (k1 : ∀ s, f.col? "tmin" = some s ∨ g.col? "tmin" = some s → ∀ r ∈ s, ∀ x, r.2 = .fin x → 230 ≤ a0 + a1 * x)
    (k2 : ∀ r ∈ hourlyS d0 n T ++ hourlyS d0 n T', ∀ x, r.2 = .fin x → 230 ≤ x)
    (ho : disaggregateHumidity api f method (some (hourlyS d0 n T)) (some a0) (some a1) kr table false = .ok out)
    (ho' : disaggregateHumidity api' g method (some (hourlyS d0 n T')) (some a0) (some a1) kr table false = .ok out') :
    SeriesNear (12 * (|a1| * ε + δ)) out out' := by
  obtain ⟨r, hr, q1, _⟩ := hum_run hf cf hn (fun s hs => ⟨T, (Option.some.inj hs).symm⟩) ho
  obtain ⟨r', hr', q1', _⟩ := hum_run hg cg hn (fun s hs => ⟨T', (Option.some.inj hs).symm⟩) ho'
  rw [q1 rfl, q1' rfl]
  obtain ⟨s, s', e, e', _⟩ := id h1
  obtain ⟨v, rfl⟩ := covers_col hf cf e
  obtain ⟨v', rfl⟩ := covers_col hg cg e'
  have bv := colNear_daily h1 e e'
  have hraw : ∀ (api : PandasApi) (f : Frame ℝ) (v : Nat → XF ℝ) (T : Nat → Nat → XF ℝ), f.col? "tmin" = some (dailyS d0 n v) →
      humidityRaw api f method (some (hourlyS d0 n T)) (some a0) (some a1) kr table = .ok (hourlyS d0 n fun i h => rhCell (.fin a0 + .fin a1 * v i) (T i h)) := by
    intro api f v T e
    rcases hm with rfl | ⟨rfl, rfl, rfl⟩
    · exact raw_regression api f a0 a1 kr table d0 n hn v T e
    · exact raw_minimal api f (some 0) (some 1) kr table d0 n hn v T e
  rw [hraw api f v T e] at hr
  rw [hraw api' g v' T' e'] at hr'
  have hT : ∀ i < n, ∀ k < 24, Near δ (T i k) (T' i k) := by
    intro i hi k hk
    unfold SeriesNear hourlyS at h2
    rw [List.forall₂_map_left_iff, List.forall₂_map_right_iff, List.forall₂_same] at h2
    have := (h2 (24 * i + k) (List.mem_range.2 (by omega))).2
    rw [show (24 * i + k) / 24 = i by omega, show (24 * i + k) % 24 = k by omega] at this
    exact this
  have hmem : ∀ (T : Nat → Nat → XF ℝ), ∀ i < n, ∀ k < 24, (atHour (d0 + (i : Nat)) k, T i k) ∈ hourlyS d0 n T := by
    intro T i hi k hk
    unfold hourlyS
    refine List.mem_map.2 ⟨24 * i + k, List.mem_range.2 (by omega), ?_⟩
    rw [show (24 * i + k) / 24 = i by omega, show (24 * i + k) % 24 = k by omega]
  apply near_hourly
  intro i hi k hk
  rw [← hourlyS_inj (Except.ok.inj hr) hi hk, ← hourlyS_inj (Except.ok.inj hr') hi hk]
  refine rhCell_near ?_ (hT i hi k hk) ?_ ?_
  · have a : Near (0 : ℝ) (XF.fin a0) (.fin a0) := by
      show |a0 - a0| ≤ 0
      simp
    have := near_add a (near_scale (bv i hi) (q := .fin a1) (M := |a1|) (.inr ⟨a1, rfl, le_rfl⟩) hε)
    rwa [zero_add] at this
  · have low : ∀ (f : Frame ℝ) (v : Nat → XF ℝ), (f.col? "tmin" = some (dailyS d0 n v)) → (v i = .nan ∨ ∃ y, v i = .fin y) →
        (∀ r ∈ dailyS d0 n v, ∀ x, r.2 = .fin x → 230 ≤ a0 + a1 * x) → ∀ x, XF.fin a0 + .fin a1 * v i = .fin x → 230 ≤ x := by
      intro f v _ hv hk x hx
      rcases hv with ev | ⟨y, ev⟩
      · rw [ev, XF.mul_nan, XF.add_nan] at hx; cases hx
      · rw [ev, XF.fin_mul_fin, XF.fin_add_fin] at hx
        cases hx
        exact hk (at00 (d0 + (i : Nat)), v i) (List.mem_map.2 ⟨i, List.mem_range.2 hi, rfl⟩) y ev
    have hb := near_iff.1 (bv i hi)
    intro x hx
    rcases hx with hx | hx
    · refine low f v e ?_ (k1 _ (.inl e)) x hx
      rcases hb with ⟨h, _⟩ | ⟨y, _, h, _⟩
      · exact .inl h
      · exact .inr ⟨y, h⟩
    · refine low g v' e' ?_ (k1 _ (.inr e')) x hx
      rcases hb with ⟨_, h⟩ | ⟨_, y, _, h, _⟩
      · exact .inl h
      · exact .inr ⟨y, h⟩
  · intro x hx
    rcases hx with hx | hx
    · exact k2 _ (List.mem_append_left _ (hmem T i hi k hk)) x hx
    · exact k2 _ (List.mem_append_right _ (hmem T' i hi k hk)) x hx

end

/-! ## precipitation -/

section precip
variable {K : Type} [Field K] [LinearOrder K] [IsStrictOrderedRing K]

/-- **C113** (precipitation, equal parts) If the daily values differ by at most ε, the hourly values differ by at most ε / 24 (without division ε). -/
theorem C113_equal {ε : K} {s s' : Series (XF K)} {d0 : Int} {n : Nat} (hn : 0 < n) (cs : Covers s.index d0 n) (cs' : Covers s'.index d0 n) (h : SeriesNear ε s s')
    {api api' : PandasApi} {divide : Bool} {out out' : Series (XF K)}
    (ho : distributeEqually api s divide = .ok out) (ho' : distributeEqually api' s' divide = .ok out') :
    SeriesNear (if divide then ε / 24 else ε) out out' := by
  obtain ⟨v, rfl⟩ := covers_series cs
  obtain ⟨v', rfl⟩ := covers_series cs'
  have hv := near_daily h
  cases divide with
  | false =>
    rw [distributeEqually_daily api d0 hn] at ho
    rw [distributeEqually_daily api' d0 hn] at ho'
    cases ho; cases ho'
    exact near_hourly fun i hi _ _ => hv i hi
  | true =>
    rw [distributeEqually_daily_divide api d0 hn] at ho
    rw [distributeEqually_daily_divide api' d0 hn] at ho'
    cases ho; cases ho'
    refine near_hourly fun i hi _ _ => ?_
    rcases near_iff.1 (hv i hi) with ⟨e1, e2⟩ | ⟨p, q, e1, e2, hpq⟩
    · rw [e1, e2, XF.nan_div]; trivial
    · have h24 : (24 : K) ≠ 0 := by norm_num
      rw [e1, e2, XF.fin_div_fin_of_ne _ h24, XF.fin_div_fin_of_ne _ h24]
      show |p / 24 - q / 24| ≤ ε / 24
      rw [← sub_div, abs_div, abs_of_pos (by norm_num : (0 : K) < 24)]
      exact div_le_div_of_nonneg_right hpq (by norm_num)

/-- **C113** (precipitation, master station) With non-negative or missing values at the master station: if the daily values differ by at most ε, so do the hourly
values. -/
theorem C113_master {ε : K} (hε : 0 ≤ ε) {s s' : Series (XF K)} {d0 : Int} {n : Nat} (hn : 0 < n) (cs : Covers s.index d0 n) (cs' : Covers s'.index d0 n)
    (h : SeriesNear ε s s') {api api' : PandasApi} {zerodiv : String} {m out out' : Series (XF K)} (hm : ∀ r ∈ m, r.2 = .nan ∨ ∃ x, r.2 = .fin x ∧ 0 ≤ x)
    (ho : precipMasterStation api s m zerodiv = .ok out) (ho' : precipMasterStation api' s' m zerodiv = .ok out') : SeriesNear ε out out' := by
  obtain ⟨v, rfl⟩ := covers_series cs
  obtain ⟨v', rfl⟩ := covers_series cs'
  have hv := near_daily h
  rw [master_run hn ho, master_run hn ho']
  refine near_hourly fun i hi k _ => ?_
  have hrows : ∀ r ∈ m.filter (fun q => dayOf q.1 == d0 + (i : Int)), r.2 = .nan ∨ ∃ x, r.2 = .fin x ∧ 0 ≤ x := fun r hr => hm r (List.mem_filter.1 hr).1
  generalize m.filter (fun q => dayOf q.1 == d0 + (i : Int)) = rows at *
  have htot : sumSkip (Series.values rows) = .fin (numbers (Series.values rows)).sum := by
    apply sumSkip_eq
    intro c hc
    obtain ⟨r, hr, rfl⟩ := List.mem_map.1 hc
    rcases hrows r hr with e | ⟨x, e, _⟩ <;> rw [e]
    · exact XF.nanOrFin_nan
    · exact XF.nanOrFin_fin x
  have hnn : ∀ x ∈ numbers (Series.values rows), 0 ≤ x := by
    intro x hx
    unfold numbers at hx
    obtain ⟨c, hc, hcx⟩ := List.mem_filterMap.1 hx
    obtain ⟨r, hr, rfl⟩ := List.mem_map.1 hc
    rcases hrows r hr with e | ⟨y, e, hy⟩
    · rw [e] at hcx; cases hcx
    · rw [e] at hcx; cases hcx; exact hy
  have htot0 : 0 ≤ (numbers (Series.values rows)).sum := List.sum_nonneg hnn
  have one : ∀ {q : XF K}, (q = .nan ∨ ∃ c, q = .fin c ∧ 0 ≤ c ∧ c ≤ 1) → Near ε (q * v i) (q * v' i) := by
    intro q hq
    have := near_scale (M := 1) (hv i hi) (q := q) (by
      rcases hq with e | ⟨c, e, c0, c1⟩
      · exact .inl e
      · exact .inr ⟨c, e, by rwa [abs_of_nonneg c0]⟩) hε
    rwa [one_mul] at this
  unfold masterCell
  dsimp only
  rw [htot]
  by_cases hc : ¬ XF.feq (XF.fin (numbers (Series.values rows)).sum) (.fin 0) ∧
      ¬ XF.feq (XF.fin (numbers (Series.values rows)).sum) (if (XF.fin (numbers (Series.values rows)).sum).isNan then .fin 1 else .fin 0)
  · rw [if_pos hc, if_pos hc]
    have hpos : 0 < (numbers (Series.values rows)).sum := by
      rcases htot0.eq_or_lt with e | e
      · exact absurd (by rw [← e]; simp [XF.feq]) hc.1
      · exact e
    have find : ∀ (tot : K) (w : XF K), Series.at? (rows.map fun r => (r.1, r.2 / .fin tot * w)) (atHour (d0 + (i : Int)) k) =
        (rows.find? fun r => r.1 == atHour (d0 + (i : Int)) k).map fun r => r.2 / .fin tot * w := by
      intro tot w
      unfold Series.at?
      rw [List.find?_map, Option.map_map]
      rfl
    rw [find, find]
    cases hf : rows.find? fun r => r.1 == atHour (d0 + (i : Int)) k with
    | none => trivial
    | some r =>
      show Near ε (r.2 / .fin (numbers (Series.values rows)).sum * v i) (r.2 / .fin (numbers (Series.values rows)).sum * v' i)
      have hr := List.mem_of_find?_eq_some hf
      refine one ?_
      rcases hrows r hr with e | ⟨x, e, hx⟩
      · rw [e, XF.nan_div]; exact .inl rfl
      · rw [e, XF.fin_div_fin_of_ne _ hpos.ne']
        refine .inr ⟨_, rfl, div_nonneg hx hpos.le, (div_le_one hpos).2 ?_⟩
        refine List.single_le_sum hnn x ?_
        exact List.mem_filterMap.2 ⟨r.2, List.mem_map.2 ⟨r, hr, rfl⟩, by rw [e]⟩
  · rw [if_neg hc, if_neg hc]
    by_cases hz : zerodiv = "uniform"
    · rw [if_pos hz, if_pos hz]
      exact one (.inr ⟨_, rfl, by positivity, by norm_num⟩)
    · rw [if_neg hz, if_neg hz]
      show |(0 : K) - 0| ≤ ε
      simpa using hε

end precip

/-- **C113** (cascade) Not so for the cascade: with the same random numbers, a difference of 10⁻¹² mm in a daily value can change the value of an hour by more than
1 mm. -/
theorem C113_cascade_not_stable :
    ∃ (rnd : Nat → ℚ) (v v' : Nat → XF ℚ) (out out' : CascadeOut ℚ), SeriesNear (1 / 10 ^ 12) (dailyS 0 2 v) (dailyS 0 2 v') ∧
      disaggPrecCascade .modern rnd (dailyS 0 2 v) (.one (CascStats.fillSample .init)) = .ok out ∧
      disaggPrecCascade .modern rnd (dailyS 0 2 v') (.one (CascStats.fillSample .init)) = .ok out' ∧
      ∃ (h : Nat) (x y : ℚ), (dayCells out.series 0)[h]? = some (.fin x) ∧ (dayCells out'.series 0)[h]? = some (.fin y) ∧ 1 < |x - y| := by
  have h : okAnd (disaggPrecCascade .modern (fun _ => (1 / 2 : ℚ)) (dailyS 0 2 fun i => if i = 0 then .fin (804924471 / 10 ^ 8) else .fin 0)
      (.one (CascStats.fillSample .init))) (fun o => okAnd (disaggPrecCascade .modern (fun _ => (1 / 2 : ℚ))
        (dailyS 0 2 fun i => if i = 0 then .fin (804924471 / 10 ^ 8 + 1 / 10 ^ 12) else .fin 0) (.one (CascStats.fillSample .init)))
          fun o' => decide ((dayCells o.series 0)[3]? = some (.fin (166375021036542384732651843 / 150062500000000000000000000)) ∧
            (dayCells o'.series 0)[3]? = some (.fin 0))) = true := by decide +kernel
  obtain ⟨o, ho, h⟩ := okAnd_iff.1 h
  obtain ⟨o', ho', h⟩ := okAnd_iff.1 h
  have h := of_decide_eq_true h
  refine ⟨fun _ => 1 / 2, fun i => if i = 0 then .fin (804924471 / 10 ^ 8) else .fin 0,
    fun i => if i = 0 then .fin (804924471 / 10 ^ 8 + 1 / 10 ^ 12) else .fin 0, o, o', ?_, ho, ho', 3, _, _, h.1, h.2, ?_⟩
  · refine .cons ⟨rfl, ?_⟩ (.cons ⟨rfl, ?_⟩ .nil)
    · show |(804924471 / 10 ^ 8 : ℚ) - (804924471 / 10 ^ 8 + 1 / 10 ^ 12)| ≤ 1 / 10 ^ 12
      rw [abs_le]
      norm_num
    · show |(0 : ℚ) - 0| ≤ 1 / 10 ^ 12
      norm_num
  · rw [sub_zero, abs_of_pos (by norm_num)]
    norm_num

/-! ## the theorems apply -/

/-- C113 (temperature): the second record is half a degree off -/
example : ∃ out out', disaggregateTemperature .modern exFrame3 "sine" "fix" false none none (some exSun3) = .ok out ∧
    disaggregateTemperature .modern
      ⟨[at00 0, at00 1, at00 2], [("tmin", [.fin 283.5, .fin 273, .fin 249.5]), ("tmax", [.fin 293, .fin 303.5, .fin 290]), ("temp", [.fin 288, .fin 288, .fin 270])]⟩
      "sine" "fix" false none none (some exSun3) = .ok out' ∧ SeriesNear 0.5 out out' := by
  obtain ⟨out, ho⟩ := exOk3 (.inr (.inr rfl)) false
  obtain ⟨out', ho'⟩ : ∃ out, disaggregateTemperature .modern
      ⟨[at00 0, at00 1, at00 2], [("tmin", [.fin 283.5, .fin 273, .fin 249.5]), ("tmax", [.fin 293, .fin 303.5, .fin 290]), ("temp", [.fin 288, .fin 288, .fin 270])]⟩
      "sine" "fix" false none none (some exSun3) = .ok out :=
    sine_ok (d0 := 0) (n := 3) (tmin := fun i => if i = 0 then .fin 283.5 else if i = 1 then .fin 273 else .fin 249.5)
      (tmax := fun i => if i = 0 then .fin 293 else if i = 1 then .fin 303.5 else .fin 290)
      (temp := fun i => if i = 0 then .fin 288 else if i = 1 then .fin 288 else .fin 270) .modern ⟨rfl, rfl, rfl, rfl⟩
      (by decide) (.inr (.inr rfl)) false none (fun _ _ => ⟨7, 14, .inl ⟨rfl, rfl, rfl⟩⟩) (by decide) (by
        intro r hr
        obtain ⟨i, _, rfl⟩ := List.mem_map.1 hr
        simp only [XF.lt_fin]
        norm_num)
  refine ⟨out, out', ho, ho', C113_temperature_extremes (g := ⟨[at00 0, at00 1, at00 2], [("tmin", [.fin 283.5, .fin 273, .fin 249.5]),
    ("tmax", [.fin 293, .fin 303.5, .fin 290]), ("temp", [.fin 288, .fin 288, .fin 270])]⟩) (d0 := 0) (n := 3) exWF.2 ?_ (by omega) rfl rfl (.inl rfl) (fun h => absurd h (by decide)) ?_ ?_ ho ho'⟩
  · intro c hc
    simp at hc
    rcases hc with rfl | rfl | rfl <;> rfl
  · exact ⟨_, _, rfl, rfl, .cons ⟨rfl, show |(283 : ℝ) - 283.5| ≤ 0.5 by rw [abs_le]; norm_num⟩ (.cons ⟨rfl, show |(273 : ℝ) - 273| ≤ 0.5 by norm_num⟩
      (.cons ⟨rfl, show |(250 : ℝ) - 249.5| ≤ 0.5 by rw [abs_le]; norm_num⟩ .nil))⟩
  · exact ⟨_, _, rfl, rfl, .cons ⟨rfl, show |(293 : ℝ) - 293| ≤ 0.5 by norm_num⟩ (.cons ⟨rfl, show |(303 : ℝ) - 303.5| ≤ 0.5 by rw [abs_le]; norm_num⟩
      (.cons ⟨rfl, show |(290 : ℝ) - 290| ≤ 0.5 by norm_num⟩ .nil))⟩

/-- C113 (wind): two records, one value missing in both -/
example (draw : Nat → ℝ) : ∃ r r', disaggregateWind .modern draw (dailyS 0 3 fun i => if i = 1 then .nan else .fin 2) "cosine" (some (-0.2)) (some 1) (some 2) = .ok r ∧
    disaggregateWind .modern draw (dailyS 0 3 fun i => if i = 1 then .nan else .fin (2 + i)) "cosine" (some (-0.2)) (some 1) (some 2) = .ok r' ∧
    ∀ k < 24 * 3, ∃ c c', r.values[k]? = some c ∧ r'.values[k]? = some c' ∧ Near ((|(-0.2 : ℝ)| + |1|) * 2) c c' := by
  refine ⟨_, _, wind_cosine .modern draw 0 3 (by omega) _ _ _ _, wind_cosine .modern draw 0 3 (by omega) _ _ _ _, ?_⟩
  have := (C113_wind (ε := 2) (by norm_num) (s := dailyS 0 3 fun i => if i = 1 then .nan else .fin 2)
    (s' := dailyS 0 3 fun i => if i = 1 then .nan else .fin (2 + i)) (by omega)
    (dailyS_index 0 3 _) (dailyS_index 0 3 _) (.cons ⟨rfl, show |(2 : ℝ) - (2 + ((0 : Nat) : ℝ))| ≤ 2 by norm_num⟩ (.cons ⟨rfl, trivial⟩
      (.cons ⟨rfl, show |(2 : ℝ) - (2 + ((2 : Nat) : ℝ))| ≤ 2 by rw [abs_le]; norm_num⟩ .nil))) (fun h => absurd h (by decide))
    (wind_cosine .modern draw 0 3 (by omega) _ (-0.2) 1 2) (wind_cosine .modern draw 0 3 (by omega) _ (-0.2) 1 2)).2.2
  intro k hk
  obtain ⟨c, c', h1, h2, _, h3, _⟩ := this k hk
  exact ⟨c, c', h1, h2, h3 _ _ rfl rfl rfl⟩

/-- C113 (radiation): in the last hour of the day (potential 23, mean 11.5) a difference of 20 in the daily value makes at most 40.01 -/
example : ∃ out out', disaggregateRadiation .modern ⟨[at00 0, at00 1], [("glob", [.fin 100, .nan])]⟩ none (some (hourlyS 0 2 fun _ h => .fin h)) = .ok out ∧
    disaggregateRadiation .modern ⟨[at00 0, at00 1], [("glob", [.fin 120, .nan])]⟩ none (some (hourlyS 0 2 fun _ h => .fin h)) = .ok out' ∧
    ∃ c c', (dayCells out (0 + ((0 : Nat) : Int)))[23]? = some c ∧ (dayCells out' (0 + ((0 : Nat) : Int)))[23]? = some c' ∧ Near (40.01 : ℝ) c c' := by
  have r1 := potRad_eq (d0 := 0) (d1 := 0) (n := 2) (m := 2) (daily := ⟨[at00 0, at00 1], [("glob", [.fin 100, .nan])]⟩) .modern rfl (by omega)
    (v := fun i => if i = 0 then .fin 100 else .nan) rfl none (fun _ h => .fin h) (.scalar (.fin 0.25) (.fin 0.5)) (.scalar (.fin 0.75) (.fin 2.4)) none
  have r2 := potRad_eq (d0 := 0) (d1 := 0) (n := 2) (m := 2) (daily := ⟨[at00 0, at00 1], [("glob", [.fin 120, .nan])]⟩) .modern rfl (by omega)
    (v := fun i => if i = 0 then .fin 120 else .nan) rfl none (fun _ h => .fin h) (.scalar (.fin 0.25) (.fin 0.5)) (.scalar (.fin 0.75) (.fin 2.4)) none
  have hsum : (day24 fun h : Nat => (h : ℝ)).sum = 276 := by norm_num [day24, List.range_succ]
  refine ⟨_, _, r1, r2, ?_⟩
  obtain ⟨c, c', h1, h2, h3⟩ := C113_radiation (ε := 20) (by norm_num) (f := ⟨[at00 0, at00 1], [("glob", [.fin 100, .nan])]⟩)
    (g := ⟨[at00 0, at00 1], [("glob", [.fin 120, .nan])]⟩) (d0 := 0)
    (n := 2) (by intro c hc; simp at hc; subst hc; rfl) (by intro c hc; simp at hc; subst hc; rfl) (by omega) rfl rfl (q := fun _ h => (h : ℝ))
    (fun _ _ h _ => Nat.cast_nonneg h) (fun _ _ => by rw [hsum]; norm_num)
    ⟨_, _, rfl, rfl, .cons ⟨rfl, show |(100 : ℝ) - 120| ≤ 20 by rw [abs_le]; norm_num⟩ (.cons ⟨rfl, trivial⟩ .nil)⟩ r1 r2 0 (by omega) 23 (by omega)
  refine ⟨c, c', h1, h2, Near.weaken ?_ h3⟩
  rw [hsum]
  norm_num

/-- C113 (humidity): a minimum and temperatures that are 1 K off -/
example : ∃ out out', disaggregateHumidity .modern ⟨[at00 0, at00 1], [("tmin", [.fin 275, .fin 276])]⟩ "minimal"
      (some (hourlyS 0 2 fun _ h => .fin (280 + h))) (some 0) (some 1) none none false = .ok out ∧
    disaggregateHumidity .modern ⟨[at00 0, at00 1], [("tmin", [.fin 275, .fin 277])]⟩ "minimal"
      (some (hourlyS 0 2 fun _ h => .fin (279 + h))) (some 0) (some 1) none none false = .ok out' ∧ SeriesNear (12 * (|(1 : ℝ)| * 1 + 1)) out out' := by
  have r1 := raw_minimal .modern (⟨[at00 0, at00 1], [("tmin", [.fin 275, .fin 276])]⟩ : Frame ℝ) (some 0) (some 1) none none 0 2 (by omega)
    (fun i => if i = 0 then .fin 275 else .fin 276) (fun _ h => .fin (280 + h)) rfl
  have r2 := raw_minimal .modern (⟨[at00 0, at00 1], [("tmin", [.fin 275, .fin 277])]⟩ : Frame ℝ) (some 0) (some 1) none none 0 2 (by omega)
    (fun i => if i = 0 then .fin 275 else .fin 277) (fun _ h => .fin (279 + h)) rfl
  refine ⟨_, _, (hum_finish r1).1, (hum_finish r2).1, ?_⟩
  refine C113_humidity_dewpoint (ε := 1) (δ := 1) (a0 := 0) (a1 := 1) (by norm_num) (f := ⟨[at00 0, at00 1], [("tmin", [.fin 275, .fin 276])]⟩)
    (g := ⟨[at00 0, at00 1], [("tmin", [.fin 275, .fin 277])]⟩) (d0 := 0) (n := 2) ?_ ?_ (by omega) rfl rfl (.inr ⟨rfl, rfl, rfl⟩) ?_ ?_ ?_ ?_
    (hum_finish r1).1 (hum_finish r2).1
  · intro c hc; simp at hc; subst hc; rfl
  · intro c hc; simp at hc; subst hc; rfl
  · exact ⟨_, _, rfl, rfl, .cons ⟨rfl, show |(275 : ℝ) - 275| ≤ 1 by norm_num⟩ (.cons ⟨rfl, show |(276 : ℝ) - 277| ≤ 1 by rw [abs_le]; norm_num⟩ .nil)⟩
  · refine near_hourly fun i _ k _ => ?_
    show |(280 + (k : ℝ)) - (279 + k)| ≤ 1
    rw [abs_le]
    constructor <;> linarith
  · intro s hs r hr x hx
    rcases hs with hs | hs <;> cases hs <;> simp at hr <;> rcases hr with rfl | rfl <;> cases hx <;> norm_num
  · intro r hr x hx
    rcases List.mem_append.1 hr with hr | hr <;> obtain ⟨j, _, rfl⟩ := List.mem_map.1 hr <;> cases hx <;>
      have : (0 : ℝ) ≤ ((j % 24 : Nat) : ℝ) := Nat.cast_nonneg _
    · linarith
    · linarith

/-- C113 (precipitation): equal parts of two records that are 2.4 mm apart -/
example : okAnd (distributeEqually .modern (dailyS 0 2 fun i => .fin (i + 3 : ℚ)) true) (fun o =>
    okAnd (distributeEqually .modern (dailyS 0 2 fun i => .fin (i + 3 + 12 / 5 : ℚ)) true) (fun o' => decide (o.length = 48 ∧ o'.length = 48))) = true ∧
    SeriesNear (12 / 5) (dailyS 0 2 fun i => .fin (i + 3 : ℚ)) (dailyS 0 2 fun i => .fin (i + 3 + 12 / 5 : ℚ)) := by
  refine ⟨by decide +kernel, .cons ⟨rfl, ?_⟩ (.cons ⟨rfl, ?_⟩ .nil)⟩
  · show |(((0 : Nat) : ℚ) + 3) - (((0 : Nat) : ℚ) + 3 + 12 / 5)| ≤ 12 / 5
    rw [abs_le]; norm_num
  · show |(((1 : Nat) : ℚ) + 3) - (((1 : Nat) : ℚ) + 3 + 12 / 5)| ≤ 12 / 5
    rw [abs_le]; norm_num

end Melodist
