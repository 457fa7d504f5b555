import Verif.Lemmas.Mono
import Verif.Lemmas.RadiationFit
import Verif.Props.LocalityB
import Verif.Props.Vapor
import Verif.Props.TemperatureB

/-!
# C101: larger daily values give larger (or equal) hourly values
-/

set_option linter.unusedSectionVars false

namespace Melodist
open Spec

noncomputable section

/-! ## temperature -/

/-- **C101** (temperature, extremes) 'sine', 'sine_min_max' and, for a course with values in [0, 1], 'mean_course_min_max': if no tmin and no tmax of the
first table exceeds that of the second, no hourly value of the first exceeds that of the second. -/
theorem C101_temperature_extremes {f g : Frame ℝ} (hf : f.WF) (hg : g.WF) {d0 : Int} {n : Nat} (hn : 0 < n) (cf : Covers f.index d0 n) (cg : Covers g.index d0 n)
    {api api' : PandasApi} {method mmt : String} {modNight : Bool} {md : Option (List (Int × XF ℝ))} {course : Option (MeanCourse ℝ)}
    {sun : Option (Series SunTimes)} {out out' : Series (XF ℝ)} (hm : method = "sine" ∨ method = "sine_min_max" ∨ method = "mean_course_min_max")
    (hcourse : method = "mean_course_min_max" → ∀ c, course = some c → ∀ m h, c.val m h = .nan ∨ ∃ x, c.val m h = .fin x ∧ 0 ≤ x ∧ x ≤ 1)
    (h1 : ColAtMost f g "tmin") (h2 : ColAtMost f g "tmax")
    (ho : disaggregateTemperature api f method mmt modNight md course sun = .ok out)
    (ho' : disaggregateTemperature api' g method mmt modNight md course sun = .ok out') : SeriesAtMost out out' := by
  by_cases hs : method = "sine" ∨ method = "sine_min_max"
  · have hm3 : method = "sine_min_max" ∨ method = "sine_mean" ∨ method = "sine" := by tauto
    have hne : method ≠ "sine_mean" := by rcases hs with rfl | rfl <;> decide
    obtain ⟨s, tmin, tmax, temp, lo, hi, rfl, td, hl, rfl⟩ := sine_run hf cf hn hm3 ho
    obtain ⟨s', tmin', tmax', temp', lo', hi', es, td', hl', rfl⟩ := sine_run hg cg hn hm3 ho'
    cases es
    have b1 := colAtMost_daily h1 td.hmin td'.hmin
    have b2 := colAtMost_daily h2 td.hmax td'.hmax
    apply le_hourly
    intro i hi2 k _
    rw [if_neg hne, if_neg hne]
    have e1 : lo i = lo' i := Except.ok.inj ((hl i hi2).1.symm.trans (hl' i hi2).1)
    have e2 : hi i = hi' i := Except.ok.inj ((hl i hi2).2.symm.trans (hl' i hi2).2)
    have e3 : locRow n tmin' tmax' temp' lo' hi' i = locRow n tmin' tmax' temp' lo hi i := by
      unfold locRow
      rw [e1, e2]
    rw [e3]
    exact sineCell_mono b1 b2 hi2 _
  · have hm' : method = "mean_course_min_max" := by tauto
    subst hm'
    obtain ⟨c, tmin, tmax, rfl, t1, t2, q⟩ := course_run hf cf hn (.inl rfl) ho
    obtain ⟨c', tmin', tmax', ec, t1', t2', q'⟩ := course_run hg cg hn (.inl rfl) ho'
    cases ec
    have b1 := colAtMost_daily h1 t1 t1'
    have b2 := colAtMost_daily h2 t2 t2'
    rcases q with ⟨_, rfl⟩ | ⟨e, _⟩
    · rcases q' with ⟨_, rfl⟩ | ⟨e, _⟩
      · apply le_hourly
        intro i hi k _
        rcases hcourse rfl c rfl (monthOf (at00 (d0 + (i : Nat)))) (k : Nat) with e | ⟨x, e, x0, x1⟩
        · simp only [e, XF.nan_mul, XF.nan_add]; trivial
        · rw [e]
          rcases atMost_iff.1 (b1 i hi) with ⟨e1, e2⟩ | ⟨y, y', e1, e2, hy⟩
          · simp only [e1, e2, XF.add_nan]; trivial
          · rcases atMost_iff.1 (b2 i hi) with ⟨e3, e4⟩ | ⟨z, z', e3, e4, hz⟩
            · simp only [e3, e4, XF.nan_sub, XF.mul_nan, XF.nan_add]; trivial
            · simp only [e1, e2, e3, e4, XF.fin_sub_fin, XF.fin_mul_fin, XF.fin_add_fin]
              show x * (z - y) + y ≤ x * (z' - y') + y'
              nlinarith [mul_nonneg (sub_nonneg.2 hy) (sub_nonneg.2 x1), mul_nonneg (sub_nonneg.2 hz) x0]
      · exact absurd e (by decide)
    · exact absurd e (by decide)

/-- **C101** (temperature, mean) 'sine_mean' and 'mean_course_mean': with the same tmin and tmax, larger daily means give larger hourly values. -/
theorem C101_temperature_mean {f g : Frame ℝ} (hf : f.WF) (hg : g.WF) {d0 : Int} {n : Nat} (hn : 0 < n) (cf : Covers f.index d0 n) (cg : Covers g.index d0 n)
    {api api' : PandasApi} {method mmt : String} {modNight : Bool} {md : Option (List (Int × XF ℝ))} {course : Option (MeanCourse ℝ)}
    {sun : Option (Series SunTimes)} {out out' : Series (XF ℝ)} (hm : method = "sine_mean" ∨ method = "mean_course_mean")
    (hcourse : ∀ c, course = some c → ∀ m h, (c.val m h).NanOrFin)
    (h1 : f.col? "tmin" = g.col? "tmin" ∧ ColAtMost f g "tmin") (h2 : f.col? "tmax" = g.col? "tmax" ∧ ColAtMost f g "tmax") (h3 : ColAtMost f g "temp")
    (ho : disaggregateTemperature api f method mmt modNight md course sun = .ok out)
    (ho' : disaggregateTemperature api' g method mmt modNight md course sun = .ok out') : SeriesAtMost out out' := by
  have inj : ∀ {v v' : Nat → XF ℝ}, some (dailyS d0 n v) = some (dailyS d0 n v') → ∀ i < n, v i = v' i := by
    intro v v' h i hi
    exact same_at hi hi rfl (by rw [Option.some.inj h])
  rcases hm with rfl | rfl
  · obtain ⟨s, tmin, tmax, temp, lo, hi, rfl, td, hl, rfl⟩ := sine_run hf cf hn (.inr (.inl rfl)) ho
    obtain ⟨s', tmin', tmax', temp', lo', hi', es, td', hl', rfl⟩ := sine_run hg cg hn (.inr (.inl rfl)) ho'
    cases es
    have b1 := colAtMost_daily h1.2 td.hmin td'.hmin
    have b2 := colAtMost_daily h2.2 td.hmax td'.hmax
    have b3 := colAtMost_daily h3 td.htemp td'.htemp
    have c1 := inj (td.hmin.symm.trans (h1.1.trans td'.hmin))
    have c2 := inj (td.hmax.symm.trans (h2.1.trans td'.hmax))
    apply le_hourly
    intro i hi2 k _
    have e2 : hi i = hi' i := Except.ok.inj ((hl i hi2).2.symm.trans (hl' i hi2).2)
    rw [if_pos rfl, if_pos rfl]
    unfold sineMeanCell locRow
    dsimp only
    rw [← c1 i hi2, ← c2 i hi2, ← e2]
    refine atMost_add (b3 i hi2) ?_
    have d1 := atMost_refl_of (b1 i hi2)
    have d2 := atMost_refl_of (b2 i hi2)
    rcases cos_range (.fin (2 * Real.pi / 24 * ((((k : Nat) : Int) - hi i : Int) : ℝ))) with e | ⟨c, e, _⟩
    · rw [e, XF.mul_nan]; trivial
    · rw [e]
      rcases atMost_iff.1 d1 with ⟨e1, _⟩ | ⟨y, _, e1, _, _⟩
      · rw [e1, XF.sub_nan, XF.nan_div, XF.nan_mul]; trivial
      · rcases atMost_iff.1 d2 with ⟨e3, _⟩ | ⟨z, _, e3, _, _⟩
        · rw [e3, XF.nan_sub, XF.nan_div, XF.nan_mul]; trivial
        · rw [e1, e3, XF.fin_sub_fin, XF.fin_div_fin_of_ne _ (by norm_num), XF.fin_mul_fin]
          exact le_refl _
  · obtain ⟨c, tmin, tmax, rfl, t1, t2, q⟩ := course_run hf cf hn (.inr rfl) ho
    obtain ⟨c', tmin', tmax', ec, t1', t2', q'⟩ := course_run hg cg hn (.inr rfl) ho'
    cases ec
    have b1 := colAtMost_daily h1.2 t1 t1'
    have b2 := colAtMost_daily h2.2 t2 t2'
    have c1 := inj (t1.symm.trans (h1.1.trans t1'))
    have c2 := inj (t2.symm.trans (h2.1.trans t2'))
    rcases q with ⟨e, _⟩ | ⟨_, temp, t3, rfl⟩
    · exact absurd e (by decide)
    · rcases q' with ⟨e, _⟩ | ⟨_, temp', t3', rfl⟩
      · exact absurd e (by decide)
      · have b3 := colAtMost_daily h3 t3 t3'
        apply le_hourly
        intro i hi k _
        rw [← c1 i hi, ← c2 i hi]
        refine atMost_add (b3 i hi) ?_
        have hv := hcourse c rfl (monthOf (at00 (d0 + (i : Nat)))) (k : Nat)
        have hmn : (meanSkip (c.column (monthOf (at00 (d0 + (i : Nat)))))).NanOrFin := by
          apply meanSkip_nanOrFin
          intro x hx
          obtain ⟨h, _, rfl⟩ := List.mem_map.1 hx
          exact hcourse c rfl _ _
        have d1 := atMost_refl_of (b1 i hi)
        have d2 := atMost_refl_of (b2 i hi)
        have selfLe : ∀ {z : XF ℝ}, z.NanOrFin → AtMost z z := by
          intro z hz
          cases z with
          | nan => trivial
          | fin x => exact le_refl x
          | pinf => cases hz
          | ninf => cases hz
        have nf : ∀ {z : XF ℝ}, AtMost z z → z = .nan ∨ ∃ x, z = .fin x := by
          intro z hz
          rcases atMost_iff.1 hz with ⟨e, _⟩ | ⟨x, _, e, _, _⟩
          · exact .inl e
          · exact .inr ⟨x, e⟩
        have sub : ∀ {x y : XF ℝ}, (x = .nan ∨ ∃ a, x = .fin a) → (y = .nan ∨ ∃ a, y = .fin a) → x - y = .nan ∨ ∃ a, x - y = .fin a := by
          rintro x y (rfl | ⟨a, rfl⟩) (rfl | ⟨b, rfl⟩)
          · exact .inl (XF.nan_sub _)
          · exact .inl (XF.nan_sub _)
          · exact .inl (XF.sub_nan _)
          · exact .inr ⟨_, XF.fin_sub_fin _ _⟩
        rcases sub (nf d2) (nf d1) with e1 | ⟨p, e1⟩
        · rw [e1, XF.nan_mul]; trivial
        · rcases sub (nf (selfLe hv)) (nf (selfLe hmn)) with e2 | ⟨q, e2⟩
          · rw [e2, XF.mul_nan]; trivial
          · rw [e1, e2, XF.fin_mul_fin]; exact le_refl _

/-! ## wind -/

/-- **C101** (wind) Larger daily means give larger hourly values: 'equal'; 'cosine' if |a| ≤ b; 'random' with draws in (0, 1). -/
theorem C101_wind {s s' : Series (XF ℝ)} {d0 : Int} {n : Nat} (hn : 0 < n) (cs : Covers s.index d0 n) (cs' : Covers s'.index d0 n) (h : SeriesAtMost s s')
    {api api' : PandasApi} {draw : Nat → ℝ} {method : String} {a b t : Option ℝ} (hab : method = "cosine" → ∀ x y, a = some x → b = some y → |x| ≤ y)
    (hdraw : method = "random" → ∀ k, 0 < draw k ∧ draw k < 1)
    {r r' : WindResult} (hr : disaggregateWind api draw s method a b t = .ok r) (hr' : disaggregateWind api' draw s' method a b t = .ok r') :
    List.Forall₂ AtMost r.values r'.values := by
  obtain ⟨v, rfl⟩ := covers_series cs
  obtain ⟨v', rfl⟩ := covers_series cs'
  have hv := le_daily h
  have key : ∀ {f f' : Nat → Nat → XF ℝ}, (∀ i < n, ∀ k < 24, AtMost (f i k) (f' i k)) →
      List.Forall₂ AtMost (Series.values (hourlyS d0 n f)) (Series.values (hourlyS d0 n f')) := by
    intro f f' hff
    unfold Series.values
    rw [List.forall₂_map_left_iff, List.forall₂_map_right_iff]
    exact (le_hourly hff).imp fun _ _ h => h.2
  rcases wind_run hn hr with ⟨rfl, rfl⟩ | ⟨rfl, x, y, z, rfl, rfl, rfl, rfl⟩ | ⟨rfl, rfl⟩
  · rcases wind_run hn hr' with ⟨_, rfl⟩ | ⟨e', _⟩ | ⟨e', _⟩
    · exact key fun i hi _ _ => hv i hi
    · exact absurd e' (by decide)
    · exact absurd e' (by decide)
  · rcases wind_run hn hr' with ⟨e', _⟩ | ⟨_, x', y', z', e1, e2, e3, rfl⟩ | ⟨e', _⟩
    · exact absurd e' (by decide)
    · cases e1; cases e2; cases e3
      refine key fun i hi k _ => ?_
      have hxy := hab rfl x y rfl rfl
      unfold cosineCell
      rcases atMost_iff.1 (hv i hi) with ⟨e1, e2⟩ | ⟨p, q, e1, e2, hpq⟩
      · rw [e1, e2, XF.mul_nan, XF.mul_nan, XF.add_nan]; trivial
      · rw [e1, e2]
        show x * p * Real.cos _ + y * p ≤ x * q * Real.cos _ + y * q
        have hc := Real.abs_cos_le_one (Real.pi * ((((k : Nat) : Int) : ℝ) - z) / 12)
        have h2 : |x * Real.cos (Real.pi * ((((k : Nat) : Int) : ℝ) - z) / 12)| ≤ |x| := by
          rw [abs_mul]
          exact mul_le_of_le_one_right (abs_nonneg _) hc
        have h3 : 0 ≤ x * Real.cos (Real.pi * ((((k : Nat) : Int) : ℝ) - z) / 12) + y := by
          have := (abs_le.1 (h2.trans hxy)).1
          linarith
        nlinarith [mul_nonneg (sub_nonneg.2 hpq) h3]
    · exact absurd e' (by decide)
  · rcases wind_run hn hr' with ⟨e', _⟩ | ⟨e', _⟩ | ⟨_, rfl⟩
    · exact absurd e' (by decide)
    · exact absurd e' (by decide)
    · refine key fun i hi k _ => ?_
      obtain ⟨u0, u1⟩ := hdraw rfl (24 * i + k)
      rw [powPos_log u0 u1]
      have hp : 0 ≤ (-Real.log (draw (24 * i + k))) ^ (0.3 : ℝ) := Real.rpow_nonneg (by have := Real.log_neg u0 u1; linarith) _
      rcases atMost_iff.1 (hv i hi) with ⟨e1, e2⟩ | ⟨p, q, e1, e2, hpq⟩
      · rw [e1, e2, XF.nan_mul]; trivial
      · rw [e1, e2, XF.fin_mul_fin, XF.fin_mul_fin]
        exact mul_le_mul_of_nonneg_right hpq hp

/-! ## radiation -/

theorem radCell_mono {p mean g g' : XF ℝ} (hq : p / mean = .nan ∨ ∃ c, p / mean = .fin c ∧ 0 ≤ c) (h : AtMost g g') :
    AtMost (radCell p mean g) (radCell p mean g') := by
  unfold radCell
  have := atMost_scale h hq
  rcases atMost_iff.1 this with ⟨e1, e2⟩ | ⟨x, y, e1, e2, hxy⟩
  · rw [e1, e2]
    simp [XF.lt]
    trivial
  · rw [e1, e2]
    simp only [XF.lt_fin]
    by_cases hx : x < 0.01
    · rw [if_pos hx]
      by_cases hy : y < 0.01
      · rw [if_pos hy]; exact le_refl (0 : ℝ)
      · rw [if_neg hy]
        show (0 : ℝ) ≤ y
        have := not_lt.1 hy
        norm_num at this ⊢
        linarith
    · rw [if_neg hx, if_neg (by have := not_lt.1 hx; exact not_lt.2 (this.trans hxy))]
      exact hxy

/-- share of the potential radiation -/
theorem share_range {p : Nat → XF ℝ} {q : Nat → ℝ} (hp : ∀ h < 24, p h = .fin (q h)) (h0 : ∀ h < 24, 0 ≤ q h) {h : Nat} (hh : h < 24) :
    p h / meanSkip (day24 p) = .nan ∨ ∃ c, p h / meanSkip (day24 p) = .fin c ∧ 0 ≤ c := by
  rw [meanSkip_day24 hp, hp h hh]
  have hs : 0 ≤ (day24 q).sum := by
    apply List.sum_nonneg
    intro x hx
    unfold day24 at hx
    obtain ⟨k, hk, rfl⟩ := List.mem_map.1 hx
    exact h0 k (List.mem_range.1 hk)
  rcases hs.eq_or_lt with e | e
  · have hz : q h = 0 := by
      have hle : q h ≤ (day24 q).sum := by
        apply List.single_le_sum
        · intro x hx
          unfold day24 at hx
          obtain ⟨k, hk, rfl⟩ := List.mem_map.1 hx
          exact h0 k (List.mem_range.1 hk)
        · unfold day24
          exact List.mem_map.2 ⟨h, List.mem_range.2 hh, rfl⟩
      exact le_antisymm (by rw [e]; exact hle) (h0 h hh)
    left
    rw [← e, hz]
    simp [XF.zero_div_zero]
  · right
    exact ⟨_, XF.fin_div_fin_of_ne _ (by positivity), div_nonneg (h0 h hh) (by positivity)⟩

/-- **C101** (radiation) 'pot_rad' with non-negative potential radiation: larger daily radiation gives larger hourly values. -/
theorem C101_radiation {f g : Frame ℝ} (hf : f.WF) (hg : g.WF) {d0 : Int} {n : Nat} (hn : 0 < n) (cf : Covers f.index d0 n) (cg : Covers g.index d0 n)
    {api api' : PandasApi} {sun sun' : Option (Series SunTimes)} {q : Nat → Nat → ℝ} (hq : ∀ i < n, ∀ h < 24, 0 ≤ q i h)
    {angstr angstr' bc bc' : ParPair ℝ} {course course' : Option (MeanCourse ℝ)} {out out' : Series (XF ℝ)} (h : ColAtMost f g "glob")
    (ho : disaggregateRadiation api f sun (some (hourlyS d0 n fun i h => .fin (q i h))) "pot_rad" angstr bc course = .ok out)
    (ho' : disaggregateRadiation api' g sun' (some (hourlyS d0 n fun i h => .fin (q i h))) "pot_rad" angstr' bc' course' = .ok out') :
    SeriesAtMost out out' := by
  obtain ⟨v, hv⟩ := glob_col hf cf hn (.inl rfl) ho
  obtain ⟨v', hv'⟩ := glob_col hg cg hn (.inl rfl) ho'
  have b := colAtMost_daily h hv hv'
  rw [potRad_eq api cf hn hv] at ho
  rw [potRad_eq api' cg hn hv'] at ho'
  cases ho; cases ho'
  apply le_hourly
  intro i hi k hk
  rw [lastValue_self hi, lastValue_self hi]
  exact radCell_mono (share_range (fun _ _ => rfl) (hq i hi) hk) (b i hi)

/-- **C101** (radiation from sunshine duration) With b ≥ 0 and non-negative potential radiation, more sunshine gives larger hourly values. -/
theorem C101_radiation_ssd {f g : Frame ℝ} {d0 : Int} {n : Nat} (hn : 0 < n) (cf : Covers f.index d0 n) (cg : Covers g.index d0 n)
    (hf : f.WF) (hg : g.WF) {api api' : PandasApi} {l : Nat → ℝ} {st : Nat → SunTimes} (hl : ∀ i < n, (st i).daylength = .fin (l i))
    {q : Nat → Nat → ℝ} (hq : ∀ i < n, ∀ h < 24, 0 ≤ q i h) {par bc bc' : ParPair ℝ} {course course' : Option (MeanCourse ℝ)} {a b : Int → ℝ}
    (hpar : ∀ m : Int, 1 ≤ m → m ≤ 12 → ParAt par m (.fin (a m)) (.fin (b m))) (hb : ∀ m, 0 ≤ b m) (h : ColAtMost f g "ssd") :
    ∃ out out', disaggregateRadiation api f (some (dailyS d0 n st)) (some (hourlyS d0 n fun i h => .fin (q i h))) "pot_rad_via_ssd" par bc course = .ok out ∧
      disaggregateRadiation api' g (some (dailyS d0 n st)) (some (hourlyS d0 n fun i h => .fin (q i h))) "pot_rad_via_ssd" par bc' course' = .ok out' ∧
      SeriesAtMost out out' := by
  obtain ⟨s, s', e, e', hs⟩ := h
  obtain ⟨v, rfl⟩ := covers_col hf cf e
  obtain ⟨v', rfl⟩ := covers_col hg cg e'
  have bv := le_daily hs
  refine ⟨_, _, ssdRad_eq api cf hn e st _ bc course (a := fun m => .fin (a m)) (b := fun m => .fin (b m)) hpar,
    ssdRad_eq api' cg hn e' st _ bc' course' (a := fun m => .fin (a m)) (b := fun m => .fin (b m)) hpar, ?_⟩
  apply le_hourly
  intro i hi k hk
  refine radCell_mono (share_range (fun _ _ => rfl) (hq i hi) hk) ?_
  rw [hl i hi]
  simp only [XF.lt_fin]
  by_cases hp : 0 < l i
  · rw [if_pos hp, if_pos hp]
    have hm : meanSkip (day24 fun h => XF.fin (q i h)) = .fin ((day24 (q i)).sum / 24) := meanSkip_day24 fun _ _ => rfl
    rw [hm]
    have hs : 0 ≤ (day24 (q i)).sum / 24 := by
      apply div_nonneg _ (by norm_num)
      apply List.sum_nonneg
      intro x hx
      unfold day24 at hx
      obtain ⟨k, hk, rfl⟩ := List.mem_map.1 hx
      exact hq i hi k (List.mem_range.1 hk)
    rcases atMost_iff.1 (bv i hi) with ⟨e1, e2⟩ | ⟨x, y, e1, e2, hxy⟩
    · simp only [e1, e2, XF.mul_nan, XF.nan_div, XF.add_nan, XF.nan_mul]; trivial
    · simp only [e1, e2, XF.fin_mul_fin, XF.fin_div_fin_of_ne _ hp.ne', XF.fin_add_fin]
      refine mul_le_mul_of_nonneg_right ?_ hs
      have : b (monthOf (at00 (d0 + i))) * x / l i ≤ b (monthOf (at00 (d0 + i))) * y / l i :=
        div_le_div_of_nonneg_right (mul_le_mul_of_nonneg_left hxy (hb _)) hp.le
      linarith
  · rw [if_neg hp, if_neg hp]
    exact le_refl (0 : ℝ)

/-! ## humidity -/

theorem clip_mono {a b : XF ℝ} (h : AtMost a b) : AtMost (a.clip 0 100) (b.clip 0 100) := by
  rcases atMost_iff.1 h with ⟨rfl, rfl⟩ | ⟨x, y, rfl, rfl, hxy⟩
  · trivial
  · exact min_le_min_right _ (max_le_max_right _ hxy)

theorem rhCell_mono {td td' T T' : XF ℝ} (h1 : AtMost td td') (h2 : AtMost T' T) (k1 : ∀ x, td = .fin x → 0.53 < x) (k2 : ∀ x, T' = .fin x → 0.53 < x) :
    AtMost ((rhCell td T).clip 0 100) ((rhCell td' T').clip 0 100) := by
  rcases atMost_iff.1 h1 with ⟨rfl, rfl⟩ | ⟨x, x', rfl, rfl, hx⟩
  · have e : ∀ T : XF ℝ, rhCell .nan T = .nan := by
      intro T
      unfold rhCell
      rw [C06_vapor_pressure.2.1, XF.mul_nan, XF.nan_div]
    rw [e, e]
    trivial
  · rcases atMost_iff.1 h2 with ⟨rfl, rfl⟩ | ⟨t', t, rfl, rfl, ht⟩
    · have e : ∀ x : XF ℝ, rhCell x .nan = .nan := by
        intro T
        unfold rhCell
        rw [C06_vapor_pressure.2.1, XF.div_nan]
      rw [e, e]
      trivial
    · have a1 := k1 x rfl
      have a2 := k2 t' rfl
      rw [rhCell_fin a1 (a2.trans_le ht), rhCell_fin (a1.trans_le hx) a2]
      have le_sat : ∀ {u w : ℝ}, 0.53 < u → u ≤ w → satPressure u ≤ satPressure w := by
        intro u w hu huw
        rcases huw.eq_or_lt with rfl | hlt
        · exact le_rfl
        · exact (satPressure_lt hu hlt).le
      unfold relHum
      refine min_le_min_right _ (max_le_max_right _ ?_)
      rw [div_le_div_iff₀ (satPressure_pos _) (satPressure_pos _)]
      have p1 := le_sat a1 hx
      have p2 := le_sat a2 ht
      nlinarith [satPressure_pos x, satPressure_pos t', satPressure_pos t, satPressure_pos x', mul_le_mul p1 p2 (satPressure_pos t').le (satPressure_pos x').le]

/-- **C101** (humidity, dew point methods) 'minimal' and, for a non-negative slope, 'dewpoint_regression' (dew points and temperatures above 0.53 K, where the
vapour pressure formula is increasing): larger tmin and lower hourly temperature give larger relative humidity. -/
theorem C101_humidity_dewpoint {f g : Frame ℝ} (hf : f.WF) (hg : g.WF) {d0 : Int} {n : Nat} (hn : 0 < n) (cf : Covers f.index d0 n) (cg : Covers g.index d0 n)
    {api api' : PandasApi} {method : String} {T T' : Nat → Nat → XF ℝ} {a0 a1 kr : Option ℝ} {table : Option (CatMeans ℝ)} {out out' : Series (XF ℝ)}
    (hm : method = "minimal" ∨ method = "dewpoint_regression") (ha : method = "dewpoint_regression" → ∀ b, a1 = some b → 0 ≤ b)
    (h1 : ColAtMost f g "tmin") (h2 : SeriesAtMost (hourlyS d0 n T') (hourlyS d0 n T))
    (k1 : ∀ s, f.col? "tmin" = some s → ∀ r ∈ s, ∀ x, r.2 = .fin x → (method = "minimal" → 0.53 < x) ∧
      (method = "dewpoint_regression" → ∀ a b, a0 = some a → a1 = some b → 0.53 < a + b * x))
    (k2 : ∀ r ∈ hourlyS d0 n T', ∀ x, r.2 = .fin x → 0.53 < x)
    (ho : disaggregateHumidity api f method (some (hourlyS d0 n T)) a0 a1 kr table false = .ok out)
    (ho' : disaggregateHumidity api' g method (some (hourlyS d0 n T')) a0 a1 kr table false = .ok out') : SeriesAtMost out out' := by
  obtain ⟨r, hr, q1, _⟩ := hum_run hf cf hn (fun s hs => ⟨T, (Option.some.inj hs).symm⟩) ho
  obtain ⟨r', hr', q1', _⟩ := hum_run hg cg hn (fun s hs => ⟨T', (Option.some.inj hs).symm⟩) ho'
  rw [q1 rfl, q1' rfl]
  have hne : method ≠ "equal" ∧ method ≠ "linear_dewpoint_variation" ∧ method ≠ "min_max" ∧ method ≠ "month_hour_precip_mean" := by
    rcases hm with rfl | rfl <;> decide
  rcases raw_formula hf cf hn (fun s hs => ⟨T, (Option.some.inj hs).symm⟩) hr with
    ⟨m, _⟩ | ⟨_, v, U, a, b, ea, eb, c1, eT, s1⟩ | ⟨m, _⟩ | ⟨m, _⟩ | ⟨m, _⟩
  · exact absurd m hne.1
  · rcases raw_formula hg cg hn (fun s hs => ⟨T', (Option.some.inj hs).symm⟩) hr' with
      ⟨m, _⟩ | ⟨_, v', U', a', b', ea', eb', c1', eT', s1'⟩ | ⟨m, _⟩ | ⟨m, _⟩ | ⟨m, _⟩
    · exact absurd m hne.1
    · rw [ea] at ea'; rw [eb] at eb'
      cases ea'; cases eb'
      have bv := colAtMost_daily h1 c1 c1'
      have hb : 0 ≤ b := by
        rcases hm with rfl | rfl
        · rw [if_pos rfl] at eb; cases eb; norm_num
        · rw [if_neg (by decide)] at eb; exact ha rfl b eb
      have hT : ∀ i < n, ∀ k < 24, AtMost (T' i k) (T i k) := by
        intro i hi k hk
        unfold SeriesAtMost hourlyS at h2
        rw [List.forall₂_map_left_iff, List.forall₂_map_right_iff, List.forall₂_same] at h2
        have := (h2 (24 * i + k) (List.mem_range.2 (by omega))).2
        rw [show (24 * i + k) / 24 = i by omega, show (24 * i + k) % 24 = k by omega] at this
        exact this
      apply le_hourly
      intro i hi k hk
      have inj : ∀ {p p' : Nat → Nat → XF ℝ}, hourlyS d0 n p = hourlyS d0 n p' → p i k = p' i k := by
        intro p p' hp
        exact (same_hours (n' := n) hi hi rfl).1 (by rw [hp]) k hk
      have u1 := inj s1
      have u2 := inj s1'
      have u3 := inj (Option.some.inj eT)
      have u4 := inj (Option.some.inj eT')
      rw [u1, u2, ← u3, ← u4]
      refine rhCell_mono (atMost_add (le_refl a) (atMost_scale (bv i hi) (.inr ⟨b, rfl, hb⟩))) (hT i hi k hk) ?_ ?_
      · intro x hx
        rcases atMost_iff.1 (bv i hi) with ⟨e1, _⟩ | ⟨y, _, e1, _, _⟩
        · rw [e1, XF.mul_nan, XF.add_nan] at hx; cases hx
        · rw [e1, XF.fin_mul_fin, XF.fin_add_fin] at hx
          cases hx
          have hk := k1 _ c1 (at00 (d0 + (i : Nat)), v i) (List.mem_map.2 ⟨i, List.mem_range.2 hi, rfl⟩) y e1
          rcases hm with rfl | rfl
          · rw [if_pos rfl] at ea eb
            cases ea; cases eb
            have := hk.1 rfl
            linarith
          · rw [if_neg (by decide)] at ea eb
            exact hk.2 rfl a b ea eb
      · intro x hx
        refine k2 (atHour (d0 + (i : Nat)) k, T' i k) ?_ x hx
        unfold hourlyS
        refine List.mem_map.2 ⟨24 * i + k, List.mem_range.2 (by omega), ?_⟩
        rw [show (24 * i + k) / 24 = i by omega, show (24 * i + k) % 24 = k by omega]
    · exact absurd m hne.2.1
    · exact absurd m hne.2.2.1
    · exact absurd m hne.2.2.2
  · exact absurd m hne.2.1
  · exact absurd m hne.2.2.1
  · exact absurd m hne.2.2.2

end

end Melodist
