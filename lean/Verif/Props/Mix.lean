import Verif.Lemmas.MixB
import Verif.Props.MonoB

/-!
# C118: superposition

Three runs with the same method, parameters and random numbers, the daily data of the third being `α` times those of the first plus `β` times those of the
second (for instance the mean of two records, or a record plus a correction).
-/

set_option linter.unusedSectionVars false

namespace Melodist
open Spec

noncomputable section

variable {α β : ℝ}

/-! ## temperature -/

/-- **C118** (temperature) All five methods: if the daily extremes (and means, for the two methods that use them) of the third table are `α` times those of the first plus
`β` times those of the second, so are the hourly values. -/
theorem C118_temperature {f g p : Frame ℝ} (hf : f.WF) (hg : g.WF) (hp : p.WF) {d0 : Int} {n : Nat} (hn : 0 < n) (cf : Covers f.index d0 n)
    (cg : Covers g.index d0 n) (cp : Covers p.index d0 n) {api api' api'' : PandasApi} {method mmt : String} {modNight : Bool} {md : Option (List (Int × XF ℝ))}
    {course : Option (MeanCourse ℝ)} {sun : Option (Series SunTimes)} {out out' out'' : Series (XF ℝ)}
    (hcourse : ∀ c, course = some c → ∀ m h, (c.val m h).NanOrFin)
    (h1 : ColMix α β f g p "tmin") (h2 : ColMix α β f g p "tmax") (h3 : method = "sine_mean" ∨ method = "mean_course_mean" → ColMix α β f g p "temp")
    (ho : disaggregateTemperature api f method mmt modNight md course sun = .ok out)
    (ho' : disaggregateTemperature api' g method mmt modNight md course sun = .ok out')
    (ho'' : disaggregateTemperature api'' p method mmt modNight md course sun = .ok out'') : SeriesMix α β out out' out'' := by
  by_cases hs : method = "sine_min_max" ∨ method = "sine_mean" ∨ method = "sine"
  · obtain ⟨s, tmin, tmax, temp, lo, hi, rfl, td, hl, rfl⟩ := sine_run hf cf hn hs ho
    obtain ⟨s', tmin', tmax', temp', lo', hi', es, td', hl', rfl⟩ := sine_run hg cg hn hs ho'
    cases es
    obtain ⟨s'', tmin'', tmax'', temp'', lo'', hi'', es, td'', hl'', rfl⟩ := sine_run hp cp hn hs ho''
    cases es
    have b1 := colMix_daily h1 td.hmin td'.hmin td''.hmin
    have b2 := colMix_daily h2 td.hmax td'.hmax td''.hmax
    apply mix_hourly
    intro i hi2 k _
    have e1 : lo' i = lo i := (Except.ok.inj ((hl i hi2).1.symm.trans (hl' i hi2).1)).symm
    have e2 : hi' i = hi i := (Except.ok.inj ((hl i hi2).2.symm.trans (hl' i hi2).2)).symm
    have e3 : lo'' i = lo i := (Except.ok.inj ((hl i hi2).1.symm.trans (hl'' i hi2).1)).symm
    have e4 : hi'' i = hi i := (Except.ok.inj ((hl i hi2).2.symm.trans (hl'' i hi2).2)).symm
    have e5 : locRow n tmin' tmax' temp' lo' hi' i = locRow n tmin' tmax' temp' lo hi i := by unfold locRow; rw [e1, e2]
    have e6 : locRow n tmin'' tmax'' temp'' lo'' hi'' i = locRow n tmin'' tmax'' temp'' lo hi i := by unfold locRow; rw [e3, e4]
    rw [e5, e6]
    by_cases hm : method = "sine_mean"
    · have b3 := colMix_daily (h3 (.inl hm)) td.htemp td'.htemp td''.htemp
      rw [if_pos hm, if_pos hm, if_pos hm]
      exact mix_add (b3 i hi2) (mix_scale_right (mix_div (mix_sub (b2 i hi2) (b1 i hi2)) two_ne_zero) (cos_nanOrFin _))
    · rw [if_neg hm, if_neg hm, if_neg hm]
      exact sineCell_mix b1 b2 hi2 _
  · by_cases hm : method = "mean_course_min_max" ∨ method = "mean_course_mean"
    · obtain ⟨c, tmin, tmax, rfl, t1, t2, q⟩ := course_run hf cf hn hm ho
      obtain ⟨c', tmin', tmax', ec, t1', t2', q'⟩ := course_run hg cg hn hm ho'
      cases ec
      obtain ⟨c'', tmin'', tmax'', ec, t1'', t2'', q''⟩ := course_run hp cp hn hm ho''
      cases ec
      have b1 := colMix_daily h1 t1 t1' t1''
      have b2 := colMix_daily h2 t2 t2' t2''
      have hv := hcourse c rfl
      rcases q with ⟨hm, rfl⟩ | ⟨hm, temp, t3, rfl⟩
      · subst hm
        rcases q' with ⟨_, rfl⟩ | ⟨e, _⟩
        swap
        · exact absurd e (by decide)
        rcases q'' with ⟨_, rfl⟩ | ⟨e, _⟩
        swap
        · exact absurd e (by decide)
        apply mix_hourly
        intro i hi k _
        exact mix_add (mix_scale (mix_sub (b2 i hi) (b1 i hi)) (hv _ _)) (b1 i hi)
      · subst hm
        rcases q' with ⟨e, _⟩ | ⟨_, temp', t3', rfl⟩
        · exact absurd e (by decide)
        rcases q'' with ⟨e, _⟩ | ⟨_, temp'', t3'', rfl⟩
        · exact absurd e (by decide)
        have b3 := colMix_daily (h3 (.inr rfl)) t3 t3' t3''
        apply mix_hourly
        intro i hi k _
        refine mix_add (b3 i hi) (mix_scale_right (mix_sub (b2 i hi) (b1 i hi)) ?_)
        refine sub_nanOrFin (hv _ _) (meanSkip_nanOrFin ?_)
        intro x hx
        obtain ⟨h, _, rfl⟩ := List.mem_map.1 hx
        exact hv _ _
    · exfalso
      unfold disaggregateTemperature at ho
      rw [if_pos (by tauto)] at ho
      cases ho

/-! ## wind -/

/-- **C118** (wind) All methods ('random' with the same draws, in (0, 1)). -/
theorem C118_wind {s s' s'' : Series (XF ℝ)} {d0 : Int} {n : Nat} (hn : 0 < n) (cs : Covers s.index d0 n) (cs' : Covers s'.index d0 n) (cs'' : Covers s''.index d0 n)
    (h : SeriesMix α β s s' s'') {api api' api'' : PandasApi} {draw : Nat → ℝ} {method : String} {a b t : Option ℝ}
    (hdraw : method = "random" → ∀ k, 0 < draw k ∧ draw k < 1) {r r' r'' : WindResult} (hr : disaggregateWind api draw s method a b t = .ok r)
    (hr' : disaggregateWind api' draw s' method a b t = .ok r') (hr'' : disaggregateWind api'' draw s'' method a b t = .ok r'') :
    r.values.length = 24 * n ∧ r'.values.length = 24 * n ∧ r''.values.length = 24 * n ∧ ∀ (k : Nat) (x y z : XF ℝ), r.values[k]? = some x → r'.values[k]? = some y →
      r''.values[k]? = some z → Mix α β x y z := by
  obtain ⟨v, rfl⟩ := covers_series cs
  obtain ⟨v', rfl⟩ := covers_series cs'
  obtain ⟨v'', rfl⟩ := covers_series cs''
  have hv := mix_daily h
  have key : ∀ f f' f'' : Nat → Nat → XF ℝ, (∀ i < n, ∀ k < 24, Mix α β (f i k) (f' i k) (f'' i k)) →
      (Series.values (hourlyS d0 n f)).length = 24 * n ∧ (Series.values (hourlyS d0 n f')).length = 24 * n ∧ (Series.values (hourlyS d0 n f'')).length = 24 * n ∧
      ∀ (k : Nat) (x y z : XF ℝ), (Series.values (hourlyS d0 n f))[k]? = some x → (Series.values (hourlyS d0 n f'))[k]? = some y →
        (Series.values (hourlyS d0 n f''))[k]? = some z → Mix α β x y z := by
    intro f f' f'' hm
    refine ⟨by simp [Series.values, hourlyS], by simp [Series.values, hourlyS], by simp [Series.values, hourlyS], ?_⟩
    intro k x y z hx hy hz
    simp only [hourlyS_values, List.getElem?_map] at hx hy hz
    by_cases hk : k < 24 * n
    · rw [List.getElem?_range (by omega), Option.map_some] at hx hy hz
      cases hx; cases hy; cases hz
      exact hm _ (by omega) _ (Nat.mod_lt _ (by omega))
    · rw [List.getElem?_eq_none (by simpa using hk)] at hx
      cases hx
  rcases wind_run hn hr with ⟨rfl, rfl⟩ | ⟨rfl, x, y, z, rfl, rfl, rfl, rfl⟩ | ⟨rfl, rfl⟩
  · rcases wind_run hn hr' with ⟨_, rfl⟩ | ⟨e', _⟩ | ⟨e', _⟩
    · rcases wind_run hn hr'' with ⟨_, rfl⟩ | ⟨e', _⟩ | ⟨e', _⟩
      · exact key _ _ _ fun i hi _ _ => hv i hi
      · exact absurd e' (by decide)
      · exact absurd e' (by decide)
    · exact absurd e' (by decide)
    · exact absurd e' (by decide)
  · rcases wind_run hn hr' with ⟨e', _⟩ | ⟨_, x', y', z', e1, e2, e3, rfl⟩ | ⟨e', _⟩
    · exact absurd e' (by decide)
    · cases e1; cases e2; cases e3
      rcases wind_run hn hr'' with ⟨e', _⟩ | ⟨_, x', y', z', e1, e2, e3, rfl⟩ | ⟨e', _⟩
      · exact absurd e' (by decide)
      · cases e1; cases e2; cases e3
        refine key _ _ _ fun i hi k _ => ?_
        unfold cosineCell
        exact mix_add (mix_scale_right (mix_scale (hv i hi) (XF.nanOrFin_fin _)) (XF.nanOrFin_fin _)) (mix_scale (hv i hi) (XF.nanOrFin_fin _))
      · exact absurd e' (by decide)
    · exact absurd e' (by decide)
  · rcases wind_run hn hr' with ⟨e', _⟩ | ⟨e', _⟩ | ⟨_, rfl⟩
    · exact absurd e' (by decide)
    · exact absurd e' (by decide)
    · rcases wind_run hn hr'' with ⟨e', _⟩ | ⟨e', _⟩ | ⟨_, rfl⟩
      · exact absurd e' (by decide)
      · exact absurd e' (by decide)
      · refine key _ _ _ fun i hi k _ => ?_
        obtain ⟨u0, u1⟩ := hdraw rfl (24 * i + k)
        rw [powPos_log u0 u1]
        exact mix_scale_right (hv i hi) (XF.nanOrFin_fin _)

/-! ## radiation -/

/-- **C118** (radiation) 'pot_rad' with non-negative daily values and potential radiation, positive in some hour of each day: the hourly values of the third run are missing if
one of the others is, and otherwise `α` times those of the first plus `β` times those of the second up to 0.01 (1 + |α| + |β|), because values below 0.01 are set to zero. -/
theorem C118_radiation {f g p : Frame ℝ} (hf : f.WF) (hg : g.WF) (hp : p.WF) {d0 : Int} {n : Nat} (hn : 0 < n) (cf : Covers f.index d0 n)
    (cg : Covers g.index d0 n) (cp : Covers p.index d0 n) {api api' api'' : PandasApi} {sun sun' sun'' : Option (Series SunTimes)} {q : Nat → Nat → ℝ}
    (hq : ∀ i < n, ∀ h < 24, 0 ≤ q i h) (hpos : ∀ i < n, 0 < (day24 (q i)).sum) {angstr angstr' angstr'' bc bc' bc'' : ParPair ℝ}
    {course course' course'' : Option (MeanCourse ℝ)} {out out' out'' : Series (XF ℝ)} (h : ColMix α β f g p "glob")
    (hnn : ∀ F ∈ [f, g, p], ∀ s, F.col? "glob" = some s → ∀ r ∈ s, ∀ x, r.2 = .fin x → 0 ≤ x)
    (ho : disaggregateRadiation api f sun (some (hourlyS d0 n fun i h => .fin (q i h))) "pot_rad" angstr bc course = .ok out)
    (ho' : disaggregateRadiation api' g sun' (some (hourlyS d0 n fun i h => .fin (q i h))) "pot_rad" angstr' bc' course' = .ok out')
    (ho'' : disaggregateRadiation api'' p sun'' (some (hourlyS d0 n fun i h => .fin (q i h))) "pot_rad" angstr'' bc'' course'' = .ok out'') :
    ∀ i < n, ∀ h < 24, ∃ c c' c'', (dayCells out (d0 + i))[h]? = some c ∧ (dayCells out' (d0 + i))[h]? = some c' ∧ (dayCells out'' (d0 + i))[h]? = some c'' ∧
      (((c = .nan ∨ c' = .nan) ∧ c'' = .nan) ∨
        ∃ x y z, c = .fin x ∧ c' = .fin y ∧ c'' = .fin z ∧ |z - (α * x + β * y)| ≤ 0.01 * (1 + |α| + |β|)) := by
  obtain ⟨v, hv⟩ := glob_col hf cf hn (.inl rfl) ho
  obtain ⟨v', hv'⟩ := glob_col hg cg hn (.inl rfl) ho'
  obtain ⟨v'', hv''⟩ := glob_col hp cp hn (.inl rfl) ho''
  have b := colMix_daily h hv hv' hv''
  rw [potRad_eq api cf hn hv] at ho
  rw [potRad_eq api' cg hn hv'] at ho'
  rw [potRad_eq api'' cp hn hv''] at ho''
  cases ho; cases ho'; cases ho''
  have nn : ∀ {F : Frame ℝ} {w : Nat → XF ℝ}, F ∈ [f, g, p] → F.col? "glob" = some (dailyS d0 n w) → ∀ i < n, ∀ x, w i = .fin x → 0 ≤ x := by
    intro F w hF hw i hi x hx
    exact hnn F hF _ hw (at00 (d0 + i), w i) (List.mem_map.2 ⟨i, List.mem_range.2 hi, rfl⟩) x hx
  intro i hi k hk
  refine ⟨_, _, _, by rw [dayCells_hourlyS d0 _ hi, day24_getElem? _ hk], by rw [dayCells_hourlyS d0 _ hi, day24_getElem? _ hk],
    by rw [dayCells_hourlyS d0 _ hi, day24_getElem? _ hk], ?_⟩
  rw [lastValue_self hi, lastValue_self hi, lastValue_self hi]
  have hs := hpos i hi
  have h0 : 0 ≤ q i k / ((day24 (q i)).sum / 24) := div_nonneg (hq i hi k hk) (by positivity)
  have hm : XF.fin (q i k) / meanSkip (day24 fun h => XF.fin (q i h)) = .fin (q i k / ((day24 (q i)).sum / 24)) := by
    rw [meanSkip_day24 (p := fun h => XF.fin (q i h)) (fun _ _ => rfl)]
    exact XF.fin_div_fin_of_ne _ (by positivity)
  rcases mix_iff.1 (b i hi) with ⟨e, _, _, e''⟩ | ⟨x, y, e, e', e''⟩
  · left
    refine ⟨?_, radCell_missing (by rw [e'', XF.mul_nan])⟩
    rcases e with e | e
    · left; exact radCell_missing (by rw [e, XF.mul_nan])
    · right; exact radCell_missing (by rw [e, XF.mul_nan])
  · right
    have x0 := nn (by simp) hv i hi x e
    have y0 := nn (by simp) hv' i hi y e'
    have z0 := nn (by simp) hv'' i hi _ e''
    obtain ⟨u, hu, u1, u2⟩ := radCell_cut (p := .fin (q i k)) (mean := meanSkip (day24 fun h => XF.fin (q i h))) (g := v i)
      (by rw [hm, e, XF.fin_mul_fin]) (mul_nonneg h0 x0)
    obtain ⟨w, hw, w1, w2⟩ := radCell_cut (p := .fin (q i k)) (mean := meanSkip (day24 fun h => XF.fin (q i h))) (g := v' i)
      (by rw [hm, e', XF.fin_mul_fin]) (mul_nonneg h0 y0)
    obtain ⟨z, hz, z1, z2⟩ := radCell_cut (p := .fin (q i k)) (mean := meanSkip (day24 fun h => XF.fin (q i h))) (g := v'' i)
      (by rw [hm, e'', XF.fin_mul_fin]) (mul_nonneg h0 z0)
    refine ⟨u, w, z, hu, hw, hz, ?_⟩
    generalize q i k / ((day24 (q i)).sum / 24) = c at *
    have t1 : |z - c * (α * x + β * y)| ≤ 0.01 := abs_le.2 ⟨by linarith, by linarith⟩
    have t2 : |α * (u - c * x)| ≤ |α| * 0.01 := by
      rw [abs_mul]
      exact mul_le_mul_of_nonneg_left (abs_le.2 ⟨by linarith, by linarith⟩) (abs_nonneg _)
    have t3 : |β * (w - c * y)| ≤ |β| * 0.01 := by
      rw [abs_mul]
      exact mul_le_mul_of_nonneg_left (abs_le.2 ⟨by linarith, by linarith⟩) (abs_nonneg _)
    rw [show z - (α * u + β * w) = (z - c * (α * x + β * y)) - α * (u - c * x) - β * (w - c * y) by ring]
    calc _ ≤ |z - c * (α * x + β * y)| + |α * (u - c * x)| + |β * (w - c * y)| :=
          (abs_sub _ _).trans (add_le_add_left (abs_sub _ _) _)
      _ ≤ 0.01 * (1 + |α| + |β|) := by linarith

/-! ## humidity -/

/-- **C118** (humidity, equal) For percentages and a weighted mean (`α`, `β` ≥ 0, `α + β = 1`). -/
theorem C118_humidity_equal (h0 : 0 ≤ α) (h1 : 0 ≤ β) (h2 : α + β = 1) {f g p : Frame ℝ} (hf : f.WF) (hg : g.WF) (hp : p.WF) {d0 : Int} {n : Nat} (hn : 0 < n)
    (cf : Covers f.index d0 n) (cg : Covers g.index d0 n) (cp : Covers p.index d0 n) {api api' api'' : PandasApi} {a0 a1 kr a0' a1' kr' a0'' a1'' kr'' : Option ℝ}
    {table table' table'' : Option (CatMeans ℝ)} {out out' out'' : Series (XF ℝ)} (h : ColMix α β f g p "hum")
    (hr : ∀ F ∈ [f, g], ∀ s, F.col? "hum" = some s → ∀ r ∈ s, ∀ x, r.2 = .fin x → 0 ≤ x ∧ x ≤ 100)
    (ho : disaggregateHumidity api f "equal" none a0 a1 kr table false = .ok out)
    (ho' : disaggregateHumidity api' g "equal" none a0' a1' kr' table' false = .ok out')
    (ho'' : disaggregateHumidity api'' p "equal" none a0'' a1'' kr'' table'' false = .ok out'') : SeriesMix α β out out' out'' := by
  have hT : ∀ s, (none : Option (Series (XF ℝ))) = some s → ∃ U, s = hourlyS d0 n U := fun s hs => by cases hs
  obtain ⟨r, k1, q1, _⟩ := hum_run hf cf hn hT ho
  obtain ⟨r', k1', q1', _⟩ := hum_run hg cg hn hT ho'
  obtain ⟨r'', k1'', q1'', _⟩ := hum_run hp cp hn hT ho''
  rw [q1 rfl, q1' rfl, q1'' rfl]
  obtain ⟨s, s', s'', e, e', e'', _⟩ := id h
  obtain ⟨v, rfl⟩ := covers_col hf cf e
  obtain ⟨v', rfl⟩ := covers_col hg cg e'
  obtain ⟨v'', rfl⟩ := covers_col hp cp e''
  have bv := colMix_daily h e e' e''
  rw [raw_equal api f _ _ _ _ _ d0 n hn v e] at k1
  rw [raw_equal api' g _ _ _ _ _ d0 n hn v' e'] at k1'
  rw [raw_equal api'' p _ _ _ _ _ d0 n hn v'' e''] at k1''
  apply mix_hourly
  intro i hi k hk
  rw [← hourlyS_inj (Except.ok.inj k1) hi hk, ← hourlyS_inj (Except.ok.inj k1') hi hk, ← hourlyS_inj (Except.ok.inj k1'') hi hk]
  exact clip_mix (bv i hi) (fun x hx => hr f (by simp) _ e (at00 (d0 + i), v i) (List.mem_map.2 ⟨i, List.mem_range.2 hi, rfl⟩) x hx)
    (fun x hx => hr g (by simp) _ e' (at00 (d0 + i), v' i) (List.mem_map.2 ⟨i, List.mem_range.2 hi, rfl⟩) x hx) h0 h1 h2

/-- **C118** (humidity, 'min_max') With the same temperatures (hourly values between tmin and tmax, tmin < tmax), for percentages and a weighted mean. -/
theorem C118_humidity_minmax (h0 : 0 ≤ α) (h1 : 0 ≤ β) (h2 : α + β = 1) {f g p : Frame ℝ} (hf : f.WF) (hg : g.WF) (hp : p.WF) {d0 : Int} {n : Nat} (hn : 0 < n)
    (cf : Covers f.index d0 n) (cg : Covers g.index d0 n) (cp : Covers p.index d0 n) {api api' api'' : PandasApi} {T : Nat → Nat → XF ℝ}
    {a0 a1 kr a0' a1' kr' a0'' a1'' kr'' : Option ℝ} {table table' table'' : Option (CatMeans ℝ)} {out out' out'' : Series (XF ℝ)} {lo hi : Nat → ℝ}
    (ht : ∀ F ∈ [f, g, p], F.col? "tmin" = some (dailyS d0 n fun i => .fin (lo i)) ∧ F.col? "tmax" = some (dailyS d0 n fun i => .fin (hi i)))
    (hlt : ∀ i < n, lo i < hi i) (hT : ∀ i < n, ∀ h < 24, T i h = .nan ∨ ∃ t, T i h = .fin t ∧ lo i ≤ t ∧ t ≤ hi i)
    (hm : ColMix α β f g p "hum_min") (hM : ColMix α β f g p "hum_max")
    (hr : ∀ F ∈ [f, g], ∀ name ∈ ["hum_min", "hum_max"], ∀ s, F.col? name = some s → ∀ r ∈ s, ∀ x, r.2 = .fin x → 0 ≤ x ∧ x ≤ 100)
    (ho : disaggregateHumidity api f "min_max" (some (hourlyS d0 n T)) a0 a1 kr table false = .ok out)
    (ho' : disaggregateHumidity api' g "min_max" (some (hourlyS d0 n T)) a0' a1' kr' table' false = .ok out')
    (ho'' : disaggregateHumidity api'' p "min_max" (some (hourlyS d0 n T)) a0'' a1'' kr'' table'' false = .ok out'') : SeriesMix α β out out' out'' := by
  have hT' : ∀ s, some (hourlyS d0 n T) = some s → ∃ U, s = hourlyS d0 n U := fun s hs => ⟨T, (Option.some.inj hs).symm⟩
  obtain ⟨r, k1, q1, _⟩ := hum_run hf cf hn hT' ho
  obtain ⟨r', k1', q1', _⟩ := hum_run hg cg hn hT' ho'
  obtain ⟨r'', k1'', q1'', _⟩ := hum_run hp cp hn hT' ho''
  rw [q1 rfl, q1' rfl, q1'' rfl]
  obtain ⟨s, s', s'', e, e', e'', _⟩ := id hm
  obtain ⟨u, rfl⟩ := covers_col hf cf e
  obtain ⟨u', rfl⟩ := covers_col hg cg e'
  obtain ⟨u'', rfl⟩ := covers_col hp cp e''
  obtain ⟨s, s', s'', i1, i1', i1'', _⟩ := id hM
  obtain ⟨v, rfl⟩ := covers_col hf cf i1
  obtain ⟨v', rfl⟩ := covers_col hg cg i1'
  obtain ⟨v'', rfl⟩ := covers_col hp cp i1''
  have bu := colMix_daily hm e e' e''
  have bv := colMix_daily hM i1 i1' i1''
  rw [raw_minmax api f _ _ _ _ d0 n hn u v _ _ T e i1 (ht f (by simp)).1 (ht f (by simp)).2] at k1
  rw [raw_minmax api' g _ _ _ _ d0 n hn u' v' _ _ T e' i1' (ht g (by simp)).1 (ht g (by simp)).2] at k1'
  rw [raw_minmax api'' p _ _ _ _ d0 n hn u'' v'' _ _ T e'' i1'' (ht p (by simp)).1 (ht p (by simp)).2] at k1''
  apply mix_hourly
  intro i hi' k hk
  rw [← hourlyS_inj (Except.ok.inj k1) hi' hk, ← hourlyS_inj (Except.ok.inj k1') hi' hk, ← hourlyS_inj (Except.ok.inj k1'') hi' hk]
  have hd : hi i - lo i ≠ 0 := (sub_pos.2 (hlt i hi')).ne'
  have hw : (T i k - XF.fin (lo i)) / (XF.fin (hi i) - XF.fin (lo i)) = .nan ∨
      ∃ w, (T i k - XF.fin (lo i)) / (XF.fin (hi i) - XF.fin (lo i)) = .fin w ∧ 0 ≤ w ∧ w ≤ 1 := by
    rcases hT i hi' k hk with e | ⟨t, e, tl, tu⟩
    · left; rw [e, XF.nan_sub, XF.nan_div]
    · right
      rw [e, XF.fin_sub_fin, XF.fin_sub_fin, XF.fin_div_fin_of_ne _ hd]
      exact ⟨_, rfl, div_nonneg (by linarith) (sub_pos.2 (hlt i hi')).le, (div_le_one (sub_pos.2 (hlt i hi'))).2 (by linarith)⟩
  have rng : ∀ {F : Frame ℝ} {a b : Nat → XF ℝ}, F ∈ [f, g] → F.col? "hum_min" = some (dailyS d0 n a) → F.col? "hum_max" = some (dailyS d0 n b) →
      (a i).NanOrFin → (b i).NanOrFin →
      ∀ x, b i + (T i k - XF.fin (lo i)) / (XF.fin (hi i) - XF.fin (lo i)) * (a i - b i) = .fin x → 0 ≤ x ∧ x ≤ 100 := fun {F a b} hF ha hb fa fb =>
    minmax_range hw fa fb (fun x hx => hr F hF "hum_min" (by simp) _ ha (at00 (d0 + i), a i) (List.mem_map.2 ⟨i, List.mem_range.2 hi', rfl⟩) x hx)
      (fun x hx => hr F hF "hum_max" (by simp) _ hb (at00 (d0 + i), b i) (List.mem_map.2 ⟨i, List.mem_range.2 hi', rfl⟩) x hx)
  refine clip_mix (mix_add (bv i hi') (mix_scale (mix_sub (bu i hi') (bv i hi')) ?_)) (rng (by simp) e i1 (mix_fin (bu i hi')).1 (mix_fin (bv i hi')).1)
    (rng (by simp) e' i1' (mix_fin (bu i hi')).2 (mix_fin (bv i hi')).2) h0 h1 h2
  rcases hw with e | ⟨w, e, _⟩ <;> rw [e]
  · exact XF.nanOrFin_nan
  · exact XF.nanOrFin_fin w

end

/-! ## precipitation -/

section precip
variable {K : Type} [Field K] [LinearOrder K] [IsStrictOrderedRing K] {α β : K}

/-- **C118** (precipitation, equal parts) -/
theorem C118_equal {s s' s'' : Series (XF K)} {d0 : Int} {n : Nat} (hn : 0 < n) (cs : Covers s.index d0 n) (cs' : Covers s'.index d0 n) (cs'' : Covers s''.index d0 n)
    (h : SeriesMix α β s s' s'') {api api' api'' : PandasApi} {divide : Bool} {out out' out'' : Series (XF K)} (ho : distributeEqually api s divide = .ok out)
    (ho' : distributeEqually api' s' divide = .ok out') (ho'' : distributeEqually api'' s'' divide = .ok out'') : SeriesMix α β out out' out'' := by
  obtain ⟨v, rfl⟩ := covers_series cs
  obtain ⟨v', rfl⟩ := covers_series cs'
  obtain ⟨v'', rfl⟩ := covers_series cs''
  have hv := mix_daily h
  cases divide with
  | false =>
    rw [distributeEqually_daily api d0 hn] at ho
    rw [distributeEqually_daily api' d0 hn] at ho'
    rw [distributeEqually_daily api'' d0 hn] at ho''
    cases ho; cases ho'; cases ho''
    exact mix_hourly fun i hi _ _ => hv i hi
  | true =>
    rw [distributeEqually_daily_divide api d0 hn] at ho
    rw [distributeEqually_daily_divide api' d0 hn] at ho'
    rw [distributeEqually_daily_divide api'' d0 hn] at ho''
    cases ho; cases ho'; cases ho''
    exact mix_hourly fun i hi _ _ => mix_div (hv i hi) (by norm_num)

/-- **C118** (precipitation, master station) -/
theorem C118_master {s s' s'' : Series (XF K)} {d0 : Int} {n : Nat} (hn : 0 < n) (cs : Covers s.index d0 n) (cs' : Covers s'.index d0 n) (cs'' : Covers s''.index d0 n)
    (h : SeriesMix α β s s' s'') {api api' api'' : PandasApi} {zerodiv : String} {m out out' out'' : Series (XF K)} (hm : ∀ r ∈ m, r.2.NanOrFin)
    (ho : precipMasterStation api s m zerodiv = .ok out) (ho' : precipMasterStation api' s' m zerodiv = .ok out')
    (ho'' : precipMasterStation api'' s'' m zerodiv = .ok out'') : SeriesMix α β out out' out'' := by
  obtain ⟨v, rfl⟩ := covers_series cs
  obtain ⟨v', rfl⟩ := covers_series cs'
  obtain ⟨v'', rfl⟩ := covers_series cs''
  have hv := mix_daily h
  rw [master_run hn ho, master_run hn ho', master_run hn ho'']
  refine mix_hourly fun i hi k _ => ?_
  have hrows : ∀ r ∈ m.filter (fun q => dayOf q.1 == d0 + (i : Int)), r.2.NanOrFin := fun r hr => hm r (List.mem_filter.1 hr).1
  generalize m.filter (fun q => dayOf q.1 == d0 + (i : Int)) = rows at *
  have htot : sumSkip (Series.values rows) = .fin (numbers (Series.values rows)).sum := by
    apply sumSkip_eq
    intro c hc
    obtain ⟨r, hr, rfl⟩ := List.mem_map.1 hc
    exact hrows r hr
  unfold masterCell
  dsimp only
  rw [htot]
  by_cases hc : ¬ XF.feq (XF.fin (numbers (Series.values rows)).sum) (.fin 0) ∧
      ¬ XF.feq (XF.fin (numbers (Series.values rows)).sum) (if (XF.fin (numbers (Series.values rows)).sum).isNan then .fin 1 else .fin 0)
  · rw [if_pos hc, if_pos hc, if_pos hc]
    have hne : (numbers (Series.values rows)).sum ≠ 0 := fun e => absurd (by rw [e]; simp [XF.feq]) hc.1
    have find : ∀ (tot : K) (w : XF K), Series.at? (rows.map fun r => (r.1, r.2 / .fin tot * w)) (atHour (d0 + (i : Int)) k) =
        (rows.find? fun r => r.1 == atHour (d0 + (i : Int)) k).map fun r => r.2 / .fin tot * w := by
      intro tot w
      unfold Series.at?
      rw [List.find?_map, Option.map_map]
      rfl
    rw [find, find, find]
    cases hf : rows.find? fun r => r.1 == atHour (d0 + (i : Int)) k with
    | none => trivial
    | some r =>
      have hr := hrows r (List.mem_of_find?_eq_some hf)
      refine mix_scale (hv i hi) ?_
      cases e : r.2 with
      | nan => rw [XF.nan_div]; exact XF.nanOrFin_nan
      | fin x => rw [XF.fin_div_fin_of_ne _ hne]; exact XF.nanOrFin_fin _
      | ninf => rw [e] at hr; exact absurd hr (by simp [XF.NanOrFin])
      | pinf => rw [e] at hr; exact absurd hr (by simp [XF.NanOrFin])
  · rw [if_neg hc, if_neg hc, if_neg hc]
    by_cases hz : zerodiv = "uniform"
    · rw [if_pos hz, if_pos hz, if_pos hz]
      exact mix_scale (hv i hi) (XF.nanOrFin_fin _)
    · rw [if_neg hz, if_neg hz, if_neg hz]
      show (0 : K) = α * 0 + β * 0
      ring

end precip

/-- **C118** (cascade) Not so for the cascade: with the same random numbers, the first hour of a day gets 1 mm if the day has 1 mm, but none if it has 9 mm, and none if it has
10 mm. -/
theorem C118_cascade_not_additive :
    ∃ (rnd : Nat → ℚ) (v v' v'' : Nat → XF ℚ) (out out' out'' : CascadeOut ℚ), SeriesMix 1 1 (dailyS 0 2 v) (dailyS 0 2 v') (dailyS 0 2 v'') ∧
      disaggPrecCascade .modern rnd (dailyS 0 2 v) (.one (CascStats.fillSample .init)) = .ok out ∧
      disaggPrecCascade .modern rnd (dailyS 0 2 v') (.one (CascStats.fillSample .init)) = .ok out' ∧
      disaggPrecCascade .modern rnd (dailyS 0 2 v'') (.one (CascStats.fillSample .init)) = .ok out'' ∧
      (dayCells out.series 0)[0]? = some (.fin 1) ∧ (dayCells out'.series 0)[0]? = some (.fin 0) ∧ (dayCells out''.series 0)[0]? = some (.fin 0) := by
  have h : okAnd (disaggPrecCascade .modern (fun _ => (1 / 2 : ℚ)) (dailyS 0 2 fun i => if i = 0 then .fin 1 else .fin 0)
      (.one (CascStats.fillSample .init))) (fun o => okAnd (disaggPrecCascade .modern (fun _ => (1 / 2 : ℚ))
        (dailyS 0 2 fun i => if i = 0 then .fin 9 else .fin 0) (.one (CascStats.fillSample .init)))
          fun o' => okAnd (disaggPrecCascade .modern (fun _ => (1 / 2 : ℚ))
        (dailyS 0 2 fun i => if i = 0 then .fin 10 else .fin 0) (.one (CascStats.fillSample .init)))
          fun o'' => decide ((dayCells o.series 0)[0]? = some (.fin 1) ∧ (dayCells o'.series 0)[0]? = some (.fin 0) ∧
            (dayCells o''.series 0)[0]? = some (.fin 0))) = true := by decide +kernel
  obtain ⟨o, ho, h⟩ := okAnd_iff.1 h
  obtain ⟨o', ho', h⟩ := okAnd_iff.1 h
  obtain ⟨o'', ho'', h⟩ := okAnd_iff.1 h
  have h := of_decide_eq_true h
  refine ⟨fun _ => 1 / 2, fun i => if i = 0 then .fin 1 else .fin 0, fun i => if i = 0 then .fin 9 else .fin 0, fun i => if i = 0 then .fin 10 else .fin 0, o, o', o'', ?_,
    ho, ho', ho'', h⟩
  refine mix_of_daily fun i _ => ?_
  rcases i with _ | i
  · show (10 : ℚ) = 1 * 1 + 1 * 9
    norm_num
  · show (0 : ℚ) = 1 * 0 + 1 * 0
    norm_num

/-! ## the theorems apply -/

/-- C118 (temperature): the mean of two records -/
example : ∃ out out' out'', disaggregateTemperature .modern exFrame3 "sine" "fix" false none none (some exSun3) = .ok out ∧
    disaggregateTemperature .modern
      ⟨[at00 0, at00 1, at00 2], [("tmin", [.fin 285, .fin 273, .fin 248]), ("tmax", [.fin 295, .fin 305, .fin 290]), ("temp", [.fin 288, .fin 288, .fin 270])]⟩
      "sine" "fix" false none none (some exSun3) = .ok out' ∧
    disaggregateTemperature .modern
      ⟨[at00 0, at00 1, at00 2], [("tmin", [.fin 284, .fin 273, .fin 249]), ("tmax", [.fin 294, .fin 304, .fin 290]), ("temp", [.fin 288, .fin 288, .fin 270])]⟩
      "sine" "fix" false none none (some exSun3) = .ok out'' ∧ SeriesMix (1 / 2) (1 / 2) out out' out'' := by
  obtain ⟨out, ho⟩ := exOk3 (.inr (.inr rfl)) false
  obtain ⟨out', ho'⟩ : ∃ out, disaggregateTemperature .modern
      ⟨[at00 0, at00 1, at00 2], [("tmin", [.fin 285, .fin 273, .fin 248]), ("tmax", [.fin 295, .fin 305, .fin 290]), ("temp", [.fin 288, .fin 288, .fin 270])]⟩
      "sine" "fix" false none none (some exSun3) = .ok out :=
    sine_ok (d0 := 0) (n := 3) (tmin := fun i => if i = 0 then .fin 285 else if i = 1 then .fin 273 else .fin 248)
      (tmax := fun i => if i = 0 then .fin 295 else if i = 1 then .fin 305 else .fin 290)
      (temp := fun i => if i = 0 then .fin 288 else if i = 1 then .fin 288 else .fin 270) .modern ⟨rfl, rfl, rfl, rfl⟩
      (by decide) (.inr (.inr rfl)) false none (fun _ _ => ⟨7, 14, .inl ⟨rfl, rfl, rfl⟩⟩) (by decide) (by
        intro r hr
        obtain ⟨i, _, rfl⟩ := List.mem_map.1 hr
        simp only [XF.lt_fin]
        norm_num)
  obtain ⟨out'', ho''⟩ : ∃ out, disaggregateTemperature .modern
      ⟨[at00 0, at00 1, at00 2], [("tmin", [.fin 284, .fin 273, .fin 249]), ("tmax", [.fin 294, .fin 304, .fin 290]), ("temp", [.fin 288, .fin 288, .fin 270])]⟩
      "sine" "fix" false none none (some exSun3) = .ok out :=
    sine_ok (d0 := 0) (n := 3) (tmin := fun i => if i = 0 then .fin 284 else if i = 1 then .fin 273 else .fin 249)
      (tmax := fun i => if i = 0 then .fin 294 else if i = 1 then .fin 304 else .fin 290)
      (temp := fun i => if i = 0 then .fin 288 else if i = 1 then .fin 288 else .fin 270) .modern ⟨rfl, rfl, rfl, rfl⟩
      (by decide) (.inr (.inr rfl)) false none (fun _ _ => ⟨7, 14, .inl ⟨rfl, rfl, rfl⟩⟩) (by decide) (by
        intro r hr
        obtain ⟨i, _, rfl⟩ := List.mem_map.1 hr
        simp only [XF.lt_fin]
        norm_num)
  have wf : ∀ a b c : List (XF ℝ), a.length = 3 → b.length = 3 → c.length = 3 →
      (⟨[at00 0, at00 1, at00 2], [("tmin", a), ("tmax", b), ("temp", c)]⟩ : Frame ℝ).WF := by
    intro a b c h1 h2 h3 c hc
    simp at hc
    rcases hc with rfl | rfl | rfl <;> assumption
  refine ⟨out, out', out'', ho, ho', ho'', C118_temperature (d0 := 0) (n := 3) exWF.2 (wf _ _ _ rfl rfl rfl) (wf _ _ _ rfl rfl rfl) (by omega) rfl rfl rfl
    (fun c hc => by cases hc) ?_ ?_ (fun h => by rcases h with h | h <;> exact absurd h (by decide)) ho ho' ho''⟩
  · refine ⟨_, _, _, rfl, rfl, rfl, mix_of_daily (d0 := 0) (n := 3) (u := fun i => if i = 0 then .fin 283 else if i = 1 then .fin 273 else .fin 250)
      (v := fun i => if i = 0 then .fin 285 else if i = 1 then .fin 273 else .fin 248) (w := fun i => if i = 0 then .fin 284 else if i = 1 then .fin 273 else .fin 249) ?_⟩
    intro i _
    rcases i with _ | _ | i
    · show (284 : ℝ) = 1 / 2 * 283 + 1 / 2 * 285; norm_num
    · show (273 : ℝ) = 1 / 2 * 273 + 1 / 2 * 273; norm_num
    · show (249 : ℝ) = 1 / 2 * 250 + 1 / 2 * 248; norm_num
  · refine ⟨_, _, _, rfl, rfl, rfl, mix_of_daily (d0 := 0) (n := 3) (u := fun i => if i = 0 then .fin 293 else if i = 1 then .fin 303 else .fin 290)
      (v := fun i => if i = 0 then .fin 295 else if i = 1 then .fin 305 else .fin 290) (w := fun i => if i = 0 then .fin 294 else if i = 1 then .fin 304 else .fin 290) ?_⟩
    intro i _
    rcases i with _ | _ | i
    · show (294 : ℝ) = 1 / 2 * 293 + 1 / 2 * 295; norm_num
    · show (304 : ℝ) = 1 / 2 * 303 + 1 / 2 * 305; norm_num
    · show (290 : ℝ) = 1 / 2 * 290 + 1 / 2 * 290; norm_num

/-- C118 (wind): the difference of two records, one value missing -/
example (draw : Nat → ℝ) : ∃ r r' r'', disaggregateWind .modern draw (dailyS 0 3 fun i => if i = 1 then .nan else .fin 5) "cosine" (some (-0.2)) (some 1) (some 2) = .ok r ∧
    disaggregateWind .modern draw (dailyS 0 3 fun i => .fin (2 + i)) "cosine" (some (-0.2)) (some 1) (some 2) = .ok r' ∧
    disaggregateWind .modern draw (dailyS 0 3 fun i => if i = 1 then .nan else .fin (3 - i)) "cosine" (some (-0.2)) (some 1) (some 2) = .ok r'' ∧
    ∀ (k : Nat) (x y z : XF ℝ), r.values[k]? = some x → r'.values[k]? = some y → r''.values[k]? = some z → Mix 1 (-1) x y z := by
  refine ⟨_, _, _, wind_cosine .modern draw 0 3 (by omega) _ _ _ _, wind_cosine .modern draw 0 3 (by omega) _ _ _ _, wind_cosine .modern draw 0 3 (by omega) _ _ _ _, ?_⟩
  refine (C118_wind (α := 1) (β := -1) (n := 3) (by omega) (dailyS_index 0 3 fun i => if i = 1 then .nan else .fin 5) (dailyS_index 0 3 fun i => .fin (2 + i))
    (dailyS_index 0 3 fun i => if i = 1 then .nan else .fin (3 - i)) (mix_of_daily ?_) (fun h => absurd h (by decide))
    (wind_cosine .modern draw 0 3 (by omega) _ (-0.2) 1 2) (wind_cosine .modern draw 0 3 (by omega) _ (-0.2) 1 2) (wind_cosine .modern draw 0 3 (by omega) _ (-0.2) 1 2)).2.2.2
  intro i _
  by_cases h : i = 1
  · simp only [if_pos h]
    trivial
  · simp only [if_neg h]
    show (3 - (i : ℝ)) = 1 * 5 + -1 * (2 + i)
    ring

/-- C118 (radiation): the sum of two records -/
example : ∃ out out' out'', disaggregateRadiation .modern ⟨[at00 0, at00 1], [("glob", [.fin 100, .nan])]⟩ none (some (hourlyS 0 2 fun _ h => .fin h)) = .ok out ∧
    disaggregateRadiation .modern ⟨[at00 0, at00 1], [("glob", [.fin 20, .fin 5])]⟩ none (some (hourlyS 0 2 fun _ h => .fin h)) = .ok out' ∧
    disaggregateRadiation .modern ⟨[at00 0, at00 1], [("glob", [.fin 120, .nan])]⟩ none (some (hourlyS 0 2 fun _ h => .fin h)) = .ok out'' ∧
    ∃ c c' c'' : XF ℝ, (dayCells out (0 + ((0 : Nat) : Int)))[23]? = some c ∧ (dayCells out' (0 + ((0 : Nat) : Int)))[23]? = some c' ∧
      (dayCells out'' (0 + ((0 : Nat) : Int)))[23]? = some c'' ∧ (((c = .nan ∨ c' = .nan) ∧ c'' = .nan) ∨
        ∃ x y z, c = .fin x ∧ c' = .fin y ∧ c'' = .fin z ∧ |z - (1 * x + 1 * y)| ≤ 0.01 * (1 + |(1 : ℝ)| + |(1 : ℝ)|)) := by
  have r1 := potRad_eq (d0 := 0) (d1 := 0) (n := 2) (m := 2) (daily := ⟨[at00 0, at00 1], [("glob", [.fin 100, .nan])]⟩) .modern rfl (by omega)
    (v := fun i => if i = 0 then .fin 100 else .nan) rfl none (fun _ h => .fin h) (.scalar (.fin 0.25) (.fin 0.5)) (.scalar (.fin 0.75) (.fin 2.4)) none
  have r2 := potRad_eq (d0 := 0) (d1 := 0) (n := 2) (m := 2) (daily := ⟨[at00 0, at00 1], [("glob", [.fin 20, .fin 5])]⟩) .modern rfl (by omega)
    (v := fun i => if i = 0 then .fin 20 else .fin 5) rfl none (fun _ h => .fin h) (.scalar (.fin 0.25) (.fin 0.5)) (.scalar (.fin 0.75) (.fin 2.4)) none
  have r3 := potRad_eq (d0 := 0) (d1 := 0) (n := 2) (m := 2) (daily := ⟨[at00 0, at00 1], [("glob", [.fin 120, .nan])]⟩) .modern rfl (by omega)
    (v := fun i => if i = 0 then .fin 120 else .nan) rfl none (fun _ h => .fin h) (.scalar (.fin 0.25) (.fin 0.5)) (.scalar (.fin 0.75) (.fin 2.4)) none
  have hsum : (day24 fun h : Nat => (h : ℝ)).sum = 276 := by norm_num [day24, List.range_succ]
  refine ⟨_, _, _, r1, r2, r3, C118_radiation (α := 1) (β := 1) (f := ⟨[at00 0, at00 1], [("glob", [.fin 100, .nan])]⟩)
    (g := ⟨[at00 0, at00 1], [("glob", [.fin 20, .fin 5])]⟩) (p := ⟨[at00 0, at00 1], [("glob", [.fin 120, .nan])]⟩) (d0 := 0)
    (n := 2) (by intro c hc; simp at hc; subst hc; rfl) (by intro c hc; simp at hc; subst hc; rfl) (by intro c hc; simp at hc; subst hc; rfl)
    (by omega) rfl rfl rfl (q := fun _ h => (h : ℝ))
    (fun _ _ h _ => Nat.cast_nonneg h) (fun _ _ => by rw [hsum]; norm_num) ?_ ?_ r1 r2 r3 0 (by omega) 23 (by omega)⟩
  · refine ⟨_, _, _, rfl, rfl, rfl, mix_of_daily (d0 := 0) (n := 2) (u := fun i => if i = 0 then .fin 100 else .nan)
      (v := fun i => if i = 0 then .fin 20 else .fin 5) (w := fun i => if i = 0 then .fin 120 else .nan) ?_⟩
    intro i _
    rcases i with _ | i
    · show (120 : ℝ) = 1 * 100 + 1 * 20; norm_num
    · exact trivial
  · intro F hF s hs r hr x hx
    simp only [List.mem_cons, List.not_mem_nil, or_false] at hF
    rcases hF with rfl | rfl | rfl <;> cases hs <;> simp at hr <;> rcases hr with rfl | rfl <;> cases hx <;> norm_num

/-- C118 (humidity): the mean of two records -/
example : ∃ out out' out'' : Series (XF ℝ), disaggregateHumidity .modern
      ⟨[at00 0], [("hum_min", [.fin 40]), ("hum_max", [.fin 90]), ("tmin", [.fin 280]), ("tmax", [.fin 303])]⟩ "min_max"
      (some (hourlyS 0 1 fun _ h => .fin (280 + h))) none none none none false = .ok out ∧
    disaggregateHumidity .modern
      ⟨[at00 0], [("hum_min", [.fin 60]), ("hum_max", [.fin 100]), ("tmin", [.fin 280]), ("tmax", [.fin 303])]⟩ "min_max"
      (some (hourlyS 0 1 fun _ h => .fin (280 + h))) none none none none false = .ok out' ∧
    disaggregateHumidity .modern
      ⟨[at00 0], [("hum_min", [.fin 50]), ("hum_max", [.fin 95]), ("tmin", [.fin 280]), ("tmax", [.fin 303])]⟩ "min_max"
      (some (hourlyS 0 1 fun _ h => .fin (280 + h))) none none none none false = .ok out'' ∧ SeriesMix (1 / 2) (1 / 2) out out' out'' := by
  have r1 := raw_minmax .modern (⟨[at00 0], [("hum_min", [.fin 40]), ("hum_max", [.fin 90]), ("tmin", [.fin 280]), ("tmax", [.fin 303])]⟩ : Frame ℝ) none none none none 0 1
    (by omega) (fun _ => .fin 40) (fun _ => .fin 90) (fun _ => .fin 280) (fun _ => .fin 303) (fun _ h => .fin (280 + h)) rfl rfl rfl rfl
  have r2 := raw_minmax .modern (⟨[at00 0], [("hum_min", [.fin 60]), ("hum_max", [.fin 100]), ("tmin", [.fin 280]), ("tmax", [.fin 303])]⟩ : Frame ℝ) none none none none 0 1
    (by omega) (fun _ => .fin 60) (fun _ => .fin 100) (fun _ => .fin 280) (fun _ => .fin 303) (fun _ h => .fin (280 + h)) rfl rfl rfl rfl
  have r3 := raw_minmax .modern (⟨[at00 0], [("hum_min", [.fin 50]), ("hum_max", [.fin 95]), ("tmin", [.fin 280]), ("tmax", [.fin 303])]⟩ : Frame ℝ) none none none none 0 1
    (by omega) (fun _ => .fin 50) (fun _ => .fin 95) (fun _ => .fin 280) (fun _ => .fin 303) (fun _ h => .fin (280 + h)) rfl rfl rfl rfl
  have wf : ∀ a b c d : XF ℝ, (⟨[at00 0], [("hum_min", [a]), ("hum_max", [b]), ("tmin", [c]), ("tmax", [d])]⟩ : Frame ℝ).WF := by
    intro a b c d c hc
    simp at hc
    rcases hc with rfl | rfl | rfl | rfl <;> rfl
  refine ⟨_, _, _, (hum_finish r1).1, (hum_finish r2).1, (hum_finish r3).1, ?_⟩
  refine C118_humidity_minmax (by norm_num) (by norm_num) (by norm_num) (f := ⟨[at00 0], [("hum_min", [.fin 40]), ("hum_max", [.fin 90]), ("tmin", [.fin 280]), ("tmax", [.fin 303])]⟩)
    (g := ⟨[at00 0], [("hum_min", [.fin 60]), ("hum_max", [.fin 100]), ("tmin", [.fin 280]), ("tmax", [.fin 303])]⟩)
    (p := ⟨[at00 0], [("hum_min", [.fin 50]), ("hum_max", [.fin 95]), ("tmin", [.fin 280]), ("tmax", [.fin 303])]⟩) (d0 := 0) (n := 1)
    (wf _ _ _ _) (wf _ _ _ _) (wf _ _ _ _) (by omega) rfl rfl rfl (lo := fun _ => 280) (hi := fun _ => 303) ?_ (fun _ _ => by norm_num) ?_ ?_ ?_ ?_
    (hum_finish r1).1 (hum_finish r2).1 (hum_finish r3).1
  · intro F hF
    simp only [List.mem_cons, List.not_mem_nil, or_false] at hF
    rcases hF with rfl | rfl | rfl <;> exact ⟨rfl, rfl⟩
  · intro i _ h hh
    right
    have h1 : (h : ℝ) ≤ 23 := by exact_mod_cast Nat.le_of_lt_succ hh
    have h0 : (0 : ℝ) ≤ h := Nat.cast_nonneg h
    exact ⟨_, rfl, by linarith, by linarith⟩
  · refine ⟨_, _, _, rfl, rfl, rfl, mix_of_daily (d0 := 0) (n := 1) (u := fun _ => .fin 40) (v := fun _ => .fin 60) (w := fun _ => .fin 50) fun i _ => ?_⟩
    show (50 : ℝ) = 1 / 2 * 40 + 1 / 2 * 60
    norm_num
  · refine ⟨_, _, _, rfl, rfl, rfl, mix_of_daily (d0 := 0) (n := 1) (u := fun _ => .fin 90) (v := fun _ => .fin 100) (w := fun _ => .fin 95) fun i _ => ?_⟩
    show (95 : ℝ) = 1 / 2 * 90 + 1 / 2 * 100
    norm_num
  · intro F hF name hname s hs r hr x hx
    simp only [List.mem_cons, List.not_mem_nil, or_false] at hF hname
    rcases hF with rfl | rfl <;> rcases hname with rfl | rfl <;> cases hs <;> simp at hr <;> subst hr <;> cases hx <;> norm_num

/-- C118 (precipitation): the sum of two records, with the same master station -/
example : okAnd (precipMasterStation .legacy (dailyS 0 2 fun i => .fin (i + 3 : ℚ)) (hourlyS 0 2 fun i h => .fin (i + h : ℚ)) "uniform") (fun o =>
    okAnd (precipMasterStation .legacy (dailyS 0 2 fun i => .fin (2 * i : ℚ)) (hourlyS 0 2 fun i h => .fin (i + h : ℚ)) "uniform") (fun o' =>
      okAnd (precipMasterStation .legacy (dailyS 0 2 fun i => .fin (3 * i + 3 : ℚ)) (hourlyS 0 2 fun i h => .fin (i + h : ℚ)) "uniform") (fun o'' =>
        decide (o.length = 48 ∧ o'.length = 48 ∧ o''.length = 48)))) = true ∧
    SeriesMix 1 1 (dailyS 0 2 fun i => .fin (i + 3 : ℚ)) (dailyS 0 2 fun i => .fin (2 * i : ℚ)) (dailyS 0 2 fun i => .fin (3 * i + 3 : ℚ)) ∧
    ∀ r ∈ hourlyS 0 2 (fun i h => XF.fin (i + h : ℚ)), r.2.NanOrFin := by
  refine ⟨by decide +kernel, mix_of_daily fun i _ => ?_, fun r hr => ?_⟩
  · show (3 * (i : ℚ) + 3) = 1 * (i + 3) + 1 * (2 * i)
    ring
  · obtain ⟨j, _, rfl⟩ := List.mem_map.1 hr
    exact XF.nanOrFin_fin _

end Melodist
