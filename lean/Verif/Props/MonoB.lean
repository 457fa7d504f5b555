import Verif.Props.Mono
import Verif.Props.Locality
import Verif.Lemmas.Stats

/-!
# C101: larger daily values give larger (or equal) hourly values: humidity, precipitation; not so the cascade
-/

set_option linter.unusedSectionVars false

namespace Melodist
open Spec

noncomputable section

theorem hourlyS_inj {d0 : Int} {n : Nat} {p p' : Nat → Nat → XF ℝ} (h : hourlyS d0 n p = hourlyS d0 n p') {i k : Nat} (hi : i < n) (hk : k < 24) :
    p i k = p' i k := (same_hours (n' := n) hi hi rfl).1 (by rw [h]) k hk

/-- **C101** (humidity, equal) -/
theorem C101_humidity_equal {f g : Frame ℝ} (hf : f.WF) (hg : g.WF) {d0 : Int} {n : Nat} (hn : 0 < n) (cf : Covers f.index d0 n) (cg : Covers g.index d0 n)
    {api api' : PandasApi} {T T' : Option (Nat → Nat → XF ℝ)} {a0 a1 kr a0' a1' kr' : Option ℝ} {table table' : Option (CatMeans ℝ)} {out out' : Series (XF ℝ)}
    (h : ColAtMost f g "hum") (ho : disaggregateHumidity api f "equal" (T.map (hourlyS d0 n)) a0 a1 kr table false = .ok out)
    (ho' : disaggregateHumidity api' g "equal" (T'.map (hourlyS d0 n)) a0' a1' kr' table' false = .ok out') : SeriesAtMost out out' := by
  have hT : ∀ {T : Option (Nat → Nat → XF ℝ)}, ∀ s, T.map (hourlyS d0 n) = some s → ∃ U, s = hourlyS d0 n U := by
    intro T s hs
    obtain ⟨U, _, e⟩ := Option.map_eq_some_iff.1 hs
    exact ⟨U, e.symm⟩
  obtain ⟨r, hr, q1, _⟩ := hum_run hf cf hn hT ho
  obtain ⟨r', hr', q1', _⟩ := hum_run hg cg hn hT ho'
  rw [q1 rfl, q1' rfl]
  obtain ⟨s, s', e, e', _⟩ := id h
  obtain ⟨v, rfl⟩ := covers_col hf cf e
  obtain ⟨v', rfl⟩ := covers_col hg cg e'
  have bv := colAtMost_daily h e e'
  rw [raw_equal api f _ _ _ _ _ d0 n hn v e] at hr
  rw [raw_equal api' g _ _ _ _ _ d0 n hn v' e'] at hr'
  apply le_hourly
  intro i hi k hk
  rw [← hourlyS_inj (Except.ok.inj hr) hi hk, ← hourlyS_inj (Except.ok.inj hr') hi hk]
  exact clip_mono (bv i hi)

/-- **C101** (humidity, linear variation of the dew point) With slope a₁ ≥ 0 and daily dew points a₀ + a₁·tmin above 1.03 K: larger tmin and lower hourly
temperature give larger relative humidity. -/
theorem C101_humidity_linear {f g : Frame ℝ} (hf : f.WF) (hg : g.WF) {d0 : Int} {n : Nat} (hn : 0 < n) (cf : Covers f.index d0 n) (cg : Covers g.index d0 n)
    {api api' : PandasApi} {T T' : Nat → Nat → XF ℝ} {a b : ℝ} {kr : Option ℝ} {table table' : Option (CatMeans ℝ)} {out out' : Series (XF ℝ)} (hb : 0 ≤ b)
    (h1 : ColAtMost f g "tmin") (h2 : SeriesAtMost (hourlyS d0 n T') (hourlyS d0 n T))
    (k1 : ∀ s, f.col? "tmin" = some s → ∀ r ∈ s, ∀ x, r.2 = .fin x → 1.03 < a + b * x) (k2 : ∀ r ∈ hourlyS d0 n T', ∀ x, r.2 = .fin x → 0.53 < x)
    (ho : disaggregateHumidity api f "linear_dewpoint_variation" (some (hourlyS d0 n T)) (some a) (some b) kr table false = .ok out)
    (ho' : disaggregateHumidity api' g "linear_dewpoint_variation" (some (hourlyS d0 n T')) (some a) (some b) kr table' false = .ok out') :
    SeriesAtMost out out' := by
  obtain ⟨r, hr, q1, _⟩ := hum_run hf cf hn (fun s hs => ⟨T, (Option.some.inj hs).symm⟩) ho
  obtain ⟨r', hr', q1', _⟩ := hum_run hg cg hn (fun s hs => ⟨T', (Option.some.inj hs).symm⟩) ho'
  rw [q1 rfl, q1' rfl]
  rcases raw_formula hf cf hn (fun s hs => ⟨T, (Option.some.inj hs).symm⟩) hr with
    ⟨m, _⟩ | ⟨m, _⟩ | ⟨_, v, U, a1, b1, k, ea, eb, ek, c1, eT, s1⟩ | ⟨m, _⟩ | ⟨m, _⟩
  · exact absurd m (by decide)
  · exact absurd m (by decide)
  · rcases raw_formula hg cg hn (fun s hs => ⟨T', (Option.some.inj hs).symm⟩) hr' with
      ⟨m, _⟩ | ⟨m, _⟩ | ⟨_, v', U', a1', b1', k', ea', eb', ek', c1', eT', s1'⟩ | ⟨m, _⟩ | ⟨m, _⟩
    · exact absurd m (by decide)
    · exact absurd m (by decide)
    · cases ea; cases eb; cases ea'; cases eb'
      rw [ek] at ek'
      cases ek'
      have bv := colAtMost_daily h1 c1 c1'
      have hT : ∀ i < n, ∀ k < 24, AtMost (T' i k) (T i k) := by
        intro i hi k hk
        unfold SeriesAtMost hourlyS at h2
        rw [List.forall₂_map_left_iff, List.forall₂_map_right_iff, List.forall₂_same] at h2
        have := (h2 (24 * i + k) (List.mem_range.2 (by omega))).2
        rw [show (24 * i + k) / 24 = i by omega, show (24 * i + k) % 24 = k by omega] at this
        exact this
      have td : ∀ i < n, AtMost (.fin a + .fin b * v i) (.fin a + .fin b * v' i) := fun i hi =>
        atMost_add (le_refl a) (atMost_scale (bv i hi) (.inr ⟨b, rfl, hb⟩))
      have tdlow : ∀ i < n, ∀ x, XF.fin a + .fin b * v i = .fin x → 1.03 < x := by
        intro i hi x hx
        rcases atMost_iff.1 (bv i hi) with ⟨e1, _⟩ | ⟨y, _, e1, _, _⟩
        · rw [e1, XF.mul_nan, XF.add_nan] at hx; cases hx
        · rw [e1, XF.fin_mul_fin, XF.fin_add_fin] at hx
          cases hx
          exact k1 _ c1 (at00 (d0 + (i : Nat)), v i) (List.mem_map.2 ⟨i, List.mem_range.2 hi, rfl⟩) y e1
      apply le_hourly
      intro i hi j hj
      rw [hourlyS_inj s1 hi hj, hourlyS_inj s1' hi hj, ← hourlyS_inj (Option.some.inj eT) hi hj, ← hourlyS_inj (Option.some.inj eT') hi hj]
      -- dew point of the next day
      have nx : ∃ i2 < n, (∀ w : Nat → XF ℝ, (if i + 1 < n then w (i + 1) else w i) = w i2) := by
        by_cases hx : i + 1 < n
        · exact ⟨i + 1, hx, fun w => if_pos hx⟩
        · exact ⟨i, hi, fun w => if_neg hx⟩
      obtain ⟨i2, hi2, hw⟩ := nx
      have hj24 : (0 : ℝ) ≤ (j : ℝ) / 24 ∧ (j : ℝ) / 24 ≤ 1 := by
        have : (j : ℝ) < 24 := by exact_mod_cast hj
        constructor
        · positivity
        · linarith
      have hs := Real.neg_one_le_sin (((j : ℝ) + 1) * Real.pi / k - 3 * Real.pi / 4)
      have ed : tdewDelta k j = .fin (0.5 * Real.sin (((j : ℝ) + 1) * Real.pi / k - 3 * Real.pi / 4)) := by
        unfold tdewDelta
        rw [show (((j : Nat) : Int) : ℝ) = (j : ℝ) by simp]
        rfl
      unfold linTdew
      dsimp only
      rw [hw (fun i => XF.fin a + XF.fin b * v i), hw (fun i => XF.fin a + XF.fin b * v' i), ed]
      generalize Real.sin (((j : ℝ) + 1) * Real.pi / k - 3 * Real.pi / 4) = sn at *
      generalize (j : ℝ) / 24 = w at *
      have t1 := td i hi
      have t2 := td i2 hi2
      have l1 := tdlow i hi
      have l2 := tdlow i2 hi2
      generalize XF.fin a + XF.fin b * v i = x1 at *
      generalize XF.fin a + XF.fin b * v' i = y1 at *
      generalize XF.fin a + XF.fin b * v i2 = x2 at *
      generalize XF.fin a + XF.fin b * v' i2 = y2 at *
      refine rhCell_mono ?_ (hT i hi j hj) ?_ ?_
      · rcases atMost_iff.1 t1 with ⟨rfl, rfl⟩ | ⟨p, q, rfl, rfl, hpq⟩
        · rw [XF.nan_add, XF.nan_add]; trivial
        · rcases atMost_iff.1 t2 with ⟨rfl, rfl⟩ | ⟨p2, q2, rfl, rfl, hpq2⟩
          · simp only [XF.nan_sub, XF.mul_nan, XF.nan_add, XF.add_nan]; trivial
          · simp only [XF.fin_sub_fin, XF.fin_mul_fin, XF.fin_add_fin]
            show p + (w * (p2 - p) + 0.5 * sn) ≤ q + (w * (q2 - q) + 0.5 * sn)
            nlinarith [mul_nonneg (sub_nonneg.2 hpq) (sub_nonneg.2 hj24.2), mul_nonneg (sub_nonneg.2 hpq2) hj24.1]
      · intro x hx
        rcases atMost_iff.1 t1 with ⟨rfl, rfl⟩ | ⟨p, q, rfl, rfl, hpq⟩
        · rw [XF.nan_add] at hx; cases hx
        · rcases atMost_iff.1 t2 with ⟨rfl, rfl⟩ | ⟨p2, q2, rfl, rfl, hpq2⟩
          · simp only [XF.nan_sub, XF.mul_nan, XF.nan_add, XF.add_nan] at hx; cases hx
          · simp only [XF.fin_sub_fin, XF.fin_mul_fin, XF.fin_add_fin] at hx
            cases hx
            have m1 := l1 p rfl
            have m2 := l2 p2 rfl
            norm_num at m1 m2 ⊢
            nlinarith [mul_nonneg (sub_nonneg.2 m1.le) (sub_nonneg.2 hj24.2), mul_nonneg (sub_nonneg.2 m2.le) hj24.1]
      · intro x hx
        refine k2 (atHour (d0 + (i : Nat)) j, T' i j) ?_ x hx
        unfold hourlyS
        refine List.mem_map.2 ⟨24 * i + j, List.mem_range.2 (by omega), ?_⟩
        rw [show (24 * i + j) / 24 = i by omega, show (24 * i + j) % 24 = j by omega]
    · exact absurd m (by decide)
    · exact absurd m (by decide)
  · exact absurd m (by decide)
  · exact absurd m (by decide)

/-- **C101** (humidity, 'min_max') With the same temperatures (hourly values between tmin and tmax, tmin < tmax), larger hum_min and hum_max give larger
relative humidity. -/
theorem C101_humidity_minmax {f g : Frame ℝ} (hf : f.WF) (hg : g.WF) {d0 : Int} {n : Nat} (hn : 0 < n) (cf : Covers f.index d0 n) (cg : Covers g.index d0 n)
    {api api' : PandasApi} {T : Nat → Nat → XF ℝ} {a0 a1 kr a0' a1' kr' : Option ℝ} {table table' : Option (CatMeans ℝ)} {out out' : Series (XF ℝ)}
    {lo hi : Nat → ℝ} (t1 : f.col? "tmin" = some (dailyS d0 n fun i => .fin (lo i))) (t2 : f.col? "tmax" = some (dailyS d0 n fun i => .fin (hi i)))
    (t1' : g.col? "tmin" = f.col? "tmin") (t2' : g.col? "tmax" = f.col? "tmax") (hlt : ∀ i < n, lo i < hi i)
    (hT : ∀ i < n, ∀ h < 24, T i h = .nan ∨ ∃ t, T i h = .fin t ∧ lo i ≤ t ∧ t ≤ hi i)
    (h1 : ColAtMost f g "hum_min") (h2 : ColAtMost f g "hum_max")
    (ho : disaggregateHumidity api f "min_max" (some (hourlyS d0 n T)) a0 a1 kr table false = .ok out)
    (ho' : disaggregateHumidity api' g "min_max" (some (hourlyS d0 n T)) a0' a1' kr' table' false = .ok out') : SeriesAtMost out out' := by
  obtain ⟨r, hr, q1, _⟩ := hum_run hf cf hn (fun s hs => ⟨T, (Option.some.inj hs).symm⟩) ho
  obtain ⟨r', hr', q1', _⟩ := hum_run hg cg hn (fun s hs => ⟨T, (Option.some.inj hs).symm⟩) ho'
  rw [q1 rfl, q1' rfl]
  obtain ⟨s1, s1', e1, e1', _⟩ := id h1
  obtain ⟨s2, s2', e2, e2', _⟩ := id h2
  obtain ⟨v1, rfl⟩ := covers_col hf cf e1
  obtain ⟨v1', rfl⟩ := covers_col hg cg e1'
  obtain ⟨v2, rfl⟩ := covers_col hf cf e2
  obtain ⟨v2', rfl⟩ := covers_col hg cg e2'
  have b1 := colAtMost_daily h1 e1 e1'
  have b2 := colAtMost_daily h2 e2 e2'
  rw [raw_minmax api f _ _ _ _ d0 n hn v1 v2 _ _ T e1 e2 t1 t2] at hr
  rw [raw_minmax api' g _ _ _ _ d0 n hn v1' v2' _ _ T e1' e2' (t1'.trans t1) (t2'.trans t2)] at hr'
  apply le_hourly
  intro i hi' k hk
  rw [← hourlyS_inj (Except.ok.inj hr) hi' hk, ← hourlyS_inj (Except.ok.inj hr') hi' hk]
  apply clip_mono
  have hd : hi i - lo i ≠ 0 := (sub_pos.2 (hlt i hi')).ne'
  rcases hT i hi' k hk with e | ⟨t, e, tl, tu⟩
  · simp only [e, XF.nan_sub, XF.nan_div, XF.nan_mul, XF.add_nan]; trivial
  · rw [e]
    rcases atMost_iff.1 (b1 i hi') with ⟨x1, x2⟩ | ⟨p, q, x1, x2, hpq⟩
    · simp only [x1, x2, XF.nan_sub, XF.mul_nan, XF.add_nan]; trivial
    · rcases atMost_iff.1 (b2 i hi') with ⟨x3, x4⟩ | ⟨p2, q2, x3, x4, hpq2⟩
      · simp only [x3, x4, XF.nan_add]; trivial
      · simp only [x1, x2, x3, x4, XF.fin_sub_fin, XF.fin_div_fin_of_ne _ hd, XF.fin_mul_fin, XF.fin_add_fin]
        have w0 : 0 ≤ (t - lo i) / (hi i - lo i) := div_nonneg (by linarith) (sub_pos.2 (hlt i hi')).le
        have w1 : (t - lo i) / (hi i - lo i) ≤ 1 := (div_le_one (sub_pos.2 (hlt i hi'))).2 (by linarith)
        generalize (t - lo i) / (hi i - lo i) = w at *
        show p2 + w * (p - p2) ≤ q2 + w * (q - q2)
        nlinarith [mul_nonneg (sub_nonneg.2 hpq) w0, mul_nonneg (sub_nonneg.2 hpq2) (sub_nonneg.2 w1)]

/-! ## the theorems apply -/

/-- C101 (temperature): the second record is warmer -/
example : ∃ out out', disaggregateTemperature .modern exFrame3 "sine" "fix" false none none (some exSun3) = .ok out ∧
    disaggregateTemperature .modern
      ⟨[at00 0, at00 1, at00 2], [("tmin", [.fin 284, .fin 273, .fin 255]), ("tmax", [.fin 293, .fin 305, .fin 291]), ("temp", [.fin 288, .fin 288, .fin 270])]⟩
      "sine" "fix" false none none (some exSun3) = .ok out' ∧ SeriesAtMost out out' := by
  obtain ⟨out, ho⟩ := exOk3 (.inr (.inr rfl)) false
  obtain ⟨out', ho'⟩ : ∃ out, disaggregateTemperature .modern
      ⟨[at00 0, at00 1, at00 2], [("tmin", [.fin 284, .fin 273, .fin 255]), ("tmax", [.fin 293, .fin 305, .fin 291]), ("temp", [.fin 288, .fin 288, .fin 270])]⟩
      "sine" "fix" false none none (some exSun3) = .ok out :=
    sine_ok (d0 := 0) (n := 3) (tmin := fun i => if i = 0 then .fin 284 else if i = 1 then .fin 273 else .fin 255)
      (tmax := fun i => if i = 0 then .fin 293 else if i = 1 then .fin 305 else .fin 291)
      (temp := fun i => if i = 0 then .fin 288 else if i = 1 then .fin 288 else .fin 270) .modern ⟨rfl, rfl, rfl, rfl⟩
      (by decide) (.inr (.inr rfl)) false none (fun _ _ => ⟨7, 14, .inl ⟨rfl, rfl, rfl⟩⟩) (by decide) (by
        intro r hr
        obtain ⟨i, _, rfl⟩ := List.mem_map.1 hr
        simp only [XF.lt_fin]
        norm_num)
  refine ⟨out, out', ho, ho', C101_temperature_extremes (g := ⟨[at00 0, at00 1, at00 2], [("tmin", [.fin 284, .fin 273, .fin 255]),
    ("tmax", [.fin 293, .fin 305, .fin 291]), ("temp", [.fin 288, .fin 288, .fin 270])]⟩) (d0 := 0) (n := 3) exWF.2 ?_ (by omega) rfl rfl (.inl rfl) (fun h => absurd h (by decide)) ?_ ?_ ho ho'⟩
  · intro c hc
    simp at hc
    rcases hc with rfl | rfl | rfl <;> rfl
  · exact ⟨_, _, rfl, rfl, .cons ⟨rfl, show (283 : ℝ) ≤ 284 by norm_num⟩ (.cons ⟨rfl, show (273 : ℝ) ≤ 273 by norm_num⟩
      (.cons ⟨rfl, show (250 : ℝ) ≤ 255 by norm_num⟩ .nil))⟩
  · exact ⟨_, _, rfl, rfl, .cons ⟨rfl, show (293 : ℝ) ≤ 293 by norm_num⟩ (.cons ⟨rfl, show (303 : ℝ) ≤ 305 by norm_num⟩
      (.cons ⟨rfl, show (290 : ℝ) ≤ 291 by norm_num⟩ .nil))⟩

/-- C101 (temperature, daily means): the same extremes, a higher mean on the second day -/
example : ∃ out out', disaggregateTemperature .modern exFrame3 "sine_mean" "fix" false none none (some exSun3) = .ok out ∧
    disaggregateTemperature .modern
      ⟨[at00 0, at00 1, at00 2], [("tmin", [.fin 283, .fin 273, .fin 250]), ("tmax", [.fin 293, .fin 303, .fin 290]), ("temp", [.fin 288, .fin 289, .fin 270])]⟩
      "sine_mean" "fix" false none none (some exSun3) = .ok out' ∧ SeriesAtMost out out' := by
  obtain ⟨out, ho⟩ := exOk3 (.inr (.inl rfl)) false
  obtain ⟨out', ho'⟩ : ∃ out, disaggregateTemperature .modern
      ⟨[at00 0, at00 1, at00 2], [("tmin", [.fin 283, .fin 273, .fin 250]), ("tmax", [.fin 293, .fin 303, .fin 290]), ("temp", [.fin 288, .fin 289, .fin 270])]⟩
      "sine_mean" "fix" false none none (some exSun3) = .ok out :=
    sine_ok (d0 := 0) (n := 3) (tmin := fun i => if i = 0 then .fin 283 else if i = 1 then .fin 273 else .fin 250)
      (tmax := fun i => if i = 0 then .fin 293 else if i = 1 then .fin 303 else .fin 290)
      (temp := fun i => if i = 0 then .fin 288 else if i = 1 then .fin 289 else .fin 270) .modern ⟨rfl, rfl, rfl, rfl⟩
      (by decide) (.inr (.inl rfl)) false none (fun _ _ => ⟨7, 14, .inl ⟨rfl, rfl, rfl⟩⟩) (by decide) (by
        intro r hr
        obtain ⟨i, _, rfl⟩ := List.mem_map.1 hr
        simp only [XF.lt_fin]
        norm_num)
  refine ⟨out, out', ho, ho', C101_temperature_mean (g := ⟨[at00 0, at00 1, at00 2], [("tmin", [.fin 283, .fin 273, .fin 250]),
    ("tmax", [.fin 293, .fin 303, .fin 290]), ("temp", [.fin 288, .fin 289, .fin 270])]⟩) (d0 := 0) (n := 3) exWF.2 ?_ (by omega) rfl rfl (.inl rfl) (fun _ h => absurd h (by simp)) ⟨rfl, ?_⟩ ⟨rfl, ?_⟩ ?_ ho ho'⟩
  · intro c hc
    simp at hc
    rcases hc with rfl | rfl | rfl <;> rfl
  · exact ⟨_, _, rfl, rfl, .cons ⟨rfl, le_refl (283 : ℝ)⟩ (.cons ⟨rfl, le_refl (273 : ℝ)⟩ (.cons ⟨rfl, le_refl (250 : ℝ)⟩ .nil))⟩
  · exact ⟨_, _, rfl, rfl, .cons ⟨rfl, le_refl (293 : ℝ)⟩ (.cons ⟨rfl, le_refl (303 : ℝ)⟩ (.cons ⟨rfl, le_refl (290 : ℝ)⟩ .nil))⟩
  · exact ⟨_, _, rfl, rfl, .cons ⟨rfl, le_refl (288 : ℝ)⟩ (.cons ⟨rfl, show (288 : ℝ) ≤ 289 by norm_num⟩ (.cons ⟨rfl, le_refl (270 : ℝ)⟩ .nil))⟩

/-- C101 (wind): the second record is windier; one value is missing in both -/
example (draw : Nat → ℝ) : ∃ r r', disaggregateWind .modern draw (dailyS 0 3 fun i => if i = 1 then .nan else .fin 2) "cosine" (some (-0.2)) (some 1) (some 2) = .ok r ∧
    disaggregateWind .modern draw (dailyS 0 3 fun i => if i = 1 then .nan else .fin (2 + i)) "cosine" (some (-0.2)) (some 1) (some 2) = .ok r' ∧
    List.Forall₂ AtMost r.values r'.values := by
  refine ⟨_, _, wind_cosine .modern draw 0 3 (by omega) _ _ _ _, wind_cosine .modern draw 0 3 (by omega) _ _ _ _, ?_⟩
  refine C101_wind (s := dailyS 0 3 fun i => if i = 1 then .nan else .fin 2) (s' := dailyS 0 3 fun i => if i = 1 then .nan else .fin (2 + i)) (by omega)
    (dailyS_index 0 3 _) (dailyS_index 0 3 _) ?_ ?_ (fun h => absurd h (by decide)) (wind_cosine .modern draw 0 3 (by omega) _ _ _ _)
    (wind_cosine .modern draw 0 3 (by omega) _ _ _ _)
  · refine .cons ⟨rfl, show (2 : ℝ) ≤ 2 + ((0 : Nat) : ℝ) by norm_num⟩ (.cons ⟨rfl, trivial⟩ (.cons ⟨rfl, show (2 : ℝ) ≤ 2 + ((2 : Nat) : ℝ) by norm_num⟩ .nil))
  · intro _ x y hx hy
    cases hx; cases hy
    rw [abs_le]
    norm_num

/-- C101 (radiation): the second record is brighter -/
example : ∃ out out', disaggregateRadiation .modern ⟨[at00 0, at00 1], [("glob", [.fin 100, .nan])]⟩ none (some (hourlyS 0 2 fun _ h => .fin h)) = .ok out ∧
    disaggregateRadiation .modern ⟨[at00 0, at00 1], [("glob", [.fin 120, .nan])]⟩ none (some (hourlyS 0 2 fun _ h => .fin h)) = .ok out' ∧
    SeriesAtMost out out' := by
  have r1 := potRad_eq (d0 := 0) (d1 := 0) (n := 2) (m := 2) (daily := ⟨[at00 0, at00 1], [("glob", [.fin 100, .nan])]⟩) .modern rfl (by omega)
    (v := fun i => if i = 0 then .fin 100 else .nan) rfl none (fun _ h => .fin h) (.scalar (.fin 0.25) (.fin 0.5)) (.scalar (.fin 0.75) (.fin 2.4)) none
  have r2 := potRad_eq (d0 := 0) (d1 := 0) (n := 2) (m := 2) (daily := ⟨[at00 0, at00 1], [("glob", [.fin 120, .nan])]⟩) .modern rfl (by omega)
    (v := fun i => if i = 0 then .fin 120 else .nan) rfl none (fun _ h => .fin h) (.scalar (.fin 0.25) (.fin 0.5)) (.scalar (.fin 0.75) (.fin 2.4)) none
  refine ⟨_, _, r1, r2, ?_⟩
  refine C101_radiation (f := ⟨[at00 0, at00 1], [("glob", [.fin 100, .nan])]⟩) (g := ⟨[at00 0, at00 1], [("glob", [.fin 120, .nan])]⟩) (d0 := 0)
    (n := 2) ?_ ?_ (by omega) rfl rfl (q := fun _ h => (h : ℝ)) (fun _ _ h _ => Nat.cast_nonneg h) ?_ r1 r2
  · intro c hc; simp at hc; subst hc; rfl
  · intro c hc; simp at hc; subst hc; rfl
  · exact ⟨_, _, rfl, rfl, .cons ⟨rfl, show (100 : ℝ) ≤ 120 by norm_num⟩ (.cons ⟨rfl, trivial⟩ .nil)⟩

/-- C101 (radiation from sunshine duration): a day with more sunshine -/
example : ∃ out out', disaggregateRadiation .modern ⟨[at00 0], [("ssd", [.fin 3])]⟩ (some (dailyS 0 1 fun _ => ⟨.fin 6, .fin 12, .fin 18, .fin 12⟩))
      (some (hourlyS 0 1 fun _ h => .fin h)) "pot_rad_via_ssd" (.scalar (.fin 0.25) (.fin 0.5)) (.scalar (.fin 0.75) (.fin 2.4)) none = .ok out ∧
    disaggregateRadiation .modern ⟨[at00 0], [("ssd", [.fin 8])]⟩ (some (dailyS 0 1 fun _ => ⟨.fin 6, .fin 12, .fin 18, .fin 12⟩))
      (some (hourlyS 0 1 fun _ h => .fin h)) "pot_rad_via_ssd" (.scalar (.fin 0.25) (.fin 0.5)) (.scalar (.fin 0.75) (.fin 2.4)) none = .ok out' ∧
    SeriesAtMost out out' := by
  refine C101_radiation_ssd (f := ⟨[at00 0], [("ssd", [.fin 3])]⟩) (g := ⟨[at00 0], [("ssd", [.fin 8])]⟩) (d0 := 0) (n := 1) (by omega) rfl rfl ?_ ?_ (l := fun _ => 12) (fun _ _ => rfl) (fun _ _ h _ => Nat.cast_nonneg h)
    (a := fun _ => 0.25) (b := fun _ => 0.5) (fun m _ _ => ⟨rfl, rfl⟩) (fun _ => by norm_num) ?_
  · intro c hc; simp at hc; subst hc; rfl
  · intro c hc; simp at hc; subst hc; rfl
  · exact ⟨_, _, rfl, rfl, .cons ⟨rfl, show (3 : ℝ) ≤ 8 by norm_num⟩ .nil⟩

/-- C101 (humidity): a higher minimum, with lower temperatures -/
example : ∃ out out', disaggregateHumidity .modern ⟨[at00 0, at00 1], [("tmin", [.fin 275, .fin 276])]⟩ "linear_dewpoint_variation"
      (some (hourlyS 0 2 fun _ h => .fin (280 + h))) (some 1) (some 0.9) (some 12) none false = .ok out ∧
    disaggregateHumidity .modern ⟨[at00 0, at00 1], [("tmin", [.fin 275, .fin 278])]⟩ "linear_dewpoint_variation"
      (some (hourlyS 0 2 fun _ h => .fin (279 + h))) (some 1) (some 0.9) (some 12) none false = .ok out' ∧ SeriesAtMost out out' := by
  have r1 := raw_linear .modern (⟨[at00 0, at00 1], [("tmin", [.fin 275, .fin 276])]⟩ : Frame ℝ) 1 0.9 12 (.inr rfl) none 0 2 (by omega)
    (fun i => if i = 0 then .fin 275 else .fin 276) (fun _ h => .fin (280 + h)) rfl
  have r2 := raw_linear .modern (⟨[at00 0, at00 1], [("tmin", [.fin 275, .fin 278])]⟩ : Frame ℝ) 1 0.9 12 (.inr rfl) none 0 2 (by omega)
    (fun i => if i = 0 then .fin 275 else .fin 278) (fun _ h => .fin (279 + h)) rfl
  refine ⟨_, _, (hum_finish r1).1, (hum_finish r2).1, ?_⟩
  refine C101_humidity_linear (f := ⟨[at00 0, at00 1], [("tmin", [.fin 275, .fin 276])]⟩) (g := ⟨[at00 0, at00 1], [("tmin", [.fin 275, .fin 278])]⟩)
    (d0 := 0) (n := 2) ?_ ?_ (by omega) rfl rfl (by norm_num) ?_ ?_ ?_ ?_ (hum_finish r1).1 (hum_finish r2).1
  · intro c hc; simp at hc; subst hc; rfl
  · intro c hc; simp at hc; subst hc; rfl
  · exact ⟨_, _, rfl, rfl, .cons ⟨rfl, le_refl (275 : ℝ)⟩ (.cons ⟨rfl, show (276 : ℝ) ≤ 278 by norm_num⟩ .nil)⟩
  · refine le_hourly fun i _ k _ => ?_
    show (279 + (k : ℝ)) ≤ 280 + k
    linarith
  · intro s hs r hr x hx
    cases hs
    simp at hr
    rcases hr with rfl | rfl <;> cases hx <;> norm_num
  · intro r hr x hx
    obtain ⟨j, _, rfl⟩ := List.mem_map.1 hr
    cases hx
    have : (0 : ℝ) ≤ ((j % 24 : Nat) : ℝ) := Nat.cast_nonneg _
    norm_num
    linarith

end

/-! ## precipitation -/

section precip
variable {K : Type} [Field K] [LinearOrder K] [IsStrictOrderedRing K]

/-- **C101** (precipitation, equal parts) -/
theorem C101_equal {s s' : Series (XF K)} {d0 : Int} {n : Nat} (hn : 0 < n) (cs : Covers s.index d0 n) (cs' : Covers s'.index d0 n) (h : SeriesAtMost s s')
    {api api' : PandasApi} {divide : Bool} {out out' : Series (XF K)}
    (ho : distributeEqually api s divide = .ok out) (ho' : distributeEqually api' s' divide = .ok out') : SeriesAtMost out out' := by
  obtain ⟨v, rfl⟩ := covers_series cs
  obtain ⟨v', rfl⟩ := covers_series cs'
  have hv := le_daily h
  cases divide with
  | false =>
    rw [distributeEqually_daily api d0 hn] at ho
    rw [distributeEqually_daily api' d0 hn] at ho'
    cases ho; cases ho'
    exact le_hourly fun i hi _ _ => hv i hi
  | true =>
    rw [distributeEqually_daily_divide api d0 hn] at ho
    rw [distributeEqually_daily_divide api' d0 hn] at ho'
    cases ho; cases ho'
    refine le_hourly fun i hi _ _ => ?_
    rcases atMost_iff.1 (hv i hi) with ⟨e1, e2⟩ | ⟨p, q, e1, e2, hpq⟩
    · rw [e1, e2, XF.nan_div]; trivial
    · have h24 : (24 : K) ≠ 0 := by norm_num
      rw [e1, e2, XF.fin_div_fin_of_ne _ h24, XF.fin_div_fin_of_ne _ h24]
      exact div_le_div_of_nonneg_right hpq (by norm_num)

/-- **C101** (precipitation, master station) With non-negative or missing values at the master station, larger daily precipitation gives larger hourly values. -/
theorem C101_master {s s' : Series (XF K)} {d0 : Int} {n : Nat} (hn : 0 < n) (cs : Covers s.index d0 n) (cs' : Covers s'.index d0 n) (h : SeriesAtMost s s')
    {api api' : PandasApi} {zerodiv : String} {m out out' : Series (XF K)} (hm : ∀ r ∈ m, r.2 = .nan ∨ ∃ x, r.2 = .fin x ∧ 0 ≤ x)
    (ho : precipMasterStation api s m zerodiv = .ok out) (ho' : precipMasterStation api' s' m zerodiv = .ok out') : SeriesAtMost out out' := by
  obtain ⟨v, rfl⟩ := covers_series cs
  obtain ⟨v', rfl⟩ := covers_series cs'
  have hv := le_daily h
  rw [master_run hn ho, master_run hn ho']
  refine le_hourly fun i hi k _ => ?_
  have hrows : ∀ r ∈ m.filter (fun q => dayOf q.1 == d0 + (i : Int)), r.2 = .nan ∨ ∃ x, r.2 = .fin x ∧ 0 ≤ x := fun r hr => hm r (List.mem_filter.1 hr).1
  generalize m.filter (fun q => dayOf q.1 == d0 + (i : Int)) = rows at *
  have htot : sumSkip (Series.values rows) = .fin (numbers (Series.values rows)).sum := by
    apply sumSkip_eq
    intro c hc
    obtain ⟨r, hr, rfl⟩ := List.mem_map.1 hc
    rcases hrows r hr with e | ⟨x, e, _⟩ <;> rw [e]
    · exact XF.nanOrFin_nan
    · exact XF.nanOrFin_fin x
  have htot0 : 0 ≤ (numbers (Series.values rows)).sum := by
    apply List.sum_nonneg
    intro x hx
    unfold numbers at hx
    obtain ⟨c, hc, hcx⟩ := List.mem_filterMap.1 hx
    obtain ⟨r, hr, rfl⟩ := List.mem_map.1 hc
    rcases hrows r hr with e | ⟨y, e, hy⟩
    · rw [e] at hcx; cases hcx
    · rw [e] at hcx; cases hcx; exact hy
  unfold masterCell
  dsimp only
  rw [htot]
  by_cases hc : ¬ XF.feq (XF.fin (numbers (Series.values rows)).sum) (.fin 0) ∧
      ¬ XF.feq (XF.fin (numbers (Series.values rows)).sum) (if (XF.fin (numbers (Series.values rows)).sum).isNan then .fin 1 else .fin 0)
  · rw [if_pos hc, if_pos hc]
    have hpos : 0 < (numbers (Series.values rows)).sum := by
      rcases htot0.eq_or_lt with e | e
      · exact absurd (by rw [← e]; simp [XF.feq]) hc.1
      · exact e
    generalize (numbers (Series.values rows)).sum = tot at *
    -- look up the same row
    have find : ∀ w : XF K, Series.at? (rows.map fun r => (r.1, r.2 / .fin tot * w)) (atHour (d0 + (i : Int)) k) =
        (rows.find? fun r => r.1 == atHour (d0 + (i : Int)) k).map fun r => r.2 / .fin tot * w := by
      intro w
      unfold Series.at?
      rw [List.find?_map, Option.map_map]
      rfl
    rw [find, find]
    cases hf : rows.find? fun r => r.1 == atHour (d0 + (i : Int)) k with
    | none => trivial
    | some r =>
      show AtMost (r.2 / .fin tot * v i) (r.2 / .fin tot * v' i)
      refine atMost_scale (hv i hi) ?_
      rcases hrows r (List.mem_of_find?_eq_some hf) with e | ⟨x, e, hx⟩
      · rw [e, XF.nan_div]; exact .inl rfl
      · rw [e, XF.fin_div_fin_of_ne _ hpos.ne']
        exact .inr ⟨_, rfl, div_nonneg hx hpos.le⟩
  · rw [if_neg hc, if_neg hc]
    by_cases hz : zerodiv = "uniform"
    · rw [if_pos hz, if_pos hz]
      exact atMost_scale (hv i hi) (.inr ⟨_, rfl, by positivity⟩)
    · rw [if_neg hz, if_neg hz]
      exact le_refl (0 : K)

end precip

/-- **C101** (cascade) Not so for the cascade: with the same random numbers, a day with 10 instead of 1 mm can get less in its first hour. -/
theorem C101_cascade_not_monotone :
    ∃ (rnd : Nat → ℚ) (v v' : Nat → XF ℚ) (out out' : CascadeOut ℚ), SeriesAtMost (dailyS 0 2 v) (dailyS 0 2 v') ∧
      disaggPrecCascade .modern rnd (dailyS 0 2 v) (.one (CascStats.fillSample .init)) = .ok out ∧
      disaggPrecCascade .modern rnd (dailyS 0 2 v') (.one (CascStats.fillSample .init)) = .ok out' ∧
      (dayCells out.series 0)[0]? = some (.fin 1) ∧ (dayCells out'.series 0)[0]? = some (.fin 0) := by
  have h : okAnd (disaggPrecCascade .modern (fun _ => (1 / 2 : ℚ)) (dailyS 0 2 fun i => if i = 0 then .fin 1 else .fin 0)
      (.one (CascStats.fillSample .init))) (fun o => okAnd (disaggPrecCascade .modern (fun _ => (1 / 2 : ℚ))
        (dailyS 0 2 fun i => if i = 0 then .fin 10 else .fin 0) (.one (CascStats.fillSample .init)))
          fun o' => decide ((dayCells o.series 0)[0]? = some (.fin 1) ∧ (dayCells o'.series 0)[0]? = some (.fin 0))) = true := by decide +kernel
  obtain ⟨o, ho, h⟩ := okAnd_iff.1 h
  obtain ⟨o', ho', h⟩ := okAnd_iff.1 h
  have h := of_decide_eq_true h
  refine ⟨fun _ => 1 / 2, fun i => if i = 0 then .fin 1 else .fin 0, fun i => if i = 0 then .fin 10 else .fin 0, o, o', ?_, ho, ho', h.1, h.2⟩
  exact .cons ⟨rfl, show (1 : ℚ) ≤ 10 by norm_num⟩ (.cons ⟨rfl, le_refl (0 : ℚ)⟩ .nil)

/-- C101 (precipitation): a wetter record, with the same master station -/
example : okAnd (precipMasterStation .legacy (dailyS 0 2 fun i => .fin (i + 3 : ℚ)) (hourlyS 0 2 fun i h => .fin (i + h : ℚ)) "uniform") (fun o =>
    okAnd (precipMasterStation .legacy (dailyS 0 2 fun i => .fin (i * i + 3 : ℚ)) (hourlyS 0 2 fun i h => .fin (i + h : ℚ)) "uniform") (fun o' =>
      decide (o.length = 48 ∧ o'.length = 48))) = true ∧
    SeriesAtMost (dailyS 0 2 fun i => .fin (i + 3 : ℚ)) (dailyS 0 2 fun i => .fin (i * i + 3 : ℚ)) ∧
    ∀ r ∈ hourlyS 0 2 (fun i h => XF.fin (i + h : ℚ)), r.2 = .nan ∨ ∃ x, r.2 = .fin x ∧ 0 ≤ x := by
  refine ⟨by decide +kernel, .cons ⟨rfl, ?_⟩ (.cons ⟨rfl, ?_⟩ .nil), ?_⟩
  · show (((0 : Nat) : ℚ) + 3) ≤ ((0 : Nat) : ℚ) * ((0 : Nat) : ℚ) + 3
    norm_num
  · show (((1 : Nat) : ℚ) + 3) ≤ ((1 : Nat) : ℚ) * ((1 : Nat) : ℚ) + 3
    norm_num
  · intro r hr
    obtain ⟨j, _, rfl⟩ := List.mem_map.1 hr
    exact .inr ⟨_, rfl, by positivity⟩

end Melodist
