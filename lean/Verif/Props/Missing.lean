import Verif.Props.Humidity
import Verif.Props.Wind
import Verif.Props.Vapor
import Verif.Props.RadiationModels
import Verif.Lemmas.RadiationFit

/-!
# C112: which hours of wind, humidity and radiation are missing

(Temperature: C50.  Precipitation: C18.)
-/

set_option linter.unusedSectionVars false

namespace Melodist
open Spec

/-! ## wind -/

/-- **C112 (wind).**  For every valid call (for 'random': draws in (0,1)) on daily values that are numbers or missing, an hour is missing exactly if the
value of its day is missing. -/
theorem C112_wind (api : PandasApi) (draw : Nat → ℝ) (hdraw : ∀ k, 0 < draw k ∧ draw k < 1) (d0 : Int) (n : Nat) (hn : 0 < n)
    (v : Nat → XF ℝ) (hv : ∀ i < n, (v i).NanOrFin) (method : String) (hm : method ∈ ["equal", "cosine", "random"]) (a b tShift : Option ℝ)
    (hpar : method = "cosine" → a.isSome ∧ b.isSome ∧ tShift.isSome) :
    ∃ r, disaggregateWind api draw (dailyS d0 n v) method a b tShift = .ok r ∧
      ∀ i < n, ∀ h < 24, ∃ c, r.values[24 * i + h]? = some c ∧ c.NanOrFin ∧ (c = .nan ↔ v i = .nan) := by
  have hget : ∀ (g : Nat → Nat → XF ℝ) (i : Nat), i < n → ∀ h, h < 24 → (Series.values (hourlyS d0 n g))[24 * i + h]? = some (g i h) := by
    intro g i hi h hh
    rw [hourlyS_values, List.getElem?_map, List.getElem?_range (by omega), Option.map_some]
    congr 2 <;> omega
  simp only [List.mem_cons, List.not_mem_nil, or_false] at hm
  rcases hm with rfl | rfl | rfl
  · refine ⟨_, C32_wind_equal api draw d0 n hn v a b tShift, ?_⟩
    intro i hi h hh
    exact ⟨_, hget _ i hi h hh, hv i hi, Iff.rfl⟩
  · obtain ⟨ha, hb, ht⟩ := hpar rfl
    obtain ⟨a, rfl⟩ := Option.isSome_iff_exists.1 ha
    obtain ⟨b, rfl⟩ := Option.isSome_iff_exists.1 hb
    obtain ⟨t, rfl⟩ := Option.isSome_iff_exists.1 ht
    obtain ⟨l, hl, hlen, hc⟩ := C33_course api draw d0 n hn v a b t
    obtain ⟨l', hl', _, hmean⟩ := C33_wind_cosine_mean api draw d0 n hn v a b t
    obtain rfl : l = l' := by rw [hl] at hl'; injection hl' with e; injection e
    refine ⟨_, hl, ?_⟩
    intro i hi h hh
    show ∃ c, l[24 * i + h]? = some c ∧ _
    cases hx : v i with
    | nan =>
      have hn' := (hmean i hi).2 hx
      have hg : l[24 * i + h]? = some l[24 * i + h] := List.getElem?_eq_getElem (by omega)
      refine ⟨_, hg, ?_⟩
      have hmem : l[24 * i + h] ∈ arrayDay l i := by
        unfold arrayDay
        apply List.mem_of_getElem? (i := h)
        rw [List.getElem?_take_of_lt hh, List.getElem?_drop, hg]
      have : l[24 * i + h] = .nan := hn' _ hmem
      rw [this]
      simp
    | fin m =>
      refine ⟨_, hc i hi m hx h hh, ?_⟩
      simp
    | pinf => have := hv i hi; rw [hx] at this; exact absurd this (by simp)
    | ninf => have := hv i hi; rw [hx] at this; exact absurd this (by simp)
  · obtain ⟨g, hg, hc⟩ := C34_wind_random api draw hdraw d0 n hn v a b tShift
    refine ⟨_, hg, ?_⟩
    intro i hi h hh
    refine ⟨_, hget _ i hi h hh, ?_⟩
    obtain ⟨h1, h2⟩ := hc i hi
    cases hx : v i with
    | nan => rw [h1 hx h hh]; simp
    | fin m =>
      obtain ⟨y, hy, _⟩ := (h2 m hx).1 h hh
      rw [hy]; simp
    | pinf => have := hv i hi; rw [hx] at this; exact absurd this (by simp)
    | ninf => have := hv i hi; rw [hx] at this; exact absurd this (by simp)

/-! ## humidity -/

theorem clip_nan_iff {x : XF ℝ} : x.clip 0 100 = .nan ↔ x = .nan := by
  cases x <;> simp [XF.clip]

theorem humBias_fin {g : Nat → XF ℝ} {v : XF ℝ} (hg : ∀ h < 24, (g h).NanOrFin) (hv : v.NanOrFin) : ∃ b, humBias g v = .fin b := by
  unfold humBias
  have h1 : (meanSkip (day24 g)).NanOrFin := by
    apply meanSkip_nanOrFin
    intro c hc
    unfold day24 at hc
    obtain ⟨k, hk, rfl⟩ := List.mem_map.1 hc
    exact hg k (List.mem_range.1 hk)
  generalize meanSkip (day24 g) = m at h1 ⊢
  cases m <;> cases v <;> simp_all [XF.isNan]

/-- an hour of the result is missing exactly if the uncorrected value is missing -/
theorem hum_missing {api : PandasApi} {daily : Frame ℝ} {method : String} {temp : Option (Series (XF ℝ))} {a0 a1 kr : Option ℝ}
    {table : Option (CatMeans ℝ)} {d0 : Int} {n : Nat} {g : Nat → Nat → XF ℝ} (hn : 0 < n)
    (h : humidityRaw api daily method temp a0 a1 kr table = .ok (hourlyS d0 n g)) (preserve : Bool)
    (hp : preserve = true → ∃ w, daily.col? "hum" = some (dailyS d0 n w) ∧ ∀ i < n, (w i).NanOrFin) :
    ∃ out, disaggregateHumidity api daily method temp a0 a1 kr table preserve = .ok out ∧
      ∀ i < n, (preserve = true → ∀ h < 24, (g i h).NanOrFin) → ∀ h < 24, ∃ c, (dayCells out (d0 + i))[h]? = some c ∧ (c = .nan ↔ g i h = .nan) := by
  obtain ⟨k1, k2⟩ := hum_finish h
  cases preserve with
  | false =>
    refine ⟨_, k1, ?_⟩
    intro i hi _ h hh
    rw [dayCells_hourlyS d0 _ hi, day24_getElem? _ hh]
    exact ⟨_, rfl, clip_nan_iff⟩
  | true =>
    obtain ⟨w, hw, hwf⟩ := hp rfl
    refine ⟨_, k2 hn w hw, ?_⟩
    intro i hi hg h hh
    rw [dayCells_hourlyS d0 _ hi, day24_getElem? _ hh]
    refine ⟨_, rfl, ?_⟩
    rw [clip_nan_iff]
    obtain ⟨b, hb⟩ := humBias_fin (hg rfl) (hwf i hi)
    rw [hb]
    cases g i h with
    | nan => simp
    | fin x => simp
    | pinf => exact ⟨fun e => (by cases e), fun e => (by cases e)⟩
    | ninf => exact ⟨fun e => (by cases e), fun e => (by cases e)⟩

theorem rhCell_nan_iff {td t : XF ℝ} (h1 : td = .nan ∨ ∃ x, td = .fin x ∧ 0.53 < x) (h2 : t = .nan ∨ ∃ x, t = .fin x ∧ 0.53 < x) :
    (rhCell td t).NanOrFin ∧ (rhCell td t = .nan ↔ td = .nan ∨ t = .nan) := by
  rcases h1 with rfl | ⟨x, rfl, hx⟩
  · unfold rhCell
    rw [C06_vapor_pressure.2.1, XF.mul_nan, XF.nan_div]
    simp
  · rcases h2 with rfl | ⟨y, rfl, hy⟩
    · unfold rhCell
      rw [C06_vapor_pressure.2.1, XF.div_nan]
      simp
    · unfold rhCell
      rw [C06_sonntag_formula x 100 hx, C06_sonntag_formula y 100 hy, XF.fin_mul_fin]
      have := satPressure_pos y
      rw [XF.fin_div_fin_of_ne _ (by positivity)]
      simp

/-- a temperature that is missing or a number within the range of the vapour pressure formula (above 0.53 K) -/
def TempOrMissing (x : XF ℝ) : Prop := x = .nan ∨ ∃ t, x = .fin t ∧ 0.53 < t

/-- the daily data have a humidity of numbers and missing values, needed by the option preserve_daily_mean -/
def HasHum (daily : Frame ℝ) (d0 : Int) (n : Nat) : Prop := ∃ w, daily.col? "hum" = some (dailyS d0 n w) ∧ ∀ i < n, (w i).NanOrFin

/-- **C112 (humidity: equal).**  With 'equal', an hour is missing exactly if the daily humidity is missing. -/
theorem C112_humidity_equal (api : PandasApi) (daily : Frame ℝ) (temp : Option (Series (XF ℝ))) (a0 a1 kr : Option ℝ)
    (table : Option (CatMeans ℝ)) (d0 : Int) (n : Nat) (hn : 0 < n) (v : Nat → XF ℝ)
    (hum : daily.col? "hum" = some (dailyS d0 n v)) (hv : ∀ i < n, (v i).NanOrFin) (preserve : Bool) :
    ∃ out, disaggregateHumidity api daily "equal" temp a0 a1 kr table preserve = .ok out ∧
      ∀ i < n, ∀ h < 24, ∃ c, (dayCells out (d0 + i))[h]? = some c ∧ (c = .nan ↔ v i = .nan) := by
  obtain ⟨out, ho, hc⟩ := hum_missing hn (raw_equal api daily temp a0 a1 kr table d0 n hn v hum) preserve fun _ => ⟨v, hum, hv⟩
  exact ⟨out, ho, fun i hi h hh => hc i hi (fun _ _ _ => hv i hi) h hh⟩

/-- **C112 (humidity: dew point methods).**  With 'minimal' and 'dewpoint_regression', an hour is missing exactly if the minimum temperature of the day or
the temperature of the hour is missing, with and without preserve_daily_mean. -/
theorem C112_humidity_dewpoint (api : PandasApi) (daily : Frame ℝ) (method : String) (a0 a1 : ℝ) (kr : Option ℝ)
    (hm : method = "dewpoint_regression" ∨ (method = "minimal" ∧ a0 = 0 ∧ a1 = 1)) (table : Option (CatMeans ℝ)) (d0 : Int) (n : Nat) (hn : 0 < n)
    (v : Nat → XF ℝ) (T : Nat → Nat → XF ℝ) (htmin : daily.col? "tmin" = some (dailyS d0 n v))
    (hv : ∀ i < n, v i = .nan ∨ ∃ m, v i = .fin m ∧ 0.53 < a0 + a1 * m) (hT : ∀ i < n, ∀ h < 24, TempOrMissing (T i h))
    (preserve : Bool) (hp : preserve = true → HasHum daily d0 n) :
    ∃ out, disaggregateHumidity api daily method (some (hourlyS d0 n T)) (some a0) (some a1) kr table preserve = .ok out ∧
      ∀ i < n, ∀ h < 24, ∃ c, (dayCells out (d0 + i))[h]? = some c ∧ (c = .nan ↔ v i = .nan ∨ T i h = .nan) := by
  have hraw : humidityRaw api daily method (some (hourlyS d0 n T)) (some a0) (some a1) kr table =
      .ok (hourlyS d0 n fun i h => rhCell (.fin a0 + .fin a1 * v i) (T i h)) := by
    rcases hm with rfl | ⟨rfl, rfl, rfl⟩
    · exact raw_regression api daily a0 a1 kr table d0 n hn v T htmin
    · exact raw_minimal api daily (some 0) (some 1) kr table d0 n hn v T htmin
  have key : ∀ i < n, ∀ h < 24, (rhCell (.fin a0 + .fin a1 * v i) (T i h)).NanOrFin ∧
      (rhCell (.fin a0 + .fin a1 * v i) (T i h) = .nan ↔ v i = .nan ∨ T i h = .nan) := by
    intro i hi h hh
    have e : (XF.fin a0 + XF.fin a1 * v i = .nan ↔ v i = .nan) ∧
        (XF.fin a0 + XF.fin a1 * v i = .nan ∨ ∃ x, XF.fin a0 + XF.fin a1 * v i = .fin x ∧ 0.53 < x) := by
      rcases hv i hi with hx | ⟨m, hx, hm⟩
      · rw [hx]; simp
      · rw [hx]; simpa using hm
    have := rhCell_nan_iff e.2 (hT i hi h hh)
    rw [e.1] at this
    exact this
  obtain ⟨out, ho, hc⟩ := hum_missing hn hraw preserve hp
  refine ⟨out, ho, ?_⟩
  intro i hi h hh
  obtain ⟨c, h1, h2⟩ := hc i hi (fun _ h hh => (key i hi h hh).1) h hh
  exact ⟨c, h1, h2.trans (key i hi h hh).2⟩

/-- **C112 (humidity: linear dew point).**  With 'linear_dewpoint_variation', an hour is missing exactly if the minimum temperature of the day, or that of the next
day (not for the last day), or the temperature of the hour is missing; a missing next day affects all 24 hours, also the first.  (All daily dew points above 1.03 K.) -/
theorem C112_humidity_linear (api : PandasApi) (daily : Frame ℝ) (a0 a1 kr : ℝ) (hkr : kr = 6 ∨ kr = 12) (table : Option (CatMeans ℝ))
    (d0 : Int) (n : Nat) (hn : 0 < n) (v : Nat → XF ℝ) (T : Nat → Nat → XF ℝ) (htmin : daily.col? "tmin" = some (dailyS d0 n v))
    (hv : ∀ i < n, v i = .nan ∨ ∃ m, v i = .fin m ∧ 1.03 < a0 + a1 * m) (hT : ∀ i < n, ∀ h < 24, TempOrMissing (T i h))
    (preserve : Bool) (hp : preserve = true → HasHum daily d0 n) :
    ∃ out, disaggregateHumidity api daily "linear_dewpoint_variation" (some (hourlyS d0 n T)) (some a0) (some a1) (some kr) table preserve = .ok out ∧
      ∀ i < n, ∀ h < 24, ∃ c, (dayCells out (d0 + i))[h]? = some c ∧
        (c = .nan ↔ v i = .nan ∨ (i + 1 < n ∧ v (i + 1) = .nan) ∨ T i h = .nan) := by
  have hraw := raw_linear api daily a0 a1 kr hkr table d0 n hn v T htmin
  have key : ∀ i < n, ∀ h < 24, (rhCell (linTdew kr n (fun i => .fin a0 + .fin a1 * v i) i h) (T i h)).NanOrFin ∧
      (rhCell (linTdew kr n (fun i => .fin a0 + .fin a1 * v i) i h) (T i h) = .nan ↔ v i = .nan ∨ (i + 1 < n ∧ v (i + 1) = .nan) ∨ T i h = .nan) := by
    intro i hi h hh
    have e : (linTdew kr n (fun i => .fin a0 + .fin a1 * v i) i h = .nan ↔ v i = .nan ∨ (i + 1 < n ∧ v (i + 1) = .nan)) ∧
        (linTdew kr n (fun i => .fin a0 + .fin a1 * v i) i h = .nan ∨ ∃ x, linTdew kr n (fun i => .fin a0 + .fin a1 * v i) i h = .fin x ∧ 0.53 < x) := by
      unfold linTdew tdewDelta
      dsimp only
      rcases hv i hi with hx | ⟨m, hx, hm⟩
      · rw [hx]; simp
      · rw [hx]
        have hs := (abs_le.1 (Real.abs_sin_le_one (((((h : Nat) : Int) : ℝ) + 1) * Real.pi / kr - 3 * Real.pi / 4))).1
        have hh' : (h : ℝ) / 24 ≤ 1 := by
          rw [div_le_one (by norm_num)]
          exact_mod_cast hh.le
        have hh0 : 0 ≤ (h : ℝ) / 24 := by positivity
        by_cases hl : i + 1 < n
        · rw [if_pos hl]
          rcases hv (i + 1) hl with hy | ⟨m', hy, hm'⟩
          · rw [hy]; simp [hl]
          · rw [hy]
            simp only [XF.fin_mul_fin, XF.fin_add_fin, XF.fin_sub_fin, XF.sin_fin, reduceCtorEq, and_false, or_self, false_or, XF.fin.injEq,
              exists_eq_left', true_and]
            have : 1.03 < a0 + a1 * m + (h : ℝ) / 24 * (a0 + a1 * m' - (a0 + a1 * m)) := by
              have hlt : (h : ℝ) / 24 < 1 := by
                rw [div_lt_one (by norm_num)]
                exact_mod_cast hh
              have := mul_pos (sub_pos.2 hlt) (sub_pos.2 hm)
              have := mul_nonneg hh0 (sub_pos.2 hm').le
              linarith
            nlinarith
        · rw [if_neg hl]
          simp only [XF.fin_mul_fin, XF.fin_add_fin, XF.fin_sub_fin, XF.sin_fin, reduceCtorEq, and_false, or_self, false_or, XF.fin.injEq,
              exists_eq_left', true_and, hl, false_and]
          nlinarith
    have := rhCell_nan_iff e.2 (hT i hi h hh)
    rw [e.1, or_assoc] at this
    exact this
  obtain ⟨out, ho, hc⟩ := hum_missing hn hraw preserve hp
  refine ⟨out, ho, ?_⟩
  intro i hi h hh
  obtain ⟨c, h1, h2⟩ := hc i hi (fun _ h hh => (key i hi h hh).1) h hh
  exact ⟨c, h1, h2.trans (key i hi h hh).2⟩

/-- **C112 (humidity: min_max).**  With 'min_max', on a day with tmin ≠ tmax, an hour is missing exactly if one of the daily hum_min, hum_max, tmin,
tmax or the temperature of the hour is missing.  On a day with tmin = tmax (and without preserve_daily_mean) an hour is also missing if its temperature is this
temperature or if hum_min = hum_max. -/
theorem C112_humidity_min_max (api : PandasApi) (daily : Frame ℝ) (a0 a1 kr : Option ℝ) (table : Option (CatMeans ℝ)) (d0 : Int) (n : Nat) (hn : 0 < n)
    (hmin hmax tmin tmax : Nat → XF ℝ) (T : Nat → Nat → XF ℝ)
    (c1 : daily.col? "hum_min" = some (dailyS d0 n hmin)) (c2 : daily.col? "hum_max" = some (dailyS d0 n hmax))
    (c3 : daily.col? "tmin" = some (dailyS d0 n tmin)) (c4 : daily.col? "tmax" = some (dailyS d0 n tmax))
    (hf : ∀ i < n, (hmin i).NanOrFin ∧ (hmax i).NanOrFin ∧ (tmin i).NanOrFin ∧ (tmax i).NanOrFin ∧ ∀ h < 24, (T i h).NanOrFin)
    (preserve : Bool) (hp : preserve = true → HasHum daily d0 n) :
    ∃ out, disaggregateHumidity api daily "min_max" (some (hourlyS d0 n T)) a0 a1 kr table preserve = .ok out ∧
      ∀ i < n, (tmin i = .nan ∨ tmin i ≠ tmax i → ∀ h < 24, ∃ c, (dayCells out (d0 + i))[h]? = some c ∧
          (c = .nan ↔ hmin i = .nan ∨ hmax i = .nan ∨ tmin i = .nan ∨ tmax i = .nan ∨ T i h = .nan)) ∧
        (tmin i = tmax i → preserve = false → ∀ h < 24, ∃ c, (dayCells out (d0 + i))[h]? = some c ∧
          (c = .nan ↔ hmin i = .nan ∨ hmax i = .nan ∨ tmin i = .nan ∨ T i h = .nan ∨ T i h = tmin i ∨ hmin i = hmax i)) := by
  have hraw := raw_minmax api daily a0 a1 kr table d0 n hn hmin hmax tmin tmax T c1 c2 c3 c4
  obtain ⟨out, ho, hc⟩ := hum_missing hn hraw preserve hp
  refine ⟨out, ho, ?_⟩
  intro i hi
  obtain ⟨f1, f2, f3, f4, f5⟩ := hf i hi
  constructor
  · intro hne
    have key : ∀ h < 24, (hmax i + (T i h - tmin i) / (tmax i - tmin i) * (hmin i - hmax i)).NanOrFin ∧
        (hmax i + (T i h - tmin i) / (tmax i - tmin i) * (hmin i - hmax i) = .nan ↔
          hmin i = .nan ∨ hmax i = .nan ∨ tmin i = .nan ∨ tmax i = .nan ∨ T i h = .nan) := by
      intro h hh
      have f5 := f5 h hh
      generalize T i h = t at f5 ⊢
      generalize hmin i = p at f1 ⊢
      generalize hmax i = q at f2 ⊢
      generalize tmin i = x at f3 hne ⊢
      generalize tmax i = y at f4 hne ⊢
      cases x with
      | nan => simp
      | pinf => simp at f3
      | ninf => simp at f3
      | fin x =>
        cases y with
        | nan => simp
        | pinf => simp at f4
        | ninf => simp at f4
        | fin y =>
          have hxy : y - x ≠ 0 := by
            intro e
            rcases hne with hne | hne
            · cases hne
            · exact hne (by rw [sub_eq_zero.1 e])
          cases t with
          | nan => simp
          | pinf => simp at f5
          | ninf => simp at f5
          | fin t =>
            rw [XF.fin_sub_fin, XF.fin_sub_fin, XF.fin_div_fin_of_ne _ hxy]
            cases p <;> cases q <;> simp_all
    intro h hh
    obtain ⟨c, h1, h2⟩ := hc i hi (fun _ h hh => (key h hh).1) h hh
    exact ⟨c, h1, h2.trans (key h hh).2⟩
  · intro he hpf h hh
    obtain ⟨c, h1, h2⟩ := hc i hi (fun e => by rw [hpf] at e; cases e) h hh
    refine ⟨c, h1, h2.trans ?_⟩
    have f5 := f5 h hh
    rw [← he]
    generalize T i h = t at f5 ⊢
    generalize hmin i = p at f1 ⊢
    generalize hmax i = q at f2 ⊢
    generalize tmin i = x at f3 ⊢
    cases x with
    | nan => simp
    | pinf => simp at f3
    | ninf => simp at f3
    | fin x =>
      cases t with
      | nan => simp
      | pinf => simp at f5
      | ninf => simp at f5
      | fin t =>
        rw [XF.fin_sub_fin, XF.fin_sub_fin, sub_self]
        cases p with
        | nan => simp
        | pinf => simp at f1
        | ninf => simp at f1
        | fin p =>
          cases q with
          | nan => simp
          | pinf => simp at f2
          | ninf => simp at f2
          | fin q =>
            simp only [reduceCtorEq, false_or, XF.fin.injEq, XF.fin_sub_fin]
            rw [XF.fin_div_fin, if_pos rfl]
            unfold XF.infOfSign
            rcases lt_trichotomy t x with h | h | h
            · rw [if_neg (by linarith), if_pos (by linarith)]
              rcases lt_trichotomy p q with k | k | k
              · have e : (XF.ninf * XF.fin (p - q) : XF ℝ) = .pinf := by
                  show XF.infOfSign (-(p - q)) = _
                  unfold XF.infOfSign; rw [if_pos (by linarith)]
                rw [e]
                exact ⟨fun e => (by cases e), fun e => by rcases e with e | e <;> linarith⟩
              · have e : (XF.ninf * XF.fin (p - q) : XF ℝ) = .nan := by
                  show XF.infOfSign (-(p - q)) = _
                  unfold XF.infOfSign; rw [if_neg (by linarith), if_neg (by linarith)]
                rw [e]
                simp [k]
              · have e : (XF.ninf * XF.fin (p - q) : XF ℝ) = .ninf := by
                  show XF.infOfSign (-(p - q)) = _
                  unfold XF.infOfSign; rw [if_neg (by linarith), if_pos (by linarith)]
                rw [e]
                exact ⟨fun e => (by cases e), fun e => by rcases e with e | e <;> linarith⟩
            · rw [if_neg (by linarith), if_neg (by linarith)]
              simp [h]
            · rw [if_pos (by linarith)]
              rcases lt_trichotomy p q with k | k | k
              · have e : (XF.pinf * XF.fin (p - q) : XF ℝ) = .ninf := by
                  show XF.infOfSign (p - q) = _
                  unfold XF.infOfSign; rw [if_neg (by linarith), if_pos (by linarith)]
                rw [e]
                exact ⟨fun e => (by cases e), fun e => by rcases e with e | e <;> linarith⟩
              · have e : (XF.pinf * XF.fin (p - q) : XF ℝ) = .nan := by
                  show XF.infOfSign (p - q) = _
                  unfold XF.infOfSign; rw [if_neg (by linarith), if_neg (by linarith)]
                rw [e]
                simp [k]
              · have e : (XF.pinf * XF.fin (p - q) : XF ℝ) = .pinf := by
                  show XF.infOfSign (p - q) = _
                  unfold XF.infOfSign; rw [if_pos (by linarith)]
                rw [e]
                exact ⟨fun e => (by cases e), fun e => by rcases e with e | e <;> linarith⟩

/-- **C112 (humidity: categories).**  With 'month_hour_precip_mean', an hour is missing exactly if the table entry of its category (month, hour, wet day) is missing;
whether other daily data of the day are missing does not matter (a day with missing precipitation counts as dry). -/
theorem C112_humidity_categorical (api : PandasApi) (daily : Frame ℝ) (temp : Option (Series (XF ℝ))) (a0 a1 kr : Option ℝ) (table : CatMeans ℝ)
    (d0 : Int) (n : Nat) (hn : 0 < n) (precip : Nat → XF ℝ) (hcol : daily.col? "precip" = some (dailyS d0 n precip))
    (hnod : (table.map Prod.fst).Nodup) (wet : Nat → Bool)
    (hwet : ∀ i < n, (precip i).NanOrFin ∧ (wet i = true ↔ ∃ x, precip i = .fin x ∧ 0 < x)) (entry : Nat → Nat → XF ℝ)
    (hentry : ∀ i < n, ∀ h < 24, ((monthOf (atHour (d0 + (i : Nat)) h), (h : Int), wet i), entry i h) ∈ table ∧ (entry i h).NanOrFin)
    (preserve : Bool) (hp : preserve = true → HasHum daily d0 n) :
    ∃ out, disaggregateHumidity api daily "month_hour_precip_mean" temp a0 a1 kr (some table) preserve = .ok out ∧
      ∀ i < n, ∀ h < 24, ∃ c, (dayCells out (d0 + i))[h]? = some c ∧ (c = .nan ↔ entry i h = .nan) := by
  have hkey : ∀ i < n, ∀ h, catKey d0 precip i h = (monthOf (atHour (d0 + (i : Nat)) h), (h : Int), wet i) := by
    intro i hi h
    unfold catKey
    congr 2
    obtain ⟨h1, h2⟩ := hwet i hi
    rw [Bool.eq_iff_iff, h2, decide_eq_true_iff]
    cases hx : precip i with
    | nan => simp
    | ninf => rw [hx] at h1; simp at h1
    | pinf => rw [hx] at h1; simp at h1
    | fin x => simp
  have hraw := raw_cat api daily temp a0 a1 kr table d0 n hn precip hcol entry (by
    intro i hi h hh
    rw [hkey i hi h]
    have hmem := (hentry i hi h hh).1
    cases hf : table.find? (fun r => r.1 == (monthOf (atHour (d0 + (i : Nat)) h), (h : Int), wet i)) with
    | none => exact absurd (List.find?_eq_none.1 hf _ hmem) (by simp)
    | some r =>
      have hk : r.1 = (monthOf (atHour (d0 + (i : Nat)) h), (h : Int), wet i) := by simpa using List.find?_some hf
      have : r = (_, entry i h) := List.inj_on_of_nodup_map hnod (List.mem_of_find?_eq_some hf) hmem hk
      exact ⟨r, rfl, by rw [this]⟩)
  obtain ⟨out, ho, hc⟩ := hum_missing hn hraw preserve hp
  exact ⟨out, ho, fun i hi h hh => hc i hi (fun _ h hh => (hentry i hi h hh).2) h hh⟩

/-! ## radiation -/

section
variable {d0 d1 : Int} {n m : Nat} {daily : Frame ℝ}

theorem radCell_nan_iff {p : Nat → XF ℝ} {g : XF ℝ} (hp : ∀ h < 24, p h = .nan ∨ ∃ x, 0 ≤ x ∧ p h = .fin x) (hg : g.NanOrFin) {h : Nat} (hh : h < 24) :
    radCell (p h) (meanSkip (day24 p)) g = .nan ↔ g = .nan ∨ p h = .nan ∨ ∀ k < 24, p k = .nan ∨ p k = .fin 0 := by
  have hcell : radCell (p h) (meanSkip (day24 p)) g = .nan ↔ p h / meanSkip (day24 p) * g = .nan := by
    unfold radCell
    split
    · rename_i hlt
      constructor
      · intro e; cases e
      · intro e; rw [e] at hlt; exact absurd hlt (by simp)
    · exact Iff.rfl
  rw [hcell]
  rcases hp h hh with hx | ⟨x, hx0, hx⟩
  · rw [hx]; simp
  · have hmem : ∀ k < 24, p k ∈ day24 p := fun k hk => List.mem_map.2 ⟨k, List.mem_range.2 hk, rfl⟩
    have hall : ∀ c ∈ day24 p, c = .nan ∨ ∃ x, 0 ≤ x ∧ c = .fin x := by
      intro c hc
      obtain ⟨k, hk, rfl⟩ := List.mem_map.1 hc
      exact hp k (List.mem_range.1 hk)
    obtain ⟨y, hy, hpos, hzero⟩ := mean_nonneg_cases hall (x := x) (by rw [← hx]; exact hmem h hh)
    rw [hy, hx]
    by_cases h0 : y = 0
    · obtain rfl := hzero h0
      subst h0
      rw [XF.zero_div_zero, XF.nan_mul]
      simp only [reduceCtorEq, false_or, true_iff]
      right
      intro k hk
      rcases hp k hk with hz | ⟨z, _, hz⟩
      · exact .inl hz
      · obtain ⟨y', hy', _, hz'⟩ := mean_nonneg_cases hall (x := z) (by rw [← hz]; exact hmem k hk)
        rw [hy] at hy'
        injection hy' with e
        exact .inr (by rw [hz, hz' e.symm])
    · rw [XF.fin_div_fin_of_ne _ h0]
      have hno : ¬ ∀ k < 24, p k = .nan ∨ p k = .fin 0 := by
        intro hz
        apply h0
        have hs : meanSkip (day24 p) = .fin 0 := by
          have hnf : ∀ c ∈ day24 p, c.NanOrFin := by
            intro c hc
            rcases hall c hc with rfl | ⟨x, _, rfl⟩ <;> trivial
          have hne : numbers (day24 p) ≠ [] := List.ne_nil_of_mem (List.mem_filterMap.2 ⟨_, hmem h hh, by rw [hx]⟩)
          rw [meanSkip_eq hnf hne]
          have : (numbers (day24 p)).sum = 0 := by
            apply List.sum_eq_zero
            intro y hy
            obtain ⟨c, hc, e⟩ := List.mem_filterMap.1 hy
            obtain ⟨k, hk, rfl⟩ := List.mem_map.1 hc
            rcases hz k (List.mem_range.1 hk) with hz | hz
            · rw [hz] at e; cases e
            · rw [hz] at e; cases e; rfl
          rw [this, zero_div]
        rw [hy] at hs
        injection hs
      cases g with
      | nan => simp
      | fin g => simp only [XF.fin_mul_fin, reduceCtorEq, false_or, false_iff]; exact hno
      | pinf => simp at hg
      | ninf => simp at hg

/-- **C112 (radiation: pot_rad).**  With 'pot_rad', on every common day (potential of non-negative numbers and missing values), an hour is missing exactly if
the daily value is missing, or the potential of the hour is missing, or no hour of the day has a positive potential. -/
theorem C112_radiation (api : PandasApi) (hi : daily.index = (List.range n).map fun i : Nat => at00 (d0 + i)) (hn : 0 < n) (v : Nat → XF ℝ)
    (hg : daily.col? "glob" = some (dailyS d0 n v)) (hv : ∀ i < n, (v i).NanOrFin) (sun : Option (Series SunTimes)) (p : Nat → Nat → XF ℝ)
    (hp : ∀ j < m, ∀ h < 24, p j h = .nan ∨ ∃ x, 0 ≤ x ∧ p j h = .fin x) (angstr bristcamp : ParPair ℝ) (course : Option (MeanCourse ℝ)) :
    ∃ out, disaggregateRadiation api daily sun (some (hourlyS d1 m p)) "pot_rad" angstr bristcamp course = .ok out ∧
      ∀ i < n, ∀ j < m, d0 + (i : Int) = d1 + (j : Int) → ∀ h < 24, ∃ c, (dayCells out (d0 + i))[h]? = some c ∧
        (c = .nan ↔ v i = .nan ∨ p j h = .nan ∨ ¬ ∃ k < 24, ∃ x, 0 < x ∧ p j k = .fin x) := by
  refine ⟨_, potRad_eq api hi hn hg sun p angstr bristcamp course, ?_⟩
  intro i hi' j hj hij h hh
  rw [hij, dayCells_hourlyS d1 _ hj, ← hij, lastValue_self hi', day24_getElem? _ hh]
  refine ⟨_, rfl, ?_⟩
  rw [radCell_nan_iff (hp j hj) (hv i hi') hh]
  have : (∀ k < 24, p j k = .nan ∨ p j k = .fin 0) ↔ ¬ ∃ k < 24, ∃ x, 0 < x ∧ p j k = .fin x := by
    constructor
    · rintro hz ⟨k, hk, x, hx, e⟩
      rcases hz k hk with h | h
      · rw [h] at e; cases e
      · rw [h] at e; injection e with e; linarith
    · intro hz k hk
      rcases hp j hj k hk with h | ⟨x, hx, e⟩
      · exact .inl h
      · rcases hx.lt_or_eq with hx | hx
        · exact absurd ⟨k, hk, x, hx, e⟩ hz
        · exact .inr (by rw [e, ← hx])
  rw [this]

theorem sum_zero_iff {q : Nat → ℝ} (hq : ∀ h < 24, 0 ≤ q h) : (∀ k < 24, q k = 0) ↔ ¬ ∃ k < 24, 0 < q k := by
  constructor
  · rintro hz ⟨k, hk, h⟩
    have := hz k hk
    linarith
  · intro hz k hk
    rcases (hq k hk).lt_or_eq with h | h
    · exact absurd ⟨k, hk, h⟩ hz
    · exact h.symm

theorem radCell_real_nan_iff {p : Nat → XF ℝ} {q : Nat → ℝ} {g : XF ℝ} (hp : ∀ h < 24, p h = .fin (q h)) (hq : ∀ h < 24, 0 ≤ q h) (hg : g.NanOrFin) {h : Nat} (hh : h < 24) :
    radCell (p h) (meanSkip (day24 p)) g = .nan ↔ g = .nan ∨ ¬ ∃ k < 24, 0 < q k := by
  rw [radCell_nan_iff (fun h hh => .inr ⟨_, hq h hh, hp h hh⟩) hg hh, ← sum_zero_iff hq, hp h hh]
  simp only [reduceCtorEq, false_or]
  apply or_congr_right
  apply forall_congr'
  intro k
  apply forall_congr'
  intro hk
  rw [hp k hk]
  simp

/-- **C112 (radiation: mean_course).**  The same for a mean course: an hour is missing exactly if the daily value is missing or the course of the month has no positive value. -/
theorem C112_radiation_course (api : PandasApi) (hi : daily.index = (List.range n).map fun i : Nat => at00 (d0 + i)) (hn : 0 < n) (v : Nat → XF ℝ)
    (hg : daily.col? "glob" = some (dailyS d0 n v)) (hv : ∀ i < n, (v i).NanOrFin) (sun : Option (Series SunTimes)) (pot : Option (Series (XF ℝ)))
    (angstr bristcamp : ParPair ℝ) (c : MeanCourse ℝ) (hc : ∀ i : Nat, i < n → monthOf (at00 (d0 + i)) ∈ c.months) (hh : ∀ h : Nat, h < 24 → (h : Int) ∈ c.hours)
    (q : Nat → Nat → ℝ) (hq : ∀ i < n, ∀ h < 24, c.val (monthOf (at00 (d0 + (i : Nat)))) (h : Nat) = .fin (q i h) ∧ 0 ≤ q i h) :
    ∃ out, disaggregateRadiation api daily sun pot "mean_course" angstr bristcamp (some c) = .ok out ∧
      ∀ i < n, ∀ h < 24, ∃ x, (dayCells out (d0 + i))[h]? = some x ∧ (x = .nan ↔ v i = .nan ∨ ¬ ∃ k < 24, 0 < q i k) := by
  refine ⟨_, meanCourseRad_eq api hi hn hg sun pot angstr bristcamp hc hh, ?_⟩
  intro i hi' h hh'
  rw [dayCells_hourlyS d0 _ hi', day24_getElem? _ hh']
  exact ⟨_, rfl, radCell_real_nan_iff (p := fun h : Nat => c.val (monthOf (at00 (d0 + (i : Nat)))) h) (fun h hh => (hq i hi' h hh).1)
    (fun h hh => (hq i hi' h hh).2) (hv i hi') hh'⟩

/-- **C112 (radiation: sunshine duration).**  With 'pot_rad_via_ssd' (sun times for the days of the data, potential of non-negative numbers covering them), an hour is missing
exactly if the sunshine duration of a day with positive day length is missing, or no hour of the day has a positive potential. -/
theorem C112_radiation_ssd (api : PandasApi) (hi : daily.index = (List.range n).map fun i : Nat => at00 (d0 + i)) (hn : 0 < n)
    (s : Nat → XF ℝ) (hs : daily.col? "ssd" = some (dailyS d0 n s)) (hsf : ∀ i < n, (s i).NanOrFin) (st : Nat → SunTimes) (l : Nat → ℝ)
    (hl : ∀ i < n, (st i).daylength = .fin (l i)) (p : Nat → Nat → XF ℝ) (h1 : d1 ≤ d0) (h2 : d0 + n ≤ d1 + m)
    (q : Nat → Nat → ℝ) (hq : ∀ i < n, ∀ h < 24, p (d0 + i - d1).toNat h = .fin (q i h) ∧ 0 ≤ q i h)
    (par bristcamp : ParPair ℝ) (course : Option (MeanCourse ℝ)) (a b : Int → ℝ)
    (h : ∀ i : Nat, i < n → ParAt par (monthOf (at00 (d0 + i))) (.fin (a (monthOf (at00 (d0 + i))))) (.fin (b (monthOf (at00 (d0 + i)))))) :
    ∃ out, disaggregateRadiation api daily (some (dailyS d0 n st)) (some (hourlyS d1 m p)) "pot_rad_via_ssd" par bristcamp course = .ok out ∧
      ∀ i < n, ∀ h < 24, ∃ x, (dayCells out (d0 + i))[h]? = some x ∧ (x = .nan ↔ (0 < l i ∧ s i = .nan) ∨ ¬ ∃ k < 24, 0 < q i k) := by
  have hr : disaggregateRadiation api daily (some (dailyS d0 n st)) (some (hourlyS d1 m p)) "pot_rad_via_ssd" par bristcamp course =
      .ok (hourlyS d1 m fun j h => radCell (p j h) (meanSkip (day24 (p j))) (lastValue d0 n (fun i =>
        if XF.lt (.fin 0) (st i).daylength then
          (.fin (a (monthOf (at00 (d0 + (i : Nat))))) + .fin (b (monthOf (at00 (d0 + (i : Nat))))) * s i / (st i).daylength) *
            meanSkip (day24 (p (d0 + (i : Nat) - d1).toNat))
        else .fin 0) (d1 + j))) := by
    unfold disaggregateRadiation
    rw [if_neg (by simp), temp_hourly_index api hi hn, py_ok_bind, if_neg (by decide)]
    dsimp only
    rw [if_neg (by decide), if_pos rfl, resampleD_hourlyS,
      ssdDaily_eq hi hs st _ h1 h2 (a := fun m => .fin (a m)) (b := fun m => .fin (b m)) h, py_ok_bind, radiationCore_eq d0 hn]
  refine ⟨_, hr, ?_⟩
  intro i hi' k hk
  have e : d0 + (i : Int) = d1 + ((d0 + i - d1).toNat : Int) := by omega
  have hm : meanSkip (day24 (p (d0 + i - d1).toNat)) = .fin ((day24 (q i)).sum / 24) := meanSkip_day24 fun h hh => (hq i hi' h hh).1
  rw [e, dayCells_hourlyS d1 _ (by omega), ← e, lastValue_self hi', day24_getElem? _ hk]
  refine ⟨_, rfl, ?_⟩
  have hest : ((if XF.lt (.fin 0) (st i).daylength then
          (.fin (a (monthOf (at00 (d0 + (i : Nat))))) + .fin (b (monthOf (at00 (d0 + (i : Nat))))) * s i / (st i).daylength) *
            meanSkip (day24 (p (d0 + (i : Nat) - d1).toNat))
        else .fin 0) : XF ℝ).NanOrFin ∧ (((if XF.lt (.fin 0) (st i).daylength then
          (.fin (a (monthOf (at00 (d0 + (i : Nat))))) + .fin (b (monthOf (at00 (d0 + (i : Nat))))) * s i / (st i).daylength) *
            meanSkip (day24 (p (d0 + (i : Nat) - d1).toNat))
        else .fin 0) : XF ℝ) = .nan ↔ 0 < l i ∧ s i = .nan) := by
    rw [hl i hi', hm]
    by_cases hpos : 0 < l i
    · rw [if_pos (by simpa using hpos)]
      have hf := hsf i hi'
      cases hx : s i with
      | nan => simp [hpos]
      | fin x => rw [XF.fin_mul_fin, XF.fin_div_fin_of_ne _ hpos.ne']; simp
      | pinf => rw [hx] at hf; simp at hf
      | ninf => rw [hx] at hf; simp at hf
    · rw [if_neg (by simpa using hpos)]
      simp [hpos]
  rw [radCell_real_nan_iff (fun h hh => (hq i hi' h hh).1) (fun h hh => (hq i hi' h hh).2) hest.1 hk, hest.2]

/-- **C112 (radiation: Bristow-Campbell).**  With 'pot_rad_via_bc' (exponents C > 0 that are no integers), an hour is missing exactly if tmin or tmax of the day or tmin of the
next day (not for the last day) is missing, or the temperature range tmax - (tmin + next tmin)/2 is negative, or no hour of the day has a positive potential. -/
theorem C112_radiation_bc (api : PandasApi) (hi : daily.index = (List.range n).map fun i : Nat => at00 (d0 + i)) (hn : 0 < n)
    (tmin tmax : Nat → XF ℝ) (hmin : daily.col? "tmin" = some (dailyS d0 n tmin)) (hmax : daily.col? "tmax" = some (dailyS d0 n tmax))
    (sun : Option (Series SunTimes)) (p : Nat → Nat → XF ℝ) (h1 : d1 ≤ d0) (h2 : d0 + n ≤ d1 + m)
    (q : Nat → Nat → ℝ) (hq : ∀ i < n, ∀ h < 24, p (d0 + i - d1).toNat h = .fin (q i h) ∧ 0 ≤ q i h)
    (angstr par : ParPair ℝ) (course : Option (MeanCourse ℝ)) (a c : Int → ℝ)
    (h : ∀ i : Nat, i < n → ParAt par (monthOf (at00 (d0 + i))) (.fin (a (monthOf (at00 (d0 + i))))) (.fin (c (monthOf (at00 (d0 + i))))))
    (hc : ∀ m, 0 < c m ∧ ¬ ∃ k : Int, c m = k) (hf1 : ∀ i < n, (tmin i).NanOrFin) (hf2 : ∀ i < n, (tmax i).NanOrFin) :
    ∃ out, disaggregateRadiation api daily sun (some (hourlyS d1 m p)) "pot_rad_via_bc" angstr par course = .ok out ∧
      ∀ i < n, ∀ h < 24, ∃ x, (dayCells out (d0 + i))[h]? = some x ∧
        (x = .nan ↔ tmin i = .nan ∨ tmax i = .nan ∨ (i + 1 < n ∧ tmin (i + 1) = .nan) ∨
          (∃ u v w : ℝ, tmax i = .fin u ∧ tmin i = .fin v ∧ (if i + 1 < n then tmin (i + 1) else tmin i) = .fin w ∧ u - (v + w) / 2 < 0) ∨
          ¬ ∃ k < 24, 0 < q i k) := by
  obtain ⟨est, ho, hv, hnan⟩ := bc_value (m := m) (d1 := d1) hn tmin tmax (fun j => meanSkip (day24 (p j))) h1 h2 h
  have hr : disaggregateRadiation api daily sun (some (hourlyS d1 m p)) "pot_rad_via_bc" angstr par course =
      .ok (hourlyS d1 m fun j h => radCell (p j h) (meanSkip (day24 (p j))) (lastValue d0 n est (d1 + j))) := by
    unfold disaggregateRadiation
    rw [if_neg (by simp), temp_hourly_index api hi hn, py_ok_bind, if_neg (by decide)]
    dsimp only
    rw [if_neg (by decide), if_neg (by decide), attr_ok hmin, py_ok_bind, attr_ok hmax, py_ok_bind, resampleD_hourlyS, ho, py_ok_bind,
      radiationCore_eq d0 hn]
  refine ⟨_, hr, ?_⟩
  intro i hi' k hk
  have e : d0 + (i : Int) = d1 + ((d0 + i - d1).toNat : Int) := by omega
  have hm : meanSkip (day24 (p (d0 + i - d1).toNat)) = .fin ((day24 (q i)).sum / 24) := meanSkip_day24 fun h hh => (hq i hi' h hh).1
  rw [e, dayCells_hourlyS d1 _ (by omega), ← e, lastValue_self hi', day24_getElem? _ hk]
  refine ⟨_, rfl, ?_⟩
  have hest : (est i).NanOrFin ∧ (est i = .nan ↔ tmin i = .nan ∨ tmax i = .nan ∨ (i + 1 < n ∧ tmin (i + 1) = .nan) ∨
          (∃ u v w : ℝ, tmax i = .fin u ∧ tmin i = .fin v ∧ (if i + 1 < n then tmin (i + 1) else tmin i) = .fin w ∧ u - (v + w) / 2 < 0)) := by
    have hnext : (nextMin n tmin i).NanOrFin := by
      unfold nextMin
      split
      · rename_i hl; exact hf1 _ hl
      · exact hf1 i hi'
    have hb := hnan i hi' (hc _).1.ne'
    have g1 := hf1 i hi'
    have g2 := hf2 i hi'
    by_cases hr : bcRange n tmin tmax i = .nan
    · rw [hb hr]
      simp only [XF.nanOrFin_nan, true_and, true_iff]
      unfold bcRange at hr
      cases hx : tmin i with
      | nan => simp
      | pinf => rw [hx] at g1; simp at g1
      | ninf => rw [hx] at g1; simp at g1
      | fin x =>
        cases hy : tmax i with
        | nan => simp
        | pinf => rw [hy] at g2; simp at g2
        | ninf => rw [hy] at g2; simp at g2
        | fin y =>
          right; right; left
          rw [hx, hy] at hr
          unfold nextMin at hr hnext
          split at hr
          · rename_i hl
            refine ⟨hl, ?_⟩
            rw [if_pos hl] at hnext
            cases hz : tmin (i + 1) with
            | nan => rfl
            | fin z =>
              rw [hz, XF.fin_add_fin, XF.fin_div_fin_of_ne _ (by norm_num), XF.fin_sub_fin] at hr
              cases hr
            | pinf => rw [hz] at hnext; simp at hnext
            | ninf => rw [hz] at hnext; simp at hnext
          · rw [hx, XF.fin_add_fin, XF.fin_div_fin_of_ne _ (by norm_num), XF.fin_sub_fin] at hr
            cases hr
    · have hx : ∃ x, tmin i = .fin x := by
        cases hx : tmin i with
        | nan => exfalso; apply hr; unfold bcRange; rw [hx]; simp
        | fin x => exact ⟨x, rfl⟩
        | pinf => rw [hx] at g1; simp at g1
        | ninf => rw [hx] at g1; simp at g1
      have hy : ∃ x, tmax i = .fin x := by
        cases hx : tmax i with
        | nan => exfalso; apply hr; unfold bcRange; rw [hx]; simp
        | fin x => exact ⟨x, rfl⟩
        | pinf => rw [hx] at g2; simp at g2
        | ninf => rw [hx] at g2; simp at g2
      have hz : ∃ x, nextMin n tmin i = .fin x := by
        cases hx : nextMin n tmin i with
        | nan => exfalso; apply hr; unfold bcRange; rw [hx]; simp
        | fin x => exact ⟨x, rfl⟩
        | pinf => rw [hx] at hnext; simp at hnext
        | ninf => rw [hx] at hnext; simp at hnext
      obtain ⟨x, hx⟩ := hx
      obtain ⟨y, hy⟩ := hy
      obtain ⟨z, hz⟩ := hz
      have hrange := bcRange_fin hx hy hz
      obtain ⟨μ, hμ⟩ := bcMean_fin (d0 := d0) hf1 hf2 hi' hrange
      obtain ⟨k1, k2, k3⟩ := hv i hi' _ _ μ hrange hm hμ (hc _).1
      have hno : ¬ (i + 1 < n ∧ tmin (i + 1) = .nan) := by
        rintro ⟨hl, e⟩
        unfold nextMin at hz
        rw [if_pos hl, e] at hz
        cases hz
      have hz' : (if i + 1 < n then tmin (i + 1) else tmin i) = .fin z := hz
      rw [hx] at hz' ⊢
      rw [hy, hz']
      simp only [reduceCtorEq, false_or, XF.fin.injEq, exists_and_left, exists_eq_left', hno]
      rcases lt_trichotomy (y - (x + z) / 2) 0 with h | h | h
      · rw [k3 h (hc _).2]
        simpa using h
      · rw [k2 h]
        simp [h]
      · rw [k1 h]
        simp only [XF.nanOrFin_fin, reduceCtorEq, true_and, false_iff]
        linarith
  rw [radCell_real_nan_iff (fun h hh => (hq i hi' h hh).1) (fun h hh => (hq i hi' h hh).2) hest.1 hk, hest.2]
  simp only [or_assoc]

end

/-! ## concrete cases -/

/-- C112: cosine wind on two days, the second missing: hour 5 of the first day is a number, hour 5 of the second is missing -/
example : ∃ r, disaggregateWind .modern (fun _ => 1 / 2) (dailyS 0 2 fun i => if i = 1 then .nan else .fin 3) "cosine" (some 0.2) (some 1) (some 14) = .ok r ∧
    (∃ c, r.values[5]? = some c ∧ c ≠ .nan) ∧ r.values[29]? = some .nan := by
  obtain ⟨r, h1, h2⟩ := C112_wind .modern (fun _ => 1 / 2) (fun _ => by norm_num) 0 2 (by omega) (fun i => if i = 1 then .nan else .fin 3)
    (by intro i _; split <;> simp) "cosine" (by simp) (some 0.2) (some 1) (some 14) (fun _ => ⟨rfl, rfl, rfl⟩)
  refine ⟨r, h1, ?_, ?_⟩
  · obtain ⟨c, k1, _, k2⟩ := h2 0 (by omega) 5 (by omega)
    exact ⟨c, k1, fun e => by simpa using k2.1 e⟩
  · obtain ⟨c, k1, _, k2⟩ := h2 1 (by omega) 5 (by omega)
    rw [k2.2 rfl] at k1
    exact k1

/-- C112: three days, tmin of the second missing: with 'linear_dewpoint_variation' the hours of the first day are missing as well (also midnight), those of the third are not -/
example : ∃ out, disaggregateHumidity .modern ⟨[at00 0, at00 1, at00 2], [("tmin", [.fin 280, .nan, .fin 282])]⟩ "linear_dewpoint_variation"
    (some (hourlyS 0 3 fun _ _ => .fin 290)) (some 0) (some 1) (some 12) none = .ok out ∧
    (dayCells out 0)[0]? = some .nan ∧ (dayCells out 1)[7]? = some .nan ∧ ∃ c, (dayCells out 2)[7]? = some c ∧ c ≠ .nan := by
  have h : (⟨[at00 0, at00 1, at00 2], [("tmin", [.fin 280, .nan, .fin 282])]⟩ : Frame ℝ).col? "tmin" =
      some (dailyS 0 3 fun i => if i = 0 then .fin 280 else if i = 1 then .nan else .fin 282) := rfl
  obtain ⟨out, h1, h2⟩ := C112_humidity_linear .modern _ 0 1 12 (.inr rfl) none 0 3 (by omega) _ (fun _ _ => .fin 290) h
    (by
      intro i _
      by_cases h0 : i = 0
      · exact .inr ⟨280, by simp [h0], by norm_num⟩
      · by_cases h1 : i = 1
        · exact .inl (by simp [h1])
        · exact .inr ⟨282, by simp [h0, h1], by norm_num⟩)
    (fun _ _ _ _ => .inr ⟨290, rfl, by norm_num⟩) false (fun e => by cases e)
  refine ⟨out, h1, ?_, ?_, ?_⟩
  · obtain ⟨c, k1, k2⟩ := h2 0 (by omega) 0 (by omega)
    rw [k2.2 (.inr (.inl ⟨by omega, rfl⟩))] at k1
    exact k1
  · obtain ⟨c, k1, k2⟩ := h2 1 (by omega) 7 (by omega)
    rw [k2.2 (.inl rfl)] at k1
    exact k1
  · obtain ⟨c, k1, k2⟩ := h2 2 (by omega) 7 (by omega)
    exact ⟨c, k1, fun e => by simpa using k2.1 e⟩

/-- C112: 'min_max' on a day with tmin = tmax = 280 K: at 280 K the humidity is missing, at 281 K it is not -/
example : ∃ out, disaggregateHumidity .modern ⟨[at00 0], [("hum_min", [.fin 40]), ("hum_max", [.fin 80]), ("tmin", [.fin 280]), ("tmax", [.fin 280])]⟩ "min_max"
    (some (hourlyS 0 1 fun _ h => if h = 3 then .fin 280 else .fin 281)) = .ok out ∧
    (dayCells out 0)[3]? = some .nan ∧ ∃ c, (dayCells out 0)[4]? = some c ∧ c ≠ .nan := by
  obtain ⟨out, h1, h2⟩ := C112_humidity_min_max .modern
    ⟨[at00 0], [("hum_min", [.fin 40]), ("hum_max", [.fin 80]), ("tmin", [.fin 280]), ("tmax", [.fin 280])]⟩ none none none none 0 1 (by omega)
    (fun _ => .fin 40) (fun _ => .fin 80) (fun _ => .fin 280) (fun _ => .fin 280) (fun _ h => if h = 3 then .fin 280 else .fin 281) rfl rfl rfl rfl
    (by
      intro i _
      refine ⟨trivial, trivial, trivial, trivial, ?_⟩
      intro h _
      split <;> trivial) false (fun e => by cases e)
  refine ⟨out, h1, ?_, ?_⟩
  · obtain ⟨c, k1, k2⟩ := (h2 0 (by omega)).2 rfl rfl 3 (by omega)
    rw [k2.2 (by simp)] at k1
    exact k1
  · obtain ⟨c, k1, k2⟩ := (h2 0 (by omega)).2 rfl rfl 4 (by omega)
    refine ⟨c, k1, fun e => ?_⟩
    rw [if_neg (by omega)] at k2
    have := k2.1 e
    simp only [reduceCtorEq, XF.fin.injEq, false_or] at this
    rcases this with h | h <;> norm_num at h

/-- C112: 'pot_rad' with the daily value of the second day missing -/
example : ∃ out, disaggregateRadiation .modern ⟨[at00 0, at00 1], [("glob", [.fin 100, .nan])]⟩ none (some (hourlyS 0 2 exPot)) "pot_rad" = .ok out ∧
    (∃ c, (dayCells out 0)[3]? = some c ∧ c ≠ .nan) ∧ (dayCells out 1)[12]? = some .nan := by
  have hp : ∀ j < 2, ∀ h < 24, exPot j h = .nan ∨ ∃ x, 0 ≤ x ∧ exPot j h = .fin x := fun j _ h hh => .inr ⟨_, exPot_nonneg h hh, exPot_fin j h hh⟩
  obtain ⟨out, h1, h2⟩ := C112_radiation (daily := ⟨[at00 0, at00 1], [("glob", [.fin 100, .nan])]⟩) (d0 := 0) (d1 := 0) (n := 2) (m := 2) .modern rfl (by omega)
    (fun i => if i = 0 then .fin 100 else .nan) rfl (by intro i _; split <;> trivial) none exPot hp
    (.scalar (.fin 0.25) (.fin 0.5)) (.scalar (.fin 0.75) (.fin 2.4)) none
  refine ⟨out, h1, ?_, ?_⟩
  · obtain ⟨c, k1, k2⟩ := h2 0 (by omega) 0 (by omega) rfl 3 (by omega)
    refine ⟨c, k1, fun e => ?_⟩
    rcases k2.1 e with h | h | h
    · cases h
    · cases h
    · exact h ⟨12, by omega, 239, by norm_num, rfl⟩
  · obtain ⟨c, k1, k2⟩ := h2 1 (by omega) 1 (by omega) rfl 12 (by omega)
    rw [k2.2 (.inl rfl)] at k1
    exact k1

end Melodist
