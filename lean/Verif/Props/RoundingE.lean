import Verif.Lemmas.LinErr
import Verif.Lemmas.Temperature
import Verif.Props.RoundingD
import Verif.Props.Humidity

/-!
# C117: humidity in floating-point arithmetic
-/

set_option linter.unusedSectionVars false

namespace Melodist
open Spec

noncomputable section

/-! ## exact operations -/

theorem XF.rnd_id' (c : XF ℝ) : c.rnd id = c := by cases c <;> rfl

theorem expCell_exact (c : XF ℝ) : FloatHum.exact.expCell c = XF.exp c := by cases c <;> rfl

theorem vaporR_exact (t h : XF ℝ) : vaporPressureCellR .exact t h = vaporPressureCell t h := by
  unfold vaporPressureCellR vaporPressureCell magnusR
  simp only [expCell_exact]
  simp only [FloatHum.exact, XF.rnd_id', id]

theorem vaporScalarR_exact (l : List (XF ℝ)) (h : XF ℝ) : vaporPressureScalar l h = .ok (vaporPressureScalarR .exact l h) := by
  unfold vaporPressureScalar vaporPressure vaporPressureScalarR
  rw [if_pos (by simp)]
  congr 1
  rw [List.zipWith_map_right, List.zipWith_self]
  simp only [vaporR_exact]

theorem linearR_exact (kr : ℝ) (a b : Series (XF ℝ)) : linearDewpointR .exact kr a b = linearDewpoint kr a b := by
  unfold linearDewpointR linearDewpoint tdewDeltaR tdewDelta
  simp only [FloatHum.exact, XF.rnd_id', id, XF.sin_fin, XF.fin_mul_fin]

/-- **C117 (refinement).**  Without rounding, and with the exact functions, π and mean, these are the functions of the model of the code. -/
theorem C117_exact (api : PandasApi) (daily : Frame ℝ) (method : String) (temp : Option (Series (XF ℝ))) (a0 a1 kr : Option ℝ) (table : Option (CatMeans ℝ))
    (preserve : Bool) :
    disaggregateHumidityR .exact meanSkip api daily method temp a0 a1 kr table preserve = disaggregateHumidity api daily method temp a0 a1 kr table preserve := by
  unfold disaggregateHumidityR disaggregateHumidity humidityRawR humidityRaw humidityDewpointR humidityDewpoint humidityMinMaxR humidityMinMax
    preserveDailyMeanR preserveDailyMean
  simp only [linearR_exact, vaporScalarR_exact, py_ok_bind]
  simp only [FloatHum.exact, XF.rnd_id']
  rfl

/-- **C117 (range).**  Whatever the arithmetic, the functions and the mean of the platform: every value of a returned series is missing or a number within [0, 100]. -/
theorem C117_range (F : FloatHum) (mean : List (XF ℝ) → XF ℝ) (api : PandasApi) (daily : Frame ℝ) (method : String) (temp : Option (Series (XF ℝ)))
    (a0 a1 kr : Option ℝ) (table : Option (CatMeans ℝ)) (preserve : Bool) (out : Series (XF ℝ))
    (h : disaggregateHumidityR F mean api daily method temp a0 a1 kr table preserve = .ok out) :
    ∀ r ∈ out, r.2 = .nan ∨ ∃ x, r.2 = .fin x ∧ 0 ≤ x ∧ x ≤ 100 := by
  unfold disaggregateHumidityR at h
  obtain ⟨s, _, h⟩ := py_bind_inv h
  have hex : ∃ s : Series (XF ℝ), out = s.map fun r => (r.1, r.2.clip 0 100) := by
    cases preserve with
    | false => cases h; exact ⟨_, rfl⟩
    | true =>
      obtain ⟨s', _, h⟩ := py_bind_inv h
      cases h
      exact ⟨_, rfl⟩
  obtain ⟨s, rfl⟩ := hex
  intro r hr
  obtain ⟨q, _, rfl⟩ := List.mem_map.1 hr
  obtain ⟨t, x⟩ := q
  cases x with
  | nan => exact .inl rfl
  | ninf => exact .inr ⟨0, rfl, le_refl _, by norm_num⟩
  | pinf => exact .inr ⟨100, rfl, by norm_num, le_refl _⟩
  | fin x => exact .inr ⟨_, rfl, by simp, by simp⟩

/-! ## the dew point methods -/

/-- relative humidity (unclipped) as computed -/
def rhCellR (F : FloatHum) (td t : XF ℝ) : XF ℝ :=
  ((.fin 100 * vaporPressureCellR F td (.fin 100)).rnd F.fl / vaporPressureCellR F t (.fin 100)).rnd F.fl

theorem raw_regressionR (F : FloatHum) (api : PandasApi) (daily : Frame ℝ) (a0 a1 : ℝ) (kr : Option ℝ)
    (table : Option (CatMeans ℝ)) (d0 : Int) (n : Nat) (hn : 0 < n) (v : Nat → XF ℝ) (T : Nat → Nat → XF ℝ)
    (hv : daily.col? "tmin" = some (dailyS d0 n v)) :
    humidityRawR F api daily "dewpoint_regression" (some (hourlyS d0 n T)) (some a0) (some a1) kr table =
      .ok (hourlyS d0 n fun i h => rhCellR F ((.fin a0 + (.fin a1 * v i).rnd F.fl).rnd F.fl) (T i h)) := by
  unfold humidityRawR humidityDewpointR
  simp only [true_or, or_true, not_true, if_false, if_true, reduceCtorEq, String.reduceEq]
  rw [attr_ok hv, py_ok_bind, dailyS_map d0 n v fun x : XF ℝ => (.fin a0 + (.fin a1 * x).rnd F.fl).rnd F.fl, distributeEqually_daily api d0 hn, py_ok_bind, py_ok_bind,
    py_ok_bind]
  unfold vaporPressureScalarR
  rw [if_neg (by simp [Series.values]), hourlyS_values, hourlyS_values, List.map_map, List.map_map, List.zipWith_map, List.zipWith_self]
  rw [← make_hourly_range d0 n T fun i h => rhCellR F ((.fin a0 + (.fin a1 * v i).rnd F.fl).rnd F.fl) (T i h)]
  unfold rhCellR
  simp only [Function.comp_def]

/-- 'minimal' is 'dewpoint_regression' with a0 = 0 and a1 = 1 in rounded arithmetic as well -/
theorem minimalR (F : FloatHum) (mean : List (XF ℝ) → XF ℝ) (api : PandasApi) (daily : Frame ℝ) (temp : Option (Series (XF ℝ))) (a0 a1 kr : Option ℝ)
    (table : Option (CatMeans ℝ)) (preserve : Bool) :
    disaggregateHumidityR F mean api daily "minimal" temp a0 a1 kr table preserve =
      disaggregateHumidityR F mean api daily "dewpoint_regression" temp (some 0) (some 1) kr table preserve := by
  unfold disaggregateHumidityR humidityRawR humidityDewpointR
  simp only [true_or, or_true, not_true, if_false, if_true, reduceCtorEq, String.reduceEq]

theorem hum_finishR {F : FloatHum} {mean : List (XF ℝ) → XF ℝ} {api : PandasApi} {daily : Frame ℝ} {method : String} {temp : Option (Series (XF ℝ))}
    {a0 a1 kr : Option ℝ} {table : Option (CatMeans ℝ)} {d0 : Int} {n : Nat} {g : Nat → Nat → XF ℝ}
    (h : humidityRawR F api daily method temp a0 a1 kr table = .ok (hourlyS d0 n g)) :
    disaggregateHumidityR F mean api daily method temp a0 a1 kr table false = .ok (hourlyS d0 n fun i h => (g i h).clip 0 100) := by
  unfold disaggregateHumidityR
  rw [h, py_ok_bind]
  show Except.ok _ = _
  rw [hourlyS_map d0 n _ fun x : XF ℝ => x.clip 0 100]

theorem clip_lin {ρ ρ' κ : ℝ} (h0 : 0 ≤ ρ) (hκ : 0 ≤ κ) (h : |ρ' - ρ| ≤ κ * ρ) :
    |min (max ρ' 0) 100 - min (max ρ 0) 100| ≤ κ * min (max ρ 0) 100 := by
  obtain ⟨h1, h2⟩ := abs_le.1 h
  rw [max_eq_left h0]
  rcases le_total ρ 100 with c | c
  · rw [min_eq_left c, abs_le]
    constructor
    · have : ρ - κ * ρ ≤ min (max ρ' 0) 100 := le_min ((by linarith : _ ≤ ρ').trans (le_max_left _ _)) (by nlinarith)
      linarith
    · have : min (max ρ' 0) 100 ≤ max ρ' 0 := min_le_left _ _
      have : max ρ' 0 ≤ ρ + κ * ρ := max_le (by linarith) (by positivity)
      linarith
  · rw [min_eq_right c, abs_le]
    constructor
    · have : 100 - κ * 100 ≤ min (max ρ' 0) 100 := by
        refine le_min ?_ (by linarith)
        rcases le_total κ 1 with k | k
        · exact (by nlinarith : _ ≤ ρ').trans (le_max_left _ _)
        · exact (by linarith : _ ≤ (0 : ℝ)).trans (le_max_right _ _)
      linarith
    · have : min (max ρ' 0) 100 ≤ 100 := min_le_right _ _
      linarith

theorem rh_err {R : Rounding ℝ} {s e s' e' η : ℝ} (hs : 0 < s) (he : 0 < e) (hη : η ≤ 1 / 500) (hu : R.u ≤ 1 / 1000000) (h1 : |s' - s| ≤ η * s)
    (h2 : |e' - e| ≤ η * e) : |R.fl (R.fl (100 * s') / e') - 100 * s / e| ≤ (2.01 * η + 2.1 * R.u) * (100 * s / e) ∧ 0 < e' := by
  have hu0 := R.u_nonneg
  have hη0 : 0 ≤ η := by
    by_contra hc
    have := mul_neg_of_neg_of_pos (not_le.1 hc) hs
    linarith [abs_nonneg (s' - s)]
  have a : |100 * s' - 100 * s| ≤ η * (100 * s) := by
    rw [← mul_sub, abs_mul, abs_of_pos (by norm_num)]
    linarith
  have b := rel_mul (by positivity : 0 < 100 * s) a hη0 (by linarith) hu0 (R.err (100 * s'))
  have he' : (1 - 1 / 500) * e ≤ e' := by
    have := (abs_le.1 h2).1
    nlinarith
  have he0 : 0 < e' := by nlinarith
  refine ⟨?_, he0⟩
  set N := 100 * s with hN
  set M := R.fl (100 * s') with hM
  have hNp : 0 < N := by positivity
  have c : |M / e' - N / e| ≤ (1.0021 * (2 * η + 1.01 * R.u)) * (N / e) := by
    have e1 : M / e' - N / e = ((M - N) - N / e * (e' - e)) / e' := by field_simp; ring
    rw [e1, abs_div, abs_of_pos he0, div_le_iff₀ he0]
    have t := abs_sub (M - N) (N / e * (e' - e))
    have t2 : |N / e * (e' - e)| ≤ N / e * (η * e) := by
      rw [abs_mul, abs_of_pos (by positivity)]
      exact mul_le_mul_of_nonneg_left h2 (by positivity)
    have t3 : N / e * (η * e) = η * N := by field_simp
    have t4 : (2 * η + 1.01 * R.u) * N ≤ 1.0021 * (2 * η + 1.01 * R.u) * (N / e) * e' := by
      have : N = N / e * e := by field_simp
      have hq : 0 < N / e := by positivity
      have h3 : e ≤ 1.0021 * e' := by linarith
      calc (2 * η + 1.01 * R.u) * N = (2 * η + 1.01 * R.u) * (N / e) * e := by rw [mul_assoc, ← this]
        _ ≤ (2 * η + 1.01 * R.u) * (N / e) * (1.0021 * e') := mul_le_mul_of_nonneg_left h3 (by positivity)
        _ = _ := by ring
    linarith
  have d := rel_mul (by positivity : 0 < N / e) c (by positivity) (by linarith) hu0 (R.err (M / e'))
  refine d.trans (mul_le_mul_of_nonneg_right (by linarith) (by positivity))

/-- **C117 (dew point methods).**  'dewpoint_regression' in floating-point arithmetic with unit roundoff `u ≤ 10⁻⁶`, a function `np.exp` with relative error at most `ε ≤ 10⁻³`, on
a day with minimum temperature `m` and an hour at temperature `t`, with `t` and the dew point between -40 and 50 °C: the dew point `td` differs from `a0 + a1·m` by two
roundings, and the value differs from the humidity for `td` and `t` by at most the fraction `290 u + 3 ε` of it. -/
theorem C117_dewpoint (R : Rounding ℝ) (hu : R.u ≤ 1 / 1000000) (expF : ℝ → ℝ) (ε : ℝ) (hε : ε ≤ 1 / 1000) (hexp : ∀ x, |expF x - Real.exp x| ≤ ε * Real.exp x)
    (sinF : ℝ → ℝ) (pi : ℝ) (mean : List (XF ℝ) → XF ℝ) (api : PandasApi) (daily : Frame ℝ) (a0 a1 : ℝ) (kr : Option ℝ) (table : Option (CatMeans ℝ))
    (d0 : Int) (n : Nat) (hn : 0 < n) (tmin : Nat → XF ℝ) (T : Nat → Nat → XF ℝ) (htmin : daily.col? "tmin" = some (dailyS d0 n tmin)) :
    ∃ out, disaggregateHumidityR ⟨R.fl, expF, sinF, pi⟩ mean api daily "dewpoint_regression" (some (hourlyS d0 n T)) (some a0) (some a1) kr table = .ok out ∧
      ∀ i < n, ∀ m, tmin i = .fin m → ∃ td, |td - (a0 + a1 * m)| ≤ ((1 + R.u) ^ 2 - 1) * (|a0| + |a1 * m|) ∧
        (233.15 ≤ td → td ≤ 323.15 → ∀ h < 24, ∀ t, T i h = .fin t → 233.15 ≤ t → t ≤ 323.15 →
          ∃ x, (dayCells out (d0 + i))[(h : Nat)]? = some (.fin x) ∧ |x - relHum td t| ≤ (290 * R.u + 3 * ε) * relHum td t) := by
  refine ⟨_, hum_finishR (raw_regressionR _ api daily a0 a1 kr table d0 n hn tmin T htmin), ?_⟩
  intro i hi m hm
  refine ⟨R.fl (a0 + R.fl (a1 * m)), ?_, ?_⟩
  · have p := (Acc.self R (a1 * m)).round
    exact ((((Acc.self R a0).mono (Nat.zero_le 1) (le_refl _)).add p).round).1
  intro q1 q2 h hh t ht g1 g2
  set td := R.fl (a0 + R.fl (a1 * m)) with htd
  have hε0 : 0 ≤ ε := by
    have := (abs_nonneg _).trans (hexp 0)
    rwa [Real.exp_zero, mul_one] at this
  have s1 := satR_err hu hexp hε q1 q2
  have s2 := satR_err hu hexp hε g1 g2
  have p1 := satPressure_pos td
  have p2 := satPressure_pos t
  obtain ⟨e, he0⟩ := rh_err (R := R) p1 p2 (by linarith) hu s1 s2
  refine ⟨min (max (R.fl (R.fl (100 * satR R expF td) / satR R expF t)) 0) 100, ?_, ?_⟩
  · rw [dayCells_hourlyS d0 _ hi, day24_getElem? _ hh, hm, ht]
    simp only [XF.fin_mul_fin, XF.rnd, XF.fin_add_fin]
    rw [← htd]
    unfold rhCellR
    rw [vaporR_eq R expF sinF pi (denom_ne hu q1 q2), vaporR_eq R expF sinF pi (denom_ne hu g1 g2), XF.fin_mul_fin]
    simp only [XF.rnd]
    rw [XF.fin_div_fin_of_ne _ he0.ne']
    rfl
  · have hρ : 0 < 100 * satPressure td / satPressure t := by positivity
    have hu0 := R.u_nonneg
    exact clip_lin hρ.le (by positivity) (e.trans (mul_le_mul_of_nonneg_right (by linarith) hρ.le))

/-- **C117 (minimal).**  'minimal' in the same arithmetic, for a minimum temperature `m` that is a floating-point number: the dew point is exactly `m`, so every hour differs by at most
the fraction `290 u + 3 ε` from the value of C38. -/
theorem C117_minimal (R : Rounding ℝ) (hu : R.u ≤ 1 / 1000000) (expF : ℝ → ℝ) (ε : ℝ) (hε : ε ≤ 1 / 1000) (hexp : ∀ x, |expF x - Real.exp x| ≤ ε * Real.exp x)
    (sinF : ℝ → ℝ) (pi : ℝ) (mean : List (XF ℝ) → XF ℝ) (api : PandasApi) (daily : Frame ℝ) (a0 a1 kr : Option ℝ) (table : Option (CatMeans ℝ))
    (d0 : Int) (n : Nat) (hn : 0 < n) (tmin : Nat → XF ℝ) (T : Nat → Nat → XF ℝ) (htmin : daily.col? "tmin" = some (dailyS d0 n tmin)) :
    ∃ out, disaggregateHumidityR ⟨R.fl, expF, sinF, pi⟩ mean api daily "minimal" (some (hourlyS d0 n T)) a0 a1 kr table = .ok out ∧
      ∀ i < n, ∀ m, tmin i = .fin m → R.fl m = m → 233.15 ≤ m → m ≤ 323.15 → ∀ h < 24, ∀ t, T i h = .fin t → 233.15 ≤ t → t ≤ 323.15 →
        ∃ x, (dayCells out (d0 + i))[(h : Nat)]? = some (.fin x) ∧ |x - relHum m t| ≤ (290 * R.u + 3 * ε) * relHum m t := by
  rw [minimalR]
  have h := hum_finishR (mean := mean) (raw_regressionR ⟨R.fl, expF, sinF, pi⟩ api daily 0 1 kr table d0 n hn tmin T htmin)
  refine ⟨_, h, ?_⟩
  intro i hi m hm hfl m1 m2 h hh t ht g1 g2
  have hε0 : 0 ≤ ε := by
    have := (abs_nonneg _).trans (hexp 0)
    rwa [Real.exp_zero, mul_one] at this
  have s1 := satR_err hu hexp hε m1 m2
  have s2 := satR_err hu hexp hε g1 g2
  have p1 := satPressure_pos m
  have p2 := satPressure_pos t
  obtain ⟨e, he0⟩ := rh_err (R := R) p1 p2 (by linarith) hu s1 s2
  refine ⟨min (max (R.fl (R.fl (100 * satR R expF m) / satR R expF t)) 0) 100, ?_, ?_⟩
  · rw [dayCells_hourlyS d0 _ hi, day24_getElem? _ hh, hm, ht]
    simp only [XF.fin_mul_fin, XF.rnd, XF.fin_add_fin, one_mul, zero_add, hfl]
    unfold rhCellR
    rw [vaporR_eq R expF sinF pi (denom_ne hu m1 m2), vaporR_eq R expF sinF pi (denom_ne hu g1 g2), XF.fin_mul_fin]
    simp only [XF.rnd]
    rw [XF.fin_div_fin_of_ne _ he0.ne']
    rfl
  · have hρ : 0 < 100 * satPressure m / satPressure t := by positivity
    have hu0 := R.u_nonneg
    exact clip_lin hρ.le (by positivity) (e.trans (mul_le_mul_of_nonneg_right (by linarith) hρ.le))

/-- **C117 (saturated hour).**  'minimal': whatever function with positive values `np.exp` is, an hour at exactly the minimum temperature (between -40 and 50 °C) has at least
(1 - u)²·100 %. -/
theorem C117_saturated (R : Rounding ℝ) (hu : R.u ≤ 1 / 1000000) (expF : ℝ → ℝ) (hexp : ∀ x, 0 < expF x) (sinF : ℝ → ℝ) (pi : ℝ) (mean : List (XF ℝ) → XF ℝ)
    (api : PandasApi) (daily : Frame ℝ) (a0 a1 kr : Option ℝ) (table : Option (CatMeans ℝ)) (d0 : Int) (n : Nat) (hn : 0 < n) (tmin : Nat → XF ℝ)
    (T : Nat → Nat → XF ℝ) (htmin : daily.col? "tmin" = some (dailyS d0 n tmin)) :
    ∃ out, disaggregateHumidityR ⟨R.fl, expF, sinF, pi⟩ mean api daily "minimal" (some (hourlyS d0 n T)) a0 a1 kr table = .ok out ∧
      ∀ i < n, ∀ m, tmin i = .fin m → R.fl m = m → 233.15 ≤ m → m ≤ 323.15 → ∀ h < 24, T i h = .fin m →
        ∃ x, (dayCells out (d0 + i))[(h : Nat)]? = some (.fin x) ∧ (1 - R.u) ^ 2 * 100 ≤ x ∧ x ≤ 100 := by
  rw [minimalR]
  have h := hum_finishR (mean := mean) (raw_regressionR ⟨R.fl, expF, sinF, pi⟩ api daily 0 1 kr table d0 n hn tmin T htmin)
  refine ⟨_, h, ?_⟩
  intro i hi m hm hfl m1 m2 h hh ht
  have pos : ∀ x, 0 < x → 0 < R.fl x := fun x hx => lt_of_lt_of_le (mul_pos (by linarith [R.u_lt_one]) hx) (R.fl_bounds hx.le).1
  have hs : 0 < satR R expF m := by
    unfold satR
    refine pos _ (div_pos (pos _ (mul_pos (pos _ (mul_pos (pos _ (by norm_num)) (hexp _))) (by norm_num))) (by norm_num))
  refine ⟨min (max (R.fl (R.fl (100 * satR R expF m) / satR R expF m)) 0) 100, ?_, ?_, min_le_right _ _⟩
  · rw [dayCells_hourlyS d0 _ hi, day24_getElem? _ hh, hm, ht]
    simp only [XF.fin_mul_fin, XF.rnd, XF.fin_add_fin, one_mul, zero_add, hfl]
    unfold rhCellR
    rw [vaporR_eq R expF sinF pi (denom_ne hu m1 m2), XF.fin_mul_fin]
    simp only [XF.rnd]
    rw [XF.fin_div_fin_of_ne _ hs.ne']
    rfl
  · have b1 := (R.fl_bounds (x := 100 * satR R expF m) (by positivity)).1
    have c : (1 - R.u) * 100 ≤ R.fl (100 * satR R expF m) / satR R expF m := by
      rw [le_div_iff₀ hs]
      linarith
    have d0 : 0 ≤ R.fl (100 * satR R expF m) / satR R expF m := le_trans (by nlinarith [R.lo_nonneg]) c
    have b2 := (R.fl_bounds d0).1
    have e : (1 - R.u) ^ 2 * 100 ≤ R.fl (R.fl (100 * satR R expF m) / satR R expF m) := by
      refine le_trans ?_ b2
      have := mul_le_mul_of_nonneg_left c R.lo_nonneg
      nlinarith
    refine le_min (e.trans (le_max_left _ _)) ?_
    have : (1 - R.u) ^ 2 ≤ 1 := pow_le_one₀ R.lo_nonneg R.lo_le_one
    linarith

/-! ## 'min_max' -/

theorem raw_minmaxR (F : FloatHum) (api : PandasApi) (daily : Frame ℝ) (a0 a1 kr : Option ℝ)
    (table : Option (CatMeans ℝ)) (d0 : Int) (n : Nat) (hn : 0 < n) (hmin hmax tmin tmax : Nat → XF ℝ) (T : Nat → Nat → XF ℝ)
    (h1 : daily.col? "hum_min" = some (dailyS d0 n hmin)) (h2 : daily.col? "hum_max" = some (dailyS d0 n hmax))
    (h3 : daily.col? "tmin" = some (dailyS d0 n tmin)) (h4 : daily.col? "tmax" = some (dailyS d0 n tmax)) :
    humidityRawR F api daily "min_max" (some (hourlyS d0 n T)) a0 a1 kr table =
      .ok (hourlyS d0 n fun i h => (hmax i + ((((T i h - tmin i).rnd F.fl / (tmax i - tmin i).rnd F.fl).rnd F.fl) * (hmin i - hmax i).rnd F.fl).rnd F.fl).rnd F.fl) := by
  unfold humidityRawR humidityMinMaxR
  simp only [true_or, or_true, not_true, if_false, if_true, reduceCtorEq, String.reduceEq, has_of_col? h1, has_of_col? h2, Bool.and_self,
    Bool.not_true, Bool.false_eq_true, or_self]
  rw [attr_ok h1, attr_ok h2, attr_ok h3, attr_ok h4]
  simp only [py_ok_bind, distributeEqually_daily api d0 hn, align_hourly]

/-- a value of 'min_max' as computed -/
def minMaxR (R : Rounding ℝ) (lo hi t0 t1 t : ℝ) : ℝ := R.fl (hi + R.fl (R.fl (R.fl (t - t0) / R.fl (t1 - t0)) * R.fl (lo - hi)))

theorem minMaxR_anti (R : Rounding ℝ) {lo hi t0 t1 t t' : ℝ} (h01 : t0 < t1) (hl : lo ≤ hi) (ht : t ≤ t') : minMaxR R lo hi t0 t1 t' ≤ minMaxR R lo hi t0 t1 t := by
  unfold minMaxR
  have hd : 0 < R.fl (t1 - t0) := lt_of_lt_of_le (mul_pos (by linarith [R.u_lt_one]) (by linarith : 0 < t1 - t0)) (R.fl_bounds (by linarith)).1
  have hc : R.fl (lo - hi) ≤ 0 := by
    have := R.mono (lo - hi) 0 (by linarith)
    rwa [R.fl_zero] at this
  refine R.mono _ _ (add_le_add (le_refl _) (R.mono _ _ ?_))
  exact mul_le_mul_of_nonpos_right (R.mono _ _ (div_le_div_of_nonneg_right (R.mono _ _ (by linarith)) hd.le)) hc

theorem minMaxR_tmin (R : Rounding ℝ) {lo hi t0 t1 : ℝ} (hf : R.fl hi = hi) : minMaxR R lo hi t0 t1 t0 = hi := by
  unfold minMaxR
  rw [sub_self, R.fl_zero, zero_div, R.fl_zero, zero_mul, R.fl_zero, add_zero, hf]

theorem minMaxR_tmax (R : Rounding ℝ) (h1 : R.fl 1 = 1) {lo hi t0 t1 : ℝ} (h01 : t0 < t1) : minMaxR R lo hi t0 t1 t1 = R.fl (hi + R.fl (lo - hi)) := by
  unfold minMaxR
  have hd : 0 < R.fl (t1 - t0) := lt_of_lt_of_le (mul_pos (by linarith [R.u_lt_one]) (by linarith : 0 < t1 - t0)) (R.fl_bounds (by linarith)).1
  rw [div_self hd.ne', h1, one_mul, R.idem]

theorem minMaxR_err {R : Rounding ℝ} (hu : R.u ≤ 1 / 1000000) {lo hi t0 t1 t : ℝ} (h01 : t0 < t1) (hl0 : 0 ≤ lo) (hl : lo ≤ hi) (ht0 : t0 ≤ t) (ht1 : t ≤ t1) :
    |minMaxR R lo hi t0 t1 t - (hi + (t - t0) / (t1 - t0) * (lo - hi))| ≤ 7 * R.u * hi := by
  have hu0 := R.u_nonneg
  have hd : 0 < t1 - t0 := by linarith
  unfold minMaxR
  set r := (t - t0) / (t1 - t0) with hr
  have hr0 : 0 ≤ r := div_nonneg (by linarith) hd.le
  have hr1 : r ≤ 1 := (div_le_one hd).2 (by linarith)
  -- the quotient
  have q : |R.fl (R.fl (t - t0) / R.fl (t1 - t0)) - r| ≤ 3.1 * R.u := by
    have a := R.err (t - t0)
    have b := R.err (t1 - t0)
    rw [abs_of_nonneg (by linarith : 0 ≤ t - t0)] at a
    rw [abs_of_nonneg hd.le] at b
    obtain ⟨b1, b2⟩ := abs_le.1 b
    have hb0 : (1 - 1 / 1000000) * (t1 - t0) ≤ R.fl (t1 - t0) := by nlinarith
    have hb : 0 < R.fl (t1 - t0) := by nlinarith
    have e1 : R.fl (t - t0) / R.fl (t1 - t0) - r = ((R.fl (t - t0) - (t - t0)) - r * (R.fl (t1 - t0) - (t1 - t0))) / R.fl (t1 - t0) := by
      rw [hr]; field_simp; ring
    have e2 : |R.fl (t - t0) / R.fl (t1 - t0) - r| ≤ 2.01 * R.u := by
      rw [e1, abs_div, abs_of_pos hb, div_le_iff₀ hb]
      have t1' := abs_sub (R.fl (t - t0) - (t - t0)) (r * (R.fl (t1 - t0) - (t1 - t0)))
      have t2 : |r * (R.fl (t1 - t0) - (t1 - t0))| ≤ R.u * (t1 - t0) := by
        rw [abs_mul, abs_of_nonneg hr0]
        calc r * |R.fl (t1 - t0) - (t1 - t0)| ≤ 1 * |R.fl (t1 - t0) - (t1 - t0)| := mul_le_mul_of_nonneg_right hr1 (abs_nonneg _)
          _ ≤ _ := by rw [one_mul]; exact b
      have t3 : R.u * (t - t0) ≤ R.u * (t1 - t0) := mul_le_mul_of_nonneg_left (by linarith) hu0
      nlinarith
    have e3 := R.err (R.fl (t - t0) / R.fl (t1 - t0))
    have e4 : |R.fl (t - t0) / R.fl (t1 - t0)| ≤ 1.01 := by
      have := abs_le.1 e2
      rw [abs_le]
      constructor <;> linarith
    have := abs_sub_le (R.fl (R.fl (t - t0) / R.fl (t1 - t0))) (R.fl (t - t0) / R.fl (t1 - t0)) r
    nlinarith
  have hw := R.err (lo - hi)
  rw [abs_of_nonpos (by linarith : lo - hi ≤ 0)] at hw
  set Q := R.fl (R.fl (t - t0) / R.fl (t1 - t0)) with hQ
  set W := R.fl (lo - hi) with hW
  have hi0 : 0 ≤ hi := by linarith
  have p1 : |Q * W - r * (lo - hi)| ≤ 4.2 * R.u * hi := by
    rw [show Q * W - r * (lo - hi) = (Q - r) * W + r * (W - (lo - hi)) by ring]
    have w1 : |W| ≤ 1.01 * hi := by
      have := abs_le.1 hw
      rw [abs_le]
      constructor <;> nlinarith
    have s1 : |(Q - r) * W| ≤ 3.1 * R.u * (1.01 * hi) := by
      rw [abs_mul]
      exact mul_le_mul q w1 (abs_nonneg _) (by positivity)
    have s2 : |r * (W - (lo - hi))| ≤ R.u * hi := by
      rw [abs_mul, abs_of_nonneg hr0]
      calc r * |W - (lo - hi)| ≤ 1 * |W - (lo - hi)| := mul_le_mul_of_nonneg_right hr1 (abs_nonneg _)
        _ ≤ R.u * hi := by rw [one_mul]; nlinarith
    have := abs_add_le ((Q - r) * W) (r * (W - (lo - hi)))
    nlinarith
  have hrw : |r * (lo - hi)| ≤ hi := by
    rw [abs_mul, abs_of_nonneg hr0, abs_of_nonpos (by linarith : lo - hi ≤ 0)]
    nlinarith
  have p2 : |R.fl (Q * W) - r * (lo - hi)| ≤ 5.3 * R.u * hi := by
    have a := R.err (Q * W)
    have b : |Q * W| ≤ 1.01 * hi := by
      have := abs_add_le (Q * W - r * (lo - hi)) (r * (lo - hi))
      rw [sub_add_cancel] at this
      nlinarith
    have := abs_sub_le (R.fl (Q * W)) (Q * W) (r * (lo - hi))
    nlinarith
  have p3 := R.err (hi + R.fl (Q * W))
  have p4 : |hi + R.fl (Q * W)| ≤ 1.01 * hi := by
    have h1 := abs_le.1 p2
    have h3 : r * (lo - hi) ≤ 0 := mul_nonpos_of_nonneg_of_nonpos hr0 (by linarith)
    have h4 : -hi ≤ r * (lo - hi) := (abs_le.1 hrw).1
    have h5 : 5.3 * R.u * hi ≤ 0.01 * hi := mul_le_mul_of_nonneg_right (by linarith) hi0
    rw [abs_le]
    constructor <;> linarith
  have := abs_sub_le (R.fl (hi + R.fl (Q * W))) (hi + R.fl (Q * W)) (hi + r * (lo - hi))
  rw [show hi + R.fl (Q * W) - (hi + r * (lo - hi)) = R.fl (Q * W) - r * (lo - hi) by ring] at this
  have h6 : R.u * |hi + R.fl (Q * W)| ≤ R.u * (1.01 * hi) := mul_le_mul_of_nonneg_left p4 hu0
  nlinarith [mul_nonneg hu0 hi0]

/-- **C117 (min_max).**  'min_max' in floating-point arithmetic with unit roundoff `u ≤ 10⁻⁶`, on a day with tmin `t0` < tmax `t1` and 0 ≤ hum_min `lo` ≤ hum_max `hi` ≤ 100, where `hi` is a
floating-point number: an hour at temperature `t` in `[t0, t1]` gets a value `y t` that differs from the one of C39 by at most `7 u hi`.  Exactly true are: `y t0 = hi`, warmer hours
are not more humid, so no value exceeds `hi`; and `y t1` is `hi + (lo - hi)` with these two operations rounded. -/
theorem C117_min_max (R : Rounding ℝ) (hu : R.u ≤ 1 / 1000000) (h1 : R.fl 1 = 1) (expF sinF : ℝ → ℝ) (pi : ℝ) (mean : List (XF ℝ) → XF ℝ) (api : PandasApi)
    (daily : Frame ℝ) (a0 a1 kr : Option ℝ) (table : Option (CatMeans ℝ)) (d0 : Int) (n : Nat) (hn : 0 < n)
    (hmin hmax tmin tmax : Nat → XF ℝ) (T : Nat → Nat → XF ℝ)
    (c1 : daily.col? "hum_min" = some (dailyS d0 n hmin)) (c2 : daily.col? "hum_max" = some (dailyS d0 n hmax))
    (c3 : daily.col? "tmin" = some (dailyS d0 n tmin)) (c4 : daily.col? "tmax" = some (dailyS d0 n tmax)) :
    ∃ out, disaggregateHumidityR ⟨R.fl, expF, sinF, pi⟩ mean api daily "min_max" (some (hourlyS d0 n T)) a0 a1 kr table = .ok out ∧
      ∀ i < n, ∀ lo hi t0 t1, hmin i = .fin lo → hmax i = .fin hi → tmin i = .fin t0 → tmax i = .fin t1 → 0 ≤ lo → lo ≤ hi → hi ≤ 100 → R.fl hi = hi → t0 < t1 →
        ∃ y : ℝ → ℝ,
          (∀ h < 24, ∀ t, T i h = .fin t → t0 ≤ t → t ≤ t1 → (dayCells out (d0 + i))[(h : Nat)]? = some (.fin (y t))) ∧
          (∀ t, t0 ≤ t → t ≤ t1 → |y t - (hi + (t - t0) / (t1 - t0) * (lo - hi))| ≤ 7 * R.u * hi) ∧
          y t0 = hi ∧ (∀ t t', t ≤ t' → y t' ≤ y t) ∧ y t1 = max (R.fl (hi + R.fl (lo - hi))) 0 := by
  refine ⟨_, hum_finishR (raw_minmaxR _ api daily a0 a1 kr table d0 n hn hmin hmax tmin tmax T c1 c2 c3 c4), ?_⟩
  intro i hi lo hh t0 t1 e1 e2 e3 e4 b0 b1 b2 hf h01
  have hd : 0 < R.fl (t1 - t0) := lt_of_lt_of_le (mul_pos (by linarith [R.u_lt_one]) (by linarith : 0 < t1 - t0)) (R.fl_bounds (by linarith)).1
  have hle : ∀ t, t0 ≤ t → minMaxR R lo hh t0 t1 t ≤ hh := by
    intro t ht
    have := minMaxR_anti R (lo := lo) (hi := hh) h01 b1 ht
    rwa [minMaxR_tmin R hf] at this
  refine ⟨fun t => min (max (minMaxR R lo hh t0 t1 t) 0) 100, ?_, ?_, ?_, ?_, ?_⟩
  · intro h h24 t ht _ _
    rw [dayCells_hourlyS d0 _ hi, day24_getElem? _ h24, e1, e2, e3, e4, ht, XF.fin_sub_fin, XF.fin_sub_fin, XF.fin_sub_fin]
    simp only [XF.rnd]
    rw [XF.fin_div_fin_of_ne _ hd.ne']
    rfl
  · intro t ht0 ht1
    have e := minMaxR_err hu h01 b0 b1 ht0 ht1
    dsimp only
    rw [min_eq_left (max_le ((hle t ht0).trans b2) (by norm_num))]
    have hy : 0 ≤ hh + (t - t0) / (t1 - t0) * (lo - hh) := by
      have hr0 : 0 ≤ (t - t0) / (t1 - t0) := div_nonneg (by linarith) (by linarith)
      have hr1 : (t - t0) / (t1 - t0) ≤ 1 := (div_le_one (by linarith)).2 (by linarith)
      nlinarith
    rcases le_total 0 (minMaxR R lo hh t0 t1 t) with c | c
    · rw [max_eq_left c]; exact e
    · rw [max_eq_right c]
      rw [abs_le] at e ⊢
      constructor
      · linarith
      · have := mul_nonneg (mul_nonneg (by norm_num : (0 : ℝ) ≤ 7) R.u_nonneg) (by linarith : 0 ≤ hh)
        linarith
  · dsimp only
    rw [minMaxR_tmin R hf, max_eq_left (by linarith), min_eq_left b2]
  · intro t t' h
    exact min_le_min_right _ (max_le_max_right _ (minMaxR_anti R h01 b1 h))
  · dsimp only
    rw [min_eq_left (max_le ((hle t1 h01.le).trans b2) (by norm_num)), minMaxR_tmax R h1 h01]

/-! ## preserve_daily_mean -/

theorem preserveR_hourly (F : FloatHum) (mean : List (XF ℝ) → XF ℝ) (api : PandasApi) (daily : Frame ℝ) (d0 : Int) (n : Nat) (hn : 0 < n) (v : Nat → XF ℝ)
    (hcol : daily.col? "hum" = some (dailyS d0 n v)) (g : Nat → Nat → XF ℝ) :
    preserveDailyMeanR F mean api daily (hourlyS d0 n g) = .ok (hourlyS d0 n fun i h =>
      (g i h - (if ((mean (day24 (g i)) - v i).rnd F.fl).isNan then .fin 0 else (mean (day24 (g i)) - v i).rnd F.fl)).rnd F.fl) := by
  unfold preserveDailyMeanR
  rw [attr_ok hcol, py_ok_bind, resampleD_hourlyS, align_daily, py_ok_bind, distributeEqually_daily api d0 hn, py_ok_bind]
  dsimp only
  rw [hourlyS_map d0 n _ fun x : XF ℝ => if x.isNan then .fin 0 else x, alignLeft_hourly]

/-- a series with the labels of the hours of days is of the form `hourlyS` -/
theorem hourlyS_of_clip {s : Series (XF ℝ)} {d0 : Int} {n : Nat} {g : Nat → Nat → XF ℝ} (h : (s.map fun r => (r.1, r.2.clip 0 100)) = hourlyS d0 n g) :
    ∃ g0, s = hourlyS d0 n g0 ∧ ∀ i < n, ∀ k < 24, (g0 i k).clip 0 100 = g i k := by
  have hlen : s.length = 24 * n := by
    have := congrArg List.length h
    simpa using this
  refine ⟨fun i k => (s.values[24 * i + k]?).getD .nan, ?_, ?_⟩
  · apply List.ext_getElem
    · simp [hlen]
    · intro k h1 h2
      rw [hourlyS_getElem]
      have e := congrArg (fun l => (l[k]?).map Prod.fst) h
      simp only [List.getElem?_map, List.getElem?_eq_getElem h1] at e
      rw [List.getElem?_eq_getElem (by simp; omega), hourlyS_getElem] at e
      simp only [Option.map_some, Option.some.injEq] at e
      rw [show 24 * (k / 24) + k % 24 = k by omega]
      unfold Series.values
      rw [List.getElem?_map, List.getElem?_eq_getElem h1]
      exact Prod.ext e rfl
  · intro i hi k hk
    have h1 : 24 * i + k < s.length := by omega
    have e := congrArg (fun l => (l[24 * i + k]?).map Prod.snd) h
    simp only [List.getElem?_map, List.getElem?_eq_getElem h1] at e
    rw [List.getElem?_eq_getElem (by simp; omega), hourlyS_getElem] at e
    simp only [Option.map_some, Option.some.injEq] at e
    rw [show (24 * i + k) / 24 = i by omega, show (24 * i + k) % 24 = k by omega] at e
    rw [← e]
    unfold Series.values
    beta_reduce
    rw [List.getElem?_map, List.getElem?_eq_getElem h1]
    rfl

/-- **C117 (preserve_daily_mean).**  Any method that returns values for all hours without the option, a day with observed mean `m` where these values are `x h`, strictly between 0 and 100,
and pandas computes `μ` for their mean, off by at most `e`.  If the 24 values with the option are strictly between 0 and 100 as well their exact mean differs from `m` by at most `e` and two
roundings of 100 % + |μ - m|. -/
theorem C117_daily_mean (R : Rounding ℝ) (expF sinF : ℝ → ℝ) (pi : ℝ) (mean : List (XF ℝ) → XF ℝ) (api : PandasApi) (daily : Frame ℝ) (method : String)
    (temp : Option (Series (XF ℝ))) (a0 a1 kr : Option ℝ) (table : Option (CatMeans ℝ)) (d0 : Int) (n : Nat) (hn : 0 < n) (v : Nat → XF ℝ)
    (hum : daily.col? "hum" = some (dailyS d0 n v)) (g : Nat → Nat → XF ℝ)
    (hg : disaggregateHumidityR ⟨R.fl, expF, sinF, pi⟩ mean api daily method temp a0 a1 kr table false = .ok (hourlyS d0 n g)) :
    ∃ out, disaggregateHumidityR ⟨R.fl, expF, sinF, pi⟩ mean api daily method temp a0 a1 kr table true = .ok out ∧
      ∀ i < n, ∀ (x : Nat → ℝ) (m μ e : ℝ), (∀ h < 24, g i h = .fin (x h) ∧ 0 < x h ∧ x h < 100) → v i = .fin m →
        mean (day24 fun h => .fin (x h)) = .fin μ → |μ - (day24 x).sum / 24| ≤ e →
        (∀ c ∈ dayCells out (d0 + i), ∃ y, c = .fin y ∧ 0 < y ∧ y < 100) →
        ∃ M, MeanIs (dayCells out (d0 + i)) M ∧ |M - m| ≤ e + ((1 + R.u) ^ 2 - 1) * (100 + |μ - m|) := by
  have hg' := hg
  unfold disaggregateHumidityR at hg'
  obtain ⟨s, hs, hg'⟩ := py_bind_inv hg'
  obtain ⟨g0, rfl, hclip⟩ := hourlyS_of_clip (d0 := d0) (n := n) (g := g) (Except.ok.inj hg')
  have hrun : disaggregateHumidityR ⟨R.fl, expF, sinF, pi⟩ mean api daily method temp a0 a1 kr table true = .ok (hourlyS d0 n fun i h =>
      ((g0 i h - (if ((mean (day24 (g0 i)) - v i).rnd R.fl).isNan then .fin 0 else (mean (day24 (g0 i)) - v i).rnd R.fl)).rnd R.fl).clip 0 100) := by
    unfold disaggregateHumidityR
    rw [hs, py_ok_bind, if_pos rfl, preserveR_hourly _ mean api daily d0 n hn v hum, py_ok_bind]
    show Except.ok _ = _
    rw [hourlyS_map d0 n _ fun x : XF ℝ => x.clip 0 100]
  refine ⟨_, hrun, ?_⟩
  intro i hi x m μ e hx hv hμ he hall
  have hx0 : ∀ h < 24, g0 i h = .fin (x h) := fun h hh => clip_inside ((hclip i hi h hh).trans (hx h hh).1) (hx h hh).2.1 (hx h hh).2.2
  rw [← day24_congr hx0] at hμ
  rw [dayCells_hourlyS d0 _ hi] at hall ⊢
  have hcell : ∀ h < 24, ((g0 i h - (if ((mean (day24 (g0 i)) - v i).rnd R.fl).isNan then XF.fin 0 else (mean (day24 (g0 i)) - v i).rnd R.fl)).rnd R.fl).clip 0 100 =
      XF.fin (R.fl (x h - R.fl (μ - m))) := by
    intro h hh
    obtain ⟨y, hy, y0, y1⟩ := hall _ (mem_day24.2 ⟨h, hh, rfl⟩)
    rw [hy]
    have := clip_inside hy y0 y1
    rw [hx0 h hh, hμ, hv, XF.fin_sub_fin] at this
    simpa [XF.rnd, XF.isNan] using this.symm
  rw [day24_congr hcell]
  refine ⟨(day24 fun h => R.fl (x h - R.fl (μ - m))).sum / 24, ?_, ?_⟩
  · refine ⟨day24 fun h => R.fl (x h - R.fl (μ - m)), ?_, ?_, ?_⟩
    · unfold day24
      rw [List.map_map]
      rfl
    · unfold day24
      simp
    · unfold day24
      simp
  · have acc : ∀ h < 24, Acc R 2 (R.fl (x h - R.fl (μ - m))) (x h - (μ - m)) (100 + |μ - m|) := by
      intro h hh
      obtain ⟨_, k1, k2⟩ := hx h hh
      exact ((((Acc.exact R (show |x h| ≤ 100 by rw [abs_of_pos k1]; exact k2.le)).mono (Nat.zero_le 1) (le_refl _)).sub (Acc.self R (μ - m)).round)).round
    have s := (Acc.sum24 (R := R) (k := 2) (y := fun h => R.fl (x h - R.fl (μ - m))) (x := fun h => x h - (μ - m)) (B := fun _ => 100 + |μ - m|) acc).1
    have e1 : (day24 fun h => x h - (μ - m)).sum = (day24 x).sum - 24 * (μ - m) := by
      unfold day24
      simp only [List.range_succ, List.range_zero, List.map_append, List.map_cons, List.map_nil, List.nil_append, List.sum_append, List.sum_cons, List.sum_nil]
      ring
    have e2 : (day24 fun _ : Nat => 100 + |μ - m|).sum = 24 * (100 + |μ - m|) := by
      unfold day24
      simp only [List.range_succ, List.range_zero, List.map_append, List.map_cons, List.map_nil, List.nil_append, List.sum_append, List.sum_cons, List.sum_nil]
      ring
    rw [e1, e2] at s
    set S := (day24 fun h => R.fl (x h - R.fl (μ - m))).sum with hS
    set X := (day24 x).sum with hX
    have h1 := abs_le.1 s
    have h2 := abs_le.1 he
    rw [abs_le]
    constructor <;> linarith

/-! ## binary64 -/

/-- **C117 (binary64).**  In IEEE double precision, with an `np.exp` with relative error at most 10⁻¹⁵: for a minimum temperature that is a double and temperatures between -40 and 50 °C the values
of 'minimal' are those of exact arithmetic up to a relative error of 4·10⁻¹⁴, and those of 'min_max' up to 10⁻¹⁵ times hum_max. -/
theorem C117_double (expF : ℝ → ℝ) (hexp : ∀ x, |expF x - Real.exp x| ≤ 1e-15 * Real.exp x) (sinF : ℝ → ℝ) (pi : ℝ) (mean : List (XF ℝ) → XF ℝ) (api : PandasApi)
    (daily : Frame ℝ) (a0 a1 kr : Option ℝ) (table : Option (CatMeans ℝ)) (d0 : Int) (n : Nat) (hn : 0 < n) (tmin : Nat → XF ℝ) (T : Nat → Nat → XF ℝ)
    (htmin : daily.col? "tmin" = some (dailyS d0 n tmin)) :
    (∃ out, disaggregateHumidityR ⟨roundBits 53, expF, sinF, pi⟩ mean api daily "minimal" (some (hourlyS d0 n T)) a0 a1 kr table = .ok out ∧
      ∀ i < n, ∀ m, tmin i = .fin m → roundBits 53 m = m → 233.15 ≤ m → m ≤ 323.15 → ∀ h < 24, ∀ t, T i h = .fin t → 233.15 ≤ t → t ≤ 323.15 →
        ∃ x, (dayCells out (d0 + i))[(h : Nat)]? = some (.fin x) ∧ |x - relHum m t| ≤ 4e-14 * relHum m t) ∧
    ∀ hmin hmax tmax : Nat → XF ℝ, daily.col? "hum_min" = some (dailyS d0 n hmin) → daily.col? "hum_max" = some (dailyS d0 n hmax) →
      daily.col? "tmax" = some (dailyS d0 n tmax) →
      ∃ out, disaggregateHumidityR ⟨roundBits 53, expF, sinF, pi⟩ mean api daily "min_max" (some (hourlyS d0 n T)) a0 a1 kr table = .ok out ∧
        ∀ i < n, ∀ lo hi t0 t1, hmin i = .fin lo → hmax i = .fin hi → tmin i = .fin t0 → tmax i = .fin t1 → 0 ≤ lo → lo ≤ hi → hi ≤ 100 → roundBits 53 hi = hi → t0 < t1 →
          ∀ h < 24, ∀ t, T i h = .fin t → t0 ≤ t → t ≤ t1 → ∃ x, (dayCells out (d0 + i))[(h : Nat)]? = some (.fin x) ∧
            |x - (hi + (t - t0) / (t1 - t0) * (lo - hi))| ≤ 1e-15 * hi ∧ x ≤ hi ∧ (t = t0 → x = hi) := by
  have hu : R53.u ≤ 1 / 1000000 := by rw [R53_u]; norm_num
  constructor
  · obtain ⟨out, h, h2⟩ := C117_minimal R53 hu expF 1e-15 (by norm_num) hexp sinF pi mean api daily a0 a1 kr table d0 n hn tmin T htmin
    refine ⟨out, h, ?_⟩
    intro i hi m hm hf m1 m2 k hk t ht t1 t2
    obtain ⟨x, hx, he⟩ := h2 i hi m hm hf m1 m2 k hk t ht t1 t2
    refine ⟨x, hx, he.trans (mul_le_mul_of_nonneg_right ?_ ?_)⟩
    · rw [R53_u]; norm_num
    · unfold relHum
      exact le_min (le_max_right _ _) (by norm_num)
  · intro hmin hmax tmax c1 c2 c4
    obtain ⟨out, h, h2⟩ := C117_min_max R53 hu (roundBits_one (by norm_num)) expF sinF pi mean api daily a0 a1 kr table d0 n hn hmin hmax tmin tmax T c1 c2 htmin c4
    refine ⟨out, h, ?_⟩
    intro i hi lo hh t0 t1 e1 e2 e3 e4 b0 b1 b2 hf h01 k hk t ht ht0 ht1
    obtain ⟨y, y1, y2, y3, y4, _⟩ := h2 i hi lo hh t0 t1 e1 e2 e3 e4 b0 b1 b2 hf h01
    refine ⟨y t, y1 k hk t ht ht0 ht1, (y2 t ht0 ht1).trans (mul_le_mul_of_nonneg_right ?_ (by linarith)), ?_, ?_⟩
    · rw [R53_u]; norm_num
    · have := y4 t0 t ht0
      rwa [y3] at this
    · rintro rfl
      exact y3

/-- small whole numbers are doubles -/
theorem roundBits_small {k l : Nat} (hk : 0 < k) (hl : Nat.log 2 k = l) (h : l ≤ 50) : roundBits 53 (k : ℝ) = k := by
  have hlog : Int.log 2 |(k : ℝ)| = l := by
    rw [abs_of_pos (by exact_mod_cast hk), Int.log_natCast, hl]
  refine roundBits_grid (K := ℝ) (p := 53) (k := k) (j := 0) (by norm_num) ?_
  rw [hlog]
  push_cast
  omega

theorem exp_double : ∀ x, |roundBits 53 (Real.exp x) - Real.exp x| ≤ 1e-15 * Real.exp x := by
  intro x
  have := R53.err (Real.exp x)
  rw [abs_of_pos (Real.exp_pos x), R53_u] at this
  exact this.trans (mul_le_mul_of_nonneg_right (by norm_num) (Real.exp_pos x).le)

/-- C117: a day in binary64 with a correctly rounded exponential: minimum 283 K, maximum 293 K, humidity between 40 and 80 % -/
example : (∃ out x, disaggregateHumidityR ⟨roundBits 53, fun x => roundBits 53 (Real.exp x), fun x => roundBits 53 (Real.sin x), roundBits 53 Real.pi⟩ meanSkip .modern
      ⟨[at00 0], [("hum_min", [.fin 40]), ("hum_max", [.fin 80]), ("tmin", [.fin 283]), ("tmax", [.fin 293])]⟩ "minimal"
      (some (hourlyS 0 1 fun _ h => .fin (if h = 4 then 283 else 288))) = .ok out ∧
      (dayCells out (0 + (0 : Nat)))[12]? = some (.fin x) ∧ |x - relHum 283 288| ≤ 4e-14 * relHum 283 288) ∧
    ∃ out, ∃ x : ℝ, disaggregateHumidityR ⟨roundBits 53, fun x => roundBits 53 (Real.exp x), fun x => roundBits 53 (Real.sin x), roundBits 53 Real.pi⟩ meanSkip .modern
      ⟨[at00 0], [("hum_min", [.fin 40]), ("hum_max", [.fin 80]), ("tmin", [.fin 283]), ("tmax", [.fin 293])]⟩ "min_max"
      (some (hourlyS 0 1 fun _ h => .fin (if h = 4 then 283 else 288))) = .ok out ∧ (dayCells out (0 + (0 : Nat)))[4]? = some (.fin 80) ∧
      (dayCells out (0 + (0 : Nat)))[12]? = some (.fin x) ∧ |x - 60| ≤ 1e-13 := by
  obtain ⟨⟨out, h, h2⟩, h3⟩ := C117_double (fun x => roundBits 53 (Real.exp x)) exp_double (fun x => roundBits 53 (Real.sin x)) (roundBits 53 Real.pi) meanSkip .modern
    ⟨[at00 0], [("hum_min", [.fin 40]), ("hum_max", [.fin 80]), ("tmin", [.fin 283]), ("tmax", [.fin 293])]⟩ none none none none 0 1 (by omega) (fun _ => .fin 283)
    (fun _ h => .fin (if h = 4 then 283 else 288)) rfl
  have f283 : roundBits 53 (283 : ℝ) = 283 := by exact_mod_cast roundBits_small (k := 283) (by norm_num) (l := 8) (by decide +kernel) (by norm_num)
  have f80 : roundBits 53 (80 : ℝ) = 80 := by exact_mod_cast roundBits_small (k := 80) (by norm_num) (l := 6) (by decide +kernel) (by norm_num)
  constructor
  · obtain ⟨x, hx, he⟩ := h2 0 (by omega) 283 rfl f283 (by norm_num) (by norm_num) 12 (by omega) 288 rfl (by norm_num) (by norm_num)
    exact ⟨out, x, h, hx, he⟩
  · obtain ⟨out, h, h4⟩ := h3 (fun _ => .fin 40) (fun _ => .fin 80) (fun _ => .fin 293) rfl rfl rfl
    have k := h4 0 (by omega) 40 80 283 293 rfl rfl rfl rfl (by norm_num) (by norm_num) (by norm_num) f80 (by norm_num)
    obtain ⟨x, hx, he, _, _⟩ := k 12 (by omega) 288 rfl (by norm_num) (by norm_num)
    obtain ⟨x', hx', _, _, he'⟩ := k 4 (by omega) 283 rfl (by norm_num) (by norm_num)
    rw [he' rfl] at hx'
    refine ⟨out, x, h, hx', hx, ?_⟩
    norm_num at he ⊢
    linarith

/-- C117: preserve_daily_mean with method 'equal' in binary64: the observed mean 60 % is kept -/
example : ∃ out M, disaggregateHumidityR ⟨roundBits 53, Real.exp, Real.sin, Real.pi⟩ meanSkip .modern ⟨[at00 0], [("hum", [.fin 60])]⟩ "equal" (preserve := true) = .ok out ∧
    MeanIs (dayCells out (0 + (0 : Nat))) M ∧ |M - 60| ≤ 1e-12 := by
  have hraw : humidityRawR ⟨R53.fl, Real.exp, Real.sin, Real.pi⟩ .modern ⟨[at00 0], [("hum", [.fin 60])]⟩ "equal" none none none none none =
      .ok (hourlyS 0 1 fun _ _ => .fin 60) := by
    unfold humidityRawR
    simp only [true_or, not_true, if_false, if_true]
    rw [attr_ok (show (⟨[at00 0], [("hum", [.fin 60])]⟩ : Frame ℝ).col? "hum" = some (dailyS 0 1 fun _ => .fin 60) from rfl), py_ok_bind]
    exact distributeEqually_daily .modern 0 (by omega) _
  have h0 := hum_finishR (mean := meanSkip) hraw
  have hc : (XF.fin (60 : ℝ)).clip 0 100 = .fin 60 := by simp only [XF.clip]; congr 1; norm_num
  rw [hc] at h0
  obtain ⟨out, h, h2⟩ := C117_daily_mean R53 Real.exp Real.sin Real.pi meanSkip .modern ⟨[at00 0], [("hum", [.fin 60])]⟩ "equal" none none none none none 0 1 (by omega)
    (fun _ => .fin 60) rfl _ h0
  have hsum : (day24 fun _ : Nat => (60 : ℝ)).sum = 1440 := by
    unfold day24
    rw [List.map_const', List.sum_replicate, List.length_range]
    norm_num
  have hmean : meanSkip (day24 fun _ => XF.fin (60 : ℝ)) = .fin 60 := by
    rw [meanSkip_day24 (q := fun _ => 60) fun _ _ => rfl]
    rw [hsum]
    norm_num
  have f60 : R53.fl (60 : ℝ) = 60 := by
    show roundBits 53 (60 : ℝ) = 60
    exact_mod_cast roundBits_small (k := 60) (by norm_num) (l := 5) (by decide +kernel) (by norm_num)
  have hout : out = hourlyS 0 1 fun _ _ => .fin 60 := by
    have h' := h
    unfold disaggregateHumidityR at h'
    rw [hraw, py_ok_bind, if_pos rfl, preserveR_hourly _ meanSkip .modern _ 0 1 (by omega) (fun _ => .fin 60) rfl, py_ok_bind] at h'
    rw [← Except.ok.inj h', hourlyS_map 0 1 _ fun x : XF ℝ => x.clip 0 100]
    refine hourlyS_congr 0 fun i _ k _ => ?_
    rw [hmean, XF.fin_sub_fin, sub_self]
    simp only [XF.rnd, R53.fl_zero, XF.isNan, Bool.false_eq_true, if_false, XF.fin_sub_fin, sub_zero, f60]
    exact hc
  have hc' : ∀ c ∈ dayCells out (0 + (0 : Nat)), ∃ y, c = XF.fin y ∧ 0 < y ∧ y < 100 := by
    intro c hc'
    rw [hout, dayCells_hourlyS 0 _ (by omega), mem_day24] at hc'
    obtain ⟨_, _, rfl⟩ := hc'
    exact ⟨60, rfl, by norm_num, by norm_num⟩
  obtain ⟨M, hM, he⟩ := h2 0 (by omega) (fun _ => 60) 60 60 0 (fun _ _ => ⟨rfl, by norm_num, by norm_num⟩) rfl hmean (by rw [hsum]; norm_num) hc'
  refine ⟨out, M, h, hM, he.trans ?_⟩
  rw [R53_u]
  norm_num

end

end Melodist
