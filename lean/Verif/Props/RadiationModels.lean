import Verif.Lemmas.RadiationModels
import Verif.Props.Radiation

/-!
# C58, C59: daily radiation from sunshine duration and from the temperature range
-/

set_option linter.unusedSectionVars false

namespace Melodist
open Spec

noncomputable section

variable {d0 d1 : Int} {n m : Nat}

/-! ## C58: Angstroem -/

/-- **C58.**  For sunshine durations `s`, day lengths `L` and potential radiation `p` on the same timestamps and parameters given as numbers or by
month: the call succeeds, the result has these timestamps, and its value at each is (a + b·s/L)·p with the parameters of the month of the
timestamp. -/
theorem C58_formula (par : ParPair ℝ) (I : List Time) (a b : Int → ℝ) (s L p : Time → XF ℝ)
    (h : ∀ t ∈ I, ParAt par (monthOf t) (.fin (a (monthOf t))) (.fin (b (monthOf t)))) :
    ∃ out, angstroem (I.map fun t => (t, s t)) (I.map fun t => (t, L t)) (I.map fun t => (t, p t)) par = .ok out ∧ out.index = I ∧
      ∀ t ∈ I, (∀ x l q : ℝ, s t = .fin x → L t = .fin l → p t = .fin q → l ≠ 0 →
          out.at? t = some (.fin ((a (monthOf t) + b (monthOf t) * x / l) * q))) ∧
        (s t = .nan ∨ L t = .nan ∨ p t = .nan → out.at? t = some .nan) := by
  refine ⟨_, angstroem_eq (a := fun m => .fin (a m)) (b := fun m => .fin (b m)) s L p h, by simp [Series.index, Function.comp_def], ?_⟩
  intro t ht
  rw [mapAt? (fun t => (XF.fin (a (monthOf t)) + XF.fin (b (monthOf t)) * s t / L t) * p t) ht]
  constructor
  · intro x l q h1 h2 h3 hl
    rw [h1, h2, h3, XF.fin_mul_fin, XF.fin_div_fin_of_ne _ hl, XF.fin_add_fin, XF.fin_mul_fin]
  · rintro (h | h | h)
    · rw [h, XF.mul_nan, XF.nan_div, XF.add_nan, XF.nan_mul]
    · rw [h, XF.div_nan, XF.add_nan, XF.nan_mul]
    · rw [h, XF.mul_nan]

/-- **C58 (behaviour).**  Two timestamps of the same month with equal day length l > 0 and potential q ≥ 0: without sunshine the estimate is a·q, with
sunshine all day it is (a + b)·q, and for b ≥ 0 more sunshine never gives less radiation. -/
theorem C58_behaviour (par : ParPair ℝ) (I : List Time) (a b : Int → ℝ) (s L p : Time → XF ℝ)
    (h : ∀ t ∈ I, ParAt par (monthOf t) (.fin (a (monthOf t))) (.fin (b (monthOf t)))) (out : Series (XF ℝ))
    (hout : angstroem (I.map fun t => (t, s t)) (I.map fun t => (t, L t)) (I.map fun t => (t, p t)) par = .ok out) :
    ∀ t ∈ I, ∀ l q : ℝ, L t = .fin l → p t = .fin q → 0 < l → 0 ≤ q →
      (s t = .fin 0 → out.at? t = some (.fin (a (monthOf t) * q))) ∧
      (s t = .fin l → out.at? t = some (.fin ((a (monthOf t) + b (monthOf t)) * q))) ∧
      (0 ≤ b (monthOf t) → ∀ t' ∈ I, monthOf t' = monthOf t → L t' = .fin l → p t' = .fin q → ∀ x x' : ℝ, s t = .fin x → s t' = .fin x' → x ≤ x' →
        ∃ y y', out.at? t = some (.fin y) ∧ out.at? t' = some (.fin y') ∧ y ≤ y') := by
  obtain ⟨out', h1, _, h3⟩ := C58_formula par I a b s L p h
  rw [hout] at h1
  cases h1
  intro t ht l q hl hq hl0 hq0
  refine ⟨?_, ?_, ?_⟩
  · intro h0
    rw [(h3 t ht).1 0 l q h0 hl hq hl0.ne']
    simp
  · intro h0
    rw [(h3 t ht).1 l l q h0 hl hq hl0.ne', mul_div_assoc, div_self hl0.ne', mul_one]
  · intro hb t' ht' hm hl' hq' x x' hx hx' hle
    refine ⟨_, _, (h3 t ht).1 x l q hx hl hq hl0.ne', (h3 t' ht').1 x' l q hx' hl' hq' hl0.ne', ?_⟩
    rw [hm]
    apply mul_le_mul_of_nonneg_right _ hq0
    have : b (monthOf t) * x / l ≤ b (monthOf t) * x' / l := div_le_div_of_nonneg_right (mul_le_mul_of_nonneg_left hle hb) hl0.le
    linarith

/-- **C58 (missing month).**  With tables by month, a month that occurs in the data but not in the first table raises KeyError. -/
theorem C58_missing_month (ta tb : List (Int × XF ℝ)) (ssd dl pot : Series (XF ℝ)) (t : Time) (ht : t ∈ ssd.index)
    (hm : ∀ r ∈ ta, r.1 ≠ monthOf t) : angstroem ssd dl pot (.monthly ta tb) = .error .keyError := by
  unfold angstroem ParPair.values monthValues
  dsimp only
  rw [mapM_error (e := .keyError)]
  · rfl
  · intro x hx
    cases ta.find? fun r => r.1 == x with
    | none => exact .inl rfl
    | some r => exact .inr ⟨_, rfl⟩
  · refine ⟨monthOf t, List.mem_map.2 ⟨t, ht, rfl⟩, ?_⟩
    rw [List.find?_eq_none.2]
    intro r hr
    simpa using hm r hr

/-- **C58 (disaggregation).**  'pot_rad_via_ssd' with sun times for the `n` days of the daily data and potential radiation covering them: the call
succeeds, and on every day with day length l > 0, sunshine x, non-negative potential that is not 0 all day and a non-negative estimate
g = (a + b·x/l)·(mean potential), the mean of the 24 values lies in (g - 0.01, g].  On a day of day length 0 but positive potential all
values are 0. -/
theorem C58_disaggregate (api : PandasApi) {daily : Frame ℝ} (hi : daily.index = (List.range n).map fun i : Nat => at00 (d0 + i)) (hn : 0 < n)
    (s : Nat → XF ℝ) (hs : daily.col? "ssd" = some (dailyS d0 n s)) (st : Nat → SunTimes) (p : Nat → Nat → XF ℝ) (h1 : d1 ≤ d0) (h2 : d0 + n ≤ d1 + m)
    (par bristcamp : ParPair ℝ) (course : Option (MeanCourse ℝ)) (a b : Int → ℝ)
    (h : ∀ i : Nat, i < n → ParAt par (monthOf (at00 (d0 + i))) (.fin (a (monthOf (at00 (d0 + i))))) (.fin (b (monthOf (at00 (d0 + i)))))) :
    ∃ out, disaggregateRadiation api daily (some (dailyS d0 n st)) (some (hourlyS d1 m p)) "pot_rad_via_ssd" par bristcamp course = .ok out ∧
      ∀ i < n, ∀ q : Nat → ℝ, (∀ h < 24, p (d0 + i - d1).toNat h = .fin (q h)) → (∀ h < 24, 0 ≤ q h) → 0 < (day24 q).sum →
        (∀ l x g : ℝ, (st i).daylength = .fin l → 0 < l → s i = .fin x →
          g = (a (monthOf (at00 (d0 + i))) + b (monthOf (at00 (d0 + i))) * x / l) * ((day24 q).sum / 24) → 0 ≤ g →
          ∃ y, MeanIs (dayCells out (d0 + i)) y ∧ g - 0.01 < y ∧ y ≤ g) ∧
        ((st i).daylength = .fin 0 → dayCells out (d0 + i) = List.replicate 24 (.fin 0)) := by
  have hr : disaggregateRadiation api daily (some (dailyS d0 n st)) (some (hourlyS d1 m p)) "pot_rad_via_ssd" par bristcamp course =
      .ok (hourlyS d1 m fun j h => radCell (p j h) (meanSkip (day24 (p j))) (lastValue d0 n (fun i =>
        if XF.lt (.fin 0) (st i).daylength then
          (.fin (a (monthOf (at00 (d0 + (i : Nat))))) + .fin (b (monthOf (at00 (d0 + (i : Nat))))) * s i / (st i).daylength) *
            meanSkip (day24 (p (d0 + (i : Nat) - d1).toNat))
        else .fin 0) (d1 + j))) := by
    unfold disaggregateRadiation
    rw [if_neg (by simp), temp_hourly_index api hi hn, py_ok_bind, if_neg (by decide)]
    dsimp only
    rw [if_neg (by decide), if_pos rfl, resampleD_hourlyS,
      ssdDaily_eq hi hs st _ h1 h2 (a := fun m => .fin (a m)) (b := fun m => .fin (b m)) h, py_ok_bind, radiationCore_eq d0 hn]
  refine ⟨_, hr, ?_⟩
  intro i hi' q hq hq0 hpos
  have e : d0 + (i : Int) = d1 + ((d0 + i - d1).toNat : Int) := by omega
  have hcells : ∀ v : Nat → XF ℝ, dayCells (hourlyS d1 m fun j h => radCell (p j h) (meanSkip (day24 (p j))) (lastValue d0 n v (d1 + j))) (d0 + i) =
      day24 fun h => radCell (.fin (q h)) (.fin ((day24 q).sum / 24)) (v i) := by
    intro v
    rw [e, dayCells_hourlyS d1 _ (by omega), ← e, lastValue_self hi', meanSkip_day24 hq]
    apply day24_congr
    intro h hh
    rw [hq h hh]
  rw [hcells]
  constructor
  · intro l x g hl hl0 hx hg hg0
    rw [hl, if_pos (by simpa using hl0), hx, meanSkip_day24 hq, XF.fin_mul_fin, XF.fin_div_fin_of_ne _ hl0.ne', XF.fin_add_fin, XF.fin_mul_fin, ← hg]
    exact (rad_day_mean hq0 hpos hg0).1
  · intro hl
    rw [hl, if_neg (by simp)]
    have hμ : 0 < (day24 q).sum / 24 := by positivity
    have : (day24 fun h => radCell (.fin (q h)) (.fin ((day24 q).sum / 24)) (.fin 0)) = day24 fun _ => (.fin 0 : XF ℝ) := by
      apply day24_congr
      intro h _
      rw [radCell_fin hμ]
      simp
    rw [this]
    rfl

theorem locAll_missing {V : Type} {s : Series V} {idx : List Time} {t : Time} (ht : t ∈ idx) (hn : s.at? t = none) : s.locAll idx = .error .keyError := by
  unfold Series.locAll
  apply mapM_error
  · intro x _
    cases s.at? x with
    | none => exact .inl rfl
    | some v => exact .inr ⟨_, rfl⟩
  · exact ⟨t, ht, by rw [hn]⟩

/-- **C58 (uncovered days).**  'pot_rad_via_ssd' raises KeyError if a day with positive day length in the sun times is not a day of the daily data, or not a
day of the potential radiation. -/
theorem C58_uncovered (api : PandasApi) {daily : Frame ℝ} (hi : daily.index = (List.range n).map fun i : Nat => at00 (d0 + i)) (hn : 0 < n)
    (s : Nat → XF ℝ) (hs : daily.col? "ssd" = some (dailyS d0 n s)) (p : Nat → Nat → XF ℝ) (par bristcamp : ParPair ℝ) (course : Option (MeanCourse ℝ)) :
    (∀ (sun : Series SunTimes) (d : Int) (st : SunTimes), (at00 d, st) ∈ sun → XF.lt (.fin 0) st.daylength → d < d0 ∨ d0 + n ≤ d →
      disaggregateRadiation api daily (some sun) (some (hourlyS d1 m p)) "pot_rad_via_ssd" par bristcamp course = .error .keyError) ∧
    (∀ (st : Nat → SunTimes) (i : Nat), i < n → XF.lt (.fin 0) (st i).daylength → d0 + i < d1 ∨ d1 + m ≤ d0 + i →
      disaggregateRadiation api daily (some (dailyS d0 n st)) (some (hourlyS d1 m p)) "pot_rad_via_ssd" par bristcamp course = .error .keyError) := by
  have red : ∀ sun : Series SunTimes, ssdDaily daily (some sun) (dailyS d1 m fun j => meanSkip (day24 (p j))) par = .error .keyError →
      disaggregateRadiation api daily (some sun) (some (hourlyS d1 m p)) "pot_rad_via_ssd" par bristcamp course = .error .keyError := by
    intro sun h
    unfold disaggregateRadiation
    rw [if_neg (by simp), temp_hourly_index api hi hn, py_ok_bind, if_neg (by decide)]
    dsimp only
    rw [if_neg (by decide), if_pos rfl, resampleD_hourlyS, h]
    rfl
  have mem : ∀ (sun : Series SunTimes) (t : Time) (st : SunTimes), (t, st) ∈ sun → XF.lt (.fin 0) st.daylength →
      t ∈ Series.index (sun.filter fun r => decide (XF.lt (.fin 0) r.2.daylength)) := fun sun t st h h' =>
    List.mem_map.2 ⟨_, List.mem_filter.2 ⟨h, decide_eq_true h'⟩, rfl⟩
  constructor
  · intro sun d st hmem hl hd
    apply red
    unfold ssdDaily
    dsimp only
    rw [attr_ok hs, py_ok_bind, locAll_missing (mem sun _ st hmem hl) (dailyS_at?_none d0 (n := n) s _ (fun j hj e => by unfold at00 at e; omega))]
    rfl
  · intro st i hi' hl hd
    apply red
    have hmem := mem (dailyS d0 n st) (at00 (d0 + i)) (st i) (List.mem_map.2 ⟨i, List.mem_range.2 hi', rfl⟩) hl
    have hsub : ∀ t ∈ Series.index ((dailyS d0 n st).filter fun r => decide (XF.lt (.fin 0) r.2.daylength)), ∃ j < n, t = at00 (d0 + (j : Nat)) := by
      intro t ht
      obtain ⟨r, hr, rfl⟩ := List.mem_map.1 ht
      obtain ⟨j, hj, rfl⟩ := List.mem_map.1 (List.mem_filter.1 hr).1
      exact ⟨j, List.mem_range.1 hj, rfl⟩
    have hidx : ∀ j : Nat, ((at00 (d0 + (j : Nat))) / DAY - d0).toNat = j := by
      intro j
      unfold at00
      rw [Int.mul_ediv_cancel _ (by decide)]
      omega
    unfold ssdDaily
    dsimp only
    rw [attr_ok hs, py_ok_bind, locAll_ok (v := fun t => s (t / DAY - d0).toNat)]
    swap
    · intro t ht
      obtain ⟨j, hj, rfl⟩ := hsub t ht
      rw [dailyS_at? d0 s hj, hidx]
    rw [py_ok_bind, dailyS_map, locAll_ok (v := fun t => (st (t / DAY - d0).toNat).daylength)]
    swap
    · intro t ht
      obtain ⟨j, hj, rfl⟩ := hsub t ht
      rw [dailyS_at? d0 _ hj, hidx]
    rw [py_ok_bind, locAll_missing hmem (dailyS_at?_none d1 (n := m) _ _ (fun j hj e => by unfold at00 at e; omega))]
    rfl

/-! ## C59: Bristow-Campbell -/

theorem pow_fin {x p : ℝ} (hx : 0 < x) (hp : 0 < p) : XF.pow (.fin x) (.fin p) = .fin (x ^ p) := by
  unfold XF.pow
  dsimp only
  rw [if_neg hp.ne', if_pos hx]

theorem bcRange_fin {tmin tmax : Nat → XF ℝ} {i : Nat} {x y z : ℝ} (h1 : tmin i = .fin x) (h2 : tmax i = .fin y) (h3 : nextMin n tmin i = .fin z) :
    bcRange n tmin tmax i = .fin (y - (x + z) / 2) := by
  unfold bcRange
  rw [h1, h2, h3, XF.fin_add_fin, XF.fin_div_fin_of_ne _ (by norm_num), XF.fin_sub_fin]

theorem bcRange_nanOrFin {tmin tmax : Nat → XF ℝ} (h1 : ∀ i < n, (tmin i).NanOrFin) (h2 : ∀ i < n, (tmax i).NanOrFin) {i : Nat} (hi : i < n) :
    (bcRange n tmin tmax i).NanOrFin := by
  have h3 : (nextMin n tmin i).NanOrFin := by
    unfold nextMin
    split
    · exact h1 _ (by assumption)
    · exact h1 _ hi
  have := h1 i hi
  have := h2 i hi
  unfold bcRange
  revert this
  cases hb : tmax i <;> cases ha : tmin i <;> cases hc : nextMin n tmin i <;> simp_all [XF.NanOrFin]
  all_goals first
    | trivial
    | (rw [XF.fin_div_fin_of_ne _ (by norm_num : (2 : ℝ) ≠ 0)]; trivial)

/-- the mean range of the month is a number -/
theorem bcMean_fin {tmin tmax : Nat → XF ℝ} (h1 : ∀ i < n, (tmin i).NanOrFin) (h2 : ∀ i < n, (tmax i).NanOrFin) {i : Nat} (hi : i < n) {r : ℝ}
    (hr : bcRange n tmin tmax i = .fin r) : ∃ μ, meanSkip (bcMonthRanges d0 n tmin tmax i) = .fin μ := by
  refine ⟨_, meanSkip_eq ?_ ?_⟩
  · intro c hc
    obtain ⟨j, hj, rfl⟩ := List.mem_map.1 hc
    exact bcRange_nanOrFin h1 h2 (List.mem_range.1 (List.mem_filter.1 hj).1)
  · apply List.ne_nil_of_mem (a := r)
    refine List.mem_filterMap.2 ⟨.fin r, List.mem_map.2 ⟨i, List.mem_filter.2 ⟨List.mem_range.2 hi, by simp⟩, hr⟩, rfl⟩

/-- the estimate for positive range `r`, monthly mean range `μ` -/
def bcReal (A C μ r q : ℝ) : ℝ := A * (1 - Real.exp (-(0.036 * Real.exp (-0.154 * μ)) * r ^ C)) * q

theorem bc_value {d0 d1 : Int} (hn : 0 < n) (tmin tmax q : Nat → XF ℝ) (h1 : d1 ≤ d0) (h2 : d0 + n ≤ d1 + m) {par : ParPair ℝ} {a c : Int → ℝ}
    (h : ∀ i : Nat, i < n → ParAt par (monthOf (at00 (d0 + i))) (.fin (a (monthOf (at00 (d0 + i))))) (.fin (c (monthOf (at00 (d0 + i)))))) :
    ∃ out, bristowCampbell (dailyS d0 n tmin) (dailyS d0 n tmax) (dailyS d1 m q) par = .ok (dailyS d0 n out) ∧
      (∀ i < n, ∀ r q' μ : ℝ, bcRange n tmin tmax i = .fin r → q (d0 + i - d1).toNat = .fin q' → meanSkip (bcMonthRanges d0 n tmin tmax i) = .fin μ →
        0 < c (monthOf (at00 (d0 + i))) →
        (0 < r → out i = .fin (bcReal (a (monthOf (at00 (d0 + i)))) (c (monthOf (at00 (d0 + i)))) μ r q')) ∧ (r = 0 → out i = .fin 0) ∧
        (r < 0 → (¬ ∃ k : Int, c (monthOf (at00 (d0 + i))) = k) → out i = .nan)) ∧
      ∀ i < n, c (monthOf (at00 (d0 + i))) ≠ 0 → bcRange n tmin tmax i = .nan → out i = .nan := by
  refine ⟨_, bc_eq d0 d1 hn tmin tmax q h1 h2 (a := fun m => .fin (a m)) (c := fun m => .fin (c m)) h, ?_, ?_⟩
  · intro i hi r q' μ hr hq hμ hc
    rw [hr, hq, hμ]
    refine ⟨?_, ?_, ?_⟩
    · intro hr0
      rw [pow_fin hr0 hc]
      rfl
    · intro hr0
      subst hr0
      have : XF.pow (.fin 0) (.fin (c (monthOf (at00 (d0 + i))))) = .fin 0 := by
        unfold XF.pow
        dsimp only
        rw [if_neg hc.ne', if_neg (lt_irrefl _), if_pos rfl, if_pos hc]
      rw [this]
      show XF.fin _ = XF.fin _
      congr 1
      simp
    · intro hr0 hk
      have : XF.pow (.fin r) (.fin (c (monthOf (at00 (d0 + i))))) = .nan := by
        unfold XF.pow
        dsimp only
        rw [if_neg hc.ne', if_neg (not_lt.2 hr0.le), if_neg hr0.ne, if_neg hk]
      rw [this, XF.mul_nan, XF.exp_nan, XF.sub_nan, XF.mul_nan, XF.nan_mul]
  · intro i hi hc hr
    have : XF.pow .nan (.fin (c (monthOf (at00 (d0 + i))))) = .nan := by
      unfold XF.pow
      dsimp only
      rw [if_neg hc]
    rw [hr, this, XF.mul_nan, XF.exp_nan, XF.sub_nan, XF.mul_nan, XF.nan_mul]

theorem bcReal_bounds {A C μ r q : ℝ} (hA : 0 ≤ A) (hr : 0 < r) (hq : 0 ≤ q) :
    0 ≤ bcReal A C μ r q ∧ bcReal A C μ r q ≤ A * q ∧ (0 < A → 0 < q → 0 < bcReal A C μ r q ∧ bcReal A C μ r q < A * q) := by
  have hx : -(0.036 * Real.exp (-0.154 * μ)) * r ^ C < 0 := by
    have h1 : 0 < Real.exp (-0.154 * μ) := Real.exp_pos _
    have h2 : 0 < r ^ C := Real.rpow_pos_of_pos hr C
    have : 0 < 0.036 * Real.exp (-0.154 * μ) * r ^ C := by positivity
    linarith
  have h1 : Real.exp (-(0.036 * Real.exp (-0.154 * μ)) * r ^ C) < 1 := by rw [← Real.exp_zero]; exact Real.exp_lt_exp.2 hx
  have h0 := Real.exp_pos (-(0.036 * Real.exp (-0.154 * μ)) * r ^ C)
  unfold bcReal
  generalize Real.exp (-(0.036 * Real.exp (-0.154 * μ)) * r ^ C) = e at *
  have hAq : 0 ≤ A * q := mul_nonneg hA hq
  refine ⟨by nlinarith, by nlinarith, ?_⟩
  intro hA' hq'
  have : 0 < A * q := mul_pos hA' hq'
  constructor <;> nlinarith

theorem bcReal_mono {A C μ r r' q : ℝ} (hA : 0 ≤ A) (hC : 0 ≤ C) (hr : 0 ≤ r) (hrr : r ≤ r') (hq : 0 ≤ q) : bcReal A C μ r q ≤ bcReal A C μ r' q := by
  unfold bcReal
  apply mul_le_mul_of_nonneg_right _ hq
  apply mul_le_mul_of_nonneg_left _ hA
  have : r ^ C ≤ r' ^ C := Real.rpow_le_rpow hr hrr hC
  have hB : 0 ≤ 0.036 * Real.exp (-0.154 * μ) := by positivity
  have : Real.exp (-(0.036 * Real.exp (-0.154 * μ)) * r' ^ C) ≤ Real.exp (-(0.036 * Real.exp (-0.154 * μ)) * r ^ C) := by
    apply Real.exp_le_exp.2
    nlinarith
  linarith

/-- **C59.**  Bristow-Campbell on the `n` days from `d0` on, potential radiation covering them, parameters A ≥ 0 and C > 0 by month or as numbers:
the call succeeds.  On a day with all three temperatures (this day's minimum and maximum, the next day's minimum; the last day takes its own
minimum) and potential q ≥ 0, with range r = tmax - (tmin + next tmin)/2: for r > 0 the estimate is a number in [0, A·q], strictly inside
if A and q are positive; for r = 0 it is 0; for r < 0 and C not an integer it is missing.  On a day where a temperature is missing it is
missing. -/
theorem C59_bounds (hn : 0 < n) (tmin tmax q : Nat → XF ℝ) (h1 : d1 ≤ d0) (h2 : d0 + n ≤ d1 + m) (par : ParPair ℝ) (a c : Int → ℝ)
    (h : ∀ i : Nat, i < n → ParAt par (monthOf (at00 (d0 + i))) (.fin (a (monthOf (at00 (d0 + i))))) (.fin (c (monthOf (at00 (d0 + i))))))
    (ha : ∀ m, 0 ≤ a m) (hc : ∀ m, 0 < c m) (hf1 : ∀ i < n, (tmin i).NanOrFin) (hf2 : ∀ i < n, (tmax i).NanOrFin) :
    ∃ out, bristowCampbell (dailyS d0 n tmin) (dailyS d0 n tmax) (dailyS d1 m q) par = .ok (dailyS d0 n out) ∧
      (∀ i < n, ∀ x y z q' : ℝ, tmin i = .fin x → tmax i = .fin y → (if i + 1 < n then tmin (i + 1) else tmin i) = .fin z →
        q (d0 + i - d1).toNat = .fin q' → 0 ≤ q' →
        (0 < y - (x + z) / 2 → ∃ R, out i = .fin R ∧ 0 ≤ R ∧ R ≤ a (monthOf (at00 (d0 + i))) * q' ∧
          (0 < a (monthOf (at00 (d0 + i))) → 0 < q' → 0 < R ∧ R < a (monthOf (at00 (d0 + i))) * q')) ∧
        (y - (x + z) / 2 = 0 → out i = .fin 0) ∧
        (y - (x + z) / 2 < 0 → (¬ ∃ k : Int, c (monthOf (at00 (d0 + i))) = k) → out i = .nan)) ∧
      ∀ i < n, tmin i = .nan ∨ tmax i = .nan ∨ (i + 1 < n ∧ tmin (i + 1) = .nan) → out i = .nan := by
  obtain ⟨out, ho, hv, hnan⟩ := bc_value hn tmin tmax q h1 h2 h
  refine ⟨out, ho, ?_, ?_⟩
  · intro i hi x y z q' hx hy hz hq hq0
    have hr := bcRange_fin hx hy (n := n) (z := z) hz
    obtain ⟨μ, hμ⟩ := bcMean_fin (d0 := d0) hf1 hf2 hi hr
    obtain ⟨k1, k2, k3⟩ := hv i hi _ q' μ hr hq hμ (hc _)
    refine ⟨?_, k2, k3⟩
    intro hpos
    obtain ⟨b1, b2, b3⟩ := bcReal_bounds (A := a (monthOf (at00 (d0 + i)))) (C := c (monthOf (at00 (d0 + i)))) (μ := μ) (ha _) hpos hq0
    exact ⟨_, k1 hpos, b1, b2, b3⟩
  · intro i hi hm
    apply hnan i hi (hc _).ne'
    unfold bcRange
    rcases hm with h | h | ⟨h, h'⟩
    · rw [h, XF.nan_add, XF.nan_div, XF.sub_nan]
    · rw [h, XF.nan_sub]
    · unfold nextMin
      rw [if_pos h, h', XF.add_nan, XF.nan_div, XF.sub_nan]

/-- **C59 (formula).**  With μ the mean of the available ranges of all days in the same calendar month: on a day with range r > 0 and potential q
the estimate is A·(1 - exp(-B·r^C))·q with B = 0.036·exp(-0.154·μ), A and C the parameters of the month. -/
theorem C59_formula (hn : 0 < n) (tmin tmax q : Nat → XF ℝ) (h1 : d1 ≤ d0) (h2 : d0 + n ≤ d1 + m) (par : ParPair ℝ) (a c : Int → ℝ)
    (h : ∀ i : Nat, i < n → ParAt par (monthOf (at00 (d0 + i))) (.fin (a (monthOf (at00 (d0 + i))))) (.fin (c (monthOf (at00 (d0 + i))))))
    (hc : ∀ m, 0 < c m) (hf1 : ∀ i < n, (tmin i).NanOrFin) (hf2 : ∀ i < n, (tmax i).NanOrFin) :
    ∃ out, bristowCampbell (dailyS d0 n tmin) (dailyS d0 n tmax) (dailyS d1 m q) par = .ok (dailyS d0 n out) ∧
      ∀ i < n, ∀ r q' μ A C : ℝ, bcRange n tmin tmax i = .fin r → 0 < r → q (d0 + i - d1).toNat = .fin q' →
        μ = (numbers (bcMonthRanges d0 n tmin tmax i)).sum / (numbers (bcMonthRanges d0 n tmin tmax i)).length →
        A = a (monthOf (at00 (d0 + i))) → C = c (monthOf (at00 (d0 + i))) →
        out i = .fin (A * (1 - Real.exp (-(0.036 * Real.exp (-0.154 * μ)) * r ^ C)) * q') := by
  obtain ⟨out, ho, hv, _⟩ := bc_value hn tmin tmax q h1 h2 h
  refine ⟨out, ho, ?_⟩
  intro i hi r q' μ A C hr hr0 hq hμ hA hC
  have hm : meanSkip (bcMonthRanges d0 n tmin tmax i) = .fin μ := by
    rw [hμ]
    apply meanSkip_eq
    · intro c hc
      obtain ⟨j, hj, rfl⟩ := List.mem_map.1 hc
      exact bcRange_nanOrFin hf1 hf2 (List.mem_range.1 (List.mem_filter.1 hj).1)
    · apply List.ne_nil_of_mem (a := r)
      exact List.mem_filterMap.2 ⟨.fin r, List.mem_map.2 ⟨i, List.mem_filter.2 ⟨List.mem_range.2 hi, by simp⟩, hr⟩, rfl⟩
  rw [hA, hC]
  exact (hv i hi r q' μ hr hq hm (hc _)).1 hr0

/-- **C59 (monotone).**  Of two days in the same month (of any year) with the same potential, the one with the larger positive range gets at least
as much radiation. -/
theorem C59_monotone (hn : 0 < n) (tmin tmax q : Nat → XF ℝ) (h1 : d1 ≤ d0) (h2 : d0 + n ≤ d1 + m) (par : ParPair ℝ) (a c : Int → ℝ)
    (h : ∀ i : Nat, i < n → ParAt par (monthOf (at00 (d0 + i))) (.fin (a (monthOf (at00 (d0 + i))))) (.fin (c (monthOf (at00 (d0 + i))))))
    (ha : ∀ m, 0 ≤ a m) (hc : ∀ m, 0 < c m) (hf1 : ∀ i < n, (tmin i).NanOrFin) (hf2 : ∀ i < n, (tmax i).NanOrFin) :
    ∃ out, bristowCampbell (dailyS d0 n tmin) (dailyS d0 n tmax) (dailyS d1 m q) par = .ok (dailyS d0 n out) ∧
      ∀ i < n, ∀ j < n, monthOf (at00 (d0 + (i : Nat))) = monthOf (at00 (d0 + (j : Nat))) →
        ∀ r s q' : ℝ, bcRange n tmin tmax i = .fin r → bcRange n tmin tmax j = .fin s → 0 < r → r ≤ s →
        q (d0 + i - d1).toNat = .fin q' → q (d0 + j - d1).toNat = .fin q' → 0 ≤ q' → ∃ R S, out i = .fin R ∧ out j = .fin S ∧ R ≤ S := by
  obtain ⟨out, ho, hv, _⟩ := bc_value hn tmin tmax q h1 h2 h
  refine ⟨out, ho, ?_⟩
  intro i hi j hj hm r s q' hr hs hr0 hrs hq hq' hq0
  obtain ⟨μ, hμ⟩ := bcMean_fin (d0 := d0) hf1 hf2 hi hr
  have hμ' : meanSkip (bcMonthRanges d0 n tmin tmax j) = .fin μ := by
    rw [← hμ]
    unfold bcMonthRanges
    rw [hm]
  refine ⟨_, _, (hv i hi r q' μ hr hq hμ (hc _)).1 hr0, (hv j hj s q' μ hs hq' hμ' (hc _)).1 (by linarith), ?_⟩
  rw [hm]
  exact bcReal_mono (ha _) (hc _).le hr0.le hrs hq0

/-- **C59 (indexes).**  Minimum and maximum temperatures with different timestamps raise AssertionError. -/
theorem C59_different_index (tmin tmax pot : Series (XF ℝ)) (par : ParPair ℝ) (h : tmin.index ≠ tmax.index) :
    bristowCampbell tmin tmax pot par = .error .assertionError := by
  unfold bristowCampbell
  rw [if_pos h]

/-- **C59 (disaggregation).**  'pot_rad_via_bc': on every day with a range r > 0, potential that is non-negative and not 0 all day, the mean of the
24 values lies within 0.01 below the Bristow-Campbell estimate, and is hence below A times the mean potential. -/
theorem C59_disaggregate (api : PandasApi) {daily : Frame ℝ} (hi : daily.index = (List.range n).map fun i : Nat => at00 (d0 + i)) (hn : 0 < n)
    (tmin tmax : Nat → XF ℝ) (hmin : daily.col? "tmin" = some (dailyS d0 n tmin)) (hmax : daily.col? "tmax" = some (dailyS d0 n tmax))
    (sun : Option (Series SunTimes)) (p : Nat → Nat → XF ℝ) (h1 : d1 ≤ d0) (h2 : d0 + n ≤ d1 + m)
    (angstr par : ParPair ℝ) (course : Option (MeanCourse ℝ)) (a c : Int → ℝ)
    (h : ∀ i : Nat, i < n → ParAt par (monthOf (at00 (d0 + i))) (.fin (a (monthOf (at00 (d0 + i))))) (.fin (c (monthOf (at00 (d0 + i))))))
    (ha : ∀ m, 0 ≤ a m) (hc : ∀ m, 0 < c m) (hf1 : ∀ i < n, (tmin i).NanOrFin) (hf2 : ∀ i < n, (tmax i).NanOrFin) :
    ∃ out est, disaggregateRadiation api daily sun (some (hourlyS d1 m p)) "pot_rad_via_bc" angstr par course = .ok out ∧
      bristowCampbell (dailyS d0 n tmin) (dailyS d0 n tmax) (Series.resampleD meanSkip (hourlyS d1 m p)) par = .ok (dailyS d0 n est) ∧
      ∀ i < n, ∀ q : Nat → ℝ, (∀ h < 24, p (d0 + i - d1).toNat h = .fin (q h)) → (∀ h < 24, 0 ≤ q h) → 0 < (day24 q).sum →
        ∀ r, bcRange n tmin tmax i = .fin r → 0 < r →
          ∃ g y, est i = .fin g ∧ MeanIs (dayCells out (d0 + i)) y ∧ g - 0.01 < y ∧ y ≤ g ∧ y ≤ a (monthOf (at00 (d0 + i))) * ((day24 q).sum / 24) := by
  obtain ⟨est, ho, hv, _⟩ := bc_value (m := m) (d1 := d1) hn tmin tmax (fun j => meanSkip (day24 (p j))) h1 h2 h
  have hr : disaggregateRadiation api daily sun (some (hourlyS d1 m p)) "pot_rad_via_bc" angstr par course =
      .ok (hourlyS d1 m fun j h => radCell (p j h) (meanSkip (day24 (p j))) (lastValue d0 n est (d1 + j))) := by
    unfold disaggregateRadiation
    rw [if_neg (by simp), temp_hourly_index api hi hn, py_ok_bind, if_neg (by decide)]
    dsimp only
    rw [if_neg (by decide), if_neg (by decide), attr_ok hmin, py_ok_bind, attr_ok hmax, py_ok_bind, resampleD_hourlyS, ho, py_ok_bind,
      radiationCore_eq d0 hn]
  refine ⟨_, est, hr, by rw [resampleD_hourlyS, ho], ?_⟩
  intro i hi' q hq hq0 hpos r hr hr0
  obtain ⟨μ, hμ⟩ := bcMean_fin (d0 := d0) hf1 hf2 hi' hr
  have hg := (hv i hi' r _ μ hr (meanSkip_day24 hq) hμ (hc _)).1 hr0
  have hqm : 0 < (day24 q).sum / 24 := by positivity
  obtain ⟨b1, b2, _⟩ := bcReal_bounds (A := a (monthOf (at00 (d0 + i)))) (C := c (monthOf (at00 (d0 + i)))) (μ := μ) (ha _) hr0 hqm.le
  obtain ⟨y, hy, hy1, hy2⟩ := (rad_day_mean hq0 hpos b1).1
  refine ⟨_, y, hg, ?_, hy1, hy2, hy2.trans b2⟩
  have e : d0 + (i : Int) = d1 + ((d0 + i - d1).toNat : Int) := by omega
  rw [e, dayCells_hourlyS d1 _ (by omega), ← e, lastValue_self hi', meanSkip_day24 hq, hg]
  have e2 : (day24 fun h => radCell (p (d0 + i - d1).toNat h) (.fin ((day24 q).sum / 24))
      (.fin (bcReal (a (monthOf (at00 (d0 + i)))) (c (monthOf (at00 (d0 + i)))) μ r ((day24 q).sum / 24)))) =
      day24 fun h => radCell (.fin (q h)) (.fin ((day24 q).sum / 24))
        (.fin (bcReal (a (monthOf (at00 (d0 + i)))) (c (monthOf (at00 (d0 + i)))) μ r ((day24 q).sum / 24))) := by
    apply day24_congr
    intro h hh
    rw [hq h hh]
  rw [e2]
  exact hy

/-! ## concrete cases -/

/-- two days: sunshine 6 h and 12 h of 12 h, temperatures 0-10 and 2-8 degrees; radiation 100 and 50 W/m2 -/
def exRad : Frame ℝ :=
  ⟨[at00 0, at00 1], [("glob", [.fin 100, .fin 50]), ("ssd", [.fin 6, .fin 12]), ("tmin", [.fin 0, .fin 2]), ("tmax", [.fin 10, .fin 8])]⟩

/-- potential radiation: 240 W/m2 at noon and 1 W/m2 at 13h, on three days -/
def exPot : Nat → Nat → XF ℝ := fun _ h => if h = 12 then .fin 239 else if h = 13 then .fin 1 else .fin 0

def exPotReal (h : Nat) : ℝ := if h = 12 then 239 else if h = 13 then 1 else 0

theorem exPot_fin (j : Nat) : ∀ h < 24, exPot j h = .fin (exPotReal h) := by
  intro h _
  unfold exPot exPotReal
  split
  · rfl
  · split <;> rfl

theorem exPot_nonneg : ∀ h < 24, 0 ≤ exPotReal h := by
  intro h _
  unfold exPotReal
  split
  · norm_num
  · split <;> norm_num

theorem exPot_sum : (day24 exPotReal).sum = 240 := by
  unfold day24 exPotReal
  simp [List.range_succ]
  norm_num

/-- C54, C55, C56, C81: 'pot_rad' on these data.  The third day, without daily data, is computed with the value of the second. -/
example : ∃ out, disaggregateRadiation .modern exRad none (some (hourlyS 0 3 exPot)) "pot_rad" = .ok out ∧
    (∃ x, MeanIs (dayCells out 0) x ∧ 100 - 0.01 < x ∧ x ≤ 100) ∧ MeanIs (dayCells out 0) 100 ∧ (dayCells out 0)[3]? = some (.fin 0) ∧
    (∃ x, MeanIs (dayCells out 2) x ∧ 50 - 0.01 < x ∧ x ≤ 50) := by
  have hv : exRad.col? "glob" = some (dailyS 0 2 fun i => if i = 0 then .fin 100 else .fin 50) := rfl
  obtain ⟨out, h, h55⟩ := C55_daily_mean (m := 3) (d1 := 0) .modern (daily := exRad) (d0 := 0) (n := 2) rfl (by decide) _ hv none exPot
    (.scalar (.fin 0.25) (.fin 0.5)) (.scalar (.fin 0.75) (.fin 2.4)) none
  obtain ⟨out', h', h56⟩ := C56_follows_potential (m := 3) (d1 := 0) .modern (daily := exRad) (d0 := 0) (n := 2) rfl (by decide) _ hv none exPot
    (.scalar (.fin 0.25) (.fin 0.5)) (.scalar (.fin 0.75) (.fin 2.4)) none
  obtain ⟨out'', h'', _, h81⟩ := C81_outside_days (m := 3) (d1 := 0) .modern (daily := exRad) (d0 := 0) (n := 2) rfl (by decide) _ hv none exPot
    (.scalar (.fin 0.25) (.fin 0.5)) (.scalar (.fin 0.75) (.fin 2.4)) none
  rw [h] at h' h''
  cases h'
  cases h''
  have k := h55 0 (by decide) 0 (by decide) rfl exPotReal 100 (exPot_fin 0) exPot_nonneg (by rw [exPot_sum]; norm_num) rfl (by norm_num)
  refine ⟨out, h, k.1, k.2 ?_, ?_, ?_⟩
  · intro h _
    rw [exPot_sum]
    unfold exPotReal
    split
    · right; norm_num
    · split
      · right; norm_num
      · left; rfl
  · obtain ⟨y, h1, _, h2, _⟩ := h56 0 (by decide) 0 (by decide) rfl exPotReal 100 (exPot_fin 0) (by rw [exPot_sum]; norm_num) rfl
    have e := h1 3 (by decide)
    rw [h2 3 (by decide) (by unfold exPotReal; simp)] at e
    exact e
  · exact h81 2 (by decide) (by decide) exPotReal 50 (exPot_fin 2) exPot_nonneg (by rw [exPot_sum]; norm_num) rfl (by norm_num)

/-- C57: a polar night (potential 0 all day) -/
example : ∃ out, disaggregateRadiation .modern exRad none (some (hourlyS 0 3 fun _ _ => .fin 0)) "pot_rad" = .ok out ∧
    dayCells out (0 + (1 : Nat)) = List.replicate 24 .nan := by
  have hv : exRad.col? "glob" = some (dailyS 0 2 fun i => if i = 0 then .fin 100 else .fin 50) := rfl
  obtain ⟨out, h, _⟩ := C55_daily_mean (m := 3) (d1 := 0) .modern (daily := exRad) (d0 := 0) (n := 2) rfl (by decide) _ hv none (fun _ _ => .fin 0)
    (.scalar (.fin 0.25) (.fin 0.5)) (.scalar (.fin 0.75) (.fin 2.4)) none
  exact ⟨out, h, C57_polar_night .modern exRad none _ "pot_rad" _ _ none out (.inl rfl) h 1 (by decide) fun _ _ => rfl⟩

/-- C58: 6 h of 12 h sunshine in January, with parameters by month 0.2 and 0.6: 0.5 times the mean potential of 10 -/
example : ∃ out, disaggregateRadiation .modern exRad (some (dailyS 0 2 fun _ => ⟨.fin 6, .fin 12, .fin 18, .fin 12⟩)) (some (hourlyS 0 2 exPot))
    "pot_rad_via_ssd" (.monthly [(1, .fin 0.2)] [(1, .fin 0.6)]) = .ok out ∧ ∃ y, MeanIs (dayCells out 0) y ∧ 5 - 0.01 < y ∧ y ≤ 5 := by
  have hs : exRad.col? "ssd" = some (dailyS 0 2 fun i => if i = 0 then .fin 6 else .fin 12) := rfl
  have hm : ∀ i : Nat, i < 2 → monthOf (at00 (0 + i)) = 1 := by decide
  obtain ⟨out, h, h58⟩ := C58_disaggregate (m := 2) (d1 := 0) .modern (daily := exRad) (d0 := 0) (n := 2) rfl (by decide) _ hs
    (fun _ => ⟨.fin 6, .fin 12, .fin 18, .fin 12⟩) exPot (by decide) (by decide) (.monthly [(1, .fin 0.2)] [(1, .fin 0.6)])
    (.scalar (.fin 0.75) (.fin 2.4)) none (fun _ => 0.2) (fun _ => 0.6) (by intro i hi; rw [hm i hi]; exact ⟨rfl, rfl⟩)
  refine ⟨out, h, (h58 0 (by decide) exPotReal (exPot_fin 0) exPot_nonneg (by rw [exPot_sum]; norm_num)).1 12 6 5 rfl (by norm_num) rfl ?_ (by norm_num)⟩
  rw [exPot_sum]
  norm_num

/-- C59: ranges 10 - (0 + 2)/2 = 9 and 8 - 2 = 6 (last day: its own minimum) -/
example : ∃ out, bristowCampbell (dailyS 0 2 fun i => if i = 0 then .fin 0 else .fin 2) (dailyS 0 2 fun i => if i = 0 then .fin 10 else .fin 8)
    (dailyS 0 2 fun _ => .fin 10) (.scalar (.fin 0.75) (.fin 2.4)) = .ok (dailyS 0 2 out) ∧ ∃ R, out 1 = .fin R ∧ 0 < R ∧ R < 0.75 * 10 := by
  obtain ⟨out, h, hb, _⟩ := C59_bounds (d0 := 0) (d1 := 0) (n := 2) (m := 2) (by decide) (fun i => if i = 0 then .fin 0 else .fin 2)
    (fun i => if i = 0 then .fin 10 else .fin 8) (fun _ => .fin 10) (by decide) (by decide) (.scalar (.fin 0.75) (.fin 2.4)) (fun _ => 0.75) (fun _ => 2.4)
    (fun _ _ => ⟨rfl, rfl⟩) (fun _ => by norm_num) (fun _ => by norm_num) (by intro i _; split <;> trivial)
    (by intro i _; split <;> trivial)
  obtain ⟨R, h1, _, _, h4⟩ := (hb 1 (by decide) 2 8 2 10 rfl rfl rfl rfl (by norm_num)).1 (by norm_num)
  exact ⟨out, h, R, h1, h4 (by norm_num) (by norm_num)⟩

end

end Melodist
