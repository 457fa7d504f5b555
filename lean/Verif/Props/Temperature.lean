import Verif.Lemmas.Temperature

/-!
# C43-C47, C50, C80: temperature, sine methods

`IsLoc mmt md sun t lo hi` (Verif/Lemmas/Temperature.lean) says which hours of minimum and maximum the options `min_max_time`, `max_delta` and
`sun_times` prescribe for the day starting at `t`.
-/

set_option linter.unusedSectionVars false

namespace Melodist
open Spec

noncomputable section

variable {daily : Frame ℝ} {d0 : Int} {n : Nat} {tmin tmax temp : Nat → XF ℝ}

/-- the two sine methods through minimum and maximum -/
abbrev IsSine (method : String) : Prop := method = "sine_min_max" ∨ method = "sine"

theorem minValAt_row {lo hi : Nat → Int} {i : Nat} {h : Int} {a a' : ℝ} (ha : tmin i = .fin a) (ha' : nextDay n tmin i = .fin a') :
    minValAt h (locRow n tmin tmax temp lo hi i) = .fin (if h < hi i then a else a') := by
  unfold minValAt locRow
  dsimp only
  split <;> assumption

theorem maxValAt_row {lo hi : Nat → Int} {i : Nat} {h : Int} {b b' : ℝ} (hb : tmax i = .fin b) (hb' : prevDay tmax i = .fin b') :
    maxValAt h (locRow n tmin tmax temp lo hi i) = .fin (if h < lo i then b' else b) := by
  unfold maxValAt locRow
  dsimp only
  split <;> assumption

theorem sine_day' {api : PandasApi} (hd : TempDays daily d0 n tmin tmax temp) {method mmt : String}
    (hm : IsSine method) {modNight : Bool} {md : Option (List (Int × XF ℝ))}
    {course : Option (MeanCourse ℝ)} {sun : Series SunTimes} {out : Series (XF ℝ)}
    (h : disaggregateTemperature api daily method mmt modNight md course (some sun) = .ok out) {i : Nat} (hi : i < n) {lo hi' : Int}
    (hloc : IsLoc mmt md sun (at00 (d0 + i)) lo hi') :
    dayCells out (d0 + i) = day24 fun h => sineCell modNight h (locRow n tmin tmax temp (fun _ => lo) (fun _ => hi') i) := by
  have hm' : method = "sine_min_max" ∨ method = "sine_mean" ∨ method = "sine" := by rcases hm with h | h <;> simp [h]
  rw [sine_day hd hm' h hi hloc]
  rcases hm with rfl | rfl <;> simp

/-- **C43.**  Every number in the output of a successful call of 'sine_min_max' on a day lies between the smaller of the day's and the next
day's tmin and the larger of the day's and the previous day's tmax, whatever the options (hours of minimum and maximum, mod_nighttime, any other
data), if tmin ≤ tmax holds among these neighbours. -/
theorem C43_envelope (api : PandasApi) (hd : TempDays daily d0 n tmin tmax temp) (hn : 0 < n) (method mmt : String) (hm : IsSine method)
    (modNight : Bool) (md : Option (List (Int × XF ℝ))) (course : Option (MeanCourse ℝ)) (sun : Option (Series SunTimes)) (out : Series (XF ℝ))
    (hret : disaggregateTemperature api daily method mmt modNight md course sun = .ok out) (i : Nat) (hi : i < n) (a a' b b' : ℝ)
    (ha : tmin i = .fin a) (ha' : nextDay n tmin i = .fin a') (hb : tmax i = .fin b) (hb' : prevDay tmax i = .fin b')
    (h1 : a ≤ b) (h2 : a' ≤ b) (h3 : a ≤ b') (h4 : a' ≤ b') :
    ∀ x, .fin x ∈ dayCells out (d0 + i) → min a a' ≤ x ∧ x ≤ max b b' := by
  have hm' : method = "sine_min_max" ∨ method = "sine_mean" ∨ method = "sine" := by rcases hm with h | h <;> simp [h]
  obtain ⟨locs, lo, hi', _, _, _, rfl, _⟩ := sine_inv hd hn hm' hret
  intro x hx
  rw [dayCells_hourlyS d0 _ hi, mem_day24] at hx
  obtain ⟨h, hh, hx⟩ := hx
  rw [if_neg (by rcases hm with rfl | rfl <;> decide)] at hx
  have e1 := minValAt_row (tmax := tmax) (temp := temp) (lo := lo) (hi := hi') (h := h) ha ha'
  have e2 := maxValAt_row (n := n) (tmin := tmin) (temp := temp) (lo := lo) (hi := hi') (h := h) hb hb'
  rcases sineCell_cases (modNight := modNight) e1 e2 with e | ⟨c, e, c1, c2⟩
  · rw [e] at hx; cases hx
  · rw [e] at hx
    cases hx
    have hle : (if (h : Int) < hi' i then a else a') ≤ (if (h : Int) < lo i then b' else b) := by
      split <;> split <;> assumption
    obtain ⟨k1, k2⟩ := wave_bounds hle c1 c2
    constructor
    · refine le_trans ?_ k1
      split
      · exact min_le_left _ _
      · exact min_le_right _ _
    · refine le_trans k2 ?_
      split
      · exact le_max_right _ _
      · exact le_max_left _ _

/-- **C80.**  'sine_min_max' without mod_nighttime: the value at the prescribed hour of the maximum is exactly tmax of the day, and the value 12
hours earlier, if that is on the same day, exactly tmin of the day.  (The prescribed hour of the minimum only decides up to which hour the
previous day's maximum is used.) -/
theorem C80_peak_hour (api : PandasApi) (hd : TempDays daily d0 n tmin tmax temp) (method mmt : String) (hm : IsSine method)
    (md : Option (List (Int × XF ℝ))) (course : Option (MeanCourse ℝ)) (sun : Series SunTimes) (out : Series (XF ℝ))
    (hret : disaggregateTemperature api daily method mmt false md course (some sun) = .ok out) (i : Nat) (hi : i < n) (a a' b b' : ℝ)
    (ha : tmin i = .fin a) (ha' : nextDay n tmin i = .fin a') (hb : tmax i = .fin b) (hb' : prevDay tmax i = .fin b')
    (lo : Int) (peak : Nat) (hloc : IsLoc mmt md sun (at00 (d0 + i)) lo peak) (hp : peak < 24) (hlo : lo ≤ peak) :
    (dayCells out (d0 + i))[peak]? = some (.fin b) ∧ (12 ≤ peak → (dayCells out (d0 + i))[peak - 12]? = some (.fin a)) := by
  rw [sine_day' hd hm hret hi hloc]
  constructor
  · rw [day24_getElem? _ hp]
    congr 1
    rw [sineCell_eq (minValAt_row ha ha') (maxValAt_row hb hb') (by simp)]
    unfold locRow
    dsimp only
    rw [sinePhase_false, cos_peak, if_neg (by omega), if_neg (by omega)]
    congr 1; ring
  · intro h12
    rw [day24_getElem? _ (by omega)]
    congr 1
    rw [sineCell_eq (minValAt_row ha ha') (maxValAt_row hb hb') (by simp)]
    unfold locRow
    dsimp only
    rw [sinePhase_false, cos_trough _ _ (by left; omega), if_pos (by omega)]
    congr 1; ring

/-- **C44.**  With fixed times the value at 14:00 is exactly tmax and the value at 02:00 exactly tmin of the day. -/
theorem C44_fixed_times (api : PandasApi) (hd : TempDays daily d0 n tmin tmax temp) (method : String) (hm : IsSine method)
    (md : Option (List (Int × XF ℝ))) (course : Option (MeanCourse ℝ)) (sun : Series SunTimes) (out : Series (XF ℝ))
    (hret : disaggregateTemperature api daily method "fix" false md course (some sun) = .ok out) (i : Nat) (hi : i < n) (a a' b b' : ℝ)
    (ha : tmin i = .fin a) (ha' : nextDay n tmin i = .fin a') (hb : tmax i = .fin b) (hb' : prevDay tmax i = .fin b') :
    (dayCells out (d0 + i))[14]? = some (.fin b) ∧ (dayCells out (d0 + i))[2]? = some (.fin a) := by
  have := C80_peak_hour api hd method "fix" hm md course sun out hret i hi a a' b b' ha ha' hb hb' 7 14 (.inl ⟨rfl, rfl, rfl⟩)
    (by decide) (by decide)
  exact ⟨this.1, this.2 (by decide)⟩

/-- all cells of a day as numbers -/
theorem sine_numbers {modNight : Bool} {i : Nat} {lo hi : Int} {a a' b b' : ℝ} (ha : tmin i = .fin a) (ha' : nextDay n tmin i = .fin a')
    (hb : tmax i = .fin b) (hb' : prevDay tmax i = .fin b') (hl : modNight = true → hi - lo ≠ 24) :
    (day24 fun h => sineCell modNight h (locRow n tmin tmax temp (fun _ => lo) (fun _ => hi) i)) =
      (day24 fun h : Nat => (if (h : Int) < hi then a else a') + ((if (h : Int) < lo then b' else b) - (if (h : Int) < hi then a else a')) / 2 +
        ((if (h : Int) < lo then b' else b) - (if (h : Int) < hi then a else a')) / 2 * Real.cos (sinePhase modNight lo hi h)).map XF.fin := by
  rw [day24_map]
  apply day24_congr
  intro h _
  exact sineCell_eq (minValAt_row ha ha') (maxValAt_row hb hb') hl

theorem sine_extremes {modNight : Bool} {i : Nat} {lo hi : Int} {a a' b b' : ℝ} (ha : tmin i = .fin a) (ha' : nextDay n tmin i = .fin a')
    (hb : tmax i = .fin b) (hb' : prevDay tmax i = .fin b') (hl : modNight = true → hi - lo ≠ 24) (h1 : a ≤ a') (h2 : b' ≤ b) (h3 : a' ≤ b)
    (h4 : a ≤ b') (hlo : lo ≤ hi) {hm hM : Nat} (k1 : hm < 24) (k2 : hM < 24) (k3 : (hm : Int) < hi)
    (k4 : Real.cos (sinePhase modNight lo hi hm) = -1) (k5 : lo ≤ hM) (k6 : Real.cos (sinePhase modNight lo hi hM) = 1) :
    MinIs (day24 fun h => sineCell modNight h (locRow n tmin tmax temp (fun _ => lo) (fun _ => hi) i)) a ∧
    MaxIs (day24 fun h => sineCell modNight h (locRow n tmin tmax temp (fun _ => lo) (fun _ => hi) i)) b := by
  have key : ∀ h : Nat, (if (h : Int) < hi then a else a') ≤ (if (h : Int) < lo then b' else b) := by
    intro h
    by_cases c1 : (h : Int) < hi
    · rw [if_pos c1]; split
      · exact h4
      · linarith
    · rw [if_neg c1, if_neg (by omega)]; exact h3
  rw [sine_numbers ha ha' hb hb' hl]
  constructor
  · refine ⟨_, rfl, ?_, ?_⟩
    · rw [mem_day24]
      refine ⟨hm, k1, ?_⟩
      rw [k4, if_pos k3]; ring
    · intro y hy
      obtain ⟨h, hh, rfl⟩ := mem_day24.1 hy
      refine le_trans ?_ (wave_bounds (key h) (Real.neg_one_le_cos _) (Real.cos_le_one _)).1
      split <;> linarith
  · refine ⟨_, rfl, ?_, ?_⟩
    · rw [mem_day24]
      refine ⟨hM, k2, ?_⟩
      rw [k6, if_neg (show ¬ (hM : Int) < lo by omega)]; ring
    · intro y hy
      obtain ⟨h, hh, rfl⟩ := mem_day24.1 hy
      refine le_trans (wave_bounds (key h) (Real.neg_one_le_cos _) (Real.cos_le_one _)).2 ?_
      split <;> linarith

/-- **C45 (when it is true).**  Without mod_nighttime, with the hour of the maximum in 12..23 and not before the hour of the minimum: if the next
day is not colder at its minimum (a ≤ a' ≤ b) and the previous day not warmer at its maximum (a ≤ b' ≤ b), the smallest and the largest of the 24
values are exactly tmin and tmax of the day. -/
theorem C45_extremes_preserved_if (api : PandasApi) (hd : TempDays daily d0 n tmin tmax temp) (method mmt : String) (hm : IsSine method)
    (md : Option (List (Int × XF ℝ))) (course : Option (MeanCourse ℝ)) (sun : Series SunTimes) (out : Series (XF ℝ))
    (hret : disaggregateTemperature api daily method mmt false md course (some sun) = .ok out) (i : Nat) (hi : i < n) (a a' b b' : ℝ)
    (ha : tmin i = .fin a) (ha' : nextDay n tmin i = .fin a') (hb : tmax i = .fin b) (hb' : prevDay tmax i = .fin b')
    (lo : Int) (peak : Nat) (hloc : IsLoc mmt md sun (at00 (d0 + i)) lo peak) (hp : 12 ≤ peak ∧ peak < 24) (hlo : lo ≤ peak)
    (h1 : a ≤ a') (h2 : b' ≤ b) (h3 : a' ≤ b) (h4 : a ≤ b') :
    MinIs (dayCells out (d0 + i)) a ∧ MaxIs (dayCells out (d0 + i)) b := by
  rw [sine_day' hd hm hret hi hloc]
  refine sine_extremes ha ha' hb hb' (by simp) h1 h2 h3 h4 hlo (hm := peak - 12) (hM := peak) (by omega) (by omega) (by omega) ?_ hlo ?_
  · rw [sinePhase_false]; exact cos_trough _ _ (by left; omega)
  · rw [sinePhase_false]; exact cos_peak _

/-- **C46.**  With mod_nighttime the value at the prescribed hour of the minimum is exactly tmin and the value at the prescribed hour of the
maximum exactly tmax of the day. -/
theorem C46_mod_nighttime (api : PandasApi) (hd : TempDays daily d0 n tmin tmax temp) (method mmt : String) (hm : IsSine method)
    (md : Option (List (Int × XF ℝ))) (course : Option (MeanCourse ℝ)) (sun : Series SunTimes) (out : Series (XF ℝ))
    (hret : disaggregateTemperature api daily method mmt true md course (some sun) = .ok out) (i : Nat) (hi : i < n) (a a' b b' : ℝ)
    (ha : tmin i = .fin a) (ha' : nextDay n tmin i = .fin a') (hb : tmax i = .fin b) (hb' : prevDay tmax i = .fin b')
    (lo peak : Nat) (hloc : IsLoc mmt md sun (at00 (d0 + i)) lo peak) (hlo : lo < peak) (hp : peak < 24) :
    (dayCells out (d0 + i))[lo]? = some (.fin a) ∧ (dayCells out (d0 + i))[peak]? = some (.fin b) ∧
    (a ≤ a' → b' ≤ b → a' ≤ b → a ≤ b' → MinIs (dayCells out (d0 + i)) a ∧ MaxIs (dayCells out (d0 + i)) b) := by
  rw [sine_day' hd hm hret hi hloc]
  refine ⟨?_, ?_, ?_⟩
  · rw [day24_getElem? _ (by omega)]
    congr 1
    rw [sineCell_eq (minValAt_row ha ha') (maxValAt_row hb hb') (by intro _; show (peak : Int) - lo ≠ 24; omega)]
    unfold locRow
    dsimp only
    rw [cos_lo (by omega) (by omega), if_pos (by omega)]
    congr 1; ring
  · rw [day24_getElem? _ (by omega)]
    congr 1
    rw [sineCell_eq (minValAt_row ha ha') (maxValAt_row hb hb') (by intro _; show (peak : Int) - lo ≠ 24; omega)]
    unfold locRow
    dsimp only
    rw [cos_hi, if_neg (show ¬ (peak : Int) < lo by omega)]
    congr 1; ring
  · intro h1 h2 h3 h4
    exact sine_extremes ha ha' hb hb' (by intro _; omega) h1 h2 h3 h4 (by omega) (hm := lo) (hM := peak) (by omega) (by omega) (by omega)
      (cos_lo (by omega) (by omega)) (by omega) (cos_hi _ _)

/-- **C45 (07:00).**  Without mod_nighttime the documented hour 7 of the minimum is wrong for fixed times: the value at 07:00 is tmin only if
tmin = tmax. -/
theorem C45_seven_oclock (api : PandasApi) (hd : TempDays daily d0 n tmin tmax temp) (method : String) (hm : IsSine method)
    (md : Option (List (Int × XF ℝ))) (course : Option (MeanCourse ℝ)) (sun : Series SunTimes) (out : Series (XF ℝ))
    (hret : disaggregateTemperature api daily method "fix" false md course (some sun) = .ok out) (i : Nat) (hi : i < n) (a a' b b' : ℝ)
    (ha : tmin i = .fin a) (ha' : nextDay n tmin i = .fin a') (hb : tmax i = .fin b) (hb' : prevDay tmax i = .fin b') :
    (dayCells out (d0 + i))[7]? = some (.fin a) ↔ a = b := by
  rw [sine_day' hd hm hret hi (.inl ⟨rfl, rfl, rfl⟩), day24_getElem? _ (by omega),
    sineCell_eq (minValAt_row ha ha') (maxValAt_row hb hb') (by simp)]
  unfold locRow
  dsimp only
  rw [sinePhase_false, if_pos (by decide), if_neg (by decide)]
  have hc : -1 < Real.cos (2 * Real.pi / 24 * (((7 : Nat) - 14 : Int) : ℝ)) := by
    have e : 2 * Real.pi / 24 * (((7 : Nat) - 14 : Int) : ℝ) = -(7 * Real.pi / 12) := by push_cast; ring
    rw [e, Real.cos_neg, ← Real.cos_pi]
    have := Real.pi_pos
    apply Real.cos_lt_cos_of_nonneg_of_le_pi <;> linarith
  constructor
  · intro h
    simp only [Option.some.injEq, XF.fin.injEq] at h
    have : (b - a) / 2 * (1 + Real.cos (2 * Real.pi / 24 * (((7 : Nat) - 14 : Int) : ℝ))) = 0 := by linear_combination h
    rcases mul_eq_zero.1 this with h' | h'
    · linarith
    · linarith
  · rintro rfl
    congr 2
    ring

/-- **C47.**  'sine_mean': for every option the mean of the 24 values is exactly the daily mean, the largest is the mean plus half the
range tmax - tmin, the smallest the mean minus half the range (so their difference is exactly tmax - tmin). -/
theorem C47_sine_mean (api : PandasApi) (hd : TempDays daily d0 n tmin tmax temp) (hn : 0 < n) (mmt : String) (modNight : Bool)
    (md : Option (List (Int × XF ℝ))) (course : Option (MeanCourse ℝ)) (sun : Option (Series SunTimes)) (out : Series (XF ℝ))
    (hret : disaggregateTemperature api daily "sine_mean" mmt modNight md course sun = .ok out) (i : Nat) (hi : i < n) (a b t : ℝ)
    (ha : tmin i = .fin a) (hb : tmax i = .fin b) (ht : temp i = .fin t) (hab : a ≤ b) :
    MeanIs (dayCells out (d0 + i)) t ∧ MaxIs (dayCells out (d0 + i)) (t + (b - a) / 2) ∧ MinIs (dayCells out (d0 + i)) (t - (b - a) / 2) := by
  obtain ⟨locs, lo, hi', _, _, _, rfl, _⟩ := sine_inv hd hn (.inr (.inl rfl)) hret
  rw [dayCells_hourlyS d0 _ hi]
  have e : (day24 fun h : Nat => if "sine_mean" = "sine_mean" then sineMeanCell h (locRow n tmin tmax temp lo hi' i)
      else sineCell modNight h (locRow n tmin tmax temp lo hi' i)) =
      (day24 fun h : Nat => t + (b - a) / 2 * Real.cos (Real.pi * ((h : ℝ) - hi' i) / 12)).map XF.fin := by
    rw [day24_map]
    apply day24_congr
    intro h _
    rw [if_pos rfl]
    unfold sineMeanCell locRow
    dsimp only
    rw [ha, hb, ht, XF.fin_sub_fin, XF.fin_div_fin_of_ne _ (by norm_num), XF.cos_fin, XF.fin_mul_fin, XF.fin_add_fin]
    congr 4
    push_cast
    ring
  rw [e]
  have hh : ∃ h : Nat, h < 24 ∧ ∃ k : Int, (h : Int) - hi' i = 24 * k := ⟨((hi' i) % 24).toNat, by omega, -(hi' i / 24), by omega⟩
  have hl : ∃ h : Nat, h < 24 ∧ ∃ k : Int, (h : Int) - hi' i = 24 * k + 12 := ⟨((hi' i + 12) % 24).toNat, by omega, -((hi' i + 12) / 24), by omega⟩
  obtain ⟨hx, hx24, k, hk⟩ := hh
  obtain ⟨hy, hy24, l, hl⟩ := hl
  have cx : Real.cos (Real.pi * ((hx : ℝ) - hi' i) / 12) = 1 := by
    have : ((hx : ℝ) - hi' i) = 24 * (k : ℝ) := by exact_mod_cast hk
    rw [this, show Real.pi * (24 * (k : ℝ)) / 12 = (k : ℝ) * (2 * Real.pi) by ring, Real.cos_int_mul_two_pi]
  have cy : Real.cos (Real.pi * ((hy : ℝ) - hi' i) / 12) = -1 := by
    have : ((hy : ℝ) - hi' i) = 24 * (l : ℝ) + 12 := by exact_mod_cast hl
    rw [this, show Real.pi * (24 * (l : ℝ) + 12) / 12 = Real.pi + (l : ℝ) * (2 * Real.pi) by ring, Real.cos_add_int_mul_two_pi, Real.cos_pi]
  refine ⟨⟨_, rfl, ?_, ?_⟩, ⟨_, rfl, ?_, ?_⟩, ⟨_, rfl, ?_, ?_⟩⟩
  · simp [day24]
  · rw [sum_day24_add, sum_day24_mul, cos_day_sum, sum_day24_const, day24_length]
    push_cast
    ring
  · exact mem_day24.2 ⟨hx, hx24, by rw [cx]; ring⟩
  · intro y hy
    obtain ⟨h, _, rfl⟩ := mem_day24.1 hy
    have := Real.cos_le_one (Real.pi * ((h : ℝ) - hi' i) / 12)
    nlinarith
  · exact mem_day24.2 ⟨hy, hy24, by rw [cy]; ring⟩
  · intro y hy
    obtain ⟨h, _, rfl⟩ := mem_day24.1 hy
    have := Real.neg_one_le_cos (Real.pi * ((h : ℝ) - hi' i) / 12)
    nlinarith

/-- **C50 (sine).**  'sine_min_max' on any pattern of missing and number values (mod_nighttime: unless the prescribed hours are exactly 24 h apart):
the value at hour `h` is missing exactly when one of the two extremes it is built from is missing: tmin of the day (before the hour of the
maximum) or of the next day (from it on), and tmax of the previous day (before the hour of the minimum) or of the day (from it on). -/
theorem C50_missing_sine (api : PandasApi) (hd : TempDays daily d0 n tmin tmax temp) (method mmt : String) (hm : IsSine method) (modNight : Bool)
    (md : Option (List (Int × XF ℝ))) (course : Option (MeanCourse ℝ)) (sun : Series SunTimes) (out : Series (XF ℝ))
    (hret : disaggregateTemperature api daily method mmt modNight md course (some sun) = .ok out)
    (hf1 : ∀ i < n, (tmin i).NanOrFin) (hf2 : ∀ i < n, (tmax i).NanOrFin) (i : Nat) (hi : i < n)
    (lo peak : Int) (hloc : IsLoc mmt md sun (at00 (d0 + i)) lo peak) (hl : modNight = true → peak - lo ≠ 24) (h : Nat) (hh : h < 24) :
    ∃ c, (dayCells out (d0 + i))[h]? = some c ∧ c.NanOrFin ∧
      (c = .nan ↔ (if (h : Int) < peak then tmin i else nextDay n tmin i) = .nan ∨ (if (h : Int) < lo then prevDay tmax i else tmax i) = .nan) := by
  rw [sine_day' hd hm hret hi hloc, day24_getElem? _ hh]
  refine ⟨_, rfl, ?_⟩
  have e1 : minValAt h (locRow n tmin tmax temp (fun _ => lo) (fun _ => peak) i) = (if (h : Int) < peak then tmin i else nextDay n tmin i) := rfl
  have e2 : maxValAt h (locRow n tmin tmax temp (fun _ => lo) (fun _ => peak) i) = (if (h : Int) < lo then prevDay tmax i else tmax i) := rfl
  rw [← e1, ← e2]
  have n1 : (minValAt h (locRow n tmin tmax temp (fun _ => lo) (fun _ => peak) i)).NanOrFin := by
    rw [e1]; unfold nextDay
    split
    · exact hf1 i hi
    · split
      · exact hf1 _ (by assumption)
      · exact hf1 i hi
  have n2 : (maxValAt h (locRow n tmin tmax temp (fun _ => lo) (fun _ => peak) i)).NanOrFin := by
    rw [e2]; unfold prevDay
    split
    · split
      · exact hf2 i hi
      · exact hf2 _ (by omega)
    · exact hf2 i hi
  cases hmin : minValAt h (locRow n tmin tmax temp (fun _ => lo) (fun _ => peak) i) with
  | nan => rw [sineCell_nan (.inl hmin)]; exact ⟨trivial, by simp⟩
  | ninf => rw [hmin] at n1; exact n1.elim
  | pinf => rw [hmin] at n1; exact n1.elim
  | fin m =>
    cases hmax : maxValAt h (locRow n tmin tmax temp (fun _ => lo) (fun _ => peak) i) with
    | nan => rw [sineCell_nan (.inr hmax)]; exact ⟨trivial, by simp⟩
    | ninf => rw [hmax] at n2; exact n2.elim
    | pinf => rw [hmax] at n2; exact n2.elim
    | fin M => rw [sineCell_eq hmin hmax hl]; exact ⟨trivial, by simp⟩

end

end Melodist
