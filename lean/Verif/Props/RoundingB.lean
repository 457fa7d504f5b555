import Verif.Props.Rounding
import Verif.Props.Master
import Verif.Lemmas.LocalityB
import Verif.Lemmas.RoundBits

/-!
# C102: precipitation disaggregation in floating-point arithmetic: equal parts, master station, examples
-/

set_option linter.unusedSectionVars false

namespace Melodist
open Spec

section
variable {K : Type} [Field K] [LinearOrder K] [IsStrictOrderedRing K]

/-- **C102** (equal parts) The 24 hourly values of a day add up to its precipitation P up to u·|P|. -/
theorem C102_equal (R : Rounding K) (api : PandasApi) (d0 : Int) {n : Nat} (hn : 0 < n) (v : Nat → XF K) :
    ∃ out, distributeEquallyR R.fl api (dailyS d0 n v) = .ok out ∧ ∀ i < n, (v i = .nan → AllNan (dayCells out (d0 + i))) ∧
      ∀ P, v i = .fin P → ∃ T, TotalIs (dayCells out (d0 + i)) T ∧ |T - P| ≤ R.u * |P| := by
  have e : distributeEquallyR R.fl api (dailyS d0 n v) = .ok (hourlyS d0 n fun i _ => (v i / .fin 24).rnd R.fl) := by
    have h := distributeEqually_daily api d0 hn v
    unfold distributeEqually at h
    unfold distributeEquallyR
    obtain ⟨idx, h1, h⟩ := Except.bind_ok h
    obtain ⟨r, h2, h⟩ := Except.bind_ok h
    rw [h1, py_ok_bind, h2, py_ok_bind]
    simp only [Bool.false_eq_true, if_false] at h
    injection h with h
    rw [h]
    unfold hourlyS
    dsimp only
    rw [List.map_map]
    rfl
  refine ⟨_, e, fun i hi => ⟨?_, ?_⟩⟩
  · intro hv c hc
    rw [dayCells_hourlyS d0 _ hi] at hc
    obtain ⟨k, _, rfl⟩ := mem_day24.1 hc
    rw [hv, XF.nan_div]
    rfl
  · intro P hP
    have h24 : (24 : K) ≠ 0 := by norm_num
    refine ⟨24 * R.fl (P / 24), ?_, ?_⟩
    · rw [dayCells_hourlyS d0 _ hi]
      refine ⟨day24 fun _ => R.fl (P / 24), ?_, ?_⟩
      · rw [day24_map, hP, XF.fin_div_fin_of_ne _ h24]
        rfl
      · rw [sum_day24_const]
    · have h := R.err (P / 24)
      have e : 24 * R.fl (P / 24) - P = 24 * (R.fl (P / 24) - P / 24) := by field_simp
      rw [e, abs_mul, abs_of_pos (by norm_num : (0 : K) < 24)]
      rw [abs_div, abs_of_pos (by norm_num : (0 : K) < 24)] at h
      calc 24 * |R.fl (P / 24) - P / 24| ≤ 24 * (R.u * (|P| / 24)) := mul_le_mul_of_nonneg_left h (by norm_num)
        _ = R.u * |P| := by field_simp

/-- the value of hour `h` of day `d` written by one iteration of the loop over the days -/
def masterCellR (fl : K → K) (sum : List (XF K) → XF K) (zerodiv : String) (d : Int) (v : XF K) (m : Series (XF K)) (h : Nat) : XF K :=
  let tot := sum m.values
  if ¬ XF.feq tot (.fin 0) ∧ ¬ XF.feq tot (if tot.isNan then .fin 1 else .fin 0) then
    ((Series.at? (m.map fun r => (r.1, ((r.2 / tot).rnd fl * v).rnd fl)) (atHour d h)).getD .nan)
  else if zerodiv = "uniform" then (.fin (fl (1 / 24)) * v).rnd fl else .fin 0

theorem masterDayR_run {fl : K → K} {sum : List (XF K) → XF K} {zerodiv : String} {d0 : Int} {n : Nat} {f : Nat → Nat → XF K} {j : Nat} {v : XF K} {m acc : Series (XF K)}
    (h : masterDayR fl sum zerodiv (d0 + (j : Int)) v m (hourlyS d0 n f) = .ok acc) :
    acc = hourlyS d0 n fun i h => if i = j then masterCellR fl sum zerodiv (d0 + (j : Int)) v m h else f i h := by
  unfold masterDayR at h
  dsimp only at h
  have key : ∀ g : Time → XF K, (∀ h < 24, g (atHour (d0 + (j : Int)) h) = masterCellR fl sum zerodiv (d0 + (j : Int)) v m h) →
      (hourlyS d0 n f).map (fun r => if dayOf r.1 = d0 + (j : Int) then (r.1, g r.1) else r) =
        hourlyS d0 n fun i h => if i = j then masterCellR fl sum zerodiv (d0 + (j : Int)) v m h else f i h := by
    intro g hg
    rw [hourlyS_setDay]
    apply hourlyS_congr
    intro i _ k hk
    by_cases e : i = j
    · subst e
      rw [if_pos rfl, if_pos rfl]
      exact hg k hk
    · rw [if_neg e, if_neg e]
  by_cases hc : ¬ XF.feq (sum m.values) (.fin 0) ∧
      ¬ XF.feq (sum m.values) (if (sum m.values).isNan then .fin 1 else .fin 0)
  · rw [if_pos hc] at h
    by_cases hi : Series.index (List.map (fun r => (r.1, ((r.2 / sum m.values).rnd fl * v).rnd fl)) m) =
        List.map Prod.fst (List.filter (fun r => dayOf r.1 == d0 + (j : Int)) (hourlyS d0 n f))
    · rw [if_pos hi] at h
      cases h
      exact key (fun t => (Series.at? (m.map fun r => (r.1, ((r.2 / sum m.values).rnd fl * v).rnd fl)) t).getD .nan) (fun k _ => by
        unfold masterCellR; dsimp only; rw [if_pos hc])
    · rw [if_neg hi] at h
      cases h
  · rw [if_neg hc] at h
    by_cases hz : zerodiv = "uniform"
    · rw [if_pos hz] at h
      cases h
      exact key (fun _ => (.fin (fl (1 / 24)) * v).rnd fl) (fun k _ => by unfold masterCellR; dsimp only; rw [if_neg hc, if_pos hz])
    · rw [if_neg hz] at h
      cases h
      exact key (fun _ => .fin 0) (fun k _ => by unfold masterCellR; dsimp only; rw [if_neg hc, if_neg hz])

theorem masterLoopR_run {fl : K → K} {sum : List (XF K) → XF K} {zerodiv : String} {d0 : Int} {n : Nat} {v : Nat → XF K} {master : Series (XF K)} : ∀ (k j : Nat)
    {f : Nat → Nat → XF K} {acc : Series (XF K)}, j + k = n →
    ((List.range' j k).map fun i : Nat => (at00 (d0 + (i : Int)), v i)).foldlM (init := hourlyS d0 n f) (fun acc r => (do
        let q ← selectDate master (dayOf r.1)
        masterDayR fl sum zerodiv (dayOf r.1) r.2 q acc : Py (Series (XF K)))) = .ok acc →
    acc = hourlyS d0 n fun i h => if j ≤ i ∧ i < n then masterCellR fl sum zerodiv (d0 + (i : Int)) (v i)
      (master.filter fun q => dayOf q.1 == d0 + (i : Int)) h else f i h := by
  intro k
  induction k with
  | zero =>
    intro j f acc hj h
    cases h
    apply hourlyS_congr
    intro i hi h _
    rw [if_neg (by omega)]
  | succ k ih =>
    intro j f acc hj h
    rw [List.range'_succ, List.map_cons, List.foldlM_cons] at h
    obtain ⟨acc1, h1, h⟩ := Except.bind_ok h
    obtain ⟨q, hq, h1⟩ := Except.bind_ok h1
    have hd : dayOf (at00 (d0 + (j : Int))) = d0 + (j : Int) := by unfold dayOf at00; omega
    dsimp only at hq h1
    rw [hd] at hq h1
    have e1 := masterDayR_run h1
    rw [selectDate_run hq] at e1
    rw [e1] at h
    rw [ih (j + 1) (by omega) h]
    apply hourlyS_congr
    intro i hi h _
    by_cases e : i = j
    · subst e
      rw [if_neg (by omega), if_pos rfl, if_pos (by omega)]
    · by_cases hl : j + 1 ≤ i ∧ i < n
      · rw [if_pos hl, if_pos (by omega)]
      · rw [if_neg hl, if_neg e, if_neg (by omega)]

/-- a successful run -/
theorem masterR_run {fl : K → K} {sum : List (XF K) → XF K} {api : PandasApi} {zerodiv : String} {d0 : Int} {n : Nat} (hn : 0 < n) {v : Nat → XF K}
    {master out : Series (XF K)} (h : precipMasterStationR fl sum api (dailyS d0 n v) master zerodiv = .ok out) :
    out = hourlyS d0 n fun i h => masterCellR fl sum zerodiv (d0 + (i : Int)) (v i) (master.filter fun q => dayOf q.1 == d0 + (i : Int)) h := by
  unfold precipMasterStationR at h
  rw [hourlyIndex_daily api d0 hn v false (fun _ _ => (XF.nan : XF K)), py_ok_bind] at h
  have hs : (Series.index (hourlyS d0 n fun _ _ => (XF.nan : XF K))).map (fun t => (t, (XF.nan : XF K))) =
      hourlyS d0 n fun _ _ => XF.nan := by
    simp [Series.index, hourlyS, Function.comp_def]
  dsimp only at h
  obtain ⟨_, _, h⟩ := Except.bind_ok h
  rw [hs] at h
  have e : dailyS d0 n v = (List.range' 0 n).map fun i : Nat => (at00 (d0 + (i : Int)), v i) := by
    rw [← List.range_eq_range']; rfl
  rw [e] at h
  rw [masterLoopR_run n 0 (by omega) h]
  apply hourlyS_congr
  intro i hi h _
  rw [if_pos (by omega)]

theorem sum_map_le {l : List Nat} {f g : Nat → K} (h : ∀ k ∈ l, f k ≤ g k) : (l.map f).sum ≤ (l.map g).sum := List.sum_le_sum h

theorem day24_sum_mul (a : K) (f : Nat → K) : (day24 fun k => a * f k).sum = a * (day24 f).sum := by
  unfold day24
  rw [List.sum_map_mul_left]

/-- any way of adding numbers that are not negative -/
theorem addsTo_bounds (R : Rounding K) {l : List K} {t : K} (h : AddsTo R.fl l t) (h0 : ∀ x ∈ l, 0 ≤ x) :
    0 < l.length ∧ 0 ≤ t ∧ (1 - R.u) ^ (l.length - 1) * l.sum ≤ t ∧ t ≤ (1 + R.u) ^ (l.length - 1) * l.sum := by
  induction h with
  | one x => simp [h0 x (by simp)]
  | @add l m a b _ _ ih1 ih2 =>
    obtain ⟨n1, p1, l1, u1⟩ := ih1 fun x hx => h0 x (List.mem_append_left _ hx)
    obtain ⟨n2, p2, l2, u2⟩ := ih2 fun x hx => h0 x (List.mem_append_right _ hx)
    have s1 : 0 ≤ l.sum := List.sum_nonneg fun x hx => h0 x (List.mem_append_left _ hx)
    have s2 : 0 ≤ m.sum := List.sum_nonneg fun x hx => h0 x (List.mem_append_right _ hx)
    have bd := R.fl_bounds (add_nonneg p1 p2)
    have lo1 := R.lo_le_one
    have hi1 : 1 ≤ 1 + R.u := by linarith [R.u_nonneg]
    rw [List.length_append, List.sum_append]
    refine ⟨by omega, R.fl_nonneg (add_nonneg p1 p2), ?_, ?_⟩
    · have e : l.length + m.length - 1 = (l.length + m.length - 2) + 1 := by omega
      rw [e, pow_succ]
      have a1 : (1 - R.u) ^ (l.length + m.length - 2) ≤ (1 - R.u) ^ (l.length - 1) := pow_le_pow_of_le_one R.lo_nonneg lo1 (by omega)
      have a2 : (1 - R.u) ^ (l.length + m.length - 2) ≤ (1 - R.u) ^ (m.length - 1) := pow_le_pow_of_le_one R.lo_nonneg lo1 (by omega)
      have b1 := mul_le_mul_of_nonneg_right a1 s1
      have b2 := mul_le_mul_of_nonneg_right a2 s2
      refine le_trans ?_ bd.1
      have := mul_le_mul_of_nonneg_left (show (1 - R.u) ^ (l.length + m.length - 2) * (l.sum + m.sum) ≤ a + b by linarith) R.lo_nonneg
      linarith
    · have e : l.length + m.length - 1 = (l.length + m.length - 2) + 1 := by omega
      rw [e, pow_succ]
      have a1 : (1 + R.u) ^ (l.length - 1) ≤ (1 + R.u) ^ (l.length + m.length - 2) := pow_le_pow_right₀ hi1 (by omega)
      have a2 : (1 + R.u) ^ (m.length - 1) ≤ (1 + R.u) ^ (l.length + m.length - 2) := pow_le_pow_right₀ hi1 (by omega)
      have b1 := mul_le_mul_of_nonneg_right a1 s1
      have b2 := mul_le_mul_of_nonneg_right a2 s2
      refine le_trans bd.2 ?_
      have := mul_le_mul_of_nonneg_left (show a + b ≤ (1 + R.u) ^ (l.length + m.length - 2) * (l.sum + m.sum) by linarith) R.hi_nonneg
      linarith
  | @perm l m a _ hp ih =>
    have := ih fun x hx => h0 x (hp.mem_iff.1 hx)
    rw [hp.length_eq, hp.sum_eq] at this
    exact this

/-- **C102** (master station) The total of the master station's day is computed in the same arithmetic, by 23 additions in any order and bracketing.  Then the 24 hourly
values add up to the precipitation P of the day up to the relative error of 25 roundings; if the master station is dry on that day, with 'uniform', up to that of two
roundings. -/
theorem C102_master (R : Rounding K) {sum : List (XF K) → XF K} {api : PandasApi} {zerodiv : String} {d0 : Int} {n : Nat} {v : Nat → XF K}
    {master out : Series (XF K)} {m : Nat → Nat → K} (hm : MasterRows master d0 n fun i h => .fin (m i h)) (hm0 : ∀ i < n, ∀ h < 24, 0 ≤ m i h)
    (ho : precipMasterStationR R.fl sum api (dailyS d0 n v) master zerodiv = .ok out) {i : Nat} (hi : i < n) {P : K} (hP : v i = .fin P) (hP0 : 0 ≤ P)
    {t : K} (ht : sum ((day24 (m i)).map .fin) = .fin t) (hadd : AddsTo R.fl (day24 (m i)) t) :
    ((day24 (m i)).sum ≠ 0 → ∃ T, TotalIs (dayCells out (d0 + i)) T ∧
      (1 - R.u) ^ 2 / (1 + R.u) ^ 23 * P ≤ T ∧ T ≤ (1 + R.u) ^ 2 / (1 - R.u) ^ 23 * P) ∧
    ((day24 (m i)).sum = 0 → zerodiv = "uniform" → ∃ T, TotalIs (dayCells out (d0 + i)) T ∧ (1 - R.u) ^ 2 * P ≤ T ∧ T ≤ (1 + R.u) ^ 2 * P) := by
  rw [masterR_run (by omega) ho, dayCells_hourlyS d0 _ hi, hm.filter i hi]
  have hrows : Series.values ((List.range 24).map fun h => (atHour (d0 + (i : Int)) h, XF.fin (m i h))) = (day24 (m i)).map .fin := by
    simp [Series.values, day24, Function.comp_def]
  set S := (day24 (m i)).sum with hS
  have hS0 : 0 ≤ S := by
    apply List.sum_nonneg
    intro x hx
    obtain ⟨k, hk, rfl⟩ := mem_day24.1 hx
    exact hm0 i hi k hk
  obtain ⟨_, _, t1, t2⟩ := addsTo_bounds R hadd fun x hx => by
    obtain ⟨k, hk, rfl⟩ := mem_day24.1 hx
    exact hm0 i hi k hk
  have hlen : (day24 (m i)).length - 1 = 23 := by simp [day24]
  rw [hlen, ← hS] at t1 t2
  have hlo : 0 < (1 - R.u) ^ 23 := pow_pos (by linarith [R.u_lt_one]) 23
  have hhi : 0 < (1 + R.u) ^ 23 := pow_pos (by linarith [R.u_nonneg]) 23
  constructor
  · intro hSne
    have hSpos : 0 < S := lt_of_le_of_ne hS0 (Ne.symm hSne)
    have htpos : 0 < t := lt_of_lt_of_le (mul_pos hlo hSpos) t1
    have cell : ∀ k < 24, masterCellR R.fl sum zerodiv (d0 + (i : Int)) (v i)
        ((List.range 24).map fun h => (atHour (d0 + (i : Int)) h, XF.fin (m i h))) k = .fin (R.fl (R.fl (m i k / t) * P)) := by
      intro k hk
      unfold masterCellR
      dsimp only
      rw [hrows, ht, if_pos ⟨by rw [XF.feq_fin]; exact htpos.ne', by rw [XF.isNan_fin]; simp only [Bool.false_eq_true, if_false]; rw [XF.feq_fin]; exact htpos.ne'⟩]
      unfold Series.at?
      rw [List.map_map, Function.comp_def, find?_map_range 24 (fun k : Nat => atHour (d0 + (i : Int)) k) _ _ k hk rfl
        (by intro k _ e; unfold atHour at e; omega)]
      show ((XF.fin (m i k) / .fin t).rnd R.fl * v i).rnd R.fl = _
      rw [hP, XF.fin_div_fin_of_ne _ htpos.ne']
      rfl
    refine ⟨(day24 fun k => R.fl (R.fl (m i k / t) * P)).sum, ⟨day24 fun k => R.fl (R.fl (m i k / t) * P), ?_, rfl⟩, ?_, ?_⟩
    · rw [day24_map]
      exact day24_congr cell
    · have low : (day24 fun k => (1 - R.u) ^ 2 * (P / t) * m i k).sum ≤ (day24 fun k => R.fl (R.fl (m i k / t) * P)).sum := by
        refine sum_map_le fun k hk => ?_
        have hmk := hm0 i hi k (List.mem_range.1 hk)
        have a := div_nonneg hmk htpos.le
        have b := R.fl_bounds a
        have c := R.fl_bounds (mul_nonneg (R.fl_nonneg a) hP0)
        calc (1 - R.u) ^ 2 * (P / t) * m i k = (1 - R.u) * (((1 - R.u) * (m i k / t)) * P) := by ring
          _ ≤ (1 - R.u) * (R.fl (m i k / t) * P) := mul_le_mul_of_nonneg_left (mul_le_mul_of_nonneg_right b.1 hP0) R.lo_nonneg
          _ ≤ _ := c.1
      rw [day24_sum_mul, ← hS] at low
      refine le_trans ?_ low
      rw [mul_assoc, div_mul_eq_mul_div, mul_div_assoc]
      refine mul_le_mul_of_nonneg_left ?_ (pow_nonneg R.lo_nonneg 2)
      rw [div_le_iff₀ hhi, div_mul_eq_mul_div, div_mul_eq_mul_div, le_div_iff₀ htpos]
      nlinarith
    · have up : (day24 fun k => R.fl (R.fl (m i k / t) * P)).sum ≤ (day24 fun k => (1 + R.u) ^ 2 * (P / t) * m i k).sum := by
        refine sum_map_le fun k hk => ?_
        have hmk := hm0 i hi k (List.mem_range.1 hk)
        have a := div_nonneg hmk htpos.le
        have b := R.fl_bounds a
        have c := R.fl_bounds (mul_nonneg (R.fl_nonneg a) hP0)
        calc R.fl (R.fl (m i k / t) * P) ≤ (1 + R.u) * (R.fl (m i k / t) * P) := c.2
          _ ≤ (1 + R.u) * (((1 + R.u) * (m i k / t)) * P) := mul_le_mul_of_nonneg_left (mul_le_mul_of_nonneg_right b.2 hP0) R.hi_nonneg
          _ = _ := by ring
      rw [day24_sum_mul, ← hS] at up
      refine le_trans up ?_
      rw [mul_assoc, div_mul_eq_mul_div ((1 + R.u) ^ 2), mul_div_assoc]
      refine mul_le_mul_of_nonneg_left ?_ (pow_nonneg R.hi_nonneg 2)
      rw [le_div_iff₀ hlo, div_mul_eq_mul_div, div_mul_eq_mul_div, div_le_iff₀ htpos]
      nlinarith
  · intro hSz hz
    have t0 : t = 0 := by
      rw [hSz, mul_zero] at t1 t2
      exact le_antisymm t2 t1
    have cell : ∀ k < 24, masterCellR R.fl sum zerodiv (d0 + (i : Int)) (v i)
        ((List.range 24).map fun h => (atHour (d0 + (i : Int)) h, XF.fin (m i h))) k = .fin (R.fl (R.fl (1 / 24) * P)) := by
      intro k hk
      unfold masterCellR
      dsimp only
      rw [hrows, ht, t0, if_neg (by rintro ⟨a, _⟩; exact a (by rw [XF.feq_fin])), if_pos hz, hP]
      rfl
    refine ⟨24 * R.fl (R.fl (1 / 24) * P), ⟨day24 fun _ => R.fl (R.fl (1 / 24) * P), ?_, ?_⟩, ?_⟩
    · rw [day24_map]
      exact day24_congr cell
    · rw [sum_day24_const]
    · have a : (0 : K) ≤ 1 / 24 := by norm_num
      have b := R.fl_bounds a
      have c := R.fl_bounds (mul_nonneg (R.fl_nonneg a) hP0)
      have l := mul_le_mul_of_nonneg_left (mul_le_mul_of_nonneg_right b.1 hP0) R.lo_nonneg
      have u := mul_le_mul_of_nonneg_left (mul_le_mul_of_nonneg_right b.2 hP0) R.hi_nonneg
      constructor <;> nlinarith [c.1, c.2]

end

theorem mem_numbersR {K : Type} {l : List (XF K)} {x : K} : x ∈ numbers l ↔ .fin x ∈ l := by
  unfold numbers
  rw [List.mem_filterMap]
  constructor
  · rintro ⟨c, hc, e⟩
    cases c <;> simp_all
  · intro h
    exact ⟨_, h, rfl⟩

/-- **C102** (double precision) With 53 binary digits, nearest and ties to even, and a record of at most a million days: the hourly values of a day of the cascade add
up to its precipitation P up to 1.4·10⁻¹⁵ P + 1.1·10⁻¹⁴ S, with S the precipitation of the whole record. -/
theorem C102_cascade_double {K : Type} [Field K] [LinearOrder K] [IsStrictOrderedRing K] [FloorRing K] {api : PandasApi} {rnd : Nat → K} {opts : CascOptions K}
    {r : CascadeOut K} {d0 : Int} {n : Nat} (hn : n ≤ 10 ^ 6) {v : Nat → XF K} (hv : ∀ i < n, ∀ x, v i = .fin x → 0 ≤ x)
    (h : cascadeR (roundBits 53) api rnd (dailyS d0 n v) opts = .ok r) {i : Nat} (hi : i < n) {P : K} (hP : v i = .fin P) :
    ∃ T, TotalIs (dayCells r.series (d0 + i)) T ∧
      |T - P| ≤ 14 / 10 ^ 16 * P + 11 / 10 ^ 15 * (numbers ((List.range n).map v)).sum := by
  obtain ⟨T, hT, hb⟩ := C102_cascade_total (binary 53 (by norm_num)) hv h hi hP
  refine ⟨T, hT, hb.trans ?_⟩
  have hu : (binary 53 (by norm_num) : Rounding K).u = 1 / 2 ^ 53 := by
    show (2 : K) ^ (-((53 : Nat) : Int)) = _
    rw [zpow_neg, zpow_natCast, one_div]
  rw [hu]
  have hP0 := hv i hi P hP
  have hS : 0 ≤ (numbers ((List.range n).map v)).sum := by
    apply List.sum_nonneg
    intro x hx
    replace hx := mem_numbersR.1 hx
    obtain ⟨j, hj, e⟩ := List.mem_map.1 hx
    exact hv j (List.mem_range.1 hj) x e
  have c1 : (1 + 1 / 2 ^ 53 : K) ^ 12 - 1 ≤ 14 / 10 ^ 16 := by norm_num
  have c2 : (1 + 1 / 2 ^ 53 : K) ^ (96 * n + 12) ≤ 101 / 100 := by
    have a := one_add_mul_le_pow (a := -(1 / 2 ^ 53 : K)) (by norm_num) (96 * n + 12)
    have b : (1 + 1 / 2 ^ 53 : K) ^ (96 * n + 12) * (1 + -(1 / 2 ^ 53)) ^ (96 * n + 12) ≤ 1 := by
      rw [← mul_pow]
      exact pow_le_one₀ (by norm_num) (by norm_num)
    have hn' : ((96 * n + 12 : Nat) : K) ≤ 96 * 10 ^ 6 + 12 := by exact_mod_cast (by omega : 96 * n + 12 ≤ 96 * 10 ^ 6 + 12)
    have c : (100 / 101 : K) ≤ (1 + -(1 / 2 ^ 53)) ^ (96 * n + 12) := by
      refine le_trans ?_ a
      have := mul_le_mul_of_nonneg_right hn' (show (0 : K) ≤ 1 / 2 ^ 53 by norm_num)
      have e : ((96 * 10 ^ 6 + 12) * (1 / 2 ^ 53) : K) ≤ 1 / 101 := by norm_num
      linarith
    have d : (0 : K) ≤ (1 + 1 / 2 ^ 53) ^ (96 * n + 12) := by positivity
    nlinarith
  have c3 : 96 * (1 / 2 ^ 53) * (1 + 1 / 2 ^ 53 : K) ^ (96 * n + 12) ≤ 11 / 10 ^ 15 := by
    refine (mul_le_mul_of_nonneg_left c2 (by positivity)).trans ?_
    norm_num
  exact add_le_add (mul_le_mul_of_nonneg_right c1 hP0) (mul_le_mul_of_nonneg_right c3 hS)

/-- **C102** (absorption) The term with the precipitation S of the whole record is needed: in IEEE double precision arithmetic (53 binary digits, ties to even),
with the statistics shipped with the package, a day with 2⁻⁴⁴ mm after one with 1024 mm gets 24 zeros. -/
theorem C102_absorption : ∃ (rnd : Nat → ℚ) (out : CascadeOut ℚ), (∀ j, 0 ≤ rnd j ∧ rnd j < 1) ∧
    cascadeR (roundBits 53) .modern rnd (dailyS 0 2 fun i => if i = 0 then .fin 1024 else .fin (1 / 2 ^ 44)) (.one (CascStats.fillSample .init)) = .ok out ∧
    TotalIs (dayCells out.series 1) 0 := by
  have h : okAnd (cascadeR (roundBits 53) .modern (fun _ => (1 / 2 : ℚ)) (dailyS 0 2 fun i => if i = 0 then .fin 1024 else .fin (1 / 2 ^ 44))
      (.one (CascStats.fillSample .init))) (fun o => dayCells o.series 1 == List.replicate 24 (.fin 0)) = true := by decide +kernel
  obtain ⟨o, h1, h2⟩ := okAnd_iff.1 h
  refine ⟨_, o, fun _ => by norm_num, h1, List.replicate 24 0, ?_, ?_⟩
  · rw [beq_iff_eq.1 h2, List.map_replicate]
  · simp

/-- C102 for the cascade in IEEE double precision: a run with the statistics shipped with the package in which rounding does change the total -/
example : okAnd (cascadeR (roundBits 53) .modern (fun _ => (1 / 2 : ℚ)) (dailyS 0 2 fun i => if i = 0 then .fin 1 else .fin (1 / 10))
    (.one (CascStats.fillSample .init))) (fun o => dayCells o.series 0 != List.replicate 24 (.fin 0) &&
      decide ((numbers (dayCells o.series 1)).sum ≠ 1 / 10) &&
      decide (|(numbers (dayCells o.series 1)).sum - 1 / 10| ≤ 1 / 10 ^ 15)) = true := by decide +kernel

/-- 'equal' in IEEE double precision: 24 times the nearest number to 0.1/24 -/
example : okAnd (distributeEquallyR (roundBits 53) .modern (dailyS 0 2 fun i => if i = 0 then .fin (1 / 10 : ℚ) else .nan)) (fun o =>
    decide ((numbers (dayCells o 0)).sum ≠ 1 / 10) && decide (|(numbers (dayCells o 0)).sum - 1 / 10| ≤ 1 / 10 ^ 16)) = true := by decide +kernel

/-- addition from the left -/
def sumLeft (fl : ℚ → ℚ) (l : List (XF ℚ)) : XF ℚ :=
  match numbers l with
  | [] => .fin 0
  | x :: xs => .fin (xs.foldl (fun a b => fl (a + b)) x)

/-- it is one of the orders -/
theorem addsTo_foldl (fl : ℚ → ℚ) : ∀ (xs l : List ℚ) (a : ℚ), AddsTo fl l a → AddsTo fl (l ++ xs) (xs.foldl (fun a b => fl (a + b)) a) := by
  intro xs
  induction xs with
  | nil => intro l a h; simpa using h
  | cons x xs ih =>
    intro l a h
    have := ih (l ++ [x]) _ (h.add (.one x))
    simpa using this

/-- the hypotheses of C102 (master station) hold for the master station of C23 in IEEE double precision -/
example : (∃ t, sumLeft (roundBits 53) ((day24 fun h => if h = 3 then (1 : ℚ) else if h = 7 then 2 else 0).map .fin) = .fin t ∧
      AddsTo (roundBits 53) (day24 fun h => if h = 3 then (1 : ℚ) else if h = 7 then 2 else 0) t) ∧
    okAnd (precipMasterStationR (roundBits 53) (sumLeft (roundBits 53)) .legacy (dailyS 0 2 fun i => .fin (if i = 0 then 1 / 10 else 12)) exampleMaster "uniform")
      (fun s => decide (s.at? (atHour 0 3) ≠ some (.fin (1 / 30))) && decide (|(numbers (dayCells s 0)).sum - 1 / 10| ≤ 1 / 10 ^ 16)) = true := by
  refine ⟨⟨_, rfl, ?_⟩, by decide +kernel⟩
  exact addsTo_foldl _ _ [_] _ (.one _)

end Melodist
