import Verif.Lemmas.RadiationRound
import Verif.Lemmas.BristowCampbellRound
import Verif.Spec.RadiationRound

/-!
# C146: radiation from sunshine duration and from temperatures in double precision
-/

set_option linter.unusedSectionVars false

namespace Melodist
open Spec

noncomputable section

variable {daily : Frame ℝ} {d0 : Int} {n : Nat}

/-! ## the same algorithm -/

theorem radExpCell_exact (c : XF ℝ) : RadMath.exact.expCell c = XF.exp c := by cases c <;> rfl

theorem powCell_exact (x p : XF ℝ) : RadMath.exact.powCell x p = XF.pow x p := by
  unfold RadMath.powCell XF.pow RadMath.exact
  cases p <;> try rfl
  cases x <;> try rfl
  rename_i p x
  dsimp only
  by_cases h : 0 < x
  · simp only [if_pos h]
  · simp only [if_neg h]

theorem bcCellR_exact (r avg a c pot : XF ℝ) : bcCellR RadMath.exact r avg a c pot =
    a * (.fin 1 - XF.exp (-(.fin 0.036 * XF.exp (.fin (-0.154) * avg)) * XF.pow r c)) * pot := by
  unfold bcCellR
  simp only [radExpCell_exact, powCell_exact]
  simp only [RadMath.exact, FloatMath.exact, XF.rnd_id, id]

/-- **C146 (same algorithm).**  With exact operations these are the functions of the other properties. -/
theorem C146_exact : (∀ ssd dl pot par, angstroemR id ssd dl pot par = angstroem ssd dl pot par) ∧
    (∀ tmin tmax pot par, bristowCampbellR .exact meanSkip tmin tmax pot par = bristowCampbell tmin tmax pot par) ∧
    ∀ api daily sun pot method angstr bristcamp course,
      disaggregateRadiationR .exact meanSkip api daily sun pot method angstr bristcamp course = disaggregateRadiation api daily sun pot method angstr bristcamp course := by
  have h1 : ∀ ssd dl pot par, angstroemR id ssd dl pot par = angstroem ssd dl pot par := by
    intro ssd dl pot par
    unfold angstroemR angstroem
    simp only [XF.rnd_id]
    cases par <;> rfl
  have h2 : ∀ tmin tmax pot par, bristowCampbellR .exact meanSkip tmin tmax pot par = bristowCampbell tmin tmax pot par := by
    intro tmin tmax pot par
    unfold bristowCampbellR bristowCampbell bcRangeR
    simp only [bcCellR_exact]
    simp only [RadMath.exact, FloatMath.exact, XF.rnd_id]
    rfl
  have h3 : ∀ daily sun pot par, ssdDailyR id daily sun pot par = ssdDaily daily sun pot par := by
    intro daily sun pot par
    unfold ssdDailyR ssdDaily
    simp only [h1]
    rfl
  refine ⟨h1, h2, ?_⟩
  intro api daily sun pot method angstr bristcamp course
  unfold disaggregateRadiationR disaggregateRadiation
  have e : RadMath.exact.toFloatMath = FloatMath.exact := rfl
  have e2 : FloatMath.exact.fl = id := rfl
  simp only [h2, h3, e, e2, C111_exact.2.2]
  cases course <;> cases pot <;> rfl

/-! ## one hour -/

theorem radR_cell {q μ : ℝ} (T : ℝ) (hq : 0 ≤ q) (hμ : 0 < μ) : |R53.fl (R53.fl (q / μ) * R53.fl (T * μ)) - T * q| ≤ 4e-16 * (|T| * q) := by
  have a := (Acc.self R53 (q / μ)).round
  have b := (Acc.self R53 (T * μ)).round
  have c := (a.mul b).round.1
  rw [abs_of_nonneg (div_nonneg hq hμ.le), abs_mul, abs_of_pos hμ] at c
  have e1 : q / μ * (T * μ) = T * q := by field_simp
  have e2 : q / μ * (|T| * μ) = |T| * q := by field_simp
  rw [e1, e2] at c
  refine c.trans (mul_le_mul_of_nonneg_right ?_ (mul_nonneg (abs_nonneg _) hq))
  rw [R53_u]; norm_num

theorem skippingMean_rounded {fl : ℝ → ℝ} {mean : List (XF ℝ) → XF ℝ} (h : SkippingMean fl mean) : RoundedMean fl mean := by
  intro l hl
  obtain ⟨t, h1, h2⟩ := h (l.map .fin) (by intro c hc; obtain ⟨x, _, rfl⟩ := List.mem_map.1 hc; exact .inr ⟨x, rfl⟩) (by rw [numbers_map_fin]; exact hl)
  rw [numbers_map_fin] at h1 h2
  exact ⟨t, h1, h2⟩

/-- the mean potential radiation of a day with sunshine is a positive number -/
theorem dayMean_pos {mean : List (XF ℝ) → XF ℝ} (hm : SkippingMean (roundBits 53) mean) {f : Nat → XF ℝ} {q : Nat → ℝ} (hq : ∀ h < 24, f h = .fin (q h) ∧ 0 ≤ q h)
    (hpos : ∃ h < 24, 0 < q h) : ∃ μ, mean (day24 f) = .fin μ ∧ 0 < μ := by
  obtain ⟨μ, hμ, acc⟩ := roundedMean_day (R := R53) (skippingMean_rounded hm) q
  have e : (day24 q).map XF.fin = day24 f := by
    rw [day24_map]
    exact (day24_congr fun h hh => (hq h hh).1).symm
  rw [e] at hμ
  have e2 : (day24 fun h => |q h|) = day24 q := day24_congr fun h hh => abs_of_nonneg (hq h hh).2
  rw [e2] at acc
  refine ⟨μ, hμ, ?_⟩
  have hA0 : 0 < (day24 q).sum / 24 := by
    obtain ⟨k, hk, hk0⟩ := hpos
    refine div_pos (lt_of_lt_of_le hk0 ?_) (by norm_num)
    refine List.single_le_sum ?_ _ (mem_day24.2 ⟨k, hk, rfl⟩)
    intro x hx
    obtain ⟨h, hh, rfl⟩ := mem_day24.1 hx
    exact (hq h hh).2
  have h24 : (1 + R53.u) ^ 24 - 1 ≤ 3e-15 := by rw [R53_u]; norm_num
  obtain ⟨m1, m2⟩ := abs_le.1 (acc.1.trans (mul_le_mul_of_nonneg_right h24 hA0.le))
  have := mul_pos (show (0 : ℝ) < 1 - 3e-15 by norm_num) hA0
  linarith

theorem getElem?_day24 {V : Type} (f : Nat → V) {h : Nat} (hh : h < 24) : (day24 f)[h]? = some (f h) := by
  unfold day24
  rw [List.getElem?_map, List.getElem?_range hh]
  rfl

/-- what the core of the disaggregation writes on a day with sunshine for the daily value T·μ -/
theorem core_day (F : FloatMath) (hfl : F.fl = R53.fl) {mean : List (XF ℝ) → XF ℝ} (hm : SkippingMean (roundBits 53) mean) (hn : 0 < n) (v : Nat → XF ℝ) (p : Nat → Nat → XF ℝ)
    {out : Series (XF ℝ)} (ho : radiationCoreR F mean (hourlyS d0 n p) (dailyS d0 n v) = .ok out) {i : Nat} (hi : i < n) {q : Nat → ℝ}
    (hq : ∀ h < 24, p i h = .fin (q h) ∧ 0 ≤ q h) (hpos : ∃ h < 24, 0 < q h) :
    ∃ μ, mean (day24 (p i)) = .fin μ ∧ 0 < μ ∧
      (∀ T, v i = .fin (R53.fl (T * μ)) → ∀ h < 24, (dayCells out (d0 + i))[h]? =
        some (.fin (if R53.fl (R53.fl (q h / μ) * R53.fl (T * μ)) < R53.fl 0.01 then 0 else R53.fl (R53.fl (q h / μ) * R53.fl (T * μ))))) ∧
      (v i = .nan → ∀ h < 24, (dayCells out (d0 + i))[h]? = some .nan) := by
  obtain ⟨μ, hμ, h0⟩ := dayMean_pos hm hq hpos
  rw [radiationCoreR_eq _ mean d0 hn v d0 p] at ho
  cases ho
  refine ⟨μ, hμ, h0, ?_, ?_⟩
  · intro T hT h hh
    rw [dayCells_hourlyS d0 _ hi, getElem?_day24 _ hh, hμ, (hq h hh).1, lastValue_self hi, hT, XF.fin_div_fin_of_ne _ h0.ne', hfl]
    simp only [XF.rnd, XF.fin_mul_fin, XF.lt_fin]
    split <;> rfl
  · intro hT h hh
    rw [dayCells_hourlyS d0 _ hi, getElem?_day24 _ hh, lastValue_self hi, hT, XF.mul_nan]
    rfl

/-! ## sunshine duration -/

/-- the transmissivity of Ångström -/
theorem angstroem_T (a b x l : ℝ) : |R53.fl (a + R53.fl (R53.fl (b * x) / l)) - (a + b * x / l)| ≤ 4e-16 * (|a| + |b * x / l|) := by
  have h1 := (((Acc.self R53 (b * x)).round.mul_const (c := 1 / l) (C := |1 / l|) le_rfl).round)
  rw [mul_one_div, mul_one_div, ← abs_mul, mul_one_div] at h1
  have h2 := (((Acc.self R53 a).mono (Nat.zero_le 2) le_rfl).add h1).round.1
  refine h2.trans (mul_le_mul_of_nonneg_right ?_ (add_nonneg (abs_nonneg _) (abs_nonneg _)))
  rw [R53_u]; norm_num

/-- **C146 (Ångström).**  In double precision, for sunshine durations, day lengths and potential radiation on the same timestamps: the call succeeds and the value at each timestamp is
(a + b·s/L)·p up to 1e-15 (|a| + |b·s/L|)·|p|, and missing if one of the three is missing. -/
theorem C146_angstroem (par : ParPair ℝ) (I : List Time) (a b : Int → ℝ) (s L p : Time → XF ℝ)
    (h : ∀ t ∈ I, ParAt par (monthOf t) (.fin (a (monthOf t))) (.fin (b (monthOf t)))) :
    ∃ out, angstroemR (roundBits 53) (I.map fun t => (t, s t)) (I.map fun t => (t, L t)) (I.map fun t => (t, p t)) par = .ok out ∧ out.index = I ∧
      ∀ t ∈ I, (∀ x l q : ℝ, s t = .fin x → L t = .fin l → p t = .fin q → l ≠ 0 →
          ∃ y, out.at? t = some (.fin y) ∧
            |y - (a (monthOf t) + b (monthOf t) * x / l) * q| ≤ 1e-15 * ((|a (monthOf t)| + |b (monthOf t) * x / l|) * |q|)) ∧
        (s t = .nan ∨ L t = .nan ∨ p t = .nan → out.at? t = some .nan) := by
  refine ⟨_, angstroemR_eq (roundBits 53) (a := fun m => .fin (a m)) (b := fun m => .fin (b m)) s L p h, by simp [Series.index, Function.comp_def], ?_⟩
  intro t ht
  rw [mapAt? (fun t => ((XF.fin (a (monthOf t)) + ((XF.fin (b (monthOf t)) * s t).rnd (roundBits 53) / L t).rnd (roundBits 53)).rnd (roundBits 53) * p t).rnd (roundBits 53)) ht]
  constructor
  · intro x l q h1 h2 h3 hl
    rw [h1, h2, h3]
    simp only [XF.fin_mul_fin, XF.rnd]
    rw [XF.fin_div_fin_of_ne _ hl]
    simp only [XF.fin_add_fin, XF.fin_mul_fin, XF.rnd]
    refine ⟨_, rfl, ?_⟩
    rw [← R53_fl]
    set α := a (monthOf t)
    set β := b (monthOf t)
    have k1 := (((Acc.self R53 (β * x)).round.mul_const (c := 1 / l) (C := |1 / l|) le_rfl).round)
    rw [mul_one_div, mul_one_div, ← abs_mul, mul_one_div] at k1
    have k2 := ((((Acc.self R53 α).mono (Nat.zero_le 2) le_rfl).add k1).round.mul (Acc.self R53 q)).round.1
    refine k2.trans (mul_le_mul_of_nonneg_right ?_ (mul_nonneg (add_nonneg (abs_nonneg _) (abs_nonneg _)) (abs_nonneg _)))
    rw [R53_u]; norm_num
  · rintro (h | h | h)
    · rw [h, XF.mul_nan]; rfl
    · rw [h, XF.div_nan]; rfl
    · rw [h, XF.mul_nan]; rfl

/-- **C146 (sunshine duration).**  In double precision, 'pot_rad_via_ssd' with sun times and potential radiation of the `n` days: the call succeeds.  On a day with sunshine `x` and day length
l > 0 every hour gets a number within 1e-15 of (a + b·x/l) times its potential radiation, set to 0 if it is below 0.01; without observation the 24 hours are missing; on a day of length 0
they are 0. -/
theorem C146_via_ssd (F : RadMath) (hF : RadDouble F) {mean : List (XF ℝ) → XF ℝ} (hm : SkippingMean (roundBits 53) mean) (api : PandasApi)
    (hi : daily.index = (List.range n).map fun i : Nat => at00 (d0 + i)) (hn : 0 < n) (s : Nat → XF ℝ) (hs : daily.col? "ssd" = some (dailyS d0 n s)) (st : Nat → SunTimes)
    (p : Nat → Nat → XF ℝ) (par bristcamp : ParPair ℝ) (course : Option (MeanCourse ℝ)) (a b : Int → ℝ)
    (h : ∀ i : Nat, i < n → ParAt par (monthOf (at00 (d0 + i))) (.fin (a (monthOf (at00 (d0 + i))))) (.fin (b (monthOf (at00 (d0 + i)))))) :
    ∃ out, disaggregateRadiationR F mean api daily (some (dailyS d0 n st)) (some (hourlyS d0 n p)) "pot_rad_via_ssd" par bristcamp course = .ok out ∧
      ∀ i < n, ∀ q : Nat → ℝ, (∀ h < 24, p i h = .fin (q h) ∧ 0 ≤ q h) → (∃ h < 24, 0 < q h) →
        (∀ l x A B : ℝ, (st i).daylength = .fin l → 0 < l → s i = .fin x → A = a (monthOf (at00 (d0 + i))) → B = b (monthOf (at00 (d0 + i))) → ∀ h < 24,
          ∃ w, |w - (A + B * x / l) * q h| ≤ 1e-15 * (|A| + |B * x / l|) * q h ∧
            (dayCells out (d0 + i))[h]? = some (.fin (if w < roundBits 53 0.01 then 0 else w))) ∧
        (∀ l : ℝ, (st i).daylength = .fin l → 0 < l → s i = .nan → ∀ h < 24, (dayCells out (d0 + i))[h]? = some .nan) ∧
        ((st i).daylength = .fin 0 → ∀ h < 24, (dayCells out (d0 + i))[h]? = some (.fin 0)) := by
  have hfl : F.fl = R53.fl := hF.base.fl
  set v : Nat → XF ℝ := fun i => if XF.lt (.fin 0) (st i).daylength then
        ((.fin (a (monthOf (at00 (d0 + (i : Nat))))) + ((.fin (b (monthOf (at00 (d0 + (i : Nat))))) * s i).rnd F.fl / (st i).daylength).rnd F.fl).rnd F.fl *
          mean (day24 (p (d0 + (i : Nat) - d0).toNat))).rnd F.fl
      else .fin 0 with hv
  have hr : disaggregateRadiationR F mean api daily (some (dailyS d0 n st)) (some (hourlyS d0 n p)) "pot_rad_via_ssd" par bristcamp course =
      radiationCoreR F.toFloatMath mean (hourlyS d0 n p) (dailyS d0 n v) := by
    unfold disaggregateRadiationR
    rw [if_neg (by simp), temp_hourly_index api hi hn, py_ok_bind, if_neg (by decide)]
    dsimp only
    rw [if_neg (by decide), if_pos rfl, resampleD_hourlyS,
      ssdDailyR_eq F.fl hi hs st _ le_rfl le_rfl (a := fun m => .fin (a m)) (b := fun m => .fin (b m)) h, py_ok_bind]
  rw [hr]
  refine ⟨_, radiationCoreR_eq _ mean d0 hn v d0 p, ?_⟩
  intro i hi' q hq hpos
  obtain ⟨μ, m1, m2, m3, m4⟩ := core_day F.toFloatMath hfl hm hn v p (radiationCoreR_eq _ mean d0 hn v d0 p) hi' hq hpos
  have e0 : (d0 + (i : Int) - d0).toNat = i := by omega
  refine ⟨?_, ?_, ?_⟩
  · intro l x A B hl hl0 hx hA hB h hh
    set T := R53.fl (A + R53.fl (R53.fl (B * x) / l)) with hT
    have ev : v i = .fin (R53.fl (T * μ)) := by
      simp only [hv]
      rw [hl, if_pos (by simpa using hl0), hx, e0, m1, ← hA, ← hB, hfl, XF.fin_mul_fin]
      simp only [XF.rnd]
      rw [XF.fin_div_fin_of_ne _ hl0.ne']
      simp only [XF.fin_add_fin, XF.fin_mul_fin, XF.rnd]
      rfl
    refine ⟨_, ?_, m3 T ev h hh⟩
    have h1 := radR_cell T (hq h hh).2 m2
    have h2 := angstroem_T A B x l
    rw [← hT] at h2
    set Z := |A| + |B * x / l| with hZ
    have hZ1 : |A + B * x / l| ≤ Z := abs_add_le _ _
    have hZ0 : 0 ≤ Z := (abs_nonneg _).trans hZ1
    have h3 : |T| ≤ (1 + 4e-16) * Z := by
      have := abs_add_le (T - (A + B * x / l)) (A + B * x / l)
      rw [sub_add_cancel] at this
      linarith
    have q0 := (hq h hh).2
    have h4 := mul_le_mul_of_nonneg_right h2 q0
    have h5 := mul_le_mul_of_nonneg_right h3 q0
    rw [← abs_of_nonneg q0, ← abs_mul, abs_of_nonneg q0] at h4
    have h6 := abs_add_le (R53.fl (R53.fl (q h / μ) * R53.fl (T * μ)) - T * q h) ((T - (A + B * x / l)) * q h)
    rw [show R53.fl (R53.fl (q h / μ) * R53.fl (T * μ)) - T * q h + (T - (A + B * x / l)) * q h = R53.fl (R53.fl (q h / μ) * R53.fl (T * μ)) - (A + B * x / l) * q h by ring] at h6
    have h7 : 0 ≤ Z * q h := mul_nonneg hZ0 q0
    norm_num at h1 h4 h5 h6 ⊢
    nlinarith
  · intro l hl hl0 hx
    apply m4
    simp only [hv]
    rw [hl, if_pos (by simpa using hl0), hx, XF.mul_nan]
    rfl
  · intro hl h hh
    have ev : v i = .fin (R53.fl (0 * μ)) := by
      simp only [hv]
      rw [hl, if_neg (by simp), zero_mul, R53.fl_zero]
    rw [m3 0 ev h hh, zero_mul, R53.fl_zero, mul_zero, R53.fl_zero]
    simp

/-! ## temperatures -/

/-- the number in a cell -/
def cellNum : XF ℝ → ℝ
  | .fin x => x
  | _ => 0

theorem numbers_map_split (L : List Nat) (c : Nat → XF ℝ) (o : Nat → Option ℝ) (h : ∀ j ∈ L, (o j = none ∧ c j = .nan) ∨ ∃ x y, o j = some x ∧ c j = .fin y) :
    numbers (L.map c) = (L.filter fun j => (o j).isSome).map (fun j => cellNum (c j)) ∧
      L.filterMap o = (L.filter fun j => (o j).isSome).map fun j => (o j).getD 0 := by
  induction L with
  | nil => exact ⟨rfl, rfl⟩
  | cons a L ih =>
    obtain ⟨h1, h2⟩ := ih fun j hj => h j (List.mem_cons_of_mem _ hj)
    rcases h a List.mem_cons_self with ⟨e1, e2⟩ | ⟨x, y, e1, e2⟩
    · constructor
      · rw [List.map_cons, e2, List.filter_cons_of_neg (by rw [e1]; decide), ← h1]
        rfl
      · rw [List.filterMap_cons_none e1, List.filter_cons_of_neg (by rw [e1]; decide), h2]
    · constructor
      · rw [List.map_cons, List.filter_cons_of_pos (by rw [e1]; rfl), List.map_cons, ← h1, e2]
        rfl
      · rw [List.filterMap_cons_some e1, List.filter_cons_of_pos (by rw [e1]; rfl), List.map_cons, h2, e1]
        rfl

theorem dayRange_cases {tmin tmax : Nat → XF ℝ} (f1 : ∀ i < n, (tmin i).NanOrFin) (f2 : ∀ i < n, (tmax i).NanOrFin) (fl : ℝ → ℝ) {i : Nat} (hi : i < n) :
    (dayRange n tmin tmax i = none ∧ bcRangeR fl (tmin i) (tmax i) (nextMin n tmin i) = .nan) ∨
      ∃ x y z, tmin i = .fin x ∧ tmax i = .fin y ∧ nextMin n tmin i = .fin z ∧ dayRange n tmin tmax i = some (y - (x + z) / 2) ∧
        (∃ j < n, tmin j = .fin z) ∧ ∃ r', bcRangeR fl (tmin i) (tmax i) (nextMin n tmin i) = .fin r' := by
  have h3 : (nextMin n tmin i).NanOrFin ∧ ∃ j < n, nextMin n tmin i = tmin j := by
    unfold nextMin
    split
    · exact ⟨f1 _ (by assumption), _, by assumption, rfl⟩
    · exact ⟨f1 _ hi, i, hi, rfl⟩
  obtain ⟨h3, j, hj, hj'⟩ := h3
  have e : dayRange n tmin tmax i = match tmin i, tmax i, nextMin n tmin i with
    | .fin x, .fin y, .fin z => some (y - (x + z) / 2)
    | _, _, _ => none := rfl
  rw [e]
  have h1 := f1 i hi
  have h2 := f2 i hi
  rw [hj'] at h3 ⊢
  unfold bcRangeR
  cases ha : tmin i <;> rw [ha] at h1 <;> try exact h1.elim
  · left; exact ⟨rfl, by rw [XF.nan_add]; cases tmax i <;> rfl⟩
  · cases hb : tmax i <;> rw [hb] at h2 <;> try exact h2.elim
    · left; exact ⟨rfl, by rw [XF.nan_sub]; rfl⟩
    · cases hc : tmin j <;> rw [hc] at h3 <;> try exact h3.elim
      · left; exact ⟨rfl, rfl⟩
      · right
        refine ⟨_, _, _, rfl, rfl, rfl, rfl, ⟨j, hj, hc⟩, ?_⟩
        rw [XF.fin_add_fin]
        simp only [XF.rnd]
        rw [XF.fin_div_fin_of_ne _ (by norm_num)]
        exact ⟨_, rfl⟩

/-- the call as the core of the disaggregation -/
theorem via_bc_core (F : RadMath) (mean : List (XF ℝ) → XF ℝ) (api : PandasApi)
    (hi : daily.index = (List.range n).map fun i : Nat => at00 (d0 + i)) (hn : 0 < n) (tmin tmax : Nat → XF ℝ) (h1 : daily.col? "tmin" = some (dailyS d0 n tmin))
    (h2 : daily.col? "tmax" = some (dailyS d0 n tmax)) (sun : Option (Series SunTimes)) (p : Nat → Nat → XF ℝ) (par angstr : ParPair ℝ) (course : Option (MeanCourse ℝ)) (a c : Int → ℝ)
    (h : ∀ i : Nat, i < n → ParAt par (monthOf (at00 (d0 + i))) (.fin (a (monthOf (at00 (d0 + i))))) (.fin (c (monthOf (at00 (d0 + i)))))) :
    disaggregateRadiationR F mean api daily sun (some (hourlyS d0 n p)) "pot_rad_via_bc" angstr par course =
      radiationCoreR F.toFloatMath mean (hourlyS d0 n p) (dailyS d0 n fun i =>
        bcCellR F (bcRangeR F.fl (tmin i) (tmax i) (nextMin n tmin i)) (mean (monthRangesR F.fl d0 n tmin tmax i)) (.fin (a (monthOf (at00 (d0 + i)))))
          (.fin (c (monthOf (at00 (d0 + i))))) (mean (day24 (p (d0 + i - d0).toNat)))) := by
  unfold disaggregateRadiationR
  rw [if_neg (by simp), temp_hourly_index api hi hn, py_ok_bind, if_neg (by decide)]
  dsimp only
  rw [if_neg (by decide), if_neg (by decide), attr_ok h1, py_ok_bind, attr_ok h2, py_ok_bind, resampleD_hourlyS,
    bcR_eq F mean d0 d0 hn tmin tmax _ le_rfl le_rfl (a := fun m => .fin (a m)) (c := fun m => .fin (c m)) h, py_ok_bind]

/-- **C146 (temperatures).**  In double precision, 'pot_rad_via_bc' on at most 100000 days with 0 ≤ A and 1 ≤ C ≤ 10, temperatures (missing or) between -400 and 400, the maxima
representable, ranges between 0 and 100: the call succeeds.  On a day with a range `r` every hour gets a number within 1e-8 A·q of A (1 - exp(-0.036 exp(-0.154 μ) r^C)) times its
potential radiation `q`, where `μ` is the mean range of the month, set to 0 if it is below 0.01; on a day without a range the 24 hours are missing. -/
theorem C146_via_bc (F : RadMath) (hF : RadDouble F) {mean : List (XF ℝ) → XF ℝ} (hm : SkippingMean (roundBits 53) mean) (api : PandasApi)
    (hi : daily.index = (List.range n).map fun i : Nat => at00 (d0 + i)) (hn : 0 < n) (hn2 : n ≤ 100000) (tmin tmax : Nat → XF ℝ) (h1 : daily.col? "tmin" = some (dailyS d0 n tmin))
    (h2 : daily.col? "tmax" = some (dailyS d0 n tmax)) (f1 : ∀ i < n, (tmin i).NanOrFin) (f2 : ∀ i < n, (tmax i).NanOrFin) (b1 : ∀ i < n, ∀ x, tmin i = .fin x → |x| ≤ 400)
    (b2 : ∀ i < n, ∀ y, tmax i = .fin y → |y| ≤ 400 ∧ roundBits 53 y = y) (b3 : ∀ i < n, ∀ r, dayRange n tmin tmax i = some r → 0 ≤ r ∧ r ≤ 100)
    (sun : Option (Series SunTimes)) (p : Nat → Nat → XF ℝ) (par angstr : ParPair ℝ) (course : Option (MeanCourse ℝ)) (a c : Int → ℝ)
    (h : ∀ i : Nat, i < n → ParAt par (monthOf (at00 (d0 + i))) (.fin (a (monthOf (at00 (d0 + i))))) (.fin (c (monthOf (at00 (d0 + i))))))
    (ha : ∀ m, 0 ≤ a m) (hc : ∀ m, 1 ≤ c m ∧ c m ≤ 10) :
    ∃ out, disaggregateRadiationR F mean api daily sun (some (hourlyS d0 n p)) "pot_rad_via_bc" angstr par course = .ok out ∧
      ∀ i < n, ∀ q : Nat → ℝ, (∀ h < 24, p i h = .fin (q h) ∧ 0 ≤ q h) → (∃ h < 24, 0 < q h) →
        (∀ r A C : ℝ, dayRange n tmin tmax i = some r → A = a (monthOf (at00 (d0 + i))) → C = c (monthOf (at00 (d0 + i))) → ∀ h < 24,
          ∃ w, |w - A * (1 - Real.exp (-(0.036 * Real.exp (-0.154 * monthMeanRange d0 n tmin tmax i) * r ^ C))) * q h| ≤ 1e-8 * (A * q h) ∧
            (dayCells out (d0 + i))[h]? = some (.fin (if w < roundBits 53 0.01 then 0 else w))) ∧
        (dayRange n tmin tmax i = none → ∀ h < 24, (dayCells out (d0 + i))[h]? = some .nan) := by
  have hfl : F.fl = R53.fl := hF.base.fl
  have hfl' : F.fl = roundBits 53 := hF.base.fl
  rw [via_bc_core F mean api hi hn tmin tmax h1 h2 sun p par angstr course a c h]
  refine ⟨_, radiationCoreR_eq _ mean d0 hn _ d0 p, ?_⟩
  intro i hi' q hq hpos
  obtain ⟨μ, m1, m2, m3, m4⟩ := core_day F.toFloatMath hfl hm hn _ p (radiationCoreR_eq _ mean d0 hn _ d0 p) hi' hq hpos
  have e0 : (d0 + (i : Int) - d0).toNat = i := by omega
  constructor
  · intro r A C hr hA hC k hk
    set L := (List.range n).filter fun j => monthOf (at00 (d0 + (j : Nat))) == monthOf (at00 (d0 + (i : Nat))) with hL
    set D := L.filter fun j => (dayRange n tmin tmax j).isSome with hD
    have hLn : ∀ j ∈ L, j < n := fun j hj => List.mem_range.1 (List.mem_filter.1 hj).1
    have hsplit := numbers_map_split L (fun j => bcRangeR F.fl (tmin j) (tmax j) (nextMin n tmin j)) (dayRange n tmin tmax) (by
      intro j hj
      rcases dayRange_cases f1 f2 F.fl (hLn j hj) with h | ⟨x, y, z, _, _, _, e, _, r', e'⟩
      · exact .inl h
      · exact .inr ⟨_, _, e, e'⟩)
    have hclose : ∀ j < n, ∀ r, dayRange n tmin tmax j = some r → ∃ r', bcRangeR F.fl (tmin j) (tmax j) (nextMin n tmin j) = .fin r' ∧ 0 ≤ r' ∧ |r' - r| ≤ 2e-13 := by
      intro j hj r hr
      rcases dayRange_cases f1 f2 F.fl hj with h | ⟨x, y, z, e1, e2, e3, e, ⟨j', hj', e4⟩, _⟩
      · rw [h.1] at hr; cases hr
      · rw [e] at hr
        cases hr
        rw [e1, e2, e3, hfl']
        exact bcRangeR_fin (b1 j hj x e1) (b2 j hj y e2).1 (b1 j' hj' z e4) (b2 j hj y e2).2 (b3 j hj _ e).1
    have hDn : ∀ j ∈ D, j < n ∧ ∃ r, dayRange n tmin tmax j = some r := fun j hj =>
      ⟨hLn j (List.mem_filter.1 hj).1, Option.isSome_iff_exists.1 (List.mem_filter.1 hj).2⟩
    have hiD : i ∈ D := List.mem_filter.2 ⟨List.mem_filter.2 ⟨List.mem_range.2 hi', by simp⟩, by rw [hr]; rfl⟩
    have hnum : numbers (monthRangesR F.fl d0 n tmin tmax i) = D.map (fun j => cellNum (bcRangeR F.fl (tmin j) (tmax j) (nextMin n tmin j))) := hsplit.1
    have hne : D ≠ [] := List.ne_nil_of_mem hiD
    obtain ⟨t, t1, t2⟩ := hm (monthRangesR F.fl d0 n tmin tmax i) (by
      intro cell hcell
      obtain ⟨j, hj, rfl⟩ := List.mem_map.1 hcell
      rcases dayRange_cases f1 f2 F.fl (hLn j hj) with h | ⟨x, y, z, _, _, _, e, _, r', e'⟩
      · exact .inl h.2
      · exact .inr ⟨_, e'⟩) (by rw [hnum]; simpa using hne)
    rw [hnum] at t1 t2
    rw [List.length_map] at t2
    have hlen : D.length ≤ 100000 := by
      refine le_trans ((List.length_filter_le _ _).trans ((List.length_filter_le _ _).trans ?_)) hn2
      rw [List.length_range]
    have hmc := mean_close (l := D) (r := fun j => (dayRange n tmin tmax j).getD 0) hlen (by
        intro j hj
        obtain ⟨hj, r, hr⟩ := hDn j hj
        obtain ⟨r', c1, c2, c3⟩ := hclose j hj r hr
        simp only [c1, hr, cellNum, Option.getD_some]
        exact c3) (by
        intro j hj
        obtain ⟨hj, r, hr⟩ := hDn j hj
        simp only [hr, Option.getD_some]
        exact b3 j hj r hr) (by
        intro j hj
        obtain ⟨hj, r, hr⟩ := hDn j hj
        obtain ⟨r', c1, c2, c3⟩ := hclose j hj r hr
        simp only [c1, cellNum]
        exact c2) t1
    have hM : (D.map fun j => (dayRange n tmin tmax j).getD 0).sum / D.length = monthMeanRange d0 n tmin tmax i := by
      unfold monthMeanRange
      dsimp only
      rw [← hL, hsplit.2, List.length_map]
    rw [hM] at hmc
    obtain ⟨g1, g2, g3⟩ := hmc
    obtain ⟨r', c1, c2, c3⟩ := hclose i hi' r hr
    have hC' := hc (monthOf (at00 (d0 + i)))
    have hA0 := ha (monthOf (at00 (d0 + i)))
    rw [← hC] at hC'
    rw [← hA] at hA0
    obtain ⟨T', k1, k2⟩ := bcCellR_close hF (m := μ) g2 g3 g1 (b3 i hi' r hr).1 c2 c3 hA0 hC'.1 hC'.2
    refine ⟨_, ?_, m3 T' (by rw [c1, t2, e0, m1, ← hA, ← hC]; exact k1) k hk⟩
    set T := A * (1 - Real.exp (-(0.036 * Real.exp (-0.154 * monthMeanRange d0 n tmin tmax i) * r ^ C))) with hT
    have q0 := (hq k hk).2
    have s1 := radR_cell T' q0 m2
    have s2 : |T| ≤ A := by
      have w0 : 0 ≤ 0.036 * Real.exp (-0.154 * monthMeanRange d0 n tmin tmax i) * r ^ C :=
        mul_nonneg (mul_nonneg (by norm_num) (Real.exp_pos _).le) (Real.rpow_nonneg (b3 i hi' r hr).1 C)
      have w1 := Real.exp_pos (-(0.036 * Real.exp (-0.154 * monthMeanRange d0 n tmin tmax i) * r ^ C))
      have w2 : Real.exp (-(0.036 * Real.exp (-0.154 * monthMeanRange d0 n tmin tmax i) * r ^ C)) ≤ 1 := Real.exp_le_one_iff.2 (by linarith)
      rw [hT, abs_mul, abs_of_nonneg hA0]
      refine (mul_le_mul_of_nonneg_left (abs_le.2 ⟨by linarith, by linarith⟩ : _ ≤ (1 : ℝ)) hA0).trans_eq (mul_one A)
    have s3 : |T'| ≤ 2 * A := by
      have := abs_add_le (T' - T) T
      rw [sub_add_cancel] at this
      norm_num at k2 this ⊢
      linarith
    have s4 := mul_le_mul_of_nonneg_right k2 q0
    have s5 := mul_le_mul_of_nonneg_right s3 q0
    have s7 : |(T' - T) * q k| = |T' - T| * q k := by rw [abs_mul, abs_of_nonneg q0]
    have s6 := abs_add_le (R53.fl (R53.fl (q k / μ) * R53.fl (T' * μ)) - T' * q k) ((T' - T) * q k)
    rw [show R53.fl (R53.fl (q k / μ) * R53.fl (T' * μ)) - T' * q k + (T' - T) * q k = R53.fl (R53.fl (q k / μ) * R53.fl (T' * μ)) - T * q k by ring, s7] at s6
    have s8 : 0 ≤ A * q k := mul_nonneg hA0 q0
    norm_num at s1 s4 s5 s6 ⊢
    linarith
  · intro hnone
    apply m4
    rcases dayRange_cases f1 f2 F.fl hi' with h | ⟨x, y, z, e1, e2, e3, e, _⟩
    · rw [h.2]
      have : F.powCell .nan (.fin (c (monthOf (at00 (d0 + (i : Nat)))))) = .nan := by
        unfold RadMath.powCell
        dsimp only
        rw [if_neg (by have := (hc (monthOf (at00 (d0 + (i : Nat))))).1; linarith)]
      unfold bcCellR
      dsimp only
      rw [this, XF.mul_nan]
      cases mean (day24 (p (d0 + (i : Int) - d0).toNat)) <;> rfl
    · rw [e] at hnone; cases hnone

/-- **C146 (temperatures, upper bound).**  Without the restrictions on the temperatures and for any A ≥ 0, C > 0: in double precision each hour of a day with sunshine is missing, or 0, or at
least 0.01 (rounded) and at most (1 + 1e-15)·A times its potential radiation. -/
theorem C146_via_bc_le (F : RadMath) (hF : RadDouble F) {mean : List (XF ℝ) → XF ℝ} (hm : SkippingMean (roundBits 53) mean) (api : PandasApi)
    (hi : daily.index = (List.range n).map fun i : Nat => at00 (d0 + i)) (hn : 0 < n) (tmin tmax : Nat → XF ℝ) (h1 : daily.col? "tmin" = some (dailyS d0 n tmin))
    (h2 : daily.col? "tmax" = some (dailyS d0 n tmax)) (f1 : ∀ i < n, (tmin i).NanOrFin) (f2 : ∀ i < n, (tmax i).NanOrFin)
    (sun : Option (Series SunTimes)) (p : Nat → Nat → XF ℝ) (par angstr : ParPair ℝ) (course : Option (MeanCourse ℝ)) (a c : Int → ℝ)
    (h : ∀ i : Nat, i < n → ParAt par (monthOf (at00 (d0 + i))) (.fin (a (monthOf (at00 (d0 + i))))) (.fin (c (monthOf (at00 (d0 + i))))))
    (ha : ∀ m, 0 ≤ a m) (hc : ∀ m, 0 < c m) :
    ∃ out, disaggregateRadiationR F mean api daily sun (some (hourlyS d0 n p)) "pot_rad_via_bc" angstr par course = .ok out ∧
      ∀ i < n, ∀ q : Nat → ℝ, (∀ h < 24, p i h = .fin (q h) ∧ 0 ≤ q h) → (∃ h < 24, 0 < q h) → ∀ h < 24,
        (dayCells out (d0 + i))[h]? = some .nan ∨ (dayCells out (d0 + i))[h]? = some (.fin 0) ∨
        ∃ y, (dayCells out (d0 + i))[h]? = some (.fin y) ∧ roundBits 53 0.01 ≤ y ∧ y ≤ (1 + 1e-15) * (a (monthOf (at00 (d0 + i))) * q h) := by
  have hfl : F.fl = R53.fl := hF.base.fl
  rw [via_bc_core F mean api hi hn tmin tmax h1 h2 sun p par angstr course a c h]
  refine ⟨_, radiationCoreR_eq _ mean d0 hn _ d0 p, ?_⟩
  intro i hi' q hq hpos k hk
  obtain ⟨μ, m1, m2, m3, m4⟩ := core_day F.toFloatMath hfl hm hn _ p (radiationCoreR_eq _ mean d0 hn _ d0 p) hi' hq hpos
  have e0 : (d0 + (i : Int) - d0).toNat = i := by omega
  rcases dayRange_cases f1 f2 F.fl hi' with h | ⟨x, y, z, e1, e2, e3, e, _, r', hr'⟩
  · left
    refine m4 ?_ k hk
    rw [h.2]
    have : F.powCell .nan (.fin (c (monthOf (at00 (d0 + (i : Nat)))))) = .nan := by
      unfold RadMath.powCell
      dsimp only
      rw [if_neg (hc _).ne']
    unfold bcCellR
    dsimp only
    rw [this, XF.mul_nan]
    cases mean (day24 (p (d0 + (i : Int) - d0).toNat)) <;> rfl
  · have hmem : r' ∈ numbers (monthRangesR F.fl d0 n tmin tmax i) :=
      List.mem_filterMap.2 ⟨.fin r', List.mem_map.2 ⟨i, List.mem_filter.2 ⟨List.mem_range.2 hi', by simp⟩, hr'⟩, rfl⟩
    obtain ⟨t, t1, t2⟩ := hm (monthRangesR F.fl d0 n tmin tmax i) (by
      intro cell hcell
      obtain ⟨j, hj, rfl⟩ := List.mem_map.1 hcell
      rcases dayRange_cases f1 f2 F.fl (List.mem_range.1 (List.mem_filter.1 hj).1) with h | ⟨x, y, z, _, _, _, e, _, r', e'⟩
      · exact .inl h.2
      · exact .inr ⟨_, e'⟩) (List.ne_nil_of_mem hmem)
    rcases bcCellR_le hF r' (roundBits 53 (t / (numbers (monthRangesR F.fl d0 n tmin tmax i)).length)) μ (ha (monthOf (at00 (d0 + i)))) (hc (monthOf (at00 (d0 + i)))) with hh | ⟨T', k1, k2⟩
    · left
      exact m4 (by rw [hr', t2, e0, m1]; exact hh) k hk
    · right
      rw [m3 T' (by rw [hr', t2, e0, m1]; exact k1) k hk]
      set w := R53.fl (R53.fl (q k / μ) * R53.fl (T' * μ)) with hw
      by_cases hlt : w < R53.fl 0.01
      · left; rw [if_pos hlt]
      · right
        rw [if_neg hlt]
        refine ⟨w, rfl, not_lt.1 hlt, ?_⟩
        have q0 := (hq k hk).2
        have a0 := ha (monthOf (at00 (d0 + i)))
        set A := a (monthOf (at00 (d0 + i))) with hA
        have aq : 0 ≤ A * q k := mul_nonneg a0 q0
        have u0 := R53.u_nonneg
        have v1 : R53.fl (T' * μ) ≤ R53.fl ((1 + R53.u) * A * μ) := R53.mono _ _ (mul_le_mul_of_nonneg_right k2 m2.le)
        have v2 : 0 ≤ R53.fl (q k / μ) := R53.fl_nonneg (div_nonneg q0 m2.le)
        have v3 : w ≤ R53.fl (R53.fl (q k / μ) * R53.fl ((1 + R53.u) * A * μ)) := R53.mono _ _ (mul_le_mul_of_nonneg_left v1 v2)
        have v4 := radR_cell ((1 + R53.u) * A) q0 m2
        have v5 := (abs_le.1 v4).2
        rw [abs_of_nonneg (mul_nonneg (by linarith) a0)] at v5
        have v6 : (1 + R53.u) * A * q k = (1 + R53.u) * (A * q k) := by ring
        rw [v6] at v5
        rw [R53_u] at v5
        norm_num at v5 ⊢
        rw [R53_u] at v3
        norm_num at v3
        linarith

/-! ## examples -/

/-- correctly rounded elementary functions -/
private def exR : RadMath := { fl := roundBits 53, cos := fun x => roundBits 53 (Real.cos x), pi := roundBits 53 Real.pi, exp := fun x => roundBits 53 (Real.exp x), pow := fun x p => roundBits 53 (x ^ p) }

private theorem exR_double : RadDouble exR where
  base := double_exists
  exp_err x := by
    have h := R53.err (Real.exp x)
    have h0 := Real.exp_pos x
    have h1 : (0 : ℝ) < 1 / 2 ^ 1000 := by positivity
    rw [R53_u, abs_of_pos h0] at h
    show |R53.fl (Real.exp x) - Real.exp x| ≤ _
    generalize (1 / 2 ^ 1000 : ℝ) = tiny at h1 ⊢
    norm_num at h ⊢
    linarith
  exp_nonneg x := R53.fl_nonneg (Real.exp_pos x).le
  pow_err x p hx := by
    have h := R53.err (x ^ p)
    have h0 : 0 < x ^ p := Real.rpow_pos_of_pos hx p
    have h1 : (0 : ℝ) < 1 / 2 ^ 1000 := by positivity
    rw [R53_u, abs_of_pos h0] at h
    show |R53.fl (x ^ p) - x ^ p| ≤ _
    generalize (1 / 2 ^ 1000 : ℝ) = tiny at h1 ⊢
    norm_num at h ⊢
    linarith
  pow_nonneg x p hx := R53.fl_nonneg (Real.rpow_pos_of_pos hx p).le

/-- the numbers added from left to right -/
private def exMean (cells : List (XF ℝ)) : XF ℝ := leftMean (roundBits 53) ((numbers cells).map .fin)

private theorem exMean_skipping : SkippingMean (roundBits 53) exMean := fun _ _ h => leftMean_rounded (roundBits 53) _ h

private def exRad3 : Frame ℝ :=
  ⟨[at00 0, at00 1, at00 2], [("ssd", [.fin 6, .nan, .fin 0]), ("tmin", [.fin 275, .fin 273, .nan]), ("tmax", [.fin 285, .fin 280, .fin 281])]⟩

private def exDay (h : Nat) : ℝ := if h = 12 then 600 else if h = 13 then 400 else 0

private theorem exDay_ok : (∀ h < 24, (fun _ h => XF.fin (exDay h) : Nat → Nat → XF ℝ) 0 h = .fin (exDay h) ∧ 0 ≤ exDay h) ∧ ∃ h < 24, 0 < exDay h :=
  ⟨fun h _ => ⟨rfl, by unfold exDay; split <;> [norm_num; split <;> norm_num]⟩, 12, by decide, by norm_num [exDay]⟩

/-- 6 hours of sunshine of 12: at noon half of the potential radiation, (0.25 + 0.5·6/12)·600 = 300 up to 3.1e-13; the next day is missing, the third (day length 0) is 0 -/
example : ∃ out, ∃ w : ℝ, disaggregateRadiationR exR exMean .modern exRad3 (some (dailyS 0 3 fun i => ⟨.fin 6, .fin 12, .fin 18, .fin (if i = 2 then 0 else 12)⟩)) (some (hourlyS 0 3 fun _ h => .fin (exDay h)))
      "pot_rad_via_ssd" (.scalar (.fin 0.25) (.fin 0.5)) (.scalar (.fin 0.75) (.fin 2.4)) none = .ok out ∧
    (dayCells out 0)[12]? = some (.fin w) ∧ |w - 300| ≤ 3.1e-13 ∧ (dayCells out 1)[12]? = some .nan ∧ (dayCells out 2)[12]? = some (.fin 0) := by
  have hs : exRad3.col? "ssd" = some (dailyS 0 3 fun i => if i = 0 then .fin 6 else if i = 1 then .nan else .fin 0) := rfl
  obtain ⟨out, h, h2⟩ := C146_via_ssd exR exR_double exMean_skipping .modern (daily := exRad3) (d0 := 0) (n := 3) rfl (by decide) _ hs
    (fun i => ⟨.fin 6, .fin 12, .fin 18, .fin (if i = 2 then 0 else 12)⟩) (fun _ h => .fin (exDay h)) (.scalar (.fin 0.25) (.fin 0.5)) (.scalar (.fin 0.75) (.fin 2.4)) none
    (fun _ => 0.25) (fun _ => 0.5) (fun _ _ => ⟨rfl, rfl⟩)
  obtain ⟨w, w1, w2⟩ := (h2 0 (by decide) exDay exDay_ok.1 exDay_ok.2).1 12 6 0.25 0.5 rfl (by norm_num) rfl rfl rfl 12 (by decide)
  have e : exDay 12 = 600 := rfl
  rw [e, show (0.25 + 0.5 * 6 / 12 : ℝ) * 600 = 300 by norm_num, abs_of_pos (by norm_num : (0 : ℝ) < 0.25), abs_of_pos (by norm_num : (0 : ℝ) < 0.5 * 6 / 12)] at w1
  have hbig : ¬ w < roundBits 53 0.01 := by
    have h1 : roundBits 53 (0.01 : ℝ) ≤ roundBits 53 1 := R53.mono _ _ (by norm_num)
    rw [roundBits_one (by norm_num)] at h1
    have := (abs_le.1 w1).1
    norm_num at this h1 ⊢
    linarith
  rw [if_neg hbig] at w2
  refine ⟨out, w, h, w2, w1.trans (by norm_num), ?_, ?_⟩
  · exact (h2 1 (by decide) exDay exDay_ok.1 exDay_ok.2).2.1 12 rfl (by norm_num) rfl 12 (by decide)
  · exact (h2 2 (by decide) exDay exDay_ok.1 exDay_ok.2).2.2 rfl 12 (by decide)

example : ∃ out, angstroemR (roundBits 53) [(at00 0, .fin 6)] [(at00 0, .fin 12)] [(at00 0, .fin 100)] (.scalar (.fin 0.25) (.fin 0.5)) = .ok out ∧
    ∃ y, out.at? (at00 0) = some (.fin y) ∧ |y - 50| ≤ 1e-13 := by
  obtain ⟨out, h, _, h2⟩ := C146_angstroem (.scalar (.fin 0.25) (.fin 0.5)) [at00 0] (fun _ => 0.25) (fun _ => 0.5) (fun _ => .fin 6) (fun _ => .fin 12) (fun _ => .fin 100)
    (fun _ _ => ⟨rfl, rfl⟩)
  obtain ⟨y, h3, h4⟩ := (h2 (at00 0) List.mem_cons_self).1 6 12 100 rfl rfl rfl (by norm_num)
  refine ⟨out, h, y, h3, ?_⟩
  rw [show (0.25 + 0.5 * 6 / 12 : ℝ) * 100 = 50 by norm_num, abs_of_pos (by norm_num : (0 : ℝ) < 0.25), abs_of_pos (by norm_num : (0 : ℝ) < 0.5 * 6 / 12),
    abs_of_pos (by norm_num : (0 : ℝ) < 100)] at h4
  exact h4.trans (by norm_num)

private def exTmin (i : Nat) : XF ℝ := if i = 0 then .fin 275 else if i = 1 then .fin 273 else .nan
private def exTmax (i : Nat) : XF ℝ := if i = 0 then .fin 285 else if i = 1 then .fin 280 else .fin 281

/-- the range of the first day is 285 - (275 + 273)/2 = 11, the others have none because the minimum of the third day is missing -/
example : ∃ out, ∃ w : ℝ, disaggregateRadiationR exR exMean .modern exRad3 none (some (hourlyS 0 3 fun _ h => .fin (exDay h)))
      "pot_rad_via_bc" (.scalar (.fin 0.25) (.fin 0.5)) (.scalar (.fin 0.75) (.fin 2)) none = .ok out ∧
    (dayCells out 0)[12]? = some (.fin (if w < roundBits 53 0.01 then 0 else w)) ∧ |w - 0.75 * (1 - Real.exp (-(0.036 * Real.exp (-0.154 * 11) * 11 ^ (2 : ℝ)))) * 600| ≤ 4.5e-6 ∧
    (dayCells out 1)[12]? = some .nan ∧ (dayCells out 2)[12]? = some .nan := by
  have hr0 : dayRange 3 exTmin exTmax 0 = some 11 := by
    show some _ = some _
    norm_num
  have hr1 : dayRange 3 exTmin exTmax 1 = none := rfl
  have hr2 : dayRange 3 exTmin exTmax 2 = none := rfl
  have rep : ∀ k : Nat, 0 < k → k < 1024 → roundBits 53 (k : ℝ) = k := by
    intro k h0 h1
    have hk : (0 : ℝ) < k := by exact_mod_cast h0
    refine roundBits_grid (k := k) (j := 0) (by simp) ?_
    have : Int.log 2 |(k : ℝ)| < 10 := by
      rw [abs_of_pos hk, ← Int.lt_zpow_iff_log_lt (by norm_num) hk]
      norm_num
      exact_mod_cast h1
    omega
  have r285 : roundBits 53 (285 : ℝ) = 285 := by exact_mod_cast rep 285 (by norm_num) (by norm_num)
  have r280 : roundBits 53 (280 : ℝ) = 280 := by exact_mod_cast rep 280 (by norm_num) (by norm_num)
  have r281 : roundBits 53 (281 : ℝ) = 281 := by exact_mod_cast rep 281 (by norm_num) (by norm_num)
  obtain ⟨out, h, h2⟩ := C146_via_bc exR exR_double exMean_skipping .modern (daily := exRad3) (d0 := 0) (n := 3) rfl (by decide) (by decide) exTmin exTmax rfl rfl
    (by intro i _; unfold exTmin; split <;> [trivial; split <;> trivial]) (by intro i _; unfold exTmax; split <;> [trivial; split <;> trivial])
    (by
      intro i _ x hx
      unfold exTmin at hx
      split at hx
      · cases hx; rw [abs_of_pos] <;> norm_num
      · split at hx
        · cases hx; rw [abs_of_pos] <;> norm_num
        · cases hx)
    (by
      intro i _ x hx
      unfold exTmax at hx
      split at hx
      · cases hx; exact ⟨by rw [abs_of_pos] <;> norm_num, r285⟩
      · split at hx
        · cases hx; exact ⟨by rw [abs_of_pos] <;> norm_num, r280⟩
        · cases hx; exact ⟨by rw [abs_of_pos] <;> norm_num, r281⟩)
    (by
      intro i hi r hr
      have : i = 0 ∨ i = 1 ∨ i = 2 := by omega
      rcases this with rfl | rfl | rfl
      · rw [hr0] at hr; cases hr; norm_num
      · rw [hr1] at hr; cases hr
      · rw [hr2] at hr; cases hr)
    none (fun _ h => .fin (exDay h)) (.scalar (.fin 0.75) (.fin 2)) (.scalar (.fin 0.25) (.fin 0.5)) none (fun _ => 0.75) (fun _ => 2) (fun _ _ => ⟨rfl, rfl⟩)
    (fun _ => by norm_num) (fun _ => by norm_num)
  obtain ⟨w, w1, w2⟩ := (h2 0 (by decide) exDay exDay_ok.1 exDay_ok.2).1 11 0.75 2 hr0 rfl rfl 12 (by decide)
  have hmean : monthMeanRange 0 3 exTmin exTmax 0 = 11 := by
    unfold monthMeanRange
    have e : ((List.range 3).filter fun j => monthOf (at00 ((0 : Int) + (j : Nat))) == monthOf (at00 ((0 : Int) + ((0 : Nat) : Int)))) = [0, 1, 2] := by decide
    simp only [e, List.filterMap_cons, hr0, hr1, hr2, List.filterMap_nil]
    norm_num
  rw [hmean, show exDay 12 = 600 from rfl] at w1
  refine ⟨out, w, h, w2, w1.trans (by norm_num), ?_, ?_⟩
  · exact (h2 1 (by decide) exDay exDay_ok.1 exDay_ok.2).2 hr1 12 (by decide)
  · exact (h2 2 (by decide) exDay exDay_ok.1 exDay_ok.2).2 hr2 12 (by decide)

example : ∃ out, disaggregateRadiationR exR exMean .modern exRad3 none (some (hourlyS 0 3 fun _ h => .fin (exDay h)))
      "pot_rad_via_bc" (.scalar (.fin 0.25) (.fin 0.5)) (.scalar (.fin 0.75) (.fin 2)) none = .ok out ∧
    ((dayCells out 0)[12]? = some .nan ∨ (dayCells out 0)[12]? = some (.fin 0) ∨ ∃ y : ℝ, (dayCells out 0)[12]? = some (.fin y) ∧ roundBits 53 0.01 ≤ y ∧ y ≤ (1 + 1e-15) * (0.75 * 600)) := by
  obtain ⟨out, h, h2⟩ := C146_via_bc_le exR exR_double exMean_skipping .modern (daily := exRad3) (d0 := 0) (n := 3) rfl (by decide) exTmin exTmax rfl rfl
    (by intro i _; unfold exTmin; split <;> [trivial; split <;> trivial]) (by intro i _; unfold exTmax; split <;> [trivial; split <;> trivial])
    none (fun _ h => .fin (exDay h)) (.scalar (.fin 0.75) (.fin 2)) (.scalar (.fin 0.25) (.fin 0.5)) none (fun _ => 0.75) (fun _ => 2) (fun _ _ => ⟨rfl, rfl⟩)
    (fun _ => by norm_num) (fun _ => by norm_num)
  exact ⟨out, h, h2 0 (by decide) exDay exDay_ok.1 exDay_ok.2 12 (by decide)⟩

end

end Melodist
