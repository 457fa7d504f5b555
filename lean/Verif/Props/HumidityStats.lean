import Verif.Props.Humidity
import Verif.Lemmas.Stats
import Mathlib.Data.Rat.Floor

/-!
# C41 (table), C42, C79: statistics and options for humidity
-/

set_option linter.unusedSectionVars false

namespace Melodist
open Spec

section
variable {K : Type} [Field K] [LinearOrder K] [IsStrictOrderedRing K]

theorem mem_daySpan {idx : List Time} {t : Time} (h : t ∈ idx) : dayOf t ∈ Series.daySpan idx := by
  unfold Series.daySpan
  have hm : dayOf t ∈ idx.map dayOf := List.mem_map_of_mem h
  cases h1 : (idx.map dayOf).min? with
  | none => rw [List.min?_eq_none_iff] at h1; rw [h1] at hm; simp at hm
  | some a =>
    cases h2 : (idx.map dayOf).max? with
    | none => rw [List.max?_eq_none_iff] at h2; rw [h2] at hm; simp at hm
    | some b =>
      rw [List.min?_eq_some_iff] at h1
      rw [List.max?_eq_some_iff] at h2
      have ha := h1.2 _ hm
      have hb := h2.2 _ hm
      simp only
      refine List.mem_map.2 ⟨(dayOf t - a).toNat, List.mem_range.2 (by omega), by omega⟩

theorem find?_midnight {W : Type} (g : Int → W) {d : Int} : ∀ l : List Int, d ∈ l →
    (l.map fun d => (midnight d, g d)).find? (fun r => r.1 == midnight d) = some (midnight d, g d) := by
  intro l
  induction l with
  | nil => simp
  | cons x l ih =>
    intro hd
    rw [List.map_cons, List.find?_cons]
    by_cases hx : x = d
    · subst hx; simp
    · have : (midnight x == midnight d) = false := by
        unfold midnight
        simp; omega
      simp only [this]
      exact ih (by rcases List.mem_cons.1 hd with rfl | h; exact absurd rfl hx; exact h)

theorem resampleD_at? {V W : Type} (agg : List V → W) (s : Series V) {d : Int} (h : d ∈ Series.daySpan s.index) :
    (s.resampleD agg).at? (midnight d) = some (agg (s.onDay d)) := by
  unfold Series.resampleD Series.at?
  rw [find?_midnight _ _ h]
  rfl

/-- the humidity observations of one category: rows in calendar month `m`, hour `h`, on days whose recorded precipitation adds up to more than 0
(`w = true`) or not -/
def catObs (hum precip : Series (XF K)) (m h : Int) (w : Bool) : List (XF K) :=
  (hum.filter fun r => decide (monthOf r.1 = m ∧ r.1 % 86400000000 / 3600000000 = h ∧
    (0 < (numbers (dayCells precip (r.1 / 86400000000))).sum ↔ w = true))).map Prod.snd

theorem table_eq {obs : Frame K} (hwf : obs.WF) {hum precip : Series (XF K)} (h1 : obs.col? "hum" = some hum) (h2 : obs.col? "precip" = some precip)
    (hfin : ∀ r ∈ precip, r.2.NanOrFin) :
    monthHourPrecipMean obs = .ok
      (((hum.map fun r => (monthOf r.1, hourOf r.1, decide (0 < (numbers (dayCells precip (dayOf r.1))).sum))).dedup).map fun k =>
        (k, meanSkip (catObs hum precip k.1 k.2.1 k.2.2))) := by
  unfold monthHourPrecipMean
  rw [attr_ok h2, py_ok_bind, attr_ok h1, py_ok_bind]
  dsimp only
  have hidx : hum.index = precip.index := by rw [col?_index hwf h1, col?_index hwf h2]
  have hk : (hum.map fun r => ((monthOf r.1, hourOf r.1,
      decide (XF.lt (.fin 0) (((precip.resampleD sumSkip).at? (midnight (dayOf r.1))).getD .nan))), r.2)) =
      hum.map fun r => ((monthOf r.1, hourOf r.1, decide (0 < (numbers (dayCells precip (dayOf r.1))).sum)), r.2) := by
    apply List.map_congr_left
    intro r hr
    have hm : r.1 ∈ precip.index := by rw [← hidx]; exact List.mem_map_of_mem hr
    rw [resampleD_at? _ _ (mem_daySpan hm), Option.getD_some, onDay_eq_dayCells, sumSkip_eq]
    · simp only [XF.lt_fin]
    · intro c hc
      obtain ⟨q, hq, rfl⟩ := List.mem_map.1 hc
      exact hfin q (List.mem_filter.1 hq).1
  rw [hk, List.map_map]
  congr 1
  apply List.map_congr_left
  intro k _
  congr 2
  unfold catObs
  rw [List.filter_map, List.map_map]
  simp only [Function.comp_def]
  congr 1
  apply List.filter_congr
  intro r _
  obtain ⟨m, h, w⟩ := k
  rw [Bool.eq_iff_iff, beq_iff_eq, decide_eq_true_iff]
  simp only [Prod.mk.injEq]
  unfold hourOf dayOf
  constructor
  · rintro ⟨a, b, c⟩
    refine ⟨a, b, ?_⟩
    rw [← c, decide_eq_true_iff]
  · rintro ⟨a, b, c⟩
    refine ⟨a, b, ?_⟩
    rw [Bool.eq_iff_iff, decide_eq_true_iff]
    exact c

/-- **C41 (table).**  `calculate_month_hour_precip_mean` on a frame with humidity and precipitation (any number of rows, NaN or numbers): the
table has exactly one entry for every category (month, hour, wet day) with rows, no others; the entry is the mean of the humidity
observations in it, missing if all of them are missing. -/
theorem C41_table (obs : Frame K) (hwf : obs.WF) (hum precip : Series (XF K)) (h1 : obs.col? "hum" = some hum)
    (h2 : obs.col? "precip" = some precip) (hf1 : ∀ r ∈ hum, r.2.NanOrFin) (hf2 : ∀ r ∈ precip, r.2.NanOrFin) :
    ∃ table, monthHourPrecipMean obs = .ok table ∧ (table.map Prod.fst).Nodup ∧
      (∀ m h w, (m, h, w) ∈ table.map Prod.fst ↔ catObs hum precip m h w ≠ []) ∧
      ∀ m h w x, ((m, h, w), x) ∈ table →
        (numbers (catObs hum precip m h w) = [] → x = .nan) ∧
        (numbers (catObs hum precip m h w) ≠ [] →
          x = .fin ((numbers (catObs hum precip m h w)).sum / (numbers (catObs hum precip m h w)).length)) := by
  refine ⟨_, table_eq hwf h1 h2 hf2, ?_, ?_, ?_⟩
  · rw [List.map_map]
    show (List.map id _).Nodup
    rw [List.map_id]
    exact List.nodup_dedup _
  · intro m h w
    rw [List.map_map]
    show _ ∈ List.map id _ ↔ _
    rw [List.map_id, List.mem_dedup]
    constructor
    · intro hm
      obtain ⟨r, hr, he⟩ := List.mem_map.1 hm
      simp only [Prod.mk.injEq] at he
      obtain ⟨a, b, c⟩ := he
      apply List.ne_nil_of_mem (a := r.2)
      refine List.mem_map.2 ⟨r, List.mem_filter.2 ⟨hr, ?_⟩, rfl⟩
      rw [decide_eq_true_iff]
      refine ⟨a, b, ?_⟩
      rw [← c, decide_eq_true_iff]
      rfl
    · intro hne
      obtain ⟨c, hc⟩ := List.exists_mem_of_ne_nil _ hne
      obtain ⟨r, hr, rfl⟩ := List.mem_map.1 hc
      obtain ⟨hr, hd⟩ := List.mem_filter.1 hr
      rw [decide_eq_true_iff] at hd
      obtain ⟨a, b, c⟩ := hd
      refine List.mem_map.2 ⟨r, hr, ?_⟩
      simp only [Prod.mk.injEq]
      refine ⟨a, b, ?_⟩
      rw [Bool.eq_iff_iff, decide_eq_true_iff]
      exact c
  · intro m h w x hx
    obtain ⟨k, _, he⟩ := List.mem_map.1 hx
    simp only [Prod.mk.injEq] at he
    obtain ⟨rfl, rfl⟩ := he
    have hno : ∀ c ∈ catObs hum precip m h w, c.NanOrFin := by
      intro c hc
      obtain ⟨r, hr, rfl⟩ := List.mem_map.1 hc
      exact hf1 r (List.mem_filter.1 hr).1
    constructor
    · intro he
      unfold meanSkip
      rw [countValid_eq hno, he]
      rfl
    · intro hne
      exact meanSkip_eq hno hne

/-- C41 (table): 50 %, missing and 70 % at 00:00 of three dry days in January give the entry 60 % -/
example : okAnd (monthHourPrecipMean (K := ℚ) ⟨[at00 0, at00 1, at00 2], [("hum", [.fin 50, .nan, .fin 70]), ("precip", [.fin 0, .nan, .fin 0])]⟩)
    (fun t => decide (t = [((1, 0, false), .fin 60)])) = true := by
  decide +kernel

end

/-! ## C42 -/

/-- **C42.**  The options that are refused with AssertionError, whatever the other arguments: an unknown method; 'dewpoint_regression' and
'linear_dewpoint_variation' without a0 or a1; 'min_max' without the columns hum_min and hum_max; 'month_hour_precip_mean' without a table. -/
theorem C42_invalid_options (api : PandasApi) (daily : Frame ℝ) (temp : Option (Series (XF ℝ))) (a0 a1 kr : Option ℝ)
    (table : Option (CatMeans ℝ)) (preserve : Bool) :
    (∀ method, method ∉ ["equal", "minimal", "dewpoint_regression", "min_max", "linear_dewpoint_variation", "month_hour_precip_mean"] →
      disaggregateHumidity api daily method temp a0 a1 kr table preserve = .error .assertionError) ∧
    (∀ method ∈ ["dewpoint_regression", "linear_dewpoint_variation"], a0 = none ∨ a1 = none →
      disaggregateHumidity api daily method temp a0 a1 kr table preserve = .error .assertionError) ∧
    (daily.col? "hum_min" = none ∨ daily.col? "hum_max" = none →
      disaggregateHumidity api daily "min_max" temp a0 a1 kr table preserve = .error .assertionError) ∧
    disaggregateHumidity api daily "month_hour_precip_mean" temp a0 a1 kr none preserve = .error .assertionError := by
  refine ⟨?_, ?_, ?_, ?_⟩
  · intro method hm
    unfold disaggregateHumidity humidityRaw
    simp only [List.mem_cons, List.not_mem_nil, or_false] at hm
    rw [if_pos hm]
    rfl
  · intro method hm hn
    simp only [List.mem_cons, List.not_mem_nil, or_false] at hm
    unfold disaggregateHumidity humidityRaw humidityDewpoint
    rcases hm with rfl | rfl <;>
    · simp only [true_or, or_true, not_true, if_false, if_true, reduceCtorEq, String.reduceEq]
      rcases hn with rfl | rfl
      · rfl
      · cases a0 <;> rfl
  · intro h
    have hf : (daily.has "hum_min" && daily.has "hum_max") = false := by
      rw [Bool.and_eq_false_iff]
      rcases h with h | h
      · left
        by_contra hc
        obtain ⟨s, hs⟩ := col?_of_has (Bool.not_eq_false _ ▸ hc)
        rw [h] at hs; cases hs
      · right
        by_contra hc
        obtain ⟨s, hs⟩ := col?_of_has (Bool.not_eq_false _ ▸ hc)
        rw [h] at hs; cases hs
    unfold disaggregateHumidity humidityRaw humidityMinMax
    simp only [true_or, or_true, not_true, if_false, if_true, reduceCtorEq, String.reduceEq, or_self, hf, Bool.not_false]
    rfl
  · unfold disaggregateHumidity humidityRaw humidityCategorical
    simp only [true_or, or_true, not_true, if_false, if_true, reduceCtorEq, String.reduceEq, or_self]
    rfl

/-- C42: an unknown method -/
example : disaggregateHumidity .modern ⟨[at00 0], [("hum", [.fin 50])]⟩ "linear" = .error .assertionError :=
  (C42_invalid_options .modern _ none none none none none false).1 "linear" (by decide)

/-! ## C79 -/

section
variable {K : Type} [Field K] [LinearOrder K] [IsStrictOrderedRing K]

/-- sum of the squared residuals of the line `y = s·x + c` -/
def residuals (pts : List (K × K)) (s c : K) : K := (pts.map fun p => (s * p.1 + c - p.2) ^ 2).sum

theorem residuals_expand (pts : List (K × K)) (mx my s c : K) :
    residuals pts s c = s ^ 2 * (pts.map fun p => (p.1 - mx) * (p.1 - mx)).sum - 2 * s * (pts.map fun p => (p.1 - mx) * (p.2 - my)).sum +
      (pts.map fun p => (p.2 - my) ^ 2).sum + pts.length * (s * mx + c - my) ^ 2 +
      2 * (s * mx + c - my) * (s * ((pts.map Prod.fst).sum - pts.length * mx) - ((pts.map Prod.snd).sum - pts.length * my)) := by
  unfold residuals
  induction pts with
  | nil => simp
  | cons p l ih =>
    simp only [List.map_cons, List.sum_cons, List.length_cons]
    rw [ih]
    push_cast
    ring

theorem sum_sq_zero : ∀ (l : List K), (l.map fun x => x * x).sum = 0 → ∀ x ∈ l, x = 0 := by
  intro l
  induction l with
  | nil => simp
  | cons a l ih =>
    intro h x hx
    simp only [List.map_cons, List.sum_cons] at h
    have h1 : 0 ≤ (l.map fun x => x * x).sum := by
      apply List.sum_nonneg
      intro y hy
      obtain ⟨z, _, rfl⟩ := List.mem_map.1 hy
      exact mul_self_nonneg z
    have h2 := mul_self_nonneg a
    rcases List.mem_cons.1 hx with rfl | hx
    · exact mul_self_eq_zero.1 (by linarith)
    · exact ih (by linarith) x hx

/-- the regression of scipy is the least-squares line; it exists as soon as two x values differ -/
theorem linregress_spec (pts : List (K × K)) (hne : ∃ p ∈ pts, ∃ q ∈ pts, p.1 ≠ q.1) :
    ∃ slope icpt, linregress pts = .ok (.fin slope, .fin icpt) ∧ ∀ s c, residuals pts slope icpt ≤ residuals pts s c ∧
      (residuals pts s c = residuals pts slope icpt → s = slope ∧ c = icpt) := by
  obtain ⟨p, hp, q, hq, hpq⟩ := hne
  have hnil : pts ≠ [] := List.ne_nil_of_mem hp
  have hlen : (pts.length : K) ≠ 0 := by
    rw [Nat.cast_ne_zero]
    intro h; exact hnil (List.length_eq_zero_iff.1 h)
  have hpos : (0 : K) < pts.length := lt_of_le_of_ne (Nat.cast_nonneg _) hlen.symm
  unfold linregress
  dsimp only
  rw [if_neg hnil, if_neg (by rintro ⟨_, h⟩; exact hpq (h p hp q hq))]
  set mx := (pts.map Prod.fst).sum / (pts.length : K) with hmx
  set my := (pts.map Prod.snd).sum / (pts.length : K) with hmy
  set A := (pts.map fun p => (p.1 - mx) * (p.1 - mx)).sum with hA
  set B := (pts.map fun p => (p.1 - mx) * (p.2 - my)).sum with hB
  have hA0 : A ≠ 0 := by
    intro h
    rw [hA] at h
    have h' := sum_sq_zero (pts.map fun p => p.1 - mx) (by rw [List.map_map]; exact h)
    have e1 := h' _ (List.mem_map_of_mem hp)
    have e2 := h' _ (List.mem_map_of_mem hq)
    exact hpq (by linear_combination e1 - e2)
  have hAp : 0 < A := by
    refine lt_of_le_of_ne ?_ hA0.symm
    apply List.sum_nonneg
    intro y hy
    obtain ⟨z, _, rfl⟩ := List.mem_map.1 hy
    exact mul_self_nonneg _
  refine ⟨B / A, my - B / A * mx, ?_, ?_⟩
  · rw [XF.fin_div_fin_of_ne _ hA0, XF.fin_mul_fin, XF.fin_sub_fin]
  · intro s c
    have z1 : (pts.map Prod.fst).sum - pts.length * mx = 0 := by rw [hmx]; field_simp; ring
    have z2 : (pts.map Prod.snd).sum - pts.length * my = 0 := by rw [hmy]; field_simp; ring
    have E : residuals pts s c = residuals pts (B / A) (my - B / A * mx) + A * (s - B / A) ^ 2 + pts.length * (s * mx + c - my) ^ 2 := by
      rw [residuals_expand pts mx my s c, residuals_expand pts mx my (B / A) _, z1, z2, ← hA, ← hB]
      field_simp
      ring
    have n1 : 0 ≤ A * (s - B / A) ^ 2 := by positivity
    have n2 : 0 ≤ (pts.length : K) * (s * mx + c - my) ^ 2 := by positivity
    refine ⟨by linarith, fun he => ?_⟩
    have y1 : A * (s - B / A) ^ 2 = 0 := by linarith
    have y2 : (pts.length : K) * (s * mx + c - my) ^ 2 = 0 := by linarith
    have x1 : s = B / A := by
      have := pow_eq_zero_iff (two_ne_zero) |>.1 ((mul_eq_zero.1 y1).resolve_left hA0)
      linear_combination this
    have x2 := pow_eq_zero_iff (two_ne_zero) |>.1 ((mul_eq_zero.1 y2).resolve_left hlen)
    exact ⟨x1, by rw [x1] at x2; linear_combination x2⟩

end

section

/-- the dew points (K) of the rows of day `d` with both temperature and humidity -/
noncomputable def dewOn (temp hum : Series (XF ℝ)) (d : Int) : List ℝ :=
  (temp.zip hum).filterMap fun rq =>
    if rq.1.1 / 86400000000 = d then
      match rq.1.2, rq.2.2 with
      | .fin T, .fin h => some (dewPoint T h)
      | _, _ => none
    else none

/-- a temperature above 0.53 K (the pole of the Magnus formula over ice) or missing -/
def TempOk (c : XF ℝ) : Prop := c = .nan ∨ ∃ T, c = .fin T ∧ 0.53 < T

/-- a humidity in (0, 100] or missing -/
def HumOk (c : XF ℝ) : Prop := c = .nan ∨ ∃ h, c = .fin h ∧ 0 < h ∧ h ≤ 100

theorem dewpointCell_dewPoint {T h : ℝ} (hT : 0.53 < T) (h0 : 0 < h) (h1 : h ≤ 100) :
    dewpointCell (.fin T) (.fin h) = .fin (dewPoint T h) := by
  obtain ⟨D, e, hD, _⟩ := dewpointCell_exists hT h0 h1
  rw [e, hD]
  congr 1
  unfold dewPoint satPressure
  dsimp only
  have e1 : ∀ x : ℝ, 6.112 * Real.exp x * h / 100 / 6.112 = Real.exp x * (h / 100) := fun x => by ring
  have e2 : ∀ x : ℝ, Real.log (Real.exp x * (h / 100)) = x + Real.log (h / 100) := fun x => by
    rw [Real.log_mul (Real.exp_pos _).ne' (by positivity), Real.log_exp]
  unfold magnus mgA mgB
  split
  · rw [e1, e2]; ring
  · rw [e1, e2]; ring

theorem dewpointCell_nan {t q : XF ℝ} (h : t = .nan ∨ q = .nan) : dewpointCell t q = .nan := by
  have hv : vaporPressureCell t q = .nan := by
    unfold vaporPressureCell
    rcases h with rfl | rfl
    · rw [if_neg (by simp)]
      simp
    · split <;> simp
  unfold dewpointCell
  simp only [hv]
  split <;> simp

theorem dewpointCell_ok {t q : XF ℝ} (ht : TempOk t) (hq : HumOk q) : (dewpointCell t q).NanOrFin := by
  rcases ht with rfl | ⟨T, rfl, hT⟩
  · rw [dewpointCell_nan (.inl rfl)]; exact trivial
  · rcases hq with rfl | ⟨h, rfl, h0, h1⟩
    · rw [dewpointCell_nan (.inr rfl)]; exact trivial
    · rw [dewpointCell_dewPoint hT h0 h1]; exact trivial

/-- the dew points of a day, cell by cell -/
theorem numbers_dew (temp hum : Series (XF ℝ)) (hi : temp.index = hum.index) (h1 : ∀ r ∈ temp, TempOk r.2) (h2 : ∀ r ∈ hum, HumOk r.2) (d : Int) :
    numbers (Series.onDay (temp.index.zip (List.zipWith dewpointCell temp.values hum.values)) d) = dewOn temp hum d := by
  induction temp generalizing hum with
  | nil => simp [dewOn, Series.onDay, Series.index, Series.values]
  | cons r temp ih =>
    rcases hum with _ | ⟨q, hum⟩
    · simp [Series.index] at hi
    · have hi' : Series.index temp = Series.index hum := (List.cons.inj hi).2
      have ih' := ih hum hi' (fun r hr => h1 r (List.mem_cons_of_mem _ hr)) (fun r hr => h2 r (List.mem_cons_of_mem _ hr))
      have t1 := h1 r List.mem_cons_self
      have t2 := h2 q List.mem_cons_self
      obtain ⟨r1, r2⟩ := r
      obtain ⟨q1, q2⟩ := q
      simp only [Series.index, Series.values, List.map_cons, List.zipWith_cons_cons, List.zip_cons_cons, Series.onDay, dewOn, List.filterMap_cons,
        List.filter_cons, dayOf] at ih' ⊢
      by_cases hd : r1 / 86400000000 = d
      · simp only [hd, beq_self_eq_true, if_true, List.map_cons]
        rcases t1 with e1 | ⟨T, e1, hT⟩
        · simp only at e1; subst e1
          rw [dewpointCell_nan (.inl rfl), numbers_cons_nan]
          exact ih'
        · simp only at e1; subst e1
          rcases t2 with e2 | ⟨h, e2, h0, h1'⟩
          · simp only at e2; subst e2
            rw [dewpointCell_nan (.inr rfl), numbers_cons_nan]
            exact ih'
          · simp only at e2; subst e2
            rw [dewpointCell_dewPoint hT h0 h1', numbers_cons_fin]
            simp only
            rw [← ih']
      · simp only [hd, if_false, beq_iff_eq]
        exact ih'

theorem daySpan_nodup (idx : List Time) : (Series.daySpan idx).Nodup := by
  unfold Series.daySpan
  split
  · refine List.Nodup.map ?_ List.nodup_range
    intro a b h
    simp only at h
    omega
  · exact List.nodup_nil

theorem groupbyDate_at? {V W : Type} (agg : List V → W) (s : Series V) {d : Int} {r : Time × V} (hr : r ∈ s) (h : dayOf r.1 = d) :
    (s.groupbyDate agg).at? (midnight d) = some (agg (s.onDay d)) := by
  have hd : d ∈ (Series.daySpan s.index).filter fun d => s.any fun r => dayOf r.1 == d := by
    rw [List.mem_filter]
    refine ⟨?_, ?_⟩
    · rw [← h]; exact mem_daySpan (List.mem_map_of_mem hr)
    · rw [List.any_eq_true]; exact ⟨r, hr, by simpa using h⟩
  unfold Series.groupbyDate Series.at?
  rw [find?_midnight _ _ hd]
  rfl

theorem item_ok {K : Type} {f : Frame K} {name : String} {s : Series (XF K)} (h : f.col? name = some s) : f.item name = .ok s := by
  unfold Frame.item; rw [h]

/-- the rows that survive `dropna`, as points -/
theorem points_ok (f : Int → XF ℝ × XF ℝ) (P : Int → Prop) [DecidablePred P] (a b : Int → ℝ) (l : List Int)
    (hp : ∀ d ∈ l, P d → f d = (.fin (a d), .fin (b d))) (hn : ∀ d ∈ l, ¬ P d → (f d).2 = .nan) :
    ((l.map f).filter fun r => !r.1.isNan && !r.2.isNan).mapM finPoint = .ok ((l.filter fun d => P d).map fun d => (a d, b d)) := by
  induction l with
  | nil => rfl
  | cons d l ih =>
    have ih' := ih (fun x hx => hp x (List.mem_cons_of_mem _ hx)) (fun x hx => hn x (List.mem_cons_of_mem _ hx))
    by_cases hd : P d
    · have e := hp d List.mem_cons_self hd
      rw [List.map_cons, List.filter_cons_of_pos (by rw [e]; rfl), List.filter_cons_of_pos (by simpa using hd), List.mapM_cons, ih', e]
      rfl
    · have e := hn d List.mem_cons_self hd
      rw [List.map_cons, List.filter_cons_of_neg (by rw [e]; simp [XF.isNan]), List.filter_cons_of_neg (by simpa using hd), ih']

/-- the points of the regression: one per day with a valid row -/
theorem dewpointRegression_eq {obs : Frame ℝ} (hwf : obs.WF) {temp hum : Series (XF ℝ)} (h1 : obs.col? "temp" = some temp)
    (h2 : obs.col? "hum" = some hum) (hf1 : ∀ r ∈ temp, TempOk r.2) (hf2 : ∀ r ∈ hum, HumOk r.2) (tmin tdew : Int → ℝ)
    (hmin : ∀ d, dewOn temp hum d ≠ [] → tmin d ∈ numbers (dayCells temp d) ∧ ∀ y ∈ numbers (dayCells temp d), tmin d ≤ y)
    (hdew : ∀ d, dewOn temp hum d ≠ [] → tdew d = (dewOn temp hum d).sum / (dewOn temp hum d).length) :
    dewpointRegression obs = linregress (((Series.daySpan temp.index).filter fun d => dewOn temp hum d ≠ []).map fun d => (tmin d, tdew d)) := by
  have hidx : temp.index = hum.index := by rw [col?_index hwf h1, col?_index hwf h2]
  have hlen : temp.values.length = hum.values.length := by
    have := congrArg List.length hidx
    simpa [Series.index, Series.values] using this
  unfold dewpointRegression
  rw [item_ok h1, py_ok_bind, item_ok h2, py_ok_bind]
  unfold dewpointTemperature
  rw [if_pos hlen, py_ok_bind]
  dsimp only
  set S : Series (XF ℝ) := temp.index.zip (List.zipWith dewpointCell temp.values hum.values) with hS
  have hSi : S.index = temp.index := by
    rw [hS]
    apply index_zip
    simp [Series.index, Series.values] at hlen ⊢
    omega
  have hnum : ∀ d, numbers (S.onDay d) = dewOn temp hum d := fun d => numbers_dew temp hum hidx hf1 hf2 d
  have hok : ∀ d, ∀ c ∈ S.onDay d, c.NanOrFin := by
    intro d c hc
    obtain ⟨r, hr, rfl⟩ := List.mem_map.1 hc
    have hr' := (List.mem_filter.1 hr).1
    have := (List.of_mem_zip hr').2
    obtain ⟨i, hi, he⟩ := List.mem_iff_getElem.1 this
    rw [List.getElem_zipWith] at he
    rw [← he]
    apply dewpointCell_ok
    · have : temp.values[i]'(by simp at hi; omega) ∈ temp.values := List.getElem_mem _
      obtain ⟨q, hq, e⟩ := List.mem_map.1 this
      rw [← e]; exact hf1 q hq
    · have : hum.values[i]'(by simp at hi; omega) ∈ hum.values := List.getElem_mem _
      obtain ⟨q, hq, e⟩ := List.mem_map.1 this
      rw [← e]; exact hf2 q hq
  have hrows : (S.resampleD meanSkip).map (fun r => (((temp.groupbyDate minSkip).at? r.1).getD .nan, r.2)) =
      (Series.daySpan temp.index).map fun d => (((temp.groupbyDate minSkip).at? (midnight d)).getD .nan, meanSkip (S.onDay d)) := by
    unfold Series.resampleD
    rw [List.map_map, hSi]
    rfl
  rw [hrows, points_ok _ (fun d => dewOn temp hum d ≠ []) tmin tdew, py_ok_bind]
  · intro d _ hd
    have hd' := hd
    rw [← hnum d] at hd'
    rw [meanSkip_eq (hok d) hd', hnum, ← hdew d hd]
    congr 1
    obtain ⟨x, hx⟩ := List.exists_mem_of_ne_nil _ hd
    obtain ⟨rq, hrq, he⟩ := List.mem_filterMap.1 hx
    have hr : rq.1 ∈ temp := (List.of_mem_zip hrq).1
    have hday : dayOf rq.1.1 = d := by
      by_contra hne
      unfold dayOf at hne; rw [if_neg hne] at he; cases he
    rw [groupbyDate_at? _ _ hr hday, Option.getD_some, onDay_eq_dayCells]
    have hno : ∀ c ∈ dayCells temp d, c.NanOrFin := by
      intro c hc
      obtain ⟨q, hq, rfl⟩ := List.mem_map.1 hc
      rcases hf1 q (List.mem_filter.1 hq).1 with e | ⟨T, e, _⟩ <;> rw [e] <;> exact trivial
    obtain ⟨hm1, hm2⟩ := hmin d hd
    obtain ⟨m, e, hm3, hm4⟩ := minSkip_eq hno (List.ne_nil_of_mem hm1)
    rw [e, le_antisymm (hm4 _ hm1) (hm2 _ hm3)]
  · intro d _ hd
    have : numbers (S.onDay d) = [] := by rw [hnum]; exact not_not.1 hd
    show meanSkip _ = _
    unfold meanSkip
    rw [countValid_eq (hok d), this]
    rfl

/-- **C79.**  `calculate_dewpoint_regression` for any observations (temperatures above 0.53 K, humidities in (0, 100], any of them missing).
`days` are the days with at least one row with both; `tmin d` is the lowest temperature of day `d` and `tdew d` the mean of its dew points.
If two of these days differ in `tmin`, the result `(a1, a0)` is the unique least-squares line tdew ≈ a1 · tmin + a0 over these days. -/
theorem C79_dewpoint_regression (obs : Frame ℝ) (hwf : obs.WF) (temp hum : Series (XF ℝ)) (h1 : obs.col? "temp" = some temp)
    (h2 : obs.col? "hum" = some hum) (hf1 : ∀ r ∈ temp, TempOk r.2) (hf2 : ∀ r ∈ hum, HumOk r.2) (days : List Int) (hnd : days.Nodup)
    (hdays : ∀ d, d ∈ days ↔ dewOn temp hum d ≠ []) (tmin tdew : Int → ℝ)
    (hmin : ∀ d ∈ days, tmin d ∈ numbers (dayCells temp d) ∧ ∀ y ∈ numbers (dayCells temp d), tmin d ≤ y)
    (hdew : ∀ d ∈ days, tdew d = (dewOn temp hum d).sum / (dewOn temp hum d).length)
    (hvar : ∃ d ∈ days, ∃ e ∈ days, tmin d ≠ tmin e) :
    ∃ a1 a0, dewpointRegression obs = .ok (.fin a1, .fin a0) ∧ ∀ s c,
      (days.map fun d => (a1 * tmin d + a0 - tdew d) ^ 2).sum ≤ (days.map fun d => (s * tmin d + c - tdew d) ^ 2).sum ∧
      ((days.map fun d => (s * tmin d + c - tdew d) ^ 2).sum = (days.map fun d => (a1 * tmin d + a0 - tdew d) ^ 2).sum → s = a1 ∧ c = a0) := by
  rw [dewpointRegression_eq hwf h1 h2 hf1 hf2 tmin tdew (fun d hd => hmin d ((hdays d).2 hd)) (fun d hd => hdew d ((hdays d).2 hd))]
  have hperm : ((Series.daySpan temp.index).filter fun d => dewOn temp hum d ≠ []).Perm days := by
    rw [List.perm_ext_iff_of_nodup ((daySpan_nodup _).filter _) hnd]
    intro d
    rw [List.mem_filter, hdays]
    simp only [decide_eq_true_iff]
    refine ⟨fun h => h.2, fun h => ⟨?_, h⟩⟩
    obtain ⟨x, hx⟩ := List.exists_mem_of_ne_nil _ h
    obtain ⟨rq, hrq, he⟩ := List.mem_filterMap.1 hx
    have hr : rq.1 ∈ temp := (List.of_mem_zip hrq).1
    by_cases hd : rq.1.1 / 86400000000 = d
    · rw [← hd]; exact mem_daySpan (List.mem_map_of_mem hr)
    · rw [if_neg hd] at he; cases he
  set D := (Series.daySpan temp.index).filter fun d => dewOn temp hum d ≠ [] with hD
  obtain ⟨a1, a0, he, hmn⟩ := linregress_spec (D.map fun d => (tmin d, tdew d)) (by
    obtain ⟨d, hd, e, he, hne⟩ := hvar
    exact ⟨_, List.mem_map_of_mem (hperm.mem_iff.2 hd), _, List.mem_map_of_mem (hperm.mem_iff.2 he), hne⟩)
  have hres : ∀ s c, residuals (D.map fun d => (tmin d, tdew d)) s c = (days.map fun d => (s * tmin d + c - tdew d) ^ 2).sum := by
    intro s c
    unfold residuals
    rw [List.map_map]
    exact (hperm.map _).sum_eq
  refine ⟨a1, a0, he, ?_⟩
  intro s c
  have := hmn s c
  rw [hres, hres] at this
  exact this

theorem dewPoint_saturated {T : ℝ} (hT : 0.53 < T) : dewPoint T 100 = T := by
  have e1 : ∀ x : ℝ, 6.112 * Real.exp x * 100 / 100 / 6.112 = Real.exp x := fun x => by ring
  unfold dewPoint satPressure
  dsimp only
  split
  · rename_i h
    have h1 : 243.12 + (T - 273.15) ≠ 0 := by norm_num at h ⊢; intro hc; linarith
    have h2 : (17.62 : ℝ) - 17.62 * (T - 273.15) / (243.12 + (T - 273.15)) = 17.62 * 243.12 / (243.12 + (T - 273.15)) := by
      field_simp; ring
    rw [e1, Real.log_exp, h2]
    field_simp
    ring
  · have h1 : 272.62 + (T - 273.15) ≠ 0 := by norm_num at hT ⊢; intro hc; linarith
    have h2 : (22.46 : ℝ) - 22.46 * (T - 273.15) / (272.62 + (T - 273.15)) = 22.46 * 272.62 / (272.62 + (T - 273.15)) := by
      field_simp; ring
    rw [e1, Real.log_exp, h2]
    field_simp
    ring

/-- two days, one row each at 290 K and 280 K with 100 % humidity (the dew point is the temperature) -/
def saturated : Frame ℝ := ⟨[at00 0, at00 1], [("temp", [.fin 290, .fin 280]), ("hum", [.fin 100, .fin 100]), ("precip", [.fin 0, .nan])]⟩

theorem saturated_dewOn (d : Int) : dewOn [(at00 0, .fin 290), (at00 1, .fin 280)] [(at00 0, .fin 100), (at00 1, .fin 100)] d =
    if d = 0 then [290] else if d = 1 then [280] else [] := by
  have h1 := dewPoint_saturated (T := 290) (by norm_num)
  have h2 := dewPoint_saturated (T := 280) (by norm_num)
  unfold dewOn at00
  simp only [List.zip_cons_cons, List.zip_nil_left, List.filterMap_cons, List.filterMap_nil, h1, h2]
  rcases eq_or_ne d 0 with rfl | h0
  · norm_num
  · rcases eq_or_ne d 1 with rfl | h1
    · norm_num
    · rw [if_neg (by omega), if_neg (by omega), if_neg h0, if_neg h1]

/-- C79: slope 1, intercept 0 -/
theorem saturated_regression : dewpointRegression saturated = .ok (.fin 1, .fin 0) := by
  have hd := saturated_dewOn
  obtain ⟨a1, a0, he, hm⟩ := C79_dewpoint_regression saturated
    (by intro c hc; simp [saturated] at hc; rcases hc with rfl | rfl | rfl <;> rfl) [(at00 0, .fin 290), (at00 1, .fin 280)] [(at00 0, .fin 100), (at00 1, .fin 100)]
    rfl rfl
    (by intro r hr; simp at hr; rcases hr with rfl | rfl <;> exact .inr ⟨_, rfl, by norm_num⟩)
    (by intro r hr; simp at hr; rcases hr with rfl | rfl <;> exact .inr ⟨_, rfl, by norm_num⟩)
    [0, 1] (by decide) (by intro d; rw [hd]; split <;> [simp_all; (split <;> simp_all)])
    (fun d => if d = 0 then 290 else 280) (fun d => if d = 0 then 290 else 280)
    (by intro d hd; simp at hd; rcases hd with rfl | rfl <;> simp [dayCells, at00, numbers])
    (by intro d hd'; simp at hd'; rcases hd' with rfl | rfl <;> rw [hd] <;> simp)
    ⟨0, by simp, 1, by simp, by norm_num⟩
  have := hm 1 0
  simp only [List.map_cons, List.map_nil, List.sum_cons, List.sum_nil, if_true, one_ne_zero, if_false] at this
  have hz := this.2 (le_antisymm (by nlinarith [sq_nonneg (a1 * 290 + a0 - 290), sq_nonneg (a1 * 280 + a0 - 280)]) this.1)
  rw [he, ← hz.1, ← hz.2]

end

end Melodist
