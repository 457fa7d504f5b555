import Verif.Props.RegressionRound
import Verif.Props.DewRound
import Verif.Props.DailyRound

/-!
# C152: `calculate_dewpoint_regression` in double precision, from the observations to the line
-/

set_option linter.unusedSectionVars false

namespace Melodist
open Spec

namespace Spec

/-- a temperature between -40 and 50 °C as a double other than that nearest to 273.15 (where the formula jumps, C139), or missing -/
def TempDouble (c : XF ℝ) : Prop := c = .nan ∨ ∃ T, c = .fin T ∧ roundBits 53 T = T ∧ 233.15 ≤ T ∧ T ≤ 323.15 ∧ T ≠ roundBits 53 273.15

/-- a humidity between 1 and 100 %, or missing -/
def HumDouble (c : XF ℝ) : Prop := c = .nan ∨ ∃ h, c = .fin h ∧ 1 ≤ h ∧ h ≤ 100

end Spec

noncomputable section

/-- **C152** (exact): without rounding the model is that of `calculate_dewpoint_regression` -/
theorem C152_exact (obs : Frame ℝ) (pts : List (ℝ × ℝ)) :
    linregressR (fun x => x) List.sum pts = linregress pts ∧ dewpointRegressionR .exact Real.log sumSkip List.sum obs = dewpointRegression obs := by
  have key : ∀ pts : List (ℝ × ℝ), linregressR (fun x => x) List.sum pts = linregress pts := by
    intro pts
    unfold linregressR linregress
    dsimp only
    by_cases h : pts = []
    · rw [if_pos h, if_pos h]
    · have hpos : (0 : ℝ) < pts.length := by exact_mod_cast List.length_pos_of_ne_nil h
      rw [if_neg h, if_neg h]
      congr 1
      have e : ∀ c : XF ℝ, c.rnd (fun x => x) = c := fun c => by cases c <;> rfl
      simp only [e]
      have q : ∀ a b : ℝ, XF.fin (a * (1 / (pts.length : ℝ))) / XF.fin (b * (1 / (pts.length : ℝ))) = XF.fin a / XF.fin b := by
        intro a b
        have hi : 0 < 1 / (pts.length : ℝ) := by positivity
        rcases eq_or_ne b 0 with rfl | hb
        · rw [zero_mul]
          show (if (0 : ℝ) = 0 then XF.infOfSign _ else _) = (if (0 : ℝ) = 0 then XF.infOfSign _ else _)
          rw [if_pos rfl, if_pos rfl]
          unfold XF.infOfSign
          simp only [mul_pos_iff_of_pos_right hi, mul_neg_iff, hi, hi.not_gt, and_true, and_false, or_false, false_or]
        · rw [XF.fin_div_fin_of_ne _ hb, XF.fin_div_fin_of_ne _ (mul_ne_zero hb hi.ne'), mul_div_mul_right _ _ hi.ne']
      rw [q]
  refine ⟨key pts, ?_⟩
  have e : meanR (fun x : ℝ => x) sumSkip = meanSkip := by
    funext l
    unfold meanR meanSkip
    split_ifs
    · rfl
    · generalize (sumSkip l / XF.fin (countValid l : ℝ)) = c
      cases c <;> rfl
  unfold dewpointRegressionR dewpointRegression
  have e2 : FloatHum.exact.fl = fun x => x := rfl
  simp only [C139_exact, e2, e, key]

theorem tempDouble_ok {c : XF ℝ} (h : TempDouble c) : TempOk c := by
  rcases h with h | ⟨T, e, -, h1, -⟩
  · exact .inl h
  · exact .inr ⟨T, e, by norm_num at h1 ⊢; linarith⟩

theorem humDouble_ok {c : XF ℝ} (h : HumDouble c) : HumOk c := by
  rcases h with h | ⟨T, e, h1, h2⟩
  · exact .inl h
  · exact .inr ⟨T, e, by linarith, h2⟩

theorem dewpointCellR_nan (F : FloatHum) (logF : ℝ → ℝ) {t q : XF ℝ} (h : t = .nan ∨ q = .nan) : dewpointCellR F logF t q = .nan := by
  have hv : vaporPressureCellR F t q = .nan := by
    unfold vaporPressureCellR magnusR
    rcases h with rfl | rfl
    · rw [if_neg (by simp)]
      simp [XF.rnd, FloatHum.expCell]
    · split <;> simp [XF.rnd]
  unfold dewpointCellR dewBranchR
  simp only [hv]
  split <;> simp [XF.rnd, logCell]

theorem dewPoint_range {T h : ℝ} (h1 : 233.15 ≤ T) (h2 : T ≤ 323.15) (k1 : 1 ≤ h) (k2 : h ≤ 100) : |dewPoint T h| ≤ 323.15 := by
  have hT : (0.53 : ℝ) < T := by norm_num at h1 ⊢; linarith
  have h0 : 0 < h := by linarith
  obtain ⟨D, e, hle⟩ := (C07_dewpoint_monotone T hT).1 h h0 k2
  rw [dewpointCell_dewPoint hT h0 k2] at e
  injection e with e
  rw [abs_le]
  refine ⟨?_, by rw [e]; exact hle.trans h2⟩
  rw [dewPoint_formula hT h0 k2]
  have hm := magnus_range h1 h2
  have hl : Real.log (h / 100) ≤ 0 := Real.log_nonpos (by positivity) (by linarith)
  have hb : 0 ≤ mgB T ∧ mgB T ≤ 273 ∧ 17 ≤ mgA T := by
    unfold mgA mgB
    split <;> norm_num
  have hp : 0 < mgA T - (magnus T + Real.log (h / 100)) := by linarith [hm.2, hb.2.2]
  have : -mgB T ≤ mgB T * (magnus T + Real.log (h / 100)) / (mgA T - (magnus T + Real.log (h / 100))) := by
    rw [le_div_iff₀ hp]
    nlinarith [mul_nonneg hb.1 (show (0 : ℝ) ≤ mgA T by linarith [hb.2.2])]
  norm_num
  linarith [hb.2.1]

/-- the computed dew points of a day are close to the exact ones, one by one -/
theorem numbers_dewR {expF logF : ℝ → ℝ} (he : ∀ x, |expF x - Real.exp x| ≤ 1e-15 * Real.exp x) (hlog : ∀ x, 0 < x → |logF x - Real.log x| ≤ 1e-15 * |Real.log x|) (sinF : ℝ → ℝ) (pi : ℝ)
    (temp hum : Series (XF ℝ)) (hi : temp.index = hum.index) (h1 : ∀ r ∈ temp, TempDouble r.2) (h2 : ∀ r ∈ hum, HumDouble r.2) (d : Int) :
    List.Forall₂ (fun a b => |a - b| ≤ 2e-12 ∧ |b| ≤ 323.15)
      (numbers (Series.onDay (temp.index.zip (List.zipWith (dewpointCellR ⟨roundBits 53, expF, sinF, pi⟩ logF) temp.values hum.values)) d)) (dewOn temp hum d) := by
  induction temp generalizing hum with
  | nil => simp [dewOn, Series.onDay, Series.index, Series.values]
  | cons r temp ih =>
    rcases hum with _ | ⟨q, hum⟩
    · simp [Series.index] at hi
    · have hi' : Series.index temp = Series.index hum := (List.cons.inj hi).2
      have ih' := ih hum hi' (fun r hr => h1 r (List.mem_cons_of_mem _ hr)) (fun r hr => h2 r (List.mem_cons_of_mem _ hr))
      have t1 := h1 r List.mem_cons_self
      have t2 := h2 q List.mem_cons_self
      obtain ⟨r1, r2⟩ := r
      obtain ⟨q1, q2⟩ := q
      simp only [Series.index, Series.values, List.map_cons, List.zipWith_cons_cons, List.zip_cons_cons, Series.onDay, dewOn, List.filterMap_cons,
        List.filter_cons, dayOf] at ih' ⊢
      by_cases hd : r1 / 86400000000 = d
      · simp only [hd, beq_self_eq_true, if_true, List.map_cons]
        rcases t1 with e1 | ⟨T, e1, hT, ha, hb, hc⟩
        · simp only at e1; subst e1
          rw [dewpointCellR_nan _ _ (.inl rfl), numbers_cons_nan]
          exact ih'
        · simp only at e1; subst e1
          rcases t2 with e2 | ⟨h, e2, k1, k2⟩
          · simp only at e2; subst e2
            rw [dewpointCellR_nan _ _ (.inr rfl), numbers_cons_nan]
            exact ih'
          · simp only at e2; subst e2
            obtain ⟨D, e, hE⟩ := C139_accuracy expF logF he hlog sinF pi T h hT ha hb k1 k2
            rw [if_neg hc] at hE
            rw [e, numbers_cons_fin]
            exact List.Forall₂.cons ⟨hE, dewPoint_range ha hb k1 k2⟩ ih'
      · simp only [hd, if_false, beq_iff_eq]
        exact ih'

theorem forall₂_sums {l l' : List ℝ} {e B : ℝ} (h : List.Forall₂ (fun a b => |a - b| ≤ e ∧ |b| ≤ B) l l') :
    l.length = l'.length ∧ |l.sum - l'.sum| ≤ e * l'.length ∧ absSum l ≤ (B + e) * l'.length ∧ |l'.sum| ≤ B * l'.length := by
  induction h with
  | nil => simp [absSum]
  | cons hab _ ih =>
    obtain ⟨i1, i2, i3, i4⟩ := ih
    rename_i a b l l' _
    have h1 := abs_add_le (a - b) (l.sum - l'.sum)
    have h2 := abs_add_le (a - b) b
    have h3 := abs_add_le b l'.sum
    have e1 : a - b + b = a := by ring
    have e2 : a + l.sum - (b + l'.sum) = a - b + (l.sum - l'.sum) := by ring
    rw [e1] at h2
    unfold absSum at i3 ⊢
    simp only [List.length_cons, List.sum_cons, List.map_cons, e2]
    push_cast
    refine ⟨by rw [i1], ?_, ?_, ?_⟩ <;> linarith [hab.1, hab.2]

/-- the mean dew point of a day: at most 288 rows -/
theorem dewMean_near {l l' : List ℝ} (h : List.Forall₂ (fun a b => |a - b| ≤ 2e-12 ∧ |b| ≤ 323.15) l l') (hne : l' ≠ []) (hN : l.length ≤ 288) {c : XF ℝ} (hc : MeanNear l c) :
    ∃ m, c = .fin m ∧ |m - l'.sum / l'.length| ≤ 1.4e-11 ∧ |l'.sum / l'.length| ≤ 323.15 := by
  obtain ⟨i1, i2, i3, i4⟩ := forall₂_sums h
  have hpos : (0 : ℝ) < l'.length := by exact_mod_cast List.length_pos_of_ne_nil hne
  have hN' : (l'.length : ℝ) ≤ 288 := by rw [i1] at hN; exact_mod_cast hN
  cases c with
  | nan =>
    have : l = [] := hc
    rw [this] at i1
    exact absurd (List.length_eq_zero_iff.1 i1.symm) hne
  | ninf => exact hc.elim
  | pinf => exact hc.elim
  | fin m =>
    refine ⟨m, rfl, ?_, ?_⟩
    · have h1 := hc.2
      rw [i1] at h1
      have h2 : absSum l / l'.length ≤ 323.15 + 2e-12 := by rw [div_le_iff₀ hpos]; exact i3
      have h3 : |l.sum / l'.length - l'.sum / l'.length| ≤ 2e-12 := by
        rw [← sub_div, abs_div, abs_of_pos hpos, div_le_iff₀ hpos]
        exact i2
      have h4 : (l'.length + 9) / 2 ^ 53 * (absSum l / l'.length) ≤ 297 / 2 ^ 53 * (323.15 + 2e-12) := by
        refine mul_le_mul ?_ h2 (div_nonneg (absSum_nonneg l) hpos.le) (by norm_num)
        rw [div_le_div_iff_of_pos_right (by positivity)]
        linarith
      have h5 := abs_add_le (m - l.sum / l'.length) (l.sum / l'.length - l'.sum / l'.length)
      rw [sub_add_sub_cancel] at h5
      norm_num at h1 h3 h4 h5 ⊢
      linarith
    · rw [abs_div, abs_of_pos hpos, div_le_iff₀ hpos]
      exact i4

theorem avg_le {B : ℝ} {l : List ℝ} (hl : l ≠ []) (h : ∀ x ∈ l, x ≤ B) : avg l ≤ B := by
  have hpos : (0 : ℝ) < l.length := by exact_mod_cast List.length_pos_of_ne_nil hl
  unfold avg
  rw [div_le_iff₀ hpos, mul_comm, ← nsmul_eq_mul]
  exact List.sum_le_card_nsmul l B h

theorem le_avg {B : ℝ} {l : List ℝ} (hl : l ≠ []) (h : ∀ x ∈ l, B ≤ x) : B ≤ avg l := by
  have hpos : (0 : ℝ) < l.length := by exact_mod_cast List.length_pos_of_ne_nil hl
  unfold avg
  rw [le_div_iff₀ hpos, mul_comm, ← nsmul_eq_mul]
  exact List.card_nsmul_le_sum l B h

theorem varX_perm {α : Type} {l l' : List α} (h : l.Perm l') (f : α → ℝ × ℝ) : varX (l.map f) = varX (l'.map f) := by
  have key : ∀ g : α → ℝ, avg (l.map g) = avg (l'.map g) := by
    intro g
    unfold avg
    rw [(h.map g).sum_eq, List.length_map, List.length_map, h.length_eq]
  unfold varX
  rw [List.map_map, List.map_map, List.map_map, List.map_map, key (Prod.fst ∘ f)]
  exact key _

/-- the points of the computed regression: the days of `dewpointRegression_eq`, each with its computed mean dew point -/
theorem dewpointRegressionR_eq {expF logF : ℝ → ℝ} (he : ∀ x, |expF x - Real.exp x| ≤ 1e-15 * Real.exp x) (hlog : ∀ x, 0 < x → |logF x - Real.log x| ≤ 1e-15 * |Real.log x|) (sinF : ℝ → ℝ) (pi : ℝ)
    {groupSum : List (XF ℝ) → XF ℝ} (hg : SumsDay groupSum) (sum : List ℝ → ℝ) {obs : Frame ℝ} (hwf : obs.WF) {temp hum : Series (XF ℝ)} (h1 : obs.col? "temp" = some temp)
    (h2 : obs.col? "hum" = some hum) (hf1 : ∀ r ∈ temp, TempDouble r.2) (hf2 : ∀ r ∈ hum, HumDouble r.2) (hrows : ∀ d, (dayCells temp d).length ≤ 288) (tmin : Int → ℝ)
    (hmin : ∀ d, dewOn temp hum d ≠ [] → tmin d ∈ numbers (dayCells temp d) ∧ ∀ y ∈ numbers (dayCells temp d), tmin d ≤ y) :
    ∃ tdewR : Int → ℝ, (∀ d, dewOn temp hum d ≠ [] → |tdewR d - avg (dewOn temp hum d)| ≤ 1.4e-11 ∧ |avg (dewOn temp hum d)| ≤ 323.15) ∧
    dewpointRegressionR ⟨roundBits 53, expF, sinF, pi⟩ logF groupSum sum obs =
      linregressR (roundBits 53) sum (((Series.daySpan temp.index).filter fun d => dewOn temp hum d ≠ []).map fun d => (tmin d, tdewR d)) := by
  have hidx : temp.index = hum.index := by rw [col?_index hwf h1, col?_index hwf h2]
  have hlen : temp.values.length = hum.values.length := by
    have := congrArg List.length hidx
    simpa [Series.index, Series.values] using this
  set F : FloatHum := ⟨roundBits 53, expF, sinF, pi⟩ with hF
  set S : Series (XF ℝ) := temp.index.zip (List.zipWith (dewpointCellR F logF) temp.values hum.values) with hS
  have hSi : S.index = temp.index := by
    rw [hS]
    apply index_zip
    simp [Series.index, Series.values] at hlen ⊢
    omega
  have hnum : ∀ d, List.Forall₂ (fun a b => |a - b| ≤ 2e-12 ∧ |b| ≤ 323.15) (numbers (S.onDay d)) (dewOn temp hum d) := fun d => numbers_dewR he hlog sinF pi temp hum hidx hf1 hf2 d
  have hok : ∀ d, ∀ c ∈ S.onDay d, NumberOrMissing c := by
    intro d c hc
    obtain ⟨r, hr, rfl⟩ := List.mem_map.1 hc
    have hr' := (List.mem_filter.1 hr).1
    have := (List.of_mem_zip hr').2
    obtain ⟨i, hi, he'⟩ := List.mem_iff_getElem.1 this
    rw [List.getElem_zipWith] at he'
    rw [← he']
    have t1 : TempDouble (temp.values[i]'(by simp at hi; omega)) := by
      have : temp.values[i]'(by simp at hi; omega) ∈ temp.values := List.getElem_mem _
      obtain ⟨q, hq, e⟩ := List.mem_map.1 this
      rw [← e]; exact hf1 q hq
    have t2 : HumDouble (hum.values[i]'(by simp at hi; omega)) := by
      have : hum.values[i]'(by simp at hi; omega) ∈ hum.values := List.getElem_mem _
      obtain ⟨q, hq, e⟩ := List.mem_map.1 this
      rw [← e]; exact hf2 q hq
    rcases t1 with e1 | ⟨T, e1, hT, ha, hb, -⟩
    · exact .inl (dewpointCellR_nan _ _ (.inl e1))
    · rcases t2 with e2 | ⟨h, e2, k1, k2⟩
      · exact .inl (dewpointCellR_nan _ _ (.inr e2))
      · obtain ⟨D, e, -⟩ := C139_accuracy expF logF he hlog sinF pi T h hT ha hb k1 k2
        rw [e1, e2]
        exact .inr ⟨D, e⟩
  have hday : ∀ d, (S.onDay d).length = (dayCells temp d).length := by
    intro d
    have key : ∀ (s : Series (XF ℝ)), (s.onDay d).length = (s.index.filter fun t => dayOf t == d).length := by
      intro s
      unfold Series.onDay Series.index
      rw [List.length_map, List.filter_map, List.length_map]
      rfl
    rw [key, hSi, ← key, onDay_eq_dayCells]
  have hnl : ∀ d, (numbers (S.onDay d)).length ≤ 288 := fun d =>
    ((List.length_filterMap_le _ _).trans (hday d).le).trans (hrows d)
  have hmn : ∀ d, MeanNear (numbers (S.onDay d)) (meanR (roundBits 53) groupSum (S.onDay d)) := fun d =>
    meanR_near hg (by rw [hday]; exact (hrows d).trans (by norm_num)) (hok d)
  refine ⟨fun d => match meanR (roundBits 53) groupSum (S.onDay d) with | .fin m => m | _ => 0, ?_, ?_⟩
  · intro d hd
    obtain ⟨m, e, hm⟩ := dewMean_near (hnum d) hd (hnl d) (hmn d)
    simp only [e]
    exact hm
  unfold dewpointRegressionR
  rw [item_ok h1, py_ok_bind, item_ok h2, py_ok_bind]
  unfold dewpointTemperatureR
  rw [if_pos hlen, py_ok_bind]
  dsimp only
  rw [← hS]
  have hrows' : (S.resampleD (meanR (roundBits 53) groupSum)).map (fun r => (((temp.groupbyDate minSkip).at? r.1).getD .nan, r.2)) =
      (Series.daySpan temp.index).map fun d => (((temp.groupbyDate minSkip).at? (midnight d)).getD .nan, meanR (roundBits 53) groupSum (S.onDay d)) := by
    unfold Series.resampleD
    rw [List.map_map, hSi]
    rfl
  rw [hrows', points_ok _ (fun d => dewOn temp hum d ≠ []) tmin (fun d => match meanR (roundBits 53) groupSum (S.onDay d) with | .fin m => m | _ => 0), py_ok_bind]
  · intro d _ hd
    obtain ⟨m, e', -⟩ := dewMean_near (hnum d) hd (hnl d) (hmn d)
    simp only [e']
    congr 1
    obtain ⟨x, hx⟩ := List.exists_mem_of_ne_nil _ hd
    obtain ⟨rq, hrq, he⟩ := List.mem_filterMap.1 hx
    have hr : rq.1 ∈ temp := (List.of_mem_zip hrq).1
    have hday : dayOf rq.1.1 = d := by
      by_contra hne
      unfold dayOf at hne; rw [if_neg hne] at he; cases he
    rw [groupbyDate_at? _ _ hr hday, Option.getD_some, onDay_eq_dayCells]
    have hno : ∀ c ∈ dayCells temp d, c.NanOrFin := by
      intro c hc
      obtain ⟨q, hq, rfl⟩ := List.mem_map.1 hc
      rcases tempDouble_ok (hf1 q (List.mem_filter.1 hq).1) with e | ⟨T, e, _⟩ <;> rw [e] <;> exact trivial
    obtain ⟨hm1, hm2⟩ := hmin d hd
    obtain ⟨m, e, hm3, hm4⟩ := minSkip_eq hno (List.ne_nil_of_mem hm1)
    rw [e, le_antisymm (hm4 _ hm1) (hm2 _ hm3)]
  · intro d _ hd
    have : numbers (S.onDay d) = [] := by
      have := (forall₂_sums (hnum d)).1
      rw [not_not.1 hd] at this
      exact List.length_eq_zero_iff.1 this
    show meanR _ _ _ = _
    unfold meanR
    rw [countValid_eq fun c h => numberOrMissing_nanOrFin (hok d c h), this]
    rfl

/-- **C152** (from observations to the line).  `calculate_dewpoint_regression` in double precision, for temperatures between -40 and 50 °C and humidities between 1 and 100 % (any of them missing), at most
288 rows a day and at most 300000 days with both; `np.exp` and `np.log` accurate to 10⁻¹⁵.  `days` are the days with a row with both, `tmin d` is the lowest temperature of day `d`.  If the
variance `v` of `tmin` over these days is at least 1 K², then slope and intercept are numbers, and differ from those computed exactly by at most 10⁶ E (2 + |a1|) / v + 1.4·10⁻¹¹ and
1.2·10⁹ E (2 + |a1|) / v + 5·10⁻⁹, where E = (3 n + 16) 2⁻⁵³ for n days. -/
theorem C152_dewpoint {expF logF : ℝ → ℝ} (he : ∀ x, |expF x - Real.exp x| ≤ 1e-15 * Real.exp x) (hlog : ∀ x, 0 < x → |logF x - Real.log x| ≤ 1e-15 * |Real.log x|) (sinF : ℝ → ℝ) (pi : ℝ)
    {groupSum : List (XF ℝ) → XF ℝ} (hg : SumsDay groupSum) {sum : List ℝ → ℝ} (hsum : AddsAll (roundBits 53) sum) (obs : Frame ℝ) (hwf : obs.WF) (temp hum : Series (XF ℝ))
    (h1 : obs.col? "temp" = some temp) (h2 : obs.col? "hum" = some hum) (hf1 : ∀ r ∈ temp, TempDouble r.2) (hf2 : ∀ r ∈ hum, HumDouble r.2) (hrows : ∀ d, (dayCells temp d).length ≤ 288)
    (days : List Int) (hnd : days.Nodup) (hn : days.length ≤ 300000) (hdays : ∀ d, d ∈ days ↔ dewOn temp hum d ≠ []) (tmin : Int → ℝ)
    (hmin : ∀ d ∈ days, tmin d ∈ numbers (dayCells temp d) ∧ ∀ y ∈ numbers (dayCells temp d), tmin d ≤ y) {v E : ℝ} (hv : v = avg (days.map fun d => (tmin d - avg (days.map tmin)) ^ 2)) (hv1 : 1 ≤ v)
    (hE : E = (3 * days.length + 16) / 2 ^ 53) :
    ∃ a1 a0 a1' a0', dewpointRegression obs = .ok (.fin a1, .fin a0) ∧ dewpointRegressionR ⟨roundBits 53, expF, sinF, pi⟩ logF groupSum sum obs = .ok (.fin a1', .fin a0') ∧
      |a1' - a1| ≤ 1000000 * E * (2 + |a1|) / v + 1.4e-11 ∧ |a0' - a0| ≤ 1200000000 * E * (2 + |a1|) / v + 5e-9 := by
  have hmin' : ∀ d, dewOn temp hum d ≠ [] → tmin d ∈ numbers (dayCells temp d) ∧ ∀ y ∈ numbers (dayCells temp d), tmin d ≤ y := fun d hd => hmin d ((hdays d).2 hd)
  obtain ⟨tdewR, hR, eR⟩ := dewpointRegressionR_eq he hlog sinF pi hg sum hwf h1 h2 hf1 hf2 hrows tmin hmin'
  have eX := dewpointRegression_eq hwf h1 h2 (fun r hr => tempDouble_ok (hf1 r hr)) (fun r hr => humDouble_ok (hf2 r hr)) tmin (fun d => avg (dewOn temp hum d)) hmin' (fun d _ => rfl)
  have hperm : ((Series.daySpan temp.index).filter fun d => dewOn temp hum d ≠ []).Perm days := by
    rw [List.perm_ext_iff_of_nodup ((daySpan_nodup _).filter _) hnd]
    intro d
    rw [List.mem_filter, hdays]
    simp only [decide_eq_true_iff]
    refine ⟨fun h => h.2, fun h => ⟨?_, h⟩⟩
    obtain ⟨x, hx⟩ := List.exists_mem_of_ne_nil _ h
    obtain ⟨rq, hrq, he⟩ := List.mem_filterMap.1 hx
    have hr : rq.1 ∈ temp := (List.of_mem_zip hrq).1
    have hday : dayOf rq.1.1 = d := by
      by_contra hne
      unfold dayOf at hne; rw [if_neg hne] at he; cases he
    rw [← hday]
    exact mem_daySpan (List.mem_map_of_mem hr)
  rw [eR, eX]
  have hmem : ∀ d ∈ (Series.daySpan temp.index).filter fun d => dewOn temp hum d ≠ [], dewOn temp hum d ≠ [] := fun d hd => by simpa using (List.mem_filter.1 hd).2
  generalize (Series.daySpan temp.index).filter (fun d => dewOn temp hum d ≠ []) = L at *
  have hlenL : L.length = days.length := hperm.length_eq
  have vX : ∀ z : Int → ℝ, varX (L.map fun d => (tmin d, z d)) = v := by
    intro z
    rw [varX_perm hperm, hv]
    unfold varX
    rw [List.map_map, List.map_map]
    rfl
  have tb : ∀ d ∈ L, |tmin d| ≤ 323.15 := by
    intro d hd
    have := (hmin' d (hmem d hd)).1
    obtain ⟨c, hc, e⟩ := List.mem_filterMap.1 this
    obtain ⟨r, hr, e'⟩ := List.mem_map.1 hc
    have hr' := (List.mem_filter.1 hr).1
    rcases hf1 r hr' with e1 | ⟨T, e1, -, ha, hb, -⟩
    · rw [← e', e1] at e; cases e
    · rw [← e', e1] at e
      have : T = tmin d := by simpa using e
      rw [← this, abs_of_nonneg (by norm_num at ha ⊢; linarith)]
      exact hb
  have hv0 : 0 < v := by linarith
  obtain ⟨a1, a0, b1, b0, ea, eb, p1, p0⟩ := C152_perturbed L tmin (fun d => avg (dewOn temp hum d)) tdewR (η := 1.4e-11) (X := 323.15) (fun d hd => (hR d (hmem d hd)).1) tb (by rw [vX]; exact hv0)
  have hn' : (days.length : ℝ) ≤ 300000 := by exact_mod_cast hn
  have hE0 : 0 ≤ E := by rw [hE]; positivity
  have hE1 : E ≤ 1.1e-10 := by
    rw [hE, div_le_iff₀ (by positivity)]
    norm_num
    linarith
  have hElen : (3 * ((L.map fun d => (tmin d, tdewR d)).length : ℝ) + 16) / 2 ^ 53 = E := by rw [List.length_map, hlenL, hE]
  obtain ⟨b1', b0', c1, c0, eb', ec, q1, q0⟩ := C152_regression hsum (L.map fun d => (tmin d, tdewR d)) (by rw [List.length_map, hlenL]; exact hn) (X := 323.15) (Y := 323.16)
    (fun p hp => by
      obtain ⟨d, hd, rfl⟩ := List.mem_map.1 hp
      exact tb d hd)
    (fun p hp => by
      obtain ⟨d, hd, rfl⟩ := List.mem_map.1 hp
      obtain ⟨r1, r2⟩ := hR d (hmem d hd)
      have := abs_add_le (tdewR d - avg (dewOn temp hum d)) (avg (dewOn temp hum d))
      rw [sub_add_cancel] at this
      norm_num at r1 r2 this ⊢
      linarith)
    (by rw [vX]; exact hv0) (by rw [hElen, vX]; norm_num at hE1 ⊢; linarith)
  rw [eb] at eb'
  injection eb' with eb'
  injection eb' with x1 x0
  injection x1 with x1
  injection x0 with x0
  subst x1 x0
  rw [hElen, vX] at q1 q0
  rw [vX] at p1 p0
  refine ⟨a1, a0, c1, c0, ea, ec, ?_⟩
  have hs1 : 1 ≤ √v := Real.one_le_sqrt.2 hv1
  have p1' : |b1 - a1| ≤ 1.4e-11 := p1.trans (div_le_self (by norm_num) hs1)
  have p0' : |b0 - a0| ≤ 5e-9 := by
    refine p0.trans ?_
    have : 323.15 / √v ≤ 323.15 := div_le_self (by norm_num) hs1
    norm_num at this ⊢
    linarith
  have hb1 : |b1| ≤ |a1| + 1 := by
    have := abs_add_le (b1 - a1) a1
    rw [sub_add_cancel] at this
    norm_num at p1' this ⊢
    linarith
  have hv4 : v ≤ 420000 := by
    have hd0 : days ≠ [] := by
      rintro rfl
      rw [hv] at hv1
      simp [avg] at hv1
      linarith
    have tb' : ∀ x ∈ days.map tmin, |x| ≤ 323.15 := by
      intro x hx
      obtain ⟨d, hd, rfl⟩ := List.mem_map.1 hx
      exact tb d (hperm.mem_iff.2 hd)
    have m1 := avg_le (by simpa using hd0) fun x hx => (abs_le.1 (tb' x hx)).2
    have m2 := le_avg (by simpa using hd0) fun x hx => (abs_le.1 (tb' x hx)).1
    rw [hv]
    refine avg_le (by simpa using hd0) fun x hx => ?_
    obtain ⟨d, hd, rfl⟩ := List.mem_map.1 hx
    have m3 := abs_le.1 (tb' _ (List.mem_map_of_mem hd))
    have : (tmin d - avg (days.map tmin)) ^ 2 ≤ 646.3 ^ 2 := by
      rw [sq_le_sq, abs_of_pos (show (0 : ℝ) < 646.3 by norm_num), abs_le]
      norm_num at m1 m2 m3 ⊢
      constructor <;> linarith [m3.1, m3.2]
    norm_num at this ⊢
    linarith
  have hD : 9 * E * (323.15 * 323.16 + |b1| * 323.15 ^ 2) / v ≤ 940000 * E * (2 + |a1|) / v := by
    apply div_le_div_of_nonneg_right _ hv0.le
    have : 9 * (323.15 * 323.16 + |b1| * 323.15 ^ 2) ≤ 940000 * (2 + |a1|) := by
      norm_num
      linarith [abs_nonneg a1]
    have := mul_le_mul_of_nonneg_left this hE0
    linarith
  have hQ : 0 ≤ E * (2 + |a1|) := mul_nonneg hE0 (by positivity)
  have hQv : 0 ≤ E * (2 + |a1|) / v := div_nonneg hQ hv0.le
  have hQ4 : E * (2 + |a1|) ≤ 420000 * (E * (2 + |a1|) / v) := by
    rw [← mul_div_assoc, le_div_iff₀ hv0, mul_comm]
    exact mul_le_mul_of_nonneg_right hv4 hQ
  have r1 : 940000 * E * (2 + |a1|) / v = 940000 * (E * (2 + |a1|) / v) := by ring
  have r2 : 1000000 * E * (2 + |a1|) / v = 1000000 * (E * (2 + |a1|) / v) := by ring
  have r3 : 1200000000 * E * (2 + |a1|) / v = 1200000000 * (E * (2 + |a1|) / v) := by ring
  rw [r1] at hD
  rw [r2, r3]
  have hI : 2 * E * (323.16 + |b1| * 323.15) ≤ 648 * (E * (2 + |a1|)) := by
    have : 2 * (323.16 + |b1| * 323.15) ≤ 648 * (2 + |a1|) := by
      norm_num
      linarith [abs_nonneg a1]
    have := mul_le_mul_of_nonneg_left this hE0
    linarith
  have t1 := abs_add_le (c1 - b1) (b1 - a1)
  have t0 := abs_add_le (c0 - b0) (b0 - a0)
  rw [sub_add_sub_cancel] at t1 t0
  have q1' := q1.trans hD
  have q0' : |c0 - b0| ≤ 648 * (420000 * (E * (2 + |a1|) / v)) + 3 * 323.15 * (940000 * (E * (2 + |a1|) / v)) :=
    q0.trans (add_le_add (hI.trans (by linarith)) (mul_le_mul_of_nonneg_left hD (by norm_num)))
  generalize E * (2 + |a1|) / v = Q at *
  constructor
  · norm_num at q1' p1' t1 ⊢
    linarith
  · norm_num at q0' p0' t0 ⊢
    linarith

/-- numbers added from left to right -/
def addsLeft (fl : ℝ → ℝ) : List ℝ → ℝ
  | [] => 0
  | x :: l => l.foldl (fun a b => fl (a + b)) x

theorem addsLeft_addsAll (fl : ℝ → ℝ) : AddsAll fl (addsLeft fl) := by
  intro l hl
  rcases l with _ | ⟨x, l⟩
  · exact absurd rfl hl
  · exact addsTo_left fl l [x] x (AddsTo.one x)

/-- C152 at work: two saturated days at 290 and 280 K; the exact line is tdew = tmin -/
example : ∃ a1 a0, dewpointRegressionR ⟨roundBits 53, Real.exp, Real.sin, Real.pi⟩ Real.log (groupSumC (roundBits 53)) (addsLeft (roundBits 53)) saturated = .ok (.fin a1, .fin a0) ∧
    |a1 - 1| ≤ 1e-9 ∧ |a0| ≤ 1e-6 := by
  have hd := saturated_dewOn
  have w : ∀ n : Int, |(n : ℝ)| ≤ 10 ^ 15 → roundBits 53 (n : ℝ) = n := fun n hn => fl_whole hn
  have r273 : |roundBits 53 (273.15 : ℝ) - 273.15| ≤ 1e-10 := by
    refine (rb_err 273.15).trans ?_
    rw [abs_of_pos] <;> norm_num
  have r273' := abs_le.1 r273
  obtain ⟨b1, b0, a1, a0, e, e', k1, k0⟩ := C152_dewpoint (expF := Real.exp) (logF := Real.log) (fun x => by rw [sub_self, abs_zero]; positivity) (fun x _ => by rw [sub_self, abs_zero]; positivity)
    Real.sin Real.pi C149_compensated.1 (addsLeft_addsAll _) saturated
    (by intro c hc; simp [saturated] at hc; rcases hc with rfl | rfl | rfl <;> rfl) [(at00 0, .fin 290), (at00 1, .fin 280)] [(at00 0, .fin 100), (at00 1, .fin 100)]
    rfl rfl
    (by
      intro r hr
      simp at hr
      rcases hr with rfl | rfl
      · refine .inr ⟨_, rfl, by exact_mod_cast w 290 (by norm_num), by norm_num, by norm_num, fun h => ?_⟩
        rw [← h] at r273'
        norm_num at r273'
      · refine .inr ⟨_, rfl, by exact_mod_cast w 280 (by norm_num), by norm_num, by norm_num, fun h => ?_⟩
        rw [← h] at r273'
        norm_num at r273')
    (by intro r hr; simp at hr; rcases hr with rfl | rfl <;> exact .inr ⟨_, rfl, by norm_num⟩)
    (by
      intro d
      unfold dayCells
      rw [List.length_map]
      exact (List.length_filter_le _ _).trans (by simp))
    [0, 1] (by decide) (by simp) (by intro d; rw [hd]; split <;> [simp_all; (split <;> simp_all)])
    (fun d => if d = 0 then 290 else 280)
    (by intro d hd; simp at hd; rcases hd with rfl | rfl <;> simp [dayCells, at00, numbers])
    (v := 25) (by norm_num [avg]) (by norm_num) rfl
  rw [saturated_regression] at e
  injection e with e
  injection e with x1 x0
  injection x1 with x1
  injection x0 with x0
  subst x1 x0
  refine ⟨a1, a0, e', k1.trans (by norm_num), ?_⟩
  rw [sub_zero] at k0
  exact k0.trans (by norm_num)

end

end Melodist
