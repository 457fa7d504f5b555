import Verif.Lemmas.RadiationFit

/-!
# C93, C94: the fits of the radiation models
-/

set_option linter.unusedSectionVars false

namespace Melodist
open Spec StatsObj

noncomputable section

/-- the Angstroem estimate (a + b·s/l)·q on day `d` -/
def Spec.angEst (s l q : Int → ℝ) (a b : ℝ) (d : Int) : ℝ := (a + b * s d / l d) * q d

variable {curveFit : (ℝ → ℝ → List (XF ℝ)) → List (XF ℝ) → ℝ × ℝ → Py (XF ℝ × XF ℝ)}
  {minimize : (ℝ → ℝ → Py (XF ℝ)) → ℝ × ℝ → Py (XF ℝ × XF ℝ)}
  {ssd dl pot obs tmin tmax : Series (XF ℝ)} {ds : List Int} {s l q o tn tx : Int → ℝ} {p : XF ℝ × XF ℝ}

theorem angstroemOpt_eq (hl : ∀ d ∈ ds, l d ≠ 0) (a b : ℝ) :
    angstroemOpt (ds.map fun e => (at00 e, .fin (s e), .fin (l e), .fin (q e), .fin (o e))) a b = (ds.map (angEst s l q a b)).map .fin := by
  unfold angstroemOpt
  rw [List.map_map, List.map_map]
  apply List.map_congr_left
  intro d hd
  simp only [Function.comp_def]
  rw [XF.fin_mul_fin, XF.fin_div_fin_of_ne _ (hl d hd), XF.fin_add_fin, XF.fin_mul_fin]
  rfl

/-- C93 (least squares).  The fitted Angstroem parameters have the smallest sum of squared errors over the days with all four values, and the errors are
uncorrelated with the potential radiation and with potential radiation times relative sunshine duration. -/
theorem C93_least_squares (hfit : LeastSquares curveFit) (S : Sample ssd dl pot obs ds s l q o) (hl : ∀ d ∈ ds, l d ≠ 0)
    (h : fitAngstroem curveFit ssd dl pot obs = .ok p) :
    ∃ a b, p = (.fin a, .fin b) ∧
      (∀ a' b', (ds.map fun d => (angEst s l q a b d - o d) ^ 2).sum ≤ (ds.map fun d => (angEst s l q a' b' d - o d) ^ 2).sum) ∧
      (ds.map fun d => q d * (angEst s l q a b d - o d)).sum = 0 ∧
      (ds.map fun d => s d / l d * q d * (angEst s l q a b d - o d)).sum = 0 := by
  unfold fitAngstroem at h
  rw [sample_rows S] at h
  dsimp only at h
  have ho : (fitCol4 (ds.map fun e => (at00 e, XF.fin (s e), XF.fin (l e), XF.fin (q e), XF.fin (o e)))).values = (ds.map o).map .fin := by
    unfold fitCol4 Series.values
    rw [List.map_map, List.map_map, List.map_map]
    rfl
  rw [ho] at h
  obtain ⟨a, b, rfl, hmin⟩ := hfit _ (fun a b => ds.map (angEst s l q a b)) _ _ _ (fun a b => angstroemOpt_eq hl a b) h
  have hm : ∀ a' b', (ds.map fun d => (angEst s l q a b d - o d) ^ 2).sum ≤ (ds.map fun d => (angEst s l q a' b' d - o d) ^ 2).sum := by
    intro a' b'
    have := hmin a' b'
    rw [sqErr_map, sqErr_map] at this
    exact this
  refine ⟨a, b, rfl, hm, ?_, ?_⟩
  · apply normal_eq
    intro t
    convert hm (a + t) b using 4
    unfold angEst
    ring
  · apply normal_eq
    intro t
    convert hm a (b + t) using 4
    unfold angEst
    ring

/-- C93 (unique).  Two days with potential radiation and different relative sunshine duration determine the parameters: any parameters with the same
smallest sum of squared errors are the fitted ones. -/
theorem C93_unique (hfit : LeastSquares curveFit) (S : Sample ssd dl pot obs ds s l q o) (hl : ∀ d ∈ ds, l d ≠ 0)
    (h : fitAngstroem curveFit ssd dl pot obs = .ok p) {d d' : Int} (hd : d ∈ ds) (hd' : d' ∈ ds) (hq : q d ≠ 0) (hq' : q d' ≠ 0)
    (hne : s d / l d ≠ s d' / l d') {a b : ℝ}
    (hab : ∀ a' b', (ds.map fun d => (angEst s l q a b d - o d) ^ 2).sum ≤ (ds.map fun d => (angEst s l q a' b' d - o d) ^ 2).sum) :
    p = (.fin a, .fin b) := by
  obtain ⟨a1, b1, rfl, _, n1, n2⟩ := C93_least_squares hfit S hl h
  have m1 : (ds.map fun d => q d * (angEst s l q a b d - o d)).sum = 0 := by
    apply normal_eq
    intro t
    convert hab (a + t) b using 4
    unfold angEst
    ring
  have m2 : (ds.map fun d => s d / l d * q d * (angEst s l q a b d - o d)).sum = 0 := by
    apply normal_eq
    intro t
    convert hab a (b + t) using 4
    unfold angEst
    ring
  -- the squares of the differences of the two estimates
  have hz : ∀ D : List Int, (D.map fun d => (angEst s l q a b d - angEst s l q a1 b1 d) ^ 2).sum =
      (a - a1) * ((D.map fun d => q d * (angEst s l q a b d - o d)).sum - (D.map fun d => q d * (angEst s l q a1 b1 d - o d)).sum) +
      (b - b1) * ((D.map fun d => s d / l d * q d * (angEst s l q a b d - o d)).sum -
        (D.map fun d => s d / l d * q d * (angEst s l q a1 b1 d - o d)).sum) := by
    intro D
    induction D with
    | nil => simp
    | cons e D ih =>
      simp only [List.map_cons, List.sum_cons, ih]
      unfold angEst
      ring
  have h0 : (ds.map fun d => (angEst s l q a b d - angEst s l q a1 b1 d) ^ 2).sum ≤ 0 := by
    rw [hz, m1, m2, n1, n2]
    simp
  have e1 := sumSq_zero h0 d hd
  have e2 := sumSq_zero h0 d' hd'
  have f1 : (a - a1) + (b - b1) * (s d / l d) = 0 := by
    have : ((a - a1) + (b - b1) * (s d / l d)) * q d = 0 := by
      rw [← e1]; unfold angEst; ring
    exact (mul_eq_zero.1 this).resolve_right hq
  have f2 : (a - a1) + (b - b1) * (s d' / l d') = 0 := by
    have : ((a - a1) + (b - b1) * (s d' / l d')) * q d' = 0 := by
      rw [← e2]; unfold angEst; ring
    exact (mul_eq_zero.1 this).resolve_right hq'
  have hb : b - b1 = 0 := by
    have : (b - b1) * (s d / l d - s d' / l d') = 0 := by linarith
    exact (mul_eq_zero.1 this).resolve_right (sub_ne_zero.2 hne)
  have ha : a - a1 = 0 := by rw [hb] at f1; linarith
  rw [sub_eq_zero.1 ha, sub_eq_zero.1 hb]

/-- C93 (recovers).  Observations that follow the Angstroem model give back its parameters. -/
theorem C93_recovers (hfit : LeastSquares curveFit) (S : Sample ssd dl pot obs ds s l q o) (hl : ∀ d ∈ ds, l d ≠ 0)
    (h : fitAngstroem curveFit ssd dl pot obs = .ok p) {d d' : Int} (hd : d ∈ ds) (hd' : d' ∈ ds) (hq : q d ≠ 0) (hq' : q d' ≠ 0)
    (hne : s d / l d ≠ s d' / l d') {a b : ℝ} (ho : ∀ d ∈ ds, o d = (a + b * s d / l d) * q d) : p = (.fin a, .fin b) := by
  apply C93_unique hfit S hl h hd hd' hq hq' hne
  intro a' b'
  have e : (ds.map fun d => (angEst s l q a b d - o d) ^ 2) = ds.map fun _ => (0 : ℝ) := by
    apply List.map_congr_left
    intro d hd
    rw [ho d hd]
    unfold angEst
    ring
  rw [e]
  have : (ds.map fun _ => (0 : ℝ)).sum = 0 := by simp
  rw [this]
  apply List.sum_nonneg
  intro x hx
  obtain ⟨e, _, rfl⟩ := List.mem_map.1 hx
  positivity

/-- C93 (polar night).  Days without daylight stay in the sample; the model's value there is NaN for all parameters, hence there is no sum of squared
errors to minimise. -/
theorem C93_polar_night (S : Sample ssd dl pot obs ds s l q o) {d : Int} (hd : d ∈ ds) (hl : l d = 0) (hq : q d = 0) (a b : ℝ) :
    XF.nan ∈ angstroemOpt (fitFrame ssd dl pot obs) a b := by
  rw [sample_rows S]
  unfold angstroemOpt
  rw [List.map_map]
  refine List.mem_map.2 ⟨d, hd, ?_⟩
  simp only [Function.comp_def]
  rw [hl, hq, XF.fin_mul_fin]
  have h1 : XF.fin (b * s d) / XF.fin (0 : ℝ) = XF.infOfSign (b * s d) := by
    show (if (0 : ℝ) = 0 then XF.infOfSign (b * s d) else _) = _
    rw [if_pos rfl]
  rw [h1]
  unfold XF.infOfSign
  split
  · show XF.infOfSign (0 : ℝ) = _
    unfold XF.infOfSign; simp
  · split
    · show XF.infOfSign (-(0 : ℝ)) = _
      unfold XF.infOfSign; simp
    · rfl

/-- C93 (station statistics).  `calc_radiation_stats` on observations that follow the Angstroem model with parameters `A m`, `B m` for each month stores
these parameters, if they are the same in all months of a group, and each group has two days with potential radiation and different relative sunshine
duration. -/
theorem C93_statistics {api : PandasApi} {st st' : StatsObj} {data f : Frame ℝ} {glob : Series (XF ℝ)} {hours : List Time} {lon lat tz : ℝ}
    {bcFit : List FitRow → Py (XF ℝ × XF ℝ)} {how : String} (hfit : LeastSquares curveFit) (C : CanFit api st data f glob hours lon lat tz)
    (hssd : f.col? "ssd" = some ssd)
    (h : calcRadiation api (angFitOf curveFit) bcFit st (some f) (some dl) how = (st', none))
    (S : Sample ssd dl (potentialMeans hours lon lat tz) (glob.resampleD meanSkip) ds s l q o) (hl : ∀ d ∈ ds, l d ≠ 0) {A B : Int → ℝ}
    (ho : ∀ d ∈ ds, o d = (A (monthOf (at00 d)) + B (monthOf (at00 d)) * s d / l d) * q d) {m : Int} (h1 : 1 ≤ m) (h12 : m ≤ 12)
    (hAB : ∀ m' ∈ monthGroup how m, A m' = A m ∧ B m' = B m)
    (hdays : ∃ d ∈ ds, ∃ d' ∈ ds, monthOf (at00 d) ∈ monthGroup how m ∧ monthOf (at00 d') ∈ monthGroup how m ∧ q d ≠ 0 ∧ q d' ≠ 0 ∧
      s d / l d ≠ s d' / l d') :
    atMonth st'.obj.glob.angA m = some (.fin (A m)) ∧ atMonth st'.obj.glob.angB m = some (.fin (B m)) := by
  obtain ⟨p, hp, e1, e2⟩ := (C68_returns C h).2.2.1 ssd dl hssd rfl m h1 h12
  rw [sample_rows S, groupDays_map] at hp
  obtain ⟨d, hd, d', hd', hm, hm', hq, hq', hne⟩ := hdays
  have hmem : ∀ {e}, e ∈ ds → monthOf (at00 e) ∈ monthGroup how m → e ∈ ds.filter fun e => decide (monthOf (at00 e) ∈ monthGroup how m) :=
    fun he hem => List.mem_filter.2 ⟨he, decide_eq_true hem⟩
  have : p = (.fin (A m), .fin (B m)) := by
    refine C93_recovers hfit (sample_cols (S.sorted.sublist List.filter_sublist) s l q o rfl) (fun e he => hl e (List.mem_filter.1 he).1) hp
      (hmem hd hm) (hmem hd' hm') hq hq' hne ?_
    intro e he
    obtain ⟨he1, he2⟩ := List.mem_filter.1 he
    obtain ⟨ea, eb⟩ := hAB _ (of_decide_eq_true he2)
    rw [ho e he1, ea, eb]
  rw [e1, e2, this]
  exact ⟨rfl, rfl⟩

/-- C94 (no bias).  With non-negative potential radiation, and some day with potential radiation and a temperature range, the fitted parameters give
estimates whose total is the total of the observations, on the days for which there is an estimate. -/
theorem C94_no_bias (hmin : Minimizes minimize) (S : Sample tmin tmax pot obs ds tn tx q o) (hq : ∀ d ∈ ds, 0 ≤ q d)
    (hex : ∃ d ∈ ds, 0 < q d ∧ ∃ r, gapRange ds tn tx d = some r ∧ r ≠ 0)
    (h : fitBristowCampbell minimize tmin tmax pot obs = .ok p) :
    ∃ a c, p = (.fin a, .fin c) ∧ ∃ est : Int → XF ℝ,
      bristowCampbell (onDays ds fun d => .fin (tn d)) (onDays ds fun d => .fin (tx d)) (onDays ds fun d => .fin (q d)) (.scalar (.fin a) (.fin c)) =
        .ok (onDays ds est) ∧
      ∃ y : Int → ℝ, (∀ d ∈ ds, est d = .nan ∨ est d = .fin (y d)) ∧ (∃ d ∈ ds, est d ≠ .nan) ∧
        ((ds.filter fun d => !(est d).isNan).map y).sum = ((ds.filter fun d => !(est d).isNan).map o).sum := by
  have hne : ds ≠ [] := by obtain ⟨d, hd, _⟩ := hex; exact List.ne_nil_of_mem hd
  unfold fitBristowCampbell at h
  rw [sample_rows S] at h
  obtain ⟨a, c, v, rfl, hv, hm⟩ := hmin _ _ _ h
  rw [bcAbsBias_eq S.sorted hne] at hv
  obtain ⟨hE, hv'⟩ := bias_fin (Except.ok.inj hv)
  refine ⟨a, c, rfl, _, bc_onDays S.sorted hne tn tx q a c, fun d => a * tnum ds tn tx c d * q d, ?_, ?_, ?_⟩
  · intro d hd
    by_cases hn : (trans ds tn tx c d).isNan
    · left
      cases e : trans ds tn tx c d with
      | nan => rfl
      | fin t => rw [e] at hn; cases hn
      | pinf => rw [e] at hn; cases hn
      | ninf => rw [e] at hn; cases hn
    · right
      rw [trans_tnum (List.mem_filter.2 ⟨hd, by simpa using hn⟩)]
      rfl
  · obtain ⟨d, hd⟩ := List.exists_mem_of_ne_nil _ hE
    refine ⟨d, (List.mem_filter.1 hd).1, ?_⟩
    rw [trans_tnum hd]
    intro h
    cases h
  · have hf : (ds.filter fun d => !(XF.fin a * trans ds tn tx c d * XF.fin (q d)).isNan) = estDays ds tn tx c := by
      unfold estDays
      apply List.filter_congr
      intro d _
      have := trans_nanOrFin ds tn tx c d
      cases e : trans ds tn tx c d with
      | nan => rfl
      | fin t => rfl
      | pinf => rw [e] at this; exact this.elim
      | ninf => rw [e] at this; exact this.elim
    rw [hf]
    -- with exponent 2 the bias can be made zero
    obtain ⟨hE2, hpos⟩ := total_pos (c := 2) (tmin := tn) (tmax := tx) (by norm_num) hq
      (fun d _ r _ => ⟨r ^ 2, pow_two_cell r, sq_nonneg r, fun h => by positivity⟩) hex
    have h0 := hm (((estDays ds tn tx 2).map o).sum / ((estDays ds tn tx 2).map fun d => tnum ds tn tx 2 d * q d).sum) 2 0 (by
      rw [bcAbsBias_eq S.sorted hne, bias_of_est hE2, sum_diff, div_mul_cancel₀ _ hpos.ne', sub_self]
      simp)
    rw [hv', sum_diff] at h0
    have hlen : ((estDays ds tn tx c).length : ℝ) ≠ 0 := by
      have : (estDays ds tn tx c).length ≠ 0 := by simpa using hE
      exact_mod_cast this
    have h1 := abs_eq_zero.1 (le_antisymm h0 (abs_nonneg _))
    have h2 := (div_eq_zero_iff.1 h1).resolve_right hlen
    have h3 := sum_diff (estDays ds tn tx c) (tnum ds tn tx c) q (fun _ => 0) a
    simp only [sub_zero] at h3
    rw [h3]
    have : ((estDays ds tn tx c).map fun _ => (0 : ℝ)).sum = 0 := by simp
    rw [this]
    linarith

/-- C94 (station statistics).  The parameters stored by `calc_radiation_stats` for a month give, for the days of the month's group, estimates whose total is
the total of the observations, on the days for which there is an estimate. -/
theorem C94_statistics {api : PandasApi} {st st' : StatsObj} {data f : Frame ℝ} {glob : Series (XF ℝ)} {hours : List Time} {lon lat tz : ℝ}
    {angFit : List FitRow → Py (XF ℝ × XF ℝ)} {how : String} {dayLength : Option (Series (XF ℝ))} (hmin : Minimizes minimize)
    (C : CanFit api st data f glob hours lon lat tz) (htn : f.col? "tmin" = some tmin) (htx : f.col? "tmax" = some tmax)
    (hno : ¬ (how = "monthly" ∧ f.col? "ssd" ≠ none ∧ dayLength ≠ none))
    (h : calcRadiation api angFit (bcFitOf minimize) st (some f) dayLength how = (st', none))
    (S : Sample tmin tmax (potentialMeans hours lon lat tz) (glob.resampleD meanSkip) ds tn tx q o) {m : Int} (h1 : 1 ≤ m) (h12 : m ≤ 12)
    {D : List Int} (hD : D = ds.filter fun d => decide (monthOf (at00 d) ∈ monthGroup how m))
    (hq : ∀ d ∈ D, 0 ≤ q d) (hex : ∃ d ∈ D, 0 < q d ∧ ∃ r, gapRange D tn tx d = some r ∧ r ≠ 0) :
    ∃ a c, atMonth st'.obj.glob.bcA m = some (.fin a) ∧ atMonth st'.obj.glob.bcC m = some (.fin c) ∧ ∃ est : Int → XF ℝ,
      bristowCampbell (onDays D fun d => .fin (tn d)) (onDays D fun d => .fin (tx d)) (onDays D fun d => .fin (q d)) (.scalar (.fin a) (.fin c)) =
        .ok (onDays D est) ∧
      ∃ y : Int → ℝ, (∀ d ∈ D, est d = .nan ∨ est d = .fin (y d)) ∧ (∃ d ∈ D, est d ≠ .nan) ∧
        ((D.filter fun d => !(est d).isNan).map y).sum = ((D.filter fun d => !(est d).isNan).map o).sum := by
  obtain ⟨p, hp, e1, e2⟩ := (C68_returns C h).2.2.2.2.1 tmin tmax htn htx hno m h1 h12
  rw [sample_rows S, groupDays_map, ← hD] at hp
  have hs : D.Pairwise (· < ·) := by rw [hD]; exact S.sorted.sublist List.filter_sublist
  obtain ⟨a, c, rfl, rest⟩ := C94_no_bias hmin (sample_cols hs tn tx q o rfl) hq hex hp
  exact ⟨a, c, e1, e2, rest⟩

/-- C94 (exponent not determined).  If the temperature range is positive on all days that have one, then for every positive exponent there is exactly
one factor for which the bias is zero: the data determine no exponent. -/
theorem C94_every_exponent (S : Sample tmin tmax pot obs ds tn tx q o) (hq : ∀ d ∈ ds, 0 ≤ q d)
    (hr : ∀ d ∈ ds, ∀ r, gapRange ds tn tx d = some r → 0 < r) (hex : ∃ d ∈ ds, 0 < q d ∧ gapRange ds tn tx d ≠ none) {c : ℝ} (hc : 0 < c) :
    ∃! a, bcAbsBias (fitFrame tmin tmax pot obs) a c = .ok (.fin 0) := by
  have hne : ds ≠ [] := by obtain ⟨d, hd, _⟩ := hex; exact List.ne_nil_of_mem hd
  rw [sample_rows S]
  obtain ⟨hE, hpos⟩ := total_pos (c := c) (tmin := tn) (tmax := tx) hc.ne' hq
    (fun d hd r h => ⟨r ^ c, pow_pos_cell (hr d hd r h) hc, (Real.rpow_pos_of_pos (hr d hd r h) c).le, fun _ => Real.rpow_pos_of_pos (hr d hd r h) c⟩)
    (by
      obtain ⟨d, hd, h1, h2⟩ := hex
      obtain ⟨r, h⟩ := Option.ne_none_iff_exists'.1 h2
      exact ⟨d, hd, h1, r, h, (hr d hd r h).ne'⟩)
  have hlen : ((estDays ds tn tx c).length : ℝ) ≠ 0 := by
    have : (estDays ds tn tx c).length ≠ 0 := by simpa using hE
    exact_mod_cast this
  refine ⟨((estDays ds tn tx c).map o).sum / ((estDays ds tn tx c).map fun d => tnum ds tn tx c d * q d).sum, ?_, ?_⟩
  · dsimp only
    rw [bcAbsBias_eq S.sorted hne, bias_of_est hE, sum_diff, div_mul_cancel₀ _ hpos.ne', sub_self]
    simp
  · intro a ha
    rw [bcAbsBias_eq S.sorted hne, bias_of_est hE, sum_diff] at ha
    have h1 := abs_eq_zero.1 (XF.fin.inj (Except.ok.inj ha))
    have h2 := (div_eq_zero_iff.1 h1).resolve_right hlen
    rw [eq_div_iff hpos.ne']
    linarith

/-! ### Examples -/

open Classical in
/-- an optimiser that finds the smallest sum of squares whenever there is one -/
def bestFit (f : ℝ → ℝ → List (XF ℝ)) (y : List (XF ℝ)) (_ : ℝ × ℝ) : Py (XF ℝ × XF ℝ) :=
  if h : ∃ ab : ℝ × ℝ, ∀ (g : ℝ → ℝ → List ℝ) (y' : List ℝ), (∀ a b, f a b = (g a b).map .fin) → y = y'.map .fin →
      ∀ a' b', sqErr (g ab.1 ab.2) y' ≤ sqErr (g a' b') y'
  then .ok (.fin h.choose.1, .fin h.choose.2) else .error .valueError

theorem bestFit_leastSquares : LeastSquares bestFit := by
  intro f g y p0 p hf h
  unfold bestFit at h
  split at h
  · rename_i hex
    cases h
    exact ⟨_, _, rfl, hex.choose_spec g y hf rfl⟩
  · cases h

open Classical in
/-- an optimiser that finds the smallest value whenever there is one -/
def bestMin (f : ℝ → ℝ → Py (XF ℝ)) (_ : ℝ × ℝ) : Py (XF ℝ × XF ℝ) :=
  if h : ∃ ac : ℝ × ℝ, ∃ v, f ac.1 ac.2 = .ok (.fin v) ∧ ∀ a' c' v', f a' c' = .ok (.fin v') → v ≤ v'
  then .ok (.fin h.choose.1, .fin h.choose.2) else .error .valueError

theorem bestMin_minimizes : Minimizes bestMin := by
  intro f p0 p h
  unfold bestMin at h
  split at h
  · rename_i hex
    cases h
    obtain ⟨v, h1, h2⟩ := hex.choose_spec
    exact ⟨_, _, v, rfl, h1, h2⟩
  · cases h

/-- two days in January, without sunshine and with 6 of 12 hours, observations from the parameters 1/4 and 3/4: the fit returns them -/
example : fitAngstroem bestFit (onDays [0, 1] fun d => .fin (6 * d)) (onDays [0, 1] fun _ => .fin 12) (onDays [0, 1] fun _ => .fin 100)
    (onDays [0, 1] fun d => .fin (25 + 75 / 2 * d)) = .ok (.fin (1 / 4), .fin (3 / 4)) := by
  have S : Sample (onDays [0, 1] fun d => .fin (6 * d)) (onDays [0, 1] fun _ => .fin 12) (onDays [0, 1] fun _ => .fin 100)
      (onDays [0, 1] fun d => .fin (25 + 75 / 2 * d)) [0, 1] (fun d => 6 * d) (fun _ => 12) (fun _ => 100) fun d => 25 + 75 / 2 * d := by
    refine ⟨by rw [onDays_index]; decide, by decide, fun e he => ⟨onDays_at? _ he, onDays_at? _ he, onDays_at? _ he, onDays_at? _ he⟩, ?_⟩
    intro t ht hn
    rw [onDays_index] at ht
    exact absurd ht hn
  have ho : ∀ d ∈ ([0, 1] : List Int), (25 + 75 / 2 * (d : ℝ)) = (1 / 4 + 3 / 4 * (6 * d) / 12) * 100 := by
    intro d _
    ring
  cases e : fitAngstroem bestFit (onDays [0, 1] fun d => .fin (6 * d)) (onDays [0, 1] fun _ => .fin 12) (onDays [0, 1] fun _ => .fin 100)
      (onDays [0, 1] fun d => .fin (25 + 75 / 2 * d)) with
  | ok p =>
    rw [C93_recovers (d := 0) (d' := 1) bestFit_leastSquares S (fun _ _ => by norm_num) e (by simp) (by simp) (by norm_num) (by norm_num) (by norm_num) ho]
  | error x =>
    exfalso
    unfold fitAngstroem at e
    rw [sample_rows S] at e
    dsimp only at e
    unfold bestFit at e
    split at e
    · cases e
    · rename_i hno
      apply hno
      refine ⟨(1 / 4, 3 / 4), ?_⟩
      intro g y' hg hy a' b'
      have h1 : g (1 / 4) (3 / 4) = y' := by
        have h2 := hg (1 / 4) (3 / 4)
        rw [angstroemOpt_eq (fun _ _ => by norm_num)] at h2
        have inj : Function.Injective (XF.fin : ℝ → XF ℝ) := fun a b h => XF.fin.inj h
        have h3 := List.map_injective_iff.2 inj h2
        have h4 : (List.map (fun d : Int => (25 + 75 / 2 * (d : ℝ))) [0, 1]).map XF.fin = y'.map XF.fin := by
          rw [← hy]; rfl
        have h5 := List.map_injective_iff.2 inj h4
        rw [← h3, ← h5]
        apply List.map_congr_left
        intro d hd
        rw [ho d hd]
        rfl
      have h2 : sqErr (g (1 / 4) (3 / 4)) y' = 0 := by
        rw [h1]
        unfold sqErr
        apply List.sum_eq_zero
        intro x hx
        obtain ⟨r, hr, rfl⟩ := List.mem_map.1 hx
        have : r.1 = r.2 := by
          rw [List.zip_eq_zipWith, List.zipWith_self] at hr
          obtain ⟨z, _, rfl⟩ := List.mem_map.1 hr
          rfl
        rw [this]
        simp
      rw [h2]
      apply List.sum_nonneg
      intro x hx
      obtain ⟨e, _, rfl⟩ := List.mem_map.1 hx
      positivity

/-- three days, the second of them missing: the range of the first day is unknown, that of the last is 10 degrees.  The fit returns. -/
example : ∃ p, fitBristowCampbell bestMin (onDays [0, 2] fun _ => .fin 5) (onDays [0, 2] fun _ => .fin 15) (onDays [0, 2] fun _ => .fin 200)
    (onDays [0, 2] fun _ => .fin 90) = .ok p := by
  have S : Sample (onDays [0, 2] fun _ => .fin 5) (onDays [0, 2] fun _ => .fin 15) (onDays [0, 2] fun _ => .fin 200)
      (onDays [0, 2] fun _ => .fin 90) [0, 2] (fun _ => 5) (fun _ => 15) (fun _ => 200) fun _ => 90 := by
    refine ⟨by rw [onDays_index]; decide, by decide, fun e he => ⟨onDays_at? _ he, onDays_at? _ he, onDays_at? _ he, onDays_at? _ he⟩, ?_⟩
    intro t ht hn
    rw [onDays_index] at ht
    exact absurd ht hn
  have hr0 : gapRange [0, 2] (fun _ => 5) (fun _ => 15) 0 = none := by unfold gapRange; simp
  have hr2 : gapRange [0, 2] (fun _ => 5) (fun _ => 15) 2 = some 10 := by unfold gapRange; simp; norm_num
  obtain ⟨a, ha, _⟩ := C94_every_exponent (c := 2.4) S (fun _ _ => by norm_num) (by
    intro d hd r h
    simp only [List.mem_cons, List.not_mem_nil, or_false] at hd
    rcases hd with rfl | rfl
    · rw [hr0] at h; cases h
    · rw [hr2] at h; cases h; norm_num) ⟨2, by simp, by norm_num, by rw [hr2]; simp⟩ (by norm_num)
  unfold fitBristowCampbell bestMin
  rw [dif_pos]
  · exact ⟨_, rfl⟩
  · refine ⟨(a, 2.4), 0, ha, ?_⟩
    intro a' c' v' h
    rw [sample_rows S, bcAbsBias_eq S.sorted (by simp)] at h
    obtain ⟨_, rfl⟩ := bias_fin (Except.ok.inj h)
    exact abs_nonneg _

end

end Melodist
