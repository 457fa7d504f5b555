import Verif.Model.RadiationFit
import Mathlib.Data.List.Sort
import Verif.Lemmas.RadiationModels
import Verif.Props.StationStatistics
import Verif.Spec.RadFit

/-!
# Helper lemmas: the fits of the radiation models
-/

set_option linter.unusedSectionVars false

namespace Melodist
open Spec StatsObj

noncomputable section

theorem at00_inj {a b : Int} (h : at00 a = at00 b) : a = b := by unfold at00 at h; omega

theorem onDays_index {V : Type} (ds : List Int) (v : Int → V) : Series.index (onDays ds v) = ds.map at00 := by
  simp [Series.index, onDays, Function.comp_def]

theorem onDays_at? {V : Type} {ds : List Int} (v : Int → V) {d : Int} (hd : d ∈ ds) : Series.at? (onDays ds v) (at00 d) = some (v d) := by
  have : onDays ds v = (ds.map at00).map fun t => (t, v (t / DAY)) := by
    unfold onDays
    rw [List.map_map]
    apply List.map_congr_left
    intro d _
    simp only [Function.comp_def]
    unfold at00
    rw [Int.mul_ediv_cancel _ (by decide)]
  rw [this, mapAt? (fun t => v (t / DAY)) (List.mem_map.2 ⟨d, hd, rfl⟩)]
  unfold at00
  rw [Int.mul_ediv_cancel _ (by decide)]

theorem onDays_at?_none {V : Type} {ds : List Int} (v : Int → V) {d : Int} (hd : d ∉ ds) : Series.at? (onDays ds v) (at00 d) = none := by
  unfold Series.at? onDays
  rw [List.find?_eq_none.2]
  · rfl
  · intro r hr
    obtain ⟨e, he, rfl⟩ := List.mem_map.1 hr
    simp only [beq_iff_eq]
    intro h
    exact hd (at00_inj h ▸ he)

/-- the range as a cell -/
def rangeCell (ds : List Int) (tmin tmax : Int → ℝ) (d : Int) : XF ℝ := XF.ofOption (gapRange ds tmin tmax d)

/-- transmissivity for A = 1 -/
def trans (ds : List Int) (tmin tmax : Int → ℝ) (c : ℝ) (d : Int) : XF ℝ :=
  .fin 1 - XF.exp (-(.fin 0.036 * XF.exp (.fin (-0.154) *
    meanSkip ((ds.filter fun e => monthOf (at00 e) == monthOf (at00 d)).map (rangeCell ds tmin tmax)))) * XF.pow (rangeCell ds tmin tmax d) (.fin c))

theorem sorted_bounds {ds : List Int} (hs : ds.Pairwise (· < ·)) {a b : Int} (ha : ds.head? = some a) (hb : ds.getLast? = some b) :
    ∀ d ∈ ds, a ≤ d ∧ d ≤ b := by
  intro d hd
  constructor
  · obtain ⟨l, rfl⟩ : ∃ l, ds = a :: l := by
      cases ds with
      | nil => cases ha
      | cons x l => cases ha; exact ⟨l, rfl⟩
    rcases List.mem_cons.1 hd with rfl | h
    · exact le_rfl
    · exact ((List.pairwise_cons.1 hs).1 d h).le
  · obtain ⟨l, rfl⟩ : ∃ l, ds = l ++ [b] := by
      rw [List.getLast?_eq_some_iff] at hb
      exact hb
    rcases List.mem_append.1 hd with h | h
    · exact ((List.pairwise_append.1 hs).2.2 d h b (by simp)).le
    · rw [List.mem_singleton.1 h]

theorem reindex_onDays {ds : List Int} (hs : ds.Pairwise (· < ·)) (v : Int → ℝ) (a : Int) (n : Nat) :
    Series.reindex (onDays ds fun d => .fin (v d)) ((List.range n).map fun i : Nat => at00 (a + i)) =
      .ok (dailyS a n fun i => if a + (i : Nat) ∈ ds then .fin (v (a + i)) else .nan) := by
  unfold Series.reindex
  rw [if_pos, List.map_map]
  · congr 1
    unfold dailyS
    apply List.map_congr_left
    intro i _
    simp only [Function.comp_def]
    by_cases h : a + (i : Int) ∈ ds
    · rw [onDays_at? _ h, if_pos h]; rfl
    · rw [onDays_at?_none _ h, if_neg h]; rfl
  · rw [onDays_index]
    exact (hs.imp fun h => h.ne).map _ fun x y h e => h (at00_inj e)

theorem bc_onDays {ds : List Int} (hs : ds.Pairwise (· < ·)) (hne : ds ≠ []) (tmin tmax q : Int → ℝ) (a c : ℝ) :
    bristowCampbell (onDays ds fun d => .fin (tmin d)) (onDays ds fun d => .fin (tmax d)) (onDays ds fun d => .fin (q d)) (.scalar (.fin a) (.fin c)) =
      .ok (onDays ds fun d => .fin a * trans ds tmin tmax c d * .fin (q d)) := by
  obtain ⟨x, hx⟩ : ∃ x, ds.head? = some x := by
    cases ds with
    | nil => exact absurd rfl hne
    | cons x l => exact ⟨x, rfl⟩
  obtain ⟨y, hy⟩ : ∃ y, ds.getLast? = some y := ⟨_, List.getLast?_eq_some_getLast hne⟩
  have hb := sorted_bounds hs hx hy
  have hxm : x ∈ ds := by
    cases ds with
    | nil => cases hx
    | cons z l => cases hx; simp
  have hym : y ∈ ds := by
    rw [List.getLast?_eq_some_iff] at hy
    obtain ⟨l, rfl⟩ := hy
    simp
  obtain ⟨n, hn⟩ : ∃ n : Nat, y = x + n := ⟨(y - x).toNat, by have := (hb y hym).1; omega⟩
  unfold bristowCampbell
  rw [if_neg (by rw [not_not, onDays_index, onDays_index])]
  rw [onDays_index, List.head?_map, List.getLast?_map, hx, hy]
  dsimp only [Option.map_some]
  rw [hn, show x + (n : Int) = x + ((n + 1 - 1 : Nat) : Int) by omega, dateRange_daily x (Nat.succ_pos n), reindex_onDays hs, py_ok_bind,
    reindex_onDays hs, py_ok_bind, bcRows_daily]
  set tm : Nat → XF ℝ := fun i => if x + (i : Int) ∈ ds then .fin (tmin (x + i)) else .nan with htm
  set tx : Nat → XF ℝ := fun i => if x + (i : Int) ∈ ds then .fin (tmax (x + i)) else .nan with htx
  rw [locAll_ok (v := fun t => (fun i => (tm i, tx i, nextMin (n + 1) tm i)) (t / DAY - x).toNat)]
  swap
  · intro t ht
    obtain ⟨d, hd, rfl⟩ := List.mem_map.1 ht
    obtain ⟨h1, h2⟩ := hb d hd
    have e : d = x + ((d - x).toNat : Int) := by omega
    rw [e, dailyS_at? x _ (by omega)]
    unfold at00
    rw [Int.mul_ediv_cancel _ (by decide), show (x + (((d - x).toNat : Nat) : Int) - x).toNat = (d - x).toNat by omega]
  rw [py_ok_bind, locAll_ok (v := fun t => .fin (q (t / DAY)))]
  swap
  · intro t ht
    obtain ⟨d, hd, rfl⟩ := List.mem_map.1 ht
    rw [onDays_at? _ hd]
    unfold at00
    rw [Int.mul_ediv_cancel _ (by decide)]
  rw [py_ok_bind, par_values (par := .scalar (.fin a) (.fin c)) (a := fun _ => .fin a) (b := fun _ => .fin c) (fun t _ => ⟨rfl, rfl⟩), py_ok_bind]
  congr 1
  have eT : ((ds.map at00).map fun t => (t, (fun i => (tm i, tx i, nextMin (n + 1) tm i)) (t / DAY - x).toNat)).map
        (fun r : Time × XF ℝ × XF ℝ × XF ℝ => (r.1, r.2.2.1 - (r.2.1 + r.2.2.2) / .fin 2)) = onDays ds (rangeCell ds tmin tmax) := by
    rw [List.map_map, List.map_map]
    unfold onDays
    apply List.map_congr_left
    intro d hd
    obtain ⟨h1, h2⟩ := hb d hd
    simp only [Function.comp_def]
    have e0 : at00 d / DAY = d := by unfold at00; exact Int.mul_ediv_cancel _ (by decide)
    rw [e0]
    congr 1
    have e : x + ((d - x).toNat : Int) = d := by omega
    have e1 : tm (d - x).toNat = .fin (tmin d) := by rw [htm]; dsimp only; rw [e, if_pos hd]
    have e2 : tx (d - x).toNat = .fin (tmax d) := by rw [htx]; dsimp only; rw [e, if_pos hd]
    rw [e1, e2]
    unfold rangeCell gapRange nextMin
    by_cases hl : d = y
    · subst hl
      rw [if_pos hy, if_neg (by omega), e1, XF.fin_add_fin, XF.fin_div_fin_of_ne _ (by norm_num), XF.fin_sub_fin]
      show XF.fin _ = XF.fin _
      congr 1
      ring
    · have hl' : ¬ ds.getLast? = some d := by rw [hy]; intro h; exact hl (Option.some.inj h).symm
      rw [if_neg hl', if_pos (show (d - x).toNat + 1 < n + 1 by omega)]
      have e3 : tm ((d - x).toNat + 1) = if d + 1 ∈ ds then .fin (tmin (d + 1)) else .nan := by
        rw [htm]
        dsimp only
        rw [show x + (((d - x).toNat + 1 : Nat) : Int) = d + 1 by omega]
      rw [e3]
      by_cases hd1 : d + 1 ∈ ds
      · rw [if_pos hd1, if_pos hd1, XF.fin_add_fin, XF.fin_div_fin_of_ne _ (by norm_num), XF.fin_sub_fin]; rfl
      · rw [if_neg hd1, if_neg hd1, XF.add_nan, XF.nan_div, XF.sub_nan]; rfl
  rw [eT]
  rw [zip_maps]
  unfold onDays
  rw [List.map_map, zip_maps, List.map_map]
  apply List.map_congr_left
  intro d _
  simp only [Function.comp_def]
  have e0 : at00 d / DAY = d := by unfold at00; exact Int.mul_ediv_cancel _ (by decide)
  rw [e0]
  unfold trans
  rw [List.filter_map, List.map_map]
  rfl

theorem rangeCell_nanOrFin (ds : List Int) (tmin tmax : Int → ℝ) (d : Int) : (rangeCell ds tmin tmax d).NanOrFin := by
  unfold rangeCell
  cases gapRange ds tmin tmax d <;> exact trivial

/-- the mean range of a month -/
def monthRange (ds : List Int) (tmin tmax : Int → ℝ) (d : Int) : XF ℝ :=
  meanSkip ((ds.filter fun e => monthOf (at00 e) == monthOf (at00 d)).map (rangeCell ds tmin tmax))

theorem meanSkip_nanOrFin {l : List (XF ℝ)} (h : ∀ c ∈ l, c.NanOrFin) : (meanSkip l).NanOrFin := by
  by_cases e : numbers l = []
  · unfold meanSkip
    rw [countValid_eq h, e]
    exact trivial
  · rw [meanSkip_eq h e]; exact trivial

theorem monthRange_nanOrFin (ds : List Int) (tmin tmax : Int → ℝ) (d : Int) : (monthRange ds tmin tmax d).NanOrFin := by
  apply meanSkip_nanOrFin
  intro c hc
  obtain ⟨e, _, rfl⟩ := List.mem_map.1 hc
  exact rangeCell_nanOrFin ds tmin tmax e

theorem monthRange_fin {ds : List Int} {tmin tmax : Int → ℝ} {d : Int} (hd : d ∈ ds) {r : ℝ} (h : gapRange ds tmin tmax d = some r) :
    ∃ μ, monthRange ds tmin tmax d = .fin μ := by
  unfold monthRange
  rw [meanSkip_eq]
  · exact ⟨_, rfl⟩
  · intro c hc
    obtain ⟨e, _, rfl⟩ := List.mem_map.1 hc
    exact rangeCell_nanOrFin ds tmin tmax e
  · intro e
    have : r ∈ numbers ((ds.filter fun e => monthOf (at00 e) == monthOf (at00 d)).map (rangeCell ds tmin tmax)) := by
      unfold numbers
      rw [List.mem_filterMap]
      refine ⟨.fin r, List.mem_map.2 ⟨d, List.mem_filter.2 ⟨hd, by simp⟩, ?_⟩, rfl⟩
      unfold rangeCell
      rw [h]
      rfl
    rw [e] at this
    cases this

/-- the factor B of Bristow and Campbell for a mean range -/
def bcB (μ : ℝ) : ℝ := 0.036 * Real.exp (-0.154 * μ)

theorem bcB_pos (μ : ℝ) : 0 < bcB μ := mul_pos (by norm_num) (Real.exp_pos _)

theorem trans_of_mean {ds : List Int} {tmin tmax : Int → ℝ} (c : ℝ) {d : Int} {μ : ℝ} (h : monthRange ds tmin tmax d = .fin μ) :
    trans ds tmin tmax c d = .fin 1 - XF.exp (.fin (-bcB μ) * XF.pow (rangeCell ds tmin tmax d) (.fin c)) := by
  unfold trans
  unfold monthRange at h
  rw [h]
  rfl

theorem trans_of_nan {ds : List Int} {tmin tmax : Int → ℝ} (c : ℝ) {d : Int} (h : monthRange ds tmin tmax d = .nan) :
    trans ds tmin tmax c d = .nan := by
  unfold trans
  unfold monthRange at h
  rw [h, XF.mul_nan]
  show XF.fin 1 - XF.exp (-(XF.fin 0.036 * XF.nan) * _) = _
  rw [XF.mul_nan]
  show XF.fin 1 - XF.exp (XF.nan * _) = _
  rw [XF.nan_mul]
  exact XF.sub_nan _

theorem trans_nanOrFin (ds : List Int) (tmin tmax : Int → ℝ) (c : ℝ) (d : Int) : (trans ds tmin tmax c d).NanOrFin := by
  have hm := monthRange_nanOrFin ds tmin tmax d
  cases e : monthRange ds tmin tmax d with
  | nan => rw [trans_of_nan c e]; exact trivial
  | pinf => rw [e] at hm; exact hm.elim
  | ninf => rw [e] at hm; exact hm.elim
  | fin μ =>
    rw [trans_of_mean c e]
    have hp : (XF.pow (rangeCell ds tmin tmax d) (.fin c)).NanOrFin ∨ XF.pow (rangeCell ds tmin tmax d) (.fin c) = .pinf := by
      have hr := rangeCell_nanOrFin ds tmin tmax d
      revert hr
      generalize rangeCell ds tmin tmax d = r
      intro hr
      unfold XF.pow
      dsimp only
      by_cases h0 : c = 0
      · rw [if_pos h0]; exact Or.inl trivial
      · rw [if_neg h0]
        cases r with
        | nan => exact Or.inl trivial
        | pinf => exact hr.elim
        | ninf => exact hr.elim
        | fin x =>
          dsimp only
          by_cases h1 : 0 < x
          · rw [if_pos h1]; exact Or.inl trivial
          · rw [if_neg h1]
            by_cases h2 : x = 0
            · rw [if_pos h2]
              by_cases h3 : 0 < c
              · rw [if_pos h3]; exact Or.inl trivial
              · rw [if_neg h3]; exact Or.inr rfl
            · rw [if_neg h2]
              split
              · exact Or.inl trivial
              · exact Or.inl trivial
    rcases hp with hp | hp
    · revert hp
      generalize XF.pow (rangeCell ds tmin tmax d) (.fin c) = w
      intro hp
      cases w with
      | nan => exact trivial
      | pinf => exact hp.elim
      | ninf => exact hp.elim
      | fin w => exact trivial
    · rw [hp]
      have : XF.fin (-bcB μ) * XF.pinf = .ninf := by
        have := bcB_pos μ
        show XF.infOfSign _ = _
        unfold XF.infOfSign
        rw [if_neg (by linarith), if_pos (by linarith)]
      rw [this]
      exact trivial

/-- a transmissivity for A = 1 between 0 and 1 for every positive exponent -/
theorem trans_pos {ds : List Int} {tmin tmax : Int → ℝ} {c : ℝ} {d : Int} (hd : d ∈ ds) {r w : ℝ} (h : gapRange ds tmin tmax d = some r)
    (hw : XF.pow (.fin r) (.fin c) = .fin w) (h0 : 0 ≤ w) : ∃ t, trans ds tmin tmax c d = .fin t ∧ 0 ≤ t ∧ (0 < w → 0 < t) := by
  obtain ⟨μ, hμ⟩ := monthRange_fin hd h
  refine ⟨1 - Real.exp (-bcB μ * w), ?_, ?_, ?_⟩
  · rw [trans_of_mean c hμ]
    unfold rangeCell
    rw [h]
    show XF.fin 1 - XF.exp (.fin (-bcB μ) * XF.pow (.fin r) (.fin c)) = _
    rw [hw]
    rfl
  · have : Real.exp (-bcB μ * w) ≤ 1 := Real.exp_le_one_iff.2 (by have := mul_nonneg (bcB_pos μ).le h0; linarith)
    linarith
  · intro hw
    have : Real.exp (-bcB μ * w) < 1 := Real.exp_lt_one_iff.2 (by have := mul_pos (bcB_pos μ) hw; linarith)
    linarith

theorem trans_none {ds : List Int} {tmin tmax : Int → ℝ} {c : ℝ} (hc : c ≠ 0) {d : Int} (h : gapRange ds tmin tmax d = none) :
    trans ds tmin tmax c d = .nan := by
  have hp : XF.pow (rangeCell ds tmin tmax d) (.fin c) = .nan := by
    unfold rangeCell XF.pow
    rw [h]
    dsimp only
    rw [if_neg hc]
    rfl
  cases e : monthRange ds tmin tmax d with
  | fin μ => rw [trans_of_mean c e, hp]; rfl
  | nan => exact trans_of_nan c e
  | pinf => have := monthRange_nanOrFin ds tmin tmax d; rw [e] at this; exact this.elim
  | ninf => have := monthRange_nanOrFin ds tmin tmax d; rw [e] at this; exact this.elim

theorem pow_two_cell (r : ℝ) : XF.pow (.fin r) (.fin 2) = .fin (r ^ 2) := by
  unfold XF.pow
  dsimp only
  rw [if_neg (by norm_num)]
  by_cases h1 : 0 < r
  · rw [if_pos h1]
    congr 1
    exact_mod_cast Real.rpow_natCast r 2
  · rw [if_neg h1]
    by_cases h2 : r = 0
    · rw [if_pos h2, if_pos (by norm_num), h2]; norm_num
    · rw [if_neg h2, if_pos ⟨2, by norm_num⟩]
      congr 1
      rw [show (2 : ℝ) = ((2 : Int) : ℝ) by norm_num, Int.floor_intCast]
      norm_cast

theorem pow_pos_cell {r c : ℝ} (h : 0 < r) (hc : 0 < c) : XF.pow (.fin r) (.fin c) = .fin (r ^ c) := by
  unfold XF.pow
  dsimp only
  rw [if_neg hc.ne', if_pos h]

/-! ### the bias -/

theorem bcAbsBias_eq {ds : List Int} (hs : ds.Pairwise (· < ·)) (hne : ds ≠ []) (tmin tmax q o : Int → ℝ) (a c : ℝ) :
    bcAbsBias (ds.map fun e => (at00 e, .fin (tmin e), .fin (tmax e), .fin (q e), .fin (o e))) a c =
      .ok (XF.abs (meanSkip (ds.map fun d => .fin a * trans ds tmin tmax c d * .fin (q d) - .fin (o d)))) := by
  unfold bcAbsBias fitCol1 fitCol2 fitCol3 fitCol4
  simp only [List.map_map, Function.comp_def]
  have := bc_onDays hs hne tmin tmax q a c
  unfold onDays at this
  rw [this, py_ok_bind]
  have e (v : Int → XF ℝ) : (ds.map fun d => (at00 d, v d)) = (ds.map at00).map fun t => (t, v (t / DAY)) := by
    rw [List.map_map]
    apply List.map_congr_left
    intro d _
    simp only [Function.comp_def]
    unfold at00
    rw [Int.mul_ediv_cancel _ (by decide)]
  rw [e, e fun d => .fin (o d), align_same, py_ok_bind]
  congr 3
  unfold Series.values
  rw [List.map_map, List.map_map]
  apply List.map_congr_left
  intro d _
  simp only [Function.comp_def]
  unfold at00
  rw [Int.mul_ediv_cancel _ (by decide)]

/-- the days with an estimate -/
def estDays (ds : List Int) (tmin tmax : Int → ℝ) (c : ℝ) : List Int := ds.filter fun d => !(trans ds tmin tmax c d).isNan

/-- the transmissivity as a number -/
def tnum (ds : List Int) (tmin tmax : Int → ℝ) (c : ℝ) (d : Int) : ℝ :=
  match trans ds tmin tmax c d with
  | .fin t => t
  | _ => 0

theorem trans_tnum {ds : List Int} {tmin tmax : Int → ℝ} {c : ℝ} {d : Int} (h : d ∈ estDays ds tmin tmax c) :
    trans ds tmin tmax c d = .fin (tnum ds tmin tmax c d) := by
  have h1 := trans_nanOrFin ds tmin tmax c d
  have h2 := (List.mem_filter.1 h).2
  unfold tnum
  cases e : trans ds tmin tmax c d with
  | fin t => rfl
  | nan => rw [e] at h2; cases h2
  | pinf => rw [e] at h1; exact h1.elim
  | ninf => rw [e] at h1; exact h1.elim

theorem numbers_diff (D ds : List Int) (tmin tmax q o : Int → ℝ) (a c : ℝ) :
    numbers (D.map fun d => .fin a * trans ds tmin tmax c d * .fin (q d) - .fin (o d)) =
      (D.filter fun d => !(trans ds tmin tmax c d).isNan).map fun d => a * tnum ds tmin tmax c d * q d - o d := by
  induction D with
  | nil => rfl
  | cons d D ih =>
    have h1 := trans_nanOrFin ds tmin tmax c d
    rw [List.map_cons, List.filter_cons]
    cases e : trans ds tmin tmax c d with
    | fin t =>
      rw [if_pos (by rfl), List.map_cons]
      show _ :: numbers _ = _
      rw [ih]
      congr 1
      unfold tnum
      rw [e]
      exact (sub_eq_add_neg _ _).symm
    | nan =>
      rw [if_neg (by simp [XF.isNan]), ← ih]
      rfl
    | pinf => rw [e] at h1; exact h1.elim
    | ninf => rw [e] at h1; exact h1.elim

theorem bias_fin {ds : List Int} {tmin tmax q o : Int → ℝ} {a c v : ℝ}
    (h : XF.abs (meanSkip (ds.map fun d => .fin a * trans ds tmin tmax c d * .fin (q d) - .fin (o d))) = .fin v) :
    estDays ds tmin tmax c ≠ [] ∧
      v = |((estDays ds tmin tmax c).map fun d => a * tnum ds tmin tmax c d * q d - o d).sum / (estDays ds tmin tmax c).length| := by
  have hn : ∀ x ∈ ds.map (fun d => XF.fin a * trans ds tmin tmax c d * .fin (q d) - .fin (o d)), x.NanOrFin := by
    intro x hx
    obtain ⟨d, _, rfl⟩ := List.mem_map.1 hx
    have h1 := trans_nanOrFin ds tmin tmax c d
    revert h1
    cases trans ds tmin tmax c d with
    | fin t => intro _; exact trivial
    | nan => intro _; exact trivial
    | pinf => intro h; exact h.elim
    | ninf => intro h; exact h.elim
  have hne : estDays ds tmin tmax c ≠ [] := by
    intro e
    unfold meanSkip at h
    rw [countValid_eq hn, numbers_diff] at h
    unfold estDays at e
    rw [e] at h
    cases h
  refine ⟨hne, ?_⟩
  rw [meanSkip_eq hn] at h
  · rw [numbers_diff, List.length_map] at h
    exact (XF.fin.inj h).symm
  · rw [numbers_diff]
    simpa [estDays] using hne

theorem bias_of_est {ds : List Int} {tmin tmax q o : Int → ℝ} {a c : ℝ} (hne : estDays ds tmin tmax c ≠ []) :
    XF.abs (meanSkip (ds.map fun d => .fin a * trans ds tmin tmax c d * .fin (q d) - .fin (o d))) =
      .fin |((estDays ds tmin tmax c).map fun d => a * tnum ds tmin tmax c d * q d - o d).sum / (estDays ds tmin tmax c).length| := by
  have hn : ∀ x ∈ ds.map (fun d => XF.fin a * trans ds tmin tmax c d * .fin (q d) - .fin (o d)), x.NanOrFin := by
    intro x hx
    obtain ⟨d, _, rfl⟩ := List.mem_map.1 hx
    have h1 := trans_nanOrFin ds tmin tmax c d
    revert h1
    cases trans ds tmin tmax c d with
    | fin t => intro _; exact trivial
    | nan => intro _; exact trivial
    | pinf => intro h; exact h.elim
    | ninf => intro h; exact h.elim
  rw [meanSkip_eq hn]
  · rw [numbers_diff, List.length_map]
    rfl
  · rw [numbers_diff]
    simpa [estDays] using hne

theorem sum_diff (D : List Int) (t q o : Int → ℝ) (a : ℝ) :
    (D.map fun d => a * t d * q d - o d).sum = a * (D.map fun d => t d * q d).sum - (D.map o).sum := by
  induction D with
  | nil => simp
  | cons d D ih => simp only [List.map_cons, List.sum_cons, ih]; ring

/-- the total of transmissivity times potential radiation is positive, for exponents for which the powers of the ranges are not negative -/
theorem total_pos {ds : List Int} {tmin tmax q : Int → ℝ} {c : ℝ} (hc : c ≠ 0) (hq : ∀ d ∈ ds, 0 ≤ q d)
    (hp : ∀ d ∈ ds, ∀ r, gapRange ds tmin tmax d = some r → ∃ w, XF.pow (.fin r) (.fin c) = .fin w ∧ 0 ≤ w ∧ (r ≠ 0 → 0 < w))
    (hex : ∃ d ∈ ds, 0 < q d ∧ ∃ r, gapRange ds tmin tmax d = some r ∧ r ≠ 0) :
    estDays ds tmin tmax c ≠ [] ∧ 0 < ((estDays ds tmin tmax c).map fun d => tnum ds tmin tmax c d * q d).sum := by
  obtain ⟨d, hd, hqd, r, hr, hr0⟩ := hex
  obtain ⟨w, hw, hw0, hwp⟩ := hp d hd r hr
  obtain ⟨t, ht, _, htp⟩ := trans_pos hd hr hw hw0
  have hm : d ∈ estDays ds tmin tmax c := List.mem_filter.2 ⟨hd, by rw [ht]; rfl⟩
  have htn : tnum ds tmin tmax c d = t := by unfold tnum; rw [ht]
  refine ⟨List.ne_nil_of_mem hm, ?_⟩
  have hnn : ∀ x ∈ (estDays ds tmin tmax c).map (fun d => tnum ds tmin tmax c d * q d), 0 ≤ x := by
    intro x hx
    obtain ⟨e, he, rfl⟩ := List.mem_map.1 hx
    have hed := (List.mem_filter.1 he).1
    apply mul_nonneg _ (hq e hed)
    cases hg : gapRange ds tmin tmax e with
    | none =>
      have := (List.mem_filter.1 he).2
      rw [trans_none hc hg] at this
      cases this
    | some r' =>
      obtain ⟨w', hw', hw0', _⟩ := hp e hed r' hg
      obtain ⟨t', ht', h0', _⟩ := trans_pos hed hg hw' hw0'
      unfold tnum
      rw [ht']
      exact h0'
  have h1 : tnum ds tmin tmax c d * q d ≤ ((estDays ds tmin tmax c).map fun d => tnum ds tmin tmax c d * q d).sum :=
    List.single_le_sum hnn _ (List.mem_map.2 ⟨d, hm, rfl⟩)
  have h2 : 0 < tnum ds tmin tmax c d * q d := by rw [htn]; exact mul_pos (htp (hwp hr0)) hqd
  linarith

theorem at?_pair_mem {V : Type} {s : Series V} {t : Time} {v : V} (h : Series.at? s t = some v) : (t, v) ∈ s := by
  unfold Series.at? at h
  cases e : s.find? fun r => r.1 == t with
  | none => rw [e] at h; cases h
  | some r =>
    rw [e] at h
    have h1 := List.mem_of_find?_eq_some e
    have h2 := List.find?_some e
    rw [beq_iff_eq] at h2
    cases h
    rw [← h2]
    exact h1

theorem at?_of_pair_mem {V : Type} {s : Series V} (hnd : (Series.index s).Nodup) {t : Time} {v : V} (h : (t, v) ∈ s) : Series.at? s t = some v := by
  unfold Series.at?
  induction s with
  | nil => cases h
  | cons r s ih =>
    have hnd' : r.1 ∉ Series.index s ∧ (Series.index s).Nodup := List.nodup_cons.1 hnd
    rw [List.find?_cons]
    rcases List.mem_cons.1 h with rfl | h
    · rw [beq_self_eq_true]; rfl
    · have : (r.1 == t) = false := by
        rw [beq_eq_false_iff_ne]
        rintro rfl
        exact hnd'.1 (List.mem_map.2 ⟨_, h, rfl⟩)
      rw [this]
      exact ih hnd'.2 h

theorem sample_rows {a b c d : Series (XF ℝ)} {ds : List Int} {x y z u : Int → ℝ} (S : Sample a b c d ds x y z u) :
    fitFrame a b c d = ds.map fun e => (at00 e, .fin (x e), .fin (y e), .fin (z e), .fin (u e)) := by
  haveI : Std.Irrefl fun r r' : FitRow => r.1 < r'.1 := ⟨fun r h => lt_irrefl _ h⟩
  haveI : Std.Antisymm fun r r' : FitRow => r.1 < r'.1 := ⟨fun r r' h h' => absurd h' (lt_asymm h)⟩
  apply List.Pairwise.eq_of_mem_iff (r := fun r r' : FitRow => r.1 < r'.1)
  · unfold fitFrame
    rw [List.pairwise_filterMap]
    have := S.index
    unfold Series.index at this
    rw [List.pairwise_map] at this
    refine this.imp ?_
    intro r r' h p hp p' hp'
    have e1 : p.1 = r.1 := by
      split at hp
      · split at hp
        · cases hp
        · cases hp; rfl
      · cases hp
    have e2 : p'.1 = r'.1 := by
      split at hp'
      · split at hp'
        · cases hp'
        · cases hp'; rfl
      · cases hp'
    rw [e1, e2]
    exact h
  · rw [List.pairwise_map]
    exact S.sorted.imp fun h => by unfold at00; dsimp only; omega
  · intro r
    have hnd : (Series.index a).Nodup := S.index.imp fun h => h.ne
    rw [C68_sample, List.mem_map]
    constructor
    · rintro ⟨h1, h2, h3, h4, n1, n2, n3, n4⟩
      have h1' : Series.at? a r.1 = some r.2.1 := at?_of_pair_mem hnd h1
      by_cases hm : r.1 ∈ ds.map at00
      · obtain ⟨e, he, her⟩ := List.mem_map.1 hm
        obtain ⟨v1, v2, v3, v4⟩ := S.values e he
        rw [her] at v1 v2 v3 v4
        refine ⟨e, he, ?_⟩
        rw [h1'] at v1
        rw [h2] at v2
        rw [h3] at v3
        rw [h4] at v4
        rw [← Option.some.inj v1, ← Option.some.inj v2, ← Option.some.inj v3, ← Option.some.inj v4, her]
      · obtain ⟨s, hs, hv⟩ := S.others r.1 (List.mem_map.2 ⟨_, h1, rfl⟩) hm
        simp only [List.mem_cons, List.not_mem_nil, or_false] at hs
        rcases hs with rfl | rfl | rfl | rfl <;> simp_all
    · rintro ⟨e, he, rfl⟩
      obtain ⟨v1, v2, v3, v4⟩ := S.values e he
      refine ⟨at?_pair_mem v1, v2, v3, v4, ?_, ?_, ?_, ?_⟩ <;> simp

/-- the columns of the rows of some days -/
theorem sample_cols {ds : List Int} (hs : ds.Pairwise (· < ·)) (x y z u : Int → ℝ) {rows : List FitRow}
    (e : rows = ds.map fun e => (at00 e, .fin (x e), .fin (y e), .fin (z e), .fin (u e))) :
    Sample (fitCol1 rows) (fitCol2 rows) (fitCol3 rows) (fitCol4 rows) ds x y z u := by
  have e1 : fitCol1 rows = onDays ds fun d => .fin (x d) := by rw [e]; unfold fitCol1 onDays; rw [List.map_map]; rfl
  have e2 : fitCol2 rows = onDays ds fun d => .fin (y d) := by rw [e]; unfold fitCol2 onDays; rw [List.map_map]; rfl
  have e3 : fitCol3 rows = onDays ds fun d => .fin (z d) := by rw [e]; unfold fitCol3 onDays; rw [List.map_map]; rfl
  have e4 : fitCol4 rows = onDays ds fun d => .fin (u d) := by rw [e]; unfold fitCol4 onDays; rw [List.map_map]; rfl
  rw [e1, e2, e3, e4]
  refine ⟨?_, hs, ?_, ?_⟩
  · rw [onDays_index, List.pairwise_map]
    exact hs.imp fun h => by unfold at00; omega
  · intro d hd
    exact ⟨onDays_at? _ hd, onDays_at? _ hd, onDays_at? _ hd, onDays_at? _ hd⟩
  · intro t ht hn
    rw [onDays_index] at ht
    exact absurd ht hn

theorem groupDays_map (how : String) (m : Int) (ds : List Int) (x y z u : Int → ℝ) :
    groupDays how m (ds.map fun e => (at00 e, .fin (x e), .fin (y e), .fin (z e), .fin (u e))) =
      (ds.filter fun e => decide (monthOf (at00 e) ∈ monthGroup how m)).map fun e => (at00 e, .fin (x e), .fin (y e), .fin (z e), .fin (u e)) := by
  unfold groupDays
  rw [List.filter_map]
  rfl

/-! ### least squares -/

theorem sqErr_map (ds : List Int) (f o : Int → ℝ) : sqErr (ds.map f) (ds.map o) = (ds.map fun d => (f d - o d) ^ 2).sum := by
  unfold sqErr
  rw [zip_maps, List.map_map]
  rfl

/-- a quadratic that has its minimum at 0 has no linear part -/
theorem linear_zero {A B : ℝ} (h : ∀ s : ℝ, 0 ≤ A * s ^ 2 + B * s) : B = 0 := by
  by_contra hB
  rcases le_or_gt A 0 with hA | hA
  · have h1 := h (-B)
    have h2 : 0 < B ^ 2 := by positivity
    nlinarith
  · have h1 := h (-B / (2 * A))
    have h2 : 0 < B ^ 2 / (4 * A) := by positivity
    have : A * (-B / (2 * A)) ^ 2 + B * (-B / (2 * A)) = -(B ^ 2 / (4 * A)) := by field_simp; ring
    linarith

theorem sum_quad (ds : List Int) (p e : Int → ℝ) (s : ℝ) :
    (ds.map fun d => (e d + s * p d) ^ 2).sum =
      (ds.map fun d => e d ^ 2).sum + (ds.map fun d => p d ^ 2).sum * s ^ 2 + 2 * (ds.map fun d => p d * e d).sum * s := by
  induction ds with
  | nil => simp
  | cons d ds ih => simp only [List.map_cons, List.sum_cons, ih]; ring

theorem normal_eq {ds : List Int} {p e : Int → ℝ} (h : ∀ s : ℝ, (ds.map fun d => e d ^ 2).sum ≤ (ds.map fun d => (e d + s * p d) ^ 2).sum) :
    (ds.map fun d => p d * e d).sum = 0 := by
  have := linear_zero (A := (ds.map fun d => p d ^ 2).sum) (B := 2 * (ds.map fun d => p d * e d).sum) fun s => by
    have := h s
    rw [sum_quad] at this
    linarith
  linarith

theorem sumSq_zero {ds : List Int} {e : Int → ℝ} (h : (ds.map fun d => e d ^ 2).sum ≤ 0) : ∀ d ∈ ds, e d = 0 := by
  intro d hd
  have hnn : ∀ x ∈ ds.map fun d => e d ^ 2, 0 ≤ x := by
    intro x hx
    obtain ⟨i, _, rfl⟩ := List.mem_map.1 hx
    positivity
  have := List.single_le_sum hnn _ (List.mem_map.2 ⟨d, hd, rfl⟩)
  have h0 : 0 ≤ e d ^ 2 := by positivity
  exact pow_eq_zero_iff (n := 2) (by norm_num) |>.1 (by linarith)

end

end Melodist
