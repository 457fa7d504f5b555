import Verif.Lemmas.Cascade
import Mathlib.Algebra.BigOperators.Fin
import Mathlib.Tactic.IntervalCases

/-!
# Helper lemmas: successful runs of the cascade, deterministic statistics, 5-minute output
-/

set_option linter.unusedSectionVars false

namespace Melodist
open Spec

variable {K : Type} [Field K] [LinearOrder K] [IsStrictOrderedRing K]

/-! ### success -/

theorem classCentre_mem (k : Fin 7) : (0 : K) ≤ classCentre k ∧ classCentre k ≤ (1 : K) := by
  fin_cases k <;> simp [classCentre, wclassbounds] <;> norm_num

theorem wxxcum_last {s : CascStats K} {b : Fin 2} {t : Fin 4} {w : Fin 7 → K} (h : ∀ k, s.wxx k b t = .fin (w k)) :
    wxxcum s 6 b t = .fin (∑ k, w k) := by
  simp only [wxxcum, h]
  simp only [show (5 + 1 < 7) = True by simp, show (4 + 1 < 7) = True by simp, show (3 + 1 < 7) = True by simp,
    show (2 + 1 < 7) = True by simp, show (1 + 1 < 7) = True by simp, show (0 + 1 < 7) = True by simp, dite_true, XF.fin_add_fin]
  congr 1
  simp only [Fin.sum_univ_succ]
  simp
  ring_nf

/-- every histogram consists of numbers that add up to at least 1 -/
def WeightsOk (s : CascStats K) : Prop := ∀ b t, ∃ w : Fin 7 → K, (∀ k, s.wxx k b t = .fin (w k)) ∧ 1 ≤ ∑ k, w k

theorem guessW1_some {s : CascStats K} (hs : WeightsOk s) (b : Fin 2) (t : Fin 4) {r : K} (hr : r ≤ 1) (stale : Option K) :
    ∃ k, guessW1 s b t r stale = some (classCentre k) := by
  obtain ⟨w, hw, h1⟩ := hs b t
  unfold guessW1
  cases hf : (List.finRange 7).find? fun k : Fin 7 => decide (XF.le (.fin r) (wxxcum s k.1 b t)) with
  | some k => exact ⟨k, rfl⟩
  | none =>
    rw [List.find?_eq_none] at hf
    have := hf 6 (List.mem_finRange 6)
    rw [show ((6 : Fin 7)).1 = 6 from rfl, wxxcum_last hw] at this
    simp at this
    linarith

theorem boxType_some {prev next : Option K} (hp : ∀ x, prev = some x → 0 ≤ x) (hn : ∀ x, next = some x → 0 ≤ x)
    (h : prev ≠ none ∨ next ≠ none) (stale : Option BoxType) : ∃ ty, boxType prev next stale = .ok (some ty) := by
  cases prev with
  | none =>
    cases next with
    | none => simp at h
    | some nx => exact ⟨_, rfl⟩
  | some pv =>
    cases next with
    | none => exact ⟨_, rfl⟩
    | some nx =>
      have h1 := hp pv rfl
      have h2 := hn nx rfl
      unfold boxType
      rcases h1.lt_or_eq with a | a <;> rcases h2.lt_or_eq with b | b
      · exact ⟨.enclosed, by simp [a, b, a.ne', b.ne']⟩
      · subst b; exact ⟨.ending, by simp [a, a.ne']⟩
      · subst a; exact ⟨.starting, by simp [b, b.ne']⟩
      · subst a; subst b; exact ⟨.isolated, by simp⟩

theorem boxStep_ok {rnd : Nat → K} (hr : ∀ j, rnd j ≤ 1) {s : CascStats K} (hs : WeightsOk s) (mv : XF K) {prev next : Option K} {x : K}
    (hp : ∀ x, prev = some x → 0 ≤ x) (hn : ∀ x, next = some x → 0 ≤ x) (h : prev ≠ none ∨ next ≠ none) (st : CascVars K) :
    ∃ o, boxStep rnd s mv prev x next st = .ok o := by
  unfold boxStep
  split
  · obtain ⟨ty, hty⟩ := boxType_some hp hn h st.vbtype
    rw [hty]
    simp only [bind, Except.bind]
    generalize (if XF.lt mv (.fin x) then (1 : Fin 2) else 0) = bb
    split
    · exact ⟨_, rfl⟩
    · split
      · exact ⟨_, rfl⟩
      · obtain ⟨k, hk⟩ := guessW1_some hs bb ty.col (hr (st.draws + 1)) st.w1
        simp only [hk]
        obtain ⟨c1, c2⟩ := classCentre_mem (K := K) k
        rw [if_neg (by push Not; exact ⟨c1, c2⟩)]
        exact ⟨_, rfl⟩
  · exact ⟨_, rfl⟩

theorem boxLoop_ok {rnd : Nat → K} (hr : ∀ j, rnd j ≤ 1) {s : CascStats K} (hs : WeightsOk s) (mv : XF K) :
    ∀ (v : List K) (prev : Option K) (st : CascVars K), (∀ x ∈ v, 0 ≤ x) → (∀ x, prev = some x → 0 ≤ x) →
      (prev ≠ none ∨ 2 ≤ v.length) → ∃ o, boxLoop rnd s mv prev v st = .ok o
  | [], _, _, _, _, _ => ⟨_, rfl⟩
  | x :: xs, prev, st, hv, hp, hlen => by
    have hh : prev ≠ none ∨ xs.head? ≠ none := by
      rcases hlen with h | h
      · exact .inl h
      · right; intro hx; rw [List.head?_eq_none_iff] at hx; subst hx; simp at h
    obtain ⟨⟨⟨a, b⟩, st1⟩, ho⟩ := boxStep_ok hr hs mv (x := x) hp
      (fun y hy => hv y (List.mem_cons_of_mem _ (List.mem_of_mem_head? hy))) hh st
    obtain ⟨⟨rest, st2⟩, h2⟩ := boxLoop_ok hr hs mv xs (some x) st1 (fun y hy => hv y (List.mem_cons_of_mem _ hy))
      (fun y hy => by cases hy; exact hv _ List.mem_cons_self) (.inl (by simp))
    exact ⟨_, by unfold boxLoop; rw [ho]; simp only [bind, Except.bind]; rw [h2]⟩

theorem levelLoop_ok {rnd : Nat → K} (hr : ∀ j, rnd j ≤ 1) {opts : CascOptions K} :
    ∀ (si : Nat), (∀ j < si, ∃ s mv, levelStats opts j = .ok (s, mv) ∧ WeightsOk s) → ∀ (v : List K) (st : CascVars K),
      (∀ x ∈ v, 0 ≤ x) → 2 ≤ v.length → ∃ ls, levelLoop rnd opts si v st = .ok ls
  | 0, _, _, _, _, _ => ⟨_, rfl⟩
  | si + 1, hopt, v, st, hv, hlen => by
    obtain ⟨s, mv, h1, hs⟩ := hopt si (by omega)
    obtain ⟨⟨vout, st1⟩, h2⟩ := boxLoop_ok hr hs mv v none st hv (by simp) (.inr hlen)
    have hsp := boxLoop_split h2
    obtain ⟨ls, h3⟩ := levelLoop_ok hr si (fun j hj => hopt j (by omega)) vout st1 hsp.nonneg (by rw [hsp.length]; omega)
    exact ⟨vout :: ls, by unfold levelLoop; rw [h1]; simp only [bind, Except.bind]; rw [h2]; simp only; rw [h3]⟩

/-! ### sub-daily grids -/

/-- the index of level `level`: `2^level` equal steps per day -/
def gridIndex (d0 : Int) (n level : Nat) : List Time :=
  (List.range (n * 2 ^ level)).map fun k : Nat => d0 * DAY + k * (42187500 * 2 ^ (11 - level))

theorem step_mul {level : Nat} (h : level ≤ 11) : (42187500 * 2 ^ (11 - level) : Int) * 2 ^ level = DAY := by
  interval_cases level <;> norm_num

theorem step_ge (m : Nat) : (42187500 : Int) ≤ 42187500 * 2 ^ m := by
  have : (1 : Int) ≤ 2 ^ m := one_le_pow₀ (by norm_num)
  omega

theorem subLevelIndex_daily (api : PandasApi) (d0 : Int) {n : Nat} (hn : 0 < n) (v : Nat → XF K) {level : Nat} (hl : level ≤ 11)
    (fg : Bool) : subLevelIndex api (Series.index (dailyS d0 n v)) level fg = .ok (gridIndex d0 n level) := by
  obtain ⟨n, rfl⟩ : ∃ m, n = m + 1 := ⟨n - 1, by omega⟩
  unfold subLevelIndex
  rw [dailyS_index_min, dailyS_index_max]
  simp only
  have hstep := step_mul hl
  have hge := step_ge (11 - level)
  have hr : dateRange (at00 d0) (replaceHMS (at00 (d0 + n)) 23 59 59) (42187500 * 2 ^ (11 - level)) = gridIndex d0 (n + 1) level := by
    unfold dateRange gridIndex
    generalize hS : (42187500 * 2 ^ (11 - level) : Int) = S at *
    have e : replaceHMS (at00 (d0 + n)) 23 59 59 = d0 * DAY + (n + 1) * DAY - 1000000 := by
      unfold replaceHMS dayOf at00; omega
    rw [e]
    have hm : ((2 : Int) ^ level) = ((2 ^ level : Nat) : Int) := by push_cast; rfl
    rw [if_neg (by unfold at00; omega)]
    have hcount : ((d0 * DAY + (n + 1) * DAY - 1000000 - at00 d0) / S + 1).toNat = (n + 1) * 2 ^ level := by
      have : (d0 * DAY + (n + 1) * DAY - 1000000 - at00 d0) / S = (n + 1) * 2 ^ level - 1 := by
        rw [Int.ediv_eq_iff_of_pos (by omega)]
        have h2 : ((n : Int) + 1) * 2 ^ level * S = (n + 1) * DAY := by rw [← hstep]; ring
        constructor
        · unfold at00; nlinarith
        · unfold at00; nlinarith
      rw [this]
      have : ((n : Int) + 1) * 2 ^ level - 1 + 1 = (((n + 1) * 2 ^ level : Nat) : Int) := by push_cast; ring
      rw [this, Int.toNat_natCast]
    rw [hcount]
    rfl
  rw [hr]
  have hlen : (gridIndex d0 (n + 1) level).length = (n + 1) * 2 ^ level := by simp [gridIndex]
  rw [if_neg]
  simp only [hlen, Series.index, List.length_map, dailyS_length]
  simp

/-! ### 5-minute sums -/

/-- sums over disjoint bins add up to the sum over their union -/
theorem sum_bins (bin : Time → Int) (bins : List Int) (hb : bins.Nodup) (s : Series K) :
    (bins.map fun q => ((s.filter fun r => bin r.1 == q).map Prod.snd).sum).sum =
      ((s.filter fun r => decide (bin r.1 ∈ bins)).map Prod.snd).sum := by
  induction s with
  | nil => simp
  | cons r s ih =>
    have e : (bins.map fun q => (((r :: s).filter fun r => bin r.1 == q).map Prod.snd).sum).sum =
        (bins.map fun q => (if q = bin r.1 then r.2 else 0) + ((s.filter fun r => bin r.1 == q).map Prod.snd).sum).sum := by
      congr 1
      apply List.map_congr_left
      intro q _
      by_cases h : bin r.1 = q
      · simp [List.filter_cons, h]
      · have h' : ¬ q = bin r.1 := fun h' => h h'.symm
        simp [List.filter_cons, h, h']
    rw [e, List.sum_map_add, ih]
    have e2 : (bins.map fun q => if q = bin r.1 then r.2 else 0).sum = if bin r.1 ∈ bins then r.2 else 0 := by
      clear ih e
      induction bins with
      | nil => simp
      | cons b bs ih2 =>
        have hb' := List.nodup_cons.1 hb
        rw [List.map_cons, List.sum_cons, ih2 hb'.2]
        by_cases h : b = bin r.1
        · have : bin r.1 ∉ bs := h ▸ hb'.1
          simp [h, this]
        · have h' : ¬ bin r.1 = b := fun h' => h h'.symm
          simp [h, h']
    rw [e2]
    by_cases h : bin r.1 ∈ bins
    · simp [List.filter_cons, h]
    · simp [List.filter_cons, h]

/-- 5-minute sums keep the total of every day -/
theorem resample5min_day_sum (s : Series K) (d : Int) : (dayCells (resample5min s) d).sum = (dayCells s d).sum := by
  unfold resample5min
  cases hlo : s.index.min? with
  | none =>
    have : s = [] := by simpa [Series.index] using hlo
    subst this; simp [dayCells]
  | some a =>
    cases hhi : s.index.max? with
    | none =>
      have : s = [] := by simpa [Series.index] using hhi
      subst this; simp [Series.index] at hlo
    | some b =>
      simp only
      have ha := List.min?_eq_some_iff.1 hlo
      have hb := List.max?_eq_some_iff.1 hhi
      unfold dayCells
      rw [List.filter_map, List.map_map]
      set q0 := a / (5 * MINUTE) with hq0
      set M := (b / (5 * MINUTE) - q0 + 1).toNat with hM
      set bins : List Int := ((List.range M).filter fun k : Nat => decide ((q0 + (k : Int)) * (5 * MINUTE) / DAY = d)).map
        (fun k : Nat => q0 + (k : Int)) with hbins
      have hnd : bins.Nodup := by
        rw [hbins]
        refine List.Nodup.map ?_ ((List.nodup_range).filter _)
        intro x y h; simp at h; exact h
      have e := sum_bins (fun t => t / (5 * MINUTE)) bins hnd s
      rw [hbins, List.map_map, ← hbins] at e
      refine Eq.trans ?_ (e.trans ?_)
      · rfl
      · congr 2
        apply List.filter_congr
        intro r hr
        have h1 := ha.2 r.1 (List.mem_map.2 ⟨r, hr, rfl⟩)
        have h2 := hb.2 r.1 (List.mem_map.2 ⟨r, hr, rfl⟩)
        rw [decide_eq_decide, hbins, List.mem_map]
        constructor
        · rintro ⟨k, hk, hk'⟩
          have hk := List.mem_filter.1 hk
          have := hk.2
          simp only [decide_eq_true_eq] at this
          rw [hk'] at this
          omega
        · intro h
          refine ⟨(r.1 / (5 * MINUTE) - q0).toNat, ?_, ?_⟩
          · rw [List.mem_filter, List.mem_range]
            refine ⟨by omega, ?_⟩
            simp only [decide_eq_true_eq]
            omega
          · omega

theorem mem_resample5min {s : Series K} {r : Time × K} (h : r ∈ resample5min s) :
    r.1 % (5 * MINUTE) = 0 ∧ ∃ q, r.2 = ((s.filter fun r => r.1 / (5 * MINUTE) == q).map Prod.snd).sum := by
  unfold resample5min at h
  split at h
  · obtain ⟨k, _, rfl⟩ := List.mem_map.1 h
    refine ⟨by simp only; omega, _, rfl⟩
  · simp at h

theorem resample5min_index {s : Series K} {a b : Time} (ha : s.index.min? = some a) (hb : s.index.max? = some b) :
    (resample5min s).index = (List.range (b / (5 * MINUTE) - a / (5 * MINUTE) + 1).toNat).map
      fun k : Nat => (a / (5 * MINUTE) + (k : Int)) * (5 * MINUTE) := by
  unfold resample5min
  rw [ha, hb]
  simp [Series.index, Function.comp_def]

theorem dayCells_restoreMissing (missing : List Time) (s : Series K) (d : Int) :
    dayCells (restoreMissing missing s) d =
      (dayCells s d).map fun x => if (missing.map dayOf).contains d then XF.nan else .fin x := by
  unfold restoreMissing dayCells
  rw [List.filter_map, List.map_map, List.map_map]
  apply List.map_congr_left
  intro r hr
  have := (List.mem_filter.1 hr).2
  simp only [Function.comp_def, decide_eq_true_eq] at this
  simp only [Function.comp_def]
  rw [show dayOf r.1 = d from this]

/-- block `i` of an index range -/
theorem filter_range_div (m n i : Nat) (hm : 0 < m) (hi : i < n) :
    (List.range (n * m)).filter (fun k => decide (k / m = i)) = (List.range m).map (m * i + ·) := by
  have hle : i * m + m ≤ n * m := by
    have : (i + 1) * m ≤ n * m := Nat.mul_le_mul_right _ hi
    linarith [Nat.add_mul i 1 m]
  have h1 : List.range (n * m) = List.range' 0 (i * m) ++ (List.range' (i * m) m ++ List.range' (i * m + m) (n * m - (i * m + m))) := by
    rw [List.range_eq_range', List.range'_append_1]
    have := List.range'_append_1 (s := 0) (m := i * m) (n := m + (n * m - (i * m + m)))
    rw [zero_add] at this
    rw [this]
    congr 1
    omega
  rw [h1, List.filter_append, List.filter_append]
  have e1 : (List.range' 0 (i * m)).filter (fun k => decide (k / m = i)) = [] := by
    rw [List.filter_eq_nil_iff]
    intro k hk
    rw [List.mem_range'_1] at hk
    have : k / m < i := (Nat.div_lt_iff_lt_mul hm).2 (by omega)
    simp; omega
  have e3 : (List.range' (i * m + m) (n * m - (i * m + m))).filter (fun k => decide (k / m = i)) = [] := by
    rw [List.filter_eq_nil_iff]
    intro k hk
    rw [List.mem_range'_1] at hk
    have : i + 1 ≤ k / m := (Nat.le_div_iff_mul_le hm).2 (by rw [Nat.add_mul]; omega)
    simp; omega
  have e2 : (List.range' (i * m) m).filter (fun k => decide (k / m = i)) = List.range' (i * m) m := by
    rw [List.filter_eq_self]
    intro k hk
    rw [List.mem_range'_1] at hk
    simp only [decide_eq_true_eq]
    rw [Nat.div_eq_iff hm]
    constructor
    · omega
    · omega
  rw [e1, e2, e3, List.nil_append, List.append_nil, List.range'_eq_map_range]
  simp [mul_comm]

/-- the series on the grid of a level with values `w` -/
def gridS (d0 : Int) (n level : Nat) (w : List K) : Series K :=
  (List.range (n * 2 ^ level)).map fun k : Nat => (d0 * DAY + k * (42187500 * 2 ^ (11 - level)), w.getD k 0)

theorem make_grid {d0 : Int} {n level : Nat} {w : List K} (hw : w.length = n * 2 ^ level) :
    Series.make (gridIndex d0 n level) w = .ok (gridS d0 n level w) := by
  unfold Series.make
  rw [if_pos (by simp [gridIndex, hw])]
  congr 1
  apply List.ext_getElem
  · simp [gridIndex, gridS, hw]
  · intro k h1 h2
    have hk : k < n * 2 ^ level := by simpa [gridS] using h2
    simp only [gridIndex, gridS, List.getElem_zip, List.getElem_map, List.getElem_range]
    congr 1
    rw [List.getD_eq_getElem?_getD, List.getElem?_eq_getElem (by omega)]
    rfl

theorem gridS_index (d0 : Int) (n level : Nat) (w : List K) : (gridS d0 n level w).index = gridIndex d0 n level := by
  simp [gridS, gridIndex, Series.index, Function.comp_def]

theorem grid_day {level : Nat} (hl : level ≤ 11) (d0 : Int) (k : Nat) :
    (d0 * DAY + k * (42187500 * 2 ^ (11 - level))) / DAY = d0 + (k / 2 ^ level : Nat) := by
  have hs := step_mul hl
  have hge := step_ge (11 - level)
  generalize (42187500 * 2 ^ (11 - level) : Int) = S at *
  rw [Int.ediv_eq_iff_of_pos (by norm_num)]
  have hd := Nat.div_add_mod k (2 ^ level)
  have hm := Nat.mod_lt k (show 0 < 2 ^ level by positivity)
  have h1 : (k : Int) = 2 ^ level * (k / 2 ^ level : Nat) + (k % 2 ^ level : Nat) := by
    have : (k : Int) = ((2 ^ level * (k / 2 ^ level) + k % 2 ^ level : Nat) : Int) := by rw [hd]
    rw [this]; push_cast; ring
  have h2 : ((k % 2 ^ level : Nat) : Int) < 2 ^ level := by exact_mod_cast hm
  have h3 : (0 : Int) ≤ (k % 2 ^ level : Nat) := by positivity
  have h4 : (k : Int) * S = (k / 2 ^ level : Nat) * DAY + (k % 2 ^ level : Nat) * S := by
    rw [h1, add_mul, ← hs]; ring
  rw [h4]
  generalize ((k % 2 ^ level : Nat) : Int) = r at *
  generalize ((k / 2 ^ level : Nat) : Int) = q at *
  have h5 : r * S < DAY := by rw [← hs, mul_comm S]; exact mul_lt_mul_of_pos_right h2 (by omega)
  have h6 : 0 ≤ r * S := mul_nonneg h3 (by omega)
  constructor <;> linarith

theorem dayCells_grid {d0 : Int} {n level : Nat} (hl : level ≤ 11) {w : List K} (hw : w.length = 2 ^ level * n) {i : Nat} (hi : i < n) :
    dayCells (gridS d0 n level w) (d0 + i) = (w.drop (2 ^ level * i)).take (2 ^ level) := by
  unfold dayCells gridS
  rw [List.filter_map, List.map_map]
  have e : (List.range (n * 2 ^ level)).filter
      ((fun r : Time × K => decide (r.1 / DAY = d0 + (i : Int))) ∘ fun k : Nat => (d0 * DAY + k * (42187500 * 2 ^ (11 - level)), w.getD k 0)) =
      (List.range (n * 2 ^ level)).filter (fun k => decide (k / 2 ^ level = i)) := by
    apply List.filter_congr
    intro k _
    simp only [Function.comp_def]
    rw [grid_day hl, decide_eq_decide]
    omega
  rw [e, filter_range_div _ _ _ (by positivity) hi, List.map_map]
  have hle : 2 ^ level * i + 2 ^ level ≤ w.length := by
    rw [hw]
    have : 2 ^ level * (i + 1) ≤ 2 ^ level * n := Nat.mul_le_mul_left _ hi
    linarith [Nat.mul_add (2 ^ level) i 1]
  rw [block_eq_map _ _ _ hle]
  rfl

theorem gridIndex_sorted (d0 : Int) (n level : Nat) : (gridIndex d0 n level).Pairwise (· < ·) := by
  unfold gridIndex
  rw [List.pairwise_map]
  refine (List.pairwise_lt_range (n := n * 2 ^ level)).imp ?_
  intro a b h
  have hge := step_ge (11 - level)
  generalize (42187500 * 2 ^ (11 - level) : Int) = S at *
  have : (a : Int) < b := by exact_mod_cast h
  nlinarith

theorem gridIndex_min {d0 : Int} {n level : Nat} (hn : 0 < n) : (gridIndex d0 n level).min? = some (d0 * DAY) := by
  rw [List.min?_eq_some_iff]
  constructor
  · unfold gridIndex
    rw [List.mem_map]
    exact ⟨0, List.mem_range.2 (by positivity), by simp⟩
  · intro t ht
    unfold gridIndex at ht
    obtain ⟨k, _, rfl⟩ := List.mem_map.1 ht
    have hge := step_ge (11 - level)
    have : (0 : Int) ≤ k * (42187500 * 2 ^ (11 - level)) := by positivity
    omega

theorem gridIndex_max {d0 : Int} {n level : Nat} (hn : 0 < n) (hl : level ≤ 11) :
    (gridIndex d0 n level).max? = some (d0 * DAY + n * DAY - 42187500 * 2 ^ (11 - level)) := by
  have hs := step_mul hl
  have hge := step_ge (11 - level)
  have hp : 0 < n * 2 ^ level := by positivity
  have hlast : (d0 * DAY + n * DAY - 42187500 * 2 ^ (11 - level) : Int) =
      d0 * DAY + ((n * 2 ^ level - 1 : Nat) : Int) * (42187500 * 2 ^ (11 - level)) := by
    generalize (42187500 * 2 ^ (11 - level) : Int) = S at *
    rw [Nat.cast_sub (by omega)]
    push_cast
    rw [sub_mul, ← hs]
    ring
  rw [List.max?_eq_some_iff, hlast]
  constructor
  · unfold gridIndex
    rw [List.mem_map]
    exact ⟨n * 2 ^ level - 1, List.mem_range.2 (by omega), rfl⟩
  · intro t ht
    unfold gridIndex at ht
    obtain ⟨k, hk, rfl⟩ := List.mem_map.1 ht
    have hk := List.mem_range.1 hk
    have : (k : Int) ≤ ((n * 2 ^ level - 1 : Nat) : Int) := by exact_mod_cast (by omega : k ≤ n * 2 ^ level - 1)
    generalize (42187500 * 2 ^ (11 - level) : Int) = S at *
    nlinarith

theorem resample_grid_index {d0 : Int} {n level : Nat} (hn : 0 < n) (h9 : 9 ≤ level) (hl : level ≤ 11) (w : List K) :
    (resample5min (gridS d0 n level w)).index =
      (List.range (288 * n)).map fun k : Nat => d0 * DAY + k * (5 * MINUTE) := by
  rw [resample5min_index (a := d0 * DAY) (b := d0 * DAY + n * DAY - 42187500 * 2 ^ (11 - level))
    (by rw [gridS_index]; exact gridIndex_min hn) (by rw [gridS_index]; exact gridIndex_max hn hl)]
  have hc : ((d0 * DAY + n * DAY - 42187500 * 2 ^ (11 - level)) / (5 * MINUTE) - d0 * DAY / (5 * MINUTE) + 1).toNat = 288 * n := by
    interval_cases level <;> norm_num <;> omega
  rw [hc]
  apply List.map_congr_left
  intro k _
  omega

/-- number of 5-minute values per day, levels 9 to 11 -/
theorem resample_grid_day_length {d0 : Int} {n level : Nat} (h9 : 9 ≤ level) (hl : level ≤ 11) (w : List K) {i : Nat} (hi : i < n) :
    (dayCells (resample5min (gridS d0 n level w)) (d0 + i)).length = 288 := by
  have hidx := resample_grid_index (d0 := d0) (by omega : 0 < n) h9 hl w
  have e : (dayCells (resample5min (gridS d0 n level w)) (d0 + i)).length =
      ((resample5min (gridS d0 n level w)).index.filter fun t => decide (t / DAY = d0 + (i : Int))).length := by
    unfold dayCells Series.index
    rw [List.filter_map, List.length_map, List.length_map]
    rfl
  rw [e, hidx, List.filter_map, List.length_map]
  have : (List.range (288 * n)).filter ((fun t : Int => decide (t / DAY = d0 + (i : Int))) ∘ fun k : Nat => d0 * DAY + k * (5 * MINUTE)) =
      (List.range (n * 288)).filter (fun k => decide (k / 288 = i)) := by
    rw [mul_comm 288 n]
    apply List.filter_congr
    intro k _
    simp only [Function.comp_def]
    rw [decide_eq_decide]
    omega
  rw [this, filter_range_div _ _ _ (by norm_num) hi]
  simp

/-- the 5-minute cascade in normal form -/
theorem cascade_5min_eq {api : PandasApi} {rnd : Nat → K} {opts : CascOptions K} {level : Nat} {test : Bool} {r : CascadeOut K}
    {d0 : Int} {n : Nat} {v : Nat → XF K}
    (h : disaggPrecCascade api rnd (dailyS d0 n v) opts false level 0 test = .ok r) :
    2 ≤ n ∧ 1 ≤ level ∧ level ≤ 11 ∧ (∀ i < n, (v i).NanOrFin) ∧ ∃ w, w.length = 2 ^ level * n ∧ (∀ y ∈ w, 0 ≤ y) ∧
      r.series = restoreMissing (((dailyS d0 n v).filter fun r => r.2.isNan).map Prod.fst) (resample5min (gridS d0 n level w)) ∧
      ∀ i < n, ∀ x, v i = .fin x → (dayCells (gridS d0 n level w) (d0 + i)).sum = max x 0 := by
  obtain ⟨hl, u, levels, fine, s, hz, hlev1, hc, hlev, ha, rfl⟩ := disagg_inv h
  rw [dailyS_length] at hl
  rw [dailyS_values] at hz
  obtain ⟨z1, z2⟩ := zeroMissing_ok hz
  have hcell : ∀ i < n, (v i).NanOrFin := fun i hi => (z2 i (v i) (by simp [hi])).1
  simp only [Bool.false_eq_true, if_false] at hlev hc hlev1
  obtain ⟨l, rfl⟩ : ∃ l, level = l + 1 := ⟨level - 1, by omega⟩
  have hb := levelLoop_last hlev
  have hlen : (levels.getLastD []).length = 2 ^ (l + 1) * n := by rw [hb.length, z1]; simp
  unfold assembleSeries at ha
  simp only [Bool.false_eq_true, if_false] at ha
  rw [subLevelIndex_daily api d0 (by omega) v (by omega)] at ha
  simp only [bind, Except.bind] at ha
  rw [make_grid (by rw [hlen, mul_comm])] at ha
  injection ha with ha
  injection ha with ha1 ha2
  refine ⟨hl, hlev1.1, hlev1.2, hcell, levels.getLastD [], hlen, hb.nonneg, ?_, ?_⟩
  · simp only [← ha2]; simp
  · intro i hi x hx
    rw [dayCells_grid hlev1.2 hlen hi]
    exact (hb.block ((z2 i (v i) (by simp [hi])).2.1 x hx)).2

/-! ### deterministic statistics -/

theorem boxLoop_second {rnd : Nat → K} (hr : ∀ j, 0 < rnd j ∧ rnd j ≤ 1) {s : CascStats K} {mv : XF K} (sel : K → Bool)
    (hsel : ∀ x t, 0 < x → s.p01 (if XF.lt mv (.fin x) then 1 else 0) t = .fin (if sel x then 1 else 0) ∧
      s.p10 (if XF.lt mv (.fin x) then 1 else 0) t = .fin (if sel x then 0 else 1)) :
    ∀ (v : List K) (prev : Option K) (st st' : CascVars K) (out : List K), (∀ x ∈ v, 0 ≤ x) →
      boxLoop rnd s mv prev v st = .ok (out, st') → out = v.flatMap fun x => if sel x then [0, x] else [x, 0]
  | [], _, _, _, _, _, h => by unfold boxLoop at h; cases h; rfl
  | x :: xs, prev, st, st', out, hv, h => by
    obtain ⟨a, b, st1, rest, h1, h2, rfl⟩ := boxLoop_cons h
    have ih := boxLoop_second hr sel hsel xs _ _ _ _ (fun y hy => hv y (by simp [hy])) h2
    rw [List.flatMap_cons, ← ih]
    have hab : [a, b] = if sel x then [0, x] else [x, 0] := by
      unfold boxStep at h1
      split at h1
      · rename_i hx
        obtain ⟨vb, hvb, h1⟩ := Except.bind_ok h1
        simp only at h1
        cases vb with
        | none => cases h1
        | some ty =>
          simp only at h1
          obtain ⟨e1, e2⟩ := hsel x ty.col hx
          rw [e1, e2] at h1
          obtain ⟨r1, r2⟩ := hr st.draws
          cases hs : sel x with
          | true => rw [hs] at h1; simp [r2] at h1; simp [h1.1.1, h1.1.2]
          | false => rw [hs] at h1; simp [r2, not_le.2 r1, r1] at h1; simp [h1.1.1, h1.1.2]
      · rename_i hx
        cases h1
        have : x = 0 := le_antisymm (not_lt.1 hx) (hv x (by simp))
        subst this
        simp
    rw [← hab]
    rfl

theorem levelLoop_deterministic {rnd : Nat → K} (hr : ∀ j, 0 < rnd j ∧ rnd j ≤ 1) {opts : CascOptions K} (sel : Nat → K → Bool) :
    ∀ (si : Nat), (∀ j < si, ∀ s mv, levelStats opts j = .ok (s, mv) → ∀ x t, 0 < x →
        s.p01 (if XF.lt mv (.fin x) then 1 else 0) t = .fin (if sel j x then 1 else 0) ∧
        s.p10 (if XF.lt mv (.fin x) then 1 else 0) t = .fin (if sel j x then 0 else 1)) →
      ∀ (v : List K) (st : CascVars K) (ls : List (List K)), (∀ x ∈ v, 0 ≤ x) → levelLoop rnd opts si v st = .ok ls →
      ∀ (l : Nat) (p c : List K), (v :: ls)[l]? = some p → ls[l]? = some c →
        c = p.flatMap fun x => if sel (si - 1 - l) x then [0, x] else [x, 0]
  | 0, _, v, st, ls, _, h => by unfold levelLoop at h; cases h; intro l p c _ hc; simp at hc
  | si + 1, hsel, v, st, ls, hv, h => by
    obtain ⟨s, mv, vout, st1, rest, h1, h2, h3, rfl⟩ := levelLoop_succ h
    intro l p c hp hc
    cases l with
    | zero =>
      simp at hp hc
      subst hp; subst hc
      exact boxLoop_second hr (sel si) (hsel si (by omega) s mv h1) _ _ _ _ _ hv h2
    | succ l =>
      have := levelLoop_deterministic hr sel si (fun j hj => hsel j (by omega)) vout st1 rest (boxLoop_split h2).nonneg h3 l p c
        (by simpa using hp) (by simpa using hc)
      rw [this, show si + 1 - 1 - (l + 1) = si - 1 - l by omega]

/-- the arrays of the first `L` levels only depend on the options used there -/
theorem levelLoop_local {rnd : Nat → K} {opts opts' : CascOptions K} :
    ∀ (si L : Nat), L ≤ si → (∀ j, si - L ≤ j → j < si → levelStats opts j = levelStats opts' j) →
      ∀ (v : List K) (st : CascVars K) (ls ls' : List (List K)), levelLoop rnd opts si v st = .ok ls →
        levelLoop rnd opts' si v st = .ok ls' → ls.take L = ls'.take L
  | si, 0, _, _, _, _, _, _, _, _ => by simp
  | 0, L + 1, h, _, _, _, _, _, _, _ => by omega
  | si + 1, L + 1, hL, hag, v, st, ls, ls', h, h' => by
    obtain ⟨s, mv, vout, st1, rest, h1, h2, h3, rfl⟩ := levelLoop_succ h
    obtain ⟨s', mv', vout', st1', rest', h1', h2', h3', rfl⟩ := levelLoop_succ h'
    rw [← hag si (by omega) (by omega), h1] at h1'
    cases h1'
    rw [h2] at h2'
    cases h2'
    have := levelLoop_local si L (by omega) (fun j hj hj' => hag j (by omega) (by omega)) vout st1 rest rest' h3 h3'
    simp [this]

end Melodist
