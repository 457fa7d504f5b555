import Verif.Lemmas.Radiation
import Verif.Props.HumidityStats

/-!
# Helper lemmas: the daily radiation models
-/

set_option linter.unusedSectionVars false

namespace Melodist
open Spec

noncomputable section

theorem monthValues_ok {K : Type} {tab : List (Int × XF K)} {I : List Time} {a : Int → XF K}
    (h : ∀ t ∈ I, tab.find? (fun r => r.1 == monthOf t) = some (monthOf t, a (monthOf t))) :
    monthValues tab (I.map monthOf) = .ok (I.map fun t => a (monthOf t)) := by
  unfold monthValues
  rw [mapM_ok (g := a)]
  · rw [List.map_map]; rfl
  · intro m hm
    obtain ⟨t, ht, rfl⟩ := List.mem_map.1 hm
    rw [h t ht]

theorem par_values {K : Type} {par : ParPair K} {I : List Time} {a b : Int → XF K}
    (h : ∀ t ∈ I, ParAt par (monthOf t) (a (monthOf t)) (b (monthOf t))) :
    par.values (I.map monthOf) = .ok (I.map fun t => (a (monthOf t), b (monthOf t))) := by
  cases par with
  | scalar a' b' =>
    unfold ParPair.values
    dsimp only
    rw [List.map_map]
    congr 1
    apply List.map_congr_left
    intro t ht
    obtain ⟨rfl, rfl⟩ := h t ht
    simp only [Function.comp_def]
  | monthly ta tb =>
    unfold ParPair.values
    dsimp only
    rw [monthValues_ok fun t ht => (h t ht).1, py_ok_bind, monthValues_ok fun t ht => (h t ht).2, py_ok_bind,
      List.zip_eq_zipWith, List.zipWith_map, List.zipWith_self]

theorem align_same {K : Type} [Field K] [LinearOrder K] (f : XF K → XF K → XF K) (I : List Time) (a b : Time → XF K) :
    Series.align f (I.map fun t => (t, a t)) (I.map fun t => (t, b t)) = .ok (I.map fun t => (t, f (a t) (b t))) := by
  unfold Series.align
  rw [if_pos (by simp [Series.index, Function.comp_def])]
  congr 1
  rw [List.zipWith_map, List.zipWith_self]

theorem angstroem_eq {K : Type} [Field K] [LinearOrder K] {par : ParPair K} {I : List Time} {a b : Int → XF K} (s L p : Time → XF K)
    (h : ∀ t ∈ I, ParAt par (monthOf t) (a (monthOf t)) (b (monthOf t))) :
    angstroem (I.map fun t => (t, s t)) (I.map fun t => (t, L t)) (I.map fun t => (t, p t)) par =
      .ok (I.map fun t => (t, (a (monthOf t) + b (monthOf t) * s t / L t) * p t)) := by
  unfold angstroem
  have hi : Series.index (I.map fun t => (t, s t)) = I := by simp [Series.index, Function.comp_def]
  rw [hi, par_values h, py_ok_bind]
  dsimp only
  rw [List.zip_eq_zipWith, List.zipWith_map, List.zipWith_self, List.map_map]
  have e : (I.map ((fun r : (Time × XF K) × (XF K × XF K) => (r.1.1, r.2.2 * r.1.2)) ∘ fun t => ((t, s t), (a (monthOf t), b (monthOf t))))) =
      I.map fun t => (t, b (monthOf t) * s t) := rfl
  rw [e, align_same, py_ok_bind]
  cases par with
  | scalar a' b' =>
    dsimp only
    rw [List.map_map, py_ok_bind]
    have e : (I.map ((fun r : Time × XF K => (r.1, a' + r.2)) ∘ fun t => (t, b (monthOf t) * s t / L t))) =
        I.map fun t => (t, a (monthOf t) + b (monthOf t) * s t / L t) := by
      apply List.map_congr_left
      intro t ht
      rw [← (h t ht).1]; rfl
    rw [e, align_same]
  | monthly ta tb =>
    dsimp only
    rw [if_pos (by simp), py_ok_bind, List.zip_eq_zipWith, List.zipWith_map, List.zipWith_self, List.map_map]
    have e : (I.map ((fun r : (Time × XF K) × (XF K × XF K) => (r.1.1, r.2.1 + r.1.2)) ∘
        fun t => ((t, b (monthOf t) * s t / L t), (a (monthOf t), b (monthOf t))))) =
        I.map fun t => (t, a (monthOf t) + b (monthOf t) * s t / L t) := rfl
    rw [e, align_same]

theorem locAll_ok {V : Type} {s : Series V} {I : List Time} {v : Time → V} (h : ∀ t ∈ I, s.at? t = some (v t)) :
    s.locAll I = .ok (I.map fun t => (t, v t)) := by
  unfold Series.locAll
  apply mapM_ok
  intro t ht
  rw [h t ht]

theorem mapAt? {I : List Time} {V : Type} (f : Time → V) {t : Time} (ht : t ∈ I) : Series.at? (I.map fun t => (t, f t)) t = some (f t) := by
  unfold Series.at?
  induction I with
  | nil => simp at ht
  | cons x l ih =>
    rw [List.map_cons, List.find?_cons]
    by_cases hx : x = t
    · subst hx; simp
    · have : t ∈ l := by
        rcases List.mem_cons.1 ht with h | h
        · exact absurd h.symm hx
        · exact h
      rw [← ih this]
      have hb : (x == t) = false := by simpa using hx
      dsimp only
      rw [hb]

/-- the daily values of the sunshine method -/
theorem ssdDaily_eq {daily : Frame ℝ} {d0 d1 : Int} {n m : Nat} (hi : daily.index = (List.range n).map fun i : Nat => at00 (d0 + i))
    {s : Nat → XF ℝ} (hs : daily.col? "ssd" = some (dailyS d0 n s)) (st : Nat → SunTimes) (q : Nat → XF ℝ) (h1 : d1 ≤ d0) (h2 : d0 + n ≤ d1 + m)
    {par : ParPair ℝ} {a b : Int → XF ℝ}
    (h : ∀ i : Nat, i < n → ParAt par (monthOf (at00 (d0 + i))) (a (monthOf (at00 (d0 + i)))) (b (monthOf (at00 (d0 + i))))) :
    ssdDaily daily (some (dailyS d0 n st)) (dailyS d1 m q) par = .ok (dailyS d0 n fun i =>
      if XF.lt (.fin 0) (st i).daylength then
        (a (monthOf (at00 (d0 + i))) + b (monthOf (at00 (d0 + i))) * s i / (st i).daylength) * q (d0 + i - d1).toNat
      else .fin 0) := by
  have hsub : ∀ t ∈ Series.index ((dailyS d0 n st).filter fun r => decide (XF.lt (.fin 0) r.2.daylength)),
      ∃ i < n, t = at00 (d0 + (i : Nat)) ∧ XF.lt (.fin 0) (st i).daylength := by
    intro t ht
    obtain ⟨r, hr, rfl⟩ := List.mem_map.1 ht
    obtain ⟨h1, h2⟩ := List.mem_filter.1 hr
    obtain ⟨i, hi, rfl⟩ := List.mem_map.1 h1
    exact ⟨i, List.mem_range.1 hi, rfl, of_decide_eq_true h2⟩
  have hidx : ∀ i : Nat, ((at00 (d0 + (i : Nat))) / DAY - d0).toNat = i := by
    intro i
    unfold at00
    rw [Int.mul_ediv_cancel _ (by decide)]
    omega
  unfold ssdDaily
  dsimp only
  rw [attr_ok hs, py_ok_bind]
  rw [locAll_ok (v := fun t => s (t / DAY - d0).toNat)]
  swap
  · intro t ht
    obtain ⟨i, hi, rfl, _⟩ := hsub t ht
    rw [dailyS_at? d0 s hi, hidx]
  rw [py_ok_bind, dailyS_map, locAll_ok (v := fun t => (st (t / DAY - d0).toNat).daylength)]
  swap
  · intro t ht
    obtain ⟨i, hi, rfl, _⟩ := hsub t ht
    rw [dailyS_at? d0 _ hi, hidx]
  rw [py_ok_bind, locAll_ok (v := fun t => q (t / DAY - d1).toNat)]
  swap
  · intro t ht
    obtain ⟨i, hi, rfl, _⟩ := hsub t ht
    have e : d0 + (i : Int) = d1 + ((d0 + i - d1).toNat : Int) := by omega
    rw [e, dailyS_at? d1 _ (by omega)]
    unfold at00
    rw [Int.mul_ediv_cancel _ (by decide), ← e]
  rw [py_ok_bind, angstroem_eq (a := a) (b := b)]
  swap
  · intro t ht
    obtain ⟨i, hi, rfl, _⟩ := hsub t ht
    exact h i hi
  rw [py_ok_bind, hi, List.map_map]
  congr 1
  unfold dailyS
  apply List.map_congr_left
  intro i hi'
  have hi' := List.mem_range.1 hi'
  simp only [Function.comp_def]
  congr 1
  by_cases hL : XF.lt (.fin 0) (st i).daylength
  · have hmem : at00 (d0 + (i : Nat)) ∈ Series.index ((dailyS d0 n st).filter fun r => decide (XF.lt (.fin 0) r.2.daylength)) :=
      List.mem_map.2 ⟨(at00 (d0 + i), st i), List.mem_filter.2 ⟨List.mem_map.2 ⟨i, List.mem_range.2 hi', rfl⟩, decide_eq_true hL⟩, rfl⟩
    rw [if_pos hL]
    have hc := List.elem_eq_true_of_mem hmem
    rw [if_pos]
    · have := mapAt? (fun t => (a (monthOf t) + b (monthOf t) * s (t / DAY - d0).toNat / (st (t / DAY - d0).toNat).daylength) * q (t / DAY - d1).toNat) hmem
      unfold dailyS at this
      rw [this, Option.getD_some, hidx]
      unfold at00
      rw [Int.mul_ediv_cancel _ (by decide)]
    · exact hc
  · rw [if_neg hL, if_neg]
    intro hc
    obtain ⟨k, hk, e, hL'⟩ := hsub _ (List.mem_of_elem_eq_true hc)
    have : i = k := by unfold at00 at e; omega
    subst this
    exact hL hL'

theorem zip_maps {α β γ : Type} (l : List α) (f : α → β) (g : α → γ) : (l.map f).zip (l.map g) = l.map fun x => (f x, g x) := by
  rw [List.zip_eq_zipWith, List.zipWith_map, List.zipWith_self]

theorem zip_daily {V γ : Type} (d0 : Int) (n : Nat) (v : Nat → V) (g : Nat → γ) :
    (dailyS d0 n v).zip ((List.range n).map g) = (List.range n).map fun i : Nat => ((at00 (d0 + i), v i), g i) := zip_maps _ _ _

theorem dateRange_daily (d0 : Int) {n : Nat} (hn : 0 < n) :
    dateRange (at00 d0) (at00 (d0 + (n - 1 : Nat))) DAY = (List.range n).map fun i : Nat => at00 (d0 + i) := by
  unfold dateRange at00
  rw [if_neg (by omega)]
  have : (((d0 + ((n - 1 : Nat) : Int)) * DAY - d0 * DAY) / DAY + 1).toNat = n := by
    rw [← sub_mul, Int.mul_ediv_cancel _ (by decide)]
    omega
  rw [this]
  apply List.map_congr_left
  intro k _
  ring

theorem dailyS_reindex_self (d0 : Int) (n : Nat) (v : Nat → XF ℝ) :
    Series.reindex (dailyS d0 n v) ((List.range n).map fun i : Nat => at00 (d0 + i)) = .ok (dailyS d0 n v) := by
  unfold Series.reindex
  have hnd : (Series.index (dailyS d0 n v)).Nodup := (dailyS_index_sorted d0 n v).imp fun h => h.ne
  rw [if_pos hnd, List.map_map]
  congr 1
  conv_rhs => rw [dailyS]
  apply List.map_congr_left
  intro i hi
  simp only [Function.comp_def]
  rw [dailyS_at? d0 v (List.mem_range.1 hi)]
  rfl

theorem bcRows_daily (d0 : Int) (n : Nat) (tmin tmax : Nat → XF ℝ) :
    bcRows (dailyS d0 n tmin) (dailyS d0 n tmax) = dailyS d0 n fun i => (tmin i, tmax i, nextMin n tmin i) := by
  unfold bcRows
  apply List.ext_getElem
  · simp [dailyS]
  · intro i h1 h2
    have hi : i < n := by simpa [dailyS] using h2
    rw [List.getElem_map, List.getElem_zip]
    simp only [dailyS, List.getElem_zipIdx, List.getElem_map, List.getElem_range, List.length_map, List.length_range, Series.values, List.map_map,
      Nat.zero_add]
    unfold nextMin
    by_cases hn : i + 1 < n
    · rw [if_pos hn, if_pos hn, List.getElem?_eq_getElem (by simpa using hn)]
      simp
    · rw [if_neg hn, if_neg hn]

/-- `bristow_campbell` as a formula -/
theorem bc_eq (d0 d1 : Int) {n m : Nat} (hn : 0 < n) (tmin tmax q : Nat → XF ℝ) (h1 : d1 ≤ d0) (h2 : d0 + n ≤ d1 + m)
    {par : ParPair ℝ} {a c : Int → XF ℝ}
    (h : ∀ i : Nat, i < n → ParAt par (monthOf (at00 (d0 + i))) (a (monthOf (at00 (d0 + i)))) (c (monthOf (at00 (d0 + i))))) :
    bristowCampbell (dailyS d0 n tmin) (dailyS d0 n tmax) (dailyS d1 m q) par = .ok (dailyS d0 n fun i =>
      a (monthOf (at00 (d0 + i))) * (.fin 1 - XF.exp (-(.fin 0.036 * XF.exp (.fin (-0.154) * meanSkip (bcMonthRanges d0 n tmin tmax i))) *
        XF.pow (bcRange n tmin tmax i) (c (monthOf (at00 (d0 + i)))))) * q (d0 + i - d1).toNat) := by
  unfold bristowCampbell
  rw [if_neg (by rw [not_not]; exact dailyS_index_congr d0 n tmin tmax)]
  have hh : (Series.index (dailyS d0 n tmin)).head? = some (at00 d0) := by
    rw [dailyS_index]
    obtain ⟨k, rfl⟩ : ∃ k, n = k + 1 := ⟨n - 1, by omega⟩
    rw [List.range_succ_eq_map]
    simp
  have hl : (Series.index (dailyS d0 n tmin)).getLast? = some (at00 (d0 + (n - 1 : Nat))) := by
    rw [dailyS_index]
    obtain ⟨k, rfl⟩ : ∃ k, n = k + 1 := ⟨n - 1, by omega⟩
    rw [List.range_succ, List.map_append]
    simp
  rw [hh, hl]
  dsimp only
  rw [dateRange_daily d0 hn, dailyS_reindex_self, py_ok_bind, dailyS_reindex_self, py_ok_bind, bcRows_daily, dailyS_index]
  rw [locAll_ok (v := fun t => (fun i => (tmin i, tmax i, nextMin n tmin i)) (t / DAY - d0).toNat)]
  swap
  · intro t ht
    obtain ⟨i, hi, rfl⟩ := List.mem_map.1 ht
    rw [dailyS_at? d0 _ (List.mem_range.1 hi)]
    unfold at00
    rw [Int.mul_ediv_cancel _ (by decide), show (d0 + (i : Int) - d0).toNat = i by omega]
  rw [py_ok_bind, locAll_ok (v := fun t => q (t / DAY - d1).toNat)]
  swap
  · intro t ht
    obtain ⟨i, hi, rfl⟩ := List.mem_map.1 ht
    have hi := List.mem_range.1 hi
    have e : d0 + (i : Int) = d1 + ((d0 + i - d1).toNat : Int) := by omega
    rw [e, dailyS_at? d1 _ (by omega)]
    unfold at00
    rw [Int.mul_ediv_cancel _ (by decide), ← e]
  rw [py_ok_bind, par_values (a := a) (b := c)]
  swap
  · intro t ht
    obtain ⟨i, hi, rfl⟩ := List.mem_map.1 ht
    exact h i (List.mem_range.1 hi)
  rw [py_ok_bind]
  congr 1
  have eT : (((List.range n).map fun i : Nat => at00 (d0 + i)).map fun t =>
      (t, (fun i => (tmin i, tmax i, nextMin n tmin i)) (t / DAY - d0).toNat)).map
        (fun r : Time × XF ℝ × XF ℝ × XF ℝ => (r.1, r.2.2.1 - (r.2.1 + r.2.2.2) / .fin 2)) = dailyS d0 n (bcRange n tmin tmax) := by
    rw [List.map_map, List.map_map]
    unfold dailyS
    apply List.map_congr_left
    intro i _
    simp only [Function.comp_def]
    unfold at00
    rw [Int.mul_ediv_cancel _ (by decide), show (d0 + (i : Int) - d0).toNat = i by omega]
    rfl
  rw [eT]
  have eA : ∀ i : Nat, ((dailyS d0 n (bcRange n tmin tmax)).filter fun r => monthOf r.1 == monthOf (at00 (d0 + i))).map Prod.snd =
      bcMonthRanges d0 n tmin tmax i := by
    intro i
    unfold dailyS bcMonthRanges
    rw [List.filter_map, List.map_map]
    rfl
  rw [List.map_map, List.map_map, zip_maps, zip_daily, List.map_map]
  conv_rhs => rw [dailyS]
  apply List.map_congr_left
  intro i _
  simp only [Function.comp_def]
  rw [eA]
  congr 2
  unfold at00
  rw [Int.mul_ediv_cancel _ (by decide)]

end

end Melodist
