import Verif.Model.RadiationRound
import Verif.Lemmas.RadiationModels

/-!
# Helper lemmas: the radiation models in rounded arithmetic as formulas
-/

set_option linter.unusedSectionVars false

namespace Melodist
open Spec

noncomputable section

/-- the computed ranges of all days in the month of day `i` (of all years) -/
def monthRangesR (fl : ℝ → ℝ) (d0 : Int) (n : Nat) (tmin tmax : Nat → XF ℝ) (i : Nat) : List (XF ℝ) :=
  ((List.range n).filter fun j => monthOf (at00 (d0 + (j : Nat))) == monthOf (at00 (d0 + (i : Nat)))).map fun j => bcRangeR fl (tmin j) (tmax j) (nextMin n tmin j)

theorem angstroemR_eq (fl : ℝ → ℝ) {par : ParPair ℝ} {I : List Time} {a b : Int → XF ℝ} (s L p : Time → XF ℝ)
    (h : ∀ t ∈ I, ParAt par (monthOf t) (a (monthOf t)) (b (monthOf t))) :
    angstroemR fl (I.map fun t => (t, s t)) (I.map fun t => (t, L t)) (I.map fun t => (t, p t)) par =
      .ok (I.map fun t => (t, ((a (monthOf t) + ((b (monthOf t) * s t).rnd fl / L t).rnd fl).rnd fl * p t).rnd fl)) := by
  unfold angstroemR
  have hi : Series.index (I.map fun t => (t, s t)) = I := by simp [Series.index, Function.comp_def]
  rw [hi, par_values h, py_ok_bind]
  dsimp only
  rw [List.zip_eq_zipWith, List.zipWith_map, List.zipWith_self, List.map_map]
  have e : (I.map ((fun r : (Time × XF ℝ) × (XF ℝ × XF ℝ) => (r.1.1, (r.2.2 * r.1.2).rnd fl)) ∘ fun t => ((t, s t), (a (monthOf t), b (monthOf t))))) =
      I.map fun t => (t, (b (monthOf t) * s t).rnd fl) := rfl
  rw [e, align_same, py_ok_bind]
  cases par with
  | scalar a' b' =>
    dsimp only
    rw [List.map_map, py_ok_bind]
    have e : (I.map ((fun r : Time × XF ℝ => (r.1, (a' + r.2).rnd fl)) ∘ fun t => (t, ((b (monthOf t) * s t).rnd fl / L t).rnd fl))) =
        I.map fun t => (t, (a (monthOf t) + ((b (monthOf t) * s t).rnd fl / L t).rnd fl).rnd fl) := by
      apply List.map_congr_left
      intro t ht
      rw [← (h t ht).1]; rfl
    rw [e, align_same]
  | monthly ta tb =>
    dsimp only
    rw [if_pos (by simp), py_ok_bind, List.zip_eq_zipWith, List.zipWith_map, List.zipWith_self, List.map_map]
    have e : (I.map ((fun r : (Time × XF ℝ) × (XF ℝ × XF ℝ) => (r.1.1, (r.2.1 + r.1.2).rnd fl)) ∘
        fun t => ((t, ((b (monthOf t) * s t).rnd fl / L t).rnd fl), (a (monthOf t), b (monthOf t))))) =
        I.map fun t => (t, (a (monthOf t) + ((b (monthOf t) * s t).rnd fl / L t).rnd fl).rnd fl) := rfl
    rw [e, align_same]

theorem ssdDailyR_eq (fl : ℝ → ℝ) {daily : Frame ℝ} {d0 d1 : Int} {n m : Nat} (hi : daily.index = (List.range n).map fun i : Nat => at00 (d0 + i))
    {s : Nat → XF ℝ} (hs : daily.col? "ssd" = some (dailyS d0 n s)) (st : Nat → SunTimes) (q : Nat → XF ℝ) (h1 : d1 ≤ d0) (h2 : d0 + n ≤ d1 + m)
    {par : ParPair ℝ} {a b : Int → XF ℝ}
    (h : ∀ i : Nat, i < n → ParAt par (monthOf (at00 (d0 + i))) (a (monthOf (at00 (d0 + i)))) (b (monthOf (at00 (d0 + i))))) :
    ssdDailyR fl daily (some (dailyS d0 n st)) (dailyS d1 m q) par = .ok (dailyS d0 n fun i =>
      if XF.lt (.fin 0) (st i).daylength then
        ((a (monthOf (at00 (d0 + i))) + ((b (monthOf (at00 (d0 + i))) * s i).rnd fl / (st i).daylength).rnd fl).rnd fl * q (d0 + i - d1).toNat).rnd fl
      else .fin 0) := by
  have hsub : ∀ t ∈ Series.index ((dailyS d0 n st).filter fun r => decide (XF.lt (.fin 0) r.2.daylength)),
      ∃ i < n, t = at00 (d0 + (i : Nat)) ∧ XF.lt (.fin 0) (st i).daylength := by
    intro t ht
    obtain ⟨r, hr, rfl⟩ := List.mem_map.1 ht
    obtain ⟨h1, h2⟩ := List.mem_filter.1 hr
    obtain ⟨i, hi, rfl⟩ := List.mem_map.1 h1
    exact ⟨i, List.mem_range.1 hi, rfl, of_decide_eq_true h2⟩
  have hidx : ∀ i : Nat, ((at00 (d0 + (i : Nat))) / DAY - d0).toNat = i := by
    intro i
    unfold at00
    rw [Int.mul_ediv_cancel _ (by decide)]
    omega
  unfold ssdDailyR
  dsimp only
  rw [attr_ok hs, py_ok_bind]
  rw [locAll_ok (v := fun t => s (t / DAY - d0).toNat)]
  swap
  · intro t ht
    obtain ⟨i, hi, rfl, _⟩ := hsub t ht
    rw [dailyS_at? d0 s hi, hidx]
  rw [py_ok_bind, dailyS_map, locAll_ok (v := fun t => (st (t / DAY - d0).toNat).daylength)]
  swap
  · intro t ht
    obtain ⟨i, hi, rfl, _⟩ := hsub t ht
    rw [dailyS_at? d0 _ hi, hidx]
  rw [py_ok_bind, locAll_ok (v := fun t => q (t / DAY - d1).toNat)]
  swap
  · intro t ht
    obtain ⟨i, hi, rfl, _⟩ := hsub t ht
    have e : d0 + (i : Int) = d1 + ((d0 + i - d1).toNat : Int) := by omega
    rw [e, dailyS_at? d1 _ (by omega)]
    unfold at00
    rw [Int.mul_ediv_cancel _ (by decide), ← e]
  rw [py_ok_bind, angstroemR_eq fl (a := a) (b := b)]
  swap
  · intro t ht
    obtain ⟨i, hi, rfl, _⟩ := hsub t ht
    exact h i hi
  rw [py_ok_bind, hi, List.map_map]
  congr 1
  unfold dailyS
  apply List.map_congr_left
  intro i hi'
  have hi' := List.mem_range.1 hi'
  simp only [Function.comp_def]
  congr 1
  by_cases hL : XF.lt (.fin 0) (st i).daylength
  · have hmem : at00 (d0 + (i : Nat)) ∈ Series.index ((dailyS d0 n st).filter fun r => decide (XF.lt (.fin 0) r.2.daylength)) :=
      List.mem_map.2 ⟨(at00 (d0 + i), st i), List.mem_filter.2 ⟨List.mem_map.2 ⟨i, List.mem_range.2 hi', rfl⟩, decide_eq_true hL⟩, rfl⟩
    rw [if_pos hL]
    have hc := List.elem_eq_true_of_mem hmem
    rw [if_pos]
    · have := mapAt? (fun t => ((a (monthOf t) + ((b (monthOf t) * s (t / DAY - d0).toNat).rnd fl / (st (t / DAY - d0).toNat).daylength).rnd fl).rnd fl * q (t / DAY - d1).toNat).rnd fl) hmem
      unfold dailyS at this
      rw [this, Option.getD_some, hidx]
      unfold at00
      rw [Int.mul_ediv_cancel _ (by decide)]
    · exact hc
  · rw [if_neg hL, if_neg]
    intro hc
    obtain ⟨k, hk, e, hL'⟩ := hsub _ (List.mem_of_elem_eq_true hc)
    have : i = k := by unfold at00 at e; omega
    subst this
    exact hL hL'

/-- `bristow_campbell` as a formula -/
theorem bcR_eq (F : RadMath) (mean : List (XF ℝ) → XF ℝ) (d0 d1 : Int) {n m : Nat} (hn : 0 < n) (tmin tmax q : Nat → XF ℝ) (h1 : d1 ≤ d0) (h2 : d0 + n ≤ d1 + m)
    {par : ParPair ℝ} {a c : Int → XF ℝ}
    (h : ∀ i : Nat, i < n → ParAt par (monthOf (at00 (d0 + i))) (a (monthOf (at00 (d0 + i)))) (c (monthOf (at00 (d0 + i))))) :
    bristowCampbellR F mean (dailyS d0 n tmin) (dailyS d0 n tmax) (dailyS d1 m q) par = .ok (dailyS d0 n fun i =>
      bcCellR F (bcRangeR F.fl (tmin i) (tmax i) (nextMin n tmin i)) (mean (monthRangesR F.fl d0 n tmin tmax i)) (a (monthOf (at00 (d0 + i)))) (c (monthOf (at00 (d0 + i))))
        (q (d0 + i - d1).toNat)) := by
  unfold bristowCampbellR
  rw [if_neg (by rw [not_not]; exact dailyS_index_congr d0 n tmin tmax)]
  have hh : (Series.index (dailyS d0 n tmin)).head? = some (at00 d0) := by
    rw [dailyS_index]
    obtain ⟨k, rfl⟩ : ∃ k, n = k + 1 := ⟨n - 1, by omega⟩
    rw [List.range_succ_eq_map]
    simp
  have hl : (Series.index (dailyS d0 n tmin)).getLast? = some (at00 (d0 + (n - 1 : Nat))) := by
    rw [dailyS_index]
    obtain ⟨k, rfl⟩ : ∃ k, n = k + 1 := ⟨n - 1, by omega⟩
    rw [List.range_succ, List.map_append]
    simp
  rw [hh, hl]
  dsimp only
  rw [dateRange_daily d0 hn, dailyS_reindex_self, py_ok_bind, dailyS_reindex_self, py_ok_bind, bcRows_daily, dailyS_index]
  rw [locAll_ok (v := fun t => (fun i => (tmin i, tmax i, nextMin n tmin i)) (t / DAY - d0).toNat)]
  swap
  · intro t ht
    obtain ⟨i, hi, rfl⟩ := List.mem_map.1 ht
    rw [dailyS_at? d0 _ (List.mem_range.1 hi)]
    unfold at00
    rw [Int.mul_ediv_cancel _ (by decide), show (d0 + (i : Int) - d0).toNat = i by omega]
  rw [py_ok_bind, locAll_ok (v := fun t => q (t / DAY - d1).toNat)]
  swap
  · intro t ht
    obtain ⟨i, hi, rfl⟩ := List.mem_map.1 ht
    have hi := List.mem_range.1 hi
    have e : d0 + (i : Int) = d1 + ((d0 + i - d1).toNat : Int) := by omega
    rw [e, dailyS_at? d1 _ (by omega)]
    unfold at00
    rw [Int.mul_ediv_cancel _ (by decide), ← e]
  rw [py_ok_bind, par_values (a := a) (b := c)]
  swap
  · intro t ht
    obtain ⟨i, hi, rfl⟩ := List.mem_map.1 ht
    exact h i (List.mem_range.1 hi)
  rw [py_ok_bind]
  congr 1
  have eT : (((List.range n).map fun i : Nat => at00 (d0 + i)).map fun t =>
      (t, (fun i => (tmin i, tmax i, nextMin n tmin i)) (t / DAY - d0).toNat)).map
        (fun r : Time × XF ℝ × XF ℝ × XF ℝ => (r.1, bcRangeR F.fl r.2.1 r.2.2.1 r.2.2.2)) = dailyS d0 n (fun i => bcRangeR F.fl (tmin i) (tmax i) (nextMin n tmin i)) := by
    rw [List.map_map, List.map_map]
    unfold dailyS
    apply List.map_congr_left
    intro i _
    simp only [Function.comp_def]
    unfold at00
    rw [Int.mul_ediv_cancel _ (by decide), show (d0 + (i : Int) - d0).toNat = i by omega]
  rw [eT]
  have eA : ∀ i : Nat, ((dailyS d0 n (fun i => bcRangeR F.fl (tmin i) (tmax i) (nextMin n tmin i))).filter fun r => monthOf r.1 == monthOf (at00 (d0 + i))).map Prod.snd =
      monthRangesR F.fl d0 n tmin tmax i := by
    intro i
    unfold dailyS monthRangesR
    rw [List.filter_map, List.map_map]
    rfl
  rw [List.map_map, List.map_map, zip_maps, zip_daily, List.map_map]
  conv_rhs => rw [dailyS]
  apply List.map_congr_left
  intro i _
  simp only [Function.comp_def]
  rw [eA]
  congr 2
  unfold at00
  rw [Int.mul_ediv_cancel _ (by decide)]

end

end Melodist
