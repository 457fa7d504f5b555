import Verif.Lemmas.Rows
import Verif.Model.StationStatistics
import Mathlib.Data.List.Sort

/-!
# C126  Rows without observations, and the order of the rows

Hourly observations are used to compute statistics.  `Frame.iloc is` is pandas' `df.iloc[is]`: the rows at the given positions, in the given order.
`Spec.LeavesOutMissing is f` says that no position occurs twice and that every row that is left out has no value in any column.
-/
set_option linter.unusedSectionVars false

namespace Melodist
open Spec
variable {K : Type}

/-- `s.iloc[is]` -/
def Spec.ilocS {V : Type} (is : List Nat) (s : List V) : List V := is.filterMap fun i => s[i]?

/-- `df.iloc[is]` -/
def Spec.ilocF (is : List Nat) (f : Frame K) : Frame K := ⟨ilocS is f.index, f.cols.map fun c => (c.1, ilocS is c.2)⟩

/-- the positions are different positions of the table, and rows left out have no values -/
structure Spec.LeavesOutMissing (is : List Nat) (f : Frame K) : Prop where
  nodup : is.Nodup
  inside : ∀ i ∈ is, i < f.index.length
  missing : ∀ i < f.index.length, i ∉ is → ∀ c ∈ f.cols, c.2[i]? = some .nan

/-! ## selecting rows -/

theorem iloc_zipWith {A B C : Type} (g : A → B → C) (is : List Nat) {a : List A} {b : List B} (h : a.length = b.length) :
    ilocS is (List.zipWith g a b) = List.zipWith g (ilocS is a) (ilocS is b) := by
  unfold ilocS
  induction is with
  | nil => rfl
  | cons i is ih =>
    rw [List.filterMap_cons, List.filterMap_cons, List.filterMap_cons, List.getElem?_zipWith]
    by_cases hi : i < a.length
    · rw [List.getElem?_eq_getElem hi, List.getElem?_eq_getElem (h ▸ hi)]
      simp only [List.zipWith_cons_cons, ih]
    · rw [List.getElem?_eq_none (by omega), List.getElem?_eq_none (by omega)]
      exact ih

theorem iloc_zip {A B : Type} (is : List Nat) {a : List A} {b : List B} (h : a.length = b.length) : ilocS is (a.zip b) = (ilocS is a).zip (ilocS is b) :=
  iloc_zipWith Prod.mk is h

theorem iloc_map {A B : Type} (g : A → B) (is : List Nat) (a : List A) : ilocS is (a.map g) = (ilocS is a).map g := by
  unfold ilocS
  rw [List.map_filterMap]
  congr 1
  funext i
  rw [List.getElem?_map]

theorem iloc_col? {f : Frame K} (hwf : f.WF) (is : List Nat) (name : String) : (ilocF is f).col? name = (f.col? name).map fun s => ilocS is s := by
  unfold Frame.col? ilocF
  rw [List.find?_map, Option.map_map, Option.map_map]
  have e : ((fun c : String × List (XF K) => c.1 == name) ∘ fun c : String × List (XF K) => (c.1, ilocS is c.2)) = fun c => c.1 == name := rfl
  rw [e]
  cases h : f.cols.find? fun c => c.1 == name with
  | none => rfl
  | some c =>
    simp only [Option.map_some, Function.comp_def]
    rw [iloc_zip is (hwf c (List.mem_of_find?_eq_some h)).symm]

theorem iloc_mem {V : Type} {is : List Nat} {s : List V} {r : V} (h : r ∈ ilocS is s) : r ∈ s := by
  obtain ⟨i, _, hi⟩ := List.mem_filterMap.1 h
  exact List.mem_of_getElem? hi

theorem iloc_range {V : Type} (s : List V) : ilocS (List.range s.length) s = s := by
  unfold ilocS
  induction s with
  | nil => rfl
  | cons x s ih =>
    rw [List.length_cons, List.range_succ_eq_map, List.filterMap_cons, List.filterMap_map]
    simp only [List.getElem?_cons_zero]
    congr 1

theorem filterMap_some {A B : Type} (g : A → Option B) (l : List A) : (l.filter fun i => (g i).isSome).filterMap g = l.filterMap g := by
  induction l with
  | nil => rfl
  | cons i l ih =>
    rw [List.filter_cons, List.filterMap_cons]
    cases h : g i with
    | none => simpa using ih
    | some b => simp [h, ih]

section
variable [Field K] [LinearOrder K] [IsStrictOrderedRing K]

/-- the value at a position -/
def obsAt (s : Series (XF K)) (i : Nat) : Option (Time × XF K) := (s[i]?).filter fun r => !r.2.isNan

theorem observed_iloc (is : List Nat) (s : Series (XF K)) : observed (ilocS is s) = (is.filter fun i => (obsAt s i).isSome).filterMap (obsAt s) := by
  rw [filterMap_some]
  unfold observed ilocS
  rw [List.filter_filterMap]
  rfl

theorem obs_range (s : Series (XF K)) : observed s = ((List.range s.length).filter fun i => (obsAt s i).isSome).filterMap (obsAt s) := by
  rw [← observed_iloc, iloc_range]

/-- positions with values are the same -/
theorem obs_positions {is : List Nat} {s : Series (XF K)} (hn : is.Nodup) (hi : ∀ i ∈ is, i < s.length)
    (hm : ∀ i < s.length, i ∉ is → ∃ t, s[i]? = some (t, .nan)) :
    (is.filter fun i => (obsAt s i).isSome).Perm ((List.range s.length).filter fun i => (obsAt s i).isSome) := by
  refine (List.perm_ext_iff_of_nodup (hn.filter _) (List.nodup_range.filter _)).2 fun i => ?_
  rw [List.mem_filter, List.mem_filter, List.mem_range]
  constructor
  · exact fun h => ⟨hi i h.1, h.2⟩
  · rintro ⟨h1, h2⟩
    refine ⟨?_, h2⟩
    by_contra hc
    obtain ⟨t, ht⟩ := hm i h1 hc
    unfold obsAt at h2
    rw [ht] at h2
    exact Bool.noConfusion (show false = true from h2)

theorem sameObs_iloc {is : List Nat} {s : Series (XF K)} (hn : is.Nodup) (hi : ∀ i ∈ is, i < s.length)
    (hm : ∀ i < s.length, i ∉ is → ∃ t, s[i]? = some (t, .nan)) : SameObs s (ilocS is s) := by
  unfold SameObs
  rw [obs_range s, observed_iloc]
  exact ((obs_positions hn hi hm).filterMap _).symm

theorem obs_iloc_eq {is : List Nat} {s : Series (XF K)} (hs : is.Pairwise (· < ·)) (hi : ∀ i ∈ is, i < s.length)
    (hm : ∀ i < s.length, i ∉ is → ∃ t, s[i]? = some (t, .nan)) : observed s = observed (ilocS is s) := by
  rw [obs_range s, observed_iloc]
  congr 1
  have hn : is.Nodup := hs.imp (fun h => ne_of_lt h)
  refine List.Perm.eq_of_pairwise (le := (· ≤ ·)) (fun a b _ _ h1 h2 => le_antisymm h1 h2) ?_ ?_ (obs_positions hn hi hm).symm
  · exact (List.pairwise_lt_range.imp fun h => le_of_lt h).filter _
  · exact (hs.imp fun h => le_of_lt h).filter _

/-! ## columns -/

theorem col_missing {f : Frame K} (hwf : f.WF) {is : List Nat} (h : LeavesOutMissing is f) {name : String} {s : Series (XF K)} (hc : f.col? name = some s) :
    (∀ i ∈ is, i < s.length) ∧ ∀ i < s.length, i ∉ is → ∃ t, s[i]? = some (t, .nan) := by
  unfold Frame.col? at hc
  obtain ⟨c, hc1, rfl⟩ := Option.map_eq_some_iff.1 hc
  have hm := List.mem_of_find?_eq_some hc1
  have hl := hwf c hm
  have hz : (f.index.zip c.2).length = f.index.length := by rw [List.length_zip, hl, min_self]
  rw [hz]
  refine ⟨h.inside, fun i hi hni => ?_⟩
  refine ⟨f.index[i], ?_⟩
  rw [List.getElem?_zip_eq_some]
  exact ⟨List.getElem?_eq_getElem hi, h.missing i hi hni c hm⟩

theorem col_same {f : Frame K} (hwf : f.WF) {is : List Nat} (h : LeavesOutMissing is f) {name : String} {s : Series (XF K)} (hc : f.col? name = some s) :
    SameObs s (ilocS is s) := sameObs_iloc h.nodup (col_missing hwf h hc).1 (col_missing hwf h hc).2

/-! ## mean daily courses -/

theorem raw_val_same {s s' : Series (XF K)} (h : SameObs s s') (m hr : Int) :
    (meanDailyCourseByMonth s).val m hr = (meanDailyCourseByMonth s').val m hr := group_same skip_mean h fun t => monthOf t == m && hourOf t == hr

theorem val_none {s : Series (XF K)} {m hr : Int} (h : (meanDailyCourseByMonth s).val m hr ≠ .nan) :
    (s.any fun r => monthOf r.1 == m) = true ∧ (s.any fun r => hourOf r.1 == hr) = true := by
  have hne : (s.filter fun r => monthOf r.1 == m && hourOf r.1 == hr) ≠ [] := by
    intro e
    apply h
    show meanSkip ((s.filter fun r => monthOf r.1 == m && hourOf r.1 == hr).map Prod.snd) = .nan
    rw [e]; rfl
  obtain ⟨r, hr'⟩ := List.exists_mem_of_ne_nil _ hne
  obtain ⟨h1, h2⟩ := List.mem_filter.1 hr'
  rw [Bool.and_eq_true] at h2
  exact ⟨List.any_eq_true.2 ⟨r, h1, h2.1⟩, List.any_eq_true.2 ⟨r, h1, h2.2⟩⟩

theorem column_valid (s : Series (XF K)) (m : Int) : presentCells ((meanDailyCourseByMonth s).column m) =
    ((((List.range 24).map fun k : Nat => (k : Int)).filter fun hr => !((meanDailyCourseByMonth s).val m hr).isNan)).map ((meanDailyCourseByMonth s).val m) := by
  unfold presentCells MeanCourse.column
  rw [List.filter_map]
  congr 1
  show List.filter _ (List.filter _ _) = _
  rw [List.filter_filter]
  apply List.filter_congr
  intro hr _
  simp only [Function.comp_def]
  cases hv : ((meanDailyCourseByMonth s).val m hr).isNan with
  | true => rfl
  | false =>
    have := (val_none (s := s) (m := m) (hr := hr) (by intro e; rw [e] at hv; cases hv)).2
    simpa using this

theorem column_same {W : Type} {agg : List (XF K) → W} (ha : SkipAgg agg) {s s' : Series (XF K)} (h : SameObs s s') (m : Int) :
    agg ((meanDailyCourseByMonth s).column m) = agg ((meanDailyCourseByMonth s').column m) := by
  apply ha
  rw [column_valid, column_valid]
  simp only [funext fun hr => raw_val_same h m hr]
  exact List.Perm.refl _

/-- **C126 (mean courses).** The table of mean daily courses has the same entries, and so has the table of courses scaled to 0 to 1. -/
theorem C126_mean_course {s s' : Series (XF K)} (h : SameObs s s') (normalize : Bool) (m hr : Int) :
    (meanDailyCourseByMonth s normalize).val m hr = (meanDailyCourseByMonth s' normalize).val m hr := by
  cases normalize with
  | false => exact raw_val_same h m hr
  | true =>
    show ((meanDailyCourseByMonth s).val m hr - minSkip ((meanDailyCourseByMonth s).column m)) /
        (maxSkip ((meanDailyCourseByMonth s).column m) - minSkip ((meanDailyCourseByMonth s).column m)) =
      ((meanDailyCourseByMonth s').val m hr - minSkip ((meanDailyCourseByMonth s').column m)) /
        (maxSkip ((meanDailyCourseByMonth s').column m) - minSkip ((meanDailyCourseByMonth s').column m))
    rw [raw_val_same h, column_same skip_min h, column_same skip_max h]

theorem contains_months (s : Series (XF K)) (b : Bool) (m : Int) : (meanDailyCourseByMonth s b).months.contains m =
    (decide (1 ≤ m ∧ m ≤ 12) && s.any fun r => monthOf r.1 == m) := by
  have e : (meanDailyCourseByMonth s b).months = ((List.range 12).map fun (k : Nat) => (k : Int) + 1).filter fun m => s.any fun r => monthOf r.1 == m := by
    cases b <;> rfl
  rw [e, Bool.eq_iff_iff, List.contains_iff_mem, List.mem_filter, Bool.and_eq_true, decide_eq_true_iff, List.mem_map]
  refine and_congr_left' ⟨?_, ?_⟩
  · rintro ⟨k, hk, rfl⟩
    have := List.mem_range.1 hk
    omega
  · intro h
    exact ⟨(m - 1).toNat, List.mem_range.2 (by omega), by omega⟩

theorem contains_hours (s : Series (XF K)) (b : Bool) (m : Int) : (meanDailyCourseByMonth s b).hours.contains m =
    (decide (0 ≤ m ∧ m ≤ 23) && s.any fun r => hourOf r.1 == m) := by
  have e : (meanDailyCourseByMonth s b).hours = ((List.range 24).map fun (k : Nat) => (k : Int)).filter fun h => s.any fun r => hourOf r.1 == h := by
    cases b <;> rfl
  rw [e, Bool.eq_iff_iff, List.contains_iff_mem, List.mem_filter, Bool.and_eq_true, decide_eq_true_iff, List.mem_map]
  refine and_congr_left' ⟨?_, ?_⟩
  · rintro ⟨k, hk, rfl⟩
    have := List.mem_range.1 hk
    omega
  · intro h
    exact ⟨m.toNat, List.mem_range.2 (by omega), by omega⟩

/-- **C126 (looking up a mean course).** What is found in the course of the shorter record is found in that of the longer one; what is found only in the course
of the longer one is missing. -/
theorem C126_course_lookup {f : Frame K} (hwf : f.WF) {is : List Nat} (h : LeavesOutMissing is f) {name : String} {s : Series (XF K)}
    (hc : f.col? name = some s) (normalize : Bool) (m hr : Int) :
    ∃ s', (ilocF is f).col? name = some s' ∧
      (∀ x, (meanDailyCourseByMonth s' normalize).lookup m hr = .ok x → (meanDailyCourseByMonth s normalize).lookup m hr = .ok x) ∧
      ∀ x, (meanDailyCourseByMonth s normalize).lookup m hr = .ok x → x = .nan ∨ (meanDailyCourseByMonth s' normalize).lookup m hr = .ok x := by
  refine ⟨ilocS is s, by rw [iloc_col? hwf, hc]; rfl, ?_, ?_⟩
  · intro x hx
    unfold MeanCourse.lookup at hx ⊢
    rw [contains_months, contains_hours] at hx ⊢
    split at hx
    · next hcond =>
      rw [← hx, if_pos, C126_mean_course (col_same hwf h hc) normalize]
      have mono : ∀ p : Time × XF K → Bool, List.any (ilocS is s) p = true → List.any s p = true := fun p hp => by
        obtain ⟨r, h1, h2⟩ := List.any_eq_true.1 hp
        exact List.any_eq_true.2 ⟨r, iloc_mem h1, h2⟩
      simp only [Bool.and_eq_true] at hcond ⊢
      exact ⟨⟨hcond.1.1, mono _ hcond.1.2⟩, hcond.2.1, mono _ hcond.2.2⟩
    · cases hx
  · intro x hx
    by_cases hn : x = .nan
    · exact .inl hn
    refine .inr ?_
    unfold MeanCourse.lookup at hx ⊢
    rw [contains_months, contains_hours] at hx ⊢
    split at hx
    · next hcond =>
      rw [C126_mean_course (col_same hwf h hc) normalize] at hx
      have hv : (meanDailyCourseByMonth (ilocS is s)).val m hr ≠ .nan := by
        intro e
        apply hn
        cases normalize with
        | false => cases hx; exact e
        | true =>
          have : (meanDailyCourseByMonth (ilocS is s) true).val m hr = .nan := by
            show ((meanDailyCourseByMonth (ilocS is s)).val m hr - _) / _ = _
            rw [e]; rfl
          rw [this] at hx; cases hx; rfl
      rw [← hx, if_pos]
      simp only [Bool.and_eq_true] at hcond ⊢
      exact ⟨⟨hcond.1.1, (val_none hv).1⟩, hcond.2.1, (val_none hv).2⟩
    · cases hx

end

end Melodist
