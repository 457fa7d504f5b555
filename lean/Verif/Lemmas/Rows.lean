import Verif.Props.Clocks
import Verif.Lemmas.DailyB
import Verif.Props.HumidityStats

/-!
# Rows without observations: lemmas for C126
-/
set_option linter.unusedSectionVars false

namespace Melodist
open Spec
variable {K : Type} [Field K] [LinearOrder K] [IsStrictOrderedRing K]

/-- the rows with a value -/
def Spec.observed (s : Series (XF K)) : Series (XF K) := s.filter fun r => !r.2.isNan

/-- the same rows with values, in any order; rows without value do not matter -/
def Spec.SameObs (s s' : Series (XF K)) : Prop := (observed s).Perm (observed s')

/-- cells with a value -/
def presentCells (l : List (XF K)) : List (XF K) := l.filter fun x => !x.isNan

/-- an aggregate that skips missing cells and does not depend on the order -/
def SkipAgg {W : Type} (agg : List (XF K) → W) : Prop := ∀ l l' : List (XF K), (presentCells l).Perm (presentCells l') → agg l = agg l'

theorem skip_sum : SkipAgg (sumSkip : List (XF K) → XF K) := fun _ _ h => sumCells_perm h

theorem skip_mean : SkipAgg (meanSkip : List (XF K) → XF K) := by
  intro l l' h
  have hc : countValid l = countValid l' := h.length_eq
  unfold meanSkip
  rw [hc, skip_sum l l' h]

theorem min_valid (l : List (XF K)) : minSkip (presentCells l) = minSkip l := by
  unfold presentCells
  induction l with
  | nil => rfl
  | cons x l ih =>
    cases h : x.isNan with
    | true => rw [List.filter_cons_of_neg (by simp [h]), ih, minSkip, if_pos h]
    | false => rw [List.filter_cons_of_pos (by simp [h]), minSkip, minSkip, ih]

theorem max_valid (l : List (XF K)) : maxSkip (presentCells l) = maxSkip l := by
  unfold presentCells
  induction l with
  | nil => rfl
  | cons x l ih =>
    cases h : x.isNan with
    | true => rw [List.filter_cons_of_neg (by simp [h]), ih, maxSkip, if_pos h]
    | false => rw [List.filter_cons_of_pos (by simp [h]), maxSkip, maxSkip, ih]

/-- one step of `minSkip` -/
def minStep (x z : XF K) : XF K := if x.isNan then z else if z.isNan then x else if XF.lt z x then z else x

/-- one step of `maxSkip` -/
def maxStep (x z : XF K) : XF K := if x.isNan then z else if z.isNan then x else if XF.lt x z then z else x

theorem minStep_fin (a b : K) : minStep (.fin a) (.fin b) = .fin (min a b) := by
  show (if b < a then XF.fin b else XF.fin a) = _
  split
  · next h => rw [min_eq_right h.le]
  · next h => rw [min_eq_left (not_lt.1 h)]

theorem maxStep_fin (a b : K) : maxStep (.fin a) (.fin b) = .fin (max a b) := by
  show (if a < b then XF.fin b else XF.fin a) = _
  split
  · next h => rw [max_eq_right h.le]
  · next h => rw [max_eq_left (not_lt.1 h)]

theorem minStep_nan (x : XF K) : minStep x .nan = x := by cases x <;> rfl
theorem minStep_nan' (x : XF K) : minStep .nan x = x := rfl
theorem minStep_p1 : minStep (.pinf : XF K) .pinf = .pinf := rfl
theorem minStep_p2 : minStep (.pinf : XF K) .ninf = .ninf := rfl
theorem minStep_p3 (a : K) : minStep .pinf (.fin a) = .fin a := rfl
theorem minStep_n1 : minStep (.ninf : XF K) .pinf = .ninf := rfl
theorem minStep_n2 : minStep (.ninf : XF K) .ninf = .ninf := rfl
theorem minStep_n3 (a : K) : minStep .ninf (.fin a) = .ninf := rfl
theorem minStep_f1 (a : K) : minStep (.fin a) .pinf = .fin a := rfl
theorem minStep_f2 (a : K) : minStep (.fin a) .ninf = .ninf := rfl
theorem maxStep_nan (x : XF K) : maxStep x .nan = x := by cases x <;> rfl
theorem maxStep_nan' (x : XF K) : maxStep .nan x = x := rfl
theorem maxStep_p1 : maxStep (.pinf : XF K) .pinf = .pinf := rfl
theorem maxStep_p2 : maxStep (.pinf : XF K) .ninf = .pinf := rfl
theorem maxStep_p3 (a : K) : maxStep .pinf (.fin a) = .pinf := rfl
theorem maxStep_n1 : maxStep (.ninf : XF K) .pinf = .pinf := rfl
theorem maxStep_n2 : maxStep (.ninf : XF K) .ninf = .ninf := rfl
theorem maxStep_n3 (a : K) : maxStep .ninf (.fin a) = .fin a := rfl
theorem maxStep_f1 (a : K) : maxStep (.fin a) .pinf = .pinf := rfl
theorem maxStep_f2 (a : K) : maxStep (.fin a) .ninf = .fin a := rfl

theorem minStep_comm (x y z : XF K) : minStep x (minStep y z) = minStep y (minStep x z) := by
  cases x <;> cases y <;> cases z <;> simp only [minStep_fin, minStep_nan, minStep_nan', minStep_p1, minStep_p2, minStep_p3, minStep_n1, minStep_n2, minStep_n3,
    minStep_f1, minStep_f2] <;> first | rw [min_left_comm] | rw [min_comm]

theorem maxStep_comm (x y z : XF K) : maxStep x (maxStep y z) = maxStep y (maxStep x z) := by
  cases x <;> cases y <;> cases z <;> simp only [maxStep_fin, maxStep_nan, maxStep_nan', maxStep_p1, maxStep_p2, maxStep_p3, maxStep_n1, maxStep_n2, maxStep_n3,
    maxStep_f1, maxStep_f2] <;> first | rw [max_left_comm] | rw [max_comm]

theorem minSkip_perm {l l' : List (XF K)} (h : l.Perm l') : minSkip l = minSkip l' := by
  induction h with
  | nil => rfl
  | cons x _ ih => simp only [minSkip, ih]
  | swap x y l => exact minStep_comm y x (minSkip l)
  | trans _ _ h1 h2 => rw [h1, h2]

theorem maxSkip_perm {l l' : List (XF K)} (h : l.Perm l') : maxSkip l = maxSkip l' := by
  induction h with
  | nil => rfl
  | cons x _ ih => simp only [maxSkip, ih]
  | swap x y l => exact maxStep_comm y x (maxSkip l)
  | trans _ _ h1 h2 => rw [h1, h2]

theorem skip_min : SkipAgg (minSkip : List (XF K) → XF K) := fun l l' h => by rw [← min_valid l, ← min_valid l', minSkip_perm h]

theorem skip_max : SkipAgg (maxSkip : List (XF K) → XF K) := fun l l' h => by rw [← max_valid l, ← max_valid l', maxSkip_perm h]

/-! ## groups of rows -/

theorem valid_group (s : Series (XF K)) (p : Time → Bool) :
    presentCells ((s.filter fun r => p r.1).map Prod.snd) = ((observed s).filter fun r => p r.1).map Prod.snd := by
  unfold presentCells observed
  rw [List.filter_map, List.filter_filter, List.filter_filter]
  congr 1
  apply List.filter_congr
  intro x _
  exact Bool.and_comm _ _

/-- the aggregate of a group of rows -/
theorem group_same {W : Type} {agg : List (XF K) → W} (ha : SkipAgg agg) {s s' : Series (XF K)} (h : SameObs s s') (p : Time → Bool) :
    agg ((s.filter fun r => p r.1).map Prod.snd) = agg ((s'.filter fun r => p r.1).map Prod.snd) := by
  apply ha
  rw [valid_group, valid_group]
  exact ((h.filter _).map _)

theorem onDay_same {W : Type} {agg : List (XF K) → W} (ha : SkipAgg agg) {s s' : Series (XF K)} (h : SameObs s s') (d : Int) :
    agg (s.onDay d) = agg (s'.onDay d) := group_same ha h fun t => dayOf t == d

/-- the daily value used for an hour -/
theorem groupby_getD {agg : List (XF K) → XF K} (h0 : agg [] = .nan) (s : Series (XF K)) (d : Int) :
    ((s.groupbyDate agg).at? (midnight d)).getD .nan = agg (s.onDay d) := by
  by_cases h : ∃ r ∈ s, dayOf r.1 = d
  · obtain ⟨r, hr, e⟩ := h
    rw [groupbyDate_at? agg s hr e]; rfl
  · rw [groupbyDate_at?_none agg h, onDay_nil h, h0]; rfl

end Melodist
