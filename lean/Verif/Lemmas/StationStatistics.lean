import Verif.Model.StationStatistics
import Verif.Lemmas.Station
import Verif.Lemmas.Humidity
import Verif.Props.StationData

/-!
# Lemmas about fitting statistics
-/

set_option linter.unusedSectionVars false

namespace Melodist
open Spec

/-- the value a table by month has for month `m` -/
def atMonth (tab : List (Int × XF ℝ)) (m : Int) : Option (XF ℝ) := (tab.find? fun r => r.1 == m).map Prod.snd

namespace StatsObj

theorem atMonth_setRow (tab : List (Int × XF ℝ)) (m m' : Int) (x : XF ℝ) :
    atMonth (setRow tab m x) m' = if m' = m then some x else atMonth tab m' := by
  unfold setRow atMonth
  by_cases h : (tab.any fun r => r.1 == m) = true
  · rw [if_pos h]
    induction tab with
    | nil => simp at h
    | cons r rest ih =>
      rw [List.map_cons, List.find?_cons, List.find?_cons]
      by_cases hr : r.1 = m
      · have e1 : (r.1 == m) = true := by simpa using hr
        simp only [e1, if_true]
        by_cases hm : m' = m
        · subst hm; simp
        · rw [if_neg hm]
          have e2 : (m == m') = false := by simpa using fun e => hm e.symm
          have e3 : (r.1 == m') = false := by rw [hr]; exact e2
          simp only [e2, e3]
          congr 1
          -- the rest: the other rows of month `m` do not matter
          clear ih h e1
          induction rest with
          | nil => rfl
          | cons q rest ih =>
            rw [List.map_cons, List.find?_cons, List.find?_cons]
            by_cases hq : q.1 = m
            · have e4 : (q.1 == m) = true := by simpa using hq
              have e5 : (q.1 == m') = false := by rw [hq]; exact e2
              simp only [e4, if_true, e2, e5]
              exact ih
            · have e4 : (q.1 == m) = false := by simpa using hq
              simp only [e4]
              cases hq' : q.1 == m' with
              | true => simp [hq']
              | false => simp [hq']; simpa using ih
      · have e1 : (r.1 == m) = false := by simpa using hr
        simp only [e1]
        rw [List.any_cons, e1, Bool.false_or] at h
        cases hr' : r.1 == m' with
        | true =>
          have : m' ≠ m := by
            intro e; rw [e] at hr'; rw [hr'] at e1; cases e1
          simp [hr', this]
        | false => simp [hr']; simpa using ih h
  · rw [if_neg h]
    rw [List.find?_append]
    by_cases hm : m' = m
    · subst hm
      have : (tab.find? fun r => r.1 == m') = none := by
        rw [List.find?_eq_none]
        intro r hr hc
        exact h (List.any_eq_true.2 ⟨r, hr, hc⟩)
      rw [this]
      simp
    · have e2 : (m == m') = false := by simpa using fun e => hm e.symm
      rw [if_neg hm]
      simp [List.find?_cons, e2]

theorem atMonth_setRows (months : List Int) (ab : XF ℝ × XF ℝ) (tab : List (Int × XF ℝ) × List (Int × XF ℝ)) (m : Int) :
    atMonth (setRows months ab tab).1 m = (if m ∈ months then some ab.1 else atMonth tab.1 m) ∧
    atMonth (setRows months ab tab).2 m = (if m ∈ months then some ab.2 else atMonth tab.2 m) := by
  induction months generalizing tab with
  | nil => simp [setRows]
  | cons x xs ih =>
    have e : setRows (x :: xs) ab tab = setRows xs ab (setRow tab.1 x ab.1, setRow tab.2 x ab.2) := rfl
    rw [e, (ih _).1, (ih _).2]
    dsimp only
    rw [atMonth_setRow, atMonth_setRow]
    constructor <;> by_cases h1 : m ∈ xs <;> by_cases h2 : m = x <;> simp [h1, h2]

/-- what the loop over month groups did: the groups `pre` were fitted and stored, everything else is as before -/
theorem fitLoop_spec (fit : List FitRow → Py (XF ℝ × XF ℝ)) (rows : List Int → List FitRow) (ranges : List (List Int))
    (hd : ranges.Pairwise fun g g' => ∀ m ∈ g, m ∉ g') (tab : List (Int × XF ℝ) × List (Int × XF ℝ)) :
    ∃ pre post, ranges = pre ++ post ∧
      (∀ g ∈ pre, ∃ ab, fit (rows g) = .ok ab ∧ ∀ m ∈ g, atMonth (fitLoop fit rows ranges tab).1.1 m = some ab.1 ∧
        atMonth (fitLoop fit rows ranges tab).1.2 m = some ab.2) ∧
      (∀ m, (∀ g ∈ pre, m ∉ g) → atMonth (fitLoop fit rows ranges tab).1.1 m = atMonth tab.1 m ∧
        atMonth (fitLoop fit rows ranges tab).1.2 m = atMonth tab.2 m) ∧
      (((fitLoop fit rows ranges tab).2 = none ∧ post = []) ∨
        ∃ e g rest, post = g :: rest ∧ fit (rows g) = .error e ∧ (fitLoop fit rows ranges tab).2 = some e) := by
  induction ranges generalizing tab with
  | nil => exact ⟨[], [], rfl, by simp, by simp [fitLoop], .inl ⟨rfl, rfl⟩⟩
  | cons g rest ih =>
    cases hf : fit (rows g) with
    | error e =>
      have hl : fitLoop fit rows (g :: rest) tab = (tab, some e) := by
        unfold fitLoop; rw [hf]
      rw [hl]
      exact ⟨[], g :: rest, rfl, by simp, by simp, .inr ⟨e, g, rest, rfl, hf, rfl⟩⟩
    | ok ab =>
      have hl : fitLoop fit rows (g :: rest) tab = fitLoop fit rows rest (setRows g ab tab) := by
        conv_lhs => unfold fitLoop
        rw [hf]
      rw [List.pairwise_cons] at hd
      obtain ⟨pre, post, h1, h2, h3, h4⟩ := ih hd.2 (setRows g ab tab)
      rw [hl]
      refine ⟨g :: pre, post, by rw [h1]; rfl, ?_, ?_, h4⟩
      · intro g' hg'
        rcases List.mem_cons.1 hg' with rfl | hg'
        · refine ⟨ab, hf, fun m hm => ?_⟩
          have hout : ∀ q ∈ pre, m ∉ q := fun q hq => hd.1 q (by rw [h1]; exact List.mem_append_left _ hq) m hm
          rw [(h3 m hout).1, (h3 m hout).2, (atMonth_setRows g' ab tab m).1, (atMonth_setRows g' ab tab m).2, if_pos hm, if_pos hm]
          exact ⟨rfl, rfl⟩
        · exact h2 g' hg'
      · intro m hm
        have hg : m ∉ g := hm g List.mem_cons_self
        obtain ⟨h5, h6⟩ := h3 m fun q hq => hm q (List.mem_cons_of_mem _ hq)
        rw [h5, h6, (atMonth_setRows g ab tab m).1, (atMonth_setRows g ab tab m).2, if_neg hg, if_neg hg]
        exact ⟨rfl, rfl⟩

theorem at?_extractMonths {V : Type} (s : Series V) (months : List Int) (t : Time) :
    Series.at? (extractMonths s months) t = if months.contains (monthOf t) then s.at? t else none := by
  unfold extractMonths Series.at?
  by_cases h : months.contains (monthOf t) = true
  · rw [if_pos h]
    congr 1
    induction s with
    | nil => rfl
    | cons r rest ih =>
      rw [List.filter_cons]
      by_cases hr : r.1 = t
      · have e : (r.1 == t) = true := by simpa using hr
        rw [if_pos (by rw [hr]; exact h), List.find?_cons, List.find?_cons, e]
      · have e : (r.1 == t) = false := by simpa using hr
        by_cases hm : months.contains (monthOf r.1) = true
        · rw [if_pos hm, List.find?_cons, List.find?_cons, e]
          exact ih
        · rw [if_neg hm, List.find?_cons, e]
          exact ih
  · rw [if_neg h]
    have : ((s.filter fun r => months.contains (monthOf r.1)).find? fun r => r.1 == t) = none := by
      rw [List.find?_eq_none]
      intro r hr hc
      have ht : r.1 = t := by simpa using hc
      exact h (ht ▸ (List.mem_filter.1 hr).2)
    rw [this]
    rfl

/-- taking the months out first or last gives the same rows -/
theorem fitFrame_extract (a b c d : Series (XF ℝ)) (months : List Int) :
    fitFrame (extractMonths a months) (extractMonths b months) (extractMonths c months) (extractMonths d months) =
      (fitFrame a b c d).filter fun r => months.contains (monthOf r.1) := by
  unfold fitFrame
  simp only [at?_extractMonths]
  induction a with
  | nil => rfl
  | cons r rest ih =>
    unfold extractMonths at ih ⊢
    rw [List.filter_cons]
    by_cases hm : months.contains (monthOf r.1) = true
    · rw [if_pos hm, List.filterMap_cons, List.filterMap_cons, if_pos hm, if_pos hm, if_pos hm, ih]
      cases hb : Series.at? b r.1 with
      | none => rfl
      | some y =>
        cases hc : Series.at? c r.1 with
        | none => rfl
        | some z =>
          cases hd : Series.at? d r.1 with
          | none => rfl
          | some u =>
            dsimp only
            by_cases hn : (r.2.isNan || y.isNan || z.isNan || u.isNan) = true
            · rw [if_pos hn]
            · rw [if_neg hn]
              dsimp only
              rw [List.filter_cons, if_pos hm]
    · rw [if_neg hm, List.filterMap_cons, ih]
      cases hb : Series.at? b r.1 with
      | none => rfl
      | some y =>
        cases hc : Series.at? c r.1 with
        | none => rfl
        | some z =>
          cases hd : Series.at? d r.1 with
          | none => rfl
          | some u =>
            dsimp only
            by_cases hn : (r.2.isNan || y.isNan || z.isNan || u.isNan) = true
            · rw [if_pos hn]
            · rw [if_neg hn]
              dsimp only
              rw [List.filter_cons, if_neg hm]

end StatsObj

end Melodist
