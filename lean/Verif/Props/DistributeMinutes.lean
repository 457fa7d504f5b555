import Verif.Props.DistributeGaps
import Verif.Lemmas.Moved

/-!
# C123, labels with minutes
-/

set_option linter.unusedSectionVars false

namespace Melodist
open Spec
variable {K : Type} [Field K] [LinearOrder K] [IsStrictOrderedRing K]

/-- the same values, every label `m` microseconds later -/
def Spec.minutesLater {V : Type} (m : Int) (s : Series V) : Series V := s.map fun r => (r.1 + m, r.2)

theorem minutesLater_index {V : Type} (m : Int) (s : Series V) : (minutesLater m s).index = s.index.map (· + m) := by
  simp [minutesLater, Series.index, Function.comp_def]

theorem dateRange_minutes (a b step c : Int) : dateRange (a + c) (b + c) step = (dateRange a b step).map (· + c) := by
  unfold dateRange
  by_cases h : b < a
  · rw [if_pos h, if_pos (by omega)]; rfl
  · rw [if_neg h, if_neg (by omega), List.map_map]
    have : b + c - (a + c) = b - a := by omega
    rw [this]
    apply List.map_congr_left
    intro k _
    simp only [Function.comp_def]; omega

theorem at?_minutes {V : Type} (s : Series V) (m t : Int) : (minutesLater m s).at? (t + m) = s.at? t := by
  induction s with
  | nil => rfl
  | cons r s ih =>
    unfold Series.at? minutesLater at *
    rw [List.map_cons, List.find?_cons, List.find?_cons]
    by_cases h : r.1 = t
    · simp [h]
    · have : ¬ r.1 + m = t + m := by omega
      simp only [beq_iff_eq, h, this, beq_eq_false_iff_ne.2, ne_eq, not_false_eq_true]
      simpa using ih

theorem dayOf_minutes {t m : Int} (ht : t % HOUR = 0) (h0 : 0 ≤ m) (h1 : m < HOUR) : dayOf (t + m) = dayOf t := by unfold dayOf; omega
theorem hourOf_minutes {t m : Int} (ht : t % HOUR = 0) (h0 : 0 ≤ m) (h1 : m < HOUR) : hourOf (t + m) = hourOf t := by unfold hourOf; omega

theorem mem_dateRange {a b t : Int} (h : t ∈ dateRange a b HOUR) (ha : a % HOUR = 0) : t % HOUR = 0 := by
  unfold dateRange at h
  split at h
  · simp at h
  · obtain ⟨k, _, rfl⟩ := List.mem_map.1 h
    omega

/-- `hourly_index` of labels with minutes: the hours with the same minutes, or the full hours if days are dropped -/
theorem hourlyIndex_minutes (api : PandasApi) (idx : List Time) (hidx : ∀ t ∈ idx, t % HOUR = 0) {m : Int} (h0 : 0 ≤ m) (h1 : m < HOUR) :
    (∀ r, hourlyIndex .modern idx = .ok r → hourlyIndex api (idx.map (· + m)) = .ok (r.map (· + m))) ∧
    (hourlyIndex .modern idx = .error .attributeError → hourlyIndex api (idx.map (· + m)) = hourlyIndex api idx) := by
  unfold hourlyIndex
  rw [min?_moved, max?_moved]
  cases hlo : idx.min? with
  | none => exact ⟨fun r h => (by cases h), fun h => rfl⟩
  | some lo =>
    cases hhi : idx.max? with
    | none => exact ⟨fun r h => (by cases h), fun h => rfl⟩
    | some hi =>
      have mlo := hidx lo (List.min?_eq_some_iff.1 hlo).1
      have mhi := hidx hi (List.max?_eq_some_iff.1 hhi).1
      simp only [Option.map_some]
      have hr : replaceHour (hi + m) 23 = replaceHour hi 23 + m := by
        unfold replaceHour; rw [dayOf_minutes mhi h0 h1]; omega
      rw [hr, dateRange_minutes, List.length_map, List.length_map]
      by_cases hc : (!false && decide ((dateRange lo (replaceHour hi 23) HOUR).length > idx.length * 24)) = true
      · rw [if_pos hc, if_pos hc]
        refine ⟨fun r h => (by cases h), fun _ => ?_⟩
        rw [if_pos hc]
        have : ((dateRange lo (replaceHour hi 23) HOUR).map (· + m)).filter (fun t => ((idx.map (· + m)).map dayOf).contains (dayOf t)) =
            ((dateRange lo (replaceHour hi 23) HOUR).filter (fun t => (idx.map dayOf).contains (dayOf t))).map (· + m) := by
          rw [List.filter_map]
          congr 1
          apply List.filter_congr
          intro t ht
          simp only [Function.comp_def]
          have e : (idx.map (· + m)).map dayOf = idx.map dayOf := by
            rw [List.map_map]
            apply List.map_congr_left
            intro t ht
            exact dayOf_minutes (hidx t ht) h0 h1
          rw [e, dayOf_minutes (mem_dateRange ht mlo) h0 h1]
        rw [this, List.map_map]
        have e2 : (List.filter (fun t => (idx.map dayOf).contains (dayOf t)) (dateRange lo (replaceHour hi 23) HOUR)).map ((fun t => stamp (dayOf t) (hourOf t)) ∘ (· + m)) =
            (List.filter (fun t => (idx.map dayOf).contains (dayOf t)) (dateRange lo (replaceHour hi 23) HOUR)).map fun t => stamp (dayOf t) (hourOf t) := by
          apply List.map_congr_left
          intro t ht
          have mt := mem_dateRange (List.mem_filter.1 ht).1 mlo
          simp only [Function.comp_def]
          rw [dayOf_minutes mt h0 h1, hourOf_minutes mt h0 h1]
        rw [e2]
      · rw [if_neg hc, if_neg hc]
        exact ⟨fun r h => (by cases h; rfl), fun h => by cases h⟩

theorem groupTransform_minutes (f : List (XF K) → List (XF K)) (s : Series (XF K)) (hs : ∀ r ∈ s, r.1 % HOUR = 0) {m : Int} (h0 : 0 ≤ m) (h1 : m < HOUR) :
    groupTransform domOf f (minutesLater m s) = minutesLater m (groupTransform domOf f s) := by
  have hd : ∀ t : Int, t % HOUR = 0 → domOf (t + m) = domOf t := by
    intro t ht; unfold domOf; rw [dayOf_minutes ht h0 h1]
  have hsc : ∀ (idx : List Time) (g : Int → List (XF K)), (∀ t ∈ idx, t % HOUR = 0) → scatter domOf g (idx.map (· + m)) = scatter domOf g idx := by
    intro idx
    induction idx with
    | nil => intro g _; rfl
    | cons t idx ih =>
      intro g hi
      rw [List.map_cons]
      unfold scatter
      rw [hd t (hi t (by simp))]
      simp only [ih _ (fun t ht => hi t (by simp [ht]))]
  have hcol : ∀ k, ((minutesLater m s).filter fun r => domOf r.1 == k).map Prod.snd = (s.filter fun r => domOf r.1 == k).map Prod.snd := by
    intro k
    unfold minutesLater
    rw [List.filter_map, List.map_map]
    have : s.filter ((fun r : Time × XF K => domOf r.1 == k) ∘ fun r : Time × XF K => (r.1 + m, r.2)) = s.filter fun r => domOf r.1 == k := by
      apply List.filter_congr
      intro r hr
      simp only [Function.comp_def]
      rw [hd r.1 (hs r hr)]
    rw [this]
    rfl
  unfold groupTransform
  simp only [hcol]
  rw [minutesLater_index, hsc _ _ (by
    intro t ht
    obtain ⟨r, hr, rfl⟩ := List.mem_map.1 ht
    exact hs r hr)]
  unfold minutesLater
  rw [List.zip_map_left]
  rfl

theorem carry_nan {H : Nat} : ∀ (ds : List Int) (prev : Int → XF K), (∀ k, prev k = .nan) → ∀ r ∈ carry H (fun _ => (XF.nan : XF K)) prev ds, r.2 = .nan
  | [], prev, _, r, hr => by simp [carry] at hr
  | d :: ds, prev, hp, r, hr => by
    rw [carry] at hr
    rcases List.mem_append.1 hr with hr | hr
    · obtain ⟨h, _, rfl⟩ := List.mem_map.1 hr
      simp only [hp]
      split <;> rfl
    · refine carry_nan ds _ ?_ r hr
      intro k
      split
      · rfl
      · exact hp k

/-- **C123 (labels with minutes, no gap).** Daily values of consecutive days labelled at the same time of day, `m` microseconds after the full hour `H`: the result is the one for
labels at the full hour, every row labelled `m` later. -/
theorem C123_minutes (api : PandasApi) {H : Nat} (hH : H < 24) (d : Int) (ds : List Int) (hs : (d :: ds).Pairwise (· < ·)) (v : Int → XF K) (divide : Bool)
    (hgap : ∀ g, d ≤ g → (∃ b ∈ d :: ds, g ≤ b) → g ∈ d :: ds) {m : Int} (h0 : 0 ≤ m) (h1 : m < HOUR) :
    ∃ out, distributeEqually api (labelled H (d :: ds) v) divide = .ok out ∧
      distributeEqually api (minutesLater m (labelled H (d :: ds) v)) divide = .ok (minutesLater m out) := by
  have hi := (hourlyIndex_label api hH d ds hs).2.1 (Or.inl hgap)
  have him := (hourlyIndex_label .modern hH d ds hs).2.1 (Or.inl hgap)
  have hidx : ∀ t ∈ (d :: ds).map (atHour · H), t % HOUR = 0 := by
    intro t ht
    obtain ⟨e, _, rfl⟩ := List.mem_map.1 ht
    unfold atHour; omega
  have hi' := (hourlyIndex_minutes api _ hidx h0 h1).1 _ him
  refine ⟨_, distribute_of_index api hH d ds hs v divide hi, ?_⟩
  unfold distributeEqually
  rw [minutesLater_index, labelled_index, hi']
  simp only [bind, Except.bind]
  have hre : (minutesLater m (labelled H (d :: ds) v)).reindex ((labelIndex H d ds).map (· + m)) =
      ((labelled H (d :: ds) v).reindex (labelIndex H d ds)).map (minutesLater m) := by
    unfold Series.reindex
    have hnd : (minutesLater m (labelled H (d :: ds) v)).index.Nodup ↔ (labelled H (d :: ds) v).index.Nodup := by
      rw [minutesLater_index]
      exact List.nodup_map_iff (fun a b h => by simpa using h)
    by_cases hn : (labelled H (d :: ds) v).index.Nodup
    · rw [if_pos hn, if_pos (hnd.2 hn)]
      show Except.ok _ = Except.ok _
      congr 1
      unfold minutesLater
      rw [List.map_map, List.map_map]
      apply List.map_congr_left
      intro t _
      have := at?_minutes (labelled H (d :: ds) v) m t
      unfold minutesLater at this
      simp only [Function.comp_def, this]
    · rw [if_neg hn, if_neg (fun h => hn (hnd.1 h))]
      rfl
  rw [hre, reindex_label hH d ds hs v]
  simp only [Except.map]
  rw [groupTransform_minutes _ _ (by
    intro r hr
    have : r.1 ∈ Series.index (fromLabel H d ds fun e h => if h = H then v e else XF.nan) := List.mem_map.2 ⟨r, hr, rfl⟩
    rw [fromLabel_index, mem_labelIndex hs] at this
    obtain ⟨e, _, h, _, _, ht⟩ := this
    rw [ht]; unfold atHour; omega) h0 h1, groupTransform_label hH]
  unfold minutesLater
  simp only [List.map_map, labelResult, share]
  cases divide
  · simp [Function.comp_def]
  · rfl

/-- **C123 (labels with minutes, gaps).** If a day is missing in between and pandas still has what the function asks for, the rows are the full hours, which are not among the labels:
every value is missing. -/
theorem C123_minutes_gap (api : PandasApi) (ha : api.indexToDatetime = true ∧ api.pdDatetime = true) {H : Nat} (hH : H < 24) (d : Int) (ds : List Int)
    (hs : (d :: ds).Pairwise (· < ·)) (v : Int → XF K) (divide : Bool)
    {g : Int} (hg : d ≤ g) (hb : ∃ b ∈ d :: ds, g ≤ b) (hn : g ∉ d :: ds) {m : Int} (h0 : 0 < m) (h1 : m < HOUR) :
    ∃ out, distributeEqually api (minutesLater m (labelled H (d :: ds) v)) divide = .ok out ∧
      (∀ t, t ∈ out.index ↔ ∃ e ∈ d :: ds, ∃ h < 24, (e = d → H ≤ h) ∧ t = atHour e h) ∧ ∀ r ∈ out, r.2 = .nan := by
  have hi := (hourlyIndex_label api hH d ds hs).2.1 (Or.inr ha)
  have him := (hourlyIndex_label .modern hH d ds hs).2.2 g hg hb hn rfl
  have hidx : ∀ t ∈ (d :: ds).map (atHour · H), t % HOUR = 0 := by
    intro t ht
    obtain ⟨e, _, rfl⟩ := List.mem_map.1 ht
    unfold atHour; omega
  have hi' := (hourlyIndex_minutes api _ hidx h0.le h1).2 him
  rw [hi] at hi'
  have key : distributeEqually api (minutesLater m (labelled H (d :: ds) v)) divide = distributeEqually api (labelled H (d :: ds) fun _ => XF.nan) divide := by
    unfold distributeEqually
    rw [minutesLater_index, labelled_index, hi', labelled_index, hi]
    simp only [bind, Except.bind]
    have hre : (minutesLater m (labelled H (d :: ds) v)).reindex (labelIndex H d ds) = (labelled H (d :: ds) fun _ => (XF.nan : XF K)).reindex (labelIndex H d ds) := by
      rw [reindex_label hH d ds hs]
      have hsort : (minutesLater m (labelled H (d :: ds) v)).index.Pairwise (· < ·) := by
        rw [minutesLater_index, labelled_index, List.map_map, List.pairwise_map]
        exact hs.imp (by intro a b h; simp only [Function.comp_def]; unfold atHour; omega)
      unfold Series.reindex
      rw [if_pos (show List.Nodup _ from hsort.imp fun h => ne_of_lt h)]
      congr 1
      have hnone : ∀ t ∈ labelIndex H d ds, (minutesLater m (labelled H (d :: ds) v)).at? t = none := by
        intro t ht
        rw [mem_labelIndex hs] at ht
        obtain ⟨e, _, h, _, _, rfl⟩ := ht
        unfold Series.at?
        rw [Option.map_eq_none_iff, List.find?_eq_none]
        intro r hr
        obtain ⟨r', hr', rfl⟩ := List.mem_map.1 hr
        obtain ⟨f, _, rfl⟩ := List.mem_map.1 hr'
        simp only [beq_iff_eq]
        unfold atHour; omega
      have e1 : (labelIndex H d ds).map (fun t => (t, ((minutesLater m (labelled H (d :: ds) v)).at? t).getD .nan)) = (labelIndex H d ds).map fun t => (t, (XF.nan : XF K)) := by
        apply List.map_congr_left
        intro t ht
        rw [hnone t ht]; rfl
      rw [e1]
      unfold labelIndex fromLabel gapS
      simp [Function.comp_def, List.map_flatMap]
    rw [hre]
  rw [key]
  have hret := distribute_of_index api hH d ds hs (fun _ => (XF.nan : XF K)) divide hi
  refine ⟨_, hret, ?_, ?_⟩
  · exact (C123_values api hH d ds hs _ divide _ hret).2.1
  · intro r hr
    obtain ⟨q, hq, rfl⟩ := List.mem_map.1 hr
    have : q.2 = .nan := by
      unfold labelResult at hq
      rcases List.mem_append.1 hq with hq | hq
      · obtain ⟨_, _, rfl⟩ := List.mem_map.1 hq; rfl
      · exact carry_nan ds _ (by intro k; split <;> rfl) q hq
    simp only [this]
    cases divide <;> rfl

/-- three days labelled at 6:30: the last row is 23:30 of the third day -/
example : okAnd (distributeEqually .modern (minutesLater (30 * MINUTE) (labelled 6 [0, 1, 2] exValue)) false) (fun out =>
    out.index.length == 66 && out.index.getLast? == some (2 * DAY + 23 * HOUR + 30 * MINUTE) && out.at? (30 * MINUTE + 6 * HOUR) == some (.fin 100)) = true := by decide +kernel

/-- with a gap and pandas as it was all is lost -/
example : okAnd (distributeEqually .legacy (minutesLater (30 * MINUTE) (labelled 0 [0, 2] exValue)) false) (fun out =>
    out.length == 48 && out.all fun r => r.2.isNan) = true := by decide +kernel

end Melodist
