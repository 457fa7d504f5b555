import Verif.Props.CascadeRun
import Verif.Props.DistributeGaps
import Verif.Props.SubIndex
import Verif.Props.Index

/-!
# Records of daily precipitation with missing dates or rows out of order
-/
set_option linter.unusedSectionVars false

namespace Melodist
open Spec
variable {K : Type} [Field K] [LinearOrder K] [IsStrictOrderedRing K]

/-- `m` times per day: the times `τ e 0, …, τ e (m - 1)` of the days `es` -/
def blockIndex (m : Nat) (τ : Int → Nat → Time) (es : List Int) : List Time := es.flatMap fun e => (List.range m).map (τ e)

section blocks
variable {m : Nat} {τ : Int → Nat → Time}

theorem blockIndex_cons (e : Int) (es : List Int) : blockIndex m τ (e :: es) = (List.range m).map (τ e) ++ blockIndex m τ es := rfl

theorem blockIndex_length (es : List Int) : (blockIndex m τ es).length = m * es.length := by
  induction es with
  | nil => rfl
  | cons e es ih => rw [blockIndex_cons, List.length_append, ih]; simp; ring

theorem mem_blockIndex {es : List Int} {t : Time} : t ∈ blockIndex m τ es ↔ ∃ e ∈ es, ∃ j < m, t = τ e j := by
  unfold blockIndex
  simp only [List.mem_flatMap, List.mem_map, List.mem_range]
  constructor
  · rintro ⟨e, he, j, hj, rfl⟩; exact ⟨e, he, j, hj, rfl⟩
  · rintro ⟨e, he, j, hj, rfl⟩; exact ⟨e, he, j, hj, rfl⟩

theorem blockIndex_sorted {es : List Int} (hs : es.Pairwise (· < ·)) (hday : ∀ e j, j < m → dayOf (τ e j) = e)
    (hmono : ∀ e i j, i < j → j < m → τ e i < τ e j) : (blockIndex m τ es).Pairwise (· < ·) := by
  unfold blockIndex
  rw [List.pairwise_flatMap]
  refine ⟨?_, ?_⟩
  · intro e _
    rw [List.pairwise_map]
    refine List.Pairwise.imp_of_mem (R := (· < ·)) ?_ (List.pairwise_lt_range (n := m))
    intro a b _ hb h
    exact hmono e a b h (List.mem_range.1 hb)
  · refine hs.imp ?_
    intro a b hab x hx y hy
    obtain ⟨i, hi, rfl⟩ := List.mem_map.1 hx
    obtain ⟨j, hj, rfl⟩ := List.mem_map.1 hy
    have h1 := hday a i (List.mem_range.1 hi)
    have h2 := hday b j (List.mem_range.1 hj)
    by_contra hc
    have : dayOf (τ b j) ≤ dayOf (τ a i) := by unfold dayOf; exact Int.ediv_le_ediv (by norm_num) (not_lt.1 hc)
    omega

/-- an increasing index with these members -/
theorem eq_blockIndex {idx : List Time} {ds es : List Int} (hs : es.Pairwise (· < ·)) (hp : es.Perm ds) (hday : ∀ e j, j < m → dayOf (τ e j) = e)
    (hmono : ∀ e i j, i < j → j < m → τ e i < τ e j) (hidx : idx.Pairwise (· < ·)) (hm : ∀ t, t ∈ idx ↔ ∃ e ∈ ds, ∃ j < m, t = τ e j) :
    idx = blockIndex m τ es := by
  have h2 := blockIndex_sorted hs hday hmono
  refine List.Perm.eq_of_pairwise (fun a b _ _ h1 h2 => absurd h2 (by have h1 : a < b := h1; show ¬ b < a; omega)) hidx h2 ?_
  refine (List.perm_ext_iff_of_nodup (hidx.imp fun h => ne_of_lt h) (h2.imp fun h => ne_of_lt h)).2 ?_
  intro t
  rw [hm, mem_blockIndex]
  constructor
  · rintro ⟨e, he, h⟩; exact ⟨e, hp.mem_iff.2 he, h⟩
  · rintro ⟨e, he, h⟩; exact ⟨e, hp.mem_iff.1 he, h⟩

theorem dayCells_append {V : Type} (s t : Series V) (d : Int) : dayCells (s ++ t) d = dayCells s d ++ dayCells t d := by
  simp [dayCells]

theorem dayCells_none {V : Type} {s : Series V} {d : Int} (h : ∀ t ∈ s.index, dayOf t ≠ d) : dayCells s d = [] := by
  unfold dayCells
  rw [List.filter_eq_nil_iff.2]
  · rfl
  · intro r hr
    have := h r.1 (List.mem_map.2 ⟨r, hr, rfl⟩)
    simpa [dayOf] using this

theorem dayCells_all {V : Type} {s : Series V} {d : Int} (h : ∀ t ∈ s.index, dayOf t = d) : dayCells s d = s.values := by
  unfold dayCells
  rw [List.filter_eq_self.2]
  · rfl
  · intro r hr
    have := h r.1 (List.mem_map.2 ⟨r, hr, rfl⟩)
    simpa [dayOf] using this

theorem zipped_index {V : Type} {idx : List Time} {vals : List V} (h : idx.length ≤ vals.length) : Series.index (idx.zip vals) = idx := by
  unfold Series.index; exact List.map_fst_zip h

/-- the cells of the `k`-th day of the blocks -/
theorem block_cells {V : Type} (hday : ∀ e j, j < m → dayOf (τ e j) = e) : ∀ {es : List Int}, es.Nodup → ∀ {vals : List V}, vals.length = m * es.length →
    ∀ {k : Nat} {e : Int}, es[k]? = some e → dayCells ((blockIndex m τ es).zip vals) e = (vals.drop (m * k)).take m := by
  intro es
  induction es with
  | nil => intro _ vals _ k e h; simp at h
  | cons d es ih =>
    intro hnd vals hlen k e he
    rw [List.nodup_cons] at hnd
    have hsplit : vals = vals.take m ++ vals.drop m := (List.take_append_drop m vals).symm
    have hl1 : (vals.take m).length = m := by rw [List.length_take, hlen, List.length_cons]; exact min_eq_left (by nlinarith)
    have hl2 : (vals.drop m).length = m * es.length := by rw [List.length_drop, hlen, List.length_cons, Nat.mul_succ]; omega
    have hz : (blockIndex m τ (d :: es)).zip vals =
        (((List.range m).map (τ d)).zip (vals.take m)) ++ ((blockIndex m τ es).zip (vals.drop m)) := by
      conv_lhs => rw [hsplit]
      rw [blockIndex_cons, List.zip_append (by simp [hl1])]
    have hi1 : Series.index (((List.range m).map (τ d)).zip (vals.take m)) = (List.range m).map (τ d) := zipped_index (by simp [hl1])
    have hi2 : Series.index ((blockIndex m τ es).zip (vals.drop m)) = blockIndex m τ es := zipped_index (by rw [blockIndex_length, hl2])
    rw [hz, dayCells_append]
    cases k with
    | zero =>
      simp only [List.getElem?_cons_zero, Option.some.injEq] at he
      subst he
      rw [dayCells_all, dayCells_none (s := (blockIndex m τ es).zip _), List.append_nil]
      · unfold Series.values
        rw [List.map_snd_zip (by simp [hl1])]; simp
      · rw [hi2]
        intro t ht
        obtain ⟨e, he, j, hj, rfl⟩ := mem_blockIndex.1 ht
        rw [hday e j hj]
        rintro rfl
        exact hnd.1 he
      · rw [hi1]
        intro t ht
        obtain ⟨j, hj, rfl⟩ := List.mem_map.1 ht
        exact hday _ j (List.mem_range.1 hj)
    | succ k =>
      simp only [List.getElem?_cons_succ] at he
      have hmem : e ∈ es := List.mem_of_getElem? he
      rw [dayCells_none (s := ((List.range m).map (τ d)).zip _), List.nil_append, ih hnd.2 hl2 he, List.drop_drop]
      · congr 2; ring
      · rw [hi1]
        intro t ht
        obtain ⟨j, hj, rfl⟩ := List.mem_map.1 ht
        rw [hday _ j (List.mem_range.1 hj)]
        rintro rfl
        exact hnd.1 hmem

end blocks

/-! ### the index of the output -/

theorem labelled_at00 (ds : List Int) (v : Int → XF K) : (labelled 0 ds v).index = ds.map at00 := by
  rw [labelled_index]
  apply List.map_congr_left
  intro d _
  unfold atHour at00; simp

theorem labelled_values (H : Nat) (ds : List Int) (v : Int → XF K) : (labelled H ds v).values = ds.map v := by
  simp [labelled, Series.values, Function.comp_def]

theorem labelled_length (H : Nat) (ds : List Int) (v : Int → XF K) : (labelled H ds v).length = ds.length := by simp [labelled]

theorem atHour_mono (e : Int) (i j : Nat) (h : i < j) (_ : j < 24) : atHour e i < atHour e j := by unfold atHour; omega

theorem hourlyIndex_blocks {api : PandasApi} {ds es : List Int} (hne : ds ≠ []) (hnd : ds.Nodup) (hs : es.Pairwise (· < ·)) (hp : es.Perm ds) {idx : List Time}
    (h : hourlyIndex api (ds.map at00) = .ok idx) : idx = blockIndex 24 atHour es := by
  obtain ⟨h1, h2⟩ := C02_hourly_index_gaps api ds hne hnd idx h
  exact eq_blockIndex hs hp (fun e j hj => dayOf_atHour e hj) atHour_mono h1 h2

/-- no gap in a list of days -/
def NoGap (ds : List Int) : Prop := ∀ d, (∃ a ∈ ds, a ≤ d) → (∃ b ∈ ds, d ≤ b) → d ∈ ds

theorem gap_of_not {ds : List Int} (h : ¬ NoGap ds) : ∃ a ∈ ds, ∃ b ∈ ds, ∃ g, a < g ∧ g < b ∧ g ∉ ds := by
  unfold NoGap at h
  push Not at h
  obtain ⟨g, ⟨a, ha, hag⟩, ⟨b, hb, hgb⟩, hg⟩ := h
  refine ⟨a, ha, b, hb, g, ?_, ?_, hg⟩
  · rcases hag.lt_or_eq with h | rfl
    · exact h
    · exact absurd ha hg
  · rcases hgb.lt_or_eq with h | rfl
    · exact h
    · exact absurd hb hg

/-- the times of the fine steps: exact without a gap, cut down to full seconds with one -/
noncomputable def stepTime (ds : List Int) (level : Nat) (e : Int) (j : Nat) : Time := by
  classical exact if NoGap ds then atStep level e j else atStep level e j / 1000000 * 1000000

theorem step_mul_le {level j : Nat} (hl : level ≤ 11) (hj : j < 2 ^ level) :
    (j : Int) * (42187500 * 2 ^ (11 - level)) + 42187500 * 2 ^ (11 - level) ≤ 86400000000 := by
  have h := step_mul hl
  have h2 : ((j : Int) + 1) ≤ 2 ^ level := by exact_mod_cast hj
  have h3 : (0 : Int) < 42187500 * 2 ^ (11 - level) := by positivity
  have h4 : DAY = 86400000000 := rfl
  nlinarith

theorem stepTime_bounds (ds : List Int) {level : Nat} (hl : level ≤ 11) (e : Int) {j : Nat} (hj : j < 2 ^ level) :
    atStep level e j - 1000000 < stepTime ds level e j ∧ stepTime ds level e j ≤ atStep level e j ∧ at00 e ≤ stepTime ds level e j := by
  have h1 := step_mul_le hl hj
  have h0 : (0 : Int) ≤ (j : Int) * (42187500 * 2 ^ (11 - level)) := by positivity
  unfold stepTime atStep at00
  generalize (j : Int) * (42187500 * 2 ^ (11 - level)) = x at *
  split <;> omega

theorem stepTime_day (ds : List Int) {level : Nat} (hl : level ≤ 11) (e : Int) (j : Nat) (hj : j < 2 ^ level) : dayOf (stepTime ds level e j) = e := by
  have h1 := step_mul_le hl hj
  obtain ⟨_, h2, h3⟩ := stepTime_bounds ds hl e hj
  have hp : (0 : Int) < 42187500 * 2 ^ (11 - level) := by positivity
  unfold atStep at h2
  unfold at00 at h2 h3
  have h4 : DAY = 86400000000 := rfl
  unfold dayOf
  omega

theorem stepTime_mono (ds : List Int) {level : Nat} (hl : level ≤ 11) (e : Int) (i j : Nat) (hij : i < j) (hj : j < 2 ^ level) :
    stepTime ds level e i < stepTime ds level e j := by
  obtain ⟨_, h1, _⟩ := stepTime_bounds ds hl e (lt_trans hij hj)
  obtain ⟨h2, _, _⟩ := stepTime_bounds ds hl e hj
  have h3 : atStep level e i + 1000000 ≤ atStep level e j := by
    unfold atStep
    have hs : (1000000 : Int) ≤ 42187500 * 2 ^ (11 - level) := by
      have : (1 : Int) ≤ 2 ^ (11 - level) := one_le_pow₀ (by norm_num)
      linarith
    have hc : (i : Int) + 1 ≤ j := by exact_mod_cast hij
    nlinarith
  omega

theorem subLevelIndex_blocks {api : PandasApi} {level : Nat} (hl : level ≤ 11) {ds es : List Int} (hne : ds ≠ []) (hnd : ds.Nodup) (hs : es.Pairwise (· < ·)) (hp : es.Perm ds)
    {idx : List Time} (h : subLevelIndex api (ds.map at00) level = .ok idx) : idx = blockIndex (2 ^ level) (stepTime ds level) es := by
  refine eq_blockIndex (ds := ds) hs hp (stepTime_day ds hl) (stepTime_mono ds hl) ?_ ?_
  · by_cases hg : NoGap ds
    · obtain ⟨⟨i, e, _, h1, _⟩, _⟩ := C95_no_gaps (api := api) hl hne hnd false hg
      rw [e] at h; injection h with h; exact h ▸ h1
    · obtain ⟨a, ha, b, hb, g, hg'⟩ := gap_of_not hg
      obtain ⟨c1, c2⟩ := C95_gaps (api := api) hl hnd ha hb ⟨hg'.1, hg'.2.1, hg'.2.2⟩
      cases hapi : api.pdDatetime with
      | false => rw [(c1 hapi).1] at h; cases h
      | true =>
        obtain ⟨⟨i, e, h1, _⟩, _⟩ := c2 hapi
        rw [e] at h; injection h with h; exact h ▸ h1
  · by_cases hg : NoGap ds
    · obtain ⟨⟨i, e, _, _, h2⟩, _⟩ := C95_no_gaps (api := api) hl hne hnd false hg
      rw [e] at h; injection h with h
      subst h
      simpa [stepTime, hg] using h2
    · obtain ⟨a, ha, b, hb, g, hg'⟩ := gap_of_not hg
      obtain ⟨c1, c2⟩ := C95_gaps (api := api) hl hnd ha hb ⟨hg'.1, hg'.2.1, hg'.2.2⟩
      cases hapi : api.pdDatetime with
      | false => rw [(c1 hapi).1] at h; cases h
      | true =>
        obtain ⟨⟨i, e, _, h2⟩, _⟩ := c2 hapi
        rw [e] at h; injection h with h
        subst h
        simpa [stepTime, hg] using h2

/-! ### the result -/

/-- the rows with a missing value -/
theorem labelled_missing (ds : List Int) (v : Int → XF K) (e : Int) :
    ((((labelled 0 ds v).filter fun r => r.2.isNan).map Prod.fst).map dayOf).contains e = (decide (e ∈ ds) && (v e).isNan) := by
  rw [Bool.eq_iff_iff, List.contains_iff_mem]
  simp only [List.mem_map, List.mem_filter, Bool.and_eq_true, decide_eq_true_eq]
  constructor
  · rintro ⟨t, ⟨r, ⟨hr, hn⟩, rfl⟩, rfl⟩
    obtain ⟨d, hd, rfl⟩ := List.mem_map.1 hr
    simp only at hn ⊢
    rw [dayOf_atHour d (by norm_num)]
    exact ⟨hd, hn⟩
  · rintro ⟨he, hn⟩
    exact ⟨atHour e 0, ⟨(atHour e 0, v e), ⟨List.mem_map.2 ⟨e, he, rfl⟩, hn⟩, rfl⟩, dayOf_atHour e (by norm_num)⟩

theorem make_ok {idx : List Time} {data : List K} {s : Series K} (h : Series.make idx data = .ok s) : s = idx.zip data := by
  unfold Series.make at h
  split at h
  · injection h with h; exact h.symm
  · cases h

theorem cascade_hourly_gap {api : PandasApi} {rnd : Nat → K} {opts : CascOptions K} {level : Nat} {test : Bool} {r : CascadeOut K}
    {ds es : List Int} (hnd : ds.Nodup) (hs : es.Pairwise (· < ·)) (hp : es.Perm ds) {v : Int → XF K}
    (h : disaggPrecCascade api rnd (labelled 0 ds v) opts true level 0 test = .ok r) :
    2 ≤ ds.length ∧ ∃ w q, zeroMissing (ds.map v) = .ok w ∧ levelLoop rnd opts 5 w {} = .ok r.levels ∧
      q = hourlyFromQuarter (quarterHours (r.levels.getLastD [])) ∧ BlockSplit 24 w q ∧
      r.series = restoreMissing (((labelled 0 ds v).filter fun r => r.2.isNan).map Prod.fst) ((blockIndex 24 atHour es).zip q) := by
  obtain ⟨hl, w, levels, fine, s, hz, _, hc, hlev, ha, rfl⟩ := disagg_inv h
  rw [labelled_length] at hl
  rw [labelled_values] at hz
  have hne : ds ≠ [] := by rintro rfl; simp at hl
  simp only [if_true] at hlev hc
  have hb := levelLoop_last hlev
  have hq := hb.trans (quarterHours_split _ hb.nonneg)
  have hh : BlockSplit 24 w (hourlyFromQuarter (quarterHours (levels.getLastD []))) := by
    rw [hourlyFromQuarter_eq]; exact BlockSplit.agg (m := 24) hq
  unfold assembleSeries at ha
  simp only [if_true] at ha
  rw [labelled_at00] at ha
  obtain ⟨idx, hi, ha⟩ := Except.bind_ok ha
  obtain ⟨s', hm, ha⟩ := Except.bind_ok ha
  injection ha with ha
  injection ha with ha1 ha2
  have := make_ok hm
  rw [hourlyIndex_blocks hne hnd hs hp hi] at this
  exact ⟨hl, w, _, hz, hlev, rfl, hh, by rw [← ha2, this]; simp⟩

theorem cascade_5min_gap {api : PandasApi} {rnd : Nat → K} {opts : CascOptions K} {level : Nat} {test : Bool} {r : CascadeOut K}
    {ds es : List Int} (hnd : ds.Nodup) (hs : es.Pairwise (· < ·)) (hp : es.Perm ds) {v : Int → XF K}
    (h : disaggPrecCascade api rnd (labelled 0 ds v) opts false level 0 test = .ok r) :
    2 ≤ ds.length ∧ 1 ≤ level ∧ level ≤ 11 ∧ ∃ w, zeroMissing (ds.map v) = .ok w ∧ levelLoop rnd opts level w {} = .ok r.levels ∧
      BlockSplit (2 ^ level) w (r.levels.getLastD []) ∧
      r.series = restoreMissing (((labelled 0 ds v).filter fun r => r.2.isNan).map Prod.fst)
        (resample5min ((blockIndex (2 ^ level) (stepTime ds level) es).zip (r.levels.getLastD []))) := by
  obtain ⟨hl, w, levels, fine, s, hz, hlev1, hc, hlev, ha, rfl⟩ := disagg_inv h
  rw [labelled_length] at hl
  rw [labelled_values] at hz
  have hne : ds ≠ [] := by rintro rfl; simp at hl
  simp only [Bool.false_eq_true, if_false] at hlev hc hlev1
  obtain ⟨l, rfl⟩ : ∃ l, level = l + 1 := ⟨level - 1, by omega⟩
  have hb := levelLoop_last hlev
  unfold assembleSeries at ha
  simp only [Bool.false_eq_true, if_false] at ha
  rw [labelled_at00] at ha
  obtain ⟨idx, hi, ha⟩ := Except.bind_ok ha
  obtain ⟨s', hm, ha⟩ := Except.bind_ok ha
  injection ha with ha
  injection ha with ha1 ha2
  have := make_ok hm
  rw [subLevelIndex_blocks hlev1.2 hne hnd hs hp hi] at this
  exact ⟨hl, hlev1.1, hlev1.2, w, hz, hlev, hb, by rw [← ha2, this]; simp⟩

end Melodist
