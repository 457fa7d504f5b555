import Verif.Props.CascadeIndep
import Verif.Props.CascadeRun
import Verif.Lemmas.DrySpells
import Verif.Spec.DrySpells

/-!
# C140: the length of dry spells does not matter, and how many random numbers a run uses
-/

set_option linter.unusedSectionVars false

namespace Melodist
open Spec

/-! ### random numbers -/

section
variable {K : Type} [Field K] [LinearOrder K] [IsStrictOrderedRing K]

theorem wetBoxes_zeroMissing : ∀ {daily : Series (XF K)} {v : List K}, zeroMissing daily.values = .ok v → wetBoxes v = wetDays daily := by
  intro daily
  induction daily with
  | nil => intro v h; cases h; rfl
  | cons r daily ih =>
    intro v h
    obtain ⟨t, c⟩ := r
    unfold wetDays
    rw [List.countP_cons]
    cases c with
    | nan =>
      simp only [Series.values, List.map_cons, zeroMissing] at h
      obtain ⟨v', h1, h2⟩ := Except.bind_ok h
      cases h2
      rw [wetBoxes_cons, ih h1]
      simp [wetDays]
    | fin x =>
      simp only [Series.values, List.map_cons, zeroMissing] at h
      obtain ⟨v', h1, h2⟩ := Except.bind_ok h
      cases h2
      rw [wetBoxes_cons, ih h1]
      simp [wetDays, add_comm]
    | pinf => cases h
    | ninf => cases h

/-- C140, random numbers: a run uses at most two random numbers for every wet box, that is at most `2 * (2 ^ L - 1)` for every wet day (62 for hourly values): two
sources that agree on that many numbers give the same result.  For a record without precipitation no random number matters. -/
theorem C140_random_numbers (api : PandasApi) (rnd rnd' : Nat → K) (daily : Series (XF K)) (opts : CascOptions K) (hourly : Bool) (level : Nat) (shift : Int) (test : Bool)
    (h : ∀ i < 2 * ((2 ^ (if hourly then 5 else level) - 1) * wetDays daily), rnd i = rnd' i) :
    disaggPrecCascade api rnd daily opts hourly level shift test = disaggPrecCascade api rnd' daily opts hourly level shift test := by
  unfold disaggPrecCascade
  split
  · rfl
  simp only [bind, Except.bind]
  cases hz : zeroMissing daily.values with
  | error e => rfl
  | ok v =>
    simp only
    rw [levelLoop_draws (rnd := rnd) (rnd' := rnd')]
    intro i _ hi
    refine h i ?_
    rw [wetBoxes_zeroMissing hz] at hi
    simpa using hi

end

/-! ### dry spells -/

noncomputable section

section
variable {api : PandasApi} {opts : CascOptions ℝ} {hourly : Bool} {level : Nat} {shift : Int} {test : Bool} {rnd : Nat → ℝ}

theorem dailyAmounts_append (a b : Nat) (v : Nat → XF ℝ) : dailyAmounts (a + b) v = dailyAmounts a v ++ dailyAmounts b (fun i => v (a + i)) := by
  unfold dailyAmounts
  rw [List.range_add, List.map_append, List.map_map]
  rfl

theorem dailyAmounts_dry {g : Nat} {v : Nat → XF ℝ} (h : ∀ i < g, Dry (v i)) : dailyAmounts g v = List.replicate g 0 := by
  unfold dailyAmounts
  refine List.eq_replicate_iff.2 ⟨by simp, fun x hx => ?_⟩
  obtain ⟨i, hi, rfl⟩ := List.mem_map.1 hx
  rcases h i (List.mem_range.1 hi) with h | h <;> rw [h]

theorem dailyAmounts_congr {n : Nat} {v w : Nat → XF ℝ} (h : ∀ i < n, w i = v i) : dailyAmounts n w = dailyAmounts n v := by
  unfold dailyAmounts
  exact List.map_congr_left fun i hi => by rw [h i (List.mem_range.1 hi)]

theorem dailyAmounts_gap {m g k : Nat} {v : Nat → XF ℝ} (h : ∀ i < g, Dry (v (m + i))) :
    dailyAmounts (m + g + k) v = dailyAmounts m v ++ List.replicate g 0 ++ dailyAmounts k (fun j => v (m + g + j)) := by
  rw [dailyAmounts_append, dailyAmounts_append, dailyAmounts_dry h]

theorem gap_parts {m k : Nat} {A B : List ℝ} (hA : A.length = m) (hB : B.length = k) {L : Nat} {ps : List (List ℝ × List ℝ)} {st : CascVars ℝ}
    (hps : dryGapLevels rnd opts L A B st = .ok ps) (g : Nat) :
    daysPart 0 m (ps.mapIdx fun l p => p.1 ++ List.replicate (g * 2 ^ (l + 1)) 0 ++ p.2) = ps.map Prod.fst ∧
      daysPart (m + g) k (ps.mapIdx fun l p => p.1 ++ List.replicate (g * 2 ^ (l + 1)) 0 ++ p.2) = ps.map Prod.snd := by
  unfold daysPart
  constructor
  · apply List.ext_getElem (by simp)
    intro l h1 h2
    simp only [List.getElem_mapIdx, List.getElem_map]
    have hl : l < ps.length := by simpa using h2
    obtain ⟨e1, e2⟩ := dryGapLevels_length L hps l ps[l] (List.getElem?_eq_getElem hl)
    rw [hA] at e1
    rw [Nat.zero_mul, List.drop_zero, List.append_assoc, ← e1, List.take_left]
  · apply List.ext_getElem (by simp)
    intro l h1 h2
    simp only [List.getElem_mapIdx, List.getElem_map]
    have hl : l < ps.length := by simpa using h2
    obtain ⟨e1, e2⟩ := dryGapLevels_length L hps l ps[l] (List.getElem?_eq_getElem hl)
    rw [hA] at e1
    rw [hB] at e2
    have : (m + g) * 2 ^ (l + 1) = (ps[l].1 ++ List.replicate (g * 2 ^ (l + 1)) (0 : ℝ)).length := by
      rw [List.length_append, List.length_replicate, e1]; ring
    rw [this, List.drop_left, ← e2, List.take_length]

/-- C140 for the levels: two records with the same `m` days before and the same `k` days after a dry spell, of `g` days in one and of `g'` days in the other.  With
the same random numbers both runs give the same boxes on all levels for the days before and for the days after the dry spell. -/
theorem C140_dry_spell (ht : hourly = true ∨ test = false ∨ 9 ≤ level) (d0 d1 : Int) {m g g' k : Nat} (hg : 0 < g) (hg' : 0 < g') (hn : 2 ≤ m + g + k) (hn' : 2 ≤ m + g' + k)
    {v w : Nat → XF ℝ} (hv : ∀ i < m + g + k, v i = .nan ∨ ∃ x, 0 ≤ x ∧ v i = .fin x) (hA : ∀ i < m, w i = v i) (hB : ∀ j < k, w (m + g' + j) = v (m + g + j))
    (dv : ∀ i < g, Dry (v (m + i))) (dw : ∀ i < g', Dry (w (m + i)))
    {r : CascadeOut ℝ} (h : disaggPrecCascade api rnd (dailyS d0 (m + g + k) v) opts hourly level shift test = .ok r) :
    ∃ r', disaggPrecCascade api rnd (dailyS d1 (m + g' + k) w) opts hourly level shift test = .ok r' ∧
      daysPart 0 m r'.levels = daysPart 0 m r.levels ∧ daysPart (m + g') k r'.levels = daysPart (m + g) k r.levels := by
  have hw : ∀ i < m + g' + k, w i = .nan ∨ ∃ x, 0 ≤ x ∧ w i = .fin x := by
    intro i hi
    by_cases h1 : i < m
    · rw [hA i h1]; exact hv i (by omega)
    · by_cases h2 : i < m + g'
      · rcases dw (i - m) (by omega) with h | h <;> rw [show m + (i - m) = i by omega] at h
        · exact .inl h
        · exact .inr ⟨0, le_rfl, h⟩
      · have := hB (i - (m + g')) (by omega)
        rw [show m + g' + (i - (m + g')) = i by omega] at this
        rw [this]
        exact hv _ (by omega)
  obtain ⟨-, _, _, _, _, -, ⟨h1, h11⟩, hc, -⟩ := disagg_inv h
  have hl := (run_levels api rnd opts hourly level shift test ht d0 _ hn v hv h1 h11 hc r.levels).1 ⟨r, h, rfl⟩
  rw [dailyAmounts_gap dv, levelLoop_gap _ hg] at hl
  cases hps : dryGapLevels rnd opts (if hourly then 5 else level) (dailyAmounts m v) (dailyAmounts k fun j => v (m + g + j)) {} with
  | error e => rw [hps] at hl; cases hl
  | ok ps =>
    rw [hps] at hl
    simp only [Except.map, Except.ok.injEq] at hl
    obtain ⟨r', e, e'⟩ := (run_levels api rnd opts hourly level shift test ht d1 _ hn' w hw h1 h11 hc
      (ps.mapIdx fun l p => p.1 ++ List.replicate (g' * 2 ^ (l + 1)) 0 ++ p.2)).2 (by
        rw [dailyAmounts_gap dw, levelLoop_gap _ hg', dailyAmounts_congr hA, dailyAmounts_congr hB, hps]
        rfl)
    refine ⟨r', e, ?_⟩
    have p1 := gap_parts (m := m) (k := k) (by simp [dailyAmounts]) (by simp [dailyAmounts]) hps g
    have p2 := gap_parts (m := m) (k := k) (by simp [dailyAmounts]) (by simp [dailyAmounts]) hps g'
    rw [e', ← hl, p1.1, p1.2, p2.1, p2.2]
    exact ⟨rfl, rfl⟩

/-- C140 for hourly values: changing the length of the dry spell leaves the hours of the days before as they are and moves the hours of the days after by whole days. -/
theorem C140_dry_spell_hours (d0 : Int) {m g g' k : Nat} (hg : 0 < g) (hg' : 0 < g') (hn : 2 ≤ m + g + k) (hn' : 2 ≤ m + g' + k)
    {v w : Nat → XF ℝ} (hv : ∀ i < m + g + k, v i = .nan ∨ ∃ x, 0 ≤ x ∧ v i = .fin x) (hA : ∀ i < m, w i = v i) (hB : ∀ j < k, w (m + g' + j) = v (m + g + j))
    (dv : ∀ i < g, Dry (v (m + i))) (dw : ∀ i < g', Dry (w (m + i)))
    {r : CascadeOut ℝ} (h : disaggPrecCascade api rnd (dailyS d0 (m + g + k) v) opts true level 0 test = .ok r) :
    ∃ r', disaggPrecCascade api rnd (dailyS d0 (m + g' + k) w) opts true level 0 test = .ok r' ∧
      daysCells r'.series d0 m = daysCells r.series d0 m ∧
      daysCells r'.series (d0 + (m + g' : Nat)) k = daysCells r.series (d0 + (m + g : Nat)) k := by
  obtain ⟨r', e, e1, e2⟩ := C140_dry_spell (shift := 0) (.inl rfl) d0 d0 hg hg' hn hn' hv hA hB dv dw h
  refine ⟨r', e, ?_, ?_⟩
  · have a1 := hoursOf_run e (a := 0) (k := m) (by omega)
    have a2 := hoursOf_run h (a := 0) (k := m) (by omega)
    simp only [Nat.cast_zero, add_zero, zero_add] at a1 a2
    rw [a1, a2, e1]
    unfold hoursFn
    exact List.map_congr_left fun i hi => by simp only [hA i (List.mem_range.1 hi)]
  · rw [hoursOf_run e (a := m + g') (k := k) (by omega), hoursOf_run h (a := m + g) (k := k) (by omega), e2]
    unfold hoursFn
    exact List.map_congr_left fun i hi => by simp only [hB i (List.mem_range.1 hi)]

theorem ends_part {m : Nat} {ls : List (List ℝ)} (hl : ∀ l c, ls[l]? = some c → c.length = m * 2 ^ (l + 1)) (a b : Nat) :
    daysPart a m (ls.mapIdx fun l p => List.replicate (a * 2 ^ (l + 1)) 0 ++ p ++ List.replicate (b * 2 ^ (l + 1)) 0) = ls := by
  unfold daysPart
  apply List.ext_getElem (by simp)
  intro l h1 h2
  simp only [List.getElem_mapIdx]
  have e := hl l ls[l] (List.getElem?_eq_getElem h2)
  rw [List.append_assoc, List.drop_left' List.length_replicate, ← e, List.take_left]

/-- C140 at the ends of the record, for the levels: `a` dry days before and `b` dry days after a record of at least two days change nothing in between. -/
theorem C140_dry_ends (ht : hourly = true ∨ test = false ∨ 9 ≤ level) (d0 d1 : Int) {a m b : Nat} (hm : 2 ≤ m)
    {v : Nat → XF ℝ} (hv : ∀ i < m, v (a + i) = .nan ∨ ∃ x, 0 ≤ x ∧ v (a + i) = .fin x) (da : ∀ i < a, Dry (v i)) (db : ∀ i < b, Dry (v (a + m + i)))
    {r : CascadeOut ℝ} (h : disaggPrecCascade api rnd (dailyS d0 m fun i => v (a + i)) opts hourly level shift test = .ok r) :
    ∃ r', disaggPrecCascade api rnd (dailyS d1 (a + m + b) v) opts hourly level shift test = .ok r' ∧ daysPart a m r'.levels = r.levels := by
  have hw : ∀ i < a + m + b, v i = .nan ∨ ∃ x, 0 ≤ x ∧ v i = .fin x := by
    intro i hi
    by_cases h1 : i < a
    · rcases da i h1 with h | h
      · exact .inl h
      · exact .inr ⟨0, le_rfl, h⟩
    · by_cases h2 : i < a + m
      · have := hv (i - a) (by omega)
        rwa [show a + (i - a) = i by omega] at this
      · have := db (i - (a + m)) (by omega)
        rw [show a + m + (i - (a + m)) = i by omega] at this
        rcases this with h | h
        · exact .inl h
        · exact .inr ⟨0, le_rfl, h⟩
  obtain ⟨-, _, _, _, _, -, ⟨h1, h11⟩, hc, -⟩ := disagg_inv h
  have hl := (run_levels api rnd opts hourly level shift test ht d0 m hm _ hv h1 h11 hc r.levels).1 ⟨r, h, rfl⟩
  have hlen : (dailyAmounts m fun i => v (a + i)).length = m := by simp [dailyAmounts]
  have hnn : ∀ x ∈ dailyAmounts m fun i => v (a + i), 0 ≤ x := by
    intro x hx
    obtain ⟨i, hi, rfl⟩ := List.mem_map.1 hx
    rcases hv i (List.mem_range.1 hi) with h | ⟨y, hy, h⟩ <;> simp only [h]
    · exact le_rfl
    · exact hy
  obtain ⟨r', e, e'⟩ := (run_levels api rnd opts hourly level shift test ht d1 (a + m + b) (by omega) v hw h1 h11 hc
    (r.levels.mapIdx fun l p => List.replicate (a * 2 ^ (l + 1)) 0 ++ p ++ List.replicate (b * 2 ^ (l + 1)) 0)).2 (by
      rw [dailyAmounts_append, dailyAmounts_append, dailyAmounts_dry da, dailyAmounts_dry db, levelLoop_ends _ a b (by omega) hnn, hl]
      rfl)
  refine ⟨r', e, ?_⟩
  rw [e']
  refine ends_part (fun l c hc => ?_) a b
  have := (levelLoop_split hl l c hc).length
  rw [this, hlen, mul_comm]

/-- C140 at the ends of the record, for hourly values. -/
theorem C140_dry_ends_hours (d0 : Int) {a m b : Nat} (hm : 2 ≤ m)
    {v : Nat → XF ℝ} (hv : ∀ i < m, v (a + i) = .nan ∨ ∃ x, 0 ≤ x ∧ v (a + i) = .fin x) (da : ∀ i < a, Dry (v i)) (db : ∀ i < b, Dry (v (a + m + i)))
    {r : CascadeOut ℝ} (h : disaggPrecCascade api rnd (dailyS (d0 + a) m fun i => v (a + i)) opts true level 0 test = .ok r) :
    ∃ r', disaggPrecCascade api rnd (dailyS d0 (a + m + b) v) opts true level 0 test = .ok r' ∧
      daysCells r'.series (d0 + a) m = daysCells r.series (d0 + a) m := by
  obtain ⟨r', e, e1⟩ := C140_dry_ends (shift := 0) (.inl rfl) (d0 + a) d0 hm hv da db h
  refine ⟨r', e, ?_⟩
  have a1 := hoursOf_run e (a := a) (k := m) (by omega)
  have a2 := hoursOf_run h (a := 0) (k := m) (by omega)
  simp only [Nat.cast_zero, add_zero, zero_add] at a1 a2
  rw [a1, a2, e1]
  congr 1
  unfold daysPart
  apply List.ext_getElem (by simp)
  intro l h1 h2
  simp only [List.getElem_mapIdx]
  obtain ⟨hl, w, levels, fine, s, hz, _, hc, hlev, ha, rfl⟩ := disagg_inv h
  have hlen := (levelLoop_split hlev l levels[l] (List.getElem?_eq_getElem h1)).length
  rw [(zeroMissing_ok hz).1, dailyS_values, List.length_map, List.length_range] at hlen
  rw [Nat.zero_mul, List.drop_zero, List.take_of_length_le]
  rw [hlen, mul_comm]

end

/-- C140 at work: 4 mm, one dry day, 2 mm against 4 mm, three days without precipitation (one of them missing), 2 mm: the hours of the two wet days agree. -/
example (rnd : Nat → ℝ) (hr : ∀ j, rnd j ≤ 1) : ∃ r r', disaggPrecCascade .modern rnd (dailyS 0 3 fun i => if i = 0 then .fin 4 else if i = 1 then .fin 0 else .fin 2)
      (.one balancedStats) = .ok r ∧
    disaggPrecCascade .modern rnd (dailyS 0 5 fun i => if i = 0 then .fin 4 else if i = 2 then .nan else if i < 4 then .fin 0 else .fin 2) (.one balancedStats) = .ok r' ∧
      daysCells r'.series 0 1 = daysCells r.series 0 1 ∧ daysCells r'.series 4 1 = daysCells r.series 2 1 := by
  have hv : ∀ i < 1 + 1 + 1, (fun i : Nat => (if i = 0 then .fin 4 else if i = 1 then .fin 0 else .fin 2 : XF ℝ)) i = .nan ∨
      ∃ x, 0 ≤ x ∧ (fun i : Nat => (if i = 0 then .fin 4 else if i = 1 then .fin 0 else .fin 2 : XF ℝ)) i = .fin x := by
    intro i hi
    interval_cases i <;> simp
  obtain ⟨r, h⟩ := C19_cascade_total .modern rnd hr (.one balancedStats)
    ⟨fun b t => ⟨fun _ => 1 / 7, fun k => rfl, by norm_num⟩, by simp [balancedStats]⟩ 0 3 (by omega) _ hv 9 0 false
  obtain ⟨r', h', e1, e2⟩ := C140_dry_spell_hours 0 (m := 1) (g := 1) (g' := 3) (k := 1) (by omega) (by omega) (by omega) (by omega)
    (w := fun i => if i = 0 then .fin 4 else if i = 2 then .nan else if i < 4 then .fin 0 else .fin 2) hv (by intro i hi; interval_cases i; rfl)
    (by intro i hi; interval_cases i; rfl) (by intro i hi; interval_cases i; exact .inr rfl)
    (by intro i hi; interval_cases i; exacts [.inr rfl, .inl rfl, .inr rfl]) h
  exact ⟨r, r', h, h', e1, e2⟩

/-- a dry day in front of and behind two days -/
example (rnd : Nat → ℝ) (hr : ∀ j, rnd j ≤ 1) : ∃ r r', disaggPrecCascade .modern rnd (dailyS 1 2 fun i => if i = 0 then .fin 4 else .fin 2) (.one balancedStats) = .ok r ∧
    disaggPrecCascade .modern rnd (dailyS 0 4 fun i => if i = 1 then .fin 4 else if i = 2 then .fin 2 else .fin 0) (.one balancedStats) = .ok r' ∧
      daysCells r'.series 1 2 = daysCells r.series 1 2 := by
  have hv : ∀ i < 2, (fun i : Nat => (if i = 1 then .fin 4 else if i = 2 then .fin 2 else .fin 0 : XF ℝ)) (1 + i) = .nan ∨
      ∃ x, 0 ≤ x ∧ (fun i : Nat => (if i = 1 then .fin 4 else if i = 2 then .fin 2 else .fin 0 : XF ℝ)) (1 + i) = .fin x := by
    intro i hi
    interval_cases i <;> simp
  obtain ⟨r, h⟩ := C19_cascade_total .modern rnd hr (.one balancedStats)
    ⟨fun b t => ⟨fun _ => 1 / 7, fun k => rfl, by norm_num⟩, by simp [balancedStats]⟩ 1 2 (by omega) _ hv 9 0 false
  obtain ⟨r', h', e1⟩ := C140_dry_ends_hours 0 (a := 1) (m := 2) (b := 1) (by omega)
    (v := fun i => if i = 1 then .fin 4 else if i = 2 then .fin 2 else .fin 0) hv (by intro i hi; interval_cases i; exact .inr rfl)
    (by intro i hi; interval_cases i; exact .inr rfl) h
  refine ⟨r, r', ?_, h', e1⟩
  rw [← h]
  congr 1

/-- one wet day: 62 random numbers decide -/
example (rnd rnd' : Nat → ℚ) (h : ∀ i < 62, rnd i = rnd' i) :
    disaggPrecCascade .modern rnd (dailyS 0 2 fun i => if i = 0 then .fin 4 else .nan) (.one exampleStats) =
      disaggPrecCascade .modern rnd' (dailyS 0 2 fun i => if i = 0 then .fin 4 else .nan) (.one exampleStats) :=
  C140_random_numbers .modern rnd rnd' _ _ true 9 0 false (fun i hi => h i (lt_of_lt_of_eq hi (by decide +kernel)))

end

end Melodist
