import Verif.Lemmas.Series

/-!
# C10: detect_gaps
-/

namespace Melodist
open Spec

namespace Spec
/-- the consecutive pairs of an index whose distance is not the given number of seconds -/
def irregular (seconds : Int) (idx : List Int) : List (Int × Int) :=
  (idx.zip idx.tail).filter fun p => decide (p.2 - p.1 ≠ seconds * 1000000)

/-- the gap lines among the printed lines, as pairs -/
def gapLines (out : List GapMsg) : List (Int × Int) :=
  out.filterMap fun
    | .gap a b => some (a, b)
    | _ => none
end Spec

theorem gapLines_append (a b : List GapMsg) : gapLines (a ++ b) = gapLines a ++ gapLines b := by
  simp [gapLines, List.filterMap_append]

/-- one step: counter and printed gap lines -/
theorem gapStep_spec (ts : Int) (pa : Bool) (pm : Int) (vb : Bool) (st : GapState) (a b : Int) :
    let st' := gapStep ts pa pm vb st a b
    st'.gcount = st.gcount + (if b - a ≠ ts * 1000000 then 1 else 0) ∧
    st'.msgCounter = st.msgCounter + (if b - a ≠ ts * 1000000 ∧ (pa = true ∨ st.msgCounter ≤ pm - 1) then 1 else 0) ∧
    gapLines st'.out = gapLines st.out ++
      (if b - a ≠ ts * 1000000 ∧ (pa = true ∨ st.msgCounter ≤ pm - 1) ∧ vb = true then [(a, b)] else []) ∧
    (vb = false → st.out = [] → st'.out = []) := by
  unfold gapStep
  by_cases h1 : b - a = ts * 1000000
  · simp [h1]
  · by_cases h2 : pa = true ∨ st.msgCounter ≤ pm - 1
    · have h2' : (pa || decide (st.msgCounter ≤ pm - 1)) = true := by simpa using h2
      simp only [ne_eq, h1, not_false_eq_true, if_true, h2', h2, true_and]
      cases vb
      · simp
      · simp only [if_true, true_and]
        split <;> simp [gapLines_append, gapLines]
    · have h2' : (pa || decide (st.msgCounter ≤ pm - 1)) = false := by simpa using h2
      simp only [ne_eq, h1, not_false_eq_true, if_true, h2', h2, Bool.false_eq_true, if_false, true_and, false_and]
      cases vb
      · simp
      · simp only [true_and]
        split <;> simp [gapLines_append, gapLines]

theorem gapLoop_spec (ts : Int) (pa : Bool) (pm : Int) (vb : Bool) : ∀ (idx : List Int) (st : GapState),
    0 ≤ st.msgCounter →
    let st' := gapLoop ts pa pm vb st idx
    st'.gcount = st.gcount + (irregular ts idx).length ∧
    gapLines st'.out = gapLines st.out ++
      (if vb then (if pa then irregular ts idx else (irregular ts idx).take (pm - st.msgCounter).toNat) else []) ∧
    (vb = false → st.out = [] → st'.out = []) := by
  intro idx
  induction idx with
  | nil => intro st _; simp [gapLoop, irregular]
  | cons a rest ih =>
    intro st h0
    rcases rest with _ | ⟨b, rest⟩
    · simp [gapLoop, irregular]
    · have hirr : irregular ts (a :: b :: rest) =
          (if b - a ≠ ts * 1000000 then [(a, b)] else []) ++ irregular ts (b :: rest) := by
        simp only [irregular, List.tail_cons, List.zip_cons_cons, List.filter_cons]
        split <;> simp_all
      obtain ⟨hg, hm, ho, hq⟩ := gapStep_spec ts pa pm vb st a b
      have hnn : 0 ≤ (gapStep ts pa pm vb st a b).msgCounter := by
        rw [hm]; split <;> omega
      obtain ⟨ig, io, iq⟩ := ih (gapStep ts pa pm vb st a b) hnn
      simp only [gapLoop]
      refine ⟨?_, ?_, ?_⟩
      · rw [ig, hg, hirr, List.length_append]
        split <;> simp <;> omega
      · rw [io, ho, hirr, hm]
        cases vb
        · simp
        · by_cases h1 : b - a = ts * 1000000
          · simp [h1]
          · cases pa
            · simp only [ne_eq, h1, not_false_eq_true, Bool.false_eq_true, false_or, true_and, and_true, if_true, if_false,
                List.append_assoc, List.append_cancel_left_eq]
              by_cases h2 : st.msgCounter ≤ pm - 1
              · simp only [h2, if_true, List.singleton_append]
                rw [show (pm - st.msgCounter).toNat = (pm - (st.msgCounter + 1)).toNat + 1 by omega, List.take_succ_cons]
              · simp only [h2, if_false, List.nil_append]
                rw [show (pm - (st.msgCounter + 0)).toNat = 0 by omega, show (pm - st.msgCounter).toNat = 0 by omega]
                simp
            · simp [h1]
      · intro hv h
        exact iq hv (hq hv h)

/-- **C10.** Whenever `detect_gaps` returns for a frame, it returns the number of consecutive index pairs whose distance is
not the time step; this is independent of `print_all`, `print_max` and `verbose`.  The printed gap lines are the
first `print_max` irregular pairs (all of them with `print_all`, none without `verbose`, in which case nothing is printed at all). -/
theorem C10_detect_gaps (api : PandasApi) (idx : List Int) (ts : Int) (printAll : Bool) (printMax : Int)
    (verbose : Bool) (c : Int) (msgs : List GapMsg)
    (hret : detectGaps api (some idx) ts printAll printMax verbose = .ok (c, msgs)) :
    c = (irregular ts idx).length ∧
    (c = 0 ↔ ∀ p ∈ idx.zip idx.tail, p.2 - p.1 = ts * 1000000) ∧
    gapLines msgs = (if verbose then (if printAll then irregular ts idx else (irregular ts idx).take printMax.toNat) else []) ∧
    (verbose = false → msgs = []) ∧
    (printAll = false → (gapLines msgs).length ≤ printMax.toNat) := by
  have hret' : c = (gapLoop ts printAll printMax verbose {} idx).gcount ∧
      msgs = (if verbose then (gapLoop ts printAll printMax verbose {} idx).out ++
        [.total (gapLoop ts printAll printMax verbose {} idx).gcount] else (gapLoop ts printAll printMax verbose {} idx).out) := by
    unfold detectGaps at hret
    simp only [needs] at hret
    split at hret
    · cases h : api.timedeltaDelta <;> simp [h, bind, Except.bind] at hret
      exact ⟨hret.1.symm, hret.2.symm⟩
    · simp [bind, Except.bind, pure, Except.pure] at hret
      exact ⟨hret.1.symm, hret.2.symm⟩
  obtain ⟨hc, hm⟩ := hret'
  obtain ⟨h1, h2, h3⟩ := gapLoop_spec ts printAll printMax verbose idx {} (by decide)
  have hcount : c = (irregular ts idx).length := by rw [hc, h1]; simp
  have hlines : gapLines msgs =
      (if verbose then (if printAll then irregular ts idx else (irregular ts idx).take printMax.toNat) else []) := by
    rw [hm]
    cases verbose
    · simpa [gapLines] using h2
    · simp only [if_true] at h2 ⊢
      rw [gapLines_append, h2]
      simp [gapLines]
  refine ⟨hcount, ?_, hlines, ?_, ?_⟩
  · rw [hcount]
    have : ((irregular ts idx).length : Int) = 0 ↔ irregular ts idx = [] := by simp
    rw [this]
    unfold irregular
    rw [List.filter_eq_nil_iff]
    simp
  · intro hv
    subst hv
    rw [hm]
    exact h3 rfl rfl
  · intro hpa
    rw [hlines, hpa]
    cases verbose <;> simp

/-- **C10 (current pandas).** Without `Timedelta.delta` the call raises AttributeError for every frame with two or more
rows; an argument without an index gives -1. -/
theorem C10_detect_gaps_raises (api : PandasApi) (hapi : api.timedeltaDelta = false) (idx : List Int) (h2 : 2 ≤ idx.length)
    (ts : Int) (pa : Bool) (pm : Int) (vb : Bool) :
    detectGaps api (some idx) ts pa pm vb = .error .attributeError := by
  simp [detectGaps, h2, needs, hapi, bind, Except.bind]

/-- with the attribute available the call always returns -/
theorem C10_detect_gaps_total (idx : List Int) (ts : Int) (pa : Bool) (pm : Int) (vb : Bool) :
    ∃ c msgs, detectGaps .legacy (some idx) ts pa pm vb = .ok (c, msgs) := by
  unfold detectGaps
  simp only [needs, PandasApi.legacy, if_true]
  split <;> exact ⟨_, _, rfl⟩

/-- non-vacuity: hourly index with one missing hour, reported as one gap -/
example : ∃ msgs, detectGaps .legacy (some [0, HOUR, 3 * HOUR, 4 * HOUR]) 3600 = .ok (1, msgs) ∧
    gapLines msgs = [(HOUR, 3 * HOUR)] := by
  obtain ⟨c, msgs, h⟩ := C10_detect_gaps_total [0, HOUR, 3 * HOUR, 4 * HOUR] 3600 false 5 true
  have := C10_detect_gaps _ _ _ _ _ _ _ _ h
  have e : irregular 3600 [0, HOUR, 3 * HOUR, 4 * HOUR] = [(HOUR, 3 * HOUR)] := by decide
  refine ⟨msgs, ?_, ?_⟩
  · rw [h, this.1, e]; rfl
  · rw [this.2.2.1, e]; rfl

example : detectGaps .modern (some [0, HOUR]) 3600 = .error .attributeError :=
  C10_detect_gaps_raises _ rfl _ (by decide) _ _ _ _

theorem irregular_cons2 (ts a b : Int) (rest : List Int) : irregular ts (a :: b :: rest) =
    (if b - a ≠ ts * 1000000 then [(a, b)] else []) ++ irregular ts (b :: rest) := by
  simp only [irregular, List.tail_cons, List.zip_cons_cons, List.filter_cons]
  split <;> simp_all

/-- the line for one irregular pair -/
def gapLine (p : Int × Int) : GapMsg := .gap p.1 p.2

theorem gapLoop_warned (ts : Int) (pa : Bool) (pm : Int) : ∀ (idx : List Int) (st : GapState),
    st.warned = true → pm ≤ st.msgCounter →
    (gapLoop ts pa pm true st idx).out = st.out ++ (if pa then (irregular ts idx).map gapLine else []) := by
  intro idx
  induction idx with
  | nil => intro st _ _; simp [gapLoop, irregular]
  | cons a rest ih =>
    intro st hw hm
    rcases rest with _ | ⟨b, rest⟩
    · simp [gapLoop, irregular]
    · rw [irregular_cons2, gapLoop]
      by_cases h1 : b - a = ts * 1000000
      · have : gapStep ts pa pm true st a b = st := by unfold gapStep; simp [h1]
        rw [this, ih st hw hm]
        simp [h1]
      · cases pa
        · have : gapStep ts false pm true st a b = { st with gcount := st.gcount + 1 } := by
            unfold gapStep
            have : ¬ st.msgCounter ≤ pm - 1 := by omega
            simp [h1, this, hw]
          rw [this, ih { st with gcount := st.gcount + 1 } hw hm]
          simp
        · have : gapStep ts true pm true st a b =
              { st with gcount := st.gcount + 1, out := st.out ++ [.gap a b], msgCounter := st.msgCounter + 1 } := by
            unfold gapStep
            simp [h1, hw]
          rw [this, ih { st with gcount := st.gcount + 1, out := st.out ++ [.gap a b], msgCounter := st.msgCounter + 1 } hw
            (by show pm ≤ st.msgCounter + 1; omega)]
          simp [h1, gapLine]

theorem gapLoop_out (ts : Int) (pa : Bool) (pm : Int) : ∀ (idx : List Int) (st : GapState) (k : Nat),
    st.warned = false → st.msgCounter + (k + 1 : Nat) = pm →
    (gapLoop ts pa pm true st idx).out = st.out ++ ((irregular ts idx).take (k + 1)).map gapLine ++
      (if k + 1 ≤ (irregular ts idx).length then
        .onlyFirst pm :: (if pa then ((irregular ts idx).drop (k + 1)).map gapLine else []) else []) := by
  intro idx
  induction idx with
  | nil => intro st k _ _; simp [gapLoop, irregular]
  | cons a rest ih =>
    intro st k hw hm
    rcases rest with _ | ⟨b, rest⟩
    · simp [gapLoop, irregular]
    · rw [irregular_cons2, gapLoop]
      by_cases h1 : b - a = ts * 1000000
      · have : gapStep ts pa pm true st a b = st := by unfold gapStep; simp [h1]
        rw [this, ih st k hw hm]
        simp [h1]
      · have hle : st.msgCounter ≤ pm - 1 := by omega
        simp only [ne_eq, h1, not_false_eq_true, if_true, List.singleton_append, List.take_succ_cons, List.drop_succ_cons, List.map_cons,
          List.length_cons, Nat.add_le_add_iff_right]
        rcases k with _ | k
        · have he : st.msgCounter + 1 = pm := by push_cast at hm; omega
          have : gapStep ts pa pm true st a b =
              { st with gcount := st.gcount + 1, out := st.out ++ [.gap a b] ++ [.onlyFirst pm], msgCounter := pm, warned := true } := by
            unfold gapStep
            simp [h1, hw, hle, he]
          rw [this, gapLoop_warned ts pa pm _ _ rfl (le_refl _)]
          simp [gapLine]
        · have he : ¬ st.msgCounter + 1 = pm := by push_cast at hm; omega
          have : gapStep ts pa pm true st a b =
              { st with gcount := st.gcount + 1, out := st.out ++ [.gap a b], msgCounter := st.msgCounter + 1 } := by
            unfold gapStep
            simp [h1, hle, he]
          rw [this, ih { st with gcount := st.gcount + 1, out := st.out ++ [.gap a b], msgCounter := st.msgCounter + 1 } k hw
            (by push_cast at hm ⊢; show st.msgCounter + 1 + _ = _; omega)]
          simp [gapLine]

/-- **C10 (printed output).**  The complete output of a verbose call with `print_max ≥ 1`: the first `print_max` gaps; then, if there are
at least that many, once, the hint that only the first `print_max` are listed; then (with `print_all`) the other gaps; and the total. -/
theorem C10_detect_gaps_output (idx : List Int) (ts : Int) (printAll : Bool) (k : Nat) :
    detectGaps .legacy (some idx) ts printAll (k + 1 : Nat) true = .ok ((irregular ts idx).length,
      ((irregular ts idx).take (k + 1)).map gapLine ++
      (if k + 1 ≤ (irregular ts idx).length then
        .onlyFirst (k + 1 : Nat) :: (if printAll then ((irregular ts idx).drop (k + 1)).map gapLine else []) else []) ++
      [.total (irregular ts idx).length]) := by
  have hg := (gapLoop_spec ts printAll (k + 1 : Nat) true idx {} (by decide)).1
  have ho := gapLoop_out ts printAll (k + 1 : Nat) idx {} k rfl (by simp)
  have hg' : (gapLoop ts printAll (k + 1 : Nat) true {} idx).gcount = (irregular ts idx).length := by rw [hg]; simp
  unfold detectGaps
  simp only [needs, PandasApi.legacy, if_true]
  split <;>
  · show Except.ok (_, _ ++ [GapMsg.total _]) = _
    rw [hg', ho]
    simp

/-- an argument without an index gives -1 and one error line, whatever the options and the pandas version -/
theorem C10_no_index (api : PandasApi) (ts : Int) (pa : Bool) (pm : Int) (vb : Bool) :
    detectGaps api none ts pa pm vb = .ok (-1, [.invalid]) := rfl

/-- non-vacuity: three gaps, `print_max = 1` with `print_all` -/
example : detectGaps .legacy (some [0, 2, 4, 6]) 3600 true 1 true =
    .ok (3, [.gap 0 2, .onlyFirst 1, .gap 2 4, .gap 4 6, .total 3]) :=
  C10_detect_gaps_output [0, 2, 4, 6] 3600 true 0

end Melodist
