import Verif.Lemmas.Cascade

/-!
# C15–C18, C21, C22: precipitation disaggregation

`rnd` is an arbitrary sequence of random numbers, `opts` an arbitrary statistics object or list of objects (no validity is
assumed), `v i` the precipitation of day `i` (`.nan` = missing).
-/

set_option linter.unusedSectionVars false

namespace Melodist
open Spec

variable {K : Type} [Field K] [LinearOrder K] [IsStrictOrderedRing K]

/-- **C15.** `disagg_prec(method='equal')` gives every hour 1/24 of its day's total (so equal hours, non-negative for non-negative totals,
adding up to the total); missing days stay missing; random numbers, `shift` and all other options are irrelevant. -/
theorem C15_equal (api : PandasApi) (rnd : Nat → K) (f : Frame K) (d0 : Int) (n : Nat) (hn : 0 < n) (v : Nat → XF K)
    (hcol : f.col? "precip" = some (dailyS d0 n v)) (opts : Option (CascOptions K)) (master : Option (Series (XF K)))
    (zerodiv : String) (shift : Int) :
    ∃ s, disaggPrec api rnd (.frame f) "equal" opts master zerodiv shift = .ok s ∧
      s.index = (List.range (24 * n)).map (fun k : Nat => atHour (d0 + (k / 24 : Nat)) (k % 24)) ∧
      ∀ i < n,
        (∀ x, v i = .fin x → dayCells s (d0 + i) = List.replicate 24 (.fin (x / 24)) ∧ TotalIs (dayCells s (d0 + i)) x ∧
          (0 ≤ x → ∀ y, XF.fin y ∈ dayCells s (d0 + i) → 0 ≤ y)) ∧
        (v i = .nan → dayCells s (d0 + i) = List.replicate 24 .nan) := by
  refine ⟨hourlyS d0 n fun i _ => v i / .fin 24, ?_, ?_, ?_⟩
  · unfold disaggPrec
    simp only [ne_eq, not_true_eq_false, false_and, if_false, if_true]
    unfold Frame.attr
    rw [hcol]
    exact distributeEqually_daily_divide api d0 hn v
  · simp [Series.index, hourlyS, Function.comp_def]
  · intro i hi
    rw [dayCells_hourlyS d0 _ hi]
    have hrep : ∀ c : XF K, (day24 fun _ => c) = List.replicate 24 c := by
      intro c; unfold day24; rw [List.map_const', List.length_range]
    rw [hrep]
    constructor
    · intro x hx
      rw [hx, XF.fin_div_fin_of_ne _ (by norm_num)]
      refine ⟨rfl, ⟨List.replicate 24 (x / 24), by simp, ?_⟩, ?_⟩
      · rw [List.sum_replicate]; simp; ring
      · intro h0 y hy
        have := List.eq_of_mem_replicate hy
        injection this with this
        rw [this]; positivity
    · intro hx; rw [hx]; simp

example : ∃ s, disaggPrec .modern (fun _ => (0 : ℚ)) (.frame ⟨[0, 86400000000], [("precip", [.fin 12, .nan])]⟩) "equal" = .ok s ∧
    TotalIs (dayCells s 0) 12 := by
  obtain ⟨s, h1, _, h2⟩ := C15_equal .modern (fun _ => (0 : ℚ)) ⟨[0, 86400000000], [("precip", [.fin 12, .nan])]⟩ 0 2 (by omega)
    (fun i => if i = 0 then .fin 12 else .nan) (by decide) none none "uniform" 0
  exact ⟨s, h1, by simpa using ((h2 0 (by omega)).1 12 rfl).2.1⟩

/-- **C16.** Whenever the hourly cascade returns, the hours of the result are the 24 hours of each day, and the values of every non-missing day
add up exactly to its precipitation.  (A negative total, which is no valid input, is treated as 0.) -/
theorem C16_cascade_preserves_totals (api : PandasApi) (rnd : Nat → K) (opts : CascOptions K) (level : Nat) (test : Bool)
    (d0 : Int) (n : Nat) (v : Nat → XF K) (r : CascadeOut K)
    (h : disaggPrecCascade api rnd (dailyS d0 n v) opts true level 0 test = .ok r) :
    r.series.index = (List.range (24 * n)).map (fun k : Nat => atHour (d0 + (k / 24 : Nat)) (k % 24)) ∧
    ∀ i < n, ∀ x, v i = .fin x → (0 ≤ x → TotalIs (dayCells r.series (d0 + i)) x) ∧ (x < 0 → TotalIs (dayCells r.series (d0 + i)) 0) := by
  obtain ⟨_, _, w, f, _, _, hs, hf⟩ := cascade_hourly_eq h
  simp only [ne_eq, not_true_eq_false, if_false] at hs
  rw [hs]
  constructor
  · simp [Series.index, hourlyS, Function.comp_def]
  · intro i hi x hx
    rw [dayCells_hourlyS d0 _ hi]
    have e : (day24 fun h => if (v i).isNan = true then XF.nan else .fin (f i h)) = (day24 (f i)).map XF.fin := by
      rw [day24_map]; simp [hx]
    obtain ⟨h1, _⟩ := hf i hi x hx
    exact ⟨fun h0 => ⟨day24 (f i), e, by rw [h1, max_eq_left h0]⟩, fun h0 => ⟨day24 (f i), e, by rw [h1, max_eq_right h0.le]⟩⟩

/-- **C17.** Every hourly value is non-negative and at most the total of its day. -/
theorem C17_cascade_bounds (api : PandasApi) (rnd : Nat → K) (opts : CascOptions K) (level : Nat) (test : Bool)
    (d0 : Int) (n : Nat) (v : Nat → XF K) (r : CascadeOut K)
    (h : disaggPrecCascade api rnd (dailyS d0 n v) opts true level 0 test = .ok r) :
    ∀ i < n, ∀ x, v i = .fin x → 0 ≤ x → ∀ y, XF.fin y ∈ dayCells r.series (d0 + i) → 0 ≤ y ∧ y ≤ x := by
  obtain ⟨_, _, w, f, _, _, hs, hf⟩ := cascade_hourly_eq h
  simp only [ne_eq, not_true_eq_false, if_false] at hs
  rw [hs]
  intro i hi x hx h0 y hy
  rw [dayCells_hourlyS d0 _ hi, mem_day24] at hy
  obtain ⟨j, hj, e⟩ := hy
  simp [hx] at e
  subst e
  obtain ⟨h1, h2⟩ := hf i hi x hx
  refine ⟨h2 j hj, ?_⟩
  rw [max_eq_left h0] at h1
  rw [← h1]
  exact List.single_le_sum (by intro z hz; obtain ⟨k, hk, rfl⟩ := mem_day24.1 hz; exact h2 k hk) _ (mem_day24.2 ⟨j, hj, rfl⟩)

/-- **C18.** Dry days stay dry (24 zeros), missing days stay missing (24 NaN), and all 24 hours of any other day are numbers. -/
theorem C18_cascade_dry_missing (api : PandasApi) (rnd : Nat → K) (opts : CascOptions K) (level : Nat) (test : Bool)
    (d0 : Int) (n : Nat) (v : Nat → XF K) (r : CascadeOut K)
    (h : disaggPrecCascade api rnd (dailyS d0 n v) opts true level 0 test = .ok r) :
    ∀ i < n,
      (v i = .fin 0 → dayCells r.series (d0 + i) = List.replicate 24 (.fin 0)) ∧
      (v i = .nan → dayCells r.series (d0 + i) = List.replicate 24 .nan) ∧
      (v i ≠ .nan → (dayCells r.series (d0 + i)).length = 24 ∧ ∀ c ∈ dayCells r.series (d0 + i), ∃ y, c = .fin y) := by
  obtain ⟨_, hc, w, f, _, _, hs, hf⟩ := cascade_hourly_eq h
  simp only [ne_eq, not_true_eq_false, if_false] at hs
  rw [hs]
  intro i hi
  rw [dayCells_hourlyS d0 _ hi]
  have hrep : ∀ c : XF K, (day24 fun _ => c) = List.replicate 24 c := by
    intro c; unfold day24; rw [List.map_const', List.length_range]
  refine ⟨?_, ?_, ?_⟩
  · intro hx
    obtain ⟨h1, h2⟩ := hf i hi 0 hx
    rw [max_self] at h1
    rw [← hrep]
    apply day24_congr
    intro j hj
    simp only [hx, XF.isNan_fin, Bool.false_eq_true, if_false]
    congr 1
    have hle : f i j ≤ (day24 (f i)).sum :=
      List.single_le_sum (by intro z hz; obtain ⟨k, hk, rfl⟩ := mem_day24.1 hz; exact h2 k hk) _ (mem_day24.2 ⟨j, hj, rfl⟩)
    have := h2 j hj
    linarith
  · intro hx; rw [hx]; simp [hrep]
  · intro hx
    refine ⟨by simp, ?_⟩
    intro c hcm
    obtain ⟨j, hj, rfl⟩ := mem_day24.1 hcm
    have : (v i).isNan = false := by
      have := hc i hi
      cases hv : v i <;> simp_all
    simp [this]

/-- **C21.** The returned level arrays: there are `si` of them (5 for hourly output, `level` otherwise); level `l` (1-based) has `2^l` boxes per
day; box `k` of a level splits into boxes `2k` and `2k+1` of the next one (level 0 = the daily totals, missing = 0, given
they are non-negative), which are non-negative and add up to it; a dry box has two dry children, a wet box at least one wet child. -/
theorem C21_cascade_levels (api : PandasApi) (rnd : Nat → K) (opts : CascOptions K) (hourly : Bool) (level : Nat) (shift : Int) (test : Bool)
    (d0 : Int) (n : Nat) (v : Nat → XF K) (hv : ∀ i < n, ∀ x, v i = .fin x → 0 ≤ x) (r : CascadeOut K)
    (h : disaggPrecCascade api rnd (dailyS d0 n v) opts hourly level shift test = .ok r) :
    r.levels.length = (if hourly then 5 else level) ∧
    (∀ (l : Nat) (c : List K), r.levels[l]? = some c → c.length = 2 ^ (l + 1) * n) ∧
    ∀ (l : Nat) (p c : List K),
      (((List.range n).map fun i => match v i with | .fin x => x | _ => 0) :: r.levels)[l]? = some p → r.levels[l]? = some c →
      ∀ (k : Nat) (x : K), p[k]? = some x → ∃ a b, c[2 * k]? = some a ∧ c[2 * k + 1]? = some b ∧ 0 ≤ a ∧ 0 ≤ b ∧ a + b = x ∧
        (x = 0 → a = 0 ∧ b = 0) ∧ (0 < x → 0 < a ∨ 0 < b) := by
  obtain ⟨hl, w, levels, fine, s, hz, _, hc, hlev, ha, rfl⟩ := disagg_inv h
  rw [dailyS_values] at hz
  obtain ⟨z1, z2⟩ := zeroMissing_ok hz
  have hw : ((List.range n).map fun i => match v i with | .fin x => x | _ => 0) = w := by
    apply List.ext_getElem?
    intro i
    by_cases hi : i < n
    · have hh := z2 i (v i) (by simp [hi])
      rw [List.getElem?_map, List.getElem?_range hi]
      simp only [Option.map_some]
      cases hvi : v i with
      | nan => rw [hh.2.2 hvi]
      | fin x => rw [hh.2.1 x hvi]
      | pinf => rw [hvi] at hh; exact absurd hh.1 (by simp)
      | ninf => rw [hvi] at hh; exact absurd hh.1 (by simp)
    · rw [List.getElem?_eq_none (by simp; omega), List.getElem?_eq_none (by rw [z1]; simp; omega)]
  have hw0 : ∀ x ∈ w, 0 ≤ x := by
    rw [← hw]
    intro x hx
    obtain ⟨i, hi, rfl⟩ := List.mem_map.1 hx
    cases hvi : v i with
    | fin y => exact hv i (List.mem_range.1 hi) y hvi
    | _ => simp
  refine ⟨levelLoop_length hlev, ?_, ?_⟩
  · intro l c hc
    rw [(levelLoop_split hlev l c hc).length, z1]; simp
  · rw [hw]
    intro l p c hp hc k x hx
    have hsp := levelLoop_chain hlev l p c hp (by simpa using hc)
    obtain ⟨b1, b2⟩ := hsp.block hx
    have hxp : 0 ≤ x := by
      have hxm : x ∈ p := List.mem_of_getElem? hx
      cases l with
      | zero => simp at hp; subst hp; exact hw0 x hxm
      | succ l => exact (levelLoop_split hlev l p (by simpa using hp)).nonneg x hxm
    have hlen : k < p.length := (List.getElem?_eq_some_iff.1 hx).1
    have hle : 2 * k + 2 ≤ c.length := by rw [hsp.length]; omega
    rw [block_eq_map 2 c k hle] at b2
    have e1 : c[2 * k]? = some (blockEntry 2 c k 0) := by
      unfold blockEntry; rw [List.getD_eq_getElem?_getD, add_zero, List.getElem?_eq_getElem (by omega)]; rfl
    have e2 : c[2 * k + 1]? = some (blockEntry 2 c k 1) := by
      unfold blockEntry; rw [List.getD_eq_getElem?_getD, List.getElem?_eq_getElem (by omega)]; rfl
    have n1 := hsp.nonneg _ (List.mem_of_getElem? e1)
    have n2 := hsp.nonneg _ (List.mem_of_getElem? e2)
    rw [max_eq_left hxp] at b2
    have b3 : blockEntry 2 c k 0 + blockEntry 2 c k 1 = x := by simpa [List.range_succ] using b2
    refine ⟨_, _, e1, e2, n1, n2, b3, ?_, ?_⟩
    · intro hx0; constructor <;> linarith
    · intro hx0
      by_contra hcon
      push Not at hcon
      linarith [hcon.1, hcon.2]

/-- **C22.** `shift = k` does not change whether the call succeeds nor the index; the value in row `i` is the unshifted value of row
`i - k`, NaN if there is no such row. -/
theorem C22_cascade_shift (api : PandasApi) (rnd : Nat → K) (daily : Series (XF K)) (opts : CascOptions K) (hourly : Bool) (level : Nat)
    (test : Bool) (k : Int) :
    (∀ e, disaggPrecCascade api rnd daily opts hourly level 0 test = .error e →
      disaggPrecCascade api rnd daily opts hourly level k test = .error e) ∧
    (∀ r0, disaggPrecCascade api rnd daily opts hourly level 0 test = .ok r0 →
      ∃ r, disaggPrecCascade api rnd daily opts hourly level k test = .ok r ∧ r.levels = r0.levels ∧
        r.series.index = r0.series.index ∧
        ∀ i : Nat, ∀ t c, r.series[i]? = some (t, c) →
          (∀ j : Nat, (j : Int) = i - k → ∀ t' c', r0.series[j]? = some (t', c') → c = c') ∧
          ((i : Int) - k < 0 ∨ (r0.series.length : Int) ≤ i - k → c = .nan)) := by
  have key : ∀ m : Int, disaggPrecCascade api rnd daily opts hourly level m test =
      (disaggPrecCascade api rnd daily opts hourly level 0 test).map
        fun r0 => ⟨r0.levels, r0.fine, if m ≠ 0 then Series.shiftRows r0.series m else r0.series⟩ := by
    intro m
    unfold disaggPrecCascade
    generalize (if hourly = true then 5 else level) = si
    by_cases h1 : daily.length < 2
    · simp only [if_pos h1, Except.map]
    simp only [if_neg h1]
    cases zeroMissing daily.values with
    | error e => simp only [bind, Except.bind, Except.map]
    | ok v =>
      simp only [bind, Except.bind]
      by_cases h2 : si < 1 ∨ 11 < si
      · simp only [if_pos h2, Except.map]
      simp only [if_neg h2]
      cases checkOptions opts si with
      | error e => simp only [Except.map]
      | ok u =>
        simp only
        cases levelLoop rnd opts si v {} with
        | error e => simp only [Except.map]
        | ok levels =>
          simp only
          cases assembleSeries api daily.index hourly level (levels.getLastD []) with
          | error e => simp only [Except.map]
          | ok p =>
            simp only
            by_cases h3 : test = true ∧ hourly = false ∧ level ≠ 9 ∧ level ≠ 10 ∧ level ≠ 11
            · simp only [if_pos h3, Except.map]
            · simp only [if_neg h3, Except.map]
              simp
  constructor
  · intro e he; rw [key k, he]; rfl
  · intro r0 h0
    refine ⟨⟨r0.levels, r0.fine, if k ≠ 0 then Series.shiftRows r0.series k else r0.series⟩, by rw [key k, h0]; rfl, rfl, ?_, ?_⟩
    · split
      · simp only [Series.shiftRows, Series.index, List.map_map, Function.comp_def]
        apply List.ext_getElem
        · simp
        · intro i h1 h2; simp
      · rfl
    · intro i t c hc
      by_cases hk : k = 0
      · subst hk
        simp only [ne_eq, not_true_eq_false, if_false] at hc
        constructor
        · intro j hj t' c' hj'
          have : j = i := by omega
          subst this
          rw [hc] at hj'
          cases hj'; rfl
        · intro h
          have := (List.getElem?_eq_some_iff.1 hc).1
          omega
      · simp only [ne_eq, hk, not_false_eq_true, if_true] at hc
        unfold Series.shiftRows at hc
        rw [List.getElem?_map, List.getElem?_zipIdx] at hc
        simp only [Option.map_map, Option.map_eq_some_iff, Function.comp_def, Prod.mk.injEq, zero_add] at hc
        obtain ⟨rr, hr, _, rfl⟩ := hc
        constructor
        · intro j hj t' c' hj'
          rw [if_pos (by omega), ← hj]
          simp only [Int.toNat_natCast, Series.values, List.getElem?_map, hj']
          rfl
        · rintro (h | h)
          · rw [if_neg (by omega)]
          · split
            · rw [List.getElem?_eq_none (by simp [Series.values]; omega)]; rfl
            · rfl

end Melodist
