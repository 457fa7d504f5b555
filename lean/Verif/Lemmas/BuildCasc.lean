import Verif.Lemmas.AggregateFreq
import Verif.Lemmas.Calendar
import Mathlib.Tactic.Positivity
import Mathlib.Algebra.BigOperators.Intervals

/-!
# Helper lemmas: seasonal subsets, percentiles, level loop of build_casc
-/

set_option linter.unusedSectionVars false

namespace Melodist
open Spec

/-! ### seasonal subsets -/

section
variable {V : Type}

theorem flatMap_monthRows_perm (df : Series V) : ∀ (ms : List Int), ms.Nodup →
    (ms.flatMap (monthRows df)).Perm (df.filter fun r => decide (monthOf r.1 ∈ ms))
  | [], _ => by simp
  | m :: ms, h => by
    rw [List.nodup_cons] at h
    rw [List.flatMap_cons]
    have ih := flatMap_monthRows_perm df ms h.2
    refine (List.Perm.append_left _ ih).trans ?_
    have h2 := List.filter_append_perm (fun r : Time × V => monthOf r.1 == m) (df.filter fun r => decide (monthOf r.1 ∈ m :: ms))
    refine List.Perm.trans (List.Perm.of_eq ?_) h2
    rw [List.filter_filter, List.filter_filter]
    congr 1
    · unfold monthRows
      apply List.filter_congr
      intro r _
      by_cases hr : monthOf r.1 = m <;> simp [hr]
    · apply List.filter_congr
      intro r _
      by_cases hr : monthOf r.1 = m
      · simp [hr, h.1]
      · simp [hr]

theorem seasonalSubset_ok {df : Series V} {ms : List Int} {r : Series V} (h : seasonalSubset df ms = .ok r) :
    ms ≠ [] ∧ r = (ms.flatMap (monthRows df)).insertionSort fun a b => a.1 ≤ b.1 := by
  cases ms with
  | nil => cases h
  | cons m ms => exact ⟨by simp, by injection h with h; exact h.symm⟩

theorem seasonalSubset_cons (df : Series V) {ms : List Int} (h : ms ≠ []) :
    seasonalSubset df ms = .ok ((ms.flatMap (monthRows df)).insertionSort fun a b => a.1 ≤ b.1) := by
  cases ms with
  | nil => exact absurd rfl h
  | cons m ms => rfl

theorem sortTime_pairwise (l : Series V) : (l.insertionSort fun a b => a.1 ≤ b.1).Pairwise fun a b => a.1 ≤ b.1 := by
  have : Std.Total (fun a b : Time × V => a.1 ≤ b.1) := ⟨fun a b => le_total a.1 b.1⟩
  have : IsTrans (Time × V) (fun a b => a.1 ≤ b.1) := ⟨fun a b c h1 h2 => le_trans h1 h2⟩
  exact List.pairwise_insertionSort _ l

end

section
variable {K : Type} [Field K] [LinearOrder K] [IsStrictOrderedRing K]

/-! ### percentile -/

theorem countP_take_sorted {l : List K} (h : l.Pairwise (· ≤ ·)) {i : Nat} (hi : i < l.length) {y : K} (hy : l[i] ≤ y) :
    i + 1 ≤ l.countP fun x => decide (x ≤ y) := by
  have h1 : (l.take (i + 1)).countP (fun x => decide (x ≤ y)) = (l.take (i + 1)).length := by
    rw [List.countP_eq_length]
    intro a ha
    obtain ⟨j, hj, rfl⟩ := List.getElem_of_mem ha
    have hj' : j ≤ i := by simp at hj; omega
    rw [List.getElem_take]
    rcases Nat.lt_or_eq_of_le hj' with hlt | rfl
    · have := List.pairwise_iff_getElem.1 h j i (by omega) hi hlt
      simpa using this.trans hy
    · simpa using hy
  have h2 := (List.take_sublist (i + 1) l).countP_le (p := fun x => decide (x ≤ y))
  rw [h1, List.length_take] at h2
  omega

theorem countP_drop_sorted {l : List K} (h : l.Pairwise (· ≤ ·)) {i : Nat} (hi : i < l.length) {y : K} (hy : y ≤ l[i]) :
    l.length - i ≤ l.countP fun x => decide (y ≤ x) := by
  have h1 : (l.drop i).countP (fun x => decide (y ≤ x)) = (l.drop i).length := by
    rw [List.countP_eq_length]
    intro a ha
    obtain ⟨j, hj, rfl⟩ := List.getElem_of_mem ha
    rw [List.getElem_drop]
    simp at hj
    rcases Nat.eq_zero_or_pos j with rfl | hp
    · simpa using hy
    · have := List.pairwise_iff_getElem.1 h i (i + j) hi (by omega) (by omega)
      simpa using hy.trans this
  have h2 := (List.drop_sublist i l).countP_le (p := fun x => decide (y ≤ x))
  rw [h1, List.length_drop] at h2
  exact h2

theorem npPercentile_spec [FloorRing K] {values : List K} {p t : K} (h : npPercentile values p = .ok t) :
    0 ≤ p ∧ p ≤ 100 ∧ values ≠ [] ∧ ∃ q : Nat, (q : K) ≤ ((values.length : K) - 1) * p / 100 ∧ ((values.length : K) - 1) * p / 100 < q + 1 ∧
      q < values.length ∧ q + 1 ≤ values.countP (fun x => decide (x ≤ t)) ∧
      values.length - (q + 1) ≤ values.countP (fun x => decide (t ≤ x)) ∧ ∃ u ∈ values, t ≤ u := by
  unfold npPercentile at h
  by_cases hp : p < 0 ∨ 100 < p
  · rw [if_pos hp] at h; cases h
  rw [if_neg hp] at h
  push Not at hp
  obtain ⟨hp0, hp1⟩ := hp
  have hperm := List.perm_insertionSort (· ≤ ·) values
  have hsort := List.pairwise_insertionSort (· ≤ ·) values
  generalize hv : values.insertionSort (· ≤ ·) = v at h hperm hsort
  have hlen : v.length = values.length := hperm.length_eq
  simp only at h
  cases hn : v.length with
  | zero => rw [hn] at h; cases h
  | succ n =>
    rw [hn] at h
    simp only at h
    have hne : values ≠ [] := by intro h0; rw [h0] at hlen; simp at hlen; rw [hlen] at hn; simp at hn
    refine ⟨hp0, hp1, hne, ?_⟩
    have hvl : (values.length : K) - 1 = n := by rw [← hlen, hn]; push_cast; ring
    have hvn : (0 : K) ≤ (n : K) * (p / 100) := by positivity
    have hvn1 : (n : K) * (p / 100) ≤ n := by
      have : p / 100 ≤ 1 := by rw [div_le_one (by norm_num)]; exact hp1
      exact mul_le_of_le_one_right (by positivity) this
    have hfl : (0 : Int) ≤ ⌊(n : K) * (p / 100)⌋ := Int.floor_nonneg.2 hvn
    have hfn : ⌊(n : K) * (p / 100)⌋ ≤ (n : Int) := by
      have : ⌊(n : K) * (p / 100)⌋ ≤ ⌊(n : K)⌋ := Int.floor_mono hvn1
      simpa using this
    generalize hfv : ⌊(n : K) * (p / 100)⌋ = f at h hfl hfn
    obtain ⟨q, rfl⟩ : ∃ q : Nat, f = q := ⟨f.toNat, by omega⟩
    have hg0 : (q : K) ≤ (n : K) * (p / 100) := by
      have := Int.floor_le ((n : K) * (p / 100)); rw [hfv] at this; simpa using this
    have hg1 : (n : K) * (p / 100) < q + 1 := by
      have := Int.lt_floor_add_one ((n : K) * (p / 100)); rw [hfv] at this; simpa using this
    have hqn : q ≤ n := by omega
    injection h with h
    simp only [Int.toNat_natCast] at h
    have ha : v.getD q 0 = v[q] := by simp [List.getD, List.getElem?_eq_getElem (show q < v.length by omega)]
    have hb : v.getD (min (q + 1) n) 0 = v[min (q + 1) n] := by
      simp [List.getD, List.getElem?_eq_getElem (show min (q + 1) n < v.length by omega)]
    rw [ha, hb] at h
    have hab : v[q] ≤ v[min (q + 1) n] := by
      rcases Nat.lt_or_eq_of_le (show q ≤ min (q + 1) n by omega) with hlt | heq
      · exact List.pairwise_iff_getElem.1 hsort q _ (by omega) (by omega) hlt
      · have : ∀ (i j : Nat) (hi : i < v.length) (hj : j < v.length), i = j → v[i] ≤ v[j] := by
          intro i j hi hj e; subst e; exact le_refl _
        exact this _ _ _ _ heq
    have hqt : v[q] ≤ t := by
      rw [← h]
      have h1 : 0 ≤ v[min (q + 1) n] - v[q] := by linarith
      have h2 : 0 ≤ (n : K) * (p / 100) - ((q : Int) : K) := by simpa using hg0
      have := mul_nonneg h1 h2
      linarith
    have htq : t ≤ v[min (q + 1) n] := by
      rw [← h]
      have h1 : 0 ≤ v[min (q + 1) n] - v[q] := by linarith
      have h2 : 0 ≤ 1 - ((n : K) * (p / 100) - ((q : Int) : K)) := by simp; linarith
      have := mul_nonneg h1 h2
      nlinarith
    refine ⟨q, by rw [hvl, mul_div_assoc]; exact hg0, by rw [hvl, mul_div_assoc]; exact hg1, by omega, ?_, ?_, ?_⟩
    · rw [← hperm.countP_eq]
      exact countP_take_sorted hsort (by omega) hqt
    · rw [← hperm.countP_eq]
      have := countP_drop_sorted hsort (show min (q + 1) n < v.length by omega) htq
      omega
    · exact ⟨_, hperm.mem_iff.1 (List.getElem_mem (show min (q + 1) n < v.length by omega)), htq⟩

/-! ### the level loop -/

/-- an entry of the statistics that `+` adds and `*` multiplies -/
structure LinEntry (e : CascStats K → XF K) : Prop where
  add : ∀ a b, e (a.add b) = e a + e b
  scale : ∀ a f, e (a.scale f) = e a * f

theorem linEntry_p01 (b : Fin 2) (t : Fin 4) : LinEntry (K := K) fun s => s.p01 b t := ⟨fun _ _ => rfl, fun _ _ => rfl⟩
theorem linEntry_p10 (b : Fin 2) (t : Fin 4) : LinEntry (K := K) fun s => s.p10 b t := ⟨fun _ _ => rfl, fun _ _ => rfl⟩
theorem linEntry_pxx (b : Fin 2) (t : Fin 4) : LinEntry (K := K) fun s => s.pxx b t := ⟨fun _ _ => rfl, fun _ _ => rfl⟩
theorem linEntry_wxx (k : Fin 7) (b : Fin 2) (t : Fin 4) : LinEntry (K := K) fun s => s.wxx k b t := ⟨fun _ _ => rfl, fun _ _ => rfl⟩

theorem pairSums_iter_length (s : Series (XF K)) : ∀ i, (pairSums^[i] s).length = s.length / 2 ^ i
  | 0 => by simp
  | i + 1 => by
    rw [Function.iterate_succ_apply', pairSums_length, pairSums_iter_length s i, Nat.div_div_eq_div_mul, pow_succ]

theorem levelStatsLoop_spec [FloorRing K] {p : K} : ∀ (k : Nat) {vdn : Series (XF K)} {acc : CascStats K} {count : Nat}
    {l : List (CascStats K)} {acc' : CascStats K} {count' : Nat}, levelStatsLoop p k vdn acc count = .ok (l, acc', count') →
    l.length = k ∧ (∀ (i : Nat) (s : CascStats K), l[i]? = some s → ∃ v, aggregatePrecipitation (pairSums^[i] vdn) p = .ok (s, v)) ∧
    count' = count + ∑ i ∈ Finset.range k, vdn.length / 2 ^ (i + 1) ∧
    ∀ (e : CascStats K → XF K), LinEntry e → ∀ (A : K) (f : Nat → K), e acc = .fin A →
      (∀ (i : Nat) (s : CascStats K), l[i]? = some s → e s = .fin (f i)) →
      e acc' = .fin (A + ∑ i ∈ Finset.range k, f i * ((vdn.length / 2 ^ (i + 1) : Nat) : K))
  | 0, vdn, acc, count, l, acc', count', h => by
    unfold levelStatsLoop at h
    cases h
    refine ⟨rfl, by simp, by simp, ?_⟩
    intro e _ A f hA _
    simpa using hA
  | k + 1, vdn, acc, count, l, acc', count', h => by
    unfold levelStatsLoop at h
    obtain ⟨⟨s, v⟩, h1, h⟩ := Except.bind_ok h
    simp only at h
    obtain ⟨⟨rest, acc2, count2⟩, h2, h⟩ := Except.bind_ok h
    cases h
    obtain ⟨-, hv, -⟩ := aggregate_inv h1
    obtain ⟨i1, i2, i3, i4⟩ := levelStatsLoop_spec k h2
    have hlen : v.length = vdn.length / 2 := by rw [hv, pairSums_length]
    have hidx : ∀ i, v.length / 2 ^ (i + 1) = vdn.length / 2 ^ (i + 1 + 1) := by
      intro i
      rw [hlen, Nat.div_div_eq_div_mul, ← pow_succ']
    refine ⟨by simp [i1], ?_, ?_, ?_⟩
    · intro i s' hi
      cases i with
      | zero => simp at hi; subst hi; exact ⟨v, h1⟩
      | succ i =>
        obtain ⟨v', hv'⟩ := i2 i s' (by simpa using hi)
        refine ⟨v', ?_⟩
        rw [Function.iterate_succ_apply, ← hv]
        exact hv'
    · rw [i3, Finset.sum_range_succ']
      simp only [hidx]
      rw [hlen]
      simp only [Nat.zero_add, pow_one]
      omega
    · intro e he A f hA hf
      have h0 : e s = .fin (f 0) := hf 0 s rfl
      have := i4 e he (A + f 0 * (v.length : K)) (fun i => f (i + 1)) (by
        rw [he.add, he.scale, hA, h0]; simp) (fun i s' hi => hf (i + 1) s' (by simpa using hi))
      rw [this, Finset.sum_range_succ']
      simp only [hidx]
      rw [hlen]
      simp only [Nat.zero_add, pow_one]
      congr 1
      ring

/-- a positive number of boxes in every level that was processed -/
theorem aggregate_pos [FloorRing K] {data : Series (XF K)} {p : K} {s : CascStats K} {v : Series (XF K)}
    (h : aggregatePrecipitation data p = .ok (s, v)) : 0 < data.length / 2 := by
  obtain ⟨-, hv, mv, ty, h1, -⟩ := aggregate_inv h
  obtain ⟨-, -, hne, -⟩ := npPercentile_spec h1
  rw [← pairSums_length, ← hv]
  refine Nat.pos_of_ne_zero fun h0 => hne ?_
  rw [List.length_eq_zero_iff] at h0
  rw [h0]; rfl

theorem seasonStats_spec [FloorRing K] {vdn : Series (XF K)} {levels : Nat} {avg : Bool} {p : K} {r : CascStats K ⊕ List (CascStats K)}
    (h : seasonStats vdn levels avg p = .ok r) :
    ∃ l : List (CascStats K), l.length = levels ∧
      (∀ (i : Nat) (s : CascStats K), l[i]? = some s → ∃ v, aggregatePrecipitation (pairSums^[i] vdn) p = .ok (s, v)) ∧
      0 < ∑ i ∈ Finset.range levels, vdn.length / 2 ^ (i + 1) ∧
      (avg = false → r = .inr l) ∧
      (avg = true → ∃ a, r = .inl a ∧ a.percentile = p ∧ a.threshold = l.map (fun s => s.threshold.headD .nan) ∧
        ∀ (e : CascStats K → XF K), LinEntry e → (∀ th, ∀ s, e { s with threshold := th } = e s) →
          e { (CascStats.init : CascStats K) with percentile := p } = .fin 0 → ∀ (f : Nat → K),
          (∀ (i : Nat) (s : CascStats K), l[i]? = some s → e s = .fin (f i)) →
          e a = .fin ((∑ i ∈ Finset.range levels, f i * ((vdn.length / 2 ^ (i + 1) : Nat) : K)) /
            ((∑ i ∈ Finset.range levels, vdn.length / 2 ^ (i + 1) : Nat) : K))) := by
  unfold seasonStats at h
  obtain ⟨⟨l, acc, count⟩, h1, h⟩ := Except.bind_ok h
  obtain ⟨i1, i2, i3, i4⟩ := levelStatsLoop_spec levels h1
  simp only [Nat.zero_add] at h i3
  by_cases hc : count = 0
  · simp [hc, bind, Except.bind] at h
  · simp only [hc, if_false, bind, Except.bind, pure, Except.pure] at h
    injection h with h
    refine ⟨l, i1, i2, by omega, ?_, ?_⟩
    · intro ha; subst ha; simpa using h.symm
    · intro ha; subst ha
      rw [if_pos rfl] at h
      refine ⟨_, h.symm, ?_, rfl, ?_⟩
      · have hp : ∀ (k : Nat) {vdn : Series (XF K)} {acc : CascStats K} {count : Nat} {l : List (CascStats K)} {acc' : CascStats K} {count' : Nat},
            levelStatsLoop p k vdn acc count = .ok (l, acc', count') → acc'.percentile = acc.percentile := by
          intro k
          induction k with
          | zero => intro _ _ _ _ _ _ h; unfold levelStatsLoop at h; cases h; rfl
          | succ k ih =>
            intro _ _ _ _ _ _ h
            unfold levelStatsLoop at h
            obtain ⟨⟨s, v⟩, h1, h⟩ := Except.bind_ok h
            simp only at h
            obtain ⟨⟨rest, acc2, count2⟩, h2, h⟩ := Except.bind_ok h
            cases h
            rw [ih h2]; rfl
        exact hp levels h1
      · intro e he hth hz f hf
        rw [hth, he.scale, i4 e he 0 f hz hf, ← i3]
        rw [XF.fin_mul_fin, zero_add]
        congr 1
        ring

end

end Melodist
