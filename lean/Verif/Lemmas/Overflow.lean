import Verif.Props.Gradual

/-!
# Helper lemmas: in the cascade no number gets too large
-/

set_option linter.unusedSectionVars false

namespace Melodist
open Spec

variable {K : Type} [Field K] [LinearOrder K] [IsStrictOrderedRing K]

/-- a number, if it is one, of absolute value at most `c` -/
def Small (c : K) (x : XF K) : Prop := ∀ y, x = .fin y → |y| ≤ c

theorem small_add {c d : K} {x y : XF K} (hx : Small c x) (hy : Small d y) : Small (c + d) (x + y) := by
  intro z hz
  cases x with
  | fin a =>
    cases y with
    | fin b =>
      rw [XF.fin_add_fin] at hz
      cases hz
      exact (abs_add_le a b).trans (add_le_add (hx a rfl) (hy b rfl))
    | _ => cases hz
  | _ => cases y <;> cases hz

theorem small_rnd (G : GradualRounding K) (ha : G.a ≤ 1) {c : K} {x : XF K} (hx : Small c x) : Small (2 * c + 1) (x.rnd G.fl) := by
  intro z hz
  cases x with
  | fin a =>
    cases hz
    have h1 := G.err a
    have h2 := hx a rfl
    have h3 : G.u * |a| ≤ |a| := mul_le_of_le_one_left (abs_nonneg a) G.u_lt_one.le
    have h4 := abs_add_le (G.fl a - a) a
    rw [sub_add_cancel] at h4
    linarith
  | _ => cases hz

theorem rnd_congr {fl fl' : K → K} {c : K} {x : XF K} (hx : Small c x) (h : ∀ y, |y| ≤ c → fl' y = fl y) : x.rnd fl' = x.rnd fl := by
  cases x with
  | fin a => exact congrArg XF.fin (h a (hx a rfl))
  | _ => rfl

/-- statistics whose numbers are at most 2 -/
def SmallStats (s : CascStats K) : Prop := ∀ b t, Small 2 (s.p01 b t) ∧ Small 2 (s.p10 b t) ∧ ∀ k, Small 2 (s.wxx k b t)

section
variable (G : GradualRounding K) (ha : G.a ≤ 1) {fl' : K → K} {B : K} (hB : 1000 ≤ B) (hfl : ∀ x, |x| ≤ B → fl' x = G.fl x)
include ha hB hfl

theorem wxxcumR_congr {s : CascStats K} (hs : SmallStats s) (b : Fin 2) (t : Fin 4) (k : Nat) (hk : k < 7) :
    wxxcumR fl' s k b t = wxxcumR G.fl s k b t ∧ Small (7 * 2 ^ k - 5) (wxxcumR G.fl s k b t) := by
  induction k with
  | zero => exact ⟨rfl, by norm_num; exact (hs b t).2.2 0⟩
  | succ k ih =>
    obtain ⟨e, h⟩ := ih (by omega)
    unfold wxxcumR
    rw [dif_pos hk, e]
    have h1 := small_add h ((hs b t).2.2 ⟨k + 1, hk⟩)
    have hp : (2 : K) ^ k ≤ 2 ^ 6 := pow_le_pow_right₀ (by norm_num) (by omega)
    refine ⟨rnd_congr h1 fun y hy => hfl y (by norm_num at hp; linarith), ?_⟩
    have h2 := small_rnd G ha h1
    intro z hz
    have := h2 z hz
    rw [pow_succ]
    linarith

theorem classCentreR_congr (k : Fin 7) : classCentreR fl' k = classCentreR G.fl k := by
  have h1 : |(wclassbounds k.succ : K)| ≤ 1 := by
    rw [abs_le]
    unfold wclassbounds
    fin_cases k <;> simp [Matrix.cons_val_succ] <;> norm_num
  have h2 : |(1 / 14 : K)| ≤ 1 := by norm_num [abs_le]
  have h3 : ∀ y : K, |y| ≤ 1 → |G.fl y| ≤ 3 := by
    intro y hy
    have := small_rnd G ha (x := .fin y) (c := 1) (by intro z hz; cases hz; exact hy) (G.fl y) rfl
    linarith
  unfold classCentreR
  rw [hfl (wclassbounds k.succ) (by linarith), hfl (1 / 14) (by linarith)]
  apply hfl
  have a := h3 _ h1
  have b := h3 _ h2
  have := abs_sub (G.fl (wclassbounds k.succ)) (G.fl (1 / 14))
  linarith

theorem guessW1R_congr {s : CascStats K} (hs : SmallStats s) (b : Fin 2) (t : Fin 4) (r : K) (stale : Option K) :
    guessW1R fl' s b t r stale = guessW1R G.fl s b t r stale := by
  unfold guessW1R
  have h : (fun k : Fin 7 => decide (XF.le (.fin r) (wxxcumR fl' s k.1 b t))) = fun k : Fin 7 => decide (XF.le (.fin r) (wxxcumR G.fl s k.1 b t)) := by
    funext k
    rw [(wxxcumR_congr G ha hB hfl hs b t k.1 k.2).1]
  rw [h]
  split
  · rw [classCentreR_congr G ha hB hfl]
  · rfl

theorem boxStepR_congr {rnd : Nat → K} {s : CascStats K} (hs : SmallStats s) (mv : XF K) (prev : Option K) {x : K} (hx0 : 0 ≤ x) (hxB : x ≤ B) (next : Option K)
    (st : CascVars K) : boxStepR fl' rnd s mv prev x next st = boxStepR G.fl rnd s mv prev x next st := by
  unfold boxStepR
  by_cases hx : 0 < x
  · rw [if_pos hx, if_pos hx]
    congr 1
    funext vb
    cases vb with
    | none => rfl
    | some ty =>
      dsimp only
      generalize (if XF.lt mv (.fin x) then (1 : Fin 2) else 0) = b
      rw [rnd_congr (small_add (hs b ty.col).1 (hs b ty.col).2.1) (fun y hy => hfl y (by linarith)), guessW1R_congr G ha hB hfl hs]
      split
      · rfl
      split
      · rfl
      generalize guessW1R G.fl s b ty.col (rnd (st.draws + 1)) st.w1 = g
      cases g with
      | none => rfl
      | some w =>
        dsimp only
        by_cases hw : w < 0 ∨ 1 < w
        · rw [if_pos hw, if_pos hw]
        · rw [if_neg hw, if_neg hw]
          push Not at hw
          have h1 : 0 ≤ 1 - w := by linarith [hw.2]
          have h2 : G.fl (1 - w) ≤ 1 := by
            have := G.mono (1 - w) 1 (by linarith [hw.1])
            rwa [G.one] at this
          have h3 := G.fl_nonneg h1
          have e1 : fl' (w * x) = G.fl (w * x) := hfl _ (by
            rw [abs_of_nonneg (mul_nonneg hw.1 hx0)]
            exact (mul_le_of_le_one_left hx0 hw.2).trans hxB)
          have e2 : fl' (1 - w) = G.fl (1 - w) := hfl _ (by rw [abs_of_nonneg h1]; linarith [hw.1])
          have e3 : fl' (G.fl (1 - w) * x) = G.fl (G.fl (1 - w) * x) := hfl _ (by
            rw [abs_of_nonneg (mul_nonneg h3 hx0)]
            exact (mul_le_of_le_one_left hx0 h2).trans hxB)
          rw [e1, e2, e3]
  · rw [if_neg hx, if_neg hx]

theorem boxLoopR_congr {rnd : Nat → K} {s : CascStats K} (hs : SmallStats s) (mv : XF K) : ∀ (v : List K) (prev : Option K) (st : CascVars K),
    (∀ x ∈ v, 0 ≤ x ∧ x ≤ B) → boxLoopR fl' rnd s mv prev v st = boxLoopR G.fl rnd s mv prev v st
  | [], _, _, _ => rfl
  | x :: xs, prev, st, hv => by
    unfold boxLoopR
    rw [boxStepR_congr G ha hB hfl hs mv prev (hv x (by simp)).1 (hv x (by simp)).2]
    congr 1
    funext r
    obtain ⟨⟨a, b⟩, st1⟩ := r
    dsimp only
    rw [boxLoopR_congr hs mv xs _ _ fun y hy => hv y (by simp [hy])]

omit ha hB hfl in
theorem boxStepR_range (hfB : G.fl B = B) {rnd : Nat → K} {s : CascStats K} {mv : XF K} {prev next : Option K} {x a b : K} {st st' : CascVars K} (hx0 : 0 ≤ x) (hxB : x ≤ B)
    (h : boxStepR G.fl rnd s mv prev x next st = .ok ((a, b), st')) : (0 ≤ a ∧ a ≤ B) ∧ 0 ≤ b ∧ b ≤ B := by
  have hB0 : 0 ≤ B := hx0.trans hxB
  unfold boxStepR at h
  split at h
  · obtain ⟨vb, _, h⟩ := Except.bind_ok h
    dsimp only at h
    cases vb with
    | none => cases h
    | some ty =>
      dsimp only at h
      generalize (if XF.lt mv (.fin x) then (1 : Fin 2) else 0) = b0 at h
      split at h
      · cases h; exact ⟨⟨le_refl _, hB0⟩, hx0, hxB⟩
      · split at h
        · cases h; exact ⟨⟨hx0, hxB⟩, le_refl _, hB0⟩
        · split at h
          · cases h
          · split at h
            · cases h
            · rename_i w _ hw
              push Not at hw
              cases h
              have h1 : 0 ≤ 1 - w := by linarith [hw.2]
              have h2 : G.fl (1 - w) ≤ 1 := by
                have := G.mono (1 - w) 1 (by linarith [hw.1])
                rwa [G.one] at this
              have h3 := G.fl_nonneg h1
              refine ⟨⟨G.fl_nonneg (mul_nonneg hw.1 hx0), ?_⟩, G.fl_nonneg (mul_nonneg h3 hx0), ?_⟩
              · rw [← hfB]; exact G.mono _ _ ((mul_le_of_le_one_left hx0 hw.2).trans hxB)
              · rw [← hfB]; exact G.mono _ _ ((mul_le_of_le_one_left hx0 h2).trans hxB)
  · cases h; exact ⟨⟨le_refl _, hB0⟩, le_refl _, hB0⟩

omit ha hB hfl in
theorem boxLoopR_range (hfB : G.fl B = B) {rnd : Nat → K} {s : CascStats K} {mv : XF K} : ∀ (v : List K) (prev : Option K) (st : CascVars K) {out : List K}
    {st' : CascVars K}, (∀ x ∈ v, 0 ≤ x ∧ x ≤ B) → boxLoopR G.fl rnd s mv prev v st = .ok (out, st') → ∀ x ∈ out, 0 ≤ x ∧ x ≤ B
  | [], _, _, out, st', _, h => by unfold boxLoopR at h; cases h; simp
  | x :: xs, prev, st, out, st', hv, h => by
    unfold boxLoopR at h
    obtain ⟨⟨⟨a, b⟩, st1⟩, h1, h⟩ := Except.bind_ok h
    obtain ⟨⟨rest, st2⟩, h2, h⟩ := Except.bind_ok h
    cases h
    have r1 := boxStepR_range G hfB (hv x (by simp)).1 (hv x (by simp)).2 h1
    have r2 := boxLoopR_range hfB xs _ _ (fun y hy => hv y (by simp [hy])) h2
    intro y hy
    simp only [List.mem_cons] at hy
    rcases hy with rfl | rfl | hy
    · exact r1.1
    · exact r1.2
    · exact r2 y hy

omit ha hB hfl in
theorem levelLoopR_range (hfB : G.fl B = B) {rnd : Nat → K} {opts : CascOptions K} :
    ∀ (si : Nat) (v : List K) (st : CascVars K) {ls : List (List K)}, (∀ x ∈ v, 0 ≤ x ∧ x ≤ B) → levelLoopR G.fl rnd opts si v st = .ok ls →
    ∀ l ∈ ls, ∀ x ∈ l, 0 ≤ x ∧ x ≤ B
  | 0, _, _, ls, _, h => by unfold levelLoopR at h; cases h; simp
  | si + 1, v, st, ls, hv, h => by
    unfold levelLoopR at h
    obtain ⟨⟨s, mv⟩, _, h⟩ := Except.bind_ok h
    obtain ⟨⟨vout, st1⟩, h2, h⟩ := Except.bind_ok h
    obtain ⟨rest, h3, h⟩ := Except.bind_ok h
    cases h
    have r := boxLoopR_range G hfB v none st hv h2
    have r' := levelLoopR_range hfB si vout st1 r h3
    intro l hl
    rcases List.mem_cons.1 hl with rfl | hl
    · exact r
    · exact r' l hl

theorem levelLoopR_congr (hfB : G.fl B = B) {rnd : Nat → K} {opts : CascOptions K} (hs : ∀ si s mv, levelStats opts si = .ok (s, mv) → SmallStats s) :
    ∀ (si : Nat) (v : List K) (st : CascVars K), (∀ x ∈ v, 0 ≤ x ∧ x ≤ B) →
    levelLoopR fl' rnd opts si v st = levelLoopR G.fl rnd opts si v st
  | 0, _, _, _ => rfl
  | si + 1, v, st, hv => by
    unfold levelLoopR
    cases hl : levelStats opts si with
    | error e => rfl
    | ok p =>
      obtain ⟨s, mv⟩ := p
      simp only [py_ok_bind]
      rw [boxLoopR_congr G ha hB hfl (hs si s mv hl) mv v none st hv]
      cases hb : boxLoopR G.fl rnd s mv none v st with
      | error e => rfl
      | ok p =>
        obtain ⟨vout, st1⟩ := p
        simp only [py_ok_bind]
        rw [levelLoopR_congr hfB hs si vout st1 (boxLoopR_range G hfB v none st hv hb)]

omit ha hB in
theorem quarterHoursR_congr (v : List K) (hv : ∀ x ∈ v, 0 ≤ x ∧ x ≤ B) : quarterHoursR fl' v = quarterHoursR G.fl v := by
  unfold quarterHoursR
  apply List.flatMap_congr
  intro x hx
  have := hv x hx
  rw [hfl (x / 3) (by rw [abs_of_nonneg (by linarith [div_nonneg this.1 (show (0 : K) ≤ 3 by norm_num)])]; linarith [this.1, this.2])]

omit ha hB in
theorem runR_congr {q : Nat → K} (hq : ∀ k, 0 ≤ q k) (hf : ∀ k, G.fl (q k) = q k) {N : Nat} (hN : (1 + G.u) ^ N * ∑ j ∈ Finset.range N, q j ≤ B) :
    ∀ k ≤ N, runR fl' 0 q k = runR G.fl 0 q k ∧ runR G.fl 0 q k ≤ B := by
  have hB0 : 0 ≤ B := le_trans (mul_nonneg (pow_nonneg G.hi_nonneg _) (Finset.sum_nonneg fun j _ => hq j)) hN
  have hsum : ∀ k, k < N → runR G.fl 0 q k + q k ≤ B := by
    intro k hk
    refine le_trans ?_ hN
    have e1 : runR G.fl 0 q k + q k ≤ (1 + G.u) ^ k * ∑ j ∈ Finset.range (k + 1), q j := by
      rw [Finset.sum_range_succ, mul_add]
      exact add_le_add (runG_le G hq hf _) (le_mul_of_one_le_left (hq _) (one_le_pow₀ G.one_le))
    have s0 : 0 ≤ ∑ j ∈ Finset.range (k + 1), q j := Finset.sum_nonneg fun j _ => hq j
    refine le_trans e1 (mul_le_mul (pow_le_pow_right₀ G.one_le (by omega)) ?_ s0 (pow_nonneg G.hi_nonneg _))
    exact Finset.sum_le_sum_of_subset_of_nonneg (Finset.range_subset_range.2 (by omega)) fun j _ _ => hq j
  intro k
  induction k with
  | zero => intro _; exact ⟨rfl, hB0⟩
  | succ k ih =>
    intro hk
    obtain ⟨e, _⟩ := ih (by omega)
    have h1 : 0 ≤ runR G.fl 0 q k + q k := add_nonneg (runG_nonneg G hq k) (hq k)
    have h2 := hsum k (by omega)
    refine ⟨?_, ?_⟩
    · show fl' (runR fl' 0 q k + q k) = G.fl _
      rw [e, hfl _ (by rw [abs_of_nonneg h1]; exact h2)]
    · refine (runG_le G hq hf (k + 1)).trans (le_trans ?_ hN)
      refine mul_le_mul (pow_le_pow_right₀ G.one_le hk) ?_ (Finset.sum_nonneg fun j _ => hq j) (pow_nonneg G.hi_nonneg _)
      exact Finset.sum_le_sum_of_subset_of_nonneg (Finset.range_subset_range.2 hk) fun j _ _ => hq j

omit ha hB in
theorem hourlyFromQuarterR_congr {q : List K} (h4 : 4 ∣ q.length) (hq : ∀ y ∈ q, 0 ≤ y) (hf : ∀ y ∈ q, G.fl y = y) (hN : (1 + G.u) ^ q.length * q.sum ≤ B) :
    hourlyFromQuarterR fl' q = hourlyFromQuarterR G.fl q := by
  have hq' : ∀ k, 0 ≤ q.getD k 0 := by
    intro k
    rw [List.getD_eq_getElem?_getD]
    cases e : q[k]? with
    | none => exact le_refl _
    | some y => exact hq y (List.mem_of_getElem? e)
  have hf' : ∀ k, G.fl (q.getD k 0) = q.getD k 0 := by
    intro k
    rw [List.getD_eq_getElem?_getD]
    cases e : q[k]? with
    | none => exact G.zero
    | some y => exact hf y (List.mem_of_getElem? e)
  have hQ : q.sum = ∑ j ∈ Finset.range q.length, q.getD j 0 := by
    have : q = (List.range q.length).map fun j => q.getD j 0 := by
      apply List.ext_getElem
      · simp
      · intro k h1 h2
        simp [List.getD_eq_getElem?_getD, List.getElem?_eq_getElem h1]
    conv_lhs => rw [this]
    exact sum_map_range _ _
  rw [hQ] at hN
  have run := runR_congr G hfl hq' hf' hN
  have m : ∀ a m, runR G.fl 0 (fun j => q.getD j 0) a ≤ runR G.fl 0 (fun j => q.getD j 0) (a + m) := by
    intro a m
    induction m with
    | zero => exact le_refl _
    | succ m ih => exact ih.trans (runG_mono G hq' _)
  unfold hourlyFromQuarterR
  dsimp only
  apply List.map_congr_left
  intro k hk
  have hk := List.mem_range.1 hk
  have hlen : 4 * k + 4 ≤ q.length := by omega
  by_cases h0 : k = 0
  · subst h0
    rw [if_pos rfl, if_pos rfl, cumsumR_getD _ _ _ _ (by omega), cumsumR_getD _ _ _ _ (by omega)]
    exact (run 4 (by omega)).1
  · rw [if_neg h0, if_neg h0, cumsumR_getD _ _ _ _ (by omega), cumsumR_getD _ _ _ _ (by omega), cumsumR_getD _ _ _ _ (by omega), cumsumR_getD _ _ _ _ (by omega),
      (run _ (by omega)).1, (run _ (by omega)).1]
    apply hfl
    have a := m (4 * (k + 1) - 5 + 1) 4
    rw [show 4 * (k + 1) - 5 + 1 + 4 = 4 * (k + 1) - 1 + 1 by omega] at a
    rw [abs_of_nonneg (by linarith)]
    have b := (run (4 * (k + 1) - 1 + 1) (by omega)).2
    have c := runG_nonneg G hq' (4 * (k + 1) - 5 + 1)
    linarith

omit ha hB hfl in
theorem zeroMissing_range {n : Nat} {v : Nat → XF K} {w : List K} (hz : zeroMissing ((List.range n).map v) = .ok w) :
    w = (List.range n).map (fun i => match v i with | .fin x => x | _ => 0) := by
  obtain ⟨z1, z2⟩ := zeroMissing_ok hz
  apply List.ext_getElem?
  intro i
  by_cases hi : i < n
  · obtain ⟨c1, c2, c3⟩ := z2 i (v i) (by simp [hi])
    rw [List.getElem?_map, List.getElem?_range hi]
    cases hvi : v i with
    | nan => rw [c3 hvi]; simp [hvi]
    | fin x => rw [c2 x hvi]; simp [hvi]
    | pinf => rw [hvi] at c1; simp at c1
    | ninf => rw [hvi] at c1; simp at c1
  · rw [List.getElem?_eq_none (by simp at z1; omega), List.getElem?_eq_none (by simp; omega)]

omit ha hB hfl [LinearOrder K] [IsStrictOrderedRing K] in
theorem numbers_sum_zeroed (n : Nat) (v : Nat → XF K) :
    (numbers ((List.range n).map v)).sum = ((List.range n).map (fun i => match v i with | .fin x => x | _ => 0)).sum := by
  induction n with
  | zero => rfl
  | succ n ih =>
    rw [List.range_succ, List.map_append, List.map_append, List.sum_append, ← ih]
    unfold numbers
    rw [List.filterMap_append, List.sum_append]
    congr 1
    show (List.filterMap _ [v n]).sum = (List.map _ [n]).sum
    rw [List.map_cons, List.map_nil, List.sum_singleton]
    cases hvn : v n <;> simp

/-- **no overflow**: an arithmetic that is `G` up to the number `B` gives the same results -/
theorem cascadeR_congr (hfB : G.fl B = B) {api : PandasApi} {rnd : Nat → K} {opts : CascOptions K} (hs : ∀ si s mv, levelStats opts si = .ok (s, mv) → SmallStats s)
    {d0 : Int} {n : Nat} {v : Nat → XF K} (hv : ∀ i < n, ∀ x, v i = .fin x → 0 ≤ x)
    (hS : (1 + G.u) ^ (96 * n + 11) * ((numbers ((List.range n).map v)).sum + 158 * n * G.a) ≤ B) (shift : Int) :
    cascadeR fl' api rnd (dailyS d0 n v) opts shift = cascadeR G.fl api rnd (dailyS d0 n v) opts shift := by
  unfold cascadeR
  rw [dailyS_values]
  by_cases hl : (dailyS d0 n v).length < 2
  · rw [if_pos hl, if_pos hl]
  rw [if_neg hl, if_neg hl]
  cases hz : zeroMissing ((List.range n).map v) with
  | error e => rfl
  | ok w =>
    simp only [py_ok_bind]
    congr 1
    funext _
    have hw := zeroMissing_range hz
    have hw0 : ∀ x ∈ w, 0 ≤ x := by
      intro x hx
      rw [hw] at hx
      obtain ⟨i, hi, rfl⟩ := List.mem_map.1 hx
      cases hvi : v i with
      | fin y => exact hv i (List.mem_range.1 hi) y hvi
      | _ => exact le_refl _
    have hsum := numbers_sum_zeroed n v
    rw [← hw] at hsum
    rw [hsum] at hS
    have hna : 0 ≤ 158 * (n : K) * G.a := mul_nonneg (mul_nonneg (by norm_num) (Nat.cast_nonneg n)) G.a_nonneg
    have hwB : w.sum ≤ B := by
      refine le_trans ?_ hS
      have h0 : 0 ≤ w.sum := List.sum_nonneg hw0
      exact le_trans (by linarith) (le_mul_of_one_le_left (add_nonneg h0 hna) (one_le_pow₀ G.one_le))
    have hwx : ∀ x ∈ w, 0 ≤ x ∧ x ≤ B := fun x hx => ⟨hw0 x hx, (List.single_le_sum hw0 x hx).trans hwB⟩
    rw [levelLoopR_congr G ha hB hfl hfB hs 5 w {} hwx]
    cases hlev : levelLoopR G.fl rnd opts 5 w {} with
    | error e => rfl
    | ok levels =>
      simp only [py_ok_bind]
      have s1 := levelLoopG_last G hw0 (by intro w e; cases e) hlev
      have hlast : ∀ x ∈ levels.getLastD [], 0 ≤ x ∧ x ≤ B := by
        intro x hx
        rcases List.eq_nil_or_concat levels with e | ⟨l, b, e⟩
        · rw [e] at hx; cases hx
        · refine levelLoopR_range G hfB 5 w {} hwx hlev _ ?_ x hx
          rw [e]; simp
      rw [quarterHoursR_congr G hfl _ hlast]
      have hc : (1 + G.u) * ((2 ^ (4 + 2) - 2) * ((1 + G.u) ^ (2 * 4) * G.a)) + ((2 ^ (4 + 1) : Nat) : K) * (3 * G.a) ≤ 158 * ((1 + G.u) ^ 11 * G.a) := by
        have h1 : (1 + G.u) ^ 9 * G.a ≤ (1 + G.u) ^ 11 * G.a := mul_le_mul_of_nonneg_right (pow_le_pow_right₀ G.one_le (by omega)) G.a_nonneg
        have h2 : G.a ≤ (1 + G.u) ^ 11 * G.a := le_mul_of_one_le_left G.a_nonneg (one_le_pow₀ G.one_le)
        have h3 : (1 + G.u) * ((2 ^ (4 + 2) - 2) * ((1 + G.u) ^ (2 * 4) * G.a)) = 62 * ((1 + G.u) ^ 9 * G.a) := by ring
        rw [h3]; push_cast; linarith
      have s2 := s1.trans G.lo_nonneg (by linarith [G.u_nonneg]) (mul_nonneg (by norm_num) (mul_nonneg (pow_nonneg G.hi_nonneg _) G.a_nonneg)) hc
        (quarterHoursG_split G _ s1.nonneg)
      have s3 := quarterHoursG_fl G (levels.getLastD [])
      rw [← pow_succ', ← pow_succ'] at s2
      generalize quarterHoursR G.fl (levels.getLastD []) = q at s2 s3 ⊢
      have hwl : w.length = n := by rw [hw]; simp
      have hql : q.length = 96 * n := by rw [s2.length, hwl]; ring
      rw [hourlyFromQuarterR_congr G hfl (q := q) ⟨24 * n, by rw [hql]; ring⟩ s2.nonneg s3]
      refine le_trans ?_ hS
      have e : q.sum ≤ (1 + G.u) ^ 11 * w.sum + w.length * (158 * ((1 + G.u) ^ 11 * G.a)) := s2.sum.2
      rw [hwl] at e
      rw [hql]
      calc (1 + G.u) ^ (96 * n) * q.sum ≤ (1 + G.u) ^ (96 * n) * ((1 + G.u) ^ 11 * w.sum + n * (158 * ((1 + G.u) ^ 11 * G.a))) :=
            mul_le_mul_of_nonneg_left e (pow_nonneg G.hi_nonneg _)
        _ = (1 + G.u) ^ (96 * n + 11) * (w.sum + 158 * n * G.a) := by rw [pow_add]; ring

end

end Melodist
