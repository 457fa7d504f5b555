import Verif.Model.CascadeRound5
import Verif.Props.GradualB
import Verif.Props.CascadeRun

/-!
# C131: 5-minute precipitation in floating-point arithmetic
-/

set_option linter.unusedSectionVars false

namespace Melodist
open Spec

section
variable {K : Type} [Field K] [LinearOrder K] [IsStrictOrderedRing K]

/-- **C131** (no rounding) The model is that of C20 if nothing is rounded. -/
theorem C131_exact (api : PandasApi) (rnd : Nat → K) (daily : Series (XF K)) (opts : CascOptions K) (level : Nat) (shift : Int) :
    cascade5R id List.sum api rnd daily opts level shift = disaggPrecCascade api rnd daily opts false level shift false := by
  unfold cascade5R disaggPrecCascade
  split
  · rfl
  · cases hz : zeroMissing daily.values with
    | error e => rfl
    | ok v =>
      simp only [py_ok_bind, Bool.false_eq_true, if_false]
      by_cases hl : level < 1 ∨ 11 < level
      · rw [if_pos hl, if_pos hl]
      rw [if_neg hl, if_neg hl, levelLoopR_id]
      cases hc : checkOptions opts level with
      | error e => rfl
      | ok _ =>
        cases hl : levelLoop rnd opts level v {} with
        | error e => rfl
        | ok levels =>
          simp only [py_ok_bind]
          unfold assembleSeries
          simp only [Bool.false_eq_true, if_false]
          cases hi : subLevelIndex api daily.index level with
          | error e => rfl
          | ok idx =>
            simp only [py_ok_bind]
            cases hm : Series.make idx (levels.getLastD []) with
            | error e => rfl
            | ok s => simp [py_ok_bind]; rfl

/-- a way of adding up to eight floating-point numbers that are not negative with relative error at most `κ`, unless the total exceeds `B` -/
def Spec.SumsWithin (fl : K → K) (κ B : K) (sum : List K → K) : Prop :=
  ∀ l : List K, l.length ≤ 8 → (∀ x ∈ l, 0 ≤ x ∧ fl x = x) → l.sum ≤ B → |sum l - l.sum| ≤ κ * l.sum

/-- at most eight values of the last level are in one bin -/
theorem bin_length {d0 : Int} {n level : Nat} (hl : level ≤ 11) (w : List K) (q : Int) :
    ((gridS d0 n level w).filter fun r => r.1 / (5 * MINUTE) == q).length ≤ 8 := by
  unfold gridS
  rw [List.filter_map, List.length_map]
  have hge := step_ge (11 - level)
  set S : Int := 42187500 * 2 ^ (11 - level) with hS
  set L := (List.range (n * 2 ^ level)).filter ((fun r : Time × K => r.1 / (5 * MINUTE) == q) ∘ fun k : Nat => (d0 * DAY + k * S, w.getD k 0)) with hL
  have hnd : L.Nodup := (List.nodup_range).filter _
  have hmem : ∀ k ∈ L, (d0 * DAY + k * S) / (5 * MINUTE) = q := by
    intro k hk
    have := (List.mem_filter.1 hk).2
    simpa using this
  cases hh : L with
  | nil => simp
  | cons a as =>
    have hmin : ∃ m ∈ L, ∀ k ∈ L, m ≤ k := by
      have hne : L.toFinset.Nonempty := ⟨a, by simp [hh]⟩
      exact ⟨L.toFinset.min' hne, by simpa using L.toFinset.min'_mem hne, fun k hk => L.toFinset.min'_le k (by simpa using hk)⟩
    obtain ⟨m, hm, hmk⟩ := hmin
    have hsub : L.toFinset ⊆ Finset.Ico m (m + 8) := by
      intro k hk
      have hk : k ∈ L := by simpa using hk
      rw [Finset.mem_Ico]
      refine ⟨hmk k hk, ?_⟩
      by_contra hlt
      have h1 := hmem k hk
      have h2 := hmem m hm
      have h3 : (m : Int) + 8 ≤ k := by exact_mod_cast (by omega : m + 8 ≤ k)
      have h4 : (m : Int) * S + 8 * S ≤ k * S := by nlinarith
      omega
    have := Finset.card_le_card hsub
    rw [List.toFinset_card_of_nodup hnd, Nat.card_Ico] at this
    rw [← hh]
    omega

/-- sums and differences are rounded with relative error `u` -/
structure NearFl (fl : K → K) (u B : K) : Prop where
  add : ∀ a b, fl a = a → fl b = b → |a| ≤ B → |b| ≤ B → |a + b| ≤ B → |fl (a + b) - (a + b)| ≤ u * |a + b|
  sub : ∀ a b, fl a = a → fl b = b → |a| ≤ B → |b| ≤ B → |a - b| ≤ B → |fl (a - b) - (a - b)| ≤ u * |a - b|
  idem : ∀ x, |x| ≤ B → fl (fl x) = fl x
  zero : fl 0 = 0
  u0 : 0 ≤ u
  u1 : u ≤ 1 / 1000

theorem seqSum_aux {fl : K → K} {u B : K} (F : NearFl fl u B) : ∀ (l : List K) (k : Nat) (s S : K), k + l.length ≤ 8 → (∀ x ∈ l, 0 ≤ x ∧ fl x = x) →
    fl s = s → 0 ≤ S → 4 * (S + l.sum) ≤ B → |s - S| ≤ 51 / 50 * k * (u * S) → |l.foldl (fun s x => fl (s + x)) s - (S + l.sum)| ≤ 9 * (u * (S + l.sum))
  | [], k, s, S, hk, _, _, hS, _, h => by
    have hk' : (k : K) ≤ 8 := by exact_mod_cast (by simpa using hk)
    have h0 : 0 ≤ u * S := mul_nonneg F.u0 hS
    simp only [List.foldl_nil, List.sum_nil, add_zero]
    have := mul_le_mul_of_nonneg_right hk' h0
    linarith
  | x :: l, k, s, S, hk, hl, hs, hS, hB, h => by
    obtain ⟨hx0, hxf⟩ := hl x (by simp)
    rw [List.length_cons] at hk
    have hk' : (k : K) ≤ 8 := by exact_mod_cast (by omega)
    have hls : 0 ≤ l.sum := List.sum_nonneg fun y hy => (hl y (by simp [hy])).1
    rw [List.sum_cons] at hB ⊢
    have u0 := F.u0
    have p0 : 0 ≤ u * S := mul_nonneg u0 hS
    have q0 : 0 ≤ u * x := mul_nonneg u0 hx0
    have p1 : u * S ≤ 1 / 1000 * S := mul_le_mul_of_nonneg_right F.u1 hS
    have h9 : |s - S| ≤ 9 * (u * S) := by
      have := mul_le_mul_of_nonneg_right hk' p0
      linarith
    have a1 := abs_le.1 h9
    have b1 : |s + x| ≤ S + x + 9 * (u * S) := abs_le.2 ⟨by linarith, by linarith⟩
    have c1 := F.add s x hs hxf (abs_le.2 ⟨by linarith, by linarith⟩) (abs_le.2 ⟨by linarith, by linarith⟩) (b1.trans (by linarith))
    have d1 := mul_le_mul_of_nonneg_left b1 u0
    have up : u * (u * S) ≤ 1 / 1000 * (u * S) := mul_le_mul_of_nonneg_right F.u1 p0
    have e1 : u * (S + x + 9 * (u * S)) = u * S + u * x + 9 * (u * (u * S)) := by ring
    rw [e1] at d1
    have step : |fl (s + x) - (S + x)| ≤ 51 / 50 * ((k + 1 : Nat) : K) * (u * (S + x)) := by
      have e : fl (s + x) - (S + x) = (fl (s + x) - (s + x)) + (s - S) := by ring
      rw [e]
      refine (abs_add_le _ _).trans ?_
      push_cast
      have hk0 : 0 ≤ (k : K) * (u * x) := mul_nonneg (Nat.cast_nonneg k) q0
      have e2 : 51 / 50 * ((k : K) + 1) * (u * (S + x)) = 51 / 50 * (k : K) * (u * S) + 51 / 50 * (k * (u * x)) + 51 / 50 * (u * S) + 51 / 50 * (u * x) := by ring
      rw [e2]
      linarith
    have := seqSum_aux F l (k + 1) (fl (s + x)) (S + x) (by omega) (fun y hy => hl y (by simp [hy])) (F.idem _ (b1.trans (by linarith))) (by linarith) (by linarith) step
    rw [List.foldl_cons, ← add_assoc]
    exact this

theorem kahan_y {fl : K → K} {u B : K} (F : NearFl fl u B) {c S x : K} (hS : 0 ≤ S) (hx0 : 0 ≤ x) (hxf : fl x = x) (hcf : fl c = c) (hB : 4 * (S + x) ≤ B)
    (hc : |c| ≤ 3 * (u * S)) : fl (fl (x - c)) = fl (x - c) ∧ |fl (x - c) - (x - c)| ≤ u * x + 3 / 1000 * (u * S) := by
  have u0 := F.u0
  have hp : 0 ≤ u * S := mul_nonneg u0 hS
  have p1 : u * S ≤ 1 / 1000 * S := mul_le_mul_of_nonneg_right F.u1 hS
  have up : u * (u * S) ≤ 1 / 1000 * (u * S) := mul_le_mul_of_nonneg_right F.u1 hp
  have ac := abs_le.1 hc
  have b1 : |x - c| ≤ x + 3 * (u * S) := abs_le.2 ⟨by linarith, by linarith⟩
  have by1 : |x - c| ≤ B := b1.trans (by linarith)
  have eta := F.sub x c hxf hcf (abs_le.2 ⟨by linarith, by linarith⟩) (hc.trans (by linarith)) by1
  have := mul_le_mul_of_nonneg_left b1 u0
  have e : u * (x + 3 * (u * S)) = u * x + 3 * (u * (u * S)) := by ring
  exact ⟨F.idem _ by1, by linarith⟩

theorem kahan_t {fl : K → K} {u B : K} (F : NearFl fl u B) {s y S x : K} (hS : 0 ≤ S) (hx0 : 0 ≤ x) (hs : fl s = s) (hy : fl y = y) (hB : 4 * (S + x) ≤ B)
    (h1 : |s - S| ≤ 6 * (u * S)) (h2 : |y - x| ≤ 4 * (u * S) + u * x) (h3 : |s + y - (S + x)| ≤ 3 * (u * S) + u * x) :
    fl (fl (s + y)) = fl (s + y) ∧ |fl (s + y) - (s + y)| ≤ 101 / 100 * (u * S + u * x) := by
  have u0 := F.u0
  have hp : 0 ≤ u * S := mul_nonneg u0 hS
  have hq : 0 ≤ u * x := mul_nonneg u0 hx0
  have p1 : u * S ≤ 1 / 1000 * S := mul_le_mul_of_nonneg_right F.u1 hS
  have q1 : u * x ≤ 1 / 1000 * x := mul_le_mul_of_nonneg_right F.u1 hx0
  have up : u * (u * S) ≤ 1 / 1000 * (u * S) := mul_le_mul_of_nonneg_right F.u1 hp
  have uq : u * (u * x) ≤ 1 / 1000 * (u * x) := mul_le_mul_of_nonneg_right F.u1 hq
  have a1 := abs_le.1 h1
  have a2 := abs_le.1 h2
  have a3 := abs_le.1 h3
  have b2 : |s + y| ≤ S + x + 3 * (u * S) + u * x := abs_le.2 ⟨by linarith, by linarith⟩
  have by2 : |s + y| ≤ B := b2.trans (by linarith)
  have he := F.add s y hs hy (abs_le.2 ⟨by linarith, by linarith⟩) (abs_le.2 ⟨by linarith, by linarith⟩) by2
  have := mul_le_mul_of_nonneg_left b2 u0
  have e : u * (S + x + 3 * (u * S) + u * x) = u * S + u * x + 3 * (u * (u * S)) + u * (u * x) := by ring
  exact ⟨F.idem _ by2, by linarith⟩

theorem kahan_c {fl : K → K} {u B : K} (F : NearFl fl u B) {s t y S x : K} (hS : 0 ≤ S) (hx0 : 0 ≤ x) (hs : fl s = s) (hy : fl y = y) (ht : fl t = t) (hB : 4 * (S + x) ≤ B)
    (h1 : |s - S| ≤ 6 * (u * S)) (h2 : |y - x| ≤ 4 * (u * S) + u * x) (h3 : |t - s - y| ≤ 101 / 100 * (u * S + u * x)) :
    fl (fl (fl (t - s) - y)) = fl (fl (t - s) - y) ∧ |fl (fl (t - s) - y)| ≤ 3 * (u * S + u * x) ∧
      |fl (fl (t - s) - y) - (t - s - y)| ≤ 1006 / 1000 * (u * x) + 9 / 1000 * (u * S) := by
  have u0 := F.u0
  have hp : 0 ≤ u * S := mul_nonneg u0 hS
  have hq : 0 ≤ u * x := mul_nonneg u0 hx0
  have p1 : u * S ≤ 1 / 1000 * S := mul_le_mul_of_nonneg_right F.u1 hS
  have q1 : u * x ≤ 1 / 1000 * x := mul_le_mul_of_nonneg_right F.u1 hx0
  have up : u * (u * S) ≤ 1 / 1000 * (u * S) := mul_le_mul_of_nonneg_right F.u1 hp
  have uq : u * (u * x) ≤ 1 / 1000 * (u * x) := mul_le_mul_of_nonneg_right F.u1 hq
  have a1 := abs_le.1 h1
  have a2 := abs_le.1 h2
  have a3 := abs_le.1 h3
  have b3 : |t - s| ≤ x + 201 / 100 * (u * x) + 501 / 100 * (u * S) := abs_le.2 ⟨by linarith, by linarith⟩
  have by3 : |t - s| ≤ B := b3.trans (by linarith)
  have hd := F.sub t s ht hs (abs_le.2 ⟨by linarith, by linarith⟩) (abs_le.2 ⟨by linarith, by linarith⟩) by3
  have hd' : |fl (t - s) - (t - s)| ≤ 1003 / 1000 * (u * x) + 6 / 1000 * (u * S) := by
    have := mul_le_mul_of_nonneg_left b3 u0
    have e : u * (x + 201 / 100 * (u * x) + 501 / 100 * (u * S)) = u * x + 201 / 100 * (u * (u * x)) + 501 / 100 * (u * (u * S)) := by ring
    linarith
  have hgf := F.idem _ by3
  have ad := abs_le.1 hd'
  generalize fl (t - s) = g at hgf ad ⊢
  have b4 : |g - y| ≤ 21 / 10 * (u * S + u * x) := abs_le.2 ⟨by linarith, by linarith⟩
  have by4 : |g - y| ≤ B := b4.trans (by linarith)
  have hz := F.sub g y hgf hy (abs_le.2 ⟨by linarith, by linarith⟩) (abs_le.2 ⟨by linarith, by linarith⟩) by4
  have hz' : |fl (g - y) - (g - y)| ≤ 3 / 1000 * (u * S + u * x) := by
    have := mul_le_mul_of_nonneg_left b4 u0
    have e : u * (21 / 10 * (u * S + u * x)) = 21 / 10 * (u * (u * S)) + 21 / 10 * (u * (u * x)) := by ring
    linarith
  have hcf' := F.idem _ by4
  have az := abs_le.1 hz'
  have ab := abs_le.1 b4
  exact ⟨hcf', abs_le.2 ⟨by linarith, by linarith⟩, abs_le.2 ⟨by linarith, by linarith⟩⟩

theorem kahan_aux {fl : K → K} {u B : K} (F : NearFl fl u B) : ∀ (l : List K) (k : Nat) (s c S : K), k + l.length ≤ 8 → (∀ x ∈ l, 0 ≤ x ∧ fl x = x) →
    fl s = s → fl c = c → 0 ≤ S → 4 * (S + l.sum) ≤ B → |c| ≤ 3 * (u * S) → |s - c - S| ≤ (2 + k / 50) * (u * S) →
    |kahanLoop fl s c l - (S + l.sum)| ≤ 9 * (u * (S + l.sum))
  | [], k, s, c, S, hk, _, _, _, hS, _, hc, h => by
    have hk' : (k : K) ≤ 8 := by exact_mod_cast (by simpa using hk)
    have h0 : 0 ≤ u * S := mul_nonneg F.u0 hS
    simp only [kahanLoop, List.sum_nil, add_zero]
    have h1 := mul_le_mul_of_nonneg_right hk' h0
    have e : s - S = (s - c - S) + c := by ring
    rw [e]
    refine (abs_add_le _ _).trans ?_
    have : (2 + (k : K) / 50) * (u * S) = 2 * (u * S) + (k * (u * S)) / 50 := by ring
    rw [this] at h
    linarith
  | x :: l, k, s, c, S, hk, hl, hs, hcf, hS, hB, hc, h => by
    obtain ⟨hx0, hxf⟩ := hl x (by simp)
    rw [List.length_cons] at hk
    have hk' : (k : K) ≤ 8 := by exact_mod_cast (by omega)
    have hls : 0 ≤ l.sum := List.sum_nonneg fun y hy => (hl y (by simp [hy])).1
    rw [List.sum_cons] at hB ⊢
    have hB' : 4 * (S + x) ≤ B := by linarith
    have u0 := F.u0
    have hp : 0 ≤ u * S := mul_nonneg u0 hS
    have hq : 0 ≤ u * x := mul_nonneg u0 hx0
    have ek : (2 + (k : K) / 50) * (u * S) = 2 * (u * S) + (k * (u * S)) / 50 := by ring
    have hkp := mul_le_mul_of_nonneg_right hk' hp
    rw [ek] at h
    have aD := abs_le.1 h
    have ac := abs_le.1 hc
    have h1 : |s - S| ≤ 6 * (u * S) := abs_le.2 ⟨by linarith, by linarith⟩
    rw [kahanLoop]
    obtain ⟨hyf, hy⟩ := kahan_y F hS hx0 hxf hcf hB' hc
    generalize fl (x - c) = y at hyf hy ⊢
    have ay := abs_le.1 hy
    have h2 : |y - x| ≤ 4 * (u * S) + u * x := abs_le.2 ⟨by linarith, by linarith⟩
    obtain ⟨htf, ht⟩ := kahan_t F hS hx0 hs hyf hB' h1 h2 (abs_le.2 ⟨by linarith, by linarith⟩)
    generalize fl (s + y) = t at htf ht ⊢
    rw [← sub_sub] at ht
    obtain ⟨hcf', hc1, hc2⟩ := kahan_c F hS hx0 hs hyf htf hB' h1 h2 ht
    generalize fl (fl (t - s) - y) = c' at hcf' hc1 hc2 ⊢
    have a2 := abs_le.1 hc2
    rw [← mul_add] at hc1
    rw [← add_assoc] at hB ⊢
    refine kahan_aux F l (k + 1) t c' (S + x) (by omega) (fun y hy => hl y (by simp [hy])) htf hcf' (by linarith) hB hc1 ?_
    push_cast
    have hkq : 0 ≤ (k : K) * (u * x) := mul_nonneg (Nat.cast_nonneg k) hq
    have e2 : (2 + ((k : K) + 1) / 50) * (u * (S + x)) = 2 * (u * S) + (k * (u * S)) / 50 + 2 * (u * x) + (k * (u * x)) / 50 + (u * S + u * x) / 50 := by ring
    rw [e2]
    generalize (k : K) * (u * S) = kp at *
    generalize (k : K) * (u * x) = kq at *
    exact abs_le.2 ⟨by linarith, by linarith⟩

theorem seqSum_within {fl : K → K} {u B : K} (F : NearFl fl u B) : SumsWithin fl (9 * u) (B / 4) (seqSum fl) := by
  intro l hl hx hB
  have := seqSum_aux F l 0 0 0 (by omega) hx F.zero (le_refl _) (by linarith) (by simp)
  rw [zero_add] at this
  unfold seqSum
  linarith [mul_assoc 9 u l.sum]

theorem kahanSum_within {fl : K → K} {u B : K} (F : NearFl fl u B) : SumsWithin fl (9 * u) (B / 4) (kahanSum fl) := by
  intro l hl hx hB
  have := kahan_aux F l 0 0 0 0 (by omega) hx F.zero F.zero (le_refl _) (by linarith) (by simp) (by simp)
  rw [zero_add] at this
  unfold kahanSum
  linarith [mul_assoc 9 u l.sum]

/-! ### the numbers of the last level are floating-point numbers -/

theorem boxStepR_fl (G : GradualRounding K) {rnd : Nat → K} {s : CascStats K} {mv : XF K} {prev next : Option K} {x a b : K} {st st' : CascVars K} (hx : G.fl x = x)
    (h : boxStepR G.fl rnd s mv prev x next st = .ok ((a, b), st')) : G.fl a = a ∧ G.fl b = b := by
  unfold boxStepR at h
  split at h
  · obtain ⟨vb, _, h⟩ := Except.bind_ok h
    dsimp only at h
    cases vb with
    | none => cases h
    | some ty =>
      dsimp only at h
      generalize (if XF.lt mv (.fin x) then (1 : Fin 2) else 0) = b0 at h
      split at h
      · cases h; exact ⟨G.zero, hx⟩
      · split at h
        · cases h; exact ⟨hx, G.zero⟩
        · split at h
          · cases h
          · split at h
            · cases h
            · cases h; exact ⟨G.idem _, G.idem _⟩
  · cases h; exact ⟨G.zero, G.zero⟩

theorem boxLoopR_fl (G : GradualRounding K) {rnd : Nat → K} {s : CascStats K} {mv : XF K} : ∀ (v : List K) (prev : Option K) (st : CascVars K) {out : List K}
    {st' : CascVars K}, (∀ x ∈ v, G.fl x = x) → boxLoopR G.fl rnd s mv prev v st = .ok (out, st') → ∀ x ∈ out, G.fl x = x
  | [], _, _, out, st', _, h => by unfold boxLoopR at h; cases h; simp
  | x :: xs, prev, st, out, st', hv, h => by
    unfold boxLoopR at h
    obtain ⟨⟨⟨a, b⟩, st1⟩, h1, h⟩ := Except.bind_ok h
    obtain ⟨⟨rest, st2⟩, h2, h⟩ := Except.bind_ok h
    cases h
    have r1 := boxStepR_fl G (hv x (by simp)) h1
    have r2 := boxLoopR_fl G xs _ _ (fun y hy => hv y (by simp [hy])) h2
    intro y hy
    simp only [List.mem_cons] at hy
    rcases hy with rfl | rfl | hy
    · exact r1.1
    · exact r1.2
    · exact r2 y hy

theorem levelLoopR_fl (G : GradualRounding K) {rnd : Nat → K} {opts : CascOptions K} :
    ∀ (si : Nat) (v : List K) (st : CascVars K) {ls : List (List K)}, (∀ x ∈ v, G.fl x = x) → levelLoopR G.fl rnd opts si v st = .ok ls →
    ∀ l ∈ ls, ∀ x ∈ l, G.fl x = x
  | 0, _, _, ls, _, h => by unfold levelLoopR at h; cases h; simp
  | si + 1, v, st, ls, hv, h => by
    unfold levelLoopR at h
    obtain ⟨⟨s, mv⟩, _, h⟩ := Except.bind_ok h
    obtain ⟨⟨vout, st1⟩, h2, h⟩ := Except.bind_ok h
    obtain ⟨rest, h3, h⟩ := Except.bind_ok h
    cases h
    have r := boxLoopR_fl G v none st hv h2
    have r' := levelLoopR_fl G si vout st1 r h3
    intro l hl
    rcases List.mem_cons.1 hl with rfl | hl
    · exact r
    · exact r' l hl

theorem getLastD_mem_of {ls : List (List K)} {P : K → Prop} (h : ∀ l ∈ ls, ∀ x ∈ l, P x) : ∀ x ∈ ls.getLastD [], P x := by
  intro x hx
  cases ls with
  | nil => simp at hx
  | cons a as =>
    refine h _ ?_ x hx
    rw [List.getLastD_cons]
    exact List.getLastD_mem_cons

/-- the 5-minute values of a day are sums of bins -/
theorem resample5minR_bins (s : Series K) (d : Int) : ∃ bins : List (List K), (∀ sum : List K → K, dayCells (resample5minR sum s) d = bins.map sum) ∧
    ∀ b ∈ bins, ∃ q, b = (s.filter fun r => r.1 / (5 * MINUTE) == q).map Prod.snd := by
  unfold resample5minR
  cases hlo : s.index.min? with
  | none => exact ⟨[], by intro sum; rfl, by simp⟩
  | some a =>
    cases hhi : s.index.max? with
    | none => exact ⟨[], by intro sum; rfl, by simp⟩
    | some b =>
      dsimp only
      refine ⟨((List.range (b / (5 * MINUTE) - a / (5 * MINUTE) + 1).toNat).filter fun k : Nat => decide ((a / (5 * MINUTE) + (k : Int)) * (5 * MINUTE) / DAY = d)).map
        fun k : Nat => (s.filter fun r => r.1 / (5 * MINUTE) == a / (5 * MINUTE) + (k : Int)).map Prod.snd, ?_, ?_⟩
      · intro sum
        unfold dayCells
        rw [List.filter_map, List.map_map, List.map_map]
        rfl
      · intro l hl
        obtain ⟨k, _, rfl⟩ := List.mem_map.1 hl
        exact ⟨_, rfl⟩

/-- the 5-minute cascade in normal form -/
theorem cascade5R_eq (G : GradualRounding K) {sum : List K → K} {api : PandasApi} {rnd : Nat → K} {opts : CascOptions K} {level : Nat} {r : CascadeOut K} {d0 : Int}
    {n : Nat} {v : Nat → XF K} (hv : ∀ i < n, ∀ x, v i = .fin x → 0 ≤ x ∧ G.fl x = x) (h : cascade5R G.fl sum api rnd (dailyS d0 n v) opts level = .ok r) :
    1 ≤ level ∧ level ≤ 11 ∧ ∃ w : List K, w.length = 2 ^ level * n ∧ (∀ y ∈ w, 0 ≤ y ∧ G.fl y = y) ∧
      SlackSplit ((1 - G.u) ^ (2 * level)) ((1 + G.u) ^ (2 * level)) ((2 ^ (level + 1) - 2) * ((1 + G.u) ^ (2 * level) * G.a)) (2 ^ level)
        ((List.range n).map (fun i => match v i with | .fin x => x | _ => 0)) w ∧
      r.series = restoreMissing (((dailyS d0 n v).filter fun r => r.2.isNan).map Prod.fst) (resample5minR sum (gridS d0 n level w)) := by
  unfold cascade5R at h
  split at h
  · cases h
  rename_i hl
  rw [dailyS_length] at hl
  obtain ⟨w, hz, h⟩ := Except.bind_ok h
  rw [dailyS_values] at hz
  have hw := zeroMissing_range hz
  by_cases hlev : level < 1 ∨ 11 < level
  · rw [if_pos hlev] at h; cases h
  rw [if_neg hlev] at h
  obtain ⟨_, _, h⟩ := Except.bind_ok h
  obtain ⟨levels, hL, h⟩ := Except.bind_ok h
  rw [subLevelIndex_daily api d0 (by omega) v (by omega), py_ok_bind] at h
  obtain ⟨l, rfl⟩ : ∃ l, level = l + 1 := ⟨level - 1, by omega⟩
  have hw0 : ∀ x ∈ w, 0 ≤ x ∧ G.fl x = x := by
    intro x hx
    rw [hw] at hx
    obtain ⟨i, hi, rfl⟩ := List.mem_map.1 hx
    cases hvi : v i with
    | fin y => exact hv i (List.mem_range.1 hi) y hvi
    | _ => exact ⟨le_refl _, G.zero⟩
  have s1 := levelLoopG_last G (fun x hx => (hw0 x hx).1) (by intro w e; cases e) hL
  have s2 := getLastD_mem_of (levelLoopR_fl G _ w _ (fun x hx => (hw0 x hx).2) hL)
  have hc : (2 ^ (l + 2) - 2) * ((1 + G.u) ^ (2 * l) * G.a) ≤ (2 ^ (l + 1 + 1) - 2) * ((1 + G.u) ^ (2 * (l + 1)) * G.a) := by
    apply mul_le_mul_of_nonneg_left
    · exact mul_le_mul_of_nonneg_right (pow_le_pow_right₀ G.one_le (by omega)) G.a_nonneg
    · have : (2 : K) ^ 1 ≤ 2 ^ (l + 2) := pow_le_pow_right₀ (by norm_num) (by omega)
      linarith
  have hlen : (levels.getLastD []).length = 2 ^ (l + 1) * n := by rw [s1.length, hw]; simp
  rw [make_grid (by rw [hlen, mul_comm]), py_ok_bind] at h
  simp only [ne_eq, not_true_eq_false, if_false] at h
  cases h
  exact ⟨by omega, by omega, levels.getLastD [], hlen, fun y hy => ⟨s1.nonneg y hy, s2 y hy⟩, hw ▸ s1.weaken hc, rfl⟩

/-- what a way of adding does to the bins of a day -/
theorem bins_total {sum : List K → K} {κ : K} : ∀ (bins : List (List K)), (∀ b ∈ bins, |sum b - b.sum| ≤ κ * b.sum) →
    |(bins.map sum).sum - (bins.map List.sum).sum| ≤ κ * (bins.map List.sum).sum
  | [], _ => by simp
  | b :: bs, h => by
    have h1 := h b (by simp)
    have h2 := bins_total bs (fun b hb => h b (by simp [hb]))
    simp only [List.map_cons, List.sum_cons]
    have e : sum b + (bs.map sum).sum - (b.sum + (bs.map List.sum).sum) = (sum b - b.sum) + ((bs.map sum).sum - (bs.map List.sum).sum) := by ring
    rw [e, mul_add]
    exact (abs_add_le _ _).trans (add_le_add h1 h2)

/-- **C131** With relative rounding error u and absolute error a of products: for any of the levels 1 to 11, the values of a day with precipitation P add up to P up to
((1 + κ)(1 + u)^(2 level) - 1) P and (1 + κ)(2^(level + 1) - 2)(1 + u)^(2 level) a, whatever the rest of the record; none is negative; those of a dry day are 0, those of a missing day missing;
with levels 9 to 11 there are 288 per day. -/
theorem C131_cascade_5min (G : GradualRounding K) {κ B : K} (hκ0 : 0 ≤ κ) (hκ : κ ≤ 1) {sum : List K → K} (hsum : SumsWithin G.fl κ B sum) {api : PandasApi} {rnd : Nat → K}
    {opts : CascOptions K} {level : Nat} {r : CascadeOut K} {d0 : Int} {n : Nat} {v : Nat → XF K} (hv : ∀ i < n, ∀ x, v i = .fin x → 0 ≤ x ∧ G.fl x = x)
    (hB : ∀ i < n, ∀ x, v i = .fin x → (1 + G.u) ^ (2 * level) * x + (2 ^ (level + 1) - 2) * ((1 + G.u) ^ (2 * level) * G.a) ≤ B)
    (h : cascade5R G.fl sum api rnd (dailyS d0 n v) opts level = .ok r) {i : Nat} (hi : i < n) :
    (9 ≤ level → (dayCells r.series (d0 + i)).length = 288) ∧
    (∀ P, v i = .fin P → ∃ T, TotalIs (dayCells r.series (d0 + i)) T ∧
      |T - P| ≤ ((1 + κ) * (1 + G.u) ^ (2 * level) - 1) * P + (1 + κ) * ((2 ^ (level + 1) - 2) * ((1 + G.u) ^ (2 * level) * G.a))) ∧
    (∀ P, v i = .fin P → ∀ c ∈ dayCells r.series (d0 + i), ∃ y, c = .fin y ∧ 0 ≤ y) ∧
    (v i = .fin 0 → ∀ c ∈ dayCells r.series (d0 + i), c = .fin 0) ∧
    (v i = .nan → AllNan (dayCells r.series (d0 + i))) := by
  obtain ⟨l1, l11, w, hlen, hw, hs, hr⟩ := cascade5R_eq G hv h
  obtain ⟨bins, hb, hq⟩ := resample5minR_bins (gridS d0 n level w) (d0 + i)
  have hgrid : ∀ z ∈ (gridS d0 n level w), 0 ≤ z.2 ∧ G.fl z.2 = z.2 := by
    intro z hz
    unfold gridS at hz
    obtain ⟨k, hk, rfl⟩ := List.mem_map.1 hz
    have hk := List.mem_range.1 hk
    have : k < w.length := by rw [hlen, mul_comm]; exact hk
    simp only [List.getD_eq_getElem?_getD, List.getElem?_eq_getElem this]
    exact hw _ (List.getElem_mem _)
  have hbm : ∀ b ∈ bins, b.length ≤ 8 ∧ ∀ x ∈ b, 0 ≤ x ∧ G.fl x = x := by
    intro b hb
    obtain ⟨q, rfl⟩ := hq b hb
    constructor
    · rw [List.length_map]; exact bin_length l11 w q
    · intro x hx
      obtain ⟨z, hz, rfl⟩ := List.mem_map.1 hx
      exact hgrid z (List.mem_filter.1 hz).1
  have hbs : ∀ b ∈ bins, 0 ≤ b.sum := fun b hb => List.sum_nonneg fun x hx => ((hbm b hb).2 x hx).1
  have htot : (bins.map List.sum).sum = ((w.drop (2 ^ level * i)).take (2 ^ level)).sum := by
    rw [← hb, ← dayCells_grid (d0 := d0) l11 hlen hi]
    exact resample5min_day_sum _ _
  have hle : ∀ b ∈ bins, b.sum ≤ (bins.map List.sum).sum := by
    intro b hb
    refine List.single_le_sum ?_ _ (List.mem_map.2 ⟨b, hb, rfl⟩)
    intro x hx
    obtain ⟨b, hb, rfl⟩ := List.mem_map.1 hx
    exact hbs b hb
  have hcells : dayCells r.series (d0 + i) = (bins.map sum).map fun x => if (v i).isNan then XF.nan else .fin x := by
    rw [hr, dayCells_restoreMissing, missing_contains d0 n v hi, hb]
  have hu0 := G.u_nonneg
  -- what is added
  have hblk : ∀ P, v i = .fin P → _ := fun P hP => hs.block (i := i) (x := P) (by simp [hi, hP])
  rw [← htot] at hblk
  have hadd : ∀ P, v i = .fin P → ∀ b ∈ bins, |sum b - b.sum| ≤ κ * b.sum := by
    intro P hP b hbb
    exact hsum b (hbm b hbb).1 (hbm b hbb).2 (((hle b hbb).trans (hblk P hP).2.1).trans (hB i hi P hP))
  have hnn : ∀ P, v i = .fin P → ∀ y ∈ bins.map sum, 0 ≤ y := by
    intro P hP y hy
    obtain ⟨b, hbb, rfl⟩ := List.mem_map.1 hy
    have := abs_le.1 (hadd P hP b hbb)
    have h1 := mul_le_of_le_one_left (hbs b hbb) hκ
    linarith
  refine ⟨?_, ?_, ?_, ?_, ?_⟩
  · intro h9
    have e := resample_grid_day_length (d0 := d0) (n := n) h9 l11 w hi
    have e2 := congrArg List.length (hb List.sum)
    rw [show resample5minR List.sum (gridS d0 n level w) = resample5min (gridS d0 n level w) from rfl, e, List.length_map] at e2
    rw [hcells, List.length_map, List.length_map, ← e2]
  · intro P hP
    obtain ⟨k1, k2, _⟩ := hblk P hP
    have hP0 := (hv i hi P hP).1
    refine ⟨(bins.map sum).sum, ⟨bins.map sum, ?_, rfl⟩, ?_⟩
    · rw [hcells, hP]; simp
    · have ht := bins_total bins (hadd P hP)
      have hD : 0 ≤ (bins.map List.sum).sum := List.sum_nonneg (by
        intro x hx
        obtain ⟨b, hb, rfl⟩ := List.mem_map.1 hx
        exact hbs b hb)
      generalize (bins.map List.sum).sum = D at k1 k2 ht hD
      generalize (bins.map sum).sum = T at ht
      set c := (2 ^ (level + 1) - 2) * ((1 + G.u) ^ (2 * level) * G.a) with hc
      have hc0 : 0 ≤ c := by
        apply mul_nonneg _ (mul_nonneg (pow_nonneg G.hi_nonneg _) G.a_nonneg)
        have : (2 : K) ^ 1 ≤ 2 ^ (level + 1) := pow_le_pow_right₀ (by norm_num) (by omega)
        linarith
      have t1 := abs_le.1 ht
      have h2 := two_sub_le_pow hu0 G.u_lt_one (2 * level)
      have hlh : (1 - G.u) ^ (2 * level) ≤ (1 + G.u) ^ (2 * level) := pow_le_pow_left₀ G.lo_nonneg (by linarith) _
      generalize (1 + G.u) ^ (2 * level) = hi' at *
      generalize (1 - G.u) ^ (2 * level) = lo at *
      have m1 := mul_le_mul_of_nonneg_left k2 (show (0 : K) ≤ 1 + κ by linarith)
      have m2 := mul_le_mul_of_nonneg_left k1 (show (0 : K) ≤ 1 - κ by linarith)
      have m3 : (2 - hi' - lo) * P ≤ 0 := mul_nonpos_of_nonpos_of_nonneg (by linarith) hP0
      have m4 : 0 ≤ κ * ((hi' - lo) * P) := mul_nonneg hκ0 (mul_nonneg (by linarith) hP0)
      have m5 : 0 ≤ κ * c := mul_nonneg hκ0 hc0
      rw [abs_le]
      constructor <;> nlinarith
  · intro P hP c hc
    rw [hcells, hP] at hc
    obtain ⟨y, hy, rfl⟩ := List.mem_map.1 hc
    exact ⟨y, by simp, hnn P hP y hy⟩
  · intro hP c hc
    rw [hcells, hP] at hc
    obtain ⟨y, hy, rfl⟩ := List.mem_map.1 hc
    obtain ⟨b, hbb, rfl⟩ := List.mem_map.1 hy
    have hz : (bins.map List.sum).sum = 0 := by
      rw [htot]
      exact List.sum_eq_zero ((hblk 0 hP).2.2 rfl)
    have h0 : b.sum = 0 := le_antisymm (hz ▸ hle b hbb) (hbs b hbb)
    have := hadd 0 hP b hbb
    rw [h0, mul_zero, sub_zero] at this
    have := abs_eq_zero.1 (le_antisymm this (abs_nonneg _))
    simp [this]
  · intro hP c hc
    rw [hcells, hP] at hc
    obtain ⟨y, hy, rfl⟩ := List.mem_map.1 hc
    simp

end

section
variable {K : Type} [Field K] [LinearOrder K] [IsStrictOrderedRing K] [FloorRing K]

theorem b64_le {x : K} (h : |x| ≤ 2 ^ 1023) : |(b64 : GradualRounding K).fl x| ≤ 2 ^ 1023 := by
  have hx := abs_le.1 h
  have h2 := (b64 : GradualRounding K).mono _ _ hx.2
  rw [b64_big] at h2
  have hn := (b64 : GradualRounding K).mono _ _ hx.1
  have e : (b64 : GradualRounding K).fl (-(2 ^ 1023)) = -(2 ^ 1023) := by
    rw [b64_fl]
    have e : (-(2 : K) ^ 1023) = -(2 ^ ((1023 : Nat) : Int)) := by rw [zpow_natCast]
    rw [e, gradual_big (by rw [abs_neg, abs_of_pos (zpow_pos (by norm_num) _)]; exact zpow_le_zpow_right₀ (by norm_num) (by norm_num))]
    rw [roundBits_neg]
    exact congrArg Neg.neg (roundBits_two (by norm_num) _)
  rw [e] at hn
  exact abs_le.2 ⟨hn, h2⟩

theorem b64_near {fl : K → K} (hfl : IsBinary64 fl) : NearFl fl (1 / 2 ^ 53) (2 ^ 1023) where
  add a b ha hb h1 h2 h3 := by
    rw [hfl _ h1] at ha
    rw [hfl _ h2] at hb
    rw [hfl _ h3, ← b64_u]
    exact (b64 : GradualRounding K).add a b ha hb
  sub a b ha hb h1 h2 h3 := by
    rw [hfl _ h1] at ha
    rw [hfl _ h2] at hb
    rw [hfl _ h3, ← b64_u]
    exact (b64 : GradualRounding K).sub a b ha hb
  idem x h := by
    have h' := b64_le h
    rw [b64_fl] at h'
    rw [hfl _ h, hfl _ h']
    exact (b64 : GradualRounding K).idem x
  zero := by
    rw [hfl 0 (by rw [abs_zero]; positivity)]
    exact (b64 : GradualRounding K).zero
  u0 := by positivity
  u1 := by norm_num

/-- **C131** (adding) One after the other or with the compensation of pandas: up to eight binary64 numbers that are not negative and not more than 2¹⁰²¹ altogether are added with a
relative error of at most 10⁻¹⁵. -/
theorem C131_sums {fl : K → K} (hfl : IsBinary64 fl) : SumsWithin fl (1 / 10 ^ 15) (2 ^ 1021) (seqSum fl) ∧ SumsWithin fl (1 / 10 ^ 15) (2 ^ 1021) (kahanSum fl) := by
  have e : (2 ^ 1021 : K) = 2 ^ 1023 / 4 := by
    rw [show 1023 = 1021 + 2 from rfl, pow_add]; norm_num
  have w : ∀ sum : List K → K, SumsWithin fl (9 * (1 / 2 ^ 53)) (2 ^ 1023 / 4) sum → SumsWithin fl (1 / 10 ^ 15) (2 ^ 1021) sum := by
    intro sum h l hl hx hB
    rw [e] at hB
    have h0 : 0 ≤ l.sum := List.sum_nonneg fun x hx' => (hx x hx').1
    exact (h l hl hx hB).trans (mul_le_mul_of_nonneg_right (by norm_num) h0)
  exact ⟨w _ (seqSum_within (b64_near hfl)), w _ (kahanSum_within (b64_near hfl))⟩

theorem cascade5_binary64 {fl : K → K} (hfl : IsBinary64 fl) {sum : List K → K} {api : PandasApi} {rnd : Nat → K} {opts : CascOptions K} (ho : FrequencyTables opts) {d0 : Int} {n : Nat}
    {v : Nat → XF K} (hv : ∀ i < n, ∀ x, v i = .fin x → 0 ≤ x ∧ x ≤ 2 ^ 1023) (level : Nat) (shift : Int) :
    cascade5R fl sum api rnd (dailyS d0 n v) opts level shift = cascade5R (b64 : GradualRounding K).fl sum api rnd (dailyS d0 n v) opts level shift := by
  unfold cascade5R
  rw [dailyS_values]
  by_cases hl : (dailyS d0 n v).length < 2
  · rw [if_pos hl, if_pos hl]
  rw [if_neg hl, if_neg hl]
  cases hz : zeroMissing ((List.range n).map v) with
  | error e => rfl
  | ok w =>
    have hw := zeroMissing_range hz
    have hT : (1000 : K) ≤ 2 ^ 1023 := by
      calc (1000 : K) ≤ 2 ^ 10 := by norm_num
        _ ≤ 2 ^ 1023 := pow_le_pow_right₀ (by norm_num) (by norm_num)
    have ha : (b64 : GradualRounding K).a ≤ 1 := by
      rw [b64_a, div_le_one (by positivity)]
      exact one_le_pow₀ (by norm_num)
    have hw0 : ∀ x ∈ w, 0 ≤ x ∧ x ≤ 2 ^ 1023 := by
      intro x hx
      rw [hw] at hx
      obtain ⟨i, hi, rfl⟩ := List.mem_map.1 hx
      cases hvi : v i with
      | fin y => exact hv i (List.mem_range.1 hi) y hvi
      | _ => exact ⟨le_refl _, by positivity⟩
    rw [py_ok_bind, py_ok_bind, levelLoopR_congr b64 ha hT hfl b64_big (FrequencyTables.small ho) level w {} hw0]

/-- **C131** (binary64) In binary64 arithmetic, with gradual underflow and whatever happens on overflow: for any of the levels 1 to 11, the values of a day with precipitation P of at most 10³⁰⁰ mm add up to P
up to 4·10⁻¹⁵ P and 2048 times the smallest positive number, whatever the rest of the record; none is negative; those of a dry day are 0, those of a missing day missing; with levels 9 to 11 there are 288
per day. -/
theorem C131_binary64 {fl : K → K} (hfl : IsBinary64 fl) {sum : List K → K} (hsum : SumsWithin fl (1 / 10 ^ 15) (2 ^ 1021) sum) {api : PandasApi} {rnd : Nat → K} {opts : CascOptions K}
    (ho : FrequencyTables opts) {level : Nat} {r : CascadeOut K} {d0 : Int} {n : Nat} {v : Nat → XF K} (hv : ∀ i < n, ∀ x, v i = .fin x → 0 ≤ x ∧ x ≤ 10 ^ 300 ∧ fl x = x)
    (h : cascade5R fl sum api rnd (dailyS d0 n v) opts level = .ok r) {i : Nat} (hi : i < n) :
    (9 ≤ level → (dayCells r.series (d0 + i)).length = 288) ∧
    (∀ P, v i = .fin P → ∃ T, TotalIs (dayCells r.series (d0 + i)) T ∧ |T - P| ≤ 4 / 10 ^ 15 * P + 2048 * (1 / 2 ^ 1074)) ∧
    (∀ P, v i = .fin P → ∀ c ∈ dayCells r.series (d0 + i), ∃ y, c = .fin y ∧ 0 ≤ y) ∧
    (v i = .fin 0 → ∀ c ∈ dayCells r.series (d0 + i), c = .fin 0) ∧
    (v i = .nan → AllNan (dayCells r.series (d0 + i))) := by
  have hB : (10 : K) ^ 300 * 2 ≤ 2 ^ 1021 := by
    calc (10 : K) ^ 300 * 2 = (10 ^ 3) ^ 100 * 2 := by rw [← pow_mul]
      _ ≤ (2 ^ 10) ^ 100 * 2 := by
        apply mul_le_mul_of_nonneg_right _ (by norm_num)
        exact pow_le_pow_left₀ (by norm_num) (by norm_num) _
      _ = 2 ^ 1001 := by rw [← pow_mul, ← pow_succ]
      _ ≤ 2 ^ 1021 := pow_le_pow_right₀ (by norm_num) (by norm_num)
  have hB2 : (2 : K) ^ 1021 ≤ 2 ^ 1023 := pow_le_pow_right₀ (by norm_num) (by norm_num)
  have h300 : (0 : K) ≤ 10 ^ 300 := by positivity
  have hbig : (10 : K) ^ 300 ≤ 2 ^ 1023 := le_trans (le_mul_of_one_le_right h300 (by norm_num)) (hB.trans hB2)
  have habs : ∀ x : K, 0 ≤ x → x ≤ 10 ^ 300 → |x| ≤ 2 ^ 1023 := fun x h0 h1 => by rw [abs_of_nonneg h0]; exact h1.trans hbig
  rw [cascade5_binary64 hfl ho (fun i hi x hx => ⟨(hv i hi x hx).1, (hv i hi x hx).2.1.trans hbig⟩)] at h
  have hsum' : SumsWithin (b64 : GradualRounding K).fl (1 / 10 ^ 15) (2 ^ 1021) sum := by
    intro l hl hx hlB
    refine hsum l hl (fun x hxl => ⟨(hx x hxl).1, ?_⟩) hlB
    have hxs : x ≤ l.sum := List.single_le_sum (fun y hy => (hx y hy).1) x hxl
    rw [hfl x (by rw [abs_of_nonneg (hx x hxl).1]; exact (hxs.trans hlB).trans hB2)]
    exact (hx x hxl).2
  have hv' : ∀ i < n, ∀ x, v i = .fin x → 0 ≤ x ∧ (b64 : GradualRounding K).fl x = x := by
    intro i hi x hx
    obtain ⟨h0, h1, h2⟩ := hv i hi x hx
    rw [hfl x (habs x h0 h1)] at h2
    exact ⟨h0, h2⟩
  obtain ⟨_, l11, _⟩ := cascade5R_eq b64 hv' h
  have hpow : (1 + 1 / 2 ^ 53 : K) ^ (2 * level) ≤ (1 + 1 / 2 ^ 53) ^ 22 := pow_le_pow_right₀ (by norm_num) (by omega)
  have hpow0 : (0 : K) ≤ (1 + 1 / 2 ^ 53) ^ (2 * level) := by positivity
  have h2l : (2 : K) ^ (level + 1) ≤ 2 ^ 12 := pow_le_pow_right₀ (by norm_num) (by omega)
  have h2l0 : (2 : K) ^ 1 ≤ 2 ^ (level + 1) := pow_le_pow_right₀ (by norm_num) (by omega)
  have ha0 : (0 : K) < 1 / 2 ^ 1075 := by positivity
  have ha1 : (1 / 2 ^ 1075 : K) ≤ 1 / 2 ^ 20 := one_div_le_one_div_of_le (by positivity) (pow_le_pow_right₀ (by norm_num) (by norm_num))
  -- the absolute term
  have hc : (2 ^ (level + 1) - 2) * ((1 + 1 / 2 ^ 53 : K) ^ (2 * level) * (1 / 2 ^ 1075)) ≤ 4095 * (1 / 2 ^ 1075) := by
    calc (2 ^ (level + 1) - 2) * ((1 + 1 / 2 ^ 53 : K) ^ (2 * level) * (1 / 2 ^ 1075))
        ≤ (2 ^ 12 - 2) * ((1 + 1 / 2 ^ 53) ^ 22 * (1 / 2 ^ 1075)) := by
          apply mul_le_mul (by linarith only [h2l]) (mul_le_mul_of_nonneg_right hpow ha0.le) (mul_nonneg hpow0 ha0.le) (by norm_num)
      _ = ((2 ^ 12 - 2) * (1 + 1 / 2 ^ 53) ^ 22) * (1 / 2 ^ 1075) := by rw [mul_assoc]
      _ ≤ 4095 * (1 / 2 ^ 1075) := mul_le_mul_of_nonneg_right (by norm_num) ha0.le
  have key := C131_cascade_5min b64 (κ := 1 / 10 ^ 15) (B := 2 ^ 1021) (by positivity) (by norm_num) hsum' hv' (by
    intro i hi x hx
    obtain ⟨h0, h1, _⟩ := hv i hi x hx
    rw [b64_u, b64_a]
    refine le_trans ?_ hB
    have t1 : (1 + 1 / 2 ^ 53 : K) ^ (2 * level) * x ≤ 101 / 100 * 10 ^ 300 :=
      mul_le_mul (hpow.trans (by norm_num)) h1 h0 (by norm_num)
    have h4 : (1 : K) ≤ 10 ^ 300 := one_le_pow₀ (by norm_num)
    have t2 : 4095 * (1 / 2 ^ 1075 : K) ≤ 1 / 100 := (mul_le_mul_of_nonneg_left ha1 (by norm_num)).trans (by norm_num)
    have t3 := hc.trans t2
    generalize (10 : K) ^ 300 = y at t1 h4 ⊢
    linarith only [t1, t3, h4]) h hi
  refine ⟨key.1, ?_, key.2.2⟩
  intro P hP
  obtain ⟨T, hT, hb⟩ := key.2.1 P hP
  refine ⟨T, hT, hb.trans ?_⟩
  rw [b64_u, b64_a]
  have e2 : (1 / 2 ^ 1074 : K) = 2 * (1 / 2 ^ 1075) := by rw [pow_succ (2 : K) 1074]; field_simp
  rw [e2]
  have hP0 := (hv i hi P hP).1
  apply add_le_add
  · apply mul_le_mul_of_nonneg_right _ hP0
    have : (1 + 1 / 10 ^ 15 : K) * (1 + 1 / 2 ^ 53) ^ (2 * level) ≤ (1 + 1 / 10 ^ 15) * (1 + 1 / 2 ^ 53) ^ 22 := mul_le_mul_of_nonneg_left hpow (by positivity)
    have e : (1 + 1 / 10 ^ 15 : K) * (1 + 1 / 2 ^ 53) ^ 22 - 1 ≤ 4 / 10 ^ 15 := by norm_num
    linarith only [this, e]
  · have := mul_le_mul_of_nonneg_left hc (show (0 : K) ≤ 1 + 1 / 10 ^ 15 by positivity)
    refine this.trans ?_
    generalize (1 / 2 ^ 1075 : K) = a at ha0 ⊢
    have e : (1 + 1 / 10 ^ 15 : K) * 4095 ≤ 4096 := by norm_num
    have := mul_le_mul_of_nonneg_right e ha0.le
    linarith only [this]

/-- C131 with the statistics shipped with the package and pandas' way of adding: 10 mm, a missing and a dry day; the values of the first day do not add up to 10 exactly -/
example : okAnd (cascade5R (roundGradual 53 (-1074)) (kahanSum (roundGradual 53 (-1074))) .modern (fun _ => (9 / 10 : ℚ))
    (dailyS 0 3 fun i => if i = 0 then .fin 10 else if i = 1 then .nan else .fin 0) (.many (List.replicate 3 (CascStats.fillSample .init))) 3) (fun o =>
      decide ((numbers (dayCells o.series 0)).sum ≠ 10) && decide (|(numbers (dayCells o.series 0)).sum - 10| ≤ 4 / 10 ^ 14) &&
      decide ((dayCells o.series 0).length = 288) && (dayCells o.series 2).all (· == .fin 0) && (dayCells o.series 1).all XF.isNan) = true := by decide +kernel

/-- the two ways of adding differ from each other and from the exact sum of these eight binary64 numbers -/
example : let l : List ℚ := [1, 1 / 2 ^ 53, 1 / 2 ^ 53, 1 / 2 ^ 53, 1 / 2 ^ 60, 1 / 2 ^ 53, 0, 1 / 2 ^ 53]
    seqSum (roundGradual 53 (-1074)) l ≠ kahanSum (roundGradual 53 (-1074)) l ∧ kahanSum (roundGradual 53 (-1074)) l ≠ l.sum ∧
    l.length ≤ 8 ∧ ∀ x ∈ l, 0 ≤ x ∧ roundGradual 53 (-1074) x = x := by decide +kernel

end

end Melodist
