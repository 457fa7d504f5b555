import Verif.Props.StatsRounding
import Verif.Lemmas.Acc

/-!
# C128 in IEEE double precision
-/

set_option linter.unusedSectionVars false

namespace Melodist
open Spec

section
variable {K : Type} [Field K] [LinearOrder K] [IsStrictOrderedRing K]

/-- **C128** (fit and run) In any arithmetic in which 1 is representable: with statistics fitted from observations that are missing or non-negative and representable -- averages
or level statistics, of any season -- the hourly cascade returns on every gap-free series of at least two days of missing or non-negative values, if no random number exceeds
(1 - u)¹⁵ (1 - 10⁻¹⁴). -/
theorem C128_fit_and_run (R : Rounding K) (h1 : R.fl 1 = 1) (perc : List K → K → Py K) (obs : Series (XF K))
    (hobs : ∀ q ∈ obs, q.2 = .nan ∨ ∃ x, 0 ≤ x ∧ R.fl x = x ∧ q.2 = .fin x) (months : Option (List (List Int))) (p : K)
    (api : PandasApi) (rnd : Nat → K) (hr : ∀ j, rnd j ≤ (1 - R.u) ^ 15 * (1 - 1 / 10 ^ 14))
    (d0 : Int) (n : Nat) (hn : 2 ≤ n) (v : Nat → XF K) (hv : ∀ i < n, v i = .nan ∨ ∃ x, 0 ≤ x ∧ v i = .fin x) (shift : Int) :
    (∀ r, (buildCascR R.fl perc obs true 9 months true p).2 = .ok r → ∀ s, .inl s ∈ r →
      ∃ out, cascadeR R.fl api rnd (dailyS d0 n v) (.one s) shift = .ok out) ∧
    ∀ r, (buildCascR R.fl perc obs true 9 months false p).2 = .ok r → ∀ l, .inr l ∈ r →
      ∃ out, cascadeR R.fl api rnd (dailyS d0 n v) (.many l) shift = .ok out := by
  have e14 : (0 : K) ≤ 1 - 1 / 10 ^ 14 := by norm_num
  constructor
  · intro r h s hs
    obtain ⟨-, a⟩ := buildLoopR_between R h1 _ obs hobs h
    obtain ⟨a1, a2⟩ := a s hs
    refine C128_cascade_returns R h1 api rnd (fun j => (hr j).trans (le_of_eq ?_)) _ (.inl ⟨s, rfl, a2, by simp [a1]⟩) d0 n hn v hv shift
    simp only [if_true]
    ring
  · intro r h l hl
    obtain ⟨a, -⟩ := buildLoopR_between R h1 _ obs hobs h
    obtain ⟨a1, a2⟩ := a l hl
    refine C128_cascade_returns R h1 api rnd (fun j => (hr j).trans ?_) _ (.inr ⟨l, rfl, by simp [a1], fun s hs => ⟨(a2 s hs).2, ?_⟩⟩) d0 n hn v hv shift
    · have h15 : (1 - R.u) ^ 15 ≤ (1 - R.u) ^ 7 := pow_le_pow_of_le_one R.lo_nonneg R.lo_le_one (by norm_num)
      refine (mul_le_mul_of_nonneg_right h15 e14).trans (le_of_eq ?_)
      ring
    · have := (a2 s hs).1
      intro h0
      rw [h0] at this
      simp at this

end

section
variable {K : Type} [Field K] [LinearOrder K] [IsStrictOrderedRing K] [FloorRing K]

/-- **C128** (double precision) Fitted in IEEE double precision arithmetic (53 binary digits, nearest, ties to even): the probabilities and the weights of the averages for hourly
output add up to 1 up to 1.2·10⁻¹⁴, and a cascade driven by them returns if no random number exceeds 1 - 1.2·10⁻¹⁴. -/
theorem C128_double (perc : List K → K → Py K) (obs : Series (XF K))
    (hobs : ∀ q ∈ obs, q.2 = .nan ∨ ∃ x, 0 ≤ x ∧ roundBits 53 x = x ∧ q.2 = .fin x) (months : Option (List (List Int))) (p : K)
    (r : List (CascStats K ⊕ List (CascStats K))) (h : (buildCascR (roundBits 53) perc obs true 9 months true p).2 = .ok r) (s : CascStats K) (hs : .inl s ∈ r) :
    StatsWithin (12 / 10 ^ 15) s ∧
    ∀ (api : PandasApi) (rnd : Nat → K), (∀ j, rnd j ≤ 1 - 12 / 10 ^ 15) → ∀ (d0 : Int) (n : Nat), 2 ≤ n → ∀ v : Nat → XF K,
      (∀ i < n, v i = .nan ∨ ∃ x, 0 ≤ x ∧ v i = .fin x) → ∀ shift, ∃ out, cascadeR (roundBits 53) api rnd (dailyS d0 n v) (.one s) shift = .ok out := by
  have hu : (binary 53 (by norm_num) : Rounding K).u = 1 / 2 ^ 53 := by
    show (2 : K) ^ (-((53 : Nat) : Int)) = _
    rw [zpow_neg, zpow_natCast, one_div]
  have h1 : (binary 53 (by norm_num) : Rounding K).fl 1 = 1 := roundBits_one (by norm_num)
  constructor
  · have := (C128_statistics (binary 53 (by norm_num)) h1 perc obs hobs true 9 months p).2 r h s hs
    rw [hu] at this
    simp only [if_true] at this
    have e1 : (1 - 12 / 10 ^ 15 : K) ≤ (1 - 1 / 2 ^ 53) ^ (5 + 4) * (1 - 1 / 10 ^ 14) := by norm_num
    have e2 : (1 + 1 / 2 ^ 53) ^ (5 + 4) * (1 + 1 / 10 ^ 14) ≤ (1 + 12 / 10 ^ 15 : K) := by norm_num
    have := this.mono e1 e2
    intro b t
    obtain ⟨⟨x, y, z, a, b', c, x0, y0, z0, l, u⟩, w, d, w0, l', u'⟩ := this b t
    refine ⟨⟨x, y, z, a, b', c, x0, y0, z0, ?_⟩, w, d, w0, ?_⟩
    · rw [abs_le]; constructor <;> linarith
    · rw [abs_le]; constructor <;> linarith
  · intro api rnd hr d0 n hn v hv shift
    refine (C128_fit_and_run (binary 53 (by norm_num)) h1 perc obs hobs months p api rnd (fun j => (hr j).trans ?_) d0 n hn v hv shift).1 r h s hs
    rw [hu]
    norm_num

end

/-- a percentile in double precision -/
def exPerc (v : List ℚ) (p : ℚ) : Py ℚ := (npPercentile v p).map (roundBits 53)

/-- 64 hours with 1 mm each -/
def exSteady : Series (XF ℚ) := (List.range 64).map fun k => ((k : Int) * HOUR, .fin 1)

/-- **C128** (the bound on the draws is needed) In IEEE double precision, with statistics fitted by the package itself and a number that `numpy.random` can draw
(1 - 2⁻⁵³), the cascade ends in UnboundLocalError: the cumulated weights reach only 1 - 2⁻⁵². -/
theorem C128_can_fail : ∃ (s : CascStats ℚ) (rnd : Nat → ℚ), (buildCascR (roundBits 53) exPerc exSteady).2 = .ok [.inl s] ∧
    (∀ j, rnd j = 1 - 1 / 2 ^ 53) ∧
    cascadeR (roundBits 53) .modern rnd (dailyS 0 2 fun _ => .fin 100) (.one s) = .error .unboundLocalError := by
  have h : okAnd (buildCascR (roundBits 53) exPerc exSteady).2 (fun r => match r with
      | [.inl s] => match cascadeR (roundBits 53) .modern (fun _ => 1 - 1 / 2 ^ 53) (dailyS 0 2 fun _ => .fin 100) (.one s) with
        | .error .unboundLocalError => true
        | _ => false
      | _ => false) = true := by decide +kernel
  obtain ⟨r, hr, h⟩ := okAnd_iff.1 h
  match r, h with
  | [.inl s], h =>
    refine ⟨s, fun _ => 1 - 1 / 2 ^ 53, hr, fun _ => rfl, ?_⟩
    simp only at h
    revert h
    cases cascadeR (roundBits 53) .modern (fun _ => (1 - 1 / 2 ^ 53 : ℚ)) (dailyS 0 2 fun _ => .fin 100) (.one s) with
    | ok o => intro h; cases h
    | error e => cases e <;> intro h <;> first | rfl | cases h

-- hypotheses of C128_double: the observations are representable, the fit succeeds, and rounding does change the statistics
example : okAnd (buildCascR (roundBits 53) exPerc exSteady).2 (fun r => match r with
    | [.inl s] => (match s.p01 0 0, s.p10 0 0, s.pxx 0 0 with
        | .fin x, .fin y, .fin z => decide (x + y + z ≠ 1)
        | _, _, _ => false)
    | _ => false) = true := by decide +kernel

example : ∀ q ∈ exSteady, q.2 = .nan ∨ ∃ x, 0 ≤ x ∧ roundBits 53 x = x ∧ q.2 = .fin x := by
  intro q hq
  obtain ⟨k, _, rfl⟩ := List.mem_map.1 hq
  exact .inr ⟨1, by norm_num, roundBits_one (by norm_num), rfl⟩

end Melodist
