import Verif.Lemmas.Branching
import Mathlib.Data.Rat.Floor

/-!
# C77: the branching rule of the cascade
-/

set_option linter.unusedSectionVars false

namespace Melodist
open Spec

variable {K : Type} [Field K] [LinearOrder K] [IsStrictOrderedRing K]

/-- the statistics object and the threshold that apply to level `l` (0 is the first one) of `L` levels -/
def statsOfLevel (opts : CascOptions K) (L l : Nat) (s : CascStats K) (thr : XF K) : Prop :=
  match opts with
  | .one o => s = o ∧ o.threshold[L - (l + 1)]? = some thr
  | .many os => os[L - (l + 1)]? = some s ∧ s.threshold[0]? = some thr
  | .other => False

/-- **C77.**  Every successful run on daily values that are missing or not negative follows the branching rule, level by level and box by box:
there are states `σ l j` (random numbers used so far and last weight, before box `j` of level `l`) such that box `j` of the level's input
array `p` (the daily values, missing ones as 0, respectively the output of the level before) is split into the boxes `2j` and
`2j+1` of the output `c` by the rule `Branch` with the probabilities for its intensity class (above the level's threshold or not) and its position
type; random numbers are used consecutively from level to level. -/
theorem C77_branching_rule (api : PandasApi) (rnd : Nat → K) (opts : CascOptions K) (hourly : Bool) (level : Nat) (shift : Int) (test : Bool)
    (d0 : Int) (n : Nat) (v : Nat → XF K) (hv : ∀ i < n, ∀ x, v i = .fin x → 0 ≤ x) (r : CascadeOut K)
    (h : disaggPrecCascade api rnd (dailyS d0 n v) opts hourly level shift test = .ok r) :
    ∃ (daily : List K) (σ : Nat → Nat → Nat × Option K),
      daily.length = n ∧ (∀ i < n, (∀ x, v i = .fin x → daily[i]? = some x) ∧ (v i = .nan → daily[i]? = some 0)) ∧
      r.levels.length = (if hourly then 5 else level) ∧ σ 0 0 = (0, none) ∧
      ∀ (l : Nat) (p c : List K), (daily :: r.levels)[l]? = some p → r.levels[l]? = some c →
        c.length = 2 * p.length ∧
        ∃ s thr, statsOfLevel opts (if hourly then 5 else level) l s thr ∧ σ (l + 1) 0 = σ l p.length ∧
          ∀ (j : Nat) (y a b : K), p[j]? = some y → c[2 * j]? = some a → c[2 * j + 1]? = some b →
            let q : Fin 2 := if XF.lt thr (.fin y) then 1 else 0
            Branch rnd (s.p01 q (posType p j)) (s.p10 q (posType p j)) (fun k => s.wxx k q (posType p j)) y (σ l j) a b (σ l (j + 1)) := by
  obtain ⟨_, w, levels, fine, s', hz, _, hc, hlev, ha, rfl⟩ := disagg_inv h
  rw [dailyS_values] at hz
  obtain ⟨hlen, hcell⟩ := zeroMissing_ok hz
  simp only [List.length_map, List.length_range] at hlen
  have hcell' : ∀ i < n, (v i).NanOrFin ∧ (∀ x, v i = .fin x → w[i]? = some x) ∧ (v i = .nan → w[i]? = some 0) := by
    intro i hi
    exact hcell i (v i) (by rw [List.getElem?_map, List.getElem?_range hi]; rfl)
  have hw : ∀ x ∈ w, 0 ≤ x := by
    intro x hx
    obtain ⟨i, hi, rfl⟩ := List.mem_iff_getElem.1 hx
    have hin : i < n := by omega
    obtain ⟨h1, h2, h3⟩ := hcell' i hin
    cases hvi : v i with
    | nan =>
      have := h3 hvi
      rw [List.getElem?_eq_getElem hi] at this
      injection this with this
      rw [this]
    | fin y =>
      have := h2 y hvi
      rw [List.getElem?_eq_getElem hi] at this
      injection this with this
      rw [this]
      exact hv i hin y hvi
    | pinf => rw [hvi] at h1; simp [XF.NanOrFin] at h1
    | ninf => rw [hvi] at h1; simp [XF.NanOrFin] at h1
  obtain ⟨σ, h0, hσ⟩ := levelLoop_branch _ w {} levels hw hlev
  refine ⟨w, σ, hlen, fun i hi => (hcell' i hi).2, levelLoop_length hlev, h0, ?_⟩
  intro l p c hp hcl
  obtain ⟨s, mv, e1, e2, e3⟩ := hσ l p c hp hcl
  refine ⟨?_, s, mv, ?_, e2, e3⟩
  · exact (levelLoop_chain hlev l p c hp (by simpa using hcl)).length
  · unfold levelStats at e1
    cases opts with
    | one o =>
      simp only at e1
      split at e1
      · rename_i m hm
        cases e1
        exact ⟨rfl, hm⟩
      · cases e1
    | many os =>
      simp only at e1
      split at e1
      · rename_i m hm
        split at e1
        · rename_i m' hm'
          cases e1
          exact ⟨hm, hm'⟩
        · cases e1
      · cases e1
    | other => cases e1

/-- C77 applies to a run on three days with the sample statistics. -/
example : okAnd (disaggPrecCascade .modern (fun k => ((k * 7 : Nat) : ℚ) / 40 - ((k * 7 / 40 : Nat) : ℚ))
    (dailyS 0 3 fun i => if i = 1 then .nan else .fin (i + 2)) (.one CascStats.init.fillSample)) (fun r => decide (r.levels.length = 5)) = true := by
  decide +kernel

end Melodist
