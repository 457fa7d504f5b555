import Verif.Props.Wind
import Verif.Props.CascadeLaw
import Mathlib.MeasureTheory.Function.JacobianOneDim
import Mathlib.Analysis.SpecialFunctions.Gamma.BohrMollerup
import Mathlib.Analysis.SpecialFunctions.Gaussian.GaussianIntegral
import Mathlib.Probability.StrongLaw
import Mathlib.Analysis.Real.Pi.Bounds

/-!
# Lemmas: the law of the random wind factor
-/

set_option linter.unusedSectionVars false

namespace Melodist
open Spec MeasureTheory ProbabilityTheory

/-- `(-ln u)^p` in the variable `x = -ln u` -/
theorem exp_image : (fun x : ℝ => Real.exp (-x)) '' Set.Ioi 0 = Set.Ioo 0 1 := by
  ext u
  simp only [Set.mem_image, Set.mem_Ioi, Set.mem_Ioo]
  constructor
  · rintro ⟨x, hx, rfl⟩
    exact ⟨Real.exp_pos _, by rw [Real.exp_lt_one_iff]; linarith⟩
  · rintro ⟨h0, h1⟩
    exact ⟨-Real.log u, by have := Real.log_neg h0 h1; linarith, by rw [neg_neg, Real.exp_log h0]⟩

theorem exp_inj : Set.InjOn (fun x : ℝ => Real.exp (-x)) (Set.Ioi 0) := by
  intro x _ y _ h
  have := Real.exp_injective h
  linarith

theorem exp_deriv (x : ℝ) : HasDerivWithinAt (fun x : ℝ => Real.exp (-x)) (-Real.exp (-x)) (Set.Ioi 0) x := by
  have := ((hasDerivAt_neg x).exp).hasDerivWithinAt (s := Set.Ioi 0)
  simpa using this

theorem unit_eq : unit = (volume : Measure ℝ).restrict (Set.Ioo 0 1) := Measure.restrict_congr_set Ioo_ae_eq_Icc.symm

theorem log_pow_integral {p : ℝ} (hp : 0 < p) :
    Integrable (fun u : ℝ => (-Real.log u) ^ p) unit ∧ ∫ u, (-Real.log u) ^ p ∂unit = Real.Gamma (p + 1) := by
  have e : ∀ x : ℝ, |-Real.exp (-x)| • (-Real.log (Real.exp (-x))) ^ p = Real.exp (-x) * x ^ (p + 1 - 1) := by
    intro x
    rw [abs_neg, abs_of_pos (Real.exp_pos _), Real.log_exp, neg_neg, smul_eq_mul, add_sub_cancel_right]
  rw [unit_eq]
  constructor
  · show IntegrableOn _ _ _
    rw [← exp_image, integrableOn_image_iff_integrableOn_abs_deriv_smul measurableSet_Ioi (fun x _ => exp_deriv x) exp_inj]
    simp only [e]
    exact Real.GammaIntegral_convergent (by linarith)
  · rw [← exp_image, integral_image_eq_integral_abs_deriv_smul measurableSet_Ioi (fun x _ => exp_deriv x) exp_inj]
    simp only [e]
    exact (Real.Gamma_eq_integral (by linarith)).symm

theorem gamma_three_halves : Real.Gamma (3 / 2) = Real.sqrt Real.pi / 2 := by
  rw [show (3 / 2 : ℝ) = 1 / 2 + 1 by norm_num, Real.Gamma_add_one (by norm_num), Real.Gamma_one_half_eq]
  ring

theorem gamma_bounds : 0.84 < Real.Gamma 1.3 ∧ Real.Gamma 1.3 < 0.94 := by
  have hc := Real.convexOn_Gamma
  have h15 := gamma_three_halves
  have hs1 : Real.sqrt Real.pi < 1.774 := by
    rw [Real.sqrt_lt' (by norm_num)]
    have := Real.pi_lt_d4
    norm_num at this ⊢
    linarith
  have hs2 : 1.772 < Real.sqrt Real.pi := by
    apply Real.lt_sqrt_of_sq_lt
    have := Real.pi_gt_d4
    norm_num at this ⊢
    linarith
  have h1 : Real.Gamma 1 = 1 := Real.Gamma_one
  have h2 : Real.Gamma 2 = 1 := Real.Gamma_two
  constructor
  · have := hc.2 (show (1.3 : ℝ) ∈ Set.Ioi 0 by norm_num) (show (2 : ℝ) ∈ Set.Ioi 0 by norm_num) (show (0 : ℝ) ≤ 5 / 7 by norm_num)
      (show (0 : ℝ) ≤ 2 / 7 by norm_num) (by norm_num)
    rw [show (5 / 7 : ℝ) • (1.3 : ℝ) + (2 / 7 : ℝ) • (2 : ℝ) = 3 / 2 by norm_num [smul_eq_mul], h15, h2] at this
    simp only [smul_eq_mul] at this
    norm_num at this hs2 ⊢
    linarith
  · have := hc.2 (show (1 : ℝ) ∈ Set.Ioi 0 by norm_num) (show (3 / 2 : ℝ) ∈ Set.Ioi 0 by norm_num) (show (0 : ℝ) ≤ 2 / 5 by norm_num)
      (show (0 : ℝ) ≤ 3 / 5 by norm_num) (by norm_num)
    rw [show (2 / 5 : ℝ) • (1 : ℝ) + (3 / 5 : ℝ) • (3 / 2 : ℝ) = 1.3 by norm_num [smul_eq_mul], h15, h1] at this
    simp only [smul_eq_mul] at this
    norm_num at this hs1 ⊢
    linarith

/-- a uniform random number is strictly between 0 and 1 with probability one -/
theorem uniform_ae {Ω : Type} [MeasurableSpace Ω] {P : Measure Ω} {U : Nat → Ω → ℝ} (hU : UniformDraws P U) (k : Nat) :
    ∀ᵐ ω ∂P, 0 < U k ω ∧ U k ω < 1 := by
  have h : ∀ᵐ u ∂(P.map (U k)), 0 < u ∧ u < 1 := by
    rw [hU.uniform k, show (volume : Measure ℝ).restrict (Set.Icc 0 1) = volume.restrict (Set.Ioo 0 1) from Measure.restrict_congr_set Ioo_ae_eq_Icc.symm]
    exact (ae_restrict_mem measurableSet_Ioo)
  exact ae_of_ae_map (hU.measurable k).aemeasurable h

/-- the tail of the factor -/
theorem factor_gt {u x p : ℝ} (hp : 0 < p) (hx : 0 ≤ x) (h0 : 0 < u) (h1 : u < 1) : x < (-Real.log u) ^ p ↔ u < Real.exp (-(x ^ (1 / p))) := by
  have hl : 0 < -Real.log u := by have := Real.log_neg h0 h1; linarith
  rw [← Real.rpow_lt_rpow_iff (z := 1 / p) hx (Real.rpow_nonneg hl.le _) (by positivity), ← Real.rpow_mul hl.le, mul_one_div_cancel hp.ne', Real.rpow_one,
    ← Real.log_lt_iff_lt_exp h0]
  constructor <;> intro h <;> linarith

end Melodist
