import Verif.Model.UtilPhys
import Mathlib.Analysis.SpecialFunctions.Trigonometric.Bounds
import Mathlib.Tactic.FieldSimp
import Mathlib.Tactic.Ring
import Mathlib.Tactic.Positivity
import Mathlib.Tactic.NormNum

/-!
# Helper lemmas for vapour pressure, dew point and sun times
-/

set_option linter.unusedSectionVars false

namespace Melodist

noncomputable section

/-- exponent of the Magnus formula used at temperature `T` -/
def magnus (T : ℝ) : ℝ :=
  if 273.15 ≤ T then 17.62 * (T - 273.15) / (243.12 + (T - 273.15)) else 22.46 * (T - 273.15) / (272.62 + (T - 273.15))

theorem vaporPressureCell_eq {T : ℝ} (hT : 0.53 < T) (h : ℝ) :
    vaporPressureCell (.fin T) (.fin h) = .fin (6.112 * Real.exp (magnus T) / 100 * h) := by
  unfold vaporPressureCell magnus
  simp only [XF.le_fin, XF.fin_sub_fin, XF.fin_mul_fin, XF.fin_add_fin]
  unfold kelvin0
  split
  · rw [XF.fin_div_fin_of_ne _ (by norm_num at *; linarith), XF.exp_fin, XF.fin_mul_fin, XF.fin_mul_fin,
      XF.fin_div_fin_of_ne _ (by norm_num)]
    congr 1; ring
  · rw [XF.fin_div_fin_of_ne _ (by norm_num at *; linarith), XF.exp_fin, XF.fin_mul_fin, XF.fin_mul_fin,
      XF.fin_div_fin_of_ne _ (by norm_num)]
    congr 1; ring

/-- `a x / (b + x)` is strictly increasing for x > -b -/
theorem hyper_lt {a b x y : ℝ} (ha : 0 < a) (hb : 0 < b) (hx : 0 < b + x) (hxy : x < y) : a * x / (b + x) < a * y / (b + y) := by
  have hy : 0 < b + y := by linarith
  rw [div_lt_div_iff₀ hx hy]
  nlinarith [mul_pos (mul_pos ha hb) (sub_pos.2 hxy)]

theorem magnus_lt {T U : ℝ} (hT : 0.53 < T) (h : T < U) : magnus T < magnus U := by
  unfold magnus
  norm_num at hT
  by_cases h1 : (273.15 : ℝ) ≤ T
  · have h2 : (273.15 : ℝ) ≤ U := by linarith
    rw [if_pos h1, if_pos h2]
    exact hyper_lt (by norm_num) (by norm_num) (by norm_num at *; linarith) (by linarith)
  · rw [if_neg h1]
    by_cases h2 : (273.15 : ℝ) ≤ U
    · rw [if_pos h2]
      have a : 22.46 * (T - 273.15) / (272.62 + (T - 273.15)) < 0 := by
        apply div_neg_of_neg_of_pos
        · norm_num at *; linarith
        · norm_num at *; linarith
      have b : 0 ≤ 17.62 * (U - 273.15) / (243.12 + (U - 273.15)) := by
        apply div_nonneg
        · norm_num at *; linarith
        · norm_num at *; linarith
      linarith
    · rw [if_neg h2]
      exact hyper_lt (by norm_num) (by norm_num) (by norm_num at *; linarith) (by linarith)

theorem magnus_continuousOn : ContinuousOn magnus (Set.Ioi 0.53) := by
  unfold magnus
  apply ContinuousOn.if
  · intro T hT
    obtain ⟨_, hT⟩ := hT
    have : frontier {a : ℝ | (273.15 : ℝ) ≤ a} = {273.15} := frontier_Ici
    rw [this] at hT
    rw [Set.mem_singleton_iff] at hT
    subst hT; norm_num
  · have : closure {a : ℝ | (273.15 : ℝ) ≤ a} = Set.Ici 273.15 := closure_Ici _
    rw [this]
    apply ContinuousOn.div
    · fun_prop
    · fun_prop
    · rintro x ⟨h1, h2⟩
      simp only [Set.mem_Ici, Set.mem_Ioi] at h1 h2
      norm_num at *; linarith
  · apply ContinuousOn.div
    · fun_prop
    · fun_prop
    · rintro x ⟨h1, h2⟩
      simp only [Set.mem_Ioi] at h1
      norm_num at *; linarith

/-- coefficients used at temperature `T` -/
def mgA (T : ℝ) : ℝ := if 273.15 ≤ T then 17.62 else 22.46
def mgB (T : ℝ) : ℝ := if 273.15 ≤ T then 243.12 else 272.62

theorem magnus_eq (T : ℝ) : magnus T = mgA T * (T - 273.15) / (mgB T + (T - 273.15)) := by
  unfold magnus mgA mgB; split <;> rfl
theorem mgA_pos (T : ℝ) : 0 < mgA T := by unfold mgA; split <;> norm_num
theorem mgB_pos (T : ℝ) : 0 < mgB T := by unfold mgB; split <;> norm_num
theorem mgB_add {T : ℝ} (h : 0.53 < T) : 0 < mgB T + (T - 273.15) := by
  unfold mgB; split <;> (norm_num at *; linarith)

theorem magnus_lt_mgA {T : ℝ} (h : 0.53 < T) : magnus T < mgA T := by
  rw [magnus_eq, div_lt_iff₀ (mgB_add h)]
  nlinarith [mul_pos (mgA_pos T) (mgB_pos T)]

/-- the dew point formula -/
theorem dewpointCell_eq {T h : ℝ} (hT : 0.53 < T) (h0 : 0 < h) (hl : magnus T + Real.log (h / 100) < mgA T) :
    dewpointCell (.fin T) (.fin h) =
      .fin (mgB T * (magnus T + Real.log (h / 100)) / (mgA T - (magnus T + Real.log (h / 100))) + 273.15) := by
  unfold dewpointCell
  rw [vaporPressureCell_eq hT]
  simp only [XF.le_fin]
  have e : 6.112 * Real.exp (magnus T) / 100 * h / 6.112 = Real.exp (magnus T) * (h / 100) := by ring
  have hp : 0 < Real.exp (magnus T) * (h / 100) := by positivity
  have el : Real.log (Real.exp (magnus T) * (h / 100)) = magnus T + Real.log (h / 100) := by
    rw [Real.log_mul (Real.exp_pos _).ne' (by positivity), Real.log_exp]
  rw [XF.fin_div_fin_of_ne _ (by norm_num), e, XF.log_fin hp, el]
  unfold mgA at hl
  unfold kelvin0 mgA mgB
  split
  · rename_i hc
    rw [if_pos hc] at hl
    rw [XF.fin_mul_fin, XF.fin_sub_fin, XF.fin_div_fin_of_ne _ (by linarith)]; rfl
  · rename_i hc
    rw [if_neg hc] at hl
    rw [XF.fin_mul_fin, XF.fin_sub_fin, XF.fin_div_fin_of_ne _ (by linarith)]; rfl

theorem log_hum_le {h : ℝ} (h0 : 0 < h) (h1 : h ≤ 100) : Real.log (h / 100) ≤ 0 :=
  Real.log_nonpos (by positivity) (by linarith)

/-- inverse hyperbola is increasing below its pole -/
theorem invhyper_lt {a b l m : ℝ} (ha : 0 < a) (hb : 0 < b) (hlm : l < m) (hm : m < a) : b * l / (a - l) < b * m / (a - m) := by
  have h1 : 0 < a - l := by linarith
  have h2 : 0 < a - m := by linarith
  rw [div_lt_div_iff₀ h1 h2]
  nlinarith [mul_pos (mul_pos ha hb) (sub_pos.2 hlm)]

theorem invhyper_magnus {T : ℝ} (hT : 0.53 < T) : mgB T * magnus T / (mgA T - magnus T) = T - 273.15 := by
  have h1 := mgB_add hT
  have h2 := sub_pos.2 (magnus_lt_mgA hT)
  rw [div_eq_iff h2.ne', magnus_eq]
  field_simp
  ring

/-- `a x / (b + x)` after `b l / (a - l)` is `l` -/
theorem hyper_invhyper {a b l : ℝ} (ha : 0 < a) (hb : 0 < b) (hl : l < a) :
    0 < b + b * l / (a - l) ∧ a * (b * l / (a - l)) / (b + b * l / (a - l)) = l := by
  have h1 : 0 < a - l := by linarith
  have e : b + b * l / (a - l) = a * b / (a - l) := by field_simp; ring
  have hp : 0 < b + b * l / (a - l) := by rw [e]; positivity
  refine ⟨hp, ?_⟩
  rw [div_eq_iff hp.ne', e]
  field_simp

theorem dewpointCell_exists {T h : ℝ} (hT : 0.53 < T) (h0 : 0 < h) (h1 : h ≤ 100) :
    ∃ D, dewpointCell (.fin T) (.fin h) = .fin D ∧
      D = mgB T * (magnus T + Real.log (h / 100)) / (mgA T - (magnus T + Real.log (h / 100))) + 273.15 ∧
      magnus T + Real.log (h / 100) < mgA T :=
  have hl : magnus T + Real.log (h / 100) < mgA T := by
    have := log_hum_le h0 h1
    have := magnus_lt_mgA hT
    linarith
  ⟨_, dewpointCell_eq hT h0 hl, rfl, hl⟩

end

end Melodist
