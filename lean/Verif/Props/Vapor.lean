import Verif.Lemmas.Phys

/-!
# C06, C07: vapour pressure and dew point
-/

set_option linter.unusedSectionVars false

namespace Melodist

noncomputable section

/-- **C06.** On the physical range (temperature above 0.53 K, the pole of the ice formula) there is a saturation pressure
`es` such that vapour pressure is `es T * hum / 100` for every humidity; `es` is positive, strictly increasing,
continuous (in particular across the ice/water switch at 273.15 K), and 6.112 hPa at 273.15 K.  Missing input gives missing
output. -/
theorem C06_vapor_pressure :
    (∃ es : ℝ → ℝ,
      (∀ T hum : ℝ, 0.53 < T → vaporPressureCell (.fin T) (.fin hum) = .fin (es T * hum / 100)) ∧
      (∀ T, 0.53 < T → 0 < es T) ∧ StrictMonoOn es (Set.Ioi 0.53) ∧ ContinuousOn es (Set.Ioi 0.53) ∧
      es 273.15 = 6.112) ∧
    (∀ x, vaporPressureCell .nan x = .nan) ∧ (∀ x, vaporPressureCell x .nan = .nan) := by
  refine ⟨⟨fun T => 6.112 * Real.exp (magnus T), ?_, ?_, ?_, ?_, ?_⟩, ?_, ?_⟩
  · intro T hum hT
    rw [vaporPressureCell_eq hT]
    congr 1; ring
  · intro T _; positivity
  · intro T hT U _ h
    have := Real.exp_lt_exp.2 (magnus_lt hT h)
    simp only
    linarith
  · exact continuousOn_const.mul (magnus_continuousOn.rexp)
  · norm_num [magnus]
  · intro x; simp [vaporPressureCell]
  · intro x; unfold vaporPressureCell; split <;> simp

/-- **C06 (arrays).** The array function works cell by cell; arrays of different lengths raise AssertionError. -/
theorem C06_vapor_pressure_array (temp hum : List (XF ℝ)) :
    (temp.length = hum.length → ∃ out, vaporPressure temp hum = .ok out ∧ out.length = temp.length ∧
      ∀ i : Nat, ∀ t h, temp[i]? = some t → hum[i]? = some h → out[i]? = some (vaporPressureCell t h)) ∧
    (temp.length ≠ hum.length → vaporPressure temp hum = .error .assertionError) := by
  constructor
  · intro h
    refine ⟨_, if_pos h, by simp [h], ?_⟩
    intro i t h' h1 h2
    rw [List.getElem?_zipWith, h1, h2]
  · intro h; exact if_neg h

/-- non-vacuity: 20 degrees Celsius and 50 % humidity is in the range, and vapour pressure is lower than at 25 degrees -/
example : ∃ a b : ℝ, vaporPressureCell (.fin 293.15) (.fin 50) = .fin a ∧ vaporPressureCell (.fin 298.15) (.fin 50) = .fin b ∧
    0 < a ∧ a < b := by
  obtain ⟨⟨es, h1, h2, h3, _⟩, _⟩ := C06_vapor_pressure
  refine ⟨_, _, h1 _ _ (by norm_num), h1 _ _ (by norm_num), ?_, ?_⟩
  · have := h2 293.15 (by norm_num); positivity
  · have := h3 (a := 293.15) (b := 298.15) (by simp; norm_num) (by simp; norm_num) (by norm_num)
    linarith

/-! ## dew point -/

/-- **C07 (saturated air).** At 100 % humidity the dew point is the temperature. -/
theorem C07_dewpoint_saturated (T : ℝ) (hT : 0.53 < T) : dewpointCell (.fin T) (.fin 100) = .fin T := by
  obtain ⟨D, h1, h2, _⟩ := dewpointCell_exists hT (by norm_num : (0 : ℝ) < 100) le_rfl
  rw [h1, h2]
  have e : Real.log (100 / 100) = 0 := by norm_num
  rw [e, add_zero, invhyper_magnus hT]
  congr 1; ring

/-- **C07 (bound, monotonicity).** For humidities in (0,100] the dew point exists, is at most `T` and strictly increases with
humidity; completely dry air (0 %) has no dew point (NaN). -/
theorem C07_dewpoint_monotone (T : ℝ) (hT : 0.53 < T) :
    (∀ h : ℝ, 0 < h → h ≤ 100 → ∃ D, dewpointCell (.fin T) (.fin h) = .fin D ∧ D ≤ T) ∧
    (∀ h₁ h₂ D₁ D₂ : ℝ, 0 < h₁ → h₁ < h₂ → h₂ ≤ 100 → dewpointCell (.fin T) (.fin h₁) = .fin D₁ →
      dewpointCell (.fin T) (.fin h₂) = .fin D₂ → D₁ < D₂) ∧
    dewpointCell (.fin T) (.fin 0) = .nan := by
  have mono : ∀ h₁ h₂ D₁ D₂ : ℝ, 0 < h₁ → h₁ < h₂ → h₂ ≤ 100 → dewpointCell (.fin T) (.fin h₁) = .fin D₁ →
      dewpointCell (.fin T) (.fin h₂) = .fin D₂ → D₁ < D₂ := by
    intro h₁ h₂ D₁ D₂ h0 hlt h1 e1 e2
    obtain ⟨E1, f1, g1, k1⟩ := dewpointCell_exists hT h0 (by linarith)
    obtain ⟨E2, f2, g2, k2⟩ := dewpointCell_exists hT (by linarith) h1
    rw [e1] at f1; rw [e2] at f2
    injection f1 with f1; injection f2 with f2
    rw [f1, f2, g1, g2]
    have hl : Real.log (h₁ / 100) < Real.log (h₂ / 100) := Real.log_lt_log (by positivity) (by linarith)
    have := invhyper_lt (mgA_pos T) (mgB_pos T) (by linarith : magnus T + Real.log (h₁ / 100) < magnus T + Real.log (h₂ / 100)) k2
    linarith
  refine ⟨?_, mono, ?_⟩
  · intro h h0 h1
    obtain ⟨D, f, g, k⟩ := dewpointCell_exists hT h0 h1
    refine ⟨D, f, ?_⟩
    rcases h1.lt_or_eq with h1 | rfl
    · exact (mono h 100 D T h0 h1 le_rfl f (C07_dewpoint_saturated T hT)).le
    · rw [C07_dewpoint_saturated T hT] at f
      injection f with f
      exact f.ge
  · unfold dewpointCell
    rw [vaporPressureCell_eq hT]
    simp only [mul_zero]
    have : XF.log (.fin 0 / .fin 6.112) = .ninf := by
      rw [XF.fin_div_fin_of_ne _ (by norm_num)]; simp [XF.log]
    rw [this]
    have a : ∀ x y : ℝ, (XF.fin x * XF.ninf / (XF.fin y - XF.ninf) : XF ℝ) = .nan := by
      intro x y
      show XF.infOfSign (-x) / XF.pinf = _
      unfold XF.infOfSign
      split
      · rfl
      · split <;> rfl
    split <;> rw [a] <;> rfl

/-- **C07 (round trip).** Saturation vapour pressure at the dew point equals the actual vapour pressure if `T` and the dew
point are on the same side of 273.15 K. -/
theorem C07_dewpoint_inverts (T h D : ℝ) (hT : 0.53 < T) (h0 : 0 < h) (h1 : h ≤ 100)
    (hD : dewpointCell (.fin T) (.fin h) = .fin D) (hside : 273.15 ≤ T ↔ 273.15 ≤ D) :
    vaporPressureCell (.fin D) (.fin 100) = vaporPressureCell (.fin T) (.fin h) := by
  obtain ⟨E, f, g, k⟩ := dewpointCell_exists hT h0 h1
  rw [hD] at f; injection f with f
  subst f
  obtain ⟨p, q⟩ := hyper_invhyper (mgA_pos T) (mgB_pos T) k
  have eA : mgA D = mgA T := by unfold mgA; simp only [hside]
  have eB : mgB D = mgB T := by unfold mgB; simp only [hside]
  have hx : D - 273.15 = mgB T * (magnus T + Real.log (h / 100)) / (mgA T - (magnus T + Real.log (h / 100))) := by
    rw [g]; ring
  have hDp : 0.53 < D := by
    rw [← hx] at p
    by_cases c : (273.15 : ℝ) ≤ D
    · norm_num at *; linarith
    · rw [← eB] at p
      unfold mgB at p
      rw [if_neg c] at p
      norm_num at *; linarith
  rw [vaporPressureCell_eq hDp, vaporPressureCell_eq hT, magnus_eq D, eA, eB, hx, q, Real.exp_add, Real.exp_log (by positivity)]
  congr 1; ring

/-- **C07 (failure across the freezing point).** If the air is above freezing and the dew point below (and above 138 K), the saturation
pressure at the dew point is strictly smaller than the actual vapour pressure. -/
theorem C07_dewpoint_not_inverse (T h D : ℝ) (hT : 273.15 ≤ T) (h0 : 0 < h) (h1 : h ≤ 100)
    (hD : dewpointCell (.fin T) (.fin h) = .fin D) (hlo : 138 ≤ D) (hhi : D < 273.15) :
    ∃ e es : ℝ, vaporPressureCell (.fin T) (.fin h) = .fin e ∧ vaporPressureCell (.fin D) (.fin 100) = .fin es ∧ es < e := by
  have hT' : (0.53 : ℝ) < T := by norm_num at *; linarith
  have hD' : (0.53 : ℝ) < D := by norm_num at *; linarith
  obtain ⟨E, f, g, k⟩ := dewpointCell_exists hT' h0 h1
  rw [hD] at f; injection f with f
  subst f
  refine ⟨_, _, vaporPressureCell_eq hT' h, vaporPressureCell_eq hD' 100, ?_⟩
  obtain ⟨p, q⟩ := hyper_invhyper (mgA_pos T) (mgB_pos T) k
  have hx : mgB T * (magnus T + Real.log (h / 100)) / (mgA T - (magnus T + Real.log (h / 100))) = D - 273.15 := by
    rw [g]; ring
  rw [hx] at p q
  have e1 : Real.exp (magnus T) * (h / 100) = Real.exp (mgA T * (D - 273.15) / (mgB T + (D - 273.15))) := by
    rw [q, Real.exp_add, Real.exp_log (by positivity)]
  have lt : magnus D < mgA T * (D - 273.15) / (mgB T + (D - 273.15)) := by
    unfold magnus mgA mgB
    rw [if_neg (by linarith), if_pos hT, if_pos hT]
    rw [div_lt_div_iff₀ (by norm_num at *; linarith) (by norm_num at *; linarith)]
    have hneg : D - 273.15 < 0 := by linarith
    have hc : 0 < 22.46 * (243.12 + (D - 273.15)) - 17.62 * (272.62 + (D - 273.15)) := by norm_num at *; linarith
    nlinarith [mul_neg_of_neg_of_pos hneg hc]
  have := Real.exp_lt_exp.2 lt
  rw [← e1] at this
  linarith

/-- non-vacuity of the failure: such air exists (dew point 263.15 K at 283.15 K for a suitable humidity) -/
example : ∃ h : ℝ, 0 < h ∧ h ≤ 100 ∧ dewpointCell (.fin 283.15) (.fin h) = .fin 263.15 := by
  have hx : magnus 283.15 = 17.62 * 10 / 253.12 := by norm_num [magnus]
  have hl : (17.62 * (-10) / 233.12 : ℝ) - magnus 283.15 < 0 := by rw [hx]; norm_num
  refine ⟨100 * Real.exp (17.62 * (-10) / 233.12 - magnus 283.15), by positivity, ?_, ?_⟩
  · have := Real.exp_lt_exp.2 hl; rw [Real.exp_zero] at this; linarith
  · have e : Real.log (100 * Real.exp (17.62 * (-10) / 233.12 - magnus 283.15) / 100) = 17.62 * (-10) / 233.12 - magnus 283.15 := by
      rw [mul_div_assoc, mul_comm, div_mul_cancel₀ _ (by norm_num), Real.log_exp]
    rw [dewpointCell_eq (by norm_num) (by positivity)]
    · rw [e]
      congr 1
      norm_num [mgA, mgB]
    · rw [e]; norm_num [mgA]

/-- non-vacuity of the round trip: saturated air at 263.15 K (both on the ice side) -/
example : ∃ h D : ℝ, 0 < h ∧ h ≤ 100 ∧ dewpointCell (.fin 283.15) (.fin h) = .fin D ∧ (273.15 ≤ (283.15 : ℝ) ↔ 273.15 ≤ D) :=
  ⟨100, 283.15, by norm_num, le_rfl, C07_dewpoint_saturated _ (by norm_num), Iff.rfl⟩

end

end Melodist
