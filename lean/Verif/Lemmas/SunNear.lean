import Verif.Model.SunRound
import Verif.Lemmas.PotRadNearB
import Verif.Lemmas.Sun

/-!
# Helper lemmas: the errors of the quantities of `get_sun_times`
-/

set_option linter.unusedSectionVars false

namespace Melodist
open Spec

noncomputable section

namespace Spec

/-- `DoubleTrig` and a tangent with a relative error of at most 1e-15 -/
structure DoubleTan (F : SunMath) : Prop where
  trig : DoubleTrig F.toTrigMath
  tan_err : ∀ x, |F.tan x - Real.tan x| ≤ 1e-15 * |Real.tan x|

end Spec

theorem pi_double : 3.1 ≤ roundBits 53 Real.pi ∧ |roundBits 53 Real.pi - Real.pi| ≤ 4e-16 := by
  have h := Nr.pi.1
  have := (abs_le.1 h).1
  have := Real.pi_gt_d2
  refine ⟨?_, h⟩
  norm_num at *; linarith

theorem Nr.divpi {e B y x : ℝ} (h : Nr e B y x) : Nr (e / 3.1 + B * 4.2e-17) (B / 3.14) (y / roundBits 53 Real.pi) (x / Real.pi) := by
  obtain ⟨hp, hd⟩ := pi_double
  have hpi := Real.pi_gt_d2
  have hpos := Real.pi_pos
  have hp0 : 0 < roundBits 53 Real.pi := by norm_num at hp; linarith
  constructor
  · have e1 : y / roundBits 53 Real.pi - x / Real.pi = (y - x) / roundBits 53 Real.pi + x * ((Real.pi - roundBits 53 Real.pi) / (roundBits 53 Real.pi * Real.pi)) := by
      field_simp
      ring
    rw [e1]
    refine (abs_add_le _ _).trans (add_le_add ?_ ?_)
    · rw [abs_div, abs_of_pos hp0]
      exact div_le_div₀ h.nonneg h.1 (by norm_num) hp
    · rw [abs_mul]
      apply mul_le_mul h.2 _ (abs_nonneg _) h.size_nonneg
      rw [abs_div, abs_of_pos (mul_pos hp0 hpos), abs_sub_comm, div_le_iff₀ (mul_pos hp0 hpos)]
      refine hd.trans ?_
      have : (3.1 : ℝ) * 3.14 ≤ roundBits 53 Real.pi * Real.pi := mul_le_mul hp hpi.le (by norm_num) hp0.le
      norm_num at this ⊢
      linarith
  · rw [abs_div, abs_of_pos hpos]
    exact div_le_div₀ h.size_nonneg h.2 (by norm_num) hpi.le

variable {F : TrigMath}

theorem declinationR_near (hF : DoubleTrig F) (t : Time) : Nr 3e-15 0.4386 (declinationR F (doyOf t)) (solarDeclination (doyOf t)) := by
  have hd := doy_range t
  have h1 : (1 : ℝ) ≤ (doyOf t : ℝ) := by exact_mod_cast hd.1
  have h2 : (doyOf t : ℝ) ≤ 366 := by exact_mod_cast hd.2
  have hr := rad_near hF
  rw [← declination_eq]
  unfold declinationR declination deg2radR deg2rad
  dsimp only
  rw [hF.fl] at hr ⊢
  have c0 := (Nr.num (x := (79.346 : ℝ)) (by norm_num)).fl (e' := 9.6e-15) (by norm_num)
  have q0 := ((Nr.num (x := (360 / 365.25 : ℝ)) (by norm_num)).weaken (e' := 0) (B' := 1) (le_refl _) (by norm_num)).fl (e' := 1.2e-16) (by norm_num)
  have d0 := ((Nr.const (x := (doyOf t : ℝ)) (B := 366) (abs_le.2 ⟨by linarith, h2⟩)).sub c0).size (B' := 287) (abs_le.2 ⟨by norm_num; linarith, by norm_num; linarith⟩)
  have d1 := d0.fl (e' := 4.5e-14) (by norm_num)
  have d2 := ((q0.mul d1).weaken (e' := 7.95e-14) (B' := 287) (by norm_num) (by norm_num)).fl (e' := 1.15e-13) (by norm_num)
  have b := ((d2.mul hr).weaken (e' := 3.5e-15) (B' := 5.03) (by norm_num) (by norm_num)).fl (e' := 4.2e-15) (by norm_num)
  have b2 := (((Nr.num (x := 2) (by norm_num)).mul b).weaken (e' := 8.4e-15) (B' := 10.06) (by norm_num) (by norm_num)).fl (e' := 9.7e-15) (by norm_num)
  have b3 := (((Nr.num (x := 3) (by norm_num)).mul b).weaken (e' := 1.26e-14) (B' := 15.09) (by norm_num) (by norm_num)).fl (e' := 1.46e-14) (by norm_num)
  have l0 := (Nr.num (x := (0.3723 : ℝ)) (by norm_num)).fl (e' := 4.5e-17) (by norm_num)
  have l1 := (Nr.num (x := (23.2567 : ℝ)) (by norm_num)).fl (e' := 2.8e-15) (by norm_num)
  have l2 := (Nr.num (x := (0.7580 : ℝ)) (by norm_num)).fl (e' := 1e-16) (by norm_num)
  have l3 := (Nr.num (x := (0.1149 : ℝ)) (by norm_num)).fl (e' := 2e-17) (by norm_num)
  have l4 := (Nr.num (x := (0.3656 : ℝ)) (by norm_num)).fl (e' := 5e-17) (by norm_num)
  have l5 := (Nr.num (x := (0.1712 : ℝ)) (by norm_num)).fl (e' := 3e-17) (by norm_num)
  have l6 := (Nr.num (x := (0.0201 : ℝ)) (by norm_num)).fl (e' := 3e-18) (by norm_num)
  have m1 := ((l1.mul (b.sin hF)).weaken (e' := 1.24e-13) (B' := 23.2567) (by norm_num) (by norm_num)).fl (e' := 1.27e-13) (by norm_num)
  have m2 := ((l2.mul (b.cos hF)).weaken (e' := 4.1e-15) (B' := 0.758) (by norm_num) (by norm_num)).fl (e' := 4.2e-15) (by norm_num)
  have m3 := ((l3.mul (b2.sin hF)).weaken (e' := 1.3e-15) (B' := 0.1149) (by norm_num) (by norm_num)).fl (e' := 1.4e-15) (by norm_num)
  have m4 := ((l4.mul (b2.cos hF)).weaken (e' := 4e-15) (B' := 0.3656) (by norm_num) (by norm_num)).fl (e' := 4.1e-15) (by norm_num)
  have m5 := ((l5.mul (b3.sin hF)).weaken (e' := 2.8e-15) (B' := 0.1712) (by norm_num) (by norm_num)).fl (e' := 2.9e-15) (by norm_num)
  have m6 := ((l6.mul (b3.cos hF)).weaken (e' := 4e-16) (B' := 0.0201) (by norm_num) (by norm_num)).fl (e' := 5e-16) (by norm_num)
  have p1 := ((l0.add m1).weaken (e' := 1.271e-13) (B' := 23.629) (by norm_num) (by norm_num)).fl (e' := 1.3e-13) (by norm_num)
  have p2 := ((p1.sub m2).weaken (e' := 1.343e-13) (B' := 24.387) (by norm_num) (by norm_num)).fl (e' := 1.374e-13) (by norm_num)
  have p3 := ((p2.add m3).weaken (e' := 1.39e-13) (B' := 24.502) (by norm_num) (by norm_num)).fl (e' := 1.421e-13) (by norm_num)
  have p4 := ((p3.add m4).weaken (e' := 1.463e-13) (B' := 24.868) (by norm_num) (by norm_num)).fl (e' := 1.494e-13) (by norm_num)
  have p5 := ((p4.sub m5).weaken (e' := 1.524e-13) (B' := 25.04) (by norm_num) (by norm_num)).fl (e' := 1.556e-13) (by norm_num)
  have p6 := ((p5.add m6).weaken (e' := 1.562e-13) (B' := 25.061) (by norm_num) (by norm_num)).fl (e' := 1.594e-13) (by norm_num)
  exact ((p6.mul hr).weaken (e' := 2.93e-15) (B' := 0.4386) (by norm_num) (by norm_num)).fl (by norm_num)

theorem eqTimeR_near (hF : DoubleTrig F) (t : Time) : Nr 3.2e-15 0.35 (eqTimeR F (doyOf t)) (eqTime (doyOf t)) := by
  have hd := doy_range t
  have h1 : (1 : ℝ) ≤ (doyOf t : ℝ) := by exact_mod_cast hd.1
  have h2 : (doyOf t : ℝ) ≤ 366 := by exact_mod_cast hd.2
  have hp := twoPi_near hF
  have hsize := abs_eqTime_le (doyOf t)
  unfold eqTimeR eqTime at *
  dsimp only at *
  rw [hF.fl] at hp ⊢
  rw [hF.pi] at *
  have s0 := Nr.const (x := (doyOf t : ℝ) - 1) (B := 365) (abs_le.2 ⟨by linarith, by linarith⟩)
  have s1 := ((hp.mul s0).weaken (e' := 5.9e-13) (B' := 2300) (by norm_num) (by norm_num)).fl (e' := 8.7e-13) (by norm_num)
  have s := ((s1.divc (c := 365) (by norm_num)).weaken (e' := 2.4e-15) (B' := 6.31) (by norm_num) (by norm_num)).fl (e' := 3.2e-15) (by norm_num)
  have s2 := (((Nr.num (x := 2) (by norm_num)).mul s).weaken (e' := 6.4e-15) (B' := 12.62) (by norm_num) (by norm_num)).fl (e' := 8e-15) (by norm_num)
  have l0 := (Nr.num (x := (0.000075 : ℝ)) (by norm_num)).fl (e' := 1e-20) (by norm_num)
  have l1 := (Nr.num (x := (0.001868 : ℝ)) (by norm_num)).fl (e' := 3e-19) (by norm_num)
  have l2 := (Nr.num (x := (0.032077 : ℝ)) (by norm_num)).fl (e' := 4e-18) (by norm_num)
  have l3 := (Nr.num (x := (0.014615 : ℝ)) (by norm_num)).fl (e' := 2e-18) (by norm_num)
  have l4 := (Nr.num (x := (0.040849 : ℝ)) (by norm_num)).fl (e' := 5e-18) (by norm_num)
  have m1 := ((l1.mul (s.cos hF)).weaken (e' := 9e-18) (B' := 0.001868) (by norm_num) (by norm_num)).fl (e' := 1e-17) (by norm_num)
  have m2 := ((l2.mul (s.sin hF)).weaken (e' := 1.4e-16) (B' := 0.032077) (by norm_num) (by norm_num)).fl (e' := 1.5e-16) (by norm_num)
  have m3 := ((l3.mul (s2.cos hF)).weaken (e' := 1.4e-16) (B' := 0.014615) (by norm_num) (by norm_num)).fl (e' := 1.5e-16) (by norm_num)
  have m4 := ((l4.mul (s2.sin hF)).weaken (e' := 3.8e-16) (B' := 0.040849) (by norm_num) (by norm_num)).fl (e' := 3.9e-16) (by norm_num)
  have p1 := ((l0.add m1).weaken (e' := 2e-17) (B' := 0.00195) (by norm_num) (by norm_num)).fl (e' := 3e-17) (by norm_num)
  have p2 := ((p1.sub m2).weaken (e' := 1.8e-16) (B' := 0.0341) (by norm_num) (by norm_num)).fl (e' := 1.9e-16) (by norm_num)
  have p3 := ((p2.sub m3).weaken (e' := 3.4e-16) (B' := 0.0488) (by norm_num) (by norm_num)).fl (e' := 3.5e-16) (by norm_num)
  have p4 := ((p3.sub m4).weaken (e' := 7.4e-16) (B' := 0.0897) (by norm_num) (by norm_num)).fl (e' := 7.6e-16) (by norm_num)
  have q := (((Nr.num (x := 12) (by norm_num)).divpi).weaken (e' := 5.1e-16) (B' := 3.83) (by norm_num) (by norm_num)).fl (e' := 9.8e-16) (by norm_num)
  exact (((q.mul p4).size hsize).weaken (e' := 3.05e-15) (by norm_num) (le_refl _)).fl (by norm_num)

theorem delta_near (hF : DoubleTrig F) {lon tz : ℝ} (hlon : |lon| ≤ 360) (htz : |tz| ≤ 16) :
    Nr 1.8e-14 40 (F.fl (F.fl (F.fl (lon - F.fl (tz * 15)) * 24) / 360)) ((lon - tz * 15) * 24 / 360) := by
  rw [hF.fl]
  have a1 := (((Nr.const htz).mul (Nr.num (x := 15) (by norm_num))).weaken (e' := 0) (B' := 240) (by norm_num) (by norm_num)).fl (e' := 3e-14) (by norm_num)
  have a2 := (((Nr.const hlon).sub a1).weaken (e' := 3e-14) (B' := 600) (by norm_num) (by norm_num)).fl (e' := 1.05e-13) (by norm_num)
  have a3 := ((a2.mul (Nr.num (x := 24) (by norm_num))).weaken (e' := 2.6e-12) (B' := 14400) (by norm_num) (by norm_num)).fl (e' := 4.4e-12) (by norm_num)
  exact ((a3.divc (c := 360) (by norm_num)).weaken (e' := 1.3e-14) (B' := 40) (by norm_num) (by norm_num)).fl (by norm_num)

/-! ### tangent and arccosine -/

theorem tan_sub_abs {x y a : ℝ} (ha : 0 < a) (hx : a ≤ Real.cos x) (hy : a ≤ Real.cos y) : |Real.tan x - Real.tan y| ≤ |x - y| / (a * a) := by
  have hx0 : 0 < Real.cos x := lt_of_lt_of_le ha hx
  have hy0 : 0 < Real.cos y := lt_of_lt_of_le ha hy
  have e : Real.tan x - Real.tan y = Real.sin (x - y) / (Real.cos x * Real.cos y) := by
    rw [Real.tan_eq_sin_div_cos, Real.tan_eq_sin_div_cos, Real.sin_sub]
    field_simp
  rw [e, abs_div, abs_of_pos (mul_pos hx0 hy0)]
  exact div_le_div₀ (abs_nonneg _) Real.abs_sin_le_abs (mul_pos ha ha) (mul_le_mul hx hy ha.le hx0.le)

theorem tan_abs {x a b : ℝ} (ha : 0 < a) (hx : a ≤ Real.cos x) (hb : 0 ≤ b) (h : 1 ≤ a * a * (1 + b * b)) : |Real.tan x| ≤ b := by
  have hx0 : 0 < Real.cos x := lt_of_lt_of_le ha hx
  rw [Real.tan_eq_sin_div_cos, abs_div, abs_of_pos hx0, div_le_iff₀ hx0]
  apply abs_le_of_sq_le_sq' _ (mul_nonneg hb hx0.le) |> abs_le.2
  have := Real.sin_sq_add_cos_sq x
  have h2 : a * a ≤ Real.cos x ^ 2 := by nlinarith
  nlinarith [mul_nonneg hb hb, mul_le_mul_of_nonneg_right h2 (show 0 ≤ 1 + b * b by nlinarith [mul_nonneg hb hb])]

/-- the arccosine (of clamped arguments) is Hölder continuous -/
theorem arccos_holder (x y : ℝ) : |Real.arccos x - Real.arccos y| ^ 2 ≤ Real.pi ^ 2 / 2 * |x - y| := by
  have hpi := Real.pi_pos
  -- clamped arguments
  have clamp : ∀ x, Real.cos (Real.arccos x) = max (-1) (min x 1) := by
    intro x
    rcases le_total x (-1) with h | h
    · rw [Real.arccos_of_le_neg_one h, Real.cos_pi, min_eq_left (by linarith), max_eq_left h]
    · rcases le_total x 1 with h' | h'
      · rw [Real.cos_arccos h h', min_eq_left h', max_eq_right h]
      · rw [Real.arccos_of_one_le h', Real.cos_zero, min_eq_right h', max_eq_right (by norm_num)]
  have hcl : |Real.cos (Real.arccos x) - Real.cos (Real.arccos y)| ≤ |x - y| := by
    rw [clamp, clamp]
    have h1 := abs_max_sub_max_le_abs (min x 1) (min y 1) (-1)
    have h2 := abs_min_sub_min_le_max x 1 y 1
    rw [sub_self, abs_zero, max_eq_left (abs_nonneg _)] at h2
    rw [max_comm (-1), max_comm (-1)]
    exact h1.trans h2
  refine le_trans ?_ (mul_le_mul_of_nonneg_left hcl (by positivity))
  have ha0 := Real.arccos_nonneg x
  have ha1 := Real.arccos_le_pi x
  have hb0 := Real.arccos_nonneg y
  have hb1 := Real.arccos_le_pi y
  generalize Real.arccos x = a at *
  generalize Real.arccos y = b at *
  have key : ∀ a b : ℝ, 0 ≤ b → b ≤ a → a ≤ Real.pi → (a - b) ^ 2 ≤ Real.pi ^ 2 / 2 * (Real.cos b - Real.cos a) := by
    intro a b hb hab ha
    have e : Real.cos b - Real.cos a = 2 * (Real.sin ((a + b) / 2) * Real.sin ((a - b) / 2)) := by
      rw [Real.cos_sub_cos, show (b - a) / 2 = -((a - b) / 2) by ring, Real.sin_neg, add_comm b a]
      ring
    have hs : 2 / Real.pi * ((a - b) / 2) ≤ Real.sin ((a - b) / 2) := Real.mul_le_sin (by linarith) (by linarith)
    have hs2 : Real.sin ((a - b) / 2) ≤ Real.sin ((a + b) / 2) := by
      have e2 : Real.sin ((a + b) / 2) - Real.sin ((a - b) / 2) = 2 * Real.sin (b / 2) * Real.cos (a / 2) := by
        rw [Real.sin_sub_sin]
        congr 2 <;> ring_nf
      have := mul_nonneg (Real.sin_nonneg_of_nonneg_of_le_pi (x := b / 2) (by linarith) (by linarith))
        (Real.cos_nonneg_of_neg_pi_div_two_le_of_le (x := a / 2) (by linarith) (by linarith))
      linarith
    have h0 : 0 ≤ 2 / Real.pi * ((a - b) / 2) := mul_nonneg (by positivity) (by linarith)
    have h1 : (2 / Real.pi * ((a - b) / 2)) * (2 / Real.pi * ((a - b) / 2)) ≤ Real.sin ((a + b) / 2) * Real.sin ((a - b) / 2) :=
      mul_le_mul (hs.trans hs2) hs h0 (h0.trans (hs.trans hs2))
    rw [e]
    have e3 : (a - b) ^ 2 = Real.pi ^ 2 / 2 * (2 * ((2 / Real.pi * ((a - b) / 2)) * (2 / Real.pi * ((a - b) / 2)))) := by
      field_simp
    rw [e3]
    exact mul_le_mul_of_nonneg_left (by linarith) (by positivity)
  rcases le_total b a with h | h
  · rw [sq_abs]
    have := key a b hb0 h ha1
    rw [abs_sub_comm]
    exact this.trans (mul_le_mul_of_nonneg_left (le_abs_self _) (by positivity))
  · rw [sq_abs, ← neg_sub b a, neg_sq]
    have := key b a ha0 h hb1
    exact this.trans (mul_le_mul_of_nonneg_left (le_abs_self _) (by positivity))

/-- away from ±1 it is Lipschitz continuous -/
theorem arccos_lipschitz {x y m : ℝ} (hm : 0 < m) (hx : |x| ≤ 1) (hy : |y| ≤ 1) (hx' : m ^ 2 ≤ 1 - x ^ 2) (hy' : m ^ 2 ≤ 1 - y ^ 2) :
    |Real.arccos x - Real.arccos y| ≤ Real.pi / 2 / m * |x - y| := by
  have hpi := Real.pi_pos
  have hx1 := abs_le.1 hx
  have hy1 := abs_le.1 hy
  have key : ∀ a b : ℝ, 0 ≤ b → b ≤ a → a ≤ Real.pi → m ≤ Real.sin a → m ≤ Real.sin b → a - b ≤ Real.pi / 2 / m * (Real.cos b - Real.cos a) := by
    intro a b hb hab ha hsa hsb
    have e : Real.cos b - Real.cos a = 2 * (Real.sin ((a + b) / 2) * Real.sin ((a - b) / 2)) := by
      rw [Real.cos_sub_cos, show (b - a) / 2 = -((a - b) / 2) by ring, Real.sin_neg, add_comm b a]
      ring
    have hs : 2 / Real.pi * ((a - b) / 2) ≤ Real.sin ((a - b) / 2) := Real.mul_le_sin (by linarith) (by linarith)
    have hmid : m ≤ Real.sin ((a + b) / 2) := by
      have e2 : Real.sin a + Real.sin b = 2 * Real.sin ((a + b) / 2) * Real.cos ((a - b) / 2) := by
        have h1 := Real.sin_add ((a + b) / 2) ((a - b) / 2)
        have h2 := Real.sin_sub ((a + b) / 2) ((a - b) / 2)
        rw [show (a + b) / 2 + (a - b) / 2 = a by ring] at h1
        rw [show (a + b) / 2 - (a - b) / 2 = b by ring] at h2
        rw [h1, h2]; ring
      have h3 := Real.cos_le_one ((a - b) / 2)
      have h4 := Real.sin_nonneg_of_nonneg_of_le_pi (x := (a + b) / 2) (by linarith) (by linarith)
      nlinarith
    have h0 : 0 ≤ 2 / Real.pi * ((a - b) / 2) := mul_nonneg (by positivity) (by linarith)
    have h1 : m * (2 / Real.pi * ((a - b) / 2)) ≤ Real.sin ((a + b) / 2) * Real.sin ((a - b) / 2) :=
      mul_le_mul hmid hs h0 (hm.le.trans hmid)
    rw [e]
    calc a - b = Real.pi / 2 / m * (2 * (m * (2 / Real.pi * ((a - b) / 2)))) := by field_simp
      _ ≤ _ := mul_le_mul_of_nonneg_left (by linarith) (by positivity)
  have hsx : m ≤ Real.sin (Real.arccos x) := by
    rw [Real.sin_arccos]
    exact Real.le_sqrt_of_sq_le hx'
  have hsy : m ≤ Real.sin (Real.arccos y) := by
    rw [Real.sin_arccos]
    exact Real.le_sqrt_of_sq_le hy'
  rcases le_total y x with h | h
  · have := key (Real.arccos y) (Real.arccos x) (Real.arccos_nonneg _) (Real.arccos_le_arccos h) (Real.arccos_le_pi _) hsy hsx
    rw [Real.cos_arccos hx1.1 hx1.2, Real.cos_arccos hy1.1 hy1.2] at this
    rw [abs_sub_comm, abs_of_nonneg (by linarith [Real.arccos_le_arccos h]), abs_of_nonneg (by linarith)]
    exact this
  · have := key (Real.arccos x) (Real.arccos y) (Real.arccos_nonneg _) (Real.arccos_le_arccos h) (Real.arccos_le_pi _) hsx hsy
    rw [Real.cos_arccos hx1.1 hx1.2, Real.cos_arccos hy1.1 hy1.2] at this
    rw [abs_of_nonneg (by linarith [Real.arccos_le_arccos h]), abs_sub_comm, abs_of_nonneg (by linarith)]
    exact this

end

end Melodist
