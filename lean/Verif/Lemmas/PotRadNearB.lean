import Verif.Lemmas.PotRadNear
import Verif.Props.SlopeSun

/-!
# Helper lemmas: the error of the cosine of the incidence angle of `potential_radiation`
-/

set_option linter.unusedSectionVars false

namespace Melodist
open Spec

noncomputable section

variable {F : TrigMath}

theorem rb_zero : roundBits 53 (0 : ℝ) = 0 := by
  have := R53.err 0
  rw [R53_fl, abs_zero, mul_zero, sub_zero] at this
  exact abs_eq_zero.1 (le_antisymm this (abs_nonneg _))

theorem rb_nonneg {x : ℝ} (h : 0 ≤ x) : 0 ≤ roundBits 53 x := by
  have := roundBits_mono (p := 53) (by norm_num) h
  rwa [rb_zero] at this

theorem rb_pos {x : ℝ} (h : 0 < x) : 0 < roundBits 53 x := by
  have := (abs_le.1 (R53.err x)).1
  rw [R53_fl, R53_u, abs_of_pos h] at this
  linarith

/-- the sine of the zenith angle -/
theorem sz_near (hF : DoubleTrig F) {c' : ℝ} (h0 : 0 ≤ c') (h1 : c' ≤ 1) :
    0 ≤ F.sin (F.arccos c') ∧ |F.sin (F.arccos c') - Real.sqrt (1 - c' ^ 2)| ≤ 2e-15 := by
  have ha := hF.arccos_err c' (by linarith) h1
  have h2 : Real.arccos c' ≤ Real.pi / 2 := Real.arccos_le_pi_div_two.2 h0
  have hpi := Real.pi_lt_d2
  have ha' := (abs_le.1 ha).2
  refine ⟨hF.sin_nonneg _ (hF.arccos_nonneg _ (by linarith) h1) (by norm_num at ha' hpi ⊢; linarith), ?_⟩
  rw [← Real.sin_arccos]
  have h3 := hF.sin_err (F.arccos c')
  have h4 := Real.abs_sin_sub_sin_le (F.arccos c') (Real.arccos c')
  have := abs_add_le (F.sin (F.arccos c') - Real.sin (F.arccos c')) (Real.sin (F.arccos c') - Real.sin (Real.arccos c'))
  rw [sub_add_sub_cancel] at this
  norm_num at *
  linarith

theorem sz_sq (hF : DoubleTrig F) {c' c : ℝ} (h0 : 0 ≤ c') (h1 : c' ≤ 1) (hc : Nr 3e-14 1 c' c) :
    |F.sin (F.arccos c') ^ 2 - (1 - c ^ 2)| ≤ 6.6e-14 := by
  obtain ⟨hs0, hs⟩ := sz_near hF h0 h1
  have hr0 : 0 ≤ Real.sqrt (1 - c' ^ 2) := Real.sqrt_nonneg _
  have hr1 : Real.sqrt (1 - c' ^ 2) ≤ 1 := Real.sqrt_le_one.2 (by nlinarith [sq_nonneg c'])
  have hn : Nr 2e-15 1 (F.sin (F.arccos c')) (Real.sqrt (1 - c' ^ 2)) := ⟨hs, by rw [abs_of_nonneg hr0]; exact hr1⟩
  have hsq := hn.sqr.1
  rw [Real.sq_sqrt (by nlinarith)] at hsq
  have hcc := hc.sqr.1
  have h5 : F.sin (F.arccos c') ^ 2 - (1 - c ^ 2) = (F.sin (F.arccos c') ^ 2 - (1 - c' ^ 2)) - (c' ^ 2 - c ^ 2) := by ring
  rw [h5]
  refine (abs_sub _ _).trans ?_
  norm_num at *
  linarith

theorem abs_sqrt_sub_sqrt {a b : ℝ} (ha : 0 ≤ a) (hb : 0 ≤ b) {e : ℝ} (he : 0 ≤ e) (h : |a - b| ≤ e ^ 2) : |Real.sqrt a - Real.sqrt b| ≤ e := by
  have key : ∀ {a b : ℝ}, 0 ≤ a → 0 ≤ b → a - b ≤ e ^ 2 → Real.sqrt a - Real.sqrt b ≤ e := by
    intro a b ha hb h
    have : Real.sqrt a ≤ Real.sqrt b + e := by
      apply Real.sqrt_le_iff.2
      have := Real.sqrt_nonneg b
      refine ⟨by linarith, ?_⟩
      have := Real.sq_sqrt hb
      nlinarith [mul_nonneg (Real.sqrt_nonneg b) he]
    linarith
  have h' := abs_le.1 h
  exact abs_le.2 ⟨by linarith [key hb ha (by linarith)], key ha hb h'.2⟩

/-- the rounded quotient: either outside [-1, 1], or the product with the divisor is the dividend up to rounding -/
theorem quot_near {num s : ℝ} (hs : 0 < s) (hn : |num| ≤ 1.01) : |s * roundBits 53 (num / s) - num| ≤ 1.3e-16 := by
  have h := R53.err (num / s)
  rw [R53_fl, R53_u, abs_div, abs_of_pos hs] at h
  have e : s * roundBits 53 (num / s) - num = s * (roundBits 53 (num / s) - num / s) := by
    rw [mul_sub, mul_div_cancel₀ _ hs.ne']
  rw [e, abs_mul, abs_of_pos hs]
  calc s * |roundBits 53 (num / s) - num / s| ≤ s * (1 / 9007199254740992 * (|num| / s)) := mul_le_mul_of_nonneg_left h hs.le
    _ = 1 / 9007199254740992 * |num| := by field_simp
    _ ≤ 1.3e-16 := by norm_num at *; linarith

/-- the component in the horizontal plane -/
theorem horizontal_near (hF : DoubleTrig F) {c' c num W az : ℝ} (h0 : 0 ≤ c') (h1 : c' ≤ 1) (hc : Nr 3e-14 1 c' c) (hw : Nr 2.2e-14 1 num W)
    (hu : c ^ 2 + W ^ 2 ≤ 1) (haz : |az| ≤ 7) (hs : 0 < F.sin (F.arccos c'))
    (q1 : -1 ≤ roundBits 53 (num / F.sin (F.arccos c'))) (q2 : roundBits 53 (num / F.sin (F.arccos c')) ≤ 1) :
    Nr 3.36e-7 1 (F.sin (F.arccos c') * F.cos (roundBits 53 (F.arcsin (roundBits 53 (num / F.sin (F.arccos c'))) - az)))
      (Real.sqrt (1 - c ^ 2 - W ^ 2) * Real.cos az + W * Real.sin az) := by
  have hnum : |num| ≤ 1.01 := hw.abs_le.trans (by norm_num)
  have hP := quot_near hs hnum
  have hsq := sz_sq hF h0 h1 hc
  have hsz := sz_near hF h0 h1
  have hs1 : F.sin (F.arccos c') ≤ 1.01 := by
    have hr1 : Real.sqrt (1 - c' ^ 2) ≤ 1 := Real.sqrt_le_one.2 (by nlinarith [sq_nonneg c'])
    have := (abs_le.1 hsz.2).2
    norm_num at this ⊢; linarith
  have has := hF.arcsin_err _ q1 q2
  generalize roundBits 53 (num / F.sin (F.arccos c')) = q at *
  generalize F.sin (F.arccos c') = s at *
  -- the cosine
  have hmu : Nr 1e-15 1.6 (F.arcsin q) (Real.arcsin q) := by
    refine ⟨has, ?_⟩
    have := Real.pi_lt_d2
    have a := Real.neg_pi_div_two_le_arcsin q
    have b := Real.arcsin_le_pi_div_two q
    exact abs_le.2 ⟨by norm_num at *; linarith, by norm_num at *; linarith⟩
  have hcos := (((hmu.sub (Nr.const haz)).fl (e' := 2.1e-15) (by norm_num)).cos hF).weaken (e' := 3.2e-15) (B' := 1) (by norm_num) (le_refl _)
  have hsN : Nr 0 1.01 s s := Nr.const (by rw [abs_of_pos hs]; exact hs1)
  have hA := ((hsN.mul hcos).weaken (e' := 3.3e-15) (B' := 1.01) (by norm_num) (by norm_num)).1
  -- the exact product
  have hq2 : q ^ 2 ≤ 1 := by nlinarith
  have hB : s * Real.cos (Real.arcsin q - az) = Real.sqrt (s ^ 2 - (s * q) ^ 2) * Real.cos az + s * q * Real.sin az := by
    rw [Real.cos_sub, Real.cos_arcsin, Real.sin_arcsin q1 q2]
    have : Real.sqrt (s ^ 2 - (s * q) ^ 2) = s * Real.sqrt (1 - q ^ 2) := by
      rw [show s ^ 2 - (s * q) ^ 2 = s ^ 2 * (1 - q ^ 2) by ring, Real.sqrt_mul (sq_nonneg s), Real.sqrt_sq hs.le]
    rw [this]; ring
  have hPW : Nr 2.22e-14 1 (s * q) W := by
    refine ⟨?_, hw.2⟩
    have := abs_add_le (s * q - num) (num - W)
    rw [sub_add_sub_cancel] at this
    have := hw.1
    norm_num at *; linarith
  have hP2 := hPW.sqr.1
  have hrad : |s ^ 2 - (s * q) ^ 2 - (1 - c ^ 2 - W ^ 2)| ≤ (3.35e-7) ^ 2 := by
    have e : s ^ 2 - (s * q) ^ 2 - (1 - c ^ 2 - W ^ 2) = (s ^ 2 - (1 - c ^ 2)) - ((s * q) ^ 2 - W ^ 2) := by ring
    rw [e]
    refine (abs_sub _ _).trans ?_
    norm_num at *; linarith
  have hroot := abs_sqrt_sub_sqrt (by nlinarith [sq_nonneg s]) (by linarith) (by norm_num) hrad
  have hca := Real.abs_cos_le_one az
  have hsa := Real.abs_sin_le_one az
  have hC : |s * Real.cos (Real.arcsin q - az) - (Real.sqrt (1 - c ^ 2 - W ^ 2) * Real.cos az + W * Real.sin az)| ≤ 3.3501e-7 := by
    rw [hB]
    have e : Real.sqrt (s ^ 2 - (s * q) ^ 2) * Real.cos az + s * q * Real.sin az - (Real.sqrt (1 - c ^ 2 - W ^ 2) * Real.cos az + W * Real.sin az) =
        (Real.sqrt (s ^ 2 - (s * q) ^ 2) - Real.sqrt (1 - c ^ 2 - W ^ 2)) * Real.cos az + (s * q - W) * Real.sin az := by ring
    rw [e]
    refine (abs_add_le _ _).trans ?_
    rw [abs_mul, abs_mul]
    have a1 : |Real.sqrt (s ^ 2 - (s * q) ^ 2) - Real.sqrt (1 - c ^ 2 - W ^ 2)| * |Real.cos az| ≤ 3.35e-7 * 1 :=
      mul_le_mul hroot hca (abs_nonneg _) (by norm_num)
    have a2 : |s * q - W| * |Real.sin az| ≤ 2.22e-14 * 1 := mul_le_mul hPW.1 hsa (abs_nonneg _) (by norm_num)
    norm_num at *; linarith
  refine ⟨?_, ?_⟩
  · have := abs_add_le (s * F.cos (roundBits 53 (F.arcsin q - az)) - s * Real.cos (Real.arcsin q - az))
      (s * Real.cos (Real.arcsin q - az) - (Real.sqrt (1 - c ^ 2 - W ^ 2) * Real.cos az + W * Real.sin az))
    rw [sub_add_sub_cancel] at this
    norm_num at *; linarith
  · have hS := Real.sq_sqrt (show 0 ≤ 1 - c ^ 2 - W ^ 2 by linarith)
    generalize Real.sqrt (1 - c ^ 2 - W ^ 2) = S at *
    have := Real.sin_sq_add_cos_sq az
    apply abs_le_of_sq_le_sq' _ zero_le_one |> abs_le.2
    nlinarith [sq_nonneg (S * Real.sin az - W * Real.cos az), sq_nonneg c]

/-- the cosine of the incidence angle -/
theorem incidence_near (hF : DoubleTrig F) {c' c s m T slope : ℝ} (hc : Nr 3e-14 1 c' c) (hs : |s| ≤ 1.01) (hm : |m| ≤ 1.01) (hT : Nr 3.36e-7 1 (s * m) T)
    (hu : c ^ 2 + T ^ 2 ≤ 1) :
    Nr 3.37e-7 1 (roundBits 53 (roundBits 53 (F.cos slope * c') + roundBits 53 (roundBits 53 (F.sin slope * s) * m)))
      (Real.cos slope * c + Real.sin slope * T) := by
  have hcs : Nr 1e-15 1 (F.cos slope) (Real.cos slope) := ⟨hF.cos_err _, Real.abs_cos_le_one _⟩
  have hss : Nr 1e-15 1 (F.sin slope) (Real.sin slope) := ⟨hF.sin_err _, Real.abs_sin_le_one _⟩
  have a := ((hcs.mul hc).weaken (e' := 3.2e-14) (B' := 1) (by norm_num) (by norm_num)).fl (e' := 3.3e-14) (by norm_num)
  have b1 := (Nr.const (x := F.sin slope * s) (B := 1.1) (by
    rw [abs_mul]
    have := hss.abs_le
    calc _ ≤ (1 + 1e-15) * 1.01 := mul_le_mul this hs (abs_nonneg _) (by norm_num)
      _ ≤ 1.1 := by norm_num)).fl (e' := 1.4e-16) (by norm_num)
  have b2 : Nr 3.3601e-7 1 (roundBits 53 (F.sin slope * s) * m) (Real.sin slope * T) := by
    have d := hss.mul hT
    refine ⟨?_, d.2.trans (by norm_num)⟩
    have e : roundBits 53 (F.sin slope * s) * m - Real.sin slope * T = (roundBits 53 (F.sin slope * s) - F.sin slope * s) * m +
        (F.sin slope * (s * m) - Real.sin slope * T) := by ring
    rw [e]
    refine (abs_add_le _ _).trans ?_
    rw [abs_mul]
    have x1 : |roundBits 53 (F.sin slope * s) - F.sin slope * s| * |m| ≤ 1.4e-16 * 1.01 := mul_le_mul b1.1 hm (abs_nonneg _) (by norm_num)
    have x2 := d.1
    norm_num at *; linarith
  have b3 := b2.fl (e' := 3.361e-7) (by norm_num)
  have hsize : |Real.cos slope * c + Real.sin slope * T| ≤ 1 := by
    have := Real.sin_sq_add_cos_sq slope
    apply abs_le_of_sq_le_sq' _ zero_le_one |> abs_le.2
    nlinarith [sq_nonneg (Real.cos slope * T - Real.sin slope * c)]
  exact (((a.add b3).size hsize).weaken (e' := 3.362e-7) (by norm_num) (le_refl _)).fl (by norm_num)

end

end Melodist
