import Verif.Lemmas.RegressionRound
import Verif.Props.HumidityStats

/-!
# C152: the dew point regression in floating-point arithmetic
-/

set_option linter.unusedSectionVars false

namespace Melodist
open Spec

namespace Spec

/-- the mean of a list of numbers -/
noncomputable def avg (l : List ℝ) : ℝ := l.sum / l.length

/-- the variance of the first coordinates of points -/
noncomputable def varX (pts : List (ℝ × ℝ)) : ℝ := avg (pts.map fun p => (p.1 - avg (pts.map Prod.fst)) ^ 2)

/-- `sum` adds numbers in rounded arithmetic, in some order -/
def AddsAll (fl : ℝ → ℝ) (sum : List ℝ → ℝ) : Prop := ∀ l, l ≠ [] → AddsTo fl l (sum l)

end Spec

noncomputable section

theorem slope_bound {cov cov' v v' a X Y E : ℝ} (hE0 : 0 ≤ E) (hE1 : E ≤ 1) (hu : 1 / 2 ^ 53 ≤ E / 16) (hX : 0 ≤ X) (hY : 0 ≤ Y) (hv : 0 < v) (hv4 : v ≤ 4 * X ^ 2) (hcov : cov = a * v)
    (h1 : |cov' - cov| ≤ E * (4 * (X * Y))) (h2 : |v' - v| ≤ E * (4 * (X * X))) (hc : 8 * E * X ^ 2 ≤ v) :
    0 < v' ∧ |roundBits 53 (cov' / v') - a| ≤ 9 * E * (X * Y + |a| * X ^ 2) / v := by
  have hv' : v / 2 ≤ v' := by
    have := (abs_le.1 h2).1
    have : E * (4 * (X * X)) ≤ v / 2 := by linarith [show E * (4 * (X * X)) = (8 * E * X ^ 2) / 2 by ring]
    linarith
  have hv'0 : 0 < v' := by linarith
  refine ⟨hv'0, ?_⟩
  set M := X * Y + |a| * X ^ 2 with hM
  have hM0 : 0 ≤ M := by positivity
  have hq : |cov' / v' - a| ≤ 8 * E * M / v := by
    have e : cov' / v' - a = ((cov' - cov) - a * (v' - v)) / v' := by
      rw [hcov]
      field_simp
      ring
    rw [e, abs_div, abs_of_pos hv'0]
    have n1 : |cov' - cov - a * (v' - v)| ≤ 4 * E * M := by
      have a1 := abs_sub (cov' - cov) (a * (v' - v))
      rw [abs_mul a] at a1
      have a2 := mul_le_mul_of_nonneg_left h2 (abs_nonneg a)
      have : 4 * E * M = E * (4 * (X * Y)) + |a| * (E * (4 * (X * X))) := by rw [hM]; ring
      linarith
    calc |cov' - cov - a * (v' - v)| / v' ≤ 4 * E * M / (v / 2) := div_le_div₀ (by positivity) n1 (by linarith) hv'
      _ = _ := by field_simp; ring
  have hr : |roundBits 53 (cov' / v') - cov' / v'| ≤ 1 / 2 ^ 53 * |cov' / v'| := by
    have := R53.err (cov' / v')
    rw [R53_fl, R53_u] at this
    norm_num at this ⊢
    exact this
  have hqa : |cov' / v'| ≤ |a| + 8 * E * M / v := by
    have := abs_add_le (cov' / v' - a) a
    rw [sub_add_cancel] at this
    linarith
  have ha : |a| ≤ 4 * M / v := by
    rw [le_div_iff₀ hv]
    have := mul_le_mul_of_nonneg_left hv4 (abs_nonneg a)
    have h0 : 0 ≤ X * Y := mul_nonneg hX hY
    rw [hM]
    linarith [show |a| * (4 * X ^ 2) = 4 * (|a| * X ^ 2) by ring]
  have hMv : 0 ≤ M / v := div_nonneg hM0 hv.le
  have e8 : 8 * E * M / v = 8 * E * (M / v) := by ring
  have e9 : 9 * E * M / v = 9 * E * (M / v) := by ring
  have e4 : 4 * M / v = 4 * (M / v) := by ring
  rw [e8] at hq hqa
  rw [e4] at ha
  rw [e9]
  have hq2 : |cov' / v'| ≤ 12 * (M / v) := by
    have := mul_le_mul_of_nonneg_right hE1 hMv
    linarith
  have h3 := mul_le_mul hu hq2 (abs_nonneg _) (by linarith)
  have h4 := abs_add_le (roundBits 53 (cov' / v') - cov' / v') (cov' / v' - a)
  rw [sub_add_sub_cancel] at h4
  have h5 : E / 16 * (12 * (M / v)) = 0.75 * (E * (M / v)) := by ring
  have h6 : 0 ≤ E * (M / v) := mul_nonneg hE0 hMv
  linarith

theorem intercept_bound {a a' mx mx' my my' X Y E D : ℝ} (hE0 : 0 ≤ E) (hE1 : E ≤ 1) (hu : 1 / 2 ^ 53 ≤ E / 16) (hX : 0 ≤ X) (hY : 0 ≤ Y) (ha : |a' - a| ≤ D)
    (hmx : |mx' - mx| ≤ E * X) (hmxX : |mx| ≤ X) (hmy : |my' - my| ≤ E * Y) (hmyY : |my| ≤ Y) :
    |roundBits 53 (my' - roundBits 53 (a' * mx')) - (my - a * mx)| ≤ 2 * E * (Y + |a| * X) + 3 * X * D := by
  have hD : 0 ≤ D := (abs_nonneg _).trans ha
  have hEX : E * X ≤ X := by simpa using mul_le_mul_of_nonneg_right hE1 hX
  have hEY : E * Y ≤ Y := by simpa using mul_le_mul_of_nonneg_right hE1 hY
  have r : ∀ x : ℝ, |roundBits 53 x - x| ≤ E / 16 * |x| := by
    intro x
    have h1 : |roundBits 53 x - x| ≤ 1 / 2 ^ 53 * |x| := by
      have := R53.err x
      rw [R53_fl, R53_u] at this
      norm_num at this ⊢
      exact this
    exact h1.trans (mul_le_mul_of_nonneg_right hu (abs_nonneg _))
  have bx : |mx'| ≤ 2 * X := by
    have := abs_add_le (mx' - mx) mx
    rw [sub_add_cancel] at this
    linarith
  have by' : |my'| ≤ 2 * Y := by
    have := abs_add_le (my' - my) my
    rw [sub_add_cancel] at this
    linarith
  have ba : |a'| ≤ |a| + D := by
    have := abs_add_le (a' - a) a
    rw [sub_add_cancel] at this
    linarith
  set p := a' * mx' with hp
  have pb : |p| ≤ (|a| + D) * (2 * X) := by
    rw [hp, abs_mul]
    exact mul_le_mul ba bx (abs_nonneg _) (by positivity)
  have pd : |p - a * mx| ≤ D * (2 * X) + |a| * (E * X) := by
    have e : p - a * mx = (a' - a) * mx' + a * (mx' - mx) := by rw [hp]; ring
    rw [e]
    refine (abs_add_le _ _).trans ?_
    rw [abs_mul, abs_mul]
    exact add_le_add (mul_le_mul ha bx (abs_nonneg _) hD) (mul_le_mul_of_nonneg_left hmx (abs_nonneg _))
  have rp := (r p).trans (mul_le_mul_of_nonneg_left pb (by positivity))
  set P := roundBits 53 p with hP
  have Pb : |P| ≤ 2 * ((|a| + D) * (2 * X)) := by
    have := abs_add_le (P - p) p
    rw [sub_add_cancel] at this
    have h0 : 0 ≤ (|a| + D) * (2 * X) := by positivity
    have := mul_le_mul_of_nonneg_right hE1 h0
    linarith
  have zb : |my' - P| ≤ 2 * Y + 2 * ((|a| + D) * (2 * X)) := (abs_sub _ _).trans (add_le_add by' Pb)
  have rz := (r (my' - P)).trans (mul_le_mul_of_nonneg_left zb (by positivity))
  have t1 : roundBits 53 (my' - P) - (my - a * mx) = (roundBits 53 (my' - P) - (my' - P)) + ((my' - my) - ((P - p) + (p - a * mx))) := by ring
  rw [t1]
  refine (abs_add_le _ _).trans ?_
  have t2 := abs_sub (my' - my) ((P - p) + (p - a * mx))
  have t3 := abs_add_le (P - p) (p - a * mx)
  have k1 : 0 ≤ E * Y := mul_nonneg hE0 hY
  have k2 : 0 ≤ E * (|a| * X) := by positivity
  have k3 : E * (D * X) ≤ D * X := by
    have := mul_le_mul_of_nonneg_right hE1 (mul_nonneg hD hX)
    linarith
  have k4 : 0 ≤ D * X := mul_nonneg hD hX
  have g1 : E / 16 * ((|a| + D) * (2 * X)) = (E * (|a| * X) + E * (D * X)) / 8 := by ring
  have g2 : E / 16 * (2 * Y + 2 * ((|a| + D) * (2 * X))) = E * Y / 8 + (E * (|a| * X) + E * (D * X)) / 4 := by ring
  have g3 : |a| * (E * X) = E * (|a| * X) := by ring
  have g4 : 2 * E * (Y + |a| * X) + 3 * X * D = 2 * (E * Y) + 2 * (E * (|a| * X)) + 3 * (D * X) := by ring
  rw [g1] at rp
  rw [g2] at rz
  rw [g3] at pd
  rw [g4]
  linarith

theorem map_mul_self (l : List (ℝ × ℝ)) (m : ℝ) : (l.map fun p => (p.1 - m) * (p.1 - m)) = l.map fun p => (p.1 - m) ^ 2 := List.map_congr_left fun p _ => by ring

/-- the regression line in closed form -/
theorem linregress_explicit {pts : List (ℝ × ℝ)} (hv : 0 < varX pts) :
    pts ≠ [] ∧ ¬ (1 < pts.length ∧ ∀ p ∈ pts, ∀ q ∈ pts, p.1 = q.1) ∧
    (pts.map fun p => (p.1 - avg (pts.map Prod.fst)) * (p.1 - avg (pts.map Prod.fst))).sum = pts.length * varX pts ∧
    linregress pts = .ok (
      .fin ((pts.map fun p => (p.1 - avg (pts.map Prod.fst)) * (p.2 - avg (pts.map Prod.snd))).sum / (pts.length * varX pts)),
      .fin (avg (pts.map Prod.snd) - (pts.map fun p => (p.1 - avg (pts.map Prod.fst)) * (p.2 - avg (pts.map Prod.snd))).sum / (pts.length * varX pts) * avg (pts.map Prod.fst))) := by
  have hne : pts ≠ [] := by
    rintro rfl
    simp [varX, avg] at hv
  have hpos' : (0 : ℝ) < pts.length := by exact_mod_cast List.length_pos_of_ne_nil hne
  obtain ⟨p0, hp0⟩ := List.exists_mem_of_ne_nil _ hne
  have ev : (pts.map fun p => (p.1 - avg (pts.map Prod.fst)) * (p.1 - avg (pts.map Prod.fst))).sum = pts.length * varX pts := by
    rw [map_mul_self]
    conv_rhs => unfold varX
    conv_rhs => rw [avg]
    rw [List.length_map]
    exact (mul_div_cancel₀ _ hpos'.ne').symm
  have hS : 0 < pts.length * varX pts := mul_pos hpos' hv
  have hcond : ¬ (1 < pts.length ∧ ∀ p ∈ pts, ∀ q ∈ pts, p.1 = q.1) := by
    rintro ⟨-, hall⟩
    have hm : avg (pts.map Prod.fst) = p0.1 := by
      have : pts.map Prod.fst = pts.map fun _ => p0.1 := List.map_congr_left fun p hp => hall p hp p0 hp0
      rw [this]
      unfold avg
      rw [List.map_const', List.sum_replicate, nsmul_eq_mul, List.length_replicate]
      exact mul_div_cancel_left₀ _ hpos'.ne'
    rw [← ev] at hS
    refine hS.ne' (List.sum_eq_zero fun x hx => ?_)
    obtain ⟨p, hp, rfl⟩ := List.mem_map.1 hx
    rw [hm, hall p hp p0 hp0]
    ring
  refine ⟨hne, hcond, ev, ?_⟩
  have e1 : (pts.map Prod.fst).sum / (pts.length : ℝ) = avg (pts.map Prod.fst) := by unfold avg; rw [List.length_map]
  have e2 : (pts.map Prod.snd).sum / (pts.length : ℝ) = avg (pts.map Prod.snd) := by unfold avg; rw [List.length_map]
  unfold linregress
  dsimp only
  rw [if_neg hne, if_neg hcond, e1, e2, ev, XF.fin_div_fin_of_ne _ hS.ne']
  rfl

/-- **C152** (regression).  `linregress` in double precision on `n ≤ 300000` points with |x| ≤ X and |y| ≤ Y, with sums in any order: if the x values vary enough (their variance `v` is at least 8 E X², where
E = (3 n + 16) 2⁻⁵³), the slope is off by at most D = 9 E (X Y + |a1| X²) / v and the intercept by at most 2 E (Y + |a1| X) + 3 X D. -/
theorem C152_regression {sum : List ℝ → ℝ} (hsum : AddsAll (roundBits 53) sum) (pts : List (ℝ × ℝ)) (hn : pts.length ≤ 300000) {X Y : ℝ} (hX : ∀ p ∈ pts, |p.1| ≤ X) (hY : ∀ p ∈ pts, |p.2| ≤ Y)
    (hv : 0 < varX pts) (hc : 8 * ((3 * pts.length + 16) / 2 ^ 53) * X ^ 2 ≤ varX pts) :
    ∃ a1 a0 a1' a0', linregress pts = .ok (.fin a1, .fin a0) ∧ linregressR (roundBits 53) sum pts = .ok (.fin a1', .fin a0') ∧
      |a1' - a1| ≤ 9 * ((3 * pts.length + 16) / 2 ^ 53) * (X * Y + |a1| * X ^ 2) / varX pts ∧
      |a0' - a0| ≤ 2 * ((3 * pts.length + 16) / 2 ^ 53) * (Y + |a1| * X) + 3 * X * (9 * ((3 * pts.length + 16) / 2 ^ 53) * (X * Y + |a1| * X ^ 2) / varX pts) := by
  have hne : pts ≠ [] := by
    rintro rfl
    simp [varX, avg] at hv
  have hpos : 0 < pts.length := List.length_pos_of_ne_nil hne
  have hpos' : (0 : ℝ) < pts.length := by exact_mod_cast hpos
  obtain ⟨p0, hp0⟩ := List.exists_mem_of_ne_nil _ hne
  have hX0 : 0 ≤ X := (abs_nonneg _).trans (hX p0 hp0)
  have hY0 : 0 ≤ Y := (abs_nonneg _).trans (hY p0 hp0)
  set n := pts.length with hnn
  set E : ℝ := (3 * n + 16) / 2 ^ 53 with hE
  have hn' : (n : ℝ) ≤ 300000 := by exact_mod_cast hn
  have hE0 : 0 ≤ E := by positivity
  have hE1 : E ≤ 1 := by
    rw [hE, div_le_one (by positivity)]
    norm_num
    linarith
  have hu : 1 / 2 ^ 53 ≤ E / 16 := by
    rw [hE, div_div, div_le_div_iff₀ (by positivity) (by positivity)]
    nlinarith
  have pow : (1 + R53.u) ^ (3 * n + 4) - 1 ≤ E := by
    refine (u_pow_million (by omega)).trans ?_
    rw [hE]
    refine div_le_div_of_nonneg_right ?_ (by positivity)
    push_cast
    linarith
  have pown : (1 + R53.u) ^ n - 1 ≤ E := by
    refine (u_pow_million (by omega)).trans ?_
    rw [hE]
    refine div_le_div_of_nonneg_right ?_ (by positivity)
    linarith
  have mx := acc_mean (R := R53) (l := pts.map Prod.fst) (B := X) (by simpa using hne) (by
    intro x hx
    obtain ⟨p, hp, rfl⟩ := List.mem_map.1 hx
    exact hX p hp) (hsum _ (by simpa using hne))
  have my := acc_mean (R := R53) (l := pts.map Prod.snd) (B := Y) (by simpa using hne) (by
    intro x hx
    obtain ⟨p, hp, rfl⟩ := List.mem_map.1 hx
    exact hY p hp) (hsum _ (by simpa using hne))
  rw [List.length_map, ← hnn] at mx my
  have cx := acc_cov (R := R53) hne hX hX mx mx (hsum _ (by simpa using hne))
  have cxy := acc_cov (R := R53) hne hX hY mx my (hsum _ (by simpa using hne))
  rw [← hnn] at cx cxy
  rw [R53_fl] at mx my cx cxy
  set MX := (pts.map Prod.fst).sum / (n : ℝ) with hMX
  set MY := (pts.map Prod.snd).sum / (n : ℝ) with hMY
  set MX' := roundBits 53 (sum (pts.map Prod.fst) / (n : ℝ)) with hMX'
  set MY' := roundBits 53 (sum (pts.map Prod.snd) / (n : ℝ)) with hMY'
  have ev : varX pts = (pts.map fun p => (p.1 - MX) * (p.1 - MX)).sum / n := by
    rw [map_mul_self]
    unfold varX avg
    rw [List.length_map, List.length_map, ← hnn]
  set S := (pts.map fun p => (p.1 - MX) * (p.1 - MX)).sum with hS
  set T := (pts.map fun p => (p.1 - MX) * (p.2 - MY)).sum with hT
  have hSpos : 0 < S := by
    rw [ev] at hv
    exact (div_pos_iff_of_pos_right hpos').1 hv
  have hcond := (linregress_explicit hv).2.1
  have k1 : linregress pts = .ok (.fin (T / S), .fin (MY - T / S * MX)) := by
    unfold linregress
    dsimp only
    rw [if_neg hne, if_neg hcond, ← hnn, ← hMX, ← hMY, ← hS, ← hT, XF.fin_div_fin_of_ne _ hSpos.ne']
    rfl
  set S' := roundBits 53 (sum (pts.map fun p => roundBits 53 (roundBits 53 (p.1 - MX') * roundBits 53 (p.1 - MX'))) * roundBits 53 (1 / (n : ℝ))) with hS'
  set T' := roundBits 53 (sum (pts.map fun p => roundBits 53 (roundBits 53 (p.1 - MX') * roundBits 53 (p.2 - MY'))) * roundBits 53 (1 / (n : ℝ))) with hT'
  have b4 : varX pts ≤ 4 * X ^ 2 := by
    have := (le_abs_self _).trans cx.2
    rw [ev]
    linarith [show 4 * (X * X) = 4 * X ^ 2 by ring]
  obtain ⟨hv', hslope⟩ := slope_bound (cov := T / n) (cov' := T') (v := varX pts) (v' := S') (a := T / S) hE0 hE1 hu hX0 hY0 hv b4 (by rw [ev]; field_simp)
    (cxy.1.trans (mul_le_mul_of_nonneg_right pow (by positivity))) (by rw [ev]; exact cx.1.trans (mul_le_mul_of_nonneg_right pow (by positivity))) hc
  have hint := intercept_bound hE0 hE1 hu hX0 hY0 hslope (mx.1.trans (mul_le_mul_of_nonneg_right pown hX0)) mx.2 (my.1.trans (mul_le_mul_of_nonneg_right pown hY0)) my.2
  refine ⟨_, _, _, _, k1, ?_, hslope, hint⟩
  unfold linregressR
  dsimp only
  rw [if_neg hne, if_neg hcond, ← hnn, ← hMX', ← hMY', ← hS', ← hT', XF.fin_div_fin_of_ne _ hv'.ne']
  rfl

theorem abs_sum_mul_le {α : Type} {η : ℝ} {f g : α → ℝ} : ∀ (l : List α), (∀ p ∈ l, |g p| ≤ η) → |(l.map fun p => f p * g p).sum| ≤ η * (l.map fun p => |f p|).sum
  | [], _ => by simp
  | p :: l, h => by
    simp only [List.map_cons, List.sum_cons]
    have h1 := abs_sum_mul_le (f := f) l fun q hq => h q (by simp [hq])
    have h2 := mul_le_mul_of_nonneg_left (h p (by simp)) (abs_nonneg (f p))
    have h3 := abs_add_le (f p * g p) (l.map fun p => f p * g p).sum
    rw [abs_mul] at h3
    rw [mul_add]
    linarith [mul_comm |f p| η]

theorem sum_abs_le {α : Type} {c : ℝ} (hc : 0 < c) (f : α → ℝ) : ∀ l : List α, (l.map fun p => |f p|).sum ≤ ((l.map fun p => f p * f p).sum / c + l.length * c) / 2
  | [] => by simp
  | p :: l => by
    simp only [List.map_cons, List.sum_cons, List.length_cons]
    have h1 := sum_abs_le hc f l
    have h2 : |f p| ≤ (f p * f p / c + c) / 2 := by
      rw [le_div_iff₀ (by norm_num), ← sub_nonneg]
      have : f p * f p / c + c - |f p| * 2 = (|f p| - c) ^ 2 / c := by
        field_simp
        rw [← sq_abs (f p)]
        ring
      rw [this]
      positivity
    push_cast
    have e : (f p * f p + (l.map fun p => f p * f p).sum) / c = f p * f p / c + (l.map fun p => f p * f p).sum / c := add_div _ _ _
    rw [e]
    linarith

theorem sum_map_sub_add {α : Type} (f g h : α → ℝ) (c : ℝ) : ∀ l : List α, (l.map fun p => f p * (g p - h p)).sum + c * (l.map f).sum = (l.map fun p => f p * (g p - h p + c)).sum
  | [] => by simp
  | p :: l => by
    simp only [List.map_cons, List.sum_cons]
    have := sum_map_sub_add f g h c l
    linarith

theorem sum_dev_zero {α : Type} (l : List α) (x : α → ℝ) (hl : l ≠ []) : (l.map fun p => x p - avg (l.map x)).sum = 0 := by
  have hpos : (0 : ℝ) < l.length := by exact_mod_cast List.length_pos_of_ne_nil hl
  have key : ∀ (m : ℝ) (l : List α), (l.map fun p => x p - m).sum = (l.map x).sum - l.length * m := by
    intro m l
    induction l with
    | nil => simp
    | cons p l ih =>
      simp only [List.map_cons, List.sum_cons, List.length_cons, ih]
      push_cast
      ring
  rw [key]
  unfold avg
  rw [List.length_map]
  field_simp
  ring

/-- **C152** (errors of the dew points).  If the y values of the points are changed by at most η, the slope changes by at most η / √v and the intercept by at most η (1 + X / √v), where `v` is the variance of
the x values and |x| ≤ X. -/
theorem C152_perturbed {α : Type} (l : List α) (x y y' : α → ℝ) {η X : ℝ} (hη : ∀ p ∈ l, |y' p - y p| ≤ η) (hX : ∀ p ∈ l, |x p| ≤ X) (hv : 0 < varX (l.map fun p => (x p, y p))) :
    ∃ a1 a0 b1 b0, linregress (l.map fun p => (x p, y p)) = .ok (.fin a1, .fin a0) ∧ linregress (l.map fun p => (x p, y' p)) = .ok (.fin b1, .fin b0) ∧
      |b1 - a1| ≤ η / √(varX (l.map fun p => (x p, y p))) ∧ |b0 - a0| ≤ η * (1 + X / √(varX (l.map fun p => (x p, y p)))) := by
  have f1 : ∀ z : α → ℝ, (l.map fun p => (x p, z p)).map Prod.fst = l.map x := fun z => by rw [List.map_map]; rfl
  have f2 : ∀ z : α → ℝ, (l.map fun p => (x p, z p)).map Prod.snd = l.map z := fun z => by rw [List.map_map]; rfl
  have vv : varX (l.map fun p => (x p, y' p)) = varX (l.map fun p => (x p, y p)) := by
    unfold varX
    rw [f1, f1, List.map_map, List.map_map]
    rfl
  obtain ⟨hne, -, ev, e1⟩ := linregress_explicit hv
  obtain ⟨-, -, -, e2⟩ := linregress_explicit (pts := l.map fun p => (x p, y' p)) (by rw [vv]; exact hv)
  have hl : l ≠ [] := by rintro rfl; exact hne rfl
  rw [vv] at e2
  simp only [f1, f2, List.map_map, Function.comp_def, List.length_map] at ev e1 e2
  set v := varX (l.map fun p => (x p, y p)) with hvv
  have hpos : (0 : ℝ) < l.length := by exact_mod_cast List.length_pos_of_ne_nil hl
  set mx := avg (l.map x) with hmx
  set my := avg (l.map y) with hmy
  set my' := avg (l.map y') with hmy'
  have hc : 0 < √v := Real.sqrt_pos.2 hv
  have hc2 : √v * √v = v := Real.mul_self_sqrt hv.le
  have dz := sum_dev_zero l x hl
  rw [← hmx] at dz
  have dT : (l.map fun p => (x p - mx) * (y' p - my')).sum - (l.map fun p => (x p - mx) * (y p - my)).sum = (l.map fun p => (x p - mx) * (y' p - y p)).sum := by
    have a1 := sum_map_sub_add (fun p => x p - mx) y' (fun _ => 0) (-my') l
    have a2 := sum_map_sub_add (fun p => x p - mx) y (fun _ => 0) (-my) l
    rw [dz, mul_zero, add_zero] at a1 a2
    simp only [sub_zero, ← sub_eq_add_neg] at a1 a2
    rw [← a1, ← a2]
    clear a1 a2 dz
    have key : ∀ (m : ℝ) (l : List α), (l.map fun p => (x p - m) * y' p).sum - (l.map fun p => (x p - m) * y p).sum = (l.map fun p => (x p - m) * (y' p - y p)).sum := by
      intro m l
      induction l with
      | nil => simp
      | cons p l ih =>
        simp only [List.map_cons, List.sum_cons, ← ih]
        ring
    exact key mx l
  have hη0 : 0 ≤ η := by
    obtain ⟨p, hp⟩ := List.exists_mem_of_ne_nil _ hl
    exact (abs_nonneg _).trans (hη p hp)
  have hT : |(l.map fun p => (x p - mx) * (y' p - y p)).sum| ≤ η * (l.length * √v) := by
    refine (abs_sum_mul_le l hη).trans (mul_le_mul_of_nonneg_left ((sum_abs_le hc (fun p => x p - mx) l).trans (le_of_eq ?_)) hη0)
    rw [ev]
    field_simp
    linarith [hc2, sq √v]
  have hS : 0 < l.length * v := mul_pos hpos hv
  have b1 : |(l.map fun p => (x p - mx) * (y' p - my')).sum / (l.length * v) - (l.map fun p => (x p - mx) * (y p - my)).sum / (l.length * v)| ≤ η / √v := by
    rw [← sub_div, dT, abs_div, abs_of_pos hS, div_le_div_iff₀ hS hc]
    calc _ ≤ η * (l.length * √v) * √v := mul_le_mul_of_nonneg_right hT hc.le
      _ = η * (l.length * v) := by rw [mul_assoc, mul_assoc, hc2]
  refine ⟨_, _, _, _, e1, e2, b1, ?_⟩
  have hm : |my' - my| ≤ η := by
    rw [hmy, hmy']
    unfold avg
    rw [List.length_map, List.length_map, ← sub_div, abs_div, abs_of_pos hpos, div_le_iff₀ hpos]
    have : ∀ l : List α, (∀ p ∈ l, |y' p - y p| ≤ η) → |(l.map y').sum - (l.map y).sum| ≤ η * l.length := by
      intro l h
      induction l with
      | nil => simp
      | cons p l ih =>
        simp only [List.map_cons, List.sum_cons, List.length_cons]
        have h1 := ih fun q hq => h q (by simp [hq])
        have h2 := h p (by simp)
        rw [abs_le] at *
        push_cast
        constructor <;> linarith [h1.1, h1.2, h2.1, h2.2]
    exact this l hη
  have hmX : |mx| ≤ X := by
    rw [hmx]
    unfold avg
    rw [List.length_map, abs_div, abs_of_pos hpos, div_le_iff₀ hpos]
    have : ∀ l : List α, (∀ p ∈ l, |x p| ≤ X) → |(l.map x).sum| ≤ X * l.length := by
      intro l h
      induction l with
      | nil => simp
      | cons p l ih =>
        simp only [List.map_cons, List.sum_cons, List.length_cons]
        have h1 := ih fun q hq => h q (by simp [hq])
        have h2 := h p (by simp)
        rw [abs_le] at *
        push_cast
        constructor <;> linarith [h1.1, h1.2, h2.1, h2.2]
    exact this l hX
  generalize (l.map fun p => (x p - mx) * (y' p - my')).sum / (l.length * v) = s' at b1 ⊢
  generalize (l.map fun p => (x p - mx) * (y p - my)).sum / (l.length * v) = s at b1 ⊢
  have e : my' - s' * mx - (my - s * mx) = (my' - my) - (s' - s) * mx := by ring
  have h3 := abs_sub (my' - my) ((s' - s) * mx)
  have h4 : |(s' - s) * mx| ≤ η / √v * X := by
    rw [abs_mul]
    exact mul_le_mul b1 hmX (abs_nonneg _) (div_nonneg hη0 hc.le)
  rw [e]
  have h5 : η * (1 + X / √v) = η + η / √v * X := by ring
  rw [h5]
  linarith

end

end Melodist
