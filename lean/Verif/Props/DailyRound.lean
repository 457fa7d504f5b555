import Verif.Lemmas.DailyRound
import Verif.Spec.DailyRound
import Verif.Props.DailyB
import Verif.Props.PackageTestsC
import Verif.Lemmas.SunNearB

/-!
# C149: daily values of an hourly record in floating-point arithmetic
-/

set_option linter.unusedSectionVars false

namespace Melodist
open Spec

noncomputable section

/-! ## sums -/

theorem absSum_nonneg (l : List ℝ) : 0 ≤ absSum l := List.sum_nonneg (by
  intro z hz
  obtain ⟨_, _, rfl⟩ := List.mem_map.1 hz
  exact abs_nonneg _)

theorem sum_le_absSum (l : List ℝ) : |l.sum| ≤ absSum l := by
  unfold absSum
  induction l with
  | nil => simp
  | cons x l ih =>
    simp only [List.sum_cons, List.map_cons]
    exact (abs_add_le _ _).trans (by linarith)

theorem seqSum_acc : ∀ (l : List ℝ) (k : Nat) (s S A : ℝ), Acc R53 k s S A →
    Acc R53 (k + l.length) (l.foldl (fun s x => R53.fl (s + x)) s) (S + l.sum) (A + absSum l)
  | [], k, s, S, A, h => by simpa [absSum] using h
  | x :: l, k, s, S, A, h => by
    have h1 := (h.add ((Acc.self R53 x).mono (Nat.zero_le k) (le_refl _))).round
    have := seqSum_acc l (k + 1) _ _ _ h1
    rw [show k + (x :: l).length = k + 1 + l.length by simp; omega]
    simpa [absSum, add_assoc] using this

theorem u_pow_million {N : Nat} (hN : N ≤ 1000000) : (1 + R53.u) ^ N - 1 ≤ ((N : ℝ) + 7) / 2 ^ 53 := by
  have hu : R53.u = 1 / 2 ^ 53 := by rw [R53_u]; norm_num
  have hu0 := R53.u_nonneg
  have hN' : (N : ℝ) ≤ 1000000 := by exact_mod_cast hN
  have hN0 : (0 : ℝ) ≤ N := Nat.cast_nonneg N
  have h1 : (1 + R53.u) ^ N ≤ Real.exp ((N : ℝ) * R53.u) := by
    rw [Real.exp_nat_mul]
    exact pow_le_pow_left₀ (by linarith) (by have := Real.add_one_le_exp R53.u; linarith) N
  have hx0 : 0 ≤ (N : ℝ) * R53.u := by positivity
  have hx1 : (N : ℝ) * R53.u ≤ 1 / 1000000000 := by
    rw [hu]
    norm_num
    linarith
  have h2 := Real.abs_exp_sub_one_sub_id_le (x := (N : ℝ) * R53.u) (by rw [abs_of_nonneg hx0]; linarith)
  have h3 := (abs_le.1 h2).2
  have h4 : ((N : ℝ) * R53.u) ^ 2 ≤ 7 * R53.u := by
    rw [mul_pow]
    have : (N : ℝ) ^ 2 * R53.u ≤ 7 := by
      have : (N : ℝ) ^ 2 ≤ 1000000 ^ 2 := pow_le_pow_left₀ hN0 hN' 2
      rw [hu]
      norm_num at this ⊢
      linarith
    calc (N : ℝ) ^ 2 * R53.u ^ 2 = (N : ℝ) ^ 2 * R53.u * R53.u := by ring
      _ ≤ _ := mul_le_mul_of_nonneg_right this hu0
  rw [add_div, ← mul_one_div (N : ℝ), ← mul_one_div (7 : ℝ), ← hu]
  linarith

theorem groupSum_eq (cells : List (XF ℝ)) : groupSum (roundBits 53) cells = .fin (seqSum R53.fl (numbers cells)) := rfl

theorem groupSumC_eq (cells : List (XF ℝ)) : groupSumC (roundBits 53) cells = .fin (kahanSum R53.fl (numbers cells)) := rfl

/-- **C149** (additions one after the other): the sum of `N` doubles, computed from left to right, is off by at most (N + 7) 2⁻⁵³ of the sum of the absolute values. -/
theorem C149_plain : SumsDay (groupSum (roundBits 53)) := by
  intro cells hl _
  refine ⟨_, groupSum_eq cells, ?_⟩
  have h := (seqSum_acc (numbers cells) 0 0 0 0 (by simpa using Acc.self R53 0)).1
  simp only [zero_add] at h
  exact h.trans (mul_le_mul_of_nonneg_right (u_pow_million ((numbers_length_le cells).trans hl)) (absSum_nonneg _))

/-- **C149** (compensated additions): the compensated sum of pandas is off by at most 7 · 2⁻⁵³ of the sum of the absolute values, whatever the number of values (up to a million). -/
theorem C149_compensated : SumsDay (groupSumC (roundBits 53)) ∧
    ∀ l : List ℝ, l.length ≤ 1000000 → |kahanSum (roundBits 53) l - l.sum| ≤ 7 / 2 ^ 53 * absSum l := by
  have hu : R53.u = 1 / 2 ^ 53 := by rw [R53_u]; norm_num
  have key : ∀ l : List ℝ, l.length ≤ 1000000 → |kahanSum (roundBits 53) l - l.sum| ≤ 7 / 2 ^ 53 * absSum l := by
    intro l hl
    have hl' : (l.length : ℝ) ≤ 1000000 := by exact_mod_cast hl
    have h := kahanSum_err R53 (by rw [R53_u]; norm_num) l (by rw [R53_u]; norm_num; linarith)
    rw [hu, mul_one_div] at h
    exact h
  refine ⟨fun cells hl _ => ⟨_, groupSumC_eq cells, ?_⟩, key⟩
  refine (key _ ((numbers_length_le cells).trans hl)).trans (mul_le_mul_of_nonneg_right ?_ (absSum_nonneg _))
  refine div_le_div_of_nonneg_right ?_ (by positivity)
  have : (0 : ℝ) ≤ (numbers cells).length := Nat.cast_nonneg _
  linarith

theorem numberOrMissing_nanOrFin {c : XF ℝ} (h : NumberOrMissing c) : c.NanOrFin := by
  rcases h with rfl | ⟨x, rfl⟩ <;> simp

/-- a rounded quotient of a sum -/
theorem quotient_near {t S A N c : ℝ} (hN0 : 0 ≤ N) (hN : N ≤ 1000000) (hc : 0 < c) (hS : |S| ≤ A) (h : |t - S| ≤ (N + 7) / 2 ^ 53 * A) :
    |roundBits 53 (t / c) - S / c| ≤ (N + 9) / 2 ^ 53 * (A / c) := by
  have hA : 0 ≤ A := (abs_nonneg _).trans hS
  have h1 : |roundBits 53 (t / c) - t / c| ≤ 1 / 2 ^ 53 * (|t| / c) := by
    have := R53.err (t / c)
    rw [R53_fl, R53_u, abs_div, abs_of_pos hc] at this
    norm_num at this ⊢
    exact this
  have h2 : |t / c - S / c| = |t - S| / c := by rw [← sub_div, abs_div, abs_of_pos hc]
  have h3 : |t| ≤ A + (N + 7) / 2 ^ 53 * A := by
    have := abs_add_le (t - S) S
    rw [sub_add_cancel] at this
    linarith
  have h4 := abs_add_le (roundBits 53 (t / c) - t / c) (t / c - S / c)
  rw [sub_add_sub_cancel, h2] at h4
  have h5 : |t - S| / c ≤ (N + 7) / 2 ^ 53 * (A / c) := by rw [← mul_div_assoc]; exact div_le_div_of_nonneg_right h hc.le
  have h6 : |t| / c ≤ A / c + (N + 7) / 2 ^ 53 * (A / c) := by rw [← mul_div_assoc, ← add_div]; exact div_le_div_of_nonneg_right h3 hc.le
  have hAc : 0 ≤ A / c := div_nonneg hA hc.le
  have h7 : (N + 7) / 2 ^ 53 ≤ 1 := by
    rw [div_le_one (by positivity)]
    norm_num
    linarith
  have h8 : (N + 7) / 2 ^ 53 * (A / c) ≤ A / c := by
    have := mul_le_mul_of_nonneg_right h7 hAc
    linarith
  have h9 : (N + 9) / 2 ^ 53 * (A / c) = (N + 7) / 2 ^ 53 * (A / c) + 2 / 2 ^ 53 * (A / c) := by ring
  rw [h9]
  have h10 : 1 / 2 ^ 53 * (|t| / c) ≤ 2 / 2 ^ 53 * (A / c) := by
    have : |t| / c ≤ 2 * (A / c) := by linarith
    have := mul_le_mul_of_nonneg_left this (by positivity : (0 : ℝ) ≤ 1 / 2 ^ 53)
    refine this.trans (le_of_eq (by ring))
  linarith

theorem meanR_near {sum : List (XF ℝ) → XF ℝ} (hsum : SumsDay sum) {cells : List (XF ℝ)} (hl : cells.length ≤ 1000000) (hc : ∀ c ∈ cells, NumberOrMissing c) :
    MeanNear (numbers cells) (meanR (roundBits 53) sum cells) := by
  have hn := countValid_eq fun c h => numberOrMissing_nanOrFin (hc c h)
  unfold meanR
  by_cases e : numbers cells = []
  · rw [if_pos (by rw [hn, e]; rfl)]
    exact e
  · have hpos : 0 < (numbers cells).length := List.length_pos_of_ne_nil e
    rw [if_neg (by rw [hn]; omega), hn]
    obtain ⟨t, ht, he⟩ := hsum cells hl hc
    have hpos' : (0 : ℝ) < (numbers cells).length := by exact_mod_cast hpos
    rw [ht, XF.fin_div_fin_of_ne _ hpos'.ne']
    refine ⟨e, quotient_near hpos'.le ?_ hpos' (sum_le_absSum _) he⟩
    exact_mod_cast (numbers_length_le cells).trans hl

theorem totalR_near {sum : List (XF ℝ) → XF ℝ} (hsum : SumsDay sum) {cells : List (XF ℝ)} (hl : cells.length ≤ 1000000) (hc : ∀ c ∈ cells, NumberOrMissing c) :
    TotalNear 1 (numbers cells) (sum cells) ∧ TotalNear 60 (numbers cells) ((sum cells / .fin 60).rnd (roundBits 53)) := by
  obtain ⟨t, ht, he⟩ := hsum cells hl hc
  rw [ht]
  constructor
  · show |t - (numbers cells).sum / 1| ≤ _ * (absSum (numbers cells) / 1)
    rw [div_one, div_one]
    refine he.trans (mul_le_mul_of_nonneg_right ?_ (absSum_nonneg _))
    exact div_le_div_of_nonneg_right (by linarith) (by positivity)
  · rw [XF.fin_div_fin_of_ne _ (by norm_num)]
    exact quotient_near (Nat.cast_nonneg _) (by exact_mod_cast (numbers_length_le cells).trans hl) (by norm_num) (sum_le_absSum _) he

/-- **C149.**  `daily_from_hourly` in double precision, for any frame whose rows span the days `d0, …, d0 + n - 1` (at most a million rows per day), whichever way of adding with the errors of
C149_plain is used: minima and maxima are exact; the mean of the `N` values of a day is off by at most (N + 9) 2⁻⁵³ of the mean of their absolute values, sums of precipitation and hours of
sunshine by (N + 9) 2⁻⁵³ of the sum of the absolute values (in hours); days without values have no mean and the sum 0 (up to an error of 0). -/
theorem C149_daily {sum : List (XF ℝ) → XF ℝ} (hsum : SumsDay sum) (df : Frame ℝ) (hwf : df.WF) (d0 : Int) (n : Nat) (h : SpansDays df.index d0 n) (s : Series (XF ℝ))
    (hs : ∀ r ∈ s, NumberOrMissing r.2) (hlen : ∀ i < n, (dayCells s (d0 + (i : Nat))).length ≤ 1000000) :
    let daily := dailyFromHourlyR (roundBits 53) sum df
    let day := fun i : Nat => numbers (dayCells s (d0 + i))
    (df.col? "temp" = some s → (∃ m, daily.col? "temp" = some (dailyS d0 n m) ∧ ∀ i < n, MeanNear (day i) (m i)) ∧
      daily.col? "tmin" = some (dailyS d0 n fun i => minOf (day i)) ∧ daily.col? "tmax" = some (dailyS d0 n fun i => maxOf (day i))) ∧
    (df.col? "precip" = some s → ∃ t, daily.col? "precip" = some (dailyS d0 n t) ∧ ∀ i < n, TotalNear 1 (day i) (t i)) ∧
    (df.col? "glob" = some s → ∃ m, daily.col? "glob" = some (dailyS d0 n m) ∧ ∀ i < n, MeanNear (day i) (m i)) ∧
    (df.col? "hum" = some s → (∃ m, daily.col? "hum" = some (dailyS d0 n m) ∧ ∀ i < n, MeanNear (day i) (m i)) ∧
      daily.col? "hum_min" = some (dailyS d0 n fun i => minOf (day i)) ∧ daily.col? "hum_max" = some (dailyS d0 n fun i => maxOf (day i))) ∧
    (df.col? "wind" = some s → ∃ m, daily.col? "wind" = some (dailyS d0 n m) ∧ ∀ i < n, MeanNear (day i) (m i)) ∧
    (df.col? "ssd" = some s → ∃ t, daily.col? "ssd" = some (dailyS d0 n t) ∧ ∀ i < n, TotalNear 60 (day i) (t i)) := by
  intro daily day
  have hs' : ∀ r ∈ s, r.2.NanOrFin := fun r hr => numberOrMissing_nanOrFin (hs r hr)
  have cells : ∀ i : Nat, ∀ c ∈ dayCells s (d0 + i), NumberOrMissing c := by
    intro i c hc
    obtain ⟨r, hr, rfl⟩ := List.mem_map.1 hc
    exact hs r (List.mem_filter.1 hr).1
  have mean : ∀ name, df.col? name = some s → s.resampleD (meanR (roundBits 53) sum) = dailyS d0 n fun i => meanR (roundBits 53) sum (dayCells s (d0 + (i : Nat))) :=
    fun name hc => resampleD_spans _ (by rw [col?_index hwf hc]; exact h)
  have mi : ∀ name, df.col? name = some s → s.resampleD minSkip = dailyS d0 n fun i => minOf (day i) := by
    intro name hc
    rw [resampleD_spans minSkip (by rw [col?_index hwf hc]; exact h)]
    exact dailyS_congr _ fun i _ => minSkip_minOf (dayCells_nanOrFin hs' _)
  have ma : ∀ name, df.col? name = some s → s.resampleD maxSkip = dailyS d0 n fun i => maxOf (day i) := by
    intro name hc
    rw [resampleD_spans maxSkip (by rw [col?_index hwf hc]; exact h)]
    exact dailyS_congr _ fun i _ => maxSkip_maxOf (dayCells_nanOrFin hs' _)
  have su : ∀ name, df.col? name = some s → s.resampleD sum = dailyS d0 n fun i => sum (dayCells s (d0 + (i : Nat))) :=
    fun name hc => resampleD_spans _ (by rw [col?_index hwf hc]; exact h)
  have near : ∀ i < n, MeanNear (day i) (meanR (roundBits 53) sum (dayCells s (d0 + (i : Nat)))) := fun i hi => meanR_near hsum (hlen i hi) (cells i)
  have total : ∀ i < n, _ := fun i hi => totalR_near hsum (hlen i hi) (cells i)
  have col := dailyFromHourlyR_col_any (roundBits 53) sum df hwf
  refine ⟨fun hc => ?_, fun hc => ?_, fun hc => ?_, fun hc => ?_, fun hc => ?_, fun hc => ?_⟩
  · have := col [] _ _ rfl hc (by simp) (by simp)
    rw [← mi _ hc, ← ma _ hc]
    refine ⟨⟨_, ?_, near⟩, this ("tmin", Series.resampleD minSkip) (by simp), this ("tmax", Series.resampleD maxSkip) (by simp)⟩
    rw [← mean _ hc]
    exact this ("temp", Series.resampleD (meanR (roundBits 53) sum)) (by simp)
  · have := col [_] _ _ rfl hc (by simp) (by simp)
    refine ⟨_, ?_, fun i hi => (total i hi).1⟩
    rw [← su _ hc]
    exact this ("precip", Series.resampleD sum) (by simp)
  · have := col [_, _] _ _ rfl hc (by simp) (by simp)
    refine ⟨_, ?_, near⟩
    rw [← mean _ hc]
    exact this ("glob", Series.resampleD (meanR (roundBits 53) sum)) (by simp)
  · have := col [_, _, _] _ _ rfl hc (by simp) (by simp)
    rw [← mi _ hc, ← ma _ hc]
    refine ⟨⟨_, ?_, near⟩, this ("hum_min", Series.resampleD minSkip) (by simp), this ("hum_max", Series.resampleD maxSkip) (by simp)⟩
    rw [← mean _ hc]
    exact this ("hum", Series.resampleD (meanR (roundBits 53) sum)) (by simp)
  · have := col [_, _, _, _] _ _ rfl hc (by simp) (by simp)
    refine ⟨_, ?_, near⟩
    rw [← mean _ hc]
    exact this ("wind", Series.resampleD (meanR (roundBits 53) sum)) (by simp)
  · have := col [_, _, _, _, _] _ _ rfl hc (by simp) (by simp)
    refine ⟨_, ?_, fun i hi => (total i hi).2⟩
    have e := this ("ssd", fun s => (s.resampleD sum).map fun r => (r.1, (r.2 / .fin 60).rnd (roundBits 53))) (by simp)
    dsimp only at e
    rw [su _ hc] at e
    rw [show daily.col? "ssd" = _ from e]
    unfold dailyS
    rw [List.map_map]
    rfl

/-- **C149** (exact arithmetic): with exact operations the function is that of C92. -/
theorem C149_exact (df : Frame ℝ) : dailyFromHourlyR (fun x => x) sumSkip df = dailyFromHourly df := by
  have e : meanR (fun x : ℝ => x) sumSkip = meanSkip := by
    funext l
    unfold meanR meanSkip
    split_ifs
    · rfl
    · generalize (sumSkip l / XF.fin (countValid l : ℝ)) = c
      cases c <;> rfl
  unfold dailyFromHourlyR dailyFromHourly
  simp only [e]
  have e2 : ∀ s : Series (XF ℝ), ((s.resampleD sumSkip).map fun r => (r.1, (r.2 / .fin 60).rnd fun x => x)) = (s.resampleD sumSkip).map fun r => (r.1, r.2 / .fin 60) := by
    intro s
    refine List.map_congr_left fun r _ => ?_
    generalize r.2 / XF.fin (60 : ℝ) = c
    cases c <;> rfl
  simp only [e2]
  rfl

/-! ## consequences -/

theorem absSum_of_nonneg {l : List ℝ} (h : ∀ x ∈ l, 0 ≤ x) : absSum l = l.sum := by
  unfold absSum
  congr 1
  conv_rhs => rw [← List.map_id l]
  exact List.map_congr_left fun x hx => abs_of_nonneg (h x hx)

/-- **C149** (dry and wet days): the daily total of at most a million non-negative amounts is not negative, and it is 0 only if all of them are 0. -/
theorem C149_dry {l : List ℝ} (hl : l.length ≤ 1000000) (h0 : ∀ x ∈ l, 0 ≤ x) {c : ℝ} (hc : 0 < c) {cell : XF ℝ} (h : TotalNear c l cell) :
    ∃ t, cell = .fin t ∧ 0 ≤ t ∧ (t = 0 ↔ ∀ x ∈ l, x = 0) := by
  cases cell with
  | nan => exact h.elim
  | pinf => exact h.elim
  | ninf => exact h.elim
  | fin t =>
    refine ⟨t, rfl, ?_⟩
    have h : |t - l.sum / c| ≤ (l.length + 9) / 2 ^ 53 * (absSum l / c) := h
    rw [absSum_of_nonneg h0] at h
    have hs : 0 ≤ l.sum := List.sum_nonneg h0
    have hsc : 0 ≤ l.sum / c := div_nonneg hs hc.le
    have hl' : (l.length : ℝ) ≤ 1000000 := by exact_mod_cast hl
    have h7 : ((l.length : ℝ) + 9) / 2 ^ 53 ≤ 1 / 2 := by
      rw [div_le_iff₀ (by positivity)]
      norm_num
      linarith
    have h8 := mul_le_mul_of_nonneg_right h7 hsc
    obtain ⟨a, b⟩ := abs_le.1 h
    refine ⟨by linarith, ?_, ?_⟩
    · intro e
      subst e
      have : l.sum / c = 0 := by linarith
      have : l.sum = 0 := by rcases div_eq_zero_iff.1 this with h | h; exacts [h, absurd h hc.ne']
      intro x hx
      exact (le_antisymm ((List.single_le_sum h0 x hx).trans this.le) (h0 x hx))
    · intro e
      have : l.sum = 0 := List.sum_eq_zero e
      rw [this] at a b
      simp at a b
      linarith

theorem absSum_le {l : List ℝ} {B : ℝ} (h : ∀ x ∈ l, |x| ≤ B) : absSum l ≤ l.length * B := by
  unfold absSum
  have := List.sum_le_card_nsmul (l.map fun x => |x|) B (by
    intro y hy
    obtain ⟨x, hx, rfl⟩ := List.mem_map.1 hy
    exact h x hx)
  simpa using this

/-- **C149** (order): the daily mean of `N` values of at most `B` in absolute value lies between their minimum and maximum, up to (N + 9) 2⁻⁵³ B (for 24 temperatures of at most 400 K this is
1.5e-12 K; it can be outside by a rounding, C145). -/
theorem C149_order {l : List ℝ} {m a b B : ℝ} (h : MeanNear l (.fin m)) (ha : minOf l = .fin a) (hb : maxOf l = .fin b) (hB : ∀ x ∈ l, |x| ≤ B) :
    a - (l.length + 9) / 2 ^ 53 * B ≤ m ∧ m ≤ b + (l.length + 9) / 2 ^ 53 * B := by
  obtain ⟨hne, h⟩ := h
  have hpos : (0 : ℝ) < l.length := by exact_mod_cast List.length_pos_of_ne_nil hne
  have h1 : absSum l / l.length ≤ B := by rw [div_le_iff₀ hpos, mul_comm]; exact absSum_le hB
  have h2 := h.trans (mul_le_mul_of_nonneg_left h1 (by positivity))
  have lo : ∀ x ∈ l, a ≤ x := by
    unfold minOf at ha
    split at ha
    · cases ha
    · rename_i e; injection ha with ha; subst ha; exact (List.min?_eq_some_iff.1 e).2
  have up : ∀ x ∈ l, x ≤ b := by
    unfold maxOf at hb
    split at hb
    · cases hb
    · rename_i e; injection hb with hb; subst hb; exact (List.max?_eq_some_iff.1 e).2
  have l1 : a ≤ l.sum / l.length := by
    rw [le_div_iff₀ hpos, mul_comm]
    simpa using List.card_nsmul_le_sum l a lo
  have u1 : l.sum / l.length ≤ b := by
    rw [div_le_iff₀ hpos, mul_comm]
    simpa using List.sum_le_card_nsmul l b up
  obtain ⟨x, y⟩ := abs_le.1 h2
  constructor <;> linarith

theorem fl_whole {n : Int} (h : |(n : ℝ)| ≤ 10 ^ 15) : roundBits 53 (n : ℝ) = n := by
  by_cases h0 : n = 0
  · subst h0; simp [roundBits]
  · refine roundBits_smallint h0 (lt_of_le_of_lt h ?_)
    norm_num

theorem seqSum_le {b : Int} (hb : |(b : ℝ)| ≤ 10 ^ 9) : ∀ (l : List ℝ) (k : Nat) (s : ℝ), k + l.length ≤ 1000000 → (∀ x ∈ l, x ≤ b) → s ≤ k * b →
    l.foldl (fun s x => roundBits 53 (s + x)) s ≤ ((k + l.length : Nat) : ℝ) * b
  | [], k, s, _, _, h => by simpa using h
  | x :: l, k, s, hk, hx, h => by
    rw [List.length_cons] at hk
    have hk' : ((k + 1 : Nat) : ℝ) ≤ 1000000 := by exact_mod_cast (by omega : k + 1 ≤ 1000000)
    have e : roundBits 53 (s + x) ≤ ((k + 1 : Nat) : ℝ) * b := by
      have h1 : s + x ≤ (((k + 1 : Nat) * b : Int) : ℝ) := by
        have := hx x (by simp)
        push_cast
        linarith
      have h2 := roundBits_mono (p := 53) (by norm_num) h1
      rw [fl_whole] at h2
      · push_cast at h2 ⊢; exact h2
      · push_cast
        rw [abs_mul]
        have h4 : |(k : ℝ) + 1| ≤ 1000000 := by rw [abs_of_nonneg (by positivity)]; push_cast at hk'; exact hk'
        calc |(k : ℝ) + 1| * |(b : ℝ)| ≤ 1000000 * 10 ^ 9 := mul_le_mul h4 hb (abs_nonneg _) (by norm_num)
          _ = 10 ^ 15 := by norm_num
    have := seqSum_le hb l (k + 1) _ (by omega) (fun y hy => hx y (by simp [hy])) e
    rw [List.foldl_cons, List.length_cons, show k + (l.length + 1) = k + 1 + l.length by omega]
    exact this

theorem seqSum_ge {a : Int} (ha : |(a : ℝ)| ≤ 10 ^ 9) : ∀ (l : List ℝ) (k : Nat) (s : ℝ), k + l.length ≤ 1000000 → (∀ x ∈ l, (a : ℝ) ≤ x) → k * (a : ℝ) ≤ s →
    ((k + l.length : Nat) : ℝ) * a ≤ l.foldl (fun s x => roundBits 53 (s + x)) s
  | [], k, s, _, _, h => by simpa using h
  | x :: l, k, s, hk, hx, h => by
    rw [List.length_cons] at hk
    have hk' : ((k + 1 : Nat) : ℝ) ≤ 1000000 := by exact_mod_cast (by omega : k + 1 ≤ 1000000)
    have e : ((k + 1 : Nat) : ℝ) * a ≤ roundBits 53 (s + x) := by
      have h1 : (((k + 1 : Nat) * a : Int) : ℝ) ≤ s + x := by
        have := hx x (by simp)
        push_cast
        linarith
      have h2 := roundBits_mono (p := 53) (by norm_num) h1
      rw [fl_whole] at h2
      · push_cast at h2 ⊢; exact h2
      · push_cast
        rw [abs_mul]
        have h4 : |(k : ℝ) + 1| ≤ 1000000 := by rw [abs_of_nonneg (by positivity)]; push_cast at hk'; exact hk'
        calc |(k : ℝ) + 1| * |(a : ℝ)| ≤ 1000000 * 10 ^ 9 := mul_le_mul h4 ha (abs_nonneg _) (by norm_num)
          _ = 10 ^ 15 := by norm_num
    have := seqSum_ge ha l (k + 1) _ (by omega) (fun y hy => hx y (by simp [hy])) e
    rw [List.foldl_cons, List.length_cons, show k + (l.length + 1) = k + 1 + l.length by omega]
    exact this

/-- **C149** (physical ranges): with additions one after the other, the daily mean of values between whole numbers `a` and `b` (such as relative humidity between 0 and 100) lies between
`a` and `b` exactly. -/
theorem C149_range {cells : List (XF ℝ)} (hl : cells.length ≤ 1000000) (hc : ∀ c ∈ cells, NumberOrMissing c) {a b : Int} (ha : |(a : ℝ)| ≤ 10 ^ 9) (hb : |(b : ℝ)| ≤ 10 ^ 9)
    (hx : ∀ x ∈ numbers cells, (a : ℝ) ≤ x ∧ x ≤ b) :
    (numbers cells = [] ∧ meanR (roundBits 53) (groupSum (roundBits 53)) cells = .nan) ∨
      ∃ m, meanR (roundBits 53) (groupSum (roundBits 53)) cells = .fin m ∧ (a : ℝ) ≤ m ∧ m ≤ b := by
  have hn := countValid_eq fun c h => numberOrMissing_nanOrFin (hc c h)
  unfold meanR
  by_cases e : numbers cells = []
  · exact .inl ⟨e, by rw [if_pos (by rw [hn, e]; rfl)]⟩
  · right
    have hpos : 0 < (numbers cells).length := List.length_pos_of_ne_nil e
    have hpos' : (0 : ℝ) < (numbers cells).length := by exact_mod_cast hpos
    have hl' : 0 + (numbers cells).length ≤ 1000000 := by have := numbers_length_le cells; omega
    rw [if_neg (by rw [hn]; omega), hn, groupSum_eq, XF.fin_div_fin_of_ne _ hpos'.ne']
    refine ⟨_, rfl, ?_, ?_⟩
    · have h := seqSum_ge ha (numbers cells) 0 0 hl' (fun x h => (hx x h).1) (by simp)
      rw [Nat.zero_add, mul_comm] at h
      have := roundBits_mono (p := 53) (by norm_num) ((le_div_iff₀ hpos').2 h)
      rw [fl_whole (ha.trans (by norm_num))] at this
      exact this
    · have h := seqSum_le hb (numbers cells) 0 0 hl' (fun x h => (hx x h).2) (by simp)
      rw [Nat.zero_add, mul_comm] at h
      have := roundBits_mono (p := 53) (by norm_num) ((div_le_iff₀ hpos').2 h)
      rw [fl_whole (hb.trans (by norm_num))] at this
      exact this

/-- **C149** (tests): the comparisons of C145 hold for sums and means computed in either of these ways, in particular with the compensated sums of pandas. -/
theorem C149_tests {sum : List (XF ℝ) → XF ℝ} (hsum : SumsDay sum) : AddsDay sum ∧ AveragesDay (meanR (roundBits 53) sum) := by
  have small : ∀ {cells : List (XF ℝ)}, cells.length ≤ 288 → ((numbers cells).length + 9 : ℝ) / 2 ^ 53 ≤ 1e-12 := by
    intro cells hl
    have : ((numbers cells).length : ℝ) ≤ 288 := by exact_mod_cast (numbers_length_le cells).trans hl
    rw [div_le_iff₀ (by positivity)]
    norm_num
    linarith
  constructor
  · intro cells hl hc _
    obtain ⟨t, ht, he⟩ := hsum cells (by omega) hc
    refine ⟨t, ht, he.trans ?_⟩
    have h0 := absSum_nonneg (numbers cells)
    have h1 : ((numbers cells).length + 7 : ℝ) / 2 ^ 53 ≤ 1e-12 := le_trans (div_le_div_of_nonneg_right (by linarith) (by positivity)) (small hl)
    refine (mul_le_mul_of_nonneg_right h1 h0).trans ?_
    show 1e-12 * absSum (numbers cells) ≤ 1e-12 * (1 + absSum (numbers cells))
    refine mul_le_mul_of_nonneg_left (by linarith) (by norm_num)
  · intro cells hl hc _
    have h := meanR_near hsum (cells := cells) (by omega) hc
    cases e : meanR (roundBits 53) sum cells with
    | nan => rw [e] at h; exact ⟨fun _ => rfl, fun h' => absurd h h'⟩
    | pinf => rw [e] at h; exact h.elim
    | ninf => rw [e] at h; exact h.elim
    | fin m =>
      rw [e] at h
      obtain ⟨hne, h⟩ := h
      refine ⟨fun h' => absurd h' hne, fun _ => ⟨m, rfl, h.trans ?_⟩⟩
      have h0 : 0 ≤ absSum (numbers cells) / (numbers cells).length := div_nonneg (absSum_nonneg _) (Nat.cast_nonneg _)
      refine (mul_le_mul_of_nonneg_right (small hl) h0).trans ?_
      show 1e-12 * (absSum (numbers cells) / (numbers cells).length) ≤ 1e-12 * (1 + absSum (numbers cells) / (numbers cells).length)
      refine mul_le_mul_of_nonneg_left (by linarith) (by norm_num)

/-! ### non-vacuity -/

/-- C149 at work: three rows on one day, one of them missing, with compensated sums. -/
example : let df : Frame ℝ := ⟨[atHour 5 4, atHour 5 9, atHour 5 10], [("temp", [.fin 270, .nan, .fin 271])]⟩
    ∃ m, (dailyFromHourlyR (roundBits 53) (groupSumC (roundBits 53)) df).col? "temp" = some [(at00 5, .fin m)] ∧ |m - 541 / 2| ≤ 11 / 2 ^ 53 * (541 / 2) ∧
      (dailyFromHourlyR (roundBits 53) (groupSumC (roundBits 53)) df).col? "tmax" = some [(at00 5, .fin 271)] := by
  intro df
  have hcells : dayCells [(atHour 5 4, XF.fin (270 : ℝ)), (atHour 5 9, .nan), (atHour 5 10, .fin 271)] (5 + ((0 : Nat) : Int)) = [.fin 270, .nan, .fin 271] := rfl
  obtain ⟨h, -⟩ := C149_daily C149_compensated.1 df (by intro c hc; simp [df] at hc; subst hc; rfl) 5 1
    ⟨by norm_num, by decide +kernel, ⟨atHour 5 4, by decide +kernel, by decide +kernel⟩, ⟨atHour 5 4, by decide +kernel, by decide +kernel⟩⟩
    [(atHour 5 4, .fin 270), (atHour 5 9, .nan), (atHour 5 10, .fin 271)]
    (by
      intro r hr
      simp only [List.mem_cons, List.not_mem_nil, or_false] at hr
      rcases hr with rfl | rfl | rfl
      · exact .inr ⟨_, rfl⟩
      · exact .inl rfl
      · exact .inr ⟨_, rfl⟩)
    (by intro i hi; interval_cases i; rw [hcells]; simp)
  obtain ⟨⟨m, h1, h2⟩, -, h3⟩ := h rfl
  have h4 := h2 0 (by norm_num)
  beta_reduce at h4
  rw [hcells] at h4
  simp only [numbers, List.filterMap_cons, List.filterMap_nil] at h4
  cases e : m 0 with
  | nan => rw [e] at h4; simp [MeanNear] at h4
  | pinf => rw [e] at h4; exact h4.elim
  | ninf => rw [e] at h4; exact h4.elim
  | fin y =>
    rw [e] at h4
    refine ⟨y, ?_, ?_, ?_⟩
    · rw [h1]; simp [dailyS, e]
    · have := h4.2
      simp [absSum] at this
      norm_num at this ⊢
      exact this
    · rw [h3]
      show some [(_, maxOf (numbers (dayCells _ (5 + ((0 : Nat) : Int)))))] = _
      rw [hcells]
      simp only [numbers, List.filterMap_cons, List.filterMap_nil, maxOf, List.max?, List.foldl]
      rw [max_eq_right (by norm_num)]
      rfl

/-- and a humidity record of 100 % gives a daily mean of at most 100 % -/
example : ∃ m, meanR (roundBits 53) (groupSum (roundBits 53)) [.fin 99.9, .nan, .fin (100 : ℝ)] = .fin m ∧ ((0 : Int) : ℝ) ≤ m ∧ m ≤ ((100 : Int) : ℝ) := by
  rcases C149_range (cells := [.fin 99.9, .nan, .fin (100 : ℝ)]) (by simp) (by
      intro c hc
      simp only [List.mem_cons, List.not_mem_nil, or_false] at hc
      rcases hc with rfl | rfl | rfl
      · exact .inr ⟨_, rfl⟩
      · exact .inl rfl
      · exact .inr ⟨_, rfl⟩) (a := 0) (b := 100) (by norm_num) (by norm_num) (by
      intro x hx
      simp only [numbers, List.filterMap_cons, List.filterMap_nil, List.mem_cons, List.not_mem_nil, or_false] at hx
      rcases hx with rfl | rfl <;> norm_num) with ⟨h, -⟩ | h
  · simp [numbers] at h
  · exact h

end

end Melodist
