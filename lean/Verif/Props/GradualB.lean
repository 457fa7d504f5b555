import Verif.Lemmas.Overflow
import Verif.Lemmas.Nearest

/-!
# C129: precipitation disaggregation in IEEE double precision, underflow and overflow included
-/

set_option linter.unusedSectionVars false

namespace Melodist
open Spec

namespace Spec

variable {K : Type} [Field K] [LinearOrder K] [IsStrictOrderedRing K]

/-- the numbers in the tables of the statistics are at most 2 (they are relative frequencies) -/
def FrequencyTables : CascOptions K → Prop
  | .one s => FrequencyTable s
  | .many l => ∀ s ∈ l, FrequencyTable s
  | .other => True
where
  FrequencyTable (s : CascStats K) : Prop := ∀ b t x, (s.p01 b t = .fin x ∨ s.p10 b t = .fin x ∨ ∃ k, s.wxx k b t = .fin x) → |x| ≤ 2

end Spec

section
variable {K : Type} [Field K] [LinearOrder K] [IsStrictOrderedRing K]

theorem FrequencyTables.small {opts : CascOptions K} (h : FrequencyTables opts) : ∀ si s mv, levelStats opts si = .ok (s, mv) → SmallStats s := by
  have one : ∀ s : CascStats K, FrequencyTables.FrequencyTable s → SmallStats s := fun s hs b t =>
    ⟨fun y e => hs b t y (.inl e), fun y e => hs b t y (.inr (.inl e)), fun k y e => hs b t y (.inr (.inr ⟨k, e⟩))⟩
  intro si s mv hl
  unfold levelStats at hl
  cases opts with
  | one s' =>
    dsimp only at hl
    split at hl
    · cases hl; exact one _ h
    · cases hl
  | many l =>
    dsimp only at hl
    split at hl
    · rename_i s' e
      split at hl
      · cases hl; exact one _ (h _ (List.mem_of_getElem? e))
      · cases hl
    · cases hl
  | other => cases hl

end

section
variable {K : Type} [Field K] [LinearOrder K] [IsStrictOrderedRing K] [FloorRing K]

/-- what `IsBinary64` says: the result of rounding is a number with at most 53 binary digits and a multiple of 2⁻¹⁰⁷⁴, and no other such number is nearer -/
theorem binary64_nearest {fl : K → K} (hfl : IsBinary64 fl) {x : K} (hx : |x| ≤ 2 ^ 1023) :
    Binary 53 (-1074) (fl x) ∧ ∀ y, Binary 53 (-1074) y → |fl x - x| ≤ |y - x| := by
  rw [hfl x hx]
  exact ⟨gradual_binary (by norm_num) x, fun y hy => gradual_nearest (by norm_num) x hy⟩

/-- binary64 -/
def b64 : GradualRounding K := gradual 53 (by norm_num) (-1074) (by norm_num)

theorem b64_fl : (b64 : GradualRounding K).fl = roundGradual 53 (-1074) := rfl

theorem b64_u : (b64 : GradualRounding K).u = 1 / 2 ^ 53 := by
  show (2 : K) ^ (-((53 : Nat) : Int)) = _
  rw [zpow_neg, zpow_natCast, one_div]

theorem b64_a : (b64 : GradualRounding K).a = 1 / 2 ^ 1075 := by
  show (2 : K) ^ ((-1074 : Int) - 1) = _
  rw [show ((-1074 : Int) - 1) = -((1075 : Nat) : Int) by norm_num, zpow_neg, zpow_natCast, one_div]

theorem b64_big : (b64 : GradualRounding K).fl (2 ^ 1023) = 2 ^ 1023 := by
  rw [b64_fl]
  have e : ((2 : K) ^ 1023) = 2 ^ ((1023 : Nat) : Int) := (zpow_natCast _ _).symm
  rw [e, gradual_big (by rw [abs_of_pos (zpow_pos (by norm_num) _)]; exact zpow_le_zpow_right₀ (by norm_num) (by norm_num))]
  exact roundBits_two (by norm_num) _

theorem b64_pow {n : Nat} (hn : n ≤ 10 ^ 6) : (1 + 1 / 2 ^ 53 : K) ^ (96 * n + 12) ≤ 101 / 100 := by
  have a := one_add_mul_le_pow (a := -(1 / 2 ^ 53 : K)) (by norm_num) (96 * n + 12)
  have b : (1 + 1 / 2 ^ 53 : K) ^ (96 * n + 12) * (1 + -(1 / 2 ^ 53)) ^ (96 * n + 12) ≤ 1 := by
    rw [← mul_pow]
    exact pow_le_one₀ (by norm_num) (by norm_num)
  have hn' : ((96 * n + 12 : Nat) : K) ≤ 96 * 10 ^ 6 + 12 := by exact_mod_cast (by omega : 96 * n + 12 ≤ 96 * 10 ^ 6 + 12)
  have c : (100 / 101 : K) ≤ (1 + -(1 / 2 ^ 53)) ^ (96 * n + 12) := by
    refine le_trans ?_ a
    have := mul_le_mul_of_nonneg_right hn' (show (0 : K) ≤ 1 / 2 ^ 53 by norm_num)
    have e : ((96 * 10 ^ 6 + 12) * (1 / 2 ^ 53) : K) ≤ 1 / 101 := by norm_num
    linarith
  have d : (0 : K) ≤ (1 + 1 / 2 ^ 53) ^ (96 * n + 12) := by positivity
  nlinarith

theorem b64_small {n : Nat} (hn : n ≤ 10 ^ 6) : 158 * (n : K) * (1 / 2 ^ 1075) ≤ 1 := by
  have h : (n : K) ≤ 10 ^ 6 := by exact_mod_cast hn
  have h2 : (1 / 2 ^ 1075 : K) ≤ 1 / 2 ^ 30 := by
    apply one_div_le_one_div_of_le (by positivity)
    exact pow_le_pow_right₀ (by norm_num) (by norm_num)
  have h3 : (0 : K) ≤ 1 / 2 ^ 1075 := by positivity
  calc 158 * (n : K) * (1 / 2 ^ 1075) ≤ 158 * 10 ^ 6 * (1 / 2 ^ 30) := by
        apply mul_le_mul _ h2 h3 (by norm_num)
        linarith
    _ ≤ 1 := by norm_num

theorem cascade_binary64 {fl : K → K} (hfl : IsBinary64 fl) {api : PandasApi} {rnd : Nat → K} {opts : CascOptions K} (ho : FrequencyTables opts) {d0 : Int} {n : Nat}
    (hn : n ≤ 10 ^ 6) {v : Nat → XF K} (hv : ∀ i < n, ∀ x, v i = .fin x → 0 ≤ x) (hS : (numbers ((List.range n).map v)).sum ≤ 10 ^ 300) (shift : Int) :
    cascadeR fl api rnd (dailyS d0 n v) opts shift = cascadeR (b64 : GradualRounding K).fl api rnd (dailyS d0 n v) opts shift := by
  have hB : (10 : K) ^ 301 ≤ 2 ^ 1023 := by
    calc (10 : K) ^ 301 ≤ 10 ^ (3 * 102) := pow_le_pow_right₀ (by norm_num) (by norm_num)
      _ = (10 ^ 3) ^ 102 := pow_mul _ _ _
      _ ≤ (2 ^ 10) ^ 102 := pow_le_pow_left₀ (by norm_num) (by norm_num) _
      _ = 2 ^ (10 * 102) := (pow_mul _ _ _).symm
      _ ≤ 2 ^ 1023 := pow_le_pow_right₀ (by norm_num) (by norm_num)
  have hT : (1000 : K) ≤ 10 ^ 301 := by
    calc (1000 : K) = 10 ^ 3 := by norm_num
      _ ≤ 10 ^ 301 := pow_le_pow_right₀ (by norm_num) (by norm_num)
  apply cascadeR_congr b64 _ (B := 2 ^ 1023) (hT.trans hB) hfl b64_big (FrequencyTables.small ho) hv
  · rw [b64_u, b64_a]
    refine le_trans ?_ hB
    have h1 : (1 + 1 / 2 ^ 53 : K) ^ (96 * n + 11) ≤ 101 / 100 :=
      (pow_le_pow_right₀ (by norm_num) (by omega)).trans (b64_pow hn)
    have h2 := b64_small (K := K) hn
    have h3 : (numbers ((List.range n).map v)).sum + 158 * (n : K) * (1 / 2 ^ 1075) ≤ 10 ^ 300 + 1 := add_le_add hS h2
    have h0 : 0 ≤ (1 + 1 / 2 ^ 53 : K) ^ (96 * n + 11) := by positivity
    calc _ ≤ (1 + 1 / 2 ^ 53 : K) ^ (96 * n + 11) * (10 ^ 300 + 1) := mul_le_mul_of_nonneg_left h3 h0
      _ ≤ 101 / 100 * (10 ^ 300 + 1) := mul_le_mul_of_nonneg_right h1 (by positivity)
      _ ≤ 10 ^ 301 := by
        have h4 : (1 : K) ≤ 10 ^ 300 := one_le_pow₀ (by norm_num)
        rw [show (10 : K) ^ 301 = 10 ^ 300 * 10 from pow_succ _ _]
        generalize (10 : K) ^ 300 = y at h4 ⊢
        linarith
  · rw [b64_a]
    rw [div_le_one (by positivity)]
    exact one_le_pow₀ (by norm_num)

/-- **C129** (cascade) In binary64 arithmetic, with gradual underflow and whatever happens on overflow: for a record of at most a million days with at most 10³⁰⁰ mm altogether, the
hourly values of a day with precipitation P add up to P up to 1.4·10⁻¹⁵ P + 1.1·10⁻¹⁴ S + 80·2⁻¹⁰⁷⁴, with S the precipitation of the record and 2⁻¹⁰⁷⁴ the smallest positive number;
none is negative, those of dry days are 0 and those of missing days missing. -/
theorem C129_cascade_binary64 {fl : K → K} (hfl : IsBinary64 fl) {api : PandasApi} {rnd : Nat → K} {opts : CascOptions K} (ho : FrequencyTables opts) {r : CascadeOut K} {d0 : Int}
    {n : Nat} (hn : n ≤ 10 ^ 6) {v : Nat → XF K} (hv : ∀ i < n, ∀ x, v i = .fin x → 0 ≤ x) (hS : (numbers ((List.range n).map v)).sum ≤ 10 ^ 300)
    (h : cascadeR fl api rnd (dailyS d0 n v) opts = .ok r) {i : Nat} (hi : i < n) :
    (∀ P, v i = .fin P → ∃ T, TotalIs (dayCells r.series (d0 + i)) T ∧
      |T - P| ≤ 14 / 10 ^ 16 * P + 11 / 10 ^ 15 * (numbers ((List.range n).map v)).sum + 80 * (1 / 2 ^ 1074)) ∧
    (∀ P, v i = .fin P → ∀ c ∈ dayCells r.series (d0 + i), ∃ y, c = .fin y ∧ 0 ≤ y) ∧
    (v i = .fin 0 → dayCells r.series (d0 + i) = List.replicate 24 (.fin 0)) ∧
    (v i = .nan → dayCells r.series (d0 + i) = List.replicate 24 .nan) := by
  rw [cascade_binary64 hfl ho hn hv hS] at h
  refine ⟨fun P hP => ?_, C129_cascade_cells b64 hv h hi⟩
  obtain ⟨T, hT, hb⟩ := C129_cascade_total b64 hv h hi hP
  refine ⟨T, hT, hb.trans ?_⟩
  rw [b64_u, b64_a]
  have hP0 := hv i hi P hP
  have hS0 : 0 ≤ (numbers ((List.range n).map v)).sum := by
    apply List.sum_nonneg
    intro x hx
    replace hx := mem_numbersR.1 hx
    obtain ⟨j, hj, e⟩ := List.mem_map.1 hx
    exact hv j (List.mem_range.1 hj) x e
  have c1 : (1 + 1 / 2 ^ 53 : K) ^ 12 - 1 ≤ 14 / 10 ^ 16 := by norm_num
  have c4 : 96 * (1 / 2 ^ 53) * (101 / 100) ≤ (11 / 10 ^ 15 : K) := by norm_num
  have c3 : 96 * (1 / 2 ^ 53) * (1 + 1 / 2 ^ 53 : K) ^ (96 * n + 12) ≤ 11 / 10 ^ 15 :=
    (mul_le_mul_of_nonneg_left (b64_pow hn) (by positivity)).trans c4
  have hn' : (n : K) ≤ 10 ^ 6 := by exact_mod_cast hn
  have e2 : (1 / 2 ^ 1074 : K) = 2 * (1 / 2 ^ 1075) := by rw [pow_succ (2 : K) 1074]; field_simp
  rw [e2]
  generalize hs : (numbers ((List.range n).map v)).sum = S at hS0 ⊢
  have ha : (0 : K) < 1 / 2 ^ 1075 := by positivity
  generalize (1 / 2 ^ 1075 : K) = a at ha ⊢
  generalize 96 * (1 / 2 ^ 53) * (1 + 1 / 2 ^ 53 : K) ^ (96 * n + 12) = q at c3 ⊢
  have t1 := mul_le_mul_of_nonneg_right c1 hP0
  have t2 : q * (S + 158 * n * a) ≤ 11 / 10 ^ 15 * S + a := by
    have h1 : 158 * (n : K) * a ≤ 158 * 10 ^ 6 * a := mul_le_mul_of_nonneg_right (by linarith) ha.le
    have h0 : 0 ≤ S + 158 * (n : K) * a := add_nonneg hS0 (mul_nonneg (mul_nonneg (by norm_num) (Nat.cast_nonneg n)) ha.le)
    have h2 := mul_le_mul_of_nonneg_right c3 h0
    have h3 : (11 / 10 ^ 15 : K) * (158 * 10 ^ 6) ≤ 1 := by norm_num
    have h4 := mul_le_mul_of_nonneg_right h3 ha.le
    have h5 := mul_le_mul_of_nonneg_left h1 (show (0 : K) ≤ 11 / 10 ^ 15 by positivity)
    rw [mul_add] at h2
    rw [mul_assoc] at h4
    linarith
  have t3 : 158 * (1 + 1 / 2 ^ 53 : K) ^ 12 * a ≤ 159 * a := mul_le_mul_of_nonneg_right (by norm_num) ha.le
  linarith

/-- a number of absolute value at most 2 -/
def freqB : XF ℚ → Bool
  | .fin x => decide (|x| ≤ 2)
  | _ => false

/-- the tables shipped with the package contain frequencies -/
theorem sample_frequencies : FrequencyTables (.one (CascStats.fillSample (.init : CascStats ℚ))) := by
  have d : ∀ (b : Fin 2) (t : Fin 4), freqB ((CascStats.fillSample (.init : CascStats ℚ)).p01 b t) = true ∧
      freqB ((CascStats.fillSample (.init : CascStats ℚ)).p10 b t) = true ∧ ∀ k, freqB ((CascStats.fillSample (.init : CascStats ℚ)).wxx k b t) = true := by
    decide +kernel
  have f : ∀ x : ℚ, freqB (.fin x) = true → |x| ≤ 2 := fun x h => of_decide_eq_true h
  intro b t x h
  obtain ⟨d1, d2, d3⟩ := d b t
  rcases h with h | h | ⟨k, h⟩
  · rw [h] at d1; exact f x d1
  · rw [h] at d2; exact f x d2
  · have := d3 k; rw [h] at this; exact f x this

/-- **C129** (the last term is needed) With the statistics shipped with the package, a day with 2⁻¹⁰⁷⁴ mm before a dry day gets 24 zeros. -/
theorem C129_underflow : ∃ (rnd : Nat → ℚ) (out : CascadeOut ℚ), (∀ j, 0 ≤ rnd j ∧ rnd j < 1) ∧ FrequencyTables (.one (CascStats.fillSample (.init : CascStats ℚ))) ∧
    cascadeR (roundGradual 53 (-1074)) .modern rnd (dailyS 0 2 fun i => if i = 0 then .fin (1 / 2 ^ 1074) else .fin 0) (.one (CascStats.fillSample .init)) = .ok out ∧
    TotalIs (dayCells out.series 0) 0 := by
  have h : okAnd (cascadeR (roundGradual 53 (-1074)) .modern (fun _ => (1 / 2 : ℚ)) (dailyS 0 2 fun i => if i = 0 then .fin (1 / 2 ^ 1074) else .fin 0)
      (.one (CascStats.fillSample .init))) (fun o => dayCells o.series 0 == List.replicate 24 (.fin 0)) = true := by decide +kernel
  obtain ⟨o, h1, h2⟩ := okAnd_iff.1 h
  refine ⟨_, o, fun _ => by norm_num, ?_, h1, List.replicate 24 0, ?_, ?_⟩
  · exact sample_frequencies
  · rw [beq_iff_eq.1 h2, List.map_replicate]
  · simp

/-- C129 for the cascade: with the statistics shipped with the package, a day of 1000 times the smallest positive number, in whose hourly values underflow does change the total -/
example : okAnd (cascadeR (roundGradual 53 (-1074)) .modern (fun _ => (1 / 2 : ℚ)) (dailyS 0 2 fun i => if i = 0 then .fin (1000 / 2 ^ 1074) else .fin 0)
    (.one (CascStats.fillSample .init))) (fun o => decide ((numbers (dayCells o.series 0)).sum ≠ 1000 / 2 ^ 1074) &&
      decide (|(numbers (dayCells o.series 0)).sum - 1000 / 2 ^ 1074| ≤ 80 / 2 ^ 1074)) = true := by decide +kernel

/-- what 'equal' writes -/
theorem equalR_run (fl : K → K) (api : PandasApi) (d0 : Int) {n : Nat} (hn : 0 < n) (v : Nat → XF K) :
    distributeEquallyR fl api (dailyS d0 n v) = .ok (hourlyS d0 n fun i _ => (v i / .fin 24).rnd fl) := by
  have h := distributeEqually_daily api d0 hn v
  unfold distributeEqually at h
  unfold distributeEquallyR
  obtain ⟨idx, h1, h⟩ := Except.bind_ok h
  obtain ⟨r, h2, h⟩ := Except.bind_ok h
  rw [h1, py_ok_bind, h2, py_ok_bind]
  simp only [Bool.false_eq_true, if_false] at h
  injection h with h
  rw [h]
  unfold hourlyS
  dsimp only
  rw [List.map_map]
  rfl

/-- **C129** ('equal') The 24 values of a day with precipitation P of at most 2¹⁰²³ mm add up to P up to 2⁻⁵³ P and 12 times the smallest positive number. -/
theorem C129_equal_binary64 {fl : K → K} (hfl : IsBinary64 fl) (api : PandasApi) (d0 : Int) {n : Nat} (hn : 0 < n) (v : Nat → XF K) :
    ∃ out, distributeEquallyR fl api (dailyS d0 n v) = .ok out ∧ ∀ i < n, (v i = .nan → AllNan (dayCells out (d0 + i))) ∧
      ∀ P, v i = .fin P → |P| ≤ 2 ^ 1023 → ∃ T, TotalIs (dayCells out (d0 + i)) T ∧ |T - P| ≤ 1 / 2 ^ 53 * |P| + 12 * (1 / 2 ^ 1074) := by
  refine ⟨_, equalR_run fl api d0 hn v, fun i hi => ⟨?_, ?_⟩⟩
  · intro hv c hc
    rw [dayCells_hourlyS d0 _ hi] at hc
    obtain ⟨k, _, rfl⟩ := mem_day24.1 hc
    rw [hv, XF.nan_div]
    rfl
  · intro P hP hPB
    have h24 : (24 : K) ≠ 0 := by norm_num
    refine ⟨24 * fl (P / 24), ?_, ?_⟩
    · rw [dayCells_hourlyS d0 _ hi]
      refine ⟨day24 fun _ => fl (P / 24), ?_, ?_⟩
      · rw [day24_map, hP, XF.fin_div_fin_of_ne _ h24]
        rfl
      · rw [sum_day24_const]
    · have h := (b64 : GradualRounding K).err (P / 24)
      have e : 24 * fl (P / 24) - P = 24 * (fl (P / 24) - P / 24) := by field_simp
      have e2 : (1 / 2 ^ 1074 : K) = 2 * (1 / 2 ^ 1075) := by rw [pow_succ (2 : K) 1074]; field_simp
      have e3 : |P / 24| ≤ 2 ^ 1023 := by
        rw [abs_div, abs_of_pos (by norm_num : (0 : K) < 24)]
        exact (div_le_self (abs_nonneg P) (by norm_num)).trans hPB
      rw [e, abs_mul, abs_of_pos (by norm_num : (0 : K) < 24), e2, hfl _ e3]
      rw [abs_div, abs_of_pos (by norm_num : (0 : K) < 24), b64_u, b64_a] at h
      calc 24 * |roundGradual 53 (-1074) (P / 24) - P / 24| ≤ 24 * (1 / 2 ^ 53 * (|P| / 24) + 1 / 2 ^ 1075) := mul_le_mul_of_nonneg_left h (by norm_num)
        _ = 1 / 2 ^ 53 * |P| + 12 * (2 * (1 / 2 ^ 1075)) := by ring

/-- 'equal' on a day with 12 times the smallest positive number: every hour gets half of it, which is rounded to 0 -/
example : okAnd (distributeEquallyR (roundGradual 53 (-1074)) .modern (dailyS 0 2 fun i => if i = 0 then .fin (12 / 2 ^ 1074 : ℚ) else .nan)) (fun o =>
    decide ((numbers (dayCells o 0)).sum = 0)) = true := by decide +kernel

/-- any way of adding floating-point numbers that are not negative -/
theorem addsTo_gradual (G : GradualRounding K) {fl : K → K} {B : K} (hfl : ∀ x, |x| ≤ B → fl x = G.fl x) {l : List K} {t : K} (h : AddsTo fl l t)
    (h0 : ∀ x ∈ l, 0 ≤ x ∧ G.fl x = x) (hB : (1 + G.u) ^ l.length * l.sum ≤ B) :
    0 < l.length ∧ 0 ≤ t ∧ G.fl t = t ∧ (1 - G.u) ^ (l.length - 1) * l.sum ≤ t ∧ t ≤ (1 + G.u) ^ (l.length - 1) * l.sum := by
  induction h with
  | one x => simp [h0 x (by simp)]
  | @add l m a b _ _ ih1 ih2 =>
    have s1 : 0 ≤ l.sum := List.sum_nonneg fun x hx => (h0 x (List.mem_append_left _ hx)).1
    have s2 : 0 ≤ m.sum := List.sum_nonneg fun x hx => (h0 x (List.mem_append_right _ hx)).1
    have lo1 := G.lo_le_one
    have hi1 : 1 ≤ 1 + G.u := G.one_le
    rw [List.length_append, List.sum_append] at hB
    have hB1 : (1 + G.u) ^ l.length * l.sum ≤ B := le_trans (mul_le_mul (pow_le_pow_right₀ hi1 (by omega)) (by linarith) s1 (pow_nonneg G.hi_nonneg _)) hB
    have hB2 : (1 + G.u) ^ m.length * m.sum ≤ B := le_trans (mul_le_mul (pow_le_pow_right₀ hi1 (by omega)) (by linarith) s2 (pow_nonneg G.hi_nonneg _)) hB
    obtain ⟨n1, p1, f1, l1, u1⟩ := ih1 (fun x hx => h0 x (List.mem_append_left _ hx)) hB1
    obtain ⟨n2, p2, f2, l2, u2⟩ := ih2 (fun x hx => h0 x (List.mem_append_right _ hx)) hB2
    have hab : a + b ≤ (1 + G.u) ^ (l.length + m.length - 2) * (l.sum + m.sum) := by
      have a1 : (1 + G.u) ^ (l.length - 1) ≤ (1 + G.u) ^ (l.length + m.length - 2) := pow_le_pow_right₀ hi1 (by omega)
      have a2 : (1 + G.u) ^ (m.length - 1) ≤ (1 + G.u) ^ (l.length + m.length - 2) := pow_le_pow_right₀ hi1 (by omega)
      have b1 := mul_le_mul_of_nonneg_right a1 s1
      have b2 := mul_le_mul_of_nonneg_right a2 s2
      linarith
    have e0 : fl (a + b) = G.fl (a + b) := hfl _ (by
      rw [abs_of_nonneg (add_nonneg p1 p2)]
      refine hab.trans (le_trans ?_ hB)
      exact mul_le_mul_of_nonneg_right (pow_le_pow_right₀ hi1 (by omega)) (add_nonneg s1 s2))
    have bd := G.add_bounds f1 f2 (add_nonneg p1 p2)
    rw [List.length_append, List.sum_append, e0]
    have e : l.length + m.length - 1 = (l.length + m.length - 2) + 1 := by omega
    refine ⟨by omega, G.fl_nonneg (add_nonneg p1 p2), G.idem _, ?_, ?_⟩
    · rw [e, pow_succ]
      have a1 : (1 - G.u) ^ (l.length + m.length - 2) ≤ (1 - G.u) ^ (l.length - 1) := pow_le_pow_of_le_one G.lo_nonneg lo1 (by omega)
      have a2 : (1 - G.u) ^ (l.length + m.length - 2) ≤ (1 - G.u) ^ (m.length - 1) := pow_le_pow_of_le_one G.lo_nonneg lo1 (by omega)
      have b1 := mul_le_mul_of_nonneg_right a1 s1
      have b2 := mul_le_mul_of_nonneg_right a2 s2
      refine le_trans ?_ bd.1
      have := mul_le_mul_of_nonneg_left (show (1 - G.u) ^ (l.length + m.length - 2) * (l.sum + m.sum) ≤ a + b by linarith) G.lo_nonneg
      linarith
    · rw [e, pow_succ]
      refine le_trans bd.2 ?_
      have := mul_le_mul_of_nonneg_left hab G.hi_nonneg
      linarith
  | @perm l m a _ hp ih =>
    have := ih (fun x hx => h0 x (hp.mem_iff.1 hx)) (by rw [hp.length_eq, hp.sum_eq]; exact hB)
    rw [hp.length_eq, hp.sum_eq] at this
    exact this

theorem day24_sum_affine (c d : K) (f : Nat → K) : (day24 fun k => c * f k + d).sum = c * (day24 f).sum + 24 * d := by
  unfold day24
  rw [List.sum_map_add, List.sum_map_mul_left]
  congr 1
  exact sum_day24_const d

/-- two roundings after a division by the total of the day -/
theorem master_share {t P m : K} (ht : 0 < t) (hm : 0 ≤ m) (hmt : m ≤ 2 * t) (hP0 : 0 ≤ P) (hP : P ≤ 10 ^ 300) {fl : K → K} (hfl : IsBinary64 fl) :
    (1 - 1 / 2 ^ 53) ^ 2 * (P / t) * m - (P + 1) * (1 / 2 ^ 1075) ≤ fl (fl (m / t) * P) ∧
    fl (fl (m / t) * P) ≤ (1 + 1 / 2 ^ 53) ^ 2 * (P / t) * m + (2 * P + 1) * (1 / 2 ^ 1075) := by
  have hB : (10 : K) * 10 ^ 300 ≤ 2 ^ 1023 := by
    rw [← pow_succ']
    calc (10 : K) ^ 301 ≤ 10 ^ (3 * 102) := pow_le_pow_right₀ (by norm_num) (by norm_num)
      _ = (10 ^ 3) ^ 102 := pow_mul _ _ _
      _ ≤ (2 ^ 10) ^ 102 := pow_le_pow_left₀ (by norm_num) (by norm_num) _
      _ = 2 ^ (10 * 102) := (pow_mul _ _ _).symm
      _ ≤ 2 ^ 1023 := pow_le_pow_right₀ (by norm_num) (by norm_num)
  have h1 : (1 : K) ≤ 10 ^ 300 := one_le_pow₀ (by norm_num)
  have a1 : (1 / 2 ^ 1075 : K) ≤ 1 := by
    rw [div_le_one (by positivity)]; exact one_le_pow₀ (by norm_num)
  have a0 : (0 : K) < 1 / 2 ^ 1075 := by positivity
  generalize (10 : K) ^ 300 = Y at hP hB h1
  have hq0 : 0 ≤ m / t := div_nonneg hm ht.le
  have hq2 : m / t ≤ 2 := by rw [div_le_iff₀ ht]; exact hmt
  have e1 : fl (m / t) = (b64 : GradualRounding K).fl (m / t) := hfl _ (by rw [abs_of_nonneg hq0]; exact le_trans (by linarith) hB)
  have b1 := (b64 : GradualRounding K).fl_bounds hq0
  have n1 := (b64 : GradualRounding K).fl_nonneg hq0
  rw [e1]
  generalize (b64 : GradualRounding K).fl (m / t) = q at b1 n1 ⊢
  rw [b64_u, b64_a] at b1
  have q6 : q ≤ 6 := by
    have : (1 + 1 / 2 ^ 53 : K) * (m / t) ≤ 2 * 2 := mul_le_mul (by norm_num) hq2 hq0 (by norm_num)
    linarith [b1.2]
  have e2 : fl (q * P) = (b64 : GradualRounding K).fl (q * P) := hfl _ (by
    rw [abs_of_nonneg (mul_nonneg n1 hP0)]
    have : q * P ≤ 6 * Y := mul_le_mul q6 hP hP0 (by norm_num)
    exact le_trans (by linarith) hB)
  have b2 := (b64 : GradualRounding K).fl_bounds (mul_nonneg n1 hP0)
  rw [b64_u, b64_a] at b2
  rw [e2]
  have em : P / t * m = m / t * P := by ring
  rw [mul_assoc _ (P / t), mul_assoc _ (P / t), em]
  generalize m / t = w at *
  generalize (b64 : GradualRounding K).fl (q * P) = z at b2 ⊢
  generalize (1 / 2 ^ 1075 : K) = a at *
  have aP : 0 ≤ a * P := mul_nonneg a0.le hP0
  constructor
  · refine le_trans ?_ b2.1
    have h := mul_le_mul_of_nonneg_left (mul_le_mul_of_nonneg_right b1.1 hP0) (show (0 : K) ≤ 1 - 1 / 2 ^ 53 by norm_num)
    have e : (1 - 1 / 2 ^ 53) * (((1 - 1 / 2 ^ 53) * w - a) * P) = (1 - 1 / 2 ^ 53) ^ 2 * (w * P) - (1 - 1 / 2 ^ 53) * (a * P) := by ring
    rw [e] at h
    have h' : (1 - 1 / 2 ^ 53) * (a * P) ≤ a * P := mul_le_of_le_one_left aP (by norm_num)
    linarith
  · refine le_trans b2.2 ?_
    have h := mul_le_mul_of_nonneg_left (mul_le_mul_of_nonneg_right b1.2 hP0) (show (0 : K) ≤ 1 + 1 / 2 ^ 53 by norm_num)
    have e : (1 + 1 / 2 ^ 53) * (((1 + 1 / 2 ^ 53) * w + a) * P) = (1 + 1 / 2 ^ 53) ^ 2 * (w * P) + (1 + 1 / 2 ^ 53) * (a * P) := by ring
    rw [e] at h
    have h' : (1 + 1 / 2 ^ 53) * (a * P) ≤ 2 * (a * P) := mul_le_mul_of_nonneg_right (by norm_num) aP
    linarith

/-- **C129** (master station) The values of the master station are floating-point numbers with at most 10³⁰⁰ mm per day, the total of a day is computed by 23 additions in any order
and bracketing, and the precipitation P of the day is at most 10³⁰⁰ mm.  Then the 24 hourly values add up to P up to 3·10⁻¹⁵ P and 12 times the smallest positive number; if the master
station is dry on that day, with 'uniform', likewise. -/
theorem C129_master_binary64 {fl : K → K} (hfl : IsBinary64 fl) {sum : List (XF K) → XF K} {api : PandasApi} {zerodiv : String} {d0 : Int} {n : Nat} {v : Nat → XF K}
    {master out : Series (XF K)} {m : Nat → Nat → K} (hm : MasterRows master d0 n fun i h => .fin (m i h)) (hm0 : ∀ i < n, ∀ h < 24, 0 ≤ m i h ∧ fl (m i h) = m i h)
    (ho : precipMasterStationR fl sum api (dailyS d0 n v) master zerodiv = .ok out) {i : Nat} (hi : i < n) (hm1 : (day24 (m i)).sum ≤ 10 ^ 300) {P : K} (hP : v i = .fin P)
    (hP0 : 0 ≤ P) (hP1 : P ≤ 10 ^ 300) {t : K} (ht : sum ((day24 (m i)).map .fin) = .fin t) (hadd : AddsTo fl (day24 (m i)) t)
    (hz : (day24 (m i)).sum ≠ 0 ∨ zerodiv = "uniform") :
    ∃ T, TotalIs (dayCells out (d0 + i)) T ∧ |T - P| ≤ 3 / 10 ^ 15 * P + 12 * (1 / 2 ^ 1074) := by
  rw [masterR_run (by omega) ho, dayCells_hourlyS d0 _ hi, hm.filter i hi]
  have hrows : Series.values ((List.range 24).map fun h => (atHour (d0 + (i : Int)) h, XF.fin (m i h))) = (day24 (m i)).map .fin := by
    simp [Series.values, day24, Function.comp_def]
  have hB : (10 : K) * 10 ^ 300 ≤ 2 ^ 1023 := by
    rw [← pow_succ']
    calc (10 : K) ^ 301 ≤ 10 ^ (3 * 102) := pow_le_pow_right₀ (by norm_num) (by norm_num)
      _ = (10 ^ 3) ^ 102 := pow_mul _ _ _
      _ ≤ (2 ^ 10) ^ 102 := pow_le_pow_left₀ (by norm_num) (by norm_num) _
      _ = 2 ^ (10 * 102) := (pow_mul _ _ _).symm
      _ ≤ 2 ^ 1023 := pow_le_pow_right₀ (by norm_num) (by norm_num)
  have h1 : (1 : K) ≤ 10 ^ 300 := one_le_pow₀ (by norm_num)
  set S := (day24 (m i)).sum with hS
  have hmem : ∀ x ∈ day24 (m i), 0 ≤ x := by
    intro x hx
    obtain ⟨k, hk, rfl⟩ := mem_day24.1 hx
    exact (hm0 i hi k hk).1
  have hS0 : 0 ≤ S := List.sum_nonneg hmem
  have hle : ∀ k < 24, m i k ≤ S := fun k hk => List.single_le_sum hmem _ (mem_day24.2 ⟨k, hk, rfl⟩)
  have hlen : (day24 (m i)).length = 24 := by simp [day24]
  obtain ⟨_, _, _, t1, t2⟩ := addsTo_gradual b64 (B := 2 ^ 1023) hfl hadd (fun x hx => by
    obtain ⟨k, hk, rfl⟩ := mem_day24.1 hx
    have h := hm0 i hi k hk
    refine ⟨h.1, ?_⟩
    have := hfl (m i k) (by
      rw [abs_of_nonneg h.1]
      have := hle k hk
      refine le_trans ?_ hB
      generalize (10 : K) ^ 300 = Y at *
      linarith)
    rw [h.2] at this
    exact this.symm) (by
      rw [hlen, b64_u, ← hS]
      have : (1 + 1 / 2 ^ 53 : K) ^ 24 * S ≤ 2 * 10 ^ 300 := mul_le_mul (by norm_num) hm1 hS0 (by norm_num)
      refine le_trans ?_ hB
      generalize (10 : K) ^ 300 = Y at *
      linarith)
  rw [hlen, ← hS, b64_u] at t1 t2
  have e2 : (1 / 2 ^ 1074 : K) = 2 * (1 / 2 ^ 1075) := by rw [pow_succ (2 : K) 1074]; field_simp
  have a0 : (0 : K) < 1 / 2 ^ 1075 := by positivity
  have a1 : (1 / 2 ^ 1075 : K) ≤ 1 / 10 ^ 20 := by
    apply one_div_le_one_div_of_le (by positivity)
    calc (10 : K) ^ 20 ≤ 2 ^ 100 := by norm_num
      _ ≤ 2 ^ 1075 := pow_le_pow_right₀ (by norm_num) (by norm_num)
  by_cases hSne : S = 0
  · have hzu : zerodiv = "uniform" := hz.resolve_left fun h => h hSne
    have t0 : t = 0 := by
      rw [hSne, mul_zero] at t1 t2
      exact le_antisymm t2 t1
    have cell : ∀ k < 24, masterCellR fl sum zerodiv (d0 + (i : Int)) (v i)
        ((List.range 24).map fun h => (atHour (d0 + (i : Int)) h, XF.fin (m i h))) k = .fin (fl (fl (1 / 24) * P)) := by
      intro k hk
      unfold masterCellR
      dsimp only
      rw [hrows, ht, t0, if_neg (by rintro ⟨a, _⟩; exact a (by rw [XF.feq_fin])), if_pos hzu, hP]
      rfl
    refine ⟨24 * fl (fl (1 / 24) * P), ⟨day24 fun _ => fl (fl (1 / 24) * P), ?_, ?_⟩, ?_⟩
    · rw [day24_map]
      exact day24_congr cell
    · rw [sum_day24_const]
    · have b := master_share (t := 24) (m := 1) (by norm_num) (by norm_num) (by norm_num) hP0 hP1 hfl
      rw [e2]
      generalize fl (fl (1 / 24) * P) = z at b ⊢
      generalize (1 / 2 ^ 1075 : K) = a at *
      have aP := mul_le_mul_of_nonneg_right a1 hP0
      have c1 : (1 - 3 / 10 ^ 16) * P ≤ (1 - 1 / 2 ^ 53 : K) ^ 2 * P := mul_le_mul_of_nonneg_right (by norm_num) hP0
      have c2 : (1 + 1 / 2 ^ 53 : K) ^ 2 * P ≤ (1 + 3 / 10 ^ 16) * P := mul_le_mul_of_nonneg_right (by norm_num) hP0
      rw [abs_le]
      constructor <;> nlinarith [b.1, b.2]
  · have hSpos : 0 < S := lt_of_le_of_ne hS0 (Ne.symm hSne)
    have htpos : 0 < t := lt_of_lt_of_le (mul_pos (by norm_num) hSpos) t1
    have cell : ∀ k < 24, masterCellR fl sum zerodiv (d0 + (i : Int)) (v i)
        ((List.range 24).map fun h => (atHour (d0 + (i : Int)) h, XF.fin (m i h))) k = .fin (fl (fl (m i k / t) * P)) := by
      intro k hk
      unfold masterCellR
      dsimp only
      rw [hrows, ht, if_pos ⟨by rw [XF.feq_fin]; exact htpos.ne', by rw [XF.isNan_fin]; simp only [Bool.false_eq_true, if_false]; rw [XF.feq_fin]; exact htpos.ne'⟩]
      unfold Series.at?
      rw [List.map_map, Function.comp_def, find?_map_range 24 (fun k : Nat => atHour (d0 + (i : Int)) k) _ _ k hk rfl
        (by intro k _ e; unfold atHour at e; omega)]
      show ((XF.fin (m i k) / .fin t).rnd fl * v i).rnd fl = _
      rw [hP, XF.fin_div_fin_of_ne _ htpos.ne']
      rfl
    refine ⟨(day24 fun k => fl (fl (m i k / t) * P)).sum, ⟨day24 fun k => fl (fl (m i k / t) * P), ?_, rfl⟩, ?_⟩
    · rw [day24_map]
      exact day24_congr cell
    have share : ∀ k < 24, _ := fun k hk => master_share htpos (hm0 i hi k hk).1 (by
      have := hle k hk
      have h' : (1 / 2 : K) * S ≤ (1 - 1 / 2 ^ 53) ^ (24 - 1) * S := mul_le_mul_of_nonneg_right (by norm_num) hS0
      linarith) hP0 hP1 hfl
    have low : (day24 fun k => (1 - 1 / 2 ^ 53) ^ 2 * (P / t) * m i k + -((P + 1) * (1 / 2 ^ 1075))).sum ≤ (day24 fun k => fl (fl (m i k / t) * P)).sum :=
      sum_map_le fun k hk => by
        have := (share k (List.mem_range.1 hk)).1
        linarith
    have up : (day24 fun k => fl (fl (m i k / t) * P)).sum ≤ (day24 fun k => (1 + 1 / 2 ^ 53) ^ 2 * (P / t) * m i k + (2 * P + 1) * (1 / 2 ^ 1075)).sum :=
      sum_map_le fun k hk => (share k (List.mem_range.1 hk)).2
    rw [day24_sum_affine, ← hS] at low up
    generalize (day24 fun k => fl (fl (m i k / t) * P)).sum = T at low up ⊢
    have hST1 : S / t ≤ 1 + 26 / 10 ^ 16 := by
      rw [div_le_iff₀ htpos]
      have c : (1 : K) ≤ (1 + 26 / 10 ^ 16) * (1 - 1 / 2 ^ 53) ^ (24 - 1) := by norm_num
      have d := mul_le_mul_of_nonneg_left t1 (show (0 : K) ≤ 1 + 26 / 10 ^ 16 by norm_num)
      rw [← mul_assoc] at d
      have e := mul_le_mul_of_nonneg_right c hS0
      linarith
    have hST2 : 1 - 26 / 10 ^ 16 ≤ S / t := by
      rw [le_div_iff₀ htpos]
      have c : (1 - 26 / 10 ^ 16) * (1 + 1 / 2 ^ 53) ^ (24 - 1) ≤ (1 : K) := by norm_num
      have d := mul_le_mul_of_nonneg_left t2 (show (0 : K) ≤ 1 - 26 / 10 ^ 16 by norm_num)
      rw [← mul_assoc] at d
      have e := mul_le_mul_of_nonneg_right c hS0
      linarith
    have em : ∀ c : K, c * (P / t) * S = c * (S / t) * P := fun c => by ring
    rw [em] at low up
    rw [e2]
    generalize S / t = r at *
    generalize (1 / 2 ^ 1075 : K) = a at *
    have aP := mul_le_mul_of_nonneg_right a1 hP0
    have c1 : (1 - 29 / 10 ^ 16) * P ≤ (1 - 1 / 2 ^ 53 : K) ^ 2 * r * P := by
      refine mul_le_mul_of_nonneg_right (le_trans ?_ (mul_le_mul_of_nonneg_left hST2 (by positivity))) hP0
      norm_num
    have c2 : (1 + 1 / 2 ^ 53 : K) ^ 2 * r * P ≤ (1 + 29 / 10 ^ 16) * P := by
      refine mul_le_mul_of_nonneg_right (le_trans (mul_le_mul_of_nonneg_left hST1 (by positivity)) ?_) hP0
      norm_num
    rw [abs_le]
    constructor <;> linarith

/-- the hypotheses of C129 (master station) hold for the master station of C23 -/
example : (∃ t, sumLeft (roundGradual 53 (-1074)) ((day24 fun h => if h = 3 then (1 : ℚ) else if h = 7 then 2 else 0).map .fin) = .fin t ∧
      AddsTo (roundGradual 53 (-1074)) (day24 fun h => if h = 3 then (1 : ℚ) else if h = 7 then 2 else 0) t) ∧
    okAnd (precipMasterStationR (roundGradual 53 (-1074)) (sumLeft (roundGradual 53 (-1074))) .legacy (dailyS 0 2 fun i => .fin (if i = 0 then 1 / 2 ^ 1073 else 12)) exampleMaster
      "uniform") (fun s => decide (numbers (dayCells s 0) = day24 fun h => if h = 3 then 1 / 2 ^ 1074 else if h = 7 then 1 / 2 ^ 1074 else 0)) = true := by
  refine ⟨⟨_, rfl, ?_⟩, by decide +kernel⟩
  exact addsTo_foldl _ _ [_] _ (.one _)

end

end Melodist
