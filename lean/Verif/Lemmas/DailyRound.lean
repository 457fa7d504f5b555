import Verif.Model.DailyRound
import Verif.Lemmas.DailyB
import Verif.Spec.Rounding

/-!
# The columns of daily_from_hourly in rounded arithmetic; compensated summation
-/

set_option linter.unusedSectionVars false

namespace Melodist
open Spec

section
variable {K : Type} [Field K] [LinearOrder K] [IsStrictOrderedRing K]

/-- the six stages in rounded arithmetic -/
def stagesR (fl : K → K) (sum : List (XF K) → XF K) : List (Stage K) :=
  [⟨"temp", [("temp", Series.resampleD (meanR fl sum)), ("tmin", Series.resampleD minSkip), ("tmax", Series.resampleD maxSkip)]⟩, ⟨"precip", [("precip", Series.resampleD sum)]⟩,
    ⟨"glob", [("glob", Series.resampleD (meanR fl sum))]⟩,
    ⟨"hum", [("hum", Series.resampleD (meanR fl sum)), ("hum_min", Series.resampleD minSkip), ("hum_max", Series.resampleD maxSkip)]⟩,
    ⟨"wind", [("wind", Series.resampleD (meanR fl sum))]⟩, ⟨"ssd", [("ssd", fun s => (s.resampleD sum).map fun r => (r.1, (r.2 / .fin 60).rnd fl))]⟩]

variable (fl : K → K) (sum : List (XF K) → XF K)

theorem stagesR_idx : ∀ st ∈ stagesR fl sum, ∀ c ∈ st.cs, ∀ s : Series (XF K), Series.index (c.2 s) = (Series.daySpan s.index).map midnight := by
  intro st hst c hc s
  simp only [stagesR, List.mem_cons, List.not_mem_nil, or_false] at hst
  rcases hst with rfl | rfl | rfl | rfl | rfl | rfl <;>
    simp only [List.mem_cons, List.not_mem_nil, or_false] at hc
  · rcases hc with rfl | rfl | rfl <;> exact resampleD_index _ _
  · subst hc; exact resampleD_index _ _
  · subst hc; exact resampleD_index _ _
  · rcases hc with rfl | rfl | rfl <;> exact resampleD_index _ _
  · subst hc; exact resampleD_index _ _
  · subst hc
    rw [← resampleD_index sum s]
    simp [Series.index, Function.comp_def]

theorem stage3_eqR {d : Frame K} {idx : List Time} (hd : FrameIdx d ((Series.daySpan idx).map midnight)) (o : Option (Series (XF K)))
    (ho : ∀ s, o = some s → s.index = idx) (mean : List (XF K) → XF K) (a b c : String) :
    stage d o [(a, Series.resampleD mean), (b, Series.groupbyDate minSkip), (c, Series.groupbyDate maxSkip)] =
      stage d o [(a, Series.resampleD mean), (b, Series.resampleD minSkip), (c, Series.resampleD maxSkip)] := by
  cases o with
  | none => rfl
  | some s =>
    have hs := ho s rfl
    unfold stage
    simp only [List.foldl_cons, List.foldl_nil]
    have i1 := setCol_idx d _ hd a (s.resampleD mean) (by rw [resampleD_index, hs])
    have e1 : (d.setCol a (s.resampleD mean)).setCol b (s.groupbyDate minSkip) = (d.setCol a (s.resampleD mean)).setCol b (s.resampleD minSkip) := by
      apply setCol_congr (setCol_cols_ne _ _ _)
      intro t ht
      rw [i1] at ht
      obtain ⟨x, hx, rfl⟩ := List.mem_map.1 ht
      exact groupby_resample rfl s (by rw [hs]; exact hx)
    rw [e1]
    have i2 := setCol_idx (d.setCol a (s.resampleD mean)) _ (.inr i1) b (s.resampleD minSkip) (by rw [resampleD_index, hs])
    apply setCol_congr (setCol_cols_ne _ _ _)
    intro t ht
    rw [i2] at ht
    obtain ⟨x, hx, rfl⟩ := List.mem_map.1 ht
    exact groupby_resample rfl s (by rw [hs]; exact hx)

theorem runStagesR_idx {df : Frame K} (hwf : df.WF) {l : List (Stage K)} (hl : ∀ st ∈ l, st ∈ stagesR fl sum) :
    ∀ {d : Frame K}, FrameIdx d ((Series.daySpan df.index).map midnight) → FrameIdx (runStages df d l) ((Series.daySpan df.index).map midnight) := by
  induction l with
  | nil => intro d hd; exact hd
  | cons st l ih =>
    intro d hd
    unfold runStages
    rw [List.foldl_cons]
    refine ih (fun x hx => hl x (List.mem_cons_of_mem _ hx)) (stage_idx hd ?_)
    intro s hs c hc
    rw [stagesR_idx fl sum st (hl st (List.mem_cons_self ..)) c hc s, col?_index hwf hs]

theorem dailyFromHourlyR_run (df : Frame K) (hwf : df.WF) : dailyFromHourlyR fl sum df = runStages df ⟨[], []⟩ (stagesR fl sum) := by
  have hi : ∀ name s, df.col? name = some s → s.index = df.index := fun name s h => col?_index hwf h
  have i0 : FrameIdx (⟨[], []⟩ : Frame K) ((Series.daySpan df.index).map midnight) := .inl rfl
  have e : dailyFromHourlyR fl sum df = stage (stage (stage (stage (stage (stage ⟨[], []⟩ (df.col? "temp") [("temp", Series.resampleD (meanR fl sum)), ("tmin", Series.groupbyDate minSkip),
      ("tmax", Series.groupbyDate maxSkip)]) (df.col? "precip") [("precip", Series.resampleD sum)]) (df.col? "glob") [("glob", Series.resampleD (meanR fl sum))])
      (df.col? "hum") [("hum", Series.resampleD (meanR fl sum)), ("hum_min", Series.groupbyDate minSkip), ("hum_max", Series.groupbyDate maxSkip)])
      (df.col? "wind") [("wind", Series.resampleD (meanR fl sum))]) (df.col? "ssd") [("ssd", fun s => (s.resampleD sum).map fun r => (r.1, (r.2 / .fin 60).rnd fl))] := by
    unfold dailyFromHourlyR stage
    rfl
  rw [e, stage3_eqR i0 _ (fun s h => hi _ s h)]
  have i3 := runStagesR_idx fl sum hwf (l := [⟨"temp", [("temp", Series.resampleD (meanR fl sum)), ("tmin", Series.resampleD minSkip), ("tmax", Series.resampleD maxSkip)]⟩,
    ⟨"precip", [("precip", Series.resampleD sum)]⟩, ⟨"glob", [("glob", Series.resampleD (meanR fl sum))]⟩]) (by simp [stagesR]) i0
  have := stage3_eqR i3 (df.col? "hum") (fun s h => hi _ s h) (meanR fl sum) "hum" "hum_min" "hum_max"
  unfold runStages at this
  simp only [List.foldl_cons, List.foldl_nil] at this
  rw [this]
  rfl

/-- the column of every stage -/
theorem dailyFromHourlyR_col_any (df : Frame K) (hwf : df.WF) (pre post : List (Stage K)) (st : Stage K) (e : stagesR fl sum = pre ++ st :: post) {s : Series (XF K)}
    (hs : df.col? st.source = some s) (hp : st.cs.Pairwise fun a b => b.1 ≠ a.1)
    (ho : ∀ a ∈ st.cs.map Prod.fst, ∀ b ∈ post.flatMap fun st => st.cs.map Prod.fst, b ≠ a) :
    ∀ c ∈ st.cs, (dailyFromHourlyR fl sum df).col? c.1 = some (c.2 s) := by
  intro c hc
  have hst : st ∈ stagesR fl sum := by rw [e]; simp
  have hpre : ∀ x ∈ pre, x ∈ stagesR fl sum := by intro x hx; rw [e]; simp [hx]
  have i0 : FrameIdx (⟨[], []⟩ : Frame K) ((Series.daySpan df.index).map midnight) := .inl rfl
  have i1 := runStagesR_idx fl sum hwf hpre i0
  rw [dailyFromHourlyR_run fl sum df hwf, e]
  unfold runStages at i1 ⊢
  rw [List.foldl_append, List.foldl_cons]
  have := runStages_other (df := df) c.1 (l := post) (d := stage (List.foldl (fun d st => stage d (df.col? st.source) st.cs) ⟨[], []⟩ pre) (df.col? st.source) st.cs)
    (fun st' h' _ c' hc' => ho c.1 (List.mem_map_of_mem hc) c'.1 (List.mem_flatMap.2 ⟨st', h', List.mem_map_of_mem hc'⟩))
  unfold runStages at this
  rw [this, hs]
  refine foldl_setCol_same st.cs s _ _ ?_ i1 ?_ hp c hc
  · refine List.Nodup.map ?_ (daySpan_nodup _)
    intro a b h
    unfold midnight at h
    omega
  · intro c' hc'
    rw [stagesR_idx fl sum st hst c' hc' s, col?_index hwf hs]

/-! ## compensated summation -/

/-- one step: the compensation stays small, and the sum minus the compensation is off by little more than before -/
theorem kahan_step (R : Rounding K) (hu : R.u ≤ 1 / 64) {s c S A x e : K} (hA : |S| ≤ A) (hc : |c| ≤ 4 * R.u * A) (he : |s - c - S| ≤ e) (he3 : e ≤ 3 * R.u * A) :
    let y := R.fl (x - c)
    let t := R.fl (s + y)
    let c' := R.fl (R.fl (t - s) - y)
    |c'| ≤ 4 * R.u * (A + |x|) ∧ |t - c' - (S + x)| ≤ e + 2 * R.u * |x| + 20 * R.u ^ 2 * (A + |x|) := by
  intro y t c'
  have u0 := R.u_nonneg
  generalize hu' : R.u = u at *
  have hx0 := abs_nonneg x
  have hA0 : 0 ≤ A := (abs_nonneg _).trans hA
  have uA : 0 ≤ u * A := mul_nonneg u0 hA0
  have ux : 0 ≤ u * |x| := mul_nonneg u0 hx0
  have u2A : u * (u * A) ≤ 1 / 64 * (u * A) := mul_le_mul_of_nonneg_right hu uA
  have u2x : u * (u * |x|) ≤ 1 / 64 * (u * |x|) := mul_le_mul_of_nonneg_right hu ux
  have uA' : u * A ≤ 1 / 64 * A := mul_le_mul_of_nonneg_right hu hA0
  have ux' : u * |x| ≤ 1 / 64 * |x| := mul_le_mul_of_nonneg_right hu hx0
  have v0 : 0 ≤ u * (u * A) := mul_nonneg u0 uA
  have v1 : 0 ≤ u * (u * |x|) := mul_nonneg u0 ux
  -- the sizes
  have hs : |s| ≤ A + 7 * (u * A) := by
    have h1 : |s| ≤ |s - c - S| + |c| + |S| := by
      have := abs_add_le (s - c - S) (c + S)
      have h2 := abs_add_le c S
      rw [show s - c - S + (c + S) = s by ring] at this
      linarith
    linarith
  have hxc : |x - c| ≤ |x| + 4 * (u * A) := (abs_sub x c).trans (by linarith)
  have ey : |y - (x - c)| ≤ u * (|x| + 4 * (u * A)) := by
    have := R.err (x - c)
    rw [hu'] at this
    exact this.trans (mul_le_mul_of_nonneg_left hxc u0)
  have hy : |y| ≤ (|x| + 4 * (u * A)) + u * (|x| + 4 * (u * A)) := by
    have := abs_add_le (y - (x - c)) (x - c)
    rw [sub_add_cancel] at this
    linarith
  have hsy : |s + y| ≤ A + 12 * (u * A) + (|x| + u * |x|) := by
    have := abs_add_le s y
    linarith
  have et : |t - (s + y)| ≤ u * (A + 12 * (u * A) + (|x| + u * |x|)) := by
    have := R.err (s + y)
    rw [hu'] at this
    exact this.trans (mul_le_mul_of_nonneg_left hsy u0)
  set τ := u * (A + 12 * (u * A) + (|x| + u * |x|)) with hτ
  have hτb : τ ≤ 5 / 4 * (u * A) + 5 / 4 * (u * |x|) := by rw [hτ]; linarith
  have hτ0 : 0 ≤ τ := (abs_nonneg _).trans et
  have hts : |t - s| ≤ |y| + τ := by
    have := abs_add_le (t - (s + y)) y
    rw [show t - (s + y) + y = t - s by ring] at this
    linarith
  have hyb : |y| ≤ 66 / 64 * |x| + 5 * (u * A) := by linarith
  have ed : |R.fl (t - s) - (t - s)| ≤ u * (|y| + τ) := by
    have := R.err (t - s)
    rw [hu'] at this
    exact this.trans (mul_le_mul_of_nonneg_left hts u0)
  have uy : u * (|y| + τ) ≤ u * |x| + 8 * (u * (u * A)) + 3 * (u * (u * |x|)) := by
    have h1 : u * |y| ≤ u * ((|x| + 4 * (u * A)) + u * (|x| + 4 * (u * A))) := mul_le_mul_of_nonneg_left hy u0
    have h2 : u * τ ≤ u * (5 / 4 * (u * A) + 5 / 4 * (u * |x|)) := mul_le_mul_of_nonneg_left hτb u0
    have h3 : u * (u * (u * A)) ≤ 1 / 64 * (u * (u * A)) := mul_le_mul_of_nonneg_right hu v0
    linarith
  have hdy : |R.fl (t - s) - y| ≤ τ + u * (|y| + τ) := by
    have := abs_add_le (R.fl (t - s) - (t - s)) (t - (s + y))
    rw [show R.fl (t - s) - (t - s) + (t - (s + y)) = R.fl (t - s) - y by ring] at this
    linarith
  have ec : |c' - (R.fl (t - s) - y)| ≤ u * (τ + u * (|y| + τ)) := by
    have := R.err (R.fl (t - s) - y)
    rw [hu'] at this
    exact this.trans (mul_le_mul_of_nonneg_left hdy u0)
  have uw : u * (τ + u * (|y| + τ)) ≤ 2 * (u * (u * A)) + 3 * (u * (u * |x|)) := by
    have h2 : u * τ ≤ u * (5 / 4 * (u * A) + 5 / 4 * (u * |x|)) := mul_le_mul_of_nonneg_left hτb u0
    have h3 : u * (u * (|y| + τ)) ≤ u * (u * |x| + 8 * (u * (u * A)) + 3 * (u * (u * |x|))) := mul_le_mul_of_nonneg_left uy u0
    have h4 : u * (u * (u * A)) ≤ 1 / 64 * (u * (u * A)) := mul_le_mul_of_nonneg_right hu v0
    have h5 : u * (u * (u * |x|)) ≤ 1 / 64 * (u * (u * |x|)) := mul_le_mul_of_nonneg_right hu v1
    linarith
  constructor
  · have := abs_add_le (c' - (R.fl (t - s) - y)) (R.fl (t - s) - y)
    rw [sub_add_cancel] at this
    linarith
  · have h1 : t - c' - (S + x) = (s - c - S) + (y - (x - c)) - (R.fl (t - s) - (t - s)) - (c' - (R.fl (t - s) - y)) := by ring
    rw [h1]
    have a1 := abs_sub ((s - c - S) + (y - (x - c)) - (R.fl (t - s) - (t - s))) (c' - (R.fl (t - s) - y))
    have a2 := abs_sub ((s - c - S) + (y - (x - c))) (R.fl (t - s) - (t - s))
    have a3 := abs_add_le (s - c - S) (y - (x - c))
    linarith

theorem kahan_loop (R : Rounding K) (hu : R.u ≤ 1 / 64) : ∀ (l : List K) (k : Nat) (s c S A : K), 20 * ((k + l.length : Nat) : K) * R.u ≤ 1 → |S| ≤ A → |c| ≤ 4 * R.u * A →
    |s - c - S| ≤ (2 * R.u + 20 * (k : K) * R.u ^ 2) * A → |kahanLoop R.fl s c l - (S + l.sum)| ≤ 7 * R.u * (A + (l.map fun x => |x|).sum) := by
  intro l
  have u0 := R.u_nonneg
  induction l with
  | nil =>
    intro k s c S A hk hS hc he
    simp only [kahanLoop, List.sum_nil, List.map_nil, add_zero, List.length_nil] at hk ⊢
    have hA : 0 ≤ A := (abs_nonneg _).trans hS
    have h1 := abs_add_le (s - c - S) c
    rw [show s - c - S + c = s - S by ring] at h1
    have h2 : 20 * (k : K) * R.u ^ 2 * A ≤ R.u * A := by
      have := mul_le_mul_of_nonneg_right hk (mul_nonneg u0 hA)
      nlinarith
    nlinarith
  | cons x l ih =>
    intro k s c S A hk hS hc he
    have hA : 0 ≤ A := (abs_nonneg _).trans hS
    have hx := abs_nonneg x
    have hkl : (((k + 1) + l.length : Nat) : K) = ((k + (x :: l).length : Nat) : K) := by congr 1; simp; omega
    have hk' : 20 * (k : K) * R.u ≤ 1 := by
      refine le_trans (mul_le_mul_of_nonneg_right (mul_le_mul_of_nonneg_left ?_ (by norm_num)) u0) hk
      exact_mod_cast Nat.le_add_right k _
    have he3 : (2 * R.u + 20 * (k : K) * R.u ^ 2) * A ≤ 3 * R.u * A := by
      have := mul_le_mul_of_nonneg_right hk' (mul_nonneg u0 hA)
      nlinarith
    obtain ⟨h1, h2⟩ := kahan_step R hu (x := x) hS hc he he3
    rw [kahanLoop]
    have := ih (k + 1) (R.fl (s + R.fl (x - c))) (R.fl (R.fl (R.fl (s + R.fl (x - c)) - s) - R.fl (x - c))) (S + x) (A + |x|) (by rw [hkl]; exact hk)
      ((abs_add_le S x).trans (by linarith)) h1 (by
        refine h2.trans ?_
        push_cast
        have : 0 ≤ 20 * (k : K) * R.u ^ 2 * |x| := by positivity
        nlinarith)
    rw [List.sum_cons, List.map_cons, List.sum_cons, ← add_assoc, ← add_assoc]
    exact this

/-- Compensated summation: the error is at most 7 units of the rounding, whatever the number of values (up to 1/(20 u)). -/
theorem kahanSum_err (R : Rounding K) (hu : R.u ≤ 1 / 64) (l : List K) (hl : 20 * (l.length : K) * R.u ≤ 1) :
    |kahanSum R.fl l - l.sum| ≤ 7 * R.u * (l.map fun x => |x|).sum := by
  have := kahan_loop R hu l 0 0 0 0 0 (by simpa using hl) (by simp) (by simp) (by simp)
  simpa [kahanSum] using this

end

end Melodist
