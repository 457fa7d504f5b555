import Verif.Props.CascadeMean
import Verif.Lemmas.UnitsPrecip
import Verif.Props.CascadeRun

/-!
# C167: how the hourly values of the cascade depend on the daily amounts
-/

set_option linter.unusedSectionVars false

namespace Melodist
open Spec

noncomputable section

/-- the list with its entry `j` multiplied by `c j` -/
def scaled (c : Nat → ℝ) (l : List ℝ) : List ℝ := l.mapIdx fun j y => c j * y

theorem scaled_cons (c : Nat → ℝ) (x : ℝ) (l : List ℝ) : scaled c (x :: l) = c 0 * x :: scaled (fun j => c (j + 1)) l := by
  unfold scaled
  rw [List.mapIdx_cons]

theorem scaled_length (c : Nat → ℝ) (l : List ℝ) : (scaled c l).length = l.length := by simp [scaled]

theorem scaled_getD (c : Nat → ℝ) (l : List ℝ) (j : Nat) : (scaled c l).getD j 0 = c j * l.getD j 0 := by
  unfold scaled
  rw [List.getD_eq_getElem?_getD, List.getD_eq_getElem?_getD, List.getElem?_mapIdx]
  cases l[j]? <;> simp

/-- neighbouring boxes: both absent, or the second a positive multiple of the first -/
def Multiple (p p' : Option ℝ) : Prop := (p = none ∧ p' = none) ∨ ∃ c y, 0 < c ∧ p = some y ∧ p' = some (c * y)

theorem boxType_multiple {p p' n n' : Option ℝ} (hp : Multiple p p') (hn : Multiple n n') (st : Option BoxType) : boxType p' n' st = boxType p n st := by
  rcases hp with ⟨rfl, rfl⟩ | ⟨c, y, hc, rfl, rfl⟩ <;> rcases hn with ⟨rfl, rfl⟩ | ⟨d, z, hd, rfl, rfl⟩ <;> unfold boxType
  · rfl
  · simp only [scale_pos_iff hd]
  · simp only [scale_pos_iff hc]
  · simp only [scale_pos_iff hc, scale_zero_iff hc, scale_pos_iff hd, scale_zero_iff hd]

theorem boxStep_multiple (rnd : Nat → ℝ) (s : CascStats ℝ) (m : XF ℝ) {p p' n n' : Option ℝ} (hp : Multiple p p') (hn : Multiple n n') {c : ℝ} (hc : 0 < c) (x : ℝ)
    (h : 0 < x → (XF.lt m (.fin x) ↔ XF.lt m (.fin (c * x)))) (st : CascVars ℝ) :
    boxStep rnd s m p' (c * x) n' st = (boxStep rnd s m p x n st).map fun r => ((c * r.1.1, c * r.1.2), r.2) := by
  unfold boxStep
  simp only [scale_pos_iff hc, boxType_multiple hp hn]
  by_cases hx : 0 < x
  · rw [if_pos hx, if_pos hx]
    simp only [← h hx]
    simp only [bind, Except.bind]
    cases boxType p n st.vbtype with
    | error e => rfl
    | ok vb =>
      simp only
      cases vb with
      | none => rfl
      | some ty =>
        simp only
        generalize (if XF.lt m (.fin x) then (1 : Fin 2) else 0) = b
        split
        · simp [Except.map]
        · split
          · simp [Except.map]
          · cases guessW1 s b ty.col (rnd (st.draws + 1)) st.w1 with
            | none => rfl
            | some w =>
              simp only
              split
              · rfl
              · simp only [Except.map]
                congr 3 <;> ring
  · rw [if_neg hx, if_neg hx]
    simp [Except.map]

theorem boxLoop_scaled (rnd : Nat → ℝ) (s : CascStats ℝ) (m : XF ℝ) : ∀ (v : List ℝ) (c : Nat → ℝ) (p p' : Option ℝ) (st : CascVars ℝ), Multiple p p' → (∀ j, 0 < c j) →
    (∀ j y, v[j]? = some y → 0 < y → (XF.lt m (.fin y) ↔ XF.lt m (.fin (c j * y)))) →
    boxLoop rnd s m p' (scaled c v) st = (boxLoop rnd s m p v st).map fun r => (scaled (fun j => c (j / 2)) r.1, r.2) := by
  intro v
  induction v with
  | nil => intro c p p' st _ _ _; rfl
  | cons x v ih =>
    intro c p p' st hp hc h
    rw [scaled_cons]
    unfold boxLoop
    have hn : Multiple v.head? (scaled (fun j => c (j + 1)) v).head? := by
      cases v with
      | nil => exact .inl ⟨rfl, rfl⟩
      | cons y v => rw [scaled_cons]; exact .inr ⟨_, y, hc 1, rfl, rfl⟩
    rw [boxStep_multiple rnd s m hp hn (hc 0) x (fun hx => h 0 x rfl hx) st]
    simp only [bind, Except.bind]
    cases boxStep rnd s m p x v.head? st with
    | error e => rfl
    | ok r =>
      simp only [Except.map]
      rw [ih (fun j => c (j + 1)) (some x) (some (c 0 * x)) r.2 (.inr ⟨_, x, hc 0, rfl, rfl⟩) (fun j => hc _) fun j y hj hy => h (j + 1) y hj hy]
      cases boxLoop rnd s m (some x) v r.2 with
      | error e => rfl
      | ok q =>
        simp only [Except.map]
        rw [scaled_cons, scaled_cons]
        have e : (fun j => c (j / 2 + 1)) = fun j => c ((j + 1 + 1) / 2) := by
          funext j
          rw [show j + 1 + 1 = j + 2 by rfl, Nat.add_div_right j (by norm_num : 0 < 2)]
        rw [e]

theorem levelLoop_scaled (rnd : Nat → ℝ) (opts : CascOptions ℝ) : ∀ (si : Nat) (v : List ℝ) (c : Nat → ℝ) (st : CascVars ℝ) (levels : List (List ℝ)), (∀ j, 0 < c j) →
    levelLoop rnd opts si v st = .ok levels →
    (∀ k < si, ∀ s m, levelStats opts (si - (k + 1)) = .ok (s, m) → ∀ j y, ((v :: levels).getD k [])[j]? = some y → 0 < y →
      (XF.lt m (.fin y) ↔ XF.lt m (.fin (c (j / 2 ^ k) * y)))) →
    levelLoop rnd opts si (scaled c v) st = .ok (levels.mapIdx fun k l => scaled (fun j => c (j / 2 ^ (k + 1))) l) := by
  intro si
  induction si with
  | zero => intro v c st levels _ h _; cases h; rfl
  | succ si ih =>
    intro v c st levels hc h hm
    unfold levelLoop at h ⊢
    cases hls : levelStats opts si with
    | error e => rw [hls] at h; cases h
    | ok sm =>
      obtain ⟨s, m⟩ := sm
      rw [hls] at h
      simp only [bind, Except.bind] at h ⊢
      rw [boxLoop_scaled rnd s m v c none none st (.inl ⟨rfl, rfl⟩) hc fun j y hj hy => by
        have := hm 0 (by omega) s m hls j y hj hy
        rwa [pow_zero, Nat.div_one] at this]
      cases hb : boxLoop rnd s m none v st with
      | error e => rw [hb] at h; cases h
      | ok q =>
        rw [hb] at h
        simp only at h
        cases hr : levelLoop rnd opts si q.1 q.2 with
        | error e => rw [hr] at h; cases h
        | ok rest =>
          rw [hr] at h
          simp only [Except.ok.injEq] at h
          simp only [Except.map]
          rw [ih q.1 (fun j => c (j / 2)) q.2 rest (fun j => hc _) hr fun k hk s' m' hs' j y hj hy => by
            have := hm (k + 1) (by omega) s' m' (by rw [show si + 1 - (k + 1 + 1) = si - (k + 1) by omega]; exact hs') j y (by rw [← h]; exact hj) hy
            rwa [Nat.div_div_eq_div_mul, ← pow_succ]]
          simp only
          rw [← h, List.mapIdx_cons]
          congr 2
          have e : (fun (k : Nat) (l : List ℝ) => scaled (fun j => c (j / 2 ^ (k + 1) / 2)) l) = fun k l => scaled (fun j => c (j / 2 ^ (k + 1 + 1))) l := by
            funext k l
            congr 1
            funext j
            rw [Nat.div_div_eq_div_mul, ← pow_succ]
          rw [e]

theorem zeroMissing_scaled (c : Nat → ℝ) : ∀ (l : List (XF ℝ)) (w : List ℝ) (o : Nat), zeroMissing l = .ok w →
    zeroMissing (l.mapIdx fun i x => .fin (c (i + o)) * x) = .ok (scaled (fun i => c (i + o)) w) := by
  intro l
  induction l with
  | nil => intro w o h; cases h; rfl
  | cons a l ih =>
    intro w o h
    rw [List.mapIdx_cons]
    have e : (fun (i : Nat) (x : XF ℝ) => XF.fin (c (i + 1 + o)) * x) = fun i x => .fin (c (i + (1 + o))) * x := by funext i x; rw [add_assoc]
    cases a with
    | pinf => cases h
    | ninf => cases h
    | nan =>
      unfold zeroMissing at h
      cases hz : zeroMissing l with
      | error e => rw [hz] at h; cases h
      | ok u =>
        rw [hz] at h; cases h
        rw [XF.mul_nan]
        unfold zeroMissing
        rw [e, ih u (1 + o) hz, scaled_cons]
        simp only [bind, Except.bind, mul_zero, add_assoc]
    | fin x =>
      unfold zeroMissing at h
      cases hz : zeroMissing l with
      | error e => rw [hz] at h; cases h
      | ok u =>
        rw [hz] at h; cases h
        rw [XF.fin_mul_fin]
        unfold zeroMissing
        rw [e, ih u (1 + o) hz, scaled_cons]
        simp only [bind, Except.bind, add_assoc]

theorem assemble_ok {api : PandasApi} {idx : List Time} {level : Nat} {u u' fine : List ℝ} {s : Series ℝ} (h : assembleSeries api idx true level u = .ok (fine, s)) (hl : u'.length = u.length) :
    ∃ fine' s', assembleSeries api idx true level u' = .ok (fine', s') := by
  unfold assembleSeries at h ⊢
  simp only [if_true, bind, Except.bind] at h ⊢
  have hq : ∀ l : List ℝ, (hourlyFromQuarter (quarterHours l)).length = l.length * 3 / 4 := by
    intro l
    simp [hourlyFromQuarter, quarterHours]
  cases hi : hourlyIndex api idx with
  | error e => rw [hi] at h; cases h
  | ok index =>
    rw [hi] at h
    simp only at h ⊢
    unfold Series.make at h ⊢
    rw [hq, hl, ← hq]
    by_cases hc : index.length = (hourlyFromQuarter (quarterHours u)).length
    · rw [if_pos hc]; exact ⟨_, _, rfl⟩
    · rw [if_neg hc] at h; cases h

/-- **C167** (cascade) A run of the hourly cascade, and the daily amounts of day `i` multiplied by `c i > 0`, with the same statistics and random numbers.  If no daily amount and no box of the first run is moved
across the threshold of its level by its day's factor, the second run succeeds, and all hourly values of day `i` are `c i` times those of the first run. -/
theorem C167_cascade {api : PandasApi} {rnd : Nat → ℝ} {d0 : Int} {n : Nat} {v : Nat → XF ℝ} {opts : CascOptions ℝ} {level : Nat} {test : Bool} {r : CascadeOut ℝ}
    (h : disaggPrecCascade api rnd (dailyS d0 n v) opts true level 0 test = .ok r) {c : Nat → ℝ} (hc : ∀ i, 0 < c i) {thr : Nat → XF ℝ} (ht : ∀ l < 5, ∃ s, statsOfLevel opts 5 l s (thr l))
    (h0 : ∀ i < n, ∀ x, v i = .fin x → 0 < x → (XF.lt (thr 0) (.fin x) ↔ XF.lt (thr 0) (.fin (c i * x))))
    (h1 : ∀ l, l + 1 < 5 → ∀ j y, (r.levels.getD l [])[j]? = some y → 0 < y → (XF.lt (thr (l + 1)) (.fin y) ↔ XF.lt (thr (l + 1)) (.fin (c (j / 2 ^ (l + 1)) * y)))) :
    ∃ r', disaggPrecCascade api rnd (dailyS d0 n fun i => .fin (c i) * v i) opts true level 0 test = .ok r' ∧
      ∀ i < n, dayCells r'.series (d0 + i) = (dayCells r.series (d0 + i)).map fun y => .fin (c i) * y := by
  obtain ⟨hl, w, levels, fine, s, hz, _, ho, hlev, ha, e⟩ := disagg_inv h
  have elev : r.levels = levels := by rw [e]
  rw [dailyS_length] at hl
  rw [dailyS_values] at hz
  simp only [if_true] at hlev ho
  have hz' : zeroMissing (Series.values (dailyS d0 n fun i => .fin (c i) * v i)) = .ok (scaled c w) := by
    have := zeroMissing_scaled c _ w 0 hz
    rw [dailyS_values]
    simp only [add_zero] at this
    rw [← this]
    congr 1
    apply List.ext_getElem?
    intro i
    rw [List.getElem?_mapIdx, List.getElem?_map, List.getElem?_map]
    by_cases hi : i < n
    · rw [List.getElem?_range hi]; rfl
    · rw [List.getElem?_eq_none (by simpa using hi)]; rfl
  have hlev' := levelLoop_scaled rnd opts 5 w c {} levels hc hlev (by
    intro k hk s' m hs' j y hj hy
    obtain ⟨s0, e0⟩ := ht k hk
    have e1 := statsOfLevel_levelStats e0
    rw [hs'] at e1
    cases e1
    cases k with
    | zero =>
      obtain ⟨z1, z2⟩ := zeroMissing_ok hz
      rw [pow_zero, Nat.div_one]
      have hj' : w[j]? = some y := hj
      have hjn : j < n := by
        have := (List.getElem?_eq_some_iff.1 hj').1
        rw [z1] at this
        simpa using this
      obtain ⟨f, g1, g2⟩ := z2 j (v j) (by simp [hjn])
      cases hv : v j with
      | fin x =>
        have := g1 x hv
        rw [hj'] at this
        cases this
        exact h0 j hjn y hv hy
      | nan =>
        have := g2 hv
        rw [hj'] at this
        cases this
        exact absurd hy (lt_irrefl _)
      | pinf => rw [hv] at f; exact f.elim
      | ninf => rw [hv] at f; exact f.elim
    | succ k => exact h1 k hk j y (by rw [elev]; exact hj) hy)
  have hlen := levelLoop_length hlev
  have hlast : ((levels.mapIdx fun k l => scaled (fun j => c (j / 2 ^ (k + 1))) l).getLastD []).length = (levels.getLastD []).length := by
    rw [List.getLastD_eq_getLast?, List.getLast?_eq_getElem?, List.getLastD_eq_getLast?, List.getLast?_eq_getElem?, List.length_mapIdx, List.getElem?_mapIdx]
    cases levels[levels.length - 1]? with
    | none => rfl
    | some l => simp [scaled_length]
  obtain ⟨fine', s', ha'⟩ := assemble_ok ha hlast
  have hrun : disaggPrecCascade api rnd (dailyS d0 n fun i => .fin (c i) * v i) opts true level 0 test = .ok ⟨levels.mapIdx fun k l => scaled (fun j => c (j / 2 ^ (k + 1))) l, fine',
      restoreMissing (((dailyS d0 n fun i => .fin (c i) * v i).filter fun r => r.2.isNan).map Prod.fst) s'⟩ := by
    unfold disaggPrecCascade
    rw [if_neg (by rw [dailyS_length]; omega), hz']
    simp only [bind, Except.bind, if_true]
    rw [if_neg (by norm_num), ho]
    simp only
    rw [hlev']
    simp only
    rw [dailyS_index_congr d0 n (fun i => .fin (c i) * v i) v, ha']
    simp
  refine ⟨_, hrun, fun i hi => ?_⟩
  have hnf : (v i).NanOrFin := ((zeroMissing_ok hz).2 i (v i) (by simp [hi])).1
  rw [cascade_cells hrun hi, cascade_cells h hi]
  unfold day24
  rw [List.map_map]
  apply List.map_congr_left
  intro k hk
  have hk := List.mem_range.1 hk
  simp only [Function.comp_def]
  cases hv : v i with
  | pinf => rw [hv] at hnf; exact hnf.elim
  | ninf => rw [hv] at hnf; exact hnf.elim
  | nan => simp
  | fin x =>
    simp only [XF.fin_mul_fin, XF.isNan, Bool.false_eq_true, if_false]
    congr 1
    rw [Finset.mul_sum, elev]
    refine Finset.sum_congr rfl fun m hm => ?_
    have hm := Finset.mem_range.1 hm
    have h4 : (levels.mapIdx fun k l => scaled (fun j => c (j / 2 ^ (k + 1))) l).getD 4 [] = scaled (fun j => c (j / 2 ^ 5)) (levels.getD 4 []) := by
      rw [List.getD_eq_getElem?_getD, List.getD_eq_getElem?_getD, List.getElem?_mapIdx]
      cases levels[4]? <;> rfl
    rw [h4, scaled_getD, show (4 * (24 * i + k) + m) / 3 / 2 ^ 5 = i by omega]
    ring

/-- **C167** (errors) Two daily records with the same missing and dry days whose amounts differ by at most the fraction `ρ < 1`, the same statistics and random numbers.  If no amount and no box of the first run
is within the fraction `ρ` of the threshold of its level, the second run succeeds as well; on every day the hours keep their shares of the daily amount, every hour changes by at most the fraction `ρ` and by at
most the difference of the daily amounts, and all changes of the day together are that difference. -/
theorem C167_errors {api : PandasApi} {rnd : Nat → ℝ} {d0 : Int} {n : Nat} {v v' : Nat → XF ℝ} {opts : CascOptions ℝ} {level : Nat} {test : Bool} {r : CascadeOut ℝ}
    (h : disaggPrecCascade api rnd (dailyS d0 n v) opts true level 0 test = .ok r) {ρ : ℝ} (hρ0 : 0 ≤ ρ) (hρ : ρ < 1)
    (hv : ∀ i < n, (v i = .nan ∧ v' i = .nan) ∨ (v i = .fin 0 ∧ v' i = .fin 0) ∨ ∃ x x', v i = .fin x ∧ v' i = .fin x' ∧ 0 < x ∧ |x' - x| ≤ ρ * x)
    {thr : Nat → ℝ} (ht : ∀ l < 5, ∃ s, statsOfLevel opts 5 l s (.fin (thr l))) (h0 : ∀ i < n, ∀ x, v i = .fin x → 0 < x → ρ * x < |x - thr 0|)
    (h1 : ∀ l, l + 1 < 5 → ∀ y ∈ r.levels.getD l [], 0 < y → ρ * y < |y - thr (l + 1)|) :
    ∃ r', disaggPrecCascade api rnd (dailyS d0 n v') opts true level 0 test = .ok r' ∧ ∀ i < n, ∀ x x', v i = .fin x → v' i = .fin x' → ∃ f f' : Nat → ℝ,
      dayCells r.series (d0 + i) = day24 (fun k => .fin (f k)) ∧ dayCells r'.series (d0 + i) = day24 (fun k => .fin (f' k)) ∧
      (∀ k < 24, 0 ≤ f k ∧ x * f' k = x' * f k ∧ |f' k - f k| ≤ ρ * f k ∧ |f' k - f k| ≤ |x' - x|) ∧ (day24 fun k => |f' k - f k|).sum = |x' - x| := by
  -- the factor of a day
  have hc : ∀ i, ∃ c : ℝ, 0 < c ∧ |c - 1| ≤ ρ ∧ (i < n → v' i = .fin c * v i) := by
    intro i
    by_cases hi : i < n
    · rcases hv i hi with ⟨a, b⟩ | ⟨a, b⟩ | ⟨x, x', a, b, hx, hd⟩
      · exact ⟨1, one_pos, by simpa using hρ0, fun _ => by rw [a, b, XF.mul_nan]⟩
      · exact ⟨1, one_pos, by simpa using hρ0, fun _ => by rw [a, b, XF.fin_mul_fin, mul_zero]⟩
      · have hd' := abs_le.1 hd
        refine ⟨x' / x, div_pos (by nlinarith) hx, ?_, fun _ => by rw [a, b, XF.fin_mul_fin, div_mul_cancel₀ _ hx.ne']⟩
        rw [div_sub_one hx.ne', abs_div, abs_of_pos hx, div_le_iff₀ hx]
        exact hd
    · exact ⟨1, one_pos, by simpa using hρ0, fun h => absurd h hi⟩
  choose c hc0 hc1 hc2 using hc
  have side : ∀ (i : Nat) (y t : ℝ), 0 < y → ρ * y < |y - t| → (XF.lt (.fin t) (.fin y) ↔ XF.lt (.fin t) (.fin (c i * y))) := by
    intro i y t hy hd
    have hb := abs_le.1 (hc1 i)
    simp only [XF.lt_fin]
    rcases le_total t y with hc | hc
    · rw [abs_of_nonneg (by linarith)] at hd
      constructor
      · intro _; nlinarith
      · intro _; nlinarith
    · rw [abs_of_nonpos (by linarith)] at hd
      constructor
      · intro hlt; linarith
      · intro hlt; nlinarith
  obtain ⟨r', hr', hcells⟩ := C167_cascade h hc0 ht (fun i hi x hx hp => side i x _ hp (h0 i hi x hx hp))
    fun l hl j y hj hy => side _ y _ hy (h1 l hl y (List.mem_of_getElem? hj) hy)
  have e : (dailyS d0 n fun i => .fin (c i) * v i) = dailyS d0 n v' := by
    unfold dailyS
    exact List.map_congr_left fun i hi => by rw [hc2 i (List.mem_range.1 hi)]
  rw [e] at hr'
  refine ⟨r', hr', fun i hi x x' hx hx' => ?_⟩
  obtain ⟨_, _, w, f, _, _, hser, hsum⟩ := cascade_hourly_eq h
  obtain ⟨s1, s2⟩ := hsum i hi x hx
  simp only [ne_eq, not_true_eq_false, if_false] at hser
  have hx0 : 0 ≤ x := by
    rcases hv i hi with ⟨a, _⟩ | ⟨a, _⟩ | ⟨y, _, a, _, hy, _⟩ <;> rw [hx] at a <;> cases a
    · exact le_rfl
    · exact hy.le
  rw [max_eq_left hx0] at s1
  have hcell : dayCells r.series (d0 + i) = day24 fun k => .fin (f i k) := by
    rw [hser, dayCells_hourlyS d0 _ hi]
    simp only [hx, XF.isNan, Bool.false_eq_true, if_false]
  have hxx : x' = c i * x := by
    have := hc2 i hi
    rw [hx, hx', XF.fin_mul_fin] at this
    exact XF.fin.inj this
  have hle : ∀ k < 24, f i k ≤ x := by
    intro k hk
    rw [← s1]
    exact List.single_le_sum (by
      intro y hy
      obtain ⟨j, hj, rfl⟩ := List.mem_map.1 hy
      exact s2 j (List.mem_range.1 hj)) _ (List.mem_map.2 ⟨k, List.mem_range.2 hk, rfl⟩)
  have hdiff : ∀ k < 24, |c i * f i k - f i k| = |c i - 1| * f i k := by
    intro k hk
    rw [← sub_one_mul, abs_mul, abs_of_nonneg (s2 k hk)]
  have hxd : |x' - x| = |c i - 1| * x := by
    rw [hxx, ← sub_one_mul, abs_mul, abs_of_nonneg hx0]
  refine ⟨f i, fun k => c i * f i k, hcell, ?_, fun k hk => ⟨s2 k hk, by rw [hxx]; ring, ?_, ?_⟩, ?_⟩
  · rw [hcells i hi, hcell]
    unfold day24
    rw [List.map_map]
    rfl
  · rw [hdiff k hk]
    exact mul_le_mul_of_nonneg_right (hc1 i) (s2 k hk)
  · rw [hdiff k hk, hxd]
    exact mul_le_mul_of_nonneg_left (hle k hk) (abs_nonneg _)
  · rw [hxd, ← s1]
    unfold day24
    rw [← List.sum_map_mul_left]
    congr 1
    exact List.map_congr_left fun k hk => hdiff k (List.mem_range.1 hk)

/-- the statistics of `balancedStats` with a threshold of 5 mm for days and none for shorter boxes -/
def dailyThreshold : CascStats ℝ := { balancedStats with threshold := [.fin 0, .fin 0, .fin 0, .fin 0, .fin 5] }

/-- C167: days with 10 mm and 2 mm and a missing day; 5 % more on the first and 5 % less on the second day (both on their side of 5 mm), whatever the random numbers -/
example (rnd : Nat → ℝ) (hr : ∀ j, rnd j ≤ 1) :
    let v : Nat → XF ℝ := fun i => if i = 0 then .fin 10 else if i = 1 then .fin 2 else .nan
    let v' : Nat → XF ℝ := fun i => if i = 0 then .fin 10.5 else if i = 1 then .fin 1.9 else .nan
    ∃ r r', disaggPrecCascade .modern rnd (dailyS 0 3 v) (.one dailyThreshold) true 5 0 false = .ok r ∧
      disaggPrecCascade .modern rnd (dailyS 0 3 v') (.one dailyThreshold) true 5 0 false = .ok r' ∧ ∃ f f' : Nat → ℝ,
      dayCells r.series (0 + (0 : Nat)) = day24 (fun k => .fin (f k)) ∧ dayCells r'.series (0 + (0 : Nat)) = day24 (fun k => .fin (f' k)) ∧ ∀ k < 24, |f' k - f k| ≤ 0.05 * f k := by
  intro v v'
  have huse : UsableOptions 5 (.one dailyThreshold) := ⟨fun b t => ⟨fun _ => 1 / 7, fun k => rfl, by simp⟩, le_rfl⟩
  obtain ⟨r, h⟩ := C19_cascade_total .modern rnd hr (.one dailyThreshold) huse 0 3 (by norm_num) v (fun i hi => by interval_cases i <;> simp [v]) 5 0 false
  obtain ⟨r', h', hd⟩ := C167_errors h (ρ := 0.05) (by norm_num) (by norm_num) (v' := v')
    (fun i hi => by
      interval_cases i
      · exact .inr (.inr ⟨10, 10.5, rfl, rfl, by norm_num, by norm_num⟩)
      · exact .inr (.inr ⟨2, 1.9, rfl, rfl, by norm_num, by norm_num [abs_of_neg]⟩)
      · exact .inl ⟨rfl, rfl⟩)
    (thr := fun l => if l = 0 then 5 else 0) (fun l hl => ⟨dailyThreshold, rfl, by interval_cases l <;> rfl⟩)
    (fun i hi x hx _ => by
      interval_cases i
      · cases hx; norm_num
      · cases hx; norm_num [abs_of_neg]
      · cases hx)
    (fun l _ y _ hy => by
      rw [if_neg (Nat.succ_ne_zero l), sub_zero, abs_of_pos hy]
      linarith)
  obtain ⟨f, f', e1, e2, e3, _⟩ := hd 0 (by norm_num) 10 10.5 rfl rfl
  exact ⟨r, r', h, h', f, f', e1, e2, fun k hk => (e3 k hk).2.2.1⟩

end

end Melodist
