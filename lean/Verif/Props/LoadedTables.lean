import Verif.Props.SavedStats
import Verif.Props.ShiftRound
import Verif.Props.RadiationModels
import Mathlib.Analysis.Calculus.MeanValue

/-!
# C156: loaded tables with 'sun_loc_shift' and the radiation methods

C107 leaves out four methods that read a table of the statistics file: the shift of the temperature maximum, the mean course of radiation, and
the monthly parameters of the sunshine and of the Bristow-Campbell method.
-/

set_option linter.unusedSectionVars false

namespace Melodist
open Spec

noncomputable section

/-- hourly radiation within `B`, unless exactly one of the values was cut to 0; the other is then at least 0.01 and below 0.01 + `B` -/
def Spec.CutNear (B x y : ℝ) : Prop := |x - y| ≤ B ∨ (x = 0 ∧ 0.01 ≤ y ∧ y < 0.01 + B) ∨ (y = 0 ∧ 0.01 ≤ x ∧ x < 0.01 + B)

theorem cut_near {B s t : ℝ} (h : |s - t| ≤ B) : CutNear B (if s < 0.01 then 0 else s) (if t < 0.01 then 0 else t) := by
  have h' := abs_le.1 h
  by_cases hs : s < 0.01
  · by_cases ht : t < 0.01
    · rw [if_pos hs, if_pos ht]
      left
      simpa using (abs_nonneg _).trans h
    · rw [if_pos hs, if_neg ht]
      exact .inr (.inl ⟨rfl, not_lt.1 ht, by linarith⟩)
  · by_cases ht : t < 0.01
    · rw [if_neg hs, if_pos ht]
      exact .inr (.inr ⟨rfl, not_lt.1 hs, by linarith⟩)
    · rw [if_neg hs, if_neg ht]
      exact .inl h

/-! ## lookup in a loaded table -/

theorem find_of_mem {l : List (Int × XF ℝ)} (h : (l.map Prod.fst).Nodup) {e : Int × XF ℝ} (he : e ∈ l) : l.find? (fun r => r.1 == e.1) = some e := by
  induction l with
  | nil => cases he
  | cons a l ih =>
    rw [List.map_cons, List.nodup_cons] at h
    rw [List.find?_cons]
    rcases List.mem_cons.1 he with rfl | he
    · simp
    · have : (a.1 == e.1) = false := by
        rw [beq_eq_false_iff_ne]
        intro hc
        exact h.1 (hc ▸ List.mem_map.2 ⟨e, he, rfl⟩)
      rw [this]
      exact ih h.2 he

theorem sameRows_find {l r : List (Int × XF ℝ)} (h : SameRows l r) (m : Int) :
    r.find? (fun e => e.1 == m) = (l.find? (fun e => e.1 == m)).map fun e => (e.1, stored e.2) := by
  have hr : (r.map Prod.fst).Nodup := h.sorted.imp ne_of_lt
  cases hl : l.find? (fun e => e.1 == m) with
  | none =>
    rw [List.find?_eq_none] at hl
    rw [Option.map_none, List.find?_eq_none]
    intro e he
    obtain ⟨e', he', rfl⟩ := List.mem_map.1 (h.rows.mem_iff.1 he)
    exact hl e' he'
  | some e =>
    have h1 : e ∈ l := List.mem_of_find?_eq_some hl
    have h2 : e.1 = m := by simpa using List.find?_some hl
    subst h2
    exact find_of_mem hr (e := (e.1, stored e.2)) (h.rows.mem_iff.2 (List.mem_map.2 ⟨e, h1, rfl⟩))

theorem stored_fin (x : ℝ) : ∃ y, stored (.fin x) = .fin y ∧ |x - y| ≤ eps := (C69_precision x).1

theorem parAt_loaded {ta tb ra rb : List (Int × XF ℝ)} (ha : SameRows ta ra) (hb : SameRows tb rb) {m : Int} {a b : XF ℝ}
    (h : ParAt (.monthly ta tb) m a b) : ParAt (.monthly ra rb) m (stored a) (stored b) := by
  obtain ⟨h1, h2⟩ := h
  refine ⟨?_, ?_⟩
  · rw [sameRows_find ha, h1]; rfl
  · rw [sameRows_find hb, h2]; rfl

/-! ## the shift of the temperature maximum -/

theorem mapM_sunRows {W : Type} {p q : Time → Py (XF ℝ)} {f : SunTimes → XF ℝ → W} : ∀ {sun : Series SunTimes},
    (∀ r ∈ sun, (∃ e, p r.1 = .error e ∧ q r.1 = .error e) ∨ ∃ x y, p r.1 = .ok x ∧ q r.1 = .ok y ∧ f r.2 x = f r.2 y) →
    ((sun.map Prod.fst).mapM p).map (fun ds => List.zipWith f (sun.map Prod.snd) ds) =
      ((sun.map Prod.fst).mapM q).map fun ds => List.zipWith f (sun.map Prod.snd) ds := by
  intro sun
  induction sun with
  | nil => intro _; rfl
  | cons a l ih =>
    intro h
    have ih' := ih fun r hr => h r (List.mem_cons_of_mem _ hr)
    rw [List.map_cons, List.map_cons, List.mapM_cons, List.mapM_cons]
    rcases h a List.mem_cons_self with ⟨e, h1, h2⟩ | ⟨x, y, h1, h2, h3⟩
    · rw [h1, h2]; rfl
    · rw [h1, h2, py_ok_bind, py_ok_bind]
      cases hp : (l.map Prod.fst).mapM p with
      | error e =>
        cases hq : (l.map Prod.fst).mapM q with
        | error e' => rw [hp, hq] at ih'; exact ih'
        | ok ds' => rw [hp, hq] at ih'; cases ih'
      | ok ds =>
        cases hq : (l.map Prod.fst).mapM q with
        | error e' => rw [hp, hq] at ih'; cases ih'
        | ok ds' =>
          rw [hp, hq] at ih'
          have e : List.zipWith f (l.map Prod.snd) ds = List.zipWith f (l.map Prod.snd) ds' := Except.ok.inj ih'
          show Except.ok (List.zipWith f (a.2 :: l.map Prod.snd) (x :: ds)) = Except.ok (List.zipWith f (a.2 :: l.map Prod.snd) (y :: ds'))
          rw [List.zipWith_cons_cons, List.zipWith_cons_cons, h3, e]

theorem shiftFor_loaded {l r : List (Int × XF ℝ)} (h : SameRows l r) (t : Time) :
    (∃ e, shiftFor r t = .error e ∧ shiftFor l t = .error e) ∨ ∃ y, shiftFor r t = .ok (stored y) ∧ shiftFor l t = .ok y ∧ (monthOf t, y) ∈ l := by
  unfold shiftFor
  rw [sameRows_find h]
  cases hl : l.find? (fun e => e.1 == monthOf t) with
  | none => exact .inl ⟨_, rfl, rfl⟩
  | some e =>
    refine .inr ⟨e.2, rfl, rfl, ?_⟩
    have h2 : e.1 = monthOf t := by simpa using List.find?_some hl
    rw [← h2]
    exact List.mem_of_find?_eq_some hl

theorem bind_of_map {α β : Type} {x y : Py α} {g : α → β} (h : x.map g = y.map g) : (x >>= fun a => (.ok (g a) : Py β)) = y >>= fun a => .ok (g a) := by
  cases x <;> cases y <;> exact h

theorem minMaxLoc_loaded {l r : List (Int × XF ℝ)} (h : SameRows l r) (hfin : ∀ e ∈ l, e.2.NanOrFin) (idx : List Time) (mmt : String)
    (sun : Option (Series SunTimes))
    (hoff : mmt = "sun_loc_shift" → ∀ s, sun = some s → ∀ row ∈ s, ∀ noon d : ℝ, row.2.sunnoon = .fin noon → (monthOf row.1, XF.fin d) ∈ l →
      OffHalf eps (noon + d)) :
    minMaxLoc idx mmt (some r) sun = minMaxLoc idx mmt (some l) sun := by
  unfold minMaxLoc
  by_cases c1 : mmt = "fix"
  · rw [if_pos c1, if_pos c1]
  rw [if_neg c1, if_neg c1]
  by_cases c2 : mmt = "sun_loc"
  · rw [if_pos c2, if_pos c2]
  rw [if_neg c2, if_neg c2]
  by_cases c3 : mmt = "sun_loc_shift"
  · rw [if_pos c3, if_pos c3]
    cases sun with
    | none => rfl
    | some sun =>
      dsimp only
      by_cases hi : sun.index = idx
      · simp only [hi, ne_eq, not_true, if_false]
        subst hi
        refine bind_of_map (mapM_sunRows ?_)
        intro row hrow
        rcases shiftFor_loaded h row.1 with h | ⟨y, h1, h2, h3⟩
        · exact .inl h
        refine .inr ⟨_, _, h1, h2, ?_⟩
        have : XF.round (row.2.sunnoon + stored y) = XF.round (row.2.sunnoon + y) := by
          have hy := hfin _ h3
          cases y with
          | nan => rfl
          | pinf => exact absurd hy (by simp)
          | ninf => exact absurd hy (by simp)
          | fin d =>
            obtain ⟨d', e1, e2⟩ := stored_fin d
            rw [e1]
            cases hn : row.2.sunnoon with
            | nan => rfl
            | pinf => rfl
            | ninf => rfl
            | fin noon =>
              show XF.fin ((roundEven (noon + d') : Int) : ℝ) = XF.fin ((roundEven (noon + d) : Int) : ℝ)
              rw [sameHour_near _ (hoff c3 sun rfl row hrow noon d hn h3)]
              rw [show noon + d' - (noon + d) = -(d - d') by ring, abs_neg]
              exact e2
        rw [this]
      · simp only [ne_eq, hi, not_false_eq_true, if_true]
        have e := mapM_sunRows (p := shiftFor r) (q := shiftFor l) (f := fun _ _ => ()) (sun := idx.map fun t => (t, ⟨.nan, .nan, .nan, .nan⟩)) (by
          intro row _
          rcases shiftFor_loaded h row.1 with h | ⟨y, h1, h2, _⟩
          · exact .inl h
          · exact .inr ⟨_, _, h1, h2, rfl⟩)
        have e1 : (idx.map fun t => ((t, ⟨.nan, .nan, .nan, .nan⟩) : Time × SunTimes)).map Prod.fst = idx := by
          rw [List.map_map]; exact List.map_id _
        rw [e1] at e
        cases hp : idx.mapM (shiftFor r) <;> cases hq : idx.mapM (shiftFor l) <;> rw [hp, hq] at e
        · exact congrArg _ (Except.error.inj e)
        · cases e
        · cases e
        · rfl
  · rw [if_neg c3, if_neg c3]

/-- **C156** (shift of the maximum): a loaded table of shifts gives exactly the same hourly temperatures (or the same error) as the saved one, if for
'sun_loc_shift' no sum of solar noon and shift is within 5·10⁻¹¹ hours of a half hour. -/
theorem C156_shift (api : PandasApi) (daily : Frame ℝ) (method mmt : String) (modNight : Bool) {l r : List (Int × XF ℝ)} (h : SameRows l r)
    (hfin : ∀ e ∈ l, e.2.NanOrFin) (course : Option (MeanCourse ℝ)) (sun : Option (Series SunTimes))
    (hoff : mmt = "sun_loc_shift" → ∀ s, sun = some s → ∀ row ∈ s, ∀ noon d : ℝ, row.2.sunnoon = .fin noon → (monthOf row.1, XF.fin d) ∈ l →
      OffHalf (1 / 2 / 10 ^ 10) (noon + d)) :
    disaggregateTemperature api daily method mmt modNight (some r) course sun = disaggregateTemperature api daily method mmt modNight (some l) course sun := by
  have e := minMaxLoc_loaded h hfin daily.index mmt sun hoff
  unfold disaggregateTemperature sineTemperature locTable
  simp only [e]

/-! ## the mean course of radiation -/

theorem stored_nonneg {x y : ℝ} (hx : 0 ≤ x) (h : stored (.fin x) = .fin y) : 0 ≤ y := by
  have e : (round (x * 10 ^ 10) : ℝ) / 10 ^ 10 = y := XF.fin.inj h
  have h1 := (abs_le.1 (abs_sub_round (x * 10 ^ 10))).2
  have h0 : 0 ≤ x * 10 ^ 10 := by positivity
  rw [← e]
  generalize x * 10 ^ 10 = w at h0 h1
  generalize round w = z at h1
  have h3 : (-1 : Int) < z := by
    have : (-1 : ℝ) < z := by linarith
    exact_mod_cast this
  have h4 : (0 : ℝ) ≤ z := by exact_mod_cast (by omega : 0 ≤ z)
  positivity

theorem le_sum_day24 {q : Nat → ℝ} (h0 : ∀ h < 24, 0 ≤ q h) {k : Nat} (hk : k < 24) : q k ≤ (day24 q).sum := by
  apply List.single_le_sum
  · intro x hx
    obtain ⟨h, hh, rfl⟩ := List.mem_map.1 hx
    exact h0 h (List.mem_range.1 hh)
  · exact List.mem_map.2 ⟨k, List.mem_range.2 hk, rfl⟩

theorem sum_day24_close {q q' : Nat → ℝ} {e : ℝ} (h : ∀ h < 24, |q h - q' h| ≤ e) : |(day24 q).sum - (day24 q').sum| ≤ 24 * e := by
  have key : ∀ l : List Nat, (∀ k ∈ l, |q k - q' k| ≤ e) → |(l.map q).sum - (l.map q').sum| ≤ l.length * e := by
    intro l
    induction l with
    | nil => intro _; simp
    | cons a l ih =>
      intro h
      have h1 := h a List.mem_cons_self
      have h2 := ih fun k hk => h k (List.mem_cons_of_mem _ hk)
      rw [List.map_cons, List.map_cons, List.sum_cons, List.sum_cons, List.length_cons,
        show q a + (l.map q).sum - (q' a + (l.map q').sum) = (q a - q' a) + ((l.map q).sum - (l.map q').sum) by ring]
      refine (abs_add_le _ _).trans ?_
      push_cast
      linarith
  have := key (List.range 24) fun k hk => h k (List.mem_range.1 hk)
  rw [List.length_range] at this
  exact_mod_cast this

theorem share_close {p p' P P' e : ℝ} (he : 0 < e) (hP : 2 * e ≤ P) (h1 : |p - p'| ≤ e) (h2 : |P - P'| ≤ e) (h0 : 0 ≤ p') (h3 : p' ≤ 24 * P') :
    |p / P - p' / P'| ≤ 25 * e / P := by
  have h2' := abs_le.1 h2
  have hP0 : 0 < P := by linarith
  have hP'0 : 0 < P' := by linarith
  have e1 : p / P - p' / P' = ((p - p') + p' / P' * (P' - P)) / P := by
    field_simp
    ring
  rw [e1, abs_div, abs_of_pos hP0]
  apply div_le_div_of_nonneg_right _ hP0.le
  have h4 : |p' / P'| ≤ 24 := by
    rw [abs_of_nonneg (div_nonneg h0 hP'0.le), div_le_iff₀ hP'0]
    exact h3
  have h5 : |p' / P' * (P' - P)| ≤ 24 * e := by
    rw [abs_mul]
    refine mul_le_mul h4 ?_ (abs_nonneg _) (by norm_num)
    rw [abs_sub_comm]
    exact h2
  refine (abs_add_le _ _).trans ?_
  linarith

variable {d0 d1 : Int} {n m : Nat}

/-- **C156** (mean course of radiation): with the mean course `c` and the loaded course `r` 'mean_course' succeeds.  Take a day whose month has
non-negative course values of mean M ≥ 10⁻¹⁰.  A missing daily value gives missing values with both; a daily value g gives hourly values
that differ by at most 25 · 5·10⁻¹¹ · |g| / M, unless exactly one of them was cut to 0. -/
theorem C156_course (api : PandasApi) {daily : Frame ℝ} (hi : daily.index = (List.range n).map fun i : Nat => at00 (d0 + i)) (hn : 0 < n)
    (v : Nat → XF ℝ) (hg : daily.col? "glob" = some (dailyS d0 n v)) (sun : Option (Series SunTimes)) (pot : Option (Series (XF ℝ)))
    (angstr bristcamp : ParPair ℝ) {c r : MeanCourse ℝ} (h : SameCourse c r) (hc : FullCourse c) (hh : ∀ k : Nat, k < 24 → (k : Int) ∈ c.hours) :
    ∃ out out', disaggregateRadiation api daily sun pot "mean_course" angstr bristcamp (some c) = .ok out ∧
      disaggregateRadiation api daily sun pot "mean_course" angstr bristcamp (some r) = .ok out' ∧
      ∀ i < n, ∀ q : Nat → ℝ, (∀ k < 24, c.val (monthOf (at00 (d0 + (i : Nat)))) (k : Nat) = .fin (q k)) → (∀ k < 24, 0 ≤ q k) →
        1 / 10 ^ 10 ≤ (day24 q).sum / 24 →
        (v i = .nan → ∀ k < 24, (dayCells out (d0 + i))[k]? = some .nan ∧ (dayCells out' (d0 + i))[k]? = some .nan) ∧
        ∀ g : ℝ, v i = .fin g → ∀ k < 24, ∃ x y, (dayCells out (d0 + i))[k]? = some (.fin x) ∧ (dayCells out' (d0 + i))[k]? = some (.fin y) ∧
          CutNear (25 * (1 / 2 / 10 ^ 10) * |g| / ((day24 q).sum / 24)) x y := by
  have hm12 : ∀ t : Time, monthOf t ∈ r.months := by
    intro t
    rw [h.months]
    have := monthOf_range t
    simp only [List.mem_cons, List.not_mem_nil, or_false]
    omega
  have hmc : ∀ t : Time, monthOf t ∈ c.months := fun t => hc.all _ (h.months ▸ hm12 t)
  refine ⟨_, _, meanCourseRad_eq api hi hn hg sun pot angstr bristcamp (fun i _ => hmc _) hh,
    meanCourseRad_eq api hi hn hg sun pot angstr bristcamp (fun i _ => hm12 _) (fun k hk => h.hours.mem_iff.2 (hh k hk)), ?_⟩
  intro i hi' q hq hq0 hM
  have hst : ∀ k < 24, r.val (monthOf (at00 (d0 + (i : Nat)))) (k : Nat) = stored (.fin (q k)) := by
    intro k hk
    have e := h.val _ (hm12 (at00 (d0 + (i : Nat)))) k
    rw [lookup_ok (hm12 _) (h.hours.mem_iff.2 (hh k hk)), lookup_ok (hmc _) (hh k hk), hq k hk] at e
    exact Except.ok.inj e
  choose y hy1 hy2 using fun k => stored_fin (q k)
  have hr' : ∀ k < 24, r.val (monthOf (at00 (d0 + (i : Nat)))) (k : Nat) = .fin (y k) := fun k hk => (hst k hk).trans (hy1 k)
  have hy0 : ∀ k < 24, 0 ≤ y k := fun k hk => stored_nonneg (hq0 k hk) (hy1 k)
  have hE : eps = 1 / 2 / 10 ^ 10 := rfl
  have hsum := sum_day24_close (q := q) (q' := y) (e := eps) fun k _ => hy2 k
  have hmean : |(day24 q).sum / 24 - (day24 y).sum / 24| ≤ eps := by
    rw [← sub_div, abs_div, abs_of_pos (by norm_num : (0 : ℝ) < 24), div_le_iff₀ (by norm_num)]
    linarith
  have hmean' := abs_le.1 hmean
  have hP0 : 0 < (day24 q).sum / 24 := lt_of_lt_of_le (by norm_num) hM
  have hP1 : 0 < (day24 y).sum / 24 := by
    have : eps < (day24 q).sum / 24 := lt_of_lt_of_le (by rw [hE]; norm_num) hM
    linarith [hmean'.2]
  refine ⟨?_, ?_⟩
  · intro hv k hk
    rw [dayCells_hourlyS d0 _ hi', dayCells_hourlyS d0 _ hi', day24_getElem? _ hk, day24_getElem? _ hk, hv]
    have hnan : ∀ p P : XF ℝ, radCell p P .nan = .nan := by
      intro p P
      unfold radCell
      have : p / P * .nan = (.nan : XF ℝ) := by cases p / P <;> rfl
      rw [this, if_neg (by simp)]
    rw [hnan, hnan]
    exact ⟨rfl, rfl⟩
  · intro g hv k hk
    refine ⟨_, _, ?_, ?_, cut_near (s := q k / ((day24 q).sum / 24) * g) (t := y k / ((day24 y).sum / 24) * g) ?_⟩
    · rw [dayCells_hourlyS d0 _ hi', day24_getElem? _ hk, hq k hk, hv, meanSkip_day24 hq, radCell_fin hP0]
    · rw [dayCells_hourlyS d0 _ hi', day24_getElem? _ hk, hr' k hk, hv, meanSkip_day24 hr', radCell_fin hP1]
    · rw [← sub_mul, abs_mul, mul_div_right_comm]
      refine mul_le_mul_of_nonneg_right ?_ (abs_nonneg _)
      refine share_close (e := 1 / 2 / 10 ^ 10) (by norm_num) (le_trans (by norm_num) hM) (hy2 k) hmean (hy0 k hk) ?_
      have := le_sum_day24 hy0 hk
      linarith

/-! ## monthly parameters -/

theorem cell_of_factor {q M k : ℝ} (hM : 0 < M) : radCell (.fin q) (.fin M) (.fin (k * M)) = .fin (if q * k < 0.01 then 0 else q * k) := by
  rw [radCell_fin hM, show q / M * (k * M) = q * k by field_simp]

/-- the sunshine method as a formula -/
theorem ssdHour_eq (api : PandasApi) {daily : Frame ℝ} (hi : daily.index = (List.range n).map fun i : Nat => at00 (d0 + i)) (hn : 0 < n)
    {s : Nat → XF ℝ} (hs : daily.col? "ssd" = some (dailyS d0 n s)) (st : Nat → SunTimes) (p : Nat → Nat → XF ℝ) (h1 : d1 ≤ d0) (h2 : d0 + n ≤ d1 + m)
    {par : ParPair ℝ} (bristcamp : ParPair ℝ) (course : Option (MeanCourse ℝ)) {a b : Int → XF ℝ}
    (h : ∀ i : Nat, i < n → ParAt par (monthOf (at00 (d0 + i))) (a (monthOf (at00 (d0 + i)))) (b (monthOf (at00 (d0 + i))))) :
    ∃ out, disaggregateRadiation api daily (some (dailyS d0 n st)) (some (hourlyS d1 m p)) "pot_rad_via_ssd" par bristcamp course = .ok out ∧
      ∀ i < n, ∀ q : Nat → ℝ, (∀ k < 24, p (d0 + (i : Nat) - d1).toNat k = .fin (q k)) → ∀ k < 24,
        (dayCells out (d0 + i))[k]? = some (radCell (.fin (q k)) (.fin ((day24 q).sum / 24))
          (if XF.lt (.fin 0) (st i).daylength then
            (a (monthOf (at00 (d0 + (i : Nat)))) + b (monthOf (at00 (d0 + (i : Nat)))) * s i / (st i).daylength) * .fin ((day24 q).sum / 24) else .fin 0)) := by
  have hr : disaggregateRadiation api daily (some (dailyS d0 n st)) (some (hourlyS d1 m p)) "pot_rad_via_ssd" par bristcamp course =
      .ok (hourlyS d1 m fun j h => radCell (p j h) (meanSkip (day24 (p j))) (lastValue d0 n (fun i =>
        if XF.lt (.fin 0) (st i).daylength then
          (a (monthOf (at00 (d0 + (i : Nat)))) + b (monthOf (at00 (d0 + (i : Nat)))) * s i / (st i).daylength) *
            meanSkip (day24 (p (d0 + (i : Nat) - d1).toNat))
        else .fin 0) (d1 + j))) := by
    unfold disaggregateRadiation
    rw [if_neg (by simp), temp_hourly_index api hi hn, py_ok_bind, if_neg (by decide)]
    dsimp only
    rw [if_neg (by decide), if_pos rfl, resampleD_hourlyS, ssdDaily_eq hi hs st _ h1 h2 (a := a) (b := b) h, py_ok_bind, radiationCore_eq d0 hn]
  refine ⟨_, hr, ?_⟩
  intro i hi' q hq k hk
  have e : d0 + (i : Int) = d1 + ((d0 + i - d1).toNat : Int) := by omega
  rw [e, dayCells_hourlyS d1 _ (by omega), day24_getElem? _ hk, ← e, lastValue_self hi', meanSkip_day24 hq, hq k hk]

theorem stored_fun (f : Int → ℝ) : ∃ f' : Int → ℝ, ∀ m, stored (.fin (f m)) = .fin (f' m) ∧ |f m - f' m| ≤ eps := by
  choose f' h using fun m => stored_fin (f m)
  exact ⟨f', h⟩

/-- **C156** (sunshine method): with parameters by month a, b and the loaded tables, 'pot_rad_via_ssd' succeeds; on a day with sunshine x and day
length l > 0 and potential radiation q that is non-negative and not 0 all day the values of an hour differ by at most
q · 5·10⁻¹¹ · (1 + |x| / l), unless exactly one of them was cut to 0. -/
theorem C156_sunshine (api : PandasApi) {daily : Frame ℝ} (hi : daily.index = (List.range n).map fun i : Nat => at00 (d0 + i)) (hn : 0 < n)
    (s : Nat → XF ℝ) (hs : daily.col? "ssd" = some (dailyS d0 n s)) (st : Nat → SunTimes) (p : Nat → Nat → XF ℝ) (h1 : d1 ≤ d0) (h2 : d0 + n ≤ d1 + m)
    (bristcamp : ParPair ℝ) (course : Option (MeanCourse ℝ)) {ta tb ra rb : List (Int × XF ℝ)} (hra : SameRows ta ra) (hrb : SameRows tb rb) (a b : Int → ℝ)
    (h : ∀ i : Nat, i < n → ParAt (.monthly ta tb) (monthOf (at00 (d0 + i))) (.fin (a (monthOf (at00 (d0 + i))))) (.fin (b (monthOf (at00 (d0 + i)))))) :
    ∃ out out', disaggregateRadiation api daily (some (dailyS d0 n st)) (some (hourlyS d1 m p)) "pot_rad_via_ssd" (.monthly ta tb) bristcamp course = .ok out ∧
      disaggregateRadiation api daily (some (dailyS d0 n st)) (some (hourlyS d1 m p)) "pot_rad_via_ssd" (.monthly ra rb) bristcamp course = .ok out' ∧
      ∀ i < n, ∀ q : Nat → ℝ, (∀ k < 24, p (d0 + (i : Nat) - d1).toNat k = .fin (q k)) → (∀ k < 24, 0 ≤ q k) → 0 < (day24 q).sum →
        ∀ l x : ℝ, (st i).daylength = .fin l → 0 < l → s i = .fin x → ∀ k < 24,
          ∃ y y', (dayCells out (d0 + i))[k]? = some (.fin y) ∧ (dayCells out' (d0 + i))[k]? = some (.fin y') ∧
            CutNear (q k * (1 / 2 / 10 ^ 10) * (1 + |x| / l)) y y' := by
  obtain ⟨a', ha'⟩ := stored_fun a
  obtain ⟨b', hb'⟩ := stored_fun b
  obtain ⟨out, e1, f1⟩ := ssdHour_eq api hi hn hs st p h1 h2 bristcamp course (a := fun m => .fin (a m)) (b := fun m => .fin (b m)) h
  obtain ⟨out', e2, f2⟩ := ssdHour_eq api hi hn hs st p h1 h2 (par := .monthly ra rb) bristcamp course (a := fun m => .fin (a' m)) (b := fun m => .fin (b' m)) (by
    intro i hi'
    have := parAt_loaded hra hrb (h i hi')
    rw [(ha' _).1, (hb' _).1] at this
    exact this)
  refine ⟨out, out', e1, e2, ?_⟩
  intro i hi' q hq hq0 hpos l x hl hl0 hx k hk
  have hM : 0 < (day24 q).sum / 24 := by positivity
  have g1 := f1 i hi' q hq k hk
  have g2 := f2 i hi' q hq k hk
  rw [hl, if_pos (by simpa using hl0), hx] at g1 g2
  simp only [XF.fin_mul_fin, XF.fin_div_fin_of_ne _ hl0.ne', XF.fin_add_fin] at g1 g2
  rw [cell_of_factor hM] at g1 g2
  refine ⟨_, _, g1, g2, cut_near ?_⟩
  generalize monthOf (at00 (d0 + (i : Nat))) = M at *
  have d1 := (ha' M).2
  have d2 := (hb' M).2
  rw [← mul_sub, abs_mul, abs_of_nonneg (hq0 k hk), mul_assoc]
  refine mul_le_mul_of_nonneg_left ?_ (hq0 k hk)
  rw [show a M + b M * x / l - (a' M + b' M * x / l) = (a M - a' M) + (b M - b' M) * (x / l) by ring]
  refine (abs_add_le _ _).trans ?_
  rw [abs_mul, abs_div, abs_of_pos hl0, mul_add, mul_one]
  exact add_le_add d1 (mul_le_mul_of_nonneg_right d2 (by positivity))

/-! ## Bristow and Campbell -/

theorem expExp_lip (u w : ℝ) : |Real.exp (-Real.exp u) - Real.exp (-Real.exp w)| ≤ |u - w| := by
  have hd : ∀ x ∈ (Set.univ : Set ℝ), HasDerivWithinAt (fun x => Real.exp (-Real.exp x)) (Real.exp (-Real.exp x) * -Real.exp x) Set.univ x := by
    intro x _
    exact ((Real.hasDerivAt_exp x).neg.exp).hasDerivWithinAt
  have hb : ∀ x ∈ (Set.univ : Set ℝ), ‖Real.exp (-Real.exp x) * -Real.exp x‖ ≤ 1 := by
    intro x _
    rw [norm_mul, norm_neg, Real.norm_of_nonneg (Real.exp_pos _).le, Real.norm_of_nonneg (Real.exp_pos _).le, Real.exp_neg, inv_mul_le_iff₀ (Real.exp_pos _), mul_one]
    linarith [Real.add_one_le_exp (Real.exp x)]
  have := convex_univ.norm_image_sub_le_of_norm_hasDerivWithin_le hd hb (Set.mem_univ w) (Set.mem_univ u)
  simpa using this

/-- the factor of the potential radiation in the estimate -/
def bcFactor (A C μ r : ℝ) : ℝ := A * (1 - Real.exp (-(0.036 * Real.exp (-0.154 * μ)) * r ^ C))

theorem bcFactor_close {A A' C C' μ r e : ℝ} (hr : 0 < r) (hA : |A - A'| ≤ e) (hC : |C - C'| ≤ e) :
    |bcFactor A C μ r - bcFactor A' C' μ r| ≤ e * (1 + |A| * |Real.log r|) := by
  have hB : 0 < 0.036 * Real.exp (-0.154 * μ) := by positivity
  have form : ∀ C, Real.exp (-(0.036 * Real.exp (-0.154 * μ)) * r ^ C) =
      Real.exp (-Real.exp (Real.log (0.036 * Real.exp (-0.154 * μ)) + Real.log r * C)) := by
    intro C
    rw [Real.exp_add, Real.exp_log hB, ← Real.rpow_def_of_pos hr, neg_mul]
  have hE : |Real.exp (-(0.036 * Real.exp (-0.154 * μ)) * r ^ C') - Real.exp (-(0.036 * Real.exp (-0.154 * μ)) * r ^ C)| ≤ e * |Real.log r| := by
    rw [form, form]
    refine (expExp_lip _ _).trans ?_
    rw [add_sub_add_left_eq_sub, ← mul_sub, abs_mul, mul_comm, abs_sub_comm]
    exact mul_le_mul_of_nonneg_right hC (abs_nonneg _)
  have h1 : |1 - Real.exp (-(0.036 * Real.exp (-0.154 * μ)) * r ^ C')| ≤ 1 := by
    have p1 := Real.exp_pos (-(0.036 * Real.exp (-0.154 * μ)) * r ^ C')
    have p2 : Real.exp (-(0.036 * Real.exp (-0.154 * μ)) * r ^ C') ≤ 1 := by
      rw [Real.exp_le_one_iff]
      have : 0 < 0.036 * Real.exp (-0.154 * μ) * r ^ C' := mul_pos hB (Real.rpow_pos_of_pos hr _)
      linarith
    rw [abs_le]
    constructor <;> linarith
  unfold bcFactor
  generalize Real.exp (-(0.036 * Real.exp (-0.154 * μ)) * r ^ C) = u at *
  generalize Real.exp (-(0.036 * Real.exp (-0.154 * μ)) * r ^ C') = w at *
  rw [show A * (1 - u) - A' * (1 - w) = A * (w - u) + (A - A') * (1 - w) by ring]
  refine (abs_add_le _ _).trans ?_
  rw [abs_mul, abs_mul]
  have i1 := mul_le_mul_of_nonneg_left hE (abs_nonneg A)
  have i2 := mul_le_mul hA h1 (abs_nonneg _) ((abs_nonneg _).trans hA)
  linarith

/-- the Bristow-Campbell method on one day -/
theorem bcHour_eq (api : PandasApi) {daily : Frame ℝ} (hi : daily.index = (List.range n).map fun i : Nat => at00 (d0 + i)) (hn : 0 < n)
    {tmin tmax : Nat → XF ℝ} (hmin : daily.col? "tmin" = some (dailyS d0 n tmin)) (hmax : daily.col? "tmax" = some (dailyS d0 n tmax))
    (sun : Option (Series SunTimes)) (p : Nat → Nat → XF ℝ) (h1 : d1 ≤ d0) (h2 : d0 + n ≤ d1 + m) (angstr : ParPair ℝ) {par : ParPair ℝ}
    (course : Option (MeanCourse ℝ)) {a c : Int → ℝ}
    (h : ∀ i : Nat, i < n → ParAt par (monthOf (at00 (d0 + i))) (.fin (a (monthOf (at00 (d0 + i))))) (.fin (c (monthOf (at00 (d0 + i))))))
    (hf1 : ∀ i < n, (tmin i).NanOrFin) (hf2 : ∀ i < n, (tmax i).NanOrFin) (μ : Nat → ℝ)
    (hμ : ∀ i < n, ∀ r, bcRange n tmin tmax i = .fin r → meanSkip (bcMonthRanges d0 n tmin tmax i) = .fin (μ i)) :
    ∃ out, disaggregateRadiation api daily sun (some (hourlyS d1 m p)) "pot_rad_via_bc" angstr par course = .ok out ∧
      ∀ i < n, ∀ q : Nat → ℝ, (∀ k < 24, p (d0 + (i : Nat) - d1).toNat k = .fin (q k)) → 0 < (day24 q).sum →
        0 < c (monthOf (at00 (d0 + (i : Nat)))) → ∀ r, bcRange n tmin tmax i = .fin r → ∀ k < 24,
        (0 < r → (dayCells out (d0 + i))[k]? = some (.fin (if q k * bcFactor (a (monthOf (at00 (d0 + (i : Nat))))) (c (monthOf (at00 (d0 + (i : Nat))))) (μ i) r < 0.01 then 0
            else q k * bcFactor (a (monthOf (at00 (d0 + (i : Nat))))) (c (monthOf (at00 (d0 + (i : Nat))))) (μ i) r))) ∧
        (r = 0 → (dayCells out (d0 + i))[k]? = some (.fin 0)) := by
  obtain ⟨est, ho, hv, _⟩ := bc_value (m := m) (d1 := d1) hn tmin tmax (fun j => meanSkip (day24 (p j))) h1 h2 h
  have hr : disaggregateRadiation api daily sun (some (hourlyS d1 m p)) "pot_rad_via_bc" angstr par course =
      .ok (hourlyS d1 m fun j h => radCell (p j h) (meanSkip (day24 (p j))) (lastValue d0 n est (d1 + j))) := by
    unfold disaggregateRadiation
    rw [if_neg (by simp), temp_hourly_index api hi hn, py_ok_bind, if_neg (by decide)]
    dsimp only
    rw [if_neg (by decide), if_neg (by decide), attr_ok hmin, py_ok_bind, attr_ok hmax, py_ok_bind, resampleD_hourlyS, ho, py_ok_bind,
      radiationCore_eq d0 hn]
  refine ⟨_, hr, ?_⟩
  intro i hi' q hq hpos hc0 r hrr k hk
  have e : d0 + (i : Int) = d1 + ((d0 + i - d1).toNat : Int) := by omega
  have hM : 0 < (day24 q).sum / 24 := by positivity
  have hest := hv i hi' r _ (μ i) hrr (meanSkip_day24 hq) (hμ i hi' r hrr) hc0
  rw [e, dayCells_hourlyS d1 _ (by omega), day24_getElem? _ hk, ← e, lastValue_self hi', meanSkip_day24 hq, hq k hk]
  refine ⟨?_, ?_⟩
  · intro hr0
    rw [hest.1 hr0]
    exact congrArg some (cell_of_factor hM)
  · intro hr0
    rw [hest.2.1 hr0, radCell_fin hM]
    simp

/-- **C156** (Bristow-Campbell): with parameters by month A, C ≥ 10⁻¹⁰ and the loaded tables, 'pot_rad_via_bc' succeeds; on a day with temperature
range r > 0 and potential radiation q that is non-negative and not 0 all day the values of an hour differ by at most
q · 5·10⁻¹¹ · (1 + |A| |ln r|), unless exactly one of them was cut to 0.  On a day with range 0 both are 0. -/
theorem C156_bristow_campbell (api : PandasApi) {daily : Frame ℝ} (hi : daily.index = (List.range n).map fun i : Nat => at00 (d0 + i)) (hn : 0 < n)
    (tmin tmax : Nat → XF ℝ) (hmin : daily.col? "tmin" = some (dailyS d0 n tmin)) (hmax : daily.col? "tmax" = some (dailyS d0 n tmax))
    (sun : Option (Series SunTimes)) (p : Nat → Nat → XF ℝ) (h1 : d1 ≤ d0) (h2 : d0 + n ≤ d1 + m) (angstr : ParPair ℝ)
    (course : Option (MeanCourse ℝ)) {ta tc ra rc : List (Int × XF ℝ)} (hra : SameRows ta ra) (hrc : SameRows tc rc) (A C : Int → ℝ)
    (h : ∀ i : Nat, i < n → ParAt (.monthly ta tc) (monthOf (at00 (d0 + i))) (.fin (A (monthOf (at00 (d0 + i))))) (.fin (C (monthOf (at00 (d0 + i))))))
    (hf1 : ∀ i < n, (tmin i).NanOrFin) (hf2 : ∀ i < n, (tmax i).NanOrFin) :
    ∃ out out', disaggregateRadiation api daily sun (some (hourlyS d1 m p)) "pot_rad_via_bc" angstr (.monthly ta tc) course = .ok out ∧
      disaggregateRadiation api daily sun (some (hourlyS d1 m p)) "pot_rad_via_bc" angstr (.monthly ra rc) course = .ok out' ∧
      ∀ i < n, ∀ q : Nat → ℝ, (∀ k < 24, p (d0 + (i : Nat) - d1).toNat k = .fin (q k)) → (∀ k < 24, 0 ≤ q k) → 0 < (day24 q).sum →
        1 / 10 ^ 10 ≤ C (monthOf (at00 (d0 + (i : Nat)))) → ∀ r, bcRange n tmin tmax i = .fin r → ∀ k < 24,
          (0 < r → ∃ y y', (dayCells out (d0 + i))[k]? = some (.fin y) ∧ (dayCells out' (d0 + i))[k]? = some (.fin y') ∧
            CutNear (q k * (1 / 2 / 10 ^ 10) * (1 + |A (monthOf (at00 (d0 + (i : Nat))))| * |Real.log r|)) y y') ∧
          (r = 0 → (dayCells out (d0 + i))[k]? = some (.fin 0) ∧ (dayCells out' (d0 + i))[k]? = some (.fin 0)) := by
  obtain ⟨A', hA'⟩ := stored_fun A
  obtain ⟨C', hC'⟩ := stored_fun C
  have hex : ∀ i : Nat, ∃ μ : ℝ, i < n → ∀ r, bcRange n tmin tmax i = .fin r → meanSkip (bcMonthRanges d0 n tmin tmax i) = .fin μ := by
    intro i
    by_cases hc : i < n ∧ ∃ r, bcRange n tmin tmax i = .fin r
    · obtain ⟨hi', r, hr⟩ := hc
      obtain ⟨μ, hμ⟩ := bcMean_fin (d0 := d0) hf1 hf2 hi' hr
      exact ⟨μ, fun _ _ _ => hμ⟩
    · exact ⟨0, fun hi' r hr => absurd ⟨hi', r, hr⟩ hc⟩
  choose μ hμ using hex
  obtain ⟨out, e1, f1⟩ := bcHour_eq api hi hn hmin hmax sun p h1 h2 angstr course h hf1 hf2 μ hμ
  obtain ⟨out', e2, f2⟩ := bcHour_eq api hi hn hmin hmax sun p h1 h2 angstr (par := .monthly ra rc) course (a := A') (c := C') (by
    intro i hi'
    have := parAt_loaded hra hrc (h i hi')
    rw [(hA' _).1, (hC' _).1] at this
    exact this) hf1 hf2 μ hμ
  refine ⟨out, out', e1, e2, ?_⟩
  intro i hi' q hq hq0 hpos hC r hr k hk
  have c1 : 0 < C (monthOf (at00 (d0 + (i : Nat)))) := lt_of_lt_of_le (by norm_num) hC
  have c2 : 0 < C' (monthOf (at00 (d0 + (i : Nat)))) := by
    have := abs_le.1 (hC' (monthOf (at00 (d0 + (i : Nat))))).2
    have hE : eps < 1 / 10 ^ 10 := by unfold eps; norm_num
    linarith [this.2]
  have g1 := f1 i hi' q hq hpos c1 r hr k hk
  have g2 := f2 i hi' q hq hpos c2 r hr k hk
  refine ⟨?_, fun h0 => ⟨g1.2 h0, g2.2 h0⟩⟩
  intro h0
  refine ⟨_, _, g1.1 h0, g2.1 h0, cut_near ?_⟩
  rw [← mul_sub, abs_mul, abs_of_nonneg (hq0 k hk), mul_assoc]
  exact mul_le_mul_of_nonneg_left (bcFactor_close h0 (hA' _).2 (hC' _).2) (hq0 k hk)

/-! ## concrete cases -/

/-- tables with one month whose value is not a multiple of 10⁻¹⁰ -/
theorem oneMonth_loaded (x : ℝ) : SameRows [((1 : Int), XF.fin x)] [(1, stored (.fin x))] := ⟨List.Perm.refl _, List.pairwise_singleton _ _⟩

/-- C156: a shift of 1/3 hours for January and noon at 12h -/
example : disaggregateTemperature .modern exRad "sine_min_max" "sun_loc_shift" false (some [(1, stored (.fin (1 / 3)))]) none
      (some (dailyS 0 2 fun _ => ⟨.fin 6, .fin 12, .fin 18, .fin 12⟩)) =
    disaggregateTemperature .modern exRad "sine_min_max" "sun_loc_shift" false (some [(1, .fin (1 / 3))]) none
      (some (dailyS 0 2 fun _ => ⟨.fin 6, .fin 12, .fin 18, .fin 12⟩)) := by
  refine C156_shift .modern exRad _ _ false (oneMonth_loaded (1 / 3)) (by simp) none _ ?_
  rintro _ s ⟨⟩ row hrow noon d hn hd
  obtain ⟨i, _, rfl⟩ := List.mem_map.1 hrow
  have e1 : noon = 12 := (XF.fin.inj hn).symm
  have e2 : d = 1 / 3 := by
    have := congrArg Prod.snd (List.mem_singleton.1 hd)
    exact XF.fin.inj this
  rw [e1, e2]
  exact offHalf_of_near (m := 12) (d := 1 / 3) (by norm_num [abs_of_pos]) (by norm_num)

/-- C156: a course of thirds and what is loaded; the bound for 100 W/m2 -/
example : ∃ out out', disaggregateRadiation .modern exRad none none "mean_course" (.scalar (.fin 0) (.fin 0)) (.scalar (.fin 0) (.fin 0)) (some (thirds (.fin (1 / 3)))) = .ok out ∧
    disaggregateRadiation .modern exRad none none "mean_course" (.scalar (.fin 0) (.fin 0)) (.scalar (.fin 0) (.fin 0)) (some (thirds (stored (.fin (1 / 3))))) = .ok out' ∧
    ∃ x y, (dayCells out 0)[3]? = some (.fin x) ∧ (dayCells out' 0)[3]? = some (.fin y) ∧ CutNear (25 * (1 / 2 / 10 ^ 10) * |(100 : ℝ)| / (1 / 3)) x y := by
  have hfull : FullCourse (thirds (.fin (1 / 3))) := ⟨by
    show ((List.range 12).map fun k : Nat => (k : Int) + 1).Nodup
    decide, by
    show ((List.range 24).map fun k : Nat => (k : Int)).Nodup
    decide, by
    show ∀ m ∈ ([1, 2, 3, 4, 5, 6, 7, 8, 9, 10, 11, 12] : List Int), m ∈ (List.range 12).map fun k : Nat => (k : Int) + 1
    decide⟩
  have hsame : SameCourse (thirds (.fin (1 / 3))) (thirds (stored (.fin (1 / 3)))) := ⟨rfl, List.Perm.refl _, by
    show ((List.range 24).map fun k : Nat => (k : Int)).Pairwise (· < ·)
    decide, by
    intro m _ h
    unfold MeanCourse.lookup
    show (if (thirds (.fin (1 / 3))).months.contains m && (thirds (.fin (1 / 3))).hours.contains h then _ else _) = _
    split <;> rfl⟩
  have hv : exRad.col? "glob" = some (dailyS 0 2 fun i => if i = 0 then .fin 100 else .fin 50) := rfl
  obtain ⟨out, out', h1, h2, h3⟩ := C156_course .modern (daily := exRad) (d0 := 0) (n := 2) rfl (by decide) _ hv none none (.scalar (.fin 0) (.fin 0))
    (.scalar (.fin 0) (.fin 0)) hsame hfull fun k hk => List.mem_map.2 ⟨k, List.mem_range.2 hk, rfl⟩
  have hs : (day24 fun _ => (1 / 3 : ℝ)).sum / 24 = 1 / 3 := by rw [sum_day24_const]; norm_num
  have := (h3 0 (by decide) (fun _ => 1 / 3) (fun _ _ => rfl) (fun _ _ => by norm_num) (by rw [hs]; norm_num)).2 100 rfl 3 (by decide)
  rw [hs] at this
  exact ⟨out, out', h1, h2, this⟩

/-- C156: 6 h of 12 h sunshine; parameters 1/3 and 2/3 -/
example : ∃ out out', disaggregateRadiation .modern exRad (some (dailyS 0 2 fun _ => ⟨.fin 6, .fin 12, .fin 18, .fin 12⟩)) (some (hourlyS 0 2 exPot))
      "pot_rad_via_ssd" (.monthly [(1, .fin (1 / 3))] [(1, .fin (2 / 3))]) = .ok out ∧
    disaggregateRadiation .modern exRad (some (dailyS 0 2 fun _ => ⟨.fin 6, .fin 12, .fin 18, .fin 12⟩)) (some (hourlyS 0 2 exPot))
      "pot_rad_via_ssd" (.monthly [(1, stored (.fin (1 / 3)))] [(1, stored (.fin (2 / 3)))]) = .ok out' ∧
    ∃ x y, (dayCells out 0)[12]? = some (.fin x) ∧ (dayCells out' 0)[12]? = some (.fin y) ∧ CutNear (239 * (1 / 2 / 10 ^ 10) * (1 + |(6 : ℝ)| / 12)) x y := by
  have hs : exRad.col? "ssd" = some (dailyS 0 2 fun i => if i = 0 then .fin 6 else .fin 12) := rfl
  have hm : ∀ i : Nat, i < 2 → monthOf (at00 (0 + i)) = 1 := by decide
  obtain ⟨out, out', h1, h2, h3⟩ := C156_sunshine (m := 2) (d1 := 0) .modern (daily := exRad) (d0 := 0) (n := 2) rfl (by decide) _ hs
    (fun _ => ⟨.fin 6, .fin 12, .fin 18, .fin 12⟩) exPot (by decide) (by decide) (.scalar (.fin 0.75) (.fin 2.4)) none (oneMonth_loaded (1 / 3))
    (oneMonth_loaded (2 / 3)) (fun _ => 1 / 3) (fun _ => 2 / 3) (by intro i hi; rw [hm i hi]; exact ⟨rfl, rfl⟩)
  have := h3 0 (by decide) exPotReal (exPot_fin 0) exPot_nonneg (by rw [exPot_sum]; norm_num) 12 6 rfl (by norm_num) rfl 12 (by decide)
  exact ⟨out, out', h1, h2, this⟩

/-- C156: a range of 9 degrees; parameters 2/3 and 7/3 -/
example : ∃ out out', disaggregateRadiation .modern exRad none (some (hourlyS 0 2 exPot)) "pot_rad_via_bc" (.scalar (.fin 0) (.fin 0))
      (.monthly [(1, .fin (2 / 3))] [(1, .fin (7 / 3))]) = .ok out ∧
    disaggregateRadiation .modern exRad none (some (hourlyS 0 2 exPot)) "pot_rad_via_bc" (.scalar (.fin 0) (.fin 0))
      (.monthly [(1, stored (.fin (2 / 3)))] [(1, stored (.fin (7 / 3)))]) = .ok out' ∧
    ∃ x y, (dayCells out 0)[12]? = some (.fin x) ∧ (dayCells out' 0)[12]? = some (.fin y) ∧
      CutNear (239 * (1 / 2 / 10 ^ 10) * (1 + |(2 / 3 : ℝ)| * |Real.log 9|)) x y := by
  have hmin : exRad.col? "tmin" = some (dailyS 0 2 fun i => if i = 0 then .fin 0 else .fin 2) := rfl
  have hmax : exRad.col? "tmax" = some (dailyS 0 2 fun i => if i = 0 then .fin 10 else .fin 8) := rfl
  have hm : ∀ i : Nat, i < 2 → monthOf (at00 (0 + i)) = 1 := by decide
  obtain ⟨out, out', h1, h2, h3⟩ := C156_bristow_campbell (m := 2) (d1 := 0) .modern (daily := exRad) (d0 := 0) (n := 2) rfl (by decide) _ _ hmin hmax
    none exPot (by decide) (by decide) (.scalar (.fin 0) (.fin 0)) none (oneMonth_loaded (2 / 3)) (oneMonth_loaded (7 / 3)) (fun _ => 2 / 3)
    (fun _ => 7 / 3) (by intro i hi; rw [hm i hi]; exact ⟨rfl, rfl⟩) (by intro i _; split <;> trivial) (by intro i _; split <;> trivial)
  have hr : bcRange 2 (fun i => if i = 0 then XF.fin (0 : ℝ) else .fin 2) (fun i => if i = 0 then .fin 10 else .fin 8) 0 = .fin 9 := by
    show XF.fin (10 : ℝ) - (XF.fin 0 + XF.fin 2) / XF.fin 2 = .fin 9
    rw [XF.fin_add_fin, XF.fin_div_fin_of_ne _ (by norm_num)]
    show XF.fin ((10 : ℝ) - (0 + 2) / 2) = .fin 9
    norm_num
  have := (h3 0 (by decide) exPotReal (exPot_fin 0) exPot_nonneg (by rw [exPot_sum]; norm_num) (by norm_num) 9 hr 12 (by decide)).1 (by norm_num)
  exact ⟨out, out', h1, h2, this⟩

end

end Melodist
