import Verif.Model.InterpolateRound
import Verif.Spec.Near
import Verif.Props.Interpolate
import Verif.Props.PackageTests
import Verif.Props.ShiftRound

/-!
# C157: linear interpolation in floating-point arithmetic
-/

set_option linter.unusedSectionVars false

namespace Melodist
open Spec

noncomputable section

/-- `a` and `b` are the numbers of two cells, `n` the distance of the cells and `k` that of the new value from the first -/
theorem lerp_near {a b B : ℝ} (ha : |a| ≤ B) (hb : |b| ≤ B) {n k : ℝ} (hk : 0 ≤ k) (hkn : k < n) :
    |roundBits 53 (roundBits 53 (roundBits 53 (roundBits 53 (b - a) / n) * k) + a) - ((b - a) / n * k + a)| ≤ 2e-15 * B := by
  have hB : 0 ≤ B := (abs_nonneg _).trans ha
  have hn : 0 < n := lt_of_le_of_lt hk hkn
  have e0 : ∀ x, R53.fl x = roundBits 53 x := fun _ => rfl
  have h1 := (Acc.self R53 (b - a)).round
  have h2 := (h1.mul (Acc.exact R53 (x := 1 / n) (B := 1 / n) (by rw [abs_of_pos (by positivity)]))).round
  have h3 := (h2.mul (Acc.exact R53 (x := k) (B := k) (by rw [abs_of_nonneg hk]))).round
  have hab : |b - a| ≤ 2 * B := by
    rw [sub_eq_add_neg]
    refine (abs_add_le _ _).trans ?_
    rw [abs_neg]
    linarith
  have hS : |b - a| * (1 / n) * k ≤ 2 * B := by
    have h : 1 / n * k ≤ 1 := by
      rw [one_div, inv_mul_le_iff₀ hn]
      linarith
    rw [mul_assoc]
    have h0 : 0 ≤ 1 / n * k := by positivity
    calc |b - a| * (1 / n * k) ≤ |b - a| * 1 := mul_le_mul_of_nonneg_left h (abs_nonneg _)
      _ ≤ 2 * B := by linarith
  have h4 := ((h3.mono (le_refl _) hS).add ((Acc.exact R53 ha).mono (Nat.zero_le _) (le_refl _))).round
  have h5 := h4.1
  simp only [e0, mul_one_div] at h5
  refine h5.trans ?_
  rw [show 2 * B + B = 3 * B by ring, ← mul_assoc]
  refine mul_le_mul_of_nonneg_right ?_ hB
  rw [R53_u]
  norm_num

theorem roundBits_pos {i j : Nat} (h : i < j) (hj : j < 2 ^ 53) : roundBits 53 ((j : ℝ) - (i : ℝ)) = j - i := by
  have e : (j : ℝ) - (i : ℝ) = (((j : Int) - (i : Int) : Int) : ℝ) := by push_cast; rfl
  rw [e]
  apply roundBits_smallint (by omega)
  have h1 : (((j : Int) - (i : Int) : Int) : ℝ) < ((2 ^ 53 : Int) : ℝ) := by
    have : ((j : Int) - (i : Int) : Int) < 2 ^ 53 := by
      have : (j : Int) < 2 ^ 53 := by exact_mod_cast hj
      omega
    exact_mod_cast this
  rw [abs_of_pos (by
    have : (0 : Int) < (j : Int) - (i : Int) := by omega
    exact_mod_cast this)]
  refine h1.trans_le (le_of_eq ?_)
  push_cast
  norm_num

/-- a list of cells at full positions, with numbers of size at most `B` -/
def Cells (B : ℝ) (l : List (ℝ × XF ℝ)) : Prop := ∀ p ∈ l, (∃ i : Nat, i < 2 ^ 53 ∧ p.1 = i) ∧ ∃ a, p.2 = .fin a ∧ |a| ≤ B

theorem near_refl {B : ℝ} (hB : 0 ≤ B) (a : ℝ) : Near B (.fin a) (.fin a) := by
  show |a - a| ≤ B
  rw [sub_self, abs_zero]
  exact hB

theorem npInterp_near {B : ℝ} (hB : 0 ≤ B) {j : Nat} (hj : j < 2 ^ 53) : ∀ {l : List (ℝ × XF ℝ)}, Cells B l →
    Near (2e-15 * B) (npInterpR (roundBits 53) (j : ℝ) l) (npInterp (j : ℝ) l)
  | [], _ => trivial
  | [p], h => by
    obtain ⟨-, a, e, -⟩ := h p List.mem_cons_self
    show Near _ p.2 p.2
    rw [e]
    exact near_refl (by positivity) a
  | p :: q :: rest, h => by
    obtain ⟨⟨i, hi, e1⟩, a, e, ha⟩ := h p List.mem_cons_self
    obtain ⟨⟨i', hi', e1'⟩, b, e', hb⟩ := h q (List.mem_cons_of_mem _ List.mem_cons_self)
    unfold npInterpR npInterp
    by_cases c1 : (j : ℝ) < p.1
    · rw [if_pos c1, if_pos c1, e]
      exact near_refl (by positivity) a
    rw [if_neg c1, if_neg c1]
    by_cases c2 : (j : ℝ) < q.1
    · rw [if_pos c2, if_pos c2]
      rw [e1] at c1
      rw [e1'] at c2
      have c1' : i ≤ j := by exact_mod_cast not_lt.1 c1
      have c2' : j < i' := by exact_mod_cast c2
      have hn : (i' : ℝ) - i ≠ 0 := by
        have : (i : ℝ) < i' := by exact_mod_cast lt_of_le_of_lt c1' c2'
        linarith [sub_pos.2 this]
      have hk : roundBits 53 ((j : ℝ) - i) = (j : ℝ) - i := by
        rcases Nat.lt_or_ge i j with hij | hij
        · exact roundBits_pos hij hj
        · have : i = j := by omega
          subst this
          rw [sub_self]
          simp [roundBits]
      rw [e, e', e1, e1', roundBits_pos (by omega) hi', hk]
      show Near _ (XF.rnd _ (XF.rnd _ (XF.rnd _ (XF.fin (roundBits 53 (b - a)) / XF.fin _) * _) + _)) (XF.fin (b - a) / XF.fin _ * _ + _)
      rw [XF.fin_div_fin_of_ne _ hn, XF.fin_div_fin_of_ne _ hn]
      show |_ - _| ≤ _
      refine lerp_near ha hb (sub_nonneg.2 (by exact_mod_cast c1')) ?_
      exact sub_lt_sub_right c2 _
    · rw [if_neg c2, if_neg c2]
      exact npInterp_near hB hj fun r hr => h r (List.mem_cons_of_mem _ hr)

theorem forall₂_zipWith {α β γ δ : Type} {R : γ → δ → Prop} {f : α → β → γ} {g : α → β → δ} : ∀ (l : List α) (xs : List β),
    (∀ i, ∀ x ∈ xs, R (f i x) (g i x)) → List.Forall₂ R (List.zipWith f l xs) (List.zipWith g l xs)
  | [], _, _ => .nil
  | _ :: _, [], _ => by simp
  | i :: l, x :: xs, h => by
    rw [List.zipWith_cons_cons, List.zipWith_cons_cons]
    exact .cons (h i x List.mem_cons_self) (forall₂_zipWith l xs fun i y hy => h i y (List.mem_cons_of_mem _ hy))

/-- missing, or a number of size at most `B` -/
def Spec.CellUpTo (B : ℝ) (c : XF ℝ) : Prop := c = .nan ∨ ∃ a, c = .fin a ∧ |a| ≤ B

theorem near_self {B e : ℝ} (he : 0 ≤ e) {c : XF ℝ} (h : CellUpTo B c) : Near e c c := by
  rcases h with rfl | ⟨a, rfl, -⟩
  · trivial
  · exact near_refl he a

theorem interpolate1d_near {B : ℝ} (hB : 0 ≤ B) (limit : Option Nat) (direction : LimitDirection) (area : Option LimitArea) {ys : List (XF ℝ)}
    (hlen : ys.length < 2 ^ 53) (h : ∀ y ∈ ys, CellUpTo B y) :
    List.Forall₂ (Near (2e-15 * B)) (interpolate1dR (roundBits 53) limit direction area (((List.range ys.length).map fun i : Nat => (i : ℝ)).zip ys))
      (interpolate1d limit direction area (((List.range ys.length).map fun i : Nat => (i : ℝ)).zip ys)) := by
  have hcell : ∀ p ∈ ((List.range ys.length).map fun i : Nat => (i : ℝ)).zip ys, (∃ i : Nat, i < 2 ^ 53 ∧ p.1 = i) ∧ CellUpTo B p.2 := by
    intro p hp
    obtain ⟨h1, h2⟩ := List.of_mem_zip (a := p.1) (b := p.2) hp
    obtain ⟨i, hi, e⟩ := List.mem_map.1 h1
    have := List.mem_range.1 hi
    exact ⟨⟨i, by omega, e.symm⟩, h _ h2⟩
  generalize ((List.range ys.length).map fun i : Nat => (i : ℝ)).zip ys = xs at hcell
  unfold interpolate1dR interpolate1d
  dsimp only
  by_cases c : (xs.filter fun p => !p.2.isNan) = [] ∨ (xs.filter fun p => !p.2.isNan).length = xs.length
  · rw [if_pos c, if_pos c, List.forall₂_same]
    intro y hy
    obtain ⟨p, hp, rfl⟩ := List.mem_map.1 hy
    exact near_self (by positivity) (hcell p hp).2
  · rw [if_neg c, if_neg c]
    apply forall₂_zipWith
    intro i p hp
    by_cases c1 : p.2.isNan
    · rw [if_pos c1, if_pos c1]
      by_cases c2 : preserveNans (xs.map fun p => p.2.isNan) limit direction area i = true
      · rw [if_pos c2, if_pos c2]; trivial
      · rw [if_neg c2, if_neg c2]
        obtain ⟨⟨j, hj, e⟩, -⟩ := hcell p hp
        rw [e]
        refine npInterp_near hB hj ?_
        intro q hq
        obtain ⟨h1, h2⟩ := List.mem_filter.1 hq
        obtain ⟨h3, h4⟩ := hcell q h1
        refine ⟨h3, ?_⟩
        rcases h4 with h4 | h4
        · rw [h4] at h2; exact absurd h2 (by simp [XF.isNan])
        · exact h4
    · rw [if_neg c1, if_neg c1]
      exact near_self (by positivity) (hcell p hp).2

/-- the cells prepared for interpolation are those of the table, or missing -/
theorem prep_cells {P : XF ℝ → Prop} (hnan : P .nan) {api : PandasApi} {daily : Frame ℝ} {chs : List (String × Int)} {data : Series (XF ℝ)}
    (hP : ∀ c s, daily.col? c = some s → ∀ r ∈ s, P r.2) (h : prepareInterpolationData api daily chs = .ok data) : ∀ r ∈ data, P r.2 := by
  unfold prepareInterpolationData at h
  cases h0 : daily.index.head? with
  | none => rw [h0] at h; cases h
  | some t0 =>
    cases h1 : daily.index.getLast? with
    | none => rw [h0, h1] at h; cases h
    | some t1 =>
      rw [h0, h1] at h
      obtain ⟨d, hd, h⟩ := py_bind_inv h
      obtain ⟨idx, -, h⟩ := py_bind_inv h
      have key : ∀ (chs : List (String × Int)) (d0 d : Series (XF ℝ)), chs.foldlM (interpColumn api daily t0 t1) d0 = .ok d → (∀ r ∈ d0, P r.2) → ∀ r ∈ d, P r.2 := by
        intro chs
        induction chs with
        | nil => intro d0 d h hd; cases h; exact hd
        | cons ch chs ih =>
          intro d0 d h hd
          rw [List.foldlM_cons] at h
          obtain ⟨d', h', h⟩ := py_bind_inv h
          refine ih d' d h ?_
          unfold interpColumn at h'
          dsimp only at h'
          split at h'
          · cases h'
          obtain ⟨s, hs, h'⟩ := py_bind_inv h'
          obtain ⟨s', hs', h'⟩ := py_bind_inv h'
          obtain ⟨_, -, h'⟩ := py_bind_inv h'
          have e : d0 ++ s' = d' := Except.ok.inj h'
          subst e
          intro r hr
          rcases List.mem_append.1 hr with hr | hr
          · exact hd r hr
          · unfold Series.make at hs'
            split at hs'
            · cases hs'
              obtain ⟨-, h2⟩ := List.of_mem_zip (a := r.1) (b := r.2) hr
              obtain ⟨r', hr', e⟩ := List.mem_map.1 h2
              unfold Frame.item at hs
              cases hc : daily.col? ch.1 with
              | none => rw [hc] at hs; cases hs
              | some s'' =>
                rw [hc] at hs
                cases hs
                rw [← e]
                exact hP _ _ hc r' hr'
            · cases hs'
      have hall := key chs [] d hd (fun _ h => by cases h)
      unfold Series.reindex at h
      split at h
      · cases h
        intro r hr
        obtain ⟨t, -, rfl⟩ := List.mem_map.1 hr
        dsimp only
        cases ha : Series.at? (d.insertionSort fun a b => a.1 ≤ b.1) t with
        | none => exact hnan
        | some x =>
          unfold Series.at? at ha
          obtain ⟨r', hr', rfl⟩ := Option.map_eq_some_iff.1 ha
          have := List.mem_of_find?_eq_some hr'
          exact hall r' ((List.perm_insertionSort _ d).mem_iff.1 this)
      · cases h

theorem near_zip {e : ℝ} {u w : List (XF ℝ)} (h : List.Forall₂ (Near e) u w) (idx : List Time) : SeriesNear e (idx.zip u) (idx.zip w) := by
  unfold SeriesNear
  induction h generalizing idx with
  | nil => simp
  | cons h1 _ ih =>
    cases idx with
    | nil => simp
    | cons t idx =>
      rw [List.zip_cons_cons, List.zip_cons_cons]
      exact .cons ⟨rfl, h1⟩ (ih idx)

/-- **C157** (accuracy): `Station.interpolate` with method 'linear' in double precision raises the same exceptions as in exact arithmetic; otherwise it returns
the same hours, missing at the same hours, and for daily values of size at most `B` the values are within 2·10⁻¹⁵ `B` of the exact ones (fewer than
2⁵³ rows). -/
theorem C157_accuracy (api : PandasApi) (daily : Frame ℝ) (chs : List (String × Int)) (limit : Option Int) (direction : String) (area : Option String) {B : ℝ}
    (hB : 0 ≤ B) (hcol : ∀ c s, daily.col? c = some s → ∀ r ∈ s, CellUpTo B r.2)
    (hlen : ∀ data, prepareInterpolationData api daily chs = .ok data → data.length < 2 ^ 53) :
    (∀ e, stationInterpolateR (roundBits 53) api daily chs limit direction area = .error e ↔ stationInterpolateWith api daily chs .linear limit direction area = .error e) ∧
    ∀ out, stationInterpolateWith api daily chs .linear limit direction area = .ok out →
      ∃ out', stationInterpolateR (roundBits 53) api daily chs limit direction area = .ok out' ∧ SeriesNear (2e-15 * B) out' out := by
  unfold stationInterpolateR stationInterpolateWith seriesInterpolate
  cases hp : prepareInterpolationData api daily chs with
  | error e => exact ⟨fun e' => Iff.rfl, fun out h => by cases h⟩
  | ok data =>
    simp only [py_ok_bind]
    cases hd : LimitDirection.parse direction with
    | error e => exact ⟨fun e' => Iff.rfl, fun out h => by cases h⟩
    | ok dir =>
      simp only [py_ok_bind]
      cases ha : LimitArea.parse area with
      | error e => exact ⟨fun e' => Iff.rfl, fun out h => by cases h⟩
      | ok ar =>
        simp only [py_ok_bind]
        cases hl : validateLimit limit with
        | error e => exact ⟨fun e' => Iff.rfl, fun out h => by cases h⟩
        | ok lim =>
          simp only [py_ok_bind]
          refine ⟨fun e => ⟨fun h => (by cases h), fun h => (by cases h)⟩, ?_⟩
          intro out h
          have e : data.index.zip _ = out := Except.ok.inj h
          subst e
          refine ⟨_, rfl, ?_⟩
          have hv : data.values.length = data.length := List.length_map ..
          have key := interpolate1d_near hB lim dir ar (ys := data.values) (by rw [hv]; exact hlen data hp) (by
            intro y hy
            obtain ⟨r, hr, rfl⟩ := List.mem_map.1 hy
            exact prep_cells (.inl rfl) hcol hp r hr)
          rw [hv] at key
          refine near_zip key data.index

/-! ## what is kept exactly -/

theorem npInterpR_const {fl : ℝ → ℝ} (h0 : fl 0 = 0) {y : ℝ} (hy : fl y = y) (x : ℝ) : ∀ {l : List (ℝ × XF ℝ)}, l ≠ [] → (∀ p ∈ l, p.2 = .fin y) →
    (∀ a b : ℝ, a ≠ b → fl (a - b) ≠ 0) → npInterpR fl x l = .fin y
  | [], h, _, _ => absurd rfl h
  | [p], _, h, _ => h p List.mem_cons_self
  | p :: q :: rest, _, h, hne => by
    have e := h p List.mem_cons_self
    have e' := h q (List.mem_cons_of_mem _ List.mem_cons_self)
    unfold npInterpR
    by_cases c1 : x < p.1
    · rw [if_pos c1, e]
    rw [if_neg c1]
    by_cases c2 : x < q.1
    · rw [if_pos c2, e, e']
      have hn : fl (q.1 - p.1) ≠ 0 := hne _ _ (by
        intro hc
        rw [hc] at c2
        exact c1 c2)
      show XF.rnd _ (XF.rnd _ (XF.rnd _ (XF.fin (fl (y - y)) / XF.fin _) * _) + _) = _
      rw [XF.fin_div_fin_of_ne _ hn, sub_self, h0, zero_div]
      show XF.fin (fl (fl (fl 0 * _) + y)) = _
      rw [h0, zero_mul, h0, zero_add, hy]
    · rw [if_neg c2]
      exact npInterpR_const h0 hy x (by simp) (fun r hr => h r (List.mem_cons_of_mem _ hr)) hne

/-- **C157** (constant record): if all daily values that are not missing are the same double, every value of the result is missing or exactly this number. -/
theorem C157_constant (api : PandasApi) (daily : Frame ℝ) (chs : List (String × Int)) (limit : Option Int) (direction : String) (area : Option String) {y : ℝ}
    (hy : roundBits 53 y = y) (hcol : ∀ c s, daily.col? c = some s → ∀ r ∈ s, r.2 = .nan ∨ r.2 = .fin y) {out : Series (XF ℝ)}
    (h : stationInterpolateR (roundBits 53) api daily chs limit direction area = .ok out) : ∀ r ∈ out, r.2 = .nan ∨ r.2 = .fin y := by
  unfold stationInterpolateR at h
  obtain ⟨data, hp, h⟩ := py_bind_inv h
  obtain ⟨dir, -, h⟩ := py_bind_inv h
  obtain ⟨ar, -, h⟩ := py_bind_inv h
  obtain ⟨lim, -, h⟩ := py_bind_inv h
  have e : data.index.zip _ = out := Except.ok.inj h
  subst e
  intro r hr
  have hr := (List.of_mem_zip (a := r.1) (b := r.2) hr).2
  have hd := prep_cells (P := fun c => c = .nan ∨ c = .fin y) (.inl rfl) hcol hp
  have hcell : ∀ p ∈ ((List.range data.length).map fun i : Nat => (i : ℝ)).zip data.values, p.2 = .nan ∨ p.2 = .fin y := by
    intro p hp
    obtain ⟨-, h2⟩ := List.of_mem_zip (a := p.1) (b := p.2) hp
    obtain ⟨r, hr, e⟩ := List.mem_map.1 h2
    rw [← e]
    exact hd r hr
  generalize ((List.range data.length).map fun i : Nat => (i : ℝ)).zip data.values = xs at hcell hr
  unfold interpolate1dR at hr
  dsimp only at hr
  by_cases c : (xs.filter fun p => !p.2.isNan) = [] ∨ (xs.filter fun p => !p.2.isNan).length = xs.length
  · rw [if_pos c] at hr
    obtain ⟨p, hp, e⟩ := List.mem_map.1 hr
    rw [← e]
    exact hcell p hp
  · rw [if_neg c] at hr
    rw [← List.map_uncurry_zip_eq_zipWith] at hr
    obtain ⟨⟨i, p⟩, hip, e⟩ := List.mem_map.1 hr
    have hp := (List.of_mem_zip hip).2
    rw [← e]
    dsimp only [Function.uncurry]
    by_cases c1 : p.2.isNan
    · rw [if_pos c1]
      split
      · exact .inl rfl
      · right
        refine npInterpR_const (by simp [roundBits]) hy _ (fun h => c (.inl h)) ?_ ?_
        · intro q hq
          obtain ⟨h1, h2⟩ := List.mem_filter.1 hq
          rcases hcell q h1 with h3 | h3
          · rw [h3] at h2; exact absurd h2 (by simp [XF.isNan])
          · exact h3
        · intro a b hab hz
          have := roundBits_err (p := 53) (a - b)
          rw [hz, zero_sub, abs_neg] at this
          have h2 : 0 < |a - b| := abs_pos.2 (sub_ne_zero.2 hab)
          have h3 : ((2 : ℝ) ^ (-((53 : Nat) : Int))) < 1 := by
            rw [zpow_neg]
            norm_num
          nlinarith
    · rw [if_neg c1]
      exact hcell p hp

/-- **C157** (observations): every prepared value that is not missing is kept exactly. -/
theorem C157_keeps (fl : ℝ → ℝ) (api : PandasApi) (daily : Frame ℝ) (chs : List (String × Int)) (limit : Option Int) (direction : String) (area : Option String)
    {out data : Series (XF ℝ)} (h : stationInterpolateR fl api daily chs limit direction area = .ok out) (hp : prepareInterpolationData api daily chs = .ok data) :
    out.length = data.length ∧ ∀ (k : Nat) (t : Time) (c : XF ℝ), data[k]? = some (t, c) → c ≠ .nan → out[k]? = some (t, c) := by
  unfold stationInterpolateR at h
  rw [hp, py_ok_bind] at h
  obtain ⟨dir, -, h⟩ := py_bind_inv h
  obtain ⟨ar, -, h⟩ := py_bind_inv h
  obtain ⟨lim, -, h⟩ := py_bind_inv h
  have e : data.index.zip _ = out := Except.ok.inj h
  subst e
  have hlen : (((List.range data.length).map fun i : Nat => (i : ℝ)).zip data.values).length = data.length := by
    simp [Series.values]
  have h2 : ((((List.range data.length).map fun i : Nat => (i : ℝ)).zip data.values).map Prod.snd) = data.values := by
    rw [List.map_snd_zip]
    simp [Series.values]
  have hsnd : ∀ (k : Nat) (c : XF ℝ), data.values[k]? = some c → ∃ x, (((List.range data.length).map fun i : Nat => (i : ℝ)).zip data.values)[k]? = some (x, c) := by
    intro k c hk
    rw [← h2, List.getElem?_map] at hk
    obtain ⟨p, hp, e⟩ := Option.map_eq_some_iff.1 hk
    exact ⟨p.1, by rw [hp, ← e]⟩
  generalize ((List.range data.length).map fun i : Nat => (i : ℝ)).zip data.values = xs at hlen h2 hsnd
  have hl1 : (interpolate1dR fl lim dir ar xs).length = data.length := by
    unfold interpolate1dR
    dsimp only
    split <;> simp [hlen]
  refine ⟨by simp [Series.index, hl1], ?_⟩
  intro k t c hk hc
  have hkv : data.values[k]? = some c := by unfold Series.values; rw [List.getElem?_map, hk]; rfl
  have hki : data.index[k]? = some t := by unfold Series.index; rw [List.getElem?_map, hk]; rfl
  have hcell : (interpolate1dR fl lim dir ar xs)[k]? = some c := by
    unfold interpolate1dR
    dsimp only
    split
    · rw [h2]; exact hkv
    · obtain ⟨x, hx⟩ := hsnd k c hkv
      have hkl : k < xs.length := (List.getElem?_eq_some_iff.1 hx).1
      rw [List.getElem?_zipWith, hx, List.getElem?_range hkl]
      dsimp only
      have : c.isNan = false := by cases c <;> first | rfl | exact absurd rfl hc
      rw [this]
      rfl
  rw [List.getElem?_zip_eq_some]
  exact ⟨hki, hcell⟩

/-- **C157** (what the rounded function rounds): with exact operations it is `Station.interpolate` with method 'linear'. -/
theorem C157_exact (api : PandasApi) (daily : Frame ℝ) (chs : List (String × Int)) (limit : Option Int) (direction : String) (area : Option String) :
    stationInterpolateR id api daily chs limit direction area = stationInterpolateWith api daily chs .linear limit direction area := by
  have e1 : ∀ (x : ℝ) (l : List (ℝ × XF ℝ)), npInterpR id x l = npInterp x l := by
    intro x l
    induction l with
    | nil => rfl
    | cons p l ih =>
      cases l with
      | nil => rfl
      | cons q l =>
        unfold npInterpR npInterp
        simp only [XF.rnd_id, id, ih]
  have e2 : ∀ lim dir ar xs, interpolate1dR (K := ℝ) id lim dir ar xs = interpolate1d lim dir ar xs := by
    intro lim dir ar xs
    unfold interpolate1dR interpolate1d
    simp only [e1]
  unfold stationInterpolateR stationInterpolateWith seriesInterpolate
  simp only [e2]

/-! ## concrete cases -/

/-- two days, the minimum of the second is missing -/
def interpDays (x y : ℝ) : Frame ℝ := ⟨[at00 0, at00 1], [("tmin", [.fin x, .nan]), ("tmax", [.fin y, .fin y])]⟩

theorem interpDays_col {x y : ℝ} {c : String} {s : Series (XF ℝ)} (h : (interpDays x y).col? c = some s) :
    ∀ r ∈ s, r.2 = .nan ∨ r.2 = .fin x ∨ r.2 = .fin y := by
  intro r hr
  unfold Frame.col? at h
  simp only [interpDays, List.find?_cons] at h
  split at h
  · injection h with h
    subst h
    simp at hr
    rcases hr with rfl | rfl <;> simp
  · split at h
    · injection h with h
      subst h
      simp at hr
      rcases hr with rfl | rfl <;> simp
    · cases h

theorem interpDays_ok (fl : ℝ → ℝ) (x y : ℝ) : ∃ data out, prepareInterpolationData .legacy (interpDays x y) [("tmin", 6), ("tmax", 15)] = .ok data ∧
    stationInterpolateR fl .legacy (interpDays x y) [("tmin", 6), ("tmax", 15)] = .ok out ∧ data.length = 48 ∧ data[6]? = some (atHour 0 6, .fin x) := by
  have h : (prepareInterpolationData .legacy (interpDays x y) [("tmin", 6), ("tmax", 15)]).toOption.isSome = true := by rfl
  cases hp : prepareInterpolationData .legacy (interpDays x y) [("tmin", 6), ("tmax", 15)] with
  | error e => rw [hp] at h; simp [Except.toOption] at h
  | ok data =>
    have hd : LimitDirection.parse "both" = .ok .both := by decide +kernel
    have ho : ∃ out, stationInterpolateR fl .legacy (interpDays x y) [("tmin", 6), ("tmax", 15)] = .ok out := by
      unfold stationInterpolateR
      rw [hp, py_ok_bind, hd, py_ok_bind]
      exact ⟨_, rfl⟩
    obtain ⟨out, ho⟩ := ho
    refine ⟨data, out, rfl, ho, ?_, ?_⟩
    · obtain ⟨f, rfl, -⟩ := C13_anchors .legacy (interpDays x y) 0 2 (by decide) rfl _ data hp
      simp
    · obtain ⟨f, rfl, h2, -⟩ := C13_anchors .legacy (interpDays x y) 0 2 (by decide) rfl _ data hp
      obtain ⟨-, -, s, hs, h3⟩ := h2 "tmin" 6 (by simp)
      have e : s = [(at00 0, .fin x), (at00 1, .nan)] := (Option.some.inj hs).symm
      have := h3 0 (.fin x) (by decide) (by rw [e]; rfl)
      have this : f 0 6 = .fin x := this
      rw [← this]
      rfl

/-- C157: minimum 1/3 at 6h, maximum 10 at 15h -/
example : ∃ out out', stationInterpolateWith .legacy (interpDays (1 / 3) 10) [("tmin", 6), ("tmax", 15)] .linear (some 24) "both" none = .ok out ∧
    stationInterpolateR (roundBits 53) .legacy (interpDays (1 / 3) 10) [("tmin", 6), ("tmax", 15)] = .ok out' ∧ SeriesNear (2e-15 * 10) out' out ∧
    out'[6]? = some (atHour 0 6, .fin (1 / 3)) := by
  obtain ⟨data, out', hp, ho, hl, h6⟩ := interpDays_ok (roundBits 53) (1 / 3) 10
  obtain ⟨-, out, -, hx, -⟩ := interpDays_ok id (1 / 3) 10
  rw [C157_exact] at hx
  have h := C157_accuracy .legacy (interpDays (1 / 3) 10) [("tmin", 6), ("tmax", 15)] (some 24) "both" none (B := 10) (by norm_num) (by
    intro c s hs r hr
    rcases interpDays_col hs r hr with h | h | h
    · exact .inl h
    · exact .inr ⟨_, h, by norm_num [abs_of_pos]⟩
    · exact .inr ⟨_, h, by norm_num⟩) (by
    intro d hd
    rw [hp] at hd
    cases hd
    rw [hl]
    norm_num)
  obtain ⟨out'', h1, h2⟩ := h.2 out hx
  rw [ho] at h1
  cases h1
  exact ⟨out, out', hx, ho, h2, (C157_keeps _ _ _ _ _ _ _ ho hp).2 6 _ _ h6 (by simp)⟩

/-- C157: both 7 -/
example : ∃ out, stationInterpolateR (roundBits 53) .legacy (interpDays 7 7) [("tmin", 6), ("tmax", 15)] = .ok out ∧ ∀ r ∈ out, r.2 = .nan ∨ r.2 = .fin 7 := by
  obtain ⟨data, out, hp, ho, -⟩ := interpDays_ok (roundBits 53) 7 7
  refine ⟨out, ho, C157_constant .legacy (interpDays 7 7) _ _ _ _ ?_ ?_ ho⟩
  · exact roundBits_small (k := 7) (l := 2) (by norm_num) (by decide) (by norm_num)
  · intro c s hs r hr
    rcases interpDays_col hs r hr with h | h | h
    · exact .inl h
    · exact .inr h
    · exact .inr h

end

end Melodist
