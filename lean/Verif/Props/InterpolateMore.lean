import Verif.Lemmas.InterpolateMore
import Mathlib.Tactic.IntervalCases

/-!
# C144: `Station.interpolate` with the other methods of pandas
-/

set_option linter.unusedSectionVars false

namespace Melodist
open Spec

section
variable {K : Type} [Field K] [LinearOrder K] [IsStrictOrderedRing K]

/-- the call returned the hourly series `out`: the observations (the daily values at the given hours) are kept, and the gaps of the prepared series are filled by the rule -/
def Spec.StationFilled (api : PandasApi) (daily : Frame K) (d0 : Int) (n : Nat) (chs : List (String × Int)) (limit : Option Int) (direction : String) (area : Option LimitArea)
    (rule : Nat → Option (Nat × K) → Option (Nat × K) → XF K) (out : Series (XF K)) : Prop :=
  ∃ dir lim f g, LimitDirection.parse direction = .ok dir ∧ validateLimit limit = .ok lim ∧ prepareInterpolationData api daily chs = .ok (hourlyS d0 n f) ∧ out = hourlyS d0 n g ∧
    (∀ c h, (c, h) ∈ chs → ∃ s, daily.col? c = some s ∧ ∀ i x, i < n → (s.map Prod.snd)[i]? = some x → x ≠ .nan → g i h.toNat = x) ∧
    FilledBy lim dir area rule (Series.values (hourlyS d0 n f)) (Series.values out)

theorem validateLimit_pos {limit : Option Int} {lim : Option Nat} (hl : validateLimit limit = .ok lim) : lim ≠ some 0 := by
  rintro rfl
  unfold validateLimit at hl
  split at hl
  · cases hl
  · split at hl
    · cases hl
    · injection hl with hl
      injection hl with hl
      omega

/-- from the cells to the station -/
theorem stationFilled_of {api : PandasApi} {daily : Frame K} {d0 : Int} {n : Nat} (hn : 0 < n) (hidx : daily.index = (List.range n).map fun i : Nat => at00 (d0 + i))
    {chs : List (String × Int)} {limit : Option Int} {direction : String} {area : Option LimitArea} {rule : Nat → Option (Nat × K) → Option (Nat × K) → XF K} {out : Series (XF K)}
    {data : Series (XF K)} (hp : prepareInterpolationData api daily chs = .ok data) {dir : LimitDirection} {lim : Option Nat} (hd : LimitDirection.parse direction = .ok dir)
    (hlim : validateLimit limit = .ok lim) {zs : List (XF K)} (ho : out = data.index.zip zs) (hF : FilledBy lim dir area rule data.values zs) :
    StationFilled api daily d0 n chs limit direction area rule out := by
  obtain ⟨f, rfl, hf, -⟩ := C13_anchors api daily d0 n hn hidx chs data hp
  have hlen := hF.1
  have hL : (Series.values (hourlyS d0 n f)).length = 24 * n := by simp [Series.values]
  have hv : Series.values ((Series.index (hourlyS d0 n f)).zip zs) = zs := by
    unfold Series.values
    exact List.map_snd_zip (by rw [hlen, hL]; simp [Series.index])
  have hi : Series.index ((Series.index (hourlyS d0 n f)).zip zs) = Series.index (hourlyS d0 n f) := by
    show List.map Prod.fst _ = _
    exact List.map_fst_zip (by rw [hlen, hL]; simp [Series.index])
  obtain ⟨g, hg⟩ := hourlyS_eq_of_index hi
  subst ho
  refine ⟨dir, lim, f, g, hd, hlim, hp, hg, ?_, by rw [hv]; exact hF⟩
  intro c h hc
  obtain ⟨hlo, hhi, s, hs, hx⟩ := hf c h hc
  refine ⟨s, hs, ?_⟩
  intro i x hi hx' hne
  have hfx := hx i x hi hx'
  have hk : 24 * i + h.toNat < (Series.values (hourlyS d0 n f)).length := by rw [hL]; omega
  have e1 : (Series.values (hourlyS d0 n f))[24 * i + h.toNat] = x := by
    simp only [hourlyS_values, List.getElem_map, List.getElem_range]
    rw [show (24 * i + h.toNat) / 24 = i by omega, show (24 * i + h.toNat) % 24 = h.toNat by omega, hfx]
  have e2 := (hF.2 _ hk).1 (by rw [e1]; exact hne)
  rw [e1, ← hv, hg, hourlyS_values] at e2
  rw [List.getElem?_map, List.getElem?_range (by omega), Option.map_some, Option.some.injEq,
    show (24 * i + h.toNat) / 24 = i by omega, show (24 * i + h.toNat) % 24 = h.toNat by omega] at e2
  exact e2

/-- the position of hour `k`: its timestamp -/
def hourPos (d0 : Int) (k : Nat) : K := ((d0 * DAY : Int) : K) + ((HOUR : Int) : K) * (k : K)

theorem hourPos_lt (d0 : Int) {i j : Nat} (h : i < j) : (hourPos d0 i : K) < hourPos d0 j := by
  unfold hourPos
  have h1 : (i : K) < (j : K) := by exact_mod_cast h
  have h2 : (0 : K) < ((HOUR : Int) : K) := by exact_mod_cast (by decide : (0 : Int) < HOUR)
  have := mul_lt_mul_of_pos_left h1 h2
  linarith

theorem hourPos_mid (d0 : Int) {k p q : Nat} (h1 : p < k) (h2 : k < q) : (hourPos d0 k : K) ≤ hourPos d0 p / 2 + hourPos d0 q / 2 ↔ k - p ≤ q - k := by
  unfold hourPos
  have hH : (0 : K) < ((HOUR : Int) : K) := by exact_mod_cast (by decide : (0 : Int) < HOUR)
  generalize ((HOUR : Int) : K) = H at hH ⊢
  generalize ((d0 * DAY : Int) : K) = D
  constructor
  · intro h
    have h3 : H * (2 * (k : K)) ≤ H * ((p : K) + q) := by linarith
    have h4 := le_of_mul_le_mul_left h3 hH
    have h5 : 2 * k ≤ p + q := by exact_mod_cast h4
    omega
  · intro h
    have h5 : 2 * k ≤ p + q := by omega
    have h4 : (2 * (k : K)) ≤ (p : K) + q := by exact_mod_cast h5
    have := mul_le_mul_of_nonneg_left h4 hH.le
    linarith

theorem hour_cells (d0 : Int) (n : Nat) (f : Nat → Nat → XF K) :
    ((Series.index (hourlyS d0 n f)).map fun t : Int => (t : K)).zip (Series.values (hourlyS d0 n f)) = placed (hourPos d0) (Series.values (hourlyS d0 n f)) := by
  have hlen : (Series.values (hourlyS d0 n f)).length = 24 * n := by simp [Series.values]
  rw [placed, hlen]
  congr 1
  rw [hourlyS_index, List.map_map]
  apply List.map_congr_left
  intro k _
  simp only [Function.comp_apply, hourPos]
  push_cast
  ring

/-- what a call with a method of `interp1d` returns -/
theorem interp1d_call {api : PandasApi} {daily : Frame K} {d0 : Int} {n : Nat} (hn : 0 < n) (hidx : daily.index = (List.range n).map fun i : Nat => at00 (d0 + i))
    {chs : List (String × Int)} {minval : Nat} {inside : List (K × XF K) → K → XF K} {limit : Option Int} {direction : String} {area : Option LimitArea}
    {out : Series (XF K)} (h : stationInterpolateMore api daily chs (.interp1d minval inside) limit direction area = .ok out)
    (rule : List (XF K) → Nat → Option (Nat × K) → Option (Nat × K) → XF K)
    (hin : ∀ (f : Nat → Nat → XF K) k p a q b, k < 24 * n → (Series.values (hourlyS d0 n f))[k]? = some .nan →
      PrevObs (Series.values (hourlyS d0 n f)) k p a → NextObs (Series.values (hourlyS d0 n f)) k q b →
      ∀ l r, validCells (placed (hourPos d0) (Series.values (hourlyS d0 n f))) = l ++ (hourPos d0 p, .fin a) :: (hourPos d0 q, .fin b) :: r →
      (l ++ (hourPos d0 p, XF.fin a) :: (hourPos d0 q, .fin b) :: r).Pairwise (fun a b => a.1 < b.1) → p < k → k < q →
      inside (l ++ (hourPos d0 p, .fin a) :: (hourPos d0 q, .fin b) :: r) (hourPos d0 k) = rule (Series.values (hourlyS d0 n f)) k (some (p, a)) (some (q, b)))
    (hend : ∀ ys k b a, b = none ∨ a = none → rule ys k b a = .nan) :
    ∃ f, prepareInterpolationData api daily chs = .ok (hourlyS d0 n f) ∧
      StationFilled api daily d0 n chs limit direction area (rule (Series.values (hourlyS d0 n f))) out := by
  unfold stationInterpolateMore at h
  obtain ⟨data, hp, h⟩ := py_bind_inv h
  unfold seriesInterpolateMore at h
  dsimp only at h
  obtain ⟨dir, hd, h⟩ := py_bind_inv h
  obtain ⟨lim, hl, h⟩ := py_bind_inv h
  obtain ⟨zs, hz, h⟩ := py_bind_inv h
  injection h with h
  obtain ⟨f, rfl, -⟩ := C13_anchors api daily d0 n hn hidx chs data hp
  have hL : (Series.values (hourlyS d0 n f)).length = 24 * n := by simp [Series.values]
  refine ⟨f, hp, stationFilled_of hn hidx hp hd hl h.symm ?_⟩
  rw [hour_cells] at hz
  refine scipy_filled (validateLimit_pos hl) (fun i j hij _ => hourPos_lt d0 hij) hz _ ?_ (hend _)
  intro k p a q b hk hkn hpk hqk l r hv hs _ _
  rw [hv] at hs ⊢
  exact hin f k p a q b (by rw [hL] at hk; exact hk) hkn hpk hqk l r hv hs hpk.1 hqk.1

/-- **C144 ('nearest').**  If `Station.interpolate(…, method='nearest', …)` returns, observations are kept and a missing hour between two observations gets the value of the nearer
one, the earlier one if it is in the middle, where limit, direction and area allow it; all other hours stay missing, in particular those before the first and after the last
observation. -/
theorem C144_nearest (api : PandasApi) (daily : Frame K) (d0 : Int) (n : Nat) (hn : 0 < n) (hidx : daily.index = (List.range n).map fun i : Nat => at00 (d0 + i))
    (chs : List (String × Int)) (limit : Option Int) (direction : String) (area : Option LimitArea) (out : Series (XF K))
    (h : stationInterpolateMore api daily chs .nearest limit direction area = .ok out) : StationFilled api daily d0 n chs limit direction area nearerRule out := by
  obtain ⟨f, -, h⟩ := interp1d_call hn hidx h (fun _ => nearerRule) (by
    intro f k p a q b hk hkn hp hq l r hv hs hpk hkq
    rw [scipyNearest_between hs (hourPos_lt d0 hpk).le (hourPos_lt d0 hkq)]
    simp only [nearerRule, hourPos_mid d0 hpk hkq]
    split_ifs <;> rfl) (by
    rintro ys k b a (rfl | rfl)
    · rfl
    · cases b <;> rfl)
  exact h

/-- **C144 ('zero').**  With 'zero' the hour gets the value of the earlier observation. -/
theorem C144_zero (api : PandasApi) (daily : Frame K) (d0 : Int) (n : Nat) (hn : 0 < n) (hidx : daily.index = (List.range n).map fun i : Nat => at00 (d0 + i))
    (chs : List (String × Int)) (limit : Option Int) (direction : String) (area : Option LimitArea) (out : Series (XF K))
    (h : stationInterpolateMore api daily chs .zero limit direction area = .ok out) : StationFilled api daily d0 n chs limit direction area earlierRule out := by
  obtain ⟨f, -, h⟩ := interp1d_call hn hidx h (fun _ => earlierRule) (by
    intro f k p a q b hk hkn hp hq l r hv hs hpk hkq
    rw [scipyZero_between hs (hourPos_lt d0 hpk).le (hourPos_lt d0 hkq)]
    rfl) (by
    rintro ys k b a (rfl | rfl)
    · rfl
    · cases b <;> rfl)
  exact h

/-- **C144 ('slinear').**  With 'slinear' the hour gets the value of the straight line between the observations, as with 'linear', but the hours before the first and after the last
observation stay missing. -/
theorem C144_slinear (api : PandasApi) (daily : Frame K) (d0 : Int) (n : Nat) (hn : 0 < n) (hidx : daily.index = (List.range n).map fun i : Nat => at00 (d0 + i))
    (chs : List (String × Int)) (limit : Option Int) (direction : String) (area : Option LimitArea) (out : Series (XF K))
    (h : stationInterpolateMore api daily chs .slinear limit direction area = .ok out) : StationFilled api daily d0 n chs limit direction area segmentRule out := by
  obtain ⟨f, -, h⟩ := interp1d_call hn hidx h (fun _ => segmentRule) (by
    intro f k p a q b hk hkn hp hq l r hv hs hpk hkq
    rw [scipySlinear_between hs (hourPos_lt d0 hpk).le (hourPos_lt d0 hkq)]
    have hH : (0 : K) < ((HOUR : Int) : K) := by exact_mod_cast (by decide : (0 : Int) < HOUR)
    have hne : (hourPos d0 q : K) - hourPos d0 p ≠ 0 := (sub_pos.2 (hourPos_lt d0 (hpk.trans hkq))).ne'
    have e : XF.fin a + (XF.fin b - XF.fin a) * XF.fin ((hourPos d0 k : K) - hourPos d0 p) / XF.fin ((hourPos d0 q : K) - hourPos d0 p) =
        .fin (a + (b - a) * (hourPos d0 k - hourPos d0 p) / (hourPos d0 q - hourPos d0 p)) := by
      rw [XF.fin_sub_fin, XF.fin_mul_fin, XF.fin_div_fin_of_ne _ hne, XF.fin_add_fin]
    simp only [segmentRule]
    rw [e]
    congr 2
    unfold hourPos
    rw [show ((d0 * DAY : Int) : K) + ((HOUR : Int) : K) * (k : K) - (((d0 * DAY : Int) : K) + ((HOUR : Int) : K) * (p : K)) = ((HOUR : Int) : K) * ((k : K) - p) by ring,
      show ((d0 * DAY : Int) : K) + ((HOUR : Int) : K) * (q : K) - (((d0 * DAY : Int) : K) + ((HOUR : Int) : K) * (p : K)) = ((HOUR : Int) : K) * ((q : K) - p) by ring,
      mul_left_comm, mul_div_mul_left _ _ hH.ne']) (by
    rintro ys k b a (rfl | rfl)
    · rfl
    · cases b <;> rfl)
  exact h

/-- **C144 (splines).**  With any method of `interp1d` (e.g. 'quadratic' or 'cubic') observations are kept, a missing hour between two observations gets the value of the curve
through all observations at that hour, where limit, direction and area allow it, and the hours before the first and after the last observation stay missing. -/
theorem C144_spline (api : PandasApi) (daily : Frame K) (d0 : Int) (n : Nat) (hn : 0 < n) (hidx : daily.index = (List.range n).map fun i : Nat => at00 (d0 + i))
    (chs : List (String × Int)) (minval : Nat) (inside : List (K × XF K) → K → XF K) (limit : Option Int) (direction : String) (area : Option LimitArea) (out : Series (XF K))
    (h : stationInterpolateMore api daily chs (.interp1d minval inside) limit direction area = .ok out) :
    ∃ f, prepareInterpolationData api daily chs = .ok (hourlyS d0 n f) ∧
      StationFilled api daily d0 n chs limit direction area
        (innerRule fun k => inside (((hourlyS d0 n f).filter fun c => !c.2.isNan).map fun c => (((c.1 : Int) : K), c.2)) ((d0 * DAY + HOUR * k : Int) : K)) out := by
  obtain ⟨f, hp, h⟩ := interp1d_call hn hidx h (fun ys => innerRule fun k => inside (validCells (placed (hourPos d0) ys)) (hourPos d0 k)) (by
    intro f k p a q b hk hkn hp hq l r hv hs hpk hkq
    simp only [innerRule, hv]) (by
    rintro ys k b a (rfl | rfl)
    · rfl
    · cases b <;> rfl)
  refine ⟨f, hp, ?_⟩
  have e : validCells (placed (hourPos d0) (Series.values (hourlyS d0 n f))) = ((hourlyS d0 n f).filter fun c => !c.2.isNan).map fun c => (((c.1 : Int) : K), c.2) := by
    rw [← hour_cells]
    unfold validCells Series.index Series.values
    rw [List.map_map, List.zip_map', List.filter_map]
    rfl
  have e' : ∀ k : Nat, (hourPos d0 k : K) = ((d0 * DAY + HOUR * k : Int) : K) := by
    intro k
    unfold hourPos
    push_cast
    ring
  simp only [e, e'] at h
  exact h

/-- **C144 ('pad').**  With 'pad' (or 'ffill') a missing hour gets the value of the last observation before it, where limit and area allow it. -/
theorem C144_pad (api : PandasApi) (daily : Frame K) (d0 : Int) (n : Nat) (hn : 0 < n) (hidx : daily.index = (List.range n).map fun i : Nat => at00 (d0 + i))
    (chs : List (String × Int)) (limit : Option Int) (direction : String) (area : Option LimitArea) (out : Series (XF K))
    (h : stationInterpolateMore api daily chs .pad limit direction area = .ok out) :
    direction = "forward" ∧ StationFilled api daily d0 n chs limit direction area lastRule out := by
  unfold stationInterpolateMore at h
  obtain ⟨data, hp, h⟩ := py_bind_inv h
  unfold seriesInterpolateMore at h
  dsimp only at h
  split at h
  · cases h
  rename_i hd
  rw [not_not] at hd
  obtain ⟨lim, hl, h⟩ := py_bind_inv h
  injection h with h
  refine ⟨hd, stationFilled_of hn hidx hp (dir := .forward) (by rw [hd]; decide +kernel) hl h.symm (padCells_filled _ _ _)⟩

/-- **C144 ('backfill').**  With 'backfill' (or 'bfill') a missing hour gets the value of the next observation, where limit and area allow it. -/
theorem C144_backfill (api : PandasApi) (daily : Frame K) (d0 : Int) (n : Nat) (hn : 0 < n) (hidx : daily.index = (List.range n).map fun i : Nat => at00 (d0 + i))
    (chs : List (String × Int)) (limit : Option Int) (direction : String) (area : Option LimitArea) (out : Series (XF K))
    (h : stationInterpolateMore api daily chs .backfill limit direction area = .ok out) :
    direction = "backward" ∧ StationFilled api daily d0 n chs limit direction area nextRule out := by
  unfold stationInterpolateMore at h
  obtain ⟨data, hp, h⟩ := py_bind_inv h
  unfold seriesInterpolateMore at h
  dsimp only at h
  split at h
  · cases h
  rename_i hd
  rw [not_not] at hd
  obtain ⟨lim, hl, h⟩ := py_bind_inv h
  injection h with h
  refine ⟨hd, stationFilled_of hn hidx hp (dir := .backward) (by rw [hd]; decide +kernel) hl h.symm (backfillCells_filled _ _ _)⟩

/-- **C144 ('index').**  With 'index' (or 'values') the result is that of 'time' (see `C114_station`): straight lines between observations, the nearest observation at the ends. -/
theorem C144_index (api : PandasApi) (daily : Frame K) (d0 : Int) (n : Nat) (hn : 0 < n) (hidx : daily.index = (List.range n).map fun i : Nat => at00 (d0 + i))
    (hfin : ∀ c s, daily.col? c = some s → ∀ r ∈ s, r.2.NanOrFin)
    (chs : List (String × Int)) (limit : Option Int) (direction : String) :
    (∀ areaName area, LimitArea.parse areaName = .ok area →
      stationInterpolateMore api daily chs .index limit direction area = stationInterpolateWith api daily chs .time limit direction areaName) ∧
    ∀ area out, stationInterpolateMore api daily chs .index limit direction area = .ok out → StationFilled api daily d0 n chs limit direction area lineRule out := by
  have h1 : ∀ areaName area, LimitArea.parse areaName = .ok area →
      stationInterpolateMore api daily chs .index limit direction area = stationInterpolateWith api daily chs .time limit direction areaName := by
    intro areaName area ha
    unfold stationInterpolateMore stationInterpolateWith
    congr 1
    funext data
    unfold seriesInterpolateMore seriesInterpolate
    rw [ha]
    rfl
  refine ⟨h1, ?_⟩
  intro area out h
  obtain ⟨name, hname⟩ : ∃ name, LimitArea.parse name = .ok area := by
    rcases area with _ | (_ | _)
    · exact ⟨none, rfl⟩
    · exact ⟨some "inside", by decide +kernel⟩
    · exact ⟨some "outside", by decide +kernel⟩
  rw [h1 name area hname] at h
  obtain ⟨dir, ar, lim, f, g, e1, e2, e3, e4, e5, e6, e7⟩ := C114_station api daily d0 n hn hidx chs hfin .time limit direction name out h
  rw [hname] at e2
  injection e2 with e2
  subst e2
  refine ⟨dir, lim, f, g, e1, e3, e4, e5, e6, e7.1, fun k hk => ⟨(e7.2 k hk).1, ?_⟩⟩
  intro hn before after hb ha
  obtain ⟨u1, u2, u3, u4⟩ := (e7.2 k hk).2 hn
  rcases before with _ | ⟨p, a⟩ <;> rcases after with _ | ⟨q, b⟩
  · exact ⟨fun _ => u4 hb ha, fun _ => u4 hb ha⟩
  · exact u3 q b hb ha
  · exact u2 p a hb ha
  · exact u1 p a q b hb ha

/-- **C144 (errors).**  If the daily columns can be prepared: 'pad' needs direction 'forward' and 'backfill' direction 'backward', so that both raise ValueError with the default
direction; a method of `interp1d` raises ValueError if there are observations, but fewer than the method needs, and otherwise returns if direction and limit are valid. -/
theorem C144_errors (api : PandasApi) (daily : Frame K) (chs : List (String × Int)) (data : Series (XF K)) (hp : prepareInterpolationData api daily chs = .ok data)
    (limit : Option Int) (direction : String) (area : Option LimitArea) :
    (direction ≠ "forward" → stationInterpolateMore api daily chs .pad limit direction area = .error .valueError) ∧
    (direction ≠ "backward" → stationInterpolateMore api daily chs .backfill limit direction area = .error .valueError) ∧
    stationInterpolateMore api daily chs .pad = .error .valueError ∧ stationInterpolateMore api daily chs .backfill = .error .valueError ∧
    ∀ minval inside, let obs := (data.values.filter fun y => !y.isNan).length
      (0 < obs → obs < data.length → obs < minval → stationInterpolateMore api daily chs (.interp1d minval inside) limit direction area = .error .valueError) ∧
      (obs = 0 ∨ obs = data.length ∨ minval ≤ obs → (∃ dir, LimitDirection.parse direction = .ok dir) → (∃ lim, validateLimit limit = .ok lim) →
        ∃ out, stationInterpolateMore api daily chs (.interp1d minval inside) limit direction area = .ok out) := by
  have hpad : ∀ limit direction area, direction ≠ "forward" → stationInterpolateMore api daily chs .pad limit direction area = .error .valueError := by
    intro limit direction area hd
    unfold stationInterpolateMore
    rw [hp, py_ok_bind]
    unfold seriesInterpolateMore
    dsimp only
    rw [if_pos hd]
  have hback : ∀ limit direction area, direction ≠ "backward" → stationInterpolateMore api daily chs .backfill limit direction area = .error .valueError := by
    intro limit direction area hd
    unfold stationInterpolateMore
    rw [hp, py_ok_bind]
    unfold seriesInterpolateMore
    dsimp only
    rw [if_pos hd]
  refine ⟨hpad _ _ _, hback _ _ _, hpad _ _ _ (by decide), hback _ _ _ (by decide), ?_⟩
  intro minval inside
  dsimp only
  have hlen : (validCells ((data.index.map fun t : Int => (t : K)).zip data.values)).length = (data.values.filter fun y => !y.isNan).length := by
    have : ((data.index.map fun t : Int => (t : K)).zip data.values).map Prod.snd = data.values := List.map_snd_zip (by simp [Series.index, Series.values])
    conv_rhs => rw [← this, List.filter_map, List.length_map]
    rfl
  have hall : ((data.index.map fun t : Int => (t : K)).zip data.values).length = data.length := by simp [Series.index, Series.values]
  have hcall : stationInterpolateMore api daily chs (.interp1d minval inside) limit direction area =
      (do
        let direction ← LimitDirection.parse direction
        let limit ← validateLimit limit
        let out ← interpolate1dScipy minval inside limit direction area ((data.index.map fun t : Int => (t : K)).zip data.values)
        .ok (data.index.zip out)) := by
    unfold stationInterpolateMore
    rw [hp, py_ok_bind]
    rfl
  rw [hcall]
  generalize (data.values.filter fun y => !y.isNan).length = obs at hlen
  generalize (data.index.map fun t : Int => (t : K)).zip data.values = xs at hlen hall
  constructor
  · intro h1 h2 h3
    have hraise : ∀ lim dir, interpolate1dScipy minval inside lim dir area xs = .error .valueError := by
      intro lim dir
      unfold interpolate1dScipy
      dsimp only
      change (if validCells xs = [] ∨ (validCells xs).length = xs.length then _ else if (validCells xs).length < minval then _ else _) = _
      rw [hlen, hall, if_neg, if_pos h3]
      rintro (h | h)
      · rw [h] at hlen; simp at hlen; omega
      · omega
    cases hd : LimitDirection.parse direction with
    | error e =>
      have : e = .valueError := by
        unfold LimitDirection.parse at hd
        split_ifs at hd
        injection hd with hd
        exact hd.symm
      rw [this]; rfl
    | ok dir =>
      rw [py_ok_bind]
      cases hl : validateLimit limit with
      | error e =>
        have : e = .valueError := by
          unfold validateLimit at hl
          split at hl
          · cases hl
          · split_ifs at hl
            injection hl with hl
            exact hl.symm
        rw [this]; rfl
      | ok lim =>
        rw [py_ok_bind, hraise]; rfl
  · rintro h ⟨dir, hd⟩ ⟨lim, hl⟩
    rw [hd, py_ok_bind, hl, py_ok_bind]
    unfold interpolate1dScipy
    dsimp only
    change ∃ out, ((if validCells xs = [] ∨ (validCells xs).length = xs.length then _ else if (validCells xs).length < minval then _ else _) >>= _) = _
    rw [hlen, hall]
    split_ifs with h1 h2
    · exact ⟨_, rfl⟩
    · exfalso
      rw [not_or] at h1
      rcases h with h | h | h
      · exact h1.1 (List.length_eq_zero_iff.1 (hlen.trans h))
      · exact h1.2 h
      · omega
    · exact ⟨_, rfl⟩

/-- all cells are missing or between `lo` and `hi` -/
def Spec.CellsIn (lo hi : K) (ys : List (XF K)) : Prop := ∀ y ∈ ys, y = .nan ∨ ∃ x, y = .fin x ∧ lo ≤ x ∧ x ≤ hi

theorem filledBy_in {limit : Option Nat} {dir : LimitDirection} {area : Option LimitArea} {rule : Nat → Option (Nat × K) → Option (Nat × K) → XF K} {ys zs : List (XF K)}
    (h : FilledBy limit dir area rule ys zs) {lo hi : K} (hy : CellsIn lo hi ys)
    (hr : ∀ k b a, (∀ p x, b = some (p, x) → p < k ∧ lo ≤ x ∧ x ≤ hi) → (∀ q x, a = some (q, x) → k < q ∧ lo ≤ x ∧ x ≤ hi) → rule k b a = .nan ∨ ∃ x, rule k b a = .fin x ∧ lo ≤ x ∧ x ≤ hi) :
    CellsIn lo hi zs := by
  intro z hz
  obtain ⟨k, hk, rfl⟩ := List.getElem_of_mem hz
  have hk' : k < ys.length := by rw [← h.1]; exact hk
  obtain ⟨u1, u2⟩ := h.2 k hk'
  have hzk := List.getElem?_eq_getElem hk
  have hf : ∀ y ∈ ys, y.NanOrFin := by
    intro y h
    rcases hy y h with rfl | ⟨x, rfl, -⟩ <;> trivial
  by_cases hn : ys[k] = .nan
  · obtain ⟨b, hb⟩ : ∃ b, PrevIs ys k b := by
      rcases prev_cases hf k hk'.le with hp | ⟨p, a, hp⟩
      · exact ⟨none, hp⟩
      · exact ⟨some (p, a), hp⟩
    obtain ⟨a, ha⟩ : ∃ a, NextIs ys k a := by
      rcases next_cases hf (ys.length - 1 - k) k (by omega) with hp | ⟨p, a, hp⟩
      · exact ⟨none, hp⟩
      · exact ⟨some (p, a), hp⟩
    have obs : ∀ (i : Nat) x, ys[i]? = some (.fin x) → lo ≤ x ∧ x ≤ hi := by
      intro i x hx
      rcases hy _ (List.mem_of_getElem? hx) with h | ⟨x', h, h'⟩
      · cases h
      · injection h with h; subst h; exact h'
    obtain ⟨v1, v2⟩ := u2 hn b a hb ha
    by_cases hm : MayFill limit dir area (b.map fun o => k - o.1) (a.map fun o => o.1 - k)
    · have := v1 hm
      rw [hzk, Option.some.injEq] at this
      rw [this]
      refine hr k b a ?_ ?_
      · rintro p x rfl
        exact ⟨hb.1, obs p x hb.2.1⟩
      · rintro q x rfl
        exact ⟨ha.1, obs q x ha.2.1⟩
    · have := v2 hm
      rw [hzk, Option.some.injEq] at this
      exact .inl this
  · have := u1 hn
    rw [hzk, Option.some.injEq] at this
    rw [this]
    exact hy _ (List.getElem_mem hk')

/-- **C144 (range).**  With 'index', 'nearest', 'zero', 'slinear', 'pad' and 'backfill' all hours stay within the range of the observations, whatever the options: if all cells of the
prepared series are missing or between `lo` and `hi`, so are the cells of the result. -/
theorem C144_range (api : PandasApi) (daily : Frame K) (d0 : Int) (n : Nat) (hn : 0 < n) (hidx : daily.index = (List.range n).map fun i : Nat => at00 (d0 + i))
    (hfin : ∀ c s, daily.col? c = some s → ∀ r ∈ s, r.2.NanOrFin) (chs : List (String × Int)) (data : Series (XF K)) (hp : prepareInterpolationData api daily chs = .ok data)
    (lo hi : K) (hdata : CellsIn lo hi data.values) (method : MoreMethod K) (hm : method = .index ∨ method = .nearest ∨ method = .zero ∨ method = .slinear ∨ method = .pad ∨ method = .backfill)
    (limit : Option Int) (direction : String) (area : Option LimitArea) (out : Series (XF K))
    (h : stationInterpolateMore api daily chs method limit direction area = .ok out) : CellsIn lo hi out.values := by
  have key : ∀ rule : Nat → Option (Nat × K) → Option (Nat × K) → XF K, StationFilled api daily d0 n chs limit direction area rule out →
      (∀ k b a, (∀ p x, b = some (p, x) → p < k ∧ lo ≤ x ∧ x ≤ hi) → (∀ q x, a = some (q, x) → k < q ∧ lo ≤ x ∧ x ≤ hi) → rule k b a = .nan ∨ ∃ x, rule k b a = .fin x ∧ lo ≤ x ∧ x ≤ hi) →
      CellsIn lo hi out.values := by
    rintro rule ⟨dir, lim, f, g, -, -, hp', -, -, hF⟩ hr
    rw [hp] at hp'
    injection hp' with hp'
    rw [hp'] at hdata
    exact filledBy_in hF hdata hr
  have line : ∀ k p q : Nat, p < k → k < q → ∀ a b : K, lo ≤ a ∧ a ≤ hi → lo ≤ b ∧ b ≤ hi →
      lo ≤ a + (b - a) * ((k : K) - p) / ((q : K) - p) ∧ a + (b - a) * ((k : K) - p) / ((q : K) - p) ≤ hi := by
    intro k p q h1 h2 a b ha hb
    have h1 : (p : K) < k := by exact_mod_cast h1
    have h2 : (k : K) < q := by exact_mod_cast h2
    rw [mul_div_assoc]
    have w0 : 0 ≤ ((k : K) - p) / ((q : K) - p) := div_nonneg (by linarith) (by linarith)
    have w1 : ((k : K) - p) / ((q : K) - p) ≤ 1 := (div_le_one (by linarith)).2 (by linarith)
    generalize ((k : K) - p) / ((q : K) - p) = w at w0 w1
    constructor
    · nlinarith [mul_nonneg w0 (sub_nonneg.2 hb.1), mul_nonneg (sub_nonneg.2 w1) (sub_nonneg.2 ha.1)]
    · nlinarith [mul_nonneg w0 (sub_nonneg.2 hb.2), mul_nonneg (sub_nonneg.2 w1) (sub_nonneg.2 ha.2)]
  rcases hm with rfl | rfl | rfl | rfl | rfl | rfl
  · refine key _ ((C144_index api daily d0 n hn hidx hfin chs limit direction).2 area out h) ?_
    rintro k (_ | ⟨p, a⟩) (_ | ⟨q, b⟩) hb ha
    · exact .inl rfl
    · exact .inr ⟨b, rfl, (ha q b rfl).2⟩
    · exact .inr ⟨a, rfl, (hb p a rfl).2⟩
    · exact .inr ⟨_, rfl, line k p q (hb p a rfl).1 (ha q b rfl).1 a b (hb p a rfl).2 (ha q b rfl).2⟩
  · refine key _ (C144_nearest api daily d0 n hn hidx chs limit direction area out h) ?_
    rintro k (_ | ⟨p, a⟩) (_ | ⟨q, b⟩) hb ha
    · exact .inl rfl
    · exact .inl rfl
    · exact .inl rfl
    · refine .inr ⟨_, rfl, ?_⟩
      split_ifs
      · exact (hb p a rfl).2
      · exact (ha q b rfl).2
  · refine key _ (C144_zero api daily d0 n hn hidx chs limit direction area out h) ?_
    rintro k (_ | ⟨p, a⟩) (_ | ⟨q, b⟩) hb ha
    · exact .inl rfl
    · exact .inl rfl
    · exact .inl rfl
    · exact .inr ⟨_, rfl, (hb p a rfl).2⟩
  · refine key _ (C144_slinear api daily d0 n hn hidx chs limit direction area out h) ?_
    rintro k (_ | ⟨p, a⟩) (_ | ⟨q, b⟩) hb ha
    · exact .inl rfl
    · exact .inl rfl
    · exact .inl rfl
    · exact .inr ⟨_, rfl, line k p q (hb p a rfl).1 (ha q b rfl).1 a b (hb p a rfl).2 (ha q b rfl).2⟩
  · refine key _ (C144_pad api daily d0 n hn hidx chs limit direction area out h).2 ?_
    rintro k (_ | ⟨p, a⟩) (_ | ⟨q, b⟩) hb ha
    · exact .inl rfl
    · exact .inl rfl
    · exact .inr ⟨_, rfl, (hb p a rfl).2⟩
    · exact .inr ⟨_, rfl, (hb p a rfl).2⟩
  · refine key _ (C144_backfill api daily d0 n hn hidx chs limit direction area out h).2 ?_
    rintro k (_ | ⟨p, a⟩) (_ | ⟨q, b⟩) hb ha
    · exact .inl rfl
    · exact .inr ⟨_, rfl, (ha q b rfl).2⟩
    · exact .inl rfl
    · exact .inr ⟨_, rfl, (ha q b rfl).2⟩

end

/-! ### cubic splines leave the range of the observations -/

/-- through four cells the curve is the polynomial of degree at most 3 -/
def Spec.CubicThroughFour (inside : List (ℚ × XF ℚ) → ℚ → XF ℚ) : Prop :=
  ∀ (cells : List (ℚ × XF ℚ)) (c0 c1 c2 c3 : ℚ), cells.length = 4 → (cells.Pairwise fun a b => a.1 < b.1) → (∀ p ∈ cells, p.2 = .fin (c0 + c1 * p.1 + c2 * p.1 ^ 2 + c3 * p.1 ^ 3)) →
    ∀ x, inside cells x = .fin (c0 + c1 * x + c2 * x ^ 2 + c3 * x ^ 3)

/-- two days with minima 0 and 9 and maxima 10 -/
def demoCubic : Frame ℚ := ⟨[at00 0, at00 1], [("tmin", [.fin 0, .fin 9]), ("tmax", [.fin 10, .fin 10])]⟩

/-- the hours of these days with observations -/
def demoCubicHours : List (XF ℚ) := [.nan, .nan, .nan, .nan, .nan, .nan, .fin 0, .nan, .nan, .nan, .nan, .nan, .nan, .nan, .nan, .fin 10, .nan, .nan, .nan, .nan, .nan, .nan, .nan, .nan, .nan, .nan, .nan, .nan, .nan, .nan, .fin 9, .nan, .nan, .nan, .nan, .nan, .nan, .nan, .nan, .fin 10, .nan, .nan, .nan, .nan, .nan, .nan, .nan, .nan]

/-- **C144 (overshoot).**  With 'cubic', the method named in the docstring, hours can be warmer than every daily maximum: for two days with minima 0 and 9 °C at 6:00 and
maxima 10 °C at 15:00, the call with default options returns an hour above 10.8 °C. -/
theorem C144_overshoot (inside : List (ℚ × XF ℚ) → ℚ → XF ℚ) (hc : CubicThroughFour inside) :
    ∃ out x, stationInterpolateMore .legacy demoCubic [("tmin", 6), ("tmax", 15)] (.interp1d 4 inside) = .ok out ∧ Series.at? out (atHour 0 20) = some (.fin x) ∧ 10.8 < x := by
  have hidx : demoCubic.index = (List.range 2).map fun i : Nat => at00 (0 + i) := by decide
  obtain ⟨data, hp⟩ : ∃ data, prepareInterpolationData .legacy demoCubic [("tmin", 6), ("tmax", 15)] = .ok data := by
    cases h : prepareInterpolationData .legacy demoCubic [("tmin", 6), ("tmax", 15)] with
    | ok d => exact ⟨d, rfl⟩
    | error e =>
      have : (prepareInterpolationData .legacy demoCubic [("tmin", 6), ("tmax", 15)]).toOption.isSome := by decide +kernel
      rw [h] at this
      simp [Except.toOption] at this
  have hdata : okAnd (prepareInterpolationData .legacy demoCubic [("tmin", 6), ("tmax", 15)]) (fun d =>
      d.values = demoCubicHours ∧ d.length = 48 ∧ (d.filter fun c => !c.2.isNan) =
        [((21600000000 : Int), XF.fin (0 : ℚ)), (54000000000, .fin 10), (108000000000, .fin 9), (140400000000, .fin 10)]) := by decide +kernel
  obtain ⟨d', hp', hd'⟩ := okAnd_iff.1 hdata
  rw [hp] at hp'
  injection hp' with hp'
  subst hp'
  rw [decide_eq_true_iff] at hd'
  obtain ⟨hvals, hlen, hobs⟩ := hd'
  obtain ⟨out, hout⟩ := ((C144_errors .legacy demoCubic [("tmin", 6), ("tmax", 15)] data hp (some 24) "both" none).2.2.2.2 4 inside).2
    (.inr (.inr (by rw [hvals]; decide +kernel))) ⟨.both, by decide +kernel⟩ ⟨some 24, by decide +kernel⟩
  obtain ⟨f, hf, hS⟩ := C144_spline .legacy demoCubic 0 2 (by omega) hidx _ 4 inside (some 24) "both" none out hout
  rw [hp] at hf
  injection hf with hf
  rw [← hf, hobs] at hS
  obtain ⟨dir, lim, f', g, hdir, hlim, hp2, hg, -, hF⟩ := hS
  rw [hp] at hp2
  injection hp2 with hp2
  rw [← hp2, hvals] at hF
  have ed : dir = .both := by
    have : LimitDirection.parse "both" = .ok .both := by decide +kernel
    rw [this] at hdir; injection hdir with hdir; exact hdir.symm
  have el : lim = some 24 := by
    have : validateLimit (some 24) = .ok (some 24) := by decide +kernel
    rw [this] at hlim; injection hlim with hlim; exact hlim.symm
  subst ed el
  have hcell := ((hF.2 20 (by decide)).2 rfl (some (15, 10)) (some (30, 9)) ⟨by omega, rfl, by intro i h1 h2; interval_cases i <;> rfl⟩
    ⟨by omega, rfl, by intro i h1 h2; interval_cases i <;> rfl⟩).1 ⟨.inl ⟨by simp, 5, rfl, by rintro l ⟨⟩; omega⟩, by simp, by simp⟩
  simp only [innerRule] at hcell
  rw [hc _ (-691 / 44) (13361 / 3960 / 3600000000) (-3 / 22 / 3600000000 ^ 2) (61 / 35640 / 3600000000 ^ 3) rfl (by norm_num) (by
    intro p hp
    simp only [List.map_cons, List.map_nil, List.mem_cons, List.not_mem_nil, or_false] at hp
    rcases hp with rfl | rfl | rfl | rfl <;> simp only [XF.fin.injEq] <;> norm_num)] at hcell
  have hat : Series.at? out (atHour 0 20) = out.values[20]? := by
    subst hg
    have := hourlyS_at? 0 (n := 2) g (i := 0) (h := 20) (by omega) (by omega)
    rw [show (0 : Int) + ((0 : Nat) : Int) = 0 from rfl] at this
    rw [this, hourlyS_values, List.getElem?_map, List.getElem?_range (by omega), Option.map_some]
  exact ⟨out, _, hout, hat.trans hcell, by norm_num⟩

/-- Lagrange's formula -/
def lagrange4 : List (ℚ × XF ℚ) → ℚ → XF ℚ
  | [(x0, .fin y0), (x1, .fin y1), (x2, .fin y2), (x3, .fin y3)], x =>
    .fin (y0 * ((x - x1) * (x - x2) * (x - x3)) / ((x0 - x1) * (x0 - x2) * (x0 - x3)) + y1 * ((x - x0) * (x - x2) * (x - x3)) / ((x1 - x0) * (x1 - x2) * (x1 - x3)) +
      y2 * ((x - x0) * (x - x1) * (x - x3)) / ((x2 - x0) * (x2 - x1) * (x2 - x3)) + y3 * ((x - x0) * (x - x1) * (x - x2)) / ((x3 - x0) * (x3 - x1) * (x3 - x2)))
  | _, _ => .nan

/-- the hypothesis of `C144_overshoot` holds for Lagrange's formula -/
example : CubicThroughFour lagrange4 := by
  intro cells c0 c1 c2 c3 hl hs hv x
  match cells, hl with
  | [(x0, y0), (x1, y1), (x2, y2), (x3, y3)], _ =>
    simp only [List.mem_cons, List.not_mem_nil, or_false, forall_eq_or_imp, forall_eq] at hv
    obtain ⟨rfl, rfl, rfl, rfl⟩ := hv
    simp only [List.pairwise_cons, List.mem_cons, List.not_mem_nil, or_false, forall_eq_or_imp, forall_eq] at hs
    obtain ⟨⟨a1, a2, a3⟩, ⟨b2, b3⟩, d3, -⟩ := hs
    simp only [lagrange4, XF.fin.injEq]
    have h1 := sub_ne_zero.2 a1.ne
    have h2 := sub_ne_zero.2 a2.ne
    have h3 := sub_ne_zero.2 a3.ne
    have h4 := sub_ne_zero.2 b2.ne
    have h5 := sub_ne_zero.2 b3.ne
    have h6 := sub_ne_zero.2 d3.ne
    rw [← neg_sub x0 x1, ← neg_sub x0 x2, ← neg_sub x1 x2, ← neg_sub x0 x3, ← neg_sub x1 x3, ← neg_sub x2 x3]
    field_simp
    ring

/-! ### examples -/

/-- the filled cells of an example of gaps (see `demoGaps`) -/
example : padCells (some 2) none demoGaps = [.nan, .fin 10, .fin 10, .fin 10, .nan, .fin 50, .fin 50, .fin 50] ∧
    padCells none (some .inside) demoGaps = [.nan, .fin 10, .fin 10, .fin 10, .fin 10, .fin 50, .nan, .nan] ∧
    padCells none (some .outside) demoGaps = [.nan, .fin 10, .nan, .nan, .nan, .fin 50, .fin 50, .fin 50] ∧
    backfillCells (some 2) none demoGaps = [.fin 10, .fin 10, .nan, .fin 50, .fin 50, .fin 50, .nan, .nan] ∧
    interpolate1dScipy 1 scipyNearest none .both none (placed (fun k => (k : ℚ)) demoGaps) = .ok [.nan, .fin 10, .fin 10, .fin 10, .fin 50, .fin 50, .nan, .nan] ∧
    interpolate1dScipy 1 scipyZero (some 1) .forward none (placed (fun k => (k : ℚ)) demoGaps) = .ok [.nan, .fin 10, .fin 10, .nan, .nan, .fin 50, .nan, .nan] ∧
    interpolate1dScipy 2 scipySlinear none .both none (placed (fun k => (k : ℚ)) demoGaps) = .ok [.nan, .fin 10, .fin 20, .fin 30, .fin 40, .fin 50, .nan, .nan] ∧
    interpolate1dScipy 3 scipySlinear none .both none (placed (fun k => (k : ℚ)) demoGaps) = .error .valueError := by decide +kernel

/-- calls of the station that return: the hypotheses of the theorems hold for the two days of `demoCubic` -/
example : demoCubic.index = ((List.range 2).map fun i : Nat => at00 (0 + i)) ∧
    okAnd (stationInterpolateMore .legacy demoCubic [("tmin", 6), ("tmax", 15)] .nearest) (fun out => Series.at? out (atHour 0 5) = some .nan ∧
      Series.at? out (atHour 0 22) = some (.fin 10) ∧ Series.at? out (atHour 0 23) = some (.fin 9) ∧ Series.at? out (atHour 1 16) = some .nan) ∧
    okAnd (stationInterpolateMore .legacy demoCubic [("tmin", 6), ("tmax", 15)] .zero) (fun out => Series.at? out (atHour 1 5) = some (.fin 10)) ∧
    okAnd (stationInterpolateMore .legacy demoCubic [("tmin", 6), ("tmax", 15)] .slinear) (fun out => Series.at? out (atHour 0 18) = some (.fin (10 - 1 / 5))) ∧
    okAnd (stationInterpolateMore .legacy demoCubic [("tmin", 6), ("tmax", 15)] .pad (some 24) "forward") (fun out => Series.at? out (atHour 1 23) = some (.fin 10)) ∧
    okAnd (stationInterpolateMore .legacy demoCubic [("tmin", 6), ("tmax", 15)] .backfill (some 5) "backward") (fun out => Series.at? out (atHour 0 0) = some .nan ∧
      Series.at? out (atHour 0 1) = some (.fin 0)) ∧
    okAnd (stationInterpolateMore .legacy demoCubic [("tmin", 6), ("tmax", 15)] .index) (fun out => Series.at? out (atHour 0 0) = some (.fin 0)) ∧
    stationInterpolateMore .legacy demoCubic [("tmin", 6), ("tmax", 15)] .pad = .error .valueError := by decide +kernel

end Melodist
