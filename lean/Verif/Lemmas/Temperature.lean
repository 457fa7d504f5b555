import Verif.Model.Temperature
import Verif.Lemmas.Humidity
import Verif.Spec.Temp

/-!
# Helper lemmas for temperature
-/

set_option linter.unusedSectionVars false

namespace Melodist
open Spec

noncomputable section

/-- `daily` has the columns tmin, tmax, temp on the `n` days from `d0` on -/
structure TempDays (daily : Frame ℝ) (d0 : Int) (n : Nat) (tmin tmax temp : Nat → XF ℝ) : Prop where
  index : daily.index = (List.range n).map fun i : Nat => at00 (d0 + i)
  hmin : daily.col? "tmin" = some (dailyS d0 n tmin)
  hmax : daily.col? "tmax" = some (dailyS d0 n tmax)
  htemp : daily.col? "temp" = some (dailyS d0 n temp)

/-- row `i` of `locdf` -/
def locRow (n : Nat) (tmin tmax temp : Nat → XF ℝ) (lo hi : Nat → Int) (i : Nat) : LocRow where
  minLoc := lo i
  maxLoc := hi i
  minBefore := prevDay tmin i
  minCur := tmin i
  minNext := nextDay n tmin i
  maxBefore := prevDay tmax i
  maxCur := tmax i
  maxNext := nextDay n tmax i
  meanCur := temp i

theorem shiftDays_daily {V : Type} (d0 : Int) (n : Nat) (v : Nat → V) (k : Int) :
    Series.shiftDays (dailyS d0 n v) k = dailyS (d0 + k) n v := by
  unfold Series.shiftDays dailyS
  rw [List.map_map]
  apply List.map_congr_left
  intro i _
  simp only [Function.comp_def, at00]
  congr 1
  ring

theorem shift_next {V : Type} (d0 : Int) {n : Nat} (v : Nat → V) {i : Nat} (hi : i + 1 < n) :
    Series.at? (Series.shiftDays (dailyS d0 n v) (-1)) (at00 (d0 + i)) = some (v (i + 1)) := by
  rw [shiftDays_daily, show d0 + (i : Int) = d0 + -1 + ((i + 1 : Nat) : Int) by push_cast; ring, dailyS_at? _ _ hi]

theorem shift_prev {V : Type} (d0 : Int) {n : Nat} (v : Nat → V) {i : Nat} (h0 : i ≠ 0) (hi : i < n) :
    Series.at? (Series.shiftDays (dailyS d0 n v) 1) (at00 (d0 + i)) = some (v (i - 1)) := by
  rw [shiftDays_daily, show d0 + (i : Int) = d0 + 1 + ((i - 1 : Nat) : Int) by omega, dailyS_at? _ _ (by omega)]

theorem list_eq_range {α : Type} (l : List α) (x : α) : l = (List.range l.length).map fun i => l.getD i x := by
  apply List.ext_getElem
  · simp
  · intro i h1 h2
    rw [List.getElem_map, List.getElem_range, List.getD_eq_getElem?_getD, List.getElem?_eq_getElem h1, Option.getD_some]

theorem mapM_getElem {α β : Type} {f : α → Py β} : ∀ {l : List α} {r : List β}, l.mapM f = .ok r → ∀ (i : Nat) (h1 : i < l.length)
    (h2 : i < r.length), f l[i] = .ok r[i] := by
  intro l
  induction l with
  | nil => intro r _ i h1; simp at h1
  | cons x l ih =>
    intro r h i h1 h2
    rw [List.mapM_cons] at h
    obtain ⟨y, hy, h⟩ := py_bind_inv h
    obtain ⟨ys, hys, h⟩ := py_bind_inv h
    cases h
    cases i with
    | zero => exact hy
    | succ i => exact ih hys i _ _

variable {daily : Frame ℝ} {d0 : Int} {n : Nat} {tmin tmax temp : Nat → XF ℝ}

theorem locTable_inv (hd : TempDays daily d0 n tmin tmax temp) {mmt : String} {md : Option (List (Int × XF ℝ))} {sun : Option (Series SunTimes)}
    {loc : Series LocRow} (h : locTable daily mmt md sun = .ok loc) :
    ∃ locs lo hi, minMaxLoc daily.index mmt md sun = .ok locs ∧ locs.length = n ∧
      (∀ i (h : i < locs.length), locs[i].1.toInt = .ok (lo i) ∧ locs[i].2.toInt = .ok (hi i)) ∧
      loc = dailyS d0 n (locRow n tmin tmax temp lo hi) := by
  unfold locTable at h
  obtain ⟨locs, h1, h⟩ := py_bind_inv h
  obtain ⟨lo, h2, h⟩ := py_bind_inv h
  obtain ⟨hi, h3, h⟩ := py_bind_inv h
  rw [attr_ok hd.hmin, py_ok_bind, attr_ok hd.hmax, py_ok_bind, attr_ok hd.htemp, py_ok_bind] at h
  dsimp only at h
  have hlo := mapM_length h2
  have hhi := mapM_length h3
  have hlen : locs.length = n := by
    have hidx : daily.index.length = n := by rw [hd.index]; simp
    unfold minMaxLoc at h1
    split at h1
    · cases h1; simpa using hidx
    · split at h1
      · cases sun with
        | none => cases h1
        | some sun => cases h1; simpa using hidx
      · split at h1
        · cases sun with
          | none => cases h1
          | some sun =>
            cases md with
            | none => cases h1
            | some md =>
              obtain ⟨dl, hdl, h1⟩ := py_bind_inv h1
              have := mapM_length hdl
              split at h1
              · cases h1
              · rename_i hne
                have he := not_not.1 hne
                cases h1
                have : sun.length = n := by rw [← hidx, ← he]; simp [Series.index]
                simp [Series.values]; omega
        · cases h1; simpa using hidx
  refine ⟨locs, fun i => lo.getD i 0, fun i => hi.getD i 0, h1, hlen, ?_, ?_⟩
  · intro i hi'
    have a := mapM_getElem h2 i hi' (by omega)
    have b := mapM_getElem h3 i hi' (by omega)
    simp only [List.getD_eq_getElem?_getD]
    rw [List.getElem?_eq_getElem (by omega), List.getElem?_eq_getElem (by omega)]
    exact ⟨a, b⟩
  · cases h
    rw [hd.index]
    apply List.ext_getElem
    · simp; omega
    · intro i a b
      simp only [List.length_map, List.length_range] at a b
      have hi' : i < n := by simpa using b
      simp only [List.getElem_map, List.getElem_zipIdx, List.getElem_zip, List.getElem_range, dailyS_getElem, Nat.zero_add, List.length_map,
        List.length_range]
      have c0 := dailyS_at? d0 tmin hi'
      have c1 := dailyS_at? d0 tmax hi'
      have c2 := dailyS_at? d0 temp hi'
      rw [c0, c1, c2]
      congr 1
      unfold locRow nextDay prevDay
      simp only [Option.getD_some, List.getD_eq_getElem?_getD]
      rw [List.getElem?_eq_getElem (show i < lo.length by omega), List.getElem?_eq_getElem (show i < hi.length by omega)]
      simp only [Option.getD_some]
      congr 1
      · by_cases h0 : i = 0
        · simp [h0]
        · rw [if_neg h0, if_neg h0, shift_prev d0 tmin h0 hi']; rfl
      · by_cases h0 : i + 1 = n
        · rw [if_pos h0, if_neg (by omega)]
        · rw [if_neg h0, if_pos (by omega), shift_next d0 tmin (by omega)]; rfl
      · by_cases h0 : i = 0
        · simp [h0]
        · rw [if_neg h0, if_neg h0, shift_prev d0 tmax h0 hi']; rfl
      · by_cases h0 : i + 1 = n
        · rw [if_pos h0, if_neg (by omega)]
        · rw [if_neg h0, if_pos (by omega), shift_next d0 tmax (by omega)]; rfl


theorem sine_inv {api : PandasApi} (hd : TempDays daily d0 n tmin tmax temp) (hn : 0 < n) {method mmt : String}
    (hm : method = "sine_min_max" ∨ method = "sine_mean" ∨ method = "sine") {modNight : Bool} {md : Option (List (Int × XF ℝ))}
    {course : Option (MeanCourse ℝ)} {sun : Option (Series SunTimes)} {out : Series (XF ℝ)}
    (h : disaggregateTemperature api daily method mmt modNight md course sun = .ok out) :
    ∃ locs lo hi, minMaxLoc daily.index mmt md sun = .ok locs ∧ locs.length = n ∧
      (∀ i (h : i < locs.length), locs[i].1.toInt = .ok (lo i) ∧ locs[i].2.toInt = .ok (hi i)) ∧
      out = hourlyS d0 n (fun i h => if method = "sine_mean" then sineMeanCell h (locRow n tmin tmax temp lo hi i)
        else sineCell modNight h (locRow n tmin tmax temp lo hi i)) ∧
      (∃ s, sun = some s ∧ ∀ r ∈ s, ¬ XF.lt r.2.daylength (.fin 3)) := by
  unfold disaggregateTemperature at h
  rw [if_neg (by rcases hm with rfl | rfl | rfl <;> simp)] at h
  have hidx : hourlyIndex api daily.index = .ok (Series.index (hourlyS d0 n fun _ _ => (XF.nan : XF ℝ))) := by
    rw [hd.index, ← dailyS_index d0 n fun _ => (XF.nan : XF ℝ)]
    exact hourlyIndex_daily api d0 hn _ _ _
  rw [hidx, py_ok_bind, if_pos hm] at h
  unfold sineTemperature at h
  obtain ⟨loc, h1, h⟩ := py_bind_inv h
  obtain ⟨locs, lo, hi, e1, e2, e3, rfl⟩ := locTable_inv hd h1
  refine ⟨locs, lo, hi, e1, e2, e3, ?_⟩
  rw [if_neg (not_not.2 (dailyS_index_sorted _ _ _))] at h
  dsimp only at h
  cases sun with
  | none => cases h
  | some sun =>
    dsimp only at h
    split at h
    · unfold polarBranch at h
      obtain ⟨_, _, h⟩ := py_bind_inv h
      split at h <;> cases h
    · rename_i hp
      cases h
      refine ⟨?_, sun, rfl, ?_⟩
      · unfold Series.index hourlyS
        rw [List.map_map, List.map_map]
        apply List.map_congr_left
        intro k hk
        have hk := List.mem_range.1 hk
        simp only [Function.comp_def]
        rw [asof?_daily d0 _ (i := k / 24) (by omega) (by omega), hourOf_atHour _ (by omega)]
      · intro r hr hlt
        apply hp
        rw [List.any_eq_true]
        exact ⟨r, hr, by simpa using hlt⟩


/-! ## the hours of minimum and maximum -/

/-- `lo` and `hi` are the hours of minimum and maximum the options prescribe for the day starting at `t`:
7 and 14 for 'fix'; for 'sun_loc' the full hours nearest to sunrise and to noon, the latter plus 2; for 'sun_loc_shift' the full hours nearest to
sunrise and to noon plus the shift of the month, the latter replaced by the 'sun_loc' rule if it is before the former. -/
def IsLoc (mmt : String) (md : Option (List (Int × XF ℝ))) (sun : Series SunTimes) (t : Time) (lo hi : Int) : Prop :=
  (mmt = "fix" ∧ lo = 7 ∧ hi = 14) ∨
  (mmt = "sun_loc" ∧ ∃ s rise noon, sun.at? t = some s ∧ s.sunrise = .fin rise ∧ s.sunnoon = .fin noon ∧ Nearest lo rise ∧
    Nearest (hi - 2) noon) ∨
  (mmt = "sun_loc_shift" ∧ ∃ s rise noon shift tab m, sun.at? t = some s ∧ s.sunrise = .fin rise ∧ s.sunnoon = .fin noon ∧ Nearest lo rise ∧
    md = some tab ∧ tab.find? (fun r => r.1 == monthOf t) = some (monthOf t, .fin shift) ∧ Nearest m (noon + shift) ∧
    (m < lo → Nearest (hi - 2) noon) ∧ (lo ≤ m → hi = m))

theorem nearest_roundEven (x : ℝ) : Nearest (roundEven x) x := by
  have h1 := Int.floor_le x
  have h2 := Int.lt_floor_add_one x
  unfold Nearest roundEven
  split
  · rename_i h
    have e : |((⌊x⌋ : Int) : ℝ) - x| = x - ⌊x⌋ := by rw [abs_sub_comm, abs_of_nonneg (by linarith)]
    rw [e]
    exact ⟨by linarith, fun h' => by linarith⟩
  · rename_i ha
    split
    · rename_i hb
      have e : |((⌊x⌋ + 1 : Int) : ℝ) - x| = ⌊x⌋ + 1 - x := by push_cast; rw [abs_of_nonneg (by linarith)]
      rw [e]
      exact ⟨by linarith, fun h' => by linarith⟩
    · rename_i hb
      have hx : x - ⌊x⌋ = 1 / 2 := by linarith
      split
      · rename_i hc
        have e : |((⌊x⌋ : Int) : ℝ) - x| = x - ⌊x⌋ := by rw [abs_sub_comm, abs_of_nonneg (by linarith)]
        rw [e]
        exact ⟨by linarith, fun _ => hc⟩
      · rename_i hc
        have e : |((⌊x⌋ + 1 : Int) : ℝ) - x| = ⌊x⌋ + 1 - x := by push_cast; rw [abs_of_nonneg (by linarith)]
        rw [e]
        exact ⟨by linarith, fun _ => by omega⟩

theorem nearest_unique {k l : Int} {x : ℝ} (hk : Nearest k x) (hl : Nearest l x) : k = l := by
  have a := abs_le.1 hk.1
  have b := abs_le.1 hl.1
  by_contra hne
  have key : ∀ {k l : Int}, Nearest k x → Nearest l x → k < l → False := by
    intro k l hk hl hlt
    have a := abs_le.1 hk.1
    have b := abs_le.1 hl.1
    have h1 : (k : ℝ) + 1 ≤ l := by exact_mod_cast hlt
    have h2 : (k : ℝ) - x = -(1 / 2) := by linarith
    have h3 : (l : ℝ) - x = 1 / 2 := by linarith
    have e1 := hk.2 (by rw [h2]; norm_num)
    have e2 := hl.2 (by rw [h3]; norm_num)
    have : (l : ℝ) = ((k + 1 : Int) : ℝ) := by push_cast; linarith
    have : l = k + 1 := by exact_mod_cast this
    omega
  rcases lt_or_gt_of_ne hne with h | h
  · exact key hk hl h
  · exact key hl hk h

theorem toInt_cast (k : Int) : XF.toInt (.fin (k : ℝ)) = .ok k := by
  unfold XF.toInt
  simp

theorem toInt_round {y : XF ℝ} {k : Int} (h : XF.toInt (XF.round y) = .ok k) : ∃ x, y = .fin x ∧ Nearest k x := by
  cases y with
  | fin x =>
    unfold XF.round at h
    rw [toInt_cast] at h
    cases h
    exact ⟨x, rfl, nearest_roundEven x⟩
  | _ => cases h

theorem toInt_round_add {y : XF ℝ} {k : Int} (h : XF.toInt (XF.round y + .fin 2) = .ok k) : ∃ x, y = .fin x ∧ Nearest (k - 2) x := by
  cases y with
  | fin x =>
    unfold XF.round at h
    rw [XF.fin_add_fin, show (roundEven x : ℝ) + 2 = ((roundEven x + 2 : Int) : ℝ) by push_cast; ring, toInt_cast] at h
    cases h
    exact ⟨x, rfl, by rw [show roundEven x + 2 - 2 = roundEven x by ring]; exact nearest_roundEven x⟩
  | _ => cases h

theorem isLoc_unique {mmt : String} {md : Option (List (Int × XF ℝ))} {sun : Series SunTimes} {t : Time} {lo hi lo' hi' : Int}
    (h : IsLoc mmt md sun t lo hi) (h' : IsLoc mmt md sun t lo' hi') : lo' = lo ∧ hi' = hi := by
  rcases h with ⟨rfl, rfl, rfl⟩ | ⟨rfl, s, a, b, e1, e2, e3, e4, e5⟩ | ⟨rfl, s, a, b, δ, tab, m, e1, e2, e3, e4, e5, e6, e7, e8, e9⟩
  · rcases h' with ⟨_, rfl, rfl⟩ | ⟨h, _⟩ | ⟨h, _⟩
    · exact ⟨rfl, rfl⟩
    · exact absurd h (by decide)
    · exact absurd h (by decide)
  · rcases h' with ⟨h, _⟩ | ⟨_, s', a', b', f1, f2, f3, f4, f5⟩ | ⟨h, _⟩
    · exact absurd h (by decide)
    · rw [e1] at f1; cases f1
      rw [e2] at f2; cases f2
      rw [e3] at f3; cases f3
      have := nearest_unique e5 f5
      exact ⟨nearest_unique f4 e4, by omega⟩
    · exact absurd h (by decide)
  · rcases h' with ⟨h, _⟩ | ⟨h, _⟩ | ⟨_, s', a', b', δ', tab', m', f1, f2, f3, f4, f5, f6, f7, f8, f9⟩
    · exact absurd h (by decide)
    · exact absurd h (by decide)
    · rw [e1] at f1; cases f1
      rw [e2] at f2; cases f2
      rw [e3] at f3; cases f3
      rw [e5] at f5; cases f5
      rw [e6] at f6; cases f6
      have hm := nearest_unique e7 f7
      have hl := nearest_unique e4 f4
      subst hm hl
      refine ⟨rfl, ?_⟩
      by_cases hc : m < lo
      · have := nearest_unique (e8 hc) (f8 hc); omega
      · rw [e9 (by omega), f9 (by omega)]

theorem at?_of_index {V : Type} {s : Series V} {d0 : Int} {n : Nat} (h : s.index = (List.range n).map fun i : Nat => at00 (d0 + i)) {i : Nat}
    (hi : i < s.length) : s.at? (at00 (d0 + i)) = some s[i].2 := by
  have hlen : s.length = n := by
    have := congrArg List.length h
    simpa [Series.index] using this
  have hne : Nonempty V := ⟨s[i].2⟩
  have hs : s = dailyS d0 n fun j => if h : j < s.length then s[j].2 else Classical.choice hne := by
    apply List.ext_getElem
    · simp [hlen]
    · intro j h1 h2
      have hj : (s.index)[j]'(by simpa [Series.index] using h1) = at00 (d0 + j) := by
        have := List.getElem_of_eq h (i := j) (by simpa [Series.index] using h1)
        rw [this]; simp
      rw [dailyS_getElem]
      rw [dif_pos h1]
      apply Prod.ext
      · rw [← hj]; simp [Series.index]
      · rfl
  conv_lhs => rw [hs]
  rw [dailyS_at? _ _ (by omega), dif_pos hi]

theorem locs_isLoc {idx : List Time} (hidx : idx = (List.range n).map fun i : Nat => at00 (d0 + i)) {mmt : String}
    {md : Option (List (Int × XF ℝ))} {sun : Series SunTimes} {locs : List (XF ℝ × XF ℝ)} (h : minMaxLoc idx mmt md (some sun) = .ok locs)
    {i : Nat} (hi : i < locs.length) (hin : i < n) {lo hi' : Int} (h1 : locs[i].1.toInt = .ok lo) (h2 : locs[i].2.toInt = .ok hi')
    (hfin : mmt = "sun_loc_shift" → ∀ tab r, md = some tab → tab.find? (fun r => r.1 == monthOf (at00 (d0 + i))) = some r → r.2 ≠ .ninf) :
    IsLoc mmt md sun (at00 (d0 + i)) lo hi' := by
  have hx : ∀ (h : i < idx.length), idx[i] = at00 (d0 + i) := by
    intro h
    simp [hidx]
  have hil : i < idx.length := by rw [hidx]; simpa using hin
  unfold minMaxLoc at h
  split at h
  · rename_i hm
    cases h
    simp only [List.getElem_map] at h1 h2
    left
    refine ⟨hm, ?_, ?_⟩
    · have := toInt_cast 7
      norm_num at this
      rw [this] at h1; cases h1; rfl
    · have := toInt_cast 14
      norm_num at this
      rw [this] at h2; cases h2; rfl
  · split at h
    · rename_i hm
      cases h
      simp only [List.getElem_map, hx hil] at h1 h2
      right; left
      cases hs : sun.at? (at00 (d0 + i)) with
      | none => rw [hs] at h1; cases h1
      | some s =>
        rw [hs] at h1 h2
        obtain ⟨a, e1, e2⟩ := toInt_round h1
        obtain ⟨b, e3, e4⟩ := toInt_round_add h2
        exact ⟨hm, s, a, b, rfl, e1, e3, e2, e4⟩
    · split at h
      · rename_i hm
        right; right
        cases md with
        | none => cases h
        | some tab =>
          obtain ⟨dl, hdl, h⟩ := py_bind_inv h
          split at h
          · cases h
          · rename_i hne
            have he := not_not.1 hne
            cases h
            have hlen := mapM_length hdl
            have hsl : i < sun.length := by
              have := congrArg List.length he
              simp [Series.index] at this
              omega
            have hd := mapM_getElem hdl i hil (by omega)
            simp only [List.getElem_zipWith] at h1 h2
            rw [hx hil] at hd
            unfold shiftFor at hd
            have hat := at?_of_index (s := sun) (he.trans hidx) hsl
            have hv : sun.values[i]'(by simpa [Series.values] using hsl) = sun[i].2 := by simp [Series.values]
            rw [hv] at h1 h2
            obtain ⟨a, e1, e2⟩ := toInt_round h1
            cases hf : tab.find? (fun r => r.1 == monthOf (at00 (d0 + i))) with
            | none => rw [hf] at hd; cases hd
            | some r =>
              rw [hf] at hd
              have hr1 : r.1 = monthOf (at00 (d0 + i)) := by
                have := List.find?_some hf
                simpa using this
              simp only [Except.ok.injEq] at hd
              rw [← hd] at h2
              have hnn : ∃ b, sun[i].2.sunnoon = .fin b := by
                split at h2
                · obtain ⟨b, e, _⟩ := toInt_round_add h2; exact ⟨b, e⟩
                · obtain ⟨x, e, _⟩ := toInt_round h2
                  cases hq : sun[i].2.sunnoon with
                  | fin b => exact ⟨b, rfl⟩
                  | _ => rw [hq] at e; cases hr2 : r.2 <;> rw [hr2] at e <;> cases e
              obtain ⟨b, hb⟩ := hnn
              have hdd : ∃ δ, r.2 = .fin δ := by
                cases hr2 : r.2 with
                | fin δ => exact ⟨δ, rfl⟩
                | ninf => exact absurd hr2 (hfin hm tab r rfl hf)
                | nan =>
                  exfalso
                  rw [hr2, hb, e1] at h2
                  simp [XF.round, XF.toInt] at h2
                | pinf =>
                  exfalso
                  rw [hr2, hb, e1] at h2
                  have hlt : ¬ XF.lt (.pinf : XF ℝ) (XF.round (.fin a)) := by
                    simp [XF.round, XF.lt]
                  have h3 : XF.toInt (if XF.lt (.pinf : XF ℝ) (XF.round (.fin a)) then XF.round (.fin b) + .fin 2 else .pinf) = .ok hi' := h2
                  rw [if_neg hlt] at h3
                  cases h3
              obtain ⟨δ, hδ⟩ := hdd
              refine ⟨hm, sun[i].2, a, b, δ, tab, roundEven (b + δ), hat, e1, hb, e2, rfl, ?_, nearest_roundEven _, ?_, ?_⟩
              · rw [hf, ← hr1, ← hδ]
              · intro hlt
                rw [hδ, hb, e1, XF.fin_add_fin] at h2
                have hlo : lo = roundEven a := nearest_unique e2 (nearest_roundEven a)
                rw [if_pos (by simp only [XF.round, XF.lt_fin]; rw [hlo] at hlt; exact_mod_cast hlt)] at h2
                obtain ⟨x, hx, hy⟩ := toInt_round_add h2
                cases hx; exact hy
              · intro hlt
                rw [hδ, hb, e1, XF.fin_add_fin] at h2
                have hlo : lo = roundEven a := nearest_unique e2 (nearest_roundEven a)
                rw [if_neg (by simp only [XF.round, XF.lt_fin, not_lt]; rw [hlo] at hlt; exact_mod_cast hlt)] at h2
                obtain ⟨x, hx, hy⟩ := toInt_round h2
                cases hx; exact nearest_unique hy (nearest_roundEven _)
      · cases h
        simp only [List.getElem_map] at h1
        cases h1


theorem isLoc_fin {mmt : String} {md : Option (List (Int × XF ℝ))} {sun : Series SunTimes} {t : Time} {lo hi : Int} (h : IsLoc mmt md sun t lo hi) :
    mmt = "sun_loc_shift" → ∀ tab r, md = some tab → tab.find? (fun r => r.1 == monthOf t) = some r → r.2 ≠ .ninf := by
  intro hm tab r h1 h2
  rcases h with ⟨rfl, _⟩ | ⟨rfl, _⟩ | ⟨_, s, a, b, δ, tab', m, e1, e2, e3, e4, e5, e6, _⟩
  · exact absurd hm (by decide)
  · exact absurd hm (by decide)
  · rw [h1] at e5; cases e5
    rw [h2] at e6; cases e6
    simp

/-- what a successful call of a sine method returns on a day whose hours of minimum and maximum are known -/
theorem sine_day {api : PandasApi} (hd : TempDays daily d0 n tmin tmax temp) {method mmt : String}
    (hm : method = "sine_min_max" ∨ method = "sine_mean" ∨ method = "sine") {modNight : Bool} {md : Option (List (Int × XF ℝ))}
    {course : Option (MeanCourse ℝ)} {sun : Series SunTimes} {out : Series (XF ℝ)}
    (h : disaggregateTemperature api daily method mmt modNight md course (some sun) = .ok out) {i : Nat} (hi : i < n) {lo hi' : Int}
    (hloc : IsLoc mmt md sun (at00 (d0 + i)) lo hi') :
    dayCells out (d0 + i) = day24 fun h => if method = "sine_mean" then sineMeanCell h (locRow n tmin tmax temp (fun _ => lo) (fun _ => hi') i)
        else sineCell modNight h (locRow n tmin tmax temp (fun _ => lo) (fun _ => hi') i) := by
  obtain ⟨locs, lo', hi'', e1, e2, e3, rfl, _⟩ := sine_inv hd (by omega) hm h
  have hil : i < locs.length := by omega
  have hl := locs_isLoc hd.index e1 hil hi (e3 i hil).1 (e3 i hil).2 (isLoc_fin hloc)
  obtain ⟨u1, u2⟩ := isLoc_unique hl hloc
  rw [dayCells_hourlyS d0 _ hi]
  unfold locRow
  rw [← u1, ← u2]

/-! ## one cell -/

theorem cos_cases (y : XF ℝ) : XF.cos y = .nan ∨ ∃ c, XF.cos y = .fin c ∧ -1 ≤ c ∧ c ≤ 1 := by
  cases y with
  | fin x => exact .inr ⟨_, rfl, Real.neg_one_le_cos x, Real.cos_le_one x⟩
  | _ => exact .inl rfl

theorem wave_fin (m M : ℝ) (y : XF ℝ) : (.fin m + (.fin M - .fin m) / .fin 2 + (.fin M - .fin m) / .fin 2 * XF.cos y : XF ℝ) = .nan ∨
    ∃ c, (.fin m + (.fin M - .fin m) / .fin 2 + (.fin M - .fin m) / .fin 2 * XF.cos y : XF ℝ) =
      .fin (m + (M - m) / 2 + (M - m) / 2 * c) ∧ -1 ≤ c ∧ c ≤ 1 := by
  rcases cos_cases y with h | ⟨c, h, h1, h2⟩
  · left; rw [h]; simp
  · right
    refine ⟨c, ?_, h1, h2⟩
    rw [h, XF.fin_sub_fin, XF.fin_div_fin_of_ne _ (by norm_num), XF.fin_add_fin, XF.fin_mul_fin, XF.fin_add_fin]

theorem wave_bounds {m M c : ℝ} (h : m ≤ M) (h1 : -1 ≤ c) (h2 : c ≤ 1) :
    m ≤ m + (M - m) / 2 + (M - m) / 2 * c ∧ m + (M - m) / 2 + (M - m) / 2 * c ≤ M := by
  constructor <;> nlinarith

theorem sineCell_cases {modNight : Bool} {h : Int} {r : LocRow} {m M : ℝ} (hm : minValAt h r = .fin m) (hM : maxValAt h r = .fin M) :
    sineCell modNight h r = .nan ∨ ∃ c, sineCell modNight h r = .fin (m + (M - m) / 2 + (M - m) / 2 * c) ∧ -1 ≤ c ∧ c ≤ 1 := by
  unfold sineCell
  rw [hm, hM]
  dsimp only
  split
  · split
    · exact wave_fin m M _
    · split
      · exact wave_fin m M _
      · split
        · exact wave_fin m M _
        · exact .inl rfl
  · exact wave_fin m M _

theorem sineCell_nan {modNight : Bool} {h : Int} {r : LocRow} (hn : minValAt h r = .nan ∨ maxValAt h r = .nan) :
    sineCell modNight h r = .nan := by
  unfold sineCell
  dsimp only
  rcases hn with e | e <;> rw [e] <;> (split <;> [(split <;> [simp; (split <;> [simp; (split <;> simp)])]); simp])


/-- the angle of the cosine -/
def sinePhase (modNight : Bool) (lo hi h : Int) : ℝ :=
  if modNight then
    if hi ≤ h then Real.pi / ((24 - (hi - lo) : Int) : ℝ) * ((h - hi : Int) : ℝ)
    else if lo < h then 1.25 * Real.pi + 0.75 * Real.pi / ((hi - lo : Int) : ℝ) * ((h - lo : Int) : ℝ)
    else Real.pi / ((24 - (hi - lo) : Int) : ℝ) * ((24 - hi + h : Int) : ℝ)
  else 2 * Real.pi / 24 * ((h - hi : Int) : ℝ)

theorem sineCell_eq {modNight : Bool} {h : Int} {r : LocRow} {m M : ℝ} (hm : minValAt h r = .fin m) (hM : maxValAt h r = .fin M)
    (hl : modNight = true → r.maxLoc - r.minLoc ≠ 24) :
    sineCell modNight h r = .fin (m + (M - m) / 2 + (M - m) / 2 * Real.cos (sinePhase modNight r.minLoc r.maxLoc h)) := by
  unfold sineCell sinePhase
  rw [hm, hM]
  dsimp only
  rw [XF.fin_sub_fin, XF.fin_div_fin_of_ne _ (by norm_num), XF.fin_add_fin]
  have fin2 : ∀ y, XF.fin (m + (M - m) / 2) + XF.fin ((M - m) / 2) * XF.cos (XF.fin y) = XF.fin (m + (M - m) / 2 + (M - m) / 2 * Real.cos y) := by
    intro y; rw [XF.cos_fin, XF.fin_mul_fin, XF.fin_add_fin]
  cases modNight with
  | false => simp only [Bool.false_eq_true, if_false]; exact fin2 _
  | true =>
    have h24 : ((24 - (r.maxLoc - r.minLoc) : Int) : ℝ) ≠ 0 := by
      have := hl rfl
      have h' : (24 - (r.maxLoc - r.minLoc) : Int) ≠ 0 := by omega
      exact_mod_cast h'
    simp only [if_true]
    by_cases h1 : r.maxLoc ≤ h
    · rw [if_pos h1, if_pos h1, XF.fin_div_fin_of_ne _ h24, XF.fin_mul_fin, fin2]
    · rw [if_neg h1, if_neg h1]
      by_cases h2 : r.minLoc < h
      · have h' : ((r.maxLoc - r.minLoc : Int) : ℝ) ≠ 0 := by
          have : (r.maxLoc - r.minLoc : Int) ≠ 0 := by omega
          exact_mod_cast this
        rw [if_pos ⟨h2, by omega⟩, if_pos h2, XF.fin_div_fin_of_ne _ h', XF.fin_mul_fin, XF.fin_add_fin, fin2]
      · rw [if_neg (by tauto), if_neg h2, if_pos (by omega), XF.fin_div_fin_of_ne _ h24, XF.fin_mul_fin, fin2]

theorem cos_peak (hi : Int) : Real.cos (2 * Real.pi / 24 * ((hi - hi : Int) : ℝ)) = 1 := by simp

theorem cos_trough (h hi : Int) (he : h - hi = -12 ∨ h - hi = 12) : Real.cos (2 * Real.pi / 24 * ((h - hi : Int) : ℝ)) = -1 := by
  rcases he with he | he
  · rw [he, show 2 * Real.pi / 24 * ((-12 : Int) : ℝ) = -Real.pi by push_cast; ring, Real.cos_neg, Real.cos_pi]
  · rw [he, show 2 * Real.pi / 24 * ((12 : Int) : ℝ) = Real.pi by push_cast; ring, Real.cos_pi]


theorem day24_getElem? {V : Type} (f : Nat → V) {h : Nat} (hh : h < 24) : (day24 f)[h]? = some (f h) := by
  unfold day24
  simp [hh]

/-! ## success -/

theorem mapM_exists {α β : Type} {f : α → Py β} : ∀ {l : List α}, (∀ x ∈ l, ∃ y, f x = .ok y) → ∃ r, l.mapM f = .ok r := by
  intro l
  induction l with
  | nil => intro _; exact ⟨[], rfl⟩
  | cons x l ih =>
    intro h
    obtain ⟨y, hy⟩ := h x (by simp)
    obtain ⟨r, hr⟩ := ih fun z hz => h z (by simp [hz])
    exact ⟨y :: r, by rw [List.mapM_cons, hy, py_ok_bind, hr, py_ok_bind]; rfl⟩

theorem toInt_round_fin (x : ℝ) : ∃ k, XF.toInt (XF.round (.fin x)) = .ok k := ⟨_, toInt_cast _⟩

theorem toInt_round_fin2 (x : ℝ) : ∃ k, XF.toInt (XF.round (.fin x) + .fin 2) = .ok k := by
  refine ⟨roundEven x + 2, ?_⟩
  unfold XF.round
  rw [XF.fin_add_fin, show (roundEven x : ℝ) + 2 = ((roundEven x + 2 : Int) : ℝ) by push_cast; ring, toInt_cast]

theorem minMaxLoc_ok {idx : List Time} {mmt : String} {md : Option (List (Int × XF ℝ))} {sun : Series SunTimes}
    (hidx : idx = (List.range n).map fun i : Nat => at00 (d0 + i)) (hn : 0 < n)
    (hloc : ∀ i < n, ∃ lo hi, IsLoc mmt md sun (at00 (d0 + (i : Nat))) lo hi) (hs : mmt = "sun_loc_shift" → sun.index = idx) :
    ∃ locs, minMaxLoc idx mmt md (some sun) = .ok locs ∧
      ∀ p ∈ locs, (∃ k, XF.toInt p.1 = .ok k) ∧ (∃ k, XF.toInt p.2 = .ok k) := by
  unfold minMaxLoc
  by_cases h1 : mmt = "fix"
  · rw [if_pos h1]
    refine ⟨_, rfl, ?_⟩
    intro p hp
    obtain ⟨t, _, rfl⟩ := List.mem_map.1 hp
    exact ⟨⟨7, by have := toInt_cast 7; norm_num at this; exact this⟩, ⟨14, by have := toInt_cast 14; norm_num at this; exact this⟩⟩
  · rw [if_neg h1]
    by_cases h2 : mmt = "sun_loc"
    · rw [if_pos h2]
      refine ⟨_, rfl, ?_⟩
      intro p hp
      obtain ⟨t, ht, rfl⟩ := List.mem_map.1 hp
      rw [hidx] at ht
      obtain ⟨i, hi, rfl⟩ := List.mem_map.1 ht
      obtain ⟨lo, hi', h⟩ := hloc i (List.mem_range.1 hi)
      rcases h with ⟨h, _⟩ | ⟨_, s, a, b, e1, e2, e3, _, _⟩ | ⟨h, _⟩
      · exact absurd h h1
      · rw [e1]
        dsimp only
        rw [e2, e3]
        exact ⟨toInt_round_fin a, toInt_round_fin2 b⟩
      · rw [h2] at h; exact absurd h (by decide)
    · rw [if_neg h2]
      obtain ⟨lo, hi', h⟩ := hloc 0 hn
      have h3 : mmt = "sun_loc_shift" := by
        rcases h with ⟨h, _⟩ | ⟨h, _⟩ | ⟨h, _⟩
        · exact absurd h h1
        · exact absurd h h2
        · exact h
      rw [if_pos h3]
      have hm : ∃ tab, md = some tab := by
        rcases h with ⟨h, _⟩ | ⟨h, _⟩ | ⟨_, s, a, b, δ, tab, m, e1, e2, e3, e4, e5, _⟩
        · exact absurd h h1
        · exact absurd h h2
        · exact ⟨tab, e5⟩
      obtain ⟨tab, rfl⟩ := hm
      dsimp only
      have key : ∀ i < n, ∃ s a b δ, sun.at? (at00 (d0 + (i : Nat))) = some s ∧ s.sunrise = .fin a ∧ s.sunnoon = .fin b ∧
          tab.find? (fun r => r.1 == monthOf (at00 (d0 + i))) = some (monthOf (at00 (d0 + i)), .fin δ) := by
        intro i hi
        obtain ⟨lo, hi', h⟩ := hloc i hi
        rcases h with ⟨h, _⟩ | ⟨h, _⟩ | ⟨_, s, a, b, δ, tab', m, e1, e2, e3, e4, e5, e6, _⟩
        · exact absurd h h1
        · exact absurd h h2
        · cases e5; exact ⟨s, a, b, δ, e1, e2, e3, e6⟩
      obtain ⟨dl, hdl⟩ := mapM_exists (l := idx) (f := shiftFor tab) (by
        intro t ht
        rw [hidx] at ht
        obtain ⟨i, hi, rfl⟩ := List.mem_map.1 ht
        obtain ⟨s, a, b, δ, _, _, _, e⟩ := key i (List.mem_range.1 hi)
        unfold shiftFor
        rw [e]
        exact ⟨_, rfl⟩)
      rw [hdl, py_ok_bind, if_neg (by rw [hs h3]; simp)]
      refine ⟨_, rfl, ?_⟩
      intro p hp
      obtain ⟨i, hi, hp⟩ := List.mem_iff_getElem.1 hp
      rw [List.getElem_zipWith] at hp
      have hlen := mapM_length hdl
      have hil : i < idx.length := by simp at hi; omega
      have hin : i < n := by rw [hidx] at hil; simpa using hil
      have hsl : i < sun.length := by simp [Series.values] at hi; omega
      have hd := mapM_getElem hdl i hil (by omega)
      obtain ⟨s, a, b, δ, f1, f2, f3, f4⟩ := key i hin
      have hat := at?_of_index (s := sun) ((hs h3).trans hidx) hsl
      rw [hat] at f1
      cases f1
      have hv : sun.values[i]'(by simpa [Series.values] using hsl) = sun[i].2 := by simp [Series.values]
      have hx : idx[i] = at00 (d0 + i) := by simp [hidx]
      rw [hx] at hd
      unfold shiftFor at hd
      simp only [f4, Except.ok.injEq] at hd
      rw [← hp, hv, ← hd, f2, f3, XF.fin_add_fin]
      dsimp only
      refine ⟨toInt_round_fin a, ?_⟩
      split
      · exact toInt_round_fin2 b
      · exact toInt_round_fin _

theorem sine_ok (api : PandasApi) (hd : TempDays daily d0 n tmin tmax temp) (hn : 0 < n) {method mmt : String}
    (hm : method = "sine_min_max" ∨ method = "sine_mean" ∨ method = "sine") (modNight : Bool) {md : Option (List (Int × XF ℝ))}
    (course : Option (MeanCourse ℝ)) {sun : Series SunTimes} (hloc : ∀ i < n, ∃ lo hi, IsLoc mmt md sun (at00 (d0 + (i : Nat))) lo hi)
    (hs : mmt = "sun_loc_shift" → sun.index = daily.index) (hp : ∀ r ∈ sun, ¬ XF.lt r.2.daylength (.fin 3)) :
    ∃ out, disaggregateTemperature api daily method mmt modNight md course (some sun) = .ok out := by
  obtain ⟨locs, hl, ht⟩ := minMaxLoc_ok hd.index hn hloc hs
  obtain ⟨lo, hlo⟩ := mapM_exists (l := locs) (f := fun p => p.1.toInt) fun p hp => (ht p hp).1
  obtain ⟨hi, hhi⟩ := mapM_exists (l := locs) (f := fun p => p.2.toInt) fun p hp => (ht p hp).2
  have hidx : hourlyIndex api daily.index = .ok (Series.index (hourlyS d0 n fun _ _ => (XF.nan : XF ℝ))) := by
    rw [hd.index, ← dailyS_index d0 n fun _ => (XF.nan : XF ℝ)]
    exact hourlyIndex_daily api d0 hn _ _ _
  have hex : ∃ loc, locTable daily mmt md (some sun) = .ok loc := by
    unfold locTable
    rw [hl, py_ok_bind, hlo, py_ok_bind, hhi, py_ok_bind, attr_ok hd.hmin, py_ok_bind, attr_ok hd.hmax, py_ok_bind, attr_ok hd.htemp, py_ok_bind]
    exact ⟨_, rfl⟩
  obtain ⟨loc, hloc'⟩ := hex
  have hsort : loc.index.Pairwise (· < ·) := by
    obtain ⟨_, _, _, _, _, _, rfl⟩ := locTable_inv hd hloc'
    exact dailyS_index_sorted _ _ _
  unfold disaggregateTemperature
  rw [if_neg (by rcases hm with rfl | rfl | rfl <;> simp), hidx, py_ok_bind, if_pos hm]
  unfold sineTemperature
  rw [hloc', py_ok_bind, if_neg (not_not.2 hsort)]
  dsimp only
  rw [if_neg]
  · exact ⟨_, rfl⟩
  · rw [List.any_eq_true]
    rintro ⟨r, hr, h⟩
    exact hp r hr (by simpa using h)


theorem sinePhase_false (lo hi h : Int) : sinePhase false lo hi h = 2 * Real.pi / 24 * ((h - hi : Int) : ℝ) := rfl

theorem cos_lo {lo hi : Int} (h : lo < hi) (h24 : hi < lo + 24) : Real.cos (sinePhase true lo hi lo) = -1 := by
  unfold sinePhase
  rw [if_pos rfl, if_neg (by omega), if_neg (by omega)]
  have : ((24 - hi + lo : Int) : ℝ) = ((24 - (hi - lo) : Int) : ℝ) := by push_cast; ring
  have h0 : ((24 - (hi - lo) : Int) : ℝ) ≠ 0 := by
    have : (24 - (hi - lo) : Int) ≠ 0 := by omega
    exact_mod_cast this
  rw [this, div_mul_cancel₀ _ h0, Real.cos_pi]

theorem cos_hi (lo hi : Int) : Real.cos (sinePhase true lo hi hi) = 1 := by
  unfold sinePhase
  rw [if_pos rfl, if_pos le_rfl]
  simp

end

end Melodist
