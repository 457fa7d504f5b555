import Verif.Model.HourlyRound
import Verif.Lemmas.Acc
import Verif.Props.TemperatureC
import Verif.Props.Wind
import Verif.Props.Radiation

/-!
# C111: temperature, wind and radiation in floating-point arithmetic
-/

set_option linter.unusedSectionVars false

namespace Melodist
open Spec

noncomputable section

/-! ## exact operations -/

theorem XF.rnd_id (c : XF ℝ) : c.rnd id = c := by cases c <;> rfl

theorem cosCell_exact (c : XF ℝ) : FloatMath.exact.cosCell c = XF.cos c := by cases c <;> rfl

theorem sineCellR_exact (modNight : Bool) (h : Int) (r : LocRow) : sineCellR .exact modNight h r = sineCell modNight h r := by
  unfold sineCellR sineCell
  simp only [FloatMath.exact, XF.rnd_id, id]
  have e : ∀ c, FloatMath.cosCell ⟨id, Real.cos, Real.pi⟩ c = XF.cos c := cosCell_exact
  simp only [e]

theorem sineMeanCellR_exact (h : Int) (r : LocRow) : sineMeanCellR .exact h r = sineMeanCell h r := by
  unfold sineMeanCellR sineMeanCell
  simp only [FloatMath.exact, XF.rnd_id, id]
  have e : ∀ c, FloatMath.cosCell ⟨id, Real.cos, Real.pi⟩ c = XF.cos c := cosCell_exact
  simp only [e]

/-- **C111 (refinement).**  Without rounding, and with the exact cosine, π and mean, these are the functions of the model of the code. -/
theorem C111_exact : (∀ api daily method mmt modNight md course sun,
      disaggregateTemperatureR .exact meanSkip api daily method mmt modNight md course sun =
        disaggregateTemperature api daily method mmt modNight md course sun) ∧
    (∀ api draw daily a b tShift, (disaggregateWind api draw daily "cosine" (some a) (some b) (some tShift)).map WindResult.values =
        disaggregateWindR .exact api daily "cosine" a b tShift) ∧
    (∀ pot daily, radiationCoreR .exact meanSkip pot daily = radiationCore pot daily) := by
  refine ⟨?_, ?_, ?_⟩
  · intro api daily method mmt modNight md course sun
    unfold disaggregateTemperatureR disaggregateTemperature sineTemperatureR sineTemperature courseMinMaxR courseMinMax courseMeanR courseMean
      MeanCourse.zeroMeanR MeanCourse.zeroMean
    simp only [sineCellR_exact, sineMeanCellR_exact]
    simp only [FloatMath.exact, XF.rnd_id]
    rfl
  · intro api draw daily a b tShift
    unfold disaggregateWind disaggregateWindR
    cases distributeEqually api daily with
    | error e => rfl
    | ok w =>
      show Except.ok _ = Except.ok _
      congr 1
      apply List.map_congr_left
      intro r _
      unfold cosineCellR cosineCell
      simp only [cosCell_exact]
      simp only [FloatMath.exact, XF.rnd_id, id]
  · intro pot daily
    unfold radiationCoreR radiationCore
    simp only [FloatMath.exact, XF.rnd_id, id]

/-! ## temperature -/

variable {daily : Frame ℝ} {d0 : Int} {n : Nat} {tmin tmax temp : Nat → XF ℝ}

theorem sine_invR {F : FloatMath} {mean : List (XF ℝ) → XF ℝ} {api : PandasApi} (hd : TempDays daily d0 n tmin tmax temp) (hn : 0 < n) {method mmt : String}
    (hm : method = "sine_min_max" ∨ method = "sine_mean" ∨ method = "sine") {modNight : Bool} {md : Option (List (Int × XF ℝ))}
    {course : Option (MeanCourse ℝ)} {sun : Option (Series SunTimes)} {out : Series (XF ℝ)}
    (h : disaggregateTemperatureR F mean api daily method mmt modNight md course sun = .ok out) :
    ∃ locs, ∃ lo hi : Nat → Int, minMaxLoc daily.index mmt md sun = .ok locs ∧ locs.length = n ∧
      (∀ i (h : i < locs.length), locs[i].1.toInt = .ok (lo i) ∧ locs[i].2.toInt = .ok (hi i)) ∧
      out = hourlyS d0 n (fun i h => if method = "sine_mean" then sineMeanCellR F h (locRow n tmin tmax temp lo hi i)
        else sineCellR F modNight h (locRow n tmin tmax temp lo hi i)) ∧
      disaggregateTemperature api daily method mmt modNight md course sun =
        .ok (hourlyS d0 n (fun i h => if method = "sine_mean" then sineMeanCell h (locRow n tmin tmax temp lo hi i)
          else sineCell modNight h (locRow n tmin tmax temp lo hi i))) := by
  unfold disaggregateTemperatureR at h
  unfold disaggregateTemperature
  rw [if_neg (by rcases hm with rfl | rfl | rfl <;> simp)] at h ⊢
  have hidx : hourlyIndex api daily.index = .ok (Series.index (hourlyS d0 n fun _ _ => (XF.nan : XF ℝ))) := by
    rw [hd.index, ← dailyS_index d0 n fun _ => (XF.nan : XF ℝ)]
    exact hourlyIndex_daily api d0 hn _ _ _
  rw [hidx, py_ok_bind, if_pos hm] at h ⊢
  unfold sineTemperatureR at h
  unfold sineTemperature
  obtain ⟨loc, h1, h⟩ := py_bind_inv h
  rw [h1, py_ok_bind]
  obtain ⟨locs, lo, hi, e1, e2, e3, rfl⟩ := locTable_inv hd h1
  refine ⟨locs, lo, hi, e1, e2, e3, ?_⟩
  rw [if_neg (not_not.2 (dailyS_index_sorted _ _ _))] at h ⊢
  dsimp only at h ⊢
  cases sun with
  | none => cases h
  | some sun =>
    dsimp only at h ⊢
    split at h
    · unfold polarBranch at h
      obtain ⟨_, _, h⟩ := py_bind_inv h
      split at h <;> cases h
    · rename_i hp
      rw [if_neg hp]
      cases h
      constructor
      · unfold Series.index hourlyS
        rw [List.map_map, List.map_map]
        apply List.map_congr_left
        intro k hk
        have hk := List.mem_range.1 hk
        simp only [Function.comp_def]
        rw [asof?_daily d0 _ (i := k / 24) (by omega) (by omega), hourOf_atHour _ (by omega)]
      · congr 1
        unfold Series.index hourlyS
        rw [List.map_map, List.map_map]
        apply List.map_congr_left
        intro k hk
        have hk := List.mem_range.1 hk
        simp only [Function.comp_def]
        rw [asof?_daily d0 _ (i := k / 24) (by omega) (by omega), hourOf_atHour _ (by omega)]

/-- a value of the sine methods in rounded arithmetic -/
def waveR (F : FloatMath) (m M c : ℝ) : ℝ := F.fl (F.fl (m + F.fl (F.fl (M - m) / 2)) + F.fl (F.fl (F.fl (M - m) / 2) * c))

/-- the same for an angle that may be missing -/
def waveCell (F : FloatMath) (m M : ℝ) : XF ℝ → XF ℝ
  | .fin y => .fin (waveR F m M (F.cos y))
  | _ => .nan

theorem wave_finR (F : FloatMath) (m M : ℝ) (y : XF ℝ) :
    (((((XF.fin m + (((XF.fin M - .fin m).rnd F.fl) / .fin 2).rnd F.fl)).rnd F.fl) +
      (((((XF.fin M - .fin m).rnd F.fl) / .fin 2).rnd F.fl) * F.cosCell y).rnd F.fl).rnd F.fl : XF ℝ) = waveCell F m M y := by
  rw [XF.fin_sub_fin]
  unfold XF.rnd
  simp only
  rw [XF.fin_div_fin_of_ne _ (by norm_num)]
  cases y with
  | fin y => simp [FloatMath.cosCell, waveR, waveCell]
  | _ => simp [FloatMath.cosCell, waveCell]

theorem sineCellR_cases {F : FloatMath} {modNight : Bool} {h : Int} {r : LocRow} {m M : ℝ} (hm : minValAt h r = .fin m) (hM : maxValAt h r = .fin M) :
    sineCellR F modNight h r = .nan ∨ ∃ y, sineCellR F modNight h r = .fin (waveR F m M (F.cos y)) := by
  have key : ∀ y : XF ℝ, waveCell F m M y = .nan ∨ ∃ z : ℝ, waveCell F m M y = .fin (waveR F m M (F.cos z)) := by
    intro y
    cases y with
    | fin y => exact .inr ⟨y, rfl⟩
    | _ => exact .inl rfl
  unfold sineCellR
  rw [hm, hM]
  dsimp only
  simp only [wave_finR]
  split
  · split
    · exact key _
    · split
      · exact key _
      · split
        · exact key _
        · exact .inl rfl
  · exact key (.fin _)

/-- error of a value of the sine methods -/
theorem waveR_err (R : Rounding ℝ) (cosF : ℝ → ℝ) (pi : ℝ) (m M : ℝ) {c : ℝ} (hc : |c| ≤ 1) :
    |waveR ⟨R.fl, cosF, pi⟩ m M c - (m + (M - m) / 2 + (M - m) / 2 * c)| ≤ ((1 + R.u) ^ 4 - 1) * (|m| + |M - m|) := by
  have d := (Acc.self R (M - m)).round.half.round
  have v := ((Acc.self R m).mono (Nat.zero_le 2) (le_refl _)).add d
  have w := (d.mul (Acc.exact R hc)).round
  have t := (v.round.add w).round
  have e : |m| + |M - m| / 2 + |M - m| / 2 * 1 = |m| + |M - m| := by ring
  have := t.1
  rw [e] at this
  exact this

/-- **C111 (sine, envelope).**  'sine_min_max' in floating-point arithmetic, with any `np.cos` with values between -1 and 1: every number of a day lies in the envelope of
C43 up to 4 roundings of at most three times the largest temperature M. -/
theorem C111_sine_envelope (R : Rounding ℝ) (cosF : ℝ → ℝ) (hcos : ∀ x, |cosF x| ≤ 1) (pi : ℝ) (mean : List (XF ℝ) → XF ℝ) (api : PandasApi)
    (hd : TempDays daily d0 n tmin tmax temp) (method mmt : String) (hm : IsSine method)
    (modNight : Bool) (md : Option (List (Int × XF ℝ))) (course : Option (MeanCourse ℝ)) (sun : Option (Series SunTimes)) (out : Series (XF ℝ))
    (hret : disaggregateTemperatureR ⟨R.fl, cosF, pi⟩ mean api daily method mmt modNight md course sun = .ok out) (i : Nat) (hi : i < n) (a a' b b' M : ℝ)
    (ha : tmin i = .fin a) (ha' : nextDay n tmin i = .fin a') (hb : tmax i = .fin b) (hb' : prevDay tmax i = .fin b')
    (h1 : a ≤ b) (h2 : a' ≤ b) (h3 : a ≤ b') (h4 : a' ≤ b') (hM : |a| ≤ M ∧ |a'| ≤ M ∧ |b| ≤ M ∧ |b'| ≤ M) :
    ∀ x, .fin x ∈ dayCells out (d0 + i) →
      min a a' - ((1 + R.u) ^ 4 - 1) * (3 * M) ≤ x ∧ x ≤ max b b' + ((1 + R.u) ^ 4 - 1) * (3 * M) := by
  have hm' : method = "sine_min_max" ∨ method = "sine_mean" ∨ method = "sine" := by rcases hm with h | h <;> simp [h]
  obtain ⟨_, lo, hi', _, _, _, rfl, _⟩ := sine_invR hd (by omega) hm' hret
  intro x hx
  rw [dayCells_hourlyS d0 _ hi, mem_day24] at hx
  obtain ⟨h, hh, hx⟩ := hx
  rw [if_neg (by rcases hm with rfl | rfl <;> decide)] at hx
  have e1 := minValAt_row (tmax := tmax) (temp := temp) (lo := lo) (hi := hi') (h := h) ha ha'
  have e2 := maxValAt_row (n := n) (tmin := tmin) (temp := temp) (lo := lo) (hi := hi') (h := h) hb hb'
  rcases sineCellR_cases (F := ⟨R.fl, cosF, pi⟩) (modNight := modNight) e1 e2 with e | ⟨y, e⟩
  · rw [e] at hx; cases hx
  · rw [e] at hx
    cases hx
    set m := (if (h : Int) < hi' i then a else a') with hmm
    set N := (if (h : Int) < lo i then b' else b) with hNN
    have hle : m ≤ N := by rw [hmm, hNN]; split <;> split <;> assumption
    have hm1 : |m| ≤ M := by rw [hmm]; split <;> tauto
    have hN1 : |N| ≤ M := by rw [hNN]; split <;> tauto
    have hd1 : |N - m| ≤ 2 * M := (abs_sub _ _).trans (by linarith)
    obtain ⟨c1, c2⟩ := abs_le.1 (hcos y)
    obtain ⟨k1, k2⟩ := wave_bounds hle c1 c2
    have err := waveR_err R cosF pi m N (hcos y)
    have hu : 0 ≤ (1 + R.u) ^ 4 - 1 := by linarith [one_le_hi_pow R 4]
    have err' := err.trans (mul_le_mul_of_nonneg_left (show |m| + |N - m| ≤ 3 * M by linarith) hu)
    obtain ⟨l1, l2⟩ := abs_le.1 err'
    have q1 : min a a' ≤ m := by rw [hmm]; split; exacts [min_le_left _ _, min_le_right _ _]
    have q2 : N ≤ max b b' := by rw [hNN]; split; exacts [le_max_right _ _, le_max_left _ _]
    dsimp only at l1 l2 ⊢
    constructor <;> linarith

/-- the angle of the cosine as computed -/
def angleR (F : FloatMath) (modNight : Bool) (lo hi h : Int) : ℝ :=
  if modNight then
    if hi ≤ h then F.fl (F.fl (F.pi / ((24 - (hi - lo) : Int) : ℝ)) * ((h - hi : Int) : ℝ))
    else if lo < h then F.fl (F.fl (1.25 * F.pi) + F.fl (F.fl (F.fl (0.75 * F.pi) / ((hi - lo : Int) : ℝ)) * ((h - lo : Int) : ℝ)))
    else F.fl (F.fl (F.pi / ((24 - (hi - lo) : Int) : ℝ)) * ((24 - hi + h : Int) : ℝ))
  else F.fl (F.fl (F.fl (2 * F.pi) / 24) * ((h - hi : Int) : ℝ))

theorem sineCellR_eq {F : FloatMath} {modNight : Bool} {h : Int} {r : LocRow} {m M : ℝ} (hm : minValAt h r = .fin m) (hM : maxValAt h r = .fin M)
    (hl : modNight = true → r.maxLoc - r.minLoc ≠ 24) :
    sineCellR F modNight h r = .fin (waveR F m M (F.cos (angleR F modNight r.minLoc r.maxLoc h))) := by
  unfold sineCellR angleR
  rw [hm, hM]
  dsimp only
  simp only [wave_finR]
  cases modNight with
  | false => rfl
  | true =>
    have h24 : ((24 - (r.maxLoc - r.minLoc) : Int) : ℝ) ≠ 0 := by
      have := hl rfl
      have h' : (24 - (r.maxLoc - r.minLoc) : Int) ≠ 0 := by omega
      exact_mod_cast h'
    simp only [if_true]
    by_cases h1 : r.maxLoc ≤ h
    · rw [if_pos h1, if_pos h1, XF.fin_div_fin_of_ne _ h24]
      rfl
    · rw [if_neg h1, if_neg h1]
      by_cases h2 : r.minLoc < h
      · have h' : ((r.maxLoc - r.minLoc : Int) : ℝ) ≠ 0 := by
          have : (r.maxLoc - r.minLoc : Int) ≠ 0 := by omega
          exact_mod_cast this
        rw [if_pos ⟨h2, by omega⟩, if_pos h2, XF.fin_div_fin_of_ne _ h']
        rfl
      · rw [if_neg (by tauto), if_neg h2, if_pos (by omega), XF.fin_div_fin_of_ne _ h24]
        rfl

/-- `η` bounds the error of the computed cosines of a day with the hours `lo` and `hi` of minimum and maximum, including that of the angle -/
def CosError (F : FloatMath) (modNight : Bool) (lo hi : Int) (η : ℝ) : Prop :=
  ∀ h : Nat, h < 24 → |F.cos (angleR F modNight lo hi h) - Real.cos (sinePhase modNight lo hi h)| ≤ η

theorem sine_dayR {F : FloatMath} {mean : List (XF ℝ) → XF ℝ} {api : PandasApi} (hd : TempDays daily d0 n tmin tmax temp) {method mmt : String}
    (hm : method = "sine_min_max" ∨ method = "sine_mean" ∨ method = "sine") {modNight : Bool} {md : Option (List (Int × XF ℝ))}
    {course : Option (MeanCourse ℝ)} {sun : Series SunTimes} {out : Series (XF ℝ)}
    (h : disaggregateTemperatureR F mean api daily method mmt modNight md course (some sun) = .ok out) {i : Nat} (hi : i < n) {lo hi' : Int}
    (hloc : IsLoc mmt md sun (at00 (d0 + i)) lo hi') :
    dayCells out (d0 + i) = day24 fun h => if method = "sine_mean" then sineMeanCellR F h (locRow n tmin tmax temp (fun _ => lo) (fun _ => hi') i)
        else sineCellR F modNight h (locRow n tmin tmax temp (fun _ => lo) (fun _ => hi') i) := by
  obtain ⟨locs, lo', hi'', e1, e2, e3, rfl, _⟩ := sine_invR hd (by omega) hm h
  have hil : i < locs.length := by omega
  have hl := locs_isLoc hd.index e1 hil hi (e3 i hil).1 (e3 i hil).2 (isLoc_fin hloc)
  obtain ⟨u1, u2⟩ := isLoc_unique hl hloc
  rw [dayCells_hourlyS d0 _ hi]
  unfold locRow
  rw [← u1, ← u2]

/-- **C111 (sine, error).**  On a day with its neighbours given, every hour of 'sine_min_max' in floating-point arithmetic differs from the value in exact arithmetic by at most
4 roundings of 3 M plus M times the error of the cosine. -/
theorem C111_sine_error (R : Rounding ℝ) (cosF : ℝ → ℝ) (hcos : ∀ x, |cosF x| ≤ 1) (pi : ℝ) (mean : List (XF ℝ) → XF ℝ) (api : PandasApi)
    (hd : TempDays daily d0 n tmin tmax temp) (method mmt : String) (hm : IsSine method)
    (modNight : Bool) (md : Option (List (Int × XF ℝ))) (course : Option (MeanCourse ℝ)) (sun : Series SunTimes) (out : Series (XF ℝ))
    (hret : disaggregateTemperatureR ⟨R.fl, cosF, pi⟩ mean api daily method mmt modNight md course (some sun) = .ok out) (i : Nat) (hi : i < n)
    (a a' b b' M η : ℝ) (ha : tmin i = .fin a) (ha' : nextDay n tmin i = .fin a') (hb : tmax i = .fin b) (hb' : prevDay tmax i = .fin b')
    (hM : |a| ≤ M ∧ |a'| ≤ M ∧ |b| ≤ M ∧ |b'| ≤ M) (lo peak : Int) (hloc : IsLoc mmt md sun (at00 (d0 + i)) lo peak)
    (hshort : modNight = true → peak - lo ≠ 24) (hη : CosError ⟨R.fl, cosF, pi⟩ modNight lo peak η) :
    ∃ exact, disaggregateTemperature api daily method mmt modNight md course (some sun) = .ok exact ∧ ∀ h : Nat, h < 24 → ∃ x y,
      (dayCells out (d0 + i))[h]? = some (.fin x) ∧ (dayCells exact (d0 + i))[h]? = some (.fin y) ∧ |x - y| ≤ ((1 + R.u) ^ 4 - 1) * (3 * M) + M * η := by
  have hm' : method = "sine_min_max" ∨ method = "sine_mean" ∨ method = "sine" := by rcases hm with h | h <;> simp [h]
  have hne : ¬ method = "sine_mean" := by rcases hm with rfl | rfl <;> decide
  obtain ⟨_, _, _, _, _, _, _, hex⟩ := sine_invR hd (by omega) hm' hret
  refine ⟨_, hex, ?_⟩
  intro h hh
  have e1 := minValAt_row (n := n) (tmax := tmax) (temp := temp) (lo := fun _ => lo) (hi := fun _ => peak) (h := h) ha ha'
  have e2 := maxValAt_row (n := n) (tmin := tmin) (temp := temp) (lo := fun _ => lo) (hi := fun _ => peak) (h := h) hb hb'
  set m := (if (h : Int) < peak then a else a') with hmm
  set N := (if (h : Int) < lo then b' else b) with hNN
  have hm1 : |m| ≤ M := by rw [hmm]; split <;> tauto
  have hN1 : |N| ≤ M := by rw [hNN]; split <;> tauto
  have hd1 : |N - m| ≤ 2 * M := (abs_sub _ _).trans (by linarith)
  refine ⟨waveR ⟨R.fl, cosF, pi⟩ m N (cosF (angleR ⟨R.fl, cosF, pi⟩ modNight lo peak h)), m + (N - m) / 2 + (N - m) / 2 * Real.cos (sinePhase modNight lo peak h), ?_, ?_, ?_⟩
  · rw [sine_dayR hd hm' hret hi hloc, day24_getElem? _ hh, if_neg hne, sineCellR_eq e1 e2 hshort]
    rfl
  · rw [sine_day hd hm' hex hi hloc, day24_getElem? _ hh, if_neg hne, sineCell_eq e1 e2 hshort]
    rfl
  · have err := waveR_err R cosF pi m N (hcos (angleR ⟨R.fl, cosF, pi⟩ modNight lo peak h))
    have hu : 0 ≤ (1 + R.u) ^ 4 - 1 := by linarith [one_le_hi_pow R 4]
    have err' := err.trans (mul_le_mul_of_nonneg_left (show |m| + |N - m| ≤ 3 * M by linarith) hu)
    have c := hη h hh
    dsimp only at c
    have hη0 : 0 ≤ η := (abs_nonneg _).trans c
    have e2 : |(N - m) / 2 * (cosF (angleR ⟨R.fl, cosF, pi⟩ modNight lo peak h) - Real.cos (sinePhase modNight lo peak h))| ≤ M * η := by
      rw [abs_mul, abs_div, abs_of_pos (by norm_num : (0 : ℝ) < 2)]
      exact mul_le_mul (by linarith) c (abs_nonneg _) (by linarith [abs_nonneg m])
    have := abs_add_le (waveR ⟨R.fl, cosF, pi⟩ m N (cosF (angleR ⟨R.fl, cosF, pi⟩ modNight lo peak h)) -
      (m + (N - m) / 2 + (N - m) / 2 * cosF (angleR ⟨R.fl, cosF, pi⟩ modNight lo peak h)))
      ((N - m) / 2 * (cosF (angleR ⟨R.fl, cosF, pi⟩ modNight lo peak h) - Real.cos (sinePhase modNight lo peak h)))
    rw [show ∀ w c c' : ℝ, w - (m + (N - m) / 2 + (N - m) / 2 * c) + (N - m) / 2 * (c - c') = w - (m + (N - m) / 2 + (N - m) / 2 * c') by
      intro w c c'; ring] at this
    linarith

/-- sum of the 24 cosines with their errors -/
theorem cos_sum_err {c : Nat → ℝ} {t η : ℝ} (h : ∀ k < 24, |c k - Real.cos (Real.pi * ((k : ℝ) - t) / 12)| ≤ η) : |(day24 c).sum| ≤ 24 * η := by
  have key : ∀ m ≤ 24, |((List.range m).map c).sum - ((List.range m).map fun k : Nat => Real.cos (Real.pi * ((k : ℝ) - t) / 12)).sum| ≤ m * η := by
    intro m
    induction m with
    | zero => intro _; simp
    | succ m ih =>
      intro hm
      rw [List.range_succ (n := m)]
      simp only [List.map_append, List.map_cons, List.map_nil, List.sum_append, List.sum_cons, List.sum_nil, add_zero]
      have a := ih (by omega)
      have b := h m (by omega)
      push_cast
      have := abs_add_le (((List.range m).map c).sum - ((List.range m).map fun k : Nat => Real.cos (Real.pi * ((k : ℝ) - t) / 12)).sum)
        (c m - Real.cos (Real.pi * ((m : ℝ) - t) / 12))
      rw [show ∀ x y z w : ℝ, x - y + (z - w) = x + z - (y + w) by intros; ring] at this
      linarith
  have := key 24 (le_refl _)
  have e := cos_day_sum t
  unfold day24 at e ⊢
  rw [e, sub_zero] at this
  exact_mod_cast this

/-- **C111 (sine_mean).**  The mean of a day is the daily mean t up to 4 roundings of |t| + |tmax - tmin|/2 plus the error of the cosine times half the range. -/
theorem C111_sine_mean (R : Rounding ℝ) (cosF : ℝ → ℝ) (hcos : ∀ x, |cosF x| ≤ 1) (pi : ℝ) (mean : List (XF ℝ) → XF ℝ) (api : PandasApi)
    (hd : TempDays daily d0 n tmin tmax temp) (mmt : String) (modNight : Bool) (md : Option (List (Int × XF ℝ))) (course : Option (MeanCourse ℝ))
    (sun : Series SunTimes) (out : Series (XF ℝ))
    (hret : disaggregateTemperatureR ⟨R.fl, cosF, pi⟩ mean api daily "sine_mean" mmt modNight md course (some sun) = .ok out) (i : Nat) (hi : i < n) (a b t η : ℝ)
    (ha : tmin i = .fin a) (hb : tmax i = .fin b) (ht : temp i = .fin t) (lo peak : Int) (hloc : IsLoc mmt md sun (at00 (d0 + i)) lo peak)
    (hη : CosError ⟨R.fl, cosF, pi⟩ false lo peak η) :
    ∃ x, MeanIs (dayCells out (d0 + i)) x ∧ |x - t| ≤ ((1 + R.u) ^ 4 - 1) * (|t| + |b - a| / 2) + |b - a| / 2 * η := by
  set c : Nat → ℝ := fun h => cosF (angleR ⟨R.fl, cosF, pi⟩ false lo peak h) with hc
  have e : dayCells out (d0 + i) = (day24 fun h => R.fl (t + R.fl (R.fl (R.fl (b - a) / 2) * c h))).map XF.fin := by
    rw [sine_dayR hd (.inr (.inl rfl)) hret hi hloc, day24_map]
    apply day24_congr
    intro h _
    rw [if_pos rfl]
    unfold sineMeanCellR locRow
    dsimp only
    rw [ha, hb, ht, XF.fin_sub_fin]
    unfold XF.rnd
    simp only
    rw [XF.fin_div_fin_of_ne _ (by norm_num)]
    simp only [FloatMath.cosCell, hc, angleR, XF.fin_mul_fin, XF.fin_add_fin, Bool.false_eq_true, if_false]
  refine ⟨(day24 fun h => R.fl (t + R.fl (R.fl (R.fl (b - a) / 2) * c h))).sum / 24, ⟨_, e, by simp [day24], by rw [day24_length]; norm_num⟩, ?_⟩
  have acc : ∀ h < 24, Acc R 4 (R.fl (t + R.fl (R.fl (R.fl (b - a) / 2) * c h))) (t + (b - a) / 2 * c h) (|t| + |b - a| / 2 * 1) := by
    intro h _
    have d := (Acc.self R (b - a)).round.half.round
    have w := (d.mul (Acc.exact R (hcos (angleR ⟨R.fl, cosF, pi⟩ false lo peak h)))).round
    exact (((Acc.self R t).mono (Nat.zero_le 3) (le_refl _)).add w).round
  have s := (Acc.sum24 acc).1
  rw [sum_day24_const, sum_day24_add, sum_day24_const, sum_day24_mul] at s
  have hs := cos_sum_err (c := c) (t := (peak : ℝ)) (η := η) (fun k hk => by
    have := hη k hk
    unfold sinePhase at this
    simp only [Bool.false_eq_true, if_false] at this
    rw [show Real.pi * ((k : ℝ) - peak) / 12 = 2 * Real.pi / 24 * (((k : Int) - peak : Int) : ℝ) by push_cast; ring]
    exact this)
  have hs2 : |(b - a) / 2 * (day24 c).sum| ≤ |b - a| / 2 * (24 * η) := by
    rw [abs_mul, abs_div, abs_of_pos (by norm_num : (0 : ℝ) < 2)]
    exact mul_le_mul_of_nonneg_left hs (by positivity)
  set S := (day24 fun h => R.fl (t + R.fl (R.fl (R.fl (b - a) / 2) * c h))).sum
  have h3 := abs_add_le (S - (24 * t + (b - a) / 2 * (day24 c).sum)) ((b - a) / 2 * (day24 c).sum)
  rw [show S - (24 * t + (b - a) / 2 * (day24 c).sum) + (b - a) / 2 * (day24 c).sum = S - 24 * t by ring] at h3
  rw [show S / 24 - t = (S - 24 * t) / 24 by ring, abs_div, abs_of_pos (by norm_num : (0 : ℝ) < 24), div_le_iff₀ (by norm_num)]
  linarith

/-- what 'mean_course_min_max' writes -/
theorem courseMinMaxR_run (R : Rounding ℝ) (cosF : ℝ → ℝ) (pi : ℝ) (mean : List (XF ℝ) → XF ℝ) (api : PandasApi)
    (hi : daily.index = (List.range n).map fun i : Nat => at00 (d0 + i)) (hn : 0 < n)
    (hmin : daily.col? "tmin" = some (dailyS d0 n tmin)) (hmax : daily.col? "tmax" = some (dailyS d0 n tmax)) (mmt : String) (modNight : Bool)
    (md : Option (List (Int × XF ℝ))) (sun : Option (Series SunTimes)) (c : MeanCourse ℝ) (hc : Covers c d0 n) :
    disaggregateTemperatureR ⟨R.fl, cosF, pi⟩ mean api daily "mean_course_min_max" mmt modNight md (some c) sun =
      .ok (hourlyS d0 n fun i h => ((c.val (monthOf (at00 (d0 + (i : Nat)))) (h : Nat) * (tmax i - tmin i).rnd R.fl).rnd R.fl + tmin i).rnd R.fl) := by
  unfold disaggregateTemperatureR
  rw [if_neg (by simp), temp_hourly_index api hi hn, py_ok_bind, if_neg (by decide), if_pos rfl]
  unfold courseMinMaxR
  dsimp only
  rw [mapM_lookup_ok hc.months hc.hours, py_ok_bind, attr_ok hmin, py_ok_bind, reindexFfill_limit_daily_hourly, py_ok_bind, attr_ok hmax, py_ok_bind,
    reindexFfill_limit_daily_hourly, py_ok_bind]
  congr 1
  rw [hourlyS_values, hourlyS_values, List.zip_eq_zipWith, List.zip_eq_zipWith, List.zip_eq_zipWith, List.zipWith_map, List.zipWith_self,
    List.zipWith_map, List.zipWith_self, hourlyS_index_atHour, List.zipWith_map, List.zipWith_self, List.map_map]
  rfl

/-- **C111 (mean_course_min_max).**  With a normalised course the smallest value of a day is exactly tmin (a floating-point number), the largest is tmax up to 2 roundings. -/
theorem C111_course_min_max (R : Rounding ℝ) (cosF : ℝ → ℝ) (pi : ℝ) (mean : List (XF ℝ) → XF ℝ) (api : PandasApi)
    (hi : daily.index = (List.range n).map fun i : Nat => at00 (d0 + i)) (hn : 0 < n)
    (hmin : daily.col? "tmin" = some (dailyS d0 n tmin)) (hmax : daily.col? "tmax" = some (dailyS d0 n tmax)) (mmt : String) (modNight : Bool)
    (md : Option (List (Int × XF ℝ))) (sun : Option (Series SunTimes)) (c : MeanCourse ℝ) (hc : Covers c d0 n) :
    ∃ out, disaggregateTemperatureR ⟨R.fl, cosF, pi⟩ mean api daily "mean_course_min_max" mmt modNight md (some c) sun = .ok out ∧
      ∀ i < n, ∀ a b : ℝ, tmin i = .fin a → tmax i = .fin b → R.fl a = a → a ≤ b → Normalized c (monthOf (at00 (d0 + i))) →
        MinIs (dayCells out (d0 + i)) a ∧ ∃ x, MaxIs (dayCells out (d0 + i)) x ∧ |x - b| ≤ R.u * ((1 + R.u) * (b - a) + |b|) := by
  have key := courseMinMaxR_run R cosF pi mean api hi hn hmin hmax mmt modNight md sun c hc
  refine ⟨_, key, ?_⟩
  intro i hin a b ha hb hfl hab hnorm
  obtain ⟨f, f1, f2, ⟨k0, hk0, e0⟩, k1, hk1, e1⟩ := normalized_fun hnorm
  rw [dayCells_hourlyS d0 _ hin]
  have e : (day24 fun h : Nat => ((c.val (monthOf (at00 (d0 + (i : Nat)))) (h : Nat) * (tmax i - tmin i).rnd R.fl).rnd R.fl + tmin i).rnd R.fl) =
      (day24 fun h : Nat => R.fl (R.fl (f h * R.fl (b - a)) + a)).map XF.fin := by
    rw [day24_map]
    apply day24_congr
    intro h hh
    rw [f1 h hh, ha, hb, XF.fin_sub_fin]
    rfl
  rw [e]
  have hd0 : 0 ≤ R.fl (b - a) := R.fl_nonneg (by linarith)
  refine ⟨⟨_, rfl, mem_day24.2 ⟨k0, hk0, by rw [e0, zero_mul, R.fl_zero, zero_add, hfl]⟩, ?_⟩, R.fl (R.fl (b - a) + a),
    ⟨_, rfl, mem_day24.2 ⟨k1, hk1, by rw [e1, one_mul, R.idem]⟩, ?_⟩, ?_⟩
  · intro y hy
    obtain ⟨h, hh, rfl⟩ := mem_day24.1 hy
    have h0 := R.fl_nonneg (mul_nonneg (f2 h hh).1 hd0)
    have := R.mono a (R.fl (f h * R.fl (b - a)) + a) (by linarith)
    rwa [hfl] at this
  · intro y hy
    obtain ⟨h, hh, rfl⟩ := mem_day24.1 hy
    apply R.mono
    have := R.mono (f h * R.fl (b - a)) (R.fl (b - a)) (mul_le_of_le_one_left hd0 (f2 h hh).2)
    rw [R.idem] at this
    linarith
  · have h1 := R.err (b - a)
    rw [abs_of_nonneg (by linarith : 0 ≤ b - a)] at h1
    have h2 := R.err (R.fl (b - a) + a)
    have h3 : |R.fl (b - a) + a| ≤ |b| + R.u * (b - a) := by
      have := abs_add_le (R.fl (b - a) - (b - a)) b
      rw [show R.fl (b - a) - (b - a) + b = R.fl (b - a) + a by ring] at this
      linarith
    have h4 := mul_le_mul_of_nonneg_left h3 R.u_nonneg
    have h5 := abs_add_le (R.fl (R.fl (b - a) + a) - (R.fl (b - a) + a)) (R.fl (b - a) - (b - a))
    rw [show R.fl (R.fl (b - a) + a) - (R.fl (b - a) + a) + (R.fl (b - a) - (b - a)) = R.fl (R.fl (b - a) + a) - b by ring] at h5
    nlinarith

/-- what 'mean_course_mean' writes -/
theorem courseMeanR_run (R : Rounding ℝ) (cosF : ℝ → ℝ) (pi : ℝ) (mean : List (XF ℝ) → XF ℝ) (api : PandasApi) (hd : TempDays daily d0 n tmin tmax temp)
    (hn : 0 < n) (mmt : String) (modNight : Bool) (md : Option (List (Int × XF ℝ))) (sun : Option (Series SunTimes)) (c : MeanCourse ℝ) (hc : Covers c d0 n) :
    disaggregateTemperatureR ⟨R.fl, cosF, pi⟩ mean api daily "mean_course_mean" mmt modNight md (some c) sun =
      .ok (hourlyS d0 n fun i h => (temp i + ((tmax i - tmin i).rnd R.fl *
        (c.val (monthOf (at00 (d0 + (i : Nat)))) (h : Nat) - mean (c.column (monthOf (at00 (d0 + (i : Nat)))))).rnd R.fl).rnd R.fl).rnd R.fl) := by
  unfold disaggregateTemperatureR
  rw [if_neg (by simp), temp_hourly_index api hd.index hn, py_ok_bind, if_neg (by decide), if_neg (by decide)]
  unfold courseMeanR
  rw [attr_ok hd.hmax, py_ok_bind, reindexFfill_limit_daily_hourly, py_ok_bind, attr_ok hd.hmin, py_ok_bind,
    reindexFfill_limit_daily_hourly, py_ok_bind]
  dsimp only
  rw [mapM_lookup_ok (c := c.zeroMeanR ⟨R.fl, cosF, pi⟩ mean) hc.months hc.hours, py_ok_bind, attr_ok hd.htemp, py_ok_bind, reindexFfill_limit_daily_hourly,
    py_ok_bind]
  congr 1
  rw [hourlyS_values, hourlyS_values, hourlyS_values, List.zip_eq_zipWith, List.zip_eq_zipWith, List.zip_eq_zipWith, List.zip_eq_zipWith,
    List.zipWith_map, List.zipWith_self, List.zipWith_map, List.zipWith_self, List.zipWith_map, List.zipWith_self,
    hourlyS_index_atHour, List.zipWith_map, List.zipWith_self, List.map_map]
  rfl

/-- **C111 (mean_course_mean).**  With a course of numbers between -1 and 1 whose mean is computed up to an error δ, the mean of a day is the daily mean up to 4
roundings of |t| + (2 + δ)·|tmax - tmin| plus δ times the range. -/
theorem C111_course_mean (R : Rounding ℝ) (cosF : ℝ → ℝ) (pi : ℝ) (mean : List (XF ℝ) → XF ℝ) (api : PandasApi) (hd : TempDays daily d0 n tmin tmax temp)
    (hn : 0 < n) (mmt : String) (modNight : Bool) (md : Option (List (Int × XF ℝ))) (sun : Option (Series SunTimes)) (c : MeanCourse ℝ) (hc : Covers c d0 n) :
    ∃ out, disaggregateTemperatureR ⟨R.fl, cosF, pi⟩ mean api daily "mean_course_mean" mmt modNight md (some c) sun = .ok out ∧
      ∀ i < n, ∀ (a b t μ δ : ℝ) (f : Nat → ℝ), tmin i = .fin a → tmax i = .fin b → temp i = .fin t →
        (∀ h : Nat, h < 24 → c.val (monthOf (at00 (d0 + i))) h = .fin (f h) ∧ |f h| ≤ 1) →
        mean (c.column (monthOf (at00 (d0 + i)))) = .fin μ → |μ - (day24 f).sum / 24| ≤ δ →
        ∃ x, MeanIs (dayCells out (d0 + i)) x ∧ |x - t| ≤ ((1 + R.u) ^ 4 - 1) * (|t| + |b - a| * (2 + δ)) + |b - a| * δ := by
  have key := courseMeanR_run R cosF pi mean api hd hn mmt modNight md sun c hc
  refine ⟨_, key, ?_⟩
  intro i hin a b t μ δ f ha hb ht hf hμ hδ
  rw [dayCells_hourlyS d0 _ hin]
  have e : (day24 fun h : Nat => (temp i + ((tmax i - tmin i).rnd R.fl *
        (c.val (monthOf (at00 (d0 + (i : Nat)))) (h : Nat) - mean (c.column (monthOf (at00 (d0 + (i : Nat)))))).rnd R.fl).rnd R.fl).rnd R.fl) =
      (day24 fun h : Nat => R.fl (t + R.fl (R.fl (b - a) * R.fl (f h - μ)))).map XF.fin := by
    rw [day24_map]
    apply day24_congr
    intro h hh
    rw [(hf h hh).1, ha, hb, ht, hμ, XF.fin_sub_fin, XF.fin_sub_fin]
    rfl
  rw [e]
  have hsum : |(day24 f).sum / 24| ≤ 1 := by
    have := (Acc.sum24 (R := R) (k := 0) (x := f) (y := f) (B := fun _ => 1) fun h hh => Acc.exact R (hf h hh).2).2
    rw [sum_day24_const] at this
    rw [abs_div, abs_of_pos (by norm_num : (0 : ℝ) < 24), div_le_one (by norm_num)]
    linarith
  have hμ1 : |μ| ≤ 1 + δ := by
    have := abs_add_le (μ - (day24 f).sum / 24) ((day24 f).sum / 24)
    rw [sub_add_cancel] at this
    linarith
  refine ⟨_, ⟨_, rfl, by simp [day24], rfl⟩, ?_⟩
  rw [day24_length]
  have acc : ∀ h < 24, Acc R 4 (R.fl (t + R.fl (R.fl (b - a) * R.fl (f h - μ)))) (t + (b - a) * (f h - μ)) (|t| + |b - a| * (2 + δ)) := by
    intro h hh
    have d := (Acc.self R (b - a)).round
    have g := (Acc.exact R (x := f h - μ) (B := 2 + δ) ((abs_sub _ _).trans (by linarith [(hf h hh).2]))).round
    exact (((Acc.self R t).mono (Nat.zero_le 3) (le_refl _)).add (d.mul g).round).round
  have s := (Acc.sum24 acc).1
  rw [sum_day24_const, sum_day24_add, sum_day24_const, sum_day24_mul] at s
  have hg : (day24 fun h => f h - μ).sum = (day24 f).sum - 24 * μ := by
    have := sum_day24_add f (fun _ => -μ)
    rw [sum_day24_const] at this
    simp only [← sub_eq_add_neg] at this
    rw [this]; ring
  rw [hg] at s
  set S := (day24 fun h => R.fl (t + R.fl (R.fl (b - a) * R.fl (f h - μ)))).sum
  have h2 : |(b - a) * ((day24 f).sum - 24 * μ)| ≤ |b - a| * (24 * δ) := by
    rw [abs_mul]
    refine mul_le_mul_of_nonneg_left ?_ (abs_nonneg _)
    rw [show (day24 f).sum - 24 * μ = 24 * -(μ - (day24 f).sum / 24) by ring, abs_mul, abs_neg, abs_of_pos (by norm_num : (0 : ℝ) < 24)]
    linarith
  have h3 := abs_add_le (S - (24 * t + (b - a) * ((day24 f).sum - 24 * μ))) ((b - a) * ((day24 f).sum - 24 * μ))
  rw [show ∀ q : ℝ, S - (24 * t + q) + q = S - 24 * t by intro q; ring] at h3
  push_cast
  rw [show S / 24 - t = (S - 24 * t) / 24 by ring, abs_div, abs_of_pos (by norm_num : (0 : ℝ) < 24), div_le_iff₀ (by norm_num)]
  linarith

/-! ## wind -/

/-- the error of the computed cosines of `disaggregate_wind` -/
def WindCosError (F : FloatMath) (tShift η : ℝ) : Prop :=
  ∀ h : Nat, h < 24 → |F.cos (F.fl (F.fl (F.pi * F.fl ((h : ℝ) - tShift)) / 12)) - Real.cos (Real.pi * ((h : ℝ) - tShift) / 12)| ≤ η

/-- **C111 (wind).**  'equal' copies.  'cosine': the mean of a day with daily mean m is b·m up to 3 roundings of (|a| + |b|)·|m| plus the error of the cosine times |a·m|.  With a
symmetric rounding, |a| ≤ b and m ≥ 0 no value is negative. -/
theorem C111_wind (R : Rounding ℝ) (cosF : ℝ → ℝ) (hcos : ∀ x, |cosF x| ≤ 1) (pi : ℝ) (api : PandasApi) (d0 : Int) (n : Nat) (hn : 0 < n) (v : Nat → XF ℝ)
    (a b tShift : ℝ) :
    (∃ l, disaggregateWindR ⟨R.fl, cosF, pi⟩ api (dailyS d0 n v) "equal" a b tShift = .ok l ∧ ∀ i < n, arrayDay l i = day24 fun _ => v i) ∧
    ∃ l, disaggregateWindR ⟨R.fl, cosF, pi⟩ api (dailyS d0 n v) "cosine" a b tShift = .ok l ∧ l.length = 24 * n ∧
      ∀ i < n, (v i = .nan → AllNan (arrayDay l i)) ∧ ∀ m, v i = .fin m →
        (∀ η, WindCosError ⟨R.fl, cosF, pi⟩ tShift η → ∃ x, MeanIs (arrayDay l i) x ∧
          |x - b * m| ≤ ((1 + R.u) ^ 3 - 1) * (|a * m| + |b * m|) + |a * m| * η) ∧
        ((∀ x, R.fl (-x) = -R.fl x) → |a| ≤ b → 0 ≤ m → ∀ c ∈ arrayDay l i, ∃ y, c = .fin y ∧ 0 ≤ y) := by
  have hw := distributeEqually_daily api d0 hn v
  constructor
  · refine ⟨Series.values (hourlyS d0 n fun i _ => v i), ?_, ?_⟩
    · unfold disaggregateWindR
      rw [hw, py_ok_bind, if_pos rfl]
    · intro i hi
      unfold arrayDay
      rw [values_day d0 _ hi]
  · have key : disaggregateWindR ⟨R.fl, cosF, pi⟩ api (dailyS d0 n v) "cosine" a b tShift =
        .ok (Series.values (hourlyS d0 n fun i h => cosineCellR ⟨R.fl, cosF, pi⟩ a b tShift (v i) (h : Int))) := by
      unfold disaggregateWindR
      rw [hw, py_ok_bind, if_neg (by decide)]
      congr 1
      unfold hourlyS Series.values
      rw [List.map_map, List.map_map]
      apply List.map_congr_left
      intro k _
      simp only [Function.comp_def]
      rw [hourOf_atHour _ (Nat.mod_lt _ (by omega))]
    refine ⟨_, key, by simp [Series.values], ?_⟩
    intro i hi
    unfold arrayDay
    rw [values_day d0 _ hi]
    constructor
    · intro hv c hc
      obtain ⟨h, _, rfl⟩ := mem_day24.1 hc
      rw [hv]
      unfold cosineCellR
      simp [XF.rnd]
    intro m hm
    set c : Nat → ℝ := fun h => cosF (R.fl (R.fl (pi * R.fl ((h : ℝ) - tShift)) / 12)) with hc
    have cell : ∀ h : Nat, cosineCellR ⟨R.fl, cosF, pi⟩ a b tShift (v i) (h : Int) = .fin (R.fl (R.fl (R.fl (a * m) * c h) + R.fl (b * m))) := by
      intro h
      rw [hm]
      unfold cosineCellR
      simp only [XF.fin_mul_fin, XF.rnd, FloatMath.cosCell, XF.fin_add_fin, hc, Int.cast_natCast]
    constructor
    · intro η hη
      refine ⟨(day24 fun h => R.fl (R.fl (R.fl (a * m) * c h) + R.fl (b * m))).sum / 24,
        ⟨day24 fun h => R.fl (R.fl (R.fl (a * m) * c h) + R.fl (b * m)), ?_, ?_, by rw [day24_length]; norm_num⟩, ?_⟩
      · rw [day24_map]
        exact day24_congr fun h _ => cell h
      · simp [day24]
      · have acc : ∀ h < 24, Acc R 3 (R.fl (R.fl (R.fl (a * m) * c h) + R.fl (b * m))) (a * m * c h + b * m) (|a * m| * 1 + |b * m|) := by
          intro h _
          exact (((Acc.self R (a * m)).round.mul (Acc.exact R (hcos _))).round.add ((Acc.self R (b * m)).round.mono (by omega) (le_refl _))).round
        have s := (Acc.sum24 acc).1
        rw [sum_day24_const, sum_day24_add, sum_day24_const, sum_day24_mul] at s
        have hs := cos_sum_err (c := c) (t := tShift) (η := η) hη
        have hs2 : |a * m * (day24 c).sum| ≤ |a * m| * (24 * η) := by
          rw [abs_mul]
          exact mul_le_mul_of_nonneg_left hs (abs_nonneg _)
        set S := (day24 fun h => R.fl (R.fl (R.fl (a * m) * c h) + R.fl (b * m))).sum
        have h3 := abs_add_le (S - (a * m * (day24 c).sum + 24 * (b * m))) (a * m * (day24 c).sum)
        rw [show ∀ q : ℝ, S - (q + 24 * (b * m)) + q = S - 24 * (b * m) by intro q; ring] at h3
        rw [show S / 24 - b * m = (S - 24 * (b * m)) / 24 by ring, abs_div, abs_of_pos (by norm_num : (0 : ℝ) < 24), div_le_iff₀ (by norm_num)]
        linarith
    · intro hodd hab h0 x hx
      obtain ⟨h, _, rfl⟩ := mem_day24.1 hx
      refine ⟨_, cell h, R.fl_nonneg ?_⟩
      have h1 : |R.fl (a * m)| ≤ R.fl (b * m) := by
        obtain ⟨q1, q2⟩ := abs_le.1 hab
        rw [abs_le]
        constructor
        · rw [← hodd]
          exact R.mono _ _ (by nlinarith)
        · exact R.mono _ _ (by nlinarith)
      have h2 : -R.fl (b * m) ≤ R.fl (R.fl (a * m) * c h) := by
        have : -R.fl (b * m) ≤ R.fl (a * m) * c h := by
          have := abs_le.1 (show |R.fl (a * m) * c h| ≤ R.fl (b * m) by
            rw [abs_mul]
            exact (mul_le_of_le_one_right (abs_nonneg _) (hcos _)).trans h1)
          exact this.1
        have := R.mono _ _ this
        rwa [hodd, R.idem] at this
      linarith

end

end Melodist
