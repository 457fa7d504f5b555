import Verif.Spec.Locality
import Verif.Lemmas.TemperatureCourse
import Verif.Lemmas.Frame

/-!
# Lemmas for C100
-/

set_option linter.unusedSectionVars false

namespace Melodist
open Spec

section
variable {K : Type}

theorem covers_col {f : Frame K} (hw : f.WF) {d0 : Int} {n : Nat} (hc : Covers f.index d0 n) {name : String} {s : Series (XF K)}
    (h : f.col? name = some s) : ∃ v, s = dailyS d0 n v := by
  unfold Frame.col? at h
  cases hf : f.cols.find? (fun c => c.1 == name) with
  | none => rw [hf] at h; cases h
  | some c =>
    rw [hf] at h
    cases h
    refine dailyS_eq_of_index (f := fun _ => ()) ?_
    rw [index_zip (hw c (List.mem_of_find?_eq_some hf)).symm, dailyS_index]
    exact hc

theorem covers_col? {f : Frame K} (hw : f.WF) {d0 : Int} {n : Nat} (hc : Covers f.index d0 n) (name : String) :
    f.col? name = none ∨ ∃ v, f.col? name = some (dailyS d0 n v) := by
  cases h : f.col? name with
  | none => exact .inl rfl
  | some s => obtain ⟨v, rfl⟩ := covers_col hw hc h; exact .inr ⟨v, rfl⟩

theorem cellOn_daily {f : Frame K} {d0 : Int} {n : Nat} {name : String} {v : Nat → XF K} (h : f.col? name = some (dailyS d0 n v)) {i : Nat} (hi : i < n) :
    cellOn f name (d0 + i) = some (v i) := by
  unfold cellOn
  rw [h]
  exact dailyS_at? d0 v hi

theorem cellOn_out {f : Frame K} {d0 : Int} {n : Nat} {name : String} {v : Nat → XF K} (h : f.col? name = some (dailyS d0 n v)) {D : Int}
    (hD : ¬ InPeriod d0 n D) : cellOn f name D = none := by
  unfold cellOn
  rw [h]
  refine dailyS_at?_none d0 v _ fun i hi e => hD ?_
  unfold at00 at e
  unfold InPeriod
  omega

theorem inPeriod_iff {d0 : Int} {n : Nat} {D : Int} : InPeriod d0 n D ↔ ∃ i < n, D = d0 + (i : Nat) := by
  unfold InPeriod
  constructor
  · intro h; exact ⟨(D - d0).toNat, by omega, by omega⟩
  · rintro ⟨i, hi, rfl⟩; omega

/-- values of two columns on a common day -/
theorem same_cell {f g : Frame K} {d0 d0' : Int} {n n' : Nat} {name : String} {v v' : Nat → XF K} (h : f.col? name = some (dailyS d0 n v))
    (h' : g.col? name = some (dailyS d0' n' v')) {i i' : Nat} (hi : i < n) (hi' : i' < n') (e : d0 + (i : Int) = d0' + (i' : Int))
    (hs : cellOn f name (d0 + i) = cellOn g name (d0 + i)) : v i = v' i' := by
  rw [cellOn_daily h hi, e, cellOn_daily h' hi'] at hs
  exact Option.some.inj hs

/-- the neighbouring day -/
theorem same_next {f g : Frame K} {d0 d0' : Int} {n n' : Nat} {name : String} {v v' : Nat → XF K} (h : f.col? name = some (dailyS d0 n v))
    (h' : g.col? name = some (dailyS d0' n' v')) {i i' : Nat} (hi : i < n) (hi' : i' < n') (e : d0 + (i : Int) = d0' + (i' : Int))
    (hs : cellOn f name (d0 + i) = cellOn g name (d0 + i)) (hs1 : cellOn f name (d0 + i + 1) = cellOn g name (d0 + i + 1)) :
    (i + 1 < n ↔ i' + 1 < n') ∧ nextDay n v i = nextDay n' v' i' := by
  unfold nextDay
  by_cases h1 : i + 1 < n <;> by_cases h2 : i' + 1 < n'
  · rw [if_pos h1, if_pos h2]
    refine ⟨by simp [h1, h2], same_cell h h' h1 h2 (by push_cast; omega) ?_⟩
    rw [show d0 + ((i + 1 : Nat) : Int) = d0 + i + 1 by push_cast; omega]
    exact hs1
  · exfalso
    have a := cellOn_daily h h1
    rw [show d0 + ((i + 1 : Nat) : Int) = d0 + i + 1 by push_cast; omega, hs1, cellOn_out h' (by unfold InPeriod; omega)] at a
    cases a
  · exfalso
    have a := cellOn_daily h' h2
    rw [show d0' + ((i' + 1 : Nat) : Int) = d0 + i + 1 by push_cast; omega, ← hs1, cellOn_out h (by unfold InPeriod; omega)] at a
    cases a
  · rw [if_neg h1, if_neg h2]
    exact ⟨by simp [h1, h2], same_cell h h' hi hi' e hs⟩

theorem same_prev {f g : Frame K} {d0 d0' : Int} {n n' : Nat} {name : String} {v v' : Nat → XF K} (h : f.col? name = some (dailyS d0 n v))
    (h' : g.col? name = some (dailyS d0' n' v')) {i i' : Nat} (hi : i < n) (hi' : i' < n') (e : d0 + (i : Int) = d0' + (i' : Int))
    (hs : cellOn f name (d0 + i) = cellOn g name (d0 + i)) (hs1 : cellOn f name (d0 + i - 1) = cellOn g name (d0 + i - 1)) :
    prevDay v i = prevDay v' i' := by
  unfold prevDay
  by_cases h1 : i = 0 <;> by_cases h2 : i' = 0
  · rw [if_pos h1, if_pos h2]
    exact same_cell h h' hi hi' e hs
  · exfalso
    have a := cellOn_daily h' (show i' - 1 < n' by omega)
    rw [show d0' + ((i' - 1 : Nat) : Int) = d0 + i - 1 by omega, ← hs1, cellOn_out h (by unfold InPeriod; omega)] at a
    cases a
  · exfalso
    have a := cellOn_daily h (show i - 1 < n by omega)
    rw [show d0 + ((i - 1 : Nat) : Int) = d0 + i - 1 by omega, hs1, cellOn_out h' (by unfold InPeriod; omega)] at a
    cases a
  · rw [if_neg h1, if_neg h2]
    refine same_cell h h' (by omega) (by omega) (by omega) ?_
    rw [show d0 + ((i - 1 : Nat) : Int) = d0 + i - 1 by omega]
    exact hs1

/-- two complete hourly series with the same values on a common day -/
theorem same_hours {V : Type} {d0 d0' : Int} {n n' : Nat} {f f' : Nat → Nat → V} {i i' : Nat} (hi : i < n) (hi' : i' < n') (e : d0 + (i : Int) = d0' + (i' : Int)) :
    dayCells (hourlyS d0 n f) (d0 + i) = dayCells (hourlyS d0' n' f') (d0 + i) ↔ ∀ h < 24, f i h = f' i' h := by
  rw [dayCells_hourlyS d0 _ hi, e, dayCells_hourlyS d0' _ hi']
  unfold day24
  rw [List.map_inj_left]
  simp

end

noncomputable section

/-- the pair of hours before `astype(int)` for one day -/
def locCell (mmt : String) (md : Option (List (Int × XF ℝ))) (s : Option SunTimes) (t : Time) : XF ℝ × XF ℝ :=
  if mmt = "fix" then (.fin 7, .fin 14)
  else if mmt = "sun_loc" then
    match s with
    | some s => (XF.round s.sunrise, XF.round s.sunnoon + .fin 2)
    | none => (.nan, .nan)
  else if mmt = "sun_loc_shift" then
    match s, md with
    | some s, some md =>
      match md.find? (fun r => r.1 == monthOf t) with
      | some d => (XF.round s.sunrise, if XF.lt (XF.round (s.sunnoon + d.2)) (XF.round s.sunrise) then XF.round s.sunnoon + .fin 2 else XF.round (s.sunnoon + d.2))
      | none => (.nan, .nan)
    | _, _ => (.nan, .nan)
  else (.nan, .nan)

theorem minMaxLoc_cell {idx : List Time} {d0 : Int} {n : Nat} (hidx : idx = (List.range n).map fun i : Nat => at00 (d0 + i)) {mmt : String}
    {md : Option (List (Int × XF ℝ))} {sun : Series SunTimes} {locs : List (XF ℝ × XF ℝ)} (h : minMaxLoc idx mmt md (some sun) = .ok locs)
    {i : Nat} (hi : i < locs.length) (hin : i < n) : locs[i] = locCell mmt md (sun.at? (at00 (d0 + i))) (at00 (d0 + i)) := by
  have hx : ∀ (h : i < idx.length), idx[i] = at00 (d0 + i) := by
    intro h
    simp [hidx]
  have hil : i < idx.length := by rw [hidx]; simpa using hin
  unfold minMaxLoc at h
  unfold locCell
  split at h
  · rename_i hm
    cases h
    rw [if_pos hm]; simp
  · rename_i hm
    rw [if_neg hm]
    split at h
    · rename_i hm
      rw [if_pos hm]
      cases h
      simp only [List.getElem_map, hx hil]
      cases sun.at? (at00 (d0 + i)) <;> rfl
    · rename_i hm
      rw [if_neg hm]
      split at h
      · rename_i hm
        rw [if_pos hm]
        cases md with
        | none => cases h
        | some tab =>
          obtain ⟨dl, hdl, h⟩ := py_bind_inv h
          split at h
          · cases h
          · rename_i hne
            have he := not_not.1 hne
            cases h
            have hlen := mapM_length hdl
            have hsl : i < sun.length := by
              have := congrArg List.length he
              simp [Series.index] at this
              omega
            have hd := mapM_getElem hdl i hil (by omega)
            simp only [List.getElem_zipWith]
            rw [hx hil] at hd
            unfold shiftFor at hd
            have hat := at?_of_index (s := sun) (he.trans hidx) hsl
            have hv : sun.values[i]'(by simpa [Series.values] using hsl) = sun[i].2 := by simp [Series.values]
            rw [hv, hat]
            cases hf : tab.find? (fun r => r.1 == monthOf (at00 (d0 + i))) with
            | none => rw [hf] at hd; cases hd
            | some r =>
              rw [hf] at hd
              simp only [Except.ok.injEq] at hd
              rw [← hd]
              simp [hf]
      · rename_i hm
        rw [if_neg hm]
        cases h
        simp

/-- the columns a successful sine run has used -/
theorem sine_cols {api : PandasApi} {daily : Frame ℝ} {index : List Time} {method mmt : String} {modNight : Bool} {md : Option (List (Int × XF ℝ))}
    {sun : Option (Series SunTimes)} {out : Series (XF ℝ)} (h : sineTemperature api daily index method mmt modNight md sun = .ok out) :
    daily.col? "tmin" ≠ none ∧ daily.col? "tmax" ≠ none ∧ daily.col? "temp" ≠ none := by
  unfold sineTemperature at h
  obtain ⟨loc, h1, _⟩ := py_bind_inv h
  unfold locTable at h1
  obtain ⟨_, _, h1⟩ := py_bind_inv h1
  obtain ⟨_, _, h1⟩ := py_bind_inv h1
  obtain ⟨_, _, h1⟩ := py_bind_inv h1
  obtain ⟨a, ha, h1⟩ := py_bind_inv h1
  obtain ⟨b, hb, h1⟩ := py_bind_inv h1
  obtain ⟨c, hc, h1⟩ := py_bind_inv h1
  refine ⟨fun e => ?_, fun e => ?_, fun e => ?_⟩
  · rw [attr_missing e] at ha; cases ha
  · rw [attr_missing e] at hb; cases hb
  · rw [attr_missing e] at hc; cases hc

/-- a successful sine run on complete days -/
theorem sine_run {api : PandasApi} {daily : Frame ℝ} (hw : daily.WF) {d0 : Int} {n : Nat} (hc : Covers daily.index d0 n) (hn : 0 < n) {method mmt : String}
    (hm : method = "sine_min_max" ∨ method = "sine_mean" ∨ method = "sine") {modNight : Bool} {md : Option (List (Int × XF ℝ))}
    {course : Option (MeanCourse ℝ)} {sun : Option (Series SunTimes)} {out : Series (XF ℝ)}
    (h : disaggregateTemperature api daily method mmt modNight md course sun = .ok out) :
    ∃ s tmin tmax temp lo hi, sun = some s ∧ TempDays daily d0 n tmin tmax temp ∧
      (∀ i < n, (locCell mmt md (s.at? (at00 (d0 + (i : Nat)))) (at00 (d0 + (i : Nat)))).1.toInt = .ok (lo i) ∧
        (locCell mmt md (s.at? (at00 (d0 + (i : Nat)))) (at00 (d0 + (i : Nat)))).2.toInt = .ok (hi i)) ∧
      out = hourlyS d0 n (fun i h => if method = "sine_mean" then sineMeanCell h (locRow n tmin tmax temp lo hi i)
        else sineCell modNight h (locRow n tmin tmax temp lo hi i)) := by
  have hcols : daily.col? "tmin" ≠ none ∧ daily.col? "tmax" ≠ none ∧ daily.col? "temp" ≠ none := by
    have h' := h
    unfold disaggregateTemperature at h'
    rw [if_neg (by rcases hm with rfl | rfl | rfl <;> simp)] at h'
    obtain ⟨idx, _, h'⟩ := py_bind_inv h'
    rw [if_pos hm] at h'
    exact sine_cols h'
  obtain ⟨tmin, h1⟩ := (covers_col? hw hc "tmin").resolve_left hcols.1
  obtain ⟨tmax, h2⟩ := (covers_col? hw hc "tmax").resolve_left hcols.2.1
  obtain ⟨temp, h3⟩ := (covers_col? hw hc "temp").resolve_left hcols.2.2
  have hd : TempDays daily d0 n tmin tmax temp := ⟨hc, h1, h2, h3⟩
  obtain ⟨locs, lo, hi, e1, e2, e3, e4, s, rfl, _⟩ := sine_inv hd hn hm h
  refine ⟨s, tmin, tmax, temp, lo, hi, rfl, hd, ?_, e4⟩
  intro i hi'
  have := e3 i (by omega)
  rw [minMaxLoc_cell hc e1 (by omega) hi'] at this
  exact this

/-- a successful run of a mean-course method on complete days -/
theorem course_run {api : PandasApi} {daily : Frame ℝ} (hw : daily.WF) {d0 : Int} {n : Nat} (hc : Covers daily.index d0 n) (hn : 0 < n) {method mmt : String}
    (hm : method = "mean_course_min_max" ∨ method = "mean_course_mean") {modNight : Bool} {md : Option (List (Int × XF ℝ))}
    {course : Option (MeanCourse ℝ)} {sun : Option (Series SunTimes)} {out : Series (XF ℝ)}
    (h : disaggregateTemperature api daily method mmt modNight md course sun = .ok out) :
    ∃ c tmin tmax, course = some c ∧ daily.col? "tmin" = some (dailyS d0 n tmin) ∧ daily.col? "tmax" = some (dailyS d0 n tmax) ∧
      ((method = "mean_course_min_max" ∧
        out = hourlyS d0 n fun i h => c.val (monthOf (at00 (d0 + (i : Nat)))) (h : Nat) * (tmax i - tmin i) + tmin i) ∨
      (method = "mean_course_mean" ∧ ∃ temp, daily.col? "temp" = some (dailyS d0 n temp) ∧
        out = hourlyS d0 n fun i h => temp i + (tmax i - tmin i) *
        (c.val (monthOf (at00 (d0 + (i : Nat)))) (h : Nat) - meanSkip (c.column (monthOf (at00 (d0 + (i : Nat)))))))) := by
  have h' := h
  unfold disaggregateTemperature at h'
  rw [if_neg (by rcases hm with rfl | rfl <;> simp), temp_hourly_index api hc hn, py_ok_bind, if_neg (by rcases hm with rfl | rfl <;> simp)] at h'
  have have_col : ∀ name s, daily.attr name = .ok s → ∃ v, daily.col? name = some (dailyS d0 n v) := by
    intro name s hs
    rcases covers_col? hw hc name with e | e
    · rw [attr_missing e] at hs; cases hs
    · exact e
  rcases hm with rfl | rfl
  · rw [if_pos rfl] at h'
    unfold courseMinMax at h'
    cases course with
    | none => cases h'
    | some c =>
      dsimp only at h'
      obtain ⟨norm, hnorm, h'⟩ := py_bind_inv h'
      obtain ⟨a, ha, h'⟩ := py_bind_inv h'
      obtain ⟨a', _, h'⟩ := py_bind_inv h'
      obtain ⟨b, hb, h'⟩ := py_bind_inv h'
      obtain ⟨tmin, h1⟩ := have_col _ _ ha
      obtain ⟨tmax, h2⟩ := have_col _ _ hb
      refine ⟨c, tmin, tmax, rfl, h1, h2, .inl ⟨rfl, ?_⟩⟩
      have hmonth : ∀ i < n, ∀ h : Nat, h < 24 → monthOf (at00 (d0 + (i : Nat))) ∈ c.months ∧ (h : Int) ∈ c.hours := by
        intro i hi h hh
        by_contra hx
        rw [mapM_lookup_error hi hh hx] at hnorm
        cases hnorm
      rw [courseMinMax_eq api hc hn h1 h2 mmt modNight md sun (fun i hi => (hmonth i hi 0 (by omega)).1) (fun h hh => (hmonth 0 hn h hh).2)] at h
      cases h
      rfl
  · rw [if_neg (by decide)] at h'
    unfold courseMean at h'
    obtain ⟨b, hb, h'⟩ := py_bind_inv h'
    obtain ⟨_, _, h'⟩ := py_bind_inv h'
    obtain ⟨a, ha, h'⟩ := py_bind_inv h'
    obtain ⟨_, _, h'⟩ := py_bind_inv h'
    cases course with
    | none => cases h'
    | some c =>
      dsimp only at h'
      obtain ⟨norm, hnorm, h'⟩ := py_bind_inv h'
      obtain ⟨t, ht, h'⟩ := py_bind_inv h'
      obtain ⟨tmin, h1⟩ := have_col _ _ ha
      obtain ⟨tmax, h2⟩ := have_col _ _ hb
      obtain ⟨temp, h3⟩ := have_col _ _ ht
      refine ⟨c, tmin, tmax, rfl, h1, h2, .inr ⟨rfl, temp, h3, ?_⟩⟩
      have hmonth : ∀ i < n, ∀ h : Nat, h < 24 → monthOf (at00 (d0 + (i : Nat))) ∈ c.months ∧ (h : Int) ∈ c.hours := by
        intro i hi h hh
        by_contra hx
        rw [mapM_lookup_error (c := c.zeroMean) hi hh hx] at hnorm
        cases hnorm
      rw [courseMean_eq api ⟨hc, h1, h2, h3⟩ hn mmt modNight md sun (fun i hi => (hmonth i hi 0 (by omega)).1) (fun h hh => (hmonth 0 hn h hh).2)] at h
      cases h
      rfl

end

end Melodist
