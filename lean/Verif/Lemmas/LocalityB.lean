import Verif.Lemmas.Locality
import Verif.Lemmas.RadiationModels
import Verif.Lemmas.Wind
import Verif.Lemmas.Radiation
import Verif.Spec.Rad
import Verif.Lemmas.Master

/-!
# Lemmas for C100: humidity and the master station
-/

set_option linter.unusedSectionVars false

namespace Melodist
open Spec

/-- what a successful run computes, method by method -/
theorem raw_formula {api : PandasApi} {daily : Frame ℝ} (hw : daily.WF) {d0 : Int} {n : Nat} (hc : Covers daily.index d0 n) (hn : 0 < n) {method : String}
    {temp : Option (Series (XF ℝ))} {a0 a1 kr : Option ℝ} {table : Option (CatMeans ℝ)} (ht : ∀ s, temp = some s → ∃ T, s = hourlyS d0 n T)
    {s : Series (XF ℝ)} (h : humidityRaw api daily method temp a0 a1 kr table = .ok s) :
    (method = "equal" ∧ ∃ v, daily.col? "hum" = some (dailyS d0 n v) ∧ s = hourlyS d0 n fun i _ => v i) ∨
    ((method = "minimal" ∨ method = "dewpoint_regression") ∧ ∃ v T a b, (if method = "minimal" then some 0 else a0) = some a ∧
      (if method = "minimal" then some 1 else a1) = some b ∧ daily.col? "tmin" = some (dailyS d0 n v) ∧ temp = some (hourlyS d0 n T) ∧
      s = hourlyS d0 n fun i h => rhCell (.fin a + .fin b * v i) (T i h)) ∨
    (method = "linear_dewpoint_variation" ∧ ∃ v T a b k, a0 = some a ∧ a1 = some b ∧ kr = some k ∧ daily.col? "tmin" = some (dailyS d0 n v) ∧
      temp = some (hourlyS d0 n T) ∧ s = hourlyS d0 n fun i h => rhCell (linTdew k n (fun i => .fin a + .fin b * v i) i h) (T i h)) ∨
    (method = "min_max" ∧ ∃ hmin hmax tmin tmax T, daily.col? "hum_min" = some (dailyS d0 n hmin) ∧ daily.col? "hum_max" = some (dailyS d0 n hmax) ∧
      daily.col? "tmin" = some (dailyS d0 n tmin) ∧ daily.col? "tmax" = some (dailyS d0 n tmax) ∧ temp = some (hourlyS d0 n T) ∧
      s = hourlyS d0 n fun i h => hmax i + (T i h - tmin i) / (tmax i - tmin i) * (hmin i - hmax i)) ∨
    (method = "month_hour_precip_mean" ∧ ∃ precip tab c, table = some tab ∧ daily.col? "precip" = some (dailyS d0 n precip) ∧
      (∀ i < n, ∀ h < 24, ∃ r, tab.find? (fun r => r.1 == catKey d0 precip i h) = some r ∧ r.2 = c i h) ∧ s = hourlyS d0 n c) := by
  have hcol : ∀ name s, daily.attr name = .ok s → ∃ v, daily.col? name = some (dailyS d0 n v) := by
    intro name s hs
    rcases covers_col? hw hc name with e | e
    · rw [attr_missing e] at hs; cases hs
    · exact e
  by_cases hm1 : method = "equal"
  · subst hm1
    have h' := h
    unfold humidityRaw at h'
    simp only [true_or, not_true, if_false, if_true] at h'
    obtain ⟨s', hs', _⟩ := py_bind_inv h'
    obtain ⟨v, hv⟩ := hcol _ _ hs'
    rw [raw_equal api daily temp a0 a1 kr table d0 n hn v hv] at h
    cases h
    exact .inl ⟨rfl, v, hv, rfl⟩
  by_cases hm2 : method = "minimal" ∨ method = "dewpoint_regression" ∨ method = "linear_dewpoint_variation"
  · have h' := h
    unfold humidityRaw at h'
    have hm2' : method = "equal" ∨ method = "minimal" ∨ method = "dewpoint_regression" ∨ method = "min_max" ∨
      method = "linear_dewpoint_variation" ∨ method = "month_hour_precip_mean" := by
      rcases hm2 with h | h | h <;> simp [h]
    rw [if_neg (not_not.2 hm2'), if_neg hm1, if_pos hm2] at h'
    change humidityDewpoint api daily method temp a0 a1 kr = .ok s at h'
    unfold humidityDewpoint at h'
    dsimp only at h'
    split at h'
    · rename_i b0 b1 hb0 hb1
      obtain ⟨s1, hs1, h'⟩ := py_bind_inv h'
      obtain ⟨v, hv⟩ := hcol _ _ hs1
      obtain ⟨s2, hs2, h'⟩ := py_bind_inv h'
      obtain ⟨kr', hk, h'⟩ := py_bind_inv h'
      split at h'
      · cases h'
      · rename_i tmp
        obtain ⟨T, rfl⟩ := ht _ rfl
        rcases hm2 with rfl | rfl | rfl
        · right; left
          rw [raw_minimal api daily a0 a1 kr table d0 n hn v T hv] at h
          cases h
          exact ⟨.inl rfl, v, T, 0, 1, by rw [if_pos rfl], by rw [if_pos rfl], hv, rfl, rfl⟩
        · right; left
          rw [if_neg (by decide)] at hb0 hb1
          subst hb0 hb1
          rw [raw_regression api daily b0 b1 kr table d0 n hn v T hv] at h
          cases h
          exact ⟨.inr rfl, v, T, b0, b1, by rw [if_neg (by decide)], by rw [if_neg (by decide)], hv, rfl, rfl⟩
        · right; right; left
          rw [if_neg (by decide)] at hb0 hb1
          subst hb0 hb1
          rw [if_pos rfl] at hk
          cases kr with
          | none => cases hk
          | some k =>
            dsimp only at hk
            split at hk
            · rename_i hkr
              rw [raw_linear api daily b0 b1 k hkr table d0 n hn v T hv] at h
              cases h
              exact ⟨rfl, v, T, b0, b1, k, rfl, rfl, rfl, hv, rfl, rfl⟩
            · cases hk
    · cases h'
  by_cases hm3 : method = "min_max"
  · subst hm3
    have h' := h
    unfold humidityRaw humidityMinMax at h'
    simp only [true_or, or_true, not_true, if_false, if_true, reduceCtorEq, String.reduceEq, or_self] at h'
    split at h'
    · cases h'
    · obtain ⟨_, h1, h'⟩ := py_bind_inv h'
      obtain ⟨_, _, h'⟩ := py_bind_inv h'
      obtain ⟨_, h2, h'⟩ := py_bind_inv h'
      obtain ⟨_, _, h'⟩ := py_bind_inv h'
      obtain ⟨_, h3, h'⟩ := py_bind_inv h'
      obtain ⟨_, _, h'⟩ := py_bind_inv h'
      obtain ⟨_, h4, h'⟩ := py_bind_inv h'
      obtain ⟨_, _, h'⟩ := py_bind_inv h'
      obtain ⟨v1, h1⟩ := hcol _ _ h1
      obtain ⟨v2, h2⟩ := hcol _ _ h2
      obtain ⟨v3, h3⟩ := hcol _ _ h3
      obtain ⟨v4, h4⟩ := hcol _ _ h4
      cases temp with
      | none => cases h'
      | some tmp =>
        obtain ⟨T, rfl⟩ := ht _ rfl
        rw [raw_minmax api daily a0 a1 kr table d0 n hn v1 v2 v3 v4 T h1 h2 h3 h4] at h
        cases h
        exact .inr (.inr (.inr (.inl ⟨rfl, v1, v2, v3, v4, T, h1, h2, h3, h4, rfl, rfl⟩)))
  by_cases hm4 : method = "month_hour_precip_mean"
  · subst hm4
    have h' := h
    unfold humidityRaw humidityCategorical at h'
    simp only [true_or, or_true, not_true, if_false, if_true, reduceCtorEq, String.reduceEq, or_self] at h'
    cases table with
    | none => cases h'
    | some tab =>
      obtain ⟨_, h1, _⟩ := py_bind_inv h'
      obtain ⟨v, hv⟩ := hcol _ _ h1
      have hfound : ∀ i < n, ∀ k < 24, ∃ r, tab.find? (fun r => r.1 == catKey d0 v i k) = some r := by
        intro i hi k hk
        cases hf : tab.find? (fun r => r.1 == catKey d0 v i k) with
        | some r => exact ⟨r, rfl⟩
        | none =>
          rw [raw_cat_missing api daily temp a0 a1 kr tab d0 n hn v hv ⟨i, hi, k, hk, hf⟩] at h
          cases h
      let c : Nat → Nat → XF ℝ := fun i k => ((tab.find? (fun r => r.1 == catKey d0 v i k)).map Prod.snd).getD .nan
      have hcell : ∀ i < n, ∀ k < 24, ∃ r, tab.find? (fun r => r.1 == catKey d0 v i k) = some r ∧ r.2 = c i k := by
        intro i hi k hk
        obtain ⟨r, hr⟩ := hfound i hi k hk
        refine ⟨r, hr, ?_⟩
        show r.2 = ((tab.find? (fun r => r.1 == catKey d0 v i k)).map Prod.snd).getD .nan
        rw [hr]; rfl
      rw [raw_cat api daily temp a0 a1 kr tab d0 n hn v hv c hcell] at h
      cases h
      exact .inr (.inr (.inr (.inr ⟨rfl, v, tab, c, rfl, hv, hcell, rfl⟩)))
  · exfalso
    unfold humidityRaw at h
    rw [if_pos (by rintro (h | h | h | h | h | h) <;> simp_all)] at h
    cases h

section master
variable {K : Type} [Field K] [LinearOrder K]

/-- the value of hour `h` of day `d` written by one iteration of the loop over the days -/
def masterCell (zerodiv : String) (d : Int) (v : XF K) (m : Series (XF K)) (h : Nat) : XF K :=
  let tot := sumSkip m.values
  if ¬ XF.feq tot (.fin 0) ∧ ¬ XF.feq tot (if tot.isNan then .fin 1 else .fin 0) then
    ((Series.at? (m.map fun r => (r.1, r.2 / tot * v)) (atHour d h)).getD .nan)
  else if zerodiv = "uniform" then .fin (1 / 24) * v else .fin 0

theorem masterDay_run {zerodiv : String} {d0 : Int} {n : Nat} {f : Nat → Nat → XF K} {j : Nat} {v : XF K} {m acc : Series (XF K)}
    (h : masterDay zerodiv (d0 + (j : Int)) v m (hourlyS d0 n f) = .ok acc) :
    acc = hourlyS d0 n fun i h => if i = j then masterCell zerodiv (d0 + (j : Int)) v m h else f i h := by
  unfold masterDay at h
  dsimp only at h
  have key : ∀ g : Time → XF K, (∀ h < 24, g (atHour (d0 + (j : Int)) h) = masterCell zerodiv (d0 + (j : Int)) v m h) →
      (hourlyS d0 n f).map (fun r => if dayOf r.1 = d0 + (j : Int) then (r.1, g r.1) else r) =
        hourlyS d0 n fun i h => if i = j then masterCell zerodiv (d0 + (j : Int)) v m h else f i h := by
    intro g hg
    rw [hourlyS_setDay]
    apply hourlyS_congr
    intro i _ k hk
    by_cases e : i = j
    · subst e
      rw [if_pos rfl, if_pos rfl]
      exact hg k hk
    · rw [if_neg e, if_neg e]
  by_cases hc : ¬ XF.feq (sumSkip m.values) (.fin 0) ∧
      ¬ XF.feq (sumSkip m.values) (if (sumSkip m.values).isNan then .fin 1 else .fin 0)
  · rw [if_pos hc] at h
    by_cases hi : Series.index (List.map (fun r => (r.1, r.2 / sumSkip m.values * v)) m) =
        List.map Prod.fst (List.filter (fun r => dayOf r.1 == d0 + (j : Int)) (hourlyS d0 n f))
    · rw [if_pos hi] at h
      cases h
      exact key (fun t => (Series.at? (m.map fun r => (r.1, r.2 / sumSkip m.values * v)) t).getD .nan) (fun k _ => by
        unfold masterCell; dsimp only; rw [if_pos hc])
    · rw [if_neg hi] at h
      cases h
  · rw [if_neg hc] at h
    by_cases hz : zerodiv = "uniform"
    · rw [if_pos hz] at h
      cases h
      exact key (fun _ => .fin (1 / 24) * v) (fun k _ => by unfold masterCell; dsimp only; rw [if_neg hc, if_pos hz])
    · rw [if_neg hz] at h
      cases h
      exact key (fun _ => .fin 0) (fun k _ => by unfold masterCell; dsimp only; rw [if_neg hc, if_neg hz])

/-- the rows of a day, if the selection succeeds -/
theorem selectDate_run {V : Type} {s m : Series V} {d : Int} (h : selectDate s d = .ok m) : m = s.filter fun q => dayOf q.1 == d := by
  unfold selectDate at h
  split at h
  · split at h <;> cases h
  · split at h
    · cases h
    · cases h; rfl

theorem masterLoop_run {zerodiv : String} {d0 : Int} {n : Nat} {v : Nat → XF K} {master : Series (XF K)} : ∀ (k j : Nat) {f : Nat → Nat → XF K}
    {acc : Series (XF K)}, j + k = n →
    ((List.range' j k).map fun i : Nat => (at00 (d0 + (i : Int)), v i)).foldlM (init := hourlyS d0 n f) (fun acc r => (do
        let q ← selectDate master (dayOf r.1)
        masterDay zerodiv (dayOf r.1) r.2 q acc : Py (Series (XF K)))) = .ok acc →
    acc = hourlyS d0 n fun i h => if j ≤ i ∧ i < n then masterCell zerodiv (d0 + (i : Int)) (v i) (master.filter fun q => dayOf q.1 == d0 + (i : Int)) h else f i h := by
  intro k
  induction k with
  | zero =>
    intro j f acc hj h
    cases h
    apply hourlyS_congr
    intro i hi h _
    rw [if_neg (by omega)]
  | succ k ih =>
    intro j f acc hj h
    rw [List.range'_succ, List.map_cons, List.foldlM_cons] at h
    obtain ⟨acc1, h1, h⟩ := py_bind_inv h
    obtain ⟨q, hq, h1⟩ := py_bind_inv h1
    have hd : dayOf (at00 (d0 + (j : Int))) = d0 + (j : Int) := by unfold dayOf at00; omega
    dsimp only at hq h1
    rw [hd] at hq h1
    have e1 := masterDay_run h1
    rw [selectDate_run hq] at e1
    rw [e1] at h
    rw [ih (j + 1) (by omega) h]
    apply hourlyS_congr
    intro i hi h _
    by_cases e : i = j
    · subst e
      rw [if_neg (by omega), if_pos rfl, if_pos (by omega)]
    · by_cases hl : j + 1 ≤ i ∧ i < n
      · rw [if_pos hl, if_pos (by omega)]
      · rw [if_neg hl, if_neg e, if_neg (by omega)]

/-- a successful run -/
theorem master_run {api : PandasApi} {zerodiv : String} {d0 : Int} {n : Nat} (hn : 0 < n) {v : Nat → XF K} {master out : Series (XF K)}
    (h : precipMasterStation api (dailyS d0 n v) master zerodiv = .ok out) :
    out = hourlyS d0 n fun i h => masterCell zerodiv (d0 + (i : Int)) (v i) (master.filter fun q => dayOf q.1 == d0 + (i : Int)) h := by
  unfold precipMasterStation at h
  rw [hourlyIndex_daily api d0 hn v false (fun _ _ => (XF.nan : XF K)), py_ok_bind] at h
  have hs : (Series.index (hourlyS d0 n fun _ _ => (XF.nan : XF K))).map (fun t => (t, (XF.nan : XF K))) =
      hourlyS d0 n fun _ _ => XF.nan := by
    simp [Series.index, hourlyS, Function.comp_def]
  dsimp only at h
  obtain ⟨_, _, h⟩ := py_bind_inv h
  rw [hs] at h
  have e : dailyS d0 n v = (List.range' 0 n).map fun i : Nat => (at00 (d0 + (i : Int)), v i) := by
    rw [← List.range_eq_range']; rfl
  rw [e] at h
  rw [masterLoop_run n 0 (by omega) h]
  apply hourlyS_congr
  intro i hi h _
  rw [if_pos (by omega)]

end master

end Melodist
