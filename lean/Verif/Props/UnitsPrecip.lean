import Verif.Lemmas.UnitsAggregate
import Verif.Props.BuildCasc

/-!
# C99: precipitation in other units
-/

set_option linter.unusedSectionVars false

namespace Melodist
open Spec

section
variable {K : Type} [Field K] [LinearOrder K] [IsStrictOrderedRing K] [FloorRing K] {s : K}

/-- **C99** (cascade) Daily precipitation and the thresholds of the statistics in other units (`x ↦ s * x`), the same branching tables and the
same random numbers: the cascade raises the same exception, or its boxes on all levels and the resulting series are those of the
original units in the new units. -/
theorem C99_cascade (hs : 0 < s) (api : PandasApi) (rnd : Nat → K) (daily : Series (XF K)) (opts : CascOptions K) (hourly : Bool) (level : Nat)
    (shift : Int) (test : Bool) :
    (∀ e, disaggPrecCascade api rnd daily opts hourly level shift test = .error e →
      disaggPrecCascade api rnd (seriesInUnits s 0 daily) (opts.inUnits s) hourly level shift test = .error e) ∧
    (∀ o, disaggPrecCascade api rnd daily opts hourly level shift test = .ok o →
      disaggPrecCascade api rnd (seriesInUnits s 0 daily) (opts.inUnits s) hourly level shift test = .ok (o.inUnits s)) := by
  have h := cascade_units hs api rnd daily opts hourly level shift test
  exact ⟨fun e he => by rw [h, he]; rfl, fun o ho => by rw [h, ho]; rfl⟩

/-- **C99** (master station) Daily precipitation in other units (factor `s`), the hourly precipitation of the master station in any units
(factor `u`): the same exception, or the result in the units of the daily values; the unit of the master station is irrelevant. -/
theorem C99_master {u : K} (hs : 0 < s) (hu : 0 < u) (api : PandasApi) (daily master : Series (XF K)) (zerodiv : String) :
    (∀ e, precipMasterStation api daily master zerodiv = .error e →
      precipMasterStation api (seriesInUnits s 0 daily) (seriesInUnits u 0 master) zerodiv = .error e) ∧
    (∀ r, precipMasterStation api daily master zerodiv = .ok r →
      precipMasterStation api (seriesInUnits s 0 daily) (seriesInUnits u 0 master) zerodiv = .ok (seriesInUnits s 0 r)) := by
  have h := master_units hs hu api daily master zerodiv
  exact ⟨fun e he => by rw [h, he]; rfl, fun o ho => by rw [h, ho]; rfl⟩

/-- **C99** (equal) `distribute_equally`, also with division by 24, in other units -/
theorem C99_equal (hs : 0 < s) (api : PandasApi) (daily : Series (XF K)) (divide : Bool) :
    (∀ e, distributeEqually api daily divide = .error e → distributeEqually api (seriesInUnits s 0 daily) divide = .error e) ∧
    (∀ r, distributeEqually api daily divide = .ok r → distributeEqually api (seriesInUnits s 0 daily) divide = .ok (seriesInUnits s 0 r)) := by
  have h := distribute_units hs api daily divide
  exact ⟨fun e he => by rw [h, he]; rfl, fun o ho => by rw [h, ho]; rfl⟩

/-- **C99** (statistics) `build_casc` on a record in other units: the same exception, or for every season the same tables of
probabilities and weights and thresholds in the new units; the record left behind (missing values replaced) is that of the first
call in the new units. -/
theorem C99_statistics (hs : 0 < s) (obs : Series (XF K)) (hourly : Bool) (level : Nat) (months : Option (List (List Int))) (avg : Bool) (p : K) :
    (buildCasc (seriesInUnits s 0 obs) hourly level months avg p).1 = seriesInUnits s 0 (buildCasc obs hourly level months avg p).1 ∧
    (∀ e, (buildCasc obs hourly level months avg p).2 = .error e →
      (buildCasc (seriesInUnits s 0 obs) hourly level months avg p).2 = .error e) ∧
    (∀ l, (buildCasc obs hourly level months avg p).2 = .ok l →
      (buildCasc (seriesInUnits s 0 obs) hourly level months avg p).2 = .ok (l.map (seasonUnits s))) := by
  have h := buildCasc_units hs obs hourly level months avg p
  rw [h]
  exact ⟨rfl, fun e he => by rw [he]; rfl, fun l hl => by rw [hl]; rfl⟩

/-- **C99** (whole chain) Statistics from a record in inches and daily values in inches give, with the same random numbers, the result in
millimetres expressed in inches; averaged statistics as well as one object per level. -/
theorem C99_whole (hs : 0 < s) (obs : Series (XF K)) (months : List Int) (avg : Bool) (p : K) (api : PandasApi) (rnd : Nat → K) (daily : Series (XF K))
    (hourly : Bool) (level : Nat) (shift : Int) (st : CascStats K ⊕ List (CascStats K))
    (hst : (buildCasc obs hourly level (some [months]) avg p).2 = .ok [st]) (o : CascadeOut K)
    (ho : disaggPrecCascade api rnd daily (st.elim .one .many) hourly level shift = .ok o) :
    ∃ st', (buildCasc (seriesInUnits s 0 obs) hourly level (some [months]) avg p).2 = .ok [st'] ∧
      disaggPrecCascade api rnd (seriesInUnits s 0 daily) (st'.elim .one .many) hourly level shift = .ok (o.inUnits s) := by
  refine ⟨seasonUnits s st, (C99_statistics hs obs hourly level (some [months]) avg p).2.2 _ hst, ?_⟩
  rw [show (seasonUnits s st).elim CascOptions.one CascOptions.many = (st.elim CascOptions.one CascOptions.many).inUnits s by cases st <;> rfl]
  exact (C99_cascade hs api rnd daily _ hourly level shift false).2 o ho

end

/-! ### examples -/

/-- the sample statistics; two days of 20 mm, all random numbers 2/5, a run that succeeds -/
example : okAnd (disaggPrecCascade .modern (fun _ => (2 / 5 : ℚ)) (dailyS 0 2 fun _ => .fin 20) (.one (CascStats.fillSample .init)))
    (fun o => decide (o.series.values.take 3 ≠ [])) = true := by decide +kernel

/-- in centimetres, with the thresholds in centimetres: the same course -/
example : okAnd (disaggPrecCascade .modern (fun _ => (2 / 5 : ℚ)) (dailyS 0 2 fun _ => .fin 20) (.one (CascStats.fillSample .init)))
    (fun o => okAnd (disaggPrecCascade .modern (fun _ => (2 / 5 : ℚ)) (dailyS 0 2 fun _ => .fin 2)
      (.one ((CascStats.fillSample .init).inUnits (1 / 10)))) (fun o' => decide (o'.series = seriesInUnits (1 / 10) 0 o.series))) = true := by
  decide +kernel

/-- the default thresholds are amounts in mm: daily values in centimetres with these thresholds give another course -/
example : okAnd (disaggPrecCascade .modern (fun _ => (2 / 5 : ℚ)) (dailyS 0 2 fun _ => .fin 20) (.one (CascStats.fillSample .init)))
    (fun o => okAnd (disaggPrecCascade .modern (fun _ => (2 / 5 : ℚ)) (dailyS 0 2 fun _ => .fin 2)
      (.one (CascStats.fillSample .init))) (fun o' => ! decide (o'.series = seriesInUnits (1 / 10) 0 o.series))) = true := by
  decide +kernel

/-- a record whose statistics exist (hypothesis of `C99_whole`), in other units -/
example : ∃ l, (buildCasc (seriesInUnits (1 / 10) 0 exampleLong) true 9 (some [[1]]) false 50).2 = .ok [.inr l] := by
  obtain ⟨l, h, _⟩ := exampleLong_levels
  exact ⟨_, (C99_statistics (by norm_num) exampleLong true 9 (some [[1]]) false 50).2.2 _ h⟩

end Melodist
