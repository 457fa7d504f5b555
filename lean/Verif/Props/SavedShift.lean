import Verif.Props.LoadedTables
import Verif.Props.Isolation

/-!
# C172: programs on a station with loaded statistics, 'sun_loc_shift' included
-/

set_option linter.unusedSectionVars false

namespace Melodist
open Spec

namespace World
noncomputable section

/-- temperature by a sine method with 'sun_loc_shift' -/
def ShiftCall (i : Nat) (op : Op) : Prop :=
  ∃ method modNight, op = .temperature i method "sun_loc_shift" modNight ∧ method ≠ "mean_course_min_max" ∧ method ≠ "mean_course_mean"

/-- the shifts of station `i` are numbers or missing, and no sum of a solar noon of its sun times and the shift of the month is within 5·10⁻¹¹ hours of a half hour -/
def ClearShift (w : World) (i : Nat) : Prop :=
  ∀ l, (w.statOf i).temp.maxDelta = some l → (∀ e ∈ l, e.2.NanOrFin) ∧ ∀ s, (w.stations i).sun = some s → ∀ row ∈ s, ∀ noon d : ℝ, row.2.sunnoon = .fin noon →
    (monthOf row.1, XF.fin d) ∈ l → OffHalf (1 / 2 / 10 ^ 10) (noon + d)

/-- every statement of the program is one of those of C107, or a temperature disaggregation with 'sun_loc_shift' that finds the shifts clear -/
def ClearRun (api : PandasApi) (i : Nat) : World → List Op → Prop
  | _, [] => True
  | w, op :: ops => (Exact i op ∨ ShiftCall i op ∧ ClearShift w i) ∧ ClearRun api i (w.step api op).1 ops

theorem statOf_kept (api : PandasApi) {i : Nat} {op : Op} (h : Exact i op ∨ ShiftCall i op) (w : World) : (w.step api op).1.statOf i = w.statOf i := by
  have key : Neutral op ∧ ∀ o a b c d e, op ≠ .setParams o a b c d e := by
    rcases h with h | ⟨m, n, rfl, _⟩
    · cases op <;> first | exact absurd h id | exact ⟨trivial, by rintro _ _ _ _ _ _ ⟨⟩⟩
    · exact ⟨trivial, by rintro _ _ _ _ _ _ ⟨⟩⟩
  obtain ⟨_, _, h3, h4⟩ := own_facts api (w := w) op key.1 key.2
  unfold statOf
  rw [h3, h4]

theorem Sim.stepShift (api : PandasApi) {i : Nat} {w w' : World} (h : Sim i w w') (ht : SameOption SameRows (w.statOf i).temp.maxDelta (w'.statOf i).temp.maxDelta) {op : Op}
    (hop : ShiftCall i op) (hc : ClearShift w i) : Sim i (w.step api op).1 (w'.step api op).1 ∧ (w'.step api op).2 = (w.step api op).2 := by
  obtain ⟨m, mn, rfl, h2, h3⟩ := hop
  refine h.writeCol "temp" ?_
  have hcourse : ∀ f sun (a : Option (List (Int × XF ℝ))) (c d : Option (MeanCourse ℝ)), disaggregateTemperature api f m "sun_loc_shift" mn a c sun =
      disaggregateTemperature api f m "sun_loc_shift" mn a d sun := by
    intro f sun a c d
    unfold disaggregateTemperature
    simp only [h2, h3, or_false]
    by_cases hm : m = "sine_min_max" ∨ m = "sine_mean" ∨ m = "sine"
    · simp only [hm, if_true]
    · simp only [hm, not_false_eq_true, if_true]
  have hf : ∀ f, disaggregateTemperature api f m "sun_loc_shift" mn (w'.statOf i).temp.maxDelta (w'.statOf i).temp.course (w.stations i).sun =
      disaggregateTemperature api f m "sun_loc_shift" mn (w.statOf i).temp.maxDelta (w.statOf i).temp.course (w.stations i).sun := by
    intro f
    rw [hcourse f _ _ (w'.statOf i).temp.course (w.statOf i).temp.course]
    cases e : (w.statOf i).temp.maxDelta with
    | none =>
      cases e' : (w'.statOf i).temp.maxDelta with
      | none => rfl
      | some r => rw [e, e'] at ht; exact absurd ht id
    | some l =>
      cases e' : (w'.statOf i).temp.maxDelta with
      | none => rw [e, e'] at ht; exact absurd ht id
      | some r =>
        rw [e, e'] at ht
        obtain ⟨c1, c2⟩ := hc l e
        exact C156_shift api f m _ mn ht c1 _ _ fun _ => c2
  rw [h.daily, h.sun]
  simp only [hf]

theorem Sim.runShift (api : PandasApi) {i : Nat} : ∀ (ops : List Op) {w w' : World}, Sim i w w' → SameOption SameRows (w.statOf i).temp.maxDelta (w'.statOf i).temp.maxDelta →
    ClearRun api i w ops → Sim i (w.run api ops) (w'.run api ops) ∧ w'.errors api ops = w.errors api ops
  | [], _, _, h, _, _ => ⟨h, rfl⟩
  | op :: ops, w, w', h, ht, hops => by
    obtain ⟨ho, hr⟩ := hops
    have hs : Sim i (w.step api op).1 (w'.step api op).1 ∧ (w'.step api op).2 = (w.step api op).2 := by
      rcases ho with ho | ⟨ho, hc⟩
      · exact h.step api ho
      · exact h.stepShift api ht ho hc
    have hk : Exact i op ∨ ShiftCall i op := ho.imp id And.left
    obtain ⟨h3, h4⟩ := Sim.runShift api ops hs.1 (by rw [statOf_kept api hk, statOf_kept api hk]; exact ht) hr
    refine ⟨h3, ?_⟩
    show (w'.step api op).2 :: _ = (w.step api op).2 :: _
    rw [hs.2, h4]

/-- **C172** A station whose statistics object is replaced by the one that was saved and loaded behaves as before, also when the program disaggregates temperatures with 'sun_loc_shift': any sequence of
assignments of daily data, sun times and disaggregations (those of C107, and temperature by the sine methods with 'sun_loc_shift', if at the time of the call no sum of solar noon and shift is within
5·10⁻¹¹ hours of a half hour) raises the same exceptions and leaves exactly the same hourly data. -/
theorem C172_same_results (api : PandasApi) (w : World) (i o : Nat) (hr : Restored (w.statOf i) (w.stats o)) (ops : List Op) (hops : ClearRun api i w ops) :
    let w' := (w.setStatistics i (some o)).1
    (w'.run api ops).frames = (w.run api ops).frames ∧ ((w'.run api ops).stations i).disagg = ((w.run api ops).stations i).disagg ∧
    ((w'.run api ops).stations i).daily = ((w.run api ops).stations i).daily ∧ w'.errors api ops = w.errors api ops := by
  intro w'
  have e1 : (w'.stations i).stat = o := by
    show (Function.update w.stations i { w.stations i with stat := o } i).stat = o
    rw [Function.update_self]
  have e2 : w'.statOf i = { w.stats o with lon := (w.stations i).lon, lat := (w.stations i).lat, tz := (w.stations i).tz } := by
    unfold statOf
    rw [e1]
    show Function.update _ o _ o = _
    rw [Function.update_self]
  have hs : Sim i w w' := by
    refine ⟨rfl, rfl, ?_, ?_, ?_, ?_, ?_, ?_⟩
    · rw [e1]
      show Function.update _ i _ i = _
      rw [Function.update_self]
    · rw [e2]; exact hr.wind
    · rw [e2]; exact hr.precip
    · rw [e2]; exact hr.hum.1
    · rw [e2]; exact hr.hum.2.1
    · rw [e2]; exact hr.hum.2.2
  obtain ⟨h1, h2⟩ := hs.runShift api ops (by rw [e2]; exact hr.maxDelta) hops
  exact ⟨h1.frames, h1.disagg, h1.daily, h2⟩

end

end World

/-! ## a concrete case -/

/-- C172: a shift of 1/3 hours for January, noon at 12h: temperature with 'sun_loc_shift', then humidity from it -/
example :
    let s : StatObj := { temp := { maxDelta := some [(1, .fin (1 / 3))], course := none }, wind := { a := some 1, b := some 2, tShift := some 3 } }
    let w : World := { stations := fun _ => { daily := some exRad, disagg := some 0, sun := some (dailyS 0 2 fun _ => ⟨.fin 6, .fin 12, .fin 18, .fin 12⟩) },
                       stats := fun k => if k = 0 then s else restoredObj s }
    let ops : List Op := [.temperature 0 "sine_min_max" "sun_loc_shift" false, .humidity 0 "minimal" false, .temperature 0 "sine_mean" "sun_loc_shift" true]
    ((w.setStatistics 0 (some 1)).1.run .modern ops).frames = (w.run .modern ops).frames := by
  intro s w ops
  have hs : Exportable s :=
    let h := StatsObj.exportable_new none none none
    ⟨by rintro l ⟨⟩; exact ⟨by simp, .inl ⟨_, List.mem_singleton.2 rfl, _, rfl, by norm_num⟩⟩, fun _ h => (by cases h), fun _ h => (by cases h), fun _ h => (by cases h), fun _ h => (by cases h), h.ang, h.bc⟩
  have clear : ∀ v : World, (v.statOf 0) = w.statOf 0 → v.stations = w.stations → World.ClearShift v 0 := by
    intro v e1 e2 l hl
    rw [e1] at hl
    rw [e2]
    cases hl
    refine ⟨by simp, ?_⟩
    rintro s ⟨⟩ row hrow noon d hn hd
    obtain ⟨i, _, rfl⟩ := List.mem_map.1 hrow
    have e3 : noon = 12 := (XF.fin.inj hn).symm
    have e4 : d = 1 / 3 := by
      have := congrArg Prod.snd (List.mem_singleton.1 hd)
      exact XF.fin.inj this
    rw [e3, e4]
    exact offHalf_of_near (m := 12) (d := 1 / 3) (by norm_num [abs_of_pos]) (by norm_num)
  refine (World.C172_same_results .modern w 0 1 (restoredObj_restored hs) ops ?_).1
  have sh : ∀ m n, m ≠ "mean_course_min_max" → m ≠ "mean_course_mean" → World.ShiftCall 0 (.temperature 0 m "sun_loc_shift" n) := fun m n h1 h2 => ⟨m, n, rfl, h1, h2⟩
  have hu : World.Exact 0 (.humidity 0 "minimal" false) := ⟨rfl, by decide⟩
  refine ⟨.inr ⟨sh _ _ (by decide) (by decide), clear w rfl rfl⟩, .inl hu, .inr ⟨sh _ _ (by decide) (by decide), clear _ ?_ ?_⟩, trivial⟩
  · rw [World.statOf_kept .modern (.inl hu), World.statOf_kept .modern (.inr (sh _ _ (by decide) (by decide)))]
  · exact ((World.writeCol_same _ 0 "hum" _).stations).trans (World.writeCol_same _ 0 "temp" _).stations

end Melodist
