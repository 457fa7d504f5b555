import Verif.Props.Order
import Verif.Props.TemperatureB
import Verif.Props.TemperatureC
import Verif.Props.Humidity
import Verif.Props.Vapor
import Verif.Props.Sun

/-!
# C105: where the order matters, and a concrete case
-/

set_option linter.unusedSectionVars false

namespace Melodist

namespace World

noncomputable section

open Spec

/-- a station at longitude and latitude 0 with the two days of the example, sun times as given, and an hourly table with two columns -/
def orderWorld (sun : Option (Series SunTimes)) : World where
  stations _ := { lon := some 0, lat := some 0, tz := some 0, daily := some exFrame, disagg := some 0, sun := sun }
  frames _ := ⟨Series.index (hourlyS 0 2 fun _ _ => (XF.nan : XF ℝ)),
    [("temp", Series.values (hourlyS 0 2 fun _ _ => (XF.nan : XF ℝ))), ("hum", Series.values (hourlyS 0 2 fun _ _ => (XF.nan : XF ℝ)))]⟩

/-- temperatures by 'sine_mean' -/
def opT : Op := .temperature 0 "sine_mean" "fix" false
/-- humidity by 'minimal' -/
def opH : Op := .humidity 0 "minimal" false
/-- radiation with a wrong method name -/
def opR : Op := .radiation 0 "none" none

theorem write_series {w : World} {i k : Nat} {name : String} {s : Series (XF ℝ)} (hk : (w.stations i).disagg = some k) (hs : s.index = (w.frames k).index)
    (hc : (w.frames k).has name = true) :
    (w.writeCol i name (.ok (.series s))).2 = none ∧ ((w.writeCol i name (.ok (.series s))).1.frames k).col? name = some s ∧
    ∀ c, c ≠ name → ((w.writeCol i name (.ok (.series s))).1.frames k).col? c = (w.frames k).col? c := by
  have h : w.writeCol i name (.ok (.series s)) = (w.setFrame k (replaceCol (w.frames k) name s.values), none) := by
    unfold writeCol columnValues
    simp only [hk, hs, if_true]
  rw [h]
  refine ⟨rfl, ?_, fun c hc => ?_⟩
  · simp only [setFrame_frames, Function.update_self]
    rw [replaceCol_col?_eq _ _ hc, ← hs, index_zip_values]
  · simp only [setFrame_frames, Function.update_self]
    exact replaceCol_col?_ne _ _ hc

theorem hum_value (w : World) (h1 : (w.stations 0).daily = some exFrame) (h2 : (w.stations 0).disagg = some 0) {T : Nat → Nat → XF ℝ}
    (h3 : (w.frames 0).col? "temp" = some (hourlyS 0 2 T)) :
    calcValue .modern w opH = .ok (.series (hourlyS 0 2 fun i h => (rhCell (.fin 0 + .fin 1 * exMin i) (T i h)).clip 0 100)) := by
  have hd : w.disaggAttr 0 "temp" = .ok (hourlyS 0 2 T) := by
    unfold disaggAttr
    rw [h2]
    dsimp only
    exact attr_ok h3
  unfold calcValue opH
  dsimp only
  rw [hd, py_ok_bind, h1]
  dsimp only
  rw [(hum_finish (raw_minimal .modern exFrame _ _ _ _ 0 2 (by decide) exMin T rfl)).1]
  rfl

/-- C105: temperature and humidity cannot be exchanged: the methods based on dew points read the hourly temperatures -/
theorem C105_temperature_before_humidity :
    ∃ w : World, ∃ op op' : Op, disaggTarget op = some (0, "temp") ∧ disaggTarget op' = some (0, "hum") ∧ (w.stations 0).sun ≠ none ∧
      (∀ s ∈ trace .modern w [op, op'], s.2 = none) ∧ (∀ s ∈ trace .modern w [op', op], s.2 = none) ∧
      w.run .modern [op, op'] ≠ w.run .modern [op', op] := by
  have idx : ∀ f : Nat → Nat → XF ℝ, Series.index (hourlyS 0 2 f) = Series.index (hourlyS 0 2 fun _ _ => (XF.nan : XF ℝ)) := fun f => by
    rw [hourlyS_index, hourlyS_index]
  obtain ⟨out, hout⟩ := exOk (.inr (.inl rfl)) false (method := "sine_mean")
  obtain ⟨locs, lo, hi, _, _, _, hform, _⟩ := sine_inv exDays (by decide) (.inr (.inl rfl)) hout
  have hmean := C47_sine_mean .modern exDays (by decide) _ _ _ _ _ _ hout 0 (by decide) 283 293 288 rfl rfl rfl (by norm_num)
  set w := orderWorld (some exSun) with hw
  have ready : ∀ c, SunReady w 0 c := fun c => .inr (by simp [hw, orderWorld])
  have vT : ∀ v : World, v.stations = w.stations → v.stats = w.stats → calcValue .modern v opT = .ok (.series out) := by
    intro v h1 h2
    unfold calcValue opT
    dsimp only
    unfold statOf
    rw [h1, h2]
    show (do Except.ok (WindResult.series (← disaggregateTemperature .modern exFrame "sine_mean" "fix" false none none (some exSun)))) = _
    rw [hout]
    rfl
  have hdis : (w.stations 0).disagg = some 0 := rfl
  have hout_idx : out.index = (w.frames 0).index := by rw [hform]; exact idx _
  -- temperature first
  have t1 : w.step .modern opT = w.writeCol 0 "temp" (.ok (.series out)) := by
    rw [step_write .modern w rfl (ready _), vT w rfl rfl]
  obtain ⟨a1, a2, a3⟩ := write_series hdis hout_idx (name := "temp") rfl
  have as := writeCol_same w 0 "temp" (.ok (.series out))
  set w1 := (w.writeCol 0 "temp" (.ok (.series out))).1 with hw1
  have afr := (writeCol_frames w 0 "temp" (.ok (.series out))).2.1 0 hdis
  rw [← hw1] at afr
  have v1 := hum_value w1 (by rw [as.stations]; rfl) (by rw [as.stations]; rfl) (by rw [a2, hform])
  have t2 := step_write .modern w1 (op := opH) rfl (by unfold SunReady; rw [as.stations]; exact ready _)
  rw [v1] at t2
  have b := write_series (w := w1) (i := 0) (k := 0) (name := "hum") (s := hourlyS 0 2 fun i h => (rhCell (.fin 0 + .fin 1 * exMin i)
    (if "sine_mean" = "sine_mean" then sineMeanCell h (locRow 2 exMin exMax exTemp lo hi i) else sineCell false h (locRow 2 exMin exMax exTemp lo hi i))).clip 0 100)
    (by rw [as.stations]; rfl) (by rw [afr.1]; exact idx _) (by
      have := afr.2.1
      unfold Frame.has
      rw [List.any_eq_true]
      have hm : "hum" ∈ (w1.frames 0).cols.map Prod.fst := by rw [this]; simp [hw, orderWorld]
      obtain ⟨c, hc, e⟩ := List.mem_map.1 hm
      exact ⟨c, hc, by simp [e]⟩)
  -- humidity first
  have u1 : w.step .modern opH = w.writeCol 0 "hum" (.ok (.series (hourlyS 0 2 fun i h => (rhCell (.fin 0 + .fin 1 * exMin i) .nan).clip 0 100))) := by
    rw [step_write .modern w rfl (ready _), hum_value w rfl rfl (T := fun _ _ => .nan) (congrArg some (index_zip_values _))]
  obtain ⟨c1, c2, c3⟩ := write_series hdis (name := "hum") (s := hourlyS 0 2 fun i h => (rhCell (.fin 0 + .fin 1 * exMin i) .nan).clip 0 100) (idx _) rfl
  set w2 := (w.writeCol 0 "hum" (.ok (.series (hourlyS 0 2 fun i h => (rhCell (.fin 0 + .fin 1 * exMin i) .nan).clip 0 100)))).1 with hw2
  have cs := writeCol_same w 0 "hum" (.ok (.series (hourlyS 0 2 fun i h => (rhCell (.fin 0 + .fin 1 * exMin i) .nan).clip 0 100)))
  have cfr := (writeCol_frames w 0 "hum" (.ok (.series (hourlyS 0 2 fun i h => (rhCell (.fin 0 + .fin 1 * exMin i) .nan).clip 0 100)))).2.1 0 hdis
  rw [← hw2] at cs cfr
  have t4 := step_write .modern w2 (op := opT) rfl (by unfold SunReady; rw [cs.stations]; exact ready _)
  rw [vT w2 cs.stations cs.stats] at t4
  have d := write_series (w := w2) (i := 0) (k := 0) (name := "temp") (s := out) (by rw [cs.stations]; rfl) (by rw [cfr.1]; exact hout_idx) (by
      have := cfr.2.1
      unfold Frame.has
      rw [List.any_eq_true]
      have hm : "temp" ∈ (w2.frames 0).cols.map Prod.fst := by rw [this]; simp [hw, orderWorld]
      obtain ⟨c, hc, e⟩ := List.mem_map.1 hm
      exact ⟨c, hc, by simp [e]⟩)
  refine ⟨w, opT, opH, rfl, rfl, by simp [hw, orderWorld], ?_, ?_, ?_⟩
  · intro s hs
    simp only [trace, t1, List.mem_cons, List.not_mem_nil, or_false] at hs
    rcases hs with rfl | rfl
    · exact a1
    · rw [← hw1, t2]; exact b.1
  · intro s hs
    simp only [trace, u1, List.mem_cons, List.not_mem_nil, or_false] at hs
    rcases hs with rfl | rfl
    · exact c1
    · rw [← hw2, t4]; exact d.1
  · intro he
    have e1 : ((w.run .modern [opT, opH]).frames 0).col? "hum" = ((w.run .modern [opH, opT]).frames 0).col? "hum" := by rw [he]
    simp only [run, t1, u1, ← hw1, ← hw2] at e1
    rw [t2, t4, b.2.1, d.2.2 "hum" (by decide), c2] at e1
    have e2 := congrArg (fun s : Option (Series (XF ℝ)) => s.map fun s => dayCells s (0 + (0 : Nat))) e1
    simp only [Option.map_some, Option.some.injEq] at e2
    rw [dayCells_hourlyS 0 _ (by decide), dayCells_hourlyS 0 _ (by decide)] at e2
    obtain ⟨t, ht, e3⟩ : ∃ t : ℝ, 0.53 < t ∧ sineMeanCell ((0 : Nat) : Int) (locRow 2 exMin exMax exTemp lo hi 0) = .fin t := by
      refine ⟨288 + (293 - 283) / 2 * Real.cos (2 * Real.pi / 24 * (((0 : Nat) - hi 0 : Int) : ℝ)), ?_, ?_⟩
      · have := Real.neg_one_le_cos (2 * Real.pi / 24 * (((0 : Nat) - hi 0 : Int) : ℝ))
        linarith
      · unfold sineMeanCell locRow
        simp only [show exMin 0 = .fin 283 from rfl, show exMax 0 = .fin 293 from rfl, show exTemp 0 = .fin 288 from rfl, XF.fin_sub_fin, XF.cos]
        rw [XF.fin_div_fin_of_ne _ two_ne_zero, XF.fin_mul_fin, XF.fin_add_fin]
    have e4 := congrArg (fun l => l[0]?) e2
    simp only [day24, List.getElem?_map, List.getElem?_range (show 0 < 24 by decide), Option.map_some, if_true, e3] at e4
    rw [show exMin 0 = .fin 283 from rfl, XF.fin_mul_fin, XF.fin_add_fin, rhCell_fin (by norm_num) ht] at e4
    unfold rhCell at e4
    rw [C06_vapor_pressure.2.1, C06_vapor_pressure.1.choose_spec.1 _ _ (by norm_num)] at e4
    simp [XF.clip] at e4

/-- C105: temperature and radiation cannot be exchanged on a station without sun times: even a failing radiation call provides them, and the sine methods
need them -/
theorem C105_radiation_provides_sun_times :
    ∃ w : World, ∃ op op' : Op, disaggTarget op = some (0, "temp") ∧ disaggTarget op' = some (0, "glob") ∧ (w.stations 0).sun = none ∧
      (w.step .modern op).2 = some .attributeError ∧ ((w.step .modern op').1.step .modern op).2 = none := by
  have sun : ∀ r ∈ getSunTimes exFrame.index 0 0 0, ¬ XF.lt r.2.daylength (.fin 3) := by
    intro r hr
    obtain ⟨t, ht, rfl⟩ := List.mem_map.1 hr
    obtain ⟨D, h1, _, _, _, _, _, h2, _⟩ := C08_daylength t 0 0 0 (by norm_num) (by norm_num)
    have h3 : (sunTimesDoy (doyOf t) 0 0 0).daylength = .fin D := by simpa [getSunTimes] using h1
    rw [h3, h2 rfl, XF.lt_fin]
    norm_num
  obtain ⟨out, hout⟩ := sine_ok .modern exDays (by decide) (.inr (.inl rfl)) false none (mmt := "fix") (md := none) (method := "sine_mean")
    (fun _ _ => ⟨7, 14, .inl ⟨rfl, rfl, rfl⟩⟩) (by decide) sun
  set w := orderWorld none with hw
  refine ⟨w, opT, opR, rfl, rfl, rfl, ?_, ?_⟩
  · have : calcValue .modern w opT = .error .attributeError := by
      have h := (((C52_options .modern exFrame false none none none).2 0 2 exMin exMax exTemp exDays (by decide)).1 "sine_mean" (by decide)).1 "fix" (by decide)
      unfold calcValue opT
      dsimp only
      show (do Except.ok (WindResult.series (← disaggregateTemperature .modern exFrame "sine_mean" "fix" false none none none))) = _
      rw [h]
      rfl
    rw [step_write .modern w (i := 0) (name := "temp") rfl (.inl (by decide)), this]
    rfl
  · have hc : w.calcSunTimes 0 = (w.setStation 0 { w.stations 0 with sun := some (getSunTimes exFrame.index 0 0 0) }, none) := rfl
    set w1 := w.setStation 0 { w.stations 0 with sun := some (getSunTimes exFrame.index 0 0 0) } with hw1
    have hst : w.step .modern opR = w1.radiationBody .modern 0 "none" none := by
      show w.radiation .modern 0 "none" none = _
      unfold radiation
      rw [if_pos (by rfl), hc]
    have hb : w1.radiationBody .modern 0 "none" none = w1.writeCol 0 "glob" (.error .valueError) := by
      unfold radiationBody
      congr 1
    rw [hst, hb]
    show (w1.step .modern opT).2 = none
    have hv : calcValue .modern w1 opT = .ok (.series out) := by
      unfold calcValue opT
      dsimp only
      show (do Except.ok (WindResult.series (← disaggregateTemperature .modern exFrame "sine_mean" "fix" false none none
        (some (getSunTimes exFrame.index 0 0 0))))) = _
      rw [hout]
      rfl
    rw [step_write .modern w1 (i := 0) (name := "temp") rfl (.inl (by decide)), hv]
    obtain ⟨locs, lo, hi, _, _, _, hform, _⟩ := sine_inv exDays (by decide) (.inr (.inl rfl)) hout
    refine (write_series (k := 0) (by simp [hw1, hw, orderWorld]) ?_ rfl).1
    rw [hform]
    show _ = Series.index (hourlyS 0 2 fun _ _ => (XF.nan : XF ℝ))
    rw [hourlyS_index, hourlyS_index]

/-- calls that meet the hypotheses of `C105_any_order` -/
example (rnd : Nat → Nat → ℝ) (draw : Nat → ℝ) :
    let ops := [opT, .wind 0 draw "equal", opH, .precipitation 0 rnd "equal" "uniform" 0 none, opR]
    let ops' := [.precipitation 0 rnd "equal" "uniform" 0 none, opR, opT, opH, .wind 0 draw "equal"]
    OncePerColumn 0 ops ∧ ops.Perm ops' ∧ TempFirst ops ∧ TempFirst ops' ∧ ((orderWorld (some exSun)).stations 0).sun ≠ none := by
  intro ops ops'
  refine ⟨⟨?_, ?_⟩, ?_, ?_, ?_, ?_⟩
  · simp [ops, opT, opH, opR, disaggTarget]
  · simp [ops, opT, opH, opR, disaggTarget, column]
  · have h : ∀ a b c d e : Op, [a, b, c, d, e].Perm [d, e, a, c, b] := by
      intro a b c d e
      have h1 : ([a, b, c] ++ [d, e]).Perm ([d, e] ++ [a, b, c]) := List.perm_append_comm
      exact h1.trans (List.Perm.append_left [d, e] (List.Perm.cons a (List.Perm.swap c b [])))
    exact h _ _ _ _ _
  · simp [ops, opT, opH, opR, TempFirst, disaggTarget, column]
  · simp [ops', opT, opH, opR, TempFirst, disaggTarget, column]
  · simp [orderWorld]

end

end World

end Melodist
