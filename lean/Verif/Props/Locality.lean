import Verif.Lemmas.Locality
import Verif.Props.TemperatureB

/-!
# C100: what a day's hourly temperatures depend on
-/

set_option linter.unusedSectionVars false

namespace Melodist
open Spec

/-- **C100** (temperature) Two daily tables, possibly of different periods, the same options, both runs successful, a common day `D` with the same sun
times.  If the tables agree on `D` and on the days before and after it (present in both or in neither), the 24 temperatures of `D` are the
same; for 'sine_mean' and the two mean-course methods agreement on `D` is enough. -/
theorem C100_temperature {f g : Frame ℝ} (hf : f.WF) (hg : g.WF) {d0 d0' : Int} {n n' : Nat} (cf : Covers f.index d0 n) (cg : Covers g.index d0' n')
    {D : Int} (h1 : InPeriod d0 n D) (h2 : InPeriod d0' n' D) {api api' : PandasApi} {method mmt : String} {modNight : Bool}
    {md : Option (List (Int × XF ℝ))} {course : Option (MeanCourse ℝ)} {sun sun' : Option (Series SunTimes)} {out out' : Series (XF ℝ)}
    (hsun : ∀ s s', sun = some s → sun' = some s' → s.at? (at00 D) = s'.at? (at00 D))
    (ho : disaggregateTemperature api f method mmt modNight md course sun = .ok out)
    (ho' : disaggregateTemperature api' g method mmt modNight md course sun' = .ok out')
    (hD : SameOn f g D) (hn : method = "sine" ∨ method = "sine_min_max" → SameOn f g (D - 1) ∧ SameOn f g (D + 1)) :
    dayCells out D = dayCells out' D := by
  obtain ⟨i, hi, rfl⟩ := inPeriod_iff.1 h1
  obtain ⟨i', hi', e⟩ := inPeriod_iff.1 h2
  by_cases hm : method = "sine_min_max" ∨ method = "sine_mean" ∨ method = "sine"
  · obtain ⟨s, tmin, tmax, temp, lo, hi2, rfl, td, hl, rfl⟩ := sine_run hf cf (by omega) hm ho
    obtain ⟨s', tmin', tmax', temp', lo', hi2', rfl, td', hl', rfl⟩ := sine_run hg cg (by omega) hm ho'
    rw [same_hours hi hi' e]
    intro h _
    have el := hl i hi
    rw [hsun s s' rfl rfl] at el
    have el' := hl' i' hi'
    rw [← e] at el'
    have eq1 : lo i = lo' i' := Except.ok.inj (el.1.symm.trans el'.1)
    have eq2 : hi2 i = hi2' i' := Except.ok.inj (el.2.symm.trans el'.2)
    have c1 := same_cell td.hmin td'.hmin hi hi' e (hD _)
    have c2 := same_cell td.hmax td'.hmax hi hi' e (hD _)
    have c3 := same_cell td.htemp td'.htemp hi hi' e (hD _)
    by_cases hmean : method = "sine_mean"
    · rw [if_pos hmean, if_pos hmean]
      unfold sineMeanCell locRow
      simp only [c1, c2, c3, eq2]
    · rw [if_neg hmean, if_neg hmean]
      obtain ⟨n1, n2⟩ := hn (by tauto)
      have c4 := same_prev td.hmax td'.hmax hi hi' e (hD _) (n1 _)
      have c5 := (same_next td.hmin td'.hmin hi hi' e (hD _) (n2 _)).2
      unfold sineCell minValAt maxValAt locRow
      simp only [c1, c2, c4, c5, eq1, eq2]
  · have hm' : method = "mean_course_min_max" ∨ method = "mean_course_mean" := by
      by_contra hx
      unfold disaggregateTemperature at ho
      rw [if_pos (by tauto)] at ho
      cases ho
    obtain ⟨c, tmin, tmax, rfl, t1, t2, q⟩ := course_run hf cf (by omega) hm' ho
    obtain ⟨c', tmin', tmax', ec, t1', t2', q'⟩ := course_run hg cg (by omega) hm' ho'
    cases ec
    have c1 := same_cell t1 t1' hi hi' e (hD _)
    have c2 := same_cell t2 t2' hi hi' e (hD _)
    rcases q with ⟨rfl, rfl⟩ | ⟨rfl, temp, t3, rfl⟩
    · rcases q' with ⟨_, rfl⟩ | ⟨e', _⟩
      · rw [same_hours hi hi' e]
        intro h _
        simp only [c1, c2, e]
      · exact absurd e' (by decide)
    · rcases q' with ⟨e', _⟩ | ⟨_, temp', t3', rfl⟩
      · exact absurd e' (by decide)
      · have c3 := same_cell t3 t3' hi hi' e (hD _)
        rw [same_hours hi hi' e]
        intro h _
        simp only [c1, c2, c3, e]

/-- **C100** (temperature, sine methods, parts of the day) With agreement on `D` only, the temperatures from the hour of the minimum to the hour before the
maximum are the same; agreement also on the following day extends this to the end of the day, agreement on the preceding day to its
beginning. -/
theorem C100_sine_parts {f g : Frame ℝ} (hf : f.WF) (hg : g.WF) {d0 d0' : Int} {n n' : Nat} (cf : Covers f.index d0 n) (cg : Covers g.index d0' n')
    {D : Int} (h1 : InPeriod d0 n D) (h2 : InPeriod d0' n' D) {api api' : PandasApi} {method mmt : String} (hm : method = "sine" ∨ method = "sine_min_max")
    {modNight : Bool} {md : Option (List (Int × XF ℝ))} {course : Option (MeanCourse ℝ)} {sun sun' : Series SunTimes} {out out' : Series (XF ℝ)}
    (hsun : sun.at? (at00 D) = sun'.at? (at00 D)) (ho : disaggregateTemperature api f method mmt modNight md course (some sun) = .ok out)
    (ho' : disaggregateTemperature api' g method mmt modNight md course (some sun') = .ok out') (hD : SameOn f g D)
    {lo hi : Int} (hloc : IsLoc mmt md sun (at00 D) lo hi) {h : Nat} (hh : h < 24) (hlo : (h : Int) < lo → SameOn f g (D - 1))
    (hhi : hi ≤ h → SameOn f g (D + 1)) : (dayCells out D)[h]? = (dayCells out' D)[h]? := by
  obtain ⟨i, hi1, rfl⟩ := inPeriod_iff.1 h1
  obtain ⟨i', hi', e⟩ := inPeriod_iff.1 h2
  have hm3 : method = "sine_min_max" ∨ method = "sine_mean" ∨ method = "sine" := by tauto
  have hne : method ≠ "sine_mean" := by rcases hm with rfl | rfl <;> decide
  obtain ⟨s, tmin, tmax, temp, _, _, es, td, _, _⟩ := sine_run hf cf (by omega) hm3 ho
  obtain ⟨s', tmin', tmax', temp', _, _, es', td', _, _⟩ := sine_run hg cg (by omega) hm3 ho'
  have hloc' : IsLoc mmt md sun' (at00 (d0' + i')) lo hi := by
    rw [← e]
    unfold IsLoc at hloc ⊢
    rw [← hsun]
    exact hloc
  rw [sine_day td hm3 ho hi1 hloc, e, sine_day td' hm3 ho' hi' hloc', day24_getElem? _ hh, day24_getElem? _ hh, if_neg hne, if_neg hne]
  have c1 := same_cell td.hmin td'.hmin hi1 hi' e (hD _)
  have c2 := same_cell td.hmax td'.hmax hi1 hi' e (hD _)
  have m1 : minValAt h (locRow n tmin tmax temp (fun _ => lo) (fun _ => hi) i) = minValAt h (locRow n' tmin' tmax' temp' (fun _ => lo) (fun _ => hi) i') := by
    unfold minValAt locRow
    dsimp only
    by_cases hx : (h : Int) < hi
    · rw [if_pos hx, if_pos hx, c1]
    · rw [if_neg hx, if_neg hx]
      exact (same_next td.hmin td'.hmin hi1 hi' e (hD _) (hhi (by omega) _)).2
  have m2 : maxValAt h (locRow n tmin tmax temp (fun _ => lo) (fun _ => hi) i) = maxValAt h (locRow n' tmin' tmax' temp' (fun _ => lo) (fun _ => hi) i') := by
    unfold maxValAt locRow
    dsimp only
    by_cases hx : (h : Int) < lo
    · rw [if_pos hx, if_pos hx]
      exact same_prev td.hmax td'.hmax hi1 hi' e (hD _) (hlo hx _)
    · rw [if_neg hx, if_neg hx, c2]
  unfold sineCell
  rw [m1, m2]
  rfl

/-! ## a concrete case -/

noncomputable section

/-- the two days of `exFrame` and a third day -/
def exFrame3 : Frame ℝ :=
  ⟨[at00 0, at00 1, at00 2], [("tmin", [.fin 283, .fin 273, .fin 250]), ("tmax", [.fin 293, .fin 303, .fin 290]), ("temp", [.fin 288, .fin 288, .fin 270])]⟩

def exSun3 : Series SunTimes := dailyS 0 3 fun _ => ⟨.fin 5.5, .fin 12.1, .fin 18.7, .fin 13.2⟩

theorem exOk3 {method : String} (hm : method = "sine_min_max" ∨ method = "sine_mean" ∨ method = "sine") (modNight : Bool) :
    ∃ out, disaggregateTemperature .modern exFrame3 method "fix" modNight none none (some exSun3) = .ok out :=
  sine_ok (d0 := 0) (n := 3) (tmin := fun i => if i = 0 then .fin 283 else if i = 1 then .fin 273 else .fin 250)
    (tmax := fun i => if i = 0 then .fin 293 else if i = 1 then .fin 303 else .fin 290)
    (temp := fun i => if i = 0 then .fin 288 else if i = 1 then .fin 288 else .fin 270) .modern ⟨rfl, rfl, rfl, rfl⟩
    (by decide) hm modNight none (fun _ _ => ⟨7, 14, .inl ⟨rfl, rfl, rfl⟩⟩) (by decide) (by
      intro r hr
      obtain ⟨i, _, rfl⟩ := List.mem_map.1 hr
      simp only [XF.lt_fin]
      norm_num)

theorem exSame (D : Int) (h : D ≠ 2) : SameOn exFrame exFrame3 D := by
  have h2 : at00 2 ≠ at00 D := by unfold at00; omega
  intro name
  unfold cellOn Frame.col? exFrame exFrame3
  by_cases a : "tmin" = name
  · subst a; simp [Series.at?, List.find?_cons, h2]
  by_cases b : "tmax" = name
  · subst b; simp [Series.at?, List.find?_cons, h2]
  by_cases c : "temp" = name
  · subst c; simp [Series.at?, List.find?_cons, h2]
  simp [a, b, c]

theorem exWF : exFrame.WF ∧ exFrame3.WF := by
  constructor <;> (intro c hc; simp [exFrame, exFrame3] at hc ⊢; rcases hc with rfl | rfl | rfl <;> rfl)

/-- C100: adding a third day does not change the first; of the second, the hours before 14:00 keep their values -/
example : ∃ out out', disaggregateTemperature .modern exFrame "sine" "fix" false none none (some exSun) = .ok out ∧
    disaggregateTemperature .modern exFrame3 "sine" "fix" false none none (some exSun3) = .ok out' ∧ dayCells out 0 = dayCells out' 0 ∧
    ∀ h : Nat, h < 14 → (dayCells out 1)[h]? = (dayCells out' 1)[h]? := by
  obtain ⟨out, ho⟩ := exOk (.inr (.inr rfl)) false
  obtain ⟨out', ho'⟩ := exOk3 (.inr (.inr rfl)) false
  refine ⟨out, out', ho, ho', ?_, ?_⟩
  · refine C100_temperature (d0 := 0) (d0' := 0) (n := 2) (n' := 3) exWF.1 exWF.2 rfl rfl (by unfold InPeriod; omega) (by unfold InPeriod; omega) ?_ ho ho'
      (exSame 0 (by omega)) fun _ => ⟨exSame _ (by omega), exSame _ (by omega)⟩
    intro s s' hs hs'
    cases hs; cases hs'
    rfl
  · intro h hh
    exact C100_sine_parts (sun := exSun) (sun' := exSun3) (d0 := 0) (d0' := 0) (n := 2) (n' := 3) exWF.1 exWF.2 rfl rfl (by unfold InPeriod; omega) (by unfold InPeriod; omega) (.inl rfl) rfl
      ho ho' (exSame 1 (by omega)) (lo := 7) (hi := 14) (.inl ⟨rfl, rfl, rfl⟩) (by omega) (fun _ => exSame _ (by omega)) (fun h => by omega)

end

end Melodist
