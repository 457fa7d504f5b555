import Verif.Props.OtherDatesB
import Verif.Props.PotRadiation
import Verif.Lemmas.Aggregate
import Verif.Lemmas.Sun
import Verif.Lemmas.Radiation
import Verif.Props.RadiationModels

/-!
# C125  Time zone and longitude
-/
set_option linter.unusedSectionVars false

namespace Melodist
open Spec
variable {K : Type}

/-- every value replaced by the value of the same day `s` hours later on the clock (after 23:00 comes 0:00 of the same day) -/
def Spec.turn (s : Int) (r : Series (XF ℝ)) : Series (XF ℝ) :=
  r.map fun q => (q.1, (r.at? (atHour (dayOf q.1) ((hourOf q.1 + s) % 24).toNat)).getD .nan)

/-! ## sums do not depend on the order -/

theorem XF.add_comm' [Field K] [LinearOrder K] (a b : XF K) : a + b = b + a := by
  cases a <;> cases b <;> first | rfl | (show XF.fin _ = XF.fin _; congr 1; ring)

theorem sumCells_perm [Field K] [LinearOrder K] [IsStrictOrderedRing K] {l l' : List (XF K)} (h : l.Perm l') : sumCells l = sumCells l' := by
  induction h with
  | nil => rfl
  | cons x _ ih => simp only [sumCells, ih]
  | swap x y l => simp only [sumCells]; rw [← XF.add_assoc', ← XF.add_assoc', XF.add_comm' x y]
  | trans _ _ h1 h2 => rw [h1, h2]

theorem sumSkip_perm [Field K] [LinearOrder K] [IsStrictOrderedRing K] {l l' : List (XF K)} (h : l.Perm l') : sumSkip l = sumSkip l' := sumCells_perm (h.filter _)

theorem meanSkip_perm [Field K] [LinearOrder K] [IsStrictOrderedRing K] {l l' : List (XF K)} (h : l.Perm l') : meanSkip l = meanSkip l' := by
  have hc : countValid l = countValid l' := (h.filter _).length_eq
  unfold meanSkip
  rw [hc, sumSkip_perm h]

/-! ## turning a day -/

/-- the hour `s` hours later -/
def turnHour (s : Int) (h : Nat) : Nat := (((h : Int) + s) % 24).toNat

theorem turnHour_lt (s : Int) (h : Nat) : turnHour s h < 24 := by unfold turnHour; omega

theorem turnHour_perm (s : Int) : ((List.range 24).map (turnHour s)).Perm (List.range 24) := by
  have hn : ((List.range 24).map (turnHour s)).Nodup := by
    refine List.Nodup.map_on ?_ List.nodup_range
    intro a ha b hb h
    have := List.mem_range.1 ha
    have := List.mem_range.1 hb
    unfold turnHour at h
    omega
  refine (List.perm_ext_iff_of_nodup hn List.nodup_range).2 fun x => ?_
  constructor
  · intro h
    obtain ⟨a, _, rfl⟩ := List.mem_map.1 h
    exact List.mem_range.2 (turnHour_lt s a)
  · intro h
    have := List.mem_range.1 h
    refine List.mem_map.2 ⟨turnHour (-s) x, List.mem_range.2 (turnHour_lt _ _), ?_⟩
    unfold turnHour
    omega

theorem mean_turn (s : Int) {p p' : Nat → XF ℝ} (h : ∀ h < 24, p h = p' (turnHour s h)) : meanSkip (day24 p) = meanSkip (day24 p') := by
  have e : day24 p = ((List.range 24).map (turnHour s)).map p' := by
    unfold day24
    rw [List.map_map]
    apply List.map_congr_left
    intro x hx
    exact h x (List.mem_range.1 hx)
  rw [e]
  exact meanSkip_perm ((turnHour_perm s).map p')

theorem turn_hourlyS (s : Int) (d0 : Int) (n : Nat) (f : Nat → Nat → XF ℝ) : turn s (hourlyS d0 n f) = hourlyS d0 n fun i h => f i (turnHour s h) := by
  unfold turn
  conv_rhs => unfold hourlyS
  have e : hourlyS d0 n f = (List.range (24 * n)).map fun k : Nat => (atHour (d0 + (k / 24 : Nat)) (k % 24), f (k / 24) (k % 24)) := rfl
  conv_lhs => rw [show (List.map _ (hourlyS d0 n f) : List (Time × XF ℝ)) = List.map _ ((List.range (24 * n)).map fun k : Nat => (atHour (d0 + (k / 24 : Nat)) (k % 24), f (k / 24) (k % 24))) from rfl]
  rw [List.map_map]
  apply List.map_congr_left
  intro k hk
  have hk := List.mem_range.1 hk
  simp only [Function.comp_def]
  have hd : dayOf (atHour (d0 + (k / 24 : Nat)) (k % 24)) = d0 + (k / 24 : Nat) := by unfold dayOf atHour; omega
  have hh : hourOf (atHour (d0 + (k / 24 : Nat)) (k % 24)) = (k % 24 : Nat) := by unfold hourOf atHour; omega
  rw [hd, hh, show (((k % 24 : Nat) : Int) + s) % 24 = ((turnHour s (k % 24) : Nat) : Int) by unfold turnHour; omega]
  rw [Int.toNat_natCast, hourlyS_at? d0 f (by omega) (turnHour_lt _ _)]
  rfl

theorem core_turn (s : Int) (d0 : Int) {n : Nat} (hn : 0 < n) (v : Nat → XF ℝ) (d1 : Int) {m : Nat} {p p' : Nat → Nat → XF ℝ}
    (h : ∀ j < m, ∀ h < 24, p j h = p' j (turnHour s h)) :
    radiationCore (hourlyS d1 m p) (dailyS d0 n v) = (radiationCore (hourlyS d1 m p') (dailyS d0 n v)).map (turn s) := by
  rw [radiationCore_eq d0 hn, radiationCore_eq d0 hn]
  simp only [Except.map]
  rw [turn_hourlyS]
  congr 1
  unfold hourlyS
  apply List.map_congr_left
  intro k hk
  have hk := List.mem_range.1 hk
  have hj : k / 24 < m := by omega
  dsimp only
  rw [h _ hj _ (by omega), mean_turn s (h _ hj)]

theorem bind_post {A B : Type} {x : Py A} {f : A → Py B} {f' : A → Py B} {g : B → B} (hf : ∀ a, x = .ok a → f' a = (f a).map g) :
    (x >>= f') = (x >>= f).map g := by
  cases x with
  | error e => rfl
  | ok a => exact hf a rfl

theorem pot_turn (s : Int) {d1 : Int} {m : Nat} {p p' : Nat → Nat → XF ℝ} (h : ∀ j < m, ∀ h < 24, p j h = p' j (turnHour s h)) :
    Series.resampleD meanSkip (hourlyS d1 m p) = Series.resampleD meanSkip (hourlyS d1 m p') := by
  rw [resampleD_hourlyS, resampleD_hourlyS]
  unfold dailyS
  apply List.map_congr_left
  intro j hj
  dsimp only
  rw [mean_turn s (h j (List.mem_range.1 hj))]

/-- day lengths only -/
theorem ssd_daylength (daily : Frame ℝ) {sun sun' : Series SunTimes} (hs : sun.map (fun r => (r.1, r.2.daylength)) = sun'.map fun r => (r.1, r.2.daylength))
    (pot : Series (XF ℝ)) (par : ParPair ℝ) : ssdDaily daily (some sun) pot par = ssdDaily daily (some sun') pot par := by
  have hd : ∀ l : Series SunTimes, Series.index (l.filter fun r => decide (XF.lt (.fin 0) r.2.daylength)) =
      ((l.map fun r => (r.1, r.2.daylength)).filter fun q : Time × XF ℝ => decide (XF.lt (.fin 0) q.2)).map Prod.fst := by
    intro l
    rw [List.filter_map, List.map_map]; rfl
  unfold ssdDaily
  dsimp only
  rw [hd sun, hd sun', hs]

theorem mapM_len {A B : Type} {f : A → Py B} : ∀ {l : List A} {r : List B}, l.mapM f = .ok r → r.length = l.length := by
  intro l
  induction l with
  | nil => intro r h; cases h; rfl
  | cons a l ih =>
    intro r h
    rw [List.mapM_cons] at h
    obtain ⟨b, _, h⟩ := py_bind_inv h
    obtain ⟨bs, hb, h⟩ := py_bind_inv h
    cases h
    simp [ih hb]

theorem parValues_len {par : ParPair ℝ} {months : List Int} {r : List (XF ℝ × XF ℝ)} (h : par.values months = .ok r) : r.length = months.length := by
  unfold ParPair.values at h
  cases par with
  | scalar a b => cases h; simp
  | monthly a b =>
    obtain ⟨x, hx, h⟩ := py_bind_inv h
    obtain ⟨y, hy, h⟩ := py_bind_inv h
    cases h
    unfold monthValues at hx hy
    simp [mapM_len hx, mapM_len hy]

theorem bc_index {tmin tmax pot r : Series (XF ℝ)} {par : ParPair ℝ} (h : bristowCampbell tmin tmax pot par = .ok r) : r.index = tmin.index := by
  unfold bristowCampbell at h
  split at h
  · cases h
  split at h
  · obtain ⟨t1, _, h⟩ := py_bind_inv h
    obtain ⟨t2, _, h⟩ := py_bind_inv h
    obtain ⟨temp, ht, h⟩ := py_bind_inv h
    obtain ⟨pt, hpt, h⟩ := py_bind_inv h
    obtain ⟨pv, hpv, h⟩ := py_bind_inv h
    have hi := locAll_index ht
    have hl1 := parValues_len hpv
    have hl2 : pt.length = tmin.index.length := mapM_len hpt
    have hl3 : temp.length = tmin.index.length := mapM_len ht
    cases h
    rw [List.length_map] at hl1
    conv_rhs => rw [← hi]
    unfold Series.index
    rw [List.map_map]
    have hz : (List.map (fun r => (r.1, r.2.2.1 - (r.2.1 + r.2.2.2) / XF.fin 2)) temp).length ≤ (pv.zip pt).length := by
      rw [List.length_map, List.length_zip]; omega
    have := congrArg (List.map Prod.fst) (List.map_fst_zip hz)
    rw [List.map_map, List.map_map] at this
    exact this
  · cases h

theorem ssd_index {daily : Frame ℝ} {sun : Option (Series SunTimes)} {pot r : Series (XF ℝ)} {par : ParPair ℝ} (h : ssdDaily daily sun pot par = .ok r) :
    r.index = daily.index := by
  unfold ssdDaily at h
  cases sun with
  | none => cases h
  | some sun =>
    obtain ⟨_, _, h⟩ := py_bind_inv h
    obtain ⟨_, _, h⟩ := py_bind_inv h
    obtain ⟨_, _, h⟩ := py_bind_inv h
    obtain ⟨_, _, h⟩ := py_bind_inv h
    obtain ⟨_, _, h⟩ := py_bind_inv h
    cases h
    unfold Series.index
    rw [List.map_map]
    exact List.map_id _

theorem daily_of_index {s : Series (XF ℝ)} {idx : List Time} {d0 : Int} {n : Nat} (h : s.index = idx) (hc : Spec.Covers idx d0 n) : ∃ v, s = dailyS d0 n v := by
  refine dailyS_eq_of_index (f := fun _ => ()) ?_
  rw [h, hc, dailyS_index]

theorem attr_daily {daily : Frame ℝ} {d0 : Int} {n : Nat} (hwf : daily.WF) (hc : Spec.Covers daily.index d0 n) {name : String} {s : Series (XF ℝ)}
    (h : daily.attr name = .ok s) : ∃ v, s = dailyS d0 n v := by
  unfold Frame.attr at h
  cases hcol : daily.col? name with
  | none => rw [hcol] at h; cases h
  | some s' =>
    rw [hcol] at h; cases h
    exact covers_col hwf hc hcol

/-- the radiation methods that use the potential radiation -/
theorem radiation_turn (api : PandasApi) {daily : Frame ℝ} {d0 : Int} {n : Nat} (hn : 0 < n) (hwf : daily.WF) (hc : Spec.Covers daily.index d0 n)
    {sun sun' : Series SunTimes} (hs : sun.map (fun r => (r.1, r.2.daylength)) = sun'.map fun r => (r.1, r.2.daylength)) (d1 : Int) (m : Nat)
    {p p' : Nat → Nat → XF ℝ} (s : Int) (h : ∀ j < m, ∀ h < 24, p j h = p' j (turnHour s h)) {method : String} (hm : method ≠ "mean_course")
    (angstr bristcamp : ParPair ℝ) (course : Option (MeanCourse ℝ)) :
    disaggregateRadiation api daily (some sun) (some (hourlyS d1 m p)) method angstr bristcamp course =
      (disaggregateRadiation api daily (some sun') (some (hourlyS d1 m p')) method angstr bristcamp course).map (turn s) := by
  unfold disaggregateRadiation
  split
  · rfl
  refine bind_post fun index _ => ?_
  simp only [if_neg hm]
  split
  · refine bind_post fun g hg => ?_
    obtain ⟨v, rfl⟩ := attr_daily hwf hc hg
    exact core_turn s d0 hn v d1 h
  · rw [pot_turn s h, ssd_daylength daily hs]
    split
    · refine bind_post fun g hg => ?_
      obtain ⟨v, rfl⟩ := daily_of_index (ssd_index hg) hc
      exact core_turn s d0 hn v d1 h
    · refine bind_post fun tmin ht => ?_
      refine bind_post fun tmax _ => ?_
      refine bind_post fun g hg => ?_
      obtain ⟨w, rfl⟩ := attr_daily hwf hc ht
      obtain ⟨v, rfl⟩ := daily_of_index (d0 := d0) (n := n) (bc_index hg) (dailyS_index d0 n w)
      exact core_turn s d0 hn v d1 h

/-! ## the sun -/

theorem hourAngle_turn (h : Nat) (mi : Int) (lon tz : ℝ) (s : Int) :
    ∃ q : ℤ, hourAngle (turnHour s h : Nat) mi lon (tz + s) = hourAngle h mi lon tz - q * (2 * Real.pi) := by
  refine ⟨((h : Int) + s) / 24, ?_⟩
  have e : ((turnHour s h : Nat) : Int) = (h : Int) + s - 24 * (((h : Int) + s) / 24) := by unfold turnHour; omega
  unfold hourAngle
  rw [e]
  push_cast
  ring

theorem potRad_turn (doy : Int) (h : Nat) (mi : Int) (lon lat tz slope azimuth cloud : ℝ) (s : Int) :
    potRadCell doy (turnHour s h : Nat) mi lon lat (tz + s) slope azimuth cloud = potRadCell doy h mi lon lat tz slope azimuth cloud := by
  obtain ⟨q, hq⟩ := hourAngle_turn h mi lon tz s
  have h1 : Real.cos (hourAngle (turnHour s h : Nat) mi lon (tz + s)) = Real.cos (hourAngle h mi lon tz) := by
    rw [hq, Real.cos_sub_int_mul_two_pi]
  have h2 : Real.sin (hourAngle (turnHour s h : Nat) mi lon (tz + s)) = Real.sin (hourAngle h mi lon tz) := by
    rw [hq, Real.sin_sub_int_mul_two_pi]
  simp only [potRadCell, cosZenithRaw, h1, h2]

/-- the hours of `n` days -/
abbrev Spec.hoursFor (d0 : Int) (n : Nat) : List Time := Series.index (hourlyS d0 n fun _ _ => ())

theorem potential_hourly (d0 : Int) (n : Nat) (lon lat tz slope azimuth cloud : ℝ) :
    potentialRadiation (hoursFor d0 n) lon lat tz slope azimuth cloud = hourlyS d0 n fun i h =>
      (potRadCell (doyOf (at00 (d0 + (i : Nat)))) h 0 lon lat tz slope azimuth cloud).1 + (potRadCell (doyOf (at00 (d0 + (i : Nat)))) h 0 lon lat tz slope azimuth cloud).2 := by
  unfold potentialRadiation potentialRadiationSplit hoursFor
  rw [hourlyS_index_atHour, List.map_map, List.map_map]
  unfold hourlyS
  apply List.map_congr_left
  intro k _
  have hd : dayOf (atHour (d0 + (k / 24 : Nat)) (k % 24)) = d0 + (k / 24 : Nat) := by unfold dayOf atHour; omega
  have hh : hourOf (atHour (d0 + (k / 24 : Nat)) (k % 24)) = (k % 24 : Nat) := by unfold hourOf atHour; omega
  have hmi : minuteOf (atHour (d0 + (k / 24 : Nat)) (k % 24)) = 0 := by unfold minuteOf atHour; omega
  have hdoy : doyOf (atHour (d0 + (k / 24 : Nat)) (k % 24)) = doyOf (at00 (d0 + (k / 24 : Nat))) := by
    rw [← doyOf_day, hd]
  simp only [Function.comp_def, hh, hmi, hdoy]

/-- **C125 (potential radiation).** With the time zone `s` hours further east every day has the same potential radiation, `s` hours later on the clock;
hours beyond midnight come out at the other end of the same day. -/
theorem C125_potential_radiation (d0 : Int) (n : Nat) (lon lat tz slope azimuth cloud : ℝ) (s : Int) :
    potentialRadiation (hoursFor d0 n) lon lat tz slope azimuth cloud = turn s (potentialRadiation (hoursFor d0 n) lon lat (tz + s) slope azimuth cloud) := by
  rw [potential_hourly, potential_hourly, turn_hourlyS]
  simp only [potRad_turn]

theorem daylength_zone (dates : List Time) (lon lat tz lon' tz' : ℝ) :
    (getSunTimes dates lon lat tz).map (fun r => (r.1, r.2.daylength)) = (getSunTimes dates lon' lat tz').map fun r => (r.1, r.2.daylength) := by
  unfold getSunTimes
  rw [List.map_map, List.map_map]
  apply List.map_congr_left
  intro t _
  simp only [Function.comp_def, sunTimesDoy_eq]

/-- **C125 (radiation).** Disaggregated radiation with the time zone `s` hours further east: the same hourly values, `s` hours later on the clock of the
same day; the same exception if the call raises. -/
theorem C125_radiation (api : PandasApi) {daily : Frame ℝ} {d0 : Int} {n : Nat} (hn : 0 < n) (hwf : daily.WF) (hc : Spec.Covers daily.index d0 n)
    (lon lat tz slope azimuth cloud : ℝ) (s : Int) {method : String} (hm : method ≠ "mean_course") (angstr bristcamp : ParPair ℝ) (course : Option (MeanCourse ℝ)) :
    disaggregateRadiation api daily (some (getSunTimes daily.index lon lat tz)) (some (potentialRadiation (hoursFor d0 n) lon lat tz slope azimuth cloud)) method
        angstr bristcamp course =
      (disaggregateRadiation api daily (some (getSunTimes daily.index lon lat (tz + s))) (some (potentialRadiation (hoursFor d0 n) lon lat (tz + s) slope azimuth cloud))
        method angstr bristcamp course).map (turn s) := by
  rw [potential_hourly, potential_hourly]
  exact radiation_turn api hn hwf hc (daylength_zone _ _ _ _ _ _) d0 n s (fun j _ h _ => by simp only [potRad_turn]) hm angstr bristcamp course

/-- **C125 (sun times).** With the time zone `x` hours further east solar noon is reported `x` hours later and day lengths stay the same; sunrise and sunset
are `x` hours later up to whole days. -/
theorem C125_sun_times (t : Time) (lon lat tz x : ℝ) :
    ∃ rise noon set D rise' set' : ℝ, getSunTimes [t] lon lat tz = [(t, ⟨.fin rise, .fin noon, .fin set, .fin D⟩)] ∧
      getSunTimes [t] lon lat (tz + x) = [(t, ⟨.fin rise', .fin (noon + x), .fin set', .fin D⟩)] ∧
      (rise' = rise + x ∨ rise' = rise + x + 24 ∨ rise' = rise + x - 24) ∧ (set' = set + x ∨ set' = set + x + 24 ∨ set' = set + x - 24) := by
  have hn : noonAt (doyOf t) lon (tz + x) = noonAt (doyOf t) lon tz + x := by unfold noonAt; ring
  have h1 : getSunTimes [t] lon lat tz = [(t, sunTimesDoy (doyOf t) lon lat tz)] := rfl
  have h2 : getSunTimes [t] lon lat (tz + x) = [(t, sunTimesDoy (doyOf t) lon lat (tz + x))] := rfl
  rw [h1, h2, sunTimesDoy_eq, sunTimesDoy_eq, hn]
  refine ⟨_, _, _, _, _, _, rfl, rfl, ?_, ?_⟩
  · split <;> split <;> first | (left; ring1) | (right; left; ring1) | (right; right; ring1)
  · split <;> split <;> first | (left; ring1) | (right; left; ring1) | (right; right; ring1)

/-- **C125 (site and clock together).** Only the difference between longitude and 15 times the time zone matters: further east by 15 degrees per hour of the time
zone nothing changes. -/
theorem C125_same_clock (dates : List Time) (lon lat tz slope azimuth cloud x : ℝ) :
    getSunTimes dates (lon + 15 * x) lat (tz + x) = getSunTimes dates lon lat tz ∧
    potentialRadiation dates (lon + 15 * x) lat (tz + x) slope azimuth cloud = potentialRadiation dates lon lat tz slope azimuth cloud := by
  constructor
  · unfold getSunTimes
    apply List.map_congr_left
    intro t _
    rw [sunTimesDoy_eq, sunTimesDoy_eq, show noonAt (doyOf t) (lon + 15 * x) (tz + x) = noonAt (doyOf t) lon tz by unfold noonAt; ring]
  · unfold potentialRadiation potentialRadiationSplit
    rw [List.map_map, List.map_map]
    apply List.map_congr_left
    intro t _
    have : hourAngle (hourOf t) (minuteOf t) (lon + 15 * x) (tz + x) = hourAngle (hourOf t) (minuteOf t) lon tz := by
      unfold hourAngle; ring
    simp only [Function.comp_def]
    unfold potRadCell
    rw [this]

/-- **C125 (longitudes from 0 to 360).** A longitude given 360 degrees larger leaves the potential radiation as it is, but solar noon is reported 24 hours
earlier. -/
theorem C125_longitude_360 (dates : List Time) (lon lat tz slope azimuth cloud : ℝ) :
    potentialRadiation dates (lon + 360) lat tz slope azimuth cloud = potentialRadiation dates lon lat tz slope azimuth cloud ∧
    (getSunTimes dates (lon + 360) lat tz).map (fun r => r.2.sunnoon) = (getSunTimes dates lon lat tz).map (fun r => r.2.sunnoon - .fin 24) := by
  constructor
  · unfold potentialRadiation potentialRadiationSplit
    rw [List.map_map, List.map_map]
    apply List.map_congr_left
    intro t _
    have e : hourAngle (hourOf t) (minuteOf t) (lon + 360) tz = hourAngle (hourOf t) (minuteOf t) lon tz + 2 * Real.pi := by
      unfold hourAngle; ring
    have h1 : Real.cos (hourAngle (hourOf t) (minuteOf t) (lon + 360) tz) = Real.cos (hourAngle (hourOf t) (minuteOf t) lon tz) := by
      rw [e, Real.cos_add_two_pi]
    have h2 : Real.sin (hourAngle (hourOf t) (minuteOf t) (lon + 360) tz) = Real.sin (hourAngle (hourOf t) (minuteOf t) lon tz) := by
      rw [e, Real.sin_add_two_pi]
    simp only [Function.comp_def]
    simp only [potRadCell, cosZenithRaw, h1, h2]
  · unfold getSunTimes
    rw [List.map_map, List.map_map]
    apply List.map_congr_left
    intro t _
    simp only [Function.comp_def, sunTimesDoy_eq]
    show XF.fin _ = XF.fin _
    congr 1
    unfold noonAt
    ring

/-! ## concrete cases -/

/-- two days of measured radiation in central Europe, computed in winter time and in summer time: the summer time run has the value of 11:00 at 12:00 -/
example : ∃ out : Series (XF ℝ), disaggregateRadiation .modern exRad (some (getSunTimes exRad.index 11 47 (1 + (1 : Int))))
      (some (potentialRadiation (hoursFor 0 2) 11 47 (1 + (1 : Int)) 0 0 0)) "pot_rad" = .ok out ∧
    disaggregateRadiation .modern exRad (some (getSunTimes exRad.index 11 47 1)) (some (potentialRadiation (hoursFor 0 2) 11 47 1 0 0 0)) "pot_rad" = .ok (turn 1 out) ∧
    Series.at? (turn 1 out) (atHour 1 11) = out.at? (atHour 1 12) ∧ Series.at? (turn 1 out) (atHour 1 23) = out.at? (atHour 1 0) := by
  have hv : exRad.col? "glob" = some (dailyS 0 2 fun i => if i = 0 then .fin 100 else .fin 50) := rfl
  have hwf : exRad.WF := by
    intro c hc
    simp only [exRad, List.mem_cons, List.not_mem_nil, or_false] at hc
    rcases hc with rfl | rfl | rfl | rfl <;> rfl
  have h := C125_radiation .modern (by decide) hwf (d0 := 0) (n := 2) rfl 11 47 1 0 0 0 1 (method := "pot_rad") (by decide) (.scalar (.fin 0.25) (.fin 0.5))
    (.scalar (.fin 0.75) (.fin 2.4)) none
  have hr : ∃ f, disaggregateRadiation .modern exRad (some (getSunTimes exRad.index 11 47 (1 + (1 : Int))))
      (some (potentialRadiation (hoursFor 0 2) 11 47 (1 + (1 : Int)) 0 0 0)) "pot_rad" = .ok (hourlyS 0 2 f) := by
    rw [potential_hourly, potRad_eq .modern rfl (by decide) hv]
    exact ⟨_, rfl⟩
  obtain ⟨f, hf⟩ := hr
  refine ⟨hourlyS 0 2 f, hf, ?_, ?_, ?_⟩
  · rw [h, hf]; rfl
  · rw [turn_hourlyS]
    have a := hourlyS_at? 0 (fun i h => f i (turnHour 1 h)) (n := 2) (i := 1) (h := 11) (by decide) (by decide)
    have b := hourlyS_at? 0 f (n := 2) (i := 1) (h := 12) (by decide) (by decide)
    exact a.trans b.symm
  · rw [turn_hourlyS]
    have a := hourlyS_at? 0 (fun i h => f i (turnHour 1 h)) (n := 2) (i := 1) (h := 23) (by decide) (by decide)
    have b := hourlyS_at? 0 f (n := 2) (i := 1) (h := 0) (by decide) (by decide)
    exact a.trans b.symm

/-- New York's longitude given as -74 or as 286 -/
example (dates : List Time) : potentialRadiation dates (-74 + 360) 41 (-5) 0 0 0 = potentialRadiation dates (-74) 41 (-5) 0 0 0 :=
  (C125_longitude_360 dates (-74) 41 (-5) 0 0 0).1

end Melodist
