import Verif.Lemmas.StationWiring
import Verif.Props.Wind
import Verif.Props.Humidity
import Verif.Props.Temperature
import Verif.Props.TemperatureC
import Verif.Props.Radiation
import Verif.Props.RadiationModels
import Verif.Props.Master

/-!
# C84: a station method stores what the module function returns for the station's own data
-/

set_option linter.unusedSectionVars false

namespace Melodist
open Spec

namespace World

variable {api : PandasApi} {w : World} {i : Nat} {f : Frame ℝ} {k : Nat} {d0 : Int} {n : Nat}

/-- `out` is the outcome of computing `r` and storing it in column `name` of frame `k`: an exception is passed on and leaves the heap as it was; a returned
series is found in the column hour by hour (missing at hours the series does not have) -/
def Stores (w : World) (out : Out) (k : Nat) (d0 : Int) (n : Nat) (name : String) (r : Py (Series (XF ℝ))) : Prop :=
  (∀ e, r = .error e → out = (w, some e)) ∧
  ∀ s, r = .ok s → s.index.Nodup →
    out.2 = none ∧ (out.1.frames k).col? name = some ((hoursOf d0 n).map fun t => (t, (s.at? t).getD .nan))

theorem writeCol_stores (R : Ready w i f k d0 n) {name : String} (hn : name ∈ ["temp", "precip", "glob", "hum", "wind"]) (r : Py (Series (XF ℝ))) :
    Stores w (w.writeCol i name (do .ok (.series (← r)))) k d0 n name r := by
  constructor
  · rintro e rfl; rfl
  · rintro s rfl hs
    exact writeCol_series R hn hs

/-- `Stores` for a series that has exactly the hours of the station -/
theorem Stores.exact {out : Out} {name : String} {r : Py (Series (XF ℝ))} (h : Stores w out k d0 n name r) {s : Series (XF ℝ)} (hr : r = .ok s)
    (hs : s.index = hoursOf d0 n) : out.2 = none ∧ (out.1.frames k).col? name = some s := by
  have hnd : s.index.Nodup := by rw [hs]; exact hoursOf_nodup d0 n
  obtain ⟨h1, h2⟩ := h.2 s hr hnd
  refine ⟨h1, ?_⟩
  rw [h2, ← hs, aligned_self hnd]

theorem dailyAttr_ready (R : Ready w i f k d0 n) (name : String) : w.dailyAttr i name = f.attr name := by
  unfold dailyAttr; rw [R.daily]

/-! ## When a station is ready -/

/-- C84.  After daily data for the days from `a` to `b` were assigned and accepted, the station is ready for these days ... -/
theorem C84_ready_after_assignment (w : World) (i : Nat) {arg : DailyArg} {g : Frame ℝ} {a b : Int} (hab : a ≤ b)
    (hc : checkDaily arg = .ok g) (hg : g.index = daysFromTo a b) :
    Ready (w.setDaily api i arg).1 i g w.nFrames a (b - a + 1).toNat := by
  obtain ⟨h1, ⟨h2, h3, h4, h5, _⟩, _⟩ := setDaily_contiguous api w i hab hc hg
  refine ⟨h1, hg, h2, ?_, ?_⟩
  · refine List.Perm.eq_of_pairwise (le := (· < ·)) ?_ h4 ?_ ?_
    · intro x y _ _ hx hy; exact absurd hx (not_lt.2 (le_of_lt hy))
    · rw [← hoursOf_eq a _ fun _ _ => ()]; exact hourlyS_index_sorted _ _ _
    · refine (List.perm_ext_iff_of_nodup (nodup_of_sorted h4) (hoursOf_nodup _ _)).2 fun t => ?_
      rw [h3]
      unfold hoursOf
      rw [List.mem_map]
      constructor
      · rintro ⟨d, hd1, hd2, h, hh, rfl⟩
        refine ⟨24 * (d - a).toNat + h, by rw [List.mem_range]; omega, ?_⟩
        congr 1
        · rw [show (24 * (d - a).toNat + h) / 24 = (d - a).toNat by omega]; omega
        · omega
      · rintro ⟨j, hj, rfl⟩
        rw [List.mem_range] at hj
        exact ⟨_, by omega, by omega, _, Nat.mod_lt _ (by omega), rfl⟩
  · intro name hname
    have : name ∈ ((w.setDaily api i arg).1.frames w.nFrames).cols.map Prod.fst := by rw [h5]; exact hname
    obtain ⟨c, hc1, hc2⟩ := List.mem_map.1 this
    unfold Frame.has
    rw [List.any_eq_true]
    exact ⟨c, hc1, by simp [hc2]⟩

/-- ... and it stays ready through every call of a disaggregation method, also one that raises -/
theorem C84_ready_kept (R : Ready w i f k d0 n) (op : Op) (name : String) (h : disaggTarget op = some (i, name)) :
    Ready (w.step api op).1 i f k d0 n := by
  obtain ⟨_, _, h3, _, h5, _⟩ := C66_only_own_column api w op i name h
  have hst : ((w.step api op).1.stations i).daily = (w.stations i).daily ∧ ((w.step api op).1.stations i).disagg = (w.stations i).disagg := by
    rcases h3 i with h | ⟨_, _, _, s, h⟩ <;> rw [h] <;> exact ⟨rfl, rfl⟩
  obtain ⟨o1, o2, o3⟩ := h5 k R.disagg
  refine ⟨hst.1.trans R.daily, R.days, hst.2.trans R.disagg, o1.trans R.hours, fun c hc => ?_⟩
  have := R.columns c hc
  unfold Frame.has at this ⊢
  rw [List.any_eq_true] at this ⊢
  obtain ⟨x, hx1, hx2⟩ := this
  have hx : x.1 ∈ ((w.step api op).1.frames k).cols.map Prod.fst := by rw [o2]; exact List.mem_map_of_mem hx1
  obtain ⟨y, hy1, hy2⟩ := List.mem_map.1 hx
  exact ⟨y, hy1, by rw [hy2]; exact hx2⟩

/-! ## The five methods -/

/-- C84 (wind).  `station.disaggregate_wind(method)` stores what `disaggregate_wind` returns for the daily wind column and the fitted parameters a, b and t_shift
of the station's statistics (a series aligned by hour, the array of the cosine method in order). -/
theorem C84_wind (R : Ready w i f k d0 n) {daily : Series (XF ℝ)} (hd : f.col? "wind" = some daily) (draw : Nat → ℝ) (method : String)
    {st : WindStats} (hst : st = (w.stats (w.stations i).stat).wind) :
    (∀ e, disaggregateWind api draw daily method st.a st.b st.tShift = .error e → w.wind api i draw method = (w, some e)) ∧
    (∀ s, disaggregateWind api draw daily method st.a st.b st.tShift = .ok (.series s) → s.index.Nodup → (w.wind api i draw method).2 = none ∧
      ((w.wind api i draw method).1.frames k).col? "wind" = some ((hoursOf d0 n).map fun t => (t, (s.at? t).getD .nan))) ∧
    (∀ l, disaggregateWind api draw daily method st.a st.b st.tShift = .ok (.array l) → l.length = 24 * n → (w.wind api i draw method).2 = none ∧
      ((w.wind api i draw method).1.frames k).col? "wind" = some ((hoursOf d0 n).zip l)) := by
  have hw : w.wind api i draw method = w.writeCol i "wind" (disaggregateWind api draw daily method st.a st.b st.tShift) := by
    unfold wind
    rw [dailyAttr_ready R, attr_ok hd, hst]
    rfl
  rw [hw]
  refine ⟨?_, ?_, ?_⟩
  · intro e he; rw [he]; rfl
  · intro s hs hnd; rw [hs]; exact writeCol_series R (by simp) hnd
  · intro l hl hlen; rw [hl]; exact (writeCol_array R (by simp)).1 hlen

/-- C84 (humidity).  `station.disaggregate_humidity` stores what `disaggregate_humidity` returns for the daily data, the temperature column of the station's own
results, and the statistics' a0, a1, kr and categorical means. -/
theorem C84_humidity (R : Ready w i f k d0 n) {temp : Series (XF ℝ)} (ht : (w.frames k).col? "temp" = some temp) (method : String) (preserve : Bool)
    {st : HumStats} (hst : st = (w.stats (w.stations i).stat).hum) :
    Stores w (w.humidity api i method preserve) k d0 n "hum"
      (disaggregateHumidity api f method (some temp) st.a0 st.a1 st.kr st.table preserve) := by
  have hw : w.humidity api i method preserve =
      w.writeCol i "hum" (do .ok (.series (← disaggregateHumidity api f method (some temp) st.a0 st.a1 st.kr st.table preserve))) := by
    unfold humidity disaggAttr
    rw [R.disagg]
    dsimp only
    rw [attr_ok ht, R.daily, hst]
    rfl
  rw [hw]
  exact writeCol_stores R (by simp) _

/-- C84 (temperature).  `station.disaggregate_temperature` stores what `disaggregate_temperature` returns for the daily data, the statistics' monthly shift and
mean course, and the station's sun times. -/
theorem C84_temperature (R : Ready w i f k d0 n) (method minMaxTime : String) (modNight : Bool) {st : TempStats}
    (hst : st = (w.stats (w.stations i).stat).temp) :
    Stores w (w.temperature api i method minMaxTime modNight) k d0 n "temp"
      (disaggregateTemperature api f method minMaxTime modNight st.maxDelta st.course (w.stations i).sun) := by
  have hw : w.temperature api i method minMaxTime modNight =
      w.writeCol i "temp" (do .ok (.series (← disaggregateTemperature api f method minMaxTime modNight st.maxDelta st.course (w.stations i).sun))) := by
    unfold temperature
    rw [R.daily, hst]
    rfl
  rw [hw]
  exact writeCol_stores R (by simp) _

/-- C84 (precipitation, 'equal' and 'masterstation'; for 'cascade' see C67).  `station.disaggregate_precipitation` stores what `disagg_prec` returns for the
daily data, or what `precip_master_station` returns for the daily precipitation and the given master series; the argument `shift` changes nothing
in either case. -/
theorem C84_precipitation (R : Ready w i f k d0 n) (rnd : Nat → Nat → ℝ) (zerodiv : String) (shift : Int) (master : Option (Series (XF ℝ))) :
    Stores w (w.precipitation api i rnd "equal" zerodiv shift master) k d0 n "precip" (disaggPrec api (rnd 0) (.frame f) "equal") ∧
    ∀ daily m, f.col? "precip" = some daily → master = some m →
      Stores w (w.precipitation api i rnd "masterstation" zerodiv shift master) k d0 n "precip" (precipMasterStation api daily m zerodiv) := by
  constructor
  · have hw : w.precipitation api i rnd "equal" zerodiv shift master =
        w.writeCol i "precip" (do .ok (.series (← disaggPrec api (rnd 0) (.frame f) "equal"))) := by
      unfold precipitation precipSeries
      rw [if_pos rfl, R.daily]
      rfl
    rw [hw]
    exact writeCol_stores R (by simp) _
  · rintro daily m hd rfl
    have hw : w.precipitation api i rnd "masterstation" zerodiv shift (some m) =
        w.writeCol i "precip" (do .ok (.series (← precipMasterStation api daily m zerodiv))) := by
      unfold precipitation precipSeries
      rw [if_neg (by decide), if_neg (by decide), if_pos rfl, dailyAttr_ready R, attr_ok hd]
      rfl
    rw [hw]
    exact writeCol_stores R (by simp) _

/-- the potential radiation that is used: the one given, or for the methods other than 'mean_course' the one computed for the station's hours -/
noncomputable def usedPotential (given : Option (Series (XF ℝ))) (method : String) (hours : List Time) (lon lat tz : ℝ) : Option (Series (XF ℝ)) :=
  match given with
  | some p => some p
  | none => if method = "mean_course" then none else some (potentialRadiation hours lon lat tz)

/-- C84 (radiation).  `station.disaggregate_radiation` stores what `disaggregate_radiation` returns for the daily data, the station's sun times, the potential
radiation given (or computed for the station's hours, coordinates and time zone), the statistics' monthly Angstroem parameters (a, b),
Bristow-Campbell parameters (a, c) and mean course.  If there are no sun times yet they are computed first, and kept. -/
theorem C84_radiation (R : Ready w i f k d0 n) (method : String) (pot : Option (Series (XF ℝ))) {lon lat tz : ℝ}
    (h1 : (w.stations i).lon = some lon) (h2 : (w.stations i).lat = some lat) (h3 : (w.stations i).tz = some tz) {st : GlobStats}
    (hst : st = (w.stats (w.stations i).stat).glob) :
    (∀ sun, (w.stations i).sun = some sun → Stores w (w.radiation api i method pot) k d0 n "glob"
      (disaggregateRadiation api f (some sun) (usedPotential pot method (hoursOf d0 n) lon lat tz) method (.monthly st.angA st.angB) (.monthly st.bcA st.bcC)
        st.course)) ∧
    ((w.stations i).sun = none →
      Stores (w.setStation i { w.stations i with sun := some (getSunTimes f.index lon lat tz) }) (w.radiation api i method pot) k d0 n "glob"
        (disaggregateRadiation api f (some (getSunTimes f.index lon lat tz)) (usedPotential pot method (hoursOf d0 n) lon lat tz) method
          (.monthly st.angA st.angB) (.monthly st.bcA st.bcC) st.course) ∧
      ((w.radiation api i method pot).1.stations i).sun = some (getSunTimes f.index lon lat tz)) := by
  -- the part after the sun times are there
  have body : ∀ (w : World) (sun : Series SunTimes), Ready w i f k d0 n → (w.stations i).lon = some lon → (w.stations i).lat = some lat →
      (w.stations i).tz = some tz → st = (w.stats (w.stations i).stat).glob → (w.stations i).sun = some sun →
      Stores w (w.radiationBody api i method pot) k d0 n "glob"
        (disaggregateRadiation api f (some sun) (usedPotential pot method (hoursOf d0 n) lon lat tz) method (.monthly st.angA st.angB)
          (.monthly st.bcA st.bcC) st.course) := by
    intro w sun R h1 h2 h3 hst hsun
    have hp : w.potRadArg i method pot = .ok (usedPotential pot method (hoursOf d0 n) lon lat tz) := by
      unfold potRadArg usedPotential
      cases pot with
      | some p => rw [if_neg (by simp)]
      | none =>
        by_cases hm : method = "mean_course"
        · rw [if_neg (by simp [hm])]; simp [hm]
        · rw [if_pos (by simp [hm]), R.disagg]
          dsimp only
          rw [h1, h2, h3]
          dsimp only
          rw [R.hours, if_neg hm]
    have hw : w.radiationBody api i method pot = w.writeCol i "glob" (do .ok (.series (← disaggregateRadiation api f (some sun)
        (usedPotential pot method (hoursOf d0 n) lon lat tz) method (.monthly st.angA st.angB) (.monthly st.bcA st.bcC) st.course))) := by
      unfold radiationBody
      rw [hp, R.daily, hst, hsun]
      rfl
    rw [hw]
    exact writeCol_stores R (by simp) _
  constructor
  · intro sun hsun
    have : w.radiation api i method pot = w.radiationBody api i method pot := by
      unfold radiation
      rw [hsun]
      rfl
    rw [this]
    exact body w sun R h1 h2 h3 hst hsun
  · intro hsun
    set w1 := w.setStation i { w.stations i with sun := some (getSunTimes f.index lon lat tz) } with hw1
    have hc : w.calcSunTimes i = (w1, none) := by
      rcases calcSunTimes_inv w i with ⟨e, he⟩ | ⟨f', lon', lat', tz', e0, e1, e2, e3, he⟩
      · exfalso
        unfold calcSunTimes at he
        dsimp only at he
        simp only [R.daily, h1, h2, h3] at he
        cases congrArg Prod.snd he
      · rw [R.daily] at e0
        rw [h1] at e1
        rw [h2] at e2
        rw [h3] at e3
        cases e0; cases e1; cases e2; cases e3
        exact he
    have hr : w.radiation api i method pot = w1.radiationBody api i method pot := by
      unfold radiation
      rw [hsun, if_pos (by rfl), hc]
    have e : w1.stations i = { w.stations i with sun := some (getSunTimes f.index lon lat tz) } := by simp [hw1]
    have R1 : Ready w1 i f k d0 n := ⟨by rw [e]; exact R.daily, R.days, by rw [e]; exact R.disagg, R.hours, R.columns⟩
    rw [hr]
    refine ⟨body w1 _ R1 (by rw [e]; exact h1) (by rw [e]; exact h2) (by rw [e]; exact h3) ?_ (by rw [e]), ?_⟩
    · rw [e]; exact hst
    · have := (writeCol_same w1 i "glob" (do
        let pot ← w1.potRadArg i method pot
        let s := (w1.statOf i).glob
        match (w1.stations i).daily with
        | none => .error .attributeError
        | some f => do
          .ok (.series (← disaggregateRadiation api f (w1.stations i).sun pot method (.monthly s.angA s.angB) (.monthly s.bcA s.bcC) s.course)))).stations
      have h4 : (w1.radiationBody api i method pot).1.stations = w1.stations := this
      rw [h4, e]

end World

end Melodist
