import Verif.Base.Pandas
import Mathlib.Analysis.SpecialFunctions.Trigonometric.Inverse
import Mathlib.Analysis.SpecialFunctions.Log.Basic

/-!
# Model of the physics in melodist/util/util.py (lines 70-247)

numpy ufuncs on float cells; the finite part is ℝ.
-/

set_option linter.unusedSectionVars false

namespace Melodist

noncomputable section

namespace XF

/-- `np.exp` -/
def exp : XF ℝ → XF ℝ
  | nan => nan
  | ninf => fin 0
  | fin x => fin (Real.exp x)
  | pinf => pinf

/-- `np.log`: `log 0 = -inf`, NaN for negative numbers -/
def log : XF ℝ → XF ℝ
  | nan => nan
  | ninf => nan
  | fin x => if 0 < x then fin (Real.log x) else if x = 0 then ninf else nan
  | pinf => pinf

/-- `np.cos`: NaN for infinities -/
def cos : XF ℝ → XF ℝ
  | fin x => fin (Real.cos x)
  | _ => nan

/-- `np.sin`: NaN for infinities -/
def sin : XF ℝ → XF ℝ
  | fin x => fin (Real.sin x)
  | _ => nan

/-- `np.arccos`: NaN outside [-1, 1] -/
def arccos : XF ℝ → XF ℝ
  | fin x => if -1 ≤ x ∧ x ≤ 1 then fin (Real.arccos x) else nan
  | _ => nan

@[simp] theorem exp_fin (x : ℝ) : exp (fin x) = fin (Real.exp x) := rfl
@[simp] theorem exp_nan : exp nan = nan := rfl
@[simp] theorem log_nan : log nan = nan := rfl
theorem log_fin {x : ℝ} (h : 0 < x) : log (fin x) = fin (Real.log x) := if_pos h
@[simp] theorem cos_fin (x : ℝ) : cos (fin x) = fin (Real.cos x) := rfl
@[simp] theorem sin_fin (x : ℝ) : sin (fin x) = fin (Real.sin x) := rfl

end XF

/-- the decimal literal 273.15 -/
def kelvin0 : ℝ := 273.15

/-- util.py:85-100 `vapor_pressure` for one cell; `temp >= 273.15` is False for NaN -/
def vaporPressureCell (temp hum : XF ℝ) : XF ℝ :=
  if XF.le (.fin kelvin0) temp then
    .fin 6.112 * XF.exp ((.fin 17.62 * (temp - .fin kelvin0)) / (.fin 243.12 + (temp - .fin kelvin0))) * hum / .fin 100
  else
    .fin 6.112 * XF.exp ((.fin 22.46 * (temp - .fin kelvin0)) / (.fin 272.62 + (temp - .fin kelvin0))) * hum / .fin 100

/-- util.py:70-102 `vapor_pressure` on arrays (assertion of line 85: equal shapes) -/
def vaporPressure (temp hum : List (XF ℝ)) : Py (List (XF ℝ)) :=
  if temp.length = hum.length then .ok (List.zipWith vaporPressureCell temp hum) else .error .assertionError

/-- util.py:82-83: a scalar humidity is broadcast -/
def vaporPressureScalar (temp : List (XF ℝ)) (hum : XF ℝ) : Py (List (XF ℝ)) :=
  vaporPressure temp (temp.map fun _ => hum)

/-- util.py:119-134 `dewpoint_temperature` for one cell -/
def dewpointCell (temp hum : XF ℝ) : XF ℝ :=
  let vp := vaporPressureCell temp hum
  (if XF.le (.fin kelvin0) temp then
    .fin 243.12 * XF.log (vp / .fin 6.112) / (.fin 17.62 - XF.log (vp / .fin 6.112))
  else
    .fin 272.62 * XF.log (vp / .fin 6.112) / (.fin 22.46 - XF.log (vp / .fin 6.112))) + .fin kelvin0

/-- util.py:105-134 `dewpoint_temperature` on arrays -/
def dewpointTemperature (temp hum : List (XF ℝ)) : Py (List (XF ℝ)) :=
  if temp.length = hum.length then .ok (List.zipWith dewpointCell temp hum) else .error .assertionError

/-! ## get_sun_times -/

/-- `np.deg2rad` -/
def deg2rad (x : ℝ) : ℝ := x * (Real.pi / 180)

/-- util.py:181-191: declination (radians) for a day of the year, after Bourges (1985) -/
def declination (doy : Int) : ℝ :=
  let b := deg2rad ((360 / 365.25) * ((doy : ℝ) - 79.346))
  deg2rad (0.3723 + 23.2567 * Real.sin b - 0.7580 * Real.cos b + 0.1149 * Real.sin (2 * b)
    + 0.3656 * Real.cos (2 * b) - 0.1712 * Real.sin (3 * b) + 0.0201 * Real.cos (3 * b))

/-- util.py:194-205: equation of time (hours), after Spencer (1971) -/
def eqTime (doy : Int) : ℝ :=
  let s := 2 * Real.pi * ((doy : ℝ) - 1) / 365
  12 / Real.pi * (0.000075 + 0.001868 * Real.cos s - 0.032077 * Real.sin s - 0.014615 * Real.cos (2 * s)
    - 0.040849 * Real.sin (2 * s))

/-- one row of the data frame returned by `get_sun_times` -/
structure SunTimes where
  sunrise : XF ℝ
  sunnoon : XF ℝ
  sunset : XF ℝ
  daylength : XF ℝ

/-- util.py:207-246: one row of `get_sun_times`.  Simplification: `np.tan` is the real tangent, so the poles
(|lat| = 90, where floating point gives ~1.6e16 and Mathlib's tan gives 0) are outside the scope of the theorems. -/
def sunTimesDoy (doy : Int) (lon lat tz : ℝ) : SunTimes :=
  let deltaLatTime : ℝ := (lon - tz * 15) * 24 / 360
  let arg : ℝ := -Real.tan (deg2rad lat) * Real.tan (declination doy)
  let omega := XF.arccos (.fin arg)
  let sunrise := .fin 12 * (.fin 1 - omega / .fin Real.pi) - .fin deltaLatTime - .fin (eqTime doy)
  let sunset := .fin 12 * (.fin 1 + omega / .fin Real.pi) - .fin deltaLatTime - .fin (eqTime doy)
  let sunnoon : XF ℝ := .fin (12 * 1) - .fin deltaLatTime - .fin (eqTime doy)
  -- case 1: midnight sun
  let sunrise := if arg < -1 then sunnoon - .fin 12 else sunrise
  let sunset := if arg < -1 then sunnoon + .fin 12 else sunset
  -- case 2: polar night
  let sunrise := if 1 < arg then sunnoon else sunrise
  let sunset := if 1 < arg then sunnoon else sunset
  let daylength := sunset - sunrise
  let sunrise := if XF.lt sunrise (.fin 0) then sunrise + .fin 24 else sunrise
  let sunset := if XF.lt (.fin 24) sunset then sunset - .fin 24 else sunset
  ⟨sunrise, sunnoon, sunset, daylength⟩

/-- util.py:160-246 `get_sun_times` -/
def getSunTimes (dates : List Time) (lon lat tz : ℝ) : Series SunTimes :=
  dates.map fun t => (t, sunTimesDoy (doyOf t) lon lat tz)

end

end Melodist
