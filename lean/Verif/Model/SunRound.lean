import Verif.Model.PotRadRound

/-!
# `get_sun_times` in rounded arithmetic

`sunTimesDoy` of `Model/UtilPhys.lean` once more, with every operation followed by a rounding (in the order of the code), the constants rounded, and the
trigonometric functions and `np.pi` as given by the platform.  (`Props/SunRound.lean` shows that it is the original function for exact operations.)
Simplification: no overflow or underflow.  In contrast to the original function the poles need no exception: there the tangent of the rounded angle is a
large number.
-/

set_option linter.unusedSectionVars false

namespace Melodist

noncomputable section

/-- the arithmetic of the platform with a tangent -/
structure SunMath extends TrigMath where
  tan : ℝ → ℝ

/-- exact arithmetic -/
def SunMath.exact : SunMath := ⟨TrigMath.exact, Real.tan⟩

/-- util.py:181-191: declination -/
def declinationR (F : TrigMath) (doy : Int) : ℝ :=
  let b := deg2radR F (F.fl (F.fl (360 / 365.25) * F.fl ((doy : ℝ) - F.fl 79.346)))
  let b2 := F.fl (2 * b)
  let b3 := F.fl (3 * b)
  deg2radR F (F.fl (F.fl (F.fl (F.fl (F.fl (F.fl (F.fl 0.3723 + F.fl (F.fl 23.2567 * F.sin b)) - F.fl (F.fl 0.7580 * F.cos b)) +
    F.fl (F.fl 0.1149 * F.sin b2)) + F.fl (F.fl 0.3656 * F.cos b2)) - F.fl (F.fl 0.1712 * F.sin b3)) + F.fl (F.fl 0.0201 * F.cos b3)))

/-- util.py:194-205: equation of time -/
def eqTimeR (F : TrigMath) (doy : Int) : ℝ :=
  let s := F.fl (F.fl (F.fl (2 * F.pi) * ((doy : ℝ) - 1)) / 365)
  let s2 := F.fl (2 * s)
  F.fl (F.fl (12 / F.pi) * F.fl (F.fl (F.fl (F.fl (F.fl 0.000075 + F.fl (F.fl 0.001868 * F.cos s)) - F.fl (F.fl 0.032077 * F.sin s)) -
    F.fl (F.fl 0.014615 * F.cos s2)) - F.fl (F.fl 0.040849 * F.sin s2)))

/-- util.py:207-246: one row of `get_sun_times` -/
def sunTimesDoyR (F : SunMath) (doy : Int) (lon lat tz : ℝ) : SunTimes :=
  let deltaLatTime : ℝ := F.fl (F.fl (F.fl (lon - F.fl (tz * 15)) * 24) / 360)
  let eq := eqTimeR F.toTrigMath doy
  let arg : ℝ := F.fl (-F.tan (deg2radR F.toTrigMath lat) * F.tan (declinationR F.toTrigMath doy))
  let omega := F.arccosCell (.fin arg)
  let part := (omega / .fin F.pi).rnd F.fl
  let sunrise := (((XF.fin (12 : ℝ) * (XF.fin (1 : ℝ) - part).rnd F.fl).rnd F.fl - .fin deltaLatTime).rnd F.fl - .fin eq).rnd F.fl
  let sunset := (((XF.fin (12 : ℝ) * (XF.fin (1 : ℝ) + part).rnd F.fl).rnd F.fl - .fin deltaLatTime).rnd F.fl - .fin eq).rnd F.fl
  let sunnoon : XF ℝ := ((XF.fin (12 * 1 : ℝ) - .fin deltaLatTime).rnd F.fl - .fin eq).rnd F.fl
  -- case 1: midnight sun
  let sunrise := if arg < -1 then (sunnoon - .fin 12).rnd F.fl else sunrise
  let sunset := if arg < -1 then (sunnoon + .fin 12).rnd F.fl else sunset
  -- case 2: polar night
  let sunrise := if 1 < arg then sunnoon else sunrise
  let sunset := if 1 < arg then sunnoon else sunset
  let daylength := (sunset - sunrise).rnd F.fl
  let sunrise := if XF.lt sunrise (.fin 0) then (sunrise + .fin 24).rnd F.fl else sunrise
  let sunset := if XF.lt (.fin 24) sunset then (sunset - .fin 24).rnd F.fl else sunset
  ⟨sunrise, sunnoon, sunset, daylength⟩

/-- util.py:160-246 `get_sun_times` -/
def getSunTimesR (F : SunMath) (dates : List Time) (lon lat tz : ℝ) : Series SunTimes :=
  dates.map fun t => (t, sunTimesDoyR F (doyOf t) lon lat tz)

end

end Melodist
