import Verif.Model.CascadeRound
import Verif.Model.Radiation

/-!
# `potential_radiation` in rounded arithmetic

`potentialRadiation` of `Model/Radiation.lean` once more, with every operation followed by a rounding (in the order of the code), the constants rounded, and
`np.sin`, `np.cos`, `np.arcsin`, `np.arccos` and `np.pi` as given by the platform.  (`Props/PotRadRound.lean` shows that it is the original function for exact
operations.)  Simplification: no overflow or underflow.
-/

set_option linter.unusedSectionVars false

namespace Melodist

noncomputable section

/-- the arithmetic of the platform -/
structure TrigMath where
  fl : ℝ → ℝ
  sin : ℝ → ℝ
  cos : ℝ → ℝ
  arcsin : ℝ → ℝ
  arccos : ℝ → ℝ
  pi : ℝ

/-- exact arithmetic -/
def TrigMath.exact : TrigMath := ⟨id, Real.sin, Real.cos, Real.arcsin, Real.arccos, Real.pi⟩

namespace TrigMath

/-- `np.sin` of a cell -/
def sinCell (F : TrigMath) : XF ℝ → XF ℝ
  | .fin x => .fin (F.sin x)
  | _ => .nan

/-- `np.cos` of a cell -/
def cosCell (F : TrigMath) : XF ℝ → XF ℝ
  | .fin x => .fin (F.cos x)
  | _ => .nan

/-- `np.arcsin` of a cell: NaN outside [-1, 1] -/
def arcsinCell (F : TrigMath) : XF ℝ → XF ℝ
  | .fin x => if -1 ≤ x ∧ x ≤ 1 then .fin (F.arcsin x) else .nan
  | _ => .nan

/-- `np.arccos` of a cell: NaN outside [-1, 1] -/
def arccosCell (F : TrigMath) : XF ℝ → XF ℝ
  | .fin x => if -1 ≤ x ∧ x ≤ 1 then .fin (F.arccos x) else .nan
  | _ => .nan

end TrigMath

/-- `np.deg2rad`: times the constant pi/180 -/
def deg2radR (F : TrigMath) (x : ℝ) : ℝ := F.fl (x * F.fl (F.pi / 180))

/-- radiation.py:147-158: solar declination -/
def solarDeclineR (F : TrigMath) (doy : Int) : ℝ :=
  F.fl (deg2radR F (F.fl 23.43697) * F.cos (F.fl (F.fl (F.fl (2 * F.pi) * F.fl ((doy : ℝ) - 173)) / 365.25)))

/-- radiation.py:161-163: hour angle -/
def hourAngleR (F : TrigMath) (h mi : Int) (lon tz : ℝ) : ℝ :=
  let delta := F.fl (F.fl (F.fl (lon - F.fl (tz * 15)) * 24) / 360)
  F.fl (F.pi * F.fl (F.fl (F.fl (F.fl ((h : ℝ) + F.fl ((mi : ℝ) / 60)) + delta) / 12) - 1))

/-- radiation.py:166-168: cosine of the solar zenith angle before clipping -/
def cosZenithRawR (F : TrigMath) (decl lat ha : ℝ) : ℝ :=
  F.fl (F.fl (F.sin decl * F.sin (deg2radR F lat)) + F.fl (F.fl (F.cos decl * F.cos (deg2radR F lat)) * F.cos ha))

/-- radiation.py:177-184: ratio for the eccentricity of the orbit -/
def radiusRatioR (F : TrigMath) (doy : Int) : ℝ :=
  let beta := F.fl (F.fl (2 * F.pi) * F.fl ((doy : ℝ) / 365.25))
  let beta2 := F.fl (2 * beta)
  F.fl (F.fl (F.fl (F.fl (F.fl 1.00011 + F.fl (F.fl 0.034221 * F.cos beta)) + F.fl (F.fl 0.00128 * F.sin beta)) +
    F.fl (F.fl 0.000719 * F.cos beta2)) + F.fl (F.fl 0.000077 * F.sin beta2))

/-- radiation.py:166-197 for one date: direct and diffuse radiation -/
def potRadCellR (F : TrigMath) (doy h mi : Int) (lon lat tz slope azimuth cloud : ℝ) : XF ℝ × XF ℝ :=
  let decl := solarDeclineR F doy
  let ha := hourAngleR F h mi lon tz
  let cosz := max (cosZenithRawR F decl lat ha) 0
  let z := F.arccosCell (.fin cosz)
  let transDirect := F.fl (F.fl (F.fl 0.6 + F.fl (F.fl 0.2 * cosz)) * F.fl (1 - cloud))
  let transDiffuse := F.fl (F.fl (F.fl 0.3 + F.fl (F.fl 0.1 * cosz)) * cloud)
  let s := F.fl (1367 * radiusRatioR F doy)
  let mu := F.arcsinCell ((.fin (F.fl (F.cos decl * F.sin ha)) / F.sinCell z).rnd F.fl)
  let cosi := (.fin (F.fl (F.cos slope * cosz)) +
    ((.fin (F.sin slope) * F.sinCell z).rnd F.fl * F.cosCell ((mu - .fin azimuth).rnd F.fl)).rnd F.fl).rnd F.fl
  let direct := (.fin (F.fl (s * transDirect)) * cosi).rnd F.fl
  let diffuse := .fin (F.fl (F.fl (s * transDiffuse) * cosz))
  (XF.clipMin0 direct, diffuse)

/-- radiation.py:104-204 `potential_radiation` with `split=True` -/
def potentialRadiationSplitR (F : TrigMath) (dates : List Time) (lon lat tz slope azimuth cloud : ℝ) : Series (XF ℝ × XF ℝ) :=
  dates.map fun t => (t, potRadCellR F (doyOf t) (hourOf t) (minuteOf t) lon lat tz slope azimuth cloud)

/-- radiation.py:104-204 `potential_radiation` -/
def potentialRadiationR (F : TrigMath) (dates : List Time) (lon lat tz : ℝ) (slope azimuth cloud : ℝ := 0) : Series (XF ℝ) :=
  (potentialRadiationSplitR F dates lon lat tz slope azimuth cloud).map fun r => (r.1, (r.2.1 + r.2.2).rnd F.fl)

end

end Melodist
