import Verif.Spec.Rad

/-!
# The direction of the sun
-/

namespace Melodist.Spec

/-- component towards the south of the unit vector to the sun, at latitude φ, declination δ and hour angle H: sin φ cos δ cos H - cos φ sin δ -/
noncomputable def sunSouth (lon lat tz : ℝ) (t : Time) : ℝ :=
  Real.sin (lat * (Real.pi / 180)) * Real.cos (decl t) * Real.cos ((solarTime lon tz t - 12) * (Real.pi / 12)) -
    Real.cos (lat * (Real.pi / 180)) * Real.sin (decl t)

/-- component towards the west: cos δ sin H.  The component upwards is `sinHeight`. -/
noncomputable def sunWest (lon tz : ℝ) (t : Time) : ℝ := Real.cos (decl t) * Real.sin ((solarTime lon tz t - 12) * (Real.pi / 12))

/-- scalar product of a vector (south, west, up) with the upward normal of a plane inclined by `slope` that falls towards `azimuth`
(0 is south, positive towards the west; radians) -/
noncomputable def onPlane (south west up slope azimuth : ℝ) : ℝ :=
  south * (Real.sin slope * Real.cos azimuth) + west * (Real.sin slope * Real.sin azimuth) + up * Real.cos slope

/-- direct radiation on a plane whose normal has the scalar product `p` with the direction of the sun, with the sine `c` of its height: nothing when the
sun is behind the plane -/
noncomputable def directFlux (t : Time) (c k p : ℝ) : ℝ := 1367 * orbitRatio t * (0.6 + 0.2 * c) * (1 - k) * max p 0

end Melodist.Spec
