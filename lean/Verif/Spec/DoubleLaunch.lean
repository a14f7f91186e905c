import Verif.Spec.DoubleTrack
import Mathlib.Analysis.SpecialFunctions.Trigonometric.Arctan
/-! # Specification vocabulary: the launch site in double precision -/

namespace Post.Spec
variable {L : Libm}

/-- What is asked of the tangent and the arc tangent when a launch site is computed with them: the tangent of an angle
that is in size at most the largest double below pi/2 is right to a fraction of 1e-15 (up to the smallest numbers), and the
arc tangent has an error of at most 1e-15. -/
structure LaunchLibrary (L : Libm) : Prop where
  tan : ∀ (x : F64 L) (q : ℚ), x.Is q → |q| ≤ 884279719003555 / 562949953421312 →
    WithinOf (Flt.tan x) (Real.tan q) (1e-15 * |Real.tan q| + 1e-300)
  atan : ∀ (x : F64 L) (q : ℚ), x.Is q → WithinOf (Flt.atan x) (Real.arctan q) 1e-15

/-- The configured launch site of a mission in double precision, in degrees. -/
def LaunchSiteDouble (c : PhaseConfig (F64 L)) (lat long az : ℝ) : Prop :=
  ∃ i, c.init = some i ∧ Reads i.latitude lat ∧ Reads i.longitude long ∧ Reads i.azimuth az

/-- The planet with which the first phase `c` of a mission in double precision is run. -/
def firstPlanetDouble (c : PhaseConfig (F64 L)) : Planet (F64 L) :=
  Planet.ofConfig (c.planetModel.getD .spherical)

end Post.Spec
