import Verif.Spec.Convergence
/-! # Specification vocabulary for the accuracy of a simulated orbit -/

namespace Post.Spec

/-- At time `t` the curves `r` and `v` (position and velocity) are in free fall around the planet: the
position changes by the velocity and the velocity by gravity. -/
def FreeFall (planet : Planet XR) (r v : ℝ → V3 ℝ) (t : ℝ) : Prop :=
  ∃ g : V3 ℝ, planet.gravity (r t).fin = g.fin ∧ HasVelocity r (v t) t ∧ HasVelocity v g t

/-- the distance of two points, or the size of the difference of two velocities -/
noncomputable def rdist (a b : V3 ℝ) : ℝ := rnorm (rsub a b)

/-- The planet is one of the three built-in models of the Earth. -/
def IsEarth (planet : Planet XR) : Prop :=
  planet = EARTH_SPHERICAL ∨ planet = EARTH_FISHER_1960 ∨ planet = EARTH_SMITHSONIAN

end Post.Spec
