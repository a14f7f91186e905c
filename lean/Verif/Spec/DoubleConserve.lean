import Verif.Spec.DoubleOrbit
import Verif.Spec.Orbit
/-! # Specification vocabulary: the ellipse on which a satellite moves -/

namespace Post.Spec

/-- The satellite at position `r` with velocity `v` moves on the ellipse with perigee `q` and apogee `Q` (distances from the
centre): its energy is `-μ / (q + Q)` and the square of its angular momentum `2 μ q Q / (q + Q)`.  The speed at the perigee is
the angular momentum divided by `q`. -/
structure OnEllipse (μ : ℝ) (r v : V3 ℝ) (q Q : ℝ) : Prop where
  pos : 0 < q
  order : q ≤ Q
  energy : rdot v v / 2 - μ / rnorm r = -μ / (q + Q)
  momentum : rnorm (angularMomentum r v) ^ 2 = 2 * μ * q * Q / (q + Q)

end Post.Spec
