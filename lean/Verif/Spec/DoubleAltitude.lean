import Verif.Spec.DoubleAir
import Verif.Spec.Trig
import Verif.Spec.Planet
import Verif.Lemmas.F64Round
/-! # Specification vocabulary: the altitude in double precision -/

namespace Post.Spec

/-- The altitude of the position `r` above the ellipsoid with equatorial radius `a` and polar radius `b` is `h`: going
down by `h`, towards the centre, one meets the surface. -/
def RadialAltitude (a b : ℝ) (r : V3 ℝ) (h : ℝ) : Prop :=
  h < rnorm r ∧ OnEllipsoid a b (rscale ((rnorm r - h) / rnorm r) r)

/-- The components of the vector are doubles: they have a significand of at most 53 bits. -/
def DoubleComponents {L : Libm} (v : V3 (F64 L)) : Prop :=
  v.x.dbl.IsDouble ∧ v.y.dbl.IsDouble ∧ v.z.dbl.IsDouble

end Post.Spec
