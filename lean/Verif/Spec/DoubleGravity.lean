import Verif.Spec.Planet
import Verif.Spec.Vec
/-! # Specification vocabulary: the gradient of a potential -/

namespace Post.Spec

/-- `G` is the gradient of `U` at the point `r`: the derivative of `U` in every direction `d` is the inner product of `G` and
`d`. -/
def GradientAt (U : V3 ℝ → ℝ) (r G : V3 ℝ) : Prop :=
  ∀ d : V3 ℝ, HasDerivAt (fun τ => U ⟨r.x + τ * d.x, r.y + τ * d.y, r.z + τ * d.z⟩) (rdot G d) 0

end Post.Spec
