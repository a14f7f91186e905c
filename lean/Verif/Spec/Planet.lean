import Verif.Spec.Vec
/-! # Specification vocabulary for planets: surface, altitude and gravitational potential -/

namespace Post.Spec
noncomputable section

/-- Legendre polynomials of degree 2 to 4. -/
def legendre2 (u : ℝ) : ℝ := (3 * u ^ 2 - 1) / 2
def legendre3 (u : ℝ) : ℝ := (5 * u ^ 3 - 3 * u) / 2
def legendre4 (u : ℝ) : ℝ := (35 * u ^ 4 - 30 * u ^ 2 + 3) / 8

/-- They are the ones given by Bonnet's recursion from `1` and `u`. -/
example (u : ℝ) :
    2 * legendre2 u = 3 * u * u - 1 * 1 ∧
    3 * legendre3 u = 5 * u * legendre2 u - 2 * u ∧
    4 * legendre4 u = 7 * u * legendre3 u - 3 * legendre2 u := by
  unfold legendre2 legendre3 legendre4
  refine ⟨?_, ?_, ?_⟩ <;> ring

/-- The gravitational potential with zonal harmonics of degree 2 to 4 of a planet with
equatorial radius `a`. -/
def potential (a μ j2 j3 j4 : ℝ) (r : V3 ℝ) : ℝ :=
  μ / rnorm r * (1 - j2 * (a / rnorm r) ^ 2 * legendre2 (r.z / rnorm r)
    - j3 * (a / rnorm r) ^ 3 * legendre3 (r.z / rnorm r)
    - j4 * (a / rnorm r) ^ 4 * legendre4 (r.z / rnorm r))

/-- How far out the point is, measured by the ellipsoid: 1 on the surface, more outside, less
inside. -/
def ellipsoidLevel (a b : ℝ) (r : V3 ℝ) : ℝ := r.x ^ 2 / a ^ 2 + r.y ^ 2 / a ^ 2 + r.z ^ 2 / b ^ 2

/-- A planet whose parameters are real numbers. -/
def realPlanet (a b μ j2 j3 j4 ω : ℝ) : Planet XR :=
  ⟨.fin a, .fin b, ⟨.fin μ, .fin j2, .fin j3, .fin j4⟩, .fin ω⟩

end
end Post.Spec
