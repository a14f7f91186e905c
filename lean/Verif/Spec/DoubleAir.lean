import Verif.Spec.Atmosphere
import Verif.Spec.DoubleOrbit
/-! # Specification vocabulary: the atmosphere in double precision -/

namespace Post.Spec

/-- What is asked of the exponential function and of the power function of the C library: a relative error of at
most 1e-15 (between four and nine units in the last place). -/
structure AirLibrary (L : Libm) : Prop where
  exp : ∀ (x : F64 L) (q : ℚ), x.Is q → |q| ≤ 100 →
    ∃ r : ℚ, (Flt.exp x).Is r ∧ |(r : ℝ) - Real.exp q| ≤ 1e-15 * Real.exp q
  powf : ∀ (x y : F64 L) (p q : ℚ), x.Is p → y.Is q → 1 / 25 ≤ p → p ≤ 25 → |q| ≤ 41 →
    ∃ r : ℚ, (Flt.powf x y).Is r ∧ |(r : ℝ) - (p : ℝ) ^ (q : ℝ)| ≤ 1e-15 * (p : ℝ) ^ (q : ℝ)

/-- The double is a number that differs from `ξ` by at most the fraction `e` of it. -/
def Agrees {L : Libm} (x : F64 L) (ξ e : ℝ) : Prop := ∃ r : ℝ, Reads x r ∧ |r - ξ| ≤ e * |ξ|

/-- The altitude `h` lies in the layer `l`, or at most a nanometre outside of it. -/
def LayerNear (h : ℝ) (l : Layer) : Prop :=
  ∃ below above, layers = below ++ l :: above ∧ (below = [] ∨ l.alt - 1e-9 ≤ h) ∧
    ∀ n ∈ above.head?, h ≤ n.alt + 1e-9

end Post.Spec
