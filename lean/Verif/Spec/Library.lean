import Verif.Lemmas.F64
/-! # Specification vocabulary: what is asked of the C library and of nalgebra, in double precision -/

namespace Post.Spec

/-- A matrix of numbers that are at most `b` in size. -/
def BoundedMatrix {L : Libm} (m : M3 (F64 L)) (b : ℚ) : Prop :=
  ∀ x ∈ [m.r1.x, m.r1.y, m.r1.z, m.r2.x, m.r2.y, m.r2.z, m.r3.x, m.r3.y, m.r3.z],
    ∃ q : ℚ, x.Is q ∧ |q| ≤ b

/-- What is asked of the functions that IEEE 754 does not fix: sine and cosine of a number are numbers
between -1 and 1; powers with exponents up to 4 have a relative error of at most 1e-15 (three correctly
rounded multiplications have an error of 3.4e-16), or, near zero, an error of at most 1e-40; and
`Rotation3::from_matrix` returns a matrix of numbers, at most 2 in size, when it is given a matrix of
numbers that are at most 4 in size. -/
structure GoodLibrary (L : Libm) : Prop where
  sin : ∀ (x : F64 L) (q : ℚ), x.Is q → ∃ r, (Flt.sin x).Is r ∧ |r| ≤ 1
  cos : ∀ (x : F64 L) (q : ℚ), x.Is q → ∃ r, (Flt.cos x).Is r ∧ |r| ≤ 1
  powi : ∀ (x : F64 L) (q : ℚ) (n : ℕ), x.Is q → |q| ≤ 1e15 → n ≤ 4 →
    ∃ r, (Flt.powi x n).Is r ∧ |r - q ^ n| ≤ 1e-15 * |q| ^ n + 1e-40
  rot : ∀ m : M3 (F64 L), BoundedMatrix m 4 → BoundedMatrix (Flt.rotFromMatrix m) 2

end Post.Spec
