import Verif.Spec.DoubleOrbit
import Verif.Spec.Vec
/-! # Specification vocabulary: frames of reference in double precision -/

namespace Post.Spec
variable {L : Libm}

/-- The double is a number at most `e` away from `ξ`. -/
def WithinOf (x : F64 L) (ξ e : ℝ) : Prop := ∃ r : ℝ, Reads x r ∧ |r - ξ| ≤ e

/-- The entries of the matrix of doubles are numbers at most `e` away from those of `R`. -/
structure CloseMatrix (m : M3 (F64 L)) (R : M3 ℝ) (e : ℝ) : Prop where
  xx : WithinOf m.r1.x R.r1.x e
  xy : WithinOf m.r1.y R.r1.y e
  xz : WithinOf m.r1.z R.r1.z e
  yx : WithinOf m.r2.x R.r2.x e
  yy : WithinOf m.r2.y R.r2.y e
  yz : WithinOf m.r2.z R.r2.z e
  zx : WithinOf m.r3.x R.r3.x e
  zy : WithinOf m.r3.y R.r3.y e
  zz : WithinOf m.r3.z R.r3.z e

/-- What is asked of sine, cosine and nalgebra's `Rotation3::from_matrix` when frames of reference are changed: sine and
cosine have an error of at most 1e-15 (from four to nine units in the last place of a number from 1/2 to 1), and the
rotation found for a matrix that agrees with a rotation to 14 digits agrees with it to 13 digits. -/
structure FrameLibrary (L : Libm) : Prop where
  sin : ∀ (x : F64 L) (q : ℚ), x.Is q → |q| ≤ 1000 → WithinOf (Flt.sin x) (Real.sin q) 1e-15
  cos : ∀ (x : F64 L) (q : ℚ), x.Is q → |q| ≤ 1000 → WithinOf (Flt.cos x) (Real.cos q) 1e-15
  rot : ∀ (m : M3 (F64 L)) (R : M3 ℝ), R.IsRotation → CloseMatrix m R 1e-14 → CloseMatrix (Flt.rotFromMatrix m) R 1e-13

end Post.Spec
