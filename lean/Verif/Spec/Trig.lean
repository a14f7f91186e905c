import Verif.Lemmas.F64
import Mathlib.Analysis.SpecialFunctions.Trigonometric.Inverse
/-! # Specification vocabulary: what is asked of the trigonometric functions of the C library -/

namespace Post.Spec

/-- What is asked of the trigonometric functions when an angle is computed with them: sine, arc sine and
arc cosine have an error of at most 1e-15 (between one and four units in the last place of a number from 2
to 4), a sine is between -1 and 1, and the arc cosines of 1 and of -1 are 0 and the double nearest to pi. -/
structure TrigLibrary (L : Libm) : Prop where
  sin : ∀ (x : F64 L) (q : ℚ), x.Is q → |q| ≤ 6 →
    ∃ r, (Flt.sin x).Is r ∧ |r| ≤ 1 ∧ |(r : ℝ) - Real.sin q| ≤ 1e-15
  asin : ∀ (x : F64 L) (q : ℚ), x.Is q → |q| ≤ 1 →
    ∃ r, (Flt.asin x).Is r ∧ |(r : ℝ) - Real.arcsin q| ≤ 1e-15
  acos : ∀ (x : F64 L) (q : ℚ), x.Is q → |q| ≤ 1 →
    ∃ r, (Flt.acos x).Is r ∧ |(r : ℝ) - Real.arccos q| ≤ 1e-15
  acos_one : ∀ x : F64 L, x.Is 1 → (Flt.acos x).Is 0
  acos_neg_one : ∀ x : F64 L, x.Is (-1) → Flt.acos x = Flt.pi

end Post.Spec

