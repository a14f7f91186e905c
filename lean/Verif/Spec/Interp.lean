import Mathlib.Data.Real.Basic
/-! # Specification of table interpolation -/

namespace Post.Spec
noncomputable section
open Classical

/-- The straight line through `(x0, y0)` and `(x1, y1)` at `x`. -/
def line (x0 x1 y0 y1 x : ℝ) : ℝ := y0 + (x - x0) * (y1 - y0) / (x1 - x0)

/-- Piecewise linear interpolation of the values `ys` at the points `xs`: the line through the
first two points up to the second point, and the interpolation of the rest after it.  The first
and last lines are continued outside the points; a single value is a constant. -/
def piecewise : List ℝ → List ℝ → ℝ → ℝ
  | x0 :: x1 :: x2 :: xs, y0 :: y1 :: ys, x =>
    if x ≤ x1 then line x0 x1 y0 y1 x else piecewise (x1 :: x2 :: xs) (y1 :: ys) x
  | [x0, x1], y0 :: y1 :: _, x => line x0 x1 y0 y1 x
  | _, y0 :: _, _ => y0
  | _, [], _ => 0

/-- Interpolation in a grid: in `y` within each row, then in `x`. -/
def grid2 (xs ys : List ℝ) (data : List (List ℝ)) (x y : ℝ) : ℝ :=
  piecewise xs (data.map fun row => piecewise ys row y) x

/-- Interpolation in a three-dimensional grid: in `z`, then `y`, then `x`. -/
def grid3 (xs ys zs : List ℝ) (data : List (List (List ℝ))) (x y z : ℝ) : ℝ :=
  piecewise xs (data.map fun plane => grid2 ys zs plane y z) x

end
end Post.Spec
