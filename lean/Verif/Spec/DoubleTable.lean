import Verif.Spec.Table
import Verif.Spec.Interp
import Verif.F64
import Mathlib.Data.Real.Basic
/-! # Specification vocabulary: what a table of doubles means -/

namespace Post.Spec
variable {L : Libm}

/-- The double is a number, neither NaN nor infinite. -/
def IsNumber (x : F64 L) : Prop := ∃ s a, x.dbl = .fin s a ∧ 0 ≤ a

noncomputable section

/-- The number that a double stands for. -/
def real (x : F64 L) : ℝ :=
  match x.dbl with
  | .fin s a => if s then -(a : ℝ) else a
  | _ => 0

/-- All arguments of the axis are numbers of size at most 1e20, and neighbours differ by at least
1e-20. -/
structure GoodAxis (l : List (F64 L)) : Prop where
  number : ∀ x ∈ l, IsNumber x ∧ |real x| ≤ 1e20
  gap : ∀ i, (h : i + 1 < l.length) → 1e-20 ≤ real l[i + 1] - real l[i]

/-- The value of the axis variable is a number between the first and the last argument. -/
structure Within (l : List (F64 L)) (x : F64 L) : Prop where
  number : IsNumber x
  low : ∀ a, l.head? = some a → real a ≤ real x
  high : ∀ a, l.getLast? = some a → real x ≤ real a

/-- All entries are numbers of size at most `M`. -/
def Entries (M : ℝ) (l : List (F64 L)) : Prop := ∀ y ∈ l, IsNumber y ∧ |real y| ≤ M

/-- The axes of a table: variable and arguments. -/
def axes : Table (F64 L) → List (StateVariable × List (F64 L))
  | .d1 t => [t.x]
  | .d2 t => [t.x, t.y]
  | .d3 t => [t.x, t.y, t.z]

/-- All entries of a table, in the order in which they are written. -/
def entries : Table (F64 L) → List (F64 L)
  | .d1 t => t.data
  | .d2 t => t.data.flatten
  | .d3 t => t.data.flatten.flatten

/-- The table is not empty, on no level. -/
def Filled : Table (F64 L) → Prop
  | .d1 t => t.data ≠ []
  | .d2 t => t.data ≠ [] ∧ ∀ r ∈ t.data, r ≠ []
  | .d3 t => t.data ≠ [] ∧ ∀ p ∈ t.data, p ≠ [] ∧ ∀ r ∈ p, r ≠ []

/-- The table has entries, all of size at most `M`, reasonable arguments, and the state lies within
its range. -/
structure Covers (M : ℝ) (s : State (F64 L)) (t : Table (F64 L)) : Prop where
  filled : Filled t
  entries : Entries M (entries t)
  range : ∀ a ∈ axes t, GoodAxis a.2 ∧ Within a.2 (a.1.getValue s)

/-- The exact value of the table: the multilinear interpolation, without rounding, between the
numbers written in it. -/
def exactValue (s : State (F64 L)) : Table (F64 L) → ℝ
  | .d1 t => piecewise (t.x.2.map real) (t.data.map real) (real (t.x.1.getValue s))
  | .d2 t => grid2 (t.x.2.map real) (t.y.2.map real) (t.data.map (·.map real))
      (real (t.x.1.getValue s)) (real (t.y.1.getValue s))
  | .d3 t => grid3 (t.x.2.map real) (t.y.2.map real) (t.z.2.map real)
      (t.data.map (·.map (·.map real)))
      (real (t.x.1.getValue s)) (real (t.y.1.getValue s)) (real (t.z.1.getValue s))

end
end Post.Spec
