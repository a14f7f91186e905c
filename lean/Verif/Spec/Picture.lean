import Verif.Ext
import Verif.Spec.Vec
import Verif.Model.Plot
/-! # Specification vocabulary: what a picture of a flight shows -/

namespace Post.Spec

/-- The position `p`, in metres, is drawn at the point `q`, in kilometres, at most half a metre off
in each direction. -/
def DrawnAt (p q : V3 XR) : Prop :=
  ∃ a b : V3 ℝ, p = a.fin ∧ q = b.fin ∧
    |1000 * b.x - a.x| ≤ 1 / 2 ∧ |1000 * b.y - a.y| ≤ 1 / 2 ∧ |1000 * b.z - a.z| ≤ 1 / 2

/-- The colour stands for the speed of the velocity `v`: it is the speed in kilometres per second,
less than one metre per second off. -/
def ColouredBy (v : V3 XR) (colour : XR) : Prop :=
  ∃ (a : V3 ℝ) (c : ℝ), v = a.fin ∧ colour = .fin c ∧ |1000 * c - rnorm a| < 1

/-- The label of a phase with the given number and rows: its number, at the point where its first
row is drawn. -/
def LabelOf (b : Nat × List (Row XR)) (label : List Char × V3 XR) : Prop :=
  label.1 = Nat.toDigits 10 b.1 ∧ ∃ r rest, b.2 = r :: rest ∧ DrawnAt r.positionPlanet label.2

end Post.Spec
