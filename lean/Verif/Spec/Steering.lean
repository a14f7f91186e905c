import Verif.Spec.Phase
import Mathlib.Data.Real.Basic
/-! # Specification vocabulary for steering and the order of evaluation -/

namespace Post
open Spec
variable {F : Type}

/-- The steering variables are known before steering. -/
def Phase.SteeringEarly (p : Phase F) : Prop :=
  ∀ v ∈ [p.steering.roll.var, p.steering.yaw.var, p.steering.pitch.var], v ∈ beforeSteering

/-- The table variables are known before the tables are evaluated. -/
def Phase.TablesEarly (p : Phase F) : Prop :=
  ∀ t ∈ [p.vehicle.dragCoeff, p.vehicle.liftCoeff, p.vehicle.sideForceCoeff],
    ∀ v ∈ tableVariables t, v ∈ beforeTables

/-- The three steering axes. -/
inductive Spec.AxisName
  | roll | yaw | pitch

/-- The steering polynomial of an axis. -/
def Spec.AxisName.axis : AxisName → Steering F → Axis F
  | .roll => (·.roll)
  | .yaw => (·.yaw)
  | .pitch => (·.pitch)

/-- The Euler angle of an axis. -/
def Spec.AxisName.angle : AxisName → Angles F → F
  | .roll => (·.roll)
  | .yaw => (·.yaw)
  | .pitch => (·.pitch)

/-- The angle prescribed for an axis, in degrees: a cubic polynomial of its variable. -/
def Spec.cubic (c0 c1 c2 c3 y : ℝ) : ℝ := c0 + c1 * y + c2 * y ^ 2 + c3 * y ^ 3

end Post
