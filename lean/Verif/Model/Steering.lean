import Verif.Model.Config
/-! # Model of `sim/src/steering.rs` -/

namespace Post
open Flt

/-- One steering axis: state variable and the four coefficients (`(StateVariable, [f64; 4])`). -/
@[ext] structure Axis (F : Type) where
  var : StateVariable
  c0 : F
  c1 : F
  c2 : F
  c3 : F

/-- steering.rs:15-22 struct `Steering` -/
@[ext] structure Steering (F : Type) where
  roll : Axis F
  yaw : Axis F
  pitch : Axis F

/-- The effect of one `if let Some(config)` block of steering.rs:31-42: replace the variable and
the coefficients 1 to 3, keep coefficient 0. -/
def Axis.updateWithConfig {F : Type} (a : Axis F) (c : Option (AxisConfig F)) : Axis F :=
  match c with
  | some c => { a with var := c.var, c1 := c.c1, c2 := c.c2, c3 := c.c3 }
  | none => a

/-- steering.rs:30-43 `Steering::update_with_config` -/
def Steering.updateWithConfig {F : Type} (s : Steering F) (c : SteeringConfig F) : Steering F where
  roll := s.roll.updateWithConfig c.roll
  yaw := s.yaw.updateWithConfig c.yaw
  pitch := s.pitch.updateWithConfig c.pitch

variable {F : Type} [Flt F]

/-- steering.rs:14 `#[derive(Default)]` (state.rs:119-120: the default variable is `Time`) -/
def Axis.default : Axis F := ⟨.time, 0, 0, 0, 0⟩
def Steering.default : Steering F := ⟨.default, .default, .default⟩

/-- steering.rs:47-53 `Steering::init` -/
def Steering.init (s : Steering F) (e : Angles F) : Steering F where
  roll := { s.roll with c0 := toDegrees e.roll }
  yaw := { s.yaw with c0 := toDegrees e.yaw }
  pitch := { s.pitch with c0 := toDegrees e.pitch }

/-- steering.rs:59-65 `Steering::calc_coeff`: the sum over `i` of `coeff_i * var.powi(i)` -/
def calcCoeff (var : F) (coeffs : List F) : F :=
  Flt.sum (coeffs.zipIdx.map fun (coeff, i) => coeff * powi var i)

/-- the angle of one axis in rad (one line of steering.rs:72-74) -/
def Axis.angle (a : Axis F) (s : State F) : F :=
  toRadians (calcCoeff (a.var.getValue s) [a.c0, a.c1, a.c2, a.c3])

/-- steering.rs:70-76 `Steering::euler_angles` -/
def Steering.eulerAngles (st : Steering F) (s : State F) : Angles F where
  roll := st.roll.angle s
  yaw := st.yaw.angle s
  pitch := st.pitch.angle s

end Post
