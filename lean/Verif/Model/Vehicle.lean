import Verif.Model.Config
/-! # Model of `sim/src/vehicle.rs` -/

namespace Post
open Flt

/-- vehicle.rs:56-71 struct `Vehicle` -/
@[ext] structure Vehicle (F : Type) where
  structureMass : F
  initialPropellantMass : F
  referenceArea : F
  dragCoeff : Table F
  liftCoeff : Table F
  sideForceCoeff : Table F
  engines : List (Engine F)

/-- vehicle.rs:75-97 `Vehicle::update_with_config` -/
def Vehicle.updateWithConfig {F : Type} (v : Vehicle F) (c : VehicleConfig F) : Vehicle F where
  structureMass := c.structureMass.getD v.structureMass
  initialPropellantMass := c.propellantMass.getD v.initialPropellantMass
  referenceArea := c.referenceArea.getD v.referenceArea
  dragCoeff := c.dragCoeff.getD v.dragCoeff
  liftCoeff := c.liftCoeff.getD v.liftCoeff
  sideForceCoeff := c.sideForceCoeff.getD v.sideForceCoeff
  engines := c.engines.getD v.engines

variable {F : Type} [Flt F]

/-- vehicle.rs:55 `#[derive(Default)]` -/
def Vehicle.default : Vehicle F := ⟨0, 0, 0, .default, .default, .default, []⟩

/-- vehicle.rs:22-49 `side_side_angle` -/
def sideSideAngle (a b alpha : F) : Option F :=
  if eq alpha 0 then
    if gt b a then some (b - a) else some (a + b)
  else if eq alpha pi then some (a - b)
  else if gt (sin alpha * b) a then none
  else
    let beta0 := asin (sin alpha * b / a)
    let beta := if gt b a then pi - beta0 else beta0
    let gamma := pi - beta - alpha
    some (a * sin gamma / sin alpha)

/-- vehicle.rs:218-224 `Engine::thrust` -/
def Engine.thrust (e : Engine F) (pressureAtmos : F) : V3 F :=
  V3.mulS ⟨cos e.incidenceYaw * cos e.incidencePitch,
           sin e.incidenceYaw,
           cos e.incidenceYaw * sin e.incidencePitch⟩
    (e.thrustVac - e.exitArea * pressureAtmos)

/-- vehicle.rs:227-229 `Engine::massflow` -/
def Engine.massflow (e : Engine F) : F := -e.thrustVac / e.ispVac / STD_GRAVITY

/-- vehicle.rs:103-112 `Vehicle::alpha` -/
def Vehicle.alpha (velocity : V3 F) : F :=
  if lt velocity.x NEARLY_ZERO then
    if lt velocity.z NEARLY_ZERO then 0
    else signum velocity.z * pi / 2
  else atan (velocity.z / velocity.x)

/-- vehicle.rs:118-125 `Vehicle::thrust_force` -/
def Vehicle.thrustForce (v : Vehicle F) (throttle pressureAtmos : F) : V3 F :=
  V3.smul throttle (V3.sum (v.engines.map fun e => e.thrust pressureAtmos))

/-- vehicle.rs:130-132 `Vehicle::massflow` -/
def Vehicle.massflow (v : Vehicle F) (throttle : F) : F :=
  throttle * Flt.sum (v.engines.map fun e => e.massflow)

/-- vehicle.rs:148-173 `Vehicle::auto_throttle` -/
def Vehicle.autoThrottle (v : Vehicle F) (maxAcceleration mass pressureAtmos : F) (aero : V3 F) :
    F :=
  let maxThrust := v.thrustForce 1 pressureAtmos
  if V3.beq maxThrust .zero then 1
  else
    let angle := pi - V3.angle aero maxThrust
    match sideSideAngle (maxAcceleration * mass) aero.norm angle with
    | some reqThrust => clamp01 (reqThrust / maxThrust.norm)
    | none => 1

/-- vehicle.rs:190-194: NaN components are replaced by zero. -/
def nanToZero (a : F) : F := if isNan a then 0 else a

/-- vehicle.rs:180-197 `Vehicle::aero_force` -/
def Vehicle.aeroForce (v : Vehicle F) (s : State F) : Except Panic (V3 F) := do
  let cd ← v.dragCoeff.atState s
  let cl ← v.liftCoeff.atState s
  let cy ← v.sideForceCoeff.atState s
  let ca := cos s.alpha * cd - sin s.alpha * cl
  let cn := sin s.alpha * cd + cos s.alpha * cl
  let f := V3.smul (s.dynamicPressure * v.referenceArea) ⟨-ca, cy, -cn⟩
  .ok (f.map nanToZero)

end Post
