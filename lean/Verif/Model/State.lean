import Verif.Num
/-! # Model of `sim/src/state.rs`, `sim/src/utils/constants.rs` and of the panics of the crate -/

namespace Post

/-- All ways in which the modelled code can panic.  The first three are explicit panics of the
crate, the last three are the implicit panics of the Rust operations it uses. -/
inductive Panic
  /-- sim/src/phase.rs:116 "Could not stay in max. acceleration (check aero forces)" -/
  | maxAcceleration
  /-- sim/src/phase.rs:182 "Could not find zero crossing of event" -/
  | noZeroCrossing
  /-- sim/src/phase.rs:286 "First phase must include init config" -/
  | missingInit
  /-- sim/src/phase.rs:168 "Phase already has ended" -/
  | alreadyEnded
  /-- slice index out of bounds -/
  | indexOutOfBounds
  /-- `usize` subtraction below zero -/
  | underflow
deriving DecidableEq, Repr

section
variable {F : Type} [Flt F]

/-! ## sim/src/utils/constants.rs:8-28 -/

/-- constants.rs:8 -/
def NEARLY_ZERO : F := 1e-6
/-- constants.rs:11 -/
def METER_PER_FOOT : F := 3.048e-01
/-- constants.rs:12 -/
def SQUARE_METER_PER_SQUARE_FOOT : F := METER_PER_FOOT * METER_PER_FOOT
/-- constants.rs:13 -/
def CUBIC_METER_PER_CUBIC_FOOT : F := METER_PER_FOOT * METER_PER_FOOT * METER_PER_FOOT
/-- constants.rs:14 -/
def KELVIN_PER_RANKIN : F := 1 / 1.8
/-- constants.rs:15 -/
def KILOGRAM_PER_POUND : F := 4.535924e-1
/-- constants.rs:24 -/
def STD_GRAVITY : F := 9.80665
/-- constants.rs:16 -/
def PASCAL_PER_PSF : F := KILOGRAM_PER_POUND * STD_GRAVITY / SQUARE_METER_PER_SQUARE_FOOT
/-- constants.rs:25 -/
def AIR_MOLECULAR_WEIGHT : F := 28.9644
/-- constants.rs:26 -/
def GAS_CONSTANT : F := 8.31432e3
/-- constants.rs:27 -/
def AIR_KAPPA : F := 1.40
/-- constants.rs:28 -/
def AIR_GAS_CONSTANT : F := GAS_CONSTANT / AIR_MOLECULAR_WEIGHT
end

/-- `[f64; 3]` of Euler angles in the order roll, yaw, pitch (state.rs:63-64). -/
@[ext] structure Angles (F : Type) where
  roll : F
  yaw : F
  pitch : F
deriving DecidableEq

/-- state.rs:15-67, struct `State` -/
@[ext] structure State (F : Type) where
  time : F
  timeSinceEvent : F
  position : V3 F
  positionPlanet : V3 F
  altitude : F
  altitudeGeopotential : F
  velocity : V3 F
  velocityPlanet : V3 F
  velocityAtmosphere : V3 F
  acceleration : V3 F
  thrustForceBody : V3 F
  aeroForceBody : V3 F
  vehicleAccelerationBody : V3 F
  gravityAcceleration : V3 F
  mass : F
  propellantMass : F
  massflow : F
  temperature : F
  pressure : F
  density : F
  machNumber : F
  dynamicPressure : F
  alpha : F
  eulerAngles : Angles F
  throttle : F
deriving DecidableEq

/-- state.rs:115-231, enum `StateVariable` (same order of variants) -/
inductive StateVariable
  | time | timeSinceEvent
  | position1 | position2 | position3 | positionNorm
  | positionPlanet1 | positionPlanet2 | positionPlanet3
  | altitude | altitudeGeopotential
  | velocity1 | velocity2 | velocity3 | velocityNorm
  | velocityPlanet1 | velocityPlanet2 | velocityPlanet3 | velocityPlanetNorm
  | velocityAtmosphere1 | velocityAtmosphere2 | velocityAtmosphere3 | velocityAtmosphereNorm
  | acceleration1 | acceleration2 | acceleration3 | accelerationNorm
  | thrustForceBody1 | thrustForceBody2 | thrustForceBody3 | thrustForceBodyNorm
  | aeroForceBody1 | aeroForceBody2 | aeroForceBody3 | aeroForceBodyNorm
  | vehicleAccelerationBody1 | vehicleAccelerationBody2 | vehicleAccelerationBody3
  | vehicleAccelerationBodyNorm
  | gravityAcceleration1 | gravityAcceleration2 | gravityAcceleration3 | gravityAccelerationNorm
  | mass | propellantMass | massflow
  | temperature | pressure | density | machNumber | dynamicPressure
  | alpha | eulerAnglesRoll | eulerAnglesYaw | eulerAnglesPitch
  | throttle
deriving DecidableEq, Repr

section
variable {F : Type} [Flt F]

/-- `Angles` of zeros: `[f64; 3]::default()` -/
def Angles.zero : Angles F := ⟨0, 0, 0⟩

/-- state.rs:15 `#[derive(Default)]`: every field zero. -/
def State.default : State F where
  time := 0
  timeSinceEvent := 0
  position := .zero
  positionPlanet := .zero
  altitude := 0
  altitudeGeopotential := 0
  velocity := .zero
  velocityPlanet := .zero
  velocityAtmosphere := .zero
  acceleration := .zero
  thrustForceBody := .zero
  aeroForceBody := .zero
  vehicleAccelerationBody := .zero
  gravityAcceleration := .zero
  mass := 0
  propellantMass := 0
  massflow := 0
  temperature := 0
  pressure := 0
  density := 0
  machNumber := 0
  dynamicPressure := 0
  alpha := 0
  eulerAngles := .zero
  throttle := 0

/-- state.rs:74-83 `State::from_vec`: primary state from vectors, everything else default.
`SVector<f64, n>` is modelled as `Fin n → F`. -/
def State.fromVec (time : Fin 2 → F) (state : Fin 7 → F) : State F :=
  { State.default with
    time := time 0
    timeSinceEvent := time 1
    position := ⟨state 0, state 1, state 2⟩
    velocity := ⟨state 3, state 4, state 5⟩
    mass := state 6 }

/-- A vector with seven given components (`vector![..]`). -/
def vec7 {F : Type} (a b c d e f g : F) : Fin 7 → F
  | 0 => a | 1 => b | 2 => c | 3 => d | 4 => e | 5 => f | 6 => g

/-- A vector with two given components (`vector![..]`). -/
def vec2 {F : Type} (a b : F) : Fin 2 → F
  | 0 => a | 1 => b

/-- state.rs:87-97 `State::to_differentials_vector` -/
def State.toDifferentialsVector {F : Type} (s : State F) : Fin 7 → F :=
  vec7 s.velocity.x s.velocity.y s.velocity.z
    s.acceleration.x s.acceleration.y s.acceleration.z s.massflow

/-- state.rs:100-110 `State::to_primary_vec` -/
def State.toPrimaryVec {F : Type} (s : State F) : Fin 7 → F :=
  vec7 s.position.x s.position.y s.position.z
    s.velocity.x s.velocity.y s.velocity.z s.mass

/-- state.rs:235-294 `StateVariable::get_value` -/
def StateVariable.getValue (v : StateVariable) (s : State F) : F :=
  match v with
  | .time => s.time
  | .timeSinceEvent => s.timeSinceEvent
  | .position1 => s.position.x
  | .position2 => s.position.y
  | .position3 => s.position.z
  | .positionNorm => s.position.norm
  | .positionPlanet1 => s.positionPlanet.x
  | .positionPlanet2 => s.positionPlanet.y
  | .positionPlanet3 => s.positionPlanet.z
  | .altitude => s.altitude
  | .altitudeGeopotential => s.altitudeGeopotential
  | .velocity1 => s.velocity.x
  | .velocity2 => s.velocity.y
  | .velocity3 => s.velocity.z
  | .velocityNorm => s.velocity.norm
  | .velocityPlanet1 => s.velocityPlanet.x
  | .velocityPlanet2 => s.velocityPlanet.y
  | .velocityPlanet3 => s.velocityPlanet.z
  | .velocityPlanetNorm => s.velocityPlanet.norm
  | .velocityAtmosphere1 => s.velocityAtmosphere.x
  | .velocityAtmosphere2 => s.velocityAtmosphere.y
  | .velocityAtmosphere3 => s.velocityAtmosphere.z
  | .velocityAtmosphereNorm => s.velocityAtmosphere.norm
  | .acceleration1 => s.acceleration.x
  | .acceleration2 => s.acceleration.y
  | .acceleration3 => s.acceleration.z
  | .accelerationNorm => s.acceleration.norm
  | .thrustForceBody1 => s.thrustForceBody.x
  | .thrustForceBody2 => s.thrustForceBody.y
  | .thrustForceBody3 => s.thrustForceBody.z
  | .thrustForceBodyNorm => s.thrustForceBody.norm
  | .aeroForceBody1 => s.aeroForceBody.x
  | .aeroForceBody2 => s.aeroForceBody.y
  | .aeroForceBody3 => s.aeroForceBody.z
  | .aeroForceBodyNorm => s.aeroForceBody.norm
  | .vehicleAccelerationBody1 => s.vehicleAccelerationBody.x
  | .vehicleAccelerationBody2 => s.vehicleAccelerationBody.y
  | .vehicleAccelerationBody3 => s.vehicleAccelerationBody.z
  | .vehicleAccelerationBodyNorm => s.vehicleAccelerationBody.norm
  | .gravityAcceleration1 => s.gravityAcceleration.x
  | .gravityAcceleration2 => s.gravityAcceleration.y
  | .gravityAcceleration3 => s.gravityAcceleration.z
  | .gravityAccelerationNorm => s.gravityAcceleration.norm
  | .mass => s.mass
  | .propellantMass => s.propellantMass
  | .massflow => s.massflow
  | .temperature => s.temperature
  | .pressure => s.pressure
  | .density => s.density
  | .machNumber => s.machNumber
  | .dynamicPressure => s.dynamicPressure
  | .alpha => s.alpha
  | .eulerAnglesRoll => s.eulerAngles.roll
  | .eulerAnglesYaw => s.eulerAngles.yaw
  | .eulerAnglesPitch => s.eulerAngles.pitch
  | .throttle => s.throttle

end
end Post
