import Verif.Model.Transform
import Verif.Model.Planet
import Verif.Model.Atmosphere
import Verif.Model.Steering
import Verif.Model.Vehicle
import Verif.Model.Integrator
/-! # Model of `sim/src/phase.rs` -/

namespace Post
open Flt

/-- phase.rs:23-52 struct `Phase` -/
structure Phase (F : Type) where
  state : State F
  vehicle : Vehicle F
  steering : Steering F
  atmosphere : Atmosphere F
  planet : Planet F
  launch : Launch F
  integrator : Integrator
  maxAcceleration : F
  stepsize : F
  baseStepsize : F
  endCriterion : StateVariable × F
  endCriterionTries : Nat
  ended : Bool

/-- phase.rs:215-235 `Phase::default` -/
def Phase.default {F : Type} [Flt F] : Phase F where
  state := .default
  vehicle := .default
  maxAcceleration := inf
  steering := .default
  planet := .default
  launch := ⟨0, 0, 0⟩
  atmosphere := .default
  integrator := .rk4
  stepsize := 1
  baseStepsize := 1
  endCriterion := (.timeSinceEvent, 0)
  endCriterionTries := 0
  ended := false

namespace Phase
variable {F : Type} [Flt F]

/-- First part of `Phase::system`, phase.rs:71-81: planet-relative quantities, propellant,
gravity.  (`velocity_planet` is assigned twice with the same value in the code.) -/
def systemPlanet (p : Phase F) (s : State F) : State F :=
  { s with
    positionPlanet := (inertialToPlanet s.time p.planet.rotationRate).mulVec s.position
    velocityPlanet := p.planet.velocityPlanet s.position s.velocity
    altitude := p.planet.altitude s.position
    altitudeGeopotential := p.planet.geopotentialAltitude s.position
    propellantMass := s.mass - p.vehicle.structureMass
    gravityAcceleration := p.planet.gravity s.position }

/-- phase.rs:84: air-relative velocity -/
def systemAir (p : Phase F) (s : State F) : State F :=
  { s with velocityAtmosphere := p.atmosphere.velocityAtmosphere s }

/-- phase.rs:85-87: temperature, pressure and density -/
def systemAtmosphere (p : Phase F) (s : State F) : State F :=
  { s with
    temperature := p.atmosphere.temperature s
    pressure := p.atmosphere.pressure s
    density := p.atmosphere.density s }

/-- phase.rs:88-89: Mach number and dynamic pressure (reads the density set before) -/
def systemDynamic (p : Phase F) (s : State F) : State F :=
  { s with
    machNumber := p.atmosphere.machNumber s
    dynamicPressure := p.atmosphere.dynamicPressure s }

/-- phase.rs:92: attitude -/
def systemAttitude (p : Phase F) (s : State F) : State F :=
  { s with eulerAngles := p.steering.eulerAngles s }

/-- phase.rs:93: the rotation from inertial to body frame -/
def bodyRotation (p : Phase F) (s : State F) : M3 F := inertialToBody p.launch s.eulerAngles

/-- phase.rs:96: angle of attack -/
def systemAlpha (p : Phase F) (s : State F) : State F :=
  { s with alpha := Vehicle.alpha ((p.bodyRotation s).mulVec s.velocityAtmosphere) }

/-- phase.rs:97-111: aerodynamic force, throttle, thrust, mass flow and sensed acceleration -/
def systemForces (p : Phase F) (s : State F) (aero : V3 F) : State F :=
  let throttle := p.vehicle.autoThrottle p.maxAcceleration s.mass s.pressure aero
  let thrust := p.vehicle.thrustForce throttle s.pressure
  { s with
    aeroForceBody := aero
    throttle := throttle
    thrustForceBody := thrust
    massflow := p.vehicle.massflow throttle
    vehicleAccelerationBody := (aero + thrust).divS s.mass }

/-- phase.rs:112-113: the condition of the panic -/
def exceedsLimit (p : Phase F) (s : State F) : Bool :=
  gt s.vehicleAccelerationBody.norm (p.maxAcceleration * 1.001) || isNan s.throttle

/-- phase.rs:120-123: acceleration -/
def systemAcceleration (p : Phase F) (s : State F) : State F :=
  { s with
    acceleration := (p.bodyRotation s).transpose.mulVec s.vehicleAccelerationBody
      + s.gravityAcceleration }

/-- phase.rs:71-96: everything that is computed before the aerodynamic force -/
def systemPre (p : Phase F) (s : State F) : State F :=
  p.systemAlpha (p.systemAttitude (p.systemDynamic (p.systemAtmosphere (p.systemAir
    (p.systemPlanet s)))))

/-- phase.rs:67-126 `Phase::system`, the equations of motion -/
def system (p : Phase F) (s : State F) : Except Panic (State F) := do
  let s := p.systemPre s
  let aero ← p.vehicle.aeroForce s
  let s := p.systemForces s aero
  if p.exceedsLimit s then .error .maxAcceleration
  else .ok (p.systemAcceleration s)

/-- `self.end_criterion.0.get_value(state)` -/
def critValue (p : Phase F) (s : State F) : F := p.endCriterion.1.getValue s

/-- phase.rs:133-139 `Phase::time_to_go` -/
def timeToGo (p : Phase F) (old new : State F) : F :=
  let yT := p.critValue old - p.endCriterion.2
  let yT1 := p.critValue new - p.endCriterion.2
  (-yT) * p.stepsize / (yT1 - yT)

/-- phase.rs:146-154 `Phase::event_is_active` -/
def eventIsActive (p : Phase F) (old new : State F) : Bool :=
  if lt (p.critValue new) (p.critValue old) then lt (p.critValue new) p.endCriterion.2
  else gt (p.critValue new) p.endCriterion.2

/-- phase.rs:175: the end criterion is met -/
def criterionMet (p : Phase F) (s : State F) : Bool :=
  lt (abs (p.critValue s - p.endCriterion.2)) 1e-3

/-- phase.rs:166-191 `Phase::step` -/
def step (p : Phase F) : Except Panic (Phase F) :=
  if p.ended then .error .alreadyEnded
  else do
    let state ← p.integrator.step p.system p.state p.stepsize
    if p.criterionMet state then
      .ok { p with ended := true, state := state }
    else if p.eventIsActive p.state state then
      if p.endCriterionTries > 20 then .error .noZeroCrossing
      else
        .ok { p with
              stepsize := p.timeToGo p.state state
              endCriterionTries := p.endCriterionTries + 1 }
    else .ok { p with state := state }

end Phase

/-- What `Phase::run` prints after each step (phase.rs:203-210), before formatting to text. -/
structure Row (F : Type) where
  time : F
  positionPlanet : V3 F
  velocity : V3 F
  altitude : F
  propellantMass : F
deriving DecidableEq

/-- The printed fields of a state. -/
def State.row {F : Type} (s : State F) : Row F :=
  ⟨s.time, s.positionPlanet, s.velocity, s.altitude, s.propellantMass⟩

/-- Result of running a phase: the printed rows and the phase reached or the panic. -/
structure RunOut (F : Type) where
  rows : List (Row F)
  result : Except Panic (Phase F)

namespace Phase
variable {F : Type} [Flt F]

/-- phase.rs:201-211, the loop of `Phase::run`, cut off after `fuel` steps: `none` means that
the loop has not finished after `fuel` steps. -/
def loop : Nat → Phase F → Option (RunOut F)
  | fuel, p =>
    if p.ended then some ⟨[], .ok p⟩
    else match fuel with
      | 0 => none
      | fuel + 1 =>
        match p.step with
        | .error e => some ⟨[], .error e⟩
        | .ok p' => (loop fuel p').map fun o => ⟨p'.state.row :: o.rows, o.result⟩

/-- phase.rs:197-212 `Phase::run`, cut off after `fuel` steps.  The code's (possibly infinite)
run returns `o` iff `∃ fuel, run fuel p = some o`; it loops forever iff all of them are
`none`. -/
def run (fuel : Nat) (p : Phase F) : Option (RunOut F) :=
  match p.system p.state with
  | .error e => some ⟨[], .error e⟩
  | .ok s => loop fuel { p with state := s }

/-- phase.rs:247-249 -/
def applyPlanet (p : Phase F) (c : Option (PlanetConfig F)) : Phase F :=
  match c with
  | some c => { p with planet := Planet.ofConfig c }
  | none => p

/-- phase.rs:250-252 -/
def applyAtmosphere (p : Phase F) (c : Option (AtmosphereConfig F)) : Phase F :=
  match c with
  | some c => { p with atmosphere := p.atmosphere.updateWithConfig c }
  | none => p

/-- phase.rs:257-259: if the structure mass changed, the total mass is updated -/
def applyStructureMass (p : Phase F) (m : Option F) : Phase F :=
  match m with
  | some m => { p with state := { p.state with mass := p.state.propellantMass + m } }
  | none => p

/-- phase.rs:261-263: if the propellant mass changed, the total mass is updated -/
def applyPropellantMass (p : Phase F) (m : Option F) : Phase F :=
  match m with
  | some m => { p with state := { p.state with mass := p.vehicle.structureMass + m } }
  | none => p

/-- phase.rs:253-264 -/
def applyVehicle (p : Phase F) (c : Option (VehicleConfig F)) : Phase F :=
  match c with
  | some c =>
    let p := { p with vehicle := p.vehicle.updateWithConfig c }
    (p.applyStructureMass c.structureMass).applyPropellantMass c.propellantMass
  | none => p

/-- phase.rs:265-271 -/
def applyMaxAcceleration (p : Phase F) (c : Option F) : Phase F :=
  match c with
  | some a => if eq a (-1) then { p with maxAcceleration := inf }
      else { p with maxAcceleration := a }
  | none => p

/-- phase.rs:272-274 -/
def applySteering (p : Phase F) (c : Option (SteeringConfig F)) : Phase F :=
  match c with
  | some c => { p with steering := p.steering.updateWithConfig c }
  | none => p

/-- phase.rs:275-277 -/
def applyStepsize (p : Phase F) (c : Option F) : Phase F :=
  match c with
  | some h => { p with stepsize := h }
  | none => p

/-- phase.rs:278-280 -/
def applyEndCriterion (p : Phase F) (c : Option (StateVariable × F)) : Phase F :=
  match c with
  | some e => { p with endCriterion := e }
  | none => p

/-- phase.rs:246-280: the part of `Phase::new` that applies a configuration to a copy of the
previous phase -/
def applyConfig (p : Phase F) (c : PhaseConfig F) : Phase F :=
  let p := p.applyPlanet c.planetModel
  let p := p.applyAtmosphere c.atmosphere
  let p := p.applyVehicle c.vehicle
  let p := p.applyMaxAcceleration c.maxAcceleration
  let p := p.applySteering c.steering
  let p := p.applyStepsize c.stepsize
  p.applyEndCriterion c.endCriterion

/-- phase.rs:311-339 `Phase::init` -/
def init (p : Phase F) (c : InitConfig F) : Phase F :=
  let lat := toRadians c.latitude
  let long := toRadians c.longitude
  let az := toRadians c.azimuth
  let k := powi (p.planet.equatorialRadius / p.planet.polarRadius) 2
  let geocentricLat := atan (powi k 2 * tan lat)
  let distanceToSurface :=
    p.planet.equatorialRadius / sqrt (1 + (k - 1) * powi (sin geocentricLat) 2)
  let position := V3.smul distanceToSurface
    ⟨cos geocentricLat * cos long, cos geocentricLat * sin long, sin geocentricLat⟩
  { p with
    launch := ⟨geocentricLat, long, az⟩
    state := { p.state with
      position := position
      velocity := -(p.planet.velocityPlanet position .zero) } }

/-- phase.rs:238-291 `Phase::new` -/
def new (prev : Option (Phase F)) (c : PhaseConfig F) : Except Panic (Phase F) :=
  match prev with
  | some prev => .ok (prev.applyConfig c)
  | none =>
    match c.init with
    | none => .error .missingInit
    | some i => .ok ((Phase.default.applyConfig c).init i)

/-- phase.rs:298-305 `Phase::reset` -/
def reset (p : Phase F) : Phase F :=
  { p with
    state := { p.state with timeSinceEvent := 0 }
    stepsize := p.baseStepsize
    steering := p.steering.init p.state.eulerAngles
    ended := false
    endCriterionTries := 0 }

end Phase
end Post
