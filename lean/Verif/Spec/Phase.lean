import Verif.Spec.Run
/-! # Specification vocabulary for phase configurations -/

namespace Post.Spec
variable {F : Type} [Flt F]

/-- `p` is the phase made from the last configuration of `cs ++ [c]`, ready to run, after the
phases `cs` have been completed. -/
def Ready (cs : List (PhaseConfig F)) (c : PhaseConfig F) (p : Phase F) : Prop :=
  ∃ log prev p', Sequence 0 none cs log prev ∧ Phase.new prev c = .ok p' ∧ p = p'.reset

/-- The acceleration limit meant by a configured value: `-1` disables it. -/
def accelerationLimit (a : F) : F := if Flt.eq a (-1) then Flt.inf else a

/-- A parameter of the vehicle section. -/
def vehicleParam {β : Type} (f : VehicleConfig F → Option β) (c : PhaseConfig F) : Option β :=
  c.vehicle.bind f

/-- A parameter of the atmosphere section. -/
def atmosphereParam {β : Type} (f : AtmosphereConfig F → Option β) (c : PhaseConfig F) :
    Option β :=
  c.atmosphere.bind f

/-- One axis of the steering section. -/
def steeringAxis (f : SteeringConfig F → Option (AxisConfig F)) (c : PhaseConfig F) :
    Option (AxisConfig F) :=
  c.steering.bind f

/-- The atmosphere model selected by the `enabled` switch. -/
def atmosphereModel : Bool → AtmosphereModel
  | true => .standardAtmosphere1962
  | false => .noAtmosphere

/-- The steering axis follows the given configuration (its constant term is not configurable). -/
def Follows (a : Axis F) (c : AxisConfig F) : Prop :=
  a.var = c.var ∧ a.c1 = c.c1 ∧ a.c2 = c.c2 ∧ a.c3 = c.c3

/-- Every parameter of the phase `p` is the one in force after the configurations `cs`: the last
one specified, or the default. -/
structure ParametersInForce (cs : List (PhaseConfig F)) (p : Phase F) : Prop where
  planet : p.planet = Planet.ofConfig (inForce (·.planetModel) .spherical cs)
  atmosphere : p.atmosphere.model =
    atmosphereModel (inForce (atmosphereParam (·.enabled)) false cs)
  wind : p.atmosphere.wind = inForce (atmosphereParam (·.wind)) ⟨0, 0, 0⟩ cs
  structureMass : p.vehicle.structureMass = inForce (vehicleParam (·.structureMass)) 0 cs
  referenceArea : p.vehicle.referenceArea = inForce (vehicleParam (·.referenceArea)) 0 cs
  dragCoeff : p.vehicle.dragCoeff =
    inForce (vehicleParam (·.dragCoeff)) (.d1 ⟨(.time, []), [], .linear⟩) cs
  liftCoeff : p.vehicle.liftCoeff =
    inForce (vehicleParam (·.liftCoeff)) (.d1 ⟨(.time, []), [], .linear⟩) cs
  sideForceCoeff : p.vehicle.sideForceCoeff =
    inForce (vehicleParam (·.sideForceCoeff)) (.d1 ⟨(.time, []), [], .linear⟩) cs
  engines : p.vehicle.engines = inForce (vehicleParam (·.engines)) [] cs
  maxAcceleration : p.maxAcceleration =
    inForce (fun c => c.maxAcceleration.map accelerationLimit) Flt.inf cs
  roll : Follows p.steering.roll (inForce (steeringAxis (·.roll)) ⟨.time, 0, 0, 0⟩ cs)
  yaw : Follows p.steering.yaw (inForce (steeringAxis (·.yaw)) ⟨.time, 0, 0, 0⟩ cs)
  pitch : Follows p.steering.pitch (inForce (steeringAxis (·.pitch)) ⟨.time, 0, 0, 0⟩ cs)
  endCriterion : p.endCriterion = inForce (·.endCriterion) (.timeSinceEvent, 0) cs

/-- The configuration without its `init` section. -/
def eraseInit (c : PhaseConfig F) : PhaseConfig F := { c with init := none }

/-- The configuration without its `stepsize` entry. -/
def eraseStepsize (c : PhaseConfig F) : PhaseConfig F := { c with stepsize := none }

/-- The configuration with the initial altitude set to zero. -/
def eraseAltitude (c : PhaseConfig F) : PhaseConfig F :=
  { c with init := c.init.map fun i : InitConfig F => { i with altitude := 0 } }

/-- Two states have the same time, time since event, position, velocity and mass. -/
structure SamePrimary (s t : State F) : Prop where
  time : s.time = t.time
  timeSinceEvent : s.timeSinceEvent = t.timeSinceEvent
  position : s.position = t.position
  velocity : s.velocity = t.velocity
  mass : s.mass = t.mass

/-- The variables that are known before the attitude is computed. -/
def beforeSteering : List StateVariable := [
  .time, .timeSinceEvent, .position1, .position2, .position3, .positionNorm,
  .positionPlanet1, .positionPlanet2, .positionPlanet3, .altitude, .altitudeGeopotential,
  .velocity1, .velocity2, .velocity3, .velocityNorm,
  .velocityPlanet1, .velocityPlanet2, .velocityPlanet3, .velocityPlanetNorm,
  .velocityAtmosphere1, .velocityAtmosphere2, .velocityAtmosphere3, .velocityAtmosphereNorm,
  .gravityAcceleration1, .gravityAcceleration2, .gravityAcceleration3, .gravityAccelerationNorm,
  .mass, .propellantMass, .temperature, .pressure, .density, .machNumber, .dynamicPressure]

/-- The variables that are known before the aerodynamic coefficients are looked up. -/
def beforeTables : List StateVariable :=
  beforeSteering ++ [.alpha, .eulerAnglesRoll, .eulerAnglesYaw, .eulerAnglesPitch]

/-- The variables a table depends on. -/
def tableVariables : Table F → List StateVariable
  | .d1 t => [t.x.1]
  | .d2 t => [t.x.1, t.y.1]
  | .d3 t => [t.x.1, t.y.1, t.z.1]

end Post.Spec
