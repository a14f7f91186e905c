import Verif.Model.Json
import Verif.Spec.Table
/-! # Specification vocabulary for configuration files, written from the user manual -/

namespace Post.Spec
variable {F : Type}

/-! ## Simulation variables -/

/-- The name of each simulation variable in configuration files. -/
def variableName : StateVariable → String
  | .time => "time"
  | .timeSinceEvent => "time_since_event"
  | .position1 => "position1"
  | .position2 => "position2"
  | .position3 => "position3"
  | .positionNorm => "position_norm"
  | .positionPlanet1 => "position_planet1"
  | .positionPlanet2 => "position_planet2"
  | .positionPlanet3 => "position_planet3"
  | .altitude => "altitude"
  | .altitudeGeopotential => "altitude_geopotential"
  | .velocity1 => "velocity1"
  | .velocity2 => "velocity2"
  | .velocity3 => "velocity3"
  | .velocityNorm => "velocity_norm"
  | .velocityPlanet1 => "velocity_planet1"
  | .velocityPlanet2 => "velocity_planet2"
  | .velocityPlanet3 => "velocity_planet3"
  | .velocityPlanetNorm => "velocity_planet_norm"
  | .velocityAtmosphere1 => "velocity_atmosphere1"
  | .velocityAtmosphere2 => "velocity_atmosphere2"
  | .velocityAtmosphere3 => "velocity_atmosphere3"
  | .velocityAtmosphereNorm => "velocity_atmosphere_norm"
  | .acceleration1 => "acceleration1"
  | .acceleration2 => "acceleration2"
  | .acceleration3 => "acceleration3"
  | .accelerationNorm => "acceleration_norm"
  | .thrustForceBody1 => "thrust_force_body1"
  | .thrustForceBody2 => "thrust_force_body2"
  | .thrustForceBody3 => "thrust_force_body3"
  | .thrustForceBodyNorm => "thrust_force_body_norm"
  | .aeroForceBody1 => "aero_force_body1"
  | .aeroForceBody2 => "aero_force_body2"
  | .aeroForceBody3 => "aero_force_body3"
  | .aeroForceBodyNorm => "aero_force_body_norm"
  | .vehicleAccelerationBody1 => "vehicle_acceleration_body1"
  | .vehicleAccelerationBody2 => "vehicle_acceleration_body2"
  | .vehicleAccelerationBody3 => "vehicle_acceleration_body3"
  | .vehicleAccelerationBodyNorm => "vehicle_acceleration_body_norm"
  | .gravityAcceleration1 => "gravity_acceleration1"
  | .gravityAcceleration2 => "gravity_acceleration2"
  | .gravityAcceleration3 => "gravity_acceleration3"
  | .gravityAccelerationNorm => "gravity_acceleration_norm"
  | .mass => "mass"
  | .propellantMass => "propellant_mass"
  | .massflow => "massflow"
  | .temperature => "temperature"
  | .pressure => "pressure"
  | .density => "density"
  | .machNumber => "mach_number"
  | .dynamicPressure => "dynamic_pressure"
  | .alpha => "alpha"
  | .eulerAnglesRoll => "euler_angles_roll"
  | .eulerAnglesYaw => "euler_angles_yaw"
  | .eulerAnglesPitch => "euler_angles_pitch"
  | .throttle => "throttle"

/-- Euclidean length of a vector. -/
def length [Flt F] (v : V3 F) : F := Flt.sqrt (v.x * v.x + v.y * v.y + v.z * v.z)

/-- The table of simulation variables of the user manual (project.tex:494-536): name and
quantity. -/
def manualVariables [Flt F] : List (String × (State F → F)) := [
  ("time", fun s => s.time),
  ("time_since_event", fun s => s.timeSinceEvent),
  ("position1", fun s => s.position.x),
  ("position2", fun s => s.position.y),
  ("position3", fun s => s.position.z),
  ("position_norm", fun s => length s.position),
  ("position_planet1", fun s => s.positionPlanet.x),
  ("position_planet2", fun s => s.positionPlanet.y),
  ("position_planet3", fun s => s.positionPlanet.z),
  ("altitude", fun s => s.altitude),
  ("altitude_geopotential", fun s => s.altitudeGeopotential),
  ("velocity1", fun s => s.velocity.x),
  ("velocity2", fun s => s.velocity.y),
  ("velocity3", fun s => s.velocity.z),
  ("velocity_norm", fun s => length s.velocity),
  ("velocity_planet1", fun s => s.velocityPlanet.x),
  ("velocity_planet2", fun s => s.velocityPlanet.y),
  ("velocity_planet3", fun s => s.velocityPlanet.z),
  ("velocity_planet_norm", fun s => length s.velocityPlanet),
  ("velocity_atmosphere1", fun s => s.velocityAtmosphere.x),
  ("velocity_atmosphere2", fun s => s.velocityAtmosphere.y),
  ("velocity_atmosphere3", fun s => s.velocityAtmosphere.z),
  ("velocity_atmosphere_norm", fun s => length s.velocityAtmosphere),
  ("gravity_acceleration1", fun s => s.gravityAcceleration.x),
  ("gravity_acceleration2", fun s => s.gravityAcceleration.y),
  ("gravity_acceleration3", fun s => s.gravityAcceleration.z),
  ("gravity_acceleration_norm", fun s => length s.gravityAcceleration),
  ("mass", fun s => s.mass),
  ("propellant_mass", fun s => s.propellantMass),
  ("temperature", fun s => s.temperature),
  ("pressure", fun s => s.pressure),
  ("density", fun s => s.density),
  ("mach_number", fun s => s.machNumber),
  ("dynamic_pressure", fun s => s.dynamicPressure),
  ("alpha", fun s => s.alpha),
  ("euler_angles_roll", fun s => s.eulerAngles.roll),
  ("euler_angles_yaw", fun s => s.eulerAngles.yaw),
  ("euler_angles_pitch", fun s => s.eulerAngles.pitch)]

/-! ## Sections of a configuration file -/

/-- The kinds of sections. -/
inductive Kind
  | phase | init | vehicle | steering | atmosphere | customPlanet | engine | table
deriving DecidableEq

/-- The parameters of each kind of section. -/
def Kind.keys : Kind → List String
  | .phase => ["init", "vehicle", "steering", "planet_model", "atmosphere", "max_acceleration",
      "stepsize", "end_criterion"]
  | .init => ["latitude", "longitude", "azimuth", "altitude"]
  | .vehicle => ["structure_mass", "propellant_mass", "reference_area", "drag_coeff",
      "lift_coeff", "side_force_coeff", "engines"]
  | .steering => ["roll", "yaw", "pitch"]
  | .atmosphere => ["enabled", "wind"]
  | .customPlanet =>
      ["equatorial_radius", "polar_radius", "gravitational_parameters", "rotation_rate"]
  | .engine => ["incidence", "thrust_vac", "isp_vac", "exit_area"]
  | .table => ["x", "y", "z", "data", "interpolator"]

/-- `v` is given for parameter `k` of the section `j`: as a member of an object, or by position
in an array (which the loader also accepts). -/
def Given (keys : List String) (k : String) (j v : Json F) : Prop :=
  (∃ m, j = .obj m ∧ (k, v) ∈ m) ∨
  (∃ (l : List (Json F)) (i : Nat), j = .arr l ∧ keys[i]? = some k ∧ l[i]? = some v)

/-- `Section root kind j`: the JSON value `j` stands in the file `root` at a place where a
section of the given kind is expected. -/
inductive Section (root : Json F) : Kind → Json F → Prop
  | phase {l : List (Json F)} {j : Json F} : root = .arr l → j ∈ l → Section root .phase j
  | ofPhase {j v : Json F} {k : String} {kind : Kind} :
      (k, kind) ∈ [("init", .init), ("vehicle", .vehicle), ("steering", .steering),
        ("atmosphere", .atmosphere)] →
      Section root .phase j → Given Kind.phase.keys k j v → Section root kind v
  | customPlanet {j v : Json F} :
      Section root .phase j → Given Kind.phase.keys "planet_model" j (.obj [("custom", v)]) →
      Section root .customPlanet v
  | table {j v : Json F} {k : String} :
      k ∈ ["drag_coeff", "lift_coeff", "side_force_coeff"] →
      Section root .vehicle j → Given Kind.vehicle.keys k j v → Section root .table v
  | engine {j e : Json F} {l : List (Json F)} :
      Section root .vehicle j → Given Kind.vehicle.keys "engines" j (.arr l) → e ∈ l →
      Section root .engine e

/-- The tables of a phase configuration. -/
def tablesOf (c : PhaseConfig F) : List (Table F) :=
  match c.vehicle with
  | none => []
  | some v => [v.dragCoeff, v.liftCoeff, v.sideForceCoeff].filterMap id

/-! ## JSON form of tables -/

/-- the JSON array of some numbers -/
def numbers (l : List F) : Json F := .arr (l.map .num)
/-- the JSON form of a table axis -/
def axisJson (a : StateVariable × List F) : Json F :=
  .arr [.str (variableName a.1), numbers a.2]

/-- The members of the JSON object describing a table, as in the user manual
(project.tex:551-583). -/
def tableMembers : Table F → List (String × Json F)
  | .d1 t => [("x", axisJson t.x), ("data", numbers t.data)]
  | .d2 t => [("x", axisJson t.x), ("y", axisJson t.y), ("data", .arr (t.data.map numbers))]
  | .d3 t => [("x", axisJson t.x), ("y", axisJson t.y), ("z", axisJson t.z),
      ("data", .arr (t.data.map fun plane => .arr (plane.map numbers)))]

end Post.Spec
