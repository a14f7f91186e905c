import Verif.Model.Sim
/-! # Model of loading a configuration: `serde` derives in `sim/src/config.rs`,
`sim/src/state.rs:117-118`, `sim/src/vehicle.rs:201-202`, `sim/src/utils/tables/mod.rs:20-122`,
`sim/src/utils/tables/deserialization.rs`, and of `Simulation::from_file` and `main`.

The model starts from the JSON value tree; the text parser of `serde_json` (with its limits on
nesting and number range) is modelled in `Model/JsonText.lean`.  Objects are lists of members in the order of the
file, so duplicate keys are visible, as they are to `serde`.  The text of error messages is not
modelled: a failed deserialisation is `none`. -/

namespace Post

/-- A JSON value; numbers are already converted to the arithmetic `F`. -/
inductive Json (F : Type)
  | null
  | bool (b : Bool)
  | num (x : F)
  | str (s : String)
  | arr (l : List (Json F))
  | obj (m : List (String × Json F))

namespace De
variable {F : Type}

/-! ## Deserialisers of the standard types -/

/-- `f64` -/
def f64 : Json F → Option F
  | .num x => some x
  | _ => none

/-- `bool` -/
def bool : Json F → Option Bool
  | .bool b => some b
  | _ => none

/-- `Option<T>`: `null` is `None`, everything else must be a `T`. -/
def option {α : Type} (d : Json F → Option α) : Json F → Option (Option α)
  | .null => some none
  | j => (d j).map some

/-- `Vec<T>` and `Box<[T]>`: every element must be a `T`. -/
def list {α : Type} (d : Json F → Option α) : Json F → Option (List α)
  | .arr l => l.mapM d
  | _ => none

/-- A pair `(A, B)`: an array of exactly two elements. -/
def pair {α β : Type} (d : Json F → Option α) (e : Json F → Option β) : Json F → Option (α × β)
  | .arr [a, b] => do return (← d a, ← e b)
  | _ => none

/-- `[f64; 2]` -/
def arr2 : Json F → Option (F × F)
  | .arr [a, b] => do return (← f64 a, ← f64 b)
  | _ => none

/-- `[f64; 3]`, also nalgebra's `Vector3<f64>` -/
def arr3 : Json F → Option (F × F × F)
  | .arr [a, b, c] => do return (← f64 a, ← f64 b, ← f64 c)
  | _ => none

/-- `[f64; 4]` -/
def arr4 : Json F → Option (F × F × F × F)
  | .arr [a, b, c, d] => do return (← f64 a, ← f64 b, ← f64 c, ← f64 d)
  | _ => none

/-! ## `#[derive(Deserialize)]` on structs with `deny_unknown_fields` -/

/-- All keys of the object are field names and no key occurs twice: otherwise the derived
visitor reports an unknown or a duplicate field. -/
def membersOk (names : List String) : List (String × Json F) → Bool
  | [] => true
  | (k, _) :: m => names.contains k && !(m.any fun e => e.1 == k) && membersOk names m

/-- The value of the member with the given key. -/
def lookup (k : String) : List (String × Json F) → Option (Json F)
  | [] => none
  | (k', v) :: m => if k' == k then some v else lookup k m

/-- The members of a JSON value deserialised as a struct with fields `names`, the last
`defaulted` of which carry `#[serde(default)]`.  Besides an object, `serde` accepts an array
with the fields in order, in which only defaulted fields may be missing at the end. -/
def members (names : List String) (defaulted : Nat) :
    Json F → Option (List (String × Json F))
  | .obj m => if membersOk names m then some m else none
  | .arr l =>
    if l.length ≤ names.length ∧ names.length ≤ l.length + defaulted then some (names.zip l)
    else none
  | _ => none

/-- A field without `Option`: it must be present. -/
def req {α : Type} (m : List (String × Json F)) (name : String) (d : Json F → Option α) :
    Option α :=
  (lookup name m).bind d

/-- A field of type `Option<T>`: absent is `None`. -/
def opt {α : Type} (m : List (String × Json F)) (name : String) (d : Json F → Option α) :
    Option (Option α) :=
  match lookup name m with
  | none => some none
  | some j => option d j

/-- A field with `#[serde(default)]`: absent is the default value. -/
def dflt {α : Type} (m : List (String × Json F)) (name : String) (d : Json F → Option α)
    (default : α) : Option α :=
  match lookup name m with
  | none => some default
  | some j => d j

/-! ## Enums -/

/-- serde's `rename_all = "snake_case"` on variants: an underscore before every upper-case
letter but the first character, everything in lower case. -/
def snakeCase (s : String) : String :=
  String.ofList (go true s.toList)
where
  /-- the loop over the characters; the flag says that it is the first one -/
  go : Bool → List Char → List Char
  | _, [] => []
  | first, c :: cs =>
    if !first && c.isUpper then '_' :: c.toLower :: go false cs else c.toLower :: go false cs

/-- The variant identifier (string or single key of an object) and its content, as `serde_json`
reads an externally tagged enum. -/
def variant : Json F → Option (String × Option (Json F))
  | .str s => some (s, none)
  | .obj [(s, j)] => some (s, some j)
  | _ => none

/-- A unit variant has no content, or the content `null`. -/
def unitContent : Option (Json F) → Option Unit
  | none => some ()
  | some .null => some ()
  | some _ => none

end De

/-- The identifier of each variant in the source (state.rs:119-231). -/
def StateVariable.ident : StateVariable → String
  | .time => "Time"
  | .timeSinceEvent => "TimeSinceEvent"
  | .position1 => "Position1"
  | .position2 => "Position2"
  | .position3 => "Position3"
  | .positionNorm => "PositionNorm"
  | .positionPlanet1 => "PositionPlanet1"
  | .positionPlanet2 => "PositionPlanet2"
  | .positionPlanet3 => "PositionPlanet3"
  | .altitude => "Altitude"
  | .altitudeGeopotential => "AltitudeGeopotential"
  | .velocity1 => "Velocity1"
  | .velocity2 => "Velocity2"
  | .velocity3 => "Velocity3"
  | .velocityNorm => "VelocityNorm"
  | .velocityPlanet1 => "VelocityPlanet1"
  | .velocityPlanet2 => "VelocityPlanet2"
  | .velocityPlanet3 => "VelocityPlanet3"
  | .velocityPlanetNorm => "VelocityPlanetNorm"
  | .velocityAtmosphere1 => "VelocityAtmosphere1"
  | .velocityAtmosphere2 => "VelocityAtmosphere2"
  | .velocityAtmosphere3 => "VelocityAtmosphere3"
  | .velocityAtmosphereNorm => "VelocityAtmosphereNorm"
  | .acceleration1 => "Acceleration1"
  | .acceleration2 => "Acceleration2"
  | .acceleration3 => "Acceleration3"
  | .accelerationNorm => "AccelerationNorm"
  | .thrustForceBody1 => "ThrustForceBody1"
  | .thrustForceBody2 => "ThrustForceBody2"
  | .thrustForceBody3 => "ThrustForceBody3"
  | .thrustForceBodyNorm => "ThrustForceBodyNorm"
  | .aeroForceBody1 => "AeroForceBody1"
  | .aeroForceBody2 => "AeroForceBody2"
  | .aeroForceBody3 => "AeroForceBody3"
  | .aeroForceBodyNorm => "AeroForceBodyNorm"
  | .vehicleAccelerationBody1 => "VehicleAccelerationBody1"
  | .vehicleAccelerationBody2 => "VehicleAccelerationBody2"
  | .vehicleAccelerationBody3 => "VehicleAccelerationBody3"
  | .vehicleAccelerationBodyNorm => "VehicleAccelerationBodyNorm"
  | .gravityAcceleration1 => "GravityAcceleration1"
  | .gravityAcceleration2 => "GravityAcceleration2"
  | .gravityAcceleration3 => "GravityAcceleration3"
  | .gravityAccelerationNorm => "GravityAccelerationNorm"
  | .mass => "Mass"
  | .propellantMass => "PropellantMass"
  | .massflow => "Massflow"
  | .temperature => "Temperature"
  | .pressure => "Pressure"
  | .density => "Density"
  | .machNumber => "MachNumber"
  | .dynamicPressure => "DynamicPressure"
  | .alpha => "Alpha"
  | .eulerAnglesRoll => "EulerAnglesRoll"
  | .eulerAnglesYaw => "EulerAnglesYaw"
  | .eulerAnglesPitch => "EulerAnglesPitch"
  | .throttle => "Throttle"

/-- All variants, in the order of the source (state.rs:119-231). -/
def StateVariable.all : List StateVariable := [
  .time, .timeSinceEvent, .position1, .position2, .position3, .positionNorm,
  .positionPlanet1, .positionPlanet2, .positionPlanet3, .altitude, .altitudeGeopotential,
  .velocity1, .velocity2, .velocity3, .velocityNorm,
  .velocityPlanet1, .velocityPlanet2, .velocityPlanet3, .velocityPlanetNorm,
  .velocityAtmosphere1, .velocityAtmosphere2, .velocityAtmosphere3, .velocityAtmosphereNorm,
  .acceleration1, .acceleration2, .acceleration3, .accelerationNorm,
  .thrustForceBody1, .thrustForceBody2, .thrustForceBody3, .thrustForceBodyNorm,
  .aeroForceBody1, .aeroForceBody2, .aeroForceBody3, .aeroForceBodyNorm,
  .vehicleAccelerationBody1, .vehicleAccelerationBody2, .vehicleAccelerationBody3,
  .vehicleAccelerationBodyNorm,
  .gravityAcceleration1, .gravityAcceleration2, .gravityAcceleration3, .gravityAccelerationNorm,
  .mass, .propellantMass, .massflow, .temperature, .pressure, .density, .machNumber,
  .dynamicPressure, .alpha, .eulerAnglesRoll, .eulerAnglesYaw, .eulerAnglesPitch, .throttle]

namespace De
variable {F : Type}

/-- The variant selected by a string: the first one whose snake-case name it is. -/
def stateVariableOfName (s : String) : Option StateVariable :=
  StateVariable.all.find? fun v => snakeCase v.ident == s

/-- state.rs:117-118 `StateVariable` (`rename_all = "snake_case"`, unit variants) -/
def stateVariable (j : Json F) : Option StateVariable := do
  let (s, content) ← variant j
  let v ← stateVariableOfName s
  unitContent content
  return v

/-- tables/mod.rs:116-122 `Interpolator` -/
def interpolator (j : Json F) : Option Interpolator := do
  let (s, content) ← variant j
  unitContent content
  if s == snakeCase "Linear" then some .linear else none

/-! ## Tables -/

/-- a table axis `(StateVariable, Box<[f64]>)` -/
def axis : Json F → Option (StateVariable × List F) := pair stateVariable (list f64)

variable [Flt F]

/-- deserialization.rs:19-34: `Table1DUnchecked` and its conversion to `Table1D` -/
def table1D (j : Json F) : Option (Table1D F) := do
  let m ← members ["x", "data", "interpolator"] 1 j
  let x ← req m "x" axis
  let data ← req m "data" (list f64)
  let i ← dflt m "interpolator" interpolator .linear
  (Table1D.tryNew x data i).toOption

/-- deserialization.rs:36-57: `Table2DUnchecked` and its conversion to `Table2D` -/
def table2D (j : Json F) : Option (Table2D F) := do
  let m ← members ["x", "y", "data", "interpolator"] 1 j
  let x ← req m "x" axis
  let y ← req m "y" axis
  let data ← req m "data" (list (list f64))
  let i ← dflt m "interpolator" interpolator .linear
  (Table2D.tryNew x y data i).toOption

/-- deserialization.rs:59-83: `Table3DUnchecked` and its conversion to `Table3D` -/
def table3D (j : Json F) : Option (Table3D F) := do
  let m ← members ["x", "y", "z", "data", "interpolator"] 1 j
  let x ← req m "x" axis
  let y ← req m "y" axis
  let z ← req m "z" axis
  let data ← req m "data" (list (list (list f64)))
  let i ← dflt m "interpolator" interpolator .linear
  (Table3D.tryNew x y z data i).toOption

/-- tables/mod.rs:20-29 `#[serde(untagged)] enum Table`: the first variant that fits. -/
def table (j : Json F) : Option (Table F) :=
  match table1D j with
  | some t => some (.d1 t)
  | none =>
    match table2D j with
    | some t => some (.d2 t)
    | none =>
      match table3D j with
      | some t => some (.d3 t)
      | none => none

/-! ## Configuration sections -/

/-- config.rs:18-40 `PlanetConfig` -/
def planetConfig (j : Json F) : Option (PlanetConfig F) := do
  let (s, content) ← variant j
  if s == snakeCase "Spherical" then do unitContent content; return .spherical
  else if s == snakeCase "Fisher1960" then do unitContent content; return .fisher1960
  else if s == snakeCase "Smithsonian" then do unitContent content; return .smithsonian
  else if s == snakeCase "Custom" then do
    let j ← content
    let m ← members
      ["equatorial_radius", "polar_radius", "gravitational_parameters", "rotation_rate"] 0 j
    let a ← req m "equatorial_radius" f64
    let b ← req m "polar_radius" f64
    let (mu, j2, j3, j4) ← req m "gravitational_parameters" arr4
    let w ← req m "rotation_rate" f64
    return .custom a b ⟨mu, j2, j3, j4⟩ w
  else none

/-- `Vector3<f64>`: a flat array of three numbers (nalgebra's `serde-serialize` feature) -/
def vector3 (j : Json F) : Option (V3 F) := do
  let (x, y, z) ← arr3 j
  return ⟨x, y, z⟩

/-- config.rs:45-52 `AtmosphereConfig` -/
def atmosphereConfig (j : Json F) : Option (AtmosphereConfig F) := do
  let m ← members ["enabled", "wind"] 0 j
  let enabled ← opt m "enabled" bool
  let wind ← opt m "wind" vector3
  return ⟨enabled, wind⟩

/-- config.rs:57-69 `InitConfig` -/
def initConfig (j : Json F) : Option (InitConfig F) := do
  let m ← members ["latitude", "longitude", "azimuth", "altitude"] 0 j
  let latitude ← req m "latitude" f64
  let longitude ← req m "longitude" f64
  let azimuth ← req m "azimuth" f64
  let altitude ← req m "altitude" f64
  return ⟨latitude, longitude, azimuth, altitude⟩

/-- vehicle.rs:201-213 `Engine` -/
def engine (j : Json F) : Option (Engine F) := do
  let m ← members ["incidence", "thrust_vac", "isp_vac", "exit_area"] 0 j
  let (pitch, yaw) ← req m "incidence" arr2
  let thrustVac ← req m "thrust_vac" f64
  let ispVac ← req m "isp_vac" f64
  let exitArea ← req m "exit_area" f64
  return ⟨pitch, yaw, thrustVac, ispVac, exitArea⟩

/-- config.rs:74-93 `VehicleConfig` -/
def vehicleConfig (j : Json F) : Option (VehicleConfig F) := do
  let m ← members ["structure_mass", "propellant_mass", "reference_area", "drag_coeff",
    "lift_coeff", "side_force_coeff", "engines"] 0 j
  let structureMass ← opt m "structure_mass" f64
  let propellantMass ← opt m "propellant_mass" f64
  let referenceArea ← opt m "reference_area" f64
  let dragCoeff ← opt m "drag_coeff" table
  let liftCoeff ← opt m "lift_coeff" table
  let sideForceCoeff ← opt m "side_force_coeff" table
  let engines ← opt m "engines" (list engine)
  return ⟨structureMass, propellantMass, referenceArea, dragCoeff, liftCoeff, sideForceCoeff,
    engines⟩

/-- one steering axis, `(StateVariable, [f64; 3])` -/
def axisConfig (j : Json F) : Option (AxisConfig F) := do
  let (v, c1, c2, c3) ← pair stateVariable arr3 j
  return ⟨v, c1, c2, c3⟩

/-- config.rs:103-112 `SteeringConfig` -/
def steeringConfig (j : Json F) : Option (SteeringConfig F) := do
  let m ← members ["roll", "yaw", "pitch"] 0 j
  let roll ← opt m "roll" axisConfig
  let yaw ← opt m "yaw" axisConfig
  let pitch ← opt m "pitch" axisConfig
  return ⟨roll, yaw, pitch⟩

/-- config.rs:117-136 `PhaseConfig` -/
def phaseConfig (j : Json F) : Option (PhaseConfig F) := do
  let m ← members ["init", "vehicle", "steering", "planet_model", "atmosphere",
    "max_acceleration", "stepsize", "end_criterion"] 0 j
  let init ← opt m "init" initConfig
  let vehicle ← opt m "vehicle" vehicleConfig
  let steering ← opt m "steering" steeringConfig
  let planetModel ← opt m "planet_model" planetConfig
  let atmosphere ← opt m "atmosphere" atmosphereConfig
  let maxAcceleration ← opt m "max_acceleration" f64
  let stepsize ← opt m "stepsize" f64
  let endCriterion ← opt m "end_criterion" (pair stateVariable f64)
  return ⟨init, vehicle, steering, planetModel, atmosphere, maxAcceleration, stepsize,
    endCriterion⟩

/-- lib.rs:42 `serde_json::from_reader::<Vec<PhaseConfig>>` after parsing the text -/
def config : Json F → Option (List (PhaseConfig F)) := list phaseConfig

end De

/-! ## `Simulation::from_file` and `main` -/

/-- What the program sees of the configuration file. -/
inductive File (F : Type)
  /-- it cannot be opened (lib.rs:39) -/
  | unreadable
  /-- it is not a JSON document (lib.rs:42) -/
  | notJson
  /-- it holds the given JSON value -/
  | json (j : Json F)

/-- lib.rs:38-45 `Simulation::from_file` -/
def Simulation.fromFile {F : Type} [Flt F] : File F → Option (List (PhaseConfig F))
  | .unreadable => none
  | .notJson => none
  | .json j => De.config j

/-- Observable outcome of the program. -/
inductive Exit
  /-- `main` returned `Ok(())` -/
  | success
  /-- `main` returned an error -/
  | loadError
  /-- a panic -/
  | panic (p : Panic)
deriving DecidableEq, Repr

/-- src/main.rs:38-46 `main` after argument parsing: the lines printed to standard output and
the exit status.  `none`: still running with this fuel. -/
def main {F : Type} [Flt F] (fuel : Nat) (file : File F) : Option (List (LogEntry F) × Exit) :=
  match Simulation.fromFile file with
  | none => some ([], .loadError)
  | some config =>
    (Simulation.run fuel config).map fun o =>
      (o.log, match o.result with | .ok _ => .success | .error p => .panic p)

end Post
