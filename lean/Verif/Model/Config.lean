import Verif.Model.Table
/-! # Model of `sim/src/config.rs` and of `Engine` (sim/src/vehicle.rs:200-213)

Only the data types; loading them from JSON is modelled in `Verif/Model/Json.lean`. -/

namespace Post

/-- The four gravitational parameters `[mu, J2, J3, J4]` of a planet (`[f64; 4]`). -/
@[ext] structure Grav (F : Type) where
  mu : F
  j2 : F
  j3 : F
  j4 : F

/-- config.rs:21-40 enum `PlanetConfig` -/
inductive PlanetConfig (F : Type)
  | spherical
  | fisher1960
  | smithsonian
  | custom (equatorialRadius polarRadius : F) (gravitationalParameters : Grav F)
      (rotationRate : F)

/-- config.rs:47-52 struct `AtmosphereConfig` -/
structure AtmosphereConfig (F : Type) where
  enabled : Option Bool
  wind : Option (V3 F)

/-- config.rs:59-69 struct `InitConfig` -/
structure InitConfig (F : Type) where
  latitude : F
  longitude : F
  azimuth : F
  altitude : F

/-- vehicle.rs:203-213 struct `Engine`; `incidence` is `[pitch, yaw]` -/
structure Engine (F : Type) where
  incidencePitch : F
  incidenceYaw : F
  thrustVac : F
  ispVac : F
  exitArea : F

/-- config.rs:76-93 struct `VehicleConfig` -/
structure VehicleConfig (F : Type) where
  structureMass : Option F
  propellantMass : Option F
  referenceArea : Option F
  dragCoeff : Option (Table F)
  liftCoeff : Option (Table F)
  sideForceCoeff : Option (Table F)
  engines : Option (List (Engine F))

/-- The configured part of one steering axis: a state variable and the coefficients of the
first, second and third power (config.rs:107, `(StateVariable, [f64; 3])`). -/
structure AxisConfig (F : Type) where
  var : StateVariable
  c1 : F
  c2 : F
  c3 : F

/-- config.rs:105-112 struct `SteeringConfig` -/
structure SteeringConfig (F : Type) where
  roll : Option (AxisConfig F)
  yaw : Option (AxisConfig F)
  pitch : Option (AxisConfig F)

/-- config.rs:119-136 struct `PhaseConfig` -/
structure PhaseConfig (F : Type) where
  init : Option (InitConfig F)
  vehicle : Option (VehicleConfig F)
  steering : Option (SteeringConfig F)
  planetModel : Option (PlanetConfig F)
  atmosphere : Option (AtmosphereConfig F)
  maxAcceleration : Option F
  stepsize : Option F
  endCriterion : Option (StateVariable × F)

/-- A phase configuration specifying nothing (the JSON object `{}`). -/
def PhaseConfig.empty {F : Type} : PhaseConfig F :=
  ⟨none, none, none, none, none, none, none, none⟩

end Post
