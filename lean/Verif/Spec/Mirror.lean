import Verif.Spec.Turn
/-! # Specification vocabulary: the same mission on the other hemisphere -/

namespace Post.Spec

/-- The state variables that change their sign when everything is mirrored at the plane of the
equator: components along the polar axis, lateral components in the body frame, roll and yaw. -/
def oddVariables : List StateVariable :=
  [.position3, .positionPlanet3, .velocity3, .velocityPlanet3, .velocityAtmosphere3,
   .acceleration3, .gravityAcceleration3, .thrustForceBody2, .aeroForceBody2,
   .vehicleAccelerationBody2, .eulerAnglesRoll, .eulerAnglesYaw]

/-- The variable is the same in a mirrored state. -/
def MirrorEven (v : StateVariable) : Prop := v ∉ oddVariables

/-- The planet looks the same from the north and from the south: no third harmonic. -/
def SymmetricPlanet (p : Planet XR) : Prop := p.grav.j3 = .fin 0

noncomputable section

/-- A vector of the inertial frame mirrored at the plane of the equator. -/
def mirrorVec (v : V3 XR) : V3 XR := ⟨v.x, v.y, -v.z⟩

/-- A vector of the body frame mirrored at the vertical plane of the body. -/
def mirrorBody (v : V3 XR) : V3 XR := ⟨v.x, -v.y, v.z⟩

/-- A table with the opposite values. -/
def negTable : Table XR → Table XR
  | .d1 t => .d1 { t with data := t.data.map (-·) }
  | .d2 t => .d2 { t with data := t.data.map (·.map (-·)) }
  | .d3 t => .d3 { t with data := t.data.map (·.map (·.map (-·))) }

/-- An engine mounted on the other side. -/
def mirrorEngine (e : Engine XR) : Engine XR := { e with incidenceYaw := -e.incidenceYaw }

/-- The vehicle seen in a mirror. -/
def mirrorVehicleConfig (v : VehicleConfig XR) : VehicleConfig XR :=
  { v with
    sideForceCoeff := v.sideForceCoeff.map negTable
    engines := v.engines.map (·.map mirrorEngine) }

/-- The opposite turns about an axis. -/
def negAxisConfig (a : AxisConfig XR) : AxisConfig XR := ⟨a.var, -a.c1, -a.c2, -a.c3⟩

/-- The steering seen in a mirror: opposite roll and yaw. -/
def mirrorSteeringConfig (s : SteeringConfig XR) : SteeringConfig XR :=
  ⟨s.roll.map negAxisConfig, s.yaw.map negAxisConfig, s.pitch⟩

/-- The same launch on the other hemisphere: the opposite latitude, and the azimuth counted from
the south. -/
def mirrorInit (i : InitConfig XR) : InitConfig XR :=
  ⟨-i.latitude, i.longitude, .fin 180 - i.azimuth, i.altitude⟩

/-- The same mission on the other hemisphere. -/
def mirrorConfig (c : PhaseConfig XR) : PhaseConfig XR :=
  { c with
    init := c.init.map mirrorInit
    vehicle := c.vehicle.map mirrorVehicleConfig
    steering := c.steering.map mirrorSteeringConfig
    atmosphere := c.atmosphere.map fun a => { a with wind := a.wind.map mirrorVec } }

/-- The mirrored state. -/
def mirrorState (s : State XR) : State XR :=
  { s with
    position := mirrorVec s.position
    positionPlanet := mirrorVec s.positionPlanet
    velocity := mirrorVec s.velocity
    velocityPlanet := mirrorVec s.velocityPlanet
    velocityAtmosphere := mirrorVec s.velocityAtmosphere
    acceleration := mirrorVec s.acceleration
    gravityAcceleration := mirrorVec s.gravityAcceleration
    thrustForceBody := mirrorBody s.thrustForceBody
    aeroForceBody := mirrorBody s.aeroForceBody
    vehicleAccelerationBody := mirrorBody s.vehicleAccelerationBody
    eulerAngles := ⟨-s.eulerAngles.roll, -s.eulerAngles.yaw, s.eulerAngles.pitch⟩ }

/-- A printed row with the two vectors mirrored. -/
def mirrorRow (r : Row XR) : Row XR :=
  { r with positionPlanet := mirrorVec r.positionPlanet, velocity := mirrorVec r.velocity }

/-- A line of the output with the two vectors mirrored. -/
def mirrorEntry : LogEntry XR → LogEntry XR
  | .startingPhase i => .startingPhase i
  | .row r => .row (mirrorRow r)

/-- The mirrored outcome of a run. -/
def mirrorOut (o : SimOut XR) : SimOut XR :=
  ⟨o.log.map mirrorEntry, o.result.map mirrorState⟩

end
end Post.Spec
