import Verif.Spec.Phase
import Verif.Model.Sim
import Verif.Ext
/-! # Specification vocabulary for scaling a vehicle -/

namespace Post.Spec

/-- The state variables that are masses, mass flows or forces. -/
def massesAndForces : List StateVariable :=
  [.mass, .propellantMass, .massflow,
   .thrustForceBody1, .thrustForceBody2, .thrustForceBody3, .thrustForceBodyNorm,
   .aeroForceBody1, .aeroForceBody2, .aeroForceBody3, .aeroForceBodyNorm]

/-- The variable is something else. -/
def Unscaled (v : StateVariable) : Prop := v ∉ massesAndForces

/-- None of the configured tables, steering axes and end criteria looks at a mass or a force. -/
structure MassFree (c : PhaseConfig XR) : Prop where
  drag : ∀ v, c.vehicle = some v → ∀ t, v.dragCoeff = some t → ∀ x ∈ tableVariables t, Unscaled x
  lift : ∀ v, c.vehicle = some v → ∀ t, v.liftCoeff = some t → ∀ x ∈ tableVariables t, Unscaled x
  side : ∀ v, c.vehicle = some v → ∀ t, v.sideForceCoeff = some t →
    ∀ x ∈ tableVariables t, Unscaled x
  roll : ∀ s, c.steering = some s → ∀ a, s.roll = some a → Unscaled a.var
  yaw : ∀ s, c.steering = some s → ∀ a, s.yaw = some a → Unscaled a.var
  pitch : ∀ s, c.steering = some s → ∀ a, s.pitch = some a → Unscaled a.var
  endCriterion : ∀ e, c.endCriterion = some e → Unscaled e.1

noncomputable section

/-- An engine with `k` times the thrust and the exit area; the specific impulse stays. -/
def scaleEngine (k : ℝ) (e : Engine XR) : Engine XR :=
  { e with thrustVac := .fin k * e.thrustVac, exitArea := .fin k * e.exitArea }

/-- A vehicle with `k` times the masses, the reference area and the engines. -/
def scaleVehicleConfig (k : ℝ) (v : VehicleConfig XR) : VehicleConfig XR :=
  { v with
    structureMass := v.structureMass.map (.fin k * ·)
    propellantMass := v.propellantMass.map (.fin k * ·)
    referenceArea := v.referenceArea.map (.fin k * ·)
    engines := v.engines.map (·.map (scaleEngine k)) }

/-- The same mission for the vehicle `k` times as large. -/
def scaleConfig (k : ℝ) (c : PhaseConfig XR) : PhaseConfig XR :=
  { c with vehicle := c.vehicle.map (scaleVehicleConfig k) }

/-- `k` times the masses, mass flows and forces, and everything else as it is. -/
def scaleState (k : ℝ) (s : State XR) : State XR :=
  { s with
    mass := .fin k * s.mass
    propellantMass := .fin k * s.propellantMass
    massflow := .fin k * s.massflow
    thrustForceBody := V3.smul (.fin k) s.thrustForceBody
    aeroForceBody := V3.smul (.fin k) s.aeroForceBody }

/-- A printed row with `k` times the propellant. -/
def scaleRow (k : ℝ) (r : Row XR) : Row XR := { r with propellantMass := .fin k * r.propellantMass }

/-- A line of the output with `k` times the propellant. -/
def scaleEntry (k : ℝ) : LogEntry XR → LogEntry XR
  | .startingPhase i => .startingPhase i
  | .row r => .row (scaleRow k r)

/-- The outcome of a run with `k` times the masses and forces. -/
def scaleOut (k : ℝ) (o : SimOut XR) : SimOut XR :=
  ⟨o.log.map (scaleEntry k), o.result.map (scaleState k)⟩

end
end Post.Spec
