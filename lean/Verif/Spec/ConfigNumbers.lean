import Verif.Model.Config
/-! # Specification vocabulary: the numbers of a configuration -/

namespace Post.Spec
variable {F : Type}

/-- Every number of the table has the property. -/
def TableNumbers (P : F → Prop) : Table F → Prop
  | .d1 t => (∀ a ∈ t.x.2, P a) ∧ ∀ a ∈ t.data, P a
  | .d2 t => (∀ a ∈ t.x.2, P a) ∧ (∀ a ∈ t.y.2, P a) ∧ ∀ r ∈ t.data, ∀ a ∈ r, P a
  | .d3 t => (∀ a ∈ t.x.2, P a) ∧ (∀ a ∈ t.y.2, P a) ∧ (∀ a ∈ t.z.2, P a) ∧ ∀ p ∈ t.data, ∀ r ∈ p, ∀ a ∈ r, P a

/-- Every number of the planet model has the property. -/
def PlanetNumbers (P : F → Prop) : PlanetConfig F → Prop
  | .custom a b g w => P a ∧ P b ∧ (P g.mu ∧ P g.j2 ∧ P g.j3 ∧ P g.j4) ∧ P w
  | _ => True

/-- Every number of the vehicle has the property. -/
structure VehicleNumbers (P : F → Prop) (v : VehicleConfig F) : Prop where
  structureMass : ∀ a, v.structureMass = some a → P a
  propellantMass : ∀ a, v.propellantMass = some a → P a
  referenceArea : ∀ a, v.referenceArea = some a → P a
  dragCoeff : ∀ t, v.dragCoeff = some t → TableNumbers P t
  liftCoeff : ∀ t, v.liftCoeff = some t → TableNumbers P t
  sideForceCoeff : ∀ t, v.sideForceCoeff = some t → TableNumbers P t
  engines : ∀ es, v.engines = some es → ∀ e ∈ es,
    P e.incidencePitch ∧ P e.incidenceYaw ∧ P e.thrustVac ∧ P e.ispVac ∧ P e.exitArea

/-- Every number of the phase configuration has the property. -/
structure ConfigNumbers (P : F → Prop) (c : PhaseConfig F) : Prop where
  init : ∀ i, c.init = some i → P i.latitude ∧ P i.longitude ∧ P i.azimuth ∧ P i.altitude
  vehicle : ∀ v, c.vehicle = some v → VehicleNumbers P v
  steering : ∀ s, c.steering = some s → ∀ a, s.roll = some a ∨ s.yaw = some a ∨ s.pitch = some a → P a.c1 ∧ P a.c2 ∧ P a.c3
  planetModel : ∀ p, c.planetModel = some p → PlanetNumbers P p
  wind : ∀ a, c.atmosphere = some a → ∀ w, a.wind = some w → P w.x ∧ P w.y ∧ P w.z
  maxAcceleration : ∀ a, c.maxAcceleration = some a → P a
  stepsize : ∀ a, c.stepsize = some a → P a
  endCriterion : ∀ v a, c.endCriterion = some (v, a) → P a

end Post.Spec
