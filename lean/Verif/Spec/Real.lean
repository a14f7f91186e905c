import Verif.Ext
import Verif.Spec.Run
import Verif.Spec.Table
/-! # Specification vocabulary: all numbers of a run are actual numbers -/

namespace Post.Spec
noncomputable section

/-- An actual number: neither NaN nor an infinity. -/
def IsReal (x : XR) : Prop := ∃ r : ℝ, x = .fin r

/-- A vector of actual numbers. -/
def RealVec (v : V3 XR) : Prop := IsReal v.x ∧ IsReal v.y ∧ IsReal v.z

/-- Every variable of the state except perhaps the Mach number is an actual number. -/
def AllReal (s : State XR) : Prop := ∀ v : StateVariable, v ≠ .machNumber → IsReal (v.getValue s)

/-- A printed row consists of actual numbers. -/
def RealRow (r : Row XR) : Prop :=
  IsReal r.time ∧ RealVec r.positionPlanet ∧ RealVec r.velocity ∧ IsReal r.altitude ∧
    IsReal r.propellantMass

/-- A well-formed table (at each level the axis is ascending and fits the data) of actual
numbers. -/
def RealTable (t : Table XR) : Prop :=
  WellFormed t ∧
  match t with
  | .d1 t => (∀ x ∈ t.x.2, IsReal x) ∧ ∀ y ∈ t.data, IsReal y
  | .d2 t => (∀ x ∈ t.x.2, IsReal x) ∧ (∀ x ∈ t.y.2, IsReal x) ∧
      ∀ row ∈ t.data, ∀ y ∈ row, IsReal y
  | .d3 t => (∀ x ∈ t.x.2, IsReal x) ∧ (∀ x ∈ t.y.2, IsReal x) ∧ (∀ x ∈ t.z.2, IsReal x) ∧
      ∀ plane ∈ t.data, ∀ row ∈ plane, ∀ y ∈ row, IsReal y

/-- An engine of actual numbers, with a specific impulse. -/
def RealEngineData (e : Engine XR) : Prop :=
  IsReal e.incidencePitch ∧ IsReal e.incidenceYaw ∧ IsReal e.thrustVac ∧ IsReal e.exitArea ∧
    ∃ i : ℝ, e.ispVac = .fin i ∧ i ≠ 0

/-- A planet of actual numbers with positive radii. -/
def RealPlanetData (p : Planet XR) : Prop :=
  ∃ a b : ℝ, p.equatorialRadius = .fin a ∧ p.polarRadius = .fin b ∧ 0 < a ∧ 0 < b ∧
    IsReal p.grav.mu ∧ IsReal p.grav.j2 ∧ IsReal p.grav.j3 ∧ IsReal p.grav.j4 ∧
    IsReal p.rotationRate

/-- A configured axis of the steering with actual numbers. -/
def RealAxisConfig (a : AxisConfig XR) : Prop := IsReal a.c1 ∧ IsReal a.c2 ∧ IsReal a.c3

/-- All numbers written in the vehicle section are actual numbers, the tables are well formed and
the engines have a specific impulse. -/
structure RealVehicleConfig (c : VehicleConfig XR) : Prop where
  structureMass : ∀ m, c.structureMass = some m → IsReal m
  propellantMass : ∀ m, c.propellantMass = some m → IsReal m
  referenceArea : ∀ m, c.referenceArea = some m → IsReal m
  drag : ∀ t, c.dragCoeff = some t → RealTable t
  lift : ∀ t, c.liftCoeff = some t → RealTable t
  side : ∀ t, c.sideForceCoeff = some t → RealTable t
  engines : ∀ es, c.engines = some es → ∀ e ∈ es, RealEngineData e

/-- All numbers written in the configuration of a phase are actual numbers; in addition the tables
are well formed, the engines have a specific impulse and the planet has positive radii. -/
structure RealConfig (c : PhaseConfig XR) : Prop where
  init : ∀ i, c.init = some i → IsReal i.latitude ∧ IsReal i.longitude ∧ IsReal i.azimuth
  vehicle : ∀ v, c.vehicle = some v → RealVehicleConfig v
  steering : ∀ s, c.steering = some s →
    (∀ a, s.roll = some a → RealAxisConfig a) ∧ (∀ a, s.yaw = some a → RealAxisConfig a) ∧
      ∀ a, s.pitch = some a → RealAxisConfig a
  planet : ∀ p, c.planetModel = some p → RealPlanetData (Planet.ofConfig p)
  wind : ∀ a w, c.atmosphere = some a → a.wind = some w → RealVec w
  maxAcceleration : ∀ a, c.maxAcceleration = some a → IsReal a

/-- A steering axis with actual numbers as coefficients. -/
def RealAxis (a : Axis XR) : Prop := IsReal a.c0 ∧ IsReal a.c1 ∧ IsReal a.c2 ∧ IsReal a.c3

/-- All parameters of the phase are actual numbers (the acceleration limit may be infinite); the
tables are well formed, the engines have a specific impulse and the planet has positive radii. -/
structure RealPhase (p : Phase XR) : Prop where
  planet : RealPlanetData p.planet
  launch : IsReal p.launch.lat ∧ IsReal p.launch.long ∧ IsReal p.launch.az
  wind : RealVec p.atmosphere.wind
  structureMass : IsReal p.vehicle.structureMass
  referenceArea : IsReal p.vehicle.referenceArea
  drag : RealTable p.vehicle.dragCoeff
  lift : RealTable p.vehicle.liftCoeff
  side : RealTable p.vehicle.sideForceCoeff
  engines : ∀ e ∈ p.vehicle.engines, RealEngineData e
  steering : RealAxis p.steering.roll ∧ RealAxis p.steering.yaw ∧ RealAxis p.steering.pitch
  limit : p.maxAcceleration = Flt.inf ∨ IsReal p.maxAcceleration

/-- The state is away from the singularities of the equations of motion: the vehicle has mass, and
its distance from the centre of the planet is more than half the difference of the two radii of the
planet (10.7 km for the Earth, nothing for a sphere). -/
def Regular (p : Planet XR) (s : State XR) : Prop :=
  ∃ (a b m : ℝ) (r : V3 ℝ), p.equatorialRadius = .fin a ∧ p.polarRadius = .fin b ∧
    s.position = r.fin ∧ |a - b| < 2 * rnorm r ∧ s.mass = .fin m ∧ 0 < m

/-- The integrator step of the given size from `s` never needs the equations of motion in a
singular state: replacing them there by anything else makes no difference to the step. -/
def StepRegular (p : Phase XR) (s : State XR) (h : XR) : Prop :=
  ∀ g, (∀ x, Regular p.planet x → g x = p.system x) →
    p.integrator.step g s h = p.integrator.step p.system s h

/-- Without atmosphere the speed of sound is zero and there is no Mach number to steer by. -/
def SteersByRealVariables (p : Phase XR) : Prop :=
  p.atmosphere.model = .noAtmosphere →
    p.steering.roll.var ≠ .machNumber ∧ p.steering.yaw.var ≠ .machNumber ∧
      p.steering.pitch.var ≠ .machNumber

/-- The flight of a phase stays away from the singularities: the start is regular, every attempted
step has an actual number as step size and only evaluates the equations of motion in regular
states. -/
def FliesRegularly (p : Phase XR) : Prop :=
  SteersByRealVariables p ∧ Regular p.planet p.state ∧
    ∀ s0 ps q, p.system p.state = .ok s0 → Path { p with state := s0 } ps q → q.ended = false →
      IsReal q.stepsize ∧ StepRegular q q.state q.stepsize

end
end Post.Spec
