import Verif.Spec.Phase
import Verif.Spec.Vec
import Verif.Spec.Real
import Verif.Model.Sim
/-! # Specification vocabulary: the same mission from another longitude -/

namespace Post.Spec

/-- The state variables that are components of vectors of the inertial frame in the plane of the
equator.  (Components along the polar axis, lengths, body components and scalars are not.) -/
def equatorialComponents : List StateVariable :=
  [.position1, .position2, .positionPlanet1, .positionPlanet2, .velocity1, .velocity2,
   .velocityPlanet1, .velocityPlanet2, .velocityAtmosphere1, .velocityAtmosphere2,
   .acceleration1, .acceleration2, .gravityAcceleration1, .gravityAcceleration2]

/-- The variable does not depend on where the longitude is counted from. -/
def LongitudeFree (v : StateVariable) : Prop := v ∉ equatorialComponents

/-- The configured tables, steering axes and end criteria look at variables with the property `P`
only. -/
structure UsesOnly (P : StateVariable → Prop) (c : PhaseConfig XR) : Prop where
  drag : ∀ v, c.vehicle = some v → ∀ t, v.dragCoeff = some t → ∀ x ∈ tableVariables t, P x
  lift : ∀ v, c.vehicle = some v → ∀ t, v.liftCoeff = some t → ∀ x ∈ tableVariables t, P x
  side : ∀ v, c.vehicle = some v → ∀ t, v.sideForceCoeff = some t → ∀ x ∈ tableVariables t, P x
  roll : ∀ s, c.steering = some s → ∀ a, s.roll = some a → P a.var
  yaw : ∀ s, c.steering = some s → ∀ a, s.yaw = some a → P a.var
  pitch : ∀ s, c.steering = some s → ∀ a, s.pitch = some a → P a.var
  endCriterion : ∀ e, c.endCriterion = some e → P e.1

noncomputable section

/-- The vector turned eastwards about the polar axis by the angle `θ` (in rad). -/
def turnVec (θ : ℝ) (v : V3 XR) : V3 XR :=
  ⟨.fin (Real.cos θ) * v.x - .fin (Real.sin θ) * v.y,
   .fin (Real.sin θ) * v.x + .fin (Real.cos θ) * v.y, v.z⟩

/-- The same mission starting `δ` degrees further east, with the wind (a vector of the inertial
frame) turned by the same angle. -/
def turnConfig (δ : ℝ) (c : PhaseConfig XR) : PhaseConfig XR :=
  { c with
    init := c.init.map fun i => { i with longitude := i.longitude + .fin δ }
    atmosphere := c.atmosphere.map fun a => { a with wind := a.wind.map (turnVec (rad δ)) } }

/-- All vectors of the inertial and of the planet's frame turned by `δ` degrees, everything else
as it is. -/
def turnState (δ : ℝ) (s : State XR) : State XR :=
  { s with
    position := turnVec (rad δ) s.position
    positionPlanet := turnVec (rad δ) s.positionPlanet
    velocity := turnVec (rad δ) s.velocity
    velocityPlanet := turnVec (rad δ) s.velocityPlanet
    velocityAtmosphere := turnVec (rad δ) s.velocityAtmosphere
    acceleration := turnVec (rad δ) s.acceleration
    gravityAcceleration := turnVec (rad δ) s.gravityAcceleration }

/-- A printed row with the two vectors turned. -/
def turnRow (δ : ℝ) (r : Row XR) : Row XR :=
  { r with
    positionPlanet := turnVec (rad δ) r.positionPlanet
    velocity := turnVec (rad δ) r.velocity }

/-- A line of the output with the two vectors turned. -/
def turnEntry (δ : ℝ) : LogEntry XR → LogEntry XR
  | .startingPhase i => .startingPhase i
  | .row r => .row (turnRow δ r)

/-- The outcome of a run, turned. -/
def turnOut (δ : ℝ) (o : SimOut XR) : SimOut XR :=
  ⟨o.log.map (turnEntry δ), o.result.map (turnState δ)⟩

end
end Post.Spec
