import Verif.Spec.Plan
import Verif.Spec.Vehicle
import Verif.Spec.Interp
import Verif.Ext
/-! # Specification vocabulary: the same configuration, written differently -/

namespace Post.Spec

section
variable {F : Type} [Flt F]

/-- `c'` gives a value for the same parameters as `c`, and each means the same: tables have the
same value in every state, sets of engines the same total thrust and mass flow, planets the same
parameters.  (`stepsize` is not used by the program.) -/
structure Rewritten (c c' : PhaseConfig F) : Prop where
  init : c.init = c'.init
  planet : c.planetModel.map Planet.ofConfig = c'.planetModel.map Planet.ofConfig
  atmosphere : atmosphereParam (·.enabled) c = atmosphereParam (·.enabled) c'
  wind : atmosphereParam (·.wind) c = atmosphereParam (·.wind) c'
  structureMass : vehicleParam (·.structureMass) c = vehicleParam (·.structureMass) c'
  propellantMass : vehicleParam (·.propellantMass) c = vehicleParam (·.propellantMass) c'
  referenceArea : vehicleParam (·.referenceArea) c = vehicleParam (·.referenceArea) c'
  drag : Option.Rel SameTable (vehicleParam (·.dragCoeff) c) (vehicleParam (·.dragCoeff) c')
  lift : Option.Rel SameTable (vehicleParam (·.liftCoeff) c) (vehicleParam (·.liftCoeff) c')
  sideForce : Option.Rel SameTable (vehicleParam (·.sideForceCoeff) c)
    (vehicleParam (·.sideForceCoeff) c')
  engines : Option.Rel SameEngines (vehicleParam (·.engines) c) (vehicleParam (·.engines) c')
  maxAcceleration : c.maxAcceleration.map accelerationLimit =
    c'.maxAcceleration.map accelerationLimit
  roll : steeringAxis (·.roll) c = steeringAxis (·.roll) c'
  yaw : steeringAxis (·.yaw) c = steeringAxis (·.yaw) c'
  pitch : steeringAxis (·.pitch) c = steeringAxis (·.pitch) c'
  endCriterion : c.endCriterion = c'.endCriterion

/-- The configuration with its set of engines, if it has one, replaced. -/
def withEngines (f : List (Engine F) → List (Engine F)) (c : PhaseConfig F) : PhaseConfig F :=
  { c with vehicle := c.vehicle.map fun v => { v with engines := v.engines.map f } }

/-- The configuration with each of its tables replaced. -/
def withTables (f : Table F → Table F) (c : PhaseConfig F) : PhaseConfig F :=
  { c with vehicle := c.vehicle.map fun v =>
    { v with dragCoeff := v.dragCoeff.map f
             liftCoeff := v.liftCoeff.map f
             sideForceCoeff := v.sideForceCoeff.map f } }

end

/-- Each engine replaced by a cluster of `n` equal ones, each with the `n`-th part of its thrust and
of its exit area. -/
noncomputable def clusters (n : ℕ) (es : List (Engine XR)) : List (Engine XR) :=
  es.flatMap fun e => List.replicate n
    { e with thrustVac := e.thrustVac / .fin n, exitArea := e.exitArea / .fin n }

/-- `t'` is a table with real entries on the same variable as `t` and both have at least two
points and the same value at every real number. -/
def SameFunction (t t' : Table XR) : Prop :=
  ∃ (v : StateVariable) (xs ys xs' ys' : List ℝ),
    t = .d1 ⟨(v, xs.map .fin), ys.map .fin, .linear⟩ ∧
    t' = .d1 ⟨(v, xs'.map .fin), ys'.map .fin, .linear⟩ ∧
    xs.IsChain (· < ·) ∧ xs'.IsChain (· < ·) ∧ ys.length = xs.length ∧ ys'.length = xs'.length ∧
    2 ≤ xs.length ∧ 2 ≤ xs'.length ∧ ∀ x, piecewise xs ys x = piecewise xs' ys' x

/-- `t'` is the table `t`, with at least two points, with one more point: at an argument between
the others, before them or after them, with the value that the table has there anyway. -/
def ExtraPoint (t t' : Table XR) : Prop :=
  ∃ (v : StateVariable) (xs xs' ys ys' : List ℝ) (x : ℝ),
    t = .d1 ⟨(v, (xs ++ xs').map .fin), (ys ++ ys').map .fin, .linear⟩ ∧
    t' = .d1 ⟨(v, (xs ++ x :: xs').map .fin),
      (ys ++ piecewise (xs ++ xs') (ys ++ ys') x :: ys').map .fin, .linear⟩ ∧
    (xs ++ x :: xs').IsChain (· < ·) ∧ ys.length = xs.length ∧ ys'.length = xs'.length ∧
    2 ≤ (xs ++ xs').length

end Post.Spec
