import Verif.Spec.Phase
import Verif.Ext
/-! # Specification vocabulary for splitting a phase -/

namespace Post.Spec

/-- The axis turns at a constant rate (in degrees per second since the last event), possibly not at
all. -/
def SteadyRate (a : Axis XR) : Prop :=
  ∃ angle rate : ℝ, a.c0 = .fin angle ∧ a.c1 = .fin rate ∧ a.c2 = .fin 0 ∧ a.c3 = .fin 0 ∧
    (a.var = .timeSinceEvent ∨ (a.var = .time ∧ rate = 0))

/-- Nothing in the phase depends on how long ago the last event was, except that axes may turn at
constant rates; the time is a real number. -/
structure Steady (p : Phase XR) : Prop where
  roll : SteadyRate p.steering.roll
  yaw : SteadyRate p.steering.yaw
  pitch : SteadyRate p.steering.pitch
  tables : ∀ t ∈ [p.vehicle.dragCoeff, p.vehicle.liftCoeff, p.vehicle.sideForceCoeff],
    ∀ v ∈ tableVariables t, v ∈ beforeTables ∧ v ≠ .timeSinceEvent
  time : ∃ t : ℝ, p.state.time = .fin t
  stepsize : p.baseStepsize = .fin 1

/-- The configuration, ending after `n` seconds. -/
def lasting (n : ℕ) (c : PhaseConfig XR) : PhaseConfig XR :=
  { c with endCriterion := some (.timeSinceEvent, .fin n) }

/-- The configuration of a phase that goes on as the one before, for `n` seconds. -/
def continuing (n : ℕ) : PhaseConfig XR := lasting n PhaseConfig.empty

/-- The rows of an output. -/
def rowsOf {F : Type} : List (LogEntry F) → List (Row F)
  | [] => []
  | .startingPhase _ :: log => rowsOf log
  | .row r :: log => r :: rowsOf log

/-- The state with another reading of the clock that is restarted at each event. -/
def sinceEvent (x : ℝ) (s : State XR) : State XR := { s with timeSinceEvent := .fin x }

end Post.Spec
