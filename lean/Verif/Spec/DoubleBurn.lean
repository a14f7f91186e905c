import Verif.Spec.DoubleOrbit
import Verif.Spec.Vehicle
import Verif.Lemmas.F64Round
/-! # Specification vocabulary: powered flight in double precision -/

namespace Post.Spec
variable {L : Libm}

/-- The thrust and the specific impulse of an engine in double precision are those of `E`, and they are of a
reasonable size. -/
structure EngineDouble (e : Engine (F64 L)) (E : RealEngine) : Prop where
  thrust : Reads e.thrustVac E.thrust
  isp : Reads e.ispVac E.isp
  thrust_nonneg : 0 ≤ E.thrust
  thrust_le : E.thrust ≤ 1e12
  isp_ge : 1 ≤ E.isp
  isp_le : E.isp ≤ 1e6

/-- A vehicle in double precision that can fly in vacuum: no atmosphere, tables that can be read, at most a
hundred engines like those of `es`, which together consume at most 100 tons per second, and a full thrust
between 1e-6 and 1e12 N. -/
structure VacuumBurn (p : Phase (F64 L)) (es : List RealEngine) : Prop where
  vacuum : p.atmosphere.model = .noAtmosphere
  tables : WellFormed p.vehicle.dragCoeff ∧ WellFormed p.vehicle.liftCoeff ∧ WellFormed p.vehicle.sideForceCoeff
  engines : List.Forall₂ EngineDouble p.vehicle.engines es
  few : es.length ≤ 100
  consumption : fullConsumption es ≤ 1e5
  thrust : ∃ T, ReadsV (p.vehicle.thrustForce 1 0) T ∧ 1e-6 ≤ rnorm T ∧ rnorm T ≤ 1e12

/-- A phase in double precision that has not started yet, with steps of one second, and which ends `n` seconds
after its event. -/
structure SecondsLeft (p : Phase (F64 L)) (n : ℕ) : Prop where
  notEnded : p.ended = false
  start : Reads p.state.timeSinceEvent 0
  step : Reads p.stepsize 1
  criterion : ∃ T, p.endCriterion = (.timeSinceEvent, T) ∧ Reads T n
  some_left : 1 ≤ n
  few : n ≤ 10 ^ 6

/-- The vehicle has a mass of `m` kg, of which `ms` are structure, and after `n` seconds at full thrust at least a
thousandth of the mass is left. -/
structure Fuelled (p : Phase (F64 L)) (es : List RealEngine) (n : ℕ) (m ms : ℝ) : Prop where
  mass : Reads p.state.mass m
  double : p.state.mass.dbl.IsDouble
  structureMass : Reads p.vehicle.structureMass ms
  structure_nonneg : 0 ≤ ms
  structure_le : ms ≤ m
  mass_ge : 1 ≤ m
  mass_le : m ≤ 1e9
  left : 1e-3 * m ≤ m - n * fullConsumption es

end Post.Spec
