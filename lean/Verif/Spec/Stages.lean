import Verif.Spec.DoubleBurn
import Verif.Spec.Phase
import Verif.Spec.Json
import Verif.Spec.Trig
/-! # Specification vocabulary: missions of several stages in vacuum, in double precision

The propellant budget of a mission, in real numbers, written from the documentation of the vehicle parameters. -/

namespace Post.Spec
variable {L : Libm}

/-- What is asked of the trigonometric functions of the C library: in addition to `TrigLibrary` cosines, too,
have an error of at most 1e-15 and are between -1 and 1. -/
structure AngleLibrary (L : Libm) : Prop extends TrigLibrary L where
  cos : ∀ (x : F64 L) (q : ℚ), x.Is q → |q| ≤ 6 →
    ∃ r, (Flt.cos x).Is r ∧ |r| ≤ 1 ∧ |(r : ℝ) - Real.cos q| ≤ 1e-15

/-- The engine in double precision is `E`, mounted at angles of at most 6 radians. -/
structure MountedDouble (e : Engine (F64 L)) (E : RealEngine) : Prop extends EngineDouble e E where
  area : Reads e.exitArea E.area
  yaw : Reads e.incidenceYaw E.yaw
  pitch : Reads e.incidencePitch E.pitch
  yaw_le : |E.yaw| ≤ 6
  pitch_le : |E.pitch| ≤ 6

/-- The sum of the thrusts of some engines, whatever their directions. -/
def sumOfThrusts (es : List RealEngine) : ℝ := (es.map (·.thrust)).sum

/-- There are no engines, or at most a hundred engines that together consume at most 100 tons per second, push
with 1 N to 1e11 N, and do not push against each other, so that nearly nothing is left: one part in a million or
more of the sum of their thrusts is effective. -/
def Propels (es : List RealEngine) : Prop :=
  es = [] ∨ (es.length ≤ 100 ∧ fullConsumption es ≤ 1e5 ∧ sumOfThrusts es ≤ 1e11 ∧
    1 ≤ rnorm (fullThrust es 0) ∧ sumOfThrusts es ≤ 1e6 * rnorm (fullThrust es 0))

/-- A leg of a mission: how long it takes and the changes of the vehicle at its beginning. -/
structure Leg where
  seconds : ℕ
  structureMass : Option ℝ
  propellant : Option ℝ
  engines : Option (List RealEngine)

/-- The phase configuration describes the leg: it is in vacuum, ends after the seconds of the leg, changes the
vehicle as the leg says; an acceleration limit is -1 (none) or between 1e-6 and 1e10; steering, step size, planet,
initial position and coefficient tables are arbitrary. -/
structure Describes (c : PhaseConfig (F64 L)) (l : Leg) : Prop where
  criterion : ∃ T, c.endCriterion = some (.timeSinceEvent, T) ∧ Reads T l.seconds
  structureMass : Option.Rel Reads (vehicleParam (·.structureMass) c) l.structureMass
  propellant : Option.Rel Reads (vehicleParam (·.propellantMass) c) l.propellant
  engines : Option.Rel (List.Forall₂ MountedDouble) (vehicleParam (·.engines) c) l.engines
  vacuum : atmosphereParam (·.enabled) c ≠ some true
  limit : ∀ a, c.maxAcceleration = some a → a = -1 ∨ ∃ A, Reads a A ∧ 1e-6 ≤ A ∧ A ≤ 1e10
  tables : ∀ t ∈ tablesOf c, WellFormed t

/-- The vehicle, as far as its masses are concerned: the structure, the propellant that is left at full thrust,
the propellant it was last filled with, and the engines. -/
structure Ship where
  structureMass : ℝ
  propellant : ℝ
  filled : ℝ
  engines : List RealEngine

/-- Before the first leg there is nothing. -/
def Ship.nothing : Ship := ⟨0, 0, 0, []⟩

/-- The vehicle at the beginning of a leg. -/
def Ship.begin (v : Ship) (l : Leg) : Ship where
  structureMass := l.structureMass.getD v.structureMass
  propellant := l.propellant.getD v.propellant
  filled := l.propellant.getD v.filled
  engines := l.engines.getD v.engines

/-- The vehicle after burning for `k` seconds. -/
noncomputable def Ship.burn (v : Ship) (k : ℕ) : Ship :=
  { v with propellant := v.propellant - k * fullConsumption v.engines }

/-- The vehicle can burn for `n` seconds: it has enough propellant; and its structure has at least 2 kg, 1/500 of
the mass of the vehicle when it was filled and a millionth of the mass `M`, which no vehicle of the mission
exceeds. -/
structure Ship.CanBurn (v : Ship) (M : ℝ) (n : ℕ) : Prop where
  propels : Propels v.engines
  enough : n * fullConsumption v.engines ≤ v.propellant
  heavy : 2 ≤ v.structureMass
  fraction : v.structureMass + v.filled ≤ 500 * v.structureMass
  largest : M ≤ 1e6 * v.structureMass
  le : v.structureMass + v.filled ≤ M

/-- The mission is feasible: at every leg there is enough propellant, also if the engines run at full thrust. -/
def Feasible (M : ℝ) : Ship → List Leg → Prop
  | _, [] => True
  | v, l :: ls => 1 ≤ l.seconds ∧ (v.begin l).CanBurn M l.seconds ∧ Feasible M ((v.begin l).burn l.seconds) ls

/-- The seconds of a mission. -/
def totalSeconds (ls : List Leg) : ℕ := (ls.map (·.seconds)).sum

/-- What a phase knows about the vehicle when it hands over: everything is that of `v` up to the error `e`;
if the engines did not always run at full thrust there may be more propellant than `v` has. -/
structure Carries (q : Phase (F64 L)) (v : Ship) (full : Prop) (M e : ℝ) : Prop where
  structureMass : Reads q.vehicle.structureMass v.structureMass
  engines : List.Forall₂ MountedDouble q.vehicle.engines v.engines
  filled : v.propellant ≤ v.filled
  masses : ∃ w μ, Reads q.state.propellantMass w ∧ Reads q.state.mass μ ∧
    |w - (μ - v.structureMass)| ≤ 3e-16 * M ∧ v.propellant - e ≤ w ∧ (full → w ≤ v.propellant + e) ∧
    w ≤ v.filled + e

/-- Lines of a flight log. -/
inductive FlightLine
  /-- the announcement of leg `i` -/
  | starting (i : ℕ)
  /-- a row for second `t`, at which the propellant `w` is left at full thrust -/
  | second (t : ℕ) (w : ℝ)

/-- The log of legs number `i + 1`, `i + 2`, … that start at second `t`. -/
noncomputable def flightLog : (i t : ℕ) → Ship → List Leg → List FlightLine
  | _, _, _, [] => []
  | i, t, v, l :: ls =>
    .starting (i + 1) ::
      ((List.range l.seconds).map (fun k => .second (t + (k + 1)) ((v.begin l).burn (k + 1)).propellant) ++
        flightLog (i + 1) (t + l.seconds) ((v.begin l).burn l.seconds) ls)

/-- The printed line is the one of the flight log: the time is exact, and the propellant is at least that of the
log, up to the error `e`; if the engines always run at full thrust it is that of the log, up to the error. -/
def ShowsFlight (full : Prop) (e : ℝ) : LogEntry (F64 L) → FlightLine → Prop
  | .startingPhase i, .starting j => i = j
  | .row r, .second t p => r.time.Is t ∧ ∃ w, Reads r.propellantMass w ∧ p - e ≤ w ∧ (full → w ≤ p + e)
  | _, _ => False

/-- No leg of the mission has an acceleration limit (-1 means none). -/
def WithoutLimit (cs : List (PhaseConfig (F64 L))) : Prop := ∀ c ∈ cs, ∀ a, c.maxAcceleration = some a → a = -1

end Post.Spec
