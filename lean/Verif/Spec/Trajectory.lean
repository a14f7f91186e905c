import Verif.Spec.DoublePowered
import Verif.Spec.Split
import Verif.Spec.Stages
/-! # Specification vocabulary for the trajectory of a mission of several phases in vacuum

The plan of a mission (`Craft`, `Maneuver`) and the true flight that follows the plan (`TrueLeg`, `FollowsPlan`), both in real
numbers, and what it means that phase configurations in double precision describe the plan (`Commands`). -/

namespace Post.Spec
variable {L : Libm}

noncomputable section

/-! ## The plan -/

/-- The angle of an axis at the event, in degrees. -/
def TurnProgram.angle (P : TurnProgram) : AxisName → ℝ
  | .roll => P.roll
  | .yaw => P.yaw
  | .pitch => P.pitch

/-- The rate of an axis, in degrees per second. -/
def TurnProgram.rate (P : TurnProgram) : AxisName → ℝ
  | .roll => P.rollRate
  | .yaw => P.yawRate
  | .pitch => P.pitchRate

/-- A leg of a mission with, for each axis, the rate with which the vehicle turns from the beginning of the leg on, if it
changes. -/
structure Maneuver extends Leg where
  rate : AxisName → Option ℝ

/-- The vehicle between two legs: its masses and engines, its angles, and the rates at which it turns. -/
structure Craft where
  ship : Ship
  turn : TurnProgram

/-- The total mass. -/
def Craft.mass (c : Craft) : ℝ := c.ship.structureMass + c.ship.propellant

/-- The vehicle at the beginning of a leg: masses, engines and rates are changed, the angles are not. -/
def Craft.begin (c : Craft) (m : Maneuver) : Craft where
  ship := c.ship.begin m.toLeg
  turn := ⟨c.turn.roll, (m.rate .roll).getD c.turn.rollRate, c.turn.yaw, (m.rate .yaw).getD c.turn.yawRate, c.turn.pitch,
    (m.rate .pitch).getD c.turn.pitchRate⟩

/-- The vehicle `n` seconds later: propellant is burnt, and the vehicle has turned. -/
def Craft.after (c : Craft) (n : ℕ) : Craft where
  ship := c.ship.burn n
  turn := { c.turn with
    roll := c.turn.roll + c.turn.rollRate * n
    yaw := c.turn.yaw + c.turn.yawRate * n
    pitch := c.turn.pitch + c.turn.pitchRate * n }

/-- The vehicle flies gently for `n` seconds: it turns by at most 0.95 degrees per second in all, its engines, if there are
any, accelerate it by at most 25 m/s², at the end the mass is that of at least two minutes of propellant flow and at least a
twentieth of `M`. -/
structure Craft.Gentle (c : Craft) (M : ℝ) (n : ℕ) : Prop where
  rates : |c.turn.rollRate| + |c.turn.yawRate| + |c.turn.pitchRate| ≤ 0.95
  angles : ∀ a, |c.turn.angle a| ≤ 10000
  areas : ∀ e ∈ c.ship.engines, 0 ≤ e.area ∧ e.area ≤ 1e5
  left : c.ship.engines = [] ∨ 120 * fullConsumption c.ship.engines ≤ (c.after n).mass
  thrust : c.ship.engines = [] ∨ rnorm (fullThrust c.ship.engines 0) ≤ 25 * (c.after n).mass
  gross : c.ship.engines = [] ∨ grossThrust c.ship.engines 0 ≤ 1000 * (c.after n).mass
  largest : c.ship.engines = [] ∨ M ≤ 20 * (c.after n).mass

/-- The plan can be flown: at every leg there is enough propellant, and the vehicle flies gently; `M` is a mass that the
vehicle never exceeds. -/
def Flyable (M : ℝ) : Craft → List Maneuver → Prop
  | _, [] => True
  | c, m :: ms => 1 ≤ m.seconds ∧ (c.begin m).ship.CanBurn M m.seconds ∧ (c.begin m).Gentle M m.seconds ∧
      Flyable M ((c.begin m).after m.seconds) ms

/-! ## The true flight -/

/-- A leg of a true flight: how long it takes, the engines that run (none if the vehicle coasts), the mass at its beginning,
how the vehicle turns, and position and velocity as functions of the time since the beginning of the leg. -/
structure TrueLeg where
  seconds : ℕ
  engines : List RealEngine
  mass : ℝ
  turn : TurnProgram
  position : ℝ → V3 ℝ
  velocity : ℝ → V3 ℝ

/-- During the leg the law of motion holds (`PoweredMotion`; without engines it is that of free fall), the distance from the
centre is between 6500 and 19000 km, and the speed is at most 8 km/s. -/
structure TrueLeg.Obeys (l : TrueLeg) (E : Planet XR) (lat long az : ℝ) : Prop where
  law : ∀ t ∈ Set.Icc (0 : ℝ) l.seconds, PoweredMotion E (l.turn.frame lat long az) (fullThrust l.engines 0)
    (fun t => l.mass - fullConsumption l.engines * t) l.position l.velocity t
  low : ∀ t ∈ Set.Icc (0 : ℝ) l.seconds, 6.5e6 ≤ rnorm (l.position t)
  high : ∀ t ∈ Set.Icc (0 : ℝ) l.seconds, rnorm (l.position t) ≤ 1.9e7
  slow : ∀ t ∈ Set.Icc (0 : ℝ) l.seconds, rnorm (l.velocity t) ≤ 8000

/-- The legs of the true flight are those of the plan. -/
def FollowsPlan : Craft → List Maneuver → List TrueLeg → Prop
  | _, [], [] => True
  | c, m :: ms, l :: ls => (l.seconds = m.seconds ∧ l.engines = (c.begin m).ship.engines ∧ l.mass = (c.begin m).mass ∧
      l.turn = (c.begin m).turn) ∧ FollowsPlan ((c.begin m).after m.seconds) ms ls
  | _, _, _ => False

/-- The legs are joined: the first one begins at position `r` with velocity `v`, each of the others where the one before
ends. -/
def JoinedFrom : V3 ℝ → V3 ℝ → List TrueLeg → Prop
  | _, _, [] => True
  | r, v, l :: ls => l.position 0 = r ∧ l.velocity 0 = v ∧ JoinedFrom (l.position l.seconds) (l.velocity l.seconds) ls

/-- Position and velocity at the whole seconds of the flight, from the first second on. -/
def everySecond (ls : List TrueLeg) : List (V3 ℝ × V3 ℝ) :=
  ls.flatMap fun l => (List.range l.seconds).map fun k => (l.position (k + 1 : ℕ), l.velocity (k + 1 : ℕ))

/-- The duration of the flight in seconds. -/
def flightSeconds (ls : List TrueLeg) : ℕ := (ls.map (·.seconds)).sum

/-! ## The simulated flight -/

/-- The configuration of an axis. -/
def AxisName.command {F : Type} : AxisName → SteeringConfig F → Option (AxisConfig F)
  | .roll => (·.roll)
  | .yaw => (·.yaw)
  | .pitch => (·.pitch)

/-- The axis is configured to turn uniformly with the given rate. -/
structure TurnCommand (a : AxisConfig (F64 L)) (rate : ℝ) : Prop where
  var : a.var = .timeSinceEvent
  rate : Reads a.c1 rate
  quadratic : Reads a.c2 0
  cubic : Reads a.c3 0

/-- The phase configuration commands the maneuver: it describes the leg (`Describes`), has no acceleration limit, does not
change the planet, and the axes turn with the rates of the maneuver. -/
structure Commands (c : PhaseConfig (F64 L)) (m : Maneuver) : Prop where
  leg : Describes c m.toLeg
  unlimited : ∀ a, c.maxAcceleration = some a → a = -1
  planet : c.planetModel = none
  turn : ∀ a : AxisName, Option.Rel TurnCommand (c.steering.bind a.command) (m.rate a)

/-- The axis turns uniformly with the given rate, or is fixed. -/
structure SteersUniformly (x : Axis (F64 L)) (rate : ℝ) : Prop where
  var : x.var = .timeSinceEvent ∨ x.var = .time ∧ rate = 0
  rate : Reads x.c1 rate
  quadratic : Reads x.c2 0
  cubic : Reads x.c3 0

/-- The phase `q` was flown in vacuum near the Earth and hands over the craft `c`: its masses and engines up to errors of `e`
kg, its angles up to errors of `δ` degrees. -/
structure HandsOverCraft (q : Phase (F64 L)) (E : Planet XR) (lat long az : ℝ) (c : Craft) (M e δ : ℝ) : Prop where
  masses : Carries q c.ship True M e
  planet : SameEarth q.planet E
  vacuum : q.atmosphere.model = .noAtmosphere
  unlimited : q.maxAcceleration = Flt.inf
  tables : WellFormed q.vehicle.dragCoeff ∧ WellFormed q.vehicle.liftCoeff ∧ WellFormed q.vehicle.sideForceCoeff
  launch : LaunchAngles q lat long az
  turn : ∀ a : AxisName, SteersUniformly (a.axis q.steering) (c.turn.rate a)
  angles : ∀ a : AxisName, ∃ φ, Reads (a.angle q.state.eulerAngles) φ ∧ |φ| ≤ 1000 ∧
    |φ * (180 / Real.pi) - c.turn.angle a| ≤ δ

/-- Position and velocity of the state are those given up to errors that together (375 s times that of the velocity) are at
most `X` metres. -/
def CloseTo (s : State (F64 L)) (X : ℝ) (rv : V3 ℝ × V3 ℝ) : Prop :=
  ∃ r' v', ReadsV s.position r' ∧ ReadsV s.velocity v' ∧ rdist r' rv.1 + 375 * rdist v' rv.2 ≤ X

end
end Post.Spec
