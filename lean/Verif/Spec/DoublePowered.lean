import Verif.Spec.Powered
import Verif.Spec.DoubleBurn
import Verif.Spec.DoubleForces
/-! # Specification vocabulary for a powered flight in vacuum in double precision -/

namespace Post.Spec
variable {L : Libm}

/-- The axis is steered by the time since the event with constant rate `c1`, or it is fixed; `c1` is the number in the
double of the configuration (degrees per second), `c0` is the angle at the event (degrees), up to the error `δ`. -/
def TurnsWithin (δ : ℝ) (x : Axis (F64 L)) (c0 c1 : ℝ) : Prop :=
  (x.var = .timeSinceEvent ∨ x.var = .time ∧ c1 = 0) ∧ ((∃ k, Reads x.c0 k ∧ |k - c0| ≤ δ) ∧ |c0| ≤ 10000) ∧ Reads x.c1 c1 ∧
    Reads x.c2 0 ∧ Reads x.c3 0

/-- The axis turns uniformly, from an angle that is `c0` degrees up to 2e-9 degrees, with the rate `c1`. -/
def TurnsUniformlyDouble (x : Axis (F64 L)) (c0 c1 : ℝ) : Prop := TurnsWithin 2e-9 x c0 c1

/-- The phase in double precision is a powered flight in vacuum with the given engines, at full thrust, during which the
vehicle turns by the given program. -/
structure VacuumFlightDouble (p : Phase (F64 L)) (es : List RealEngine) (lat long az : ℝ) (P : TurnProgram) : Prop where
  burn : VacuumBurn p es
  mounting : List.Forall₂ EngineReads p.vehicle.engines es
  unlimited : p.maxAcceleration = Flt.inf
  launch : LaunchAngles p lat long az
  roll : TurnsUniformlyDouble p.steering.roll P.roll P.rollRate
  yaw : TurnsUniformlyDouble p.steering.yaw P.yaw P.yawRate
  pitch : TurnsUniformlyDouble p.steering.pitch P.pitch P.pitchRate

end Post.Spec
