import Verif.Spec.Accuracy
import Verif.Spec.Vehicle
import Verif.Spec.DoubleAttitude
import Verif.Spec.Steering
/-! # Specification vocabulary for the accuracy of a powered flight in vacuum -/

namespace Post.Spec
noncomputable section

/-- A program by which a vehicle turns uniformly: for each of the three axes the angle (in degrees) at the event, and the
rate (in degrees per second). -/
structure TurnProgram where
  roll : ℝ
  rollRate : ℝ
  yaw : ℝ
  yawRate : ℝ
  pitch : ℝ
  pitchRate : ℝ

/-- The change from the inertial frame to that of the vehicle, `t` seconds after the event. -/
def TurnProgram.frame (P : TurnProgram) (lat long az t : ℝ) : M3 ℝ :=
  bodyFrame lat long az (rad (P.roll + P.rollRate * t)) (rad (P.yaw + P.yawRate * t)) (rad (P.pitch + P.pitchRate * t))

/-- The axis is steered by the time since the event with constant rate `c1`, or it is fixed. -/
def TurnsUniformly (x : Axis XR) (c0 c1 : ℝ) : Prop :=
  (x.var = .timeSinceEvent ∨ x.var = .time ∧ c1 = 0) ∧ x.c0 = .fin c0 ∧ x.c1 = .fin c1 ∧ x.c2 = .fin 0 ∧ x.c3 = .fin 0

/-- The phase is a powered flight in vacuum with the given engines, at full thrust, during which the vehicle turns by the
given program. -/
structure VacuumFlight (p : Phase XR) (es : List RealEngine) (lat long az : ℝ) (P : TurnProgram) : Prop where
  engines : HasEngines p.vehicle es
  impulse : ∀ e ∈ es, e.isp ≠ 0
  vacuum : p.atmosphere.model = .noAtmosphere
  unlimited : p.maxAcceleration = Flt.inf
  launch : p.launch = ⟨.fin lat, .fin long, .fin az⟩
  tables : WellFormed p.vehicle.dragCoeff ∧ WellFormed p.vehicle.liftCoeff ∧ WellFormed p.vehicle.sideForceCoeff
  roll : TurnsUniformly p.steering.roll P.roll P.rollRate
  yaw : TurnsUniformly p.steering.yaw P.yaw P.yawRate
  pitch : TurnsUniformly p.steering.pitch P.pitch P.pitchRate

/-- At time `t` the curves `r` and `v` (position and velocity) obey the law of motion of a vehicle whose mass is `m t` and
on which a thrust acts that is `F` in the frame of the vehicle: the position changes by the velocity, the velocity by
thrust divided by mass, turned into the inertial frame, and by gravity. -/
def PoweredMotion (planet : Planet XR) (frame : ℝ → M3 ℝ) (F : V3 ℝ) (m : ℝ → ℝ) (r v : ℝ → V3 ℝ) (t : ℝ) : Prop :=
  ∃ g : V3 ℝ, planet.gravity (r t).fin = g.fin ∧ HasVelocity r (v t) t ∧
    HasVelocity v (radd (rscale (1 / m t) (rmulVecT (frame t) F)) g) t

end
end Post.Spec
