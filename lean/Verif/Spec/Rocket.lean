import Verif.Spec.Orbit
import Verif.Spec.Vehicle
/-! # Specification vocabulary for the rocket equation -/

namespace Post.Spec
noncomputable section

/-- Whenever time, position, velocity and mass are real, the computed attitude is the given one. -/
def KeepsAttitude (p : Phase XR) (roll yaw pitch : ℝ) : Prop :=
  ∀ (s d : State XR) (t te m : ℝ) (r v : V3 ℝ), s.time = .fin t → s.timeSinceEvent = .fin te →
    s.position = r.fin → s.velocity = v.fin → s.mass = .fin m → p.system s = .ok d →
    d.eulerAngles = ⟨.fin roll, .fin yaw, .fin pitch⟩

/-- The effective exhaust velocity of some engines in vacuum, as a vector in body axes (pointing in
the direction of the push): full thrust divided by full consumption. -/
def exhaustVelocity (es : List RealEngine) : V3 ℝ :=
  rscale (1 / fullConsumption es) (fullThrust es 0)

/-- Between `t1` and `t2` the vehicle moves by the equations of motion of the phase and has positive
mass. -/
def Flies (p : Phase XR) (t0 : ℝ) (r v : ℝ → V3 ℝ) (m : ℝ → ℝ) (t1 t2 : ℝ) : Prop :=
  t1 ≤ t2 ∧ ∀ t ∈ Set.Icc t1 t2, SolvesMotion p t0 r v m t ∧ 0 < m t

end
end Post.Spec
