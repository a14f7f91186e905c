import Verif.Spec.Planet
import Mathlib.Analysis.Calculus.Deriv.Basic
/-! # Specification vocabulary for orbits: trajectories, energy, angular momentum -/

namespace Post.Spec
noncomputable section

/-- Energy per unit of mass: kinetic energy minus the potential of `Spec.potential` (which is
positive). -/
def energy (a μ j2 j3 j4 : ℝ) (r v : V3 ℝ) : ℝ :=
  rdot v v / 2 - potential a μ j2 j3 j4 r

/-- Angular momentum per unit of mass. -/
def angularMomentum (r v : V3 ℝ) : V3 ℝ := rcross r v

/-- The Laplace-Runge-Lenz vector per unit of mass: it points to the periapsis and its length is `μ`
times the eccentricity of the orbit. -/
def lenzVector (μ : ℝ) (r v : V3 ℝ) : V3 ℝ :=
  rsub (rcross v (angularMomentum r v)) (rscale (μ / rnorm r) r)

/-- The derivative of a curve of real vectors. -/
def HasVelocity (r : ℝ → V3 ℝ) (w : V3 ℝ) (t : ℝ) : Prop :=
  HasDerivAt (fun τ => (r τ).x) w.x t ∧ HasDerivAt (fun τ => (r τ).y) w.y t ∧
    HasDerivAt (fun τ => (r τ).z) w.z t

/-- The curves `r`, `v` and `m` (position, velocity and mass) solve the equations of motion of the
phase at time `t`, where the phase began at time `t0`: position changes by the velocity, velocity
by the computed acceleration and mass by the computed mass flow. -/
def SolvesMotion (p : Phase XR) (t0 : ℝ) (r v : ℝ → V3 ℝ) (m : ℝ → ℝ) (t : ℝ) : Prop :=
  ∃ (s d : State XR) (acc : V3 ℝ) (flow : ℝ),
    s.time = .fin t ∧ s.timeSinceEvent = .fin (t - t0) ∧ s.position = (r t).fin ∧
    s.velocity = (v t).fin ∧ s.mass = .fin (m t) ∧ p.system s = .ok d ∧
    d.acceleration = acc.fin ∧ d.massflow = .fin flow ∧
    HasVelocity r (v t) t ∧ HasVelocity v acc t ∧ HasDerivAt m flow t

/-- In every state whose time, position, velocity and mass are real, with the vehicle not at the
centre of the planet, the computed attitude is real. -/
def RealAttitude (p : Phase XR) : Prop :=
  ∀ (s d : State XR) (t te m : ℝ) (r v : V3 ℝ), s.time = .fin t → s.timeSinceEvent = .fin te →
    s.position = r.fin → s.velocity = v.fin → s.mass = .fin m → r ≠ ⟨0, 0, 0⟩ →
    p.system s = .ok d →
    ∃ roll yaw pitch : ℝ, d.eulerAngles = ⟨.fin roll, .fin yaw, .fin pitch⟩

end
end Post.Spec
