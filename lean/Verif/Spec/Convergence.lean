import Verif.Spec.Orbit
import Verif.Spec.Integrator
import Verif.Model.Phase
import Mathlib.Analysis.Analytic.Basic
/-! # Specification vocabulary for refining the step size -/

namespace Post.Spec
open Topology
noncomputable section

/-- the three numbers of a vector and those of another one, and a mass, as a list of seven -/
def seven (r v : V3 ℝ) (m : ℝ) : Fin 7 → ℝ := ![r.x, r.y, r.z, v.x, v.y, v.z, m]

/-- Near the given time, time since event, position, velocity and mass the equations of motion of the
phase can be evaluated without failure, and the derivatives of position, velocity and mass that they
yield are analytic functions. -/
def SmoothMotion (p : Phase XR) (t te : ℝ) (r v : V3 ℝ) (m : ℝ) : Prop :=
  ∃ g : (Fin 2 → ℝ) × (Fin 7 → ℝ) → Fin 7 → ℝ, AnalyticAt ℝ g (![t, te], seven r v m) ∧
    ∀ᶠ z in 𝓝 ((![t, te], seven r v m) : (Fin 2 → ℝ) × (Fin 7 → ℝ)),
      ∃ d, p.system (State.fromVec (vfin z.1) (vfin z.2)) = .ok d ∧
        d.toDifferentialsVector = vfin (g z)

/-- The curves `r`, `v` and `m` (position, velocity and mass) solve the equations of motion of the
phase at time `t`, where the phase began at time `t0`: position changes by the velocity, velocity by
the computed acceleration and mass by the computed mass flow.  (As `SolvesMotion`, but in the state in
which the equations are evaluated nothing but time, position, velocity and mass is set.) -/
def FliesBy (p : Phase XR) (t0 : ℝ) (r v : ℝ → V3 ℝ) (m : ℝ → ℝ) (t : ℝ) : Prop :=
  ∃ (d : State XR) (acc : V3 ℝ) (flow : ℝ),
    p.system { State.default with
      time := .fin t
      timeSinceEvent := .fin (t - t0)
      position := (r t).fin
      velocity := (v t).fin
      mass := .fin (m t) } = .ok d ∧
    d.acceleration = acc.fin ∧ d.massflow = .fin flow ∧
    HasVelocity r (v t) t ∧ HasVelocity v acc t ∧ HasDerivAt m flow t

/-- The state has this time, time since event, position, velocity and mass. -/
structure IsAt (s : State XR) (t te : ℝ) (r v : V3 ℝ) (m : ℝ) : Prop where
  time : s.time = .fin t
  timeSinceEvent : s.timeSinceEvent = .fin te
  position : s.position = r.fin
  velocity : s.velocity = v.fin
  mass : s.mass = .fin m

end
end Post.Spec
