import Verif.Spec.State
import Verif.Lemmas.System
import Verif.Lemmas.Aero
import Verif.Toy
import Verif.Props.Steering
/-! # Reported states are self-consistent (C57), in any arithmetic -/

set_option linter.unusedSectionVars false

namespace Post
open Spec Flt
variable {F : Type} [Flt F]

theorem system_consistent {p : Phase F} {s s' : State F} (h : p.system s = .ok s') :
    Consistent p s' := by
  obtain ⟨aero, _, _, rfl⟩ := Phase.system_ok h
  constructor <;> first | (simp only [Phase.systemPre]; done) | simp [Phase.systemPre, Phase.bodyRotation, Atmosphere.temperature, Atmosphere.pressure, Atmosphere.density, Atmosphere.machNumber, Atmosphere.dynamicPressure, Atmosphere.speedOfSound, Atmosphere.velocityAtmosphere]

/-- C57.  Every state a run visits, in any arithmetic, carries derived quantities that belong to
its own time, position, velocity and mass; in particular Newton's second law holds in it. -/
theorem C57_visited_consistent {p : Phase F} {s : State F} (hs : Visited p s) :
    Consistent p s := by
  obtain ⟨s1, h⟩ := hs.system
  exact system_consistent h

/-- C57 (reports).  Everything a run reports is visited by it and therefore self-consistent: each
row printed shows such a state, and so does the phase returned.  (So the theorems about visited
states in this development are theorems about reported states.) -/
theorem C57_reported {p : Phase F} {fuel : Nat} {rows : List (Row F)}
    {res : Except Panic (Phase F)} (h : p.run fuel = some ⟨rows, res⟩) :
    (∀ row ∈ rows, ∃ s, Visited p s ∧ Consistent p s ∧ row.time = s.time ∧
      row.positionPlanet = s.positionPlanet ∧ row.velocity = s.velocity ∧
      row.altitude = s.altitude ∧ row.propellantMass = s.propellantMass) ∧
    ∀ q, res = .ok q → Visited p q.state ∧ Consistent p q.state := by
  obtain ⟨h1, h2⟩ := visited_of_run h
  refine ⟨fun row hrow => ?_, fun q hq => ⟨h2 q hq, C57_visited_consistent (h2 q hq)⟩⟩
  obtain ⟨s, hs, rfl⟩ := h1 row hrow
  exact ⟨s, hs, C57_visited_consistent hs, rfl, rfl, rfl, rfl, rfl⟩

/-- C57 (attitude).  If the steering uses variables that are known in time, the attitude, too,
is the one belonging to the state itself. -/
theorem C57_visited_attitude {p : Phase F} {s : State F} (hs : Visited p s)
    (hst : p.SteeringEarly) : s.eulerAngles = p.steering.eulerAngles s := by
  obtain ⟨s1, h⟩ := hs.system
  have hang : s.eulerAngles = p.steering.eulerAngles (p.atSteering s1) := by
    obtain ⟨aero, _, _, rfl⟩ := Phase.system_ok h
    rfl
  rw [hang]
  exact eulerAngles_congr fun v hv => (getValue_after_steering (hst v hv) h).symm

/-- C57 (aerodynamics).  If the tables use variables that are known in time, the aerodynamic
force is the one belonging to the state itself. -/
theorem C57_visited_aero {p : Phase F} {s : State F} (hs : Visited p s)
    (htab : p.TablesEarly) : p.vehicle.aeroForce s = .ok s.aeroForceBody := by
  obtain ⟨s1, h⟩ := hs.system
  obtain ⟨aero, haero, _, rfl⟩ := Phase.system_ok h
  have htabs : ∀ tb ∈ [p.vehicle.dragCoeff, p.vehicle.liftCoeff, p.vehicle.sideForceCoeff],
      tb.atState (p.systemAcceleration (p.systemForces (p.systemPre s1) aero)) =
        tb.atState (p.systemPre s1) := by
    intro tb htb
    refine Table.atState_congr fun v hv => ?_
    have := htab tb htb v hv
    cases v <;> first | rfl | (exact absurd this (by decide))
  simp only [List.mem_cons, List.not_mem_nil, or_false, forall_eq_or_imp, forall_eq] at htabs
  show p.vehicle.aeroForce _ = .ok aero
  rw [← haero]
  unfold Vehicle.aeroForce
  rw [htabs.1, htabs.2.1, htabs.2.2]
  rfl

/-- The example phase visits a state after its first step. -/
example : ∃ s, Visited Toy.phase1 s ∧ (s.time = 1 ∧ Flt.lt s.acceleration.x 0 = true) := by
  have h : Toy.okAnd (Toy.phase1.system Toy.phase1.state) (fun s0 =>
      Toy.okAnd ({ Toy.phase1 with state := s0 }.step) (fun q =>
        decide (q.state.time = 1 ∧ Flt.lt q.state.acceleration.x 0 = true))) = true := by decide +kernel
  obtain ⟨s0, h0, h⟩ := Toy.okAnd_iff.1 h
  obtain ⟨q, hq, h⟩ := Toy.okAnd_iff.1 h
  exact ⟨q.state, ⟨s0, [q], q, h0, .cons rfl hq (.nil _), .inr ⟨q, by simp, rfl⟩⟩, by simpa using h⟩

end Post
