import Verif.Spec.Handover
import Verif.Props.Phase
import Verif.Props.State
/-! # C78: the flight goes on where the phase before ended, in any arithmetic -/

set_option linter.unusedSectionVars false

namespace Post
open Spec Flt
variable {F : Type} [Flt F]

/-- The last phase of a completed sequence, with the state it ended in. -/
theorem sequence_last {cs : List (PhaseConfig F)} (hne : cs ≠ []) {i : Nat}
    {prev last : Option (Phase F)} {log : List (LogEntry F)} (h : Sequence i prev cs log last) :
    ∃ q, last = some q ∧ Consistent q q.state := by
  induction h with
  | nil => exact absurd rfl hne
  | @cons i prev last c cs rows log q hc hs ih =>
    cases cs with
    | cons c' cs => exact ih (by simp)
    | nil =>
      cases hs
      refine ⟨q, rfl, ?_⟩
      obtain ⟨p, hp, fuel, hr⟩ := hc
      have h1 := ((C57_reported hr).2 q rfl).2
      have hsame := Phase.run_ok_sameParams hr
      obtain ⟨a1, a2, a3, a4, a5, a6, a7, a8, a9, a10, a11, a12, a13, a14, a15, a16, a17, a18⟩ := h1
      rw [← hsame.planet] at a1 a2 a3 a4 a6
      rw [← hsame.vehicle] at a5 a14 a15 a16
      rw [← hsame.atmosphere] at a7 a8 a9 a10 a11 a12
      rw [← hsame.launch] at a13 a18
      rw [← hsame.maxAcceleration] at a14
      exact ⟨a1, a2, a3, a4, a5, a6, a7, a8, a9, a10, a11, a12, a13, a14, a15, a16, a17, a18⟩

/-- The phase after a completed program is made from a phase whose state is the program's final
state. -/
theorem ready_after {cs : List (PhaseConfig F)} (hne : cs ≠ []) {log : List (LogEntry F)}
    {s : State F} (h : Simulation.Terminates cs ⟨log, .ok s⟩) {c : PhaseConfig F} {p : Phase F}
    (hr : Ready cs c p) :
    ∃ q : Phase F, q.state = s ∧ Consistent q s ∧ p = (q.applyConfig c).reset := by
  obtain ⟨log', prev, p', h1, h2, rfl⟩ := hr
  obtain ⟨q, rfl, hq⟩ := sequence_last hne h1
  have h3 := C53_deterministic h (C53_terminates_ok_iff.2 ⟨_, h1, rfl⟩)
  injection h3 with _ h4
  injection h4 with h4
  simp only [finalState] at h4
  refine ⟨q, h4.symm, h4 ▸ hq, ?_⟩
  simp only [Phase.new] at h2
  injection h2 with h2
  rw [h2]

/-- C78.  Let a program `cs` of any number of phases have ended in the state `s`, and let another
phase `c` follow.  The state `s0` the new phase starts from has, bit for bit in any arithmetic,
* the same time, position and velocity,
* a time since event of zero,
* the same planet-relative position and velocity, altitude and gravity, unless `c` chooses a
  planet,
* the same air, unless `c` chooses a planet or an atmosphere,
* the same masses, unless `c` gives a structure or a propellant mass. -/
theorem C78_continuous {cs : List (PhaseConfig F)} (hne : cs ≠ []) {log : List (LogEntry F)}
    {s : State F} (h : Simulation.Terminates cs ⟨log, .ok s⟩) {c : PhaseConfig F} {p : Phase F}
    (hr : Ready cs c p) {s0 : State F} (h0 : p.system p.state = .ok s0) :
    Agree motionVariables s0 s ∧ s0.timeSinceEvent = 0 ∧
    (c.planetModel = none → Agree planetVariables s0 s) ∧
    (c.planetModel = none → c.atmosphere = none → Agree airVariables s0 s) ∧
    (vehicleParam (·.structureMass) c = none → vehicleParam (·.propellantMass) c = none →
      Agree massVariables s0 s) := by
  obtain ⟨q, rfl, hq, rfl⟩ := ready_after hne h hr
  obtain ⟨t1, t2, t3, t4, t5⟩ := Phase.system_primary h0
  have hc := system_consistent h0
  have e1 : s0.time = q.state.time := t1.trans (by simp [Phase.reset])
  have e3 : s0.position = q.state.position := t3.trans (by simp [Phase.reset])
  have e4 : s0.velocity = q.state.velocity := t4.trans (by simp [Phase.reset])
  have hplanet : c.planetModel = none → ((q.applyConfig c).reset).planet = q.planet := by
    intro hn; simp [Phase.reset, Phase.applyConfig, Phase.applyPlanet, hn]
  have hatm : c.atmosphere = none → ((q.applyConfig c).reset).atmosphere = q.atmosphere := by
    intro hn; simp [Phase.reset, Phase.applyConfig, Phase.applyAtmosphere, hn]
  have hP : c.planetModel = none → s0.positionPlanet = q.state.positionPlanet ∧
      s0.velocityPlanet = q.state.velocityPlanet ∧ s0.altitude = q.state.altitude ∧
      s0.altitudeGeopotential = q.state.altitudeGeopotential ∧
      s0.gravityAcceleration = q.state.gravityAcceleration := by
    intro hn
    rw [hc.positionPlanet, hc.velocityPlanet, hc.altitude, hc.altitudeGeopotential,
      hc.gravityAcceleration, hplanet hn, e1, e3, e4, hq.positionPlanet, hq.velocityPlanet,
      hq.altitude, hq.altitudeGeopotential, hq.gravityAcceleration]
    exact ⟨rfl, rfl, rfl, rfl, rfl⟩
  refine ⟨?_, t2.trans rfl, fun hn => ?_, fun hn ha => ?_, fun hs hp => ?_⟩
  · intro v hv
    fin_cases hv <;> simp only [StateVariable.getValue, e1, e3, e4]
  · obtain ⟨b1, b2, b3, b4, b5⟩ := hP hn
    intro v hv
    fin_cases hv <;> simp only [StateVariable.getValue, b1, b2, b3, b4, b5]
  · obtain ⟨b1, b2, b3, b4, b5⟩ := hP hn
    have a1 : s0.velocityAtmosphere = q.state.velocityAtmosphere := by
      rw [hc.velocityAtmosphere, hq.velocityAtmosphere, b2, hatm ha]
    have a2 : s0.temperature = q.state.temperature := by
      rw [hc.temperature, hq.temperature, hatm ha]; simp only [Atmosphere.temperature, b4]
    have a3 : s0.pressure = q.state.pressure := by
      rw [hc.pressure, hq.pressure, hatm ha]; simp only [Atmosphere.pressure, b4]
    have a4 : s0.density = q.state.density := by
      rw [hc.density, hq.density, hatm ha]; simp only [Atmosphere.density, b4]
    have a5 : s0.machNumber = q.state.machNumber := by
      rw [hc.machNumber, hq.machNumber, hatm ha]
      simp only [Atmosphere.machNumber, Atmosphere.speedOfSound, b4, a1]
    have a6 : s0.dynamicPressure = q.state.dynamicPressure := by
      rw [hc.dynamicPressure, hq.dynamicPressure]
      simp only [Atmosphere.dynamicPressure, a4, a1]
    intro v hv
    fin_cases hv <;> simp only [StateVariable.getValue, a1, a2, a3, a4, a5, a6]
  · have m1 : s0.mass = q.state.mass :=
      t5.trans ((C14_initial_mass (prev := some q) (p := q.applyConfig c) rfl).2.2 hp hs)
    have m2 : s0.propellantMass = q.state.propellantMass := by
      rw [hc.propellantMass, hq.propellantMass, m1]
      congr 1
      unfold vehicleParam at hs
      cases hv : c.vehicle with
      | none => simp [Phase.reset, Phase.applyConfig, Phase.applyVehicle, hv]
      | some v =>
        simp only [hv, Option.bind_some] at hs
        simp [Phase.reset, Phase.applyConfig, Phase.applyVehicle, hv, Vehicle.updateWithConfig, hs]
    intro v hv
    fin_cases hv <;> simp only [StateVariable.getValue, m1, m2]

/-- C78 (launch frame).  All phases of a program use the launch frame of the first. -/
theorem C78_launch_frame {c1 c : PhaseConfig F} {cs : List (PhaseConfig F)} {p1 p : Phase F}
    (h1 : Ready [] c1 p1) (h : Ready (c1 :: cs) c p) : p.launch = p1.launch := by
  obtain ⟨log1, prev1, p1', hs1, hn1, rfl⟩ := h1
  cases hs1
  obtain ⟨log, prev, p', hs, hn, rfl⟩ := h
  have key : ∀ {i : Nat} {prev last : Option (Phase F)} {cs : List (PhaseConfig F)}
      {log : List (LogEntry F)}, Sequence i prev cs log last → ∀ q, prev = some q →
      ∃ r, last = some r ∧ r.launch = q.launch := by
    intro i prev last cs log hs
    induction hs with
    | nil => intro q hq; exact ⟨q, hq, rfl⟩
    | @cons i prev last c cs rows log q' hc hs ih =>
      intro q hq
      obtain ⟨r, hr, hl⟩ := ih q' rfl
      refine ⟨r, hr, hl.trans ?_⟩
      obtain ⟨p, hp, hsame⟩ := Phase.completes_sameParams hc
      subst hq
      simp only [Phase.new] at hp
      injection hp with hp
      subst hp
      rw [hsame.launch]
      simp [Phase.reset]
  cases hs with
  | @cons _ _ _ _ _ rows log q hc hs =>
    obtain ⟨r, rfl, hl⟩ := key hs q rfl
    simp only [Phase.new] at hn
    injection hn with hn
    subst hn
    obtain ⟨p2, hp2, hsame⟩ := Phase.completes_sameParams hc
    rw [hn1] at hp2
    injection hp2 with hp2
    subst hp2
    show (r.applyConfig c).launch = _
    simp only [Phase.applyConfig_launch, hl, hsame.launch]

/-- The hypotheses are met: after the first phase of the example program, which ends at 3.5
seconds, the second one starts, at another position than the launch point. -/
example : ∃ log s p s0, Simulation.Terminates [Toy.config1] ⟨log, .ok s⟩ ∧
    Ready [Toy.config1] Toy.config2 p ∧ p.system p.state = .ok s0 ∧ s0.time = 3.5 ∧
    s0.position ≠ Toy.phase1.state.position := by
  have h1 : ∃ rows q, Toy.phase1.run 10 = some ⟨rows, .ok q⟩ ∧
      Toy.okAnd ((q.applyConfig Toy.config2).reset.system (q.applyConfig Toy.config2).reset.state)
        (fun s => decide (s.time = 3.5 ∧ s.position ≠ Toy.phase1.state.position)) = true :=
    (Toy.ranAnd_iff (f := fun _ q =>
      Toy.okAnd ((q.applyConfig Toy.config2).reset.system (q.applyConfig Toy.config2).reset.state)
        (fun s => decide (s.time = 3.5 ∧ s.position ≠ Toy.phase1.state.position)))).1
      (by decide +kernel)
  obtain ⟨rows, q, hq, h2⟩ := h1
  obtain ⟨s0, hs0, hne⟩ := Toy.okAnd_iff.1 h2
  have hseq : Sequence 0 none [Toy.config1] _ (some q) :=
    .cons ⟨_, rfl, 10, hq⟩ (.nil _ _)
  have h3 := of_decide_eq_true hne
  exact ⟨_, _, _, s0, C53_terminates_ok_iff.2 ⟨_, hseq, rfl⟩, ⟨_, _, _, hseq, rfl, rfl⟩, hs0, h3⟩

end Post
