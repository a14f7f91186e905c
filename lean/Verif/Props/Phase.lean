import Verif.Lemmas.Config
import Verif.Lemmas.System
import Verif.Lemmas.Aero
import Verif.Props.Run
import Verif.Ext
/-! # Properties of building phases from configurations (C07-C10, C14, C16-C18) -/

set_option linter.unusedSectionVars false

namespace Post
open Spec Flt
variable {F : Type} [Flt F]

/-! ## C07: parameters are inherited unless overwritten -/

theorem inForce_map {α β γ : Type} (f : α → Option β) (g : β → γ) (d : β) (l : List α) :
    inForce (fun a => (f a).map g) (g d) l = g (inForce f d l) := by
  induction l generalizing d with
  | nil => rfl
  | cons a l ih =>
    show inForce _ (((f a).map g).getD (g d)) l = g (inForce f _ l)
    rw [← ih]
    cases f a <;> rfl

namespace Phase

/-- All parameter projections of `applyConfig`. -/
theorem applyConfig_planet (p : Phase F) (c : PhaseConfig F) :
    (p.applyConfig c).planet = (c.planetModel.map Planet.ofConfig).getD p.planet := by
  simp only [applyConfig, applyEndCriterion_planet, applyStepsize_planet, applySteering_planet,
    applyMaxAcceleration_planet, applyVehicle_planet, applyAtmosphere_planet]
  cases c.planetModel <;> rfl

theorem applyConfig_atmosphere (p : Phase F) (c : PhaseConfig F) :
    (p.applyConfig c).atmosphere =
      (c.atmosphere.map p.atmosphere.updateWithConfig).getD p.atmosphere := by
  simp only [applyConfig, applyEndCriterion_atmosphere, applyStepsize_atmosphere,
    applySteering_atmosphere, applyMaxAcceleration_atmosphere, applyVehicle_atmosphere]
  cases h : c.atmosphere <;> simp [applyAtmosphere]

theorem applyConfig_vehicle (p : Phase F) (c : PhaseConfig F) :
    (p.applyConfig c).vehicle = (c.vehicle.map p.vehicle.updateWithConfig).getD p.vehicle := by
  simp only [applyConfig, applyEndCriterion_vehicle, applyStepsize_vehicle,
    applySteering_vehicle, applyMaxAcceleration_vehicle]
  cases h : c.vehicle <;> simp [applyVehicle]

theorem applyConfig_maxAcceleration (p : Phase F) (c : PhaseConfig F) :
    (p.applyConfig c).maxAcceleration =
      (c.maxAcceleration.map accelerationLimit).getD p.maxAcceleration := by
  simp only [applyConfig, applyEndCriterion_maxAcceleration, applyStepsize_maxAcceleration,
    applySteering_maxAcceleration]
  cases h : c.maxAcceleration with
  | none => simp [applyMaxAcceleration]
  | some a => simp only [applyMaxAcceleration]; split <;> simp_all [accelerationLimit]

theorem applyConfig_steering (p : Phase F) (c : PhaseConfig F) :
    (p.applyConfig c).steering = (c.steering.map p.steering.updateWithConfig).getD p.steering := by
  simp only [applyConfig, applyEndCriterion_steering, applyStepsize_steering]
  cases h : c.steering <;> simp [applySteering]

theorem applyConfig_endCriterion (p : Phase F) (c : PhaseConfig F) :
    (p.applyConfig c).endCriterion = c.endCriterion.getD p.endCriterion := by
  simp only [applyConfig]
  cases h : c.endCriterion <;> simp [applyEndCriterion]

theorem applyConfig_mass (p : Phase F) (c : PhaseConfig F) :
    (p.applyConfig c).state.mass =
      match vehicleParam (·.propellantMass) c, vehicleParam (·.structureMass) c with
      | some m, some s => s + m
      | some m, none => p.vehicle.structureMass + m
      | none, some s => p.state.propellantMass + s
      | none, none => p.state.mass := by
  simp only [applyConfig, applyEndCriterion_state, applyStepsize_state, applySteering_state,
    applyMaxAcceleration_state, vehicleParam]
  cases c.vehicle with
  | none => simp [applyVehicle]
  | some v =>
    simp only [applyVehicle, Option.bind_some]
    cases v.propellantMass <;> cases hs : v.structureMass <;>
      simp [applyStructureMass, applyPropellantMass, Vehicle.updateWithConfig, hs]

end Phase

open Phase in
/-- C07.  A phase that is ready to run uses for each parameter the value specified last by its
own configuration or an earlier one, or the default if there is none. -/
theorem C07_parameters_in_force {cs : List (PhaseConfig F)} {c : PhaseConfig F} {p : Phase F}
    (h : Ready cs c p) : ParametersInForce (cs ++ [c]) p where
  planet := by
    rw [← inForce_map PhaseConfig.planetModel Planet.ofConfig]
    exact ready_param (·.planet) _ _ rfl applyConfig_planet (fun _ _ => rfl) (fun _ => rfl)
      (fun _ _ h => h.planet) h
  atmosphere := by
    rw [← inForce_map (atmosphereParam (·.enabled)) atmosphereModel]
    refine ready_param (·.atmosphere.model) _ _ rfl (fun p c => ?_) (fun _ _ => rfl)
      (fun _ => rfl) (fun _ _ h => by rw [h.atmosphere]) h
    rw [applyConfig_atmosphere]
    unfold atmosphereParam
    cases c.atmosphere with
    | none => rfl
    | some a =>
      obtain ⟨e, w⟩ := a
      cases w <;> (cases e with | none => rfl | some b => cases b <;> rfl)
  wind := by
    refine ready_param (·.atmosphere.wind) _ _ rfl (fun p c => ?_) (fun _ _ => rfl)
      (fun _ => rfl) (fun _ _ h => by rw [h.atmosphere]) h
    rw [applyConfig_atmosphere]
    unfold atmosphereParam
    cases c.atmosphere with
    | none => rfl
    | some a =>
      obtain ⟨e, w⟩ := a
      cases w <;> (cases e with | none => rfl | some b => cases b <;> rfl)
  structureMass := by
    refine ready_param (·.vehicle.structureMass) _ _ rfl (fun p c => ?_) (fun _ _ => rfl)
      (fun _ => rfl) (fun _ _ h => by rw [h.vehicle]) h
    rw [applyConfig_vehicle]; unfold vehicleParam; cases c.vehicle <;> rfl
  referenceArea := by
    refine ready_param (·.vehicle.referenceArea) _ _ rfl (fun p c => ?_) (fun _ _ => rfl)
      (fun _ => rfl) (fun _ _ h => by rw [h.vehicle]) h
    rw [applyConfig_vehicle]; unfold vehicleParam; cases c.vehicle <;> rfl
  dragCoeff := by
    refine ready_param (·.vehicle.dragCoeff) _ _ rfl (fun p c => ?_) (fun _ _ => rfl)
      (fun _ => rfl) (fun _ _ h => by rw [h.vehicle]) h
    rw [applyConfig_vehicle]; unfold vehicleParam; cases c.vehicle <;> rfl
  liftCoeff := by
    refine ready_param (·.vehicle.liftCoeff) _ _ rfl (fun p c => ?_) (fun _ _ => rfl)
      (fun _ => rfl) (fun _ _ h => by rw [h.vehicle]) h
    rw [applyConfig_vehicle]; unfold vehicleParam; cases c.vehicle <;> rfl
  sideForceCoeff := by
    refine ready_param (·.vehicle.sideForceCoeff) _ _ rfl (fun p c => ?_) (fun _ _ => rfl)
      (fun _ => rfl) (fun _ _ h => by rw [h.vehicle]) h
    rw [applyConfig_vehicle]; unfold vehicleParam; cases c.vehicle <;> rfl
  engines := by
    refine ready_param (·.vehicle.engines) _ _ rfl (fun p c => ?_) (fun _ _ => rfl)
      (fun _ => rfl) (fun _ _ h => by rw [h.vehicle]) h
    rw [applyConfig_vehicle]; unfold vehicleParam; cases c.vehicle <;> rfl
  maxAcceleration :=
    ready_param (·.maxAcceleration) _ _ rfl applyConfig_maxAcceleration (fun _ _ => rfl)
      (fun _ => rfl) (fun _ _ h => h.maxAcceleration) h
  roll := by
    have := ready_param (fun p => (⟨p.steering.roll.var, p.steering.roll.c1,
        p.steering.roll.c2, p.steering.roll.c3⟩ : AxisConfig F)) (steeringAxis (·.roll))
      ⟨.time, 0, 0, 0⟩ rfl
      (fun p c => by
        rw [applyConfig_steering]; unfold steeringAxis
        cases c.steering with
        | none => rfl
        | some s => obtain ⟨r, y, q⟩ := s; cases r <;> rfl) (fun _ _ => rfl) (fun _ => rfl)
      (fun _ _ h => by rw [h.steering]) h
    exact ⟨congrArg (·.var) this, congrArg (·.c1) this, congrArg (·.c2) this,
      congrArg (·.c3) this⟩
  yaw := by
    have := ready_param (fun p => (⟨p.steering.yaw.var, p.steering.yaw.c1,
        p.steering.yaw.c2, p.steering.yaw.c3⟩ : AxisConfig F)) (steeringAxis (·.yaw))
      ⟨.time, 0, 0, 0⟩ rfl
      (fun p c => by
        rw [applyConfig_steering]; unfold steeringAxis
        cases c.steering with
        | none => rfl
        | some s => obtain ⟨r, y, q⟩ := s; cases y <;> rfl) (fun _ _ => rfl) (fun _ => rfl)
      (fun _ _ h => by rw [h.steering]) h
    exact ⟨congrArg (·.var) this, congrArg (·.c1) this, congrArg (·.c2) this,
      congrArg (·.c3) this⟩
  pitch := by
    have := ready_param (fun p => (⟨p.steering.pitch.var, p.steering.pitch.c1,
        p.steering.pitch.c2, p.steering.pitch.c3⟩ : AxisConfig F)) (steeringAxis (·.pitch))
      ⟨.time, 0, 0, 0⟩ rfl
      (fun p c => by
        rw [applyConfig_steering]; unfold steeringAxis
        cases c.steering with
        | none => rfl
        | some s => obtain ⟨r, y, q⟩ := s; cases q <;> rfl) (fun _ _ => rfl) (fun _ => rfl)
      (fun _ _ h => by rw [h.steering]) h
    exact ⟨congrArg (·.var) this, congrArg (·.c1) this, congrArg (·.c2) this,
      congrArg (·.c3) this⟩
  endCriterion :=
    ready_param (·.endCriterion) _ _ rfl applyConfig_endCriterion (fun _ _ => rfl)
      (fun _ => rfl) (fun _ _ h => h.endCriterion) h

/-- The second phase of the example simulation is ready after the first one; it inherits the
planet and the vehicle and overwrites the end criterion. -/
theorem Toy.ready2 : Ready [Toy.config1] Toy.config2 Toy.phase2 := by
  have h1 : ∃ rows q, Toy.phase1.run 10 = some ⟨rows, .ok q⟩ ∧ true = true :=
    (Toy.ranAnd_iff (f := fun _ _ => true)).1 (by decide +kernel)
  obtain ⟨rows, q, hq, _⟩ := h1
  refine ⟨_, some q, q.applyConfig Toy.config2, .cons ⟨_, rfl, 10, hq⟩ (.nil _ _), rfl, ?_⟩
  unfold Toy.phase2
  rw [hq]
  rfl

example : Toy.phase2.planet.equatorialRadius = 100 ∧ Toy.phase2.vehicle.structureMass = 10 ∧
    Toy.phase2.endCriterion.1 = .timeSinceEvent := by
  have h := C07_parameters_in_force Toy.ready2
  exact ⟨congrArg (·.equatorialRadius) h.planet, h.structureMass, congrArg (·.1) h.endCriterion⟩

/-- C23 for a phase of a simulation: the criterion that is met at the end is the one in force. -/
theorem C23_criterion_in_force {cs : List (PhaseConfig F)} {c : PhaseConfig F} {p q : Phase F}
    {fuel : Nat} {rows : List (Row F)} (h : Ready cs c p)
    (hr : p.run fuel = some ⟨rows, .ok q⟩) :
    Met (inForce (·.endCriterion) (.timeSinceEvent, 0) (cs ++ [c])) q.state := by
  have hcrit := (C07_parameters_in_force h).endCriterion
  obtain ⟨log, prev, p', _, _, rfl⟩ := h
  rw [← hcrit]
  exact (C23_finished_phase_met_criterion rfl hr).1

/-- C25 for every phase of a simulation, however many steps its predecessors have discarded. -/
theorem C25_in_simulation {cs : List (PhaseConfig F)} {c : PhaseConfig F} {p : Phase F}
    (h : Ready cs c p) {fuel : Nat} {rows : List (Row F)} {res : Except Panic (Phase F)}
    (hr : p.run fuel = some ⟨rows, res⟩) {s0 : State F} (h0 : p.system p.state = .ok s0) :
    ∃ ps q n, Path { p with state := s0 } ps q ∧ rows.length = ps.length ∧
      Count StepDiscarded (({ p with state := s0 } :: ps).dropLast) n ∧ n ≤ 21 ∧
      (res = .error .noZeroCrossing → n = 21 ∧ StepDiscarded q) ∧
      (n = 21 → StepDiscarded q → q.ended = false → res = .error .noZeroCrossing) := by
  obtain ⟨log, prev, p', _, _, rfl⟩ := h
  exact C25_retries_bounded rfl hr h0

/-- C53 (end).  The state a simulation of at least one phase returns meets the end criterion in force
in its last phase: the one specified last, or time since event zero if none was. -/
theorem C53_final_met {cs : List (PhaseConfig F)} {c : PhaseConfig F} {log : List (LogEntry F)}
    {s : State F} (h : Simulation.Terminates (cs ++ [c]) ⟨log, .ok s⟩) :
    Met (inForce (·.endCriterion) (.timeSinceEvent, 0) (cs ++ [c])) s := by
  obtain ⟨last, h1, rfl⟩ := C53_terminates_ok_iff.1 h
  obtain ⟨mid, log1, log2, h2, h3, rfl⟩ := C53_append.1 h1
  cases h3 with
  | cons h4 h5 =>
    obtain ⟨p, hp, fuel, hr⟩ := h4
    cases h5
    exact C23_criterion_in_force ⟨_, _, _, h2, hp, rfl⟩ hr

/-- The hypothesis is met by a simulation of two phases. -/
example : ∃ log s, Simulation.Terminates [Toy.config1, Toy.config2] ⟨log, .ok s⟩ := by
  have h : (Simulation.run 10 [Toy.config1, Toy.config2]).map (fun o => o.result.toOption.isSome) =
      some true := by decide +kernel
  cases hr : Simulation.run 10 [Toy.config1, Toy.config2] with
  | none => rw [hr] at h; cases h
  | some o =>
    obtain ⟨log, res⟩ := o
    cases res with
    | error e => rw [hr] at h; cases h
    | ok s => exact ⟨log, s, 10, hr⟩

/-! ## C08: initialisation is required once and used once -/

/-- Replacing each configuration by an equivalent one does not change a simulation. -/
theorem Simulation.loop_map (fuel : Nat) (g : PhaseConfig F → PhaseConfig F)
    {P : Option (Phase F) → Prop} (hP : ∀ q, P (some q))
    (hg : ∀ prev c, P prev →
      (Phase.new prev c).map Phase.reset = (Phase.new prev (g c)).map Phase.reset)
    (cs : List (PhaseConfig F)) (i : Nat) (prev : Option (Phase F)) (phase : Phase F)
    (hprev : P prev) :
    Simulation.loop fuel i prev phase cs = Simulation.loop fuel i prev phase (cs.map g) := by
  induction cs generalizing i prev phase with
  | nil => rfl
  | cons c cs ih =>
    have h := hg prev c hprev
    simp only [List.map_cons]
    rw [Simulation.loop, Simulation.loop]
    cases h1 : Phase.new prev c with
    | error e =>
      cases h2 : Phase.new prev (g c) with
      | error e' => rw [h1, h2] at h; injection h with h; rw [h]
      | ok p' => rw [h1, h2] at h; cases h
    | ok p =>
      cases h2 : Phase.new prev (g c) with
      | error e' => rw [h1, h2] at h; cases h
      | ok p' =>
        rw [h1, h2] at h; injection h with h
        dsimp only
        rw [h]
        cases Phase.run fuel p'.reset with
        | none => rfl
        | some o =>
          obtain ⟨rows, res⟩ := o
          cases res with
          | error e => rfl
          | ok q => dsimp only; rw [ih _ _ _ (hP q)]

/-- C08 (required).  A simulation whose first phase has no `init` section panics right after
announcing it. -/
theorem C08_missing_init (fuel : Nat) (c : PhaseConfig F) (cs : List (PhaseConfig F))
    (h : c.init = none) :
    Simulation.run fuel (c :: cs) = some ⟨[.startingPhase 1], .error .missingInit⟩ := by
  simp [Simulation.run, Simulation.loop, Phase.new, h]

/-- C08 (and only then).  The missing-init panic means that the first phase has no `init`. -/
theorem C08_missing_init_only {cs : List (PhaseConfig F)} {log : List (LogEntry F)}
    (h : Simulation.Terminates cs ⟨log, .error .missingInit⟩) :
    ∃ c rest, cs = c :: rest ∧ c.init = none := by
  have hwf : ∀ p s e, Phase.system (F := F) p s = .error e → e ≠ .missingInit := by
    intro p s e h he
    subst he
    rcases Phase.system_error h with h | h
    · cases h
    · rcases Vehicle.aeroForce_error h with h | h <;> cases h
  obtain ⟨fuel, h⟩ := h
  obtain ⟨done, c, rest, log', last, rows, rfl, hs, ha, _⟩ :=
    Simulation.loop_error_iff.1 ⟨fuel, h⟩
  have hrun : ∀ p : Phase F, ∀ fuel rows, p.run fuel ≠ some ⟨rows, .error .missingInit⟩ := by
    intro p fuel rows hr
    rcases Phase.run_some hr with ⟨e, h1, _, h3⟩ | ⟨s0, _, ps, q, _, _, _, hq⟩
    · injection h3 with h3; subst h3; exact hwf _ _ _ h1 rfl
    · rcases hq with ⟨_, hq⟩ | ⟨_, e, hst, hq⟩
      · cases hq
      · injection hq with hq; subst hq
        rcases Phase.step_error hst with h | h | h
        · cases h.2
        · obtain ⟨s', h'⟩ := Integrator.step_error h.2
          exact hwf _ _ _ h' rfl
        · cases h.2.1
  rcases ha with ⟨hn, _⟩ | ⟨p, _, fuel, hr⟩
  · cases last with
    | some q => simp [Phase.new] at hn
    | none =>
      cases done with
      | nil =>
        refine ⟨c, rest, rfl, ?_⟩
        unfold Phase.new at hn
        cases hi : c.init with
        | none => rfl
        | some i => simp [hi] at hn
      | cons d ds =>
        cases hs with
        | cons _ h2 => exact absurd rfl (Simulation.sequence_last h2)
  · exact absurd hr (hrun _ _ _)

/-- C08 (used once).  `init` sections of later phases have no effect. -/
theorem C08_later_init_ignored (fuel : Nat) (c : PhaseConfig F) {cs cs' : List (PhaseConfig F)}
    (h : cs.map eraseInit = cs'.map eraseInit) :
    Simulation.run fuel (c :: cs) = Simulation.run fuel (c :: cs') := by
  have key : ∀ (q : Phase F) (cs : List (PhaseConfig F)) (i : Nat) (ph : Phase F),
      Simulation.loop fuel i (some q) ph cs =
        Simulation.loop fuel i (some q) ph (cs.map eraseInit) := fun q cs i ph =>
    Simulation.loop_map fuel eraseInit (P := fun prev => prev ≠ none) (by simp)
      (fun prev c hp => by
        cases prev with
        | none => exact absurd rfl hp
        | some q => rfl) cs i (some q) ph (by simp)
  unfold Simulation.run
  rw [Simulation.loop, Simulation.loop]
  cases Phase.new none c with
  | error e => rfl
  | ok p =>
    dsimp only
    cases Phase.run fuel p.reset with
    | none => rfl
    | some o =>
      obtain ⟨rows, res⟩ := o
      cases res with
      | error e => rfl
      | ok q => dsimp only; rw [key q cs, key q cs', h]

/-- C08 (empty).  A simulation without phases prints nothing and returns the default state. -/
theorem C08_empty (fuel : Nat) :
    Simulation.run fuel ([] : List (PhaseConfig F)) = some ⟨[], .ok State.default⟩ := rfl

example : Toy.config2.init = none ∧
    [Toy.config2].map eraseInit = [{ Toy.config2 with init := some ⟨1, 2, 3, 4⟩ }].map eraseInit :=
  ⟨rfl, rfl⟩

/-! ## C09: the configured step size is not used -/

/-- C09 refuted in the strongest form: no `stepsize` entry of any phase has any effect on
anything. -/
theorem C09_stepsize_ignored (fuel : Nat) {cs cs' : List (PhaseConfig F)}
    (h : cs.map eraseStepsize = cs'.map eraseStepsize) :
    Simulation.run fuel cs = Simulation.run fuel cs' := by
  have key : ∀ cs : List (PhaseConfig F),
      Simulation.run fuel cs = Simulation.run fuel (cs.map eraseStepsize) := fun cs =>
    Simulation.loop_map fuel eraseStepsize (P := fun _ => True) (fun _ => trivial)
      (fun prev c _ => by
        have happ : ∀ p : Phase F, ∃ h,
            p.applyConfig c = { p.applyConfig (eraseStepsize c) with stepsize := h } := by
          intro p
          refine ⟨(p.applyConfig c).stepsize, ?_⟩
          unfold Phase.applyConfig eraseStepsize
          cases c.stepsize <;> cases c.endCriterion <;> rfl
        cases prev with
        | some q =>
          obtain ⟨h, hh⟩ := happ q
          simp only [Phase.new, Except.map, hh]
          rfl
        | none =>
          obtain ⟨h, hh⟩ := happ Phase.default
          have hi : (eraseStepsize c).init = c.init := rfl
          unfold Phase.new
          simp only [hi]
          cases c.init with
          | none => rfl
          | some i => simp only [Except.map, hh]; rfl) cs 0 none _ trivial
  rw [key cs, key cs', h]

/-- C09, what the program does instead (partial): every phase starts with step size 1. -/
theorem C09_initial_stepsize_one_partial {cs : List (PhaseConfig F)} {c : PhaseConfig F}
    {p : Phase F} (h : Ready cs c p) : p.stepsize = 1 := by
  have hb : p.baseStepsize = inForce (fun _ => none) (1 : F) (cs ++ [c]) :=
    ready_param (·.baseStepsize) (fun _ => none) 1 rfl
      (fun p c => by simp) (fun _ _ => rfl) (fun _ => rfl)
      (fun _ _ h => h.baseStepsize) h
  have hs : p.stepsize = p.baseStepsize := by
    obtain ⟨log, prev, p', _, _, rfl⟩ := h; rfl
  rw [hs, hb]
  generalize cs ++ [c] = l
  induction l with
  | nil => rfl
  | cons a l ih => exact ih

/-- C09 as documented is false: a configured step size of 0.5 is not used. -/
theorem C09_refuted : ¬ ∀ (cs : List (PhaseConfig XR)) (c : PhaseConfig XR) (p : Phase XR) (h : XR),
    Ready cs c p → c.stepsize = some h → p.stepsize = h := by
  intro hall
  let c : PhaseConfig XR :=
    { PhaseConfig.empty with init := some ⟨0, 0, 0, 0⟩, stepsize := some (.fin (1 / 2)) }
  have hr : Ready [] c ((Phase.default.applyConfig c).init ⟨0, 0, 0, 0⟩).reset :=
    ⟨_, none, _, .nil _ _, rfl, rfl⟩
  have h1 := hall _ _ _ _ hr rfl
  rw [C09_initial_stepsize_one_partial hr, XR.fin_one, XR.fin_inj] at h1
  norm_num at h1

/-! ## C10: the configured initial altitude is not used -/

/-- C10 refuted in the strongest form: no `altitude` entry has any effect on anything. -/
theorem C10_altitude_ignored (fuel : Nat) {cs cs' : List (PhaseConfig F)}
    (h : cs.map eraseAltitude = cs'.map eraseAltitude) :
    Simulation.run fuel cs = Simulation.run fuel cs' := by
  have key : ∀ cs : List (PhaseConfig F),
      Simulation.run fuel cs = Simulation.run fuel (cs.map eraseAltitude) := fun cs =>
    Simulation.loop_map fuel eraseAltitude (P := fun _ => True) (fun _ => trivial)
      (fun prev c _ => by
        cases prev with
        | some q => rfl
        | none =>
          unfold Phase.new eraseAltitude
          cases hi : c.init with
          | none => simp only [Option.map_none]
          | some i => simp only [Option.map_some]; rfl) cs 0 none _ trivial
  rw [key cs, key cs', h]

example : [Toy.config1].map eraseAltitude =
    [{ Toy.config1 with init := some ⟨0, 0, 0, 1000⟩ }].map eraseAltitude := rfl

/-! ## C14: mass bookkeeping -/

/-- C14 (phase change).  The total mass with which a phase starts. -/
theorem C14_initial_mass {prev : Option (Phase F)} {c : PhaseConfig F} {p : Phase F}
    (h : Phase.new prev c = .ok p) :
    (∀ m, vehicleParam (·.propellantMass) c = some m →
      p.reset.state.mass = p.vehicle.structureMass + m) ∧
    (∀ m, vehicleParam (·.propellantMass) c = none → vehicleParam (·.structureMass) c = some m →
      p.reset.state.mass =
        (match prev with | some q => q.state.propellantMass | none => 0) + m ∧
      p.vehicle.structureMass = m) ∧
    (vehicleParam (·.propellantMass) c = none → vehicleParam (·.structureMass) c = none →
      p.reset.state.mass = (match prev with | some q => q.state.mass | none => 0)) := by
  have hm : p.reset.state.mass = ((Phase.base prev).applyConfig c).state.mass ∧
      p.vehicle.structureMass = ((Phase.base prev).applyConfig c).vehicle.structureMass := by
    rcases Phase.new_ok h with ⟨_, rfl⟩ | ⟨_, i, _, rfl⟩ <;> exact ⟨rfl, rfl⟩
  have hv : ((Phase.base prev).applyConfig c).vehicle.structureMass =
      (vehicleParam (·.structureMass) c).getD (Phase.base prev).vehicle.structureMass := by
    rw [Phase.applyConfig_vehicle]; unfold vehicleParam; cases c.vehicle <;> rfl
  rw [hm.1, hm.2, hv, Phase.applyConfig_mass]
  refine ⟨fun m h1 => ?_, fun m h1 h2 => ?_, fun h1 h2 => ?_⟩
  · rw [h1]; cases vehicleParam (·.structureMass) c <;> rfl
  · rw [h1, h2]; cases prev <;> exact ⟨rfl, rfl⟩
  · rw [h1, h2]; cases prev <;> rfl

/-- C14 (reported propellant).  In every visited state the propellant mass is the total mass
minus the structure mass. -/
theorem C14_propellant {p : Phase F} {s : State F} (hs : Visited p s) :
    s.propellantMass = s.mass - p.vehicle.structureMass := by
  obtain ⟨s1, h⟩ := hs.system
  exact Phase.system_propellant h

/-- C14 (exact arithmetic).  A phase that specifies a propellant mass starts with that
propellant ("overwriting the propellant mass resets the consumed propellant"). -/
theorem C14_propellant_reset {prev : Option (Phase XR)} {c : PhaseConfig XR} {p : Phase XR}
    {s0 : State XR} {m ms : ℝ} (h : Phase.new prev c = .ok p)
    (hc : vehicleParam (·.propellantMass) c = some (.fin m))
    (hms : p.vehicle.structureMass = .fin ms) (h0 : p.reset.system p.reset.state = .ok s0) :
    s0.propellantMass = .fin m ∧ s0.mass = .fin (ms + m) := by
  have hm := (C14_initial_mass h).1 _ hc
  rw [hms, XR.fin_add] at hm
  have h1 := (Phase.system_primary h0).2.2.2.2
  rw [hm] at h1
  refine ⟨?_, h1⟩
  rw [Phase.system_propellant h0, h1]
  show _ - p.vehicle.structureMass = _
  rw [hms, XR.fin_sub]; congr 1; ring

/-- C14 (exact arithmetic).  Staging: a phase that specifies only a new structure mass starts
with the propellant the previous phase ended with. -/
theorem C14_propellant_kept {prev : Phase XR} {c : PhaseConfig XR} {p : Phase XR}
    {s0 : State XR} {m mp : ℝ} (h : Phase.new (some prev) c = .ok p)
    (hp : vehicleParam (·.propellantMass) c = none)
    (hc : vehicleParam (·.structureMass) c = some (.fin m))
    (hmp : prev.state.propellantMass = .fin mp) (h0 : p.reset.system p.reset.state = .ok s0) :
    s0.propellantMass = .fin mp ∧ s0.mass = .fin (mp + m) := by
  have hm := (C14_initial_mass h).2.1 _ hp hc
  simp only [hmp, XR.fin_add] at hm
  have h1 := (Phase.system_primary h0).2.2.2.2
  rw [hm.1] at h1
  refine ⟨?_, h1⟩
  rw [Phase.system_propellant h0, h1]
  show _ - p.vehicle.structureMass = _
  rw [hm.2, XR.fin_sub]; congr 1; ring

/-- The example phase starts with structure 10 and propellant 5. -/
example : vehicleParam (·.propellantMass) Toy.config1 = some 5 ∧ Toy.phase1.state.mass = 15 ∧
    Toy.okAnd (Toy.phase1.system Toy.phase1.state) (fun s => decide (s.propellantMass = 5)) := by
  refine ⟨rfl, ?_, ?_⟩ <;> decide +kernel

end Post
