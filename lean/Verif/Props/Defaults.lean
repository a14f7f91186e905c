import Verif.Props.Phase
import Verif.F64
/-! # The documented default phase (C62) -/

set_option linter.unusedSectionVars false

namespace Post
open Spec Flt
variable {F : Type} [Flt F]

/-- The empty table, `{"x": ["time", []], "data": []}`. -/
def Spec.emptyTable : Table F := .d1 ⟨(.time, []), [], .linear⟩

/-- The vehicle section with the documented defaults (project.tex:430-436) written out. -/
def Spec.fillVehicle (c : VehicleConfig F) : VehicleConfig F where
  structureMass := some (c.structureMass.getD 0)
  propellantMass := some (c.propellantMass.getD 0)
  referenceArea := some (c.referenceArea.getD 0)
  dragCoeff := some (c.dragCoeff.getD emptyTable)
  liftCoeff := some (c.liftCoeff.getD emptyTable)
  sideForceCoeff := some (c.sideForceCoeff.getD emptyTable)
  engines := c.engines

/-- The steering section with the documented defaults (project.tex:446-450) written out. -/
def Spec.fillSteering (c : SteeringConfig F) : SteeringConfig F where
  roll := some (c.roll.getD ⟨.time, 0, 0, 0⟩)
  yaw := some (c.yaw.getD ⟨.time, 0, 0, 0⟩)
  pitch := some (c.pitch.getD ⟨.time, 0, 0, 0⟩)

/-- The atmosphere section with the documented defaults (project.tex:420-423) written out. -/
def Spec.fillAtmosphere (c : AtmosphereConfig F) : AtmosphereConfig F where
  enabled := some (c.enabled.getD false)
  wind := some (c.wind.getD ⟨0, 0, 0⟩)

/-- The configuration with the documented defaults of the planet model, atmosphere, vehicle
(without engines), acceleration limit, steering, step size and end criterion
(project.tex:417-455) written out where nothing is specified. -/
def Spec.fill (c : PhaseConfig F) : PhaseConfig F where
  init := c.init
  vehicle := some (fillVehicle (c.vehicle.getD ⟨none, none, none, none, none, none, none⟩))
  steering := some (fillSteering (c.steering.getD ⟨none, none, none⟩))
  planetModel := some (c.planetModel.getD .spherical)
  atmosphere := some (fillAtmosphere (c.atmosphere.getD ⟨none, none⟩))
  maxAcceleration := some (c.maxAcceleration.getD (-1))
  stepsize := some (c.stepsize.getD 0)
  endCriterion := some (c.endCriterion.getD (.time, 0))

/-- The few facts about numbers used in this section; they hold for `f64`. -/
structure Spec.ZeroLaws (F : Type) [Flt F] : Prop where
  zero_add_zero : (0 : F) + 0 = 0
  zero_comm : ∀ x : F, 0 + x = x + 0
  eq_neg_one : Flt.eq (-1 : F) (-1) = true
  /-- one second is not within the tolerance of 0 … -/
  one_far : Flt.lt (Flt.abs ((0 + 1 : F) - 0)) 1e-3 = false
  /-- … it is not less than 0 … -/
  one_not_lt : Flt.lt (0 + 1 : F) 0 = false
  /-- … but greater -/
  one_gt : Flt.lt 0 (0 + 1 : F) = true
  /-- the secant through 0 at 0 and 1 at 1 hits 0 at 0 -/
  secant : 0 + (-(0 - 0 : F)) * 1 / ((0 + 1 - 0) - (0 - 0)) = 0
  /-- 0 is within the tolerance of 0 -/
  zero_near : Flt.lt (Flt.abs ((0 : F) - 0)) 1e-3 = true

namespace Phase

theorem applyPlanet_fill {p : Phase F} (hp : p.planet = Planet.default)
    (c : Option (PlanetConfig F)) : p.applyPlanet c = p.applyPlanet (some (c.getD .spherical)) := by
  cases c with
  | some c => rfl
  | none =>
    show p = { p with planet := EARTH_SPHERICAL }
    rw [show (EARTH_SPHERICAL : Planet F) = p.planet from hp.symm]

theorem applyAtmosphere_fill {p : Phase F} (hp : p.atmosphere = Atmosphere.default)
    (c : Option (AtmosphereConfig F)) :
    p.applyAtmosphere c =
      p.applyAtmosphere (some (fillAtmosphere (c.getD ⟨none, none⟩))) := by
  have h : ∀ a : Atmosphere F, p.atmosphere = a → { p with atmosphere := a } = p := by
    rintro _ rfl; rfl
  cases c with
  | none => exact (h _ hp).symm
  | some c =>
    obtain ⟨e, w⟩ := c
    show ({ p with atmosphere := p.atmosphere.updateWithConfig ⟨e, w⟩ } : Phase F) =
      { p with atmosphere := p.atmosphere.updateWithConfig (fillAtmosphere ⟨e, w⟩) }
    rw [hp]
    rcases e with _ | _ | _ <;> rcases w with _ | w <;> rfl

theorem applyVehicle_fill (hz : ZeroLaws F) {p : Phase F} (hp : p.vehicle = Vehicle.default)
    (hm : p.state.mass = 0) (hq : p.state.propellantMass = 0) (c : Option (VehicleConfig F)) :
    p.applyVehicle c = p.applyVehicle
      (some (fillVehicle (c.getD ⟨none, none, none, none, none, none, none⟩))) := by
  have hveh : ∀ c : VehicleConfig F, p.vehicle.updateWithConfig (fillVehicle c) =
      p.vehicle.updateWithConfig c := by
    rintro ⟨c1, c2, c3, c4, c5, c6, c7⟩
    rw [hp]
    simp only [Vehicle.updateWithConfig, fillVehicle, Vehicle.default, emptyTable,
      Table.default, Option.getD_some]
  have key : ∀ c : VehicleConfig F, p.applyVehicle (some c) =
      p.applyVehicle (some (fillVehicle c)) := by
    intro c
    simp only [applyVehicle, hveh]
    simp only [fillVehicle, applyStructureMass, applyPropellantMass]
    obtain ⟨c1, c2, c3, c4, c5, c6, c7⟩ := c
    cases c1 <;> cases c2 <;>
      simp only [Vehicle.updateWithConfig, hp, Vehicle.default, Option.getD_none,
        Option.getD_some, hq]
    · congr 1
      have : ∀ x y : F, p.state.mass = x → p.state.propellantMass = y →
          p.state = { p.state with mass := x, propellantMass := y } := by
        rintro _ _ rfl rfl; rfl
      exact this (0 + 0) 0 (by rw [hz.zero_add_zero, hm]) hq
    · congr 2
      exact hz.zero_comm _
  cases c with
  | some c => exact key c
  | none =>
    rw [← key ((none : Option (VehicleConfig F)).getD _)]
    show p = { p with vehicle := p.vehicle.updateWithConfig _ }
    rw [show p.vehicle.updateWithConfig ((none : Option (VehicleConfig F)).getD
      ⟨none, none, none, none, none, none, none⟩) = p.vehicle from rfl]

theorem applyMaxAcceleration_fill (hz : ZeroLaws F) {p : Phase F} (hp : p.maxAcceleration = inf)
    (c : Option F) : p.applyMaxAcceleration c = p.applyMaxAcceleration (some (c.getD (-1))) := by
  cases c with
  | some c => rfl
  | none =>
    show p = if Flt.eq (-1 : F) (-1) then { p with maxAcceleration := inf } else _
    rw [if_pos hz.eq_neg_one, ← hp]

theorem applySteering_fill {p : Phase F} (hp : p.steering = Steering.default)
    (c : Option (SteeringConfig F)) :
    p.applySteering c = p.applySteering (some (fillSteering (c.getD ⟨none, none, none⟩))) := by
  have h : ∀ a : Steering F, p.steering = a → { p with steering := a } = p := by
    rintro _ rfl; rfl
  cases c with
  | none =>
    refine (h _ ?_).symm
    rw [hp]; rfl
  | some c =>
    obtain ⟨r, y, t⟩ := c
    show ({ p with steering := p.steering.updateWithConfig ⟨r, y, t⟩ } : Phase F) =
      { p with steering := p.steering.updateWithConfig (fillSteering ⟨r, y, t⟩) }
    rw [hp]
    rcases r with _ | r <;> rcases y with _ | y <;> rcases t with _ | t <;> rfl

theorem new_fill (hz : ZeroLaws F) (c : PhaseConfig F) :
    (Phase.new none c).map Phase.reset =
      (Phase.new none { fill c with endCriterion := c.endCriterion }).map Phase.reset := by
  obtain ⟨ini, veh, st, pl, at_, ma, ss, ec⟩ := c
  cases ini with
  | none => rfl
  | some i =>
    have hss : ∀ (p : Phase F) (a b : Option F) (e : Option (StateVariable × F)),
        (((p.applyStepsize a).applyEndCriterion e).init i).reset =
        (((p.applyStepsize b).applyEndCriterion e).init i).reset := by
      intro p a b e; cases a <;> cases b <;> cases e <;> rfl
    show Except.ok _ = Except.ok _
    congr 1
    simp only [applyConfig, fill]
    rw [← applyPlanet_fill rfl, ← applyAtmosphere_fill (by simp; rfl),
      ← applyVehicle_fill hz (by simp; rfl) (by simp; rfl) (by simp; rfl),
      ← applyMaxAcceleration_fill hz (by simp; rfl), ← applySteering_fill (by simp; rfl)]
    exact hss _ _ _ _

/-- The same phase, ended by the mission time 0 instead of the time since the event 0. -/
def timed (p : Phase F) : Phase F := { p with endCriterion := (.time, 0) }

/-- A phase with the implemented default end criterion, whose two clocks agree. -/
structure Clocks (p : Phase F) : Prop where
  crit : p.endCriterion = (.timeSinceEvent, 0)
  same : p.state.time = p.state.timeSinceEvent

theorem timed_step {p : Phase F} (h : Clocks p) :
    p.timed.step = p.step.map timed ∧ ∀ q, p.step = .ok q → Clocks q := by
  obtain ⟨hc, hs⟩ := h
  have hsys : p.timed.system = p.system := rfl
  unfold step
  by_cases he : p.ended = true
  · rw [if_pos he, if_pos (show p.timed.ended = true from he)]
    exact ⟨rfl, fun q hq => by cases hq⟩
  · rw [if_neg he, if_neg (show ¬ p.timed.ended = true from he), hsys]
    show (do let state ← p.integrator.step p.system p.state p.stepsize; _) = _ ∧ _
    cases hst : p.integrator.step p.system p.state p.stepsize with
    | error e => exact ⟨rfl, fun q hq => by cases hq⟩
    | ok s =>
      obtain ⟨_, h1, h2⟩ := oneStep_system (p := p) hst
      have hs' : s.time = s.timeSinceEvent := by rw [h1, h2, hs]
      have v1 : ∀ x : State F, p.timed.critValue x = x.time := fun _ => rfl
      have v2 : ∀ x : State F, p.critValue x = x.timeSinceEvent := by
        intro x; unfold critValue; rw [hc]; rfl
      have t1 : p.timed.endCriterion.2 = 0 := rfl
      have t2 : p.endCriterion.2 = 0 := by rw [hc]
      have m : p.timed.criterionMet s = p.criterionMet s := by
        unfold criterionMet; rw [v1, v2, t1, t2, hs']
      have a : p.timed.eventIsActive p.state s = p.eventIsActive p.state s := by
        unfold eventIsActive; rw [v1, v1, v2, v2, t1, t2, hs', hs]
      have g : p.timed.timeToGo p.state s = p.timeToGo p.state s := by
        unfold timeToGo; rw [v1, v1, v2, v2, t1, t2, hs', hs]; rfl
      simp only [bind, Except.bind]
      rw [m, show p.timed.eventIsActive p.timed.state s = _ from a,
        show p.timed.timeToGo p.timed.state s = _ from g]
      by_cases hm : p.criterionMet s = true
      · rw [if_pos hm, if_pos hm]
        refine ⟨rfl, fun q hq => ?_⟩
        injection hq with hq; subst hq
        exact ⟨hc, hs'⟩
      · rw [if_neg hm, if_neg hm]
        by_cases ha : p.eventIsActive p.state s = true
        · rw [if_pos ha, if_pos ha]
          show (if p.endCriterionTries > 20 then _ else _) = _ ∧ _
          by_cases ht : p.endCriterionTries > 20
          · rw [if_pos ht, if_pos ht]
            exact ⟨rfl, fun q hq => by cases hq⟩
          · rw [if_neg ht, if_neg ht]
            refine ⟨rfl, fun q hq => ?_⟩
            injection hq with hq; subst hq
            exact ⟨hc, hs⟩
        · rw [if_neg ha, if_neg ha]
          refine ⟨rfl, fun q hq => ?_⟩
          injection hq with hq; subst hq
          exact ⟨hc, hs'⟩

/-- The outcome of a run, with the other end criterion. -/
def timedOut (o : RunOut F) : RunOut F := ⟨o.rows, o.result.map timed⟩

theorem timed_loop (fuel : Nat) : ∀ {p : Phase F}, Clocks p →
    Phase.loop fuel p.timed = (Phase.loop fuel p).map timedOut := by
  induction fuel with
  | zero =>
    intro p _
    unfold Phase.loop
    by_cases he : p.ended = true
    · rw [if_pos he, if_pos (show p.timed.ended = true from he)]; rfl
    · rw [if_neg he, if_neg (show ¬ p.timed.ended = true from he)]; rfl
  | succ fuel ih =>
    intro p h
    unfold Phase.loop
    by_cases he : p.ended = true
    · rw [if_pos he, if_pos (show p.timed.ended = true from he)]; rfl
    · rw [if_neg he, if_neg (show ¬ p.timed.ended = true from he)]
      obtain ⟨h1, h2⟩ := timed_step h
      simp only [h1]
      cases hs : p.step with
      | error e => rfl
      | ok q =>
        simp only [Except.map]
        rw [ih (h2 q hs), Option.map_map, Option.map_map]
        rfl

theorem timed_run (fuel : Nat) {p : Phase F} (h : Clocks p) :
    Phase.run fuel p.timed = (Phase.run fuel p).map timedOut := by
  unfold Phase.run
  rw [show p.timed.system p.timed.state = p.system p.state from rfl]
  cases hs : p.system p.state with
  | error e => rfl
  | ok s =>
    have hp := system_primary hs
    exact timed_loop fuel (p := { p with state := s }) ⟨h.crit, by rw [hp.1, hp.2.1]; exact h.same⟩

/-- A phase with the default end criterion ends where it started. -/
theorem default_run (hz : ZeroLaws F) {fuel : Nat} {p q : Phase F} {rows : List (Row F)}
    (hc : p.endCriterion = (.timeSinceEvent, 0)) (h0 : p.state.timeSinceEvent = 0)
    (ht : p.state.time = 0) (hst : p.stepsize = 1) (he : p.ended = false)
    (hr : Phase.run fuel p = some ⟨rows, .ok q⟩) : q.state.time = 0 := by
  rcases Phase.run_some hr with ⟨e, _, _, h3⟩ | ⟨s0, hs0, ps, r, hpath, _, _, hq⟩
  · cases h3
  · rcases hq with ⟨hend, hq⟩ | ⟨_, e, _, hq⟩
    · injection hq with hq; subst hq
      have hp := system_primary hs0
      cases hpath with
      | nil => exact absurd hend (by simp [he])
      | @cons _ p1 _ ps _ hstep hpath =>
        obtain ⟨_, s, hs, hcase⟩ := Phase.step_ok hstep
        obtain ⟨_, _, k2⟩ := oneStep_system hs
        have k2 : s.timeSinceEvent = 0 + 1 := by
          rw [k2]; show s0.timeSinceEvent + p.stepsize = _; rw [hp.2.1, h0, hst]
        have k0 : s0.timeSinceEvent = 0 := by rw [hp.2.1, h0]
        have kt : s0.time = 0 := by rw [hp.1, ht]
        have hcr : ({ p with state := s0 } : Phase F).endCriterion = (.timeSinceEvent, 0) := hc
        have hnm : ¬ Met (.timeSinceEvent, (0 : F)) s := by
          show ¬ Flt.lt (Flt.abs (s.timeSinceEvent - 0)) 1e-3 = true
          rw [k2, hz.one_far]; simp
        have hov : Overshot (.timeSinceEvent, (0 : F)) s0 s := by
          right
          show Flt.lt s.timeSinceEvent s0.timeSinceEvent = false ∧ Flt.lt 0 s.timeSinceEvent = true
          rw [k2, k0]
          exact ⟨hz.one_not_lt, hz.one_gt⟩
        rcases hcase with ⟨hm, _⟩ | ⟨_, _, _, hp1⟩ | ⟨_, ho, _⟩
        · rw [hcr] at hm; exact absurd hm hnm
        · have hst1 : p1.stepsize = (-(0 - 0 : F)) * 1 / ((0 + 1 - 0) - (0 - 0)) := by
            rw [hp1]
            show (-(p.endCriterion.1.getValue s0 - p.endCriterion.2)) * p.stepsize /
              ((p.endCriterion.1.getValue s - p.endCriterion.2) -
                (p.endCriterion.1.getValue s0 - p.endCriterion.2)) = _
            rw [hc, hst]
            show (-(s0.timeSinceEvent - 0)) * 1 / ((s.timeSinceEvent - 0) -
              (s0.timeSinceEvent - 0)) = _
            rw [k2, k0]
          have hs1 : p1.state = s0 := by rw [hp1]
          have he1 : p1.ended = false := by rw [hp1]; exact he
          have hc1 : p1.endCriterion = (.timeSinceEvent, 0) := by rw [hp1]; exact hc
          cases hpath with
          | nil => rw [he1] at hend; cases hend
          | @cons _ p2 _ ps _ hstep2 hpath2 =>
            obtain ⟨_, s', hs', hcase⟩ := Phase.step_ok hstep2
            obtain ⟨_, j1, j2⟩ := oneStep_system hs'
            rw [hs1, hst1] at j1 j2
            rw [kt, hz.secant] at j1
            rw [k0, hz.secant] at j2
            have hmet : Met (.timeSinceEvent, (0 : F)) s' := by
              show Flt.lt (Flt.abs (s'.timeSinceEvent - 0)) 1e-3 = true
              rw [j2]; exact hz.zero_near
            rcases hcase with ⟨_, hp2⟩ | ⟨hm, _⟩ | ⟨hm, _⟩
            · cases hpath2 with
              | nil => rw [hp2]; exact j1
              | cons he2 _ _ => rw [hp2] at he2; cases he2
            · rw [hc1] at hm; exact absurd hmet hm
            · rw [hc1] at hm; exact absurd hmet hm
        · rw [hcr] at ho; exact absurd hov ho
    · cases hq

theorem run_sameParams {fuel : Nat} {p q : Phase F} {rows : List (Row F)}
    (hr : Phase.run fuel p = some ⟨rows, .ok q⟩) : SameParams p q := by
  rcases Phase.run_some hr with ⟨e, _, _, h3⟩ | ⟨s0, _, ps, r, hpath, _, _, hq⟩
  · cases h3
  · rcases hq with ⟨_, hq⟩ | ⟨_, e, _, hq⟩
    · injection hq with hq; subst hq
      have := (path_sameParams hpath).1
      exact ⟨this.1, this.2, this.3, this.4, this.5, this.6, this.7, this.8, this.9⟩
    · cases hq

/-- What is handed over by phases with the default end criterion. -/
structure AtStart (p : Phase F) : Prop where
  crit : p.endCriterion = (.timeSinceEvent, 0)
  time : p.state.time = 0
  base : p.baseStepsize = 1

theorem applyPlanet_timed (p : Phase F) (c : Option (PlanetConfig F)) :
    p.timed.applyPlanet c = (p.applyPlanet c).timed := by cases c <;> rfl
theorem applyAtmosphere_timed (p : Phase F) (c : Option (AtmosphereConfig F)) :
    p.timed.applyAtmosphere c = (p.applyAtmosphere c).timed := by cases c <;> rfl
theorem applyVehicle_timed (p : Phase F) (c : Option (VehicleConfig F)) :
    p.timed.applyVehicle c = (p.applyVehicle c).timed := by
  rcases c with _ | ⟨_ | m, _ | m', v3, v4, v5, v6, v7⟩ <;> rfl
theorem applyMaxAcceleration_timed (p : Phase F) (c : Option F) :
    p.timed.applyMaxAcceleration c = (p.applyMaxAcceleration c).timed := by
  cases c with
  | none => rfl
  | some a => simp only [applyMaxAcceleration]; split <;> rfl
theorem applySteering_timed (p : Phase F) (c : Option (SteeringConfig F)) :
    p.timed.applySteering c = (p.applySteering c).timed := by cases c <;> rfl
theorem applyStepsize_timed (p : Phase F) (c : Option F) :
    p.timed.applyStepsize c = (p.applyStepsize c).timed := by cases c <;> rfl

theorem applyConfig_timed (p : Phase F) {c : PhaseConfig F} (hc : c.endCriterion = none) :
    p.timed.applyConfig c = (p.applyConfig c).timed := by
  simp only [applyConfig, hc, applyPlanet_timed, applyAtmosphere_timed, applyVehicle_timed,
    applyMaxAcceleration_timed, applySteering_timed, applyStepsize_timed]
  rfl

theorem applyConfig_timed_some (p : Phase F) {c : PhaseConfig F} {e : StateVariable × F}
    (hc : c.endCriterion = some e) : p.timed.applyConfig c = p.applyConfig c := by
  have h1 : ∀ p : Phase F, p.applyConfig c =
      { p.applyConfig { c with endCriterion := none } with endCriterion := e } := by
    intro p
    simp only [applyConfig, applyEndCriterion, hc]
  rw [h1, h1 p, applyConfig_timed p rfl]
  rfl

end Phase

open Phase in
/-- Later phases do not notice the change. -/
theorem loop_timed (hz : ZeroLaws F) (fuel : Nat) (cs : List (PhaseConfig F)) :
    ∀ (i : Nat) {q : Phase F}, AtStart q →
      Simulation.loop fuel i (some q.timed) q.timed cs = Simulation.loop fuel i (some q) q cs := by
  induction cs with
  | nil => intro i q _; rfl
  | cons c cs ih =>
    intro i q hq
    rw [Simulation.loop, Simulation.loop]
    simp only [Phase.new]
    cases hc : c.endCriterion with
    | some e => rw [applyConfig_timed_some q hc]
    | none =>
      rw [applyConfig_timed q hc]
      have hcr : (q.applyConfig c).endCriterion = (.timeSinceEvent, 0) := by
        rw [← hq.crit]; unfold applyConfig applyEndCriterion; rw [hc]; simp
      have ht : (q.applyConfig c).state.time = 0 := by rw [applyConfig_state_time]; exact hq.time
      have hb : (q.applyConfig c).baseStepsize = 1 := by
        rw [applyConfig_baseStepsize]; exact hq.base
      rw [show (q.applyConfig c).timed.reset = (q.applyConfig c).reset.timed from rfl,
        timed_run fuel (p := (q.applyConfig c).reset) ⟨hcr, ht⟩]
      cases hr : Phase.run fuel (q.applyConfig c).reset with
      | none => rfl
      | some o =>
        obtain ⟨rows, res⟩ := o
        cases res with
        | error e => rfl
        | ok r =>
          have hrt := default_run hz (p := (q.applyConfig c).reset) hcr rfl ht hb rfl hr
          have hpar := run_sameParams hr
          simp only [Option.map_some, timedOut, Except.map]
          rw [ih (i + 1) (q := r) ⟨hpar.endCriterion.trans hcr, hrt, hpar.baseStepsize.trans hb⟩]

/-- Writing the documented default `["time", 0]` of the end criterion into the first phase. -/
theorem run_fill_criterion (hz : ZeroLaws F) (fuel : Nat) (c : PhaseConfig F)
    (cs : List (PhaseConfig F)) :
    Simulation.run fuel (c :: cs) =
      Simulation.run fuel ({ c with endCriterion := some (c.endCriterion.getD (.time, 0)) } :: cs) := by
  cases hc : c.endCriterion with
  | some e =>
    have : { c with endCriterion := some ((some e).getD (.time, 0)) } = c := by
      cases c; simp only at hc; rw [hc]; rfl
    rw [this]
  | none =>
    unfold Simulation.run
    rw [Simulation.loop, Simulation.loop]
    simp only [Phase.new]
    cases hi : c.init with
    | none => rfl
    | some i =>
      simp only []
      have hfill : Phase.default.applyConfig { c with endCriterion := some ((none : Option _).getD (.time, 0)) } =
          (Phase.default.applyConfig c).timed := by
        simp only [Phase.applyConfig, Phase.applyEndCriterion, hc, Option.getD_none]
        rfl
      have hcr : ((Phase.default.applyConfig c).init i).reset.endCriterion =
          (.timeSinceEvent, (0 : F)) := by
        show (Phase.default.applyConfig c).endCriterion = _
        unfold Phase.applyConfig Phase.applyEndCriterion; rw [hc]; simp; rfl
      have ht : ((Phase.default.applyConfig c).init i).reset.state.time = 0 := by
        show (Phase.default.applyConfig c).state.time = 0
        rw [Phase.applyConfig_state_time]; rfl
      have hb : ((Phase.default.applyConfig c).init i).reset.baseStepsize = 1 := by
        show (Phase.default.applyConfig c).baseStepsize = 1
        rw [Phase.applyConfig_baseStepsize]; rfl
      rw [hi] at hfill
      rw [hfill, show ((Phase.default.applyConfig c).timed.init i).reset =
        ((Phase.default.applyConfig c).init i).reset.timed from rfl,
        Phase.timed_run fuel (p := ((Phase.default.applyConfig c).init i).reset) ⟨hcr, ht⟩]
      cases hr : Phase.run fuel ((Phase.default.applyConfig c).init i).reset with
      | none => rfl
      | some o =>
        obtain ⟨rows, res⟩ := o
        cases res with
        | error e => rfl
        | ok r =>
          have hrt := Phase.default_run hz hcr rfl ht hb rfl hr
          have hpar := Phase.run_sameParams hr
          simp only [Option.map_some, Phase.timedOut, Except.map]
          rw [loop_timed hz fuel cs (0 + 1) (q := r)
            ⟨hpar.endCriterion.trans hcr, hrt, hpar.baseStepsize.trans hb⟩]

/-- **C62 (part).**  Writing the documented defaults of the planet model, atmosphere, vehicle
(without engines), acceleration limit, steering, step size and end criterion explicitly into the
first phase does not change what the simulation prints or returns.  (The documented default
`["time", 0]` of the end criterion is not the implemented one, `["time_since_event", 0]`, but it
has the same effect, also for later phases that inherit it.) -/
theorem C62_documented_defaults_partial (hz : ZeroLaws F) (fuel : Nat) (c : PhaseConfig F)
    (cs : List (PhaseConfig F)) :
    Simulation.run fuel (c :: cs) = Simulation.run fuel (fill c :: cs) := by
  have h := Phase.new_fill hz c
  have hfill : fill c = { ({ fill c with endCriterion := c.endCriterion } : PhaseConfig F) with
      endCriterion := some (c.endCriterion.getD (.time, 0)) } := rfl
  rw [hfill]
  refine Eq.trans ?_ (run_fill_criterion hz fuel { fill c with endCriterion := c.endCriterion } cs)
  unfold Simulation.run
  rw [Simulation.loop, Simulation.loop]
  cases h1 : Phase.new none c with
  | error e =>
    rw [h1] at h
    cases h2 : Phase.new none { fill c with endCriterion := c.endCriterion } with
    | error e' => rw [h2] at h; injection h with h; subst h; rfl
    | ok p => rw [h2] at h; cases h
  | ok p =>
    rw [h1] at h
    cases h2 : Phase.new none { fill c with endCriterion := c.endCriterion } with
    | error e' => rw [h2] at h; cases h
    | ok p' =>
      rw [h2] at h
      injection h with h
      simp only [h]

/-- **C62 (refuted for the rest).**  The documented defaults of `init` and `engines` are not
those of the program: without `init` the first phase aborts although the documentation gives a
default, and with the documented default engine written out the mass flow is not a number
(while without `engines` it is zero). -/
theorem C62_refuted :
    (∀ (fuel : Nat) (c : PhaseConfig XR) (cs : List (PhaseConfig XR)), c.init = none →
      Simulation.run fuel (c :: cs) = some ⟨[.startingPhase 1], .error .missingInit⟩) ∧
    (∀ (v : Vehicle XR) (throttle : XR), v.engines = [⟨0, 0, 0, 0, 0⟩] →
      v.massflow throttle = .nan) ∧
    (∀ (v : Vehicle XR) (throttle : ℝ), v.engines = [] → v.massflow (.fin throttle) = 0) := by
  refine ⟨fun fuel c cs h => C08_missing_init fuel c cs h, ?_, ?_⟩
  · intro v throttle h
    have h0 : (-(0 : XR)) / (0 : XR) = .nan := by
      rw [XR.fin_zero, XR.fin_neg, neg_zero]
      rw [XR.fin_div_zero, XR.infMul]
      simp
    simp [Vehicle.massflow, h, Engine.massflow, h0, XR.nan_div, Flt.sum, XR.add_nan, XR.mul_nan]
  · intro v throttle h
    simp [Vehicle.massflow, h, Flt.sum, XR.fin_zero, XR.fin_mul]

/-- The laws of zero hold in exact arithmetic. -/
example : ZeroLaws XR where
  zero_add_zero := by rw [XR.fin_zero, XR.fin_add, add_zero]
  zero_comm := by
    intro x
    cases x <;> first | rfl | (rw [XR.fin_zero, XR.fin_add, XR.fin_add, add_comm])
  eq_neg_one := by
    rw [XR.fin_one, XR.fin_neg]
    exact decide_eq_true rfl
  one_far := by
    rw [XR.fin_zero, XR.fin_one, XR.fin_add, XR.fin_sub]
    xr_eval
    norm_num
  one_not_lt := by
    rw [XR.fin_zero, XR.fin_one, XR.fin_add]
    exact decide_eq_false (by norm_num)
  one_gt := by
    rw [XR.fin_zero, XR.fin_one, XR.fin_add]
    exact decide_eq_true (by norm_num)
  secant := by
    rw [XR.fin_zero, XR.fin_one]
    simp only [XR.fin_add, XR.fin_sub, XR.fin_neg, XR.fin_mul]
    rw [XR.fin_div (a := -(0 - 0) * 1) (b := 0 + 1 - 0 - (0 - 0)) (by norm_num), XR.fin_add]
    norm_num
  zero_near := by
    rw [XR.fin_zero, XR.fin_sub]
    xr_eval
    norm_num

/-- They hold in double precision. -/
theorem zeroLaws_f64 {L : Libm} : ZeroLaws (F64 L) where
  zero_add_zero := by
    show (⟨Dbl.add (.round false _) (.round false _)⟩ : F64 L) = ⟨.round false _⟩
    congr 1
    decide +kernel
  zero_comm := by
    intro x
    show (⟨Dbl.add (.round false _) x.dbl⟩ : F64 L) = ⟨Dbl.add x.dbl (.round false _)⟩
    congr 1
    have h0 : Dbl.round false (if (false : Bool) then ((0 : ℕ) : ℚ) / 10 ^ 0 else (0 : ℕ) * 10 ^ 0) =
        .fin false 0 := by decide +kernel
    rw [h0]
    cases x.dbl with
    | nan => rfl
    | inf s => rfl
    | fin s a => simp only [Dbl.add, add_comm, Bool.and_comm]
  eq_neg_one := by
    show Dbl.eq (Dbl.neg (.round false _)) (Dbl.neg (.round false _)) = true
    decide +kernel
  one_far := by
    show Dbl.lt (Dbl.abs (Dbl.add (Dbl.add (.round false _) (.round false _)) (Dbl.neg (.round false _))))
      (.round false _) = false
    decide +kernel
  one_not_lt := by
    show Dbl.lt (Dbl.add (.round false _) (.round false _)) (.round false _) = false
    decide +kernel
  one_gt := by
    show Dbl.lt (.round false _) (Dbl.add (.round false _) (.round false _)) = true
    decide +kernel
  secant := by
    have h : Dbl.add (.round false ((0 : ℕ) * 10 ^ 0)) (Dbl.div (Dbl.mul (Dbl.neg (Dbl.add
        (.round false ((0 : ℕ) * 10 ^ 0)) (Dbl.neg (.round false ((0 : ℕ) * 10 ^ 0)))))
        (.round false ((1 : ℕ) * 10 ^ 0))) (Dbl.add (Dbl.add (Dbl.add (.round false ((0 : ℕ) * 10 ^ 0))
        (.round false ((1 : ℕ) * 10 ^ 0))) (Dbl.neg (.round false ((0 : ℕ) * 10 ^ 0))))
        (Dbl.neg (Dbl.add (.round false ((0 : ℕ) * 10 ^ 0)) (Dbl.neg (.round false ((0 : ℕ) * 10 ^ 0)))))))
        = .round false ((0 : ℕ) * 10 ^ 0) := by decide +kernel
    exact congrArg (F64.mk (L := L)) h
  zero_near := by
    show Dbl.lt (Dbl.abs (Dbl.add (.round false _) (Dbl.neg (.round false _)))) (.round false _) = true
    decide +kernel

/-- Something is filled in. -/
example : fill Toy.config1 ≠ Toy.config1 := by
  intro h
  have : (fill Toy.config1).maxAcceleration = Toy.config1.maxAcceleration := by rw [h]
  cases this

end Post
