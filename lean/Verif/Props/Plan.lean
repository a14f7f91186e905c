import Verif.Spec.Plan
import Verif.Props.Phase
import Verif.Props.Run
import Verif.Props.State
import Verif.Toy
/-! # C81: only the values in force matter -/

set_option linter.unusedSectionVars false

namespace Post
open Spec Flt
variable {F : Type} [Flt F]

/-! ## Vehicles that behave alike -/

/-- the same as far as the equations of motion are concerned -/
structure Vehicle.Alike (v v' : Vehicle F) : Prop where
  structureMass : v.structureMass = v'.structureMass
  initialPropellantMass : v.initialPropellantMass = v'.initialPropellantMass
  referenceArea : v.referenceArea = v'.referenceArea
  drag : SameTable v.dragCoeff v'.dragCoeff
  lift : SameTable v.liftCoeff v'.liftCoeff
  side : SameTable v.sideForceCoeff v'.sideForceCoeff
  engines : SameEngines v.engines v'.engines

namespace Phase

theorem system_alike {p : Phase F} {v : Vehicle F} (h : p.vehicle.Alike v) :
    ({ p with vehicle := v } : Phase F).system = p.system := by
  funext s
  have hth : ∀ t x, v.thrustForce t x = p.vehicle.thrustForce t x := fun t x => by
    unfold Vehicle.thrustForce
    rw [show V3.sum (v.engines.map fun e => e.thrust x) =
      V3.sum (p.vehicle.engines.map fun e => e.thrust x) from (h.engines.1 x).symm]
  have hfl : ∀ t, v.massflow t = p.vehicle.massflow t := fun t => by
    unfold Vehicle.massflow
    rw [show Flt.sum (v.engines.map fun e => e.massflow) =
      Flt.sum (p.vehicle.engines.map fun e => e.massflow) from h.engines.2.symm]
  have hau : ∀ a m x f, v.autoThrottle a m x f = p.vehicle.autoThrottle a m x f :=
    fun a m x f => by
      unfold Vehicle.autoThrottle
      rw [hth]
  have hae : ∀ s, v.aeroForce s = p.vehicle.aeroForce s := fun s => by
    unfold Vehicle.aeroForce
    rw [← h.drag s, ← h.lift s, ← h.side s, ← h.referenceArea]
  have hpre : ({ p with vehicle := v } : Phase F).systemPre s = p.systemPre s := by
    unfold systemPre systemAlpha systemAttitude systemDynamic systemAtmosphere systemAir systemPlanet
      bodyRotation
    simp only [h.structureMass]
  have hfo : ∀ s a, ({ p with vehicle := v } : Phase F).systemForces s a = p.systemForces s a :=
    fun s a => by
      unfold systemForces
      simp only [hau, hth, hfl]
  unfold system
  rw [hpre]
  show (do
    let aero ← v.aeroForce _
    _) = _
  rw [hae]
  simp only [hfo]
  rfl

theorem step_alike {p : Phase F} {v : Vehicle F} (h : p.vehicle.Alike v) :
    ({ p with vehicle := v } : Phase F).step =
      p.step.map fun q => { q with vehicle := v } := by
  unfold step
  simp only [system_alike h]
  cases p.ended with
  | true => rfl
  | false =>
    simp only [Bool.false_eq_true, if_false]
    cases p.integrator.step p.system p.state p.stepsize with
    | error e => rfl
    | ok s =>
      show (if p.criterionMet s then _ else if p.eventIsActive p.state s then _ else _) = _
      simp only [bind, Except.bind]
      split
      · rfl
      · split
        · split <;> rfl
        · rfl

theorem loop_alike {fuel : Nat} {p : Phase F} {v : Vehicle F} (h : p.vehicle.Alike v) :
    ({ p with vehicle := v } : Phase F).loop fuel =
      (p.loop fuel).map fun o => ⟨o.rows, o.result.map fun q => { q with vehicle := v }⟩ := by
  induction fuel generalizing p with
  | zero =>
    unfold loop
    show (if p.ended = true then _ else _) = _
    by_cases he : p.ended = true
    · rw [if_pos he, if_pos he]; rfl
    · rw [if_neg he, if_neg he]; rfl
  | succ n ih =>
    unfold loop
    show (if p.ended = true then _ else _) = _
    by_cases he : p.ended = true
    · rw [if_pos he, if_pos he]; rfl
    · rw [if_neg he, if_neg he]
      show (match ({ p with vehicle := v } : Phase F).step with
        | .error e => _
        | .ok p' => _) = _
      rw [step_alike h]
      cases hs : p.step with
      | error e => rfl
      | ok p' =>
        have hv := (step_sameParams hs).vehicle
        show ((loop n ({ p' with vehicle := v } : Phase F)).map _) = Option.map _ (Option.map _ _)
        rw [ih (by rw [hv]; exact h)]
        simp only [Option.map_map]
        rfl

theorem run_alike {fuel : Nat} {p : Phase F} {v : Vehicle F} (h : p.vehicle.Alike v) :
    ({ p with vehicle := v } : Phase F).run fuel =
      (p.run fuel).map fun o => ⟨o.rows, o.result.map fun q => { q with vehicle := v }⟩ := by
  unfold run
  rw [system_alike h]
  show (match p.system p.state with
    | .error e => _
    | .ok s => _) = _
  cases p.system p.state with
  | error e => rfl
  | ok s => exact loop_alike (p := { p with state := s }) h

end Phase

/-- the same phase, except that the vehicle may be described differently -/
def LastAlike : Option (Phase F) → Option (Phase F) → Prop
  | none, none => True
  | some q, some q' => ∃ v, q.vehicle.Alike v ∧ q' = { q with vehicle := v }
  | _, _ => False

theorem completes_alike {p p' : Phase F} {v : Vehicle F} (hv : p.vehicle.Alike v)
    (hp : p' = { p with vehicle := v }) {rows : List (Row F)} {q : Phase F} {fuel : Nat}
    (h : p.run fuel = some ⟨rows, .ok q⟩) :
    p'.run fuel = some ⟨rows, .ok { q with vehicle := v }⟩ ∧ q.vehicle.Alike v := by
  refine ⟨?_, ?_⟩
  · rw [hp, Phase.run_alike hv, h]; rfl
  · rw [(Phase.run_ok_sameParams h).vehicle]; exact hv

theorem follows_unique {a a' : Axis F} {c c' : AxisConfig F} (h : Follows a c) (h' : Follows a' c')
    (hc : c = c') (h0 : a.c0 = a'.c0) : a = a' := by
  subst hc
  ext
  · rw [h.1, h'.1]
  · exact h0
  · rw [h.2.1, h'.2.1]
  · rw [h.2.2.1, h'.2.2.1]
  · rw [h.2.2.2, h'.2.2.2]

/-- The masses that the two configurations lead to, after the same phase. -/
def SameMass (last : Option (Phase F)) (c c' : PhaseConfig F) : Prop :=
  ((Phase.base last).applyConfig c).state.mass = ((Phase.base last).applyConfig c').state.mass

theorem applyConfig_state_eq (p : Phase F) (c : PhaseConfig F) :
    (p.applyConfig c).state = { p.state with mass := (p.applyConfig c).state.mass } := by
  apply State.ext <;> simp

theorem applyConfig_mass_alike (p : Phase F) (c : PhaseConfig F) {v : Vehicle F}
    (hv : p.vehicle.Alike v) :
    (({ p with vehicle := v } : Phase F).applyConfig c).state.mass = (p.applyConfig c).state.mass := by
  rw [Phase.applyConfig_mass, Phase.applyConfig_mass]
  simp only [hv.structureMass]

theorem applyConfig_initialPropellant (p : Phase F) (c : PhaseConfig F) :
    (p.applyConfig c).vehicle.initialPropellantMass =
      (vehicleParam (·.propellantMass) c).getD p.vehicle.initialPropellantMass := by
  rw [Phase.applyConfig_vehicle]; unfold vehicleParam; cases c.vehicle <;> rfl

/-- The next phase of two files that mean the same. -/
theorem new_alike {done done' : List (PhaseConfig F)} {c c' : PhaseConfig F}
    {log log' : List (LogEntry F)} {last last' : Option (Phase F)}
    (hs : Sequence 0 none done log last) (hs' : Sequence 0 none done' log' last')
    (hl : LastAlike last last') (hin : SameInForce (done ++ [c]) (done' ++ [c']))
    (hi : last = none → c.init = c'.init)
    (hpr : vehicleParam (·.propellantMass) c = vehicleParam (·.propellantMass) c')
    (hm : SameMass last c c') {p : Phase F} (hp : Phase.new last c = .ok p) :
    ∃ p', Phase.new last' c' = .ok p' ∧ p.reset.vehicle.Alike p'.reset.vehicle ∧
      p'.reset = { p.reset with vehicle := p'.reset.vehicle } := by
  have hbase : ∃ v, (Phase.base last).vehicle.Alike v ∧
      Phase.base last' = { Phase.base last with vehicle := v } := by
    cases last with
    | none =>
      cases last' with
      | none => exact ⟨_, ⟨rfl, rfl, rfl, fun _ => rfl, fun _ => rfl, fun _ => rfl, fun _ => rfl, rfl⟩, rfl⟩
      | some q' => exact hl.elim
    | some q =>
      cases last' with
      | none => exact hl.elim
      | some q' => exact hl
  obtain ⟨v, hv, hb⟩ := hbase
  obtain ⟨p', hp'⟩ : ∃ p', Phase.new last' c' = .ok p' := by
    rcases Phase.new_ok hp with ⟨hne, _⟩ | ⟨rfl, i, hi', _⟩
    · cases last' with
      | none =>
        cases last with
        | none => exact absurd rfl hne
        | some q => exact hl.elim
      | some q' => exact ⟨_, rfl⟩
    · cases last' with
      | none =>
        refine ⟨(Phase.default.applyConfig c').init i, ?_⟩
        unfold Phase.new
        rw [← hi rfl, hi']
      | some q' => exact hl.elim
  have hr := C07_parameters_in_force ⟨log, last, p, hs, hp, rfl⟩
  have hr' := C07_parameters_in_force ⟨log', last', p', hs', hp', rfl⟩
  have hpl : p'.planet = p.planet := by
    have : p'.reset.planet = p.reset.planet := by rw [hr.planet, hr'.planet, hin.planet]
    exact this
  have hmass : ((Phase.base last').applyConfig c').state.mass =
      ((Phase.base last).applyConfig c).state.mass := by
    rw [hb, applyConfig_mass_alike _ _ hv, ← hm]
  have hstate : p'.state = p.state ∧ p'.launch = p.launch ∧ p'.integrator = p.integrator ∧
      p'.baseStepsize = p.baseStepsize ∧
      p.vehicle.initialPropellantMass = p'.vehicle.initialPropellantMass := by
    have h1 : ((Phase.base last').applyConfig c').state = ((Phase.base last).applyConfig c).state := by
      rw [applyConfig_state_eq, applyConfig_state_eq (Phase.base last), hmass, hb]
    have h2 : ((Phase.base last).applyConfig c).vehicle.initialPropellantMass =
        ((Phase.base last').applyConfig c').vehicle.initialPropellantMass := by
      rw [applyConfig_initialPropellant, applyConfig_initialPropellant, hpr, hb,
        hv.initialPropellantMass]
    rcases Phase.new_ok hp with ⟨hne, e⟩ | ⟨e0, i, hi', e⟩
    · rcases Phase.new_ok hp' with ⟨_, e'⟩ | ⟨e0', _⟩
      · subst e; subst e'
        refine ⟨h1, ?_, ?_, ?_, h2⟩
        · rw [Phase.applyConfig_launch, Phase.applyConfig_launch, hb]
        · rfl
        · rw [Phase.applyConfig_baseStepsize, Phase.applyConfig_baseStepsize, hb]
      · subst e0'
        cases last with
        | none => exact absurd rfl hne
        | some q => exact hl.elim
    · rcases Phase.new_ok hp' with ⟨hne, _⟩ | ⟨_, i', hi'', e'⟩
      · subst e0
        cases last' with
        | none => exact absurd rfl hne
        | some q => exact hl.elim
      · have hii : i' = i := by
          have := hi e0
          rw [hi', hi''] at this
          injection this with this
          exact this.symm
        subst hii
        subst e; subst e'
        have hpl' : ((Phase.base last').applyConfig c').planet =
            ((Phase.base last).applyConfig c).planet := hpl
        refine ⟨?_, ?_, ?_, ?_, h2⟩
        · unfold Phase.init
          simp only [hpl', h1]
        · unfold Phase.init
          simp only [hpl']
        · rfl
        · show ((Phase.base last').applyConfig c').baseStepsize = ((Phase.base last).applyConfig c).baseStepsize
          rw [Phase.applyConfig_baseStepsize, Phase.applyConfig_baseStepsize, hb]
  obtain ⟨hst, hla, hint, hbs, hip⟩ := hstate
  have hst' : p'.reset.state = p.reset.state := by unfold Phase.reset; simp only [hst]
  refine ⟨p', hp', ⟨?_, hip, ?_, ?_, ?_, ?_, ?_⟩, ?_⟩
  · rw [hr.structureMass, hr'.structureMass, hin.structureMass]
  · rw [hr.referenceArea, hr'.referenceArea, hin.referenceArea]
  · rw [hr.dragCoeff, hr'.dragCoeff]; exact hin.drag
  · rw [hr.liftCoeff, hr'.liftCoeff]; exact hin.lift
  · rw [hr.sideForceCoeff, hr'.sideForceCoeff]; exact hin.sideForce
  · rw [hr.engines, hr'.engines]; exact hin.engines
  · have hsteer : p'.reset.steering = p.reset.steering := by
      ext1
      · exact follows_unique hr'.roll hr.roll hin.roll.symm (by
          show toDegrees p'.state.eulerAngles.roll = toDegrees p.state.eulerAngles.roll; rw [hst])
      · exact follows_unique hr'.yaw hr.yaw hin.yaw.symm (by
          show toDegrees p'.state.eulerAngles.yaw = toDegrees p.state.eulerAngles.yaw; rw [hst])
      · exact follows_unique hr'.pitch hr.pitch hin.pitch.symm (by
          show toDegrees p'.state.eulerAngles.pitch = toDegrees p.state.eulerAngles.pitch; rw [hst])
    have hatm : p'.reset.atmosphere = p.reset.atmosphere := by
      ext1
      · rw [hr.wind, hr'.wind, hin.wind]
      · rw [hr.atmosphere, hr'.atmosphere, hin.atmosphere]
    have hpl2 : p'.reset.planet = p.reset.planet := hpl
    have hmax : p'.reset.maxAcceleration = p.reset.maxAcceleration := by
      rw [hr.maxAcceleration, hr'.maxAcceleration, hin.maxAcceleration]
    have hend : p'.reset.endCriterion = p.reset.endCriterion := by
      rw [hr.endCriterion, hr'.endCriterion, hin.endCriterion]
    have hla' : p'.reset.launch = p.reset.launch := hla
    have hbs' : p'.reset.baseStepsize = p.reset.baseStepsize := hbs
    have hss' : p'.reset.stepsize = p.reset.stepsize := hbs
    have htr : p'.reset.endCriterionTries = p.reset.endCriterionTries := rfl
    have hed : p'.reset.ended = p.reset.ended := rfl
    generalize p'.reset = r' at *
    generalize p.reset = r at *
    cases r'; cases r
    simp only at *
    subst hst' hsteer hatm hpl2 hmax hend hla' hbs' hss' htr hed
    rfl

/-! ## Whole simulations -/

theorem Spec.SameEngines.symm {es es' : List (Engine F)} (h : SameEngines es es') :
    SameEngines es' es := ⟨fun p => (h.1 p).symm, h.2.symm⟩

theorem Spec.SameInForce.symm {cs cs' : List (PhaseConfig F)} (h : SameInForce cs cs') :
    SameInForce cs' cs where
  planet := h.planet.symm
  atmosphere := h.atmosphere.symm
  wind := h.wind.symm
  structureMass := h.structureMass.symm
  referenceArea := h.referenceArea.symm
  drag := fun s => (h.drag s).symm
  lift := fun s => (h.lift s).symm
  sideForce := fun s => (h.sideForce s).symm
  engines := h.engines.symm
  maxAcceleration := h.maxAcceleration.symm
  roll := h.roll.symm
  yaw := h.yaw.symm
  pitch := h.pitch.symm
  endCriterion := h.endCriterion.symm

theorem Spec.SamePlan.symm {cs cs' : List (PhaseConfig F)} (h : SamePlan cs cs') : SamePlan cs' cs :=
  ⟨h.length.symm, h.init.symm, fun n => (h.inForce n).symm, h.propellant.symm⟩

theorem sequence_none {cs : List (PhaseConfig F)} {i : Nat} {prev : Option (Phase F)}
    {log : List (LogEntry F)} (h : Sequence i prev cs log none) : cs = [] := by
  generalize hl : (none : Option (Phase F)) = last at h
  induction h with
  | nil => rfl
  | cons _ h2 ih =>
    subst hl
    have := ih rfl
    subst this
    cases h2

theorem sequence_visited {cs : List (PhaseConfig F)} {i : Nat} {prev : Option (Phase F)}
    {log : List (LogEntry F)} {last : Option (Phase F)} (h : Sequence i prev cs log last) :
    ∀ q, last = some q → prev = some q ∨ ∃ p, Visited p q.state ∧ p.vehicle = q.vehicle := by
  induction h with
  | nil => exact fun q hq => .inl hq
  | cons h1 h2 ih =>
    intro q hq
    rcases ih q hq with h3 | h3
    · obtain ⟨p, hp, fuel, hr⟩ := h1
      injection h3 with h3
      subst h3
      exact .inr ⟨p.reset, ((C57_reported hr).2 _ rfl).1, (Phase.run_ok_sameParams hr).vehicle.symm⟩
    · exact .inr h3

/-- the masses in the phases agree -/
def SameMasses (cs cs' : List (PhaseConfig F)) : Prop :=
  ∀ n c c' log last, cs[n]? = some c → cs'[n]? = some c' →
    Sequence 0 none (cs.take n) log last → SameMass last c c'

theorem plan_next {cs cs' : List (PhaseConfig F)} (h : SamePlan cs cs') (hm : SameMasses cs cs')
    {n : Nat} {c c' : PhaseConfig F} (hc : cs[n]? = some c) (hc' : cs'[n]? = some c')
    {log : List (LogEntry F)} {last last' : Option (Phase F)}
    (hs : Sequence 0 none (cs.take n) log last) (hs' : Sequence 0 none (cs'.take n) log last')
    (hl : LastAlike last last') {p : Phase F} (hp : Phase.new last c = .ok p) :
    ∃ p', Phase.new last' c' = .ok p' ∧ p.reset.vehicle.Alike p'.reset.vehicle ∧
      p'.reset = { p.reset with vehicle := p'.reset.vehicle } := by
  refine new_alike hs hs' hl ?_ ?_ ?_ (hm n c c' log last hc hc' hs) hp
  · have := h.inForce (n + 1)
    rw [List.take_add_one, List.take_add_one, hc, hc'] at this
    exact this
  · rintro rfl
    have h0 := sequence_none hs
    have hn : n = 0 := by
      have : n < cs.length := (List.getElem?_eq_some_iff.1 hc).1
      rw [List.take_eq_nil_iff] at h0
      rcases h0 with h0 | h0
      · exact h0
      · subst h0; simp at this
    subst hn
    have := h.init
    rw [List.head?_eq_getElem?, List.head?_eq_getElem?, hc, hc'] at this
    exact this
  · have := congrArg (·[n]?) h.propellant
    simp only [List.getElem?_map, hc, hc', Option.map_some, Option.some.injEq] at this
    exact this

theorem plan_sequence {cs cs' : List (PhaseConfig F)} (h : SamePlan cs cs') (hm : SameMasses cs cs')
    {n : Nat} {log : List (LogEntry F)} {last : Option (Phase F)}
    (hs : Sequence 0 none (cs.take n) log last) :
    ∃ last', Sequence 0 none (cs'.take n) log last' ∧ LastAlike last last' := by
  induction n generalizing log last with
  | zero =>
    rw [List.take_zero] at hs ⊢
    cases hs
    exact ⟨none, .nil _ _, trivial⟩
  | succ n ih =>
    cases hc : cs[n]? with
    | none =>
      have hc' : cs'[n]? = none := by
        rw [List.getElem?_eq_none_iff] at hc ⊢
        rw [← h.length]; exact hc
      rw [List.take_add_one, hc] at hs
      rw [List.take_add_one, hc']
      simp only [Option.toList_none, List.append_nil] at hs ⊢
      exact ih hs
    | some c =>
      obtain ⟨c', hc'⟩ : ∃ c', cs'[n]? = some c' := by
        have h1 := (List.getElem?_eq_some_iff.1 hc).1
        rw [h.length] at h1
        exact ⟨_, List.getElem?_eq_getElem h1⟩
      rw [List.take_add_one, hc] at hs
      rw [List.take_add_one, hc']
      simp only [Option.toList_some] at hs ⊢
      obtain ⟨mid, log1, log2, h1, h2, rfl⟩ := C53_append.1 hs
      obtain ⟨mid', h1', hmid⟩ := ih h1
      cases h2 with
      | cons h3 h4 =>
        cases h4
        obtain ⟨p, hp, fuel, hr⟩ := h3
        obtain ⟨p', hp', hv, he⟩ := plan_next h hm hc hc' h1 h1' hmid hp
        obtain ⟨h5, h6⟩ := completes_alike hv he hr
        refine ⟨_, C53_append.2 ⟨mid', _, _, h1', .cons ⟨p', hp', fuel, h5⟩ (.nil _ _), ?_⟩, _, h6, rfl⟩
        rw [List.length_take, List.length_take, h.length]

theorem plan_terminates {cs cs' : List (PhaseConfig F)} (h : SamePlan cs cs')
    (hm : SameMasses cs cs') {o : SimOut F} (ho : Simulation.Terminates cs o) :
    Simulation.Terminates cs' o := by
  obtain ⟨log, res⟩ := o
  cases res with
  | ok s =>
    obtain ⟨last, hs, rfl⟩ := C53_terminates_ok_iff.1 ho
    rw [← List.take_length (l := cs)] at hs
    obtain ⟨last', hs', hl⟩ := plan_sequence h hm hs
    rw [h.length, List.take_length] at hs'
    refine C53_terminates_ok_iff.2 ⟨last', hs', ?_⟩
    cases last with
    | none =>
      cases last' with
      | none => rfl
      | some q' => exact hl.elim
    | some q =>
      cases last' with
      | none => exact hl.elim
      | some q' =>
        obtain ⟨v, _, rfl⟩ := hl
        rfl
  | error e =>
    obtain ⟨done, c, rest, log', last, rows, hcs, hs, hab, rfl⟩ := C53_terminates_error_iff.1 ho
    have hc : cs[done.length]? = some c := by rw [hcs]; simp
    have htake : cs.take done.length = done := by rw [hcs]; simp
    have hlen : done.length < cs'.length := by rw [← h.length, hcs]; simp
    have hc' : cs'[done.length]? = some cs'[done.length] := List.getElem?_eq_getElem hlen
    rw [← htake] at hs
    obtain ⟨last', hs', hl⟩ := plan_sequence h hm hs
    refine C53_terminates_error_iff.2 ⟨cs'.take done.length, cs'[done.length],
      cs'.drop (done.length + 1), log', last', rows, ?_, hs', ?_, ?_⟩
    · rw [List.getElem_cons_drop, List.take_append_drop]
    · rcases hab with ⟨h1, h2⟩ | ⟨p, hp, fuel, hr⟩
      · left
        refine ⟨?_, h2⟩
        cases last with
        | some q => simp [Phase.new] at h1
        | none =>
          cases last' with
          | some q' => exact hl.elim
          | none =>
            have h0 := sequence_none hs
            rw [htake] at h0
            subst h0
            have := h.init
            rw [List.head?_eq_getElem?, List.head?_eq_getElem?] at this
            simp only [List.length_nil] at hc hc'
            rw [hc, hc'] at this
            simp only [Option.bind_some] at this
            unfold Phase.new at h1 ⊢
            simp only [List.length_nil] at h1 ⊢
            rw [← this]
            cases hi : c.init with
            | none => rw [hi] at h1; exact h1
            | some i => rw [hi] at h1; cases h1
      · right
        obtain ⟨p', hp', hv, he⟩ := plan_next h hm hc hc' hs hs' hl hp
        refine ⟨p', hp', fuel, ?_⟩
        rw [he, Phase.run_alike hv, hr]
        rfl
    · rw [List.length_take, Nat.min_eq_left (by omega)]

theorem inForce_last {β : Type} {f : PhaseConfig F → Option β} {d : β} {cs : List (PhaseConfig F)}
    {n : Nat} {c : PhaseConfig F} (hc : cs[n]? = some c) :
    inForce f d (cs.take (n + 1)) = (f c).getD (inForce f d (cs.take n)) := by
  rw [List.take_add_one, hc, inForce_append]
  rfl

theorem sameMasses_of_entries {cs cs' : List (PhaseConfig F)} (h : SamePlan cs cs')
    (he : SameStructureEntries cs cs') : SameMasses cs cs' := by
  intro n c c' log last hc hc' _
  have h1 : vehicleParam (·.propellantMass) c = vehicleParam (·.propellantMass) c' := by
    have := congrArg (·[n]?) h.propellant
    simp only [List.getElem?_map, hc, hc', Option.map_some, Option.some.injEq] at this
    exact this
  have h2 : vehicleParam (·.structureMass) c = vehicleParam (·.structureMass) c' := by
    have h3 := congrArg (·[n]?) he
    simp only [List.getElem?_map, hc, hc', Option.map_some, Option.some.injEq] at h3
    have h4 := (h.inForce (n + 1)).structureMass
    rw [inForce_last hc, inForce_last hc'] at h4
    cases h5 : vehicleParam (·.structureMass) c with
    | none =>
      cases h6 : vehicleParam (·.structureMass) c' with
      | none => rfl
      | some s' => rw [h5, h6] at h3; cases h3
    | some s =>
      cases h6 : vehicleParam (·.structureMass) c' with
      | none => rw [h5, h6] at h3; cases h3
      | some s' =>
        rw [h5, h6] at h4
        exact congrArg some h4
  unfold SameMass
  rw [Phase.applyConfig_mass, Phase.applyConfig_mass, h1, h2]

/-- C81.  Two files that describe the same flight lead to the same output and the same outcome, in
any arithmetic: how a value got into force, how a planet, a table or a set of engines is written
down does not matter. -/
theorem C81_same_plan {cs cs' : List (PhaseConfig F)} (h : SamePlan cs cs')
    (he : SameStructureEntries cs cs') (o : SimOut F) :
    Simulation.Terminates cs o ↔ Simulation.Terminates cs' o :=
  ⟨plan_terminates h (sameMasses_of_entries h he),
    plan_terminates h.symm (sameMasses_of_entries h.symm he.symm)⟩

/-- C81 (exact arithmetic).  If the structure masses are actual numbers, they, too, may be written
out again in any phase. -/
theorem C81_same_plan_exact {cs cs' : List (PhaseConfig XR)} (h : SamePlan cs cs')
    (hr : ∀ n, ∃ m : ℝ, inForce (vehicleParam (·.structureMass)) 0 (cs.take n) = .fin m)
    (o : SimOut XR) : Simulation.Terminates cs o ↔ Simulation.Terminates cs' o := by
  have key : ∀ {cs cs' : List (PhaseConfig XR)}, SamePlan cs cs' →
      (∀ n, ∃ m : ℝ, inForce (vehicleParam (·.structureMass)) 0 (cs.take n) = .fin m) →
      SameMasses cs cs' := by
    intro cs cs' h hr n c c' log last hc hc' hs
    have h1 : vehicleParam (·.propellantMass) c = vehicleParam (·.propellantMass) c' := by
      have := congrArg (·[n]?) h.propellant
      simp only [List.getElem?_map, hc, hc', Option.map_some, Option.some.injEq] at this
      exact this
    have h4 := (h.inForce (n + 1)).structureMass
    rw [inForce_last hc, inForce_last hc', ← (h.inForce n).structureMass] at h4
    have hbase : (Phase.base last).vehicle.structureMass =
        inForce (vehicleParam (·.structureMass)) 0 (cs.take n) ∧
        (Phase.base last).state.propellantMass =
          (Phase.base last).state.mass - (Phase.base last).vehicle.structureMass := by
      refine ⟨sequence_inForce (·.vehicle.structureMass) _
        (new_of_applyConfig (X := (·.vehicle.structureMass)) (fun p c => ?_)
        (fun _ _ => rfl) (fun _ => rfl)) (fun _ _ h => by rw [h.vehicle]) hs, ?_⟩
      · rw [Phase.applyConfig_vehicle]; unfold vehicleParam; cases c.vehicle <;> rfl
      · cases last with
        | none =>
          show (0 : XR) = 0 - 0
          rw [XR.fin_zero, XR.fin_sub, sub_zero]
        | some q =>
          obtain ⟨p, h5, h6⟩ := (sequence_visited hs q rfl).resolve_left (by simp)
          show q.state.propellantMass = q.state.mass - q.vehicle.structureMass
          rw [← h6]
          exact C14_propellant h5
    obtain ⟨m, hm⟩ := hr n
    unfold SameMass
    rw [Phase.applyConfig_mass, Phase.applyConfig_mass, ← h1, hbase.2, hbase.1]
    rw [hm] at h4 ⊢
    have hback : ∀ x : XR, x - .fin m + .fin m = x := by
      intro x
      cases x with
      | fin x => rw [XR.fin_sub, XR.fin_add, sub_add_cancel]
      | _ => rfl
    cases h2 : vehicleParam (·.structureMass) c <;> cases h3 : vehicleParam (·.structureMass) c' <;>
      rw [h2, h3] at h4 <;> simp only [Option.getD_some, Option.getD_none] at h4 <;>
      cases vehicleParam (·.propellantMass) c
    all_goals first
      | rfl
      | (subst h4; first | rfl | exact hback _ | exact (hback _).symm)
  refine ⟨plan_terminates h (key h hr), plan_terminates h.symm (key h.symm fun n => ?_)⟩
  rw [← (h.inForce n).structureMass]
  exact hr n

theorem restated_inForce {β : Type} {f : PhaseConfig F → Option β} {d : β}
    {done : List (PhaseConfig F)} {c c' : PhaseConfig F} (h : Restated done c c' f d)
    (rest : List (PhaseConfig F)) (n : Nat) :
    inForce f d ((done ++ c :: rest).take n) = inForce f d ((done ++ c' :: rest).take n) := by
  rw [List.take_append, List.take_append, inForce_append, inForce_append]
  by_cases hn : n ≤ done.length
  · rw [Nat.sub_eq_zero_of_le hn]; rfl
  · rw [List.take_of_length_le (by omega)]
    obtain ⟨m, hm⟩ : ∃ m, n - done.length = m + 1 := ⟨n - done.length - 1, by omega⟩
    rw [hm, List.take_succ_cons, List.take_succ_cons]
    show inForce f ((f c).getD _) _ = inForce f ((f c').getD _) _
    congr 1
    rcases h with h | ⟨h1, h2⟩
    · rw [h]
    · rw [h1, h2]; rfl

/-- C81 (restating).  Writing out a value that is in force anyway changes nothing, in any
arithmetic. -/
theorem C81_restate {done rest : List (PhaseConfig F)} {c c' : PhaseConfig F}
    (h : Restates done c c') (o : SimOut F) :
    Simulation.Terminates (done ++ c :: rest) o ↔ Simulation.Terminates (done ++ c' :: rest) o := by
  refine C81_same_plan ⟨by simp, ?_, fun n => ?_, ?_⟩ ?_ o
  · cases done with
    | nil => simp [h.init rfl]
    | cons a l => rfl
  · refine ⟨congrArg _ (restated_inForce h.planet rest n), restated_inForce h.atmosphere rest n,
      restated_inForce h.wind rest n, restated_inForce (.inl h.structureMass) rest n,
      restated_inForce h.referenceArea rest n, fun s => ?_, fun s => ?_, fun s => ?_,
      ⟨fun p => ?_, ?_⟩, restated_inForce h.maxAcceleration rest n, restated_inForce h.roll rest n,
      restated_inForce h.yaw rest n, restated_inForce h.pitch rest n,
      restated_inForce h.endCriterion rest n⟩
    · rw [restated_inForce h.drag rest n]
    · rw [restated_inForce h.lift rest n]
    · rw [restated_inForce h.sideForce rest n]
    · rw [restated_inForce h.engines rest n]
    · rw [restated_inForce h.engines rest n]
  · simp [h.propellantMass]
  · simp [SameStructureEntries, h.structureMass]

/-! ## Examples -/

/-- `Toy.config1` with an engine -/
def exampleBurning : PhaseConfig Fix :=
  { Toy.config1 with
    vehicle := some ⟨some 10, some 5, none, none, none, none, some [⟨0, 0, 10, 10, 0⟩]⟩
    maxAcceleration := some 5 }

/-- a second phase that only says when it ends, after a restatement of what is in force: the
planet, the atmosphere being off, the engines, the reference area, the acceleration limit -/
def exampleRestating : PhaseConfig Fix :=
  { Toy.config2 with
    init := some ⟨1, 2, 3, 4⟩
    planetModel := some (.custom 100 100 ⟨1000, 0, 0, 0⟩ 0)
    atmosphere := some ⟨some false, none⟩
    vehicle := some ⟨none, none, some 0, none, none, none, some [⟨0, 0, 10, 10, 0⟩]⟩
    maxAcceleration := some 5 }

/-- The hypotheses of `C81_restate` are met, with values that differ from the defaults. -/
example : Restates [exampleBurning] Toy.config2 exampleRestating :=
  ⟨by simp, .inr ⟨rfl, rfl⟩, .inr ⟨rfl, rfl⟩, .inl rfl, rfl, rfl, .inr ⟨rfl, rfl⟩, .inl rfl, .inl rfl,
    .inl rfl, .inr ⟨rfl, rfl⟩, .inr ⟨rfl, rfl⟩, .inl rfl, .inl rfl, .inl rfl, .inl rfl⟩

/-- The tanks are the exception: writing out the propellant mass again refuels the vehicle. -/
example :
    (Simulation.run 20 [exampleBurning, Toy.config2]).map
      (fun o => o.result.toOption.map fun s => s.propellantMass.milli) = some (some 4438) ∧
    (Simulation.run 20 [exampleBurning,
        { Toy.config2 with vehicle := some ⟨none, some 5, none, none, none, none, none⟩ }]).map
      (fun o => o.result.toOption.map fun s => s.propellantMass.milli) = some (some 4796) := by
  constructor <;> decide +kernel

end Post
