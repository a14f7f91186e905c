import Verif.Lemmas.System
import Verif.Lemmas.Aero
import Verif.Toy
import Verif.Ext
/-! # Properties of running a phase (C23-C26, C29, C30), in any arithmetic -/

set_option linter.unusedSectionVars false

namespace Post
open Spec Flt
variable {F : Type} [Flt F]

/-! ## C23: a finished phase has met its end criterion -/

/-- C23.  When running a phase returns, the chosen variable of its final state is within 1e-3 of
the target, and the criterion is the one the phase was started with. -/
theorem C23_finished_phase_met_criterion {p q : Phase F} {fuel : Nat} {rows : List (Row F)}
    (hp : p.ended = false) (h : p.run fuel = some ⟨rows, .ok q⟩) :
    Flt.lt (Flt.abs (p.endCriterion.1.getValue q.state - p.endCriterion.2)) 1e-3 = true ∧
      q.endCriterion = p.endCriterion ∧ q.ended = true := by
  rcases Phase.run_some h with ⟨e, _, _, h3⟩ | ⟨s0, _, ps, q', hpath, _, _, hq⟩
  · cases h3
  · rcases hq with ⟨hend, hq⟩ | ⟨_, e, _, hq⟩
    · injection hq with hq
      subst hq
      have hpar := (Phase.path_sameParams hpath).1
      have hcrit : q.endCriterion = p.endCriterion := hpar.endCriterion
      refine ⟨?_, hcrit, hend⟩
      have key : ∀ {r q : Phase F} {ps : List (Phase F)}, Path r ps q → r.ended = false →
          q.ended = true → Met q.endCriterion q.state := by
        intro r q ps hpath
        induction hpath with
        | nil r => intro h1 h2; simp [h1] at h2
        | @cons r r' q ps h1 h2 h3 ih =>
          intro _ hq
          cases hr' : r'.ended with
          | false => exact ih hr' hq
          | true =>
            cases h3 with
            | nil =>
              obtain ⟨_, s, _, h | h | h⟩ := Phase.step_ok h2
              · rw [h.2]; exact h.1
              · rw [h.2.2.2] at hr'; simp [h1] at hr'
              · rw [h.2.2] at hr'; simp [h1] at hr'
            | cons h4 => simp [hr'] at h4
      have := key hpath hp hend
      rw [hcrit] at this
      exact this
    · cases hq

/-- The theorem applies to a concrete run: it returns after five steps at the target time. -/
example : ∃ rows q, Toy.phase1.run 10 = some ⟨rows, .ok q⟩ ∧
    (Toy.phase1.ended = false ∧ rows.length = 5 ∧ q.state.time = 3.5) := by
  simpa using (Toy.ranAnd_iff (x := Toy.phase1.run 10) (f := fun rows q =>
    decide (Toy.phase1.ended = false ∧ rows.length = 5 ∧ q.state.time = 3.5))).1
    (by decide +kernel)

/-! ## C24: overshooting steps leave no trace -/

/-- C24 (one step).  A successful step makes one integrator step to some state `s`.  If `s` hits
the target it is kept and the phase ends; if `s` overshoots the target it is discarded and
nothing changes but the next step size and the retry count; otherwise it is kept. -/
theorem C24_step {p p' : Phase F} (h : p.step = .ok p') :
    ∃ s, OneStep p p.stepsize p.state s ∧
      ((Met p.endCriterion s ∧ p' = { p with state := s, ended := true }) ∨
       (¬ Met p.endCriterion s ∧ ¬ Overshot p.endCriterion p.state s ∧
          p' = { p with state := s }) ∨
       (¬ Met p.endCriterion s ∧ Overshot p.endCriterion p.state s ∧
          ∃ h n, p' = { p with stepsize := h, endCriterionTries := n })) := by
  obtain ⟨_, s, hs, h | h | h⟩ := Phase.step_ok h
  · exact ⟨s, hs, .inl ⟨h.1, h.2⟩⟩
  · exact ⟨s, hs, .inr (.inr ⟨h.1, h.2.1, _, _, h.2.2.2⟩)⟩
  · exact ⟨s, hs, .inr (.inl ⟨h.1, h.2.1, h.2.2⟩)⟩

/-- C24 (whole run).  The printed rows belong to states each of which is the previous state (a
discarded step) or one full integrator step from it, starting from the state the equations of
motion give at the start; the phase returned holds the last of them. -/
theorem C24_run {p : Phase F} {fuel : Nat} {rows : List (Row F)} {res : Except Panic (Phase F)}
    (h : p.run fuel = some ⟨rows, res⟩) :
    (rows = [] ∧ ∃ e, p.system p.state = .error e ∧ res = .error e) ∨
    ∃ s0 states, p.system p.state = .ok s0 ∧ rows = states.map State.row ∧
      Linked (SameOrStep p) s0 states ∧
      (∀ q, res = .ok q → q.state = (s0 :: states).getLast (by simp)) := by
  rcases Phase.run_some h with ⟨e, h1, h2, h3⟩ | ⟨s0, h0, ps, q, hpath, hrows, _, hq⟩
  · exact .inl ⟨h2, e, h1, h3⟩
  · refine .inr ⟨s0, ps.map (·.state), h0, by simp [hrows], ?_, ?_⟩
    · have key : ∀ {r q : Phase F} {ps : List (Phase F)}, Path r ps q → Phase.SameParams p r →
          Linked (SameOrStep p) r.state (ps.map (·.state)) := by
        intro r q ps hpath
        induction hpath with
        | nil r => intro _; exact .nil _
        | @cons r r' q ps h1 h2 h3 ih =>
          intro hsame
          have hsame' := hsame.trans (Phase.step_sameParams h2)
          refine .cons ?_ (ih hsame')
          obtain ⟨_, s, hs, h | h | h⟩ := Phase.step_ok h2
          · rw [h.2]; exact .inr ⟨_, hsame.oneStep.1 hs⟩
          · rw [h.2.2.2]; exact .inl rfl
          · rw [h.2.2]; exact .inr ⟨_, hsame.oneStep.1 hs⟩
      exact key hpath ⟨rfl, rfl, rfl, rfl, rfl, rfl, rfl, rfl, rfl⟩
    · intro q' hq'
      have hqq : q' = q := by
        rcases hq with ⟨_, h⟩ | ⟨_, e, _, h⟩
        · rw [h] at hq'; injection hq' with hq'; exact hq'.symm
        · rw [h] at hq'; cases hq'
      subst hqq
      have key : ∀ {r q : Phase F} {ps : List (Phase F)}, Path r ps q →
          q.state = (r.state :: ps.map (·.state)).getLast (by simp) := by
        intro r q ps hpath
        induction hpath with
        | nil r => rfl
        | @cons r r' q ps h1 h2 h3 ih => rw [ih]; simp
      exact key hpath

/-- A step that is really discarded: the fourth one of this run. -/
example : ∃ p, Toy.steps 3 Toy.phase1 = .ok p ∧ ∃ p', p.step = .ok p' ∧
    (p'.state = p.state ∧ p'.endCriterionTries = 1 ∧ p'.stepsize = 0.5) := by
  have h : Toy.okAnd (Toy.steps 3 Toy.phase1) (fun p => Toy.okAnd p.step (fun p' =>
    decide (p'.state = p.state ∧ p'.endCriterionTries = 1 ∧ p'.stepsize = 0.5))) = true := by
    decide +kernel
  simpa [Toy.okAnd_iff] using h

/-! ## C25: retries are bounded -/

theorem path_count_discarded {r q : Phase F} {ps : List (Phase F)} (h : Path r ps q) :
    ∃ n, Count StepDiscarded ((r :: ps).dropLast) n ∧
      q.endCriterionTries = r.endCriterionTries + n ∧
      (r.endCriterionTries ≤ 21 → q.endCriterionTries ≤ 21) := by
  induction h with
  | nil r => exact ⟨0, .nil, rfl, id⟩
  | @cons r r' q ps h1 h2 h3 ih =>
    obtain ⟨n, hn, ht, hb⟩ := ih
    have hd : (r :: r' :: ps).dropLast = r :: (r' :: ps).dropLast := by simp
    rw [hd]
    obtain ⟨_, s, hs, h | h | h⟩ := Phase.step_ok h2
    · refine ⟨n, .no ?_ hn, ?_, ?_⟩
      · rintro ⟨s', hs', hm, _⟩
        have : s' = s := by unfold OneStep at hs hs'; rw [hs] at hs'; injection hs' with h; exact h.symm
        subst this; exact hm h.1
      · rw [ht, h.2]
      · intro hr; apply hb; rw [h.2]; exact hr
    · refine ⟨n + 1, .yes ⟨s, hs, h.1, h.2.1⟩ hn, ?_, ?_⟩
      · rw [ht, h.2.2.2]; simp; omega
      · intro hr; apply hb; rw [h.2.2.2]; simp; omega
    · refine ⟨n, .no ?_ hn, ?_, ?_⟩
      · rintro ⟨s', hs', _, ho⟩
        have : s' = s := by unfold OneStep at hs hs'; rw [hs] at hs'; injection hs' with h; exact h.symm
        subst this; exact h.2.1 ho
      · rw [ht, h.2.2]
      · intro hr; apply hb; rw [h.2.2]; exact hr

/-- C25.  Take a run of a freshly reset phase that does not already fail at its first
evaluation.  The phases it goes through are `p0 :: ps`, one row is printed for each of `ps`.  At
most 21 of the steps made were discarded; the run aborts with the documented panic exactly when
21 steps have been discarded and the next one would have to be discarded too. -/
theorem C25_retries_bounded {p : Phase F} {fuel : Nat} {rows : List (Row F)}
    {res : Except Panic (Phase F)} (hp : p.endCriterionTries = 0)
    (h : p.run fuel = some ⟨rows, res⟩) {s0 : State F} (h0 : p.system p.state = .ok s0) :
    ∃ ps q n, Path { p with state := s0 } ps q ∧ rows.length = ps.length ∧
      Count StepDiscarded (({ p with state := s0 } :: ps).dropLast) n ∧ n ≤ 21 ∧
      (res = .error .noZeroCrossing → n = 21 ∧ StepDiscarded q) ∧
      (n = 21 → StepDiscarded q → q.ended = false → res = .error .noZeroCrossing) := by
  rcases Phase.run_some h with ⟨e, h1, h2, h3⟩ | ⟨s0', h0', ps, q, hpath, hrows, _, hq⟩
  · rw [h0] at h1; cases h1
  · rw [h0] at h0'; injection h0' with h0'; subst h0'
    obtain ⟨n, hn, ht, hb⟩ := path_count_discarded hpath
    simp only [hp] at ht hb
    have hle := hb (by omega)
    refine ⟨ps, q, n, hpath, by simp [hrows], hn, by omega, ?_, ?_⟩
    · intro hres
      rcases hq with ⟨_, hq⟩ | ⟨he, e, hs, hq⟩
      · rw [hq] at hres; cases hres
      · rw [hq] at hres; injection hres with hres; subst hres
        rcases Phase.step_error hs with h | ⟨_, h⟩ | h
        · simp [he] at h
        · obtain ⟨s', hs'⟩ := Integrator.step_error h
          exfalso
          rcases Phase.system_error hs' with h | h
          · cases h
          · rcases Vehicle.aeroForce_error h with h | h <;> cases h
        · exact ⟨by omega, h.2.2.2⟩
    · intro hn21 hd he
      rcases hq with ⟨he', _⟩ | ⟨_, e, hs, hq⟩
      · simp [he] at he'
      · rw [hq]
        rcases Phase.step_error hs with h | ⟨_, h⟩ | h
        · simp [he] at h
        · obtain ⟨s', hs', _⟩ := hd
          unfold OneStep at hs'
          rw [hs'] at h; cases h
        · rw [h.2.1]

/-- The bound of 21 is attained: a run in which 21 steps are discarded and the next overshoot
aborts it.  (Criterion: an "altitude" that never gets within 1e-3 of the target.) -/
example : (Toy.stuck.run 60).map (fun o => (o.rows.length, o.result.toOption.isNone)) =
    some (21, true) := by
  decide +kernel

/-! ## C26: time bookkeeping -/

/-- C26 (step).  A kept step advances `time` and `time_since_event` by the step size that was
current, a discarded step advances neither. -/
theorem C26_step {p p' : Phase F} (h : p.step = .ok p') :
    (StepKept p ∧ p'.state.time = p.state.time + p.stepsize ∧
      p'.state.timeSinceEvent = p.state.timeSinceEvent + p.stepsize) ∨
    (StepDiscarded p ∧ p'.state = p.state) := by
  obtain ⟨_, s, hs, h | h | h⟩ := Phase.step_ok h
  · have ht := oneStep_system hs
    rw [h.2]; exact .inl ⟨⟨s, hs, .inl h.1⟩, ht.2⟩
  · rw [h.2.2.2]; exact .inr ⟨⟨s, hs, h.1, h.2.1⟩, rfl⟩
  · have ht := oneStep_system hs
    rw [h.2.2]; exact .inl ⟨⟨s, hs, .inr h.2.1⟩, ht.2⟩

/-- C26 (start).  A phase ready to run has `time_since_event` zero and the time of the phase
before (zero for the first one). -/
theorem C26_start {prev : Option (Phase F)} {c : PhaseConfig F} {p : Phase F}
    (h : Phase.new prev c = .ok p) :
    p.reset.state.timeSinceEvent = 0 ∧
      p.reset.state.time = (match prev with | some q => q.state.time | none => 0) := by
  refine ⟨rfl, ?_⟩
  have happ : ∀ (q : Phase F), (q.applyConfig c).state.time = q.state.time := by
    intro q; simp
  cases prev with
  | some q =>
    simp only [Phase.new] at h
    injection h with h; subst h
    exact happ q
  | none =>
    unfold Phase.new at h
    cases hi : c.init with
    | none => simp [hi] at h
    | some i =>
      simp only [hi] at h
      injection h with h; subst h
      exact happ _

/-- C26 (whole run, exact arithmetic).  In every state visited by a phase that started at time
`t0`, the time is `t0` plus the time since the start of the phase; the first phase starts at zero. -/
theorem C26_difference {prev : Option (Phase XR)} {c : PhaseConfig XR} {p : Phase XR} {t0 : ℝ}
    (h : Phase.new prev c = .ok p)
    (ht0 : (match prev with | some q => q.state.time | none => 0) = .fin t0) {s : State XR}
    (hs : Visited p.reset s) : s.time = .fin t0 + s.timeSinceEvent := by
  have hstart : p.reset.state.timeSinceEvent = 0 ∧ p.reset.state.time = .fin t0 := by
    refine ⟨(C26_start h).1, (C26_start h).2.trans ?_⟩
    cases prev <;> exact ht0
  refine hs.induction (I := fun s => s.time = .fin t0 + s.timeSinceEvent) ?_ ?_
  · intro s0 h0
    have := Phase.system_primary h0
    rw [this.1, this.2.1, hstart.1, hstart.2, XR.fin_zero, XR.fin_add, add_zero]
  · intro s s' h hI hstep
    have := oneStep_system hstep
    rw [this.2.1, this.2.2, hI]
    generalize s.timeSinceEvent = a
    cases a <;> cases h <;> first | rfl | (simp only [XR.fin_add]; rw [add_assoc])

/-- The second phase of this simulation starts at time 3.5 and ends at time 5.5 with
`time_since_event` 2. -/
example : ∃ rows q, Toy.phase2.run 10 = some ⟨rows, .ok q⟩ ∧
    (q.state.time = 5.5 ∧ q.state.timeSinceEvent = 2) := by
  simpa using (Toy.ranAnd_iff (x := Toy.phase2.run 10) (f := fun _ q =>
    decide (q.state.time = 5.5 ∧ q.state.timeSinceEvent = 2))).1
    (by decide +kernel)

/-! ## C29: ended phases stay ended -/

/-- C29.  Stepping an ended phase panics; running it takes no step and prints nothing. -/
theorem C29_ended_stays_ended {p : Phase F} (h : p.ended = true) :
    p.step = .error .alreadyEnded ∧
    ∀ fuel rows res, p.run fuel = some ⟨rows, res⟩ → rows = [] ∧
      ∀ q, res = .ok q → q.ended = true ∧ q.state.time = p.state.time ∧
        q.state.position = p.state.position ∧ q.state.velocity = p.state.velocity ∧
        q.state.mass = p.state.mass := by
  refine ⟨by simp [Phase.step, h], fun fuel rows res hr => ?_⟩
  unfold Phase.run at hr
  cases hs : p.system p.state with
  | error e => simp [hs] at hr; exact ⟨hr.1, by rw [← hr.2]; intro q hq; cases hq⟩
  | ok s =>
    simp only [hs] at hr
    rw [Phase.loop_ended _ (by exact h)] at hr
    injection hr with hr; injection hr with h1 h2
    refine ⟨h1.symm, fun q hq => ?_⟩
    rw [← h2] at hq; injection hq with hq; subst hq
    have := Phase.system_primary hs
    exact ⟨h, this.1, this.2.2.1, this.2.2.2.1, this.2.2.2.2⟩

/-- A reachable ended phase: the one `run` returns. -/
example : ∃ rows q, Toy.phase1.run 10 = some ⟨rows, .ok q⟩ ∧ q.ended = true := by
  simpa using (Toy.ranAnd_iff (x := Toy.phase1.run 10) (f := fun _ q => q.ended)).1
    (by decide +kernel)

/-! ## C30: visited states respect the acceleration limit -/

/-- C30.  In every state visited, printed or returned by a run, the sensed acceleration is not
above 1.001 times the limit and the throttle is not NaN; if the equations of motion would violate
this, the run aborts. -/
theorem C30_limit_respected {p : Phase F} {s : State F} (hs : Visited p s) :
    Flt.lt (p.maxAcceleration * 1.001) s.vehicleAccelerationBody.norm = false ∧
      Flt.isNan s.throttle = false := by
  obtain ⟨s1, h⟩ := hs.system
  have := Phase.system_limit h
  unfold Phase.exceedsLimit Flt.gt at this
  simpa using this

/-- C30 for the observable results of a run. -/
theorem C30_run {p : Phase F} {fuel : Nat} {rows : List (Row F)} {q : Phase F}
    (h : p.run fuel = some ⟨rows, .ok q⟩) :
    Flt.lt (p.maxAcceleration * 1.001) q.state.vehicleAccelerationBody.norm = false ∧
      Flt.isNan q.state.throttle = false :=
  C30_limit_respected ((visited_of_run h).2 q rfl)

/-! ## C52: steps depend only on the primary state -/

/-- C52.  Two states that agree in time, time since event, position, velocity and mass are
stepped to the same state, whatever their derived values are. -/
theorem C52_step_depends_on_primary {p : Phase F} {s t s' : State F} {h : F}
    (h1 : s.time = t.time) (h2 : s.timeSinceEvent = t.timeSinceEvent)
    (h3 : s.position = t.position) (h4 : s.velocity = t.velocity) (h5 : s.mass = t.mass) :
    OneStep p h s s' ↔ OneStep p h t s' := by
  have hp : s.toPrimaryVec = t.toPrimaryVec := by
    simp [State.toPrimaryVec, h3, h4, h5]
  unfold OneStep
  cases hi : p.integrator
  simp only [Integrator.step, h1, h2, hp]

/-- The step from the start of the example phase succeeds, and so does the step from the same
primary state with other derived values. -/
example : ∃ s, OneStep Toy.phase1 1 { Toy.phase1.state with altitude := 77, throttle := 9 } s ∧
    s.time = 1 := by
  have h : Toy.okAnd (Toy.phase1.integrator.step Toy.phase1.system
      { Toy.phase1.state with altitude := 77, throttle := 9 } 1)
      (fun s => decide (s.time = 1)) = true := by decide +kernel
  simpa [OneStep, Toy.okAnd_iff] using h

/-! ## C53: phases compose -/

/-- C53 (normal end).  A simulation ends normally exactly if its phases complete one after the
other; it prints what they print, each announced by its number, and returns the state of the
last one. -/
theorem C53_terminates_ok_iff {cs : List (PhaseConfig F)} {log : List (LogEntry F)}
    {s : State F} :
    Simulation.Terminates cs ⟨log, .ok s⟩ ↔
      ∃ last, Sequence 0 none cs log last ∧ s = finalState last := by
  unfold Simulation.Terminates Simulation.run
  rw [Simulation.loop_ok_iff (by simp)]
  constructor <;> rintro ⟨last, h1, h2⟩ <;> refine ⟨last, h1, ?_⟩ <;> cases last <;> exact h2

/-- C53 (abort).  A simulation panics exactly if, after some phases that complete, the next one
aborts; what was printed before is kept. -/
theorem C53_terminates_error_iff {cs : List (PhaseConfig F)} {log : List (LogEntry F)}
    {e : Panic} :
    Simulation.Terminates cs ⟨log, .error e⟩ ↔
      ∃ done c rest log' last rows, cs = done ++ c :: rest ∧ Sequence 0 none done log' last ∧
        Aborts last c rows e ∧
        log = log' ++ .startingPhase (done.length + 1) :: rows.map .row := by
  unfold Simulation.Terminates Simulation.run
  rw [Simulation.loop_error_iff]
  simp

/-- C53 (composition).  Running `cs ++ ds` is running `cs` and then continuing with `ds` from the
phase reached. -/
theorem C53_append {cs ds : List (PhaseConfig F)} {i : Nat} {prev last : Option (Phase F)}
    {log : List (LogEntry F)} :
    Sequence i prev (cs ++ ds) log last ↔
      ∃ mid log1 log2, Sequence i prev cs log1 mid ∧ Sequence (i + cs.length) mid ds log2 last ∧
        log = log1 ++ log2 := by
  induction cs generalizing i prev log with
  | nil =>
    constructor
    · intro h; exact ⟨prev, [], log, .nil _ _, by simpa using h, rfl⟩
    · rintro ⟨mid, log1, log2, h1, h2, rfl⟩
      cases h1; simpa using h2
  | cons c cs ih =>
    constructor
    · intro h
      cases h with
      | cons h1 h2 =>
        obtain ⟨mid, log1, log2, h3, h4, rfl⟩ := ih.1 h2
        refine ⟨mid, _, log2, .cons h1 h3, ?_, by simp⟩
        rw [show i + (c :: cs).length = i + 1 + cs.length by simp; omega]
        exact h4
    · rintro ⟨mid, log1, log2, h1, h2, rfl⟩
      cases h1 with
      | @cons _ _ _ _ _ rows log q h1 h3 =>
        have := ih.2 ⟨mid, log, log2, h3, by
          rw [show i + 1 + cs.length = i + (c :: cs).length by simp; omega]; exact h2, rfl⟩
        have h' := Sequence.cons h1 this
        simpa using h'

theorem announced_append (l1 l2 : List (LogEntry F)) :
    announced (l1 ++ l2) = announced l1 ++ announced l2 := by
  induction l1 with
  | nil => rfl
  | cons a l ih => cases a <;> simp [announced, ih]

theorem announced_rows (rows : List (Row F)) : announced (rows.map LogEntry.row) = [] := by
  induction rows with
  | nil => rfl
  | cons a l ih => simpa [announced] using ih

theorem announced_sequence {cs : List (PhaseConfig F)} {i : Nat} {prev last : Option (Phase F)}
    {log : List (LogEntry F)} (h : Sequence i prev cs log last) :
    announced log = List.range' (i + 1) cs.length := by
  induction h with
  | nil => rfl
  | cons _ _ ih =>
    simp only [List.cons_append, announced, announced_append, announced_rows, ih,
      List.length_cons, List.range'_succ, List.nil_append]

/-- C53 (announcements).  A simulation announces its phases 1, 2, 3, ... in order: all of them if
it ends normally, those up to the one that aborts otherwise. -/
theorem C53_announcements {cs : List (PhaseConfig F)} {o : SimOut F}
    (h : Simulation.Terminates cs o) :
    ∃ n ≤ cs.length, announced o.log = List.range' 1 n ∧
      ((∃ s, o.result = .ok s) → n = cs.length) ∧ ((∃ e, o.result = .error e) → 0 < n) := by
  obtain ⟨log, res⟩ := o
  cases res with
  | ok s =>
    obtain ⟨last, h1, _⟩ := C53_terminates_ok_iff.1 h
    exact ⟨cs.length, Nat.le_refl _, announced_sequence h1, fun _ => rfl,
      by rintro ⟨e, he⟩; cases he⟩
  | error e =>
    obtain ⟨done, c, rest, log', last, rows, h1, h2, _, h4⟩ := C53_terminates_error_iff.1 h
    refine ⟨done.length + 1, by subst h1; simp, ?_, (by rintro ⟨s, hs⟩; cases hs),
      fun _ => by omega⟩
    subst h4
    rw [announced_append, announced_sequence h2, announced, announced_rows]
    rw [List.range'_concat]; simp; omega

/-- C53 (prefix).  If a simulation ends normally then so does every initial part of it, printing
an initial part of the output. -/
theorem C53_prefix {cs ds : List (PhaseConfig F)} {log : List (LogEntry F)} {s : State F}
    (h : Simulation.Terminates (cs ++ ds) ⟨log, .ok s⟩) :
    ∃ log1 log2 s1, Simulation.Terminates cs ⟨log1, .ok s1⟩ ∧ log = log1 ++ log2 := by
  obtain ⟨last, h1, _⟩ := C53_terminates_ok_iff.1 h
  obtain ⟨mid, log1, log2, h2, _, h3⟩ := C53_append.1 h1
  exact ⟨log1, log2, _, C53_terminates_ok_iff.2 ⟨mid, h2, rfl⟩, h3⟩

/-- C53 (determinism).  A simulation has at most one outcome. -/
theorem C53_deterministic {cs : List (PhaseConfig F)} {o o' : SimOut F}
    (h : Simulation.Terminates cs o) (h' : Simulation.Terminates cs o') : o = o' := by
  obtain ⟨n, h⟩ := h
  obtain ⟨m, h'⟩ := h'
  have h1 := Simulation.loop_mono h (Nat.le_max_left n m)
  have h2 := Simulation.loop_mono h' (Nat.le_max_right n m)
  rw [h1] at h2; injection h2

/-- A simulation of two phases that ends normally. -/
example : (Simulation.run 10 [Toy.config1, Toy.config2]).map
    (fun o => (announced o.log, o.log.length, o.result.toOption.map (·.time))) =
    some ([1, 2], 9, some 5.5) := by
  decide +kernel

/-- A simulation whose second phase aborts. -/
example : (Simulation.run 60 [Toy.config1, Toy.configStuck]).map
    (fun o => (announced o.log, o.result.toOption.isNone)) = some ([1, 2], true) := by
  decide +kernel

end Post
