import Verif.Spec.Run
/-! # Lemmas about `Phase.step`, `Phase.run` and `Simulation.run` in any arithmetic -/

set_option linter.unusedSectionVars false

namespace Post
open Spec
variable {F : Type} [Flt F]

namespace Phase

theorem criterionMet_iff (p : Phase F) (s : State F) :
    p.criterionMet s = true ↔ Met p.endCriterion s := Iff.rfl

theorem eventIsActive_iff (p : Phase F) (old new : State F) :
    p.eventIsActive old new = true ↔ Overshot p.endCriterion old new := by
  unfold eventIsActive Overshot critValue Flt.gt
  cases Flt.lt (p.endCriterion.1.getValue new) (p.endCriterion.1.getValue old) <;> simp

/-- Inversion of a successful step. -/
theorem step_ok {p p' : Phase F} (h : p.step = .ok p') :
    p.ended = false ∧ ∃ s, OneStep p p.stepsize p.state s ∧
      ((Met p.endCriterion s ∧ p' = { p with ended := true, state := s }) ∨
       (¬ Met p.endCriterion s ∧ Overshot p.endCriterion p.state s ∧ p.endCriterionTries ≤ 20 ∧
          p' = { p with stepsize := p.timeToGo p.state s,
                        endCriterionTries := p.endCriterionTries + 1 }) ∨
       (¬ Met p.endCriterion s ∧ ¬ Overshot p.endCriterion p.state s ∧
          p' = { p with state := s })) := by
  unfold step at h
  cases he : p.ended with
  | true => simp [he] at h
  | false =>
    rw [if_neg (by simp [he])] at h
    refine ⟨rfl, ?_⟩
    cases hs : p.integrator.step p.system p.state p.stepsize with
    | error e => simp [hs, bind, Except.bind] at h
    | ok s =>
      simp only [hs, bind, Except.bind] at h
      refine ⟨s, hs, ?_⟩
      rw [← criterionMet_iff, ← eventIsActive_iff]
      by_cases hm : p.criterionMet s = true
      · rw [if_pos hm] at h
        left; injection h with h; exact ⟨hm, h.symm⟩
      · rw [if_neg hm] at h
        right
        by_cases ha : p.eventIsActive p.state s = true
        · rw [if_pos ha] at h
          left
          by_cases ht : p.endCriterionTries > 20
          · rw [if_pos ht] at h; simp at h
          · rw [if_neg ht] at h
            injection h with h
            exact ⟨hm, ha, by omega, by rw [← h, he]⟩
        · rw [if_neg ha] at h
          right; injection h with h; exact ⟨hm, ha, by rw [← h, he]⟩

/-- Inversion of a failing step. -/
theorem step_error {p : Phase F} {e : Panic} (h : p.step = .error e) :
    (p.ended = true ∧ e = .alreadyEnded) ∨
    (p.ended = false ∧ p.integrator.step p.system p.state p.stepsize = .error e) ∨
    (p.ended = false ∧ e = .noZeroCrossing ∧ 20 < p.endCriterionTries ∧ StepDiscarded p) := by
  unfold step at h
  cases he : p.ended with
  | true => simp [he] at h; left; exact ⟨rfl, h.symm⟩
  | false =>
    right
    rw [if_neg (by simp [he])] at h
    cases hs : p.integrator.step p.system p.state p.stepsize with
    | error e' => simp [hs, bind, Except.bind] at h; left; simp [h]
    | ok s =>
      right
      simp only [hs, bind, Except.bind] at h
      by_cases hm : p.criterionMet s = true
      · rw [if_pos hm] at h; simp at h
      · rw [if_neg hm] at h
        by_cases ha : p.eventIsActive p.state s = true
        · rw [if_pos ha] at h
          by_cases ht : p.endCriterionTries > 20
          · rw [if_pos ht] at h
            injection h with h
            exact ⟨rfl, h.symm, ht, s, hs, by rwa [← criterionMet_iff],
              by rwa [← eventIsActive_iff]⟩
          · rw [if_neg ht] at h; simp at h
        · rw [if_neg ha] at h; simp at h

/-- The parameters of a phase: everything that stepping does not change. -/
structure SameParams (p q : Phase F) : Prop where
  vehicle : q.vehicle = p.vehicle
  steering : q.steering = p.steering
  atmosphere : q.atmosphere = p.atmosphere
  planet : q.planet = p.planet
  launch : q.launch = p.launch
  integrator : q.integrator = p.integrator
  maxAcceleration : q.maxAcceleration = p.maxAcceleration
  baseStepsize : q.baseStepsize = p.baseStepsize
  endCriterion : q.endCriterion = p.endCriterion

theorem SameParams.refl (p : Phase F) : SameParams p p := ⟨rfl, rfl, rfl, rfl, rfl, rfl, rfl, rfl, rfl⟩

theorem SameParams.trans {p q r : Phase F} (h : SameParams p q) (h' : SameParams q r) :
    SameParams p r :=
  ⟨h'.1.trans h.1, h'.2.trans h.2, h'.3.trans h.3, h'.4.trans h.4, h'.5.trans h.5,
    h'.6.trans h.6, h'.7.trans h.7, h'.8.trans h.8, h'.9.trans h.9⟩

theorem SameParams.system {p q : Phase F} (h : SameParams p q) : q.system = p.system := by
  obtain ⟨h1, h2, h3, h4, h5, -, h7, h8, h9⟩ := h
  cases p; cases q
  simp only at h1 h2 h3 h4 h5 h7 h8 h9
  subst h1 h2 h3 h4 h5 h7 h8 h9
  rfl

theorem step_sameParams {p p' : Phase F} (h : p.step = .ok p') : SameParams p p' := by
  obtain ⟨_, s, _, h | h | h⟩ := step_ok h
  · rw [h.2]; exact ⟨rfl, rfl, rfl, rfl, rfl, rfl, rfl, rfl, rfl⟩
  · rw [h.2.2.2]; exact ⟨rfl, rfl, rfl, rfl, rfl, rfl, rfl, rfl, rfl⟩
  · rw [h.2.2]; exact ⟨rfl, rfl, rfl, rfl, rfl, rfl, rfl, rfl, rfl⟩

theorem path_sameParams {p q : Phase F} {ps : List (Phase F)} (h : Path p ps q) :
    SameParams p q ∧ ∀ r ∈ ps, SameParams p r := by
  induction h with
  | nil p => exact ⟨SameParams.refl p, by simp⟩
  | cons he hs _ ih =>
    have h1 := step_sameParams hs
    refine ⟨h1.trans ih.1, fun r hr => ?_⟩
    rcases List.mem_cons.1 hr with rfl | hr
    · exact h1
    · exact h1.trans (ih.2 r hr)

theorem loop_ended (fuel : Nat) {p : Phase F} (h : p.ended = true) :
    loop fuel p = some ⟨[], .ok p⟩ := by
  cases fuel <;> simp [loop, h]

/-- Inversion of a finished loop. -/
theorem loop_some {fuel : Nat} {p : Phase F} {rows : List (Row F)} {res : Except Panic (Phase F)}
    (h : loop fuel p = some ⟨rows, res⟩) :
    ∃ ps q, Path p ps q ∧ rows = ps.map (·.state.row) ∧ ps.length ≤ fuel ∧
      ((q.ended = true ∧ res = .ok q) ∨
       (q.ended = false ∧ ∃ e, q.step = .error e ∧ res = .error e)) := by
  induction fuel generalizing p rows res with
  | zero =>
    unfold loop at h
    cases he : p.ended with
    | true =>
      simp [he] at h
      exact ⟨[], p, .nil p, by simp [h.1], by simp, .inl ⟨he, h.2.symm⟩⟩
    | false => simp [he] at h
  | succ n ih =>
    unfold loop at h
    cases he : p.ended with
    | true =>
      simp [he] at h
      exact ⟨[], p, .nil p, by simp [h.1], by simp, .inl ⟨he, h.2.symm⟩⟩
    | false =>
      simp only [he] at h
      cases hs : p.step with
      | error e =>
        simp [hs] at h
        exact ⟨[], p, .nil p, by simp [h.1], by simp, .inr ⟨he, e, hs, h.2.symm⟩⟩
      | ok p' =>
        simp [hs] at h
        obtain ⟨o, ho, h1, h2⟩ := h
        obtain ⟨ps, q, hp, hr, hl, hq⟩ := ih (p := p') (rows := o.rows) (res := o.result) ho
        refine ⟨p' :: ps, q, .cons he hs hp, ?_, by simp; omega, ?_⟩
        · simp [← h1, hr]
        · rwa [h2] at hq

/-- A path that ends gives a finished loop. -/
theorem loop_of_path {p q : Phase F} {ps : List (Phase F)} (hp : Path p ps q)
    (hq : q.ended = true) {fuel : Nat} (hf : ps.length ≤ fuel) :
    loop fuel p = some ⟨ps.map (·.state.row), .ok q⟩ := by
  induction hp generalizing fuel with
  | nil p => exact loop_ended _ hq
  | cons he hs _ ih =>
    cases fuel with
    | zero => simp at hf
    | succ n =>
      unfold loop
      simp [he, hs, ih hq (fuel := n) (by simpa using hf)]

theorem loop_of_path_error {p q : Phase F} {ps : List (Phase F)} {e : Panic} (hp : Path p ps q)
    (hq : q.ended = false) (hs : q.step = .error e) {fuel : Nat} (hf : ps.length < fuel) :
    loop fuel p = some ⟨ps.map (·.state.row), .error e⟩ := by
  induction hp generalizing fuel with
  | nil p =>
    cases fuel with
    | zero => simp at hf
    | succ n => unfold loop; simp [hq, hs]
  | cons he hs' _ ih =>
    cases fuel with
    | zero => simp at hf
    | succ n =>
      unfold loop
      simp [he, hs', ih hq hs (fuel := n) (by simpa using hf)]

/-- More fuel does not change a finished loop. -/
theorem loop_mono {n m : Nat} {p : Phase F} {o : RunOut F} (h : loop n p = some o) (hm : n ≤ m) :
    loop m p = some o := by
  induction n generalizing m p o with
  | zero =>
    unfold loop at h
    cases he : p.ended with
    | true => simp [he] at h; rw [loop_ended _ he, h]
    | false => simp [he] at h
  | succ n ih =>
    cases he : p.ended with
    | true => rw [loop_ended _ he] at h ⊢; exact h
    | false =>
      cases m with
      | zero => omega
      | succ m =>
        unfold loop at h ⊢
        simp only [he] at h ⊢
        cases hs : p.step with
        | error e => simpa [hs] using h
        | ok p' =>
          simp [hs] at h ⊢
          obtain ⟨o', ho, rfl⟩ := h
          exact ⟨o', ih ho (by omega), rfl⟩

theorem run_mono {n m : Nat} {p : Phase F} {o : RunOut F} (h : run n p = some o) (hm : n ≤ m) :
    run m p = some o := by
  unfold run at h ⊢
  cases hs : p.system p.state with
  | error e => simpa [hs] using h
  | ok s => simp only [hs] at h ⊢; exact loop_mono h hm

theorem run_det {n m : Nat} {p : Phase F} {o o' : RunOut F} (h : run n p = some o)
    (h' : run m p = some o') : o = o' := by
  have h1 := run_mono h (Nat.le_max_left n m)
  have h2 := run_mono h' (Nat.le_max_right n m)
  rw [h1] at h2; injection h2

/-- Inversion of a finished run. -/
theorem run_some {fuel : Nat} {p : Phase F} {rows : List (Row F)} {res : Except Panic (Phase F)}
    (h : run fuel p = some ⟨rows, res⟩) :
    (∃ e, p.system p.state = .error e ∧ rows = [] ∧ res = .error e) ∨
    ∃ s0, p.system p.state = .ok s0 ∧ ∃ ps q, Path { p with state := s0 } ps q ∧
      rows = ps.map (·.state.row) ∧ ps.length ≤ fuel ∧
      ((q.ended = true ∧ res = .ok q) ∨
       (q.ended = false ∧ ∃ e, q.step = .error e ∧ res = .error e)) := by
  unfold run at h
  cases hs : p.system p.state with
  | error e =>
    simp [hs] at h
    left; exact ⟨e, rfl, h.1, h.2.symm⟩
  | ok s =>
    simp only [hs] at h
    right; exact ⟨s, rfl, loop_some h⟩

end Phase

/-! ## Simulation -/

namespace Simulation

/-- More fuel does not change a finished simulation. -/
theorem loop_mono {n m : Nat} {cs : List (PhaseConfig F)} {i : Nat} {prev : Option (Phase F)}
    {phase : Phase F} {o : SimOut F} (h : loop n i prev phase cs = some o) (hm : n ≤ m) :
    loop m i prev phase cs = some o := by
  induction cs generalizing i prev phase o with
  | nil => simpa [loop] using h
  | cons c cs ih =>
    unfold loop at h ⊢
    cases hn : Phase.new prev c with
    | error e => simpa [hn] using h
    | ok p =>
      simp only [hn] at h ⊢
      cases hr : Phase.run n p.reset with
      | none => simp [hr] at h
      | some r =>
        rw [Phase.run_mono hr hm]
        rw [hr] at h
        obtain ⟨rows, res⟩ := r
        cases res with
        | error e => simpa using h
        | ok q =>
          simp at h ⊢
          obtain ⟨o', ho, rfl⟩ := h
          exact ⟨o', ih ho, rfl⟩

/-- The phase variable that `Simulation::run` returns the state of. -/
def lastPhase (phase : Phase F) : Option (Phase F) → Phase F
  | some q => q
  | none => phase

theorem sequence_last {cs : List (PhaseConfig F)} {i : Nat} {q : Phase F}
    {log : List (LogEntry F)} {last : Option (Phase F)} (h : Sequence i (some q) cs log last) :
    last ≠ none := by
  induction cs generalizing i q log with
  | nil => cases h; simp
  | cons c cs ih => cases h with | cons _ h => exact ih h

/-- A simulation that finishes normally is a sequence of completed phases. -/
theorem loop_ok_iff {cs : List (PhaseConfig F)} {i : Nat} {prev : Option (Phase F)}
    {phase : Phase F} (hphase : ∀ q, prev = some q → phase = q) {log : List (LogEntry F)}
    {s : State F} :
    (∃ fuel, loop fuel i prev phase cs = some ⟨log, .ok s⟩) ↔
      ∃ last, Sequence i prev cs log last ∧ s = (lastPhase phase last).state := by
  induction cs generalizing i prev phase log s with
  | nil =>
    constructor
    · rintro ⟨fuel, h⟩
      simp [loop] at h
      refine ⟨prev, ?_, ?_⟩
      · rw [h.1]; exact .nil _ _
      · cases prev with
        | none => exact h.2.symm
        | some q => rw [hphase q rfl] at h; exact h.2.symm
    · rintro ⟨last, h, hs⟩
      cases h
      refine ⟨0, ?_⟩
      simp [loop, hs]
      cases prev with
      | none => rfl
      | some q => rw [hphase q rfl]; rfl
  | cons c cs ih =>
    constructor
    · rintro ⟨fuel, h⟩
      unfold loop at h
      cases hn : Phase.new prev c with
      | error e => simp [hn] at h
      | ok p =>
        simp only [hn] at h
        cases hr : Phase.run fuel p.reset with
        | none => simp [hr] at h
        | some r =>
          rw [hr] at h
          obtain ⟨rows, res⟩ := r
          cases res with
          | error e => simp at h
          | ok q =>
            simp at h
            obtain ⟨o', ho, hlog, hres⟩ := h
            obtain ⟨olog, ores⟩ := o'
            simp at hlog hres
            subst hres
            obtain ⟨last, hseq, hs⟩ := (ih (prev := some q) (phase := q) (i := i + 1)
              (by rintro _ ⟨⟩; rfl)).1 ⟨fuel, ho⟩
            refine ⟨last, ?_, ?_⟩
            · rw [← hlog]
              exact .cons ⟨p, hn, fuel, hr⟩ hseq
            · rw [hs]
              cases last with
              | some l => rfl
              | none =>
                exact absurd rfl (sequence_last hseq)
    · rintro ⟨last, h, hs⟩
      cases h with
      | @cons _ _ _ _ _ rows log q hc hseq =>
        obtain ⟨p, hn, f1, hr⟩ := hc
        have : s = (lastPhase q last).state := by
          cases last with
          | some l => exact hs
          | none =>
            exact absurd rfl (sequence_last hseq)
        obtain ⟨f2, h2⟩ := (ih (prev := some q) (phase := q) (i := i + 1)
          (by rintro _ ⟨⟩; rfl)).2 ⟨last, hseq, this⟩
        refine ⟨max f1 f2, ?_⟩
        unfold loop
        simp only [hn]
        rw [Phase.run_mono hr (Nat.le_max_left _ _)]
        simp only []
        rw [loop_mono h2 (Nat.le_max_right _ _)]
        simp

/-- A simulation that aborts is a sequence of completed phases followed by one that aborts. -/
theorem loop_error_iff {cs : List (PhaseConfig F)} {i : Nat} {prev : Option (Phase F)}
    {phase : Phase F} {log : List (LogEntry F)} {e : Panic} :
    (∃ fuel, loop fuel i prev phase cs = some ⟨log, .error e⟩) ↔
      ∃ done c rest log' last rows, cs = done ++ c :: rest ∧ Sequence i prev done log' last ∧
        Aborts last c rows e ∧
        log = log' ++ .startingPhase (i + done.length + 1) :: rows.map .row := by
  induction cs generalizing i prev phase log with
  | nil =>
    constructor
    · rintro ⟨fuel, h⟩; simp [loop] at h
    · rintro ⟨done, c, rest, _, _, _, h, _⟩; simp at h
  | cons c cs ih =>
    constructor
    · rintro ⟨fuel, h⟩
      unfold loop at h
      cases hn : Phase.new prev c with
      | error e' =>
        simp [hn] at h
        refine ⟨[], c, cs, [], prev, [], rfl, .nil _ _, .inl ⟨?_, rfl⟩, by simp [h.1]⟩
        rw [hn, h.2]
      | ok p =>
        simp only [hn] at h
        cases hr : Phase.run fuel p.reset with
        | none => simp [hr] at h
        | some r =>
          rw [hr] at h
          obtain ⟨rows, res⟩ := r
          cases res with
          | error e' =>
            simp at h
            refine ⟨[], c, cs, [], prev, rows, rfl, .nil _ _, .inr ⟨p, hn, fuel, ?_⟩,
              by simp [h.1]⟩
            rw [hr, h.2]
          | ok q =>
            simp at h
            obtain ⟨o', ho, hlog, hres⟩ := h
            obtain ⟨olog, ores⟩ := o'
            simp at hlog hres
            subst hres
            obtain ⟨done, c', rest, log', last, rows', h1, h2, h3, h4⟩ :=
              (ih (prev := some q) (phase := q) (i := i + 1)).1 ⟨fuel, ho⟩
            refine ⟨c :: done, c', rest, _, last, rows', by simp [h1],
              .cons ⟨p, hn, fuel, hr⟩ h2, h3, ?_⟩
            rw [← hlog, h4]
            simp only [List.length_cons, List.cons_append, List.append_assoc]
            rw [show i + (done.length + 1) + 1 = i + 1 + done.length + 1 by omega]
    · rintro ⟨done, c', rest, log', last, rows, h1, h2, h3, h4⟩
      cases done with
      | nil =>
        simp at h1
        obtain ⟨rfl, rfl⟩ := h1
        cases h2
        rcases h3 with ⟨hn, rfl⟩ | ⟨p, hn, fuel, hr⟩
        · refine ⟨0, ?_⟩
          unfold loop
          simp [hn, h4]
        · refine ⟨fuel, ?_⟩
          unfold loop
          simp [hn, hr, h4]
      | cons d done =>
        simp at h1
        obtain ⟨rfl, rfl⟩ := h1
        cases h2 with
        | @cons _ _ _ _ _ rows0 log0 q hc hseq =>
          obtain ⟨p, hn, f1, hr⟩ := hc
          obtain ⟨f2, h5⟩ := (ih (prev := some q) (phase := q) (i := i + 1)
            (log := log0 ++ .startingPhase (i + 1 + done.length + 1) :: rows.map .row)).2
            ⟨done, c', rest, log0, last, rows, rfl, hseq, h3, rfl⟩
          refine ⟨max f1 f2, ?_⟩
          unfold loop
          simp only [hn]
          rw [Phase.run_mono hr (Nat.le_max_left _ _)]
          simp only []
          rw [loop_mono h5 (Nat.le_max_right _ _)]
          simp [h4]
          omega

end Simulation
end Post
