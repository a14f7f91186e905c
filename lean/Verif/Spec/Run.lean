import Verif.Model.Sim
/-! # Specification vocabulary for running phases and simulations

Small definitions used in the statements of the run properties.  They are written from the
documentation of the program, not from the loop of the code. -/

namespace Post.Spec
variable {F : Type} [Flt F]

/-- The chosen variable of state `s` is within `1e-3` of the target. -/
def Met (crit : StateVariable × F) (s : State F) : Prop :=
  Flt.lt (Flt.abs (crit.1.getValue s - crit.2)) 1e-3 = true

/-- Going from `old` to `new`, the chosen variable moved beyond the target: it fell and is now
below it, or it did not fall and is now above it. -/
def Overshot (crit : StateVariable × F) (old new : State F) : Prop :=
  (Flt.lt (crit.1.getValue new) (crit.1.getValue old) = true ∧
    Flt.lt (crit.1.getValue new) crit.2 = true) ∨
  (Flt.lt (crit.1.getValue new) (crit.1.getValue old) = false ∧
    Flt.lt crit.2 (crit.1.getValue new) = true)

/-- One integrator step of size `h` under the equations of motion of phase `p` leads from `s`
to `s'`. -/
def OneStep (p : Phase F) (h : F) (s s' : State F) : Prop :=
  p.integrator.step p.system s h = .ok s'

/-- The next integration step of `p` would be discarded: it overshoots the target and does not
hit it. -/
def StepDiscarded (p : Phase F) : Prop :=
  ∃ s', OneStep p p.stepsize p.state s' ∧ ¬ Met p.endCriterion s' ∧
    Overshot p.endCriterion p.state s'

/-- The next integration step of `p` would be kept. -/
def StepKept (p : Phase F) : Prop :=
  ∃ s', OneStep p p.stepsize p.state s' ∧
    (Met p.endCriterion s' ∨ ¬ Overshot p.endCriterion p.state s')

/-- `Path p ps q`: starting from `p`, stepping goes through the phases `ps`, the last of which
is `q`. -/
inductive Path : Phase F → List (Phase F) → Phase F → Prop
  | nil (p : Phase F) : Path p [] p
  | cons {p p' q : Phase F} {ps : List (Phase F)} :
      p.ended = false → p.step = .ok p' → Path p' ps q → Path p (p' :: ps) q

/-- Phase configuration `c` after the phase `prev` runs to its end, printing `rows` and reaching
`q`. -/
def Completes (prev : Option (Phase F)) (c : PhaseConfig F) (rows : List (Row F))
    (q : Phase F) : Prop :=
  ∃ p, Phase.new prev c = .ok p ∧ ∃ fuel, p.reset.run fuel = some ⟨rows, .ok q⟩

/-- Phase configuration `c` after the phase `prev` aborts with `e` after printing `rows`. -/
def Aborts (prev : Option (Phase F)) (c : PhaseConfig F) (rows : List (Row F))
    (e : Panic) : Prop :=
  (Phase.new prev c = .error e ∧ rows = []) ∨
  ∃ p, Phase.new prev c = .ok p ∧ ∃ fuel, p.reset.run fuel = some ⟨rows, .error e⟩

/-- `Sequence i prev cs log last`: running the configurations `cs` one after the other, the
first being number `i + 1`, each from the phase its predecessor ended with, prints `log` and
ends with the phase `last` (the given one if there are none). -/
inductive Sequence : Nat → Option (Phase F) → List (PhaseConfig F) → List (LogEntry F) →
    Option (Phase F) → Prop
  | nil (i : Nat) (prev : Option (Phase F)) : Sequence i prev [] [] prev
  | cons {i : Nat} {prev last : Option (Phase F)} {c : PhaseConfig F}
      {cs : List (PhaseConfig F)} {rows : List (Row F)} {log : List (LogEntry F)}
      {q : Phase F} :
      Completes prev c rows q → Sequence (i + 1) (some q) cs log last →
      Sequence i prev (c :: cs) (.startingPhase (i + 1) :: rows.map .row ++ log) last

end Post.Spec

namespace Post.Spec
variable {F : Type} [Flt F]

/-- The value in force after a list of configurations: the last one specified, or the initial
value if none is. -/
def inForce {α β : Type} (f : α → Option β) (initial : β) : List α → β
  | [] => initial
  | a :: l => inForce f ((f a).getD initial) l

/-- `s'` is `s` itself or one full integrator step of some size away from `s`. -/
def SameOrStep (p : Phase F) (s s' : State F) : Prop := s' = s ∨ ∃ h, OneStep p h s s'

/-- The elements of a list starting after `s` are linked by `R`. -/
inductive Linked {α : Type} (R : α → α → Prop) : α → List α → Prop
  | nil (a : α) : Linked R a []
  | cons {a b : α} {l : List α} : R a b → Linked R b l → Linked R a (b :: l)

/-- How often the predicate holds in the list (classical counting). -/
inductive Count {α : Type} (P : α → Prop) : List α → Nat → Prop
  | nil : Count P [] 0
  | yes {a : α} {l : List α} {n : Nat} : P a → Count P l n → Count P (a :: l) (n + 1)
  | no {a : α} {l : List α} {n : Nat} : ¬ P a → Count P l n → Count P (a :: l) n

/-- State `s` is visited by running phase `p` (whether or not the run ever finishes): it is the
state the equations of motion give at the start, or the state after some number of steps. -/
def Visited (p : Phase F) (s : State F) : Prop :=
  ∃ s0 ps q, p.system p.state = .ok s0 ∧ Path { p with state := s0 } ps q ∧
    (s = s0 ∨ ∃ r ∈ ps, s = r.state)

/-- The state returned by a simulation whose last phase is `last`: that of the phase, or the
default state if there was none. -/
def finalState : Option (Phase F) → State F
  | some q => q.state
  | none => State.default

/-- The numbers announced by `Starting Phase` lines. -/
def announced : List (LogEntry F) → List Nat
  | [] => []
  | .startingPhase i :: log => i :: announced log
  | .row _ :: log => announced log

end Post.Spec
