import Verif.Spec.Run
import Verif.F64
import Verif.Lemmas.F64
/-! # Timetables: what a mission timed in whole seconds prints

Vocabulary for C77, written from the documentation of `end_criterion`; it does not use the
functions of the program. -/

namespace Post.Spec
open F64
variable {L : Libm}

/-- A phase that starts at second `start` and has the end criterion `e` is to end at second `t`:
the criterion is the mission time `t`, or the time since the event `t - start`. -/
def EndsAt (e : StateVariable × F64 L) (start t : ℕ) : Prop :=
  start < t ∧ t < 2 ^ 53 ∧
  ((e.1 = .time ∧ e.2.Is t) ∨ (e.1 = .timeSinceEvent ∧ e.2.Is ((t - start : ℕ) : ℚ)))

/-- Phases `cs`, the first of which starts at second `start`, end at the whole seconds `ts`.  A
phase without end criterion has that of the phase before, `crit` for the first one. -/
def Timed : (crit : StateVariable × F64 L) → (start : ℕ) → List (PhaseConfig (F64 L)) → List ℕ → Prop
  | _, _, [], ts => ts = []
  | _, _, _ :: _, [] => False
  | crit, start, c :: cs, t :: ts =>
    EndsAt (c.endCriterion.getD crit) start t ∧ Timed (c.endCriterion.getD crit) t cs ts

/-- Lines of a timetable. -/
inductive Line
  /-- the announcement of phase `i` -/
  | starting (i : ℕ)
  /-- a row for second `t` -/
  | second (t : ℕ)
deriving DecidableEq

/-- The printed line is the one of the timetable.  The time in a row is the exact second. -/
def ShowsLine : LogEntry (F64 L) → Line → Prop
  | .startingPhase i, .starting j => i = j
  | .row r, .second t => r.time.Is t
  | _, _ => False

/-- The timetable of phases number `i + 1`, `i + 2`, … that start at second `start` and end at
the seconds `ts`: each phase is announced, and then there is one row for each second after its
start up to its end. -/
def timetable : (i start : ℕ) → List ℕ → List Line
  | _, _, [] => []
  | i, start, t :: ts =>
    .starting (i + 1) :: ((List.range' (start + 1) (t - start)).map .second ++
      timetable (i + 1) t ts)

/-- Phases ending at seconds 2 and 5. -/
example : timetable 0 0 [2, 5] = [.starting 1, .second 1, .second 2, .starting 2, .second 3,
    .second 4, .second 5] := rfl

end Post.Spec
