import Verif.Model.Phase
/-! # Model of `Simulation::run` (sim/src/lib.rs:47-64) -/

namespace Post
variable {F : Type} [Flt F]

/-- Lines written to standard output. -/
inductive LogEntry (F : Type)
  /-- lib.rs:54 `Starting Phase {i}` -/
  | startingPhase (i : Nat)
  /-- phase.rs:203-210 -/
  | row (r : Row F)
deriving DecidableEq

/-- Everything observable of a simulation run: output and final state or panic. -/
structure SimOut (F : Type) where
  log : List (LogEntry F)
  result : Except Panic (State F)

/-- lib.rs:53-61, the loop over the configurations, from the `i`-th one on; `prev` is
`prev_phase` and `phase` the variable `phase`.  Each phase is cut off after `fuel` steps; `none`
means that some phase did not finish. -/
def Simulation.loop (fuel : Nat) :
    Nat → Option (Phase F) → Phase F → List (PhaseConfig F) → Option (SimOut F)
  | _, _, phase, [] => some ⟨[], .ok phase.state⟩
  | i, prev, _, c :: cs =>
    match Phase.new prev c with
    | .error e => some ⟨[.startingPhase (i + 1)], .error e⟩
    | .ok phase =>
      match Phase.run fuel phase.reset with
      | none => none
      | some ⟨rows, .error e⟩ => some ⟨.startingPhase (i + 1) :: rows.map .row, .error e⟩
      | some ⟨rows, .ok phase⟩ =>
        (Simulation.loop fuel (i + 1) (some phase) phase cs).map fun o =>
          ⟨.startingPhase (i + 1) :: rows.map .row ++ o.log, o.result⟩

/-- lib.rs:50-64 `Simulation::run`, each phase cut off after `fuel` steps -/
def Simulation.run (fuel : Nat) (config : List (PhaseConfig F)) : Option (SimOut F) :=
  Simulation.loop fuel 0 none Phase.default config

/-- The simulation terminates (normally or by a panic) with the observable outcome `o`. -/
def Simulation.Terminates (config : List (PhaseConfig F)) (o : SimOut F) : Prop :=
  ∃ fuel, Simulation.run fuel config = some o

end Post
