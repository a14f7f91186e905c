import Verif.Props.Json
import Verif.Props.Phase
/-! # Properties of the whole program (C31, C56) -/

set_option linter.unusedSectionVars false

namespace Post
open Spec Flt
variable {F : Type} [Flt F]

/-! ## C31: only documented aborts are possible -/

theorem inForce_prop {α β : Type} (P : β → Prop) (f : α → Option β) {d : β} (hd : P d)
    {l : List α} (hl : ∀ a ∈ l, ∀ b, f a = some b → P b) : P (inForce f d l) := by
  induction l generalizing d with
  | nil => exact hd
  | cons a l ih =>
    refine ih ?_ fun a' ha' => hl a' (List.mem_cons_of_mem _ ha')
    cases h : f a with
    | none => exact hd
    | some b => exact hl a (by simp) b h

/-- The empty table is well formed. -/
theorem wellFormed_default : WellFormed (F := F) (.d1 ⟨(.time, []), [], .linear⟩) :=
  ⟨fun i h => by simp at h, rfl⟩

/-- If all configured tables are well formed then so are those of every phase. -/
theorem ready_tablesOk {cs : List (PhaseConfig F)} {c : PhaseConfig F} {p : Phase F}
    (hr : Ready cs c p) (ht : ∀ c' ∈ cs ++ [c], ∀ t ∈ tablesOf c', WellFormed t) :
    p.vehicle.TablesOk := by
  have hp := C07_parameters_in_force hr
  refine ⟨?_, ?_, ?_⟩
  · rw [hp.dragCoeff]
    refine inForce_prop WellFormed _ wellFormed_default fun a ha t h => ht a ha t ?_
    unfold vehicleParam at h
    unfold tablesOf
    cases hv : a.vehicle with
    | none => simp [hv] at h
    | some v => simp only [hv, Option.bind_some] at h; simp [h]
  · rw [hp.liftCoeff]
    refine inForce_prop WellFormed _ wellFormed_default fun a ha t h => ht a ha t ?_
    unfold vehicleParam at h
    unfold tablesOf
    cases hv : a.vehicle with
    | none => simp [hv] at h
    | some v => simp only [hv, Option.bind_some] at h; simp [h]
  · rw [hp.sideForceCoeff]
    refine inForce_prop WellFormed _ wellFormed_default fun a ha t h => ht a ha t ?_
    unfold vehicleParam at h
    unfold tablesOf
    cases hv : a.vehicle with
    | none => simp [hv] at h
    | some v => simp only [hv, Option.bind_some] at h; simp [h]

/-- With well-formed tables the equations of motion can only fail because of the acceleration
limit. -/
theorem Phase.system_error_tablesOk {p : Phase F} (hp : p.vehicle.TablesOk) {s : State F}
    {e : Panic} (h : p.system s = .error e) : e = .maxAcceleration := by
  rcases Phase.system_error h with h | h
  · exact h
  · obtain ⟨f, hf⟩ := Vehicle.aeroForce_ok hp (p.systemPre s)
    rw [hf] at h; cases h

/-- With well-formed tables running a phase can only abort because of the acceleration limit or
the end criterion. -/
theorem Phase.run_error_tablesOk {p : Phase F} (hp : p.vehicle.TablesOk) {fuel : Nat}
    {rows : List (Row F)} {e : Panic} (h : p.run fuel = some ⟨rows, .error e⟩) :
    e = .maxAcceleration ∨ e = .noZeroCrossing := by
  rcases Phase.run_some h with ⟨e', h1, _, h3⟩ | ⟨s0, _, ps, q, hpath, _, _, hq⟩
  · injection h3 with h3; subst h3
    exact .inl (Phase.system_error_tablesOk hp h1)
  · rcases hq with ⟨_, hq⟩ | ⟨hend, e', hstep, hq⟩
    · cases hq
    · injection hq with hq; subst hq
      have hpar := (Phase.path_sameParams hpath).1
      rcases Phase.step_error hstep with ⟨h1, _⟩ | ⟨_, h1⟩ | ⟨_, h1, _⟩
      · rw [hend] at h1; cases h1
      · obtain ⟨s', hs'⟩ := Integrator.step_error h1
        refine .inl (Phase.system_error_tablesOk (p := q) ?_ hs')
        rw [hpar.vehicle]; exact hp
      · exact .inr h1

/-- C31.  If the program, started on any file, panics, then because the first phase has no init
section, because the acceleration limit could not be kept, or because the end criterion could
not be hit.  In particular it never indexes out of bounds, never underflows and never steps an
ended phase.  In the first case nothing was printed but the announcement of phase 1. -/
theorem C31_only_documented_aborts {file : File F} {fuel : Nat} {log : List (LogEntry F)}
    {e : Panic} (h : main fuel file = some (log, .panic e)) :
    (e = .missingInit ∧ log = [.startingPhase 1]) ∨ e = .maxAcceleration ∨
      e = .noZeroCrossing := by
  unfold main at h
  cases hf : Simulation.fromFile file with
  | none => simp [hf] at h
  | some cs =>
    simp only [hf, Option.map_eq_some_iff] at h
    obtain ⟨⟨log', res⟩, hrun, ho⟩ := h
    simp only [Prod.mk.injEq] at ho
    obtain ⟨rfl, ho⟩ := ho
    cases res with
    | ok s => cases ho
    | error e' =>
      injection ho with ho; subst ho
      obtain ⟨done, c, rest, log1, last, rows, rfl, hseq, hab, hlog⟩ :=
        C53_terminates_error_iff.1 ⟨fuel, hrun⟩
      rcases hab with ⟨hnew, hrows⟩ | ⟨p, hnew, fuel', hr⟩
      · left
        cases last with
        | some q => simp [Phase.new] at hnew
        | none =>
          have hdone : done = [] := by
            cases hseq with
            | nil => rfl
            | cons hc hs =>
              exfalso
              have := Simulation.sequence_last hs
              simp at this
          subst hdone
          cases hseq
          unfold Phase.new at hnew
          cases hi : c.init with
          | some i => simp [hi] at hnew
          | none =>
            simp only [hi] at hnew
            injection hnew with hnew
            exact ⟨hnew.symm, by simp [hlog, hrows]⟩
      · right
        refine Phase.run_error_tablesOk (p := p.reset) ?_ hr
        refine ready_tablesOk ⟨_, _, _, hseq, hnew, rfl⟩ fun c' hc' t ht => ?_
        refine C01_accepted_tables_wellFormed hf (c := c') ?_ ht
        simp at hc' ⊢
        tauto

/-- Files for which each of the three aborts happens (in the toy arithmetic). -/
example : main (F := Fix) 5 (.json (.arr [.obj []])) =
    some ([.startingPhase 1], .panic .missingInit) := by decide +kernel

example : (main (F := Fix) 30 (.json (.arr [.obj [
      ("init", .arr [.num 0, .num 0, .num 0, .num 0]),
      ("planet_model", .obj [("custom", .arr [.num 100, .num 100,
        .arr [.num 1000, .num 0, .num 0, .num 0], .num 0])]),
      ("vehicle", .obj [("structure_mass", .num 10), ("propellant_mass", .num 5)]),
      ("end_criterion", .arr [.str "mass", .num 10])]]))).map (·.2) =
    some (.panic .noZeroCrossing) := by decide +kernel

example : (main (F := Fix) 30 (.json (.arr [.obj [
      ("init", .arr [.num 0, .num 0, .num 0, .num 0]),
      ("planet_model", .obj [("custom", .arr [.num 100, .num 100,
        .arr [.num 1000, .num 0, .num 0, .num 0], .num 0])]),
      ("max_acceleration", .num (-2)),
      ("vehicle", .obj [("structure_mass", .num 10), ("propellant_mass", .num 5)]),
      ("end_criterion", .arr [.str "mass", .num 10])]]))).map (·.2) =
    some (.panic .maxAcceleration) := by decide +kernel

/-! ## C56: a bad file never starts a simulation -/

/-- C56.  If the file cannot be loaded, the program prints nothing and returns the error;
otherwise it prints exactly what the loaded simulation prints, and succeeds exactly if the
simulation ends normally. -/
theorem C56_bad_file_never_runs (file : File F) :
    (Simulation.fromFile file = none → ∀ fuel, main fuel file = some ([], .loadError)) ∧
    (∀ cs, Simulation.fromFile file = some cs → ∀ log ex,
      (∃ fuel, main fuel file = some (log, ex)) ↔
        ∃ res, Simulation.Terminates cs ⟨log, res⟩ ∧
          ((ex = .success ∧ ∃ s, res = .ok s) ∨ ∃ e, ex = .panic e ∧ res = .error e)) := by
  constructor
  · intro h fuel; simp [main, h]
  · intro cs h log ex
    simp only [main, h, Option.map_eq_some_iff, Simulation.Terminates]
    constructor
    · rintro ⟨fuel, ⟨log', res⟩, hrun, ho⟩
      simp only [Prod.mk.injEq] at ho
      obtain ⟨rfl, rfl⟩ := ho
      refine ⟨res, ⟨fuel, hrun⟩, ?_⟩
      cases res <;> simp
    · rintro ⟨res, ⟨fuel, hrun⟩, hx⟩
      refine ⟨fuel, _, hrun, ?_⟩
      rcases hx with ⟨rfl, s, rfl⟩ | ⟨e, rfl, rfl⟩ <;> rfl

/-- A misspelled key keeps the program from running. -/
example : main (F := Fix) 5 (.json (.arr [.obj [("int", .null)]])) =
    some ([], .loadError) := by decide +kernel

end Post
