import Verif.Spec.Phase
import Verif.Lemmas.Run
import Verif.Lemmas.Fields
/-! # Lemmas about building phases from configurations -/

set_option linter.unusedSectionVars false

namespace Post
open Spec Flt
variable {F : Type} [Flt F]

namespace Phase

/-- The phase a configuration is applied to. -/
def base (prev : Option (Phase F)) : Phase F := prev.getD .default

theorem init_params (p : Phase F) (i : InitConfig F) :
    (p.init i).planet = p.planet ∧ (p.init i).atmosphere = p.atmosphere ∧
    (p.init i).vehicle = p.vehicle ∧ (p.init i).maxAcceleration = p.maxAcceleration ∧
    (p.init i).steering = p.steering ∧ (p.init i).endCriterion = p.endCriterion ∧
    (p.init i).integrator = p.integrator ∧ (p.init i).baseStepsize = p.baseStepsize ∧
    (p.init i).state.mass = p.state.mass ∧ (p.init i).state.time = p.state.time ∧
    (p.init i).state.eulerAngles = p.state.eulerAngles :=
  ⟨rfl, rfl, rfl, rfl, rfl, rfl, rfl, rfl, rfl, rfl, rfl⟩

theorem new_ok {prev : Option (Phase F)} {c : PhaseConfig F} {p : Phase F}
    (h : Phase.new prev c = .ok p) :
    (prev ≠ none ∧ p = (base prev).applyConfig c) ∨
    (prev = none ∧ ∃ i, c.init = some i ∧ p = ((base prev).applyConfig c).init i) := by
  cases prev with
  | some q => simp only [Phase.new] at h; injection h with h; exact .inl ⟨by simp, h.symm⟩
  | none =>
    unfold Phase.new at h
    cases hi : c.init with
    | none => simp [hi] at h
    | some i =>
      simp only [hi] at h
      injection h with h
      exact .inr ⟨rfl, i, rfl, h.symm⟩

/-- Running a phase to the end keeps its parameters. -/
theorem run_ok_sameParams {p q : Phase F} {fuel : Nat} {rows : List (Row F)}
    (h : p.run fuel = some ⟨rows, .ok q⟩) : SameParams p q := by
  rcases Phase.run_some h with ⟨e, _, _, h3⟩ | ⟨s0, _, ps, q', hpath, _, _, hq⟩
  · cases h3
  · rcases hq with ⟨_, hq⟩ | ⟨_, e, _, hq⟩
    · injection hq with hq; subst hq
      have := (path_sameParams hpath).1
      exact ⟨this.1, this.2, this.3, this.4, this.5, this.6, this.7, this.8, this.9⟩
    · cases hq

/-- A completed phase comes from a phase made from its configuration, with the same
parameters. -/
theorem completes_sameParams {prev : Option (Phase F)} {c : PhaseConfig F}
    {rows : List (Row F)} {q : Phase F} (h : Completes prev c rows q) :
    ∃ p, Phase.new prev c = .ok p ∧ SameParams p.reset q := by
  obtain ⟨p, hp, fuel, hr⟩ := h
  exact ⟨p, hp, run_ok_sameParams hr⟩

end Phase

theorem inForce_append {α β : Type} (f : α → Option β) (d : β) (l l' : List α) :
    inForce f d (l ++ l') = inForce f (inForce f d l) l' := by
  induction l generalizing d with
  | nil => rfl
  | cons a l ih => exact ih _

/-- If each new phase takes the parameter `X` from its configuration or else from the phase
before, then the parameter in force is the last one configured. -/
theorem sequence_inForce {β : Type} (X : Phase F → β) (f : PhaseConfig F → Option β)
    (hnew : ∀ prev c p, Phase.new prev c = .ok p →
      X p.reset = (f c).getD (X (Phase.base prev)))
    (hX : ∀ p q, Phase.SameParams p q → X q = X p)
    {cs : List (PhaseConfig F)} {i : Nat} {prev last : Option (Phase F)}
    {log : List (LogEntry F)} (h : Sequence i prev cs log last) :
    X (Phase.base last) = inForce f (X (Phase.base prev)) cs := by
  induction h with
  | nil => rfl
  | cons hc _ ih =>
    obtain ⟨p, hp, hsame⟩ := Phase.completes_sameParams hc
    rw [ih, inForce]
    congr 1
    rw [← hnew _ _ _ hp]
    exact hX _ _ hsame

theorem ready_inForce {β : Type} (X : Phase F → β) (f : PhaseConfig F → Option β) (d : β)
    (hd : X Phase.default = d)
    (hnew : ∀ prev c p, Phase.new prev c = .ok p →
      X p.reset = (f c).getD (X (Phase.base prev)))
    (hX : ∀ p q, Phase.SameParams p q → X q = X p)
    {cs : List (PhaseConfig F)} {c : PhaseConfig F} {p : Phase F} (h : Ready cs c p) :
    X p = inForce f d (cs ++ [c]) := by
  obtain ⟨log, prev, p', hs, hp, rfl⟩ := h
  rw [inForce_append, hnew _ _ _ hp, sequence_inForce X f hnew hX hs, ← hd]
  rfl

/-- Reduce the hypothesis of `ready_inForce` to `applyConfig`. -/
theorem new_of_applyConfig {β : Type} {X : Phase F → β} {f : PhaseConfig F → Option β}
    (h1 : ∀ p c, X (Phase.applyConfig p c) = (f c).getD (X p))
    (h2 : ∀ p i, X (Phase.init p i) = X p) (h3 : ∀ p, X (Phase.reset p) = X p)
    (prev : Option (Phase F)) (c : PhaseConfig F) (p : Phase F) (h : Phase.new prev c = .ok p) :
    X p.reset = (f c).getD (X (Phase.base prev)) := by
  rcases Phase.new_ok h with ⟨_, rfl⟩ | ⟨_, i, _, rfl⟩
  · rw [h3, h1]
  · rw [h3, h2, h1]

theorem ready_param {β : Type} (X : Phase F → β) (f : PhaseConfig F → Option β) (d : β)
    (hd : X Phase.default = d)
    (h1 : ∀ p c, X (Phase.applyConfig p c) = (f c).getD (X p))
    (h2 : ∀ p i, X (Phase.init p i) = X p) (h3 : ∀ p, X (Phase.reset p) = X p)
    (hX : ∀ p q, Phase.SameParams p q → X q = X p)
    {cs : List (PhaseConfig F)} {c : PhaseConfig F} {p : Phase F} (h : Ready cs c p) :
    X p = inForce f d (cs ++ [c]) :=
  ready_inForce X f d hd (new_of_applyConfig h1 h2 h3) hX h

end Post
