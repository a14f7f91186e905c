import Verif.Lemmas.Table
import Verif.Model.Vehicle
/-! # Lemmas about `Vehicle.aeroForce` in any arithmetic -/

set_option linter.unusedSectionVars false

namespace Post
open Spec
variable {F : Type} [Flt F]

theorem Vehicle.aeroForce_error {v : Vehicle F} {s : State F} {e : Panic}
    (h : v.aeroForce s = .error e) : IsLookup e := by
  unfold Vehicle.aeroForce at h
  cases h1 : v.dragCoeff.atState s with
  | error e' => simp [h1, bind, Except.bind] at h; subst h; exact Table.atState_error h1
  | ok cd =>
    simp only [h1, bind, Except.bind] at h
    cases h2 : v.liftCoeff.atState s with
    | error e' => simp [h2] at h; subst h; exact Table.atState_error h2
    | ok cl =>
      simp only [h2] at h
      cases h3 : v.sideForceCoeff.atState s with
      | error e' => simp [h3] at h; subst h; exact Table.atState_error h3
      | ok cy => simp [h3] at h

/-- All three coefficient tables are well formed. -/
def Vehicle.TablesOk (v : Vehicle F) : Prop :=
  WellFormed v.dragCoeff ∧ WellFormed v.liftCoeff ∧ WellFormed v.sideForceCoeff

theorem Vehicle.aeroForce_ok {v : Vehicle F} (h : v.TablesOk) (s : State F) :
    ∃ f, v.aeroForce s = .ok f := by
  obtain ⟨h1, h2, h3⟩ := h
  obtain ⟨cd, hd⟩ := Table.atState_ok h1 s
  obtain ⟨cl, hl⟩ := Table.atState_ok h2 s
  obtain ⟨cy, hy⟩ := Table.atState_ok h3 s
  unfold Vehicle.aeroForce
  simp only [hd, hl, hy, bind, Except.bind]
  exact ⟨_, rfl⟩

end Post
