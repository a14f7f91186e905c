import Verif.Spec.Turn
import Verif.Lemmas.Config
/-! # Which variables a phase looks at -/

namespace Post
open Spec Flt

variable {P : StateVariable → Prop}

/-- the phase looks at variables with the property `P` only -/
structure Phase.UsesOnly (P : StateVariable → Prop) (p : Phase XR) : Prop where
  drag : ∀ x ∈ tableVariables p.vehicle.dragCoeff, P x
  lift : ∀ x ∈ tableVariables p.vehicle.liftCoeff, P x
  side : ∀ x ∈ tableVariables p.vehicle.sideForceCoeff, P x
  roll : P p.steering.roll.var
  yaw : P p.steering.yaw.var
  pitch : P p.steering.pitch.var
  endCriterion : P p.endCriterion.1

theorem usesOnly_default (h1 : P .time) (h2 : P .timeSinceEvent) :
    (Phase.default : Phase XR).UsesOnly P := by
  have ht : ∀ x ∈ tableVariables (Table.default : Table XR), P x := by
    intro x hx
    simp only [Table.default, tableVariables, List.mem_cons, List.not_mem_nil, or_false] at hx
    subst hx
    exact h1
  exact ⟨ht, ht, ht, h1, h1, h1, h2⟩

theorem Phase.UsesOnly.applyConfig {p : Phase XR} (h : p.UsesOnly P) {c : PhaseConfig XR}
    (hc : Spec.UsesOnly P c) : (p.applyConfig c).UsesOnly P := by
  obtain ⟨i, v, st, pl, at', ma, ss, ec⟩ := c
  obtain ⟨c1, c2, c3, c4, c5, c6, c7⟩ := hc
  simp only at c1 c2 c3 c4 c5 c6 c7
  have h1 : (p.applyPlanet pl).UsesOnly P := by
    cases pl
    · exact h
    · exact ⟨h.drag, h.lift, h.side, h.roll, h.yaw, h.pitch, h.endCriterion⟩
  have h2 : ((p.applyPlanet pl).applyAtmosphere at').UsesOnly P := by
    cases at'
    · exact h1
    · exact ⟨h1.drag, h1.lift, h1.side, h1.roll, h1.yaw, h1.pitch, h1.endCriterion⟩
  unfold Phase.applyConfig
  simp only
  generalize ((p.applyPlanet pl).applyAtmosphere at') = q at h2 ⊢
  have h3 : (q.applyVehicle v).UsesOnly P := by
    cases v with
    | none => exact h2
    | some v =>
      obtain ⟨sm, pm, ra, cd, cl, cy, en⟩ := v
      have e : ((q.applyVehicle (some ⟨sm, pm, ra, cd, cl, cy, en⟩)).vehicle =
          q.vehicle.updateWithConfig ⟨sm, pm, ra, cd, cl, cy, en⟩ ∧
          (q.applyVehicle (some ⟨sm, pm, ra, cd, cl, cy, en⟩)).steering = q.steering ∧
          (q.applyVehicle (some ⟨sm, pm, ra, cd, cl, cy, en⟩)).endCriterion = q.endCriterion) := by
        cases sm <;> cases pm <;> exact ⟨rfl, rfl, rfl⟩
      refine ⟨?_, ?_, ?_, ?_, ?_, ?_, ?_⟩
      · rw [e.1]
        cases cd with
        | none => exact h2.drag
        | some t => exact c1 _ rfl t rfl
      · rw [e.1]
        cases cl with
        | none => exact h2.lift
        | some t => exact c2 _ rfl t rfl
      · rw [e.1]
        cases cy with
        | none => exact h2.side
        | some t => exact c3 _ rfl t rfl
      · rw [e.2.1]; exact h2.roll
      · rw [e.2.1]; exact h2.yaw
      · rw [e.2.1]; exact h2.pitch
      · rw [e.2.2]; exact h2.endCriterion
  have h4 : ((q.applyVehicle v).applyMaxAcceleration ma).UsesOnly P := by
    cases ma with
    | none => exact h3
    | some a =>
      unfold Phase.applyMaxAcceleration
      simp only
      split <;> exact ⟨h3.drag, h3.lift, h3.side, h3.roll, h3.yaw, h3.pitch, h3.endCriterion⟩
  generalize (q.applyVehicle v).applyMaxAcceleration ma = r at h4 ⊢
  have h5 : (r.applySteering st).UsesOnly P := by
    cases st with
    | none => exact h4
    | some st =>
      obtain ⟨ro, ya, pi⟩ := st
      refine ⟨h4.drag, h4.lift, h4.side, ?_, ?_, ?_, h4.endCriterion⟩
      · cases ro with
        | none => exact h4.roll
        | some a => exact c4 _ rfl a rfl
      · cases ya with
        | none => exact h4.yaw
        | some a => exact c5 _ rfl a rfl
      · cases pi with
        | none => exact h4.pitch
        | some a => exact c6 _ rfl a rfl
  have h6 : ((r.applySteering st).applyStepsize ss).UsesOnly P := by
    cases ss with
    | none => exact h5
    | some _ => exact ⟨h5.drag, h5.lift, h5.side, h5.roll, h5.yaw, h5.pitch, h5.endCriterion⟩
  cases ec with
  | none => exact h6
  | some e => exact ⟨h6.drag, h6.lift, h6.side, h6.roll, h6.yaw, h6.pitch, c7 e rfl⟩

theorem Phase.UsesOnly.new (h1 : P .time) (h2 : P .timeSinceEvent) {prev : Option (Phase XR)} (h : ∀ q ∈ prev, q.UsesOnly P)
    {c : PhaseConfig XR} (hc : Spec.UsesOnly P c) {p : Phase XR} (hp : Phase.new prev c = .ok p) :
    p.reset.UsesOnly P := by
  have key : p.UsesOnly P := by
    cases prev with
    | some q =>
      simp only [Phase.new] at hp
      injection hp with hp
      subst hp
      exact (h q rfl).applyConfig hc
    | none =>
      unfold Phase.new at hp
      simp only at hp
      cases hi : c.init with
      | none => rw [hi] at hp; cases hp
      | some i =>
        rw [hi] at hp
        injection hp with hp
        subst hp
        have := (usesOnly_default h1 h2 : (Phase.default : Phase XR).UsesOnly P).applyConfig hc
        exact ⟨this.drag, this.lift, this.side, this.roll, this.yaw, this.pitch,
          this.endCriterion⟩
  exact ⟨key.drag, key.lift, key.side, key.roll, key.yaw, key.pitch, key.endCriterion⟩

end Post
