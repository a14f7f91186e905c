import Verif.Lemmas.Run
import Verif.Lemmas.Fields
/-! # Lemmas about `Phase.system` and `Integrator.step` in any arithmetic -/

set_option linter.unusedSectionVars false

namespace Post
open Spec Flt
variable {F : Type} [Flt F]

namespace Phase

/-- Inversion of a successful evaluation of the equations of motion. -/
theorem system_ok {p : Phase F} {s s' : State F} (h : p.system s = .ok s') :
    ∃ aero, p.vehicle.aeroForce (p.systemPre s) = .ok aero ∧
      p.exceedsLimit (p.systemForces (p.systemPre s) aero) = false ∧
      s' = p.systemAcceleration (p.systemForces (p.systemPre s) aero) := by
  unfold system at h
  cases ha : p.vehicle.aeroForce (p.systemPre s) with
  | error e => simp [ha, bind, Except.bind] at h
  | ok aero =>
    simp only [ha, bind, Except.bind] at h
    refine ⟨aero, rfl, ?_⟩
    cases hx : p.exceedsLimit (p.systemForces (p.systemPre s) aero) with
    | true => simp [hx] at h
    | false => simp [hx] at h; exact ⟨rfl, h.symm⟩

theorem system_error {p : Phase F} {s : State F} {e : Panic} (h : p.system s = .error e) :
    e = .maxAcceleration ∨ p.vehicle.aeroForce (p.systemPre s) = .error e := by
  unfold system at h
  cases ha : p.vehicle.aeroForce (p.systemPre s) with
  | error e' => simp [ha, bind, Except.bind] at h; right; rw [h]
  | ok aero =>
    simp only [ha, bind, Except.bind] at h
    cases hx : p.exceedsLimit (p.systemForces (p.systemPre s) aero) with
    | true => simp [hx] at h; exact .inl h.symm
    | false => simp [hx] at h

theorem system_primary {p : Phase F} {s s' : State F} (h : p.system s = .ok s') :
    s'.time = s.time ∧ s'.timeSinceEvent = s.timeSinceEvent ∧ s'.position = s.position ∧
      s'.velocity = s.velocity ∧ s'.mass = s.mass := by
  obtain ⟨aero, _, _, rfl⟩ := system_ok h
  simp [systemPre]

theorem system_limit {p : Phase F} {s s' : State F} (h : p.system s = .ok s') :
    p.exceedsLimit s' = false := by
  obtain ⟨aero, _, hx, rfl⟩ := system_ok h
  unfold exceedsLimit at hx ⊢
  rwa [systemAcceleration_vehicleAccelerationBody, systemAcceleration_throttle]

theorem system_propellant {p : Phase F} {s s' : State F} (h : p.system s = .ok s') :
    s'.propellantMass = s'.mass - p.vehicle.structureMass := by
  obtain ⟨aero, _, hx, rfl⟩ := system_ok h
  simp [systemPre]

end Phase

/-- Inversion of an integrator step: the result is the function evaluated at the advanced time
and at some primary vector. -/
theorem Integrator.step_ok {i : Integrator} {f : State F → Except Panic (State F)}
    {s s' : State F} {h : F} (hs : i.step f s h = .ok s') :
    ∃ y : Fin 7 → F,
      RK4.step (convertedFunc f) (vec2 s.time s.timeSinceEvent) s.toPrimaryVec h =
        .ok (addScalar (vec2 s.time s.timeSinceEvent) h, y) ∧
      f (State.fromVec (vec2 (s.time + h) (s.timeSinceEvent + h)) y) = .ok s' := by
  cases i
  unfold Integrator.step at hs
  simp only at hs
  cases hr : RK4.step (convertedFunc f) (vec2 s.time s.timeSinceEvent) s.toPrimaryVec h with
  | error e => simp [hr, bind, Except.bind] at hs
  | ok r =>
    obtain ⟨t, y⟩ := r
    simp only [hr, bind, Except.bind] at hs
    have ht : t = addScalar (vec2 s.time s.timeSinceEvent) h := by
      unfold RungeKutta.step at hr
      simp only [bind, Except.bind] at hr
      split at hr
      · simp at hr
      · simp at hr; exact hr.1.symm
    subst ht
    refine ⟨y, rfl, ?_⟩
    rw [← hs]
    congr 1

theorem convertedFunc_error {f : State F → Except Panic (State F)} {t : Fin 2 → F}
    {y : Fin 7 → F} {e : Panic} (h : convertedFunc f t y = .error e) : ∃ s, f s = .error e := by
  unfold convertedFunc at h
  cases hf : f (State.fromVec t y) with
  | error e2 =>
    simp [hf, bind, Except.bind] at h
    exact ⟨_, by rw [hf, h]⟩
  | ok r => simp [hf, bind, Except.bind, pure, Except.pure] at h

theorem RungeKutta.stages_error {R dX dY : Nat} (rk : RungeKutta F R)
    {f : (Fin dX → F) → (Fin dY → F) → Except Panic (Fin dY → F)}
    {x : Fin dX → F} {y : Fin dY → F} {h : F} (l : List (Fin R)) (k : Fin R → Fin dY → F)
    {e : Panic} (he : l.foldlM (rk.stage f x y h) k = .error e) :
    ∃ x' y', f x' y' = .error e := by
  induction l generalizing k with
  | nil => simp [pure, Except.pure] at he
  | cons a l ih =>
    rw [List.foldlM_cons] at he
    cases hc : rk.stage f x y h k a with
    | error e1 =>
      simp only [hc, bind, Except.bind] at he
      injection he with he
      subst he
      unfold RungeKutta.stage at hc
      simp only [bind, Except.bind] at hc
      split at hc
      · next hf => injection hc with hc; subst hc; exact ⟨_, _, hf⟩
      · cases hc
    | ok v =>
      simp only [hc, bind, Except.bind] at he
      exact ih _ he

theorem RungeKutta.step_error {R dX dY : Nat} (rk : RungeKutta F R)
    {f : (Fin dX → F) → (Fin dY → F) → Except Panic (Fin dY → F)}
    {x : Fin dX → F} {y : Fin dY → F} {h : F} {e : Panic} (he : rk.step f x y h = .error e) :
    ∃ x' y', f x' y' = .error e := by
  unfold RungeKutta.step at he
  cases hk : (List.finRange R).foldlM (rk.stage f x y h) (fun _ _ => 0) with
  | error e1 =>
    simp only [hk, bind, Except.bind] at he
    injection he with he
    subst he
    exact rk.stages_error _ _ hk
  | ok v => simp [hk, bind, Except.bind] at he

/-- Inversion of a failing integrator step: one of the evaluations failed. -/
theorem Integrator.step_error {i : Integrator} {f : State F → Except Panic (State F)}
    {s : State F} {h : F} {e : Panic} (hs : i.step f s h = .error e) :
    ∃ s', f s' = .error e := by
  cases i
  unfold Integrator.step at hs
  simp only at hs
  cases hr : RK4.step (convertedFunc f) (vec2 s.time s.timeSinceEvent) s.toPrimaryVec h with
  | ok r =>
    obtain ⟨t, y⟩ := r
    simp only [hr, bind, Except.bind] at hs
    exact ⟨_, hs⟩
  | error e' =>
    simp only [hr, bind, Except.bind] at hs
    injection hs with hs
    subst hs
    obtain ⟨_, _, h2⟩ := RungeKutta.step_error _ hr
    exact convertedFunc_error h2

/-- A state reached by one integrator step is a state computed by the equations of motion, at
the advanced time. -/
theorem oneStep_system {p : Phase F} {s s' : State F} {h : F} (hs : OneStep p h s s') :
    (∃ s1, p.system s1 = .ok s') ∧ s'.time = s.time + h ∧
      s'.timeSinceEvent = s.timeSinceEvent + h := by
  obtain ⟨y, _, hf⟩ := Integrator.step_ok hs
  have := Phase.system_primary hf
  exact ⟨⟨_, hf⟩, this.1, this.2.1⟩

/-- `OneStep` only depends on the parameters of the phase. -/
theorem Phase.SameParams.oneStep {p q : Phase F} (hp : Phase.SameParams p q) {h : F}
    {s s' : State F} : OneStep q h s s' ↔ OneStep p h s s' := by
  unfold OneStep
  rw [hp.system, hp.integrator]

/-- Induction over the states visited by a run. -/
theorem Spec.Visited.induction {p : Phase F} {I : State F → Prop}
    (h0 : ∀ s0, p.system p.state = .ok s0 → I s0)
    (hstep : ∀ s s' h, I s → OneStep p h s s' → I s') {s : State F} (hs : Visited p s) : I s := by
  obtain ⟨s0, ps, q, h1, hpath, hs⟩ := hs
  have key : ∀ {r q : Phase F} {ps : List (Phase F)}, Path r ps q → Phase.SameParams p r →
      I r.state → ∀ r' ∈ ps, I r'.state := by
    intro r q ps hpath
    induction hpath with
    | nil r => intro _ _ r' hr'; simp at hr'
    | @cons r r1 q ps h1 h2 h3 ih =>
      intro hsame hI r' hr'
      have hsame' := hsame.trans (Phase.step_sameParams h2)
      have hI1 : I r1.state := by
        obtain ⟨_, s, hs, h | h | h⟩ := Phase.step_ok h2
        · rw [h.2]; exact hstep _ _ _ hI (hsame.oneStep.1 hs)
        · rw [h.2.2.2]; exact hI
        · rw [h.2.2]; exact hstep _ _ _ hI (hsame.oneStep.1 hs)
      rcases List.mem_cons.1 hr' with rfl | hr'
      · exact hI1
      · exact ih hsame' hI1 r' hr'
  rcases hs with rfl | ⟨r, hr, rfl⟩
  · exact h0 _ h1
  · exact key hpath ⟨rfl, rfl, rfl, rfl, rfl, rfl, rfl, rfl, rfl⟩ (h0 _ h1) r hr

/-- Every visited state was computed by the equations of motion. -/
theorem Spec.Visited.system {p : Phase F} {s : State F} (hs : Visited p s) :
    ∃ s1, p.system s1 = .ok s :=
  hs.induction (I := fun s => ∃ s1, p.system s1 = .ok s) (fun _ h => ⟨_, h⟩)
    fun _ _ _ _ h => (oneStep_system h).1

theorem path_last {r q : Phase F} {ps : List (Phase F)} (h : Path r ps q) :
    (q = r ∧ ps = []) ∨ q ∈ ps := by
  induction h with
  | nil r => exact .inl ⟨rfl, rfl⟩
  | cons h1 h2 h3 ih =>
    rcases ih with ⟨h, _⟩ | h
    · exact .inr (h ▸ List.mem_cons_self ..)
    · exact .inr (List.mem_cons_of_mem _ h)

/-- The rows printed and the state returned are those of visited states. -/
theorem Spec.visited_of_run {p : Phase F} {fuel : Nat} {rows : List (Row F)}
    {res : Except Panic (Phase F)} (h : p.run fuel = some ⟨rows, res⟩) :
    (∀ row ∈ rows, ∃ s, Visited p s ∧ row = s.row) ∧ (∀ q, res = .ok q → Visited p q.state) := by
  rcases Phase.run_some h with ⟨e, h1, h2, h3⟩ | ⟨s0, h0, ps, q, hpath, hrows, _, hq⟩
  · subst h2 h3
    exact ⟨by simp, by intro q hq; cases hq⟩
  · subst hrows
    refine ⟨fun row hrow => ?_, fun q' hq' => ?_⟩
    · obtain ⟨r, hr, rfl⟩ := List.mem_map.1 hrow
      exact ⟨r.state, ⟨s0, ps, q, h0, hpath, .inr ⟨r, hr, rfl⟩⟩, rfl⟩
    · have hqq : q' = q := by
        rcases hq with ⟨_, h⟩ | ⟨_, e, _, h⟩
        · rw [h] at hq'; injection hq' with hq'; exact hq'.symm
        · rw [h] at hq'; cases hq'
      subst hqq
      refine ⟨s0, ps, q', h0, hpath, ?_⟩
      rcases path_last hpath with ⟨h, _⟩ | h
      · left; rw [h]
      · exact .inr ⟨q', h, rfl⟩

end Post
