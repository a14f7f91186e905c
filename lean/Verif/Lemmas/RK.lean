import Verif.Lemmas.System
import Verif.Ext
/-! # Lemmas about one Runge-Kutta step -/

set_option linter.unusedSectionVars false

namespace Post
open Spec Flt
variable {F : Type} [Flt F]

theorem finRange_four : List.finRange 4 = [0, 1, 2, 3] := by decide

/-- Inversion of a successful RK4 step in any arithmetic: four evaluations, at which points, and a
weighted sum of their results. -/
theorem rk4_ok {dX dY : Nat} {f : (Fin dX → F) → (Fin dY → F) → Except Panic (Fin dY → F)}
    {x x' : Fin dX → F} {y y' : Fin dY → F} {h : F} (hs : RK4.step f x y h = .ok (x', y')) :
    ∃ (v1 v2 v3 v4 : Fin dY → F) (x1 x2 x3 x4 : Fin dX → F) (y1 y2 y3 y4 : Fin dY → F),
      f x1 y1 = .ok v1 ∧ f x2 y2 = .ok v2 ∧ f x3 y3 = .ok v3 ∧ f x4 y4 = .ok v4 ∧
      (∀ i, y1 i = y i + ((((0 + 0 * 0) + 0 * 0) + 0 * 0) + 0 * 0)) ∧
      (∀ i, y2 i = y i + ((((0 + 0.5 * (h * v1 i)) + 0 * 0) + 0 * 0) + 0 * 0)) ∧
      (∀ i, y3 i = y i + ((((0 + 0 * (h * v1 i)) + 0.5 * (h * v2 i)) + 0 * 0) + 0 * 0)) ∧
      (∀ i, y4 i = y i + ((((0 + 0 * (h * v1 i)) + 0 * (h * v2 i)) + 1 * (h * v3 i)) + 0 * 0)) ∧
      (∀ i, y' i = y i + ((((0 + 1 / 6 * (h * v1 i)) + 1 / 3 * (h * v2 i)) +
        1 / 3 * (h * v3 i)) + 1 / 6 * (h * v4 i))) ∧ x' = addScalar x h := by
  unfold RungeKutta.step at hs
  rw [finRange_four] at hs
  simp only [List.foldlM_cons, List.foldlM_nil, RungeKutta.stage, bind, Except.bind, pure,
    Except.pure] at hs
  split at hs
  · cases hs
  next k hk =>
  split at hk
  · cases hk
  next k1 hk1 =>
  split at hk1
  · cases hk1
  next v1 hv1 =>
  injection hk1 with hk1
  split at hk
  · cases hk
  next k2 hk2 =>
  split at hk2
  · cases hk2
  next v2 hv2 =>
  injection hk2 with hk2
  split at hk
  · cases hk
  next k3 hk3 =>
  split at hk3
  · cases hk3
  next v3 hv3 =>
  injection hk3 with hk3
  split at hk
  · cases hk
  next k4 hk4 =>
  split at hk4
  · cases hk4
  next v4 hv4 =>
  injection hk4 with hk4
  injection hk with hk
  refine ⟨v1, v2, v3, v4, _, _, _, _, _, _, _, _, hv1, hv2, hv3, hv4, ?_, ?_, ?_, ?_, ?_, ?_⟩
  · intro i; rw [finRange_four]; rfl
  · intro i; rw [finRange_four, ← hk1]; rfl
  · intro i; rw [finRange_four, ← hk2, ← hk1]; rfl
  · intro i; rw [finRange_four, ← hk3, ← hk2, ← hk1]; rfl
  · injection hs with hs
    injection hs with h1 h2
    intro i
    rw [← h2, ← hk, ← hk4, ← hk3, ← hk2, ← hk1]
    rfl
  · injection hs with hs
    injection hs with h1 h2
    exact h1.symm

/-- Inversion of one integration step of a phase, in any arithmetic, for the mass: the equations
of motion were evaluated in four states `s1`, ..., `s4`, giving `d1`, ..., `d4`. -/
theorem oneStep_mass {p : Phase F} {s s' : State F} {h : F} (hs : OneStep p h s s') :
    ∃ s1 s2 s3 s4 d1 d2 d3 d4 : State F,
      p.system s1 = .ok d1 ∧ p.system s2 = .ok d2 ∧ p.system s3 = .ok d3 ∧ p.system s4 = .ok d4 ∧
      s1.mass = s.mass + ((((0 + 0 * 0) + 0 * 0) + 0 * 0) + 0 * 0) ∧
      s2.mass = s.mass + ((((0 + 0.5 * (h * d1.massflow)) + 0 * 0) + 0 * 0) + 0 * 0) ∧
      s3.mass = s.mass +
        ((((0 + 0 * (h * d1.massflow)) + 0.5 * (h * d2.massflow)) + 0 * 0) + 0 * 0) ∧
      s4.mass = s.mass + ((((0 + 0 * (h * d1.massflow)) + 0 * (h * d2.massflow)) +
        1 * (h * d3.massflow)) + 0 * 0) ∧
      s'.mass = s.mass + ((((0 + 1 / 6 * (h * d1.massflow)) + 1 / 3 * (h * d2.massflow)) +
        1 / 3 * (h * d3.massflow)) + 1 / 6 * (h * d4.massflow)) := by
  obtain ⟨y, hy, hf⟩ := Integrator.step_ok hs
  obtain ⟨v1, v2, v3, v4, x1, x2, x3, x4, y1, y2, y3, y4, e1, e2, e3, e4, m1, m2, m3, m4, m5, _⟩ :=
    rk4_ok hy
  have conv : ∀ {x : Fin 2 → F} {y v : Fin 7 → F}, convertedFunc p.system x y = .ok v →
      ∃ d, p.system (State.fromVec x y) = .ok d ∧ d.massflow = v 6 := by
    intro x y v h
    unfold convertedFunc at h
    cases hd : p.system (State.fromVec x y) with
    | error e => simp [hd, bind, Except.bind] at h
    | ok d =>
      simp only [hd, bind, Except.bind, pure, Except.pure] at h
      injection h with h
      exact ⟨d, rfl, by rw [← h]; rfl⟩
  obtain ⟨d1, f1, g1⟩ := conv e1
  obtain ⟨d2, f2, g2⟩ := conv e2
  obtain ⟨d3, f3, g3⟩ := conv e3
  obtain ⟨d4, f4, g4⟩ := conv e4
  refine ⟨_, _, _, _, d1, d2, d3, d4, f1, f2, f3, f4, ?_, ?_, ?_, ?_, ?_⟩
  · exact m1 6
  · rw [g1]; exact m2 6
  · rw [g1, g2]; exact m3 6
  · rw [g1, g2, g3]; exact m4 6
  · rw [g1, g2, g3, g4, (Phase.system_primary hf).2.2.2.2]; exact m5 6

theorem stage_ok {R dX dY : Nat} {rk : RungeKutta F R}
    {f : (Fin dX → F) → (Fin dY → F) → Except Panic (Fin dY → F)}
    {x : Fin dX → F} {y v : Fin dY → F} {h : F} {k : Fin R → Fin dY → F} {i : Fin R}
    (hf : f (addScalar x (rk.c i * h))
      (vadd y (vsum ((List.finRange R).map fun j => vscale (rk.a i j) (k j)))) = .ok v) :
    rk.stage f x y h k i = .ok (setCol k i (vscale h v)) := by
  unfold RungeKutta.stage
  rw [hf]
  rfl

/-- If the four evaluations succeed, so does the step. -/
theorem rk4_forward {dX dY : Nat} {f : (Fin dX → F) → (Fin dY → F) → Except Panic (Fin dY → F)}
    {x : Fin dX → F} {y v1 v2 v3 v4 : Fin dY → F} {h : F}
    (e1 : f (addScalar x (0 * h)) (fun i => y i + ((((0 + 0 * 0) + 0 * 0) + 0 * 0) + 0 * 0)) = .ok v1)
    (e2 : f (addScalar x (0.5 * h))
      (fun i => y i + ((((0 + 0.5 * (h * v1 i)) + 0 * 0) + 0 * 0) + 0 * 0)) = .ok v2)
    (e3 : f (addScalar x (0.5 * h))
      (fun i => y i + ((((0 + 0 * (h * v1 i)) + 0.5 * (h * v2 i)) + 0 * 0) + 0 * 0)) = .ok v3)
    (e4 : f (addScalar x (1 * h))
      (fun i => y i + ((((0 + 0 * (h * v1 i)) + 0 * (h * v2 i)) + 1 * (h * v3 i)) + 0 * 0)) = .ok v4) :
    RK4.step f x y h = .ok (addScalar x h, fun i => y i + ((((0 + 1 / 6 * (h * v1 i)) +
      1 / 3 * (h * v2 i)) + 1 / 3 * (h * v3 i)) + 1 / 6 * (h * v4 i))) := by
  unfold RungeKutta.step
  have g1 : RK4.stage f x y h (fun _ _ => 0) 0 = .ok (setCol (fun _ _ => 0) 0 (vscale h v1)) :=
    stage_ok (by rw [finRange_four]; exact e1)
  have g2 := stage_ok (rk := RK4) (f := f) (x := x) (y := y) (h := h)
    (k := setCol (fun _ _ => 0) 0 (vscale h v1)) (i := 1) (v := v2)
    (by rw [finRange_four]; exact e2)
  have g3 := stage_ok (rk := RK4) (f := f) (x := x) (y := y) (h := h)
    (k := setCol (setCol (fun _ _ => 0) 0 (vscale h v1)) 1 (vscale h v2)) (i := 2) (v := v3)
    (by rw [finRange_four]; exact e3)
  have g4 := stage_ok (rk := RK4) (f := f) (x := x) (y := y) (h := h)
    (k := setCol (setCol (setCol (fun _ _ => 0) 0 (vscale h v1)) 1 (vscale h v2)) 2 (vscale h v3))
    (i := 3) (v := v4) (by rw [finRange_four]; exact e4)
  rw [finRange_four]
  simp only [List.foldlM_cons, List.foldlM_nil, g1, g2, g3, g4, bind, Except.bind, pure,
    Except.pure]
  rfl

/-- A condition under which an integration step succeeds, in any arithmetic: there is a set `G` of
masses such that the equations of motion succeed with mass flow `q` in every state whose mass is
in `G`, and the masses at which the method evaluates them are in `G`. -/
theorem oneStep_total {p : Phase F} {s : State F} {h q : F} {G : F → Prop}
    (hG : ∀ st : State F, G st.mass → ∃ d, p.system st = .ok d ∧ d.massflow = q)
    (h1 : G (s.mass + ((((0 + 0 * 0) + 0 * 0) + 0 * 0) + 0 * 0)))
    (h2 : G (s.mass + ((((0 + 0.5 * (h * q)) + 0 * 0) + 0 * 0) + 0 * 0)))
    (h3 : G (s.mass + ((((0 + 0 * (h * q)) + 0.5 * (h * q)) + 0 * 0) + 0 * 0)))
    (h4 : G (s.mass + ((((0 + 0 * (h * q)) + 0 * (h * q)) + 1 * (h * q)) + 0 * 0)))
    (h5 : G (s.mass + ((((0 + 1 / 6 * (h * q)) + 1 / 3 * (h * q)) + 1 / 3 * (h * q)) +
      1 / 6 * (h * q)))) :
    ∃ s', OneStep p h s s' := by
  have conv : ∀ (x : Fin 2 → F) (y : Fin 7 → F), G (y 6) →
      ∃ v, convertedFunc p.system x y = .ok v ∧ v 6 = q := by
    intro x y hy
    obtain ⟨d, hd, hq⟩ := hG (State.fromVec x y) hy
    exact ⟨d.toDifferentialsVector, by simp [convertedFunc, hd, bind, Except.bind, pure,
      Except.pure], hq⟩
  let x := vec2 s.time s.timeSinceEvent
  let y := s.toPrimaryVec
  obtain ⟨v1, e1, q1⟩ := conv (addScalar x (0 * h))
    (fun i => y i + ((((0 + 0 * 0) + 0 * 0) + 0 * 0) + 0 * 0)) h1
  obtain ⟨v2, e2, q2⟩ := conv (addScalar x (0.5 * h))
    (fun i => y i + ((((0 + 0.5 * (h * v1 i)) + 0 * 0) + 0 * 0) + 0 * 0)) (by rw [q1]; exact h2)
  obtain ⟨v3, e3, q3⟩ := conv (addScalar x (0.5 * h))
    (fun i => y i + ((((0 + 0 * (h * v1 i)) + 0.5 * (h * v2 i)) + 0 * 0) + 0 * 0))
    (by rw [q1, q2]; exact h3)
  obtain ⟨v4, e4, q4⟩ := conv (addScalar x (1 * h))
    (fun i => y i + ((((0 + 0 * (h * v1 i)) + 0 * (h * v2 i)) + 1 * (h * v3 i)) + 0 * 0))
    (by rw [q1, q2, q3]; exact h4)
  have key := rk4_forward e1 e2 e3 e4
  obtain ⟨d, hd, _⟩ := hG (State.fromVec (addScalar x h) (fun i => y i + ((((0 + 1 / 6 * (h * v1 i)) +
      1 / 3 * (h * v2 i)) + 1 / 3 * (h * v3 i)) + 1 / 6 * (h * v4 i))))
      (by
        show G (s.mass + ((((0 + 1 / 6 * (h * v1 6)) + 1 / 3 * (h * v2 6)) + 1 / 3 * (h * v3 6)) + 1 / 6 * (h * v4 6)))
        rw [q1, q2, q3, q4]; exact h5)
  refine ⟨d, ?_⟩
  unfold OneStep
  cases p.integrator
  simp only [Integrator.step, bind, Except.bind]
  rw [show RK4.step (convertedFunc p.system) (vec2 s.time s.timeSinceEvent) s.toPrimaryVec h = _
    from key]
  exact hd

end Post
