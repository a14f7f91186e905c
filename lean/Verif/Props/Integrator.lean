import Verif.Spec.Integrator
import Verif.Lemmas.RK
import Mathlib.Algebra.BigOperators.Fin
import Mathlib.LinearAlgebra.Pi
import Mathlib.Tactic.LinearCombination
import Mathlib.Tactic.Module
/-! # Properties of the integrator (C51), exact arithmetic -/

namespace Post
open Spec Flt

theorem addScalar_vfin {n : Nat} (x : Fin n → ℝ) (k : ℝ) :
    addScalar (vfin x) (.fin k) = vfin (shift x k) := rfl
theorem vadd_vfin {n : Nat} (x y : Fin n → ℝ) : vadd (vfin x) (vfin y) = vfin (x + y) := rfl
theorem vscale_vfin {n : Nat} (k : ℝ) (y : Fin n → ℝ) :
    vscale (.fin k) (vfin y) = vfin (k • y) := rfl
theorem zero_vfin {n : Nat} : (fun _ => 0 : Fin n → XR) = vfin (0 : Fin n → ℝ) := by
  funext i; simp [vfin, XR.fin_zero]

/-- the coefficients of RK4 as real numbers -/
noncomputable def rk4a (i j : Fin 4) : ℝ :=
  match i, j with
  | 1, 0 => 1 / 2 | 2, 1 => 1 / 2 | 3, 2 => 1 | _, _ => 0
noncomputable def rk4b (i : Fin 4) : ℝ :=
  match i with | 0 => 1 / 6 | 1 => 1 / 3 | 2 => 1 / 3 | 3 => 1 / 6
noncomputable def rk4c (i : Fin 4) : ℝ :=
  match i with | 0 => 0 | 1 => 1 / 2 | 2 => 1 / 2 | 3 => 1

theorem fin_half : (0.5 : XR) = .fin (1 / 2) := by
  rw [XR.fin_sci]; norm_num

theorem rk4_a (i j : Fin 4) : (RK4 : RungeKutta XR 4).a i j = .fin (rk4a i j) := by
  fin_cases i <;> fin_cases j <;> first | exact XR.fin_zero | exact fin_half | exact XR.fin_one
theorem rk4_b (i : Fin 4) : (RK4 : RungeKutta XR 4).b i = .fin (rk4b i) := by
  fin_cases i <;> simp only [RK4, rk4b] <;> rw [XR.fin_one, XR.fin_nat, XR.fin_div _ _ (by norm_num)]
theorem rk4_c (i : Fin 4) : (RK4 : RungeKutta XR 4).c i = .fin (rk4c i) := by
  fin_cases i <;> first | exact XR.fin_zero | exact fin_half | exact XR.fin_one

/-- C51 (textbook, one step).  If the right-hand side takes the real values `k1`, ..., `k4` at
the four points of the classical method, the step returns the classical result and advances every
component of the independent variable by the step size. -/
theorem C51_stages {m n : Nat} {f : (Fin m → XR) → (Fin n → XR) → Except Panic (Fin n → XR)}
    {x : Fin m → ℝ} {y k1 k2 k3 k4 : Fin n → ℝ} {h : ℝ}
    (h1 : f (vfin x) (vfin y) = .ok (vfin k1))
    (h2 : f (vfin (shift x (h / 2))) (vfin (y + (h / 2) • k1)) = .ok (vfin k2))
    (h3 : f (vfin (shift x (h / 2))) (vfin (y + (h / 2) • k2)) = .ok (vfin k3))
    (h4 : f (vfin (shift x h)) (vfin (y + h • k3)) = .ok (vfin k4)) :
    RK4.step f (vfin x) (vfin y) (.fin h) =
      .ok (vfin (shift x h), vfin (y + (h / 6) • (k1 + (2 : ℝ) • k2 + (2 : ℝ) • k3 + k4))) := by
  unfold RungeKutta.step
  simp only [finRange_four, List.foldlM_cons, List.foldlM_nil, RungeKutta.stage, List.map_cons,
    List.map_nil, vsum, List.foldl_cons, List.foldl_nil, rk4_a, rk4_b, rk4_c, XR.fin_mul,
    addScalar_vfin]
  simp only [zero_vfin, vscale_vfin, vadd_vfin, rk4a, rk4c]
  have e1 : f (vfin (shift x (0 * h))) (vfin (y + (0 + (0 : ℝ) • (0 : Fin n → ℝ) + (0 : ℝ) • (0 : Fin n → ℝ)
      + (0 : ℝ) • (0 : Fin n → ℝ) + (0 : ℝ) • (0 : Fin n → ℝ)))) = .ok (vfin k1) := by
    rw [← h1]; congr 2
    · funext i; simp [shift]
    · module
  simp only [e1, bind, Except.bind, vscale_vfin, setCol]
  simp (config := { decide := true }) only [if_true, if_false, zero_vfin, vscale_vfin, vadd_vfin]
  have e2 : f (vfin (shift x (1 / 2 * h))) (vfin (y + (0 + (1 / 2 : ℝ) • h • k1 + (0 : ℝ) • (0 : Fin n → ℝ)
      + (0 : ℝ) • (0 : Fin n → ℝ) + (0 : ℝ) • (0 : Fin n → ℝ)))) = .ok (vfin k2) := by
    rw [← h2]; congr 2
    · funext i; simp only [shift]; ring
    · module
  simp (config := { decide := true }) only [e2, setCol, if_true, if_false, zero_vfin, vscale_vfin,
    vadd_vfin]
  have e3 : f (vfin (shift x (1 / 2 * h))) (vfin (y + (0 + (0 : ℝ) • h • k1 + (1 / 2 : ℝ) • h • k2
      + (0 : ℝ) • (0 : Fin n → ℝ) + (0 : ℝ) • (0 : Fin n → ℝ)))) = .ok (vfin k3) := by
    rw [← h3]; congr 2
    · funext i; simp only [shift]; ring
    · module
  simp (config := { decide := true }) only [e3, setCol, if_true, if_false, zero_vfin, vscale_vfin,
    vadd_vfin]
  have e4 : f (vfin (shift x (1 * h))) (vfin (y + (0 + (0 : ℝ) • h • k1 + (0 : ℝ) • h • k2
      + (1 : ℝ) • h • k3 + (0 : ℝ) • (0 : Fin n → ℝ)))) = .ok (vfin k4) := by
    rw [← h4]; congr 2
    · funext i; simp only [shift]; ring
    · module
  simp (config := { decide := true }) only [e4, setCol, if_true, if_false, vscale_vfin, pure, Except.pure, rk4b,
    vadd_vfin, Except.ok.injEq, Prod.mk.injEq]
  refine ⟨trivial, ?_⟩
  congr 1
  module

/-- C51 (textbook).  For every right-hand side that computes a real function, in any dimension,
the step is the classical Runge-Kutta step. -/
theorem C51_textbook {m n : Nat} {f : (Fin m → XR) → (Fin n → XR) → Except Panic (Fin n → XR)}
    {g : (Fin m → ℝ) → (Fin n → ℝ) → (Fin n → ℝ)} (hf : Computes f g)
    (x : Fin m → ℝ) (y : Fin n → ℝ) (h : ℝ) :
    RK4.step f (vfin x) (vfin y) (.fin h) = .ok (vfin (shift x h), vfin (classicalRK4 g x y h)) :=
  C51_stages (hf _ _) (hf _ _) (hf _ _) (hf _ _)

/-- C51 (cubics).  If the right-hand side is a cubic polynomial of the (first component of the)
independent variable, one step of any size gives the exact solution: the value grows by the
difference of the antiderivative. -/
theorem C51_exact_for_cubics {m n : Nat} (c0 c1 c2 c3 : Fin n → ℝ)
    {f : (Fin (m + 1) → XR) → (Fin n → XR) → Except Panic (Fin n → XR)}
    (hf : Computes f fun x _ => c0 + (x 0) • c1 + (x 0 ^ 2) • c2 + (x 0 ^ 3) • c3)
    (x : Fin (m + 1) → ℝ) (y : Fin n → ℝ) (h : ℝ) :
    let P : ℝ → Fin n → ℝ := fun t =>
      t • c0 + (t ^ 2 / 2) • c1 + (t ^ 3 / 3) • c2 + (t ^ 4 / 4) • c3
    RK4.step f (vfin x) (vfin y) (.fin h) =
      .ok (vfin (shift x h), vfin (y + (P (x 0 + h) - P (x 0)))) := by
  intro P
  rw [C51_textbook hf]
  congr 3
  simp only [classicalRK4, shift, P]
  module

/-- C51 (linear systems).  For `y' = A y` one step multiplies by the Taylor polynomial of degree
four of the exponential of `h A`. -/
theorem C51_linear {m n : Nat} (A : (Fin n → ℝ) →ₗ[ℝ] (Fin n → ℝ))
    {f : (Fin m → XR) → (Fin n → XR) → Except Panic (Fin n → XR)}
    (hf : Computes f fun _ y => A y) (x : Fin m → ℝ) (y : Fin n → ℝ) (h : ℝ) :
    RK4.step f (vfin x) (vfin y) (.fin h) = .ok (vfin (shift x h),
      vfin (y + h • A y + (h ^ 2 / 2) • A (A y) + (h ^ 3 / 6) • A (A (A y))
        + (h ^ 4 / 24) • A (A (A (A y))))) := by
  rw [C51_textbook hf]
  congr 3
  simp only [classicalRK4, map_add, map_smul]
  module

/-- C51 (order conditions).  The coefficients used satisfy the conditions of an explicit
Runge-Kutta method of order four. -/
theorem C51_order_conditions : ∃ (a : Fin 4 → Fin 4 → ℝ) (b c : Fin 4 → ℝ),
    (∀ i j, (RK4 : RungeKutta XR 4).a i j = .fin (a i j)) ∧
    (∀ i, (RK4 : RungeKutta XR 4).b i = .fin (b i)) ∧
    (∀ i, (RK4 : RungeKutta XR 4).c i = .fin (c i)) ∧
    (∀ i j, i ≤ j → a i j = 0) ∧ (∀ i, c i = ∑ j, a i j) ∧
    (∑ i, b i = 1) ∧ (∑ i, b i * c i = 1 / 2) ∧
    (∑ i, b i * c i ^ 2 = 1 / 3) ∧ (∑ i, ∑ j, b i * a i j * c j = 1 / 6) ∧
    (∑ i, b i * c i ^ 3 = 1 / 4) ∧ (∑ i, ∑ j, b i * c i * a i j * c j = 1 / 8) ∧
    (∑ i, ∑ j, b i * a i j * c j ^ 2 = 1 / 12) ∧
    (∑ i, ∑ j, ∑ k, b i * a i j * a j k * c k = 1 / 24) := by
  refine ⟨rk4a, rk4b, rk4c, rk4_a, rk4_b, rk4_c, ?_, ?_, ?_⟩
  · intro i j hij
    fin_cases i <;> fin_cases j <;> first | rfl | (exact absurd hij (by decide))
  · intro i
    rw [Fin.sum_univ_four]
    fin_cases i <;> simp [rk4a, rk4c]
  · simp only [Fin.sum_univ_four, rk4a, rk4b, rk4c]
    norm_num

/-- C51 (phases).  One integration step of a phase from a state with real time, position,
velocity and mass, if it succeeds with real derivatives `k1`, ..., `k4` at the four points,
leads to the classical result for position, velocity and mass. -/
theorem C51_phase_step {p : Phase XR} {s s' : State XR} {t : Fin 2 → ℝ}
    {y k1 k2 k3 k4 : Fin 7 → ℝ} {h : ℝ}
    (ht : vec2 s.time s.timeSinceEvent = vfin t) (hy : s.toPrimaryVec = vfin y)
    (h1 : ∃ d, p.system (State.fromVec (vfin t) (vfin y)) = .ok d ∧
      d.toDifferentialsVector = vfin k1)
    (h2 : ∃ d, p.system (State.fromVec (vfin (shift t (h / 2))) (vfin (y + (h / 2) • k1))) = .ok d ∧
      d.toDifferentialsVector = vfin k2)
    (h3 : ∃ d, p.system (State.fromVec (vfin (shift t (h / 2))) (vfin (y + (h / 2) • k2))) = .ok d ∧
      d.toDifferentialsVector = vfin k3)
    (h4 : ∃ d, p.system (State.fromVec (vfin (shift t h)) (vfin (y + h • k3))) = .ok d ∧
      d.toDifferentialsVector = vfin k4)
    (hs : OneStep p (.fin h) s s') :
    vec2 s'.time s'.timeSinceEvent = vfin (shift t h) ∧
    s'.toPrimaryVec = vfin (y + (h / 6) • (k1 + (2 : ℝ) • k2 + (2 : ℝ) • k3 + k4)) := by
  have conv : ∀ {t : Fin 2 → ℝ} {y k : Fin 7 → ℝ},
      (∃ d, p.system (State.fromVec (vfin t) (vfin y)) = .ok d ∧
        d.toDifferentialsVector = vfin k) →
      convertedFunc p.system (vfin t) (vfin y) = .ok (vfin k) := by
    rintro t y k ⟨d, hd, hk⟩
    simp [convertedFunc, hd, hk, bind, Except.bind, pure, Except.pure]
  have hstep := C51_stages (conv h1) (conv h2) (conv h3) (conv h4)
  obtain ⟨z, hz, hf⟩ := Integrator.step_ok hs
  rw [ht, hy] at hz
  rw [hstep] at hz
  injection hz with hz
  injection hz with hz1 hz2
  have hp := Phase.system_primary hf
  have ht0 : s.time = .fin (t 0) := congrFun ht 0
  have ht1 : s.timeSinceEvent = .fin (t 1) := congrFun ht 1
  constructor
  · funext i
    fin_cases i
    · show s'.time = _
      rw [hp.1, ht0]; rfl
    · show s'.timeSinceEvent = _
      rw [hp.2.1, ht1]; rfl
  · rw [hz2]
    unfold State.toPrimaryVec
    rw [hp.2.2.1, hp.2.2.2.1, hp.2.2.2.2]
    funext i
    fin_cases i <;> rfl

/-- The function `y' = -y` is computed without failure: `C51_textbook` applies to it. -/
example : Computes (m := 1) (n := 1) (fun _ y => .ok fun i => -y i) (fun _ y => -y) :=
  fun _ _ => rfl

end Post
