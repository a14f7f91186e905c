import Verif.Props.Integrator
import Verif.Lemmas.RKOrder
import Mathlib.Analysis.SpecialFunctions.ExpDeriv
import Mathlib.Analysis.Calculus.Deriv.Pi
/-! # C51: the error of one integration step is of fifth order -/

namespace Post
open Spec Flt Filter Topology Asymptotics

/-- The curve `Y` solves `y' = g(x, y)` near time zero, starting at `y`; all components of the
independent variable start at `x` and advance with time. -/
structure Spec.SolvesNear {m n : Nat} (g : (Fin m → ℝ) → (Fin n → ℝ) → (Fin n → ℝ))
    (x : Fin m → ℝ) (y : Fin n → ℝ) (Y : ℝ → Fin n → ℝ) : Prop where
  start : Y 0 = y
  slope : ∀ᶠ t in 𝓝 (0 : ℝ), HasDerivAt Y (g (shift x t) (Y t)) t

theorem shift_eq {m : Nat} (x : Fin m → ℝ) (k : ℝ) : shift x k = x + k • (fun _ => (1 : ℝ)) := by
  funext i; simp [shift]

theorem classicalRK4_eq {m n : Nat} (g : (Fin m → ℝ) → (Fin n → ℝ) → (Fin n → ℝ))
    (x : Fin m → ℝ) (y : Fin n → ℝ) (h : ℝ) :
    classicalRK4 g x y h = RKOrder.rk4At g (fun _ => 1) x y h := by
  simp only [classicalRK4, RKOrder.rk4At, shift_eq]

/-- If the right-hand side computes a continuous real function near the initial point, then for
small step sizes the step succeeds and is the classical Runge-Kutta step. -/
theorem rk4_near {m n : Nat} {f : (Fin m → XR) → (Fin n → XR) → Except Panic (Fin n → XR)}
    {g : (Fin m → ℝ) → (Fin n → ℝ) → (Fin n → ℝ)} {x : Fin m → ℝ} {y : Fin n → ℝ}
    (hf : ∀ᶠ z in 𝓝 (x, y), f (vfin z.1) (vfin z.2) = .ok (vfin (g z.1 z.2)))
    (hg : ContinuousAt (fun z : (Fin m → ℝ) × (Fin n → ℝ) => g z.1 z.2) (x, y)) :
    ∀ᶠ h in 𝓝 (0 : ℝ), RK4.step f (vfin x) (vfin y) (.fin h) =
      .ok (vfin (shift x h), vfin (classicalRK4 g x y h)) := by
  have base : ∀ (c : ℝ) (k : ℝ → Fin n → ℝ), Tendsto k (𝓝 0) (𝓝 (g x y)) →
      Tendsto (fun h : ℝ => (shift x (c * h), y + (c * h) • k h)) (𝓝 0) (𝓝 (x, y)) := by
    intro c k hk
    have hc : Tendsto (fun h : ℝ => c * h) (𝓝 0) (𝓝 0) := by
      have : Continuous fun h : ℝ => c * h := by fun_prop
      simpa using this.tendsto 0
    refine Tendsto.prodMk_nhds ?_ ?_
    · have := (hc.smul_const (fun _ : Fin m => (1 : ℝ))).const_add x
      simp only [zero_smul, add_zero] at this
      refine this.congr fun h => (shift_eq x _).symm
    · have := (hc.smul hk).const_add y
      simpa using this
  have stage : ∀ (c : ℝ) (k : ℝ → Fin n → ℝ), Tendsto k (𝓝 0) (𝓝 (g x y)) →
      Tendsto (fun h : ℝ => g (shift x (c * h)) (y + (c * h) • k h)) (𝓝 0) (𝓝 (g x y)) := by
    intro c k hk
    exact hg.tendsto.comp (base c k hk)
  have t1 : Tendsto (fun _ : ℝ => g x y) (𝓝 0) (𝓝 (g x y)) := tendsto_const_nhds
  have t2 := stage (1 / 2) _ t1
  have t3 := stage (1 / 2) _ t2
  filter_upwards [(base (1 / 2) _ t1).eventually hf, (base (1 / 2) _ t2).eventually hf,
    (base 1 _ t3).eventually hf] with h e2 e3 e4
  simp only [one_mul] at e4
  simp only [one_div_mul_eq_div] at e2 e3 e4
  exact C51_stages hf.self_of_nhds e2 e3 e4

/-- C51 (order).  Let the right-hand side be computed without failure, and be analytic, near the
initial point.  Then the error of one integration step of size `h` is at most `K |h|^5`, for all
small `h`, whatever the equation and its solution. -/
theorem C51_local_error {m n : Nat}
    {f : (Fin m → XR) → (Fin n → XR) → Except Panic (Fin n → XR)}
    {g : (Fin m → ℝ) → (Fin n → ℝ) → (Fin n → ℝ)} {x : Fin m → ℝ} {y : Fin n → ℝ}
    (hf : ∀ᶠ z in 𝓝 (x, y), f (vfin z.1) (vfin z.2) = .ok (vfin (g z.1 z.2)))
    (hg : AnalyticAt ℝ (fun z : (Fin m → ℝ) × (Fin n → ℝ) => g z.1 z.2) (x, y))
    {Y : ℝ → Fin n → ℝ} (hY : SolvesNear g x y Y) :
    ∃ K δ, 0 < δ ∧ ∀ h : ℝ, |h| < δ → ∃ y', RK4.step f (vfin x) (vfin y) (.fin h) =
      .ok (vfin (shift x h), vfin y') ∧ ∀ i, |y' i - Y h i| ≤ K * |h| ^ 5 := by
  have h1 := RKOrder.local_error_at (d := fun _ => (1 : ℝ)) hg hY.start (by
    filter_upwards [hY.slope] with t ht
    rw [← shift_eq]; exact ht)
  obtain ⟨K, hK⟩ := h1.bound
  obtain ⟨δ, hδ, hball⟩ := Metric.eventually_nhds_iff_ball.1
    (hK.and (rk4_near hf hg.continuousAt))
  refine ⟨K, δ, hδ, fun h hh => ?_⟩
  obtain ⟨b1, b2⟩ := hball h (by simpa using hh)
  refine ⟨_, b2, fun i => ?_⟩
  rw [classicalRK4_eq]
  have := (norm_le_pi_norm (RKOrder.rk4At g (fun _ => 1) x y h - Y h) i).trans b1
  rwa [norm_pow, Real.norm_eq_abs, Real.norm_eq_abs] at this

/-- The hypotheses are met by `y' = -y`, `y(0) = 1`, solved by the exponential function. -/
example : ∃ K δ, 0 < δ ∧ ∀ h : ℝ, |h| < δ → ∃ y', RK4.step (dX := 1) (dY := 1)
    (fun _ y => .ok fun i => -y i) (vfin fun _ => 0) (vfin fun _ => 1) (.fin h) =
      .ok (vfin (shift (fun _ => 0) h), vfin y') ∧
      ∀ i, |y' i - Real.exp (-h)| ≤ K * |h| ^ 5 := by
  refine C51_local_error (g := fun _ y => -y) (Eventually.of_forall fun _ => rfl) ?_
    (Y := fun t _ => Real.exp (-t)) ⟨by simp, Eventually.of_forall fun t => ?_⟩
  · exact analyticAt_snd.neg
  · rw [hasDerivAt_pi]
    intro i
    have := (Real.hasDerivAt_exp (-t)).comp t (hasDerivAt_neg t)
    rw [mul_neg, mul_one] at this
    exact this

end Post
