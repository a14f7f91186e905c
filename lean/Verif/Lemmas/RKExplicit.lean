import Verif.Lemmas.RKOrder
import Mathlib.Analysis.Complex.Schwarz
import Mathlib.Analysis.Complex.Liouville
import Mathlib.Analysis.Complex.CauchyIntegral
import Mathlib.Analysis.Analytic.Order
import Mathlib.Analysis.ODE.ExistUnique
import Mathlib.Analysis.Calculus.FDeriv.Analytic
import Mathlib.Analysis.Calculus.ContDiff.RestrictScalars
/-! # The local error of the classical Runge-Kutta method, with explicit constants

Pure analysis: no reference to the program.  The right-hand side `f` is analytic on complex balls of
radius `d` around the solution and bounded there by `d / T`; the step `h` is smaller than `T`.  Then one
step of the method differs from the solution by at most `7 d (h / T)^5`. -/

namespace Post.RKExplicit
open Asymptotics Filter Topology Metric Set

variable {E : Type*} [NormedAddCommGroup E] [NormedSpace ℂ E] [CompleteSpace E]

/-- The derivatives of a solution of `x' = f(x)`: the `k+1`-st derivative is `lie f k (x t)`. -/
noncomputable def lie (f : E → E) : ℕ → E → E
  | 0 => f
  | k + 1 => fun z => fderiv ℂ (lie f k) z (f z)

theorem lie_analytic {f : E → E} {z : E} (hf : AnalyticAt ℂ f z) (k : ℕ) :
    AnalyticAt ℂ (lie f k) z := by
  induction k with
  | zero => exact hf
  | succ k ih =>
    have h := (ContinuousLinearMap.id ℂ (E →L[ℂ] E)).analyticAt_bilinear (fderiv ℂ (lie f k) z, f z)
    exact h.comp₂ ih.fderiv hf

theorem lie_bound {f : E → E} {y : E} {d T : ℝ} (hd : 0 < d) (hT : 0 < T)
    (hf : ∀ z ∈ closedBall y d, AnalyticAt ℂ f z) (hM : ∀ z ∈ closedBall y d, ‖f z‖ ≤ d / T)
    {n : ℕ} (hn : 0 < n) (k : ℕ) (hk : k ≤ n) :
    ∀ z ∈ closedBall y (d - k * (d / n)), ‖lie f k z‖ ≤ d / T * (n / T) ^ k := by
  have hn' : (0 : ℝ) < n := by exact_mod_cast hn
  induction k with
  | zero =>
    intro z hz
    simp only [Nat.cast_zero, zero_mul, sub_zero] at hz
    simpa [lie] using hM z hz
  | succ k ih =>
    intro z hz
    have ih := ih (by omega)
    have hzd : dist z y ≤ d - (k + 1) * (d / n) := by
      simpa using hz
    have hdn : 0 < d / n := by positivity
    have hball : closedBall y (d - k * (d / n)) ⊆ closedBall y d := by
      refine closedBall_subset_closedBall ?_
      have : 0 ≤ (k : ℝ) * (d / n) := by positivity
      linarith
    have hz' : z ∈ closedBall y d := by
      refine hball ?_
      rw [mem_closedBall]
      nlinarith
    have hr : 0 < T / n := by positivity
    -- the line through `z` in the direction `f z`
    have hin : ∀ τ : ℂ, ‖τ‖ ≤ T / n → z + τ • f z ∈ closedBall y (d - k * (d / n)) := by
      intro τ hτ
      rw [mem_closedBall, dist_eq_norm, show z + τ • f z - y = (z - y) + τ • f z by abel]
      have h1 : ‖τ • f z‖ ≤ T / n * (d / T) := by
        rw [norm_smul]
        exact mul_le_mul hτ (hM z hz') (norm_nonneg _) hr.le
      have h2 : T / n * (d / T) = d / n := by field_simp
      rw [dist_eq_norm] at hzd
      have := norm_add_le (z - y) (τ • f z)
      linarith
    have hline : ∀ τ : ℂ, HasDerivAt (fun τ : ℂ => z + τ • f z) (f z) τ := by
      intro τ
      simpa using ((hasDerivAt_id τ).smul_const (f z)).const_add z
    have hdiff : ∀ τ : ℂ, ‖τ‖ ≤ T / n → DifferentiableAt ℂ (fun τ : ℂ => lie f k (z + τ • f z)) τ := by
      intro τ hτ
      have h1 := (lie_analytic (hf _ (hball (hin τ hτ))) k).differentiableAt
      exact h1.comp τ (hline τ).differentiableAt
    have hdc : DiffContOnCl ℂ (fun τ : ℂ => lie f k (z + τ • f z)) (ball 0 (T / n)) := by
      refine DifferentiableOn.diffContOnCl fun τ hτ => (hdiff τ ?_).differentiableWithinAt
      have := closure_ball_subset_closedBall hτ
      simpa using this
    have hder : deriv (fun τ : ℂ => lie f k (z + τ • f z)) 0 = lie f (k + 1) z := by
      have h1 := (lie_analytic (hf z hz') k).differentiableAt.hasFDerivAt
      have h2 : HasFDerivAt (lie f k) (fderiv ℂ (lie f k) z) (z + (0 : ℂ) • f z) := by
        simpa using h1
      exact (h2.comp_hasDerivAt (0 : ℂ) (hline 0)).deriv
    have := Complex.norm_deriv_le_of_forall_mem_sphere_norm_le hr hdc (C := d / T * (n / T) ^ k)
      fun τ hτ => ih _ (hin τ (by simpa using (mem_sphere_zero_iff_norm.1 hτ).le))
    rw [hder] at this
    refine this.trans (le_of_eq ?_)
    rw [pow_succ]
    field_simp

theorem lie_bound_centre {f : E → E} {y : E} {d T : ℝ} (hd : 0 < d) (hT : 0 < T)
    (hf : ∀ z ∈ closedBall y d, AnalyticAt ℂ f z) (hM : ∀ z ∈ closedBall y d, ‖f z‖ ≤ d / T)
    {n : ℕ} (hn : 0 < n) : ‖lie f n y‖ ≤ d / T * (n / T) ^ n := by
  refine lie_bound hd hT hf hM hn n le_rfl y ?_
  have : (0 : ℝ) < n := by exact_mod_cast hn
  rw [mem_closedBall, dist_self]
  have : (n : ℝ) * (d / n) = d := by field_simp
  linarith

theorem lie_chain {f : E → E} {x : ℝ → E} {t : ℝ} (hf : AnalyticAt ℂ f (x t))
    (hx : HasDerivAt x (f (x t)) t) (k : ℕ) :
    HasDerivAt (fun t => lie f k (x t)) (lie f (k + 1) (x t)) t := by
  have h1 := (lie_analytic hf k).differentiableAt.hasFDerivAt.restrictScalars ℝ
  exact h1.comp_hasDerivAt t hx

/-- integration of a bound -/
theorem integrate_bound {z z' : ℝ → E} {h c : ℝ} {n : ℕ}
    (hz : ∀ t ∈ Icc 0 h, HasDerivAt z (z' t) t) (h0 : z 0 = 0)
    (hb : ∀ t ∈ Icc 0 h, ‖z' t‖ ≤ c * t ^ n) :
    ∀ t ∈ Icc 0 h, ‖z t‖ ≤ c / (n + 1) * t ^ (n + 1) := by
  intro t ht
  have hn : ((n : ℝ) + 1) ≠ 0 := by positivity
  refine image_norm_le_of_norm_deriv_right_le_deriv_boundary (f := z) (f' := z') (a := 0) (b := h)
    (B := fun t => c / (n + 1) * t ^ (n + 1)) (B' := fun t => c * t ^ n)
    (fun s hs => (hz s hs).continuousAt.continuousWithinAt)
    (fun s hs => (hz s ⟨hs.1, hs.2.le⟩).hasDerivWithinAt) (by simp [h0]) (fun s => ?_)
    (fun s hs => hb s ⟨hs.1, hs.2.le⟩) ht
  have := (hasDerivAt_pow (n + 1) s).const_mul (c / (n + 1))
  refine this.congr_deriv ?_
  rw [Nat.add_sub_cancel]
  push_cast
  field_simp

/-- The Taylor polynomial of degree four of the solution through `y`, for complex times. -/
noncomputable def taylor4 (f : E → E) (y : E) (h : ℂ) : E :=
  y + h • f y + (h ^ 2 / 2) • lie f 1 y + (h ^ 3 / 6) • lie f 2 y + (h ^ 4 / 24) • lie f 3 y

omit [CompleteSpace E] in
theorem hasDerivAt_cpow_smul (n : ℕ) (c : E) (t : ℝ) :
    HasDerivAt (fun t : ℝ => ((t : ℂ) ^ (n + 1) / (n + 1)) • c) (((t : ℂ) ^ n) • c) t := by
  have h1 : HasDerivAt (fun t : ℝ => (t : ℂ)) 1 t := Complex.ofRealCLM.hasDerivAt
  have h2 := ((h1.pow (n + 1)).div_const ((n : ℂ) + 1)).smul_const c
  refine h2.congr_deriv ?_
  have hn : ((n : ℂ) + 1) ≠ 0 := by exact_mod_cast Nat.succ_ne_zero n
  congr 1
  rw [Nat.add_sub_cancel]
  push_cast
  field_simp

/-- Taylor's theorem for the solution. -/
theorem taylor_error {f : E → E} {x : ℝ → E} {h B : ℝ}
    (hf : ∀ t ∈ Icc 0 h, AnalyticAt ℂ f (x t)) (hx : ∀ t ∈ Icc 0 h, HasDerivAt x (f (x t)) t)
    (hB : ∀ t ∈ Icc 0 h, ‖lie f 4 (x t)‖ ≤ B) :
    ∀ t ∈ Icc 0 h, ‖x t - taylor4 f (x 0) t‖ ≤ B / 120 * t ^ 5 := by
  set y := x 0 with hy
  have c0 : ∀ (c : E) (t : ℝ), HasDerivAt (fun t : ℝ => (t : ℂ) • c) c t := by
    intro c t
    have := hasDerivAt_cpow_smul 0 c t
    simpa using this
  have c1 : ∀ (c : E) (t : ℝ), HasDerivAt (fun t : ℝ => ((t : ℂ) ^ 2 / 2) • c) ((t : ℂ) • c) t := by
    intro c t
    have := hasDerivAt_cpow_smul 1 c t
    norm_num at this
    exact this
  have c2 : ∀ (c : E) (t : ℝ), HasDerivAt (fun t : ℝ => ((t : ℂ) ^ 3 / 6) • c)
      (((t : ℂ) ^ 2 / 2) • c) t := by
    intro c t
    have := hasDerivAt_cpow_smul 2 ((1 / 2 : ℂ) • c) t
    norm_num [smul_smul] at this
    refine (this.congr_deriv ?_).congr_of_eventuallyEq (Eventually.of_forall fun s => ?_)
    · congr 1
      ring
    · simp only
      congr 1
      ring
  have c3 : ∀ (c : E) (t : ℝ), HasDerivAt (fun t : ℝ => ((t : ℂ) ^ 4 / 24) • c)
      (((t : ℂ) ^ 3 / 6) • c) t := by
    intro c t
    have := hasDerivAt_cpow_smul 3 ((1 / 6 : ℂ) • c) t
    norm_num [smul_smul] at this
    refine (this.congr_deriv ?_).congr_of_eventuallyEq (Eventually.of_forall fun s => ?_)
    · congr 1
      ring
    · simp only
      congr 1
      ring
  -- the remainders of the derivatives
  have e3 := integrate_bound (z := fun t => lie f 3 (x t) - lie f 3 y) (z' := fun t => lie f 4 (x t))
    (n := 0) (c := B) (h := h) (fun t ht => (lie_chain (hf t ht) (hx t ht) 3).sub_const _)
    (by simp [hy]) (fun t ht => by simpa using hB t ht)
  have e2 := integrate_bound (z := fun t => lie f 2 (x t) - (lie f 2 y + (t : ℂ) • lie f 3 y))
    (n := 1) (h := h)
    (fun t ht => (lie_chain (hf t ht) (hx t ht) 2).sub ((c0 _ t).const_add _))
    (by simp [hy]) e3
  have e1 := integrate_bound (z := fun t => lie f 1 (x t) - (lie f 1 y + (t : ℂ) • lie f 2 y +
      ((t : ℂ) ^ 2 / 2) • lie f 3 y)) (n := 2) (h := h)
    (fun t ht => ((lie_chain (hf t ht) (hx t ht) 1).sub
      (((c0 (lie f 2 y) t).const_add (lie f 1 y)).add (c1 (lie f 3 y) t))))
    (by simp [hy]) e2
  have e0 := integrate_bound (z := fun t => f (x t) - (f y + (t : ℂ) • lie f 1 y +
      ((t : ℂ) ^ 2 / 2) • lie f 2 y + ((t : ℂ) ^ 3 / 6) • lie f 3 y)) (n := 3) (h := h)
    (fun t ht => ((lie_chain (hf t ht) (hx t ht) 0).sub
      ((((c0 (lie f 1 y) t).const_add (f y)).add (c1 (lie f 2 y) t)).add (c2 (lie f 3 y) t))))
    (by simp [hy]) e1
  have e := integrate_bound (z := fun t => x t - taylor4 f y t) (n := 4) (h := h)
    (fun t ht => ((hx t ht).sub
      (((((c0 (f y) t).const_add y).add (c1 (lie f 1 y) t)).add (c2 (lie f 2 y) t)).add
        (c3 (lie f 3 y) t))))
    (by simp [hy, taylor4]) e0
  intro t ht
  refine (e t ht).trans (le_of_eq ?_)
  push_cast
  ring

/-- The classical Runge-Kutta step, for complex step sizes. -/
noncomputable def rk4C (f : E → E) (y : E) (h : ℂ) : E :=
  let k1 := f y
  let k2 := f (y + (h / 2) • k1)
  let k3 := f (y + (h / 2) • k2)
  let k4 := f (y + h • k3)
  y + (h / 6) • (k1 + (2 : ℂ) • k2 + (2 : ℂ) • k3 + k4)

theorem rk4C_ofReal (f : E → E) (y : E) (h : ℝ) : rk4C f y h = RKOrder.rk4 f y h := by
  have e : ∀ (c : ℝ) (v : E), c • v = (c : ℂ) • v := fun c v => (Complex.coe_smul c v).symm
  simp only [rk4C, RKOrder.rk4, e]
  push_cast
  rfl

theorem stage_mem {y k : E} {h : ℂ} {d T : ℝ} (hT : 0 < T) (hd : 0 < d) (hk : ‖k‖ ≤ d / T)
    (hh : ‖h‖ ≤ T) : y + h • k ∈ closedBall y d := by
  rw [mem_closedBall, dist_eq_norm, add_sub_cancel_left, norm_smul]
  calc ‖h‖ * ‖k‖ ≤ T * (d / T) := mul_le_mul hh hk (norm_nonneg _) hT.le
    _ = d := by field_simp

theorem half_le {h : ℂ} {T : ℝ} (hh : ‖h‖ ≤ T) : ‖h / 2‖ ≤ T := by
  rw [norm_div, Complex.norm_ofNat]
  have := norm_nonneg h
  linarith

section
variable {f : E → E} {y : E} {d T : ℝ} (hd : 0 < d) (hT : 0 < T)
  (hf : ∀ z ∈ closedBall y d, AnalyticAt ℂ f z) (hM : ∀ z ∈ closedBall y d, ‖f z‖ ≤ d / T)
include hd hT hf hM

/-- The complex Runge-Kutta step stays in the ball and is differentiable. -/
theorem rk4C_facts {h : ℂ} (hh : ‖h‖ ≤ T) :
    DifferentiableAt ℂ (rk4C f y) h ∧ ‖rk4C f y h - y‖ ≤ d := by
  have hy : y ∈ closedBall y d := mem_closedBall_self hd.le
  have b1 := hM y hy
  have m2 := stage_mem (y := y) hT hd b1 (half_le hh)
  have b2 := hM _ m2
  have m3 := stage_mem (y := y) hT hd b2 (half_le hh)
  have b3 := hM _ m3
  have m4 := stage_mem (y := y) hT hd b3 hh
  have b4 := hM _ m4
  have hhalf : DifferentiableAt ℂ (fun h : ℂ => h / 2) h := differentiableAt_id.div_const 2
  have d1 : DifferentiableAt ℂ (fun h : ℂ => y + (h / 2) • f y) h := (hhalf.smul_const _).const_add _
  have d2 : DifferentiableAt ℂ (fun h : ℂ => f (y + (h / 2) • f y)) h :=
    DifferentiableAt.comp h (hf _ m2).differentiableAt d1
  have d3 : DifferentiableAt ℂ (fun h : ℂ => f (y + (h / 2) • f (y + (h / 2) • f y))) h :=
    DifferentiableAt.comp h (g := f) (f := fun h : ℂ => y + (h / 2) • f (y + (h / 2) • f y))
      (hf _ m3).differentiableAt ((hhalf.smul d2).const_add _)
  have d4 : DifferentiableAt ℂ
      (fun h : ℂ => f (y + h • f (y + (h / 2) • f (y + (h / 2) • f y)))) h :=
    DifferentiableAt.comp h (g := f)
      (f := fun h : ℂ => y + h • f (y + (h / 2) • f (y + (h / 2) • f y)))
      (hf _ m4).differentiableAt ((differentiableAt_id.smul d3).const_add _)
  constructor
  · exact ((differentiableAt_id.div_const 6).smul
      ((((d2.const_smul (2 : ℂ)).const_add (f y)).add (d3.const_smul (2 : ℂ))).add d4)).const_add y
  · simp only [rk4C]
    rw [add_sub_cancel_left, norm_smul, norm_div, Complex.norm_ofNat]
    set k1 := f y
    set k2 := f (y + (h / 2) • k1)
    set k3 := f (y + (h / 2) • k2)
    set k4 := f (y + h • k3)
    have t1 := norm_add_le (k1 + (2 : ℂ) • k2 + (2 : ℂ) • k3) k4
    have t2 := norm_add_le (k1 + (2 : ℂ) • k2) ((2 : ℂ) • k3)
    have t3 := norm_add_le k1 ((2 : ℂ) • k2)
    rw [norm_smul, Complex.norm_ofNat] at t2 t3
    have t : ‖k1 + (2 : ℂ) • k2 + (2 : ℂ) • k3 + k4‖ ≤ 6 * (d / T) := by linarith
    calc ‖h‖ / 6 * ‖k1 + (2 : ℂ) • k2 + (2 : ℂ) • k3 + k4‖ ≤ T / 6 * (6 * (d / T)) :=
          mul_le_mul (by linarith) t (norm_nonneg _) (by positivity)
      _ = d := by field_simp

/-- The bound of the Taylor polynomial. -/
theorem taylor4_bound {h : ℂ} (hh : ‖h‖ ≤ T) : ‖taylor4 f y h - y‖ ≤ 10 / 3 * d := by
  have b0 := hM y (mem_closedBall_self hd.le)
  have b1 := lie_bound_centre hd hT hf hM (n := 1) (by norm_num)
  have b2 := lie_bound_centre hd hT hf hM (n := 2) (by norm_num)
  have b3 := lie_bound_centre hd hT hf hM (n := 3) (by norm_num)
  have n0 : ‖h • f y‖ ≤ T * (d / T) := by
    rw [norm_smul]
    exact mul_le_mul hh b0 (norm_nonneg _) hT.le
  have n1 : ‖(h ^ 2 / 2) • lie f 1 y‖ ≤ T ^ 2 / 2 * (d / T * ((1 : ℕ) / T) ^ 1) := by
    rw [norm_smul, norm_div, norm_pow, Complex.norm_ofNat]
    gcongr
  have n2 : ‖(h ^ 3 / 6) • lie f 2 y‖ ≤ T ^ 3 / 6 * (d / T * ((2 : ℕ) / T) ^ 2) := by
    rw [norm_smul, norm_div, norm_pow, Complex.norm_ofNat]
    gcongr
  have n3 : ‖(h ^ 4 / 24) • lie f 3 y‖ ≤ T ^ 4 / 24 * (d / T * ((3 : ℕ) / T) ^ 3) := by
    rw [norm_smul, norm_div, norm_pow, Complex.norm_ofNat]
    gcongr
  have e0 : T * (d / T) = d := by field_simp
  have e1 : T ^ 2 / 2 * (d / T * ((1 : ℕ) / T) ^ 1) = d / 2 := by push_cast; field_simp
  have e2 : T ^ 3 / 6 * (d / T * ((2 : ℕ) / T) ^ 2) = 2 / 3 * d := by push_cast; field_simp; norm_num
  have e3 : T ^ 4 / 24 * (d / T * ((3 : ℕ) / T) ^ 3) = 9 / 8 * d := by push_cast; field_simp; norm_num
  have t : taylor4 f y h - y = h • f y + (h ^ 2 / 2) • lie f 1 y + (h ^ 3 / 6) • lie f 2 y +
      (h ^ 4 / 24) • lie f 3 y := by
    simp only [taylor4]
    abel
  rw [t]
  have t1 := norm_add_le (h • f y + (h ^ 2 / 2) • lie f 1 y + (h ^ 3 / 6) • lie f 2 y)
    ((h ^ 4 / 24) • lie f 3 y)
  have t2 := norm_add_le (h • f y + (h ^ 2 / 2) • lie f 1 y) ((h ^ 3 / 6) • lie f 2 y)
  have t3 := norm_add_le (h • f y) ((h ^ 2 / 2) • lie f 1 y)
  linarith

end

/-- An analytic function that is of order `n` along the positive reals is of order `n`. -/
theorem order_of_real {F : ℂ → E} (hF : AnalyticAt ℂ F 0) {K : ℝ} {n : ℕ}
    (hK : ∀ᶠ h : ℝ in 𝓝[>] (0 : ℝ), ‖F (h : ℂ)‖ ≤ K * h ^ n) :
    ∃ G, AnalyticAt ℂ G 0 ∧ ∀ᶠ z in 𝓝 (0 : ℂ), F z = z ^ n • G z := by
  suffices h : (n : ℕ∞) ≤ analyticOrderAt F 0 by
    obtain ⟨g, h1, h2⟩ := (natCast_le_analyticOrderAt hF).1 h
    exact ⟨g, h1, by simpa using h2⟩
  by_contra hlt
  rw [not_le] at hlt
  obtain ⟨m, hm⟩ := ENat.ne_top_iff_exists.1 (ne_top_of_lt hlt)
  rw [← hm] at hlt
  have hmn : m < n := by exact_mod_cast hlt
  obtain ⟨g, hg, hg0, hev⟩ := hF.analyticOrderAt_eq_natCast.1 hm.symm
  apply hg0
  have hto : Tendsto (fun h : ℝ => (h : ℂ)) (𝓝[>] (0 : ℝ)) (𝓝 (0 : ℂ)) := by
    have : Tendsto (fun h : ℝ => (h : ℂ)) (𝓝 (0 : ℝ)) (𝓝 ((0 : ℝ) : ℂ)) :=
      Complex.continuous_ofReal.tendsto 0
    simpa using this.mono_left nhdsWithin_le_nhds
  have h1 : Tendsto (fun h : ℝ => g h) (𝓝[>] (0 : ℝ)) (𝓝 (g 0)) := hg.continuousAt.tendsto.comp hto
  have h2 : Tendsto (fun h : ℝ => g h) (𝓝[>] (0 : ℝ)) (𝓝 0) := by
    have hb : Tendsto (fun h : ℝ => |K| * h ^ (n - m)) (𝓝[>] (0 : ℝ)) (𝓝 0) := by
      have : Continuous fun h : ℝ => |K| * h ^ (n - m) := by fun_prop
      have := (this.tendsto 0).mono_left (nhdsWithin_le_nhds (s := Ioi (0 : ℝ)))
      simpa [zero_pow (Nat.sub_ne_zero_of_lt hmn)] using this
    refine squeeze_zero_norm' ?_ hb
    filter_upwards [hK, hto.eventually hev, self_mem_nhdsWithin] with h k1 k2 k3
    have hpos : (0 : ℝ) < h := k3
    rw [k2, sub_zero, norm_smul, norm_pow, Complex.norm_real, Real.norm_of_nonneg hpos.le] at k1
    have hp : 0 < h ^ m := by positivity
    refine le_of_mul_le_mul_left (k1.trans ?_) hp
    have e : h ^ m * (|K| * h ^ (n - m)) = |K| * h ^ n := by
      rw [mul_left_comm, ← pow_add, Nat.add_sub_of_le hmn.le]
    rw [e]
    exact mul_le_mul_of_nonneg_right (le_abs_self K) (by positivity)
  exact tendsto_nhds_unique h1 h2

/-- The Runge-Kutta step and the Taylor polynomial agree up to fifth order. -/
theorem rk4C_taylor {f : E → E} {y : E} (hf : AnalyticAt ℂ f y) :
    ∃ K : ℝ, ∀ᶠ h : ℝ in 𝓝[>] (0 : ℝ), ‖rk4C f y (h : ℂ) - taylor4 f y (h : ℂ)‖ ≤ K * h ^ 5 := by
  have hfr : AnalyticAt ℝ f y := hf.restrictScalars
  obtain ⟨x, hx0, ε, hε, hx⟩ :=
    ContDiffAt.exists_forall_mem_closedBall_exists_eq_forall_mem_Ioo_hasDerivAt₀
      (hfr.contDiffAt (n := 1)) 0
  rw [zero_sub, zero_add] at hx
  have hxn : ∀ᶠ t in 𝓝 (0 : ℝ), HasDerivAt x (f (x t)) t := by
    filter_upwards [Ioo_mem_nhds (neg_lt_zero.2 hε) hε] with t ht using hx t ht
  obtain ⟨a, A, B, C, ht⟩ := RKOrder.taylor_of_analytic hfr
  obtain ⟨K1, hK1⟩ := (RKOrder.local_error ht hx0 hxn).bound
  -- the fifth derivative is bounded near the initial value
  have hxc : Tendsto x (𝓝 0) (𝓝 y) := by
    have := hxn.self_of_nhds.continuousAt.tendsto
    rwa [hx0] at this
  have hl : ∀ᶠ z in 𝓝 y, ‖lie f 4 z‖ < ‖lie f 4 y‖ + 1 :=
    (lie_analytic hf 4).continuousAt.norm.eventually_lt continuousAt_const (by simp)
  obtain ⟨δ, hδ, hball⟩ := Metric.eventually_nhds_iff_ball.1
    ((hxc.eventually (hl.and hf.eventually_analyticAt)).and hxn)
  refine ⟨K1 + (‖lie f 4 y‖ + 1) / 120, ?_⟩
  filter_upwards [hK1.filter_mono nhdsWithin_le_nhds, self_mem_nhdsWithin,
    mem_nhdsWithin_of_mem_nhds (Iio_mem_nhds hδ)] with h h1 h2 h3
  have hpos : (0 : ℝ) < h := h2
  have hin : ∀ t ∈ Icc 0 h, t ∈ ball (0 : ℝ) δ := by
    intro t ht
    rw [mem_ball_zero_iff, Real.norm_of_nonneg ht.1]
    exact ht.2.trans_lt h3
  have te := taylor_error (f := f) (x := x) (h := h) (B := ‖lie f 4 y‖ + 1)
    (fun t ht => (hball t (hin t ht)).1.2) (fun t ht => (hball t (hin t ht)).2)
    (fun t ht => (hball t (hin t ht)).1.1.le) h ⟨hpos.le, le_rfl⟩
  rw [hx0] at te
  rw [norm_pow, Real.norm_of_nonneg hpos.le] at h1
  rw [rk4C_ofReal, show RKOrder.rk4 f y h - taylor4 f y h =
    (RKOrder.rk4 f y h - x h) + (x h - taylor4 f y h) by abel]
  refine (norm_add_le _ _).trans ?_
  rw [add_mul]
  exact add_le_add h1 te

/-- **The local error, with an explicit constant.** -/
theorem rk4_error {f : E → E} {x : ℝ → E} {d T h : ℝ} (hd : 0 < d) (hh : 0 ≤ h) (hhT : h < T)
    (hx : ∀ t ∈ Icc 0 h, HasDerivAt x (f (x t)) t)
    (hf : ∀ t ∈ Icc 0 h, ∀ z ∈ closedBall (x t) d, AnalyticAt ℂ f z)
    (hM : ∀ t ∈ Icc 0 h, ∀ z ∈ closedBall (x t) d, ‖f z‖ ≤ d / T) :
    ‖RKOrder.rk4 f (x 0) h - x h‖ ≤ 7 * d * (h / T) ^ 5 := by
  have hT : 0 < T := hh.trans_lt hhT
  have h0 : (0 : ℝ) ∈ Icc 0 h := ⟨le_rfl, hh⟩
  set y := x 0 with hy
  -- the solution and its Taylor polynomial
  have te := taylor_error (f := f) (x := x) (h := h) (B := d / T * ((4 : ℕ) / T) ^ 4)
    (fun t ht => hf t ht _ (mem_closedBall_self hd.le)) hx
    (fun t ht => lie_bound_centre hd hT (hf t ht) (hM t ht) (by norm_num)) h ⟨hh, le_rfl⟩
  -- the Taylor polynomial and the Runge-Kutta step
  have hdiff : ∀ z : ℂ, ‖z‖ ≤ T → DifferentiableAt ℂ (fun z => rk4C f y z - taylor4 f y z) z := by
    intro z hz
    refine (rk4C_facts hd hT (hf 0 h0) (hM 0 h0) hz).1.sub ?_
    unfold taylor4
    fun_prop
  have hdo : DifferentiableOn ℂ (fun z => rk4C f y z - taylor4 f y z) (ball 0 T) := by
    intro z hz
    rw [mem_ball_zero_iff] at hz
    exact (hdiff z hz.le).differentiableWithinAt
  have hzero : rk4C f y 0 - taylor4 f y 0 = 0 := by simp [rk4C, taylor4]
  have hmaps : MapsTo (fun z => rk4C f y z - taylor4 f y z) (ball 0 T)
      (closedBall ((fun z => rk4C f y z - taylor4 f y z) 0) (13 / 3 * d)) := by
    intro z hz
    rw [mem_ball_zero_iff] at hz
    simp only [hzero, mem_closedBall_zero_iff]
    have b1 := (rk4C_facts hd hT (hf 0 h0) (hM 0 h0) hz.le).2
    have b2 := taylor4_bound hd hT (hf 0 h0) (hM 0 h0) hz.le
    have e : rk4C f y z - taylor4 f y z = (rk4C f y z - y) - (taylor4 f y z - y) := by abel
    rw [e]
    refine (norm_sub_le _ _).trans ?_
    linarith
  have han : AnalyticAt ℂ (fun z => rk4C f y z - taylor4 f y z) 0 :=
    hdo.analyticAt (ball_mem_nhds 0 hT)
  obtain ⟨K, hK⟩ := rk4C_taylor (hf 0 h0 y (mem_closedBall_self hd.le))
  obtain ⟨G, hG, hGe⟩ := order_of_real han hK
  have hlit : (fun z => (rk4C f y z - taylor4 f y z) - (rk4C f y 0 - taylor4 f y 0)) =o[𝓝 (0 : ℂ)]
      fun w : ℂ => ‖w - 0‖ ^ 4 := by
    have h1 : (fun z : ℂ => z ^ 5 • G z) =o[𝓝 (0 : ℂ)] fun w : ℂ => ‖w - 0‖ ^ 4 := by
      have h2 : (fun z : ℂ => z • G z) =o[𝓝 (0 : ℂ)] fun _ => (1 : ℝ) := by
        rw [isLittleO_one_iff]
        have : ContinuousAt (fun z : ℂ => z • G z) 0 := continuousAt_id.smul hG.continuousAt
        simpa using this.tendsto
      have h3 : (fun z : ℂ => z ^ 4) =O[𝓝 (0 : ℂ)] fun w : ℂ => ‖w - 0‖ ^ 4 :=
        IsBigO.of_bound 1 (Eventually.of_forall fun w => by simp)
      have := h3.smul_isLittleO h2
      refine this.congr (fun z => ?_) (fun z => by simp)
      rw [smul_smul, ← pow_succ]
    refine h1.congr' ?_ EventuallyEq.rfl
    filter_upwards [hGe] with z hz
    rw [hzero, sub_zero, hz]
  have hsch := Complex.dist_le_mul_div_pow_of_mapsTo_ball_of_isLittleO hdo hmaps hlit
    (z := (h : ℂ)) (by
      rw [mem_ball_zero_iff, Complex.norm_real, Real.norm_of_nonneg hh]
      exact hhT)
  simp only [hzero, dist_zero_right, Complex.norm_real, Real.norm_of_nonneg hh] at hsch
  rw [rk4C_ofReal] at hsch
  rw [show RKOrder.rk4 f y h - x h = (RKOrder.rk4 f y h - taylor4 f y h) - (x h - taylor4 f y h) by abel]
  refine (norm_sub_le _ _).trans ?_
  have e : d / T * ((4 : ℕ) / T) ^ 4 / 120 * h ^ 5 = 32 / 15 * (d * (h / T) ^ 5) := by
    push_cast
    field_simp
    ring
  rw [e] at te
  have hpos : 0 ≤ d * (h / T) ^ 5 := by positivity
  norm_num at hsch
  linarith

end Post.RKExplicit
