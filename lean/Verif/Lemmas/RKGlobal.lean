import Verif.Lemmas.RKOrder
import Mathlib.Analysis.Calculus.ContDiff.Basic
import Mathlib.Analysis.Calculus.ContDiff.RCLike
import Mathlib.Analysis.Calculus.ContDiff.Operations
import Mathlib.Analysis.Calculus.FDeriv.Analytic
import Mathlib.Analysis.SpecialFunctions.Exp
import Mathlib.Analysis.Complex.Exponential
/-! # Global error of the classical Runge-Kutta method

Pure analysis: no reference to the program. -/

namespace Post.RKOrder
open Asymptotics Filter Topology

variable {E : Type*} [NormedAddCommGroup E] [NormedSpace ℝ E]

/-! ## Solutions of smooth equations are smooth -/

theorem solution_contDiffAt [CompleteSpace E] {f : E → E} {x : ℝ → E} {t : ℝ}
    (hf : AnalyticAt ℝ f (x t)) (hx : ∀ᶠ s in 𝓝 t, HasDerivAt x (f (x s)) s) (n : ℕ) :
    ContDiffAt ℝ n x t := by
  induction n with
  | zero =>
    rw [Nat.cast_zero, contDiffAt_zero]
    exact ⟨_, hx, fun s hs => hs.continuousAt.continuousWithinAt⟩
  | succ n ih =>
    rw [Nat.cast_succ, contDiffAt_succ_iff_hasFDerivAt]
    refine ⟨fun s => (1 : ℝ →L[ℝ] ℝ).smulRight (f (x s)), ⟨_, hx, fun s hs => ?_⟩, ?_⟩
    · exact hs.hasFDerivAt
    · have h1 : ContDiffAt ℝ n (fun s => f (x s)) t := (hf.contDiffAt).comp t ih
      exact contDiffAt_const.smulRight h1

/-! ## Derivatives in the second variable -/

/-- the derivative of `G (t, h)` by `h` -/
noncomputable def dh (G : ℝ × ℝ → E) (p : ℝ × ℝ) : E := fderiv ℝ G p (0, 1)

theorem contDiffAt_dh {G : ℝ × ℝ → E} {p : ℝ × ℝ} {n : ℕ} (h : ContDiffAt ℝ (n + 1 : ℕ) G p) :
    ContDiffAt ℝ n (dh G) p := by
  have h1 : ContDiffAt ℝ n (fderiv ℝ G) p := h.fderiv_right (by norm_cast)
  exact h1.clm_apply contDiffAt_const

theorem hasDerivAt_dh {G : ℝ × ℝ → E} {t h : ℝ} (hd : DifferentiableAt ℝ G (t, h)) :
    HasDerivAt (fun h => G (t, h)) (dh G (t, h)) h := by
  have h1 : HasDerivAt (fun h : ℝ => (t, h)) ((0 : ℝ), (1 : ℝ)) h :=
    (hasDerivAt_const h t).prodMk (hasDerivAt_id h)
  exact hd.hasFDerivAt.comp_hasDerivAt h h1

theorem contDiffAt_iter {G : ℝ × ℝ → E} {p : ℝ × ℝ} {m n : ℕ}
    (h : ContDiffAt ℝ (n + m : ℕ) G p) : ContDiffAt ℝ n (dh^[m] G) p := by
  induction m generalizing G with
  | zero => exact h
  | succ m ih => exact ih (contDiffAt_dh h)

/-- If the first derivatives vanish, the function is of that order, uniformly. -/
theorem uniform_order {G : ℝ × ℝ → E} {t0 : ℝ} {n : ℕ} (h : ContDiffAt ℝ n G (t0, 0))
    (h0 : ∀ᶠ t in 𝓝 t0, ∀ j < n, dh^[j] G (t, 0) = 0) :
    ∃ K, 0 ≤ K ∧ ∀ᶠ p in 𝓝 (t0, (0 : ℝ)), ‖G p‖ ≤ K * |p.2| ^ n := by
  induction n generalizing G with
  | zero =>
    refine ⟨‖G (t0, 0)‖ + 1, by positivity, ?_⟩
    have := h.continuousAt.norm.eventually_lt_const (lt_add_one _)
    filter_upwards [this] with p hp
    simpa using hp.le
  | succ n ih =>
    obtain ⟨K, hK0, hK⟩ := ih (contDiffAt_dh h) (h0.mono fun t ht j hj => ht (j + 1) (by omega))
    refine ⟨K, hK0, ?_⟩
    have hd : ∀ᶠ p in 𝓝 (t0, (0 : ℝ)), DifferentiableAt ℝ G p := by
      have h1 : ContDiffAt ℝ (1 : ℕ) G (t0, 0) := h.of_le (by norm_cast; omega)
      have := h1.eventually (by simp)
      exact this.mono fun p hp => hp.differentiableAt (by simp)
    have hz : ∀ᶠ p in 𝓝 (t0, (0 : ℝ)), G (p.1, 0) = 0 := by
      have : Tendsto (fun p : ℝ × ℝ => p.1) (𝓝 (t0, 0)) (𝓝 t0) := continuous_fst.tendsto _
      exact this.eventually (h0.mono fun t ht => ht 0 (by omega))
    obtain ⟨ε, hε, hball⟩ := Metric.eventually_nhds_iff_ball.1 ((hK.and hd).and hz)
    refine Metric.eventually_nhds_iff_ball.2 ⟨ε, hε, ?_⟩
    rintro ⟨t, h⟩ hp
    have hp' : |t - t0| < ε ∧ |h| < ε := by
      simpa [Prod.dist_eq, Real.dist_eq] using hp
    have hseg : ∀ s ∈ Set.uIcc 0 h, |s| ≤ |h| := by
      intro s hs
      have := Set.abs_sub_left_of_mem_uIcc hs
      simpa using this
    have hin : ∀ s ∈ Set.uIcc 0 h, (t, s) ∈ Metric.ball (t0, (0 : ℝ)) ε := by
      intro s hs
      have := lt_of_le_of_lt (hseg s hs) hp'.2
      simpa [Prod.dist_eq, Real.dist_eq] using ⟨hp'.1, this⟩
    have := Convex.norm_image_sub_le_of_norm_hasDerivWithin_le (f := fun s => G (t, s))
      (f' := fun s => dh G (t, s)) (s := Set.uIcc 0 h) (C := K * |h| ^ n) (x := 0) (y := h)
      (fun s hs => (hasDerivAt_dh (hball _ (hin s hs)).1.2).hasDerivWithinAt)
      (fun s hs => (hball _ (hin s hs)).1.1.trans
        (mul_le_mul_of_nonneg_left (pow_le_pow_left₀ (abs_nonneg _) (hseg s hs) n) hK0))
      (convex_uIcc 0 h) Set.left_mem_uIcc Set.right_mem_uIcc
    rw [(hball _ hp).2, sub_zero, sub_zero, Real.norm_eq_abs, mul_assoc, ← pow_succ] at this
    exact this

theorem small_const {n : ℕ} {c : E} (h : Small (n + 1) fun h : ℝ => h ^ n • c) : c = 0 := by
  obtain ⟨K, hK⟩ := h.bound
  obtain ⟨ε, hε, hball⟩ := Metric.eventually_nhds_iff_ball.1 hK
  by_contra hc
  have hc' : 0 < ‖c‖ := norm_pos_iff.2 hc
  have hK0 : ∀ h : ℝ, 0 < h → h < ε → ‖c‖ ≤ K * h := by
    intro h h1 h2
    have := hball h (by simpa [abs_of_pos h1] using h2)
    rw [norm_smul, norm_pow, norm_pow, Real.norm_of_nonneg h1.le, pow_succ] at this
    have hp : 0 < h ^ n := by positivity
    have : h ^ n * ‖c‖ ≤ h ^ n * (K * h) := by linarith
    exact le_of_mul_le_mul_left this hp
  have hKpos : 0 < K := by
    have := hK0 (ε / 2) (by linarith) (by linarith)
    by_contra hn
    have : K * (ε / 2) ≤ 0 := mul_nonpos_of_nonpos_of_nonneg (not_lt.1 hn) (by linarith)
    linarith
  have h1 := hK0 (min (ε / 2) (‖c‖ / (2 * K))) (by positivity) (lt_of_le_of_lt (min_le_left _ _) (by linarith))
  have h2 : K * min (ε / 2) (‖c‖ / (2 * K)) ≤ K * (‖c‖ / (2 * K)) :=
    mul_le_mul_of_nonneg_left (min_le_right _ _) hKpos.le
  have h3 : K * (‖c‖ / (2 * K)) = ‖c‖ / 2 := by field_simp
  linarith

/-- A function of order `n` has vanishing derivatives below `n`. -/
theorem derivatives_vanish {φ : ℕ → ℝ → E} {n : ℕ}
    (hd : ∀ j < n, ∀ᶠ h in 𝓝 (0 : ℝ), HasDerivAt (φ j) (φ (j + 1) h) h) (hs : Small n (φ 0)) :
    ∀ j < n, φ j 0 = 0 := by
  induction n with
  | zero => intro j hj; omega
  | succ n ih =>
    have ih' := ih (fun j hj => hd j (by omega)) (hs.mono (by omega))
    intro j hj
    rcases Nat.lt_succ_iff_lt_or_eq.1 hj with hj | rfl
    · exact ih' j hj
    set c := φ j 0 with hc
    have key : ∀ m ≤ j, Small (m + 1) fun h : ℝ => φ (j - m) h - (h ^ m / (m.factorial : ℝ)) • c := by
      intro m
      induction m with
      | zero =>
        intro _
        have h1 := (hd j (by omega)).self_of_nhds.isBigO_sub
        refine (h1.congr_left fun h => ?_).congr_right fun h => ?_
        · simp [hc]
        · simp
      | succ m ihm =>
        intro hm
        refine small_integral (z' := fun h => φ (j - m) h - (h ^ m / (m.factorial : ℝ)) • c) ?_ ?_
          (ihm (by omega))
        · simp [ih' (j - (m + 1)) (by omega)]
        · have h1 := hd (j - (m + 1)) (by omega)
          rw [show j - (m + 1) + 1 = j - m by omega] at h1
          filter_upwards [h1] with h hh
          have h2 : HasDerivAt (fun h : ℝ => h ^ (m + 1) / ((m + 1).factorial : ℝ))
              (h ^ m / (m.factorial : ℝ)) h := by
            refine ((hasDerivAt_pow (m + 1) h).div_const ((m + 1).factorial : ℝ)).congr_deriv ?_
            rw [Nat.factorial_succ]
            have : (m.factorial : ℝ) ≠ 0 := by positivity
            push_cast
            have : ((m : ℝ) + 1) ≠ 0 := by positivity
            field_simp
          exact hh.sub (h2.smul_const c)
    have h1 := key j le_rfl
    rw [Nat.sub_self] at h1
    have h2 : Small (j + 1) fun h : ℝ => (h ^ j / (j.factorial : ℝ)) • c := by
      refine (hs.sub h1).congr_left fun h => ?_
      abel
    have h3 : Small (j + 1) fun h : ℝ => h ^ j • ((1 / (j.factorial : ℝ)) • c) := by
      refine h2.congr_left fun h => ?_
      rw [smul_smul]
      congr 1
      ring
    have h4 := small_const h3
    have h5 : (1 / (j.factorial : ℝ)) ≠ 0 := by positivity
    exact (smul_eq_zero.1 h4).resolve_left h5

/-- A smooth function that is of order `n` in `h` for each `t` is so uniformly. -/
theorem uniform_of_pointwise {G : ℝ × ℝ → E} {t0 : ℝ} {n : ℕ} (h : ContDiffAt ℝ n G (t0, 0))
    (hs : ∀ᶠ t in 𝓝 t0, Small n fun h => G (t, h)) :
    ∃ K, 0 ≤ K ∧ ∀ᶠ p in 𝓝 (t0, (0 : ℝ)), ‖G p‖ ≤ K * |p.2| ^ n := by
  refine uniform_order h ?_
  have h1 : ∀ᶠ t in 𝓝 t0, ContDiffAt ℝ n G (t, 0) := by
    have : Tendsto (fun t : ℝ => (t, (0 : ℝ))) (𝓝 t0) (𝓝 (t0, 0)) :=
      (Continuous.prodMk_left (0 : ℝ)).tendsto _
    exact this.eventually (h.eventually (by simp))
  filter_upwards [h1, hs] with t ht hst
  refine derivatives_vanish (φ := fun j h => dh^[j] G (t, h)) (fun j hj => ?_) hst
  have h2 : ContDiffAt ℝ (1 : ℕ) (dh^[j] G) (t, 0) :=
    contDiffAt_iter (ht.of_le (by norm_cast; omega))
  have h3 := h2.eventually (by simp)
  have : Tendsto (fun h : ℝ => (t, h)) (𝓝 0) (𝓝 (t, 0)) :=
    (Continuous.prodMk_right t).tendsto _
  filter_upwards [this.eventually h3] with h hh
  have := hasDerivAt_dh (hh.differentiableAt (by simp))
  rw [Function.iterate_succ_apply']
  exact this

/-! ## One step, uniformly along a trajectory -/

theorem contDiffAt_stage [CompleteSpace E] {f : E → E} {y : E} (hf : AnalyticAt ℝ f y) {n : ℕ}
    {k : E × ℝ → E} (hk : ContDiffAt ℝ n k (y, 0)) (c : ℝ) :
    ContDiffAt ℝ n (fun q : E × ℝ => f (q.1 + (q.2 / c) • k q)) (y, 0) := by
  have h1 : ContDiffAt ℝ n (fun q : E × ℝ => q.1 + (q.2 / c) • k q) (y, 0) :=
    contDiffAt_fst.add ((contDiffAt_snd.div_const c).smul hk)
  have h2 : ContDiffAt ℝ n f ((fun q : E × ℝ => q.1 + (q.2 / c) • k q) (y, 0)) := by
    simpa using hf.contDiffAt
  exact h2.comp (y, (0 : ℝ)) h1

/-- the mean slope of a Runge-Kutta step -/
noncomputable def slope (f : E → E) (q : E × ℝ) : E :=
  let k1 := f q.1
  let k2 := f (q.1 + (q.2 / 2) • k1)
  let k3 := f (q.1 + (q.2 / 2) • k2)
  let k4 := f (q.1 + (q.2 / 1) • k3)
  (1 / 6 : ℝ) • (k1 + (2 : ℝ) • k2 + (2 : ℝ) • k3 + k4)

theorem rk4_slope (f : E → E) (y : E) (h : ℝ) : rk4 f y h = y + h • slope f (y, h) := by
  simp only [rk4, slope, div_one]
  module

theorem contDiffAt_slope [CompleteSpace E] {f : E → E} {y : E} (hf : AnalyticAt ℝ f y) (n : ℕ) :
    ContDiffAt ℝ n (slope f) (y, 0) := by
  have h1 : ContDiffAt ℝ n (fun q : E × ℝ => f q.1) (y, 0) :=
    ContDiffAt.comp (y, (0 : ℝ)) (g := f) hf.contDiffAt contDiffAt_fst
  have h2 := contDiffAt_stage hf h1 2
  have h3 := contDiffAt_stage hf h2 2
  have h4 := contDiffAt_stage hf h3 1
  exact contDiffAt_const.smul (((h1.add (contDiffAt_const.smul h2)).add
    (contDiffAt_const.smul h3)).add h4)

/-- The error of a step that starts on the trajectory. -/
theorem error_near [CompleteSpace E] {f : E → E} {x : ℝ → E} {t0 : ℝ}
    (hf : AnalyticAt ℝ f (x t0)) (hx : ∀ᶠ t in 𝓝 t0, HasDerivAt x (f (x t)) t) :
    ∃ K, 0 ≤ K ∧ ∀ᶠ p in 𝓝 (t0, (0 : ℝ)),
      ‖rk4 f (x p.1) p.2 - x (p.1 + p.2)‖ ≤ K * |p.2| ^ 5 := by
  have hc := hx.self_of_nhds.continuousAt
  refine uniform_of_pointwise (G := fun p => rk4 f (x p.1) p.2 - x (p.1 + p.2)) ?_ ?_
  · have hx5 := solution_contDiffAt hf hx 5
    have h1 : ContDiffAt ℝ (5 : ℕ) (fun p : ℝ × ℝ => x p.1) (t0, 0) :=
      ContDiffAt.comp (t0, (0 : ℝ)) (g := x) hx5 contDiffAt_fst
    have h2 : ContDiffAt ℝ (5 : ℕ) (fun p : ℝ × ℝ => x (p.1 + p.2)) (t0, 0) :=
      ContDiffAt.comp (t0, (0 : ℝ)) (g := x) (by simpa using hx5)
        (contDiffAt_fst.add contDiffAt_snd)
    have h3 : ContDiffAt ℝ (5 : ℕ) (fun p : ℝ × ℝ => slope f (x p.1, p.2)) (t0, 0) :=
      ContDiffAt.comp (t0, (0 : ℝ)) (g := slope f) (contDiffAt_slope hf 5)
        (h1.prodMk contDiffAt_snd)
    have h4 : (fun p : ℝ × ℝ => rk4 f (x p.1) p.2 - x (p.1 + p.2)) =
        fun p => x p.1 + p.2 • slope f (x p.1, p.2) - x (p.1 + p.2) := by
      funext p
      rw [rk4_slope]
    rw [h4]
    exact (h1.add (contDiffAt_snd.smul h3)).sub h2
  · filter_upwards [hc.eventually hf.eventually_analyticAt, hx.eventually_nhds] with t ht1 ht2
    obtain ⟨a, A, B, C, ht⟩ := taylor_of_analytic ht1
    refine local_error ht (x := fun s => x (t + s)) (by simp) ?_
    have h1 : Tendsto (fun s : ℝ => t + s) (𝓝 0) (𝓝 t) := by
      have : Continuous fun s : ℝ => t + s := by fun_prop
      simpa using this.tendsto 0
    filter_upwards [h1.eventually ht2] with s hs
    have h2 : HasDerivAt (fun s : ℝ => t + s) 1 s := (hasDerivAt_id s).const_add t
    have h3 := HasDerivAt.scomp s hs h2
    rw [one_smul] at h3
    exact h3

/-- Steps from neighbouring points. -/
theorem lipschitz_near [CompleteSpace E] {f : E → E} {y : E} (hf : AnalyticAt ℝ f y) :
    ∃ L ε, 0 ≤ L ∧ 0 < ε ∧ ∀ y1 y2 h, ‖y1 - y‖ < ε → ‖y2 - y‖ < ε → |h| < ε →
      ‖rk4 f y1 h - rk4 f y2 h‖ ≤ (1 + L * |h|) * ‖y1 - y2‖ := by
  obtain ⟨L, s, hs, hL⟩ := (contDiffAt_slope hf 1).exists_lipschitzOnWith
  obtain ⟨ε, hε, hball⟩ := Metric.mem_nhds_iff.1 hs
  refine ⟨L, ε, L.2, hε, fun y1 y2 h h1 h2 h3 => ?_⟩
  have m : ∀ z, ‖z - y‖ < ε → (z, h) ∈ s := by
    intro z hz
    refine hball ?_
    simpa [Prod.dist_eq, dist_eq_norm] using ⟨hz, h3⟩
  have h4 := hL.norm_sub_le (m y1 h1) (m y2 h2)
  have h5 : ‖(y1, h) - (y2, h)‖ = ‖y1 - y2‖ := by
    simp [Prod.norm_def]
  rw [h5] at h4
  rw [rk4_slope, rk4_slope]
  have h6 : y1 + h • slope f (y1, h) - (y2 + h • slope f (y2, h)) =
      (y1 - y2) + h • (slope f (y1, h) - slope f (y2, h)) := by module
  rw [h6]
  refine (norm_add_le _ _).trans ?_
  rw [norm_smul, Real.norm_eq_abs]
  have := mul_le_mul_of_nonneg_left h4 (abs_nonneg h)
  nlinarith

/-- Uniform estimates along a trajectory over a compact time. -/
theorem uniform_step [CompleteSpace E] {f : E → E} {x : ℝ → E} {S : Set ℝ} (hS : IsCompact S)
    (hf : ∀ t ∈ S, AnalyticAt ℝ f (x t))
    (hx : ∀ t ∈ S, ∀ᶠ s in 𝓝 t, HasDerivAt x (f (x s)) s) {Q : E → ℝ → Prop}
    (hQ : ∀ t ∈ S, ∀ᶠ q in 𝓝 (x t, (0 : ℝ)), Q q.1 q.2) :
    ∃ K L ε, 0 ≤ K ∧ 0 ≤ L ∧ 0 < ε ∧ ∀ t ∈ S, ∀ h, |h| < ε →
      ‖rk4 f (x t) h - x (t + h)‖ ≤ K * |h| ^ 5 ∧
      ∀ y, ‖y - x t‖ < ε → Q y h ∧
        ‖rk4 f y h - rk4 f (x t) h‖ ≤ (1 + L * |h|) * ‖y - x t‖ := by
  let P : Set ℝ → Prop := fun s => ∃ K L ε, 0 ≤ K ∧ 0 ≤ L ∧ 0 < ε ∧ ∀ t ∈ s, ∀ h, |h| < ε →
      ‖rk4 f (x t) h - x (t + h)‖ ≤ K * |h| ^ 5 ∧
      ∀ y, ‖y - x t‖ < ε → Q y h ∧
        ‖rk4 f y h - rk4 f (x t) h‖ ≤ (1 + L * |h|) * ‖y - x t‖
  refine hS.induction_on (p := P) ⟨0, 0, 1, le_rfl, le_rfl, one_pos, by simp⟩ ?_ ?_ ?_
  · rintro s t hst ⟨K, L, ε, h1, h2, h3, h4⟩
    exact ⟨K, L, ε, h1, h2, h3, fun u hu => h4 u (hst hu)⟩
  · rintro s t ⟨K, L, ε, h1, h2, h3, h4⟩ ⟨K', L', ε', h1', h2', h3', h4'⟩
    refine ⟨max K K', max L L', min ε ε', le_max_of_le_left h1, le_max_of_le_left h2,
      lt_min h3 h3', fun u hu h hh => ?_⟩
    rcases hu with hu | hu
    · obtain ⟨a, b⟩ := h4 u hu h (hh.trans_le (min_le_left _ _))
      refine ⟨a.trans (by gcongr; exact le_max_left _ _), fun y hy => ?_⟩
      obtain ⟨c, d⟩ := b y (hy.trans_le (min_le_left _ _))
      exact ⟨c, d.trans (by gcongr; exact le_max_left _ _)⟩
    · obtain ⟨a, b⟩ := h4' u hu h (hh.trans_le (min_le_right _ _))
      refine ⟨a.trans (by gcongr; exact le_max_right _ _), fun y hy => ?_⟩
      obtain ⟨c, d⟩ := b y (hy.trans_le (min_le_right _ _))
      exact ⟨c, d.trans (by gcongr; exact le_max_right _ _)⟩
  · intro t0 ht0
    obtain ⟨K, hK0, hK⟩ := error_near (hf t0 ht0) (hx t0 ht0)
    obtain ⟨L, ε1, hL0, hε1, hL⟩ := lipschitz_near (hf t0 ht0)
    obtain ⟨ε2, hε2, hK'⟩ := Metric.eventually_nhds_iff_ball.1 hK
    obtain ⟨ε3, hε3, hQ'⟩ := Metric.eventually_nhds_iff_ball.1 (hQ t0 ht0)
    have hc := (hx t0 ht0).self_of_nhds.continuousAt
    have hpos : 0 < min ε1 ε3 / 2 := by positivity
    obtain ⟨ε4, hε4, hc'⟩ := Metric.continuousAt_iff.1 hc _ hpos
    have hle1 : min ε1 ε3 ≤ ε1 := min_le_left _ _
    have hle3 : min ε1 ε3 ≤ ε3 := min_le_right _ _
    have hmem : Metric.ball t0 (min ε2 ε4) ∈ 𝓝[S] t0 :=
      mem_nhdsWithin_of_mem_nhds (Metric.ball_mem_nhds _ (lt_min hε2 hε4))
    refine ⟨_, hmem, K, L, min ε2 (min ε1 ε3 / 2), hK0, hL0, lt_min hε2 hpos, ?_⟩
    intro t ht h hh
    have ht' : |t - t0| < min ε2 ε4 := by simpa [Real.dist_eq] using ht
    have hx' : ‖x t - x t0‖ < min ε1 ε3 / 2 := by
      have := hc' (x := t) (by simpa [Real.dist_eq] using ht'.trans_le (min_le_right _ _))
      simpa [dist_eq_norm] using this
    have hh2 : |h| < ε2 := hh.trans_le (min_le_left _ _)
    have hh1 : |h| < min ε1 ε3 / 2 := hh.trans_le (min_le_right _ _)
    refine ⟨?_, fun y hy => ?_⟩
    · refine hK' (t, h) ?_
      simpa [Prod.dist_eq, Real.dist_eq] using ⟨ht'.trans_le (min_le_left _ _), hh2⟩
    · have hy' : ‖y - x t‖ < min ε1 ε3 / 2 := hy.trans_le (min_le_right _ _)
      have hyt : ‖y - x t0‖ < min ε1 ε3 := by
        have : y - x t0 = (y - x t) + (x t - x t0) := by abel
        rw [this]
        exact (norm_add_le _ _).trans_lt (by linarith)
      refine ⟨hQ' (y, h) ?_, hL y (x t) h (by linarith) (by linarith) (by linarith)⟩
      have a1 : ‖y - x t0‖ < ε3 := by linarith
      have a2 : |h| < ε3 := by linarith
      simpa [Prod.dist_eq, dist_eq_norm] using ⟨a1, a2⟩

/-! ## Many steps -/

/-- The global error of the classical method is of fourth order. -/
theorem global_error [CompleteSpace E] {f : E → E} {x : ℝ → E} {T : ℝ} (hT : 0 ≤ T)
    (hf : ∀ t ∈ Set.Icc 0 T, AnalyticAt ℝ f (x t))
    (hx : ∀ t ∈ Set.Icc 0 T, ∀ᶠ s in 𝓝 t, HasDerivAt x (f (x s)) s) {Q : E → ℝ → Prop}
    (hQ : ∀ t ∈ Set.Icc 0 T, ∀ᶠ q in 𝓝 (x t, (0 : ℝ)), Q q.1 q.2) :
    ∃ K δ, 0 < δ ∧ ∀ h, 0 < h → h < δ → ∀ k : ℕ, k * h ≤ T →
      ‖(fun y => rk4 f y h)^[k] (x 0) - x (k * h)‖ ≤ K * h ^ 4 ∧
      Q ((fun y => rk4 f y h)^[k] (x 0)) h := by
  obtain ⟨K, L, ε, hK, hL, hε, hu⟩ := uniform_step isCompact_Icc hf hx hQ
  set M := K * T * Real.exp (L * T) with hM
  have hM0 : 0 ≤ M := by positivity
  refine ⟨M, min ε (min 1 (ε / (M + 1))), by positivity, fun h h0 hh => ?_⟩
  have hh1 : h < ε := hh.trans_le (min_le_left _ _)
  have hh2 : h < 1 := hh.trans_le ((min_le_right _ _).trans (min_le_left _ _))
  have hh3 : h < ε / (M + 1) := hh.trans_le ((min_le_right _ _).trans (min_le_right _ _))
  have hMh : M * h ^ 4 < ε := by
    have h1 : h ^ 4 ≤ h := by
      calc h ^ 4 ≤ h ^ 1 := pow_le_pow_of_le_one h0.le hh2.le (by norm_num)
        _ = h := pow_one h
    have h2 : M * h ^ 4 ≤ M * h := mul_le_mul_of_nonneg_left h1 hM0
    have h3 : h * (M + 1) < ε := (lt_div_iff₀ (by positivity)).1 hh3
    linarith
  have crude : ∀ k : ℕ, (k : ℝ) * h ≤ T →
      K * h ^ 5 * k * (1 + L * h) ^ k ≤ M * h ^ 4 := by
    intro k hk
    have h1 : (1 + L * h) ^ k ≤ Real.exp (L * T) := by
      have h2 : 1 + L * h ≤ Real.exp (L * h) := by
        have := Real.add_one_le_exp (L * h)
        linarith
      calc (1 + L * h) ^ k ≤ Real.exp (L * h) ^ k := pow_le_pow_left₀ (by positivity) h2 k
        _ = Real.exp (k * (L * h)) := (Real.exp_nat_mul _ _).symm
        _ ≤ Real.exp (L * T) := by
          refine Real.exp_le_exp.2 ?_
          have := mul_le_mul_of_nonneg_left hk hL
          linarith
    calc K * h ^ 5 * k * (1 + L * h) ^ k = K * h ^ 4 * (k * h) * (1 + L * h) ^ k := by ring
      _ ≤ K * h ^ 4 * T * Real.exp (L * T) := by gcongr
      _ = M * h ^ 4 := by rw [hM]; ring
  have main : ∀ k : ℕ, (k : ℝ) * h ≤ T →
      ‖(fun y => rk4 f y h)^[k] (x 0) - x (k * h)‖ ≤ K * h ^ 5 * k * (1 + L * h) ^ k := by
    intro k
    induction k with
    | zero => intro _; simp
    | succ k ih =>
      intro hk
      have hk' : (k : ℝ) * h ≤ T := by
        push_cast at hk
        nlinarith
      have hmem : (k : ℝ) * h ∈ Set.Icc 0 T := ⟨by positivity, hk'⟩
      have ihk := ih hk'
      obtain ⟨e1, e2⟩ := hu _ hmem h (by rwa [abs_of_pos h0])
      obtain ⟨-, e3⟩ := e2 _ ((ihk.trans (crude k hk')).trans_lt hMh)
      rw [abs_of_pos h0] at e1 e3
      rw [Function.iterate_succ_apply']
      set y := (fun y => rk4 f y h)^[k] (x 0)
      have h1 : rk4 f y h - x ((k + 1 : ℕ) * h) =
          (rk4 f y h - rk4 f (x (k * h)) h) + (rk4 f (x (k * h)) h - x (k * h + h)) := by
        rw [show ((k + 1 : ℕ) : ℝ) * h = k * h + h by push_cast; ring]
        abel
      show ‖rk4 f y h - x ((k + 1 : ℕ) * h)‖ ≤ _
      rw [h1]
      refine (norm_add_le _ _).trans ((add_le_add e3 e1).trans ?_)
      have h2 : (1 + L * h) * ‖y - x (k * h)‖ ≤ (1 + L * h) * (K * h ^ 5 * k * (1 + L * h) ^ k) :=
        mul_le_mul_of_nonneg_left ihk (by positivity)
      have h3 : (1 : ℝ) ≤ (1 + L * h) ^ (k + 1) := one_le_pow₀ (by nlinarith)
      have h4 : K * h ^ 5 ≤ K * h ^ 5 * (1 + L * h) ^ (k + 1) :=
        le_mul_of_one_le_right (by positivity) h3
      have h5 : K * h ^ 5 * ((k + 1 : ℕ) : ℝ) * (1 + L * h) ^ (k + 1) =
          (1 + L * h) * (K * h ^ 5 * k * (1 + L * h) ^ k) + K * h ^ 5 * (1 + L * h) ^ (k + 1) := by
        push_cast
        ring
      rw [h5]
      linarith
  intro k hk
  have h1 := (main k hk).trans (crude k hk)
  refine ⟨h1, ?_⟩
  exact ((hu _ ⟨by positivity, hk⟩ h (by rwa [abs_of_pos h0])).2 _ (h1.trans_lt hMh)).1

end Post.RKOrder
