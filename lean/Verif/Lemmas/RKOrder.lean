import Mathlib.Analysis.Asymptotics.Lemmas
import Mathlib.Analysis.Calculus.MeanValue
import Mathlib.Analysis.Calculus.Deriv.Pow
import Mathlib.Analysis.Calculus.Deriv.Mul
import Mathlib.Analysis.Analytic.Constructions
import Mathlib.Analysis.Calculus.Deriv.Prod
import Mathlib.Analysis.Normed.Module.Multilinear.Curry
import Mathlib.Tactic.Module
/-! # The classical Runge-Kutta method has order four

Pure analysis: no reference to the program.  The right-hand side is an autonomous function `f` with
a Taylor expansion of degree three at the initial value. -/

namespace Post.RKOrder
open Asymptotics Filter Topology

variable {E : Type*} [NormedAddCommGroup E] [NormedSpace ℝ E]

/-- `f` has the Taylor expansion `a + A v + B v v + C v v v` at `y`, up to fourth order. -/
structure Taylor (f : E → E) (y a : E) (A : E →L[ℝ] E) (B : E →L[ℝ] E →L[ℝ] E)
    (C : E →ₗ[ℝ] E →ₗ[ℝ] E →ₗ[ℝ] E) : Prop where
  base : f y = a
  trilinear : ∃ K, 0 ≤ K ∧ ∀ u v w, ‖C u v w‖ ≤ K * (‖u‖ * ‖v‖ * ‖w‖)
  bound : (fun v => f (y + v) - (a + A v + B v v + C v v v)) =O[𝓝 0] fun v => ‖v‖ ^ 4

/-- `u = O(h^n)` as `h → 0` -/
abbrev Small (n : ℕ) (u : ℝ → E) : Prop := u =O[𝓝 (0 : ℝ)] fun h => h ^ n

theorem Small.mono {m n : ℕ} (hmn : n ≤ m) {u : ℝ → E} (hu : Small m u) : Small n u := by
  refine hu.trans ?_
  obtain ⟨k, rfl⟩ := Nat.exists_eq_add_of_le hmn
  have : (fun h : ℝ => h ^ (n + k)) = fun h => h ^ n * h ^ k := by funext h; ring
  rw [this]
  have h1 : (fun h : ℝ => h ^ k) =O[𝓝 (0 : ℝ)] fun _ => (1 : ℝ) :=
    ((continuous_pow k).tendsto (0 : ℝ)).isBigO_one ℝ
  simpa using (isBigO_refl (fun h : ℝ => h ^ n) (𝓝 0)).mul h1

theorem small_pow (n : ℕ) (c : E) : Small n fun h : ℝ => h ^ n • c := by
  refine IsBigO.of_bound ‖c‖ (Eventually.of_forall fun h => ?_)
  rw [norm_smul, mul_comm]

theorem Small.smul_id {n : ℕ} {u : ℝ → E} (hu : Small n u) : Small (n + 1) fun h => h • u h := by
  have := (isBigO_refl (fun h : ℝ => h) (𝓝 0)).smul hu
  exact this.congr_right fun h => by rw [smul_eq_mul, pow_succ, mul_comm]

theorem small_linear (A : E →L[ℝ] E) {n : ℕ} {u : ℝ → E} (hu : Small n u) :
    Small n fun h => A (u h) :=
  (A.isBigO_comp u _).trans hu

theorem small_bilinear (B : E →L[ℝ] E →L[ℝ] E) {m n : ℕ} {u w : ℝ → E} (hu : Small m u)
    (hw : Small n w) : Small (m + n) fun h => B (u h) (w h) := by
  have h1 : (fun h => B (u h) (w h)) =O[𝓝 (0 : ℝ)] fun h => ‖u h‖ * ‖w h‖ :=
    IsBigO.of_bound ‖B‖ (Eventually.of_forall fun h => by
      rw [Real.norm_of_nonneg (by positivity), ← mul_assoc]
      exact B.le_opNorm₂ _ _)
  refine h1.trans ?_
  have := hu.norm_left.mul hw.norm_left
  simpa [pow_add] using this

/-- a trilinear map is bounded -/
def Bounded (C : E →ₗ[ℝ] E →ₗ[ℝ] E →ₗ[ℝ] E) : Prop :=
  ∃ K, 0 ≤ K ∧ ∀ u v w, ‖C u v w‖ ≤ K * (‖u‖ * ‖v‖ * ‖w‖)

theorem small_trilinear {C : E →ₗ[ℝ] E →ₗ[ℝ] E →ₗ[ℝ] E} (hC : Bounded C) {l m n : ℕ}
    {u v w : ℝ → E} (hu : Small l u) (hv : Small m v) (hw : Small n w) :
    Small (l + m + n) fun h => C (u h) (v h) (w h) := by
  obtain ⟨K, _, hK⟩ := hC
  have h1 : (fun h => C (u h) (v h) (w h)) =O[𝓝 (0 : ℝ)] fun h => ‖u h‖ * ‖v h‖ * ‖w h‖ :=
    IsBigO.of_bound K (Eventually.of_forall fun h => by
      rw [Real.norm_of_nonneg (by positivity)]
      exact hK _ _ _)
  refine h1.trans ?_
  have := (hu.norm_left.mul hv.norm_left).mul hw.norm_left
  simpa [pow_add] using this

theorem small_bilinear_sub (B : E →L[ℝ] E →L[ℝ] E) {n : ℕ} {u w : ℝ → E} (hu : Small 1 u)
    (hw : Small 1 w) (huw : Small n fun h => u h - w h) :
    Small (n + 1) fun h => B (u h) (u h) - B (w h) (w h) := by
  have h1 := (small_bilinear B huw hu).add ((small_bilinear B hw huw).mono (by omega))
  refine h1.congr_left fun h => ?_
  simp

theorem small_trilinear_sub {C : E →ₗ[ℝ] E →ₗ[ℝ] E →ₗ[ℝ] E} (hC : Bounded C) {n : ℕ} {u w : ℝ → E}
    (hu : Small 1 u) (hw : Small 1 w) (huw : Small n fun h => u h - w h) :
    Small (n + 2) fun h => C (u h) (u h) (u h) - C (w h) (w h) (w h) := by
  have h1 := ((small_trilinear hC huw hu hu).mono (n := n + 2) (by omega)).add
    (((small_trilinear hC hw huw hu).mono (n := n + 2) (by omega)).add
      ((small_trilinear hC hw hw huw).mono (n := n + 2) (by omega)))
  refine h1.congr_left fun h => ?_
  simp

/-- the polynomial `h b1 + h² b2 + h³ b3` -/
def poly (b1 b2 b3 : E) (h : ℝ) : E := h • b1 + h ^ 2 • b2 + h ^ 3 • b3

theorem small_poly (b1 b2 b3 : E) : Small 1 (poly b1 b2 b3) := by
  have h := ((small_pow 1 b1).add ((small_pow 2 b2).mono (by omega))).add
    ((small_pow 3 b3).mono (n := 1) (by omega))
  refine h.congr_left fun h => ?_
  simp [poly]

/-- The right-hand side along a curve with a known expansion. -/
theorem Taylor.along {f : E → E} {y a : E} {A : E →L[ℝ] E} {B : E →L[ℝ] E →L[ℝ] E}
    {C : E →ₗ[ℝ] E →ₗ[ℝ] E →ₗ[ℝ] E} (ht : Taylor f y a A B C) {n : ℕ} (hn : 1 ≤ n) (hn4 : n ≤ 4)
    {v : ℝ → E} {b1 b2 b3 : E} (hv : Small n fun h => v h - poly b1 b2 b3 h) :
    Small n fun h => f (y + v h) - (a + poly (A b1) (A b2 + B b1 b1)
      (A b3 + B b1 b2 + B b2 b1 + C b1 b1 b1) h) := by
  have hb := small_poly b1 b2 b3
  have hv1 : Small 1 v := by
    refine ((hv.mono hn).add hb).congr_left fun h => ?_
    simp
  have hv0 : Tendsto v (𝓝 0) (𝓝 0) := by
    have h1 : Tendsto (fun h : ℝ => h ^ 1) (𝓝 0) (𝓝 0) := by
      simpa using (continuous_pow 1).tendsto (0 : ℝ)
    exact hv1.trans_tendsto h1
  -- remainder of the expansion
  have r1 : Small n fun h => f (y + v h) - (a + A (v h) + B (v h) (v h) + C (v h) (v h) (v h)) := by
    have h1 := ht.bound.comp_tendsto hv0
    have h2 : (fun h => ‖v h‖ ^ 4) =O[𝓝 (0 : ℝ)] fun h => (h ^ 1) ^ 4 := (hv1.norm_left).pow 4
    have h3 : Small 4 fun h => f (y + v h) - (a + A (v h) + B (v h) (v h) + C (v h) (v h) (v h)) := by
      exact (h1.trans h2).congr_right fun h => by rw [pow_one]
    exact h3.mono hn4
  -- replace `v` by its expansion
  set b := poly b1 b2 b3 with hbdef
  have r2 : Small n fun h => A (v h) - A (b h) := by
    refine (small_linear A hv).congr_left fun h => ?_
    simp
  have r3 : Small n fun h => B (v h) (v h) - B (b h) (b h) :=
    (small_bilinear_sub B hv1 hb hv).mono (by omega)
  have r4 : Small n fun h => C (v h) (v h) (v h) - C (b h) (b h) (b h) :=
    (small_trilinear_sub ht.trilinear hv1 hb hv).mono (by omega)
  -- drop the terms of fourth order
  have hc : Small 1 (poly b1 b2 0) := small_poly _ _ _
  have hd : Small 1 (poly b1 0 0) := small_poly _ _ _
  have r5 : Small n fun h => B (b h) (b h) - B (poly b1 b2 0 h) (poly b1 b2 0 h) := by
    refine (small_bilinear_sub B hb hc (n := 3) ?_).mono (by omega)
    refine (small_pow 3 b3).congr_left fun h => ?_
    simp [hbdef, poly]
  have r6 : Small n fun h => C (b h) (b h) (b h) -
      C (poly b1 0 0 h) (poly b1 0 0 h) (poly b1 0 0 h) := by
    refine (small_trilinear_sub ht.trilinear hb hd (n := 2) ?_).mono (by omega)
    refine ((small_pow 2 b2).add ((small_pow 3 b3).mono (by omega))).congr_left fun h => ?_
    simp [hbdef, poly]
    abel
  have r7 : Small n fun h : ℝ => h ^ 4 • B b2 b2 := (small_pow 4 _).mono hn4
  refine ((((((r1.add r2).add r3).add r4).add r5).add r6).add r7).congr_left fun h => ?_
  simp only [hbdef, poly, map_add, map_smul, add_apply,
    smul_apply, LinearMap.smul_apply, smul_zero, add_zero]
  module

/-- Integration of an expansion. -/
theorem small_integral {n : ℕ} {z z' : ℝ → E} (h0 : z 0 = 0)
    (hz : ∀ᶠ t in 𝓝 (0 : ℝ), HasDerivAt z (z' t) t) (hs : Small n z') : Small (n + 1) z := by
  obtain ⟨K, hK⟩ := hs.bound
  obtain ⟨ε, hε, hball⟩ := Metric.eventually_nhds_iff_ball.1 (hz.and hK)
  refine IsBigO.of_bound K (Metric.eventually_nhds_iff_ball.2 ⟨ε, hε, fun h hh => ?_⟩)
  have hh' : |h| < ε := by simpa using hh
  -- the segment from 0 to h lies in the ball
  have hseg : ∀ t ∈ Set.uIcc 0 h, |t| ≤ |h| := by
    intro t ht
    have := Set.abs_sub_left_of_mem_uIcc ht
    simpa using this
  have hbound : ∀ t ∈ Set.uIcc 0 h, ‖z' t‖ ≤ K * |h| ^ n := by
    intro t ht
    have htb : t ∈ Metric.ball (0 : ℝ) ε := by
      simpa using lt_of_le_of_lt (hseg t ht) hh'
    have hKn : 0 ≤ K * |h| ^ n := by
      have := (hball h hh).2
      rw [norm_pow, Real.norm_eq_abs] at this
      exact (norm_nonneg _).trans this
    have h1 := (hball t htb).2
    rw [norm_pow, Real.norm_eq_abs] at h1
    rcases le_or_gt 0 K with hK0 | hK0
    · exact h1.trans (mul_le_mul_of_nonneg_left (pow_le_pow_left₀ (abs_nonneg _) (hseg t ht) n) hK0)
    · have h2 : K * |t| ^ n ≤ 0 := mul_nonpos_of_nonpos_of_nonneg hK0.le (by positivity)
      linarith [norm_nonneg (z' t)]
  have := Convex.norm_image_sub_le_of_norm_hasDerivWithin_le (f := z) (f' := z')
    (s := Set.uIcc 0 h) (C := K * |h| ^ n) (x := 0) (y := h) (fun t ht => by
      have htb : t ∈ Metric.ball (0 : ℝ) ε := by
        simpa using lt_of_le_of_lt (hseg t ht) hh'
      exact (hball t htb).1.hasDerivWithinAt) hbound (convex_uIcc 0 h)
      Set.left_mem_uIcc Set.right_mem_uIcc
  rw [h0, sub_zero, sub_zero] at this
  rw [norm_pow, pow_succ, ← mul_assoc]
  exact this

/-- The expansion of the solution of `x' = f(x)`. -/
theorem solution_expansion {f : E → E} {y a : E} {A : E →L[ℝ] E} {B : E →L[ℝ] E →L[ℝ] E}
    {C : E →ₗ[ℝ] E →ₗ[ℝ] E →ₗ[ℝ] E} (ht : Taylor f y a A B C) {x : ℝ → E} (h0 : x 0 = y)
    (hx : ∀ᶠ t in 𝓝 (0 : ℝ), HasDerivAt x (f (x t)) t) :
    Small 5 fun h => x h - (y + poly a ((1 / 2 : ℝ) • A a)
      ((1 / 6 : ℝ) • (A (A a) + (2 : ℝ) • B a a)) h + h ^ 4 • ((1 / 24 : ℝ) • A (A (A a)) +
        (1 / 12 : ℝ) • A (B a a) + (1 / 8 : ℝ) • (B a (A a) + B (A a) a) +
        (1 / 4 : ℝ) • C a a a)) := by
  -- one round of the bootstrap
  have round : ∀ {n : ℕ} {b1 b2 b3 : E}, 1 ≤ n → n ≤ 4 →
      Small n (fun h => (x h - y) - poly b1 b2 b3 h) →
      Small (n + 1) fun h => (x h - y) - (h • a + (h ^ 2 / 2) • A b1 +
        (h ^ 3 / 3) • (A b2 + B b1 b1) +
        (h ^ 4 / 4) • (A b3 + B b1 b2 + B b2 b1 + C b1 b1 b1)) := by
    intro n b1 b2 b3 h1 h4 hs
    have hal := ht.along h1 h4 hs
    refine small_integral (by simp [h0]) ?_ hal
    filter_upwards [hx] with t htd
    have e1 : HasDerivAt (fun h : ℝ => h • a) a t := by
      simpa using (hasDerivAt_id t).smul_const a
    have e2 : HasDerivAt (fun h : ℝ => (h ^ 2 / 2) • A b1) (t • A b1) t := by
      have := (((hasDerivAt_pow 2 t).div_const 2).smul_const (A b1))
      convert this using 2
      push_cast; ring
    have e3 : HasDerivAt (fun h : ℝ => (h ^ 3 / 3) • (A b2 + B b1 b1))
        (t ^ 2 • (A b2 + B b1 b1)) t := by
      have := (((hasDerivAt_pow 3 t).div_const 3).smul_const (A b2 + B b1 b1))
      convert this using 2
      push_cast; ring
    have e4 : HasDerivAt (fun h : ℝ => (h ^ 4 / 4) • (A b3 + B b1 b2 + B b2 b1 + C b1 b1 b1))
        (t ^ 3 • (A b3 + B b1 b2 + B b2 b1 + C b1 b1 b1)) t := by
      have := (((hasDerivAt_pow 4 t).div_const 4).smul_const
        (A b3 + B b1 b2 + B b2 b1 + C b1 b1 b1))
      convert this using 2
      push_cast; ring
    have := (htd.sub_const y).sub (((e1.add e2).add e3).add e4)
    refine this.congr_deriv ?_
    simp only [poly]
    rw [show y + (x t - y) = x t by abel]
    module
  have s1 : Small 1 fun h => (x h - y) - poly (0 : E) 0 0 h := by
    have h1 := hx.self_of_nhds.isBigO_sub
    rw [h0] at h1
    refine (h1.congr_left fun h => ?_).congr_right fun h => ?_
    · simp [poly]
    · simp
  have s2 := round (by omega) (by omega) s1
  have s2' : Small 2 fun h => (x h - y) - poly a 0 0 h := by
    refine s2.congr_left fun h => ?_
    simp [poly]
  have s3 := round (by omega) (by omega) s2'
  have s3' : Small 3 fun h => (x h - y) - poly a ((1 / 2 : ℝ) • A a) 0 h := by
    refine (s3.add ((small_pow 3 ((1 / 3 : ℝ) • B a a)).add
      ((small_pow 4 ((1 / 4 : ℝ) • C a a a)).mono (by omega)))).congr_left fun h => ?_
    simp only [poly, map_zero, zero_apply, LinearMap.zero_apply, smul_zero]
    module
  have s4 := round (by omega) (by omega) s3'
  have s4' : Small 4 fun h => (x h - y) - poly a ((1 / 2 : ℝ) • A a)
      ((1 / 6 : ℝ) • (A (A a) + (2 : ℝ) • B a a)) h := by
    refine (s4.add (small_pow 4 ((1 / 4 : ℝ) • (A 0 + B a ((1 / 2 : ℝ) • A a) +
      B ((1 / 2 : ℝ) • A a) a + C a a a)))).congr_left fun h => ?_
    simp only [poly, map_zero, map_smul, smul_zero]
    module
  have s5 := round (by omega) (by omega) s4'
  refine s5.congr_left fun h => ?_
  simp only [poly, map_add, map_smul, smul_apply, LinearMap.smul_apply]
  module

/-- The classical Runge-Kutta step for `x' = f(x)`. -/
noncomputable def rk4 (f : E → E) (y : E) (h : ℝ) : E :=
  let k1 := f y
  let k2 := f (y + (h / 2) • k1)
  let k3 := f (y + (h / 2) • k2)
  let k4 := f (y + h • k3)
  y + (h / 6) • (k1 + (2 : ℝ) • k2 + (2 : ℝ) • k3 + k4)

/-- The expansion of one Runge-Kutta step. -/
theorem rk4_expansion {f : E → E} {y a : E} {A : E →L[ℝ] E} {B : E →L[ℝ] E →L[ℝ] E}
    {C : E →ₗ[ℝ] E →ₗ[ℝ] E →ₗ[ℝ] E} (ht : Taylor f y a A B C) :
    Small 5 fun h => rk4 f y h - (y + poly a ((1 / 2 : ℝ) • A a)
      ((1 / 6 : ℝ) • (A (A a) + (2 : ℝ) • B a a)) h + h ^ 4 • ((1 / 24 : ℝ) • A (A (A a)) +
        (1 / 12 : ℝ) • A (B a a) + (1 / 8 : ℝ) • (B a (A a) + B (A a) a) +
        (1 / 4 : ℝ) • C a a a)) := by
  have k2 := ht.along (n := 4) (by omega) (le_refl _) (v := fun h => (h / 2) • f y)
    (b1 := (1 / 2 : ℝ) • a) (b2 := 0) (b3 := 0) (by
      refine (isBigO_zero _ _).congr_left fun h => ?_
      rw [ht.base]
      simp only [poly]
      module)
  have k3 := ht.along (n := 4) (by omega) (le_refl _)
    (v := fun h => (h / 2) • f (y + (h / 2) • f y))
    (b1 := (1 / 2 : ℝ) • a) (b2 := (1 / 4 : ℝ) • A a) (b3 := (1 / 8 : ℝ) • B a a) (by
      refine (((Small.smul_id (k2.const_smul_left (1 / 2 : ℝ))).mono (n := 4) (by omega)).add
        (small_pow 4 ((1 / 16 : ℝ) • C a a a))).congr_left fun h => ?_
      simp only [poly, map_add, map_smul, map_zero, smul_apply, LinearMap.smul_apply,
        zero_apply, LinearMap.zero_apply, Pi.smul_apply]
      module)
  have k4 := ht.along (n := 4) (by omega) (le_refl _)
    (v := fun h => h • f (y + (h / 2) • f (y + (h / 2) • f y)))
    (b1 := a) (b2 := (1 / 2 : ℝ) • A a) (b3 := (1 / 4 : ℝ) • (A (A a) + B a a)) (by
      refine (((Small.smul_id k3).mono (n := 4) (by omega)).add
        (small_pow 4 ((1 / 8 : ℝ) • (A (B a a) + B a (A a) + B (A a) a + C a a a)))).congr_left
          fun h => ?_
      simp only [poly, map_add, map_smul, smul_apply, LinearMap.smul_apply]
      module)
  have sum := ((k2.const_smul_left (2 : ℝ)).add (k3.const_smul_left (2 : ℝ))).add k4
  refine (Small.smul_id (sum.const_smul_left (1 / 6 : ℝ))).congr_left fun h => ?_
  simp only [rk4, poly, map_add, map_smul, map_zero, smul_apply, LinearMap.smul_apply,
    zero_apply, LinearMap.zero_apply, Pi.smul_apply, ht.base]
  module

/-- The local error of the classical method is of fifth order. -/
theorem local_error {f : E → E} {y a : E} {A : E →L[ℝ] E} {B : E →L[ℝ] E →L[ℝ] E}
    {C : E →ₗ[ℝ] E →ₗ[ℝ] E →ₗ[ℝ] E} (ht : Taylor f y a A B C) {x : ℝ → E} (h0 : x 0 = y)
    (hx : ∀ᶠ t in 𝓝 (0 : ℝ), HasDerivAt x (f (x t)) t) :
    Small 5 fun h => rk4 f y h - x h := by
  refine ((rk4_expansion ht).sub (solution_expansion ht h0 hx)).congr_left fun h => ?_
  abel

/-! ## Analytic functions have Taylor expansions -/

/-- a trilinear map on three copies of `E`, curried -/
noncomputable def curry3 (m : MultilinearMap ℝ (fun _ : Fin 3 => E) E) : E →ₗ[ℝ] E →ₗ[ℝ] E →ₗ[ℝ] E where
  toFun u := LinearMap.mk₂ ℝ (fun v w => m ![u, v, w])
    (fun v v' w => by
      exact (m.curryLeft u).cons_add ![w] v v')
    (fun c v w => by
      exact (m.curryLeft u).cons_smul ![w] c v)
    (fun v w w' => by
      exact ((m.curryLeft u).curryLeft v).cons_add ![] w w')
    (fun c v w => by
      exact ((m.curryLeft u).curryLeft v).cons_smul ![] c w)
  map_add' u u' := by
    ext v w
    exact m.cons_add ![v, w] u u'
  map_smul' c u := by
    ext v w
    exact m.cons_smul ![v, w] c u

/-- a bilinear map on two copies of `E`, curried -/
noncomputable def curry2 (m : MultilinearMap ℝ (fun _ : Fin 2 => E) E) : E →ₗ[ℝ] E →ₗ[ℝ] E :=
  LinearMap.mk₂ ℝ (fun v w => m ![v, w])
    (fun v v' w => m.cons_add ![w] v v')
    (fun c v w => m.cons_smul ![w] c v)
    (fun v w w' => (m.curryLeft v).cons_add ![] w w')
    (fun c v w => (m.curryLeft v).cons_smul ![] c w)

/-- a linear map on one copy of `E` -/
noncomputable def curry1 (m : MultilinearMap ℝ (fun _ : Fin 1 => E) E) : E →ₗ[ℝ] E where
  toFun v := m ![v]
  map_add' v v' := m.cons_add ![] v v'
  map_smul' c v := m.cons_smul ![] c v

theorem taylor_of_analytic {f : E → E} {y : E} (hf : AnalyticAt ℝ f y) :
    ∃ a A B C, Taylor f y a A B C := by
  obtain ⟨p, hp⟩ := hf
  have hb := hp.isBigO_sub_partialSum_pow 4
  refine ⟨f y, (curry1 (p 1).toMultilinearMap).mkContinuous ‖p 1‖ ?_,
    (curry2 (p 2).toMultilinearMap).mkContinuous₂ ‖p 2‖ ?_, curry3 (p 3).toMultilinearMap,
    rfl, ?_, ?_⟩
  · intro v
    have := (p 1).le_opNorm ![v]
    rw [Fin.prod_univ_one] at this
    exact this
  · intro v w
    have := (p 2).le_opNorm ![v, w]
    rw [Fin.prod_univ_two, ← mul_assoc] at this
    exact this
  · refine ⟨‖p 3‖, norm_nonneg _, fun u v w => ?_⟩
    have := (p 3).le_opNorm ![u, v, w]
    rw [Fin.prod_univ_three] at this
    exact this
  · refine hb.congr_left fun v => ?_
    have e0 : (p 0 fun _ => v) = f y := by
      have := hp.coeff_zero (fun _ => v)
      exact this
    have e1 : (fun _ : Fin 1 => v) = ![v] := by funext i; fin_cases i; rfl
    have e2 : (fun _ : Fin 2 => v) = ![v, v] := by funext i; fin_cases i <;> rfl
    have e3 : (fun _ : Fin 3 => v) = ![v, v, v] := by funext i; fin_cases i <;> rfl
    simp only [FormalMultilinearSeries.partialSum, Finset.sum_range_succ, Finset.sum_range_zero,
      zero_add, e0]
    rw [e1, e2, e3]
    rfl

/-! ## Right-hand sides that depend on time -/

variable {X : Type*} [NormedAddCommGroup X] [NormedSpace ℝ X]

/-- The classical Runge-Kutta step for `y' = g(x, y)`, `x' = d`. -/
noncomputable def rk4At (g : X → E → E) (d : X) (x : X) (y : E) (h : ℝ) : E :=
  let k1 := g x y
  let k2 := g (x + (h / 2) • d) (y + (h / 2) • k1)
  let k3 := g (x + (h / 2) • d) (y + (h / 2) • k2)
  let k4 := g (x + h • d) (y + h • k3)
  y + (h / 6) • (k1 + (2 : ℝ) • k2 + (2 : ℝ) • k3 + k4)

theorem rk4_prod (g : X → E → E) (d : X) (x : X) (y : E) (h : ℝ) :
    rk4 (fun z : X × E => (d, g z.1 z.2)) (x, y) h = (x + h • d, rk4At g d x y h) := by
  ext
  · simp only [rk4, Prod.smul_mk, Prod.mk_add_mk]
    module
  · rfl

/-- The local error for `y' = g(x, y)`, `x' = d`, with an analytic right-hand side. -/
theorem local_error_at {g : X → E → E} {d x : X} {y : E}
    (hg : AnalyticAt ℝ (fun z : X × E => g z.1 z.2) (x, y)) {Y : ℝ → E} (h0 : Y 0 = y)
    (hY : ∀ᶠ t in 𝓝 (0 : ℝ), HasDerivAt Y (g (x + t • d) (Y t)) t) :
    Small 5 fun h => rk4At g d x y h - Y h := by
  have hf : AnalyticAt ℝ (fun z : X × E => ((d, g z.1 z.2) : X × E)) (x, y) :=
    analyticAt_const.prod hg
  obtain ⟨a, A, B, C, ht⟩ := taylor_of_analytic hf
  have h1 := local_error ht (x := fun t => (x + t • d, Y t)) (by simp [h0]) (by
    filter_upwards [hY] with t ht
    refine HasDerivAt.prodMk ?_ ht
    simpa using ((hasDerivAt_id t).smul_const d).const_add x)
  refine IsBigO.trans ?_ h1
  refine IsBigO.of_bound 1 (Eventually.of_forall fun h => ?_)
  rw [rk4_prod, one_mul, Prod.mk_sub_mk]
  exact le_max_right _ _

end Post.RKOrder
