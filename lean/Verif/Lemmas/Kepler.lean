import Verif.Lemmas.RKExplicit
import Mathlib.Analysis.InnerProductSpace.PiL2
import Mathlib.Analysis.SpecialFunctions.Pow.Deriv
import Mathlib.Analysis.SpecialFunctions.Complex.Analytic
import Mathlib.Analysis.SpecialFunctions.Pow.Real
/-! # The inverse-square field

Pure analysis: no reference to the program.  The attraction of a point mass, its continuation to complex
positions, and the error of one Runge-Kutta step of the fall in this field. -/

namespace Post.Kepler
open Metric Set

/-- real three-space -/
abbrev R3 := EuclideanSpace ℝ (Fin 3)
/-- complex three-space -/
abbrev C3 := EuclideanSpace ℂ (Fin 3)

/-- the attraction of a point mass -/
noncomputable def grav (μ : ℝ) (r : R3) : R3 := -(μ / ‖r‖ ^ 3) • r

/-- `x² + y² + z²` for complex coordinates -/
def sq (ζ : C3) : ℂ := ζ 0 ^ 2 + ζ 1 ^ 2 + ζ 2 ^ 2

/-- the attraction, for complex positions -/
noncomputable def gravC (μ : ℝ) (ζ : C3) : C3 := (-(μ : ℂ) * sq ζ ^ (-(3 / 2) : ℂ)) • ζ

/-- a real vector, as a complex one -/
noncomputable def cx : R3 →ₗ[ℝ] C3 where
  toFun r := !₂[(r 0 : ℂ), (r 1 : ℂ), (r 2 : ℂ)]
  map_add' a b := by
    ext i
    fin_cases i <;> simp
  map_smul' c a := by
    ext i
    fin_cases i <;> simp

theorem cx_apply (r : R3) (i : Fin 3) : cx r i = (r i : ℂ) := by
  fin_cases i <;> rfl

theorem norm_cx (r : R3) : ‖cx r‖ = ‖r‖ := by
  rw [EuclideanSpace.norm_eq, EuclideanSpace.norm_eq]
  congr 1
  refine Finset.sum_congr rfl fun i _ => ?_
  rw [cx_apply, Complex.norm_real]

theorem sq_cx (r : R3) : sq (cx r) = ((‖r‖ ^ 2 : ℝ) : ℂ) := by
  rw [EuclideanSpace.norm_sq_eq, Fin.sum_univ_three]
  simp [sq, cx_apply, sq_abs]

theorem gravC_cx (μ : ℝ) (r : R3) : gravC μ (cx r) = cx (grav μ r) := by
  have h : sq (cx r) ^ (-(3 / 2) : ℂ) = ((‖r‖ ^ 3)⁻¹ : ℝ) := by
    rw [sq_cx, show (-(3 / 2) : ℂ) = ((-(3 / 2) : ℝ) : ℂ) by push_cast; ring,
      ← Complex.ofReal_cpow (by positivity)]
    congr 1
    rw [Real.rpow_neg (by positivity), ← Real.rpow_natCast, ← Real.rpow_mul (norm_nonneg _),
      ← Real.rpow_natCast]
    norm_num
  unfold gravC grav
  rw [h, map_smul]
  ext i
  simp only [PiLp.smul_apply, cx_apply, smul_eq_mul, Complex.real_smul]
  push_cast
  ring

theorem analyticAt_gravC {μ : ℝ} {ζ : C3} (h : sq ζ ∈ Complex.slitPlane) :
    AnalyticAt ℂ (gravC μ) ζ := by
  have hc : ∀ i : Fin 3, AnalyticAt ℂ (fun z : C3 => z i) ζ := fun i =>
    (EuclideanSpace.proj (𝕜 := ℂ) i : C3 →L[ℂ] ℂ).analyticAt ζ
  have hs : AnalyticAt ℂ sq ζ := (((hc 0).pow 2).add ((hc 1).pow 2)).add ((hc 2).pow 2)
  unfold gravC
  exact ((analyticAt_const.mul (hs.cpow analyticAt_const h))).smul analyticAt_id

theorem norm_sq_le (ζ : C3) : ‖sq ζ‖ ≤ ‖ζ‖ ^ 2 := by
  rw [EuclideanSpace.norm_sq_eq, Fin.sum_univ_three]
  unfold sq
  refine (norm_add₃_le).trans ?_
  simp

/-- the real part of `sq` near a real vector -/
theorem re_sq_ge {r : R3} {ζ : C3} {d : ℝ} (hζ : ‖ζ - cx r‖ ≤ d) (hd : 2 * d ≤ ‖r‖) :
    (‖r‖ - d) ^ 2 ≤ (sq ζ).re := by
  have hd0 : 0 ≤ d := (norm_nonneg _).trans hζ
  let a : R3 := !₂[(ζ 0).re - r 0, (ζ 1).re - r 1, (ζ 2).re - r 2]
  let b : R3 := !₂[(ζ 0).im, (ζ 1).im, (ζ 2).im]
  have ha : ‖a‖ ^ 2 = ((ζ 0).re - r 0) ^ 2 + ((ζ 1).re - r 1) ^ 2 + ((ζ 2).re - r 2) ^ 2 := by
    rw [EuclideanSpace.norm_sq_eq, Fin.sum_univ_three]
    simp [a, sq_abs]
  have hra : ‖r + a‖ ^ 2 = (ζ 0).re ^ 2 + (ζ 1).re ^ 2 + (ζ 2).re ^ 2 := by
    rw [EuclideanSpace.norm_sq_eq, Fin.sum_univ_three]
    simp [a, sq_abs]
  have hδ : ‖ζ - cx r‖ ^ 2 = ‖a‖ ^ 2 + ((ζ 0).im ^ 2 + (ζ 1).im ^ 2 + (ζ 2).im ^ 2) := by
    rw [ha, EuclideanSpace.norm_sq_eq, Fin.sum_univ_three]
    simp only [PiLp.sub_apply, cx_apply, Complex.sq_norm, Complex.normSq_apply, Complex.sub_re,
      Complex.sub_im, Complex.ofReal_re, Complex.ofReal_im]
    ring
  have hre : (sq ζ).re = ‖r + a‖ ^ 2 - ((ζ 0).im ^ 2 + (ζ 1).im ^ 2 + (ζ 2).im ^ 2) := by
    rw [hra]
    simp only [sq, pow_two, Complex.add_re, Complex.mul_re]
    ring
  have h1 : ‖r‖ - ‖a‖ ≤ ‖r + a‖ := by
    have := norm_sub_norm_le r (-a)
    rw [norm_neg, sub_neg_eq_add] at this
    exact this
  have had : ‖a‖ ≤ d := by
    have : ‖a‖ ^ 2 ≤ d ^ 2 := by
      have h2 : ‖ζ - cx r‖ ^ 2 ≤ d ^ 2 := pow_le_pow_left₀ (norm_nonneg _) hζ 2
      nlinarith [sq_nonneg (ζ 0).im, sq_nonneg (ζ 1).im, sq_nonneg (ζ 2).im]
    exact le_of_sq_le_sq this hd0
  have h2 : (‖r‖ - ‖a‖) ^ 2 ≤ ‖r + a‖ ^ 2 := pow_le_pow_left₀ (by linarith) h1 2
  have h3 : ‖ζ - cx r‖ ^ 2 ≤ d ^ 2 := pow_le_pow_left₀ (norm_nonneg _) hζ 2
  rw [hre]
  nlinarith [mul_nonneg (sub_nonneg.2 had) (by linarith [norm_nonneg a] : 0 ≤ ‖r‖ - d - ‖a‖)]

/-- the continued field near a real vector -/
theorem gravC_near {μ R : ℝ} (hμ : 0 ≤ μ) (hR : 0 < R) {r : R3} (hr : R ≤ ‖r‖) {ζ : C3}
    (hζ : ‖ζ - cx r‖ ≤ R / 4) :
    AnalyticAt ℂ (gravC μ) ζ ∧ ‖gravC μ ζ‖ ≤ 80 / 27 * (μ / R ^ 2) := by
  have hre := re_sq_ge hζ (by linarith)
  have hs0 : 0 < ‖r‖ - R / 4 := by linarith
  have hpos : 0 < (sq ζ).re := lt_of_lt_of_le (by positivity) hre
  refine ⟨analyticAt_gravC (Or.inl hpos), ?_⟩
  have hsn : (‖r‖ - R / 4) ^ 2 ≤ ‖sq ζ‖ := hre.trans ((le_abs_self _).trans (Complex.abs_re_le_norm _))
  have hzn : ‖ζ‖ ≤ ‖r‖ + R / 4 := by
    have := norm_add_le (ζ - cx r) (cx r)
    rw [sub_add_cancel, norm_cx] at this
    linarith
  have hpow : ‖sq ζ ^ (-(3 / 2) : ℂ)‖ ≤ ((‖r‖ - R / 4) ^ 3)⁻¹ := by
    rw [show (-(3 / 2) : ℂ) = ((-(3 / 2) : ℝ) : ℂ) by push_cast; ring,
      Complex.norm_cpow_real, Real.rpow_neg (norm_nonneg _)]
    refine inv_anti₀ (by positivity) ?_
    have h1 := Real.rpow_le_rpow (by positivity) hsn (show (0 : ℝ) ≤ 3 / 2 by norm_num)
    refine le_trans (le_of_eq ?_) h1
    rw [← Real.rpow_natCast, ← Real.rpow_natCast, ← Real.rpow_mul hs0.le]
    norm_num
  unfold gravC
  rw [norm_smul, norm_mul, norm_neg, Complex.norm_real, Real.norm_of_nonneg hμ]
  have h1 : μ * ‖sq ζ ^ (-(3 / 2) : ℂ)‖ * ‖ζ‖ ≤ μ * ((‖r‖ - R / 4) ^ 3)⁻¹ * (‖r‖ + R / 4) := by
    gcongr
  refine h1.trans ?_
  have h2 : ((‖r‖ - R / 4) ^ 3)⁻¹ * (‖r‖ + R / 4) ≤ 80 / 27 / R ^ 2 := by
    rw [inv_mul_le_iff₀ (by positivity), mul_div_assoc', le_div_iff₀ (by positivity)]
    set x := ‖r‖ - R / 4 with hx
    have hxR : 3 / 4 * R ≤ x := by linarith
    have e : ‖r‖ + R / 4 = x + R / 2 := by rw [hx]; ring
    rw [e]
    have k1 : (3 / 4 * R) ^ 2 ≤ x ^ 2 := pow_le_pow_left₀ (by positivity) hxR 2
    have k2 : (3 / 4 * R) ^ 3 ≤ x ^ 3 := pow_le_pow_left₀ (by positivity) hxR 3
    nlinarith [mul_le_mul_of_nonneg_left k1 hs0.le]
  calc μ * ((‖r‖ - R / 4) ^ 3)⁻¹ * (‖r‖ + R / 4) = μ * (((‖r‖ - R / 4) ^ 3)⁻¹ * (‖r‖ + R / 4)) := by ring
    _ ≤ μ * (80 / 27 / R ^ 2) := mul_le_mul_of_nonneg_left h2 hμ
    _ = 80 / 27 * (μ / R ^ 2) := by ring

/-! ## The Lipschitz bound -/

theorem inversion_dist {x y : R3} (hx : x ≠ 0) (hy : y ≠ 0) :
    ‖(‖x‖ ^ 2)⁻¹ • x - (‖y‖ ^ 2)⁻¹ • y‖ = ‖x - y‖ / (‖x‖ * ‖y‖) := by
  have hx' : 0 < ‖x‖ := norm_pos_iff.2 hx
  have hy' : 0 < ‖y‖ := norm_pos_iff.2 hy
  refine (sq_eq_sq₀ (norm_nonneg _) (by positivity)).1 ?_
  rw [div_pow, norm_sub_sq_real, norm_sub_sq_real, norm_smul, norm_smul, real_inner_smul_left,
    real_inner_smul_right, norm_inv, norm_inv, norm_pow, norm_pow, norm_norm, norm_norm]
  field_simp
  ring

theorem grav_lipschitz {μ R : ℝ} (hμ : 0 ≤ μ) (hR : 0 < R) {x y : R3} (hx : R ≤ ‖x‖) (hy : R ≤ ‖y‖) :
    ‖grav μ x - grav μ y‖ ≤ 2 * μ / R ^ 3 * ‖x - y‖ := by
  have hx' : 0 < ‖x‖ := hR.trans_le hx
  have hy' : 0 < ‖y‖ := hR.trans_le hy
  have e : grav μ x - grav μ y = -(μ • (‖x‖⁻¹ • ((‖x‖ ^ 2)⁻¹ • x - (‖y‖ ^ 2)⁻¹ • y) +
      (‖x‖⁻¹ - ‖y‖⁻¹) • ((‖y‖ ^ 2)⁻¹ • y))) := by
    unfold grav
    have h1 : μ * (‖x‖⁻¹ * (‖x‖ ^ 2)⁻¹) = μ / ‖x‖ ^ 3 := by field_simp
    have h2 : μ * (‖y‖⁻¹ * (‖y‖ ^ 2)⁻¹) = μ / ‖y‖ ^ 3 := by field_simp
    rw [← h1, ← h2]
    module
  rw [e, norm_neg, norm_smul, Real.norm_of_nonneg hμ]
  have n1 : ‖‖x‖⁻¹ • ((‖x‖ ^ 2)⁻¹ • x - (‖y‖ ^ 2)⁻¹ • y)‖ ≤ ‖x - y‖ / R ^ 3 := by
    rw [norm_smul, norm_inv, norm_norm, inversion_dist (norm_pos_iff.1 hx') (norm_pos_iff.1 hy'),
      show ‖x‖⁻¹ * (‖x - y‖ / (‖x‖ * ‖y‖)) = ‖x - y‖ / (‖x‖ * ‖x‖ * ‖y‖) by field_simp,
      show R ^ 3 = R * R * R by ring]
    gcongr
  have n2 : ‖(‖x‖⁻¹ - ‖y‖⁻¹) • ((‖y‖ ^ 2)⁻¹ • y)‖ ≤ ‖x - y‖ / R ^ 3 := by
    rw [norm_smul, norm_smul, norm_inv, norm_pow, norm_norm, Real.norm_eq_abs]
    have h1 : |‖x‖⁻¹ - ‖y‖⁻¹| ≤ ‖x - y‖ / (‖x‖ * ‖y‖) := by
      rw [inv_sub_inv hx'.ne' hy'.ne', abs_div, abs_of_pos (mul_pos hx' hy')]
      gcongr
      rw [abs_sub_comm]
      exact abs_norm_sub_norm_le x y
    have h2 : (‖y‖ ^ 2)⁻¹ * ‖y‖ = 1 / ‖y‖ := by field_simp
    rw [h2]
    calc |‖x‖⁻¹ - ‖y‖⁻¹| * (1 / ‖y‖) ≤ ‖x - y‖ / (‖x‖ * ‖y‖) * (1 / ‖y‖) := by gcongr
      _ = ‖x - y‖ / (‖x‖ * ‖y‖ * ‖y‖) := by field_simp
      _ ≤ ‖x - y‖ / (R * R * R) := by gcongr
      _ = ‖x - y‖ / R ^ 3 := by rw [show R ^ 3 = R * R * R by ring]
  calc μ * _ ≤ μ * (‖x - y‖ / R ^ 3 + ‖x - y‖ / R ^ 3) :=
        mul_le_mul_of_nonneg_left ((norm_add_le _ _).trans (add_le_add n1 n2)) hμ
    _ = 2 * μ / R ^ 3 * ‖x - y‖ := by ring

/-! ## One step -/

/-- A force field `g` with a continuation `gC` to complex positions.  At positions at distance at least
`R` from the origin, and complex positions within `R / 4` of them, it is bounded by `G`; between real
positions it is Lipschitz continuous with constant `L`. -/
structure Field (g : R3 → R3) (gC : C3 → C3) (R G L : ℝ) : Prop where
  real : ∀ r, gC (cx r) = cx (g r)
  near : ∀ r ζ, R ≤ ‖r‖ → ‖ζ - cx r‖ ≤ R / 4 → AnalyticAt ℂ gC ζ ∧ ‖gC ζ‖ ≤ G
  lipschitz : ∀ x y, R ≤ ‖x‖ → R ≤ ‖y‖ → ‖g x - g y‖ ≤ L * ‖x - y‖

theorem grav_field {μ R : ℝ} (hμ : 0 ≤ μ) (hR : 0 < R) :
    Field (grav μ) (gravC μ) R (80 / 27 * (μ / R ^ 2)) (2 * μ / R ^ 3) :=
  ⟨gravC_cx μ, fun _ _ hr hζ => gravC_near hμ hR hr hζ, fun _ _ hx hy => grav_lipschitz hμ hR hx hy⟩

theorem Field.size {g : R3 → R3} {gC : C3 → C3} {R G L : ℝ} (H : Field g gC R G L) (hR : 0 < R) {x : R3}
    (hx : R ≤ ‖x‖) : ‖g x‖ ≤ G := by
  have := (H.near x (cx x) hx (by simp; positivity)).2
  rwa [H.real, norm_cx] at this

theorem Field.nonneg {g : R3 → R3} {gC : C3 → C3} {R G L : ℝ} (H : Field g gC R G L) (hR : 0 < R) :
    0 ≤ G := by
  refine (norm_nonneg _).trans (H.size hR (x := !₂[R, 0, 0]) ?_)
  rw [EuclideanSpace.norm_eq, Fin.sum_univ_three]
  simp [(Real.sqrt_sq hR.le).ge]

/-- the equations of motion -/
def motion (g : R3 → R3) (z : R3 × R3) : R3 × R3 := (z.2, g z.1)

/-- the equations of motion for complex states, with velocities multiplied by `τ` -/
noncomputable def motionC (gC : C3 → C3) (τ : ℝ) (z : C3 × C3) : C3 × C3 :=
  (((τ⁻¹ : ℝ) : ℂ) • z.2, (τ : ℂ) • gC z.1)

/-- a real state, as a complex one -/
noncomputable def embed (τ : ℝ) : R3 × R3 →ₗ[ℝ] C3 × C3 :=
  (cx.comp (LinearMap.fst ℝ R3 R3)).prod (τ • cx.comp (LinearMap.snd ℝ R3 R3))

theorem embed_apply (τ : ℝ) (z : R3 × R3) : embed τ z = (cx z.1, (τ : ℂ) • cx z.2) := by
  simp [embed]

theorem motionC_embed {g : R3 → R3} {gC : C3 → C3} {R G L : ℝ} (H : Field g gC R G L) {τ : ℝ}
    (hτ : 0 < τ) (z : R3 × R3) : motionC gC τ (embed τ z) = embed τ (motion g z) := by
  have h : (τ : ℂ) ≠ 0 := by exact_mod_cast hτ.ne'
  simp only [embed_apply, motionC, motion, H.real, smul_smul]
  rw [Complex.ofReal_inv, inv_mul_cancel₀ h, one_smul]

theorem rk4_map {E F : Type*} [NormedAddCommGroup E] [NormedSpace ℝ E] [NormedAddCommGroup F]
    [NormedSpace ℝ F] {f : E → E} {g : F → F} (A : E →ₗ[ℝ] F) (hA : ∀ z, g (A z) = A (f z))
    (y : E) (h : ℝ) : RKOrder.rk4 g (A y) h = A (RKOrder.rk4 f y h) := by
  have e : ∀ c : ℝ, ∀ a b : E, A a + c • A b = A (a + c • b) := fun c a b => by
    rw [map_add, map_smul]
  simp only [RKOrder.rk4, hA, e]
  simp only [map_add, map_smul]

theorem hasDerivAt_cx {r : ℝ → R3} {r' : R3} {t : ℝ} (h : HasDerivAt r r' t) :
    HasDerivAt (fun t => cx (r t)) (cx r') t := by
  exact (cx.toContinuousLinearMap.hasFDerivAt (x := r t)).comp_hasDerivAt t h

/-- The error of one step of the fall, with explicit constants: orbits at distance at least `R`, with
speeds up to `V`; `W` and `T` are chosen such that in the time `T` a body of speed `V + W` does not get
further than `R / 4` and gravity does not change velocities by more than `W`. -/
theorem step_error {g : R3 → R3} {gC : C3 → C3} {R G L V W T h : ℝ} (H : Field g gC R G L)
    {r v : ℝ → R3} (hR : 0 < R) (hW : 0 < W)
    (hT1 : T * (V + W) ≤ R / 4) (hT2 : T * G ≤ W) (hh : 0 ≤ h) (hhT : h < T)
    (hr : ∀ t ∈ Icc 0 h, HasDerivAt r (v t) t) (hv : ∀ t ∈ Icc 0 h, HasDerivAt v (g (r t)) t)
    (hrR : ∀ t ∈ Icc 0 h, R ≤ ‖r t‖) (hvV : ∀ t ∈ Icc 0 h, ‖v t‖ ≤ V) :
    ‖(RKOrder.rk4 (motion g) (r 0, v 0) h).1 - r h‖ ≤ 7 * (R / 4) * (h / T) ^ 5 ∧
    ‖(RKOrder.rk4 (motion g) (r 0, v 0) h).2 - v h‖ ≤ 7 * W * (h / T) ^ 5 := by
  have hT : 0 < T := hh.trans_lt hhT
  set τ := R / 4 / W with hτdef
  have hτ : 0 < τ := by positivity
  have hτW : R / 4 / τ = W := by rw [hτdef]; field_simp
  have hx : ∀ t ∈ Icc 0 h, HasDerivAt (fun t => embed τ (r t, v t))
      (motionC gC τ (embed τ (r t, v t))) t := by
    intro t ht
    rw [motionC_embed H hτ]
    simp only [embed_apply, motion]
    exact (hasDerivAt_cx (hr t ht)).prodMk ((hasDerivAt_cx (hv t ht)).const_smul (τ : ℂ))
  have near : ∀ t ∈ Icc 0 h, ∀ z ∈ closedBall (embed τ (r t, v t)) (R / 4),
      ‖z.1 - cx (r t)‖ ≤ R / 4 ∧ ‖((τ⁻¹ : ℝ) : ℂ) • z.2‖ ≤ V + W := by
    intro t ht z hz
    rw [mem_closedBall, dist_eq_norm, embed_apply] at hz
    have h1 : ‖z.1 - cx (r t)‖ ≤ R / 4 := (norm_fst_le _).trans hz
    have h2 : ‖z.2 - (τ : ℂ) • cx (v t)‖ ≤ R / 4 := (norm_snd_le (z - _)).trans hz
    refine ⟨h1, ?_⟩
    have e : ((τ⁻¹ : ℝ) : ℂ) • z.2 = ((τ⁻¹ : ℝ) : ℂ) • (z.2 - (τ : ℂ) • cx (v t)) + cx (v t) := by
      have h : (τ : ℂ) ≠ 0 := by exact_mod_cast hτ.ne'
      rw [smul_sub, smul_smul, Complex.ofReal_inv, inv_mul_cancel₀ h, one_smul, sub_add_cancel]
    rw [e]
    refine (norm_add_le _ _).trans ?_
    rw [norm_smul, Complex.norm_real, Real.norm_of_nonneg (by positivity), norm_cx, add_comm]
    refine add_le_add (hvV t ht) ?_
    calc τ⁻¹ * ‖z.2 - (τ : ℂ) • cx (v t)‖ ≤ τ⁻¹ * (R / 4) := by gcongr
      _ = W := by rw [← hτW]; field_simp
  have main := RKExplicit.rk4_error (f := motionC gC τ) (x := fun t => embed τ (r t, v t)) (d := R / 4)
    (T := T) (h := h) (by positivity) hh hhT hx
    (fun t ht z hz => by
      have h1 := (H.near _ _ (hrR t ht) (near t ht z hz).1).1
      have h2 : AnalyticAt ℂ (fun z : C3 × C3 => gC z.1) z :=
        AnalyticAt.comp (g := gC) (f := fun z : C3 × C3 => z.1) h1 analyticAt_fst
      exact ((analyticAt_const (v := ((τ⁻¹ : ℝ) : ℂ))).smul analyticAt_snd).prod
        ((analyticAt_const (v := (τ : ℂ))).smul h2))
    (fun t ht z hz => by
      have h1 := (H.near _ _ (hrR t ht) (near t ht z hz).1).2
      have h2 := (near t ht z hz).2
      refine max_le ?_ ?_
      · show ‖((τ⁻¹ : ℝ) : ℂ) • z.2‖ ≤ _
        refine h2.trans ?_
        rw [le_div_iff₀ hT]
        linarith
      · show ‖(τ : ℂ) • gC z.1‖ ≤ _
        rw [norm_smul, Complex.norm_real, Real.norm_of_nonneg hτ.le, le_div_iff₀ hT]
        calc τ * ‖gC z.1‖ * T ≤ τ * G * T := by gcongr
          _ = τ * (T * G) := by ring
          _ ≤ τ * W := by gcongr
          _ = R / 4 := by rw [hτdef]; field_simp)
  rw [rk4_map (embed τ) (motionC_embed H hτ), ← map_sub, embed_apply] at main
  constructor
  · have := (norm_fst_le _).trans main
    rwa [norm_cx] at this
  · have := (norm_snd_le _).trans main
    rw [norm_smul, Complex.norm_real, Real.norm_of_nonneg hτ.le, norm_cx] at this
    have h1 := mul_le_mul_of_nonneg_left this (inv_nonneg.2 hτ.le)
    rw [← mul_assoc, inv_mul_cancel₀ hτ.ne', one_mul] at h1
    refine h1.trans (le_of_eq ?_)
    rw [← hτW]
    field_simp

/-! ## Many steps -/

/-- all positions at which a step evaluates gravity keep the distance `R` -/
theorem stages_far {g : R3 → R3} {gC : C3 → C3} {R G L V h : ℝ} (H : Field g gC R G L) (hR : 0 < R) (hh : 0 ≤ h) {r v : R3} (hv : ‖v‖ ≤ V)
    (hr : R + h * V + h ^ 2 * G ≤ ‖r‖) :
    R ≤ ‖r‖ ∧ R ≤ ‖r + (h / 2) • v‖ ∧ R ≤ ‖r + (h / 2) • (v + (h / 2) • g r)‖ ∧
      R ≤ ‖r + h • (v + (h / 2) • g (r + (h / 2) • v))‖ := by
  have hV : 0 ≤ V := (norm_nonneg _).trans hv
  have hg : 0 ≤ G := H.nonneg hR
  have hhV : 0 ≤ h * V := by positivity
  have hhg : 0 ≤ h ^ 2 * G := by positivity
  have tri : ∀ w : R3, ‖r‖ - ‖w‖ ≤ ‖r + w‖ := fun w => by
    have := norm_sub_norm_le r (-w)
    rwa [norm_neg, sub_neg_eq_add] at this
  have h1 : R ≤ ‖r‖ := by linarith
  have b1 := H.size hR h1
  have h2 : R ≤ ‖r + (h / 2) • v‖ := by
    have := tri ((h / 2) • v)
    rw [norm_smul, Real.norm_of_nonneg (by positivity)] at this
    have k : h / 2 * ‖v‖ ≤ h / 2 * V := by gcongr
    linarith
  have b2 := H.size hR h2
  have stage : ∀ (c : ℝ) (w : R3), 0 ≤ c → c ≤ h → ‖w‖ ≤ G →
      R ≤ ‖r + c • (v + (h / 2) • w)‖ := by
    intro c w hc hch hw
    have := tri (c • (v + (h / 2) • w))
    rw [norm_smul, Real.norm_of_nonneg hc] at this
    have k1 : ‖v + (h / 2) • w‖ ≤ V + h / 2 * G := by
      refine (norm_add_le _ _).trans (add_le_add hv ?_)
      rw [norm_smul, Real.norm_of_nonneg (by positivity)]
      gcongr
    have k2 : c * ‖v + (h / 2) • w‖ ≤ h * (V + h / 2 * G) :=
      mul_le_mul hch k1 (norm_nonneg _) hh
    nlinarith
  exact ⟨h1, h2, stage _ _ (by positivity) (by linarith) b1, stage _ _ hh le_rfl b2⟩

/-- one step, written out -/
theorem rk4_motion (g : R3 → R3) (r v : R3) (h : ℝ) :
    RKOrder.rk4 (motion g) (r, v) h =
      let g1 := g r
      let g2 := g (r + (h / 2) • v)
      let g3 := g (r + (h / 2) • (v + (h / 2) • g1))
      let g4 := g (r + h • (v + (h / 2) • g2))
      (r + h • v + (h ^ 2 / 6) • (g1 + g2 + g3), v + (h / 6) • (g1 + (2 : ℝ) • g2 + (2 : ℝ) • g3 + g4)) := by
  simp only [RKOrder.rk4, motion, Prod.smul_mk, Prod.mk_add_mk]
  refine Prod.ext ?_ ?_
  · simp only
    module
  · rfl

theorem norm_add_smul_le {E : Type*} [NormedAddCommGroup E] [NormedSpace ℝ E] {a b : E} {c x y : ℝ}
    (hc : 0 ≤ c) (ha : ‖a‖ ≤ x) (hb : ‖b‖ ≤ y) : ‖a + c • b‖ ≤ x + c * y := by
  refine (norm_add_le _ _).trans (add_le_add ha ?_)
  rw [norm_smul, Real.norm_of_nonneg hc]
  exact mul_le_mul_of_nonneg_left hb hc

/-- Two steps from neighbouring states. -/
theorem step_stable {g : R3 → R3} {gC : C3 → C3} {R G L V h lam : ℝ} (H : Field g gC R G L) (hR : 0 < R) (hh : 0 ≤ h) (hlam : 0 < lam)
    (hL : L ≤ lam ^ 2) {r1 v1 r2 v2 : R3} (hv1 : ‖v1‖ ≤ V) (hv2 : ‖v2‖ ≤ V)
    (hr1 : R + h * V + h ^ 2 * G ≤ ‖r1‖) (hr2 : R + h * V + h ^ 2 * G ≤ ‖r2‖) :
    lam * ‖(RKOrder.rk4 (motion g) (r1, v1) h).1 - (RKOrder.rk4 (motion g) (r2, v2) h).1‖ +
      ‖(RKOrder.rk4 (motion g) (r1, v1) h).2 - (RKOrder.rk4 (motion g) (r2, v2) h).2‖ ≤
    Real.exp (lam * h) * (lam * ‖r1 - r2‖ + ‖v1 - v2‖) := by
  obtain ⟨p1, p2, p3, p4⟩ := stages_far H hR hh hv1 hr1
  obtain ⟨q1, q2, q3, q4⟩ := stages_far H hR hh hv2 hr2
  rw [rk4_motion, rk4_motion]
  simp only
  set g1 := g r1 with hg1
  set g2 := g (r1 + (h / 2) • v1) with hg2
  set g3 := g (r1 + (h / 2) • (v1 + (h / 2) • g1)) with hg3
  set g4 := g (r1 + h • (v1 + (h / 2) • g2)) with hg4
  set k1 := g r2 with hk1
  set k2 := g (r2 + (h / 2) • v2) with hk2
  set k3 := g (r2 + (h / 2) • (v2 + (h / 2) • k1)) with hk3
  set k4 := g (r2 + h • (v2 + (h / 2) • k2)) with hk4
  set a := ‖r1 - r2‖ with ha
  set b := ‖v1 - v2‖ with hb
  have ha0 : 0 ≤ a := norm_nonneg _
  have hb0 : 0 ≤ b := norm_nonneg _
  have lip : ∀ x y : R3, R ≤ ‖x‖ → R ≤ ‖y‖ → ‖g x - g y‖ ≤ lam ^ 2 * ‖x - y‖ :=
    fun x y hx hy => (H.lipschitz x y hx hy).trans
      (mul_le_mul_of_nonneg_right hL (norm_nonneg _))
  have d1 : ‖g1 - k1‖ ≤ lam ^ 2 * a := lip _ _ p1 q1
  have d2 : ‖g2 - k2‖ ≤ lam ^ 2 * (a + h / 2 * b) := by
    refine (lip _ _ p2 q2).trans (mul_le_mul_of_nonneg_left ?_ (by positivity))
    rw [show r1 + (h / 2) • v1 - (r2 + (h / 2) • v2) = (r1 - r2) + (h / 2) • (v1 - v2) by module]
    exact norm_add_smul_le (by positivity) le_rfl le_rfl
  have d3 : ‖g3 - k3‖ ≤ lam ^ 2 * (a + h / 2 * (b + h / 2 * (lam ^ 2 * a))) := by
    refine (lip _ _ p3 q3).trans (mul_le_mul_of_nonneg_left ?_ (by positivity))
    rw [show r1 + (h / 2) • (v1 + (h / 2) • g1) - (r2 + (h / 2) • (v2 + (h / 2) • k1)) =
      (r1 - r2) + (h / 2) • ((v1 - v2) + (h / 2) • (g1 - k1)) by module]
    exact norm_add_smul_le (by positivity) le_rfl (norm_add_smul_le (by positivity) le_rfl d1)
  have d4 : ‖g4 - k4‖ ≤ lam ^ 2 * (a + h * (b + h / 2 * (lam ^ 2 * (a + h / 2 * b)))) := by
    refine (lip _ _ p4 q4).trans (mul_le_mul_of_nonneg_left ?_ (by positivity))
    rw [show r1 + h • (v1 + (h / 2) • g2) - (r2 + h • (v2 + (h / 2) • k2)) =
      (r1 - r2) + h • ((v1 - v2) + (h / 2) • (g2 - k2)) by module]
    exact norm_add_smul_le hh le_rfl (norm_add_smul_le (by positivity) le_rfl d2)
  have er : ‖r1 + h • v1 + (h ^ 2 / 6) • (g1 + g2 + g3) -
      (r2 + h • v2 + (h ^ 2 / 6) • (k1 + k2 + k3))‖ ≤
      a + h * b + h ^ 2 / 6 * (lam ^ 2 * a + lam ^ 2 * (a + h / 2 * b) +
        lam ^ 2 * (a + h / 2 * (b + h / 2 * (lam ^ 2 * a)))) := by
    rw [show r1 + h • v1 + (h ^ 2 / 6) • (g1 + g2 + g3) -
        (r2 + h • v2 + (h ^ 2 / 6) • (k1 + k2 + k3)) =
      ((r1 - r2) + h • (v1 - v2)) + (h ^ 2 / 6) • ((g1 - k1) + (g2 - k2) + (g3 - k3)) by module]
    refine norm_add_smul_le (by positivity) (norm_add_smul_le hh le_rfl le_rfl) ?_
    exact norm_add₃_le.trans (add_le_add (add_le_add d1 d2) d3)
  have ev : ‖v1 + (h / 6) • (g1 + (2 : ℝ) • g2 + (2 : ℝ) • g3 + g4) -
      (v2 + (h / 6) • (k1 + (2 : ℝ) • k2 + (2 : ℝ) • k3 + k4))‖ ≤
      b + h / 6 * (lam ^ 2 * a + 2 * (lam ^ 2 * (a + h / 2 * b)) +
        2 * (lam ^ 2 * (a + h / 2 * (b + h / 2 * (lam ^ 2 * a)))) +
        lam ^ 2 * (a + h * (b + h / 2 * (lam ^ 2 * (a + h / 2 * b))))) := by
    rw [show v1 + (h / 6) • (g1 + (2 : ℝ) • g2 + (2 : ℝ) • g3 + g4) -
        (v2 + (h / 6) • (k1 + (2 : ℝ) • k2 + (2 : ℝ) • k3 + k4)) =
      (v1 - v2) + (h / 6) • (((g1 - k1) + (2 : ℝ) • (g2 - k2) + (2 : ℝ) • (g3 - k3)) + (g4 - k4))
      by module]
    refine norm_add_smul_le (by positivity) le_rfl ?_
    refine (norm_add_le _ _).trans (add_le_add ?_ d4)
    exact norm_add_smul_le (by norm_num) (norm_add_smul_le (by norm_num) d1 d2) d3
  have hexp : 1 + lam * h + (lam * h) ^ 2 / 2 + (lam * h) ^ 3 / 6 + (lam * h) ^ 4 / 24 ≤
      Real.exp (lam * h) := by
    have := Real.sum_le_exp_of_nonneg (x := lam * h) (by positivity) 5
    simp only [Finset.sum_range_succ, Finset.sum_range_zero, Nat.factorial] at this
    norm_num at this
    linarith
  calc _ ≤ lam * (a + h * b + h ^ 2 / 6 * (lam ^ 2 * a + lam ^ 2 * (a + h / 2 * b) +
        lam ^ 2 * (a + h / 2 * (b + h / 2 * (lam ^ 2 * a))))) +
      (b + h / 6 * (lam ^ 2 * a + 2 * (lam ^ 2 * (a + h / 2 * b)) +
        2 * (lam ^ 2 * (a + h / 2 * (b + h / 2 * (lam ^ 2 * a)))) +
        lam ^ 2 * (a + h * (b + h / 2 * (lam ^ 2 * (a + h / 2 * b)))))) :=
        add_le_add (mul_le_mul_of_nonneg_left er hlam.le) ev
    _ = (1 + lam * h + (lam * h) ^ 2 / 2 + (lam * h) ^ 3 / 6 + (lam * h) ^ 4 / 24) *
        (lam * a + b) := by ring
    _ ≤ Real.exp (lam * h) * (lam * a + b) := mul_le_mul_of_nonneg_right hexp (by positivity)

/-- the bound after `k` steps: the error at the start, `N`, and the error of each step, `κ`, grow at
most exponentially -/
noncomputable def bound (lam h N κ : ℝ) (k : ℕ) : ℝ :=
  Real.exp (lam * (k * h)) * N + κ * ((Real.exp (lam * (k * h)) - 1) / (lam * h))

theorem bound_zero (lam h N κ : ℝ) : bound lam h N κ 0 = N := by simp [bound]

theorem bound_succ {lam h N κ : ℝ} (hlam : 0 < lam) (hh : 0 < h) (hκ : 0 ≤ κ) (k : ℕ) :
    Real.exp (lam * h) * bound lam h N κ k + κ ≤ bound lam h N κ (k + 1) := by
  have e : Real.exp (lam * ((k + 1 : ℕ) * h)) = Real.exp (lam * h) * Real.exp (lam * (k * h)) := by
    rw [← Real.exp_add]
    congr 1
    push_cast
    ring
  have h1 : lam * h + 1 ≤ Real.exp (lam * h) := Real.add_one_le_exp _
  have hp : 0 < lam * h := by positivity
  unfold bound
  rw [e]
  set q := Real.exp (lam * h)
  set Q := Real.exp (lam * (k * h))
  have h2 : κ * ((q * Q - 1) / (lam * h)) = q * (κ * ((Q - 1) / (lam * h))) + κ * ((q - 1) / (lam * h)) := by
    field_simp
    ring
  have h3 : 1 ≤ (q - 1) / (lam * h) := by rw [le_div_iff₀ hp]; linarith
  rw [h2]
  nlinarith [mul_le_mul_of_nonneg_left h3 hκ]

theorem bound_mono {lam h N κ : ℝ} (hlam : 0 < lam) (hh : 0 < h) (hκ : 0 ≤ κ) (hN : 0 ≤ N) {k n : ℕ}
    (hkn : k ≤ n) : bound lam h N κ k ≤ bound lam h N κ n := by
  have hkn' : (k : ℝ) ≤ n := by exact_mod_cast hkn
  have : Real.exp (lam * (k * h)) ≤ Real.exp (lam * (n * h)) := by
    apply Real.exp_le_exp.2
    gcongr
  unfold bound
  gcongr

/-- The error of a sequence of states each of which is, up to small errors, the result of a step from
the one before it. -/
theorem flight_error {g : R3 → R3} {gC : C3 → C3} {R G L V W T h lam D N er ev t1 : ℝ} {r v : ℝ → R3} {n : ℕ} {z : ℕ → R3 × R3}
    (H : Field g gC R G L) (hR : 0 < R) (hW : 0 < W) (hT1 : T * (V + W) ≤ R / 4)
    (hT2 : T * G ≤ W) (hh : 0 < h) (hhT : h < T) (hlam : 0 < lam)
    (hL : L ≤ lam ^ 2) (her : 0 ≤ er) (hev : 0 ≤ ev)
    (hr : ∀ t ∈ Icc t1 (t1 + n * h), HasDerivAt r (v t) t)
    (hv : ∀ t ∈ Icc t1 (t1 + n * h), HasDerivAt v (g (r t)) t)
    (hrR : ∀ t ∈ Icc t1 (t1 + n * h), R + D + h * (V + lam * D) + h ^ 2 * G ≤ ‖r t‖)
    (hvV : ∀ t ∈ Icc t1 (t1 + n * h), ‖v t‖ ≤ V)
    (hN : lam * ‖(z 0).1 - r t1‖ + ‖(z 0).2 - v t1‖ ≤ N)
    (hD : bound lam h N (lam * (7 * (R / 4) * (h / T) ^ 5 + er) + (7 * W * (h / T) ^ 5 + ev)) n ≤
      lam * D)
    (hz : ∀ k < n, ‖(z k).1 - r (t1 + k * h)‖ ≤ D → ‖(z k).2 - v (t1 + k * h)‖ ≤ lam * D →
      ‖(z (k + 1)).1 - (RKOrder.rk4 (motion g) (z k) h).1‖ ≤ er ∧
      ‖(z (k + 1)).2 - (RKOrder.rk4 (motion g) (z k) h).2‖ ≤ ev) :
    ∀ k ≤ n, lam * ‖(z k).1 - r (t1 + k * h)‖ + ‖(z k).2 - v (t1 + k * h)‖ ≤
      bound lam h N (lam * (7 * (R / 4) * (h / T) ^ 5 + er) + (7 * W * (h / T) ^ 5 + ev)) k := by
  have hT : 0 < T := hh.trans hhT
  have hN0 : 0 ≤ N := le_trans (by positivity) hN
  set κ := lam * (7 * (R / 4) * (h / T) ^ 5 + er) + (7 * W * (h / T) ^ 5 + ev) with hκdef
  have hκ : 0 ≤ κ := by positivity
  have hD0 : 0 ≤ D := by
    have h0 : 0 ≤ bound lam h N κ 0 := by rw [bound_zero]; exact hN0
    have h1 := h0.trans ((bound_mono hlam hh hκ hN0 (Nat.zero_le n)).trans hD)
    by_contra hneg
    nlinarith
  have hV : 0 ≤ V := (norm_nonneg _).trans
    (hvV t1 ⟨le_rfl, by have : 0 ≤ (n : ℝ) * h := by positivity
                        linarith⟩)
  intro k
  induction k with
  | zero =>
    intro _
    rw [bound_zero]
    simpa using hN
  | succ k ih =>
    intro hk
    have ih := ih (by omega)
    have hle := ih.trans ((bound_mono hlam hh hκ hN0 (by omega : k ≤ n)).trans hD)
    have ht0 : t1 + k * h ∈ Icc t1 (t1 + n * h) := by
      have h1 : (k : ℝ) ≤ n := by exact_mod_cast (by omega : k ≤ n)
      refine ⟨?_, ?_⟩
      · have : 0 ≤ (k : ℝ) * h := by positivity
        linarith
      · have : (k : ℝ) * h ≤ n * h := by gcongr
        linarith
    have hsub : ∀ s ∈ Icc 0 h, t1 + k * h + s ∈ Icc t1 (t1 + n * h) := by
      intro s hs
      have h1 : ((k : ℝ) + 1) ≤ n := by exact_mod_cast hk
      have h2 : ((k : ℝ) + 1) * h ≤ n * h := by gcongr
      refine ⟨by linarith [ht0.1, hs.1], by linarith [hs.2]⟩
    have hp : ‖(z k).1 - r (t1 + k * h)‖ ≤ D := by
      have : lam * ‖(z k).1 - r (t1 + k * h)‖ ≤ lam * D := by
        linarith [norm_nonneg ((z k).2 - v (t1 + k * h))]
      exact le_of_mul_le_mul_left this hlam
    have hq : ‖(z k).2 - v (t1 + k * h)‖ ≤ lam * D := by
      have : 0 ≤ lam * ‖(z k).1 - r (t1 + k * h)‖ := by positivity
      linarith
    obtain ⟨z1, z2⟩ := hz k (by omega) hp hq
    -- the exact step from the orbit
    have hRle : ∀ t ∈ Icc t1 (t1 + n * h), R ≤ ‖r t‖ := by
      intro t ht
      have := hrR t ht
      have e1 : 0 ≤ h * (V + lam * D) := by positivity
      have e2 : 0 ≤ h ^ 2 * G := mul_nonneg (by positivity) (H.nonneg hR)
      linarith
    have shiftd : ∀ {w : ℝ → R3} {w' : R3} {s : ℝ}, HasDerivAt w w' (t1 + k * h + s) →
        HasDerivAt (fun s => w (t1 + k * h + s)) w' s := by
      intro w w' s hw
      have h2 : HasDerivAt (fun s : ℝ => t1 + k * h + s) 1 s := (hasDerivAt_id s).const_add _
      have h3 := HasDerivAt.scomp s hw h2
      rwa [one_smul] at h3
    have loc := step_error (r := fun s => r (t1 + k * h + s)) (v := fun s => v (t1 + k * h + s))
      H hR hW hT1 hT2 hh.le hhT (fun s hs => shiftd (hr _ (hsub s hs)))
      (fun s hs => shiftd (hv _ (hsub s hs))) (fun s hs => hRle _ (hsub s hs))
      (fun s hs => hvV _ (hsub s hs))
    simp only [add_zero] at loc
    -- the step from the neighbouring state
    have hzr : R + h * (V + lam * D) + h ^ 2 * G ≤ ‖(z k).1‖ := by
      have h1 := hrR _ ht0
      have h2 := norm_sub_norm_le (r (t1 + k * h)) (z k).1
      rw [norm_sub_rev] at h2
      linarith
    have hzv : ‖(z k).2‖ ≤ V + lam * D := by
      have h1 := hvV _ ht0
      have h2 := norm_sub_norm_le (z k).2 (v (t1 + k * h))
      linarith
    have st := step_stable (r1 := (z k).1) (v1 := (z k).2) (r2 := r (t1 + k * h))
      (v2 := v (t1 + k * h)) (V := V + lam * D) H hR hh.le hlam hL hzv
      (by have := hvV _ ht0
          have h3 : 0 ≤ lam * D := by positivity
          linarith) hzr (by have := hrR _ ht0; linarith)
    have hcast : t1 + ((k + 1 : ℕ) : ℝ) * h = t1 + k * h + h := by push_cast; ring
    rw [hcast]
    have et : (z k) = ((z k).1, (z k).2) := rfl
    rw [et] at z1 z2
    set A := RKOrder.rk4 (motion g) ((z k).1, (z k).2) h
    set B := RKOrder.rk4 (motion g) (r (t1 + k * h), v (t1 + k * h)) h
    have t1' : ‖(z (k + 1)).1 - r (t1 + k * h + h)‖ ≤ er + ‖A.1 - B.1‖ + 7 * (R / 4) * (h / T) ^ 5 := by
      rw [show (z (k + 1)).1 - r (t1 + k * h + h) = ((z (k + 1)).1 - A.1) + (A.1 - B.1) +
        (B.1 - r (t1 + k * h + h)) by abel]
      exact norm_add₃_le.trans (add_le_add (add_le_add z1 le_rfl) loc.1)
    have t2' : ‖(z (k + 1)).2 - v (t1 + k * h + h)‖ ≤ ev + ‖A.2 - B.2‖ + 7 * W * (h / T) ^ 5 := by
      rw [show (z (k + 1)).2 - v (t1 + k * h + h) = ((z (k + 1)).2 - A.2) + (A.2 - B.2) +
        (B.2 - v (t1 + k * h + h)) by abel]
      exact norm_add₃_le.trans (add_le_add (add_le_add z2 le_rfl) loc.2)
    have hmul := mul_le_mul_of_nonneg_left t1' hlam.le
    have hbs := bound_succ (N := N) hlam hh hκ k
    have hb : Real.exp (lam * h) * (lam * ‖(z k).1 - r (t1 + k * h)‖ + ‖(z k).2 - v (t1 + k * h)‖) ≤
        Real.exp (lam * h) * bound lam h N κ k := mul_le_mul_of_nonneg_left ih (Real.exp_pos _).le
    refine le_trans ?_ hbs
    rw [hκdef] at *
    nlinarith

end Post.Kepler
