import Verif.Lemmas.Kepler
/-! # Powered flight: an explicit bound on the error of the integrator

The force field of `Kepler.lean` with an additional acceleration that depends on time only.
-/

open Set Metric Topology Filter

namespace Post.Kepler

/-- An acceleration that depends on time, with a continuation to complex times.  Within the time `T` of the times in `I` it
is bounded by `B`. -/
structure Forcing (A : ℝ → R3) (AC : ℂ → C3) (I : Set ℝ) (T B : ℝ) : Prop where
  real : ∀ t : ℝ, AC t = cx (A t)
  near : ∀ t ∈ I, ∀ ζ : ℂ, ‖ζ - t‖ ≤ T → AnalyticAt ℂ AC ζ ∧ ‖AC ζ‖ ≤ B

theorem Forcing.size {A : ℝ → R3} {AC : ℂ → C3} {I : Set ℝ} {T B : ℝ} (H : Forcing A AC I T B) (hT : 0 ≤ T) {t : ℝ}
    (ht : t ∈ I) : ‖A t‖ ≤ B := by
  have := (H.near t ht t (by simpa using hT)).2
  rwa [H.real, norm_cx] at this

theorem Forcing.nonneg {A : ℝ → R3} {AC : ℂ → C3} {I : Set ℝ} {T B : ℝ} (H : Forcing A AC I T B) (hT : 0 ≤ T) {t : ℝ}
    (ht : t ∈ I) : 0 ≤ B := (norm_nonneg _).trans (H.size hT ht)

/-- the equations of motion: position, velocity and time -/
def motionT (g : R3 → R3) (A : ℝ → R3) (z : R3 × R3 × ℝ) : R3 × R3 × ℝ := (z.2.1, g z.1 + A z.2.2, 1)

/-- the equations of motion for complex states, with velocities multiplied by `τ` and times by `σ` -/
noncomputable def motionCT (gC : C3 → C3) (AC : ℂ → C3) (τ σ : ℝ) (z : C3 × C3 × ℂ) : C3 × C3 × ℂ :=
  (((τ⁻¹ : ℝ) : ℂ) • z.2.1, (τ : ℂ) • (gC z.1 + AC (((σ⁻¹ : ℝ) : ℂ) * z.2.2)), (σ : ℂ))

/-- a real number, as a complex one -/
noncomputable def cr : ℝ →ₗ[ℝ] ℂ := Complex.ofRealCLM.toLinearMap

theorem cr_apply (t : ℝ) : cr t = (t : ℂ) := rfl

/-- a real state, as a complex one -/
noncomputable def embedT (τ σ : ℝ) : R3 × R3 × ℝ →ₗ[ℝ] C3 × C3 × ℂ :=
  (cx.comp (LinearMap.fst ℝ R3 (R3 × ℝ))).prod
    ((τ • cx.comp ((LinearMap.fst ℝ R3 ℝ).comp (LinearMap.snd ℝ R3 (R3 × ℝ)))).prod
      (σ • cr.comp ((LinearMap.snd ℝ R3 ℝ).comp (LinearMap.snd ℝ R3 (R3 × ℝ)))))

theorem embedT_apply (τ σ : ℝ) (z : R3 × R3 × ℝ) :
    embedT τ σ z = (cx z.1, (τ : ℂ) • cx z.2.1, (σ : ℂ) * (z.2.2 : ℂ)) := by
  simp [embedT, cr_apply]

theorem motionCT_embed {g : R3 → R3} {gC : C3 → C3} {R G L : ℝ} (H : Field g gC R G L) {A : ℝ → R3} {AC : ℂ → C3} {I : Set ℝ}
    {T B : ℝ} (HA : Forcing A AC I T B) {τ σ : ℝ} (hτ : 0 < τ) (hσ : 0 < σ) (z : R3 × R3 × ℝ) :
    motionCT gC AC τ σ (embedT τ σ z) = embedT τ σ (motionT g A z) := by
  have h : (τ : ℂ) ≠ 0 := by exact_mod_cast hτ.ne'
  have h' : (σ : ℂ) ≠ 0 := by exact_mod_cast hσ.ne'
  simp only [embedT_apply, motionCT, motionT, H.real, smul_smul, map_add, ← mul_assoc]
  rw [Complex.ofReal_inv, inv_mul_cancel₀ h, one_smul, Complex.ofReal_inv, inv_mul_cancel₀ h', one_mul, HA.real]
  simp

/-- The error of one step, with explicit constants. -/
theorem step_errorT {g : R3 → R3} {gC : C3 → C3} {R G L V W T h : ℝ} (H : Field g gC R G L)
    {A : ℝ → R3} {AC : ℂ → C3} {I : Set ℝ} {B d s0 : ℝ} (HA : Forcing A AC I T B)
    {r v : ℝ → R3} (hW : 0 < W) (hd : 0 < d) (hdR : d ≤ R / 4)
    (hT1 : T * (V + W) ≤ d) (hT2 : T * (G + B) ≤ W) (hh : 0 ≤ h) (hhT : h < T) (hI : ∀ t ∈ Icc 0 h, s0 + t ∈ I)
    (hr : ∀ t ∈ Icc 0 h, HasDerivAt r (v t) t) (hv : ∀ t ∈ Icc 0 h, HasDerivAt v (g (r t) + A (s0 + t)) t)
    (hrR : ∀ t ∈ Icc 0 h, R ≤ ‖r t‖) (hvV : ∀ t ∈ Icc 0 h, ‖v t‖ ≤ V) :
    ‖(RKOrder.rk4 (motionT g A) (r 0, v 0, s0) h).1 - r h‖ ≤ 7 * d * (h / T) ^ 5 ∧
    ‖(RKOrder.rk4 (motionT g A) (r 0, v 0, s0) h).2.1 - v h‖ ≤ 7 * W * (h / T) ^ 5 := by
  have hT : 0 < T := hh.trans_lt hhT
  set τ := d / W with hτdef
  set σ := d / T with hσdef
  have hτ : 0 < τ := by positivity
  have hσ : 0 < σ := by positivity
  have hτW : d / τ = W := by rw [hτdef]; field_simp
  have hx : ∀ t ∈ Icc 0 h, HasDerivAt (fun t => embedT τ σ (r t, v t, s0 + t))
      (motionCT gC AC τ σ (embedT τ σ (r t, v t, s0 + t))) t := by
    intro t ht
    rw [motionCT_embed H HA hτ hσ]
    simp only [embedT_apply, motionT]
    have h3 : HasDerivAt (fun t : ℝ => (σ : ℂ) * ((s0 + t : ℝ) : ℂ)) ((σ : ℂ) * ((1 : ℝ) : ℂ)) t :=
      (((hasDerivAt_id t).const_add s0).ofReal_comp).const_mul (σ : ℂ)
    exact (hasDerivAt_cx (hr t ht)).prodMk (((hasDerivAt_cx (hv t ht)).const_smul (τ : ℂ)).prodMk h3)
  have near : ∀ t ∈ Icc 0 h, ∀ z ∈ closedBall (embedT τ σ (r t, v t, s0 + t)) d,
      ‖z.1 - cx (r t)‖ ≤ R / 4 ∧ ‖((τ⁻¹ : ℝ) : ℂ) • z.2.1‖ ≤ V + W ∧
        ‖((σ⁻¹ : ℝ) : ℂ) * z.2.2 - ((s0 + t : ℝ) : ℂ)‖ ≤ T := by
    intro t ht z hz
    rw [mem_closedBall, dist_eq_norm, embedT_apply] at hz
    have h1 : ‖z.1 - cx (r t)‖ ≤ d := (norm_fst_le _).trans hz
    have hz2 := (norm_snd_le (z - _)).trans hz
    have h2 : ‖z.2.1 - (τ : ℂ) • cx (v t)‖ ≤ d := (norm_fst_le _).trans hz2
    have h3 : ‖z.2.2 - (σ : ℂ) * ((s0 + t : ℝ) : ℂ)‖ ≤ d := (norm_snd_le (z.2 - _)).trans hz2
    refine ⟨h1.trans hdR, ?_, ?_⟩
    · have e : ((τ⁻¹ : ℝ) : ℂ) • z.2.1 = ((τ⁻¹ : ℝ) : ℂ) • (z.2.1 - (τ : ℂ) • cx (v t)) + cx (v t) := by
        have h : (τ : ℂ) ≠ 0 := by exact_mod_cast hτ.ne'
        rw [smul_sub, smul_smul, Complex.ofReal_inv, inv_mul_cancel₀ h, one_smul, sub_add_cancel]
      rw [e]
      refine (norm_add_le _ _).trans ?_
      rw [norm_smul, Complex.norm_real, Real.norm_of_nonneg (by positivity), norm_cx, add_comm]
      refine add_le_add (hvV t ht) ?_
      calc τ⁻¹ * ‖z.2.1 - (τ : ℂ) • cx (v t)‖ ≤ τ⁻¹ * d := by gcongr
        _ = W := by rw [← hτW]; field_simp
    · have e : ((σ⁻¹ : ℝ) : ℂ) * z.2.2 - ((s0 + t : ℝ) : ℂ) =
          ((σ⁻¹ : ℝ) : ℂ) * (z.2.2 - (σ : ℂ) * ((s0 + t : ℝ) : ℂ)) := by
        have h : (σ : ℂ) ≠ 0 := by exact_mod_cast hσ.ne'
        rw [mul_sub, ← mul_assoc, Complex.ofReal_inv, inv_mul_cancel₀ h, one_mul]
      rw [e, norm_mul, Complex.norm_real, Real.norm_of_nonneg (by positivity)]
      calc σ⁻¹ * ‖z.2.2 - (σ : ℂ) * ((s0 + t : ℝ) : ℂ)‖ ≤ σ⁻¹ * d := by gcongr
        _ = T := by rw [hσdef]; field_simp
  have main := RKExplicit.rk4_error (f := motionCT gC AC τ σ) (x := fun t => embedT τ σ (r t, v t, s0 + t)) (d := d)
    (T := T) (h := h) hd hh hhT hx
    (fun t ht z hz => by
      obtain ⟨n1, n2, n3⟩ := near t ht z hz
      have h1 := (H.near _ _ (hrR t ht) n1).1
      have h2 : AnalyticAt ℂ (fun z : C3 × C3 × ℂ => gC z.1) z :=
        AnalyticAt.comp (g := gC) (f := fun z : C3 × C3 × ℂ => z.1) h1 analyticAt_fst
      have h3 := (HA.near _ (hI t ht) _ n3).1
      have hs : AnalyticAt ℂ (fun z : C3 × C3 × ℂ => z.2.2) z :=
        AnalyticAt.comp (g := fun y : C3 × ℂ => y.2) (f := fun z : C3 × C3 × ℂ => z.2) analyticAt_snd analyticAt_snd
      have hs1 : AnalyticAt ℂ (fun z : C3 × C3 × ℂ => z.2.1) z :=
        AnalyticAt.comp (g := fun y : C3 × ℂ => y.1) (f := fun z : C3 × C3 × ℂ => z.2) analyticAt_fst analyticAt_snd
      have h4 : AnalyticAt ℂ (fun z : C3 × C3 × ℂ => AC (((σ⁻¹ : ℝ) : ℂ) * z.2.2)) z :=
        AnalyticAt.comp (g := AC) (f := fun z : C3 × C3 × ℂ => ((σ⁻¹ : ℝ) : ℂ) * z.2.2) h3
          ((analyticAt_const (v := ((σ⁻¹ : ℝ) : ℂ))).mul hs)
      exact ((analyticAt_const (v := ((τ⁻¹ : ℝ) : ℂ))).smul hs1).prod
        (((analyticAt_const (v := (τ : ℂ))).smul (h2.add h4)).prod analyticAt_const))
    (fun t ht z hz => by
      obtain ⟨n1, n2, n3⟩ := near t ht z hz
      have h1 := (H.near _ _ (hrR t ht) n1).2
      have h3 := (HA.near _ (hI t ht) _ n3).2
      refine max_le ?_ (max_le ?_ ?_)
      · show ‖((τ⁻¹ : ℝ) : ℂ) • z.2.1‖ ≤ _
        refine n2.trans ?_
        rw [le_div_iff₀ hT]
        linarith
      · show ‖(τ : ℂ) • (gC z.1 + AC (((σ⁻¹ : ℝ) : ℂ) * z.2.2))‖ ≤ _
        rw [norm_smul, Complex.norm_real, Real.norm_of_nonneg hτ.le, le_div_iff₀ hT]
        have h4 := (norm_add_le (gC z.1) (AC (((σ⁻¹ : ℝ) : ℂ) * z.2.2))).trans (add_le_add h1 h3)
        calc τ * ‖gC z.1 + AC (((σ⁻¹ : ℝ) : ℂ) * z.2.2)‖ * T ≤ τ * (G + B) * T := by gcongr
          _ = τ * (T * (G + B)) := by ring
          _ ≤ τ * W := by gcongr
          _ = d := by rw [hτdef]; field_simp
      · show ‖(σ : ℂ)‖ ≤ _
        rw [Complex.norm_real, Real.norm_of_nonneg hσ.le])
  simp only [add_zero] at main
  rw [rk4_map (embedT τ σ) (motionCT_embed H HA hτ hσ), ← map_sub, embedT_apply] at main
  constructor
  · have := (norm_fst_le _).trans main
    rwa [norm_cx] at this
  · have := (norm_fst_le _).trans ((norm_snd_le _).trans main)
    rw [norm_smul, Complex.norm_real, Real.norm_of_nonneg hτ.le, norm_cx] at this
    have h1 := mul_le_mul_of_nonneg_left this (inv_nonneg.2 hτ.le)
    rw [← mul_assoc, inv_mul_cancel₀ hτ.ne', one_mul] at h1
    refine h1.trans (le_of_eq ?_)
    rw [← hτW]
    field_simp

/-- all positions at which a step evaluates gravity keep the distance `R` -/
theorem stages_farT {g : R3 → R3} {gC : C3 → C3} {R G L V h : ℝ} (H : Field g gC R G L) {A : ℝ → R3} {AC : ℂ → C3}
    {I : Set ℝ} {T B : ℝ} (HA : Forcing A AC I T B) (hT : 0 ≤ T) {t : ℝ} (ht : t ∈ I) (ht2 : t + h / 2 ∈ I)
    (hR : 0 < R) (hh : 0 ≤ h) {r v : R3} (hv : ‖v‖ ≤ V) (hr : R + h * V + h ^ 2 * (G + B) ≤ ‖r‖) :
    R ≤ ‖r‖ ∧ R ≤ ‖r + (h / 2) • v‖ ∧ R ≤ ‖r + (h / 2) • (v + (h / 2) • (g r + A t))‖ ∧
      R ≤ ‖r + h • (v + (h / 2) • (g (r + (h / 2) • v) + A (t + h / 2)))‖ := by
  have hV : 0 ≤ V := (norm_nonneg _).trans hv
  have hg : 0 ≤ G + B := add_nonneg (H.nonneg hR) (HA.nonneg hT ht)
  have hhV : 0 ≤ h * V := by positivity
  have hhg : 0 ≤ h ^ 2 * (G + B) := by positivity
  have tri : ∀ w : R3, ‖r‖ - ‖w‖ ≤ ‖r + w‖ := fun w => by
    have := norm_sub_norm_le r (-w)
    rwa [norm_neg, sub_neg_eq_add] at this
  have h1 : R ≤ ‖r‖ := by linarith
  have b1 := (norm_add_le _ _).trans (add_le_add (H.size hR h1) (HA.size hT ht))
  have h2 : R ≤ ‖r + (h / 2) • v‖ := by
    have := tri ((h / 2) • v)
    rw [norm_smul, Real.norm_of_nonneg (by positivity)] at this
    have k : h / 2 * ‖v‖ ≤ h / 2 * V := by gcongr
    linarith
  have b2 := (norm_add_le _ _).trans (add_le_add (H.size hR h2) (HA.size hT ht2))
  have stage : ∀ (c : ℝ) (w : R3), 0 ≤ c → c ≤ h → ‖w‖ ≤ G + B →
      R ≤ ‖r + c • (v + (h / 2) • w)‖ := by
    intro c w hc hch hw
    have := tri (c • (v + (h / 2) • w))
    rw [norm_smul, Real.norm_of_nonneg hc] at this
    have k1 : ‖v + (h / 2) • w‖ ≤ V + h / 2 * (G + B) := by
      refine (norm_add_le _ _).trans (add_le_add hv ?_)
      rw [norm_smul, Real.norm_of_nonneg (by positivity)]
      gcongr
    have k2 : c * ‖v + (h / 2) • w‖ ≤ h * (V + h / 2 * (G + B)) :=
      mul_le_mul hch k1 (norm_nonneg _) hh
    nlinarith
  exact ⟨h1, h2, stage _ _ (by positivity) (by linarith) b1, stage _ _ hh le_rfl b2⟩

/-- one step, written out -/
theorem rk4_motionT (g : R3 → R3) (A : ℝ → R3) (r v : R3) (t h : ℝ) :
    RKOrder.rk4 (motionT g A) (r, v, t) h =
      let g1 := g r + A t
      let g2 := g (r + (h / 2) • v) + A (t + h / 2)
      let g3 := g (r + (h / 2) • (v + (h / 2) • g1)) + A (t + h / 2)
      let g4 := g (r + h • (v + (h / 2) • g2)) + A (t + h)
      (r + h • v + (h ^ 2 / 6) • (g1 + g2 + g3), v + (h / 6) • (g1 + (2 : ℝ) • g2 + (2 : ℝ) • g3 + g4), t + h) := by
  simp only [RKOrder.rk4, motionT, Prod.smul_mk, Prod.mk_add_mk, smul_eq_mul, mul_one]
  refine Prod.ext ?_ (Prod.ext ?_ ?_)
  · simp only
    module
  · rfl
  · simp only
    ring

/-- Two steps from neighbouring states, with the same forcing. -/
theorem step_stableT {g : R3 → R3} {gC : C3 → C3} {R G L V h lam : ℝ} (H : Field g gC R G L) (hR : 0 < R) (hh : 0 ≤ h) (hlam : 0 < lam)
    (hL : L ≤ lam ^ 2) {A : ℝ → R3} {AC : ℂ → C3} {I : Set ℝ} {T B : ℝ} (HA : Forcing A AC I T B)
    (hT : 0 ≤ T) {t : ℝ} (ht : t ∈ I) (ht2 : t + h / 2 ∈ I) {r1 v1 r2 v2 : R3} (hv1 : ‖v1‖ ≤ V) (hv2 : ‖v2‖ ≤ V)
    (hr1 : R + h * V + h ^ 2 * (G + B) ≤ ‖r1‖) (hr2 : R + h * V + h ^ 2 * (G + B) ≤ ‖r2‖) :
    lam * ‖(RKOrder.rk4 (motionT g A) (r1, v1, t) h).1 - (RKOrder.rk4 (motionT g A) (r2, v2, t) h).1‖ +
      ‖(RKOrder.rk4 (motionT g A) (r1, v1, t) h).2.1 - (RKOrder.rk4 (motionT g A) (r2, v2, t) h).2.1‖ ≤
    Real.exp (lam * h) * (lam * ‖r1 - r2‖ + ‖v1 - v2‖) := by
  obtain ⟨p1, p2, p3, p4⟩ := stages_farT H HA hT ht ht2 hR hh hv1 hr1
  obtain ⟨q1, q2, q3, q4⟩ := stages_farT H HA hT ht ht2 hR hh hv2 hr2
  rw [rk4_motionT, rk4_motionT]
  simp only
  set g1 := g r1 + A t with hg1
  set g2 := g (r1 + (h / 2) • v1) + A (t + h / 2) with hg2
  set g3 := g (r1 + (h / 2) • (v1 + (h / 2) • g1)) + A (t + h / 2) with hg3
  set g4 := g (r1 + h • (v1 + (h / 2) • g2)) + A (t + h) with hg4
  set k1 := g r2 + A t with hk1
  set k2 := g (r2 + (h / 2) • v2) + A (t + h / 2) with hk2
  set k3 := g (r2 + (h / 2) • (v2 + (h / 2) • k1)) + A (t + h / 2) with hk3
  set k4 := g (r2 + h • (v2 + (h / 2) • k2)) + A (t + h) with hk4
  set a := ‖r1 - r2‖ with ha
  set b := ‖v1 - v2‖ with hb
  have ha0 : 0 ≤ a := norm_nonneg _
  have hb0 : 0 ≤ b := norm_nonneg _
  have lip : ∀ (x y c : R3), R ≤ ‖x‖ → R ≤ ‖y‖ → ‖(g x + c) - (g y + c)‖ ≤ lam ^ 2 * ‖x - y‖ := by
    intro x y c hx hy
    rw [add_sub_add_right_eq_sub]
    exact (H.lipschitz x y hx hy).trans (mul_le_mul_of_nonneg_right hL (norm_nonneg _))
  have d1 : ‖g1 - k1‖ ≤ lam ^ 2 * a := lip _ _ _ p1 q1
  have d2 : ‖g2 - k2‖ ≤ lam ^ 2 * (a + h / 2 * b) := by
    refine (lip _ _ _ p2 q2).trans (mul_le_mul_of_nonneg_left ?_ (by positivity))
    rw [show r1 + (h / 2) • v1 - (r2 + (h / 2) • v2) = (r1 - r2) + (h / 2) • (v1 - v2) by module]
    exact norm_add_smul_le (by positivity) le_rfl le_rfl
  have d3 : ‖g3 - k3‖ ≤ lam ^ 2 * (a + h / 2 * (b + h / 2 * (lam ^ 2 * a))) := by
    refine (lip _ _ _ p3 q3).trans (mul_le_mul_of_nonneg_left ?_ (by positivity))
    rw [show r1 + (h / 2) • (v1 + (h / 2) • g1) - (r2 + (h / 2) • (v2 + (h / 2) • k1)) =
      (r1 - r2) + (h / 2) • ((v1 - v2) + (h / 2) • (g1 - k1)) by module]
    exact norm_add_smul_le (by positivity) le_rfl (norm_add_smul_le (by positivity) le_rfl d1)
  have d4 : ‖g4 - k4‖ ≤ lam ^ 2 * (a + h * (b + h / 2 * (lam ^ 2 * (a + h / 2 * b)))) := by
    refine (lip _ _ _ p4 q4).trans (mul_le_mul_of_nonneg_left ?_ (by positivity))
    rw [show r1 + h • (v1 + (h / 2) • g2) - (r2 + h • (v2 + (h / 2) • k2)) =
      (r1 - r2) + h • ((v1 - v2) + (h / 2) • (g2 - k2)) by module]
    exact norm_add_smul_le hh le_rfl (norm_add_smul_le (by positivity) le_rfl d2)
  have er : ‖r1 + h • v1 + (h ^ 2 / 6) • (g1 + g2 + g3) -
      (r2 + h • v2 + (h ^ 2 / 6) • (k1 + k2 + k3))‖ ≤
      a + h * b + h ^ 2 / 6 * (lam ^ 2 * a + lam ^ 2 * (a + h / 2 * b) +
        lam ^ 2 * (a + h / 2 * (b + h / 2 * (lam ^ 2 * a)))) := by
    rw [show r1 + h • v1 + (h ^ 2 / 6) • (g1 + g2 + g3) -
        (r2 + h • v2 + (h ^ 2 / 6) • (k1 + k2 + k3)) =
      ((r1 - r2) + h • (v1 - v2)) + (h ^ 2 / 6) • ((g1 - k1) + (g2 - k2) + (g3 - k3)) by module]
    refine norm_add_smul_le (by positivity) (norm_add_smul_le hh le_rfl le_rfl) ?_
    exact norm_add₃_le.trans (add_le_add (add_le_add d1 d2) d3)
  have ev : ‖v1 + (h / 6) • (g1 + (2 : ℝ) • g2 + (2 : ℝ) • g3 + g4) -
      (v2 + (h / 6) • (k1 + (2 : ℝ) • k2 + (2 : ℝ) • k3 + k4))‖ ≤
      b + h / 6 * (lam ^ 2 * a + 2 * (lam ^ 2 * (a + h / 2 * b)) +
        2 * (lam ^ 2 * (a + h / 2 * (b + h / 2 * (lam ^ 2 * a)))) +
        lam ^ 2 * (a + h * (b + h / 2 * (lam ^ 2 * (a + h / 2 * b))))) := by
    rw [show v1 + (h / 6) • (g1 + (2 : ℝ) • g2 + (2 : ℝ) • g3 + g4) -
        (v2 + (h / 6) • (k1 + (2 : ℝ) • k2 + (2 : ℝ) • k3 + k4)) =
      (v1 - v2) + (h / 6) • (((g1 - k1) + (2 : ℝ) • (g2 - k2) + (2 : ℝ) • (g3 - k3)) + (g4 - k4))
      by module]
    refine norm_add_smul_le (by positivity) le_rfl ?_
    refine (norm_add_le _ _).trans (add_le_add ?_ d4)
    exact norm_add_smul_le (by norm_num) (norm_add_smul_le (by norm_num) d1 d2) d3
  have hexp : 1 + lam * h + (lam * h) ^ 2 / 2 + (lam * h) ^ 3 / 6 + (lam * h) ^ 4 / 24 ≤
      Real.exp (lam * h) := by
    have := Real.sum_le_exp_of_nonneg (x := lam * h) (by positivity) 5
    simp only [Finset.sum_range_succ, Finset.sum_range_zero, Nat.factorial] at this
    norm_num at this
    linarith
  calc _ ≤ lam * (a + h * b + h ^ 2 / 6 * (lam ^ 2 * a + lam ^ 2 * (a + h / 2 * b) +
        lam ^ 2 * (a + h / 2 * (b + h / 2 * (lam ^ 2 * a))))) +
      (b + h / 6 * (lam ^ 2 * a + 2 * (lam ^ 2 * (a + h / 2 * b)) +
        2 * (lam ^ 2 * (a + h / 2 * (b + h / 2 * (lam ^ 2 * a)))) +
        lam ^ 2 * (a + h * (b + h / 2 * (lam ^ 2 * (a + h / 2 * b)))))) :=
        add_le_add (mul_le_mul_of_nonneg_left er hlam.le) ev
    _ = (1 + lam * h + (lam * h) ^ 2 / 2 + (lam * h) ^ 3 / 6 + (lam * h) ^ 4 / 24) *
        (lam * a + b) := by ring
    _ ≤ Real.exp (lam * h) * (lam * a + b) := mul_le_mul_of_nonneg_right hexp (by positivity)


/-- The error of a sequence of states each of which is, up to small errors, the result of a step from
the one before it. -/
theorem flight_errorT {g : R3 → R3} {gC : C3 → C3} {R G L V W T h lam D N er ev t1 : ℝ} {r v : ℝ → R3} {n : ℕ} {z : ℕ → R3 × R3}
    {A : ℝ → R3} {AC : ℂ → C3} {B d : ℝ} (H : Field g gC R G L)
    (HA : Forcing A AC (Icc t1 (t1 + n * h)) T B) (hR : 0 < R) (hW : 0 < W) (hd : 0 < d) (hdR : d ≤ R / 4) (hT1 : T * (V + W) ≤ d)
    (hT2 : T * (G + B) ≤ W) (hh : 0 < h) (hhT : h < T) (hlam : 0 < lam)
    (hL : L ≤ lam ^ 2) (her : 0 ≤ er) (hev : 0 ≤ ev)
    (hr : ∀ t ∈ Icc t1 (t1 + n * h), HasDerivAt r (v t) t)
    (hv : ∀ t ∈ Icc t1 (t1 + n * h), HasDerivAt v (g (r t) + A t) t)
    (hrR : ∀ t ∈ Icc t1 (t1 + n * h), R + D + h * (V + lam * D) + h ^ 2 * (G + B) ≤ ‖r t‖)
    (hvV : ∀ t ∈ Icc t1 (t1 + n * h), ‖v t‖ ≤ V)
    (hN : lam * ‖(z 0).1 - r t1‖ + ‖(z 0).2 - v t1‖ ≤ N)
    (hD : bound lam h N (lam * (7 * d * (h / T) ^ 5 + er) + (7 * W * (h / T) ^ 5 + ev)) n ≤
      lam * D)
    (hz : ∀ k < n, ‖(z k).1 - r (t1 + k * h)‖ ≤ D → ‖(z k).2 - v (t1 + k * h)‖ ≤ lam * D →
      ‖(z (k + 1)).1 - (RKOrder.rk4 (motionT g A) ((z k).1, (z k).2, t1 + k * h) h).1‖ ≤ er ∧
      ‖(z (k + 1)).2 - (RKOrder.rk4 (motionT g A) ((z k).1, (z k).2, t1 + k * h) h).2.1‖ ≤ ev) :
    ∀ k ≤ n, lam * ‖(z k).1 - r (t1 + k * h)‖ + ‖(z k).2 - v (t1 + k * h)‖ ≤
      bound lam h N (lam * (7 * d * (h / T) ^ 5 + er) + (7 * W * (h / T) ^ 5 + ev)) k := by
  have hT : 0 < T := hh.trans hhT
  have hN0 : 0 ≤ N := le_trans (by positivity) hN
  set κ := lam * (7 * d * (h / T) ^ 5 + er) + (7 * W * (h / T) ^ 5 + ev) with hκdef
  have hκ : 0 ≤ κ := by positivity
  have hD0 : 0 ≤ D := by
    have h0 : 0 ≤ bound lam h N κ 0 := by rw [bound_zero]; exact hN0
    have h1 := h0.trans ((bound_mono hlam hh hκ hN0 (Nat.zero_le n)).trans hD)
    by_contra hneg
    nlinarith
  have hV : 0 ≤ V := (norm_nonneg _).trans
    (hvV t1 ⟨le_rfl, by have : 0 ≤ (n : ℝ) * h := by positivity
                        linarith⟩)
  intro k
  induction k with
  | zero =>
    intro _
    rw [bound_zero]
    simpa using hN
  | succ k ih =>
    intro hk
    have ih := ih (by omega)
    have hle := ih.trans ((bound_mono hlam hh hκ hN0 (by omega : k ≤ n)).trans hD)
    have ht0 : t1 + k * h ∈ Icc t1 (t1 + n * h) := by
      have h1 : (k : ℝ) ≤ n := by exact_mod_cast (by omega : k ≤ n)
      refine ⟨?_, ?_⟩
      · have : 0 ≤ (k : ℝ) * h := by positivity
        linarith
      · have : (k : ℝ) * h ≤ n * h := by gcongr
        linarith
    have hsub : ∀ s ∈ Icc 0 h, t1 + k * h + s ∈ Icc t1 (t1 + n * h) := by
      intro s hs
      have h1 : ((k : ℝ) + 1) ≤ n := by exact_mod_cast hk
      have h2 : ((k : ℝ) + 1) * h ≤ n * h := by gcongr
      refine ⟨by linarith [ht0.1, hs.1], by linarith [hs.2]⟩
    have hp : ‖(z k).1 - r (t1 + k * h)‖ ≤ D := by
      have : lam * ‖(z k).1 - r (t1 + k * h)‖ ≤ lam * D := by
        linarith [norm_nonneg ((z k).2 - v (t1 + k * h))]
      exact le_of_mul_le_mul_left this hlam
    have hq : ‖(z k).2 - v (t1 + k * h)‖ ≤ lam * D := by
      have : 0 ≤ lam * ‖(z k).1 - r (t1 + k * h)‖ := by positivity
      linarith
    obtain ⟨z1, z2⟩ := hz k (by omega) hp hq
    -- the exact step from the orbit
    have hRle : ∀ t ∈ Icc t1 (t1 + n * h), R ≤ ‖r t‖ := by
      intro t ht
      have := hrR t ht
      have e1 : 0 ≤ h * (V + lam * D) := by positivity
      have e2 : 0 ≤ h ^ 2 * (G + B) := mul_nonneg (by positivity) (add_nonneg (H.nonneg hR) (HA.nonneg hT.le ht0))
      linarith
    have shiftd : ∀ {w : ℝ → R3} {w' : R3} {s : ℝ}, HasDerivAt w w' (t1 + k * h + s) →
        HasDerivAt (fun s => w (t1 + k * h + s)) w' s := by
      intro w w' s hw
      have h2 : HasDerivAt (fun s : ℝ => t1 + k * h + s) 1 s := (hasDerivAt_id s).const_add _
      have h3 := HasDerivAt.scomp s hw h2
      rwa [one_smul] at h3
    have loc := step_errorT (A := A) (s0 := t1 + k * h) (r := fun s => r (t1 + k * h + s)) (v := fun s => v (t1 + k * h + s))
      H HA hW hd hdR hT1 hT2 hh.le hhT hsub (fun s hs => shiftd (hr _ (hsub s hs)))
      (fun s hs => shiftd (hv _ (hsub s hs))) (fun s hs => hRle _ (hsub s hs))
      (fun s hs => hvV _ (hsub s hs))
    simp only [add_zero] at loc
    -- the step from the neighbouring state
    have hzr : R + h * (V + lam * D) + h ^ 2 * (G + B) ≤ ‖(z k).1‖ := by
      have h1 := hrR _ ht0
      have h2 := norm_sub_norm_le (r (t1 + k * h)) (z k).1
      rw [norm_sub_rev] at h2
      linarith
    have hzv : ‖(z k).2‖ ≤ V + lam * D := by
      have h1 := hvV _ ht0
      have h2 := norm_sub_norm_le (z k).2 (v (t1 + k * h))
      linarith
    have st := step_stableT (r1 := (z k).1) (v1 := (z k).2) (r2 := r (t1 + k * h))
      (v2 := v (t1 + k * h)) (V := V + lam * D) (t := t1 + k * h) H hR hh.le hlam hL HA hT.le ht0
      (hsub _ ⟨by positivity, by linarith⟩) hzv
      (by have := hvV _ ht0
          have h3 : 0 ≤ lam * D := by positivity
          linarith) hzr (by have := hrR _ ht0; linarith)
    have hcast : t1 + ((k + 1 : ℕ) : ℝ) * h = t1 + k * h + h := by push_cast; ring
    rw [hcast]
    set A' := RKOrder.rk4 (motionT g A) ((z k).1, (z k).2, t1 + k * h) h
    set B' := RKOrder.rk4 (motionT g A) (r (t1 + k * h), v (t1 + k * h), t1 + k * h) h
    have t1' : ‖(z (k + 1)).1 - r (t1 + k * h + h)‖ ≤ er + ‖A'.1 - B'.1‖ + 7 * d * (h / T) ^ 5 := by
      rw [show (z (k + 1)).1 - r (t1 + k * h + h) = ((z (k + 1)).1 - A'.1) + (A'.1 - B'.1) +
        (B'.1 - r (t1 + k * h + h)) by abel]
      exact norm_add₃_le.trans (add_le_add (add_le_add z1 le_rfl) loc.1)
    have t2' : ‖(z (k + 1)).2 - v (t1 + k * h + h)‖ ≤ ev + ‖A'.2.1 - B'.2.1‖ + 7 * W * (h / T) ^ 5 := by
      rw [show (z (k + 1)).2 - v (t1 + k * h + h) = ((z (k + 1)).2 - A'.2.1) + (A'.2.1 - B'.2.1) +
        (B'.2.1 - v (t1 + k * h + h)) by abel]
      exact norm_add₃_le.trans (add_le_add (add_le_add z2 le_rfl) loc.2)
    have hmul := mul_le_mul_of_nonneg_left t1' hlam.le
    have hbs := bound_succ (N := N) hlam hh hκ k
    have hb : Real.exp (lam * h) * (lam * ‖(z k).1 - r (t1 + k * h)‖ + ‖(z k).2 - v (t1 + k * h)‖) ≤
        Real.exp (lam * h) * bound lam h N κ k := mul_le_mul_of_nonneg_left ih (Real.exp_pos _).le
    refine le_trans ?_ hbs
    rw [hκdef] at *
    nlinarith

end Post.Kepler
