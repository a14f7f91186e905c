import Verif.Lemmas.TrueFlight
import Verif.Props.DoubleGravity
/-! # Lemmas: energy and angular momentum in one step of a coasting phase -/

namespace Post
open Spec Flt Filter Topology Metric Set
open Kepler (R3 Field)
open scoped NNReal

noncomputable section

variable {a b μ j2 j3 j4 ω : ℝ} {gC : Kepler.C3 → Kepler.C3}

/-- A free fall of one second. -/
theorem coast_lasts (H : Field (field a μ j2 j3 j4) gC 6.4e6 32.12 7.04e-6) {r0 v0 : V3 ℝ} (hr0 : 6.45e6 ≤ rnorm r0)
    (hv0 : rnorm v0 ≤ 8200) :
    ∃ (r v : ℝ → V3 ℝ), r 0 = r0 ∧ v 0 = v0 ∧ ∀ t ∈ Icc (0 : ℝ) 1,
      FreeFall (realPlanet a b μ j2 j3 j4 ω) r v t ∧ rnorm r0 - 8400 ≤ rnorm (r t) ∧ rnorm (r t) ≤ rnorm r0 + 8400 ∧
      rnorm (v t) ≤ 8242 := by
  let f : ℝ → R3 × R3 → R3 × R3 := fun t z => ((1 / 200 : ℝ) • z.2, (200 : ℝ) • (field a μ j2 j3 j4 z.1))
  let z0 : R3 × R3 := (e3 r0, (200 : ℝ) • e3 v0)
  have hball : ∀ z ∈ closedBall z0 8383, rnorm r0 - 8400 ≤ ‖z.1‖ ∧ ‖z.1‖ ≤ rnorm r0 + 8400 ∧
      ‖(1 / 200 : ℝ) • z.2‖ ≤ 8242 := by
    intro z hz
    rw [mem_closedBall, dist_eq_norm, Prod.norm_def, max_le_iff] at hz
    obtain ⟨h1, h2⟩ := hz
    have h1' : ‖z.1 - e3 r0‖ ≤ 8383 := h1
    have h2' : ‖z.2 - (200 : ℝ) • e3 v0‖ ≤ 8383 := h2
    have k1 := norm_sub_norm_le z.1 (e3 r0)
    have k2 := norm_sub_norm_le (e3 r0) z.1
    have k3 := norm_sub_norm_le z.2 ((200 : ℝ) • e3 v0)
    rw [norm_sub_rev] at k2
    rw [norm_smul, Real.norm_of_nonneg (by norm_num), norm_e3] at k3
    rw [norm_e3] at k1 k2
    rw [norm_smul, Real.norm_of_nonneg (by norm_num)]
    refine ⟨by linarith, by linarith, by linarith⟩
  have hfar : ∀ z ∈ closedBall z0 8383, (6.4e6 : ℝ) ≤ ‖z.1‖ := fun z hz => by
    have := (hball z hz).1
    norm_num at this hr0 ⊢
    linarith
  have hp : IsPicardLindelof f (⟨0, by norm_num, by norm_num⟩ : Icc (-0.01 : ℝ) 1.01) z0 ⟨8383, by norm_num⟩ 0 8300 1 := by
    refine ⟨fun t _ => ?_, fun z hz => ?_, fun t ht z hz => ?_, ?_⟩
    · refine LipschitzOnWith.of_dist_le_mul fun z hz w hw => ?_
      rw [dist_eq_norm, dist_eq_norm, NNReal.coe_one, one_mul, Prod.norm_def, Prod.norm_def (z - w)]
      have l := H.lipschitz z.1 w.1 (hfar z hz) (hfar w hw)
      have e1 : ‖(f t z - f t w).1‖ ≤ ‖(z - w).2‖ := by
        show ‖(1 / 200 : ℝ) • z.2 - (1 / 200 : ℝ) • w.2‖ ≤ ‖z.2 - w.2‖
        rw [← smul_sub, norm_smul, Real.norm_of_nonneg (by norm_num)]
        nlinarith [norm_nonneg (z.2 - w.2)]
      have e2 : ‖(f t z - f t w).2‖ ≤ ‖(z - w).1‖ := by
        show ‖(200 : ℝ) • (field a μ j2 j3 j4 z.1) - (200 : ℝ) • (field a μ j2 j3 j4 w.1)‖ ≤ ‖z.1 - w.1‖
        rw [← smul_sub, norm_smul, Real.norm_of_nonneg (by norm_num)]
        norm_num at l
        nlinarith [norm_nonneg (z.1 - w.1)]
      exact max_le (e1.trans (le_max_right _ _)) (e2.trans (le_max_left _ _))
    · exact continuousOn_const
    · obtain ⟨h1, h2, h3⟩ := hball z hz
      have hg : ‖field a μ j2 j3 j4 z.1‖ ≤ 32.12 := H.size (by norm_num) (hfar z hz)
      rw [Prod.norm_def]
      refine max_le (h3.trans (by norm_num)) ?_
      show ‖(200 : ℝ) • (field a μ j2 j3 j4 z.1)‖ ≤ 8300
      rw [norm_smul, Real.norm_of_nonneg (by norm_num)]
      norm_num at hg
      linarith
    · show (8300 : ℝ) * max (1.01 - 0) (0 - -0.01) ≤ 8383 - 0
      norm_num
  obtain ⟨α, hα0, hin, hder⟩ := picard_in_ball hp
  refine ⟨fun t => ofR3 (α t).1, fun t => ofR3 ((1 / 200 : ℝ) • (α t).2), ?_, ?_, fun t ht => ?_⟩
  · show ofR3 (α 0).1 = r0
    rw [show α 0 = z0 from hα0]
    rfl
  · show ofR3 ((1 / 200 : ℝ) • (α 0).2) = v0
    rw [show α 0 = z0 from hα0]
    show ofR3 ((1 / 200 : ℝ) • ((200 : ℝ) • e3 v0)) = v0
    rw [smul_smul]
    norm_num
    exact ofR3_e3 v0
  · obtain ⟨h1, h2, h3⟩ := hball (α t) (hin t)
    have hd := hder t ⟨by linarith [ht.1], by linarith [ht.2]⟩
    have d1 : HasDerivAt (fun t => (α t).1) ((1 / 200 : ℝ) • (α t).2) t := hd.fst
    have d2 : HasDerivAt (fun t => (1 / 200 : ℝ) • (α t).2) (field a μ j2 j3 j4 (α t).1) t := by
      have h4 : HasDerivAt (fun t => (α t).2) ((200 : ℝ) • (field a μ j2 j3 j4 (α t).1)) t := hd.snd
      have h5 : HasDerivAt (fun t => (1 / 200 : ℝ) • (α t).2)
          ((1 / 200 : ℝ) • ((200 : ℝ) • (field a μ j2 j3 j4 (α t).1))) t := HasDerivAt.const_smul (1 / 200 : ℝ) h4
      refine h5.congr_deriv ?_
      rw [smul_smul]
      norm_num
    have hne : ofR3 (α t).1 ≠ ⟨0, 0, 0⟩ := by
      intro h
      have := rnorm_ofR3 (α t).1
      rw [h] at this
      have e : rnorm ⟨0, 0, 0⟩ = 0 := by simp [rnorm]
      rw [e] at this
      norm_num at h1 hr0
      linarith
    refine ⟨⟨_, gravity_grav _ _ _ _ _ _ _ hne, hasVelocity_ofR3 d1, ?_⟩, ?_, ?_, ?_⟩
    · have d3 := hasVelocity_ofR3 d2
      have e1 : field a μ j2 j3 j4 (α t).1 = e3 (grav a μ j2 j3 j4 (ofR3 (α t).1)) := by
        rw [← field_e3, e3_ofR3]
      rw [e1] at d3
      exact d3
    · rw [rnorm_ofR3]; exact h1
    · rw [rnorm_ofR3]; exact h2
    · rw [rnorm_ofR3]; exact h3

/-- One step with rounding ends next to the free fall from the same state. -/
theorem coast_step_close (H : Field (field a μ j2 j3 j4) gC 6.4e6 32.12 7.04e-6) {Y Y' : Fin 7 → ℝ} {η : ℝ} (hη0 : 0 < η)
    (hη1 : η ≤ 1) (hr0 : 6.45e6 ≤ rnorm (pos7 Y)) (hv0 : rnorm (vel7 Y) ≤ 8200)
    (herr : ∀ i, i ≠ 6 → |Y' i - RKOrder.rk4 (fall a μ j2 j3 j4) Y η i| ≤ eY i) :
    ∃ (r v : ℝ → V3 ℝ), r 0 = pos7 Y ∧ v 0 = vel7 Y ∧ (∀ t ∈ Icc (0 : ℝ) η, FreeFall (realPlanet a b μ j2 j3 j4 ω) r v t) ∧
      rnorm (pos7 Y) - 8400 ≤ rnorm (r η) ∧ rnorm (r η) ≤ rnorm (pos7 Y) + 8400 ∧ rnorm (v η) ≤ 8242 ∧
      rdist (pos7 Y') (r η) ≤ 3.14e-4 ∧ rdist (vel7 Y') (v η) ≤ 8.13e-7 := by
  obtain ⟨r, v, e1, e2, hf⟩ := coast_lasts (b := b) (ω := ω) H hr0 hv0
  have hsub : Icc (0 : ℝ) η ⊆ Icc 0 1 := Icc_subset_Icc_right hη1
  refine ⟨r, v, e1, e2, fun t ht => (hf t (hsub ht)).1, ?_⟩
  obtain ⟨_, g1, g2, g3⟩ := hf η ⟨hη0.le, hη1⟩
  refine ⟨g1, g2, g3, ?_⟩
  have hd : ∀ t ∈ Icc (0 : ℝ) η, HasVelocity r (v t) t ∧ HasVelocity v (grav a μ j2 j3 j4 (r t)) t := by
    intro t ht
    obtain ⟨g, h1, h2, h3⟩ := (hf t (hsub ht)).1
    have hne : r t ≠ ⟨0, 0, 0⟩ := by
      intro h0
      rw [h0] at h1
      exact gravity_centre _ _ _ _ _ _ _ h1
    rw [gravity_grav _ _ _ _ _ _ _ hne] at h1
    rw [V3.fin_inj.1 h1]
    exact ⟨h2, h3⟩
  have key := Kepler.step_error (r := fun t => e3 (r t)) (v := fun t => e3 (v t)) (h := η) (V := 8242) (W := 4144) (T := 129) H
    (by norm_num) (by norm_num) (by norm_num) (by norm_num) hη0.le (by linarith)
    (fun t ht => hasDerivAt_e3 (hd t ht).1)
    (fun t ht => by
      rw [field_e3]
      exact hasDerivAt_e3 (hd t ht).2)
    (fun t ht => by
      rw [norm_e3]
      have := (hf t (hsub ht)).2.1
      norm_num at this hr0 ⊢
      linarith)
    (fun t ht => by rw [norm_e3]; exact (hf t (hsub ht)).2.2.2)
  rw [e1, e2, ← proj7_apply, Kepler.rk4_map proj7 (proj7_fall a μ j2 j3 j4)] at key
  simp only [proj7_apply, norm_e3_sub] at key
  obtain ⟨k1, k2⟩ := rdist_pos7 herr
  have hp : (η / 129) ^ 5 ≤ (1 / 129) ^ 5 := by gcongr
  have t1 : ∀ x y z : V3 ℝ, rdist x z ≤ rdist x y + rdist y z := fun x y z => by
    rw [← norm_e3_sub, ← norm_e3_sub, ← norm_e3_sub]
    exact norm_sub_le_norm_sub_add_norm_sub _ _ _
  have a1 := t1 (pos7 Y') (pos7 (RKOrder.rk4 (fall a μ j2 j3 j4) Y η)) (r η)
  have a2 := t1 (vel7 Y') (vel7 (RKOrder.rk4 (fall a μ j2 j3 j4) Y η)) (v η)
  constructor
  · refine a1.trans ((add_le_add k1 key.1).trans ?_)
    have := mul_le_mul_of_nonneg_left hp (show (0 : ℝ) ≤ 7 * (6.4e6 / 4) by norm_num)
    refine (add_le_add_right this _).trans ?_
    norm_num
  · refine a2.trans ((add_le_add k2 key.2).trans ?_)
    have := mul_le_mul_of_nonneg_left hp (show (0 : ℝ) ≤ 7 * 4144 by norm_num)
    refine (add_le_add_right this _).trans ?_
    norm_num

/-- The potential of two points in a region in which gravity is at most `G`. -/
theorem potential_close {G : ℝ} {r r' : V3 ℝ}
    (hG : ∀ x : V3 ℝ, 6.4e6 ≤ rnorm x → rnorm (grav a μ j2 j3 j4 x) ≤ G)
    (hr : 6.4e6 + rdist r' r ≤ rnorm r) :
    |potential a μ j2 j3 j4 r' - potential a μ j2 j3 j4 r| ≤ G * rdist r' r := by
  set d := rsub r' r with hd
  set c : ℝ → V3 ℝ := fun τ => ⟨r.x + τ * d.x, r.y + τ * d.y, r.z + τ * d.z⟩ with hc
  have hfar : ∀ τ ∈ Icc (0 : ℝ) 1, 6.4e6 ≤ rnorm (c τ) := by
    intro τ hτ
    have h1 := rnorm_triangle r (c τ)
    have h2 : rdist r (c τ) = τ * rdist r' r := by
      unfold rdist
      rw [← hd, show rsub r (c τ) = rscale (-τ) d by simp [rsub, rscale, hc], rnorm_rscale, abs_neg, abs_of_nonneg hτ.1]
    have h3 : 0 ≤ rdist r' r := by unfold rdist rnorm; positivity
    have h4 : τ * rdist r' r ≤ 1 * rdist r' r := mul_le_mul_of_nonneg_right hτ.2 h3
    rw [h2] at h1
    norm_num at hr ⊢
    linarith
  have hder : ∀ τ ∈ Icc (0 : ℝ) 1, HasDerivWithinAt (fun τ => potential a μ j2 j3 j4 (c τ))
      (rdot (grav a μ j2 j3 j4 (c τ)) d) (Icc 0 1) τ := by
    intro τ hτ
    have key : ∀ x e : ℝ, HasDerivAt (fun τ : ℝ => x + τ * e) e τ := fun x e => by
      simpa using ((hasDerivAt_id τ).mul_const e).const_add x
    have hne : c τ ≠ ⟨0, 0, 0⟩ := by
      intro h
      have := hfar τ hτ
      rw [h] at this
      have e : rnorm ⟨0, 0, 0⟩ = 0 := by simp [rnorm]
      rw [e] at this
      norm_num at this
    obtain ⟨g, h1, h2⟩ := C42_gravity_is_gradient a 0 μ j2 j3 j4 0 (key r.x d.x) (key r.y d.y) (key r.z d.z) hne
    have h1' : (realPlanet a 0 μ j2 j3 j4 0).gravity (c τ).fin = g.fin := h1
    rw [gravity_grav _ _ _ _ _ _ _ hne] at h1'
    have e : grav a μ j2 j3 j4 (c τ) = g := V3.fin_inj.1 h1'
    rw [e]
    exact h2.hasDerivWithinAt
  have := norm_image_sub_le_of_norm_deriv_le_segment_01' (C := G * rdist r' r) hder (fun τ hτ => by
    rw [Real.norm_eq_abs]
    refine (abs_rdot_le _ _).trans ?_
    unfold rdist
    exact mul_le_mul_of_nonneg_right (hG _ (hfar τ ⟨hτ.1, hτ.2.le⟩)) (rnorm_nonneg _))
  have c1 : c 1 = r' := by simp [hc, hd, rsub]
  have c0 : c 0 = r := by simp [hc]
  rw [Real.norm_eq_abs] at this
  simpa only [c1, c0] using this

theorem kinetic_close {v v' : V3 ℝ} {V e : ℝ} (hv : rnorm v ≤ V) (h : rdist v' v ≤ e) :
    |rdot v' v' / 2 - rdot v v / 2| ≤ (V + e) * e := by
  have h0 : 0 ≤ rdist v' v := by unfold rdist rnorm; positivity
  have h1 := rnorm_triangle v' v
  have e1 : ∀ w : V3 ℝ, rdot w w = rnorm w ^ 2 := fun w => by
    rw [rnorm_sq]; unfold rdot; ring
  have h2 : |rnorm v' - rnorm v| ≤ e := by
    have := rnorm_triangle v v'
    rw [rdist_comm] at this
    rw [abs_le]
    constructor <;> linarith
  rw [e1, e1, show rnorm v' ^ 2 / 2 - rnorm v ^ 2 / 2 = ((rnorm v' + rnorm v) / 2) * (rnorm v' - rnorm v) by ring, abs_mul]
  have h3 := rnorm_nonneg v
  have h4 := rnorm_nonneg v'
  refine mul_le_mul ?_ h2 (abs_nonneg _) (by linarith)
  rw [abs_of_nonneg (by linarith)]
  linarith

theorem rnorm_rcross_le (x y : V3 ℝ) : rnorm (rcross x y) ≤ rnorm x * rnorm y := by
  refine le_of_pow_le_pow_left₀ (n := 2) (by norm_num) (mul_nonneg (rnorm_nonneg _) (rnorm_nonneg _)) ?_
  rw [mul_pow, rnorm_sq, rnorm_sq, rnorm_sq]
  unfold rcross
  have := sq_nonneg (x.x * y.x + x.y * y.y + x.z * y.z)
  nlinarith

theorem momentum_close {r r' v v' : V3 ℝ} {R V e d : ℝ} (hr : rnorm r ≤ R) (hv : rnorm v ≤ V) (h1 : rdist r' r ≤ e)
    (h2 : rdist v' v ≤ d) : rdist (angularMomentum r' v') (angularMomentum r v) ≤ e * (V + d) + R * d := by
  have e0 : rsub (angularMomentum r' v') (angularMomentum r v) = radd (rcross (rsub r' r) v') (rcross r (rsub v' v)) := by
    simp only [rsub, radd, angularMomentum, rcross, V3.mk.injEq]
    refine ⟨?_, ?_, ?_⟩ <;> ring
  have tri : ∀ x y : V3 ℝ, rnorm (radd x y) ≤ rnorm x + rnorm y := fun x y => by
    have := rnorm_triangle (radd x y) x
    rw [show rdist (radd x y) x = rnorm y by
      unfold rdist rsub radd; simp] at this
    exact this
  have h3 := rnorm_triangle v' v
  unfold rdist
  rw [e0]
  refine (tri _ _).trans (add_le_add ((rnorm_rcross_le _ _).trans ?_) ((rnorm_rcross_le _ _).trans ?_))
  · refine mul_le_mul h1 (by linarith) (rnorm_nonneg _) (le_trans (rnorm_nonneg _) h1)
  · exact mul_le_mul hr h2 (rnorm_nonneg _) (le_trans (rnorm_nonneg _) hr)

end
end Post
