import Verif.Props.Powered
import Verif.Lemmas.AttitudeF64
import Mathlib.Analysis.ODE.ExistUnique
/-! # Lemmas: true powered flights that last for a given time -/

namespace Post
open Spec Flt Filter Topology Metric Set
open Kepler (R3 Field)
open scoped NNReal

noncomputable section

/-- The solution of Picard and Lindelöf stays in the ball. -/
theorem picard_in_ball {E : Type*} [NormedAddCommGroup E] [NormedSpace ℝ E] [CompleteSpace E] {f : ℝ → E → E} {tmin tmax : ℝ}
    {t₀ : Icc tmin tmax} {x₀ : E} {a L K : ℝ≥0} (hf : IsPicardLindelof f t₀ x₀ a 0 L K) :
    ∃ α : ℝ → E, α t₀ = x₀ ∧ (∀ t, α t ∈ closedBall x₀ a) ∧
      ∀ t ∈ Ioo tmin tmax, HasDerivAt α (f t (α t)) t := by
  obtain ⟨α, hα⟩ := ODE.FunSpace.exists_isFixedPt_next hf (mem_closedBall_self le_rfl)
  refine ⟨α.compProj, by rw [ODE.FunSpace.compProj_val, ← hα, ODE.FunSpace.next_apply₀],
    fun t => α.compProj_mem_closedBall hf.mul_max_le, fun t ht => ?_⟩
  have h1 : HasDerivWithinAt α.compProj (f t (α.compProj t)) (Icc tmin tmax) t := by
    apply ODE.hasDerivWithinAt_picard_Icc t₀.2 hf.continuousOn_uncurry
      α.continuous_compProj.continuousOn (fun _ ht' ↦ α.compProj_mem_closedBall hf.mul_max_le)
      x₀ ⟨ht.1.le, ht.2.le⟩ |>.congr_of_mem _ ⟨ht.1.le, ht.2.le⟩
    intro t' ht'
    nth_rw 1 [← hα]
    rw [ODE.FunSpace.compProj_of_mem ht', ODE.FunSpace.next_apply]
  exact h1.hasDerivAt (Icc_mem_nhds ht.1 ht.2)

/-- the components of a vector -/
def ofR3 (w : R3) : V3 ℝ := ⟨w 0, w 1, w 2⟩

theorem e3_ofR3 (w : R3) : e3 (ofR3 w) = w := by
  ext i
  fin_cases i <;> rfl

theorem ofR3_e3 (w : V3 ℝ) : ofR3 (e3 w) = w := rfl

theorem rnorm_ofR3 (w : R3) : rnorm (ofR3 w) = ‖w‖ := by rw [← norm_e3, e3_ofR3]

theorem hasVelocity_ofR3 {c : ℝ → R3} {w : R3} {t : ℝ} (h : HasDerivAt c w t) :
    HasVelocity (fun t => ofR3 (c t)) (ofR3 w) t := by
  have key : ∀ i, HasDerivAt (fun t => c t i) (w i) t := fun i =>
    ((EuclideanSpace.proj i : R3 →L[ℝ] ℝ).hasFDerivAt.comp_hasDerivAt t h)
  exact ⟨key 0, key 1, key 2⟩

theorem pushT_norm' (P : TurnProgram) (lat long az : ℝ) {F : V3 ℝ} {m0 Q te τ c : ℝ} (hM : 0 < m0 - Q * (τ - te))
    (hF : rnorm F ≤ c * (m0 - Q * (τ - te))) : rnorm (pushT P lat long az F m0 Q te τ) ≤ c := by
  unfold pushT TurnProgram.frame
  rw [rnorm_rscale, show ∀ u, rnorm (rmulVecT (bodyFrame lat long az _ _ _) u) = rnorm u from
    fun u => (bodyFrame_isRotation _ _ _ _ _ _).transpose.norm u, abs_of_pos (by positivity), one_div, inv_mul_le_iff₀ hM]
  linarith

/-- A true flight for `T` seconds. -/
theorem powered_lasts (P : TurnProgram) (lat long az : ℝ) (F : V3 ℝ) {m Q T : ℝ} (hT : 0 ≤ T)
    (hQ : 0 ≤ Q) (hm : 0 < m - Q * T) (hmass : 120 * Q ≤ m - Q * T) (hthrust : rnorm F ≤ 25 * (m - Q * T))
    {a b μ j2 j3 j4 ω : ℝ} {gC : Kepler.C3 → Kepler.C3} (H : Field (field a μ j2 j3 j4) gC 6.4e6 32.12 7.04e-6)
    {r0 v0 : V3 ℝ} (hr0 : 6.5e6 + 8000 * (T + 0.01) ≤ rnorm r0) (hv0 : rnorm v0 + 60 * (T + 0.01) ≤ 8000) :
    ∃ (r v : ℝ → V3 ℝ), r 0 = r0 ∧ v 0 = v0 ∧ ∀ t ∈ Icc 0 T,
      PoweredMotion (realPlanet a b μ j2 j3 j4 ω) (P.frame lat long az) F (fun t => m - Q * t) r v t ∧
      rnorm r0 - 8000 * (T + 0.01) ≤ rnorm (r t) ∧ rnorm (r t) ≤ rnorm r0 + 8000 * (T + 0.01) ∧
      rnorm (v t) ≤ rnorm v0 + 60 * (T + 0.01) := by
  set A := pushT P lat long az F m Q 0 with hA
  set T' := T + 0.01 with hT'
  have hT0 : 0 < T' := by rw [hT']; linarith
  let f : ℝ → R3 × R3 → R3 × R3 := fun t z => ((3 / 400 : ℝ) • z.2, (400 / 3 : ℝ) • (field a μ j2 j3 j4 z.1 + e3 (A t)))
  let z0 : R3 × R3 := (e3 r0, (400 / 3 : ℝ) • e3 v0)
  have hMt : ∀ t ∈ Icc (-0.01 : ℝ) T', m - Q * T - 0.01 * Q ≤ m - Q * (t - 0) := by
    intro t ht
    have : Q * (t - 0) ≤ Q * T' := mul_le_mul_of_nonneg_left (by linarith [ht.2]) hQ
    rw [hT', mul_add] at this
    linarith
  have hMpos : ∀ t ∈ Icc (-0.01 : ℝ) T', 0 < m - Q * (t - 0) := by
    intro t ht
    have := hMt t ht
    norm_num at this ⊢
    linarith
  have hAn : ∀ t ∈ Icc (-0.01 : ℝ) T', ‖e3 (A t)‖ ≤ 25.1 := by
    intro t ht
    rw [norm_e3]
    refine pushT_norm' P lat long az (hMpos t ht) ?_
    have := hMt t ht
    norm_num at this ⊢
    linarith
  have hball : ∀ z ∈ closedBall z0 (8000 * T'), rnorm r0 - 8000 * T' ≤ ‖z.1‖ ∧ ‖z.1‖ ≤ rnorm r0 + 8000 * T' ∧
      ‖(3 / 400 : ℝ) • z.2‖ ≤ rnorm v0 + 60 * T' := by
    intro z hz
    rw [mem_closedBall, dist_eq_norm, Prod.norm_def, max_le_iff] at hz
    obtain ⟨h1, h2⟩ := hz
    have h1' : ‖z.1 - e3 r0‖ ≤ 8000 * T' := h1
    have h2' : ‖z.2 - (400 / 3 : ℝ) • e3 v0‖ ≤ 8000 * T' := h2
    have k1 := norm_sub_norm_le z.1 (e3 r0)
    have k2 := norm_sub_norm_le (e3 r0) z.1
    have k3 := norm_sub_norm_le z.2 ((400 / 3 : ℝ) • e3 v0)
    rw [norm_sub_rev] at k2
    rw [norm_smul, Real.norm_of_nonneg (by norm_num), norm_e3] at k3
    rw [norm_e3] at k1 k2
    rw [norm_smul, Real.norm_of_nonneg (by norm_num)]
    refine ⟨by linarith, by linarith, by linarith⟩
  have hfar : ∀ z ∈ closedBall z0 (8000 * T'), (6.4e6 : ℝ) ≤ ‖z.1‖ := fun z hz => by
    have := (hball z hz).1
    norm_num at this hr0 ⊢
    linarith
  have hp : IsPicardLindelof f (⟨0, by norm_num, hT0.le⟩ : Icc (-0.01 : ℝ) T') z0 ⟨8000 * T', by positivity⟩ 0 8000 1 := by
    refine ⟨fun t _ => ?_, fun z hz => ?_, fun t ht z hz => ?_, ?_⟩
    · refine LipschitzOnWith.of_dist_le_mul fun z hz w hw => ?_
      rw [dist_eq_norm, dist_eq_norm, NNReal.coe_one, one_mul, Prod.norm_def, Prod.norm_def (z - w)]
      have l := H.lipschitz z.1 w.1 (hfar z hz) (hfar w hw)
      have e1 : ‖(f t z - f t w).1‖ ≤ ‖(z - w).2‖ := by
        show ‖(3 / 400 : ℝ) • z.2 - (3 / 400 : ℝ) • w.2‖ ≤ ‖z.2 - w.2‖
        rw [← smul_sub, norm_smul, Real.norm_of_nonneg (by norm_num)]
        nlinarith [norm_nonneg (z.2 - w.2)]
      have e2 : ‖(f t z - f t w).2‖ ≤ ‖(z - w).1‖ := by
        show ‖(400 / 3 : ℝ) • (field a μ j2 j3 j4 z.1 + e3 (A t)) - (400 / 3 : ℝ) • (field a μ j2 j3 j4 w.1 + e3 (A t))‖ ≤
          ‖z.1 - w.1‖
        rw [← smul_sub, add_sub_add_right_eq_sub, norm_smul, Real.norm_of_nonneg (by norm_num)]
        norm_num at l
        nlinarith [norm_nonneg (z.1 - w.1)]
      exact max_le (e1.trans (le_max_right _ _)) (e2.trans (le_max_left _ _))
    · have hcA : ContinuousOn (fun t => e3 (A t)) (Icc (-0.01 : ℝ) T') := by
        intro t ht
        obtain ⟨c1, c2, c3⟩ := contDiff_push P lat long az F (m := m) (q := Q) (te := 0) (t := t) (hMpos t ht).ne'
        refine ContinuousAt.continuousWithinAt ?_
        have : ContinuousAt (fun t => (![(A t).x, (A t).y, (A t).z] : Fin 3 → ℝ)) t := by
          rw [continuousAt_pi]
          intro i
          fin_cases i
          · exact c1.continuousAt
          · exact c2.continuousAt
          · exact c3.continuousAt
        exact (PiLp.continuous_toLp 2 _).continuousAt.comp this
      have h2 : ContinuousOn (fun t => (400 / 3 : ℝ) • (field a μ j2 j3 j4 z.1 + e3 (A t))) (Icc (-0.01 : ℝ) T') :=
        (continuousOn_const.add hcA).const_smul (400 / 3 : ℝ)
      exact continuousOn_const.prodMk h2
    · obtain ⟨h1, h2, h3⟩ := hball z hz
      have hg : ‖field a μ j2 j3 j4 z.1‖ ≤ 32.12 := H.size (by norm_num) (hfar z hz)
      have hA' := hAn t ht
      have h4 := norm_add_le (field a μ j2 j3 j4 z.1) (e3 (A t))
      rw [Prod.norm_def]
      refine max_le (h3.trans hv0) ?_
      show ‖(400 / 3 : ℝ) • (field a μ j2 j3 j4 z.1 + e3 (A t))‖ ≤ 8000
      rw [norm_smul, Real.norm_of_nonneg (by norm_num)]
      norm_num at hg hA'
      linarith
    · show (8000 : ℝ) * max (T' - 0) (0 - -0.01) ≤ 8000 * T' - 0
      rw [max_eq_left (by rw [hT']; linarith)]
      linarith
  obtain ⟨α, hα0, hin, hder⟩ := picard_in_ball hp
  refine ⟨fun t => ofR3 (α t).1, fun t => ofR3 ((3 / 400 : ℝ) • (α t).2), ?_, ?_, fun t ht => ?_⟩
  · show ofR3 (α 0).1 = r0
    rw [show α 0 = z0 from hα0]
    rfl
  · show ofR3 ((3 / 400 : ℝ) • (α 0).2) = v0
    rw [show α 0 = z0 from hα0]
    show ofR3 ((3 / 400 : ℝ) • ((400 / 3 : ℝ) • e3 v0)) = v0
    rw [smul_smul]
    norm_num
    exact ofR3_e3 v0
  · obtain ⟨h1, h2, h3⟩ := hball (α t) (hin t)
    have hd := hder t ⟨by linarith [ht.1], by rw [hT']; linarith [ht.2]⟩
    have d1 : HasDerivAt (fun t => (α t).1) ((3 / 400 : ℝ) • (α t).2) t := hd.fst
    have d2 : HasDerivAt (fun t => (3 / 400 : ℝ) • (α t).2) (field a μ j2 j3 j4 (α t).1 + e3 (A t)) t := by
      have h4 : HasDerivAt (fun t => (α t).2) ((400 / 3 : ℝ) • (field a μ j2 j3 j4 (α t).1 + e3 (A t))) t := hd.snd
      have h5 : HasDerivAt (fun t => (3 / 400 : ℝ) • (α t).2)
          ((3 / 400 : ℝ) • ((400 / 3 : ℝ) • (field a μ j2 j3 j4 (α t).1 + e3 (A t)))) t := HasDerivAt.const_smul (3 / 400 : ℝ) h4
      refine h5.congr_deriv ?_
      show (3 / 400 : ℝ) • ((400 / 3 : ℝ) • (field a μ j2 j3 j4 (α t).1 + e3 (A t))) = _
      rw [smul_smul]
      norm_num
    have hne : ofR3 (α t).1 ≠ ⟨0, 0, 0⟩ := by
      intro h
      have := rnorm_ofR3 (α t).1
      rw [h] at this
      have e : rnorm ⟨0, 0, 0⟩ = 0 := by simp [rnorm]
      rw [e] at this
      norm_num at h1
      linarith
    refine ⟨⟨_, gravity_grav _ _ _ _ _ _ _ hne, hasVelocity_ofR3 d1, ?_⟩, ?_, ?_, ?_⟩
    · have d3 := hasVelocity_ofR3 d2
      have e : ofR3 (field a μ j2 j3 j4 (α t).1 + e3 (A t)) =
          radd (rscale (1 / (m - Q * t)) (rmulVecT (P.frame lat long az t) F)) (grav a μ j2 j3 j4 (ofR3 (α t).1)) := by
        have e1 : field a μ j2 j3 j4 (α t).1 = e3 (grav a μ j2 j3 j4 (ofR3 (α t).1)) := by
          rw [← field_e3, e3_ofR3]
        have e2 : A t = rscale (1 / (m - Q * t)) (rmulVecT (P.frame lat long az t) F) := by
          rw [hA]
          unfold pushT
          rw [sub_zero]
        rw [e1, ← e2]
        simp only [ofR3, radd, V3.mk.injEq]
        exact ⟨add_comm _ _, add_comm _ _, add_comm _ _⟩
      rw [e] at d3
      exact d3
    · rw [rnorm_ofR3]; exact h1
    · rw [rnorm_ofR3]; exact h2
    · rw [rnorm_ofR3]; exact h3

end
end Post
