import Verif.Props.Convergence
/-! # C76: what an orbit conserves, the simulation conserves up to the fourth order of the step size.
Exact arithmetic. -/

namespace Post
open Spec Flt Filter Topology

/-- A continuously differentiable function is Lipschitz near a compact piece of a curve, with one
constant. -/
theorem lipschitz_tube {E G : Type} [NormedAddCommGroup E] [NormedSpace ℝ E]
    [NormedAddCommGroup G] [NormedSpace ℝ G] {Q : E → G} {x : ℝ → E}
    {S : Set ℝ} (hS : IsCompact S) (hx : ∀ t ∈ S, ContinuousAt x t)
    (hQ : ∀ t ∈ S, ContDiffAt ℝ 1 Q (x t)) :
    ∃ L ε, 0 ≤ L ∧ 0 < ε ∧ ∀ t ∈ S, ∀ y, ‖y - x t‖ < ε → ‖Q y - Q (x t)‖ ≤ L * ‖y - x t‖ := by
  let P : Set ℝ → Prop := fun s => ∃ L ε, 0 ≤ L ∧ 0 < ε ∧ ∀ t ∈ s, ∀ y, ‖y - x t‖ < ε →
    ‖Q y - Q (x t)‖ ≤ L * ‖y - x t‖
  refine hS.induction_on (p := P) ⟨0, 1, le_rfl, one_pos, by simp⟩ ?_ ?_ ?_
  · rintro s t hst ⟨L, ε, h2, h3, h4⟩
    exact ⟨L, ε, h2, h3, fun u hu => h4 u (hst hu)⟩
  · rintro s t ⟨L, ε, h2, h3, h4⟩ ⟨L', ε', h2', h3', h4'⟩
    refine ⟨max L L', min ε ε', le_max_of_le_left h2, lt_min h3 h3', fun u hu y hy => ?_⟩
    rcases hu with hu | hu
    · exact (h4 u hu y (hy.trans_le (min_le_left _ _))).trans (by gcongr; exact le_max_left _ _)
    · exact (h4' u hu y (hy.trans_le (min_le_right _ _))).trans (by gcongr; exact le_max_right _ _)
  · intro t0 ht0
    obtain ⟨L, U, hU, hL⟩ := (hQ t0 ht0).exists_lipschitzOnWith
    obtain ⟨ε, hε, hball⟩ := Metric.mem_nhds_iff.1 hU
    obtain ⟨η, hη, hc⟩ := Metric.continuousAt_iff.1 (hx t0 ht0) (ε / 2) (by positivity)
    refine ⟨Metric.ball t0 η, mem_nhdsWithin_of_mem_nhds (Metric.ball_mem_nhds _ hη), L, ε / 2,
      L.2, by positivity, ?_⟩
    intro t ht y hy
    have h1 : dist (x t) (x t0) < ε / 2 := hc ht
    have h2 : dist y (x t0) < ε := by
      rw [← dist_eq_norm] at hy
      exact (dist_triangle y (x t) (x t0)).trans_lt (by linarith)
    have h3 := hL.dist_le_mul y (hball h2) (x t) (hball (by
      rw [Metric.mem_ball]; linarith))
    rw [dist_eq_norm, dist_eq_norm] at h3
    exact h3

theorem abs_le_rnorm (a : V3 ℝ) : |a.x| ≤ rnorm a ∧ |a.y| ≤ rnorm a ∧ |a.z| ≤ rnorm a := by
  unfold rnorm
  refine ⟨Real.abs_le_sqrt ?_, Real.abs_le_sqrt ?_, Real.abs_le_sqrt ?_⟩ <;>
    nlinarith [sq_nonneg a.x, sq_nonneg a.y, sq_nonneg a.z]

/-- Quantities that depend smoothly on position and velocity and do not change along an exact flight
change by at most `K h^4` along a flight that deviates by at most `K0 h^4`. -/
theorem quantity_drift {n : ℕ} {t1 T : ℝ} {r v : ℝ → V3 ℝ} {m : ℝ → ℝ}
    (hcont : ∀ t ∈ Set.Icc t1 (t1 + T), ContinuousAt (fun τ => seven (r τ) (v τ) (m τ)) t)
    {E : Fin n → V3 ℝ → V3 ℝ → ℝ}
    (hE : ∀ i, ∀ t ∈ Set.Icc t1 (t1 + T),
      ContDiffAt ℝ 1 (fun y => E i (pos7 y) (vel7 y)) (seven (r t) (v t) (m t)))
    (hcons : ∀ i, ∀ t ∈ Set.Icc t1 (t1 + T), E i (r t) (v t) = E i (r t1) (v t1)) (K0 : ℝ) :
    ∃ K δ : ℝ, 0 < δ ∧ ∀ h, 0 < h → h < δ → ∀ t ∈ Set.Icc t1 (t1 + T), ∀ r' v' m',
      rnorm (rsub r' (r t)) ≤ K0 * h ^ 4 → rnorm (rsub v' (v t)) ≤ K0 * h ^ 4 →
      |m' - m t| ≤ K0 * h ^ 4 → ∀ i, |E i r' v' - E i (r t1) (v t1)| ≤ K * h ^ 4 := by
  obtain ⟨L, ε, hL, hε, H⟩ := lipschitz_tube (Q := fun y i => E i (pos7 y) (vel7 y)) isCompact_Icc
    hcont (fun t ht => contDiffAt_pi.2 fun i => hE i t ht)
  have hK : 0 < |K0| + 1 := by positivity
  refine ⟨L * |K0|, min 1 (ε / (|K0| + 1)), lt_min one_pos (by positivity),
    fun h h0 hh t ht r' v' m' hr hv hm i => ?_⟩
  have h1 : h < 1 := hh.trans_le (min_le_left _ _)
  have h2 : h * (|K0| + 1) < ε := (lt_div_iff₀ hK).1 (hh.trans_le (min_le_right _ _))
  have h4 : h ^ 4 ≤ h := by
    have := pow_le_one₀ h0.le h1.le (n := 3)
    nlinarith
  have hle : K0 * h ^ 4 ≤ |K0| * h ^ 4 := by
    gcongr
    exact le_abs_self K0
  have hd : ‖seven r' v' m' - seven (r t) (v t) (m t)‖ ≤ |K0| * h ^ 4 := by
    refine (pi_norm_le_iff_of_nonneg (by positivity)).2 fun j => ?_
    have ar := abs_le_rnorm (rsub r' (r t))
    have av := abs_le_rnorm (rsub v' (v t))
    fin_cases j
    · exact (ar.1.trans hr).trans hle
    · exact (ar.2.1.trans hr).trans hle
    · exact (ar.2.2.trans hr).trans hle
    · exact (av.1.trans hv).trans hle
    · exact (av.2.1.trans hv).trans hle
    · exact (av.2.2.trans hv).trans hle
    · exact hm.trans hle
  have hs : ‖seven r' v' m' - seven (r t) (v t) (m t)‖ < ε := by
    refine hd.trans_lt (lt_of_le_of_lt ?_ h2)
    have := abs_nonneg K0
    nlinarith
  have h5 := H t ht _ hs
  have h6 := (norm_le_pi_norm _ i).trans (h5.trans (mul_le_mul_of_nonneg_left hd hL))
  rw [← hcons i t ht, mul_assoc]
  exact h6

/-- An exact orbit is continuous and does not meet the centre of the planet. -/
theorem orbit_regular {p : Phase XR} {a b μ j2 j3 j4 ω : ℝ} (hp : Coasting p a b μ j2 j3 j4 ω)
    {t0 t : ℝ} {r v : ℝ → V3 ℝ} {m : ℝ → ℝ} (h : SolvesMotion p t0 r v m t) :
    r t ≠ ⟨0, 0, 0⟩ ∧ ContinuousAt (fun τ => seven (r τ) (v τ) (m τ)) t := by
  obtain ⟨s, d, acc, flow, h1, h2, h3, h4, h5, h6, h7, h8, h9, h10, h11⟩ := h
  obtain ⟨g1, g2⟩ := coasting_acceleration hp.engines hp.vacuum h6 h7
  rw [h3] at g1
  refine ⟨?_, ?_⟩
  · intro h0
    rw [h0, hp.planet] at g1
    exact gravity_centre _ _ _ _ _ _ _ g1
  · refine continuousAt_pi.2 fun i => ?_
    fin_cases i
    · exact h9.1.continuousAt
    · exact h9.2.1.continuousAt
    · exact h9.2.2.continuousAt
    · exact h10.1.continuousAt
    · exact h10.2.1.continuousAt
    · exact h10.2.2.continuousAt
    · exact h11.continuousAt

/-- The steps of `C75_orbit` conserve up to `K h^4` what exact orbits conserve. -/
theorem orbit_conserve {n : ℕ} {p : Phase XR} {a b μ j2 j3 j4 ω : ℝ}
    (hp : Coasting p a b μ j2 j3 j4 ω)
    {t0 t1 T lo hi : ℝ} {r v : ℝ → V3 ℝ} {m : ℝ → ℝ} (hT : 0 ≤ T)
    (hlo : lo < t1) (hhi : t1 + T < hi) (hsol : ∀ t ∈ Set.Ioo lo hi, SolvesMotion p t0 r v m t)
    (hm : m t1 ≠ 0) {s0 : State XR} (hs0 : IsAt s0 t1 (t1 - t0) (r t1) (v t1) (m t1))
    {E : Fin n → V3 ℝ → V3 ℝ → ℝ}
    (hE : ∀ i y, pos7 y ≠ ⟨0, 0, 0⟩ → ContDiffAt ℝ 1 (fun y => E i (pos7 y) (vel7 y)) y)
    (hcons : ∀ i, ∀ t ∈ Set.Icc t1 (t1 + T), E i (r t) (v t) = E i (r t1) (v t1)) :
    ∃ K δ : ℝ, 0 < δ ∧ ∀ h, 0 < h → h < δ → ∃ s : ℕ → State XR, s 0 = s0 ∧
      ∀ k : ℕ, k * h ≤ T → OneStep p (.fin h) (s k) (s (k + 1)) ∧
        ∃ r' v', (s k).position = V3.fin r' ∧ (s k).velocity = V3.fin v' ∧
          ∀ i, |E i r' v' - E i (r t1) (v t1)| ≤ K * h ^ 4 := by
  obtain ⟨K0, δ0, hδ0, H0⟩ := C75_orbit hp hT hlo hhi hsol hm hs0
  have reg : ∀ t ∈ Set.Icc t1 (t1 + T), _ := fun t ht =>
    orbit_regular hp (hsol t ⟨by linarith [ht.1], by linarith [ht.2]⟩)
  obtain ⟨K, δ, hδ, H⟩ := quantity_drift (E := E) (m := m) (fun t ht => (reg t ht).2)
    (fun i t ht => hE i _ (reg t ht).1) hcons K0
  refine ⟨K, min δ0 δ, lt_min hδ0 hδ, fun h h0 hh => ?_⟩
  obtain ⟨s, hs, hk⟩ := H0 h h0 (hh.trans_le (min_le_left _ _))
  refine ⟨s, hs, fun k hkT => ?_⟩
  obtain ⟨h1, r', v', m', h2, h3, h4, h5⟩ := hk k hkT
  have hk0 : 0 ≤ (k : ℝ) * h := by positivity
  exact ⟨h1, r', v', h2.position, h2.velocity, H h h0 (hh.trans_le (min_le_right _ _)) _
    ⟨by linarith, by linarith⟩ r' v' m' h3 h4 h5⟩

/-- **C76** (energy).  Around any planet, without engines, atmosphere and acceleration limit, energy and
axial angular momentum stay what they are at the start of the coast up to `K h^4`, as long as `k h ≤ T`
after `k` steps of size `h`, for all small `h`. -/
theorem C76_energy {p : Phase XR} {a b μ j2 j3 j4 ω : ℝ} (hp : Coasting p a b μ j2 j3 j4 ω)
    {t0 t1 T lo hi : ℝ} {r v : ℝ → V3 ℝ} {m : ℝ → ℝ} (hT : 0 ≤ T)
    (hlo : lo < t1) (hhi : t1 + T < hi) (hsol : ∀ t ∈ Set.Ioo lo hi, SolvesMotion p t0 r v m t)
    (hm : m t1 ≠ 0) {s0 : State XR} (hs0 : IsAt s0 t1 (t1 - t0) (r t1) (v t1) (m t1)) :
    ∃ K δ : ℝ, 0 < δ ∧ ∀ h, 0 < h → h < δ → ∃ s : ℕ → State XR, s 0 = s0 ∧
      ∀ k : ℕ, k * h ≤ T → OneStep p (.fin h) (s k) (s (k + 1)) ∧
        ∃ r' v', (s k).position = V3.fin r' ∧ (s k).velocity = V3.fin v' ∧
          |energy a μ j2 j3 j4 r' v' - energy a μ j2 j3 j4 (r t1) (v t1)| ≤ K * h ^ 4 ∧
          |(angularMomentum r' v').z - (angularMomentum (r t1) (v t1)).z| ≤ K * h ^ 4 := by
  have hc : ∀ t ∈ Set.Icc t1 (t1 + T), _ := fun t ht =>
    C66_orbit hp.engines hp.vacuum hp.planet ht.1
      fun u hu => hsol u ⟨by linarith [hu.1], by linarith [hu.2, ht.2]⟩
  obtain ⟨K, δ, hδ, H⟩ := orbit_conserve hp hT hlo hhi hsol hm hs0
    (E := ![energy a μ j2 j3 j4, fun r v => (angularMomentum r v).z])
    (by
      intro i y hy
      fin_cases i
      · exact contDiffAt_energy _ _ _ _ _ hy
      · exact AnalyticAt.contDiffAt (((analyticAt_comp7 0 y).mul (analyticAt_comp7 4 y)).sub
          ((analyticAt_comp7 1 y).mul (analyticAt_comp7 3 y))))
    (by
      intro i t ht
      fin_cases i
      · exact (hc t ht).1
      · exact (hc t ht).2.1)
  refine ⟨K, δ, hδ, fun h h0 hh => ?_⟩
  obtain ⟨s, hs, hk⟩ := H h h0 hh
  refine ⟨s, hs, fun k hkT => ?_⟩
  obtain ⟨h1, r', v', h2, h3, h4⟩ := hk k hkT
  exact ⟨h1, r', v', h2, h3, h4 0, h4 1⟩

/-- The start of the circular orbit of radius one. -/
noncomputable def exampleOrbitStart : State XR :=
  { exampleOrbit.state with
    position := V3.fin ⟨1, 0, 0⟩
    velocity := V3.fin ⟨0, 1, 0⟩
    mass := .fin 1 }

/-- `C76_energy` applies to ten revolutions of the circular orbit of radius one. -/
example : ∃ K δ : ℝ, 0 < δ ∧ ∀ h, 0 < h → h < δ → ∃ s : ℕ → State XR,
    s 0 = exampleOrbitStart ∧
    ∀ k : ℕ, k * h ≤ 63 → OneStep exampleOrbit (.fin h) (s k) (s (k + 1)) ∧
      ∃ r' v', (s k).position = V3.fin r' ∧ (s k).velocity = V3.fin v' ∧
        |energy 1 1 0 0 0 r' v' + 1 / 2| ≤ K * h ^ 4 ∧ |(angularMomentum r' v').z - 1| ≤ K * h ^ 4 := by
  obtain ⟨K, δ, hδ, H⟩ := C76_energy exampleOrbit_coasting (t1 := 0) (T := 63) (lo := -1) (hi := 64)
    (r := fun t => ⟨Real.cos t, Real.sin t, 0⟩) (v := fun t => ⟨-Real.sin t, Real.cos t, 0⟩)
    (m := fun _ => 1) (by norm_num) (by norm_num) (by norm_num) (fun t _ => exampleOrbit_circle t)
    one_ne_zero (s0 := exampleOrbitStart)
    ⟨XR.fin_zero, by rw [sub_zero]; exact XR.fin_zero, by simp [exampleOrbitStart],
      by simp [exampleOrbitStart], rfl⟩
  refine ⟨K, δ, hδ, fun h h0 hh => ?_⟩
  obtain ⟨s, hs, hk⟩ := H h h0 hh
  refine ⟨s, hs, fun k hkT => ?_⟩
  obtain ⟨h1, r', v', h2, h3, h4, h5⟩ := hk k hkT
  refine ⟨h1, r', v', h2, h3, ?_, ?_⟩
  · refine le_of_eq_of_le ?_ h4
    congr 1
    norm_num [energy, rdot, potential, rnorm, legendre2, legendre3, legendre4]
  · refine le_of_eq_of_le ?_ h5
    congr 1
    norm_num [angularMomentum, rcross]

/-- The six components of angular momentum and Laplace-Runge-Lenz vector. -/
noncomputable def keplerSix (μ : ℝ) : Fin 6 → V3 ℝ → V3 ℝ → ℝ :=
  ![fun r v => (angularMomentum r v).x, fun r v => (angularMomentum r v).y,
    fun r v => (angularMomentum r v).z, fun r v => (lenzVector μ r v).x,
    fun r v => (lenzVector μ r v).y, fun r v => (lenzVector μ r v).z]

theorem contDiffAt_keplerSix (μ : ℝ) (i : Fin 6) {y : Fin 7 → ℝ} (hy : pos7 y ≠ ⟨0, 0, 0⟩) :
    ContDiffAt ℝ 1 (fun y => keplerSix μ i (pos7 y) (vel7 y)) y := by
  refine AnalyticAt.contDiffAt ?_
  have h0 := analyticAt_comp7 0 y
  have h1 := analyticAt_comp7 1 y
  have h2 := analyticAt_comp7 2 y
  have h3 := analyticAt_comp7 3 y
  have h4 := analyticAt_comp7 4 y
  have h5 := analyticAt_comp7 5 y
  have hn := analyticAt_rnorm7 hy
  have hne : rnorm (pos7 y) ≠ 0 := (rnorm_pos _ hy).ne'
  have hx := (h1.mul h5).sub (h2.mul h4)
  have hY := (h2.mul h3).sub (h0.mul h5)
  have hz := (h0.mul h4).sub (h1.mul h3)
  have hd : AnalyticAt ℝ (fun z => μ / rnorm (pos7 z)) y := analyticAt_const.div hn hne
  fin_cases i
  · exact hx
  · exact hY
  · exact hz
  · exact ((h4.mul hz).sub (h5.mul hY)).sub (hd.mul h0)
  · exact ((h5.mul hx).sub (h3.mul hz)).sub (hd.mul h1)
  · exact ((h3.mul hY).sub (h4.mul hx)).sub (hd.mul h2)

/-- **C76** (Kepler).  If moreover the planet has no harmonics, the whole angular momentum and the
Laplace-Runge-Lenz vector stay what they are at the start of the coast up to `K h^4`: orbital plane,
eccentricity and orientation of the orbit drift by no more. -/
theorem C76_kepler {p : Phase XR} {a b μ ω : ℝ} (hp : Coasting p a b μ 0 0 0 ω)
    {t0 t1 T lo hi : ℝ} {r v : ℝ → V3 ℝ} {m : ℝ → ℝ} (hT : 0 ≤ T)
    (hlo : lo < t1) (hhi : t1 + T < hi) (hsol : ∀ t ∈ Set.Ioo lo hi, SolvesMotion p t0 r v m t)
    (hm : m t1 ≠ 0) {s0 : State XR} (hs0 : IsAt s0 t1 (t1 - t0) (r t1) (v t1) (m t1)) :
    ∃ K δ : ℝ, 0 < δ ∧ ∀ h, 0 < h → h < δ → ∃ s : ℕ → State XR, s 0 = s0 ∧
      ∀ k : ℕ, k * h ≤ T → OneStep p (.fin h) (s k) (s (k + 1)) ∧
        ∃ r' v', (s k).position = V3.fin r' ∧ (s k).velocity = V3.fin v' ∧
          rnorm (rsub (angularMomentum r' v') (angularMomentum (r t1) (v t1))) ≤ K * h ^ 4 ∧
          rnorm (rsub (lenzVector μ r' v') (lenzVector μ (r t1) (v t1))) ≤ K * h ^ 4 := by
  have hc : ∀ t ∈ Set.Icc t1 (t1 + T), _ := fun t ht =>
    C66_kepler hp.engines hp.vacuum hp.planet ht.1
      fun u hu => hsol u ⟨by linarith [hu.1], by linarith [hu.2, ht.2]⟩
  obtain ⟨K, δ, hδ, H⟩ := orbit_conserve hp hT hlo hhi hsol hm hs0 (E := keplerSix μ)
    (fun i y hy => contDiffAt_keplerSix μ i hy)
    (by
      intro i t ht
      obtain ⟨h1, h2⟩ := hc t ht
      fin_cases i
      · exact congrArg V3.x h1
      · exact congrArg V3.y h1
      · exact congrArg V3.z h1
      · exact congrArg V3.x h2
      · exact congrArg V3.y h2
      · exact congrArg V3.z h2)
  refine ⟨3 * K, δ, hδ, fun h h0 hh => ?_⟩
  obtain ⟨s, hs, hk⟩ := H h h0 hh
  refine ⟨s, hs, fun k hkT => ?_⟩
  obtain ⟨h1, r', v', h2, h3, h4⟩ := hk k hkT
  rw [mul_assoc]
  exact ⟨h1, r', v', h2, h3, rnorm_le_three (h4 0) (h4 1) (h4 2), rnorm_le_three (h4 3) (h4 4) (h4 5)⟩

/-- `C76_kepler` applies to ten revolutions of the circular orbit of radius one: its angular momentum
is one, along the axis, and its eccentricity is zero. -/
example : ∃ K δ : ℝ, 0 < δ ∧ ∀ h, 0 < h → h < δ → ∃ s : ℕ → State XR,
    s 0 = exampleOrbitStart ∧
    ∀ k : ℕ, k * h ≤ 63 → OneStep exampleOrbit (.fin h) (s k) (s (k + 1)) ∧
      ∃ r' v', (s k).position = V3.fin r' ∧ (s k).velocity = V3.fin v' ∧
        rnorm (rsub (angularMomentum r' v') ⟨0, 0, 1⟩) ≤ K * h ^ 4 ∧
        rnorm (rsub (lenzVector 1 r' v') ⟨0, 0, 0⟩) ≤ K * h ^ 4 := by
  have h := C76_kepler exampleOrbit_coasting (t1 := 0) (T := 63) (lo := -1) (hi := 64)
    (r := fun t => ⟨Real.cos t, Real.sin t, 0⟩) (v := fun t => ⟨-Real.sin t, Real.cos t, 0⟩)
    (m := fun _ => 1) (by norm_num) (by norm_num) (by norm_num) (fun t _ => exampleOrbit_circle t)
    one_ne_zero (s0 := exampleOrbitStart)
    ⟨XR.fin_zero, by rw [sub_zero]; exact XR.fin_zero, by simp [exampleOrbitStart],
      by simp [exampleOrbitStart], rfl⟩
  have e1 : angularMomentum (⟨Real.cos 0, Real.sin 0, 0⟩ : V3 ℝ) ⟨-Real.sin 0, Real.cos 0, 0⟩ =
      ⟨0, 0, 1⟩ := by norm_num [angularMomentum, rcross]
  have e2 : lenzVector 1 (⟨Real.cos 0, Real.sin 0, 0⟩ : V3 ℝ) ⟨-Real.sin 0, Real.cos 0, 0⟩ =
      ⟨0, 0, 0⟩ := by norm_num [lenzVector, angularMomentum, rcross, rsub, rscale, rnorm]
  simp only [e1, e2] at h
  exact h

end Post
