import Verif.Spec.Powered
import Verif.Lemmas.Powered
import Verif.Lemmas.ComplexTurn
import Verif.Props.Accuracy
import Verif.Props.Rocket
import Verif.Props.Unlimited
/-! # C96: how far a simulated powered flight in vacuum is from the true one -/

namespace Post
open Spec Flt Filter Topology
open Kepler (R3 motionT Field Forcing)

noncomputable section

theorem isEarth_real {P : Planet XR} (h : IsEarth P) : ∃ a b μ j2 j3 j4 ω, P = realPlanet a b μ j2 j3 j4 ω := by
  unfold IsEarth EARTH_SPHERICAL EARTH_FISHER_1960 EARTH_SMITHSONIAN METER_PER_FOOT
    CUBIC_METER_PER_CUBIC_FOOT METER_PER_FOOT at h
  simp only [XR.fin_sci, XR.fin_zero, XR.fin_mul, XR.fin_neg] at h
  rcases h with rfl | rfl | rfl
  · exact ⟨_, _, _, _, _, _, _, rfl⟩
  · exact ⟨_, _, _, _, _, _, _, rfl⟩
  · exact ⟨_, _, _, _, _, _, _, rfl⟩

theorem system_vacuum_ok {p : Phase XR} {es : List RealEngine} {lat long az : ℝ} {P : TurnProgram}
    (hp : VacuumFlight p es lat long az P) {s : State XR} {m : ℝ} (hmass : s.mass = .fin m) (hm : 0 < m) :
    ∃ d, p.system s = .ok d := by
  obtain ⟨f, hf⟩ := Vehicle.aeroForce_ok hp.tables (p.systemPre s)
  have h0 := aeroForce_of_zero_q (systemPre_vacuum hp.vacuum s).2.2.2 hf
  subst h0
  exact C15_never_aborts hp.unlimited hp.engines hmass hm (systemPre_vacuum hp.vacuum s).2.1 hf

theorem uniform_angle {x : Axis XR} {c0 c1 : ℝ} (h : TurnsUniformly x c0 c1) {s : State XR} {t te : ℝ}
    (ht : s.time = .fin t) (hte : s.timeSinceEvent = .fin te) : x.angle s = .fin (rad (c0 + c1 * te)) := by
  obtain ⟨hx, e0, e1, e2, e3⟩ := h
  rcases hx with hx | ⟨hx, hc⟩
  · rw [C16_axis_angle (y := te) (by rw [hx]; exact hte) e0 e1 e2 e3]
    unfold rad cubic
    congr 1
    ring
  · rw [C16_axis_angle (y := t) (by rw [hx]; exact ht) e0 e1 e2 e3, hc]
    unfold rad cubic
    congr 1
    ring

/-- gravity and an acceleration that depends on time -/
def pushed (a μ j2 j3 j4 : ℝ) (A : ℝ → V3 ℝ) (Q te : ℝ) (y : Fin 7 → ℝ) : Fin 7 → ℝ :=
  let g := radd (A te) (grav a μ j2 j3 j4 (pos7 y))
  vec7 (y 3) (y 4) (y 5) g.x g.y g.z (-Q)

theorem proj7_pushed (a μ j2 j3 j4 : ℝ) (A : ℝ → V3 ℝ) (Q te : ℝ) (y : Fin 7 → ℝ) :
    proj7 (pushed a μ j2 j3 j4 A Q te y) =
      ((proj7 y).2, field a μ j2 j3 j4 (proj7 y).1 + e3 (A te)) := by
  rw [proj7_apply, proj7_apply]
  simp only
  rw [field_e3, add_comm]
  refine Prod.ext rfl ?_
  ext i
  fin_cases i <;> rfl

theorem powered_rhs {p : Phase XR} {es : List RealEngine} {lat long az : ℝ} {P : TurnProgram}
    (hp : VacuumFlight p es lat long az P) {a b μ j2 j3 j4 ω : ℝ} (hpl : p.planet = realPlanet a b μ j2 j3 j4 ω)
    {x : Fin 2 → ℝ} {y : Fin 7 → ℝ} {m0 te0 : ℝ} (hy : pos7 y ≠ ⟨0, 0, 0⟩)
    (hm : y 6 = m0 - fullConsumption es * (x 1 - te0)) (hm0 : 0 < y 6) :
    convertedFunc p.system (vfin x) (vfin y) =
      .ok (vfin (pushed a μ j2 j3 j4 (pushT P lat long az (fullThrust es 0) m0 (fullConsumption es) te0)
        (fullConsumption es) (x 1) y)) := by
  obtain ⟨d, hd⟩ := system_vacuum_ok hp (s := State.fromVec (vfin x) (vfin y)) rfl hm0
  have hM : inertialToBody p.launch d.eulerAngles = (P.frame lat long az (x 1)).fin := by
    have he : d.eulerAngles = ⟨.fin (rad (P.roll + P.rollRate * x 1)), .fin (rad (P.yaw + P.yawRate * x 1)),
        .fin (rad (P.pitch + P.pitchRate * x 1))⟩ := by
      obtain ⟨aero, _, _, rfl⟩ := Phase.system_ok hd
      show p.steering.eulerAngles (p.atSteering (State.fromVec (vfin x) (vfin y))) = _
      unfold Steering.eulerAngles
      rw [uniform_angle hp.roll (t := x 0) (te := x 1) rfl rfl, uniform_angle hp.yaw (t := x 0) (te := x 1) rfl rfl,
        uniform_angle hp.pitch (t := x 0) (te := x 1) rfl rfl]
    unfold inertialToBody
    rw [he, hp.launch]
    simp only
    rw [launchToBody_fin, inertialToLaunch_fin, M3.fin_mul]
    rfl
  obtain ⟨k, hk, h1, h2⟩ := system_powered hp.engines hp.impulse hp.vacuum hd (m := y 6) rfl hm0.ne' hM
  have hone := system_unlimited_throttle hp.unlimited hd (m := y 6) rfl hm0
  rw [hk, XR.fin_inj] at hone
  subst hone
  have hv := (Phase.system_primary hd).2.2.2.1
  rw [hpl, show (State.fromVec (vfin x) (vfin y)).position = (pos7 y).fin from rfl,
    gravity_grav _ _ _ _ _ _ _ hy, V3.fin_add'] at h2
  unfold convertedFunc
  rw [hd]
  show Except.ok d.toDifferentialsVector = _
  congr 1
  funext i
  unfold State.toDifferentialsVector
  rw [hv, h1, h2, one_mul]
  unfold pushed pushT
  rw [← hm]
  fin_cases i <;> rfl

/-- One step. -/
theorem powered_one_step {p : Phase XR} {es : List RealEngine} {lat long az : ℝ} {P : TurnProgram}
    (hp : VacuumFlight p es lat long az P) {a b μ j2 j3 j4 ω : ℝ} (hpl : p.planet = realPlanet a b μ j2 j3 j4 ω)
    {gC : Kepler.C3 → Kepler.C3} {R G L V h T B m0 te0 : ℝ} (H : Field (field a μ j2 j3 j4) gC R G L) (hR : 0 < R)
    {AC : ℂ → Kepler.C3} {I : Set ℝ}
    (HA : Forcing (fun t => e3 (pushT P lat long az (fullThrust es 0) m0 (fullConsumption es) te0 t)) AC I T B) (hT : 0 ≤ T)
    (hh : 0 ≤ h) {x : Fin 2 → ℝ} {y : Fin 7 → ℝ} (hQ : 0 ≤ fullConsumption es) (hI : x 1 ∈ I) (hI2 : x 1 + h / 2 ∈ I)
    (hm : y 6 = m0 - fullConsumption es * (x 1 - te0)) (hm0 : 0 < m0 - fullConsumption es * (x 1 + h - te0))
    (hv : ‖(proj7 y).2‖ ≤ V) (hr : R + h * V + h ^ 2 * (G + B) ≤ ‖(proj7 y).1‖) :
    ∃ y' : Fin 7 → ℝ, RK4.step (convertedFunc p.system) (vfin x) (vfin y) (.fin h) = .ok (vfin (shift x h), vfin y') ∧
      y' 6 = y 6 - fullConsumption es * h ∧
      (proj7 y').1 = (RKOrder.rk4 (motionT (field a μ j2 j3 j4)
        (fun t => e3 (pushT P lat long az (fullThrust es 0) m0 (fullConsumption es) te0 t)))
        ((proj7 y).1, (proj7 y).2, x 1) h).1 ∧
      (proj7 y').2 = (RKOrder.rk4 (motionT (field a μ j2 j3 j4)
        (fun t => e3 (pushT P lat long az (fullThrust es 0) m0 (fullConsumption es) te0 t)))
        ((proj7 y).1, (proj7 y).2, x 1) h).2.1 := by
  set Q := fullConsumption es with hQdef
  set A := pushT P lat long az (fullThrust es 0) m0 Q te0 with hA
  obtain ⟨h1, h2, h3, h4⟩ := Kepler.stages_farT H HA hT hI hI2 hR hh hv hr
  have lin : ∀ (c te : ℝ) (z : Fin 7 → ℝ), (proj7 (y + c • pushed a μ j2 j3 j4 A Q te z)).1 =
      (proj7 y).1 + c • (proj7 z).2 := by
    intro c te z
    rw [map_add, map_smul, proj7_pushed]
    rfl
  have lin2 : ∀ (c te : ℝ) (z : Fin 7 → ℝ), (proj7 (y + c • pushed a μ j2 j3 j4 A Q te z)).2 =
      (proj7 y).2 + c • (field a μ j2 j3 j4 (proj7 z).1 + e3 (A te)) := by
    intro c te z
    rw [map_add, map_smul, proj7_pushed]
    rfl
  have mass : ∀ (c te : ℝ) (z : Fin 7 → ℝ), (y + c • pushed a μ j2 j3 j4 A Q te z) 6 = m0 - Q * (x 1 + c - te0) := by
    intro c te z
    show y 6 + c * (-Q) = _
    rw [hm]
    ring
  have mpos : ∀ c, c ≤ h → 0 < m0 - Q * (x 1 + c - te0) := by
    intro c hc
    have : Q * (x 1 + c - te0) ≤ Q * (x 1 + h - te0) := mul_le_mul_of_nonneg_left (by linarith) hQ
    linarith
  have rhs : ∀ (c : ℝ) (z : Fin 7 → ℝ), c ≤ h → R ≤ ‖(proj7 z).1‖ → z 6 = m0 - Q * (x 1 + c - te0) →
      convertedFunc p.system (vfin (shift x c)) (vfin z) = .ok (vfin (pushed a μ j2 j3 j4 A Q (x 1 + c) z)) := by
    intro c z hc hz hz6
    exact powered_rhs hp hpl (x := shift x c) (pos7_ne_of_norm hR hz) hz6 (by rw [hz6]; exact mpos c hc)
  have e1 := rhs 0 y hh h1 (by rw [hm, add_zero])
  rw [show shift x 0 = x by funext i; simp [shift], add_zero] at e1
  have e2 := rhs (h / 2) _ (by linarith) (by rw [lin (h / 2) (x 1) y]; exact h2) (mass _ _ _)
  have e3' := rhs (h / 2) _ (by linarith) (by rw [lin (h / 2) (x 1 + h / 2), lin2 (h / 2) (x 1) y]; exact h3) (mass _ _ _)
  have e4 := rhs h _ le_rfl (by rw [lin h (x 1 + h / 2), lin2 (h / 2) (x 1 + h / 2), lin (h / 2) (x 1) y]; exact h4) (mass _ _ _)
  refine ⟨_, C51_stages e1 e2 e3' e4, ?_, ?_, ?_⟩
  · show y 6 + h / 6 * (-Q + 2 * -Q + 2 * -Q + -Q) = _
    ring
  · rw [Kepler.rk4_motionT]
    simp only [map_add, map_smul, proj7_pushed, Prod.fst_add, Prod.snd_add, Prod.smul_fst, Prod.smul_snd]
    module
  · rw [Kepler.rk4_motionT]
    simp only [map_add, map_smul, proj7_pushed, Prod.fst_add, Prod.snd_add, Prod.smul_fst, Prod.smul_snd]

/-- the error of each step, see `Kepler.step_errorT` -/
def stepErrT (lam d W T h : ℝ) : ℝ := lam * (7 * d * (h / T) ^ 5) + 7 * W * (h / T) ^ 5

theorem isAt_vec {s : State XR} {t te m : ℝ} {y : Fin 7 → ℝ} (ha : IsAt s t te (pos7 y) (vel7 y) m) (hm : y 6 = m) :
    vec2 s.time s.timeSinceEvent = vfin ![t, te] ∧ s.toPrimaryVec = vfin y := by
  constructor
  · rw [ha.time, ha.timeSinceEvent]
    funext i
    fin_cases i <;> rfl
  · unfold State.toPrimaryVec
    rw [ha.position, ha.velocity, ha.mass, ← hm]
    funext i
    fin_cases i <;> rfl

/-- A simulated powered flight in vacuum, any number of steps, against the true one, see `orbit_accuracy`.  `B` bounds the
acceleration by the thrust. -/
theorem powered_accuracy {p : Phase XR} {es : List RealEngine} {lat long az : ℝ} {P : TurnProgram}
    (hp : VacuumFlight p es lat long az P) {a b μ j2 j3 j4 ω : ℝ} (hpl : p.planet = realPlanet a b μ j2 j3 j4 ω)
    {gC : Kepler.C3 → Kepler.C3} {R G L V W T B d h lam D N t1 te m : ℝ} {n : ℕ}
    (H : Field (field a μ j2 j3 j4) gC R G L) (hR : 0 < R) (hW : 0 < W) (hd : 0 < d) (hdR : d ≤ R / 4)
    {AC : ℂ → Kepler.C3}
    (HA : Forcing (fun t => e3 (pushT P lat long az (fullThrust es 0) m (fullConsumption es) te t)) AC
      (Set.Icc te (te + n * h)) T B)
    (hT1 : T * (V + W) ≤ d) (hT2 : T * (G + B) ≤ W) (hh : 0 < h) (hhT : h < T) (hlam : 0 < lam)
    (hL : L ≤ lam ^ 2) (hQ : 0 ≤ fullConsumption es) (hmn : 0 < m - fullConsumption es * (n * h)) {r v : ℝ → V3 ℝ}
    (hfly : ∀ t ∈ Set.Icc te (te + n * h), PoweredMotion p.planet (P.frame lat long az) (fullThrust es 0)
      (fun t => m - fullConsumption es * (t - te)) r v t)
    (hrR : ∀ t ∈ Set.Icc te (te + n * h), R + D + h * (V + lam * D) + h ^ 2 * (G + B) ≤ rnorm (r t))
    (hvV : ∀ t ∈ Set.Icc te (te + n * h), rnorm (v t) ≤ V)
    {s0 : State XR} {r0 v0 : V3 ℝ} (hs0 : IsAt s0 t1 te r0 v0 m)
    (hN : lam * rdist r0 (r te) + rdist v0 (v te) ≤ N)
    (hD : Kepler.bound lam h N (stepErrT lam d W T h) n ≤ lam * D) :
    ∃ s : ℕ → State XR, s 0 = s0 ∧ (∀ k < n, OneStep p (.fin h) (s k) (s (k + 1))) ∧
      ∀ k ≤ n, ∃ r' v', IsAt (s k) (t1 + k * h) (te + k * h) r' v' (m - fullConsumption es * (k * h)) ∧
        lam * rdist r' (r (te + k * h)) + rdist v' (v (te + k * h)) ≤
          Kepler.bound lam h N (stepErrT lam d W T h) k := by
  set Q := fullConsumption es with hQdef
  set A := pushT P lat long az (fullThrust es 0) m Q te with hAdef
  have hT : 0 < T := hh.trans hhT
  have hin : ∀ k ≤ n, te + k * h ∈ Set.Icc te (te + n * h) := by
    intro k hk
    have h1 : (k : ℝ) ≤ n := by exact_mod_cast hk
    refine ⟨?_, ?_⟩
    · have : 0 ≤ (k : ℝ) * h := by positivity
      linarith
    · have : (k : ℝ) * h ≤ n * h := by gcongr
      linarith
  have hstart : ∀ t ∈ Set.Icc te (te + n * h), HasVelocity r (v t) t ∧
      HasVelocity v (radd (A t) (grav a μ j2 j3 j4 (r t))) t := by
    intro t ht
    obtain ⟨g, h1, h2, h3⟩ := hfly t ht
    rw [hpl] at h1
    have hne : r t ≠ ⟨0, 0, 0⟩ := by
      intro h0
      rw [h0] at h1
      exact gravity_centre _ _ _ _ _ _ _ h1
    rw [gravity_grav _ _ _ _ _ _ _ hne] at h1
    rw [V3.fin_inj.1 h1]
    exact ⟨h2, h3⟩
  have her : stepErrT lam d W T h = lam * (7 * d * (h / T) ^ 5 + 0) + (7 * W * (h / T) ^ 5 + 0) := by
    unfold stepErrT
    ring
  have hN0 : 0 ≤ N := by
    refine le_trans ?_ hN
    unfold rdist rnorm
    positivity
  have hκ : 0 ≤ stepErrT lam d W T h := by unfold stepErrT; positivity
  -- the bound for a sequence of states that follows the integrator
  have main : ∀ (j : ℕ), j ≤ n → ∀ y : ℕ → Fin 7 → ℝ, y 0 = seven r0 v0 m →
      (∀ k < j, (proj7 (y (k + 1))).1 = (RKOrder.rk4 (motionT (field a μ j2 j3 j4) (fun t => e3 (A t)))
          ((proj7 (y k)).1, (proj7 (y k)).2, te + k * h) h).1 ∧
        (proj7 (y (k + 1))).2 = (RKOrder.rk4 (motionT (field a μ j2 j3 j4) (fun t => e3 (A t)))
          ((proj7 (y k)).1, (proj7 (y k)).2, te + k * h) h).2.1) →
      lam * rdist (pos7 (y j)) (r (te + j * h)) + rdist (vel7 (y j)) (v (te + j * h)) ≤
        Kepler.bound lam h N (stepErrT lam d W T h) j := by
    intro j hj y hy0 hy
    have hsub : Set.Icc te (te + j * h) ⊆ Set.Icc te (te + n * h) := Set.Icc_subset_Icc le_rfl (hin j hj).2
    have := Kepler.flight_errorT (z := fun k => proj7 (y k)) (r := fun t => e3 (r t))
      (v := fun t => e3 (v t)) (n := j) (t1 := te) (D := D) (N := N) H
      ⟨HA.real, fun t ht => HA.near t (hsub ht)⟩ hR hW hd hdR hT1 hT2 hh hhT hlam hL le_rfl
      le_rfl (fun t ht => hasDerivAt_e3 (hstart t (hsub ht)).1)
      (fun t ht => by
        rw [field_e3]
        have k := hasDerivAt_e3 (hstart t (hsub ht)).2
        have e : e3 (grav a μ j2 j3 j4 (r t)) + e3 (A t) = e3 (radd (A t) (grav a μ j2 j3 j4 (r t))) := by
          rw [add_comm]
          ext i
          fin_cases i <;> rfl
        rw [e]
        exact k)
      (fun t ht => by rw [norm_e3]; exact hrR t (hsub ht))
      (fun t ht => by rw [norm_e3]; exact hvV t (hsub ht))
      (by
        simp only [hy0]
        show lam * ‖e3 r0 - e3 (r te)‖ + ‖e3 v0 - e3 (v te)‖ ≤ N
        rw [norm_e3_sub, norm_e3_sub]
        exact hN)
      (by rw [← her]; exact (Kepler.bound_mono hlam hh hκ hN0 hj).trans hD)
      (fun k hk _ _ => by
        obtain ⟨k1, k2⟩ := hy k hk
        simp only [k1, k2, sub_self, norm_zero, le_refl, and_self]) j le_rfl
    rw [← her] at this
    simp only [proj7_apply, norm_e3_sub] at this
    exact this
  -- the states
  have build : ∀ j ≤ n, ∃ y : ℕ → Fin 7 → ℝ, y 0 = seven r0 v0 m ∧ (∀ k ≤ j, y k 6 = m - Q * (k * h)) ∧
      ∀ k < j, RK4.step (convertedFunc p.system) (vfin (shift ![t1, te] (k * h))) (vfin (y k)) (.fin h) =
          .ok (vfin (shift ![t1, te] ((k + 1 : ℕ) * h)), vfin (y (k + 1))) ∧
        (proj7 (y (k + 1))).1 = (RKOrder.rk4 (motionT (field a μ j2 j3 j4) (fun t => e3 (A t)))
          ((proj7 (y k)).1, (proj7 (y k)).2, te + k * h) h).1 ∧
        (proj7 (y (k + 1))).2 = (RKOrder.rk4 (motionT (field a μ j2 j3 j4) (fun t => e3 (A t)))
          ((proj7 (y k)).1, (proj7 (y k)).2, te + k * h) h).2.1 := by
    intro j
    induction j with
    | zero =>
      intro _
      refine ⟨fun _ => seven r0 v0 m, rfl, ?_, fun k hk => absurd hk (by omega)⟩
      intro k hk
      obtain rfl : k = 0 := by omega
      show m = _
      simp
    | succ j ih =>
      intro hj
      obtain ⟨y, hy0, hym, hy⟩ := ih (by omega)
      have h1 := (main j (by omega) y hy0 (fun k hk => (hy k hk).2)).trans
        ((Kepler.bound_mono hlam hh hκ hN0 (by omega : j ≤ n)).trans hD)
      rw [← norm_e3_sub, ← norm_e3_sub] at h1
      have h2 : ‖e3 (pos7 (y j)) - e3 (r (te + j * h))‖ ≤ D := by
        have : lam * ‖e3 (pos7 (y j)) - e3 (r (te + j * h))‖ ≤ lam * D := by
          linarith [norm_nonneg (e3 (vel7 (y j)) - e3 (v (te + j * h)))]
        exact le_of_mul_le_mul_left this hlam
      have h3 : ‖e3 (vel7 (y j)) - e3 (v (te + j * h))‖ ≤ lam * D := by
        have : 0 ≤ lam * ‖e3 (pos7 (y j)) - e3 (r (te + j * h))‖ := by positivity
        linarith
      have h4 := hrR _ (hin j (by omega))
      have h5 := hvV _ (hin j (by omega))
      rw [← norm_e3] at h4 h5
      have h6 := norm_sub_norm_le (e3 (r (te + j * h))) (e3 (pos7 (y j)))
      rw [norm_sub_rev] at h6
      have h7 := norm_sub_norm_le (e3 (vel7 (y j))) (e3 (v (te + j * h)))
      have hj1 : ((j : ℝ) + 1) ≤ n := by exact_mod_cast hj
      have hj2 : ((j : ℝ) + 1) * h ≤ n * h := by gcongr
      have hin2 := hin j (by omega)
      obtain ⟨y', g1, g2, g3, g4⟩ := powered_one_step hp hpl (x := shift ![t1, te] (j * h)) (y := y j) (te0 := te)
        (m0 := m) (V := V + lam * D) H hR HA hT.le hh.le hQ hin2 ⟨by
          show te ≤ te + j * h + h / 2
          linarith [hin2.1], by
          show te + j * h + h / 2 ≤ te + n * h
          linarith⟩
        (by
          show y j 6 = m - Q * (te + j * h - te)
          rw [hym j le_rfl]
          ring)
        (by
          show 0 < m - Q * (te + j * h + h - te)
          have : Q * (te + j * h + h - te) ≤ Q * (n * h) := mul_le_mul_of_nonneg_left (by linarith) hQ
          linarith)
        (by rw [proj7_apply]; show ‖e3 (vel7 (y j))‖ ≤ _; linarith)
        (by rw [proj7_apply]; show _ ≤ ‖e3 (pos7 (y j))‖; linarith)
      refine ⟨fun k => if k ≤ j then y k else y', by simp [hy0], ?_, ?_⟩
      · intro k hk
        by_cases hkj : k ≤ j
        · simp only [if_pos hkj]
          exact hym k hkj
        · obtain rfl : k = j + 1 := by omega
          simp only [if_neg hkj]
          rw [g2, hym j le_rfl]
          push_cast
          ring
      · intro k hk
        by_cases hkj : k < j
        · simp only [if_pos hkj.le, if_pos (by omega : k + 1 ≤ j)]
          exact hy k hkj
        · obtain rfl : k = j := by omega
          simp only [if_pos le_rfl, if_neg (by omega : ¬ k + 1 ≤ k)]
          refine ⟨?_, g3, g4⟩
          rw [g1, shift_shift]
          congr 5
          push_cast
          ring
  obtain ⟨y, hy0, hmass, hy⟩ := build n le_rfl
  have main' : ∀ k ≤ n, lam * rdist (pos7 (y k)) (r (te + k * h)) +
      rdist (vel7 (y k)) (v (te + k * h)) ≤ Kepler.bound lam h N (stepErrT lam d W T h) k :=
    fun k hk => main k hk y hy0 (fun i hi => (hy i (by omega)).2)
  have mpos : ∀ k ≤ n, 0 < m - Q * (k * h) := by
    intro k hk
    have : Q * (k * h) ≤ Q * (n * h) := mul_le_mul_of_nonneg_left (by linarith [(hin k hk).2]) hQ
    linarith
  let st : ℕ → State XR := fun k => State.fromVec (vfin (shift ![t1, te] (k * h))) (vfin (y k))
  have hok : ∀ k, ∃ e, k ≤ n → p.system (st k) = .ok e := by
    intro k
    by_cases hk : k ≤ n
    · obtain ⟨e, he⟩ := system_vacuum_ok hp (s := st k) (m := y k 6) rfl (by rw [hmass k hk]; exact mpos k hk)
      exact ⟨e, fun _ => he⟩
    · exact ⟨s0, fun h => absurd h hk⟩
  choose e he using hok
  let s : ℕ → State XR := fun k => match k with
    | 0 => s0
    | k + 1 => e (k + 1)
  have hat : ∀ k ≤ n, IsAt (s k) (t1 + k * h) (te + k * h) (pos7 (y k)) (vel7 (y k)) (m - Q * (k * h)) := by
    intro k hk
    cases k with
    | zero =>
      show IsAt s0 _ _ _ _ _
      simp only [Nat.cast_zero, zero_mul, add_zero, mul_zero, sub_zero, hy0]
      exact hs0
    | succ k =>
      have hp' := Phase.system_primary (he (k + 1) hk)
      refine ⟨hp'.1, hp'.2.1, hp'.2.2.1, hp'.2.2.2.1, ?_⟩
      rw [← hmass (k + 1) hk]
      exact hp'.2.2.2.2
  refine ⟨s, rfl, fun k hk => ?_, fun k hk => ⟨_, _, hat k hk, main' k hk⟩⟩
  obtain ⟨e1, e2⟩ := isAt_vec (hat k hk.le) (hmass k hk.le)
  have e1' : vec2 (s k).time (s k).timeSinceEvent = vfin (shift ![t1, te] (k * h)) := by
    rw [e1]
    funext i
    fin_cases i <;> rfl
  unfold OneStep
  cases p.integrator
  unfold Integrator.step
  simp only
  rw [e1', e2, (hy k hk).1]
  exact he (k + 1) hk

/-- the bound of `powered_accuracy` for flights near the Earth -/
theorem low_powered_bound {h N : ℝ} (hh : 0 < h) (k : ℕ) :
    Kepler.bound (1 / 375) h N (stepErrT (1 / 375) 1.08528e6 10088 60 h) k ≤
      N * Real.exp (k * h / 375) + 0.044 * h ^ 4 * (Real.exp (k * h / 375) - 1) := by
  unfold Kepler.bound stepErrT
  rw [show (1 / 375 * (k * h) : ℝ) = k * h / 375 by ring]
  have h1 : 0 ≤ Real.exp (k * h / 375) - 1 := by
    have := Real.add_one_le_exp (k * h / 375)
    have : 0 ≤ (k : ℝ) * h / 375 := by positivity
    linarith
  have e : (1 / 375 * (7 * 1.08528e6 * (h / 60) ^ 5) + 7 * 10088 * (h / 60) ^ 5) *
      ((Real.exp (k * h / 375) - 1) / (1 / 375 * h)) =
      ((7 * 1.08528e6 + 375 * 7 * 10088) / 60 ^ 5) * h ^ 4 * (Real.exp (k * h / 375) - 1) := by
    field_simp
  rw [e]
  have h2 : ((7 * 1.08528e6 + 375 * 7 * 10088) / 60 ^ 5 : ℝ) ≤ 0.044 := by norm_num
  have h3 : ((7 * 1.08528e6 + 375 * 7 * 10088) / 60 ^ 5) * h ^ 4 * (Real.exp (k * h / 375) - 1) ≤
      0.044 * h ^ 4 * (Real.exp (k * h / 375) - 1) := by gcongr
  linarith

theorem exp_turn {x : ℝ} (hx : x ≤ 0.95) : Real.exp (Real.pi / 180 * x * 60) ≤ 2.719 := by
  have h1 : Real.pi / 180 * x * 60 ≤ 1 := by
    have h2 := Real.pi_lt_d2
    have h3 := Real.pi_pos
    nlinarith
  exact (Real.exp_le_exp.2 h1).trans (Real.exp_one_lt_d9.le.trans (by norm_num))

/-- **C96** (with errors at the start).  A simulated flight with running engines outside the atmosphere of the Earth, the
vehicle turning at constant rates of together at most 0.95 degrees per second, with at most 25 m/s² of acceleration by the
engines and never less than two minutes of propellant flow left in mass, at distances of 6500 km or more and speeds of at
most 8 km/s, integrated with steps of `h ≤ 1` seconds.  Let the start be wrong by `er` metres and `ev` metres per second.
Then after `t = k h` seconds the mass is exact, the position is wrong by at most
`(er + 375 ev) e^(t/375) + 16.5 h^4 (e^(t/375) - 1)` metres and the velocity by at most one 375th of this, per second; as
long as this is less than 86 km. -/
theorem C96_start_error {p : Phase XR} {es : List RealEngine} {lat long az : ℝ} {P : TurnProgram}
    (hp : VacuumFlight p es lat long az P) (hearth : IsEarth p.planet) {h t1 te m er ev : ℝ} {n : ℕ} (hh : 0 < h)
    (hh1 : h ≤ 1) (hturn : |P.rollRate| + |P.yawRate| + |P.pitchRate| ≤ 0.95) (hQ : 0 ≤ fullConsumption es)
    (hm : 0 < m - fullConsumption es * (n * h))
    (hmass : 120 * fullConsumption es ≤ m - fullConsumption es * (n * h))
    (hthrust : rnorm (fullThrust es 0) ≤ 25 * (m - fullConsumption es * (n * h))) {r v : ℝ → V3 ℝ}
    (hfly : ∀ t ∈ Set.Icc te (te + n * h), PoweredMotion p.planet (P.frame lat long az) (fullThrust es 0)
      (fun t => m - fullConsumption es * (t - te)) r v t)
    (hrR : ∀ t ∈ Set.Icc te (te + n * h), 6.5e6 ≤ rnorm (r t))
    (hvV : ∀ t ∈ Set.Icc te (te + n * h), rnorm (v t) ≤ 8000)
    {s0 : State XR} {r0 v0 : V3 ℝ} (hs0 : IsAt s0 t1 te r0 v0 m)
    (hr0 : rdist r0 (r te) ≤ er) (hv0 : rdist v0 (v te) ≤ ev)
    (hsmall : (er + 375 * ev) * Real.exp (n * h / 375) + 16.5 * h ^ 4 * (Real.exp (n * h / 375) - 1) ≤
      86000) :
    ∃ s : ℕ → State XR, s 0 = s0 ∧ (∀ k < n, OneStep p (.fin h) (s k) (s (k + 1))) ∧
      ∀ k ≤ n, ∃ r' v', IsAt (s k) (t1 + k * h) (te + k * h) r' v' (m - fullConsumption es * (k * h)) ∧
        rdist r' (r (te + k * h)) ≤ (er + 375 * ev) * Real.exp (k * h / 375) +
          16.5 * h ^ 4 * (Real.exp (k * h / 375) - 1) ∧
        rdist v' (v (te + k * h)) ≤ ((er + 375 * ev) * Real.exp (k * h / 375) +
          16.5 * h ^ 4 * (Real.exp (k * h / 375) - 1)) / 375 := by
  obtain ⟨a, b, μ, j2, j3, j4, ω, hpl⟩ := isEarth_real hearth
  have hearth' := hearth
  rw [hpl] at hearth'
  obtain ⟨gC, H⟩ := earth_field hearth'
  have eM : m - fullConsumption es * (te + n * h - te) = m - fullConsumption es * (n * h) := by ring
  obtain ⟨AC, HA⟩ := push_forcing P lat long az (fullThrust es 0) (m0 := m) (q := fullConsumption es) (te := te)
    (te2 := te + n * h) (T := 60) (B := 136) (by norm_num) hQ (by rw [eM]; exact hm) (by rw [eM]; linarith)
    (by
      rw [eM]
      have h1 := exp_turn hturn
      have h2 : 0 ≤ rnorm (fullThrust es 0) := Real.sqrt_nonneg _
      have h3 := mul_le_mul_of_nonneg_right h1 h2
      linarith)
  obtain ⟨s, e0, e1, e2⟩ := powered_accuracy (W := 10088) (T := 60) (V := 8000) (lam := 1 / 375) (d := 1.08528e6)
    (D := 86000) (N := 1 / 375 * er + ev) (n := n) (te := te) (t1 := t1) hp hpl H (by norm_num) (by norm_num)
    (by norm_num) (by norm_num) HA (by norm_num) (by norm_num) hh (by linarith) (by norm_num) (by norm_num) hQ hm hfly
    (fun t ht => by
      refine le_trans ?_ (hrR t ht)
      have : h ^ 2 ≤ 1 := by nlinarith
      norm_num
      nlinarith) hvV hs0
    (by gcongr)
    (by
      refine (low_powered_bound hh n).trans ?_
      linarith)
  refine ⟨s, e0, e1, fun k hk => ?_⟩
  obtain ⟨r', v', f1, f2⟩ := e2 k hk
  have f3 := f2.trans (low_powered_bound hh k)
  have p1 : 0 ≤ rdist r' (r (te + k * h)) := by unfold rdist rnorm; positivity
  have p2 : 0 ≤ rdist v' (v (te + k * h)) := by unfold rdist rnorm; positivity
  refine ⟨r', v', f1, by linarith, by linarith⟩

theorem exp_3000 {x : ℝ} (hx : x ≤ 3000) : Real.exp (x / 375) ≤ 3000 := by
  have h1 : Real.exp (x / 375) ≤ Real.exp ((8 : ℕ) * 1) := Real.exp_le_exp.2 (by push_cast; linarith)
  rw [Real.exp_nat_mul] at h1
  refine h1.trans ?_
  calc Real.exp 1 ^ 8 ≤ 2.7182818286 ^ 8 :=
        pow_le_pow_left₀ (Real.exp_pos _).le Real.exp_one_lt_d9.le 8
    _ ≤ 3000 := by norm_num

/-- **C96**.  For up to 50 minutes such a simulated flight, started on the true one, is after `t = k h` seconds within
`16.5 h^4 (e^(t/375) - 1)` metres of the true one, the velocity within `0.044 h^4 (e^(t/375) - 1)` metres per second, and
the mass is exact. -/
theorem C96_flight {p : Phase XR} {es : List RealEngine} {lat long az : ℝ} {P : TurnProgram}
    (hp : VacuumFlight p es lat long az P) (hearth : IsEarth p.planet) {h t1 te m : ℝ} {n : ℕ} (hh : 0 < h)
    (hh1 : h ≤ 1) (hn : n * h ≤ 3000) (hturn : |P.rollRate| + |P.yawRate| + |P.pitchRate| ≤ 0.95)
    (hQ : 0 ≤ fullConsumption es) (hm : 0 < m - fullConsumption es * (n * h))
    (hmass : 120 * fullConsumption es ≤ m - fullConsumption es * (n * h))
    (hthrust : rnorm (fullThrust es 0) ≤ 25 * (m - fullConsumption es * (n * h))) {r v : ℝ → V3 ℝ}
    (hfly : ∀ t ∈ Set.Icc te (te + n * h), PoweredMotion p.planet (P.frame lat long az) (fullThrust es 0)
      (fun t => m - fullConsumption es * (t - te)) r v t)
    (hrR : ∀ t ∈ Set.Icc te (te + n * h), 6.5e6 ≤ rnorm (r t))
    (hvV : ∀ t ∈ Set.Icc te (te + n * h), rnorm (v t) ≤ 8000)
    {s0 : State XR} (hs0 : IsAt s0 t1 te (r te) (v te) m) :
    ∃ s : ℕ → State XR, s 0 = s0 ∧ (∀ k < n, OneStep p (.fin h) (s k) (s (k + 1))) ∧
      ∀ k ≤ n, ∃ r' v', IsAt (s k) (t1 + k * h) (te + k * h) r' v' (m - fullConsumption es * (k * h)) ∧
        rdist r' (r (te + k * h)) ≤ 16.5 * h ^ 4 * (Real.exp (k * h / 375) - 1) ∧
        rdist v' (v (te + k * h)) ≤ 0.044 * h ^ 4 * (Real.exp (k * h / 375) - 1) := by
  have hz : ∀ c : V3 ℝ, rdist c c ≤ 0 := by
    intro c
    simp [rdist, rsub, rnorm]
  obtain ⟨s, e0, e1, e2⟩ := C96_start_error hp hearth (te := te) hh hh1 hturn hQ hm hmass hthrust hfly hrR hvV hs0
    (hz _) (hz _)
    (by
      have h1 := exp_3000 hn
      have h2 : h ^ 4 ≤ 1 := pow_le_one₀ hh.le hh1
      have h3 : 0 ≤ h ^ 4 := by positivity
      have h4 : 0 ≤ Real.exp (n * h / 375) := (Real.exp_pos _).le
      norm_num
      nlinarith)
  refine ⟨s, e0, e1, fun k hk => ?_⟩
  obtain ⟨r', v', f1, f2, f3⟩ := e2 k hk
  simp only [mul_zero, add_zero, zero_mul, zero_add] at f2 f3
  exact ⟨r', v', f1, f2, f3.trans (le_of_eq (by ring))⟩

/-- **C96** (whole phases).  Such a phase with the regular step of one second that ends `n` seconds after its beginning,
`1 ≤ n ≤ 3000`, runs to its end and prints `n` rows, those of the states after each second; the state after `k` seconds,
and so the final one, is within `16.5 (e^(k/375) - 1)` metres of the true flight, the velocity within
`0.044 (e^(k/375) - 1)` metres per second, and the mass is the initial one less `k` times the consumption per second. -/
theorem C96_run {p : Phase XR} {es : List RealEngine} {lat long az : ℝ} {P : TurnProgram}
    (hp : VacuumFlight p es lat long az P) (hearth : IsEarth p.planet) {t1 m : ℝ} {n : ℕ} (hn1 : 1 ≤ n) (hn : n ≤ 3000)
    (hc : p.endCriterion = (.timeSinceEvent, .fin n)) (hst : p.stepsize = .fin 1) (he : p.ended = false)
    (hturn : |P.rollRate| + |P.yawRate| + |P.pitchRate| ≤ 0.95)
    (hQ : 0 ≤ fullConsumption es) (hm : 0 < m - fullConsumption es * n)
    (hmass : 120 * fullConsumption es ≤ m - fullConsumption es * n)
    (hthrust : rnorm (fullThrust es 0) ≤ 25 * (m - fullConsumption es * n)) {r v : ℝ → V3 ℝ}
    (hfly : ∀ t ∈ Set.Icc (0 : ℝ) n, PoweredMotion p.planet (P.frame lat long az) (fullThrust es 0)
      (fun t => m - fullConsumption es * t) r v t)
    (hrR : ∀ t ∈ Set.Icc (0 : ℝ) n, 6.5e6 ≤ rnorm (r t))
    (hvV : ∀ t ∈ Set.Icc (0 : ℝ) n, rnorm (v t) ≤ 8000)
    (hs0 : IsAt p.state t1 0 (r 0) (v 0) m) :
    ∃ (s : ℕ → State XR) (fuel : ℕ) (q : Phase XR),
      p.run fuel = some ⟨(List.range n).map fun k => (s (k + 1)).row, .ok q⟩ ∧ q.state = s n ∧
      ∀ k ≤ n, ∃ r' v', IsAt (s k) (t1 + k) k r' v' (m - fullConsumption es * k) ∧
        rdist r' (r k) ≤ 16.5 * (Real.exp (k / 375) - 1) ∧
        rdist v' (v k) ≤ 0.044 * (Real.exp (k / 375) - 1) := by
  have hm0 : 0 < m := by
    have : 0 ≤ fullConsumption es * n := by positivity
    linarith
  obtain ⟨s0, hs⟩ := system_vacuum_ok hp hs0.mass hm0
  obtain ⟨s, e0, e1, e2⟩ := C96_flight hp hearth (h := 1) (n := n) (te := 0) one_pos le_rfl
    (by rw [mul_one]; exact_mod_cast hn) hturn hQ (by simpa using hm) (by simpa using hmass) (by simpa using hthrust)
    (by simpa using hfly) (by simpa using hrR) (by simpa using hvV) (hs0.system hs)
  simp only [mul_one, one_pow, zero_add] at e2
  have htime : ∀ k ≤ n, StateVariable.getValue .timeSinceEvent (s k) = .fin k := by
    intro k hk
    obtain ⟨r', v', h1, _⟩ := e2 k hk
    exact h1.timeSinceEvent
  obtain ⟨n, rfl⟩ : ∃ j, n = j + 1 := ⟨n - 1, by omega⟩
  obtain ⟨fuel, q, h1, h2⟩ := run_of_steps (p := p) (s := s) (n := n) he (by rw [hs, e0])
    (fun k hk => by rw [hst]; exact e1 k hk)
    (fun k hk => by
      rw [hc, met_fin (htime (k + 1) (by omega)), overshot_fin (htime k (by omega)) (htime (k + 1) (by omega))]
      have h3 : (k : ℝ) + 1 ≤ n := by exact_mod_cast hk
      push_cast
      constructor
      · rw [not_lt, abs_of_nonpos (by linarith)]
        norm_num
        linarith
      · rintro (⟨h4, _⟩ | ⟨_, h4⟩) <;> linarith)
    (by
      rw [hc, met_fin (htime (n + 1) le_rfl)]
      norm_num)
  exact ⟨s, fuel, q, h1, h2, e2⟩

/-! ## True flights exist, and an example -/

theorem contDiff_push (P : TurnProgram) (lat long az : ℝ) (F : V3 ℝ) {m q te t : ℝ} (hm : m - q * (t - te) ≠ 0) :
    ContDiffAt ℝ 1 (fun t => (pushT P lat long az F m q te t).x) t ∧
    ContDiffAt ℝ 1 (fun t => (pushT P lat long az F m q te t).y) t ∧
    ContDiffAt ℝ 1 (fun t => (pushT P lat long az F m q te t).z) t := by
  have h1 : ContDiffAt ℝ 1 (fun t => 1 / (m - q * (t - te))) t :=
    contDiffAt_const.div (contDiffAt_const.sub (contDiffAt_const.mul (contDiffAt_id.sub contDiffAt_const))) hm
  refine ⟨h1.mul ?_, h1.mul ?_, h1.mul ?_⟩ <;>
  · simp only [TurnProgram.frame, bodyFrame, rmulVecT, rmulVec, rmul, rdot, turnX, turnY, turnZ, M3.transpose, M3.col1, M3.col2,
      M3.col3, rad]
    fun_prop

/-- From every start there is, for some time, a true flight. -/
theorem powered_exists (P : TurnProgram) (lat long az : ℝ) (F : V3 ℝ) {m q te : ℝ} (hm : m ≠ 0)
    {a b μ j2 j3 j4 ω : ℝ} {r0 v0 : V3 ℝ} (hr0 : r0 ≠ ⟨0, 0, 0⟩) :
    ∃ (r v : ℝ → V3 ℝ), r te = r0 ∧ v te = v0 ∧ ∀ᶠ t in 𝓝 te,
      PoweredMotion (realPlanet a b μ j2 j3 j4 ω) (P.frame lat long az) F (fun t => m - q * (t - te)) r v t := by
  set A := pushT P lat long az F m q te with hA
  let extra : (Fin 7 → ℝ) → Fin 7 → ℝ := fun y => ![0, 0, 0, (A (y 6)).x, (A (y 6)).y, (A (y 6)).z, 1]
  let f : (Fin 7 → ℝ) → Fin 7 → ℝ := fun y => fall a μ j2 j3 j4 y + extra y
  have hc : ContDiffAt ℝ 1 f (seven r0 v0 te) := by
    refine ContDiffAt.add (analyticAt_fall a μ j2 j3 j4 (y := seven r0 v0 te) hr0).contDiffAt ?_
    obtain ⟨h1, h2, h3⟩ := contDiff_push P lat long az F (m := m) (q := q) (te := te) (t := te) (by simpa using hm)
    have h6 : ContDiffAt ℝ 1 (fun y : Fin 7 → ℝ => y 6) (seven r0 v0 te) := (analyticAt_comp7 6 _).contDiffAt
    refine contDiffAt_pi.2 fun i => ?_
    fin_cases i
    · exact contDiffAt_const
    · exact contDiffAt_const
    · exact contDiffAt_const
    · exact ContDiffAt.comp (g := fun t => (A t).x) (seven r0 v0 te) h1 h6
    · exact ContDiffAt.comp (g := fun t => (A t).y) (seven r0 v0 te) h2 h6
    · exact ContDiffAt.comp (g := fun t => (A t).z) (seven r0 v0 te) h3 h6
    · exact contDiffAt_const
  obtain ⟨Y, hY0, ε, hε, hY⟩ := hc.exists_forall_mem_closedBall_exists_eq_forall_mem_Ioo_hasDerivAt₀ te
  have htime : ∀ t ∈ Set.Ioo (te - ε) (te + ε), Y t 6 = t := by
    intro t ht
    have hd : ∀ s ∈ Set.Ioo (te - ε) (te + ε), HasDerivAt (fun s => Y s 6 - s) 0 s := by
      intro s hs
      have h1 : HasDerivAt (fun s => Y s 6) (0 + 1) s := (hasDerivAt_pi.1 (hY s hs)) 6
      exact (h1.sub (hasDerivAt_id s)).congr_deriv (by norm_num)
    have hconst := (convex_Ioo (te - ε) (te + ε)).is_const_of_fderivWithin_eq_zero (𝕜 := ℝ) (f := fun s => Y s 6 - s)
      (fun s hs => (hd s hs).differentiableAt.differentiableWithinAt)
      (fun s hs => by
        have h1 := (hd s hs).hasFDerivAt.hasFDerivWithinAt (s := Set.Ioo (te - ε) (te + ε))
        rw [h1.fderivWithin (isOpen_Ioo.uniqueDiffOn s hs)]
        ext
        simp) ht (⟨by linarith, by linarith⟩ : te ∈ Set.Ioo (te - ε) (te + ε))
    have h2 : Y te 6 = te := by rw [hY0]; rfl
    simp only [h2] at hconst
    linarith
  have hcont : ContinuousAt Y te := (hY te ⟨by linarith, by linarith⟩).continuousAt
  refine ⟨fun t => pos7 (Y t), fun t => vel7 (Y t), by simp only [hY0]; rfl, by simp only [hY0]; rfl, ?_⟩
  have hne : ∀ᶠ t in 𝓝 te, pos7 (Y t) ≠ ⟨0, 0, 0⟩ := by
    have := eventually_pos7 (y := Y te) (by rw [hY0]; exact hr0)
    exact hcont.eventually this
  filter_upwards [hne, Ioo_mem_nhds (show te - ε < te by linarith) (show te < te + ε by linarith)] with t h1 h2
  have hd := hasDerivAt_pi.1 (hY t h2)
  refine ⟨_, gravity_grav _ _ _ _ _ _ _ h1, ⟨?_, ?_, ?_⟩, ?_, ?_, ?_⟩
  · exact (hd 0).congr_deriv (add_zero _)
  · exact (hd 1).congr_deriv (add_zero _)
  · exact (hd 2).congr_deriv (add_zero _)
  · refine (hd 3).congr_deriv ?_
    show _ + (A (Y t 6)).x = _
    rw [htime t h2, add_comm]
    rfl
  · refine (hd 4).congr_deriv ?_
    show _ + (A (Y t 6)).y = _
    rw [htime t h2, add_comm]
    rfl
  · refine (hd 5).congr_deriv ?_
    show _ + (A (Y t 6)).z = _
    rw [htime t h2, add_comm]
    rfl

/-- **C96** (true flights).  From every start beyond 6500 km, slower than 8 km/s, the conditions of `C96_flight` are met
for all small enough step sizes: there is a true flight, and it keeps the distance and the speed. -/
theorem C96_true_flight {p : Phase XR} {es : List RealEngine} {lat long az : ℝ} {P : TurnProgram} (hearth : IsEarth p.planet)
    {te m : ℝ} (hm : 0 < m) {r0 v0 : V3 ℝ} (hr0 : 6.5e6 < rnorm r0) (hv0 : rnorm v0 < 8000) :
    ∃ (r v : ℝ → V3 ℝ) (δ : ℝ), 0 < δ ∧ r te = r0 ∧ v te = v0 ∧ ∀ t ∈ Set.Icc te (te + δ),
      PoweredMotion p.planet (P.frame lat long az) (fullThrust es 0) (fun t => m - fullConsumption es * (t - te)) r v t ∧
      6.5e6 ≤ rnorm (r t) ∧ rnorm (v t) ≤ 8000 := by
  obtain ⟨a, b, μ, j2, j3, j4, ω, hpl⟩ := isEarth_real hearth
  have hne : r0 ≠ ⟨0, 0, 0⟩ := by
    rintro rfl
    norm_num [rnorm] at hr0
  obtain ⟨r, v, h1, h2, h3⟩ := powered_exists P lat long az (fullThrust es 0) (m := m) (q := fullConsumption es) (te := te)
    hm.ne' (a := a) (b := b) (μ := μ) (j2 := j2) (j3 := j3) (j4 := j4) (ω := ω) (v0 := v0) hne
  have hnorm : ∀ {c : ℝ → V3 ℝ} {w : V3 ℝ}, HasVelocity c w te → ContinuousAt (fun t => rnorm (c t)) te := by
    intro c w hc
    have := (hasDerivAt_e3 hc).continuousAt.norm
    simpa only [norm_e3] using this
  obtain ⟨g, _, k1, k2⟩ := h3.self_of_nhds
  have e1 : ∀ᶠ t in 𝓝 te, 6.5e6 < rnorm (r t) := (hnorm k1).eventually_const_lt (by simp only [h1]; exact hr0)
  have e2 : ∀ᶠ t in 𝓝 te, rnorm (v t) < 8000 := (hnorm k2).eventually_lt_const (by simp only [h2]; exact hv0)
  obtain ⟨δ, hδ, hall⟩ := Metric.eventually_nhds_iff.1 (h3.and (e1.and e2))
  refine ⟨r, v, δ / 2, by positivity, h1, h2, fun t ht => ?_⟩
  obtain ⟨q1, q2, q3⟩ := hall (y := t) (by
    rw [Real.dist_eq, abs_of_nonneg (by linarith [ht.1])]
    linarith [ht.2])
  rw [hpl]
  exact ⟨q1, q2.le, q3.le⟩

/-- an upper stage: 100 kN, specific impulse 450 s -/
def upperEngine : RealEngine := ⟨100000, 450, 1, 0, 0⟩

/-- The default phase with that engine, ten tons, pitching up by half a degree per second. -/
def exampleUpper : Phase XR :=
  { Phase.default with
    vehicle := { Vehicle.default with engines := [upperEngine.toEngine] }
    steering := { Steering.default with pitch := ⟨.timeSinceEvent, .fin 20, .fin 0.5, .fin 0, .fin 0⟩ }
    state := { State.default with
      position := V3.fin ⟨6.6e6, 0, 0⟩
      velocity := V3.fin ⟨0, 7000, 0⟩
      mass := .fin 10000 } }

theorem exampleUpper_flight : VacuumFlight exampleUpper [upperEngine] 0 0 0 ⟨0, 0, 0, 0, 20, 0.5⟩ := by
  have hs : TurnsUniformly (Axis.default : Axis XR) 0 0 :=
    ⟨.inr ⟨rfl, rfl⟩, XR.fin_zero, XR.fin_zero, XR.fin_zero, XR.fin_zero⟩
  exact ⟨rfl, by simp [upperEngine], rfl, rfl, by simp only [exampleUpper, Phase.default, XR.fin_zero],
    ⟨default_wellFormed, default_wellFormed, default_wellFormed⟩, hs, hs, .inl rfl, rfl, rfl, rfl, rfl⟩

/-- A step of that flight is compared with the true flight. -/
example : ∃ (h : ℝ) (r v : ℝ → V3 ℝ) (s : State XR) (r' v' : V3 ℝ), 0 < h ∧ r 0 = ⟨6.6e6, 0, 0⟩ ∧ v 0 = ⟨0, 7000, 0⟩ ∧
    OneStep exampleUpper (.fin h) exampleUpper.state s ∧
    IsAt s h h r' v' (10000 - 100000 / 450 / 9.80665 * h) ∧
    rdist r' (r h) ≤ 16.5 * h ^ 4 * (Real.exp (h / 375) - 1) := by
  have hQ : fullConsumption [upperEngine] = 100000 / 450 / 9.80665 := by
    simp [fullConsumption, RealEngine.consumption, upperEngine]
  have hF : rnorm (fullThrust [upperEngine] 0) = 100000 := by
    simp [fullThrust, RealEngine.thrustAt, RealEngine.direction, upperEngine, rsum, rscale, rnorm]
  have n1 : (6.5e6 : ℝ) < rnorm ⟨6.6e6, 0, 0⟩ := by
    simp only [rnorm]
    rw [show ((6.6e6 : ℝ) ^ 2 + 0 ^ 2 + 0 ^ 2) = 6.6e6 ^ 2 by ring, Real.sqrt_sq (by norm_num)]
    norm_num
  have n2 : rnorm ⟨0, 7000, 0⟩ < (8000 : ℝ) := by
    simp only [rnorm]
    rw [show ((0 : ℝ) ^ 2 + 7000 ^ 2 + 0 ^ 2) = 7000 ^ 2 by ring, Real.sqrt_sq (by norm_num)]
    norm_num
  obtain ⟨r, v, δ, hδ, hr, hv, hall⟩ := C96_true_flight (p := exampleUpper) (es := [upperEngine]) (lat := 0) (long := 0) (az := 0)
    (P := ⟨0, 0, 0, 0, 20, 0.5⟩) (.inl rfl) (te := 0) (m := 10000) (by norm_num) n1 n2
  set h := min δ 1 with hh
  have hpos : 0 < h := lt_min hδ one_pos
  have hle : h ≤ 1 := min_le_right _ _
  have hsub : ∀ t ∈ Set.Icc (0 : ℝ) (0 + (1 : ℕ) * h), t ∈ Set.Icc 0 (0 + δ) := by
    intro t ht
    refine ⟨ht.1, ht.2.trans ?_⟩
    have := min_le_left δ 1
    push_cast
    linarith
  obtain ⟨s, e0, e1, e2⟩ := C96_flight exampleUpper_flight (.inl rfl) (t1 := 0) (te := 0) (n := 1) (m := 10000) hpos hle
    (by push_cast; linarith) (by norm_num [abs_of_pos]) (by rw [hQ]; norm_num)
    (by rw [hQ]; push_cast; norm_num; linarith) (by rw [hQ]; push_cast; norm_num; linarith)
    (by rw [hQ, hF]; push_cast; norm_num; linarith)
    (fun t ht => (hall t (hsub t ht)).1) (fun t ht => (hall t (hsub t ht)).2.1) (fun t ht => (hall t (hsub t ht)).2.2)
    (s0 := exampleUpper.state) ⟨XR.fin_zero, XR.fin_zero, by rw [hr]; rfl, by rw [hv]; rfl, rfl⟩
  obtain ⟨r', v', g1, g2, _⟩ := e2 1 le_rfl
  have e1' := e1 0 (by norm_num)
  rw [e0] at e1'
  rw [hQ] at g1
  simp only [Nat.cast_one, one_mul, zero_add] at g1 g2
  exact ⟨h, r, v, s 1, r', v', hpos, hr, hv, e1', g1, g2⟩

end
end Post
