import Verif.Spec.DoublePowered
import Verif.Props.DoubleAttitude
import Verif.Props.DoubleForces
import Verif.Props.DoubleBurn
import Verif.Props.Powered
/-! # Lemmas: powered flight in vacuum in double precision -/

set_option exponentiation.threshold 2000

namespace Post
open Spec Flt F64
variable {L : Libm}

noncomputable section

theorem rmulVecT_sub (m : M3 ℝ) (u w : V3 ℝ) : rmulVecT m (rsub u w) = rsub (rmulVecT m u) (rmulVecT m w) := by
  simp only [rmulVecT, rmulVec, rsub, rdot, V3.mk.injEq]
  refine ⟨?_, ?_, ?_⟩ <;> ring

theorem rmulVecT_scale (m : M3 ℝ) (k : ℝ) (w : V3 ℝ) : rmulVecT m (rscale k w) = rscale k (rmulVecT m w) := by
  simp only [rmulVecT, rmulVec, rscale, rdot, V3.mk.injEq]
  refine ⟨?_, ?_, ?_⟩ <;> ring

theorem turn_dist {R : M3 ℝ} (hR : R.IsRotation) (u w : V3 ℝ) : rdist (rmulVecT R u) (rmulVecT R w) = rdist u w := by
  unfold rdist
  rw [← rmulVecT_sub]
  exact hR.transpose.norm _

theorem turn_norm {R : M3 ℝ} (hR : R.IsRotation) (u : V3 ℝ) : rnorm (rmulVecT R u) = rnorm u := hR.transpose.norm _

theorem chord (a b : ℝ) : (Real.cos a - Real.cos b) ^ 2 + (Real.sin a - Real.sin b) ^ 2 ≤ (a - b) ^ 2 := by
  have h1 := Real.one_sub_sq_div_two_le_cos (x := a - b)
  rw [Real.cos_sub] at h1
  nlinarith [Real.sin_sq_add_cos_sq a, Real.sin_sq_add_cos_sq b]

theorem rnorm_le_mul {u w : V3 ℝ} {k : ℝ} (hk : 0 ≤ k) (h : u.x ^ 2 + u.y ^ 2 + u.z ^ 2 ≤ k ^ 2 * (w.x ^ 2 + w.y ^ 2 + w.z ^ 2)) :
    rnorm u ≤ k * rnorm w := by
  unfold rnorm
  rw [← Real.sqrt_sq hk, ← Real.sqrt_mul (sq_nonneg k)]
  exact Real.sqrt_le_sqrt h

theorem chord_pair (a b y z : ℝ) : ((Real.cos a - Real.cos b) * y - (Real.sin a - Real.sin b) * z) ^ 2 +
    ((Real.sin a - Real.sin b) * y + (Real.cos a - Real.cos b) * z) ^ 2 ≤ (a - b) ^ 2 * (y ^ 2 + z ^ 2) := by
  have h1 := mul_le_mul_of_nonneg_right (chord a b) (show 0 ≤ y ^ 2 + z ^ 2 by positivity)
  nlinarith

theorem turnX_lip (a b : ℝ) (w : V3 ℝ) : rdist (rmulVecT (turnX a) w) (rmulVecT (turnX b) w) ≤ |a - b| * rnorm w := by
  refine rnorm_le_mul (abs_nonneg _) ?_
  rw [sq_abs]
  have := chord_pair a b w.y w.z
  have h2 : 0 ≤ (a - b) ^ 2 * w.x ^ 2 := by positivity
  simp only [rmulVecT, rmulVec, rsub, rdot, turnX, M3.transpose, M3.col1, M3.col2, M3.col3]
  nlinarith

theorem turnY_lip (a b : ℝ) (w : V3 ℝ) : rdist (rmulVecT (turnY a) w) (rmulVecT (turnY b) w) ≤ |a - b| * rnorm w := by
  refine rnorm_le_mul (abs_nonneg _) ?_
  rw [sq_abs]
  have := chord_pair a b w.z w.x
  have h2 : 0 ≤ (a - b) ^ 2 * w.y ^ 2 := by positivity
  simp only [rmulVecT, rmulVec, rsub, rdot, turnY, M3.transpose, M3.col1, M3.col2, M3.col3]
  nlinarith

theorem turnZ_lip (a b : ℝ) (w : V3 ℝ) : rdist (rmulVecT (turnZ a) w) (rmulVecT (turnZ b) w) ≤ |a - b| * rnorm w := by
  refine rnorm_le_mul (abs_nonneg _) ?_
  rw [sq_abs]
  have := chord_pair a b w.x w.y
  have h2 : 0 ≤ (a - b) ^ 2 * w.z ^ 2 := by positivity
  simp only [rmulVecT, rmulVec, rsub, rdot, turnZ, M3.transpose, M3.col1, M3.col2, M3.col3]
  nlinarith

/-- the frame of the vehicle depends Lipschitz continuously on the angles -/
theorem bodyFrame_lip (lat long az ρ ψ θ ρ' ψ' θ' : ℝ) (w : V3 ℝ) :
    rdist (rmulVecT (bodyFrame lat long az ρ ψ θ) w) (rmulVecT (bodyFrame lat long az ρ' ψ' θ') w) ≤
      (|ρ - ρ'| + |ψ - ψ'| + |θ - θ'|) * rnorm w := by
  have hl : (launchAxes lat long az).IsRotation := by
    rw [launchAxes_turns]
    exact (turnX_isRotation _).mul ((turnY_isRotation _).mul (turnZ_isRotation _))
  unfold bodyFrame
  simp only [rmulVecT_rmul]
  rw [turn_dist hl]
  have h1 := turnX_lip ρ ρ' (rmulVecT (turnZ ψ) (rmulVecT (turnY θ) w))
  have h2 := turnZ_lip ψ ψ' (rmulVecT (turnY θ) w)
  have h3 := turnY_lip θ θ' w
  rw [turn_norm (turnZ_isRotation _), turn_norm (turnY_isRotation _)] at h1
  rw [turn_norm (turnY_isRotation _)] at h2
  have t1 := rdist_triangle (rmulVecT (turnX ρ) (rmulVecT (turnZ ψ) (rmulVecT (turnY θ) w)))
    (rmulVecT (turnX ρ') (rmulVecT (turnZ ψ) (rmulVecT (turnY θ) w)))
    (rmulVecT (turnX ρ') (rmulVecT (turnZ ψ') (rmulVecT (turnY θ') w)))
  rw [turn_dist (turnX_isRotation ρ')] at t1
  have t2 := rdist_triangle (rmulVecT (turnZ ψ) (rmulVecT (turnY θ) w))
    (rmulVecT (turnZ ψ') (rmulVecT (turnY θ) w)) (rmulVecT (turnZ ψ') (rmulVecT (turnY θ') w))
  rw [turn_dist (turnZ_isRotation ψ')] at t2
  linarith

/-- every evaluation of the equations of motion is the first state visited by some phase -/
theorem visited_of_system {p : Phase (F64 L)} {st d : State (F64 L)} (h : p.system st = .ok d) :
    Visited { p with state := st } d := ⟨d, [], _, h, .nil _, .inl rfl⟩

theorem abs_rad_sub {x y A : ℝ} (h : |x - y| ≤ A) : |rad x - rad y| ≤ 0.01746 * A := by
  have e : rad x - rad y = rad (x - y) := by unfold rad; ring
  rw [e]
  exact abs_rad_le h

/-- an angle that grows uniformly -/
theorem angle_within (hL : GoodLibrary L) {p : Phase (F64 L)} {st d : State (F64 L)} (h : p.system st = .ok d)
    (a : AxisName) {δ c0 c1 t τ' τ : ℝ} (hx : TurnsWithin δ (a.axis p.steering) c0 c1) (hδ : δ ≤ 1e-6) (hc1 : |c1| ≤ 0.95)
    (ht : Reads st.time t) (ht' : |t| ≤ 1e9) (hτ : Reads st.timeSinceEvent τ') (hττ : |τ' - τ| ≤ 1e-11) (h0 : 0 ≤ τ)
    (h1 : τ ≤ 3001) : ∃ φ, Reads (a.angle d.eulerAngles) φ ∧ |φ - rad (c0 + c1 * τ)| ≤ 1e-12 + Real.pi / 180 * δ ∧
      |φ| ≤ 1000 := by
  obtain ⟨hv, ⟨⟨κ, k0, kδ⟩, k0'⟩, k1, k2, k3⟩ := hx
  have hprim := Phase.system_primary h
  have hτb : |τ'| ≤ 3002 := by
    rw [abs_le] at hττ ⊢
    norm_num at hττ
    constructor <;> linarith
  obtain ⟨y, hy, hyb, hcy, hcy'⟩ : ∃ y, Reads ((a.axis p.steering).var.getValue d) y ∧ |y| ≤ 1e9 ∧
      |c1 * y| ≤ 2852 ∧ |c1 * y - c1 * τ| ≤ 1e-11 := by
    rcases hv with hv | ⟨hv, rfl⟩
    · refine ⟨τ', ?_, hτb.trans (by norm_num), ?_, ?_⟩
      · rw [hv]
        show Reads d.timeSinceEvent τ'
        rw [hprim.2.1]
        exact hτ
      · exact abs_mul_le hc1 hτb (by norm_num)
      · rw [← mul_sub]
        exact abs_mul_le hc1 hττ (by norm_num)
    · refine ⟨t, ?_, ht', by simp, by norm_num⟩
      rw [hv]
      show Reads d.time t
      rw [hprim.1]
      exact ht
  have hearly : (a.axis p.steering).var ∈ beforeSteering := by
    rcases hv with hv | ⟨hv, _⟩ <;> rw [hv] <;> decide
  have hκ : |κ| ≤ 10001 := by
    rw [abs_le] at kδ k0' ⊢
    norm_num at hδ
    constructor <;> linarith
  obtain ⟨φ, g1, g2⟩ := C94_angle hL (visited_of_system h) a hearly hy k0 k1 k2 k3 hyb (hκ.trans (by norm_num))
    (hc1.trans (by norm_num)) (by norm_num) (by norm_num) (T := 12853)
    (by
      rw [zero_mul, zero_mul, abs_zero, add_zero, add_zero]
      linarith) (by norm_num)
  have e : cubic κ c1 0 0 y = κ + c1 * y := by unfold cubic; ring
  rw [e] at g2
  have g3 := abs_rad_sub (x := κ + c1 * y) (y := κ + c1 * τ) (A := 1e-11) (by
    rw [add_sub_add_left_eq_sub]
    exact hcy')
  have g7 : |rad (κ + c1 * τ) - rad (c0 + c1 * τ)| ≤ Real.pi / 180 * δ := by
    have e : rad (κ + c1 * τ) - rad (c0 + c1 * τ) = Real.pi / 180 * (κ - c0) := by unfold rad; ring
    rw [e, abs_mul, abs_of_pos (by positivity)]
    exact mul_le_mul_of_nonneg_left kδ (by positivity)
  have g4 := abs_sub_le φ (rad (κ + c1 * y)) (rad (κ + c1 * τ))
  have g8 := abs_sub_le φ (rad (κ + c1 * τ)) (rad (c0 + c1 * τ))
  have g5 : |rad (κ + c1 * y)| ≤ 0.01746 * 12853 := abs_rad_le ((abs_add_le _ _).trans (by linarith))
  have g6 : |φ| ≤ |φ - rad (κ + c1 * y)| + |rad (κ + c1 * y)| := by
    have := abs_add_le (φ - rad (κ + c1 * y)) (rad (κ + c1 * y))
    rwa [sub_add_cancel] at this
  refine ⟨φ, g1, ?_, ?_⟩
  · generalize |φ - rad (κ + c1 * y)| = A at *
    generalize |rad (κ + c1 * y) - rad (κ + c1 * τ)| = B at *
    norm_num at g2 g3 ⊢
    linarith
  · generalize |φ - rad (κ + c1 * y)| = A at *
    norm_num at g2 g5 ⊢
    linarith

/-- an angle that grows uniformly, up to the tolerance -/
theorem uniform_angle_double (hL : GoodLibrary L) {p : Phase (F64 L)} {st d : State (F64 L)} (h : p.system st = .ok d)
    (a : AxisName) {c0 c1 t τ' τ : ℝ} (hx : TurnsUniformlyDouble (a.axis p.steering) c0 c1) (hc1 : |c1| ≤ 0.95)
    (ht : Reads st.time t) (ht' : |t| ≤ 1e9) (hτ : Reads st.timeSinceEvent τ') (hττ : |τ' - τ| ≤ 1e-11) (h0 : 0 ≤ τ)
    (h1 : τ ≤ 3001) : ∃ φ, Reads (a.angle d.eulerAngles) φ ∧ |φ - rad (c0 + c1 * τ)| ≤ 3.6e-11 ∧ |φ| ≤ 1000 := by
  obtain ⟨φ, h2, h3, h4⟩ := angle_within hL h a hx (by norm_num) hc1 ht ht' hτ hττ h0 h1
  refine ⟨φ, h2, h3.trans ?_, h4⟩
  have := Real.pi_lt_d2
  norm_num at this ⊢
  linarith

theorem rdist_scale (k l : ℝ) (w : V3 ℝ) : rdist (rscale k w) (rscale l w) = |k - l| * rnorm w := by
  rw [← rnorm_rscale]
  unfold rdist
  congr 1
  simp only [rsub, rscale, V3.mk.injEq]
  refine ⟨?_, ?_, ?_⟩ <;> ring

theorem rdist_scale' (k : ℝ) (u w : V3 ℝ) : rdist (rscale k u) (rscale k w) = |k| * rdist u w := by
  unfold rdist
  rw [← rnorm_rscale]
  congr 1
  simp only [rsub, rscale, V3.mk.injEq]
  refine ⟨?_, ?_, ?_⟩ <;> ring

theorem rdist_add (a b c d : V3 ℝ) : rdist (radd a b) (radd c d) ≤ rdist a c + rdist b d := by
  unfold rdist
  refine le_trans (le_of_eq ?_) (rnorm_add_le _ _)
  congr 1
  simp only [rsub, radd, V3.mk.injEq]
  refine ⟨?_, ?_, ?_⟩ <;> ring

/-- The equations of motion of a powered flight in vacuum; `M` is the mass the vehicle should have. -/
theorem powered_system (hL : GoodLibrary L) (hF : FrameLibrary L) (hT : TrigLibrary L) {p : Phase (F64 L)}
    {es : List RealEngine} {lat long az : ℝ} {P : TurnProgram} (hp : VacuumFlightDouble p es lat long az P)
    (hturn : |P.rollRate| + |P.yawRate| + |P.pitchRate| ≤ 0.95)
    {a μ j2 j3 j4 : ℝ} (hn : NearEarth p.planet a μ j2 j3 j4) {st : State (F64 L)} {t τ' τ m M : ℝ} {r : V3 ℝ}
    (ht : Reads st.time t) (ht' : |t| ≤ 1e9) (hτ : Reads st.timeSinceEvent τ') (hττ : |τ' - τ| ≤ 1e-11) (h0 : 0 ≤ τ)
    (h1 : τ ≤ 3001) (hr : ReadsV st.position r) (hr1 : 6.4e6 ≤ rnorm r) (hr2 : rnorm r ≤ 2e7)
    (hg : rnorm (grav a μ j2 j3 j4 r) ≤ 33) (hm : Reads st.mass m) (hmM : |m - M| ≤ 1e-9 * M) (hM : 1e-4 ≤ M) (hM1 : M ≤ 1e10)
    (hthrust : rnorm (fullThrust es 0) ≤ 25 * M) (hgross : grossThrust es 0 ≤ 1000 * M) :
    ∃ d, p.system st = .ok d ∧ d.velocity = st.velocity ∧
      NearV d.acceleration (radd (rscale (1 / M) (rmulVecT (P.frame lat long az τ) (fullThrust es 0)))
        (grav a μ j2 j3 j4 r)) 3e-8 ∧
      Near d.massflow (-fullConsumption es) (3e-13 * fullConsumption es + 1e-33) := by
  have hM0 : 0 < M := lt_of_lt_of_le (by norm_num) hM
  have hm0 : 9e-5 ≤ m := by
    rw [abs_le] at hmM
    norm_num at hmM hM ⊢
    linarith
  have hmpos : 0 < m := lt_of_lt_of_le (by norm_num) hm0
  obtain ⟨d, hd, hthr⟩ := vacuum_unlimited hT hp.burn hp.unlimited st hm hmpos
  have hprim := Phase.system_primary hd
  have hc := system_consistent hd
  have hvis := visited_of_system hd
  have hk : Reads d.throttle 1 := ⟨1, by rw [hthr]; exact is_one, by norm_num⟩
  -- angles
  have n1 := abs_nonneg P.rollRate
  have n2 := abs_nonneg P.yawRate
  have n3 := abs_nonneg P.pitchRate
  obtain ⟨ρ, a1, a2, a3⟩ := uniform_angle_double hL hd .roll hp.roll (by linarith) ht ht' hτ hττ h0 h1
  obtain ⟨ψ, b1, b2, b3⟩ := uniform_angle_double hL hd .yaw hp.yaw (by linarith) ht ht' hτ hττ h0 h1
  obtain ⟨θ, c1, c2, c3⟩ := uniform_angle_double hL hd .pitch hp.pitch (by linarith) ht ht' hτ hττ h0 h1
  have hatt : AttitudeAngles d ρ ψ θ := ⟨⟨a1, b1, c1⟩, a3, b3, c3⟩
  -- thrust
  have hpr : Reads d.pressure 0 := by
    obtain ⟨aero, _, _, rfl⟩ := Phase.system_ok hd
    show Reads (p.atmosphere.pressure _) 0
    unfold Atmosphere.pressure
    rw [hp.burn.vacuum]
    exact ⟨0, is_zero, by norm_num⟩
  obtain ⟨F, f1, f2⟩ := C95_thrust hF hvis hp.mounting hp.burn.few hk (by norm_num) hpr le_rfl (by norm_num)
  have hs1 : rscale 1 (fullThrust es 0) = fullThrust es 0 := by simp [rscale]
  rw [hs1] at f2
  have haero : ReadsV d.aeroForceBody ⟨0, 0, 0⟩ := by
    obtain ⟨aero, ha, _, rfl⟩ := Phase.system_ok hd
    obtain ⟨zx, zy, zz⟩ := aeroForce_zero hp.burn.vacuum ha
    exact ⟨⟨0, zx.is, by norm_num⟩, ⟨0, zy.is, by norm_num⟩, ⟨0, zz.is, by norm_num⟩⟩
  have hF0 : 0 ≤ rnorm (fullThrust es 0) := Real.sqrt_nonneg _
  have z0 : radd ⟨0, 0, 0⟩ F = F := by simp [radd]
  have hFn : rnorm F ≤ 25.01 * M := by
    have := rnorm_triangle F (fullThrust es 0)
    norm_num at f2 hM ⊢
    linarith
  obtain ⟨b, g1, g2⟩ := C95_newton hvis haero f1 (by rw [hprim.2.2.2.2]; exact hm) (by norm_num at hm0 ⊢; linarith)
    (by rw [z0]; norm_num at hFn hM1 ⊢; linarith)
  rw [z0] at g2
  -- masses
  have hMm : M ≤ 1.0001 * m := by
    rw [abs_le] at hmM
    norm_num at hmM ⊢
    linarith
  have q1 : rnorm F / m ≤ 25.1 := by
    rw [div_le_iff₀ hmpos]
    norm_num at hFn hMm ⊢
    linarith
  have q2 : rdist (rscale (1 / m) F) (rscale (1 / m) (fullThrust es 0)) ≤ 6e-11 := by
    rw [rdist_scale', abs_of_pos (by positivity), one_div, inv_mul_le_iff₀ hmpos]
    refine f2.trans ?_
    norm_num at hgross hMm hm0 ⊢
    linarith
  have q3 : rdist (rscale (1 / m) (fullThrust es 0)) (rscale (1 / M) (fullThrust es 0)) ≤ 2.51e-8 := by
    rw [rdist_scale]
    have e : 1 / m - 1 / M = (M - m) / (m * M) := by field_simp
    rw [e, abs_div, abs_of_pos (mul_pos hmpos hM0), abs_sub_comm]
    calc |m - M| / (m * M) * rnorm (fullThrust es 0) ≤ 1e-9 * M / (m * M) * (25 * M) := by gcongr
      _ = 25e-9 * (M / m) := by field_simp; norm_num
      _ ≤ 25e-9 * 1.0001 := by
        gcongr
        rw [div_le_iff₀ hmpos]
        exact hMm
      _ ≤ 2.51e-8 := by norm_num
  have q4 := rdist_triangle b (rscale (1 / m) F) (rscale (1 / M) (fullThrust es 0))
  have q5 := rdist_triangle (rscale (1 / m) F) (rscale (1 / m) (fullThrust es 0)) (rscale (1 / M) (fullThrust es 0))
  have q6 : rdist b (rscale (1 / M) (fullThrust es 0)) ≤ 2.52e-8 := by
    have : 7e-16 * (rnorm F / m) + 1e-32 ≤ (1e-13 : ℝ) := by norm_num at q1 ⊢; linarith
    have g3 : rdist b (rscale (1 / m) F) ≤ 1e-13 := g2.trans this
    clear g2 this
    generalize rdist b (rscale (1 / m) F) = A1 at *
    generalize rdist (rscale (1 / m) F) (rscale (1 / m) (fullThrust es 0)) = A2 at *
    generalize rdist (rscale (1 / m) (fullThrust es 0)) (rscale (1 / M) (fullThrust es 0)) = A3 at *
    generalize rdist (rscale (1 / m) F) (rscale (1 / M) (fullThrust es 0)) = A4 at *
    generalize rdist b (rscale (1 / M) (fullThrust es 0)) = A5 at *
    norm_num at q2 q3 g3 ⊢
    linarith
  have q7 : rnorm (rscale (1 / M) (fullThrust es 0)) ≤ 25 := by
    rw [rnorm_rscale, abs_of_pos (by positivity), one_div, inv_mul_le_iff₀ hM0]
    linarith
  have q8 : rnorm b ≤ 25.1 := by
    have := rnorm_triangle b (rscale (1 / M) (fullThrust es 0))
    norm_num at q6 ⊢
    linarith
  -- gravity
  have hgn : NearV d.gravityAcceleration (grav a μ j2 j3 j4 r) 2e-11 := by
    rw [hc.gravityAcceleration, hprim.2.2.1]
    exact gravity_near hL hn (readsV_near hr) hr1 hr2
  obtain ⟨gv, v1, v2⟩ := hgn.readsV (E := 4e-11) (by norm_num)
  have v3 : rnorm gv ≤ 100 := by
    have := rnorm_triangle gv (grav a μ j2 j3 j4 r)
    norm_num at v2 ⊢
    linarith
  obtain ⟨u, u1, u2⟩ := C94_acceleration hF hvis (p := { p with state := st }) hp.launch hatt g1 v1
    (by norm_num at q8 ⊢; linarith) v3
  have w1 := bodyFrame_lip lat long az ρ ψ θ (rad (P.roll + P.rollRate * τ)) (rad (P.yaw + P.yawRate * τ))
    (rad (P.pitch + P.pitchRate * τ)) b
  have hRot := bodyFrame_isRotation lat long az (rad (P.roll + P.rollRate * τ)) (rad (P.yaw + P.yawRate * τ))
    (rad (P.pitch + P.pitchRate * τ))
  have w2 := turn_dist hRot b (rscale (1 / M) (fullThrust es 0))
  have w3 : rdist (rmulVecT (bodyFrame lat long az ρ ψ θ) b) (rscale (1 / M) (rmulVecT (P.frame lat long az τ)
      (fullThrust es 0))) ≤ 2.8e-8 := by
    rw [← rmulVecT_scale]
    have w4 := rdist_triangle (rmulVecT (bodyFrame lat long az ρ ψ θ) b) (rmulVecT (P.frame lat long az τ) b)
      (rmulVecT (P.frame lat long az τ) (rscale (1 / M) (fullThrust es 0)))
    have w5 : (|ρ - rad (P.roll + P.rollRate * τ)| + |ψ - rad (P.yaw + P.yawRate * τ)| +
        |θ - rad (P.pitch + P.pitchRate * τ)|) * rnorm b ≤ 1.08e-10 * 25.1 := by
      refine mul_le_mul ?_ q8 (Real.sqrt_nonneg _) (by norm_num)
      exact (add_le_add (add_le_add a2 b2) c2).trans (by norm_num)
    have w9 := w1.trans w5
    rw [← w2] at q6
    unfold TurnProgram.frame at w4 ⊢
    exact w4.trans ((add_le_add w9 q6).trans (by norm_num))
  have w6 := rdist_add (rmulVecT (bodyFrame lat long az ρ ψ θ) b) gv
    (rscale (1 / M) (rmulVecT (P.frame lat long az τ) (fullThrust es 0))) (grav a μ j2 j3 j4 r)
  have w7 := rdist_triangle u (radd (rmulVecT (bodyFrame lat long az ρ ψ θ) b) gv)
    (radd (rscale (1 / M) (rmulVecT (P.frame lat long az τ) (fullThrust es 0))) (grav a μ j2 j3 j4 r))
  have w8 : rdist u (radd (rscale (1 / M) (rmulVecT (P.frame lat long az τ) (fullThrust es 0)))
      (grav a μ j2 j3 j4 r)) ≤ 3e-8 := by
    have w10 := w6.trans (add_le_add w3 v2)
    refine w7.trans ((add_le_add u2 w10).trans ?_)
    norm_num at q8 ⊢
    linarith
  obtain ⟨l1, l2, l3⟩ := comp_le_rnorm (rsub u (radd (rscale (1 / M) (rmulVecT (P.frame lat long az τ) (fullThrust es 0)))
      (grav a μ j2 j3 j4 r)))
  obtain ⟨⟨_, x1, x2⟩, ⟨_, y1, y2⟩, ⟨_, z1, z2⟩⟩ := u1
  refine ⟨d, hd, hprim.2.2.2.1, ⟨⟨_, x1, ?_⟩, ⟨_, y1, ?_⟩, ⟨_, z1, ?_⟩⟩, ?_⟩
  · rw [x2]; exact l1.trans w8
  · rw [y2]; exact l2.trans w8
  · rw [z2]; exact l3.trans w8
  · rw [hc.massflow]
    refine (massflow_near hp.burn.engines hp.burn.few hp.burn.consumption hk zero_le_one le_rfl).congr ?_
    rw [one_mul]

theorem Reads.unique {x : F64 L} {a b : ℝ} (h1 : Reads x a) (h2 : Reads x b) : a = b := by
  obtain ⟨p, hp, rfl⟩ := h1
  obtain ⟨q, hq, rfl⟩ := h2
  obtain ⟨s, u, e1, e2, _⟩ := hp
  obtain ⟨t, w, e3, e4, _⟩ := hq
  rw [e1] at e3
  cases e3
  rw [← e2, ← e4]

section step

/-- rounding errors of the stage vectors -/
def eYp : Fin 7 → ℝ := ![4e-8, 4e-8, 4e-8, 3.2e-8, 3.2e-8, 3.2e-8, 0]
/-- errors of their derivatives -/
def eWp : Fin 7 → ℝ := ![3.2e-8, 3.2e-8, 3.2e-8, 3.1e-8, 3.1e-8, 3.1e-8, 0]
/-- sizes of their derivatives -/
def bWp : Fin 7 → ℝ := ![8500, 8500, 8500, 58, 58, 58, 0]

variable {a μ j2 j3 j4 : ℝ} {gC : Kepler.C3 → Kepler.C3} {A : ℝ → V3 ℝ} {Q : ℝ}

theorem pushed_size (H : Kepler.Field (field a μ j2 j3 j4) gC 6.4e6 32.12 7.04e-6) {P : Fin 7 → ℝ}
    (hP : Reg P) {τ : ℝ} (hA : rnorm (A τ) ≤ 25) : ∀ i, i ≠ 6 → |pushed a μ j2 j3 j4 A Q τ P i| ≤ bWp i := by
  have hg : rnorm (grav a μ j2 j3 j4 (pos7 P)) ≤ 32.12 := by
    have := H.size (by norm_num) (x := e3 (pos7 P)) (by
      rw [norm_e3]
      exact le_trans (by norm_num) hP.lo)
    rwa [field_e3, norm_e3] at this
  have hs : rnorm (radd (A τ) (grav a μ j2 j3 j4 (pos7 P))) ≤ 58 := by
    have := rnorm_add_le (A τ) (grav a μ j2 j3 j4 (pos7 P))
    norm_num at hg
    linarith
  obtain ⟨g1, g2, g3⟩ := comp_le_rnorm (radd (A τ) (grav a μ j2 j3 j4 (pos7 P)))
  obtain ⟨v1, v2, v3⟩ := comp_le_rnorm (vel7 P)
  have hv := hP.vel
  intro i hi
  fin_cases i
  · exact v1.trans (by simp [bWp]; linarith)
  · exact v2.trans (by simp [bWp]; linarith)
  · exact v3.trans (by simp [bWp]; linarith)
  · exact g1.trans hs
  · exact g2.trans hs
  · exact g3.trans hs
  · exact absurd rfl hi

theorem reg_push (H : Kepler.Field (field a μ j2 j3 j4) gC 6.4e6 32.12 7.04e-6) {Y P : Fin 7 → ℝ}
    (hY : Reg0 Y) (hP : Reg P) {c τ : ℝ} (h0 : 0 ≤ c) (h1 : c ≤ 1) (hA : rnorm (A τ) ≤ 25) :
    Reg (Y + c • pushed a μ j2 j3 j4 A Q τ P) := by
  have lin : (proj7 (Y + c • pushed a μ j2 j3 j4 A Q τ P)) = proj7 Y + c • proj7 (pushed a μ j2 j3 j4 A Q τ P) := by
    rw [map_add, map_smul]
  rw [proj7_pushed] at lin
  simp only [proj7_apply, Prod.smul_mk, Prod.mk_add_mk, Prod.mk.injEq] at lin
  obtain ⟨l1, l2⟩ := lin
  have hg : ‖field a μ j2 j3 j4 (e3 (pos7 P))‖ ≤ 32.12 := H.size (by norm_num) (by
      rw [norm_e3]
      exact le_trans (by norm_num) hP.lo)
  have hA' : ‖e3 (A τ)‖ ≤ 25 := by rw [norm_e3]; exact hA
  have hgA := norm_add_le (field a μ j2 j3 j4 (e3 (pos7 P))) (e3 (A τ))
  have hv : ‖e3 (vel7 P)‖ ≤ 8400 := by rw [norm_e3]; exact hP.vel
  have hsm : ∀ w : Kepler.R3, ‖c • w‖ ≤ ‖w‖ := by
    intro w
    rw [norm_smul, Real.norm_of_nonneg h0]
    nlinarith [norm_nonneg w]
  have d1 := hsm (e3 (vel7 P))
  have d2 := hsm (field a μ j2 j3 j4 (e3 (pos7 P)) + e3 (A τ))
  have t1 := norm_add_le (e3 (pos7 Y)) (c • e3 (vel7 P))
  have t2 := norm_add_le (e3 (vel7 Y)) (c • (field a μ j2 j3 j4 (e3 (pos7 P)) + e3 (A τ)))
  have t3 := norm_sub_norm_le (e3 (pos7 Y)) (-(c • e3 (vel7 P)))
  rw [norm_neg, sub_neg_eq_add] at t3
  have y1 := hY.lo
  have y2 := hY.hi
  have y3 := hY.vel
  norm_num at y1 y2 y3 hg hv
  rw [← norm_e3] at y1 y2 y3
  constructor
  · rw [← norm_e3, l1]
    norm_num
    linarith
  · rw [← norm_e3, l1]
    norm_num
    linarith
  · rw [← norm_e3, l2]
    exact t2.trans (by linarith)

/-- The equations of motion at a stage of a powered flight. -/
theorem push_rhs (hL : GoodLibrary L) (hF : FrameLibrary L) (hT : TrigLibrary L) {p : Phase (F64 L)}
    {es : List RealEngine} {lat long az : ℝ} {P : TurnProgram} (hp : VacuumFlightDouble p es lat long az P)
    (hturn : |P.rollRate| + |P.yawRate| + |P.pitchRate| ≤ 0.95)
    (hn : NearEarth p.planet a μ j2 j3 j4)
    (H : Kepler.Field (field a μ j2 j3 j4) gC 6.4e6 32.12 7.04e-6) {x : Fin 2 → F64 L} {y : Fin 7 → F64 L}
    {Z : Fin 7 → ℝ} {m0 τ' τ μ' : ℝ} (hx0 : ∃ t, Reads (x 0) t ∧ |t| ≤ 1e9)
    (hx1 : Reads (x 1) τ') (hττ : |τ' - τ| ≤ 1e-11) (h0 : 0 ≤ τ) (h1 : τ ≤ 3001)
    (hy : ∀ i, i ≠ 6 → Near (y i) (Z i) (eYp i)) (hm : Reads (y 6) μ')
    (hmM : |μ' - (m0 - fullConsumption es * τ)| ≤ 1e-9 * (m0 - fullConsumption es * τ))
    (hM : 1e-4 ≤ m0 - fullConsumption es * τ) (hM1 : m0 - fullConsumption es * τ ≤ 1e10)
    (hthrust : rnorm (fullThrust es 0) ≤ 25 * (m0 - fullConsumption es * τ))
    (hgross : grossThrust es 0 ≤ 1000 * (m0 - fullConsumption es * τ)) (hP : Reg Z) :
    ∃ w, convertedFunc p.system x y = .ok w ∧
      (∀ i, i ≠ 6 → Near (w i) (pushed a μ j2 j3 j4 (pushT P lat long az (fullThrust es 0) m0 (fullConsumption es) 0)
        (fullConsumption es) τ Z i) (eWp i)) ∧
      Near (w 6) (-fullConsumption es) (3e-13 * fullConsumption es + 1e-33) := by
  obtain ⟨t, ht, ht'⟩ := hx0
  obtain ⟨q0, i0, e0⟩ := hy 0 (by decide)
  obtain ⟨q1, i1, e1⟩ := hy 1 (by decide)
  obtain ⟨q2, i2, e2⟩ := hy 2 (by decide)
  obtain ⟨q3, i3, e3'⟩ := hy 3 (by decide)
  obtain ⟨q4, i4, e4⟩ := hy 4 (by decide)
  obtain ⟨q5, i5, e5⟩ := hy 5 (by decide)
  let r : V3 ℝ := ⟨q0, q1, q2⟩
  have dr : rdist r (pos7 Z) ≤ 8e-8 := by
    refine (rnorm_le_of_comp (e := 4e-8) e0 e1 e2).trans (by norm_num)
  have tr1 := rnorm_triangle r (pos7 Z)
  have tr2 := rnorm_triangle (pos7 Z) r
  rw [rdist_comm (pos7 Z) r] at tr2
  have p1 := hP.lo
  have p2 := hP.hi
  have hr1 : 6.4e6 ≤ rnorm r := by norm_num at *; linarith
  have hr2 : rnorm r ≤ 2e7 := by norm_num at *; linarith
  have hg : rnorm (grav a μ j2 j3 j4 r) ≤ 33 := by
    have := H.size (by norm_num) (x := e3 r) (by rw [norm_e3]; exact hr1)
    rw [field_e3, norm_e3] at this
    exact this.trans (by norm_num)
  obtain ⟨d, hd, hvel, hacc, hfl⟩ := powered_system hL hF hT hp hturn hn (st := State.fromVec x y) (r := r) ht ht' hx1 hττ
    h0 h1 ⟨⟨q0, i0, rfl⟩, ⟨q1, i1, rfl⟩, ⟨q2, i2, rfl⟩⟩ hr1 hr2 hg hm hmM hM hM1 hthrust hgross
  have hlip : rdist (grav a μ j2 j3 j4 r) (grav a μ j2 j3 j4 (pos7 Z)) ≤ 1e-12 := by
    have := H.lipschitz (e3 r) (e3 (pos7 Z)) (by rw [norm_e3]; exact hr1) (by
      rw [norm_e3]
      exact le_trans (by norm_num) p1)
    rw [field_e3, field_e3, norm_e3_sub, norm_e3_sub] at this
    refine this.trans ((mul_le_mul_of_nonneg_left dr (by norm_num)).trans (by norm_num))
  obtain ⟨c1, c2, c3⟩ := comp_le_rnorm (rsub (grav a μ j2 j3 j4 r) (grav a μ j2 j3 j4 (pos7 Z)))
  have hpush : pushT P lat long az (fullThrust es 0) m0 (fullConsumption es) 0 τ =
      rscale (1 / (m0 - fullConsumption es * τ)) (rmulVecT (P.frame lat long az τ) (fullThrust es 0)) := by
    unfold pushT
    rw [sub_zero]
  refine ⟨d.toDifferentialsVector, by simp [convertedFunc, hd, bind, Except.bind, pure, Except.pure], ?_, hfl⟩
  have w : ∀ {z : F64 L} {q : ℚ} {ξ : ℝ}, z.Is q → |(q : ℝ) - ξ| ≤ 3.2e-8 → Near z ξ 3.2e-8 :=
    fun h1 h2 => ⟨_, h1, h2⟩
  have shift : ∀ {u g g' : ℝ}, |g - g'| ≤ 1e-12 → |(u + g) - (u + g')| ≤ 1e-12 := by
    intro u g g' h
    rwa [add_sub_add_left_eq_sub]
  intro i hi
  unfold pushed
  rw [hpush]
  fin_cases i <;> simp only [vec7, State.toDifferentialsVector, hvel]
  · exact w i3 e3'
  · exact w i4 e4
  · exact w i5 e5
  · exact hacc.x.move (shift (c1.trans hlip)) (by norm_num [eWp])
  · exact hacc.y.move (shift (c2.trans hlip)) (by norm_num [eWp])
  · exact hacc.z.move (shift (c3.trans hlip)) (by norm_num [eWp])
  · exact absurd rfl hi

end step

section onestep
variable {a μ j2 j3 j4 : ℝ} {gC : Kepler.C3 → Kepler.C3}

theorem pushT_norm (P : TurnProgram) (lat long az : ℝ) {F : V3 ℝ} {m0 Q τ : ℝ} (hM : 0 < m0 - Q * τ)
    (hF : rnorm F ≤ 25 * (m0 - Q * τ)) : rnorm (pushT P lat long az F m0 Q 0 τ) ≤ 25 := by
  unfold pushT TurnProgram.frame
  rw [sub_zero, rnorm_rscale, turn_norm (bodyFrame_isRotation _ _ _ _ _ _), abs_of_pos (by positivity), one_div,
    inv_mul_le_iff₀ hM]
  linarith

/-- a time at a stage of the step -/
theorem second_add {x k : F64 L} {τ κ e : ℝ} (hx : Reads x τ) (hk : Near k κ e) (hκ : |κ| ≤ 1) (he : e ≤ 1e-12)
    (ht : |τ| ≤ 3000) : ∃ t', Reads (x + k) t' ∧ |t' - (τ + κ)| ≤ 1e-11 := by
  have h0 := hk.nonneg
  obtain ⟨q, h1, h2⟩ : Near (x + k) (τ + κ) 1e-11 := by
    refine (reads_near.1 hx).add hk (M := 3001) (abs_add_le' ht hκ (by norm_num)) ?_ ?_ <;> norm_num at he ⊢ <;> linarith
  exact ⟨q, ⟨q, h1, rfl⟩, h2⟩

/-- One step of one second of a powered flight in vacuum. -/
theorem powered_step (hL : GoodLibrary L) (hF : FrameLibrary L) (hT : TrigLibrary L) {p : Phase (F64 L)}
    {es : List RealEngine} {lat long az : ℝ} {P : TurnProgram} (hp : VacuumFlightDouble p es lat long az P)
    (hturn : |P.rollRate| + |P.yawRate| + |P.pitchRate| ≤ 0.95) (hn : NearEarth p.planet a μ j2 j3 j4)
    (H : Kepler.Field (field a μ j2 j3 j4) gC 6.4e6 32.12 7.04e-6) {h : F64 L} (hh : Reads h 1) {s : State (F64 L)}
    {Y : Fin 7 → ℝ} {m0 m τ B : ℝ} (hs : ∀ i, i ≠ 6 → Near (s.toPrimaryVec i) (Y i) 0) (hm : Reads s.mass m)
    (ht : ∃ t, Reads s.time t ∧ |t| ≤ 9e8) (hτ : Reads s.timeSinceEvent τ) (hτ0 : 0 ≤ τ) (hτ1 : τ ≤ 3000)
    (hmM : |m - (m0 - fullConsumption es * τ)| + (1e-12 * fullConsumption es + 2e-16 * m0) ≤
      1e-9 * (m0 - fullConsumption es * (τ + 1)))
    (hM : 9e-4 ≤ m0 - fullConsumption es * (τ + 1)) (hm01 : 0.9 ≤ m0) (hm0 : B ≤ 1e9) (hBm : B ≤ 1.01 * m0) (hB2 : m0 ≤ 1.01 * B)
    (hmle : m ≤ B)
    (hthrust : rnorm (fullThrust es 0) ≤ 25 * (m0 - fullConsumption es * (τ + 1)))
    (hgross : grossThrust es 0 ≤ 1000 * (m0 - fullConsumption es * (τ + 1))) (hY : Reg0 Y) :
    ∃ s', OneStep p h s s' ∧ ∃ Y' : Fin 7 → ℝ, (∀ i, i ≠ 6 → Near (s'.toPrimaryVec i) (Y' i) 0) ∧
      ‖(proj7 Y').1 - (RKOrder.rk4 (Kepler.motionT (field a μ j2 j3 j4)
        (fun t => e3 (pushT P lat long az (fullThrust es 0) m0 (fullConsumption es) 0 t)))
        ((proj7 Y).1, (proj7 Y).2, τ) 1).1‖ ≤ 8e-8 ∧
      ‖(proj7 Y').2 - (RKOrder.rk4 (Kepler.motionT (field a μ j2 j3 j4)
        (fun t => e3 (pushT P lat long az (fullThrust es 0) m0 (fullConsumption es) 0 t)))
        ((proj7 Y).1, (proj7 Y).2, τ) 1).2.1‖ ≤ 6.4e-8 := by
  obtain ⟨hQ0, _⟩ := flow_near hp.burn.engines hp.burn.few hp.burn.consumption
  have hQ := hp.burn.consumption
  have hh' := reads_near.1 hh
  set F := fullThrust es 0 with hFdef
  set Q := fullConsumption es with hQd
  set A := pushT P lat long az F m0 Q 0 with hAdef
  set f := pushed a μ j2 j3 j4 A Q with hf
  set y := s.toPrimaryVec with hy
  let x := vec2 s.time s.timeSinceEvent
  obtain ⟨t, ht1, ht2⟩ := ht
  have hyB : |m| ≤ B := by
    have h1 : 0 ≤ 1e-12 * Q + 2e-16 * m0 := by positivity
    have h2 := abs_nonneg (m - (m0 - Q * τ))
    have h3 : |m - (m0 - Q * τ)| ≤ 1e-9 * (m0 - Q * (τ + 1)) := by linarith
    rw [abs_le] at h3 ⊢
    rw [mul_add, mul_one] at h3 hM
    norm_num at h3 hM
    constructor <;> linarith
  have hym := reads_near.1 hm
  -- masses at the stages
  have hMc : ∀ c, c ≤ 1 → m0 - Q * (τ + 1) ≤ m0 - Q * (τ + c) := by
    intro c hc
    have : Q * (τ + c) ≤ Q * (τ + 1) := mul_le_mul_of_nonneg_left (by linarith) hQ0
    linarith
  have hMs : ∀ {c : ℝ} {z : F64 L}, 0 ≤ c → c ≤ 1 → Near z (m - c * Q) (1e-12 * Q + 2e-16 * m0) →
      ∃ μ', Reads z μ' ∧ |μ' - (m0 - Q * (τ + c))| ≤ 1e-9 * (m0 - Q * (τ + c)) := by
    rintro c z _ hc ⟨q, h1, h2⟩
    refine ⟨q, ⟨q, h1, rfl⟩, ?_⟩
    have h3 := abs_add_le ((q : ℝ) - (m - c * Q)) (m - (m0 - Q * τ))
    rw [show (q : ℝ) - (m - c * Q) + (m - (m0 - Q * τ)) = q - (m0 - Q * (τ + c)) by ring] at h3
    have h4 := hMc c hc
    have h5 : 1e-9 * (m0 - Q * (τ + 1)) ≤ 1e-9 * (m0 - Q * (τ + c)) := by gcongr
    linarith
  have hAc : ∀ c, 0 ≤ c → c ≤ 1 → rnorm (A (τ + c)) ≤ 25 := by
    intro c _ hc
    have h4 := hMc c hc
    refine pushT_norm P lat long az (by norm_num at hM; linarith) (by linarith)
  have hE1m : 4e-13 * Q + 1e-32 ≤ (1 : ℝ) := by norm_num at hQ ⊢; linarith
  have hδ : (4e-13 * Q + 1e-32) + 1e-14 * (Q + (4e-13 * Q + 1e-32)) + 1.3e-16 * B + 1e-37 ≤
      1e-12 * Q + 2e-16 * m0 := by norm_num at hm01 ⊢; linarith
  have hnq : |-Q| ≤ Q := by rw [abs_neg, abs_of_nonneg hQ0]
  have hhv : ∀ {z : F64 L}, Near z (-Q) (3e-13 * Q + 1e-33) → Near (h * z) (-Q) (4e-13 * Q + 1e-32) := by
    intro z hz
    have := near_hv hh' zero_le_one le_rfl hz hnq (by norm_num at hQ ⊢; linarith) hQ
    refine (this.congr (by ring)).mono ?_
    norm_num
    linarith
  -- sizes
  have hYb : ∀ i, i ≠ 6 → |Y i| ≤ bY i := by
    obtain ⟨r1, r2, r3⟩ := comp_le_rnorm (pos7 Y)
    obtain ⟨v1, v2, v3⟩ := comp_le_rnorm (vel7 Y)
    have y2 := hY.hi
    have y3 := hY.vel
    norm_num at y2 y3
    intro i hi
    fin_cases i <;> simp only [bY] <;> norm_num
    · exact r1.trans (by linarith)
    · exact r2.trans (by linarith)
    · exact r3.trans (by linarith)
    · exact v1.trans (by linarith)
    · exact v2.trans (by linarith)
    · exact v3.trans (by linarith)
    · exact absurd rfl hi
  have hbY : ∀ i, bY i ≤ 1e9 := by intro i; fin_cases i <;> norm_num [bY]
  have hbW : ∀ i, bWp i ≤ 1e5 := by intro i; fin_cases i <;> norm_num [bWp]
  have heW : ∀ i, eWp i ≤ 1 := by intro i; fin_cases i <;> norm_num [eWp]
  have hE1 : ∀ i, eWp i + 1.2e-16 * (bWp i + eWp i) + 1e-40 ≤ 1 := by
    intro i
    fin_cases i <;> norm_num [eWp, bWp]
  have hfin : ∀ i, i ≠ 6 → (eWp i + 1.2e-16 * (bWp i + eWp i) + 1e-40) +
      1e-14 * (bWp i + (eWp i + 1.2e-16 * (bWp i + eWp i) + 1e-40)) + 1.3e-16 * bY i + 1e-37 ≤ eYp i := by
    intro i hi
    fin_cases i <;> first | exact absurd rfl hi | norm_num [eWp, bWp, bY, eYp]
  have hTn : ∀ {w : Fin 7 → F64 L} {Z : Fin 7 → ℝ} {c : ℝ}, 0 ≤ c → c ≤ 1 → Reg Z →
      (∀ i, i ≠ 6 → Near (w i) (f (τ + c) Z i) (eWp i)) →
      ∀ i, i ≠ 6 → Near (h * w i) (f (τ + c) Z i) (eWp i + 1.2e-16 * (bWp i + eWp i) + 1e-40) := by
    intro w Z c h0 h1 hZ hw i hi
    have := near_hv hh' zero_le_one le_rfl (hw i hi) (pushed_size H hZ (hAc c h0 h1) i hi) (heW i) (hbW i)
    exact this.congr (one_mul _)
  have hTb : ∀ {Z : Fin 7 → ℝ} {c : ℝ}, 0 ≤ c → c ≤ 1 → Reg Z → ∀ i, i ≠ 6 → |f (τ + c) Z i| ≤ bWp i :=
    fun h0 h1 hZ i hi => pushed_size H hZ (hAc _ h0 h1) i hi
  -- times
  have hτa : |τ| ≤ 3000 := by rw [abs_of_nonneg hτ0]; exact hτ1
  have n0 : Near (0 * h) 0 1e-12 := (near_zT hh').mono (by norm_num)
  have n5 : Near (0.5 * h) 0.5 1e-12 := by
    have := near_cT (near_half (L := L)) (by norm_num) (by norm_num) hh' (K := 1) (by norm_num) (by norm_num) (by norm_num)
    exact (this.congr (by norm_num)).mono (by norm_num)
  have n1 : Near (1 * h) 1 1e-12 := by
    have := near_cT (Near.one.mono (L := L) (show (0 : ℝ) ≤ 1e-16 by norm_num)) (by norm_num) (by norm_num) hh' (K := 1) (by norm_num)
      (by norm_num) (by norm_num)
    exact (this.congr (by norm_num)).mono (by norm_num)
  have tm : ∀ {k : F64 L} {κ : ℝ}, Near k κ 1e-12 → |κ| ≤ 1 → (∃ t, Reads (addScalar x k 0) t ∧ |t| ≤ 1e9) ∧
      ∃ τ', Reads (addScalar x k 1) τ' ∧ |τ' - (τ + κ)| ≤ 1e-11 := fun hk hκ =>
    ⟨time_add ht1 hk hκ (by norm_num) ht2, second_add hτ hk hκ le_rfl hτa⟩
  obtain ⟨xa0, τa0, xb0, xc0⟩ := tm n0 (by norm_num)
  obtain ⟨xa5, τa5, xb5, xc5⟩ := tm n5 (by norm_num [abs_of_pos])
  obtain ⟨xa1, τa1, xb1, xc1⟩ := tm n1 (by norm_num)
  have rhs : ∀ {c τ' : ℝ} {x : Fin 2 → F64 L} {y : Fin 7 → F64 L} {Z : Fin 7 → ℝ}, 0 ≤ c → c ≤ 1 →
      (∃ t, Reads (x 0) t ∧ |t| ≤ 1e9) → Reads (x 1) τ' → |τ' - (τ + c)| ≤ 1e-11 →
      (∀ i, i ≠ 6 → Near (y i) (Z i) (eYp i)) → Near (y 6) (m - c * Q) (1e-12 * Q + 2e-16 * m0) → Reg Z →
      ∃ w, convertedFunc p.system x y = .ok w ∧ (∀ i, i ≠ 6 → Near (w i) (f (τ + c) Z i) (eWp i)) ∧
        Near (w 6) (-Q) (3e-13 * Q + 1e-33) := by
    intro c τ' x y Z h0 h1 k1 k2 k3 k4 k5 k6
    obtain ⟨μ', b1, b2⟩ := hMs h0 h1 k5
    have h4 := hMc c h1
    have h5 : 0 ≤ Q * (τ + c) := by positivity
    exact push_rhs hL hF hT hp hturn hn H k1 k2 k3 (by linarith) (by linarith) k4 b1 b2 (by norm_num at hM ⊢; linarith)
      (by norm_num at hm0 ⊢; linarith) (by linarith) (by linarith) k6
  -- first stage
  have r1 : Reg Y := hY.reg
  obtain ⟨w1, e1, v1, q1⟩ := rhs (c := 0) (x := addScalar x (0 * h))
    (y := fun i => y i + ((((0 + 0 * 0) + 0 * 0) + 0 * 0) + 0 * 0)) (Z := Y) le_rfl zero_le_one xa0 xb0 xc0
    (fun i hi => near_stage1 (hs i hi) (hYb i hi) (hbY i) (by
      fin_cases i <;> first | exact absurd rfl hi | norm_num [bY, eYp]))
    ((near_stage1 hym hyB hm0 (by linarith)).congr (by ring)) r1
  have t1 := hTn le_rfl zero_le_one r1 v1
  have b1 := hTb le_rfl zero_le_one r1
  -- second stage
  have hh5 : (0 : ℝ) ≤ 0.5 := by norm_num
  have hh51 : (0.5 : ℝ) ≤ 1 := by norm_num
  have r2 : Reg (Y + (0.5 : ℝ) • f (τ + 0) Y) := reg_push H hY r1 hh5 hh51 (hAc 0 le_rfl zero_le_one)
  obtain ⟨w2, e2, v2, q2⟩ := rhs (c := 0.5) (x := addScalar x (0.5 * h))
    (y := fun i => y i + ((((0 + 0.5 * (h * w1 i)) + 0 * 0) + 0 * 0) + 0 * 0)) (Z := Y + (0.5 : ℝ) • f (τ + 0) Y)
    hh5 hh51 xa5 xb5 xc5
    (fun i hi => (near_stage2 (hs i hi) (hYb i hi) (hbY i) (t1 i hi) (b1 i hi) (hE1 i) (hbW i)
      (hfin i hi)).congr (by simp only [Pi.add_apply, Pi.smul_apply, smul_eq_mul]))
    ((near_stage2 hym hyB hm0 (hhv q1) hnq hE1m hQ hδ).congr (by ring)) r2
  have t2 := hTn hh5 hh51 r2 v2
  have b2 := hTb hh5 hh51 r2
  -- third stage
  have r3 : Reg (Y + (0.5 : ℝ) • f (τ + 0.5) (Y + (0.5 : ℝ) • f (τ + 0) Y)) := reg_push H hY r2 hh5 hh51 (hAc _ hh5 hh51)
  obtain ⟨w3, e3, v3, q3⟩ := rhs (c := 0.5) (x := addScalar x (0.5 * h))
    (y := fun i => y i + ((((0 + 0 * (h * w1 i)) + 0.5 * (h * w2 i)) + 0 * 0) + 0 * 0))
    (Z := Y + (0.5 : ℝ) • f (τ + 0.5) (Y + (0.5 : ℝ) • f (τ + 0) Y)) hh5 hh51 xa5 xb5 xc5
    (fun i hi => (near_stage3 (hs i hi) (hYb i hi) (hbY i) (t1 i hi) (t2 i hi) (b2 i hi) (hE1 i) (hbW i)
      (hfin i hi)).congr (by simp only [Pi.add_apply, Pi.smul_apply, smul_eq_mul]))
    ((near_stage3 hym hyB hm0 (hhv q1) (hhv q2) hnq hE1m hQ hδ).congr (by ring)) r3
  have t3 := hTn hh5 hh51 r3 v3
  have b3 := hTb hh5 hh51 r3
  -- fourth stage
  have r4 : Reg (Y + (1 : ℝ) • f (τ + 0.5) (Y + (0.5 : ℝ) • f (τ + 0.5) (Y + (0.5 : ℝ) • f (τ + 0) Y))) :=
    reg_push H hY r3 zero_le_one le_rfl (hAc _ hh5 hh51)
  obtain ⟨w4, e4, v4, q4⟩ := rhs (c := 1) (x := addScalar x (1 * h))
    (y := fun i => y i + ((((0 + 0 * (h * w1 i)) + 0 * (h * w2 i)) + 1 * (h * w3 i)) + 0 * 0))
    (Z := Y + (1 : ℝ) • f (τ + 0.5) (Y + (0.5 : ℝ) • f (τ + 0.5) (Y + (0.5 : ℝ) • f (τ + 0) Y))) zero_le_one le_rfl xa1 xb1 xc1
    (fun i hi => (near_stage4 (hs i hi) (hYb i hi) (hbY i) (t1 i hi) (t2 i hi) (t3 i hi) (b3 i hi) (hE1 i)
      (hbW i) (hfin i hi)).congr (by simp only [Pi.add_apply, Pi.smul_apply, smul_eq_mul, one_mul]))
    ((near_stage4 hym hyB hm0 (hhv q1) (hhv q2) (hhv q3) hnq hE1m hQ hδ).congr (by ring)) r4
  have t4 := hTn zero_le_one le_rfl r4 v4
  have b4 := hTb zero_le_one le_rfl r4
  -- the new state
  set y' : Fin 7 → F64 L := fun i => y i + ((((0 + 1 / 6 * (h * w1 i)) + 1 / 3 * (h * w2 i)) +
    1 / 3 * (h * w3 i)) + 1 / 6 * (h * w4 i)) with hy'
  have key := rk4_forward e1 e2 e3 e4
  set Z1 := f (τ + 0) Y with hZ1
  set Z2 := f (τ + 0.5) (Y + (0.5 : ℝ) • Z1) with hZ2
  set Z3 := f (τ + 0.5) (Y + (0.5 : ℝ) • Z2) with hZ3
  set Z4 := f (τ + 1) (Y + (1 : ℝ) • Z3) with hZ4
  have v5 : ∀ i, i ≠ 6 → Near (y' i) ((Y + ((1 / 6 : ℝ) • Z1 + (1 / 3 : ℝ) • Z2 + (1 / 3 : ℝ) • Z3 + (1 / 6 : ℝ) • Z4)) i)
      (eYp i) := by
    intro i hi
    exact (near_final (hs i hi) (hYb i hi) (hbY i) (t1 i hi) (t2 i hi) (t3 i hi) (t4 i hi) (b1 i hi) (b2 i hi) (b3 i hi)
      (b4 i hi) (hE1 i) (hbW i) (hfin i hi)).congr (by simp only [Pi.add_apply, Pi.smul_apply, smul_eq_mul])
  have m5 : Near (y' 6) (m - 1 * Q) (1e-12 * Q + 2e-16 * m0) :=
    (near_final hym hyB hm0 (hhv q1) (hhv q2) (hhv q3) (hhv q4) hnq hnq hnq hnq hE1m hQ hδ).congr (by ring)
  obtain ⟨μ', m6, m7⟩ := hMs zero_le_one le_rfl m5
  have m8 : 0 < μ' := by
    rw [abs_le] at m7
    norm_num at m7 hM
    linarith
  obtain ⟨d, hd, _⟩ := vacuum_unlimited hT hp.burn hp.unlimited (State.fromVec (addScalar x h) y') m6 m8
  have hprim := Phase.system_primary hd
  choose q hq1 hq2 using v5
  set Y' : Fin 7 → ℝ := fun i => if hi : i ≠ 6 then (q i hi : ℝ) else 0 with hY'
  have hval : ∀ i (hi : i ≠ 6), Y' i = q i hi := by
    intro i hi
    simp only [hY', hi, ne_eq, not_false_eq_true, dite_true]
  have herr : ∀ i, i ≠ 6 → |Y' i - (Y + ((1 / 6 : ℝ) • Z1 + (1 / 3 : ℝ) • Z2 + (1 / 3 : ℝ) • Z3 + (1 / 6 : ℝ) • Z4)) i| ≤ eYp i := by
    intro i hi
    rw [hval i hi]
    exact hq2 i hi
  refine ⟨d, ?_, Y', ?_, ?_, ?_⟩
  · unfold OneStep
    cases p.integrator
    simp only [Integrator.step, bind, Except.bind]
    rw [show RK4.step (convertedFunc p.system) (vec2 s.time s.timeSinceEvent) s.toPrimaryVec h = _
      from key]
    exact hd
  · intro i hi
    have e : d.toPrimaryVec i = y' i := by
      unfold State.toPrimaryVec
      rw [hprim.2.2.1, hprim.2.2.2.1, hprim.2.2.2.2]
      fin_cases i <;> rfl
    rw [e, hval i hi]
    exact Near.of_is (hq1 i hi)
  · have e : (RKOrder.rk4 (Kepler.motionT (field a μ j2 j3 j4) (fun t => Post.e3 (A t))) ((proj7 Y).1, (proj7 Y).2, τ) 1).1 =
        (proj7 (Y + ((1 / 6 : ℝ) • Z1 + (1 / 3 : ℝ) • Z2 + (1 / 3 : ℝ) • Z3 + (1 / 6 : ℝ) • Z4))).1 := by
      rw [Kepler.rk4_motionT, hZ4, hZ3, hZ2, hZ1, hf]
      norm_num only
      simp only [map_add, map_smul, proj7_pushed, Prod.fst_add, Prod.snd_add, Prod.smul_fst, Prod.smul_snd, add_zero]
      module
    rw [e]
    show ‖Post.e3 (pos7 Y') - Post.e3 (pos7 _)‖ ≤ _
    rw [norm_e3_sub]
    exact (rnorm_le_of_comp (e := 4e-8) (herr 0 (by decide)) (herr 1 (by decide)) (herr 2 (by decide))).trans (by norm_num)
  · have e : (RKOrder.rk4 (Kepler.motionT (field a μ j2 j3 j4) (fun t => Post.e3 (A t))) ((proj7 Y).1, (proj7 Y).2, τ) 1).2.1 =
        (proj7 (Y + ((1 / 6 : ℝ) • Z1 + (1 / 3 : ℝ) • Z2 + (1 / 3 : ℝ) • Z3 + (1 / 6 : ℝ) • Z4))).2 := by
      rw [Kepler.rk4_motionT, hZ4, hZ3, hZ2, hZ1, hf]
      norm_num only
      simp only [map_add, map_smul, proj7_pushed, Prod.fst_add, Prod.snd_add, Prod.smul_fst, Prod.smul_snd, add_zero]
      module
    rw [e]
    show ‖Post.e3 (vel7 Y') - Post.e3 (vel7 _)‖ ≤ _
    rw [norm_e3_sub]
    exact (rnorm_le_of_comp (e := 3.2e-8) (herr 3 (by decide)) (herr 4 (by decide)) (herr 5 (by decide))).trans (by norm_num)

end onestep

end
end Post
