import Verif.Spec.Rocket
import Verif.Props.Orbit
import Mathlib.MeasureTheory.Integral.IntervalIntegral.FundThmCalculus
import Mathlib.Analysis.SpecialFunctions.Log.Deriv
/-! # C68: the rocket equation.  Exact arithmetic. -/

namespace Post
open Spec Flt

noncomputable section

/-- Acceleration and mass flow in vacuum. -/
theorem system_powered {p : Phase XR} {es : List RealEngine} (hE : HasEngines p.vehicle es)
    (hisp : ∀ e ∈ es, e.isp ≠ 0) (hvac : p.atmosphere.model = .noAtmosphere) {s d : State XR}
    (h : p.system s = .ok d) {m : ℝ} (hm : s.mass = .fin m) (hm0 : m ≠ 0) {M : M3 ℝ}
    (hM : inertialToBody p.launch d.eulerAngles = M.fin) :
    ∃ k : ℝ, d.throttle = .fin k ∧ d.massflow = .fin (-(k * fullConsumption es)) ∧
      d.acceleration = V3.fin (rscale (k / m) (rmulVec M.transpose (fullThrust es 0))) +
        p.planet.gravity s.position := by
  have hc := system_consistent h
  obtain ⟨k, hk, _, _⟩ := system_throttle h
  refine ⟨k, hk, ?_, ?_⟩
  · rw [hc.massflow, hk, massflow_fin hE hisp]
  · have hpr : d.pressure = .fin 0 := by
      obtain ⟨aero, _, _, rfl⟩ := Phase.system_ok h
      exact (systemPre_vacuum hvac s).2.1
    have hthrust : d.thrustForceBody = V3.fin (rscale k (fullThrust es 0)) := by
      rw [hc.thrustForceBody, hk, hpr]; exact thrustForce_fin hE k 0
    have haero : d.aeroForceBody = V3.fin ⟨0, 0, 0⟩ := by
      obtain ⟨aero, haero, _, rfl⟩ := Phase.system_ok h
      exact aeroForce_of_zero_q (systemPre_vacuum hvac s).2.2.2 haero
    have hbody : d.vehicleAccelerationBody = V3.fin (rscale (k / m) (fullThrust es 0)) := by
      rw [hc.vehicleAccelerationBody, haero, hthrust, V3.fin_add,
        (Phase.system_primary h).2.2.2.2, hm]
      unfold V3.divS V3.fin V3.map rscale
      simp only [XR.fin_div _ _ hm0, zero_add]
      congr 2 <;> ring
    rw [hc.acceleration, hbody, hM, show (M3.fin M).transpose = M3.fin M.transpose from rfl,
      M3.fin_mulVec, hc.gravityAcceleration, (Phase.system_primary h).2.2.1]
    congr 2
    unfold rmulVec rdot rscale
    congr 1 <;> ring

theorem add_real_inv {a : V3 ℝ} {x : V3 XR} {b : V3 ℝ} (h : V3.fin a + x = b.fin) :
    ∃ g : V3 ℝ, x = g.fin ∧ b = radd a g := by
  obtain ⟨a1, g1, e1, ex, f1⟩ := add_fin_inv (congrArg V3.x h)
  obtain ⟨a2, g2, e2, ey, f2⟩ := add_fin_inv (congrArg V3.y h)
  obtain ⟨a3, g3, e3, ez, f3⟩ := add_fin_inv (congrArg V3.z h)
  rw [show (V3.fin a).x = .fin a.x from rfl, XR.fin_inj] at e1
  rw [show (V3.fin a).y = .fin a.y from rfl, XR.fin_inj] at e2
  rw [show (V3.fin a).z = .fin a.z from rfl, XR.fin_inj] at e3
  refine ⟨⟨g1, g2, g3⟩, V3.ext ex ey ez, ?_⟩
  subst e1 e2 e3
  exact V3.ext f1 f2 f3

theorem continuousAt_grav (a μ j2 j3 j4 : ℝ) {r : ℝ → V3 ℝ} {w : V3 ℝ} {t : ℝ}
    (hr : HasVelocity r w t) (h0 : r t ≠ ⟨0, 0, 0⟩) :
    ContinuousAt (fun τ => (grav a μ j2 j3 j4 (r τ)).x) t ∧
    ContinuousAt (fun τ => (grav a μ j2 j3 j4 (r τ)).y) t ∧
    ContinuousAt (fun τ => (grav a μ j2 j3 j4 (r τ)).z) t := by
  have hy : ContinuousAt (fun τ => vec7 (r τ).x (r τ).y (r τ).z 0 0 0 0) t := by
    refine continuousAt_pi.2 fun i => ?_
    fin_cases i
    exacts [hr.1.continuousAt, hr.2.1.continuousAt, hr.2.2.continuousAt, continuousAt_const,
      continuousAt_const, continuousAt_const, continuousAt_const]
  have hf := (analyticAt_fall a μ j2 j3 j4 (y := vec7 (r t).x (r t).y (r t).z 0 0 0 0) h0).continuousAt
  have hcomp := ContinuousAt.comp (f := fun τ => vec7 (r τ).x (r τ).y (r τ).z 0 0 0 0) hf hy
  have := fun i : Fin 7 => (continuous_apply i).continuousAt.comp hcomp
  exact ⟨this 3, this 4, this 5⟩

/-- C68.  In vacuum, at a constant attitude, the velocity gained between any two times is the
effective exhaust velocity (turned to the inertial frame) times the logarithm of the ratio of the
masses, plus the integral of gravity, whatever the throttle does in between. -/
theorem C68_rocket_equation {p : Phase XR} {es : List RealEngine} (hE : HasEngines p.vehicle es)
    (hisp : ∀ e ∈ es, e.isp ≠ 0) (hq : fullConsumption es ≠ 0)
    (hvac : p.atmosphere.model = .noAtmosphere) {a b μ j2 j3 j4 ω : ℝ}
    (hp : p.planet = realPlanet a b μ j2 j3 j4 ω) {lat long az roll yaw pitch : ℝ}
    (hl : p.launch = ⟨.fin lat, .fin long, .fin az⟩) (hatt : KeepsAttitude p roll yaw pitch)
    {t0 t1 t2 : ℝ} {r v : ℝ → V3 ℝ} {m : ℝ → ℝ} (h : Flies p t0 r v m t1 t2) :
    ∃ (M : M3 ℝ) (g : ℝ → V3 ℝ), M.IsRotation ∧
      inertialToBody p.launch ⟨.fin roll, .fin yaw, .fin pitch⟩ = M.fin ∧
      (∀ t ∈ Set.Icc t1 t2, p.planet.gravity (r t).fin = (g t).fin) ∧
      v t2 = radd (v t1) (radd
        (rscale (Real.log (m t1 / m t2)) (rmulVec M.transpose (exhaustVelocity es)))
        ⟨∫ t in t1..t2, (g t).x, ∫ t in t1..t2, (g t).y, ∫ t in t1..t2, (g t).z⟩) := by
  obtain ⟨hle, h⟩ := h
  obtain ⟨M, hrot, hM⟩ := C39_rotations.2.2.1 lat long az roll yaw pitch
  rw [← hl] at hM
  refine ⟨M, fun t => grav a μ j2 j3 j4 (r t), hrot, hM, ?_⟩
  have key : ∀ t ∈ Set.Icc t1 t2, r t ≠ ⟨0, 0, 0⟩ ∧ HasVelocity r (v t) t ∧
      ∃ k : ℝ, HasDerivAt m (-(k * fullConsumption es)) t ∧
        HasVelocity v (radd (rscale (k / m t) (rmulVec M.transpose (fullThrust es 0)))
          (grav a μ j2 j3 j4 (r t))) t := by
    intro t ht
    obtain ⟨⟨s, d, acc, flow, h1, h2, h3, h4, h5, h6, h7, h8, h9, h10, h11⟩, hm⟩ := h t ht
    have he := hatt s d t (t - t0) (m t) (r t) (v t) h1 h2 h3 h4 h5 h6
    obtain ⟨k, _, hk2, hk3⟩ := system_powered hE hisp hvac h6 h5 hm.ne' (M := M) (by rw [he]; exact hM)
    rw [h7] at hk3
    obtain ⟨g, hg, hacc⟩ := add_real_inv hk3.symm
    rw [hp, h3] at hg
    have hr0 : r t ≠ ⟨0, 0, 0⟩ := by
      intro h
      rw [h] at hg
      exact gravity_centre _ _ _ _ _ _ _ hg
    have hg2 := V3.fin_inj.1 ((gravity_grav a b μ j2 j3 j4 ω hr0).symm.trans hg)
    rw [h8, XR.fin_inj] at hk2
    rw [hacc, ← hg2] at h10
    rw [hk2] at h11
    exact ⟨hr0, h9, k, h11, h10⟩
  refine ⟨fun t ht => by rw [hp]; exact gravity_grav _ _ _ _ _ _ _ (key t ht).1, ?_⟩
  have hlog : ∀ t ∈ Set.Icc t1 t2, ∀ k, HasDerivAt m (-(k * fullConsumption es)) t →
      HasDerivAt (fun τ => Real.log (m τ)) (-(k * fullConsumption es) / m t) t :=
    fun t ht k hk => hk.log (h t ht).2.ne'
  have hm1 := (h t1 ⟨le_refl _, hle⟩).2
  have hm2 := (h t2 ⟨hle, le_refl _⟩).2
  rw [Real.log_div hm1.ne' hm2.ne']
  have huIcc : Set.uIcc t1 t2 = Set.Icc t1 t2 := Set.uIcc_of_le hle
  have comp : ∀ (f gc : ℝ → ℝ) (E : ℝ),
      (∀ t ∈ Set.Icc t1 t2, ∃ k, HasDerivAt m (-(k * fullConsumption es)) t ∧
        HasDerivAt f (k / m t * (E * fullConsumption es) + gc t) t) →
      (∀ t ∈ Set.Icc t1 t2, ContinuousAt gc t) →
      f t2 = f t1 + ((Real.log (m t1) - Real.log (m t2)) * E + ∫ t in t1..t2, gc t) := by
    intro f gc E hd hcont
    have hder : ∀ t ∈ Set.uIcc t1 t2, HasDerivAt (fun τ => f τ + Real.log (m τ) * E) (gc t) t := by
      intro t ht
      rw [huIcc] at ht
      obtain ⟨k, hk1, hk2⟩ := hd t ht
      refine (hk2.fun_add ((hlog t ht k hk1).mul_const E)).congr_deriv ?_
      ring
    have hint : IntervalIntegrable gc MeasureTheory.volume t1 t2 :=
      ContinuousOn.intervalIntegrable fun t ht => (hcont t (huIcc ▸ ht)).continuousWithinAt
    rw [intervalIntegral.integral_eq_sub_of_hasDerivAt hder hint]
    ring
  have hcont := fun t ht => continuousAt_grav a μ j2 j3 j4 (key t ht).2.1 (key t ht).1
  have hE2 : ∀ c : ℝ, c / fullConsumption es * fullConsumption es = c :=
    fun c => div_mul_cancel₀ c hq
  have hexh : rmulVec M.transpose (exhaustVelocity es) =
      ⟨(rmulVec M.transpose (fullThrust es 0)).x / fullConsumption es,
       (rmulVec M.transpose (fullThrust es 0)).y / fullConsumption es,
       (rmulVec M.transpose (fullThrust es 0)).z / fullConsumption es⟩ := by
    unfold exhaustVelocity rmulVec rdot rscale
    congr 1 <;> ring
  rw [hexh]
  refine V3.ext ?_ ?_ ?_
  · refine comp (fun t => (v t).x) _ _ (fun t ht => ?_) fun t ht => (hcont t ht).1
    obtain ⟨_, _, k, hk1, hk2⟩ := key t ht
    exact ⟨k, hk1, by rw [hE2]; exact hk2.1⟩
  · refine comp (fun t => (v t).y) _ _ (fun t ht => ?_) fun t ht => (hcont t ht).2.1
    obtain ⟨_, _, k, hk1, hk2⟩ := key t ht
    exact ⟨k, hk1, by rw [hE2]; exact hk2.2.1⟩
  · refine comp (fun t => (v t).z) _ _ (fun t ht => ?_) fun t ht => (hcont t ht).2.2
    obtain ⟨_, _, k, hk1, hk2⟩ := key t ht
    exact ⟨k, hk1, by rw [hE2]; exact hk2.2.2⟩

/-- A single engine of vacuum thrust other than zero: the effective exhaust speed is the specific
impulse times standard gravity. -/
theorem exhaustVelocity_single (e : RealEngine) (hT : e.thrust ≠ 0) (hI : e.isp ≠ 0) :
    exhaustVelocity [e] = rscale (e.isp * 9.80665) e.direction := by
  unfold exhaustVelocity fullConsumption fullThrust rsum RealEngine.thrustAt RealEngine.consumption
    rscale
  simp only [List.map_cons, List.map_nil, List.sum_cons, List.sum_nil, mul_zero, sub_zero, add_zero]
  congr 1 <;> field_simp

/-- C68 (ideal velocity).  Far from any attracting body, a vehicle with one engine of specific
impulse `I` changes its velocity by `I * 9.80665 * ln (m1 / m2)`. -/
theorem C68_ideal_velocity {p : Phase XR} {e : RealEngine} (hE : HasEngines p.vehicle [e])
    (hT : e.thrust ≠ 0) (hI : 0 < e.isp) (hvac : p.atmosphere.model = .noAtmosphere)
    {a b j2 j3 j4 ω : ℝ} (hp : p.planet = realPlanet a b 0 j2 j3 j4 ω)
    {lat long az roll yaw pitch : ℝ} (hl : p.launch = ⟨.fin lat, .fin long, .fin az⟩)
    (hatt : KeepsAttitude p roll yaw pitch) {t0 t1 t2 : ℝ} {r v : ℝ → V3 ℝ} {m : ℝ → ℝ}
    (h : Flies p t0 r v m t1 t2) :
    rnorm (rsub (v t2) (v t1)) = e.isp * 9.80665 * |Real.log (m t1 / m t2)| := by
  have hq : fullConsumption [e] ≠ 0 := by
    unfold fullConsumption RealEngine.consumption
    simp only [List.map_cons, List.map_nil, List.sum_cons, List.sum_nil, add_zero]
    exact div_ne_zero (div_ne_zero hT hI.ne') (by norm_num)
  have hle := h.1
  obtain ⟨M, g, hrot, _, hg, hv⟩ := C68_rocket_equation hE (by simpa using hI.ne') hq hvac hp hl hatt h
  have hg0 : ∀ t ∈ Set.Icc t1 t2, g t = ⟨0, 0, 0⟩ := by
    intro t ht
    have h1 := hg t ht
    rw [hp] at h1
    have h0 : r t ≠ ⟨0, 0, 0⟩ := by
      intro h
      rw [h] at h1
      exact gravity_centre _ _ _ _ _ _ _ h1
    rw [gravity_grav _ _ _ _ _ _ _ h0, V3.fin_inj] at h1
    rw [← h1]
    simp [grav]
  have hi : ∀ f : V3 ℝ → ℝ, f ⟨0, 0, 0⟩ = 0 → ∫ t in t1..t2, f (g t) = 0 := by
    intro f hf
    rw [intervalIntegral.integral_congr (g := fun _ => 0)]
    · simp
    · intro t ht
      rw [Set.uIcc_of_le hle] at ht
      simp only [hg0 t ht, hf]
  have e1 : rsub (v t2) (v t1) = rscale (Real.log (m t1 / m t2))
      (rmulVec M.transpose (exhaustVelocity [e])) := by
    rw [hv]
    simp only [hi (·.x) rfl, hi (·.y) rfl, hi (·.z) rfl]
    unfold rsub radd rscale
    congr 1 <;> ring
  rw [e1, rnorm_rscale, (M3.IsRotation.norm (M3.IsRotation.transpose hrot)), exhaustVelocity_single e hT hI.ne', rnorm_rscale,
    direction_unit, abs_of_pos (a := e.isp * 9.80665) (mul_pos hI (by norm_num))]
  ring

/-- An attitude held by constant coefficients. -/
theorem keepsAttitude_of_constant {p : Phase XR} {roll yaw pitch : ℝ}
    (h : ∀ x ∈ [(p.steering.roll, roll), (p.steering.yaw, yaw), (p.steering.pitch, pitch)],
      IsTime x.1.var ∧ x.1.c0 = .fin x.2 ∧ x.1.c1 = .fin 0 ∧ x.1.c2 = .fin 0 ∧ x.1.c3 = .fin 0) :
    KeepsAttitude p (rad roll) (rad yaw) (rad pitch) := by
  intro s d t te m r v ht hte _ _ _ hd
  have key : ∀ (x : Axis XR) (c : ℝ), (IsTime x.var ∧ x.c0 = .fin c ∧ x.c1 = .fin 0 ∧ x.c2 = .fin 0 ∧
      x.c3 = .fin 0) → x.angle (p.atSteering s) = .fin (rad c) := by
    rintro x c ⟨hx, e0, e1, e2, e3⟩
    rcases hx with hx | hx
    · rw [C16_axis_angle (y := t) (by rw [hx]; exact ht) e0 e1 e2 e3]; simp [cubic, rad]
    · rw [C16_axis_angle (y := te) (by rw [hx]; exact hte) e0 e1 e2 e3]; simp [cubic, rad]
  simp only [List.mem_cons, List.not_mem_nil, or_false, forall_eq_or_imp, forall_eq] at h
  obtain ⟨aero, _, _, rfl⟩ := Phase.system_ok hd
  show p.steering.eulerAngles (p.atSteering s) = _
  unfold Steering.eulerAngles
  rw [key _ _ h.1, key _ _ h.2.1, key _ _ h.2.2]

/-- A vehicle of one engine with exhaust speed 9.80665 and consumption one, far from everything. -/
def exampleRocket : Phase XR :=
  { Phase.default with
    planet := realPlanet 1 1 0 0 0 0 0
    vehicle := { Vehicle.default with engines := [(⟨9.80665, 1, 0, 0, 0⟩ : RealEngine).toEngine] } }

theorem exampleRocket_keeps : KeepsAttitude exampleRocket (rad 0) (rad 0) (rad 0) := by
  refine keepsAttitude_of_constant ?_
  have h : IsTime (Axis.default : Axis XR).var ∧ (Axis.default : Axis XR).c0 = .fin 0 ∧
      (Axis.default : Axis XR).c1 = .fin 0 ∧ (Axis.default : Axis XR).c2 = .fin 0 ∧
      (Axis.default : Axis XR).c3 = .fin 0 :=
    ⟨.inl rfl, XR.fin_zero, XR.fin_zero, XR.fin_zero, XR.fin_zero⟩
  intro x hx
  simp only [List.mem_cons, List.not_mem_nil, or_false] at hx
  rcases hx with rfl | rfl | rfl <;> exact h

/-- It flies for half a second: all hypotheses of `C68_ideal_velocity` can be met. -/
theorem exampleRocket_flies : Flies exampleRocket 0
    (fun t => ⟨5 + 9.80665 * ((1 - t) * Real.log (1 - t) + t), 0, 0⟩)
    (fun t => ⟨-9.80665 * Real.log (1 - t), 0, 0⟩) (fun t => 1 - t) 0 (1 / 2) := by
  refine ⟨by norm_num, fun t ht => ⟨?_, by linarith [ht.2]⟩⟩
  have hm : 0 < 1 - t := by linarith [ht.2]
  have hx : 0 < 5 + 9.80665 * ((1 - t) * Real.log (1 - t) + t) := by
    have h1 := Real.one_sub_inv_le_log_of_pos hm
    have h2 : (1 - t) * (1 - (1 - t)⁻¹) ≤ (1 - t) * Real.log (1 - t) :=
      mul_le_mul_of_nonneg_left h1 hm.le
    rw [mul_sub, mul_inv_cancel₀ hm.ne'] at h2
    nlinarith
  have hr0 : (⟨5 + 9.80665 * ((1 - t) * Real.log (1 - t) + t), 0, 0⟩ : V3 ℝ) ≠ ⟨0, 0, 0⟩ := by
    intro h
    rw [V3.mk.injEq] at h
    linarith [h.1]
  have hE : HasEngines exampleRocket.vehicle [⟨9.80665, 1, 0, 0, 0⟩] := rfl
  let s : State XR := State.fromVec (vec2 (.fin t) (.fin (t - 0)))
    (vfin (vec7 (5 + 9.80665 * ((1 - t) * Real.log (1 - t) + t)) 0 0
      (-9.80665 * Real.log (1 - t)) 0 0 (1 - t)))
  have hvac : exampleRocket.atmosphere.model = .noAtmosphere := rfl
  obtain ⟨f, hf⟩ := Vehicle.aeroForce_ok (v := exampleRocket.vehicle)
    ⟨default_wellFormed, default_wellFormed, default_wellFormed⟩ (exampleRocket.systemPre s)
  obtain ⟨d, hd⟩ := C15_never_aborts (p := exampleRocket) (s := s) rfl hE rfl hm
    (systemPre_vacuum hvac s).2.1 (by
      rw [hf]; exact congrArg _ (aeroForce_of_zero_q (systemPre_vacuum hvac s).2.2.2 hf))
  have he := exampleRocket_keeps s d t (t - 0) (1 - t)
    ⟨5 + 9.80665 * ((1 - t) * Real.log (1 - t) + t), 0, 0⟩ ⟨-9.80665 * Real.log (1 - t), 0, 0⟩
    rfl rfl rfl rfl rfl hd
  have hM : inertialToBody exampleRocket.launch d.eulerAngles =
      M3.fin ⟨⟨1, 0, 0⟩, ⟨0, 1, 0⟩, ⟨0, 0, 1⟩⟩ := by
    rw [he, show exampleRocket.launch = ⟨.fin 0, .fin 0, .fin 0⟩ by
      simp only [exampleRocket, Phase.default, XR.fin_zero]]
    unfold inertialToBody
    rw [launchToBody_fin, inertialToLaunch_fin, M3.fin_mul]
    simp [rad, launchMat, rmul, turnX, turnY, turnZ, rdot, up, east, north, M3.col1, M3.col2, M3.col3]
  obtain ⟨k, hk, hflow, hacc⟩ := system_powered hE (by simp) hvac hd (m := 1 - t) rfl hm.ne' hM
  have hk1 : k = 1 := by
    have := system_unlimited_throttle (p := exampleRocket) rfl hd (m := 1 - t) rfl hm
    rw [hk, XR.fin_inj] at this
    exact this
  subst hk1
  have hq : fullConsumption [(⟨9.80665, 1, 0, 0, 0⟩ : RealEngine)] = 1 := by
    norm_num [fullConsumption, RealEngine.consumption]
  have hF : fullThrust [(⟨9.80665, 1, 0, 0, 0⟩ : RealEngine)] 0 = ⟨9.80665, 0, 0⟩ := by
    norm_num [fullThrust, RealEngine.thrustAt, rsum, RealEngine.direction, rscale]
  rw [hq] at hflow
  rw [hF, show exampleRocket.planet = realPlanet 1 1 0 0 0 0 0 from rfl,
    show s.position = V3.fin ⟨5 + 9.80665 * ((1 - t) * Real.log (1 - t) + t), 0, 0⟩ from rfl,
    gravity_grav _ _ _ _ _ _ _ hr0, V3.fin_add] at hacc
  have hlog : HasDerivAt (fun t : ℝ => Real.log (1 - t)) (-1 / (1 - t)) t :=
    ((hasDerivAt_id t).const_sub 1).log hm.ne'
  have hone : HasDerivAt (fun t : ℝ => 1 - t) (-1) t := (hasDerivAt_id t).const_sub 1
  refine ⟨s, d, _, _, rfl, rfl, rfl, rfl, rfl, hd, hacc, hflow, ⟨?_, hasDerivAt_const _ _,
    hasDerivAt_const _ _⟩, ⟨?_, ?_, ?_⟩, ?_⟩
  · refine ((((hone.fun_mul hlog).fun_add (hasDerivAt_id t)).const_mul 9.80665).const_add 5).congr_deriv ?_
    field_simp
    ring
  · refine (hlog.const_mul (-9.80665)).congr_deriv ?_
    simp [rscale, rmulVec, rdot, M3.transpose, M3.col1, M3.col2, M3.col3, grav]
    ring
  · refine (hasDerivAt_const t (0 : ℝ)).congr_deriv ?_
    simp [rscale, rmulVec, rdot, M3.transpose, M3.col1, M3.col2, M3.col3, grav]
  · refine (hasDerivAt_const t (0 : ℝ)).congr_deriv ?_
    simp [rscale, rmulVec, rdot, M3.transpose, M3.col1, M3.col2, M3.col3, grav]
  · refine hone.congr_deriv ?_
    norm_num

/-- The velocity gained in that half second. -/
example : ∃ r v m, Flies exampleRocket 0 r v m 0 (1 / 2) ∧
    rnorm (rsub (v (1 / 2)) (v 0)) = 1 * 9.80665 * |Real.log (m 0 / m (1 / 2))| ∧
    m 0 / m (1 / 2) = 2 :=
  ⟨_, _, _, exampleRocket_flies,
    C68_ideal_velocity (p := exampleRocket) (e := ⟨9.80665, 1, 0, 0, 0⟩) (lat := 0) (long := 0) (az := 0) rfl
      (by norm_num) (by norm_num) rfl rfl (by simp only [exampleRocket, Phase.default, XR.fin_zero])
      exampleRocket_keeps exampleRocket_flies, by norm_num⟩

end
end Post
