import Verif.Lemmas.AttitudeF64
import Verif.Props.DoubleLaunch
import Verif.Props.DoubleTrack
/-! # C94: the attitude in double precision -/

set_option exponentiation.threshold 2000

namespace Post
open Spec Flt F64
variable {L : Libm}

/-- C94 (angles).  In every state a phase visits, each Euler angle is the cubic of the value that the variable of this
axis has in that same state (for variables known before steering), converted to radians; the error is at most 4.5e-17
times the sum of the sizes of the four terms in degrees (that is, three units in the fifteenth digit). -/
theorem C94_angle (hL : GoodLibrary L) {p : Phase (F64 L)} {s : State (F64 L)} (hs : Visited p s) (a : AxisName)
    (hearly : (a.axis p.steering).var ∈ beforeSteering) {y c0 c1 c2 c3 : ℝ}
    (hy : Reads ((a.axis p.steering).var.getValue s) y) (h0 : Reads (a.axis p.steering).c0 c0)
    (h1 : Reads (a.axis p.steering).c1 c1) (h2 : Reads (a.axis p.steering).c2 c2) (h3 : Reads (a.axis p.steering).c3 c3)
    (hY : |y| ≤ 1e9) (hc0 : |c0| ≤ 1e9) (hc1 : |c1| ≤ 1e9) (hc2 : |c2| ≤ 1e9) (hc3 : |c3| ≤ 1e9) {T : ℝ}
    (hT : |c0| + |c1 * y| + |c2 * y ^ 2| + |c3 * y ^ 3| ≤ T) (hT' : T ≤ 1e6) :
    WithinOf (a.angle s.eulerAngles) (rad (cubic c0 c1 c2 c3 y)) (4.5e-17 * T + 1e-30) := by
  obtain ⟨s1, h⟩ := hs.system
  rw [getValue_after_steering hearly h] at hy
  have hang : s.eulerAngles = p.steering.eulerAngles (p.atSteering s1) := by
    obtain ⟨aero, _, _, rfl⟩ := Phase.system_ok h
    rfl
  rw [hang]
  have := (axisAngle_near hL hy h0 h1 h2 h3 hY hc0 hc1 hc2 hc3 hT hT').withinOf
  cases a <;> exact this

/-- C94 (events).  Where one phase follows another, the angle of an axis steered by the time since the event starts with
the value with which the phase before ended, up to a fraction of 4e-15 (a rotation by a right angle is continued to within
1.5e-9 seconds of arc). -/
theorem C94_handover (hL : GoodLibrary L) (a : AxisName) {prev p : Phase (F64 L)} {c : PhaseConfig (F64 L)}
    {s0 : State (F64 L)} (hnew : Phase.new (some prev) c = .ok p) (h0 : p.reset.system p.reset.state = .ok s0)
    (hvar : (a.axis p.steering).var = .timeSinceEvent) {φ c1 c2 c3 : ℝ} (hφ : Reads (a.angle prev.state.eulerAngles) φ)
    (hφ' : |φ| ≤ 1000) (h1 : Reads (a.axis p.steering).c1 c1) (h2 : Reads (a.axis p.steering).c2 c2)
    (h3 : Reads (a.axis p.steering).c3 c3) (hc1 : |c1| ≤ 1e9) (hc2 : |c2| ≤ 1e9) (hc3 : |c3| ≤ 1e9) :
    WithinOf (a.angle s0.eulerAngles) φ (4e-15 * |φ| + 1e-29) := by
  have hvis : Visited p.reset s0 := ⟨s0, [], _, h0, .nil _, .inl rfl⟩
  have hv : (a.axis p.reset.steering).var = .timeSinceEvent := by cases a <;> exact hvar
  have hy : Reads ((a.axis p.reset.steering).var.getValue s0) 0 := by
    rw [hv]
    show Reads s0.timeSinceEvent 0
    rw [(Phase.system_primary h0).2.1]
    exact reads_zero
  have hφ0 := abs_nonneg φ
  have hpi := Real.pi_pos
  have hpi3 := Real.pi_gt_d4
  have hpi4 := Real.pi_lt_d4
  have hk : |φ * (180 / Real.pi)| ≤ 57.3 * |φ| := by
    rw [abs_mul, mul_comm]
    refine mul_le_mul_of_nonneg_right ?_ hφ0
    rw [abs_of_pos (by positivity), div_le_iff₀ hpi]
    norm_num at *
    linarith
  have hc := C16_constant_term hnew a
  simp only at hc
  obtain ⟨c0, k1, k2⟩ := toDegrees_near hφ hφ'
  rw [← hc] at k1
  have hc0 := Near.big k2 hk
  have hc0' : |(c0 : ℝ)| ≤ 57.4 * |φ| + 1e-38 := by
    refine hc0.trans ?_
    norm_num at hφ' ⊢
    linarith
  obtain ⟨r, g1, g2⟩ := C94_angle hL hvis a (by rw [hv]; decide) hy ⟨c0, k1, rfl⟩
    (by cases a <;> exact h1) (by cases a <;> exact h2) (by cases a <;> exact h3) (by norm_num)
    (by refine hc0'.trans ?_; norm_num at hφ' ⊢; linarith) hc1 hc2 hc3 (T := 57.4 * |φ| + 1e-38) (by simpa using hc0')
    (by norm_num at hφ' ⊢; linarith)
  refine ⟨r, g1, ?_⟩
  have hr : |rad (cubic c0 c1 c2 c3 0) - φ| ≤ 0.01746 * (2.5e-14 * |φ| + 1e-39) := by
    have e : rad (cubic c0 c1 c2 c3 0) - φ = rad (c0 - φ * (180 / Real.pi)) := by
      unfold rad cubic
      field_simp
      ring
    rw [e]
    exact abs_rad_le k2
  have := abs_sub_le r (rad (cubic c0 c1 c2 c3 0)) φ
  generalize r - rad (cubic c0 c1 c2 c3 0) = A at *
  generalize rad (cubic c0 c1 c2 c3 0) - φ = B at *
  clear hk hc0 hc0' k2
  norm_num at *
  linarith [abs_nonneg φ]

/-- C94 (frame).  The change from the inertial frame to the frame of the vehicle, with the launch frame of the phase and
the reported Euler angles, differs in each entry by at most 7e-13 from the exact rotation with these angles. -/
theorem C94_frame (hF : FrameLibrary L) {p : Phase (F64 L)} {s : State (F64 L)} {lat long az roll yaw pitch : ℝ}
    (hp : LaunchAngles p lat long az) (hs : AttitudeAngles s roll yaw pitch) :
    (bodyFrame lat long az roll yaw pitch).IsRotation ∧
      CloseMatrix (inertialToBody p.launch s.eulerAngles) (bodyFrame lat long az roll yaw pitch) 7e-13 :=
  ⟨bodyFrame_isRotation _ _ _ _ _ _, bodyRotation_near hF hp hs⟩

/-- C94 (acceleration).  In every state visited, the reported acceleration is the reported sensed acceleration, turned from
the frame of the vehicle into the inertial frame by the exact rotation with the reported angles, plus the reported
acceleration of gravity; the error is at most 4e-12 times the size of the sensed acceleration and 1e-13 metres per second
squared. -/
theorem C94_acceleration (hF : FrameLibrary L) {p : Phase (F64 L)} {s : State (F64 L)} (hs : Visited p s)
    {lat long az roll yaw pitch : ℝ} (hp : LaunchAngles p lat long az) (ha : AttitudeAngles s roll yaw pitch)
    {b g : V3 ℝ} (hb : ReadsV s.vehicleAccelerationBody b) (hg : ReadsV s.gravityAcceleration g) (hb' : rnorm b ≤ 1e6)
    (hg' : rnorm g ≤ 100) :
    ∃ u, ReadsV s.acceleration u ∧
      rdist u (radd (rmulVecT (bodyFrame lat long az roll yaw pitch) b) g) ≤ 4e-12 * rnorm b + 1e-13 := by
  rw [(C57_visited_consistent hs).acceleration]
  have hR := bodyFrame_isRotation lat long az roll yaw pitch
  obtain ⟨nx, ny, nz⟩ := unrotate_near hR (bodyRotation_near hF hp ha) hb le_rfl (hb'.trans (by norm_num))
  have hb0 : 0 ≤ rnorm b := Real.sqrt_nonneg _
  obtain ⟨⟨a1, a2, a3⟩, ⟨a4, a5, a6⟩, a7, a8, a9⟩ := abs_entries hR
  have hT : rnorm (rmulVecT (bodyFrame lat long az roll yaw pitch) b) = rnorm b := hR.transpose.norm b
  obtain ⟨t1, t2, t3⟩ := comp_le_rnorm (rmulVecT (bodyFrame lat long az roll yaw pitch) b)
  rw [hT] at t1 t2 t3
  obtain ⟨g1, g2, g3⟩ := comp_le_rnorm g
  obtain ⟨r1, r2, r3⟩ := readsV_near hg
  have key : ∀ {x y : F64 L} {ξ η : ℝ}, Near x ξ (2.2e-12 * rnorm b + 1e-38) → Near y η 0 → |ξ| ≤ rnorm b → |η| ≤ rnorm g →
      Near (x + y) (ξ + η) (2.21e-12 * rnorm b + 2e-14) := by
    intro x y ξ η h1 h2 h3 h4
    have h5 : |ξ + η| ≤ rnorm b + 100 := abs_add_le' h3 (h4.trans hg') le_rfl
    refine h1.add h2 h5 ?_ ?_ <;> clear h1 h2 nx ny nz <;> norm_num at * <;> linarith
  have hN : NearV ((inertialToBody p.launch s.eulerAngles).transpose.mulVec s.vehicleAccelerationBody + s.gravityAcceleration)
      (radd (rmulVecT (bodyFrame lat long az roll yaw pitch) b) g) (2.21e-12 * rnorm b + 2e-14) :=
    ⟨key nx r1 t1 g1, key ny r2 t2 g2, key nz r3 t3 g3⟩
  exact hN.readsV (by norm_num at *; linarith)

/-- C94 (angle of attack).  In every state visited, let `w` be the reported velocity relative to the air, turned into the
frame of the vehicle by the exact rotation with the reported angles.  If its forward component is at least one thousandth of
the speed, and one millimetre per second, the reported angle of attack is that between the forward axis and the velocity in
the pitch plane, up to 1.5e-11 times the ratio of speed to forward component. -/
theorem C94_alpha (hF : FrameLibrary L) (hA : LaunchLibrary L) {p : Phase (F64 L)} {s : State (F64 L)} (hs : Visited p s)
    {lat long az roll yaw pitch : ℝ} (hp : LaunchAngles p lat long az) (ha : AttitudeAngles s roll yaw pitch)
    {v w : V3 ℝ} (hv : ReadsV s.velocityAtmosphere v) (hv' : rnorm v ≤ 1e8)
    (hw : w = rmulVec (bodyFrame lat long az roll yaw pitch) v) (hx : 1e-3 ≤ w.x) (hx' : 1e-3 * rnorm v ≤ w.x) :
    WithinOf s.alpha (Real.arctan (w.z / w.x)) (1.5e-11 * (rnorm v / w.x)) := by
  rw [(C57_visited_consistent hs).alpha]
  have hR := bodyFrame_isRotation lat long az roll yaw pitch
  have h := rotate_near' hR (bodyRotation_near hF hp ha) hv le_rfl hv'
  have hn : rnorm w = rnorm v := by rw [hw]; exact hR.norm v
  rw [← hw] at h
  have hx0 : 0 < w.x := lt_of_lt_of_le (by norm_num) hx
  obtain ⟨t1, t2, t3⟩ := comp_le_rnorm w
  rw [hn] at t1 t3
  rw [abs_of_pos hx0] at t1
  have hQ : 1 ≤ rnorm v / w.x := by rwa [le_div_iff₀ hx0, one_mul]
  have hQ' : rnorm v / w.x ≤ 1e3 := by
    rw [div_le_iff₀ hx0]
    norm_num at *
    linarith
  have hQe : rnorm v = rnorm v / w.x * w.x := by field_simp
  have := alpha_near hA h hx (D := 2.3e-12 * (rnorm v / w.x)) (by norm_num at *; linarith) (by
    rw [mul_assoc, ← hQe]
    norm_num at *
    linarith) (by norm_num at *; linarith)
  obtain ⟨r, h1, h2⟩ := this
  refine ⟨r, h1, h2.trans ?_⟩
  norm_num at *
  linarith

/-! ## Example -/

theorem sin_zero_full : (Flt.sin 0 : F64 fullLibm) = 0 := by
  have h := sin_zero_trig
  exact congrArg (fun y : F64 trigLibm => (⟨y.dbl⟩ : F64 fullLibm)) h

theorem cos_zero_full : (Flt.cos 0 : F64 fullLibm) = 1 := by
  have h := cos_zero_trig
  exact congrArg (fun y : F64 trigLibm => (⟨y.dbl⟩ : F64 fullLibm)) h

theorem oneEngine_thrust_full :
    ReadsV ((oneEngine : Vehicle (F64 fullLibm)).thrustForce 1 0) ⟨1000000, 0, 0⟩ := by
  have e1 : ((oneEngine : Vehicle (F64 fullLibm)).thrustForce 1 0) = ⟨1000000, 0, 0⟩ := by
    unfold Vehicle.thrustForce oneEngine Engine.thrust
    simp only [List.map_cons, List.map_nil, sin_zero_full, cos_zero_full]
    unfold V3.sum V3.smul V3.mulS
    simp only [List.foldl_cons, List.foldl_nil]
    rw [V3.mk.injEq]
    refine ⟨?_, ?_, ?_⟩
    · refine congrArg (F64.mk (L := fullLibm)) (show Dbl.mul (.round false (1 * 10 ^ 0)) (Dbl.add (.round false (0 * 10 ^ 0))
        (Dbl.mul (Dbl.mul (.round false (1 * 10 ^ 0)) (.round false (1 * 10 ^ 0))) (Dbl.add
          (.round false (1000000 * 10 ^ 0)) (Dbl.neg (Dbl.mul (.round false (0 * 10 ^ 0)) (.round false (0 * 10 ^ 0))))))) =
            .round false (1000000 * 10 ^ 0) from ?_)
      decide +kernel
    · refine congrArg (F64.mk (L := fullLibm)) (show Dbl.mul (.round false (1 * 10 ^ 0)) (Dbl.add (.round false (0 * 10 ^ 0))
        (Dbl.mul (.round false (0 * 10 ^ 0)) (Dbl.add
          (.round false (1000000 * 10 ^ 0)) (Dbl.neg (Dbl.mul (.round false (0 * 10 ^ 0)) (.round false (0 * 10 ^ 0))))))) =
            .round false (0 * 10 ^ 0) from ?_)
      decide +kernel
    · refine congrArg (F64.mk (L := fullLibm)) (show Dbl.mul (.round false (1 * 10 ^ 0)) (Dbl.add (.round false (0 * 10 ^ 0))
        (Dbl.mul (Dbl.mul (.round false (1 * 10 ^ 0)) (.round false (0 * 10 ^ 0))) (Dbl.add
          (.round false (1000000 * 10 ^ 0)) (Dbl.neg (Dbl.mul (.round false (0 * 10 ^ 0)) (.round false (0 * 10 ^ 0))))))) =
            .round false (0 * 10 ^ 0) from ?_)
      decide +kernel
  rw [e1]
  have h1 : Reads (1000000 : F64 fullLibm) 1000000 := by simpa using reads_nat (L := fullLibm) 1000000 (by norm_num)
  exact ⟨h1, reads_zero, reads_zero⟩

/-- A vehicle of 1000 kg over the equator, rising with 5000 m/s, with an engine of 1000 kN and a limit of 30 m/s², which
turns by one degree per second about the pitch axis; 45 seconds have passed. -/
noncomputable def exampleTurning : Phase (F64 fullLibm) :=
  { Phase.default with
    vehicle := oneEngine
    maxAcceleration := 30
    steering := ⟨.default, .default, ⟨.time, 0, -1, 0, 0⟩⟩
    planet := EARTH_SMITHSONIAN
    state := { State.default with time := 45, position := ⟨7000000, 0, 0⟩, velocity := ⟨5000, 0, 0⟩, mass := 1000 } }

/-- The hypotheses of all theorems on visited states are met: the vehicle is pitched by 45 degrees, it is accelerated
by 29.7 to 30.003 m/s² in the direction of the engine and falls, and the air comes from below at about 45 degrees. -/
example : ∃ s roll yaw pitch b g u, ∃ v w : V3 ℝ, Visited exampleTurning s ∧
    (AttitudeAngles s roll yaw pitch ∧ |roll| ≤ 1e-30 ∧ |yaw| ≤ 1e-30 ∧ |pitch - rad (-45)| ≤ 3e-15) ∧
    CloseMatrix (inertialToBody exampleTurning.launch s.eulerAngles) (bodyFrame 0 0 0 roll yaw pitch) 7e-13 ∧
    (ReadsV s.vehicleAccelerationBody b ∧ ReadsV s.gravityAcceleration g ∧ ReadsV s.acceleration u ∧ rnorm b ≤ 30.003 ∧
      rdist u (radd (rmulVecT (bodyFrame 0 0 0 roll yaw pitch) b) g) ≤ 3e-10) ∧
    ReadsV s.velocityAtmosphere v ∧ w = rmulVec (bodyFrame 0 0 0 roll yaw pitch) v ∧ 3000 ≤ w.x ∧
      WithinOf s.alpha (Real.arctan (w.z / w.x)) 3e-11 := by
  have hz : Reads (0 : F64 fullLibm) 0 := reads_zero
  have h30 : Reads (30 : F64 fullLibm) 30 := by simpa using reads_nat (L := fullLibm) 30 (by norm_num)
  have h1000 : Reads (1000 : F64 fullLibm) 1000 := by simpa using reads_nat (L := fullLibm) 1000 (by norm_num)
  obtain ⟨s, k, b, hs, _, _, _, hb, hb', _⟩ := C85_vacuum (p := exampleTurning) fullLibm_trig exampleTurning.state rfl
    ⟨wellFormed_default, wellFormed_default, wellFormed_default⟩ h30 (by norm_num) (by norm_num) h1000 (by norm_num)
    (by norm_num) oneEngine_thrust_full (by rw [rnorm_x] <;> norm_num) (by rw [rnorm_x] <;> norm_num)
  have hvis : Visited exampleTurning s := ⟨s, [], _, hs, .nil _, .inl rfl⟩
  have hpr := Phase.system_primary hs
  have hread : ReadsV s.position ⟨7000000, 0, 0⟩ := by
    rw [hpr.2.2.1]
    have h9 : Reads (7000000 : F64 fullLibm) 7000000 := by simpa using reads_nat (L := fullLibm) 7000000 (by norm_num)
    exact ⟨h9, hz, hz⟩
  have hvel : ReadsV s.velocity ⟨5000, 0, 0⟩ := by
    rw [hpr.2.2.2.1]
    have h9 : Reads (5000 : F64 fullLibm) 5000 := by simpa using reads_nat (L := fullLibm) 5000 (by norm_num)
    exact ⟨h9, hz, hz⟩
  have htime : Reads s.time 45 := by
    rw [hpr.1]
    have h9 : Reads (45 : F64 fullLibm) 45 := by simpa using reads_nat (L := fullLibm) 45 (by norm_num)
    exact h9
  have hone : Reads (-1 : F64 fullLibm) (-1) := ⟨-1, is_neg is_one, by norm_num⟩
  obtain ⟨roll, hroll, hroll'⟩ := C94_angle fullLibm_good hvis .roll (by decide) htime hz hz hz hz (T := 0)
    (by norm_num [abs_of_pos]) (by norm_num) (by norm_num) (by norm_num) (by norm_num) (by norm_num) (by norm_num)
  obtain ⟨yaw, hyaw, hyaw'⟩ := C94_angle fullLibm_good hvis .yaw (by decide) htime hz hz hz hz (T := 0)
    (by norm_num [abs_of_pos]) (by norm_num) (by norm_num) (by norm_num) (by norm_num) (by norm_num) (by norm_num)
  obtain ⟨pitch, hpitch, hpitch'⟩ := C94_angle fullLibm_good hvis .pitch (by decide) htime hz hone hz hz (T := 45)
    (by norm_num [abs_of_pos]) (by norm_num) (by norm_num) (by norm_num) (by norm_num) (by norm_num [abs_of_pos]) (by norm_num)
  have e0 : rad (cubic 0 0 0 0 45) = 0 := by norm_num [rad, cubic]
  have e1 : cubic 0 (-1) 0 0 45 = -45 := by norm_num [cubic]
  rw [e0, sub_zero] at hroll' hyaw'
  rw [e1] at hpitch'
  have e2 : rad (-45) = -(Real.pi / 4) := by unfold rad; ring
  have hpi3 := Real.pi_gt_d4
  have hpi4 := Real.pi_lt_d4
  have hatt : AttitudeAngles s roll yaw pitch := by
    refine ⟨⟨hroll, hyaw, hpitch⟩, ?_, ?_, ?_⟩
    · refine hroll'.trans ?_; norm_num
    · refine hyaw'.trans ?_; norm_num
    · rw [e2] at hpitch'
      rw [abs_le] at hpitch' ⊢
      norm_num at hpitch' hpi3 hpi4
      constructor <;> linarith [hpitch'.1, hpitch'.2]
  have hlaunch : LaunchAngles exampleTurning 0 0 0 := ⟨⟨hz, hz, hz⟩, by norm_num, by norm_num, by norm_num⟩
  have f3 : (EARTH_SMITHSONIAN : Planet XR).rotationRate = .fin 7.29211e-5 := by
    show (7.29211e-5 : XR) = _
    rw [XR.fin_sci]
  have hn : rnorm ⟨7000000, 0, 0⟩ = 7000000 := rnorm_x _ (by norm_num)
  have hn5 : rnorm ⟨5000, 0, 0⟩ = 5000 := rnorm_x _ (by norm_num)
  have hE : SameEarth exampleTurning.planet (EARTH_SMITHSONIAN : Planet XR) := .inr (.inr ⟨rfl, rfl⟩)
  obtain ⟨v, hv, hv'⟩ := (C91_velocity hE f3 hvis hread hvel (by rw [hn]; norm_num) (by rw [hn5]; norm_num)).2
    ⟨0, 0, 0⟩ ⟨hz, hz, hz⟩ (by rw [rnorm_x _ le_rfl]; norm_num)
  obtain ⟨a, b', μ, j2, j3, j4, ω, hQ, hIE, hNE⟩ := same_earth hE
  have hgrav := gravity_near fullLibm_good hNE (readsV_near hread) (by rw [hn]; norm_num) (by rw [hn]; norm_num)
  obtain ⟨g, hg, hg'⟩ := hgrav.readsV (E := 1e-10) (by norm_num)
  rw [← (C57_visited_consistent hvis).gravityAcceleration] at hg
  obtain ⟨gC, H⟩ := earth_field (hQ ▸ hIE)
  have hg32 : rnorm (grav a μ j2 j3 j4 ⟨7000000, 0, 0⟩) ≤ 32.12 := by
    have := H.size (by norm_num) (x := e3 ⟨7000000, 0, 0⟩) (by rw [norm_e3, hn]; norm_num)
    rwa [field_e3, norm_e3] at this
  have hg100 : rnorm g ≤ 100 := by
    have := rnorm_triangle g (grav a μ j2 j3 j4 ⟨7000000, 0, 0⟩)
    norm_num at this hg32 hg' ⊢
    linarith
  norm_num at hb'
  obtain ⟨u, hu, hu'⟩ := C94_acceleration fullLibm_frame hvis hlaunch hatt hb hg (hb'.trans (by norm_num)) hg100
  -- the air velocity
  have ev : rsub (rsub ⟨5000, 0, 0⟩ (rcross ⟨0, 0, 7.29211e-5⟩ ⟨7000000, 0, 0⟩)) ⟨0, 0, 0⟩ = ⟨5000, -510.4477, 0⟩ := by
    unfold rsub rcross
    norm_num
  rw [ev] at hv'
  obtain ⟨d1, d2, d3⟩ := comp_le_rnorm (rsub v ⟨5000, -510.4477, 0⟩)
  replace d1 : |v.x - 5000| ≤ 8e-11 := d1.trans hv'
  replace d2 : |v.y + 510.4477| ≤ 8e-11 := by
    have e : v.y + 510.4477 = v.y - (-510.4477) := by ring
    rw [e]
    exact d2.trans hv'
  replace d3 : |v.z| ≤ 8e-11 := by
    have := d3.trans hv'
    simpa [rsub] using this
  have hnv : rnorm v ≤ 5600 := by
    have h1 := rnorm_triangle v ⟨5000, -510.4477, 0⟩
    have h2 : rnorm ⟨5000, -510.4477, 0⟩ ≤ 5100 := by
      unfold rnorm
      rw [Real.sqrt_le_left (by norm_num)]
      norm_num
    norm_num at h1 h2 hv' ⊢
    linarith
  have hwx : 3000 ≤ (rmulVec (bodyFrame 0 0 0 roll yaw pitch) v).x := by
    have hsr := (Real.abs_sin_le_abs (x := roll)).trans hroll'
    have hsy := (Real.abs_sin_le_abs (x := yaw)).trans hyaw'
    have hcy := Real.one_sub_sq_div_two_le_cos (x := yaw)
    have hcp : 0.7 ≤ Real.cos pitch := by
      have h1 := abs_cos_sub_le pitch (rad (-45))
      have h2 := h1.trans hpitch'
      rw [e2, Real.cos_neg, Real.cos_pi_div_four] at h2
      have h3 : (1.41 : ℝ) ≤ Real.sqrt 2 := by
        refine Real.le_sqrt_of_sq_le ?_
        norm_num
      have := (abs_le.1 h2).1
      norm_num at this h3 ⊢
      linarith
    have hcp1 := Real.cos_le_one pitch
    have hcr1 := Real.abs_cos_le_one roll
    have hsp1 := Real.abs_sin_le_one pitch
    have hcy1 := Real.cos_le_one yaw
    have ex : (rmulVec (bodyFrame 0 0 0 roll yaw pitch) v).x = Real.cos pitch * Real.cos yaw * v.x +
        (Real.cos pitch * Real.sin yaw * Real.cos roll + Real.sin pitch * Real.sin roll) * v.y +
        (Real.cos pitch * Real.sin yaw * Real.sin roll - Real.sin pitch * Real.cos roll) * v.z := by
      simp [rmulVec, bodyFrame, launchAxes, rmul, rdot, turnX, turnY, turnZ, up, east, north, M3.col1, M3.col2, M3.col3]
      ring
    have hcp' : |Real.cos pitch| ≤ 1 := Real.abs_cos_le_one _
    have hsy' : |Real.sin yaw| ≤ 1e-30 := by simpa using hsy
    have hsr' : |Real.sin roll| ≤ 1e-30 := by simpa using hsr
    have t1 : |(Real.cos pitch * Real.sin yaw * Real.cos roll + Real.sin pitch * Real.sin roll) * v.y| ≤ 1 := by
      have a1 : |Real.cos pitch * Real.sin yaw * Real.cos roll| ≤ 1e-30 :=
        abs_mul_le (abs_mul_le hcp' hsy' (M := 1e-30) (by norm_num)) hcr1 (by norm_num)
      have a2 : |Real.sin pitch * Real.sin roll| ≤ 1e-30 := abs_mul_le hsp1 hsr' (by norm_num)
      have a3 : |v.y| ≤ 511 := by
        rw [abs_le] at d2 ⊢
        norm_num at d2 ⊢
        constructor <;> linarith [d2.1, d2.2]
      exact abs_mul_le (abs_add_le' a1 a2 (M := 1e-20) (by norm_num)) a3 (by norm_num)
    have t2 : |(Real.cos pitch * Real.sin yaw * Real.sin roll - Real.sin pitch * Real.cos roll) * v.z| ≤ 1 := by
      have a1 : |Real.cos pitch * Real.sin yaw * Real.sin roll| ≤ 1e-30 :=
        abs_mul_le (abs_mul_le hcp' hsy' (M := 1e-30) (by norm_num)) (Real.abs_sin_le_one _) (by norm_num)
      have a2 : |-(Real.sin pitch * Real.cos roll)| ≤ 1 := by rw [abs_neg]; exact abs_mul_le hsp1 hcr1 (by norm_num)
      rw [sub_eq_add_neg]
      exact abs_mul_le (abs_add_le' a1 a2 (M := 2) (by norm_num)) d3 (by norm_num)
    have t3 : 0.99 ≤ Real.cos yaw := by
      have : yaw ^ 2 ≤ 1e-30 := by
        rw [← sq_abs]
        have h0 := abs_nonneg yaw
        norm_num at hyaw'
        nlinarith
      norm_num at this ⊢
      linarith
    have t4 : 0.69 ≤ Real.cos pitch * Real.cos yaw := by
      norm_num at hcp t3 ⊢
      nlinarith
    have t5 : 4999 ≤ v.x := by
      have := (abs_le.1 d1).1
      norm_num at this ⊢
      linarith
    have t6 : 3400 ≤ Real.cos pitch * Real.cos yaw * v.x := by
      generalize Real.cos pitch * Real.cos yaw = c at *
      norm_num at t4
      nlinarith
    rw [ex]
    linarith [(abs_le.1 t1).1, (abs_le.1 t2).1]
  obtain ⟨r, k1, k2⟩ := C94_alpha fullLibm_frame fullLibm_launch hvis hlaunch hatt hv (hnv.trans (by norm_num)) rfl
    (le_trans (by norm_num) hwx) (by norm_num at hnv hwx ⊢; linarith)
  refine ⟨s, roll, yaw, pitch, b, g, u, v, _, hvis, ⟨hatt, ?_, ?_, ?_⟩, (C94_frame fullLibm_frame hlaunch hatt).2,
    ⟨hb, hg, hu, hb'.trans (by norm_num), ?_⟩, hv, rfl, hwx, r, k1, k2.trans ?_⟩
  · simpa using hroll'
  · simpa using hyaw'
  · refine hpitch'.trans ?_; norm_num
  · norm_num at hu' hb' ⊢; linarith
  · have : rnorm v / (rmulVec (bodyFrame 0 0 0 roll yaw pitch) v).x ≤ 2 := by
      rw [div_le_iff₀ (lt_of_lt_of_le (by norm_num) hwx)]
      linarith
    norm_num at this ⊢
    linarith

/-- A phase that ended with a pitch angle of one radian, and a configuration of the next one. -/
noncomputable def exampleBefore : Phase (F64 fullLibm) :=
  { Phase.default with state := { State.default with eulerAngles := ⟨0, 0, 1⟩ } }

noncomputable def exampleNext : PhaseConfig (F64 fullLibm) :=
  { PhaseConfig.empty with steering := some ⟨none, none, some ⟨.timeSinceEvent, 2, 3, 4⟩⟩ }

/-- The next phase starts with this angle, up to 5e-15. -/
example : ∃ p s0, Phase.new (some exampleBefore) exampleNext = .ok p ∧ p.reset.system p.reset.state = .ok s0 ∧
    WithinOf s0.eulerAngles.pitch 1 5e-15 := by
  obtain ⟨s, hs⟩ := coasting_system (p := (exampleBefore.applyConfig exampleNext).reset) rfl rfl
    ⟨wellFormed_default, wellFormed_default, wellFormed_default⟩ (exampleBefore.applyConfig exampleNext).reset.state
  have h1 : Reads (1 : F64 fullLibm) 1 := ⟨1, is_one, by norm_num⟩
  have h2 : Reads (2 : F64 fullLibm) 2 := by simpa using reads_nat (L := fullLibm) 2 (by norm_num)
  have h3 : Reads (3 : F64 fullLibm) 3 := by simpa using reads_nat (L := fullLibm) 3 (by norm_num)
  have h4 : Reads (4 : F64 fullLibm) 4 := by simpa using reads_nat (L := fullLibm) 4 (by norm_num)
  refine ⟨_, s, rfl, hs, ?_⟩
  obtain ⟨r, k1, k2⟩ := C94_handover fullLibm_good .pitch (prev := exampleBefore) (c := exampleNext) rfl hs rfl h1 (by norm_num) h2 h3 h4
    (by norm_num) (by norm_num) (by norm_num)
  refine ⟨r, k1, k2.trans ?_⟩
  norm_num

end Post
