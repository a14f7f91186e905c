import Verif.Lemmas.Symmetry
import Verif.Lemmas.Mirror
import Verif.Props.Turn
/-! # C73: the hemispheres are alike.  Exact arithmetic. -/

namespace Post
open Spec Flt

variable {p : Phase XR} {s : State XR}

/-! ## Real vectors and frames -/

/-- a real vector mirrored at the plane of the equator -/
def rmirror (v : V3 ℝ) : V3 ℝ := ⟨v.x, v.y, -v.z⟩
/-- a real vector mirrored at the vertical plane of the body -/
def rmirrorBody (v : V3 ℝ) : V3 ℝ := ⟨v.x, -v.y, v.z⟩

theorem mirrorVec_fin (v : V3 ℝ) : mirrorVec v.fin = (rmirror v).fin := rfl
theorem mirrorBody_fin (v : V3 ℝ) : mirrorBody v.fin = (rmirrorBody v).fin := rfl

theorem rnorm_rmirror (v : V3 ℝ) : rnorm (rmirror v) = rnorm v := by
  unfold rnorm rmirror
  simp only [neg_sq]

theorem rmirror_ne_zero {v : V3 ℝ} (h : v ≠ ⟨0, 0, 0⟩) : rmirror v ≠ ⟨0, 0, 0⟩ := by
  intro h0
  rw [← rnorm_eq_zero, rnorm_rmirror, rnorm_eq_zero] at h0
  exact h h0

/-- the change of a frame: rows mirrored in space, the second one reversed -/
def mirrorRows (m : M3 ℝ) : M3 ℝ :=
  ⟨rmirror m.r1, ⟨-m.r2.x, -m.r2.y, m.r2.z⟩, rmirror m.r3⟩

theorem launchMat_mirror (lat long az : ℝ) :
    launchMat (-lat) long (Real.pi - az) = mirrorRows (launchMat lat long az) := by
  simp only [launchMat, mirrorRows, rmul, rdot, rmirror, up, east, north, turnX, M3.col1, M3.col2,
    M3.col3, Real.cos_neg, Real.sin_neg, Real.cos_pi_sub, Real.sin_pi_sub, M3.mk.injEq, V3.mk.injEq]
  refine ⟨⟨?_, ?_, ?_⟩, ⟨?_, ?_, ?_⟩, ⟨?_, ?_, ?_⟩⟩ <;> ring1

/-- the attitude seen in a mirror -/
theorem attitude_mirror (roll yaw pitch : ℝ) (m : M3 ℝ) :
    rmul (rmul (turnY pitch) (rmul (turnZ (-yaw)) (turnX (-roll)))) (mirrorRows m) =
      mirrorRows (rmul (rmul (turnY pitch) (rmul (turnZ yaw) (turnX roll))) m) := by
  simp only [mirrorRows, rmul, rdot, rmirror, turnX, turnY, turnZ, M3.col1, M3.col2, M3.col3,
    Real.cos_neg, Real.sin_neg, M3.mk.injEq, V3.mk.injEq]
  refine ⟨⟨?_, ?_, ?_⟩, ⟨?_, ?_, ?_⟩, ⟨?_, ?_, ?_⟩⟩ <;> ring1

theorem mirrorRows_mulVec (m : M3 ℝ) (v : V3 ℝ) :
    rmulVec (mirrorRows m) (rmirror v) = rmirrorBody (rmulVec m v) := by
  simp only [rmulVec, mirrorRows, rdot, rmirror, rmirrorBody, V3.mk.injEq]
  refine ⟨?_, ?_, ?_⟩ <;> ring1

theorem mirrorRows_transpose_mulVec (m : M3 ℝ) (w : V3 ℝ) :
    rmulVec (mirrorRows m).transpose (rmirrorBody w) = rmirror (rmulVec m.transpose w) := by
  simp only [rmulVec, mirrorRows, M3.transpose, rdot, rmirror, rmirrorBody, V3.mk.injEq, M3.col1,
    M3.col2, M3.col3]
  refine ⟨?_, ?_, ?_⟩ <;> ring1

theorem grav_rmirror (a μ j2 j4 : ℝ) (r : V3 ℝ) :
    grav a μ j2 0 j4 (rmirror r) = rmirror (grav a μ j2 0 j4 r) := by
  have hz : (rmirror r).z = -r.z := rfl
  have h1 : gravP a j2 0 j4 (rmirror r) = gravP a j2 0 j4 r := by
    unfold gravP
    simp only [rnorm_rmirror, hz]
    ring1
  have h2 : gravQ a j2 0 j4 (rmirror r) = -gravQ a j2 0 j4 r := by
    unfold gravQ
    simp only [rnorm_rmirror, hz]
    ring1
  unfold grav
  rw [h1, h2, rnorm_rmirror]
  simp only [rmirror, V3.mk.injEq]
  refine ⟨trivial, trivial, ?_⟩
  ring1

/-! ## The vehicle and the steering -/

noncomputable section

/-- the vehicle seen in a mirror -/
def mirrorVehicle (v : Vehicle XR) : Vehicle XR :=
  { v with sideForceCoeff := negTable v.sideForceCoeff, engines := v.engines.map mirrorEngine }

/-- the opposite turns about an axis -/
def negAxis (a : Axis XR) : Axis XR := ⟨a.var, -a.c0, -a.c1, -a.c2, -a.c3⟩

/-- the steering seen in a mirror -/
def mirrorSteering (s : Steering XR) : Steering XR := ⟨negAxis s.roll, negAxis s.yaw, s.pitch⟩

/-- the phase on the other hemisphere -/
def mirrorPhase (p : Phase XR) : Phase XR :=
  { p with
    state := mirrorState p.state
    vehicle := mirrorVehicle p.vehicle
    steering := mirrorSteering p.steering
    launch := ⟨-p.launch.lat, p.launch.long, .fin Real.pi - p.launch.az⟩
    atmosphere := { p.atmosphere with wind := mirrorVec p.atmosphere.wind } }

end

theorem mirror_thrustForce (v : Vehicle XR) (hv : ∀ e ∈ v.engines, RealEngineData e) (t pr : XR) :
    (mirrorVehicle v).thrustForce t pr = mirrorBody (v.thrustForce t pr) := by
  unfold Vehicle.thrustForce
  rw [mirrorBody_smul, mirrorBody_sum, List.map_map]
  have : (mirrorVehicle v).engines = v.engines.map mirrorEngine := rfl
  rw [this, List.map_map]
  congr 2
  apply List.map_congr_left
  intro e he
  obtain ⟨-, ⟨y, hy⟩, -⟩ := hv e he
  show (mirrorEngine e).thrust pr = mirrorBody (e.thrust pr)
  unfold Engine.thrust mirrorEngine mirrorBody V3.mulS
  simp only [hy, XR.fin_neg, XR.fin_sin, XR.fin_cos, Real.sin_neg, Real.cos_neg]
  rw [← XR.fin_neg, XR.neg_mul']

theorem mirror_massflow (v : Vehicle XR) (t : XR) :
    (mirrorVehicle v).massflow t = v.massflow t := by
  unfold Vehicle.massflow
  have : (mirrorVehicle v).engines = v.engines.map mirrorEngine := rfl
  rw [this, List.map_map]
  rfl

theorem mirror_autoThrottle (v : Vehicle XR) (hv : ∀ e ∈ v.engines, RealEngineData e) (a m pr : XR)
    (aero : V3 XR) : (mirrorVehicle v).autoThrottle a m pr (mirrorBody aero) =
      v.autoThrottle a m pr aero := by
  unfold Vehicle.autoThrottle
  simp only [mirror_thrustForce v hv, mirrorBody_beq, mirrorBody_angle, mirrorBody_norm]

theorem mirror_aeroForce (v : Vehicle XR) (s : State XR)
    (h : ∀ t ∈ [v.dragCoeff, v.liftCoeff, v.sideForceCoeff], t.atState (mirrorState s) = t.atState s) :
    (mirrorVehicle v).aeroForce (mirrorState s) = (v.aeroForce s).map mirrorBody := by
  unfold Vehicle.aeroForce
  have e1 : (mirrorVehicle v).dragCoeff = v.dragCoeff := rfl
  have e2 : (mirrorVehicle v).liftCoeff = v.liftCoeff := rfl
  have e3 : (mirrorVehicle v).sideForceCoeff = negTable v.sideForceCoeff := rfl
  rw [e1, e2, e3, negTable_atState, h v.dragCoeff (by simp), h v.liftCoeff (by simp),
    h v.sideForceCoeff (by simp)]
  cases v.dragCoeff.atState s with
  | error e => rfl
  | ok cd =>
    simp only [bind, Except.bind]
    cases v.liftCoeff.atState s with
    | error e => rfl
    | ok cl =>
      simp only
      cases v.sideForceCoeff.atState s with
      | error e => rfl
      | ok cy =>
        simp only [Except.map]
        congr 1
        show V3.map nanToZero (V3.smul _ _) = mirrorBody (V3.map nanToZero (V3.smul _ _))
        unfold V3.smul V3.map mirrorBody
        simp only [XR.mul_neg', nanToZero_neg]
        rfl

theorem negAxis_angle (a : Axis XR) (ha : RealAxis a) {s s' : State XR}
    (hv : IsReal (a.var.getValue s)) (he : a.var.getValue s' = a.var.getValue s) :
    (negAxis a).angle s' = -a.angle s := by
  obtain ⟨⟨c0, h0⟩, ⟨c1, h1⟩, ⟨c2, h2⟩, ⟨c3, h3⟩⟩ := ha
  obtain ⟨y, hy⟩ := hv
  have hy' : (negAxis a).var.getValue s' = .fin y := he.trans hy
  have n : ∀ {x : XR} {r : ℝ}, x = .fin r → -x = .fin (-r) := by rintro _ r rfl; rfl
  rw [C16_axis_angle hy h0 h1 h2 h3, C16_axis_angle (a := negAxis a) hy' (n h0) (n h1) (n h2) (n h3),
    XR.fin_neg]
  congr 1
  unfold cubic
  ring1

/-! ## The equations of motion -/

theorem mirror_default : mirrorState State.default = (State.default : State XR) := by
  unfold mirrorState State.default Angles.zero
  simp only [mirrorVec_zero, mirrorBody_zero, XR.neg_zero']

theorem getValue_mirror {v : StateVariable} (hv : MirrorEven v) (s : State XR) :
    v.getValue (mirrorState s) = v.getValue s := by
  unfold MirrorEven oddVariables at hv
  cases v <;> first
    | rfl
    | (exact absurd (by decide) hv)
    | exact mirrorVec_norm _
    | exact mirrorBody_norm _

theorem systemPlanet_mirror (hp : RealPhase p) (hj : SymmetricPlanet p.planet) (hs : s.Reals)
    (hr : Regular p.planet s) :
    (mirrorPhase p).systemPlanet (mirrorState s) = mirrorState (p.systemPlanet s) := by
  obtain ⟨a', b', m, r, hpa, hpb, hpos, hcore, hm, hm0⟩ := hr
  obtain ⟨a, b, μ, j2, j3, j4, ω, hpl, ha, hb⟩ := RealPlanetData.eq_real hp.planet
  have hj3 : j3 = 0 := by
    unfold SymmetricPlanet at hj
    rw [hpl] at hj
    exact (XR.fin_inj _ _).1 hj
  subst hj3
  have hr0 : r ≠ ⟨0, 0, 0⟩ := by
    rintro rfl
    rw [(rnorm_eq_zero _).2 rfl] at hcore
    linarith [abs_nonneg (a' - b')]
  have hr1 := rmirror_ne_zero hr0
  obtain ⟨v, hv⟩ := realVec_iff.1 hs.velocity
  obtain ⟨t, ht⟩ := hs.time
  have hω : (realPlanet a b μ j2 0 j4 ω).rotationRate = .fin ω := rfl
  have halt : p.planet.altitude (mirrorVec s.position) = p.planet.altitude s.position := by
    rw [hpos, mirrorVec_fin, hpl, altitude_fin (a := a) (b := b) rfl rfl ha.ne' hb.ne' hr0,
      altitude_fin (a := a) (b := b) rfl rfl ha.ne' hb.ne' hr1]
    unfold surfaceDistance
    rw [rnorm_rmirror]
    show XR.fin (rnorm r - a / Real.sqrt (1 + ((a / b) ^ 2 - 1) * (-r.z / rnorm r) ^ 2)) = _
    rw [neg_div, neg_sq]
  have hgeo : p.planet.geopotentialAltitude (mirrorVec s.position) =
      p.planet.geopotentialAltitude s.position := by
    unfold Planet.geopotentialAltitude
    rw [halt]
  have hplan : (inertialToPlanet s.time p.planet.rotationRate).mulVec (mirrorVec s.position) =
      mirrorVec ((inertialToPlanet s.time p.planet.rotationRate).mulVec s.position) := by
    rw [ht, hpl, hω, hpos, inertialToPlanet_fin, mirrorVec_fin, M3.fin_mulVec, M3.fin_mulVec,
      mirrorVec_fin, V3.fin_inj]
    simp only [rmulVec, turnZ, rdot, rmirror, V3.mk.injEq]
    refine ⟨?_, ?_, ?_⟩ <;> ring1
  have hvel : p.planet.velocityPlanet (mirrorVec s.position) (mirrorVec s.velocity) =
      mirrorVec (p.planet.velocityPlanet s.position s.velocity) := by
    rw [hpos, hv, hpl, mirrorVec_fin, mirrorVec_fin, velocityPlanet_fin hω, velocityPlanet_fin hω,
      mirrorVec_fin, V3.fin_inj]
    simp only [rmirror, rsub, rcross, V3.mk.injEq]
    refine ⟨?_, ?_, ?_⟩ <;> ring1
  have hgrav : p.planet.gravity (mirrorVec s.position) = mirrorVec (p.planet.gravity s.position) := by
    rw [hpos, hpl, mirrorVec_fin, gravity_grav a b μ j2 0 j4 ω hr0, gravity_grav a b μ j2 0 j4 ω hr1,
      mirrorVec_fin, grav_rmirror]
  unfold Phase.systemPlanet mirrorState
  have e1 : (mirrorPhase p).planet = p.planet := rfl
  have e2 : (mirrorPhase p).vehicle.structureMass = p.vehicle.structureMass := rfl
  simp only [e1, e2, halt, hgeo, hplan, hvel, hgrav]

theorem systemAir_mirror : (mirrorPhase p).systemAir (mirrorState s) =
    mirrorState (p.systemAir s) := by
  unfold Phase.systemAir Atmosphere.velocityAtmosphere
  have := mirrorVec_sub s.velocityPlanet p.atmosphere.wind
  unfold mirrorState
  simp only [this]
  rfl

theorem systemDynamic_mirror :
    (mirrorPhase p).systemDynamic (mirrorState s) = mirrorState (p.systemDynamic s) := by
  have e : ((mirrorState s).velocityAtmosphere).norm = s.velocityAtmosphere.norm := mirrorVec_norm _
  unfold Phase.systemDynamic Atmosphere.machNumber Atmosphere.dynamicPressure
  simp only [e]
  rfl

theorem bodyRotation_mirror (hp : RealPhase p) (hs : s.Reals) :
    ∃ m : M3 ℝ, p.bodyRotation s = m.fin ∧
      (mirrorPhase p).bodyRotation (mirrorState s) = (mirrorRows m).fin := by
  obtain ⟨⟨la, h1⟩, ⟨lo, h2⟩, ⟨az, h3⟩⟩ := hp.launch
  obtain ⟨ro, h4⟩ := hs.roll
  obtain ⟨ya, h5⟩ := hs.yaw
  obtain ⟨pi, h6⟩ := hs.pitch
  refine ⟨rmul (rmul (turnY pi) (rmul (turnZ ya) (turnX ro))) (launchMat la lo az), ?_, ?_⟩
  · unfold Phase.bodyRotation inertialToBody
    rw [h1, h2, h3, h4, h5, h6, launchToBody_fin, inertialToLaunch_fin, M3.fin_mul]
  · unfold Phase.bodyRotation inertialToBody
    have e1 : (mirrorState s).eulerAngles =
      ⟨-s.eulerAngles.roll, -s.eulerAngles.yaw, s.eulerAngles.pitch⟩ := rfl
    have e2 : (mirrorPhase p).launch = ⟨-p.launch.lat, p.launch.long, .fin Real.pi - p.launch.az⟩ := rfl
    rw [e1, e2, h1, h2, h3, h4, h5, h6]
    simp only [XR.fin_neg, XR.fin_sub]
    rw [launchToBody_fin, inertialToLaunch_fin, M3.fin_mul, launchMat_mirror, attitude_mirror]

theorem alpha_mirror (v : V3 XR) : Vehicle.alpha (mirrorBody v) = Vehicle.alpha v := rfl

/-- **C73** The equations of motion commute with mirroring the launch site, the vehicle, the
steering, the wind and the state at the plane of the equator. -/
theorem C73_system (hu : p.UsesOnly MirrorEven) (hj : SymmetricPlanet p.planet) (hp : RealPhase p)
    (hv : SteersByRealVariables p) (hs : AllReal s) (hr : Regular p.planet s) :
    (mirrorPhase p).system (mirrorState s) = (p.system s).map mirrorState := by
  have hfull := C71_system hp hv hs hr
  have hs := State.reals_iff.2 hs
  have h1 := systemPlanet_real hp hs hr
  have h2 := systemAir_real hp h1
  have h3 := systemAtmosphere_real (p := p) h2
  obtain ⟨h4, hmach⟩ := systemDynamic_real (p := p) h3
  obtain ⟨hpre, -⟩ := systemPre_real hp hv hs hr
  have eatm : ∀ s, (mirrorPhase p).systemAtmosphere (mirrorState s) =
      mirrorState (p.systemAtmosphere s) := fun _ => rfl
  have eatt : (mirrorPhase p).systemAttitude (mirrorState (p.systemDynamic (p.systemAtmosphere
      (p.systemAir (p.systemPlanet s))))) = mirrorState (p.systemAttitude (p.systemDynamic
        (p.systemAtmosphere (p.systemAir (p.systemPlanet s))))) := by
    generalize hq : p.systemDynamic (p.systemAtmosphere (p.systemAir (p.systemPlanet s))) = q at *
    have hval : ∀ v, v = p.steering.roll.var ∨ v = p.steering.yaw.var → IsReal (v.getValue q) := by
      intro v hvar
      by_cases hm : v = .machNumber
      · cases hmod : p.atmosphere.model with
        | standardAtmosphere1962 => rw [hm]; exact hmach hmod
        | noAtmosphere =>
          obtain ⟨n1, n2, n3⟩ := hv hmod
          rcases hvar with h | h
          · exact absurd (h.symm.trans hm) n1
          · exact absurd (h.symm.trans hm) n2
      · exact State.reals_iff.1 h4 v hm
    have ep : p.steering.pitch.angle (mirrorState q) = p.steering.pitch.angle q := by
      unfold Axis.angle
      rw [getValue_mirror hu.pitch]
    unfold Phase.systemAttitude Steering.eulerAngles
    have e : (mirrorPhase p).steering = mirrorSteering p.steering := rfl
    rw [e]
    unfold mirrorSteering
    simp only
    rw [negAxis_angle _ hp.steering.1 (hval _ (.inl rfl)) (getValue_mirror hu.roll q),
      negAxis_angle _ hp.steering.2.1 (hval _ (.inr rfl)) (getValue_mirror hu.yaw q), ep]
    rfl
  have epre : (mirrorPhase p).systemPre (mirrorState s) = mirrorState (p.systemPre s) := by
    unfold Phase.systemPre
    rw [systemPlanet_mirror hp hj hs hr, systemAir_mirror, eatm, systemDynamic_mirror, eatt]
    have hq : (p.systemPre s).Reals := hpre
    unfold Phase.systemPre at hq
    generalize p.systemAttitude _ = q at hq ⊢
    have hqr : ∃ m : M3 ℝ, p.bodyRotation q = m.fin ∧
      (mirrorPhase p).bodyRotation (mirrorState q) = (mirrorRows m).fin :=
      bodyRotation_mirror (s := p.systemAlpha q) hp hq
    obtain ⟨m, e1, e2⟩ := hqr
    obtain ⟨v, hv⟩ := realVec_iff.1 (show RealVec q.velocityAtmosphere from hq.velocityAtmosphere)
    unfold Phase.systemAlpha
    rw [e1, e2]
    have e3 : (mirrorState q).velocityAtmosphere = mirrorVec q.velocityAtmosphere := rfl
    rw [e3, hv, mirrorVec_fin, M3.fin_mulVec, M3.fin_mulVec, mirrorRows_mulVec]
    rfl
  have haero : (mirrorPhase p).vehicle.aeroForce (mirrorState (p.systemPre s)) =
      (p.vehicle.aeroForce (p.systemPre s)).map mirrorBody := by
    refine mirror_aeroForce _ _ fun t ht => ?_
    simp only [List.mem_cons, List.not_mem_nil, or_false] at ht
    rcases ht with rfl | rfl | rfl
    · exact Table.atState_congr fun v hv => getValue_mirror (hu.drag v hv) _
    · exact Table.atState_congr fun v hv => getValue_mirror (hu.lift v hv) _
    · exact Table.atState_congr fun v hv => getValue_mirror (hu.side v hv) _
  unfold Phase.system at hfull ⊢
  simp only [epre, haero]
  cases hf : p.vehicle.aeroForce (p.systemPre s) with
  | error e => rfl
  | ok aero =>
    simp only [hf, bind, Except.bind, Except.map] at hfull ⊢
    have ef : (mirrorPhase p).systemForces (mirrorState (p.systemPre s)) (mirrorBody aero) =
        mirrorState (p.systemForces (p.systemPre s) aero) := by
      unfold Phase.systemForces
      have e1 : (mirrorPhase p).vehicle.autoThrottle (mirrorPhase p).maxAcceleration
          (mirrorState (p.systemPre s)).mass (mirrorState (p.systemPre s)).pressure
          (mirrorBody aero) = p.vehicle.autoThrottle p.maxAcceleration (p.systemPre s).mass
            (p.systemPre s).pressure aero := mirror_autoThrottle _ hp.engines _ _ _ _
      have e2 : ∀ t pr, (mirrorPhase p).vehicle.thrustForce t pr =
        mirrorBody (p.vehicle.thrustForce t pr) := mirror_thrustForce _ hp.engines
      have e3 : ∀ t, (mirrorPhase p).vehicle.massflow t = p.vehicle.massflow t := mirror_massflow _
      simp only [e1, e2, e3, ← mirrorBody_add]
      unfold mirrorState
      simp only [mirrorBody_divS]
    rw [ef]
    have hl : (mirrorPhase p).exceedsLimit (mirrorState (p.systemForces (p.systemPre s) aero)) =
        p.exceedsLimit (p.systemForces (p.systemPre s) aero) := by
      unfold Phase.exceedsLimit
      have : (mirrorState (p.systemForces (p.systemPre s) aero)).vehicleAccelerationBody.norm =
        (p.systemForces (p.systemPre s) aero).vehicleAccelerationBody.norm := mirrorBody_norm _
      rw [this]
      rfl
    rw [hl]
    cases hx : p.exceedsLimit (p.systemForces (p.systemPre s) aero) with
    | true => rfl
    | false =>
      rw [hx] at hfull
      rcases hfull with ⟨s', e, hreal, -⟩ | ⟨e, -⟩
      · simp only [Bool.false_eq_true, if_false] at e ⊢
        injection e with e
        subst e
        have hreal := State.reals_iff.2 hreal
        congr 1
        obtain ⟨m, e1, e2⟩ := bodyRotation_mirror (p := p)
          (s := p.systemAcceleration (p.systemForces (p.systemPre s) aero)) hp hreal
        have e1' : p.bodyRotation (p.systemForces (p.systemPre s) aero) = m.fin := e1
        have e2' : (mirrorPhase p).bodyRotation (mirrorState
          (p.systemForces (p.systemPre s) aero)) = (mirrorRows m).fin := e2
        obtain ⟨w, hw⟩ := realVec_iff.1 (show RealVec
          (p.systemForces (p.systemPre s) aero).vehicleAccelerationBody from
            hreal.vehicleAccelerationBody)
        unfold Phase.systemAcceleration
        have e3 : (mirrorState (p.systemForces (p.systemPre s) aero)).vehicleAccelerationBody =
          mirrorBody (p.systemForces (p.systemPre s) aero).vehicleAccelerationBody := rfl
        have e4 : (mirrorState (p.systemForces (p.systemPre s) aero)).gravityAcceleration =
          mirrorVec (p.systemForces (p.systemPre s) aero).gravityAcceleration := rfl
        rw [e1', e2', e3, e4, hw, mirrorBody_fin, M3.fin_transpose, M3.fin_transpose, M3.fin_mulVec,
          M3.fin_mulVec, mirrorRows_transpose_mulVec, ← mirrorVec_fin, ← mirrorVec_add]
        rfl
      · simp at e

/-! ## Configurations -/

theorem applyConfig_mirror (p : Phase XR) (c : PhaseConfig XR) :
    (mirrorPhase p).applyConfig (mirrorConfig c) = mirrorPhase (p.applyConfig c) := by
  obtain ⟨i, v, st, pl, at', ma, ss, ec⟩ := c
  have hveh : ∀ (p : Phase XR), (mirrorPhase p).applyVehicle (v.map mirrorVehicleConfig) =
      mirrorPhase (p.applyVehicle v) := by
    intro p
    cases v with
    | none => rfl
    | some v =>
      obtain ⟨sm, pm, ra, cd, cl, cy, en⟩ := v
      cases sm <;> cases pm <;> cases cy <;> cases en <;> rfl
  have hst : ∀ (p : Phase XR), (mirrorPhase p).applySteering (st.map mirrorSteeringConfig) =
      mirrorPhase (p.applySteering st) := by
    intro p
    cases st with
    | none => rfl
    | some s =>
      obtain ⟨ro, ya, pi⟩ := s
      cases ro <;> cases ya <;> cases pi <;> rfl
  have hma : ∀ (p : Phase XR), (mirrorPhase p).applyMaxAcceleration ma =
      mirrorPhase (p.applyMaxAcceleration ma) := by
    intro p
    cases ma with
    | none => rfl
    | some a => unfold Phase.applyMaxAcceleration; simp only; split <;> rfl
  have hother : ∀ (p : Phase XR), ((mirrorPhase p).applyStepsize ss).applyEndCriterion ec =
      mirrorPhase ((p.applyStepsize ss).applyEndCriterion ec) := by
    intro p
    cases ss <;> cases ec <;> rfl
  have hfirst : ((mirrorPhase p).applyPlanet pl).applyAtmosphere
      (at'.map fun a => { a with wind := a.wind.map mirrorVec }) =
      mirrorPhase ((p.applyPlanet pl).applyAtmosphere at') := by
    cases at' with
    | none => cases pl <;> rfl
    | some a =>
      obtain ⟨en, w⟩ := a
      cases pl <;> cases w <;> cases en <;> first | rfl | (rename_i b; cases b <;> rfl)
  unfold Phase.applyConfig mirrorConfig
  simp only [hfirst, hveh, hma, hst, hother]

theorem atan_neg' (x : XR) : atan (-x) = -atan x := by
  cases x with
  | fin a => rw [XR.fin_neg, XR.fin_atan, XR.fin_atan, Real.arctan_neg, XR.fin_neg]
  | nan => rfl
  | pinf => rfl
  | ninf => exact (XR.neg_neg' _).symm

theorem tan_neg' (x : ℝ) : tan (-XR.fin x) = -tan (XR.fin x) := by
  have h : ∀ x : ℝ, Flt.tan (XR.fin x) = XR.fin (Real.sin x) / XR.fin (Real.cos x) := fun _ => rfl
  rw [XR.fin_neg, h, h, Real.sin_neg, Real.cos_neg, ← XR.fin_neg, XR.neg_div']

theorem init_mirror {q : Phase XR} (hq : RealPhase q) {i : InitConfig XR}
    (hi : IsReal i.latitude ∧ IsReal i.longitude ∧ IsReal i.azimuth) :
    (mirrorPhase q).init (mirrorInit i) = mirrorPhase (q.init i) := by
  obtain ⟨la, lo, az, alt⟩ := i
  obtain ⟨⟨la, rfl⟩, ⟨lo, rfl⟩, ⟨az, rfl⟩⟩ := hi
  obtain ⟨a, b, μ, j2, j3, j4, ω, hpl, ha, hb⟩ := RealPlanetData.eq_real hq.planet
  have e : mirrorInit ⟨.fin la, .fin lo, .fin az, alt⟩ =
      ⟨.fin (-la), .fin lo, .fin (180 - az), alt⟩ := by
    unfold mirrorInit
    simp only [XR.fin_neg, XR.fin_sub]
  have hrad : rad (180 - az) = Real.pi - rad az := by unfold rad; ring
  obtain ⟨g, e1, e2, e3, -⟩ := init_fin (p := q) (a := a) (b := b) (ω := ω) (by rw [hpl]; rfl)
    (by rw [hpl]; rfl) (by rw [hpl]; rfl) ha hb la lo az alt
  obtain ⟨g', e1', e2', e3', -⟩ := init_fin (p := q) (a := a) (b := b) (ω := ω) (by rw [hpl]; rfl)
    (by rw [hpl]; rfl) (by rw [hpl]; rfl) ha hb (-la) lo (180 - az) alt
  have hgg : g' = -g := by
    have h1 : (q.init ⟨.fin (-la), .fin lo, .fin (180 - az), alt⟩).launch.lat =
        -(q.init ⟨.fin la, .fin lo, .fin az, alt⟩).launch.lat := by
      show atan (powi (powi (q.planet.equatorialRadius / q.planet.polarRadius) 2) 2 *
          tan (toRadians (XR.fin (-la)))) =
        -atan (powi (powi (q.planet.equatorialRadius / q.planet.polarRadius) 2) 2 *
          tan (toRadians (XR.fin la)))
      rw [toRadians_fin, toRadians_fin, neg_mul, ← XR.fin_neg,
        tan_neg', XR.mul_neg', atan_neg']
    rw [e1, e1', XR.fin_neg] at h1
    injection h1
  subst hgg
  have hup : rscale (siteDistance a b (-g)) (up (-g) (rad lo)) =
      rmirror (rscale (siteDistance a b g) (up g (rad lo))) := by
    unfold siteDistance
    simp only [up, rmirror, rscale, Real.cos_neg, Real.sin_neg, neg_sq, V3.mk.injEq]
    refine ⟨trivial, trivial, ?_⟩
    ring1
  have p1 : (q.init ⟨.fin (-la), .fin lo, .fin (180 - az), alt⟩).state.position =
      mirrorVec (q.init ⟨.fin la, .fin lo, .fin az, alt⟩).state.position := by
    rw [e2, e2', mirrorVec_fin, V3.fin_inj, hup]
  have p2 : (q.init ⟨.fin (-la), .fin lo, .fin (180 - az), alt⟩).state.velocity =
      mirrorVec (q.init ⟨.fin la, .fin lo, .fin az, alt⟩).state.velocity := by
    rw [e3, e3', mirrorVec_fin, V3.fin_inj, hup]
    simp only [rmirror, rscale, rcross, V3.mk.injEq]
    refine ⟨?_, ?_, ?_⟩ <;> ring1
  have p3 : (q.init ⟨.fin (-la), .fin lo, .fin (180 - az), alt⟩).launch =
      ⟨-(q.init ⟨.fin la, .fin lo, .fin az, alt⟩).launch.lat,
        (q.init ⟨.fin la, .fin lo, .fin az, alt⟩).launch.long,
        .fin Real.pi - (q.init ⟨.fin la, .fin lo, .fin az, alt⟩).launch.az⟩ := by
    rw [e1, e1', hrad, XR.fin_neg, XR.fin_sub]
  have shape' : ∀ (la az : ℝ), (mirrorPhase q).init ⟨.fin la, .fin lo, .fin az, alt⟩ =
      { mirrorPhase q with
        launch := (q.init ⟨.fin la, .fin lo, .fin az, alt⟩).launch
        state := { (mirrorPhase q).state with
          position := (q.init ⟨.fin la, .fin lo, .fin az, alt⟩).state.position
          velocity := (q.init ⟨.fin la, .fin lo, .fin az, alt⟩).state.velocity } } := fun _ _ => rfl
  rw [e, shape', p1, p2, p3]
  rfl

theorem mirrorPhase_default : mirrorPhase (Phase.default : Phase XR) =
    { (Phase.default : Phase XR) with launch := ⟨-0, 0, .fin Real.pi - 0⟩ } := by
  unfold mirrorPhase Phase.default Atmosphere.default mirrorVehicle Vehicle.default mirrorSteering
    Steering.default negAxis Axis.default negTable Table.default
  simp only [mirror_default, mirrorVec_zero, XR.neg_zero', List.map_nil]

theorem new_mirror {prev : Option (Phase XR)} {c : PhaseConfig XR} (hc : RealConfig c) :
    Phase.new (prev.map mirrorPhase) (mirrorConfig c) = (Phase.new prev c).map mirrorPhase := by
  cases prev with
  | some q => simp only [Phase.new, Option.map, applyConfig_mirror]; rfl
  | none =>
    unfold Phase.new
    simp only [Option.map]
    have e : (mirrorConfig c).init = c.init.map mirrorInit := rfl
    rw [e]
    cases hi : c.init with
    | none => rfl
    | some i =>
      simp only [Option.map, Except.map]
      congr 1
      have hreal := (applyConfig_real realPhase_default.1 realPhase_default.2 hc).1
      rw [← init_mirror hreal (hc.init i hi), ← applyConfig_mirror, mirrorPhase_default]
      conv_rhs => rw [applyConfig_launch]
      rfl

/-! ## The symmetry -/

theorem applyConfig_symmetric {q : Phase XR} (hq : SymmetricPlanet q.planet) {c : PhaseConfig XR}
    (hc : ∀ pl, c.planetModel = some pl → SymmetricPlanet (Planet.ofConfig pl)) :
    SymmetricPlanet (q.applyConfig c).planet := by
  rw [Phase.applyConfig_planet]
  cases h : c.planetModel with
  | none => exact hq
  | some pl => exact hc pl h

/-- the vector of the integrated quantities, mirrored -/
noncomputable def mirror7 (y : Fin 7 → XR) : Fin 7 → XR :=
  vec7 (y 0) (y 1) (-y 2) (y 3) (y 4) (-y 5) (y 6)

theorem toDegrees_neg {x : XR} (hx : IsReal x) : toDegrees (-x) = -toDegrees x := by
  obtain ⟨r, rfl⟩ := hx
  rw [XR.fin_neg, toDegrees_fin, toDegrees_fin, XR.fin_neg, neg_mul]

theorem mirrorState_mirrorState (s : State XR) : mirrorState (mirrorState s) = s := by
  unfold mirrorState
  simp only [mirrorVec_mirrorVec, mirrorBody_mirrorBody, XR.neg_neg']

/-- mirroring at the plane of the equator -/
noncomputable def mirrorSymmetry : Symmetry where
  onState := mirrorState
  onVec := mirror7
  onPhase := mirrorPhase
  onConfig := mirrorConfig
  onRow := mirrorRow
  Good := fun p => p.UsesOnly MirrorEven ∧ SymmetricPlanet p.planet
  GoodConfig := fun c => Spec.UsesOnly MirrorEven c ∧
    ∀ pl, c.planetModel = some pl → SymmetricPlanet (Planet.ofConfig pl)
  vec_add := by
    intro x y _ _
    funext i
    fin_cases i
    case «2» => exact XR.neg_add' _ _
    case «5» => exact XR.neg_add' _ _
    all_goals rfl
  vec_scale := by
    intro c y _ _
    funext i
    fin_cases i
    case «2» => exact (XR.mul_neg' _ _).symm
    case «5» => exact (XR.mul_neg' _ _).symm
    all_goals rfl
  vec_zero := by
    funext i
    fin_cases i
    case «2» => exact XR.neg_zero'
    case «5» => exact XR.neg_zero'
    all_goals rfl
  fromVec := by
    intro t y _
    unfold State.fromVec mirrorState State.default Angles.zero
    simp only [mirrorVec_zero, mirrorBody_zero, XR.neg_zero']
    rfl
  primary := by
    intro s _
    funext i
    fin_cases i <;> rfl
  differentials := by
    intro s _
    funext i
    fin_cases i <;> rfl
  times := fun _ => ⟨rfl, rfl⟩
  row := fun _ => rfl
  inj := by
    intro s s' _ _ e
    rw [← mirrorState_mirrorState s, e, mirrorState_mirrorState]
  state := fun _ => rfl
  control := fun _ => ⟨rfl, rfl, rfl, rfl, rfl⟩
  update := fun _ _ _ _ _ => rfl
  good_update := fun _ _ _ _ _ h => ⟨⟨h.1.1, h.1.2, h.1.3, h.1.4, h.1.5, h.1.6, h.1.7⟩, h.2⟩
  system := fun _ _ h1 h2 h3 h4 h5 => C73_system h1.1 h1.2 h2 h3 (State.reals_iff.1 h4) h5
  crit := fun _ s h _ => getValue_mirror h.1.endCriterion s
  reset := by
    intro p h
    have h1 := toDegrees_neg h.roll
    have h2 := toDegrees_neg h.yaw
    unfold Phase.reset
    have : (mirrorPhase p).steering.init (mirrorPhase p).state.eulerAngles =
        mirrorSteering (p.steering.init p.state.eulerAngles) := by
      show Steering.mk ⟨_, toDegrees (-p.state.eulerAngles.roll), _, _, _⟩
        ⟨_, toDegrees (-p.state.eulerAngles.yaw), _, _, _⟩ _ = _
      rw [h1, h2]
      rfl
    rw [this]
    rfl
  start := mirror_default
  new := by
    intro prev c hprev hc hu
    have hbase : RealPhase (Phase.base prev) ∧ AllReal (Phase.base prev).state := by
      cases prev with
      | none => exact realPhase_default
      | some q => exact (hprev q rfl).2
    have hsym : SymmetricPlanet (Phase.base prev).planet := by
      cases prev with
      | none => exact XR.fin_zero
      | some q => exact (hprev q rfl).1.2
    refine ⟨new_mirror hc, fun p hp => ⟨⟨Phase.UsesOnly.new (by unfold MirrorEven; decide)
      (by unfold MirrorEven; decide) (fun q hq => (hprev q hq).1.1) hu.1 hp, ?_⟩, ?_⟩⟩
    · have := applyConfig_symmetric hsym hu.2
      rcases Phase.new_ok hp with ⟨_, rfl⟩ | ⟨_, i, hi, rfl⟩ <;> exact this
    · obtain ⟨h1, h2⟩ := applyConfig_real hbase.1 hbase.2 hc
      rcases Phase.new_ok hp with ⟨_, rfl⟩ | ⟨_, i, hi, rfl⟩
      · exact State.reals_iff.2 h2
      · have := State.reals_iff.2 (C71_new (fun q hq => (hprev q hq).2) hc hp).2
        exact { this with timeSinceEvent := (State.reals_iff.2 h2).timeSinceEvent }

theorem mirrorSymmetry_onOut (o : SimOut XR) : mirrorSymmetry.onOut o = mirrorOut o := by
  unfold Symmetry.onOut mirrorOut
  congr 1

/-- **C73** The same mission on the other hemisphere.  On a planet without third harmonic, if no
table, steering axis or end criterion looks at a variable that changes its sign in the mirror, the
numbers of the mission are actual numbers and its flight stays away from the singularities of the
equations of motion, then launching it from the opposite latitude with the azimuth counted from the
south, in mirrored wind, with opposite roll and yaw programs and side forces and the engines mounted
on the other side, changes nothing in the course of the simulation except that everything is mirrored
at the plane of the equator. -/
theorem C73_hemispheres {cs : List (PhaseConfig XR)} (hc : ∀ c ∈ cs, RealConfig c)
    (hu : ∀ c ∈ cs, UsesOnly MirrorEven c)
    (hp : ∀ c ∈ cs, ∀ pl, c.planetModel = some pl → SymmetricPlanet (Planet.ofConfig pl))
    (hf : ∀ done c rest p, cs = done ++ c :: rest → Ready done c p → FliesRegularly p) (fuel : ℕ) :
    Simulation.run fuel (cs.map mirrorConfig) = (Simulation.run fuel cs).map mirrorOut := by
  have h := mirrorSymmetry.simulation (cs := cs) (fun c h => ⟨hc c h, hu c h, hp c h⟩) hf fuel
  rw [show mirrorSymmetry.onOut = mirrorOut from funext mirrorSymmetry_onOut] at h
  exact h

/-- **C73** ... in terms of the outcomes: the mirrored mission ends with an outcome if and only if
the original one ends with an outcome of which the former is the mirrored version. -/
theorem C73_outcome {cs : List (PhaseConfig XR)} (hc : ∀ c ∈ cs, RealConfig c)
    (hu : ∀ c ∈ cs, UsesOnly MirrorEven c)
    (hp : ∀ c ∈ cs, ∀ pl, c.planetModel = some pl → SymmetricPlanet (Planet.ofConfig pl))
    (hf : ∀ done c rest p, cs = done ++ c :: rest → Ready done c p → FliesRegularly p)
    (o' : SimOut XR) : Simulation.Terminates (cs.map mirrorConfig) o' ↔
      ∃ o, Simulation.Terminates cs o ∧ o' = mirrorOut o := by
  constructor
  · rintro ⟨fuel, h⟩
    rw [C73_hemispheres hc hu hp hf] at h
    cases hr : Simulation.run fuel cs with
    | none => rw [hr] at h; cases h
    | some o =>
      rw [hr] at h
      injection h with h
      exact ⟨o, ⟨fuel, hr⟩, h.symm⟩
  · rintro ⟨o, ⟨fuel, h⟩, rfl⟩
    exact ⟨fuel, by rw [C73_hemispheres hc hu hp hf, h]; rfl⟩

/-- **C73** The spherical planet and the one of Fischer are symmetric, the one of the Smithsonian
Institution is not. -/
theorem C73_presets : SymmetricPlanet (EARTH_SPHERICAL : Planet XR) ∧
    SymmetricPlanet (EARTH_FISHER_1960 : Planet XR) ∧
    ¬ SymmetricPlanet (EARTH_SMITHSONIAN : Planet XR) := by
  refine ⟨XR.fin_zero, XR.fin_zero, ?_⟩
  unfold SymmetricPlanet EARTH_SMITHSONIAN
  xr_eval
  norm_num

/-- The hypotheses of the theorems are met by a flight of one second. -/
example (o' : SimOut XR) : Simulation.Terminates [mirrorConfig exampleSecond] o' ↔
    ∃ o, Simulation.Terminates [exampleSecond] o ∧ o' = mirrorOut o := by
  refine C73_outcome (cs := [exampleSecond]) (by simpa using exampleSecond_real) ?_ ?_ ?_ o'
  · intro c hc
    rw [List.mem_singleton] at hc
    subst hc
    exact ⟨by rintro v ⟨⟩ t ⟨⟩, by rintro v ⟨⟩ t ⟨⟩, by rintro v ⟨⟩ t ⟨⟩, by rintro v ⟨⟩,
      by rintro v ⟨⟩, by rintro v ⟨⟩, by rintro v ⟨⟩; unfold MirrorEven; decide⟩
  · intro c hc
    rw [List.mem_singleton] at hc
    subst hc
    rintro pl ⟨⟩
  · intro done c rest p e hr
    cases done with
    | nil =>
      rw [List.nil_append, List.cons.injEq] at e
      rw [← e.1] at hr
      exact exampleSecond_regular hr
    | cons a l => simp at e

/-- `UsesOnly MirrorEven` holds of a launch with an engine, a drag table over the Mach number, a side
force table, a yaw program over the velocity and an end criterion on the altitude. -/
example : UsesOnly MirrorEven { exampleBurn with
    vehicle := some ⟨some (.fin 1000), some (.fin 10), some (.fin 3),
      some (.d1 ⟨(.machNumber, [.fin 0, .fin 2]), [.fin 0.5, .fin 0.7], .linear⟩), none,
      some (.d1 ⟨(.alpha, [.fin 0, .fin 1]), [.fin 0, .fin 1], .linear⟩), some [exampleEngine.toEngine]⟩
    steering := some ⟨none, some ⟨.velocityPlanetNorm, .fin 1, .fin 0, .fin 0⟩, none⟩
    endCriterion := some (.altitude, .fin 1000) } where
  drag := by
    rintro v ⟨⟩ t ⟨⟩ x hx
    simp only [tableVariables, List.mem_cons, List.not_mem_nil, or_false] at hx
    subst hx
    unfold MirrorEven; decide
  lift := by rintro v ⟨⟩ t ⟨⟩
  side := by
    rintro v ⟨⟩ t ⟨⟩ x hx
    simp only [tableVariables, List.mem_cons, List.not_mem_nil, or_false] at hx
    subst hx
    unfold MirrorEven; decide
  roll := by rintro s ⟨⟩ a ⟨⟩
  yaw := by rintro s ⟨⟩ a ⟨⟩; unfold MirrorEven; decide
  pitch := by rintro s ⟨⟩ a ⟨⟩
  endCriterion := by rintro e ⟨⟩; unfold MirrorEven; decide

end Post
