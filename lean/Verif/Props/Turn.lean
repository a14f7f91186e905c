import Verif.Lemmas.Symmetry
import Verif.Lemmas.UsesOnly
/-! # C72: the launch longitude is a symmetry.  Exact arithmetic. -/

namespace Post
open Spec Flt

variable {θ δ : ℝ} {p : Phase XR} {s : State XR}

/-! ## Turned real vectors -/

/-- a real vector turned about the third axis -/
noncomputable def rturn (θ : ℝ) (v : V3 ℝ) : V3 ℝ :=
  ⟨Real.cos θ * v.x - Real.sin θ * v.y, Real.sin θ * v.x + Real.cos θ * v.y, v.z⟩

theorem turnVec_fin (v : V3 ℝ) : turnVec θ v.fin = (rturn θ v).fin := by
  show (⟨XR.fin _ * XR.fin _ - XR.fin _ * XR.fin _, _, _⟩ : V3 XR) = _
  rw [XR.fin_mul, XR.fin_mul, XR.fin_sub]
  rfl

theorem turnVec_zero : turnVec θ V3.zero = V3.zero := by
  rw [V3.fin_zero, turnVec_fin]
  simp [rturn]

theorem turnVec_real {v : V3 XR} (h : RealVec v) : RealVec (turnVec θ v) := by
  obtain ⟨r, rfl⟩ := realVec_iff.1 h
  rw [turnVec_fin]; exact realVec_fin _

theorem rnorm_rturn (v : V3 ℝ) : rnorm (rturn θ v) = rnorm v := by
  unfold rnorm rturn
  congr 1
  linear_combination (v.x ^ 2 + v.y ^ 2) * Real.sin_sq_add_cos_sq θ

theorem turnVec_norm {v : V3 XR} (h : RealVec v) : (turnVec θ v).norm = v.norm := by
  obtain ⟨r, rfl⟩ := realVec_iff.1 h
  rw [turnVec_fin, V3.fin_norm, V3.fin_norm, rnorm_rturn]

theorem rturn_inj {v w : V3 ℝ} (h : rturn θ v = rturn θ w) : v = w := by
  have hc := Real.sin_sq_add_cos_sq θ
  simp only [rturn, V3.mk.injEq] at h
  obtain ⟨h1, h2, h3⟩ := h
  ext
  · linear_combination Real.cos θ * h1 + Real.sin θ * h2 - (v.x - w.x) * hc
  · linear_combination -Real.sin θ * h1 + Real.cos θ * h2 - (v.y - w.y) * hc
  · exact h3

theorem turnVec_inj {v w : V3 XR} (hv : RealVec v) (hw : RealVec w)
    (h : turnVec θ v = turnVec θ w) : v = w := by
  obtain ⟨a, rfl⟩ := realVec_iff.1 hv
  obtain ⟨b, rfl⟩ := realVec_iff.1 hw
  rw [turnVec_fin, turnVec_fin, V3.fin_inj] at h
  rw [rturn_inj h]

theorem rturn_eq_zero {v : V3 ℝ} (h : v ≠ ⟨0, 0, 0⟩) : rturn θ v ≠ ⟨0, 0, 0⟩ := by
  intro h0
  rw [← rnorm_eq_zero, rnorm_rturn, rnorm_eq_zero] at h0
  exact h h0

theorem turnVec_add {v w : V3 XR} (hv : RealVec v) (hw : RealVec w) :
    turnVec θ (v + w) = turnVec θ v + turnVec θ w := by
  obtain ⟨a, rfl⟩ := realVec_iff.1 hv
  obtain ⟨b, rfl⟩ := realVec_iff.1 hw
  rw [turnVec_fin, turnVec_fin, V3.fin_add', turnVec_fin, V3.fin_add', V3.fin_inj]
  simp only [rturn, radd, V3.mk.injEq]
  refine ⟨?_, ?_, ?_⟩ <;> first | trivial | ring1

theorem turnVec_sub {v w : V3 XR} (hv : RealVec v) (hw : RealVec w) :
    turnVec θ (v - w) = turnVec θ v - turnVec θ w := by
  obtain ⟨a, rfl⟩ := realVec_iff.1 hv
  obtain ⟨b, rfl⟩ := realVec_iff.1 hw
  rw [turnVec_fin, turnVec_fin, V3.fin_sub', turnVec_fin, V3.fin_sub', V3.fin_inj]
  simp only [rturn, rsub, V3.mk.injEq]
  refine ⟨?_, ?_, ?_⟩ <;> first | trivial | ring1

/-! ## Turned frames -/

/-- the matrix with turned rows -/
noncomputable def turnRows (θ : ℝ) (m : M3 ℝ) : M3 ℝ := ⟨rturn θ m.r1, rturn θ m.r2, rturn θ m.r3⟩

theorem launchMat_turn (lat long az : ℝ) :
    launchMat lat (long + θ) az = turnRows θ (launchMat lat long az) := by
  simp only [launchMat, turnRows, rmul, rdot, rturn, up, east, north, turnX, M3.col1, M3.col2,
    M3.col3, Real.cos_add, Real.sin_add, M3.mk.injEq, V3.mk.injEq]
  refine ⟨⟨?_, ?_, ?_⟩, ⟨?_, ?_, ?_⟩, ⟨?_, ?_, ?_⟩⟩ <;> first | trivial | ring1

theorem rmul_turnRows (b m : M3 ℝ) : rmul b (turnRows θ m) = turnRows θ (rmul b m) := by
  simp only [turnRows, rmul, rdot, rturn, M3.col1, M3.col2, M3.col3, M3.mk.injEq, V3.mk.injEq]
  refine ⟨⟨?_, ?_, ?_⟩, ⟨?_, ?_, ?_⟩, ⟨?_, ?_, ?_⟩⟩ <;> first | trivial | ring1

theorem turnRows_mulVec (m : M3 ℝ) (v : V3 ℝ) : rmulVec (turnRows θ m) (rturn θ v) = rmulVec m v := by
  have hc := Real.sin_sq_add_cos_sq θ
  simp only [rmulVec, turnRows, rdot, rturn, V3.mk.injEq]
  refine ⟨?_, ?_, ?_⟩
  · linear_combination (m.r1.x * v.x + m.r1.y * v.y) * hc
  · linear_combination (m.r2.x * v.x + m.r2.y * v.y) * hc
  · linear_combination (m.r3.x * v.x + m.r3.y * v.y) * hc

theorem turnRows_transpose_mulVec (m : M3 ℝ) (w : V3 ℝ) :
    rmulVec (turnRows θ m).transpose w = rturn θ (rmulVec m.transpose w) := by
  simp only [rmulVec, turnRows, M3.transpose, rdot, rturn, V3.mk.injEq, M3.col1, M3.col2, M3.col3]
  refine ⟨?_, ?_, ?_⟩ <;> first | trivial | ring1

theorem turnZ_rturn (φ : ℝ) (v : V3 ℝ) : rmulVec (turnZ φ) (rturn θ v) = rturn θ (rmulVec (turnZ φ) v) := by
  simp only [rmulVec, turnZ, rdot, rturn, V3.mk.injEq]
  refine ⟨?_, ?_, ?_⟩ <;> first | trivial | ring1

theorem grav_rturn (a μ j2 j3 j4 : ℝ) (r : V3 ℝ) :
    grav a μ j2 j3 j4 (rturn θ r) = rturn θ (grav a μ j2 j3 j4 r) := by
  have hz : (rturn θ r).z = r.z := rfl
  have h1 : gravP a j2 j3 j4 (rturn θ r) = gravP a j2 j3 j4 r := by
    unfold gravP
    simp only [rnorm_rturn, hz]
  have h2 : gravQ a j2 j3 j4 (rturn θ r) = gravQ a j2 j3 j4 r := by
    unfold gravQ
    simp only [rnorm_rturn, hz]
  unfold grav
  rw [h1, h2, rnorm_rturn]
  simp only [rturn, V3.mk.injEq]
  refine ⟨?_, ?_, ?_⟩ <;> first | trivial | ring1

theorem RealPlanetData.eq_real {pl : Planet XR} (h : RealPlanetData pl) :
    ∃ a b μ j2 j3 j4 ω : ℝ, pl = realPlanet a b μ j2 j3 j4 ω ∧ 0 < a ∧ 0 < b := by
  obtain ⟨a, b, ha, hb, h0, h0', ⟨μ, hμ⟩, ⟨j2, h2⟩, ⟨j3, h3⟩, ⟨j4, h4⟩, ⟨ω, hω⟩⟩ := h
  refine ⟨a, b, μ, j2, j3, j4, ω, ?_, h0, h0'⟩
  rcases pl with ⟨_, _, ⟨_, _, _, _⟩, _⟩
  simp only at ha hb hμ h2 h3 h4 hω
  subst ha hb hμ h2 h3 h4 hω
  rfl

/-! ## The equations of motion -/

/-- the phase with the launch site and the wind turned -/
noncomputable def turnPhase (δ : ℝ) (p : Phase XR) : Phase XR :=
  { p with
    state := turnState δ p.state
    launch := { p.launch with long := p.launch.long + .fin (rad δ) }
    atmosphere := { p.atmosphere with wind := turnVec (rad δ) p.atmosphere.wind } }

theorem turn_default : turnState δ State.default = (State.default : State XR) := by
  unfold turnState State.default
  simp only [turnVec_zero]

theorem getValue_turn {v : StateVariable} (hv : LongitudeFree v) (hs : s.Reals) :
    v.getValue (turnState δ s) = v.getValue s := by
  unfold LongitudeFree equatorialComponents at hv
  cases v <;> first
    | rfl
    | (exact absurd (by decide) hv)
    | exact turnVec_norm hs.position
    | exact turnVec_norm hs.velocity
    | exact turnVec_norm hs.velocityPlanet
    | exact turnVec_norm hs.velocityAtmosphere
    | exact turnVec_norm hs.acceleration
    | exact turnVec_norm hs.gravityAcceleration

theorem systemPlanet_turn (hp : RealPhase p) (hs : s.Reals) (hr : Regular p.planet s) :
    (turnPhase δ p).systemPlanet (turnState δ s) = turnState δ (p.systemPlanet s) := by
  obtain ⟨a', b', m, r, hpa, hpb, hpos, hcore, hm, hm0⟩ := hr
  obtain ⟨a, b, μ, j2, j3, j4, ω, hpl, ha, hb⟩ := RealPlanetData.eq_real hp.planet
  have hr0 : r ≠ ⟨0, 0, 0⟩ := by
    rintro rfl
    rw [(rnorm_eq_zero _).2 rfl] at hcore
    linarith [abs_nonneg (a' - b')]
  have hr1 := rturn_eq_zero (θ := rad δ) hr0
  obtain ⟨v, hv⟩ := realVec_iff.1 hs.velocity
  obtain ⟨t, ht⟩ := hs.time
  have hω : (realPlanet a b μ j2 j3 j4 ω).rotationRate = .fin ω := rfl
  have halt : p.planet.altitude (turnVec (rad δ) s.position) = p.planet.altitude s.position := by
    rw [hpos, turnVec_fin, hpl, altitude_fin (a := a) (b := b) rfl rfl ha.ne' hb.ne' hr0,
      altitude_fin (a := a) (b := b) rfl rfl ha.ne' hb.ne' hr1]
    unfold surfaceDistance
    rw [rnorm_rturn]
    rfl
  have hgeo : p.planet.geopotentialAltitude (turnVec (rad δ) s.position) =
      p.planet.geopotentialAltitude s.position := by
    unfold Planet.geopotentialAltitude
    rw [halt]
  have hplan : (inertialToPlanet s.time p.planet.rotationRate).mulVec (turnVec (rad δ) s.position) =
      turnVec (rad δ) ((inertialToPlanet s.time p.planet.rotationRate).mulVec s.position) := by
    rw [ht, hpl, hω, hpos, inertialToPlanet_fin, turnVec_fin, M3.fin_mulVec, M3.fin_mulVec, turnVec_fin,
      turnZ_rturn]
  have hvel : p.planet.velocityPlanet (turnVec (rad δ) s.position) (turnVec (rad δ) s.velocity) =
      turnVec (rad δ) (p.planet.velocityPlanet s.position s.velocity) := by
    rw [hpos, hv, hpl, turnVec_fin, turnVec_fin, velocityPlanet_fin hω, velocityPlanet_fin hω,
      turnVec_fin, V3.fin_inj]
    simp only [rturn, rsub, rcross, V3.mk.injEq]
    refine ⟨?_, ?_, ?_⟩ <;> first | trivial | ring1
  have hgrav : p.planet.gravity (turnVec (rad δ) s.position) =
      turnVec (rad δ) (p.planet.gravity s.position) := by
    rw [hpos, hpl, turnVec_fin, gravity_grav a b μ j2 j3 j4 ω hr0, gravity_grav a b μ j2 j3 j4 ω hr1,
      turnVec_fin, grav_rturn]
  unfold Phase.systemPlanet turnState
  have e1 : (turnPhase δ p).planet = p.planet := rfl
  have e2 : (turnPhase δ p).vehicle = p.vehicle := rfl
  simp only [e1, e2, halt, hgeo, hplan, hvel, hgrav]

theorem systemAir_turn (hp : RealPhase p) (hs : s.Reals) :
    (turnPhase δ p).systemAir (turnState δ s) = turnState δ (p.systemAir s) := by
  unfold Phase.systemAir Atmosphere.velocityAtmosphere
  have : turnVec (rad δ) (s.velocityPlanet - p.atmosphere.wind) =
      turnVec (rad δ) s.velocityPlanet - turnVec (rad δ) p.atmosphere.wind :=
    turnVec_sub hs.velocityPlanet hp.wind
  unfold turnState
  simp only [this]
  rfl

theorem systemDynamic_turn (hs : s.Reals) :
    (turnPhase δ p).systemDynamic (turnState δ s) = turnState δ (p.systemDynamic s) := by
  have hn := turnVec_norm (θ := rad δ) hs.velocityAtmosphere
  have e : ((turnState δ s).velocityAtmosphere).norm = s.velocityAtmosphere.norm := hn
  unfold Phase.systemDynamic Atmosphere.machNumber Atmosphere.dynamicPressure
  simp only [e]
  rfl

theorem bodyRotation_turn (hp : RealPhase p) (hs : s.Reals) :
    ∃ m : M3 ℝ, p.bodyRotation s = m.fin ∧
      (turnPhase δ p).bodyRotation (turnState δ s) = (turnRows (rad δ) m).fin := by
  obtain ⟨⟨la, h1⟩, ⟨lo, h2⟩, ⟨az, h3⟩⟩ := hp.launch
  obtain ⟨ro, h4⟩ := hs.roll
  obtain ⟨ya, h5⟩ := hs.yaw
  obtain ⟨pi, h6⟩ := hs.pitch
  refine ⟨rmul (rmul (turnY pi) (rmul (turnZ ya) (turnX ro))) (launchMat la lo az), ?_, ?_⟩
  · unfold Phase.bodyRotation inertialToBody
    rw [h1, h2, h3, h4, h5, h6, launchToBody_fin, inertialToLaunch_fin, M3.fin_mul]
  · unfold Phase.bodyRotation inertialToBody
    have e1 : (turnState δ s).eulerAngles = s.eulerAngles := rfl
    have e2 : (turnPhase δ p).launch.lat = p.launch.lat := rfl
    have e3 : (turnPhase δ p).launch.long = p.launch.long + .fin (rad δ) := rfl
    have e4 : (turnPhase δ p).launch.az = p.launch.az := rfl
    rw [e1, e2, e3, e4, h1, h2, h3, h4, h5, h6, XR.fin_add, launchToBody_fin, inertialToLaunch_fin,
      M3.fin_mul, launchMat_turn, rmul_turnRows]

/-- **C72** The equations of motion commute with turning the launch site, the wind and the state
about the polar axis. -/
theorem C72_system (hu : p.UsesOnly LongitudeFree) (hp : RealPhase p) (hv : SteersByRealVariables p)
    (hs : AllReal s) (hr : Regular p.planet s) :
    (turnPhase δ p).system (turnState δ s) = (p.system s).map (turnState δ) := by
  have hfull := C71_system hp hv hs hr
  have hs := State.reals_iff.2 hs
  have h1 := systemPlanet_real hp hs hr
  have h2 := systemAir_real hp h1
  have h3 := systemAtmosphere_real (p := p) h2
  have h4 := (systemDynamic_real (p := p) h3).1
  obtain ⟨hpre, -⟩ := systemPre_real hp hv hs hr
  have eatm : ∀ s, (turnPhase δ p).systemAtmosphere (turnState δ s) =
      turnState δ (p.systemAtmosphere s) := fun _ => rfl
  have eatt : (turnPhase δ p).systemAttitude (turnState δ (p.systemDynamic (p.systemAtmosphere
      (p.systemAir (p.systemPlanet s))))) = turnState δ (p.systemAttitude (p.systemDynamic
        (p.systemAtmosphere (p.systemAir (p.systemPlanet s))))) := by
    unfold Phase.systemAttitude
    have : (turnPhase δ p).steering = p.steering := rfl
    rw [this]
    unfold Steering.eulerAngles Axis.angle
    rw [getValue_turn hu.roll h4, getValue_turn hu.yaw h4, getValue_turn hu.pitch h4]
    rfl
  have epre : (turnPhase δ p).systemPre (turnState δ s) = turnState δ (p.systemPre s) := by
    unfold Phase.systemPre
    rw [systemPlanet_turn hp hs hr, systemAir_turn hp h1, eatm, systemDynamic_turn h3, eatt]
    have hq : (p.systemPre s).Reals := hpre
    unfold Phase.systemPre at hq
    generalize p.systemAttitude _ = q at hq ⊢
    have hqr : ∃ m : M3 ℝ, p.bodyRotation q = m.fin ∧
      (turnPhase δ p).bodyRotation (turnState δ q) = (turnRows (rad δ) m).fin :=
      bodyRotation_turn (s := p.systemAlpha q) hp hq
    obtain ⟨m, e1, e2⟩ := hqr
    obtain ⟨v, hv⟩ := realVec_iff.1 (show RealVec q.velocityAtmosphere from hq.velocityAtmosphere)
    unfold Phase.systemAlpha
    rw [e1, e2]
    have e3 : (turnState δ q).velocityAtmosphere = turnVec (rad δ) q.velocityAtmosphere := rfl
    rw [e3, hv, turnVec_fin, M3.fin_mulVec, M3.fin_mulVec, turnRows_mulVec]
    rfl
  have haero : (turnPhase δ p).vehicle.aeroForce (turnState δ (p.systemPre s)) =
      p.vehicle.aeroForce (p.systemPre s) := by
    have e : (turnPhase δ p).vehicle = p.vehicle := rfl
    unfold Vehicle.aeroForce
    rw [e, Table.atState_congr fun v hv => getValue_turn (δ := δ) (hu.drag v hv) hpre,
      Table.atState_congr fun v hv => getValue_turn (δ := δ) (hu.lift v hv) hpre,
      Table.atState_congr fun v hv => getValue_turn (δ := δ) (hu.side v hv) hpre]
    rfl
  unfold Phase.system at hfull ⊢
  simp only [epre, haero]
  cases hf : p.vehicle.aeroForce (p.systemPre s) with
  | error e => rfl
  | ok aero =>
    simp only [hf, bind, Except.bind] at hfull ⊢
    have ef : (turnPhase δ p).systemForces (turnState δ (p.systemPre s)) aero =
        turnState δ (p.systemForces (p.systemPre s) aero) := rfl
    rw [ef]
    have hl : (turnPhase δ p).exceedsLimit (turnState δ (p.systemForces (p.systemPre s) aero)) =
        p.exceedsLimit (p.systemForces (p.systemPre s) aero) := rfl
    rw [hl]
    cases hx : p.exceedsLimit (p.systemForces (p.systemPre s) aero) with
    | true => rfl
    | false =>
      rw [hx] at hfull
      rcases hfull with ⟨s', e, hreal, -⟩ | ⟨e, -⟩
      · simp only [Bool.false_eq_true, if_false] at e ⊢
        injection e with e
        subst e
        have hreal := State.reals_iff.2 hreal
        simp only [Except.map]
        congr 1
        obtain ⟨m, e1, e2⟩ := bodyRotation_turn (δ := δ) (p := p)
          (s := p.systemAcceleration (p.systemForces (p.systemPre s) aero)) hp hreal
        have e1' : p.bodyRotation (p.systemForces (p.systemPre s) aero) = m.fin := e1
        have e2' : (turnPhase δ p).bodyRotation (turnState δ
          (p.systemForces (p.systemPre s) aero)) = (turnRows (rad δ) m).fin := e2
        obtain ⟨w, hw⟩ := realVec_iff.1 (show RealVec
          (p.systemForces (p.systemPre s) aero).vehicleAccelerationBody from
            hreal.vehicleAccelerationBody)
        have hg : RealVec (p.systemForces (p.systemPre s) aero).gravityAcceleration :=
          hreal.gravityAcceleration
        unfold Phase.systemAcceleration
        have e3 : (turnState δ (p.systemForces (p.systemPre s) aero)).vehicleAccelerationBody =
          (p.systemForces (p.systemPre s) aero).vehicleAccelerationBody := rfl
        have e4 : (turnState δ (p.systemForces (p.systemPre s) aero)).gravityAcceleration =
          turnVec (rad δ) (p.systemForces (p.systemPre s) aero).gravityAcceleration := rfl
        rw [e1', e2', e3, e4, hw, M3.fin_transpose, M3.fin_transpose, M3.fin_mulVec, M3.fin_mulVec,
          turnRows_transpose_mulVec, ← turnVec_fin, ← turnVec_add (realVec_fin _) hg]
        rfl
      · simp at e

/-! ## Configurations -/

theorem applyConfig_turn (p : Phase XR) (c : PhaseConfig XR) :
    (turnPhase δ p).applyConfig (turnConfig δ c) = turnPhase δ (p.applyConfig c) := by
  obtain ⟨i, v, st, pl, at', ma, ss, ec⟩ := c
  have hveh : ∀ (p : Phase XR), (turnPhase δ p).applyVehicle v = turnPhase δ (p.applyVehicle v) := by
    intro p
    cases v with
    | none => rfl
    | some v =>
      obtain ⟨sm, pm, ra, cd, cl, cy, en⟩ := v
      cases sm <;> cases pm <;> rfl
  have hother : ∀ (p : Phase XR), ((((turnPhase δ p).applyMaxAcceleration ma).applySteering st
      ).applyStepsize ss).applyEndCriterion ec =
      turnPhase δ ((((p.applyMaxAcceleration ma).applySteering st).applyStepsize ss
        ).applyEndCriterion ec) := by
    intro p
    have h1 : (turnPhase δ p).applyMaxAcceleration ma = turnPhase δ (p.applyMaxAcceleration ma) := by
      cases ma with
      | none => rfl
      | some a => unfold Phase.applyMaxAcceleration; simp only; split <;> rfl
    rw [h1]
    cases st <;> cases ss <;> cases ec <;> rfl
  have hfirst : ((turnPhase δ p).applyPlanet pl).applyAtmosphere
      (at'.map fun a => { a with wind := a.wind.map (turnVec (rad δ)) }) =
      turnPhase δ ((p.applyPlanet pl).applyAtmosphere at') := by
    cases at' with
    | none => cases pl <;> rfl
    | some a =>
      obtain ⟨en, w⟩ := a
      cases pl <;> cases w <;> cases en <;> first | rfl | (rename_i b; cases b <;> rfl)
  unfold Phase.applyConfig turnConfig
  simp only [hfirst, hveh, hother]

/-- the default launch site is overwritten -/
theorem init_launch (p : Phase XR) (l : Launch XR) (i : InitConfig XR) :
    ({ p with launch := l } : Phase XR).init i = p.init i := rfl

theorem init_turn {q : Phase XR} (hq : RealPhase q) {i : InitConfig XR}
    (hi : IsReal i.latitude ∧ IsReal i.longitude ∧ IsReal i.azimuth) :
    (turnPhase δ q).init { i with longitude := i.longitude + .fin δ } = turnPhase δ (q.init i) := by
  obtain ⟨la, lo, az, alt⟩ := i
  obtain ⟨⟨la, rfl⟩, ⟨lo, rfl⟩, ⟨az, rfl⟩⟩ := hi
  obtain ⟨a, b, μ, j2, j3, j4, ω, hpl, ha, hb⟩ := RealPlanetData.eq_real hq.planet
  have e : ((⟨.fin la, .fin lo + .fin δ, .fin az, alt⟩ : InitConfig XR)) =
      ⟨.fin la, .fin (lo + δ), .fin az, alt⟩ := by rw [XR.fin_add]
  have hrad : rad (lo + δ) = rad lo + rad δ := by unfold rad; ring
  have hup : ∀ g, up g (rad lo + rad δ) = rturn (rad δ) (up g (rad lo)) := by
    intro g
    simp only [up, rturn, Real.cos_add, Real.sin_add, V3.mk.injEq]
    refine ⟨?_, ?_, trivial⟩ <;> first | trivial | ring1
  have hlat : ∀ lo : ℝ, ((turnPhase δ q).init ⟨.fin la, .fin lo, .fin az, alt⟩).launch =
      (q.init ⟨.fin la, .fin lo, .fin az, alt⟩).launch ∧
      ((turnPhase δ q).init ⟨.fin la, .fin lo, .fin az, alt⟩).state.position =
      (q.init ⟨.fin la, .fin lo, .fin az, alt⟩).state.position ∧
      ((turnPhase δ q).init ⟨.fin la, .fin lo, .fin az, alt⟩).state.velocity =
      (q.init ⟨.fin la, .fin lo, .fin az, alt⟩).state.velocity := fun lo => ⟨rfl, rfl, rfl⟩
  obtain ⟨g, e1, e2, e3, -⟩ := init_fin (p := q) (a := a) (b := b) (ω := ω) (by rw [hpl]; rfl)
    (by rw [hpl]; rfl) (by rw [hpl]; rfl) ha hb la lo az alt
  obtain ⟨g', e1', e2', e3', -⟩ := init_fin (p := q) (a := a) (b := b) (ω := ω) (by rw [hpl]; rfl)
    (by rw [hpl]; rfl) (by rw [hpl]; rfl) ha hb la (lo + δ) az alt
  have hgg : g' = g := by
    have h1 : (q.init ⟨.fin la, .fin lo, .fin az, alt⟩).launch.lat =
      (q.init ⟨.fin la, .fin (lo + δ), .fin az, alt⟩).launch.lat := rfl
    rw [e1, e1'] at h1
    injection h1 with h1
    exact h1.symm
  subst hgg
  have p1 : (q.init ⟨.fin la, .fin (lo + δ), .fin az, alt⟩).state.position =
      turnVec (rad δ) (q.init ⟨.fin la, .fin lo, .fin az, alt⟩).state.position := by
    rw [e2, e2', turnVec_fin, V3.fin_inj, hrad, hup]
    simp only [rscale, rturn, V3.mk.injEq]
    refine ⟨?_, ?_, trivial⟩ <;> first | trivial | ring1
  have p2 : (q.init ⟨.fin la, .fin (lo + δ), .fin az, alt⟩).state.velocity =
      turnVec (rad δ) (q.init ⟨.fin la, .fin lo, .fin az, alt⟩).state.velocity := by
    rw [e3, e3', turnVec_fin, V3.fin_inj, hrad, hup]
    simp only [rscale, rturn, rcross, V3.mk.injEq]
    refine ⟨?_, ?_, ?_⟩ <;> first | trivial | ring1
  have p3 : (q.init ⟨.fin la, .fin (lo + δ), .fin az, alt⟩).launch.long =
      (q.init ⟨.fin la, .fin lo, .fin az, alt⟩).launch.long + .fin (rad δ) := by
    rw [e1, e1', hrad, XR.fin_add]
  have shape : ∀ (lo : ℝ), q.init ⟨.fin la, .fin lo, .fin az, alt⟩ = { q with
      launch := (q.init ⟨.fin la, .fin lo, .fin az, alt⟩).launch
      state := { q.state with
        position := (q.init ⟨.fin la, .fin lo, .fin az, alt⟩).state.position
        velocity := (q.init ⟨.fin la, .fin lo, .fin az, alt⟩).state.velocity } } := fun _ => rfl
  have shape' : ∀ (lo : ℝ), (turnPhase δ q).init ⟨.fin la, .fin lo, .fin az, alt⟩ = { turnPhase δ q with
      launch := ⟨(q.init ⟨.fin la, .fin lo, .fin az, alt⟩).launch.lat,
        (q.init ⟨.fin la, .fin lo, .fin az, alt⟩).launch.long,
        (q.init ⟨.fin la, .fin lo, .fin az, alt⟩).launch.az⟩
      state := { (turnPhase δ q).state with
        position := (q.init ⟨.fin la, .fin lo, .fin az, alt⟩).state.position
        velocity := (q.init ⟨.fin la, .fin lo, .fin az, alt⟩).state.velocity } } := fun _ => rfl
  show (turnPhase δ q).init ⟨.fin la, .fin lo + .fin δ, .fin az, alt⟩ = _
  rw [e, shape', p1, p2, p3]
  rfl

/-- the default phase up to the launch site -/
theorem turnPhase_default : turnPhase δ (Phase.default : Phase XR) =
    { (Phase.default : Phase XR) with launch := ⟨0, 0 + .fin (rad δ), 0⟩ } := by
  unfold turnPhase Phase.default Atmosphere.default
  simp only [turn_default, turnVec_zero]

theorem applyConfig_launch (p : Phase XR) (l : Launch XR) (c : PhaseConfig XR) :
    ({ p with launch := l } : Phase XR).applyConfig c = { p.applyConfig c with launch := l } := by
  obtain ⟨i, v, st, pl, at', ma, ss, ec⟩ := c
  have hveh : ∀ (p : Phase XR), ({ p with launch := l } : Phase XR).applyVehicle v =
      { p.applyVehicle v with launch := l } := by
    intro p
    cases v with
    | none => rfl
    | some v =>
      obtain ⟨sm, pm, ra, cd, cl, cy, en⟩ := v
      cases sm <;> cases pm <;> rfl
  have hma : ∀ (p : Phase XR), ({ p with launch := l } : Phase XR).applyMaxAcceleration ma =
      { p.applyMaxAcceleration ma with launch := l } := by
    intro p
    cases ma with
    | none => rfl
    | some a => unfold Phase.applyMaxAcceleration; simp only; split <;> rfl
  have h1 : (({ p with launch := l } : Phase XR).applyPlanet pl).applyAtmosphere at' =
      { (p.applyPlanet pl).applyAtmosphere at' with launch := l } := by
    cases pl <;> cases at' <;> rfl
  unfold Phase.applyConfig
  simp only [h1, hveh, hma]
  cases st <;> cases ss <;> cases ec <;> rfl

theorem new_turn {prev : Option (Phase XR)} {c : PhaseConfig XR} (hc : RealConfig c) :
    Phase.new (prev.map (turnPhase δ)) (turnConfig δ c) = (Phase.new prev c).map (turnPhase δ) := by
  cases prev with
  | some q => simp only [Phase.new, Option.map, applyConfig_turn]; rfl
  | none =>
    unfold Phase.new
    simp only [Option.map]
    have e : (turnConfig δ c).init = c.init.map fun i => { i with longitude := i.longitude + .fin δ } :=
      rfl
    rw [e]
    cases hi : c.init with
    | none => rfl
    | some i =>
      simp only [Option.map, Except.map]
      congr 1
      have hreal := (applyConfig_real realPhase_default.1 realPhase_default.2 hc).1
      rw [← init_turn hreal (hc.init i hi), ← applyConfig_turn, turnPhase_default]
      conv_rhs => rw [applyConfig_launch]
      rfl

/-! ## The symmetry -/

/-- the vector of the integrated quantities, turned -/
noncomputable def turn7 (θ : ℝ) (y : Fin 7 → XR) : Fin 7 → XR :=
  vec7 (turnVec θ ⟨y 0, y 1, y 2⟩).x (turnVec θ ⟨y 0, y 1, y 2⟩).y (turnVec θ ⟨y 0, y 1, y 2⟩).z
    (turnVec θ ⟨y 3, y 4, y 5⟩).x (turnVec θ ⟨y 3, y 4, y 5⟩).y (turnVec θ ⟨y 3, y 4, y 5⟩).z (y 6)

/-- turning about the polar axis -/
noncomputable def turnSymmetry (δ : ℝ) : Symmetry where
  onState := turnState δ
  onVec := turn7 (rad δ)
  onPhase := turnPhase δ
  onConfig := turnConfig δ
  onRow := turnRow δ
  Good := Phase.UsesOnly LongitudeFree
  GoodConfig := Spec.UsesOnly LongitudeFree
  vec_add := by
    intro x y hx hy
    have h1 := turnVec_add (θ := rad δ) (v := ⟨x 0, x 1, x 2⟩) (w := ⟨y 0, y 1, y 2⟩)
      ⟨hx 0, hx 1, hx 2⟩ ⟨hy 0, hy 1, hy 2⟩
    have h2 := turnVec_add (θ := rad δ) (v := ⟨x 3, x 4, x 5⟩) (w := ⟨y 3, y 4, y 5⟩)
      ⟨hx 3, hx 4, hx 5⟩ ⟨hy 3, hy 4, hy 5⟩
    funext i
    fin_cases i
    · exact congrArg V3.x h1
    · exact congrArg V3.y h1
    · exact congrArg V3.z h1
    · exact congrArg V3.x h2
    · exact congrArg V3.y h2
    · exact congrArg V3.z h2
    · rfl
  vec_scale := by
    rintro _ y ⟨c, rfl⟩ hy
    have h : ∀ v : V3 XR, RealVec v → turnVec (rad δ) (V3.smul (.fin c) v) =
        V3.smul (.fin c) (turnVec (rad δ) v) := by
      intro v hv
      obtain ⟨r, rfl⟩ := realVec_iff.1 hv
      rw [turnVec_fin, V3.fin_smul', V3.fin_smul', turnVec_fin, V3.fin_inj]
      simp only [rturn, rscale, V3.mk.injEq]
      refine ⟨?_, ?_, trivial⟩ <;> first | trivial | ring1
    have h1 := h ⟨y 0, y 1, y 2⟩ ⟨hy 0, hy 1, hy 2⟩
    have h2 := h ⟨y 3, y 4, y 5⟩ ⟨hy 3, hy 4, hy 5⟩
    funext i
    fin_cases i
    · exact congrArg V3.x h1
    · exact congrArg V3.y h1
    · exact congrArg V3.z h1
    · exact congrArg V3.x h2
    · exact congrArg V3.y h2
    · exact congrArg V3.z h2
    · rfl
  vec_zero := by
    have h : turnVec (rad δ) ⟨0, 0, 0⟩ = (⟨0, 0, 0⟩ : V3 XR) := turnVec_zero
    funext i
    fin_cases i
    · exact congrArg V3.x h
    · exact congrArg V3.y h
    · exact congrArg V3.z h
    · exact congrArg V3.x h
    · exact congrArg V3.y h
    · exact congrArg V3.z h
    · rfl
  fromVec := by
    intro t y _
    unfold State.fromVec turnState State.default
    simp only [turnVec_zero]
    rfl
  primary := by
    intro s _
    funext i
    fin_cases i <;> rfl
  differentials := by
    intro s _
    funext i
    fin_cases i <;> rfl
  times := fun _ => ⟨rfl, rfl⟩
  row := fun _ => rfl
  inj := by
    intro s s' h h' e
    have hf := fun {α : Type} (f : State XR → α) => congrArg f e
    ext1
    case position => exact turnVec_inj h.position h'.position (hf State.position)
    case positionPlanet => exact turnVec_inj h.positionPlanet h'.positionPlanet (hf State.positionPlanet)
    case velocity => exact turnVec_inj h.velocity h'.velocity (hf State.velocity)
    case velocityPlanet => exact turnVec_inj h.velocityPlanet h'.velocityPlanet (hf State.velocityPlanet)
    case velocityAtmosphere =>
      exact turnVec_inj h.velocityAtmosphere h'.velocityAtmosphere (hf State.velocityAtmosphere)
    case acceleration => exact turnVec_inj h.acceleration h'.acceleration (hf State.acceleration)
    case gravityAcceleration =>
      exact turnVec_inj h.gravityAcceleration h'.gravityAcceleration (hf State.gravityAcceleration)
    case time => exact hf State.time
    case timeSinceEvent => exact hf State.timeSinceEvent
    case altitude => exact hf State.altitude
    case altitudeGeopotential => exact hf State.altitudeGeopotential
    case thrustForceBody => exact hf State.thrustForceBody
    case aeroForceBody => exact hf State.aeroForceBody
    case vehicleAccelerationBody => exact hf State.vehicleAccelerationBody
    case mass => exact hf State.mass
    case propellantMass => exact hf State.propellantMass
    case massflow => exact hf State.massflow
    case temperature => exact hf State.temperature
    case pressure => exact hf State.pressure
    case density => exact hf State.density
    case machNumber => exact hf State.machNumber
    case dynamicPressure => exact hf State.dynamicPressure
    case alpha => exact hf State.alpha
    case eulerAngles => exact hf State.eulerAngles
    case throttle => exact hf State.throttle
  state := fun _ => rfl
  control := fun _ => ⟨rfl, rfl, rfl, rfl, rfl⟩
  update := fun _ _ _ _ _ => rfl
  good_update := fun _ _ _ _ _ h => ⟨h.1, h.2, h.3, h.4, h.5, h.6, h.7⟩
  system := fun _ _ h1 h2 h3 h4 h5 => C72_system h1 h2 h3 (State.reals_iff.1 h4) h5
  crit := fun _ _ h hs => getValue_turn h.endCriterion hs
  reset := fun _ _ => rfl
  start := turn_default
  new := by
    intro prev c hprev hc hu
    refine ⟨new_turn hc, fun p hp => ⟨Phase.UsesOnly.new (by unfold LongitudeFree; decide)
      (by unfold LongitudeFree; decide) (fun q hq => (hprev q hq).1) hu hp, ?_⟩⟩
    have hbase : RealPhase (Phase.base prev) ∧ AllReal (Phase.base prev).state := by
      cases prev with
      | none => exact realPhase_default
      | some q => exact (hprev q rfl).2
    obtain ⟨h1, h2⟩ := applyConfig_real hbase.1 hbase.2 hc
    rcases Phase.new_ok hp with ⟨_, rfl⟩ | ⟨_, i, hi, rfl⟩
    · exact State.reals_iff.2 h2
    · have := State.reals_iff.2 (C71_new (fun q hq => (hprev q hq).2) hc hp).2
      exact { this with timeSinceEvent := (State.reals_iff.2 h2).timeSinceEvent }

theorem turnSymmetry_onOut (o : SimOut XR) : (turnSymmetry δ).onOut o = turnOut δ o := by
  unfold Symmetry.onOut turnOut
  congr 1

/-- **C72** The same mission from another longitude.  If no table, steering axis or end criterion
looks at an equatorial component of a vector, the numbers of the mission are actual numbers and its
flight stays away from the singularities of the equations of motion, then launching it `δ` degrees
further east, in a wind turned by the same angle, changes nothing in the course of the simulation -
neither whether it ends or panics, nor any step, time, altitude, speed, angle, force, mass - except
that the vectors of the inertial and of the planet's frame are turned by `δ` degrees about the polar
axis. -/
theorem C72_longitude {cs : List (PhaseConfig XR)} (hc : ∀ c ∈ cs, RealConfig c)
    (hu : ∀ c ∈ cs, UsesOnly LongitudeFree c)
    (hf : ∀ done c rest p, cs = done ++ c :: rest → Ready done c p → FliesRegularly p) (δ : ℝ)
    (fuel : ℕ) :
    Simulation.run fuel (cs.map (turnConfig δ)) = (Simulation.run fuel cs).map (turnOut δ) := by
  have h := (turnSymmetry δ).simulation (cs := cs) (fun c h => ⟨hc c h, hu c h⟩) hf fuel
  rw [show (turnSymmetry δ).onOut = turnOut δ from funext turnSymmetry_onOut] at h
  exact h

/-- **C72** ... in terms of the outcomes: the turned mission ends with an outcome if and only if the
original one ends with an outcome of which the former is the turned version. -/
theorem C72_outcome {cs : List (PhaseConfig XR)} (hc : ∀ c ∈ cs, RealConfig c)
    (hu : ∀ c ∈ cs, UsesOnly LongitudeFree c)
    (hf : ∀ done c rest p, cs = done ++ c :: rest → Ready done c p → FliesRegularly p) (δ : ℝ)
    (o' : SimOut XR) : Simulation.Terminates (cs.map (turnConfig δ)) o' ↔
      ∃ o, Simulation.Terminates cs o ∧ o' = turnOut δ o := by
  constructor
  · rintro ⟨fuel, h⟩
    rw [C72_longitude hc hu hf] at h
    cases hr : Simulation.run fuel cs with
    | none => rw [hr] at h; cases h
    | some o =>
      rw [hr] at h
      injection h with h
      exact ⟨o, ⟨fuel, hr⟩, h.symm⟩
  · rintro ⟨o, ⟨fuel, h⟩, rfl⟩
    exact ⟨fuel, by rw [C72_longitude hc hu hf, h]; rfl⟩

/-- `UsesOnly LongitudeFree` holds of a launch with an engine, a drag table over the Mach number, a
pitch program over the velocity relative to the planet and an end criterion on the altitude. -/
example : UsesOnly LongitudeFree { exampleBurn with
    vehicle := some ⟨some (.fin 1000), some (.fin 10), some (.fin 3),
      some (.d1 ⟨(.machNumber, [.fin 0, .fin 2]), [.fin 0.5, .fin 0.7], .linear⟩), none, none,
      some [exampleEngine.toEngine]⟩
    steering := some ⟨none, none, some ⟨.velocityPlanetNorm, .fin 1, .fin 0, .fin 0⟩⟩
    endCriterion := some (.altitude, .fin 1000) } where
  drag := by
    rintro v ⟨⟩ t ⟨⟩ x hx
    simp only [tableVariables, List.mem_cons, List.not_mem_nil, or_false] at hx
    subst hx
    unfold LongitudeFree; decide
  lift := by rintro v ⟨⟩ t ⟨⟩
  side := by rintro v ⟨⟩ t ⟨⟩
  roll := by rintro s ⟨⟩ a ⟨⟩
  yaw := by rintro s ⟨⟩ a ⟨⟩
  pitch := by rintro s ⟨⟩ a ⟨⟩; unfold LongitudeFree; decide
  endCriterion := by rintro e ⟨⟩; unfold LongitudeFree; decide

/-- The hypotheses of the theorems are met by a flight of one second, whatever the change of the
longitude. -/
example (o' : SimOut XR) : Simulation.Terminates [turnConfig δ exampleSecond] o' ↔
    ∃ o, Simulation.Terminates [exampleSecond] o ∧ o' = turnOut δ o := by
  refine C72_outcome (cs := [exampleSecond]) (by simpa using exampleSecond_real) ?_ ?_ δ o'
  · intro c hc
    rw [List.mem_singleton] at hc
    subst hc
    exact ⟨by rintro v ⟨⟩ t ⟨⟩, by rintro v ⟨⟩ t ⟨⟩, by rintro v ⟨⟩ t ⟨⟩, by rintro v ⟨⟩,
      by rintro v ⟨⟩, by rintro v ⟨⟩, by rintro v ⟨⟩; unfold LongitudeFree; decide⟩
  · intro done c rest p e hr
    cases done with
    | nil =>
      rw [List.nil_append, List.cons.injEq] at e
      rw [← e.1] at hr
      exact exampleSecond_regular hr
    | cons a l => simp at e

/-- Turning does something: a quarter turn takes the first axis to the second. -/
example : turnVec (rad 90) (V3.fin ⟨1, 0, 0⟩) = V3.fin ⟨0, 1, 0⟩ := by
  rw [turnVec_fin, V3.fin_inj]
  have : rad 90 = Real.pi / 2 := by unfold rad; ring
  simp [rturn, this]

end Post
