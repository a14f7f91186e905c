import Verif.Lemmas.Real
import Verif.Props.Rocket
/-! # C71: numbers stay numbers.  Exact arithmetic. -/

namespace Post
open Spec Flt

variable {p : Phase XR} {s : State XR}

theorem RealAxis.angle {a : Axis XR} (h : RealAxis a) (hv : IsReal (a.var.getValue s)) :
    IsReal (a.angle s) := by
  obtain ⟨⟨c0, h0⟩, ⟨c1, h1⟩, ⟨c2, h2⟩, ⟨c3, h3⟩⟩ := h
  obtain ⟨y, hy⟩ := hv
  exact ⟨_, C16_axis_angle hy h0 h1 h2 h3⟩

theorem RealPlanetData.gravity {pl : Planet XR} (h : RealPlanetData pl) {r : V3 ℝ}
    (hr : r ≠ ⟨0, 0, 0⟩) : RealVec (pl.gravity r.fin) := by
  obtain ⟨a, b, ha, hb, -, -, ⟨μ, hμ⟩, ⟨j2, h2⟩, ⟨j3, h3⟩, ⟨j4, h4⟩, ⟨ω, hω⟩⟩ := h
  have : pl = realPlanet a b μ j2 j3 j4 ω := by
    rcases pl with ⟨_, _, ⟨_, _, _, _⟩, _⟩
    simp only at ha hb hμ h2 h3 h4 hω
    subst ha hb hμ h2 h3 h4 hω
    rfl
  rw [this, gravity_grav a b μ j2 j3 j4 ω hr]
  exact realVec_fin _

/-- the quantities of the planet -/
theorem systemPlanet_real (hp : RealPhase p) (hs : s.Reals) (hr : Regular p.planet s) :
    (p.systemPlanet s).Reals := by
  obtain ⟨a, b, m, r, hpa, hpb, hpos, hcore, hm, hm0⟩ := hr
  obtain ⟨a', b', ha', hb', h0a, h0b, -, -, -, -, ⟨ω, hω⟩⟩ := hp.planet
  rw [hpa] at ha'; rw [hpb] at hb'
  injection ha' with ha'; injection hb' with hb'
  subst ha' hb'
  have hr0 : r ≠ ⟨0, 0, 0⟩ := by
    rintro rfl
    rw [(rnorm_eq_zero _).2 rfl] at hcore
    linarith [abs_nonneg (a - b)]
  obtain ⟨halt, hgeo⟩ := altitudes_real hpa hpb h0a h0b hcore
  obtain ⟨v, hv⟩ := realVec_iff.1 hs.velocity
  obtain ⟨t, ht⟩ := hs.time
  exact { hs with
    positionPlanet := by
      show RealVec ((inertialToPlanet s.time p.planet.rotationRate).mulVec s.position)
      rw [ht, hω, hpos, inertialToPlanet_fin t ω, M3.fin_mulVec]
      exact realVec_fin _
    velocityPlanet := by
      show RealVec (p.planet.velocityPlanet s.position s.velocity)
      rw [hpos, hv, velocityPlanet_fin hω]
      exact realVec_fin _
    altitude := by
      show IsReal (p.planet.altitude s.position)
      rw [hpos]; exact halt
    altitudeGeopotential := by
      show IsReal (p.planet.geopotentialAltitude s.position)
      rw [hpos]; exact hgeo
    propellantMass := isReal_sub hs.mass hp.structureMass
    gravityAcceleration := by
      show RealVec (p.planet.gravity s.position)
      rw [hpos]; exact RealPlanetData.gravity hp.planet hr0 }

theorem systemAir_real (hp : RealPhase p) (hs : s.Reals) : (p.systemAir s).Reals :=
  { hs with
    velocityAtmosphere := by
      obtain ⟨v, hv⟩ := realVec_iff.1 hs.velocityPlanet
      obtain ⟨w, hw⟩ := realVec_iff.1 hp.wind
      show RealVec (s.velocityPlanet - p.atmosphere.wind)
      rw [hv, hw, V3.fin_sub']
      exact realVec_fin _ }

theorem systemAtmosphere_real (hs : s.Reals) : (p.systemAtmosphere s).Reals := by
  obtain ⟨h, hh⟩ := hs.altitudeGeopotential
  obtain ⟨l, hl, -⟩ := getTableRow_fin h
  exact { hs with
    temperature := by
      show IsReal (p.atmosphere.temperature s)
      unfold Atmosphere.temperature
      cases p.atmosphere.model
      · exact isReal_zero
      · simp only [hh, stdTemperature_fin hl]; exact isReal_fin _
    pressure := by
      show IsReal (p.atmosphere.pressure s)
      unfold Atmosphere.pressure
      cases p.atmosphere.model
      · exact isReal_zero
      · simp only [hh, stdPressure_fin hl]; exact isReal_fin _
    density := by
      show IsReal (p.atmosphere.density s)
      unfold Atmosphere.density
      cases p.atmosphere.model
      · exact isReal_zero
      · simp only [hh, stdDensity_fin hl]; exact isReal_fin _ }

theorem systemDynamic_real (hs : s.Reals) : (p.systemDynamic s).Reals ∧
    (p.atmosphere.model = .standardAtmosphere1962 → IsReal (p.systemDynamic s).machNumber) := by
  obtain ⟨n, hn⟩ := isReal_norm hs.velocityAtmosphere
  constructor
  · exact { hs with
      dynamicPressure := by
        show IsReal (0.5 * s.density * powi s.velocityAtmosphere.norm 2)
        rw [hn, XR.fin_powi]
        exact isReal_mul (isReal_mul (isReal_sci _ _ _) hs.density) (isReal_fin _) }
  · intro hm
    obtain ⟨h, hh⟩ := hs.altitudeGeopotential
    obtain ⟨l, hl, -⟩ := getTableRow_fin h
    show IsReal (s.velocityAtmosphere.norm / p.atmosphere.speedOfSound s)
    unfold Atmosphere.speedOfSound
    simp only [hm, hh, hn, stdSpeedOfSound_fin hl]
    have hT := layerAt_temperature_pos hl
    have : 0 < Real.sqrt (1.4 * airGasConstant * l.temperature h) :=
      Real.sqrt_pos.2 (mul_pos (mul_pos (by norm_num) airGasConstant_pos) hT)
    rw [XR.fin_div _ _ this.ne']
    exact isReal_fin _

theorem systemAttitude_real (hp : RealPhase p) (hs : s.Reals)
    (hv : ∀ v ∈ [p.steering.roll.var, p.steering.yaw.var, p.steering.pitch.var],
      IsReal (v.getValue s)) : (p.systemAttitude s).Reals :=
  { hs with
    roll := RealAxis.angle hp.steering.1 (hv _ (by simp))
    yaw := RealAxis.angle hp.steering.2.1 (hv _ (by simp))
    pitch := RealAxis.angle hp.steering.2.2 (hv _ (by simp)) }

theorem bodyRotation_real (hp : RealPhase p) (hs : s.Reals) :
    ∃ m : M3 ℝ, p.bodyRotation s = m.fin := by
  obtain ⟨⟨la, h1⟩, ⟨lo, h2⟩, ⟨az, h3⟩⟩ := hp.launch
  obtain ⟨ro, h4⟩ := hs.roll
  obtain ⟨ya, h5⟩ := hs.yaw
  obtain ⟨pi, h6⟩ := hs.pitch
  unfold Phase.bodyRotation inertialToBody
  rw [h1, h2, h3, h4, h5, h6, launchToBody_fin, inertialToLaunch_fin,
    M3.fin_mul]
  exact ⟨_, rfl⟩

theorem systemAlpha_real (hp : RealPhase p) (hs : s.Reals) : (p.systemAlpha s).Reals :=
  { hs with
    alpha := by
      obtain ⟨m, hm⟩ := bodyRotation_real hp hs
      obtain ⟨v, hv⟩ := realVec_iff.1 hs.velocityAtmosphere
      show IsReal (Vehicle.alpha ((p.bodyRotation s).mulVec s.velocityAtmosphere))
      rw [hm, hv, M3.fin_mulVec]
      exact alpha_real _ }


theorem systemPre_real (hp : RealPhase p) (hv : SteersByRealVariables p) (hs : s.Reals)
    (hr : Regular p.planet s) : (p.systemPre s).Reals ∧
      (p.atmosphere.model = .standardAtmosphere1962 → IsReal (p.systemPre s).machNumber) := by
  have h1 := systemAtmosphere_real (p := p) (systemAir_real hp (systemPlanet_real hp hs hr))
  obtain ⟨h2, hmach⟩ := systemDynamic_real (p := p) h1
  have hval : ∀ v ∈ [p.steering.roll.var, p.steering.yaw.var, p.steering.pitch.var],
      IsReal (v.getValue (p.systemDynamic (p.systemAtmosphere (p.systemAir
        (p.systemPlanet s))))) := by
    intro v hmem
    by_cases hm : v = .machNumber
    · cases hmod : p.atmosphere.model with
      | standardAtmosphere1962 => rw [hm]; exact hmach hmod
      | noAtmosphere =>
        exfalso
        obtain ⟨n1, n2, n3⟩ := hv hmod
        simp only [List.mem_cons, List.not_mem_nil, or_false] at hmem
        rcases hmem with h | h | h
        · exact n1 (h.symm.trans hm)
        · exact n2 (h.symm.trans hm)
        · exact n3 (h.symm.trans hm)
    · exact State.reals_iff.1 h2 v hm
  exact ⟨systemAlpha_real hp (systemAttitude_real hp h2 hval), hmach⟩

theorem system_aero_real (hp : RealPhase p) (hv : SteersByRealVariables p) (hs : s.Reals)
    (hr : Regular p.planet s) : ∃ f : V3 ℝ, p.vehicle.aeroForce (p.systemPre s) = .ok f.fin := by
  obtain ⟨hpre, hmach⟩ := systemPre_real hp hv hs hr
  cases hmod : p.atmosphere.model with
  | noAtmosphere =>
    obtain ⟨f, hf⟩ := Vehicle.aeroForce_ok ⟨hp.drag.1, hp.lift.1, hp.side.1⟩ (p.systemPre s)
    exact ⟨⟨0, 0, 0⟩, by rw [hf, aeroForce_of_zero_q (systemPre_vacuum hmod s).2.2.2 hf]⟩
  | standardAtmosphere1962 =>
    refine aeroForce_real hp.drag hp.lift hp.side hp.referenceArea hpre fun x => ?_
    by_cases hx : x = .machNumber
    · rw [hx]; exact hmach hmod
    · exact State.reals_iff.1 hpre x hx

/-- C71 (equations of motion).  If all parameters of the phase and all variables of the state are
actual numbers and the state is away from the singularities, then all variables computed by the
equations of motion are actual numbers too, the Mach number included if there is an atmosphere: no
NaN and no infinity is produced.  The only other outcome is the panic for a violated acceleration
limit. -/
theorem C71_system (hp : RealPhase p) (hv : SteersByRealVariables p) (hs : AllReal s)
    (hr : Regular p.planet s) :
    (∃ s', p.system s = .ok s' ∧ AllReal s' ∧
      (p.atmosphere.model = .standardAtmosphere1962 → IsReal s'.machNumber)) ∨
    (p.system s = .error .maxAcceleration ∧ IsReal p.maxAcceleration) := by
  have hs := State.reals_iff.2 hs
  obtain ⟨hpre, hmach⟩ := systemPre_real hp hv hs hr
  obtain ⟨f, hf⟩ := system_aero_real hp hv hs hr
  obtain ⟨es, hE, hisp⟩ := exists_engines hp.engines
  obtain ⟨-, -, m, -, -, -, -, -, hm, hm0⟩ := hr
  obtain ⟨pr, hpr⟩ := hpre.pressure
  have hm' : (p.systemPre s).mass = .fin m := hm
  have hthr : IsReal (p.systemForces (p.systemPre s) f.fin).throttle := by
    show IsReal (p.vehicle.autoThrottle p.maxAcceleration (p.systemPre s).mass
      (p.systemPre s).pressure f.fin)
    rw [hm', hpr]
    exact autoThrottle_real hE hp.limit hm0 pr f
  obtain ⟨k, hk⟩ := hthr
  have hk' : p.vehicle.autoThrottle p.maxAcceleration (p.systemPre s).mass
      (p.systemPre s).pressure f.fin = .fin k := hk
  have hthrust : (p.systemForces (p.systemPre s) f.fin).thrustForceBody =
      (rscale k (fullThrust es pr)).fin := by
    show p.vehicle.thrustForce (p.vehicle.autoThrottle p.maxAcceleration (p.systemPre s).mass
      (p.systemPre s).pressure f.fin) (p.systemPre s).pressure = _
    rw [hk', hpr, thrustForce_fin hE]
  have hacc : RealVec (p.systemForces (p.systemPre s) f.fin).vehicleAccelerationBody := by
    show RealVec ((f.fin + (p.systemForces (p.systemPre s) f.fin).thrustForceBody).divS
      (p.systemPre s).mass)
    rw [hthrust, hm', V3.fin_add]
    unfold V3.divS V3.fin V3.map
    simp only [XR.fin_div _ _ hm0.ne']
    exact ⟨⟨_, rfl⟩, ⟨_, rfl⟩, ⟨_, rfl⟩⟩
  have hforces : (p.systemForces (p.systemPre s) f.fin).Reals := { hpre with
    aeroForceBody := realVec_fin f
    throttle := ⟨k, hk⟩
    thrustForceBody := hthrust ▸ realVec_fin _
    massflow := by
      show IsReal (p.vehicle.massflow (p.vehicle.autoThrottle p.maxAcceleration
        (p.systemPre s).mass (p.systemPre s).pressure f.fin))
      rw [hk', massflow_fin hE hisp]
      exact isReal_fin _
    vehicleAccelerationBody := hacc }
  have hfinal : (p.systemAcceleration (p.systemForces (p.systemPre s) f.fin)).Reals :=
    { hforces with
      acceleration := by
        obtain ⟨R, hR⟩ := bodyRotation_real hp hforces
        obtain ⟨v, hv⟩ := realVec_iff.1 hforces.vehicleAccelerationBody
        obtain ⟨g, hg⟩ := realVec_iff.1 hforces.gravityAcceleration
        show RealVec ((p.bodyRotation (p.systemForces (p.systemPre s) f.fin)).transpose.mulVec
          (p.systemForces (p.systemPre s) f.fin).vehicleAccelerationBody +
          (p.systemForces (p.systemPre s) f.fin).gravityAcceleration)
        rw [hR, hv, hg, M3.fin_transpose, M3.fin_mulVec, V3.fin_add']
        exact realVec_fin _ }
  have hsys : p.system s = if p.exceedsLimit (p.systemForces (p.systemPre s) f.fin) then
      .error .maxAcceleration
      else .ok (p.systemAcceleration (p.systemForces (p.systemPre s) f.fin)) := by
    unfold Phase.system
    simp only [hf, bind, Except.bind]
  cases hx : p.exceedsLimit (p.systemForces (p.systemPre s) f.fin) with
  | false =>
    left
    refine ⟨_, by rw [hsys, hx]; rfl, State.reals_iff.1 hfinal, hmach⟩
  | true =>
    right
    refine ⟨by rw [hsys, hx]; rfl, ?_⟩
    rcases hp.limit with h | h
    · exfalso
      unfold Phase.exceedsLimit at hx
      rw [hk, XR.isNan_fin, Bool.or_false, h] at hx
      rw [show (Flt.inf : XR) * 1.001 = .pinf from by
        rw [XR.inf_eq, XR.fin_sci]; exact XR.pinf_mul_pos (by norm_num), XR.not_gt_pinf] at hx
      cases hx
    · exact h

/-! ## Steps -/

/-- all components are real -/
def RealFun {n : ℕ} (v : Fin n → XR) : Prop := ∀ i, IsReal (v i)

theorem rk4_real {m n : ℕ} {f : (Fin m → XR) → (Fin n → XR) → Except Panic (Fin n → XR)}
    (hf : ∀ x y v, RealFun x → RealFun y → f x y = .ok v → RealFun v) {x x' : Fin m → XR}
    {y y' : Fin n → XR} {h : XR} (hx : RealFun x) (hy : RealFun y) (hh : IsReal h)
    (hs : RK4.step f x y h = .ok (x', y')) : RealFun x' ∧ RealFun y' := by
  have hsum : ∀ (c : Fin 4 → XR) (k : Fin 4 → Fin n → XR), (∀ i, IsReal (c i)) →
      (∀ i, RealFun (k i)) →
      RealFun (vsum ((List.finRange 4).map fun j => vscale (c j) (k j))) := by
    intro c k hc hk i
    rw [finRange_four]
    exact isReal_add (isReal_add (isReal_add (isReal_add isReal_zero
      (isReal_mul (hc 0) (hk 0 i))) (isReal_mul (hc 1) (hk 1 i))) (isReal_mul (hc 2) (hk 2 i)))
      (isReal_mul (hc 3) (hk 3 i))
  have hstage : ∀ (k k' : Fin 4 → Fin n → XR) (i : Fin 4), (∀ i, RealFun (k i)) →
      RK4.stage f x y h k i = .ok k' → ∀ i, RealFun (k' i) := by
    intro k k' i hk hst
    unfold RungeKutta.stage at hst
    cases hv : f (addScalar x (RK4.c i * h))
        (vadd y (vsum ((List.finRange 4).map fun j => vscale (RK4.a i j) (k j)))) with
    | error e => simp [hv, bind, Except.bind] at hst
    | ok v =>
      simp only [hv, bind, Except.bind] at hst
      injection hst with hst
      have hvr : RealFun v := hf _ _ v
        (fun j => isReal_add (hx j) (isReal_mul ⟨_, rk4_c i⟩ hh))
        (fun j => isReal_add (hy j) (hsum _ k (fun j => ⟨_, rk4_a i j⟩) hk j)) hv
      intro j l
      rw [← hst]
      unfold setCol
      split
      · exact isReal_mul hh (hvr l)
      · exact hk j l
  have hfold : ∀ (l : List (Fin 4)) (k k' : Fin 4 → Fin n → XR), (∀ i, RealFun (k i)) →
      l.foldlM (RK4.stage f x y h) k = .ok k' → ∀ i, RealFun (k' i) := by
    intro l
    induction l with
    | nil =>
      intro k k' hk hst
      simp only [List.foldlM_nil, pure, Except.pure] at hst
      injection hst with hst
      rwa [← hst]
    | cons i l ih =>
      intro k k' hk hst
      simp only [List.foldlM_cons, bind, Except.bind] at hst
      cases h1 : RK4.stage f x y h k i with
      | error e => simp [h1] at hst
      | ok k1 =>
        simp only [h1] at hst
        exact ih k1 k' (hstage k k1 i hk h1) hst
  unfold RungeKutta.step at hs
  cases hk : (List.finRange 4).foldlM (RK4.stage f x y h) (fun _ _ => 0) with
  | error e => simp [hk, bind, Except.bind] at hs
  | ok k =>
    simp only [hk, bind, Except.bind] at hs
    injection hs with hs
    injection hs with h1 h2
    have hkr := hfold _ _ k (fun _ _ => isReal_zero) hk
    refine ⟨fun i => ?_, fun i => ?_⟩
    · rw [← h1]; exact isReal_add (hx i) hh
    · rw [← h2]
      exact isReal_add (hy i) (hsum _ k (fun j => ⟨_, rk4_b j⟩) hkr i)

theorem fromVec_real {t : Fin 2 → XR} {y : Fin 7 → XR} (ht : RealFun t) (hy : RealFun y) :
    (State.fromVec t y).Reals :=
  { State.reals_default with
    time := ht 0
    timeSinceEvent := ht 1
    position := ⟨hy 0, hy 1, hy 2⟩
    velocity := ⟨hy 3, hy 4, hy 5⟩
    mass := hy 6 }

theorem toPrimaryVec_real (hs : s.Reals) : RealFun s.toPrimaryVec := by
  intro i
  fin_cases i
  · exact hs.position.1
  · exact hs.position.2.1
  · exact hs.position.2.2
  · exact hs.velocity.1
  · exact hs.velocity.2.1
  · exact hs.velocity.2.2
  · exact hs.mass

theorem toDifferentials_real (hs : s.Reals) : RealFun s.toDifferentialsVector := by
  intro i
  fin_cases i
  · exact hs.velocity.1
  · exact hs.velocity.2.1
  · exact hs.velocity.2.2
  · exact hs.acceleration.1
  · exact hs.acceleration.2.1
  · exact hs.acceleration.2.2
  · exact hs.massflow

/-- a function that only returns real states makes real steps -/
theorem integrator_real {i : Integrator} {g : State XR → Except Panic (State XR)}
    {Q : State XR → Prop} (hg : ∀ x x', x.Reals → g x = .ok x' → x'.Reals ∧ Q x')
    {h : XR} {s s' : State XR} (hs : s.Reals) (hh : IsReal h) (hstep : i.step g s h = .ok s') :
    s'.Reals ∧ Q s' := by
  cases i
  unfold Integrator.step at hstep
  cases hr : RK4.step (convertedFunc g) (vec2 s.time s.timeSinceEvent) s.toPrimaryVec h with
  | error e => simp [hr, bind, Except.bind] at hstep
  | ok xy =>
    obtain ⟨x', y'⟩ := xy
    simp only [hr, bind, Except.bind] at hstep
    have hx0 : RealFun (vec2 s.time s.timeSinceEvent) := by
      intro i
      fin_cases i
      · exact hs.time
      · exact hs.timeSinceEvent
    obtain ⟨hx, hy⟩ := rk4_real (f := convertedFunc g) (fun x y v hx hy hv => by
      unfold convertedFunc at hv
      cases hgx : g (State.fromVec x y) with
      | error e => simp [hgx, bind, Except.bind] at hv
      | ok d =>
        simp only [hgx, bind, Except.bind, pure, Except.pure] at hv
        injection hv with hv
        rw [← hv]
        exact toDifferentials_real (hg _ _ (fromVec_real hx hy) hgx).1)
      hx0 (toPrimaryVec_real hs) hh hr
    exact hg _ _ (fromVec_real hx hy) hstep

/-- C71 (steps).  An integration step of a real size that only needs the equations of motion in
regular states leads from a state of actual numbers to a state of actual numbers. -/
theorem C71_step (hp : RealPhase p) (hv : SteersByRealVariables p) (hs : AllReal s) {h : XR}
    (hh : IsReal h) (hr : StepRegular p s h) {s' : State XR} (hstep : OneStep p h s s') :
    AllReal s' ∧ (p.atmosphere.model = .standardAtmosphere1962 → IsReal s'.machNumber) := by
  classical
  let g : State XR → Except Panic (State XR) := fun x =>
    if Regular p.planet x then p.system x else .error .underflow
  have hg : p.integrator.step g s h = .ok s' := by
    rw [hr g fun x hx => if_pos hx]; exact hstep
  have := integrator_real (Q := fun x => p.atmosphere.model = .standardAtmosphere1962 →
    IsReal x.machNumber) (fun x x' hx hgx => ?_) (State.reals_iff.2 hs) hh hg
  · exact ⟨State.reals_iff.1 this.1, this.2⟩
  · by_cases hreg : Regular p.planet x
    · simp only [g, if_pos hreg] at hgx
      rcases C71_system hp hv (State.reals_iff.1 hx) hreg with ⟨d, h1, h2, h3⟩ | ⟨h1, -⟩
      · rw [h1] at hgx
        injection hgx with hgx
        subst hgx
        exact ⟨State.reals_iff.2 h2, h3⟩
      · rw [h1] at hgx; cases hgx
    · simp only [g, if_neg hreg] at hgx
      cases hgx

/-! ## Runs -/

theorem RealPhase.of_same {q : Phase XR} (h : Phase.SameParams p q) (hp : RealPhase p) :
    RealPhase q := by
  obtain ⟨h1, h2, h3, h4, h5, -, h7, -, -⟩ := h
  exact ⟨h4 ▸ hp.planet, h5 ▸ hp.launch, h3 ▸ hp.wind, h1 ▸ hp.structureMass,
    h1 ▸ hp.referenceArea, h1 ▸ hp.drag, h1 ▸ hp.lift, h1 ▸ hp.side, h1 ▸ hp.engines,
    h2 ▸ hp.steering, h7 ▸ hp.limit⟩

theorem SteersByRealVariables.of_same {q : Phase XR} (h : Phase.SameParams p q)
    (hp : SteersByRealVariables p) : SteersByRealVariables q := by
  intro hm
  rw [h.atmosphere] at hm
  rw [h.steering]
  exact hp hm

theorem path_real {r q : Phase XR} {ps : List (Phase XR)} (hpath : Path r ps q)
    (hp : RealPhase r) (hv : SteersByRealVariables r) (hs : AllReal r.state)
    (hreg : ∀ ps' q', Path r ps' q' → q'.ended = false →
      IsReal q'.stepsize ∧ StepRegular q' q'.state q'.stepsize) :
    ∀ r' ∈ ps, AllReal r'.state := by
  induction hpath with
  | nil r => intro r' hr'; simp at hr'
  | @cons r r1 q ps h1 h2 h3 ih =>
    have hsame := Phase.step_sameParams h2
    obtain ⟨hh, hst⟩ := hreg [] r (.nil r) h1
    have hI1 : AllReal r1.state := by
      obtain ⟨_, s, hs', h | h | h⟩ := Phase.step_ok h2
      · rw [h.2]; exact (C71_step hp hv hs hh hst hs').1
      · rw [h.2.2.2]; exact hs
      · rw [h.2.2]; exact (C71_step hp hv hs hh hst hs').1
    intro r' hr'
    rcases List.mem_cons.1 hr' with rfl | hr'
    · exact hI1
    · exact ih (RealPhase.of_same hsame hp) (SteersByRealVariables.of_same hsame hv) hI1
        (fun ps' q' hpath' he => hreg (r1 :: ps') q' (.cons h1 h2 hpath') he) r' hr'

/-- C71 (runs).  In a run of a phase that stays away from the singularities, started with actual
numbers, every variable of every state it visits is an actual number. -/
theorem C71_visited (hp : RealPhase p) (hs : AllReal p.state) (hf : FliesRegularly p)
    {s : State XR} (h : Visited p s) : AllReal s := by
  obtain ⟨hv, hr, hreg⟩ := hf
  obtain ⟨s0, ps, q, h0, hpath, hs'⟩ := h
  have h1 : AllReal s0 := by
    rcases C71_system hp hv hs hr with ⟨d, e1, e2, -⟩ | ⟨e1, -⟩
    · rw [e1] at h0; injection h0 with h0; rwa [← h0]
    · rw [e1] at h0; cases h0
  rcases hs' with rfl | ⟨r, hr', rfl⟩
  · exact h1
  · exact path_real hpath ⟨hp.1, hp.2, hp.3, hp.4, hp.5, hp.6, hp.7, hp.8, hp.9, hp.10, hp.11⟩
      hv h1 (fun ps' q' hp' he => hreg s0 ps' q' h0 hp' he) r hr'

theorem row_real (h : AllReal s) : RealRow s.row := by
  have h := State.reals_iff.2 h
  exact ⟨h.time, h.positionPlanet, h.velocity, h.altitude, h.propellantMass⟩


/-! ## Configurations -/

theorem realPlanet_default : RealPlanetData (EARTH_SPHERICAL : Planet XR) := by
  refine ⟨2.0925741e7 * 3.048e-01, 2.0925741e7 * 3.048e-01, rfl, rfl, by norm_num, by norm_num,
    ?_, isReal_zero, isReal_zero, isReal_zero, ⟨_, rfl⟩⟩
  exact ⟨_, rfl⟩

theorem realTable_default : RealTable (Table.default : Table XR) :=
  ⟨default_wellFormed, by simp [Table.default], by simp [Table.default]⟩

theorem realPhase_default : RealPhase Phase.default ∧ AllReal (Phase.default : Phase XR).state :=
  ⟨⟨realPlanet_default, ⟨isReal_zero, isReal_zero, isReal_zero⟩, realVec_zero, isReal_zero,
    isReal_zero, realTable_default, realTable_default, realTable_default, by
      intro e he; simp [Phase.default, Vehicle.default] at he,
    ⟨⟨isReal_zero, isReal_zero, isReal_zero, isReal_zero⟩,
      ⟨isReal_zero, isReal_zero, isReal_zero, isReal_zero⟩,
      ⟨isReal_zero, isReal_zero, isReal_zero, isReal_zero⟩⟩, .inl rfl⟩,
    State.reals_iff.1 State.reals_default⟩

theorem realAxis_update {a : Axis XR} (ha : RealAxis a) {c : Option (AxisConfig XR)}
    (hc : ∀ x, c = some x → RealAxisConfig x) : RealAxis (a.updateWithConfig c) := by
  cases c with
  | none => exact ha
  | some x => exact ⟨ha.1, (hc x rfl).1, (hc x rfl).2.1, (hc x rfl).2.2⟩

theorem getD_real {α : Type} {P : α → Prop} {o : Option α} {d : α} (hd : P d)
    (h : ∀ x, o = some x → P x) : P (o.getD d) := by
  cases o with
  | none => exact hd
  | some x => exact h x rfl

theorem applyConfig_real {c : PhaseConfig XR} (hp : RealPhase p) (hs : AllReal p.state)
    (hc : RealConfig c) : RealPhase (p.applyConfig c) ∧ AllReal (p.applyConfig c).state := by
  have hs := State.reals_iff.2 hs
  rw [← State.reals_iff]
  unfold Phase.applyConfig
  dsimp only
  -- planet
  have h1 : RealPhase (p.applyPlanet c.planetModel) ∧ (p.applyPlanet c.planetModel).state.Reals := by
    cases h : c.planetModel with
    | none => exact ⟨hp, hs⟩
    | some x => exact ⟨{ hp with planet := hc.planet x h }, hs⟩
  generalize p.applyPlanet c.planetModel = p1 at h1 ⊢
  -- atmosphere
  have h2 : RealPhase (p1.applyAtmosphere c.atmosphere) ∧
      (p1.applyAtmosphere c.atmosphere).state.Reals := by
    cases h : c.atmosphere with
    | none => exact h1
    | some x =>
      refine ⟨{ h1.1 with wind := ?_ }, h1.2⟩
      show RealVec (p1.atmosphere.updateWithConfig x).wind
      unfold Atmosphere.updateWithConfig
      cases hw : x.wind with
      | some w => exact hc.wind x w h hw
      | none =>
        cases x.enabled with
        | none => exact h1.1.wind
        | some b => cases b <;> exact h1.1.wind
  generalize p1.applyAtmosphere c.atmosphere = p2 at h2 ⊢
  -- vehicle
  have h3 : RealPhase (p2.applyVehicle c.vehicle) ∧ (p2.applyVehicle c.vehicle).state.Reals := by
    cases h : c.vehicle with
    | none => exact h2
    | some x =>
      have hx := hc.vehicle x h
      have hv : RealPhase { p2 with vehicle := p2.vehicle.updateWithConfig x } :=
        { h2.1 with
          structureMass := getD_real h2.1.structureMass hx.structureMass
          referenceArea := getD_real h2.1.referenceArea hx.referenceArea
          drag := getD_real h2.1.drag hx.drag
          lift := getD_real h2.1.lift hx.lift
          side := getD_real h2.1.side hx.side
          engines := getD_real (P := fun es => ∀ e ∈ es, RealEngineData e) h2.1.engines
            hx.engines }
      show RealPhase ((Phase.applyStructureMass { p2 with vehicle := p2.vehicle.updateWithConfig x }
        x.structureMass).applyPropellantMass x.propellantMass) ∧ State.Reals (Phase.state
        ((Phase.applyStructureMass { p2 with vehicle := p2.vehicle.updateWithConfig x }
        x.structureMass).applyPropellantMass x.propellantMass))
      have hvs : ({ p2 with vehicle := p2.vehicle.updateWithConfig x } : Phase XR).state.Reals :=
        h2.2
      generalize ({ p2 with vehicle := p2.vehicle.updateWithConfig x } : Phase XR) = pv at hv hvs ⊢
      have hm : RealPhase (pv.applyStructureMass x.structureMass) ∧
          (pv.applyStructureMass x.structureMass).state.Reals := by
        cases hsm : x.structureMass with
        | none => exact ⟨hv, hvs⟩
        | some m =>
          exact ⟨{ hv with }, { hvs with
            mass := isReal_add hvs.propellantMass (hx.structureMass m hsm) }⟩
      generalize pv.applyStructureMass x.structureMass = pm at hm ⊢
      cases hpm : x.propellantMass with
      | none => exact hm
      | some m =>
        exact ⟨{ hm.1 with }, { hm.2 with
          mass := isReal_add hm.1.structureMass (hx.propellantMass m hpm) }⟩
  generalize p2.applyVehicle c.vehicle = p3 at h3 ⊢
  have h4 : RealPhase (p3.applyMaxAcceleration c.maxAcceleration) ∧
      (p3.applyMaxAcceleration c.maxAcceleration).state.Reals := by
    cases h : c.maxAcceleration with
    | none => exact h3
    | some x =>
      unfold Phase.applyMaxAcceleration
      simp only
      split
      · exact ⟨{ h3.1 with limit := .inl rfl }, h3.2⟩
      · exact ⟨{ h3.1 with limit := .inr (hc.maxAcceleration x h) }, h3.2⟩
  generalize p3.applyMaxAcceleration c.maxAcceleration = p4 at h4 ⊢
  have h5 : RealPhase (p4.applySteering c.steering) ∧ (p4.applySteering c.steering).state.Reals := by
    cases h : c.steering with
    | none => exact h4
    | some x =>
      obtain ⟨r1, r2, r3⟩ := hc.steering x h
      exact ⟨{ h4.1 with steering := ⟨realAxis_update h4.1.steering.1 r1,
        realAxis_update h4.1.steering.2.1 r2, realAxis_update h4.1.steering.2.2 r3⟩ }, h4.2⟩
  generalize p4.applySteering c.steering = p5 at h5 ⊢
  have h6 : RealPhase (p5.applyStepsize c.stepsize) ∧ (p5.applyStepsize c.stepsize).state.Reals := by
    cases c.stepsize with
    | none => exact h5
    | some x => exact ⟨{ h5.1 with }, h5.2⟩
  generalize p5.applyStepsize c.stepsize = p6 at h6 ⊢
  cases c.endCriterion with
  | none => exact h6
  | some x => exact ⟨{ h6.1 with }, h6.2⟩

/-- C71 (configuration).  If all numbers of the previous phase (or the defaults) and all numbers
written in the configuration are actual numbers, so are all numbers of the new phase. -/
theorem C71_new {prev : Option (Phase XR)} {c : PhaseConfig XR}
    (hprev : ∀ q, prev = some q → RealPhase q ∧ AllReal q.state) (hc : RealConfig c)
    (h : Phase.new prev c = .ok p) : RealPhase p.reset ∧ AllReal p.reset.state := by
  have hbase : RealPhase (Phase.base prev) ∧ AllReal (Phase.base prev).state := by
    cases prev with
    | none => exact realPhase_default
    | some q => exact hprev q rfl
  obtain ⟨h1, h2⟩ := applyConfig_real hbase.1 hbase.2 hc
  have hp : RealPhase p ∧ p.state.Reals := by
    rcases Phase.new_ok h with ⟨_, rfl⟩ | ⟨_, i, hi, rfl⟩
    · exact ⟨h1, State.reals_iff.2 h2⟩
    · obtain ⟨⟨la, hla⟩, ⟨lo, hlo⟩, ⟨az, haz⟩⟩ := hc.init i hi
      obtain ⟨a, b, ha, hb, h0a, h0b, -, -, -, -, ω, hω⟩ := h1.planet
      generalize (Phase.base prev).applyConfig c = q at *
      obtain ⟨la', lo', az', alt⟩ := i
      simp only at hla hlo haz
      subst hla hlo haz
      obtain ⟨g, e1, e2, e3, -⟩ := init_fin ha hb hω h0a h0b la lo az alt
      refine ⟨{ h1 with launch := ?_ }, { State.reals_iff.2 h2 with position := ?_, velocity := ?_ }⟩
      · rw [e1]; exact ⟨isReal_fin _, isReal_fin _, isReal_fin _⟩
      · rw [e2]; exact realVec_fin _
      · rw [e3]; exact realVec_fin _
  have hdeg : ∀ x : XR, IsReal x → IsReal (toDegrees x) := by
    rintro x ⟨r, rfl⟩; exact ⟨_, toDegrees_fin r⟩
  refine ⟨{ hp.1 with steering := ?_ }, State.reals_iff.1 { hp.2 with timeSinceEvent := isReal_zero }⟩
  obtain ⟨s1, s2, s3⟩ := hp.1.steering
  exact ⟨⟨hdeg _ hp.2.roll, s1.2⟩, ⟨hdeg _ hp.2.yaw, s2.2⟩, ⟨hdeg _ hp.2.pitch, s3.2⟩⟩

/-! ## Simulations -/

theorem run_real (hp : RealPhase p) (hs : AllReal p.state) (hf : FliesRegularly p) {fuel : Nat}
    {rows : List (Row XR)} {res : Except Panic (Phase XR)} (h : p.run fuel = some ⟨rows, res⟩) :
    (∀ r ∈ rows, RealRow r) ∧ ∀ q, res = .ok q → RealPhase q ∧ AllReal q.state := by
  obtain ⟨h1, h2⟩ := Spec.visited_of_run h
  refine ⟨fun r hr => ?_, fun q hq => ⟨?_, C71_visited hp hs hf (h2 q hq)⟩⟩
  · obtain ⟨s, hs', rfl⟩ := h1 r hr
    exact row_real (C71_visited hp hs hf hs')
  · subst hq
    exact RealPhase.of_same (Phase.run_ok_sameParams h) hp

theorem sequence_snoc {F : Type} [Flt F] {done : List (PhaseConfig F)} {prev : Option (Phase F)}
    {log : List (LogEntry F)} (h : Sequence 0 none done log prev) {c : PhaseConfig F}
    {rows : List (Row F)} {q : Phase F} (hc : Completes prev c rows q) :
    ∃ log', Sequence 0 none (done ++ [c]) log' (some q) :=
  ⟨_, C53_append.2 ⟨prev, log, _, h, .cons hc (.nil _ _), rfl⟩⟩

theorem sequence_real {cs : List (PhaseConfig XR)} {i : Nat} {prev last : Option (Phase XR)}
    {log : List (LogEntry XR)} (h : Sequence i prev cs log last)
    (hprev : ∀ q, prev = some q → RealPhase q ∧ AllReal q.state)
    (hc : ∀ c ∈ cs, RealConfig c) {done : List (PhaseConfig XR)} {log0 : List (LogEntry XR)}
    (hdone : Sequence 0 none done log0 prev)
    (hf : ∀ mid c rest p, cs = mid ++ c :: rest → Ready (done ++ mid) c p → FliesRegularly p) :
    (∀ r, LogEntry.row r ∈ log → RealRow r) ∧
      ∀ q, last = some q → RealPhase q ∧ AllReal q.state := by
  induction h generalizing done log0 with
  | nil => exact ⟨by simp, hprev⟩
  | @cons i prev last c cs rows log q hcomp hrest ih =>
    obtain ⟨p, hnew, fuel, hrun⟩ := hcomp
    obtain ⟨hp, hs⟩ := C71_new hprev (hc c (by simp)) hnew
    have hfly := hf [] c cs p.reset rfl ⟨log0, prev, p, by simpa using hdone, hnew, rfl⟩
    obtain ⟨hrows, hq⟩ := run_real hp hs hfly hrun
    obtain ⟨log1, hdone1⟩ := sequence_snoc hdone (c := c) ⟨p, hnew, fuel, hrun⟩
    obtain ⟨h1, h2⟩ := ih (fun q' hq' => by injection hq' with hq'; subst hq'; exact hq q rfl)
      (fun c' hc' => hc c' (by simp [hc'])) hdone1
      (fun mid c' rest p' e hr => hf (c :: mid) c' rest p' (by simp [e]) (by simpa using hr))
    refine ⟨fun r hr => ?_, h2⟩
    simp only [List.cons_append, List.mem_cons, List.mem_append, List.mem_map, reduceCtorEq,
      false_or] at hr
    rcases hr with ⟨r', hr', e⟩ | hr
    · injection e with e; subst e; exact hrows _ hr'
    · exact h1 r hr

/-- C71 (simulations).  If all numbers written in the configuration of a simulation are actual
numbers and the flight of each phase stays away from the singularities, then all numbers in the
output are actual numbers - also in what is printed before a panic - and so are those of the
returned state. -/
theorem C71_simulation {cs : List (PhaseConfig XR)} (hc : ∀ c ∈ cs, RealConfig c)
    (hf : ∀ done c rest p, cs = done ++ c :: rest → Ready done c p → FliesRegularly p)
    {o : SimOut XR} (h : Simulation.Terminates cs o) :
    (∀ r, LogEntry.row r ∈ o.log → RealRow r) ∧ ∀ s, o.result = .ok s → AllReal s := by
  obtain ⟨log, res⟩ := o
  cases res with
  | ok s =>
    obtain ⟨last, hseq, rfl⟩ := C53_terminates_ok_iff.1 h
    obtain ⟨h1, h2⟩ := sequence_real hseq (fun q hq => by cases hq) hc (.nil 0 none)
      (fun mid c rest p e hr => hf mid c rest p e (by simpa using hr))
    refine ⟨h1, fun s hs => ?_⟩
    injection hs with hs
    subst hs
    cases last with
    | none => exact State.reals_iff.1 State.reals_default
    | some q => exact (h2 q rfl).2
  | error e =>
    obtain ⟨done, c, rest, log', last, rows, rfl, hseq, hab, rfl⟩ :=
      C53_terminates_error_iff.1 h
    obtain ⟨h1, h2⟩ := sequence_real hseq (fun q hq => by cases hq)
      (fun c' hc' => hc c' (by simp [hc'])) (.nil 0 none)
      (fun mid c' rest' p e hr => hf mid c' (rest' ++ c :: rest) p (by simp [e]) (by simpa using hr))
    refine ⟨fun r hr => ?_, fun s hs => by cases hs⟩
    simp only [List.mem_append, List.mem_cons, List.mem_map, reduceCtorEq, false_or] at hr
    rcases hr with hr | ⟨r', hr', e⟩
    · exact h1 r hr
    · injection e with e
      subst e
      rcases hab with ⟨_, rfl⟩ | ⟨p, hnew, fuel, hrun⟩
      · simp at hr'
      · obtain ⟨hp, hs⟩ := C71_new h2 (hc c (by simp)) hnew
        have hfly := hf done c rest p.reset rfl ⟨log', last, p, hseq, hnew, rfl⟩
        exact (run_real hp hs hfly hrun).1 _ hr'


/-! ## Step sizes -/

/-- C71 (step sizes).  The corrected step size that follows a discarded step is an actual number,
unless the variable of the end criterion did not change at all in that step. -/
theorem C71_stepsize (hp : RealPhase p) (hv : SteersByRealVariables p) (hs : AllReal p.state)
    (hh : IsReal p.stepsize) (hr : StepRegular p p.state p.stepsize)
    (hc : IsReal p.endCriterion.2) (hx : p.endCriterion.1 ≠ .machNumber) {p' : Phase XR}
    (h : p.step = .ok p') :
    IsReal p'.stepsize ∨ ∃ s', OneStep p p.stepsize p.state s' ∧
      p.endCriterion.1.getValue s' = p.endCriterion.1.getValue p.state := by
  obtain ⟨_, s', hs', h | h | h⟩ := Phase.step_ok h
  · left; rw [h.2]; exact hh
  · by_cases he : p.endCriterion.1.getValue s' = p.endCriterion.1.getValue p.state
    · exact .inr ⟨s', hs', he⟩
    · left
      rw [h.2.2.2]
      show IsReal (p.timeToGo p.state s')
      obtain ⟨y0, h0⟩ := hs _ hx
      obtain ⟨y1, h1⟩ := (C71_step hp hv hs hh hr hs').1 _ hx
      obtain ⟨c, hc⟩ := hc
      obtain ⟨k, hk⟩ := hh
      unfold Phase.timeToGo Phase.critValue
      rw [h0, h1] at he
      rw [h0, h1, hc, hk]
      simp only [XR.fin_sub, XR.fin_neg, XR.fin_mul]
      rw [XR.fin_div]
      · exact isReal_fin _
      · intro h0'
        apply he
        congr 1
        linarith
  · left; rw [h.2.2]; exact hh

/-! ## A sufficient condition for regular steps -/

theorem rk4_congr {F : Type} [Flt F] {m n : ℕ}
    {f g : (Fin m → F) → (Fin n → F) → Except Panic (Fin n → F)} {x : Fin m → F} {y : Fin n → F}
    {h : F} {X : (Fin m → F) → Prop} {P Q : (Fin n → F) → Prop}
    (hX : ∀ i, X (addScalar x (RK4.c i * h)))
    (hfg : ∀ x y, X x → P y → g x y = f x y) (hQ : ∀ x y v, X x → P y → f x y = .ok v → Q v)
    (h1 : P (fun i => y i + ((((0 + 0 * 0) + 0 * 0) + 0 * 0) + 0 * 0)))
    (h2 : ∀ v1, Q v1 →
      P (fun i => y i + ((((0 + 0.5 * (h * v1 i)) + 0 * 0) + 0 * 0) + 0 * 0)))
    (h3 : ∀ v1 v2, Q v1 → Q v2 →
      P (fun i => y i + ((((0 + 0 * (h * v1 i)) + 0.5 * (h * v2 i)) + 0 * 0) + 0 * 0)))
    (h4 : ∀ v1 v2 v3, Q v1 → Q v2 → Q v3 →
      P (fun i => y i + ((((0 + 0 * (h * v1 i)) + 0 * (h * v2 i)) + 1 * (h * v3 i)) + 0 * 0))) :
    RK4.step g x y h = RK4.step f x y h := by
  unfold RungeKutta.step
  rw [finRange_four]
  simp only [List.foldlM_cons, List.foldlM_nil]
  have key : ∀ k (i : Fin 4),
      P (vadd y (vsum ((List.finRange 4).map fun j => vscale (RK4.a i j) (k j)))) →
      RK4.stage g x y h k i = RK4.stage f x y h k i ∧
      ∀ k', RK4.stage f x y h k i = .ok k' → ∃ v, Q v ∧ k' = setCol k i (vscale h v) := by
    intro k i hP
    unfold RungeKutta.stage
    rw [hfg _ _ (hX i) hP]
    refine ⟨rfl, fun k' hk' => ?_⟩
    cases hv : f (addScalar x (RK4.c i * h))
        (vadd y (vsum ((List.finRange 4).map fun j => vscale (RK4.a i j) (k j)))) with
    | error e => simp [hv, bind, Except.bind] at hk'
    | ok v =>
      simp only [hv, bind, Except.bind] at hk'
      injection hk' with hk'
      exact ⟨v, hQ _ _ _ (hX i) hP hv, hk'.symm⟩
  obtain ⟨e1, q1⟩ := key (fun _ _ => 0) 0 (by rw [finRange_four]; exact h1)
  rw [e1]
  cases hs1 : RK4.stage f x y h (fun _ _ => 0) 0 with
  | error e => rfl
  | ok k1 =>
    obtain ⟨v1, hv1, rfl⟩ := q1 k1 hs1
    obtain ⟨e2, q2⟩ := key (setCol (fun _ _ => 0) 0 (vscale h v1)) 1 (by rw [finRange_four]; exact h2 v1 hv1)
    simp only [bind, Except.bind]
    rw [e2]
    cases hs2 : RK4.stage f x y h (setCol (fun _ _ => 0) 0 (vscale h v1)) 1 with
    | error e => rfl
    | ok k2 =>
      obtain ⟨v2, hv2, rfl⟩ := q2 k2 hs2
      obtain ⟨e3, q3⟩ := key (setCol (setCol (fun _ _ => 0) 0 (vscale h v1)) 1 (vscale h v2)) 2 (by rw [finRange_four]; exact h3 v1 v2 hv1 hv2)
      simp only
      rw [e3]
      cases hs3 : RK4.stage f x y h (setCol (setCol (fun _ _ => 0) 0 (vscale h v1)) 1
          (vscale h v2)) 2 with
      | error e => rfl
      | ok k3 =>
        obtain ⟨v3, hv3, rfl⟩ := q3 k3 hs3
        obtain ⟨e4, -⟩ := key (setCol (setCol (setCol (fun _ _ => 0) 0
          (vscale h v1)) 1 (vscale h v2)) 2 (vscale h v3)) 3 (by rw [finRange_four]; exact h4 v1 v2 v3 hv1 hv2 hv3)
        simp only
        rw [e4]

theorem rnorm_add_le (a b : V3 ℝ) : rnorm (radd a b) ≤ rnorm a + rnorm b := by
  have h1 := rnorm_add_sq a b 1
  have h2 := abs_le.1 (abs_rdot_le a b)
  have e : radd a (rscale 1 b) = radd a b := by simp [radd, rscale]
  rw [e] at h1
  refine (abs_le_of_sq_le_sq' (a := rnorm (radd a b)) ?_
    (add_nonneg (rnorm_nonneg a) (rnorm_nonneg b))).2
  nlinarith [h2.2]

theorem rnorm_sub_le (a b : V3 ℝ) : rnorm a - rnorm b ≤ rnorm (radd a b) := by
  have h := rnorm_add_le (radd a b) (rscale (-1) b)
  rw [rnorm_rscale, abs_neg, abs_one, one_mul] at h
  have e : radd (radd a b) (rscale (-1) b) = a := by
    unfold radd rscale; ext <;> simp
  rw [e] at h
  linarith


section
variable (r v : V3 ℝ) (m h A M : ℝ)

/-- the points reached from position `r`, velocity `v` and mass `m` in a step of size `h` with
accelerations up to `A` and mass flows up to `M` -/
def Reached (y : Fin 7 → XR) : Prop :=
  ∃ (u w : V3 ℝ) (n : ℝ), rnorm u ≤ rnorm v + |h| * A ∧ rnorm w ≤ A ∧ |n| ≤ M ∧
    y = fun i => .fin (vec7 (r.x + h * u.x) (r.y + h * u.y) (r.z + h * u.z)
      (v.x + h * w.x) (v.y + h * w.y) (v.z + h * w.z) (m + h * n) i)

/-- the rates of change at these points -/
def Rates (y : Fin 7 → XR) : Prop :=
  ∃ (w c : V3 ℝ) (n : ℝ), rnorm w ≤ A ∧ rnorm c ≤ A ∧ |n| ≤ M ∧
    y = fun i => .fin (vec7 (v.x + h * w.x) (v.y + h * w.y) (v.z + h * w.z) c.x c.y c.z n i)

variable {r v m h A M}

/-- the starting point -/
def start (r v : V3 ℝ) (m : ℝ) : Fin 7 → XR := fun i => .fin (vec7 r.x r.y r.z v.x v.y v.z m i)

theorem reached_of_rates {y : Fin 7 → XR} (hy : Rates v h A M y) {c : ℝ} (h0 : 0 ≤ c)
    (h1 : c ≤ 1) {y' : Fin 7 → XR}
    (e : ∀ i, y' i = start r v m i + .fin c * (.fin h * y i)) : Reached r v m h A M y' := by
  obtain ⟨w, a, n, hw, ha, hn, rfl⟩ := hy
  have hA : 0 ≤ A := (rnorm_nonneg w).trans hw
  refine ⟨rscale c (radd v (rscale h w)), rscale c a, c * n, ?_, ?_, ?_, ?_⟩
  · rw [rnorm_rscale, abs_of_nonneg h0]
    have := rnorm_add_le v (rscale h w)
    rw [rnorm_rscale] at this
    have h2 : |h| * rnorm w ≤ |h| * A := mul_le_mul_of_nonneg_left hw (abs_nonneg h)
    have h3 := rnorm_nonneg (radd v (rscale h w))
    nlinarith
  · rw [rnorm_rscale, abs_of_nonneg h0]
    nlinarith [rnorm_nonneg a]
  · rw [abs_mul, abs_of_nonneg h0]
    nlinarith [abs_nonneg n]
  · funext i
    rw [e]
    unfold start
    simp only [XR.fin_mul, XR.fin_add, XR.fin_inj]
    fin_cases i <;> simp [vec7, rscale, radd] <;> ring

theorem rates_convex {y1 y2 y3 y4 : Fin 7 → XR} (h1 : Rates v h A M y1) (h2 : Rates v h A M y2)
    (h3 : Rates v h A M y3) (h4 : Rates v h A M y4) {y : Fin 7 → XR}
    (e : ∀ i, y i = .fin (1 / 6) * y1 i + .fin (1 / 3) * y2 i + .fin (1 / 3) * y3 i +
      .fin (1 / 6) * y4 i) : Rates v h A M y := by
  obtain ⟨w1, a1, n1, hw1, ha1, hn1, rfl⟩ := h1
  obtain ⟨w2, a2, n2, hw2, ha2, hn2, rfl⟩ := h2
  obtain ⟨w3, a3, n3, hw3, ha3, hn3, rfl⟩ := h3
  obtain ⟨w4, a4, n4, hw4, ha4, hn4, rfl⟩ := h4
  have key : ∀ b1 b2 b3 b4 : V3 ℝ, rnorm b1 ≤ A → rnorm b2 ≤ A → rnorm b3 ≤ A → rnorm b4 ≤ A →
      rnorm (radd (radd (radd (rscale (1 / 6) b1) (rscale (1 / 3) b2)) (rscale (1 / 3) b3))
        (rscale (1 / 6) b4)) ≤ A := by
    intro b1 b2 b3 b4 g1 g2 g3 g4
    have i1 := rnorm_add_le (radd (radd (rscale (1 / 6) b1) (rscale (1 / 3) b2))
      (rscale (1 / 3) b3)) (rscale (1 / 6) b4)
    have i2 := rnorm_add_le (radd (rscale (1 / 6) b1) (rscale (1 / 3) b2)) (rscale (1 / 3) b3)
    have i3 := rnorm_add_le (rscale (1 / 6) b1) (rscale (1 / 3) b2)
    simp only [rnorm_rscale] at i1 i2 i3
    rw [abs_of_pos (by norm_num : (0 : ℝ) < 1 / 6)] at i1 i3
    rw [abs_of_pos (by norm_num : (0 : ℝ) < 1 / 3)] at i2 i3
    linarith
  refine ⟨_, _, 1 / 6 * n1 + 1 / 3 * n2 + 1 / 3 * n3 + 1 / 6 * n4, key w1 w2 w3 w4 hw1 hw2 hw3 hw4,
    key a1 a2 a3 a4 ha1 ha2 ha3 ha4, ?_, ?_⟩
  · rw [abs_le] at *
    constructor <;> linarith [hn1.1, hn1.2, hn2.1, hn2.2, hn3.1, hn3.2, hn4.1, hn4.2]
  · funext i
    rw [e]
    simp only [XR.fin_mul, XR.fin_add, XR.fin_inj]
    fin_cases i <;> simp [vec7, rscale, radd] <;> ring

end

/-- C71 (short steps).  A sufficient condition: a step is regular if, with accelerations up to `A`
and mass flows up to `M` along it, it is too short to reach the core of the planet or to use up the
mass. -/
theorem C71_short_steps {a b m h A M : ℝ} {r v : V3 ℝ} (hpa : p.planet.equatorialRadius = .fin a)
    (hpb : p.planet.polarRadius = .fin b) (hpos : s.position = r.fin) (hvel : s.velocity = v.fin)
    (hmass : s.mass = .fin m) (htime : IsReal s.time ∧ IsReal s.timeSinceEvent) (hA : 0 ≤ A)
    (hM : 0 ≤ M)
    (hbound : ∀ (x d : State XR) (u w : V3 ℝ), x.position = (radd r (rscale h u)).fin →
      x.velocity = (radd v (rscale h w)).fin → rnorm u ≤ rnorm v + |h| * A → rnorm w ≤ A →
      IsReal x.time → IsReal x.timeSinceEvent → Regular p.planet x → p.system x = .ok d →
      ∃ (c : V3 ℝ) (n : ℝ), d.acceleration = c.fin ∧ d.massflow = .fin n ∧ rnorm c ≤ A ∧ |n| ≤ M)
    (hcore : |a - b| < 2 * (rnorm r - |h| * (rnorm v + |h| * A))) (hm : |h| * M < m) :
    StepRegular p s (.fin h) := by
  intro g hg
  have hreg : ∀ x y, Reached r v m h A M y → Regular p.planet (State.fromVec x y) := by
    rintro x y ⟨u, w, n, hu, hw, hn, rfl⟩
    refine ⟨a, b, m + h * n, radd r (rscale h u), hpa, hpb, rfl, ?_, rfl, ?_⟩
    · have h1 := rnorm_sub_le r (rscale h u)
      rw [rnorm_rscale] at h1
      have h2 : |h| * rnorm u ≤ |h| * (rnorm v + |h| * A) :=
        mul_le_mul_of_nonneg_left hu (abs_nonneg h)
      linarith
    · have h1 : |h * n| ≤ |h| * M := by
        rw [abs_mul]; exact mul_le_mul_of_nonneg_left hn (abs_nonneg h)
      have h2 := (abs_le.1 h1).1
      linarith
  let X : (Fin 2 → XR) → Prop := fun x => IsReal (x 0) ∧ IsReal (x 1)
  have hX : ∀ i, X (addScalar (vec2 s.time s.timeSinceEvent) (RK4.c i * .fin h)) := by
    obtain ⟨⟨t, ht⟩, ⟨te, hte⟩⟩ := htime
    have hc : ∀ i, ∃ c : ℝ, (RK4.c i : XR) = .fin c := by
      intro i
      fin_cases i
      · exact ⟨0, XR.fin_zero⟩
      · exact ⟨_, XR.fin_sci _ _ _⟩
      · exact ⟨_, XR.fin_sci _ _ _⟩
      · exact ⟨1, XR.fin_one⟩
    intro i
    obtain ⟨c, hc⟩ := hc i
    rw [hc, XR.fin_mul]
    constructor
    · show IsReal (s.time + .fin (c * h))
      rw [ht, XR.fin_add]; exact isReal_fin _
    · show IsReal (s.timeSinceEvent + .fin (c * h))
      rw [hte, XR.fin_add]; exact isReal_fin _
  have hfg : ∀ x y, X x → Reached r v m h A M y →
      convertedFunc g x y = convertedFunc p.system x y := by
    intro x y _ hy
    unfold convertedFunc
    rw [hg _ (hreg x y hy)]
  have hQ : ∀ x y d, X x → Reached r v m h A M y → convertedFunc p.system x y = .ok d →
      Rates v h A M d := by
    intro x y d' hx hy hd
    have hrg := hreg x y hy
    obtain ⟨u, w, n, hu, hw, hn, rfl⟩ := hy
    unfold convertedFunc at hd
    generalize hst : State.fromVec x (fun i => XR.fin (vec7 (r.x + h * u.x) (r.y + h * u.y)
      (r.z + h * u.z) (v.x + h * w.x) (v.y + h * w.y) (v.z + h * w.z) (m + h * n) i)) = st
      at hd hrg
    have hstp : st.position = (radd r (rscale h u)).fin := by rw [← hst]; rfl
    have hstv : st.velocity = (radd v (rscale h w)).fin := by rw [← hst]; rfl
    cases hsys : p.system st with
    | error e => simp [hsys, bind, Except.bind] at hd
    | ok d =>
      simp only [hsys, bind, Except.bind, pure, Except.pure] at hd
      injection hd with hd
      obtain ⟨c, k, hc, hk, hcA, hkM⟩ := hbound st d u w hstp hstv hu hw (by rw [← hst]; exact hx.1)
        (by rw [← hst]; exact hx.2) hrg hsys
      have hdv : d.velocity = (radd v (rscale h w)).fin := by
        rw [(Phase.system_primary hsys).2.2.2.1, hstv]
      refine ⟨w, c, k, hw, hcA, hkM, ?_⟩
      rw [← hd]
      unfold State.toDifferentialsVector
      rw [hdv, hc, hk]
      funext i
      fin_cases i <;> rfl
  have hy : s.toPrimaryVec = start r v m := by
    unfold State.toPrimaryVec start
    rw [hpos, hvel, hmass]
    funext i
    fin_cases i <;> rfl
  have z0 : (0 : XR) + 0 * 0 = .fin 0 := by
    rw [XR.fin_zero, XR.fin_mul, XR.fin_add]; simp
  have p1 : Reached r v m h A M (fun i => start r v m i +
      ((((0 + 0 * 0) + 0 * 0) + 0 * 0) + 0 * 0)) := by
    refine ⟨⟨0, 0, 0⟩, ⟨0, 0, 0⟩, 0, ?_, ?_, ?_, ?_⟩
    · rw [(rnorm_eq_zero _).2 rfl]
      have := rnorm_nonneg v
      positivity
    · rw [(rnorm_eq_zero _).2 rfl]; exact hA
    · simpa using hM
    · funext i
      unfold start
      xr_eval
      simp
  have q2 : ∀ v1, Rates v h A M v1 → Reached r v m h A M (fun i => start r v m i +
      ((((0 + 0.5 * (XR.fin h * v1 i)) + 0 * 0) + 0 * 0) + 0 * 0)) := by
    intro v1 hv1
    refine reached_of_rates hv1 (c := 0.5) (by norm_num) (by norm_num) fun i => ?_
    obtain ⟨w, c, n, -, -, -, rfl⟩ := hv1
    unfold start
    xr_eval
    simp
  have q3 : ∀ v1 v2, Rates v h A M v1 → Rates v h A M v2 → Reached r v m h A M
      (fun i => start r v m i +
      ((((0 + 0 * (XR.fin h * v1 i)) + 0.5 * (XR.fin h * v2 i)) + 0 * 0) + 0 * 0)) := by
    intro v1 v2 hv1 hv2
    refine reached_of_rates hv2 (c := 0.5) (by norm_num) (by norm_num) fun i => ?_
    obtain ⟨w, c, n, -, -, -, rfl⟩ := hv1
    obtain ⟨w', c', n', -, -, -, rfl⟩ := hv2
    unfold start
    xr_eval
    simp
  have q4 : ∀ v1 v2 v3, Rates v h A M v1 → Rates v h A M v2 → Rates v h A M v3 →
      Reached r v m h A M (fun i => start r v m i + ((((0 + 0 * (XR.fin h * v1 i)) +
        0 * (XR.fin h * v2 i)) + 1 * (XR.fin h * v3 i)) + 0 * 0)) := by
    intro v1 v2 v3 hv1 hv2 hv3
    refine reached_of_rates hv3 (c := 1) (by norm_num) (by norm_num) fun i => ?_
    obtain ⟨w, c, n, -, -, -, rfl⟩ := hv1
    obtain ⟨w', c', n', -, -, -, rfl⟩ := hv2
    obtain ⟨w'', c'', n'', -, -, -, rfl⟩ := hv3
    unfold start
    xr_eval
    simp
  unfold Integrator.step
  cases p.integrator
  simp only [bind, Except.bind]
  rw [hy, rk4_congr (f := convertedFunc p.system) hX hfg hQ p1 q2 q3 q4]
  cases hrk : RK4.step (convertedFunc p.system) (vec2 s.time s.timeSinceEvent) (start r v m)
      (.fin h) with
  | error e => rfl
  | ok xy =>
    obtain ⟨x', y'⟩ := xy
    classical
    let f' : (Fin 2 → XR) → (Fin 7 → XR) → Except Panic (Fin 7 → XR) := fun x y =>
      if X x then convertedFunc p.system x y else .error .underflow
    have hrk' : RK4.step f' (vec2 s.time s.timeSinceEvent) (start r v m) (.fin h) =
        RK4.step (convertedFunc p.system) (vec2 s.time s.timeSinceEvent) (start r v m) (.fin h) :=
      rk4_congr (P := fun _ => True) (Q := fun _ => True) hX (fun x y hx _ => if_pos hx)
        (fun _ _ _ _ _ _ => trivial) trivial (fun _ _ => trivial) (fun _ _ _ _ => trivial)
        (fun _ _ _ _ _ _ => trivial)
    obtain ⟨v1, v2, v3, v4, x1, x2, x3, x4, y1, y2, y3, y4, f1, f2, f3, f4, g1, g2, g3, g4, ge,
      -⟩ := rk4_ok (hrk'.trans hrk)
    have split : ∀ {x y d}, f' x y = .ok d → X x ∧ convertedFunc p.system x y = .ok d := by
      intro x y d h
      by_cases hx : X x
      · exact ⟨hx, by rw [← h]; simp only [f', if_pos hx]⟩
      · simp only [f', if_neg hx] at h; cases h
    replace f1 := split f1
    replace f2 := split f2
    replace f3 := split f3
    replace f4 := split f4
    have r1 := hQ x1 y1 v1 f1.1 ((funext g1 : y1 = _) ▸ p1) f1.2
    have r2 := hQ x2 y2 v2 f2.1 ((funext g2 : y2 = _) ▸ q2 v1 r1) f2.2
    have r3 := hQ x3 y3 v3 f3.1 ((funext g3 : y3 = _) ▸ q3 v1 v2 r1 r2) f3.2
    have r4 := hQ x4 y4 v4 f4.1 ((funext g4 : y4 = _) ▸ q4 v1 v2 v3 r1 r2 r3) f4.2
    have rr : Rates v h A M (fun i => XR.fin (1 / 6) * v1 i + .fin (1 / 3) * v2 i +
      .fin (1 / 3) * v3 i + .fin (1 / 6) * v4 i) := rates_convex r1 r2 r3 r4 fun i => rfl
    have hR : Reached r v m h A M y' := by
      refine reached_of_rates rr (c := 1) (by norm_num) (by norm_num) fun i => ?_
      rw [ge]
      obtain ⟨w, c, n, -, -, -, rfl⟩ := r1
      obtain ⟨w', c', n', -, -, -, rfl⟩ := r2
      obtain ⟨w'', c'', n'', -, -, -, rfl⟩ := r3
      obtain ⟨w3, c3, n3, -, -, -, rfl⟩ := r4
      unfold start
      xr_eval
      rw [XR.fin_div _ _ (by norm_num), XR.fin_div _ _ (by norm_num)]
      xr_eval
      rw [XR.fin_inj]
      ring
    simp only
    exact hg _ (hreg x' y' hR)

/-- C71 (free fall).  For a vehicle falling freely around a planet with a central field the condition
is explicit: a step is regular if, under the gravity at distance `ρ`, it is too short to come closer
than `ρ`. -/
theorem C71_free_fall {a b μ ω m h ρ : ℝ} {r v : V3 ℝ} (hp : Coasting p a b μ 0 0 0 ω)
    (hpos : s.position = r.fin) (hvel : s.velocity = v.fin) (hmass : s.mass = .fin m) (hm : 0 < m)
    (htime : IsReal s.time ∧ IsReal s.timeSinceEvent) (hμ : 0 ≤ μ) (hρ : 0 < ρ)
    (hab : |a - b| < 2 * ρ) (hfar : |h| * (rnorm v + |h| * (μ / ρ ^ 2)) ≤ rnorm r - ρ) :
    StepRegular p s (.fin h) := by
  refine C71_short_steps (A := μ / ρ ^ 2) (M := 0) (a := a) (b := b) (m := m) (by rw [hp.planet]; rfl)
    (by rw [hp.planet]; rfl) hpos hvel hmass htime (by positivity) le_rfl ?_ (by linarith)
    (by simpa using hm)
  rintro x d u w hx hv hu hw ⟨t, ht⟩ ⟨te, hte⟩ ⟨a', b', m', r', -, -, hx', -, hm', hm0⟩ hd
  obtain ⟨lat, long, az, hl⟩ := hp.launch
  have hfar' : ρ ≤ rnorm (radd r (rscale h u)) := by
    have h1 := rnorm_sub_le r (rscale h u)
    rw [rnorm_rscale] at h1
    have h2 : |h| * rnorm u ≤ |h| * (rnorm v + |h| * (μ / ρ ^ 2)) :=
      mul_le_mul_of_nonneg_left hu (abs_nonneg h)
    linarith
  have hne : radd r (rscale h u) ≠ ⟨0, 0, 0⟩ := by
    intro h0
    rw [(rnorm_eq_zero _).2 h0] at hfar'
    linarith
  obtain ⟨roll, yaw, pitch, he⟩ := hp.attitude x d t te m' _ _ ht hte hx hv hm' hne hd
  obtain ⟨h1, h2⟩ := system_free_fall hp.engines hp.vacuum hd hm' hm0.ne' hl he
  obtain ⟨g, hg, -, hgn⟩ := C43_central a b μ ω hne
  refine ⟨g, 0, ?_, h2, ?_, by simp⟩
  · rw [h1, hp.planet, hx, hg]
  · rw [hgn hμ]
    gcongr

/-- A launch from the ground at 45 degrees north, without engines, for one second. -/
noncomputable def exampleSecond : PhaseConfig XR :=
  { exampleLaunch with endCriterion := some (.timeSinceEvent, .fin 1) }

theorem exampleSecond_real : RealConfig exampleSecond where
  init := by rintro i ⟨⟩; exact ⟨isReal_fin _, isReal_fin _, isReal_fin _⟩
  vehicle := by
    rintro v ⟨⟩
    exact ⟨by rintro m ⟨⟩; exact isReal_fin _, by rintro m ⟨⟩, by rintro m ⟨⟩, by rintro m ⟨⟩,
      by rintro m ⟨⟩, by rintro m ⟨⟩, by rintro m ⟨⟩⟩
  steering := by rintro s ⟨⟩
  planet := by rintro s ⟨⟩
  wind := by rintro a w ⟨⟩
  maxAcceleration := by rintro a ⟨⟩

theorem exampleSecond_regular {p : Phase XR} (hr : Ready [] exampleSecond p) : FliesRegularly p := by
  obtain ⟨log, prev, p', hseq, hnew, rfl⟩ := hr
  cases hseq
  have hp' : p' = (Phase.default.applyConfig exampleSecond).init ⟨.fin 45, .fin 10, .fin 90, .fin 0⟩ := by
    injection (hnew.symm.trans (rfl : Phase.new none exampleSecond = .ok
      ((Phase.default.applyConfig exampleSecond).init ⟨.fin 45, .fin 10, .fin 90, .fin 0⟩)))
  obtain ⟨a, b, μ, μ', j2, j2', j3, j4, ω, hpl, -, -, hb, hba, hμ, -, hω, -, -, -, -, ha1, -, hμ1, -,
    hω1⟩ := C55_presets
  have hplanet : (Phase.default.applyConfig exampleSecond).planet = realPlanet a a μ 0 0 0 ω := hpl
  obtain ⟨g, e1, e2, e3, -⟩ := init_fin (p := Phase.default.applyConfig exampleSecond) (a := a) (b := a)
    (ω := ω) (by rw [hplanet]; rfl) (by rw [hplanet]; rfl) (by rw [hplanet]; rfl) (hb.trans hba)
    (hb.trans hba) 45 10 90 (.fin 0)
  rw [← hp'] at e1 e2 e3
  have ha : 0 < a := hb.trans hba
  have hsd : siteDistance a a g = a := by
    unfold siteDistance
    rw [div_self ha.ne']
    simp
  have hu : rnorm (up g (rad 10)) = 1 := by
    unfold rnorm up
    simp only
    rw [show (Real.cos g * Real.cos (rad 10)) ^ 2 + (Real.cos g * Real.sin (rad 10)) ^ 2 +
      Real.sin g ^ 2 = Real.cos g ^ 2 * (Real.sin (rad 10) ^ 2 + Real.cos (rad 10) ^ 2) +
      Real.sin g ^ 2 by ring, Real.sin_sq_add_cos_sq, mul_one, Real.cos_sq_add_sin_sq, Real.sqrt_one]
  rw [hsd] at e2 e3
  have hr : rnorm (rscale a (up g (rad 10))) = a := by
    rw [rnorm_rscale, hu, abs_of_pos ha, mul_one]
  have hv : rnorm (rcross ⟨0, 0, ω⟩ (rscale a (up g (rad 10)))) ≤ ω * a := by
    refine (Real.sqrt_le_sqrt (y := (ω * a) ^ 2) ?_).trans (Real.sqrt_sq (by positivity)).le
    have h1 : rnorm (rscale a (up g (rad 10))) ^ 2 = a ^ 2 := by rw [hr]
    unfold rnorm at h1
    rw [Real.sq_sqrt (by positivity)] at h1
    generalize rscale a (up g (rad 10)) = q at h1
    simp only [rcross]
    nlinarith [sq_nonneg q.z, mul_nonneg (sq_nonneg ω) (sq_nonneg q.z)]
  generalize rscale a (up g (rad 10)) = r at e2 e3 hr hv
  generalize rcross ⟨0, 0, ω⟩ r = v at e3 hv
  have hpl' : p'.reset.planet = realPlanet a a μ 0 0 0 ω := by rw [hp']; exact hpl
  have hm : p'.reset.state.mass = .fin 1000 := by
    rw [hp']
    show (0 : XR) + .fin 1000 = _
    rw [XR.fin_zero, XR.fin_add, zero_add]
  have hcoast : Coasting p'.reset a a μ 0 0 0 ω := by
    have hs : TimeSteered (Axis.default : Axis XR) :=
      ⟨.inl rfl, 0, 0, 0, 0, XR.fin_zero, XR.fin_zero, XR.fin_zero, XR.fin_zero⟩
    refine ⟨?_, ?_, ?_, ?_, hpl', ⟨_, _, _, e1⟩, ?_⟩
    · rw [hp']; rfl
    · rw [hp']; rfl
    · rw [hp']; rfl
    · rw [hp']; exact ⟨default_wellFormed, default_wellFormed, default_wellFormed⟩
    · obtain ⟨h1, h2⟩ := C71_new (prev := none) (fun q hq => by cases hq) exampleSecond_real hnew
      have key : ∀ x : Axis XR, x.var = .time → RealAxis x → TimeSteered x := by
        rintro x hx ⟨⟨c0, h0⟩, ⟨c1, h1⟩, ⟨c2, h2⟩, ⟨c3, h3⟩⟩
        exact ⟨.inl hx, c0, c1, c2, c3, h0, h1, h2, h3⟩
      obtain ⟨s1, s2, s3⟩ := h1.steering
      exact realAttitude_of_time (key _ (by rw [hp']; rfl) s1) (key _ (by rw [hp']; rfl) s2)
        (key _ (by rw [hp']; rfl) s3)
  have hst : p'.reset.stepsize = .fin 1 := by rw [hp']; exact XR.fin_one
  have ht0 : p'.reset.state.time = .fin 0 := by rw [hp']; exact XR.fin_zero
  have ht1 : p'.reset.state.timeSinceEvent = .fin 0 := by rw [hp']; exact XR.fin_zero
  have hcr : p'.reset.endCriterion = (.timeSinceEvent, .fin 1) := by rw [hp']; rfl
  have hpos : p'.reset.state.position = r.fin := e2
  have hvel : p'.reset.state.velocity = v.fin := e3
  have hvac : p'.reset.atmosphere.model = .noAtmosphere := hcoast.vacuum
  have hvars : p'.reset.steering.roll.var ≠ .machNumber ∧ p'.reset.steering.yaw.var ≠ .machNumber ∧
      p'.reset.steering.pitch.var ≠ .machNumber := by
    rw [hp']; exact ⟨by decide, by decide, by decide⟩
  generalize p'.reset = p at *
  have a1 := abs_lt.1 ha1
  have m1 := abs_lt.1 hμ1
  have w1 := abs_lt.1 hω1
  have pi := Real.pi_lt_d2
  refine ⟨fun _ => hvars, ⟨a, a, _, r, by rw [hpl']; rfl, by rw [hpl']; rfl, hpos, ?_, hm, by norm_num⟩,
    ?_⟩
  · rw [sub_self, abs_zero, hr]; linarith
  · intro s0 ps q h0 hpath hend
    have hprim := Phase.system_primary h0
    cases hpath with
    | nil =>
      refine ⟨⟨1, hst⟩, ?_⟩
      show StepRegular _ s0 p.stepsize
      rw [hst]
      refine C71_free_fall (m := 1000) (ρ := 6e6) (r := r) (v := v)
        ⟨hcoast.1, hcoast.2, hcoast.3, hcoast.4, hcoast.5, hcoast.6, hcoast.7⟩ ?_ ?_ ?_ (by norm_num)
        ?_ hμ.le (by norm_num) (by rw [sub_self, abs_zero]; norm_num) ?_
      · rw [hprim.2.2.1, hpos]
      · rw [hprim.2.2.2.1, hvel]
      · rw [hprim.2.2.2.2, hm]
      · rw [hprim.1, hprim.2.1, ht0, ht1]; exact ⟨isReal_fin _, isReal_fin _⟩
      · rw [abs_one, one_mul, one_mul, hr]
        have h1 : μ / (6e6 : ℝ) ^ 2 ≤ 12 := by
          rw [div_le_iff₀ (by norm_num)]
          norm_num at m1 ⊢
          linarith
        have h2 : ω * a ≤ 1000 := by
          have : ω ≤ 1e-4 := by
            norm_num at w1 ⊢
            linarith
          have : a ≤ 1e7 := by
            norm_num at a1 ⊢
            linarith
          calc ω * a ≤ 1e-4 * 1e7 := by gcongr
            _ = 1000 := by norm_num
        norm_num at a1
        linarith
    | cons he hs hrest =>
      rename_i p1 ps
      exfalso
      obtain ⟨_, s', hs', h | h | h⟩ := Phase.step_ok hs
      · rw [h.2] at hrest
        cases hrest with
        | nil => cases hend
        | cons he' => cases he'
      all_goals
        apply h.1
        have hts : s'.timeSinceEvent = s0.timeSinceEvent + p.stepsize := (oneStep_system hs').2.2
        rw [hprim.2.1, ht1, hst, XR.fin_add] at hts
        unfold Met
        show Flt.lt (Flt.abs (p.endCriterion.1.getValue s' - p.endCriterion.2)) 1e-3 = true
        rw [hcr]
        show Flt.lt (Flt.abs (s'.timeSinceEvent - .fin 1)) 1e-3 = true
        rw [hts]
        xr_eval
        norm_num

/-- The hypotheses of the theorems are met: this flight of one second consists of actual numbers. -/
example : ∃ o, Simulation.Terminates [exampleSecond] o ∧
    (∀ r, LogEntry.row r ∈ o.log → RealRow r) ∧ ∃ s, o.result = .ok s ∧ AllReal s := by
  let p : Phase XR := ((Phase.default.applyConfig exampleSecond).init
    ⟨.fin 45, .fin 10, .fin 90, .fin 0⟩).reset
  have hnew : Phase.new none exampleSecond = .ok ((Phase.default.applyConfig exampleSecond).init
    ⟨.fin 45, .fin 10, .fin 90, .fin 0⟩) := rfl
  have hm : p.state.mass = .fin 1000 := by
    show (0 : XR) + .fin 1000 = _
    rw [XR.fin_zero, XR.fin_add, zero_add]
  obtain ⟨fuel, rows, q, w, h1, -⟩ := C58_vacuum_run (p := p) (es := []) (T := 1) (t0 := 0) (h := 1)
    (m0 := 1000) rfl (by simp [Realistic]) rfl rfl
    ⟨default_wellFormed, default_wellFormed, default_wellFormed⟩ (.inr rfl) rfl XR.fin_zero
    (by norm_num) XR.fin_one (by norm_num) rfl rfl hm (by simp [fullConsumption])
  have ht : Simulation.Terminates [exampleSecond] ⟨_, .ok q.state⟩ :=
    C53_terminates_ok_iff.2 ⟨some q, .cons ⟨_, hnew, fuel, h1⟩ (.nil _ _), rfl⟩
  obtain ⟨h2, h3⟩ := C71_simulation (by simpa using exampleSecond_real) (fun done c rest p e hr => by
    cases done with
    | nil =>
      rw [List.nil_append, List.cons.injEq] at e
      rw [← e.1] at hr
      exact exampleSecond_regular hr
    | cons a l => simp at e) ht
  exact ⟨_, ht, h2, _, rfl, h3 _ rfl⟩

/-- `RealConfig` also holds of a configuration with an engine, a drag table over the Mach number, an
atmosphere with wind and a pitch program. -/
example : RealConfig { exampleBurn with
    vehicle := some ⟨some (.fin 1000), some (.fin 10), some (.fin 3),
      some (.d1 ⟨(.machNumber, [.fin 0, .fin 2]), [.fin 0.5, .fin 0.7], .linear⟩), none, none,
      some [exampleEngine.toEngine]⟩
    steering := some ⟨none, none, some ⟨.timeSinceEvent, .fin 1, .fin 0, .fin 0⟩⟩
    atmosphere := some ⟨some true, some (V3.fin ⟨10, 0, 0⟩)⟩
    planetModel := some .spherical
    maxAcceleration := some (.fin 30) } where
  init := by rintro i ⟨⟩; exact ⟨isReal_fin _, isReal_fin _, isReal_fin _⟩
  vehicle := by
    rintro v ⟨⟩
    refine ⟨by rintro m ⟨⟩; exact isReal_fin _, by rintro m ⟨⟩; exact isReal_fin _,
      by rintro m ⟨⟩; exact isReal_fin _, ?_, by rintro m ⟨⟩, by rintro m ⟨⟩, ?_⟩
    · rintro t ⟨⟩
      refine ⟨?_, ?_, ?_⟩
      · unfold WellFormed AxisFits Ascending
        simp [Flt.lt]
        rintro i rfl
        simp [XR.lt]
      · simp [isReal_fin]
      · simp [isReal_fin]
    · rintro es ⟨⟩ e he
      rw [List.mem_singleton] at he
      subst he
      exact ⟨isReal_fin _, isReal_fin _, isReal_fin _, isReal_fin _, 100, rfl, by norm_num⟩
  steering := by
    rintro s ⟨⟩
    exact ⟨by rintro a ⟨⟩, by rintro a ⟨⟩,
      by rintro a ⟨⟩; exact ⟨isReal_fin _, isReal_fin _, isReal_fin _⟩⟩
  planet := by rintro s ⟨⟩; exact realPlanet_default
  wind := by rintro a w ⟨⟩ ⟨⟩; exact realVec_fin _
  maxAcceleration := by rintro a ⟨⟩; exact isReal_fin _

end Post
