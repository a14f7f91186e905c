import Verif.Spec.Scale
import Verif.Lemmas.Scale
import Verif.Props.Ascent
/-! # C70: scaling a vehicle.  Exact arithmetic. -/

namespace Post
open Spec Flt

noncomputable section

/-- the vehicle `k` times as large -/
def scaleVehicle (k : ℝ) (v : Vehicle XR) : Vehicle XR :=
  { v with
    structureMass := .fin k * v.structureMass
    initialPropellantMass := .fin k * v.initialPropellantMass
    referenceArea := .fin k * v.referenceArea
    engines := v.engines.map (scaleEngine k) }

/-- the phase with the vehicle `k` times as large -/
def scalePhase (k : ℝ) (p : Phase XR) : Phase XR :=
  { p with vehicle := scaleVehicle k p.vehicle, state := scaleState k p.state }

end

/-- nothing in the phase looks at a mass or a force -/
structure Phase.MassFree (p : Phase XR) : Prop where
  drag : ∀ x ∈ tableVariables p.vehicle.dragCoeff, Unscaled x
  lift : ∀ x ∈ tableVariables p.vehicle.liftCoeff, Unscaled x
  side : ∀ x ∈ tableVariables p.vehicle.sideForceCoeff, Unscaled x
  roll : Unscaled p.steering.roll.var
  yaw : Unscaled p.steering.yaw.var
  pitch : Unscaled p.steering.pitch.var
  endCriterion : Unscaled p.endCriterion.1

variable {k : ℝ}

theorem getValue_scale {v : StateVariable} (hv : Unscaled v) (s : State XR) :
    v.getValue (scaleState k s) = v.getValue s := by
  unfold Unscaled massesAndForces at hv
  cases v <;> first | rfl | (exact absurd (by decide) hv)

theorem scale_default : scaleState k State.default = (State.default : State XR) := by
  unfold scaleState State.default
  simp only [XR.scale_zero, V3.scale_zero]

theorem scale_thrustForce (hk : 0 < k) (v : Vehicle XR) (t pr : XR) :
    (scaleVehicle k v).thrustForce t pr = V3.smul (.fin k) (v.thrustForce t pr) := by
  have he : ∀ e : Engine XR, (scaleEngine k e).thrust pr = V3.smul (.fin k) (e.thrust pr) := by
    intro e
    unfold Engine.thrust scaleEngine V3.mulS V3.smul
    simp only [XR.scale_mul hk, XR.scale_sub hk, XR.mul_scale hk]
  unfold Vehicle.thrustForce scaleVehicle
  simp only [List.map_map]
  rw [← V3.smul_scale hk, ← V3.scale_sum hk, List.map_map]
  congr 2
  apply List.map_congr_left
  intro e _
  exact he e

theorem scale_massflow (hk : 0 < k) (v : Vehicle XR) (t : XR) :
    (scaleVehicle k v).massflow t = .fin k * v.massflow t := by
  have he : ∀ e : Engine XR, (scaleEngine k e).massflow = .fin k * e.massflow := by
    intro e
    unfold Engine.massflow scaleEngine
    simp only [XR.scale_neg hk, XR.scale_div hk]
  unfold Vehicle.massflow scaleVehicle
  simp only [List.map_map]
  rw [← XR.mul_scale hk, ← scale_fsum hk, List.map_map]
  congr 2
  apply List.map_congr_left
  intro e _
  exact he e

theorem scale_autoThrottle (hk : 0 < k) (v : Vehicle XR) (a m pr : XR) (aero : V3 XR) :
    (scaleVehicle k v).autoThrottle a (.fin k * m) pr (V3.smul (.fin k) aero) =
      v.autoThrottle a m pr aero := by
  unfold Vehicle.autoThrottle
  simp only [scale_thrustForce hk, V3.scale_beq_zero hk, V3.scale_angle hk, V3.scale_norm hk,
    XR.mul_scale hk, scale_sideSideAngle hk]
  split
  · rfl
  · cases sideSideAngle (a * m) aero.norm (pi - V3.angle aero (v.thrustForce 1 pr)) with
    | none => rfl
    | some r => simp only [Option.map, XR.scale_div_scale hk]

theorem Phase.MassFree.system (hk : 0 < k) {p : Phase XR} (h : p.MassFree) (s : State XR) :
    (scalePhase k p).system (scaleState k s) = (p.system s).map (scaleState k) := by
  have hplanet : (scalePhase k p).systemPlanet (scaleState k s) =
      scaleState k (p.systemPlanet s) := by
    unfold Phase.systemPlanet scalePhase scaleVehicle scaleState
    simp only [XR.scale_sub hk]
  have hang : ∀ s, (scalePhase k p).steering.eulerAngles (scaleState k s) =
      p.steering.eulerAngles s := by
    intro s
    show p.steering.eulerAngles (scaleState k s) = _
    unfold Steering.eulerAngles Axis.angle
    rw [getValue_scale h.roll, getValue_scale h.yaw, getValue_scale h.pitch]
  have hpre : (scalePhase k p).systemPre (scaleState k s) = scaleState k (p.systemPre s) := by
    have hatt : ∀ s, (scalePhase k p).systemAttitude (scaleState k s) =
        scaleState k (p.systemAttitude s) := by
      intro s
      unfold Phase.systemAttitude
      rw [hang]
      rfl
    have hrest : ∀ s, (scalePhase k p).systemDynamic ((scalePhase k p).systemAtmosphere
        ((scalePhase k p).systemAir (scaleState k s))) =
        scaleState k (p.systemDynamic (p.systemAtmosphere (p.systemAir s))) := fun _ => rfl
    unfold Phase.systemPre
    rw [hplanet, hrest, hatt]
    rfl
  have haero : (scalePhase k p).vehicle.aeroForce (scaleState k (p.systemPre s)) =
      (p.vehicle.aeroForce (p.systemPre s)).map (V3.smul (.fin k)) := by
    have hd : (scalePhase k p).vehicle.dragCoeff.atState (scaleState k (p.systemPre s)) =
        p.vehicle.dragCoeff.atState (p.systemPre s) :=
      Table.atState_congr fun v hv => getValue_scale (h.drag v hv) _
    have hl : (scalePhase k p).vehicle.liftCoeff.atState (scaleState k (p.systemPre s)) =
        p.vehicle.liftCoeff.atState (p.systemPre s) :=
      Table.atState_congr fun v hv => getValue_scale (h.lift v hv) _
    have hy : (scalePhase k p).vehicle.sideForceCoeff.atState (scaleState k (p.systemPre s)) =
        p.vehicle.sideForceCoeff.atState (p.systemPre s) :=
      Table.atState_congr fun v hv => getValue_scale (h.side v hv) _
    unfold Vehicle.aeroForce
    rw [hd, hl, hy]
    cases p.vehicle.dragCoeff.atState (p.systemPre s) with
    | error e => rfl
    | ok cd =>
      cases p.vehicle.liftCoeff.atState (p.systemPre s) with
      | error e => rfl
      | ok cl =>
        cases p.vehicle.sideForceCoeff.atState (p.systemPre s) with
        | error e => rfl
        | ok cy =>
          simp only [bind, Except.bind, Except.map]
          congr 1
          show V3.map nanToZero (V3.smul (_ * (XR.fin k * p.vehicle.referenceArea)) _) = _
          unfold V3.smul V3.map
          simp only [XR.mul_scale hk, XR.scale_mul hk, scale_nanToZero hk]
          rfl
  unfold Phase.system
  simp only [hpre, haero]
  cases p.vehicle.aeroForce (p.systemPre s) with
  | error e => rfl
  | ok aero =>
    simp only [bind, Except.bind, Except.map]
    have hf : (scalePhase k p).systemForces (scaleState k (p.systemPre s)) (V3.smul (.fin k) aero) =
        scaleState k (p.systemForces (p.systemPre s) aero) := by
      unfold Phase.systemForces
      have e1 : (scalePhase k p).vehicle.autoThrottle (scalePhase k p).maxAcceleration
          (scaleState k (p.systemPre s)).mass (scaleState k (p.systemPre s)).pressure
          (V3.smul (.fin k) aero) = p.vehicle.autoThrottle p.maxAcceleration (p.systemPre s).mass
            (p.systemPre s).pressure aero := scale_autoThrottle hk _ _ _ _ _
      simp only [e1]
      have e2 : ∀ t pr, (scalePhase k p).vehicle.thrustForce t pr =
        V3.smul (.fin k) (p.vehicle.thrustForce t pr) := scale_thrustForce hk _
      have e3 : ∀ t, (scalePhase k p).vehicle.massflow t = .fin k * p.vehicle.massflow t :=
        scale_massflow hk _
      simp only [e2, e3, V3.scale_add hk]
      unfold scaleState
      simp only [V3.scale_divS hk]
    rw [hf]
    have hl : (scalePhase k p).exceedsLimit (scaleState k (p.systemForces (p.systemPre s) aero)) =
        p.exceedsLimit (p.systemForces (p.systemPre s) aero) := rfl
    rw [hl]
    split <;> rfl

/-! ## The integrator -/

/-- the mass component of a vector of primary quantities, scaled -/
noncomputable def scaleVec (k : ℝ) (y : Fin 7 → XR) : Fin 7 → XR := fun i =>
  if i = 6 then .fin k * y i else y i

theorem vadd_scaleVec (hk : 0 < k) (x y : Fin 7 → XR) :
    vadd (scaleVec k x) (scaleVec k y) = scaleVec k (vadd x y) := by
  funext i
  unfold vadd scaleVec
  split
  · exact XR.scale_add hk _ _
  · rfl

theorem vscale_scaleVec (hk : 0 < k) (c : XR) (y : Fin 7 → XR) :
    vscale c (scaleVec k y) = scaleVec k (vscale c y) := by
  funext i
  unfold vscale scaleVec
  split
  · exact XR.mul_scale hk _ _
  · rfl

theorem scaleVec_zero : scaleVec k (fun _ => (0 : XR)) = fun _ => 0 := by
  funext i
  unfold scaleVec
  split
  · exact XR.scale_zero
  · rfl

/-- A Runge–Kutta step commutes with a transformation of the integrated vector that commutes with
the vector operations. -/
theorem RungeKutta.step_map {F : Type} [Flt F] {R dX dY : Nat} (rk : RungeKutta F R)
    {f g : (Fin dX → F) → (Fin dY → F) → Except Panic (Fin dY → F)}
    {D : (Fin dY → F) → (Fin dY → F)}
    (hadd : ∀ x y, vadd (D x) (D y) = D (vadd x y)) (hsc : ∀ c y, vscale c (D y) = D (vscale c y))
    (hz : D (fun _ => 0) = fun _ => 0) (hfg : ∀ x y, g x (D y) = (f x y).map D)
    (x : Fin dX → F) (y : Fin dY → F) (h : F) :
    rk.step g x (D y) h = (rk.step f x y h).map fun r => (r.1, D r.2) := by
  have hsum : ∀ l : List (Fin dY → F), vsum (l.map D) = D (vsum l) := by
    intro l
    have : ∀ (l : List (Fin dY → F)) z, (l.map D).foldl vadd (D z) = D (l.foldl vadd z) := by
      intro l
      induction l with
      | nil => intro z; rfl
      | cons a l ih => intro z; simp only [List.map_cons, List.foldl_cons, hadd, ih]
    have h := this l fun _ => 0
    rwa [hz] at h
  have hlin : ∀ (c : Fin R → F) (K : Fin R → Fin dY → F),
      vsum ((List.finRange R).map fun j => vscale (c j) (D (K j))) =
        D (vsum ((List.finRange R).map fun j => vscale (c j) (K j))) := by
    intro c K
    rw [← hsum, List.map_map]
    congr 1
    apply List.map_congr_left
    intro j _
    exact hsc _ _
  have hst : ∀ (K : Fin R → Fin dY → F) i, rk.stage g x (D y) h (fun j => D (K j)) i =
      (rk.stage f x y h K i).map fun K j => D (K j) := by
    intro K i
    unfold RungeKutta.stage
    rw [hlin, hadd, hfg]
    cases f (addScalar x (rk.c i * h))
      (vadd y (vsum ((List.finRange R).map fun j => vscale (rk.a i j) (K j)))) with
    | error e => rfl
    | ok v =>
      simp only [Except.map, bind, Except.bind]
      congr 1
      funext j
      unfold setCol
      split
      · exact hsc _ _
      · rfl
  have hfold : ∀ (l : List (Fin R)) (K : Fin R → Fin dY → F),
      l.foldlM (rk.stage g x (D y) h) (fun j => D (K j)) =
        (l.foldlM (rk.stage f x y h) K).map fun K j => D (K j) := by
    intro l
    induction l with
    | nil => intro K; rfl
    | cons i l ih =>
      intro K
      rw [List.foldlM_cons, List.foldlM_cons, hst]
      cases rk.stage f x y h K i with
      | error e => rfl
      | ok K' => simp only [Except.map, bind, Except.bind] at ih ⊢; exact ih K'
  unfold RungeKutta.step
  have h0 := hfold (List.finRange R) fun _ _ => 0
  rw [hz] at h0
  rw [h0]
  cases (List.finRange R).foldlM (rk.stage f x y h) (fun _ _ => 0) with
  | error e => rfl
  | ok K =>
    simp only [Except.map, bind, Except.bind]
    rw [hlin, hadd]

theorem fromVec_scale (t : Fin 2 → XR) (y : Fin 7 → XR) :
    State.fromVec t (scaleVec k y) = scaleState k (State.fromVec t y) := by
  unfold State.fromVec scaleVec scaleState State.default
  simp only [XR.scale_zero, V3.scale_zero]
  rfl

theorem toPrimaryVec_scale (s : State XR) :
    (scaleState k s).toPrimaryVec = scaleVec k s.toPrimaryVec := by
  funext i
  fin_cases i <;> rfl

theorem toDifferentials_scale (s : State XR) :
    (scaleState k s).toDifferentialsVector = scaleVec k s.toDifferentialsVector := by
  funext i
  fin_cases i <;> rfl

theorem Phase.MassFree.integrate (hk : 0 < k) {p : Phase XR} (h : p.MassFree) (s : State XR)
    (η : XR) : p.integrator.step (scalePhase k p).system (scaleState k s) η =
      (p.integrator.step p.system s η).map (scaleState k) := by
  cases p.integrator
  have hfg : ∀ x y, convertedFunc (scalePhase k p).system x (scaleVec k y) =
      (convertedFunc p.system x y).map (scaleVec k) := by
    intro x y
    unfold convertedFunc
    rw [fromVec_scale, h.system hk]
    cases p.system (State.fromVec x y) with
    | error e => rfl
    | ok s' =>
      simp only [Except.map, bind, Except.bind, pure, Except.pure, toDifferentials_scale]
  have hstep := RungeKutta.step_map (RK4 : RungeKutta XR 4) (vadd_scaleVec hk) (vscale_scaleVec hk)
    scaleVec_zero hfg (vec2 s.time s.timeSinceEvent) s.toPrimaryVec η
  unfold Integrator.step
  simp only [toPrimaryVec_scale]
  show (RK4.step (convertedFunc (scalePhase k p).system) (vec2 s.time s.timeSinceEvent)
    (scaleVec k s.toPrimaryVec) η >>= _) = _
  rw [hstep]
  cases RK4.step (convertedFunc p.system) (vec2 s.time s.timeSinceEvent) s.toPrimaryVec η with
  | error e => rfl
  | ok r =>
    simp only [Except.map, bind, Except.bind]
    rw [fromVec_scale, h.system hk]
    rfl

/-! ## Phases -/

theorem Phase.MassFree.step (hk : 0 < k) {p : Phase XR} (h : p.MassFree) :
    (scalePhase k p).step = p.step.map (scalePhase k) := by
  have hv : ∀ s, (scalePhase k p).critValue (scaleState k s) = p.critValue s :=
    fun s => getValue_scale h.endCriterion s
  have hm : ∀ s, (scalePhase k p).criterionMet (scaleState k s) = p.criterionMet s := by
    intro s
    unfold Phase.criterionMet
    rw [hv]
    rfl
  have ha : ∀ s s', (scalePhase k p).eventIsActive (scaleState k s) (scaleState k s') =
      p.eventIsActive s s' := by
    intro s s'
    unfold Phase.eventIsActive
    rw [hv, hv]
    rfl
  have ht : ∀ s s', (scalePhase k p).timeToGo (scaleState k s) (scaleState k s') =
      p.timeToGo s s' := by
    intro s s'
    unfold Phase.timeToGo
    rw [hv, hv]
    rfl
  unfold Phase.step
  show (if p.ended then _ else p.integrator.step (scalePhase k p).system (scaleState k p.state)
    p.stepsize >>= _) = _
  rw [h.integrate hk]
  by_cases he : p.ended = true
  · simp [he, Except.map]
  · rw [if_neg he, if_neg he]
    cases p.integrator.step p.system p.state p.stepsize with
    | error e => rfl
    | ok s =>
      simp only [Except.map, bind, Except.bind, hm]
      have ha' : (scalePhase k p).eventIsActive (scalePhase k p).state (scaleState k s) =
        p.eventIsActive p.state s := ha _ _
      have ht' : (scalePhase k p).timeToGo (scalePhase k p).state (scaleState k s) =
        p.timeToGo p.state s := ht _ _
      have hn : (scalePhase k p).endCriterionTries = p.endCriterionTries := rfl
      rw [ha', ht', hn]
      split
      · rfl
      · split
        · split <;> rfl
        · rfl

theorem Phase.MassFree.of_step {p p' : Phase XR} (h : p.MassFree) (hs : p.step = .ok p') :
    p'.MassFree := by
  obtain ⟨_, hv, hst, hec⟩ : True ∧ p'.vehicle = p.vehicle ∧ p'.steering = p.steering ∧
      p'.endCriterion = p.endCriterion := by
    unfold Phase.step at hs
    simp only [bind, Except.bind] at hs
    split at hs
    · cases hs
    · split at hs
      · cases hs
      · split at hs
        · injection hs with hs; subst hs; exact ⟨trivial, rfl, rfl, rfl⟩
        · split at hs
          · split at hs
            · cases hs
            · injection hs with hs; subst hs; exact ⟨trivial, rfl, rfl, rfl⟩
          · injection hs with hs; subst hs; exact ⟨trivial, rfl, rfl, rfl⟩
  refine ⟨?_, ?_, ?_, ?_, ?_, ?_, ?_⟩
  · rw [hv]; exact h.drag
  · rw [hv]; exact h.lift
  · rw [hv]; exact h.side
  · rw [hst]; exact h.roll
  · rw [hst]; exact h.yaw
  · rw [hst]; exact h.pitch
  · rw [hec]; exact h.endCriterion

/-- the outcome of a phase, scaled -/
noncomputable def scaleRun (k : ℝ) (o : RunOut XR) : RunOut XR :=
  ⟨o.rows.map (scaleRow k), o.result.map (scalePhase k)⟩

theorem Phase.MassFree.loop (hk : 0 < k) (fuel : ℕ) {p : Phase XR} (h : p.MassFree) :
    Phase.loop fuel (scalePhase k p) = (Phase.loop fuel p).map (scaleRun k) := by
  induction fuel generalizing p with
  | zero =>
    unfold Phase.loop
    show (if p.ended = true then _ else _) = _
    split <;> rfl
  | succ fuel ih =>
    unfold Phase.loop
    show (if p.ended = true then _ else _) = _
    split
    · rfl
    · simp only [h.step hk]
      cases hs : p.step with
      | error e => rfl
      | ok p' =>
        simp only [Except.map]
        rw [ih (h.of_step hs)]
        cases Phase.loop fuel p' <;> rfl

theorem Phase.MassFree.run (hk : 0 < k) (fuel : ℕ) {p : Phase XR} (h : p.MassFree) :
    Phase.run fuel (scalePhase k p) = (Phase.run fuel p).map (scaleRun k) := by
  unfold Phase.run
  have e : (scalePhase k p).system (scalePhase k p).state = _ := h.system hk p.state
  rw [e]
  cases p.system p.state with
  | error e => rfl
  | ok s =>
    simp only [Except.map]
    exact Phase.MassFree.loop hk fuel (p := { p with state := s })
      ⟨h.drag, h.lift, h.side, h.roll, h.yaw, h.pitch, h.endCriterion⟩

/-! ## Simulations -/

theorem applyConfig_scale (hk : 0 < k) (p : Phase XR) (c : PhaseConfig XR) :
    (scalePhase k p).applyConfig (scaleConfig k c) = scalePhase k (p.applyConfig c) := by
  obtain ⟨i, v, st, pl, at', ma, ss, ec⟩ := c
  have hveh : ∀ (p : Phase XR), (scalePhase k p).applyVehicle (v.map (scaleVehicleConfig k)) =
      scalePhase k (p.applyVehicle v) := by
    intro p
    cases v with
    | none => rfl
    | some v =>
      obtain ⟨sm, pm, ra, cd, cl, cy, en⟩ := v
      cases sm <;> cases pm <;> cases ra <;> cases en <;>
        simp only [Phase.applyVehicle, Phase.applyStructureMass, Phase.applyPropellantMass,
          Vehicle.updateWithConfig, scaleVehicleConfig, scalePhase, scaleVehicle, scaleState,
          Option.map, Option.getD, XR.scale_add hk]
  have hother : ∀ (p : Phase XR), ((((scalePhase k p).applyMaxAcceleration ma).applySteering st
      ).applyStepsize ss).applyEndCriterion ec =
      scalePhase k ((((p.applyMaxAcceleration ma).applySteering st).applyStepsize ss
        ).applyEndCriterion ec) := by
    intro p
    have h1 : (scalePhase k p).applyMaxAcceleration ma = scalePhase k (p.applyMaxAcceleration ma) := by
      cases ma with
      | none => rfl
      | some a => unfold Phase.applyMaxAcceleration; simp only; split <;> rfl
    rw [h1]
    cases st <;> cases ss <;> cases ec <;> rfl
  have hfirst : ((scalePhase k p).applyPlanet pl).applyAtmosphere at' =
      scalePhase k ((p.applyPlanet pl).applyAtmosphere at') := by
    cases pl <;> cases at' <;> rfl
  unfold Phase.applyConfig scaleConfig
  simp only [hfirst, hveh, hother]

theorem init_scale (p : Phase XR) (i : InitConfig XR) :
    (scalePhase k p).init i = scalePhase k (p.init i) := rfl

theorem phaseDefault_scale : scalePhase k (Phase.default : Phase XR) = Phase.default := by
  unfold scalePhase Phase.default scaleVehicle Vehicle.default
  simp only [XR.scale_zero, scale_default, List.map_nil]

theorem new_scale (hk : 0 < k) (prev : Option (Phase XR)) (c : PhaseConfig XR) :
    Phase.new (prev.map (scalePhase k)) (scaleConfig k c) =
      (Phase.new prev c).map (scalePhase k) := by
  cases prev with
  | some q => simp only [Phase.new, Option.map, applyConfig_scale hk]; rfl
  | none =>
    unfold Phase.new
    simp only [Option.map]
    have e : (scaleConfig k c).init = c.init := rfl
    rw [e]
    cases c.init with
    | none => rfl
    | some i =>
      simp only
      conv_lhs => rw [← phaseDefault_scale (k := k)]
      rw [applyConfig_scale hk]
      rfl

theorem massFree_default : (Phase.default : Phase XR).MassFree := by
  have ht : ∀ x ∈ tableVariables (Table.default : Table XR), Unscaled x := by
    intro x hx
    simp only [Table.default, tableVariables, List.mem_cons, List.not_mem_nil, or_false] at hx
    subst hx
    unfold Unscaled; decide
  exact ⟨ht, ht, ht, by unfold Unscaled; decide, by unfold Unscaled; decide,
    by unfold Unscaled; decide, by unfold Unscaled; decide⟩

theorem Phase.MassFree.applyConfig {p : Phase XR} (h : p.MassFree) {c : PhaseConfig XR}
    (hc : Spec.MassFree c) : (p.applyConfig c).MassFree := by
  obtain ⟨i, v, st, pl, at', ma, ss, ec⟩ := c
  obtain ⟨c1, c2, c3, c4, c5, c6, c7⟩ := hc
  simp only at c1 c2 c3 c4 c5 c6 c7
  have h1 : (p.applyPlanet pl).MassFree := by
    cases pl
    · exact h
    · exact ⟨h.drag, h.lift, h.side, h.roll, h.yaw, h.pitch, h.endCriterion⟩
  have h2 : ((p.applyPlanet pl).applyAtmosphere at').MassFree := by
    cases at'
    · exact h1
    · exact ⟨h1.drag, h1.lift, h1.side, h1.roll, h1.yaw, h1.pitch, h1.endCriterion⟩
  unfold Phase.applyConfig
  simp only
  generalize ((p.applyPlanet pl).applyAtmosphere at') = q at h2 ⊢
  have h3 : (q.applyVehicle v).MassFree := by
    cases v with
    | none => exact h2
    | some v =>
      obtain ⟨sm, pm, ra, cd, cl, cy, en⟩ := v
      have e : ((q.applyVehicle (some ⟨sm, pm, ra, cd, cl, cy, en⟩)).vehicle =
          q.vehicle.updateWithConfig ⟨sm, pm, ra, cd, cl, cy, en⟩ ∧
          (q.applyVehicle (some ⟨sm, pm, ra, cd, cl, cy, en⟩)).steering = q.steering ∧
          (q.applyVehicle (some ⟨sm, pm, ra, cd, cl, cy, en⟩)).endCriterion = q.endCriterion) := by
        cases sm <;> cases pm <;> exact ⟨rfl, rfl, rfl⟩
      refine ⟨?_, ?_, ?_, ?_, ?_, ?_, ?_⟩
      · rw [e.1]
        cases cd with
        | none => exact h2.drag
        | some t => exact c1 _ rfl t rfl
      · rw [e.1]
        cases cl with
        | none => exact h2.lift
        | some t => exact c2 _ rfl t rfl
      · rw [e.1]
        cases cy with
        | none => exact h2.side
        | some t => exact c3 _ rfl t rfl
      · rw [e.2.1]; exact h2.roll
      · rw [e.2.1]; exact h2.yaw
      · rw [e.2.1]; exact h2.pitch
      · rw [e.2.2]; exact h2.endCriterion
  have h4 : ((q.applyVehicle v).applyMaxAcceleration ma).MassFree := by
    cases ma with
    | none => exact h3
    | some a =>
      unfold Phase.applyMaxAcceleration
      simp only
      split <;> exact ⟨h3.drag, h3.lift, h3.side, h3.roll, h3.yaw, h3.pitch, h3.endCriterion⟩
  generalize (q.applyVehicle v).applyMaxAcceleration ma = r at h4 ⊢
  have h5 : (r.applySteering st).MassFree := by
    cases st with
    | none => exact h4
    | some st =>
      obtain ⟨ro, ya, pi⟩ := st
      refine ⟨h4.drag, h4.lift, h4.side, ?_, ?_, ?_, h4.endCriterion⟩
      · cases ro with
        | none => exact h4.roll
        | some a => exact c4 _ rfl a rfl
      · cases ya with
        | none => exact h4.yaw
        | some a => exact c5 _ rfl a rfl
      · cases pi with
        | none => exact h4.pitch
        | some a => exact c6 _ rfl a rfl
  have h6 : ((r.applySteering st).applyStepsize ss).MassFree := by
    cases ss with
    | none => exact h5
    | some _ => exact ⟨h5.drag, h5.lift, h5.side, h5.roll, h5.yaw, h5.pitch, h5.endCriterion⟩
  cases ec with
  | none => exact h6
  | some e => exact ⟨h6.drag, h6.lift, h6.side, h6.roll, h6.yaw, h6.pitch, c7 e rfl⟩

theorem Phase.MassFree.new {prev : Option (Phase XR)} (h : ∀ q ∈ prev, q.MassFree)
    {c : PhaseConfig XR} (hc : Spec.MassFree c) {p : Phase XR} (hp : Phase.new prev c = .ok p) :
    p.reset.MassFree := by
  have key : p.MassFree := by
    cases prev with
    | some q =>
      simp only [Phase.new] at hp
      injection hp with hp
      subst hp
      exact (h q rfl).applyConfig hc
    | none =>
      unfold Phase.new at hp
      simp only at hp
      cases hi : c.init with
      | none => rw [hi] at hp; cases hp
      | some i =>
        rw [hi] at hp
        injection hp with hp
        subst hp
        have := massFree_default.applyConfig hc
        exact ⟨this.drag, this.lift, this.side, this.roll, this.yaw, this.pitch,
          this.endCriterion⟩
  exact ⟨key.drag, key.lift, key.side, key.roll, key.yaw, key.pitch, key.endCriterion⟩

theorem Phase.MassFree.of_loop {fuel : ℕ} {p q : Phase XR} (h : p.MassFree) {rows : List (Row XR)}
    (hr : Phase.loop fuel p = some ⟨rows, .ok q⟩) : q.MassFree := by
  induction fuel generalizing p rows with
  | zero =>
    unfold Phase.loop at hr
    split at hr
    · injection hr with hr; injection hr with _ hr; injection hr with hr; subst hr; exact h
    · cases hr
  | succ fuel ih =>
    unfold Phase.loop at hr
    split at hr
    · injection hr with hr; injection hr with _ hr; injection hr with hr; subst hr; exact h
    · simp only at hr
      cases hs : p.step with
      | error e => rw [hs] at hr; injection hr with hr; injection hr with _ hr; cases hr
      | ok p' =>
        rw [hs] at hr
        simp only at hr
        cases hl : Phase.loop fuel p' with
        | none => rw [hl] at hr; cases hr
        | some o =>
          rw [hl] at hr
          obtain ⟨rows', res⟩ := o
          simp only [Option.map] at hr
          injection hr with hr
          injection hr with _ hr
          subst hr
          exact ih (h.of_step hs) hl

theorem Phase.MassFree.of_run {fuel : ℕ} {p q : Phase XR} (h : p.MassFree) {rows : List (Row XR)}
    (hr : Phase.run fuel p = some ⟨rows, .ok q⟩) : q.MassFree := by
  unfold Phase.run at hr
  cases hs : p.system p.state with
  | error e => rw [hs] at hr; injection hr with hr; injection hr with _ hr; cases hr
  | ok s =>
    rw [hs] at hr
    exact Phase.MassFree.of_loop (p := { p with state := s })
      ⟨h.drag, h.lift, h.side, h.roll, h.yaw, h.pitch, h.endCriterion⟩ hr

theorem reset_scale (p : Phase XR) : (scalePhase k p).reset = scalePhase k p.reset := rfl

theorem simLoop_scale (hk : 0 < k) (fuel : ℕ) (cs : List (PhaseConfig XR))
    (hcs : ∀ c ∈ cs, Spec.MassFree c) (i : ℕ) (prev : Option (Phase XR))
    (hprev : ∀ q ∈ prev, q.MassFree) (p : Phase XR) :
    Simulation.loop fuel i (prev.map (scalePhase k)) (scalePhase k p) (cs.map (scaleConfig k)) =
      (Simulation.loop fuel i prev p cs).map (scaleOut k) := by
  induction cs generalizing i prev p with
  | nil => rfl
  | cons c cs ih =>
    have hc := hcs c List.mem_cons_self
    have hcs' : ∀ c ∈ cs, Spec.MassFree c := fun c h => hcs c (List.mem_cons_of_mem _ h)
    rw [List.map_cons]
    unfold Simulation.loop
    rw [new_scale hk]
    cases hn : Phase.new prev c with
    | error e => rfl
    | ok q =>
      have hq := Phase.MassFree.new hprev hc hn
      simp only [Except.map, reset_scale]
      rw [hq.run hk]
      cases hr : Phase.run fuel q.reset with
      | none => rfl
      | some o =>
        obtain ⟨rows, res⟩ := o
        have hmap : ∀ rows : List (Row XR), (rows.map (scaleRow k)).map LogEntry.row =
            (rows.map LogEntry.row).map (scaleEntry k) := by
          intro rows
          rw [List.map_map, List.map_map]
          rfl
        cases res with
        | error e =>
          simp only [Option.map, scaleRun, Except.map, hmap, scaleOut, List.map_cons]
          rfl
        | ok r =>
          have hrf := hq.of_run hr
          simp only [Option.map_some, scaleRun, Except.map]
          have := ih hcs' (i + 1) (some r) (by rintro _ ⟨⟩; exact hrf) r
          simp only [Option.map_some] at this
          rw [this]
          cases Simulation.loop fuel (i + 1) (some r) r cs with
          | none => rfl
          | some o =>
            simp only [Option.map_some, hmap, scaleOut, List.map_cons, List.map_append,
              List.cons_append]
            rfl

/-- **C70** If no table, steering axis or end criterion looks at a mass or a force, then multiplying
the structure masses, the propellant masses, the reference areas and the thrusts and exit areas of
the engines of a whole mission by the same positive number changes nothing in the course of the
simulation - neither whether it ends or panics, nor any step, time, position, velocity, throttle,
angle - except that masses, mass flows and forces are multiplied by that number: the printed rows
differ in the propellant column only. -/
theorem C70_scaling (hk : 0 < k) {cs : List (PhaseConfig XR)} (hcs : ∀ c ∈ cs, Spec.MassFree c)
    (fuel : ℕ) : Simulation.run fuel (cs.map (scaleConfig k)) =
      (Simulation.run fuel cs).map (scaleOut k) := by
  unfold Simulation.run
  have h := simLoop_scale hk fuel cs hcs 0 none (by simp) Phase.default
  rw [phaseDefault_scale] at h
  exact h

/-- **C70** ... in terms of the outcomes: if the mission ends with an outcome, the scaled one ends
with the scaled outcome. -/
theorem C70_outcome (hk : 0 < k) {cs : List (PhaseConfig XR)} (hcs : ∀ c ∈ cs, Spec.MassFree c)
    {o : SimOut XR} (ho : Simulation.Terminates cs o) :
    Simulation.Terminates (cs.map (scaleConfig k)) (scaleOut k o) := by
  obtain ⟨fuel, h⟩ := ho
  exact ⟨fuel, by rw [C70_scaling hk hcs, h]; rfl⟩

/-- **C70** ... and the scaled mission ends only if the original one does. -/
theorem C70_ends_alike (hk : 0 < k) {cs : List (PhaseConfig XR)} (hcs : ∀ c ∈ cs, Spec.MassFree c)
    {o' : SimOut XR} (ho : Simulation.Terminates (cs.map (scaleConfig k)) o') :
    ∃ o, Simulation.Terminates cs o ∧ o' = scaleOut k o := by
  obtain ⟨fuel, h⟩ := ho
  rw [C70_scaling hk hcs] at h
  cases hr : Simulation.run fuel cs with
  | none => rw [hr] at h; cases h
  | some o =>
    rw [hr] at h
    injection h with h
    exact ⟨o, ⟨fuel, hr⟩, h.symm⟩

/-- The hypotheses are met: a launch with an engine, a drag table over the Mach number, a pitch
program and an end criterion on the altitude. -/
example : Spec.MassFree { exampleBurn with
    vehicle := some ⟨some (.fin 1000), some (.fin 10), some (.fin 3),
      some (.d1 ⟨(.machNumber, [.fin 0, .fin 2]), [.fin 0.5, .fin 0.7], .linear⟩), none, none,
      some [exampleEngine.toEngine]⟩
    steering := some ⟨none, none, some ⟨.timeSinceEvent, .fin 1, .fin 0, .fin 0⟩⟩
    endCriterion := some (.altitude, .fin 1000) } where
  drag := by
    rintro v ⟨⟩ t ⟨⟩ x hx
    simp only [tableVariables, List.mem_cons, List.not_mem_nil, or_false] at hx
    subst hx
    unfold Unscaled; decide
  lift := by rintro v ⟨⟩ t ⟨⟩
  side := by rintro v ⟨⟩ t ⟨⟩
  roll := by rintro s ⟨⟩ a ⟨⟩
  yaw := by rintro s ⟨⟩ a ⟨⟩
  pitch := by rintro s ⟨⟩ a ⟨⟩; unfold Unscaled; decide
  endCriterion := by rintro e ⟨⟩; unfold Unscaled; decide

/-- The theorems apply to a simulation that ends: the vehicle of `exampleBurn`, which burns 100 kg,
made twice as large burns 200 kg. -/
example : ∃ log s, Simulation.Terminates [scaleConfig 2 exampleBurn] ⟨log, .ok s⟩ ∧
    s.propellantMass = .fin (-180) := by
  obtain ⟨log, s, h, hs⟩ := C36_refuted
  have hfree : ∀ c ∈ [exampleBurn], Spec.MassFree c := by
    intro c hc
    rw [List.mem_singleton] at hc
    subst hc
    exact ⟨by rintro v ⟨⟩ t ⟨⟩, by rintro v ⟨⟩ t ⟨⟩, by rintro v ⟨⟩ t ⟨⟩, by rintro v ⟨⟩,
      by rintro v ⟨⟩, by rintro v ⟨⟩, by rintro v ⟨⟩; unfold Unscaled; decide⟩
  refine ⟨_, _, C70_outcome two_pos hfree h, ?_⟩
  show XR.fin 2 * s.propellantMass = _
  rw [hs, XR.fin_mul]
  congr 1; norm_num

end Post
