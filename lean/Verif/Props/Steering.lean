import Verif.Props.Phase
import Verif.Spec.Steering
/-! # Properties of steering and of the order of evaluation (C16-C18) -/

set_option linter.unusedSectionVars false

namespace Post
open Spec Flt
variable {F : Type} [Flt F]

/-- the state with which `Phase.system` computes the attitude -/
def Phase.atSteering (p : Phase F) (s : State F) : State F :=
  p.systemDynamic (p.systemAtmosphere (p.systemAir (p.systemPlanet s)))

/-- A variable known before steering is not changed by the rest of the evaluation. -/
theorem getValue_after_steering {v : StateVariable} (hv : v ∈ beforeSteering) {p : Phase F}
    {s s' : State F} (h : p.system s = .ok s') :
    v.getValue s' = v.getValue (p.atSteering s) := by
  obtain ⟨aero, _, _, rfl⟩ := Phase.system_ok h
  cases v <;> first | rfl | (exact absurd hv (by decide))

/-! ## C18: derived values cannot leak -/

theorem getValue_atSteering {v : StateVariable} (hv : v ∈ beforeSteering) (p : Phase F)
    {s t : State F} (h : SamePrimary s t) :
    v.getValue (p.atSteering s) = v.getValue (p.atSteering t) := by
  obtain ⟨h1, h2, h3, h4, h5⟩ := h
  obtain ⟨s1, s2, s3, s4, s5, s6, s7, s8, s9, s10, s11, s12, s13, s14, s15, s16, s17, s18, s19,
    s20, s21, s22, s23, s24, s25⟩ := s
  simp only at h1 h2 h3 h4 h5
  subst h1 h2 h3 h4 h5
  cases v <;> first | rfl | (exact absurd hv (by decide))

theorem eulerAngles_congr {st : Steering F} {s t : State F}
    (h : ∀ v ∈ [st.roll.var, st.yaw.var, st.pitch.var], v.getValue s = v.getValue t) :
    st.eulerAngles s = st.eulerAngles t := by
  simp only [List.mem_cons, List.not_mem_nil, or_false, forall_eq_or_imp, forall_eq] at h
  simp only [Steering.eulerAngles, Axis.angle, h]

theorem Table.atState_congr {t : Table F} {s s' : State F}
    (h : ∀ v ∈ tableVariables t, v.getValue s = v.getValue s') :
    t.atState s = t.atState s' := by
  cases t with
  | d1 t =>
    simp only [tableVariables, List.mem_cons, List.not_mem_nil, or_false, forall_eq] at h
    simp only [Table.atState, Table1D.atState, h]
  | d2 t =>
    simp only [tableVariables, List.mem_cons, List.not_mem_nil, or_false, forall_eq_or_imp,
      forall_eq] at h
    simp only [Table.atState, Table2D.atState, h]
  | d3 t =>
    simp only [tableVariables, List.mem_cons, List.not_mem_nil, or_false, forall_eq_or_imp,
      forall_eq] at h
    simp only [Table.atState, Table3D.atState, h]

/-- C18.  If steering only uses variables that are known before steering, and the coefficient
tables only variables known before the tables are evaluated, then the equations of motion give
the same result (or the same panic) for two states with the same time, position, velocity and
mass, whatever values the derived variables had before. -/
theorem C18_no_leak {p : Phase F} (hst : p.SteeringEarly) (htab : p.TablesEarly)
    {s t : State F} (h : SamePrimary s t) : p.system s = p.system t := by
  have hval := fun v hv => getValue_atSteering (v := v) hv p h
  have hang : p.steering.eulerAngles (p.atSteering s) = p.steering.eulerAngles (p.atSteering t) :=
    eulerAngles_congr fun v hv => hval v (hst v hv)
  -- the states before the forces differ at most in the six fields that are overwritten
  have hpre : p.systemPre t = { p.systemPre s with
      acceleration := t.acceleration, thrustForceBody := t.thrustForceBody,
      aeroForceBody := t.aeroForceBody, vehicleAccelerationBody := t.vehicleAccelerationBody,
      massflow := t.massflow, throttle := t.throttle } := by
    have e : ∀ s : State F, p.systemPre s = p.systemAlpha
        { p.atSteering s with eulerAngles := p.steering.eulerAngles (p.atSteering s) } :=
      fun _ => rfl
    rw [e, e, hang]
    clear e hval hang
    obtain ⟨h1, h2, h3, h4, h5⟩ := h
    obtain ⟨s1, s2, s3, s4, s5, s6, s7, s8, s9, s10, s11, s12, s13, s14, s15, s16, s17, s18, s19,
      s20, s21, s22, s23, s24, s25⟩ := s
    simp only at h1 h2 h3 h4 h5
    subst h1 h2 h3 h4 h5
    rfl
  have htabs : ∀ tb ∈ [p.vehicle.dragCoeff, p.vehicle.liftCoeff, p.vehicle.sideForceCoeff],
      tb.atState (p.systemPre s) = tb.atState (p.systemPre t) := by
    intro tb htb
    refine Table.atState_congr fun v hv => ?_
    have := htab tb htb v hv
    rw [hpre]
    cases v <;> first | rfl | (exact absurd this (by decide))
  simp only [List.mem_cons, List.not_mem_nil, or_false, forall_eq_or_imp, forall_eq] at htabs
  have haero : p.vehicle.aeroForce (p.systemPre s) = p.vehicle.aeroForce (p.systemPre t) := by
    unfold Vehicle.aeroForce
    rw [htabs.1, htabs.2.1, htabs.2.2, hpre]
  unfold Phase.system
  simp only [haero]
  congr 1
  funext aero
  rw [hpre]
  rfl

/-- C18 (not yet computed variables).  Inside an integration step the equations of motion are
evaluated on a fresh state, so a steering variable that is not known before steering has its
default value (zero, or the norm of the zero vector). -/
theorem C18_late_variable_is_default {v : StateVariable} (hv : v ∉ beforeSteering) (p : Phase F)
    (t : Fin 2 → F) (y : Fin 7 → F) :
    v.getValue (p.atSteering (State.fromVec t y)) = v.getValue State.default := by
  cases v <;> first | rfl | (exact absurd (by decide) hv)

/-- In exact arithmetic that default value is zero. -/
theorem C18_default_is_zero (v : StateVariable) : v.getValue (State.default : State XR) = .fin 0 := by
  have hn : V3.norm (V3.zero : V3 XR) = .fin 0 := by
    rw [V3.fin_zero, V3.fin_norm]; simp [rnorm]
  cases v <;> first | exact XR.fin_zero | exact hn

/-- C18 needs its hypotheses: with steering by the throttle (computed later), a stale throttle
leaks into the attitude. -/
theorem C18_leak_witness : ∃ (p : Phase Fix) (s t : State Fix), SamePrimary s t ∧
    p.system s ≠ p.system t := by
  let p : Phase Fix := { Toy.phase1 with steering :=
    ⟨.default, .default, ⟨.throttle, 0, 1000, 0, 0⟩⟩ }
  refine ⟨p, p.state, { p.state with throttle := 1 }, ⟨rfl, rfl, rfl, rfl, rfl⟩, ?_⟩
  intro h
  have h1 : Toy.okAnd (p.system p.state) (fun s => decide (s.eulerAngles.pitch = 0)) = true := by
    decide +kernel
  have h2 : Toy.okAnd (p.system { p.state with throttle := 1 })
      (fun s => decide (s.eulerAngles.pitch = 0)) = false := by
    decide +kernel
  rw [h, h2] at h1
  cases h1

/-- The hypotheses of C18 hold for the example phase. -/
example : Toy.phase1.SteeringEarly ∧ Toy.phase1.TablesEarly := by
  constructor <;> simp only [Phase.SteeringEarly, Phase.TablesEarly] <;> decide +kernel

/-! ## C16: the attitude is the configured cubic -/

theorem calcCoeff_fin (c0 c1 c2 c3 y : ℝ) :
    calcCoeff (XR.fin y) [.fin c0, .fin c1, .fin c2, .fin c3] = .fin (cubic c0 c1 c2 c3 y) := by
  simp only [calcCoeff, List.zipIdx, List.map, Flt.sum, List.foldl, cubic]
  xr_eval
  congr 1
  ring

theorem toRadians_fin (a : ℝ) : toRadians (XR.fin a) = .fin (a * (Real.pi / 180)) := by
  unfold toRadians
  xr_eval
  rw [XR.fin_div _ _ (by norm_num), XR.fin_mul]

theorem toDegrees_fin (a : ℝ) : toDegrees (XR.fin a) = .fin (a * (180 / Real.pi)) := by
  unfold toDegrees
  xr_eval
  rw [XR.fin_div _ _ Real.pi_ne_zero, XR.fin_mul]

/-- C16 (one axis).  The angle is the cubic of the axis' own variable, converted to radians. -/
theorem C16_axis_angle {a : Axis XR} {s : State XR} {y c0 c1 c2 c3 : ℝ}
    (hy : a.var.getValue s = .fin y) (h0 : a.c0 = .fin c0) (h1 : a.c1 = .fin c1)
    (h2 : a.c2 = .fin c2) (h3 : a.c3 = .fin c3) :
    a.angle s = .fin (cubic c0 c1 c2 c3 y * (Real.pi / 180)) := by
  unfold Axis.angle
  rw [hy, h0, h1, h2, h3, calcCoeff_fin, toRadians_fin]

/-- C16.  In every state a phase visits, each Euler angle is the cubic of the value that the
axis' own variable has in that same state (for variables known before steering). -/
theorem C16_attitude_is_cubic {p : Phase XR} {s : State XR} (hs : Visited p s)
    (a : AxisName)
    (hearly : (a.axis p.steering).var ∈ beforeSteering) {y c0 c1 c2 c3 : ℝ}
    (hy : (a.axis p.steering).var.getValue s = .fin y) (h0 : (a.axis p.steering).c0 = .fin c0)
    (h1 : (a.axis p.steering).c1 = .fin c1) (h2 : (a.axis p.steering).c2 = .fin c2)
    (h3 : (a.axis p.steering).c3 = .fin c3) :
    a.angle s.eulerAngles = .fin (cubic c0 c1 c2 c3 y * (Real.pi / 180)) := by
  obtain ⟨s1, h⟩ := hs.system
  rw [getValue_after_steering hearly h] at hy
  have hang : s.eulerAngles = p.steering.eulerAngles (p.atSteering s1) := by
    obtain ⟨aero, _, _, rfl⟩ := Phase.system_ok h
    rfl
  rw [hang]
  cases a <;> exact C16_axis_angle hy h0 h1 h2 h3

/-- C16 (constant term).  The constant coefficient of each axis of a phase is its angle at the end of
the previous phase, in degrees; in the first phase it is that of zero attitude. -/
theorem C16_constant_term {prev : Option (Phase F)} {c : PhaseConfig F} {p : Phase F}
    (hnew : Phase.new prev c = .ok p) (a : AxisName) :
    (a.axis p.reset.steering).c0 = toDegrees (match prev with
      | some q => a.angle q.state.eulerAngles
      | none => 0) := by
  rcases Phase.new_ok hnew with ⟨h1, rfl⟩ | ⟨rfl, i, _, rfl⟩
  · cases prev with
    | none => exact absurd rfl h1
    | some q =>
      have := Phase.applyConfig_state_eulerAngles (p := q) c
      cases a <;> exact congrArg toDegrees (congrArg _ this)
  · have := Phase.applyConfig_state_eulerAngles (p := (Phase.default : Phase F)) c
    cases a
    · exact congrArg toDegrees (congrArg Angles.roll this)
    · exact congrArg toDegrees (congrArg Angles.yaw this)
    · exact congrArg toDegrees (congrArg Angles.pitch this)

/-- C16 (phase of a simulation).  In every state a phase visits, the angle of each axis is the one
with which the previous phase ended plus the configured polynomial without constant term of the
axis' own variable. -/
theorem C16_relative (a : AxisName)
    {prev : Phase XR} {c : PhaseConfig XR} {p : Phase XR} {s : State XR}
    (hnew : Phase.new (some prev) c = .ok p) (hvis : Visited p.reset s)
    (hearly : (a.axis p.steering).var ∈ beforeSteering) {θ y c1 c2 c3 : ℝ}
    (hθ : a.angle prev.state.eulerAngles = .fin θ) (hy : (a.axis p.steering).var.getValue s = .fin y)
    (h1 : (a.axis p.steering).c1 = .fin c1) (h2 : (a.axis p.steering).c2 = .fin c2)
    (h3 : (a.axis p.steering).c3 = .fin c3) :
    a.angle s.eulerAngles = .fin (θ + (c1 * y + c2 * y ^ 2 + c3 * y ^ 3) * (Real.pi / 180)) := by
  have hc0 : (a.axis p.reset.steering).c0 = .fin (θ * (180 / Real.pi)) := by
    rw [C16_constant_term hnew a, ← toDegrees_fin, ← hθ]
  have hsame : (a.axis p.reset.steering).var = (a.axis p.steering).var ∧
      (a.axis p.reset.steering).c1 = (a.axis p.steering).c1 ∧
      (a.axis p.reset.steering).c2 = (a.axis p.steering).c2 ∧
      (a.axis p.reset.steering).c3 = (a.axis p.steering).c3 := by
    cases a <;> exact ⟨rfl, rfl, rfl, rfl⟩
  rw [C16_attitude_is_cubic hvis a (by rw [hsame.1]; exact hearly)
    (by rw [hsame.1]; exact hy) hc0 (by rw [hsame.2.1, h1]) (by rw [hsame.2.2.1, h2])
    (by rw [hsame.2.2.2, h3])]
  rw [XR.fin_inj]
  have := Real.pi_ne_zero
  unfold cubic
  field_simp
  ring

/-- the configuration of an axis -/
def Spec.AxisName.config : AxisName → SteeringConfig F → Option (AxisConfig F)
  | .roll, c => c.roll
  | .yaw, c => c.yaw
  | .pitch, c => c.pitch

/-- C16 (configuring an axis).  A configuration sets only the variable and the last three
coefficients of an axis: the angle is then the cubic of the new variable with the old constant
term, whatever the configuration says about the other axes. -/
theorem C16_configured (a : AxisName) {st : Steering XR} {c : SteeringConfig XR}
    {k : AxisConfig XR} {s : State XR} {y c0 c1 c2 c3 : ℝ} (hk : a.config c = some k)
    (hy : k.var.getValue s = .fin y) (h0 : (a.axis st).c0 = .fin c0) (h1 : k.c1 = .fin c1)
    (h2 : k.c2 = .fin c2) (h3 : k.c3 = .fin c3) :
    a.angle ((st.updateWithConfig c).eulerAngles s)
      = .fin (cubic c0 c1 c2 c3 y * (Real.pi / 180)) := by
  have h : a.angle ((st.updateWithConfig c).eulerAngles s)
      = (a.axis (st.updateWithConfig c)).angle s := by cases a <;> rfl
  have e : a.axis (st.updateWithConfig c) = (a.axis st).updateWithConfig (a.config c) := by
    cases a <;> rfl
  rw [h, e, hk]
  exact C16_axis_angle hy h0 h1 h2 h3

/-- C16 (an axis not mentioned).  An axis that a configuration does not mention keeps its
angle in every state. -/
theorem C16_unconfigured (a : AxisName) (st : Steering F) (c : SteeringConfig F)
    (hk : a.config c = none) (s : State F) :
    a.angle ((st.updateWithConfig c).eulerAngles s) = a.angle (st.eulerAngles s) := by
  have e : a.axis (st.updateWithConfig c) = (a.axis st).updateWithConfig (a.config c) := by
    cases a <;> rfl
  have e' : a.axis (st.updateWithConfig c) = a.axis st := by rw [e, hk]; rfl
  have h : ∀ u : Steering F, a.angle (u.eulerAngles s) = (a.axis u).angle s := by
    intro u; cases a <;> rfl
  rw [h, h, e']

/-- C16: configuring pitch with a rate of 2 degrees per second keeps the constant term 5. -/
example : ∃ (st : Steering XR) (c : SteeringConfig XR) (k : AxisConfig XR),
    Spec.AxisName.config .pitch c = some k ∧ (Spec.AxisName.axis .pitch st).c0 = .fin 5
      ∧ k.c1 = .fin 2 ∧ Spec.AxisName.config .roll c = none :=
  ⟨⟨.default, .default, ⟨.time, .fin 5, 0, 0, 0⟩⟩, ⟨none, none, some ⟨.time, .fin 2, 0, 0⟩⟩,
    ⟨.time, .fin 2, 0, 0⟩, rfl, rfl, rfl, rfl⟩

/-! ## C17: continuity of the attitude at events -/

/-- How far the angle of an axis steered by a variable with value `y` jumps at the start of a
phase. -/
theorem attitude_jump (a : AxisName)
    {prev : Phase XR} {c : PhaseConfig XR} {p : Phase XR} {s0 : State XR}
    (hnew : Phase.new (some prev) c = .ok p) (h0 : p.reset.system p.reset.state = .ok s0)
    (hearly : (a.axis p.steering).var ∈ beforeSteering) {θ y c1 c2 c3 : ℝ}
    (hθ : a.angle prev.state.eulerAngles = .fin θ) (hy : (a.axis p.steering).var.getValue s0 = .fin y)
    (h1 : (a.axis p.steering).c1 = .fin c1) (h2 : (a.axis p.steering).c2 = .fin c2)
    (h3 : (a.axis p.steering).c3 = .fin c3) :
    a.angle s0.eulerAngles = .fin (θ + cubic 0 c1 c2 c3 y * (Real.pi / 180)) := by
  have hvis : Visited p.reset s0 := ⟨s0, [], _, h0, .nil _, .inl rfl⟩
  rw [C16_relative a hnew hvis hearly hθ hy h1 h2 h3, XR.fin_inj]
  unfold cubic
  ring

/-- C17 (partial: axes steered by `time_since_event`).  The angle at the start of a phase is the
angle at the end of the previous one.  Missing: axes steered by another variable, for which the
claim is false. -/
theorem C17_no_jump_partial (a : AxisName)
    {prev : Phase XR} {c : PhaseConfig XR} {p : Phase XR} {s0 : State XR}
    (hnew : Phase.new (some prev) c = .ok p) (h0 : p.reset.system p.reset.state = .ok s0)
    (hvar : (a.axis p.steering).var = .timeSinceEvent) {θ c1 c2 c3 : ℝ}
    (hθ : a.angle prev.state.eulerAngles = .fin θ)
    (h1 : (a.axis p.steering).c1 = .fin c1) (h2 : (a.axis p.steering).c2 = .fin c2)
    (h3 : (a.axis p.steering).c3 = .fin c3) :
    a.angle s0.eulerAngles = a.angle prev.state.eulerAngles := by
  have hy : (a.axis p.steering).var.getValue s0 = .fin 0 := by
    rw [hvar]
    show s0.timeSinceEvent = _
    rw [(Phase.system_primary h0).2.1, ← XR.fin_zero]; rfl
  rw [attitude_jump a hnew h0 (by rw [hvar]; decide) hθ hy h1 h2 h3, hθ]
  simp [cubic]

/-- C17 (the jump in general).  An axis steered by any other variable known before steering
jumps by the value of its configured polynomial at the start of the phase. -/
theorem C17_jump (a : AxisName)
    {prev : Phase XR} {c : PhaseConfig XR} {p : Phase XR} {s0 : State XR}
    (hnew : Phase.new (some prev) c = .ok p) (h0 : p.reset.system p.reset.state = .ok s0)
    (hearly : (a.axis p.steering).var ∈ beforeSteering) {θ y c1 c2 c3 : ℝ}
    (hθ : a.angle prev.state.eulerAngles = .fin θ) (hy : (a.axis p.steering).var.getValue s0 = .fin y)
    (h1 : (a.axis p.steering).c1 = .fin c1) (h2 : (a.axis p.steering).c2 = .fin c2)
    (h3 : (a.axis p.steering).c3 = .fin c3) :
    a.angle s0.eulerAngles = a.angle prev.state.eulerAngles ↔ cubic 0 c1 c2 c3 y = 0 := by
  rw [attitude_jump a hnew h0 hearly hθ hy h1 h2 h3, hθ, XR.fin_inj]
  have hpi : Real.pi / 180 ≠ 0 := by positivity
  constructor
  · intro h
    have h' : cubic 0 c1 c2 c3 y * (Real.pi / 180) = 0 := by linarith
    exact (mul_eq_zero.1 h').resolve_right hpi
  · intro h; rw [h]; ring

/-- C17 as documented is false: a second phase whose pitch is steered by `time` starts with
another pitch than the first one ended with. -/
theorem C17_refuted : ∃ (q p : Phase Fix) (c : PhaseConfig Fix) (s0 : State Fix),
    (∃ rows, Completes none Toy.config1 rows q) ∧ Phase.new (some q) c = .ok p ∧
    p.reset.system p.reset.state = .ok s0 ∧ s0.eulerAngles ≠ q.state.eulerAngles := by
  have h1 : ∃ rows q, Toy.phase1.run 10 = some ⟨rows, .ok q⟩ ∧
      Toy.okAnd ((q.applyConfig { PhaseConfig.empty with
        steering := some ⟨none, none, some ⟨.time, 10, 0, 0⟩⟩ }).reset.system
        (q.applyConfig { PhaseConfig.empty with
        steering := some ⟨none, none, some ⟨.time, 10, 0, 0⟩⟩ }).reset.state)
        (fun s => decide (s.eulerAngles ≠ q.state.eulerAngles)) = true :=
    (Toy.ranAnd_iff (f := fun _ q =>
      Toy.okAnd ((q.applyConfig { PhaseConfig.empty with
        steering := some ⟨none, none, some ⟨.time, 10, 0, 0⟩⟩ }).reset.system
        (q.applyConfig { PhaseConfig.empty with
        steering := some ⟨none, none, some ⟨.time, 10, 0, 0⟩⟩ }).reset.state)
        (fun s => decide (s.eulerAngles ≠ q.state.eulerAngles)))).1 (by decide +kernel)
  obtain ⟨rows, q, hq, h2⟩ := h1
  obtain ⟨s0, hs0, hne⟩ := Toy.okAnd_iff.1 h2
  exact ⟨q, _, _, s0, ⟨rows, _, rfl, 10, hq⟩, rfl, hs0, by simpa using hne⟩

end Post
