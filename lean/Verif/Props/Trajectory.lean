import Verif.Spec.Trajectory
import Verif.Props.DoublePowered
import Verif.Props.DoubleMission
/-! # The trajectory of a mission of several phases in vacuum, in double precision (C98) -/

set_option exponentiation.threshold 2000

namespace Post
open Spec Flt F64 Kepler
variable {L : Libm}

noncomputable section

/-- A leg without engines, and a phase that coasts. -/
structure FitsCoast (p : Phase (F64 L)) (l : TrueLeg) : Prop where
  engines : l.engines = []
  coasting : CoastingDouble p
  mass : ∃ m, Reads p.state.mass m ∧ m ≠ 0
  double : p.state.mass.dbl.IsDouble

/-- A leg with running engines, and a phase with these engines that turns in this way. -/
structure FitsPowered (p : Phase (F64 L)) (lat long az : ℝ) (l : TrueLeg) : Prop where
  flight : VacuumFlightDouble p l.engines lat long az l.turn
  mass : ∃ m, (Reads p.state.mass m ∧ p.state.mass.dbl.IsDouble ∧ 1 ≤ m ∧ m ≤ 1e9 ∧
    1e-3 * m ≤ m - l.seconds * fullConsumption l.engines) ∧ |m - l.mass| ≤ 3e-10 * (l.mass - l.seconds * fullConsumption l.engines)
  rates : |l.turn.rollRate| + |l.turn.yawRate| + |l.turn.pitchRate| ≤ 0.95
  left : 120 * fullConsumption l.engines ≤ l.mass - l.seconds * fullConsumption l.engines
  thrust : rnorm (fullThrust l.engines 0) ≤ 25 * (l.mass - l.seconds * fullConsumption l.engines)
  gross : grossThrust l.engines 0 ≤ 1000 * (l.mass - l.seconds * fullConsumption l.engines)

/-- The phase in double precision, ready to run, is set up for the leg. -/
structure Fits (p : Phase (F64 L)) (E : Planet XR) (lat long az : ℝ) (l : TrueLeg) : Prop where
  earth : SameEarth p.planet E
  seconds : SecondsLeft p l.seconds
  kind : FitsCoast p l ∨ FitsPowered p lat long az l

/-- Without engines the law of motion is that of free fall. -/
theorem freeFall_of_powered {E : Planet XR} {fr : ℝ → M3 ℝ} {m : ℝ → ℝ} {r v : ℝ → V3 ℝ} {t : ℝ}
    (h : PoweredMotion E fr (fullThrust [] 0) m r v t) : FreeFall E r v t := by
  obtain ⟨g, h1, h2, h3⟩ := h
  refine ⟨g, h1, h2, ?_⟩
  have e : radd (rscale (1 / m t) (rmulVecT (fr t) (fullThrust [] 0))) g = g := by
    simp [fullThrust, rsum, rmulVecT, rmulVec, rdot, rscale, radd]
  rw [e] at h3
  exact h3

/-- A coasting phase. -/
theorem coast_leg (hL : GoodLibrary L) {p : Phase (F64 L)} (hp : CoastingDouble p) {E : Planet XR} (hE : SameEarth p.planet E)
    {n : ℕ} (hn : SecondsLeft p n) (hn' : n ≤ 3000) {r v : ℝ → V3 ℝ}
    (hfall : ∀ t ∈ Set.Icc (0 : ℝ) n, FreeFall E r v t)
    (hlo : ∀ t ∈ Set.Icc (0 : ℝ) n, 6.5e6 ≤ rnorm (r t))
    (hhi : ∀ t ∈ Set.Icc (0 : ℝ) n, rnorm (r t) ≤ 1.9e7)
    (hvV : ∀ t ∈ Set.Icc (0 : ℝ) n, rnorm (v t) ≤ 8000)
    {r0 v0 : V3 ℝ} {t0 X m : ℝ} (ht0 : Reads p.state.time t0) (ht0' : |t0| ≤ 1e8)
    (hr : ReadsV p.state.position r0) (hv : ReadsV p.state.velocity v0) (hm : Reads p.state.mass m) (hm0 : m ≠ 0)
    (hd : p.state.mass.dbl.IsDouble)
    (h0 : rdist r0 (r 0) + 375 * rdist v0 (v 0) ≤ X)
    (hsmall : X * Real.exp (n / 375) + 16.5 * (Real.exp (n / 375) - 1) ≤ 86000) :
    ∃ (s : ℕ → State (F64 L)) (fuel : ℕ) (q : Phase (F64 L)),
      p.run fuel = some ⟨(List.range n).map fun k => (s (k + 1)).row, .ok q⟩ ∧ q.state = s n ∧
      ∀ k ≤ n, ((∃ t, Reads (s k).time t ∧ |t| ≤ |t0| + 2 * k) ∧ Reads (s k).timeSinceEvent k) ∧ ∃ r' v', ReadsV (s k).position r' ∧ ReadsV (s k).velocity v' ∧
        rdist r' (r k) + 375 * rdist v' (v k) ≤ X * Real.exp (k / 375) + 16.5 * (Real.exp (k / 375) - 1) := by
  obtain ⟨a, b, g, j2, j3, j4, ω, rfl, hearth, hne⟩ := same_earth hE
  obtain ⟨gC, H⟩ := earth_field hearth
  obtain ⟨s0, hs⟩ := coasting_system hp.unlimited hp.engines hp.tables p.state
  obtain ⟨g1, g2, g3, g4, g5⟩ := Phase.system_primary hs
  obtain ⟨mq, hmq, rfl⟩ := hm
  have hmq0 : mq ≠ 0 := by rintro rfl; simp at hm0
  have hvals := vals_of_readsV (s := s0) (r := r0) (v := v0) (by rw [g3]; exact hr) (by rw [g4]; exact hv)
    (m := mq) (by rw [g5]; exact hmq) (by rw [g5]; exact hd)
  have hE0 : ∀ k : ℕ, 0 ≤ Real.exp ((k : ℝ) / 375) - 1 := fun k => exp_sub_one_nonneg (by positivity)
  have hbd : ∀ k : ℕ, (rdist r0 (r 0) + 375 * rdist v0 (v 0)) * Real.exp ((k : ℝ) / 375) ≤ X * Real.exp ((k : ℝ) / 375) :=
    fun k => mul_le_mul_of_nonneg_right h0 (Real.exp_pos _).le
  have hsm : (rdist r0 (r 0) + 375 * rdist v0 (v 0)) * Real.exp (n * (1 : ℝ) / 375) +
      (0.2239 * 1 ^ 4 + 1.4e-5 / 1) * (Real.exp (n * (1 : ℝ) / 375) - 1) ≤ 86000 := by
    rw [mul_one]
    have h1 := hbd n
    have h2 := hE0 n
    norm_num at hsmall ⊢
    linarith
  have htt : ∀ i, ∃ t, Reads (vec2 s0.time s0.timeSinceEvent i) t ∧ |t| ≤ 1e8 := by
    intro i
    fin_cases i
    · exact ⟨t0, by show Reads s0.time t0; rw [g1]; exact ht0, ht0'⟩
    · exact ⟨0, by show Reads s0.timeSinceEvent 0; rw [g2]; exact hn.start, by norm_num⟩
  obtain ⟨s, Y, hF⟩ := flight_exists hL hp hne H hn.step one_pos le_rfl (n := n) (hn'.trans (by norm_num))
    (by simpa using hfall) (by simpa using hlo) (by simpa using hhi) (by simpa using hvV)
    (Y0 := join7 r0 v0) (er := rdist r0 (r 0)) (ev := rdist v0 (v 0)) le_rfl le_rfl hsm hvals hmq0 htt
  obtain ⟨T, hc, hTr⟩ := hn.criterion
  obtain ⟨t1, fuel, q, t2, t3⟩ := run_of_seconds hn.some_left hn.few hc hTr hn.step hn.notEnded hn.start
    (by rw [hF.start]; exact hs) hF.step
  have htime := clock_bound hn.step hn' hF.step (t0 := t0) (by rw [hF.start, g1]; exact ht0) ht0'
  refine ⟨s, fuel, q, t2, t3, fun k hk => ⟨⟨htime k hk, t1 k hk⟩, ?_⟩⟩
  have hcl := flight_close H one_pos le_rfl (by simpa using hfall) (by simpa using hlo) (by simpa using hvV)
    (Y0 := join7 r0 v0) (er := rdist r0 (r 0)) (ev := rdist v0 (v 0)) le_rfl le_rfl hsm hF k hk
  rw [mul_one] at hcl
  obtain ⟨w1, w2⟩ := readsV_of_vals (hF.vals k hk)
  refine ⟨_, _, w1, w2, ?_⟩
  have h1 := hbd k
  have h2 := hE0 k
  norm_num at hcl ⊢
  linarith

/-- One leg of a mission. -/
theorem one_leg (hL : GoodLibrary L) (hF : FrameLibrary L) (hT : TrigLibrary L) {p : Phase (F64 L)} {E : Planet XR}
    {lat long az : ℝ} {l : TrueLeg} (hfit : Fits p E lat long az l) (hob : l.Obeys E lat long az) (hn : l.seconds ≤ 3000)
    {t0 X : ℝ} (ht0 : Reads p.state.time t0) (ht0' : |t0| ≤ 1e8) (h0 : CloseTo p.state X (l.position 0, l.velocity 0))
    (hsmall : X * Real.exp (l.seconds / 375) + 16.5 * (Real.exp (l.seconds / 375) - 1) ≤ 86000) :
    ∃ (s : ℕ → State (F64 L)) (fuel : ℕ) (q : Phase (F64 L)),
      p.run fuel = some ⟨(List.range l.seconds).map fun k => (s (k + 1)).row, .ok q⟩ ∧ q.state = s l.seconds ∧
      ∀ k ≤ l.seconds, ((∃ t, Reads (s k).time t ∧ |t| ≤ |t0| + 2 * k) ∧ Reads (s k).timeSinceEvent k) ∧
        CloseTo (s k) (X * Real.exp (k / 375) + 16.5 * (Real.exp (k / 375) - 1)) (l.position k, l.velocity k) := by
  obtain ⟨r0, v0, hr, hv, h0⟩ := h0
  rcases hfit.kind with hc | hpw
  · obtain ⟨m, hm, hm0⟩ := hc.mass
    have hlaw := hob.law
    rw [hc.engines] at hlaw
    obtain ⟨s, fuel, q, h1, h2, h3⟩ := coast_leg hL hc.coasting hfit.earth hfit.seconds hn
      (fun t ht => freeFall_of_powered (hlaw t ht)) hob.low hob.high hob.slow ht0 ht0' hr hv hm hm0 hc.double h0 hsmall
    exact ⟨s, fuel, q, h1, h2, h3⟩
  · obtain ⟨m, ⟨hm1, hm2, hm3, hm4, hm5⟩, hmm⟩ := hpw.mass
    obtain ⟨s, fuel, q, h1, h2, h3⟩ := powered_leg hL hF hT hpw.flight hfit.earth hfit.seconds hm1 hm2 hm3 hm4 hm5 hn hpw.rates hmm
      hpw.left hpw.thrust hpw.gross hob.law hob.low hob.high hob.slow ht0 ht0' hr hv h0 hsmall
    refine ⟨s, fuel, q, h1, h2, fun k hk => ?_⟩
    obtain ⟨k1, r', v', μ, k2, _, k3⟩ := h3 k hk
    exact ⟨⟨k1, k2.timeSinceEvent⟩, r', v', k2.position, k2.velocity, k3⟩

theorem rowsOf_append {F : Type} (a b : List (LogEntry F)) : rowsOf (a ++ b) = rowsOf a ++ rowsOf b := by
  induction a with
  | nil => rfl
  | cons x a ih => cases x <;> simp [rowsOf, ih]

theorem rowsOf_rows {F : Type} (rows : List (Row F)) : rowsOf (rows.map .row) = rows := by
  induction rows with
  | nil => rfl
  | cons x a ih => simp [rowsOf, ih]

/-- the bound after two intervals -/
theorem two_bounds (X x y : ℝ) :
    (X * Real.exp (x / 375) + 16.5 * (Real.exp (x / 375) - 1)) * Real.exp (y / 375) + 16.5 * (Real.exp (y / 375) - 1) =
      X * Real.exp ((x + y) / 375) + 16.5 * (Real.exp ((x + y) / 375) - 1) := by
  rw [add_div, Real.exp_add]
  ring

/-! ## From one leg to the next -/

theorem wellFormed_update {c : PhaseConfig (F64 L)} (h : ∀ t ∈ tablesOf c, WellFormed t) {q : Phase (F64 L)}
    (hq : WellFormed q.vehicle.dragCoeff ∧ WellFormed q.vehicle.liftCoeff ∧ WellFormed q.vehicle.sideForceCoeff) :
    WellFormed (q.applyConfig c).vehicle.dragCoeff ∧ WellFormed (q.applyConfig c).vehicle.liftCoeff ∧
      WellFormed (q.applyConfig c).vehicle.sideForceCoeff := by
  rw [Phase.applyConfig_vehicle]
  unfold tablesOf at h
  cases hv : c.vehicle with
  | none => simpa using hq
  | some w =>
    rw [hv] at h
    simp only [Option.map_some, Option.getD_some, Vehicle.updateWithConfig]
    refine ⟨?_, ?_, ?_⟩
    · cases hd : w.dragCoeff with
      | none => exact hq.1
      | some t => exact h t (by simp [hd])
    · cases hd : w.liftCoeff with
      | none => exact hq.2.1
      | some t => exact h t (by simp [hd])
    · cases hd : w.sideForceCoeff with
      | none => exact hq.2.2
      | some t => exact h t (by simp [hd])

theorem vacuum_update {c : PhaseConfig (F64 L)} (h : atmosphereParam (·.enabled) c ≠ some true) {q : Phase (F64 L)}
    (hq : q.atmosphere.model = .noAtmosphere) : (q.applyConfig c).atmosphere.model = .noAtmosphere := by
  rw [Phase.applyConfig_atmosphere]
  unfold atmosphereParam at h
  cases ha : c.atmosphere with
  | none => simpa using hq
  | some w =>
    rw [ha] at h
    simp only [Option.map_some, Option.getD_some]
    cases he : w.enabled with
    | none => cases hw : w.wind <;> simp [Atmosphere.updateWithConfig, he, hw, hq]
    | some b =>
      cases b with
      | true => exact absurd (by simp [he]) h
      | false => cases hw : w.wind <;> simp [Atmosphere.updateWithConfig, he, hw]

theorem unlimited_update {c : PhaseConfig (F64 L)} (h : ∀ a, c.maxAcceleration = some a → a = -1) {q : Phase (F64 L)}
    (hq : q.maxAcceleration = Flt.inf) : (q.applyConfig c).maxAcceleration = Flt.inf := by
  rw [Phase.applyConfig_maxAcceleration]
  cases ha : c.maxAcceleration with
  | none => simpa using hq
  | some a =>
    obtain rfl := h a ha
    have heq : Flt.eq (-1 : F64 L) (-1) = true := by
      show Dbl.eq (Dbl.neg (.round false _)) (Dbl.neg (.round false _)) = true
      decide +kernel
    simp [accelerationLimit, heq]

theorem steers_update {c : PhaseConfig (F64 L)} {a : AxisName} {ρ : Option ℝ}
    (h : Option.Rel TurnCommand (c.steering.bind a.command) ρ) {q : Phase (F64 L)} {rate : ℝ}
    (hq : SteersUniformly (a.axis q.steering) rate) : SteersUniformly (a.axis (q.applyConfig c).steering) (ρ.getD rate) := by
  rw [Phase.applyConfig_steering]
  cases hs : c.steering with
  | none =>
    rw [hs] at h
    cases h
    exact hq
  | some w =>
    rw [hs] at h
    have e : a.axis (w |> q.steering.updateWithConfig) = (a.axis q.steering).updateWithConfig (a.command w) := by
      cases a <;> rfl
    simp only [Option.map_some, Option.getD_some]
    rw [e]
    simp only [Option.bind_some] at h
    generalize a.command w = x at h
    cases h with
    | none => exact hq
    | some h => exact ⟨.inl h.var, h.rate, h.quadratic, h.cubic⟩

theorem begin_rate (c : Craft) (m : Maneuver) (a : AxisName) : (c.begin m).turn.rate a = (m.rate a).getD (c.turn.rate a) := by
  cases a <;> rfl

theorem begin_angle (c : Craft) (m : Maneuver) (a : AxisName) : (c.begin m).turn.angle a = c.turn.angle a := by
  cases a <;> rfl

theorem after_rate (c : Craft) (n : ℕ) (a : AxisName) : (c.after n).turn.rate a = c.turn.rate a := by
  cases a <;> rfl

theorem after_angle (c : Craft) (n : ℕ) (a : AxisName) :
    (c.after n).turn.angle a = c.turn.angle a + c.turn.rate a * n := by
  cases a <;> rfl

/-- The steering at the beginning of a leg. -/
theorem turns_start {c : PhaseConfig (F64 L)} {m : Maneuver} (hc : Commands c m) {q : Phase (F64 L)} {E : Planet XR}
    {lat long az M e δ : ℝ} {k : Craft} (h : HandsOverCraft q E lat long az k M e δ)
    (hang : ∀ a, |(k.begin m).turn.angle a| ≤ 10000) (a : AxisName) :
    TurnsWithin (δ + 2.6e-11) (a.axis (q.applyConfig c).reset.steering) ((k.begin m).turn.angle a) ((k.begin m).turn.rate a) := by
  have hs := steers_update (hc.turn a) (h.turn a)
  obtain ⟨φ, h1, h2, h3⟩ := h.angles a
  obtain ⟨w, w1, w2⟩ := toDegrees_near h1 h2
  have e0 : (q.applyConfig c).state.eulerAngles = q.state.eulerAngles := by simp
  have e1 : (a.axis (q.applyConfig c).reset.steering).var = (a.axis (q.applyConfig c).steering).var := by cases a <;> rfl
  have e2 : (a.axis (q.applyConfig c).reset.steering).c0 = toDegrees (a.angle q.state.eulerAngles) := by
    rw [← e0]
    cases a <;> rfl
  have e3 : (a.axis (q.applyConfig c).reset.steering).c1 = (a.axis (q.applyConfig c).steering).c1 := by cases a <;> rfl
  have e4 : (a.axis (q.applyConfig c).reset.steering).c2 = (a.axis (q.applyConfig c).steering).c2 := by cases a <;> rfl
  have e5 : (a.axis (q.applyConfig c).reset.steering).c3 = (a.axis (q.applyConfig c).steering).c3 := by cases a <;> rfl
  rw [← begin_rate] at hs
  refine ⟨by rw [e1]; exact hs.var, ⟨⟨w, by rw [e2]; exact ⟨w, w1, rfl⟩, ?_⟩, hang a⟩, by rw [e3]; exact hs.rate,
    by rw [e4]; exact hs.quadratic, by rw [e5]; exact hs.cubic⟩
  rw [begin_angle]
  have h4 := abs_sub_le (w : ℝ) (φ * (180 / Real.pi)) (k.turn.angle a)
  norm_num at w2 h2 ⊢
  linarith

theorem mounted_reads {es : List (Engine (F64 L))} {Es : List RealEngine} (h : List.Forall₂ MountedDouble es Es)
    (ha : ∀ E ∈ Es, 0 ≤ E.area ∧ E.area ≤ 1e5) : List.Forall₂ EngineReads es Es := by
  induction h with
  | nil => exact .nil
  | @cons e E es Es h1 h2 ih =>
    refine .cons ⟨h1.thrust, h1.area, h1.yaw, h1.pitch, ⟨h1.thrust_nonneg, h1.thrust_le⟩, ha E (by simp),
      h1.yaw_le.trans (by norm_num), h1.pitch_le.trans (by norm_num)⟩ (ih fun E' hE' => ha E' (by simp [hE']))

theorem burnt_mass (c : Craft) (n : ℕ) : (c.after n).mass = c.mass - n * fullConsumption c.ship.engines := by
  show c.ship.structureMass + (c.ship.propellant - n * fullConsumption c.ship.engines) = c.ship.structureMass + c.ship.propellant - _
  ring

theorem timeSteered_of_turns {δ : ℝ} {x : Axis (F64 L)} {c0 c1 : ℝ} (h : TurnsWithin δ x c0 c1) (hδ : δ ≤ 1) (hc1 : |c1| ≤ 1) :
    TimeSteeredDouble x := by
  obtain ⟨hv, ⟨⟨κ, k0, kδ⟩, k0'⟩, k1, k2, k3⟩ := h
  have key : ∀ {y : F64 L} {z : ℝ}, Reads y z → |z| ≤ 1e20 → ∃ q : ℚ, y.Is q ∧ |q| ≤ 1e20 := by
    rintro y z ⟨q, h1, rfl⟩ h2
    refine ⟨q, h1, ?_⟩
    rw [← Rat.cast_abs] at h2
    norm_num at h2 ⊢
    exact_mod_cast h2
  refine ⟨?_, fun c hc => ?_⟩
  · rcases hv with h | ⟨h, _⟩
    · exact .inr h
    · exact .inl h
  · simp only [List.mem_cons, List.not_mem_nil, or_false] at hc
    rcases hc with rfl | rfl | rfl | rfl
    · refine key k0 ?_
      have := abs_sub_abs_le_abs_sub κ c0
      norm_num at this ⊢
      linarith
    · exact key k1 (hc1.trans (by norm_num))
    · exact key k2 (by norm_num)
    · exact key k3 (by norm_num)

/-- The phase has the initial base step size, and its mass and time are doubles. -/
structure Standard (q : Phase (F64 L)) : Prop where
  base : Reads q.baseStepsize 1
  doubles : Doubles q

theorem leg_seconds {q : Phase (F64 L)} (hq : Standard q) {c : PhaseConfig (F64 L)} {m : Maneuver} (hc : Commands c m)
    (hn1 : 1 ≤ m.seconds) (hn2 : m.seconds ≤ 3000) : SecondsLeft (q.applyConfig c).reset m.seconds := by
  obtain ⟨T, hT, hT'⟩ := hc.leg.criterion
  have hcrit : (q.applyConfig c).reset.endCriterion = (.timeSinceEvent, T) := by
    show (q.applyConfig c).endCriterion = _
    rw [Phase.applyConfig_endCriterion, hT]
    rfl
  have hst : (q.applyConfig c).reset.stepsize = q.baseStepsize := Phase.applyConfig_baseStepsize q c
  exact ⟨rfl, ⟨0, is_zero, by norm_num⟩, by rw [hst]; exact hq.base, ⟨T, hcrit, hT'⟩, hn1, hn2.trans (by norm_num)⟩

theorem standard_next {q q' : Phase (F64 L)} (hq : Standard q) {c : PhaseConfig (F64 L)} {fuel : ℕ} {rows : List (Row (F64 L))}
    (hrun : (q.applyConfig c).reset.run fuel = some ⟨rows, .ok q'⟩) : Standard q' := by
  refine ⟨?_, ?_⟩
  · rw [(Phase.run_ok_sameParams hrun).baseStepsize]
    show Reads (q.applyConfig c).baseStepsize 1
    rw [Phase.applyConfig_baseStepsize]
    exact hq.base
  · have hs : Sequence 0 (some q) [c] _ (some q') := .cons ⟨_, rfl, fuel, hrun⟩ (.nil _ _)
    exact doubles_sequence hs (fun _ h => by injection h with h; exact h ▸ hq.doubles) _ rfl

/-- At the beginning of a leg the phase is set up for it. -/
theorem leg_fits (hL : GoodLibrary L) (hA : AngleLibrary L) {q : Phase (F64 L)}
    (hbase : Standard q) {c : PhaseConfig (F64 L)} {m : Maneuver} (hc : Commands c m)
    {E : Planet XR} {lat long az M e δ : ℝ} {k : Craft} (h : HandsOverCraft q E lat long az k M e δ)
    (hn1 : 1 ≤ m.seconds) (hn2 : m.seconds ≤ 3000) (hcan : (k.begin m).ship.CanBurn M m.seconds)
    (hg : (k.begin m).Gentle M m.seconds) (he0 : 0 ≤ e) (he : e ≤ 1.4e-11 * M) (hM : M ≤ 9e8) (hδ : δ ≤ 1.9e-9) {l : TrueLeg}
    (hl : l.seconds = m.seconds ∧ l.engines = (k.begin m).ship.engines ∧ l.mass = (k.begin m).mass ∧
      l.turn = (k.begin m).turn) : Fits (q.applyConfig c).reset E lat long az l := by
  obtain ⟨hl1, hl2, hl3, hl4⟩ := hl
  have hp : Phase.new (some q) c = .ok (q.applyConfig c) := rfl
  have hsec := leg_seconds hbase hc hn1 hn2
  have hMn : 0 ≤ M := by norm_num at he; linarith
  have hearth : SameEarth (q.applyConfig c).reset.planet E := by
    show SameEarth (q.applyConfig c).planet E
    rw [Phase.applyConfig_planet, hc.planet]
    exact h.planet
  have htab := wellFormed_update hc.leg.tables h.tables
  have hvac := vacuum_update hc.leg.vacuum h.vacuum
  have hunl := unlimited_update hc.unlimited h.unlimited
  have hlaunch : LaunchAngles (q.applyConfig c).reset lat long az := by
    have e : (q.applyConfig c).reset.launch = q.launch := Phase.applyConfig_launch q c
    unfold LaunchAngles
    rw [e]
    exact h.launch
  have hturn := turns_start hc h hg.angles
  have hrates := hg.rates
  have hrate : ∀ a, |(k.begin m).turn.rate a| ≤ 1 := by
    have n1 := abs_nonneg (k.begin m).turn.rollRate
    have n2 := abs_nonneg (k.begin m).turn.yawRate
    have n3 := abs_nonneg (k.begin m).turn.pitchRate
    intro a
    cases a
    · show |(k.begin m).turn.rollRate| ≤ 1; linarith
    · show |(k.begin m).turn.yawRate| ≤ 1; linarith
    · show |(k.begin m).turn.pitchRate| ≤ 1; linarith
  obtain ⟨hs, hE, hfill, m0, hm, hlo, hhi, hup⟩ := leg_start (prev := some q) (n := m.seconds) h.masses hc.leg hp hcan he0
    (by norm_num at he ⊢; linarith) hM
  have hhi := hhi trivial
  have hdbl := (doubles_applyConfig hbase.doubles c).1
  refine ⟨hearth, by rw [hl1]; exact hsec, ?_⟩
  have hQ0 : 0 ≤ fullConsumption (k.begin m).ship.engines := consumption_nonneg hE
  have hnQ : 0 ≤ m.seconds * fullConsumption (k.begin m).ship.engines := by positivity
  have hen := hcan.enough
  have hheavy := hcan.heavy
  have hfrac := hcan.fraction
  have hle := hcan.le
  have hfinal := burnt_mass (k.begin m) m.seconds
  have hmass : (k.begin m).mass = (k.begin m).ship.structureMass + (k.begin m).ship.propellant := rfl
  have ebegin : (k.begin m).ship = k.ship.begin m.toLeg := rfl
  rw [← ebegin] at hs hE hfill hlo hhi hup
  have hM0 : 2 ≤ M := by linarith
  by_cases h0 : (k.begin m).ship.engines = []
  · left
    refine ⟨by rw [hl2]; exact h0, ⟨?_, hvac, hunl, htab, ?_, ?_⟩, ⟨m0, hm, ?_⟩, hdbl⟩
    · rw [h0] at hE
      show (q.applyConfig c).reset.vehicle.engines = []
      generalize (q.applyConfig c).reset.vehicle.engines = es at hE
      cases hE
      rfl
    · obtain ⟨⟨⟨_, x1, _⟩, ⟨_, x2, _⟩, ⟨_, x3, _⟩⟩, _⟩ := hlaunch
      exact ⟨⟨_, x1⟩, ⟨_, x2⟩, ⟨_, x3⟩⟩
    · have w : ∀ a, TimeSteeredDouble (AxisName.axis a (q.applyConfig c).reset.steering) := fun a =>
        timeSteered_of_turns (hturn a) (by norm_num at hδ ⊢; linarith) (hrate a)
      exact numberAttitude_of_time hL (w .roll) (w .yaw) (w .pitch)
    · norm_num at he
      linarith
  · right
    obtain ⟨hlen, hcons, hS, p1, p2⟩ := hcan.propels.resolve_left h0
    obtain ⟨Th, t1, t2, t3⟩ := propels_thrust hA hE hlen hS p1 p2
    have g1 := hg.left.resolve_left h0
    have g2 := hg.thrust.resolve_left h0
    have g3 := hg.gross.resolve_left h0
    have g4 := hg.largest.resolve_left h0
    rw [hfinal] at g1 g2 g3 g4
    have htt : ∀ a, TurnsUniformlyDouble (AxisName.axis a (q.applyConfig c).reset.steering) ((k.begin m).turn.angle a)
        ((k.begin m).turn.rate a) := fun a => by
      obtain ⟨z1, ⟨⟨κ, z2, z3⟩, z4⟩, z5⟩ := hturn a
      exact ⟨z1, ⟨⟨κ, z2, z3.trans (by norm_num at hδ ⊢; linarith)⟩, z4⟩, z5⟩
    refine ⟨⟨⟨hvac, htab, ?_, ?_, ?_, Th, t1, t2, t3⟩, ?_, hunl, hlaunch, ?_, ?_, ?_⟩, ⟨m0, ⟨hm, hdbl, ?_, ?_, ?_⟩, ?_⟩,
      ?_, ?_, ?_, ?_⟩
    · rw [hl2]; exact hE.imp fun _ _ h => h.toEngineDouble
    · rw [hl2]; exact hlen
    · rw [hl2]; exact hcons
    · rw [hl2]; exact mounted_reads hE hg.areas
    · rw [hl4]; exact htt .roll
    · rw [hl4]; exact htt .yaw
    · rw [hl4]; exact htt .pitch
    · norm_num at he; linarith
    · norm_num at he hM ⊢; linarith
    · rw [hl1, hl2]; norm_num at he hM ⊢; linarith
    · rw [hl1, hl2, hl3, abs_le]
      norm_num at he ⊢
      constructor <;> linarith
    · rw [hl4]; exact hrates
    · rw [hl1, hl2, hl3]; exact g1
    · rw [hl1, hl2, hl3]; exact g2
    · rw [hl1, hl2, hl3]; exact g3

/-- At the end of a leg the phase hands over what the plan says. -/
theorem leg_ends (hL : GoodLibrary L) (hA : AngleLibrary L) {q : Phase (F64 L)}
    (hbase : Standard q) {c : PhaseConfig (F64 L)} {m : Maneuver} (hc : Commands c m)
    {E : Planet XR} {lat long az M e δ : ℝ} {k : Craft} (h : HandsOverCraft q E lat long az k M e δ)
    (hn1 : 1 ≤ m.seconds) (hn2 : m.seconds ≤ 3000) (hcan : (k.begin m).ship.CanBurn M m.seconds)
    (hg : (k.begin m).Gentle M m.seconds) (he0 : 0 ≤ e) (he : e ≤ 1.4e-11 * M) (hM : M ≤ 9e8) (hδ : δ ≤ 1.9e-9)
    {fuel : ℕ} {rows : List (Row (F64 L))} {q' : Phase (F64 L)}
    (hrun : (q.applyConfig c).reset.run fuel = some ⟨rows, .ok q'⟩) {t : ℝ} (ht : Reads q'.state.time t) (ht' : |t| ≤ 1e9)
    (hte : Reads q'.state.timeSinceEvent m.seconds) :
    HandsOverCraft q' E lat long az ((k.begin m).after m.seconds) M (e + (1.1e-12 + 2.1e-16 * m.seconds) * M)
      (δ + 1.3e-10) := by
  have hMn : 0 ≤ M := by norm_num at he; linarith
  have hp : Phase.new (some q) c = .ok (q.applyConfig c) := rfl
  have hsame := Phase.run_ok_sameParams hrun
  have htab := wellFormed_update hc.leg.tables h.tables
  have hvac := vacuum_update hc.leg.vacuum h.vacuum
  have hunl := unlimited_update hc.unlimited h.unlimited
  have hturn := turns_start hc h hg.angles
  obtain ⟨st, hst⟩ := ((visited_of_run hrun).2 _ rfl).system
  have hprim := Phase.system_primary hst
  have hrates := hg.rates
  have hrate : ∀ a, |(k.begin m).turn.rate a| ≤ 0.95 := by
    have n1 := abs_nonneg (k.begin m).turn.rollRate
    have n2 := abs_nonneg (k.begin m).turn.yawRate
    have n3 := abs_nonneg (k.begin m).turn.pitchRate
    intro a
    cases a
    · show |(k.begin m).turn.rollRate| ≤ 0.95; linarith
    · show |(k.begin m).turn.yawRate| ≤ 0.95; linarith
    · show |(k.begin m).turn.pitchRate| ≤ 0.95; linarith
  refine ⟨?_, ?_, ?_, ?_, ?_, ?_, ?_, ?_⟩
  · obtain ⟨rows', q0, ⟨fuel', h1⟩, h2, _⟩ := leg_core hA (prev := some q) hc.leg hp (leg_seconds hbase hc hn1 hn2)
      (doubles_applyConfig hbase.doubles c).1 hvac htab (.inl hunl) h.masses hcan he0 (by norm_num at he ⊢; linarith) hM
    have hdet := Phase.run_det hrun h1
    injection hdet with _ hdet
    injection hdet with hdet
    rw [hdet]
    exact h2
  · rw [hsame.planet]
    show SameEarth (q.applyConfig c).planet E
    rw [Phase.applyConfig_planet, hc.planet]
    exact h.planet
  · rw [hsame.atmosphere]; exact hvac
  · rw [hsame.maxAcceleration]; exact hunl
  · rw [hsame.vehicle]; exact htab
  · have e : q'.launch = q.launch := hsame.launch.trans (Phase.applyConfig_launch q c)
    unfold LaunchAngles
    rw [e]
    exact h.launch
  · intro a
    obtain ⟨z1, _, z2, z3, z4⟩ := hturn a
    rw [hsame.steering, after_rate]
    exact ⟨z1, z2, z3, z4⟩
  · intro a
    obtain ⟨φ, f1, f2, f3⟩ := angle_within hL hst a (hturn a) (by norm_num at hδ ⊢; linarith) (hrate a)
      (by rw [← hprim.1]; exact ht) ht' (by rw [← hprim.2.1]; exact hte) (τ := m.seconds) (by norm_num) (by positivity)
      (by exact_mod_cast hn2.trans (by norm_num))
    refine ⟨φ, f1, f3, ?_⟩
    rw [after_angle]
    set A := (k.begin m).turn.angle a + (k.begin m).turn.rate a * m.seconds with hAd
    have h0 := Real.pi_pos
    have h3 := Real.pi_gt_d4
    have e1 : φ * (180 / Real.pi) - A = (φ - rad A) * (180 / Real.pi) := by
      unfold rad
      field_simp
    rw [e1, abs_mul, abs_of_pos (show 0 < 180 / Real.pi by positivity)]
    have h5 : 180 / Real.pi ≤ 57.3 := by
      rw [div_le_iff₀ h0]
      norm_num at *
      linarith
    calc |φ - rad A| * (180 / Real.pi) ≤ (1e-12 + Real.pi / 180 * (δ + 2.6e-11)) * (180 / Real.pi) :=
          mul_le_mul_of_nonneg_right f2 (by positivity)
      _ = 1e-12 * (180 / Real.pi) + (δ + 2.6e-11) := by field_simp
      _ ≤ δ + 1.3e-10 := by norm_num at h5 ⊢; linarith

theorem legs_fly (hL : GoodLibrary L) (hF : FrameLibrary L) (hA : AngleLibrary L) {E : Planet XR} {lat long az M : ℝ}
    (hM : M ≤ 9e8) :
    ∀ {cs : List (PhaseConfig (F64 L))} {ms : List Maneuver} (_ : List.Forall₂ Commands cs ms) {ls : List TrueLeg}
    {i : ℕ} {q : Phase (F64 L)} {k : Craft} {j T : ℕ} {e δ : ℝ} {r0 v0 : V3 ℝ} {t0 X : ℝ}, Standard q → HandsOverCraft q E lat long az k M e δ →
    Flyable M k ms → FollowsPlan k ms ls → j + ms.length ≤ 10 → T + flightSeconds ls ≤ 3000 → 0 ≤ e →
    e ≤ (1.1e-12 * j + 2.1e-16 * T) * M → δ ≤ 1.3e-10 * j →
    (∀ l ∈ ls, l.Obeys E lat long az) → JoinedFrom r0 v0 ls →
    Reads q.state.time t0 → |t0| + 2 * flightSeconds ls ≤ 1e8 → CloseTo q.state X (r0, v0) →
    X * Real.exp (flightSeconds ls / 375) + 16.5 * (Real.exp (flightSeconds ls / 375) - 1) ≤ 86000 →
    ∃ (log : List (LogEntry (F64 L))) (last : Phase (F64 L)) (states : List (State (F64 L))),
      Sequence i (some q) cs log (some last) ∧ rowsOf log = states.map State.row ∧
      states.getLastD q.state = last.state ∧ states.length = flightSeconds ls ∧
      ∀ k s rv, states[k]? = some s → (everySecond ls)[k]? = some rv →
        CloseTo s (X * Real.exp ((k + 1 : ℕ) / 375) + 16.5 * (Real.exp ((k + 1 : ℕ) / 375) - 1)) rv := by
  intro cs ms hcs
  induction hcs with
  | nil =>
    intro ls i q k j T e δ r0 v0 t0 X _ _ _ hfol _ _ _ _ _ _ _ _ _ _ _
    cases ls with
    | cons l ls => exact absurd hfol (by simp [FollowsPlan])
    | nil => exact ⟨[], q, [], .nil _ _, rfl, rfl, rfl, by simp⟩
  | @cons c m cs ms hc _ ih =>
    intro ls i q k j T e δ r0 v0 t0 X hbase hq hfly hfol hj hT he0 he hδ hob hjo ht0 ht0' hX hsmall
    cases ls with
    | nil => exact absurd hfol (by simp [FollowsPlan])
    | cons l ls =>
      obtain ⟨hl, hfol'⟩ := hfol
      obtain ⟨hn1', hcan, hg, hfly'⟩ := hfly
      obtain ⟨j1, j2, j3⟩ := hjo
      have hsum : flightSeconds (l :: ls) = l.seconds + flightSeconds ls := by simp [flightSeconds]
      rw [hsum] at hT ht0' hsmall
      push_cast at ht0' hsmall
      simp only [List.length_cons] at hj
      have hls : l.seconds = m.seconds := hl.1
      have hX0 : 0 ≤ X := by
        obtain ⟨r', v', _, _, h⟩ := hX
        exact le_trans (by unfold rdist rnorm; positivity) h
      have hs0 : (0 : ℝ) ≤ flightSeconds ls := by positivity
      have hl0 : (0 : ℝ) ≤ l.seconds := by positivity
      have hjR : (j : ℝ) + 1 ≤ 10 := by exact_mod_cast (by omega : j + 1 ≤ 10)
      have hTR : (T : ℝ) + l.seconds ≤ 3000 := by exact_mod_cast (by omega : T + l.seconds ≤ 3000)
      have hM0 : 0 ≤ M := by
        obtain ⟨w, μ, _, _, h1, _⟩ := hq.masses.masses
        have h2 := (abs_nonneg _).trans h1
        norm_num at h2
        linarith
      have he' : e ≤ 1.4e-11 * M := by
        refine he.trans (mul_le_mul_of_nonneg_right ?_ hM0)
        norm_num
        linarith
      have hδ' : δ ≤ 1.9e-9 := by norm_num at hδ ⊢; linarith
      have hp : Phase.new (some q) c = .ok (q.applyConfig c) := rfl
      have hst : (q.applyConfig c).reset.state.position = q.state.position ∧
          (q.applyConfig c).reset.state.velocity = q.state.velocity ∧ (q.applyConfig c).reset.state.time = q.state.time := by
        refine ⟨?_, ?_, ?_⟩ <;> simp [Phase.reset]
      have hfit := leg_fits hL hA hbase hc hq hn1' (by omega) hcan hg he0 he' hM hδ' hl
      obtain ⟨s, fuel, q', h1, h2, h3⟩ := one_leg hL hF hA.toTrigLibrary hfit (hob l (by simp)) (by omega) (t0 := t0) (X := X)
        (by rw [hst.2.2]; exact ht0) (by linarith) (by
          obtain ⟨r', v', k1, k2, k3⟩ := hX
          exact ⟨r', v', by rw [hst.1]; exact k1, by rw [hst.2.1]; exact k2, by rw [j1, j2]; exact k3⟩)
        ((mission_mono hX0 (by linarith)).trans hsmall)
      have hcomp : Completes (some q) c ((List.range l.seconds).map fun k => (s (k + 1)).row) q' := ⟨_, hp, fuel, h1⟩
      obtain ⟨⟨⟨t1, ht1, ht1'⟩, hte⟩, hX1⟩ := h3 l.seconds le_rfl
      have hq' := leg_ends hL hA hbase hc hq hn1' (by omega) hcan hg he0 he' hM hδ' h1 (t := t1) (by rw [h2]; exact ht1)
        (by norm_num at ht0' ⊢; linarith) (by rw [h2, ← hls]; exact hte)
      obtain ⟨log, last, states, g1, g2, g3, g4, g5⟩ := ih (ls := ls) (i := i + 1) (t0 := t1) (j := j + 1) (T := T + l.seconds)
        (X := X * Real.exp (l.seconds / 375) + 16.5 * (Real.exp (l.seconds / 375) - 1)) (standard_next hbase h1) hq' hfly' hfol'
        (by omega) (by omega) (by positivity) (by
          push_cast
          rw [← hls]
          linarith) (by push_cast; norm_num at hδ ⊢; linarith)
        (fun l' hl' => hob l' (by simp [hl'])) j3 (by rw [h2]; exact ht1) (by linarith) (by rw [h2]; exact hX1)
        (by rw [two_bounds]; exact hsmall)
      have hn1 := hfit.seconds.some_left
      refine ⟨_, last, ((List.range l.seconds).map fun k => s (k + 1)) ++ states, .cons hcomp g1, ?_, ?_, ?_, ?_⟩
      · show rowsOf (_ ++ log) = _
        rw [rowsOf_append, g2]
        show rowsOf (List.map LogEntry.row _) ++ _ = _
        rw [rowsOf_rows]
        simp
      · cases hstt : states with
        | nil =>
          rw [hstt] at g3
          simp only [List.getLastD_nil] at g3
          rw [List.append_nil, ← g3, h2]
          obtain ⟨m, hm⟩ : ∃ m, l.seconds = m + 1 := ⟨l.seconds - 1, by omega⟩
          rw [hm, List.range_succ]
          simp
        | cons a as =>
          rw [hstt] at g3
          rw [← g3]
          simp [List.getLastD_eq_getLast?, List.getLast?_append, List.getLast?_cons]
      · rw [List.length_append, g4, hsum]
        simp
      · intro k st rv e1 e2
        have hev : everySecond (l :: ls) = ((List.range l.seconds).map fun k => (l.position (k + 1 : ℕ), l.velocity (k + 1 : ℕ))) ++
            everySecond ls := by simp [everySecond]
        rw [hev] at e2
        by_cases hk : k < l.seconds
        · rw [List.getElem?_append_left (by simpa using hk)] at e1 e2
          simp only [List.getElem?_map, List.getElem?_range hk, Option.map_some, Option.some.injEq] at e1 e2
          subst e1 e2
          exact (h3 (k + 1) hk).2
        · rw [List.getElem?_append_right (by simpa using hk)] at e1 e2
          simp only [List.length_map, List.length_range] at e1 e2
          have := g5 _ _ _ e1 e2
          rw [two_bounds] at this
          rw [show ((l.seconds : ℝ) + ((k - l.seconds + 1 : ℕ) : ℝ)) = ((k + 1 : ℕ) : ℝ) by
            rw [← Nat.cast_add]
            congr 1
            omega] at this
          exact this

theorem standard_of_sequence {done : List (PhaseConfig (F64 L))} {log : List (LogEntry (F64 L))} {q : Phase (F64 L)}
    (h : Sequence 0 none done log (some q)) : Standard q := by
  refine ⟨?_, doubles_sequence h (by simp) _ rfl⟩
  have hr : Ready done PhaseConfig.empty (q.applyConfig PhaseConfig.empty).reset := ⟨_, _, _, h, rfl, rfl⟩
  have h1 := C09_initial_stepsize_one_partial hr
  have h2 : (q.applyConfig PhaseConfig.empty).reset.stepsize = q.baseStepsize := Phase.applyConfig_baseStepsize q _
  rw [← h2, h1]
  exact ⟨1, is_one, by norm_num⟩

/-- **C98** (phases).  In double precision, with a mathematical library whose errors are within the usual bounds.  Consider any
phase `q` in vacuum near one of the three built-in models of the Earth, with the initial step size of one second, after which
up to ten phases `cs` follow, in vacuum, with 3000 seconds in all, each of which coasts or flies with engines at full thrust
while it turns uniformly; stages, engines, propellant and rates may change from phase to phase (`Commands`, `Flyable`).  Let
`ls` be a true flight that follows the same plan (`FollowsPlan`, `Obeys`): legs joined to each other, with the masses, angles
and rates of the plan in real numbers, which start, up to `X ≤ 10` metres, at the position and the velocity of `q`.  Then
all phases run to their ends without an error, they print exactly one row for every second of the plan, and the position (in
metres) and velocity (375 s times it) in the `k`-th of them are those of the true flight at second `k`, up to
`X e^(k/375) + 16.5 (e^(k/375) - 1)` metres. -/
theorem C98_phases (hL : GoodLibrary L) (hF : FrameLibrary L) (hA : AngleLibrary L) {E : Planet XR} {lat long az M : ℝ}
    (hM : M ≤ 9e8) {cs : List (PhaseConfig (F64 L))} {q : Phase (F64 L)} (hstep : Reads q.baseStepsize 1)
    (hmass : q.state.mass.dbl.IsDouble) (htime : q.state.time.dbl.IsDouble)
    {c : Craft} (hq : HandsOverCraft q E lat long az c M 0 0)
    {ms : List Maneuver} (hcs : List.Forall₂ Commands cs ms) (hplan : Flyable M c ms) (hfew : ms.length ≤ 10)
    {ls : List TrueLeg} (hfol : FollowsPlan c ms ls) (hob : ∀ l ∈ ls, l.Obeys E lat long az) {r0 v0 : V3 ℝ}
    (hjo : JoinedFrom r0 v0 ls) (hsec : flightSeconds ls ≤ 3000)
    {t0 X : ℝ} (ht0 : Reads q.state.time t0) (ht0' : |t0| ≤ 9e7) (hX : CloseTo q.state X (r0, v0)) (hX10 : X ≤ 10) (i : ℕ) :
    ∃ (log : List (LogEntry (F64 L))) (last : Phase (F64 L)) (states : List (State (F64 L))),
      Sequence i (some q) cs log (some last) ∧ rowsOf log = states.map State.row ∧
      states.getLastD q.state = last.state ∧ states.length = flightSeconds ls ∧
      ∀ k s rv, states[k]? = some s → (everySecond ls)[k]? = some rv →
        CloseTo s (X * Real.exp ((k + 1 : ℕ) / 375) + 16.5 * (Real.exp ((k + 1 : ℕ) / 375) - 1)) rv := by
  have hX0 : 0 ≤ X := by
    obtain ⟨r', v', _, _, h⟩ := hX
    exact le_trans (by unfold rdist rnorm; positivity) h
  have hs : (flightSeconds ls : ℝ) ≤ 3000 := by exact_mod_cast hsec
  exact legs_fly hL hF hA hM hcs (j := 0) (T := 0) ⟨hstep, hmass, htime⟩ hq hplan hfol (by omega)
    (by omega) le_rfl (by norm_num) (by norm_num) hob hjo ht0 (by norm_num at ht0' ⊢; linarith) hX (small_3000 hX0 hX10 hs)

/-- **C98** (missions).  The same for a mission whose phases `done`, whatever they are, have been completed, the last one, `q`,
in vacuum near the Earth, and that goes on with the phases `cs`: the simulation terminates without an error, and what it prints
after the output of `done` are the rows of `C98_phases`. -/
theorem C98_mission (hL : GoodLibrary L) (hF : FrameLibrary L) (hA : AngleLibrary L) {E : Planet XR} {lat long az M : ℝ}
    (hM : M ≤ 9e8) {done cs : List (PhaseConfig (F64 L))} {log0 : List (LogEntry (F64 L))} {q : Phase (F64 L)}
    (hdone : Sequence 0 none done log0 (some q)) {c : Craft} (hq : HandsOverCraft q E lat long az c M 0 0)
    {ms : List Maneuver} (hcs : List.Forall₂ Commands cs ms) (hplan : Flyable M c ms) (hfew : ms.length ≤ 10)
    {ls : List TrueLeg} (hfol : FollowsPlan c ms ls) (hob : ∀ l ∈ ls, l.Obeys E lat long az) {r0 v0 : V3 ℝ}
    (hjo : JoinedFrom r0 v0 ls) (hsec : flightSeconds ls ≤ 3000)
    {t0 X : ℝ} (ht0 : Reads q.state.time t0) (ht0' : |t0| ≤ 9e7) (hX : CloseTo q.state X (r0, v0)) (hX10 : X ≤ 10) :
    ∃ (log : List (LogEntry (F64 L))) (states : List (State (F64 L))) (s : State (F64 L)),
      Simulation.Terminates (done ++ cs) ⟨log0 ++ log, .ok s⟩ ∧ rowsOf log = states.map State.row ∧
      s = states.getLastD q.state ∧ states.length = flightSeconds ls ∧
      ∀ k s rv, states[k]? = some s → (everySecond ls)[k]? = some rv →
        CloseTo s (X * Real.exp ((k + 1 : ℕ) / 375) + 16.5 * (Real.exp ((k + 1 : ℕ) / 375) - 1)) rv := by
  have hst := standard_of_sequence hdone
  obtain ⟨log, last, states, h1, h2, h3, h4, h5⟩ := C98_phases hL hF hA hM hst.base hst.doubles.1 hst.doubles.2 hq hcs hplan hfew
    hfol hob hjo hsec ht0 ht0' hX hX10 done.length
  refine ⟨log, states, last.state, C53_terminates_ok_iff.2 ⟨some last, C53_append.2 ⟨_, _, _, hdone, ?_, rfl⟩, rfl⟩, h2,
    h3.symm, h4, h5⟩
  rw [Nat.zero_add]
  exact h1

/-- **C98** (true flights).  Every plan that can be flown, near each of the three models of the Earth and from every start that
is high and slow enough for the whole duration, has a true flight that follows it, as required in `C98_phases`. -/
theorem C98_true_flight {E : Planet XR} (hE : IsEarth E) (lat long az M : ℝ) :
    ∀ (ms : List Maneuver) (c : Craft), (∀ m ∈ ms, ∀ es, m.engines = some es → 0 ≤ fullConsumption es) →
    0 ≤ fullConsumption c.ship.engines → Flyable M c ms → ∀ r0 v0 : V3 ℝ,
    6.5e6 + 8000 * (((ms.map (·.seconds)).sum : ℕ) + 0.01 * ms.length) ≤ rnorm r0 →
    rnorm r0 + 8000 * (((ms.map (·.seconds)).sum : ℕ) + 0.01 * ms.length) ≤ 1.9e7 →
    rnorm v0 + 60 * (((ms.map (·.seconds)).sum : ℕ) + 0.01 * ms.length) ≤ 8000 →
    ∃ ls, FollowsPlan c ms ls ∧ (∀ l ∈ ls, l.Obeys E lat long az) ∧ JoinedFrom r0 v0 ls ∧
      flightSeconds ls = (ms.map (·.seconds)).sum
  | [], c, _, _, _, r0, v0, _, _, _ => ⟨[], trivial, by simp, trivial, rfl⟩
  | m :: ms, c, hcon, hc, hfly, r0, v0, h1, h2, h3 => by
    obtain ⟨hn, hcan, hg, hfly'⟩ := hfly
    simp only [List.map_cons, List.sum_cons, List.length_cons, Nat.cast_add, Nat.cast_one] at h1 h2 h3
    have hQ : 0 ≤ fullConsumption (c.begin m).ship.engines := by
      show 0 ≤ fullConsumption (m.engines.getD c.ship.engines)
      cases he : m.engines with
      | none => exact hc
      | some es => exact hcon m (by simp) es he
    obtain ⟨S, hSd⟩ : ∃ S, (ms.map (·.seconds)).sum = S := ⟨_, rfl⟩
    rw [hSd] at h1 h2 h3
    have hS : (0 : ℝ) ≤ S := by positivity
    have hl : (0 : ℝ) ≤ ms.length := by positivity
    have hT : (0 : ℝ) ≤ m.seconds := by positivity
    have hheavy := hcan.heavy
    have hen := hcan.enough
    have hfinal := burnt_mass (c.begin m) m.seconds
    have hpos : 0 < (c.begin m).mass - m.seconds * fullConsumption (c.begin m).ship.engines := by
      have : (c.begin m).mass = (c.begin m).ship.structureMass + (c.begin m).ship.propellant := rfl
      linarith
    have hf0 : fullConsumption [] = 0 := by simp [fullConsumption]
    have ht0 : rnorm (fullThrust [] 0) = 0 := by simp [fullThrust, rsum, rnorm]
    have hleft : 120 * fullConsumption (c.begin m).ship.engines ≤
        (c.begin m).mass - m.seconds * fullConsumption (c.begin m).ship.engines := by
      rcases hg.left with h | h
      · rw [h, hf0] at hpos ⊢
        linarith
      · rw [hfinal] at h
        exact h
    have hthrust : rnorm (fullThrust (c.begin m).ship.engines 0) ≤
        25 * ((c.begin m).mass - m.seconds * fullConsumption (c.begin m).ship.engines) := by
      rcases hg.thrust with h | h
      · rw [h, hf0] at hpos ⊢
        rw [ht0]
        linarith
      · rw [hfinal] at h
        exact h
    obtain ⟨r, v, hr, hv, hall⟩ := C97_true_flight (c.begin m).turn lat long az (c.begin m).ship.engines hE
      (m := (c.begin m).mass) (T := m.seconds) hT hQ hpos hleft hthrust (r0 := r0) (v0 := v0)
      (by norm_num at h1 ⊢; linarith) (by norm_num at h3 ⊢; linarith)
    obtain ⟨_, e1, e2, e3⟩ := hall m.seconds ⟨hT, le_rfl⟩
    obtain ⟨ls, f1, f2, f3, f4⟩ := C98_true_flight hE lat long az M ms ((c.begin m).after m.seconds)
      (fun m' hm' => hcon m' (by simp [hm'])) hQ hfly' (r m.seconds) (v m.seconds)
      (by rw [hSd]; norm_num at h1 e1 ⊢; linarith) (by rw [hSd]; norm_num at h2 e2 ⊢; linarith)
      (by rw [hSd]; norm_num at h3 e3 ⊢; linarith)
    refine ⟨⟨m.seconds, (c.begin m).ship.engines, (c.begin m).mass, (c.begin m).turn, r, v⟩ :: ls,
      ⟨⟨rfl, rfl, rfl, rfl⟩, f1⟩, fun l hl' => ?_, ⟨hr, hv, f3⟩, ?_⟩
    · rw [List.mem_cons] at hl'
      rcases hl' with rfl | hl'
      · refine ⟨fun t ht => (hall t ht).1, fun t ht => ?_, fun t ht => ?_, fun t ht => ?_⟩ <;>
          obtain ⟨_, k1, k2, k3⟩ := hall t ht
        · norm_num at k1 h1 ⊢; linarith
        · norm_num at k2 h2 ⊢; linarith
        · norm_num at k3 h3 ⊢; linarith
      · exact f2 l hl'
    · simp only [flightSeconds, List.map_cons, List.sum_cons] at f4 ⊢
      rw [f4]

/-- **C98** (program).  A file that describes such a mission makes the program succeed, having printed these rows last. -/
theorem C98_program (hL : GoodLibrary L) (hF : FrameLibrary L) (hA : AngleLibrary L) {E : Planet XR} {lat long az M : ℝ}
    (hM : M ≤ 9e8) {file : File (F64 L)} {done cs : List (PhaseConfig (F64 L))} (hfile : Simulation.fromFile file = some (done ++ cs))
    {log0 : List (LogEntry (F64 L))} {q : Phase (F64 L)}
    (hdone : Sequence 0 none done log0 (some q)) {c : Craft} (hq : HandsOverCraft q E lat long az c M 0 0)
    {ms : List Maneuver} (hcs : List.Forall₂ Commands cs ms) (hplan : Flyable M c ms) (hfew : ms.length ≤ 10)
    {ls : List TrueLeg} (hfol : FollowsPlan c ms ls) (hob : ∀ l ∈ ls, l.Obeys E lat long az) {r0 v0 : V3 ℝ}
    (hjo : JoinedFrom r0 v0 ls) (hsec : flightSeconds ls ≤ 3000)
    {t0 X : ℝ} (ht0 : Reads q.state.time t0) (ht0' : |t0| ≤ 9e7) (hX : CloseTo q.state X (r0, v0)) (hX10 : X ≤ 10) :
    ∃ (fuel : ℕ) (log : List (LogEntry (F64 L))) (states : List (State (F64 L))),
      main fuel file = some (log0 ++ log, .success) ∧ rowsOf log = states.map State.row ∧ states.length = flightSeconds ls ∧
      ∀ k s rv, states[k]? = some s → (everySecond ls)[k]? = some rv →
        CloseTo s (X * Real.exp ((k + 1 : ℕ) / 375) + 16.5 * (Real.exp ((k + 1 : ℕ) / 375) - 1)) rv := by
  obtain ⟨log, states, s, h1, h2, _, h4, h5⟩ := C98_mission hL hF hA hM hdone hq hcs hplan hfew hfol hob hjo hsec ht0 ht0' hX hX10
  obtain ⟨fuel, hm⟩ := ((C56_bad_file_never_runs file).2 _ hfile (log0 ++ log) .success).2 ⟨_, h1, .inl ⟨rfl, s, rfl⟩⟩
  exact ⟨fuel, log, states, hm, h2, h4, h5⟩

/-! ## an example -/

theorem fullLibm_angle : AngleLibrary fullLibm where
  toTrigLibrary := fullLibm_trig
  cos := by
    rintro x q ⟨s, a, h1, rfl, _⟩ _
    have e : Flt.cos x = (⟨roundReal (Real.cos (Dbl.val s a : ℚ))⟩ : F64 fullLibm) := by
      show (⟨fullLibm.cos x.dbl⟩ : F64 fullLibm) = _
      rw [h1]
      rfl
    rw [e]
    have hs := Real.abs_cos_le_one (Dbl.val s a : ℚ)
    obtain ⟨r, h2, h3⟩ := roundReal_is (L := fullLibm) (hs.trans (by norm_num))
    exact ⟨r, h2, roundReal_one hs h2, h3⟩

/-- 100 tons, of which 10 tons are structure, 7000 km from the centre of the Earth, with 6000 m/s. -/
def exampleUpperStage : Phase (F64 fullLibm) :=
  { Phase.default with
    vehicle := { oneEngine with structureMass := 10000 }
    state := { State.default with
      position := ⟨7000000, 0, 0⟩
      velocity := ⟨0, 6000, 0⟩
      mass := 100000
      propellantMass := 90000 } }

/-- 16 seconds with 1000 kN while pitching by half a degree per second; one ton of structure is dropped, and 10 seconds of
coasting follow. -/
def exampleManeuvers : List (PhaseConfig (F64 fullLibm)) := [
  { PhaseConfig.empty with
    steering := some ⟨none, none, some ⟨.timeSinceEvent, 0.5, 0, 0⟩⟩
    endCriterion := some (.timeSinceEvent, 16) },
  { PhaseConfig.empty with
    vehicle := some ⟨some 9000, none, none, none, none, none, some []⟩
    endCriterion := some (.timeSinceEvent, 10) }]

def exampleRates : AxisName → Option ℝ
  | .pitch => some 0.5
  | _ => none

/-- The same plan in real numbers. -/
def examplePlan : List Maneuver :=
  [⟨⟨16, none, none, none⟩, exampleRates⟩, ⟨⟨10, some 9000, none, some []⟩, fun _ => none⟩]

def exampleCraft : Craft := ⟨⟨10000, 90000, 90000, [realOneEngine]⟩, ⟨0, 0, 0, 0, 0, 0⟩⟩

theorem exampleManeuvers_commanded : List.Forall₂ Commands exampleManeuvers examplePlan := by
  have hz : Reads (0 : F64 fullLibm) 0 := reads_zero
  have n3 : Reads (9000 : F64 fullLibm) 9000 := by simpa using reads_nat (L := fullLibm) 9000 (by norm_num)
  refine .cons ⟨⟨⟨_, rfl, reads_nat 16 (by norm_num)⟩, .none, .none, .none, ?_, ?_, ?_⟩, ?_, rfl, ?_⟩
    (.cons ⟨⟨⟨_, rfl, reads_nat 10 (by norm_num)⟩, .some n3, .none, .some .nil, ?_, ?_, ?_⟩, ?_, rfl, ?_⟩ .nil)
  all_goals try simp [atmosphereParam, tablesOf, PhaseConfig.empty]
  all_goals
    intro a
    cases a
    all_goals first | exact .none | exact .some (⟨rfl, reads_half, hz, hz⟩ : TurnCommand ⟨.timeSinceEvent, 0.5, 0, 0⟩ 0.5)

theorem exampleUpperStage_hands : HandsOverCraft exampleUpperStage EARTH_SPHERICAL 0 0 0 exampleCraft 100000 0 0 := by
  have hz : Reads (0 : F64 fullLibm) 0 := reads_zero
  have n1 : Reads (10000 : F64 fullLibm) 10000 := by simpa using reads_nat (L := fullLibm) 10000 (by norm_num)
  have n2 : Reads (90000 : F64 fullLibm) 90000 := by simpa using reads_nat (L := fullLibm) 90000 (by norm_num)
  have n3 : Reads (100000 : F64 fullLibm) 100000 := by simpa using reads_nat (L := fullLibm) 100000 (by norm_num)
  have h1 : Reads (1000000 : F64 fullLibm) 1000000 := by simpa using reads_nat (L := fullLibm) 1000000 (by norm_num)
  have h2 : Reads (300 : F64 fullLibm) 300 := by simpa using reads_nat (L := fullLibm) 300 (by norm_num)
  refine ⟨⟨n1, ?_, by norm_num [exampleCraft], 90000, 100000, n2, n3, ?_, ?_, fun _ => ?_, ?_⟩, .inl ⟨rfl, rfl⟩, rfl, rfl,
    ⟨wellFormed_default, wellFormed_default, wellFormed_default⟩, ⟨⟨hz, hz, hz⟩, by norm_num, by norm_num, by norm_num⟩, ?_, ?_⟩
  · refine .cons ⟨⟨h1, h2, ?_, ?_, ?_, ?_⟩, hz, hz, hz, ?_, ?_⟩ .nil <;> norm_num [realOneEngine]
  · norm_num [exampleCraft]
  · norm_num [exampleCraft]
  · norm_num [exampleCraft]
  · norm_num [exampleCraft]
  · intro a
    cases a <;> exact ⟨.inr ⟨rfl, rfl⟩, hz, hz, hz⟩
  · intro a
    refine ⟨0, ?_, by norm_num, ?_⟩
    · cases a <;> exact hz
    · cases a <;> norm_num [exampleCraft, TurnProgram.angle]

theorem examplePlan_flyable : Flyable 100000 exampleCraft examplePlan := by
  have hF : rnorm (fullThrust [realOneEngine] 0) = 1000000 := by
    have e : fullThrust [realOneEngine] 0 = ⟨1000000, 0, 0⟩ := by
      simp [fullThrust, rsum, RealEngine.thrustAt, realOneEngine, rscale, RealEngine.direction]
    rw [e, rnorm_x _ (by norm_num)]
  have hQ : fullConsumption [realOneEngine] = 1000000 / (300 * 9.80665) := by
    norm_num [fullConsumption, RealEngine.consumption, realOneEngine]
  have hG : grossThrust [realOneEngine] 0 = 1000000 := by simp [grossThrust, realOneEngine]
  refine ⟨by norm_num, ⟨realOne_propels, ?_, ?_, ?_, ?_, ?_⟩, ⟨?_, ?_, ?_, .inr ?_, .inr ?_, .inr ?_, .inr ?_⟩, by norm_num,
    ⟨.inl rfl, ?_, ?_, ?_, ?_, ?_⟩, ⟨?_, ?_, ?_, .inl rfl, .inl rfl, .inl rfl, .inl rfl⟩, trivial⟩
  case refine_8 =>
    intro e he
    have : e = realOneEngine := by simpa [Craft.begin, Ship.begin, exampleCraft] using he
    rw [this]
    norm_num [realOneEngine]
  all_goals try intro a
  all_goals try cases a
  all_goals simp [Craft.begin, Craft.after, Craft.mass, Ship.begin, Ship.burn, exampleCraft, TurnProgram.angle,
    hF, hQ, hG, exampleRates]
  all_goals try norm_num [abs_of_pos, fullConsumption, realOneEngine]

/-- There is a true flight of 26 seconds that follows the plan, and the simulated one is never farther than 2 metres from it. -/
example : ∃ (ls : List TrueLeg) (log : List (LogEntry (F64 fullLibm))) (last : Phase (F64 fullLibm))
    (states : List (State (F64 fullLibm))),
    FollowsPlan exampleCraft examplePlan ls ∧ (∀ l ∈ ls, l.Obeys EARTH_SPHERICAL 0 0 0) ∧
    JoinedFrom ⟨7000000, 0, 0⟩ ⟨0, 6000, 0⟩ ls ∧ Sequence 0 (some exampleUpperStage) exampleManeuvers log (some last) ∧
    rowsOf log = states.map State.row ∧ states.length = 26 ∧
    ∀ (k : ℕ) s rv, states[k]? = some s → (everySecond ls)[k]? = some rv → CloseTo s 2 rv := by
  have hQ : fullConsumption [realOneEngine] = 1000000 / (300 * 9.80665) := by
    norm_num [fullConsumption, RealEngine.consumption, realOneEngine]
  have hF : rnorm (fullThrust [realOneEngine] 0) = 1000000 := by
    have e : fullThrust [realOneEngine] 0 = ⟨1000000, 0, 0⟩ := by
      simp [fullThrust, rsum, RealEngine.thrustAt, realOneEngine, rscale, RealEngine.direction]
    rw [e, rnorm_x _ (by norm_num)]
  have hF0 : rnorm (fullThrust [] 0) = 0 := by simp [fullThrust, rsum, rnorm]
  have hQ0 : fullConsumption [] = 0 := by simp [fullConsumption]
  have n1 : rnorm ⟨7000000, 0, 0⟩ = 7000000 := rnorm_x _ (by norm_num)
  have n2 : rnorm ⟨0, 6000, 0⟩ = 6000 := by
    simp only [rnorm]
    rw [show ((0 : ℝ) ^ 2 + 6000 ^ 2 + 0 ^ 2) = 6000 ^ 2 by ring, Real.sqrt_sq (by norm_num)]
  obtain ⟨r1, v1, hr1, hv1, h1⟩ := C97_true_flight ⟨0, 0, 0, 0, 0, 0.5⟩ 0 0 0 [realOneEngine] (E := EARTH_SPHERICAL)
    (.inl rfl) (m := 100000) (T := 16) (by norm_num) (by rw [hQ]; norm_num) (by rw [hQ]; norm_num) (by rw [hQ]; norm_num)
    (by rw [hF, hQ]; norm_num) (r0 := ⟨7000000, 0, 0⟩) (v0 := ⟨0, 6000, 0⟩) (by rw [n1]; norm_num) (by rw [n2]; norm_num)
  rw [n1, n2] at h1
  obtain ⟨_, e1, e2, e3⟩ := h1 16 (by norm_num)
  obtain ⟨r2, v2, hr2, hv2, h2⟩ := C97_true_flight ⟨0, 0, 0, 0, 8, 0.5⟩ 0 0 0 [] (E := EARTH_SPHERICAL)
    (.inl rfl) (m := 99000 - 16 * (1000000 / (300 * 9.80665))) (T := 10) (by norm_num) (by rw [hQ0]) (by rw [hQ0]; norm_num)
    (by rw [hQ0]; norm_num) (by rw [hF0, hQ0]; norm_num) (r0 := r1 16) (v0 := v1 16) (by norm_num at e1 ⊢; linarith)
    (by norm_num at e3 ⊢; linarith)
  have hfol : FollowsPlan exampleCraft examplePlan [⟨16, [realOneEngine], 100000, ⟨0, 0, 0, 0, 0, 0.5⟩, r1, v1⟩,
      ⟨10, [], 99000 - 16 * (1000000 / (300 * 9.80665)), ⟨0, 0, 0, 0, 8, 0.5⟩, r2, v2⟩] := by
    refine ⟨⟨rfl, rfl, ?_, ?_⟩, ⟨rfl, rfl, ?_, ?_⟩, trivial⟩
    all_goals simp [Craft.begin, Craft.after, Craft.mass, Ship.begin, Ship.burn, exampleCraft, hQ, exampleRates]
    all_goals norm_num
  have hob : ∀ l ∈ [(⟨16, [realOneEngine], 100000, ⟨0, 0, 0, 0, 0, 0.5⟩, r1, v1⟩ : TrueLeg),
      ⟨10, [], 99000 - 16 * (1000000 / (300 * 9.80665)), ⟨0, 0, 0, 0, 8, 0.5⟩, r2, v2⟩], l.Obeys EARTH_SPHERICAL 0 0 0 := by
    intro l hl
    simp only [List.mem_cons, List.not_mem_nil, or_false] at hl
    rcases hl with rfl | rfl
    · refine ⟨fun t ht => (h1 t (by simpa using ht)).1, fun t ht => ?_, fun t ht => ?_, fun t ht => ?_⟩ <;>
        obtain ⟨_, k1, k2, k3⟩ := h1 t (by simpa using ht)
      · norm_num at k1 ⊢; linarith
      · norm_num at k2 ⊢; linarith
      · norm_num at k3 ⊢; linarith
    · refine ⟨fun t ht => (h2 t (by simpa using ht)).1, fun t ht => ?_, fun t ht => ?_, fun t ht => ?_⟩ <;>
        obtain ⟨_, k1, k2, k3⟩ := h2 t (by simpa using ht)
      · norm_num at e1 k1 ⊢; linarith
      · norm_num at e2 k2 ⊢; linarith
      · norm_num at e3 k3 ⊢; linarith
  have hjo : JoinedFrom ⟨7000000, 0, 0⟩ ⟨0, 6000, 0⟩ [(⟨16, [realOneEngine], 100000, ⟨0, 0, 0, 0, 0, 0.5⟩, r1, v1⟩ : TrueLeg),
      ⟨10, [], 99000 - 16 * (1000000 / (300 * 9.80665)), ⟨0, 0, 0, 0, 8, 0.5⟩, r2, v2⟩] := by
    refine ⟨hr1, hv1, ?_, ?_, trivial⟩
    · simpa using hr2
    · simpa using hv2
  have hz : Reads (0 : F64 fullLibm) 0 := reads_zero
  have h7 : Reads (7000000 : F64 fullLibm) 7000000 := by simpa using reads_nat (L := fullLibm) 7000000 (by norm_num)
  have h6 : Reads (6000 : F64 fullLibm) 6000 := by simpa using reads_nat (L := fullLibm) 6000 (by norm_num)
  have h1' : Reads (1 : F64 fullLibm) 1 := by simpa using reads_nat (L := fullLibm) 1 (by norm_num)
  have h0 : ∀ c : V3 ℝ, rdist c c = 0 := by
    intro c
    simp [rdist, rsub, rnorm]
  obtain ⟨log, last, states, g1, g2, g3, g4, g5⟩ := C98_phases fullLibm_good fullLibm_frame fullLibm_angle (M := 100000) (by norm_num)
    (q := exampleUpperStage) h1' (Dbl.round_isDouble _ _) (Dbl.round_isDouble _ _) exampleUpperStage_hands
    exampleManeuvers_commanded examplePlan_flyable (by simp [examplePlan]) hfol hob hjo (by simp [flightSeconds]) (t0 := 0) (X := 0) hz
    (by norm_num) ⟨⟨7000000, 0, 0⟩, ⟨0, 6000, 0⟩, ⟨h7, hz, hz⟩, ⟨hz, h6, hz⟩, by rw [h0, h0]; norm_num⟩ (by norm_num) 0
  have h26 : states.length = 26 := by rw [g4]; simp [flightSeconds]
  refine ⟨_, log, last, states, hfol, hob, hjo, g1, g2, h26, fun k s rv hk hrv => ?_⟩
  obtain ⟨r', v', k1, k2, k3⟩ := g5 k s rv hk hrv
  refine ⟨r', v', k1, k2, k3.trans ?_⟩
  have hk26 : k < 26 := by
    have := (List.getElem?_eq_some_iff.1 hk).1
    omega
  have : Real.exp (((k + 1 : ℕ) : ℝ) / 375) ≤ 1.1 := by
    have h3 : (((k + 1 : ℕ) : ℝ)) ≤ 26 := by exact_mod_cast hk26
    have h2 : Real.exp (((k + 1 : ℕ) : ℝ) / 375) ^ 14 ≤ 1.1 ^ 14 := by
      rw [← Real.exp_nat_mul]
      have e : Real.exp (((14 : ℕ) : ℝ) * (((k + 1 : ℕ) : ℝ) / 375)) ≤ Real.exp 1 := Real.exp_le_exp.2 (by
        rw [← mul_div_assoc, div_le_one (by norm_num)]
        push_cast at h3 ⊢
        linarith)
      refine e.trans (Real.exp_one_lt_d9.le.trans ?_)
      norm_num
    exact le_of_pow_le_pow_left₀ (by norm_num) (by norm_num) h2
  norm_num at this ⊢
  linarith

end
end Post
