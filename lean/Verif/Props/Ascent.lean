import Verif.Props.Mass
import Verif.Props.Aero
/-! # Whole runs in vacuum: powered flight (C58), propellant (C36), coasting (C54), criteria that
cannot be met (C59).  Exact arithmetic. -/

namespace Post
open Spec Flt

/-! ## Vacuum has no aerodynamic force -/

/-- zero or NaN -/
def ZeroOrNan (x : XR) : Prop := x = .fin 0 ∨ x = .nan

theorem ZeroOrNan.mul {x : XR} (h : ZeroOrNan x) (y : XR) : ZeroOrNan (x * y) := by
  rcases h with rfl | rfl
  · cases y with
    | fin r => left; rw [XR.fin_mul, zero_mul]
    | nan => right; rfl
    | pinf => right; show XR.mul _ _ = _; simp [XR.mul, XR.infMul]
    | ninf => right; show XR.mul _ _ = _; simp [XR.mul, XR.infMul]
  · right; exact XR.nan_mul y

theorem ZeroOrNan.nanToZero {x : XR} (h : ZeroOrNan x) : nanToZero x = .fin 0 := by
  rcases h with rfl | rfl
  · exact nanToZero_fin 0
  · exact nanToZero_nan.trans XR.fin_zero

theorem aeroForce_of_zero_q {v : Vehicle XR} {s : State XR} (hq : ZeroOrNan s.dynamicPressure)
    {f : V3 XR} (h : v.aeroForce s = .ok f) : f = V3.fin ⟨0, 0, 0⟩ := by
  unfold Vehicle.aeroForce at h
  simp only [bind, Except.bind] at h
  split at h
  · cases h
  split at h
  · cases h
  split at h
  · cases h
  injection h with h
  subst h
  have key : ∀ c : XR, nanToZero (s.dynamicPressure * v.referenceArea * c) = .fin 0 :=
    fun c => ((hq.mul _).mul _).nanToZero
  unfold V3.map V3.smul V3.fin
  simp only [key]
  rfl

theorem systemPre_vacuum {p : Phase XR} (hvac : p.atmosphere.model = .noAtmosphere) (s : State XR) :
    (p.systemPre s).temperature = .fin 0 ∧ (p.systemPre s).pressure = .fin 0 ∧
    (p.systemPre s).density = .fin 0 ∧ ZeroOrNan (p.systemPre s).dynamicPressure := by
  have hT : (p.systemPre s).temperature = .fin 0 := by
    show p.atmosphere.temperature _ = _
    unfold Atmosphere.temperature
    rw [hvac, XR.fin_zero]
  have hp : (p.systemPre s).pressure = .fin 0 := by
    show p.atmosphere.pressure _ = _
    unfold Atmosphere.pressure
    rw [hvac, XR.fin_zero]
  have hd : (p.systemAtmosphere (p.systemAir (p.systemPlanet s))).density = .fin 0 := by
    show p.atmosphere.density _ = _
    unfold Atmosphere.density
    rw [hvac, XR.fin_zero]
  refine ⟨hT, hp, hd, ?_⟩
  show ZeroOrNan (0.5 * (p.systemAtmosphere (p.systemAir (p.systemPlanet s))).density *
    Flt.powi _ 2)
  rw [hd]
  apply ZeroOrNan.mul
  left
  rw [fin_half, XR.fin_mul, mul_zero]

/-- C49 (forces).  With the atmosphere disabled there is no aerodynamic force in any state a run
visits, whatever the vehicle and its tables; temperature, pressure and density are zero. -/
theorem C49_visited {p : Phase XR} (hvac : p.atmosphere.model = .noAtmosphere) {s : State XR}
    (hs : Visited p s) :
    s.aeroForceBody = V3.fin ⟨0, 0, 0⟩ ∧ s.temperature = .fin 0 ∧ s.pressure = .fin 0 ∧
      s.density = .fin 0 := by
  obtain ⟨s1, h⟩ := hs.system
  obtain ⟨aero, haero, _, rfl⟩ := Phase.system_ok h
  obtain ⟨h1, h2, h3, h4⟩ := systemPre_vacuum hvac s1
  exact ⟨aeroForce_of_zero_q h4 haero, h1, h2, h3⟩

/-- In vacuum and without acceleration limit the equations of motion succeed in every state of
positive mass, whatever the position, velocity and attitude. -/
theorem vacuum_system {p : Phase XR} {es : List RealEngine} (hE : HasEngines p.vehicle es)
    (hr : Realistic es) (hlim : p.maxAcceleration = Flt.inf)
    (hvac : p.atmosphere.model = .noAtmosphere) (ht : p.vehicle.TablesOk) {s : State XR} {m : ℝ}
    (hm : s.mass = .fin m) (hpos : 0 < m) :
    ∃ d, p.system s = .ok d ∧ d.massflow = .fin (-fullConsumption es) := by
  obtain ⟨_, h2, _, h4⟩ := systemPre_vacuum hvac s
  obtain ⟨f, hf⟩ := Vehicle.aeroForce_ok ht (p.systemPre s)
  have hf0 := aeroForce_of_zero_q h4 hf
  subst hf0
  obtain ⟨d, hd⟩ := C15_never_aborts hlim hE hm hpos h2 hf
  refine ⟨d, hd, ?_⟩
  rw [(system_consistent hd).massflow, system_unlimited_throttle hlim hd hm hpos,
    massflow_fin hE fun e he => (hr e he).2.ne', one_mul]

/-- An integration step in vacuum succeeds as long as mass is left before and after it. -/
theorem vacuum_step {p : Phase XR} {es : List RealEngine} (hE : HasEngines p.vehicle es)
    (hr : Realistic es) (hlim : p.maxAcceleration = Flt.inf)
    (hvac : p.atmosphere.model = .noAtmosphere) (ht : p.vehicle.TablesOk) {s : State XR} {m h : ℝ}
    (hm : s.mass = .fin m) (hm0 : 0 < m) (hpos : 0 < m - h * fullConsumption es) :
    ∃ s', OneStep p (.fin h) s s' ∧ s'.mass = .fin (m - h * fullConsumption es) := by
  have hc := fullConsumption_nonneg hr
  obtain ⟨s', hs'⟩ := oneStep_total (p := p) (s := s) (h := .fin h)
    (q := .fin (-fullConsumption es)) (G := fun x => ∃ μ : ℝ, x = .fin μ ∧ 0 < μ)
    (fun st ⟨μ, h1, h2⟩ => vacuum_system hE hr hlim hvac ht h1 h2)
    (by rw [hm, XR.fin_zero]; simp only [XR.fin_mul, XR.fin_add]; exact ⟨_, rfl, by linarith⟩)
    (by rw [hm, XR.fin_zero, fin_half]; simp only [XR.fin_mul, XR.fin_add]
        exact ⟨_, rfl, by nlinarith⟩)
    (by rw [hm, XR.fin_zero, fin_half]; simp only [XR.fin_mul, XR.fin_add]
        exact ⟨_, rfl, by nlinarith⟩)
    (by rw [hm, XR.fin_zero, XR.fin_one]; simp only [XR.fin_mul, XR.fin_add]
        exact ⟨_, rfl, by nlinarith⟩)
    (by rw [hm, fin_sixth, fin_third, XR.fin_zero]; simp only [XR.fin_mul, XR.fin_add]
        exact ⟨_, rfl, by nlinarith⟩)
  exact ⟨s', hs', C35_linear hE hr hlim hm hm0 hpos hs'⟩

/-! ## Mass along a run -/

theorem add_fin_inv {x y : XR} {b : ℝ} (h : x + y = .fin b) :
    ∃ a k : ℝ, x = .fin a ∧ y = .fin k ∧ b = a + k := by
  cases x <;> cases y <;> first | (injection h with h; exact ⟨_, _, rfl, rfl, h.symm⟩) | cases h

/-- C35 (linear, runs).  In a phase without acceleration limit, as long as the time is real and
some mass is left, the mass in each state of a run is the initial mass minus the full-throttle
consumption times the time passed, however many steps were taken, whatever their sizes. -/
theorem C35_path {p : Phase XR} {es : List RealEngine} (hE : HasEngines p.vehicle es)
    (hr : Realistic es) (hlim : p.maxAcceleration = Flt.inf) {v : StateVariable} (hv : IsTime v)
    {t0 m0 : ℝ} {r q : Phase XR} {ps : List (Phase XR)} (hpath : Path r ps q)
    (hsame : Phase.SameParams p r) {a : ℝ} (ha : v.getValue r.state = .fin a)
    (hm : r.state.mass = .fin (m0 - (a - t0) * fullConsumption es))
    (hpos : 0 < m0 - (a - t0) * fullConsumption es)
    (hps : ∀ r' ∈ ps, ∃ b : ℝ, v.getValue r'.state = .fin b ∧
      0 < m0 - (b - t0) * fullConsumption es) :
    ∀ r' ∈ ps, ∃ b : ℝ, v.getValue r'.state = .fin b ∧
      r'.state.mass = .fin (m0 - (b - t0) * fullConsumption es) := by
  induction hpath generalizing a with
  | nil r => intro r' hr'; simp at hr'
  | @cons r r1 q ps h1 h2 h3 ih =>
    obtain ⟨b, hb, hbpos⟩ := hps r1 (by simp)
    have hsame' := hsame.trans (Phase.step_sameParams h2)
    have step : ∀ s k, OneStep r k r.state s → v.getValue s = .fin b →
        s.mass = .fin (m0 - (b - t0) * fullConsumption es) := by
      intro s k hs hsb
      rw [isTime_step hv hs, ha] at hsb
      obtain ⟨a', k', e1, rfl, e3⟩ := add_fin_inv hsb
      rw [XR.fin_inj] at e1
      subst e1
      rw [C35_linear hE hr hlim hm hpos
        (by rw [e3] at hbpos; ring_nf at hbpos ⊢; exact hbpos) (hsame.oneStep.1 hs), XR.fin_inj, e3]
      ring
    have hm1 : r1.state.mass = .fin (m0 - (b - t0) * fullConsumption es) := by
      obtain ⟨_, s, hs, h | h | h⟩ := Phase.step_ok h2
      · rw [h.2] at hb ⊢; exact step s _ hs hb
      · rw [h.2.2.2] at hb ⊢
        rw [ha, XR.fin_inj] at hb
        rw [← hb]; exact hm
      · rw [h.2.2] at hb ⊢; exact step s _ hs hb
    intro r' hr'
    rcases List.mem_cons.1 hr' with rfl | hr'
    · exact ⟨b, hb, hm1⟩
    · exact ih hsame' hb hm1 hbpos (fun r' hr' => hps r' (by simp [hr'])) r' hr'

/-- C35 (runs).  However the throttle is set: as long as time does not run backwards, the mass in
each state of a run is at most the initial one, and at least the initial one minus the full-throttle
consumption times the time passed; and it never grows from one state to the next. -/
theorem C35_run {p : Phase XR} {es : List RealEngine} (hE : HasEngines p.vehicle es)
    (hr : Realistic es) {v : StateVariable} (hv : IsTime v)
    {r q : Phase XR} {ps : List (Phase XR)} (hpath : Path r ps q)
    (hsame : Phase.SameParams p r) {t0 m0 : ℝ} (hm : r.state.mass = .fin m0)
    (ht : v.getValue r.state = .fin t0)
    (hmono : List.IsChain (fun x y => ∃ a b : ℝ, v.getValue x.state = .fin a ∧
      v.getValue y.state = .fin b ∧ a ≤ b) (r :: ps)) :
    (∀ r' ∈ ps, ∃ b m : ℝ, v.getValue r'.state = .fin b ∧ r'.state.mass = .fin m ∧ m ≤ m0 ∧
      m0 - (b - t0) * fullConsumption es ≤ m) ∧
    List.IsChain (fun x y => ∃ m m' : ℝ, x.state.mass = .fin m ∧ y.state.mass = .fin m' ∧ m' ≤ m)
      (r :: ps) := by
  induction hpath generalizing m0 t0 with
  | nil r => exact ⟨by simp, by simp⟩
  | @cons r r1 q ps h1 h2 h3 ih =>
    have hsame' := hsame.trans (Phase.step_sameParams h2)
    obtain ⟨⟨a, b, ha, hb, hab⟩, hmono'⟩ := List.isChain_cons_cons.1 hmono
    rw [ht, XR.fin_inj] at ha
    subst ha
    have step : ∀ s k, OneStep r k r.state s → v.getValue s = .fin b →
        ∃ m', s.mass = .fin m' ∧ m0 - (b - t0) * fullConsumption es ≤ m' ∧ m' ≤ m0 := by
      intro s k hs hsb
      rw [isTime_step hv hs, ht] at hsb
      obtain ⟨a', k', e1, rfl, e3⟩ := add_fin_inv hsb
      rw [XR.fin_inj] at e1
      subst e1
      have := C35_step hE hr (h := k') (by linarith) hm (hsame.oneStep.1 hs)
      rw [e3, add_sub_cancel_left]
      exact this
    have hm1 : ∃ m', r1.state.mass = .fin m' ∧ m0 - (b - t0) * fullConsumption es ≤ m' ∧ m' ≤ m0 := by
      obtain ⟨_, s, hs, h | h | h⟩ := Phase.step_ok h2
      · rw [h.2] at hb ⊢; exact step s _ hs hb
      · rw [h.2.2.2] at hb ⊢
        rw [ht, XR.fin_inj] at hb
        exact ⟨m0, hm, by rw [hb]; simp, le_refl _⟩
      · rw [h.2.2] at hb ⊢; exact step s _ hs hb
    obtain ⟨m1, hm1, hlo, hhi⟩ := hm1
    obtain ⟨ih1, ih2⟩ := ih hsame' hm1 hb hmono'
    refine ⟨fun r' hr' => ?_, List.isChain_cons_cons.2 ⟨⟨m0, m1, hm, hm1, hhi⟩, ih2⟩⟩
    rcases List.mem_cons.1 hr' with rfl | hr'
    · exact ⟨b, m1, hb, hm1, hhi, hlo⟩
    · obtain ⟨b', m', hb', hm', h5, h6⟩ := ih1 r' hr'
      exact ⟨b', m', hb', hm', by linarith, by nlinarith⟩

/-! ## C58: powered flight in vacuum -/

/-- C58.  A phase in vacuum without acceleration limit that ends by time and has enough mass for
its engines always ends normally.  It ends at the target (or at a regular step within the
tolerance), and in every printed state the mass is the initial one minus consumption times
duration. -/
theorem C58_vacuum_run {p : Phase XR} {es : List RealEngine} (hE : HasEngines p.vehicle es)
    (hr : Realistic es) (hlim : p.maxAcceleration = Flt.inf)
    (hvac : p.atmosphere.model = .noAtmosphere) (htab : p.vehicle.TablesOk)
    {v : StateVariable} (hv : IsTime v) {T t0 h m0 : ℝ}
    (hc : p.endCriterion = (v, .fin T)) (hval : v.getValue p.state = .fin t0) (hT : t0 ≤ T)
    (hst : p.stepsize = .fin h) (hh : 1e-3 ≤ h) (he : p.ended = false)
    (ht : p.endCriterionTries = 0) (hm : p.state.mass = .fin m0)
    (hpos : 0 < m0 - (T + h - t0) * fullConsumption es) :
    ∃ fuel rows q w, p.run fuel = some ⟨rows, .ok q⟩ ∧ v.getValue q.state = .fin w ∧
      (w = T ∨ (|w - T| < 1e-3 ∧ ∃ k : ℕ, w = t0 + k * h)) ∧
      q.state.mass = .fin (m0 - (w - t0) * fullConsumption es) ∧
      ∀ row ∈ rows, ∃ s b, row = s.row ∧ v.getValue s = .fin b ∧ t0 ≤ b ∧ b < T + 1e-3 ∧
        s.mass = .fin (m0 - (b - t0) * fullConsumption es) ∧ s.throttle = .fin 1 := by
  have hc0 := fullConsumption_nonneg hr
  have hh0 : 0 < h := lt_of_lt_of_le (by norm_num) hh
  have left : ∀ b, b ≤ T + h → 0 < m0 - (b - t0) * fullConsumption es := by
    intro b hb; nlinarith
  obtain ⟨s0, h0, _⟩ := vacuum_system hE hr hlim hvac htab hm
    (by have := left t0 (by linarith); simpa using this)
  have hprim := Phase.system_primary h0
  have hv0 : v.getValue s0 = .fin t0 := by
    rw [← hval]
    rcases hv with rfl | rfl
    · exact hprim.1
    · exact hprim.2.1
  have hsame : Phase.SameParams p { p with state := s0 } :=
    ⟨rfl, rfl, rfl, rfl, rfl, rfl, rfl, rfl, rfl⟩
  obtain ⟨n, hn⟩ : ∃ n : ℕ, T - t0 ≤ ((n : ℕ) + 1 : ℝ) * h := by
    obtain ⟨n, hn⟩ := exists_nat_gt ((T - t0) / h)
    refine ⟨n, ?_⟩
    rw [div_lt_iff₀ hh0] at hn
    nlinarith
  obtain ⟨ps, q, d, res, h1, h2, h3, h4, h5, htimes, h6⟩ := time_loop (p := p) hv hh0 hc n
    (r := { p with state := s0 }) (t0 := t0) hsame he ht hst hv0 ⟨0, by simp⟩ hT hn
  have hmass := C35_path (m0 := m0) (t0 := t0) hE hr hlim hv h1 hsame hv0
    (by show s0.mass = _; rw [hprim.2.2.2.2, hm]; simp)
    (left t0 (by linarith))
    (fun r' hr' => by
      obtain ⟨b, hb, _, hb2⟩ := htimes r' hr'
      exact ⟨b, hb, left b (by linarith)⟩)
  have hq : ∀ a, v.getValue q.state = .fin a →
      q.state.mass = .fin (m0 - (a - t0) * fullConsumption es) := by
    intro a ha
    rcases path_last h1 with ⟨h, _⟩ | h
    · subst h
      rw [hv0, XR.fin_inj] at ha
      show s0.mass = _
      rw [hprim.2.2.2.2, hm, ← ha]
      simp
    · obtain ⟨b, hb, hbm⟩ := hmass q h
      rw [ha, XR.fin_inj] at hb
      rw [hbm, hb]
  have hsameq := hsame.trans (Phase.path_sameParams h1).1
  rcases h5 with ⟨rfl, hqe, w, hw, hw'⟩ | ⟨e, a, η, rfl, h7, h8, h9, h10, h11, h12⟩
  · refine ⟨ps.length, ps.map (·.state.row), q, w, ?_, hw, hw', hq w hw, ?_⟩
    · simp only [Phase.run, h0]; exact Phase.loop_of_path h1 hqe (le_refl _)
    · intro row hrow
      obtain ⟨r', hr', rfl⟩ := List.mem_map.1 hrow
      obtain ⟨b, hb, hb1, hb2⟩ := htimes r' hr'
      obtain ⟨b', hb', hbm⟩ := hmass r' hr'
      rw [hb, XR.fin_inj] at hb'
      subst hb'
      exact ⟨r'.state, b, rfl, hb, hb1, hb2, hbm,
        C15_throttle_one hlim ⟨s0, ps, q, h0, h1, .inr ⟨r', hr', rfl⟩⟩ hbm (left b (by linarith))⟩
  · exfalso
    rw [hsameq.system, hsameq.integrator] at h12
    obtain ⟨s', hs', _⟩ := vacuum_step hE hr hlim hvac htab (h := η) (hq a h7)
      (left a (by linarith)) (by nlinarith [left (a + η) (by linarith)])
    unfold OneStep at hs'
    rw [hs'] at h12
    cases h12

/-! ## C36: propellant can become negative -/

/-- C36 is false.  Whenever the engines of such a phase need more propellant than is on board
(but not more than the mass of the whole vehicle), the phase ends normally with negative
propellant, after thrusting at full throttle all the time. -/
theorem C36_negative {p : Phase XR} {es : List RealEngine} (hE : HasEngines p.vehicle es)
    (hr : Realistic es) (hlim : p.maxAcceleration = Flt.inf)
    (hvac : p.atmosphere.model = .noAtmosphere) (htab : p.vehicle.TablesOk)
    {v : StateVariable} (hv : IsTime v) {T t0 h ms mp : ℝ}
    (hc : p.endCriterion = (v, .fin T)) (hval : v.getValue p.state = .fin t0) (hT : t0 ≤ T)
    (hst : p.stepsize = .fin h) (hh : 1e-3 ≤ h) (he : p.ended = false)
    (ht : p.endCriterionTries = 0) (hms : p.vehicle.structureMass = .fin ms)
    (hm : p.state.mass = .fin (ms + mp))
    (hpos : 0 < ms + mp - (T + h - t0) * fullConsumption es)
    (hneed : mp < (T - 1e-3 - t0) * fullConsumption es) :
    ∃ fuel rows q x, p.run fuel = some ⟨rows, .ok q⟩ ∧ q.state.propellantMass = .fin x ∧ x < 0 := by
  obtain ⟨fuel, rows, q, w, h1, h2, h3, h4, _⟩ := C58_vacuum_run hE hr hlim hvac htab hv hc hval hT
    hst hh he ht hm hpos
  have hc0 := fullConsumption_nonneg hr
  refine ⟨fuel, rows, q, mp - (w - t0) * fullConsumption es, h1, ?_, ?_⟩
  · rw [C14_propellant ((visited_of_run h1).2 q rfl), h4, hms, XR.fin_sub]
    congr 1
    ring
  · have hw : T - 1e-3 ≤ w := by
      rcases h3 with rfl | ⟨h3, _⟩
      · norm_num
      · have := (abs_lt.1 h3).1; linarith
    nlinarith

/-- An engine that consumes one kilogram per second. -/
noncomputable def exampleEngine : RealEngine := ⟨980.665, 100, 0, 0, 0⟩

/-- A simulation of one phase: 1000 kg structure, 10 kg propellant, 100 seconds. -/
noncomputable def exampleBurn : PhaseConfig XR :=
  { exampleLaunch with
    vehicle := some { structureMass := some (.fin 1000), propellantMass := some (.fin 10),
                      referenceArea := none, dragCoeff := none, liftCoeff := none,
                      sideForceCoeff := none, engines := some [exampleEngine.toEngine] }
    endCriterion := some (.timeSinceEvent, .fin 100) }

theorem default_wellFormed : WellFormed (Table.default : Table XR) := by
  unfold Table.default WellFormed AxisFits Ascending
  simp

theorem exampleEngine_consumption : fullConsumption [exampleEngine] = 1 := by
  simp [fullConsumption, RealEngine.consumption, exampleEngine]
  norm_num

theorem exampleEngine_realistic : Realistic [exampleEngine] := by
  intro e he
  rw [List.mem_singleton] at he
  subst he
  simp only [exampleEngine]
  norm_num

/-- C36 is false of a whole simulation: this one ends normally after 100 seconds with 90 kg less
than no propellant. -/
theorem C36_refuted : ∃ log s, Simulation.Terminates [exampleBurn] ⟨log, .ok s⟩ ∧
    s.propellantMass = .fin (-90) := by
  let i : InitConfig XR := ⟨.fin 45, .fin 10, .fin 90, .fin 0⟩
  let p : Phase XR := ((Phase.default.applyConfig exampleBurn).init i).reset
  have hnew : Phase.new none exampleBurn = .ok ((Phase.default.applyConfig exampleBurn).init i) := rfl
  have hE : HasEngines p.vehicle [exampleEngine] := rfl
  have hm : p.state.mass = .fin (1000 + 10) := rfl
  obtain ⟨fuel, rows, q, w, h1, h2, h3, h4, _⟩ := C58_vacuum_run (p := p) (T := 100) (t0 := 0) (h := 1)
    hE exampleEngine_realistic rfl rfl ⟨default_wellFormed, default_wellFormed, default_wellFormed⟩
    (.inr rfl) rfl XR.fin_zero (by norm_num) XR.fin_one (by norm_num) rfl rfl hm
    (by rw [exampleEngine_consumption]; norm_num)
  have hw : w = 100 := by
    rcases h3 with h | ⟨h, k, hk⟩
    · exact h
    · rw [zero_add, mul_one] at hk
      subst hk
      have h1 := abs_lt.1 h
      have h2 : (k : ℝ) < 101 := by linarith [h1.2, show (1e-3 : ℝ) < 1 by norm_num]
      have h3 : (99 : ℝ) < k := by linarith [h1.1, show (1e-3 : ℝ) < 1 by norm_num]
      have h4 : k < 101 := by exact_mod_cast h2
      have h5 : 99 < k := by exact_mod_cast h3
      have : k = 100 := by omega
      rw [this]; norm_num
  refine ⟨_, q.state, C53_terminates_ok_iff.2 ⟨some q, .cons ⟨_, hnew, fuel, h1⟩ (.nil _ _), rfl⟩, ?_⟩
  rw [C14_propellant ((visited_of_run h1).2 q rfl), h4, hw, exampleEngine_consumption,
    show p.vehicle.structureMass = .fin 1000 from rfl, XR.fin_sub]
  congr 1
  norm_num

/-! ## C54: coasting -/

/-- One integration step of real size without engines keeps the mass, whatever the phase. -/
theorem coasting_mass_step {p : Phase XR} (hE : p.vehicle.engines = []) {s s' : State XR} {h m : ℝ}
    (hm : s.mass = .fin m) (hs : OneStep p (.fin h) s s') : s'.mass = .fin m := by
  obtain ⟨s1, s2, s3, s4, d1, d2, d3, d4, f1, f2, f3, f4, _, _, _, _, hm'⟩ := oneStep_mass hs
  have flow : ∀ {st d : State XR}, p.system st = .ok d → d.massflow = .fin 0 := by
    intro st d hd
    obtain ⟨k, hk, _, _⟩ := system_throttle hd
    rw [(system_consistent hd).massflow, hk]
    exact (C34_no_engines hE k (.fin 0)).2
  rw [flow f1, flow f2, flow f3, flow f4, hm, fin_sixth, fin_third, XR.fin_zero] at hm'
  simp only [XR.fin_mul, XR.fin_add] at hm'
  rw [hm', XR.fin_inj]
  ring

/-- C54 (mass).  Without engines the mass is the initial one in every state of a run whose time is
a real number, whatever the atmosphere, the tables and the acceleration limit. -/
theorem C54_mass {p : Phase XR} (hE : p.vehicle.engines = []) {m : ℝ} (hm : p.state.mass = .fin m)
    {s : State XR} (hs : Visited p s) {t : ℝ} (ht : s.time = .fin t) : s.mass = .fin m := by
  refine hs.induction (I := fun s => ∀ t : ℝ, s.time = .fin t → s.mass = .fin m) ?_ ?_ t ht
  · intro s0 h0 _ _
    rw [(Phase.system_primary h0).2.2.2.2, hm]
  · intro s s' h ih hstep t ht
    rw [(oneStep_system hstep).2.1] at ht
    obtain ⟨a, k, e1, rfl, _⟩ := add_fin_inv ht
    exact coasting_mass_step hE (ih a e1) hstep

theorem mulVec_zero (m : M3 ℝ) : (M3.fin m).mulVec (V3.fin ⟨0, 0, 0⟩) = V3.fin ⟨0, 0, 0⟩ := by
  unfold M3.mulVec V3.dot M3.fin M3.map V3.fin V3.map
  simp only [XR.fin_mul, XR.fin_add, mul_zero, add_zero]

theorem zero_add_v3 (g : V3 XR) : (V3.fin ⟨0, 0, 0⟩ + g : V3 XR) = g := by
  have h : ∀ x : XR, (XR.fin 0 + x : XR) = x := by
    intro x
    cases x with
    | fin r => rw [XR.fin_add, zero_add]
    | _ => rfl
  show V3.mk _ _ _ = _
  simp only [V3.fin, V3.map, h]

/-- C54 (acceleration).  Without engines and atmosphere the acceleration in every state a run visits
is gravity, whatever the attitude, the mass and the vehicle. -/
theorem C54_free_fall {p : Phase XR} (hE : p.vehicle.engines = [])
    (hvac : p.atmosphere.model = .noAtmosphere) {s : State XR} (hs : Visited p s) {m : ℝ}
    (hm : s.mass = .fin m) (hm0 : m ≠ 0) {lat long az roll yaw pitch : ℝ}
    (hl : p.launch = ⟨.fin lat, .fin long, .fin az⟩)
    (he : s.eulerAngles = ⟨.fin roll, .fin yaw, .fin pitch⟩) :
    s.acceleration = p.planet.gravity s.position ∧
      s.vehicleAccelerationBody = V3.fin ⟨0, 0, 0⟩ := by
  obtain ⟨s1, h⟩ := hs.system
  have hc := system_consistent h
  obtain ⟨k, hk, _, _⟩ := system_throttle h
  have hthrust : s.thrustForceBody = V3.fin ⟨0, 0, 0⟩ := by
    rw [hc.thrustForceBody, hk]; exact (C34_no_engines hE k _).1
  have hbody : s.vehicleAccelerationBody = V3.fin ⟨0, 0, 0⟩ := by
    rw [hc.vehicleAccelerationBody, (C49_visited hvac hs).1, hthrust, V3.fin_add, hm]
    unfold V3.divS V3.fin V3.map
    simp only [XR.fin_div _ _ hm0, add_zero, zero_div]
  refine ⟨?_, hbody⟩
  obtain ⟨M, _, hM⟩ := C39_rotations.2.2.1 lat long az roll yaw pitch
  rw [hc.acceleration, hbody, hl, he, hM, show (M3.fin M).transpose = M3.fin M.transpose from rfl,
    mulVec_zero, zero_add_v3, hc.gravityAcceleration]

/-! ## C59: criteria that cannot be met -/

/-- Without engines and acceleration limit every integration step succeeds, of whatever size and
from whatever state, even from one that holds NaN. -/
theorem coasting_step {p : Phase XR} (hE : p.vehicle.engines = [])
    (hlim : p.maxAcceleration = Flt.inf) (ht : p.vehicle.TablesOk) (s : State XR) (h : XR) :
    ∃ s', OneStep p h s s' := by
  refine oneStep_total (q := .fin 0) (G := fun _ => True) ?_ trivial trivial trivial trivial trivial
  intro st _
  obtain ⟨d, hd⟩ := system_coasting_ok hlim hE ht st
  obtain ⟨k, hk, _, _⟩ := system_throttle hd
  refine ⟨d, hd, ?_⟩
  rw [(system_consistent hd).massflow, hk]
  exact (C34_no_engines hE k (.fin 0)).2

theorem coasting_mass_any {p : Phase XR} (hE : p.vehicle.engines = []) {s s' : State XR} {h : XR}
    (hs : OneStep p h s s') :
    s'.mass = s.mass + ((((0 + 1 / 6 * (h * .fin 0)) + 1 / 3 * (h * .fin 0)) +
        1 / 3 * (h * .fin 0)) + 1 / 6 * (h * .fin 0)) := by
  obtain ⟨s1, s2, s3, s4, d1, d2, d3, d4, f1, f2, f3, f4, _, _, _, _, hm'⟩ := oneStep_mass hs
  have flow : ∀ {st d : State XR}, p.system st = .ok d → d.massflow = .fin 0 := by
    intro st d hd
    obtain ⟨k, hk, _, _⟩ := system_throttle hd
    rw [(system_consistent hd).massflow, hk]
    exact (C34_no_engines hE k (.fin 0)).2
  rw [flow f1, flow f2, flow f3, flow f4] at hm'
  exact hm'

/-- The situation after any number of steps of a coasting phase that waits for a different mass. -/
def WaitsForMass (p : Phase XR) (m T h : ℝ) (r : Phase XR) : Prop :=
  Phase.SameParams p r ∧ r.ended = false ∧
    ((m < T ∧ r.state.mass = .fin m ∧ r.stepsize = .fin h) ∨
     (T < m ∧ r.state.mass = .fin m ∧ r.stepsize = .fin h ∧ r.endCriterionTries = 0) ∨
     (T < m ∧ r.state.mass = .fin m ∧ r.stepsize = .ninf) ∨ r.state.mass = .nan)

theorem not_met_nan {T : XR} {s : State XR} (h : s.mass = .nan) : ¬ Met (.mass, T) s := by
  unfold Met
  simp only [StateVariable.getValue, h, XR.nan_sub]
  decide +revert

theorem waits_step {p : Phase XR} (hE : p.vehicle.engines = [])
    (hlim : p.maxAcceleration = Flt.inf) (ht : p.vehicle.TablesOk) {m T h : ℝ} (hh : 0 < h)
    (hc : p.endCriterion = (.mass, .fin T)) (hT : 1e-3 ≤ |m - T|) {r : Phase XR}
    (hw : WaitsForMass p m T h r) :
    ∃ r', r.step = .ok r' ∧ WaitsForMass p m T h r' := by
  obtain ⟨hsame, he, hcase⟩ := hw
  obtain ⟨s, hs⟩ := coasting_step hE hlim ht r.state r.stepsize
  have hs' : OneStep r r.stepsize r.state s := hsame.oneStep.2 hs
  have hcr : r.endCriterion = (.mass, .fin T) := by rw [hsame.endCriterion, hc]
  have hmass := coasting_mass_any hE hs
  have zero_flow : ∀ k : ℝ, r.stepsize = .fin k → ∀ μ : ℝ, r.state.mass = .fin μ →
      s.mass = .fin μ := by
    intro k hk μ hμ
    rw [hk] at hs
    exact coasting_mass_step hE hμ hs
  have nan_flow : r.state.mass = .nan ∨ r.stepsize = .ninf → s.mass = .nan := by
    rintro (h0 | h0)
    · rw [hmass, h0, XR.nan_add]
    · rw [hmass, h0, show (XR.ninf * XR.fin 0 : XR) = .nan by
        show XR.mul _ _ = _; simp [XR.mul, XR.infMul]]
      simp only [XR.mul_nan, XR.add_nan]
  have not_over_nan : s.mass = .nan → ¬ Overshot (.mass, XR.fin T) r.state s := by
    intro h0
    unfold Overshot
    simp only [StateVariable.getValue, h0]
    rintro (⟨h1, _⟩ | ⟨_, h1⟩)
    · cases h1
    · cases h1
  have keep : ¬ Met (.mass, XR.fin T) s → ¬ Overshot (.mass, XR.fin T) r.state s →
      r.step = .ok { r with state := s } := by
    rw [← hcr]
    intro hm ho
    rcases step_cases r he with ⟨r1, h1⟩ | ⟨e, h1, hbad⟩
    · obtain ⟨_, s2, hs2, h2⟩ := Phase.step_ok h1
      rw [oneStep_det hs' hs2] at h2
      rcases h2 with h2 | h2 | h2
      · exact absurd h2.1 hm
      · exact absurd h2.2.1 ho
      · rw [h1, h2.2.2]
    · exfalso
      rcases hbad with h2 | ⟨⟨s2, hs2, _, h2⟩, _⟩
      · unfold OneStep at hs'; rw [hs'] at h2; cases h2
      · rw [oneStep_det hs' hs2] at h2; exact ho h2
  have hkeepSame : Phase.SameParams p { r with state := s } :=
    hsame.trans ⟨rfl, rfl, rfl, rfl, rfl, rfl, rfl, rfl, rfl⟩
  rcases hcase with ⟨hlt, hm, hst⟩ | ⟨hlt, hm, hst, htr⟩ | ⟨hlt, hm, hst⟩ | hm
  · have hsm := zero_flow h hst m hm
    refine ⟨_, keep ?_ ?_, hkeepSame, he, .inl ⟨hlt, hsm, hst⟩⟩
    · rw [met_fin (v := .mass) (w := m) hsm]; exact not_lt.2 hT
    · rw [overshot_fin (v := .mass) (a := m) (b := m) hm hsm]
      rintro (⟨h1, _⟩ | ⟨_, h1⟩) <;> linarith
  · have hsm := zero_flow h hst m hm
    have hnm : ¬ Met (.mass, XR.fin T) s := by
      rw [met_fin (v := .mass) (w := m) hsm]; exact not_lt.2 hT
    have hov : Overshot (.mass, XR.fin T) r.state s := by
      rw [overshot_fin (v := .mass) (a := m) (b := m) hm hsm]
      exact .inr ⟨le_refl _, hlt⟩
    have hgo : r.timeToGo r.state s = .ninf := by
      unfold Phase.timeToGo Phase.critValue
      simp only [hcr, StateVariable.getValue, hm, hsm, hst]
      xr_eval
      rw [show m - T - (m - T) = 0 by ring, XR.fin_div_zero]
      unfold XR.infMul
      have : -(m - T) * h < 0 := by nlinarith
      rw [if_neg (not_lt.2 this.le), if_pos this]
    rcases step_cases r he with ⟨r1, h1⟩ | ⟨e, h1, hbad⟩
    · obtain ⟨_, s2, hs2, h2⟩ := Phase.step_ok h1
      rw [oneStep_det hs' hs2, hcr, hgo] at h2
      rcases h2 with h2 | h2 | h2
      · exact absurd h2.1 hnm
      · refine ⟨r1, h1, hsame.trans (Phase.step_sameParams h1), ?_, .inr (.inr (.inl ⟨hlt, ?_, ?_⟩))⟩
        · rw [h2.2.2.2]; exact he
        · rw [h2.2.2.2]; exact hm
        · rw [h2.2.2.2]
      · exact absurd hov h2.2.1
    · exfalso
      rcases hbad with h2 | ⟨_, h2⟩
      · unfold OneStep at hs'; rw [hs'] at h2; cases h2
      · omega
  · have hsm := nan_flow (.inr hst)
    exact ⟨_, keep (not_met_nan hsm) (not_over_nan hsm), hkeepSame, he, .inr (.inr (.inr hsm))⟩
  · have hsm := nan_flow (.inl hm)
    exact ⟨_, keep (not_met_nan hsm) (not_over_nan hsm), hkeepSame, he, .inr (.inr (.inr hsm))⟩

/-- C59.  A phase without engines and acceleration limit that waits for a mass different from its
own never ends, whether it is above or below: it neither returns nor aborts, whatever the number
of steps.  The limit on retries does not catch this. -/
theorem C59_never_ends {p : Phase XR} (hE : p.vehicle.engines = [])
    (hlim : p.maxAcceleration = Flt.inf) (ht : p.vehicle.TablesOk) {m T h : ℝ} (hh : 0 < h)
    (hc : p.endCriterion = (.mass, .fin T)) (hT : 1e-3 ≤ |m - T|) (hm : p.state.mass = .fin m)
    (hst : p.stepsize = .fin h) (he : p.ended = false) (htr : p.endCriterionTries = 0)
    (fuel : ℕ) : p.run fuel = none := by
  have key : ∀ (fuel : ℕ) (r : Phase XR), WaitsForMass p m T h r → Phase.loop fuel r = none := by
    intro fuel
    induction fuel with
    | zero => intro r hr; unfold Phase.loop; simp [hr.2.1]
    | succ n ih =>
      intro r hr
      obtain ⟨r', h1, h2⟩ := waits_step hE hlim ht hh hc hT hr
      unfold Phase.loop
      simp [hr.2.1, h1, ih r' h2]
  obtain ⟨s0, h0⟩ := system_coasting_ok hlim hE ht p.state
  simp only [Phase.run, h0]
  refine key fuel _ ⟨⟨rfl, rfl, rfl, rfl, rfl, rfl, rfl, rfl, rfl⟩, he, ?_⟩
  have hm0 : s0.mass = .fin m := by rw [(Phase.system_primary h0).2.2.2.2, hm]
  have hne : m ≠ T := by
    rintro rfl
    norm_num at hT
  rcases lt_or_gt_of_ne hne with h1 | h1
  · exact .inl ⟨h1, hm0, hst⟩
  · exact .inr (.inl ⟨h1, hm0, hst, htr⟩)

/-- C59 (division by zero).  If the target lies below the mass, the first step is discarded and the
corrected step size is minus infinity; the second step leads to time minus infinity and mass NaN,
and is printed. -/
theorem C59_minus_infinity {p : Phase XR} (hE : p.vehicle.engines = [])
    (hlim : p.maxAcceleration = Flt.inf) (ht : p.vehicle.TablesOk) {m T h t : ℝ} (hh : 0 < h)
    (hc : p.endCriterion = (.mass, .fin T)) (hT : T + 1e-3 ≤ m) (hm : p.state.mass = .fin m)
    (htime : p.state.time = .fin t)
    (hst : p.stepsize = .fin h) (he : p.ended = false) (htr : p.endCriterionTries = 0) :
    ∃ s, Visited p s ∧ s.time = .ninf ∧ s.mass = .nan := by
  obtain ⟨s0, h0⟩ := system_coasting_ok hlim hE ht p.state
  have hprim := Phase.system_primary h0
  have hm0 : s0.mass = .fin m := by rw [hprim.2.2.2.2, hm]
  have hT' : 1e-3 ≤ |m - T| := by rw [abs_of_pos (by linarith [show (0:ℝ) < 1e-3 by norm_num])]; linarith
  have hlt : T < m := by linarith [show (0:ℝ) < 1e-3 by norm_num]
  let r : Phase XR := { p with state := s0 }
  have hsame : Phase.SameParams p r := ⟨rfl, rfl, rfl, rfl, rfl, rfl, rfl, rfl, rfl⟩
  obtain ⟨r1, h1, hw1⟩ := waits_step (r := r) hE hlim ht hh hc hT'
    ⟨hsame, he, .inr (.inl ⟨hlt, hm0, hst, htr⟩)⟩
  obtain ⟨_, s, hs, hcase⟩ := Phase.step_ok h1
  have hsm : s.mass = .fin m := by
    have hs1 := hs
    rw [show r.stepsize = .fin h from hst] at hs1
    exact coasting_mass_step (p := r) hE hm0 hs1
  have hcr : r.endCriterion = (.mass, .fin T) := hc
  have hr1 : r1.stepsize = .ninf ∧ r1.state = s0 := by
    rw [hcr] at hcase
    rcases hcase with h2 | h2 | h2
    · exact absurd h2.1 (by rw [met_fin (v := .mass) (w := m) hsm]; exact not_lt.2 hT')
    · refine ⟨?_, by rw [h2.2.2.2]⟩
      rw [h2.2.2.2]
      show Phase.timeToGo r r.state s = _
      unfold Phase.timeToGo Phase.critValue
      simp only [hcr, StateVariable.getValue, hsm, show r.state.mass = .fin m from hm0,
        show r.stepsize = .fin h from hst]
      xr_eval
      rw [show m - T - (m - T) = 0 by ring, XR.fin_div_zero]
      unfold XR.infMul
      have : -(m - T) * h < 0 := by nlinarith
      rw [if_neg (not_lt.2 this.le), if_pos this]
    · exact absurd (by rw [overshot_fin (v := .mass) (a := m) (b := m) hm0 hsm]
                       exact .inr ⟨le_refl _, hlt⟩) h2.2.1
  obtain ⟨r2, h2, hw2⟩ := waits_step hE hlim ht hh hc hT' hw1
  obtain ⟨_, s', hs', hcase'⟩ := Phase.step_ok h2
  have hE1 : r1.vehicle.engines = [] := by rw [hw1.1.vehicle]; exact hE
  have hs'm : s'.mass = .nan := by
    rw [coasting_mass_any hE1 hs', hr1.1, show (XR.ninf * XR.fin 0 : XR) = .nan by
        show XR.mul _ _ = _; simp [XR.mul, XR.infMul]]
    simp only [XR.mul_nan, XR.add_nan]
  have hs't : s'.time = .ninf := by
    rw [(oneStep_system hs').2.1, hr1.1, hr1.2, hprim.1, htime]
    rfl
  have hr2 : r2.state = s' := by
    rcases hcase' with h3 | h3 | h3
    · rw [h3.2]
    · exfalso
      have := h3.2.1
      unfold Overshot at this
      rw [show r1.endCriterion = (.mass, .fin T) by rw [hw1.1.endCriterion, hc]] at this
      simp only [StateVariable.getValue, hs'm] at this
      rcases this with ⟨h1, _⟩ | ⟨_, h1⟩ <;> cases h1
    · rw [h3.2.2]
  exact ⟨s', ⟨s0, [r1, r2], r2, h0, .cons he h1 (.cons hw1.2.1 h2 (.nil _)), .inr ⟨r2, by simp, hr2.symm⟩⟩,
    hs't, hs'm⟩

/-- Such a phase: the example launch with 10 kg of structure, waiting for a mass of 5 kg. -/
example : ∃ p : Phase XR, p.vehicle.engines = [] ∧ p.maxAcceleration = Flt.inf ∧
    p.vehicle.TablesOk ∧ p.endCriterion = (.mass, .fin 5) ∧ p.state.mass = .fin 10 ∧
    p.state.time = .fin 0 ∧ p.stepsize = .fin 1 ∧ p.ended = false ∧ p.endCriterionTries = 0 :=
  ⟨{ (Phase.default : Phase XR) with
      state := { (State.default : State XR) with mass := .fin 10 }
      endCriterion := (.mass, .fin 5) }, rfl, rfl,
    ⟨default_wellFormed, default_wellFormed, default_wellFormed⟩, rfl, rfl, XR.fin_zero,
    XR.fin_one, rfl, rfl⟩

end Post
