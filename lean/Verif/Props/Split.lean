import Verif.Spec.Split
import Verif.Props.Steering
import Verif.Props.Time
import Verif.Props.Orbit
/-! # C67: a phase can be split at a whole second.  Exact arithmetic. -/

namespace Post
open Spec Flt

/-- `p'` goes on where `p` stands `d` seconds after its start. -/
structure Continues (d : ℝ) (p p' : Phase XR) : Prop where
  vehicle : p'.vehicle = p.vehicle
  atmosphere : p'.atmosphere = p.atmosphere
  planet : p'.planet = p.planet
  launch : p'.launch = p.launch
  integrator : p'.integrator = p.integrator
  maxAcceleration : p'.maxAcceleration = p.maxAcceleration
  steering : ∀ (s : State XR) (x t : ℝ), s.timeSinceEvent = .fin (d + x) → s.time = .fin t →
    p'.steering.eulerAngles (sinceEvent x s) = p.steering.eulerAngles s

theorem Continues.system {d : ℝ} {p p' : Phase XR} (h : Continues d p p')
    (htab : ∀ t ∈ [p.vehicle.dragCoeff, p.vehicle.liftCoeff, p.vehicle.sideForceCoeff],
      ∀ v ∈ tableVariables t, v ∈ beforeTables ∧ v ≠ .timeSinceEvent)
    {s : State XR} {x t : ℝ} (hx : s.timeSinceEvent = .fin (d + x)) (ht : s.time = .fin t) :
    p'.system (sinceEvent x s) = (p.system s).map (sinceEvent x) := by
  have hat : p'.atSteering (sinceEvent x s) = sinceEvent x (p.atSteering s) := by
    unfold Phase.atSteering Phase.systemDynamic Phase.systemAtmosphere Phase.systemAir
      Phase.systemPlanet
    rw [h.atmosphere, h.planet, h.vehicle]
    rfl
  have hang : p'.steering.eulerAngles (p'.atSteering (sinceEvent x s)) =
      p.steering.eulerAngles (p.atSteering s) := by
    rw [hat]
    exact h.steering _ x t hx ht
  have hpre : p'.systemPre (sinceEvent x s) = sinceEvent x (p.systemPre s) := by
    have e : ∀ (p : Phase XR) (s : State XR), p.systemPre s = p.systemAlpha
        { p.atSteering s with eulerAngles := p.steering.eulerAngles (p.atSteering s) } :=
      fun _ _ => rfl
    rw [e, e, hang, hat]
    unfold Phase.systemAlpha Phase.bodyRotation
    rw [h.launch]
    rfl
  have htabs : ∀ tb ∈ [p.vehicle.dragCoeff, p.vehicle.liftCoeff, p.vehicle.sideForceCoeff],
      tb.atState (sinceEvent x (p.systemPre s)) = tb.atState (p.systemPre s) := by
    intro tb htb
    refine Table.atState_congr fun v hv => ?_
    have := (htab tb htb v hv).2
    cases v <;> first | rfl | exact absurd rfl this
  simp only [List.mem_cons, List.not_mem_nil, or_false, forall_eq_or_imp, forall_eq] at htabs
  have haero : p'.vehicle.aeroForce (p'.systemPre (sinceEvent x s)) =
      p.vehicle.aeroForce (p.systemPre s) := by
    rw [hpre, h.vehicle]
    unfold Vehicle.aeroForce
    rw [htabs.1, htabs.2.1, htabs.2.2]
    rfl
  unfold Phase.system
  simp only [haero]
  cases p.vehicle.aeroForce (p.systemPre s) with
  | error e => rfl
  | ok aero =>
    simp only [bind, Except.bind]
    have hf : p'.systemForces (p'.systemPre (sinceEvent x s)) aero =
        sinceEvent x (p.systemForces (p.systemPre s) aero) := by
      rw [hpre]
      unfold Phase.systemForces
      rw [h.vehicle, h.maxAcceleration]
      rfl
    rw [hf]
    have hl : p'.exceedsLimit (sinceEvent x (p.systemForces (p.systemPre s) aero)) =
        p.exceedsLimit (p.systemForces (p.systemPre s) aero) := by
      unfold Phase.exceedsLimit
      rw [h.maxAcceleration]
      rfl
    rw [hl]
    have ha : ∀ s, p'.systemAcceleration (sinceEvent x s) = sinceEvent x (p.systemAcceleration s) := by
      intro s
      unfold Phase.systemAcceleration Phase.bodyRotation
      rw [h.launch]
      rfl
    rw [ha]
    split <;> rfl

theorem RungeKutta.step_congr {F : Type} [Flt F] {R dX dY : Nat} (rk : RungeKutta F R)
    {f g : (Fin dX → F) → (Fin dY → F) → Except Panic (Fin dY → F)} {x x' : Fin dX → F}
    {y : Fin dY → F} {h : F}
    (hfg : ∀ i y, f (addScalar x (rk.c i * h)) y = g (addScalar x' (rk.c i * h)) y) :
    rk.step f x y h = (rk.step g x' y h).map fun r => (addScalar x h, r.2) := by
  have hst : rk.stage f x y h = rk.stage g x' y h := by
    funext k i
    unfold RungeKutta.stage
    rw [hfg]
  unfold RungeKutta.step
  rw [hst]
  simp only [bind, Except.bind]
  cases (List.finRange R).foldlM (rk.stage g x' y h) (fun _ _ => 0) <;> rfl

theorem Continues.step {d : ℝ} {p p' : Phase XR} (h : Continues d p p')
    (htab : ∀ t ∈ [p.vehicle.dragCoeff, p.vehicle.liftCoeff, p.vehicle.sideForceCoeff],
      ∀ v ∈ tableVariables t, v ∈ beforeTables ∧ v ≠ .timeSinceEvent)
    {s : State XR} {x t : ℝ} (hx : s.timeSinceEvent = .fin (d + x)) (ht : s.time = .fin t) (η : ℝ) :
    p'.integrator.step p'.system (sinceEvent x s) (.fin η) =
      (p.integrator.step p.system s (.fin η)).map (sinceEvent (x + η)) := by
  rw [h.integrator]
  cases p.integrator
  have hc : ∀ i, ∃ c : ℝ, (RK4 : RungeKutta XR 4).c i * .fin η = .fin c := by
    intro i
    obtain ⟨c, hc⟩ : ∃ c : ℝ, (RK4 : RungeKutta XR 4).c i = .fin c := by
      fin_cases i
      · exact ⟨0, XR.fin_zero⟩
      · exact ⟨0.5, XR.fin_sci _ _ _⟩
      · exact ⟨0.5, XR.fin_sci _ _ _⟩
      · exact ⟨1, XR.fin_one⟩
    exact ⟨c * η, by rw [hc, XR.fin_mul]⟩
  have hvec : ∀ c : ℝ, addScalar (vec2 s.time (.fin x)) (.fin c) =
      vec2 (.fin (t + c)) (.fin (x + c)) := by
    intro c
    funext j
    fin_cases j
    · show s.time + .fin c = _; rw [ht, XR.fin_add]; rfl
    · show XR.fin x + .fin c = _; rw [XR.fin_add]; rfl
  have hvec' : ∀ c : ℝ, addScalar (vec2 s.time s.timeSinceEvent) (.fin c) =
      vec2 (.fin (t + c)) (.fin (d + (x + c))) := by
    intro c
    funext j
    fin_cases j
    · show s.time + .fin c = _; rw [ht, XR.fin_add]; rfl
    · show s.timeSinceEvent + .fin c = _; rw [hx, XR.fin_add, add_assoc]; rfl
  have hfrom : ∀ (c : ℝ) y, State.fromVec (vec2 (.fin (t + c)) (.fin (x + c))) y =
      sinceEvent (x + c) (State.fromVec (vec2 (.fin (t + c)) (.fin (d + (x + c)))) y) :=
    fun _ _ => rfl
  have hsys : ∀ (c : ℝ) y, p'.system (State.fromVec (vec2 (.fin (t + c)) (.fin (x + c))) y) =
      (p.system (State.fromVec (vec2 (.fin (t + c)) (.fin (d + (x + c)))) y)).map
        (sinceEvent (x + c)) := by
    intro c y
    rw [hfrom]
    exact h.system htab (t := t + c) rfl rfl
  have hcong : ∀ i y, convertedFunc p'.system
      (addScalar (vec2 s.time (.fin x)) ((RK4 : RungeKutta XR 4).c i * .fin η)) y =
      convertedFunc p.system
        (addScalar (vec2 s.time s.timeSinceEvent) ((RK4 : RungeKutta XR 4).c i * .fin η)) y := by
    intro i y
    obtain ⟨c, hc⟩ := hc i
    rw [hc, hvec, hvec']
    unfold convertedFunc
    rw [hsys]
    cases p.system (State.fromVec (vec2 (.fin (t + c)) (.fin (d + (x + c)))) y) <;> rfl
  unfold Integrator.step
  simp only
  have e := RungeKutta.step_congr RK4 (y := s.toPrimaryVec) hcong
  have hp : (sinceEvent x s).toPrimaryVec = s.toPrimaryVec := rfl
  show (RK4.step (convertedFunc p'.system) (vec2 s.time (.fin x)) s.toPrimaryVec (.fin η) >>= _) = _
  rw [e]
  cases hr : RK4.step (convertedFunc p.system) (vec2 s.time s.timeSinceEvent) s.toPrimaryVec (.fin η) with
  | error e => rfl
  | ok r =>
    obtain ⟨tv, y⟩ := r
    have htv : tv = addScalar (vec2 s.time s.timeSinceEvent) (.fin η) := by
      unfold RungeKutta.step at hr
      simp only [bind, Except.bind] at hr
      split at hr
      · simp at hr
      · simp at hr; exact hr.1.symm
    simp only [Except.map, bind, Except.bind]
    rw [htv, hvec, hvec', hsys]
    rfl


/-- The states after `1, 2, …, n` regular steps, and the last of them, or the panic that stops them. -/
noncomputable def seconds (p : Phase XR) : ℕ → State XR → List (State XR) × Except Panic (State XR)
  | 0, s => ([], .ok s)
  | n + 1, s =>
    match p.integrator.step p.system s (.fin 1) with
    | .error e => ([], .error e)
    | .ok s' => (s' :: (seconds p n s').1, (seconds p n s').2)

theorem seconds_add (p : Phase XR) (n m : ℕ) (s : State XR) :
    seconds p (n + m) s = match (seconds p n s).2 with
      | .error e => ((seconds p n s).1, .error e)
      | .ok s' => ((seconds p n s).1 ++ (seconds p m s').1, (seconds p m s').2) := by
  induction n generalizing s with
  | zero => simp [seconds]
  | succ n ih =>
    rw [Nat.succ_add]
    cases hs : p.integrator.step p.system s (.fin 1) with
    | error e => rw [seconds, seconds, hs]
    | ok s' =>
      rw [seconds, seconds, hs]
      simp only [ih]
      cases (seconds p n s').2 <;> rfl

theorem seconds_congr {p q : Phase XR} (hi : p.integrator = q.integrator)
    (hs : p.system = q.system) (n : ℕ) (s : State XR) : seconds p n s = seconds q n s := by
  induction n generalizing s with
  | zero => rfl
  | succ n ih => rw [seconds, seconds, hi, hs]; simp only [ih]

/-- What `n ≥ 1` seconds lead to. -/
theorem seconds_ok {p : Phase XR} {n : ℕ} {s s' : State XR} (h : (seconds p n s).2 = .ok s')
    {x t : ℝ} (hx : s.timeSinceEvent = .fin x) (ht : s.time = .fin t) :
    s'.timeSinceEvent = .fin (x + n) ∧ s'.time = .fin (t + n) ∧
      (0 < n → ∃ s1, p.system s1 = .ok s') := by
  induction n generalizing s x t with
  | zero =>
    simp only [seconds] at h
    injection h with h
    subst h
    exact ⟨by simpa using hx, by simpa using ht, fun h => absurd h (lt_irrefl 0)⟩
  | succ n ih =>
    unfold seconds at h
    cases hs : p.integrator.step p.system s (.fin 1) with
    | error e => rw [hs] at h; cases h
    | ok s2 =>
      rw [hs] at h
      simp only at h
      obtain ⟨h0, h1, h2⟩ := oneStep_system (p := p) (h := .fin 1) hs
      rw [hx, XR.fin_add] at h2
      rw [ht, XR.fin_add] at h1
      obtain ⟨h3, h4, h5⟩ := ih h h2 h1
      refine ⟨by rw [h3, XR.fin_inj]; push_cast; ring, by rw [h4, XR.fin_inj]; push_cast; ring,
        fun _ => ?_⟩
      cases n with
      | zero =>
        simp only [seconds] at h
        injection h with h
        subst h
        exact h0
      | succ n => exact h5 (Nat.succ_pos n)

theorem seconds_continues {d : ℝ} {p p' : Phase XR} (h : Continues d p p')
    (htab : ∀ t ∈ [p.vehicle.dragCoeff, p.vehicle.liftCoeff, p.vehicle.sideForceCoeff],
      ∀ v ∈ tableVariables t, v ∈ beforeTables ∧ v ≠ .timeSinceEvent) (n : ℕ)
    {s : State XR} {x t : ℝ} (hx : s.timeSinceEvent = .fin (d + x)) (ht : s.time = .fin t) :
    (seconds p' n (sinceEvent x s)).1.map (·.row) = (seconds p n s).1.map (·.row) ∧
    (seconds p' n (sinceEvent x s)).2 = (seconds p n s).2.map (sinceEvent (x + n)) := by
  induction n generalizing s x t with
  | zero => simp [seconds, Except.map]
  | succ n ih =>
    unfold seconds
    rw [h.step htab hx ht]
    cases hs : p.integrator.step p.system s (.fin 1) with
    | error e => exact ⟨rfl, rfl⟩
    | ok s' =>
      obtain ⟨_, h1, h2⟩ := oneStep_system (p := p) (h := .fin 1) hs
      rw [hx, XR.fin_add, add_assoc] at h2
      rw [ht, XR.fin_add] at h1
      obtain ⟨h3, h4⟩ := ih h2 h1
      simp only [Except.map, List.map_cons]
      refine ⟨by rw [h3]; rfl, ?_⟩
      rw [h4]
      have : x + 1 + (n : ℝ) = x + ((n + 1 : ℕ) : ℝ) := by push_cast; ring
      rw [this]
      rfl

theorem step_error_eq {p : Phase XR} (he : p.ended = false) {e : Panic}
    (hs : p.integrator.step p.system p.state p.stepsize = .error e) : p.step = .error e := by
  unfold Phase.step; simp [he, hs, bind, Except.bind]

theorem step_met_eq {p : Phase XR} (he : p.ended = false) {s : State XR}
    (hs : p.integrator.step p.system p.state p.stepsize = .ok s) (hm : Met p.endCriterion s) :
    p.step = .ok { p with ended := true, state := s } := by
  unfold Phase.step; simp [he, hs, bind, Except.bind, (Phase.criterionMet_iff p s).2 hm]

theorem step_kept_eq {p : Phase XR} (he : p.ended = false) {s : State XR}
    (hs : p.integrator.step p.system p.state p.stepsize = .ok s) (hm : ¬ Met p.endCriterion s)
    (ho : ¬ Overshot p.endCriterion p.state s) : p.step = .ok { p with state := s } := by
  have h1 : p.criterionMet s = false := by
    rwa [Bool.eq_false_iff, ne_eq, Phase.criterionMet_iff]
  have h2 : p.eventIsActive p.state s = false := by
    rwa [Bool.eq_false_iff, ne_eq, Phase.eventIsActive_iff]
  unfold Phase.step; simp [he, hs, bind, Except.bind, h1, h2]

/-- A phase that ends after a whole number of seconds. -/
theorem loop_seconds {p : Phase XR} {N : ℝ} (hst : p.stepsize = .fin 1) (he : p.ended = false)
    (hc : p.endCriterion = (.timeSinceEvent, .fin N)) (k : ℕ)
    (hs : p.state.timeSinceEvent = .fin (N - (k + 1))) :
    Phase.loop (k + 1) p = some ⟨(seconds p (k + 1) p.state).1.map (·.row),
      (seconds p (k + 1) p.state).2.map fun s' => { p with state := s', ended := true }⟩ := by
  induction k generalizing p with
  | zero =>
    cases hr : p.integrator.step p.system p.state (.fin 1) with
    | error e =>
      have h1 := step_error_eq he (by rw [hst]; exact hr)
      rw [Phase.loop, seconds]
      simp [he, h1, hr, Except.map]
    | ok s' =>
      have hv : StateVariable.timeSinceEvent.getValue s' = .fin N := by
        have := (oneStep_system (p := p) (h := .fin 1) hr).2.2
        rw [hs, XR.fin_add] at this
        rw [show StateVariable.timeSinceEvent.getValue s' = s'.timeSinceEvent from rfl, this]
        congr 1; push_cast; ring
      have hm : Met p.endCriterion s' := by
        rw [hc, met_fin hv]
        norm_num
      have h1 := step_met_eq he (by rw [hst]; exact hr) hm
      rw [Phase.loop, seconds]
      simp only [he, h1, hr, Bool.false_eq_true, if_false]
      rw [Phase.loop_ended _ (by rfl)]
      rfl
  | succ k ih =>
    cases hr : p.integrator.step p.system p.state (.fin 1) with
    | error e =>
      have h1 := step_error_eq he (by rw [hst]; exact hr)
      rw [Phase.loop, seconds]
      simp [he, h1, hr, Except.map]
    | ok s' =>
      have hv : s'.timeSinceEvent = .fin (N - (k + 1)) := by
        have := (oneStep_system (p := p) (h := .fin 1) hr).2.2
        rw [hs, XR.fin_add] at this
        rw [this]
        congr 1; push_cast; ring
      have hm : ¬ Met p.endCriterion s' := by
        rw [hc, met_fin (v := .timeSinceEvent) hv, not_lt]
        rw [show N - (↑k + 1) - N = -((k : ℝ) + 1) by ring, abs_neg, abs_of_pos (by positivity)]
        have : (0 : ℝ) ≤ k := Nat.cast_nonneg k
        norm_num; linarith
      have ha : ¬ Overshot p.endCriterion p.state s' := by
        rw [hc, overshot_fin (v := .timeSinceEvent) hs hv]
        have : (0 : ℝ) ≤ k := Nat.cast_nonneg k
        push_cast
        rintro (h | h) <;> linarith [h.1, h.2]
      have h1 := step_kept_eq he (by rw [hst]; exact hr) hm ha
      rw [Phase.loop, seconds]
      simp only [he, h1, hr, Bool.false_eq_true, if_false]
      have h2 := ih (p := { p with state := s' }) hst he hc hv
      simp only [seconds_congr (p := { p with state := s' }) (q := p) rfl rfl] at h2
      simp only [he] at h2
      rw [h2]
      rfl

theorem run_seconds {p : Phase XR} {N : ℕ} (hN : 0 < N) (hst : p.stepsize = .fin 1)
    (he : p.ended = false) (hc : p.endCriterion = (.timeSinceEvent, .fin N))
    (h0 : p.state.timeSinceEvent = .fin 0) (rows : List (Row XR)) (res : Except Panic (Phase XR)) :
    (∃ fuel, p.run fuel = some ⟨rows, res⟩) ↔
      match p.system p.state with
      | .error e => rows = [] ∧ res = .error e
      | .ok s0 => rows = (seconds p N s0).1.map (·.row) ∧
          res = (seconds p N s0).2.map fun s' => { p with state := s', ended := true } := by
  obtain ⟨k, rfl⟩ : ∃ k, N = k + 1 := ⟨N - 1, by omega⟩
  cases hs : p.system p.state with
  | error e =>
    unfold Phase.run
    simp only [hs]
    constructor
    · rintro ⟨_, h⟩; injection h with h; injection h with h1 h2; exact ⟨h1.symm, h2.symm⟩
    · rintro ⟨rfl, rfl⟩; exact ⟨0, rfl⟩
  | ok s0 =>
    have hrun : p.run (k + 1) = some ⟨(seconds p (k + 1) s0).1.map (·.row),
        (seconds p (k + 1) s0).2.map fun s' => { p with state := s', ended := true }⟩ := by
      unfold Phase.run
      simp only [hs]
      have h := loop_seconds (p := { p with state := s0 }) hst he hc k (by
        show s0.timeSinceEvent = _
        rw [(Phase.system_primary hs).2.1, h0]
        congr 1; push_cast; ring)
      simp only [seconds_congr (p := { p with state := s0 }) (q := p) rfl rfl] at h
      exact h
    constructor
    · rintro ⟨fuel, h⟩
      have := Phase.run_det h hrun
      injection this with h1 h2
      exact ⟨h1, h2⟩
    · rintro ⟨rfl, rfl⟩; exact ⟨_, hrun⟩

theorem new_lasting (prev : Option (Phase XR)) (c : PhaseConfig XR) (n : ℕ) :
    Phase.new prev (lasting n c) =
      (Phase.new prev c).map fun p => { p with endCriterion := (.timeSinceEvent, .fin n) } := by
  have key : ∀ p : Phase XR, p.applyConfig (lasting n c) =
      { p.applyConfig c with endCriterion := (.timeSinceEvent, .fin n) } := by
    intro p
    unfold Phase.applyConfig lasting
    simp only [Phase.applyEndCriterion]
    cases c.endCriterion <;> rfl
  cases prev with
  | some q =>
    unfold Phase.new
    simp only [key]
    rfl
  | none =>
    unfold Phase.new
    cases hi : c.init with
    | none => simp [lasting, hi, Except.map]
    | some i =>
      have h2 : (lasting n c).init = some i := hi
      simp only [h2]
      rw [key]
      rfl

theorem Spec.SteadyRate.shift {a : Axis XR} (ha : SteadyRate a) {s0 s : State XR} {d x t0 t : ℝ}
    (h0 : s0.timeSinceEvent = .fin d) (ht0 : s0.time = .fin t0)
    (hx : s.timeSinceEvent = .fin (d + x)) (ht : s.time = .fin t) :
    ({ a with c0 := toDegrees (a.angle s0) } : Axis XR).angle (sinceEvent x s) = a.angle s := by
  obtain ⟨c0, c1, h0', h1, h2, h3, hv⟩ := ha
  have hpi := Real.pi_ne_zero
  have e0 : a.angle s0 = .fin ((c0 + c1 * d) * (Real.pi / 180)) := by
    rcases hv with hv | ⟨hv, rfl⟩
    · rw [C16_axis_angle (y := d) (by rw [hv]; exact h0) h0' h1 h2 h3]; unfold cubic; congr 1; ring
    · rw [C16_axis_angle (y := t0) (by rw [hv]; exact ht0) h0' h1 h2 h3]; unfold cubic; congr 1; ring
  have hdeg : toDegrees (a.angle s0) = .fin (c0 + c1 * d) := by
    rw [e0, toDegrees_fin]
    congr 1; field_simp
  rcases hv with hv | ⟨hv, rfl⟩
  · have e1 := C16_axis_angle (a := a) (s := s) (y := d + x) (by rw [hv]; exact hx) h0' h1 h2 h3
    have e2 := C16_axis_angle (a := { a with c0 := toDegrees (a.angle s0) }) (s := sinceEvent x s)
      (y := x) (by simp only [hv]; rfl) hdeg h1 h2 h3
    rw [e1, e2]
    unfold cubic
    congr 1; ring
  · have e1 := C16_axis_angle (a := a) (s := s) (y := t) (by rw [hv]; exact ht) h0' h1 h2 h3
    have e2 := C16_axis_angle (a := { a with c0 := toDegrees (a.angle s0) }) (s := sinceEvent x s)
      (y := t) (by simp only [hv]; exact ht) hdeg h1 h2 h3
    rw [e1, e2]
    unfold cubic
    congr 1; ring

theorem Spec.Steady.steeringEarly {p : Phase XR} (h : Steady p) : p.SteeringEarly := by
  have key : ∀ {a : Axis XR}, SteadyRate a → a.var ∈ beforeSteering := by
    rintro a ⟨_, _, _, _, _, _, hv | ⟨hv, _⟩⟩ <;> rw [hv] <;> decide
  intro v hv
  simp only [List.mem_cons, List.not_mem_nil, or_false] at hv
  rcases hv with rfl | rfl | rfl
  exacts [key h.roll, key h.yaw, key h.pitch]

theorem Spec.Steady.tablesEarly {p : Phase XR} (h : Steady p) : p.TablesEarly :=
  fun t ht v hv => (h.tables t ht v hv).1

/-- The phase that goes on where `P` has come to. -/
noncomputable def goOn (P : Phase XR) (s : State XR) (m : ℕ) : Phase XR :=
  { P with
    state := sinceEvent 0 s
    steering := P.steering.init s.eulerAngles
    endCriterion := (.timeSinceEvent, .fin m) }

theorem goOn_continues {P : Phase XR} (h : Steady P) {s1 s : State XR} (hs : P.system s1 = .ok s)
    {d t0 : ℝ} (hd : s.timeSinceEvent = .fin d) (ht0 : s.time = .fin t0) (m : ℕ) :
    Continues d P (goOn P s m) where
  vehicle := rfl
  atmosphere := rfl
  planet := rfl
  launch := rfl
  integrator := rfl
  maxAcceleration := rfl
  steering := by
    intro s' x t hx ht
    have hang : s.eulerAngles = P.steering.eulerAngles s := by
      have hang : s.eulerAngles = P.steering.eulerAngles (P.atSteering s1) := by
        obtain ⟨aero, _, _, rfl⟩ := Phase.system_ok hs
        rfl
      rw [hang]
      exact eulerAngles_congr fun v hv => (getValue_after_steering (h.steeringEarly v hv) hs).symm
    unfold goOn Steering.init
    rw [hang]
    unfold Steering.eulerAngles
    simp only
    rw [SteadyRate.shift h.roll hd ht0 hx ht, SteadyRate.shift h.yaw hd ht0 hx ht,
      SteadyRate.shift h.pitch hd ht0 hx ht]

theorem goOn_system {P : Phase XR} (h : Steady P) {s1 s : State XR} (hs : P.system s1 = .ok s)
    {d t0 : ℝ} (hd : s.timeSinceEvent = .fin d) (ht0 : s.time = .fin t0) (m : ℕ) :
    (goOn P s m).system (sinceEvent 0 s) = .ok (sinceEvent 0 s) := by
  rw [(goOn_continues h hs hd ht0 m).system h.tables (by rw [add_zero]; exact hd) ht0]
  have : P.system s = .ok s := by
    obtain ⟨a, b, c, d, e⟩ := Phase.system_primary hs
    rw [← hs]
    exact C18_no_leak h.steeringEarly h.tablesEarly ⟨a, b, c, d, e⟩
  rw [this]
  rfl

/-- What a phase lasting `k` seconds does. -/
theorem lasting_run {prev : Option (Phase XR)} {c : PhaseConfig XR} {p : Phase XR}
    (hnew : Phase.new prev c = .ok p) (h : Steady p.reset) {k : ℕ} (hk : 0 < k)
    (rows : List (Row XR)) (res : Except Panic (Phase XR)) :
    (∃ p', Phase.new prev (lasting k c) = .ok p' ∧ ∃ fuel, p'.reset.run fuel = some ⟨rows, res⟩) ↔
      match p.reset.system p.reset.state with
      | .error e => rows = [] ∧ res = .error e
      | .ok s0 => rows = (seconds p.reset k s0).1.map (·.row) ∧
          res = (seconds p.reset k s0).2.map fun s' =>
            { p.reset with state := s', ended := true, endCriterion := (.timeSinceEvent, .fin k) } := by
  rw [new_lasting, hnew]
  have := run_seconds (p := { p.reset with endCriterion := (.timeSinceEvent, .fin k) }) hk
    h.stepsize rfl rfl XR.fin_zero rows res
  simp only [seconds_congr (p := { p.reset with endCriterion := (.timeSinceEvent, .fin k) })
    (q := p.reset) rfl rfl] at this
  constructor
  · rintro ⟨p', hp, hrun⟩
    simp only [Except.map, Except.ok.injEq] at hp
    subst hp
    exact this.1 hrun
  · intro hh
    exact ⟨_, rfl, this.2 hh⟩

/-- What a phase does that goes on after it for `m` seconds. -/
theorem continuing_run {P q1 : Phase XR} (h : Steady P) (hst : P.stepsize = .fin 1)
    (he : P.ended = false) (htr : P.endCriterionTries = 0)
    {s1 s : State XR} (hs : P.system s1 = .ok s) {d t0 : ℝ} (hd : s.timeSinceEvent = .fin d)
    (ht0 : s.time = .fin t0) {crit : StateVariable × XR}
    (hq : q1 = { P with state := s, ended := true, endCriterion := crit }) {m : ℕ} (hm : 0 < m)
    (rows : List (Row XR)) (res : Except Panic (Phase XR)) :
    (∃ p', Phase.new (some q1) (continuing m) = .ok p' ∧
        ∃ fuel, p'.reset.run fuel = some ⟨rows, res⟩) ↔
      rows = (seconds P m s).1.map (·.row) ∧
        res = (seconds P m s).2.map fun s' =>
          { goOn P s m with state := sinceEvent m s', ended := true } := by
  have hnew : Phase.new (some q1) (continuing m) =
      .ok { q1 with endCriterion := (.timeSinceEvent, .fin m) } := rfl
  have hreset : ({ q1 with endCriterion := (.timeSinceEvent, .fin m) } : Phase XR).reset =
      goOn P s m := by
    subst hq
    unfold Phase.reset goOn sinceEvent
    simp only [XR.fin_zero, he, htr, hst, h.stepsize]
  have key := run_seconds (p := goOn P s m) hm hst he rfl rfl rows res
  rw [show (goOn P s m).state = sinceEvent 0 s from rfl, goOn_system h hs hd ht0 m] at key
  simp only at key
  obtain ⟨e1, e2⟩ := seconds_continues (goOn_continues h hs hd ht0 m) h.tables m (x := 0)
    (by rw [add_zero]; exact hd) ht0
  rw [e1, e2, zero_add] at key
  have e3 : (Except.map (sinceEvent ↑m) (seconds P m s).2).map
      (fun s' => { goOn P s m with state := s', ended := true }) =
      (seconds P m s).2.map fun s' =>
          ({ goOn P s m with state := sinceEvent m s', ended := true } : Phase XR) := by
    cases (seconds P m s).2 <;> rfl
  rw [e3] at key
  rw [← key]
  constructor
  · rintro ⟨p', hp, hrun⟩
    rw [hnew, Except.ok.injEq] at hp
    subst hp
    rwa [hreset] at hrun
  · intro hrun
    exact ⟨_, hnew, by rwa [hreset]⟩

theorem sinceEvent_self {s : State XR} {x : ℝ} (h : s.timeSinceEvent = .fin x) (y : ℝ) :
    sinceEvent x (sinceEvent y s) = s := by
  unfold sinceEvent
  rw [← h]

/-- C67.  Splitting a phase at a whole second: it completes exactly if the first part and then the
rest complete, the rows are those of the first part followed by those of the rest, and the phase
reached is the same, except for what counts from the last event. -/
theorem C67_split {prev : Option (Phase XR)} {c : PhaseConfig XR} {p : Phase XR}
    (hnew : Phase.new prev c = .ok p) (h : Steady p.reset) {n m : ℕ} (hn : 0 < n) (hm : 0 < m)
    (rows : List (Row XR)) (q : Phase XR) :
    Completes prev (lasting (n + m) c) rows q ↔
      ∃ rows1 q1 rows2 q2, Completes prev (lasting n c) rows1 q1 ∧
        Completes (some q1) (continuing m) rows2 q2 ∧ rows = rows1 ++ rows2 ∧
        q = { q2 with
          state := sinceEvent (n + m) q2.state
          endCriterion := (.timeSinceEvent, .fin (n + m))
          steering := q1.steering } := by
  have hN : 0 < n + m := by omega
  obtain ⟨t, ht⟩ := h.time
  unfold Completes
  rw [lasting_run hnew h hN]
  simp only [lasting_run hnew h hn]
  cases hs0 : p.reset.system p.reset.state with
  | error e => simp
  | ok s0 =>
    have ht0 : s0.time = .fin t := by rw [(Phase.system_primary hs0).1]; exact ht
    have hx0 : s0.timeSinceEvent = .fin 0 := by
      rw [(Phase.system_primary hs0).2.1]; exact XR.fin_zero
    simp only
    rw [seconds_add]
    cases h1 : (seconds p.reset n s0).2 with
    | error e => simp [Except.map]
    | ok s' =>
      obtain ⟨hx1, ht1, hsys⟩ := seconds_ok h1 hx0 ht0
      obtain ⟨s1, hs1⟩ := hsys hn
      rw [zero_add] at hx1
      have hc := fun rows2 res => continuing_run h h.stepsize rfl rfl hs1 hx1 ht1
        (q1 := { p.reset with state := s', ended := true, endCriterion := (.timeSinceEvent, .fin n) })
        rfl hm rows2 res
      constructor
      · rintro ⟨hrows, hq⟩
        cases h2 : (seconds p.reset m s').2 with
        | error e => rw [h2] at hq; simp [Except.map] at hq
        | ok s2 =>
          obtain ⟨hx2, ht2, _⟩ := seconds_ok h2 hx1 ht1
          rw [h2] at hq
          refine ⟨_, _, _, _, ⟨rfl, rfl⟩, (hc _ _).2 ⟨rfl, by rw [h2]; rfl⟩, by rw [hrows, List.map_append], ?_⟩
          simp only [Except.map, Except.ok.injEq] at hq
          rw [hq]
          simp only
          rw [sinceEvent_self hx2]
          push_cast
          rfl
      · rintro ⟨rows1, q1, rows2, q2, ⟨hr1, hq1⟩, hsecond, hrows, hq⟩
        simp only [Except.map, Except.ok.injEq] at hq1
        subst hq1
        obtain ⟨hr2, hq2⟩ := (hc _ _).1 hsecond
        cases h2 : (seconds p.reset m s').2 with
        | error e => rw [h2] at hq2; simp [Except.map] at hq2
        | ok s2 =>
          obtain ⟨hx2, ht2, _⟩ := seconds_ok h2 hx1 ht1
          rw [h2] at hq2
          simp only [Except.map, Except.ok.injEq] at hq2
          refine ⟨by rw [hrows, hr1, hr2, List.map_append], ?_⟩
          rw [hq, hq2]
          simp only [Except.map]
          rw [sinceEvent_self hx2]
          push_cast
          rfl

/-- C67 (abort).  The phase aborts exactly if the first part aborts, or completes and then the rest
aborts, with the same rows and for the same reason. -/
theorem C67_split_aborts {prev : Option (Phase XR)} {c : PhaseConfig XR} {p : Phase XR}
    (hnew : Phase.new prev c = .ok p) (h : Steady p.reset) {n m : ℕ} (hn : 0 < n) (hm : 0 < m)
    (rows : List (Row XR)) (e : Panic) :
    Aborts prev (lasting (n + m) c) rows e ↔
      Aborts prev (lasting n c) rows e ∨
        ∃ rows1 q1 rows2, Completes prev (lasting n c) rows1 q1 ∧
          Aborts (some q1) (continuing m) rows2 e ∧ rows = rows1 ++ rows2 := by
  have hN : 0 < n + m := by omega
  obtain ⟨t, ht⟩ := h.time
  unfold Aborts Completes
  rw [lasting_run hnew h hN]
  have hk' : ∀ k, Phase.new prev (lasting k c) ≠ .error e := by
    intro k; rw [new_lasting, hnew]; exact fun h => by cases h
  simp only [lasting_run hnew h hn]
  have hk : ∀ q1, Phase.new (some q1) (continuing m) ≠ .error e := fun _ h => by cases h
  simp only [false_and, false_or, hk, hk']
  cases hs0 : p.reset.system p.reset.state with
  | error e => simp
  | ok s0 =>
    have ht0 : s0.time = .fin t := by rw [(Phase.system_primary hs0).1]; exact ht
    have hx0 : s0.timeSinceEvent = .fin 0 := by
      rw [(Phase.system_primary hs0).2.1]; exact XR.fin_zero
    simp only
    rw [seconds_add]
    cases h1 : (seconds p.reset n s0).2 with
    | error e => simp [Except.map]
    | ok s' =>
      obtain ⟨hx1, ht1, hsys⟩ := seconds_ok h1 hx0 ht0
      obtain ⟨s1, hs1⟩ := hsys hn
      rw [zero_add] at hx1
      have hc := fun rows2 res => continuing_run h h.stepsize rfl rfl hs1 hx1 ht1
        (q1 := { p.reset with state := s', ended := true, endCriterion := (.timeSinceEvent, .fin n) })
        rfl hm rows2 res
      simp only [Except.map, reduceCtorEq, and_false, false_or]
      constructor
      · rintro ⟨hrows, hq⟩
        cases h2 : (seconds p.reset m s').2 with
        | ok e => rw [h2] at hq; simp at hq
        | error e' =>
          rw [h2] at hq
          simp only [Except.error.injEq] at hq
          refine ⟨_, _, _, ⟨rfl, rfl⟩, (hc _ _).2 ⟨rfl, by rw [h2, hq]; rfl⟩, by rw [hrows, List.map_append]⟩
      · rintro ⟨rows1, q1, rows2, ⟨hr1, hq1⟩, hsecond, hrows⟩
        simp only [Except.ok.injEq] at hq1
        subst hq1
        obtain ⟨hr2, hq2⟩ := (hc _ _).1 hsecond
        cases h2 : (seconds p.reset m s').2 with
        | ok e => rw [h2] at hq2; simp [Except.map] at hq2
        | error e' =>
          rw [h2] at hq2
          simp only [Except.map, Except.error.injEq] at hq2
          exact ⟨by rw [hrows, hr1, hr2, List.map_append], by rw [hq2]⟩

/-! ## Whole simulations -/

theorem rowsOf_append {F : Type} (a b : List (LogEntry F)) : rowsOf (a ++ b) = rowsOf a ++ rowsOf b := by
  induction a with
  | nil => rfl
  | cons x a ih => cases x <;> simp [rowsOf, ih]

theorem rowsOf_rows {F : Type} (rows : List (Row F)) : rowsOf (rows.map .row) = rows := by
  induction rows with
  | nil => rfl
  | cons x a ih => simp [rowsOf, ih]

/-- A phase without what the next one, if it has an end criterion, does not take over. -/
noncomputable def forget (p : Phase XR) : Phase XR :=
  { p with
    state := sinceEvent 0 p.state
    endCriterion := (.time, .fin 0)
    steering := p.steering.init p.state.eulerAngles }

theorem forget_apply (p : Phase XR) (c : PhaseConfig XR) :
    forget (p.applyConfig c) = forget ((forget p).applyConfig c) := by
  have e1 : ∀ (p : Phase XR) c, forget (p.applyPlanet c) = forget ((forget p).applyPlanet c) := by
    intro p c; cases c <;> rfl
  have e2 : ∀ (p : Phase XR) c,
      forget (p.applyAtmosphere c) = forget ((forget p).applyAtmosphere c) := by
    intro p c; cases c <;> rfl
  have e3 : ∀ (p : Phase XR) c, forget (p.applyVehicle c) = forget ((forget p).applyVehicle c) := by
    intro p c
    cases c with
    | none => rfl
    | some c =>
      unfold Phase.applyVehicle Phase.applyStructureMass Phase.applyPropellantMass
      simp only
      cases c.structureMass <;> cases c.propellantMass <;> rfl
  have e4 : ∀ (p : Phase XR) c,
      forget (p.applyMaxAcceleration c) = forget ((forget p).applyMaxAcceleration c) := by
    intro p c
    cases c with
    | none => rfl
    | some c => unfold Phase.applyMaxAcceleration; simp only; split <;> rfl
  have e5 : ∀ (p : Phase XR) c, forget (p.applySteering c) = forget ((forget p).applySteering c) := by
    intro p c
    cases c with
    | none => rfl
    | some c =>
      obtain ⟨a, b, c⟩ := c
      cases a <;> cases b <;> cases c <;> rfl
  have e6 : ∀ (p : Phase XR) c, forget (p.applyStepsize c) = forget ((forget p).applyStepsize c) := by
    intro p c; cases c <;> rfl
  have e7 : ∀ (p : Phase XR) c,
      forget (p.applyEndCriterion c) = forget ((forget p).applyEndCriterion c) := by
    intro p c; cases c <;> rfl
  unfold Phase.applyConfig
  simp only
  rw [e7, e6, e5, e4, e3, e2, e1]
  rw [← e2 ((forget p).applyPlanet c.planetModel), ← e3, ← e4, ← e5, ← e6, ← e7]

theorem applyConfig_endCriterion {p : Phase XR} {c : PhaseConfig XR} {crit : StateVariable × XR}
    (hc : c.endCriterion = some crit) : (p.applyConfig c).endCriterion = crit := by
  unfold Phase.applyConfig
  simp only [hc]
  rfl

theorem reset_forget (p : Phase XR) :
    p.reset = { forget p with
      endCriterion := p.endCriterion, ended := false, endCriterionTries := 0,
      stepsize := p.baseStepsize } := by
  unfold Phase.reset forget sinceEvent
  simp only [XR.fin_zero]

/-- A phase with an end criterion of its own does the same after phases that differ in nothing
else. -/
theorem new_forget {q q' : Phase XR} (hq : forget q = forget q') {c : PhaseConfig XR}
    (hc : c.endCriterion ≠ none) : (q.applyConfig c).reset = (q'.applyConfig c).reset := by
  obtain ⟨crit, hcrit⟩ := Option.ne_none_iff_exists'.1 hc
  have h : forget (q.applyConfig c) = forget (q'.applyConfig c) := by
    rw [forget_apply q, hq, ← forget_apply q']
  have hb : (q.applyConfig c).baseStepsize = (q'.applyConfig c).baseStepsize :=
    show (forget (q.applyConfig c)).baseStepsize = (forget (q'.applyConfig c)).baseStepsize by rw [h]
  rw [reset_forget, reset_forget (q'.applyConfig c), h, hb, applyConfig_endCriterion hcrit,
    applyConfig_endCriterion hcrit]

theorem completes_forget {q q' : Phase XR} (hq : forget q = forget q') {c : PhaseConfig XR}
    (hc : c.endCriterion ≠ none) {rows : List (Row XR)} {r : Phase XR} :
    Completes (some q) c rows r ↔ Completes (some q') c rows r := by
  have e : ∀ q : Phase XR, Phase.new (some q) c = .ok (q.applyConfig c) := fun _ => rfl
  unfold Completes
  simp only [e, Except.ok.injEq, exists_eq_left', new_forget hq hc]

theorem aborts_forget {q q' : Phase XR} (hq : forget q = forget q') {c : PhaseConfig XR}
    (hc : c.endCriterion ≠ none) {rows : List (Row XR)} {e : Panic} :
    Aborts (some q) c rows e ↔ Aborts (some q') c rows e := by
  have e : ∀ q : Phase XR, Phase.new (some q) c = .ok (q.applyConfig c) := fun _ => rfl
  unfold Aborts
  simp only [e, Except.ok.injEq, exists_eq_left', new_forget hq hc, reduceCtorEq, false_and,
    false_or]

/-- The rows and the outcome of running phases one after the other. -/
inductive Runs : Option (Phase XR) → List (PhaseConfig XR) → List (Row XR) →
    Except Panic (Option (Phase XR)) → Prop
  | nil (prev : Option (Phase XR)) : Runs prev [] [] (.ok prev)
  | cons {prev : Option (Phase XR)} {c : PhaseConfig XR} {cs : List (PhaseConfig XR)}
      {rows rows' : List (Row XR)} {q : Phase XR} {res : Except Panic (Option (Phase XR))} :
      Completes prev c rows q → Runs (some q) cs rows' res → Runs prev (c :: cs) (rows ++ rows') res
  | abort {prev : Option (Phase XR)} {c : PhaseConfig XR} {cs : List (PhaseConfig XR)}
      {rows : List (Row XR)} {e : Panic} : Aborts prev c rows e → Runs prev (c :: cs) rows (.error e)

theorem runs_ok_iff {cs : List (PhaseConfig XR)} {i : ℕ} {prev last : Option (Phase XR)}
    {rows : List (Row XR)} :
    (∃ log, Sequence i prev cs log last ∧ rowsOf log = rows) ↔ Runs prev cs rows (.ok last) := by
  induction cs generalizing i prev rows with
  | nil =>
    constructor
    · rintro ⟨log, h, rfl⟩; cases h; exact .nil _
    · intro h; cases h; exact ⟨[], .nil _ _, rfl⟩
  | cons c cs ih =>
    constructor
    · rintro ⟨log, h, rfl⟩
      cases h with
      | @cons _ _ _ _ _ rows log q h1 h2 =>
        rw [List.cons_append, rowsOf, rowsOf_append, rowsOf_rows]
        exact .cons h1 (ih.1 ⟨_, h2, rfl⟩)
    · intro h
      cases h with
      | cons h1 h2 =>
        obtain ⟨log, h3, rfl⟩ := (ih (i := i + 1)).2 h2
        exact ⟨_, .cons h1 h3, by rw [List.cons_append, rowsOf, rowsOf_append, rowsOf_rows]⟩

theorem runs_error_iff {cs : List (PhaseConfig XR)} {i : ℕ} {prev : Option (Phase XR)}
    {rows : List (Row XR)} {e : Panic} :
    Runs prev cs rows (.error e) ↔
      ∃ done c rest log' last rows', cs = done ++ c :: rest ∧ Sequence i prev done log' last ∧
        Aborts last c rows' e ∧ rows = rowsOf log' ++ rows' := by
  constructor
  · intro h
    induction cs generalizing i prev rows with
    | nil => cases h
    | cons c cs ih =>
      cases h with
      | abort h => exact ⟨[], c, cs, [], prev, rows, rfl, .nil _ _, h, rfl⟩
      | cons h1 h2 =>
        obtain ⟨done, c', rest, log', last, rows', rfl, h3, h4, rfl⟩ := ih (i := i + 1) h2
        exact ⟨c :: done, c', rest, _, last, rows', rfl, .cons h1 h3, h4, by
          rw [List.cons_append, rowsOf, rowsOf_append, rowsOf_rows, List.append_assoc]⟩
  · rintro ⟨done, c, rest, log', last, rows', rfl, h1, h2, rfl⟩
    induction h1 with
    | nil => exact .abort h2
    | cons h3 _ ih =>
      rw [List.cons_append, List.cons_append, rowsOf, rowsOf_append, rowsOf_rows, List.append_assoc]
      exact .cons h3 (ih h2)

theorem terminates_ok_iff_runs {cs : List (PhaseConfig XR)} {rows : List (Row XR)} {s : State XR} :
    (∃ log, Simulation.Terminates cs ⟨log, .ok s⟩ ∧ rowsOf log = rows) ↔
      ∃ last, Runs none cs rows (.ok last) ∧ s = finalState last := by
  simp only [C53_terminates_ok_iff, ← runs_ok_iff (i := 0)]
  constructor
  · rintro ⟨log, ⟨last, h1, h2⟩, h3⟩; exact ⟨last, ⟨log, h1, h3⟩, h2⟩
  · rintro ⟨last, ⟨log, h1, h3⟩, h2⟩; exact ⟨log, ⟨last, h1, h2⟩, h3⟩

theorem terminates_error_iff_runs {cs : List (PhaseConfig XR)} {rows : List (Row XR)} {e : Panic} :
    (∃ log, Simulation.Terminates cs ⟨log, .error e⟩ ∧ rowsOf log = rows) ↔
      Runs none cs rows (.error e) := by
  rw [runs_error_iff (i := 0)]
  simp only [C53_terminates_error_iff]
  constructor
  · rintro ⟨log, ⟨done, c, rest, log', last, rows', h1, h2, h3, rfl⟩, rfl⟩
    exact ⟨done, c, rest, log', last, rows', h1, h2, h3, by
      rw [rowsOf_append, rowsOf, rowsOf_rows]⟩
  · rintro ⟨done, c, rest, log', last, rows', h1, h2, h3, rfl⟩
    exact ⟨_, ⟨done, c, rest, log', last, rows', h1, h2, h3, rfl⟩, by
      rw [rowsOf_append, rowsOf, rowsOf_rows]⟩

theorem runs_forget {q q' : Phase XR} (hq : forget q = forget q') {c : PhaseConfig XR}
    (hc : c.endCriterion ≠ none) {cs : List (PhaseConfig XR)} {rows : List (Row XR)}
    {res : Except Panic (Option (Phase XR))} (h : Runs (some q) (c :: cs) rows res) :
    Runs (some q') (c :: cs) rows res := by
  cases h with
  | cons h1 h2 => exact .cons ((completes_forget hq hc).1 h1) h2
  | abort h => exact .abort ((aborts_forget hq hc).1 h)

/-- Splitting the first of some phases. -/
theorem runs_split {prev : Option (Phase XR)} {c : PhaseConfig XR}
    (h : ∀ p, Phase.new prev c = .ok p → Steady p.reset) {n m : ℕ} (hn : 0 < n) (hm : 0 < m)
    {c' : PhaseConfig XR} (hc' : c'.endCriterion ≠ none) {cs : List (PhaseConfig XR)}
    {rows : List (Row XR)} {res : Except Panic (Option (Phase XR))} :
    Runs prev (lasting (n + m) c :: c' :: cs) rows res ↔
      Runs prev (lasting n c :: continuing m :: c' :: cs) rows res := by
  cases hnew : Phase.new prev c with
  | error e =>
    have hk : ∀ k, Phase.new prev (lasting k c) = .error e := by
      intro k; rw [new_lasting, hnew]; rfl
    have hc : ∀ k rows q, ¬ Completes prev (lasting k c) rows q := by
      rintro k rows q ⟨p, hp, _⟩; rw [hk] at hp; cases hp
    have ha : ∀ k rows e', Aborts prev (lasting k c) rows e' ↔ e = e' ∧ rows = [] := by
      intro k rows e'; unfold Aborts; simp [hk]
    constructor
    · intro hr
      cases hr with
      | cons h1 _ => exact absurd h1 (hc _ _ _)
      | abort h1 => exact .abort ((ha _ _ _).2 ((ha _ _ _).1 h1))
    · intro hr
      cases hr with
      | cons h1 _ => exact absurd h1 (hc _ _ _)
      | abort h1 => exact .abort ((ha _ _ _).2 ((ha _ _ _).1 h1))
  | ok p =>
    have hst := h p hnew
    have hfor : ∀ {rows2 q1 q2}, Completes (some q1) (continuing m) rows2 q2 →
        forget q2 = forget { q2 with
          state := sinceEvent (n + m) q2.state
          endCriterion := (.timeSinceEvent, .fin (n + m))
          steering := q1.steering } := by
      rintro rows2 q1 q2 ⟨p2, hp2, fuel, hrun⟩
      have h1 : q2.steering = p2.reset.steering := by
        rcases Phase.run_some hrun with ⟨e, _, _, h⟩ | ⟨s0, _, ps, q, hpath, _, _, ⟨_, h⟩ | ⟨_, e, _, h⟩⟩
        · cases h
        · rw [Except.ok.injEq] at h; rw [h]; exact (Phase.path_sameParams hpath).1.steering
        · cases h
      rw [show Phase.new (some q1) (continuing m) =
        .ok { q1 with endCriterion := (.timeSinceEvent, .fin m) } from rfl, Except.ok.injEq] at hp2
      subst hp2
      unfold forget
      rw [h1]
      rfl
    constructor
    · intro hr
      cases hr with
      | cons h1 h2 =>
        obtain ⟨rows1, q1, rows2, q2, h3, h4, rfl, rfl⟩ := (C67_split hnew hst hn hm _ _).1 h1
        rw [List.append_assoc]
        exact .cons h3 (.cons h4 (runs_forget (hfor h4).symm hc' h2))
      | abort h1 =>
        rcases (C67_split_aborts hnew hst hn hm _ _).1 h1 with h1 | ⟨rows1, q1, rows2, h2, h3, rfl⟩
        · exact .abort h1
        · exact .cons h2 (.abort h3)
    · intro hr
      cases hr with
      | cons h1 h2 =>
        cases h2 with
        | cons h2 h3 =>
          rw [← List.append_assoc]
          exact .cons ((C67_split hnew hst hn hm _ _).2 ⟨_, _, _, _, h1, h2, rfl, rfl⟩)
            (runs_forget (hfor h2) hc' h3)
        | abort h2 => exact .abort ((C67_split_aborts hnew hst hn hm _ _).2 (.inr ⟨_, _, _, h1, h2, rfl⟩))
      | abort h1 => exact .abort ((C67_split_aborts hnew hst hn hm _ _).2 (.inl h1))

theorem runs_append {pre cs : List (PhaseConfig XR)} {prev : Option (Phase XR)}
    {rows : List (Row XR)} {res : Except Panic (Option (Phase XR))} :
    Runs prev (pre ++ cs) rows res ↔
      (∃ e, res = .error e ∧ Runs prev pre rows (.error e)) ∨
      ∃ mid rows1 rows2, Runs prev pre rows1 (.ok mid) ∧ Runs mid cs rows2 res ∧
        rows = rows1 ++ rows2 := by
  induction pre generalizing prev rows with
  | nil =>
    constructor
    · intro h; exact .inr ⟨prev, [], rows, .nil _, h, rfl⟩
    · rintro (⟨e, _, h⟩ | ⟨mid, r1, r2, h1, h2, rfl⟩)
      · cases h
      · cases h1; exact h2
  | cons c pre ih =>
    constructor
    · intro h
      cases h with
      | cons h1 h2 =>
        rcases ih.1 h2 with ⟨e, rfl, h3⟩ | ⟨mid, r1, r2, h3, h4, rfl⟩
        · exact .inl ⟨e, rfl, .cons h1 h3⟩
        · exact .inr ⟨mid, _, r2, .cons h1 h3, h4, by rw [List.append_assoc]⟩
      | abort h1 => exact .inl ⟨_, rfl, .abort h1⟩
    · rintro (⟨e, rfl, h⟩ | ⟨mid, r1, r2, h1, h2, rfl⟩)
      · cases h with
        | cons h1 h2 => exact .cons h1 (ih.2 (.inl ⟨e, rfl, h2⟩))
        | abort h1 => exact .abort h1
      · cases h1 with
        | cons h1 h3 =>
          rw [List.append_assoc]
          exact .cons h1 (ih.2 (.inr ⟨mid, _, _, h3, h2, rfl⟩))

theorem runs_split_between {pre : List (PhaseConfig XR)} {c : PhaseConfig XR}
    (h : ∀ log mid p, Sequence 0 none pre log mid → Phase.new mid c = .ok p → Steady p.reset)
    {n m : ℕ} (hn : 0 < n) (hm : 0 < m) {c' : PhaseConfig XR} (hc' : c'.endCriterion ≠ none)
    {cs : List (PhaseConfig XR)} {rows : List (Row XR)}
    {res : Except Panic (Option (Phase XR))} :
    Runs none (pre ++ lasting (n + m) c :: c' :: cs) rows res ↔
      Runs none (pre ++ lasting n c :: continuing m :: c' :: cs) rows res := by
  rw [runs_append, runs_append]
  refine or_congr Iff.rfl (exists_congr fun mid => exists_congr fun r1 => exists_congr fun r2 =>
    and_congr_right fun h1 => and_congr_left fun _ => ?_)
  obtain ⟨log, hlog, _⟩ := (runs_ok_iff (i := 0)).2 h1
  exact runs_split (fun p hp => h log mid p hlog hp) hn hm hc'

/-- C67 (simulation, normal end).  Splitting a phase in the middle of a simulation, in front of a
phase with an end criterion of its own, changes neither the rows printed nor the final state. -/
theorem C67_simulation {pre : List (PhaseConfig XR)} {c : PhaseConfig XR}
    (h : ∀ log mid p, Sequence 0 none pre log mid → Phase.new mid c = .ok p → Steady p.reset)
    {n m : ℕ} (hn : 0 < n) (hm : 0 < m) {c' : PhaseConfig XR} (hc' : c'.endCriterion ≠ none)
    (cs : List (PhaseConfig XR)) (rows : List (Row XR)) (s : State XR) :
    (∃ log, Simulation.Terminates (pre ++ lasting (n + m) c :: c' :: cs) ⟨log, .ok s⟩ ∧
        rowsOf log = rows) ↔
      ∃ log, Simulation.Terminates (pre ++ lasting n c :: continuing m :: c' :: cs) ⟨log, .ok s⟩ ∧
        rowsOf log = rows := by
  rw [terminates_ok_iff_runs, terminates_ok_iff_runs]
  simp only [runs_split_between h hn hm hc']

/-- C67 (simulation, abort).  Nor does it change whether and why the simulation aborts. -/
theorem C67_simulation_aborts {pre : List (PhaseConfig XR)} {c : PhaseConfig XR}
    (h : ∀ log mid p, Sequence 0 none pre log mid → Phase.new mid c = .ok p → Steady p.reset)
    {n m : ℕ} (hn : 0 < n) (hm : 0 < m) {c' : PhaseConfig XR} (hc' : c'.endCriterion ≠ none)
    (cs : List (PhaseConfig XR)) (rows : List (Row XR)) (e : Panic) :
    (∃ log, Simulation.Terminates (pre ++ lasting (n + m) c :: c' :: cs) ⟨log, .error e⟩ ∧
        rowsOf log = rows) ↔
      ∃ log, Simulation.Terminates (pre ++ lasting n c :: continuing m :: c' :: cs) ⟨log, .error e⟩ ∧
        rowsOf log = rows := by
  rw [terminates_error_iff_runs, terminates_error_iff_runs]
  simp only [runs_split_between h hn hm hc']

/-- C67 (simulation, last phase).  If the phase that is split is the last one, the final state
differs in the time since the last event only. -/
theorem C67_simulation_last {pre : List (PhaseConfig XR)} {c : PhaseConfig XR}
    (h : ∀ log mid p, Sequence 0 none pre log mid → Phase.new mid c = .ok p → Steady p.reset)
    {n m : ℕ} (hn : 0 < n) (hm : 0 < m) (rows : List (Row XR)) (s : State XR) :
    (∃ log, Simulation.Terminates (pre ++ [lasting (n + m) c]) ⟨log, .ok s⟩ ∧ rowsOf log = rows) ↔
      ∃ log s', Simulation.Terminates (pre ++ [lasting n c, continuing m]) ⟨log, .ok s'⟩ ∧
        rowsOf log = rows ∧ s = sinceEvent (n + m) s' := by
  have e : (∃ log s', Simulation.Terminates (pre ++ [lasting n c, continuing m]) ⟨log, .ok s'⟩ ∧
        rowsOf log = rows ∧ s = sinceEvent (n + m) s') ↔
      ∃ s', (∃ log, Simulation.Terminates (pre ++ [lasting n c, continuing m]) ⟨log, .ok s'⟩ ∧
        rowsOf log = rows) ∧ s = sinceEvent (n + m) s' := by
    constructor
    · rintro ⟨log, s', h1, h2, h3⟩; exact ⟨s', ⟨log, h1, h2⟩, h3⟩
    · rintro ⟨s', ⟨log, h1, h2⟩, h3⟩; exact ⟨log, s', h1, h2, h3⟩
  rw [e]
  simp only [terminates_ok_iff_runs, runs_append]
  constructor
  · rintro ⟨last, ⟨_, he, _⟩ | ⟨mid, r1, r2, h1, h2, rfl⟩, rfl⟩
    · cases he
    obtain ⟨log, hlog, _⟩ := (runs_ok_iff (i := 0)).2 h1
    cases h2 with
    | cons h2 h3 =>
      cases h3
      obtain ⟨p', hp', _⟩ := id h2
      rw [new_lasting] at hp'
      cases hp : Phase.new mid c with
      | error e => rw [hp] at hp'; cases hp'
      | ok p =>
        obtain ⟨rows1, q1, rows2, q2, h3, h4, rfl, rfl⟩ :=
          (C67_split hp (h log mid p hlog hp) hn hm _ _).1 h2
        exact ⟨_, ⟨_, .inr ⟨mid, r1, _, h1, .cons h3 (.cons h4 (.nil _)), by simp⟩, rfl⟩, rfl⟩
  · rintro ⟨s', ⟨last, ⟨_, he, _⟩ | ⟨mid, r1, r2, h1, h2, rfl⟩, rfl⟩, rfl⟩
    · cases he
    obtain ⟨log, hlog, _⟩ := (runs_ok_iff (i := 0)).2 h1
    cases h2 with
    | cons h2 h3 =>
      cases h3 with
      | cons h3 h4 =>
        cases h4
        obtain ⟨p', hp', _⟩ := id h2
        rw [new_lasting] at hp'
        cases hp : Phase.new mid c with
        | error e => rw [hp] at hp'; cases hp'
        | ok p =>
          exact ⟨_, .inr ⟨mid, r1, _, h1, .cons ((C67_split hp (h log mid p hlog hp) hn hm _ _).2
            ⟨_, _, _, _, h2, h3, rfl, rfl⟩) (.nil _), by simp⟩, rfl⟩

/-- The theorems apply: from the state of `exampleOrbit`, pitching up by two degrees per second for
five seconds is the same as for two seconds and then for three more. -/
example : ∃ p, Phase.new (some exampleOrbit) examplePitch = .ok p ∧ Steady p.reset ∧
    ∃ rows q, Completes (some exampleOrbit) (lasting (2 + 3) examplePitch) rows q ∧
      rows.length = 5 := by
  have hs0 : (exampleOrbit.applyConfig examplePitch).reset.state.time = .fin 0 := XR.fin_zero
  have hst : Steady (exampleOrbit.applyConfig examplePitch).reset := by
    have hz : toDegrees (0 : XR) = .fin 0 := by
      rw [XR.fin_zero, toDegrees_fin, zero_mul]
    refine ⟨⟨0, 0, hz, XR.fin_zero, XR.fin_zero, XR.fin_zero, .inr ⟨rfl, rfl⟩⟩,
      ⟨0, 0, hz, XR.fin_zero, XR.fin_zero, XR.fin_zero, .inr ⟨rfl, rfl⟩⟩,
      ⟨0, 2, hz, rfl, rfl, rfl, .inl rfl⟩, ?_, ⟨0, hs0⟩, XR.fin_one⟩
    intro t ht v hv
    have : t = Table.default := by
      simp only [List.mem_cons, List.not_mem_nil, or_false] at ht
      rcases ht with rfl | rfl | rfl <;> rfl
    subst this
    simp [Table.default, tableVariables] at hv
    subst hv
    exact ⟨by decide, by decide⟩
  refine ⟨_, rfl, hst, ?_⟩
  have hsys := system_coasting_ok (p := (exampleOrbit.applyConfig examplePitch).reset) rfl rfl
    ⟨default_wellFormed, default_wellFormed, default_wellFormed⟩
  have hstep : ∀ s : State XR, ∃ s', (exampleOrbit.applyConfig examplePitch).reset.integrator.step
      (exampleOrbit.applyConfig examplePitch).reset.system s (.fin 1) = .ok s' :=
    fun s => coasting_step (p := (exampleOrbit.applyConfig examplePitch).reset) rfl rfl
      ⟨default_wellFormed, default_wellFormed, default_wellFormed⟩ s (.fin 1)
  have hsec : ∀ k s, (seconds (exampleOrbit.applyConfig examplePitch).reset k s).1.length = k ∧
      ∃ s', (seconds (exampleOrbit.applyConfig examplePitch).reset k s).2 = .ok s' := by
    intro k
    induction k with
    | zero => exact fun s => ⟨rfl, s, rfl⟩
    | succ k ih =>
      intro s
      obtain ⟨s', hs'⟩ := hstep s
      unfold seconds
      rw [hs']
      exact ⟨by simp [(ih s').1], (ih s').2⟩
  obtain ⟨s0, hs0⟩ := hsys (exampleOrbit.applyConfig examplePitch).reset.state
  obtain ⟨h1, s', h2⟩ := hsec (2 + 3) s0
  have hrun := (lasting_run (prev := some exampleOrbit) (c := examplePitch)
    (p := exampleOrbit.applyConfig examplePitch) rfl hst (k := 2 + 3) (by norm_num)
    ((seconds (exampleOrbit.applyConfig examplePitch).reset (2 + 3) s0).1.map (·.row))
    (.ok _)).2 (by rw [hs0]; exact ⟨rfl, by rw [h2]; rfl⟩)
  exact ⟨_, _, hrun, by simpa using h1⟩

end Post
