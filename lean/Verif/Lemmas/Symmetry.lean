import Verif.Props.Real
/-! # Symmetries of the simulation

If a transformation of states commutes with the equations of motion wherever they are regular, it
commutes with steps, phases and whole simulations that stay away from the singularities. -/

namespace Post
open Spec Flt

/-- the phase with another state and other control variables of the loop -/
def Phase.put (p : Phase XR) (s : State XR) (h : XR) (n : ℕ) (e : Bool) : Phase XR :=
  ⟨s, p.vehicle, p.steering, p.atmosphere, p.planet, p.launch, p.integrator, p.maxAcceleration, h,
    p.baseStepsize, p.endCriterion, n, e⟩

/-- A transformation of states, vectors of primary quantities, phases and configurations that
commutes with the equations of motion. -/
structure Symmetry where
  onState : State XR → State XR
  onVec : (Fin 7 → XR) → (Fin 7 → XR)
  onPhase : Phase XR → Phase XR
  onConfig : PhaseConfig XR → PhaseConfig XR
  onRow : Row XR → Row XR
  /-- the phases and configurations that have the symmetry -/
  Good : Phase XR → Prop
  GoodConfig : PhaseConfig XR → Prop
  vec_add : ∀ x y, RealFun x → RealFun y → onVec (vadd x y) = vadd (onVec x) (onVec y)
  vec_scale : ∀ c y, IsReal c → RealFun y → onVec (vscale c y) = vscale c (onVec y)
  vec_zero : onVec (fun _ => 0) = fun _ => 0
  fromVec : ∀ t y, RealFun y → State.fromVec t (onVec y) = onState (State.fromVec t y)
  primary : ∀ s, s.Reals → (onState s).toPrimaryVec = onVec s.toPrimaryVec
  differentials : ∀ s, s.Reals → (onState s).toDifferentialsVector = onVec s.toDifferentialsVector
  times : ∀ s, (onState s).time = s.time ∧ (onState s).timeSinceEvent = s.timeSinceEvent
  row : ∀ s, (onState s).row = onRow s.row
  inj : ∀ s s', s.Reals → s'.Reals → onState s = onState s' → s = s'
  state : ∀ p, (onPhase p).state = onState p.state
  control : ∀ p, (onPhase p).stepsize = p.stepsize ∧ (onPhase p).ended = p.ended ∧
    (onPhase p).endCriterionTries = p.endCriterionTries ∧ (onPhase p).integrator = p.integrator ∧
    (onPhase p).endCriterion.2 = p.endCriterion.2
  update : ∀ p s h n e, onPhase (p.put s h n e) = (onPhase p).put (onState s) h n e
  good_update : ∀ p s h n e, Good p → Good (p.put s h n e)
  system : ∀ p s, Good p → RealPhase p → SteersByRealVariables p → s.Reals → Regular p.planet s →
    (onPhase p).system (onState s) = (p.system s).map onState
  crit : ∀ p s, Good p → s.Reals → (onPhase p).critValue (onState s) = p.critValue s
  reset : ∀ p, p.state.Reals → (onPhase p).reset = onPhase p.reset
  start : onState State.default = State.default
  new : ∀ prev c, (∀ q, prev = some q → Good q ∧ RealPhase q ∧ AllReal q.state) → RealConfig c →
    GoodConfig c → Phase.new (prev.map onPhase) (onConfig c) = (Phase.new prev c).map onPhase ∧
      ∀ p, Phase.new prev c = .ok p → Good p.reset ∧ p.state.Reals

namespace Symmetry
variable (S : Symmetry) {p : Phase XR} {s : State XR}

/-! ## Steps -/

section rk
variable {f g : (Fin 2 → XR) → (Fin 7 → XR) → Except Panic (Fin 7 → XR)} {x : Fin 2 → XR}
  {y : Fin 7 → XR} {h : XR}

theorem realFun_vadd {n : ℕ} {a b : Fin n → XR} (ha : RealFun a) (hb : RealFun b) :
    RealFun (vadd a b) := fun i => isReal_add (ha i) (hb i)
theorem realFun_vscale {n : ℕ} {c : XR} {a : Fin n → XR} (hc : IsReal c) (ha : RealFun a) :
    RealFun (vscale c a) := fun i => isReal_mul hc (ha i)

theorem vsum_real {l : List (Fin 7 → XR)} (hl : ∀ v ∈ l, RealFun v) : RealFun (vsum l) := by
  have : ∀ (l : List (Fin 7 → XR)) z, RealFun z → (∀ v ∈ l, RealFun v) →
      RealFun (l.foldl vadd z) := by
    intro l
    induction l with
    | nil => intro z hz _; exact hz
    | cons a l ih =>
      intro z hz h
      exact ih _ (realFun_vadd hz (h a (by simp))) fun v hv => h v (by simp [hv])
  exact this l _ (fun _ => isReal_zero) hl

theorem vsum_map {l : List (Fin 7 → XR)} (hl : ∀ v ∈ l, RealFun v) :
    vsum (l.map S.onVec) = S.onVec (vsum l) := by
  have : ∀ (l : List (Fin 7 → XR)) z, RealFun z → (∀ v ∈ l, RealFun v) →
      (l.map S.onVec).foldl vadd (S.onVec z) = S.onVec (l.foldl vadd z) := by
    intro l
    induction l with
    | nil => intro z _ _; rfl
    | cons a l ih =>
      intro z hz h
      have ha := h a (by simp)
      simp only [List.map_cons, List.foldl_cons]
      rw [← S.vec_add z a hz ha]
      exact ih _ (realFun_vadd hz ha) fun v hv => h v (by simp [hv])
  have := this l _ (fun _ => isReal_zero) hl
  rwa [S.vec_zero] at this

theorem combination {c : Fin 4 → XR} (hc : ∀ i, IsReal (c i)) {K : Fin 4 → Fin 7 → XR}
    (hK : ∀ i, RealFun (K i)) :
    vsum ((List.finRange 4).map fun j => vscale (c j) (S.onVec (K j))) =
      S.onVec (vsum ((List.finRange 4).map fun j => vscale (c j) (K j))) ∧
    RealFun (vsum ((List.finRange 4).map fun j => vscale (c j) (K j))) := by
  have hr : ∀ v ∈ (List.finRange 4).map fun j => vscale (c j) (K j), RealFun v := by
    intro v hv
    obtain ⟨j, -, rfl⟩ := List.mem_map.1 hv
    exact realFun_vscale (hc j) (hK j)
  refine ⟨?_, vsum_real hr⟩
  rw [← S.vsum_map hr, List.map_map]
  congr 1
  apply List.map_congr_left
  intro j _
  exact (S.vec_scale _ _ (hc j) (hK j)).symm

theorem rk4_map (hx : RealFun x) (hy : RealFun y) (hh : IsReal h)
    (hfg : ∀ x y, RealFun x → RealFun y → g x (S.onVec y) = (f x y).map S.onVec)
    (hf : ∀ x y v, RealFun x → RealFun y → f x y = .ok v → RealFun v) :
    RK4.step g x (S.onVec y) h = (RK4.step f x y h).map fun r => (r.1, S.onVec r.2) := by
  have hst : ∀ (K : Fin 4 → Fin 7 → XR) i, (∀ j, RealFun (K j)) →
      RK4.stage g x (S.onVec y) h (fun j => S.onVec (K j)) i =
        (RK4.stage f x y h K i).map (fun K j => S.onVec (K j)) ∧
      ∀ K', RK4.stage f x y h K i = .ok K' → ∀ j, RealFun (K' j) := by
    intro K i hK
    obtain ⟨e, hr⟩ := S.combination (c := fun j => RK4.a i j) (fun j => ⟨_, rk4_a i j⟩) hK
    have hyr := realFun_vadd hy hr
    have hxr : RealFun (addScalar x (RK4.c i * h)) := fun j => isReal_add (hx j) (isReal_mul ⟨_, rk4_c i⟩ hh)
    unfold RungeKutta.stage
    rw [e, ← S.vec_add _ _ hy hr, hfg _ _ hxr hyr]
    cases hv : f (addScalar x (RK4.c i * h))
      (vadd y (vsum ((List.finRange 4).map fun j => vscale (RK4.a i j) (K j)))) with
    | error e => exact ⟨rfl, fun K' h => by cases h⟩
    | ok v =>
      have hvr := hf _ _ _ hxr hyr hv
      simp only [Except.map, bind, Except.bind]
      constructor
      · congr 1
        funext j
        unfold setCol
        split
        · exact (S.vec_scale _ _ hh hvr).symm
        · rfl
      · intro K' hK'
        injection hK' with hK'
        subst hK'
        intro j
        unfold setCol
        split
        · exact realFun_vscale hh hvr
        · exact hK j
  have hfold : ∀ (l : List (Fin 4)) (K : Fin 4 → Fin 7 → XR), (∀ j, RealFun (K j)) →
      l.foldlM (RK4.stage g x (S.onVec y) h) (fun j => S.onVec (K j)) =
        (l.foldlM (RK4.stage f x y h) K).map (fun K j => S.onVec (K j)) ∧
      ∀ K', l.foldlM (RK4.stage f x y h) K = .ok K' → ∀ j, RealFun (K' j) := by
    intro l
    induction l with
    | nil =>
      intro K hK
      refine ⟨rfl, fun K' h => ?_⟩
      injection h with h
      rwa [← h]
    | cons i l ih =>
      intro K hK
      rw [List.foldlM_cons, List.foldlM_cons]
      obtain ⟨h1, h2⟩ := hst K i hK
      rw [h1]
      cases hs : RK4.stage f x y h K i with
      | error e => exact ⟨rfl, fun K' h => by cases h⟩
      | ok K' =>
        simp only [Except.map, bind, Except.bind] at ih ⊢
        exact ih K' (h2 K' hs)
  unfold RungeKutta.step
  obtain ⟨h0, h0'⟩ := hfold (List.finRange 4) (fun _ _ => 0) fun _ _ => isReal_zero
  rw [S.vec_zero] at h0
  rw [h0]
  cases hK : (List.finRange 4).foldlM (RK4.stage f x y h) (fun _ _ => 0) with
  | error e => rfl
  | ok K =>
    simp only [Except.map, bind, Except.bind]
    obtain ⟨e, hr⟩ := S.combination (c := fun j => RK4.b j) (fun j => ⟨_, rk4_b j⟩) (h0' K hK)
    rw [e, ← S.vec_add _ _ hy hr]

end rk

/-- a Runge-Kutta step with a function that sometimes fails where another one does not -/
theorem _root_.Post.RungeKutta.step_or_error {F : Type} [Flt F] {R dX dY : ℕ} (rk : RungeKutta F R)
    {f g : (Fin dX → F) → (Fin dY → F) → Except Panic (Fin dY → F)} {e : Panic}
    (hfg : ∀ x y, g x y = f x y ∨ g x y = .error e) (x : Fin dX → F) (y : Fin dY → F) (h : F) :
    rk.step g x y h = rk.step f x y h ∨ rk.step g x y h = .error e := by
  have hst : ∀ K i, rk.stage g x y h K i = rk.stage f x y h K i ∨
      rk.stage g x y h K i = .error e := by
    intro K i
    unfold RungeKutta.stage
    rcases hfg (addScalar x (rk.c i * h))
      (vadd y (vsum ((List.finRange R).map fun j => vscale (rk.a i j) (K j)))) with h | h
    · left; rw [h]
    · right; rw [h]; rfl
  have hfold : ∀ (l : List (Fin R)) K, l.foldlM (rk.stage g x y h) K = l.foldlM (rk.stage f x y h) K ∨
      l.foldlM (rk.stage g x y h) K = .error e := by
    intro l
    induction l with
    | nil => intro K; exact .inl rfl
    | cons i l ih =>
      intro K
      rw [List.foldlM_cons, List.foldlM_cons]
      rcases hst K i with h1 | h1
      · rw [h1]
        cases rk.stage f x y h K i with
        | error e' => exact .inl rfl
        | ok K' => exact ih K'
      · rw [h1]; exact .inr rfl
  unfold RungeKutta.step
  rcases hfold (List.finRange R) (fun _ _ => 0) with h1 | h1
  · left; rw [h1]
  · right; rw [h1]; rfl

theorem _root_.Post.Integrator.step_or_error {F : Type} [Flt F] (i : Integrator)
    {f g : State F → Except Panic (State F)} {e : Panic}
    (hfg : ∀ x, g x = f x ∨ g x = .error e) (s : State F) (h : F) :
    i.step g s h = i.step f s h ∨ i.step g s h = .error e := by
  cases i
  unfold Integrator.step
  have hc : ∀ x y, convertedFunc g x y = convertedFunc f x y ∨ convertedFunc g x y = .error e := by
    intro x y
    unfold convertedFunc
    rcases hfg (State.fromVec x y) with h | h
    · left; rw [h]
    · right; rw [h]; rfl
  rcases RK4.step_or_error hc (vec2 s.time s.timeSinceEvent) s.toPrimaryVec h with h1 | h1
  · simp only [h1]
    cases RK4.step (convertedFunc f) (vec2 s.time s.timeSinceEvent) s.toPrimaryVec h with
    | error e' => exact .inl rfl
    | ok r => exact hfg _
  · simp only [h1]; exact .inr rfl

/-- a function that commutes with the symmetry makes steps that do -/
theorem integrate {i : Integrator} {f g : State XR → Except Panic (State XR)}
    (hfg : ∀ x, x.Reals → g (S.onState x) = (f x).map S.onState)
    (hf : ∀ x x', x.Reals → f x = .ok x' → x'.Reals) (hs : s.Reals) {h : XR} (hh : IsReal h) :
    i.step g (S.onState s) h = (i.step f s h).map S.onState := by
  cases i
  have hx0 : RealFun (vec2 s.time s.timeSinceEvent) := by
    intro i
    fin_cases i
    · exact hs.time
    · exact hs.timeSinceEvent
  have hf' : ∀ x y v, RealFun x → RealFun y → convertedFunc f x y = .ok v → RealFun v := by
    intro x y v hx hy hv
    unfold convertedFunc at hv
    cases hgx : f (State.fromVec x y) with
    | error e => simp [hgx, bind, Except.bind] at hv
    | ok d =>
      simp only [hgx, bind, Except.bind, pure, Except.pure] at hv
      injection hv with hv
      rw [← hv]
      exact toDifferentials_real (hf _ _ (fromVec_real hx hy) hgx)
  have hfg' : ∀ x y, RealFun x → RealFun y →
      convertedFunc g x (S.onVec y) = (convertedFunc f x y).map S.onVec := by
    intro x y hx hy
    unfold convertedFunc
    rw [S.fromVec x y hy, hfg _ (fromVec_real hx hy)]
    cases hd : f (State.fromVec x y) with
    | error e => rfl
    | ok d =>
      simp only [Except.map, bind, Except.bind, pure, Except.pure]
      rw [S.differentials d (hf _ _ (fromVec_real hx hy) hd)]
  have hstep := S.rk4_map hx0 (toPrimaryVec_real hs) hh hfg' hf'
  unfold Integrator.step
  simp only [S.primary s hs, (S.times s).1, (S.times s).2]
  rw [hstep]
  cases hr : RK4.step (convertedFunc f) (vec2 s.time s.timeSinceEvent) s.toPrimaryVec h with
  | error e => rfl
  | ok r =>
    obtain ⟨x', y'⟩ := r
    obtain ⟨h1, h2⟩ := rk4_real hf' hx0 (toPrimaryVec_real hs) hh hr
    simp only [Except.map, bind, Except.bind]
    rw [S.fromVec _ _ h2, hfg _ (fromVec_real h1 h2)]
    rfl

/-- a regular step commutes with the symmetry -/
theorem oneStep (hg : S.Good p) (hp : RealPhase p) (hv : SteersByRealVariables p) (hs : s.Reals)
    {h : XR} (hh : IsReal h) (hr : StepRegular p s h) :
    p.integrator.step (S.onPhase p).system (S.onState s) h =
      (p.integrator.step p.system s h).map S.onState := by
  classical
  have key : ∀ e, p.integrator.step (S.onPhase p).system (S.onState s) h =
      (p.integrator.step p.system s h).map S.onState ∨
      (p.integrator.step p.system s h).map S.onState = .error e := by
    intro e
    let f : State XR → Except Panic (State XR) := fun x =>
      if Regular p.planet x then p.system x else .error e
    let g : State XR → Except Panic (State XR) := fun y =>
      if ∃ x, x.Reals ∧ Regular p.planet x ∧ y = S.onState x then (S.onPhase p).system y else .error e
    have hf : p.integrator.step f s h = p.integrator.step p.system s h := hr f fun x hx => if_pos hx
    have hgf : p.integrator.step g (S.onState s) h = (p.integrator.step f s h).map S.onState := by
      refine S.integrate (fun x hx => ?_) (fun x x' hx hfx => ?_) hs hh
      · by_cases hreg : Regular p.planet x
        · simp only [f, g, if_pos hreg]
          rw [if_pos ⟨x, hx, hreg, rfl⟩]
          exact S.system p x hg hp hv hx hreg
        · simp only [f, g, if_neg hreg]
          rw [if_neg]
          · rfl
          · rintro ⟨x', hx', hreg', e⟩
            rw [S.inj x x' hx hx' e] at hreg
            exact hreg hreg'
      · by_cases hreg : Regular p.planet x
        · simp only [f, if_pos hreg] at hfx
          rcases C71_system hp hv (State.reals_iff.1 hx) hreg with ⟨d, h1, h2, -⟩ | ⟨h1, -⟩
          · rw [h1] at hfx; injection hfx with hfx; rw [← hfx]; exact State.reals_iff.2 h2
          · rw [h1] at hfx; cases hfx
        · simp only [f, if_neg hreg] at hfx; cases hfx
    rw [hf] at hgf
    rcases Integrator.step_or_error p.integrator (f := (S.onPhase p).system) (g := g) (e := e)
      (fun x => by by_cases hx : ∃ x', x'.Reals ∧ Regular p.planet x' ∧ x = S.onState x'
                   · exact .inl (if_pos hx)
                   · exact .inr (if_neg hx)) (S.onState s) h with h1 | h1
    · left; rw [← h1, hgf]
    · right; rw [← hgf, h1]
  rcases key .underflow with h1 | h1
  · exact h1
  · rcases key .missingInit with h2 | h2
    · exact h2
    · rw [h1] at h2; cases h2

/-! ## Phases -/

theorem phase_step (hg : S.Good p) (hp : RealPhase p) (hv : SteersByRealVariables p)
    (hs : p.state.Reals) (hh : p.ended = false → IsReal p.stepsize ∧ StepRegular p p.state p.stepsize) :
    (S.onPhase p).step = p.step.map S.onPhase ∧
      ∀ p', p.step = .ok p' → S.Good p' ∧ RealPhase p' ∧ SteersByRealVariables p' ∧ p'.state.Reals := by
  obtain ⟨c1, c2, c3, c4, c5⟩ := S.control p
  have hupd := S.update p
  by_cases he : p.ended = true
  · have e1 : p.step = .error .alreadyEnded := by unfold Phase.step; rw [if_pos he]
    have e2 : (S.onPhase p).step = .error .alreadyEnded := by
      unfold Phase.step; rw [if_pos (c2.trans he)]
    rw [e1, e2]
    exact ⟨rfl, fun p' h => by cases h⟩
  · have he' : p.ended = false := by simpa using he
    obtain ⟨hh, hr⟩ := hh he'
    have hone := S.oneStep hg hp hv hs hh hr
    constructor
    · unfold Phase.step
      rw [c2, if_neg he, if_neg he, S.state, c1, c4, hone]
      cases hst : p.integrator.step p.system p.state p.stepsize with
      | error e => rfl
      | ok s =>
        have hsr : s.Reals := State.reals_iff.2 (C71_step hp hv (State.reals_iff.1 hs) hh hr hst).1
        have hcv := S.crit p s hg hsr
        have hcv0 := S.crit p p.state hg hs
        have hm : (S.onPhase p).criterionMet (S.onState s) = p.criterionMet s := by
          unfold Phase.criterionMet; rw [hcv, c5]
        have ha : (S.onPhase p).eventIsActive (S.onState p.state) (S.onState s) =
            p.eventIsActive p.state s := by
          unfold Phase.eventIsActive; rw [hcv, hcv0, c5]
        have ht : (S.onPhase p).timeToGo (S.onState p.state) (S.onState s) = p.timeToGo p.state s := by
          unfold Phase.timeToGo; rw [hcv, hcv0, c5, c1]
        simp only [Except.map, bind, Except.bind, hm, ha, ht, c3]
        have u1 := hupd s p.stepsize p.endCriterionTries true
        have u2 := hupd p.state (p.timeToGo p.state s) (p.endCriterionTries + 1) p.ended
        have u3 := hupd s p.stepsize p.endCriterionTries p.ended
        split
        · simp only
          show _ = Except.ok (S.onPhase (p.put s p.stepsize p.endCriterionTries true))
          rw [u1, ← c1, ← c3]
          rfl
        · split
          · split
            · rfl
            · simp only
              show _ = Except.ok (S.onPhase (p.put p.state (p.timeToGo p.state s)
                (p.endCriterionTries + 1) p.ended))
              rw [u2, ← c2, ← S.state]
              rfl
          · simp only
            show _ = Except.ok (S.onPhase (p.put s p.stepsize p.endCriterionTries p.ended))
            rw [u3, ← c1, ← c2, ← c3]
            rfl
    · intro p' hp'
      have hsame := Phase.step_sameParams hp'
      have hgood : S.Good p' := by
        obtain ⟨_, s, hs', h | h | h⟩ := Phase.step_ok hp'
        · rw [h.2]; exact S.good_update p s p.stepsize p.endCriterionTries true hg
        · rw [h.2.2.2]; exact S.good_update p p.state _ _ p.ended hg
        · rw [h.2.2]; exact S.good_update p s p.stepsize p.endCriterionTries p.ended hg
      refine ⟨hgood, RealPhase.of_same hsame hp, SteersByRealVariables.of_same hsame hv, ?_⟩
      obtain ⟨_, s, hs', h | h | h⟩ := Phase.step_ok hp'
      · rw [h.2]; exact State.reals_iff.2 (C71_step hp hv (State.reals_iff.1 hs) hh hr hs').1
      · rw [h.2.2.2]; exact hs
      · rw [h.2.2]; exact State.reals_iff.2 (C71_step hp hv (State.reals_iff.1 hs) hh hr hs').1

/-- the outcome of a phase, transformed -/
def onRun (o : RunOut XR) : RunOut XR := ⟨o.rows.map S.onRow, o.result.map S.onPhase⟩

/-- the outcome of a simulation, transformed -/
def onEntry : LogEntry XR → LogEntry XR
  | .startingPhase i => .startingPhase i
  | .row r => .row (S.onRow r)

/-- the outcome of a simulation, transformed -/
def onOut (o : SimOut XR) : SimOut XR := ⟨o.log.map S.onEntry, o.result.map S.onState⟩

theorem loop (fuel : ℕ) (hg : S.Good p) (hp : RealPhase p) (hv : SteersByRealVariables p)
    (hs : p.state.Reals) (hreg : ∀ ps q, Path p ps q → q.ended = false →
      IsReal q.stepsize ∧ StepRegular q q.state q.stepsize) :
    Phase.loop fuel (S.onPhase p) = (Phase.loop fuel p).map S.onRun ∧
      ∀ rows q, Phase.loop fuel p = some ⟨rows, .ok q⟩ → S.Good q := by
  induction fuel generalizing p with
  | zero =>
    unfold Phase.loop
    rw [(S.control p).2.1]
    split
    · refine ⟨rfl, fun rows q h => ?_⟩
      injection h with h; injection h with _ h; injection h with h; subst h; exact hg
    · exact ⟨rfl, fun rows q h => by cases h⟩
  | succ fuel ih =>
    unfold Phase.loop
    rw [(S.control p).2.1]
    split
    · refine ⟨rfl, fun rows q h => ?_⟩
      injection h with h; injection h with _ h; injection h with h; subst h; exact hg
    · rename_i he
      have he' : p.ended = false := by simpa using he
      obtain ⟨h1, h2⟩ := S.phase_step hg hp hv hs (hreg [] p (.nil p))
      simp only [h1]
      cases hst : p.step with
      | error e =>
        refine ⟨rfl, fun rows q h => ?_⟩
        injection h with h; injection h with _ h; cases h
      | ok p' =>
        obtain ⟨g1, g2, g3, g4⟩ := h2 p' hst
        obtain ⟨i1, i2⟩ := ih g1 g2 g3 g4 fun ps q hpath hq =>
          hreg (p' :: ps) q (.cons he' hst hpath) hq
        simp only [Except.map]
        rw [i1]
        constructor
        · cases Phase.loop fuel p' with
          | none => rfl
          | some o =>
            simp only [Option.map, onRun, List.map_cons]
            rw [S.state, S.row]
        · intro rows q h
          cases hl : Phase.loop fuel p' with
          | none => rw [hl] at h; cases h
          | some o =>
            rw [hl] at h
            obtain ⟨rows', res⟩ := o
            simp only [Option.map] at h
            injection h with h
            injection h with _ h
            subst h
            exact i2 rows' q hl

theorem run (fuel : ℕ) (hg : S.Good p) (hp : RealPhase p) (hs : p.state.Reals)
    (hf : FliesRegularly p) :
    Phase.run fuel (S.onPhase p) = (Phase.run fuel p).map S.onRun ∧
      ∀ rows q, Phase.run fuel p = some ⟨rows, .ok q⟩ → S.Good q := by
  obtain ⟨hv, hr, hreg⟩ := hf
  unfold Phase.run
  rw [S.state, S.system p p.state hg hp hv hs hr]
  rcases C71_system hp hv (State.reals_iff.1 hs) hr with ⟨d, h1, h2, -⟩ | ⟨h1, -⟩
  · rw [h1]
    simp only [Except.map]
    have hu := S.update p d p.stepsize p.endCriterionTries p.ended
    have hc := S.control p
    have e : ({ S.onPhase p with state := S.onState d } : Phase XR) =
        S.onPhase { p with state := d } := by
      show _ = S.onPhase (p.put d p.stepsize p.endCriterionTries p.ended)
      rw [hu, ← hc.1, ← hc.2.1, ← hc.2.2.1]
      rfl
    rw [e]
    exact S.loop fuel (S.good_update p d p.stepsize p.endCriterionTries p.ended hg)
      ⟨hp.1, hp.2, hp.3, hp.4, hp.5, hp.6, hp.7, hp.8, hp.9, hp.10, hp.11⟩ hv (State.reals_iff.2 h2)
      fun ps q hpath hq => hreg d ps q h1 hpath hq
  · rw [h1]
    refine ⟨rfl, fun rows q h => ?_⟩
    injection h with h; injection h with _ h; cases h

/-! ## Simulations -/

theorem sim_loop (fuel : ℕ) (cs : List (PhaseConfig XR)) (hc : ∀ c ∈ cs, RealConfig c ∧ S.GoodConfig c)
    (i : ℕ) (prev : Option (Phase XR))
    (hprev : ∀ q, prev = some q → S.Good q ∧ RealPhase q ∧ AllReal q.state) (p : Phase XR)
    {p' : Phase XR} (hp' : p'.state = S.onState p.state)
    {done : List (PhaseConfig XR)} {log0 : List (LogEntry XR)} (hdone : Sequence 0 none done log0 prev)
    (hf : ∀ mid c rest p, cs = mid ++ c :: rest → Ready (done ++ mid) c p → FliesRegularly p) :
    Simulation.loop fuel i (prev.map S.onPhase) p' (cs.map S.onConfig) =
      (Simulation.loop fuel i prev p cs).map S.onOut := by
  induction cs generalizing i prev p p' done log0 with
  | nil =>
    simp only [List.map_nil, Simulation.loop, Option.map, onOut, Except.map, hp']
  | cons c cs ih =>
    obtain ⟨hrc, hgc⟩ := hc c List.mem_cons_self
    have hc' : ∀ c ∈ cs, RealConfig c ∧ S.GoodConfig c := fun c h => hc c (List.mem_cons_of_mem _ h)
    rw [List.map_cons]
    unfold Simulation.loop
    obtain ⟨hnew, hgood⟩ := S.new prev c hprev hrc hgc
    rw [hnew]
    cases hn : Phase.new prev c with
    | error e => rfl
    | ok q =>
      obtain ⟨hq, hqr⟩ := hgood q hn
      obtain ⟨hr1, hr2⟩ := C71_new (fun q h => (hprev q h).2) hrc hn
      have hfly := hf [] c cs q.reset rfl ⟨log0, prev, q, by simpa using hdone, hn, rfl⟩
      simp only [Except.map, S.reset q hqr]
      obtain ⟨hrun, hrung⟩ := S.run fuel hq hr1 (State.reals_iff.2 hr2) hfly
      rw [hrun]
      cases hr : Phase.run fuel q.reset with
      | none => rfl
      | some o =>
        obtain ⟨rows, res⟩ := o
        have hmap : ∀ rows : List (Row XR), (rows.map S.onRow).map LogEntry.row =
            (rows.map LogEntry.row).map S.onEntry := by
          intro rows
          rw [List.map_map, List.map_map]
          rfl
        cases res with
        | error e =>
          simp only [Option.map, onRun, Except.map, hmap, onOut, List.map_cons]
          rfl
        | ok r =>
          obtain ⟨-, hrr⟩ := run_real hr1 hr2 hfly hr
          obtain ⟨log1, hdone1⟩ := sequence_snoc hdone (c := c) ⟨q, hn, fuel, hr⟩
          simp only [Option.map_some, onRun, Except.map]
          have := ih hc' (i + 1) (some r) (by
              intro q' hq'
              injection hq' with hq'
              subst hq'
              exact ⟨hrung rows r hr, hrr r rfl⟩) r (p' := S.onPhase r) (S.state r) hdone1
            (fun mid c' rest p' e hr => hf (c :: mid) c' rest p' (by simp [e]) (by simpa using hr))
          simp only [Option.map_some] at this
          rw [this]
          cases Simulation.loop fuel (i + 1) (some r) r cs with
          | none => rfl
          | some o =>
            simp only [Option.map_some, hmap, onOut, List.map_cons, List.map_append,
              List.cons_append]
            rfl

/-- A symmetry of the equations of motion is a symmetry of whole simulations. -/
theorem simulation {cs : List (PhaseConfig XR)} (hc : ∀ c ∈ cs, RealConfig c ∧ S.GoodConfig c)
    (hf : ∀ done c rest p, cs = done ++ c :: rest → Ready done c p → FliesRegularly p) (fuel : ℕ) :
    Simulation.run fuel (cs.map S.onConfig) = (Simulation.run fuel cs).map S.onOut := by
  unfold Simulation.run
  exact S.sim_loop fuel cs hc 0 none (by simp) Phase.default (p' := Phase.default)
    (by rw [show (Phase.default : Phase XR).state = State.default from rfl, S.start]) (.nil 0 none)
    (fun mid c rest p e hr => hf mid c rest p e (by simpa using hr))

end Symmetry
end Post
