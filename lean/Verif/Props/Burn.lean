import Verif.Lemmas.Linear
import Verif.Props.Ascent
/-! # Burning until a mass or propellant target is reached (C64), exact arithmetic -/

namespace Post
open Spec Flt

/-- The end criterion `v = T` asks for the total mass `M`: either the variable is the mass, or it
is the propellant mass and the structure has mass `ms`. -/
def Spec.AsksForMass (v : StateVariable) (T ms M : ℝ) : Prop :=
  (v = .mass ∧ M = T) ∨ (v = .propellantMass ∧ M = ms + T)

/-- The state after burning for `x` seconds at full throttle, from the mass `m0` at time `t0`,
with the consumption `C` per second and the structure mass `ms`. -/
structure Spec.Burnt (m0 ms t0 C x : ℝ) (s : State XR) : Prop where
  mass : s.mass = .fin (m0 - C * x)
  propellantMass : s.propellantMass = .fin (m0 - C * x - ms)
  time : s.time = .fin (t0 + x)
  throttle : s.throttle = .fin 1

/-- The run of `p` fails with `e` within the first `τ` seconds of the burn: at the very start, or
in an integration step of at most `h` seconds from a visited state. -/
def Spec.FailsBurning (p : Phase XR) (m0 ms t0 C τ h : ℝ) (e : Panic) : Prop :=
  p.system p.state = .error e ∨
  ∃ s x η, Visited p s ∧ Burnt m0 ms t0 C x s ∧ 0 ≤ x ∧ x ≤ τ ∧ 0 ≤ η ∧ η ≤ h ∧
    p.integrator.step p.system s (.fin η) = .error e

theorem burnt_of_system {p : Phase XR} (hlim : p.maxAcceleration = Flt.inf) {m0 ms t0 C x : ℝ}
    (hms : p.vehicle.structureMass = .fin ms) {s s' : State XR} (h : p.system s = .ok s')
    (hm : s'.mass = .fin (m0 - C * x)) (hpos : 0 < m0 - C * x) (ht : s'.time = .fin (t0 + x)) :
    Burnt m0 ms t0 C x s' where
  mass := hm
  propellantMass := by
    rw [(system_consistent h).propellantMass, hm, hms, XR.fin_sub]
  time := ht
  throttle := by
    have hprim := Phase.system_primary h
    exact system_unlimited_throttle hlim h (by rw [← hprim.2.2.2.2]; exact hm) hpos

theorem burn_linear {p : Phase XR} {es : List RealEngine} (hE : HasEngines p.vehicle es)
    (hr : Realistic es) (hlim : p.maxAcceleration = Flt.inf) {ms m0 t0 T M h : ℝ}
    (hms : p.vehicle.structureMass = .fin ms) {v : StateVariable} (hv : AsksForMass v T ms M)
    (hC : 0 < fullConsumption es) (hleft : h * fullConsumption es < M) :
    Linear p v (T + (m0 - M)) (-fullConsumption es) h ((m0 - M) / fullConsumption es)
      (fun s x => Burnt m0 ms t0 (fullConsumption es) x s) where
  value := by
    intro s x hs
    rcases hv with ⟨rfl, rfl⟩ | ⟨rfl, rfl⟩
    · show s.mass = _
      rw [hs.mass]; congr 1; ring
    · show s.propellantMass = _
      rw [hs.propellantMass]; congr 1; ring
  step := by
    intro s s' x η hs hx0 hx hη0 hη hstep
    have hx' : fullConsumption es * x ≤ m0 - M := by
      rw [le_div_iff₀ hC] at hx; linarith
    have hη' : η * fullConsumption es ≤ h * fullConsumption es :=
      mul_le_mul_of_nonneg_right hη hC.le
    have h0 : 0 ≤ η * fullConsumption es := mul_nonneg hη0 hC.le
    have hlin := C35_linear hE hr hlim hs.mass (by linarith) (by linarith) hstep
    obtain ⟨⟨s1, h1⟩, ht, _⟩ := oneStep_system hstep
    refine burnt_of_system hlim hms h1 ?_ ?_ ?_
    · rw [hlin]; congr 1; ring
    · linarith
    · rw [ht, hs.time, XR.fin_add]; congr 1; ring

/-- C64.  Take a phase without acceleration limit whose engines consume `C > 0` kg per second at
full throttle, and whose end criterion asks for the mass `M`, or for the propellant mass that goes
with it, not above the mass `m0` at the start; enough mass is left for one more step.  Whatever
the planet, atmosphere, attitude and tables, the phase terminates after at most
`⌈(m0 - M) / (C h)⌉` (at least 1) regular steps and one discarded step.  It ends with exactly the
requested mass after exactly `(m0 - M) / C` seconds, or after a whole number of regular steps with
a mass within 1e-3 of it, unless the equations of motion fail on the way.  It burns at full
throttle all the time, and no row shows a mass more than 1e-3 below the target. -/
theorem C64_burn_to_target {p : Phase XR} {es : List RealEngine} (hE : HasEngines p.vehicle es)
    (hr : Realistic es) (hlim : p.maxAcceleration = Flt.inf) {v : StateVariable}
    {T ms m0 t0 M h : ℝ} (hms : p.vehicle.structureMass = .fin ms) (hv : AsksForMass v T ms M)
    (hc : p.endCriterion = (v, .fin T)) (hm : p.state.mass = .fin m0)
    (ht0 : p.state.time = .fin t0) (hM : M ≤ m0) (hC : 0 < fullConsumption es)
    (hleft : h * fullConsumption es < M) (hst : p.stepsize = .fin h) (hh : 0 < h)
    (he : p.ended = false) (ht : p.endCriterionTries = 0) :
    ∃ fuel rows res, p.run fuel = some ⟨rows, res⟩ ∧
      rows.length ≤ max ⌈(m0 - M) / (fullConsumption es * h)⌉₊ 1 + 1 ∧
      ((∃ q x, res = .ok q ∧ Burnt m0 ms t0 (fullConsumption es) x q.state ∧
          (x = (m0 - M) / fullConsumption es ∨
            (|m0 - fullConsumption es * x - M| < 1e-3 ∧ ∃ k : ℕ, x = k * h))) ∨
        ∃ e, res = .error e ∧
          FailsBurning p m0 ms t0 (fullConsumption es) ((m0 - M) / fullConsumption es) h e) ∧
      ∀ row ∈ rows, ∃ s x, row = s.row ∧ Visited p s ∧
        Burnt m0 ms t0 (fullConsumption es) x s ∧ 0 ≤ x ∧
        M - 1e-3 < m0 - fullConsumption es * x := by
  set C := fullConsumption es with hCdef
  set τ := (m0 - M) / C with hτ
  have hτ0 : 0 ≤ τ := div_nonneg (by linarith) hC.le
  have hCτ : C * τ = m0 - M := by rw [hτ]; field_simp
  have hhC : 0 < h * C := mul_pos hh hC
  cases h0 : p.system p.state with
  | error e =>
    exact ⟨0, [], .error e, by simp [Phase.run, h0], by simp, .inr ⟨e, rfl, .inl h0⟩, by simp⟩
  | ok s0 =>
    have hprim := Phase.system_primary h0
    have hg0 : Burnt m0 ms t0 C 0 s0 :=
      burnt_of_system hlim hms h0 (by rw [hprim.2.2.2.2, hm]; simp) (by linarith)
        (by rw [hprim.1, ht0]; simp)
    have hlin := burn_linear (m0 := m0) (t0 := t0) (M := M) (h := h) hE hr hlim hms hv hC hleft
    have hcrit : p.endCriterion = (v, .fin (T + (m0 - M) + -C * τ)) := by
      rw [hc, show T + (m0 - M) + -C * τ = T by linarith]
    obtain ⟨n, hn⟩ : ∃ n, max ⌈(m0 - M) / (C * h)⌉₊ 1 = n + 1 :=
      ⟨max ⌈(m0 - M) / (C * h)⌉₊ 1 - 1, by
        have := le_max_right ⌈(m0 - M) / (C * h)⌉₊ 1; omega⟩
    have hb : τ - 0 ≤ ((n : ℕ) + 1 : ℝ) * h := by
      have h1 : (m0 - M) / (C * h) ≤ (⌈(m0 - M) / (C * h)⌉₊ : ℝ) := Nat.le_ceil _
      have h2 : ((⌈(m0 - M) / (C * h)⌉₊ : ℕ) : ℝ) ≤ ((n + 1 : ℕ) : ℝ) := by
        rw [← hn]; exact_mod_cast le_max_left _ _
      have h3 : τ / h ≤ (n : ℝ) + 1 := by
        rw [hτ, div_div]; push_cast at h2; linarith
      rwa [div_le_iff₀ hh, ← sub_zero τ] at h3
    obtain ⟨ps, q, d, res, h1, h2, h3, h4, h5, hgood, h6⟩ := linear_loop hlin (by linarith) hh hcrit n
      (r := { p with state := s0 }) (x := 0) ⟨rfl, rfl, rfl, rfl, rfl, rfl, rfl, rfl, rfl⟩ he ht
      hst hg0 ⟨0, by simp⟩ hτ0 hb
    have hrun : ∃ fuel, p.run fuel = some ⟨ps.map (·.state.row), res⟩ := by
      rcases h6 with ⟨hq, rfl⟩ | ⟨hq, e, hqs, rfl⟩
      · exact ⟨ps.length, by simp only [Phase.run, h0]; exact Phase.loop_of_path h1 hq (le_refl _)⟩
      · exact ⟨ps.length + 1, by
          simp only [Phase.run, h0]; exact Phase.loop_of_path_error h1 hq hqs (by omega)⟩
    obtain ⟨fuel, hrun⟩ := hrun
    have hvis : ∀ r ∈ ps, Visited p r.state := fun r hr => ⟨s0, ps, q, h0, h1, .inr ⟨r, hr, rfl⟩⟩
    refine ⟨fuel, _, res, hrun, by rw [hn]; simp; omega, ?_, ?_⟩
    · rcases h5 with ⟨hq, _, x, hx, hx'⟩ | ⟨e, x, η, rfl, h7, h8, h9, h10, h11, h12⟩
      · refine .inl ⟨q, x, hq, hx, ?_⟩
        rcases hx' with h | ⟨h, hk⟩
        · exact .inl h
        · refine .inr ⟨?_, hk⟩
          rw [show m0 - C * x - M = -C * (x - τ) by linear_combination -hCτ]
          exact h
      · refine .inr ⟨e, rfl, .inr ⟨q.state, x, η, ⟨s0, ps, q, h0, h1, ?_⟩, h7, h8, h9, h10, h11, h12⟩⟩
        rcases path_last h1 with ⟨h, _⟩ | h
        · exact .inl (by rw [h])
        · exact .inr ⟨q, h, rfl⟩
    · intro row hrow
      obtain ⟨r', hr', rfl⟩ := List.mem_map.1 hrow
      obtain ⟨x, hx, hx0, hx1⟩ := hgood r' hr'
      refine ⟨r'.state, x, rfl, hvis r' hr', hx, hx0, ?_⟩
      rw [abs_neg, abs_of_pos hC] at hx1
      have : C * x < C * (τ + 1e-3 / C) := mul_lt_mul_of_pos_left hx1 hC
      have e : C * (τ + 1e-3 / C) = m0 - M + 1e-3 := by
        rw [mul_add, hCτ, mul_div_cancel₀ _ hC.ne']
      linarith

/-- C64 (vacuum).  Without atmosphere nothing can fail: the phase always ends normally. -/
theorem C64_vacuum {p : Phase XR} {es : List RealEngine} (hE : HasEngines p.vehicle es)
    (hr : Realistic es) (hlim : p.maxAcceleration = Flt.inf)
    (hvac : p.atmosphere.model = .noAtmosphere) (htab : p.vehicle.TablesOk) {v : StateVariable}
    {T ms m0 t0 M h : ℝ} (hms : p.vehicle.structureMass = .fin ms) (hv : AsksForMass v T ms M)
    (hc : p.endCriterion = (v, .fin T)) (hm : p.state.mass = .fin m0)
    (ht0 : p.state.time = .fin t0) (hM : M ≤ m0) (hC : 0 < fullConsumption es)
    (hleft : h * fullConsumption es < M) (hst : p.stepsize = .fin h) (hh : 0 < h)
    (he : p.ended = false) (ht : p.endCriterionTries = 0) :
    ∃ fuel rows q x, p.run fuel = some ⟨rows, .ok q⟩ ∧
      Burnt m0 ms t0 (fullConsumption es) x q.state ∧
      (x = (m0 - M) / fullConsumption es ∨
        (|m0 - fullConsumption es * x - M| < 1e-3 ∧ ∃ k : ℕ, x = k * h)) := by
  obtain ⟨fuel, rows, res, h1, _, h2, _⟩ := C64_burn_to_target hE hr hlim hms hv hc hm ht0 hM hC
    hleft hst hh he ht
  have hhC : 0 < h * fullConsumption es := mul_pos hh hC
  rcases h2 with ⟨q, x, rfl, h3, h4⟩ | ⟨e, rfl, h3⟩
  · exact ⟨fuel, rows, q, x, h1, h3, h4⟩
  · exfalso
    rcases h3 with h3 | ⟨s, x, η, _, h4, h5, h6, h7, h8, h9⟩
    · obtain ⟨d, hd, _⟩ := vacuum_system hE hr hlim hvac htab hm (by linarith)
      rw [hd] at h3; cases h3
    · rw [le_div_iff₀ hC] at h6
      have hη' : η * fullConsumption es ≤ h * fullConsumption es :=
        mul_le_mul_of_nonneg_right h8 hC.le
      obtain ⟨s', hs', _⟩ := vacuum_step hE hr hlim hvac htab (h := η) h4.mass (by linarith)
        (by linarith)
      unfold OneStep at hs'
      rw [hs'] at h9; cases h9

/-- A simulation of one phase: 1000 kg structure, 10.5 kg propellant, until it is used up. -/
noncomputable def exampleBurnOut : PhaseConfig XR :=
  { exampleLaunch with
    vehicle := some { structureMass := some (.fin 1000), propellantMass := some (.fin 10.5),
                      referenceArea := none, dragCoeff := none, liftCoeff := none,
                      sideForceCoeff := none, engines := some [exampleEngine.toEngine] }
    endCriterion := some (.propellantMass, .fin 0) }

/-- The hypotheses are met: this simulation burns for exactly 10.5 seconds. -/
example : ∃ log s, Simulation.Terminates [exampleBurnOut] ⟨log, .ok s⟩ ∧
    s.propellantMass = .fin 0 ∧ s.time = .fin 10.5 := by
  let i : InitConfig XR := ⟨.fin 45, .fin 10, .fin 90, .fin 0⟩
  let p : Phase XR := ((Phase.default.applyConfig exampleBurnOut).init i).reset
  have hnew : Phase.new none exampleBurnOut =
    .ok ((Phase.default.applyConfig exampleBurnOut).init i) := rfl
  have hE : HasEngines p.vehicle [exampleEngine] := rfl
  have hm : p.state.mass = .fin (1000 + 10.5) := rfl
  have hcons := exampleEngine_consumption
  obtain ⟨fuel, rows, q, x, h1, h2, h3⟩ := C64_vacuum (p := p) (t0 := 0) (h := 1) (T := 0)
    (ms := 1000) (M := 1000) hE exampleEngine_realistic rfl rfl
    ⟨default_wellFormed, default_wellFormed, default_wellFormed⟩ rfl (.inr ⟨rfl, by norm_num⟩) rfl
    hm XR.fin_zero (by norm_num) (by rw [hcons]; norm_num) (by rw [hcons]; norm_num) XR.fin_one
    one_pos rfl rfl
  rw [hcons] at h2 h3
  have hx : x = 10.5 := by
    rcases h3 with h | ⟨h, k, rfl⟩
    · rw [h]; norm_num
    · exfalso
      have h1 := abs_lt.1 h
      have h2 : (k : ℝ) < 11 := by
        have a := h1.1; have b := h1.2; norm_num at a b; linarith
      have h3 : (10 : ℝ) < k := by
        have a := h1.1; have b := h1.2; norm_num at a b; linarith
      have h4 : k < 11 := by exact_mod_cast h2
      have h5 : 10 < k := by exact_mod_cast h3
      omega
  subst hx
  refine ⟨_, q.state, C53_terminates_ok_iff.2 ⟨some q, .cons ⟨_, hnew, fuel, h1⟩ (.nil _ _), rfl⟩,
    ?_, ?_⟩
  · rw [h2.propellantMass]; congr 1; norm_num
  · rw [h2.time]; congr 1; norm_num

end Post
