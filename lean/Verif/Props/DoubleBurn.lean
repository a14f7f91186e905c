import Verif.Lemmas.BurnF64
import Verif.Props.Accuracy
/-! # Powered phases in vacuum in double precision (C86) -/

namespace Post
open Spec Flt F64
variable {L : Libm}

/-- The equations of motion in vacuum without acceleration limit. -/
theorem vacuum_unlimited (hL : TrigLibrary L) {p : Phase (F64 L)} {es : List RealEngine} (hp : VacuumBurn p es)
    (hA : p.maxAcceleration = Flt.inf) (s : State (F64 L)) {m : ℝ} (hm : Reads s.mass m) (hm0 : 0 < m) :
    ∃ d, p.system s = .ok d ∧ d.throttle = 1 := by
  obtain ⟨aero, ha⟩ := Vehicle.aeroForce_ok hp.tables (p.systemPre s)
  obtain ⟨zx, zy, zz⟩ := aeroForce_zero hp.vacuum ha
  have hpr : (p.systemPre s).pressure = 0 := by
    show p.atmosphere.pressure _ = 0
    unfold Atmosphere.pressure
    rw [hp.vacuum]
  have hz : rnorm ⟨0, 0, 0⟩ = 0 := by simp [rnorm]
  obtain ⟨T, hT, hT1, hT2⟩ := hp.thrust
  exact C85_no_limit hL hA hm hm0 ha (f := ⟨0, 0, 0⟩)
    ⟨⟨0, zx.is, by norm_num⟩, ⟨0, zy.is, by norm_num⟩, ⟨0, zz.is, by norm_num⟩⟩ (.inl hz)
    (by rw [hz]; norm_num) (by rw [hpr]; exact hT) hT1 hT2

theorem engines_realistic {es : List (Engine (F64 L))} {Es : List RealEngine} (h : List.Forall₂ EngineDouble es Es) :
    RealisticF64 es := by
  intro e he
  obtain ⟨i, hi, rfl⟩ := List.getElem_of_mem he
  have h2 := List.forall₂_iff_get.1 h
  have h3 := h2.2 i hi (by rw [← h2.1]; exact hi)
  obtain ⟨t, ht, ht'⟩ := h3.thrust
  obtain ⟨j, hj, hj'⟩ := h3.isp
  refine ⟨t, j, ht, ?_, hj, ?_⟩
  · have := h3.thrust_nonneg
    rw [← ht'] at this
    exact_mod_cast this
  · have := h3.isp_ge
    rw [← hj'] at this
    have : (1 : ℚ) ≤ j := by exact_mod_cast this
    linarith

theorem reads_le {x y : F64 L} {a b : ℝ} (hx : Reads x a) (hy : Reads y b) (h : AtMost x y) : a ≤ b := by
  obtain ⟨p, hp, rfl⟩ := hx
  obtain ⟨q, hq, rfl⟩ := hy
  rw [atMost_iff] at h
  obtain ⟨s, u, h1, h2, _⟩ := hp
  obtain ⟨t, w, h3, h4, _⟩ := hq
  rw [h1, h3] at h
  have h : Dbl.val s u ≤ Dbl.val t w := h
  rw [h2, h4] at h
  exact_mod_cast h

/-- Steps of one second in vacuum. -/
theorem burn_states {p : Phase (F64 L)} {Es : List RealEngine} (hE : List.Forall₂ EngineDouble p.vehicle.engines Es)
    (hlen : Es.length ≤ 100) (hQ : fullConsumption Es ≤ 1e5) {G : ℝ → Prop}
    (hsys : ∀ (s : State (F64 L)) (m : ℝ), Reads s.mass m → 9e-4 ≤ m → m ≤ 1.1e9 →
      ∃ d κ, p.system s = .ok d ∧ Reads d.throttle κ ∧ 0 ≤ κ ∧ κ ≤ 1 ∧ G κ)
    {h : F64 L} (hh : Reads h 1) (hd : h.dbl.IsDouble) {s0 : State (F64 L)} {m0 : ℝ} (hm : Reads s0.mass m0)
    (hmd : s0.mass.dbl.IsDouble) (hm1 : 1 ≤ m0) (hm2 : m0 ≤ 1e9) {n : ℕ} (hn : n ≤ 10 ^ 6)
    (hleft : 1e-3 * m0 ≤ m0 - n * fullConsumption Es) :
    ∃ s : ℕ → State (F64 L), s 0 = s0 ∧ (∀ k < n, OneStep p h (s k) (s (k + 1))) ∧
      ∀ k ≤ n, ∃ μ, Reads (s k).mass μ ∧ μ ≤ m0 ∧
        m0 - k * fullConsumption Es - k * (1e-12 * fullConsumption Es + 2e-16 * m0) ≤ μ ∧
        ((∀ κ, G κ → κ = 1) → |μ - (m0 - k * fullConsumption Es)| ≤
          k * (1e-12 * fullConsumption Es + 2e-16 * m0)) := by
  obtain ⟨hQ0, _⟩ := flow_near hE hlen hQ
  set Q := fullConsumption Es with hQd
  have hn' : (n : ℝ) ≤ 1e6 := by
    have : (n : ℝ) ≤ ((10 ^ 6 : ℕ) : ℝ) := by exact_mod_cast hn
    refine this.trans (by norm_num)
  have hnδ : (n : ℝ) * (1e-12 * Q + 2e-16 * m0) ≤ 1e-9 * m0 := by
    have h1 : (n : ℝ) * (2e-16 * m0) ≤ 1e6 * (2e-16 * m0) := by gcongr
    have h2 : (n : ℝ) * (1e-12 * Q) = 1e-12 * (n * Q) := by ring
    rw [mul_add, h2]
    norm_num at h1 hleft ⊢
    linarith
  have key : ∀ j ≤ n, ∃ s : ℕ → State (F64 L), s 0 = s0 ∧ (∀ k < j, OneStep p h (s k) (s (k + 1))) ∧
      ∀ k ≤ j, (s k).mass.dbl.IsDouble ∧ ∃ μ, Reads (s k).mass μ ∧ μ ≤ m0 ∧
        m0 - k * Q - k * (1e-12 * Q + 2e-16 * m0) ≤ μ ∧
        ((∀ κ, G κ → κ = 1) → |μ - (m0 - k * Q)| ≤ k * (1e-12 * Q + 2e-16 * m0)) := by
    intro j
    induction j with
    | zero =>
      intro _
      refine ⟨fun _ => s0, rfl, by simp, fun k hk => ⟨hmd, m0, hm, le_rfl, ?_, fun _ => ?_⟩⟩
      · obtain rfl : k = 0 := by omega
        simp
      · obtain rfl : k = 0 := by omega
        simp
    | succ j ih =>
      intro hj
      obtain ⟨s, e0, e1, e2⟩ := ih (by omega)
      obtain ⟨d1, μ, a1, a2, a3, a4⟩ := e2 j le_rfl
      have hjn : ((j : ℝ) + 1) ≤ n := by exact_mod_cast hj
      have b1 : ((j : ℝ) + 1) * Q ≤ n * Q := by gcongr
      have b2 : ((j : ℝ) + 1) * (1e-12 * Q + 2e-16 * m0) ≤ n * (1e-12 * Q + 2e-16 * m0) := by gcongr
      have hlo : 9e-4 + Q + (1e-12 * Q + 2e-16 * m0) ≤ μ := by
        rw [add_mul, one_mul] at b1 b2
        norm_num at *
        linarith
      obtain ⟨s', κ1, κ2, κ3, κ4, c1, c2, c3, c4, c5, c6⟩ := burn_step hE hlen hQ hsys hh a1
        (by norm_num at hlo hQ0; linarith) a2 hm1 hm2 hlo
      obtain ⟨w, f1, f2⟩ := c6
      have hle := reads_le ⟨w, f1, rfl⟩ a1 (C69_step (engines_realistic hE) (is_notNeg (q := 1) (by
        obtain ⟨q, hq, hq'⟩ := hh
        obtain rfl : q = 1 := by exact_mod_cast hq'
        exact hq) zero_le_one) hd d1 c1)
      rw [abs_le] at f2
      refine ⟨fun k => if k ≤ j then s k else s', by simpa using e0, ?_, ?_⟩
      · intro k hk
        by_cases hkj : k < j
        · simpa [hkj.le, Nat.succ_le_of_lt hkj] using e1 k hkj
        · obtain rfl : k = j := by omega
          simpa using c1
      · intro k hk
        by_cases hkj : k ≤ j
        · simpa [hkj] using e2 k hkj
        · obtain rfl : k = j + 1 := by omega
          simp only [hkj, if_false]
          refine ⟨oneStep_isDouble c1, w, ⟨w, f1, rfl⟩, hle.trans a2, ?_, ?_⟩
          · have g : (κ1 + 2 * κ2 + 2 * κ3 + κ4) / 6 * Q ≤ Q := by
              refine mul_le_of_le_one_left hQ0 ?_
              linarith [c2.2.1, c3.2.1, c4.2.1, c5.2.1]
            push_cast
            rw [add_mul, add_mul, one_mul, one_mul]
            linarith
          · intro hG
            have h4 := a4 hG
            rw [abs_le] at h4
            rw [hG _ c2.2.2, hG _ c3.2.2, hG _ c4.2.2, hG _ c5.2.2] at f2
            push_cast
            rw [add_mul, add_mul, one_mul, one_mul, abs_le]
            norm_num at f2 h4 ⊢
            constructor <;> linarith
  obtain ⟨s, e0, e1, e2⟩ := key n le_rfl
  exact ⟨s, e0, e1, fun k hk => (e2 k hk).2⟩

/-- States after the steps of one second make up a run. -/
theorem run_of_seconds {p : Phase (F64 L)} {n : ℕ} (hn1 : 1 ≤ n) (hn : n ≤ 10 ^ 6) {T : F64 L}
    (hc : p.endCriterion = (.timeSinceEvent, T)) (hT : Reads T n) (hst : Reads p.stepsize 1)
    (he : p.ended = false) (h0 : Reads p.state.timeSinceEvent 0) {s : ℕ → State (F64 L)}
    (hs : p.system p.state = .ok (s 0)) (hstep : ∀ k < n, OneStep p p.stepsize (s k) (s (k + 1))) :
    (∀ k ≤ n, Reads (s k).timeSinceEvent k) ∧ ∃ fuel q,
      p.run fuel = some ⟨(List.range n).map fun k => (s (k + 1)).row, .ok q⟩ ∧ q.state = s n := by
  obtain ⟨g1, g2, g3, g4, g5⟩ := Phase.system_primary hs
  have hone : ∀ k < n, (s (k + 1)).timeSinceEvent = (s k).timeSinceEvent + p.stepsize :=
    fun k hk => isTime_step (v := .timeSinceEvent) (.inr rfl) (hstep k hk)
  obtain ⟨q1, hq1, hq1'⟩ := hst
  obtain rfl : q1 = ((1 : ℕ) : ℚ) := by exact_mod_cast hq1'
  obtain ⟨qT, hqT, hqT'⟩ := hT
  obtain rfl : qT = (n : ℚ) := by exact_mod_cast hqT'
  have htime : ∀ k ≤ n, (StateVariable.getValue .timeSinceEvent (s k)).Is (k : ℚ) := by
    intro k
    induction k with
    | zero =>
      intro _
      show ((s 0).timeSinceEvent).Is _
      obtain ⟨q0, h1, h2⟩ := h0
      obtain rfl : q0 = 0 := by exact_mod_cast h2
      rw [g2]
      exact_mod_cast h1
    | succ k ih =>
      intro hk
      show ((s (k + 1)).timeSinceEvent).Is _
      rw [hone k (by omega)]
      exact is_add_nat (ih (by omega)) hq1 (by omega)
  refine ⟨fun k hk => ⟨_, htime k hk, by norm_cast⟩, ?_⟩
  obtain ⟨n, rfl⟩ : ∃ j, n = j + 1 := ⟨n - 1, by omega⟩
  obtain ⟨fuel, q, h1, h2⟩ := run_of_steps (p := p) (s := s) (n := n) he hs
    (fun k hk => hstep k hk)
    (fun k hk => by
      have h3 : (k : ℚ) + 1 ≤ n := by exact_mod_cast hk
      have h4 : (n : ℚ) + 1 ≤ 10 ^ 6 := by exact_mod_cast hn
      have h0 : (0 : ℚ) ≤ k := by positivity
      rw [hc]
      constructor
      · intro hmet
        have h5 := close_of_met (htime (k + 1) (by omega)) hqT (by
          push_cast
          rw [abs_of_nonpos (by linarith)]
          norm_num
          linarith) hmet
        push_cast at h5
        rw [abs_of_nonpos (by linarith)] at h5
        norm_num at h5
        linarith
      · rw [overshot_is (htime k (by omega)) (htime (k + 1) (by omega)) hqT]
        push_cast
        rintro (⟨h4, _⟩ | ⟨_, h4⟩) <;> linarith)
    (by
      rw [hc]
      refine met_of_close (htime (n + 1) le_rfl) hqT ?_
      norm_num)
  exact ⟨fuel, q, h1, h2⟩

/-- A whole powered phase in vacuum. -/
theorem burn_run {p : Phase (F64 L)} {es : List RealEngine} (hE : List.Forall₂ EngineDouble p.vehicle.engines es)
    (hlen : es.length ≤ 100) (hQ : fullConsumption es ≤ 1e5) {n : ℕ} {m0 ms : ℝ} (hn : SecondsLeft p n)
    (hm : Reads p.state.mass m0) (hd : p.state.mass.dbl.IsDouble) (hms : Reads p.vehicle.structureMass ms)
    (hms0 : 0 ≤ ms) (hms1 : ms ≤ 1.5 * m0) (hm1 : 1 ≤ m0) (hm2 : m0 ≤ 1e9)
    (hleft : 1e-3 * m0 ≤ m0 - n * fullConsumption es) {G : ℝ → Prop}
    (hsys : ∀ (s : State (F64 L)) (m : ℝ), Reads s.mass m → 9e-4 ≤ m → m ≤ 1.1e9 →
      ∃ d κ, p.system s = .ok d ∧ Reads d.throttle κ ∧ 0 ≤ κ ∧ κ ≤ 1 ∧ G κ) :
    ∃ (s : ℕ → State (F64 L)) (fuel : ℕ) (q : Phase (F64 L)),
      p.run fuel = some ⟨(List.range n).map fun k => (s (k + 1)).row, .ok q⟩ ∧ q.state = s n ∧
      ∀ k ≤ n, Reads (s k).timeSinceEvent k ∧ (∃ st, p.system st = .ok (s k)) ∧
        ∃ μ, Reads (s k).mass μ ∧ 9e-4 ≤ μ ∧ μ ≤ m0 ∧
        m0 - k * fullConsumption es - k * (1e-12 * fullConsumption es + 2e-16 * m0) ≤ μ ∧
        ((∀ κ, G κ → κ = 1) → |μ - (m0 - k * fullConsumption es)| ≤
          k * (1e-12 * fullConsumption es + 2e-16 * m0)) ∧
        ∃ w, Reads (s k).propellantMass w ∧ |w - (μ - ms)| ≤ 2e-16 * m0 := by
  obtain ⟨hQ0, _⟩ := flow_near hE hlen hQ
  set Q := fullConsumption es with hQd
  have hn0 : (0 : ℝ) ≤ n := by positivity
  have hnQ : 0 ≤ n * Q := by positivity
  obtain ⟨s0, κ0, hs0, _⟩ := hsys p.state m0 hm (by norm_num at hm1 ⊢; linarith) (by norm_num at hm2 ⊢; linarith)
  obtain ⟨g1, g2, g3, g4, g5⟩ := Phase.system_primary hs0
  obtain ⟨T, hc, hT⟩ := hn.criterion
  have hhd : p.stepsize.dbl.IsDouble := by
    obtain ⟨q, ⟨sg, a, e1, e2, e3⟩, e4⟩ := hn.step
    have e5 : q = 1 := by exact_mod_cast e4
    rw [e1]
    subst e5
    have ha : a = 1 := by
      have := Dbl.val_abs sg e3
      rw [e2] at this
      simpa using this.symm
    subst ha
    exact ⟨1, 0, by norm_num, by norm_num, by norm_num, by norm_num⟩
  obtain ⟨s, e0, e1, e2⟩ := burn_states hE hlen hQ hsys hn.step hhd (s0 := s0)
    (by rw [g5]; exact hm) (by rw [g5]; exact hd) hm1 hm2 hn.few hleft
  obtain ⟨t1, fuel, q, t2, t3⟩ := run_of_seconds hn.some_left hn.few hc hT hn.step hn.notEnded hn.start
    (by rw [e0]; exact hs0) e1
  refine ⟨s, fuel, q, t2, t3, fun k hk => ⟨t1 k hk, ?_, ?_⟩⟩
  · cases k with
    | zero => exact ⟨p.state, by rw [e0]; exact hs0⟩
    | succ k =>
      obtain ⟨y, _, hy⟩ := Integrator.step_ok (e1 k hk)
      exact ⟨_, hy⟩
  · obtain ⟨μ, a1, a2, a3, a4⟩ := e2 k hk
    have hst : ∃ st, p.system st = .ok (s k) := by
      cases k with
      | zero => exact ⟨p.state, by rw [e0]; exact hs0⟩
      | succ k =>
        obtain ⟨y, _, hy⟩ := Integrator.step_ok (e1 k hk)
        exact ⟨_, hy⟩
    obtain ⟨st, hst⟩ := hst
    have hkn : (k : ℝ) ≤ n := by exact_mod_cast hk
    have hn' : (n : ℝ) ≤ 1e6 := by
      have : (n : ℝ) ≤ ((10 ^ 6 : ℕ) : ℝ) := by exact_mod_cast hn.few
      refine this.trans (by norm_num)
    have b1 : (k : ℝ) * Q ≤ n * Q := by gcongr
    have b2 : (k : ℝ) * (2e-16 * m0) ≤ 1e6 * (2e-16 * m0) := by
      gcongr
      exact hkn.trans hn'
    have hμ : 9e-4 ≤ μ := by
      rw [mul_add, show (k : ℝ) * (1e-12 * Q) = 1e-12 * (k * Q) by ring] at a3
      norm_num at *
      linarith
    refine ⟨μ, a1, hμ, a2, a3, a4, ?_⟩
    have hpm := (system_consistent hst).propellantMass
    rw [hpm]
    obtain ⟨w, w1, w2⟩ := (reads_near.1 a1).sub (reads_near.1 hms) (M := 1.5 * m0) (e := 2e-16 * m0) (by
      norm_num at hms1 hm1 ⊢
      rw [abs_le]
      constructor <;> linarith) (by norm_num at hm1 ⊢; linarith) (by norm_num at hm2 ⊢; linarith)
    exact ⟨w, ⟨w, w1, rfl⟩, w2⟩

/-- C86 (full thrust).  In double precision, a phase in vacuum without acceleration limit that lasts `n` seconds
always reaches its end after exactly `n` rows, whatever its attitude and trajectory are.  The engines run at full
thrust all the time, the time is exact, after `k` seconds the mass is that of `k` seconds of consumption up to a
relative error of 1e-12 of the consumption and 2e-16 of the mass per second, and the propellant printed is the
mass without the structure up to the last digit. -/
theorem C86_full_thrust (hL : TrigLibrary L) {p : Phase (F64 L)} {es : List RealEngine} (hp : VacuumBurn p es)
    {n : ℕ} {m ms : ℝ} (hn : SecondsLeft p n) (hf : Fuelled p es n m ms) (hA : p.maxAcceleration = Flt.inf) :
    ∃ (s : ℕ → State (F64 L)) (fuel : ℕ) (q : Phase (F64 L)),
      p.run fuel = some ⟨(List.range n).map fun k => (s (k + 1)).row, .ok q⟩ ∧ q.state = s n ∧
      ∀ k ≤ n, Reads (s k).timeSinceEvent k ∧ (s k).throttle = 1 ∧ ∃ μ w, Reads (s k).mass μ ∧
        |μ - (m - k * fullConsumption es)| ≤ k * (1e-12 * fullConsumption es + 2e-16 * m) ∧
        Reads (s k).propellantMass w ∧ |w - (μ - ms)| ≤ 2e-16 * m := by
  obtain ⟨s, fuel, q, h1, h2, h3⟩ := burn_run hp.engines hp.few hp.consumption hn hf.mass hf.double hf.structureMass
    hf.structure_nonneg (by have := hf.structure_le; have := hf.mass_ge; norm_num at *; linarith) hf.mass_ge hf.mass_le
    hf.left (G := fun κ => κ = 1) (fun s m hm hlo _ => by
    obtain ⟨d, d1, d2⟩ := vacuum_unlimited hL hp hA s hm (by norm_num at hlo; linarith)
    exact ⟨d, 1, d1, ⟨1, by rw [d2]; exact is_one, by norm_num⟩, zero_le_one, le_rfl, rfl⟩)
  refine ⟨s, fuel, q, h1, h2, fun k hk => ?_⟩
  obtain ⟨a1, ⟨st, hst⟩, μ, a3, a4, a5, a6, a7, w, a8, a9⟩ := h3 k hk
  refine ⟨a1, ?_, μ, w, a3, a7 (fun _ h => h), a8, a9⟩
  obtain ⟨d, d1, d2⟩ := vacuum_unlimited hL hp hA st (m := μ) (by
    rw [← (Phase.system_primary hst).2.2.2.2]; exact a3) (by norm_num at a4; linarith)
  rw [hst] at d1
  injection d1 with d1
  rw [d1, d2]

/-- C86 (acceleration limit).  In double precision, a phase in vacuum with the acceleration limit `A` that lasts
`n` seconds always reaches its end after exactly `n` rows.  In the state of each second the sensed acceleration is
at most 1.0001 times the limit, and at least 0.99 times the limit unless the engines run at full thrust; and the
mass lies between that of full consumption (up to rounding) and the mass at the beginning. -/
theorem C86_limited (hL : TrigLibrary L) {p : Phase (F64 L)} {es : List RealEngine} (hp : VacuumBurn p es)
    {n : ℕ} {m ms A : ℝ} (hn : SecondsLeft p n) (hf : Fuelled p es n m ms) (hA : Reads p.maxAcceleration A)
    (hA1 : 1e-6 ≤ A) (hA2 : A ≤ 1e10) :
    ∃ (s : ℕ → State (F64 L)) (fuel : ℕ) (q : Phase (F64 L)),
      p.run fuel = some ⟨(List.range n).map fun k => (s (k + 1)).row, .ok q⟩ ∧ q.state = s n ∧
      ∀ k ≤ n, Reads (s k).timeSinceEvent k ∧
        (∃ κ acc, Reads (s k).throttle κ ∧ 0 ≤ κ ∧ κ ≤ 1 ∧ ReadsV (s k).vehicleAccelerationBody acc ∧
          rnorm acc ≤ 1.0001 * A ∧ (κ = 1 ∨ 0.99 * A ≤ rnorm acc)) ∧
        ∃ μ w, Reads (s k).mass μ ∧ μ ≤ m ∧
          m - k * fullConsumption es - k * (1e-12 * fullConsumption es + 2e-16 * m) ≤ μ ∧
          Reads (s k).propellantMass w ∧ |w - (μ - ms)| ≤ 2e-16 * m := by
  obtain ⟨T, hT, hT1, hT2⟩ := hp.thrust
  have hsys : ∀ (s : State (F64 L)) (m : ℝ), Reads s.mass m → 9e-4 ≤ m → m ≤ 1.1e9 →
      ∃ d k acc, p.system s = .ok d ∧ Reads d.throttle k ∧ 0 ≤ k ∧ k ≤ 1 ∧
      ReadsV d.vehicleAccelerationBody acc ∧ rnorm acc ≤ 1.0001 * A ∧ (k = 1 ∨ 0.99 * A ≤ rnorm acc) :=
    fun s m hm h1 h2 => C85_vacuum hL s hp.vacuum hp.tables hA hA1 hA2 hm (by norm_num at h1 ⊢; linarith)
      (by norm_num at h2 ⊢; linarith) hT hT1 hT2
  obtain ⟨s, fuel, q, h1, h2, h3⟩ := burn_run hp.engines hp.few hp.consumption hn hf.mass hf.double hf.structureMass
    hf.structure_nonneg (by have := hf.structure_le; have := hf.mass_ge; norm_num at *; linarith) hf.mass_ge hf.mass_le
    hf.left (G := fun _ => True) (fun s m hm h1 h2 => by
    obtain ⟨d, k, acc, d1, d2, d3, d4, _⟩ := hsys s m hm h1 h2
    exact ⟨d, k, d1, d2, d3, d4, trivial⟩)
  refine ⟨s, fuel, q, h1, h2, fun k hk => ?_⟩
  obtain ⟨a1, ⟨st, hst⟩, μ, a3, a4, a5, a6, a7, w, a8, a9⟩ := h3 k hk
  refine ⟨a1, ?_, μ, w, a3, a5, a6, a8, a9⟩
  obtain ⟨d, κ, acc, d1, d2⟩ := hsys st μ (by rw [← (Phase.system_primary hst).2.2.2.2]; exact a3) a4
    (by have := hf.mass_le; norm_num at this ⊢; linarith)
  rw [hst] at d1
  injection d1 with d1
  rw [d1]
  exact ⟨κ, acc, d2⟩

/-- A phase of a simulation that is about to start and that ends `n` seconds after its event. -/
theorem ready_seconds {cs : List (PhaseConfig (F64 L))} {c : PhaseConfig (F64 L)} {p : Phase (F64 L)}
    (hr : Ready cs c p) {n : ℕ} (h1 : 1 ≤ n) (h2 : n ≤ 10 ^ 6) {T : F64 L}
    (hc : p.endCriterion = (.timeSinceEvent, T)) (hT : Reads T n) : SecondsLeft p n := by
  have hst := C09_initial_stepsize_one_partial hr
  have hbase : p.ended = false ∧ p.state.timeSinceEvent = 0 := by
    obtain ⟨log, prev, p', _, _, rfl⟩ := hr
    exact ⟨rfl, rfl⟩
  exact ⟨hbase.1, by rw [hbase.2]; exact ⟨0, is_zero, by norm_num⟩,
    by rw [hst]; exact ⟨1, is_one, by norm_num⟩, ⟨T, hc, hT⟩, h1, h2⟩

/-- C86 (configured).  Any phase of any simulation, in double precision, that flies in vacuum, ends a whole number
of seconds after its event and has mass left at the end is completed, with one row for each second. -/
theorem C86_configured (hL : TrigLibrary L) {cs : List (PhaseConfig (F64 L))} {c : PhaseConfig (F64 L)}
    {p : Phase (F64 L)} (hr : Ready cs c p) {es : List RealEngine} (hp : VacuumBurn p es)
    {n : ℕ} (hn1 : 1 ≤ n) (hn2 : n ≤ 10 ^ 6) {T : F64 L} (hc : p.endCriterion = (.timeSinceEvent, T)) (hT : Reads T n)
    {m ms : ℝ} (hm : Reads p.state.mass m) (hms : Reads p.vehicle.structureMass ms) (hms0 : 0 ≤ ms) (hms1 : ms ≤ m)
    (hm1 : 1 ≤ m) (hm2 : m ≤ 1e9) (hleft : 1e-3 * m ≤ m - n * fullConsumption es)
    (hA : p.maxAcceleration = Flt.inf ∨ ∃ A, Reads p.maxAcceleration A ∧ 1e-6 ≤ A ∧ A ≤ 1e10) :
    ∃ fuel rows q, p.run fuel = some ⟨rows, .ok q⟩ ∧ rows.length = n ∧ Reads q.state.timeSinceEvent n ∧
      ∃ μ, Reads q.state.mass μ ∧ μ ≤ m + n * (1e-12 * fullConsumption es + 2e-16 * m) ∧
        m - n * fullConsumption es - n * (1e-12 * fullConsumption es + 2e-16 * m) ≤ μ := by
  have hn := ready_seconds hr hn1 hn2 hc hT
  have hf : Fuelled p es n m ms := ⟨hm, (ready_doubles hr).1, hms, hms0, hms1, hm1, hm2, hleft⟩
  have hnn : (0 : ℝ) ≤ n := by positivity
  obtain ⟨hQ0, _⟩ := flow_near hp.engines hp.few hp.consumption
  have hδ : 0 ≤ n * (1e-12 * fullConsumption es + 2e-16 * m) := by positivity
  have hnQ : 0 ≤ n * fullConsumption es := by positivity
  rcases hA with hA | ⟨A, hA, hA1, hA2⟩
  · obtain ⟨s, fuel, q, h1, h2, h3⟩ := C86_full_thrust hL hp hn hf hA
    obtain ⟨a1, a2, μ, w, a3, a4, _⟩ := h3 n le_rfl
    rw [abs_le] at a4
    exact ⟨fuel, _, q, h1, by simp, by rw [h2]; exact a1, μ, by rw [h2]; exact a3, by linarith [a4.2],
      by linarith [a4.1]⟩
  · obtain ⟨s, fuel, q, h1, h2, h3⟩ := C86_limited hL hp hn hf hA hA1 hA2
    obtain ⟨a1, a2, μ, w, a3, a4, a5, _⟩ := h3 n le_rfl
    exact ⟨fuel, _, q, h1, by simp, by rw [h2]; exact a1, μ, by rw [h2]; exact a3, by linarith, a5⟩

/-! ## an example -/

/-- 100 tons, of which 10 tons are structure, and 1000 kN with a specific impulse of 300 s, burning for 100
seconds. -/
def burnPhase (limit : F64 L) : Phase (F64 L) :=
  { Phase.default with
    vehicle := { oneEngine with structureMass := 10000 }
    state := { State.default with mass := 100000 }
    stepsize := 1
    maxAcceleration := limit
    endCriterion := (.timeSinceEvent, 100) }

theorem reads_nat (n : ℕ) (h : n < 2 ^ 53) : Reads (OfNat.ofNat n : F64 L) n := ⟨n, is_nat n h, by norm_num⟩

def realOneEngine : RealEngine := ⟨1000000, 300, 0, 0, 0⟩

theorem burnPhase_vacuum (limit : F64 trigLibm) : VacuumBurn (burnPhase limit) [realOneEngine] where
  vacuum := rfl
  tables := ⟨wellFormed_default, wellFormed_default, wellFormed_default⟩
  engines := by
    have h1 : Reads (1000000 : F64 trigLibm) 1000000 := by simpa using reads_nat (L := trigLibm) 1000000 (by norm_num)
    have h2 : Reads (300 : F64 trigLibm) 300 := by simpa using reads_nat (L := trigLibm) 300 (by norm_num)
    refine List.Forall₂.cons ⟨h1, h2, ?_, ?_, ?_, ?_⟩ .nil <;> norm_num [realOneEngine]
  few := by simp
  consumption := by norm_num [fullConsumption, RealEngine.consumption, realOneEngine]
  thrust := ⟨⟨1000000, 0, 0⟩, oneEngine_thrust, by rw [rnorm_x] <;> norm_num, by rw [rnorm_x] <;> norm_num⟩

theorem burnPhase_seconds (limit : F64 trigLibm) : SecondsLeft (burnPhase limit) 100 where
  notEnded := rfl
  start := ⟨0, is_zero, by norm_num⟩
  step := ⟨1, is_one, by norm_num⟩
  criterion := ⟨100, rfl, reads_nat 100 (by norm_num)⟩
  some_left := by norm_num
  few := by norm_num

theorem burnPhase_fuelled (limit : F64 trigLibm) : Fuelled (burnPhase limit) [realOneEngine] 100 100000 10000 where
  mass := by
    have : Reads (100000 : F64 trigLibm) 100000 := by simpa using reads_nat (L := trigLibm) 100000 (by norm_num)
    exact this
  double := Dbl.round_isDouble _ _
  structureMass := by
    have : Reads (10000 : F64 trigLibm) 10000 := by simpa using reads_nat (L := trigLibm) 10000 (by norm_num)
    exact this
  structure_nonneg := by norm_num
  structure_le := by norm_num
  mass_ge := by norm_num
  mass_le := by norm_num
  left := by norm_num [fullConsumption, RealEngine.consumption, realOneEngine]

/-- After 100 seconds at full thrust 33990.54 kg of the 100 tons are burnt, up to a gram. -/
example : ∃ fuel rows q, (burnPhase (Flt.inf : F64 trigLibm)).run fuel = some ⟨rows, .ok q⟩ ∧ rows.length = 100 ∧
    ∃ μ, Reads q.state.mass μ ∧ |μ - (100000 - 1e8 / 300 / 9.80665)| ≤ 1e-3 := by
  obtain ⟨s, fuel, q, h1, h2, h3⟩ := C86_full_thrust trigLibm_trig (burnPhase_vacuum _) (burnPhase_seconds _)
    (burnPhase_fuelled _) rfl
  obtain ⟨_, _, μ, w, h4, h5, _⟩ := h3 100 le_rfl
  refine ⟨fuel, _, q, h1, by simp, μ, by rw [h2]; exact h4, ?_⟩
  rw [abs_le] at h5 ⊢
  norm_num [fullConsumption, RealEngine.consumption, realOneEngine] at h5 ⊢
  constructor <;> linarith [h5.1, h5.2]

/-- With a limit of 12 m/s² the phase is completed, too, and the acceleration is at most 12.0012 m/s² in the end. -/
example : ∃ fuel rows q acc, (burnPhase (12 : F64 trigLibm)).run fuel = some ⟨rows, .ok q⟩ ∧ rows.length = 100 ∧
    ReadsV q.state.vehicleAccelerationBody acc ∧ rnorm acc ≤ 12.0012 := by
  have h12 : Reads (12 : F64 trigLibm) 12 := by simpa using reads_nat (L := trigLibm) 12 (by norm_num)
  obtain ⟨s, fuel, q, h1, h2, h3⟩ := C86_limited trigLibm_trig (burnPhase_vacuum 12) (burnPhase_seconds 12)
    (burnPhase_fuelled 12) h12 (by norm_num) (by norm_num)
  obtain ⟨_, ⟨κ, acc, _, _, _, h4, h5, _⟩, _⟩ := h3 100 le_rfl
  exact ⟨fuel, _, q, acc, h1, by simp, by rw [h2]; exact h4, by linarith⟩

/-- A stage of 10 tons with 90 tons of propellant and one engine, burning for 100 seconds in vacuum. -/
def exampleVacuum : PhaseConfig (F64 L) :=
  { PhaseConfig.empty with
    init := some ⟨45, 10, 90, 0⟩
    vehicle := some ⟨some 10000, some 90000, none, none, none, none, some [⟨0, 0, 1000000, 300, 0⟩]⟩
    endCriterion := some (.timeSinceEvent, 100) }

/-- The hypotheses of `C86_configured` are met. -/
example : ∃ fuel rows q, ((Phase.default.applyConfig (exampleVacuum (L := trigLibm))).init
    ⟨45, 10, 90, 0⟩).reset.run fuel = some ⟨rows, .ok q⟩ ∧ rows.length = 100 ∧
      ∃ μ, Reads q.state.mass μ ∧ 66000 ≤ μ := by
  have hr : Ready [] (exampleVacuum (L := trigLibm)) ((Phase.default.applyConfig exampleVacuum).init
      ⟨45, 10, 90, 0⟩).reset := ⟨_, none, _, .nil _ _, rfl, rfl⟩
  have h10 : Reads (10000 : F64 trigLibm) 10000 := by simpa using reads_nat (L := trigLibm) 10000 (by norm_num)
  have hmass : Reads (10000 + 90000 : F64 trigLibm) 100000 :=
    ⟨100000, (by
      have h := is_add_nat (m := 10000) (n := 90000) (is_nat (L := trigLibm) 10000 (by norm_num))
        (is_nat (L := trigLibm) 90000 (by norm_num)) (by norm_num)
      norm_num at h
      exact h), by norm_num⟩
  have hp : VacuumBurn ((Phase.default.applyConfig (exampleVacuum (L := trigLibm))).init ⟨45, 10, 90, 0⟩).reset
      [realOneEngine] := by
    obtain ⟨a, b, c, d, e, f⟩ := burnPhase_vacuum (Flt.inf : F64 trigLibm)
    exact ⟨rfl, b, c, d, e, f⟩
  obtain ⟨fuel, rows, q, h1, h2, _, μ, h3, _, h4⟩ := C86_configured trigLibm_trig hr hp (n := 100) (by norm_num)
    (by norm_num) (T := 100) rfl (reads_nat 100 (by norm_num)) (m := 100000) (ms := 10000) hmass h10 (by norm_num)
    (by norm_num) (by norm_num) (by norm_num)
    (by norm_num [fullConsumption, RealEngine.consumption, realOneEngine]) (.inl rfl)
  refine ⟨fuel, rows, q, h1, h2, μ, h3, ?_⟩
  norm_num [fullConsumption, RealEngine.consumption, realOneEngine] at h4
  linarith

end Post
