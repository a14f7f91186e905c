import Verif.Lemmas.PoweredF64
import Verif.Lemmas.TrueFlight
import Verif.Props.DoubleTrack
/-! # Accuracy of a powered flight in vacuum in double precision (C97) -/

set_option exponentiation.threshold 2000

namespace Post
open Spec Flt F64 Kepler
variable {L : Libm}

noncomputable section

/-- the bound of `flight_errorT` for steps of one second near the Earth, with rounding errors -/
theorem rounded_powered_bound {N : ℝ} (k : ℕ) :
    Kepler.bound (1 / 375) 1 N (1 / 375 * (7 * 1.08528e6 * (1 / 60) ^ 5 + 8e-8) + (7 * 10088 * (1 / 60) ^ 5 + 6.4e-8)) k ≤
      N * Real.exp (k / 375) + 0.044 * (Real.exp (k / 375) - 1) := by
  unfold Kepler.bound
  rw [show (1 / 375 * ((k : ℝ) * 1) : ℝ) = k / 375 by ring]
  have h1 : 0 ≤ Real.exp ((k : ℝ) / 375) - 1 := exp_sub_one_nonneg (by positivity)
  have e : (1 / 375 * (7 * 1.08528e6 * (1 / 60) ^ 5 + 8e-8) + (7 * 10088 * (1 / 60) ^ 5 + 6.4e-8)) *
      ((Real.exp ((k : ℝ) / 375) - 1) / (1 / 375 * 1)) =
      ((7 * 1.08528e6 * (1 / 60) ^ 5 + 8e-8) + 375 * (7 * 10088 * (1 / 60) ^ 5 + 6.4e-8)) * (Real.exp ((k : ℝ) / 375) - 1) := by
    field_simp
  rw [e]
  have h2 : ((7 * 1.08528e6 * (1 / 60) ^ 5 + 8e-8) + 375 * (7 * 10088 * (1 / 60) ^ 5 + 6.4e-8) : ℝ) ≤ 0.044 := by norm_num
  have h3 := mul_le_mul_of_nonneg_right h2 h1
  linarith

section
variable {a b μ j2 j3 j4 ω m Q X : ℝ} {gC : Kepler.C3 → Kepler.C3} {P : TurnProgram} {lat long az : ℝ} {F : V3 ℝ}
  {n : ℕ} {r v : ℝ → V3 ℝ}

/-- the bound grows -/
theorem mission_mono {X x y : ℝ} (hX : 0 ≤ X) (h : x ≤ y) :
    X * Real.exp (x / 375) + 16.5 * (Real.exp (x / 375) - 1) ≤ X * Real.exp (y / 375) + 16.5 * (Real.exp (y / 375) - 1) := by
  have h1 : Real.exp (x / 375) ≤ Real.exp (y / 375) := Real.exp_le_exp.2 (by linarith)
  gcongr

/-- Values that follow the integrator up to rounding errors are close to the true flight. -/
theorem powered_close (H : Kepler.Field (field a μ j2 j3 j4) gC 6.4e6 32.12 7.04e-6)
    {AC : ℂ → Kepler.C3} (HA : Kepler.Forcing (fun t => e3 (pushT P lat long az F m Q 0 t)) AC (Set.Icc 0 n) 60 136)
    (hfly : ∀ t ∈ Set.Icc (0 : ℝ) n, PoweredMotion (realPlanet a b μ j2 j3 j4 ω) (P.frame lat long az) F
      (fun t => m - Q * t) r v t)
    (hlo : ∀ t ∈ Set.Icc (0 : ℝ) n, 6.5e6 ≤ rnorm (r t))
    (hvV : ∀ t ∈ Set.Icc (0 : ℝ) n, rnorm (v t) ≤ 8000)
    (hsmall : X * Real.exp (n / 375) + 16.5 * (Real.exp (n / 375) - 1) ≤ 86000) {j : ℕ} (hj : j ≤ n) {Y : ℕ → Fin 7 → ℝ}
    (h0 : rdist (pos7 (Y 0)) (r 0) + 375 * rdist (vel7 (Y 0)) (v 0) ≤ X)
    (hY : ∀ k < j, ‖(proj7 (Y (k + 1))).1 - (RKOrder.rk4 (Kepler.motionT (field a μ j2 j3 j4)
        (fun t => e3 (pushT P lat long az F m Q 0 t))) ((proj7 (Y k)).1, (proj7 (Y k)).2, (k : ℝ)) 1).1‖ ≤ 8e-8 ∧
      ‖(proj7 (Y (k + 1))).2 - (RKOrder.rk4 (Kepler.motionT (field a μ j2 j3 j4)
        (fun t => e3 (pushT P lat long az F m Q 0 t))) ((proj7 (Y k)).1, (proj7 (Y k)).2, (k : ℝ)) 1).2.1‖ ≤ 6.4e-8) :
    rdist (pos7 (Y j)) (r j) + 375 * rdist (vel7 (Y j)) (v j) ≤
      X * Real.exp (j / 375) + 16.5 * (Real.exp (j / 375) - 1) := by
  set A := pushT P lat long az F m Q 0 with hAdef
  have hjn : (j : ℝ) ≤ n := by exact_mod_cast hj
  have hsub : Set.Icc (0 : ℝ) (0 + j * 1) ⊆ Set.Icc 0 n := Set.Icc_subset_Icc le_rfl (by linarith)
  have hstart : ∀ t ∈ Set.Icc (0 : ℝ) n, HasVelocity r (v t) t ∧
      HasVelocity v (radd (A t) (grav a μ j2 j3 j4 (r t))) t := by
    intro t ht
    obtain ⟨g, h1, h2, h3⟩ := hfly t ht
    have hne : r t ≠ ⟨0, 0, 0⟩ := by
      intro h0
      rw [h0] at h1
      exact gravity_centre _ _ _ _ _ _ _ h1
    rw [gravity_grav _ _ _ _ _ _ _ hne] at h1
    rw [V3.fin_inj.1 h1]
    refine ⟨h2, ?_⟩
    have e : A t = rscale (1 / (m - Q * t)) (rmulVecT (P.frame lat long az t) F) := by
      rw [hAdef]
      unfold pushT
      rw [sub_zero]
    rw [e]
    exact h3
  have hX : 0 ≤ X := le_trans (by unfold rdist rnorm; positivity) h0
  have hbd : ∀ i : ℕ, X / 375 * Real.exp (i / 375) + 0.044 * (Real.exp (i / 375) - 1) ≤
      (X * Real.exp (i / 375) + 16.5 * (Real.exp (i / 375) - 1)) / 375 := by
    intro i
    have := exp_sub_one_nonneg (show 0 ≤ (i : ℝ) / 375 by positivity)
    linarith
  have main := Kepler.flight_errorT (z := fun k => proj7 (Y k)) (r := fun t => e3 (r t)) (v := fun t => e3 (v t)) (n := j)
    (t1 := 0) (D := 86000) (N := X / 375) (W := 10088) (T := 60) (V := 8000) (lam := 1 / 375) (d := 1.08528e6)
    (B := 136) (er := 8e-8) (ev := 6.4e-8) (h := 1) H ⟨HA.real, fun t ht => HA.near t (hsub ht)⟩ (by norm_num)
    (by norm_num) (by norm_num) (by norm_num) (by norm_num) (by norm_num) one_pos (by norm_num) (by norm_num) (by norm_num)
    (by norm_num) (by norm_num) (fun t ht => hasDerivAt_e3 (hstart t (hsub ht)).1)
    (fun t ht => by
      rw [field_e3]
      have k := hasDerivAt_e3 (hstart t (hsub ht)).2
      have e : e3 (grav a μ j2 j3 j4 (r t)) + e3 (A t) = e3 (radd (A t) (grav a μ j2 j3 j4 (r t))) := by
        rw [add_comm]
        ext i
        fin_cases i <;> rfl
      rw [e]
      exact k)
    (fun t ht => by
      rw [norm_e3]
      refine le_trans ?_ (hlo t (hsub ht))
      norm_num)
    (fun t ht => by rw [norm_e3]; exact hvV t (hsub ht))
    (by
      show 1 / 375 * ‖e3 (pos7 (Y 0)) - e3 (r 0)‖ + ‖e3 (vel7 (Y 0)) - e3 (v 0)‖ ≤ _
      rw [norm_e3_sub, norm_e3_sub]
      linarith)
    (by
      refine (rounded_powered_bound j).trans ((hbd j).trans ?_)
      have := (mission_mono hX hjn).trans hsmall
      linarith)
    (fun k hk _ _ => by
      have := hY k hk
      simpa only [zero_add, mul_one] using this) j le_rfl
  have h1 := main.trans ((rounded_powered_bound j).trans (hbd j))
  simp only [proj7_apply, norm_e3_sub, zero_add, mul_one] at h1
  linarith

end

/-- What is known of the mass suffices for a further step. -/
theorem burn_margin {m m' Q : ℝ} {n k : ℕ} (hk : k + 1 ≤ n) (hn : n ≤ 3000) (hQ : 0 ≤ Q) (hleft : 1e-3 * m' ≤ m' - n * Q)
    (hmm : |m' - m| ≤ 3e-10 * (m - n * Q)) (hmass : 120 * Q ≤ m - n * Q) (hm : 1 ≤ m') {μ' : ℝ}
    (hμ : |μ' - (m' - k * Q)| ≤ k * (1e-12 * Q + 2e-16 * m')) :
    |μ' - (m - Q * k)| + (1e-12 * Q + 2e-16 * m) ≤ 1e-9 * (m - Q * (k + 1)) ∧ m - n * Q ≤ m - Q * (k + 1) := by
  have hk' : (k : ℝ) + 1 ≤ n := by exact_mod_cast hk
  have hn' : (n : ℝ) ≤ 3000 := by exact_mod_cast hn
  have h1 : m - n * Q ≤ m - Q * (k + 1) := by
    have : ((k : ℝ) + 1) * Q ≤ n * Q := by gcongr
    linarith
  refine ⟨?_, h1⟩
  have h3 := abs_add_le (μ' - (m' - k * Q)) (m' - m)
  rw [show μ' - (m' - k * Q) + (m' - m) = μ' - (m - Q * k) by ring] at h3
  have hm0 : 0 ≤ m' := by linarith
  have h2 : (k : ℝ) * (1e-12 * Q + 2e-16 * m') ≤ 3000 * (1e-12 * Q + 2e-16 * m') := by
    gcongr
    linarith
  rw [abs_le] at hmm
  have h4 := abs_le.2 hmm
  norm_num at h2 hμ hleft hmm h3 h4 ⊢
  linarith

theorem isDouble_one {x : F64 L} (h : Reads x 1) : x.dbl.IsDouble := by
  obtain ⟨q, ⟨sg, a, e1, e2, e3⟩, e4⟩ := h
  have e5 : q = 1 := by exact_mod_cast e4
  rw [e1]
  subst e5
  have ha : a = 1 := by
    have := Dbl.val_abs sg e3
    rw [e2] at this
    simpa using this.symm
  subst ha
  exact ⟨1, 0, by norm_num, by norm_num, by norm_num, by norm_num⟩

/-- The clock during steps of one second. -/
theorem clock_bound {p : Phase (F64 L)} {h : F64 L} (hh : Reads h 1) {s : ℕ → State (F64 L)} {n : ℕ} (hn : n ≤ 3000)
    (hstep : ∀ k < n, OneStep p h (s k) (s (k + 1))) {t0 : ℝ} (h0 : Reads (s 0).time t0) (ht0 : |t0| ≤ 1e8) :
    ∀ k ≤ n, ∃ t, Reads (s k).time t ∧ |t| ≤ |t0| + 2 * k := by
  intro k
  induction k with
  | zero =>
    intro _
    exact ⟨t0, h0, by simp⟩
  | succ k ih =>
    intro hk
    obtain ⟨t, h1, h2⟩ := ih (by omega)
    have hkn : (k : ℝ) ≤ 3000 := by
      have : k ≤ 3000 := by omega
      exact_mod_cast this
    obtain ⟨_, f1, f2⟩ := oneStep_system (hstep k (by omega))
    rw [f1]
    have ht3 : |t| ≤ 3e8 := by
      refine h2.trans ?_
      norm_num at ht0 ⊢
      linarith
    obtain ⟨q, h3, h4⟩ : Near ((s k).time + h) (t + 1) 1 := by
      refine (reads_near.1 h1).add (reads_near.1 hh) (M := 3e8 + 1)
        (abs_add_le' ht3 (by norm_num) le_rfl) ?_ ?_ <;> norm_num
    refine ⟨q, ⟨q, h3, rfl⟩, ?_⟩
    have h5 : |t + 1| ≤ |t| + 1 := (abs_add_le _ _).trans (by norm_num)
    have h6 : |(q : ℝ)| ≤ |t + 1| + 1 := by
      have := abs_sub_abs_le_abs_sub (q : ℝ) (t + 1)
      linarith
    push_cast
    linarith

/-- A powered phase whose mass at the beginning, `m'`, is nearly the true one, `m`. -/
theorem powered_leg (hL : GoodLibrary L) (hF : FrameLibrary L) (hT : TrigLibrary L) {p : Phase (F64 L)} {es : List RealEngine}
    {lat long az : ℝ} {P : TurnProgram} (hp : VacuumFlightDouble p es lat long az P) {E : Planet XR} (hE : SameEarth p.planet E)
    {n : ℕ} {m m' : ℝ} (hn : SecondsLeft p n) (hfm : Reads p.state.mass m') (hfd : p.state.mass.dbl.IsDouble)
    (hm1 : 1 ≤ m') (hfle : m' ≤ 1e9) (hleft : 1e-3 * m' ≤ m' - n * fullConsumption es) (hn' : n ≤ 3000)
    (hturn : |P.rollRate| + |P.yawRate| + |P.pitchRate| ≤ 0.95)
    (hmm : |m' - m| ≤ 3e-10 * (m - n * fullConsumption es))
    (hmass : 120 * fullConsumption es ≤ m - n * fullConsumption es)
    (hthrust : rnorm (fullThrust es 0) ≤ 25 * (m - n * fullConsumption es))
    (hgross : grossThrust es 0 ≤ 1000 * (m - n * fullConsumption es)) {r v : ℝ → V3 ℝ}
    (hfly : ∀ t ∈ Set.Icc (0 : ℝ) n, PoweredMotion E (P.frame lat long az) (fullThrust es 0)
      (fun t => m - fullConsumption es * t) r v t)
    (hlo : ∀ t ∈ Set.Icc (0 : ℝ) n, 6.5e6 ≤ rnorm (r t))
    (hhi : ∀ t ∈ Set.Icc (0 : ℝ) n, rnorm (r t) ≤ 1.9e7)
    (hvV : ∀ t ∈ Set.Icc (0 : ℝ) n, rnorm (v t) ≤ 8000)
    {r0 v0 : V3 ℝ} {t0 X : ℝ} (ht0 : Reads p.state.time t0) (ht0' : |t0| ≤ 1e8)
    (hr : ReadsV p.state.position r0) (hv : ReadsV p.state.velocity v0)
    (h0 : rdist r0 (r 0) + 375 * rdist v0 (v 0) ≤ X)
    (hsmall : X * Real.exp (n / 375) + 16.5 * (Real.exp (n / 375) - 1) ≤ 86000) :
    ∃ (s : ℕ → State (F64 L)) (fuel : ℕ) (q : Phase (F64 L)),
      p.run fuel = some ⟨(List.range n).map fun k => (s (k + 1)).row, .ok q⟩ ∧ q.state = s n ∧
      ∀ k ≤ n, (∃ t, Reads (s k).time t ∧ |t| ≤ |t0| + 2 * k) ∧ ∃ r' v' μ, ReadsAt (s k) k r' v' μ ∧
        |μ - (m' - k * fullConsumption es)| ≤ k * (1e-12 * fullConsumption es + 2e-16 * m') ∧
        rdist r' (r k) + 375 * rdist v' (v k) ≤ X * Real.exp (k / 375) + 16.5 * (Real.exp (k / 375) - 1) := by
  obtain ⟨a, b, g, j2, j3, j4, ω, rfl, hearth, hne⟩ := same_earth hE
  obtain ⟨gC, H⟩ := earth_field hearth
  obtain ⟨hQ0, _⟩ := flow_near hp.burn.engines hp.burn.few hp.burn.consumption
  set Q := fullConsumption es with hQd
  have hX : 0 ≤ X := le_trans (by unfold rdist rnorm; positivity) h0
  have hnQ : 0 ≤ n * Q := by positivity
  have hab := abs_le.1 hmm
  have hMn : 9e-4 ≤ m - n * Q := by norm_num at hm1 hleft hab ⊢; linarith
  have hmlo : 0.9 ≤ m := by norm_num at hm1 hleft hab ⊢; linarith
  have hBm : m' ≤ 1.01 * m := by norm_num at hm1 hleft hab ⊢; linarith
  have hBm2 : m ≤ 1.01 * m' := by norm_num at hm1 hleft hab ⊢; linarith
  have hsys : ∀ (s : State (F64 L)) (m : ℝ), Reads s.mass m → 9e-4 ≤ m → m ≤ 1.1e9 →
      ∃ d κ, p.system s = .ok d ∧ Reads d.throttle κ ∧ 0 ≤ κ ∧ κ ≤ 1 ∧ κ = 1 := fun s m hm hlo _ => by
    obtain ⟨d, d1, d2⟩ := vacuum_unlimited hT hp.burn hp.unlimited s hm (by norm_num at hlo; linarith)
    exact ⟨d, 1, d1, ⟨1, by rw [d2]; exact is_one, by norm_num⟩, zero_le_one, le_rfl, rfl⟩
  obtain ⟨s0, _, hs0, _⟩ := hsys p.state m' hfm (by norm_num at hm1 ⊢; linarith)
    (by have := hfle; norm_num at this ⊢; linarith)
  obtain ⟨g1, g2, g3, g4, g5⟩ := Phase.system_primary hs0
  obtain ⟨T, hc, hTr⟩ := hn.criterion
  obtain ⟨s, e0, e1, e2⟩ := burn_states hp.burn.engines hp.burn.few hp.burn.consumption hsys hn.step (isDouble_one hn.step)
    (s0 := s0) (by rw [g5]; exact hfm) (by rw [g5]; exact hfd) hm1 hfle hn.few hleft
  obtain ⟨t1, fuel, q, t2, t3⟩ := run_of_seconds hn.some_left hn.few hc hTr hn.step hn.notEnded hn.start
    (by rw [e0]; exact hs0) e1
  have htime := clock_bound hn.step hn' e1 (t0 := t0) (by rw [e0, g1]; exact ht0) ht0'
  -- the forcing
  obtain ⟨AC, HA⟩ := push_forcing P lat long az (fullThrust es 0) (m0 := m) (q := Q) (te := 0)
    (te2 := n) (T := 60) (B := 136) (by norm_num) hQ0 (by norm_num at hMn ⊢; linarith) (by linarith)
    (by
      have h1 := exp_turn hturn
      have h2 : 0 ≤ rnorm (fullThrust es 0) := Real.sqrt_nonneg _
      have h3 := mul_le_mul_of_nonneg_right h1 h2
      linarith)
  -- the values
  have hY0 : ∀ i, i ≠ 6 → Near ((s 0).toPrimaryVec i) (join7 r0 v0 i) 0 := by
    have hv := vals_of_readsV (s := s 0) (r := r0) (v := v0) (by rw [e0, g3]; exact hr) (by rw [e0, g4]; exact hv)
      (m := hfm.choose) (by rw [e0, g5]; exact hfm.choose_spec.1) (by rw [e0, g5]; exact hfd)
    exact hv.val
  have build : ∀ j ≤ n, ∃ Y : ℕ → Fin 7 → ℝ, Y 0 = join7 r0 v0 ∧
      (∀ k ≤ j, ∀ i, i ≠ 6 → Near ((s k).toPrimaryVec i) (Y k i) 0) ∧
      ∀ k < j, ‖(proj7 (Y (k + 1))).1 - (RKOrder.rk4 (Kepler.motionT (field a g j2 j3 j4)
        (fun t => e3 (pushT P lat long az (fullThrust es 0) m Q 0 t))) ((proj7 (Y k)).1, (proj7 (Y k)).2, (k : ℝ)) 1).1‖ ≤ 8e-8 ∧
      ‖(proj7 (Y (k + 1))).2 - (RKOrder.rk4 (Kepler.motionT (field a g j2 j3 j4)
        (fun t => e3 (pushT P lat long az (fullThrust es 0) m Q 0 t))) ((proj7 (Y k)).1, (proj7 (Y k)).2, (k : ℝ)) 1).2.1‖ ≤
          6.4e-8 := by
    intro j
    induction j with
    | zero =>
      intro _
      refine ⟨fun _ => join7 r0 v0, rfl, fun k hk => ?_, by simp⟩
      obtain rfl : k = 0 := by omega
      exact hY0
    | succ j ih =>
      intro hj
      obtain ⟨Y, y0, y1, y2⟩ := ih (by omega)
      have hjn : (j : ℝ) + 1 ≤ n := by exact_mod_cast hj
      have hn3 : (n : ℝ) ≤ 3000 := by exact_mod_cast hn'
      have hmem : (j : ℝ) ∈ Set.Icc (0 : ℝ) n := ⟨by positivity, by linarith⟩
      have hcl := (powered_close (j := j) H HA hfly hlo hvV hsmall (by omega) (Y := Y)
        (by rw [y0]; exact h0) y2).trans ((mission_mono hX (show (j : ℝ) ≤ n by linarith)).trans hsmall)
      have hreg : Reg0 (Y j) := by
        have k1 := rnorm_triangle (r j) (pos7 (Y j))
        have k2 := rnorm_triangle (pos7 (Y j)) (r j)
        have k3 := rnorm_triangle (vel7 (Y j)) (v j)
        rw [rdist_comm] at k1
        have l1 := hlo _ hmem
        have l2 := hhi _ hmem
        have l3 := hvV _ hmem
        have p1 : 0 ≤ rdist (pos7 (Y j)) (r j) := by unfold rdist rnorm; positivity
        have p2 : 0 ≤ rdist (vel7 (Y j)) (v j) := by unfold rdist rnorm; positivity
        norm_num at l1 l2 l3
        constructor <;> norm_num <;> linarith
      obtain ⟨t, ht1, ht2⟩ := htime j (by omega)
      obtain ⟨μ', m1, m2, m3, m4⟩ := e2 j (by omega)
      have m5 := m4 (fun _ h => h)
      obtain ⟨b1, b2⟩ := burn_margin hj hn' hQ0 hleft hmm hmass hm1 m5
      obtain ⟨s', hst, Y', hY', hY1, hY2⟩ := powered_step hL hF hT hp hturn hne H hn.step (y1 j le_rfl) m1
        ⟨t, ht1, ht2.trans (by norm_num at ht0' ⊢; linarith)⟩ (t1 j (by omega)) hmem.1 (by linarith) b1 (hMn.trans b2) hmlo
        hfle hBm hBm2 m2 (by linarith) (by linarith) hreg
      have hs' : s' = s (j + 1) := by
        have h1 := e1 j (by omega)
        unfold OneStep at hst h1
        rw [hst] at h1
        injection h1
      refine ⟨fun k => if k ≤ j then Y k else Y', by simp [y0], ?_, ?_⟩
      · intro k hk
        by_cases hkj : k ≤ j
        · simp only [if_pos hkj]
          exact y1 k hkj
        · obtain rfl : k = j + 1 := by omega
          simp only [if_neg hkj]
          rw [← hs']
          exact hY'
      · intro k hk
        by_cases hkj : k < j
        · simp only [if_pos hkj.le, if_pos (by omega : k + 1 ≤ j)]
          exact y2 k hkj
        · obtain rfl : k = j := by omega
          simp only [if_pos le_rfl, if_neg (by omega : ¬ k + 1 ≤ k)]
          exact ⟨hY1, hY2⟩
  obtain ⟨Y, y0, y1, y2⟩ := build n le_rfl
  refine ⟨s, fuel, q, t2, t3, fun k hk => ⟨htime k hk, ?_⟩⟩
  obtain ⟨μ', m1, m2, m3, m4⟩ := e2 k hk
  have hcl := powered_close (j := k) H HA hfly hlo hvV hsmall hk (Y := Y)
    (by rw [y0]; exact h0) (fun i hi => y2 i (by omega))
  have hz := y1 k hk
  refine ⟨pos7 (Y k), vel7 (Y k), μ', ⟨t1 k hk, ?_, ?_, m1⟩, m4 (fun _ h => h), hcl⟩
  · exact ⟨reads_near.2 (hz 0 (by decide)), reads_near.2 (hz 1 (by decide)), reads_near.2 (hz 2 (by decide))⟩
  · exact ⟨reads_near.2 (hz 3 (by decide)), reads_near.2 (hz 4 (by decide)), reads_near.2 (hz 5 (by decide))⟩

theorem small_3000 {X x : ℝ} (hX0 : 0 ≤ X) (hX : X ≤ 10) (hx : x ≤ 3000) :
    X * Real.exp (x / 375) + 16.5 * (Real.exp (x / 375) - 1) ≤ 86000 := by
  have h1 := exp_3000 hx
  have h2 : X * Real.exp (x / 375) ≤ 10 * 3000 := mul_le_mul hX h1 (Real.exp_pos _).le (by norm_num)
  norm_num at h2 ⊢
  linarith

/-- **C97**.  In double precision, with a mathematical library whose errors are within the usual bounds: a phase of `n`
seconds, `n ≤ 3000`, with running engines outside the atmosphere of the Earth, the vehicle turning at constant rates of
together at most 0.95 degrees per second, with at most 25 m/s² of acceleration by the engines and at least two minutes of
propellant flow left in mass, at distances of 6500 km or more and speeds of at most 8 km/s, which starts `er` metres and
`ev` metres per second off a true flight.  It runs to its end and prints `n` rows.  After `k` seconds the time is exact, the
mass is that of `k` seconds of consumption up to a relative error of 1e-12 of the consumption and 2e-16 of the mass per
second, the position is within `(er + 375 ev) e^(k/375) + 16.5 (e^(k/375) - 1)` metres of that of the true flight and the
velocity within one 375th of this, per second. -/
theorem C97_run (hL : GoodLibrary L) (hF : FrameLibrary L) (hT : TrigLibrary L) {p : Phase (F64 L)} {es : List RealEngine}
    {lat long az : ℝ} {P : TurnProgram} (hp : VacuumFlightDouble p es lat long az P) {E : Planet XR} (hE : SameEarth p.planet E)
    {n : ℕ} {m ms : ℝ} (hn : SecondsLeft p n) (hf : Fuelled p es n m ms) (hn' : n ≤ 3000)
    (hturn : |P.rollRate| + |P.yawRate| + |P.pitchRate| ≤ 0.95)
    (hmass : 120 * fullConsumption es ≤ m - n * fullConsumption es)
    (hthrust : rnorm (fullThrust es 0) ≤ 25 * (m - n * fullConsumption es))
    (hgross : grossThrust es 0 ≤ 1000 * (m - n * fullConsumption es)) {r v : ℝ → V3 ℝ}
    (hfly : ∀ t ∈ Set.Icc (0 : ℝ) n, PoweredMotion E (P.frame lat long az) (fullThrust es 0)
      (fun t => m - fullConsumption es * t) r v t)
    (hlo : ∀ t ∈ Set.Icc (0 : ℝ) n, 6.5e6 ≤ rnorm (r t))
    (hhi : ∀ t ∈ Set.Icc (0 : ℝ) n, rnorm (r t) ≤ 1.9e7)
    (hvV : ∀ t ∈ Set.Icc (0 : ℝ) n, rnorm (v t) ≤ 8000)
    {r0 v0 : V3 ℝ} {t0 er ev : ℝ} (ht0 : Reads p.state.time t0) (ht0' : |t0| ≤ 1e8)
    (hr : ReadsV p.state.position r0) (hv : ReadsV p.state.velocity v0)
    (hr0 : rdist r0 (r 0) ≤ er) (hv0 : rdist v0 (v 0) ≤ ev) (hsmall : er + 375 * ev ≤ 10) :
    ∃ (s : ℕ → State (F64 L)) (fuel : ℕ) (q : Phase (F64 L)),
      p.run fuel = some ⟨(List.range n).map fun k => (s (k + 1)).row, .ok q⟩ ∧ q.state = s n ∧
      ∀ k ≤ n, ∃ r' v' μ, ReadsAt (s k) k r' v' μ ∧
        |μ - (m - k * fullConsumption es)| ≤ k * (1e-12 * fullConsumption es + 2e-16 * m) ∧
        rdist r' (r k) ≤ (er + 375 * ev) * Real.exp (k / 375) + 16.5 * (Real.exp (k / 375) - 1) ∧
        rdist v' (v k) ≤ ((er + 375 * ev) * Real.exp (k / 375) + 16.5 * (Real.exp (k / 375) - 1)) / 375 := by
  have hmn : 0 ≤ m - n * fullConsumption es := by
    have := hf.left
    have := hf.mass_ge
    norm_num at *
    linarith
  have d1 : 0 ≤ rdist r0 (r 0) := by unfold rdist rnorm; positivity
  have d2 : 0 ≤ rdist v0 (v 0) := by unfold rdist rnorm; positivity
  obtain ⟨s, fuel, q, h1, h2, h3⟩ := powered_leg hL hF hT hp hE hn hf.mass hf.double hf.mass_ge hf.mass_le hf.left hn' hturn (m := m)
    (by rw [sub_self, abs_zero]; positivity) hmass hthrust hgross hfly hlo hhi hvV ht0 ht0' hr hv (X := er + 375 * ev)
    (by linarith) (small_3000 (by linarith) hsmall (by exact_mod_cast hn'))
  refine ⟨s, fuel, q, h1, h2, fun k hk => ?_⟩
  obtain ⟨_, r', v', μ, k1, k2, k3⟩ := h3 k hk
  have p1 : 0 ≤ rdist r' (r k) := by unfold rdist rnorm; positivity
  have p2 : 0 ≤ rdist v' (v k) := by unfold rdist rnorm; positivity
  exact ⟨r', v', μ, k1, k2, by linarith, by linarith⟩

/-- **C97** (true flights).  Near each of the three models of the Earth, from every start that is far enough from 6500 km and
slow enough for the whole time `T`, and with a mass that allows it, there is a true flight for `T` seconds, as required in
`C97_run`: it keeps its distance and its speed up to 8 km and 60 m/s for each second. -/
theorem C97_true_flight (P : TurnProgram) (lat long az : ℝ) (es : List RealEngine) {E : Planet XR} (hE : IsEarth E) {m T : ℝ}
    (hT : 0 ≤ T) (hQ : 0 ≤ fullConsumption es) (hm : 0 < m - T * fullConsumption es)
    (hmass : 120 * fullConsumption es ≤ m - T * fullConsumption es)
    (hthrust : rnorm (fullThrust es 0) ≤ 25 * (m - T * fullConsumption es))
    {r0 v0 : V3 ℝ} (hr0 : 6.5e6 + 8000 * (T + 0.01) ≤ rnorm r0) (hv0 : rnorm v0 + 60 * (T + 0.01) ≤ 8000) :
    ∃ (r v : ℝ → V3 ℝ), r 0 = r0 ∧ v 0 = v0 ∧ ∀ t ∈ Set.Icc 0 T,
      PoweredMotion E (P.frame lat long az) (fullThrust es 0) (fun t => m - fullConsumption es * t) r v t ∧
      rnorm r0 - 8000 * (T + 0.01) ≤ rnorm (r t) ∧ rnorm (r t) ≤ rnorm r0 + 8000 * (T + 0.01) ∧
      rnorm (v t) ≤ rnorm v0 + 60 * (T + 0.01) := by
  obtain ⟨a, b, μ, j2, j3, j4, ω, rfl⟩ := isEarth_real hE
  obtain ⟨gC, H⟩ := earth_field hE
  rw [mul_comm T] at hm hmass hthrust
  exact powered_lasts P lat long az (fullThrust es 0) hT hQ hm hmass hthrust H hr0 hv0

/-! ## an example -/

/-- 100 tons, of which 10 tons are structure, and 1000 kN with a specific impulse of 300 s, burning for 16 seconds at
7000 km from the centre of the Earth with 7000 m/s, and pitching by half a degree per second. -/
def examplePitching : Phase (F64 fullLibm) :=
  { Phase.default with
    vehicle := { oneEngine with structureMass := 10000 }
    steering := { Steering.default with pitch := ⟨.timeSinceEvent, 20, 0.5, 0, 0⟩ }
    state := { State.default with
      position := ⟨7000000, 0, 0⟩
      velocity := ⟨0, 7000, 0⟩
      mass := 100000 }
    stepsize := 1
    endCriterion := (.timeSinceEvent, 16) }

theorem reads_half : Reads (0.5 : F64 L) 0.5 := by
  refine ⟨1 / 2, ⟨false, 1 / 2, ?_, ?_, by norm_num⟩, by norm_num⟩
  · show Dbl.round false (5 * 10 ^ (-1 : ℤ)) = _
    decide +kernel
  · rfl

theorem examplePitching_flight : VacuumFlightDouble examplePitching [realOneEngine] 0 0 0 ⟨0, 0, 0, 0, 20, 0.5⟩ := by
  have hz : Reads (0 : F64 fullLibm) 0 := reads_zero
  have h20 : Reads (20 : F64 fullLibm) 20 := by simpa using reads_nat (L := fullLibm) 20 (by norm_num)
  have hM : Reads (1000000 : F64 fullLibm) 1000000 := by simpa using reads_nat (L := fullLibm) 1000000 (by norm_num)
  have h300 : Reads (300 : F64 fullLibm) 300 := by simpa using reads_nat (L := fullLibm) 300 (by norm_num)
  have hs : TurnsUniformlyDouble (Axis.default : Axis (F64 fullLibm)) 0 0 := ⟨.inr ⟨rfl, rfl⟩, ⟨⟨0, hz, by norm_num⟩, by norm_num⟩, hz, hz, hz⟩
  refine ⟨⟨rfl, ⟨wellFormed_default, wellFormed_default, wellFormed_default⟩, ?_, by simp, ?_, ?_⟩, ?_, rfl,
    ⟨⟨hz, hz, hz⟩, by norm_num, by norm_num, by norm_num⟩, hs, hs, .inl rfl, ⟨⟨20, h20, by norm_num⟩, by norm_num⟩, reads_half, hz, hz⟩
  · refine List.Forall₂.cons ⟨hM, h300, ?_, ?_, ?_, ?_⟩ .nil <;> norm_num [realOneEngine]
  · norm_num [fullConsumption, RealEngine.consumption, realOneEngine]
  · exact ⟨⟨1000000, 0, 0⟩, oneEngine_thrust_full, by rw [rnorm_x] <;> norm_num, by rw [rnorm_x] <;> norm_num⟩
  · refine List.Forall₂.cons ⟨hM, hz, hz, hz, ?_, ?_, ?_, ?_⟩ .nil <;> norm_num [realOneEngine]

/-- There is a true flight from the same start, and after 16 seconds the simulated one is within a metre of it. -/
example : ∃ (r v : ℝ → V3 ℝ) (fuel : ℕ) (rows : List (Row (F64 fullLibm))) (q : Phase (F64 fullLibm)) (r' v' : V3 ℝ) (μ : ℝ),
    r 0 = ⟨7000000, 0, 0⟩ ∧ v 0 = ⟨0, 7000, 0⟩ ∧
    (∀ t ∈ Set.Icc (0 : ℝ) 16, PoweredMotion EARTH_SPHERICAL (TurnProgram.frame ⟨0, 0, 0, 0, 20, 0.5⟩ 0 0 0) ⟨1000000, 0, 0⟩
      (fun t => 100000 - 1000000 / (300 * 9.80665) * t) r v t) ∧
    examplePitching.run fuel = some ⟨rows, .ok q⟩ ∧ rows.length = 16 ∧ ReadsAt q.state 16 r' v' μ ∧
    rdist r' (r 16) ≤ 1 := by
  have hz : Reads (0 : F64 fullLibm) 0 := reads_zero
  have hQ : fullConsumption [realOneEngine] = 1000000 / (300 * 9.80665) := by
    norm_num [fullConsumption, RealEngine.consumption, realOneEngine]
  have hF : fullThrust [realOneEngine] 0 = ⟨1000000, 0, 0⟩ := by
    simp [fullThrust, rsum, RealEngine.thrustAt, realOneEngine, rscale, RealEngine.direction]
  have hG : grossThrust [realOneEngine] 0 = 1000000 := by simp [grossThrust, realOneEngine]
  have n1 : rnorm ⟨7000000, 0, 0⟩ = 7000000 := rnorm_x _ (by norm_num)
  have n2 : rnorm ⟨0, 7000, 0⟩ = 7000 := by
    simp only [rnorm]
    rw [show ((0 : ℝ) ^ 2 + 7000 ^ 2 + 0 ^ 2) = 7000 ^ 2 by ring, Real.sqrt_sq (by norm_num)]
  have n3 : rnorm ⟨1000000, 0, 0⟩ = 1000000 := rnorm_x _ (by norm_num)
  obtain ⟨r, v, hr, hv, hall⟩ := C97_true_flight ⟨0, 0, 0, 0, 20, 0.5⟩ 0 0 0 [realOneEngine] (E := EARTH_SPHERICAL)
    (.inl rfl) (m := 100000) (T := 16) (by norm_num) (by rw [hQ]; norm_num) (by rw [hQ]; norm_num) (by rw [hQ]; norm_num)
    (by rw [hF, n3, hQ]; norm_num) (r0 := ⟨7000000, 0, 0⟩) (v0 := ⟨0, 7000, 0⟩) (by rw [n1]; norm_num) (by rw [n2]; norm_num)
  have h1 : Reads (1 : F64 fullLibm) 1 := by simpa using reads_nat (L := fullLibm) 1 (by norm_num)
  have h16 : Reads (16 : F64 fullLibm) 16 := by simpa using reads_nat (L := fullLibm) 16 (by norm_num)
  have h7 : Reads (7000000 : F64 fullLibm) 7000000 := by simpa using reads_nat (L := fullLibm) 7000000 (by norm_num)
  have h7' : Reads (7000 : F64 fullLibm) 7000 := by simpa using reads_nat (L := fullLibm) 7000 (by norm_num)
  have h10 : Reads (10000 : F64 fullLibm) 10000 := by simpa using reads_nat (L := fullLibm) 10000 (by norm_num)
  have h100 : Reads (100000 : F64 fullLibm) 100000 := by simpa using reads_nat (L := fullLibm) 100000 (by norm_num)
  have h0 : ∀ c : V3 ℝ, rdist c c ≤ 0 := by
    intro c
    simp [rdist, rsub, rnorm]
  obtain ⟨s, fuel, q, g1, g2, g3⟩ := C97_run fullLibm_good fullLibm_frame fullLibm_trig examplePitching_flight
    (E := EARTH_SPHERICAL) (.inl ⟨rfl, rfl⟩) (n := 16) (m := 100000) (ms := 10000)
    ⟨rfl, hz, h1, ⟨16, rfl, by simpa using h16⟩, by norm_num, by norm_num⟩
    ⟨h100, Dbl.round_isDouble _ _, h10, by norm_num, by norm_num, by norm_num, by norm_num, by rw [hQ]; norm_num⟩
    (by norm_num) (by norm_num [abs_of_pos]) (by rw [hQ]; norm_num) (by rw [hF, n3, hQ]; norm_num) (by rw [hG, hQ]; norm_num)
    (r := r) (v := v) (fun t ht => (hall t (by simpa using ht)).1) (fun t ht => le_trans (by rw [n1]; norm_num) (hall t (by simpa using ht)).2.1)
    (fun t ht => (hall t (by simpa using ht)).2.2.1.trans (by rw [n1]; norm_num))
    (fun t ht => (hall t (by simpa using ht)).2.2.2.trans (by rw [n2]; norm_num)) (t0 := 0) hz (by norm_num) (r0 := ⟨7000000, 0, 0⟩) (v0 := ⟨0, 7000, 0⟩)
    ⟨h7, hz, hz⟩ ⟨hz, h7', hz⟩ (er := 0) (ev := 0) (by rw [hr]; exact h0 _) (by rw [hv]; exact h0 _) (by norm_num)
  obtain ⟨r', v', μ, k1, _, k2, _⟩ := g3 16 le_rfl
  refine ⟨r, v, fuel, _, q, r', v', μ, hr, hv, ?_, g1, by simp, by rw [g2]; simpa using k1, ?_⟩
  · intro t ht
    have := (hall t ht).1
    rw [hF, hQ] at this
    exact this
  · push_cast at k2
    have : Real.exp (16 / 375) ≤ 1.05 := by
      have h2 : Real.exp (16 / 375) ^ 23 ≤ 1.05 ^ 23 := by
        rw [← Real.exp_nat_mul]
        have e : Real.exp (((23 : ℕ) : ℝ) * (16 / 375)) ≤ Real.exp 1 := Real.exp_le_exp.2 (by norm_num)
        refine e.trans (Real.exp_one_lt_d9.le.trans ?_)
        norm_num
      exact le_of_pow_le_pow_left₀ (by norm_num) (by norm_num) h2
    norm_num at this k2 ⊢
    linarith

end
end Post
