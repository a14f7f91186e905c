import Verif.Spec.Accuracy
import Verif.Lemmas.Harmonics
import Verif.Props.Convergence
import Verif.Props.Time
import Mathlib.Analysis.Complex.ExponentialBounds
/-! # C83: how far a simulated orbit is from the true one -/

namespace Post
open Spec Flt Filter Topology
open Kepler (R3 motion Field harm harmSize)

noncomputable section

/-- a vector, as an element of Euclidean space -/
def e3 (a : V3 ℝ) : R3 := !₂[a.x, a.y, a.z]

theorem norm_e3 (a : V3 ℝ) : ‖e3 a‖ = rnorm a := by
  rw [EuclideanSpace.norm_eq, Fin.sum_univ_three]
  simp [e3, rnorm, sq_abs]

theorem e3_sub (a b : V3 ℝ) : e3 (rsub a b) = e3 a - e3 b := by
  ext i
  fin_cases i <;> simp [e3, rsub]

theorem norm_e3_sub (a b : V3 ℝ) : ‖e3 a - e3 b‖ = rdist a b := by
  rw [← e3_sub, norm_e3, rdist]

theorem hasDerivAt_e3 {r : ℝ → V3 ℝ} {w : V3 ℝ} {t : ℝ} (h : HasVelocity r w t) :
    HasDerivAt (fun τ => e3 (r τ)) (e3 w) t := by
  have h1 : HasDerivAt (fun τ => (![(r τ).x, (r τ).y, (r τ).z] : Fin 3 → ℝ)) ![w.x, w.y, w.z] t := by
    rw [hasDerivAt_pi]
    intro i
    fin_cases i
    · exact h.1
    · exact h.2.1
    · exact h.2.2
  exact ((PiLp.continuousLinearEquiv 2 ℝ (fun _ : Fin 3 => ℝ)).symm.toContinuousLinearMap.hasFDerivAt
    (x := ![(r t).x, (r t).y, (r t).z])).comp_hasDerivAt t h1

/-- gravity, on Euclidean space -/
def field (a μ j2 j3 j4 : ℝ) (x : R3) : R3 := Kepler.grav μ x + harm a μ j2 j3 j4 x

theorem field_e3 (a μ j2 j3 j4 : ℝ) (r : V3 ℝ) :
    field a μ j2 j3 j4 (e3 r) = e3 (grav a μ j2 j3 j4 r) := by
  unfold field Kepler.grav harm
  rw [norm_e3]
  by_cases h0 : rnorm r = 0
  · rw [h0]
    ext i
    fin_cases i <;> simp [e3, grav, h0]
  · ext i
    fin_cases i
    all_goals
      simp [e3, grav, gravP, gravQ, Kepler.eqPart, Kepler.axPart]
      field_simp
      ring

/-- position and velocity of a state vector -/
def proj7 : (Fin 7 → ℝ) →ₗ[ℝ] R3 × R3 where
  toFun y := (e3 (pos7 y), e3 (vel7 y))
  map_add' y z := by
    refine Prod.ext ?_ ?_ <;> ext i <;> fin_cases i <;> simp [e3, pos7, vel7]
  map_smul' c y := by
    refine Prod.ext ?_ ?_ <;> ext i <;> fin_cases i <;> simp [e3, pos7, vel7]

theorem proj7_apply (y : Fin 7 → ℝ) : proj7 y = (e3 (pos7 y), e3 (vel7 y)) := rfl

theorem proj7_fall (a μ j2 j3 j4 : ℝ) (y : Fin 7 → ℝ) :
    motion (field a μ j2 j3 j4) (proj7 y) = proj7 (fall a μ j2 j3 j4 y) := by
  rw [proj7_apply, proj7_apply]
  unfold motion
  simp only
  rw [field_e3]
  rfl

theorem pos7_ne_of_norm {y : Fin 7 → ℝ} {R : ℝ} (hR : 0 < R) (h : R ≤ ‖(proj7 y).1‖) :
    pos7 y ≠ ⟨0, 0, 0⟩ := by
  intro h0
  rw [proj7_apply, h0] at h
  simp only [norm_e3, rnorm] at h
  norm_num at h
  linarith

/-- One step of the free fall, at any distance from which it does not fall to the centre. -/
theorem coasting_one_step {p : Phase XR} {a b μ j2 j3 j4 ω : ℝ} (hp : Coasting p a b μ j2 j3 j4 ω)
    {gC : Kepler.C3 → Kepler.C3} {R G L V h : ℝ} (H : Field (field a μ j2 j3 j4) gC R G L) (hR : 0 < R)
    (hh : 0 ≤ h) {x : Fin 2 → ℝ} {y : Fin 7 → ℝ} (hv : ‖(proj7 y).2‖ ≤ V)
    (hr : R + h * V + h ^ 2 * G ≤ ‖(proj7 y).1‖) (hm : y 6 ≠ 0) :
    RK4.step (convertedFunc p.system) (vfin x) (vfin y) (.fin h) =
      .ok (vfin (shift x h), vfin (RKOrder.rk4 (fall a μ j2 j3 j4) y h)) := by
  obtain ⟨h1, h2, h3, h4⟩ := Kepler.stages_far H hR hh hv hr
  have lin : ∀ (c : ℝ) (z : Fin 7 → ℝ), (proj7 (y + c • fall a μ j2 j3 j4 z)).1 =
      (proj7 y).1 + c • (proj7 z).2 := by
    intro c z
    rw [map_add, map_smul, ← proj7_fall]
    rfl
  have lin2 : ∀ (c : ℝ) (z : Fin 7 → ℝ), (proj7 (y + c • fall a μ j2 j3 j4 z)).2 =
      (proj7 y).2 + c • field a μ j2 j3 j4 (proj7 z).1 := by
    intro c z
    rw [map_add, map_smul, ← proj7_fall]
    rfl
  have mass : ∀ (c : ℝ) (z : Fin 7 → ℝ), (y + c • fall a μ j2 j3 j4 z) 6 = y 6 := by
    intro c z
    show y 6 + c * 0 = y 6
    ring
  have rhs : ∀ (x : Fin 2 → ℝ) (z : Fin 7 → ℝ), R ≤ ‖(proj7 z).1‖ → z 6 = y 6 →
      convertedFunc p.system (vfin x) (vfin z) = .ok (vfin (fall a μ j2 j3 j4 z)) := by
    intro x z hz hz6
    exact coasting_rhs hp (pos7_ne_of_norm hR hz) (by rw [hz6]; exact hm)
  refine C51_stages (rhs _ _ h1 rfl) (rhs _ _ ?_ (mass _ _)) (rhs _ _ ?_ (mass _ _))
    (rhs _ _ ?_ (mass _ _))
  · rw [lin]; exact h2
  · rw [lin, lin2]; exact h3
  · rw [lin, lin2, lin]; exact h4


/-- the error of each step, see `Kepler.step_error` -/
def stepErr (lam R W T h : ℝ) : ℝ := lam * (7 * (R / 4) * (h / T) ^ 5) + 7 * W * (h / T) ^ 5

/-- A simulated orbit, any number of steps, against the true one.  The constants
are: the simulated and the true orbit stay at the distance `R` or more; there gravity, also that at
complex positions within `R / 4`, is at most `G` and has the Lipschitz constant `L ≤ lam²`; the true
speed is at most `V`; `T` is a time in which a body of speed `V + W` gets no further than `R / 4` and
gravity changes the velocity by at most `W`; `h < T` is the step size.  The simulation starts with an
error of at most `N`, where errors are measured as velocity error plus `lam` times position error. -/
theorem orbit_accuracy {p : Phase XR} {a b μ j2 j3 j4 ω : ℝ} (hp : Coasting p a b μ j2 j3 j4 ω)
    {gC : Kepler.C3 → Kepler.C3} {R G L V W T h lam D N t1 te m : ℝ} {n : ℕ}
    (H : Field (field a μ j2 j3 j4) gC R G L) (hR : 0 < R) (hW : 0 < W)
    (hT1 : T * (V + W) ≤ R / 4) (hT2 : T * G ≤ W) (hh : 0 < h) (hhT : h < T) (hlam : 0 < lam)
    (hL : L ≤ lam ^ 2) {r v : ℝ → V3 ℝ}
    (hfall : ∀ t ∈ Set.Icc t1 (t1 + n * h), FreeFall p.planet r v t)
    (hrR : ∀ t ∈ Set.Icc t1 (t1 + n * h), R + D + h * (V + lam * D) + h ^ 2 * G ≤ rnorm (r t))
    (hvV : ∀ t ∈ Set.Icc t1 (t1 + n * h), rnorm (v t) ≤ V)
    {s0 : State XR} {r0 v0 : V3 ℝ} (hs0 : IsAt s0 t1 te r0 v0 m) (hm : m ≠ 0)
    (hN : lam * rdist r0 (r t1) + rdist v0 (v t1) ≤ N)
    (hD : Kepler.bound lam h N (stepErr lam R W T h) n ≤ lam * D) :
    ∃ s : ℕ → State XR, s 0 = s0 ∧ (∀ k < n, OneStep p (.fin h) (s k) (s (k + 1))) ∧
      ∀ k ≤ n, ∃ r' v', IsAt (s k) (t1 + k * h) (te + k * h) r' v' m ∧
        lam * rdist r' (r (t1 + k * h)) + rdist v' (v (t1 + k * h)) ≤
          Kepler.bound lam h N (stepErr lam R W T h) k := by
  set f := fall a μ j2 j3 j4 with hf
  let y : ℕ → Fin 7 → ℝ := fun k => (fun y => RKOrder.rk4 f y h)^[k] (seven r0 v0 m)
  have hy : ∀ k, y (k + 1) = RKOrder.rk4 f (y k) h := fun k => Function.iterate_succ_apply' _ _ _
  have hT : 0 < T := hh.trans hhT
  have hmass : ∀ k, y k 6 = m := by
    intro k
    induction k with
    | zero => rfl
    | succ k ih =>
      rw [hy]
      show y k 6 + h / 6 * (0 + 2 * 0 + 2 * 0 + 0) = m
      rw [ih]
      ring
  have hz : ∀ k, proj7 (y (k + 1)) = RKOrder.rk4 (motion (field a μ j2 j3 j4)) (proj7 (y k)) h := by
    intro k
    rw [hy, Kepler.rk4_map proj7 (proj7_fall a μ j2 j3 j4)]
  have hstart : ∀ t ∈ Set.Icc t1 (t1 + n * h), HasVelocity r (v t) t ∧
      HasVelocity v (grav a μ j2 j3 j4 (r t)) t := by
    intro t ht
    obtain ⟨g, h1, h2, h3⟩ := hfall t ht
    rw [hp.planet] at h1
    have hne : r t ≠ ⟨0, 0, 0⟩ := by
      intro h0
      rw [h0] at h1
      exact gravity_centre _ _ _ _ _ _ _ h1
    rw [gravity_grav _ _ _ _ _ _ _ hne] at h1
    rw [V3.fin_inj.1 h1]
    exact ⟨h2, h3⟩
  have her : stepErr lam R W T h = lam * (7 * (R / 4) * (h / T) ^ 5 + 0) + (7 * W * (h / T) ^ 5 + 0) := by
    unfold stepErr
    ring
  have hN0 : 0 ≤ N := by
    refine le_trans ?_ hN
    unfold rdist rnorm
    positivity
  have hκ : 0 ≤ stepErr lam R W T h := by unfold stepErr; positivity
  have main := Kepler.flight_error (z := fun k => proj7 (y k)) (r := fun t => e3 (r t))
    (v := fun t => e3 (v t)) (n := n) (t1 := t1) (D := D) (N := N) H hR hW hT1 hT2 hh hhT hlam hL le_rfl
    le_rfl (fun t ht => hasDerivAt_e3 (hstart t ht).1)
    (fun t ht => by
      rw [field_e3]
      exact hasDerivAt_e3 (hstart t ht).2)
    (fun t ht => by rw [norm_e3]; exact hrR t ht)
    (fun t ht => by rw [norm_e3]; exact hvV t ht)
    (by
      show lam * ‖e3 r0 - e3 (r t1)‖ + ‖e3 v0 - e3 (v t1)‖ ≤ N
      rw [norm_e3_sub, norm_e3_sub]
      exact hN)
    (by rw [← her]; exact hD)
    (fun k _ _ _ => by
      simp only [hz, sub_self, norm_zero, le_refl, and_self])
  rw [← her] at main
  have main' : ∀ k ≤ n, lam * rdist (pos7 (y k)) (r (t1 + k * h)) +
      rdist (vel7 (y k)) (v (t1 + k * h)) ≤ Kepler.bound lam h N (stepErr lam R W T h) k := by
    intro k hk
    have := main k hk
    simp only [proj7_apply, norm_e3_sub] at this
    exact this
  have hin : ∀ k ≤ n, t1 + k * h ∈ Set.Icc t1 (t1 + n * h) := by
    intro k hk
    have h1 : (k : ℝ) ≤ n := by exact_mod_cast hk
    refine ⟨?_, ?_⟩
    · have : 0 ≤ (k : ℝ) * h := by positivity
      linarith
    · have : (k : ℝ) * h ≤ n * h := by gcongr
      linarith
  -- the states the steps start from
  have hclose : ∀ k ≤ n, R + h * (V + lam * D) + h ^ 2 * G ≤ ‖(proj7 (y k)).1‖ ∧
      ‖(proj7 (y k)).2‖ ≤ V + lam * D := by
    intro k hk
    have h1 := (main' k hk).trans ((Kepler.bound_mono hlam hh hκ hN0 hk).trans hD)
    rw [← norm_e3_sub, ← norm_e3_sub] at h1
    have h2 : ‖e3 (pos7 (y k)) - e3 (r (t1 + k * h))‖ ≤ D := by
      have : lam * ‖e3 (pos7 (y k)) - e3 (r (t1 + k * h))‖ ≤ lam * D := by
        linarith [norm_nonneg (e3 (vel7 (y k)) - e3 (v (t1 + k * h)))]
      exact le_of_mul_le_mul_left this hlam
    have h3 : ‖e3 (vel7 (y k)) - e3 (v (t1 + k * h))‖ ≤ lam * D := by
      have : 0 ≤ lam * ‖e3 (pos7 (y k)) - e3 (r (t1 + k * h))‖ := by positivity
      linarith
    have h4 := hrR _ (hin k hk)
    have h5 := hvV _ (hin k hk)
    rw [← norm_e3] at h4 h5
    have h6 := norm_sub_norm_le (e3 (r (t1 + k * h))) (e3 (pos7 (y k)))
    rw [norm_sub_rev] at h6
    have h7 := norm_sub_norm_le (e3 (vel7 (y k))) (e3 (v (t1 + k * h)))
    rw [proj7_apply]
    exact ⟨by linarith, by linarith⟩
  have hstep : ∀ k ≤ n, RK4.step (convertedFunc p.system) (vfin (shift ![t1, te] (k * h))) (vfin (y k))
      (.fin h) = .ok (vfin (shift ![t1, te] ((k + 1 : ℕ) * h)), vfin (y (k + 1))) := by
    intro k hk
    rw [coasting_one_step hp H hR hh.le (hclose k hk).2 (hclose k hk).1 (by rw [hmass]; exact hm), hy,
      shift_shift]
    congr 5
    push_cast
    ring
  let st : ℕ → State XR := fun k => State.fromVec (vfin (shift ![t1, te] (k * h))) (vfin (y k))
  have hok : ∀ k, ∃ d, p.system (st k) = .ok d := fun k =>
    system_coasting_ok hp.unlimited hp.engines hp.tables (st k)
  choose d hd using hok
  let s : ℕ → State XR := fun k => match k with
    | 0 => s0
    | k + 1 => d (k + 1)
  have hat : ∀ k, IsAt (s k) (t1 + k * h) (te + k * h) (pos7 (y k)) (vel7 (y k)) m := by
    intro k
    cases k with
    | zero =>
      show IsAt s0 _ _ _ _ _
      simp only [Nat.cast_zero, zero_mul, add_zero]
      exact hs0
    | succ k =>
      have hp' := Phase.system_primary (hd (k + 1))
      refine ⟨hp'.1, hp'.2.1, hp'.2.2.1, hp'.2.2.2.1, ?_⟩
      rw [← hmass (k + 1)]
      exact hp'.2.2.2.2
  refine ⟨s, rfl, fun k hk => ?_, fun k hk => ⟨_, _, hat k, main' k hk⟩⟩
  have ha := hat k
  have e1 : vec2 (s k).time (s k).timeSinceEvent = vfin (shift ![t1, te] (k * h)) := by
    rw [ha.time, ha.timeSinceEvent]
    funext i
    fin_cases i <;> rfl
  have e2 : (s k).toPrimaryVec = vfin (y k) := by
    unfold State.toPrimaryVec
    rw [ha.position, ha.velocity, ha.mass, ← hmass k]
    funext i
    fin_cases i <;> rfl
  unfold OneStep
  cases p.integrator
  unfold Integrator.step
  simp only
  rw [e1, e2, hstep k hk.le]
  exact hd (k + 1)


theorem step_met {F : Type} [Flt F] {r : Phase F} (he : r.ended = false) {s : State F}
    (hs : OneStep r r.stepsize r.state s) (hm : Met r.endCriterion s) :
    r.step = .ok { r with ended := true, state := s } := by
  unfold OneStep at hs
  rw [← Phase.criterionMet_iff] at hm
  unfold Phase.step
  rw [if_neg (by simp [he]), hs]
  show (if r.criterionMet s = true then _ else _) = _
  rw [if_pos hm]

theorem step_go {F : Type} [Flt F] {r : Phase F} (he : r.ended = false) {s : State F}
    (hs : OneStep r r.stepsize r.state s) (hm : ¬ Met r.endCriterion s)
    (ho : ¬ Overshot r.endCriterion r.state s) : r.step = .ok { r with state := s } := by
  unfold OneStep at hs
  rw [← Phase.criterionMet_iff] at hm
  rw [← Phase.eventIsActive_iff] at ho
  unfold Phase.step
  rw [if_neg (by simp [he]), hs]
  show (if r.criterionMet s = true then _ else if r.eventIsActive r.state s = true then _ else _) = _
  rw [if_neg hm, if_neg ho]

/-- A phase that takes the steps of a given sequence, the last of which hits the target, runs to its
end, printing one row for each step. -/
theorem run_of_steps {F : Type} [Flt F] {p : Phase F} {s : ℕ → State F} {n : ℕ} (he : p.ended = false)
    (hsys : p.system p.state = .ok (s 0))
    (hstep : ∀ k < n + 1, OneStep p p.stepsize (s k) (s (k + 1)))
    (hgo : ∀ k < n, ¬ Met p.endCriterion (s (k + 1)) ∧ ¬ Overshot p.endCriterion (s k) (s (k + 1)))
    (hend : Met p.endCriterion (s (n + 1))) :
    ∃ fuel q, p.run fuel = some ⟨(List.range (n + 1)).map fun k => (s (k + 1)).row, .ok q⟩ ∧
      q.state = s (n + 1) := by
  have key : ∀ j k, k + j = n → ∃ ps q, Path { p with state := s k } ps q ∧ q.ended = true ∧
      q.state = s (n + 1) ∧ ps.map (·.state.row) =
        (List.range' k (j + 1)).map fun k => (s (k + 1)).row := by
    intro j
    induction j with
    | zero =>
      intro k hk
      obtain rfl : k = n := by omega
      refine ⟨[{ p with state := s (k + 1), ended := true }], _, .cons he ?_ (.nil _), rfl, rfl, rfl⟩
      exact step_met (r := { p with state := s k }) he (hstep k (by omega)) hend
    | succ j ih =>
      intro k hk
      obtain ⟨ps, q, h1, h2, h3, h4⟩ := ih (k + 1) (by omega)
      refine ⟨{ p with state := s (k + 1) } :: ps, q, .cons he ?_ h1, h2, h3, ?_⟩
      · exact step_go (r := { p with state := s k }) he (hstep k (by omega)) (hgo k (by omega)).1 (hgo k (by omega)).2
      · rw [List.map_cons, h4, List.range'_succ]
        rfl
  obtain ⟨ps, q, h1, h2, h3, h4⟩ := key n 0 (by omega)
  refine ⟨ps.length, q, ?_, h3⟩
  simp only [Phase.run, hsys]
  rw [Phase.loop_of_path h1 h2 le_rfl, h4, List.range_eq_range']


/-! ## Low orbits around the Earth -/

theorem earth_values {a b μ j2 j3 j4 ω : ℝ} (h : IsEarth (realPlanet a b μ j2 j3 j4 ω)) :
    0 ≤ a ∧ a ≤ 6.38e6 ∧ 0 ≤ μ ∧ μ ≤ 4e14 ∧ |j2| ≤ 1.083e-3 ∧ |j3| ≤ 2.6e-6 ∧ |j4| ≤ 1.7e-6 := by
  unfold IsEarth realPlanet EARTH_SPHERICAL EARTH_FISHER_1960 EARTH_SMITHSONIAN METER_PER_FOOT
    CUBIC_METER_PER_CUBIC_FOOT METER_PER_FOOT at h
  simp only [XR.fin_sci, XR.fin_zero, XR.fin_mul, XR.fin_neg, Planet.mk.injEq, Grav.mk.injEq,
    XR.fin_inj] at h
  rcases h with ⟨rfl, _, ⟨rfl, rfl, rfl, rfl⟩, _⟩ | ⟨rfl, _, ⟨rfl, rfl, rfl, rfl⟩, _⟩ |
    ⟨rfl, _, ⟨rfl, rfl, rfl, rfl⟩, _⟩
  all_goals
    norm_num [abs_of_pos, abs_of_neg]

/-- gravity of the Earth at distances of 6400 km or more -/
theorem earth_field {a b μ j2 j3 j4 ω : ℝ} (h : IsEarth (realPlanet a b μ j2 j3 j4 ω)) :
    ∃ gC, Field (field a μ j2 j3 j4) gC 6.4e6 32.12 7.04e-6 := by
  obtain ⟨ha, ha', hμ, hμ', h2, h3, h4⟩ := earth_values h
  have H := Kepler.harm_field (j2 := j2) (j3 := j3) (j4 := j4) ha hμ (show (0 : ℝ) < 6.4e6 by norm_num)
  set α := 4 / 3 * a / 6.4e6 with hα
  have hα0 : 0 ≤ α := by positivity
  have hα1 : α ≤ 1.33 := by
    rw [hα]
    norm_num at ha' ⊢
    linarith
  have hs : harmSize α j2 j3 j4 ≤ 0.11 := by
    have e2 : α ^ 2 ≤ 1.33 ^ 2 := pow_le_pow_left₀ hα0 hα1 2
    have e3 : α ^ 3 ≤ 1.33 ^ 3 := pow_le_pow_left₀ hα0 hα1 3
    have e4 : α ^ 4 ≤ 1.33 ^ 4 := pow_le_pow_left₀ hα0 hα1 4
    have k2 : |j2| * α ^ 2 ≤ 1.083e-3 * 1.33 ^ 2 := mul_le_mul h2 e2 (by positivity) (by norm_num)
    have k3 : |j3| * α ^ 3 ≤ 2.6e-6 * 1.33 ^ 3 := mul_le_mul h3 e3 (by positivity) (by norm_num)
    have k4 : |j4| * α ^ 4 ≤ 1.7e-6 * 1.33 ^ 4 := mul_le_mul h4 e4 (by positivity) (by norm_num)
    unfold harmSize
    norm_num at k2 k3 k4 ⊢
    nlinarith
  have hs0 : 0 ≤ harmSize α j2 j3 j4 := by unfold harmSize; positivity
  refine ⟨_, H.real, fun r ζ hr hζ => ⟨(H.near r ζ hr hζ).1, (H.near r ζ hr hζ).2.trans ?_⟩,
    fun x y hx hy => (H.lipschitz x y hx hy).trans (mul_le_mul_of_nonneg_right ?_ (norm_nonneg _))⟩
  · calc (1 + harmSize α j2 j3 j4) * (80 / 27 * (μ / 6.4e6 ^ 2)) ≤ (1 + 0.11) * (80 / 27 * (4e14 / 6.4e6 ^ 2)) := by
          gcongr
      _ ≤ 32.12 := by norm_num
  · calc (2 + 640 / 27 * harmSize α j2 j3 j4) * (μ / 6.4e6 ^ 3) ≤ (2 + 640 / 27 * 0.11) * (4e14 / 6.4e6 ^ 3) := by
          gcongr
      _ ≤ 7.04e-6 := by norm_num

/-- the bound of `orbit_accuracy` for low orbits of the Earth -/
theorem low_orbit_bound {h N : ℝ} (hh : 0 < h) (k : ℕ) :
    Kepler.bound (1 / 375) h N (stepErr (1 / 375) 6.4e6 4176 130 h) k ≤
      N * Real.exp (k * h / 375) + 0.0006 * h ^ 4 * (Real.exp (k * h / 375) - 1) := by
  unfold Kepler.bound stepErr
  rw [show (1 / 375 * (k * h) : ℝ) = k * h / 375 by ring]
  have h1 : 0 ≤ Real.exp (k * h / 375) - 1 := by
    have := Real.add_one_le_exp (k * h / 375)
    have : 0 ≤ (k : ℝ) * h / 375 := by positivity
    linarith
  have e : (1 / 375 * (7 * (6.4e6 / 4) * (h / 130) ^ 5) + 7 * 4176 * (h / 130) ^ 5) *
      ((Real.exp (k * h / 375) - 1) / (1 / 375 * h)) =
      ((7 * (6.4e6 / 4) + 375 * 7 * 4176) / 130 ^ 5) * h ^ 4 * (Real.exp (k * h / 375) - 1) := by
    field_simp
  rw [e]
  have h2 : ((7 * (6.4e6 / 4) + 375 * 7 * 4176) / 130 ^ 5 : ℝ) ≤ 0.0006 := by norm_num
  have h3 : ((7 * (6.4e6 / 4) + 375 * 7 * 4176) / 130 ^ 5) * h ^ 4 * (Real.exp (k * h / 375) - 1) ≤
      0.0006 * h ^ 4 * (Real.exp (k * h / 375) - 1) := by gcongr
  linarith

/-- **C83** (with errors at the start).  A simulated orbit of the Earth, at distances of 6500 km or more
from its centre and with speeds of at most 8 km/s, integrated with steps of `h ≤ 1` seconds.  Let the
start be wrong by `er` metres and `ev` metres per second.  Then after `t = k h` seconds the position is
wrong by at most `(er + 375 ev) e^(t/375) + 0.225 h^4 (e^(t/375) - 1)` metres, and the velocity by at
most one 375th of this, per second; as long as this is less than 86 km. -/
theorem C83_start_error {p : Phase XR} {a b μ j2 j3 j4 ω : ℝ} (hp : Coasting p a b μ j2 j3 j4 ω)
    (hearth : IsEarth p.planet) {h t1 te m er ev : ℝ} {n : ℕ} (hh : 0 < h) (hh1 : h ≤ 1)
    {r v : ℝ → V3 ℝ} (hfall : ∀ t ∈ Set.Icc t1 (t1 + n * h), FreeFall p.planet r v t)
    (hrR : ∀ t ∈ Set.Icc t1 (t1 + n * h), 6.5e6 ≤ rnorm (r t))
    (hvV : ∀ t ∈ Set.Icc t1 (t1 + n * h), rnorm (v t) ≤ 8000)
    {s0 : State XR} {r0 v0 : V3 ℝ} (hs0 : IsAt s0 t1 te r0 v0 m) (hm : m ≠ 0)
    (hr0 : rdist r0 (r t1) ≤ er) (hv0 : rdist v0 (v t1) ≤ ev)
    (hsmall : (er + 375 * ev) * Real.exp (n * h / 375) + 0.225 * h ^ 4 * (Real.exp (n * h / 375) - 1) ≤
      86000) :
    ∃ s : ℕ → State XR, s 0 = s0 ∧ (∀ k < n, OneStep p (.fin h) (s k) (s (k + 1))) ∧
      ∀ k ≤ n, ∃ r' v', IsAt (s k) (t1 + k * h) (te + k * h) r' v' m ∧
        rdist r' (r (t1 + k * h)) ≤ (er + 375 * ev) * Real.exp (k * h / 375) +
          0.225 * h ^ 4 * (Real.exp (k * h / 375) - 1) ∧
        rdist v' (v (t1 + k * h)) ≤ ((er + 375 * ev) * Real.exp (k * h / 375) +
          0.225 * h ^ 4 * (Real.exp (k * h / 375) - 1)) / 375 := by
  have hearth' := hearth
  rw [hp.planet] at hearth'
  obtain ⟨gC, H⟩ := earth_field hearth'
  obtain ⟨s, e0, e1, e2⟩ := orbit_accuracy (W := 4176) (T := 130) (V := 8000) (lam := 1 / 375)
    (D := 86000) (N := 1 / 375 * er + ev) (n := n) (te := te) hp H (by norm_num) (by norm_num)
    (by norm_num) (by norm_num) hh (by linarith) (by norm_num) (by norm_num) hfall
    (fun t ht => by
      refine le_trans ?_ (hrR t ht)
      have : h ^ 2 ≤ 1 := by nlinarith
      norm_num
      nlinarith) hvV hs0 hm
    (by gcongr)
    (by
      refine (low_orbit_bound hh n).trans ?_
      linarith)
  refine ⟨s, e0, e1, fun k hk => ?_⟩
  obtain ⟨r', v', f1, f2⟩ := e2 k hk
  have f3 := f2.trans (low_orbit_bound hh k)
  have p1 : 0 ≤ rdist r' (r (t1 + k * h)) := by unfold rdist rnorm; positivity
  have p2 : 0 ≤ rdist v' (v (t1 + k * h)) := by unfold rdist rnorm; positivity
  refine ⟨r', v', f1, by linarith, by linarith⟩

theorem exp_4800 {x : ℝ} (hx : x ≤ 4800) : Real.exp (x / 375) ≤ 380000 := by
  have h1 : Real.exp (x / 375) ≤ Real.exp (64 / 5) := Real.exp_le_exp.2 (by linarith)
  have h2 : Real.exp (64 / 5) ^ 5 ≤ 380000 ^ 5 := by
    rw [← Real.exp_nat_mul]
    have e : ((5 : ℕ) : ℝ) * (64 / 5) = ((64 : ℕ) : ℝ) * 1 := by norm_num
    rw [e, Real.exp_nat_mul]
    calc Real.exp 1 ^ 64 ≤ 2.7182818286 ^ 64 :=
          pow_le_pow_left₀ (Real.exp_pos _).le Real.exp_one_lt_d9.le 64
      _ ≤ 380000 ^ 5 := by norm_num
  exact h1.trans (le_of_pow_le_pow_left₀ (by norm_num) (by norm_num) h2)

/-- **C83**.  For up to 80 minutes a simulated orbit of the Earth, at distances of 6500 km or more from
its centre and with speeds of at most 8 km/s, integrated with steps of `h ≤ 1` seconds, is after
`t = k h` seconds within `0.225 h^4 (e^(t/375) - 1)` metres of the true orbit, and the velocity within
`0.0006 h^4 (e^(t/375) - 1)` metres per second. -/
theorem C83_low_orbit {p : Phase XR} {a b μ j2 j3 j4 ω : ℝ} (hp : Coasting p a b μ j2 j3 j4 ω)
    (hearth : IsEarth p.planet) {h t1 te m : ℝ} {n : ℕ} (hh : 0 < h) (hh1 : h ≤ 1)
    (hn : n * h ≤ 4800) {r v : ℝ → V3 ℝ}
    (hfall : ∀ t ∈ Set.Icc t1 (t1 + n * h), FreeFall p.planet r v t)
    (hrR : ∀ t ∈ Set.Icc t1 (t1 + n * h), 6.5e6 ≤ rnorm (r t))
    (hvV : ∀ t ∈ Set.Icc t1 (t1 + n * h), rnorm (v t) ≤ 8000)
    {s0 : State XR} (hs0 : IsAt s0 t1 te (r t1) (v t1) m) (hm : m ≠ 0) :
    ∃ s : ℕ → State XR, s 0 = s0 ∧ (∀ k < n, OneStep p (.fin h) (s k) (s (k + 1))) ∧
      ∀ k ≤ n, ∃ r' v', IsAt (s k) (t1 + k * h) (te + k * h) r' v' m ∧
        rdist r' (r (t1 + k * h)) ≤ 0.225 * h ^ 4 * (Real.exp (k * h / 375) - 1) ∧
        rdist v' (v (t1 + k * h)) ≤ 0.0006 * h ^ 4 * (Real.exp (k * h / 375) - 1) := by
  have hz : ∀ c : V3 ℝ, rdist c c ≤ 0 := by
    intro c
    simp [rdist, rsub, rnorm]
  obtain ⟨s, e0, e1, e2⟩ := C83_start_error hp hearth (te := te) hh hh1 hfall hrR hvV hs0 hm (hz _) (hz _)
    (by
      have h1 := exp_4800 hn
      have h2 : h ^ 4 ≤ 1 := pow_le_one₀ hh.le hh1
      have h3 : 0 ≤ h ^ 4 := by positivity
      have h4 : 0 ≤ Real.exp (n * h / 375) := (Real.exp_pos _).le
      norm_num
      nlinarith)
  refine ⟨s, e0, e1, fun k hk => ?_⟩
  obtain ⟨r', v', f1, f2, f3⟩ := e2 k hk
  simp only [mul_zero, add_zero, zero_mul, zero_add] at f2 f3
  exact ⟨r', v', f1, f2, f3.trans (le_of_eq (by ring))⟩


theorem Spec.IsAt.system {p : Phase XR} {s d : State XR} {t te m : ℝ} {r v : V3 ℝ} (h : IsAt s t te r v m)
    (hd : p.system s = .ok d) : IsAt d t te r v m := by
  obtain ⟨h1, h2, h3, h4, h5⟩ := Phase.system_primary hd
  exact ⟨h1.trans h.time, h2.trans h.timeSinceEvent, h3.trans h.position, h4.trans h.velocity,
    h5.trans h.mass⟩

/-- **C83** (whole phases).  Such a phase that begins on an orbit, with the regular step of one second,
and ends `n` seconds after its beginning, `1 ≤ n ≤ 4800`, runs to its end and prints `n` rows, those
of the states after each second; the state after `k` seconds, and so the final one, is within
`0.225 (e^(k/375) - 1)` metres of the true orbit and the velocity within `0.0006 (e^(k/375) - 1)`
metres per second. -/
theorem C83_run {p : Phase XR} {a b μ j2 j3 j4 ω : ℝ} (hp : Coasting p a b μ j2 j3 j4 ω)
    (hearth : IsEarth p.planet) {t1 m : ℝ} {n : ℕ} (hn1 : 1 ≤ n) (hn : n ≤ 4800)
    (hc : p.endCriterion = (.timeSinceEvent, .fin n)) (hst : p.stepsize = .fin 1)
    (he : p.ended = false) {r v : ℝ → V3 ℝ}
    (hfall : ∀ t ∈ Set.Icc t1 (t1 + n), FreeFall p.planet r v t)
    (hrR : ∀ t ∈ Set.Icc t1 (t1 + n), 6.5e6 ≤ rnorm (r t))
    (hvV : ∀ t ∈ Set.Icc t1 (t1 + n), rnorm (v t) ≤ 8000)
    (hs0 : IsAt p.state t1 0 (r t1) (v t1) m) (hm : m ≠ 0) :
    ∃ (s : ℕ → State XR) (fuel : ℕ) (q : Phase XR),
      p.run fuel = some ⟨(List.range n).map fun k => (s (k + 1)).row, .ok q⟩ ∧ q.state = s n ∧
      ∀ k ≤ n, ∃ r' v', IsAt (s k) (t1 + k) k r' v' m ∧
        rdist r' (r (t1 + k)) ≤ 0.225 * (Real.exp (k / 375) - 1) ∧
        rdist v' (v (t1 + k)) ≤ 0.0006 * (Real.exp (k / 375) - 1) := by
  obtain ⟨s0, hs⟩ := system_coasting_ok hp.unlimited hp.engines hp.tables p.state
  obtain ⟨s, e0, e1, e2⟩ := C83_low_orbit hp hearth (h := 1) (n := n) (te := 0) one_pos le_rfl
    (by rw [mul_one]; exact_mod_cast hn) (by simpa using hfall) (by simpa using hrR)
    (by simpa using hvV) (hs0.system hs) hm
  simp only [mul_one, one_pow, zero_add] at e2
  have htime : ∀ k ≤ n, StateVariable.getValue .timeSinceEvent (s k) = .fin k := by
    intro k hk
    obtain ⟨r', v', h1, _⟩ := e2 k hk
    exact h1.timeSinceEvent
  obtain ⟨n, rfl⟩ : ∃ j, n = j + 1 := ⟨n - 1, by omega⟩
  obtain ⟨fuel, q, h1, h2⟩ := run_of_steps (p := p) (s := s) (n := n) he (by rw [hs, e0])
    (fun k hk => by rw [hst]; exact e1 k hk)
    (fun k hk => by
      rw [hc, met_fin (htime (k + 1) (by omega)), overshot_fin (htime k (by omega)) (htime (k + 1) (by omega))]
      have h3 : (k : ℝ) + 1 ≤ n := by exact_mod_cast hk
      push_cast
      constructor
      · rw [not_lt, abs_of_nonpos (by linarith)]
        norm_num
        linarith
      · rintro (⟨h4, _⟩ | ⟨_, h4⟩) <;> linarith)
    (by
      rw [hc, met_fin (htime (n + 1) le_rfl)]
      norm_num)
  exact ⟨s, fuel, q, h1, h2, e2⟩

/-! ## An example: the circular orbit of radius 6700 km -/

/-- The default phase, ended after ten minutes, at a point of a circular orbit of radius 6700 km. -/
def exampleLow : Phase XR :=
  { Phase.default with
    endCriterion := (.timeSinceEvent, .fin 600)
    stepsize := .fin 1
    state := { State.default with
      position := V3.fin ⟨6.7e6, 0, 0⟩
      velocity := V3.fin ⟨0, Real.sqrt (1.4076539e16 * (0.3048 * 0.3048 * 0.3048) / 6.7e6), 0⟩
      mass := .fin 1000 } }

theorem exampleLow_planet : exampleLow.planet = realPlanet (20925741 * 0.3048) (20925741 * 0.3048)
    (1.4076539e16 * (0.3048 * 0.3048 * 0.3048)) 0 0 0 7.29211e-5 := by
  show EARTH_SPHERICAL = _
  unfold EARTH_SPHERICAL realPlanet METER_PER_FOOT CUBIC_METER_PER_CUBIC_FOOT METER_PER_FOOT
  simp only [XR.fin_sci, XR.fin_zero, XR.fin_mul]
  norm_num

theorem exampleLow_coasting : Coasting exampleLow (20925741 * 0.3048) (20925741 * 0.3048)
    (1.4076539e16 * (0.3048 * 0.3048 * 0.3048)) 0 0 0 7.29211e-5 := by
  have hs : TimeSteered (Axis.default : Axis XR) :=
    ⟨.inl rfl, 0, 0, 0, 0, XR.fin_zero, XR.fin_zero, XR.fin_zero, XR.fin_zero⟩
  exact ⟨rfl, rfl, rfl, ⟨default_wellFormed, default_wellFormed, default_wellFormed⟩, exampleLow_planet,
    ⟨0, 0, 0, by simp only [exampleLow, Phase.default, XR.fin_zero]⟩,
    realAttitude_of_time hs hs hs⟩

/-- A circular orbit around a spherical planet. -/
theorem circle_freeFall {a b μ ω ρ w : ℝ} (hρ : 0 < ρ) (hw : w ^ 2 * ρ ^ 3 = μ) (t : ℝ) :
    FreeFall (realPlanet a b μ 0 0 0 ω) (fun t => ⟨ρ * Real.cos (w * t), ρ * Real.sin (w * t), 0⟩)
      (fun t => ⟨-(ρ * w * Real.sin (w * t)), ρ * w * Real.cos (w * t), 0⟩) t := by
  have hn : rnorm ⟨ρ * Real.cos (w * t), ρ * Real.sin (w * t), 0⟩ = ρ := by
    unfold rnorm
    rw [show (ρ * Real.cos (w * t)) ^ 2 + (ρ * Real.sin (w * t)) ^ 2 + (0 : ℝ) ^ 2 = ρ ^ 2 by
      have := Real.cos_sq_add_sin_sq (w * t)
      linear_combination ρ ^ 2 * this]
    exact Real.sqrt_sq hρ.le
  have hne : (⟨ρ * Real.cos (w * t), ρ * Real.sin (w * t), 0⟩ : V3 ℝ) ≠ ⟨0, 0, 0⟩ := by
    intro h
    rw [h] at hn
    simp [rnorm] at hn
    linarith
  have hwt : HasDerivAt (fun t : ℝ => w * t) w t := by simpa using (hasDerivAt_id t).const_mul w
  have hcos : HasDerivAt (fun t : ℝ => Real.cos (w * t)) (-Real.sin (w * t) * w) t :=
    (Real.hasDerivAt_cos _).comp t hwt
  have hsin : HasDerivAt (fun t : ℝ => Real.sin (w * t)) (Real.cos (w * t) * w) t :=
    (Real.hasDerivAt_sin _).comp t hwt
  refine ⟨_, gravity_grav _ _ _ _ _ _ _ hne, ⟨?_, ?_, hasDerivAt_const _ _⟩, ?_⟩
  · exact (hcos.const_mul ρ).congr_deriv (by ring)
  · exact (hsin.const_mul ρ).congr_deriv (by ring)
  · unfold grav
    rw [hn]
    refine ⟨?_, ?_, ?_⟩
    · refine ((hsin.const_mul (ρ * w)).neg).congr_deriv ?_
      simp only [gravP, hn]
      field_simp
      rw [← hw]
      ring
    · refine (hcos.const_mul (ρ * w)).congr_deriv ?_
      simp only [gravP, hn]
      field_simp
      rw [← hw]
      ring
    · refine (hasDerivAt_const t (0 : ℝ)).congr_deriv ?_
      simp [gravQ]

/-- Ten minutes of the circular orbit of radius 6700 km: the final position is right to within one
metre. -/
example : ∃ (w : ℝ) (s : ℕ → State XR) (fuel : ℕ) (q : Phase XR),
    exampleLow.run fuel = some ⟨(List.range 600).map fun k => (s (k + 1)).row, .ok q⟩ ∧
    ∃ r' v', IsAt q.state 600 600 r' v' 1000 ∧
      rdist r' ⟨6.7e6 * Real.cos (w * 600), 6.7e6 * Real.sin (w * 600), 0⟩ ≤ 1 := by
  set μ : ℝ := 1.4076539e16 * (0.3048 * 0.3048 * 0.3048) with hμ
  set w : ℝ := Real.sqrt (μ / 6.7e6) / 6.7e6 with hwdef
  have hμ0 : 0 ≤ μ / 6.7e6 := by rw [hμ]; norm_num
  have hw : w ^ 2 * 6.7e6 ^ 3 = μ := by
    rw [hwdef, div_pow, Real.sq_sqrt hμ0]
    field_simp
  have hv : 6.7e6 * w = Real.sqrt (μ / 6.7e6) := by rw [hwdef]; field_simp
  have hv8 : Real.sqrt (μ / 6.7e6) ≤ 8000 := by
    rw [Real.sqrt_le_left (by norm_num), hμ]
    norm_num
  have hfall := fun t => circle_freeFall (a := 20925741 * 0.3048) (b := 20925741 * 0.3048)
    (ω := 7.29211e-5) (show (0 : ℝ) < 6.7e6 by norm_num) hw t
  obtain ⟨s, fuel, q, h1, h2, h3⟩ := C83_run exampleLow_coasting (.inl rfl) (t1 := 0) (m := 1000)
    (n := 600) (by norm_num) (by norm_num) (by simp [exampleLow]) rfl rfl
    (fun t _ => by rw [exampleLow_planet]; exact hfall t)
    (fun t _ => by
      unfold rnorm
      rw [show (6.7e6 * Real.cos (w * t)) ^ 2 + (6.7e6 * Real.sin (w * t)) ^ 2 + (0 : ℝ) ^ 2 = 6.7e6 ^ 2 by
        have := Real.cos_sq_add_sin_sq (w * t)
        linear_combination 6.7e6 ^ 2 * this, Real.sqrt_sq (by norm_num)]
      norm_num)
    (fun t _ => by
      unfold rnorm
      rw [show (-(6.7e6 * w * Real.sin (w * t))) ^ 2 + (6.7e6 * w * Real.cos (w * t)) ^ 2 + (0 : ℝ) ^ 2 =
          (6.7e6 * w) ^ 2 by
        have := Real.cos_sq_add_sin_sq (w * t)
        linear_combination (6.7e6 * w) ^ 2 * this, hv, Real.sqrt_sq (Real.sqrt_nonneg _)]
      exact hv8)
    ⟨XR.fin_zero, XR.fin_zero, by simp [exampleLow], by simp [exampleLow, hv, hμ], rfl⟩ (by norm_num)
  refine ⟨w, s, fuel, q, h1, ?_⟩
  obtain ⟨r', v', g1, g2, _⟩ := h3 600 le_rfl
  rw [h2]
  norm_num at g1 g2 ⊢
  refine ⟨r', ⟨v', g1⟩, g2.trans ?_⟩
  have : Real.exp (8 / 5) ≤ 5 := by
    have h : Real.exp (8 / 5) ^ 5 ≤ 5 ^ 5 := by
      rw [← Real.exp_nat_mul]
      have e : ((5 : ℕ) : ℝ) * (8 / 5) = ((8 : ℕ) : ℝ) * 1 := by norm_num
      rw [e, Real.exp_nat_mul]
      calc Real.exp 1 ^ 8 ≤ 2.7182818286 ^ 8 :=
            pow_le_pow_left₀ (Real.exp_pos _).le Real.exp_one_lt_d9.le 8
        _ ≤ 5 ^ 5 := by norm_num
    exact le_of_pow_le_pow_left₀ (by norm_num) (by norm_num) h
  linarith

end
end Post
