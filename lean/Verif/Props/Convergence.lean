import Verif.Props.Order
import Verif.Props.Orbit
import Verif.Lemmas.RKGlobal
import Verif.Spec.Convergence
/-! # C75: with smaller steps the simulation converges to the true flight -/

namespace Post
open Spec Flt Filter Topology Asymptotics

theorem shift_shift {m : Nat} (x : Fin m → ℝ) (a b : ℝ) : shift (shift x a) b = shift x (a + b) := by
  funext i
  simp only [shift]
  ring

/-- As `rk4_near`, for neighbouring points, too. -/
theorem rk4_around {m n : Nat} {f : (Fin m → XR) → (Fin n → XR) → Except Panic (Fin n → XR)}
    {g : (Fin m → ℝ) → (Fin n → ℝ) → (Fin n → ℝ)} {x : Fin m → ℝ} {y : Fin n → ℝ}
    (hf : ∀ᶠ z in 𝓝 (x, y), f (vfin z.1) (vfin z.2) = .ok (vfin (g z.1 z.2)))
    (hg : ContinuousAt (fun z : (Fin m → ℝ) × (Fin n → ℝ) => g z.1 z.2) (x, y)) :
    ∀ᶠ q : ((Fin m → ℝ) × (Fin n → ℝ)) × ℝ in 𝓝 ((x, y), 0),
      RK4.step f (vfin q.1.1) (vfin q.1.2) (.fin q.2) =
        .ok (vfin (shift q.1.1 q.2), vfin (classicalRK4 g q.1.1 q.1.2 q.2)) ∧
      f (vfin (shift q.1.1 q.2)) (vfin (classicalRK4 g q.1.1 q.1.2 q.2)) =
        .ok (vfin (g (shift q.1.1 q.2) (classicalRK4 g q.1.1 q.1.2 q.2))) := by
  have hq1 : Tendsto (fun q : ((Fin m → ℝ) × (Fin n → ℝ)) × ℝ => q.1.1) (𝓝 ((x, y), 0)) (𝓝 x) :=
    (continuous_fst.comp continuous_fst).tendsto _
  have hq2 : Tendsto (fun q : ((Fin m → ℝ) × (Fin n → ℝ)) × ℝ => q.1.2) (𝓝 ((x, y), 0)) (𝓝 y) :=
    (continuous_snd.comp continuous_fst).tendsto _
  have hq : Tendsto (fun q : ((Fin m → ℝ) × (Fin n → ℝ)) × ℝ => q.1) (𝓝 ((x, y), 0)) (𝓝 (x, y)) :=
    continuous_fst.tendsto _
  have hh : ∀ c : ℝ, Tendsto (fun q : ((Fin m → ℝ) × (Fin n → ℝ)) × ℝ => c * q.2)
      (𝓝 ((x, y), 0)) (𝓝 0) := by
    intro c
    have : Continuous fun q : ((Fin m → ℝ) × (Fin n → ℝ)) × ℝ => c * q.2 := by fun_prop
    simpa using this.tendsto ((x, y), 0)
  have base : ∀ (c d : ℝ) (k : ((Fin m → ℝ) × (Fin n → ℝ)) × ℝ → Fin n → ℝ) (k0 : Fin n → ℝ),
      Tendsto k (𝓝 ((x, y), 0)) (𝓝 k0) →
      Tendsto (fun q => (shift q.1.1 (c * q.2), q.1.2 + (d * q.2) • k q)) (𝓝 ((x, y), 0))
        (𝓝 (x, y)) := by
    intro c d k k0 hk
    refine Tendsto.prodMk_nhds ?_ ?_
    · have := hq1.add ((hh c).smul_const (fun _ : Fin m => (1 : ℝ)))
      simp only [zero_smul, add_zero] at this
      refine this.congr fun h => (shift_eq _ _).symm
    · have := hq2.add ((hh d).smul hk)
      simpa using this
  have stage : ∀ (c : ℝ) (k : ((Fin m → ℝ) × (Fin n → ℝ)) × ℝ → Fin n → ℝ),
      Tendsto k (𝓝 ((x, y), 0)) (𝓝 (g x y)) →
      Tendsto (fun q => g (shift q.1.1 (c * q.2)) (q.1.2 + (c * q.2) • k q)) (𝓝 ((x, y), 0))
        (𝓝 (g x y)) := by
    intro c k hk
    exact hg.tendsto.comp (base c c k _ hk)
  have t1 : Tendsto (fun q : ((Fin m → ℝ) × (Fin n → ℝ)) × ℝ => g q.1.1 q.1.2) (𝓝 ((x, y), 0))
      (𝓝 (g x y)) := hg.tendsto.comp hq
  have t2 := stage (1 / 2) _ t1
  have t3 := stage (1 / 2) _ t2
  have t4 := stage 1 _ t3
  have t5 := base 1 (1 / 6) _ _ (((t1.add (t2.const_smul (2 : ℝ))).add (t3.const_smul (2 : ℝ))).add t4)
  filter_upwards [hq.eventually hf, (base (1 / 2) (1 / 2) _ _ t1).eventually hf,
    (base (1 / 2) (1 / 2) _ _ t2).eventually hf, (base 1 1 _ _ t3).eventually hf,
    t5.eventually hf] with q e1 e2 e3 e4 e5
  simp only [one_mul] at e4 e5
  simp only [one_div_mul_eq_div] at e2 e3 e4 e5
  exact ⟨C51_stages e1 e2 e3 e4, e5⟩

/-- **C75** (refinement).  Let `Y` solve the differential equation `y' = g(x, y)` over the time from
0 to `T`, and let the right-hand side be computed without failure, and be analytic, near that
solution.  Then for all small step sizes `h` successive integration steps that start at `Y 0` succeed,
and after `k` steps, as long as `k h ≤ T`, the result differs from the exact solution `Y (k h)` by at
most `K h^4`. -/
theorem C75_convergence {m n : Nat}
    {f : (Fin m → XR) → (Fin n → XR) → Except Panic (Fin n → XR)}
    {g : (Fin m → ℝ) → (Fin n → ℝ) → (Fin n → ℝ)} {x : Fin m → ℝ} {Y : ℝ → Fin n → ℝ} {T : ℝ}
    (hT : 0 ≤ T)
    (hf : ∀ t ∈ Set.Icc 0 T, ∀ᶠ z in 𝓝 (shift x t, Y t),
      f (vfin z.1) (vfin z.2) = .ok (vfin (g z.1 z.2)))
    (hg : ∀ t ∈ Set.Icc 0 T,
      AnalyticAt ℝ (fun z : (Fin m → ℝ) × (Fin n → ℝ) => g z.1 z.2) (shift x t, Y t))
    (hY : ∀ t ∈ Set.Icc 0 T, ∀ᶠ s in 𝓝 t, HasDerivAt Y (g (shift x s) (Y s)) s) :
    ∃ K δ, 0 < δ ∧ ∀ h, 0 < h → h < δ → ∃ y : ℕ → Fin n → ℝ, y 0 = Y 0 ∧
      ∀ k : ℕ, k * h ≤ T →
        RK4.step f (vfin (shift x (k * h))) (vfin (y k)) (.fin h) =
          .ok (vfin (shift x ((k + 1) * h)), vfin (y (k + 1))) ∧
        (∃ w, f (vfin (shift x ((k + 1) * h))) (vfin (y (k + 1))) = .ok w) ∧
        ∀ i, |y k i - Y (k * h) i| ≤ K * h ^ 4 := by
  let d : Fin m → ℝ := fun _ => 1
  let F : (Fin m → ℝ) × (Fin n → ℝ) → (Fin m → ℝ) × (Fin n → ℝ) := fun z => (d, g z.1 z.2)
  let Z : ℝ → (Fin m → ℝ) × (Fin n → ℝ) := fun t => (x + t • d, Y t)
  have hZ : ∀ t, Z t = (shift x t, Y t) := fun t => by rw [shift_eq]
  obtain ⟨K, δ, hδ, H⟩ := RKOrder.global_error (f := F) (x := Z) hT
    (fun t ht => by
      rw [hZ]
      exact analyticAt_const.prod (hg t ht))
    (fun t ht => by
      filter_upwards [hY t ht] with s hs
      refine HasDerivAt.prodMk ?_ ?_
      · simpa using ((hasDerivAt_id s).smul_const d).const_add x
      · show HasDerivAt Y (g (x + s • d) (Y s)) s
        rw [← shift_eq]
        exact hs)
    (Q := fun z h => RK4.step f (vfin z.1) (vfin z.2) (.fin h) =
        .ok (vfin (shift z.1 h), vfin (classicalRK4 g z.1 z.2 h)) ∧
      f (vfin (shift z.1 h)) (vfin (classicalRK4 g z.1 z.2 h)) =
        .ok (vfin (g (shift z.1 h) (classicalRK4 g z.1 z.2 h))))
    (fun t ht => by
      rw [hZ]
      exact rk4_around (hf t ht) (hg t ht).continuousAt)
  refine ⟨K, δ, hδ, fun h h0 hh => ?_⟩
  let z : ℕ → (Fin m → ℝ) × (Fin n → ℝ) := fun k => (fun y => RKOrder.rk4 F y h)^[k] (Z 0)
  have hz : ∀ k, z (k + 1) = (shift (z k).1 h, classicalRK4 g (z k).1 (z k).2 h) := by
    intro k
    show (fun y => RKOrder.rk4 F y h)^[k + 1] (Z 0) = _
    rw [Function.iterate_succ_apply']
    show RKOrder.rk4 F (z k) h = _
    rw [classicalRK4_eq, shift_eq]
    exact RKOrder.rk4_prod g d (z k).1 (z k).2 h
  have hz1 : ∀ k : ℕ, (z k).1 = shift x (k * h) := by
    intro k
    induction k with
    | zero =>
      show x + (0 : ℝ) • d = _
      funext i
      simp [shift]
    | succ k ih =>
      rw [hz, ih]
      show shift (shift x (k * h)) h = _
      rw [shift_shift]
      congr 1
      push_cast
      ring
  refine ⟨fun k => (z k).2, rfl, fun k hk => ?_⟩
  obtain ⟨e1, e2, e3⟩ := H h h0 hh k hk
  change RK4.step f (vfin (z k).1) (vfin (z k).2) (.fin h) = .ok (vfin (shift (z k).1 h),
    vfin (classicalRK4 g (z k).1 (z k).2 h)) at e2
  change f (vfin (shift (z k).1 h)) (vfin (classicalRK4 g (z k).1 (z k).2 h)) = _ at e3
  have a1 : shift (z k).1 h = shift x ((k + 1) * h) := by
    rw [hz1, shift_shift]
    congr 1
    ring
  have a2 : classicalRK4 g (z k).1 (z k).2 h = (z (k + 1)).2 := by rw [hz]
  rw [a1, a2] at e2 e3
  rw [hz1] at e2
  refine ⟨e2, ⟨_, e3⟩, fun i => ?_⟩
  have h1 : ‖(z k).2 - Y (k * h)‖ ≤ K * h ^ 4 := (le_max_right _ _).trans e1
  have h2 := norm_le_pi_norm ((z k).2 - Y (k * h)) i
  exact h2.trans h1

/-- The hypotheses are met by `y' = -y`, `y(0) = 1` over the time from 0 to 5. -/
example : ∃ K δ : ℝ, 0 < δ ∧ ∀ h, 0 < h → h < δ → ∃ y : ℕ → Fin 1 → ℝ, y 0 = 1 ∧
    ∀ k : ℕ, k * h ≤ 5 →
      RK4.step (dX := 1) (dY := 1) (fun _ y => .ok fun i => -y i) (vfin (shift 0 (k * h)))
        (vfin (y k)) (.fin h) = .ok (vfin (shift 0 ((k + 1) * h)), vfin (y (k + 1))) ∧
      ∀ i, |y k i - Real.exp (-(k * h))| ≤ K * h ^ 4 := by
  obtain ⟨K, δ, hδ, H⟩ := C75_convergence (m := 1) (n := 1) (f := fun _ y => .ok fun i => -y i)
    (g := fun _ y => -y) (x := 0) (Y := fun t _ => Real.exp (-t)) (T := 5) (by norm_num)
    (fun _ _ => Eventually.of_forall fun _ => rfl) (fun _ _ => analyticAt_snd.neg)
    (fun _ _ => Eventually.of_forall fun t => by
      rw [hasDerivAt_pi]
      intro i
      have := (Real.hasDerivAt_exp (-t)).comp t (hasDerivAt_neg t)
      rw [mul_neg, mul_one] at this
      exact this)
  refine ⟨K, δ, hδ, fun h h0 hh => ?_⟩
  obtain ⟨y, y0, hy⟩ := H h h0 hh
  refine ⟨y, ?_, fun k hk => ⟨(hy k hk).1, (hy k hk).2.2⟩⟩
  rw [y0]
  funext i
  simp

/-! ## Flights -/

/-- the derivatives that the equations of motion of a phase yield, where they are real numbers -/
noncomputable def realRhs (p : Phase XR) (x : Fin 2 → ℝ) (y : Fin 7 → ℝ) : Fin 7 → ℝ :=
  open Classical in
  if h : ∃ k, convertedFunc p.system (vfin x) (vfin y) = .ok (vfin k) then h.choose else 0

theorem vfin_inj {n : Nat} {a b : Fin n → ℝ} (h : vfin a = vfin b) : a = b := by
  funext i
  have := congrFun h i
  exact (XR.fin_inj _ _).1 this

theorem realRhs_eq {p : Phase XR} {x : Fin 2 → ℝ} {y k : Fin 7 → ℝ}
    (h : convertedFunc p.system (vfin x) (vfin y) = .ok (vfin k)) : realRhs p x y = k := by
  have h1 : ∃ k, convertedFunc p.system (vfin x) (vfin y) = .ok (vfin k) := ⟨k, h⟩
  unfold realRhs
  rw [dif_pos h1]
  have h2 := h1.choose_spec
  have h2 := h.symm.trans h2
  injection h2 with h2
  exact (vfin_inj h2).symm

theorem converted_of_system {p : Phase XR} {x : Fin 2 → ℝ} {y k : Fin 7 → ℝ}
    (h : ∃ d, p.system (State.fromVec (vfin x) (vfin y)) = .ok d ∧
      d.toDifferentialsVector = vfin k) :
    convertedFunc p.system (vfin x) (vfin y) = .ok (vfin k) := by
  obtain ⟨d, hd, hk⟩ := h
  unfold convertedFunc
  rw [hd]
  show Except.ok d.toDifferentialsVector = _
  rw [hk]

theorem smoothMotion_near {p : Phase XR} {t te m : ℝ} {r v : V3 ℝ} (h : SmoothMotion p t te r v m) :
    AnalyticAt ℝ (fun z : (Fin 2 → ℝ) × (Fin 7 → ℝ) => realRhs p z.1 z.2) (![t, te], seven r v m) ∧
    ∀ᶠ z in 𝓝 ((![t, te], seven r v m) : (Fin 2 → ℝ) × (Fin 7 → ℝ)),
      convertedFunc p.system (vfin z.1) (vfin z.2) = .ok (vfin (realRhs p z.1 z.2)) := by
  obtain ⟨g, h1, h2⟩ := h
  have h3 : ∀ᶠ z in 𝓝 ((![t, te], seven r v m) : (Fin 2 → ℝ) × (Fin 7 → ℝ)),
      convertedFunc p.system (vfin z.1) (vfin z.2) = .ok (vfin (g z)) :=
    h2.mono fun z hz => converted_of_system hz
  refine ⟨h1.congr ?_, ?_⟩
  · filter_upwards [h3] with z hz
    exact (realRhs_eq hz).symm
  · filter_upwards [h3] with z hz
    rw [realRhs_eq hz]
    exact hz

theorem fliesBy_rhs {p : Phase XR} {t0 t : ℝ} {r v : ℝ → V3 ℝ} {m : ℝ → ℝ}
    (h : FliesBy p t0 r v m t) :
    HasDerivAt (fun τ => seven (r τ) (v τ) (m τ))
      (realRhs p ![t, t - t0] (seven (r t) (v t) (m t))) t := by
  obtain ⟨d, acc, flow, h1, h2, h3, h4, h5, h6⟩ := h
  have hs : State.fromVec (vfin ![t, t - t0]) (vfin (seven (r t) (v t) (m t))) =
      { State.default with
        time := .fin t
        timeSinceEvent := .fin (t - t0)
        position := (r t).fin
        velocity := (v t).fin
        mass := .fin (m t) } := rfl
  rw [← hs] at h1
  have hv := (Phase.system_primary h1).2.2.2.1
  have hk : d.toDifferentialsVector = vfin (seven (v t) acc flow) := by
    funext i
    unfold State.toDifferentialsVector
    rw [hv, h2, h3]
    fin_cases i <;> rfl
  rw [realRhs_eq (converted_of_system ⟨d, h1, hk⟩), hasDerivAt_pi]
  intro i
  fin_cases i
  · exact h4.1
  · exact h4.2.1
  · exact h4.2.2
  · exact h5.1
  · exact h5.2.1
  · exact h5.2.2
  · exact h6

theorem rnorm_le_three {a : V3 ℝ} {e : ℝ} (h1 : |a.x| ≤ e) (h2 : |a.y| ≤ e) (h3 : |a.z| ≤ e) :
    rnorm a ≤ 3 * e := by
  have he : 0 ≤ e := (abs_nonneg _).trans h1
  unfold rnorm
  refine Real.sqrt_le_iff.2 ⟨by positivity, ?_⟩
  have k : ∀ x : ℝ, |x| ≤ e → x ^ 2 ≤ e ^ 2 := fun x hx => sq_le_sq' (abs_le.1 hx).1 (abs_le.1 hx).2
  have := k _ h1
  have := k _ h2
  have := k _ h3
  nlinarith [sq_nonneg e]

/-- **C75** (flights).  Let the curves `r`, `v` and `m` be an exact flight by the equations of motion of
a phase, from before the time `t1` until after `t1 + T`, along which the equations of motion are
analytic.  Then for all small step sizes `h` successive integration steps of the phase that start at
time `t1` on that flight succeed, and after `k` steps, as long as `k h ≤ T`, position, velocity and
mass differ from the exact ones by at most `K h^4`. -/
theorem C75_flight {p : Phase XR} {t0 t1 T lo hi : ℝ} {r v : ℝ → V3 ℝ} {m : ℝ → ℝ} (hT : 0 ≤ T)
    (hlo : lo < t1) (hhi : t1 + T < hi) (hfly : ∀ t ∈ Set.Ioo lo hi, FliesBy p t0 r v m t)
    (hsm : ∀ t ∈ Set.Icc t1 (t1 + T), SmoothMotion p t (t - t0) (r t) (v t) (m t))
    {s0 : State XR} (hs0 : IsAt s0 t1 (t1 - t0) (r t1) (v t1) (m t1)) :
    ∃ K δ : ℝ, 0 < δ ∧ ∀ h, 0 < h → h < δ → ∃ s : ℕ → State XR, s 0 = s0 ∧
      ∀ k : ℕ, k * h ≤ T → OneStep p (.fin h) (s k) (s (k + 1)) ∧
        ∃ r' v' m', IsAt (s k) (t1 + k * h) (t1 + k * h - t0) r' v' m' ∧
          rnorm (rsub r' (r (t1 + k * h))) ≤ K * h ^ 4 ∧
          rnorm (rsub v' (v (t1 + k * h))) ≤ K * h ^ 4 ∧ |m' - m (t1 + k * h)| ≤ K * h ^ 4 := by
  have hsh : ∀ t, shift ![t1, t1 - t0] t = ![t1 + t, t1 + t - t0] := by
    intro t
    funext i
    fin_cases i
    · rfl
    · show t1 - t0 + t = t1 + t - t0
      ring
  have hmem : ∀ t ∈ Set.Icc 0 T, t1 + t ∈ Set.Icc t1 (t1 + T) := fun t ht =>
    ⟨by linarith [ht.1], by linarith [ht.2]⟩
  obtain ⟨K, δ, hδ, H⟩ := C75_convergence (f := convertedFunc p.system) (g := realRhs p)
    (x := ![t1, t1 - t0]) (Y := fun t => seven (r (t1 + t)) (v (t1 + t)) (m (t1 + t))) hT
    (fun t ht => by
      rw [hsh]
      exact (smoothMotion_near (hsm _ (hmem t ht))).2)
    (fun t ht => by
      rw [hsh]
      exact (smoothMotion_near (hsm _ (hmem t ht))).1)
    (fun t ht => by
      have h1 : Tendsto (fun s : ℝ => t1 + s) (𝓝 t) (𝓝 (t1 + t)) := by
        have : Continuous fun s : ℝ => t1 + s := by fun_prop
        exact this.tendsto t
      have h2 : Set.Ioo lo hi ∈ 𝓝 (t1 + t) :=
        Ioo_mem_nhds (by linarith [ht.1]) (by linarith [ht.2])
      filter_upwards [h1.eventually h2] with s hs
      rw [hsh]
      have h3 := fliesBy_rhs (hfly _ hs)
      have h4 : HasDerivAt (fun s : ℝ => t1 + s) 1 s := (hasDerivAt_id s).const_add t1
      have h5 := HasDerivAt.scomp s h3 h4
      rw [one_smul] at h5
      exact h5)
  refine ⟨3 * K, δ, hδ, fun h h0 hh => ?_⟩
  obtain ⟨y, y0, hy⟩ := H h h0 hh
  let st : ℕ → State XR := fun k =>
    State.fromVec (vfin (shift ![t1, t1 - t0] (k * h))) (vfin (y k))
  let s : ℕ → State XR := fun k => match k with
    | 0 => s0
    | k + 1 => match p.system (st (k + 1)) with
      | .ok d => d
      | .error _ => s0
  have hsys : ∀ k : ℕ, (k : ℝ) * h ≤ T → p.system (st (k + 1)) = .ok (s (k + 1)) := by
    intro k hk
    obtain ⟨w, hw⟩ := (hy k hk).2.1
    have e : ((k : ℝ) + 1) * h = ((k + 1 : ℕ) : ℝ) * h := by push_cast; ring
    rw [e] at hw
    cases hd : p.system (st (k + 1)) with
    | ok d =>
      have e1 : s (k + 1) = match p.system (st (k + 1)) with
        | .ok d => d
        | .error _ => s0 := rfl
      rw [e1, hd]
    | error e =>
      unfold convertedFunc at hw
      change (p.system (st (k + 1))).bind _ = _ at hw
      rw [hd] at hw
      cases hw
  have hat : ∀ k : ℕ, (k : ℝ) * h ≤ T → IsAt (s k) (t1 + k * h) (t1 + k * h - t0) (pos7 (y k))
      (vel7 (y k)) (y k 6) := by
    intro k hk
    cases k with
    | zero =>
      show IsAt s0 _ _ _ _ _
      have e : t1 + ((0 : ℕ) : ℝ) * h = t1 := by simp
      rw [e, y0, add_zero]
      exact hs0
    | succ k =>
      have hk' : (k : ℝ) * h ≤ T := by
        push_cast at hk
        nlinarith
      have hp := Phase.system_primary (hsys k hk')
      refine ⟨?_, ?_, ?_, ?_, ?_⟩
      · rw [hp.1]
        show XR.fin (shift ![t1, t1 - t0] _ 0) = _
        rw [hsh]
        rfl
      · rw [hp.2.1]
        show XR.fin (shift ![t1, t1 - t0] _ 1) = _
        rw [hsh]
        rfl
      · rw [hp.2.2.1]; rfl
      · rw [hp.2.2.2.1]; rfl
      · rw [hp.2.2.2.2]; rfl
  refine ⟨s, rfl, fun k hk => ⟨?_, pos7 (y k), vel7 (y k), y k 6, hat k hk, ?_⟩⟩
  · have ha := hat k hk
    have e1 : vec2 (s k).time (s k).timeSinceEvent = vfin (shift ![t1, t1 - t0] (k * h)) := by
      rw [ha.time, ha.timeSinceEvent, hsh]
      funext i
      fin_cases i <;> rfl
    have e2 : (s k).toPrimaryVec = vfin (y k) := by
      unfold State.toPrimaryVec
      rw [ha.position, ha.velocity, ha.mass]
      funext i
      fin_cases i <;> rfl
    have e3 := (hy k hk).1
    unfold OneStep
    cases p.integrator
    unfold Integrator.step
    simp only
    rw [e1, e2, e3]
    show p.system (State.fromVec (vfin (shift _ ((k + 1) * h))) (vfin (y (k + 1)))) = _
    have e : ((k : ℝ) + 1) * h = ((k + 1 : ℕ) : ℝ) * h := by push_cast; ring
    rw [e]
    exact hsys k hk
  · have hb := (hy k hk).2.2
    have hK : 0 ≤ K * h ^ 4 := (abs_nonneg _).trans (hb 0)
    rw [mul_assoc]
    exact ⟨rnorm_le_three (hb 0) (hb 1) (hb 2), rnorm_le_three (hb 3) (hb 4) (hb 5),
      (hb 6).trans (by linarith)⟩

/-! ## Free fall -/

/-- **C75** (orbits).  Around any planet, without engines, atmosphere and acceleration limit, the
integration converges to every exact orbit: after `k` steps of size `h`, for `k h ≤ T`, position and
velocity differ from those on the orbit by at most `K h^4`, for all small `h`. -/
theorem C75_orbit {p : Phase XR} {a b μ j2 j3 j4 ω : ℝ} (hp : Coasting p a b μ j2 j3 j4 ω)
    {t0 t1 T lo hi : ℝ} {r v : ℝ → V3 ℝ} {m : ℝ → ℝ} (hT : 0 ≤ T)
    (hlo : lo < t1) (hhi : t1 + T < hi) (hsol : ∀ t ∈ Set.Ioo lo hi, SolvesMotion p t0 r v m t)
    (hm : m t1 ≠ 0) {s0 : State XR} (hs0 : IsAt s0 t1 (t1 - t0) (r t1) (v t1) (m t1)) :
    ∃ K δ : ℝ, 0 < δ ∧ ∀ h, 0 < h → h < δ → ∃ s : ℕ → State XR, s 0 = s0 ∧
      ∀ k : ℕ, k * h ≤ T → OneStep p (.fin h) (s k) (s (k + 1)) ∧
        ∃ r' v' m', IsAt (s k) (t1 + k * h) (t1 + k * h - t0) r' v' m' ∧
          rnorm (rsub r' (r (t1 + k * h))) ≤ K * h ^ 4 ∧
          rnorm (rsub v' (v (t1 + k * h))) ≤ K * h ^ 4 ∧ |m' - m (t1 + k * h)| ≤ K * h ^ 4 := by
  have facts : ∀ t ∈ Set.Ioo lo hi, ∃ acc : V3 ℝ, p.planet.gravity (r t).fin = acc.fin ∧
      r t ≠ ⟨0, 0, 0⟩ ∧ HasVelocity r (v t) t ∧ HasVelocity v acc t ∧ HasDerivAt m 0 t := by
    intro t ht
    obtain ⟨s, d, acc, flow, h1, h2, h3, h4, h5, h6, h7, h8, h9, h10, h11⟩ := hsol t ht
    obtain ⟨g1, g2⟩ := coasting_acceleration hp.engines hp.vacuum h6 h7
    rw [h3] at g1
    rw [h8] at g2
    rw [(XR.fin_inj _ _).1 g2] at h11
    refine ⟨acc, g1, ?_, h9, h10, h11⟩
    intro h0
    rw [h0, hp.planet] at g1
    exact gravity_centre _ _ _ _ _ _ _ g1
  have hmass : ∀ t ∈ Set.Ioo lo hi, m t = m t1 := by
    have h1 : t1 ∈ Set.Ioo lo hi := ⟨hlo, by linarith⟩
    intro t ht
    rcases le_total t1 t with hle | hle
    · exact constant_between hle fun s hs => by
        obtain ⟨_, _, _, _, _, h⟩ := facts s ⟨by linarith [hs.1], by linarith [hs.2, ht.2]⟩
        exact h
    · exact (constant_between hle fun s hs => by
        obtain ⟨_, _, _, _, _, h⟩ := facts s ⟨by linarith [hs.1, ht.1], by linarith [hs.2]⟩
        exact h).symm
  have hrhs : ∀ t ∈ Set.Ioo lo hi, pos7 (seven (r t) (v t) (m t)) ≠ ⟨0, 0, 0⟩ ∧
      seven (r t) (v t) (m t) 6 ≠ 0 := by
    intro t ht
    obtain ⟨_, _, h, _⟩ := facts t ht
    refine ⟨h, ?_⟩
    show m t ≠ 0
    rw [hmass t ht]
    exact hm
  refine C75_flight hT hlo hhi ?_ ?_ hs0
  · intro t ht
    obtain ⟨acc, h1, h2, h3, h4, h5⟩ := facts t ht
    obtain ⟨d, hd⟩ := system_coasting_ok hp.unlimited hp.engines hp.tables
      { State.default with
        time := .fin t
        timeSinceEvent := .fin (t - t0)
        position := (r t).fin
        velocity := (v t).fin
        mass := .fin (m t) }
    obtain ⟨lat, long, az, hl⟩ := hp.launch
    obtain ⟨roll, yaw, pitch, he⟩ := hp.attitude _ d t (t - t0) (m t) (r t) (v t) rfl rfl rfl rfl rfl
      h2 hd
    obtain ⟨g1, g2⟩ := system_free_fall hp.engines hp.vacuum hd rfl (hrhs t ht).2 hl he
    exact ⟨d, acc, 0, hd, g1.trans h1, g2, h3, h4, h5⟩
  · intro t ht
    have ht' : t ∈ Set.Ioo lo hi := ⟨by linarith [ht.1], by linarith [ht.2]⟩
    refine ⟨fun z => fall a μ j2 j3 j4 z.2, ?_, ?_⟩
    · exact (analyticAt_fall a μ j2 j3 j4 (hrhs t ht').1).comp_of_eq analyticAt_snd rfl
    · have h1 := coasting_rhs_near (x := ![t, t - t0]) hp (hrhs t ht').1 (hrhs t ht').2
      filter_upwards [h1] with z hz
      unfold convertedFunc at hz
      cases hd : p.system (State.fromVec (vfin z.1) (vfin z.2)) with
      | error e =>
        rw [hd] at hz
        cases hz
      | ok d =>
        rw [hd] at hz
        refine ⟨d, rfl, ?_⟩
        change Except.ok d.toDifferentialsVector = _ at hz
        injection hz

/-- `C75_orbit` applies to ten revolutions of the circular orbit of radius one. -/
example : ∃ K δ : ℝ, 0 < δ ∧ ∀ h, 0 < h → h < δ → ∃ s : ℕ → State XR,
    s 0 = { exampleOrbit.state with position := V3.fin ⟨1, 0, 0⟩, velocity := V3.fin ⟨0, 1, 0⟩,
                                    mass := .fin 1 } ∧
    ∀ k : ℕ, k * h ≤ 63 → OneStep exampleOrbit (.fin h) (s k) (s (k + 1)) ∧
      ∃ r' v' m', IsAt (s k) (0 + k * h) (0 + k * h - 0) r' v' m' ∧
        rnorm (rsub r' ⟨Real.cos (0 + k * h), Real.sin (0 + k * h), 0⟩) ≤ K * h ^ 4 ∧
        rnorm (rsub v' ⟨-Real.sin (0 + k * h), Real.cos (0 + k * h), 0⟩) ≤ K * h ^ 4 ∧
        |m' - 1| ≤ K * h ^ 4 :=
  C75_orbit exampleOrbit_coasting (t1 := 0) (T := 63) (lo := -1) (hi := 64)
    (r := fun t => ⟨Real.cos t, Real.sin t, 0⟩) (v := fun t => ⟨-Real.sin t, Real.cos t, 0⟩)
    (m := fun _ => 1) (by norm_num) (by norm_num) (by norm_num) (fun t _ => exampleOrbit_circle t)
    one_ne_zero ⟨XR.fin_zero, by rw [sub_zero]; exact XR.fin_zero, by simp, by simp, rfl⟩

end Post
