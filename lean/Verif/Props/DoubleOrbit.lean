import Verif.Lemmas.StepF64
/-! # C84: how far an orbit simulated in double precision is from the true one -/

namespace Post
open Spec Flt F64

section
variable {L : Libm}

noncomputable section

/-- the first steps of the flight: the states and their values -/
structure Flight (p : Phase (F64 L)) (h : F64 L) (η : ℝ) (f : (Fin 7 → ℝ) → Fin 7 → ℝ) (m : ℚ) (s0 : State (F64 L))
    (Y0 : Fin 7 → ℝ) (n : ℕ) (s : ℕ → State (F64 L)) (Y : ℕ → Fin 7 → ℝ) : Prop where
  start : s 0 = s0
  start' : Y 0 = Y0
  step : ∀ k < n, OneStep p h (s k) (s (k + 1))
  vals : ∀ k ≤ n, Vals (s k) (Y k) m
  time : ∀ k ≤ n, ∀ i, ∃ t, Reads (vec2 (s k).time (s k).timeSinceEvent i) t ∧ |t| ≤ 1e8 + 2 * k
  err : ∀ k < n, ∀ i, i ≠ 6 → |Y (k + 1) i - RKOrder.rk4 f (Y k) η i| ≤ eY i

/-- the bound in velocity units -/
theorem double_bound {h N : ℝ} (hh : 0 < h) (k : ℕ) :
    Kepler.bound (1 / 375) h N (1 / 375 * (7 * (6.4e6 / 4) * (h / 130) ^ 5 + 1e-8) +
      (7 * 4176 * (h / 130) ^ 5 + 6e-11)) k ≤
      N * Real.exp (k * h / 375) + (0.000597 * h ^ 4 + 3.5e-8 / h) * (Real.exp (k * h / 375) - 1) := by
  unfold Kepler.bound
  rw [show (1 / 375 * (k * h) : ℝ) = k * h / 375 by ring]
  have h1 : 0 ≤ Real.exp (k * h / 375) - 1 := by
    have := Real.add_one_le_exp (k * h / 375)
    have : 0 ≤ (k : ℝ) * h / 375 := by positivity
    linarith
  have e : (1 / 375 * (7 * (6.4e6 / 4) * (h / 130) ^ 5 + 1e-8) + (7 * 4176 * (h / 130) ^ 5 + 6e-11)) *
      ((Real.exp (k * h / 375) - 1) / (1 / 375 * h)) =
      (((7 * (6.4e6 / 4) + 375 * 7 * 4176) / 130 ^ 5) * h ^ 4 + (1e-8 + 375 * 6e-11) / h) *
        (Real.exp (k * h / 375) - 1) := by
    field_simp
    ring
  rw [e]
  have h2 : ((7 * (6.4e6 / 4) + 375 * 7 * 4176) / 130 ^ 5 : ℝ) ≤ 0.000597 := by norm_num
  have h4 : ((1e-8 + 375 * 6e-11) : ℝ) ≤ 3.5e-8 := by norm_num
  have h3 : (((7 * (6.4e6 / 4) + 375 * 7 * 4176) / 130 ^ 5) * h ^ 4 + (1e-8 + 375 * 6e-11) / h) *
      (Real.exp (k * h / 375) - 1) ≤ (0.000597 * h ^ 4 + 3.5e-8 / h) * (Real.exp (k * h / 375) - 1) := by
    gcongr
  linarith

theorem rdist_pos7 {Y Z : Fin 7 → ℝ} (h : ∀ i, i ≠ 6 → |Y i - Z i| ≤ eY i) :
    rdist (pos7 Y) (pos7 Z) ≤ 1e-8 ∧ rdist (vel7 Y) (vel7 Z) ≤ 6e-11 := by
  constructor
  · refine (rnorm_le_of_comp (e := 2.8e-9) (h 0 (by decide)) (h 1 (by decide)) (h 2 (by decide))).trans ?_
    norm_num
  · refine (rnorm_le_of_comp (e := 2.9e-11) (h 3 (by decide)) (h 4 (by decide)) (h 5 (by decide))).trans ?_
    norm_num

variable {p : Phase (F64 L)} {a b μ j2 j3 j4 ω : ℝ} {gC : Kepler.C3 → Kepler.C3} {h : F64 L} {η er ev : ℝ} {n : ℕ}
  {r v : ℝ → V3 ℝ} {s0 : State (F64 L)} {Y0 : Fin 7 → ℝ} {m : ℚ}

theorem flight_close (H : Kepler.Field (field a μ j2 j3 j4) gC 6.4e6 32.12 7.04e-6) (hη0 : 0 < η) (hη1 : η ≤ 1)
    (hfall : ∀ t ∈ Set.Icc 0 (n * η), FreeFall (realPlanet a b μ j2 j3 j4 ω) r v t)
    (hlo : ∀ t ∈ Set.Icc 0 (n * η), 6.5e6 ≤ rnorm (r t))
    (hvV : ∀ t ∈ Set.Icc 0 (n * η), rnorm (v t) ≤ 8000)
    (hr0 : rdist (pos7 Y0) (r 0) ≤ er) (hv0 : rdist (vel7 Y0) (v 0) ≤ ev)
    (hsmall : (er + 375 * ev) * Real.exp (n * η / 375) +
      (0.2239 * η ^ 4 + 1.4e-5 / η) * (Real.exp (n * η / 375) - 1) ≤ 86000)
    {s : ℕ → State (F64 L)} {Y : ℕ → Fin 7 → ℝ}
    (hF : Flight p h η (fall a μ j2 j3 j4) m s0 Y0 n s Y) :
    ∀ k ≤ n, 1 / 375 * rdist (pos7 (Y k)) (r (k * η)) + rdist (vel7 (Y k)) (v (k * η)) ≤
      (1 / 375 * er + ev) * Real.exp (k * η / 375) +
        (0.000597 * η ^ 4 + 3.5e-8 / η) * (Real.exp (k * η / 375) - 1) := by
  have hstart : ∀ t ∈ Set.Icc 0 (n * η), HasVelocity r (v t) t ∧
      HasVelocity v (grav a μ j2 j3 j4 (r t)) t := by
    intro t ht
    obtain ⟨g, h1, h2, h3⟩ := hfall t ht
    have hne : r t ≠ ⟨0, 0, 0⟩ := by
      intro h0
      rw [h0] at h1
      exact gravity_centre _ _ _ _ _ _ _ h1
    rw [gravity_grav _ _ _ _ _ _ _ hne] at h1
    rw [V3.fin_inj.1 h1]
    exact ⟨h2, h3⟩
  have hη2 : η ^ 2 ≤ 1 := by nlinarith
  have main := Kepler.flight_error (z := fun k => proj7 (Y k)) (r := fun t => e3 (r t))
    (v := fun t => e3 (v t)) (n := n) (t1 := 0) (D := 86000) (N := 1 / 375 * er + ev) (W := 4176) (T := 130)
    (V := 8000) (lam := 1 / 375) (er := 1e-8) (ev := 6e-11) (h := η) H (by norm_num) (by norm_num) (by norm_num)
    (by norm_num) hη0 (by linarith) (by norm_num) (by norm_num) (by norm_num)
    (by norm_num) (fun t ht => hasDerivAt_e3 (hstart t (by simpa using ht)).1)
    (fun t ht => by
      rw [field_e3]
      exact hasDerivAt_e3 (hstart t (by simpa using ht)).2)
    (fun t ht => by
      rw [norm_e3]
      refine le_trans ?_ (hlo t (by simpa using ht))
      norm_num
      nlinarith)
    (fun t ht => by rw [norm_e3]; exact hvV t (by simpa using ht))
    (by
      show 1 / 375 * ‖e3 (pos7 (Y 0)) - e3 (r 0)‖ + ‖e3 (vel7 (Y 0)) - e3 (v 0)‖ ≤ _
      rw [norm_e3_sub, norm_e3_sub, hF.start']
      linarith)
    (by
      refine (double_bound hη0 n).trans ?_
      have h1 : (0.000597 * η ^ 4 + 3.5e-8 / η) * (Real.exp (n * η / 375) - 1) ≤
          (0.2239 * η ^ 4 + 1.4e-5 / η) * (Real.exp (n * η / 375) - 1) / 375 := by
        have h2 : 0 ≤ Real.exp (n * η / 375) - 1 := by
          have := Real.add_one_le_exp (n * η / 375)
          have : 0 ≤ (n : ℝ) * η / 375 := by positivity
          linarith
        have h3 : 0.000597 * η ^ 4 + 3.5e-8 / η ≤ (0.2239 * η ^ 4 + 1.4e-5 / η) / 375 := by
          have k1 : 0 ≤ η ^ 4 := by positivity
          have k2 : 0 ≤ η⁻¹ := by positivity
          rw [div_eq_mul_inv 3.5e-8, div_eq_mul_inv 1.4e-5 η]
          generalize η ^ 4 = A at k1
          generalize η⁻¹ = B at k2
          norm_num
          linarith
        calc _ ≤ (0.2239 * η ^ 4 + 1.4e-5 / η) / 375 * (Real.exp (n * η / 375) - 1) := by gcongr
          _ = _ := by ring
      linarith)
    (fun k hk _ _ => by
      simp only [Kepler.rk4_map proj7 (proj7_fall a μ j2 j3 j4)]
      simp only [proj7_apply, norm_e3_sub]
      exact rdist_pos7 (hF.err k hk))
  intro k hk
  have := (main k hk).trans (double_bound hη0 k)
  simpa only [proj7_apply, norm_e3_sub, zero_add] using this

theorem exp_sub_one_nonneg {x : ℝ} (h : 0 ≤ x) : 0 ≤ Real.exp x - 1 := by
  have := Real.add_one_le_exp x
  linarith

theorem small_mono (hη0 : 0 < η) (her : 0 ≤ er) (hev : 0 ≤ ev) {k : ℕ} (hk : k ≤ n)
    (hsmall : (er + 375 * ev) * Real.exp (n * η / 375) +
      (0.2239 * η ^ 4 + 1.4e-5 / η) * (Real.exp (n * η / 375) - 1) ≤ 86000) :
    (er + 375 * ev) * Real.exp (k * η / 375) +
      (0.2239 * η ^ 4 + 1.4e-5 / η) * (Real.exp (k * η / 375) - 1) ≤ 86000 := by
  have hk' : (k : ℝ) ≤ n := by exact_mod_cast hk
  have h1 : Real.exp (k * η / 375) ≤ Real.exp (n * η / 375) := by gcongr
  refine le_trans ?_ hsmall
  gcongr

/-- As long as the error stays below 86 km, the steps can be taken. -/
theorem flight_exists (hL : GoodLibrary L) (hp : CoastingDouble p) (hne : NearEarth p.planet a μ j2 j3 j4)
    (H : Kepler.Field (field a μ j2 j3 j4) gC 6.4e6 32.12 7.04e-6) (hh : Reads h η) (hη0 : 0 < η) (hη1 : η ≤ 1)
    (hn : n ≤ 10 ^ 8)
    (hfall : ∀ t ∈ Set.Icc 0 (n * η), FreeFall (realPlanet a b μ j2 j3 j4 ω) r v t)
    (hlo : ∀ t ∈ Set.Icc 0 (n * η), 6.5e6 ≤ rnorm (r t))
    (hhi : ∀ t ∈ Set.Icc 0 (n * η), rnorm (r t) ≤ 1.9e7)
    (hvV : ∀ t ∈ Set.Icc 0 (n * η), rnorm (v t) ≤ 8000)
    (hr0 : rdist (pos7 Y0) (r 0) ≤ er) (hv0 : rdist (vel7 Y0) (v 0) ≤ ev)
    (hsmall : (er + 375 * ev) * Real.exp (n * η / 375) +
      (0.2239 * η ^ 4 + 1.4e-5 / η) * (Real.exp (n * η / 375) - 1) ≤ 86000)
    (hs0 : Vals s0 Y0 m) (hm : m ≠ 0)
    (ht0 : ∀ i, ∃ t, Reads (vec2 s0.time s0.timeSinceEvent i) t ∧ |t| ≤ 1e8) :
    ∃ s Y, Flight p h η (fall a μ j2 j3 j4) m s0 Y0 n s Y := by
  have her : 0 ≤ er := le_trans (by unfold rdist rnorm; positivity) hr0
  have hev : 0 ≤ ev := le_trans (by unfold rdist rnorm; positivity) hv0
  have hn8 : (n : ℝ) ≤ 100000000 := by
    calc (n : ℝ) ≤ ((10 ^ 8 : ℕ) : ℝ) := Nat.cast_le.2 hn
      _ = _ := by norm_num
  suffices hk : ∀ k ≤ n, ∃ s Y, Flight p h η (fall a μ j2 j3 j4) m s0 Y0 k s Y from hk n le_rfl
  intro k
  induction k with
  | zero =>
    intro _
    refine ⟨fun _ => s0, fun _ => Y0, rfl, rfl, by simp, fun _ _ => hs0, fun k hk i => ?_, by simp⟩
    obtain rfl : k = 0 := by omega
    obtain ⟨t, h1, h2⟩ := ht0 i
    exact ⟨t, h1, by push_cast; linarith⟩
  | succ k ih =>
    intro hk
    obtain ⟨s, Y, hF⟩ := ih (by omega)
    have hkn : (k : ℝ) + 1 ≤ n := by exact_mod_cast hk
    have hsub : Set.Icc (0 : ℝ) (k * η) ⊆ Set.Icc 0 (n * η) :=
      Set.Icc_subset_Icc_right (by gcongr; linarith)
    have hsm := small_mono hη0 her hev (show k ≤ n by omega) hsmall
    have hc := flight_close H hη0 hη1 (fun t ht => hfall t (hsub ht)) (fun t ht => hlo t (hsub ht))
      (fun t ht => hvV t (hsub ht)) hr0 hv0 hsm hF k le_rfl
    have hmem : (k : ℝ) * η ∈ Set.Icc 0 (n * η) := hsub ⟨by positivity, le_rfl⟩
    have hp1 : 0 ≤ rdist (pos7 (Y k)) (r (k * η)) := by unfold rdist rnorm; positivity
    have hp2 : 0 ≤ rdist (vel7 (Y k)) (v (k * η)) := by unfold rdist rnorm; positivity
    have hE := exp_sub_one_nonneg (show 0 ≤ (k : ℝ) * η / 375 by positivity)
    have hbnd : 1 / 375 * rdist (pos7 (Y k)) (r (k * η)) + rdist (vel7 (Y k)) (v (k * η)) ≤ 86000 / 375 := by
      have h3 : 0.000597 * η ^ 4 + 3.5e-8 / η ≤ (0.2239 * η ^ 4 + 1.4e-5 / η) / 375 := by
        have k1 : 0 ≤ η ^ 4 := by positivity
        have k2 : 0 ≤ η⁻¹ := by positivity
        rw [div_eq_mul_inv 3.5e-8, div_eq_mul_inv 1.4e-5 η]
        generalize η ^ 4 = A at k1
        generalize η⁻¹ = B at k2
        norm_num
        linarith
      have h4 := mul_le_mul_of_nonneg_right h3 hE
      linarith
    have hreg : Reg0 (Y k) := by
      have e1 := rnorm_triangle (r (k * η)) (pos7 (Y k))
      have e2 := rnorm_triangle (pos7 (Y k)) (r (k * η))
      have e3 := rnorm_triangle (vel7 (Y k)) (v (k * η))
      rw [rdist_comm] at e1
      have l1 := hlo _ hmem
      have l2 := hhi _ hmem
      have l3 := hvV _ hmem
      norm_num at l1 l2 l3
      constructor <;> norm_num <;> linarith
    have ht9 : ∀ i, ∃ t, Reads (vec2 (s k).time (s k).timeSinceEvent i) t ∧ |t| ≤ 9e8 := by
      intro i
      obtain ⟨t, h1, h2⟩ := hF.time k le_rfl i
      refine ⟨t, h1, h2.trans ?_⟩
      norm_num
      linarith
    obtain ⟨s', hst, Y', hv', herr⟩ := coast_step hL hp hne H hh hη0.le hη1 (hF.vals k le_rfl) hm ht9 hreg
    refine ⟨fun j => if j ≤ k then s j else s', fun j => if j ≤ k then Y j else Y', ?_, ?_, ?_, ?_, ?_, ?_⟩
    · simpa using hF.start
    · simpa using hF.start'
    · intro j hj
      rcases Nat.lt_succ_iff_lt_or_eq.1 hj with h1 | rfl
      · rw [if_pos (by omega), if_pos (by omega)]
        exact hF.step j h1
      · rw [if_pos le_rfl, if_neg (by omega)]
        exact hst
    · intro j hj
      rcases Nat.le_succ_iff.1 hj with h1 | rfl
      · rw [if_pos h1, if_pos h1]
        exact hF.vals j h1
      · rw [if_neg (by omega), if_neg (by omega)]
        exact hv'
    · intro j hj i
      rcases Nat.le_succ_iff.1 hj with h1 | rfl
      · rw [if_pos h1]
        exact hF.time j h1 i
      · rw [if_neg (by omega)]
        obtain ⟨t, h1, h2⟩ := hF.time k le_rfl i
        have e : vec2 s'.time s'.timeSinceEvent i = vec2 (s k).time (s k).timeSinceEvent i + h := by
          obtain ⟨_, e1, e2⟩ := oneStep_system hst
          fin_cases i
          · exact e1
          · exact e2
        rw [e]
        have ht3 : |t| ≤ 3e8 := by
          refine h2.trans ?_
          norm_num
          linarith
        obtain ⟨q, h3, h4⟩ : Near (vec2 (s k).time (s k).timeSinceEvent i + h) (t + η) 1 := by
          refine (reads_near.1 h1).add (reads_near.1 hh) (M := 3e8 + 1)
            (abs_add_le' ht3 (by rw [abs_of_pos hη0]; exact hη1) le_rfl) ?_ ?_ <;> norm_num
        refine ⟨q, ⟨q, h3, rfl⟩, ?_⟩
        have h5 : |t + η| ≤ |t| + 1 := (abs_add_le _ _).trans (by rw [abs_of_pos hη0]; linarith)
        have h6 : |(q : ℝ)| ≤ |t + η| + 1 := by
          have := abs_sub_abs_le_abs_sub (q : ℝ) (t + η)
          linarith
        push_cast
        linarith
    · intro j hj
      rcases Nat.lt_succ_iff_lt_or_eq.1 hj with h1 | rfl
      · rw [if_pos (by omega), if_pos (by omega)]
        exact hF.err j h1
      · rw [if_pos le_rfl, if_neg (by omega)]
        exact herr

theorem readsV_of_vals {s : State (F64 L)} {Y : Fin 7 → ℝ} (h : Vals s Y m) :
    ReadsV s.position (pos7 Y) ∧ ReadsV s.velocity (vel7 Y) :=
  ⟨⟨reads_near.2 (h.val 0 (by decide)), reads_near.2 (h.val 1 (by decide)), reads_near.2 (h.val 2 (by decide))⟩,
    reads_near.2 (h.val 3 (by decide)), reads_near.2 (h.val 4 (by decide)), reads_near.2 (h.val 5 (by decide))⟩

/-- the position and velocity as one vector -/
def join7 (r v : V3 ℝ) : Fin 7 → ℝ := ![r.x, r.y, r.z, v.x, v.y, v.z, 0]

theorem vals_of_readsV {s : State (F64 L)} {r v : V3 ℝ} (hr : ReadsV s.position r) (hv : ReadsV s.velocity v)
    (hm : s.mass.Is m) (hd : s.mass.dbl.IsDouble) : Vals s (join7 r v) m := by
  refine ⟨fun i hi => ?_, hm, hd⟩
  fin_cases i
  · exact reads_near.1 hr.1
  · exact reads_near.1 hr.2.1
  · exact reads_near.1 hr.2.2
  · exact reads_near.1 hv.1
  · exact reads_near.1 hv.2.1
  · exact reads_near.1 hv.2.2
  · exact absurd rfl hi

/-- **C84** (with an error at the beginning).  In double precision, with a library as above: a simulated
orbit that begins `er` metres and `ev` metres per second off the true one and is integrated with steps of
`η ≤ 1` seconds can be continued for all `n` steps, and after `t = k η` seconds it is within
`(er + 375 ev) e^(t/375) + (0.224 η^4 + 0.000014 / η) (e^(t/375) - 1)` metres of the true orbit, and its
velocity within one 375th of this, as long as this is below 86 km at the end.  The second term is the
error of the method, the third that of the rounding. -/
theorem C84_start_error (hL : GoodLibrary L) {p : Phase (F64 L)} (hp : CoastingDouble p) {Q : Planet XR}
    (hQ : SameEarth p.planet Q) {h : F64 L} {η : ℝ} (hh : Reads h η) (hη0 : 0 < η) (hη1 : η ≤ 1)
    {n : ℕ} (hn : n ≤ 10 ^ 8) {r v : ℝ → V3 ℝ}
    (hfall : ∀ t ∈ Set.Icc 0 (n * η), FreeFall Q r v t)
    (hlo : ∀ t ∈ Set.Icc 0 (n * η), 6.5e6 ≤ rnorm (r t))
    (hhi : ∀ t ∈ Set.Icc 0 (n * η), rnorm (r t) ≤ 1.9e7)
    (hvV : ∀ t ∈ Set.Icc 0 (n * η), rnorm (v t) ≤ 8000)
    {s0 : State (F64 L)} {r0 v0 : V3 ℝ} {t0 te m er ev : ℝ} (ht0 : Reads s0.time t0) (ht0' : |t0| ≤ 1e8)
    (hte' : |te| ≤ 1e8) (hs0 : ReadsAt s0 te r0 v0 m) (hm : m ≠ 0) (hd : s0.mass.dbl.IsDouble)
    (hr0 : rdist r0 (r 0) ≤ er) (hv0 : rdist v0 (v 0) ≤ ev)
    (hsmall : (er + 375 * ev) * Real.exp (n * η / 375) +
      (0.224 * η ^ 4 + 1.4e-5 / η) * (Real.exp (n * η / 375) - 1) ≤ 86000) :
    ∃ s : ℕ → State (F64 L), s 0 = s0 ∧ (∀ k < n, OneStep p h (s k) (s (k + 1))) ∧
      ∀ k ≤ n, ∃ r' v', ReadsV (s k).position r' ∧ ReadsV (s k).velocity v' ∧ Reads (s k).mass m ∧
        rdist r' (r (k * η)) ≤ (er + 375 * ev) * Real.exp (k * η / 375) +
          (0.224 * η ^ 4 + 1.4e-5 / η) * (Real.exp (k * η / 375) - 1) ∧
        rdist v' (v (k * η)) ≤ ((er + 375 * ev) * Real.exp (k * η / 375) +
          (0.224 * η ^ 4 + 1.4e-5 / η) * (Real.exp (k * η / 375) - 1)) / 375 := by
  obtain ⟨a, b, μ, j2, j3, j4, ω, rfl, hE, hne⟩ := same_earth hQ
  obtain ⟨gC, H⟩ := earth_field hE
  obtain ⟨mq, hmq, rfl⟩ := hs0.mass
  have hmq0 : mq ≠ 0 := by rintro rfl; simp at hm
  have hv := vals_of_readsV hs0.position hs0.velocity hmq hd
  have hr0' : rdist (pos7 (join7 r0 v0)) (r 0) ≤ er := hr0
  have hv0' : rdist (vel7 (join7 r0 v0)) (v 0) ≤ ev := hv0
  have hEn := exp_sub_one_nonneg (show 0 ≤ (n : ℝ) * η / 375 by positivity)
  have h4 : 0 ≤ η ^ 4 := by positivity
  have hsm : (er + 375 * ev) * Real.exp (n * η / 375) +
      (0.2239 * η ^ 4 + 1.4e-5 / η) * (Real.exp (n * η / 375) - 1) ≤ 86000 := by
    refine le_trans ?_ hsmall
    have : (0.2239 : ℝ) ≤ 0.224 := by norm_num
    gcongr
  have htt : ∀ i, ∃ t, Reads (vec2 s0.time s0.timeSinceEvent i) t ∧ |t| ≤ 1e8 := by
    intro i
    fin_cases i
    · exact ⟨t0, ht0, ht0'⟩
    · exact ⟨te, hs0.timeSinceEvent, hte'⟩
  obtain ⟨s, Y, hF⟩ := flight_exists hL hp hne H hh hη0 hη1 hn hfall hlo hhi hvV hr0' hv0' hsm hv hmq0 htt
  refine ⟨s, hF.start, hF.step, fun k hk => ?_⟩
  obtain ⟨g1, g2⟩ := readsV_of_vals (hF.vals k hk)
  have hc := flight_close H hη0 hη1 hfall hlo hvV hr0' hv0' hsm hF k hk
  have hE := exp_sub_one_nonneg (show 0 ≤ (k : ℝ) * η / 375 by positivity)
  have hp1 : 0 ≤ rdist (pos7 (Y k)) (r (k * η)) := by unfold rdist rnorm; positivity
  have hp2 : 0 ≤ rdist (vel7 (Y k)) (v (k * η)) := by unfold rdist rnorm; positivity
  have h3 : 0.000597 * η ^ 4 + 3.5e-8 / η ≤ (0.224 * η ^ 4 + 1.4e-5 / η) / 375 := by
    have k2 : 0 ≤ η⁻¹ := by positivity
    rw [div_eq_mul_inv 3.5e-8, div_eq_mul_inv 1.4e-5 η]
    generalize η ^ 4 = A at h4
    generalize η⁻¹ = B at k2
    norm_num
    linarith
  have h5 := mul_le_mul_of_nonneg_right h3 hE
  refine ⟨_, _, g1, g2, ⟨mq, (hF.vals k hk).mass, rfl⟩, by linarith, by linarith⟩

theorem small_4800 {η x c : ℝ} (hη : 0.001 ≤ η) (hη1 : η ≤ 1) (hx : x ≤ 4800) (hx0 : 0 ≤ x) (hc : c ≤ 0.001) :
    c * Real.exp (x / 375) + (0.224 * η ^ 4 + 1.4e-5 / η) * (Real.exp (x / 375) - 1) ≤ 86000 := by
  have h1 := exp_4800 hx
  have h2 := exp_sub_one_nonneg (show 0 ≤ x / 375 by positivity)
  have hη0 : 0 < η := by norm_num at hη; linarith
  have h3 : 0.224 * η ^ 4 + 1.4e-5 / η ≤ 0.22402 := by
    -- the sum is convex in the step size: it is largest at one of the ends
    rw [← sub_nonneg]
    have e : 0.22402 - (0.224 * η ^ 4 + 1.4e-5 / η) = (0.22402 * η - 0.224 * η ^ 5 - 1.4e-5) / η := by
      field_simp
      ring
    rw [e]
    apply div_nonneg _ hη0.le
    norm_num at hη ⊢
    have : 0 ≤ (1 - η) * η * (1 + η) := by
      have : 0 ≤ 1 - η := by linarith
      positivity
    nlinarith [mul_nonneg this (sq_nonneg η), mul_nonneg (sub_nonneg.2 hη) (sub_nonneg.2 hη1)]
  have h4 : (0.224 * η ^ 4 + 1.4e-5 / η) * (Real.exp (x / 375) - 1) ≤ 0.22402 * (Real.exp (x / 375) - 1) :=
    mul_le_mul_of_nonneg_right h3 h2
  have h5 : c * Real.exp (x / 375) ≤ 0.001 * Real.exp (x / 375) :=
    mul_le_mul_of_nonneg_right hc (Real.exp_pos _).le
  norm_num at h4 h5
  linarith

/-- **C84**.  In double precision, for up to 80 minutes, a simulated orbit of the Earth at distances
between 6500 and 19000 km from its centre and with speeds of at most 8 km/s that begins within a
millimetre of the true one, integrated with steps of `η` seconds, `0.001 ≤ η ≤ 1`, is after `t = k η`
seconds within `(er + 375 ev) e^(t/375) + (0.224 η^4 + 0.000014 / η) (e^(t/375) - 1)` metres of the true
orbit. -/
theorem C84_low_orbit (hL : GoodLibrary L) {p : Phase (F64 L)} (hp : CoastingDouble p) {Q : Planet XR}
    (hQ : SameEarth p.planet Q) {h : F64 L} {η : ℝ} (hh : Reads h η) (hη0 : 0.001 ≤ η) (hη1 : η ≤ 1)
    {n : ℕ} (hn : n * η ≤ 4800) {r v : ℝ → V3 ℝ}
    (hfall : ∀ t ∈ Set.Icc 0 (n * η), FreeFall Q r v t)
    (hlo : ∀ t ∈ Set.Icc 0 (n * η), 6.5e6 ≤ rnorm (r t))
    (hhi : ∀ t ∈ Set.Icc 0 (n * η), rnorm (r t) ≤ 1.9e7)
    (hvV : ∀ t ∈ Set.Icc 0 (n * η), rnorm (v t) ≤ 8000)
    {s0 : State (F64 L)} {r0 v0 : V3 ℝ} {t0 te m er ev : ℝ} (ht0 : Reads s0.time t0) (ht0' : |t0| ≤ 1e8)
    (hte' : |te| ≤ 1e8) (hs0 : ReadsAt s0 te r0 v0 m) (hm : m ≠ 0) (hd : s0.mass.dbl.IsDouble)
    (hr0 : rdist r0 (r 0) ≤ er) (hv0 : rdist v0 (v 0) ≤ ev) (hsmall : er + 375 * ev ≤ 0.001) :
    ∃ s : ℕ → State (F64 L), s 0 = s0 ∧ (∀ k < n, OneStep p h (s k) (s (k + 1))) ∧
      ∀ k ≤ n, ∃ r' v', ReadsV (s k).position r' ∧ ReadsV (s k).velocity v' ∧ Reads (s k).mass m ∧
        rdist r' (r (k * η)) ≤ (er + 375 * ev) * Real.exp (k * η / 375) +
          (0.224 * η ^ 4 + 1.4e-5 / η) * (Real.exp (k * η / 375) - 1) ∧
        rdist v' (v (k * η)) ≤ ((er + 375 * ev) * Real.exp (k * η / 375) +
          (0.224 * η ^ 4 + 1.4e-5 / η) * (Real.exp (k * η / 375) - 1)) / 375 := by
  have hη : 0 < η := by norm_num at hη0; linarith
  have hn8 : n ≤ 10 ^ 8 := by
    have h1 : (n : ℝ) * 0.001 ≤ 4800 := le_trans (by gcongr) hn
    have h2 : (n : ℝ) ≤ (10 ^ 8 : ℕ) := by
      norm_num at h1 ⊢
      have : (n : ℝ) ≤ 4800000 := by linarith
      have : n ≤ 4800000 := by exact_mod_cast this
      omega
    exact_mod_cast h2
  exact C84_start_error hL hp hQ hh hη hη1 hn8 hfall hlo hhi hvV ht0 ht0' hte' hs0 hm hd hr0 hv0
    (small_4800 hη0 hη1 hn (by positivity) hsmall)

/-- A whole phase, with the states after each step. -/
theorem orbit_run (hL : GoodLibrary L) {p : Phase (F64 L)} (hp : CoastingDouble p) {Q : Planet XR}
    (hQ : SameEarth p.planet Q) {n : ℕ} (hn1 : 1 ≤ n) (hn : n ≤ 4800) {T : F64 L}
    (hc : p.endCriterion = (.timeSinceEvent, T)) (hT : Reads T n) (hst : Reads p.stepsize 1)
    (he : p.ended = false) {r v : ℝ → V3 ℝ}
    (hfall : ∀ t ∈ Set.Icc (0 : ℝ) n, FreeFall Q r v t)
    (hlo : ∀ t ∈ Set.Icc (0 : ℝ) n, 6.5e6 ≤ rnorm (r t))
    (hhi : ∀ t ∈ Set.Icc (0 : ℝ) n, rnorm (r t) ≤ 1.9e7)
    (hvV : ∀ t ∈ Set.Icc (0 : ℝ) n, rnorm (v t) ≤ 8000)
    {r0 v0 : V3 ℝ} {t0 m er ev : ℝ} (ht0 : Reads p.state.time t0) (ht0' : |t0| ≤ 1e8)
    (hs0 : ReadsAt p.state 0 r0 v0 m) (hm : m ≠ 0) (hd : p.state.mass.dbl.IsDouble)
    (hr0 : rdist r0 (r 0) ≤ er) (hv0 : rdist v0 (v 0) ≤ ev) (hsmall : er + 375 * ev ≤ 0.001) :
    ∃ (s : ℕ → State (F64 L)) (fuel : ℕ) (q : Phase (F64 L)),
      p.run fuel = some ⟨(List.range n).map fun k => (s (k + 1)).row, .ok q⟩ ∧ q.state = s n ∧
      p.system p.state = .ok (s 0) ∧ (∀ k < n, OneStep p p.stepsize (s k) (s (k + 1))) ∧
      ∀ k ≤ n, ∃ r' v', ReadsAt (s k) k r' v' m ∧
        rdist r' (r k) ≤ (er + 375 * ev) * Real.exp (k / 375) + 0.225 * (Real.exp (k / 375) - 1) ∧
        rdist v' (v k) ≤ ((er + 375 * ev) * Real.exp (k / 375) + 0.225 * (Real.exp (k / 375) - 1)) / 375 := by
  obtain ⟨s0, hs⟩ := coasting_system hp.unlimited hp.engines hp.tables p.state
  obtain ⟨g1, g2, g3, g4, g5⟩ := Phase.system_primary hs
  obtain ⟨s, e0, e1, e2⟩ := C84_start_error hL hp hQ hst one_pos le_rfl (n := n) (s0 := s0)
    (hn.trans (by norm_num)) (by simpa using hfall) (by simpa using hlo) (by simpa using hhi)
    (by simpa using hvV) (te := 0) (m := m) (r0 := r0) (v0 := v0) (by rw [g1]; exact ht0) ht0' (by norm_num)
    ⟨by rw [g2]; exact hs0.timeSinceEvent, by rw [g3]; exact hs0.position, by rw [g4]; exact hs0.velocity,
      by rw [g5]; exact hs0.mass⟩ hm (by rw [g5]; exact hd) hr0 hv0
    (by
      have hn' : (n : ℝ) * 1 ≤ 4800 := by rw [mul_one]; exact_mod_cast hn
      exact small_4800 (by norm_num) le_rfl hn' (by positivity) hsmall)
  simp only [mul_one, one_pow] at e2
  have hone : ∀ k < n, (s (k + 1)).timeSinceEvent = (s k).timeSinceEvent + p.stepsize :=
    fun k hk => isTime_step (v := .timeSinceEvent) (.inr rfl) (e1 k hk)
  obtain ⟨q1, hq1, hq1'⟩ := hst
  obtain rfl : q1 = ((1 : ℕ) : ℚ) := by exact_mod_cast hq1'
  obtain ⟨qT, hqT, hqT'⟩ := hT
  obtain rfl : qT = (n : ℚ) := by exact_mod_cast hqT'
  have htime : ∀ k ≤ n, (StateVariable.getValue .timeSinceEvent (s k)).Is (k : ℚ) := by
    intro k
    induction k with
    | zero =>
      intro _
      show ((s 0).timeSinceEvent).Is _
      obtain ⟨q0, h1, h2⟩ := hs0.timeSinceEvent
      obtain rfl : q0 = 0 := by exact_mod_cast h2
      rw [e0, g2]
      exact_mod_cast h1
    | succ k ih =>
      intro hk
      show ((s (k + 1)).timeSinceEvent).Is _
      rw [hone k (by omega)]
      exact is_add_nat (ih (by omega)) hq1 (by omega)
  have hfin : ∀ k ≤ n, ∃ r' v', ReadsAt (s k) k r' v' m ∧
      rdist r' (r k) ≤ (er + 375 * ev) * Real.exp (k / 375) + 0.225 * (Real.exp (k / 375) - 1) ∧
      rdist v' (v k) ≤ ((er + 375 * ev) * Real.exp (k / 375) + 0.225 * (Real.exp (k / 375) - 1)) / 375 := by
    intro k hk
    obtain ⟨r', v', f1, f2, f3, f4, f5⟩ := e2 k hk
    have h2 := exp_sub_one_nonneg (show 0 ≤ (k : ℝ) / 375 by positivity)
    have h3 : (0.224 + 1.4e-5 / 1) * (Real.exp (k / 375) - 1) ≤ 0.225 * (Real.exp (k / 375) - 1) := by
      refine mul_le_mul_of_nonneg_right ?_ h2
      norm_num
    refine ⟨r', v', ⟨⟨_, htime k hk, by norm_cast⟩, f1, f2, f3⟩, by linarith, by linarith⟩
  obtain ⟨n, rfl⟩ : ∃ j, n = j + 1 := ⟨n - 1, by omega⟩
  obtain ⟨fuel, q, h1, h2⟩ := run_of_steps (p := p) (s := s) (n := n) he (by rw [hs, e0])
    (fun k hk => e1 k hk)
    (fun k hk => by
      have h3 : (k : ℚ) + 1 ≤ n := by exact_mod_cast hk
      have h4 : (n : ℚ) + 1 ≤ 4800 := by exact_mod_cast hn
      have h0 : (0 : ℚ) ≤ k := by positivity
      rw [hc]
      constructor
      · intro hmet
        have h5 := close_of_met (htime (k + 1) (by omega)) hqT (by
          push_cast
          rw [abs_of_nonpos (by linarith)]
          norm_num
          linarith) hmet
        push_cast at h5
        rw [abs_of_nonpos (by linarith)] at h5
        norm_num at h5
        linarith
      · rw [overshot_is (htime k (by omega)) (htime (k + 1) (by omega)) hqT]
        push_cast
        rintro (⟨h4, _⟩ | ⟨_, h4⟩) <;> linarith)
    (by
      rw [hc]
      refine met_of_close (htime (n + 1) le_rfl) hqT ?_
      norm_num)
  exact ⟨s, fuel, q, h1, h2, by rw [hs, e0], fun k hk => e1 k hk, hfin⟩

/-- **C84** (whole phases).  In double precision, such a phase that begins within a millimetre of an orbit
(and with a speed that is right to within a 375th of that), with the regular step of one second, and ends
`n` seconds after its beginning, `1 ≤ n ≤ 4800`, runs to its end and prints `n` rows, those of the states
after each second; the state after `k` seconds, and so the final one, is within
`(er + 375 ev) e^(k/375) + 0.225 (e^(k/375) - 1)` metres of the true orbit. -/
theorem C84_run (hL : GoodLibrary L) {p : Phase (F64 L)} (hp : CoastingDouble p) {Q : Planet XR}
    (hQ : SameEarth p.planet Q) {n : ℕ} (hn1 : 1 ≤ n) (hn : n ≤ 4800) {T : F64 L}
    (hc : p.endCriterion = (.timeSinceEvent, T)) (hT : Reads T n) (hst : Reads p.stepsize 1)
    (he : p.ended = false) {r v : ℝ → V3 ℝ}
    (hfall : ∀ t ∈ Set.Icc (0 : ℝ) n, FreeFall Q r v t)
    (hlo : ∀ t ∈ Set.Icc (0 : ℝ) n, 6.5e6 ≤ rnorm (r t))
    (hhi : ∀ t ∈ Set.Icc (0 : ℝ) n, rnorm (r t) ≤ 1.9e7)
    (hvV : ∀ t ∈ Set.Icc (0 : ℝ) n, rnorm (v t) ≤ 8000)
    {r0 v0 : V3 ℝ} {t0 m er ev : ℝ} (ht0 : Reads p.state.time t0) (ht0' : |t0| ≤ 1e8)
    (hs0 : ReadsAt p.state 0 r0 v0 m) (hm : m ≠ 0) (hd : p.state.mass.dbl.IsDouble)
    (hr0 : rdist r0 (r 0) ≤ er) (hv0 : rdist v0 (v 0) ≤ ev) (hsmall : er + 375 * ev ≤ 0.001) :
    ∃ (s : ℕ → State (F64 L)) (fuel : ℕ) (q : Phase (F64 L)),
      p.run fuel = some ⟨(List.range n).map fun k => (s (k + 1)).row, .ok q⟩ ∧ q.state = s n ∧
      ∀ k ≤ n, ∃ r' v', ReadsAt (s k) k r' v' m ∧
        rdist r' (r k) ≤ (er + 375 * ev) * Real.exp (k / 375) + 0.225 * (Real.exp (k / 375) - 1) ∧
        rdist v' (v k) ≤ ((er + 375 * ev) * Real.exp (k / 375) + 0.225 * (Real.exp (k / 375) - 1)) / 375 := by
  obtain ⟨s, fuel, q, h1, h2, _, _, h3⟩ := orbit_run hL hp hQ hn1 hn hc hT hst he hfall hlo hhi hvV ht0 ht0' hs0 hm hd hr0 hv0 hsmall
  exact ⟨s, fuel, q, h1, h2, h3⟩

/-! ## When the hypotheses hold -/

theorem num_pow (hL : GoodLibrary L) {x : F64 L} {t : ℝ} (hx : Reads x t) (ht : |t| ≤ 1e9) {k : ℕ} (hk : k ≤ 3) :
    Near (Flt.powi x k) 0 2e27 := by
  obtain ⟨q, hq, rfl⟩ := hx
  have hq9 : |q| ≤ 1e9 := by
    have h : ((|q| : ℚ) : ℝ) ≤ ((1e9 : ℚ) : ℝ) := by push_cast; norm_num at ht ⊢; exact ht
    exact_mod_cast h
  obtain ⟨w, hw, hb⟩ := hL.powi x q k hq (hq9.trans (by norm_num)) (by omega)
  have h1 : |q| ^ k ≤ 1e27 := by
    have h2 : (1e9 : ℚ) ^ k ≤ 1e9 ^ 3 := pow_le_pow_right₀ (by norm_num) hk
    refine (pow_le_pow_left₀ (abs_nonneg q) hq9 k).trans (h2.trans (by norm_num))
  have h3 : |w| ≤ 2e27 := by
    have h4 := abs_sub_abs_le_abs_sub w (q ^ k)
    rw [abs_pow] at h4
    have h5 : 0 ≤ |q| ^ k := by positivity
    generalize |q| ^ k = A at *
    norm_num at h1 hb ⊢
    linarith
  refine ⟨w, hw, ?_⟩
  rw [sub_zero]
  have : ((|w| : ℚ) : ℝ) ≤ ((2e27 : ℚ) : ℝ) := by exact_mod_cast h3
  push_cast at this
  exact this

theorem num_coeff {c : F64 L} (hc : ∃ q : ℚ, c.Is q ∧ |q| ≤ 1e20) : Near c 0 1e20 := by
  have := bounded_num hc
  norm_num at this ⊢
  exact this

theorem angle_number (hL : GoodLibrary L) {x : Axis (F64 L)} {s : State (F64 L)} {t : ℝ}
    (hx : ∀ c ∈ [x.c0, x.c1, x.c2, x.c3], ∃ q : ℚ, c.Is q ∧ |q| ≤ 1e20) (hs : Reads (x.var.getValue s) t)
    (ht : |t| ≤ 1e9) : FiniteDouble (x.angle s) := by
  have c0 := num_coeff (hx x.c0 (by simp))
  have c1 := num_coeff (hx x.c1 (by simp))
  have c2 := num_coeff (hx x.c2 (by simp))
  have c3 := num_coeff (hx x.c3 (by simp))
  have term : ∀ {c : F64 L} {k : ℕ}, k ≤ 3 → Near c 0 1e20 → Near (c * Flt.powi (x.var.getValue s) k) 0 1e48 :=
    fun hk hc => num_mul hc (num_pow hL hs ht hk) (by norm_num) (by norm_num)
  have t0 : Near ((0 : F64 L) + x.c0 * Flt.powi (x.var.getValue s) 0) 0 2e48 :=
    num_add (Near.zero.mono (show (0 : ℝ) ≤ 1 by norm_num)) (term (by norm_num) c0) (by norm_num) (by norm_num)
  have t1 := num_add (c := 4e48) t0 (term (k := 1) (by norm_num) c1) (by norm_num) (by norm_num)
  have t2 := num_add (c := 6e48) t1 (term (k := 2) (by norm_num) c2) (by norm_num) (by norm_num)
  have t3 := num_add (c := 8e48) t2 (term (k := 3) (by norm_num) c3) (by norm_num) (by norm_num)
  have hpi : Near (Flt.pi : F64 L) 0 4 := by
    refine ⟨884279719003555 / 281474976710656, ⟨false, _, rfl, rfl, by norm_num⟩, ?_⟩
    push_cast
    rw [abs_le]
    norm_num
  have h180 : (180 : F64 L).Is 180 := by simpa using is_nat (L := L) 180 (by norm_num)
  have hdeg : Near (Flt.pi / 180 : F64 L) 0 1 := by
    obtain ⟨q, h1, h2⟩ := hpi
    rw [sub_zero] at h2
    have h2' : |q| ≤ 4 := by exact_mod_cast h2
    have h3 : |q / 180| ≤ 1 / 2 := by
      rw [abs_div, abs_of_pos (show (0 : ℚ) < 180 by norm_num)]
      rw [div_le_iff₀ (by norm_num)]
      linarith
    obtain ⟨w, h4, h5⟩ := is_div h1 h180 (by norm_num) (h3.trans (by norm_num))
    refine Near.of_round (M := 1 / 2) (d := 1 / 2) h4 h5 ?_ (by norm_num) (by norm_num)
    rw [sub_zero]
    have : ((|q / 180| : ℚ) : ℝ) ≤ ((1 / 2 : ℚ) : ℝ) := by exact_mod_cast h3
    push_cast at this ⊢
    exact this
  obtain ⟨q, h, _⟩ := num_mul (c := 1e50) t3 hdeg (by norm_num) (by norm_num)
  exact ⟨q, h⟩

/-- The attitude is given by numbers if the steering is a polynomial in the time. -/
theorem numberAttitude_of_time (hL : GoodLibrary L) {p : Phase (F64 L)} (h1 : TimeSteeredDouble p.steering.roll)
    (h2 : TimeSteeredDouble p.steering.yaw) (h3 : TimeSteeredDouble p.steering.pitch) : NumberAttitude p := by
  intro s d t te m r v ht ht' hte hte' _ _ _ _ _ _ hd
  have key : ∀ x : Axis (F64 L), TimeSteeredDouble x → FiniteDouble (x.angle (p.atSteering s)) := by
    rintro x ⟨hx, hc⟩
    rcases hx with hx | hx
    · exact angle_number hL hc (by rw [hx]; exact ht) ht'
    · exact angle_number hL hc (by rw [hx]; exact hte) hte'
  obtain ⟨aero, _, _, rfl⟩ := Phase.system_ok hd
  exact ⟨key _ h1, key _ h2, key _ h3⟩

end

/-! ## A library that meets the specification -/

open Classical in
/-- A library: sine and cosine are rounded down to multiples of `2^-50`, powers are correctly rounded,
`Rotation3::from_matrix` returns its argument if its entries are of at most 2 in size. -/
noncomputable def goodLibm : Libm where
  sin d := match d with
    | .fin s a => let k := ⌊Real.sin (Dbl.val s a : ℚ) * 2 ^ 50⌋; .fin (decide (k < 0)) (|(k : ℚ)| / 2 ^ 50)
    | _ => .nan
  cos d := match d with
    | .fin s a => let k := ⌊Real.cos (Dbl.val s a : ℚ) * 2 ^ 50⌋; .fin (decide (k < 0)) (|(k : ℚ)| / 2 ^ 50)
    | _ => .nan
  tan _ := .nan
  asin _ := .nan
  acos _ := .nan
  atan _ := .nan
  exp _ := .nan
  powi d n := match d with
    | .fin s a => .round false (Dbl.val s a ^ n)
    | _ => .nan
  powf _ _ := .nan
  rotFromMatrix m := if ∀ x ∈ [m.r1.x, m.r1.y, m.r1.z, m.r2.x, m.r2.y, m.r2.z, m.r3.x, m.r3.y, m.r3.z],
      ∃ s a, x = .fin s a ∧ 0 ≤ a ∧ a ≤ 2 then m else
    ⟨⟨.fin false 1, .fin false 0, .fin false 0⟩, ⟨.fin false 0, .fin false 1, .fin false 0⟩,
      ⟨.fin false 0, .fin false 0, .fin false 1⟩⟩

theorem floor_is {x : ℝ} (h1 : -1 ≤ x) (h2 : x ≤ 1) :
    ∃ r, F64.Is (⟨.fin (decide (⌊x * 2 ^ 50⌋ < 0)) (|(⌊x * 2 ^ 50⌋ : ℚ)| / 2 ^ 50)⟩ : F64 L) r ∧ |r| ≤ 1 := by
  set k := ⌊x * 2 ^ 50⌋ with hk
  have hk1 : k ≤ 2 ^ 50 := by
    have h3 : (k : ℝ) ≤ x * 2 ^ 50 := Int.floor_le _
    have h4 : x * 2 ^ 50 ≤ 1 * 2 ^ 50 := by gcongr
    have : (k : ℝ) ≤ ((2 ^ 50 : ℤ) : ℝ) := by push_cast; linarith
    exact_mod_cast this
  have hk2 : -2 ^ 50 ≤ k := by
    rw [hk, Int.le_floor]
    push_cast
    have h4 : -1 * 2 ^ 50 ≤ x * 2 ^ 50 := by gcongr
    linarith
  have hk3 : |k| ≤ 2 ^ 50 := abs_le.2 ⟨hk2, hk1⟩
  have hk4 : |(k : ℚ)| ≤ 2 ^ 50 := by
    have : ((|k| : ℤ) : ℚ) ≤ ((2 ^ 50 : ℤ) : ℚ) := by exact_mod_cast hk3
    push_cast at this
    exact this
  have h0 : 0 ≤ |(k : ℚ)| / 2 ^ 50 := by positivity
  have hb : |(k : ℚ)| / 2 ^ 50 ≤ 1 := by rw [div_le_one (by positivity)]; exact hk4
  refine ⟨_, ⟨_, _, rfl, rfl, h0⟩, ?_⟩
  unfold Dbl.val
  split_ifs
  · rw [abs_neg, abs_of_nonneg h0]; exact hb
  · rw [abs_of_nonneg h0]; exact hb

theorem goodLibm_good : GoodLibrary goodLibm where
  sin := by
    rintro x q ⟨s, a, h1, h2, _⟩
    obtain ⟨r, h3, h4⟩ := floor_is (L := goodLibm) (Real.neg_one_le_sin (Dbl.val s a : ℚ)) (Real.sin_le_one _)
    refine ⟨r, ?_, h4⟩
    have e : Flt.sin x = (⟨goodLibm.sin x.dbl⟩ : F64 goodLibm) := rfl
    rw [e, h1]
    exact h3
  cos := by
    rintro x q ⟨s, a, h1, h2, _⟩
    obtain ⟨r, h3, h4⟩ := floor_is (L := goodLibm) (Real.neg_one_le_cos (Dbl.val s a : ℚ)) (Real.cos_le_one _)
    refine ⟨r, ?_, h4⟩
    have e : Flt.cos x = (⟨goodLibm.cos x.dbl⟩ : F64 goodLibm) := rfl
    rw [e, h1]
    exact h3
  powi := by
    rintro x q n ⟨s, a, h1, rfl, _⟩ hq hn
    have e : Flt.powi x n = (⟨.round false (Dbl.val s a ^ n)⟩ : F64 goodLibm) := by
      show (⟨goodLibm.powi x.dbl n⟩ : F64 goodLibm) = _
      rw [h1]
      rfl
    rw [e]
    have hb : |Dbl.val s a ^ n| ≤ 2 ^ 200 := by
      rw [abs_pow]
      have h2 : (1e15 : ℚ) ^ n ≤ 1e15 ^ 4 := pow_le_pow_right₀ (by norm_num) hn
      refine (pow_le_pow_left₀ (abs_nonneg _) hq n).trans (h2.trans (by norm_num))
    obtain ⟨r, h3, h4⟩ := is_round (L := goodLibm) (s := false) hb
    refine ⟨r, h3, h4.trans ?_⟩
    unfold ulpErr
    rw [abs_pow]
    have h5 : (2 : ℚ) ^ (-53 : ℤ) ≤ 1e-15 := by norm_num
    have h6 : (2 : ℚ) ^ (-1075 : ℤ) ≤ 1e-40 := by
      have e1 : (2 : ℚ) ^ (-1075 : ℤ) ≤ 2 ^ (-200 : ℤ) := zpow_le_zpow_right₀ (by norm_num) (by norm_num)
      refine e1.trans ?_
      norm_num
    gcongr
  rot := by
    intro m hm
    have e : Flt.rotFromMatrix m = (goodLibm.rotFromMatrix (m.map F64.dbl)).map (F64.mk (L := goodLibm)) := rfl
    rw [e]
    unfold goodLibm
    simp only
    split_ifs with h
    · intro x hx
      have hx' : x.dbl ∈ [m.r1.x.dbl, m.r1.y.dbl, m.r1.z.dbl, m.r2.x.dbl, m.r2.y.dbl, m.r2.z.dbl,
          m.r3.x.dbl, m.r3.y.dbl, m.r3.z.dbl] := List.mem_map_of_mem (f := F64.dbl) hx
      obtain ⟨s, a, h1, h2, h3⟩ := h _ hx'
      refine ⟨_, ⟨s, a, h1, rfl, h2⟩, ?_⟩
      unfold Dbl.val
      split_ifs
      · rw [abs_neg, abs_of_nonneg h2]; exact h3
      · rw [abs_of_nonneg h2]; exact h3
    · intro x hx
      have h0 : ∃ q : ℚ, F64.Is (⟨.fin false 0⟩ : F64 goodLibm) q ∧ |q| ≤ 2 :=
        ⟨0, ⟨false, 0, rfl, by simp [Dbl.val], le_rfl⟩, by norm_num⟩
      have h1 : ∃ q : ℚ, F64.Is (⟨.fin false 1⟩ : F64 goodLibm) q ∧ |q| ≤ 2 :=
        ⟨1, ⟨false, 1, rfl, by simp [Dbl.val], by norm_num⟩, by norm_num⟩
      simp only [M3.map, V3.map, List.mem_cons, List.not_mem_nil, or_false] at hx
      rcases hx with rfl | rfl | rfl | rfl | rfl | rfl | rfl | rfl | rfl <;> first | exact h0 | exact h1

/-! ## An example: ten minutes on the circular orbit of radius 6700 km -/

/-- The default phase, ended after ten minutes, at a point of a circular orbit of radius 6700 km. -/
noncomputable def exampleLowDouble : Phase (F64 goodLibm) :=
  { Phase.default with
    endCriterion := (.timeSinceEvent, 600)
    state := { State.default with
      position := ⟨6700000, 0, 0⟩
      velocity := ⟨0, 7713.1714774, 0⟩
      mass := 1000 } }

theorem reads_nat (n : ℕ) (h : n < 2 ^ 53) : Reads (OfNat.ofNat n : F64 L) n := reads_near.2 (Near.nat n h)

theorem reads_zero : Reads (0 : F64 L) 0 := by simpa using reads_nat (L := L) 0 (by norm_num)

theorem exampleLowDouble_coasting : CoastingDouble exampleLowDouble := by
  have hz : FiniteDouble (0 : F64 goodLibm) := ⟨0, is_zero⟩
  have hs : TimeSteeredDouble (Axis.default : Axis (F64 goodLibm)) := by
    refine ⟨.inl rfl, fun c hc => ?_⟩
    have : c = 0 := by simpa [Axis.default] using hc
    rw [this]
    exact ⟨0, is_zero, by norm_num⟩
  exact ⟨rfl, rfl, rfl, ⟨wellFormed_default, wellFormed_default, wellFormed_default⟩, ⟨hz, hz, hz⟩,
    numberAttitude_of_time goodLibm_good hs hs hs⟩

/-- In double precision the position after ten minutes is right to within one metre. -/
example : ∃ (w : ℝ) (s : ℕ → State (F64 goodLibm)) (fuel : ℕ) (q : Phase (F64 goodLibm)),
    exampleLowDouble.run fuel = some ⟨(List.range 600).map fun k => (s (k + 1)).row, .ok q⟩ ∧
    ∃ r' v', ReadsAt q.state 600 r' v' 1000 ∧
      rdist r' ⟨6.7e6 * Real.cos (w * 600), 6.7e6 * Real.sin (w * 600), 0⟩ ≤ 1 := by
  set μ : ℝ := 1.4076539e16 * (0.3048 * 0.3048 * 0.3048) with hμ
  set w : ℝ := Real.sqrt (μ / 6.7e6) / 6.7e6 with hwdef
  have hμ0 : 0 ≤ μ / 6.7e6 := by rw [hμ]; norm_num
  have hw : w ^ 2 * 6.7e6 ^ 3 = μ := by
    rw [hwdef, div_pow, Real.sq_sqrt hμ0]
    field_simp
  have hv : 6.7e6 * w = Real.sqrt (μ / 6.7e6) := by rw [hwdef]; field_simp
  have hv8 : Real.sqrt (μ / 6.7e6) ≤ 7713.1714775 := by
    rw [Real.sqrt_le_left (by norm_num), hμ]
    norm_num
  have hv7 : 7713.1714774 ≤ Real.sqrt (μ / 6.7e6) := by
    refine Real.le_sqrt_of_sq_le ?_
    rw [hμ]
    norm_num
  have hn : ∀ t, rnorm ⟨6.7e6 * Real.cos (w * t), 6.7e6 * Real.sin (w * t), 0⟩ = 6.7e6 := by
    intro t
    unfold rnorm
    rw [show (6.7e6 * Real.cos (w * t)) ^ 2 + (6.7e6 * Real.sin (w * t)) ^ 2 + (0 : ℝ) ^ 2 = 6.7e6 ^ 2 by
      have := Real.cos_sq_add_sin_sq (w * t)
      linear_combination 6.7e6 ^ 2 * this, Real.sqrt_sq (by norm_num)]
  have hfall := fun t => circle_freeFall (a := 20925741 * 0.3048) (b := 20925741 * 0.3048)
    (ω := 7.29211e-5) (show (0 : ℝ) < 6.7e6 by norm_num) hw t
  obtain ⟨vq, hvq, hvq'⟩ : Near (7713.1714774 : F64 goodLibm) 7713.1714774 1e-11 :=
    Near.lit 77131714774 true 7 (by norm_num) (by rw [abs_of_pos] <;> norm_num) (by rw [abs_of_pos] <;> norm_num)
  have n1 : Reads (1 : F64 goodLibm) 1 := by simpa using reads_nat (L := goodLibm) 1 (by norm_num)
  have n600 : Reads (600 : F64 goodLibm) 600 := by simpa using reads_nat (L := goodLibm) 600 (by norm_num)
  have n1000 : Reads (1000 : F64 goodLibm) 1000 := by simpa using reads_nat (L := goodLibm) 1000 (by norm_num)
  have n67 : Reads (6700000 : F64 goodLibm) 6700000 := by
    simpa using reads_nat (L := goodLibm) 6700000 (by norm_num)
  obtain ⟨s, fuel, q, h1, h2, h3⟩ := C84_run (n := 600) (T := 600) (t0 := 0) (m := 1000) (er := 0) (ev := 1e-6)
    (r0 := ⟨6700000, 0, 0⟩) (v0 := ⟨0, vq, 0⟩) (Q := EARTH_SPHERICAL)
    (r := fun t => ⟨6.7e6 * Real.cos (w * t), 6.7e6 * Real.sin (w * t), 0⟩)
    (v := fun t => ⟨-(6.7e6 * w * Real.sin (w * t)), 6.7e6 * w * Real.cos (w * t), 0⟩)
    goodLibm_good exampleLowDouble_coasting (.inl ⟨rfl, rfl⟩) (by norm_num) (by norm_num) rfl
    (by simpa using n600) n1 rfl
    (fun t _ => by
      rw [show (EARTH_SPHERICAL : Planet XR) = _ from exampleLow_planet]
      exact hfall t)
    (fun t _ => by rw [hn]; norm_num)
    (fun t _ => by rw [hn]; norm_num)
    (fun t _ => by
      unfold rnorm
      rw [show (-(6.7e6 * w * Real.sin (w * t))) ^ 2 + (6.7e6 * w * Real.cos (w * t)) ^ 2 + (0 : ℝ) ^ 2 =
          (6.7e6 * w) ^ 2 by
        have := Real.cos_sq_add_sin_sq (w * t)
        linear_combination (6.7e6 * w) ^ 2 * this, hv, Real.sqrt_sq (Real.sqrt_nonneg _)]
      refine hv8.trans ?_
      norm_num)
    reads_zero (by norm_num)
    ⟨reads_zero, ⟨n67, reads_zero, reads_zero⟩,
      ⟨reads_zero, ⟨vq, hvq, rfl⟩, reads_zero⟩, n1000⟩
    (by norm_num) (Dbl.round_isDouble _ _)
    (by
      unfold rdist rsub rnorm
      simp
      norm_num)
    (by
      unfold rdist rsub rnorm
      simp only [mul_zero, Real.sin_zero, Real.cos_zero, mul_one, neg_zero, sub_zero, hv]
      rw [Real.sqrt_le_left (by norm_num)]
      have a1 := abs_le.1 hvq'
      generalize Real.sqrt (μ / 6.7e6) = z at *
      norm_num at a1 hv7 hv8 ⊢
      nlinarith)
    (by norm_num)
  refine ⟨w, s, fuel, q, h1, ?_⟩
  obtain ⟨r', v', g1, g2, _⟩ := h3 600 le_rfl
  rw [h2]
  norm_num at g1 g2 ⊢
  refine ⟨r', ⟨v', g1⟩, g2.trans ?_⟩
  have : Real.exp (8 / 5) ≤ 4.96 := by
    have h : Real.exp (8 / 5) ^ 5 ≤ 4.96 ^ 5 := by
      rw [← Real.exp_nat_mul]
      have e : ((5 : ℕ) : ℝ) * (8 / 5) = ((8 : ℕ) : ℝ) * 1 := by norm_num
      rw [e, Real.exp_nat_mul]
      calc Real.exp 1 ^ 8 ≤ 2.7182818286 ^ 8 :=
            pow_le_pow_left₀ (Real.exp_pos _).le Real.exp_one_lt_d9.le 8
        _ ≤ 4.96 ^ 5 := by norm_num
    exact le_of_pow_le_pow_left₀ (by norm_num) (by norm_num) h
  norm_num at this
  linarith

end
end Post
