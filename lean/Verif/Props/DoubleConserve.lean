import Verif.Lemmas.ConserveF64
import Verif.Spec.DoubleConserve
import Verif.Props.Conserve
/-! # C100: energy and angular momentum of a satellite in double precision -/

set_option exponentiation.threshold 2000

namespace Post
open Spec Flt F64
open Kepler (Field)
variable {L : Libm}

noncomputable section

variable {p : Phase (F64 L)} {a b μ j2 j3 j4 ω : ℝ} {gC : Kepler.C3 → Kepler.C3} {h : F64 L} {η : ℝ} {m : ℚ}

theorem potential_sphere (a μ : ℝ) (r : V3 ℝ) : potential a μ 0 0 0 r = μ / rnorm r := by
  unfold potential
  ring

theorem grav_sphere {a μ : ℝ} (hμ0 : 0 ≤ μ) (hμ : μ ≤ 4e14) (x : V3 ℝ) (hx : 6.4e6 ≤ rnorm x) :
    rnorm (grav a μ 0 0 0 x) ≤ 9.8 := by
  have hne : x ≠ ⟨0, 0, 0⟩ := by
    rintro rfl
    have e : rnorm ⟨0, 0, 0⟩ = 0 := by simp [rnorm]
    rw [e] at hx
    norm_num at hx
  obtain ⟨g, h1, _, h3⟩ := C43_central a 0 μ 0 hne
  rw [gravity_grav _ _ _ _ _ _ _ hne] at h1
  rw [V3.fin_inj.1 h1, h3 hμ0]
  have hp : (0 : ℝ) < 6.4e6 := by norm_num
  rw [div_le_iff₀ (pow_pos (hp.trans_le hx) 2)]
  have := pow_le_pow_left₀ hp.le hx 2
  norm_num at this hμ ⊢
  linarith

/-- one step of a coasting phase -/
theorem coast_one (hL : GoodLibrary L) (hp : CoastingDouble p) (hne : NearEarth p.planet a μ j2 j3 j4)
    (H : Field (field a μ j2 j3 j4) gC 6.4e6 32.12 7.04e-6) (hh : Reads h η) (hη0 : 0 < η) (hη1 : η ≤ 1)
    {s : State (F64 L)} {Y : Fin 7 → ℝ} (hs : Vals s Y m) (hm : m ≠ 0) {B : ℝ} (hB : B ≤ 3e8)
    (ht : ∀ i, ∃ t, Reads (vec2 s.time s.timeSinceEvent i) t ∧ |t| ≤ B)
    (hlo : 6.45e6 ≤ rnorm (pos7 Y)) (hhi : rnorm (pos7 Y) ≤ 1.92e7) (hv : rnorm (vel7 Y) ≤ 8200) :
    ∃ s' Y', OneStep p h s s' ∧ Vals s' Y' m ∧
      (∀ i, ∃ t, Reads (vec2 s'.time s'.timeSinceEvent i) t ∧ |t| ≤ B + 2) ∧
      |energy a μ j2 j3 j4 (pos7 Y') (vel7 Y') - energy a μ j2 j3 j4 (pos7 Y) (vel7 Y)| ≤ 0.017 ∧
      |(angularMomentum (pos7 Y') (vel7 Y')).z - (angularMomentum (pos7 Y) (vel7 Y)).z| ≤ 18.3 ∧
      (j2 = 0 → j3 = 0 → j4 = 0 →
        |energy a μ j2 j3 j4 (pos7 Y') (vel7 Y') - energy a μ j2 j3 j4 (pos7 Y) (vel7 Y)| ≤ 0.01 ∧
        rdist (angularMomentum (pos7 Y') (vel7 Y')) (angularMomentum (pos7 Y) (vel7 Y)) ≤ 18.3) := by
  obtain ⟨s', hst, Y', hv', herr⟩ := coast_step hL hp hne H hh hη0.le hη1 hs hm
    (fun i => by
      obtain ⟨t, h1, h2⟩ := ht i
      refine ⟨t, h1, h2.trans (hB.trans (by norm_num))⟩)
    ⟨by norm_num at hlo ⊢; linarith, by norm_num at hhi ⊢; linarith, hv.trans (by norm_num)⟩
  refine ⟨s', Y', hst, hv', fun i => ?_, ?_⟩
  · obtain ⟨t, h1, h2⟩ := ht i
    have e : vec2 s'.time s'.timeSinceEvent i = vec2 s.time s.timeSinceEvent i + h := by
      obtain ⟨_, e1, e2⟩ := oneStep_system hst
      fin_cases i
      · exact e1
      · exact e2
    rw [e]
    obtain ⟨q, h3, h4⟩ : Near (vec2 s.time s.timeSinceEvent i + h) (t + η) 1 := by
      refine (reads_near.1 h1).add (reads_near.1 hh) (M := 3e8 + 1)
        (abs_add_le' (h2.trans hB) (by rw [abs_of_pos hη0]; exact hη1) le_rfl) ?_ ?_ <;> norm_num
    refine ⟨q, ⟨q, h3, rfl⟩, ?_⟩
    have h5 : |t + η| ≤ |t| + 1 := (abs_add_le _ _).trans (by rw [abs_of_pos hη0]; linarith)
    have h6 : |(q : ℝ)| ≤ |t + η| + 1 := by
      have := abs_sub_abs_le_abs_sub (q : ℝ) (t + η)
      linarith
    linarith
  · obtain ⟨r, v, e1, e2, hf, k1, k2, k3, k4, k5⟩ := coast_step_close (b := 0) (ω := 0) H hη0 hη1 hlo hv herr
    have hcE : energy a μ j2 j3 j4 (r η) (v η) = energy a μ j2 j3 j4 (pos7 Y) (vel7 Y) := by
      rw [← e1, ← e2]
      refine constant_between (f := fun t => energy a μ j2 j3 j4 (r t) (v t)) hη0.le fun t ht => ?_
      obtain ⟨g, g1, g2, g3⟩ := hf t ht
      exact energy_rate g2 g3 g1
    have hcz : (angularMomentum (r η) (v η)).z = (angularMomentum (pos7 Y) (vel7 Y)).z := by
      rw [← e1, ← e2]
      refine constant_between (f := fun t => (angularMomentum (r t) (v t)).z) hη0.le fun t ht => ?_
      obtain ⟨g, g1, g2, g3⟩ := hf t ht
      exact axial_rate g2 g3 g1
    have hG : ∀ x : V3 ℝ, 6.4e6 ≤ rnorm x → rnorm (grav a μ j2 j3 j4 x) ≤ 32.12 := fun x hx => by
      have := H.size (by norm_num) (x := e3 x) (by rw [norm_e3]; exact hx)
      rwa [field_e3, norm_e3] at this
    have hfar : 6.4e6 + rdist (pos7 Y') (r η) ≤ rnorm (r η) := by
      norm_num at hlo k4 ⊢
      linarith
    have hK := kinetic_close k3 k5
    have hM := momentum_close (R := 1.92e7 + 8400) (by linarith) k3 k4 k5
    have hM' : rdist (angularMomentum (pos7 Y') (vel7 Y')) (angularMomentum (r η) (v η)) ≤ 18.3 := hM.trans (by norm_num)
    have hEn : ∀ G : ℝ, (∀ x : V3 ℝ, 6.4e6 ≤ rnorm x → rnorm (grav a μ j2 j3 j4 x) ≤ G) →
        |energy a μ j2 j3 j4 (pos7 Y') (vel7 Y') - energy a μ j2 j3 j4 (pos7 Y) (vel7 Y)| ≤ 6.71e-3 + G * 3.14e-4 := by
      intro G hG
      have hG0 : 0 ≤ G := (rnorm_nonneg _).trans (hG (pos7 Y) (le_trans (by norm_num) hlo))
      have hU := (potential_close hG hfar).trans (mul_le_mul_of_nonneg_left k4 hG0)
      rw [← hcE]
      unfold energy
      rw [show ∀ x y z w : ℝ, x - y - (z - w) = (x - z) - (y - w) from fun x y z w => by ring]
      refine (abs_sub _ _).trans (add_le_add (hK.trans (by norm_num)) hU)
    refine ⟨(hEn _ hG).trans (by norm_num), ?_, ?_⟩
    · rw [← hcz]
      exact (abs_le_rnorm (rsub _ _)).2.2.trans hM'
    · rintro rfl rfl rfl
      refine ⟨(hEn 9.8 (grav_sphere hne.mu0 hne.mu1)).trans (by norm_num), ?_⟩
      have hL : ∀ t ∈ Set.Icc 0 η, HasVelocity (fun τ => angularMomentum (r τ) (v τ)) ⟨0, 0, 0⟩ t := by
        intro t ht
        obtain ⟨g, g1, g2, g3⟩ := hf t ht
        exact momentum_rate g2 g3 g1
      have : angularMomentum (r η) (v η) = angularMomentum (r 0) (v 0) :=
        V3.ext (constant_between hη0.le fun t ht => (hL t ht).1)
          (constant_between hη0.le fun t ht => (hL t ht).2.1)
          (constant_between hη0.le fun t ht => (hL t ht).2.2)
      rw [← e1, ← e2, ← this]
      exact hM'

theorem readsV_unique {x : V3 (F64 L)} {y z : V3 ℝ} (h1 : ReadsV x y) (h2 : ReadsV x z) : y = z := by
  have key : ∀ {w : F64 L} {ξ ζ : ℝ}, Reads w ξ → Reads w ζ → ξ = ζ := by
    rintro w _ _ ⟨p, hp, rfl⟩ ⟨q, hq, rfl⟩
    rw [Is.unique hp hq]
  exact V3.ext (key h1.1 h2.1) (key h1.2.1 h2.2.1) (key h1.2.2 h2.2.2)

/-- C100 (energy).  Take any number of steps of up to one second of a coasting phase near one of the three models of the Earth
which begin between 6450 and 19200 km from the centre with a speed of at most 8200 m/s.  They change the energy (with the
harmonics of the model) by at most 0.017 J/kg per step, and the component of the angular momentum along the axis of the Earth
by at most 18.3 m²/s per step: the errors add up, but they do not grow. -/
theorem C100_energy (hL : GoodLibrary L) {p : Phase (F64 L)} (hp : CoastingDouble p) {a b μ j2 j3 j4 ω : ℝ}
    (hQ : SameEarth p.planet (realPlanet a b μ j2 j3 j4 ω)) {h : F64 L} {η : ℝ} (hh : Reads h η) (hη0 : 0 < η) (hη1 : η ≤ 1)
    {n : ℕ} (hn : n ≤ 10 ^ 8) {s : ℕ → State (F64 L)} (hstep : ∀ k < n, OneStep p h (s k) (s (k + 1)))
    {t0 te m : ℝ} (ht0 : Reads (s 0).time t0) (ht0' : |t0| ≤ 1e8) (hte : Reads (s 0).timeSinceEvent te) (hte' : |te| ≤ 1e8)
    (hm : Reads (s 0).mass m) (hm0 : m ≠ 0) (hd : (s 0).mass.dbl.IsDouble) {r v : ℕ → V3 ℝ}
    (hr : ∀ k ≤ n, ReadsV (s k).position (r k)) (hv : ∀ k ≤ n, ReadsV (s k).velocity (v k))
    (hreg : ∀ k < n, 6.45e6 ≤ rnorm (r k) ∧ rnorm (r k) ≤ 1.92e7 ∧ rnorm (v k) ≤ 8200) :
    |energy a μ j2 j3 j4 (r n) (v n) - energy a μ j2 j3 j4 (r 0) (v 0)| ≤ 0.017 * n ∧
      |(angularMomentum (r n) (v n)).z - (angularMomentum (r 0) (v 0)).z| ≤ 18.3 * n := by
  obtain ⟨a', b', μ', j2', j3', j4', ω', e, hE, hne⟩ := same_earth hQ
  rw [e] at hE
  simp only [realPlanet, Planet.mk.injEq, Grav.mk.injEq, XR.fin_inj] at e
  obtain ⟨rfl, rfl, ⟨rfl, rfl, rfl, rfl⟩, rfl⟩ := e
  obtain ⟨gC, H⟩ := earth_field hE
  obtain ⟨mq, hmq, rfl⟩ := hm
  have hmq0 : mq ≠ 0 := by rintro rfl; simp at hm0
  have hn8 : (n : ℝ) ≤ 100000000 := by
    calc (n : ℝ) ≤ ((10 ^ 8 : ℕ) : ℝ) := Nat.cast_le.2 hn
      _ = _ := by norm_num
  suffices hk : ∀ k ≤ n, Vals (s k) (join7 (r k) (v k)) mq ∧
      (∀ i, ∃ t, Reads (vec2 (s k).time (s k).timeSinceEvent i) t ∧ |t| ≤ 1e8 + 2 * k) ∧
      |energy a μ j2 j3 j4 (r k) (v k) - energy a μ j2 j3 j4 (r 0) (v 0)| ≤ 0.017 * k ∧
      |(angularMomentum (r k) (v k)).z - (angularMomentum (r 0) (v 0)).z| ≤ 18.3 * k from (hk n le_rfl).2.2
  intro k
  induction k with
  | zero =>
    intro _
    refine ⟨vals_of_readsV (hr 0 (Nat.zero_le _)) (hv 0 (Nat.zero_le _)) hmq hd, fun i => ?_, by simp, by simp⟩
    fin_cases i
    · exact ⟨t0, ht0, by simpa using ht0'⟩
    · exact ⟨te, hte, by simpa using hte'⟩
  | succ k ih =>
    intro hk
    obtain ⟨hV, hT, hE1, hE2⟩ := ih (by omega)
    obtain ⟨g1, g2, g3⟩ := hreg k (by omega)
    have hkn : (k : ℝ) ≤ n := by exact_mod_cast (by omega : k ≤ n)
    obtain ⟨s', Y', c1, c2, c3, c4, c5, _⟩ := coast_one hL hp hne H hh hη0 hη1 hV hmq0 (B := 1e8 + 2 * k)
      (by norm_num; linarith) hT g1 g2 g3
    obtain rfl : s' = s (k + 1) := by
      have := hstep k (by omega)
      unfold OneStep at c1 this
      rw [c1] at this
      exact Except.ok.inj this
    have hY : pos7 Y' = r (k + 1) ∧ vel7 Y' = v (k + 1) := by
      obtain ⟨q1, q2⟩ := readsV_of_vals c2
      exact ⟨readsV_unique q1 (hr _ hk), readsV_unique q2 (hv _ hk)⟩
    have e1 : pos7 (join7 (r k) (v k)) = r k := rfl
    have e2 : vel7 (join7 (r k) (v k)) = v k := rfl
    rw [hY.1, hY.2, e1, e2] at c4 c5
    refine ⟨vals_of_readsV (hr _ hk) (hv _ hk) c2.mass c2.dbl, fun i => ?_, ?_, ?_⟩
    · obtain ⟨t, h1, h2⟩ := c3 i
      refine ⟨t, h1, h2.trans_eq ?_⟩
      push_cast
      ring
    · refine (abs_sub_le _ (energy a μ j2 j3 j4 (r k) (v k)) _).trans ((add_le_add c4 hE1).trans_eq ?_)
      push_cast
      ring
    · refine (abs_sub_le _ (angularMomentum (r k) (v k)).z _).trans ((add_le_add c5 hE2).trans_eq ?_)
      push_cast
      ring

/-- A satellite whose energy is at most 864 J/kg above and whose angular momentum is at most 1.59e6 m²/s below that of an
ellipse stays near the ellipse. -/
theorem ellipse_confines {μ q Q ρ E' h' h : ℝ} (hμ : 3.98e14 ≤ μ) (hq : 6.6e6 ≤ q) (hqQ : q ≤ Q) (hQ : Q ≤ 1.85e7) (hh : 0 ≤ h)
    (h2 : h ^ 2 = 2 * μ * q * Q / (q + Q)) (hρ : 0 < ρ) (hh' : h - 1.59e6 ≤ h') (hE' : E' ≤ -μ / (q + Q) + 864)
    (hv : h' ^ 2 / (2 * ρ ^ 2) - μ / ρ ≤ E') : 65 / 66 * q ≤ ρ ∧ ρ ≤ 1.03 * Q := by
  norm_num at hμ hq hQ hh'
  have hq0 : 0 < q := by linarith
  have hQ0 : 0 < Q := by linarith
  have hμ0 : 0 < μ := by linarith
  have hμq : μ * q ≤ h ^ 2 := by
    rw [h2, le_div_iff₀ (by linarith)]
    nlinarith [mul_pos hμ0 hq0]
  have hbig : 2626800000000000000000 ≤ h ^ 2 := by
    refine le_trans ?_ hμq
    nlinarith
  have hh5 : 51250000000 ≤ h := by
    by_contra hc
    push Not at hc
    nlinarith
  have hlin : 3180000 * h ≤ 6.21e-5 * h ^ 2 := by
    norm_num
    nlinarith
  have hsq : h ^ 2 - 3180000 * h ≤ h' ^ 2 := by
    have : (h - 1590000) ^ 2 ≤ h' ^ 2 := pow_le_pow_left₀ (by linarith) (by linarith) 2
    nlinarith
  have main : h ^ 2 * ((1 - ρ / q) * (1 - ρ / Q)) ≤ 3180000 * h + 1728 * ρ ^ 2 := by
    have e : h ^ 2 * ((1 - ρ / q) * (1 - ρ / Q)) = h ^ 2 - 2 * μ * ρ + 2 * μ * ρ ^ 2 / (q + Q) := by
      rw [h2]
      field_simp
      ring
    have e1 : h' ^ 2 - 2 * μ * ρ ≤ 2 * ρ ^ 2 * E' := by
      have := mul_le_mul_of_nonneg_left hv (show (0 : ℝ) ≤ 2 * ρ ^ 2 by positivity)
      refine le_trans (le_of_eq ?_) this
      field_simp
    have e2 : 2 * ρ ^ 2 * E' ≤ -(2 * μ * ρ ^ 2 / (q + Q)) + 1728 * ρ ^ 2 := by
      have := mul_le_mul_of_nonneg_left hE' (show (0 : ℝ) ≤ 2 * ρ ^ 2 by positivity)
      refine this.trans (le_of_eq ?_)
      field_simp
      ring
    rw [e]
    linarith
  constructor
  · by_contra hc
    push Not at hc
    have k1 : 1 / 66 ≤ 1 - ρ / q := by
      have : ρ / q ≤ 65 / 66 := by rw [div_le_iff₀ hq0]; exact hc.le
      linarith
    have k2 : 1 / 66 ≤ 1 - ρ / Q := by
      have : ρ / Q ≤ ρ / q := div_le_div_of_nonneg_left hρ.le hq0 hqQ
      linarith
    have k3 : 1 / 66 * (1 / 66) ≤ (1 - ρ / q) * (1 - ρ / Q) := mul_le_mul k1 k2 (by norm_num) (by linarith)
    have k4 := mul_le_mul_of_nonneg_left k3 (sq_nonneg h)
    have hρq : ρ ≤ q := by linarith
    have k5 : ρ ^ 2 ≤ 18500000 * q := by nlinarith
    have k6 : 398000000000000 * q ≤ h ^ 2 := by nlinarith
    norm_num at hlin
    generalize h ^ 2 = A at *
    linarith
  · by_contra hc
    push Not at hc
    norm_num at hc
    set x := ρ / Q with hx
    have hx1 : 103 / 100 < x := by rw [hx, lt_div_iff₀ hQ0]; exact hc
    have hxq : x ≤ ρ / q := div_le_div_of_nonneg_left hρ.le hq0 hqQ
    have k1 : 3 / 103 * x ≤ x - 1 := by linarith
    have k2 : 3 / 103 * x ≤ ρ / q - 1 := by linarith
    have k3 : 3 / 103 * x * (3 / 103 * x) ≤ (ρ / q - 1) * (x - 1) := mul_le_mul k2 k1 (by linarith) (by linarith)
    have k4 : 3 / 103 * x * (3 / 103 * x) ≤ (1 - ρ / q) * (1 - x) := k3.trans_eq (by ring)
    have k5 := (mul_le_mul_of_nonneg_left k4 (sq_nonneg h)).trans main
    have hρx : ρ = x * Q := by rw [hx]; field_simp
    have k6 : ρ ^ 2 ≤ 342250000000000 * x ^ 2 := by
      rw [hρx, mul_pow, mul_comm]
      refine mul_le_mul_of_nonneg_right ?_ (sq_nonneg _)
      nlinarith
    have hx2 : 1 ≤ x ^ 2 := by nlinarith
    have k7 : 3180000 * h ≤ 6.21e-5 * h ^ 2 * x ^ 2 := hlin.trans (le_mul_of_one_le_right (by positivity) hx2)
    have k8 : h ^ 2 * (9 / 10609) * x ^ 2 ≤ 6.21e-5 * h ^ 2 * x ^ 2 + 1728 * (342250000000000 * x ^ 2) := by
      have : h ^ 2 * (3 / 103 * x * (3 / 103 * x)) = h ^ 2 * (9 / 10609) * x ^ 2 := by ring
      rw [← this]
      linarith
    have k9 : h ^ 2 * (9 / 10609) ≤ 6.21e-5 * h ^ 2 + 1728 * 342250000000000 := by
      have hx0 : 0 < x ^ 2 := by linarith
      refine le_of_mul_le_mul_right (k8.trans_eq ?_) hx0
      ring
    norm_num at k9
    linarith

/-- the state after the next step -/
def advance (p : Phase (F64 L)) (h : F64 L) (s : State (F64 L)) : State (F64 L) :=
  match p.integrator.step p.system s h with
  | .ok s' => s'
  | .error _ => s

theorem advance_of_step {s s' : State (F64 L)} (hs : OneStep p h s s') : advance p h s = s' := by
  unfold advance
  unfold OneStep at hs
  rw [hs]

/-- C100 (the orbit).  A satellite of the spherical model of the Earth on an ellipse with a perigee of at least 6600 km, an apogee
of at most 18500 km and a speed of at most 8050 m/s at the perigee: the simulation can be continued for a day (86400 steps of up to
one second); after `k` steps the energy is that of the ellipse up to `0.01 k` J/kg and the angular momentum, as a vector, that at
the beginning up to `18.3 k` m²/s; and in all of this time the satellite is at least 65/66 of the perigee and at most 1.03 times
the apogee away from the centre. -/
theorem C100_orbit (hL : GoodLibrary L) {p : Phase (F64 L)} (hp : CoastingDouble p) {a b μ ω : ℝ}
    (hQ : SameEarth p.planet (realPlanet a b μ 0 0 0 ω)) {h : F64 L} {η : ℝ} (hh : Reads h η) (hη0 : 0 < η) (hη1 : η ≤ 1)
    {n : ℕ} (hn : n ≤ 86400) {s0 : State (F64 L)} {r0 v0 : V3 ℝ} {t0 te m q Q : ℝ} (ht0 : Reads s0.time t0) (ht0' : |t0| ≤ 1e8)
    (hte' : |te| ≤ 1e8) (hs0 : ReadsAt s0 te r0 v0 m) (hm : m ≠ 0) (hd : s0.mass.dbl.IsDouble)
    (hell : OnEllipse μ r0 v0 q Q) (hq : 6.6e6 ≤ q) (hQ' : Q ≤ 1.85e7) (hvp : rnorm (angularMomentum r0 v0) ≤ 8050 * q) :
    ∃ s : ℕ → State (F64 L), s 0 = s0 ∧ (∀ k < n, OneStep p h (s k) (s (k + 1))) ∧
      ∀ k ≤ n, ∃ r v, ReadsV (s k).position r ∧ ReadsV (s k).velocity v ∧ Reads (s k).mass m ∧
        |rdot v v / 2 - μ / rnorm r - -μ / (q + Q)| ≤ 0.01 * k ∧
        rdist (angularMomentum r v) (angularMomentum r0 v0) ≤ 18.3 * k ∧ 65 / 66 * q ≤ rnorm r ∧ rnorm r ≤ 1.03 * Q := by
  obtain ⟨a', b', μ', j2', j3', j4', ω', e, hE, hne⟩ := same_earth hQ
  rw [e] at hE
  simp only [realPlanet, Planet.mk.injEq, Grav.mk.injEq, XR.fin_inj] at e
  obtain ⟨rfl, rfl, ⟨rfl, rfl, rfl, rfl⟩, rfl⟩ := e
  obtain ⟨gC, H⟩ := earth_field hE
  have hμ := mu_low hE
  have hμ1 := hne.mu1
  obtain ⟨mq, hmq, rfl⟩ := hs0.mass
  have hmq0 : mq ≠ 0 := by rintro rfl; simp at hm
  set s : ℕ → State (F64 L) := fun k => (advance p h)^[k] s0 with hs
  have hadv : ∀ k, s (k + 1) = advance p h (s k) := fun k => Function.iterate_succ_apply' _ _ _
  have hen : ∀ r v : V3 ℝ, energy a μ 0 0 0 r v = rdot v v / 2 - μ / rnorm r := fun r v => by
    unfold energy
    rw [potential_sphere]
  have hq0 := hell.pos
  have hQ0 : 0 < Q := hell.pos.trans_le hell.order
  -- a state with nearly the same energy and angular momentum is near the ellipse
  have near : ∀ r v : V3 ℝ, 0 < rnorm r → rdot v v / 2 - μ / rnorm r ≤ -μ / (q + Q) + 864 →
      rdist (angularMomentum r v) (angularMomentum r0 v0) ≤ 1.59e6 →
      65 / 66 * q ≤ rnorm r ∧ rnorm r ≤ 1.03 * Q ∧ rnorm v ≤ 8200 := by
    intro r v hr h1 h2
    have t1 := rnorm_triangle (angularMomentum r0 v0) (angularMomentum r v)
    rw [rdist_comm] at t1
    have hvv : rdot v v = rnorm v ^ 2 := by rw [rnorm_sq]; unfold rdot; ring
    obtain ⟨c1, c2⟩ := ellipse_confines (h' := rnorm (angularMomentum r v)) hμ hq hell.order hQ' (rnorm_nonneg _) hell.momentum hr (by linarith) h1
      (by
        have hx := rnorm_rcross_le r v
        have hx2 := pow_le_pow_left₀ (rnorm_nonneg _) hx 2
        rw [mul_pow] at hx2
        rw [hvv]
        have : rnorm (angularMomentum r v) ^ 2 / (2 * rnorm r ^ 2) ≤ rnorm v ^ 2 / 2 := by
          rw [div_le_iff₀ (by positivity)]
          unfold angularMomentum
          linarith
        linarith)
    refine ⟨c1, c2, ?_⟩
    have hvp2 : rnorm (angularMomentum r0 v0) ^ 2 ≤ (8050 * q) ^ 2 := pow_le_pow_left₀ (rnorm_nonneg _) hvp 2
    rw [hell.momentum] at hvp2
    have hper : μ / q - μ / (q + Q) ≤ 32401250 := by
      have e : μ / q - μ / (q + Q) = 2 * μ * q * Q / (q + Q) / (2 * q ^ 2) := by
        field_simp
        ring
      rw [e, div_le_iff₀ (by positivity)]
      refine hvp2.trans (le_of_eq ?_)
      ring
    have hρ : μ / rnorm r ≤ 66 / 65 * (μ / q) := by
      rw [show 66 / 65 * (μ / q) = μ / (65 / 66 * q) by field_simp]
      exact div_le_div_of_nonneg_left hne.mu0 (by positivity) c1
    have hμq : μ / q ≤ 60700000 := by
      rw [div_le_iff₀ hq0]
      norm_num at hμ1 hq
      linarith
    rw [neg_div] at h1
    have : rnorm v ^ 2 ≤ 8200 ^ 2 := by
      rw [hvv] at h1
      norm_num
      linarith
    exact le_of_pow_le_pow_left₀ (n := 2) (by norm_num) (by norm_num) this
  have hrq : 0 < rnorm r0 := by
    rcases (rnorm_nonneg r0).eq_or_lt with h0 | h0
    · exfalso
      have h1 : rnorm (angularMomentum r0 v0) ≤ 0 := by
        have := rnorm_rcross_le r0 v0
        rw [← h0, zero_mul] at this
        exact this
      have h2 : rnorm (angularMomentum r0 v0) = 0 := le_antisymm h1 (rnorm_nonneg _)
      have h3 := hell.momentum
      rw [h2] at h3
      have : 0 < 2 * μ * q * Q / (q + Q) := by
        have : 0 < μ := lt_of_lt_of_le (by norm_num) hμ
        positivity
      rw [← h3] at this
      norm_num at this
    · exact h0
  have main : ∀ k ≤ n, (∀ j < k, OneStep p h (s j) (s (j + 1))) ∧ ∃ Y, Vals (s k) Y mq ∧
      (∀ i, ∃ t, Reads (vec2 (s k).time (s k).timeSinceEvent i) t ∧ |t| ≤ 1e8 + 2 * k) ∧
      |rdot (vel7 Y) (vel7 Y) / 2 - μ / rnorm (pos7 Y) - -μ / (q + Q)| ≤ 0.01 * k ∧
      rdist (angularMomentum (pos7 Y) (vel7 Y)) (angularMomentum r0 v0) ≤ 18.3 * k ∧
      65 / 66 * q ≤ rnorm (pos7 Y) ∧ rnorm (pos7 Y) ≤ 1.03 * Q ∧ rnorm (vel7 Y) ≤ 8200 := by
    intro k
    induction k with
    | zero =>
      intro _
      have e1 : pos7 (join7 r0 v0) = r0 := rfl
      have e2 : vel7 (join7 r0 v0) = v0 := rfl
      have h0 : rdist (angularMomentum r0 v0) (angularMomentum r0 v0) = 0 := by
        unfold rdist rsub rnorm; simp
      refine ⟨fun j hj => absurd hj (by omega), join7 r0 v0, vals_of_readsV hs0.position hs0.velocity hmq hd, fun i => ?_, ?_,
        ?_, ?_⟩
      · fin_cases i
        · exact ⟨t0, ht0, by simpa using ht0'⟩
        · exact ⟨te, hs0.timeSinceEvent, by simpa using hte'⟩
      · rw [e1, e2, hell.energy]
        simp
      · rw [e1, e2, h0]
        simp
      · rw [e1, e2]
        exact near r0 v0 hrq (by rw [hell.energy]; linarith) (by rw [h0]; norm_num)
    | succ k ih =>
      intro hk
      obtain ⟨hst, Y, hV, hT, i1, i2, i3, i4, i5⟩ := ih (by omega)
      have hk8 : (k : ℝ) + 1 ≤ 86400 := by exact_mod_cast (by omega : k + 1 ≤ 86400)
      obtain ⟨s', Y', c1, c2, c3, _, _, c6⟩ := coast_one hL hp hne H hh hη0 hη1 hV hmq0 (B := 1e8 + 2 * k)
        (by norm_num; linarith) hT (by norm_num at hq ⊢; linarith) (by norm_num at hQ' i4 ⊢; linarith) i5
      obtain ⟨c4, c5⟩ := c6 rfl rfl rfl
      have hs' : s (k + 1) = s' := by rw [hadv, advance_of_step c1]
      rw [hen, hen] at c4
      have f1 : |rdot (vel7 Y') (vel7 Y') / 2 - μ / rnorm (pos7 Y') - -μ / (q + Q)| ≤ 0.01 * (k + 1) :=
        (abs_sub_le _ (rdot (vel7 Y) (vel7 Y) / 2 - μ / rnorm (pos7 Y)) _).trans ((add_le_add c4 i1).trans_eq (by ring))
      have f2 : rdist (angularMomentum (pos7 Y') (vel7 Y')) (angularMomentum r0 v0) ≤ 18.3 * (k + 1) := by
        have : ∀ x y z : V3 ℝ, rdist x z ≤ rdist x y + rdist y z := fun x y z => by
          rw [← norm_e3_sub, ← norm_e3_sub, ← norm_e3_sub]
          exact norm_sub_le_norm_sub_add_norm_sub _ _ _
        exact (this _ (angularMomentum (pos7 Y) (vel7 Y)) _).trans ((add_le_add c5 i2).trans_eq (by ring))
      have hr' : 0 < rnorm (pos7 Y') := by
        rcases (rnorm_nonneg (pos7 Y')).eq_or_lt with h0 | h0
        · exfalso
          have h1 : rnorm (angularMomentum (pos7 Y') (vel7 Y')) ≤ 0 := by
            have := rnorm_rcross_le (pos7 Y') (vel7 Y')
            rw [← h0, zero_mul] at this
            exact this
          have h2 := rnorm_triangle (angularMomentum r0 v0) (angularMomentum (pos7 Y') (vel7 Y'))
          rw [rdist_comm] at h2
          have h3 : rnorm (angularMomentum r0 v0) ≤ 1.59e6 := by
            norm_num at f2 ⊢
            linarith
          have h4 := pow_le_pow_left₀ (rnorm_nonneg _) h3 2
          rw [hell.momentum, div_le_iff₀ (by positivity)] at h4
          have h5 : μ * q * Q ≤ 1.59e6 ^ 2 * Q := by nlinarith [hell.order]
          have h6 := le_of_mul_le_mul_right h5 hQ0
          norm_num at h6 hμ hq
          nlinarith
        · exact h0
      have hnear := near (pos7 Y') (vel7 Y') hr' (by have := (abs_le.1 f1).2; norm_num at this ⊢; linarith)
        (f2.trans (by norm_num; linarith))
      refine ⟨fun j hj => ?_, Y', by rw [hs']; exact c2, fun i => ?_, ?_, ?_, hnear⟩
      · rcases Nat.lt_succ_iff_lt_or_eq.1 hj with h1 | rfl
        · exact hst j h1
        · rw [hs']; exact c1
      · rw [hs']
        obtain ⟨t, h1, h2⟩ := c3 i
        refine ⟨t, h1, h2.trans_eq ?_⟩
        push_cast
        ring
      · push_cast; exact f1
      · push_cast; exact f2
  refine ⟨s, rfl, (main n le_rfl).1, fun k hk => ?_⟩
  obtain ⟨_, Y, hV, _, i1, i2, i3, i4, _⟩ := main k hk
  obtain ⟨g1, g2⟩ := readsV_of_vals hV
  exact ⟨pos7 Y, vel7 Y, g1, g2, ⟨mq, hV.mass, rfl⟩, i1, i2, i3, i4⟩

/-- C100 (whole phases).  Such a phase with the regular step of one second that ends `n` seconds after its beginning, up to a day,
runs to its end and prints `n` rows, those of the states after each second, for which this holds. -/
theorem C100_run (hL : GoodLibrary L) {p : Phase (F64 L)} (hp : CoastingDouble p) {a b μ ω : ℝ}
    (hQ : SameEarth p.planet (realPlanet a b μ 0 0 0 ω)) {n : ℕ} (hn1 : 1 ≤ n) (hn : n ≤ 86400) {T : F64 L}
    (hc : p.endCriterion = (.timeSinceEvent, T)) (hT : Reads T n) (hst : Reads p.stepsize 1) (he : p.ended = false)
    {r0 v0 : V3 ℝ} {t0 m q Q : ℝ} (ht0 : Reads p.state.time t0) (ht0' : |t0| ≤ 1e8)
    (hs0 : ReadsAt p.state 0 r0 v0 m) (hm : m ≠ 0) (hd : p.state.mass.dbl.IsDouble)
    (hell : OnEllipse μ r0 v0 q Q) (hq : 6.6e6 ≤ q) (hQ' : Q ≤ 1.85e7) (hvp : rnorm (angularMomentum r0 v0) ≤ 8050 * q) :
    ∃ (s : ℕ → State (F64 L)) (fuel : ℕ) (w : Phase (F64 L)),
      p.run fuel = some ⟨(List.range n).map fun k => (s (k + 1)).row, .ok w⟩ ∧ w.state = s n ∧
      ∀ k ≤ n, ∃ r v, ReadsAt (s k) k r v m ∧
        |rdot v v / 2 - μ / rnorm r - -μ / (q + Q)| ≤ 0.01 * k ∧
        rdist (angularMomentum r v) (angularMomentum r0 v0) ≤ 18.3 * k ∧ 65 / 66 * q ≤ rnorm r ∧ rnorm r ≤ 1.03 * Q := by
  obtain ⟨s0, hs⟩ := coasting_system hp.unlimited hp.engines hp.tables p.state
  obtain ⟨g1, g2, g3, g4, g5⟩ := Phase.system_primary hs
  obtain ⟨s, e0, e1, e2⟩ := C100_orbit hL hp hQ hst one_pos le_rfl hn (s0 := s0)
    (te := 0) (m := m) (r0 := r0) (v0 := v0) (by rw [g1]; exact ht0) ht0' (by norm_num)
    ⟨by rw [g2]; exact hs0.timeSinceEvent, by rw [g3]; exact hs0.position, by rw [g4]; exact hs0.velocity,
      by rw [g5]; exact hs0.mass⟩ hm (by rw [g5]; exact hd) hell hq hQ' hvp
  have hone : ∀ k < n, (s (k + 1)).timeSinceEvent = (s k).timeSinceEvent + p.stepsize :=
    fun k hk => isTime_step (v := .timeSinceEvent) (.inr rfl) (e1 k hk)
  obtain ⟨q1, hq1, hq1'⟩ := hst
  obtain rfl : q1 = ((1 : ℕ) : ℚ) := by exact_mod_cast hq1'
  obtain ⟨qT, hqT, hqT'⟩ := hT
  obtain rfl : qT = (n : ℚ) := by exact_mod_cast hqT'
  have htime : ∀ k ≤ n, (StateVariable.getValue .timeSinceEvent (s k)).Is (k : ℚ) := by
    intro k
    induction k with
    | zero =>
      intro _
      show ((s 0).timeSinceEvent).Is _
      obtain ⟨q0, h1, h2⟩ := hs0.timeSinceEvent
      obtain rfl : q0 = 0 := by exact_mod_cast h2
      rw [e0, g2]
      exact_mod_cast h1
    | succ k ih =>
      intro hk
      show ((s (k + 1)).timeSinceEvent).Is _
      rw [hone k (by omega)]
      exact is_add_nat (ih (by omega)) hq1 (by omega)
  have hfin : ∀ k ≤ n, ∃ r v, ReadsAt (s k) k r v m ∧
      |rdot v v / 2 - μ / rnorm r - -μ / (q + Q)| ≤ 0.01 * k ∧
      rdist (angularMomentum r v) (angularMomentum r0 v0) ≤ 18.3 * k ∧ 65 / 66 * q ≤ rnorm r ∧ rnorm r ≤ 1.03 * Q := by
    intro k hk
    obtain ⟨r', v', f1, f2, f3, f4⟩ := e2 k hk
    exact ⟨r', v', ⟨⟨_, htime k hk, by norm_cast⟩, f1, f2, f3⟩, f4⟩
  obtain ⟨n, rfl⟩ : ∃ j, n = j + 1 := ⟨n - 1, by omega⟩
  obtain ⟨fuel, w, h1, h2⟩ := run_of_steps (p := p) (s := s) (n := n) he (by rw [hs, e0])
    (fun k hk => e1 k hk)
    (fun k hk => by
      have h3 : (k : ℚ) + 1 ≤ n := by exact_mod_cast hk
      have h4 : (n : ℚ) + 1 ≤ 86400 := by exact_mod_cast hn
      have h0 : (0 : ℚ) ≤ k := by positivity
      rw [hc]
      constructor
      · intro hmet
        have h5 := close_of_met (htime (k + 1) (by omega)) hqT (by
          push_cast
          rw [abs_of_nonpos (by linarith)]
          norm_num
          linarith) hmet
        push_cast at h5
        rw [abs_of_nonpos (by linarith)] at h5
        norm_num at h5
        linarith
      · rw [overshot_is (htime k (by omega)) (htime (k + 1) (by omega)) hqT]
        push_cast
        rintro (⟨h4, _⟩ | ⟨_, h4⟩) <;> linarith)
    (by
      rw [hc]
      refine met_of_close (htime (n + 1) le_rfl) hqT ?_
      norm_num)
  exact ⟨s, fuel, w, h1, h2, hfin⟩

/-! ## an example -/

/-- The default phase, ended after a day, with the satellite at a perigee of 6700 km. -/
def exampleDay : Phase (F64 goodLibm) :=
  { Phase.default with
    endCriterion := (.timeSinceEvent, 86400)
    state := { State.default with
      position := ⟨6700000, 0, 0⟩
      velocity := ⟨0, 7750, 0⟩
      mass := 1000 } }

theorem exampleDay_meets : CoastingDouble exampleDay ∧ ∃ μ Q : ℝ, 3.98e14 ≤ μ ∧ μ ≤ 3.99e14 ∧
    SameEarth exampleDay.planet (realPlanet (20925741 * 0.3048) (20925741 * 0.3048) μ 0 0 0 7.29211e-5) ∧
    OnEllipse μ ⟨6700000, 0, 0⟩ ⟨0, 7750, 0⟩ 6700000 Q ∧ 6.82e6 ≤ Q ∧ Q ≤ 6.85e6 ∧
    rnorm (angularMomentum ⟨6700000, 0, 0⟩ ⟨0, 7750, 0⟩) ≤ 8050 * 6700000 ∧
    ReadsAt exampleDay.state 0 ⟨6700000, 0, 0⟩ ⟨0, 7750, 0⟩ 1000 := by
  have hz : FiniteDouble (0 : F64 goodLibm) := ⟨0, is_zero⟩
  have hsx : TimeSteeredDouble (Axis.default : Axis (F64 goodLibm)) := by
    refine ⟨.inl rfl, fun c hc => ?_⟩
    have : c = 0 := by simpa [Axis.default] using hc
    rw [this]
    exact ⟨0, is_zero, by norm_num⟩
  have hcoast : CoastingDouble exampleDay :=
    ⟨rfl, rfl, rfl, ⟨wellFormed_default, wellFormed_default, wellFormed_default⟩, ⟨hz, hz, hz⟩,
      numberAttitude_of_time goodLibm_good hsx hsx hsx⟩
  obtain ⟨μ, hμ⟩ : ∃ μ : ℝ, μ = 1.4076539e16 * (0.3048 * 0.3048 * 0.3048) := ⟨_, rfl⟩
  have hpl : SameEarth exampleDay.planet (realPlanet (20925741 * 0.3048) (20925741 * 0.3048) μ 0 0 0 7.29211e-5) := by
    rw [hμ]
    exact .inl ⟨rfl, exampleLow_planet.symm⟩
  obtain ⟨S, hS⟩ : ∃ S : ℝ, S = μ / (μ / 6700000 - 7750 ^ 2 / 2) := ⟨_, rfl⟩
  have hden : 0 < μ / 6700000 - 7750 ^ 2 / 2 := by rw [hμ]; norm_num
  have hS1 : 13520000 ≤ S := by rw [hS, le_div_iff₀ hden, hμ]; norm_num
  have hS2 : S ≤ 13550000 := by rw [hS, div_le_iff₀ hden, hμ]; norm_num
  have hS0 : 0 < S := lt_of_lt_of_le (by norm_num) hS1
  have hμ0 : 0 < μ := by rw [hμ]; norm_num
  have hμe : μ = (μ / 6700000 - 7750 ^ 2 / 2) * S := by rw [hS, mul_div_cancel₀ _ hden.ne']
  have hμS : μ / S = μ / 6700000 - 7750 ^ 2 / 2 := by rw [div_eq_iff hS0.ne']; exact hμe
  have hn : rnorm ⟨6700000, 0, 0⟩ = 6700000 := rnorm_x _ (by norm_num)
  have hH : rnorm (angularMomentum ⟨6700000, 0, 0⟩ ⟨0, 7750, 0⟩) = 6700000 * 7750 := by
    unfold rnorm angularMomentum rcross
    norm_num
    rw [Real.sqrt_eq_iff_mul_self_eq (by norm_num) (by norm_num)]
    norm_num
  have hell : OnEllipse μ ⟨6700000, 0, 0⟩ ⟨0, 7750, 0⟩ 6700000 (S - 6700000) := by
    refine ⟨by norm_num, by linarith, ?_, ?_⟩
    · rw [hn, neg_div, show (6700000 : ℝ) + (S - 6700000) = S by ring, hμS]
      unfold rdot
      ring
    · rw [hH, show (6700000 : ℝ) + (S - 6700000) = S by ring]
      rw [eq_div_iff hS0.ne']
      linear_combination (2 * 6700000 * 6700000) * hμe
  have nm : Reads (1000 : F64 goodLibm) 1000 := by simpa using reads_nat (L := goodLibm) 1000 (by norm_num)
  have nr : Reads (6700000 : F64 goodLibm) 6700000 := by simpa using reads_nat (L := goodLibm) 6700000 (by norm_num)
  have nv : Reads (7750 : F64 goodLibm) 7750 := by simpa using reads_nat (L := goodLibm) 7750 (by norm_num)
  exact ⟨hcoast, μ, S - 6700000, by rw [hμ]; norm_num, by rw [hμ]; norm_num, hpl, hell, by norm_num; linarith,
    by norm_num; linarith, by rw [hH]; norm_num,
    ⟨reads_zero, ⟨nr, reads_zero, reads_zero⟩, ⟨reads_zero, nv, reads_zero⟩, nm⟩⟩

/-- After a day the satellite has not come down. -/
example : ∃ fuel rows w r, exampleDay.run fuel = some ⟨rows, .ok w⟩ ∧ rows.length = 86400 ∧ ReadsV w.state.position r ∧
    6.59e6 ≤ rnorm r ∧ rnorm r ≤ 7.1e6 := by
  obtain ⟨hcoast, μ, Q, _, _, hpl, hell, hQ1, hQ2, hH, hs⟩ := exampleDay_meets
  have n1 : Reads (1 : F64 goodLibm) 1 := by simpa using reads_nat (L := goodLibm) 1 (by norm_num)
  have nT : Reads (86400 : F64 goodLibm) 86400 := by simpa using reads_nat (L := goodLibm) 86400 (by norm_num)
  obtain ⟨s, fuel, w, h1, h2, h3⟩ := C100_run goodLibm_good hcoast hpl (n := 86400) (t0 := 0)
    (by norm_num) le_rfl rfl (by simpa using nT) n1 rfl reads_zero (by norm_num) hs (by norm_num) (Dbl.round_isDouble _ _) hell
    (by norm_num) (hQ2.trans (by norm_num)) hH
  obtain ⟨r, v, k1, _, _, k4, k5⟩ := h3 86400 le_rfl
  refine ⟨fuel, _, w, r, h1, by simp, by rw [h2]; exact k1.position, ?_, ?_⟩
  · norm_num at k4 ⊢
    linarith
  · norm_num at k5 hQ2 ⊢
    linarith

/-- All the steps of the day satisfy the hypotheses of `C100_energy`. -/
example : ∃ (s : ℕ → State (F64 goodLibm)) (r v : ℕ → V3 ℝ), s 0 = exampleDay.state ∧
    (∀ k < 86400, OneStep exampleDay 1 (s k) (s (k + 1))) ∧
    (∀ k ≤ 86400, ReadsV (s k).position (r k)) ∧ (∀ k ≤ 86400, ReadsV (s k).velocity (v k)) ∧
    ∀ k ≤ 86400, 6.45e6 ≤ rnorm (r k) ∧ rnorm (r k) ≤ 1.92e7 ∧ rnorm (v k) ≤ 8200 := by
  obtain ⟨hcoast, μ, Q, hμ1, hμ2, hpl, hell, hQ1, hQ2, hH, hs⟩ := exampleDay_meets
  have n1 : Reads (1 : F64 goodLibm) 1 := by simpa using reads_nat (L := goodLibm) 1 (by norm_num)
  obtain ⟨s, h0, h1, h2⟩ := C100_orbit goodLibm_good hcoast hpl (n := 86400) (t0 := 0) n1 one_pos le_rfl le_rfl reads_zero
    (by norm_num) (by norm_num) hs (by norm_num) (Dbl.round_isDouble _ _) hell (by norm_num) (hQ2.trans (by norm_num)) hH
  have h3 : ∀ k : ℕ, ∃ r v, k ≤ 86400 → ReadsV (s k).position r ∧ ReadsV (s k).velocity v ∧
      6.45e6 ≤ rnorm r ∧ rnorm r ≤ 1.92e7 ∧ rnorm v ≤ 8200 := by
    intro k
    by_cases hk : k ≤ 86400
    · obtain ⟨r, v, k1, k2, _, k3, _, k4, k5⟩ := h2 k hk
      refine ⟨r, v, fun _ => ⟨k1, k2, ?_, ?_, ?_⟩⟩
      · norm_num at k4 ⊢
        linarith
      · norm_num at k5 hQ2 ⊢
        linarith
      · have hk' : (k : ℝ) ≤ 86400 := by exact_mod_cast hk
        have k6 := (abs_le.1 k3).2
        have hr : (6590000 : ℝ) ≤ rnorm r := by
          norm_num at k4
          linarith
        have e1 : μ / rnorm r ≤ 6.06e7 := by
          rw [div_le_iff₀ (by linarith)]
          norm_num at hμ2 ⊢
          linarith
        have e2 : -μ / (6700000 + Q) ≤ -2.9e7 := by
          norm_num at hμ1 hQ1 hQ2
          rw [div_le_iff₀ (by linarith)]
          norm_num
          linarith
        have e3 : rdot v v ≤ 8200 ^ 2 := by
          norm_num at e1 e2 k6 ⊢
          linarith
        unfold rnorm
        refine Real.sqrt_le_iff.2 ⟨by norm_num, le_of_eq_of_le ?_ e3⟩
        unfold rdot
        ring
    · exact ⟨⟨0, 0, 0⟩, ⟨0, 0, 0⟩, fun h => absurd h hk⟩
  choose r v h4 using h3
  exact ⟨s, r, v, h0, h1, fun k hk => (h4 k hk).1, fun k hk => (h4 k hk).2.1, fun k hk => (h4 k hk).2.2⟩

end
end Post
