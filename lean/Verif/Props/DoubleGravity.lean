import Verif.Lemmas.SurfaceGravF64
import Verif.Spec.DoubleGravity
import Verif.Props.DoubleAir
import Verif.Props.DoubleTrack
/-! # C99: gravity in double precision -/

set_option exponentiation.threshold 2000

namespace Post
open Spec Flt F64
variable {L : Libm}

noncomputable section

theorem gradient_grav (a μ j2 j3 j4 : ℝ) {r : V3 ℝ} (hr : r ≠ ⟨0, 0, 0⟩) :
    GradientAt (potential a μ j2 j3 j4) r (grav a μ j2 j3 j4 r) := by
  intro d
  have key : ∀ c e : ℝ, HasDerivAt (fun τ : ℝ => c + τ * e) e 0 := fun c e => by
    simpa using ((hasDerivAt_id (0 : ℝ)).mul_const e).const_add c
  have h0 : (⟨r.x + 0 * d.x, r.y + 0 * d.y, r.z + 0 * d.z⟩ : V3 ℝ) = r := by simp
  obtain ⟨g, h1, h2⟩ := C42_gravity_is_gradient a 0 μ j2 j3 j4 0 (key r.x d.x) (key r.y d.y) (key r.z d.z)
    (by rw [h0]; exact hr)
  rw [h0, gravity_grav _ _ _ _ _ _ _ hr] at h1
  have e : grav a μ j2 j3 j4 r = g := V3.fin_inj.1 h1
  rw [e]
  exact h2

theorem mu_low {a b μ j2 j3 j4 ω : ℝ} (h : IsEarth (realPlanet a b μ j2 j3 j4 ω)) : 3.98e14 ≤ μ := by
  unfold IsEarth realPlanet EARTH_SPHERICAL EARTH_FISHER_1960 EARTH_SMITHSONIAN METER_PER_FOOT
    CUBIC_METER_PER_CUBIC_FOOT METER_PER_FOOT at h
  simp only [XR.fin_sci, XR.fin_zero, XR.fin_mul, XR.fin_neg, Planet.mk.injEq, Grav.mk.injEq,
    XR.fin_inj] at h
  rcases h with ⟨_, _, ⟨rfl, _⟩, _⟩ | ⟨_, _, ⟨rfl, _⟩, _⟩ | ⟨_, _, ⟨rfl, _⟩, _⟩
  all_goals norm_num

/-- the attraction is at least 0.97 of that of a sphere -/
theorem harmonic_low {u w j2 j3 j4 : ℝ} (hu0 : 0 ≤ u) (hu : u ≤ 1.005) (hw : |w| ≤ 1) (h2 : |j2| ≤ 1.083e-3) (h3 : |j3| ≤ 2.6e-6)
    (h4 : |j4| ≤ 1.7e-6) :
    0.97 ≤ (1 - w ^ 2) * (1 + 3 / 2 * j2 * u ^ 2 * (1 - 5 * w ^ 2) + 5 / 2 * j3 * u ^ 3 * (3 - 7 * w ^ 2) * w +
      -35 / 8 * j4 * u ^ 4 * (9 * w ^ 4 - 6 * w ^ 2 + 3 / 7)) +
      w * ((1 + 3 / 2 * j2 * u ^ 2 * (3 - 5 * w ^ 2)) * w + 5 / 2 * j3 * u ^ 3 * (6 * w ^ 2 - 7 * w ^ 4 - 3 / 5) +
        -35 / 8 * j4 * u ^ 4 * (15 / 7 - 10 * w ^ 2 + 9 * w ^ 4) * w) := by
  have ha : |u| ≤ 1.005 := by rwa [abs_of_nonneg hu0]
  have u2 : |u ^ 2| ≤ 1.02 := by rw [abs_pow]; exact (pow_le_pow_left₀ (abs_nonneg _) ha 2).trans (by norm_num)
  have u3 : |u ^ 3| ≤ 1.02 := by rw [abs_pow]; exact (pow_le_pow_left₀ (abs_nonneg _) ha 3).trans (by norm_num)
  have u4 : |u ^ 4| ≤ 1.03 := by rw [abs_pow]; exact (pow_le_pow_left₀ (abs_nonneg _) ha 4).trans (by norm_num)
  have w2 : |w ^ 2| ≤ 1 := by rw [abs_pow]; exact pow_le_one₀ (abs_nonneg _) hw
  have w2p : 0 ≤ w ^ 2 := sq_nonneg w
  have w2q : w ^ 2 ≤ 1 := (le_abs_self _).trans w2
  have w4p : 0 ≤ w ^ 4 := by positivity
  have w4q : w ^ 4 ≤ 1 := by nlinarith
  have B2 : |j2 * u ^ 2| ≤ 1.2e-3 := abs_mul_le h2 u2 (by norm_num)
  have B3 : |j3 * u ^ 3| ≤ 3e-6 := abs_mul_le h3 u3 (by norm_num)
  have B4 : |j4 * u ^ 4| ≤ 2e-6 := abs_mul_le h4 u4 (by norm_num)
  have C2 : |3 / 2 * (1 - 3 * w ^ 2)| ≤ 3 := by rw [abs_le]; constructor <;> linarith
  have C3 : |(5 / 2 * (3 - 7 * w ^ 2) * (1 - w ^ 2) + 5 / 2 * (6 * w ^ 2 - 7 * w ^ 4 - 3 / 5)) * w| ≤ 100 := by
    refine abs_mul_le (A := 100) ?_ hw (by norm_num)
    rw [abs_le]
    constructor <;> nlinarith
  have C4 : |-35 / 8 * ((1 - w ^ 2) * (9 * w ^ 4 - 6 * w ^ 2 + 3 / 7) + w ^ 2 * (15 / 7 - 10 * w ^ 2 + 9 * w ^ 4))| ≤ 200 := by
    rw [abs_le]
    have w6 : w ^ 2 * w ^ 4 ≤ 1 := by nlinarith
    have w6' : 0 ≤ w ^ 2 * w ^ 4 := by positivity
    constructor <;> nlinarith
  have D2 := abs_mul_le B2 C2 (M := 3.6e-3) (by norm_num)
  have D3 := abs_mul_le B3 C3 (M := 3e-4) (by norm_num)
  have D4 := abs_mul_le B4 C4 (M := 4e-4) (by norm_num)
  rw [abs_le] at D2 D3 D4
  obtain ⟨d2, _⟩ := D2
  obtain ⟨d3, _⟩ := D3
  obtain ⟨d4, _⟩ := D4
  have e : (1 - w ^ 2) * (1 + 3 / 2 * j2 * u ^ 2 * (1 - 5 * w ^ 2) + 5 / 2 * j3 * u ^ 3 * (3 - 7 * w ^ 2) * w +
      -35 / 8 * j4 * u ^ 4 * (9 * w ^ 4 - 6 * w ^ 2 + 3 / 7)) +
      w * ((1 + 3 / 2 * j2 * u ^ 2 * (3 - 5 * w ^ 2)) * w + 5 / 2 * j3 * u ^ 3 * (6 * w ^ 2 - 7 * w ^ 4 - 3 / 5) +
        -35 / 8 * j4 * u ^ 4 * (15 / 7 - 10 * w ^ 2 + 9 * w ^ 4) * w) =
      1 + j2 * u ^ 2 * (3 / 2 * (1 - 3 * w ^ 2)) +
      j3 * u ^ 3 * ((5 / 2 * (3 - 7 * w ^ 2) * (1 - w ^ 2) + 5 / 2 * (6 * w ^ 2 - 7 * w ^ 4 - 3 / 5)) * w) +
      j4 * u ^ 4 * (-35 / 8 * ((1 - w ^ 2) * (9 * w ^ 4 - 6 * w ^ 2 + 3 / 7) + w ^ 2 * (15 / 7 - 10 * w ^ 2 + 9 * w ^ 4))) := by
    ring
  rw [e]
  norm_num at d2 d3 d4 ⊢
  linarith

/-- the attraction of the Earth has a size of at least 0.97 times that of a sphere -/
theorem grav_low {a μ j2 j3 j4 : ℝ} (ha : 0 ≤ a) (ha' : a ≤ 6.38e6) (hμ : 0 ≤ μ) (h2 : |j2| ≤ 1.083e-3) (h3 : |j3| ≤ 2.6e-6)
    (h4 : |j4| ≤ 1.7e-6) {r : V3 ℝ} (hr : 6.35e6 ≤ rnorm r) : 0.97 * (μ / rnorm r ^ 2) ≤ rnorm (grav a μ j2 j3 j4 r) := by
  have hρ : 0 < rnorm r := lt_of_lt_of_le (by norm_num) hr
  have hsq := rnorm_sq r
  set ρ := rnorm r with hρd
  have bz := (comp_le_rnorm r).2.2
  have hw : |r.z / ρ| ≤ 1 := by
    rw [abs_div, abs_of_pos hρ, div_le_one hρ]
    exact bz
  have hu : a / ρ ≤ 1.005 := by
    rw [div_le_iff₀ hρ]
    norm_num at ha' hr ⊢
    linarith
  have key := harmonic_low (by positivity) hu hw h2 h3 h4
  have hdot : -rdot (grav a μ j2 j3 j4 r) r = μ / ρ * ((1 - (r.z / ρ) ^ 2) * (1 + 3 / 2 * j2 * (a / ρ) ^ 2 * (1 - 5 * (r.z / ρ) ^ 2) +
      5 / 2 * j3 * (a / ρ) ^ 3 * (3 - 7 * (r.z / ρ) ^ 2) * (r.z / ρ) +
      -35 / 8 * j4 * (a / ρ) ^ 4 * (9 * (r.z / ρ) ^ 4 - 6 * (r.z / ρ) ^ 2 + 3 / 7)) +
      r.z / ρ * ((1 + 3 / 2 * j2 * (a / ρ) ^ 2 * (3 - 5 * (r.z / ρ) ^ 2)) * (r.z / ρ) +
        5 / 2 * j3 * (a / ρ) ^ 3 * (6 * (r.z / ρ) ^ 2 - 7 * (r.z / ρ) ^ 4 - 3 / 5) +
        -35 / 8 * j4 * (a / ρ) ^ 4 * (15 / 7 - 10 * (r.z / ρ) ^ 2 + 9 * (r.z / ρ) ^ 4) * (r.z / ρ))) := by
    have hxy : r.x ^ 2 + r.y ^ 2 = ρ ^ 2 - r.z ^ 2 := by linarith
    have e1 : -rdot (grav a μ j2 j3 j4 r) r = μ / ρ ^ 3 * ((r.x ^ 2 + r.y ^ 2) * gravP a j2 j3 j4 r + r.z * gravQ a j2 j3 j4 r) := by
      simp only [rdot, grav, ← hρd]
      ring
    rw [e1, hxy]
    unfold gravP gravQ
    rw [← hρd]
    field_simp
  have hcs := abs_rdot_le (grav a μ j2 j3 j4 r) r
  have h5 : μ / ρ * 0.97 ≤ rnorm (grav a μ j2 j3 j4 r) * ρ := by
    refine le_trans ?_ ((neg_le_abs _).trans hcs)
    rw [hdot]
    exact mul_le_mul_of_nonneg_left key (by positivity)
  have h6 : 0.97 * (μ / ρ ^ 2) = μ / ρ * 0.97 / ρ := by
    field_simp
  rw [h6, div_le_iff₀ hρ]
  exact h5

open Kepler in
/-- gravity of the Earth at distances of 6350 km or more -/
theorem earth_field_surface {a b μ j2 j3 j4 ω : ℝ} (h : IsEarth (realPlanet a b μ j2 j3 j4 ω)) :
    ∃ gC, Field (field a μ j2 j3 j4) gC 6.35e6 34 8e-6 := by
  obtain ⟨ha, ha', hμ, hμ', h2, h3, h4⟩ := earth_values h
  have H := Kepler.harm_field (j2 := j2) (j3 := j3) (j4 := j4) ha hμ (show (0 : ℝ) < 6.35e6 by norm_num)
  set α := 4 / 3 * a / 6.35e6 with hα
  have hα0 : 0 ≤ α := by positivity
  have hα1 : α ≤ 1.34 := by
    rw [hα]
    norm_num at ha' ⊢
    linarith
  have hs : harmSize α j2 j3 j4 ≤ 0.12 := by
    have e2 : α ^ 2 ≤ 1.34 ^ 2 := pow_le_pow_left₀ hα0 hα1 2
    have e3 : α ^ 3 ≤ 1.34 ^ 3 := pow_le_pow_left₀ hα0 hα1 3
    have e4 : α ^ 4 ≤ 1.34 ^ 4 := pow_le_pow_left₀ hα0 hα1 4
    have k2 : |j2| * α ^ 2 ≤ 1.083e-3 * 1.34 ^ 2 := mul_le_mul h2 e2 (by positivity) (by norm_num)
    have k3 : |j3| * α ^ 3 ≤ 2.6e-6 * 1.34 ^ 3 := mul_le_mul h3 e3 (by positivity) (by norm_num)
    have k4 : |j4| * α ^ 4 ≤ 1.7e-6 * 1.34 ^ 4 := mul_le_mul h4 e4 (by positivity) (by norm_num)
    unfold harmSize
    norm_num at k2 k3 k4 ⊢
    nlinarith
  have hs0 : 0 ≤ harmSize α j2 j3 j4 := by unfold harmSize; positivity
  refine ⟨_, H.real, fun r ζ hr hζ => ⟨(H.near r ζ hr hζ).1, (H.near r ζ hr hζ).2.trans ?_⟩,
    fun x y hx hy => (H.lipschitz x y hx hy).trans (mul_le_mul_of_nonneg_right ?_ (norm_nonneg _))⟩
  · calc (1 + harmSize α j2 j3 j4) * (80 / 27 * (μ / 6.35e6 ^ 2)) ≤ (1 + 0.12) * (80 / 27 * (4e14 / 6.35e6 ^ 2)) := by
          gcongr
      _ ≤ 34 := by norm_num
  · calc (2 + 640 / 27 * harmSize α j2 j3 j4) * (μ / 6.35e6 ^ 3) ≤ (2 + 640 / 27 * 0.12) * (4e14 / 6.35e6 ^ 3) := by
          gcongr
      _ ≤ 8e-6 := by norm_num

/-- C99.  In every state visited by a phase near one of the three models of the Earth, from 6350 km (below the surface) to
20000 km from the centre: the reported gravitational acceleration is a vector of numbers, and it is the gradient of the
potential with the zonal harmonics of the model up to an error of at most 6e-11 of its length; the variable
`gravity_acceleration_norm` is its length, up to 6.1e-11 of it. -/
theorem C99_gravity (hL : GoodLibrary L) {p : Phase (F64 L)} {a b μ j2 j3 j4 ω : ℝ}
    (hP : SameEarth p.planet (realPlanet a b μ j2 j3 j4 ω)) {s : State (F64 L)} (hs : Visited p s) {r : V3 ℝ}
    (hr : ReadsV s.position r) (h1 : 6.35e6 ≤ rnorm r) (h2 : rnorm r ≤ 2e7) :
    ∃ g G, ReadsV s.gravityAcceleration g ∧ GradientAt (potential a μ j2 j3 j4) r G ∧ rdist g G ≤ 6e-11 * rnorm G ∧
      WithinOf (StateVariable.getValue .gravityAccelerationNorm s) (rnorm G) (6.1e-11 * rnorm G) := by
  obtain ⟨a', b', μ', j2', j3', j4', ω', e, hI, hN⟩ := same_earth hP
  rw [e] at hI
  simp only [realPlanet, Planet.mk.injEq, Grav.mk.injEq, XR.fin_inj] at e
  obtain ⟨rfl, rfl, ⟨rfl, rfl, rfl, rfl⟩, rfl⟩ := e
  have hρ : 0 < rnorm r := lt_of_lt_of_le (by norm_num) h1
  have hne : r ≠ ⟨0, 0, 0⟩ := by
    rintro rfl
    simp [rnorm] at hρ
  have hμ := mu_low hI
  have hlow := grav_low hN.a0 hN.a1 hN.mu0 hN.j2b hN.j3b hN.j4b h1
  have hlow' : 0.96 ≤ rnorm (grav a μ j2 j3 j4 r) := by
    refine le_trans ?_ hlow
    have hsq : rnorm r ^ 2 ≤ 4e14 := (pow_le_pow_left₀ hρ.le h2 2).trans (by norm_num)
    have : 0.99 ≤ μ / rnorm r ^ 2 := by
      rw [le_div_iff₀ (by positivity)]
      norm_num at hsq hμ ⊢
      linarith
    norm_num at this ⊢
    linarith
  obtain ⟨gC, H⟩ := earth_field_surface hI
  have hhigh : rnorm (grav a μ j2 j3 j4 r) ≤ 34 := by
    have := H.size (by norm_num) (x := e3 r) (by rw [norm_e3]; exact h1)
    rwa [field_e3, norm_e3] at this
  obtain ⟨g, hg, hg'⟩ := (gravity_near_surface hL hN (readsV_near hr) h1 h2).readsV (E := 5.3e-11) (by norm_num)
  rw [← (C57_visited_consistent hs).gravityAcceleration] at hg
  have hclose := rnorm_close g (grav a μ j2 j3 j4 r)
  have hc := abs_le.1 (hclose.trans hg')
  have hrel := rel_norm hg (by norm_num at hc hlow' ⊢; linarith) (by norm_num at hc hhigh ⊢; linarith)
  obtain ⟨x, hx, hx'⟩ := hrel
  refine ⟨g, _, hg, gradient_grav _ _ _ _ _ hne, hg'.trans (by norm_num at hlow' ⊢; linarith), x, ⟨x, hx, rfl⟩, ?_⟩
  have hg0 : |rnorm g| ≤ 35 := by
    rw [abs_le]
    norm_num at hc hhigh hlow' ⊢
    constructor <;> linarith
  have := abs_sub_le (x : ℝ) (rnorm g) (rnorm (grav a μ j2 j3 j4 r))
  norm_num at this hx' hg0 hclose hg' hlow' ⊢
  linarith

/-- C99 (above the surface).  This holds in every state visited on or above the surface of the model, up to 20000 km from the
centre. -/
theorem C99_above_surface (hL : GoodLibrary L) {p : Phase (F64 L)} {a b μ j2 j3 j4 ω : ℝ}
    (hP : SameEarth p.planet (realPlanet a b μ j2 j3 j4 ω)) {s : State (F64 L)} (hs : Visited p s) {r : V3 ℝ}
    (hr : ReadsV s.position r) (h1 : 1 ≤ ellipsoidLevel a b r) (h2 : rnorm r ≤ 2e7) :
    ∃ g G, ReadsV s.gravityAcceleration g ∧ GradientAt (potential a μ j2 j3 j4) r G ∧ rdist g G ≤ 6e-11 * rnorm G ∧
      WithinOf (StateVariable.getValue .gravityAccelerationNorm s) (rnorm G) (6.1e-11 * rnorm G) := by
  refine C99_gravity hL hP hs hr ?_ h2
  have hab : 6.35e6 ≤ a ∧ 6.35e6 ≤ b := by
    obtain ⟨a', b', μ', j2', j3', j4', ω', e, hI, hN⟩ := same_earth hP
    rw [e] at hI
    simp only [realPlanet, Planet.mk.injEq, Grav.mk.injEq, XR.fin_inj] at e
    obtain ⟨rfl, rfl, ⟨rfl, rfl, rfl, rfl⟩, rfl⟩ := e
    unfold IsEarth realPlanet EARTH_SPHERICAL EARTH_FISHER_1960 EARTH_SMITHSONIAN METER_PER_FOOT
      CUBIC_METER_PER_CUBIC_FOOT METER_PER_FOOT at hI
    simp only [XR.fin_sci, XR.fin_zero, XR.fin_mul, XR.fin_neg, Planet.mk.injEq, Grav.mk.injEq, XR.fin_inj] at hI
    rcases hI with ⟨rfl, rfl, _⟩ | ⟨rfl, rfl, _⟩ | ⟨rfl, rfl, _⟩
    all_goals norm_num
  obtain ⟨ha, hb⟩ := hab
  have key : ∀ c : ℝ, 6.35e6 ≤ c → ∀ x : ℝ, x ^ 2 / c ^ 2 ≤ x ^ 2 / 6.35e6 ^ 2 := fun c hc x =>
    div_le_div_of_nonneg_left (sq_nonneg _) (by norm_num) (pow_le_pow_left₀ (by norm_num) hc 2)
  have h3 : 1 ≤ (r.x ^ 2 + r.y ^ 2 + r.z ^ 2) / 6.35e6 ^ 2 := by
    refine h1.trans ?_
    unfold ellipsoidLevel
    rw [add_div, add_div]
    exact add_le_add (add_le_add (key a ha _) (key a ha _)) (key b hb _)
  rw [le_div_iff₀ (by norm_num), one_mul, ← rnorm_sq] at h3
  exact le_of_pow_le_pow_left₀ (n := 2) (by norm_num) (by unfold rnorm; positivity) h3

/-! ## an example -/

/-- The satellite of `exampleTrack`: the hypotheses are met. -/
example : ∃ s g G, Visited exampleTrack s ∧ ReadsV s.gravityAcceleration g ∧
    GradientAt (potential (20925741 * 0.3048) (1.407645794e16 * (0.3048 * 0.3048 * 0.3048)) 1.082639e-3 (-2.565e-6) (-1.608e-6))
      ⟨7000000, 0, 0⟩ G ∧ rdist g G ≤ 6e-11 * rnorm G := by
  obtain ⟨s, hs⟩ := coasting_system (p := exampleTrack) rfl rfl ⟨wellFormed_default, wellFormed_default, wellFormed_default⟩
    exampleTrack.state
  have hvis : Visited exampleTrack s := ⟨s, [], _, hs, .nil _, .inl rfl⟩
  have hz : Reads (0 : F64 fullLibm) 0 := reads_zero
  have hread : ReadsV s.position ⟨7000000, 0, 0⟩ := by
    rw [(Phase.system_primary hs).2.2.1]
    have h9 : Reads (7000000 : F64 fullLibm) 7000000 := by simpa using reads_nat (L := fullLibm) 7000000 (by norm_num)
    exact ⟨h9, hz, hz⟩
  have hn : rnorm ⟨7000000, 0, 0⟩ = 7000000 := rnorm_x _ (by norm_num)
  have e : (EARTH_SMITHSONIAN : Planet XR) = realPlanet (20925741 * 0.3048) (20855590 * 0.3048)
      (1.407645794e16 * (0.3048 * 0.3048 * 0.3048)) 1.082639e-3 (-2.565e-6) (-1.608e-6) 7.29211e-5 := by
    unfold EARTH_SMITHSONIAN realPlanet METER_PER_FOOT CUBIC_METER_PER_CUBIC_FOOT METER_PER_FOOT
    simp only [XR.fin_sci, XR.fin_mul, XR.fin_neg]
    norm_num
  obtain ⟨g, G, h1, h2, h3, _⟩ := C99_gravity fullLibm_good (p := exampleTrack) (.inr (.inr ⟨rfl, e.symm⟩)) hvis hread
    (by rw [hn]; norm_num) (by rw [hn]; norm_num)
  exact ⟨s, g, G, hvis, h1, h2, h3⟩

end
end Post
