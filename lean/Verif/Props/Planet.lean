import Verif.Lemmas.Planet
import Verif.Props.State
import Mathlib.Analysis.Calculus.Deriv.Inv
import Mathlib.Analysis.Calculus.Deriv.Add
import Mathlib.Analysis.Calculus.Deriv.Mul
import Mathlib.Analysis.Calculus.Deriv.Pow
import Mathlib.Analysis.SpecialFunctions.Sqrt
import Mathlib.Analysis.Real.Pi.Bounds
import Mathlib.Analysis.SpecialFunctions.Trigonometric.Deriv
/-! # Properties of the planet model (C42-C45, C55), exact arithmetic -/

namespace Post
open Spec Flt

/-! ## C44: altitude -/

/-- C44.  For every planet with positive radii and every point but the centre, the altitude is a
finite number that is positive exactly outside the ellipsoid, negative exactly inside and zero
exactly on it. -/
theorem C44_altitude_sign {p : Planet XR} {a b : ℝ} (hpa : p.equatorialRadius = .fin a)
    (hpb : p.polarRadius = .fin b) (ha : 0 < a) (hb : 0 < b) {r : V3 ℝ} (hr : r ≠ ⟨0, 0, 0⟩) :
    ∃ h : ℝ, p.altitude r.fin = .fin h ∧ (0 < h ↔ 1 < ellipsoidLevel a b r) ∧
      (h < 0 ↔ ellipsoidLevel a b r < 1) ∧ (h = 0 ↔ OnEllipsoid a b r) := by
  refine ⟨_, altitude_fin hpa hpb ha.ne' hb.ne' hr, (altitude_sign ha hb.ne' hr).1,
    (altitude_sign ha hb.ne' hr).2, ?_⟩
  obtain ⟨h1, h2⟩ := altitude_sign ha hb.ne' hr
  show _ ↔ ellipsoidLevel a b r = 1
  constructor
  · intro h
    rw [h] at h1 h2
    simp only [lt_irrefl, false_iff, not_lt] at h1 h2
    exact le_antisymm h1 h2
  · intro h
    rw [h] at h1 h2
    simp only [lt_irrefl, iff_false, not_lt] at h1 h2
    exact le_antisymm h1 h2

/-- C44 (spherical planet).  There the altitude is the distance to the centre minus the
radius. -/
theorem C44_spherical {p : Planet XR} {a : ℝ} (hpa : p.equatorialRadius = .fin a)
    (hpb : p.polarRadius = .fin a) (ha : 0 < a) {r : V3 ℝ} (hr : r ≠ ⟨0, 0, 0⟩) :
    p.altitude r.fin = .fin (rnorm r - a) := by
  rw [altitude_fin hpa hpb ha.ne' ha.ne' hr]
  unfold surfaceDistance
  rw [div_self ha.ne']
  norm_num

/-- C44 (in general).  The altitude is the distance, along the ray from the centre, to the point
where the ray meets the surface: moving down by it gets exactly to the surface. -/
theorem C44_radial {p : Planet XR} {a b : ℝ} (hpa : p.equatorialRadius = .fin a)
    (hpb : p.polarRadius = .fin b) (ha : 0 < a) (hb : 0 < b) {r : V3 ℝ} (hr : r ≠ ⟨0, 0, 0⟩) :
    ∃ h : ℝ, p.altitude r.fin = .fin h ∧ h < rnorm r ∧
      OnEllipsoid a b (rscale ((rnorm r - h) / rnorm r) r) := by
  refine ⟨_, altitude_fin hpa hpb ha.ne' hb.ne' hr, ?_, ?_⟩
  · have := surfaceDistance_pos ha hb.ne' hr
    linarith
  · have hd := surfaceDistance_pos ha hb.ne' hr
    have hn := rnorm_pos r hr
    have hl := level_eq ha hb.ne' hr
    unfold ellipsoidLevel at hl
    unfold OnEllipsoid rscale
    rw [sub_sub_cancel]
    have : ∀ k : ℝ, (k * r.x) ^ 2 / a ^ 2 + (k * r.y) ^ 2 / a ^ 2 + (k * r.z) ^ 2 / b ^ 2 =
        k ^ 2 * (r.x ^ 2 / a ^ 2 + r.y ^ 2 / a ^ 2 + r.z ^ 2 / b ^ 2) := by intro k; ring
    simp only [this, hl]
    field_simp

/-- C44 for the states of a run: the reported altitude has these properties. -/
theorem C44_visited {p : Phase XR} {s : State XR} (hs : Visited p s) {a b : ℝ}
    (hpa : p.planet.equatorialRadius = .fin a) (hpb : p.planet.polarRadius = .fin b) (ha : 0 < a)
    (hb : 0 < b) {r : V3 ℝ} (hsr : s.position = r.fin) (hr : r ≠ ⟨0, 0, 0⟩) :
    ∃ h : ℝ, s.altitude = .fin h ∧ (0 < h ↔ 1 < ellipsoidLevel a b r) ∧
      (h < 0 ↔ ellipsoidLevel a b r < 1) ∧ (h = 0 ↔ OnEllipsoid a b r) := by
  rw [(C57_visited_consistent hs).altitude, hsr]
  exact C44_altitude_sign hpa hpb ha hb hr

example : OnEllipsoid 2 1 ⟨0, 0, 1⟩ ∧ 1 < ellipsoidLevel 2 1 ⟨0, 2, 1⟩ ∧
    ellipsoidLevel 2 1 ⟨1, 0, 0⟩ < 1 := by
  unfold OnEllipsoid ellipsoidLevel; norm_num

/-! ## C45: geopotential altitude -/

/-- The geopotential altitude belonging to altitude `h` on a planet of mean radius `R`. -/
noncomputable def Spec.geopotential (R h : ℝ) : ℝ := R * h / (R + h)

/-- C45 (value).  With the mean radius `R = (a + b) / 2`, geopotential altitude is
`R h / (R + h)`. -/
theorem C45_value {p : Planet XR} {a b : ℝ} (hpa : p.equatorialRadius = .fin a)
    (hpb : p.polarRadius = .fin b) {r : V3 XR} {h : ℝ}
    (hh : p.altitude r = .fin h) (hR : (a + b) / 2 + h ≠ 0) :
    p.geopotentialAltitude r = .fin (geopotential ((a + b) / 2) h) := by
  unfold Planet.geopotentialAltitude
  have e : (0.5 : ℝ) * (a + b) = (a + b) / 2 := by norm_num; ring
  simp only [hpa, hpb, hh, XR.fin_add, XR.fin_sci, XR.fin_mul, e]
  rw [XR.fin_div _ _ hR]
  rfl

/-- C45 (laws).  Above the depth of one mean radius, geopotential altitude has the sign of the
altitude, never exceeds it, stays below the radius and strictly increases with the altitude. -/
theorem C45_laws {R : ℝ} (hR : 0 < R) {h : ℝ} (hh : -R < h) :
    (0 < geopotential R h ↔ 0 < h) ∧ (geopotential R h < 0 ↔ h < 0) ∧
    (geopotential R h = 0 ↔ h = 0) ∧
    geopotential R h ≤ h ∧ geopotential R h < R ∧
    ∀ h', h < h' → geopotential R h < geopotential R h' := by
  have hp : 0 < R + h := by linarith
  unfold geopotential
  refine ⟨?_, ?_, ?_, ?_, ?_, ?_⟩
  · rw [div_pos_iff_of_pos_right hp]; exact mul_pos_iff_of_pos_left hR
  · rw [div_lt_iff₀ hp, zero_mul]
    constructor
    · intro h1; by_contra h2; push Not at h2; nlinarith
    · intro h1; nlinarith
  · rw [div_eq_zero_iff, mul_eq_zero]
    constructor
    · rintro ((h | h) | h)
      · exact absurd h hR.ne'
      · exact h
      · exact absurd h hp.ne'
    · intro h; exact .inl (.inr h)
  · rw [div_le_iff₀ hp]; nlinarith [sq_nonneg h]
  · rw [div_lt_iff₀ hp]; nlinarith
  · intro h' hlt
    have hp' : 0 < R + h' := by linarith
    rw [div_lt_div_iff₀ hp hp']
    nlinarith [mul_pos hR (mul_pos hR (sub_pos.2 hlt))]

/-- C45 for the states of a run: the reported geopotential altitude belongs to the reported
altitude, so between any two reported states of a run the order of the geopotential altitudes is
the order of the altitudes. -/
theorem C45_visited {p : Phase XR} {s : State XR} (hs : Visited p s) {a b : ℝ}
    (hpa : p.planet.equatorialRadius = .fin a) (hpb : p.planet.polarRadius = .fin b)
    {h : ℝ} (hh : s.altitude = .fin h) (hR : (a + b) / 2 + h ≠ 0) :
    s.altitudeGeopotential = .fin (geopotential ((a + b) / 2) h) := by
  have hc := C57_visited_consistent hs
  rw [hc.altitudeGeopotential]
  exact C45_value hpa hpb (by rw [← hc.altitude, hh]) hR

example : geopotential 6000 6000 = 3000 := by unfold geopotential; norm_num

/-! ## C42: gravity is the gradient of the potential -/

/-- gravity of a planet with real parameters, in closed form -/
theorem gravity_fin (a b μ j2 j3 j4 ω : ℝ) {r : V3 ℝ} (hr : r ≠ ⟨0, 0, 0⟩) :
    ∃ P Q : ℝ, (realPlanet a b μ j2 j3 j4 ω).gravity r.fin =
      V3.fin ⟨-μ * r.x / rnorm r ^ 3 * P, -μ * r.y / rnorm r ^ 3 * P, -μ / rnorm r ^ 3 * Q⟩ ∧
      P = 1 + 3 / 2 * j2 * (a / rnorm r) ^ 2 * (1 - 5 * (r.z / rnorm r) ^ 2)
        + 5 / 2 * j3 * (a / rnorm r) ^ 3 / rnorm r * (3 - 7 * (r.z / rnorm r) ^ 2) * r.z
        + -35 / 8 * j4 * (a / rnorm r) ^ 4 *
          (9 * (r.z / rnorm r) ^ 4 - 6 * (r.z / rnorm r) ^ 2 + 3 / 7) ∧
      Q = (1 + 3 / 2 * j2 * (a / rnorm r) ^ 2 * (3 - 5 * (r.z / rnorm r) ^ 2)) * r.z
        + 5 / 2 * j3 * (a / rnorm r) ^ 3 / rnorm r *
          (6 * r.z ^ 2 - 7 * r.z ^ 2 * (r.z / rnorm r) ^ 2 - 3 / 5 * rnorm r ^ 2)
        + -35 / 8 * j4 * (a / rnorm r) ^ 4 *
          (15 / 7 - 10 * (r.z / rnorm r) ^ 2 + 9 * (r.z / rnorm r) ^ 4) * r.z := by
  refine ⟨_, _, ?_, rfl, rfl⟩
  have hn : rnorm r ≠ 0 := (rnorm_pos r hr).ne'
  have hn3 : rnorm r ^ 3 ≠ 0 := by positivity
  unfold Planet.gravity realPlanet Planet.mu
  simp only [V3.fin_norm]
  have hz : r.fin.z = .fin r.z := rfl
  have hy : r.fin.y = .fin r.y := rfl
  have hx : r.fin.x = .fin r.x := rfl
  simp only [hx, hy, hz, XR.fin_div _ _ hn, XR.fin_nat, XR.fin_one, XR.fin_powi, XR.fin_neg,
    XR.fin_mul, XR.fin_sub, XR.fin_add, XR.fin_div _ _ hn3,
    XR.fin_div _ _ (show (2 : ℝ) ≠ 0 by norm_num), XR.fin_div _ _ (show (8 : ℝ) ≠ 0 by norm_num),
    XR.fin_div _ _ (show (7 : ℝ) ≠ 0 by norm_num), XR.fin_div _ _ (show (5 : ℝ) ≠ 0 by norm_num)]
  rfl

theorem hasDerivAt_rnorm {x y z : ℝ → ℝ} {x' y' z' t : ℝ} (hx : HasDerivAt x x' t)
    (hy : HasDerivAt y y' t) (hz : HasDerivAt z z' t) (h0 : rnorm ⟨x t, y t, z t⟩ ≠ 0) :
    HasDerivAt (fun τ => rnorm ⟨x τ, y τ, z τ⟩)
      ((x t * x' + y t * y' + z t * z') / rnorm ⟨x t, y t, z t⟩) t := by
  have h1 : HasDerivAt (fun τ => x τ ^ 2 + y τ ^ 2 + z τ ^ 2) _ t :=
    HasDerivAt.fun_add (HasDerivAt.fun_add (hx.fun_pow 2) (hy.fun_pow 2)) (hz.fun_pow 2)
  have hne : x t ^ 2 + y t ^ 2 + z t ^ 2 ≠ 0 := by
    have := rnorm_sq ⟨x t, y t, z t⟩
    simp only at this
    rw [← this]; positivity
  have h2 := h1.sqrt hne
  unfold rnorm at *
  simp only at *
  convert h2 using 1
  field_simp
  push_cast
  ring

/-- derivative of the zonal potential as a polynomial of `u = 1 / r` and `z` -/
theorem hasDerivAt_zonal (a μ j2 j3 j4 : ℝ) {u z : ℝ → ℝ} {u' z' t : ℝ} (hu : HasDerivAt u u' t)
    (hz : HasDerivAt z z' t) :
    HasDerivAt (fun τ => μ * u τ * (1 - j2 * a ^ 2 / 2 * (3 * z τ ^ 2 * u τ ^ 4 - u τ ^ 2)
        - j3 * a ^ 3 / 2 * (5 * z τ ^ 3 * u τ ^ 6 - 3 * z τ * u τ ^ 4)
        - j4 * a ^ 4 / 8 * (35 * z τ ^ 4 * u τ ^ 8 - 30 * z τ ^ 2 * u τ ^ 6 + 3 * u τ ^ 4)))
      (μ * ((1 - j2 * a ^ 2 / 2 * (15 * z t ^ 2 * u t ^ 4 - 3 * u t ^ 2)
          - j3 * a ^ 3 / 2 * (35 * z t ^ 3 * u t ^ 6 - 15 * z t * u t ^ 4)
          - j4 * a ^ 4 / 8 * (315 * z t ^ 4 * u t ^ 8 - 210 * z t ^ 2 * u t ^ 6
            + 15 * u t ^ 4)) * u'
        + (- j2 * a ^ 2 / 2 * (6 * z t * u t ^ 5)
          - j3 * a ^ 3 / 2 * (15 * z t ^ 2 * u t ^ 7 - 3 * u t ^ 5)
          - j4 * a ^ 4 / 8 * (140 * z t ^ 3 * u t ^ 9 - 60 * z t * u t ^ 7)) * z')) t := by
  have hpow : ∀ (f : ℝ → ℝ) (f' : ℝ) (n : ℕ), HasDerivAt f f' t →
      HasDerivAt (fun τ => f τ ^ n) (n * f t ^ (n - 1) * f') t := fun f f' n h => h.fun_pow n
  have hmul : ∀ (f g : ℝ → ℝ) (f' g' : ℝ), HasDerivAt f f' t → HasDerivAt g g' t →
      HasDerivAt (fun τ => f τ * g τ) (f' * g t + f t * g') t := fun f g f' g' h h' => h.fun_mul h'
  have hsub : ∀ (f g : ℝ → ℝ) (f' g' : ℝ), HasDerivAt f f' t → HasDerivAt g g' t →
      HasDerivAt (fun τ => f τ - g τ) (f' - g') t := fun f g f' g' h h' => HasDerivAt.fun_sub h h'
  have hadd : ∀ (f g : ℝ → ℝ) (f' g' : ℝ), HasDerivAt f f' t → HasDerivAt g g' t →
      HasDerivAt (fun τ => f τ + g τ) (f' + g') t := fun f g f' g' h h' => HasDerivAt.fun_add h h'
  have hc : ∀ c : ℝ, HasDerivAt (fun _ => c) 0 t := fun c => hasDerivAt_const t c
  refine (hmul _ _ _ _ (hmul _ _ _ _ (hc μ) hu) (hsub _ _ _ _ (hsub _ _ _ _ (hsub _ _ _ _ (hc 1)
    (hmul _ _ _ _ (hc (j2 * a ^ 2 / 2)) (hsub _ _ _ _ (hmul _ _ _ _ (hmul _ _ _ _ (hc 3)
      (hpow z z' 2 hz)) (hpow u u' 4 hu)) (hpow u u' 2 hu))))
    (hmul _ _ _ _ (hc (j3 * a ^ 3 / 2)) (hsub _ _ _ _ (hmul _ _ _ _ (hmul _ _ _ _ (hc 5)
      (hpow z z' 3 hz)) (hpow u u' 6 hu)) (hmul _ _ _ _ (hmul _ _ _ _ (hc 3) hz)
      (hpow u u' 4 hu)))))
    (hmul _ _ _ _ (hc (j4 * a ^ 4 / 8)) (hadd _ _ _ _ (hsub _ _ _ _ (hmul _ _ _ _
      (hmul _ _ _ _ (hc 35) (hpow z z' 4 hz)) (hpow u u' 8 hu)) (hmul _ _ _ _
      (hmul _ _ _ _ (hc 30) (hpow z z' 2 hz)) (hpow u u' 6 hu))) (hmul _ _ _ _ (hc 3)
      (hpow u u' 4 hu)))))).congr_deriv ?_
  push_cast
  ring

/-- C42.  Along every differentiable path the rate of change of the zonal potential is the dot
product of the computed gravity vector with the velocity: gravity is the exact gradient of the
potential, at every point but the centre, for every planet. -/
theorem C42_gravity_is_gradient (a b μ j2 j3 j4 ω : ℝ) {x y z : ℝ → ℝ} {x' y' z' t : ℝ}
    (hx : HasDerivAt x x' t) (hy : HasDerivAt y y' t) (hz : HasDerivAt z z' t)
    (h0 : (⟨x t, y t, z t⟩ : V3 ℝ) ≠ ⟨0, 0, 0⟩) :
    ∃ g : V3 ℝ, (realPlanet a b μ j2 j3 j4 ω).gravity (V3.fin ⟨x t, y t, z t⟩) = g.fin ∧
      HasDerivAt (fun τ => potential a μ j2 j3 j4 ⟨x τ, y τ, z τ⟩)
        (rdot g ⟨x', y', z'⟩) t := by
  obtain ⟨P, Q, hg, hP, hQ⟩ := gravity_fin a b μ j2 j3 j4 ω h0
  refine ⟨_, hg, ?_⟩
  have hn := rnorm_pos _ h0
  have hr := hasDerivAt_rnorm hx hy hz hn.ne'
  simp only at hP hQ
  subst hP hQ
  unfold potential legendre2 legendre3 legendre4
  simp only [rdot]
  have hnr := hn.ne'
  generalize hρ : (fun τ => rnorm ⟨x τ, y τ, z τ⟩) = ρ at hr
  have hρ' : ∀ τ, rnorm ⟨x τ, y τ, z τ⟩ = ρ τ := fun τ => by rw [← hρ]
  simp only [hρ'] at hnr hr ⊢
  have hq : HasDerivAt (fun τ => (ρ τ)⁻¹)
      (-((x t * x' + y t * y' + z t * z') / ρ t) / ρ t ^ 2) t := hr.inv hnr
  have key := hasDerivAt_zonal a μ j2 j3 j4 hq hz
  have e : (fun τ => μ / ρ τ *
        (1 - j2 * (a / ρ τ) ^ 2 * ((3 * (z τ / ρ τ) ^ 2 - 1) / 2) -
            j3 * (a / ρ τ) ^ 3 * ((5 * (z τ / ρ τ) ^ 3 - 3 * (z τ / ρ τ)) / 2) -
          j4 * (a / ρ τ) ^ 4 * ((35 * (z τ / ρ τ) ^ 4 - 30 * (z τ / ρ τ) ^ 2 + 3) / 8))) =
      fun τ => μ * (ρ τ)⁻¹ * (1 - j2 * a ^ 2 / 2 * (3 * z τ ^ 2 * (ρ τ)⁻¹ ^ 4 - (ρ τ)⁻¹ ^ 2)
        - j3 * a ^ 3 / 2 * (5 * z τ ^ 3 * (ρ τ)⁻¹ ^ 6 - 3 * z τ * (ρ τ)⁻¹ ^ 4)
        - j4 * a ^ 4 / 8 * (35 * z τ ^ 4 * (ρ τ)⁻¹ ^ 8 - 30 * z τ ^ 2 * (ρ τ)⁻¹ ^ 6
          + 3 * (ρ τ)⁻¹ ^ 4)) := by
    funext τ
    simp only [div_eq_mul_inv]
    ring
  rw [e]
  refine key.congr_deriv ?_
  field_simp
  ring

/-- A path to which the theorem applies: a circular orbit, at every time. -/
example (R w t : ℝ) (h : R ≠ 0) : HasDerivAt (fun t => R * Real.cos (w * t))
    (R * (-Real.sin (w * t) * (w * 1))) t ∧
    (⟨R * Real.cos (w * t), R * Real.sin (w * t), 0⟩ : V3 ℝ) ≠ ⟨0, 0, 0⟩ := by
  constructor
  · exact (HasDerivAt.cos ((hasDerivAt_id t).const_mul w)).const_mul R
  · intro h'
    simp only [V3.mk.injEq, mul_eq_zero, h, false_or] at h'
    have := Real.sin_sq_add_cos_sq (w * t)
    rw [h'.1, h'.2.1] at this
    norm_num at this

/-! ## C43: symmetries of gravity -/

/-- C43 (central field).  Without harmonics gravity points to the centre and has magnitude
`μ / r²`. -/
theorem C43_central (a b μ ω : ℝ) {r : V3 ℝ} (hr : r ≠ ⟨0, 0, 0⟩) :
    ∃ g : V3 ℝ, (realPlanet a b μ 0 0 0 ω).gravity r.fin = g.fin ∧
      g = rscale (-(μ / rnorm r ^ 3)) r ∧ (0 ≤ μ → rnorm g = μ / rnorm r ^ 2) := by
  obtain ⟨P, Q, hg, hP, hQ⟩ := gravity_fin a b μ 0 0 0 ω hr
  have hn := rnorm_pos r hr
  have e : (⟨-μ * r.x / rnorm r ^ 3 * P, -μ * r.y / rnorm r ^ 3 * P, -μ / rnorm r ^ 3 * Q⟩ : V3 ℝ) =
      rscale (-(μ / rnorm r ^ 3)) r := by
    have hP1 : P = 1 := by rw [hP]; ring
    have hQ1 : Q = r.z := by rw [hQ]; ring
    rw [hP1, hQ1]
    unfold rscale
    ext <;> simp only <;> ring
  refine ⟨_, hg, e, fun hμ => ?_⟩
  rw [e, rnorm_rscale, abs_neg, abs_of_nonneg (by positivity)]
  field_simp

/-- C43 (rotational symmetry).  With any harmonics, turning the position about the polar axis
turns the gravity vector with it. -/
theorem C43_rotation (a b μ j2 j3 j4 ω θ : ℝ) {r : V3 ℝ} (hr : r ≠ ⟨0, 0, 0⟩) :
    ∃ g : V3 ℝ, (realPlanet a b μ j2 j3 j4 ω).gravity r.fin = g.fin ∧
      (realPlanet a b μ j2 j3 j4 ω).gravity (rmulVec (turnZ θ) r).fin =
        (rmulVec (turnZ θ) g).fin := by
  have hn := (turnZ_isRotation θ).norm r
  have hr' : rmulVec (turnZ θ) r ≠ ⟨0, 0, 0⟩ := by
    intro h
    rw [(rnorm_eq_zero _).2 h] at hn
    exact hr ((rnorm_eq_zero r).1 hn.symm)
  obtain ⟨P, Q, hg, hP, hQ⟩ := gravity_fin a b μ j2 j3 j4 ω hr
  obtain ⟨P', Q', hg', hP', hQ'⟩ := gravity_fin a b μ j2 j3 j4 ω hr'
  have hz : (rmulVec (turnZ θ) r).z = r.z := by simp [rmulVec, turnZ, rdot]
  rw [hn, hz] at hP' hQ'
  rw [hn] at hg'
  rw [← hP] at hP'
  rw [← hQ] at hQ'
  subst hP' hQ'
  refine ⟨_, hg, ?_⟩
  rw [hg', V3.fin_inj]
  simp only [rmulVec, turnZ, rdot, V3.mk.injEq]
  refine ⟨?_, ?_, ?_⟩ <;> ring

/-- C43 (meridian plane).  Gravity has no component around the polar axis. -/
theorem C43_meridian (a b μ j2 j3 j4 ω : ℝ) {r : V3 ℝ} (hr : r ≠ ⟨0, 0, 0⟩) :
    ∃ g : V3 ℝ, (realPlanet a b μ j2 j3 j4 ω).gravity r.fin = g.fin ∧ (rcross r g).z = 0 := by
  obtain ⟨P, Q, hg, -, -⟩ := gravity_fin a b μ j2 j3 j4 ω hr
  refine ⟨_, hg, ?_⟩
  simp only [rcross]
  ring

/-- C43 (mirror symmetry).  Without the odd harmonic, mirroring the position at the equatorial
plane mirrors the gravity vector. -/
theorem C43_mirror (a b μ j2 j4 ω : ℝ) {r : V3 ℝ} (hr : r ≠ ⟨0, 0, 0⟩) :
    ∃ g : V3 ℝ, (realPlanet a b μ j2 0 j4 ω).gravity r.fin = g.fin ∧
      (realPlanet a b μ j2 0 j4 ω).gravity (V3.fin ⟨r.x, r.y, -r.z⟩) =
        V3.fin ⟨g.x, g.y, -g.z⟩ := by
  have hn : rnorm ⟨r.x, r.y, -r.z⟩ = rnorm r := by
    unfold rnorm; simp only; congr 1; ring
  have hr' : (⟨r.x, r.y, -r.z⟩ : V3 ℝ) ≠ ⟨0, 0, 0⟩ := by
    intro h
    rw [(rnorm_eq_zero _).2 h] at hn
    exact hr ((rnorm_eq_zero r).1 hn.symm)
  obtain ⟨P, Q, hg, hP, hQ⟩ := gravity_fin a b μ j2 0 j4 ω hr
  obtain ⟨P', Q', hg', hP', hQ'⟩ := gravity_fin a b μ j2 0 j4 ω hr'
  rw [hn] at hP' hQ' hg'
  have e1 : P' = P := by rw [hP, hP']; ring
  have e2 : Q' = -Q := by rw [hQ, hQ']; ring
  refine ⟨_, hg, ?_⟩
  rw [hg', V3.fin_inj, e1, e2]
  simp only [V3.mk.injEq, true_and]
  ring

/-- With the odd harmonic the mirror symmetry fails: the hypothesis is needed. -/
example : ¬ ∃ g : V3 ℝ, (realPlanet 1 1 1 0 1 0 0).gravity (V3.fin ⟨0, 0, 1⟩) = g.fin ∧
      (realPlanet 1 1 1 0 1 0 0).gravity (V3.fin ⟨0, 0, -1⟩) = V3.fin ⟨g.x, g.y, -g.z⟩ := by
  rintro ⟨g, h1, h2⟩
  obtain ⟨P, Q, hg, -, hQ⟩ := gravity_fin 1 1 1 0 1 0 0 (r := ⟨0, 0, 1⟩) (by simp)
  obtain ⟨P', Q', hg', -, hQ'⟩ := gravity_fin 1 1 1 0 1 0 0 (r := ⟨0, 0, -1⟩) (by simp)
  have hn : rnorm ⟨0, 0, 1⟩ = 1 := by simp [rnorm]
  have hn' : rnorm ⟨0, 0, -1⟩ = 1 := by simp [rnorm]
  rw [h1, V3.fin_inj] at hg
  rw [h2, V3.fin_inj] at hg'
  have e1 := congrArg V3.z hg
  have e2 := congrArg V3.z hg'
  simp only [hn, hn'] at e1 e2 hQ hQ'
  rw [hQ] at e1
  rw [hQ'] at e2
  norm_num at e1 e2
  linarith

/-! ## C55: planet presets -/

/-- C55 (custom).  A custom planet is used exactly as configured. -/
theorem C55_custom {F : Type} [Flt F] (a b w : F) (g : Grav F) :
    Planet.ofConfig (.custom a b g w) = ⟨a, b, g, w⟩ := rfl

/-- C55 (presets).  The values of the presets in SI units; in particular the spherical one has
equal radii and no harmonics, the Fisher ellipsoid only the second one, and all are oblate, with
positive gravitational parameter and eastward rotation. -/
theorem C55_presets : ∃ a b μ μ' j2 j2' j3 j4 ω : ℝ,
    Planet.ofConfig .spherical = realPlanet a a μ 0 0 0 ω ∧
    Planet.ofConfig .fisher1960 = realPlanet a b μ j2 0 0 ω ∧
    Planet.ofConfig .smithsonian = realPlanet a b μ' j2' j3 j4 ω ∧
    0 < b ∧ b < a ∧ 0 < μ ∧ 0 < μ' ∧ 0 < ω ∧ 0 < j2 ∧ 0 < j2' ∧ j3 < 0 ∧ j4 < 0 ∧
    |a - 6378166| < 1 ∧ |b - 6356784| < 1 ∧ |μ - 3.98603e14| < 1e9 ∧ |μ' - 3.98600e14| < 1e9 ∧
    |ω * 86164 - 2 * Real.pi| < 1e-4 := by
  refine ⟨20925741 * 0.3048, 20855590 * 0.3048, 1.4076539e16 * (0.3048 * 0.3048 * 0.3048),
    1.407645794e16 * (0.3048 * 0.3048 * 0.3048), 1.0823e-3, 1.082639e-3, -2.565e-6, -1.608e-6,
    7.29211e-5, ?_, ?_, ?_, ?_⟩
  · unfold Planet.ofConfig EARTH_SPHERICAL realPlanet METER_PER_FOOT CUBIC_METER_PER_CUBIC_FOOT METER_PER_FOOT
    simp only [XR.fin_sci, XR.fin_zero, XR.fin_mul]
    norm_num
  · unfold Planet.ofConfig EARTH_FISHER_1960 realPlanet METER_PER_FOOT CUBIC_METER_PER_CUBIC_FOOT METER_PER_FOOT
    simp only [XR.fin_sci, XR.fin_zero, XR.fin_mul]
    norm_num
  · unfold Planet.ofConfig EARTH_SMITHSONIAN realPlanet METER_PER_FOOT CUBIC_METER_PER_CUBIC_FOOT METER_PER_FOOT
    simp only [XR.fin_sci, XR.fin_mul, XR.fin_neg]
    norm_num
  · have h1 := Real.pi_gt_d6
    have h2 := Real.pi_lt_d6
    refine ⟨?_, ?_, ?_, ?_, ?_, ?_, ?_, ?_, ?_, ?_, ?_, ?_, ?_, ?_⟩ <;>
      first
        | (norm_num; done)
        | (rw [abs_lt]; constructor <;> norm_num <;> linarith)

end Post
