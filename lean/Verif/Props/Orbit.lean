import Verif.Spec.Orbit
import Verif.Lemmas.Orbit
import Verif.Props.Ascent
import Verif.Props.Planet
import Verif.Props.Steering
/-! # C66: coasting in vacuum follows the laws of orbits.  Exact arithmetic. -/

namespace Post
open Spec Flt Filter Topology

/-! ## The computed acceleration is gravity whenever it is a number -/

theorem ZeroOrNan.mul' {x : XR} (h : ZeroOrNan x) (y : XR) : ZeroOrNan (y * x) := by
  rcases h with rfl | rfl
  · cases y with
    | fin r => left; rw [XR.fin_mul, mul_zero]
    | nan => right; rfl
    | pinf => right; show XR.mul _ _ = _; simp [XR.mul, XR.infMul]
    | ninf => right; show XR.mul _ _ = _; simp [XR.mul, XR.infMul]
  · right; exact XR.mul_nan y

theorem ZeroOrNan.add {x y : XR} (hx : ZeroOrNan x) (hy : ZeroOrNan y) : ZeroOrNan (x + y) := by
  rcases hx with rfl | rfl
  · rcases hy with rfl | rfl
    · left; rw [XR.fin_add, add_zero]
    · right; exact XR.add_nan _
  · right; exact XR.nan_add _

theorem ZeroOrNan.div {x : XR} (hx : ZeroOrNan x) (y : XR) : ZeroOrNan (x / y) := by
  rcases hx with rfl | rfl
  · cases y with
    | fin r =>
      by_cases h : r = 0
      · right; subst h; rw [XR.fin_div_zero]; simp [XR.infMul]
      · left; rw [XR.fin_div _ _ h, zero_div]
    | nan => right; rfl
    | pinf => left; rfl
    | ninf => left; rfl
  · right; exact XR.nan_div _

theorem ZeroOrNan.add_fin {x y : XR} (hx : ZeroOrNan x) {b : ℝ} (h : x + y = .fin b) :
    y = .fin b := by
  rcases hx with rfl | rfl
  · obtain ⟨a, k, h1, rfl, rfl⟩ := add_fin_inv h
    rw [XR.fin_inj] at h1
    subst h1
    rw [zero_add]
  · rw [XR.nan_add] at h; cases h

/-- Without engines and atmosphere, an acceleration that is a real vector is gravity and the mass
does not change. -/
theorem coasting_acceleration {p : Phase XR} (hE : p.vehicle.engines = [])
    (hvac : p.atmosphere.model = .noAtmosphere) {s d : State XR} (h : p.system s = .ok d)
    {acc : V3 ℝ} (ha : d.acceleration = acc.fin) :
    p.planet.gravity s.position = acc.fin ∧ d.massflow = .fin 0 := by
  have hc := system_consistent h
  obtain ⟨k, hk, _, _⟩ := system_throttle h
  have hthrust : d.thrustForceBody = V3.fin ⟨0, 0, 0⟩ := by
    rw [hc.thrustForceBody, hk]; exact (C34_no_engines hE k _).1
  have haero : d.aeroForceBody = V3.fin ⟨0, 0, 0⟩ := by
    obtain ⟨aero, haero, _, rfl⟩ := Phase.system_ok h
    exact aeroForce_of_zero_q (systemPre_vacuum hvac s).2.2.2 haero
  have hz : ZeroOrNan (.fin 0) := .inl rfl
  have hbody : ZeroOrNan d.vehicleAccelerationBody.x ∧ ZeroOrNan d.vehicleAccelerationBody.y ∧
      ZeroOrNan d.vehicleAccelerationBody.z := by
    rw [hc.vehicleAccelerationBody, haero, hthrust]
    exact ⟨(hz.add hz).div _, (hz.add hz).div _, (hz.add hz).div _⟩
  have hdot : ∀ v : V3 XR, ZeroOrNan (V3.dot v d.vehicleAccelerationBody) := by
    intro v
    exact ((hbody.1.mul' _).add (hbody.2.1.mul' _)).add (hbody.2.2.mul' _)
  rw [hc.acceleration] at ha
  have hx := congrArg V3.x ha
  have hy := congrArg V3.y ha
  have hz' := congrArg V3.z ha
  have ex := (hdot _).add_fin hx
  have ey := (hdot _).add_fin hy
  have ez := (hdot _).add_fin hz'
  constructor
  · rw [← (Phase.system_primary h).2.2.1, ← hc.gravityAcceleration]
    exact V3.ext ex ey ez
  · rw [hc.massflow, hk]; exact (C34_no_engines hE k (.fin 0)).2

/-- At the centre of the planet gravity is not a number. -/
theorem gravity_centre (a b μ j2 j3 j4 ω : ℝ) {g : V3 ℝ} :
    (realPlanet a b μ j2 j3 j4 ω).gravity (V3.fin ⟨0, 0, 0⟩) ≠ g.fin := by
  intro h
  have hx := congrArg V3.x h
  have e : ((realPlanet a b μ j2 j3 j4 ω).gravity (V3.fin ⟨0, 0, 0⟩)).x = .nan := by
    have hn : V3.norm (V3.fin ⟨0, 0, 0⟩) = .fin 0 := by rw [V3.fin_norm]; simp [rnorm]
    unfold Planet.gravity realPlanet Planet.mu
    simp only [hn]
    rw [show (V3.fin ⟨0, 0, 0⟩).x = .fin 0 from rfl, XR.fin_neg, XR.fin_mul, XR.fin_powi, mul_zero,
      zero_pow (by norm_num), XR.fin_div_zero]
    simp [XR.infMul, XR.nan_mul]
  rw [e] at hx
  cases hx

/-! ## Conservation along exact trajectories -/

theorem Spec.HasVelocity.dot {r s : ℝ → V3 ℝ} {r' s' : V3 ℝ} {t : ℝ} (hr : HasVelocity r r' t)
    (hs : HasVelocity s s' t) :
    HasDerivAt (fun τ => rdot (r τ) (s τ)) (rdot r' (s t) + rdot (r t) s') t := by
  unfold rdot
  refine (((hr.1.fun_mul hs.1).fun_add (hr.2.1.fun_mul hs.2.1)).fun_add
    (hr.2.2.fun_mul hs.2.2)).congr_deriv ?_
  ring

theorem Spec.HasVelocity.cross {r s : ℝ → V3 ℝ} {r' s' : V3 ℝ} {t : ℝ} (hr : HasVelocity r r' t)
    (hs : HasVelocity s s' t) :
    HasVelocity (fun τ => rcross (r τ) (s τ)) (radd (rcross r' (s t)) (rcross (r t) s')) t := by
  unfold rcross radd
  refine ⟨?_, ?_, ?_⟩
  · refine ((hr.2.1.fun_mul hs.2.2).fun_sub (hr.2.2.fun_mul hs.2.1)).congr_deriv ?_
    ring
  · refine ((hr.2.2.fun_mul hs.1).fun_sub (hr.1.fun_mul hs.2.2)).congr_deriv ?_
    ring
  · refine ((hr.1.fun_mul hs.2.1).fun_sub (hr.2.1.fun_mul hs.1)).congr_deriv ?_
    ring

section
variable {a b μ j2 j3 j4 ω : ℝ} {r v : ℝ → V3 ℝ} {acc : V3 ℝ} {t : ℝ}

theorem energy_rate (hr : HasVelocity r (v t) t) (hv : HasVelocity v acc t)
    (hg : (realPlanet a b μ j2 j3 j4 ω).gravity (r t).fin = acc.fin) :
    HasDerivAt (fun τ => energy a μ j2 j3 j4 (r τ) (v τ)) 0 t := by
  have h0 : r t ≠ ⟨0, 0, 0⟩ := by
    intro h
    rw [h] at hg
    exact gravity_centre _ _ _ _ _ _ _ hg
  obtain ⟨g, hg', hpot⟩ := C42_gravity_is_gradient a b μ j2 j3 j4 ω hr.1 hr.2.1 hr.2.2 h0
  have hga : g = acc := by
    have := hg'.symm.trans hg
    exact V3.fin_inj.1 this
  subst hga
  have := ((hv.dot hv).div_const 2).fun_sub hpot
  unfold energy
  refine this.congr_deriv ?_
  unfold rdot
  ring

theorem axial_rate (hr : HasVelocity r (v t) t) (hv : HasVelocity v acc t)
    (hg : (realPlanet a b μ j2 j3 j4 ω).gravity (r t).fin = acc.fin) :
    HasDerivAt (fun τ => (angularMomentum (r τ) (v τ)).z) 0 t := by
  have h0 : r t ≠ ⟨0, 0, 0⟩ := by
    intro h
    rw [h] at hg
    exact gravity_centre _ _ _ _ _ _ _ hg
  obtain ⟨P, Q, hg', _⟩ := gravity_fin a b μ j2 j3 j4 ω h0
  have hga := V3.fin_inj.1 (hg'.symm.trans hg)
  subst hga
  refine (hr.cross hv).2.2.congr_deriv ?_
  simp only [radd, rcross]
  ring

theorem momentum_rate (hr : HasVelocity r (v t) t) (hv : HasVelocity v acc t)
    (hg : (realPlanet a b μ 0 0 0 ω).gravity (r t).fin = acc.fin) :
    HasVelocity (fun τ => angularMomentum (r τ) (v τ)) ⟨0, 0, 0⟩ t := by
  have h0 : r t ≠ ⟨0, 0, 0⟩ := by
    intro h
    rw [h] at hg
    exact gravity_centre _ _ _ _ _ _ _ hg
  obtain ⟨g, hg', hg2, _⟩ := C43_central a b μ ω h0
  have hga := V3.fin_inj.1 (hg'.symm.trans hg)
  subst hga
  subst hg2
  obtain ⟨h1, h2, h3⟩ := hr.cross hv
  refine ⟨h1.congr_deriv ?_, h2.congr_deriv ?_, h3.congr_deriv ?_⟩ <;>
  · simp only [radd, rcross, rscale]
    ring

theorem lenz_rate (hr : HasVelocity r (v t) t) (hv : HasVelocity v acc t)
    (hg : (realPlanet a b μ 0 0 0 ω).gravity (r t).fin = acc.fin) :
    HasVelocity (fun τ => lenzVector μ (r τ) (v τ)) ⟨0, 0, 0⟩ t := by
  have h0 : r t ≠ ⟨0, 0, 0⟩ := by
    intro h
    rw [h] at hg
    exact gravity_centre _ _ _ _ _ _ _ hg
  have hL := momentum_rate hr hv hg
  obtain ⟨g, hg', hg2, _⟩ := C43_central a b μ ω h0
  have hga := V3.fin_inj.1 (hg'.symm.trans hg)
  subst hga
  subst hg2
  have hn := (rnorm_pos _ h0).ne'
  have hsq := rnorm_sq (r t)
  have hρ := hasDerivAt_rnorm hr.1 hr.2.1 hr.2.2 hn
  have hi : HasDerivAt (fun τ => μ / rnorm (r τ)) _ t := (hasDerivAt_const t μ).fun_div hρ hn
  obtain ⟨h1, h2, h3⟩ := hv.cross hL
  refine ⟨(h1.fun_sub (hi.fun_mul hr.1)).congr_deriv ?_,
    (h2.fun_sub (hi.fun_mul hr.2.1)).congr_deriv ?_,
    (h3.fun_sub (hi.fun_mul hr.2.2)).congr_deriv ?_⟩ <;>
  · simp only [radd, rcross, rscale, angularMomentum]
    field_simp
    simp only [hsq]
    ring
end


/-- A curve with derivative zero between two times has the same value at both. -/
theorem constant_between {f : ℝ → ℝ} {t1 t2 : ℝ} (hle : t1 ≤ t2)
    (h : ∀ t ∈ Set.Icc t1 t2, HasDerivAt f 0 t) : f t2 = f t1 :=
  constant_of_has_deriv_right_zero (fun t ht => (h t ht).continuousAt.continuousWithinAt)
    (fun t ht => (h t ⟨ht.1, ht.2.le⟩).hasDerivWithinAt) t2 ⟨hle, le_refl _⟩

/-- C66 (orbits).  Between any two times at which the vehicle moves by the equations of motion of a
phase without engines and atmosphere, its energy and the component of its angular momentum along
the axis of the planet stay the same, and so does its mass, whatever the planet, the steering and
the vehicle. -/
theorem C66_orbit {p : Phase XR} (hE : p.vehicle.engines = [])
    (hvac : p.atmosphere.model = .noAtmosphere) {a b μ j2 j3 j4 ω : ℝ}
    (hp : p.planet = realPlanet a b μ j2 j3 j4 ω) {t0 t1 t2 : ℝ} (hle : t1 ≤ t2)
    {r v : ℝ → V3 ℝ} {m : ℝ → ℝ} (h : ∀ t ∈ Set.Icc t1 t2, SolvesMotion p t0 r v m t) :
    energy a μ j2 j3 j4 (r t2) (v t2) = energy a μ j2 j3 j4 (r t1) (v t1) ∧
    (angularMomentum (r t2) (v t2)).z = (angularMomentum (r t1) (v t1)).z ∧ m t2 = m t1 := by
  have key : ∀ t ∈ Set.Icc t1 t2, ∃ acc : V3 ℝ, HasVelocity r (v t) t ∧ HasVelocity v acc t ∧
      (realPlanet a b μ j2 j3 j4 ω).gravity (r t).fin = acc.fin ∧ HasDerivAt m 0 t := by
    intro t ht
    obtain ⟨s, d, acc, flow, _, _, h3, _, _, h6, h7, h8, h9, h10, h11⟩ := h t ht
    obtain ⟨hg, hf⟩ := coasting_acceleration hE hvac h6 h7
    rw [hp, h3] at hg
    rw [h8, XR.fin_inj] at hf
    subst hf
    exact ⟨acc, h9, h10, hg, h11⟩
  refine ⟨?_, ?_, ?_⟩
  · refine constant_between (f := fun t => energy a μ j2 j3 j4 (r t) (v t)) hle fun t ht => ?_
    obtain ⟨acc, h1, h2, h3, _⟩ := key t ht
    exact energy_rate h1 h2 h3
  · refine constant_between (f := fun t => (angularMomentum (r t) (v t)).z) hle fun t ht => ?_
    obtain ⟨acc, h1, h2, h3, _⟩ := key t ht
    exact axial_rate h1 h2 h3
  · refine constant_between hle fun t ht => ?_
    obtain ⟨acc, _, _, _, h4⟩ := key t ht
    exact h4

/-- C66 (Kepler).  If moreover the planet has no harmonics, the whole angular momentum (so the
orbital plane) and the Laplace-Runge-Lenz vector (so the orientation and the eccentricity of the
orbit) stay the same. -/
theorem C66_kepler {p : Phase XR} (hE : p.vehicle.engines = [])
    (hvac : p.atmosphere.model = .noAtmosphere) {a b μ ω : ℝ}
    (hp : p.planet = realPlanet a b μ 0 0 0 ω) {t0 t1 t2 : ℝ} (hle : t1 ≤ t2)
    {r v : ℝ → V3 ℝ} {m : ℝ → ℝ} (h : ∀ t ∈ Set.Icc t1 t2, SolvesMotion p t0 r v m t) :
    angularMomentum (r t2) (v t2) = angularMomentum (r t1) (v t1) ∧
    lenzVector μ (r t2) (v t2) = lenzVector μ (r t1) (v t1) := by
  have key : ∀ t ∈ Set.Icc t1 t2, ∃ acc : V3 ℝ, HasVelocity r (v t) t ∧ HasVelocity v acc t ∧
      (realPlanet a b μ 0 0 0 ω).gravity (r t).fin = acc.fin := by
    intro t ht
    obtain ⟨s, d, acc, flow, _, _, h3, _, _, h6, h7, _, h9, h10, _⟩ := h t ht
    obtain ⟨hg, _⟩ := coasting_acceleration hE hvac h6 h7
    rw [hp, h3] at hg
    exact ⟨acc, h9, h10, hg⟩
  have hL : ∀ t ∈ Set.Icc t1 t2, HasVelocity (fun τ => angularMomentum (r τ) (v τ)) ⟨0, 0, 0⟩ t := by
    intro t ht
    obtain ⟨acc, h1, h2, h3⟩ := key t ht
    exact momentum_rate h1 h2 h3
  have hA : ∀ t ∈ Set.Icc t1 t2, HasVelocity (fun τ => lenzVector μ (r τ) (v τ)) ⟨0, 0, 0⟩ t := by
    intro t ht
    obtain ⟨acc, h1, h2, h3⟩ := key t ht
    exact lenz_rate h1 h2 h3
  constructor
  · exact V3.ext (constant_between hle fun t ht => (hL t ht).1)
      (constant_between hle fun t ht => (hL t ht).2.1)
      (constant_between hle fun t ht => (hL t ht).2.2)
  · exact V3.ext (constant_between hle fun t ht => (hA t ht).1)
      (constant_between hle fun t ht => (hA t ht).2.1)
      (constant_between hle fun t ht => (hA t ht).2.2)

/-! ## One integration step -/

noncomputable section

/-- the first three components of a state vector -/
def pos7 (y : Fin 7 → ℝ) : V3 ℝ := ⟨y 0, y 1, y 2⟩
/-- the next three components of a state vector -/
def vel7 (y : Fin 7 → ℝ) : V3 ℝ := ⟨y 3, y 4, y 5⟩

/-- The factor of the gravity vector in the equatorial plane, and along the axis. -/
def gravP (a j2 j3 j4 : ℝ) (r : V3 ℝ) : ℝ :=
  1 + 3 / 2 * j2 * (a / rnorm r) ^ 2 * (1 - 5 * (r.z / rnorm r) ^ 2)
    + 5 / 2 * j3 * (a / rnorm r) ^ 3 / rnorm r * (3 - 7 * (r.z / rnorm r) ^ 2) * r.z
    + -35 / 8 * j4 * (a / rnorm r) ^ 4 *
      (9 * (r.z / rnorm r) ^ 4 - 6 * (r.z / rnorm r) ^ 2 + 3 / 7)
def gravQ (a j2 j3 j4 : ℝ) (r : V3 ℝ) : ℝ :=
  (1 + 3 / 2 * j2 * (a / rnorm r) ^ 2 * (3 - 5 * (r.z / rnorm r) ^ 2)) * r.z
    + 5 / 2 * j3 * (a / rnorm r) ^ 3 / rnorm r *
      (6 * r.z ^ 2 - 7 * r.z ^ 2 * (r.z / rnorm r) ^ 2 - 3 / 5 * rnorm r ^ 2)
    + -35 / 8 * j4 * (a / rnorm r) ^ 4 *
      (15 / 7 - 10 * (r.z / rnorm r) ^ 2 + 9 * (r.z / rnorm r) ^ 4) * r.z
/-- gravity as a real vector -/
def grav (a μ j2 j3 j4 : ℝ) (r : V3 ℝ) : V3 ℝ :=
  ⟨-μ * r.x / rnorm r ^ 3 * gravP a j2 j3 j4 r, -μ * r.y / rnorm r ^ 3 * gravP a j2 j3 j4 r,
    -μ / rnorm r ^ 3 * gravQ a j2 j3 j4 r⟩

theorem gravity_grav (a b μ j2 j3 j4 ω : ℝ) {r : V3 ℝ} (hr : r ≠ ⟨0, 0, 0⟩) :
    (realPlanet a b μ j2 j3 j4 ω).gravity r.fin = (grav a μ j2 j3 j4 r).fin := by
  obtain ⟨P, Q, h, rfl, rfl⟩ := gravity_fin a b μ j2 j3 j4 ω hr
  exact h

/-- free fall as a differential equation of state vectors -/
def fall (a μ j2 j3 j4 : ℝ) (y : Fin 7 → ℝ) : Fin 7 → ℝ :=
  let g := grav a μ j2 j3 j4 (pos7 y)
  vec7 (y 3) (y 4) (y 5) g.x g.y g.z 0

theorem analyticAt_comp7 (i : Fin 7) (y : Fin 7 → ℝ) : AnalyticAt ℝ (fun z : Fin 7 → ℝ => z i) y :=
  (ContinuousLinearMap.proj (R := ℝ) (φ := fun _ : Fin 7 => ℝ) i).analyticAt y

theorem analyticAt_rnorm7 {y : Fin 7 → ℝ} (hy : pos7 y ≠ ⟨0, 0, 0⟩) :
    AnalyticAt ℝ (fun z => rnorm (pos7 z)) y := by
  have h0 : (y 0) ^ 2 + (y 1) ^ 2 + (y 2) ^ 2 ≠ 0 := by
    have := rnorm_sq (pos7 y)
    have h1 := rnorm_pos _ hy
    simp only [pos7] at this h1
    rw [← this]; positivity
  have h1 : AnalyticAt ℝ (fun z : Fin 7 → ℝ => z 0 ^ 2 + z 1 ^ 2 + z 2 ^ 2) y :=
    (((analyticAt_comp7 0 y).pow 2).add ((analyticAt_comp7 1 y).pow 2)).add
      ((analyticAt_comp7 2 y).pow 2)
  have h2 : AnalyticAt ℝ (Real.sqrt) (y 0 ^ 2 + y 1 ^ 2 + y 2 ^ 2) :=
    (Real.contDiffAt_sqrt h0).analyticAt
  exact h2.comp_of_eq h1 rfl

theorem analyticAt_fall (a μ j2 j3 j4 : ℝ) {y : Fin 7 → ℝ} (hy : pos7 y ≠ ⟨0, 0, 0⟩) :
    AnalyticAt ℝ (fall a μ j2 j3 j4) y := by
  have hn := analyticAt_rnorm7 hy
  have hne : rnorm (pos7 y) ≠ 0 := (rnorm_pos _ hy).ne'
  have hne3 : rnorm (pos7 y) ^ 3 ≠ 0 := pow_ne_zero _ hne
  have h0 := analyticAt_comp7 0 y
  have h1 := analyticAt_comp7 1 y
  have h2 := analyticAt_comp7 2 y
  have ex : AnalyticAt ℝ (fun z => (pos7 z).x) y := h0
  have ey : AnalyticAt ℝ (fun z => (pos7 z).y) y := h1
  have ez : AnalyticAt ℝ (fun z => (pos7 z).z) y := h2
  have kP : ∀ Z N : (Fin 7 → ℝ) → ℝ, AnalyticAt ℝ Z y → AnalyticAt ℝ N y → N y ≠ 0 →
      AnalyticAt ℝ (fun z => 1 + 3 / 2 * j2 * (a / N z) ^ 2 * (1 - 5 * (Z z / N z) ^ 2)
        + 5 / 2 * j3 * (a / N z) ^ 3 / N z * (3 - 7 * (Z z / N z) ^ 2) * Z z
        + -35 / 8 * j4 * (a / N z) ^ 4 *
          (9 * (Z z / N z) ^ 4 - 6 * (Z z / N z) ^ 2 + 3 / 7)) y := by
    intro Z N hZ hN h0
    fun_prop (disch := assumption)
  have kQ : ∀ Z N : (Fin 7 → ℝ) → ℝ, AnalyticAt ℝ Z y → AnalyticAt ℝ N y → N y ≠ 0 →
      AnalyticAt ℝ (fun z => (1 + 3 / 2 * j2 * (a / N z) ^ 2 * (3 - 5 * (Z z / N z) ^ 2)) * Z z
    + 5 / 2 * j3 * (a / N z) ^ 3 / N z *
      (6 * Z z ^ 2 - 7 * Z z ^ 2 * (Z z / N z) ^ 2 - 3 / 5 * N z ^ 2)
    + -35 / 8 * j4 * (a / N z) ^ 4 *
      (15 / 7 - 10 * (Z z / N z) ^ 2 + 9 * (Z z / N z) ^ 4) * Z z) y := by
    intro Z N hZ hN h0
    fun_prop (disch := assumption)
  have kF : ∀ X N P : (Fin 7 → ℝ) → ℝ, AnalyticAt ℝ X y → AnalyticAt ℝ N y → N y ^ 3 ≠ 0 →
      AnalyticAt ℝ P y → AnalyticAt ℝ (fun z => -μ * X z / N z ^ 3 * P z) y := by
    intro X N P hX hN h0 hP
    fun_prop (disch := assumption)
  have eP : AnalyticAt ℝ (fun z => gravP a j2 j3 j4 (pos7 z)) y := kP _ _ ez hn hne
  have eQ : AnalyticAt ℝ (fun z => gravQ a j2 j3 j4 (pos7 z)) y := kQ _ _ ez hn hne
  rw [analyticAt_pi_iff]
  intro i
  fin_cases i
  · exact analyticAt_comp7 3 y
  · exact analyticAt_comp7 4 y
  · exact analyticAt_comp7 5 y
  · show AnalyticAt ℝ (fun z => -μ * (pos7 z).x / rnorm (pos7 z) ^ 3 * gravP a j2 j3 j4 (pos7 z)) y
    exact kF _ _ _ ex hn hne3 eP
  · show AnalyticAt ℝ (fun z => -μ * (pos7 z).y / rnorm (pos7 z) ^ 3 * gravP a j2 j3 j4 (pos7 z)) y
    exact kF _ _ _ ey hn hne3 eP
  · show AnalyticAt ℝ (fun z => -μ / rnorm (pos7 z) ^ 3 * gravQ a j2 j3 j4 (pos7 z)) y
    fun_prop (disch := assumption)
  · exact analyticAt_const

theorem eventually_pos7 {y : Fin 7 → ℝ} (hy : pos7 y ≠ ⟨0, 0, 0⟩) :
    ∀ᶠ z in 𝓝 y, pos7 z ≠ ⟨0, 0, 0⟩ := by
  have h1 := (analyticAt_rnorm7 hy).continuousAt.eventually_ne (rnorm_pos _ hy).ne'
  filter_upwards [h1] with z hz h
  rw [h] at hz
  simp [rnorm] at hz

/-- Free fall: with real attitude and mass the computed acceleration is gravity. -/
theorem system_free_fall {p : Phase XR} (hE : p.vehicle.engines = [])
    (hvac : p.atmosphere.model = .noAtmosphere) {s d : State XR} (h : p.system s = .ok d) {m : ℝ}
    (hm : s.mass = .fin m) (hm0 : m ≠ 0) {lat long az roll yaw pitch : ℝ}
    (hl : p.launch = ⟨.fin lat, .fin long, .fin az⟩)
    (he : d.eulerAngles = ⟨.fin roll, .fin yaw, .fin pitch⟩) :
    d.acceleration = p.planet.gravity s.position ∧ d.massflow = .fin 0 := by
  have hc := system_consistent h
  obtain ⟨k, hk, _, _⟩ := system_throttle h
  have hthrust : d.thrustForceBody = V3.fin ⟨0, 0, 0⟩ := by
    rw [hc.thrustForceBody, hk]; exact (C34_no_engines hE k _).1
  have haero : d.aeroForceBody = V3.fin ⟨0, 0, 0⟩ := by
    obtain ⟨aero, haero, _, rfl⟩ := Phase.system_ok h
    exact aeroForce_of_zero_q (systemPre_vacuum hvac s).2.2.2 haero
  have hbody : d.vehicleAccelerationBody = V3.fin ⟨0, 0, 0⟩ := by
    rw [hc.vehicleAccelerationBody, haero, hthrust, V3.fin_add, (Phase.system_primary h).2.2.2.2, hm]
    unfold V3.divS V3.fin V3.map
    simp only [XR.fin_div _ _ hm0, add_zero, zero_div]
  obtain ⟨M, _, hM⟩ := C39_rotations.2.2.1 lat long az roll yaw pitch
  constructor
  · rw [hc.acceleration, hbody, hl, he, hM, show (M3.fin M).transpose = M3.fin M.transpose from rfl,
      mulVec_zero, zero_add_v3, hc.gravityAcceleration, (Phase.system_primary h).2.2.1]
  · rw [hc.massflow, hk]; exact (C34_no_engines hE k (.fin 0)).2

/-- A phase that falls freely: without engines, atmosphere and acceleration limit, with tables that
can be read, a planet and a launch site with real data and an attitude that is always real. -/
structure Spec.Coasting (p : Phase XR) (a b μ j2 j3 j4 ω : ℝ) : Prop where
  engines : p.vehicle.engines = []
  vacuum : p.atmosphere.model = .noAtmosphere
  unlimited : p.maxAcceleration = Flt.inf
  tables : p.vehicle.TablesOk
  planet : p.planet = realPlanet a b μ j2 j3 j4 ω
  launch : ∃ lat long az : ℝ, p.launch = ⟨.fin lat, .fin long, .fin az⟩
  attitude : RealAttitude p

theorem coasting_rhs {p : Phase XR} {a b μ j2 j3 j4 ω : ℝ} (hp : Coasting p a b μ j2 j3 j4 ω)
    {x : Fin 2 → ℝ} {y : Fin 7 → ℝ} (hy : pos7 y ≠ ⟨0, 0, 0⟩) (hm : y 6 ≠ 0) :
    convertedFunc p.system (vfin x) (vfin y) = .ok (vfin (fall a μ j2 j3 j4 y)) := by
  obtain ⟨lat, long, az, hl⟩ := hp.launch
  obtain ⟨d, hd⟩ := system_coasting_ok hp.unlimited hp.engines hp.tables
    (State.fromVec (vfin x) (vfin y))
  obtain ⟨roll, yaw, pitch, he⟩ := hp.attitude _ d (x 0) (x 1) (y 6) (pos7 y) (vel7 y) rfl rfl rfl rfl
    rfl hy hd
  obtain ⟨h1, h2⟩ := system_free_fall hp.engines hp.vacuum hd rfl hm hl he
  have hv := (Phase.system_primary hd).2.2.2.1
  rw [hp.planet, show (State.fromVec (vfin x) (vfin y)).position = (pos7 y).fin from rfl,
    gravity_grav _ _ _ _ _ _ _ hy] at h1
  unfold convertedFunc
  rw [hd]
  show Except.ok d.toDifferentialsVector = _
  congr 1
  funext i
  unfold State.toDifferentialsVector
  rw [hv, h1, h2]
  fin_cases i <;> rfl

theorem coasting_rhs_near {p : Phase XR} {a b μ j2 j3 j4 ω : ℝ} (hp : Coasting p a b μ j2 j3 j4 ω)
    {x : Fin 2 → ℝ} {y : Fin 7 → ℝ} (hy : pos7 y ≠ ⟨0, 0, 0⟩) (hm : y 6 ≠ 0) :
    ∀ᶠ z in 𝓝 (x, y), convertedFunc p.system (vfin z.1) (vfin z.2) =
      .ok (vfin (fall a μ j2 j3 j4 z.2)) := by
  have h1 : ∀ᶠ z in 𝓝 y, pos7 z ≠ ⟨0, 0, 0⟩ ∧ z 6 ≠ 0 :=
    (eventually_pos7 hy).and ((analyticAt_comp7 6 y).continuousAt.eventually_ne hm)
  have h2 : Tendsto (fun z : (Fin 2 → ℝ) × (Fin 7 → ℝ) => z.2) (𝓝 (x, y)) (𝓝 y) :=
    continuousAt_snd
  filter_upwards [h2.eventually h1] with z hz
  exact coasting_rhs hp hz.1 hz.2

/-- A quantity that depends on position and velocity and is constant on orbits changes by at most
`K |h|^5` in an integration step of size `h`. -/
theorem orbit_drift {p : Phase XR} {a b μ j2 j3 j4 ω : ℝ} (hp : Coasting p a b μ j2 j3 j4 ω)
    {E : V3 ℝ → V3 ℝ → ℝ} {r0 v0 : V3 ℝ} (hr0 : r0 ≠ ⟨0, 0, 0⟩)
    (hE : ∀ y, pos7 y = r0 → ContDiffAt ℝ 1 (fun y => E (pos7 y) (vel7 y)) y)
    (hcons : ∀ (r v : ℝ → V3 ℝ) (acc : V3 ℝ) (t : ℝ), HasVelocity r (v t) t → HasVelocity v acc t →
      (realPlanet a b μ j2 j3 j4 ω).gravity (r t).fin = acc.fin →
      HasDerivAt (fun τ => E (r τ) (v τ)) 0 t)
    {s : State XR} {t te m : ℝ} (ht : s.time = .fin t) (hte : s.timeSinceEvent = .fin te)
    (hr : s.position = r0.fin) (hv : s.velocity = v0.fin) (hm : s.mass = .fin m) (hm0 : m ≠ 0) :
    ∃ K δ, 0 < δ ∧ ∀ h : ℝ, |h| < δ → ∃ s' r' v', OneStep p (.fin h) s s' ∧
      s'.position = V3.fin r' ∧ s'.velocity = V3.fin v' ∧ |E r' v' - E r0 v0| ≤ K * |h| ^ 5 := by
  let x : Fin 2 → ℝ := vec2 t te
  let y : Fin 7 → ℝ := vec7 r0.x r0.y r0.z v0.x v0.y v0.z m
  have hx : vec2 s.time s.timeSinceEvent = vfin x := by
    funext i
    rw [ht, hte]
    fin_cases i <;> rfl
  have hy : s.toPrimaryVec = vfin y := by
    funext i
    unfold State.toPrimaryVec
    rw [hr, hv, hm]
    fin_cases i <;> rfl
  have hpos : pos7 y = r0 := rfl
  have hvel : vel7 y = v0 := rfl
  have hne : pos7 y ≠ ⟨0, 0, 0⟩ := hr0
  obtain ⟨K, δ, hδ, H⟩ := conserved_drift (x := x) (coasting_rhs_near hp hne hm0)
    (analyticAt_fall a μ j2 j3 j4 hne) (hE y hpos) (by
      filter_upwards [eventually_pos7 hne] with z hz Y τ hYz hY
      rw [hasDerivAt_pi] at hY
      refine hcons (fun τ => pos7 (Y τ)) (fun τ => vel7 (Y τ)) (grav a μ j2 j3 j4 (pos7 z)) τ ?_ ?_ ?_
      · show HasVelocity _ (vel7 (Y τ)) τ
        rw [hYz]
        exact ⟨hY 0, hY 1, hY 2⟩
      · exact ⟨hY 3, hY 4, hY 5⟩
      · show Planet.gravity _ (pos7 (Y τ)).fin = _
        rw [hYz]
        exact gravity_grav _ _ _ _ _ _ _ hz)
  refine ⟨K, δ, hδ, fun h hh => ?_⟩
  obtain ⟨y', h1, h2⟩ := H h hh
  obtain ⟨s', hs'⟩ := coasting_step hp.engines hp.unlimited hp.tables s (.fin h)
  obtain ⟨z, h3, h4⟩ := Integrator.step_ok hs'
  rw [hx, hy, h1] at h3
  injection h3 with h3
  injection h3 with h3 h5
  subst h5
  have hprim := Phase.system_primary h4
  exact ⟨s', pos7 y', vel7 y', hs', hprim.2.2.1, hprim.2.2.2.1, h2⟩

theorem contDiffAt_energy (a μ j2 j3 j4 : ℝ) {y : Fin 7 → ℝ} (hy : pos7 y ≠ ⟨0, 0, 0⟩) :
    ContDiffAt ℝ 1 (fun y => energy a μ j2 j3 j4 (pos7 y) (vel7 y)) y := by
  refine AnalyticAt.contDiffAt ?_
  have k : ∀ U V W Z N : (Fin 7 → ℝ) → ℝ, AnalyticAt ℝ U y → AnalyticAt ℝ V y → AnalyticAt ℝ W y →
      AnalyticAt ℝ Z y → AnalyticAt ℝ N y → N y ≠ 0 →
      AnalyticAt ℝ (fun z => (U z * U z + V z * V z + W z * W z) / 2 -
        μ / N z * (1 - j2 * (a / N z) ^ 2 * ((3 * (Z z / N z) ^ 2 - 1) / 2)
    - j3 * (a / N z) ^ 3 * ((5 * (Z z / N z) ^ 3 - 3 * (Z z / N z)) / 2)
    - j4 * (a / N z) ^ 4 * ((35 * (Z z / N z) ^ 4 - 30 * (Z z / N z) ^ 2 + 3) / 8))) y := by
    intro U V W Z N hU hV hW hZ hN h0
    fun_prop (disch := first | assumption | norm_num)
  exact k _ _ _ _ _ (analyticAt_comp7 3 y) (analyticAt_comp7 4 y) (analyticAt_comp7 5 y)
    (analyticAt_comp7 2 y) (analyticAt_rnorm7 hy) (rnorm_pos _ hy).ne'

/-- C66 (step).  One integration step of size `h` of a free fall changes the energy and the axial
angular momentum by at most `K |h|^5`, for all small `h`. -/
theorem C66_step {p : Phase XR} {a b μ j2 j3 j4 ω : ℝ} (hp : Coasting p a b μ j2 j3 j4 ω)
    {s : State XR} {t te m : ℝ} {r v : V3 ℝ} (ht : s.time = .fin t)
    (hte : s.timeSinceEvent = .fin te) (hr : s.position = r.fin) (hv : s.velocity = v.fin)
    (hm : s.mass = .fin m) (hm0 : m ≠ 0) (hr0 : r ≠ ⟨0, 0, 0⟩) :
    ∃ K δ, 0 < δ ∧ ∀ h : ℝ, |h| < δ → ∃ s' r' v', OneStep p (.fin h) s s' ∧
      s'.position = V3.fin r' ∧ s'.velocity = V3.fin v' ∧
      |energy a μ j2 j3 j4 r' v' - energy a μ j2 j3 j4 r v| ≤ K * |h| ^ 5 ∧
      |(angularMomentum r' v').z - (angularMomentum r v).z| ≤ K * |h| ^ 5 := by
  obtain ⟨K1, δ1, hδ1, H1⟩ := orbit_drift hp hr0 (E := energy a μ j2 j3 j4)
    (fun y hy => contDiffAt_energy _ _ _ _ _ (hy ▸ hr0)) (fun r v acc t => energy_rate) ht hte hr hv
    hm hm0
  obtain ⟨K2, δ2, hδ2, H2⟩ := orbit_drift hp hr0 (E := fun r v => (angularMomentum r v).z)
    (fun y _ => AnalyticAt.contDiffAt (((analyticAt_comp7 0 y).mul (analyticAt_comp7 4 y)).sub
      ((analyticAt_comp7 1 y).mul (analyticAt_comp7 3 y)))) (fun r v acc t => axial_rate) ht hte hr hv
    hm hm0
  refine ⟨max K1 K2, min δ1 δ2, lt_min hδ1 hδ2, fun h hh => ?_⟩
  obtain ⟨s', r', v', h1, h2, h3, h4⟩ := H1 h (lt_of_lt_of_le hh (min_le_left _ _))
  obtain ⟨s1, r1, v1, g1, g2, g3, g4⟩ := H2 h (lt_of_lt_of_le hh (min_le_right _ _))
  have es : s' = s1 := by
    unfold OneStep at h1 g1
    rw [h1] at g1
    injection g1
  subst es
  have er : r' = r1 := V3.fin_inj.1 (h2.symm.trans g2)
  have ev : v' = v1 := V3.fin_inj.1 (h3.symm.trans g3)
  subst er ev
  refine ⟨s', r', v', h1, h2, h3, h4.trans ?_, g4.trans ?_⟩
  · gcongr; exact le_max_left _ _
  · gcongr; exact le_max_right _ _

/-! ## Non-vacuity -/

/-- The axis is steered by time or time since event, with real coefficients. -/
def Spec.TimeSteered (x : Axis XR) : Prop :=
  IsTime x.var ∧ ∃ c0 c1 c2 c3 : ℝ, x.c0 = .fin c0 ∧ x.c1 = .fin c1 ∧ x.c2 = .fin c2 ∧ x.c3 = .fin c3

/-- Steering by time gives a real attitude. -/
theorem realAttitude_of_time {p : Phase XR} (h1 : TimeSteered p.steering.roll)
    (h2 : TimeSteered p.steering.yaw) (h3 : TimeSteered p.steering.pitch) : RealAttitude p := by
  intro s d t te m r v ht hte _ _ _ _ hd
  have key : ∀ x : Axis XR, TimeSteered x → ∃ θ : ℝ, x.angle (p.atSteering s) = .fin θ := by
    rintro x ⟨hx, c0, c1, c2, c3, e0, e1, e2, e3⟩
    rcases hx with hx | hx
    · exact ⟨_, C16_axis_angle (y := t) (by rw [hx]; exact ht) e0 e1 e2 e3⟩
    · exact ⟨_, C16_axis_angle (y := te) (by rw [hx]; exact hte) e0 e1 e2 e3⟩
  obtain ⟨roll, hroll⟩ := key _ h1
  obtain ⟨yaw, hyaw⟩ := key _ h2
  obtain ⟨pitch, hpitch⟩ := key _ h3
  obtain ⟨aero, _, _, rfl⟩ := Phase.system_ok hd
  refine ⟨roll, yaw, pitch, ?_⟩
  show p.steering.eulerAngles (p.atSteering s) = _
  unfold Steering.eulerAngles
  rw [hroll, hyaw, hpitch]

/-- A coasting phase around a planet of radius and gravitational parameter one. -/
def exampleOrbit : Phase XR := { Phase.default with planet := realPlanet 1 1 1 0 0 0 0 }

theorem exampleOrbit_coasting : Coasting exampleOrbit 1 1 1 0 0 0 0 := by
  have hs : TimeSteered (Axis.default : Axis XR) :=
    ⟨.inl rfl, 0, 0, 0, 0, XR.fin_zero, XR.fin_zero, XR.fin_zero, XR.fin_zero⟩
  exact ⟨rfl, rfl, rfl, ⟨default_wellFormed, default_wellFormed, default_wellFormed⟩, rfl,
    ⟨0, 0, 0, by simp only [exampleOrbit, Phase.default, XR.fin_zero]⟩,
    realAttitude_of_time hs hs hs⟩

/-- The circular orbit of radius one solves the equations of motion at all times, so `C66_orbit` and
`C66_kepler` apply to it between any two times. -/
theorem exampleOrbit_circle (t : ℝ) : SolvesMotion exampleOrbit 0
    (fun t => ⟨Real.cos t, Real.sin t, 0⟩) (fun t => ⟨-Real.sin t, Real.cos t, 0⟩) (fun _ => 1) t := by
  have hp := exampleOrbit_coasting
  have hn : rnorm ⟨Real.cos t, Real.sin t, 0⟩ = 1 := by
    simp [rnorm]
  have hne : (⟨Real.cos t, Real.sin t, 0⟩ : V3 ℝ) ≠ ⟨0, 0, 0⟩ := by
    intro h
    rw [h] at hn
    simp [rnorm] at hn
  let s : State XR := State.fromVec (vec2 (.fin t) (.fin (t - 0)))
    (vfin (vec7 (Real.cos t) (Real.sin t) 0 (-Real.sin t) (Real.cos t) 0 1))
  obtain ⟨d, hd⟩ := system_coasting_ok hp.unlimited hp.engines hp.tables s
  obtain ⟨lat, long, az, hl⟩ := hp.launch
  obtain ⟨roll, yaw, pitch, he⟩ := hp.attitude s d t (t - 0) 1 ⟨Real.cos t, Real.sin t, 0⟩
    ⟨-Real.sin t, Real.cos t, 0⟩ rfl rfl rfl rfl rfl hne hd
  obtain ⟨h1, h2⟩ := system_free_fall hp.engines hp.vacuum hd (m := 1) rfl one_ne_zero hl he
  refine ⟨s, d, ⟨-Real.cos t, -Real.sin t, 0⟩, 0, rfl, rfl, rfl, rfl, rfl, hd, ?_, h2, ?_, ?_,
    hasDerivAt_const _ _⟩
  · rw [h1, hp.planet, show s.position = V3.fin ⟨Real.cos t, Real.sin t, 0⟩ from rfl]
    obtain ⟨g, hg, hg2, _⟩ := C43_central 1 1 1 0 hne
    rw [hg, hg2, hn]
    simp [rscale]
  · exact ⟨Real.hasDerivAt_cos t, Real.hasDerivAt_sin t, hasDerivAt_const _ _⟩
  · exact ⟨(Real.hasDerivAt_sin t).neg, Real.hasDerivAt_cos t, hasDerivAt_const _ _⟩

/-- `C66_step` applies to the first step of that orbit. -/
example : ∃ K δ, 0 < δ ∧ ∀ h : ℝ, |h| < δ → ∃ s' r' v', OneStep exampleOrbit (.fin h)
    { exampleOrbit.state with position := V3.fin ⟨1, 0, 0⟩, velocity := V3.fin ⟨0, 1, 0⟩,
                              mass := .fin 1 } s' ∧
      s'.position = V3.fin r' ∧ s'.velocity = V3.fin v' ∧
      |energy 1 1 0 0 0 r' v' - energy 1 1 0 0 0 ⟨1, 0, 0⟩ ⟨0, 1, 0⟩| ≤ K * |h| ^ 5 ∧
      |(angularMomentum r' v').z - (angularMomentum ⟨1, 0, 0⟩ ⟨0, 1, 0⟩).z| ≤ K * |h| ^ 5 :=
  C66_step exampleOrbit_coasting (t := 0) (te := 0) (m := 1) XR.fin_zero XR.fin_zero rfl rfl rfl
    one_ne_zero (by simp)

/-- A phase following `exampleOrbit` that pitches up by two degrees per second. -/
def examplePitch : PhaseConfig XR :=
  { PhaseConfig.empty with
    steering := some ⟨none, none, some ⟨.timeSinceEvent, .fin 2, .fin 0, .fin 0⟩⟩ }

/-- `C16_relative` applies to it: after `y` seconds the pitch is `2 y` degrees. -/
example : ∃ p, Phase.new (some exampleOrbit) examplePitch = .ok p ∧ (∃ s, Visited p.reset s) ∧
    ∀ s y, Visited p.reset s → s.timeSinceEvent = .fin y →
      s.eulerAngles.pitch = .fin (0 + (2 * y + 0 * y ^ 2 + 0 * y ^ 3) * (Real.pi / 180)) := by
  refine ⟨_, rfl, ?_, fun s y hs hy => C16_relative .pitch rfl hs (by decide) XR.fin_zero hy rfl rfl rfl⟩
  obtain ⟨s, hs⟩ := system_coasting_ok (p := (exampleOrbit.applyConfig examplePitch).reset) rfl rfl
    ⟨default_wellFormed, default_wellFormed, default_wellFormed⟩
    (exampleOrbit.applyConfig examplePitch).reset.state
  exact ⟨s, s, [], _, hs, .nil _, .inl rfl⟩

end

end Post
