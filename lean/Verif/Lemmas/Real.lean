import Verif.Spec.Real
import Verif.Props.Table
import Verif.Props.Planet
import Verif.Props.Orbit
import Verif.Props.Atmosphere
import Verif.Props.Steering
import Verif.Props.Mass
import Verif.Props.Unlimited
import Verif.Props.Ascent
import Verif.Lemmas.Aero
/-! # Lemmas about actual numbers: every computation of the equations of motion keeps them -/

set_option linter.unusedSectionVars false

namespace Post
open Spec Flt

/-! ## Numbers and vectors -/

theorem isReal_fin (r : ℝ) : IsReal (.fin r) := ⟨r, rfl⟩
theorem isReal_zero : IsReal (0 : XR) := ⟨0, XR.fin_zero⟩
theorem isReal_one : IsReal (1 : XR) := ⟨1, XR.fin_one⟩
theorem isReal_sci (m : ℕ) (b : Bool) (e : ℕ) : IsReal (OfScientific.ofScientific m b e : XR) :=
  ⟨_, rfl⟩
theorem isReal_add {x y : XR} (hx : IsReal x) (hy : IsReal y) : IsReal (x + y) := by
  obtain ⟨a, rfl⟩ := hx; obtain ⟨b, rfl⟩ := hy; exact ⟨_, XR.fin_add a b⟩
theorem isReal_sub {x y : XR} (hx : IsReal x) (hy : IsReal y) : IsReal (x - y) := by
  obtain ⟨a, rfl⟩ := hx; obtain ⟨b, rfl⟩ := hy; exact ⟨_, XR.fin_sub a b⟩
theorem isReal_mul {x y : XR} (hx : IsReal x) (hy : IsReal y) : IsReal (x * y) := by
  obtain ⟨a, rfl⟩ := hx; obtain ⟨b, rfl⟩ := hy; exact ⟨_, XR.fin_mul a b⟩
theorem isReal_neg {x : XR} (hx : IsReal x) : IsReal (-x) := by
  obtain ⟨a, rfl⟩ := hx; exact ⟨_, XR.fin_neg a⟩

theorem realVec_iff {v : V3 XR} : RealVec v ↔ ∃ r : V3 ℝ, v = r.fin := by
  constructor
  · rintro ⟨⟨x, hx⟩, ⟨y, hy⟩, ⟨z, hz⟩⟩
    exact ⟨⟨x, y, z⟩, V3.ext hx hy hz⟩
  · rintro ⟨r, rfl⟩; exact ⟨⟨_, rfl⟩, ⟨_, rfl⟩, ⟨_, rfl⟩⟩

theorem realVec_fin (r : V3 ℝ) : RealVec r.fin := realVec_iff.2 ⟨r, rfl⟩
theorem realVec_zero : RealVec (V3.zero : V3 XR) := by rw [V3.fin_zero]; exact realVec_fin _

theorem isReal_norm {v : V3 XR} (h : RealVec v) : IsReal v.norm := by
  obtain ⟨r, rfl⟩ := realVec_iff.1 h
  exact ⟨_, V3.fin_norm r⟩

/-- All fields of the state are actual numbers (the Mach number excepted). -/
structure State.Reals (s : State XR) : Prop where
  time : IsReal s.time
  timeSinceEvent : IsReal s.timeSinceEvent
  position : RealVec s.position
  positionPlanet : RealVec s.positionPlanet
  altitude : IsReal s.altitude
  altitudeGeopotential : IsReal s.altitudeGeopotential
  velocity : RealVec s.velocity
  velocityPlanet : RealVec s.velocityPlanet
  velocityAtmosphere : RealVec s.velocityAtmosphere
  acceleration : RealVec s.acceleration
  thrustForceBody : RealVec s.thrustForceBody
  aeroForceBody : RealVec s.aeroForceBody
  vehicleAccelerationBody : RealVec s.vehicleAccelerationBody
  gravityAcceleration : RealVec s.gravityAcceleration
  mass : IsReal s.mass
  propellantMass : IsReal s.propellantMass
  massflow : IsReal s.massflow
  temperature : IsReal s.temperature
  pressure : IsReal s.pressure
  density : IsReal s.density
  dynamicPressure : IsReal s.dynamicPressure
  alpha : IsReal s.alpha
  roll : IsReal s.eulerAngles.roll
  yaw : IsReal s.eulerAngles.yaw
  pitch : IsReal s.eulerAngles.pitch
  throttle : IsReal s.throttle

theorem State.reals_iff {s : State XR} : s.Reals ↔ AllReal s := by
  constructor
  · intro h v hv
    cases v <;> first
      | exact absurd rfl hv
      | exact isReal_norm (by first
          | exact h.position | exact h.velocity | exact h.velocityPlanet
          | exact h.velocityAtmosphere | exact h.acceleration | exact h.thrustForceBody
          | exact h.aeroForceBody | exact h.vehicleAccelerationBody
          | exact h.gravityAcceleration)
      | exact h.time | exact h.timeSinceEvent
      | exact h.position.1 | exact h.position.2.1 | exact h.position.2.2
      | exact h.positionPlanet.1 | exact h.positionPlanet.2.1 | exact h.positionPlanet.2.2
      | exact h.altitude | exact h.altitudeGeopotential
      | exact h.velocity.1 | exact h.velocity.2.1 | exact h.velocity.2.2
      | exact h.velocityPlanet.1 | exact h.velocityPlanet.2.1 | exact h.velocityPlanet.2.2
      | exact h.velocityAtmosphere.1 | exact h.velocityAtmosphere.2.1
      | exact h.velocityAtmosphere.2.2
      | exact h.acceleration.1 | exact h.acceleration.2.1 | exact h.acceleration.2.2
      | exact h.thrustForceBody.1 | exact h.thrustForceBody.2.1 | exact h.thrustForceBody.2.2
      | exact h.aeroForceBody.1 | exact h.aeroForceBody.2.1 | exact h.aeroForceBody.2.2
      | exact h.vehicleAccelerationBody.1 | exact h.vehicleAccelerationBody.2.1
      | exact h.vehicleAccelerationBody.2.2
      | exact h.gravityAcceleration.1 | exact h.gravityAcceleration.2.1
      | exact h.gravityAcceleration.2.2
      | exact h.mass | exact h.propellantMass | exact h.massflow | exact h.temperature
      | exact h.pressure | exact h.density | exact h.dynamicPressure | exact h.alpha
      | exact h.roll | exact h.yaw | exact h.pitch | exact h.throttle
  · intro h
    exact ⟨h .time nofun, h .timeSinceEvent nofun,
      ⟨h .position1 nofun, h .position2 nofun, h .position3 nofun⟩,
      ⟨h .positionPlanet1 nofun, h .positionPlanet2 nofun, h .positionPlanet3 nofun⟩,
      h .altitude nofun, h .altitudeGeopotential nofun,
      ⟨h .velocity1 nofun, h .velocity2 nofun, h .velocity3 nofun⟩,
      ⟨h .velocityPlanet1 nofun, h .velocityPlanet2 nofun, h .velocityPlanet3 nofun⟩,
      ⟨h .velocityAtmosphere1 nofun, h .velocityAtmosphere2 nofun, h .velocityAtmosphere3 nofun⟩,
      ⟨h .acceleration1 nofun, h .acceleration2 nofun, h .acceleration3 nofun⟩,
      ⟨h .thrustForceBody1 nofun, h .thrustForceBody2 nofun, h .thrustForceBody3 nofun⟩,
      ⟨h .aeroForceBody1 nofun, h .aeroForceBody2 nofun, h .aeroForceBody3 nofun⟩,
      ⟨h .vehicleAccelerationBody1 nofun, h .vehicleAccelerationBody2 nofun,
        h .vehicleAccelerationBody3 nofun⟩,
      ⟨h .gravityAcceleration1 nofun, h .gravityAcceleration2 nofun,
        h .gravityAcceleration3 nofun⟩,
      h .mass nofun, h .propellantMass nofun, h .massflow nofun, h .temperature nofun,
      h .pressure nofun, h .density nofun, h .dynamicPressure nofun, h .alpha nofun,
      h .eulerAnglesRoll nofun, h .eulerAnglesYaw nofun, h .eulerAnglesPitch nofun,
      h .throttle nofun⟩

theorem State.reals_default : (State.default : State XR).Reals := by
  constructor <;> first | exact isReal_zero | exact realVec_zero

/-! ## Tables -/

/-- an actual number or NaN -/
def RealOrNan (x : XR) : Prop := x = .nan ∨ IsReal x

theorem exists_reals {l : List XR} (h : ∀ x ∈ l, IsReal x) : ∃ rs : List ℝ, l = rs.map XR.fin := by
  induction l with
  | nil => exact ⟨[], rfl⟩
  | cons x l ih =>
    obtain ⟨r, rfl⟩ := h x (by simp)
    obtain ⟨rs, rfl⟩ := ih fun y hy => h y (by simp [hy])
    exact ⟨r :: rs, rfl⟩

theorem interp_real {T : Type} {inner : T → Except Panic XR} {axis : List XR} {data : List T}
    (ha : AxisFits axis data) (hr : ∀ x ∈ axis, IsReal x) {x : XR} (hx : IsReal x)
    (hi : ∀ t ∈ data, ∃ v, inner t = .ok v ∧ RealOrNan v) :
    ∃ v, interp inner axis x data = .ok v ∧ RealOrNan v := by
  obtain ⟨rs, rfl⟩ := exists_reals hr
  obtain ⟨x, rfl⟩ := hx
  have hasc : Asc rs := ascending_fin.1 ha.1
  have hlen : data.length = rs.length := by simpa using ha.2
  unfold interp
  by_cases h0 : data.isEmpty = true
  · rw [if_pos h0]; exact ⟨_, rfl, .inl rfl⟩
  rw [if_neg h0]
  have hpos : 0 < data.length := List.length_pos_iff.2 (by simpa using h0)
  by_cases h1 : data.length = 1
  · rw [if_pos h1]
    obtain ⟨t, rfl⟩ := List.length_eq_one_iff.1 h1
    obtain ⟨v, hv, hv'⟩ := hi t (by simp)
    exact ⟨v, by simp [idx, bind, Except.bind, hv], hv'⟩
  · rw [if_neg h1]
    obtain ⟨i, hgi, hg⟩ := getIdx_governs hasc (by omega) x
    have hi' := hg.1
    have e0 : idx (rs.map XR.fin) i = .ok (.fin rs[i]) := by
      rw [idx_lt (by simp; omega)]; simp
    have e1 : idx (rs.map XR.fin) (i + 1) = .ok (.fin rs[i + 1]) := by
      rw [idx_lt (by simp; omega)]; simp
    have hd : rs[i + 1] - rs[i] ≠ 0 := by
      have := asc_lt hasc (i := i) (j := i + 1) (by omega) (by omega) (by omega)
      linarith
    obtain ⟨v0, d0, hv0⟩ := hi data[i] (List.getElem_mem (by omega))
    obtain ⟨v1, d1, hv1⟩ := hi data[i + 1] (List.getElem_mem (by omega))
    simp only [hgi, bind, Except.bind, e0, e1, idx_lt (l := data) (i := i) (by omega),
      idx_lt (l := data) (i := i + 1) (by omega), d0, d1]
    refine ⟨_, rfl, ?_⟩
    rcases hv0 with rfl | ⟨r0, rfl⟩
    · left; exact XR.nan_add _
    rcases hv1 with rfl | ⟨r1, rfl⟩
    · left; rw [XR.nan_sub, XR.mul_nan, XR.nan_div, XR.add_nan]
    · right
      simp only [XR.fin_sub, XR.fin_mul, XR.fin_div _ _ hd, XR.fin_add]
      exact ⟨_, rfl⟩

theorem linear_real {axis data : List XR} (ha : AxisFits axis data) (hr : ∀ x ∈ axis, IsReal x)
    (hd : ∀ y ∈ data, IsReal y) {x : XR} (hx : IsReal x) :
    ∃ v, linearInterpolate axis x data = .ok v ∧ RealOrNan v := by
  rw [linearInterpolate_eq]
  exact interp_real ha hr hx fun t ht => ⟨t, rfl, .inr (hd t ht)⟩

theorem bilinear_real {xs ys : List XR} {data : List (List XR)} (ha : AxisFits xs data)
    (hb : ∀ row ∈ data, AxisFits ys row) (hxs : ∀ x ∈ xs, IsReal x) (hys : ∀ x ∈ ys, IsReal x)
    (hd : ∀ row ∈ data, ∀ y ∈ row, IsReal y) {x y : XR} (hx : IsReal x) (hy : IsReal y) :
    ∃ v, bilinearInterpolate xs x ys y data = .ok v ∧ RealOrNan v := by
  rw [bilinearInterpolate_eq]
  exact interp_real ha hxs hx fun t ht => linear_real (hb t ht) hys (hd t ht) hy

theorem RealTable.atState {t : Table XR} (h : RealTable t) {s : State XR}
    (hs : ∀ v ∈ tableVariables t, IsReal (v.getValue s)) :
    ∃ v, t.atState s = .ok v ∧ RealOrNan v := by
  obtain ⟨hw, h⟩ := h
  cases t with
  | d1 t =>
    show ∃ v, t.atState s = .ok v ∧ _
    unfold Table1D.atState
    cases t.interpolator
    exact linear_real hw h.1 h.2 (hs _ (by simp [tableVariables]))
  | d2 t =>
    show ∃ v, t.atState s = .ok v ∧ _
    unfold Table2D.atState
    cases t.interpolator
    exact bilinear_real hw.1 hw.2 h.1 h.2.1 h.2.2 (hs _ (by simp [tableVariables]))
      (hs _ (by simp [tableVariables]))
  | d3 t =>
    show ∃ v, t.atState s = .ok v ∧ _
    unfold Table3D.atState
    cases t.interpolator
    simp only
    rw [trilinearInterpolate_eq]
    exact interp_real hw.1 h.1 (hs _ (by simp [tableVariables])) fun p hp =>
      bilinear_real (hw.2 p hp).1 (hw.2 p hp).2 h.2.1 h.2.2.1 (h.2.2.2 p hp)
        (hs _ (by simp [tableVariables])) (hs _ (by simp [tableVariables]))

theorem RealOrNan.mul {x y : XR} (hx : RealOrNan x) (hy : RealOrNan y) : RealOrNan (x * y) := by
  rcases hx with rfl | hx
  · left; exact XR.nan_mul _
  rcases hy with rfl | hy
  · left; exact XR.mul_nan _
  · exact .inr (isReal_mul hx hy)
theorem RealOrNan.add {x y : XR} (hx : RealOrNan x) (hy : RealOrNan y) : RealOrNan (x + y) := by
  rcases hx with rfl | hx
  · left; exact XR.nan_add _
  rcases hy with rfl | hy
  · left; exact XR.add_nan _
  · exact .inr (isReal_add hx hy)
theorem RealOrNan.sub {x y : XR} (hx : RealOrNan x) (hy : RealOrNan y) : RealOrNan (x - y) := by
  rcases hx with rfl | hx
  · left; exact XR.nan_sub _
  rcases hy with rfl | hy
  · left; exact XR.sub_nan _
  · exact .inr (isReal_sub hx hy)
theorem RealOrNan.neg {x : XR} (hx : RealOrNan x) : RealOrNan (-x) := by
  rcases hx with rfl | hx
  · left; rfl
  · exact .inr (isReal_neg hx)
theorem RealOrNan.nanToZero {x : XR} (hx : RealOrNan x) : IsReal (nanToZero x) := by
  rcases hx with rfl | ⟨r, rfl⟩
  · exact ⟨0, nanToZero_nan.trans XR.fin_zero⟩
  · exact ⟨r, nanToZero_fin r⟩

theorem isReal_sin {x : XR} (hx : IsReal x) : IsReal (sin x) := by
  obtain ⟨a, rfl⟩ := hx; exact ⟨_, XR.fin_sin a⟩
theorem isReal_cos {x : XR} (hx : IsReal x) : IsReal (cos x) := by
  obtain ⟨a, rfl⟩ := hx; exact ⟨_, XR.fin_cos a⟩

/-- The aerodynamic force of a real vehicle is real. -/
theorem aeroForce_real {v : Vehicle XR} (hd : RealTable v.dragCoeff) (hl : RealTable v.liftCoeff)
    (hy : RealTable v.sideForceCoeff) (hA : IsReal v.referenceArea) {s : State XR} (hs : s.Reals)
    (hm : ∀ x : StateVariable, IsReal (x.getValue s)) :
    ∃ f : V3 ℝ, v.aeroForce s = .ok f.fin := by
  obtain ⟨cd, hcd, rd⟩ := RealTable.atState hd (s := s) fun _ _ => hm _
  obtain ⟨cl, hcl, rl⟩ := RealTable.atState hl (s := s) fun _ _ => hm _
  obtain ⟨cy, hcy, ry⟩ := RealTable.atState hy (s := s) fun _ _ => hm _
  unfold Vehicle.aeroForce
  simp only [hcd, hcl, hcy, bind, Except.bind]
  have hsin : RealOrNan (sin s.alpha) := .inr (isReal_sin hs.alpha)
  have hcos : RealOrNan (cos s.alpha) := .inr (isReal_cos hs.alpha)
  have hq : RealOrNan (s.dynamicPressure * v.referenceArea) :=
    .inr (isReal_mul hs.dynamicPressure hA)
  have key : RealVec ((V3.smul (s.dynamicPressure * v.referenceArea)
      ⟨-(cos s.alpha * cd - sin s.alpha * cl), cy, -(sin s.alpha * cd + cos s.alpha * cl)⟩).map
      nanToZero) :=
    ⟨(hq.mul ((hcos.mul rd).sub (hsin.mul rl)).neg).nanToZero, (hq.mul ry).nanToZero,
      (hq.mul ((hsin.mul rd).add (hcos.mul rl)).neg).nanToZero⟩
  obtain ⟨f, hf⟩ := realVec_iff.1 key
  exact ⟨f, by rw [hf]⟩

/-! ## The planet -/

theorem surfaceDistance_le {a b : ℝ} (ha : 0 < a) (hb : 0 < b) {r : V3 ℝ} (hr : r ≠ ⟨0, 0, 0⟩) :
    surfaceDistance a b r ≤ max a b := by
  have hn : rnorm r ≠ 0 := fun h => hr ((rnorm_eq_zero r).1 h)
  have hpos := radicand_pos ha.ne' hb.ne' (ratio_sq_le_one hn)
  have h1 := ratio_sq_le_one hn
  set u := (r.z / rnorm r) ^ 2 with hu
  have hu0 : 0 ≤ u := sq_nonneg _
  have hM : 0 < max a b := lt_max_of_lt_left ha
  unfold surfaceDistance
  rw [div_le_iff₀ (Real.sqrt_pos.2 hpos)]
  have h2 : a / max a b ≤ Real.sqrt (1 + ((a / b) ^ 2 - 1) * u) := by
    apply Real.le_sqrt_of_sq_le
    rw [div_pow, div_pow]
    rcases le_total a b with hab | hab
    · rw [max_eq_right hab]
      have h3 : a ^ 2 / b ^ 2 ≤ 1 := by
        rw [div_le_one (by positivity)]; nlinarith
      nlinarith
    · rw [max_eq_left hab, div_self (by positivity)]
      have h3 : 1 ≤ a ^ 2 / b ^ 2 := by
        rw [le_div_iff₀ (by positivity)]; nlinarith
      nlinarith
  rw [div_le_iff₀ hM] at h2
  linarith [mul_comm (max a b) (Real.sqrt (1 + ((a / b) ^ 2 - 1) * u))]

/-- Outside the core, altitude and geopotential altitude are real. -/
theorem altitudes_real {p : Planet XR} {a b : ℝ} (hpa : p.equatorialRadius = .fin a)
    (hpb : p.polarRadius = .fin b) (ha : 0 < a) (hb : 0 < b) {r : V3 ℝ}
    (hr : |a - b| < 2 * rnorm r) :
    IsReal (p.altitude r.fin) ∧ IsReal (p.geopotentialAltitude r.fin) := by
  have hr0 : r ≠ ⟨0, 0, 0⟩ := by
    rintro rfl
    rw [(rnorm_eq_zero _).2 rfl] at hr
    linarith [abs_nonneg (a - b)]
  have h1 := altitude_fin hpa hpb ha.ne' hb.ne' hr0
  refine ⟨⟨_, h1⟩, ⟨_, C45_value hpa hpb h1 ?_⟩⟩
  have h2 := surfaceDistance_le ha hb hr0
  have h3 : max a b = (a + b) / 2 + |a - b| / 2 := by
    rcases le_total a b with h | h
    · rw [max_eq_right h, abs_of_nonpos (by linarith)]; ring
    · rw [max_eq_left h, abs_of_nonneg (by linarith)]; ring
  have : 0 < (a + b) / 2 + (rnorm r - surfaceDistance a b r) := by linarith
  exact this.ne'

/-! ## Throttle -/

theorem sideSideAngle_real {a b α : ℝ} (hb : 0 ≤ b) (h0 : 0 ≤ α) (hπ : α ≤ Real.pi)
    (hbα : b = 0 → α = Real.pi) :
    sideSideAngle (XR.fin a) (.fin b) (.fin α) = none ∨
      ∃ r : ℝ, sideSideAngle (XR.fin a) (.fin b) (.fin α) = some (.fin r) := by
  unfold sideSideAngle
  xr_eval
  by_cases e0 : α = 0
  · right
    simp only [e0, decide_true, if_true]
    by_cases hg : a < b
    · exact ⟨b - a, if_pos (by simpa using hg)⟩
    · exact ⟨a + b, if_neg (by simpa using hg)⟩
  simp only [e0, decide_false, Bool.false_eq_true, if_false]
  by_cases eπ : α = Real.pi
  · right
    exact ⟨a - b, by simp only [eπ, decide_true, if_true]⟩
  simp only [eπ, decide_false, Bool.false_eq_true, if_false]
  have hsin : 0 < Real.sin α :=
    Real.sin_pos_of_pos_of_lt_pi (lt_of_le_of_ne h0 (Ne.symm e0)) (lt_of_le_of_ne hπ eπ)
  by_cases hgt : a < Real.sin α * b
  · left; simp only [hgt, decide_true, if_true]
  · right
    simp only [hgt, decide_false, Bool.false_eq_true, if_false]
    have hb' : 0 < b := lt_of_le_of_ne hb fun h => eπ (hbα h.symm)
    have hsb : 0 < Real.sin α * b := mul_pos hsin hb'
    have ha : 0 < a := by linarith
    have hq : Real.sin α * b / a ≤ 1 := by rw [div_le_one ha]; linarith
    have hq0 : -1 ≤ Real.sin α * b / a := by
      have : 0 ≤ Real.sin α * b / a := by positivity
      linarith
    rw [XR.fin_div _ _ ha.ne', XR.fin_asin _ hq0 hq]
    by_cases hg : a < b
    · simp only [hg, decide_true, if_true]
      xr_eval
      exact ⟨_, by rw [XR.fin_div _ _ hsin.ne']⟩
    · simp only [hg, decide_false, Bool.false_eq_true, if_false]
      xr_eval
      exact ⟨_, by rw [XR.fin_div _ _ hsin.ne']⟩

theorem clamp01_isReal (x : ℝ) : IsReal (clamp01 (XR.fin x)) := ⟨_, clamp01_fin x⟩

theorem autoThrottle_real {v : Vehicle XR} {es : List RealEngine} (hE : HasEngines v es)
    {limit : XR} (hlim : limit = Flt.inf ∨ IsReal limit) {m : ℝ} (hm : 0 < m) (pr : ℝ)
    (f : V3 ℝ) : IsReal (v.autoThrottle limit (.fin m) (.fin pr) f.fin) := by
  rcases hlim with rfl | ⟨A, rfl⟩
  · exact ⟨1, autoThrottle_unlimited hm hE⟩
  by_cases hT : fullThrust es pr = ⟨0, 0, 0⟩
  · unfold Vehicle.autoThrottle
    simp only [fullThrust_one hE, V3.beq_zero_fin, hT, decide_true, if_true]
    exact isReal_one
  · have hT' : 0 < rnorm (fullThrust es pr) :=
      lt_of_le_of_ne (rnorm_nonneg _) fun h => hT ((rnorm_eq_zero _).1 h.symm)
    obtain ⟨α, hα, h0, hπ, hz⟩ : ∃ α : ℝ, (pi - V3.angle f.fin (fullThrust es pr).fin : XR) =
        .fin α ∧ 0 ≤ α ∧ α ≤ Real.pi ∧ (rnorm f = 0 → α = Real.pi) := by
      by_cases hf : rnorm f = 0
      · exact ⟨Real.pi, by rw [V3.angle_zero_left hf, XR.fin_pi, XR.fin_sub, sub_zero],
          Real.pi_pos.le, le_refl _, fun _ => rfl⟩
      · obtain ⟨α, h1, h2, h3⟩ := throttle_angle_range (f := f) hT'
        exact ⟨α, h1, h2, h3, fun h => absurd h hf⟩
    rcases sideSideAngle_real (a := A * m) (rnorm_nonneg f) h0 hπ hz with h | ⟨r, h⟩
    · unfold Vehicle.autoThrottle
      simp only [fullThrust_one hE, V3.beq_zero_fin, hT, decide_false, Bool.false_eq_true,
        if_false, XR.fin_mul, V3.fin_norm, hα, h]
      exact isReal_one
    · rw [autoThrottle_of_sideSide hE hT (r := .fin r) (by rw [XR.fin_mul, hα, h]),
        XR.fin_div _ _ hT'.ne']
      exact clamp01_isReal _

/-- The engines as real engines. -/
theorem exists_engines {v : Vehicle XR} (h : ∀ e ∈ v.engines, RealEngineData e) :
    ∃ es : List RealEngine, HasEngines v es ∧ ∀ e ∈ es, e.isp ≠ 0 := by
  have key : ∀ l : List (Engine XR), (∀ e ∈ l, RealEngineData e) →
      ∃ es : List RealEngine, l = es.map (·.toEngine) ∧ ∀ e ∈ es, e.isp ≠ 0 := by
    intro l
    induction l with
    | nil => intro _; exact ⟨[], rfl, by simp⟩
    | cons e l ih =>
      intro h
      obtain ⟨⟨a, ha⟩, ⟨b, hb⟩, ⟨c, hc⟩, ⟨d, hd⟩, i, hi, hi0⟩ := h e (by simp)
      obtain ⟨es, rfl, hes⟩ := ih fun e he => h e (by simp [he])
      refine ⟨⟨c, i, d, b, a⟩ :: es, ?_, ?_⟩
      · simp only [List.map_cons, List.cons.injEq, and_true]
        cases e
        simp only at ha hb hc hd hi
        subst ha hb hc hd hi
        rfl
      · intro e he
        rcases List.mem_cons.1 he with rfl | he
        · exact hi0
        · exact hes e he
  exact key _ h

/-! ## Angle of attack -/

theorem alpha_real (v : V3 ℝ) : IsReal (Vehicle.alpha v.fin) := by
  unfold Vehicle.alpha
  show IsReal (if Flt.lt (XR.fin v.x) (XR.fin 1e-6) then _ else _)
  rw [XR.fin_lt]
  by_cases h : v.x < 1e-6
  · simp only [h, decide_true, if_true]
    show IsReal (if Flt.lt (XR.fin v.z) (XR.fin 1e-6) then _ else _)
    rw [XR.fin_lt]
    by_cases h2 : v.z < 1e-6
    · simp only [h2, decide_true, if_true]; exact isReal_zero
    · simp only [h2, decide_false, Bool.false_eq_true, if_false]
      show IsReal (XR.fin (if v.z < 0 then -1 else 1) * XR.fin Real.pi / 2)
      rw [XR.fin_nat, XR.fin_mul, XR.fin_div _ _ (by norm_num)]
      exact ⟨_, rfl⟩
  · simp only [h, decide_false, Bool.false_eq_true, if_false]
    show IsReal (atan (XR.fin v.z / XR.fin v.x))
    have : v.x ≠ 0 := by
      intro h0; rw [h0] at h; norm_num at h
    rw [XR.fin_div _ _ this]
    exact ⟨_, rfl⟩

end Post
