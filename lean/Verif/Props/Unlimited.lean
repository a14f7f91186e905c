import Verif.Props.Throttle
import Verif.Props.Frames
import Verif.Props.Planet
/-! # Without an acceleration limit (C15) -/

namespace Post
open Spec Flt

theorem XR.pinf_mul_pos {m : ℝ} (hm : 0 < m) : (XR.pinf * XR.fin m : XR) = .pinf := by
  show XR.mul _ _ = _
  simp [XR.mul, XR.infMul, hm]
theorem XR.pinf_div_pos {b : ℝ} (hb : 0 < b) : (XR.pinf / XR.fin b : XR) = .pinf := by
  show XR.div _ _ = _
  simp [XR.div, not_lt.2 hb.le]
theorem XR.fin_div_pinf (a : ℝ) : (XR.fin a / XR.pinf : XR) = .fin 0 := rfl
theorem XR.pinf_add_fin (a : ℝ) : (XR.pinf + XR.fin a : XR) = .pinf := rfl
theorem XR.pinf_sub_fin (a : ℝ) : (XR.pinf - XR.fin a : XR) = .pinf := rfl
theorem XR.not_gt_pinf (x : XR) : Flt.gt x .pinf = false := by cases x <;> rfl
theorem clamp01_pinf : clamp01 XR.pinf = .fin 1 := by
  unfold clamp01
  rw [XR.fin_zero, XR.fin_one]
  simp [Flt.gt, Flt.lt, XR.lt]
theorem clamp01_nan : clamp01 XR.nan = .nan := by
  unfold clamp01
  simp [Flt.gt, Flt.lt, XR.lt]

/-- `side_side_angle` with an infinite first side. -/
theorem sideSideAngle_pinf {b α : ℝ} (h0 : 0 ≤ α) (hπ : α ≤ Real.pi) :
    sideSideAngle XR.pinf (.fin b) (.fin α) = some .pinf := by
  unfold sideSideAngle
  simp only [XR.fin_zero, XR.fin_pi, XR.not_gt_pinf, Bool.false_eq_true, if_false]
  by_cases h1 : α = 0
  · rw [if_pos ((eq_fin _ _).2 h1), XR.pinf_add_fin]
  · rw [if_neg (by rw [eq_fin]; exact h1)]
    by_cases h2 : α = Real.pi
    · rw [if_pos ((eq_fin _ _).2 h2), XR.pinf_sub_fin]
    · rw [if_neg (by rw [eq_fin]; exact h2), XR.fin_sin, XR.fin_mul, XR.fin_div_pinf,
        XR.fin_asin _ (by norm_num) (by norm_num), Real.arcsin_zero, XR.fin_sub, XR.fin_sub,
        XR.fin_sin, sub_zero, Real.sin_pi_sub]
      have hs : 0 < Real.sin α :=
        Real.sin_pos_of_pos_of_lt_pi (lt_of_le_of_ne h0 (Ne.symm h1)) (lt_of_le_of_ne hπ h2)
      rw [XR.pinf_mul_pos hs, XR.pinf_div_pos hs]

/-- `side_side_angle` with a first side that is not a number. -/
theorem sideSideAngle_nan (b α : ℝ) : sideSideAngle XR.nan (.fin b) (.fin α) = some .nan := by
  unfold sideSideAngle
  simp only [show ∀ x : XR, Flt.gt x .nan = false from fun x => by cases x <;> rfl,
    Bool.false_eq_true, if_false]
  by_cases h1 : Flt.eq (XR.fin α) 0 = true
  · rw [if_pos h1, XR.nan_add]
  · rw [if_neg h1]
    by_cases h2 : Flt.eq (XR.fin α) pi = true
    · rw [if_pos h2, XR.nan_sub]
    · rw [if_neg h2, XR.nan_mul, XR.nan_div]

/-- The angle between aerodynamic force and reversed thrust is between 0 and π. -/
theorem throttle_angle_range {f T : V3 ℝ} (hT : 0 < rnorm T) :
    ∃ α : ℝ, pi - V3.angle f.fin T.fin = XR.fin α ∧ 0 ≤ α ∧ α ≤ Real.pi := by
  by_cases hf : rnorm f = 0
  · exact ⟨Real.pi, by rw [V3.angle_zero_left hf, XR.fin_pi, XR.fin_sub, sub_zero],
      Real.pi_pos.le, le_refl _⟩
  · obtain ⟨α, h1, h2, h3, _⟩ := throttle_angle (lt_of_le_of_ne (rnorm_nonneg f) (Ne.symm hf)) hT
    exact ⟨α, h1, h2, h3⟩

section
variable {v : Vehicle XR} {es : List RealEngine} {m pr : ℝ} {f : V3 ℝ}

theorem fullThrust_one (hE : HasEngines v es) : v.thrustForce 1 (.fin pr) = (fullThrust es pr).fin := by
  rw [XR.fin_one, thrustForce_fin hE]
  congr 1
  simp [rscale]

theorem autoThrottle_of_sideSide (hE : HasEngines v es) (hT : fullThrust es pr ≠ ⟨0, 0, 0⟩)
    {limit mass r : XR}
    (h : sideSideAngle (limit * mass) (.fin (rnorm f))
      (pi - V3.angle f.fin (fullThrust es pr).fin) = some r) :
    v.autoThrottle limit mass (.fin pr) f.fin =
      clamp01 (r / .fin (rnorm (fullThrust es pr))) := by
  unfold Vehicle.autoThrottle
  simp only [fullThrust_one hE, V3.beq_zero_fin, hT, decide_false, Bool.false_eq_true, if_false,
    V3.fin_norm, h]

/-- Without a limit the automatic throttle is 1 for every positive mass, every aerodynamic
force, pressure and engines. -/
theorem autoThrottle_unlimited (hm : 0 < m) (hE : HasEngines v es) :
    v.autoThrottle Flt.inf (.fin m) (.fin pr) f.fin = .fin 1 := by
  by_cases hT0 : fullThrust es pr = ⟨0, 0, 0⟩
  · exact throttle_zero_thrust hE hT0 _ _ _
  · have hT := rnorm_pos _ hT0
    obtain ⟨α, h1, h2, h3⟩ := throttle_angle_range (f := f) hT
    rw [autoThrottle_of_sideSide hE hT0 (r := .pinf)
      (by rw [h1, XR.inf_eq, XR.pinf_mul_pos hm, sideSideAngle_pinf h2 h3]),
      XR.pinf_div_pos hT, clamp01_pinf]

/-- The check of the acceleration limit never fails for its own sake without a limit. -/
theorem exceedsLimit_unlimited {p : Phase XR} (hlim : p.maxAcceleration = Flt.inf) (s : State XR) :
    p.exceedsLimit s = Flt.isNan s.throttle := by
  unfold Phase.exceedsLimit
  have : (p.maxAcceleration * 1.001 : XR) = .pinf := by
    rw [hlim, XR.inf_eq, XR.fin_sci]
    exact XR.pinf_mul_pos (by norm_num)
  rw [this, XR.not_gt_pinf, Bool.false_or]

/-- The angle between two vectors is a real number between 0 and π, or NaN. -/
theorem angle_range (a b : V3 XR) : (pi - V3.angle a b : XR) = .nan ∨
    ∃ α : ℝ, (pi - V3.angle a b : XR) = .fin α ∧ 0 ≤ α ∧ α ≤ Real.pi := by
  have hpi := Real.pi_pos
  have h : V3.angle a b = .nan ∨ ∃ α : ℝ, V3.angle a b = .fin α ∧ 0 ≤ α ∧ α ≤ Real.pi := by
    unfold V3.angle
    simp only
    split
    · exact .inr ⟨0, XR.fin_zero, le_refl _, hpi.le⟩
    · split
      · exact .inr ⟨0, XR.fin_zero, le_refl _, hpi.le⟩
      · split
        · exact .inr ⟨Real.pi, rfl, hpi.le, le_refl _⟩
        · show XR.acos _ = _ ∨ ∃ α : ℝ, XR.acos _ = _ ∧ _
          generalize (a.dot b / (a.norm * b.norm) : XR) = c
          cases c with
          | fin c =>
            unfold XR.acos
            simp only
            split
            · exact .inr ⟨_, rfl, Real.arccos_nonneg _, Real.arccos_le_pi _⟩
            · exact .inl rfl
          | _ => exact .inl rfl
  rcases h with h | ⟨α, h, h1, h2⟩
  · left; rw [h, XR.sub_nan]
  · right; exact ⟨Real.pi - α, by rw [h, XR.fin_pi, XR.fin_sub], by linarith, by linarith⟩

/-- A norm is NaN, positive infinite, or a non-negative real number. -/
theorem norm_cases (a : V3 XR) : a.norm = .nan ∨ a.norm = .pinf ∨ ∃ n : ℝ, a.norm = .fin n ∧ 0 ≤ n := by
  show XR.sqrt _ = _ ∨ XR.sqrt _ = _ ∨ ∃ n : ℝ, XR.sqrt _ = _ ∧ _
  generalize V3.dot a a = c
  cases c with
  | fin c =>
    unfold XR.sqrt
    simp only
    split
    · exact .inl rfl
    · exact .inr (.inr ⟨_, rfl, Real.sqrt_nonneg _⟩)
  | pinf => exact .inr (.inl rfl)
  | _ => exact .inl rfl

theorem XR.eq_nan_left (a : XR) : Flt.eq XR.nan a = false := by cases a <;> rfl

/-- Whatever the second side and the angle between two vectors, an infinite first side gives an
infinite result or NaN. -/
theorem sideSideAngle_pinf_any (u a b : V3 XR) :
    sideSideAngle XR.pinf u.norm (pi - V3.angle a b) = some .pinf ∨
    sideSideAngle XR.pinf u.norm (pi - V3.angle a b) = some .nan := by
  rcases angle_range a b with h | ⟨α, h, h1, h2⟩
  · right
    rw [h]
    unfold sideSideAngle
    simp only [XR.eq_nan_left, XR.not_gt_pinf, Bool.false_eq_true, if_false, XR.sub_nan,
      show (Flt.sin XR.nan : XR) = .nan from rfl, XR.div_nan]
  · rw [h]
    rcases norm_cases u with hu | hu | ⟨n, hu, hn⟩
    · right
      rw [hu]
      unfold sideSideAngle
      simp only [XR.not_gt_pinf, Bool.false_eq_true, if_false, XR.add_nan, XR.sub_nan, XR.mul_nan,
        XR.nan_div, show (Flt.asin XR.nan : XR) = .nan from rfl, XR.nan_sub,
        show (Flt.sin XR.nan : XR) = .nan from rfl, ite_self]
    · rw [hu]
      unfold sideSideAngle
      simp only [XR.not_gt_pinf, Bool.false_eq_true, if_false]
      split
      · left; rfl
      · split
        · right; rfl
        · right
          have hx : ∀ r : ℝ, (XR.fin r * XR.pinf : XR) / XR.pinf = .nan := by
            intro r
            show XR.div (XR.infMul r) _ = _
            unfold XR.infMul
            split
            · rfl
            · split <;> rfl
          rw [XR.fin_sin, hx]
          rfl
    · left
      rw [hu, sideSideAngle_pinf h1 h2]

/-- Without a limit the automatic throttle is 1 or NaN for every positive mass, whatever the
vehicle, pressure and aerodynamic force, infinities and NaN included. -/
theorem autoThrottle_unlimited_any (v : Vehicle XR) (hm : 0 < m) (pr : XR) (aero : V3 XR) :
    v.autoThrottle Flt.inf (.fin m) pr aero = .fin 1 ∨
    v.autoThrottle Flt.inf (.fin m) pr aero = .nan := by
  unfold Vehicle.autoThrottle
  simp only [XR.inf_eq, XR.pinf_mul_pos hm]
  split
  · exact .inl XR.fin_one
  · rcases sideSideAngle_pinf_any aero aero (v.thrustForce 1 pr) with h | h
    · rw [h]
      simp only
      rcases norm_cases (v.thrustForce 1 pr) with hn | hn | ⟨n, hn, h0⟩
      · right; rw [hn, XR.div_nan, clamp01_nan]
      · right; rw [hn]; exact clamp01_nan
      · left
        have : (XR.pinf / XR.fin n : XR) = .pinf := by
          show XR.div _ _ = _
          simp [XR.div, not_lt.2 h0]
        rw [hn, this, clamp01_pinf]
    · rw [h]
      right
      simp only
      rw [XR.nan_div, clamp01_nan]

/-- If the equations of motion without limit succeed in a state of positive mass, the throttle
is 1. -/
theorem system_unlimited_throttle {p : Phase XR} {s s' : State XR}
    (hlim : p.maxAcceleration = Flt.inf) (h : p.system s = .ok s') (hmass : s.mass = .fin m)
    (hm : 0 < m) : s'.throttle = .fin 1 := by
  have hl := Phase.system_limit h
  rw [exceedsLimit_unlimited hlim] at hl
  have hc := system_consistent h
  rw [hc.throttle, hlim, (Phase.system_primary h).2.2.2.2, hmass] at hl ⊢
  rcases autoThrottle_unlimited_any p.vehicle hm s'.pressure s'.aeroForceBody with h1 | h1
  · exact h1
  · rw [h1] at hl; cases hl

/-- C15 (throttle).  In a phase without acceleration limit every visited state of positive mass
has throttle exactly 1, whatever the engines, tables, pressure and aerodynamic force. -/
theorem C15_throttle_one {p : Phase XR} {s : State XR} (hlim : p.maxAcceleration = Flt.inf)
    (hs : Visited p s) (hmass : s.mass = .fin m) (hm : 0 < m) : s.throttle = .fin 1 := by
  obtain ⟨s1, h⟩ := hs.system
  exact system_unlimited_throttle hlim h (by rw [← hmass, (Phase.system_primary h).2.2.2.2]) hm

/-- C15 (no abort).  In a phase without acceleration limit the equations of motion never fail
with the acceleration panic in a state of positive mass and real pressure and aerodynamic
force. -/
theorem C15_never_aborts {p : Phase XR} {s : State XR} (hlim : p.maxAcceleration = Flt.inf)
    (hE : HasEngines p.vehicle es) (hmass : s.mass = .fin m) (hm : 0 < m)
    (hpr : (p.systemPre s).pressure = .fin pr)
    (ha : p.vehicle.aeroForce (p.systemPre s) = .ok f.fin) : ∃ s', p.system s = .ok s' := by
  unfold Phase.system
  simp only [ha, bind, Except.bind]
  rw [exceedsLimit_unlimited hlim]
  have ht : (p.systemForces (p.systemPre s) f.fin).throttle = .fin 1 := by
    show p.vehicle.autoThrottle p.maxAcceleration (p.systemPre s).mass (p.systemPre s).pressure
      f.fin = _
    rw [show (p.systemPre s).mass = s.mass from rfl, hlim, hmass, hpr, autoThrottle_unlimited hm hE]
  rw [ht, XR.isNan_fin]
  exact ⟨_, rfl⟩

/-- C15 (configuration).  A phase runs without acceleration limit if the last `max_acceleration`
entry up to it is -1, or if there is none. -/
theorem C15_configured {cs : List (PhaseConfig XR)} {c : PhaseConfig XR} {p : Phase XR}
    (h : Ready cs c p)
    (hlim : inForce (·.maxAcceleration) (.fin (-1)) (cs ++ [c]) = .fin (-1)) :
    p.maxAcceleration = Flt.inf := by
  have hm1 : (-1 : XR) = .fin (-1) := by xr_eval
  have hl : accelerationLimit (XR.fin (-1)) = Flt.inf := by
    unfold accelerationLimit
    rw [hm1, if_pos ((eq_fin _ _).2 rfl)]
  rw [(C07_parameters_in_force h).maxAcceleration, ← hl, inForce_map, hlim]

/-- C15 fails for massless vehicles: with mass zero and any thrust at all the equations of motion
abort with the acceleration panic although there is no limit. -/
theorem C15_zero_mass_aborts {p : Phase XR} {s : State XR} (hlim : p.maxAcceleration = Flt.inf)
    (hE : HasEngines p.vehicle es) (hmass : s.mass = .fin 0)
    (hpr : (p.systemPre s).pressure = .fin pr)
    (ha : p.vehicle.aeroForce (p.systemPre s) = .ok f.fin)
    (hT : fullThrust es pr ≠ ⟨0, 0, 0⟩) : p.system s = .error .maxAcceleration := by
  apply C32_nan_aborts ha
  obtain ⟨α, h1, _⟩ := throttle_angle_range (f := f) (rnorm_pos _ hT)
  have h0 : (XR.pinf * XR.fin 0 : XR) = .nan := by
    show XR.mul _ _ = _
    simp [XR.mul, XR.infMul]
  rw [hmass, hlim, hpr, autoThrottle_of_sideSide hE hT (r := .nan)
    (by rw [h1, XR.inf_eq, h0, sideSideAngle_nan]), XR.nan_div, clamp01_nan]
  rfl

end

/-- Without engines and without limit the equations of motion always succeed, for every state
and well-formed tables. -/
theorem system_coasting_ok {p : Phase XR} (hlim : p.maxAcceleration = Flt.inf)
    (hE : p.vehicle.engines = []) (ht : p.vehicle.TablesOk) (s : State XR) :
    ∃ s', p.system s = .ok s' := by
  obtain ⟨aero, ha⟩ := Vehicle.aeroForce_ok ht (p.systemPre s)
  unfold Phase.system
  simp only [ha, bind, Except.bind]
  rw [exceedsLimit_unlimited hlim]
  have h1 : (p.systemForces (p.systemPre s) aero).throttle = .fin 1 := by
    show p.vehicle.autoThrottle p.maxAcceleration (p.systemPre s).mass (p.systemPre s).pressure
      aero = _
    have hth : ∀ pr, p.vehicle.thrustForce 1 pr = V3.fin ⟨0, 0, 0⟩ := by
      intro pr
      unfold Vehicle.thrustForce
      rw [hE, List.map_nil]
      show V3.smul 1 V3.zero = _
      rw [V3.fin_zero, XR.fin_one, V3.fin_smul]
      simp
    unfold Vehicle.autoThrottle
    simp only [hth, V3.beq_zero_fin, decide_true, if_true]
    exact XR.fin_one
  rw [h1, XR.isNan_fin]
  exact ⟨_, rfl⟩

/-- A vehicle of 1000 kg on the default planet at 45 degrees north. -/
noncomputable def exampleLaunch : PhaseConfig XR :=
  { PhaseConfig.empty with
    init := some ⟨.fin 45, .fin 10, .fin 90, .fin 0⟩
    vehicle := some ⟨some (.fin 1000), none, none, none, none, none, none⟩ }

/-- The hypotheses of C10-C13 and `C40_launch_site` are met: the example simulation starts. -/
theorem exampleLaunch_started : ∃ s, Started exampleLaunch s := by
  have hnew : Phase.new none exampleLaunch =
      .ok ((Phase.default.applyConfig exampleLaunch).init ⟨.fin 45, .fin 10, .fin 90, .fin 0⟩) := rfl
  have ht : WellFormed (Table.default : Table XR) := by
    unfold Table.default WellFormed AxisFits Ascending
    simp
  obtain ⟨s, hs⟩ := system_coasting_ok
    (p := ((Phase.default.applyConfig exampleLaunch).init
      ⟨.fin 45, .fin 10, .fin 90, .fin 0⟩).reset) rfl rfl ⟨ht, ht, ht⟩
    ((Phase.default.applyConfig exampleLaunch).init
      ⟨.fin 45, .fin 10, .fin 90, .fin 0⟩).reset.state
  exact ⟨s, _, hnew, hs⟩

/-- The example simulation meets all hypotheses of C11, C12 and C13, and so starts on the surface
of its planet, at rest. -/
theorem exampleLaunch_hypotheses : LaunchSite exampleLaunch 45 10 90 ∧
    ∃ (a b ω : ℝ) (gr : Grav XR), IsPlanet (firstPlanet exampleLaunch) a b gr ω ∧ 0 < a ∧ 0 < b := by
  refine ⟨⟨_, rfl⟩, ?_⟩
  obtain ⟨a, b, μ, μ', j2, j2', j3, j4, ω, h1, _, _, hb, hab, _⟩ := C55_presets
  exact ⟨a, a, ω, _, h1, by linarith, by linarith⟩

example : ∃ s, Started exampleLaunch s ∧ s.velocityPlanet = V3.fin ⟨0, 0, 0⟩ := by
  obtain ⟨s, hs⟩ := exampleLaunch_started
  obtain ⟨hl, a, b, ω, gr, hp, ha, hb⟩ := exampleLaunch_hypotheses
  exact ⟨s, hs, (C13_starts_at_rest hs hp ha hb hl).1⟩

end Post
