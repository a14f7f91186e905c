import Verif.Lemmas.Aero
import Verif.Lemmas.Throttle
import Verif.Props.Table
import Verif.Props.State
import Verif.Props.Frames
/-! # Aerodynamic force (C22, C37) and angle of attack (C38) -/

namespace Post
open Spec Flt

/-! ## C22: missing coefficient tables -/

theorem nanToZero_nonNan {F : Type} [LawfulFlt F] (a : F) : isNan (nanToZero a) = false := by
  unfold nanToZero
  cases h : isNan a with
  | true => simp [isNan, LawfulFlt.zero_nonNan]
  | false => simpa using h

/-- C22 (no NaN).  In any arithmetic with the IEEE comparison laws, no component of the
aerodynamic force is NaN, whatever the tables and the state. -/
theorem C22_no_nan {F : Type} [LawfulFlt F] {v : Vehicle F} {s : State F} {f : V3 F}
    (h : v.aeroForce s = .ok f) :
    isNan f.x = false ∧ isNan f.y = false ∧ isNan f.z = false := by
  unfold Vehicle.aeroForce at h
  simp only [bind, Except.bind] at h
  split at h
  · cases h
  split at h
  · cases h
  split at h
  · cases h
  injection h with h
  subst h
  exact ⟨nanToZero_nonNan _, nanToZero_nonNan _, nanToZero_nonNan _⟩

/-- C22 (no NaN in a run).  No state visited by a run has a NaN in its aerodynamic force. -/
theorem C22_visited_no_nan {F : Type} [LawfulFlt F] {p : Phase F} {s : State F}
    (hs : Visited p s) : isNan s.aeroForceBody.x = false ∧ isNan s.aeroForceBody.y = false ∧
      isNan s.aeroForceBody.z = false := by
  obtain ⟨s1, h⟩ := hs.system
  obtain ⟨aero, haero, _, rfl⟩ := Phase.system_ok h
  exact C22_no_nan haero

theorem nanToZero_nan : nanToZero XR.nan = (0 : XR) := rfl
theorem nanToZero_fin (a : ℝ) : nanToZero (XR.fin a) = .fin a := by
  unfold nanToZero
  rw [XR.isNan_fin]
  rfl

/-- The value of a table at a state, `none` standing for a table that has not been given. -/
def Spec.Coefficient (t : Table XR) (s : State XR) : Option XR → Prop
  | none => t = Table.default
  | some c => t.atState s = .ok c

theorem coefficient_value {t : Table XR} {s : State XR} {o : Option XR} (h : Coefficient t s o) :
    t.atState s = .ok (o.getD .nan) := by
  cases o with
  | none => rw [show t = Table.default from h]; rfl
  | some c => exact h

/-- The aerodynamic force from the coefficients, a missing one being NaN before the conversion. -/
theorem aeroForce_eq {v : Vehicle XR} {s : State XR} {od ol oy : Option XR}
    (hd : Coefficient v.dragCoeff s od) (hl : Coefficient v.liftCoeff s ol)
    (hy : Coefficient v.sideForceCoeff s oy) :
    v.aeroForce s = .ok
      ⟨nanToZero (s.dynamicPressure * v.referenceArea *
          -(cos s.alpha * od.getD .nan - sin s.alpha * ol.getD .nan)),
       nanToZero (s.dynamicPressure * v.referenceArea * oy.getD .nan),
       nanToZero (s.dynamicPressure * v.referenceArea *
          -(sin s.alpha * od.getD .nan + cos s.alpha * ol.getD .nan))⟩ := by
  unfold Vehicle.aeroForce
  rw [coefficient_value hd, coefficient_value hl, coefficient_value hy]
  rfl

/-- C22 (no tables).  A vehicle without any coefficient table has zero aerodynamic force in every
state, even if the state holds NaN or infinities. -/
theorem C22_no_tables {v : Vehicle XR} (hd : v.dragCoeff = .default) (hl : v.liftCoeff = .default)
    (hy : v.sideForceCoeff = .default) (s : State XR) : v.aeroForce s = .ok (V3.fin ⟨0, 0, 0⟩) := by
  rw [aeroForce_eq (od := none) (ol := none) (oy := none) hd hl hy]
  simp only [Option.getD_none, XR.mul_nan, XR.nan_add, XR.nan_sub, XR.neg_nan, nanToZero_nan,
    XR.fin_zero]
  rfl

/-- The force that drag, lift and side-force coefficients produce at dynamic pressure `q`,
reference area `S` and angle of attack `α`, in body axes. -/
noncomputable def Spec.coefficientForce (q S α cd cl cy : ℝ) : V3 ℝ :=
  ⟨-(q * S * (Real.cos α * cd - Real.sin α * cl)), q * S * cy,
   -(q * S * (Real.sin α * cd + Real.cos α * cl))⟩

/-- C22 (missing coefficients).  If drag and lift tables are given, a missing side-force table
counts as zero; this is the only coefficient for which "missing counts as zero" holds in general
(see `C22_drag_dropped`, `C22_lift_dropped`). -/
theorem C22_side_missing_partial {v : Vehicle XR} {s : State XR} {q S α cd cl : ℝ}
    (hq : s.dynamicPressure = .fin q) (hS : v.referenceArea = .fin S) (hα : s.alpha = .fin α)
    (hd : v.dragCoeff.atState s = .ok (.fin cd)) (hl : v.liftCoeff.atState s = .ok (.fin cl))
    (hy : v.sideForceCoeff = .default) :
    v.aeroForce s = .ok (coefficientForce q S α cd cl 0).fin := by
  rw [aeroForce_eq (od := some _) (ol := some _) (oy := none) hd hl hy, hq, hS, hα]
  simp only [Option.getD_some, Option.getD_none, XR.fin_cos, XR.fin_sin, XR.fin_mul, XR.fin_add,
    XR.fin_sub, XR.fin_neg, XR.mul_nan, nanToZero_nan, nanToZero_fin, XR.fin_zero]
  simp only [coefficientForce, V3.fin, V3.map, mul_neg, mul_zero]

/-- C22 (what is true of a missing lift table).  Without a lift table, the drag is dropped, too,
and only the side force is left. -/
theorem C22_drag_dropped {v : Vehicle XR} {s : State XR} (hl : v.liftCoeff = .default)
    {cd : XR} {q S cy : ℝ} (hd : v.dragCoeff.atState s = .ok cd)
    (hq : s.dynamicPressure = .fin q) (hS : v.referenceArea = .fin S)
    (hy : v.sideForceCoeff.atState s = .ok (.fin cy)) :
    v.aeroForce s = .ok (V3.fin ⟨0, q * S * cy, 0⟩) := by
  rw [aeroForce_eq (od := some _) (ol := none) (oy := some _) hd hl hy, hq, hS]
  simp only [Option.getD_some, Option.getD_none, XR.fin_mul, XR.add_nan, XR.sub_nan, XR.neg_nan,
    XR.mul_nan, nanToZero_nan, nanToZero_fin, XR.fin_zero]
  rfl

/-- C22 (what is true of a missing drag table).  Without a drag table, the lift is dropped, too. -/
theorem C22_lift_dropped {v : Vehicle XR} {s : State XR} (hd : v.dragCoeff = .default)
    {cl : XR} {q S cy : ℝ} (hl : v.liftCoeff.atState s = .ok cl)
    (hq : s.dynamicPressure = .fin q) (hS : v.referenceArea = .fin S)
    (hy : v.sideForceCoeff.atState s = .ok (.fin cy)) :
    v.aeroForce s = .ok (V3.fin ⟨0, q * S * cy, 0⟩) := by
  rw [aeroForce_eq (od := none) (ol := some _) (oy := some _) hd hl hy, hq, hS]
  simp only [Option.getD_some, Option.getD_none, XR.fin_mul, XR.nan_add, XR.nan_sub, XR.neg_nan,
    XR.mul_nan, nanToZero_nan, nanToZero_fin, XR.fin_zero]
  rfl

/-- A vehicle of reference area 1 with constant drag coefficient 1 and no other table. -/
noncomputable def dragVehicle : Vehicle XR :=
  { (Vehicle.default : Vehicle XR) with
    referenceArea := .fin 1, dragCoeff := .d1 ⟨(.machNumber, [.fin 0]), [.fin 1], .linear⟩ }

/-- C22 is false for missing lift tables: a vehicle with drag coefficient 1 and no lift table has
no drag, although a missing coefficient should count as zero. -/
theorem C22_refuted : ∃ (v : Vehicle XR) (s : State XR),
    v.dragCoeff.atState s = .ok (.fin 1) ∧ v.liftCoeff = .default ∧ v.sideForceCoeff = .default ∧
    s.dynamicPressure = .fin 1 ∧ v.referenceArea = .fin 1 ∧ s.alpha = .fin 0 ∧
    coefficientForce 1 1 0 1 0 0 = ⟨-1, 0, 0⟩ ∧
    v.aeroForce s = .ok (V3.fin ⟨0, 0, 0⟩) := by
  refine ⟨dragVehicle, { (State.default : State XR) with dynamicPressure := .fin 1, alpha := .fin 0 },
    rfl, rfl, rfl, rfl, rfl, rfl, ?_, ?_⟩
  · simp [coefficientForce]
  · rw [aeroForce_eq (v := dragVehicle) (od := some (.fin 1)) (ol := none) (oy := none)
      (show dragVehicle.dragCoeff.atState _ = .ok _ from rfl)
      (show dragVehicle.liftCoeff = _ from rfl) (show dragVehicle.sideForceCoeff = _ from rfl)]
    simp only [Option.getD_some, Option.getD_none, XR.add_nan, XR.sub_nan, XR.neg_nan,
      XR.mul_nan, nanToZero_nan, XR.fin_zero]
    rfl

/-! ## C37: force geometry -/

/-- C37 (components).  With real coefficients the aerodynamic force is that of the coefficients. -/
theorem C37_force {v : Vehicle XR} {s : State XR} {q S α cd cl cy : ℝ}
    (hq : s.dynamicPressure = .fin q) (hS : v.referenceArea = .fin S) (hα : s.alpha = .fin α)
    (hd : v.dragCoeff.atState s = .ok (.fin cd)) (hl : v.liftCoeff.atState s = .ok (.fin cl))
    (hy : v.sideForceCoeff.atState s = .ok (.fin cy)) :
    v.aeroForce s = .ok (coefficientForce q S α cd cl cy).fin := by
  rw [aeroForce_eq (od := some _) (ol := some _) (oy := some _) hd hl hy, hq, hS, hα]
  simp only [Option.getD_some, XR.fin_cos, XR.fin_sin, XR.fin_mul, XR.fin_add,
    XR.fin_sub, XR.fin_neg, nanToZero_fin]
  simp only [coefficientForce, V3.fin, V3.map, mul_neg, mul_zero]

/-- C37 (magnitude).  The force has magnitude `q * S * sqrt (cd^2 + cl^2 + cy^2)`, whatever the
angle of attack. -/
theorem C37_magnitude {v : Vehicle XR} {s : State XR} {q S α cd cl cy : ℝ}
    (hq : s.dynamicPressure = .fin q) (hS : v.referenceArea = .fin S) (hα : s.alpha = .fin α)
    (hd : v.dragCoeff.atState s = .ok (.fin cd)) (hl : v.liftCoeff.atState s = .ok (.fin cl))
    (hy : v.sideForceCoeff.atState s = .ok (.fin cy)) :
    ∃ f : V3 ℝ, v.aeroForce s = .ok f.fin ∧
      rnorm f = |q * S| * Real.sqrt (cd ^ 2 + cl ^ 2 + cy ^ 2) := by
  refine ⟨_, C37_force hq hS hα hd hl hy, ?_⟩
  rw [← Real.sqrt_sq_eq_abs, ← Real.sqrt_mul (sq_nonneg _)]
  unfold rnorm coefficientForce
  congr 1
  have := Real.sin_sq_add_cos_sq α
  linear_combination (q * S) ^ 2 * (cd ^ 2 + cl ^ 2) * this

/-! ## C38: angle of attack -/

theorem lt_fin (a b : ℝ) : Flt.lt (XR.fin a) (.fin b) = true ↔ a < b := gt_fin b a

theorem alpha_forward {w : V3 ℝ} (h : 1e-6 ≤ w.x) :
    Vehicle.alpha w.fin = .fin (Real.arctan (w.z / w.x)) := by
  have h0 : (0 : ℝ) < w.x := lt_of_lt_of_le (by norm_num) h
  unfold Vehicle.alpha NEARLY_ZERO
  rw [XR.fin_sci, if_neg (by
    show ¬ Flt.lt (XR.fin w.x) _ = true
    rw [lt_fin]; exact not_lt.2 (by norm_num at h ⊢; exact h))]
  show Flt.atan (XR.fin w.z / XR.fin w.x) = _
  rw [XR.fin_div _ _ h0.ne', XR.fin_atan]

/-- C38.  For forward air flow the angle of attack lies strictly between -90 and 90 degrees, its
tangent is `vz / vx`, its sign is that of `vz`, and mirroring the flow changes its sign. -/
theorem C38_forward {w : V3 ℝ} (h : 1e-6 ≤ w.x) :
    ∃ α : ℝ, Vehicle.alpha w.fin = .fin α ∧ -(Real.pi / 2) < α ∧ α < Real.pi / 2 ∧
      Real.tan α = w.z / w.x ∧ (α = 0 ↔ w.z = 0) ∧ (0 < α ↔ 0 < w.z) ∧
      Vehicle.alpha (V3.fin ⟨w.x, w.y, -w.z⟩) = .fin (-α) := by
  have h0 : (0 : ℝ) < w.x := lt_of_lt_of_le (by norm_num) h
  refine ⟨_, alpha_forward h, Real.neg_pi_div_two_lt_arctan _, Real.arctan_lt_pi_div_two _,
    Real.tan_arctan _, ?_, ?_, ?_⟩
  · rw [Real.arctan_eq_zero_iff, div_eq_zero_iff]
    exact ⟨fun h => h.resolve_right h0.ne', .inl⟩
  · rw [Real.arctan_pos]
    constructor
    · intro h1
      have := mul_pos h1 h0
      rwa [div_mul_cancel₀ _ h0.ne'] at this
    · exact fun h1 => div_pos h1 h0
  · rw [alpha_forward (w := ⟨w.x, w.y, -w.z⟩) h]
    simp only
    rw [neg_div, Real.arctan_neg]

/-- C38 (no forward flow).  Otherwise the angle of attack is 90 degrees for flow from below and 0
for everything else. -/
theorem C38_not_forward {w : V3 ℝ} (h : w.x < 1e-6) :
    Vehicle.alpha w.fin = .fin (if w.z < 1e-6 then 0 else Real.pi / 2) := by
  unfold Vehicle.alpha NEARLY_ZERO
  rw [XR.fin_sci, if_pos (by
    show Flt.lt (XR.fin w.x) _ = true
    rw [lt_fin]; norm_num at h ⊢; exact h)]
  by_cases hz : w.z < 1e-6
  · rw [if_pos (by
      show Flt.lt (XR.fin w.z) _ = true
      rw [lt_fin]; norm_num at hz ⊢; exact hz), if_pos hz, XR.fin_zero]
  · rw [if_neg (by
      show ¬ Flt.lt (XR.fin w.z) _ = true
      rw [lt_fin]; norm_num at hz ⊢; exact hz), if_neg hz]
    have hz0 : ¬ w.z < 0 := by intro h'; apply hz; linarith [show (0 : ℝ) < 1e-6 by norm_num]
    show XR.fin (if w.z < 0 then -1 else 1) * Flt.pi / 2 = _
    rw [if_neg hz0]
    xr_eval
    rw [XR.fin_div _ _ (by norm_num), one_mul]

/-- C38 is false without forward flow: flow from below gives 90 degrees, the mirrored flow 0. -/
theorem C38_refuted (y : ℝ) : Vehicle.alpha (V3.fin ⟨0, y, 1⟩) = .fin (Real.pi / 2) ∧
    Vehicle.alpha (V3.fin ⟨0, y, -1⟩) = .fin 0 ∧ (0 : ℝ) ≠ -(Real.pi / 2) := by
  refine ⟨?_, ?_, ?_⟩
  · rw [C38_not_forward (by norm_num)]; norm_num
  · rw [C38_not_forward (by norm_num)]; norm_num
  · have := Real.pi_pos; intro h; linarith

/-- C37 (directions).  Let `w` be the velocity relative to the air in body axes, forward, and the
angle of attack the one computed from it.  The part of the force in the direction of flight, seen
in the pitch plane, is `-q * S * cd`, and the part perpendicular to it is `-q * S * cl`; the force
along the second axis is `q * S * cy`. -/
theorem C37_directions {v : Vehicle XR} {s : State XR} {q S cd cl cy : ℝ} {w : V3 ℝ}
    (hq : s.dynamicPressure = .fin q) (hS : v.referenceArea = .fin S)
    (hw : 1e-6 ≤ w.x) (hα : s.alpha = Vehicle.alpha w.fin)
    (hd : v.dragCoeff.atState s = .ok (.fin cd)) (hl : v.liftCoeff.atState s = .ok (.fin cl))
    (hy : v.sideForceCoeff.atState s = .ok (.fin cy)) :
    ∃ f : V3 ℝ, v.aeroForce s = .ok f.fin ∧
      rdot f ⟨w.x, 0, w.z⟩ = -(q * S * cd) * rnorm ⟨w.x, 0, w.z⟩ ∧
      rdot f ⟨-w.z, 0, w.x⟩ = -(q * S * cl) * rnorm ⟨w.x, 0, w.z⟩ ∧
      f.y = q * S * cy := by
  have h0 : (0 : ℝ) < w.x := lt_of_lt_of_le (by norm_num) hw
  rw [alpha_forward hw] at hα
  refine ⟨_, C37_force hq hS hα hd hl hy, ?_, ?_, rfl⟩
  all_goals
    set N := rnorm ⟨w.x, 0, w.z⟩ with hN
    have hN2 : N ^ 2 = w.x ^ 2 + w.z ^ 2 := by rw [hN, rnorm_sq]; ring
    have hNpos : 0 < N := rnorm_pos _ (by intro h; rw [V3.mk.injEq] at h; exact h0.ne' h.1)
    have hsq : Real.sqrt (1 + (w.z / w.x) ^ 2) = N / w.x := by
      rw [show 1 + (w.z / w.x) ^ 2 = (N / w.x) ^ 2 by field_simp; rw [hN2],
        Real.sqrt_sq (by positivity)]
    have hc : Real.cos (Real.arctan (w.z / w.x)) = w.x / N := by
      rw [Real.cos_arctan, hsq]; field_simp
    have hs : Real.sin (Real.arctan (w.z / w.x)) = w.z / N := by
      rw [Real.sin_arctan, hsq]; field_simp
    unfold coefficientForce rdot
    simp only
    rw [hc, hs]
    field_simp
    rw [hN2]
    ring

/-- Without side slip the direction of flight is that of the full air-relative velocity, so the
drag is opposite to it. -/
theorem C37_drag_opposes_motion {v : Vehicle XR} {s : State XR} {q S cd cl cy : ℝ} {w : V3 ℝ}
    (hq : s.dynamicPressure = .fin q) (hS : v.referenceArea = .fin S)
    (hw : 1e-6 ≤ w.x) (hwy : w.y = 0) (hα : s.alpha = Vehicle.alpha w.fin)
    (hd : v.dragCoeff.atState s = .ok (.fin cd)) (hl : v.liftCoeff.atState s = .ok (.fin cl))
    (hy : v.sideForceCoeff.atState s = .ok (.fin cy)) :
    ∃ f : V3 ℝ, v.aeroForce s = .ok f.fin ∧ rdot f w = -(q * S * cd) * rnorm w := by
  obtain ⟨f, h1, h2, _, _⟩ := C37_directions hq hS hw hα hd hl hy
  refine ⟨f, h1, ?_⟩
  have : w = ⟨w.x, 0, w.z⟩ := by rw [← hwy]
  rw [this]
  exact h2

/-- The hypotheses of the theorems above are met, for example, by constant coefficients. -/
example : ∃ (v : Vehicle XR) (s : State XR) (f : V3 ℝ),
    s.dynamicPressure = .fin 2 ∧ v.aeroForce s = .ok f.fin ∧ rnorm f = 26 := by
  let c (k : ℝ) : Table XR := .d1 ⟨(.machNumber, [.fin 0]), [.fin k], .linear⟩
  let v : Vehicle XR := { (Vehicle.default : Vehicle XR) with
    referenceArea := .fin 1, dragCoeff := c 3, liftCoeff := c 4, sideForceCoeff := c 12 }
  let s : State XR := { (State.default : State XR) with
    dynamicPressure := .fin 2, alpha := .fin 0.1 }
  obtain ⟨f, h1, h2⟩ := C37_magnitude (v := v) (s := s) (q := 2) (S := 1) (α := 0.1) (cd := 3)
    (cl := 4) (cy := 12) rfl rfl rfl rfl rfl rfl
  refine ⟨v, s, f, rfl, h1, ?_⟩
  rw [h2, show ((3 : ℝ) ^ 2 + 4 ^ 2 + 12 ^ 2) = 13 ^ 2 by norm_num, Real.sqrt_sq (by norm_num)]
  norm_num

end Post
