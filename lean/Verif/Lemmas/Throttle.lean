import Verif.Spec.Vehicle
import Verif.Lemmas.Vec
/-! # Lemmas about the automatic throttle in exact arithmetic -/

namespace Post
open Spec Flt

theorem rdot_self (v : V3 ℝ) : rdot v v = rnorm v ^ 2 := by
  rw [rnorm_sq]; unfold rdot; ring

theorem rdot_sq_le (v w : V3 ℝ) : rdot v w ^ 2 ≤ rnorm v ^ 2 * rnorm w ^ 2 := by
  rw [rnorm_sq, rnorm_sq]
  unfold rdot
  nlinarith [sq_nonneg (v.x * w.y - v.y * w.x), sq_nonneg (v.x * w.z - v.z * w.x),
    sq_nonneg (v.y * w.z - v.z * w.y)]

theorem abs_rdot_le (v w : V3 ℝ) : |rdot v w| ≤ rnorm v * rnorm w := by
  apply abs_le_of_sq_le_sq
  · rw [mul_pow]; exact rdot_sq_le v w
  · exact mul_nonneg (rnorm_nonneg v) (rnorm_nonneg w)

/-- nalgebra's angle between two non-zero vectors -/
theorem V3.angle_fin {v w : V3 ℝ} (hv : rnorm v ≠ 0) (hw : rnorm w ≠ 0) :
    V3.angle v.fin w.fin = .fin (Real.arccos (rdot v w / (rnorm v * rnorm w))) := by
  have hpos : 0 < rnorm v * rnorm w :=
    mul_pos (lt_of_le_of_ne (rnorm_nonneg v) hv.symm) (lt_of_le_of_ne (rnorm_nonneg w) hw.symm)
  have h := abs_le.1 (abs_rdot_le v w)
  have h1 : rdot v w / (rnorm v * rnorm w) ≤ 1 := by rw [div_le_one hpos]; exact h.2
  have h2 : -1 ≤ rdot v w / (rnorm v * rnorm w) := by rw [le_div_iff₀ hpos]; linarith [h.1]
  unfold V3.angle
  simp only [V3.fin_norm, V3.fin_dot]
  xr_eval
  rw [XR.fin_div _ _ hpos.ne']
  simp only [hv, hw, decide_false, Bool.or_self, Bool.false_eq_true, if_false, Flt.gt]
  xr_eval
  simp only [not_lt.2 h1, not_lt.2 h2, decide_false, Bool.false_eq_true, if_false]
  exact XR.fin_acos _ h2 h1

theorem V3.angle_zero_left {v w : V3 ℝ} (hv : rnorm v = 0) : V3.angle v.fin w.fin = .fin 0 := by
  unfold V3.angle
  simp only [V3.fin_norm]
  xr_eval
  simp [hv]

/-- the squared sensed acceleration as a quadratic function of the thrust -/
theorem rnorm_add_sq (f T : V3 ℝ) (k : ℝ) :
    rnorm (radd f (rscale k T)) ^ 2 = rnorm f ^ 2 + 2 * k * rdot f T + k ^ 2 * rnorm T ^ 2 := by
  rw [rnorm_sq, rnorm_sq, rnorm_sq]
  unfold radd rscale rdot
  ring

theorem V3.sum_fin (l : List (V3 ℝ)) : V3.sum (l.map V3.fin) = (rsum l).fin := by
  have key : ∀ (l : List (V3 ℝ)) (a : V3 ℝ),
      (l.map V3.fin).foldl (· + ·) a.fin = (radd a (rsum l)).fin := by
    intro l
    induction l with
    | nil => intro a; simp [rsum, radd]
    | cons b l ih =>
      intro a
      simp only [List.map_cons, List.foldl_cons, V3.fin_add', ih]
      congr 1
      simp only [radd, rsum, List.map_cons, List.sum_cons, V3.mk.injEq]
      refine ⟨?_, ?_, ?_⟩ <;> ring
  unfold V3.sum
  rw [V3.fin_zero, key]
  simp [radd]

theorem sum_fin (l : List ℝ) : Flt.sum (l.map XR.fin) = .fin l.sum := by
  have key : ∀ (l : List ℝ) (a : ℝ), (l.map XR.fin).foldl (· + ·) (.fin a) = .fin (a + l.sum) := by
    intro l
    induction l with
    | nil => intro a; simp
    | cons b l ih =>
      intro a
      simp only [List.map_cons, List.foldl_cons, XR.fin_add, ih, List.sum_cons]
      congr 1; ring
  unfold Flt.sum
  rw [XR.fin_zero, key, zero_add]

theorem RealEngine_thrust (e : RealEngine) (p : ℝ) :
    e.toEngine.thrust (.fin p) = (e.thrustAt p).fin := by
  unfold Engine.thrust RealEngine.toEngine RealEngine.thrustAt RealEngine.direction V3.mulS rscale
  xr_eval
  simp only [V3.fin, V3.map, V3.mk.injEq, XR.fin_inj]
  refine ⟨?_, ?_, ?_⟩ <;> ring

theorem thrustForce_fin {v : Vehicle XR} {es : List RealEngine} (h : HasEngines v es) (k p : ℝ) :
    v.thrustForce (.fin k) (.fin p) = (rscale k (fullThrust es p)).fin := by
  unfold Vehicle.thrustForce
  rw [show v.engines = es.map (·.toEngine) from h, List.map_map,
    show ((fun e : Engine XR => e.thrust (.fin p)) ∘ fun e : RealEngine => e.toEngine) =
      V3.fin ∘ fun e => e.thrustAt p from funext fun e => RealEngine_thrust e p,
    ← List.map_map, V3.sum_fin, V3.fin_smul']
  rfl

theorem V3.beq_zero_fin (v : V3 ℝ) : V3.beq v.fin V3.zero = decide (v = ⟨0, 0, 0⟩) := by
  rw [V3.fin_zero]
  unfold V3.beq V3.fin V3.map
  xr_eval
  obtain ⟨x, y, z⟩ := v
  rw [Bool.eq_iff_iff]
  simp only [Bool.and_eq_true, decide_eq_true_iff, V3.mk.injEq, and_assoc]

theorem gt_fin (a b : ℝ) : Flt.gt (XR.fin a) (.fin b) = true ↔ b < a := by
  show decide (b < a) = true ↔ _
  simp
theorem eq_fin (a b : ℝ) : Flt.eq (XR.fin a) (.fin b) = true ↔ a = b := by
  rw [XR.fin_eq, decide_eq_true_iff]

theorem clamp01_fin (x : ℝ) :
    clamp01 (XR.fin x) = .fin (if x < 0 then 0 else if 1 < x then 1 else x) := by
  unfold clamp01
  simp only [Flt.gt]
  xr_eval
  by_cases h : x < 0
  · simp only [h, decide_true, if_true]
    xr_eval
    simp
  · simp only [h, decide_false, Bool.false_eq_true, if_false]
    xr_eval
    by_cases h1 : 1 < x <;> simp [h1]

/-- `side_side_angle` in the case that the first side is not shorter: the larger solution. -/
theorem sideSideAngle_long {a b α : ℝ} (hb : 0 < b) (hba : b ≤ a) (h0 : 0 ≤ α) (hπ : α ≤ Real.pi) :
    sideSideAngle (XR.fin a) (.fin b) (.fin α) =
      some (.fin (b * Real.cos α + Real.sqrt (a ^ 2 - (b * Real.sin α) ^ 2))) := by
  have ha : 0 < a := lt_of_lt_of_le hb hba
  unfold sideSideAngle
  simp only [XR.fin_zero, XR.fin_pi]
  by_cases h1 : α = 0
  · subst h1
    rw [if_pos ((eq_fin _ _).2 rfl), if_neg (by rw [gt_fin]; exact not_lt.2 hba), XR.fin_add,
      Real.cos_zero, Real.sin_zero, show a ^ 2 - (b * 0) ^ 2 = a ^ 2 by ring, Real.sqrt_sq ha.le,
      mul_one, add_comm]
  · rw [if_neg (by rw [eq_fin]; exact h1)]
    by_cases h2 : α = Real.pi
    · subst h2
      rw [if_pos ((eq_fin _ _).2 rfl), Real.cos_pi, Real.sin_pi,
        show a ^ 2 - (b * 0) ^ 2 = a ^ 2 by ring, Real.sqrt_sq ha.le, XR.fin_sub]
      congr 2; ring
    · have hs : 0 < Real.sin α :=
        Real.sin_pos_of_pos_of_lt_pi (lt_of_le_of_ne h0 (Ne.symm h1)) (lt_of_le_of_ne hπ h2)
      have hs1 := Real.sin_le_one α
      have hle : Real.sin α * b ≤ a := le_trans (by nlinarith) hba
      rw [if_neg (by rw [eq_fin]; exact h2), XR.fin_sin, XR.fin_mul,
        if_neg (by rw [gt_fin]; exact not_lt.2 hle), XR.fin_div _ _ ha.ne']
      simp only [show ¬ (Flt.gt (XR.fin b) (.fin a) = true) by rw [gt_fin]; exact not_lt.2 hba,
        if_false, Bool.false_eq_true]
      have q1 : -1 ≤ Real.sin α * b / a := by
        have : 0 ≤ Real.sin α * b / a := by positivity
        linarith
      have q2 : Real.sin α * b / a ≤ 1 := by rw [div_le_one ha]; exact hle
      rw [XR.fin_asin _ q1 q2]
      xr_eval
      rw [XR.fin_div _ _ hs.ne']
      congr 2
      rw [show Real.pi - Real.arcsin (Real.sin α * b / a) - α =
        Real.pi - (Real.arcsin (Real.sin α * b / a) + α) by ring, Real.sin_pi_sub, Real.sin_add,
        Real.sin_arcsin q1 q2, Real.cos_arcsin]
      have hsq : a * Real.sqrt (1 - (Real.sin α * b / a) ^ 2) =
          Real.sqrt (a ^ 2 - (b * Real.sin α) ^ 2) := by
        rw [show a ^ 2 - (b * Real.sin α) ^ 2 = a ^ 2 * (1 - (Real.sin α * b / a) ^ 2) by
          field_simp, Real.sqrt_mul (sq_nonneg a), Real.sqrt_sq ha.le]
      rw [← hsq]
      field_simp

/-- `side_side_angle` in the case that the first side is shorter but long enough: the smaller
solution. -/
theorem sideSideAngle_short {a b α : ℝ} (ha : 0 ≤ a) (hab : a < b) (h0 : 0 ≤ α)
    (hπ : α < Real.pi) (hle : b * Real.sin α ≤ a) :
    sideSideAngle (XR.fin a) (.fin b) (.fin α) =
      some (.fin (b * Real.cos α - Real.sqrt (a ^ 2 - (b * Real.sin α) ^ 2))) := by
  have hb : 0 < b := lt_of_le_of_lt ha hab
  unfold sideSideAngle
  simp only [XR.fin_zero, XR.fin_pi]
  by_cases h1 : α = 0
  · subst h1
    rw [if_pos ((eq_fin _ _).2 rfl), if_pos (by rw [gt_fin]; exact hab), XR.fin_sub,
      Real.cos_zero, Real.sin_zero, show a ^ 2 - (b * 0) ^ 2 = a ^ 2 by ring, Real.sqrt_sq ha,
      mul_one]
  · have hs : 0 < Real.sin α := Real.sin_pos_of_pos_of_lt_pi (lt_of_le_of_ne h0 (Ne.symm h1)) hπ
    have ha' : 0 < a := lt_of_lt_of_le (by positivity) hle
    have hle' : Real.sin α * b ≤ a := by linarith
    rw [if_neg (by rw [eq_fin]; exact h1), if_neg (by rw [eq_fin]; exact hπ.ne), XR.fin_sin,
      XR.fin_mul, if_neg (by rw [gt_fin]; exact not_lt.2 hle'), XR.fin_div _ _ ha'.ne']
    simp only [show (Flt.gt (XR.fin b) (.fin a) = true) by rw [gt_fin]; exact hab, if_true]
    have q1 : -1 ≤ Real.sin α * b / a := by
      have : 0 ≤ Real.sin α * b / a := by positivity
      linarith
    have q2 : Real.sin α * b / a ≤ 1 := by rw [div_le_one ha']; exact hle'
    rw [XR.fin_asin _ q1 q2]
    xr_eval
    rw [XR.fin_div _ _ hs.ne']
    congr 2
    rw [show Real.pi - (Real.pi - Real.arcsin (Real.sin α * b / a)) - α =
      Real.arcsin (Real.sin α * b / a) - α by ring, Real.sin_sub,
      Real.sin_arcsin q1 q2, Real.cos_arcsin]
    have hsq : a * Real.sqrt (1 - (Real.sin α * b / a) ^ 2) =
        Real.sqrt (a ^ 2 - (b * Real.sin α) ^ 2) := by
      rw [show a ^ 2 - (b * Real.sin α) ^ 2 = a ^ 2 * (1 - (Real.sin α * b / a) ^ 2) by
        field_simp, Real.sqrt_mul (sq_nonneg a), Real.sqrt_sq ha'.le]
    rw [← hsq]
    field_simp

end Post
