import Verif.Ext
import Verif.Model.Vehicle
/-! # Multiplying extended reals by a positive real -/

namespace Post
open Flt

namespace XR
variable {k : ℝ}

theorem scale_nan : (XR.fin k * .nan : XR) = .nan := rfl
theorem scale_pinf (hk : 0 < k) : (XR.fin k * .pinf : XR) = .pinf := by
  show infMul k = _; simp [infMul, hk]
theorem scale_ninf (hk : 0 < k) : (XR.fin k * .ninf : XR) = .ninf := by
  show infMul (-k) = _; simp [infMul, hk, not_lt.mpr hk.le]
theorem scale_fin (a : ℝ) : (XR.fin k * .fin a : XR) = .fin (k * a) := rfl

theorem infMul_scale (hk : 0 < k) (r : ℝ) : infMul (k * r) = infMul r := by
  have h1 : 0 < k * r ↔ 0 < r := by rw [mul_pos_iff_of_pos_left hk]
  have h2 : k * r < 0 ↔ r < 0 := by rw [mul_neg_iff]; constructor
                                    · rintro (⟨_, h⟩ | ⟨h, _⟩)
                                      · exact h
                                      · linarith
                                    · intro h; exact Or.inl ⟨hk, h⟩
  simp [infMul, h1, h2]

theorem infMul_cases (r : ℝ) : infMul r = .pinf ∨ infMul r = .ninf ∨ infMul r = .nan := by
  unfold infMul; split_ifs <;> simp

theorem scale_infMul (hk : 0 < k) (r : ℝ) : (XR.fin k * infMul r : XR) = infMul r := by
  rcases infMul_cases r with h | h | h <;> rw [h]
  · exact scale_pinf hk
  · exact scale_ninf hk
  · rfl

theorem scale_add (hk : 0 < k) (x y : XR) :
    (XR.fin k * x + XR.fin k * y : XR) = XR.fin k * (x + y) := by
  cases x <;> cases y <;> simp only [scale_nan, scale_pinf hk, scale_ninf hk, scale_fin, nan_add,
    add_nan]
  all_goals first
    | exact (scale_pinf hk).symm
    | exact (scale_ninf hk).symm
    | rfl
    | (rw [fin_add, fin_add, scale_fin, mul_add])

theorem scale_neg (hk : 0 < k) (x : XR) : (-(XR.fin k * x) : XR) = XR.fin k * -x := by
  cases x
  · rfl
  · rw [scale_ninf hk]; exact (scale_pinf hk).symm
  · rw [scale_pinf hk]; exact (scale_ninf hk).symm
  · rw [scale_fin, fin_neg, fin_neg, scale_fin, mul_neg]

theorem sub_eq (x y : XR) : x - y = x + -y := rfl

theorem scale_sub (hk : 0 < k) (x y : XR) :
    (XR.fin k * x - XR.fin k * y : XR) = XR.fin k * (x - y) := by
  rw [sub_eq, sub_eq, scale_neg hk, scale_add hk]

theorem mul_comm' (x y : XR) : x * y = y * x := by
  cases x <;> cases y <;> first | rfl | (rw [fin_mul, fin_mul, mul_comm])

/-- scaling one factor of a product -/
theorem mul_scale (hk : 0 < k) (x y : XR) : (x * (XR.fin k * y) : XR) = XR.fin k * (x * y) := by
  have pf : ∀ a : ℝ, (XR.pinf * .fin a : XR) = infMul a := fun _ => rfl
  have nf : ∀ a : ℝ, (XR.ninf * .fin a : XR) = infMul (-a) := fun _ => rfl
  have fp : ∀ a : ℝ, (XR.fin a * .pinf : XR) = infMul a := fun _ => rfl
  have fn : ∀ a : ℝ, (XR.fin a * .ninf : XR) = infMul (-a) := fun _ => rfl
  cases x <;> cases y <;> simp only [scale_nan, scale_pinf hk, scale_ninf hk, scale_fin, nan_mul,
    mul_nan, fin_mul, pf, nf]
  all_goals first
    | exact (scale_pinf hk).symm
    | exact (scale_ninf hk).symm
    | (rw [fp]; exact (scale_infMul hk _).symm)
    | (rw [fn]; exact (scale_infMul hk _).symm)
    | rw [infMul_scale hk, scale_infMul hk]
    | rw [← mul_neg, infMul_scale hk, scale_infMul hk]
    | (congr 1; ring)

theorem scale_mul (hk : 0 < k) (x y : XR) : (XR.fin k * x * y : XR) = XR.fin k * (x * y) := by
  rw [mul_comm', mul_scale hk, mul_comm' y x]

theorem scale_div (hk : 0 < k) (x y : XR) : (XR.fin k * x / y : XR) = XR.fin k * (x / y) := by
  cases x
  · rw [nan_div]; rfl
  · rw [scale_ninf hk]
    cases y with
    | nan => rfl
    | pinf => rfl
    | ninf => rfl
    | fin b =>
      show (if b < 0 then XR.pinf else .ninf) = XR.fin k * (if b < 0 then XR.pinf else .ninf)
      split
      · exact (scale_pinf hk).symm
      · exact (scale_ninf hk).symm
  · rw [scale_pinf hk]
    cases y with
    | nan => rfl
    | pinf => rfl
    | ninf => rfl
    | fin b =>
      show (if b < 0 then XR.ninf else .pinf) = XR.fin k * (if b < 0 then XR.ninf else .pinf)
      split
      · exact (scale_ninf hk).symm
      · exact (scale_pinf hk).symm
  · rename_i a
    rw [scale_fin]
    cases y with
    | nan => rfl
    | pinf => show XR.fin 0 = XR.fin (k * 0); rw [mul_zero]
    | ninf => show XR.fin 0 = XR.fin (k * 0); rw [mul_zero]
    | fin b =>
      by_cases hb : b = 0
      · rw [hb, fin_div_zero, fin_div_zero, infMul_scale hk, scale_infMul hk]
      · rw [fin_div _ _ hb, fin_div _ _ hb, scale_fin, mul_div_assoc]

theorem scale_div_scale (hk : 0 < k) (x y : XR) :
    (XR.fin k * x / (XR.fin k * y) : XR) = x / y := by
  have hneg : ∀ b : ℝ, k * b < 0 ↔ b < 0 := by
    intro b
    constructor
    · intro h; by_contra h'; exact absurd (mul_nonneg hk.le (not_lt.mp h')) (not_le.mpr h)
    · exact fun h => mul_neg_of_pos_of_neg hk h
  have hd1 : ∀ b : ℝ, (XR.pinf / .fin b : XR) = if b < 0 then .ninf else .pinf := fun _ => rfl
  have hd2 : ∀ b : ℝ, (XR.ninf / .fin b : XR) = if b < 0 then .pinf else .ninf := fun _ => rfl
  cases x <;> cases y <;> simp only [scale_nan, scale_pinf hk, scale_ninf hk, scale_fin]
  all_goals first
    | rfl
    | (rw [hd1, hd1]; simp only [hneg])
    | (rw [hd2, hd2]; simp only [hneg])
    | skip
  rename_i a b
  by_cases hb : b = 0
  · rw [hb, mul_zero, fin_div_zero, fin_div_zero, infMul_scale hk]
  · rw [fin_div _ _ hb, fin_div _ _ (mul_ne_zero hk.ne' hb), mul_div_mul_left _ _ hk.ne']

theorem scale_lt (hk : 0 < k) (x y : XR) :
    Flt.lt (XR.fin k * x) (XR.fin k * y) = Flt.lt x y := by
  cases x <;> cases y <;> simp only [scale_nan, scale_pinf hk, scale_ninf hk, scale_fin]
  all_goals first
    | rfl
    | (rw [fin_lt, fin_lt]; simp [hk])

theorem scale_eq (hk : 0 < k) (x y : XR) :
    Flt.eq (XR.fin k * x) (XR.fin k * y) = Flt.eq x y := by
  cases x <;> cases y <;> simp only [scale_nan, scale_pinf hk, scale_ninf hk, scale_fin]
  all_goals first
    | rfl
    | (rw [fin_eq, fin_eq]; simp [hk.ne'])

theorem scale_zero : (XR.fin k * 0 : XR) = 0 := by
  rw [fin_zero, scale_fin, mul_zero]

theorem scale_eq_zero (hk : 0 < k) (x : XR) : Flt.eq (XR.fin k * x) 0 = Flt.eq x 0 := by
  conv_lhs => rw [← scale_zero (k := k)]
  exact scale_eq hk x 0

theorem scale_isNan (hk : 0 < k) (x : XR) : Flt.isNan (XR.fin k * x) = Flt.isNan x := by
  unfold Flt.isNan; rw [scale_eq hk]

theorem scale_sqrt (hk : 0 < k) (x : XR) :
    Flt.sqrt (XR.fin (k * k) * x) = XR.fin k * Flt.sqrt x := by
  have hkk := mul_pos hk hk
  cases x
  · rfl
  · rw [scale_ninf hkk]; rfl
  · rw [scale_pinf hkk]; exact (scale_pinf hk).symm
  · rename_i a
    rw [scale_fin]
    by_cases ha : a < 0
    · have h1 : Flt.sqrt (XR.fin a) = .nan := by show XR.sqrt _ = _; simp [XR.sqrt, ha]
      have h2 : Flt.sqrt (XR.fin (k * k * a)) = .nan := by
        show XR.sqrt _ = _; simp [XR.sqrt, mul_neg_of_pos_of_neg hkk ha]
      rw [h1, h2]; rfl
    · have ha' := not_lt.mp ha
      rw [fin_sqrt _ ha', fin_sqrt _ (mul_nonneg hkk.le ha'), scale_fin, Real.sqrt_mul hkk.le,
        Real.sqrt_mul_self hk.le]

theorem scale_scale_mul (hk : 0 < k) (x y : XR) :
    (XR.fin k * x * (XR.fin k * y) : XR) = XR.fin (k * k) * (x * y) := by
  rw [scale_mul hk, mul_scale hk]
  rw [← fin_mul k k, scale_mul hk]

end XR

variable {k : ℝ}

theorem V3.scale_add (hk : 0 < k) (a b : V3 XR) :
    V3.smul (.fin k) a + V3.smul (.fin k) b = V3.smul (.fin k) (a + b) := by
  show V3.mk _ _ _ = V3.mk _ _ _
  congr 1 <;> exact XR.scale_add hk _ _

theorem V3.scale_zero : V3.smul (.fin k) (.zero : V3 XR) = .zero := by
  show V3.mk _ _ _ = V3.mk _ _ _
  congr 1 <;> exact XR.scale_zero

theorem V3.scale_dot (hk : 0 < k) (a b : V3 XR) :
    V3.dot (V3.smul (.fin k) a) (V3.smul (.fin k) b) = .fin (k * k) * V3.dot a b := by
  have hkk := mul_pos hk hk
  unfold V3.dot V3.smul
  simp only [XR.scale_scale_mul hk, XR.scale_add hkk]

theorem V3.scale_norm (hk : 0 < k) (a : V3 XR) :
    (V3.smul (.fin k) a).norm = .fin k * a.norm := by
  unfold V3.norm
  rw [V3.scale_dot hk, XR.scale_sqrt hk]

theorem V3.scale_divS (hk : 0 < k) (a : V3 XR) (m : XR) :
    (V3.smul (.fin k) a).divS (.fin k * m) = a.divS m := by
  unfold V3.divS V3.smul
  simp only [XR.scale_div_scale hk]

theorem V3.scale_angle (hk : 0 < k) (a b : V3 XR) :
    V3.angle (V3.smul (.fin k) a) (V3.smul (.fin k) b) = V3.angle a b := by
  have hkk := mul_pos hk hk
  unfold V3.angle
  simp only [V3.scale_norm hk, V3.scale_dot hk, XR.scale_eq_zero hk, XR.scale_scale_mul hk,
    XR.scale_div_scale hkk]

theorem V3.scale_beq_zero (hk : 0 < k) (a : V3 XR) :
    V3.beq (V3.smul (.fin k) a) .zero = V3.beq a .zero := by
  unfold V3.beq V3.smul V3.zero
  simp only [XR.scale_eq_zero hk]

theorem V3.smul_scale (hk : 0 < k) (c : XR) (a : V3 XR) :
    V3.smul c (V3.smul (.fin k) a) = V3.smul (.fin k) (V3.smul c a) := by
  unfold V3.smul
  simp only [XR.mul_scale hk]

theorem V3.scale_sum (hk : 0 < k) (l : List (V3 XR)) :
    V3.sum (l.map (V3.smul (.fin k))) = V3.smul (.fin k) (V3.sum l) := by
  unfold V3.sum
  have : ∀ (l : List (V3 XR)) (z : V3 XR), (l.map (V3.smul (.fin k))).foldl (· + ·)
      (V3.smul (.fin k) z) = V3.smul (.fin k) (l.foldl (· + ·) z) := by
    intro l
    induction l with
    | nil => intro z; rfl
    | cons a l ih => intro z; simp only [List.map_cons, List.foldl_cons, V3.scale_add hk, ih]
  have h := this l .zero
  rwa [V3.scale_zero] at h

theorem scale_fsum (hk : 0 < k) (l : List XR) :
    Flt.sum (l.map (XR.fin k * ·)) = .fin k * Flt.sum l := by
  unfold Flt.sum
  have : ∀ (l : List XR) (z : XR), (l.map (XR.fin k * ·)).foldl (· + ·)
      (XR.fin k * z) = XR.fin k * (l.foldl (· + ·) z) := by
    intro l
    induction l with
    | nil => intro z; rfl
    | cons a l ih => intro z; simp only [List.map_cons, List.foldl_cons, XR.scale_add hk, ih]
  have h := this l 0
  rwa [XR.scale_zero] at h

theorem scale_sideSideAngle (hk : 0 < k) (a b alpha : XR) :
    sideSideAngle (.fin k * a) (.fin k * b) alpha =
      (sideSideAngle a b alpha).map (.fin k * ·) := by
  unfold sideSideAngle
  simp only [XR.scale_lt hk, XR.mul_scale hk, XR.scale_sub hk, XR.scale_add hk,
    XR.scale_div_scale hk, XR.scale_mul hk, XR.scale_div hk, Flt.gt]
  split_ifs <;> rfl

theorem scale_nanToZero (hk : 0 < k) (a : XR) : nanToZero (.fin k * a) = .fin k * nanToZero a := by
  unfold nanToZero
  rw [XR.scale_isNan hk]
  split
  · exact XR.scale_zero.symm
  · rfl

end Post
