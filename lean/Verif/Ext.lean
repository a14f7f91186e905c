import Verif.Num
import Mathlib.Analysis.SpecialFunctions.Pow.Real
import Mathlib.Analysis.SpecialFunctions.Trigonometric.Arctan
import Mathlib.Analysis.SpecialFunctions.Trigonometric.Inverse
import Mathlib.Analysis.SpecialFunctions.Sqrt
import Mathlib.Tactic.Ring
import Mathlib.Tactic.Linarith
import Mathlib.Tactic.NormNum
import Mathlib.Tactic.FieldSimp
import Mathlib.Tactic.Positivity
/-!
# Exact arithmetic with the IEEE special values

`XR` is the type of real numbers extended by NaN, `+inf` and `-inf`.  Arithmetic on finite
numbers is exact; the special values follow IEEE 754 / the C math library.

Simplifications against `f64`: no rounding, no overflow or underflow, no signed zero (zero is
`+0`), decimal literals and `PI` have their exact values.
-/

namespace Post
open Classical

/-- Extended reals with NaN. -/
inductive XR
  | nan
  | ninf
  | pinf
  | fin (r : ℝ)

namespace XR
noncomputable section

/-- an infinity with the sign of `r`, NaN for zero -/
def infMul (r : ℝ) : XR := if 0 < r then .pinf else if r < 0 then .ninf else .nan

/-- negation -/
def neg : XR → XR
  | .nan => .nan
  | .ninf => .pinf
  | .pinf => .ninf
  | .fin r => .fin (-r)

/-- addition; `inf - inf` is NaN -/
def add : XR → XR → XR
  | .fin a, .fin b => .fin (a + b)
  | .nan, _ => .nan
  | _, .nan => .nan
  | .pinf, .ninf => .nan
  | .ninf, .pinf => .nan
  | .pinf, _ => .pinf
  | _, .pinf => .pinf
  | .ninf, _ => .ninf
  | _, .ninf => .ninf

/-- subtraction -/
def sub (a b : XR) : XR := add a (neg b)

/-- multiplication; `0 * inf` is NaN -/
def mul : XR → XR → XR
  | .fin a, .fin b => .fin (a * b)
  | .nan, _ => .nan
  | _, .nan => .nan
  | .pinf, .pinf => .pinf
  | .pinf, .ninf => .ninf
  | .ninf, .pinf => .ninf
  | .ninf, .ninf => .pinf
  | .pinf, .fin a => infMul a
  | .fin a, .pinf => infMul a
  | .ninf, .fin a => infMul (-a)
  | .fin a, .ninf => infMul (-a)

/-- division; `0 / 0` and `inf / inf` are NaN, `x / 0` is an infinity with the sign of `x` -/
def div : XR → XR → XR
  | .fin a, .fin b => if b = 0 then infMul a else .fin (a / b)
  | .nan, _ => .nan
  | _, .nan => .nan
  | .fin _, .pinf => .fin 0
  | .fin _, .ninf => .fin 0
  | .pinf, .fin b => if b < 0 then .ninf else .pinf
  | .ninf, .fin b => if b < 0 then .pinf else .ninf
  | .pinf, .pinf => .nan
  | .pinf, .ninf => .nan
  | .ninf, .pinf => .nan
  | .ninf, .ninf => .nan

/-- comparison; false if one side is NaN -/
def lt : XR → XR → Bool
  | .fin a, .fin b => decide (a < b)
  | .nan, _ => false
  | _, .nan => false
  | .ninf, .ninf => false
  | .ninf, _ => true
  | _, .ninf => false
  | .pinf, _ => false
  | _, .pinf => true

/-- equality; NaN is not equal to itself -/
def eq : XR → XR → Bool
  | .fin a, .fin b => decide (a = b)
  | .pinf, .pinf => true
  | .ninf, .ninf => true
  | _, _ => false

/-- a real function, NaN on special values -/
def lift (f : ℝ → ℝ) : XR → XR
  | .fin a => .fin (f a)
  | _ => .nan

/-- absolute value -/
def abs : XR → XR
  | .fin a => .fin |a|
  | .nan => .nan
  | _ => .pinf

/-- square root; NaN for negative numbers -/
def sqrt : XR → XR
  | .fin a => if a < 0 then .nan else .fin (Real.sqrt a)
  | .pinf => .pinf
  | _ => .nan

/-- tangent as the quotient of sine and cosine -/
def tan (a : XR) : XR := div (lift Real.sin a) (lift Real.cos a)

/-- arc sine; NaN outside [-1, 1] -/
def asin : XR → XR
  | .fin a => if -1 ≤ a ∧ a ≤ 1 then .fin (Real.arcsin a) else .nan
  | _ => .nan

/-- arc cosine; NaN outside [-1, 1] -/
def acos : XR → XR
  | .fin a => if -1 ≤ a ∧ a ≤ 1 then .fin (Real.arccos a) else .nan
  | _ => .nan

/-- arc tangent -/
def atan : XR → XR
  | .fin a => .fin (Real.arctan a)
  | .pinf => .fin (Real.pi / 2)
  | .ninf => .fin (-(Real.pi / 2))
  | .nan => .nan

/-- exponential function -/
def exp : XR → XR
  | .fin a => .fin (Real.exp a)
  | .pinf => .pinf
  | .ninf => .fin 0
  | .nan => .nan

/-- sign; zero is positive -/
def signum : XR → XR
  | .fin a => .fin (if a < 0 then -1 else 1)
  | .pinf => .fin 1
  | .ninf => .fin (-1)
  | .nan => .nan

/-- power with a natural exponent; `x^0 = 1` for all `x`, NaN included -/
def powi (a : XR) : Nat → XR
  | 0 => .fin 1
  | n + 1 => match a with
    | .fin a => .fin (a ^ (n + 1))
    | .nan => .nan
    | .pinf => .pinf
    | .ninf => if (n + 1) % 2 = 0 then .pinf else .ninf

/-- power with a real exponent.  (A negative base with an integer exponent is not distinguished
from one with a non-integer exponent; the code only raises ratios of temperatures.) -/
def powf : XR → XR → XR
  | .fin a, .fin b =>
    if b = 0 then .fin 1
    else if 0 < a then .fin (a ^ b)
    else if a = 0 then (if 0 < b then .fin 0 else .pinf)
    else .nan
  | .pinf, .fin b => if b = 0 then .fin 1 else if 0 < b then .pinf else .fin 0
  | .ninf, .fin b => if b = 0 then .fin 1 else .nan
  | .nan, .fin b => if b = 0 then .fin 1 else .nan
  | .fin a, .pinf => if a = 1 then .fin 1 else if |a| < 1 then .fin 0 else .pinf
  | .fin a, .ninf => if a = 1 then .fin 1 else if |a| < 1 then .pinf else .fin 0
  | .pinf, .pinf => .pinf
  | .pinf, .ninf => .fin 0
  | _, _ => .nan

end
end XR

/-- A 3x3 real matrix is a proper rotation: its rows are orthonormal and its determinant is 1
(the third row is the cross product of the first two). -/
def M3.IsRotation (m : M3 ℝ) : Prop :=
  m.r1.x ^ 2 + m.r1.y ^ 2 + m.r1.z ^ 2 = 1 ∧
  m.r2.x ^ 2 + m.r2.y ^ 2 + m.r2.z ^ 2 = 1 ∧
  m.r3.x ^ 2 + m.r3.y ^ 2 + m.r3.z ^ 2 = 1 ∧
  m.r1.x * m.r2.x + m.r1.y * m.r2.y + m.r1.z * m.r2.z = 0 ∧
  m.r1.x * m.r3.x + m.r1.y * m.r3.y + m.r1.z * m.r3.z = 0 ∧
  m.r2.x * m.r3.x + m.r2.y * m.r3.y + m.r2.z * m.r3.z = 0 ∧
  m.r1.x * (m.r2.y * m.r3.z - m.r2.z * m.r3.y) - m.r1.y * (m.r2.x * m.r3.z - m.r2.z * m.r3.x)
    + m.r1.z * (m.r2.x * m.r3.y - m.r2.y * m.r3.x) = 1

/-- The (unspecified) result of `Rotation3::from_matrix` on a matrix that is not a rotation. -/
opaque rotFallback (m : M3 XR) : M3 XR := m

/-- nalgebra's `Rotation3::from_matrix`: a rotation matrix is returned unchanged, nothing is
said about other matrices. -/
noncomputable def rotFromMatrixXR (m : M3 XR) : M3 XR :=
  if ∃ r : M3 ℝ, r.IsRotation ∧ m = r.map .fin then m else rotFallback m

noncomputable instance : Flt XR where
  add := XR.add
  sub := XR.sub
  mul := XR.mul
  div := XR.div
  neg := XR.neg
  ofSci m s e := .fin (OfScientific.ofScientific m s e)
  inf := .pinf
  nan := .nan
  pi := .fin Real.pi
  lt := XR.lt
  eq := XR.eq
  abs := XR.abs
  sqrt := XR.sqrt
  sin := XR.lift Real.sin
  cos := XR.lift Real.cos
  tan := XR.tan
  asin := XR.asin
  acos := XR.acos
  atan := XR.atan
  exp := XR.exp
  signum := XR.signum
  powi := XR.powi
  powf := XR.powf
  rotFromMatrix := rotFromMatrixXR

namespace XR
open Flt

/-! ## Evaluation on finite numbers -/

@[simp] theorem fin_inj (a b : ℝ) : XR.fin a = XR.fin b ↔ a = b := by
  constructor
  · intro h; injection h
  · rintro rfl; rfl

theorem fin_add (a b : ℝ) : (XR.fin a + XR.fin b : XR) = .fin (a + b) := rfl
theorem fin_neg (a : ℝ) : (-XR.fin a : XR) = .fin (-a) := rfl
theorem fin_sub (a b : ℝ) : (XR.fin a - XR.fin b : XR) = .fin (a - b) := by
  rw [sub_eq_add_neg]; rfl
theorem fin_mul (a b : ℝ) : (XR.fin a * XR.fin b : XR) = .fin (a * b) := rfl
theorem fin_div (a b : ℝ) (h : b ≠ 0) : (XR.fin a / XR.fin b : XR) = .fin (a / b) := by
  show XR.div _ _ = _
  simp [XR.div, h]
theorem fin_div_zero (a : ℝ) : (XR.fin a / XR.fin 0 : XR) = infMul a := by
  show XR.div _ _ = _
  simp [XR.div]
theorem fin_lt (a b : ℝ) : Flt.lt (XR.fin a) (XR.fin b) = decide (a < b) := rfl
theorem fin_eq (a b : ℝ) : Flt.eq (XR.fin a) (XR.fin b) = decide (a = b) := rfl
theorem fin_abs (a : ℝ) : Flt.abs (XR.fin a) = .fin |a| := rfl
theorem fin_sqrt (a : ℝ) (h : 0 ≤ a) : Flt.sqrt (XR.fin a) = .fin (Real.sqrt a) := by
  show XR.sqrt _ = _
  simp [XR.sqrt, not_lt.mpr h]
theorem fin_sin (a : ℝ) : Flt.sin (XR.fin a) = .fin (Real.sin a) := rfl
theorem fin_cos (a : ℝ) : Flt.cos (XR.fin a) = .fin (Real.cos a) := rfl
theorem fin_tan (a : ℝ) (h : Real.cos a ≠ 0) : Flt.tan (XR.fin a) = .fin (Real.tan a) := by
  show XR.tan _ = _
  simp [XR.tan, XR.lift, XR.div, h, Real.tan_eq_sin_div_cos]
theorem fin_asin (a : ℝ) (h : -1 ≤ a) (h' : a ≤ 1) :
    Flt.asin (XR.fin a) = .fin (Real.arcsin a) := by
  show XR.asin _ = _
  simp [XR.asin, h, h']
theorem fin_acos (a : ℝ) (h : -1 ≤ a) (h' : a ≤ 1) :
    Flt.acos (XR.fin a) = .fin (Real.arccos a) := by
  show XR.acos _ = _
  simp [XR.acos, h, h']
theorem fin_atan (a : ℝ) : Flt.atan (XR.fin a) = .fin (Real.arctan a) := rfl
theorem fin_exp (a : ℝ) : Flt.exp (XR.fin a) = .fin (Real.exp a) := rfl
theorem fin_powi (a : ℝ) (n : ℕ) : Flt.powi (XR.fin a) n = .fin (a ^ n) := by
  show XR.powi _ _ = _
  cases n <;> simp [XR.powi]
theorem fin_powf (a b : ℝ) (h : 0 < a) : Flt.powf (XR.fin a) (XR.fin b) = .fin (a ^ b) := by
  show XR.powf _ _ = _
  by_cases hb : b = 0
  · simp [XR.powf, hb]
  · simp [XR.powf, hb, h]
theorem fin_sci (m : ℕ) (s : Bool) (e : ℕ) :
    (OfScientific.ofScientific m s e : XR) = .fin (OfScientific.ofScientific m s e) := rfl
theorem sci_nat (n : ℕ) : (OfScientific.ofScientific n false 0 : ℝ) = n := by
  rw [← NNRat.cast_ofScientific]
  rw [show (OfScientific.ofScientific n false 0 : ℚ≥0) = (n : ℚ≥0) from ?_]
  · exact NNRat.cast_natCast n
  · apply NNRat.coe_injective
    rw [NNRat.cast_ofScientific]
    simp [Rat.ofScientific_def, OfScientific.ofScientific]
    rfl
theorem fin_nat (n : ℕ) [n.AtLeastTwo] : (OfNat.ofNat n : XR) = .fin (OfNat.ofNat n) := by
  show XR.fin (OfScientific.ofScientific n false 0) = _
  rw [sci_nat]; rfl
theorem fin_zero : (0 : XR) = .fin 0 := by
  show XR.fin (OfScientific.ofScientific 0 false 0) = _
  congr 1
  norm_num
theorem fin_one : (1 : XR) = .fin 1 := by
  show XR.fin (OfScientific.ofScientific 1 false 0) = _
  congr 1
  norm_num
theorem fin_pi : (Flt.pi : XR) = .fin Real.pi := rfl
theorem inf_eq : (Flt.inf : XR) = .pinf := rfl
theorem nan_eq : (Flt.nan : XR) = .nan := rfl

/-! ## NaN and infinities -/

theorem isNan_fin (a : ℝ) : Flt.isNan (XR.fin a) = false := by
  simp [Flt.isNan, fin_eq]
theorem isNan_iff (a : XR) : Flt.isNan a = true ↔ a = .nan := by
  cases a <;> simp [Flt.isNan, Flt.eq, XR.eq]
theorem nan_add (a : XR) : (XR.nan + a : XR) = .nan := by cases a <;> rfl
theorem add_nan (a : XR) : (a + XR.nan : XR) = .nan := by cases a <;> rfl
theorem nan_sub (a : XR) : (XR.nan - a : XR) = .nan := by cases a <;> rfl
theorem sub_nan (a : XR) : (a - XR.nan : XR) = .nan := by cases a <;> rfl
theorem nan_mul (a : XR) : (XR.nan * a : XR) = .nan := by cases a <;> rfl
theorem mul_nan (a : XR) : (a * XR.nan : XR) = .nan := by cases a <;> rfl
theorem nan_div (a : XR) : (XR.nan / a : XR) = .nan := by cases a <;> rfl
theorem div_nan (a : XR) : (a / XR.nan : XR) = .nan := by cases a <;> rfl
theorem neg_nan : (-XR.nan : XR) = .nan := rfl

/-- The comparison laws required of a floating-point type hold. -/
noncomputable instance : LawfulFlt XR where
  lt_irrefl a := by cases a <;> simp [Flt.lt, XR.lt]
  lt_trans a b c := by
    cases a <;> cases b <;> cases c <;> simp [Flt.lt, XR.lt]
    intro h h'; exact lt_trans h h'
  lt_nonNan a b := by cases a <;> cases b <;> simp [Flt.lt, Flt.eq, XR.lt, XR.eq]
  lt_total a b := by
    cases a <;> cases b <;> simp [Flt.lt, Flt.eq, XR.lt, XR.eq]
    exact lt_trichotomy _ _
  eq_symm a b := by
    cases a <;> cases b <;> simp [Flt.eq, XR.eq]
    intro h; exact h.symm
  eq_trans a b c := by
    cases a <;> cases b <;> cases c <;> simp [Flt.eq, XR.eq]
    intro h h'; exact h.trans h'
  lt_of_lt_of_eq a b c := by
    cases a <;> cases b <;> cases c <;> simp [Flt.lt, Flt.eq, XR.lt, XR.eq]
    intro h h'; exact h' ▸ h
  lt_of_eq_of_lt a b c := by
    cases a <;> cases b <;> cases c <;> simp [Flt.lt, Flt.eq, XR.lt, XR.eq]
    intro h h'; exact h ▸ h'
  zero_nonNan := by rw [fin_zero]; simp [fin_eq]
  one_nonNan := by rw [fin_one]; simp [fin_eq]
  zero_lt_one := by rw [fin_zero, fin_one]; simp [fin_lt]

end XR

/-- Evaluate arithmetic on finite extended reals (everything that needs no side condition). -/
macro "xr_eval" : tactic => `(tactic| simp only [XR.fin_add, XR.fin_sub, XR.fin_neg, XR.fin_mul,
  XR.fin_lt, XR.fin_eq, XR.fin_abs, XR.fin_sin, XR.fin_cos, XR.fin_atan, XR.fin_exp, XR.fin_powi,
  XR.fin_sci, XR.fin_nat, XR.fin_zero, XR.fin_one, XR.fin_pi])

/-! ## Finite vectors and matrices -/

/-- A real vector as a vector of extended reals. -/
def V3.fin (v : V3 ℝ) : V3 XR := v.map XR.fin
/-- A real matrix as a matrix of extended reals. -/
def M3.fin (m : M3 ℝ) : M3 XR := m.map XR.fin

theorem rotFromMatrix_fin (m : M3 ℝ) (h : m.IsRotation) :
    Flt.rotFromMatrix (F := XR) m.fin = m.fin := by
  show rotFromMatrixXR _ = _
  unfold rotFromMatrixXR
  rw [if_pos]
  exact ⟨m, h, rfl⟩

/-- Euclidean dot product of real vectors -/
def rdot (a b : V3 ℝ) : ℝ := a.x * b.x + a.y * b.y + a.z * b.z
/-- Euclidean norm of a real vector -/
noncomputable def rnorm (a : V3 ℝ) : ℝ := Real.sqrt (a.x ^ 2 + a.y ^ 2 + a.z ^ 2)

theorem V3.fin_dot (a b : V3 ℝ) : V3.dot a.fin b.fin = XR.fin (rdot a b) := rfl
theorem V3.fin_add (a b : V3 ℝ) :
    (a.fin + b.fin : V3 XR) = V3.fin ⟨a.x + b.x, a.y + b.y, a.z + b.z⟩ := rfl
theorem V3.fin_sub (a b : V3 ℝ) :
    (a.fin - b.fin : V3 XR) = V3.fin ⟨a.x - b.x, a.y - b.y, a.z - b.z⟩ := by
  show V3.mk _ _ _ = _
  simp [V3.fin, V3.map, XR.fin_sub]
theorem V3.fin_smul (k : ℝ) (a : V3 ℝ) :
    V3.smul (XR.fin k) a.fin = V3.fin ⟨k * a.x, k * a.y, k * a.z⟩ := rfl
theorem V3.fin_norm (a : V3 ℝ) : V3.norm a.fin = XR.fin (rnorm a) := by
  unfold V3.norm rnorm
  rw [V3.fin_dot, XR.fin_sqrt _ (by unfold rdot; nlinarith [mul_self_nonneg a.x, mul_self_nonneg a.y, mul_self_nonneg a.z])]
  simp [rdot, pow_two]
theorem V3.fin_zero : (V3.zero : V3 XR) = V3.fin ⟨0, 0, 0⟩ := by
  simp [V3.zero, V3.fin, V3.map, XR.fin_zero]
theorem rnorm_nonneg (a : V3 ℝ) : 0 ≤ rnorm a := Real.sqrt_nonneg _
theorem rnorm_sq (a : V3 ℝ) : rnorm a ^ 2 = a.x ^ 2 + a.y ^ 2 + a.z ^ 2 :=
  Real.sq_sqrt (by positivity)
theorem rnorm_eq_zero (a : V3 ℝ) : rnorm a = 0 ↔ a = ⟨0, 0, 0⟩ := by
  constructor
  · intro h
    have h2 := rnorm_sq a
    rw [h] at h2
    ext
    · show a.x = 0; nlinarith [sq_nonneg a.x, sq_nonneg a.y, sq_nonneg a.z]
    · show a.y = 0; nlinarith [sq_nonneg a.x, sq_nonneg a.y, sq_nonneg a.z]
    · show a.z = 0; nlinarith [sq_nonneg a.x, sq_nonneg a.y, sq_nonneg a.z]
  · rintro rfl; simp [rnorm]
theorem rnorm_pos (a : V3 ℝ) (h : a ≠ ⟨0, 0, 0⟩) : 0 < rnorm a :=
  lt_of_le_of_ne (rnorm_nonneg a) fun h' => h ((rnorm_eq_zero a).1 h'.symm)

end Post
