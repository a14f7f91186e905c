/-!
# Abstract floating-point arithmetic

The Rust code computes with `f64`.  The model is written once, over an arbitrary type `F`
carrying the operations of `f64` that the code uses (`class Flt`).

* Theorems proved for an arbitrary `Flt F` (or `LawfulFlt F`) use nothing about rounding,
  overflow or NaN beyond what the class states, so they speak about the code under *any*
  arithmetic, IEEE-754 binary64 included.
* Theorems about numerical values are proved for the instance `Post.XR` (see `Verif/Ext.lean`):
  exact real arithmetic extended by the IEEE special values NaN, +inf and -inf.
-/

namespace Post

/-- A 3-vector: nalgebra's `Vector3<f64>`. -/
@[ext] structure V3 (F : Type) where
  x : F
  y : F
  z : F
deriving DecidableEq

/-- A 3x3 matrix given by its rows: nalgebra's `Matrix3<f64>` / `Rotation3<f64>`. -/
@[ext] structure M3 (F : Type) where
  r1 : V3 F
  r2 : V3 F
  r3 : V3 F
deriving DecidableEq

/-- The operations of Rust's `f64` (and of nalgebra's `Rotation3::from_matrix`) that the code
uses.  No laws are assumed. -/
class Flt (F : Type) extends Add F, Sub F, Mul F, Div F, Neg F where
  /-- decimal literal `m * 10^(±e)`, as in `OfScientific` -/
  ofSci : Nat → Bool → Nat → F
  /-- `f64::INFINITY` -/
  inf : F
  /-- `f64::NAN` -/
  nan : F
  /-- `std::f64::consts::PI` -/
  pi : F
  /-- `<` on `f64` -/
  lt : F → F → Bool
  /-- `==` on `f64` -/
  eq : F → F → Bool
  abs : F → F
  sqrt : F → F
  sin : F → F
  cos : F → F
  tan : F → F
  asin : F → F
  acos : F → F
  atan : F → F
  exp : F → F
  signum : F → F
  /-- `f64::powi`; the code only uses exponents 0 to 4 -/
  powi : F → Nat → F
  /-- `f64::powf` -/
  powf : F → F → F
  /-- nalgebra's `Rotation3::from_matrix`, an iterative extraction of the rotational part of a
  matrix.  The instances fix its value only on matrices that already are rotations. -/
  rotFromMatrix : M3 F → M3 F

variable {F : Type} [Flt F]

instance (priority := low) : OfScientific F := ⟨Flt.ofSci⟩
instance (priority := low) {n : Nat} : OfNat F n := ⟨Flt.ofSci n false 0⟩

namespace Flt

/-- `a > b` -/
@[reducible] def gt (a b : F) : Bool := lt b a

/-- `f64::is_nan`: `self != self` -/
def isNan (a : F) : Bool := !(eq a a)

/-- `f64::clamp(0., 1.)`: `if self < min {min}`, `if self > max {max}`; its assertion
`min <= max` holds for the constants 0 and 1 used by the code. -/
def clamp01 (a : F) : F :=
  let a1 := if lt a 0 then 0 else a
  if gt a1 1 then 1 else a1

/-- `f64::to_radians`: multiplication by the constant `PI / 180`. -/
def toRadians (a : F) : F := a * (pi / 180)

/-- `f64::to_degrees`: multiplication by the constant `180 / PI`.  (std uses the decimal literal
57.2957795130823208767981548141051703, the nearest `f64` to it.) -/
def toDegrees (a : F) : F := a * (180 / pi)

/-- `Iterator::sum::<f64>()`: left fold from zero. -/
def sum (l : List F) : F := l.foldl (· + ·) 0

end Flt

/-- Laws of comparison satisfied by IEEE-754 `f64` (with or without rounding): `<` is a strict
order, total on the non-NaN values, `==` is compatible with it, and a few facts about
literals. -/
class LawfulFlt (F : Type) extends Flt F where
  lt_irrefl : ∀ a : F, lt a a = false
  lt_trans : ∀ a b c : F, lt a b = true → lt b c = true → lt a c = true
  lt_nonNan : ∀ a b : F, lt a b = true → eq a a = true ∧ eq b b = true
  lt_total : ∀ a b : F, eq a a = true → eq b b = true →
    lt a b = true ∨ eq a b = true ∨ lt b a = true
  eq_symm : ∀ a b : F, eq a b = true → eq b a = true
  eq_trans : ∀ a b c : F, eq a b = true → eq b c = true → eq a c = true
  lt_of_lt_of_eq : ∀ a b c : F, lt a b = true → eq b c = true → lt a c = true
  lt_of_eq_of_lt : ∀ a b c : F, eq a b = true → lt b c = true → lt a c = true
  zero_nonNan : eq (0 : F) 0 = true
  one_nonNan : eq (1 : F) 1 = true
  zero_lt_one : lt (0 : F) 1 = true

/-! ## Vectors and matrices (the part of nalgebra used by the code) -/

namespace V3

/-- `Vector3::zeros()` -/
def zero : V3 F := ⟨0, 0, 0⟩

instance : Add (V3 F) := ⟨fun a b => ⟨a.x + b.x, a.y + b.y, a.z + b.z⟩⟩
instance : Sub (V3 F) := ⟨fun a b => ⟨a.x - b.x, a.y - b.y, a.z - b.z⟩⟩
instance : Neg (V3 F) := ⟨fun a => ⟨-a.x, -a.y, -a.z⟩⟩

/-- `f64 * Vector3` -/
def smul (k : F) (v : V3 F) : V3 F := ⟨k * v.x, k * v.y, k * v.z⟩
/-- `Vector3 * f64` -/
def mulS (v : V3 F) (k : F) : V3 F := ⟨v.x * k, v.y * k, v.z * k⟩
/-- `Vector3 / f64` -/
def divS (v : V3 F) (k : F) : V3 F := ⟨v.x / k, v.y / k, v.z / k⟩
/-- `Vector3::dot` -/
def dot (a b : V3 F) : F := a.x * b.x + a.y * b.y + a.z * b.z
/-- `Vector3::cross` -/
def cross (a b : V3 F) : V3 F :=
  ⟨a.y * b.z - a.z * b.y, a.z * b.x - a.x * b.z, a.x * b.y - a.y * b.x⟩
/-- `Vector3::norm`: square root of the dot product with itself. -/
def norm (a : V3 F) : F := Flt.sqrt (dot a a)
/-- `==` on `Vector3`: all components are equal. -/
def beq (a b : V3 F) : Bool := Flt.eq a.x b.x && Flt.eq a.y b.y && Flt.eq a.z b.z
/-- `Iterator::sum::<Vector3>()`: left fold from the zero vector. -/
def sum (l : List (V3 F)) : V3 F := l.foldl (· + ·) zero

/-- nalgebra's `Matrix::angle`: zero if one of the vectors is zero, otherwise the arc cosine of
the normalised dot product, clamped to [-1, 1]. -/
def angle (a b : V3 F) : F :=
  let n1 := norm a
  let n2 := norm b
  if Flt.eq n1 0 || Flt.eq n2 0 then 0
  else
    let c := dot a b / (n1 * n2)
    if Flt.gt c 1 then 0 else if Flt.lt c (-1) then Flt.pi else Flt.acos c

/-- apply a function to each component -/
def map {F G : Type} (f : F → G) (v : V3 F) : V3 G := ⟨f v.x, f v.y, f v.z⟩

end V3

namespace M3

/-- `Rotation3::transform_vector` / matrix times vector -/
def mulVec (m : M3 F) (v : V3 F) : V3 F := ⟨V3.dot m.r1 v, V3.dot m.r2 v, V3.dot m.r3 v⟩
/-- columns of a matrix as vectors -/
def col1 {F : Type} (m : M3 F) : V3 F := ⟨m.r1.x, m.r2.x, m.r3.x⟩
def col2 {F : Type} (m : M3 F) : V3 F := ⟨m.r1.y, m.r2.y, m.r3.y⟩
def col3 {F : Type} (m : M3 F) : V3 F := ⟨m.r1.z, m.r2.z, m.r3.z⟩
/-- `Rotation3::transpose` -/
def transpose {F : Type} (m : M3 F) : M3 F := ⟨m.col1, m.col2, m.col3⟩
/-- product of two rotations / matrices -/
def mul (a b : M3 F) : M3 F :=
  ⟨⟨V3.dot a.r1 b.col1, V3.dot a.r1 b.col2, V3.dot a.r1 b.col3⟩,
   ⟨V3.dot a.r2 b.col1, V3.dot a.r2 b.col2, V3.dot a.r2 b.col3⟩,
   ⟨V3.dot a.r3 b.col1, V3.dot a.r3 b.col2, V3.dot a.r3 b.col3⟩⟩
instance : Mul (M3 F) := ⟨mul⟩

/-- apply a function to each entry -/
def map {F G : Type} (f : F → G) (m : M3 F) : M3 G := ⟨m.r1.map f, m.r2.map f, m.r3.map f⟩

end M3

end Post
