import Verif.Num
import Mathlib.Data.Int.Log
import Mathlib.Data.Rat.Floor
import Mathlib.Tactic.Linarith
import Mathlib.Tactic.NormNum
import Mathlib.Tactic.Positivity
/-!
# IEEE-754 binary64

`F64 L` is double-precision arithmetic: NaN, signed infinities, signed zeros, and finite numbers
of the form `m * 2^e` with `|m| < 2^53` and `-1074 ≤ e ≤ 971`.  Addition, subtraction,
multiplication, division and square root are the exact operations followed by rounding to nearest,
ties to even, as IEEE 754 and Rust require; decimal literals are rounded once, too.  The functions
of the C library, whose results IEEE 754 does not fix, and nalgebra's iterative
`Rotation3::from_matrix` are the arbitrary functions `L`.

The theorems of this development about "any arithmetic" and "any arithmetic with the comparison
laws" apply to `F64 L` because of the instance below.
-/

namespace Post

/-- A double: NaN, an infinity, or a sign and a magnitude.  (Rounding makes sure that only
magnitudes on the grid of binary64 occur.) -/
inductive Dbl
  | nan
  | inf (neg : Bool)
  | fin (neg : Bool) (mag : ℚ)
deriving DecidableEq

namespace Dbl

/-- The exponent of the last place of the binary64 number nearest to `a > 0`: 53 significant
bits, but not below `2^-1074`. -/
def exponent (a : ℚ) : ℤ := max (-1074) (Int.log 2 a - 52)

/-- Round to the nearest integer, ties to even. -/
def nearest (y : ℚ) : ℤ :=
  if 2 * (y - ⌊y⌋) < 1 then ⌊y⌋
  else if 1 < 2 * (y - ⌊y⌋) then ⌊y⌋ + 1
  else if ⌊y⌋ % 2 = 0 then ⌊y⌋ else ⌊y⌋ + 1

/-- Round the magnitude `a` to binary64 (without overflow). -/
def roundMag (a : ℚ) : ℚ :=
  if a = 0 then 0 else nearest (a / 2 ^ exponent a) * 2 ^ exponent a

/-- The double nearest to the rational number `q`; a result that is zero gets the sign `s`. -/
def round (s : Bool) (q : ℚ) : Dbl :=
  if q = 0 then .fin s 0
  else if 2 ^ 1024 ≤ roundMag |q| then .inf (decide (q < 0))
  else .fin (decide (q < 0)) (roundMag |q|)

/-- the value of a finite double -/
def val (s : Bool) (a : ℚ) : ℚ := if s then -a else a

/-- negation -/
def neg : Dbl → Dbl
  | nan => nan
  | inf s => inf (!s)
  | fin s a => fin (!s) a

/-- addition; the sum of opposite numbers is `+0`, `-0 + -0 = -0` -/
def add : Dbl → Dbl → Dbl
  | nan, _ => nan
  | _, nan => nan
  | inf s, inf t => if s = t then inf s else nan
  | inf s, fin _ _ => inf s
  | fin _ _, inf t => inf t
  | fin s a, fin t b => round (s && t) (val s a + val t b)

/-- multiplication -/
def mul : Dbl → Dbl → Dbl
  | nan, _ => nan
  | _, nan => nan
  | inf s, inf t => inf (s != t)
  | inf s, fin t b => if b = 0 then nan else inf (s != t)
  | fin s a, inf t => if a = 0 then nan else inf (s != t)
  | fin s a, fin t b => round (s != t) (val s a * val t b)

/-- division -/
def div : Dbl → Dbl → Dbl
  | nan, _ => nan
  | _, nan => nan
  | inf _, inf _ => nan
  | inf s, fin t _ => inf (s != t)
  | fin s _, inf t => fin (s != t) 0
  | fin s a, fin t b =>
    if b = 0 then (if a = 0 then nan else inf (s != t))
    else round (s != t) (val s a / val t b)

/-- `<` -/
def lt : Dbl → Dbl → Bool
  | nan, _ => false
  | _, nan => false
  | inf s, inf t => s && !t
  | inf s, fin _ _ => s
  | fin _ _, inf t => !t
  | fin s a, fin t b => decide (val s a < val t b)

/-- `==` -/
def eq : Dbl → Dbl → Bool
  | nan, _ => false
  | _, nan => false
  | inf s, inf t => s == t
  | inf _, fin _ _ => false
  | fin _ _, inf _ => false
  | fin s a, fin t b => decide (val s a = val t b)

/-- absolute value -/
def abs : Dbl → Dbl
  | nan => nan
  | inf _ => inf false
  | fin _ a => fin false a

/-- The correctly rounded square root of a magnitude: with `e` the exponent of the last place,
the integer nearest to `√(a / 4^e)` times `2^e`.  The root is never exactly between two doubles. -/
def sqrtMag (a : ℚ) : ℚ :=
  if a = 0 then 0
  else
    let e : ℤ := (Int.log 2 a) / 2 - 52
    let y := a / 4 ^ e
    let m := Nat.sqrt ⌊y⌋₊
    let m := if ((m : ℚ) + 1 / 2) ^ 2 < y then m + 1 else m
    m * 2 ^ e

/-- square root; negative numbers give NaN, `-0` gives `-0` -/
def sqrt : Dbl → Dbl
  | nan => nan
  | inf s => if s then nan else inf false
  | fin s a => if a = 0 then fin s 0 else if s then nan else fin false (sqrtMag a)

end Dbl

/-- The functions whose results are not fixed by IEEE 754. -/
structure Libm where
  sin : Dbl → Dbl
  cos : Dbl → Dbl
  tan : Dbl → Dbl
  asin : Dbl → Dbl
  acos : Dbl → Dbl
  atan : Dbl → Dbl
  exp : Dbl → Dbl
  powi : Dbl → Nat → Dbl
  powf : Dbl → Dbl → Dbl
  rotFromMatrix : M3 Dbl → M3 Dbl

/-- Double-precision numbers, computing with the library `L`. -/
structure F64 (L : Libm) where
  dbl : Dbl
deriving DecidableEq

namespace F64

/-- `f64::consts::PI` = 0x400921FB54442D18 = 884279719003555 / 2^48 -/
def piDbl : Dbl := .fin false (884279719003555 / 281474976710656)

instance (L : Libm) : LawfulFlt (F64 L) where
  add a b := ⟨a.dbl.add b.dbl⟩
  sub a b := ⟨a.dbl.add b.dbl.neg⟩
  mul a b := ⟨a.dbl.mul b.dbl⟩
  div a b := ⟨a.dbl.div b.dbl⟩
  neg a := ⟨a.dbl.neg⟩
  ofSci m s e := ⟨.round false (if s then m / 10 ^ e else m * 10 ^ e)⟩
  inf := ⟨.inf false⟩
  nan := ⟨.nan⟩
  pi := ⟨piDbl⟩
  lt a b := a.dbl.lt b.dbl
  eq a b := a.dbl.eq b.dbl
  abs a := ⟨a.dbl.abs⟩
  sqrt a := ⟨a.dbl.sqrt⟩
  sin a := ⟨L.sin a.dbl⟩
  cos a := ⟨L.cos a.dbl⟩
  tan a := ⟨L.tan a.dbl⟩
  asin a := ⟨L.asin a.dbl⟩
  acos a := ⟨L.acos a.dbl⟩
  atan a := ⟨L.atan a.dbl⟩
  exp a := ⟨L.exp a.dbl⟩
  signum a := ⟨match a.dbl with
    | .nan => .nan
    | .inf s => .fin s 1
    | .fin s _ => .fin s 1⟩
  powi a n := ⟨L.powi a.dbl n⟩
  powf a b := ⟨L.powf a.dbl b.dbl⟩
  rotFromMatrix m := (L.rotFromMatrix (m.map F64.dbl)).map F64.mk
  lt_irrefl := by rintro ⟨_ | s | ⟨s, a⟩⟩ <;> simp [Dbl.lt]
  lt_trans := by
    rintro ⟨_ | s | ⟨s, a⟩⟩ ⟨_ | t | ⟨t, b⟩⟩ ⟨_ | u | ⟨u, c⟩⟩ <;> simp [Dbl.lt] <;>
      (intros; first | assumption | (simp_all; done) | (exact lt_trans ‹_› ‹_›))
  lt_nonNan := by
    rintro ⟨_ | s | ⟨s, a⟩⟩ ⟨_ | t | ⟨t, b⟩⟩ <;> simp [Dbl.lt, Dbl.eq]
  lt_total := by
    rintro ⟨_ | s | ⟨s, a⟩⟩ ⟨_ | t | ⟨t, b⟩⟩
    case fin.fin =>
      intro _ _
      simpa [Dbl.lt, Dbl.eq] using lt_trichotomy (Dbl.val s a) (Dbl.val t b)
    all_goals first
      | (cases s <;> cases t <;> simp [Dbl.lt, Dbl.eq]; done)
      | (cases s <;> simp [Dbl.lt, Dbl.eq]; done)
      | (cases t <;> simp [Dbl.lt, Dbl.eq]; done)
      | simp [Dbl.lt, Dbl.eq]
  eq_symm := by
    rintro ⟨_ | s | ⟨s, a⟩⟩ ⟨_ | t | ⟨t, b⟩⟩ <;> simp [Dbl.eq] <;> exact Eq.symm
  eq_trans := by
    rintro ⟨_ | s | ⟨s, a⟩⟩ ⟨_ | t | ⟨t, b⟩⟩ ⟨_ | u | ⟨u, c⟩⟩ <;> simp [Dbl.eq] <;>
      exact Eq.trans
  lt_of_lt_of_eq := by
    rintro ⟨_ | s | ⟨s, a⟩⟩ ⟨_ | t | ⟨t, b⟩⟩ ⟨_ | u | ⟨u, c⟩⟩ <;> simp [Dbl.eq, Dbl.lt] <;>
      (intros; simp_all)
  lt_of_eq_of_lt := by
    rintro ⟨_ | s | ⟨s, a⟩⟩ ⟨_ | t | ⟨t, b⟩⟩ ⟨_ | u | ⟨u, c⟩⟩ <;> simp [Dbl.eq, Dbl.lt] <;>
      (intros; simp_all)
  zero_nonNan := by
    show Dbl.eq (.round false _) (.round false _) = true
    decide +kernel
  one_nonNan := by
    show Dbl.eq (.round false _) (.round false _) = true
    decide +kernel
  zero_lt_one := by
    show Dbl.lt (.round false _) (.round false _) = true
    decide +kernel

end F64
end Post
