import Verif.Model.Plot
import Verif.F64
/-! # Model of the format `{:.0}` for `f64`

`Phase::run` prints all numbers with `{:.0}` (phase.rs:203-210).  The implementation is in Rust's standard library
(`core::fmt::float`, `core::num::flt2dec`), which is not part of the repository; its documented behaviour is modelled:
the exact value is rounded to an integer, to the nearest one and halves to the even one, and printed in decimal digits
after a minus sign if the sign bit is set (also for -0.0); `NaN` and `inf` are printed as such.  (Before Rust 1.67, 0.5
was printed as `1`.  The theorems only use that the integer is a nearest one.) -/

namespace Post

/-- The nearest integer, of two nearest ones the even one (`flt2dec::strategy::dragon::format_exact`; see the comment at
the head of this file). -/
def nearestEven (a : ℚ) : Nat :=
  let n := a.floor.toNat
  if a - n < 1 / 2 then n
  else if 1 / 2 < a - n then n + 1
  else if n % 2 = 0 then n else n + 1

/-- `format!("{:.0}", x)` as used in phase.rs:203-210 -/
def Dbl.fmt0 : Dbl → List Char
  | .nan => ['N', 'a', 'N']
  | .inf s => (if s then ['-'] else []) ++ ['i', 'n', 'f']
  | .fin s a => (if s then ['-'] else []) ++ Nat.toDigits 10 (nearestEven a)

/-- `format!("{:.0}", x)` as used in phase.rs:203-210 -/
def F64.fmt0 {L : Libm} (x : F64 L) : List Char := x.dbl.fmt0

end Post
