import Verif.Model.Json
/-! # Model of reading the text of a configuration file: `serde_json::from_reader` (lib.rs:42)

The crate serde_json (1.0.115, default features, sim/Cargo.toml:15) is not part of the repository; this is a model of
its `read.rs` and `de.rs`: the grammar, the limit on nesting, and the conversion of numbers, which is *not* always correctly
rounded (the feature `float_roundtrip` is not enabled).  The file is a list of characters: a file that is not UTF-8 is
rejected by serde_json, too.

Simplifications: the exponent of a number is unbounded (serde_json uses `i32` and answers infinity or zero beyond; the
result is the same unless a number has billions of digits); the text of error messages. -/

namespace Post

/-- How a number is written: sign, digits before and after the decimal point, sign and digits of the exponent (the digits
are empty if there is no such part). -/
structure Decimal where
  neg : Bool
  int : List Nat
  frac : List Nat
  expNeg : Bool
  exp : List Nat
deriving DecidableEq

namespace Txt

/-- serde_json `parse_whitespace` (lib.rs:42): blanks, line feeds, tabs and carriage returns are skipped. -/
def isBlank (c : Char) : Bool := c == ' ' || c == '\n' || c == '\t' || c == '\r'

/-- serde_json `parse_whitespace` (lib.rs:42) -/
def ws (cs : List Char) : List Char := cs.dropWhile isBlank

/-- The digit a character stands for (lib.rs:42). -/
def digit? (c : Char) : Option Nat := if 48 ≤ c.toNat && c.toNat ≤ 57 then some (c.toNat - 48) else none

/-- The digits at the beginning of the text (lib.rs:42). -/
def digits : List Char → List Nat × List Char
  | [] => ([], [])
  | c :: r =>
    match digit? c with
    | none => ([], c :: r)
    | some d => (d :: (digits r).1, (digits r).2)

/-- serde_json `parse_decimal` (lib.rs:42): a point must be followed by a digit. -/
def fraction : List Char → Option (List Nat × List Char)
  | '.' :: r => if (digits r).1 = [] then none else some (digits r)
  | r => some ([], r)

/-- The sign of an exponent (lib.rs:42). -/
def expSign : List Char → Bool × List Char
  | '-' :: r => (true, r)
  | '+' :: r => (false, r)
  | r => (false, r)

/-- serde_json `parse_exponent` (lib.rs:42) -/
def exponent : List Char → Option (Bool × List Nat × List Char)
  | [] => some (false, [], [])
  | c :: r =>
    if c = 'e' ∨ c = 'E' then
      if (digits (expSign r).2).1 = [] then none
      else some ((expSign r).1, digits (expSign r).2)
    else some (false, [], c :: r)

/-- The sign of a number (lib.rs:42): there is no `+`. -/
def sign : List Char → Bool × List Char
  | '-' :: r => (true, r)
  | r => (false, r)

/-- serde_json `parse_integer`, `parse_number` (lib.rs:42): a leading zero must not be followed by a digit. -/
def number (cs : List Char) : Option (Decimal × List Char) :=
  let n := digits (sign cs).2
  if n.1 = [] ∨ (n.1.head? = some 0 ∧ n.1 ≠ [0]) then none
  else
    (fraction n.2).bind fun f =>
      (exponent f.2).map fun e => (⟨(sign cs).1, n.1, f.1, e.1, e.2.1⟩, e.2.2)

/-- serde_json `decode_hex_val` (lib.rs:42) -/
def hex? (c : Char) : Option Nat :=
  if 48 ≤ c.toNat && c.toNat ≤ 57 then some (c.toNat - 48)
  else if 65 ≤ c.toNat && c.toNat ≤ 70 then some (c.toNat - 55)
  else if 97 ≤ c.toNat && c.toNat ≤ 102 then some (c.toNat - 87)
  else none

/-- serde_json `decode_hex_escape` (lib.rs:42): four hexadecimal digits. -/
def hex4 : List Char → Option (Nat × List Char)
  | a :: b :: c :: d :: r => do
    return (4096 * (← hex? a) + 256 * (← hex? b) + 16 * (← hex? c) + (← hex? d), r)
  | _ => none

/-- serde_json `parse_escape`, after `\u` (lib.rs:42): a character of the basic plane or a surrogate pair. -/
def unicode (cs : List Char) : Option (Char × List Char) :=
  (hex4 cs).bind fun p =>
    if 0xDC00 ≤ p.1 ∧ p.1 ≤ 0xDFFF then none
    else if 0xD800 ≤ p.1 ∧ p.1 ≤ 0xDBFF then
      match p.2 with
      | '\\' :: 'u' :: r =>
        (hex4 r).bind fun q =>
          if 0xDC00 ≤ q.1 ∧ q.1 ≤ 0xDFFF then
            some (Char.ofNat ((p.1 - 0xD800) * 0x400 + (q.1 - 0xDC00) + 0x10000), q.2)
          else none
      | _ => none
    else some (Char.ofNat p.1, p.2)

/-- serde_json `parse_escape` (lib.rs:42) -/
def escape : List Char → Option (Char × List Char)
  | [] => none
  | c :: r =>
    if c = '"' then some ('"', r)
    else if c = '\\' then some ('\\', r)
    else if c = '/' then some ('/', r)
    else if c = 'b' then some ('\x08', r)
    else if c = 'f' then some ('\x0c', r)
    else if c = 'n' then some ('\n', r)
    else if c = 'r' then some ('\r', r)
    else if c = 't' then some ('\t', r)
    else if c = 'u' then unicode r
    else none

/-- serde_json `parse_str` (lib.rs:42), after the opening quote: control characters are not allowed. -/
def string : Nat → List Char → Option (List Char × List Char)
  | 0, _ => none
  | _ + 1, [] => none
  | fuel + 1, c :: r =>
    if c = '"' then some ([], r)
    else if c = '\\' then
      (escape r).bind fun e => (string fuel e.2).map fun s => (e.1 :: s.1, s.2)
    else if c.toNat < 32 then none
    else (string fuel r).map fun s => (c :: s.1, s.2)

/-- serde_json `parse_ident` (lib.rs:42): the rest of a literal name. -/
def expect : List Char → List Char → Option (List Char)
  | [], r => some r
  | _ :: _, [] => none
  | a :: w, c :: r => if c = a then expect w r else none

mutual
/-- serde_json `deserialize_any` (lib.rs:42): a value and the text behind it; `depth` more levels of nesting are allowed. -/
def value : Nat → Nat → List Char → Option (Json Decimal × List Char)
  | 0, _, _ => none
  | fuel + 1, depth, cs =>
    match ws cs with
    | [] => none
    | c :: r =>
      if c = 'n' then (expect ['u', 'l', 'l'] r).map fun r => (.null, r)
      else if c = 't' then (expect ['r', 'u', 'e'] r).map fun r => (.bool true, r)
      else if c = 'f' then (expect ['a', 'l', 's', 'e'] r).map fun r => (.bool false, r)
      else if c = '"' then (string (r.length + 1) r).map fun s => (.str (String.ofList s.1), s.2)
      else if c = '[' then
        if depth = 0 then none
        else
          match ws r with
          | [] => none
          | c' :: r' => if c' = ']' then some (.arr [], r')
            else (elements fuel (depth - 1) r).map fun l => (.arr l.1, l.2)
      else if c = '{' then
        if depth = 0 then none
        else
          match ws r with
          | [] => none
          | c' :: r' => if c' = '}' then some (.obj [], r')
            else (members fuel (depth - 1) r).map fun l => (.obj l.1, l.2)
      else (number (c :: r)).map fun x => (.num x.1, x.2)

/-- serde_json `SeqAccess` (lib.rs:42): the elements of an array and the closing bracket. -/
def elements : Nat → Nat → List Char → Option (List (Json Decimal) × List Char)
  | 0, _, _ => none
  | fuel + 1, depth, cs =>
    (value fuel depth cs).bind fun v =>
      match ws v.2 with
      | [] => none
      | c :: r =>
        if c = ',' then (elements fuel depth r).map fun l => (v.1 :: l.1, l.2)
        else if c = ']' then some ([v.1], r)
        else none

/-- serde_json `MapAccess` (lib.rs:42): the members of an object and the closing brace. -/
def members : Nat → Nat → List Char → Option (List (String × Json Decimal) × List Char)
  | 0, _, _ => none
  | fuel + 1, depth, cs =>
    match ws cs with
    | [] => none
    | c :: r =>
      if c = '"' then
        (string (r.length + 1) r).bind fun k =>
          match ws k.2 with
          | [] => none
          | c :: r =>
            if c = ':' then
              (value fuel depth r).bind fun v =>
                match ws v.2 with
                | [] => none
                | c :: r =>
                  if c = ',' then (members fuel depth r).map fun l => ((String.ofList k.1, v.1) :: l.1, l.2)
                  else if c = '}' then some ([(String.ofList k.1, v.1)], r)
                  else none
            else none
      else none
end

/-- serde_json `from_reader` (lib.rs:42): one value, nested at most 127 levels, and nothing behind it. -/
def parse (cs : List Char) : Option (Json Decimal) :=
  (value (2 * cs.length + 1) 127 cs).bind fun v => if ws v.2 = [] then some v.1 else none

/-! ## numbers -/

/-- serde_json: digits are appended to the significand as long as it fits into a `u64` (lib.rs:42); the second component is
the number of digits that are ignored. -/
def push (sig : Nat) : List Nat → Nat × Nat
  | [] => (sig, 0)
  | d :: ds => if 2 ^ 64 - 1 < sig * 10 + d then (sig, ds.length + 1) else push (sig * 10 + d) ds

/-- The number written with the given digits (lib.rs:42). -/
def natOf (ds : List Nat) : Nat := ds.foldl (fun n d => n * 10 + d) 0

/-- serde_json `parse_integer`, `parse_long_integer`, `parse_decimal`, `parse_decimal_overflow`, `parse_exponent`
(lib.rs:42): the significand. -/
def significand (x : Decimal) : Nat := (push (push 0 x.int).1 x.frac).1

/-- The same (lib.rs:42): the exponent of ten. -/
def tenPower (x : Decimal) : Int :=
  (push 0 x.int).2 - ((x.frac.length - (push (push 0 x.int).1 x.frac).2 : Nat) : Int) +
    (if x.expNeg then -(natOf x.exp : Int) else natOf x.exp)

variable {F : Type} [Flt F]

/-- serde_json `f64_from_parts` (lib.rs:42) for a negative exponent: division by powers of ten up to `1e308`. -/
def scaleDown : Nat → F → Nat → F
  | 0, f, _ => f
  | k + 1, f, n =>
    if n ≤ 308 then f / Flt.ofSci 1 false n
    else if Flt.eq f 0 then f
    else scaleDown k (f / Flt.ofSci 1 false 308) (n - 308)

/-- serde_json `f64_from_parts` (lib.rs:42) without the sign: `none` is the error `NumberOutOfRange`. -/
def fromParts (sig : Nat) (e : Int) : Option F :=
  let f : F := Flt.ofSci sig false 0
  if e < 0 then some (scaleDown (e.natAbs / 308 + 1) f e.natAbs)
  else if e ≤ 308 then
    let g := f * Flt.ofSci 1 false e.natAbs
    if Flt.eq (Flt.abs g) Flt.inf then none else some g
  else if Flt.eq f 0 then some f
  else none

/-- The `f64` serde_json makes of a number (lib.rs:42). -/
def toFloat (x : Decimal) : Option F :=
  (fromParts (significand x) (tenPower x)).map fun f => if x.neg then -f else f

mutual
/-- All numbers of a value are converted (lib.rs:42). -/
def floats : Json Decimal → Option (Json F)
  | .null => some .null
  | .bool b => some (.bool b)
  | .num x => (toFloat x).map .num
  | .str s => some (.str s)
  | .arr l => (floatsList l).map .arr
  | .obj m => (floatsMembers m).map .obj

/-- the elements of an array (lib.rs:42) -/
def floatsList : List (Json Decimal) → Option (List (Json F))
  | [] => some []
  | j :: l => (floats j).bind fun j' => (floatsList l).map (j' :: ·)

/-- the members of an object (lib.rs:42) -/
def floatsMembers : List (String × Json Decimal) → Option (List (String × Json F))
  | [] => some []
  | (k, j) :: l => (floats j).bind fun j' => (floatsMembers l).map ((k, j') :: ·)
end

end Txt

/-- What the program sees of a configuration file with the given text (lib.rs:39-42). -/
def File.ofText {F : Type} [Flt F] (cs : List Char) : File F :=
  match (Txt.parse cs).bind Txt.floats with
  | none => .notJson
  | some j => .json j

end Post
