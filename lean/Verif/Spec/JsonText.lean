import Verif.Model.JsonText
import Mathlib.Data.Rat.Defs
/-! # Specification vocabulary: the grammar of JSON (RFC 8259)

Texts are lists of characters.  Nothing here refers to the parser. -/

namespace Post.Spec

/-- White space: blanks, line feeds, tabs and carriage returns. -/
def Blank (w : List Char) : Prop := ∀ c ∈ w, c = ' ' ∨ c = '\n' ∨ c = '\t' ∨ c = '\r'

/-- The digits as characters. -/
def digitText (ds : List Nat) : List Char := ds.map fun d => Char.ofNat (48 + d)

/-- `exp = [ "e" / "E" [ "-" / "+" ] 1*DIGIT ]` -/
def ExponentText (t : List Char) (neg : Bool) (ds : List Nat) : Prop :=
  (t = [] ∧ neg = false ∧ ds = []) ∨
  ds ≠ [] ∧ ∃ e s, (e = 'e' ∨ e = 'E') ∧ (neg = true ∧ s = ['-'] ∨ neg = false ∧ (s = [] ∨ s = ['+'])) ∧
    t = e :: (s ++ digitText ds)

/-- `number = [ "-" ] int [ "." 1*DIGIT ] [ exp ]`, where `int` has no leading zeros. -/
def NumberText (t : List Char) (x : Decimal) : Prop :=
  (∀ d ∈ x.int ++ x.frac ++ x.exp, d < 10) ∧ x.int ≠ [] ∧ (x.int.head? = some 0 → x.int = [0]) ∧
  ∃ e, ExponentText e x.expNeg x.exp ∧
    t = (if x.neg then ['-'] else []) ++ (digitText x.int ++
      ((if x.frac = [] then [] else '.' :: digitText x.frac) ++ e))

/-- The hexadecimal digit `n`, in lower or upper case. -/
def HexText (c : Char) (n : Nat) : Prop :=
  ("0123456789abcdef".toList[n]? = some c) ∨ ("0123456789ABCDEF".toList[n]? = some c)

/-- Four hexadecimal digits. -/
def Hex4Text (t : List Char) (n : Nat) : Prop :=
  ∃ a b c d i j k l, t = [a, b, c, d] ∧ HexText a i ∧ HexText b j ∧ HexText c k ∧ HexText d l ∧
    n = i * 16 ^ 3 + j * 16 ^ 2 + k * 16 + l

/-- The ways to write a character in a string. -/
inductive CharText : List Char → Char → Prop
  /-- itself, unless it is a control character, a quote or a backslash -/
  | plain {c : Char} : 0x20 ≤ c.toNat → c ≠ '"' → c ≠ '\\' → CharText [c] c
  /-- the short escapes -/
  | short {e c : Char} : (e, c) ∈ [('"', '"'), ('\\', '\\'), ('/', '/'), ('b', Char.ofNat 8), ('f', Char.ofNat 12),
      ('n', Char.ofNat 10), ('r', Char.ofNat 13), ('t', Char.ofNat 9)] → CharText ['\\', e] c
  /-- a code unit of UTF-16 which is no surrogate -/
  | code {t : List Char} {n : Nat} : Hex4Text t n → ¬ (0xD800 ≤ n ∧ n ≤ 0xDFFF) → CharText ('\\' :: 'u' :: t) (Char.ofNat n)
  /-- a surrogate pair -/
  | pair {t u : List Char} {m n : Nat} : Hex4Text t m → 0xD800 ≤ m → m ≤ 0xDBFF → Hex4Text u n → 0xDC00 ≤ n → n ≤ 0xDFFF →
      CharText ('\\' :: 'u' :: (t ++ '\\' :: 'u' :: u)) (Char.ofNat (0x10000 + (m - 0xD800) * 0x400 + (n - 0xDC00)))

/-- The characters between the quotes. -/
inductive CharsText : List Char → List Char → Prop
  | nil : CharsText [] []
  | cons {t u : List Char} {c : Char} {s : List Char} : CharText t c → CharsText u s → CharsText (t ++ u) (c :: s)

/-- `string = quotation-mark *char quotation-mark` -/
def StringText (t : List Char) (s : String) : Prop := ∃ u, CharsText u s.toList ∧ t = '"' :: (u ++ ['"'])

/-- The texts separated by commas. -/
def commas : List (List Char) → List Char
  | [] => []
  | [t] => t
  | t :: u :: r => t ++ ',' :: commas (u :: r)

/-- The text with white space around it. -/
def Spaced (P : List Char → Prop) (t : List Char) : Prop := ∃ w u w', Blank w ∧ Blank w' ∧ P u ∧ t = w ++ (u ++ w')

/-- `t` is a text for the value, with arrays and objects nested at most `n` deep. -/
def ValueText : Nat → List Char → Json Decimal → Prop
  | _, t, .null => t = ['n', 'u', 'l', 'l']
  | _, t, .bool true => t = ['t', 'r', 'u', 'e']
  | _, t, .bool false => t = ['f', 'a', 'l', 's', 'e']
  | _, t, .num x => NumberText t x
  | _, t, .str s => StringText t s
  | 0, _, .arr _ => False
  | 0, _, .obj _ => False
  | _ + 1, t, .arr [] => ∃ w, Blank w ∧ t = '[' :: (w ++ [']'])
  | n + 1, t, .arr (j :: l) =>
    ∃ us, List.Forall₂ (fun u j => Spaced (fun v => ValueText n v j) u) us (j :: l) ∧ t = '[' :: (commas us ++ [']'])
  | _ + 1, t, .obj [] => ∃ w, Blank w ∧ t = '{' :: (w ++ ['}'])
  | n + 1, t, .obj (j :: l) =>
    ∃ us, List.Forall₂ (fun u kj => ∃ k v, u = k ++ ':' :: v ∧ Spaced (fun v => StringText v kj.1) k ∧
        Spaced (fun v => ValueText n v kj.2) v) us (j :: l) ∧
      t = '{' :: (commas us ++ ['}'])

/-- A JSON document: a value, nested at most 127 deep, with white space around it. -/
def DocumentText (t : List Char) (j : Json Decimal) : Prop := Spaced (fun u => ValueText 127 u j) t

/-- The number written with the given decimal digits. -/
def ofDigits : List Nat → Nat
  | [] => 0
  | d :: ds => d * 10 ^ ds.length + ofDigits ds

/-- The number that is meant. -/
def Decimal.value (x : Decimal) : ℚ :=
  (if x.neg then -1 else 1) * (ofDigits (x.int ++ x.frac) : ℚ) * (10 : ℚ) ^ (-(x.frac.length : ℤ)) *
    (10 : ℚ) ^ (if x.expNeg then -(ofDigits x.exp : ℤ) else ofDigits x.exp)

mutual
/-- Every number in the value has the property. -/
def AllNumbers {N : Type} (P : N → Prop) : Json N → Prop
  | .num x => P x
  | .arr l => AllNumbersList P l
  | .obj m => AllNumbersMembers P m
  | _ => True

/-- Every number in the array has the property. -/
def AllNumbersList {N : Type} (P : N → Prop) : List (Json N) → Prop
  | [] => True
  | j :: l => AllNumbers P j ∧ AllNumbersList P l

/-- Every number in the object has the property. -/
def AllNumbersMembers {N : Type} (P : N → Prop) : List (String × Json N) → Prop
  | [] => True
  | (_, j) :: l => AllNumbers P j ∧ AllNumbersMembers P l
end

end Post.Spec
