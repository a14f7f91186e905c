import Verif.Spec.JsonText
/-! # Specification vocabulary: the same configuration in other words -/

namespace Post.Spec

/-- A number with at most 15 digits, the last of which is at most 22 places before or behind the decimal point. -/
def ShortNumber (x : Decimal) : Prop :=
  (∀ d ∈ x.int ++ x.frac, d < 10) ∧ (x.int ++ x.frac).length ≤ 15 ∧
  -22 ≤ (if x.expNeg then -(ofDigits x.exp : ℤ) else ofDigits x.exp) - (x.frac.length : ℤ) ∧
  (if x.expNeg then -(ofDigits x.exp : ℤ) else ofDigits x.exp) - (x.frac.length : ℤ) ≤ 22

/-- Two ways to write a number: the same characters, or two short decimals with the same value and the same sign. -/
def SameNumber (x y : Decimal) : Prop :=
  x = y ∨ ShortNumber x ∧ ShortNumber y ∧ x.neg = y.neg ∧ Decimal.value x = Decimal.value y

mutual
/-- The two values differ only in the order of the members of objects and in their numbers, and these are related by `R`. -/
inductive Reordered {N : Type} (R : N → N → Prop) : Json N → Json N → Prop
  | null : Reordered R .null .null
  | bool (b : Bool) : Reordered R (.bool b) (.bool b)
  | num {x y : N} : R x y → Reordered R (.num x) (.num y)
  | str (s : String) : Reordered R (.str s) (.str s)
  | arr {l l' : List (Json N)} : ReorderedList R l l' → Reordered R (.arr l) (.arr l')
  | obj {m m' : List (String × Json N)} : ReorderedMembers R m m' → Reordered R (.obj m) (.obj m')

/-- The elements of arrays keep their order. -/
inductive ReorderedList {N : Type} (R : N → N → Prop) : List (Json N) → List (Json N) → Prop
  | nil : ReorderedList R [] []
  | cons {j k : Json N} {l m : List (Json N)} : Reordered R j k → ReorderedList R l m → ReorderedList R (j :: l) (k :: m)

/-- The members of objects may change places. -/
inductive ReorderedMembers {N : Type} (R : N → N → Prop) : List (String × Json N) → List (String × Json N) → Prop
  | nil : ReorderedMembers R [] []
  | cons (s : String) {j k : Json N} {l m : List (String × Json N)} :
      Reordered R j k → ReorderedMembers R l m → ReorderedMembers R ((s, j) :: l) ((s, k) :: m)
  | swap (a b : String × Json N) (l : List (String × Json N)) : ReorderedMembers R (a :: b :: l) (b :: a :: l)
  | trans {l m n : List (String × Json N)} : ReorderedMembers R l m → ReorderedMembers R m n → ReorderedMembers R l n
end

mutual
/-- Arrays and objects are nested at most `n` deep. -/
def Nested {N : Type} : Nat → Json N → Prop
  | 0, .arr _ => False
  | 0, .obj _ => False
  | n + 1, .arr l => NestedList n l
  | n + 1, .obj m => NestedMembers n m
  | _, _ => True

/-- The same for the elements of arrays. -/
def NestedList {N : Type} : Nat → List (Json N) → Prop
  | _, [] => True
  | n, j :: l => Nested n j ∧ NestedList n l

/-- The same for the members of objects. -/
def NestedMembers {N : Type} : Nat → List (String × Json N) → Prop
  | _, [] => True
  | n, (_, j) :: l => Nested n j ∧ NestedMembers n l
end

end Post.Spec
