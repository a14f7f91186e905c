import Verif.Lemmas.NumberF64
import Verif.ShippedText
import Verif.Shipped
/-! # The text of the example mission denotes the mission -/

namespace Post.Txt
open Spec

/-! ## equality of values can be computed -/

mutual
/-- equality of JSON values -/
def same : Json Decimal → Json Decimal → Bool
  | .null, .null => true
  | .bool a, .bool b => a == b
  | .num a, .num b => decide (a = b)
  | .str a, .str b => decide (a = b)
  | .arr a, .arr b => sameList a b
  | .obj a, .obj b => sameMembers a b
  | _, _ => false

/-- equality of arrays -/
def sameList : List (Json Decimal) → List (Json Decimal) → Bool
  | [], [] => true
  | a :: l, b :: m => same a b && sameList l m
  | _, _ => false

/-- equality of objects -/
def sameMembers : List (String × Json Decimal) → List (String × Json Decimal) → Bool
  | [], [] => true
  | (k, a) :: l, (k', b) :: m => decide (k = k') && same a b && sameMembers l m
  | _, _ => false
end

mutual
theorem same_eq : ∀ (a b : Json Decimal), same a b = true → a = b
  | .null, b, h => by cases b <;> simp_all [same]
  | .bool _, b, h => by cases b <;> simp_all [same]
  | .num _, b, h => by cases b <;> simp_all [same]
  | .str _, b, h => by cases b <;> simp_all [same]
  | .arr l, b, h => by
    cases b <;> simp only [same, Bool.false_eq_true] at h
    rw [sameList_eq _ _ h]
  | .obj l, b, h => by
    cases b <;> simp only [same, Bool.false_eq_true] at h
    rw [sameMembers_eq _ _ h]

theorem sameList_eq : ∀ (a b : List (Json Decimal)), sameList a b = true → a = b
  | [], b, h => by cases b <;> simp_all [sameList]
  | a :: l, [], h => by simp [sameList] at h
  | a :: l, b :: m, h => by
    simp only [sameList, Bool.and_eq_true] at h
    rw [same_eq a b h.1, sameList_eq l m h.2]

theorem sameMembers_eq : ∀ (a b : List (String × Json Decimal)), sameMembers a b = true → a = b
  | [], b, h => by cases b <;> simp_all [sameMembers]
  | (k, a) :: l, [], h => by simp [sameMembers] at h
  | (k, a) :: l, (k', b) :: m, h => by
    simp only [sameMembers, Bool.and_eq_true, decide_eq_true_eq] at h
    rw [h.1.1, same_eq a b h.1.2, sameMembers_eq l m h.2]
end

/-! ## numbers that are read exactly -/

/-- the double literal -/
def literal {F : Type} [Flt F] (x : Decimal) : F :=
  let f : F := Flt.ofSci (significand x) (decide (tenPower x < 0)) (tenPower x).natAbs
  if x.neg then -f else f

/-- one rounding is enough -/
def easy (x : Decimal) : Bool := decide (significand x < 2 ^ 53) && decide ((tenPower x).natAbs ≤ 22)

theorem toFloat_easy {L : Libm} {x : Decimal} (h : easy x = true) : (toFloat x : Option (F64 L)) = some (literal x) := by
  unfold easy at h
  simp only [Bool.and_eq_true, decide_eq_true_eq] at h
  unfold toFloat literal
  rw [fromParts_exact h.1 (by rw [← Int.natCast_natAbs]; exact_mod_cast h.2)]
  have e : (⟨Dbl.round false (significand x * 10 ^ tenPower x)⟩ : F64 L) =
      Flt.ofSci (significand x) (decide (tenPower x < 0)) (tenPower x).natAbs := by
    refine f64_ext ?_
    show Dbl.round false _ = Dbl.round false _
    congr 1
    by_cases h0 : tenPower x < 0
    · rw [decide_eq_true h0]
      simp only [if_true]
      obtain ⟨n, hn⟩ : ∃ n : ℕ, tenPower x = -(n : ℤ) := ⟨(tenPower x).natAbs, by omega⟩
      rw [hn, Int.natAbs_neg, Int.natAbs_natCast, zpow_neg, zpow_natCast, div_eq_mul_inv]
    · rw [decide_eq_false h0]
      simp only [Bool.false_eq_true, if_false]
      obtain ⟨n, hn⟩ : ∃ n : ℕ, tenPower x = (n : ℤ) := ⟨(tenPower x).natAbs, by omega⟩
      rw [hn, Int.natAbs_natCast, zpow_natCast]
  rw [e]
  simp only [Option.map_some]

mutual
/-- all numbers are easy -/
def allEasy : Json Decimal → Bool
  | .num x => easy x
  | .arr l => allEasyList l
  | .obj m => allEasyMembers m
  | _ => true

/-- all numbers of an array are easy -/
def allEasyList : List (Json Decimal) → Bool
  | [] => true
  | j :: l => allEasy j && allEasyList l

/-- all numbers of an object are easy -/
def allEasyMembers : List (String × Json Decimal) → Bool
  | [] => true
  | (_, j) :: l => allEasy j && allEasyMembers l
end

mutual
/-- with the numbers as literals -/
def literals {F : Type} [Flt F] : Json Decimal → Json F
  | .null => .null
  | .bool b => .bool b
  | .num x => .num (literal x)
  | .str s => .str s
  | .arr l => .arr (literalsList l)
  | .obj m => .obj (literalsMembers m)

/-- with the numbers as literals -/
def literalsList {F : Type} [Flt F] : List (Json Decimal) → List (Json F)
  | [] => []
  | j :: l => literals j :: literalsList l

/-- with the numbers as literals -/
def literalsMembers {F : Type} [Flt F] : List (String × Json Decimal) → List (String × Json F)
  | [] => []
  | (k, j) :: l => (k, literals j) :: literalsMembers l
end

mutual
theorem floats_easy {L : Libm} : ∀ (j : Json Decimal), allEasy j = true → (floats j : Option (Json (F64 L))) = some (literals j)
  | .null, _ => by simp [floats, literals]
  | .bool _, _ => by simp [floats, literals]
  | .num x, h => by
    simp only [allEasy] at h
    simp [floats, literals, toFloat_easy h]
  | .str _, _ => by simp [floats, literals]
  | .arr l, h => by
    simp only [allEasy] at h
    simp [floats, literals, floatsList_easy l h]
  | .obj l, h => by
    simp only [allEasy] at h
    simp [floats, literals, floatsMembers_easy l h]

theorem floatsList_easy {L : Libm} : ∀ (l : List (Json Decimal)), allEasyList l = true →
    (floatsList l : Option (List (Json (F64 L)))) = some (literalsList l)
  | [], _ => by simp [floatsList, literalsList]
  | j :: l, h => by
    simp only [allEasyList, Bool.and_eq_true] at h
    simp [floatsList, literalsList, floats_easy j h.1, floatsList_easy l h.2]

theorem floatsMembers_easy {L : Libm} : ∀ (l : List (String × Json Decimal)), allEasyMembers l = true →
    (floatsMembers l : Option (List (String × Json (F64 L)))) = some (literalsMembers l)
  | [], _ => by simp [floatsMembers, literalsMembers]
  | (k, j) :: l, h => by
    simp only [allEasyMembers, Bool.and_eq_true] at h
    simp [floatsMembers, literalsMembers, floats_easy j h.1, floatsMembers_easy l h.2]
end

end Post.Txt

namespace Post.Shipped
open Txt

set_option maxRecDepth 100000

theorem parse_text : parse text = some raw := by
  have h : (match parse text with | none => false | some j => same j raw) = true := by decide +kernel
  rcases hp : parse text with _ | j
  · rw [hp] at h
    simp at h
  · rw [hp] at h
    rw [same_eq _ _ h]

theorem raw_easy : allEasy raw = true := by decide +kernel

theorem literals_raw {F : Type} [Flt F] : (literals raw : Json F) = document := by
  rfl

/-- The text of utils/example.json is the example mission. -/
theorem ofText_text {L : Libm} : (File.ofText text : File (F64 L)) = .json document := by
  unfold File.ofText
  rw [parse_text, Option.bind_some, floats_easy _ raw_easy, literals_raw]

end Post.Shipped
