import Verif.Props.JsonNotation
/-! # The numbers of the example mission that comes with the program (C102) -/

namespace Post
open Spec Txt

mutual
/-- all numbers have the property -/
def allB (p : Decimal → Bool) : Json Decimal → Bool
  | .num x => p x
  | .arr l => allListB p l
  | .obj m => allMembersB p m
  | _ => true

/-- all numbers of an array have the property -/
def allListB (p : Decimal → Bool) : List (Json Decimal) → Bool
  | [] => true
  | j :: l => allB p j && allListB p l

/-- all numbers of an object have the property -/
def allMembersB (p : Decimal → Bool) : List (String × Json Decimal) → Bool
  | [] => true
  | (_, j) :: l => allB p j && allMembersB p l
end

variable {p : Decimal → Bool} {P : Decimal → Prop}

mutual
theorem allNumbers_of (hp : ∀ x, p x = true → P x) : ∀ j, allB p j = true → AllNumbers P j
  | .null, _ => trivial
  | .bool _, _ => trivial
  | .str _, _ => trivial
  | .num x, h => hp x (by simpa only [allB] using h)
  | .arr l, h => allNumbersList_of hp l (by simpa only [allB] using h)
  | .obj m, h => allNumbersMembers_of hp m (by simpa only [allB] using h)

theorem allNumbersList_of (hp : ∀ x, p x = true → P x) : ∀ l, allListB p l = true → AllNumbersList P l
  | [], _ => trivial
  | j :: l, h => by
    simp only [allListB, Bool.and_eq_true] at h
    exact ⟨allNumbers_of hp j h.1, allNumbersList_of hp l h.2⟩

theorem allNumbersMembers_of (hp : ∀ x, p x = true → P x) : ∀ l, allMembersB p l = true → AllNumbersMembers P l
  | [], _ => trivial
  | (_, j) :: l, h => by
    simp only [allMembersB, Bool.and_eq_true] at h
    exact ⟨allNumbers_of hp j h.1, allNumbersMembers_of hp l h.2⟩
end

/-- whether the number is short -/
def shortB (x : Decimal) : Bool :=
  (x.int ++ x.frac).all (· < 10) && decide ((x.int ++ x.frac).length ≤ 15) &&
  decide (-22 ≤ (if x.expNeg then -(ofDigits x.exp : ℤ) else ofDigits x.exp) - (x.frac.length : ℤ)) &&
  decide ((if x.expNeg then -(ofDigits x.exp : ℤ) else ofDigits x.exp) - (x.frac.length : ℤ) ≤ 22)

theorem short_of (x : Decimal) (h : shortB x = true) : ShortNumber x := by
  simp only [shortB, Bool.and_eq_true, decide_eq_true_eq, List.all_eq_true] at h
  exact ⟨h.1.1.1, h.1.1.2, h.1.2, h.2⟩

set_option maxRecDepth 100000 in
/-- C102 (the shipped file).  Each number in the text of utils/example.json is read as the double nearest to it. -/
theorem C102_shipped {L : Libm} {j : Json Decimal} (h : DocumentText Shipped.text j) :
    AllNumbers (fun x => (Txt.toFloat x : Option (F64 L)) = some ⟨Dbl.round x.neg (Decimal.value x)⟩) j := by
  have e := (parse_iff _ _).2 h
  rw [Shipped.parse_text] at e
  rw [← Option.some.inj e]
  refine allNumbers_of (p := shortB) (fun x hx => ?_) _ (by decide +kernel)
  obtain ⟨h1, h2, h3, h4⟩ := short_of x hx
  exact toFloat_exact h1 h2 (abs_le.2 ⟨h3, h4⟩)

/-- There is such a value, and it has numbers in it. -/
example : ∃ j, DocumentText Shipped.text j ∧ allB (fun _ => false) j = false :=
  ⟨_, (parse_iff _ _).1 Shipped.parse_text, by decide +kernel⟩

end Post
