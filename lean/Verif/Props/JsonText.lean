import Verif.Lemmas.ShippedText
import Verif.Lemmas.NumberClose
import Verif.Props.Print
/-! # The text of the configuration file (C101) and the numbers in it (C102) -/

namespace Post
open Spec Txt

variable {L : Libm} {F : Type} [Flt F]

/-- C101 (grammar).  The reader accepts a text exactly if it is a JSON document according to RFC 8259, nested at most 127
deep, and reads the value the document denotes. -/
theorem C101_grammar (t : List Char) (j : Json Decimal) : Txt.parse t = some j ↔ DocumentText t j := parse_iff t j

/-- C101 (one meaning).  A text denotes at most one value. -/
theorem C101_unambiguous {t : List Char} {j j' : Json Decimal} (h : DocumentText t j) (h' : DocumentText t j') : j = j' := by
  rw [← parse_iff] at h h'
  rw [h] at h'
  exact Option.some.inj h'

/-- C101 (layout).  The program does the same for two files that denote the same value, however they are laid out and
however their characters are escaped. -/
theorem C101_layout {t t' : List Char} {j : Json Decimal} (h : DocumentText t j) (h' : DocumentText t' j) (fuel : Nat) :
    main fuel (File.ofText t : File F) = main fuel (File.ofText t') := by
  have e : (File.ofText t : File F) = File.ofText t' := by
    unfold File.ofText
    rw [(parse_iff t j).2 h, (parse_iff t' j).2 h']
  rw [e]

/-- C101 (rejection).  A file which is no JSON document is reported, and nothing is simulated and printed. -/
theorem C101_rejected {t : List Char} (h : ∀ j, ¬ DocumentText t j) (fuel : Nat) :
    main fuel (File.ofText t : File F) = some ([], .loadError) := by
  have e : Txt.parse t = none := by
    rcases hp : Txt.parse t with _ | j
    · rfl
    · exact absurd ((parse_iff t j).1 hp) (h j)
  unfold File.ofText
  rw [e]
  rfl

/-- C101 (the shipped file).  The text of utils/example.json, character by character, is a JSON document, and whenever the
program comes to an end with this text as its configuration file, in double precision with any mathematical library, what it has
printed begins with the timetable of the first six phases, or it has stopped within this timetable because of the acceleration
limit. -/
theorem C101_shipped {fmt : F64 L → List Char} (hf : PrintsDouble fmt) {fuel : Nat} {log : List (LogEntry (F64 L))} {ex : Exit}
    (h : main fuel (File.ofText Shipped.text) = some (log, ex)) :
    (∃ texts rest, Text.output fmt log = texts.flatten ++ rest ∧
      List.Forall₂ ShowsText texts (timetable 0 0 [15, 25, 40, 60, 120, 150])) ∨
    (ex = .panic .maxAcceleration ∧ ∃ texts lines, Text.output fmt log = texts.flatten ∧
      lines <+: timetable 0 0 [15, 25, 40, 60, 120, 150] ∧ List.Forall₂ ShowsText texts lines) := by
  rw [Shipped.ofText_text] at h
  exact C90_shipped hf h

/-! ## numbers -/

/-- C102 (nearest).  A number of at most 15 digits whose last digit is at most 22 places before or behind the decimal point is
read as the double nearest to it, with the sign that is written. -/
theorem C102_nearest {t : List Char} {x : Decimal} (ht : NumberText t x) (hl : (x.int ++ x.frac).length ≤ 15)
    (he : |(if x.expNeg then -(ofDigits x.exp : ℤ) else ofDigits x.exp) - (x.frac.length : ℤ)| ≤ 22) :
    (Txt.toFloat x : Option (F64 L)) = some ⟨Dbl.round x.neg (Decimal.value x)⟩ :=
  toFloat_exact (fun d hd => ht.1 d (by simp only [List.mem_append] at hd ⊢; tauto)) hl he

/-- C102 (close).  A number of ordinary size, however many digits it is written with, is read with an error of at most four
parts in 10^16. -/
theorem C102_close {t : List Char} {x : Decimal} (ht : NumberText t x) (h1 : 1e-280 ≤ |Decimal.value x|)
    (h2 : |Decimal.value x| ≤ 1e300) :
    ∃ (y : F64 L) (q : ℚ), Txt.toFloat x = some y ∧ y.Is q ∧ |q - Decimal.value x| ≤ 4e-16 * |Decimal.value x| :=
  toFloat_close (fun d hd => ht.1 d (by simp only [List.mem_append] at hd ⊢; tauto)) h1 h2

mutual
theorem floats_finite : ∀ (j : Json Decimal) (k : Json (F64 L)), Txt.floats j = some k → AllNumbers (fun x => ∃ s a, x.dbl = .fin s a ∧ Dbl.IsMag a) k
  | .null, k, h => by simp only [floats, Option.some.injEq] at h; subst h; trivial
  | .bool _, k, h => by simp only [floats, Option.some.injEq] at h; subst h; trivial
  | .num x, k, h => by
    simp only [floats, Option.map_eq_some_iff] at h
    obtain ⟨y, h1, rfl⟩ := h
    exact toFloat_finite h1
  | .str _, k, h => by simp only [floats, Option.some.injEq] at h; subst h; trivial
  | .arr l, k, h => by
    simp only [floats, Option.map_eq_some_iff] at h
    obtain ⟨y, h1, rfl⟩ := h
    exact floatsList_finite l y h1
  | .obj l, k, h => by
    simp only [floats, Option.map_eq_some_iff] at h
    obtain ⟨y, h1, rfl⟩ := h
    exact floatsMembers_finite l y h1

theorem floatsList_finite : ∀ (l : List (Json Decimal)) (k : List (Json (F64 L))), Txt.floatsList l = some k →
    AllNumbersList (fun x => ∃ s a, x.dbl = .fin s a ∧ Dbl.IsMag a) k
  | [], k, h => by simp only [floatsList, Option.some.injEq] at h; subst h; trivial
  | j :: l, k, h => by
    simp only [floatsList, Option.bind_eq_some_iff, Option.map_eq_some_iff] at h
    obtain ⟨y, h1, z, h2, rfl⟩ := h
    exact ⟨floats_finite j y h1, floatsList_finite l z h2⟩

theorem floatsMembers_finite : ∀ (l : List (String × Json Decimal)) (k : List (String × Json (F64 L))),
    Txt.floatsMembers l = some k → AllNumbersMembers (fun x => ∃ s a, x.dbl = .fin s a ∧ Dbl.IsMag a) k
  | [], k, h => by simp only [floatsMembers, Option.some.injEq] at h; subst h; trivial
  | (s, j) :: l, k, h => by
    simp only [floatsMembers, Option.bind_eq_some_iff, Option.map_eq_some_iff] at h
    obtain ⟨y, h1, z, h2, rfl⟩ := h
    exact ⟨floats_finite j y h1, floatsMembers_finite l z h2⟩
end

/-- C102 (finite).  Every number that comes from a configuration file is a double which is neither NaN nor infinite. -/
theorem C102_finite {t : List Char} {j : Json (F64 L)} (h : File.ofText t = .json j) :
    AllNumbers (fun x => ∃ s a, x.dbl = .fin s a ∧ Dbl.IsMag a) j := by
  unfold File.ofText at h
  rcases hp : (Txt.parse t).bind (Txt.floats (F := F64 L)) with _ | k
  · rw [hp] at h
    cases h
  · rw [hp] at h
    simp only [File.json.injEq] at h
    subst h
    simp only [Option.bind_eq_some_iff] at hp
    obtain ⟨r, -, h1⟩ := hp
    exact floats_finite r k h1

/-- C102 (not always nearest).  With sixteen digits this fails: 9.512243180921393 is not read as the double nearest to it. -/
theorem C102_not_nearest : ∃ (t : List Char) (x : Decimal), NumberText t x ∧ (x.int ++ x.frac).length = 16 ∧ x.exp = [] ∧
    ∀ L : Libm, (Txt.toFloat x : Option (F64 L)) ≠ some ⟨Dbl.round false (Decimal.value x)⟩ := by
  refine ⟨['9', '.', '5', '1', '2', '2', '4', '3', '1', '8', '0', '9', '2', '1', '3', '9', '3'],
    ⟨false, [9], [5, 1, 2, 2, 4, 3, 1, 8, 0, 9, 2, 1, 3, 9, 3], false, []⟩,
    ⟨by decide, by decide, by decide, [], .inl ⟨rfl, rfl, rfl⟩, by decide +kernel⟩, rfl, rfl, ?_⟩
  intro L h
  have e : (Txt.toFloat ⟨false, [9], [5, 1, 2, 2, 4, 3, 1, 8, 0, 9, 2, 1, 3, 9, 3], false, []⟩ : Option (F64 L)) =
      some ⟨Dbl.div (.round false ((9512243180921393 : ℕ) * 10 ^ 0)) (.round false ((1 : ℕ) * 10 ^ 15))⟩ := rfl
  rw [e] at h
  simp only [Option.some.injEq, F64.mk.injEq] at h
  have hv : Decimal.value ⟨false, [9], [5, 1, 2, 2, 4, 3, 1, 8, 0, 9, 2, 1, 3, 9, 3], false, []⟩ = 9512243180921393 / 10 ^ 15 := by
    unfold Decimal.value
    norm_num [ofDigits]
  rw [hv] at h
  revert h
  decide +kernel

/-! ## examples -/

/-- A document with white space, an escape and an exponent. -/
example : DocumentText "{ \"a\" : [ -1.5e3,\n true, \"\\u0041\" ] }\n".toList
    (.obj [("a", .arr [.num ⟨true, [1], [5], false, [3]⟩, .bool true, .str "A"])]) := by
  rw [← parse_iff]
  have h : (match Txt.parse "{ \"a\" : [ -1.5e3,\n true, \"\\u0041\" ] }\n".toList with
    | none => false
    | some j => same j (.obj [("a", .arr [.num ⟨true, [1], [5], false, [3]⟩, .bool true, .str "A"])])) = true := by
    decide +kernel
  rcases hp : Txt.parse "{ \"a\" : [ -1.5e3,\n true, \"\\u0041\" ] }\n".toList with _ | j
  · rw [hp] at h
    simp at h
  · rw [hp] at h
    rw [same_eq _ _ h]

/-- A trailing comma is an error. -/
example : ∀ j, ¬ DocumentText "[1, 2,]".toList j := by
  intro j h
  rw [← parse_iff] at h
  have h' : (Txt.parse "[1, 2,]".toList).isNone = true := by decide +kernel
  rw [h] at h'
  simp at h'

/-- The number 8.09336355e5 of the shipped example satisfies the hypotheses of `C102_nearest`. -/
example : NumberText "8.09336355e5".toList ⟨false, [8], [0, 9, 3, 3, 6, 3, 5, 5], false, [5]⟩ ∧
    |((if false then -(ofDigits [5] : ℤ) else ofDigits [5]) - (([0, 9, 3, 3, 6, 3, 5, 5] : List ℕ).length : ℤ))| ≤ 22 :=
  ⟨⟨by decide, by decide, by decide, ['e', '5'], .inr ⟨by decide, 'e', [], .inl rfl, .inr ⟨rfl, .inl rfl⟩, by decide +kernel⟩,
    by decide +kernel⟩, by decide⟩

/-- The number -0.000123456789012345678901234567890 satisfies the hypotheses of `C102_close`. -/
example : NumberText "-0.000123456789012345678901234567890".toList ⟨true, [0],
      [0, 0, 0, 1, 2, 3, 4, 5, 6, 7, 8, 9, 0, 1, 2, 3, 4, 5, 6, 7, 8, 9, 0, 1, 2, 3, 4, 5, 6, 7, 8, 9, 0], false, []⟩ ∧
    (1e-280 : ℚ) ≤ 1e-4 ∧ 1e-4 ≤ |Decimal.value ⟨true, [0],
      [0, 0, 0, 1, 2, 3, 4, 5, 6, 7, 8, 9, 0, 1, 2, 3, 4, 5, 6, 7, 8, 9, 0, 1, 2, 3, 4, 5, 6, 7, 8, 9, 0], false, []⟩| ∧
    |Decimal.value ⟨true, [0],
      [0, 0, 0, 1, 2, 3, 4, 5, 6, 7, 8, 9, 0, 1, 2, 3, 4, 5, 6, 7, 8, 9, 0, 1, 2, 3, 4, 5, 6, 7, 8, 9, 0], false, []⟩| ≤ 1 := by
  refine ⟨⟨by decide, by decide, by decide, [], .inl ⟨rfl, rfl, rfl⟩, by decide +kernel⟩, ?_, ?_, ?_⟩
  · decide +kernel
  · unfold Decimal.value
    norm_num [ofDigits, abs_of_nonneg]
  · unfold Decimal.value
    norm_num [ofDigits, abs_of_nonneg]

/-- The whole shipped file is read. -/
example : ∃ j : Json (F64 L), File.ofText Shipped.text = .json j := ⟨_, Shipped.ofText_text⟩

end Post
