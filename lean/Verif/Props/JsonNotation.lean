import Verif.Props.JsonText
import Verif.Lemmas.JsonNotation
/-! # Writing a configuration file (C103) -/

namespace Post
open Spec Txt

variable {L : Libm}

theorem sameNumber_toFloat {x y : Decimal} (h : SameNumber x y) : (toFloat x : Option (F64 L)) = toFloat y := by
  rcases h with rfl | ⟨⟨a1, a2, a3⟩, ⟨b1, b2, b3⟩, hn, hv⟩
  · rfl
  · rw [toFloat_exact a1 a2 (abs_le.2 a3), toFloat_exact b1 b2 (abs_le.2 b3), hn, hv]

/-- C103 (keys).  The order of the keys does not matter, in any object of the configuration file and in any arithmetic: the
program does the same. -/
theorem C103_keys {F : Type} [Flt F] {j j' : Json F} (h : Reordered Eq j j') (fuel : Nat) :
    main fuel (.json j) = main fuel (.json j') := by
  have e : Simulation.fromFile (.json j) = Simulation.fromFile (.json j') := De.config_blind h
  unfold main
  rw [e]

/-- C103 (notation).  In double precision the program does the same for two files that differ in layout, in the way characters
are escaped, in the order of keys and in the way numbers are written, as long as these have at most 15 digits and the last digit
is at most 22 places away from the decimal point. -/
theorem C103_notation {t t' : List Char} {j j' : Json Decimal} (h : DocumentText t j) (h' : DocumentText t' j')
    (hj : Reordered SameNumber j j') (fuel : Nat) :
    main fuel (File.ofText t : File (F64 L)) = main fuel (File.ofText t') := by
  unfold File.ofText
  rw [(parse_iff t j).2 h, (parse_iff t' j').2 h']
  simp only [Option.bind_some]
  rcases floats_reordered (F := F64 L) sameNumber_toFloat hj with ⟨e, e'⟩ | ⟨a, b, e, e', hab⟩ <;> rw [e, e']
  exact C103_keys hab fuel

/-- C102 (whole numbers).  A whole number of magnitude below 2^53, written without decimal point and exponent, is read exactly,
with its sign (also `-0`). -/
theorem C102_whole {t : List Char} {x : Decimal} (_ht : NumberText t x) (hf : x.frac = []) (he : x.exp = [])
    (hx : ofDigits x.int < 2 ^ 53) :
    ∃ y : F64 L, toFloat x = some y ∧ y.dbl = .fin x.neg (ofDigits x.int) := by
  obtain ⟨h1, h2⟩ := significand_eq (x := x) (by rw [hf, List.append_nil]; omega)
  rw [hf, List.append_nil] at h1
  have h3 : tenPower x = 0 := by
    rw [h2, hf, he]
    simp [ofDigits]
  unfold toFloat
  rw [h1, h3, fromParts_exact hx (by norm_num)]
  refine ⟨_, rfl, ?_⟩
  have hr : Dbl.round false ((ofDigits x.int : ℚ) * 10 ^ (0 : ℤ)) = .fin false (ofDigits x.int) := by
    rw [zpow_zero, mul_one, round_mag (isMag_nat hx)]
  rw [hr]
  rcases x.neg with _ | _ <;> rfl

/-- The number -9007199254740991 satisfies the hypotheses of `C102_whole`. -/
example : NumberText "-9007199254740991".toList ⟨true, [9, 0, 0, 7, 1, 9, 9, 2, 5, 4, 7, 4, 0, 9, 9, 1], [], false, []⟩ ∧
    ofDigits [9, 0, 0, 7, 1, 9, 9, 2, 5, 4, 7, 4, 0, 9, 9, 1] < 2 ^ 53 :=
  ⟨⟨by decide, by decide, by decide, [], .inl ⟨rfl, rfl, rfl⟩, by decide +kernel⟩, by decide⟩

/-! ## every value can be written down -/

theorem hexText_exists {n : Nat} (h : n < 16) : ∃ c, HexText c n := by
  refine ⟨"0123456789abcdef".toList[n]'(by rw [hexLower]; simpa using h), .inl ?_⟩
  simp

theorem charText_exists (c : Char) : ∃ t, CharText t c := by
  by_cases h1 : c = '"'
  · exact ⟨_, .short (e := '"') (by simp [h1])⟩
  by_cases h2 : c = '\\'
  · exact ⟨_, .short (e := '\\') (by simp [h2])⟩
  by_cases h3 : 0x20 ≤ c.toNat
  · exact ⟨_, .plain h3 h1 h2⟩
  · obtain ⟨a, ha⟩ := hexText_exists (n := 0) (by norm_num)
    obtain ⟨b, hb⟩ := hexText_exists (n := c.toNat / 16) (by omega)
    obtain ⟨d, hd⟩ := hexText_exists (n := c.toNat % 16) (by omega)
    have := CharText.code (n := c.toNat) ⟨a, a, b, d, 0, 0, _, _, rfl, ha, ha, hb, hd, by omega⟩ (by omega)
    rw [Char.ofNat_toNat] at this
    exact ⟨_, this⟩

theorem stringText_exists (s : String) : ∃ t, StringText t s := by
  have h : ∀ l : List Char, ∃ u, CharsText u l := by
    intro l
    induction l with
    | nil => exact ⟨_, .nil⟩
    | cons c l ih =>
      obtain ⟨u, hu⟩ := ih
      obtain ⟨t, ht⟩ := charText_exists c
      exact ⟨_, .cons ht hu⟩
  obtain ⟨u, hu⟩ := h s.toList
  exact ⟨_, u, hu, rfl⟩

theorem spaced_self {P : List Char → Prop} {t : List Char} (h : P t) : Spaced P t := ⟨[], t, [], blank_nil, blank_nil, h, by simp⟩

mutual
theorem valueText_exists : ∀ (j : Json Decimal) (n : Nat), Nested n j → AllNumbers (fun x => ∃ t, NumberText t x) j →
    ∃ t, ValueText n t j
  | .null, n, _, _ => ⟨_, by simp only [ValueText]; rfl⟩
  | .bool true, n, _, _ => ⟨_, by simp only [ValueText]; rfl⟩
  | .bool false, n, _, _ => ⟨_, by simp only [ValueText]; rfl⟩
  | .num x, n, _, h => by simpa only [ValueText, AllNumbers] using h
  | .str s, n, _, _ => by simpa only [ValueText] using stringText_exists s
  | .arr _, 0, h, _ => h.elim
  | .obj _, 0, h, _ => h.elim
  | .arr [], n + 1, _, _ => ⟨_, by simp only [ValueText]; exact ⟨[], blank_nil, rfl⟩⟩
  | .arr (j :: l), n + 1, h, hn => by
    obtain ⟨us, hu⟩ := elementsText_exists (j :: l) n h hn
    exact ⟨_, by simp only [ValueText]; exact ⟨us, hu, rfl⟩⟩
  | .obj [], n + 1, _, _ => ⟨_, by simp only [ValueText]; exact ⟨[], blank_nil, rfl⟩⟩
  | .obj (j :: l), n + 1, h, hn => by
    obtain ⟨us, hu⟩ := membersText_exists (j :: l) n h hn
    exact ⟨_, by simp only [ValueText]; exact ⟨us, hu, rfl⟩⟩

theorem elementsText_exists : ∀ (l : List (Json Decimal)) (n : Nat), NestedList n l →
    AllNumbersList (fun x => ∃ t, NumberText t x) l →
    ∃ us, List.Forall₂ (fun u j => Spaced (fun v => ValueText n v j) u) us l
  | [], _, _, _ => ⟨[], .nil⟩
  | j :: l, n, h, hn => by
    obtain ⟨t, ht⟩ := valueText_exists j n h.1 hn.1
    obtain ⟨us, hu⟩ := elementsText_exists l n h.2 hn.2
    exact ⟨t :: us, .cons (spaced_self ht) hu⟩

theorem membersText_exists : ∀ (l : List (String × Json Decimal)) (n : Nat), NestedMembers n l →
    AllNumbersMembers (fun x => ∃ t, NumberText t x) l →
    ∃ us, List.Forall₂ (fun u (kj : String × Json Decimal) => ∃ k v, u = k ++ ':' :: v ∧ Spaced (fun v => StringText v kj.1) k ∧
        Spaced (fun v => ValueText n v kj.2) v) us l
  | [], _, _, _ => ⟨[], .nil⟩
  | (s, j) :: l, n, h, hn => by
    obtain ⟨t, ht⟩ := valueText_exists j n h.1 hn.1
    obtain ⟨k, hk⟩ := stringText_exists s
    obtain ⟨us, hu⟩ := membersText_exists l n h.2 hn.2
    exact ⟨_ :: us, .cons ⟨k, t, rfl, spaced_self hk, spaced_self ht⟩ hu⟩
end

/-- C103 (writable).  Every value nested at most 127 deep, with any strings in it, can be written down as a configuration
file and is read back as it is. -/
theorem C103_writable {j : Json Decimal} (hn : Nested 127 j) (h : AllNumbers (fun x => ∃ t, NumberText t x) j) :
    ∃ t, DocumentText t j ∧ Txt.parse t = some j := by
  obtain ⟨t, ht⟩ := valueText_exists j 127 hn h
  have := spaced_self (P := fun u => ValueText 127 u j) ht
  exact ⟨t, this, (parse_iff t j).2 this⟩

/-! ## examples -/

/-- `150`, `1.50e2` and `15000E-2` mean the same. -/
example : SameNumber ⟨false, [1, 5, 0], [], false, []⟩ ⟨false, [1], [5, 0], false, [2]⟩ ∧
    SameNumber ⟨false, [1, 5, 0], [], false, []⟩ ⟨false, [1, 5, 0, 0, 0], [], true, [2]⟩ := by
  constructor <;> refine .inr ⟨by unfold ShortNumber; decide, by unfold ShortNumber; decide, rfl, ?_⟩ <;>
    · unfold Decimal.value
      norm_num [ofDigits]

/-- Two documents that differ in layout and notation. -/
example : DocumentText "[150]".toList (.arr [.num ⟨false, [1, 5, 0], [], false, []⟩]) ∧
    DocumentText "[ 1.50e2 ]".toList (.arr [.num ⟨false, [1], [5, 0], false, [2]⟩]) := by
  constructor
  · refine ⟨[], "[150]".toList, [], blank_nil, blank_nil, ?_, by decide +kernel⟩
    simp only [ValueText]
    refine ⟨["150".toList], .cons (spaced_self ?_) .nil, by decide +kernel⟩
    simp only [ValueText]
    exact ⟨by decide, by decide, by decide, [], .inl ⟨rfl, rfl, rfl⟩, by decide +kernel⟩
  · refine ⟨[], "[ 1.50e2 ]".toList, [], blank_nil, blank_nil, ?_, by decide +kernel⟩
    simp only [ValueText]
    refine ⟨[" 1.50e2 ".toList], .cons ⟨[' '], "1.50e2".toList, [' '], by simp [Blank], by simp [Blank], ?_, by decide +kernel⟩ .nil,
      by decide +kernel⟩
    simp only [ValueText]
    exact ⟨by decide, by decide, by decide, ['e', '2'], .inr ⟨by decide, 'e', [], .inl rfl, .inr ⟨rfl, .inl rfl⟩, by decide +kernel⟩,
      by decide +kernel⟩

/-- Two objects with the keys in different order. -/
example : Reordered SameNumber
    (.arr [.obj [("stepsize", .num ⟨false, [1], [], false, []⟩), ("end_criterion", .null), ("max_acceleration", .bool true)]])
    (.arr [.obj [("end_criterion", .null), ("max_acceleration", .bool true), ("stepsize", .num ⟨false, [1], [], false, []⟩)]]) := by
  refine .arr (.cons (.obj (.trans (.swap _ _ _) (.cons _ .null (.swap _ _ _)))) .nil)

/-- A value with an object, an array and a string with a line feed satisfies the hypotheses of `C103_writable`. -/
example : Nested 127 (.obj [("a\nb", .arr [.num ⟨true, [1], [5], false, [3]⟩])] : Json Decimal) ∧
    AllNumbers (fun x => ∃ t, NumberText t x) (.obj [("a\nb", .arr [.num ⟨true, [1], [5], false, [3]⟩])]) := by
  refine ⟨⟨⟨trivial, trivial⟩, trivial⟩, ⟨⟨"-1.5e3".toList, ?_⟩, trivial⟩, trivial⟩
  exact ⟨by decide, by decide, by decide, ['e', '3'], .inr ⟨by decide, 'e', [], .inl rfl, .inr ⟨rfl, .inl rfl⟩, by decide +kernel⟩,
    by decide +kernel⟩

end Post
