import Verif.Model.JsonBytes
import Verif.Props.JsonText
import Verif.Props.LoadedReal
/-! # The bytes of the configuration file (C101, C102, C71) -/

namespace Post
open Spec Txt

theorem File.ofBytes_utf8 {F : Type} [Flt F] (t : List Char) : (File.ofBytes t.utf8Encode : File F) = File.ofText t := by
  unfold File.ofBytes
  rw [List.utf8Decode?_utf8Encode]

theorem File.ofBytes_other {F : Type} [Flt F] {b : ByteArray} (h : ∀ t : List Char, b ≠ t.utf8Encode) :
    (File.ofBytes b : File F) = .notJson := by
  unfold File.ofBytes
  rcases hd : b.utf8Decode? with _ | cs
  · rfl
  · have h1 : b.utf8Decode?.isSome := by rw [hd]; rfl
    obtain ⟨l, hl⟩ := ByteArray.isSome_utf8Decode?_iff.1 h1
    exact absurd hl (h l)

/-- C101 (bytes).  The bytes of the file are read as a JSON value if and only if they are the UTF-8 encoding of a JSON document
whose numbers can be represented. -/
theorem C101_bytes {F : Type} [Flt F] (b : ByteArray) (j : Json F) :
    File.ofBytes b = .json j ↔ ∃ t r, b = t.utf8Encode ∧ DocumentText t r ∧ Txt.floats r = some j := by
  constructor
  · intro h
    by_cases hb : ∃ t : List Char, b = t.utf8Encode
    · obtain ⟨t, rfl⟩ := hb
      rw [File.ofBytes_utf8] at h
      unfold File.ofText at h
      rcases hp : (Txt.parse t).bind (Txt.floats (F := F)) with _ | k
      · rw [hp] at h
        cases h
      · rw [hp] at h
        injection h with h
        subst h
        simp only [Option.bind_eq_some_iff] at hp
        obtain ⟨r, h1, h2⟩ := hp
        exact ⟨t, r, rfl, (C101_grammar t r).1 h1, h2⟩
    · rw [File.ofBytes_other fun t ht => hb ⟨t, ht⟩] at h
      cases h
  · rintro ⟨t, r, rfl, h1, h2⟩
    rw [File.ofBytes_utf8]
    unfold File.ofText
    rw [(C101_grammar t r).2 h1, Option.bind_some, h2]

/-- C101 (bytes, program).  A file whose bytes are not the UTF-8 encoding of a JSON document is reported, and nothing is simulated
and printed. -/
theorem C101_bytes_rejected {F : Type} [Flt F] {b : ByteArray} (h : ∀ t j, b = t.utf8Encode → ¬ DocumentText t j) (fuel : ℕ) :
    main fuel (File.ofBytes b : File F) = some ([], .loadError) := by
  by_cases hb : ∃ t : List Char, b = t.utf8Encode
  · obtain ⟨t, rfl⟩ := hb
    rw [File.ofBytes_utf8]
    exact C101_rejected (fun j => h t j rfl) fuel
  · rw [File.ofBytes_other fun t ht => hb ⟨t, ht⟩]
    rfl

/-- C101 (bytes, layout).  The program does the same for two files that are encodings of documents that denote the same value. -/
theorem C101_bytes_layout {F : Type} [Flt F] {t t' : List Char} {j : Json Decimal} (h : DocumentText t j) (h' : DocumentText t' j)
    (fuel : ℕ) : main fuel (File.ofBytes t.utf8Encode : File F) = main fuel (File.ofBytes t'.utf8Encode) := by
  rw [File.ofBytes_utf8, File.ofBytes_utf8, C101_layout h h']

/-- C71 (bytes).  A configuration loaded from a file, whatever its bytes, in which specific impulses are not zero and planet radii
positive, satisfies the conditions under which numbers stay numbers. -/
theorem C71_bytes {b : ByteArray} {cs : List (PhaseConfig XR)} (h : Simulation.fromFile (File.ofBytes b) = some cs)
    (hs : ∀ c ∈ cs, Sensible c) : ∀ c ∈ cs, RealConfig c := by
  by_cases hb : ∃ t : List Char, b = t.utf8Encode
  · obtain ⟨t, rfl⟩ := hb
    rw [File.ofBytes_utf8] at h
    exact C71_loaded h hs
  · rw [File.ofBytes_other fun t ht => hb ⟨t, ht⟩] at h
    cases h

/-! ## examples -/

/-- A document whose encoding has more bytes than characters. -/
example : DocumentText "[\"ä\"]".toList (.arr [.str "ä"]) ∧ "[\"ä\"]".toList.utf8Encode.size = 6 := by
  refine ⟨(C101_grammar _ _).1 ?_, by decide +kernel⟩
  have h : ∀ (x : Option (Json Decimal)) (y : Json Decimal),
      (match x with | none => false | some j => Txt.same j y) = true → x = some y := by
    rintro (_ | x) y h
    · simp at h
    · rw [Txt.same_eq _ _ h]
  exact h _ _ (by decide +kernel)

/-- Bytes that are no encoding of a text: a quotation mark, 0xFF and a quotation mark; and 0xC0 0x80, an overlong encoding. -/
example : (∀ t j, (⟨#[0x22, 0xFF, 0x22]⟩ : ByteArray) = List.utf8Encode t → ¬ DocumentText t j) ∧
    (∀ t j, (⟨#[0x22, 0xC0, 0x80, 0x22]⟩ : ByteArray) = List.utf8Encode t → ¬ DocumentText t j) := by
  have h : ∀ b : ByteArray, b.utf8Decode?.isSome = false → ∀ t j, b = List.utf8Encode t → ¬ DocumentText t j := by
    rintro b hb t j rfl
    rw [List.utf8Decode?_utf8Encode] at hb
    cases hb
  exact ⟨h _ (by decide +kernel), h _ (by decide +kernel)⟩

end Post
