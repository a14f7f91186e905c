import Verif.Props.JsonBytes
import Verif.Props.Shipped
/-! # The example mission that comes with the program, in exact arithmetic (C71) -/

namespace Post
open Spec Txt XR

theorem sci_real (m n : ℕ) (s : Bool) : (OfScientific.ofScientific m s n : ℝ) = if s then (m : ℝ) / 10 ^ n else m * 10 ^ n := by
  rw [← NNRat.cast_ofScientific]
  rw [show (OfScientific.ofScientific m s n : ℚ≥0) = if s then (m : ℚ≥0) / 10 ^ n else m * 10 ^ n from ?_]
  · cases s <;> simp
  · apply NNRat.coe_injective
    rw [NNRat.cast_ofScientific]
    cases s <;> simp [Rat.ofScientific_def, OfScientific.ofScientific, Rat.mkRat_eq_div]

theorem toFloat_literal {x : Decimal} (h : easy x = true) : (toFloat x : Option XR) = some (literal x) := by
  unfold easy at h
  simp only [Bool.and_eq_true, decide_eq_true_eq] at h
  have e : ∀ (m : ℕ) (s : Bool) (n : ℕ), (Flt.ofSci m s n : XR) = .fin (if s then (m : ℝ) / 10 ^ n else m * 10 ^ n) :=
    fun m s n => congrArg XR.fin (sci_real m n s)
  have e' : (Flt.inf : XR) = .pinf := rfl
  have hf : (fromParts (significand x) (tenPower x) : Option XR) =
      some (Flt.ofSci (significand x) (decide (tenPower x < 0)) (tenPower x).natAbs) := by
    unfold fromParts
    by_cases h0 : tenPower x < 0
    · rw [if_pos h0, decide_eq_true h0, Nat.div_eq_of_lt (by omega)]
      simp only [scaleDown, e]
      rw [if_pos (by omega), fin_div _ _ (by simp)]
      simp
    · rw [if_neg h0, decide_eq_false h0, if_pos (by omega)]
      simp only [e]
      rw [fin_mul, if_neg]
      · simp
      · show ¬ (XR.eq (XR.abs _) .pinf = true)
        simp [XR.abs, XR.eq]
  unfold toFloat literal
  rw [hf]
  simp only [Option.map_some]

mutual
theorem floats_literals : ∀ (j : Json Decimal), allEasy j = true → (floats j : Option (Json XR)) = some (literals j)
  | .null, _ => by simp [floats, literals]
  | .bool _, _ => by simp [floats, literals]
  | .num x, h => by
    simp only [allEasy] at h
    simp [floats, literals, toFloat_literal h]
  | .str _, _ => by simp [floats, literals]
  | .arr l, h => by
    simp only [allEasy] at h
    simp [floats, literals, floatsList_literals l h]
  | .obj l, h => by
    simp only [allEasy] at h
    simp [floats, literals, floatsMembers_literals l h]

theorem floatsList_literals : ∀ (l : List (Json Decimal)), allEasyList l = true →
    (floatsList l : Option (List (Json XR))) = some (literalsList l)
  | [], _ => by simp [floatsList, literalsList]
  | j :: l, h => by
    simp only [allEasyList, Bool.and_eq_true] at h
    simp [floatsList, literalsList, floats_literals j h.1, floatsList_literals l h.2]

theorem floatsMembers_literals : ∀ (l : List (String × Json Decimal)), allEasyMembers l = true →
    (floatsMembers l : Option (List (String × Json XR))) = some (literalsMembers l)
  | [], _ => by simp [floatsMembers, literalsMembers]
  | (k, j) :: l, h => by
    simp only [allEasyMembers, Bool.and_eq_true] at h
    simp [floatsMembers, literalsMembers, floats_literals j h.1, floatsMembers_literals l h.2]
end

namespace Shipped

/-- The text of utils/example.json is the example mission, in exact arithmetic, too. -/
theorem ofText_exact : (File.ofText text : File XR) = .json document := by
  unfold File.ofText
  rw [parse_text, Option.bind_some, floats_literals _ raw_easy, literals_raw]

macro "ascending_exact" : tactic => `(tactic| (
  rw [← windowsAscending_iff]
  simp only [windowsAscending, fin_zero, fin_one, fin_nat, fin_sci, fin_neg, fin_lt]
  norm_num))

theorem wellFormed1_exact : WellFormed (table1 (F := XR)) := by
  refine ⟨⟨?_, rfl⟩, fun row hrow => ⟨?_, ?_⟩⟩
  · show Ascending [_, _, _, _, _]
    ascending_exact
  · show Ascending [_, _, _, _, _, _, _, _, _, _, _, _]
    ascending_exact
  · simp only [List.mem_cons, List.not_mem_nil, or_false] at hrow
    rcases hrow with rfl | rfl | rfl | rfl | rfl <;> rfl

theorem wellFormed2_exact : WellFormed (table2 (F := XR)) := by
  refine ⟨⟨?_, rfl⟩, fun row hrow => ⟨?_, ?_⟩⟩
  · show Ascending [_, _, _, _]
    ascending_exact
  · show Ascending [_, _, _, _, _, _, _, _, _, _, _, _]
    ascending_exact
  · simp only [List.mem_cons, List.not_mem_nil, or_false] at hrow
    rcases hrow with rfl | rfl | rfl | rfl <;> rfl

theorem wellFormed3_exact : WellFormed (table3 (F := XR)) := by
  refine ⟨⟨?_, rfl⟩, fun row hrow => ⟨?_, ?_⟩⟩
  · show Ascending [_, _, _, _, _, _, _]
    ascending_exact
  · show Ascending [_, _, _, _, _, _, _, _, _, _, _, _]
    ascending_exact
  · simp only [List.mem_cons, List.not_mem_nil, or_false] at hrow
    rcases hrow with rfl | rfl | rfl | rfl | rfl | rfl | rfl <;> rfl

theorem wellFormed4_exact : WellFormed (table4 (F := XR)) := by
  refine ⟨⟨?_, rfl⟩, fun row hrow => ⟨?_, ?_⟩⟩
  · show Ascending [_, _, _, _, _, _, _]
    ascending_exact
  · show Ascending [_, _, _, _, _, _, _, _, _, _, _, _]
    ascending_exact
  · simp only [List.mem_cons, List.not_mem_nil, or_false] at hrow
    rcases hrow with rfl | rfl | rfl | rfl | rfl | rfl | rfl <;> rfl

theorem section1_exact : De.phaseConfig (.obj (section1 (F := XR))) = some phase1 :=
  phaseConfig_of rfl rfl
    (opt_vehicle (m := vehicle1) rfl (vehicleConfig_of rfl rfl rfl rfl
      (opt_table rfl (C02_wellFormed_table_loads _ wellFormed1_exact (.inl (List.Perm.refl _))))
      (opt_table rfl (C02_wellFormed_table_loads _ wellFormed2_exact (.inl (List.Perm.refl _)))) rfl rfl)) rfl rfl rfl rfl rfl rfl

theorem section9_exact : De.phaseConfig (.obj (section9 (F := XR))) = some phase9 :=
  phaseConfig_of rfl rfl
    (opt_vehicle (m := vehicle9) rfl (vehicleConfig_of rfl rfl rfl rfl
      (opt_table rfl (C02_wellFormed_table_loads _ wellFormed3_exact (.inl (List.Perm.refl _))))
      (opt_table rfl (C02_wellFormed_table_loads _ wellFormed4_exact (.inl (List.Perm.refl _)))) rfl rfl)) rfl rfl rfl rfl rfl rfl

theorem loads_exact : Simulation.fromFile (.json (document (F := XR))) = some phases := by
  have h2 : De.phaseConfig (.obj (section2 (F := XR))) = some phase2 := rfl
  have h3 : De.phaseConfig (.obj (section3 (F := XR))) = some phase3 := rfl
  have h4 : De.phaseConfig (.obj (section4 (F := XR))) = some phase4 := rfl
  have h5 : De.phaseConfig (.obj (section5 (F := XR))) = some phase5 := rfl
  have h6 : De.phaseConfig (.obj (section6 (F := XR))) = some phase6 := rfl
  have h7 : De.phaseConfig (.obj (section7 (F := XR))) = some phase7 := rfl
  have h8 : De.phaseConfig (.obj (section8 (F := XR))) = some phase8 := rfl
  have h10 : De.phaseConfig (.obj (section10 (F := XR))) = some phase10 := rfl
  have h11 : De.phaseConfig (.obj (section11 (F := XR))) = some phase11 := rfl
  simp [document, phases, Simulation.fromFile, De.config, De.list, section1_exact, h2, h3, h4, h5, h6, h7, h8, section9_exact, h10, h11]

end Shipped

/-- C71 (the shipped example).  utils/example.json, character by character, is loaded and satisfies the conditions under which
numbers stay numbers. -/
theorem C71_shipped : ∃ cs : List (PhaseConfig XR), Simulation.fromFile (File.ofText Shipped.text) = some cs ∧ cs.length = 11 ∧
    ∀ c ∈ cs, RealConfig c := by
  have h : Simulation.fromFile (File.ofText Shipped.text) = some (Shipped.phases (F := XR)) := by
    rw [Shipped.ofText_exact, Shipped.loads_exact]
  refine ⟨_, h, rfl, C71_loaded h fun c hc => ?_⟩
  have hn : ∀ (m : ℕ) (s : Bool) (n : ℕ), m ≠ 0 → (OfScientific.ofScientific m s n : XR) ≠ .fin 0 := by
    intro m s n hm h
    rw [fin_sci, fin_inj, sci_real] at h
    have : (m : ℝ) ≠ 0 := by exact_mod_cast hm
    cases s <;> simp [this] at h
  simp only [Shipped.phases, List.mem_cons, List.not_mem_nil, or_false] at hc
  rcases hc with rfl | rfl | rfl | rfl | rfl | rfl | rfl | rfl | rfl | rfl | rfl <;> refine ⟨?_, ?_⟩ <;>
    first
    | (rintro a b g w ⟨⟩; done)
    | (rintro v es e ⟨⟩; done)
    | (rintro v es e ⟨⟩ ⟨⟩ he
       simp only [List.mem_cons, List.not_mem_nil, or_false] at he
       done)
    | (rintro v es e ⟨⟩ ⟨⟩ he
       simp only [List.mem_cons, List.not_mem_nil, or_false] at he
       subst he
       exact hn _ _ _ (by decide))

end Post
