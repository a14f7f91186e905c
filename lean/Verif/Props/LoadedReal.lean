import Verif.Props.LoadedNumbers
import Verif.Props.Real
import Verif.Lemmas.ShippedText
import Verif.Props.Planet
import Verif.Spec.Sensible
/-! # Numbers stay numbers, from the text of the configuration file on (C71) -/

namespace Post
open Spec Txt XR

/-! ## reading numbers in exact arithmetic -/

theorem isReal_scaleDown : ∀ (k : ℕ) {f : XR} (n : ℕ), IsReal f → IsReal (scaleDown k f n) := by
  have hp : ∀ n : ℕ, (OfScientific.ofScientific 1 false n : ℝ) ≠ 0 := by
    intro n
    have h : (OfScientific.ofScientific 1 false n : ℝ) = 10 ^ n := by
      rw [← NNRat.cast_ofScientific]
      rw [show (OfScientific.ofScientific 1 false n : ℚ≥0) = (10 ^ n : ℚ≥0) from ?_]
      · push_cast
        rfl
      · apply NNRat.coe_injective
        rw [NNRat.cast_ofScientific]
        simp [Rat.ofScientific_def, OfScientific.ofScientific]
    rw [h]
    positivity
  have hd : ∀ {f : XR} (n : ℕ), IsReal f → IsReal (f / Flt.ofSci 1 false n) := by
    rintro f n ⟨r, rfl⟩
    exact ⟨_, fin_div r _ (hp n)⟩
  intro k
  induction k with
  | zero => exact fun _ h => h
  | succ k ih =>
    intro f n h
    unfold scaleDown
    split_ifs
    · exact hd n h
    · exact h
    · exact ih _ (hd 308 h)

theorem isReal_toFloat {x : Decimal} {y : XR} (h : toFloat x = some y) : IsReal y := by
  simp only [toFloat, Option.map_eq_some_iff] at h
  obtain ⟨f, hf, rfl⟩ := h
  have hr : IsReal f := by
    simp only [fromParts] at hf
    split_ifs at hf
    · simp only [Option.some.injEq] at hf
      rw [← hf]
      exact isReal_scaleDown _ _ ⟨_, rfl⟩
    · simp only [Option.some.injEq] at hf
      rw [← hf]
      exact ⟨_, fin_mul _ _⟩
    · simp only [Option.some.injEq] at hf
      rw [← hf]
      exact ⟨_, rfl⟩
  obtain ⟨r, rfl⟩ := hr
  split
  · exact ⟨_, fin_neg r⟩
  · exact ⟨_, rfl⟩

mutual
theorem floats_real : ∀ (j : Json Decimal) (k : Json XR), Txt.floats j = some k → AllNumbers IsReal k
  | .null, k, h => by simp only [floats, Option.some.injEq] at h; subst h; trivial
  | .bool _, k, h => by simp only [floats, Option.some.injEq] at h; subst h; trivial
  | .num x, k, h => by
    simp only [floats, Option.map_eq_some_iff] at h
    obtain ⟨y, h1, rfl⟩ := h
    exact isReal_toFloat h1
  | .str _, k, h => by simp only [floats, Option.some.injEq] at h; subst h; trivial
  | .arr l, k, h => by
    simp only [floats, Option.map_eq_some_iff] at h
    obtain ⟨y, h1, rfl⟩ := h
    exact floatsList_real l y h1
  | .obj l, k, h => by
    simp only [floats, Option.map_eq_some_iff] at h
    obtain ⟨y, h1, rfl⟩ := h
    exact floatsMembers_real l y h1

theorem floatsList_real : ∀ (l : List (Json Decimal)) (k : List (Json XR)), Txt.floatsList l = some k → AllNumbersList IsReal k
  | [], k, h => by simp only [floatsList, Option.some.injEq] at h; subst h; trivial
  | j :: l, k, h => by
    simp only [floatsList, Option.bind_eq_some_iff, Option.map_eq_some_iff] at h
    obtain ⟨y, h1, z, h2, rfl⟩ := h
    exact ⟨floats_real j y h1, floatsList_real l z h2⟩

theorem floatsMembers_real : ∀ (l : List (String × Json Decimal)) (k : List (String × Json XR)),
    Txt.floatsMembers l = some k → AllNumbersMembers IsReal k
  | [], k, h => by simp only [floatsMembers, Option.some.injEq] at h; subst h; trivial
  | (s, j) :: l, k, h => by
    simp only [floatsMembers, Option.bind_eq_some_iff, Option.map_eq_some_iff] at h
    obtain ⟨y, h1, z, h2, rfl⟩ := h
    exact ⟨floats_real j y h1, floatsMembers_real l z h2⟩
end

/-! ## configurations -/

theorem realTable_of {t : Table XR} (hw : WellFormed t) (h : TableNumbers IsReal t) : RealTable t := by
  refine ⟨hw, ?_⟩
  rcases t with t | t | t <;> exact h

theorem isReal_planet {a b m j2 j3 j4 w : ℝ} (ha : 0 < a) (hb : 0 < b) : RealPlanetData (realPlanet a b m j2 j3 j4 w) :=
  ⟨a, b, rfl, rfl, ha, hb, ⟨_, rfl⟩, ⟨_, rfl⟩, ⟨_, rfl⟩, ⟨_, rfl⟩, ⟨_, rfl⟩⟩

/-- C71 (loaded).  In a configuration loaded from a text all numbers are numbers, and its tables are well formed; nothing
else is needed than engines with a specific impulse and planets with positive radii. -/
theorem C71_loaded {t : List Char} {cs : List (PhaseConfig XR)} (h : Simulation.fromFile (File.ofText t) = some cs)
    (hs : ∀ c ∈ cs, Sensible c) : ∀ c ∈ cs, RealConfig c := by
  have hn : ∀ c ∈ cs, ConfigNumbers IsReal c := by
    have h' := h
    unfold File.ofText at h'
    rcases hp : (Txt.parse t).bind (Txt.floats (F := XR)) with _ | k
    · rw [hp] at h'
      cases h'
    · rw [hp] at h'
      simp only [Option.bind_eq_some_iff] at hp
      obtain ⟨r, -, h1⟩ := hp
      exact C102_from_file (floats_real r k h1) h'
  intro c hc
  have hN := hn c hc
  have hT : ∀ t ∈ tablesOf c, WellFormed t := fun t ht => C01_accepted_tables_wellFormed h hc ht
  refine ⟨fun i hi => ?_, fun v hv => ?_, fun s hs => ?_, fun p hp => ?_, fun a w ha hw => hN.wind a ha w hw, hN.maxAcceleration⟩
  · obtain ⟨h1, h2, h3, -⟩ := hN.init i hi
    exact ⟨h1, h2, h3⟩
  · have hV := hN.vehicle v hv
    have hT' : ∀ t, v.dragCoeff = some t ∨ v.liftCoeff = some t ∨ v.sideForceCoeff = some t → WellFormed t := by
      intro t ht
      refine hT t ?_
      unfold tablesOf
      rw [hv]
      simp only [List.mem_filterMap, List.mem_cons, List.not_mem_nil, or_false, id_eq]
      rcases ht with ht | ht | ht
      · exact ⟨_, .inl rfl, ht⟩
      · exact ⟨_, .inr (.inl rfl), ht⟩
      · exact ⟨_, .inr (.inr rfl), ht⟩
    refine ⟨hV.structureMass, hV.propellantMass, hV.referenceArea, fun t ht => realTable_of (hT' t (.inl ht)) (hV.dragCoeff t ht),
      fun t ht => realTable_of (hT' t (.inr (.inl ht))) (hV.liftCoeff t ht),
      fun t ht => realTable_of (hT' t (.inr (.inr ht))) (hV.sideForceCoeff t ht), fun es hes e he => ?_⟩
    obtain ⟨h1, h2, h3, ⟨i, h4⟩, h5⟩ := hV.engines es hes e he
    refine ⟨h1, h2, h3, h5, i, h4, ?_⟩
    rintro rfl
    exact (hs c hc).engines v es e hv hes he h4
  · exact ⟨fun a ha => hN.steering s hs a (.inl ha), fun a ha => hN.steering s hs a (.inr (.inl ha)),
      fun a ha => hN.steering s hs a (.inr (.inr ha))⟩
  · have hP := hN.planetModel p hp
    obtain ⟨a, b, μ, μ', j2, j2', j3, j4, ω, e1, e2, e3, hb, hba, -⟩ := C55_presets
    cases p with
    | spherical => rw [e1]; exact isReal_planet (hb.trans hba) (hb.trans hba)
    | fisher1960 => rw [e2]; exact isReal_planet (hb.trans hba) hb
    | smithsonian => rw [e3]; exact isReal_planet (hb.trans hba) hb
    | custom a b g w =>
      obtain ⟨⟨a, rfl⟩, ⟨b, rfl⟩, h3, h4⟩ := hP
      obtain ⟨ha, hb⟩ := (hs c hc).planet a b g w hp
      exact ⟨a, b, rfl, rfl, ha, hb, h3.1, h3.2.1, h3.2.2.1, h3.2.2.2, h4⟩

/-- C71 (program).  If the program, started with a text as its configuration file, comes to an end, and the flight of each phase
stays away from the singularities, then all numbers in the output are actual numbers. -/
theorem C71_text {t : List Char} {cs : List (PhaseConfig XR)} (h : Simulation.fromFile (File.ofText t) = some cs)
    (hs : ∀ c ∈ cs, Sensible c) (hf : ∀ done c rest p, cs = done ++ c :: rest → Ready done c p → FliesRegularly p)
    {fuel : ℕ} {log : List (LogEntry XR)} {ex : Exit} (hm : main fuel (File.ofText t) = some (log, ex)) :
    ∀ r, LogEntry.row r ∈ log → RealRow r := by
  unfold main at hm
  rw [h] at hm
  simp only [Option.map_eq_some_iff, Prod.mk.injEq] at hm
  obtain ⟨o, ho, rfl, -⟩ := hm
  exact (C71_simulation (C71_loaded h hs) hf ⟨fuel, ho⟩).1

/-- A text with a vehicle and an engine is loaded, and is sensible. -/
example : ∃ (t : List Char) (cs : List (PhaseConfig XR)), Simulation.fromFile (File.ofText t) = some cs ∧
    (∀ c ∈ cs, Sensible c) ∧ ∃ c v e, cs = [c] ∧ c.vehicle = some v ∧ v.engines = some [e] := by
  refine ⟨"[{\"vehicle\": {\"structure_mass\": 1000, \"engines\":
    [{\"incidence\": [0, 0], \"thrust_vac\": 5, \"isp_vac\": 400, \"exit_area\": 0}]}}]".toList, ?_⟩
  have hp : Txt.parse "[{\"vehicle\": {\"structure_mass\": 1000, \"engines\":
    [{\"incidence\": [0, 0], \"thrust_vac\": 5, \"isp_vac\": 400, \"exit_area\": 0}]}}]".toList =
      some (.arr [.obj [("vehicle", .obj [("structure_mass", .num ⟨false, [1, 0, 0, 0], [], false, []⟩),
        ("engines", .arr [.obj [("incidence", .arr [.num ⟨false, [0], [], false, []⟩, .num ⟨false, [0], [], false, []⟩]),
          ("thrust_vac", .num ⟨false, [5], [], false, []⟩), ("isp_vac", .num ⟨false, [4, 0, 0], [], false, []⟩),
          ("exit_area", .num ⟨false, [0], [], false, []⟩)]])])]]) := by
    have h : ∀ (x : Option (Json Decimal)) (y : Json Decimal),
        (match x with | none => false | some j => Txt.same j y) = true → x = some y := by
      rintro (_ | x) y h
      · simp at h
      · rw [Txt.same_eq _ _ h]
    exact h _ _ (by decide +kernel)
  have hn : ∀ (x : Decimal) (n : ℕ), x.neg = false → Txt.significand x = n → Txt.tenPower x = 0 →
      (Txt.toFloat x : Option XR) = some (.fin n) := by
    intro x n h1 h2 h3
    have e : ∀ k : ℕ, (Flt.ofSci k false 0 : XR) = .fin k := fun k => congrArg XR.fin (sci_nat k)
    have e' : (Flt.inf : XR) = .pinf := rfl
    simp only [Txt.toFloat, Txt.fromParts, h1, h2, h3, lt_irrefl, Int.natAbs_zero, e, if_false]
    rw [if_pos (by norm_num), fin_mul, if_neg]
    · simp
    · show ¬ (XR.eq (XR.abs _) .pinf = true)
      simp [XR.abs, XR.eq]
  unfold File.ofText
  rw [hp]
  simp only [Option.bind_some, Txt.floats, Txt.floatsList, Txt.floatsMembers,
    hn ⟨false, [1, 0, 0, 0], [], false, []⟩ 1000 rfl (by decide) (by decide),
    hn ⟨false, [4, 0, 0], [], false, []⟩ 400 rfl (by decide) (by decide),
    hn ⟨false, [5], [], false, []⟩ 5 rfl (by decide) (by decide),
    hn ⟨false, [0], [], false, []⟩ 0 rfl (by decide) (by decide), Option.map_some]
  refine ⟨_, rfl, ?_, _, _, _, rfl, rfl, rfl⟩
  intro c hc
  simp only [List.reverse_singleton, List.mem_singleton] at hc
  subst hc
  refine ⟨?_, ?_⟩
  · rintro v es e ⟨⟩ ⟨⟩ he
    simp only [List.reverse_singleton, List.mem_singleton] at he
    subst he
    simp
  · rintro a b g w ⟨⟩

end Post
