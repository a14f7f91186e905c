import Verif.Shipped
import Verif.Props.Load
import Verif.Props.Timetable
/-! # The shipped example mission (C77) -/

namespace Post
open Spec Flt F64

namespace Shipped
section
variable {L : Libm}

/-- a literal, rounded -/
def lit (m : Nat) (s : Bool) (e : Nat) : Dbl := .round false (if s then m / 10 ^ e else m * 10 ^ e)

theorem lt_dbl (a b : F64 L) : Flt.lt a b = Dbl.lt a.dbl b.dbl := rfl
theorem dbl_neg (a : F64 L) : (-a).dbl = a.dbl.neg := rfl
theorem dbl_nat (n : Nat) : (no_index (OfNat.ofNat n : F64 L)).dbl = lit n false 0 := rfl
theorem dbl_sci (m : Nat) (s : Bool) (e : Nat) :
    (OfScientific.ofScientific m s e : F64 L).dbl = lit m s e := rfl

macro "ascending_literals" : tactic => `(tactic| (
  rw [← windowsAscending_iff]
  simp only [windowsAscending, lt_dbl, dbl_neg, dbl_nat, dbl_sci]
  decide +kernel))

theorem wellFormed1 : WellFormed (table1 (F := F64 L)) := by
  refine ⟨⟨?_, rfl⟩, fun row hrow => ⟨?_, ?_⟩⟩
  · show Ascending [_, _, _, _, _]
    ascending_literals
  · show Ascending [_, _, _, _, _, _, _, _, _, _, _, _]
    ascending_literals
  · simp only [List.mem_cons, List.not_mem_nil, or_false] at hrow
    rcases hrow with rfl | rfl | rfl | rfl | rfl <;> rfl

theorem wellFormed2 : WellFormed (table2 (F := F64 L)) := by
  refine ⟨⟨?_, rfl⟩, fun row hrow => ⟨?_, ?_⟩⟩
  · show Ascending [_, _, _, _]
    ascending_literals
  · show Ascending [_, _, _, _, _, _, _, _, _, _, _, _]
    ascending_literals
  · simp only [List.mem_cons, List.not_mem_nil, or_false] at hrow
    rcases hrow with rfl | rfl | rfl | rfl <;> rfl

theorem wellFormed3 : WellFormed (table3 (F := F64 L)) := by
  refine ⟨⟨?_, rfl⟩, fun row hrow => ⟨?_, ?_⟩⟩
  · show Ascending [_, _, _, _, _, _, _]
    ascending_literals
  · show Ascending [_, _, _, _, _, _, _, _, _, _, _, _]
    ascending_literals
  · simp only [List.mem_cons, List.not_mem_nil, or_false] at hrow
    rcases hrow with rfl | rfl | rfl | rfl | rfl | rfl | rfl <;> rfl

theorem wellFormed4 : WellFormed (table4 (F := F64 L)) := by
  refine ⟨⟨?_, rfl⟩, fun row hrow => ⟨?_, ?_⟩⟩
  · show Ascending [_, _, _, _, _, _, _]
    ascending_literals
  · show Ascending [_, _, _, _, _, _, _, _, _, _, _, _]
    ascending_literals
  · simp only [List.mem_cons, List.not_mem_nil, or_false] at hrow
    rcases hrow with rfl | rfl | rfl | rfl | rfl | rfl | rfl <;> rfl

theorem table1_loads : De.table (.obj (tableMembers (table1 (F := F64 L)))) = some table1 :=
  C02_wellFormed_table_loads _ wellFormed1 (.inl (List.Perm.refl _))
theorem table2_loads : De.table (.obj (tableMembers (table2 (F := F64 L)))) = some table2 :=
  C02_wellFormed_table_loads _ wellFormed2 (.inl (List.Perm.refl _))
theorem table3_loads : De.table (.obj (tableMembers (table3 (F := F64 L)))) = some table3 :=
  C02_wellFormed_table_loads _ wellFormed3 (.inl (List.Perm.refl _))
theorem table4_loads : De.table (.obj (tableMembers (table4 (F := F64 L)))) = some table4 :=
  C02_wellFormed_table_loads _ wellFormed4 (.inl (List.Perm.refl _))

theorem loads_time : De.stateVariable (.str "time" : Json (F64 L)) = some .time :=
  De.stateVariable_str .time
theorem loads_since : De.stateVariable (.str "time_since_event" : Json (F64 L)) =
    some .timeSinceEvent := De.stateVariable_str .timeSinceEvent
theorem loads_propellant : De.stateVariable (.str "propellant_mass" : Json (F64 L)) =
    some .propellantMass := De.stateVariable_str .propellantMass

theorem vehicleConfig_of {F : Type} [Flt F] {l : List (String × Json F)} {a b c : Option F}
    {d e f : Option (Table F)} {g : Option (List (Engine F))}
    (hm : De.members ["structure_mass", "propellant_mass", "reference_area", "drag_coeff",
      "lift_coeff", "side_force_coeff", "engines"] 0 (.obj l) = some l)
    (h1 : De.opt l "structure_mass" De.f64 = some a)
    (h2 : De.opt l "propellant_mass" De.f64 = some b)
    (h3 : De.opt l "reference_area" De.f64 = some c)
    (h4 : De.opt l "drag_coeff" De.table = some d)
    (h5 : De.opt l "lift_coeff" De.table = some e)
    (h6 : De.opt l "side_force_coeff" De.table = some f)
    (h7 : De.opt l "engines" (De.list De.engine) = some g) :
    De.vehicleConfig (.obj l) = some ⟨a, b, c, d, e, f, g⟩ := by
  simp only [De.vehicleConfig, hm, h1, h2, h3, h4, h5, h6, h7, bind, Option.bind]
  rfl

theorem phaseConfig_of {F : Type} [Flt F] {l : List (String × Json F)} {a : Option (InitConfig F)}
    {b : Option (VehicleConfig F)} {c : Option (SteeringConfig F)} {d : Option (PlanetConfig F)}
    {e : Option (AtmosphereConfig F)} {f g : Option F} {h : Option (StateVariable × F)}
    (hm : De.members ["init", "vehicle", "steering", "planet_model", "atmosphere",
      "max_acceleration", "stepsize", "end_criterion"] 0 (.obj l) = some l)
    (h1 : De.opt l "init" De.initConfig = some a)
    (h2 : De.opt l "vehicle" De.vehicleConfig = some b)
    (h3 : De.opt l "steering" De.steeringConfig = some c)
    (h4 : De.opt l "planet_model" De.planetConfig = some d)
    (h5 : De.opt l "atmosphere" De.atmosphereConfig = some e)
    (h6 : De.opt l "max_acceleration" De.f64 = some f)
    (h7 : De.opt l "stepsize" De.f64 = some g)
    (h8 : De.opt l "end_criterion" (De.pair De.stateVariable De.f64) = some h) :
    De.phaseConfig (.obj l) = some ⟨a, b, c, d, e, f, g, h⟩ := by
  simp only [De.phaseConfig, hm, h1, h2, h3, h4, h5, h6, h7, h8, bind, Option.bind]
  rfl

theorem opt_table {F : Type} [Flt F] {l : List (String × Json F)} {k : String} {m : List (String × Json F)}
    {t : Table F} (h : De.opt l k De.table = (De.table (.obj m)).map some)
    (ht : De.table (.obj m) = some t) : De.opt l k De.table = some (some t) := by
  rw [h, ht]; rfl

theorem opt_vehicle {F : Type} [Flt F] {l m : List (String × Json F)}
    {v : VehicleConfig F} (h : De.opt l "vehicle" De.vehicleConfig = (De.vehicleConfig (.obj m)).map some)
    (hv : De.vehicleConfig (.obj m) = some v) :
    De.opt l "vehicle" De.vehicleConfig = some (some v) := by
  rw [h, hv]; rfl

theorem section1_loads : De.phaseConfig (.obj (section1 (F := F64 L))) = some phase1 :=
  phaseConfig_of rfl rfl
    (opt_vehicle (m := vehicle1) rfl (vehicleConfig_of rfl rfl rfl rfl (opt_table rfl table1_loads)
      (opt_table rfl table2_loads) rfl rfl)) rfl rfl rfl rfl rfl rfl

theorem section2_loads : De.phaseConfig (.obj (section2 (F := F64 L))) = some phase2 := rfl

theorem section3_loads : De.phaseConfig (.obj (section3 (F := F64 L))) = some phase3 := rfl

theorem section4_loads : De.phaseConfig (.obj (section4 (F := F64 L))) = some phase4 := rfl

theorem section5_loads : De.phaseConfig (.obj (section5 (F := F64 L))) = some phase5 := rfl

theorem section6_loads : De.phaseConfig (.obj (section6 (F := F64 L))) = some phase6 := rfl

theorem section7_loads : De.phaseConfig (.obj (section7 (F := F64 L))) = some phase7 := rfl

theorem section8_loads : De.phaseConfig (.obj (section8 (F := F64 L))) = some phase8 := rfl

theorem section9_loads : De.phaseConfig (.obj (section9 (F := F64 L))) = some phase9 :=
  phaseConfig_of rfl rfl
    (opt_vehicle (m := vehicle9) rfl (vehicleConfig_of rfl rfl rfl rfl (opt_table rfl table3_loads)
      (opt_table rfl table4_loads) rfl rfl)) rfl rfl rfl rfl rfl rfl

theorem section10_loads : De.phaseConfig (.obj (section10 (F := F64 L))) = some phase10 := rfl

theorem section11_loads : De.phaseConfig (.obj (section11 (F := F64 L))) = some phase11 := rfl

/-- The shipped example can be loaded, in double precision, and says what it is meant to say. -/
theorem loads : Simulation.fromFile (.json (document (F := F64 L))) = some phases := by
  simp [document, phases, Simulation.fromFile, De.config, De.list, section1_loads, section2_loads, section3_loads, section4_loads, section5_loads, section6_loads, section7_loads, section8_loads, section9_loads, section10_loads, section11_loads]

/-- The first six phases end at seconds 15, 25, 40, 60, 120 and 150. -/
theorem timed : Timed (.timeSinceEvent, (0 : F64 L)) 0 [phase1, phase2, phase3, phase4, phase5, phase6]
    [15, 25, 40, 60, 120, 150] := by
  refine ⟨⟨by norm_num, by norm_num, .inl ⟨rfl, is_nat 15 (by norm_num)⟩⟩,
    ⟨by norm_num, by norm_num, .inl ⟨rfl, is_nat 25 (by norm_num)⟩⟩,
    ⟨by norm_num, by norm_num, .inl ⟨rfl, is_nat 40 (by norm_num)⟩⟩,
    ⟨by norm_num, by norm_num, .inl ⟨rfl, is_nat 60 (by norm_num)⟩⟩,
    ⟨by norm_num, by norm_num, .inl ⟨rfl, is_nat 120 (by norm_num)⟩⟩,
    ⟨by norm_num, by norm_num, .inl ⟨rfl, is_nat 150 (by norm_num)⟩⟩, rfl⟩

end
end Shipped

/-- C77 for the mission that comes with the program (utils/example.json), in double precision with
any C library: it loads, and whenever the program terminates on it, the output begins with the
announcements of the first six phases and one row for each of the seconds 1, 2, …, 150, phase 2
starting after second 15, phase 3 after second 25, and so on; unless the program panics
within them, because the acceleration limit cannot be kept. -/
theorem C77_shipped_example {L : Libm} {fuel : Nat} {log : List (LogEntry (F64 L))} {ex : Exit}
    (h : main fuel (.json Shipped.document) = some (log, ex)) :
    (∃ log1 log2, log = log1 ++ log2 ∧
      List.Forall₂ ShowsLine log1 (timetable 0 0 [15, 25, 40, 60, 120, 150])) ∨
    (ex = .panic .maxAcceleration ∧
      ∃ lines, lines <+: timetable 0 0 [15, 25, 40, 60, 120, 150] ∧ List.Forall₂ ShowsLine log lines) := by
  obtain ⟨res, hres, hex⟩ := ((C56_bad_file_never_runs _).2 _ Shipped.loads log ex).1 ⟨fuel, h⟩
  have hsplit : Shipped.phases (F := F64 L) = [Shipped.phase1, Shipped.phase2, Shipped.phase3,
      Shipped.phase4, Shipped.phase5, Shipped.phase6] ++ [Shipped.phase7, Shipped.phase8,
      Shipped.phase9, Shipped.phase10, Shipped.phase11] := rfl
  rw [hsplit] at hres
  rcases C77_mission Shipped.timed hres with h1 | ⟨e, lines, h1, h2, h3, h4⟩
  · exact .inl h1
  · right
    obtain ⟨rfl, _⟩ | ⟨e', rfl, h5⟩ := hex
    · rename_i h5
      obtain ⟨s, h5⟩ := h5
      rw [h5] at h1; cases h1
    · have : e' = e := by
        rw [show res = .error e from h1] at h5; injection h5 with h5; exact h5.symm
      subst this
      refine ⟨?_, lines, h2, h3⟩
      rcases h4 fun c hc t ht => C01_accepted_tables_wellFormed Shipped.loads (c := c) (by
        rw [hsplit]; exact List.mem_append_left _ hc) ht with ⟨_, h6⟩ | rfl
      · cases h6
      · rfl

end Post
