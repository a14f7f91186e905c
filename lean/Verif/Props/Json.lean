import Verif.Lemmas.Json
import Verif.Lemmas.Table
import Verif.Toy
/-! # Properties of loading configurations (C01-C06) -/

set_option linter.unusedSectionVars false

namespace Post
open Spec
variable {F : Type} [Flt F]

namespace De

/-- Invert a successful `do` block of deserialisers. -/
macro "de_inv" "at" h:ident : tactic => `(tactic|
  simp only [Option.bind_eq_bind, Option.bind_eq_some_iff, Option.pure_def,
    Option.some.injEq] at $h:ident)

theorem toOption_some {ε α : Type} {x : Except ε α} {a : α} (h : x.toOption = some a) :
    x = .ok a := by
  cases x with
  | error e => cases h
  | ok b => injection h with h; rw [h]

theorem table1D_wellFormed {j : Json F} {t : Table1D F} (h : table1D j = some t) :
    WellFormed (.d1 t) := by
  unfold table1D at h
  de_inv at h
  obtain ⟨_, _, _, _, _, _, _, _, h⟩ := h
  exact (Table1D.tryNew_ok_iff.1 (toOption_some h)).2

theorem table2D_wellFormed {j : Json F} {t : Table2D F} (h : table2D j = some t) :
    WellFormed (.d2 t) := by
  unfold table2D at h
  de_inv at h
  obtain ⟨_, _, _, _, _, _, _, _, _, _, h⟩ := h
  exact (Table2D.tryNew_ok_iff.1 (toOption_some h)).2

theorem table3D_wellFormed {j : Json F} {t : Table3D F} (h : table3D j = some t) :
    WellFormed (.d3 t) := by
  unfold table3D at h
  de_inv at h
  obtain ⟨_, _, _, _, _, _, _, _, _, _, _, _, h⟩ := h
  exact (Table3D.tryNew_ok_iff.1 (toOption_some h)).2

theorem table_wellFormed {j : Json F} {t : Table F} (h : table j = some t) : WellFormed t := by
  unfold table at h
  split at h
  · next h1 => injection h with h; subst h; exact table1D_wellFormed h1
  · split at h
    · next h1 => injection h with h; subst h; exact table2D_wellFormed h1
    · split at h
      · next h1 => injection h with h; subst h; exact table3D_wellFormed h1
      · cases h

theorem opt_some {α : Type} {m : List (String × Json F)} {k : String} {d : Json F → Option α}
    {a : α} (h : opt m k d = some (some a)) : ∃ j, lookup k m = some j ∧ d j = some a := by
  unfold opt at h
  split at h
  · cases h
  · next j hj =>
    refine ⟨j, hj, ?_⟩
    cases j with
    | null => cases h
    | _ =>
      simp only [option, Option.map_eq_some_iff] at h
      obtain ⟨b, h1, h2⟩ := h
      injection h2 with h2
      rw [h1, h2]

theorem vehicleConfig_tables {j : Json F} {v : VehicleConfig F} (h : vehicleConfig j = some v) :
    ∀ t, (v.dragCoeff = some t ∨ v.liftCoeff = some t ∨ v.sideForceCoeff = some t) →
      WellFormed t := by
  unfold vehicleConfig at h
  de_inv at h
  obtain ⟨m, _, _, _, _, _, _, _, d, hd, l, hl, y, hy, _, _, rfl⟩ := h
  rintro t (rfl | rfl | rfl)
  · exact table_wellFormed (opt_some hd).choose_spec.2
  · exact table_wellFormed (opt_some hl).choose_spec.2
  · exact table_wellFormed (opt_some hy).choose_spec.2

end De

/-- C01.  Whenever loading a file succeeds, every table in it is well formed: at every nesting
level the arguments are strictly ascending and as many as the data has entries. -/
theorem C01_accepted_tables_wellFormed {file : File F} {cs : List (PhaseConfig F)}
    (h : Simulation.fromFile file = some cs) {c : PhaseConfig F} (hc : c ∈ cs) {t : Table F}
    (ht : t ∈ tablesOf c) : WellFormed t := by
  cases file with
  | unreadable => cases h
  | notJson => cases h
  | json j =>
    have h' : De.list De.phaseConfig j = some cs := h
    cases j with
    | arr l =>
      obtain ⟨j, _, hj⟩ := (De.mapM_mem (f := De.phaseConfig) h').2 c hc
      unfold De.phaseConfig at hj
      de_inv at hj
      obtain ⟨m, _, _, _, v, hv, _, _, _, _, _, _, _, _, _, _, _, _, rfl⟩ := hj
      simp only [tablesOf] at ht
      cases v with
      | none => simp at ht
      | some v =>
        have := De.vehicleConfig_tables (De.opt_some hv).choose_spec.2 t
        simp at ht
        apply this
        tauto
    | _ => cases h'

/-! ## C02: well-formed tables are accepted verbatim -/

namespace De

theorem members_perm {keys : List String} {d : Nat} {m m' : List (String × Json F)}
    (hp : m.Perm m') (h : membersOk keys m' = true) : members keys d (.obj m) = some m := by
  simp only [members]
  rw [if_pos]
  rw [membersOk_iff] at h ⊢
  exact ⟨fun e he => h.1 e (hp.mem_iff.1 he), (hp.map _).nodup_iff.2 h.2⟩

theorem lookup_perm {m m' : List (String × Json F)} (hp : m.Perm m')
    (h : (m'.map Prod.fst).Nodup) {k : String} {v : Json F} (hk : (k, v) ∈ m') :
    lookup k m = some v :=
  lookup_of_mem (hp.mem_iff.2 hk) ((hp.map _).nodup_iff.2 h)

theorem members_reject {keys : List String} {d : Nat} {m : List (String × Json F)}
    {e : String × Json F} (he : e ∈ m) (hk : e.1 ∉ keys) : members keys d (.obj m) = none := by
  simp only [members]
  rw [if_neg]
  rw [membersOk_iff]
  exact fun h => hk (h.1 e he)

theorem list_list_numbers (l : List (List F)) :
    list (list f64) (.arr (l.map numbers)) = some l := by
  show (l.map numbers).mapM (list f64) = _
  rw [mapM_map (list f64) numbers id l (fun _ _ => list_numbers _)]; simp

theorem list_list_list_numbers (l : List (List (List F))) :
    list (list (list f64)) (.arr (l.map fun p => .arr (p.map numbers))) = some l := by
  show (l.map fun p => Json.arr (p.map numbers)).mapM (list (list f64)) = _
  rw [mapM_map (list (list f64)) (fun p => Json.arr (p.map numbers)) id l
    (fun _ _ => list_list_numbers _)]
  simp

end De

/-- The interpolation method of a table. -/
def Table.interpolator : Table F → Interpolator
  | .d1 t => t.interpolator
  | .d2 t => t.interpolator
  | .d3 t => t.interpolator

open De in
/-- C02.  The JSON object describing a well-formed table, with its members in any order and
with or without naming the interpolation method, loads as exactly this table. -/
theorem C02_wellFormed_table_loads (t : Table F) (ht : WellFormed t)
    {m : List (String × Json F)}
    (hm : m.Perm (tableMembers t) ∨ m.Perm (("interpolator", .str "linear") :: tableMembers t)) :
    De.table (.obj m) = some t := by
  have hlin : snakeCase "Linear" = "linear" := by decide +kernel
  obtain ⟨m', hp, hm'⟩ : ∃ m', m.Perm m' ∧ (m' = tableMembers t ∨
      m' = ("interpolator", .str "linear") :: tableMembers t) := by
    rcases hm with h | h
    · exact ⟨_, h, .inl rfl⟩
    · exact ⟨_, h, .inr rfl⟩
  have hsub : ∀ e ∈ tableMembers t, e ∈ m' := by
    rcases hm' with rfl | rfl
    · exact fun e he => he
    · exact fun e he => List.mem_cons_of_mem _ he
  have hnodup : (m'.map Prod.fst).Nodup := by
    rcases hm' with rfl | rfl <;> cases t <;> simp [tableMembers]
  have hinterp : dflt m "interpolator" De.interpolator .linear = some .linear := by
    unfold dflt
    rcases hm' with rfl | rfl
    · rw [lookup_none]
      intro e he
      have := hp.mem_iff.1 he
      cases t <;> (simp [tableMembers] at this; rcases this with rfl | rfl | rfl | rfl | rfl) <;>
        first | decide | simp
    · rw [lookup_perm hp hnodup (v := .str "linear") (by simp)]
      simp [De.interpolator, variant, unitContent, hlin]
  have hlook : ∀ k v, (k, v) ∈ tableMembers t → lookup k m = some v :=
    fun k v hk => lookup_perm hp hnodup (hsub _ hk)
  have hrej : ∀ (keys : List String) (d : Nat) (k : String) (v : Json F),
      (k, v) ∈ tableMembers t → k ∉ keys → members keys d (.obj m) = none :=
    fun keys d k v hk hn => members_reject (e := (k, v)) (hp.mem_iff.2 (hsub _ hk)) hn
  cases t with
  | d1 t =>
    have hmem : members ["x", "data", "interpolator"] 1 (.obj m) = some m := by
      apply members_perm hp
      rcases hm' with rfl | rfl <;> simp [membersOk, tableMembers]
    obtain ⟨x, data, ⟨⟩⟩ := t
    have hx : lookup "x" m = some (axisJson x) := hlook _ _ (by simp [tableMembers])
    have hdata : lookup "data" m = some (numbers data) := hlook _ _ (by simp [tableMembers])
    have h1 : table1D (.obj m) = some ⟨x, data, .linear⟩ := by
      simp only [table1D, hmem, req, hx, hdata, axis_axisJson, list_numbers, hinterp,
        Option.bind_eq_bind, Option.bind_some]
      rw [Table1D.tryNew_ok_iff.2 ⟨rfl, ht⟩]; rfl
    simp [De.table, h1]
  | d2 t =>
    have hmem : members ["x", "y", "data", "interpolator"] 1 (.obj m) = some m := by
      apply members_perm hp
      rcases hm' with rfl | rfl <;> simp [membersOk, tableMembers]
    obtain ⟨x, y, data, ⟨⟩⟩ := t
    have hx : lookup "x" m = some (axisJson x) := hlook _ _ (by simp [tableMembers])
    have hy : lookup "y" m = some (axisJson y) := hlook _ _ (by simp [tableMembers])
    have hdata : lookup "data" m = some (.arr (data.map numbers)) :=
      hlook _ _ (by simp [tableMembers])
    have hr : members ["x", "data", "interpolator"] 1 (.obj m) = none :=
      hrej _ _ "y" (axisJson y) (by simp [tableMembers]) (by decide)
    have h1 : table1D (.obj m) = none := by
      simp only [table1D, hr, Option.bind_eq_bind, Option.bind_none]
    have h2 : table2D (.obj m) = some ⟨x, y, data, .linear⟩ := by
      simp only [table2D, hmem, req, hx, hy, hdata, axis_axisJson, list_list_numbers, hinterp,
        Option.bind_eq_bind, Option.bind_some]
      rw [Table2D.tryNew_ok_iff.2 ⟨rfl, ht⟩]; rfl
    simp [De.table, h1, h2]
  | d3 t =>
    have hmem : members ["x", "y", "z", "data", "interpolator"] 1 (.obj m) = some m := by
      apply members_perm hp
      rcases hm' with rfl | rfl <;> simp [membersOk, tableMembers]
    obtain ⟨x, y, z, data, ⟨⟩⟩ := t
    have hx : lookup "x" m = some (axisJson x) := hlook _ _ (by simp [tableMembers])
    have hy : lookup "y" m = some (axisJson y) := hlook _ _ (by simp [tableMembers])
    have hz : lookup "z" m = some (axisJson z) := hlook _ _ (by simp [tableMembers])
    have hdata : lookup "data" m = some (.arr (data.map fun p => .arr (p.map numbers))) :=
      hlook _ _ (by simp [tableMembers])
    have hr1 : members ["x", "data", "interpolator"] 1 (.obj m) = none :=
      hrej _ _ "y" (axisJson y) (by simp [tableMembers]) (by decide)
    have hr2 : members ["x", "y", "data", "interpolator"] 1 (.obj m) = none :=
      hrej _ _ "z" (axisJson z) (by simp [tableMembers]) (by decide)
    have h1 : table1D (.obj m) = none := by
      simp only [table1D, hr1, Option.bind_eq_bind, Option.bind_none]
    have h2 : table2D (.obj m) = none := by
      simp only [table2D, hr2, Option.bind_eq_bind, Option.bind_none]
    have h3 : table3D (.obj m) = some ⟨x, y, z, data, .linear⟩ := by
      simp only [table3D, hmem, req, hx, hy, hz, hdata, axis_axisJson, list_list_list_numbers,
        hinterp, Option.bind_eq_bind, Option.bind_some]
      rw [Table3D.tryNew_ok_iff.2 ⟨rfl, ht⟩]; rfl
    simp [De.table, h1, h2, h3]

/-- A well-formed two-dimensional table, given with its members in another order. -/
example : De.table (F := Fix) (.obj [
    ("data", .arr [.arr [.num 1, .num 2], .arr [.num 3, .num 4]]),
    ("y", .arr [.str "mach_number", .arr [.num 0, .num 1]]),
    ("x", .arr [.str "alpha", .arr [.num 0, .num 5]])]) =
    some (.d2 ⟨(.alpha, [0, 5]), (.machNumber, [0, 1]), [[1, 2], [3, 4]], .linear⟩) := by
  apply C02_wellFormed_table_loads
  · refine ⟨⟨(windowsAscending_iff _).1 (by decide), rfl⟩, fun r hr => ?_⟩
    simp at hr
    rcases hr with rfl | rfl <;> exact ⟨(windowsAscending_iff _).1 (by decide), rfl⟩
  · left
    simp only [tableMembers, axisJson, numbers, variableName, List.map]
    exact List.reverse_perm [("x", Json.arr [Json.str "alpha", Json.arr [Json.num 0, Json.num 5]]),
      ("y", Json.arr [Json.str "mach_number", Json.arr [Json.num 0, Json.num 1]]),
      ("data", Json.arr [Json.arr [Json.num 1, Json.num 2], Json.arr [Json.num 3, Json.num 4]])]

/-- C01 is not vacuous: a file holding a table loads. -/
example : (match Simulation.fromFile (F := Fix) (.json (.arr [.obj [("vehicle", .obj [
    ("drag_coeff", .obj [("x", .arr [.str "alpha", .arr [.num 0, .num 5]]),
      ("data", .arr [.num 1, .num 2])])])]])) with
    | some [c] => (tablesOf c).length == 1
    | _ => false) = true := by decide +kernel

/-! ## C03: null means not specified -/

namespace De

theorem lookup_insert_ne {m1 m2 : List (String × Json F)} {k k' : String} {v : Json F}
    (h : k ≠ k') : lookup k' (m1 ++ (k, v) :: m2) = lookup k' (m1 ++ m2) := by
  induction m1 with
  | nil => simp [lookup, h]
  | cons e m1 ih =>
    obtain ⟨k1, v1⟩ := e
    simp only [List.cons_append, lookup, ih]

theorem opt_null {α : Type} {m1 m2 : List (String × Json F)} {k : String}
    (hk : ∀ e ∈ m1 ++ m2, e.1 ≠ k) (k' : String) (d : Json F → Option α) :
    opt (m1 ++ (k, .null) :: m2) k' d = opt (m1 ++ m2) k' d := by
  unfold opt
  by_cases h : k = k'
  · subst h
    rw [lookup_none hk]
    have : lookup k (m1 ++ (k, Json.null) :: m2) = some .null := by
      induction m1 with
      | nil => simp [lookup]
      | cons e m1 ih =>
        obtain ⟨k1, v1⟩ := e
        have h1 : k1 ≠ k := hk (k1, v1) (by simp)
        simp only [List.cons_append, lookup, beq_iff_eq, h1, if_false]
        exact ih fun e he => hk e (by simp at he ⊢; tauto)
    simp [this, option]
  · rw [lookup_insert_ne h]

theorem membersOk_insert {keys : List String} {m1 m2 : List (String × Json F)} {k : String}
    {v : Json F} (hkey : k ∈ keys) (hk : ∀ e ∈ m1 ++ m2, e.1 ≠ k) :
    membersOk keys (m1 ++ (k, v) :: m2) = membersOk keys (m1 ++ m2) := by
  rw [Bool.eq_iff_iff, membersOk_iff, membersOk_iff]
  have hp : (m1 ++ (k, v) :: m2).Perm ((k, v) :: (m1 ++ m2)) := List.perm_middle
  rw [(hp.map Prod.fst).nodup_iff, List.map_cons, List.nodup_cons]
  have : (∀ e ∈ m1 ++ (k, v) :: m2, e.1 ∈ keys) ↔ (∀ e ∈ m1 ++ m2, e.1 ∈ keys) := by
    constructor
    · exact fun h e he => h e (hp.mem_iff.2 (List.mem_cons_of_mem _ he))
    · intro h e he
      rcases List.mem_cons.1 (hp.mem_iff.1 he) with rfl | he
      · exact hkey
      · exact h e he
  rw [this]
  have : k ∉ (m1 ++ m2).map Prod.fst := by
    intro h
    obtain ⟨e, he, h⟩ := List.mem_map.1 h
    exact hk e he h
  tauto

end De

/-- The loader of each kind of section whose parameters are all optional. -/
inductive Spec.OptionalSection : {α : Type} → List String → (Json F → Option α) → Prop
  | phase : OptionalSection Kind.phase.keys De.phaseConfig
  | vehicle : OptionalSection Kind.vehicle.keys De.vehicleConfig
  | steering : OptionalSection Kind.steering.keys De.steeringConfig
  | atmosphere : OptionalSection Kind.atmosphere.keys De.atmosphereConfig

/-- C03.  In a phase, vehicle, steering or atmosphere section, giving a parameter the value null
is the same as not giving it. -/
theorem C03_null_is_absent {α : Type} {keys : List String} {load : Json F → Option α}
    (h : OptionalSection keys load) {m1 m2 : List (String × Json F)} {k : String}
    (hkey : k ∈ keys) (hk : ∀ e ∈ m1 ++ m2, e.1 ≠ k) :
    load (.obj (m1 ++ (k, .null) :: m2)) = load (.obj (m1 ++ m2)) := by
  have hm := fun v => De.membersOk_insert (v := v) hkey hk
  have ho := fun {α : Type} k' (d : Json F → Option α) => De.opt_null hk k' d
  cases h with
  | phase =>
    simp only [Kind.keys] at hm
    simp only [De.phaseConfig, De.members, hm]
    by_cases hb : De.membersOk ["init", "vehicle", "steering", "planet_model", "atmosphere",
      "max_acceleration", "stepsize", "end_criterion"] (m1 ++ m2) = true <;>
      simp [hb, ho]
  | vehicle =>
    simp only [Kind.keys] at hm
    simp only [De.vehicleConfig, De.members, hm]
    by_cases hb : De.membersOk ["structure_mass", "propellant_mass", "reference_area",
      "drag_coeff", "lift_coeff", "side_force_coeff", "engines"] (m1 ++ m2) = true <;>
      simp [hb, ho]
  | steering =>
    simp only [Kind.keys] at hm
    simp only [De.steeringConfig, De.members, hm]
    by_cases hb : De.membersOk ["roll", "yaw", "pitch"] (m1 ++ m2) = true <;> simp [hb, ho]
  | atmosphere =>
    simp only [Kind.keys] at hm
    simp only [De.atmosphereConfig, De.members, hm]
    by_cases hb : De.membersOk ["enabled", "wind"] (m1 ++ m2) = true <;> simp [hb, ho]

/-- A phase with and without a null parameter loads. -/
example : (De.phaseConfig (F := Fix) (.obj [("stepsize", .num 2), ("vehicle", .null)])).isSome ∧
    (De.phaseConfig (F := Fix) (.obj [("stepsize", .num 2)])).isSome := by decide +kernel

/-! ## C04: misspelled and duplicate keys are refused -/

/-- The loader accepts `j` as a section of the given kind. -/
def Spec.Accepted : Kind → Json F → Prop
  | .phase, j => ∃ c, De.phaseConfig j = some c
  | .init, j => ∃ c, De.initConfig j = some c
  | .vehicle, j => ∃ c, De.vehicleConfig j = some c
  | .steering, j => ∃ c, De.steeringConfig j = some c
  | .atmosphere, j => ∃ c, De.atmosphereConfig j = some c
  | .customPlanet, j => ∃ c, De.planetConfig (.obj [("custom", j)]) = some c
  | .engine, j => ∃ c, De.engine j = some c
  | .table, j => ∃ c, De.table j = some c

theorem Spec.Section.accepted {root j : Json F} {kind : Kind} (h : Section root kind j)
    {cs : List (PhaseConfig F)} (hroot : De.config root = some cs) :
    Accepted kind j ∨ j = .null := by
  induction h with
  | phase hr hj =>
    subst hr
    obtain ⟨c, _, hc⟩ := (De.mapM_mem (f := De.phaseConfig) hroot).1 _ hj
    exact .inl ⟨c, hc⟩
  | @ofPhase j v k kind hk _ hg ih =>
    rcases ih with ⟨c, hc⟩ | rfl
    · unfold De.phaseConfig at hc
      de_inv at hc
      obtain ⟨m, hm, i, hi, ve, hv, st, hst, _, _, a, ha, _⟩ := hc
      have hl := De.members_given (by decide) hm hg
      simp at hk
      rcases hk with ⟨rfl, rfl⟩ | ⟨rfl, rfl⟩ | ⟨rfl, rfl⟩ | ⟨rfl, rfl⟩
      · rcases De.opt_lookup hl hi with h | ⟨a, h, _⟩
        exacts [.inr h, .inl ⟨a, h⟩]
      · rcases De.opt_lookup hl hv with h | ⟨a, h, _⟩
        exacts [.inr h, .inl ⟨a, h⟩]
      · rcases De.opt_lookup hl hst with h | ⟨a, h, _⟩
        exacts [.inr h, .inl ⟨a, h⟩]
      · rcases De.opt_lookup hl ha with h | ⟨a, h, _⟩
        exacts [.inr h, .inl ⟨a, h⟩]
    · rcases hg with ⟨m, hm, _⟩ | ⟨l, i, hl, _⟩
      · cases hm
      · cases hl
  | @customPlanet j v _ hg ih =>
    rcases ih with ⟨c, hc⟩ | rfl
    · unfold De.phaseConfig at hc
      de_inv at hc
      obtain ⟨m, hm, _, _, _, _, _, _, p, hp, _⟩ := hc
      have hl := De.members_given (by decide) hm hg
      rcases De.opt_lookup hl hp with h | ⟨a, h, _⟩
      · cases h
      · exact .inl ⟨a, h⟩
    · rcases hg with ⟨m, hm, _⟩ | ⟨l, i, hl, _⟩
      · cases hm
      · cases hl
  | @table j v k hk _ hg ih =>
    rcases ih with ⟨c, hc⟩ | rfl
    · unfold De.vehicleConfig at hc
      de_inv at hc
      obtain ⟨m, hm, _, _, _, _, _, _, d, hd, li, hli, y, hy, _⟩ := hc
      have hl := De.members_given (by decide) hm hg
      simp at hk
      rcases hk with rfl | rfl | rfl
      · rcases De.opt_lookup hl hd with h | ⟨a, h, _⟩
        exacts [.inr h, .inl ⟨a, h⟩]
      · rcases De.opt_lookup hl hli with h | ⟨a, h, _⟩
        exacts [.inr h, .inl ⟨a, h⟩]
      · rcases De.opt_lookup hl hy with h | ⟨a, h, _⟩
        exacts [.inr h, .inl ⟨a, h⟩]
    · rcases hg with ⟨m, hm, _⟩ | ⟨l, i, hl, _⟩
      · cases hm
      · cases hl
  | @engine j e l _ hg he ih =>
    rcases ih with ⟨c, hc⟩ | rfl
    · unfold De.vehicleConfig at hc
      de_inv at hc
      obtain ⟨m, hm, _, _, _, _, _, _, _, _, _, _, _, _, en, hen, _⟩ := hc
      have hl := De.members_given (by decide) hm hg
      rcases De.opt_lookup hl hen with h | ⟨a, h, _⟩
      · cases h
      · obtain ⟨b, _, hb⟩ := (De.mapM_mem (f := De.engine) h).1 _ he
        exact .inl ⟨b, hb⟩
    · rcases hg with ⟨m, hm, _⟩ | ⟨l, i, hl, _⟩
      · cases hm
      · cases hl

theorem Spec.Accepted.keys {kind : Kind} {m : List (String × Json F)}
    (h : Accepted kind (.obj m)) :
    (∀ e ∈ m, e.1 ∈ kind.keys) ∧ (m.map Prod.fst).Nodup := by
  cases kind with
  | phase =>
    obtain ⟨c, h⟩ := h
    unfold De.phaseConfig at h; de_inv at h
    obtain ⟨m', h, _⟩ := h
    exact De.members_obj h
  | init =>
    obtain ⟨c, h⟩ := h
    unfold De.initConfig at h; de_inv at h
    obtain ⟨m', h, _⟩ := h
    exact De.members_obj h
  | vehicle =>
    obtain ⟨c, h⟩ := h
    unfold De.vehicleConfig at h; de_inv at h
    obtain ⟨m', h, _⟩ := h
    exact De.members_obj h
  | steering =>
    obtain ⟨c, h⟩ := h
    unfold De.steeringConfig at h; de_inv at h
    obtain ⟨m', h, _⟩ := h
    exact De.members_obj h
  | atmosphere =>
    obtain ⟨c, h⟩ := h
    unfold De.atmosphereConfig at h; de_inv at h
    obtain ⟨m', h, _⟩ := h
    exact De.members_obj h
  | engine =>
    obtain ⟨c, h⟩ := h
    unfold De.engine at h; de_inv at h
    obtain ⟨m', h, _⟩ := h
    exact De.members_obj h
  | customPlanet =>
    obtain ⟨c, h⟩ := h
    have h1 : ("custom" == De.snakeCase "Spherical") = false := by decide +kernel
    have h2 : ("custom" == De.snakeCase "Fisher1960") = false := by decide +kernel
    have h3 : ("custom" == De.snakeCase "Smithsonian") = false := by decide +kernel
    have h4 : ("custom" == De.snakeCase "Custom") = true := by decide +kernel
    simp only [De.planetConfig, De.variant, h1, h2, h3, h4, Option.bind_eq_bind,
      Option.bind_some, if_true, Bool.false_eq_true, if_false] at h
    de_inv at h
    obtain ⟨m', h, _⟩ := h
    exact De.members_obj h
  | table =>
    obtain ⟨c, h⟩ := h
    unfold De.table at h
    split at h
    · next h1 =>
      unfold De.table1D at h1; de_inv at h1
      obtain ⟨m', h1, _⟩ := h1
      have := De.members_obj h1
      refine ⟨fun e he => ?_, this.2⟩
      have := this.1 e he
      simp [Kind.keys] at this ⊢; tauto
    · split at h
      · next h1 =>
        unfold De.table2D at h1; de_inv at h1
        obtain ⟨m', h1, _⟩ := h1
        have := De.members_obj h1
        refine ⟨fun e he => ?_, this.2⟩
        have := this.1 e he
        simp [Kind.keys] at this ⊢; tauto
      · split at h
        · next h1 =>
          unfold De.table3D at h1; de_inv at h1
          obtain ⟨m', h1, _⟩ := h1
          exact De.members_obj h1
        · cases h

/-- C04.  A file in which some section, at any nesting level, has a key that is not a parameter
of this kind of section, or has a key twice, is not accepted. -/
theorem C04_bad_keys_refused {root : Json F} {kind : Kind} {m : List (String × Json F)}
    (h : Section root kind (.obj m))
    (hbad : (∃ e ∈ m, e.1 ∉ kind.keys) ∨ ¬ (m.map Prod.fst).Nodup) :
    Simulation.fromFile (.json root) = none := by
  cases hr : De.config root with
  | none => exact hr
  | some cs =>
    rcases h.accepted hr with h | h
    · have := h.keys
      rcases hbad with ⟨e, he, hn⟩ | hn
      · exact absurd (this.1 e he) hn
      · exact absurd this.2 hn
    · cases h

/-- A misspelled parameter of an engine in the second phase is such a key. -/
example (x : Json Fix) : Section (F := Fix) (.arr [.obj [], .obj [("vehicle",
    .obj [("engines", .arr [.obj [("thrust", x)]])])]]) .engine (.obj [("thrust", x)]) ∧
    "thrust" ∉ Kind.engine.keys :=
  ⟨.engine (.ofPhase (k := "vehicle") (kind := .vehicle) (by simp)
      (.phase rfl (List.mem_cons_of_mem _ (List.mem_cons_self ..)))
      (.inl ⟨_, rfl, List.mem_cons_self ..⟩))
    (.inl ⟨_, rfl, List.mem_cons_self ..⟩) (List.mem_cons_self ..), by decide⟩

/-! ## C05: variable names -/

/-- C05 (the manual's table).  Each simulation variable of the user manual is accepted and
selects the documented quantity in every state. -/
theorem C05_manual_variables : ∀ e ∈ manualVariables (F := F),
    ∃ v, De.stateVariable (.str e.1 : Json F) = some v ∧ ∀ s, v.getValue s = e.2 s := by
  have key : ∀ (v : StateVariable) (q : State F → F), (∀ s, v.getValue s = q s) →
      ∃ w, De.stateVariable (.str (variableName v) : Json F) = some w ∧
        ∀ s, w.getValue s = q s :=
    fun v q h => ⟨v, De.stateVariable_str v, h⟩
  simp only [manualVariables, List.forall_mem_cons]
  refine ⟨key .time _ fun _ => rfl,
    key .timeSinceEvent _ fun _ => rfl,
    key .position1 _ fun _ => rfl,
    key .position2 _ fun _ => rfl,
    key .position3 _ fun _ => rfl,
    key .positionNorm _ fun _ => rfl,
    key .positionPlanet1 _ fun _ => rfl,
    key .positionPlanet2 _ fun _ => rfl,
    key .positionPlanet3 _ fun _ => rfl,
    key .altitude _ fun _ => rfl,
    key .altitudeGeopotential _ fun _ => rfl,
    key .velocity1 _ fun _ => rfl,
    key .velocity2 _ fun _ => rfl,
    key .velocity3 _ fun _ => rfl,
    key .velocityNorm _ fun _ => rfl,
    key .velocityPlanet1 _ fun _ => rfl,
    key .velocityPlanet2 _ fun _ => rfl,
    key .velocityPlanet3 _ fun _ => rfl,
    key .velocityPlanetNorm _ fun _ => rfl,
    key .velocityAtmosphere1 _ fun _ => rfl,
    key .velocityAtmosphere2 _ fun _ => rfl,
    key .velocityAtmosphere3 _ fun _ => rfl,
    key .velocityAtmosphereNorm _ fun _ => rfl,
    key .gravityAcceleration1 _ fun _ => rfl,
    key .gravityAcceleration2 _ fun _ => rfl,
    key .gravityAcceleration3 _ fun _ => rfl,
    key .gravityAccelerationNorm _ fun _ => rfl,
    key .mass _ fun _ => rfl,
    key .propellantMass _ fun _ => rfl,
    key .temperature _ fun _ => rfl,
    key .pressure _ fun _ => rfl,
    key .density _ fun _ => rfl,
    key .machNumber _ fun _ => rfl,
    key .dynamicPressure _ fun _ => rfl,
    key .alpha _ fun _ => rfl,
    key .eulerAnglesRoll _ fun _ => rfl,
    key .eulerAnglesYaw _ fun _ => rfl,
    key .eulerAnglesPitch _ fun _ => rfl, by simp⟩

/-- C05 (nothing else).  A string is accepted as the name of a variable exactly if it is the
snake-case name of that variable. -/
theorem C05_only_these_names (s : String) (v : StateVariable) :
    De.stateVariable (.str s : Json F) = some v ↔ s = variableName v := by
  rw [← De.stateVariableOfName_iff]
  simp only [De.stateVariable, De.variant, De.unitContent, Option.bind_eq_bind,
    Option.bind_some, Option.pure_def]
  cases De.stateVariableOfName s <;> simp

/-- A misspelled name is not accepted. -/
example : De.stateVariable (.str "position_norm1" : Json Fix) = none := by
  cases h : De.stateVariable (.str "position_norm1" : Json Fix) with
  | none => rfl
  | some v =>
    exfalso
    have := (C05_only_these_names _ v).1 h
    revert this
    cases v <;> decide +kernel

/-! ## C06: planet model names -/

/-- C06 (partial: three of the four documented names).  Missing: `fisher_1960`, which is
refused. -/
theorem C06_planet_names_partial :
    De.planetConfig (.str "spherical" : Json F) = some .spherical ∧
    De.planetConfig (.str "smithsonian" : Json F) = some .smithsonian ∧
    ∀ (a b w mu j2 j3 j4 : F) (m : List (String × Json F)),
      m.Perm [("equatorial_radius", .num a), ("polar_radius", .num b),
        ("gravitational_parameters", .arr [.num mu, .num j2, .num j3, .num j4]),
        ("rotation_rate", .num w)] →
      De.planetConfig (.obj [("custom", .obj m)]) = some (.custom a b ⟨mu, j2, j3, j4⟩ w) := by
  have h1 : De.snakeCase "Spherical" = "spherical" := by decide +kernel
  have h2 : De.snakeCase "Fisher1960" = "fisher1960" := by decide +kernel
  have h3 : De.snakeCase "Smithsonian" = "smithsonian" := by decide +kernel
  have h4 : De.snakeCase "Custom" = "custom" := by decide +kernel
  refine ⟨?_, ?_, ?_⟩
  · simp [De.planetConfig, De.variant, h1, De.unitContent]
  · simp [De.planetConfig, De.variant, h1, h2, h3, De.unitContent]
  · intro a b w mu j2 j3 j4 m hp
    have hmem : De.members
        ["equatorial_radius", "polar_radius", "gravitational_parameters", "rotation_rate"] 0
        (.obj m) = some m := De.members_perm hp (by simp [De.membersOk])
    have hl : ∀ k v, _ → De.lookup k m = some v :=
      fun k v => De.lookup_perm hp (by simp) (k := k) (v := v)
    simp [De.planetConfig, De.variant, h1, h2, h3, h4, hmem, De.req,
      hl "equatorial_radius" (.num a) (by simp), hl "polar_radius" (.num b) (by simp),
      hl "gravitational_parameters" (.arr [.num mu, .num j2, .num j3, .num j4]) (by simp),
      hl "rotation_rate" (.num w) (by simp), De.f64, De.arr4]

/-- C06 as documented is false: a file naming the planet model `fisher_1960` is refused, while
the undocumented name `fisher1960` selects the Fisher model. -/
theorem C06_refuted :
    Simulation.fromFile (F := F) (.json (.arr [.obj [("planet_model", .str "fisher_1960")]])) =
      none ∧
    De.planetConfig (.str "fisher1960" : Json F) = some .fisher1960 := by
  have h1 : De.snakeCase "Spherical" = "spherical" := by decide +kernel
  have h2 : De.snakeCase "Fisher1960" = "fisher1960" := by decide +kernel
  have h3 : De.snakeCase "Smithsonian" = "smithsonian" := by decide +kernel
  have h4 : De.snakeCase "Custom" = "custom" := by decide +kernel
  have h : De.planetConfig (.str "fisher_1960" : Json F) = none := by
    simp [De.planetConfig, De.variant, h1, h2, h3, h4]
  constructor
  · simp [Simulation.fromFile, De.config, De.list, De.phaseConfig, De.members, De.membersOk,
      De.opt, De.lookup, De.option, h]
  · simp [De.planetConfig, De.variant, h1, h2, De.unitContent]

end Post
