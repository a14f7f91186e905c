import Verif.Spec.JsonNotation
import Verif.Lemmas.NumberF64
/-! # The order of keys does not matter -/

namespace Post
open Spec

namespace De
variable {F : Type}

/-- The function does not see the order of members. -/
def Blind {α : Type} (d : Json F → α) : Prop := ∀ {j j' : Json F}, Reordered Eq j j' → d j = d j'

theorem keys_perm {R : F → F → Prop} {m m' : List (String × Json F)} (h : ReorderedMembers R m m') :
    (m.map Prod.fst).Perm (m'.map Prod.fst) := by
  refine ReorderedMembers.rec (motive_1 := fun _ _ _ => True) (motive_2 := fun _ _ _ => True)
    (motive_3 := fun m m' _ => (m.map Prod.fst).Perm (m'.map Prod.fst)) trivial (fun _ => trivial) (fun _ => trivial)
    (fun _ => trivial) (fun _ _ => trivial) (fun _ _ => trivial) trivial (fun _ _ _ _ => trivial) ?_ ?_ ?_ ?_ h
  · exact .nil
  · intro s j k l m _ _ _ ih
    exact ih.cons s
  · intro a b l
    exact .swap _ _ _
  · intro l m n _ _ h1 h2
    exact h1.trans h2

theorem membersOk_names_iff {names : List String} {m : List (String × Json F)} :
    membersOk names m = true ↔ (∀ k ∈ m.map Prod.fst, k ∈ names) ∧ (m.map Prod.fst).Nodup := by
  induction m with
  | nil => simp [membersOk]
  | cons e m ih =>
    obtain ⟨k, v⟩ := e
    simp only [membersOk, Bool.and_eq_true, ih, List.map_cons, List.nodup_cons, List.mem_cons, forall_eq_or_imp,
      List.contains_iff_mem, Bool.not_eq_true', List.any_eq_false, beq_iff_eq]
    constructor
    · rintro ⟨⟨h1, h2⟩, h3, h4⟩
      refine ⟨⟨h1, h3⟩, ?_, h4⟩
      intro h
      obtain ⟨e, he, rfl⟩ := List.mem_map.1 h
      exact h2 e he rfl
    · rintro ⟨⟨h1, h3⟩, h2, h4⟩
      refine ⟨⟨h1, ?_⟩, h3, h4⟩
      rintro e he rfl
      exact h2 (List.mem_map_of_mem he)

theorem membersOk_eq {R : F → F → Prop} {names : List String} {m m' : List (String × Json F)} (h : ReorderedMembers R m m') :
    membersOk names m = membersOk names m' := by
  rw [Bool.eq_iff_iff, membersOk_names_iff, membersOk_names_iff, (keys_perm h).nodup_iff]
  simp only [(keys_perm h).mem_iff]

theorem lookup_blind {α : Type} {d : Json F → α} (hd : Blind d) (k : String) {m m' : List (String × Json F)}
    (h : ReorderedMembers Eq m m') : (m.map Prod.fst).Nodup → (lookup k m).map d = (lookup k m').map d := by
  refine ReorderedMembers.rec (motive_1 := fun _ _ _ => True) (motive_2 := fun _ _ _ => True)
    (motive_3 := fun m m' _ => (m.map Prod.fst).Nodup → (lookup k m).map d = (lookup k m').map d) trivial (fun _ => trivial)
    (fun _ => trivial) (fun _ => trivial) (fun _ _ => trivial) (fun _ _ => trivial) trivial (fun _ _ _ _ => trivial)
    ?_ ?_ ?_ ?_ h
  · intro _
    rfl
  · intro s j j' l m hj _ _ ih hn
    simp only [lookup]
    split
    · simp only [Option.map_some, hd hj]
    · exact ih (List.nodup_cons.1 hn).2
  · intro a b l hn
    simp only [List.map_cons, List.nodup_cons, List.mem_cons, not_or] at hn
    simp only [lookup]
    split_ifs with h1 h2 h2
    · exact absurd ((beq_iff_eq.1 h1).trans (beq_iff_eq.1 h2).symm) hn.1.1
    · rfl
    · rfl
    · rfl
  · intro l m n hlm _ h1 h2 hn
    exact (h1 hn).trans (h2 ((keys_perm hlm).nodup_iff.1 hn))

/-- A function of the members that looks them up by name only. -/
theorem members_blind {α : Type} (names : List String) (n : Nat) {f : List (String × Json F) → Option α}
    (hf : ∀ {m m' : List (String × Json F)},
      (∀ (k : String) (β : Type) (d : Json F → β), Blind d → (lookup k m).map d = (lookup k m').map d) → f m = f m') :
    Blind fun j => (members names n j).bind f := by
  intro j j' h
  cases h with
  | null => rfl
  | bool => rfl
  | num h => subst h; rfl
  | str => rfl
  | @arr l l' h =>
    have hlen : l.length = l'.length ∧ ∀ ns : List String, ReorderedMembers Eq (ns.zip l) (ns.zip l') := by
      clear hf
      refine ReorderedList.rec (motive_1 := fun _ _ _ => True)
        (motive_2 := fun l l' _ => l.length = l'.length ∧ ∀ ns : List String, ReorderedMembers Eq (ns.zip l) (ns.zip l'))
        (motive_3 := fun _ _ _ => True) trivial (fun _ => trivial) (fun _ => trivial) (fun _ => trivial) (fun _ _ => trivial)
        (fun _ _ => trivial) ?_ ?_ trivial (by intros; trivial) (fun _ _ _ => trivial) (fun _ _ _ _ => trivial) h
      · exact ⟨rfl, fun ns => by simpa using .nil⟩
      · intro j k l m hj _ _ ih
        refine ⟨by simp [ih.1], fun ns => ?_⟩
        cases ns with
        | nil => simpa using .nil
        | cons s ns => exact .cons s hj (ih.2 ns)
    simp only [members, hlen.1]
    split
    · simp only [Option.bind_some]
      refine hf fun k β d hd => ?_
      -- the keys are distinct only if the names are, but the order is the same
      have : ∀ ns : List String, (lookup k (ns.zip l)).map d = (lookup k (ns.zip l')).map d := by
        clear hlen hf
        refine ReorderedList.rec (motive_1 := fun _ _ _ => True)
          (motive_2 := fun l l' _ => ∀ ns : List String, (lookup k (ns.zip l)).map d = (lookup k (ns.zip l')).map d)
          (motive_3 := fun _ _ _ => True) trivial (fun _ => trivial) (fun _ => trivial) (fun _ => trivial) (fun _ _ => trivial)
          (fun _ _ => trivial) ?_ ?_ trivial (by intros; trivial) (fun _ _ _ => trivial) (fun _ _ _ _ => trivial) h
        · intro ns
          simp [lookup]
        · intro j k' l m hj _ _ ih ns
          cases ns with
          | nil => simp [lookup]
          | cons s ns =>
            simp only [List.zip_cons_cons, lookup]
            split
            · simp only [Option.map_some, hd hj]
            · exact ih ns
      exact this names
    · rfl
  | @obj m m' h =>
    simp only [members, membersOk_eq (names := names) h]
    split_ifs with hok
    · simp only [Option.bind_some]
      rw [← membersOk_eq h] at hok
      exact hf fun k β d hd => lookup_blind hd k h (membersOk_names_iff.1 hok).2
    · rfl

section
variable {m m' : List (String × Json F)}
  (h : ∀ (k : String) (β : Type) (d : Json F → β), Blind d → (lookup k m).map d = (lookup k m').map d)
include h

theorem req_blind {α : Type} {d : Json F → Option α} (k : String) (hd : Blind d) : req m k d = req m' k d := by
  have := h k _ d hd
  unfold req
  rcases e : lookup k m with _ | v <;> rcases e' : lookup k m' with _ | v' <;> simp_all

theorem opt_blind {α : Type} {d : Json F → Option α} (k : String) (hd : Blind d) : opt m k d = opt m' k d := by
  have ho : Blind (option d) := by
    intro j j' hj
    have := hd hj
    cases hj <;> simp_all [option]
  have := h k _ (option d) ho
  unfold opt
  rcases e : lookup k m with _ | v <;> rcases e' : lookup k m' with _ | v' <;> simp_all

theorem dflt_blind {α : Type} {d : Json F → Option α} (k : String) (x : α) (hd : Blind d) : dflt m k d x = dflt m' k d x := by
  have := h k _ d hd
  unfold dflt
  rcases e : lookup k m with _ | v <;> rcases e' : lookup k m' with _ | v' <;> simp_all

end

theorem f64_blind : Blind (f64 (F := F)) := by
  intro j j' h
  cases h <;> simp_all [f64]

theorem bool_blind : Blind (bool (F := F)) := by
  intro j j' h
  cases h <;> simp_all [bool]

theorem list_blind {α : Type} {d : Json F → Option α} (hd : Blind d) : Blind (list d) := by
  intro j j' h
  cases h with
  | null => rfl
  | bool => rfl
  | num h => subst h; rfl
  | str => rfl
  | obj => rfl
  | @arr l l' h =>
    simp only [list]
    refine ReorderedList.rec (motive_1 := fun _ _ _ => True) (motive_2 := fun l l' _ => l.mapM d = l'.mapM d)
      (motive_3 := fun _ _ _ => True) trivial (fun _ => trivial) (fun _ => trivial) (fun _ => trivial) (fun _ _ => trivial)
      (fun _ _ => trivial) ?_ ?_ trivial (by intros; trivial) (fun _ _ _ => trivial) (fun _ _ _ _ => trivial) h
    · rfl
    · intro j k l m hj _ _ ih
      rw [List.mapM_cons, List.mapM_cons, hd hj, ih]

theorem pair_blind {α β : Type} {d : Json F → Option α} {e : Json F → Option β} (hd : Blind d) (he : Blind e) :
    Blind (pair d e) := by
  intro j j' h
  cases h with
  | arr h =>
    rcases h with _ | ⟨h1, _ | ⟨h2, _ | ⟨h3, h4⟩⟩⟩
    · rfl
    · rfl
    · simp only [pair, hd h1, he h2]
    · rfl
  | num h => subst h; rfl
  | _ => rfl

theorem arr2_blind : Blind (arr2 (F := F)) := by
  intro j j' h
  cases h with
  | arr h =>
    rcases h with _ | ⟨h1, _ | ⟨h2, _ | ⟨h3, h4⟩⟩⟩
    · rfl
    · rfl
    · simp only [arr2, f64_blind h1, f64_blind h2]
    · rfl
  | num h => subst h; rfl
  | _ => rfl

theorem arr3_blind : Blind (arr3 (F := F)) := by
  intro j j' h
  cases h with
  | arr h =>
    rcases h with _ | ⟨h1, _ | ⟨h2, _ | ⟨h3, _ | ⟨h4, h5⟩⟩⟩⟩
    · rfl
    · rfl
    · rfl
    · simp only [arr3, f64_blind h1, f64_blind h2, f64_blind h3]
    · rfl
  | num h => subst h; rfl
  | _ => rfl

theorem arr4_blind : Blind (arr4 (F := F)) := by
  intro j j' h
  cases h with
  | arr h =>
    rcases h with _ | ⟨h1, _ | ⟨h2, _ | ⟨h3, _ | ⟨h4, _ | ⟨h5, h6⟩⟩⟩⟩⟩
    · rfl
    · rfl
    · rfl
    · rfl
    · simp only [arr4, f64_blind h1, f64_blind h2, f64_blind h3, f64_blind h4]
    · rfl
  | num h => subst h; rfl
  | _ => rfl

theorem variant_blind {α : Type} {f : String → Option (Json F) → Option α} (hf : ∀ s, Blind fun j => f s (some j)) :
    Blind fun j => (variant j).bind fun p => f p.1 p.2 := by
  intro j j' h
  cases h with
  | null => rfl
  | bool => rfl
  | num h => subst h; rfl
  | str => rfl
  | arr => rfl
  | @obj m m' h =>
    refine ReorderedMembers.rec (motive_1 := fun _ _ _ => True) (motive_2 := fun _ _ _ => True)
      (motive_3 := fun m m' _ => ((variant (.obj m)).bind fun p => f p.1 p.2) = (variant (.obj m')).bind fun p => f p.1 p.2)
      trivial (fun _ => trivial) (fun _ => trivial) (fun _ => trivial) (fun _ _ => trivial) (fun _ _ => trivial) trivial
      (fun _ _ _ _ => trivial) ?_ ?_ ?_ ?_ h
    · rfl
    · intro s j k l m hj hl _ _
      have hlen := (keys_perm hl).length_eq
      simp only [List.length_map] at hlen
      rcases l with _ | ⟨a, l⟩ <;> rcases m with _ | ⟨b, m⟩
      · exact hf s hj
      · simp at hlen
      · simp at hlen
      · rfl
    · intro a b l
      rfl
    · intro l m n _ _ h1 h2
      exact h1.trans h2

theorem unit_blind : Blind fun j : Json F => unitContent (some j) := by
  intro j j' h
  cases h <;> rfl

theorem stateVariable_blind : Blind (stateVariable (F := F)) := by
  refine variant_blind (f := fun s c => (stateVariableOfName s).bind fun v => (unitContent c).bind fun _ => some v) ?_
  intro s j j' h
  simp only [unit_blind h]

theorem interpolator_blind : Blind (interpolator (F := F)) := by
  refine variant_blind (f := fun s c => (unitContent c).bind fun _ => if s == snakeCase "Linear" then some Interpolator.linear else none) ?_
  intro s j j' h
  simp only [unit_blind h]

theorem axis_blind : Blind (axis (F := F)) := pair_blind stateVariable_blind (list_blind f64_blind)

variable [Flt F]

theorem table1D_blind : Blind (table1D (F := F)) := by
  refine members_blind ["x", "data", "interpolator"] 1 fun h => ?_
  simp only [req_blind h _ axis_blind, req_blind h _ (list_blind f64_blind), dflt_blind h _ _ interpolator_blind]

theorem table2D_blind : Blind (table2D (F := F)) := by
  refine members_blind ["x", "y", "data", "interpolator"] 1 fun h => ?_
  simp only [req_blind h _ axis_blind, req_blind h _ (list_blind (list_blind f64_blind)), dflt_blind h _ _ interpolator_blind]

theorem table3D_blind : Blind (table3D (F := F)) := by
  refine members_blind ["x", "y", "z", "data", "interpolator"] 1 fun h => ?_
  simp only [req_blind h _ axis_blind, req_blind h _ (list_blind (list_blind (list_blind f64_blind))),
    dflt_blind h _ _ interpolator_blind]

theorem table_blind : Blind (table (F := F)) := by
  intro j j' h
  simp only [table, table1D_blind h, table2D_blind h, table3D_blind h]

omit [Flt F] in
/-- The planet model of the given name with the given content. -/
def planetBody (s : String) (content : Option (Json F)) : Option (PlanetConfig F) :=
  if s == snakeCase "Spherical" then do unitContent content; return .spherical
  else if s == snakeCase "Fisher1960" then do unitContent content; return .fisher1960
  else if s == snakeCase "Smithsonian" then do unitContent content; return .smithsonian
  else if s == snakeCase "Custom" then do
    let j ← content
    let m ← members
      ["equatorial_radius", "polar_radius", "gravitational_parameters", "rotation_rate"] 0 j
    let a ← req m "equatorial_radius" f64
    let b ← req m "polar_radius" f64
    let (mu, j2, j3, j4) ← req m "gravitational_parameters" arr4
    let w ← req m "rotation_rate" f64
    return .custom a b ⟨mu, j2, j3, j4⟩ w
  else none

omit [Flt F] in
theorem planetConfig_eq (j : Json F) : planetConfig j = (variant j).bind fun p => planetBody p.1 p.2 := by
  unfold planetConfig planetBody
  generalize snakeCase "Spherical" = a, snakeCase "Fisher1960" = b, snakeCase "Smithsonian" = c, snakeCase "Custom" = d
  rcases variant j with _ | ⟨s, c⟩ <;> rfl

omit [Flt F] in
theorem planetConfig_blind : Blind (planetConfig (F := F)) := by
  intro j j' h
  rw [planetConfig_eq, planetConfig_eq]
  refine variant_blind (f := planetBody) ?_ h
  intro s j j' h
  simp only [planetBody, unit_blind h]
  split_ifs
  · rfl
  · rfl
  · rfl
  · refine members_blind ["equatorial_radius", "polar_radius", "gravitational_parameters", "rotation_rate"] 0 (fun h => ?_) h
    simp only [req_blind h _ f64_blind, req_blind h _ arr4_blind]
  · rfl

omit [Flt F] in
theorem vector3_blind : Blind (vector3 (F := F)) := by
  intro j j' h
  simp only [vector3, arr3_blind h]

omit [Flt F] in
theorem atmosphereConfig_blind : Blind (atmosphereConfig (F := F)) := by
  refine members_blind ["enabled", "wind"] 0 fun h => ?_
  simp only [opt_blind h _ bool_blind, opt_blind h _ vector3_blind]

omit [Flt F] in
theorem initConfig_blind : Blind (initConfig (F := F)) := by
  refine members_blind ["latitude", "longitude", "azimuth", "altitude"] 0 fun h => ?_
  simp only [req_blind h _ f64_blind]

omit [Flt F] in
theorem engine_blind : Blind (engine (F := F)) := by
  refine members_blind ["incidence", "thrust_vac", "isp_vac", "exit_area"] 0 fun h => ?_
  simp only [req_blind h _ f64_blind, req_blind h _ arr2_blind]

theorem vehicleConfig_blind : Blind (vehicleConfig (F := F)) := by
  refine members_blind ["structure_mass", "propellant_mass", "reference_area", "drag_coeff",
    "lift_coeff", "side_force_coeff", "engines"] 0 fun h => ?_
  simp only [opt_blind h _ f64_blind, opt_blind h _ table_blind, opt_blind h _ (list_blind engine_blind)]

omit [Flt F] in
theorem axisConfig_blind : Blind (axisConfig (F := F)) := by
  intro j j' h
  simp only [axisConfig, pair_blind stateVariable_blind arr3_blind h]

omit [Flt F] in
theorem steeringConfig_blind : Blind (steeringConfig (F := F)) := by
  refine members_blind ["roll", "yaw", "pitch"] 0 fun h => ?_
  simp only [opt_blind h _ axisConfig_blind]

theorem phaseConfig_blind : Blind (phaseConfig (F := F)) := by
  refine members_blind ["init", "vehicle", "steering", "planet_model", "atmosphere",
    "max_acceleration", "stepsize", "end_criterion"] 0 fun h => ?_
  simp only [opt_blind h _ f64_blind, opt_blind h _ initConfig_blind, opt_blind h _ vehicleConfig_blind,
    opt_blind h _ steeringConfig_blind, opt_blind h _ planetConfig_blind, opt_blind h _ atmosphereConfig_blind,
    opt_blind h _ (pair_blind stateVariable_blind f64_blind)]

/-- The order of the keys does not matter to the loader. -/
theorem config_blind : Blind (config (F := F)) := list_blind phaseConfig_blind

end De

namespace Txt

/-- Both fail, or the results differ only in the order of members. -/
def Both {α : Type} (R : α → α → Prop) (x y : Option α) : Prop := (x = none ∧ y = none) ∨ ∃ a b, x = some a ∧ y = some b ∧ R a b

theorem Both.map {α β : Type} {R : α → α → Prop} {S : β → β → Prop} {f : α → β} (hf : ∀ {a b}, R a b → S (f a) (f b))
    {x y : Option α} (h : Both R x y) : Both S (x.map f) (y.map f) := by
  rcases h with ⟨rfl, rfl⟩ | ⟨a, b, rfl, rfl, h⟩
  · exact .inl ⟨rfl, rfl⟩
  · exact .inr ⟨_, _, rfl, rfl, hf h⟩

mutual
theorem reordered_refl {N : Type} {R : N → N → Prop} (hR : ∀ x, R x x) : ∀ j : Json N, Reordered R j j
  | .null => .null
  | .bool b => .bool b
  | .num x => .num (hR x)
  | .str s => .str s
  | .arr l => .arr (reorderedList_refl hR l)
  | .obj m => .obj (reorderedMembers_refl hR m)

theorem reorderedList_refl {N : Type} {R : N → N → Prop} (hR : ∀ x, R x x) : ∀ l : List (Json N), ReorderedList R l l
  | [] => .nil
  | j :: l => .cons (reordered_refl hR j) (reorderedList_refl hR l)

theorem reorderedMembers_refl {N : Type} {R : N → N → Prop} (hR : ∀ x, R x x) : ∀ l : List (String × Json N), ReorderedMembers R l l
  | [] => .nil
  | (s, j) :: l => .cons s (reordered_refl hR j) (reorderedMembers_refl hR l)
end

variable {F : Type} [Flt F]

theorem floats_reordered {R : Decimal → Decimal → Prop} (hR : ∀ {x y}, R x y → (toFloat x : Option F) = toFloat y)
    {j j' : Json Decimal} (h : Reordered R j j') : Both (Reordered Eq) (floats j : Option (Json F)) (floats j') := by
  refine Reordered.rec (motive_1 := fun j j' _ => Both (Reordered Eq) (floats j : Option (Json F)) (floats j'))
    (motive_2 := fun l l' _ => Both (ReorderedList Eq) (floatsList l : Option (List (Json F))) (floatsList l'))
    (motive_3 := fun m m' _ => Both (ReorderedMembers Eq) (floatsMembers m : Option (List (String × Json F))) (floatsMembers m'))
    ?_ ?_ ?_ ?_ ?_ ?_ ?_ ?_ ?_ ?_ ?_ ?_ h
  · exact .inr ⟨_, _, rfl, rfl, .null⟩
  · exact fun b => .inr ⟨_, _, rfl, rfl, .bool b⟩
  · intro x y h
    simp only [floats, ← hR h]
    rcases (toFloat x : Option F) with _ | y
    · exact .inl ⟨rfl, rfl⟩
    · exact .inr ⟨_, _, rfl, rfl, .num rfl⟩
  · exact fun s => .inr ⟨_, _, rfl, rfl, .str s⟩
  · intro l l' _ ih
    exact ih.map .arr
  · intro m m' _ ih
    exact ih.map .obj
  · exact .inr ⟨_, _, rfl, rfl, .nil⟩
  · intro j k l m _ _ h1 h2
    simp only [floatsList]
    rcases h1 with ⟨e, e'⟩ | ⟨a, b, e, e', h1⟩ <;> rw [e, e']
    · exact .inl ⟨rfl, rfl⟩
    · rcases h2 with ⟨f, f'⟩ | ⟨c, d, f, f', h2⟩ <;> rw [f, f']
      · exact .inl ⟨rfl, rfl⟩
      · exact .inr ⟨_, _, rfl, rfl, .cons h1 h2⟩
  · exact .inr ⟨_, _, rfl, rfl, .nil⟩
  · intro s j k l m _ _ h1 h2
    simp only [floatsMembers]
    rcases h1 with ⟨e, e'⟩ | ⟨a, b, e, e', h1⟩ <;> rw [e, e']
    · exact .inl ⟨rfl, rfl⟩
    · rcases h2 with ⟨f, f'⟩ | ⟨c, d, f, f', h2⟩ <;> rw [f, f']
      · exact .inl ⟨rfl, rfl⟩
      · exact .inr ⟨_, _, rfl, rfl, .cons s h1 h2⟩
  · rintro ⟨s, j⟩ ⟨s', j'⟩ l
    simp only [floatsMembers]
    rcases (floats j : Option (Json F)) with _ | a <;> rcases (floats j' : Option (Json F)) with _ | b <;>
      rcases (floatsMembers l : Option (List (String × Json F))) with _ | c
    all_goals first
      | exact .inl ⟨rfl, rfl⟩
      | exact .inr ⟨_, _, rfl, rfl, .swap _ _ _⟩
  · intro l m n _ _ h1 h2
    rcases h1 with ⟨e, e'⟩ | ⟨a, b, e, e', h1⟩ <;> rcases h2 with ⟨f, f'⟩ | ⟨c, d, f, f', h2⟩
    · exact .inl ⟨e, f'⟩
    · rw [e'] at f; cases f
    · rw [e'] at f; cases f
    · rw [e'] at f
      obtain rfl := Option.some.inj f
      exact .inr ⟨_, _, e, f', h1.trans h2⟩

end Txt
end Post
