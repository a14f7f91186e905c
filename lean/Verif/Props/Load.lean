import Verif.Props.Json
import Verif.Spec.Load
/-! # Every key sets the parameter it names (C60) -/

set_option linter.unusedSectionVars false

namespace Post
open Spec
variable {F : Type} [Flt F]

namespace De

/-- The deserialiser `d` accepts exactly what `R` describes. -/
def Reads {α : Type} (d : Json F → Option α) (R : Json F → α → Prop) : Prop :=
  ∀ j a, d j = some a ↔ R j a

theorem reads_f64 : Reads (F := F) f64 SaysNumber := by
  intro j a; cases j <;> simp [f64, SaysNumber]

theorem reads_bool : Reads (F := F) bool SaysBool := by
  intro j a; cases j <;> simp [bool, SaysBool]

theorem mapM_forall₂ {α β : Type} {d : α → Option β} {R : α → β → Prop}
    (h : ∀ j a, d j = some a ↔ R j a) (l : List α) (as : List β) :
    l.mapM d = some as ↔ List.Forall₂ R l as := by
  induction l generalizing as with
  | nil => cases as <;> simp
  | cons j l ih =>
    simp only [List.mapM_cons, Option.bind_eq_bind, Option.bind_eq_some_iff, Option.pure_def,
      Option.some.injEq]
    constructor
    · rintro ⟨a, ha, as', has, rfl⟩
      exact .cons ((h _ _).1 ha) ((ih _).1 has)
    · intro hf
      cases hf with
      | cons h1 h2 => exact ⟨_, (h _ _).2 h1, _, (ih _).2 h2, rfl⟩

theorem reads_list {α : Type} {d : Json F → Option α} {R : Json F → α → Prop} (h : Reads d R) :
    Reads (list d) (SaysList R) := by
  intro j as
  cases j with
  | arr l =>
    simp only [list, SaysList, Json.arr.injEq, exists_eq_left', mapM_forall₂ h]
  | _ => simp [list, SaysList]

theorem reads_pair {α β : Type} {d : Json F → Option α} {R : Json F → α → Prop}
    {e : Json F → Option β} {S : Json F → β → Prop} (h : Reads d R) (h' : Reads e S) :
    Reads (pair d e) (SaysPair R S) := by
  rintro j ⟨a, b⟩
  unfold pair
  split
  · next x y =>
    simp only [Option.bind_eq_bind, Option.bind_eq_some_iff, Option.pure_def, Option.some.injEq,
      Prod.mk.injEq, SaysPair, Json.arr.injEq, List.cons.injEq, and_true]
    constructor
    · rintro ⟨a', ha, b', hb, rfl, rfl⟩
      exact ⟨x, y, ⟨rfl, rfl⟩, (h _ _).1 ha, (h' _ _).1 hb⟩
    · rintro ⟨_, _, ⟨rfl, rfl⟩, h1, h2⟩
      exact ⟨a, (h _ _).2 h1, b, (h' _ _).2 h2, rfl, rfl⟩
  · next hn =>
    simp only [reduceCtorEq, SaysPair, false_iff, not_exists, not_and]
    rintro x y rfl
    exact absurd rfl (hn x y)

theorem variant_name {α : Type} (j : Json F) (f : String → Option α) (a : α) :
    (do let (s, c) ← variant j
        let v ← f s
        unitContent c
        return v) = some a ↔ ∃ s, SaysName j s ∧ f s = some a := by
  simp only [Option.bind_eq_bind, Option.bind_eq_some_iff, Option.pure_def, Option.some.injEq]
  constructor
  · rintro ⟨⟨s, c⟩, hv, b, hb, _, hc, rfl⟩
    refine ⟨s, ?_, hb⟩
    unfold variant at hv
    split at hv
    · injection hv with hv; injection hv with h1 h2; subst h1; exact .inl rfl
    · injection hv with hv; injection hv with h1 h2; subst h1 h2
      dsimp only at hc
      unfold unitContent at hc
      split at hc
      · simp_all
      · next h => injection h with h; subst h; exact .inr rfl
      · cases hc
    · cases hv
  · rintro ⟨s, rfl | rfl, hf⟩
    · exact ⟨(s, none), rfl, a, hf, (), rfl, rfl⟩
    · exact ⟨(s, some .null), rfl, a, hf, (), rfl, rfl⟩

theorem reads_variable : Reads (F := F) stateVariable SaysVariable := by
  intro j v
  refine (variant_name j stateVariableOfName v).trans ?_
  simp only [stateVariableOfName_iff, SaysVariable]
  constructor
  · rintro ⟨s, h, rfl⟩; exact h
  · intro h; exact ⟨_, h, rfl⟩

theorem linear_name : snakeCase "Linear" = "linear" := by decide +kernel

theorem reads_interpolator :
    Reads (F := F) interpolator fun j i => SaysName j "linear" ∧ i = .linear := by
  intro j i
  have : interpolator j = (do let (s, c) ← variant j
                              let v ← (if s == "linear" then some Interpolator.linear else none)
                              unitContent c
                              return v) := by
    unfold interpolator
    rw [linear_name]
    cases variant j with
    | none => rfl
    | some sc =>
      obtain ⟨s, c⟩ := sc
      by_cases h : s == "linear" <;> cases hc : unitContent c <;> simp [h, hc]
  rw [this]
  refine (variant_name j (fun s => if s == "linear" then some Interpolator.linear else none)
    i).trans ?_
  constructor
  · rintro ⟨s, hs, h⟩
    split at h
    · next he => rw [beq_iff_eq] at he; subst he; injection h with h; exact ⟨hs, h.symm⟩
    · cases h
  · rintro ⟨h, rfl⟩; exact ⟨_, h, by simp⟩

theorem reads_axis : Reads (F := F) axis SaysAxis :=
  reads_pair reads_variable (reads_list reads_f64)

theorem members_iff (keys : List String) (d : Nat) (j : Json F) (m : List (String × Json F)) :
    members keys d j = some m ↔ SectionWith keys d j m := by
  cases j with
  | obj m' =>
    simp only [members, SectionWith]
    constructor
    · intro h
      split at h
      · next hok => injection h with h; subst h; exact .inl ⟨rfl, (membersOk_iff _ _).1 hok⟩
      · cases h
    · rintro (⟨h, hm⟩ | ⟨_, h, _⟩)
      · injection h with h; subst h
        rw [if_pos ((membersOk_iff _ _).2 hm)]
      · cases h
  | arr l =>
    simp only [members, SectionWith]
    constructor
    · intro h
      split at h
      · next hok => injection h with h; subst h; exact .inr ⟨l, rfl, hok.1, hok.2, rfl⟩
      · cases h
    · rintro (⟨h, _⟩ | ⟨_, h, h1, h2, rfl⟩)
      · cases h
      · injection h with h; subst h
        rw [if_pos ⟨h1, h2⟩]
  | _ => simp [members, SectionWith]

theorem section_nodup {keys : List String} {d : Nat} {j : Json F}
    {m : List (String × Json F)} (hk : keys.Nodup) (h : SectionWith keys d j m) :
    (m.map Prod.fst).Nodup := by
  rcases h with ⟨_, _, h⟩ | ⟨l, _, _, _, rfl⟩
  · exact h
  · exact hk.sublist (map_fst_zip_sublist _ _)

theorem lookup_iff {m : List (String × Json F)} (h : (m.map Prod.fst).Nodup) (k : String)
    (v : Json F) : lookup k m = some v ↔ (k, v) ∈ m :=
  ⟨lookup_mem, fun hm => lookup_of_mem hm h⟩

theorem lookup_none_iff {m : List (String × Json F)} (h : (m.map Prod.fst).Nodup) (k : String) :
    lookup k m = none ↔ ∀ v, (k, v) ∉ m := by
  rw [Option.eq_none_iff_forall_ne_some]
  simp only [ne_eq, lookup_iff h]

theorem req_iff {m : List (String × Json F)} (hm : (m.map Prod.fst).Nodup) {α : Type}
    {d : Json F → Option α} {R : Json F → α → Prop} (h : Reads d R) (k : String) (a : α) :
    req m k d = some a ↔ Gives m k R a := by
  unfold req Gives
  simp only [Option.bind_eq_some_iff, lookup_iff hm, h _ _]

theorem opt_iff {m : List (String × Json F)} (hm : (m.map Prod.fst).Nodup) {α : Type}
    {d : Json F → Option α} {R : Json F → α → Prop} (h : Reads d R) (k : String)
    (o : Option α) : opt m k d = some o ↔ GivesOptional m k R o := by
  unfold opt
  cases hl : lookup k m with
  | none =>
    have := (lookup_none_iff hm k).1 hl
    cases o with
    | none => simp [GivesOptional, this]
    | some a =>
      simp only [Option.some.injEq, reduceCtorEq, GivesOptional, false_iff]
      rintro ⟨v, hv, _⟩
      exact this v hv
  | some v =>
    have hv := (lookup_iff hm k v).1 hl
    have huniq : ∀ w, (k, w) ∈ m → w = v := fun w hw => by
      have := (lookup_iff hm k w).2 hw
      rw [hl] at this
      injection this with this
      exact this.symm
    have hne : v ≠ .null → option d v = (d v).map some := by
      intro h; cases v <;> first | rfl | exact absurd rfl h
    by_cases hn : v = .null
    · subst hn
      cases o with
      | none => simp [GivesOptional, option, hv]
      | some a =>
        simp only [option, Option.some.injEq, reduceCtorEq, GivesOptional, false_iff]
        rintro ⟨v, hv, hne, _⟩
        exact hne (huniq v hv)
    · simp only [hne hn]
      cases o with
      | none =>
        simp only [Option.map_eq_some_iff, reduceCtorEq, and_false, exists_false, GivesOptional,
          false_iff, not_or, not_forall]
        exact ⟨⟨v, fun h => h hv⟩, fun h => hn (huniq _ h).symm⟩
      | some a =>
        simp only [Option.map_eq_some_iff, Option.some.injEq, exists_eq_right, GivesOptional,
          h _ _]
        constructor
        · intro h; exact ⟨v, hv, hn, h⟩
        · rintro ⟨w, hw, _, h⟩
          rw [huniq w hw] at h; exact h

/-! ## Tables -/

theorem dflt_interpolator_iff {m : List (String × Json F)} (hm : (m.map Prod.fst).Nodup)
    (i : Interpolator) : dflt m "interpolator" interpolator .linear = some i ↔
      GivesInterpolator m ∧ i = .linear := by
  have hlin : ∀ i : Interpolator, i = .linear := fun i => by cases i; rfl
  unfold dflt GivesInterpolator
  cases hl : lookup "interpolator" m with
  | none =>
    have := (lookup_none_iff hm _).1 hl
    simp [this, hlin]
  | some v =>
    have hv := (lookup_iff hm _ v).1 hl
    have huniq : ∀ w, ("interpolator", w) ∈ m → w = v := fun w hw => by
      have := (lookup_iff hm _ w).2 hw
      rw [hl] at this
      injection this with this
      exact this.symm
    simp only [reads_interpolator _ _, hlin, and_true]
    constructor
    · intro h; exact .inr ⟨v, hv, h⟩
    · rintro (h | ⟨w, hw, h⟩)
      · exact absurd hv (h v)
      · rw [huniq w hw] at h; exact h

/-- What a one-dimensional table says. -/
theorem reads_table1D : Reads (F := F) table1D fun j t => SaysTable j (.d1 t) := by
  intro j t
  have hlin : ∀ i : Interpolator, i = .linear := fun i => by cases i; rfl
  unfold table1D SaysTable
  simp only [Option.bind_eq_bind, Option.bind_eq_some_iff, members_iff]
  constructor
  · rintro ⟨m, hs, x, hx, data, hd, i, hi, ht⟩
    have hm := section_nodup (by decide) hs
    obtain ⟨rfl, hw⟩ := Table1D.tryNew_ok_iff.1 (toOption_some ht)
    exact ⟨hw, m, hs, ((dflt_interpolator_iff hm _).1 hi).1, (req_iff hm reads_axis _ _).1 hx,
      (req_iff hm (reads_list reads_f64) _ _).1 hd⟩
  · rintro ⟨hw, m, hs, hi, hx, hd⟩
    have hm := section_nodup (by decide) hs
    refine ⟨m, hs, t.x, (req_iff hm reads_axis _ _).2 hx, t.data,
      (req_iff hm (reads_list reads_f64) _ _).2 hd, .linear,
      (dflt_interpolator_iff hm _).2 ⟨hi, rfl⟩, ?_⟩
    rw [Table1D.tryNew_ok_iff.2 ⟨?_, hw⟩]; rfl
    exact by rw [← hlin t.interpolator]

/-- What a two-dimensional table says. -/
theorem reads_table2D : Reads (F := F) table2D fun j t => SaysTable j (.d2 t) := by
  intro j t
  have hlin : ∀ i : Interpolator, i = .linear := fun i => by cases i; rfl
  unfold table2D SaysTable
  simp only [Option.bind_eq_bind, Option.bind_eq_some_iff, members_iff]
  constructor
  · rintro ⟨m, hs, x, hx, y, hy, data, hd, i, hi, ht⟩
    have hm := section_nodup (by decide) hs
    obtain ⟨rfl, hw⟩ := Table2D.tryNew_ok_iff.1 (toOption_some ht)
    exact ⟨hw, m, hs, ((dflt_interpolator_iff hm _).1 hi).1, (req_iff hm reads_axis _ _).1 hx,
      (req_iff hm reads_axis _ _).1 hy,
      (req_iff hm (reads_list (reads_list reads_f64)) _ _).1 hd⟩
  · rintro ⟨hw, m, hs, hi, hx, hy, hd⟩
    have hm := section_nodup (by decide) hs
    refine ⟨m, hs, t.x, (req_iff hm reads_axis _ _).2 hx, t.y, (req_iff hm reads_axis _ _).2 hy,
      t.data, (req_iff hm (reads_list (reads_list reads_f64)) _ _).2 hd, .linear,
      (dflt_interpolator_iff hm _).2 ⟨hi, rfl⟩, ?_⟩
    rw [Table2D.tryNew_ok_iff.2 ⟨?_, hw⟩]; rfl
    exact by rw [← hlin t.interpolator]

/-- What a three-dimensional table says. -/
theorem reads_table3D : Reads (F := F) table3D fun j t => SaysTable j (.d3 t) := by
  intro j t
  have hlin : ∀ i : Interpolator, i = .linear := fun i => by cases i; rfl
  unfold table3D SaysTable
  simp only [Option.bind_eq_bind, Option.bind_eq_some_iff, members_iff]
  constructor
  · rintro ⟨m, hs, x, hx, y, hy, z, hz, data, hd, i, hi, ht⟩
    have hm := section_nodup (by decide) hs
    obtain ⟨rfl, hw⟩ := Table3D.tryNew_ok_iff.1 (toOption_some ht)
    exact ⟨hw, m, hs, ((dflt_interpolator_iff hm _).1 hi).1, (req_iff hm reads_axis _ _).1 hx,
      (req_iff hm reads_axis _ _).1 hy, (req_iff hm reads_axis _ _).1 hz,
      (req_iff hm (reads_list (reads_list (reads_list reads_f64))) _ _).1 hd⟩
  · rintro ⟨hw, m, hs, hi, hx, hy, hz, hd⟩
    have hm := section_nodup (by decide) hs
    refine ⟨m, hs, t.x, (req_iff hm reads_axis _ _).2 hx, t.y, (req_iff hm reads_axis _ _).2 hy,
      t.z, (req_iff hm reads_axis _ _).2 hz,
      t.data, (req_iff hm (reads_list (reads_list (reads_list reads_f64))) _ _).2 hd, .linear,
      (dflt_interpolator_iff hm _).2 ⟨hi, rfl⟩, ?_⟩
    rw [Table3D.tryNew_ok_iff.2 ⟨?_, hw⟩]; rfl
    exact by rw [← hlin t.interpolator]

theorem zip_get {keys : List String} (hk : keys.Nodup) {k : String} {v : Json F}
    {l : List (Json F)} (h : (k, v) ∈ keys.zip l) {i : Nat} (hi : keys[i]? = some k) :
    l[i]? = some v := by
  obtain ⟨i', h'⟩ := List.mem_iff_getElem?.1 h
  rw [List.getElem?_zip_eq_some] at h'
  have : i = i' := by
    have h1 : i < keys.length := by
      rw [List.getElem?_eq_some_iff] at hi; exact hi.1
    exact (List.getElem?_inj h1 hk).1 (hi.trans h'.1.symm)
  rw [this]; exact h'.2

theorem axis_not_numbers {v : Json F} {a : StateVariable × List F} (h : SaysAxis v a)
    {d : List F} (h' : SaysList SaysNumber v d) : False := by
  obtain ⟨x, y, rfl, hx, _⟩ := h
  obtain ⟨l, hl, hf⟩ := h'
  injection hl with hl; subst hl
  cases hf with
  | cons h1 _ =>
    rw [SaysNumber] at h1
    rcases hx with hx | hx <;> rw [h1] at hx <;> cases hx

theorem axis_not_rows {α : Type} {R : Json F → α → Prop} {v : Json F}
    {a : StateVariable × List F} (h : SaysAxis v a)
    {d : List (List α)} (h' : SaysList (SaysList R) v d) : False := by
  obtain ⟨x, y, rfl, hx, _⟩ := h
  obtain ⟨l, hl, hf⟩ := h'
  injection hl with hl; subst hl
  cases hf with
  | cons h1 _ =>
    obtain ⟨l, rfl, _⟩ := h1
    rcases hx with hx | hx <;> cases hx

theorem not_1D_of_2D {j : Json F} {t : Table2D F} (h : SaysTable j (.d2 t)) (t' : Table1D F) :
    ¬ SaysTable j (.d1 t') := by
  rintro ⟨_, m', hs', _, _, w, hw, hw'⟩
  obtain ⟨_, m, hs, _, _, ⟨v, hv, hv'⟩, _⟩ := h
  rcases hs with ⟨rfl, _, _⟩ | ⟨l, rfl, _, _, rfl⟩
  · rcases hs' with ⟨h, hk, _⟩ | ⟨_, h, _⟩
    · injection h with h; subst h
      have := hk _ hv
      simp at this
    · cases h
  · rcases hs' with ⟨h, _⟩ | ⟨_, h, _, _, rfl⟩
    · cases h
    · injection h with h; subst h
      have h1 := zip_get (by decide) hv (i := 1) rfl
      have h2 := zip_get (by decide) hw (i := 1) rfl
      rw [h1] at h2; injection h2 with h2; subst h2
      exact axis_not_numbers hv' hw'

theorem not_1D_of_3D {j : Json F} {t : Table3D F} (h : SaysTable j (.d3 t)) (t' : Table1D F) :
    ¬ SaysTable j (.d1 t') := by
  rintro ⟨_, m', hs', _, _, w, hw, hw'⟩
  obtain ⟨_, m, hs, _, _, ⟨v, hv, hv'⟩, _⟩ := h
  rcases hs with ⟨rfl, _, _⟩ | ⟨l, rfl, _, _, rfl⟩
  · rcases hs' with ⟨h, hk, _⟩ | ⟨_, h, _⟩
    · injection h with h; subst h
      have := hk _ hv
      simp at this
    · cases h
  · rcases hs' with ⟨h, _⟩ | ⟨_, h, _, _, rfl⟩
    · cases h
    · injection h with h; subst h
      have h1 := zip_get (by decide) hv (i := 1) rfl
      have h2 := zip_get (by decide) hw (i := 1) rfl
      rw [h1] at h2; injection h2 with h2; subst h2
      exact axis_not_numbers hv' hw'

theorem not_2D_of_3D {j : Json F} {t : Table3D F} (h : SaysTable j (.d3 t)) (t' : Table2D F) :
    ¬ SaysTable j (.d2 t') := by
  rintro ⟨_, m', hs', _, _, _, w, hw, hw'⟩
  obtain ⟨_, m, hs, _, _, _, ⟨v, hv, hv'⟩, _⟩ := h
  rcases hs with ⟨rfl, _, _⟩ | ⟨l, rfl, _, _, rfl⟩
  · rcases hs' with ⟨h, hk, _⟩ | ⟨_, h, _⟩
    · injection h with h; subst h
      have := hk _ hv
      simp at this
    · cases h
  · rcases hs' with ⟨h, _⟩ | ⟨_, h, _, _, rfl⟩
    · cases h
    · injection h with h; subst h
      have h1 := zip_get (by decide) hv (i := 2) rfl
      have h2 := zip_get (by decide) hw (i := 2) rfl
      rw [h1] at h2; injection h2 with h2; subst h2
      exact axis_not_rows hv' hw'

theorem none_of_reads {α : Type} {d : Json F → Option α} {R : Json F → α → Prop}
    (h : Reads d R) {j : Json F} (hn : ∀ a, ¬ R j a) : d j = none := by
  rw [Option.eq_none_iff_forall_ne_some]
  exact fun a ha => hn a ((h _ _).1 ha)

theorem reads_table : Reads (F := F) table SaysTable := by
  intro j t
  unfold table
  constructor
  · intro h
    split at h
    · next h1 => injection h with h; subst h; exact (reads_table1D _ _).1 h1
    · split at h
      · next h1 => injection h with h; subst h; exact (reads_table2D _ _).1 h1
      · split at h
        · next h1 => injection h with h; subst h; exact (reads_table3D _ _).1 h1
        · cases h
  · intro h
    cases t with
    | d1 t => rw [(reads_table1D _ _).2 h]
    | d2 t => rw [none_of_reads reads_table1D (not_1D_of_2D h), (reads_table2D _ _).2 h]
    | d3 t => rw [none_of_reads reads_table1D (not_1D_of_3D h),
        none_of_reads reads_table2D (not_2D_of_3D h), (reads_table3D _ _).2 h]

/-! ## Sections -/

theorem reads_vector3 : Reads (F := F) vector3 SaysVector := by
  rintro j ⟨x, y, z⟩
  unfold vector3 SaysVector
  simp only [Option.bind_eq_bind, Option.bind_eq_some_iff, Option.pure_def]
  constructor
  · rintro ⟨⟨a, b, c⟩, h, h'⟩
    unfold arr3 at h
    split at h
    · simp only [Option.bind_eq_bind, Option.bind_eq_some_iff, Option.pure_def,
        Option.some.injEq, reads_f64 _ _, SaysNumber] at h
      obtain ⟨_, rfl, _, rfl, _, rfl, h⟩ := h
      injection h with h1 h2; injection h2 with h2 h3
      injection h' with h'; injection h' with h4 h5 h6
      subst h1 h2 h3 h4 h5 h6
      rfl
    · cases h
  · rintro rfl
    exact ⟨(x, y, z), rfl, rfl⟩

theorem reads_atmosphere : Reads (F := F) atmosphereConfig SaysAtmosphere := by
  rintro j ⟨enabled, wind⟩
  unfold atmosphereConfig SaysAtmosphere
  simp only [Option.bind_eq_bind, Option.bind_eq_some_iff, Option.pure_def, Option.some.injEq,
    members_iff]
  refine exists_congr fun m => and_congr_right fun hs => ?_
  have hm := section_nodup (by decide) hs
  simp only [opt_iff hm reads_bool, opt_iff hm reads_vector3]
  constructor
  · rintro ⟨_, h1, _, h2, h⟩; injection h with h3 h4; subst h3 h4; exact ⟨h1, h2⟩
  · rintro ⟨h1, h2⟩; exact ⟨_, h1, _, h2, rfl⟩

theorem reads_init : Reads (F := F) initConfig SaysInit := by
  rintro j ⟨a, b, c, d⟩
  unfold initConfig SaysInit
  simp only [Option.bind_eq_bind, Option.bind_eq_some_iff, Option.pure_def, Option.some.injEq,
    members_iff]
  refine exists_congr fun m => and_congr_right fun hs => ?_
  have hm := section_nodup (by decide) hs
  simp only [req_iff hm reads_f64]
  constructor
  · rintro ⟨_, h1, _, h2, _, h3, _, h4, h⟩
    injection h with e1 e2 e3 e4; subst e1 e2 e3 e4; exact ⟨h1, h2, h3, h4⟩
  · rintro ⟨h1, h2, h3, h4⟩; exact ⟨_, h1, _, h2, _, h3, _, h4, rfl⟩

theorem reads_arr2 : Reads (F := F) arr2 fun j p => j = .arr [.num p.1, .num p.2] := by
  rintro j ⟨x, y⟩
  unfold arr2
  split
  · simp only [Option.bind_eq_bind, Option.bind_eq_some_iff, Option.pure_def, Option.some.injEq,
      reads_f64 _ _, SaysNumber, Json.arr.injEq, List.cons.injEq, and_true, Prod.mk.injEq]
    constructor
    · rintro ⟨_, rfl, _, rfl, rfl, rfl⟩; exact ⟨rfl, rfl⟩
    · rintro ⟨rfl, rfl⟩; exact ⟨_, rfl, _, rfl, rfl, rfl⟩
  · next hn =>
    simp only [reduceCtorEq, false_iff]
    intro h; exact hn _ _ h

theorem reads_arr3 : Reads (F := F) arr3
    fun j p => j = .arr [.num p.1, .num p.2.1, .num p.2.2] := by
  rintro j ⟨x, y, z⟩
  unfold arr3
  split
  · simp only [Option.bind_eq_bind, Option.bind_eq_some_iff, Option.pure_def, Option.some.injEq,
      reads_f64 _ _, SaysNumber, Json.arr.injEq, List.cons.injEq, and_true, Prod.mk.injEq]
    constructor
    · rintro ⟨_, rfl, _, rfl, _, rfl, rfl, rfl, rfl⟩; exact ⟨rfl, rfl, rfl⟩
    · rintro ⟨rfl, rfl, rfl⟩; exact ⟨_, rfl, _, rfl, _, rfl, rfl, rfl, rfl⟩
  · next hn =>
    simp only [reduceCtorEq, false_iff]
    intro h; exact hn _ _ _ h

theorem reads_arr4 : Reads (F := F) arr4
    fun j p => j = .arr [.num p.1, .num p.2.1, .num p.2.2.1, .num p.2.2.2] := by
  rintro j ⟨x, y, z, w⟩
  unfold arr4
  split
  · simp only [Option.bind_eq_bind, Option.bind_eq_some_iff, Option.pure_def, Option.some.injEq,
      reads_f64 _ _, SaysNumber, Json.arr.injEq, List.cons.injEq, and_true, Prod.mk.injEq]
    constructor
    · rintro ⟨_, rfl, _, rfl, _, rfl, _, rfl, rfl, rfl, rfl, rfl⟩; exact ⟨rfl, rfl, rfl, rfl⟩
    · rintro ⟨rfl, rfl, rfl, rfl⟩
      exact ⟨_, rfl, _, rfl, _, rfl, _, rfl, rfl, rfl, rfl, rfl⟩
  · next hn =>
    simp only [reduceCtorEq, false_iff]
    intro h; exact hn _ _ _ _ h

theorem reads_engine : Reads (F := F) engine SaysEngine := by
  rintro j ⟨a, b, c, d, e⟩
  unfold engine SaysEngine
  simp only [Option.bind_eq_bind, Option.bind_eq_some_iff, Option.pure_def, Option.some.injEq,
    members_iff]
  refine exists_congr fun m => and_congr_right fun hs => ?_
  have hm := section_nodup (by decide) hs
  simp only [req_iff hm reads_f64, req_iff hm reads_arr2]
  constructor
  · rintro ⟨⟨p, y⟩, ⟨v, hv, rfl⟩, _, h2, _, h3, _, h4, h⟩
    injection h with e1 e2 e3 e4 e5; subst e1 e2 e3 e4 e5; exact ⟨hv, h2, h3, h4⟩
  · rintro ⟨h1, h2, h3, h4⟩; exact ⟨(a, b), ⟨_, h1, rfl⟩, _, h2, _, h3, _, h4, rfl⟩

theorem reads_vehicle : Reads (F := F) vehicleConfig SaysVehicle := by
  rintro j ⟨c1, c2, c3, c4, c5, c6, c7⟩
  unfold vehicleConfig SaysVehicle
  simp only [Option.bind_eq_bind, Option.bind_eq_some_iff, Option.pure_def, Option.some.injEq,
    members_iff]
  refine exists_congr fun m => and_congr_right fun hs => ?_
  have hm := section_nodup (by decide) hs
  simp only [opt_iff hm reads_f64, opt_iff hm reads_table, opt_iff hm (reads_list reads_engine)]
  constructor
  · rintro ⟨_, h1, _, h2, _, h3, _, h4, _, h5, _, h6, _, h7, h⟩
    injection h with e1 e2 e3 e4 e5 e6 e7; subst e1 e2 e3 e4 e5 e6 e7
    exact ⟨h1, h2, h3, h4, h5, h6, h7⟩
  · rintro ⟨h1, h2, h3, h4, h5, h6, h7⟩
    exact ⟨_, h1, _, h2, _, h3, _, h4, _, h5, _, h6, _, h7, rfl⟩

theorem reads_axisConfig : Reads (F := F) axisConfig SaysSteeringAxis := by
  rintro j ⟨v, c1, c2, c3⟩
  unfold axisConfig SaysSteeringAxis
  simp only [Option.bind_eq_bind, Option.bind_eq_some_iff, Option.pure_def, Option.some.injEq,
    reads_pair reads_variable reads_arr3 _ _]
  constructor
  · rintro ⟨⟨w, d1, d2, d3⟩, ⟨x, y, rfl, hx, rfl⟩, h⟩
    injection h with e1 e2 e3 e4; subst e1 e2 e3 e4
    exact ⟨x, hx, rfl⟩
  · rintro ⟨x, hx, rfl⟩
    exact ⟨(v, c1, c2, c3), ⟨x, _, rfl, hx, rfl⟩, rfl⟩

theorem reads_steering : Reads (F := F) steeringConfig SaysSteering := by
  rintro j ⟨c1, c2, c3⟩
  unfold steeringConfig SaysSteering
  simp only [Option.bind_eq_bind, Option.bind_eq_some_iff, Option.pure_def, Option.some.injEq,
    members_iff]
  refine exists_congr fun m => and_congr_right fun hs => ?_
  have hm := section_nodup (by decide) hs
  simp only [opt_iff hm reads_axisConfig]
  constructor
  · rintro ⟨_, h1, _, h2, _, h3, h⟩
    injection h with e1 e2 e3; subst e1 e2 e3
    exact ⟨h1, h2, h3⟩
  · rintro ⟨h1, h2, h3⟩
    exact ⟨_, h1, _, h2, _, h3, rfl⟩

theorem planet_names : snakeCase "Spherical" = "spherical" ∧
    snakeCase "Fisher1960" = "fisher1960" ∧ snakeCase "Smithsonian" = "smithsonian" ∧
    snakeCase "Custom" = "custom" := by decide +kernel

theorem unit_iff {j : Json F} {s : String} {c : Option (Json F)} (hv : variant j = some (s, c)) :
    unitContent c = some () ↔ SaysName j s := by
  unfold variant at hv
  split at hv
  · injection hv with hv; injection hv with h1 h2; subst h1 h2
    simp [unitContent, SaysName]
  · next s' x =>
    injection hv with hv; injection hv with h1 h2; subst h1 h2
    cases x <;> simp [unitContent, SaysName]
  · cases hv

theorem says_variant {j : Json F} {s : String} (h : SaysName j s) :
    ∃ c, variant j = some (s, c) := by
  rcases h with rfl | rfl
  · exact ⟨_, rfl⟩
  · exact ⟨_, rfl⟩

theorem reads_planet : Reads (F := F) planetConfig SaysPlanet := by
  intro j c
  obtain ⟨n1, n2, n3, n4⟩ := planet_names
  have hu : ∀ {s : String} {c' : Option (Json F)}, variant j = some (s, c') →
      ∀ p q : PlanetConfig F, (unitContent c').bind (fun _ => some p) = some q ↔
        SaysName j s ∧ p = q := by
    intro s c' hv p q
    rw [← unit_iff hv]
    cases unitContent c' <;> simp
  unfold planetConfig
  rw [n1, n2, n3, n4]
  constructor
  · intro h
    simp only [Option.bind_eq_bind, Option.bind_eq_some_iff, Option.pure_def] at h
    obtain ⟨⟨s, c'⟩, hv, h⟩ := h
    dsimp only at h
    split at h
    · next he =>
      rw [beq_iff_eq] at he; subst he
      obtain ⟨h1, rfl⟩ := (hu hv _ _).1 (by simpa [Option.bind_eq_some_iff] using h)
      exact h1
    split at h
    · next he =>
      rw [beq_iff_eq] at he; subst he
      obtain ⟨h1, rfl⟩ := (hu hv _ _).1 (by simpa [Option.bind_eq_some_iff] using h)
      exact h1
    split at h
    · next he =>
      rw [beq_iff_eq] at he; subst he
      obtain ⟨h1, rfl⟩ := (hu hv _ _).1 (by simpa [Option.bind_eq_some_iff] using h)
      exact h1
    split at h
    · next he =>
      rw [beq_iff_eq] at he; subst he
      simp only [Option.bind_eq_some_iff, members_iff] at h
      obtain ⟨x, rfl, m, hs, a, ha, b, hb, ⟨mu, j2, j3, j4⟩, hg, w, hw, h⟩ := h
      have hm := section_nodup (by decide) hs
      rw [req_iff hm reads_f64] at ha hb hw
      rw [req_iff hm reads_arr4] at hg
      obtain ⟨v, hg, rfl⟩ := hg
      injection h with h; subst h
      refine ⟨x, m, ?_, hs, ha, hb, hg, hw⟩
      unfold variant at hv
      split at hv
      · cases hv
      · injection hv with hv; injection hv with h1 h2; injection h2 with h2; subst h1 h2; rfl
      · cases hv
    · cases h
  · intro h
    cases c with
    | spherical =>
      obtain ⟨c', hv⟩ := says_variant h
      have := (hu hv .spherical _).2 ⟨h, rfl⟩
      rw [hv]; simpa using this
    | fisher1960 =>
      obtain ⟨c', hv⟩ := says_variant h
      have := (hu hv .fisher1960 _).2 ⟨h, rfl⟩
      rw [hv]; simpa using this
    | smithsonian =>
      obtain ⟨c', hv⟩ := says_variant h
      have := (hu hv .smithsonian _).2 ⟨h, rfl⟩
      rw [hv]; simpa using this
    | custom a b g w =>
      obtain ⟨x, m, rfl, hs, ha, hb, hg, hw⟩ := h
      have hm := section_nodup (by decide) hs
      rw [← req_iff hm reads_f64] at ha hb hw
      have hg' := (req_iff hm reads_arr4 "gravitational_parameters"
        (g.mu, g.j2, g.j3, g.j4)).2 ⟨_, hg, rfl⟩
      have hmem := (members_iff _ _ _ _).2 hs
      simp only [Kind.keys] at hmem
      simp [variant, hmem, ha, hb, hg', hw]

theorem reads_phase : Reads (F := F) phaseConfig SaysPhase := by
  rintro j ⟨c1, c2, c3, c4, c5, c6, c7, c8⟩
  unfold phaseConfig SaysPhase
  simp only [Option.bind_eq_bind, Option.bind_eq_some_iff, Option.pure_def, Option.some.injEq,
    members_iff]
  refine exists_congr fun m => and_congr_right fun hs => ?_
  have hm := section_nodup (by decide) hs
  simp only [opt_iff hm reads_f64, opt_iff hm reads_init, opt_iff hm reads_vehicle,
    opt_iff hm reads_steering, opt_iff hm reads_planet, opt_iff hm reads_atmosphere,
    opt_iff hm (reads_pair reads_variable reads_f64)]
  constructor
  · rintro ⟨_, h1, _, h2, _, h3, _, h4, _, h5, _, h6, _, h7, _, h8, h⟩
    injection h with e1 e2 e3 e4 e5 e6 e7 e8; subst e1 e2 e3 e4 e5 e6 e7 e8
    exact ⟨h1, h2, h3, h4, h5, h6, h7, h8⟩
  · rintro ⟨h1, h2, h3, h4, h5, h6, h7, h8⟩
    exact ⟨_, h1, _, h2, _, h3, _, h4, _, h5, _, h6, _, h7, _, h8, rfl⟩

end De

/-- **C60** A JSON document loads as the phase configurations `cs` exactly if it says so: every
key sets the parameter it names, to the value given, and nothing else. -/
theorem C60_keys_set_parameters (j : Json F) (cs : List (PhaseConfig F)) :
    Simulation.fromFile (.json j) = some cs ↔ Says j cs :=
  De.reads_list De.reads_phase j cs

/-- **C60** In particular no document has two meanings, and the order of the keys of an object
does not matter. -/
theorem C60_key_order {m m' : List (String × Json F)} (h : m.Perm m') (c : PhaseConfig F) :
    SaysPhase (.obj m) c ↔ SaysPhase (.obj m') c := by
  have key : ∀ {m m' : List (String × Json F)}, m.Perm m' → SaysPhase (.obj m) c →
      SaysPhase (.obj m') c := by
    intro m m' h hs
    have hg : ∀ {α : Type} {R : Json F → α → Prop} {k : String} {o : Option α},
        GivesOptional m k R o → GivesOptional m' k R o := by
      intro α R k o ho
      cases o with
      | none => simpa only [GivesOptional, h.mem_iff] using ho
      | some a => simpa only [GivesOptional, h.mem_iff] using ho
    obtain ⟨m0, hm, h1, h2, h3, h4, h5, h6, h7, h8⟩ := hs
    rcases hm with ⟨he, hk, hn⟩ | ⟨_, he, _⟩
    · injection he with he; subst he
      refine ⟨m', .inl ⟨rfl, fun e he => hk e (h.mem_iff.2 he), (h.map _).nodup_iff.1 hn⟩,
        hg h1, hg h2, hg h3, hg h4, hg h5, hg h6, hg h7, hg h8⟩
    · cases he
  exact ⟨key h, key h.symm⟩

/-- A document with two phases: keys in any order, `null` for a parameter, an engine, a table
and a steering axis. -/
def exampleDocument : Json Fix := .arr [
  .obj [
    ("stepsize", .num 3),
    ("vehicle", .obj [
      ("lift_coeff", .obj [("data", numbers [1, 2]), ("x", axisJson (.alpha, [5, 6]))]),
      ("propellant_mass", .null),
      ("engines", .arr [.obj [("exit_area", .num 4), ("isp_vac", .num 3), ("thrust_vac", .num 2),
        ("incidence", .arr [.num 0, .num 1])]])]),
    ("planet_model", .str "smithsonian")],
  .obj [
    ("end_criterion", .arr [.str "altitude", .num 7]),
    ("steering", .obj [("yaw", .arr [.str "time", .arr [.num 1, .num 2, .num 3]])])]]

/-- What it says. -/
example : Says exampleDocument [
    ⟨none, some ⟨none, none, none, none, some (.d1 ⟨(.alpha, [5, 6]), [1, 2], .linear⟩), none,
      some [⟨0, 1, 2, 3, 4⟩]⟩, none, some .smithsonian, none, none, some 3, none⟩,
    ⟨none, none, some ⟨none, some ⟨.time, 1, 2, 3⟩, none⟩, none, none, none, none,
      some (.altitude, 7)⟩] := by
  rw [← C60_keys_set_parameters]
  have ht : De.table (.obj [("data", numbers [1, 2]), ("x", axisJson (.alpha, [5, 6]))]) =
      some (.d1 ⟨(.alpha, [(5 : Fix), 6]), [1, 2], .linear⟩) :=
    C02_wellFormed_table_loads (.d1 ⟨(.alpha, [(5 : Fix), 6]), [1, 2], .linear⟩) ⟨by
      intro i hi
      have : i = 0 := by simp at hi; omega
      subst this; show Flt.lt (5 : Fix) 6 = true; decide +kernel, rfl⟩ (.inl (List.Perm.swap _ _ _))
  have hp := De.planet_names
  have hv : ∀ v, De.stateVariable (.str (variableName v) : Json Fix) = some v :=
    De.stateVariable_str
  have h1 := hv .altitude
  have h2 := hv .time
  simp only [variableName] at h1 h2
  simp [exampleDocument, Simulation.fromFile, De.config, De.list, De.phaseConfig, De.members,
    De.membersOk, De.opt, De.lookup, De.option, De.vehicleConfig, De.engine, De.req, De.arr2,
    De.f64, De.planetConfig, De.variant, De.unitContent, De.steeringConfig, De.axisConfig,
    De.pair, De.arr3, ht, hp, h1, h2]

end Post
