import Verif.Spec.Json
import Mathlib.Data.List.Nodup
import Mathlib.Data.List.Perm.Basic
/-! # Lemmas about the deserialisers -/

namespace Post.De
open Spec
variable {F : Type}

theorem membersOk_iff (names : List String) (m : List (String × Json F)) :
    membersOk names m = true ↔ (∀ e ∈ m, e.1 ∈ names) ∧ (m.map Prod.fst).Nodup := by
  induction m with
  | nil => simp [membersOk]
  | cons e m ih =>
    obtain ⟨k, v⟩ := e
    simp only [membersOk, Bool.and_eq_true, ih, List.map_cons, List.nodup_cons,
      List.forall_mem_cons, List.contains_iff_mem, Bool.not_eq_true', List.any_eq_false,
      beq_iff_eq, List.mem_map, not_exists, not_and]
    tauto

theorem lookup_mem {k : String} {v : Json F} {m : List (String × Json F)}
    (h : lookup k m = some v) : (k, v) ∈ m := by
  induction m with
  | nil => simp [lookup] at h
  | cons e m ih =>
    obtain ⟨k', v'⟩ := e
    unfold lookup at h
    split at h
    · next hk =>
      injection h with h
      simp only [beq_iff_eq] at hk
      subst h hk
      simp
    · exact List.mem_cons_of_mem _ (ih h)

theorem lookup_of_mem {k : String} {v : Json F} {m : List (String × Json F)}
    (hm : (k, v) ∈ m) (hn : (m.map Prod.fst).Nodup) : lookup k m = some v := by
  induction m with
  | nil => simp at hm
  | cons e m ih =>
    obtain ⟨k', v'⟩ := e
    simp only [List.map_cons, List.nodup_cons] at hn
    unfold lookup
    rcases List.mem_cons.1 hm with h | h
    · injection h with h1 h2
      subst h1 h2
      simp
    · rw [if_neg]
      · exact ih h hn.2
      · simp only [beq_iff_eq]
        rintro rfl
        exact hn.1 (List.mem_map.2 ⟨_, h, rfl⟩)

theorem lookup_none {k : String} {m : List (String × Json F)} (h : ∀ e ∈ m, e.1 ≠ k) :
    lookup k m = none := by
  cases hl : lookup k m with
  | none => rfl
  | some v => exact absurd rfl (h _ (lookup_mem hl))

theorem map_fst_zip_sublist {α β : Type} (l : List α) (l' : List β) :
    ((l.zip l').map Prod.fst).Sublist l := by
  induction l generalizing l' with
  | nil => simp
  | cons a l ih =>
    cases l' with
    | nil => simp
    | cons b l' => simpa using ih l'

/-- What is given for a parameter is what the deserialiser finds. -/
theorem members_given {keys : List String} {d : Nat} {j v : Json F} {k : String}
    {m : List (String × Json F)} (hk : keys.Nodup) (hm : members keys d j = some m)
    (hg : Given keys k j v) : lookup k m = some v := by
  rcases hg with ⟨m', rfl, h⟩ | ⟨l, i, rfl, h1, h2⟩
  · simp only [members] at hm
    split at hm
    · next hok =>
      injection hm with hm; subst hm
      exact lookup_of_mem h ((membersOk_iff _ _).1 hok).2
    · cases hm
  · simp only [members] at hm
    split at hm
    · next hlen =>
      injection hm with hm; subst hm
      apply lookup_of_mem
      · rw [List.mem_iff_getElem?]
        exact ⟨i, by rw [List.zip, List.getElem?_zipWith, h1, h2]⟩
      · exact hk.sublist (map_fst_zip_sublist _ _)
    · cases hm

/-- An accepted object has only known keys, each at most once. -/
theorem members_obj {keys : List String} {d : Nat} {m m' : List (String × Json F)}
    (h : members keys d (.obj m) = some m') :
    (∀ e ∈ m, e.1 ∈ keys) ∧ (m.map Prod.fst).Nodup := by
  simp only [members] at h
  split at h
  · next hok => exact (membersOk_iff _ _).1 hok
  · cases h

theorem opt_lookup {α : Type} {m : List (String × Json F)} {k : String} {v : Json F}
    {d : Json F → Option α} {r : Option α} (hl : lookup k m = some v)
    (h : opt m k d = some r) : v = .null ∨ ∃ a, d v = some a ∧ r = some a := by
  unfold opt at h
  rw [hl] at h
  simp only [option] at h
  cases v with
  | null => exact .inl rfl
  | _ =>
    right
    simp only [Option.map_eq_some_iff] at h
    obtain ⟨a, h1, h2⟩ := h
    exact ⟨a, h1, h2.symm⟩

theorem mapM_mem {α β : Type} {f : α → Option β} {l : List α} {r : List β}
    (h : l.mapM f = some r) : (∀ a ∈ l, ∃ b ∈ r, f a = some b) ∧
      (∀ b ∈ r, ∃ a ∈ l, f a = some b) := by
  induction l generalizing r with
  | nil => simp at h; subst h; simp
  | cons a l ih =>
    simp only [List.mapM_cons, Option.bind_eq_bind, Option.bind_eq_some_iff, Option.pure_def,
      Option.some.injEq] at h
    obtain ⟨b, hb, bs, hbs, rfl⟩ := h
    have := ih hbs
    constructor
    · intro x hx
      rcases List.mem_cons.1 hx with rfl | hx
      · exact ⟨b, by simp, hb⟩
      · obtain ⟨y, hy, hf⟩ := this.1 x hx
        exact ⟨y, List.mem_cons_of_mem _ hy, hf⟩
    · intro y hy
      rcases List.mem_cons.1 hy with rfl | hy
      · exact ⟨a, by simp, hb⟩
      · obtain ⟨x, hx, hf⟩ := this.2 y hy
        exact ⟨x, List.mem_cons_of_mem _ hx, hf⟩

theorem mapM_map {α β γ : Type} (f : α → Option β) (g : γ → α) (h : γ → β) (l : List γ)
    (hf : ∀ c ∈ l, f (g c) = some (h c)) : (l.map g).mapM f = some (l.map h) := by
  induction l with
  | nil => rfl
  | cons c l ih =>
    rw [List.map_cons, List.mapM_cons, hf c (by simp),
      ih fun c hc => hf c (List.mem_cons_of_mem _ hc)]
    rfl

theorem list_numbers (l : List F) : list f64 (numbers l) = some l := by
  show (l.map Json.num).mapM f64 = _
  rw [mapM_map f64 Json.num id l (fun _ _ => rfl)]; simp

theorem snakeCase_ident (v : StateVariable) : snakeCase v.ident = variableName v := by
  cases v <;> decide +kernel

theorem variableName_nodup : (StateVariable.all.map variableName).Nodup := by
  decide +kernel

theorem mem_all (v : StateVariable) : v ∈ StateVariable.all := by
  cases v <;> decide

theorem variableName_injective {v w : StateVariable} (h : variableName v = variableName w) :
    v = w :=
  List.inj_on_of_nodup_map variableName_nodup (mem_all v) (mem_all w) h

theorem stateVariableOfName_iff (s : String) (v : StateVariable) :
    stateVariableOfName s = some v ↔ s = variableName v := by
  constructor
  · intro h
    have := List.find?_some h
    simp only [beq_iff_eq] at this
    rw [← this, snakeCase_ident]
  · rintro rfl
    cases h : stateVariableOfName (variableName v) with
    | some w =>
      have := List.find?_some h
      simp only [beq_iff_eq, snakeCase_ident] at this
      rw [variableName_injective this]
    | none =>
      have := List.find?_eq_none.1 h v (mem_all v)
      simp [snakeCase_ident] at this

theorem stateVariable_str (v : StateVariable) :
    stateVariable (.str (variableName v) : Json F) = some v := by
  simp [stateVariable, variant, (stateVariableOfName_iff _ v).2 rfl, unitContent]

theorem axis_axisJson (a : StateVariable × List F) : axis (axisJson a) = some a := by
  simp [axis, axisJson, pair, stateVariable_str, list_numbers]

end Post.De
