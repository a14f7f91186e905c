import Verif.Spec.Table
/-! # Lemmas about table lookup in any arithmetic -/

set_option linter.unusedSectionVars false

namespace Post
open Spec
variable {F : Type} [Flt F]

/-- A panic that can only come from a lookup. -/
def IsLookup (e : Panic) : Prop := e = .indexOutOfBounds ∨ e = .underflow

theorem idx_error {α : Type} {l : List α} {i : Nat} {e : Panic} (h : idx l i = .error e) :
    IsLookup e := by
  unfold idx at h; split at h
  · cases h
  · injection h with h; exact .inl h.symm

theorem idx_lt {α : Type} {l : List α} {i : Nat} (h : i < l.length) : idx l i = .ok l[i] := by
  unfold idx; rw [List.getElem?_eq_getElem h]

theorem idx_ok_iff {α : Type} {l : List α} {i : Nat} {a : α} :
    idx l i = .ok a ↔ ∃ h : i < l.length, l[i] = a := by
  constructor
  · intro h
    unfold idx at h; split at h
    · next v hv =>
      injection h with h; subst h
      rw [List.getElem?_eq_some_iff] at hv; exact hv
    · cases h
  · rintro ⟨h, rfl⟩; exact idx_lt h

theorem binSearch_bounds {α : Type} (pred : α → Bool) (l : List α) (left right : Nat)
    (h : left ≤ right) :
    left ≤ binSearch pred l left right ∧ binSearch pred l left right ≤ right := by
  fun_induction binSearch pred l left right with
  | case1 left right hlt mid hp ih =>
    have := ih (by omega); omega
  | case2 left right hlt mid hp ih =>
    have := ih (by omega); omega
  | case3 left right hlt => omega

theorem partitionPoint_le {α : Type} (pred : α → Bool) (l : List α) :
    partitionPoint pred l ≤ l.length := (binSearch_bounds pred l 0 l.length (by omega)).2

/-- With at least two arguments `get_idx` returns two neighbouring valid indices. -/
theorem getIdx_ok {valArr : List F} (val : F) (h : 2 ≤ valArr.length) :
    ∃ i, getIdx valArr val = .ok (i, i + 1) ∧ i + 1 < valArr.length := by
  unfold getIdx
  have hp := partitionPoint_le (fun i => Flt.lt i val) valArr
  generalize partitionPoint (fun i => Flt.lt i val) valArr = p at hp
  simp only [bind, Except.bind]
  by_cases h1 : p = valArr.length
  · refine ⟨p - 2, ?_, by omega⟩
    rw [if_pos h1, if_neg (by omega), if_neg (by omega)]
    simp; omega
  · by_cases h2 : p = 0
    · subst h2
      refine ⟨0, ?_, by omega⟩
      simp [show ¬ (0 = valArr.length) by omega]
    · refine ⟨p - 1, ?_, by omega⟩
      simp [h1, h2, show p - 1 + 1 = p by omega]

theorem getIdx_error {valArr : List F} {val : F} {e : Panic} (h : getIdx valArr val = .error e) :
    IsLookup e := by
  unfold getIdx at h
  generalize partitionPoint (fun i => Flt.lt i val) valArr = p at h
  simp only [bind, Except.bind] at h
  by_cases h1 : p = valArr.length
  · rw [if_pos h1] at h
    by_cases h2 : p = 0
    · rw [if_pos h2] at h; injection h with h; exact .inr h.symm
    · rw [if_neg h2] at h
      split at h
      · injection h with h; exact .inr h.symm
      · cases h
  · rw [if_neg h1] at h
    by_cases h2 : p = 0
    · rw [if_pos h2] at h; simp at h
    · rw [if_neg h2] at h
      split at h
      · injection h with h; exact .inr h.symm
      · cases h

/-- Shape shared by the three interpolation functions: `inner` interpolates the rest. -/
def interp {T : Type} (inner : T → Except Panic F) (xArr : List F) (x : F) (data : List T) :
    Except Panic F :=
  if data.isEmpty then .ok Flt.nan
  else if data.length = 1 then do inner (← idx data 0)
  else do
    let (idx0, idx1) ← getIdx xArr x
    let x0 ← idx xArr idx0
    let x1 ← idx xArr idx1
    let y0 ← inner (← idx data idx0)
    let y1 ← inner (← idx data idx1)
    .ok (y0 + (x - x0) * (y1 - y0) / (x1 - x0))

theorem linearInterpolate_eq (xArr : List F) (x : F) (data : List F) :
    linearInterpolate xArr x data = interp .ok xArr x data := by
  unfold linearInterpolate interp
  split
  · rfl
  · split
    · cases h : idx data 0 <;> simp [bind, Except.bind]
    · congr 1

theorem bilinearInterpolate_eq (xArr : List F) (x : F) (yArr : List F) (y : F)
    (data : List (List F)) :
    bilinearInterpolate xArr x yArr y data = interp (linearInterpolate yArr y) xArr x data := rfl

theorem trilinearInterpolate_eq (xArr : List F) (x : F) (yArr : List F) (y : F) (zArr : List F)
    (z : F) (data : List (List (List F))) :
    trilinearInterpolate xArr x yArr y zArr z data =
      interp (bilinearInterpolate yArr y zArr z) xArr x data := rfl

theorem interp_error {T : Type} {inner : T → Except Panic F} {xArr : List F} {x : F}
    {data : List T} {e : Panic} (hi : ∀ t e, inner t = .error e → IsLookup e)
    (h : interp inner xArr x data = .error e) : IsLookup e := by
  unfold interp at h
  split at h
  · cases h
  · split at h
    · cases h0 : idx data 0 with
      | error e' => simp [h0, bind, Except.bind] at h; subst h; exact idx_error h0
      | ok t => simp [h0, bind, Except.bind] at h; exact hi _ _ h
    · cases hg : getIdx xArr x with
      | error e' => simp [hg, bind, Except.bind] at h; subst h; exact getIdx_error hg
      | ok i =>
        obtain ⟨i0, i1⟩ := i
        simp only [hg, bind, Except.bind] at h
        cases h1 : idx xArr i0 with
        | error e' => simp [h1] at h; subst h; exact idx_error h1
        | ok x0 =>
          simp only [h1] at h
          cases h2 : idx xArr i1 with
          | error e' => simp [h2] at h; subst h; exact idx_error h2
          | ok x1 =>
            simp only [h2] at h
            cases h3 : idx data i0 with
            | error e' => simp [h3] at h; subst h; exact idx_error h3
            | ok d0 =>
              simp only [h3] at h
              cases h4 : inner d0 with
              | error e' => simp [h4] at h; subst h; exact hi _ _ h4
              | ok y0 =>
                simp only [h4] at h
                cases h5 : idx data i1 with
                | error e' => simp [h5] at h; subst h; exact idx_error h5
                | ok d1 =>
                  simp only [h5] at h
                  cases h6 : inner d1 with
                  | error e' => simp [h6] at h; subst h; exact hi _ _ h6
                  | ok y1 => simp [h6] at h

/-- Matching lengths are enough for a lookup to succeed. -/
theorem interp_ok {T : Type} {inner : T → Except Panic F} {xArr : List F} {x : F}
    {data : List T} (hl : data.length = xArr.length) (hi : ∀ t ∈ data, ∃ v, inner t = .ok v) :
    ∃ v, interp inner xArr x data = .ok v := by
  unfold interp
  split
  · exact ⟨_, rfl⟩
  · next hne =>
    have hne' : data ≠ [] := by simpa using hne
    have hpos : 0 < data.length := List.length_pos_iff.2 hne'
    split
    · next h1 =>
      obtain ⟨v, hv⟩ := hi _ (List.getElem_mem hpos)
      exact ⟨v, by simp [idx_lt hpos, bind, Except.bind, hv]⟩
    · next h1 =>
      obtain ⟨i, hg, hlt⟩ := getIdx_ok (valArr := xArr) x (by omega)
      obtain ⟨v0, hv0⟩ := hi _ (List.getElem_mem (n := i) (by omega : i < data.length))
      obtain ⟨v1, hv1⟩ := hi _ (List.getElem_mem (n := i + 1) (by omega : i + 1 < data.length))
      refine ⟨v0 + (x - xArr[i]) * (v1 - v0) / (xArr[i + 1] - xArr[i]), ?_⟩
      · simp only [hg, bind, Except.bind, idx_lt (l := xArr) (i := i) (by omega),
          idx_lt (l := xArr) (i := i + 1) hlt, idx_lt (l := data) (i := i) (by omega),
          idx_lt (l := data) (i := i + 1) (by omega), hv0, hv1]

theorem linearInterpolate_error {xArr : List F} {x : F} {data : List F} {e : Panic}
    (h : linearInterpolate xArr x data = .error e) : IsLookup e := by
  rw [linearInterpolate_eq] at h
  exact interp_error (by intro t e h; cases h) h

theorem bilinearInterpolate_error {xArr : List F} {x : F} {yArr : List F} {y : F}
    {data : List (List F)} {e : Panic}
    (h : bilinearInterpolate xArr x yArr y data = .error e) : IsLookup e := by
  rw [bilinearInterpolate_eq] at h
  exact interp_error (fun _ _ h => linearInterpolate_error h) h

theorem Table.atState_error {t : Table F} {s : State F} {e : Panic}
    (h : t.atState s = .error e) : IsLookup e := by
  cases t with
  | d1 t => exact linearInterpolate_error h
  | d2 t => exact bilinearInterpolate_error h
  | d3 t => exact interp_error (fun _ _ h => bilinearInterpolate_error h) h

theorem linearInterpolate_ok {xArr : List F} (x : F) {data : List F}
    (h : data.length = xArr.length) : ∃ v, linearInterpolate xArr x data = .ok v := by
  rw [linearInterpolate_eq]
  exact interp_ok h fun t _ => ⟨t, rfl⟩

theorem bilinearInterpolate_ok {xArr : List F} (x : F) {yArr : List F} (y : F)
    {data : List (List F)} (h : data.length = xArr.length)
    (h' : ∀ row ∈ data, row.length = yArr.length) :
    ∃ v, bilinearInterpolate xArr x yArr y data = .ok v :=
  interp_ok h fun t ht => linearInterpolate_ok y (h' t ht)

/-- Looking up a well-formed table succeeds. -/
theorem Table.atState_ok {t : Table F} (h : WellFormed t) (s : State F) :
    ∃ v, t.atState s = .ok v := by
  cases t with
  | d1 t => exact linearInterpolate_ok _ h.2
  | d2 t => exact bilinearInterpolate_ok _ _ h.1.2 fun r hr => (h.2 r hr).2
  | d3 t =>
    exact interp_ok h.1.2 fun p hp =>
      bilinearInterpolate_ok _ _ (h.2 p hp).1.2 fun r hr => ((h.2 p hp).2 r hr).2

/-! ## Construction of tables -/

theorem windowsAscending_iff (l : List F) : windowsAscending l = true ↔ Ascending l := by
  induction l with
  | nil => simp [windowsAscending, Ascending]
  | cons a l ih =>
    cases l with
    | nil => simp [windowsAscending, Ascending]
    | cons b l =>
      simp only [windowsAscending, Bool.and_eq_true, ih]
      constructor
      · rintro ⟨h1, h2⟩ i hi
        cases i with
        | zero => exact h1
        | succ i => exact h2 i (by simpa using hi)
      · intro h
        refine ⟨h 0 (by simp), fun i hi => h (i + 1) (by simpa using hi)⟩

theorem validate_ok_iff {T : Type} {idxArr : List F} {data : List T} :
    validate idxArr data = .ok () ↔ AxisFits idxArr data := by
  unfold validate AxisFits
  rw [← windowsAscending_iff]
  cases windowsAscending idxArr with
  | false => simp
  | true =>
    by_cases h : idxArr.length = data.length
    · simp [h]
    · simp [h]; exact fun h' => h h'.symm

theorem forIn_ok_iff {E T : Type} (l : List T) (f : T → PUnit → Except E (ForInStep PUnit))
    (hf : ∀ a s, f a () = .ok s → s = .yield ()) :
    (forIn l PUnit.unit f : Except E PUnit) = .ok PUnit.unit ↔
      ∀ a ∈ l, f a () = .ok (.yield ()) := by
  induction l with
  | nil => simp [pure, Except.pure]
  | cons a l ih =>
    rw [List.forIn_cons, List.forall_mem_cons, ← ih]
    cases h : f a () with
    | error e =>
      simp [bind, Except.bind]
    | ok s =>
      have := hf _ _ h
      subst this
      simp [bind, Except.bind]

theorem Table1D.tryNew_ok_iff {x : StateVariable × List F} {data : List F} {i : Interpolator}
    {t : Table1D F} :
    Table1D.tryNew x data i = .ok t ↔ t = ⟨x, data, i⟩ ∧ WellFormed (.d1 t) := by
  unfold Table1D.tryNew
  constructor
  · intro h
    cases hv : validate x.2 data with
    | error e => simp [hv, bind, Except.bind] at h
    | ok u =>
      simp only [hv, bind, Except.bind] at h
      injection h with h
      subst h
      exact ⟨rfl, validate_ok_iff.1 hv⟩
  · rintro ⟨rfl, h⟩
    have : validate x.2 data = .ok () := validate_ok_iff.2 h
    simp [this, bind, Except.bind]

theorem Table2D.tryNew_ok_iff {x y : StateVariable × List F} {data : List (List F)}
    {i : Interpolator} {t : Table2D F} :
    Table2D.tryNew x y data i = .ok t ↔ t = ⟨x, y, data, i⟩ ∧ WellFormed (.d2 t) := by
  have key := forIn_ok_iff data
    (fun yData _ => do validate y.2 yData; pure (ForInStep.yield PUnit.unit))
    (by intro a s h; cases hv : validate y.2 a <;>
          simp [hv, bind, Except.bind, pure, Except.pure] at h; exact h.symm)
  have key2 : ∀ r : List F, ((do validate y.2 r; pure (ForInStep.yield PUnit.unit)) :
      Except TableInitError (ForInStep PUnit)) = .ok (.yield ()) ↔ AxisFits y.2 r := by
    intro r
    rw [← validate_ok_iff]
    cases hv : validate y.2 r <;> simp [bind, Except.bind, pure, Except.pure]
  simp only [key2] at key
  unfold Table2D.tryNew
  constructor
  · intro h
    cases hv : validate x.2 data with
    | error e => simp [hv, bind, Except.bind] at h
    | ok u =>
      cases hl : (forIn data PUnit.unit fun yData _ => do
          validate y.2 yData; pure (ForInStep.yield PUnit.unit) :
          Except TableInitError PUnit) with
      | error e =>
        simp only [hv, bind, Except.bind, pure, Except.pure] at h hl
        rw [hl] at h; cases h
      | ok u =>
        have hk := key.1 hl
        simp only [hv, bind, Except.bind, pure, Except.pure] at h hl
        rw [hl] at h
        injection h with h
        subst h
        exact ⟨rfl, validate_ok_iff.1 hv, hk⟩
  · rintro ⟨rfl, h⟩
    have hv : validate x.2 data = .ok () := validate_ok_iff.2 h.1
    have hl := key.2 h.2
    simp only [hv, bind, Except.bind, pure, Except.pure] at hl ⊢
    rw [hl]

theorem Table3D.tryNew_ok_iff {x y z : StateVariable × List F} {data : List (List (List F))}
    {i : Interpolator} {t : Table3D F} :
    Table3D.tryNew x y z data i = .ok t ↔ t = ⟨x, y, z, data, i⟩ ∧ WellFormed (.d3 t) := by
  have inner : ∀ plane : List (List F), (forIn plane PUnit.unit fun zData _ => do
      validate z.2 zData; pure (ForInStep.yield PUnit.unit) : Except TableInitError PUnit) =
      .ok PUnit.unit ↔ ∀ r ∈ plane, AxisFits z.2 r := by
    intro plane
    rw [forIn_ok_iff plane _ (by
      intro a s h; cases hv : validate z.2 a <;>
        simp [hv, bind, Except.bind, pure, Except.pure] at h; exact h.symm)]
    refine forall_congr' fun r => forall_congr' fun _ => ?_
    rw [← validate_ok_iff]
    cases hv : validate z.2 r <;> simp [bind, Except.bind, pure, Except.pure]
  have key := forIn_ok_iff data
    (fun yData _ => do
      validate y.2 yData
      forIn yData PUnit.unit fun zData _ => do
        validate z.2 zData; pure (ForInStep.yield PUnit.unit)
      pure (ForInStep.yield PUnit.unit))
    (by
      intro a s h
      cases hv : validate y.2 a with
      | error e => simp [hv, bind, Except.bind] at h
      | ok u =>
        cases hl : (forIn a PUnit.unit fun zData _ => do
            validate z.2 zData; pure (ForInStep.yield PUnit.unit) :
            Except TableInitError PUnit) with
        | error e =>
          simp only [hv, bind, Except.bind, pure, Except.pure] at h hl
          rw [hl] at h; cases h
        | ok u =>
          simp only [hv, bind, Except.bind, pure, Except.pure] at h hl
          rw [hl] at h; injection h with h; exact h.symm)
  have key2 : ∀ plane : List (List F), ((do
      validate y.2 plane
      forIn plane PUnit.unit fun zData _ => do
        validate z.2 zData; pure (ForInStep.yield PUnit.unit)
      pure (ForInStep.yield PUnit.unit)) :
      Except TableInitError (ForInStep PUnit)) = .ok (.yield ()) ↔
        AxisFits y.2 plane ∧ ∀ r ∈ plane, AxisFits z.2 r := by
    intro plane
    rw [← validate_ok_iff, ← inner]
    cases hv : validate y.2 plane with
    | error e => simp [bind, Except.bind]
    | ok u =>
      cases hl : (forIn plane PUnit.unit fun zData _ => do
          validate z.2 zData; pure (ForInStep.yield PUnit.unit) :
          Except TableInitError PUnit) with
      | error e =>
        simp [bind, Except.bind, pure, Except.pure]
      | ok u =>
        simp [bind, Except.bind, pure, Except.pure]
  simp only [key2] at key
  unfold Table3D.tryNew
  constructor
  · intro h
    cases hv : validate x.2 data with
    | error e => simp [hv, bind, Except.bind] at h
    | ok u =>
      cases hl : (forIn data PUnit.unit fun yData _ => do
          validate y.2 yData
          forIn yData PUnit.unit fun zData _ => do
            validate z.2 zData; pure (ForInStep.yield PUnit.unit)
          pure (ForInStep.yield PUnit.unit) :
          Except TableInitError PUnit) with
      | error e =>
        simp only [hv, bind, Except.bind, pure, Except.pure] at h hl
        rw [hl] at h; cases h
      | ok u =>
        have hk := key.1 hl
        simp only [hv, bind, Except.bind, pure, Except.pure] at h hl
        rw [hl] at h
        injection h with h
        subst h
        exact ⟨rfl, validate_ok_iff.1 hv, hk⟩
  · rintro ⟨rfl, h⟩
    have hv : validate x.2 data = .ok () := validate_ok_iff.2 h.1
    have hl := key.2 h.2
    simp only [hv, bind, Except.bind, pure, Except.pure] at hl ⊢
    rw [hl]

end Post
