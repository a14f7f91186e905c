import Verif.Props.Run
import Mathlib.Data.List.Forall2
/-! # What the program prints (C61) -/

set_option linter.unusedSectionVars false

namespace Post
open Spec Flt
variable {F : Type} [Flt F]

/-- The row shows the time, the planet-fixed position, the (inertial) velocity, the altitude and
the propellant mass of the state (project.tex:329-330). -/
structure Spec.Shows (r : Row F) (s : State F) : Prop where
  time : r.time = s.time
  position : r.positionPlanet = s.positionPlanet
  velocity : r.velocity = s.velocity
  altitude : r.altitude = s.altitude
  propellantMass : r.propellantMass = s.propellantMass

/-- From phase `a` to phase `b` one integration step was made: either it was kept, and `b` has
the state it gave, or it was discarded, and `b` has the state of `a`. -/
def Spec.Attempt (a b : Phase F) : Prop :=
  (StepKept a ∧ OneStep a a.stepsize a.state b.state) ∨ (StepDiscarded a ∧ b.state = a.state)

/-- C61 (phase).  Once the equations of motion have been evaluated at the start, running a phase
prints exactly one row per integration step attempted, in order, and the row shows the state
after the attempt: the new one if the step was kept, the old one again if it was discarded.
The phase returned has the state shown last (that of the start if no step was attempted). -/
theorem C61_one_row_per_attempt {p : Phase F} {fuel : Nat} {rows : List (Row F)}
    {res : Except Panic (Phase F)} (h : p.run fuel = some ⟨rows, res⟩) {s0 : State F}
    (h0 : p.system p.state = .ok s0) :
    ∃ phases : List (Phase F), List.Forall₂ (fun r q => Shows r q.state) rows phases ∧
      Linked Attempt { p with state := s0 } phases ∧
      ∀ q, res = .ok q → q = ({ p with state := s0 } :: phases).getLast (by simp) := by
  rcases Phase.run_some h with ⟨e, h1, _⟩ | ⟨s0', h0', ps, q, hpath, hrows, hle, hq⟩
  · rw [h0] at h1; cases h1
  · rw [h0] at h0'; injection h0' with h0'; subst h0'
    refine ⟨ps, ?_, ?_, ?_⟩
    · subst hrows
      clear hpath hle h hq
      induction ps with
      | nil => exact .nil
      | cons p ps ih => exact .cons ⟨rfl, rfl, rfl, rfl, rfl⟩ ih
    · clear hrows hq h h0 hle
      generalize { p with state := s0 } = r at hpath
      induction hpath with
      | nil r => exact .nil _
      | @cons r r' q ps _ h2 _ ih =>
        refine .cons ?_ ih
        obtain ⟨s, hs, hcase⟩ := C24_step h2
        rcases hcase with ⟨h3, rfl⟩ | ⟨_, h3, rfl⟩ | ⟨h3, h4, _, _, rfl⟩
        · exact .inl ⟨⟨s, hs, .inl h3⟩, hs⟩
        · exact .inl ⟨⟨s, hs, .inr h3⟩, hs⟩
        · exact .inr ⟨⟨s, hs, h3, h4⟩, rfl⟩
    · intro q' hq'
      rcases hq with ⟨hend, hq⟩ | ⟨_, e, _, hq⟩
      · rw [hq'] at hq; injection hq with hq; subst hq
        clear hend hrows hq' h h0 hle
        generalize { p with state := s0 } = r at hpath
        induction hpath with
        | nil r => rfl
        | cons _ _ _ ih => rw [List.getLast_cons (by simp)]; exact ih
      · rw [hq'] at hq; cases hq

/-- If the equations of motion cannot be evaluated at the start, nothing is printed. -/
theorem C61_nothing_before_start {p : Phase F} {fuel : Nat} {rows : List (Row F)}
    {res : Except Panic (Phase F)} (h : p.run fuel = some ⟨rows, res⟩) {e : Panic}
    (h0 : p.system p.state = .error e) : rows = [] ∧ res = .error e := by
  rcases Phase.run_some h with ⟨e', h1, h2, h3⟩ | ⟨s0', h0', _⟩
  · rw [h0] at h1; injection h1 with h1; subst h1; exact ⟨h2, h3⟩
  · rw [h0] at h0'; cases h0'

/-- The kept steps of a run: its attempts without the repetitions. -/
inductive Spec.Kept : Phase F → List (Phase F) → List (State F) → Prop
  | nil (a : Phase F) : Kept a [] []
  | kept {a b : Phase F} {l : List (Phase F)} {ss : List (State F)} :
      StepKept a → Kept b l ss → Kept a (b :: l) (b.state :: ss)
  | discarded {a b : Phase F} {l : List (Phase F)} {ss : List (State F)} :
      StepDiscarded a → Kept b l ss → Kept a (b :: l) ss

theorem kept_not_discarded {p : Phase F} (h : StepKept p) (h' : StepDiscarded p) : False := by
  obtain ⟨s, hs, h⟩ := h
  obtain ⟨s', hs', h1, h2⟩ := h'
  have : s = s' := by
    unfold OneStep at hs hs'; rw [hs] at hs'; injection hs'
  subst this
  rcases h with h | h
  · exact h1 h
  · exact h h2

/-- C61 (trajectory).  The states of the kept steps form a chain of full integration steps, and
all of them are printed in this order: their rows are a subsequence of the rows printed. -/
theorem C61_all_steps_printed {p : Phase F} {fuel : Nat} {rows : List (Row F)}
    {res : Except Panic (Phase F)} (h : p.run fuel = some ⟨rows, res⟩) {s0 : State F}
    (h0 : p.system p.state = .ok s0) :
    ∃ phases states shown, Kept { p with state := s0 } phases states ∧
      List.Forall₂ (fun r q => Shows r q.state) rows phases ∧
      shown.Sublist rows ∧ List.Forall₂ Shows shown states ∧
      Linked (fun s s' => ∃ h, OneStep p h s s') s0 states ∧
      (∀ q, res = .ok q → q.state = (s0 :: states).getLast (by simp)) := by
  obtain ⟨phases, hshow, hlink, hlast⟩ := C61_one_row_per_attempt h h0
  have hsame : Phase.SameParams p { p with state := s0 } :=
    ⟨rfl, rfl, rfl, rfl, rfl, rfl, rfl, rfl, rfl⟩
  rcases Phase.run_some h with ⟨e, h1, _⟩ | ⟨s0', h0', ps, q, hpath, hrows, hle, hq⟩
  · rw [h0] at h1; cases h1
  rw [h0] at h0'; injection h0' with h0'; subst h0'
  clear hlast hlink hshow phases
  have key : ∀ {r q : Phase F} {ps : List (Phase F)}, Path r ps q → Phase.SameParams p r →
      ∃ states shown, Kept r ps states ∧ shown.Sublist (ps.map (·.state.row)) ∧
        List.Forall₂ Shows shown states ∧
        Linked (fun s s' => ∃ h, OneStep p h s s') r.state states ∧
        q.state = (r.state :: states).getLast (by simp) := by
    intro r q ps hpath
    induction hpath with
    | nil r => intro _; exact ⟨[], [], .nil _, .slnil, .nil, .nil _, rfl⟩
    | @cons r r' q ps _ h2 _ ih =>
      intro hs
      obtain ⟨states, shown, i1, i2, i3, i4, i5⟩ := ih (hs.trans (Phase.step_sameParams h2))
      obtain ⟨s, hst, hcase⟩ := C24_step h2
      have hkeep : StepKept r → r'.state = s → _ := fun hk he =>
        (⟨r'.state :: states, r'.state.row :: shown, .kept hk i1, i2.cons_cons _,
          .cons ⟨rfl, rfl, rfl, rfl, rfl⟩ i3,
          .cons ⟨r.stepsize, by rw [he]; exact hs.oneStep.1 hst⟩ i4,
          by rw [List.getLast_cons (by simp)]; exact i5⟩ :
          ∃ states shown, Kept r (r' :: ps) states ∧
            shown.Sublist ((r' :: ps).map (·.state.row)) ∧ List.Forall₂ Shows shown states ∧
            Linked (fun s s' => ∃ h, OneStep p h s s') r.state states ∧
            q.state = (r.state :: states).getLast (by simp))
      rcases hcase with ⟨h3, he⟩ | ⟨_, h3, he⟩ | ⟨h3, h4, _, _, he⟩
      · exact hkeep ⟨s, hst, .inl h3⟩ (by rw [he])
      · exact hkeep ⟨s, hst, .inr h3⟩ (by rw [he])
      · have : r'.state = r.state := by rw [he]
        refine ⟨states, shown, .discarded ⟨s, hst, h3, h4⟩ i1, i2.cons _, i3, ?_, ?_⟩
        · rw [← this]; exact i4
        · simpa only [this] using i5
  obtain ⟨states, shown, i1, i2, i3, i4, i5⟩ := key hpath hsame
  refine ⟨ps, states, shown, i1, ?_, by rw [hrows]; exact i2, i3, i4, ?_⟩
  · subst hrows
    clear hpath i1 i2 hq h hle
    induction ps with
    | nil => exact .nil
    | cons p ps ih => exact .cons ⟨rfl, rfl, rfl, rfl, rfl⟩ ih
  · intro q' hq'
    rcases hq with ⟨_, hq⟩ | ⟨_, e, _, hq⟩
    · rw [hq'] at hq; injection hq with hq; subst hq; exact i5
    · rw [hq'] at hq; cases hq

/-- A run with four kept steps and one discarded one: five rows, the third one twice. -/
example : (Toy.phase1.run 10).map (fun o => (o.rows.map (·.time), o.result.toOption.isSome)) =
    some ([1, 2, 3, 3, 3.5], true) := by decide +kernel

end Post
