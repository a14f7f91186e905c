import Verif.Lemmas.Plot
import Verif.Props.Run
import Verif.Toy
import Verif.Ext
import Mathlib.Data.List.Forall2
import Mathlib.Algebra.Order.Round
/-! # The plotting tool reads what the simulation printed (C63)

How `{:.0}` prints a number is a parameter `fmt`.  What is needed of it: the numbers of the rows
are printed as decimal integers (true of every finite number), times without a minus sign. -/

set_option linter.unusedSectionVars false

namespace Post
open Spec Flt

/-- The plotted line has the time as printed in the row, and the integers printed for the
position and the velocity. -/
structure Spec.PlotLine {F : Type} (fmt : F → List Char) (r : Row F) (l : Plot.Line) : Prop where
  time : l.time = fmt r.time
  position : l.position = (Plot.value (fmt r.positionPlanet.x),
    Plot.value (fmt r.positionPlanet.y), Plot.value (fmt r.positionPlanet.z))
  velocity : l.velocity = (Plot.value (fmt r.velocity.x), Plot.value (fmt r.velocity.y),
    Plot.value (fmt r.velocity.z))

/-- What is printed for phases with the given numbers and rows. -/
def Spec.phaseLog {F : Type} (phases : List (Nat × List (Row F))) : List (LogEntry F) :=
  phases.flatMap fun b => .startingPhase b.1 :: b.2.map .row

/-- The plotted data are those of the printed rows: the same phases with the same numbers, and
in every phase one line per row, in the same order. -/
def Spec.PlotOf {F : Type} (fmt : F → List Char) (phases : List (Nat × List (Row F)))
    (data : List (List Char × List Plot.Line)) : Prop :=
  List.Forall₂ (fun b d => d.1 = Nat.toDigits 10 b.1 ∧
    List.Forall₂ (PlotLine fmt) b.2 d.2) phases data

/-- C63 (text).  For every sequence of phases with at least one row each, whose numbers are
printed as decimal integers, the plotting tool accepts the printed text, and what it plots are
exactly the printed phases and rows. -/
theorem C63_reads_back {F : Type} {fmt : F → List Char} {phases : List (Nat × List (Row F))}
    (hne : phases ≠ []) (h : ∀ b ∈ phases, b.2 ≠ [] ∧ ∀ r ∈ b.2, Plot.Readable fmt r) :
    ∃ data, Plot.parse (Text.output fmt (phaseLog phases)) = some data ∧
      PlotOf fmt phases data := by
  refine ⟨_, Plot.parse_blocks hne h, ?_⟩
  clear hne h
  induction phases with
  | nil => exact .nil
  | cons b bs ih =>
    refine .cons ⟨rfl, ?_⟩ ih
    show List.Forall₂ (PlotLine fmt) b.2 (b.2.map (Plot.lineOf fmt))
    generalize b.2 = rows
    clear ih
    induction rows with
    | nil => exact .nil
    | cons r rows ih => exact .cons ⟨rfl, rfl, rfl⟩ ih

variable {F : Type} [Flt F]

/-- The log of a sequence of phases that all ended: numbers counted up, at least one row each. -/
theorem sequence_phaseLog {i : Nat} {prev last : Option (Phase F)} {cs : List (PhaseConfig F)}
    {log : List (LogEntry F)} (h : Sequence i prev cs log last) :
    ∃ rowss : List (List (Row F)), rowss.length = cs.length ∧ (∀ rows ∈ rowss, rows ≠ []) ∧
      log = phaseLog ((rowss.zipIdx (i + 1)).map fun b => (b.2, b.1)) := by
  induction h with
  | nil i prev => exact ⟨[], rfl, by simp, rfl⟩
  | @cons i prev last c cs rows log q hc _ ih =>
    obtain ⟨rowss, h1, h2, h3⟩ := ih
    refine ⟨rows :: rowss, by simp [h1], ?_, ?_⟩
    · intro rows' hr
      rcases List.mem_cons.1 hr with rfl | hr
      · obtain ⟨p, _, fuel, hrun⟩ := hc
        rintro rfl
        rcases Phase.run_some hrun with ⟨e, _, _, h⟩ | ⟨s0, _, ps, q', hpath, hrows, _, hq⟩
        · cases h
        · have : ps = [] := by
            cases ps with
            | nil => rfl
            | cons p ps => cases hrows
          subst this
          cases hpath
          rcases hq with ⟨he, _⟩ | ⟨_, _, _, hq⟩
          · simp [Phase.reset] at he
          · cases hq
      · exact h2 _ hr
    · rw [h3]
      simp [phaseLog]

/-- C63 (program).  If a simulation of at least one phase finishes, and the numbers in the rows
it prints are printed as decimal integers, then the plotting tool accepts the output of the
program; what it plots are the phases `1, 2, …` that were run, and for each of them all its rows
in the order printed, of which there is at least one. -/
theorem C63_plot_shows_simulation {fmt : F → List Char} {cs : List (PhaseConfig F)}
    {log : List (LogEntry F)} {s : State F}
    (h : Simulation.Terminates cs ⟨log, .ok s⟩)
    (hne : cs ≠ []) (hr : ∀ r, LogEntry.row r ∈ log → Plot.Readable fmt r) :
    ∃ (phases : List (Nat × List (Row F))) (data : List (List Char × List Plot.Line)),
      phases.map (·.1) = List.range' 1 cs.length ∧ log = phaseLog phases ∧
      Plot.parse (Text.output fmt log) = some data ∧ PlotOf fmt phases data ∧
      ∀ b ∈ phases, b.2 ≠ [] := by
  obtain ⟨last, hseq, _⟩ := C53_terminates_ok_iff.1 h
  obtain ⟨rowss, h1, h2, h3⟩ := sequence_phaseLog hseq
  subst h3
  have hl : rowss ≠ [] := by rintro rfl; exact hne (by simpa using h1.symm)
  have hall : ∀ b ∈ (rowss.zipIdx (0 + 1)).map (fun b => (b.2, b.1)),
      b.2 ≠ [] ∧ ∀ r ∈ b.2, Plot.Readable fmt r := by
    intro b hb
    refine ⟨?_, fun r hr' => hr r ?_⟩
    · obtain ⟨x, hx, rfl⟩ := List.mem_map.1 hb
      exact h2 _ (List.fst_mem_of_mem_zipIdx hx)
    · exact List.mem_flatMap.2 ⟨b, hb, by simp [hr']⟩
  obtain ⟨data, hd1, hd2⟩ := C63_reads_back (fmt := fmt) (by simpa using hl) hall
  refine ⟨_, data, ?_, rfl, hd1, hd2, fun b hb => (hall b hb).1⟩
  simp [h1, Function.comp_def, List.zipIdx_map_snd]

/-! ## How far the plot is from the simulation -/

/-- `{:.0}` prints a finite number as a nearest integer in decimal digits, after a minus sign
if the number is negative. -/
def Spec.PrintsNearest (fmt : XR → List Char) : Prop :=
  ∀ x : ℝ, ∃ n : Nat, |(n : ℝ) - abs x| ≤ 1 / 2 ∧
    fmt (.fin x) = (if x < 0 then ['-'] else []) ++ Nat.toDigits 10 n

/-- The integer `n` is a nearest one to the number `x`. -/
def Spec.Near (n : Int) (x : XR) : Prop := ∃ r : ℝ, x = .fin r ∧ |(n : ℝ) - r| ≤ 1 / 2

/-- The numbers plotted are within one half of those of the row. -/
structure Spec.PlotNear (r : Row XR) (l : Plot.Line) : Prop where
  time : Near (Plot.value l.time) r.time
  px : Near l.position.1 r.positionPlanet.x
  py : Near l.position.2.1 r.positionPlanet.y
  pz : Near l.position.2.2 r.positionPlanet.z
  vx : Near l.velocity.1 r.velocity.x
  vy : Near l.velocity.2.1 r.velocity.y
  vz : Near l.velocity.2.2 r.velocity.z

/-- All numbers of the row are finite, and the time is not negative. -/
structure Spec.FiniteRow (r : Row XR) : Prop where
  time : ∃ x : ℝ, r.time = .fin x ∧ 0 ≤ x
  px : ∃ x : ℝ, r.positionPlanet.x = .fin x
  py : ∃ x : ℝ, r.positionPlanet.y = .fin x
  pz : ∃ x : ℝ, r.positionPlanet.z = .fin x
  vx : ∃ x : ℝ, r.velocity.x = .fin x
  vy : ∃ x : ℝ, r.velocity.y = .fin x
  vz : ∃ x : ℝ, r.velocity.z = .fin x
  altitude : ∃ x : ℝ, r.altitude = .fin x
  propellant : ∃ x : ℝ, r.propellantMass = .fin x

theorem value_natural {s : List Char} (h : Spec.Natural s) :
    Plot.value s = (Nat.ofDigitChars 10 s 0 : Int) := by
  unfold Plot.value
  split
  · exact absurd (h.2 '-' (by simp)) (by decide)
  · rfl

theorem decimal_of_printsNearest {fmt : XR → List Char} (h : PrintsNearest fmt) {x : XR}
    (hx : ∃ r : ℝ, x = .fin r) : Spec.Decimal (fmt x) ∧ Near (Plot.value (fmt x)) x := by
  obtain ⟨r, rfl⟩ := hx
  obtain ⟨n, hn, he⟩ := h r
  have hnat := Plot.natural_toDigits n
  rw [he]
  split
  · next hr =>
    refine ⟨.inr ⟨_, hnat, rfl⟩, r, rfl, ?_⟩
    simp only [Plot.value, List.cons_append, List.nil_append, Nat.ofDigitChars_ten_toDigits]
    rw [abs_of_neg hr] at hn
    rw [← abs_neg]
    push_cast
    convert hn using 2
    ring
  · next hr =>
    refine ⟨.inl hnat, r, rfl, ?_⟩
    rw [List.nil_append, value_natural hnat, Nat.ofDigitChars_ten_toDigits]
    rw [abs_of_nonneg (not_lt.1 hr)] at hn
    exact_mod_cast hn

theorem readable_of_finite {fmt : XR → List Char} (h : PrintsNearest fmt) {r : Row XR}
    (hr : FiniteRow r) : Plot.Readable fmt r where
  time := by
    obtain ⟨x, hx, h0⟩ := hr.time
    obtain ⟨n, _, he⟩ := h x
    rw [hx, he, if_neg (not_lt.2 h0)]
    exact Plot.natural_toDigits n
  px := (decimal_of_printsNearest h hr.px).1
  py := (decimal_of_printsNearest h hr.py).1
  pz := (decimal_of_printsNearest h hr.pz).1
  vx := (decimal_of_printsNearest h hr.vx).1
  vy := (decimal_of_printsNearest h hr.vy).1
  vz := (decimal_of_printsNearest h hr.vz).1
  altitude := (decimal_of_printsNearest h hr.altitude).1
  propellant := (decimal_of_printsNearest h hr.propellant).1

/-- C63 (accuracy).  If a simulation of at least one phase finishes, all numbers it prints are
finite and its times are not negative, then the plotted data are, phase by phase and row by row,
within half a second, half a metre and half a metre per second of the simulated ones. -/
theorem C63_plot_accuracy {fmt : XR → List Char} (hf : PrintsNearest fmt)
    {cs : List (PhaseConfig XR)} {log : List (LogEntry XR)} {s : State XR}
    (h : Simulation.Terminates cs ⟨log, .ok s⟩) (hne : cs ≠ [])
    (hr : ∀ r, LogEntry.row r ∈ log → FiniteRow r) :
    ∃ (phases : List (Nat × List (Row XR))) (data : List (List Char × List Plot.Line)),
      phases.map (·.1) = List.range' 1 cs.length ∧ log = phaseLog phases ∧
      Plot.parse (Text.output fmt log) = some data ∧
      List.Forall₂ (fun b d => Plot.value d.1 = b.1 ∧ List.Forall₂ PlotNear b.2 d.2)
        phases data := by
  obtain ⟨phases, data, h1, h2, h3, h4, hne'⟩ := C63_plot_shows_simulation h hne
    fun r hr' => readable_of_finite hf (hr r hr')
  refine ⟨phases, data, h1, h2, h3, ?_⟩
  have hall : ∀ b ∈ phases, ∀ r ∈ b.2, FiniteRow r := by
    intro b hb r hr'
    refine hr r ?_
    rw [h2]
    exact List.mem_flatMap.2 ⟨b, hb, by simp [hr']⟩
  clear h1 h2 h3 h hr hne'
  unfold PlotOf at h4
  induction h4 with
  | nil => exact .nil
  | @cons b d phases data hbd _ ih =>
    refine .cons ⟨?_, ?_⟩ (ih fun b hb => hall b (by simp [hb]))
    · rw [hbd.1, value_natural (Plot.natural_toDigits _), Nat.ofDigitChars_ten_toDigits]
    · have hb := hall b (by simp)
      have hl := hbd.2
      clear hbd ih hall
      revert hb
      generalize b.2 = rows at hl
      generalize d.2 = lines at hl
      show _ → List.Forall₂ PlotNear rows lines
      induction hl with
      | nil => exact fun _ => .nil
      | @cons r l rows lines hrl _ ih =>
        intro hb
        have hr := hb r (by simp)
        refine .cons ?_ (ih fun r hr => hb r (by simp [hr]))
        have ht : ∃ x : ℝ, r.time = .fin x := by
          obtain ⟨x, hx, _⟩ := hr.time; exact ⟨x, hx⟩
        have key := fun {x : XR} (hx : ∃ r : ℝ, x = .fin r) => (decimal_of_printsNearest hf hx).2
        constructor
        · rw [hrl.time]; exact key ht
        · rw [hrl.position]; exact key hr.px
        · rw [hrl.position]; exact key hr.py
        · rw [hrl.position]; exact key hr.pz
        · rw [hrl.velocity]; exact key hr.vx
        · rw [hrl.velocity]; exact key hr.vy
        · rw [hrl.velocity]; exact key hr.vz

/-- Such a way of printing exists. -/
theorem printsNearest_exists : ∃ fmt, PrintsNearest fmt := by
  refine ⟨fun x => match x with
    | .fin x => (if x < 0 then ['-'] else []) ++ Nat.toDigits 10 (round |x|).toNat
    | _ => [], fun x => ⟨(round |x|).toNat, ?_, rfl⟩⟩
  have h0 : 0 ≤ round |x| := by
    rw [round_eq]; exact Int.floor_nonneg.2 (by positivity)
  have : (((round |x|).toNat : ℕ) : ℝ) = ((round |x| : ℤ) : ℝ) := by
    exact_mod_cast congrArg (Int.cast (R := ℝ)) (Int.toNat_of_nonneg h0)
  rw [this, abs_sub_comm]
  exact abs_sub_round _

/-! ## Examples -/

namespace Toy

/-- `{:.0}` for the numbers of the examples -/
def fmt (x : Fix) : List Char :=
  (if x.milli < 0 then ['-'] else []) ++ Nat.toDigits 10 ((x.milli.natAbs + 500) / 1000)

end Toy

/-- the data plotted for the output of a run -/
def Toy.plot (cs : List (PhaseConfig Fix)) : List (List Char × List Plot.Line) :=
  match Simulation.run 10 cs with
  | some o => (Plot.parse (Text.output Toy.fmt o.log)).getD []
  | none => []

/-- Two phases with five and two rows: what is plotted. -/
example : Toy.plot [Toy.config1, Toy.config2] =
    [(['1'], [⟨['1'], (100, 0, 0), (0, 0, 0)⟩, ⟨['2'], (100, 0, 0), (0, 0, 0)⟩,
      ⟨['3'], (100, 0, 0), (0, 0, 0)⟩, ⟨['3'], (100, 0, 0), (0, 0, 0)⟩,
      ⟨['4'], (99, 0, 0), (0, 0, 0)⟩]),
     (['2'], [⟨['5'], (99, 0, 0), (0, 0, 0)⟩, ⟨['6'], (98, 0, 0), (-1, 0, 0)⟩])] := by
  decide +kernel

/-- a printed row for the counterexamples, with the given texts for the time and for the first
coordinate of the position -/
def Toy.badRow (time px : List Char) : List Char :=
  Text.row id ⟨time, ⟨px, ['2', '0'], ['3', '0']⟩, ⟨['4'], ['5'], ['6']⟩, ['7'], ['8']⟩

/-- The condition on the times is needed: the minus sign of a time is not accepted (`Time:
(\d+)`), the row gets no time, and the lists no longer fit together. -/
theorem C63_negative_time_refused :
    Plot.table (Toy.badRow ['-', '1'] ['1', '0']) = none ∧
    (Plot.table (Toy.badRow ['1'] ['1', '0'])).isSome = true := by decide +kernel

/-- The condition that the numbers are finite is needed: if a coordinate is not a number, the
plotting tool silently takes the next numbers for it, here the first velocity component for the
third coordinate of the position. -/
theorem C63_nan_misread :
    (Plot.table (Toy.badRow ['1'] ['N', 'a', 'N'])).map (·.map (·.position)) =
      some [(20, 30, 4)] := by decide +kernel

end Post
