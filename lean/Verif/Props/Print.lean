import Verif.Spec.Print
import Verif.Props.Plot
import Verif.Props.Timetable
import Verif.Props.Shipped
import Verif.Props.DoubleAltitude
/-! # C90: the printed text and the plot in double precision -/

set_option exponentiation.threshold 2000

namespace Post
open Spec Flt F64
variable {L : Libm}

theorem nearestEven_near {a : ℚ} (h : 0 ≤ a) : |(nearestEven a : ℚ) - a| ≤ 1 / 2 := by
  unfold nearestEven
  have h0 : 0 ≤ a.floor := Rat.le_floor_iff.2 (by simpa using h)
  have e : ((a.floor.toNat : ℕ) : ℚ) = (a.floor : ℚ) := by
    exact_mod_cast congrArg (Int.cast (R := ℚ)) (Int.toNat_of_nonneg h0)
  have h1 : (a.floor : ℚ) ≤ a := Rat.floor_le a
  have h2 : a < a.floor + 1 := by have := Rat.lt_floor (x := a); linarith
  simp only [e]
  split_ifs with g1 g2 g3
  · rw [e, abs_le]; constructor <;> linarith
  · push_cast; rw [e, abs_le]; constructor <;> linarith
  · rw [e, abs_le]; constructor <;> linarith
  · push_cast; rw [e, abs_le]; constructor <;> linarith

/-- C90 (the format).  The model of `{:.0}` prints nearest integers. -/
theorem C90_format : PrintsDouble (F64.fmt0 : F64 L → List Char) where
  number x s a h := ⟨nearestEven a, nearestEven_near, by unfold F64.fmt0; rw [h]; rfl⟩
  nan x h := by unfold F64.fmt0; rw [h]; rfl
  inf x s h := by unfold F64.fmt0; rw [h]; rfl

/-- C90 (halves).  Of two nearest integers the even one is printed. -/
theorem C90_halves (n : ℕ) : nearestEven (n + 1 / 2) % 2 = 0 := by
  have e : ((n : ℚ) + 1 / 2).floor = n := by
    refine le_antisymm ?_ ?_
    · have h := Rat.floor_le ((n : ℚ) + 1 / 2)
      by_contra hc
      push Not at hc
      have : ((n : ℚ) + 1) ≤ ((n : ℚ) + 1 / 2).floor := by exact_mod_cast hc
      linarith
    · exact Rat.le_floor_iff.2 (by push_cast; linarith)
  unfold nearestEven
  simp only [e, Int.toNat_natCast, add_sub_cancel_left, lt_irrefl, if_false]
  split_ifs <;> omega

variable {fmt : F64 L → List Char}

/-- C90 (numbers).  A number is printed as an integer that differs from it by at most one half. -/
theorem C90_number (hf : PrintsDouble fmt) {x : F64 L} {ξ : ℝ} (hx : Reads x ξ) :
    ∃ n : ℤ, ShownAs (fmt x) n ∧ |(n : ℝ) - ξ| ≤ 1 / 2 := by
  obtain ⟨q, ⟨s, a, h1, rfl, h3⟩, rfl⟩ := hx
  obtain ⟨n, h4, h5⟩ := hf.number x s a h1
  have h6 : |(n : ℝ) - (a : ℝ)| ≤ 1 / 2 := by
    have h9 := (Rat.cast_le (K := ℝ)).2 (h4 h3)
    push_cast at h9
    exact h9
  cases s
  · exact ⟨n, ⟨n, .inl ⟨by simpa using h5, rfl⟩⟩, by simpa [Dbl.val] using h6⟩
  · refine ⟨-n, ⟨n, .inr ⟨by simpa using h5, rfl⟩⟩, ?_⟩
    rw [← abs_neg]
    simpa [Dbl.val, sub_eq_add_neg, add_comm] using h6

/-- C90 (whole numbers).  A positive whole number is printed exactly. -/
theorem C90_whole (hf : PrintsDouble fmt) {x : F64 L} {t : ℕ} (hx : x.Is t) (ht : 0 < t) : fmt x = Nat.toDigits 10 t := by
  obtain ⟨s, a, h1, h2, h3⟩ := hx
  have ht' : (0 : ℚ) < t := by exact_mod_cast ht
  have hs : s = false := by
    cases s
    · rfl
    · have : -a = (t : ℚ) := h2
      linarith
  subst hs
  have ha : a = t := h2
  obtain ⟨n, h4, h5⟩ := hf.number x false a h1
  have hn : n = t := by
    have h4 := h4 h3
    rw [ha, abs_le] at h4
    have k1 : (n : ℚ) < t + 1 := by linarith
    have k2 : (t : ℚ) < n + 1 := by linarith
    have k1' : n < t + 1 := by exact_mod_cast k1
    have k2' : t < n + 1 := by exact_mod_cast k2
    omega
  rw [h5, hn]
  rfl

theorem newline_digits (n : ℕ) : '\n' ∉ Nat.toDigits 10 n := by
  intro h
  have := (Plot.natural_toDigits n).2 _ h
  exact absurd this (by decide)

theorem newline_fmt (hf : PrintsDouble fmt) (x : F64 L) : '\n' ∉ fmt x := by
  rcases h : x.dbl with _ | s | ⟨s, a⟩
  · rw [hf.nan x h]; decide
  · rw [hf.inf x s h]; cases s <;> decide
  · obtain ⟨n, _, e⟩ := hf.number x s a h
    rw [e]
    have := newline_digits n
    cases s <;> simpa using this

/-- The text of a row. -/
theorem rowText (hf : PrintsDouble fmt) (r : Row (F64 L)) :
    RowText (Text.row fmt r) (fmt r.time) (fmt r.altitude) (fmt r.propellantMass) := by
  refine ⟨fmt r.positionPlanet.x, fmt r.positionPlanet.y, fmt r.positionPlanet.z, fmt r.velocity.x, fmt r.velocity.y,
    fmt r.velocity.z, ?_, newline_fmt hf _, newline_fmt hf _, ?_⟩
  · intro w hw
    simp only [List.mem_cons, List.not_mem_nil, or_false] at hw
    rcases hw with rfl | rfl | rfl | rfl | rfl | rfl <;> exact newline_fmt hf _
  · unfold Text.row Text.vec3
    simp only [List.append_assoc]
    rfl

theorem startText (fmt : F64 L → List Char) (i : ℕ) : StartText (Text.entry fmt (.startingPhase i)) i := by
  unfold StartText Text.entry
  simp only [List.append_assoc]
  rfl

theorem output_eq (log : List (LogEntry (F64 L))) : Text.output fmt log = (log.map (Text.entry fmt)).flatten := by
  unfold Text.output
  rw [List.flatMap_def]

theorem text_lines (hf : PrintsDouble fmt) {log : List (LogEntry (F64 L))} {lines : List Line}
    (h : List.Forall₂ ShowsLine log lines) (hpos : ∀ t, Line.second t ∈ lines → 0 < t) :
    List.Forall₂ ShowsText (log.map (Text.entry fmt)) lines := by
  induction h with
  | nil => exact .nil
  | @cons e l log lines h1 _ ih =>
    refine .cons ?_ (ih fun t ht => hpos t (by simp [ht]))
    cases e with
    | startingPhase i =>
      cases l with
      | starting j =>
        obtain rfl : i = j := h1
        exact startText fmt i
      | second t => exact h1.elim
    | row r =>
      cases l with
      | starting j => exact h1.elim
      | second t =>
        refine ⟨fmt r.altitude, fmt r.propellantMass, ?_⟩
        have := rowText hf r
        rwa [C90_whole hf h1 (hpos t (by simp))] at this

theorem timetable_pos {i start : ℕ} {ts : List ℕ} {t : ℕ} (h : Line.second t ∈ timetable i start ts) : 0 < t := by
  induction ts generalizing i start with
  | nil => simp [timetable] at h
  | cons u ts ih =>
    simp only [timetable, List.mem_cons, reduceCtorEq, List.mem_append, List.mem_map, List.mem_range', false_or] at h
    rcases h with ⟨k, ⟨j, _, rfl⟩, h⟩ | h
    · injection h with h
      omega
    · exact ih h

/-- C90 (timetable).  A mission whose phases end at whole seconds prints, as text, its timetable: `Starting Phase i` for
each phase, and a row that begins with `Time: ` and the second, in decimal digits, for each second; or it stops within
it because of the acceleration limit or because the start is missing. -/
theorem C90_timetable (hf : PrintsDouble fmt) {file : File (F64 L)} {cs : List (PhaseConfig (F64 L))} {ts : List ℕ}
    (hfile : Simulation.fromFile file = some cs) (h : Timed (.timeSinceEvent, 0) 0 cs ts) :
    ∃ fuel log ex, main fuel file = some (log, ex) ∧ ∃ texts, Text.output fmt log = texts.flatten ∧
      ((ex = .success ∧ List.Forall₂ ShowsText texts (timetable 0 0 ts)) ∨
        ((ex = .panic .missingInit ∨ ex = .panic .maxAcceleration) ∧
          ∃ lines, lines <+: timetable 0 0 ts ∧ List.Forall₂ ShowsText texts lines)) := by
  obtain ⟨fuel, log, ex, h1, h2⟩ := C77_program hfile h
  refine ⟨fuel, log, ex, h1, log.map (Text.entry fmt), output_eq log, ?_⟩
  rcases h2 with ⟨h3, h4⟩ | ⟨h3, lines, h4, h5⟩
  · exact .inl ⟨h3, text_lines hf h4 fun _ => timetable_pos⟩
  · exact .inr ⟨h3, lines, h4, text_lines hf h5 fun _ ht => timetable_pos (h4.subset ht)⟩

/-- C90 (the shipped example).  Whenever the program, given the shipped example, comes to an end, the text it has
printed begins with the timetable of the first six phases, or it has stopped within this timetable because of the
acceleration limit. -/
theorem C90_shipped (hf : PrintsDouble fmt) {fuel : Nat} {log : List (LogEntry (F64 L))} {ex : Exit}
    (h : main fuel (.json Shipped.document) = some (log, ex)) :
    (∃ texts rest, Text.output fmt log = texts.flatten ++ rest ∧
      List.Forall₂ ShowsText texts (timetable 0 0 [15, 25, 40, 60, 120, 150])) ∨
    (ex = .panic .maxAcceleration ∧ ∃ texts lines, Text.output fmt log = texts.flatten ∧
      lines <+: timetable 0 0 [15, 25, 40, 60, 120, 150] ∧ List.Forall₂ ShowsText texts lines) := by
  rcases C77_shipped_example h with ⟨log1, log2, rfl, h1⟩ | ⟨h1, lines, h2, h3⟩
  · refine .inl ⟨log1.map (Text.entry fmt), Text.output fmt log2, ?_, text_lines hf h1 fun _ => timetable_pos⟩
    unfold Text.output
    rw [List.flatMap_append, List.flatMap_def]
  · exact .inr ⟨h1, log.map (Text.entry fmt), lines, output_eq log, h2,
      text_lines hf h3 fun _ ht => timetable_pos (h2.subset ht)⟩

theorem text_flight (hf : PrintsDouble fmt) {full : Prop} {e : ℝ} {log : List (LogEntry (F64 L))} {lines : List FlightLine}
    (h : List.Forall₂ (ShowsFlight full e) log lines) (hpos : ∀ t w, FlightLine.second t w ∈ lines → 0 < t) :
    List.Forall₂ (ShowsFlightText full e) (log.map (Text.entry fmt)) lines := by
  induction h with
  | nil => exact .nil
  | @cons x l log lines h1 _ ih =>
    refine .cons ?_ (ih fun t w ht => hpos t w (by simp [ht]))
    cases x with
    | startingPhase i =>
      cases l with
      | starting j =>
        obtain rfl : i = j := h1
        exact startText fmt i
      | second t w => exact h1.elim
    | row r =>
      cases l with
      | starting j => exact h1.elim
      | second t w =>
        obtain ⟨h2, w', h3, h4, h5⟩ := h1
        obtain ⟨n, h6, h7⟩ := C90_number hf h3
        rw [abs_le] at h7
        refine ⟨fmt r.altitude, fmt r.propellantMass, n, ?_, h6, by linarith, fun g => by linarith [h5 g]⟩
        have := rowText hf r
        rwa [C90_whole hf h2 (hpos t w (by simp))] at this

theorem flightLog_pos {i t0 : ℕ} {v : Ship} {ls : List Leg} {t : ℕ} {w : ℝ}
    (h : FlightLine.second t w ∈ flightLog i t0 v ls) : 0 < t := by
  induction ls generalizing i t0 v with
  | nil => simp [flightLog] at h
  | cons l ls ih =>
    simp only [flightLog, List.mem_cons, reduceCtorEq, List.mem_append, List.mem_map, List.mem_range, false_or] at h
    rcases h with ⟨k, _, h⟩ | h
    · injection h with h
      omega
    · exact ih h

/-- C90 (propellant).  A file that describes a mission of several stages in vacuum, with enough propellant for each,
makes the program succeed, and the text printed is that of its flight log: one row for each second, with the exact
second, and the propellant mass printed is the one of the propellant budget to the nearest kilogram (exactly: within
0.5 kg + 2e-9 of the largest mass), or more if there is an acceleration limit. -/
theorem C90_flight (hf : PrintsDouble fmt) (hL : AngleLibrary L) {file : File (F64 L)} {cs : List (PhaseConfig (F64 L))}
    (hfile : Simulation.fromFile file = some cs) {legs : List Leg}
    (hd : List.Forall₂ Describes cs legs) (hinit : cs.head?.bind (·.init) ≠ none) {M : ℝ} (hM : M ≤ 9e8)
    (hfe : Feasible M .nothing legs) (hfew : legs.length ≤ 1000) (hshort : totalSeconds legs ≤ 10 ^ 6) :
    ∃ fuel log, main fuel file = some (log, .success) ∧ ∃ texts, Text.output fmt log = texts.flatten ∧
      List.Forall₂ (ShowsFlightText (WithoutLimit cs) (2e-9 * M)) texts (flightLog 0 0 .nothing legs) := by
  obtain ⟨fuel, log, h1, h2⟩ := C87_program hL hfile hd hinit hM hfe hfew hshort
  exact ⟨fuel, log, h1, _, output_eq log, text_flight hf h2 fun _ _ => flightLog_pos⟩

/-- C90 (altitude).  Each row printed by a run belongs to a state visited; if that is between 6300 and 100000 km from the
centre of the Earth, then the altitude printed in the row is an integer within 0.5000002 m of the exact altitude of
the position of the state. -/
theorem C90_altitude (hf : PrintsDouble fmt) (hL : TrigLibrary L) (hG : GoodLibrary L) {p : Phase (F64 L)} {Q : Planet XR}
    (hP : SameEarth p.planet Q) {a b : ℝ} (ha : Q.equatorialRadius = .fin a) (hb : Q.polarRadius = .fin b)
    (hp : DoubleComponents p.state.position) {fuel : ℕ} {rows : List (Row (F64 L))} {res : Except Panic (Phase (F64 L))}
    (hrun : p.run fuel = some ⟨rows, res⟩) {row : Row (F64 L)} (hrow : row ∈ rows) :
    ∃ s, Visited p s ∧ row = s.row ∧ ∀ (r : V3 ℝ) (h : ℝ), ReadsV s.position r → 6.3e6 ≤ rnorm r → rnorm r ≤ 1e8 →
      RadialAltitude a b r h → ∃ altitude, ∃ n : ℤ,
        RowText (Text.row fmt row) (fmt row.time) altitude (fmt row.propellantMass) ∧ ShownAs altitude n ∧
        |(n : ℝ) - h| ≤ 0.5000002 := by
  obtain ⟨s, h1, h2, h3⟩ := C89_rows hL hG hP ha hb hp hrun hrow
  refine ⟨s, h1, h2, fun r h hr k1 k2 hh => ?_⟩
  obtain ⟨h', k3, k4⟩ := h3 r h hr k1 k2 hh
  obtain ⟨n, k5, k6⟩ := C90_number hf k3
  refine ⟨_, n, rowText hf row, k5, ?_⟩
  have := abs_sub_le (n : ℝ) h' h
  norm_num at *
  linarith

/-! ## The plot -/

theorem decimal_of_double (hf : PrintsDouble fmt) {x : F64 L} (hx : FiniteDouble x) :
    Decimal (fmt x) ∧ NearestTo (Plot.value (fmt x)) x := by
  obtain ⟨q, hq⟩ := hx
  obtain ⟨n, ⟨m, h1⟩, h2⟩ := C90_number hf (x := x) ⟨q, hq, rfl⟩
  have hnat := Plot.natural_toDigits m
  rcases h1 with ⟨e, rfl⟩ | ⟨e, rfl⟩
  · rw [e]
    refine ⟨.inl hnat, q, ⟨q, hq, rfl⟩, ?_⟩
    rw [value_natural hnat, Nat.ofDigitChars_ten_toDigits]
    exact h2
  · rw [e]
    refine ⟨.inr ⟨_, hnat, rfl⟩, q, ⟨q, hq, rfl⟩, ?_⟩
    simp only [Plot.value, Nat.ofDigitChars_ten_toDigits]
    exact h2

/-- Matching the rows of a phase with the seconds of a timetable. -/
theorem split_rows {rows : List (Row (F64 L))} {log : List (LogEntry (F64 L))} {secs : List ℕ} {lines : List Line}
    (h : List.Forall₂ ShowsLine (rows.map .row ++ log) (secs.map .second ++ lines))
    (hlog : ∀ e, log.head? = some e → ∃ i, e = .startingPhase i)
    (hlines : ∀ e, lines.head? = some e → ∃ i, e = .starting i) :
    List.Forall₂ (fun r t => r.time.Is (t : ℕ)) rows secs ∧ List.Forall₂ ShowsLine log lines := by
  induction rows generalizing secs with
  | nil =>
    cases secs with
    | nil => exact ⟨.nil, h⟩
    | cons t secs =>
      exfalso
      cases log with
      | nil => cases h
      | cons e log =>
        obtain ⟨i, rfl⟩ := hlog e rfl
        simp only [List.map_nil, List.nil_append, List.map_cons, List.cons_append, List.forall₂_cons] at h
        exact h.1
  | cons r rows ih =>
    cases secs with
    | nil =>
      exfalso
      cases lines with
      | nil => cases h
      | cons e lines =>
        obtain ⟨i, rfl⟩ := hlines e rfl
        simp only [List.map_nil, List.nil_append, List.map_cons, List.cons_append, List.forall₂_cons] at h
        exact h.1
    | cons t secs =>
      simp only [List.map_cons, List.cons_append, List.forall₂_cons] at h
      obtain ⟨h1, h2⟩ := ih h.2
      exact ⟨.cons h.1 h1, h2⟩

theorem timetable_head {i start : ℕ} {ts : List ℕ} : ∀ e, (timetable i start ts).head? = some e → ∃ j, e = .starting j := by
  intro e he
  cases ts with
  | nil => simp [timetable] at he
  | cons t ts =>
    simp only [timetable, List.head?_cons, Option.some.injEq] at he
    exact ⟨_, he.symm⟩

theorem phaseLog_head {F : Type} {phases : List (ℕ × List (Row F))} :
    ∀ e, (phaseLog phases).head? = some e → ∃ j, e = .startingPhase j := by
  intro e he
  cases phases with
  | nil => simp [phaseLog] at he
  | cons b phases =>
    simp only [phaseLog, List.flatMap_cons, List.cons_append, List.head?_cons, Option.some.injEq] at he
    exact ⟨_, he.symm⟩

theorem plot_times (hf : PrintsDouble fmt) {phases : List (ℕ × List (Row (F64 L)))}
    {data : List (List Char × List Plot.Line)} (hp : PlotOf fmt phases data) {i start : ℕ} {ts : List ℕ}
    (h : List.Forall₂ ShowsLine (phaseLog phases) (timetable i start ts)) :
    (Plot.frame data).map (fun d => (d.1, d.2.time)) =
      (stamps i start ts).map fun d => (Nat.toDigits 10 d.1, Nat.toDigits 10 d.2) := by
  unfold PlotOf at hp
  induction hp generalizing i start ts with
  | nil =>
    cases ts with
    | nil => rfl
    | cons t ts => simp [phaseLog, timetable] at h
  | @cons b d phases data hbd _ ih =>
    cases ts with
    | nil => simp [phaseLog, timetable] at h
    | cons t ts =>
      have h' : List.Forall₂ ShowsLine (.startingPhase b.1 :: (b.2.map .row ++ phaseLog phases))
        (.starting (i + 1) :: ((List.range' (start + 1) (t - start)).map .second ++ timetable (i + 1) t ts)) := h
      rw [List.forall₂_cons] at h'
      obtain ⟨h1, h2⟩ := h'
      have hb : b.1 = i + 1 := h1
      obtain ⟨h3, h4⟩ := split_rows h2 phaseLog_head timetable_head
      have := ih h4
      unfold Plot.frame at this ⊢
      simp only [stamps, List.flatMap_cons, List.map_append, this, List.map_map]
      congr 1
      obtain ⟨hd1, hd2⟩ := hbd
      rw [hd1, hb]
      have hpos : ∀ k ∈ List.range' (start + 1) (t - start), 0 < k := by
        intro k hk
        rw [List.mem_range'] at hk
        obtain ⟨j, _, rfl⟩ := hk
        omega
      clear this h h1 h2 h4 ih hd1 hb
      revert hpos
      generalize b.2 = rows at h3 hd2
      generalize d.2 = lines at hd2
      generalize List.range' (start + 1) (t - start) = secs at h3
      induction h3 generalizing lines with
      | nil => intro _; cases hd2; rfl
      | @cons r k rows secs hrk _ ih =>
        intro hpos
        cases hd2 with
        | cons hl hls =>
          simp only [List.map_cons, Function.comp_def]
          rw [List.cons.injEq]
          refine ⟨?_, ih _ hls fun k hk => hpos k (by simp [hk])⟩
          rw [hl.time, C90_whole hf hrk (hpos k (by simp))]

/-- C90 (plot).  If a mission of at least one phase, whose phases end at whole seconds, finishes and all its numbers
are numbers, then the plotting tool accepts the printed text; the phases and times it reads are exactly those of the
timetable, one for each second, and positions and velocities are the nearest integers to those of the simulation. -/
theorem C90_plot (hf : PrintsDouble fmt) {cs : List (PhaseConfig (F64 L))} {ts : List ℕ}
    (hT : Timed (.timeSinceEvent, 0) 0 cs ts) (hne : cs ≠ []) {log : List (LogEntry (F64 L))} {s : State (F64 L)}
    (h : Simulation.Terminates cs ⟨log, .ok s⟩) (hr : ∀ r, LogEntry.row r ∈ log → FiniteRowDouble r) :
    ∃ (phases : List (ℕ × List (Row (F64 L)))) (data : List (List Char × List Plot.Line)),
      log = phaseLog phases ∧ Plot.parse (Text.output fmt log) = some data ∧
      (Plot.frame data).map (fun d => (d.1, d.2.time)) =
        (stamps 0 0 ts).map (fun d => (Nat.toDigits 10 d.1, Nat.toDigits 10 d.2)) ∧
      List.Forall₂ (fun b d => Plot.value d.1 = b.1 ∧ List.Forall₂ PlotNearest b.2 d.2) phases data := by
  obtain ⟨o, ho, hcase⟩ := C77_timetable hT
  obtain rfl := C53_deterministic ho h
  have hlines : List.Forall₂ ShowsLine log (timetable 0 0 ts) := by
    rcases hcase with ⟨_, _, h1, _⟩ | ⟨e, h1, _⟩
    · exact h1
    · cases h1
  have htime : ∀ r, LogEntry.row r ∈ log → ∃ t : ℕ, r.time.Is t ∧ 0 < t := by
    intro r hr'
    have : ∀ {log : List (LogEntry (F64 L))} {lines : List Line}, List.Forall₂ ShowsLine log lines →
        LogEntry.row r ∈ log → ∃ t, Line.second t ∈ lines ∧ r.time.Is (t : ℕ) := by
      intro log lines hl
      induction hl with
      | nil => intro h; simp at h
      | @cons e l log lines h1 _ ih =>
        intro h
        rcases List.mem_cons.1 h with rfl | h
        · cases l with
          | starting j => exact h1.elim
          | second t => exact ⟨t, by simp, h1⟩
        · obtain ⟨t, k1, k2⟩ := ih h
          exact ⟨t, by simp [k1], k2⟩
    obtain ⟨t, k1, k2⟩ := this hlines hr'
    exact ⟨t, k2, timetable_pos k1⟩
  obtain ⟨phases, data, g1, h2, h3, h4, g2⟩ := C63_plot_shows_simulation (fmt := fmt) h hne fun r hr' => by
    have g := hr r hr'
    obtain ⟨t, k1, k2⟩ := htime r hr'
    exact
      { time := by rw [C90_whole hf k1 k2]; exact Plot.natural_toDigits t
        px := (decimal_of_double hf g.px).1
        py := (decimal_of_double hf g.py).1
        pz := (decimal_of_double hf g.pz).1
        vx := (decimal_of_double hf g.vx).1
        vy := (decimal_of_double hf g.vy).1
        vz := (decimal_of_double hf g.vz).1
        altitude := (decimal_of_double hf g.altitude).1
        propellant := (decimal_of_double hf g.propellant).1 }
  refine ⟨phases, data, h2, h3, plot_times hf h4 (by rw [← h2]; exact hlines), ?_⟩
  have hall : ∀ b ∈ phases, ∀ r ∈ b.2, FiniteRowDouble r := by
    intro b hb r hr'
    refine hr r ?_
    rw [h2]
    exact List.mem_flatMap.2 ⟨b, hb, by simp [hr']⟩
  clear h2 h3 h hr htime hlines ho hcase g1 g2
  unfold PlotOf at h4
  induction h4 with
  | nil => exact .nil
  | @cons b d phases data hbd _ ih =>
    refine .cons ⟨?_, ?_⟩ (ih fun b hb => hall b (by simp [hb]))
    · rw [hbd.1, value_natural (Plot.natural_toDigits _), Nat.ofDigitChars_ten_toDigits]
    · have hb := hall b (by simp)
      have hl := hbd.2
      clear hbd ih hall
      revert hb
      generalize b.2 = rows at hl
      generalize d.2 = lines at hl
      show _ → List.Forall₂ PlotNearest rows lines
      induction hl with
      | nil => exact fun _ => .nil
      | @cons r l rows lines hrl _ ih =>
        intro hb
        have hr := hb r (by simp)
        refine .cons ?_ (ih fun r hr => hb r (by simp [hr]))
        constructor
        · rw [hrl.position]; exact (decimal_of_double hf hr.px).2
        · rw [hrl.position]; exact (decimal_of_double hf hr.py).2
        · rw [hrl.position]; exact (decimal_of_double hf hr.pz).2
        · rw [hrl.velocity]; exact (decimal_of_double hf hr.vx).2
        · rw [hrl.velocity]; exact (decimal_of_double hf hr.vy).2
        · rw [hrl.velocity]; exact (decimal_of_double hf hr.vz).2

/-- Numbers as they are printed: halves to even, -0.3 as `-0`. -/
example : (F64.fmt0 (2.5 : F64 L)) = ['2'] ∧ (F64.fmt0 (3.5 : F64 L)) = ['4'] ∧
    F64.fmt0 (-0.3 : F64 L) = ['-', '0'] ∧ F64.fmt0 (6371000.7 : F64 L) = "6371001".toList := by
  refine ⟨?_, ?_, ?_, ?_⟩
  · show Dbl.fmt0 (.round false (25 / 10 ^ 1)) = _
    decide +kernel
  · show Dbl.fmt0 (.round false (35 / 10 ^ 1)) = _
    decide +kernel
  · show Dbl.fmt0 (.neg (.round false (3 / 10 ^ 1))) = _
    decide +kernel
  · show Dbl.fmt0 (.round false (63710007 / 10 ^ 1)) = _
    decide +kernel

/-! ## A mission whose plot is right -/

/-- A crude library that can be evaluated. -/
def plainLibm : Libm where
  sin _ := .fin false 0
  cos _ := .fin false 1
  tan _ := .fin false 0
  asin _ := .fin false 0
  acos _ := .fin false 0
  atan _ := .fin false 0
  exp _ := .fin false 1
  powi d n := match d with
    | .fin s a => .round false (Dbl.val s a ^ n)
    | _ => .nan
  powf d _ := d
  rotFromMatrix m := m

/-- The double is a number. -/
def isNumber (x : F64 L) : Bool := match x.dbl with
  | .fin _ a => decide (0 ≤ a)
  | _ => false

theorem isNumber_finite {x : F64 L} (h : isNumber x = true) : FiniteDouble x := by
  unfold isNumber at h
  rcases e : x.dbl with _ | s | ⟨s, a⟩
  · rw [e] at h; cases h
  · rw [e] at h; cases h
  · rw [e] at h
    exact ⟨_, s, a, e, rfl, by simpa using h⟩

/-- All numbers of the row are numbers. -/
def numberRow (r : Row (F64 L)) : Bool :=
  isNumber r.positionPlanet.x && isNumber r.positionPlanet.y && isNumber r.positionPlanet.z &&
  isNumber r.velocity.x && isNumber r.velocity.y && isNumber r.velocity.z && isNumber r.altitude &&
  isNumber r.propellantMass

theorem numberRow_finite {r : Row (F64 L)} (h : numberRow r = true) : FiniteRowDouble r := by
  unfold numberRow at h
  simp only [Bool.and_eq_true] at h
  obtain ⟨⟨⟨⟨⟨⟨⟨h1, h2⟩, h3⟩, h4⟩, h5⟩, h6⟩, h7⟩, h8⟩ := h
  exact ⟨isNumber_finite h1, isNumber_finite h2, isNumber_finite h3, isNumber_finite h4, isNumber_finite h5,
    isNumber_finite h6, isNumber_finite h7, isNumber_finite h8⟩

/-- The result is that of a mission that has finished and printed numbers only. -/
def goodOut (o : Option (SimOut (F64 L))) : Bool := match o with
  | some ⟨log, .ok _⟩ => log.all fun e => match e with
    | .row r => numberRow r
    | .startingPhase _ => true
  | _ => false

theorem plain_good : goodOut (Simulation.run 10 (exampleTimetable (L := plainLibm))) = true := by decide +kernel

/-- The plotting tool reads five rows of two phases, at the seconds 1, 2 and 3, 4, 5. -/
example : ∃ (log : List (LogEntry (F64 plainLibm))) (s : State (F64 plainLibm)) (data : List (List Char × List Plot.Line)),
    Simulation.Terminates exampleTimetable ⟨log, .ok s⟩ ∧ Plot.parse (Text.output F64.fmt0 log) = some data ∧
    (Plot.frame data).map (fun d => (d.1, d.2.time)) =
      [(['1'], ['1']), (['1'], ['2']), (['2'], ['3']), (['2'], ['4']), (['2'], ['5'])] := by
  have ht : Timed (.timeSinceEvent, (0 : F64 plainLibm)) 0 exampleTimetable [2, 5] :=
    ⟨⟨by norm_num, by norm_num, .inl ⟨rfl, is_nat 2 (by norm_num)⟩⟩,
      ⟨by norm_num, by norm_num, .inr ⟨rfl, is_nat 3 (by norm_num)⟩⟩, rfl⟩
  have hg := plain_good
  unfold goodOut at hg
  split at hg
  · next log s hrun =>
    refine ⟨log, s, ?_⟩
    have hterm : Simulation.Terminates (exampleTimetable (L := plainLibm)) ⟨log, .ok s⟩ := ⟨10, hrun⟩
    obtain ⟨_, data, _, h2, h3, _⟩ := C90_plot C90_format ht (by simp [exampleTimetable]) hterm fun r hr =>
      numberRow_finite (List.all_eq_true.1 hg _ hr)
    exact ⟨data, hterm, h2, h3⟩
  · cases hg

end Post
