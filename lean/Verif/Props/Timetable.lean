import Verif.Spec.Timetable
import Verif.Props.Double
/-! # C77: timetables in double precision -/

namespace Post
open Spec Flt F64

section
variable {L : Libm}

/-- If the end variable of a phase counts whole seconds along a path, then so does the clock. -/
theorem path_clocks {r q : Phase (F64 L)} {ps : List (Phase (F64 L))} (h : Path r ps q)
    {v : StateVariable} (hv : IsTime v) :
    ∀ {a t : ℕ}, r.stepsize = 1 → (v.getValue r.state).Is a → r.state.time.Is t →
      t + ps.length < 2 ^ 53 →
      (∀ (i : ℕ) r', ps[i]? = some r' → (v.getValue r'.state).Is ((a + i + 1 : ℕ) : ℚ)) →
      (∀ (i : ℕ) r', ps[i]? = some r' → r'.state.time.Is ((t + i + 1 : ℕ) : ℚ)) ∧
        q.state.time.Is ((t + ps.length : ℕ) : ℚ) := by
  induction h with
  | nil r =>
    intro a t _ _ ht _ _
    exact ⟨by simp, by simpa using ht⟩
  | @cons r r1 q ps he hs hp ih =>
    intro a t hst hval ht hlt hall
    have hone : (1 : F64 L).Is ((1 : ℕ) : ℚ) := by simpa using is_one (L := L)
    simp only [List.length_cons] at hlt
    have h1 : (v.getValue r1.state).Is ((a + 1 : ℕ) : ℚ) := hall 0 r1 rfl
    have hclock : r1.stepsize = 1 ∧ r1.state.time.Is ((t + 1 : ℕ) : ℚ) := by
      obtain ⟨_, s, hs', hcase⟩ := Phase.step_ok hs
      have htime : s.time.Is ((t + 1 : ℕ) : ℚ) := by
        have := isTime_step (v := .time) (.inl rfl) hs'
        rw [show s.time = r.state.time + r.stepsize from this, hst]
        exact is_add_nat ht hone (by omega)
      rcases hcase with ⟨_, rfl⟩ | ⟨_, _, _, rfl⟩ | ⟨_, _, rfl⟩
      · exact ⟨hst, htime⟩
      · have := Is.unique h1 hval
        have : a + 1 = a := by exact_mod_cast this
        omega
      · exact ⟨hst, htime⟩
    obtain ⟨k1, k2⟩ := ih (a := a + 1) (t := t + 1) hclock.1 h1 hclock.2 (by omega) (by
      intro i r' hi
      have := hall (i + 1) r' (by simpa using hi)
      rwa [show a + (i + 1) + 1 = a + 1 + i + 1 by omega] at this)
    refine ⟨?_, ?_⟩
    · intro i r' hi
      rcases i with _ | i
      · simp only [List.getElem?_cons_zero, Option.some.injEq] at hi
        subst hi
        exact hclock.2
      · have := k1 i r' (by simpa using hi)
        rwa [show t + 1 + i + 1 = t + (i + 1) + 1 by omega] at this
    · simp only [List.length_cons]
      rwa [show t + 1 + ps.length = t + (ps.length + 1) by omega] at k2

/-- A phase that starts at second `t` and lasts `n` seconds. -/
theorem whole_phase {p : Phase (F64 L)} {v : StateVariable} (hv : IsTime v) {T : F64 L}
    {m n t : ℕ} (hn : 0 < n) (hmax : m + n < 2 ^ 53) (hmax' : t + n < 2 ^ 53)
    (hT : T.Is ((m + n : ℕ) : ℚ)) (hc : p.endCriterion = (v, T))
    (hval : (v.getValue p.state).Is m) (htime : p.state.time.Is t)
    (he : p.ended = false) (ht : p.endCriterionTries = 0) (hst : p.stepsize = 1) :
    ∃ fuel rows res, p.run fuel = some ⟨rows, res⟩ ∧ rows.length ≤ n ∧
      (∀ (i : ℕ) row, rows[i]? = some row → row.time.Is ((t + i + 1 : ℕ) : ℚ)) ∧
      ((∃ q, res = .ok q ∧ rows.length = n ∧ q.state.time.Is ((t + n : ℕ) : ℚ) ∧
          q.baseStepsize = p.baseStepsize ∧ q.endCriterion = p.endCriterion) ∨
        ∃ e s, res = .error e ∧ p.system s = .error e) := by
  obtain ⟨n, rfl⟩ : ∃ k, n = k + 1 := ⟨n - 1, by omega⟩
  cases h0 : p.system p.state with
  | error e =>
    exact ⟨0, [], .error e, by simp [Phase.run, h0], by simp, by simp, .inr ⟨e, _, rfl, h0⟩⟩
  | ok s0 =>
    have hprim := Phase.system_primary h0
    have hv0 : (v.getValue s0).Is m := by
      have : v.getValue s0 = v.getValue p.state := by
        rcases hv with rfl | rfl
        · exact hprim.1
        · exact hprim.2.1
      rw [this]; exact hval
    have ht0 : s0.time.Is t := by rw [hprim.1]; exact htime
    have hsp : Phase.SameParams p { p with state := s0 } := ⟨rfl, rfl, rfl, rfl, rfl, rfl, rfl, rfl, rfl⟩
    obtain ⟨ps, q, res, h1, hlen, h2, h3⟩ := whole_loop (p := p) (m := m) hv hc n
      (r := { p with state := s0 }) (a := m) (by rw [add_assoc]; exact hT) (by omega) hsp he ht hst
      hv0 (le_refl _)
    obtain ⟨k1, k2⟩ := path_clocks h1 hv (a := m) (t := t) hst hv0 ht0 (by omega) h2
    have hpar := (Phase.path_sameParams h1).1
    have hrun : ∃ fuel, p.run fuel = some ⟨ps.map (·.state.row), res⟩ := by
      rcases h3 with ⟨hq, rfl, _⟩ | ⟨hq, e, b, η, hqs, rfl, _⟩
      · exact ⟨ps.length, by simp only [Phase.run, h0]; exact Phase.loop_of_path h1 hq (le_refl _)⟩
      · exact ⟨ps.length + 1, by
          simp only [Phase.run, h0]; exact Phase.loop_of_path_error h1 hq hqs (by omega)⟩
    obtain ⟨fuel, hrun⟩ := hrun
    refine ⟨fuel, _, res, hrun, by simpa using hlen, ?_, ?_⟩
    · intro i row hi
      rw [List.getElem?_map, Option.map_eq_some_iff] at hi
      obtain ⟨r', hr', rfl⟩ := hi
      exact k1 i r' hr'
    · rcases h3 with ⟨_, hq, hl, _⟩ | ⟨_, e, b, η, _, rfl, _, _, _, k4⟩
      · refine .inl ⟨q, hq, by simp [hl], by rw [hl] at k2; exact k2, ?_, ?_⟩
        · exact hpar.baseStepsize
        · exact hpar.endCriterion
      · obtain ⟨s, hs⟩ := Integrator.step_error k4
        exact .inr ⟨e, s, rfl, hs⟩

/-- Rows at successive seconds match the timetable. -/
theorem shows_rows : ∀ {rows : List (Row (F64 L))} {t : ℕ},
    (∀ (i : ℕ) row, rows[i]? = some row → row.time.Is ((t + i + 1 : ℕ) : ℚ)) →
    List.Forall₂ ShowsLine (rows.map .row) ((List.range' (t + 1) rows.length).map .second)
  | [], _, _ => .nil
  | row :: rows, t, h => by
    rw [List.map_cons, List.length_cons, List.range'_succ, List.map_cons]
    refine .cons (h 0 row rfl) (shows_rows (t := t + 1) fun i r hi => ?_)
    have := h (i + 1) r (by simpa using hi)
    rwa [show t + (i + 1) + 1 = t + 1 + i + 1 by omega] at this

/-- What the phase before hands over. -/
def HandsOver (prev : Option (Phase (F64 L))) (crit : StateVariable × F64 L) (start : ℕ) : Prop :=
  match prev with
  | none => crit = (.timeSinceEvent, 0) ∧ start = 0
  | some q => q.endCriterion = crit ∧ q.state.time.Is start ∧ q.baseStepsize = 1

theorem new_handsOver {prev : Option (Phase (F64 L))} {crit : StateVariable × F64 L} {start : ℕ}
    (h : HandsOver prev crit start) {c : PhaseConfig (F64 L)} {p : Phase (F64 L)}
    (hp : Phase.new prev c = .ok p) :
    p.reset.endCriterion = c.endCriterion.getD crit ∧ p.reset.state.time.Is start ∧
      p.reset.stepsize = 1 ∧ p.reset.baseStepsize = 1 := by
  have hcrit : ∀ q : Phase (F64 L), (q.applyConfig c).endCriterion =
      c.endCriterion.getD q.endCriterion := by
    intro q
    unfold Phase.applyConfig Phase.applyEndCriterion
    cases c.endCriterion with
    | none => simp
    | some e => rfl
  cases prev with
  | none =>
    obtain ⟨rfl, rfl⟩ := h
    simp only [Phase.new] at hp
    cases hi : c.init with
    | none => simp [hi] at hp
    | some i =>
      simp only [hi] at hp
      injection hp with hp
      subst hp
      refine ⟨?_, ?_, ?_, ?_⟩
      · exact hcrit _
      · show Is ((Phase.default.applyConfig c).state.time) _
        rw [Phase.applyConfig_state_time]
        show Is (0 : F64 L) _
        simpa using is_zero (L := L)
      · exact Phase.applyConfig_baseStepsize _ c
      · exact Phase.applyConfig_baseStepsize _ c
  | some q =>
    obtain ⟨h1, h2, h3⟩ := h
    simp only [Phase.new] at hp
    injection hp with hp
    subst hp
    refine ⟨?_, ?_, ?_, ?_⟩
    · rw [← h1]; exact hcrit _
    · show Is ((q.applyConfig c).state.time) _
      rw [Phase.applyConfig_state_time]; exact h2
    · show (q.applyConfig c).baseStepsize = 1
      rw [Phase.applyConfig_baseStepsize]; exact h3
    · show (q.applyConfig c).baseStepsize = 1
      rw [Phase.applyConfig_baseStepsize]; exact h3

/-- One phase of a timetable. -/
theorem timed_phase {prev : Option (Phase (F64 L))} {crit : StateVariable × F64 L} {start t : ℕ}
    (h : HandsOver prev crit start) {c : PhaseConfig (F64 L)}
    (hc : EndsAt (c.endCriterion.getD crit) start t) :
    (∃ rows q, Completes prev c rows q ∧ HandsOver (some q) (c.endCriterion.getD crit) t ∧
      List.Forall₂ ShowsLine (rows.map .row) ((List.range' (start + 1) (t - start)).map .second)) ∨
    (∃ rows e, Aborts prev c rows e ∧ rows.length ≤ t - start ∧
      List.Forall₂ ShowsLine (rows.map .row) ((List.range' (start + 1) rows.length).map .second) ∧
      ∀ p, Phase.new prev c = .ok p → ∃ s, p.reset.system s = .error e) := by
  cases hnew : Phase.new prev c with
  | error e =>
    exact .inr ⟨[], e, .inl ⟨hnew, rfl⟩, by simp, .nil, fun p hp => by cases hp⟩
  | ok p =>
    obtain ⟨k1, k2, k3, k4⟩ := new_handsOver h hnew
    obtain ⟨hlt, hmax, hcase⟩ := hc
    have hcr : p.reset.endCriterion = ((c.endCriterion.getD crit).1, (c.endCriterion.getD crit).2) :=
      k1
    have key : ∃ (m : ℕ), IsTime (c.endCriterion.getD crit).1 ∧ m + (t - start) < 2 ^ 53 ∧
        (c.endCriterion.getD crit).2.Is ((m + (t - start) : ℕ) : ℚ) ∧
        ((c.endCriterion.getD crit).1.getValue p.reset.state).Is m := by
      rcases hcase with ⟨h1, h2⟩ | ⟨h1, h2⟩
      · refine ⟨start, .inl h1, by omega, ?_, ?_⟩
        · rw [show start + (t - start) = t by omega]; exact h2
        · rw [h1]; exact k2
      · refine ⟨0, .inr h1, by omega, by simpa using h2, ?_⟩
        rw [h1]
        show Is (0 : F64 L) _
        simpa using is_zero (L := L)
    obtain ⟨m, hv, hm, hT, hval⟩ := key
    obtain ⟨fuel, rows, res, j1, j2, j3, j4⟩ := whole_phase hv (by omega) hm (by omega) hT hcr hval
      k2 rfl rfl k3
    have hshow := shows_rows j3
    rcases j4 with ⟨q, rfl, hl, h5, h6, h7⟩ | ⟨e, s, rfl, hs⟩
    · left
      refine ⟨rows, q, ⟨p, hnew, fuel, j1⟩, ⟨by rw [h7, k1], ?_, by rw [h6, k4]⟩, ?_⟩
      · rwa [show start + (t - start) = t by omega] at h5
      · rw [hl] at hshow; exact hshow
    · right
      refine ⟨rows, e, .inr ⟨p, hnew, fuel, j1⟩, j2, hshow, ?_⟩
      intro p' hp'
      injection hp' with hp'
      subst hp'
      exact ⟨s, hs⟩

theorem timed_sequence : ∀ {cs : List (PhaseConfig (F64 L))} {ts : List ℕ}
    {prev : Option (Phase (F64 L))} {crit : StateVariable × F64 L} {start i : ℕ},
    HandsOver prev crit start → Timed crit start cs ts →
    (∃ log last, Sequence i prev cs log last ∧ List.Forall₂ ShowsLine log (timetable i start ts) ∧
      (cs ≠ [] → ∃ q, last = some q ∧ q.state.time.Is (ts.getLastD start))) ∨
    (∃ done c rest log last rows e, cs = done ++ c :: rest ∧ Sequence i prev done log last ∧
      Aborts last c rows e ∧
      (∃ lines, lines <+: timetable i start ts ∧
        List.Forall₂ ShowsLine (log ++ .startingPhase (i + done.length + 1) :: rows.map .row) lines) ∧
      ∀ p, Phase.new last c = .ok p → ∃ s, p.reset.system s = .error e)
  | [], ts, prev, crit, start, i, hand, h => by
    subst h
    exact .inl ⟨[], prev, .nil _ _, .nil, fun h => absurd rfl h⟩
  | c :: cs, [], prev, crit, start, i, hand, h => h.elim
  | c :: cs, t :: ts, prev, crit, start, i, hand, h => by
    obtain ⟨h1, h2⟩ := h
    rcases timed_phase hand h1 with ⟨rows, q, k1, k2, k3⟩ | ⟨rows, e, k1, k2, k3, k4⟩
    · rcases timed_sequence (i := i + 1) k2 h2 with
        ⟨log, last, j1, j2, j3⟩ | ⟨done, c', rest, log, last, rows', e, j0, j1, j2, ⟨lines, j3, j4⟩, j5⟩
      · refine .inl ⟨_, last, .cons k1 j1, ?_, fun _ => ?_⟩
        · rw [timetable, List.cons_append]
          exact .cons rfl (List.rel_append k3 j2)
        · rw [List.getLastD_cons]
          by_cases hcs : cs = []
          · subst hcs
            cases j1
            obtain rfl : ts = [] := h2
            exact ⟨q, rfl, k2.2.1⟩
          · exact j3 hcs
      · refine .inr ⟨c :: done, c', rest, _, last, rows', e, by rw [j0]; rfl, .cons k1 j1, j2,
          ⟨.starting (i + 1) :: ((List.range' (start + 1) (t - start)).map .second ++ lines), ?_, ?_⟩, j5⟩
        · rw [timetable, List.cons_prefix_cons]
          exact ⟨rfl, (List.prefix_append_right_inj _).2 j3⟩
        · rw [List.cons_append, List.cons_append, List.append_assoc]
          refine .cons rfl (List.rel_append k3 ?_)
          rwa [List.length_cons, show i + (done.length + 1) + 1 = i + 1 + done.length + 1 by omega]
    · refine .inr ⟨[], c, cs, [], prev, rows, e, rfl, .nil _ _, k1,
        ⟨.starting (i + 1) :: (List.range' (start + 1) rows.length).map .second, ?_, .cons rfl k3⟩, k4⟩
      rw [timetable, List.cons_prefix_cons]
      refine ⟨rfl, List.IsPrefix.trans (List.IsPrefix.map _ ?_) (List.prefix_append _ _)⟩
      refine ⟨List.range' (start + 1 + rows.length) (t - start - rows.length), ?_⟩
      rw [List.range'_append_1]
      congr 1
      omega

theorem aborts_new_error {cs : List (PhaseConfig (F64 L))} {c : PhaseConfig (F64 L)} {e : Panic}
    {log : List (LogEntry (F64 L))} {last : Option (Phase (F64 L))}
    (hs : Sequence 0 none cs log last) (hnew : Phase.new last c = .error e) :
    e = .missingInit ∧ c.init = none ∧ cs = [] ∧ log = [] := by
  cases last with
  | some q => simp [Phase.new] at hnew
  | none =>
    have hdone : cs = [] := by
      cases hs with
      | nil => rfl
      | cons hc hs =>
        exfalso
        have := Simulation.sequence_last hs
        simp at this
    subst hdone
    cases hs
    unfold Phase.new at hnew
    cases hi : c.init with
    | some i => simp [hi] at hnew
    | none =>
      simp only [hi] at hnew
      injection hnew with hnew
      exact ⟨hnew.symm, rfl, rfl, rfl⟩

theorem timed_reason {cs done rest : List (PhaseConfig (F64 L))} {c : PhaseConfig (F64 L)}
    {log : List (LogEntry (F64 L))} {last : Option (Phase (F64 L))} {rows : List (Row (F64 L))}
    {e : Panic} (j0 : cs = done ++ c :: rest) (j1 : Sequence 0 none done log last)
    (j2 : Aborts last c rows e)
    (j5 : ∀ p, Phase.new last c = .ok p → ∃ s, p.reset.system s = .error e)
    (ht : ∀ c ∈ cs, ∀ t ∈ tablesOf c, WellFormed t) :
    (e = .missingInit ∧ cs.head?.bind (·.init) = none) ∨ e = .maxAcceleration := by
  rcases j2 with ⟨hnew, hrows⟩ | ⟨p, hnew, fuel, hr⟩
  · obtain ⟨h1, h0, h2, h3⟩ := aborts_new_error j1 hnew
    subst h2 j0
    exact .inl ⟨h1, by simpa using h0⟩
  · right
    obtain ⟨s, hs⟩ := j5 p hnew
    refine Phase.system_error_tablesOk (p := p.reset) ?_ hs
    refine ready_tablesOk ⟨_, _, _, j1, hnew, rfl⟩ fun c' hc' t ht' => ht c' ?_ t ht'
    subst j0
    simp at hc' ⊢
    tauto

/-- C77.  In double precision, with any C library: a mission whose phases end at whole seconds
always terminates.  If it ends normally, its output is exactly the timetable: an announcement for
each phase followed by one row for each second, at the exact second; and the final time is the
last second of the timetable.  If it aborts, then what was printed is an initial part of the
timetable, and, provided the tables are well formed, the reason is that the first phase has no
`init` section or that the acceleration limit could not be kept. -/
theorem C77_timetable {cs : List (PhaseConfig (F64 L))} {ts : List ℕ}
    (h : Timed (.timeSinceEvent, 0) 0 cs ts) :
    ∃ o, Simulation.Terminates cs o ∧
      ((∃ s, o.result = .ok s ∧ List.Forall₂ ShowsLine o.log (timetable 0 0 ts) ∧
          s.time.Is (ts.getLastD 0)) ∨
        ∃ e, o.result = .error e ∧
          (∃ lines, lines <+: timetable 0 0 ts ∧ List.Forall₂ ShowsLine o.log lines) ∧
          ((∀ c ∈ cs, ∀ t ∈ tablesOf c, WellFormed t) →
            (e = .missingInit ∧ cs.head?.bind (·.init) = none) ∨ e = .maxAcceleration)) := by
  rcases timed_sequence (i := 0) (prev := none) ⟨rfl, rfl⟩ h with
    ⟨log, last, j1, j2, j3⟩ | ⟨done, c, rest, log, last, rows, e, j0, j1, j2, j3, j5⟩
  · refine ⟨⟨log, .ok (finalState last)⟩, C53_terminates_ok_iff.2 ⟨last, j1, rfl⟩,
      .inl ⟨_, rfl, j2, ?_⟩⟩
    by_cases hcs : cs = []
    · subst hcs
      cases j1
      obtain rfl : ts = [] := h
      show Is (0 : F64 L) _
      simpa using is_zero (L := L)
    · obtain ⟨q, rfl, hq⟩ := j3 hcs
      exact hq
  · refine ⟨⟨_, .error e⟩, C53_terminates_error_iff.2 ⟨done, c, rest, log, last, rows, j0, j1, j2, rfl⟩,
      .inr ⟨e, rfl, by simpa using j3, timed_reason j0 j1 j2 j5⟩⟩

/-- C77 (longer missions).  If only the first phases `pre` are timed in whole seconds, the output
still begins with their timetable, whatever follows; unless the mission aborts within it. -/
theorem C77_mission {pre rest : List (PhaseConfig (F64 L))} {ts : List ℕ}
    (h : Timed (.timeSinceEvent, 0) 0 pre ts) {o : SimOut (F64 L)}
    (ho : Simulation.Terminates (pre ++ rest) o) :
    (∃ log1 log2, o.log = log1 ++ log2 ∧ List.Forall₂ ShowsLine log1 (timetable 0 0 ts)) ∨
    (∃ e lines, o.result = .error e ∧ lines <+: timetable 0 0 ts ∧
      List.Forall₂ ShowsLine o.log lines ∧
      ((∀ c ∈ pre, ∀ t ∈ tablesOf c, WellFormed t) →
        (e = .missingInit ∧ pre.head?.bind (·.init) = none) ∨ e = .maxAcceleration)) := by
  rcases timed_sequence (i := 0) (prev := none) ⟨rfl, rfl⟩ h with
    ⟨log, last, j1, j2, j3⟩ | ⟨done, c, rest', log, last, rows, e, j0, j1, j2, ⟨lines, j3, j4⟩, j5⟩
  · left
    have hpre : Simulation.Terminates pre ⟨log, .ok (finalState last)⟩ :=
      C53_terminates_ok_iff.2 ⟨last, j1, rfl⟩
    have hseq : ∀ {mid : Option (Phase (F64 L))} {log1}, Sequence 0 none pre log1 mid →
        log1 = log := by
      intro mid log1 h1
      have := C53_deterministic hpre (C53_terminates_ok_iff.2 ⟨mid, h1, rfl⟩)
      injection this with h1 _
      exact h1.symm
    obtain ⟨log', res⟩ := o
    cases res with
    | ok s =>
      obtain ⟨last', h1, _⟩ := C53_terminates_ok_iff.1 ho
      obtain ⟨mid, log1, log2, h2, h3, rfl⟩ := C53_append.1 h1
      obtain rfl := hseq h2
      exact ⟨_, log2, rfl, j2⟩
    | error e =>
      obtain ⟨done, c, rest', log1, mid, rows, h1, h2, h3, rfl⟩ := C53_terminates_error_iff.1 ho
      rcases List.append_eq_append_iff.1 h1 with ⟨x, rfl, h4⟩ | ⟨x, h4, h5⟩
      · obtain ⟨mid', l1, l2, h5, _, rfl⟩ := C53_append.1 h2
        obtain rfl := hseq h5
        exact ⟨_, _, List.append_assoc .., j2⟩
      · cases x with
        | nil =>
          rw [List.append_nil] at h4
          subst h4
          obtain rfl := hseq h2
          exact ⟨_, _, rfl, j2⟩
        | cons c' x =>
          exfalso
          rw [List.cons_append, List.cons.injEq] at h5
          obtain ⟨rfl, _⟩ := h5
          have := C53_deterministic hpre
            (C53_terminates_error_iff.2 ⟨done, c, x, log1, mid, rows, h4, h2, h3, rfl⟩)
          injection this with _ h6
          cases h6
  · right
    have := C53_deterministic ho (C53_terminates_error_iff.2 ⟨done, c, rest' ++ rest, log, last, rows,
      by rw [j0, List.append_assoc]; rfl, j1, j2, rfl⟩)
    subst this
    exact ⟨e, lines, rfl, j3, by simpa using j4, timed_reason j0 j1 j2 j5⟩

/-- C77 (program).  A file that describes a mission timed in whole seconds makes the program
terminate; it succeeds having printed exactly the timetable, or it panics, having printed an
initial part of it, because there is no `init` section or because the acceleration limit could not be
kept. -/
theorem C77_program {file : File (F64 L)} {cs : List (PhaseConfig (F64 L))} {ts : List ℕ}
    (hf : Simulation.fromFile file = some cs) (h : Timed (.timeSinceEvent, 0) 0 cs ts) :
    ∃ fuel log ex, main fuel file = some (log, ex) ∧
      ((ex = .success ∧ List.Forall₂ ShowsLine log (timetable 0 0 ts)) ∨
        ((ex = .panic .missingInit ∨ ex = .panic .maxAcceleration) ∧
          ∃ lines, lines <+: timetable 0 0 ts ∧ List.Forall₂ ShowsLine log lines)) := by
  obtain ⟨⟨log, res⟩, ho, hcase⟩ := C77_timetable h
  rcases hcase with ⟨s, hres, h1, _⟩ | ⟨e, hres, h1, h2⟩
  · obtain ⟨fuel, hm⟩ := ((C56_bad_file_never_runs file).2 cs hf log .success).2
      ⟨res, ho, .inl ⟨rfl, s, hres⟩⟩
    exact ⟨fuel, log, _, hm, .inl ⟨rfl, h1⟩⟩
  · obtain ⟨fuel, hm⟩ := ((C56_bad_file_never_runs file).2 cs hf log (.panic e)).2
      ⟨res, ho, .inr ⟨e, rfl, hres⟩⟩
    refine ⟨fuel, log, _, hm, .inr ⟨?_, h1⟩⟩
    rcases h2 fun c hc t ht => C01_accepted_tables_wellFormed hf hc ht with ⟨rfl, _⟩ | rfl
    · exact .inl rfl
    · exact .inr rfl

/-- C77 (unpowered missions).  Without engines and without acceleration limit nothing can go
wrong: if the first phase has an `init` section, the mission ends normally, whatever the other
parameters are, and its output is exactly the timetable. -/
theorem C77_unpowered {cs : List (PhaseConfig (F64 L))} {ts : List ℕ}
    (h : Timed (.timeSinceEvent, 0) 0 cs ts) (hi : cs.head?.bind (·.init) ≠ none)
    (hE : ∀ c ∈ cs, ∀ l, vehicleParam (·.engines) c = some l → l = [])
    (hA : ∀ c ∈ cs, ∀ a, c.maxAcceleration = some a → a = -1)
    (ht : ∀ c ∈ cs, ∀ t ∈ tablesOf c, WellFormed t) :
    ∃ log s, Simulation.Terminates cs ⟨log, .ok s⟩ ∧
      List.Forall₂ ShowsLine log (timetable 0 0 ts) ∧ s.time.Is (ts.getLastD 0) := by
  rcases timed_sequence (i := 0) (prev := none) ⟨rfl, rfl⟩ h with
    ⟨log, last, j1, j2, j3⟩ | ⟨done, c, rest, log, last, rows, e, j0, j1, j2, j3, j5⟩
  · refine ⟨log, _, C53_terminates_ok_iff.2 ⟨last, j1, rfl⟩, j2, ?_⟩
    obtain ⟨q, rfl, hq⟩ := j3 (by rintro rfl; exact hi rfl)
    exact hq
  · exfalso
    subst j0
    rcases j2 with ⟨hnew, hrows⟩ | ⟨p, hnew, fuel, hr⟩
    · obtain ⟨h1, h0, h2, h3⟩ := aborts_new_error j1 hnew
      subst h2
      exact hi (by simpa using h0)
    · obtain ⟨s, hs⟩ := j5 p hnew
      have hready : Ready done c p.reset := ⟨_, _, _, j1, hnew, rfl⟩
      have hmem : ∀ c' ∈ done ++ [c], c' ∈ done ++ c :: rest := by
        intro c' hc'
        simp at hc' ⊢
        tauto
      have hp := C07_parameters_in_force hready
      have hlim : p.reset.maxAcceleration = Flt.inf := by
        rw [hp.maxAcceleration]
        refine inForce_prop (· = Flt.inf) _ rfl fun c' hc' a ha => ?_
        obtain ⟨a', ha', rfl⟩ := Option.map_eq_some_iff.1 ha
        rw [hA c' (hmem c' hc') a' ha']
        have heq : Flt.eq (-1 : F64 L) (-1) = true := by
          show Dbl.eq (Dbl.neg (.round false _)) (Dbl.neg (.round false _)) = true
          decide +kernel
        simp [accelerationLimit, heq]
      have heng : p.reset.vehicle.engines = [] := by
        rw [hp.engines]
        exact inForce_prop (· = []) _ rfl fun c' hc' l hl => hE c' (hmem c' hc') l hl
      obtain ⟨s', hs'⟩ := coasting_system hlim heng
        (ready_tablesOk hready fun c' hc' => ht c' (hmem c' hc')) s
      rw [hs'] at hs; cases hs

/-- Coast to second 2, and then for 3 seconds more. -/
def exampleTimetable : List (PhaseConfig (F64 L)) := [
  { PhaseConfig.empty with
    init := some ⟨45, 10, 90, 0⟩
    vehicle := some ⟨some 1000, none, none, none, none, none, none⟩
    endCriterion := some (.time, 2) },
  { PhaseConfig.empty with endCriterion := some (.timeSinceEvent, 3) }]

/-- The hypotheses are met, and the output has an announcement, two rows, an announcement and
three rows. -/
example : ∃ (log : List (LogEntry (F64 L))) (s : State (F64 L)),
    Simulation.Terminates exampleTimetable ⟨log, .ok s⟩ ∧
    List.Forall₂ ShowsLine log [.starting 1, .second 1, .second 2, .starting 2, .second 3, .second 4,
      .second 5] ∧ s.time.Is 5 := by
  have ht : Timed (.timeSinceEvent, (0 : F64 L)) 0 exampleTimetable [2, 5] :=
    ⟨⟨by norm_num, by norm_num, .inl ⟨rfl, is_nat 2 (by norm_num)⟩⟩,
      ⟨by norm_num, by norm_num, .inr ⟨rfl, is_nat 3 (by norm_num)⟩⟩, rfl⟩
  refine C77_unpowered ht (by simp [exampleTimetable]) ?_ ?_ ?_
  · intro c hc l hl
    simp only [exampleTimetable, List.mem_cons, List.not_mem_nil, or_false] at hc
    rcases hc with rfl | rfl <;> simp [vehicleParam, PhaseConfig.empty] at hl
  · intro c hc a ha
    simp only [exampleTimetable, List.mem_cons, List.not_mem_nil, or_false] at hc
    rcases hc with rfl | rfl <;> simp [PhaseConfig.empty] at ha
  · intro c hc t ht
    simp only [exampleTimetable, List.mem_cons, List.not_mem_nil, or_false] at hc
    rcases hc with rfl | rfl <;> simp [tablesOf, PhaseConfig.empty] at ht

end
end Post
