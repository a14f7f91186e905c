import Verif.Lemmas.System
import Verif.Lemmas.Config
import Verif.Spec.Phase
import Verif.Ext
import Verif.Toy
import Mathlib.Algebra.Order.Floor.Semiring
/-! # Phases ended by time (C27) and the step-size correction (C28), exact arithmetic -/

namespace Post
open Spec Flt

/-- The two simulation variables that measure time. -/
def Spec.IsTime (v : StateVariable) : Prop := v = .time ∨ v = .timeSinceEvent

theorem isTime_step {F : Type} [Flt F] {v : StateVariable} (hv : IsTime v) {p : Phase F} {s s' : State F} {h : F}
    (hs : OneStep p h s s') : v.getValue s' = v.getValue s + h := by
  obtain ⟨_, h1, h2⟩ := oneStep_system hs
  rcases hv with rfl | rfl
  · exact h1
  · exact h2

theorem met_fin {v : StateVariable} {T w : ℝ} {s : State XR} (hw : v.getValue s = .fin w) :
    Met (v, .fin T) s ↔ |w - T| < 1e-3 := by
  unfold Met
  simp only [hw]
  xr_eval
  rw [decide_eq_true_iff]

theorem overshot_fin {v : StateVariable} {T a b : ℝ} {s s' : State XR}
    (ha : v.getValue s = .fin a) (hb : v.getValue s' = .fin b) :
    Overshot (v, .fin T) s s' ↔ (b < a ∧ b < T) ∨ (a ≤ b ∧ T < b) := by
  unfold Overshot
  simp only [ha, hb]
  xr_eval
  simp

theorem timeToGo_fin {p : Phase XR} {v : StateVariable} {T a b h : ℝ} {s s' : State XR}
    (hc : p.endCriterion = (v, .fin T)) (hh : p.stepsize = .fin h)
    (ha : v.getValue s = .fin a) (hb : v.getValue s' = .fin b) (hab : b ≠ a) :
    p.timeToGo s s' = .fin (h * (T - a) / (b - a)) := by
  unfold Phase.timeToGo Phase.critValue
  simp only [hc, ha, hb, hh]
  xr_eval
  rw [XR.fin_div _ _ (by intro h; apply hab; linarith)]
  rw [XR.fin_inj]
  have : b - a ≠ 0 := sub_ne_zero.2 hab
  rw [show b - T - (a - T) = b - a by ring]
  congr 1
  ring

theorem step_cases {F : Type} [Flt F] (p : Phase F) (he : p.ended = false) :
    (∃ p', p.step = .ok p') ∨ ∃ e, p.step = .error e ∧
      (p.integrator.step p.system p.state p.stepsize = .error e ∨
        (StepDiscarded p ∧ 20 < p.endCriterionTries)) := by
  cases hs : p.step with
  | ok p' => exact .inl ⟨p', rfl⟩
  | error e =>
    right
    refine ⟨e, rfl, ?_⟩
    rcases Phase.step_error hs with h | h | h
    · rw [he] at h; cases h.1
    · exact .inl h.2
    · exact .inr ⟨h.2.2.2, by omega⟩

/-- The result of running a phase ended by time: it ended at the target or at a regular step
within the tolerance, or a step between the start and the target failed. -/
def EndsOnTime (v : StateVariable) (t0 T h : ℝ) (q : Phase XR)
    (res : Except Panic (Phase XR)) : Prop :=
  (res = .ok q ∧ q.ended = true ∧ ∃ w, v.getValue q.state = .fin w ∧
    (w = T ∨ (|w - T| < 1e-3 ∧ ∃ k : ℕ, w = t0 + k * h))) ∨
  (∃ e a η, res = .error e ∧ v.getValue q.state = .fin a ∧ t0 ≤ a ∧ a ≤ T ∧ 0 ≤ η ∧ η ≤ h ∧
    q.integrator.step q.system q.state (.fin η) = .error e)

/-- The run of `p`, ended by the time variable `v`, fails with `e` on its way from `t0` to `T`: at
the very start, or in an integration step of at most `h` seconds from a state it visits. -/
def Spec.FailsEnRoute (p : Phase XR) (v : StateVariable) (t0 T h : ℝ) (e : Panic) : Prop :=
  p.system p.state = .error e ∨
  ∃ s a η, Visited p s ∧ v.getValue s = .fin a ∧ t0 ≤ a ∧ a ≤ T ∧ 0 ≤ η ∧ η ≤ h ∧
    p.integrator.step p.system s (.fin η) = .error e

theorem oneStep_det {F : Type} [Flt F] {p : Phase F} {h : F} {s a b : State F}
    (h1 : OneStep p h s a) (h2 : OneStep p h s b) : b = a := by
  unfold OneStep at h1 h2
  rw [h1] at h2
  injection h2 with h2
  exact h2.symm

/-- The outcome of a phase started at `r`: it goes through `ps` to `q`, discarding `d` steps. -/
def TimeRun (v : StateVariable) (t0 T h : ℝ) (r : Phase XR) (n : ℕ) : Prop :=
  ∃ ps q d res, Path r ps q ∧ Count StepDiscarded ((r :: ps).dropLast) d ∧ d ≤ 1 ∧
    ps.length ≤ n + d ∧ EndsOnTime v t0 T h q res ∧
    (∀ r' ∈ ps, ∃ b, v.getValue r'.state = .fin b ∧ t0 ≤ b ∧ b < T + 1e-3) ∧
    ((q.ended = true ∧ res = .ok q) ∨ (q.ended = false ∧ ∃ e, q.step = .error e ∧ res = .error e))

theorem time_step {p : Phase XR} {v : StateVariable} (hv : IsTime v) {T h : ℝ} (hh : 0 < h)
    {r : Phase XR} {t0 a : ℝ} (hsame : Phase.SameParams p r) (hc : p.endCriterion = (v, .fin T))
    (he : r.ended = false) (ht : r.endCriterionTries = 0) (hst : r.stepsize = .fin h)
    (hval : v.getValue r.state = .fin a) (hk : ∃ k : ℕ, a = t0 + k * h) (haT : a ≤ T) :
    TimeRun v t0 T h r 1 ∨
    ∃ s, r.step = .ok { r with state := s } ∧ v.getValue s = .fin (a + h) ∧ a + h < T ∧
      ¬ StepDiscarded r := by
  have hcr : r.endCriterion = (v, .fin T) := by rw [hsame.endCriterion, hc]
  have hta : t0 ≤ a := by
    obtain ⟨k, hk⟩ := hk
    have : 0 ≤ (k : ℝ) * h := by positivity
    linarith
  rcases step_cases r he with ⟨r1, hr1⟩ | ⟨e, hr1, hbad⟩
  · obtain ⟨_, s, hs, hcase⟩ := Phase.step_ok hr1
    have hb : v.getValue s = .fin (a + h) := by rw [isTime_step hv hs, hval, hst, XR.fin_add]
    rcases hcase with ⟨hm, rfl⟩ | ⟨hm, ho, _, hr1'⟩ | ⟨hm, ho, rfl⟩
    · left
      refine ⟨[_], _, 0, .ok _, .cons he hr1 (.nil _), ?_, by omega, by simp, ?_, ?_, .inl ⟨rfl, rfl⟩⟩
      · refine .no ?_ .nil
        rintro ⟨s', hs', hm', _⟩
        rw [oneStep_det hs hs'] at hm'
        exact hm' hm
      · rw [hcr, met_fin hb] at hm
        obtain ⟨k, hk⟩ := hk
        exact .inl ⟨rfl, rfl, a + h, hb, .inr ⟨hm, k + 1, by rw [hk]; push_cast; ring⟩⟩
      · rw [hcr, met_fin hb] at hm
        intro r' hr'
        rw [List.mem_singleton] at hr'
        subst hr'
        exact ⟨a + h, hb, by linarith, by linarith [(abs_lt.1 hm).2]⟩
    · left
      have hgo : r.timeToGo r.state s = .fin (T - a) := by
        rw [timeToGo_fin hcr hst hval hb (by linarith), XR.fin_inj,
          show a + h - a = h by ring, mul_comm, mul_div_assoc, div_self hh.ne', mul_one]
      rw [hgo] at hr1'
      have hdisc : StepDiscarded r := ⟨s, hs, hm, ho⟩
      have he1 : r1.ended = false := by rw [hr1']; exact he
      have hst1 : r1.stepsize = .fin (T - a) := by rw [hr1']
      have hval1 : v.getValue r1.state = .fin a := by rw [hr1']; exact hval
      have hcr1 : r1.endCriterion = (v, .fin T) := by rw [hr1']; exact hcr
      have ht1 : r1.endCriterionTries = 1 := by rw [hr1']; simp [ht]
      have hmet1 : ∀ s', OneStep r1 r1.stepsize r1.state s' → Met r1.endCriterion s' ∧
          v.getValue s' = .fin T := by
        intro s' hs'
        have hv' : v.getValue s' = .fin T := by
          rw [isTime_step hv hs', hval1, hst1, XR.fin_add]; congr 1; ring
        refine ⟨?_, hv'⟩
        rw [hcr1]
        refine (met_fin hv').2 ?_
        simp
        norm_num
      rcases step_cases r1 he1 with ⟨r2, hr2⟩ | ⟨e, hr2, hbad⟩
      · obtain ⟨_, s', hs', hcase⟩ := Phase.step_ok hr2
        obtain ⟨hm', hv'⟩ := hmet1 s' hs'
        rcases hcase with ⟨_, rfl⟩ | ⟨hm2, _⟩ | ⟨hm2, _⟩
        · refine ⟨[r1, _], _, 1, .ok _, .cons he hr1 (.cons he1 hr2 (.nil _)), ?_, by omega,
            by simp, ?_, ?_, .inl ⟨rfl, rfl⟩⟩
          · refine .yes hdisc (.no ?_ .nil)
            rintro ⟨s2, hs2, hm2, _⟩
            exact hm2 (hmet1 s2 hs2).1
          · exact .inl ⟨rfl, rfl, T, hv', .inl rfl⟩
          · intro r' hr'
            rcases List.mem_cons.1 hr' with rfl | hr'
            · exact ⟨a, hval1, hta, by norm_num; linarith⟩
            · rw [List.mem_singleton] at hr'
              subst hr'
              exact ⟨T, hv', by linarith, by norm_num⟩
        · exact absurd hm' hm2
        · exact absurd hm' hm2
      · refine ⟨[r1], r1, 1, .error e, .cons he hr1 (.nil _), .yes hdisc .nil, by omega, by simp,
          ?_, ?_, .inr ⟨he1, e, hr2, rfl⟩⟩
        swap
        · intro r' hr'
          rw [List.mem_singleton] at hr'
          subst hr'
          exact ⟨a, hval1, hta, by norm_num; linarith⟩
        rcases hbad with hs' | ⟨⟨s', hs', hm', _⟩, _⟩
        · rw [hcr, overshot_fin hval hb] at ho
          refine .inr ⟨e, a, T - a, rfl, hval1, hta, haT, by linarith, ?_, by rw [← hst1]; exact hs'⟩
          rcases ho with ho | ho <;> linarith
        · exact absurd (hmet1 s' hs').1 hm'
    · right
      refine ⟨s, hr1, hb, ?_, ?_⟩
      · rw [hcr, overshot_fin hval hb] at ho
        rw [hcr, met_fin hb] at hm
        push Not at ho
        have h1 := ho.2 (by linarith)
        refine lt_of_le_of_ne h1 fun h0 => ?_
        rw [h0] at hm
        norm_num at hm
      · rintro ⟨s', hs', _, ho'⟩
        rw [oneStep_det hs hs'] at ho'
        exact ho ho'
  · left
    refine ⟨[], r, 0, .error e, .nil _, .nil, by omega, by simp, ?_, by simp, .inr ⟨he, e, hr1, rfl⟩⟩
    rcases hbad with hs' | ⟨_, h20⟩
    · exact .inr ⟨e, a, h, rfl, hval, hta, haT, hh.le, le_refl _, by rw [← hst]; exact hs'⟩
    · omega

theorem time_loop {p : Phase XR} {v : StateVariable} (hv : IsTime v) {T h : ℝ} (hh : 0 < h)
    {t0 : ℝ} (hc : p.endCriterion = (v, .fin T)) (n : ℕ) :
    ∀ {r : Phase XR} {a : ℝ}, Phase.SameParams p r →
      r.ended = false → r.endCriterionTries = 0 → r.stepsize = .fin h →
      v.getValue r.state = .fin a → (∃ k : ℕ, a = t0 + k * h) → a ≤ T → T - a ≤ (n + 1) * h →
      TimeRun v t0 T h r (n + 1) := by
  induction n with
  | zero =>
    intro r a hsame he ht hst hval hk haT hn
    rcases time_step hv hh hsame hc he ht hst hval hk haT with h | ⟨s, _, _, hlt, _⟩
    · exact h
    · push_cast at hn; linarith
  | succ n ih =>
    intro r a hsame he ht hst hval hk haT hn
    rcases time_step hv hh hsame hc he ht hst hval hk haT with h | ⟨s, hs, hb, hlt, hnd⟩
    · obtain ⟨ps, q, d, res, h1, h2, h3, h4, h5⟩ := h
      exact ⟨ps, q, d, res, h1, h2, h3, by omega, h5⟩
    · obtain ⟨k, hk⟩ := hk
      obtain ⟨ps, q, d, res, h1, h2, h3, h4, h5⟩ := ih (r := { r with state := s })
        (hsame.trans (Phase.step_sameParams hs)) he ht hst hb
        ⟨k + 1, by rw [hk]; push_cast; ring⟩ hlt.le (by push_cast at hn; linarith)
      refine ⟨_ :: ps, q, d, res, .cons he hs h1, ?_, h3, by simp; omega, h5.1, ?_, h5.2.2⟩
      swap
      · intro r' hr'
        rcases List.mem_cons.1 hr' with rfl | hr'
        · refine ⟨a + h, hb, ?_, by norm_num; linarith⟩
          have : 0 ≤ (k : ℝ) * h := by positivity
          linarith
        · exact h5.2.1 r' hr'
      rw [show (r :: { r with state := s } :: ps).dropLast =
        r :: ({ r with state := s } :: ps).dropLast by simp]
      exact .no hnd h2

/-- C27.  A phase whose end criterion is a time, not before its start, terminates: it prints at
most one row more than `⌈(target - start) / stepsize⌉` (at least 1) rows, of which at most one
belongs to a discarded step.  It ends at exactly the target time, or at a regular step within
the tolerance of it, unless the equations of motion fail at the start, or in a step of at most the
regular size taken from a visited state between start and target. -/
theorem C27_time_targets {p : Phase XR} {v : StateVariable} (hv : IsTime v) {T t0 h : ℝ}
    (hc : p.endCriterion = (v, .fin T)) (hval : v.getValue p.state = .fin t0) (hT : t0 ≤ T)
    (hst : p.stepsize = .fin h) (hh : 0 < h) (he : p.ended = false)
    (ht : p.endCriterionTries = 0) :
    ∃ fuel rows res, p.run fuel = some ⟨rows, res⟩ ∧
      rows.length ≤ max ⌈(T - t0) / h⌉₊ 1 + 1 ∧
      ((∃ q w, res = .ok q ∧ v.getValue q.state = .fin w ∧
          (w = T ∨ (|w - T| < 1e-3 ∧ ∃ k : ℕ, w = t0 + k * h))) ∨
        ∃ e, res = .error e ∧ FailsEnRoute p v t0 T h e) ∧
      ∀ s0, p.system p.state = .ok s0 →
        ∃ ps q d, Path { p with state := s0 } ps q ∧ rows = ps.map (·.state.row) ∧
          Count StepDiscarded (({ p with state := s0 } :: ps).dropLast) d ∧ d ≤ 1 ∧
          ps.length - d ≤ max ⌈(T - t0) / h⌉₊ 1 ∧
          (∀ r ∈ ps, ∃ b, v.getValue r.state = .fin b ∧ t0 ≤ b ∧ b < T + 1e-3) := by
  cases h0 : p.system p.state with
  | error e =>
    refine ⟨0, [], .error e, by simp [Phase.run, h0], by simp, .inr ⟨e, rfl, .inl h0⟩, ?_⟩
    intro s0 hs0; cases hs0
  | ok s0 =>
    have hprim := Phase.system_primary h0
    have hv0 : v.getValue s0 = .fin t0 := by
      rw [← hval]
      rcases hv with rfl | rfl
      · exact hprim.1
      · exact hprim.2.1
    obtain ⟨n, hn⟩ : ∃ n, max ⌈(T - t0) / h⌉₊ 1 = n + 1 :=
      ⟨max ⌈(T - t0) / h⌉₊ 1 - 1, by have := le_max_right ⌈(T - t0) / h⌉₊ 1; omega⟩
    have hb : T - t0 ≤ ((n : ℕ) + 1 : ℝ) * h := by
      have h1 : (T - t0) / h ≤ (⌈(T - t0) / h⌉₊ : ℝ) := Nat.le_ceil _
      have h2 : ((⌈(T - t0) / h⌉₊ : ℕ) : ℝ) ≤ ((n + 1 : ℕ) : ℝ) := by
        rw [← hn]; exact_mod_cast le_max_left _ _
      have h3 : (T - t0) / h ≤ (n : ℝ) + 1 := by push_cast at h2; linarith
      rwa [div_le_iff₀ hh] at h3
    obtain ⟨ps, q, d, res, h1, h2, h3, h4, h5, htimes, h6⟩ := time_loop (p := p) hv hh hc n
      (r := { p with state := s0 }) (t0 := t0) ⟨rfl, rfl, rfl, rfl, rfl, rfl, rfl, rfl, rfl⟩ he ht
      hst hv0 ⟨0, by simp⟩ hT hb
    have hrun : ∃ fuel, p.run fuel = some ⟨ps.map (·.state.row), res⟩ := by
      rcases h6 with ⟨hq, rfl⟩ | ⟨hq, e, hqs, rfl⟩
      · exact ⟨ps.length, by simp only [Phase.run, h0]; exact Phase.loop_of_path h1 hq (le_refl _)⟩
      · exact ⟨ps.length + 1, by
          simp only [Phase.run, h0]; exact Phase.loop_of_path_error h1 hq hqs (by omega)⟩
    obtain ⟨fuel, hrun⟩ := hrun
    refine ⟨fuel, _, res, hrun, by rw [hn]; simp; omega, ?_, ?_⟩
    · rcases h5 with ⟨hq, _, w, hw, hw'⟩ | h5
      · exact .inl ⟨q, w, hq, hw, hw'⟩
      · obtain ⟨e, a, η, rfl, h7, h8, h9, h10, h11, h12⟩ := h5
        have hsame := (Phase.path_sameParams h1).1
        have hsys : q.system = p.system := by
          rw [hsame.system]; exact Phase.SameParams.system (p := p)
            (q := { p with state := s0 }) ⟨rfl, rfl, rfl, rfl, rfl, rfl, rfl, rfl, rfl⟩
        refine .inr ⟨e, rfl, .inr ⟨q.state, a, η, ⟨s0, ps, q, h0, h1, ?_⟩, h7, h8, h9, h10, h11, ?_⟩⟩
        · rcases path_last h1 with ⟨h, _⟩ | h
          · exact .inl (by rw [h])
          · exact .inr ⟨q, h, rfl⟩
        · rw [← hsys, show p.integrator = q.integrator from hsame.integrator.symm]
          exact h12
    · intro s0' hs0'
      injection hs0' with hs0'
      subst hs0'
      exact ⟨ps, q, d, h1, rfl, h2, h3, by rw [hn]; omega, htimes⟩

/-- C27 for configured phases.  A phase of any simulation whose end criterion is
`time_since_event` with a target `T ≥ 0` terminates after at most `⌈T⌉ + 1` rows (two for
`T = 0`): with `time_since_event` equal to `T`, or within 1e-3 of `T` after a whole number of
seconds, unless the equations of motion fail. -/
theorem C27_configured {cs : List (PhaseConfig XR)} {c : PhaseConfig XR} {p : Phase XR}
    (hr : Ready cs c p) {T : ℝ} (hc : p.endCriterion = (.timeSinceEvent, .fin T)) (hT : 0 ≤ T) :
    ∃ fuel rows res, p.run fuel = some ⟨rows, res⟩ ∧ rows.length ≤ max ⌈T⌉₊ 1 + 1 ∧
      ((∃ q w, res = .ok q ∧ q.state.timeSinceEvent = .fin w ∧
          (w = T ∨ (|w - T| < 1e-3 ∧ ∃ k : ℕ, w = k))) ∨
        ∃ e, res = .error e ∧ FailsEnRoute p .timeSinceEvent 0 T 1 e) := by
  have hbase : p.stepsize = .fin 1 ∧ p.ended = false ∧ p.endCriterionTries = 0 ∧
      p.state.timeSinceEvent = .fin 0 := by
    obtain ⟨log, prev, p', hseq, hnew, rfl⟩ := hr
    refine ⟨?_, rfl, rfl, ?_⟩
    · show p'.baseStepsize = _
      have key : ∀ {i : Nat} {prev last : Option (Phase XR)} {cs : List (PhaseConfig XR)} {log},
          Sequence i prev cs log last → (∀ q, prev = some q → q.baseStepsize = .fin 1) →
          ∀ q, last = some q → q.baseStepsize = .fin 1 := by
        intro i prev last cs log hseq
        induction hseq with
        | nil => exact fun h => h
        | @cons i prev last c cs rows log q h1 h2 ih =>
          intro hprev
          refine ih fun q' hq' => ?_
          injection hq' with hq'
          subst hq'
          obtain ⟨p1, hp1, fuel, hrun⟩ := h1
          rw [show q.baseStepsize = p1.reset.baseStepsize from
            (Phase.run_ok_sameParams hrun).baseStepsize]
          show p1.baseStepsize = _
          cases prev with
          | none =>
            unfold Phase.new at hp1
            cases hi : c.init with
            | none => simp [hi] at hp1
            | some i =>
              simp only [hi] at hp1
              injection hp1 with hp1
              subst hp1
              show (Phase.default.applyConfig c).baseStepsize = _
              simp [Phase.default, XR.fin_one]
          | some q0 =>
            simp only [Phase.new] at hp1
            injection hp1 with hp1
            subst hp1
            simpa using hprev q0 rfl
      cases prev with
      | none =>
        unfold Phase.new at hnew
        cases hi : c.init with
        | none => simp [hi] at hnew
        | some i =>
          simp only [hi] at hnew
          injection hnew with hnew
          subst hnew
          show (Phase.default.applyConfig c).baseStepsize = _
          simp [Phase.default, XR.fin_one]
      | some q0 =>
        simp only [Phase.new] at hnew
        injection hnew with hnew
        subst hnew
        simpa using key hseq (by intro q hq; cases hq) q0 rfl
    · exact XR.fin_zero
  obtain ⟨fuel, rows, res, h1, h2, h3, _⟩ := C27_time_targets (p := p) (.inr rfl) hc hbase.2.2.2 hT
    hbase.1 one_pos hbase.2.1 hbase.2.2.1
  refine ⟨fuel, rows, res, h1, by simpa using h2, ?_⟩
  simpa [StateVariable.getValue] using h3

/-- The bounds are attained: running to time 3.5 takes three regular steps, a discarded one and
the corrected one. -/
example : ∃ rows q, Toy.phase1.run 10 = some ⟨rows, .ok q⟩ ∧
    (rows.length = 5 ∧ q.state.time = 3.5 ∧ Toy.phase1.stepsize = 1) := by
  simpa using (Toy.ranAnd_iff (x := Toy.phase1.run 10) (f := fun rows q =>
    decide (rows.length = 5 ∧ q.state.time = 3.5 ∧ Toy.phase1.stepsize = 1))).1
    (by decide +kernel)

/-! ## C28: the step-size correction -/

/-- C28.  If a step of positive size crosses the target from one side to the other without
hitting it, the corrected step size is that of the secant through the two values, strictly
between zero and the discarded step size; the state is unchanged. -/
theorem C28_between {p p' : Phase XR} {v : StateVariable} {T a b h : ℝ} {s : State XR}
    (hc : p.endCriterion = (v, .fin T)) (hst : p.stepsize = .fin h) (hh : 0 < h)
    (hs : OneStep p p.stepsize p.state s) (ha : v.getValue p.state = .fin a)
    (hb : v.getValue s = .fin b) (hcross : (a < T ∧ T < b) ∨ (b < T ∧ T < a))
    (hm : ¬ Met p.endCriterion s) (hp : p.step = .ok p') :
    ∃ h', p'.stepsize = .fin h' ∧ 0 < h' ∧ h' < h ∧ a + h' / h * (b - a) = T ∧
      p'.state = p.state := by
  have hba : b ≠ a := by rcases hcross with h | h <;> linarith
  have ho : Overshot p.endCriterion p.state s := by
    rw [hc, overshot_fin ha hb]
    rcases hcross with h | h
    · exact .inr ⟨by linarith, h.2⟩
    · exact .inl ⟨by linarith, h.1⟩
  obtain ⟨_, s', hs', hcase⟩ := Phase.step_ok hp
  rw [oneStep_det hs hs'] at hcase
  rcases hcase with ⟨hm', _⟩ | ⟨_, _, _, hp'⟩ | ⟨_, ho', _⟩
  · exact absurd hm' hm
  · rw [timeToGo_fin hc hst ha hb hba] at hp'
    have hne : b - a ≠ 0 := sub_ne_zero.2 hba
    refine ⟨h * (T - a) / (b - a), by rw [hp'], ?_, ?_, ?_, by rw [hp']⟩
    · rcases hcross with h1 | h1
      · exact div_pos (mul_pos hh (by linarith)) (by linarith)
      · exact div_pos_of_neg_of_neg (mul_neg_of_pos_of_neg hh (by linarith)) (by linarith)
    · rcases hcross with h1 | h1
      · rw [div_lt_iff₀ (by linarith)]; exact mul_lt_mul_of_pos_left (by linarith) hh
      · rw [div_lt_iff_of_neg (by linarith)]; exact mul_lt_mul_of_pos_left (by linarith) hh
    · field_simp
      ring
  · exact absurd ho ho'

/-- C28 is false when the target was passed before the step: a phase ended by a time that lies
before its start gets a negative step size and ends, if its steps succeed, in the past. -/
theorem C28_refuted {p p1 p2 : Phase XR} {v : StateVariable} (hv : IsTime v) {T t0 h : ℝ}
    (hc : p.endCriterion = (v, .fin T)) (hval : v.getValue p.state = .fin t0) (hT : T < t0)
    (hst : p.stepsize = .fin h) (hh : 1e-3 ≤ h) (h1 : p.step = .ok p1) (h2 : p1.step = .ok p2) :
    p1.stepsize = .fin (T - t0) ∧ T - t0 < 0 ∧ p2.ended = true ∧ v.getValue p2.state = .fin T := by
  have hh0 : 0 < h := lt_of_lt_of_le (by norm_num) hh
  obtain ⟨_, s, hs, hcase⟩ := Phase.step_ok h1
  have hb : v.getValue s = .fin (t0 + h) := by rw [isTime_step hv hs, hval, hst, XR.fin_add]
  have hm : ¬ Met p.endCriterion s := by
    rw [hc, met_fin hb, not_lt, abs_of_pos (by linarith)]
    linarith
  have ho : Overshot p.endCriterion p.state s := by
    rw [hc, overshot_fin hval hb]
    exact .inr ⟨by linarith, by linarith⟩
  rcases hcase with ⟨hm', _⟩ | ⟨_, _, _, hp'⟩ | ⟨_, ho', _⟩
  · exact absurd hm' hm
  · have hgo : p.timeToGo p.state s = .fin (T - t0) := by
      rw [timeToGo_fin hc hst hval hb (by linarith), XR.fin_inj,
        show t0 + h - t0 = h by ring, mul_comm, mul_div_assoc, div_self hh0.ne', mul_one]
    rw [hgo] at hp'
    have hst1 : p1.stepsize = .fin (T - t0) := by rw [hp']
    have hc1 : p1.endCriterion = (v, .fin T) := by rw [hp']; exact hc
    have hval1 : v.getValue p1.state = .fin t0 := by rw [hp']; exact hval
    obtain ⟨_, s', hs', hcase⟩ := Phase.step_ok h2
    have hv' : v.getValue s' = .fin T := by
      rw [isTime_step hv hs', hval1, hst1, XR.fin_add]; congr 1; ring
    have hm' : Met p1.endCriterion s' := by
      rw [hc1]
      refine (met_fin hv').2 ?_
      simp
      norm_num
    rcases hcase with ⟨_, rfl⟩ | ⟨hm2, _⟩ | ⟨hm2, _⟩
    · exact ⟨hst1, by linarith, rfl, hv'⟩
    · exact absurd hm' hm2
    · exact absurd hm' hm2
  · exact absurd ho ho'

/-- Such runs exist: this one starts at time 0 and ends, without any error, at time -2. -/
example : ∃ rows q, { Toy.phase1 with endCriterion := (.time, -2) }.run 10 = some ⟨rows, .ok q⟩ ∧
    (q.state.time = -2 ∧ Toy.phase1.state.time = 0) := by
  simpa using (Toy.ranAnd_iff (x := { Toy.phase1 with endCriterion := (.time, -2) }.run 10)
    (f := fun _ q => decide (q.state.time = -2 ∧ Toy.phase1.state.time = 0))).1
    (by decide +kernel)

end Post
