import Verif.Props.Time
/-! # Runs of phases whose criterion variable changes linearly in time -/

namespace Post
open Spec Flt

/-- `s` is a state of the run of `p` reached after `x` seconds: the criterion variable has the
value `a0 + c x` there, and this goes on for every step of at most `h` seconds that starts within
the first `τ` seconds. -/
structure Linear (p : Phase XR) (v : StateVariable) (a0 c h τ : ℝ)
    (Good : State XR → ℝ → Prop) : Prop where
  value : ∀ {s x}, Good s x → v.getValue s = .fin (a0 + c * x)
  step : ∀ {s s' x η}, Good s x → 0 ≤ x → x ≤ τ → 0 ≤ η → η ≤ h → OneStep p (.fin η) s s' →
    Good s' (x + η)

/-- The result: ended after exactly `τ` seconds, or after a whole number of regular steps with
the variable within the tolerance of the target, or a step failed before. -/
def LinearEnd (p : Phase XR) (c h τ : ℝ) (Good : State XR → ℝ → Prop) (q : Phase XR)
    (res : Except Panic (Phase XR)) : Prop :=
  (res = .ok q ∧ q.ended = true ∧ ∃ x, Good q.state x ∧
    (x = τ ∨ (|c * (x - τ)| < 1e-3 ∧ ∃ k : ℕ, x = k * h))) ∨
  (∃ e x η, res = .error e ∧ Good q.state x ∧ 0 ≤ x ∧ x ≤ τ ∧ 0 ≤ η ∧ η ≤ h ∧
    p.integrator.step p.system q.state (.fin η) = .error e)

/-- The outcome of a phase started at `r`: it goes through `ps` to `q`, discarding `d` steps. -/
def LinearRun (p : Phase XR) (c h τ : ℝ) (Good : State XR → ℝ → Prop) (r : Phase XR) (n : ℕ) :
    Prop :=
  ∃ ps q d res, Path r ps q ∧ Count StepDiscarded ((r :: ps).dropLast) d ∧ d ≤ 1 ∧
    ps.length ≤ n + d ∧ LinearEnd p c h τ Good q res ∧
    (∀ r' ∈ ps, ∃ x, Good r'.state x ∧ 0 ≤ x ∧ x < τ + 1e-3 / |c|) ∧
    ((q.ended = true ∧ res = .ok q) ∨ (q.ended = false ∧ ∃ e, q.step = .error e ∧ res = .error e))

theorem linear_step {p : Phase XR} {v : StateVariable} {a0 c h τ : ℝ}
    {Good : State XR → ℝ → Prop} (hlin : Linear p v a0 c h τ Good) (hcne : c ≠ 0) (hh : 0 < h)
    {r : Phase XR} {x : ℝ} (hsame : Phase.SameParams p r)
    (hc : p.endCriterion = (v, .fin (a0 + c * τ)))
    (he : r.ended = false) (ht : r.endCriterionTries = 0) (hst : r.stepsize = .fin h)
    (hg : Good r.state x) (hk : ∃ k : ℕ, x = k * h) (hx : x ≤ τ) :
    LinearRun p c h τ Good r 1 ∨
    ∃ s, r.step = .ok { r with state := s } ∧ Good s (x + h) ∧ x + h < τ ∧
      ¬ StepDiscarded r := by
  have hcr : r.endCriterion = (v, .fin (a0 + c * τ)) := by rw [hsame.endCriterion, hc]
  have hx0 : 0 ≤ x := by
    obtain ⟨k, rfl⟩ := hk
    positivity
  have hca : 0 < |c| := abs_pos.2 hcne
  have htol : 0 < 1e-3 / |c| := by positivity
  have hpo : ∀ {η : XR} {s s' : State XR}, OneStep r η s s' ↔ OneStep p η s s' := hsame.oneStep
  have hval := hlin.value hg
  rcases step_cases r he with ⟨r1, hr1⟩ | ⟨e, hr1, hbad⟩
  · obtain ⟨_, s, hs, hcase⟩ := Phase.step_ok hr1
    have hs' : OneStep p (.fin h) r.state s := by rw [← hst]; exact hpo.1 hs
    have hgs := hlin.step hg hx0 hx hh.le (le_refl _) hs'
    have hb := hlin.value hgs
    rcases hcase with ⟨hm, rfl⟩ | ⟨hm, ho, _, hr1'⟩ | ⟨hm, ho, rfl⟩
    · left
      rw [hcr, met_fin hb] at hm
      have hm' : |c * (x + h - τ)| < 1e-3 := by
        rw [show c * (x + h - τ) = a0 + c * (x + h) - (a0 + c * τ) by ring]; exact hm
      refine ⟨[_], _, 0, .ok _, .cons he hr1 (.nil _), ?_, by omega, by simp, ?_, ?_, .inl ⟨rfl, rfl⟩⟩
      · refine .no ?_ .nil
        rintro ⟨s', hs', hm', _⟩
        rw [oneStep_det hs hs', hcr, met_fin hb] at hm'
        exact hm' hm
      · obtain ⟨k, hk⟩ := hk
        exact .inl ⟨rfl, rfl, x + h, hgs, .inr ⟨hm', k + 1, by rw [hk]; push_cast; ring⟩⟩
      · intro r' hr'
        rw [List.mem_singleton] at hr'
        subst hr'
        refine ⟨x + h, hgs, by linarith, ?_⟩
        rw [abs_mul] at hm'
        have : x + h - τ < 1e-3 / |c| := by
          rw [lt_div_iff₀ hca, mul_comm]
          exact lt_of_le_of_lt (mul_le_mul_of_nonneg_left (le_abs_self _) hca.le) hm'
        linarith
    · left
      have hne : a0 + c * (x + h) ≠ a0 + c * x := by
        intro h0
        have : c * h = 0 := by linarith
        rcases mul_eq_zero.1 this with h1 | h1
        · exact hcne h1
        · exact hh.ne' h1
      have hgo : r.timeToGo r.state s = .fin (τ - x) := by
        rw [timeToGo_fin hcr hst hval hb hne, XR.fin_inj]
        rw [show a0 + c * τ - (a0 + c * x) = c * (τ - x) by ring,
          show a0 + c * (x + h) - (a0 + c * x) = c * h by ring]
        have := hh.ne'
        field_simp
      rw [hgo] at hr1'
      have hover : τ - x ≤ h := by
        rw [hcr, overshot_fin hval hb] at ho
        rcases ho with ⟨h1, h2⟩ | ⟨h1, h2⟩
        · have hc0 : c < 0 := by
            by_contra hcc
            have := mul_nonneg (not_lt.1 hcc) hh.le
            linarith
          have h3 : c * (x + h) < c * τ := by linarith
          have := (mul_lt_mul_left_of_neg hc0).1 h3
          linarith
        · have hc0 : 0 < c := by
            by_contra hcc
            have h4 : c < 0 := lt_of_le_of_ne (not_lt.1 hcc) hcne
            have := mul_neg_of_neg_of_pos h4 hh
            linarith
          have h3 : c * τ < c * (x + h) := by linarith
          have := lt_of_mul_lt_mul_left h3 hc0.le
          linarith
      have hdisc : StepDiscarded r := ⟨s, hs, hm, ho⟩
      have he1 : r1.ended = false := by rw [hr1']; exact he
      have hst1 : r1.stepsize = .fin (τ - x) := by rw [hr1']
      have hg1 : Good r1.state x := by rw [hr1']; exact hg
      have hcr1 : r1.endCriterion = (v, .fin (a0 + c * τ)) := by rw [hr1']; exact hcr
      have hsame1 := hsame.trans (Phase.step_sameParams hr1)
      have hmet1 : ∀ s', OneStep r1 r1.stepsize r1.state s' → Met r1.endCriterion s' ∧
          Good s' τ := by
        intro s' hs'
        rw [hst1] at hs'
        have hv' := hlin.step hg1 hx0 hx (by linarith) hover (hsame1.oneStep.1 hs')
        rw [show x + (τ - x) = τ by ring] at hv'
        refine ⟨?_, hv'⟩
        rw [hcr1]
        refine (met_fin (hlin.value hv')).2 ?_
        simp
        norm_num
      rcases step_cases r1 he1 with ⟨r2, hr2⟩ | ⟨e, hr2, hbad⟩
      · obtain ⟨_, s', hs', hcase⟩ := Phase.step_ok hr2
        obtain ⟨hm', hv'⟩ := hmet1 s' hs'
        rcases hcase with ⟨_, rfl⟩ | ⟨hm2, _⟩ | ⟨hm2, _⟩
        · refine ⟨[r1, _], _, 1, .ok _, .cons he hr1 (.cons he1 hr2 (.nil _)), ?_, by omega,
            by simp, ?_, ?_, .inl ⟨rfl, rfl⟩⟩
          · refine .yes hdisc (.no ?_ .nil)
            rintro ⟨s2, hs2, hm2, _⟩
            exact hm2 (hmet1 s2 hs2).1
          · exact .inl ⟨rfl, rfl, τ, hv', .inl rfl⟩
          · intro r' hr'
            rcases List.mem_cons.1 hr' with rfl | hr'
            · exact ⟨x, hg1, hx0, by linarith⟩
            · rw [List.mem_singleton] at hr'
              subst hr'
              exact ⟨τ, hv', by linarith, by linarith⟩
        · exact absurd hm' hm2
        · exact absurd hm' hm2
      · refine ⟨[r1], r1, 1, .error e, .cons he hr1 (.nil _), .yes hdisc .nil, by omega, by simp,
          ?_, ?_, .inr ⟨he1, e, hr2, rfl⟩⟩
        swap
        · intro r' hr'
          rw [List.mem_singleton] at hr'
          subst hr'
          exact ⟨x, hg1, hx0, by linarith⟩
        rcases hbad with hs' | ⟨⟨s', hs', hm', _⟩, _⟩
        · rw [hsame1.system, hsame1.integrator, hst1] at hs'
          exact .inr ⟨e, x, τ - x, rfl, hg1, hx0, hx, by linarith, hover, hs'⟩
        · exact absurd (hmet1 s' hs').1 hm'
    · right
      refine ⟨s, hr1, hgs, ?_, ?_⟩
      · rw [hcr, overshot_fin hval hb] at ho
        rw [hcr, met_fin hb] at hm
        push Not at ho
        have hne : x + h ≠ τ := by
          intro h0
          rw [h0] at hm
          norm_num at hm
        rcases lt_or_gt_of_ne hcne with hc0 | hc0
        · have h1 := ho.1 (by nlinarith)
          have h2 : c * τ ≤ c * (x + h) := by linarith
          exact lt_of_le_of_ne ((mul_le_mul_left_of_neg hc0).1 h2) hne
        · have h1 := ho.2 (by nlinarith)
          have h2 : c * (x + h) ≤ c * τ := by linarith
          exact lt_of_le_of_ne (le_of_mul_le_mul_left h2 hc0) hne
      · rintro ⟨s', hs', _, ho'⟩
        rw [oneStep_det hs hs'] at ho'
        exact ho ho'
  · left
    refine ⟨[], r, 0, .error e, .nil _, .nil, by omega, by simp, ?_, by simp, .inr ⟨he, e, hr1, rfl⟩⟩
    rcases hbad with hs' | ⟨_, h20⟩
    · rw [hsame.system, hsame.integrator, hst] at hs'
      exact .inr ⟨e, x, h, rfl, hg, hx0, hx, hh.le, le_refl _, hs'⟩
    · omega

theorem linear_loop {p : Phase XR} {v : StateVariable} {a0 c h τ : ℝ}
    {Good : State XR → ℝ → Prop} (hlin : Linear p v a0 c h τ Good) (hcne : c ≠ 0) (hh : 0 < h)
    (hc : p.endCriterion = (v, .fin (a0 + c * τ))) (n : ℕ) :
    ∀ {r : Phase XR} {x : ℝ}, Phase.SameParams p r →
      r.ended = false → r.endCriterionTries = 0 → r.stepsize = .fin h →
      Good r.state x → (∃ k : ℕ, x = k * h) → x ≤ τ → τ - x ≤ (n + 1) * h →
      LinearRun p c h τ Good r (n + 1) := by
  induction n with
  | zero =>
    intro r x hsame he ht hst hg hk hx hn
    rcases linear_step hlin hcne hh hsame hc he ht hst hg hk hx with h | ⟨s, _, _, hlt, _⟩
    · exact h
    · push_cast at hn; linarith
  | succ n ih =>
    intro r x hsame he ht hst hg hk hx hn
    rcases linear_step hlin hcne hh hsame hc he ht hst hg hk hx with h | ⟨s, hs, hb, hlt, hnd⟩
    · obtain ⟨ps, q, d, res, h1, h2, h3, h4, h5⟩ := h
      exact ⟨ps, q, d, res, h1, h2, h3, by omega, h5⟩
    · obtain ⟨k, hk⟩ := hk
      obtain ⟨ps, q, d, res, h1, h2, h3, h4, h5⟩ := ih (r := { r with state := s })
        (hsame.trans (Phase.step_sameParams hs)) he ht hst hb
        ⟨k + 1, by rw [hk]; push_cast; ring⟩ hlt.le (by push_cast at hn; linarith)
      refine ⟨_ :: ps, q, d, res, .cons he hs h1, ?_, h3, by simp; omega, h5.1, ?_, h5.2.2⟩
      swap
      · intro r' hr'
        rcases List.mem_cons.1 hr' with rfl | hr'
        · refine ⟨x + h, hb, ?_, ?_⟩
          · have : 0 ≤ (k : ℝ) * h := by positivity
            linarith
          · have : 0 < 1e-3 / |c| := by have := abs_pos.2 hcne; positivity
            linarith
        · exact h5.2.1 r' hr'
      rw [show (r :: { r with state := s } :: ps).dropLast =
        r :: ({ r with state := s } :: ps).dropLast by simp]
      exact .no hnd h2

end Post
