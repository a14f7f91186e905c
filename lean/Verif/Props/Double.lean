import Verif.Props.Time
import Verif.Props.Program
import Verif.Lemmas.F64
/-! # C65: phases ended by time, in double precision -/

namespace Post
open Spec Flt F64

/-- The run of `p`, ended by the time variable `v`, fails with `e` on its way from `t0` to `T`: at
the very start, or in an integration step from a state it visits. -/
def Spec.FailsUnderWay {L : Libm} (p : Phase (F64 L)) (v : StateVariable) (t0 T : ℚ) (e : Panic) :
    Prop :=
  p.system p.state = .error e ∨
  ∃ s a η, Visited p s ∧ (v.getValue s).Is a ∧ t0 ≤ a ∧ a ≤ T ∧
    p.integrator.step p.system s η = .error e

section
variable {L : Libm}

theorem ulpErr_le {q M : ℚ} (h : |q| ≤ M) : ulpErr q ≤ 2 ^ (-53 : ℤ) * M + 1e-30 := by
  unfold ulpErr
  have h1 : (2 : ℚ) ^ (-53 : ℤ) * |q| ≤ 2 ^ (-53 : ℤ) * M :=
    mul_le_mul_of_nonneg_left h (by norm_num)
  have h2 : (2 : ℚ) ^ (-1075 : ℤ) ≤ 1e-30 := by
    have : (2 : ℚ) ^ (-1075 : ℤ) ≤ 2 ^ (-100 : ℤ) :=
      zpow_le_zpow_right₀ (by norm_num) (by norm_num)
    refine this.trans ?_
    norm_num
  linarith

theorem ulpErr_small {q : ℚ} (h : |q| ≤ 4) : ulpErr q ≤ 1e-15 := by
  refine (ulpErr_le h).trans ?_
  norm_num

/-- the tolerance, as a double -/
theorem is_tolerance : ∃ c, Is (1e-3 : F64 L) c ∧ |c - 1e-3| ≤ 1e-15 := by
  have : (1e-3 : F64 L) = ⟨Dbl.round false ((1 : ℚ) / 1000)⟩ := by
    show (⟨Dbl.round false _⟩ : F64 L) = _
    norm_num
  rw [this]
  obtain ⟨r, h1, h2⟩ := is_round (L := L) (s := false) (q := 1 / 1000) (by norm_num)
  refine ⟨r, h1, ?_⟩
  have h3 := ulpErr_small (q := 1 / 1000) (by norm_num)
  rw [show (1e-3 : ℚ) = 1 / 1000 by norm_num]
  exact h2.trans h3

theorem met_of_close {v : StateVariable} {T : F64 L} {w τ : ℚ} {s : State (F64 L)}
    (hw : (v.getValue s).Is w) (hT : T.Is τ) (h : |w - τ| ≤ 9e-4) : Met (v, T) s := by
  obtain ⟨r, h1, h2⟩ := is_sub hw hT (h.trans (by norm_num))
  obtain ⟨c, h3, h4⟩ := is_tolerance (L := L)
  have h5 := ulpErr_small (h.trans (by norm_num))
  unfold Met
  rw [is_lt (is_abs h1) h3, decide_eq_true_iff]
  have h6 := abs_le.1 h4
  have h7 := abs_le.1 (h2.trans h5)
  have h8 := abs_le.1 h
  rw [abs_lt]
  constructor <;> norm_num at * <;> linarith

theorem close_of_met {v : StateVariable} {T : F64 L} {w τ : ℚ} {s : State (F64 L)}
    (hw : (v.getValue s).Is w) (hT : T.Is τ) (hb : |w - τ| ≤ 2 ^ 100) (h : Met (v, T) s) :
    |w - τ| < 1.001e-3 := by
  obtain ⟨r, h1, h2⟩ := is_sub hw hT (hb.trans (by norm_num))
  obtain ⟨c, h3, h4⟩ := is_tolerance (L := L)
  unfold Met at h
  rw [is_lt (is_abs h1) h3, decide_eq_true_iff] at h
  have h6 := abs_le.1 h4
  have h5 := ulpErr_le (le_refl |w - τ|)
  have h7 : |w - τ| ≤ |r| + ulpErr (w - τ) := by
    have : |w - τ| ≤ |r| + |r - (w - τ)| := by
      have := abs_sub_abs_le_abs_sub (w - τ) r
      rw [abs_sub_comm (w - τ) r] at this
      linarith
    linarith
  have h8 : (2 : ℚ) ^ (-53 : ℤ) * |w - τ| ≤ 1e-6 * |w - τ| :=
    mul_le_mul_of_nonneg_right (by norm_num) (abs_nonneg _)
  norm_num at *
  linarith

theorem overshot_is {v : StateVariable} {T : F64 L} {a b τ : ℚ} {s s' : State (F64 L)}
    (ha : (v.getValue s).Is a) (hb : (v.getValue s').Is b) (hT : T.Is τ) :
    Overshot (v, T) s s' ↔ (b < a ∧ b < τ) ∨ (a ≤ b ∧ τ < b) := by
  unfold Overshot
  simp only [is_lt hb ha, is_lt hb hT, is_lt hT hb]
  simp

/-- The corrected step size, after a step of one second. -/
theorem timeToGo_is {p : Phase (F64 L)} {v : StateVariable} {T : F64 L} {a b τ : ℚ}
    {s s' : State (F64 L)} (hc : p.endCriterion = (v, T)) (hh : p.stepsize = 1)
    (ha : (v.getValue s).Is a) (hb : (v.getValue s').Is b) (hT : T.Is τ)
    (haτ : a ≤ τ) (hτb : τ ≤ b) (hstep : |b - (a + 1)| ≤ 2e-7) :
    ∃ g, Is (p.timeToGo s s') g ∧ |g - (τ - a)| ≤ 4e-7 := by
  unfold Phase.timeToGo Phase.critValue
  simp only [hc, hh]
  have hs := abs_le.1 hstep
  norm_num at hs
  have b0 : |a - τ| ≤ 2 := by rw [abs_le]; constructor <;> linarith
  have b1 : |b - τ| ≤ 2 := by rw [abs_le]; constructor <;> linarith
  obtain ⟨y0, i0, e0⟩ := is_sub ha hT (b0.trans (by norm_num))
  obtain ⟨y1, i1, e1⟩ := is_sub hb hT (b1.trans (by norm_num))
  have e0 := abs_le.1 (e0.trans (ulpErr_small (b0.trans (by norm_num))))
  have e1 := abs_le.1 (e1.trans (ulpErr_small (b1.trans (by norm_num))))
  norm_num at e0 e1
  have b2 : |-y0 * 1| ≤ 3 := by rw [abs_le]; constructor <;> linarith
  have b3 : |y1 - y0| ≤ 3 := by rw [abs_le]; constructor <;> linarith
  obtain ⟨m, i2, e2⟩ := is_mul (is_neg i0) (is_one (L := L)) (b2.trans (by norm_num))
  obtain ⟨d, i3, e3⟩ := is_sub i1 i0 (b3.trans (by norm_num))
  have e2 := abs_le.1 (e2.trans (ulpErr_small (b2.trans (by norm_num))))
  have e3 := abs_le.1 (e3.trans (ulpErr_small (b3.trans (by norm_num))))
  norm_num at e2 e3
  have hd : 0.9999 < d := by norm_num; linarith
  have hd0 : 0 < d := lt_trans (by norm_num) hd
  have hm0 : -1e-12 ≤ m := by norm_num; linarith
  have hm1 : m ≤ 1.0001 := by norm_num; linarith
  have hmd : |m / d - m| ≤ 3e-7 := by
    have : m / d - m = m * (1 - d) / d := by field_simp
    rw [this, abs_div, abs_mul, abs_of_pos hd0, div_le_iff₀ hd0]
    have h1 : |m| ≤ 1.0001 := by rw [abs_le]; constructor <;> norm_num at * <;> linarith
    have h2 : |1 - d| ≤ 2.1e-7 := by rw [abs_le]; constructor <;> norm_num at * <;> linarith
    have h3 : |m| * |1 - d| ≤ 1.0001 * 2.1e-7 :=
      mul_le_mul h1 h2 (abs_nonneg _) (by norm_num)
    have h4 : (3e-7 : ℚ) * 0.9999 ≤ 3e-7 * d := mul_le_mul_of_nonneg_left hd.le (by norm_num)
    norm_num at *
    linarith
  have hmd' := abs_le.1 hmd
  have b4 : |m / d| ≤ 2 := by rw [abs_le]; constructor <;> norm_num at * <;> linarith
  obtain ⟨g, i4, e4⟩ := is_div i2 i3 hd0.ne' (b4.trans (by norm_num))
  have e4 := abs_le.1 (e4.trans (ulpErr_small (b4.trans (by norm_num))))
  refine ⟨g, i4, ?_⟩
  rw [abs_le]
  constructor <;> norm_num at * <;> linarith

/-- One regular step of the clock. -/
theorem is_add_one {x : F64 L} {a : ℚ} (hx : Is x a) (h : |a| ≤ 1e9) :
    ∃ b, Is (x + 1) b ∧ |b - (a + 1)| ≤ 2e-7 := by
  have h1 : |a + 1| ≤ 1e9 + 1 := (abs_add_le a 1).trans (by rw [abs_one]; linarith)
  obtain ⟨b, h2, h3⟩ := is_add hx (is_one (L := L)) (h1.trans (by norm_num))
  exact ⟨b, h2, h3.trans ((ulpErr_le h1).trans (by norm_num))⟩

/-- The clock readings `P` a phase goes through: each regular step advances by at least `ρ`. -/
def Readings (L : Libm) (P : ℚ → Prop) (ρ τ : ℚ) : Prop :=
  ∀ (x : F64 L) (a : ℚ), Is x a → P a → a ≤ τ → ∃ b, Is (x + 1) b ∧ P b ∧ a + ρ ≤ b

/-- The outcome of a phase started at `r`. -/
def DoubleRun (p : Phase (F64 L)) (v : StateVariable) (P : ℚ → Prop) (t0 τ : ℚ)
    (r : Phase (F64 L)) (n : ℕ) : Prop :=
  ∃ ps q, ∃ res : Except Panic (Phase (F64 L)), Path r ps q ∧ ps.length ≤ n ∧
    ((res = .ok q ∧ q.ended = true ∧ ∃ w, (v.getValue q.state).Is w ∧
        (|w - τ| ≤ 1e-6 ∨ (P w ∧ |w - τ| < 1.001e-3))) ∨
      (∃ e a η, res = .error e ∧ (v.getValue q.state).Is a ∧ t0 ≤ a ∧ a ≤ τ ∧
        p.integrator.step p.system q.state η = .error e)) ∧
    (∀ r' ∈ ps, (∃ h, r'.stepsize.Is h) ∧
      ∃ b, (v.getValue r'.state).Is b ∧ |b| ≤ 1e9 + 1 ∧ b < τ + 1.001e-3 ∧
      (P b ∨ (r' = q ∧ |b - τ| ≤ 1e-6))) ∧
    ((q.ended = true ∧ res = .ok q) ∨ (q.ended = false ∧ ∃ e, q.step = .error e ∧ res = .error e))

theorem double_step {p : Phase (F64 L)} {v : StateVariable} (hv : IsTime v) {T : F64 L}
    {τ t0 ρ : ℚ} {P : ℚ → Prop} (hP : Readings L P ρ τ) (hρ : 0.99 ≤ ρ) (hT : T.Is τ)
    (hτ : τ ≤ 1e9) (ht0 : -1e9 ≤ t0) {r : Phase (F64 L)} {a : ℚ} (hsame : Phase.SameParams p r)
    (hc : p.endCriterion = (v, T)) (he : r.ended = false) (ht : r.endCriterionTries = 0)
    (hst : r.stepsize = 1) (hval : (v.getValue r.state).Is a) (hPa : P a) (hta : t0 ≤ a)
    (haT : a ≤ τ) :
    DoubleRun p v P t0 τ r 2 ∨
    ∃ s b, r.step = .ok { r with state := s } ∧ (v.getValue s).Is b ∧ P b ∧ a + ρ ≤ b ∧ b ≤ τ := by
  have hcr : r.endCriterion = (v, T) := by rw [hsame.endCriterion, hc]
  have hpo : ∀ {η : F64 L} {s s' : State (F64 L)}, OneStep r η s s' ↔ OneStep p η s s' :=
    hsame.oneStep
  norm_num at hτ ht0 hρ
  have haB : |a| ≤ 1e9 := by rw [abs_le]; constructor <;> norm_num <;> linarith
  obtain ⟨b, hb1, hPb, hab⟩ := hP _ a hval hPa haT
  obtain ⟨b', hb', hnear⟩ := is_add_one hval haB
  obtain rfl := Is.unique hb1 hb'
  have hn := abs_le.1 hnear
  norm_num at hn
  have hbB : |b - τ| ≤ 2 ^ 100 := by
    rw [abs_le]; constructor <;> norm_num at * <;> linarith
  rcases step_cases r he with ⟨r1, hr1⟩ | ⟨e, hr1, hbad⟩
  · obtain ⟨_, s, hs, hcase⟩ := Phase.step_ok hr1
    have hb : (v.getValue s).Is b := by rw [isTime_step hv hs, hst]; exact hb1
    rcases hcase with ⟨hm, rfl⟩ | ⟨hm, ho, _, hr1'⟩ | ⟨hm, ho, rfl⟩
    · left
      rw [hcr] at hm
      have hm' := close_of_met hb hT hbB hm
      have hm2 := abs_lt.1 hm'
      refine ⟨[_], _, .ok _, .cons he hr1 (.nil _), by simp, .inl ⟨rfl, rfl, b, hb, .inr ⟨hPb, hm'⟩⟩,
        ?_, .inl ⟨rfl, rfl⟩⟩
      intro r' hr'
      rw [List.mem_singleton] at hr'
      subst hr'
      refine ⟨⟨1, by rw [show (Phase.stepsize _ : F64 L) = 1 from hst]; exact is_one⟩, b, hb, ?_,
        by linarith [hm2.2], .inl hPb⟩
      rw [abs_le]; constructor <;> norm_num at * <;> linarith
    · left
      rw [hcr, overshot_is hval hb hT] at ho
      have hτb : τ < b := by
        rcases ho with h | h
        · exact absurd h.1 (by linarith)
        · exact h.2
      obtain ⟨g, hg, hg'⟩ := timeToGo_is hcr hst hval hb hT haT hτb.le hnear
      have he1 : r1.ended = false := by rw [hr1']; exact he
      have hst1 : r1.stepsize = r.timeToGo r.state s := by rw [hr1']
      have hs1 : r1.state = r.state := by rw [hr1']
      have hcr1 : r1.endCriterion = (v, T) := by rw [hr1']; exact hcr
      have hsame1 := hsame.trans (Phase.step_sameParams hr1)
      have hmet1 : ∀ s', OneStep r1 r1.stepsize r1.state s' → Met r1.endCriterion s' ∧
          ∃ w, (v.getValue s').Is w ∧ |w - τ| ≤ 1e-6 := by
        intro s' hs'
        have hv' := isTime_step hv hs'
        rw [hst1, hs1] at hv'
        have hg2 := abs_le.1 hg'
        norm_num at hg2
        have hag : |a + g| ≤ 1e9 + 1 := by
          rw [abs_le]; constructor <;> norm_num <;> linarith
        obtain ⟨w, hw, hw'⟩ := is_add hval hg (hag.trans (by norm_num))
        have hw2 := abs_le.1 (hw'.trans (ulpErr_le hag))
        rw [← hv'] at hw
        have hfin : |w - τ| ≤ 1e-6 := by
          rw [abs_le]; constructor <;> norm_num at * <;> linarith
        refine ⟨?_, w, hw, hfin⟩
        rw [hcr1]
        exact met_of_close hw hT (hfin.trans (by norm_num))
      have hg1 : ∃ h, r1.stepsize.Is h := ⟨g, by rw [hst1]; exact hg⟩
      have hrow : ∃ b, (v.getValue r1.state).Is b ∧ |b| ≤ 1e9 + 1 ∧ b < τ + 1.001e-3 ∧ P b := by
        refine ⟨a, by rw [hs1]; exact hval, haB.trans (by norm_num), ?_, hPa⟩
        norm_num; linarith
      rcases step_cases r1 he1 with ⟨r2, hr2⟩ | ⟨e, hr2, hbad⟩
      · obtain ⟨_, s', hs', hcase⟩ := Phase.step_ok hr2
        obtain ⟨hm', w, hw, hw'⟩ := hmet1 s' hs'
        rcases hcase with ⟨_, rfl⟩ | ⟨hm2, _⟩ | ⟨hm2, _⟩
        · refine ⟨[r1, _], _, .ok _, .cons he hr1 (.cons he1 hr2 (.nil _)), by simp,
            .inl ⟨rfl, rfl, w, hw, .inl hw'⟩, ?_, .inl ⟨rfl, rfl⟩⟩
          intro r' hr'
          rcases List.mem_cons.1 hr' with rfl | hr'
          · obtain ⟨c, h1, h2, h3, h4⟩ := hrow
            exact ⟨hg1, c, h1, h2, h3, .inl h4⟩
          · rw [List.mem_singleton] at hr'
            subst hr'
            have hw2 := abs_le.1 hw'
            refine ⟨hg1, w, hw, ?_, ?_, .inr ⟨rfl, hw'⟩⟩
            · rw [abs_le]; constructor <;> norm_num at * <;> linarith
            · norm_num at *; linarith
        · exact absurd hm' hm2
        · exact absurd hm' hm2
      · refine ⟨[r1], r1, .error e, .cons he hr1 (.nil _), by simp, ?_, ?_,
          .inr ⟨he1, e, hr2, rfl⟩⟩
        · rcases hbad with hs' | ⟨⟨s', hs', hm', _⟩, _⟩
          · rw [hsame1.system, hsame1.integrator] at hs'
            exact .inr ⟨e, a, _, rfl, by rw [hs1]; exact hval, hta, haT, hs'⟩
          · exact absurd (hmet1 s' hs').1 hm'
        · intro r' hr'
          rw [List.mem_singleton] at hr'
          subst hr'
          obtain ⟨c, h1, h2, h3, h4⟩ := hrow
          exact ⟨hg1, c, h1, h2, h3, .inl h4⟩
    · right
      refine ⟨s, b, hr1, hb, hPb, hab, ?_⟩
      rw [hcr, overshot_is hval hb hT] at ho
      push Not at ho
      exact ho.2 (by linarith)
  · left
    refine ⟨[], r, .error e, .nil _, by simp, ?_, by simp, .inr ⟨he, e, hr1, rfl⟩⟩
    rcases hbad with hs' | ⟨_, h20⟩
    · rw [hsame.system, hsame.integrator] at hs'
      exact .inr ⟨e, a, _, rfl, hval, hta, haT, hs'⟩
    · omega

theorem double_loop {p : Phase (F64 L)} {v : StateVariable} (hv : IsTime v) {T : F64 L}
    {τ t0 ρ : ℚ} {P : ℚ → Prop} (hP : Readings L P ρ τ) (hρ : 0.99 ≤ ρ) (hT : T.Is τ)
    (hτ : τ ≤ 1e9) (ht0 : -1e9 ≤ t0) (hc : p.endCriterion = (v, T)) (n : ℕ) :
    ∀ {r : Phase (F64 L)} {a : ℚ}, Phase.SameParams p r → r.ended = false →
      r.endCriterionTries = 0 → r.stepsize = 1 → (v.getValue r.state).Is a → P a → t0 ≤ a →
      a ≤ τ → τ - a < (n + 1) * ρ → DoubleRun p v P t0 τ r (n + 2) := by
  have hρ' : 0.99 ≤ ρ := hρ
  norm_num at hρ'
  induction n with
  | zero =>
    intro r a hsame he ht hst hval hPa hta haT hn
    rcases double_step hv hP hρ hT hτ ht0 hsame hc he ht hst hval hPa hta haT with
      h | ⟨s, b, _, _, _, h1, h2⟩
    · exact h
    · push_cast at hn; linarith
  | succ n ih =>
    intro r a hsame he ht hst hval hPa hta haT hn
    rcases double_step hv hP hρ hT hτ ht0 hsame hc he ht hst hval hPa hta haT with
      h | ⟨s, b, hs, hb, hPb, h1, h2⟩
    · obtain ⟨ps, q, res, h1, h2, h3⟩ := h
      exact ⟨ps, q, res, h1, by omega, h3⟩
    · obtain ⟨ps, q, res, k1, k2, k3, k4, k5⟩ := ih (r := { r with state := s })
        (hsame.trans (Phase.step_sameParams hs)) he ht hst hb hPb (by linarith) h2
        (by push_cast at hn; linarith)
      refine ⟨_ :: ps, q, res, .cons he hs k1, by simp; omega, k3, ?_, k5⟩
      intro r' hr'
      rcases List.mem_cons.1 hr' with rfl | hr'
      · refine ⟨⟨1, by rw [show (Phase.stepsize _ : F64 L) = 1 from hst]; exact is_one⟩, b, hb, ?_, ?_,
          .inl hPb⟩
        · rw [abs_le]; constructor <;> norm_num at * <;> linarith
        · norm_num; linarith
      · exact k4 r' hr'

/-- The run of a phase started with clock reading `t0`. -/
theorem double_run {p : Phase (F64 L)} {v : StateVariable} (hv : IsTime v) {T : F64 L}
    {τ t0 ρ : ℚ} {P : ℚ → Prop} (hP : Readings L P ρ τ) (hρ : 0.99 ≤ ρ) (hT : T.Is τ)
    (hτ : τ ≤ 1e9) (ht0 : -1e9 ≤ t0) (hc : p.endCriterion = (v, T))
    (he : p.ended = false) (ht : p.endCriterionTries = 0) (hst : p.stepsize = 1)
    (hval : (v.getValue p.state).Is t0) (hP0 : P t0) (hle : t0 ≤ τ) (n : ℕ)
    (hn : τ - t0 < (n + 1) * ρ) :
    ∃ fuel rows res, p.run fuel = some ⟨rows, res⟩ ∧ rows.length ≤ n + 2 ∧
      ((∃ q w, res = .ok q ∧ (v.getValue q.state).Is w ∧
          (|w - τ| ≤ 1e-6 ∨ (P w ∧ |w - τ| < 1.001e-3))) ∨
        ∃ e, res = .error e ∧ FailsUnderWay p v t0 τ e) ∧
      ∀ s0, p.system p.state = .ok s0 →
        ∃ ps q, Path { p with state := s0 } ps q ∧ rows = ps.map (·.state.row) ∧
          ∀ r ∈ ps, (∃ h, r.stepsize.Is h) ∧ ∃ b, (v.getValue r.state).Is b ∧ b < τ + 1.001e-3 ∧
            (P b ∨ (r = q ∧ |b - τ| ≤ 1e-6)) := by
  cases h0 : p.system p.state with
  | error e =>
    refine ⟨0, [], .error e, by simp [Phase.run, h0], by simp, .inr ⟨e, rfl, .inl h0⟩, ?_⟩
    intro s0 hs0; cases hs0
  | ok s0 =>
    have hprim := Phase.system_primary h0
    have hv0 : (v.getValue s0).Is t0 := by
      have : v.getValue s0 = v.getValue p.state := by
        rcases hv with rfl | rfl
        · exact hprim.1
        · exact hprim.2.1
      rw [this]; exact hval
    have hsp : Phase.SameParams p { p with state := s0 } := ⟨rfl, rfl, rfl, rfl, rfl, rfl, rfl, rfl, rfl⟩
    obtain ⟨ps, q, res, h1, h2, h3, h4, h6⟩ := double_loop (p := p) hv hP hρ hT hτ ht0 hc n
      (r := { p with state := s0 }) hsp he ht hst hv0 hP0 (le_refl _) hle hn
    have hrun : ∃ fuel, p.run fuel = some ⟨ps.map (·.state.row), res⟩ := by
      rcases h6 with ⟨hq, rfl⟩ | ⟨hq, e, hqs, rfl⟩
      · exact ⟨ps.length, by simp only [Phase.run, h0]; exact Phase.loop_of_path h1 hq (le_refl _)⟩
      · exact ⟨ps.length + 1, by
          simp only [Phase.run, h0]; exact Phase.loop_of_path_error h1 hq hqs (by omega)⟩
    obtain ⟨fuel, hrun⟩ := hrun
    refine ⟨fuel, _, res, hrun, by simpa using h2, ?_, ?_⟩
    · rcases h3 with ⟨hq, _, w, hw, hw'⟩ | ⟨e, a, η, rfl, h7, h8, h9, h10⟩
      · exact .inl ⟨q, w, hq, hw, hw'⟩
      · refine .inr ⟨e, rfl, .inr ⟨q.state, a, η, ⟨s0, ps, q, h0, h1, ?_⟩, h7, h8, h9, h10⟩⟩
        rcases path_last h1 with ⟨h, _⟩ | h
        · exact .inl (by rw [h])
        · exact .inr ⟨q, h, rfl⟩
    · intro s0' hs0'
      injection hs0' with hs0'
      subst hs0'
      refine ⟨ps, q, h1, rfl, fun r hr => ?_⟩
      obtain ⟨k0, b, k1, _, k2, k3⟩ := h4 r hr
      exact ⟨k0, b, k1, k2, k3⟩

/-- C65.  In double precision, with any C library: take a phase whose end criterion is a time `T`
of value `τ`, not before the clock reading `t0` of its start, both at most 1e9 seconds from zero.
The phase terminates after at most `1.000001 (τ - t0) + 2` rows.  The final clock reading is
within 1.001e-3 of the target (the tolerance 1e-3 of the program, and rounding), unless the
equations of motion fail on the way. No row is later than that. -/
theorem C65_time_targets {p : Phase (F64 L)} {v : StateVariable} (hv : IsTime v) {T : F64 L}
    {τ t0 : ℚ} (hT : T.Is τ) (hτ : τ ≤ 1e9) (ht0 : -1e9 ≤ t0) (hle : t0 ≤ τ)
    (hc : p.endCriterion = (v, T)) (hval : (v.getValue p.state).Is t0)
    (he : p.ended = false) (ht : p.endCriterionTries = 0) (hst : p.stepsize = 1) :
    ∃ fuel rows res, p.run fuel = some ⟨rows, res⟩ ∧
      (rows.length : ℚ) ≤ 1.000001 * (τ - t0) + 2 ∧
      ((∃ q w, res = .ok q ∧ (v.getValue q.state).Is w ∧ |w - τ| < 1.001e-3) ∨
        ∃ e, res = .error e ∧ FailsUnderWay p v t0 τ e) ∧
      ∀ s0, p.system p.state = .ok s0 →
        ∃ ps q, Path { p with state := s0 } ps q ∧ rows = ps.map (·.state.row) ∧
          ∀ r ∈ ps, ∃ b, (v.getValue r.state).Is b ∧ b < τ + 1.001e-3 := by
  have hread : Readings L (fun a => -1e9 ≤ a) (1 - 2e-7) τ := by
    intro x a hx ha haτ
    obtain ⟨b, h1, h2⟩ := is_add_one hx (a := a) (by
      rw [abs_le]; constructor <;> norm_num at * <;> linarith)
    have h3 := abs_le.1 h2
    refine ⟨b, h1, ?_, ?_⟩ <;> norm_num at * <;> linarith
  obtain ⟨n, hn, hn'⟩ : ∃ n : ℕ, (n : ℚ) * (1 - 2e-7) ≤ τ - t0 ∧ τ - t0 < (n + 1) * (1 - 2e-7) := by
    have hpos : (0 : ℚ) < 1 - 2e-7 := by norm_num
    refine ⟨⌊(τ - t0) / (1 - 2e-7)⌋₊, ?_, ?_⟩
    · rw [← le_div_iff₀ hpos]
      exact Nat.floor_le (div_nonneg (by linarith) hpos.le)
    · rw [← div_lt_iff₀ hpos]
      exact Nat.lt_floor_add_one _
  obtain ⟨fuel, rows, res, h1, h2, h3, h4⟩ := double_run hv hread (by norm_num) hT hτ ht0 hc he ht
    hst hval ht0 hle n hn'
  refine ⟨fuel, rows, res, h1, ?_, ?_, ?_⟩
  · have h5 : (rows.length : ℚ) ≤ n + 2 := by exact_mod_cast h2
    have h6 : (n : ℚ) ≤ 1.000001 * (τ - t0) := by
      have h7 : (n : ℚ) * (1 - 2e-7) * 1.000001 ≤ (τ - t0) * 1.000001 :=
        mul_le_mul_of_nonneg_right hn (by norm_num)
      have h8 : (n : ℚ) * 1 ≤ n * ((1 - 2e-7) * 1.000001) :=
        mul_le_mul_of_nonneg_left (by norm_num) (by positivity)
      linarith
    linarith
  · rcases h3 with ⟨q, w, k1, k2, k3⟩ | h
    · refine .inl ⟨q, w, k1, k2, ?_⟩
      rcases k3 with k3 | k3
      · exact lt_of_le_of_lt k3 (by norm_num)
      · exact k3.2
    · exact .inr h
  · intro s0 hs0
    obtain ⟨ps, q, k1, k2, k3⟩ := h4 s0 hs0
    refine ⟨ps, q, k1, k2, fun r hr => ?_⟩
    obtain ⟨_, b, j1, j2, _⟩ := k3 r hr
    exact ⟨b, j1, j2⟩

/-- C65.  If the clock starts at a whole number of seconds, it does not drift: every row but
possibly the last is at a whole number of seconds, all step sizes are finite, and at most two rows
more are printed than there are whole seconds until the target.  The phase ends within 1e-6 of the target, or at a whole
second within the tolerance of it. -/
theorem C65_no_drift {p : Phase (F64 L)} {v : StateVariable} (hv : IsTime v) {T : F64 L}
    {τ : ℚ} {m : ℕ} (hT : T.Is τ) (hτ : τ ≤ 1e9) (hle : m ≤ τ)
    (hc : p.endCriterion = (v, T)) (hval : (v.getValue p.state).Is m)
    (he : p.ended = false) (ht : p.endCriterionTries = 0) (hst : p.stepsize = 1) :
    ∃ fuel rows res, p.run fuel = some ⟨rows, res⟩ ∧
      rows.length ≤ ⌊τ - m⌋₊ + 2 ∧
      ((∃ q w, res = .ok q ∧ (v.getValue q.state).Is w ∧
          (|w - τ| ≤ 1e-6 ∨ (|w - τ| < 1.001e-3 ∧ ∃ k : ℕ, w = k))) ∨
        ∃ e, res = .error e ∧ FailsUnderWay p v m τ e) ∧
      ∀ s0, p.system p.state = .ok s0 →
        ∃ ps q, Path { p with state := s0 } ps q ∧ rows = ps.map (·.state.row) ∧
          ∀ r ∈ ps, (∃ h, r.stepsize.Is h) ∧
            ((∃ k : ℕ, (v.getValue r.state).Is k ∧ m ≤ k ∧ (k : ℚ) < τ + 1.001e-3) ∨
            (r = q ∧ ∃ w, (v.getValue r.state).Is w ∧ |w - τ| ≤ 1e-6)) := by
  have hread : Readings L (fun a => ∃ k : ℕ, a = k ∧ m ≤ k) 1 τ := by
    rintro x a hx ⟨k, rfl, hk⟩ haτ
    refine ⟨((k + 1 : ℕ) : ℚ), ?_, ⟨k + 1, rfl, by omega⟩, by push_cast; exact le_refl _⟩
    have h1 : (k : ℚ) < 2 ^ 52 := lt_of_le_of_lt (haτ.trans hτ) (by norm_num)
    have h2 : k < 2 ^ 52 := by exact_mod_cast h1
    exact is_add_nat hx (by simpa using is_one (L := L)) (by omega)
  have hm : (-1e9 : ℚ) ≤ m := by
    have : (0 : ℚ) ≤ m := by positivity
    norm_num; linarith
  obtain ⟨fuel, rows, res, h1, h2, h3, h4⟩ := double_run hv hread (by norm_num) hT hτ hm hc he ht
    hst hval ⟨m, rfl, le_refl _⟩ hle ⌊τ - m⌋₊ (by rw [mul_one]; exact Nat.lt_floor_add_one _)
  refine ⟨fuel, rows, res, h1, h2, ?_, ?_⟩
  · rcases h3 with ⟨q, w, k1, k2, k3⟩ | h
    · refine .inl ⟨q, w, k1, k2, ?_⟩
      rcases k3 with k3 | ⟨⟨k, hk, _⟩, k4⟩
      · exact .inl k3
      · exact .inr ⟨k4, k, hk⟩
    · exact .inr h
  · intro s0 hs0
    obtain ⟨ps, q, k1, k2, k3⟩ := h4 s0 hs0
    refine ⟨ps, q, k1, k2, fun r hr => ?_⟩
    obtain ⟨j0, b, j1, j2, ⟨k, rfl, hk⟩ | ⟨j3, j4⟩⟩ := k3 r hr
    · exact ⟨j0, .inl ⟨k, j1, hk, j2⟩⟩
    · exact ⟨j0, .inr ⟨j3, b, j1, j4⟩⟩

/-- From a whole second `a`, the phase goes to the whole second `a + n + 1` in `n + 1` steps. -/
theorem whole_loop {p : Phase (F64 L)} {v : StateVariable} (hv : IsTime v) {T : F64 L} {m : ℕ}
    (hc : p.endCriterion = (v, T)) (n : ℕ) :
    ∀ {r : Phase (F64 L)} {a : ℕ}, T.Is ((a + n + 1 : ℕ) : ℚ) → a + n + 1 < 2 ^ 53 →
      Phase.SameParams p r → r.ended = false → r.endCriterionTries = 0 → r.stepsize = 1 →
      (v.getValue r.state).Is a → m ≤ a →
      ∃ ps q, ∃ res : Except Panic (Phase (F64 L)), Path r ps q ∧ ps.length ≤ n + 1 ∧
        (∀ (i : ℕ) r', ps[i]? = some r' → (v.getValue r'.state).Is ((a + i + 1 : ℕ) : ℚ)) ∧
        ((q.ended = true ∧ res = .ok q ∧ ps.length = n + 1 ∧
            (v.getValue q.state).Is ((a + n + 1 : ℕ) : ℚ)) ∨
          (q.ended = false ∧ ∃ e b η, q.step = .error e ∧ res = .error e ∧
            (v.getValue q.state).Is b ∧ (m : ℚ) ≤ b ∧ b ≤ ((a + n + 1 : ℕ) : ℚ) ∧
            p.integrator.step p.system q.state η = .error e)) := by
  induction n with
  | zero =>
    intro r a hT hlt hsame he ht hst hval hma
    have hcr : r.endCriterion = (v, T) := by rw [hsame.endCriterion, hc]
    have hmet : ∀ s, OneStep r r.stepsize r.state s →
        Met r.endCriterion s ∧ (v.getValue s).Is ((a + 1 : ℕ) : ℚ) := by
      intro s hs
      have hb : (v.getValue s).Is ((a + 1 : ℕ) : ℚ) := by
        rw [isTime_step hv hs, hst]
        exact is_add_nat hval (by simpa using is_one (L := L)) (by omega)
      refine ⟨?_, hb⟩
      rw [hcr]
      exact met_of_close hb hT (by simp; norm_num)
    rcases step_cases r he with ⟨r1, hr1⟩ | ⟨e, hr1, hbad⟩
    · obtain ⟨_, s, hs, hcase⟩ := Phase.step_ok hr1
      obtain ⟨hm, hb⟩ := hmet s hs
      rcases hcase with ⟨_, rfl⟩ | ⟨h, _⟩ | ⟨h, _⟩
      · refine ⟨[_], _, .ok _, .cons he hr1 (.nil _), by simp, ?_, .inl ⟨rfl, rfl, rfl, hb⟩⟩
        intro i r' hi
        rcases i with _ | i
        · simp only [List.getElem?_cons_zero, Option.some.injEq] at hi
          subst hi
          exact hb
        · simp at hi
      · exact absurd hm h
      · exact absurd hm h
    · refine ⟨[], r, .error e, .nil _, by simp, by simp, .inr ⟨he, e, a, ?_⟩⟩
      rcases hbad with hs' | ⟨⟨s, hs, hm, _⟩, _⟩
      · rw [hsame.system, hsame.integrator] at hs'
        exact ⟨_, hr1, rfl, hval, by exact_mod_cast hma, by exact_mod_cast (by omega), hs'⟩
      · exact absurd (hmet s hs).1 hm
  | succ n ih =>
    intro r a hT hlt hsame he ht hst hval hma
    have hcr : r.endCriterion = (v, T) := by rw [hsame.endCriterion, hc]
    have hgo : ∀ s, OneStep r r.stepsize r.state s → ¬ Met r.endCriterion s ∧
        ¬ Overshot r.endCriterion r.state s ∧ (v.getValue s).Is ((a + 1 : ℕ) : ℚ) := by
      intro s hs
      have hb : (v.getValue s).Is ((a + 1 : ℕ) : ℚ) := by
        rw [isTime_step hv hs, hst]
        exact is_add_nat hval (by simpa using is_one (L := L)) (by omega)
      have hlt' : ((a + 1 : ℕ) : ℚ) + 1 ≤ ((a + (n + 1) + 1 : ℕ) : ℚ) := by
        exact_mod_cast (by omega)
      have hbig : ((a + (n + 1) + 1 : ℕ) : ℚ) ≤ 2 ^ 53 := by exact_mod_cast hlt.le
      have hnn : (0 : ℚ) ≤ ((a + 1 : ℕ) : ℚ) := by positivity
      refine ⟨?_, ?_, hb⟩
      · rw [hcr]
        intro hm
        have h1 := close_of_met hb hT (by
          rw [abs_le]
          have : (2 : ℚ) ^ 53 ≤ 2 ^ 100 := by norm_num
          constructor <;> linarith) hm
        have h2 := (abs_lt.1 h1).1
        norm_num at h2 hlt'
        linarith
      · rw [hcr, overshot_is hval hb hT]
        rintro (⟨h1, _⟩ | ⟨_, h1⟩)
        · have : ((a + 1 : ℕ) : ℚ) = a + 1 := by push_cast; ring
          linarith
        · linarith
    rcases step_cases r he with ⟨r1, hr1⟩ | ⟨e, hr1, hbad⟩
    · obtain ⟨_, s, hs, hcase⟩ := Phase.step_ok hr1
      obtain ⟨hm, ho, hb⟩ := hgo s hs
      rcases hcase with ⟨h, _⟩ | ⟨_, h, _⟩ | ⟨_, _, rfl⟩
      · exact absurd h hm
      · exact absurd h ho
      · have harg : a + 1 + n + 1 = a + (n + 1) + 1 := by omega
        obtain ⟨ps, q, res, h1, hlen, h2, h3⟩ := ih (r := { r with state := s }) (a := a + 1)
          (by rw [harg]; exact hT) (by omega) (hsame.trans (Phase.step_sameParams hr1)) he ht hst hb
          (by omega)
        refine ⟨_ :: ps, q, res, .cons he hr1 h1, by simpa using hlen, ?_, ?_⟩
        · intro i r' hi
          rcases i with _ | i
          · simp only [List.getElem?_cons_zero, Option.some.injEq] at hi
            subst hi
            exact hb
          · simp only [List.getElem?_cons_succ] at hi
            have := h2 i r' hi
            rwa [show a + 1 + i + 1 = a + (i + 1) + 1 by omega] at this
        · rw [harg] at h3
          rcases h3 with ⟨k1, k2, k3, k4⟩ | h3
          · exact .inl ⟨k1, k2, by simp [k3], k4⟩
          · exact .inr h3
    · refine ⟨[], r, .error e, .nil _, by simp, by simp, .inr ⟨he, e, a, ?_⟩⟩
      rcases hbad with hs' | ⟨⟨s, hs, _, ho⟩, _⟩
      · rw [hsame.system, hsame.integrator] at hs'
        exact ⟨_, hr1, rfl, hval, by exact_mod_cast hma, by exact_mod_cast (by omega), hs'⟩
      · exact absurd ho (hgo s hs).2.1

/-- C65.  A phase that starts at the whole second `m` and ends `n ≥ 1` seconds later, at a time
below `2^53`, takes exactly `n` steps.  The states after them have the clock readings `m + 1`,
`m + 2`, …, `m + n`, exactly; unless the equations of motion fail on the way (then there are no
more than `n` of them). -/
theorem C65_whole_seconds {p : Phase (F64 L)} {v : StateVariable} (hv : IsTime v) {T : F64 L}
    {m n : ℕ} (hn : 0 < n) (hmax : m + n < 2 ^ 53) (hT : T.Is ((m + n : ℕ) : ℚ))
    (hc : p.endCriterion = (v, T)) (hval : (v.getValue p.state).Is m)
    (he : p.ended = false) (ht : p.endCriterionTries = 0) (hst : p.stepsize = 1) :
    ∃ fuel rows res, p.run fuel = some ⟨rows, res⟩ ∧ rows.length ≤ n ∧
      ((∃ q, res = .ok q ∧ rows.length = n ∧ (v.getValue q.state).Is ((m + n : ℕ) : ℚ)) ∨
        ∃ e, res = .error e ∧ FailsUnderWay p v m (m + n) e) ∧
      ∀ s0, p.system p.state = .ok s0 →
        ∃ ps q, Path { p with state := s0 } ps q ∧ rows = ps.map (·.state.row) ∧
          ∀ (i : ℕ) r, ps[i]? = some r → (v.getValue r.state).Is ((m + i + 1 : ℕ) : ℚ) := by
  obtain ⟨n, rfl⟩ : ∃ k, n = k + 1 := ⟨n - 1, by omega⟩
  cases h0 : p.system p.state with
  | error e =>
    refine ⟨0, [], .error e, by simp [Phase.run, h0], by simp, .inr ⟨e, rfl, .inl h0⟩, ?_⟩
    intro s0 hs0; cases hs0
  | ok s0 =>
    have hprim := Phase.system_primary h0
    have hv0 : (v.getValue s0).Is m := by
      have : v.getValue s0 = v.getValue p.state := by
        rcases hv with rfl | rfl
        · exact hprim.1
        · exact hprim.2.1
      rw [this]; exact hval
    have hsp : Phase.SameParams p { p with state := s0 } := ⟨rfl, rfl, rfl, rfl, rfl, rfl, rfl, rfl, rfl⟩
    obtain ⟨ps, q, res, h1, hlen, h2, h3⟩ := whole_loop (p := p) (m := m) hv hc n
      (r := { p with state := s0 }) (a := m) (by rw [add_assoc]; exact hT) (by omega) hsp he ht hst hv0
      (le_refl _)
    have hrun : ∃ fuel, p.run fuel = some ⟨ps.map (·.state.row), res⟩ := by
      rcases h3 with ⟨hq, rfl, _⟩ | ⟨hq, e, b, η, hqs, rfl, _⟩
      · exact ⟨ps.length, by simp only [Phase.run, h0]; exact Phase.loop_of_path h1 hq (le_refl _)⟩
      · exact ⟨ps.length + 1, by
          simp only [Phase.run, h0]; exact Phase.loop_of_path_error h1 hq hqs (by omega)⟩
    obtain ⟨fuel, hrun⟩ := hrun
    refine ⟨fuel, _, res, hrun, by simpa using hlen, ?_, ?_⟩
    · rcases h3 with ⟨_, hq, hl, hw⟩ | ⟨_, e, b, η, _, rfl, k1, k2, k3, k4⟩
      · exact .inl ⟨q, hq, by simp [hl], hw⟩
      · refine .inr ⟨e, rfl, .inr ⟨q.state, b, η, ⟨s0, ps, q, h0, h1, ?_⟩, k1, k2, ?_, k4⟩⟩
        · rcases path_last h1 with ⟨h, _⟩ | h
          · exact .inl (by rw [h])
          · exact .inr ⟨q, h, rfl⟩
        · push_cast at k3 ⊢
          linarith
    · intro s0' hs0'
      injection hs0' with hs0'
      subst hs0'
      exact ⟨ps, q, h1, rfl, h2⟩

/-! ### Configured phases and unpowered flight -/

/-- C65 for configured phases.  A phase of any simulation whose end criterion is
`time_since_event`, with a target between 0 and 1e9 seconds, terminates after at most `⌊τ⌋ + 2`
rows, within 1e-6 of the target, or at a whole second within the tolerance of it, unless the
equations of motion fail. -/
theorem C65_configured {cs : List (PhaseConfig (F64 L))} {c : PhaseConfig (F64 L)}
    {p : Phase (F64 L)} (hr : Ready cs c p) {T : F64 L} {τ : ℚ} (hT : T.Is τ) (h0 : 0 ≤ τ)
    (hτ : τ ≤ 1e9) (hc : p.endCriterion = (.timeSinceEvent, T)) :
    ∃ fuel rows res, p.run fuel = some ⟨rows, res⟩ ∧ rows.length ≤ ⌊τ⌋₊ + 2 ∧
      ((∃ q w, res = .ok q ∧ q.state.timeSinceEvent.Is w ∧
          (|w - τ| ≤ 1e-6 ∨ (|w - τ| < 1.001e-3 ∧ ∃ k : ℕ, w = k))) ∨
        ∃ e, res = .error e ∧ FailsUnderWay p .timeSinceEvent 0 τ e) := by
  have hst := C09_initial_stepsize_one_partial hr
  have hbase : p.ended = false ∧ p.endCriterionTries = 0 ∧ p.state.timeSinceEvent = 0 := by
    obtain ⟨log, prev, p', _, _, rfl⟩ := hr
    exact ⟨rfl, rfl, rfl⟩
  obtain ⟨fuel, rows, res, h1, h2, h3, _⟩ := C65_no_drift (p := p) (m := 0) (.inr rfl) hT hτ
    (by simpa using h0) hc
    (by rw [Nat.cast_zero]; show Is p.state.timeSinceEvent 0; rw [hbase.2.2]; exact is_zero)
    hbase.1 hbase.2.1 hst
  rw [Nat.cast_zero] at h3
  exact ⟨fuel, rows, res, h1, by simpa using h2, h3⟩

theorem lt_inf (x : F64 L) : Flt.lt (Flt.inf : F64 L) x = false := by
  show Dbl.lt (.inf false) x.dbl = false
  cases x.dbl <;> rfl

/-- Without engines and without acceleration limit the equations of motion never fail in double
precision, whatever the state, even if it contains NaN. -/
theorem coasting_system {p : Phase (F64 L)} (hlim : p.maxAcceleration = Flt.inf)
    (hE : p.vehicle.engines = []) (ht : p.vehicle.TablesOk) (s : State (F64 L)) :
    ∃ s', p.system s = .ok s' := by
  obtain ⟨aero, ha⟩ := Vehicle.aeroForce_ok ht (p.systemPre s)
  unfold Phase.system
  simp only [ha, bind, Except.bind]
  have h1 : (p.systemForces (p.systemPre s) aero).throttle = 1 := by
    show p.vehicle.autoThrottle p.maxAcceleration (p.systemPre s).mass (p.systemPre s).pressure
      aero = _
    unfold Vehicle.autoThrottle Vehicle.thrustForce
    rw [hE, List.map_nil]
    have h0 : V3.beq (V3.smul (1 : F64 L) (V3.sum [])) .zero = true := by
      show ((Dbl.eq (Dbl.mul (.round false _) (.round false _)) (.round false _) &&
        Dbl.eq (Dbl.mul (.round false _) (.round false _)) (.round false _)) &&
        Dbl.eq (Dbl.mul (.round false _) (.round false _)) (.round false _)) = true
      decide +kernel
    simp only [h0, if_true]
  have h2 : p.exceedsLimit (p.systemForces (p.systemPre s) aero) = false := by
    unfold Phase.exceedsLimit
    have h3 : p.maxAcceleration * 1.001 = (Flt.inf : F64 L) := by
      rw [hlim]
      show (⟨Dbl.mul (.inf false) (.round false _)⟩ : F64 L) = ⟨.inf false⟩
      congr 1
      decide +kernel
    rw [h3, h1, Bool.or_eq_false_iff]
    refine ⟨lt_inf _, ?_⟩
    unfold Flt.isNan
    rw [LawfulFlt.one_nonNan]; rfl
  rw [h2]
  exact ⟨_, rfl⟩

/-- C65 (coasting).  An unpowered phase of any simulation without acceleration limit, configured
to last `τ` seconds, always ends normally, within 1.001e-3 of its target, in double precision. -/
theorem C65_coasting {cs : List (PhaseConfig (F64 L))} {c : PhaseConfig (F64 L)}
    {p : Phase (F64 L)} (hr : Ready cs c p) {T : F64 L} {τ : ℚ} (hT : T.Is τ) (h0 : 0 ≤ τ)
    (hτ : τ ≤ 1e9) (hc : p.endCriterion = (.timeSinceEvent, T))
    (hlim : p.maxAcceleration = Flt.inf) (hE : p.vehicle.engines = [])
    (ht : ∀ c' ∈ cs ++ [c], ∀ t ∈ tablesOf c', WellFormed t) :
    ∃ fuel rows q w, p.run fuel = some ⟨rows, .ok q⟩ ∧ rows.length ≤ ⌊τ⌋₊ + 2 ∧
      q.state.timeSinceEvent.Is w ∧ |w - τ| < 1.001e-3 := by
  have htab := ready_tablesOk hr ht
  obtain ⟨fuel, rows, res, h1, h2, h3⟩ := C65_configured hr hT h0 hτ hc
  rcases h3 with ⟨q, w, rfl, h4, h5⟩ | ⟨e, rfl, h3⟩
  · refine ⟨fuel, rows, q, w, h1, h2, h4, ?_⟩
    rcases h5 with h5 | h5
    · exact lt_of_le_of_lt h5 (by norm_num)
    · exact h5.1
  · exfalso
    rcases h3 with h3 | ⟨s, a, η, _, _, _, _, h3⟩
    · obtain ⟨s', hs'⟩ := coasting_system hlim hE htab p.state
      rw [hs'] at h3; cases h3
    · obtain ⟨s1, hs1⟩ := Integrator.step_error h3
      obtain ⟨s', hs'⟩ := coasting_system hlim hE htab s1
      rw [hs'] at hs1; cases hs1

/-- Coast for 2.5 seconds from 45 degrees north, 10 degrees east. -/
def exampleCoast : PhaseConfig (F64 L) :=
  { PhaseConfig.empty with
    init := some ⟨45, 10, 90, 0⟩
    vehicle := some ⟨some 1000, none, none, none, none, none, none⟩
    endCriterion := some (.timeSinceEvent, 2.5) }

/-- The hypotheses are met: the example runs in double precision with any library. -/
example : ∃ fuel rows q w, ((Phase.default.applyConfig (exampleCoast (L := L))).init
    ⟨45, 10, 90, 0⟩).reset.run fuel = some ⟨rows, .ok q⟩ ∧ rows.length ≤ 4 ∧
      q.state.timeSinceEvent.Is w ∧ |w - 5 / 2| < 1.001e-3 := by
  have hr : Ready [] (exampleCoast (L := L)) ((Phase.default.applyConfig exampleCoast).init
      ⟨45, 10, 90, 0⟩).reset := ⟨_, none, _, .nil _ _, rfl, rfl⟩
  have hT : (2.5 : F64 L).Is (5 / 2) := by
    refine ⟨false, 5 / 2, ?_, rfl, by norm_num⟩
    show Dbl.round false _ = _
    decide +kernel
  have h := C65_coasting hr hT (by norm_num) (by norm_num) rfl rfl rfl (by
    intro c' hc' t ht
    simp only [List.nil_append, List.mem_singleton] at hc'
    subst hc'
    simp [tablesOf, exampleCoast] at ht)
  rwa [show ⌊(5 / 2 : ℚ)⌋₊ = 2 by rw [Nat.floor_eq_iff (by norm_num)]; norm_num] at h

/-- The hypotheses of `C65_whole_seconds` and `C65_time_targets` are met: the example with end
criterion `["time", 3]` takes exactly three steps and ends at exactly 3. -/
example : ∃ fuel rows q, ((Phase.default.applyConfig
    { exampleCoast (L := L) with endCriterion := some (.time, 3) }).init
      ⟨45, 10, 90, 0⟩).reset.run fuel = some ⟨rows, .ok q⟩ ∧ rows.length = 3 ∧
      q.state.time.Is 3 := by
  let p : Phase (F64 L) := ((Phase.default.applyConfig
    { exampleCoast (L := L) with endCriterion := some (.time, 3) }).init ⟨45, 10, 90, 0⟩).reset
  have hT : (3 : F64 L).Is ((0 + 3 : ℕ) : ℚ) := is_nat 3 (by norm_num)
  have h0 : (StateVariable.time.getValue p.state).Is ((0 : ℕ) : ℚ) := is_nat 0 (by norm_num)
  have htab : p.vehicle.TablesOk := ⟨wellFormed_default, wellFormed_default, wellFormed_default⟩
  obtain ⟨fuel, rows, res, h1, _, h2, _⟩ := C65_whole_seconds (p := p) (.inl rfl) (by norm_num)
    (by norm_num) hT rfl h0 rfl rfl rfl
  have _ := C65_time_targets (p := p) (.inl rfl) hT (by norm_num) (by norm_num) (by norm_num)
    rfl h0 rfl rfl rfl
  rcases h2 with ⟨q, rfl, h3, h4⟩ | ⟨e, rfl, h3⟩
  · exact ⟨fuel, rows, q, h1, h3, by simpa [StateVariable.getValue] using h4⟩
  · exfalso
    rcases h3 with h3 | ⟨s, a, η, _, _, _, _, h3⟩
    · obtain ⟨s', hs'⟩ := coasting_system (p := p) rfl rfl htab p.state
      rw [hs'] at h3; cases h3
    · obtain ⟨s1, hs1⟩ := Integrator.step_error h3
      obtain ⟨s', hs'⟩ := coasting_system (p := p) rfl rfl htab s1
      rw [hs'] at hs1; cases hs1

end

end Post
