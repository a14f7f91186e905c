import Verif.Spec.Approach
import Verif.Props.Time
import Verif.Props.Phase
import Verif.Props.Orbit
/-! # C79: a target that is approached steadily is always hit -/

namespace Post
open Spec Flt

/-- Correcting the step size by the secant: the new step is shorter, and misses the target by at
most `κ` times the remaining gap, and by at most `κ` times the last miss. -/
theorem secant_correction {G : ℝ → ℝ} {m M κ h g h0 : ℝ} (hm : 0 < m) (hκ : 0 ≤ κ)
    (hM : M ≤ (1 + κ) * m) (hh : 0 < h) (hh0 : h ≤ h0) (hg : 0 < g) (hG0 : G 0 = 0)
    (hG : ∀ a b, 0 ≤ a → a ≤ b → b ≤ h0 → m * (b - a) ≤ G b - G a ∧ G b - G a ≤ M * (b - a))
    (hover : g < G h) :
    0 < h * g / G h ∧ h * g / G h < h ∧ g ≤ M * (h * g / G h) ∧
      |G (h * g / G h) - g| ≤ κ * g ∧ |G (h * g / G h) - g| ≤ κ * (G h - g) := by
  have hGh : 0 < G h := hg.trans hover
  set h' := h * g / G h with hh'
  have e1 : h' * G h = h * g := by rw [hh']; field_simp
  have hpos : 0 < h' := by positivity
  have hlt : h' < h := by
    rw [hh', div_lt_iff₀ hGh]
    exact mul_lt_mul_of_pos_left hover hh
  obtain ⟨a1, a2⟩ := hG 0 h le_rfl hh.le hh0
  obtain ⟨b1, b2⟩ := hG 0 h' le_rfl hpos.le (hlt.le.trans hh0)
  obtain ⟨c1, c2⟩ := hG h' h hpos.le hlt.le hh0
  rw [hG0, sub_zero, sub_zero] at a1 a2 b1 b2
  -- the slope of the secant
  obtain ⟨k, hk⟩ : ∃ k, k = G h / h := ⟨_, rfl⟩
  have hkG : G h = k * h := by rw [hk]; field_simp
  have hkm : m ≤ k := by rw [hk, le_div_iff₀ hh]; exact a1
  have hkM : k ≤ M := by rw [hk, div_le_iff₀ hh]; exact a2
  have hk0 : 0 < k := hm.trans_le hkm
  have hkg : k * h' = g := by
    have : h * (k * h') = h * g := by rw [← e1, hkG]; ring
    exact mul_left_cancel₀ hh.ne' this
  have hmM : M - k ≤ κ * k := by nlinarith
  have hmk : k - m ≤ κ * k := by nlinarith
  refine ⟨hpos, hlt, ?_, ?_, ?_⟩
  · rw [← hkg]; exact mul_le_mul_of_nonneg_right hkM hpos.le
  · rw [abs_le, ← hkg]
    constructor <;> nlinarith
  · have hd : 0 < h - h' := by linarith
    have e2 : G h - g = k * (h - h') := by rw [hkG, ← hkg]; ring
    rw [abs_le, e2]
    constructor <;> nlinarith

theorem path_snoc {F : Type} [Flt F] {p r r' : Phase F} {ps : List (Phase F)} (h : Path p ps r)
    (he : r.ended = false) (hs : r.step = .ok r') : Path p (ps ++ [r']) r' := by
  induction h with
  | nil p => exact .cons he hs (.nil _)
  | cons h1 h2 h3 ih => exact .cons h1 h2 (ih he hs)

/-- The assumptions of the theorem. -/
structure Setting (p : Phase XR) (s0 : State XR) (v : StateVariable) (T dir m M κ h0 : ℝ)
    (I : State XR → Prop) : Prop where
  crit : p.endCriterion = (v, .fin T)
  start : p.system p.state = .ok s0
  hdir : dir = 1 ∨ dir = -1
  hm : 0 < m
  hκ : 0 ≤ κ
  hκ1 : κ < 1
  hM : M ≤ (1 + κ) * m
  small : M * h0 * κ ^ 21 < 1e-3
  init : I s0
  keep : ∀ s s' h, I s → 0 < h → h ≤ h0 → OneStep p (.fin h) s s' → I s'
  good : ∀ s y, Visited p s → I s → v.getValue s = .fin y → Ahead dir T y →
    MovesSteadily p v h0 dir m M s

/-- The phase `r` is on its way, `g` before the target, with step size `h`. -/
structure OnWay (p : Phase XR) (s0 : State XR) (v : StateVariable) (T dir h0 : ℝ)
    (I : State XR → Prop) (r : Phase XR) (g h : ℝ) : Prop where
  inv : I r.state
  path : ∃ ps, Path { p with state := s0 } ps r
  ended : r.ended = false
  value : v.getValue r.state = .fin (T - dir * g)
  hg : 0 < g
  step : r.stepsize = .fin h
  hh : 0 < h
  hh0 : h ≤ h0

variable {p : Phase XR} {s0 : State XR} {v : StateVariable} {T dir m M κ h0 : ℝ}
  {I : State XR → Prop}

/-- A step of `η` seconds from `s`, which is `g` before the target, gains `G η`. -/
structure Gains (p : Phase XR) (v : StateVariable) (T dir m M h0 g : ℝ) (s : State XR)
    (G : ℝ → ℝ) : Prop where
  zero : G 0 = 0
  step : ∀ η, 0 < η → η ≤ h0 → ∃ s', OneStep p (.fin η) s s' ∧
    v.getValue s' = .fin (T - dir * (g - G η))
  rate : ∀ a b, 0 ≤ a → a ≤ b → b ≤ h0 → m * (b - a) ≤ G b - G a ∧ G b - G a ≤ M * (b - a)

theorem OnWay.gains (S : Setting p s0 v T dir m M κ h0 I) {r : Phase XR} {g h : ℝ}
    (W : OnWay p s0 v T dir h0 I r g h) : ∃ G, Gains p v T dir m M h0 g r.state G := by
  have hdd : dir * dir = 1 := by rcases S.hdir with h | h <;> rw [h] <;> norm_num
  obtain ⟨ps, hp⟩ := W.path
  have hv : Visited p r.state := by
    refine ⟨s0, ps, r, S.start, hp, ?_⟩
    rcases path_last hp with ⟨h, _⟩ | h
    · left; rw [h]
    · exact .inr ⟨r, h, rfl⟩
  obtain ⟨f, h1, h2, h3⟩ := S.good r.state _ hv W.inv W.value (by
    unfold Ahead
    rw [show dir * (T - (T - dir * g)) = dir * dir * g by ring, hdd, one_mul]
    exact W.hg)
  have hf0 : f 0 = T - dir * g := by
    have := h1.symm.trans W.value
    exact (XR.fin_inj _ _).1 this
  refine ⟨fun η => dir * (f η - f 0), by simp, fun η ha hb => ?_, fun a b ha hab hb => ?_⟩
  · obtain ⟨s', hs, hval⟩ := h2 η ha hb
    refine ⟨s', hs, ?_⟩
    rw [hval, XR.fin_inj, hf0]
    linear_combination (f η - T + dir * g) * (1 - hdd)
  · have := h3 a b ha hab hb
    rw [show dir * (f b - f 0) - dir * (f a - f 0) = dir * (f b - f a) by ring]
    exact this

/-- What the next attempt does. -/
theorem attempt (S : Setting p s0 v T dir m M κ h0 I) {r : Phase XR} {g h : ℝ}
    (W : OnWay p s0 v T dir h0 I r g h) {G : ℝ → ℝ} (hG : Gains p v T dir m M h0 g r.state G) :
    (∃ r', r.step = .ok r' ∧ r'.ended = true ∧ Met p.endCriterion r'.state) ∨
    (1e-3 ≤ |G h - g| ∧ g < G h ∧ (r.endCriterionTries ≤ 20 → ∃ r', r.step = .ok r' ∧
      r'.endCriterionTries = r.endCriterionTries + 1 ∧ r'.state = r.state ∧
      OnWay p s0 v T dir h0 I r' g (h * g / G h))) ∨
    (1e-3 ≤ |G h - g| ∧ G h < g ∧ ∃ r', r.step = .ok r' ∧
      r'.endCriterionTries = r.endCriterionTries ∧
      OnWay p s0 v T dir h0 I r' (g - G h) h) := by
  have hdd : dir * dir = 1 := by rcases S.hdir with h | h <;> rw [h] <;> norm_num
  have hda : |dir| = 1 := by rcases S.hdir with h | h <;> rw [h] <;> norm_num
  obtain ⟨ps, hp⟩ := W.path
  have hsame : Phase.SameParams p r := by
    have := (Phase.path_sameParams hp).1
    exact ⟨this.1, this.2, this.3, this.4, this.5, this.6, this.7, this.8, this.9⟩
  have hcr : r.endCriterion = (v, .fin T) := by rw [hsame.endCriterion, S.crit]
  obtain ⟨s', hs', hval'⟩ := hG.step h W.hh W.hh0
  have hs : OneStep r r.stepsize r.state s' := by rw [W.step]; exact hsame.oneStep.2 hs'
  have hgain : 0 < G h := by
    have h1 := (hG.rate 0 h le_rfl W.hh.le W.hh0).1
    rw [hG.zero, sub_zero, sub_zero] at h1
    exact (mul_pos S.hm W.hh).trans_le h1
  have hmet : Met r.endCriterion s' ↔ |G h - g| < 1e-3 := by
    rw [hcr, met_fin hval', show T - dir * (g - G h) - T = dir * (G h - g) by ring, abs_mul, hda,
      one_mul]
  have hov : Overshot r.endCriterion r.state s' ↔ g < G h := by
    rw [hcr, overshot_fin W.value hval']
    rcases S.hdir with h | h <;> rw [h] <;> constructor
    · rintro (⟨h1, h2⟩ | ⟨h1, h2⟩) <;> linarith
    · intro h1; right; constructor <;> linarith
    · rintro (⟨h1, h2⟩ | ⟨h1, h2⟩) <;> linarith
    · intro h1; left; constructor <;> linarith
  rcases step_cases r W.ended with ⟨r', hr⟩ | ⟨e, hr, hbad⟩
  · obtain ⟨_, s, hs1, hcase⟩ := Phase.step_ok hr
    have : s = s' := oneStep_det hs hs1
    subst this
    rcases hcase with ⟨h1, h2⟩ | ⟨h1, h2, h3, h4⟩ | ⟨h1, h2, h3⟩
    · left
      refine ⟨r', hr, by rw [h2], ?_⟩
      rw [h2, ← hsame.endCriterion]; exact h1
    · right; left
      have hover := hov.1 h2
      refine ⟨by rw [hmet] at h1; exact not_lt.1 h1, hover, fun _ => ⟨r', hr, by rw [h4], by rw [h4], ?_⟩⟩
      obtain ⟨c1, c2, _⟩ := secant_correction S.hm S.hκ S.hM W.hh W.hh0 W.hg hG.zero hG.rate hover
      have hgo : r.timeToGo r.state s = .fin (h * g / G h) := by
        rw [timeToGo_fin hcr W.step W.value hval' (by
          intro h0
          have : dir * G h = 0 := by linarith
          rcases mul_eq_zero.1 this with h1 | h1
          · rw [h1] at hdd; norm_num at hdd
          · exact hgain.ne' h1), XR.fin_inj]
        rw [show T - (T - dir * g) = dir * g by ring,
          show T - dir * (g - G h) - (T - dir * g) = dir * G h by ring]
        have hd0 : dir ≠ 0 := by rcases S.hdir with h | h <;> rw [h] <;> norm_num
        have := hgain.ne'
        field_simp
      refine ⟨by rw [h4]; exact W.inv, ⟨_, path_snoc hp W.ended hr⟩, by rw [h4]; exact W.ended,
        by rw [h4]; exact W.value,
        W.hg, by rw [h4, ← hgo], c1, c2.le.trans W.hh0⟩
    · right; right
      have hlt : G h < g := by
        rw [hov] at h2
        refine lt_of_le_of_ne (not_lt.1 h2) fun h0 => ?_
        rw [hmet, h0] at h1
        norm_num at h1
      refine ⟨by rw [hmet] at h1; exact not_lt.1 h1, hlt, r', hr, by rw [h3],
        by rw [h3]; exact S.keep _ _ _ W.inv W.hh W.hh0 hs', ⟨_, path_snoc hp W.ended hr⟩,
        by rw [h3]; exact W.ended, ?_,
        by linarith, by rw [h3]; exact W.step, W.hh, W.hh0⟩
      rw [h3]; exact hval'
  · rcases hbad with h1 | ⟨⟨s, hs1, h1, h2⟩, h3⟩
    · unfold OneStep at hs
      rw [hs] at h1; cases h1
    · have : s = s' := oneStep_det hs hs1
      subst this
      right; left
      refine ⟨by rw [hmet] at h1; exact not_lt.1 h1, hov.1 h2, fun h => by omega⟩

/-- After the first correction: at most two more attempts for every correction left. -/
theorem corrected (S : Setting p s0 v T dir m M κ h0 I) (k : ℕ) :
    ∀ {r : Phase XR} {g h : ℝ} {G : ℝ → ℝ}, k ≤ 20 → OnWay p s0 v T dir h0 I r g h →
      Gains p v T dir m M h0 g r.state G → r.endCriterionTries = 21 - k → g ≤ M * h →
      |G h - g| ≤ M * h0 * κ ^ (21 - k) →
      ∃ ps q, Path r ps q ∧ q.ended = true ∧ Met p.endCriterion q.state ∧
        ps.length ≤ 2 * k + 1 := by
  induction k with
  | zero =>
    intro r g h G _ W hG htr hgh herr
    rcases attempt S W hG with ⟨r', h1, h2, h3⟩ | ⟨h1, _⟩ | ⟨h1, _⟩
    · exact ⟨[r'], r', .cons W.ended h1 (.nil _), h2, h3, by simp⟩
    · have := S.small
      exfalso; simp only [Nat.sub_zero] at herr; linarith
    · have := S.small
      exfalso; simp only [Nat.sub_zero] at herr; linarith
  | succ k ih =>
    intro r g h G hk W hG htr hgh herr
    have hpow : M * h0 * κ ^ (21 - k) = κ * (M * h0 * κ ^ (21 - (k + 1))) := by
      rw [show 21 - k = (21 - (k + 1)) + 1 by omega, pow_succ]; ring
    have hr0 := hG.rate 0 h le_rfl W.hh.le W.hh0
    rw [hG.zero, sub_zero, sub_zero] at hr0
    rcases attempt S W hG with ⟨r', h1, h2, h3⟩ | ⟨_, hover, h1⟩ | ⟨_, hunder, r1, h1, h2, W1⟩
    · exact ⟨[r'], r', .cons W.ended h1 (.nil _), h2, h3, by simp⟩
    · obtain ⟨r', hs, ht, hst, W'⟩ := h1 (by omega)
      obtain ⟨_, _, c3, _, c5⟩ :=
        secant_correction S.hm S.hκ S.hM W.hh W.hh0 W.hg hG.zero hG.rate hover
      have htr' : r'.endCriterionTries = 21 - k := by
        rw [ht, htr]; clear * - hk; omega
      obtain ⟨ps, q, hp, he, hm, hl⟩ := ih (by omega) W' (by rw [hst]; exact hG) htr' c3 (by
          rw [hpow]
          refine c5.trans (mul_le_mul_of_nonneg_left ?_ S.hκ)
          exact (le_abs_self _).trans herr)
      exact ⟨r' :: ps, q, .cons W.ended hs hp, he, hm, by simp; omega⟩
    · obtain ⟨G1, hG1⟩ := W1.gains S
      have hr1 := hG1.rate 0 h le_rfl W1.hh.le W1.hh0
      rw [hG1.zero, sub_zero, sub_zero] at hr1
      have hnext : g - G h < G1 h := by
        have h3 : M * h ≤ (1 + κ) * m * h := mul_le_mul_of_nonneg_right S.hM W.hh.le
        have h4 : κ * (m * h) < 1 * (m * h) :=
          mul_lt_mul_of_pos_right S.hκ1 (mul_pos S.hm W.hh)
        have : (1 + κ) * m * h = m * h + κ * (m * h) := by ring
        linarith [hr0.1, hr1.1]
      rcases attempt S W1 hG1 with ⟨r', h3, h4, h5⟩ | ⟨_, hover, h3⟩ | ⟨_, h3, _⟩
      · exact ⟨[r1, r'], r', .cons W.ended h1 (.cons W1.ended h3 (.nil _)), h4, h5, by simp; omega⟩
      · obtain ⟨r', hs, ht, hst, W'⟩ := h3 (by omega)
        obtain ⟨_, _, c3, c4, _⟩ :=
          secant_correction S.hm S.hκ S.hM W1.hh W1.hh0 W1.hg hG1.zero hG1.rate hover
        have htr' : r'.endCriterionTries = 21 - k := by
          rw [ht, h2, htr]; clear * - hk; omega
        obtain ⟨ps, q, hp, he, hm, hl⟩ := ih (by omega) W' (by rw [hst]; exact hG1) htr' c3 (by
            rw [hpow]
            refine c4.trans (mul_le_mul_of_nonneg_left ?_ S.hκ)
            refine le_trans ?_ herr
            rw [abs_sub_comm]; exact le_abs_self _)
        exact ⟨r1 :: r' :: ps, q, .cons W.ended h1 (.cons W1.ended hs hp), he, hm,
          by simp; omega⟩
      · linarith

/-- The first overshoot. -/
theorem first (S : Setting p s0 v T dir m M κ h0 I) {r : Phase XR} {g : ℝ}
    (W : OnWay p s0 v T dir h0 I r g h0) {G : ℝ → ℝ} (hG : Gains p v T dir m M h0 g r.state G)
    (ht : r.endCriterionTries = 0) (hover : g < G h0)
    (h1 : ∃ r', r.step = .ok r' ∧ r'.endCriterionTries = r.endCriterionTries + 1 ∧
      r'.state = r.state ∧ OnWay p s0 v T dir h0 I r' g (h0 * g / G h0)) :
    ∃ ps q, Path r ps q ∧ q.ended = true ∧ Met p.endCriterion q.state ∧ ps.length ≤ 42 := by
  obtain ⟨r', hs, htr, hst, W'⟩ := h1
  obtain ⟨_, _, c3, c4, _⟩ :=
    secant_correction S.hm S.hκ S.hM W.hh W.hh0 W.hg hG.zero hG.rate hover
  have hr0 := hG.rate 0 h0 le_rfl W.hh.le le_rfl
  rw [hG.zero, sub_zero, sub_zero] at hr0
  have htr' : r'.endCriterionTries = 21 - 20 := by rw [htr, ht]
  obtain ⟨ps, q, hp, he, hm, hl⟩ := corrected S 20 le_rfl W' (by rw [hst]; exact hG) htr' c3 (by
    rw [show 21 - 20 = 1 by rfl, pow_one, mul_comm (M * h0)]
    exact c4.trans (mul_le_mul_of_nonneg_left (by linarith [hr0.2]) S.hκ))
  exact ⟨r' :: ps, q, .cons W.ended hs hp, he, hm, by simp; omega⟩

/-- Before the first correction: the gap shrinks by at least `m h0` with every step. -/
theorem approached (S : Setting p s0 v T dir m M κ h0 I) (n : ℕ) :
    ∀ {r : Phase XR} {g : ℝ}, OnWay p s0 v T dir h0 I r g h0 → r.endCriterionTries = 0 →
      g ≤ (n + 1) * (m * h0) →
      ∃ ps q, Path r ps q ∧ q.ended = true ∧ Met p.endCriterion q.state ∧
        ps.length ≤ n + 42 := by
  induction n with
  | zero =>
    intro r g W ht hn
    obtain ⟨G, hG⟩ := W.gains S
    rcases attempt S W hG with ⟨r', h1, h2, h3⟩ | ⟨_, hover, h1⟩ | ⟨_, hunder, _⟩
    · exact ⟨[r'], r', .cons W.ended h1 (.nil _), h2, h3, by simp⟩
    · obtain ⟨ps, q, hp⟩ := first S W hG ht hover (h1 (by omega))
      exact ⟨ps, q, by simpa using hp⟩
    · have hr0 := hG.rate 0 h0 le_rfl W.hh.le le_rfl
      rw [hG.zero, sub_zero, sub_zero] at hr0
      push_cast at hn
      linarith [hr0.1]
  | succ n ih =>
    intro r g W ht hn
    obtain ⟨G, hG⟩ := W.gains S
    rcases attempt S W hG with ⟨r', h1, h2, h3⟩ | ⟨_, hover, h1⟩ | ⟨_, hunder, r1, h1, h2, W1⟩
    · exact ⟨[r'], r', .cons W.ended h1 (.nil _), h2, h3, by simp⟩
    · obtain ⟨ps, q, hp, he, hm, hl⟩ := first S W hG ht hover (h1 (by omega))
      exact ⟨ps, q, hp, he, hm, by omega⟩
    · have hr0 := hG.rate 0 h0 le_rfl W.hh.le le_rfl
      rw [hG.zero, sub_zero, sub_zero] at hr0
      obtain ⟨ps, q, hp, he, hm, hl⟩ := ih W1 (h2.trans ht) (by push_cast at hn; linarith [hr0.1])
      exact ⟨r1 :: ps, q, .cons W.ended h1 hp, he, hm, by simp; omega⟩

/-- C79 in terms of an invariant `I` of the flight. -/
theorem steady_flight {y0 : ℝ} (hc : p.endCriterion = (v, .fin T))
    (hsys : p.system p.state = .ok s0) (hy : v.getValue s0 = .fin y0)
    (hst : p.stepsize = .fin h0) (hh : 0 < h0) (he : p.ended = false)
    (ht : p.endCriterionTries = 0) (hdir : dir = 1 ∨ dir = -1) (hahead : Ahead dir T y0)
    (hm : 0 < m) (hκ : 0 ≤ κ) (hκ1 : κ < 1) (hM : M ≤ (1 + κ) * m)
    (hsmall : M * h0 * κ ^ 21 < 1e-3) (hinit : I s0)
    (hkeep : ∀ s s' h, I s → 0 < h → h ≤ h0 → OneStep p (.fin h) s s' → I s')
    (hgood : ∀ s y, Visited p s → I s → v.getValue s = .fin y → Ahead dir T y →
      MovesSteadily p v h0 dir m M s) :
    ∃ fuel rows q, p.run fuel = some ⟨rows, .ok q⟩ ∧ Met p.endCriterion q.state ∧
      rows.length ≤ ⌈|T - y0| / (m * h0)⌉₊ + 42 := by
  have hdd : dir * dir = 1 := by rcases hdir with h | h <;> rw [h] <;> norm_num
  have hda : |dir| = 1 := by rcases hdir with h | h <;> rw [h] <;> norm_num
  have S : Setting p s0 v T dir m M κ h0 I :=
    ⟨hc, hsys, hdir, hm, hκ, hκ1, hM, hsmall, hinit, hkeep, hgood⟩
  have W : OnWay p s0 v T dir h0 I { p with state := s0 } (dir * (T - y0)) h0 := by
    refine ⟨hinit, ⟨[], .nil _⟩, he, ?_, hahead, hst, hh, le_rfl⟩
    rw [hy, XR.fin_inj]
    linear_combination (T - y0) * (hdd - 1)
  have hg : dir * (T - y0) = |T - y0| := by
    rw [← abs_of_pos hahead, abs_mul, hda, one_mul]
  have hmh : 0 < m * h0 := mul_pos hm hh
  have hceil : dir * (T - y0) ≤ (⌈|T - y0| / (m * h0)⌉₊ + 1) * (m * h0) := by
    have h1 := Nat.le_ceil (|T - y0| / (m * h0))
    rw [div_le_iff₀ hmh] at h1
    rw [hg]; linarith
  obtain ⟨ps, q, hp, hq, hmet, hl⟩ := approached S _ W ht hceil
  refine ⟨ps.length, ps.map (·.state.row), q, ?_, hmet, by simpa using hl⟩
  unfold Phase.run
  rw [hsys]
  exact Phase.loop_of_path hp hq le_rfl

/-- **C79** A target that is approached steadily is always hit.  Let a phase wait for any variable
`v` to reach the target `T`, which lies ahead of its value at the start.  Suppose that in every
state the run comes to before the target (by steps of at most the step size), the variable moves towards it, over steps of up to the
step size `h0`, at a rate between `m > 0` and `M`, where `M` exceeds `m` by less than a factor two,
say `M ≤ (1 + κ) m` with `κ < 1`, and that `M h0 κ^21` is below the tolerance `1e-3`.  Then the
phase ends normally, with the variable within the tolerance of the target; the retries always
suffice.  Apart from the steps needed to cover the distance it takes at most 42 attempts. -/
theorem C79_steady_target {y0 : ℝ} (hc : p.endCriterion = (v, .fin T))
    (hsys : p.system p.state = .ok s0) (hy : v.getValue s0 = .fin y0)
    (hst : p.stepsize = .fin h0) (hh : 0 < h0) (he : p.ended = false)
    (ht : p.endCriterionTries = 0) (hdir : dir = 1 ∨ dir = -1) (hahead : Ahead dir T y0)
    (hm : 0 < m) (hκ : 0 ≤ κ) (hκ1 : κ < 1) (hM : M ≤ (1 + κ) * m)
    (hsmall : M * h0 * κ ^ 21 < 1e-3)
    (hgood : ∀ s y, Visited p s → WithinSteps p h0 s0 s → v.getValue s = .fin y → Ahead dir T y →
      MovesSteadily p v h0 dir m M s) :
    ∃ fuel rows q, p.run fuel = some ⟨rows, .ok q⟩ ∧ Met p.endCriterion q.state ∧
      rows.length ≤ ⌈|T - y0| / (m * h0)⌉₊ + 42 :=
  steady_flight (I := WithinSteps p h0 s0) hc hsys hy hst hh he ht hdir hahead hm hκ hκ1 hM
    hsmall .start (fun _ _ _ h1 h2 h3 h4 => .step h1 h2 h3 h4) fun s y => hgood s y

/-- C79 (rule of thumb).  With the step size of one second every phase of a program starts with,
it is enough that the rate stays below 2000 per second and varies by at most half of itself. -/
theorem C79_rule_of_thumb {cs : List (PhaseConfig XR)} {c : PhaseConfig XR} (hr : Ready cs c p)
    {y0 : ℝ} (hc : p.endCriterion = (v, .fin T))
    (hsys : p.system p.state = .ok s0) (hy : v.getValue s0 = .fin y0)
    (hdir : dir = 1 ∨ dir = -1) (hahead : Ahead dir T y0)
    (hm : 0 < m) (hM : M ≤ 3 / 2 * m) (hM2 : M ≤ 2000)
    (hgood : ∀ s y, Visited p s → WithinSteps p 1 s0 s → v.getValue s = .fin y → Ahead dir T y →
      MovesSteadily p v 1 dir m M s) :
    ∃ fuel rows q, p.run fuel = some ⟨rows, .ok q⟩ ∧ Met p.endCriterion q.state ∧
      rows.length ≤ ⌈|T - y0| / m⌉₊ + 42 := by
  have hst : p.stepsize = XR.fin 1 := (C09_initial_stepsize_one_partial hr).trans XR.fin_one
  have he : p.ended = false := by obtain ⟨log, prev, p', _, _, rfl⟩ := hr; rfl
  have ht : p.endCriterionTries = 0 := by obtain ⟨log, prev, p', _, _, rfl⟩ := hr; rfl
  have := C79_steady_target (κ := 1 / 2) hc hsys hy hst one_pos he ht hdir hahead hm (by norm_num)
    (by norm_num) (by linarith) (by
      have : M * 1 * (1 / 2 : ℝ) ^ 21 ≤ 2000 * 1 * (1 / 2) ^ 21 := by gcongr
      refine this.trans_lt (by norm_num)) hgood
  rwa [mul_one] at this

/-! ## A flight C79 applies to: straight on, far from any planet -/

/-- Without gravity a coasting step leads straight on. -/
theorem straight_step {p : Phase XR} {a b j2 j3 j4 ω : ℝ} (hp : Coasting p a b 0 j2 j3 j4 ω)
    {s s' : State XR} {t te m h : ℝ} {r v : V3 ℝ} (ht : s.time = .fin t)
    (hte : s.timeSinceEvent = .fin te) (hr : s.position = r.fin) (hv : s.velocity = v.fin)
    (hm : s.mass = .fin m) (hm0 : m ≠ 0)
    (hne : ∀ η, 0 ≤ η → η ≤ h → (⟨r.x + η * v.x, r.y + η * v.y, r.z + η * v.z⟩ : V3 ℝ) ≠ ⟨0, 0, 0⟩)
    (hh : 0 ≤ h) (hs : OneStep p (.fin h) s s') :
    s'.time = .fin (t + h) ∧ s'.timeSinceEvent = .fin (te + h) ∧
    s'.position = V3.fin ⟨r.x + h * v.x, r.y + h * v.y, r.z + h * v.z⟩ ∧ s'.velocity = v.fin ∧
      s'.mass = .fin m := by
  let x : Fin 2 → ℝ := vec2 t te
  let y : Fin 7 → ℝ := vec7 r.x r.y r.z v.x v.y v.z m
  let k : Fin 7 → ℝ := vec7 v.x v.y v.z 0 0 0 0
  have hx : vec2 s.time s.timeSinceEvent = vfin x := by
    funext i
    rw [ht, hte]
    fin_cases i <;> rfl
  have hy : s.toPrimaryVec = vfin y := by
    funext i
    unfold State.toPrimaryVec
    rw [hr, hv, hm]
    fin_cases i <;> rfl
  have key : ∀ (x : Fin 2 → ℝ) (η : ℝ), 0 ≤ η → η ≤ h →
      ∃ d, p.system (State.fromVec (vfin x) (vfin (y + η • k))) = .ok d ∧
        d.toDifferentialsVector = vfin k := by
    intro x η h1 h2
    have e : pos7 (y + η • k) = ⟨r.x + η * v.x, r.y + η * v.y, r.z + η * v.z⟩ := rfl
    have h3 := coasting_rhs hp (x := x) (y := y + η • k) (by rw [e]; exact hne η h1 h2) (by
      show m + η * 0 ≠ 0
      rwa [mul_zero, add_zero])
    have h4 : fall a 0 j2 j3 j4 (y + η • k) = k := by
      funext i
      fin_cases i
      · show v.x + η * 0 = v.x; ring
      · show v.y + η * 0 = v.y; ring
      · show v.z + η * 0 = v.z; ring
      all_goals simp [fall, grav, vec7, k]
    rw [h4] at h3
    unfold convertedFunc at h3
    cases hd : p.system (State.fromVec (vfin x) (vfin (y + η • k))) with
    | error e => rw [hd] at h3; cases h3
    | ok d =>
      rw [hd] at h3
      exact ⟨d, rfl, Except.ok.inj h3⟩
  have h0 : y + (0 : ℝ) • k = y := by rw [zero_smul, add_zero]
  obtain ⟨e1, e2⟩ := C51_phase_step hx hy (by have := key x 0 le_rfl hh; rwa [h0] at this)
    (key _ (h / 2) (by linarith) (by linarith)) (key _ (h / 2) (by linarith) (by linarith))
    (key _ h hh le_rfl) hs
  have e3 : y + (h / 6) • (k + (2 : ℝ) • k + (2 : ℝ) • k + k) = y + h • k := by module
  rw [e3] at e2
  refine ⟨congrFun e1 0, congrFun e1 1, ?_, ?_, ?_⟩
  · have c0 := congrFun e2 0; have c1 := congrFun e2 1; have c2 := congrFun e2 2
    exact V3.ext c0 c1 c2
  · have c0 := congrFun e2 3; have c1 := congrFun e2 4; have c2 := congrFun e2 5
    have d0 : s'.velocity.x = .fin (v.x + h * 0) := c0
    have d1 : s'.velocity.y = .fin (v.y + h * 0) := c1
    have d2 : s'.velocity.z = .fin (v.z + h * 0) := c2
    rw [mul_zero, add_zero] at d0 d1 d2
    exact V3.ext d0 d1 d2
  · have c := congrFun e2 6
    have d : s'.mass = .fin (m + h * 0) := c
    rwa [mul_zero, add_zero] at d

noncomputable section

/-- A probe that passes a reference point at a distance of 100 m and flies away from it at an
angle: the phase ends at a distance of 1 km. -/
def exampleProbe : Phase XR :=
  { Phase.default with
    planet := realPlanet 1 1 0 0 0 0 0
    endCriterion := (.positionNorm, .fin 1000)
    state := { State.default with position := V3.fin ⟨100, 0, 0⟩, velocity := V3.fin ⟨10, 10, 0⟩
                                  mass := .fin 1 } }

/-- its distance from the reference point after `t` seconds -/
def exampleDistance (t : ℝ) : ℝ := rnorm ⟨100 + t * 10, 0 + t * 10, 0 + t * 0⟩

theorem exampleDistance_rate {a b : ℝ} (ha : 0 ≤ a) (hab : a ≤ b) :
    10 * (b - a) ≤ exampleDistance b - exampleDistance a ∧
      exampleDistance b - exampleDistance a ≤ 15 * (b - a) := by
  have hsq : ∀ t, exampleDistance t ^ 2 = (100 + t * 10) ^ 2 + (t * 10) ^ 2 := fun t => by
    unfold exampleDistance; rw [rnorm_sq]; ring
  have hpos : ∀ t, 0 ≤ exampleDistance t := fun t => rnorm_nonneg _
  have hup : ∀ t, 0 ≤ t → exampleDistance t ≤ 20 * t + 100 := fun t h => by
    refine abs_le_of_sq_le_sq' ?_ (by linarith) |>.2
    rw [hsq]; nlinarith
  have hlo : ∀ t, 0 ≤ t → 40 / 3 * t + 200 / 3 ≤ exampleDistance t := fun t h => by
    refine abs_le_of_sq_le_sq' ?_ (hpos t) |>.2
    rw [hsq]; nlinarith
  have hsum : 0 < exampleDistance b + exampleDistance a := by linarith [hlo a ha, hpos b]
  have e : (exampleDistance b - exampleDistance a) * (exampleDistance b + exampleDistance a) =
      (b - a) * (200 * (a + b) + 2000) := by
    linear_combination hsq b - hsq a
  have hb := ha.trans hab
  have hd : 0 ≤ b - a := by linarith
  constructor
  · refine le_of_mul_le_mul_right ?_ hsum
    rw [e, mul_comm 10, mul_assoc]
    refine mul_le_mul_of_nonneg_left ?_ hd
    linarith [hup a ha, hup b hb]
  · refine le_of_mul_le_mul_right ?_ hsum
    rw [e, mul_comm 15, mul_assoc]
    refine mul_le_mul_of_nonneg_left ?_ hd
    linarith [hlo a ha, hlo b hb]

/-- Without gravity, from a point with positive `x` and flying in the positive `x` direction or
sideways, the flight goes straight on. -/
theorem straight_on {p : Phase XR} {a b j2 j3 j4 ω : ℝ} (hp : Coasting p a b 0 j2 j3 j4 ω)
    {s0 : State XR} {m h0 : ℝ} {r v : V3 ℝ} (ht : s0.time = .fin 0)
    (hte : s0.timeSinceEvent = .fin 0) (hr : s0.position = r.fin) (hv : s0.velocity = v.fin)
    (hm : s0.mass = .fin m) (hm0 : m ≠ 0) (hrx : 0 < r.x) (hvx : 0 ≤ v.x) {s : State XR}
    (hs : WithinSteps p h0 s0 s) : ∃ t : ℝ, 0 ≤ t ∧
      s.position = V3.fin ⟨r.x + t * v.x, r.y + t * v.y, r.z + t * v.z⟩ ∧
      ∀ h : ℝ, 0 < h → h ≤ h0 → ∃ s', OneStep p (.fin h) s s' ∧
        s'.position = V3.fin ⟨r.x + (t + h) * v.x, r.y + (t + h) * v.y, r.z + (t + h) * v.z⟩ := by
  have hstep : ∀ {s s' : State XR} {t h : ℝ}, 0 ≤ t → 0 ≤ h → s.time = .fin t →
      s.timeSinceEvent = .fin t →
      s.position = V3.fin ⟨r.x + t * v.x, r.y + t * v.y, r.z + t * v.z⟩ →
      s.velocity = v.fin → s.mass = .fin m → OneStep p (.fin h) s s' →
      s'.time = .fin (t + h) ∧ s'.timeSinceEvent = .fin (t + h) ∧
      s'.position = V3.fin ⟨r.x + (t + h) * v.x, r.y + (t + h) * v.y, r.z + (t + h) * v.z⟩ ∧
      s'.velocity = v.fin ∧ s'.mass = .fin m := by
    intro s s' t h h0 hh h1 h2 h3 h4 h5 h6
    obtain ⟨e1, e2, e3, e4, e5⟩ := straight_step hp h1 h2 h3 h4 h5 hm0 (by
      intro η hη _ h
      have := congrArg V3.x h
      simp only at this
      have h7 := mul_nonneg h0 hvx
      have h8 := mul_nonneg hη hvx
      linarith) hh h6
    refine ⟨e1, e2, ?_, e4, e5⟩
    rw [e3]; congr 2 <;> simp only <;> ring
  obtain ⟨t, h0, h1, h2, h3, h4, h5⟩ : ∃ t : ℝ, 0 ≤ t ∧ s.time = .fin t ∧
      s.timeSinceEvent = .fin t ∧
      s.position = V3.fin ⟨r.x + t * v.x, r.y + t * v.y, r.z + t * v.z⟩ ∧
      s.velocity = v.fin ∧ s.mass = .fin m := by
    induction hs with
    | start => exact ⟨0, le_rfl, ht, hte, by rw [hr]; simp, hv, hm⟩
    | step _ h1 _ h3 ih =>
      obtain ⟨t, e0, e1, e2, e3, e4, e5⟩ := ih
      exact ⟨_, by linarith, hstep e0 h1.le e1 e2 e3 e4 e5 h3⟩
  refine ⟨t, h0, h3, fun h hh _ => ?_⟩
  obtain ⟨s', hs'⟩ := coasting_step hp.engines hp.unlimited hp.tables s (.fin h)
  exact ⟨s', hs', (hstep h0 hh.le h1 h2 h3 h4 h5 hs').2.2.1⟩

theorem default_timeSteered : TimeSteered (Axis.default : Axis XR) :=
  ⟨.inl rfl, 0, 0, 0, 0, XR.fin_zero, XR.fin_zero, XR.fin_zero, XR.fin_zero⟩

/-- The probe is found at a distance of 1 km to the millimetre, after at most 132 attempts. -/
example : ∃ fuel rows q, exampleProbe.run fuel = some ⟨rows, .ok q⟩ ∧
    Met (.positionNorm, .fin 1000) q.state ∧ rows.length ≤ 132 := by
  have hs := default_timeSteered
  have hp : Coasting exampleProbe 1 1 0 0 0 0 0 :=
    ⟨rfl, rfl, rfl, ⟨default_wellFormed, default_wellFormed, default_wellFormed⟩, rfl,
      ⟨0, 0, 0, by simp only [exampleProbe, Phase.default, XR.fin_zero]⟩,
      realAttitude_of_time hs hs hs⟩
  obtain ⟨s0, hs0⟩ := system_coasting_ok hp.unlimited hp.engines hp.tables exampleProbe.state
  have hpr := Phase.system_primary hs0
  have hmain := C79_steady_target (p := exampleProbe) (v := .positionNorm) (T := 1000) (dir := 1)
    (m := 10) (M := 15) (κ := 1 / 2) (h0 := 1) (y0 := 100) rfl hs0
    (by
      show s0.position.norm = _
      rw [hpr.2.2.1, show exampleProbe.state.position = V3.fin ⟨100, 0, 0⟩ from rfl, V3.fin_norm]
      congr 1
      unfold rnorm
      rw [show ((100 : ℝ) ^ 2 + 0 ^ 2 + 0 ^ 2) = 100 ^ 2 by norm_num]
      exact Real.sqrt_sq (by norm_num))
    XR.fin_one one_pos rfl rfl (.inl rfl) (by unfold Ahead; norm_num) (by norm_num) (by norm_num)
    (by norm_num) (by norm_num) (by norm_num)
    (by
      intro s y _ hw _ _
      obtain ⟨t, h0, h1, h2⟩ := straight_on hp (hpr.1.trans XR.fin_zero) (hpr.2.1.trans XR.fin_zero)
        (r := ⟨100, 0, 0⟩) (v := ⟨10, 10, 0⟩) (m := 1) hpr.2.2.1 hpr.2.2.2.1 hpr.2.2.2.2
        one_ne_zero (by norm_num) (by norm_num) hw
      refine ⟨fun h => exampleDistance (t + h), ?_, ?_, ?_⟩
      · show s.position.norm = _
        simp only [h1, V3.fin_norm, add_zero]; rfl
      · intro h hh hh1
        obtain ⟨s', hs', h3⟩ := h2 h hh hh1
        refine ⟨s', hs', ?_⟩
        show s'.position.norm = _
        rw [h3, V3.fin_norm]; rfl
      · intro a b ha hab _
        have := exampleDistance_rate (a := t + a) (b := t + b) (by linarith) (by linarith)
        rw [one_mul, show b - a = t + b - (t + a) by ring]
        exact this)
  obtain ⟨fuel, rows, q, h1, h2, h3⟩ := hmain
  refine ⟨fuel, rows, q, h1, h2, h3.trans ?_⟩
  have : ⌈|(1000 : ℝ) - 100| / (10 * 1)⌉₊ ≤ 90 := by
    rw [Nat.ceil_le, abs_of_pos (by norm_num)]; norm_num
  omega

/-- A vehicle thrown off a spinning asteroid of 10 m radius. -/
def exampleThrow (e : StateVariable × XR) : PhaseConfig XR :=
  { PhaseConfig.empty with
    init := some ⟨.fin 0, .fin 0, .fin 0, .fin 0⟩
    planetModel := some (.custom (.fin 10) (.fin 10) ⟨.fin 0, .fin 0, .fin 0, .fin 0⟩ (.fin (1 / 2)))
    vehicle := some { structureMass := some (.fin 1), propellantMass := some (.fin 0),
                      referenceArea := none, dragCoeff := none, liftCoeff := none,
                      sideForceCoeff := none, engines := none }
    endCriterion := some e }

/-- its phase -/
def exampleThrown (e : StateVariable × XR) : Phase XR :=
  ((Phase.default.applyConfig (exampleThrow e)).init ⟨.fin 0, .fin 0, .fin 0, .fin 0⟩).reset

theorem exampleThrown_new (e : StateVariable × XR) : Phase.new none (exampleThrow e) =
    .ok ((Phase.default.applyConfig (exampleThrow e)).init ⟨.fin 0, .fin 0, .fin 0, .fin 0⟩) := rfl

theorem exampleThrown_start (e : StateVariable × XR) :
    Coasting (exampleThrown e) 10 10 0 0 0 0 (1 / 2) ∧
    (exampleThrown e).state.position = V3.fin ⟨10, 0, 0⟩ ∧
    (exampleThrown e).state.velocity = V3.fin ⟨0, 5, 0⟩ ∧
    (exampleThrown e).state.mass = .fin 1 := by
  obtain ⟨g, hl, hpos, hvel, hcase⟩ := init_fin (p := Phase.default.applyConfig (exampleThrow e))
    (a := 10) (b := 10) (ω := 1 / 2) rfl rfl rfl (by norm_num) (by norm_num) 0 0 0 (.fin 0)
  have hrad : rad 0 = 0 := by simp [rad]
  have hg : Real.sin g = 0 ∧ Real.cos g = 1 := by
    rw [hrad, Real.cos_zero, Real.sin_zero] at hcase
    rcases hcase with ⟨_, h2, h3⟩ | ⟨h1, _⟩
    · have h4 : Real.sin g = 0 := by linarith
      refine ⟨h4, ?_⟩
      have h5 := Real.sin_sq_add_cos_sq g
      rw [h4] at h5
      nlinarith
    · norm_num at h1
  have hdist : siteDistance 10 10 g = 10 := by
    unfold siteDistance; rw [hg.1]; norm_num
  have hsteer : ∀ x : Axis XR, x = { (Axis.default : Axis XR) with c0 := toDegrees (0 : XR) } →
      TimeSteered x := by
    rintro x rfl
    exact ⟨.inl rfl, _, 0, 0, 0, by rw [XR.fin_zero]; exact toDegrees_fin 0, XR.fin_zero,
      XR.fin_zero, XR.fin_zero⟩
  refine ⟨⟨rfl, rfl, rfl, ⟨default_wellFormed, default_wellFormed, default_wellFormed⟩, rfl,
      ⟨g, rad 0, rad 0, hl⟩, realAttitude_of_time (hsteer _ rfl) (hsteer _ rfl) (hsteer _ rfl)⟩,
    ?_, ?_, ?_⟩
  · refine hpos.trans ?_
    rw [hdist, hrad]
    unfold up rscale
    rw [hg.1, hg.2]; simp
  · refine hvel.trans ?_
    rw [hdist, hrad]
    unfold up rscale rcross
    rw [hg.1, hg.2]; norm_num
  · show XR.fin 1 + XR.fin 0 = _
    rw [XR.fin_add, add_zero]

/-- `C79_rule_of_thumb` applies to it: a phase that is to end 55 m along the track does so. -/
example : ∃ p, Ready [] (exampleThrow (.position2, .fin 55)) p ∧ ∃ fuel rows q,
    p.run fuel = some ⟨rows, .ok q⟩ ∧ Met (.position2, .fin 55) q.state := by
  obtain ⟨hp, hp1, hp2, hmass⟩ := exampleThrown_start (.position2, .fin 55)
  have hready : Ready [] (exampleThrow (.position2, .fin 55)) (exampleThrown (.position2, .fin 55)) :=
    ⟨_, none, _, .nil _ _, rfl, rfl⟩
  obtain ⟨s0, hs0⟩ := system_coasting_ok hp.unlimited hp.engines hp.tables
    (exampleThrown (.position2, .fin 55)).state
  have hpr := Phase.system_primary hs0
  obtain ⟨fuel, rows, q, h1, h2, _⟩ := C79_rule_of_thumb (v := .position2) (T := 55)
    (dir := 1) (m := 5) (M := 5) (y0 := 0) hready rfl hs0
    (by
      show s0.position.y = _
      rw [hpr.2.2.1, hp1]; rfl)
    (.inl rfl) (by unfold Ahead; norm_num) (by norm_num) (by norm_num) (by norm_num)
    (by
      intro s y _ hw _ _
      obtain ⟨t, h0, h1, h2⟩ := straight_on hp (hpr.1.trans XR.fin_zero) (hpr.2.1.trans XR.fin_zero)
        (hpr.2.2.1.trans hp1) (hpr.2.2.2.1.trans hp2) (hpr.2.2.2.2.trans hmass) one_ne_zero
        (by norm_num) le_rfl hw
      refine ⟨fun h => 0 + (t + h) * 5, ?_, ?_, ?_⟩
      · show s.position.y = _
        rw [h1]; simp [V3.fin, V3.map]
      · intro h hh hh1
        obtain ⟨s', hs', h3⟩ := h2 h hh hh1
        refine ⟨s', hs', ?_⟩
        show s'.position.y = _
        rw [h3]; rfl
      · intro a b ha hab _
        constructor <;> linarith)
  exact ⟨_, hready, fuel, rows, q, h1, h2⟩

end

end Post
