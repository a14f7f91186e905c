import Verif.Spec.DoubleBurn
import Verif.Lemmas.StepF64
import Verif.Props.DoubleMass
import Verif.Props.DoubleThrottle
/-! # Powered flight in vacuum in double precision -/

namespace Post
open Spec Flt F64

section generic
variable {F : Type} [Flt F]

/-- A condition under which an integration step succeeds, in any arithmetic: the equations of motion succeed in
every state whose mass is in the set `G`, with a mass flow in the set `R`, and the masses at which the method
evaluates them are in `G`. -/
theorem oneStep_total' {p : Phase F} {s : State F} {h : F} {G R : F → Prop}
    (hG : ∀ st : State F, G st.mass → ∃ d, p.system st = .ok d ∧ R d.massflow)
    (h1 : G (s.mass + ((((0 + 0 * 0) + 0 * 0) + 0 * 0) + 0 * 0)))
    (h2 : ∀ q1, R q1 → G (s.mass + ((((0 + 0.5 * (h * q1)) + 0 * 0) + 0 * 0) + 0 * 0)))
    (h3 : ∀ q1 q2, R q1 → R q2 → G (s.mass + ((((0 + 0 * (h * q1)) + 0.5 * (h * q2)) + 0 * 0) + 0 * 0)))
    (h4 : ∀ q1 q2 q3, R q1 → R q2 → R q3 →
      G (s.mass + ((((0 + 0 * (h * q1)) + 0 * (h * q2)) + 1 * (h * q3)) + 0 * 0)))
    (h5 : ∀ q1 q2 q3 q4, R q1 → R q2 → R q3 → R q4 →
      G (s.mass + ((((0 + 1 / 6 * (h * q1)) + 1 / 3 * (h * q2)) + 1 / 3 * (h * q3)) + 1 / 6 * (h * q4)))) :
    ∃ s' q1 q2 q3 q4, OneStep p h s s' ∧ R q1 ∧ R q2 ∧ R q3 ∧ R q4 ∧
      s'.mass = s.mass + ((((0 + 1 / 6 * (h * q1)) + 1 / 3 * (h * q2)) + 1 / 3 * (h * q3)) + 1 / 6 * (h * q4)) := by
  have conv : ∀ (x : Fin 2 → F) (y : Fin 7 → F), G (y 6) →
      ∃ v, convertedFunc p.system x y = .ok v ∧ R (v 6) := by
    intro x y hy
    obtain ⟨d, hd, hq⟩ := hG (State.fromVec x y) hy
    exact ⟨d.toDifferentialsVector, by simp [convertedFunc, hd, bind, Except.bind, pure,
      Except.pure], hq⟩
  let x := vec2 s.time s.timeSinceEvent
  let y := s.toPrimaryVec
  obtain ⟨v1, e1, q1⟩ := conv (addScalar x (0 * h))
    (fun i => y i + ((((0 + 0 * 0) + 0 * 0) + 0 * 0) + 0 * 0)) h1
  obtain ⟨v2, e2, q2⟩ := conv (addScalar x (0.5 * h))
    (fun i => y i + ((((0 + 0.5 * (h * v1 i)) + 0 * 0) + 0 * 0) + 0 * 0)) (h2 _ q1)
  obtain ⟨v3, e3, q3⟩ := conv (addScalar x (0.5 * h))
    (fun i => y i + ((((0 + 0 * (h * v1 i)) + 0.5 * (h * v2 i)) + 0 * 0) + 0 * 0)) (h3 _ _ q1 q2)
  obtain ⟨v4, e4, q4⟩ := conv (addScalar x (1 * h))
    (fun i => y i + ((((0 + 0 * (h * v1 i)) + 0 * (h * v2 i)) + 1 * (h * v3 i)) + 0 * 0)) (h4 _ _ _ q1 q2 q3)
  have key := rk4_forward e1 e2 e3 e4
  obtain ⟨d, hd, _⟩ := hG (State.fromVec (addScalar x h) (fun i => y i + ((((0 + 1 / 6 * (h * v1 i)) +
      1 / 3 * (h * v2 i)) + 1 / 3 * (h * v3 i)) + 1 / 6 * (h * v4 i)))) (h5 _ _ _ _ q1 q2 q3 q4)
  refine ⟨d, v1 6, v2 6, v3 6, v4 6, ?_, q1, q2, q3, q4, ?_⟩
  · unfold OneStep
    cases p.integrator
    simp only [Integrator.step, bind, Except.bind]
    rw [show RK4.step (convertedFunc p.system) (vec2 s.time s.timeSinceEvent) s.toPrimaryVec h = _
      from key]
    exact hd
  · rw [(Phase.system_primary hd).2.2.2.2]
    rfl

end generic

variable {L : Libm}

theorem near_stage1 {y : F64 L} {Y B e : ℝ} (hy : Near y Y 0) (hB : |Y| ≤ B) (hB' : B ≤ 1e9)
    (he : 1.3e-16 * B + 1e-37 ≤ e) : Near (y + ((((0 + 0 * 0) + 0 * 0) + 0 * 0) + 0 * 0)) Y e := by
  have hB0 := (abs_nonneg _).trans hB
  have a1 := near_add_small (K := 0) Near.zero (near_zz (L := L)) (by simp) (by norm_num) (by norm_num)
  have a2 := near_add_small (K := 0) a1 near_zz (by simp) (by norm_num) (by norm_num)
  have a3 := near_add_small (K := 0) a2 near_zz (by simp) (by norm_num) (by norm_num)
  have a4 := near_add_small (K := 0) a3 near_zz (by simp) (by norm_num) (by norm_num)
  have a5 := near_yT (K := 0) hy hB hB' a4 (by simp) (by norm_num) (by norm_num)
  refine (a5.congr (by norm_num)).mono ?_
  norm_num at he ⊢
  linarith

/-- the consumption of one engine -/
theorem engine_near {e : Engine (F64 L)} {E : RealEngine} (h : EngineDouble e E) :
    0 ≤ E.consumption ∧ Near e.massflow (-E.consumption) (1e-15 * E.consumption + 1e-38) := by
  have ht := h.thrust_nonneg
  have hi : 0 < E.isp := lt_of_lt_of_le one_pos h.isp_ge
  have hti0 : 0 ≤ E.thrust / E.isp := div_nonneg ht hi.le
  have hti1 : E.thrust / E.isp ≤ 1e12 := by
    rw [div_le_iff₀ hi]
    calc E.thrust ≤ 1e12 * 1 := by rw [mul_one]; exact h.thrust_le
      _ ≤ _ := mul_le_mul_of_nonneg_left h.isp_ge (by norm_num)
  have hc0 : 0 ≤ E.consumption := by unfold RealEngine.consumption; positivity
  refine ⟨hc0, ?_⟩
  have hc : E.thrust / E.isp = 9.80665 * E.consumption := by
    unfold RealEngine.consumption
    field_simp
  have a1 := (reads_near.1 h.thrust).neg
  have a2 : Near (-e.thrustVac / e.ispVac) (-E.thrust / E.isp) (1.2e-16 * (E.thrust / E.isp) + 1e-40) := by
    refine a1.div (reads_near.1 h.isp) (b := 1) (M := E.thrust / E.isp) one_pos ?_ (by norm_num) ?_ ?_ ?_
    · rw [abs_of_pos hi]; exact h.isp_ge
    · rw [neg_div, abs_neg, abs_of_nonneg hti0]
    · norm_num
    · norm_num at hti1 ⊢; linarith
  have hg : Near (STD_GRAVITY : F64 L) 9.80665 1.2e-15 :=
    Near.lit 980665 true 5 (by norm_num) (by norm_num [abs_of_pos]) (by norm_num [abs_of_pos])
  have hc12 : E.consumption ≤ 1e12 := by rw [hc] at hti1; linarith
  unfold Engine.massflow
  refine (a2.div hg (b := 9.8) (M := E.consumption) (e := 1e-15 * E.consumption + 1e-38) (by norm_num)
    (by norm_num [abs_of_pos]) (by norm_num) ?_ ?_ ?_).congr ?_
  · rw [neg_div, hc, neg_div, abs_neg, mul_div_cancel_left₀ _ (by norm_num), abs_of_nonneg hc0]
  · rw [hc]
    norm_num
    linarith
  · rw [hc]
    norm_num
    norm_num at hc12
    linarith
  · unfold RealEngine.consumption
    rw [neg_div, neg_div]

theorem foldl_near {Q : ℝ} (hQ0 : 0 ≤ Q) (hQ : Q ≤ 1e5) : ∀ {l : List (F64 L)} {cs : List ℝ}
    (_ : List.Forall₂ (fun x c => 0 ≤ c ∧ Near x (-c) (1e-15 * c + 1e-38)) l cs) {a : F64 L} {S E : ℝ}
    (_ : Near a (-S) E) (_ : 0 ≤ S) (_ : S + cs.sum ≤ Q) (_ : E + cs.length * (2e-15 * Q + 1e-36) ≤ 1e-12 * Q + 1e-33),
    Near (l.foldl (· + ·) a) (-(S + cs.sum)) (E + cs.length * (2e-15 * Q + 1e-36))
  | _, _, .nil, a, S, E, ha, _, _, _ => by simpa using ha
  | _, _, .cons (a := x) (b := c) (l₁ := l) (l₂ := cs) hx hl, a, S, E, ha, hS, hle, hE => by
    have hcs : 0 ≤ cs.sum := by
      refine List.sum_nonneg fun c hc => ?_
      obtain ⟨i, hi, rfl⟩ := List.getElem_of_mem hc
      have h2 := List.forall₂_iff_get.1 hl
      exact (h2.2 i (by rw [h2.1]; exact hi) hi).1
    have hE0 := ha.nonneg
    simp only [List.sum_cons, List.length_cons, Nat.cast_add, Nat.cast_one] at hle hE ⊢
    have hlen : (0 : ℝ) ≤ cs.length * (2e-15 * Q + 1e-36) := by positivity
    have hcQ : c ≤ Q := by linarith [hx.1]
    have h1 : Near (a + x) (-(S + c)) (E + (2e-15 * Q + 1e-36)) := by
      refine (ha.add hx.2 (M := Q) (e := E + (2e-15 * Q + 1e-36)) ?_ ?_ ?_).congr (by ring)
      · rw [abs_of_nonpos (by linarith [hx.1])]; linarith
      · norm_num at hE hlen hcQ ⊢
        linarith
      · norm_num at hE hlen hcQ hQ ⊢
        linarith
    have h2 := foldl_near hQ0 hQ hl h1 (by linarith [hx.1]) (by linarith) (by linarith)
    refine (h2.congr (by ring)).mono (le_of_eq (by ring))

/-- the consumption at full throttle -/
theorem flow_near {es : List (Engine (F64 L))} {Es : List RealEngine} (h : List.Forall₂ EngineDouble es Es)
    (hlen : Es.length ≤ 100) (hQ : fullConsumption Es ≤ 1e5) : 0 ≤ fullConsumption Es ∧
    Near (Flt.sum (es.map fun e => e.massflow)) (-fullConsumption Es) (2e-13 * fullConsumption Es + 1e-34) := by
  have h1 : List.Forall₂ (fun x c => 0 ≤ c ∧ Near x (-c) (1e-15 * c + 1e-38)) (es.map fun e => e.massflow)
      (Es.map (·.consumption)) := by
    rw [List.forall₂_map_left_iff, List.forall₂_map_right_iff]
    exact h.imp fun _ _ h => engine_near h
  have h0 : 0 ≤ fullConsumption Es := by
    unfold fullConsumption
    refine List.sum_nonneg fun c hc => ?_
    obtain ⟨E, hE, rfl⟩ := List.mem_map.1 hc
    obtain ⟨i, hi, rfl⟩ := List.getElem_of_mem hE
    have h2 := List.forall₂_iff_get.1 h
    exact (engine_near (h2.2 i (by rw [h2.1]; exact hi) hi)).1
  have h3 : ((Es.map (·.consumption)).length : ℝ) ≤ 100 := by simpa using hlen
  have h4 : ((Es.map (·.consumption)).length : ℝ) * (2e-15 * fullConsumption Es + 1e-36) ≤
      100 * (2e-15 * fullConsumption Es + 1e-36) := by gcongr
  refine ⟨h0, ?_⟩
  have := foldl_near h0 hQ h1 (a := 0) (S := 0) (E := 0) (by simpa using Near.zero) le_rfl
    (by rw [zero_add]; rfl) (by linarith)
  refine (this.congr ?_).mono ?_
  · rw [zero_add]; rfl
  · linarith

/-- the mass flow at some throttle -/
theorem massflow_near {V : Vehicle (F64 L)} {Es : List RealEngine} (h : List.Forall₂ EngineDouble V.engines Es)
    (hlen : Es.length ≤ 100) (hQ : fullConsumption Es ≤ 1e5) {k : F64 L} {κ : ℝ} (hk : Reads k κ) (h0 : 0 ≤ κ)
    (h1 : κ ≤ 1) : Near (V.massflow k) (-(κ * fullConsumption Es)) (3e-13 * fullConsumption Es + 1e-33) := by
  obtain ⟨hQ0, hF⟩ := flow_near h hlen hQ
  unfold Vehicle.massflow
  have hκ : κ * fullConsumption Es ≤ fullConsumption Es := mul_le_of_le_one_left hQ0 h1
  refine ((reads_near.1 hk).mul hF (A := 1) (B := fullConsumption Es) (M := fullConsumption Es)
    (e := 3e-13 * fullConsumption Es + 1e-33) ?_ ?_ ?_ ?_ ?_).congr (by ring)
  · rw [abs_of_nonneg h0]; exact h1
  · rw [abs_neg, abs_of_nonneg hQ0]
  · rw [mul_neg, abs_neg, abs_of_nonneg (by positivity)]; exact hκ
  · norm_num
    linarith
  · norm_num at hQ ⊢
    linarith

/-- One step of one second in vacuum: if the equations of motion succeed in every state that has a mass
between `lo` and 1.1e9 kg, with a throttle `κ` such that `G κ`, then the step succeeds, and the mass decreases by
a mean of the consumptions. -/
theorem burn_step {p : Phase (F64 L)} {Es : List RealEngine} (hE : List.Forall₂ EngineDouble p.vehicle.engines Es)
    (hlen : Es.length ≤ 100) (hQ : fullConsumption Es ≤ 1e5) {lo : ℝ} {G : ℝ → Prop}
    (hsys : ∀ (s : State (F64 L)) (m : ℝ), Reads s.mass m → lo ≤ m → m ≤ 1.1e9 →
      ∃ d κ, p.system s = .ok d ∧ Reads d.throttle κ ∧ 0 ≤ κ ∧ κ ≤ 1 ∧ G κ)
    {h : F64 L} (hh : Reads h 1) {s : State (F64 L)} {m B : ℝ} (hm : Reads s.mass m) (hm0 : 0 ≤ m) (hmB : m ≤ B)
    (hB1 : 1 ≤ B) (hB : B ≤ 1e9) (hlo : lo + fullConsumption Es + (1e-12 * fullConsumption Es + 2e-16 * B) ≤ m) :
    ∃ s' κ1 κ2 κ3 κ4, OneStep p h s s' ∧ (0 ≤ κ1 ∧ κ1 ≤ 1 ∧ G κ1) ∧ (0 ≤ κ2 ∧ κ2 ≤ 1 ∧ G κ2) ∧
      (0 ≤ κ3 ∧ κ3 ≤ 1 ∧ G κ3) ∧ (0 ≤ κ4 ∧ κ4 ≤ 1 ∧ G κ4) ∧
      Near s'.mass (m - (κ1 + 2 * κ2 + 2 * κ3 + κ4) / 6 * fullConsumption Es)
        (1e-12 * fullConsumption Es + 2e-16 * B) := by
  obtain ⟨hQ0, _⟩ := flow_near hE hlen hQ
  set Q := fullConsumption Es with hQd
  have hy := reads_near.1 hm
  have hYB : |m| ≤ B := by rw [abs_of_nonneg hm0]; exact hmB
  set R : F64 L → Prop := fun x => ∃ κ, (0 ≤ κ ∧ κ ≤ 1 ∧ G κ) ∧ Near x (-(κ * Q)) (3e-13 * Q + 1e-33) with hR
  have hb : ∀ {κ : ℝ}, 0 ≤ κ → κ ≤ 1 → |-(κ * Q)| ≤ Q := by
    intro κ h0 h1
    rw [abs_neg, abs_of_nonneg (by positivity)]
    exact mul_le_of_le_one_left hQ0 h1
  have hhv : ∀ {x : F64 L} {κ : ℝ}, 0 ≤ κ → κ ≤ 1 → Near x (-(κ * Q)) (3e-13 * Q + 1e-33) →
      Near (h * x) (-(κ * Q)) (4e-13 * Q + 1e-32) := by
    intro x κ h0 h1 hx
    have := near_hv (reads_near.1 hh) zero_le_one le_rfl hx (hb h0 h1) (by norm_num at hQ ⊢; linarith) hQ
    refine (this.congr (by ring)).mono ?_
    norm_num
    linarith
  have hE1 : 4e-13 * Q + 1e-32 ≤ (1 : ℝ) := by norm_num at hQ ⊢; linarith
  have hδ : (4e-13 * Q + 1e-32) + 1e-14 * (Q + (4e-13 * Q + 1e-32)) + 1.3e-16 * B + 1e-37 ≤
      1e-12 * Q + 2e-16 * B := by norm_num; linarith
  have hG : ∀ {x : F64 L} {c : ℝ}, Near x (m - c) (1e-12 * Q + 2e-16 * B) → 0 ≤ c → c ≤ Q →
      ∃ μ, Reads x μ ∧ lo ≤ μ ∧ μ ≤ 1.1e9 := by
    rintro x c ⟨q, h1, h2⟩ h3 h4
    rw [abs_le] at h2
    refine ⟨q, ⟨q, h1, rfl⟩, by linarith, ?_⟩
    norm_num at h2 hQ hB ⊢
    linarith
  obtain ⟨s', q1, q2, q3, q4, g0, ⟨κ1, b1, n1⟩, ⟨κ2, b2, n2⟩, ⟨κ3, b3, n3⟩, ⟨κ4, b4, n4⟩, g5⟩ :=
    oneStep_total' (p := p) (s := s) (h := h) (G := fun x => ∃ μ, Reads x μ ∧ lo ≤ μ ∧ μ ≤ 1.1e9) (R := R)
    (by
      rintro st ⟨μ, h1, h2, h3⟩
      obtain ⟨d, κ, k1, k2, k3, k4, k5⟩ := hsys st μ h1 h2 h3
      refine ⟨d, k1, κ, ⟨k3, k4, k5⟩, ?_⟩
      rw [(system_consistent k1).massflow]
      exact massflow_near hE hlen hQ k2 k3 k4)
    (hG (c := 0) ((near_stage1 hy hYB hB (by linarith)).congr (by ring)) le_rfl hQ0)
    (by
      rintro q1 ⟨κ1, b1, n1⟩
      refine hG (c := 0.5 * (κ1 * Q)) ((near_stage2 hy hYB hB (hhv b1.1 b1.2.1 n1) (hb b1.1 b1.2.1) hE1 hQ
        hδ).congr (by ring)) (by have := b1.1; positivity) ?_
      have := mul_le_of_le_one_left hQ0 b1.2.1
      norm_num; linarith)
    (by
      rintro q1 q2 ⟨κ1, b1, n1⟩ ⟨κ2, b2, n2⟩
      refine hG (c := 0.5 * (κ2 * Q)) ((near_stage3 hy hYB hB (hhv b1.1 b1.2.1 n1) (hhv b2.1 b2.2.1 n2)
        (hb b2.1 b2.2.1) hE1 hQ hδ).congr (by ring)) (by have := b2.1; positivity) ?_
      have := mul_le_of_le_one_left hQ0 b2.2.1
      norm_num; linarith)
    (by
      rintro q1 q2 q3 ⟨κ1, b1, n1⟩ ⟨κ2, b2, n2⟩ ⟨κ3, b3, n3⟩
      refine hG (c := κ3 * Q) ((near_stage4 hy hYB hB (hhv b1.1 b1.2.1 n1) (hhv b2.1 b2.2.1 n2)
        (hhv b3.1 b3.2.1 n3) (hb b3.1 b3.2.1) hE1 hQ hδ).congr (by ring)) (by have := b3.1; positivity) ?_
      exact mul_le_of_le_one_left hQ0 b3.2.1)
    (by
      rintro q1 q2 q3 q4 ⟨κ1, b1, n1⟩ ⟨κ2, b2, n2⟩ ⟨κ3, b3, n3⟩ ⟨κ4, b4, n4⟩
      refine hG (c := (κ1 * Q + 2 * (κ2 * Q) + 2 * (κ3 * Q) + κ4 * Q) / 6) ((near_final hy hYB hB
        (hhv b1.1 b1.2.1 n1) (hhv b2.1 b2.2.1 n2) (hhv b3.1 b3.2.1 n3) (hhv b4.1 b4.2.1 n4)
        (hb b1.1 b1.2.1) (hb b2.1 b2.2.1) (hb b3.1 b3.2.1) (hb b4.1 b4.2.1) hE1 hQ hδ).congr (by ring)) ?_ ?_
      · have := b1.1; have := b2.1; have := b3.1; have := b4.1; positivity
      · have l1 := mul_le_of_le_one_left hQ0 b1.2.1
        have l2 := mul_le_of_le_one_left hQ0 b2.2.1
        have l3 := mul_le_of_le_one_left hQ0 b3.2.1
        have l4 := mul_le_of_le_one_left hQ0 b4.2.1
        linarith)
  refine ⟨s', κ1, κ2, κ3, κ4, g0, b1, b2, b3, b4, ?_⟩
  rw [g5]
  exact (near_final hy hYB hB
        (hhv b1.1 b1.2.1 n1) (hhv b2.1 b2.2.1 n2) (hhv b3.1 b3.2.1 n3) (hhv b4.1 b4.2.1 n4)
        (hb b1.1 b1.2.1) (hb b2.1 b2.2.1) (hb b3.1 b3.2.1) (hb b4.1 b4.2.1) hE1 hQ hδ).congr (by ring)

end Post
