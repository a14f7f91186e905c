import Verif.Spec.DoubleForces
import Verif.Lemmas.AttitudeF64
import Verif.Props.DoubleTable
import Verif.Props.State
/-! # Thrust and aerodynamic forces in double precision -/

set_option exponentiation.threshold 2000

namespace Post
open Spec Flt F64
variable {L : Libm}

/-- one component of the thrust of one engine -/
theorem engineThrust_near (hF : FrameLibrary L) {e : Engine (F64 L)} {E : RealEngine} (h : EngineReads e E) {P : F64 L} {π : ℝ}
    (hP : Reads P π) (h0 : 0 ≤ π) (h1 : π ≤ 1e8) {G : ℝ} (hG : G = E.thrust + E.area * π) :
    NearV (e.thrust P) (E.thrustAt π) (5e-15 * G + 1e-38) ∧ |(E.thrustAt π).x| ≤ G ∧ |(E.thrustAt π).y| ≤ G ∧
      |(E.thrustAt π).z| ≤ G := by
  obtain ⟨t0, t1⟩ := h.thrust_range
  obtain ⟨a0, a1⟩ := h.area_range
  obtain ⟨⟨sy, sy'⟩, cy, cy'⟩ := near_of_reads h.yaw h.yaw_range hF
  obtain ⟨⟨sp, sp'⟩, cp, cp'⟩ := near_of_reads h.pitch h.pitch_range hF
  have hap : 0 ≤ E.area * π := mul_nonneg a0 h0
  have hap' : E.area * π ≤ 1e13 := by
    have := mul_le_mul a1 h1 h0 (by norm_num)
    norm_num at this ⊢
    linarith
  have hG0 : 0 ≤ G := by rw [hG]; linarith
  have hG1 : G ≤ 1.2e13 := by rw [hG]; norm_num at *; linarith
  have n1 : Near (e.exitArea * P) (E.area * π) (1.2e-16 * G + 1e-40) := by
    refine (reads_near.1 h.area).mul (reads_near.1 hP) (A := 1e5) (B := 1e8) (M := G) ?_ ?_ ?_ ?_ ?_
    · rwa [abs_of_nonneg a0]
    · rwa [abs_of_nonneg h0]
    · rw [abs_of_nonneg hap]; linarith
    · norm_num
    · norm_num at *; linarith
  have n2 : Near (e.thrustVac - e.exitArea * P) (E.thrust - E.area * π) (2.5e-16 * G + 1e-39) := by
    refine (reads_near.1 h.thrust).sub n1 (M := G) ?_ ?_ ?_
    · rw [abs_le]; constructor <;> linarith
    · norm_num at *; linarith
    · norm_num at *; linarith
  have hN : |E.thrust - E.area * π| ≤ G := by rw [abs_le]; constructor <;> linarith
  have prod : ∀ {x y : F64 L} {ξ η : ℝ}, Near x ξ 1e-15 → Near y η 1e-15 → |ξ| ≤ 1 → |η| ≤ 1 →
      Near (x * y) (ξ * η) 2.2e-15 := by
    intro x y ξ η k1 k2 k3 k4
    exact k1.mul k2 k3 k4 (abs_mul_le k3 k4 (M := 1) (by norm_num)) (by norm_num) (by norm_num)
  have fin : ∀ {x : F64 L} {ξ : ℝ}, Near x ξ 2.2e-15 → |ξ| ≤ 1 →
      Near (x * (e.thrustVac - e.exitArea * P)) ((E.thrust - E.area * π) * ξ) (5e-15 * G + 1e-38) := by
    intro x ξ k1 k2
    refine (k1.mul n2 (A := 1) (B := G) (M := G) k2 hN (abs_mul_le k2 hN (by linarith)) ?_ ?_).congr (mul_comm _ _)
    · clear k1 prod n1 n2 sy sp cy cp
      norm_num at *
      linarith
    · clear k1 prod n1 n2 sy sp cy cp
      norm_num at *
      linarith
  have c1 : |Real.cos E.yaw * Real.cos E.pitch| ≤ 1 := abs_mul_le cy' cp' (by norm_num)
  have c3 : |Real.cos E.yaw * Real.sin E.pitch| ≤ 1 := abs_mul_le cy' sp' (by norm_num)
  refine ⟨⟨fin (prod cy cp cy' cp') c1, fin (sy.mono (by norm_num)) sy', fin (prod cy sp cy' sp') c3⟩, ?_, ?_, ?_⟩
  · exact abs_mul_le hN c1 (by linarith)
  · exact abs_mul_le hN sy' (by linarith)
  · exact abs_mul_le hN c3 (by linarith)

/-- a sum of numbers that may have different signs -/
theorem sum_near {G : ℝ} (hG0 : 0 ≤ G) (hG : G ≤ 1e20) : ∀ {l : List (F64 L)} {ws : List (ℝ × ℝ)}
    (_ : List.Forall₂ (fun x w => Near x w.1 (5e-15 * w.2 + 1e-38) ∧ |w.1| ≤ w.2) l ws) {a : F64 L} {S B E : ℝ}
    (_ : Near a S E) (_ : |S| ≤ B) (_ : B + (ws.map (·.2)).sum ≤ G)
    (_ : E + 5e-15 * (ws.map (·.2)).sum + ws.length * (2e-16 * G + 2e-38) ≤ 1e-12 * G + 1e-33),
    Near (l.foldl (· + ·) a) (S + (ws.map (·.1)).sum)
      (E + 5e-15 * (ws.map (·.2)).sum + ws.length * (2e-16 * G + 2e-38))
  | _, _, .nil, a, S, B, E, ha, _, _, _ => by simpa using ha
  | _, _, .cons (a := x) (b := w) (l₁ := l) (l₂ := ws) hx hl, a, S, B, E, ha, hS, hle, hE => by
    have hcs : 0 ≤ (ws.map (·.2)).sum := by
      refine List.sum_nonneg fun c hc => ?_
      obtain ⟨u, hu, rfl⟩ := List.mem_map.1 hc
      obtain ⟨i, hi, rfl⟩ := List.getElem_of_mem hu
      have h2 := List.forall₂_iff_get.1 hl
      exact (abs_nonneg _).trans (h2.2 i (by rw [h2.1]; exact hi) hi).2
    have hE0 := ha.nonneg
    have hw0 := (abs_nonneg _).trans hx.2
    simp only [List.map_cons, List.sum_cons, List.length_cons, Nat.cast_add, Nat.cast_one] at hle hE ⊢
    have hlen : (0 : ℝ) ≤ ws.length * (2e-16 * G + 2e-38) := by positivity
    set Sg := (ws.map (·.2)).sum with hSg
    set T := (ws.length : ℝ) * (2e-16 * G + 2e-38) with hT
    have hE1 : E + 5e-15 * (w.2 + Sg) + (T + (2e-16 * G + 2e-38)) ≤ 1e-12 * G + 1e-33 := by
      rw [hT]
      linarith
    have hsum : |S + w.1| ≤ B + w.2 := abs_add_le' hS hx.2 le_rfl
    have h1 : Near (a + x) (S + w.1) (E + 5e-15 * w.2 + (2e-16 * G + 2e-38)) := by
      refine ha.add hx.1 (M := G) (hsum.trans (by linarith)) ?_ ?_
      · norm_num at hE1 hlen hG ⊢
        linarith
      · norm_num at hE1 hlen hG ⊢
        linarith
    have h2 := sum_near hG0 hG hl h1 hsum (by linarith) (by rw [← hSg, ← hT]; linarith)
    refine (h2.congr (by ring)).mono (le_of_eq (by rw [← hSg]; ring))

theorem sumV_foldl {F : Type} [Flt F] (l : List (V3 F)) (a : V3 F) :
    (l.foldl (· + ·) a).x = (l.map (·.x)).foldl (· + ·) a.x ∧ (l.foldl (· + ·) a).y = (l.map (·.y)).foldl (· + ·) a.y ∧
      (l.foldl (· + ·) a).z = (l.map (·.z)).foldl (· + ·) a.z := by
  induction l generalizing a with
  | nil => exact ⟨rfl, rfl, rfl⟩
  | cons v l ih => exact ih (a + v)

/-- the thrust of all engines -/
theorem thrustForce_near (hF : FrameLibrary L) {V : Vehicle (F64 L)} {es : List RealEngine}
    (h : List.Forall₂ EngineReads V.engines es) (hlen : es.length ≤ 100) {K P : F64 L} {k π : ℝ} (hK : Reads K k) (hk : |k| ≤ 1)
    (hP : Reads P π) (h0 : 0 ≤ π) (h1 : π ≤ 1e8) :
    0 ≤ grossThrust es π ∧ NearV (V.thrustForce K P) (rscale k (fullThrust es π)) (2.8e-14 * grossThrust es π + 1e-35) ∧
      |(rscale k (fullThrust es π)).x| ≤ grossThrust es π ∧ |(rscale k (fullThrust es π)).y| ≤ grossThrust es π ∧
      |(rscale k (fullThrust es π)).z| ≤ grossThrust es π := by
  have hG0 : 0 ≤ grossThrust es π := by
    unfold grossThrust
    refine List.sum_nonneg fun c hc => ?_
    obtain ⟨E, hE, rfl⟩ := List.mem_map.1 hc
    obtain ⟨i, hi, rfl⟩ := List.getElem_of_mem hE
    have h2 := List.forall₂_iff_get.1 h
    have h3 := h2.2 i (by rw [h2.1]; exact hi) hi
    exact add_nonneg h3.thrust_range.1 (mul_nonneg h3.area_range.1 h0)
  have hG1 : grossThrust es π ≤ 1e16 := by
    unfold grossThrust
    have : ∀ c ∈ es.map (fun e => e.thrust + e.area * π), c ≤ 1.2e13 := by
      intro c hc
      obtain ⟨E, hE, rfl⟩ := List.mem_map.1 hc
      obtain ⟨i, hi, rfl⟩ := List.getElem_of_mem hE
      have h2 := List.forall₂_iff_get.1 h
      have h3 := h2.2 i (by rw [h2.1]; exact hi) hi
      have h4 := mul_le_mul h3.area_range.2 h1 h0 (by norm_num)
      have h5 := h3.thrust_range.2
      simp only [List.get_eq_getElem] at h4 h5
      norm_num at h4 h5 ⊢
      linarith
    have h6 := List.sum_le_card_nsmul _ _ this
    rw [List.length_map, nsmul_eq_mul] at h6
    have h7 : (es.length : ℝ) ≤ 100 := by exact_mod_cast hlen
    refine h6.trans ((mul_le_mul_of_nonneg_right h7 (by norm_num)).trans (by norm_num))
  set G := grossThrust es π with hG
  have hlen' : (es.length : ℝ) ≤ 100 := by exact_mod_cast hlen
  have key : ∀ (c : V3 (F64 L) → F64 L) (d : V3 ℝ → ℝ), (∀ {e : Engine (F64 L)} {E : RealEngine}, EngineReads e E →
      Near (c (e.thrust P)) (d (E.thrustAt π)) (5e-15 * (E.thrust + E.area * π) + 1e-38) ∧
        |d (E.thrustAt π)| ≤ E.thrust + E.area * π) →
      Near (((V.engines.map fun e => e.thrust P).map c).foldl (· + ·) 0) (((es.map (·.thrustAt π)).map d).sum)
        (2.6e-14 * G + 2e-36) ∧ |((es.map (·.thrustAt π)).map d).sum| ≤ G := by
    intro c d hcd
    set ws := es.map fun E => (d (E.thrustAt π), E.thrust + E.area * π) with hws
    have hs2 : (ws.map (·.2)).sum = G := by rw [hws, List.map_map, hG]; rfl
    have hs1 : (ws.map (·.1)).sum = ((es.map (·.thrustAt π)).map d).sum := by rw [hws, List.map_map, List.map_map]; rfl
    have hl : (ws.length : ℝ) = es.length := by rw [hws, List.length_map]
    have hprod : (es.length : ℝ) * (2e-16 * G + 2e-38) ≤ 100 * (2e-16 * G + 2e-38) :=
      mul_le_mul_of_nonneg_right hlen' (by positivity)
    constructor
    · have := sum_near (L := L) hG0 (hG1.trans (by norm_num)) (l := (V.engines.map fun e => e.thrust P).map c) (ws := ws) ?_
        (a := 0) (S := 0) (B := 0) (E := 0) Near.zero (by simp) (by rw [hs2, zero_add]) ?_
      · rw [hs1, hs2, hl, zero_add, zero_add] at this
        refine this.mono ?_
        norm_num at hprod ⊢
        linarith
      · rw [hws, List.map_map, List.forall₂_map_left_iff, List.forall₂_map_right_iff]
        exact h.imp fun _ _ h => hcd h
      · rw [hs2, hl]
        norm_num at hprod ⊢
        linarith
    · rw [List.map_map, hG]
      unfold grossThrust
      clear_value ws
      clear hprod hlen' hG hG1 hlen hG0 hs1 hs2 hl hws G
      generalize V.engines = vs at h
      induction h with
      | nil => simp
      | cons hx _ ih =>
        simp only [List.map_cons, List.sum_cons]
        exact abs_add_le' (hcd hx).2 (ih) le_rfl
  have hmul : ∀ {x : F64 L} {ξ : ℝ}, Near x ξ (2.6e-14 * G + 2e-36) → |ξ| ≤ G →
      Near (K * x) (k * ξ) (2.8e-14 * G + 1e-35) ∧ |k * ξ| ≤ G := by
    intro x ξ k1 k2
    have k3 : |k * ξ| ≤ G := abs_mul_le hk k2 (by linarith)
    refine ⟨(reads_near.1 hK).mul k1 hk k2 k3 ?_ ?_, k3⟩
    · norm_num
      linarith
    · norm_num at hG1 ⊢
      linarith
  obtain ⟨fx, fy, fz⟩ := sumV_foldl (V.engines.map fun e => e.thrust P) V3.zero
  obtain ⟨x1, x2⟩ := key (·.x) (·.x) fun h => ⟨(engineThrust_near hF h hP h0 h1 rfl).1.x, (engineThrust_near hF h hP h0 h1 rfl).2.1⟩
  obtain ⟨y1, y2⟩ := key (·.y) (·.y) fun h => ⟨(engineThrust_near hF h hP h0 h1 rfl).1.y, (engineThrust_near hF h hP h0 h1 rfl).2.2.1⟩
  obtain ⟨z1, z2⟩ := key (·.z) (·.z) fun h => ⟨(engineThrust_near hF h hP h0 h1 rfl).1.z, (engineThrust_near hF h hP h0 h1 rfl).2.2.2⟩
  obtain ⟨ux, ux'⟩ := hmul x1 x2
  obtain ⟨uy, uy'⟩ := hmul y1 y2
  obtain ⟨uz, uz'⟩ := hmul z1 z2
  refine ⟨hG0, ⟨?_, ?_, ?_⟩, ux', uy', uz'⟩
  · show Near (K * (V3.sum (V.engines.map fun e => e.thrust P)).x) _ _
    rw [show (V3.sum (V.engines.map fun e => e.thrust P)).x = _ from fx]
    exact ux
  · show Near (K * (V3.sum (V.engines.map fun e => e.thrust P)).y) _ _
    rw [show (V3.sum (V.engines.map fun e => e.thrust P)).y = _ from fy]
    exact uy
  · show Near (K * (V3.sum (V.engines.map fun e => e.thrust P)).z) _ _
    rw [show (V3.sum (V.engines.map fun e => e.thrust P)).z = _ from fz]
    exact uz

theorem Near.nanToZero {x : F64 L} {ξ e : ℝ} (h : Near x ξ e) : Near (Post.nanToZero x) ξ e := by
  obtain ⟨q, hq, _⟩ := id h
  have : Flt.isNan x = false := by
    simp only [Flt.isNan]
    rw [is_eq hq hq]
    simp
  unfold Post.nanToZero
  rw [this]
  exact h

/-- a coefficient -/
theorem coefficient_near {t : Table (F64 L)} {s : State (F64 L)} {M : ℝ} (hM : 1e-30 ≤ M) (hM' : M ≤ 1e6)
    (h : WellFormed t ∧ Covers M s t) : ∃ r, t.atState s = .ok r ∧ Near r (exactValue s t) (1e-14 * M) ∧
      |exactValue s t| ≤ 1.001 * M := by
  obtain ⟨r, h1, h2, h3⟩ := C74_accuracy hM (hM'.trans (by norm_num)) h.1 h.2
  obtain ⟨r', h1', _, h4, h5⟩ := C74_range hM (hM'.trans (by norm_num)) h.1 h.2 (lo := -M) (hi := M)
    fun y hy => abs_le.1 (h.2.entries y hy).2
  obtain rfl : r = r' := by rw [h1] at h1'; injection h1'
  obtain ⟨q, k1, k2⟩ := isNumber_is h2
  refine ⟨r, h1, ⟨q, k1, by rw [k2]; exact h3⟩, ?_⟩
  have h6 : |real r| ≤ 1.0001 * M := by
    rw [abs_le]
    norm_num at *
    constructor <;> linarith
  have h7 := abs_sub_abs_le_abs_sub (exactValue s t) (real r)
  rw [abs_sub_comm] at h7
  norm_num at *
  linarith

/-- the aerodynamic force -/
theorem aeroForce_near (hF : FrameLibrary L) {p : Phase (F64 L)} {s : State (F64 L)} {M : ℝ}
    (hc : CoefficientsCovered p s M) {q S α : ℝ} (hq : Reads s.dynamicPressure q) (hS : Reads p.vehicle.referenceArea S)
    (hα : Reads s.alpha α) (q0 : 0 ≤ q) (q1 : q ≤ 1e9) (S0 : 0 ≤ S) (S1 : S ≤ 1e6) (hα' : |α| ≤ 1000) :
    ∃ f, p.vehicle.aeroForce s = .ok f ∧ NearV f (tableForce p s (q * S) α) (2.7e-14 * (q * S * M) + 1e-22) ∧
      |(tableForce p s (q * S) α).x| ≤ 2.01 * (q * S * M) ∧ |(tableForce p s (q * S) α).y| ≤ 2.01 * (q * S * M) ∧
      |(tableForce p s (q * S) α).z| ≤ 2.01 * (q * S * M) := by
  have hM := hc.low
  have hM' := hc.high
  have hM0 : 0 < M := lt_of_lt_of_le (by norm_num) hM
  obtain ⟨cd, d1, d2, d3⟩ := coefficient_near hM hM' hc.drag
  obtain ⟨cl, l1, l2, l3⟩ := coefficient_near hM hM' hc.lift
  obtain ⟨cy, y1, y2, y3⟩ := coefficient_near hM hM' hc.side
  obtain ⟨⟨sa, sa'⟩, ca, ca'⟩ := near_of_reads hα hα' hF
  unfold tableForce
  set D := exactValue s p.vehicle.dragCoeff
  set C := exactValue s p.vehicle.liftCoeff
  set Y := exactValue s p.vehicle.sideForceCoeff
  have hQ0 : 0 ≤ q * S := mul_nonneg q0 S0
  have hQ1 : q * S ≤ 1e15 := by
    have := mul_le_mul q1 S1 S0 (by norm_num)
    norm_num at this ⊢
    linarith
  have nQ : Near (s.dynamicPressure * p.vehicle.referenceArea) (q * S) (1.2e-16 * (q * S) + 1e-40) := by
    refine (reads_near.1 hq).mul (reads_near.1 hS) (A := 1e9) (B := 1e6) (M := q * S) ?_ ?_ ?_ ?_ ?_
    · rwa [abs_of_nonneg q0]
    · rwa [abs_of_nonneg S0]
    · rw [abs_of_nonneg hQ0]
    · norm_num
    · norm_num at *; linarith
  generalize q * S = Q at *
  have hQM : 0 ≤ Q * M := by positivity
  have hQM' : Q * M ≤ 1e21 := by
    have := mul_le_mul hQ1 hM' hM0.le (by norm_num)
    norm_num at this ⊢
    linarith
  clear hq hS hα
  have prod : ∀ {x y : F64 L} {ξ η : ℝ}, Near x ξ 1e-15 → |ξ| ≤ 1 → Near y η (1e-14 * M) → |η| ≤ 1.001 * M →
      Near (x * y) (ξ * η) (1.2e-14 * M + 2e-40) ∧ |ξ * η| ≤ 1.001 * M := by
    intro x y ξ η k1 k2 k3 k4
    have k5 : |ξ * η| ≤ 1.001 * M := abs_mul_le k2 k4 (by linarith)
    refine ⟨k1.mul k3 k2 k4 k5 ?_ ?_, k5⟩ <;> clear k1 k3 nQ d2 l2 y2 sa ca <;> norm_num at * <;> linarith
  have scale : ∀ {x : F64 L} {ξ : ℝ}, Near x ξ (2.5e-14 * M + 1e-39) → |ξ| ≤ 2.002 * M →
      Near (s.dynamicPressure * p.vehicle.referenceArea * x) (Q * ξ) (2.7e-14 * (Q * M) + 1e-22) ∧
        |Q * ξ| ≤ 2.01 * (Q * M) := by
    intro x ξ k1 k2
    have hQa : |Q| ≤ Q := by rw [abs_of_nonneg hQ0]
    have k5 : |Q * ξ| ≤ 2.01 * (Q * M) := abs_mul_le hQa k2 (by norm_num at *; linarith)
    refine ⟨nQ.mul k1 (M := 2.01 * (Q * M)) hQa k2 k5 ?_ ?_, k5⟩ <;> clear k1 k2 nQ d2 l2 y2 sa ca prod k5 <;>
      norm_num at * <;> nlinarith
  obtain ⟨p1, p1'⟩ := prod ca ca' d2 d3
  obtain ⟨p2, p2'⟩ := prod sa sa' l2 l3
  obtain ⟨p3, p3'⟩ := prod sa sa' d2 d3
  obtain ⟨p4, p4'⟩ := prod ca ca' l2 l3
  have b1 : |Real.cos α * D - Real.sin α * C| ≤ 2.002 * M := by
    rw [sub_eq_add_neg]
    exact abs_add_le' (B := 1.001 * M) p1' (by rw [abs_neg]; exact p2') (by linarith)
  have b2 : |Real.sin α * D + Real.cos α * C| ≤ 2.002 * M := abs_add_le' p3' p4' (by linarith)
  have s1 : Near (Flt.cos s.alpha * cd - Flt.sin s.alpha * cl) (Real.cos α * D - Real.sin α * C) (2.5e-14 * M + 1e-39) := by
    refine p1.sub p2 b1 ?_ ?_ <;> clear p1 p2 p3 p4 nQ d2 l2 y2 sa ca prod scale <;> norm_num at * <;> linarith
  have s2 : Near (Flt.sin s.alpha * cd + Flt.cos s.alpha * cl) (Real.sin α * D + Real.cos α * C) (2.5e-14 * M + 1e-39) := by
    refine p3.add p4 b2 ?_ ?_ <;> clear p1 p2 p3 p4 nQ d2 l2 y2 sa ca prod scale s1 <;> norm_num at * <;> linarith
  obtain ⟨f1, f1'⟩ := scale s1.neg (by rwa [abs_neg])
  obtain ⟨f2, f2'⟩ := scale (y2.mono (by norm_num; linarith)) (y3.trans (by norm_num at *; linarith))
  obtain ⟨f3, f3'⟩ := scale s2.neg (by rwa [abs_neg])
  have e1 : (airForce Q α D C Y).x = Q * -(Real.cos α * D - Real.sin α * C) := by
    simp only [airForce, rscale, radd]; ring
  have e2 : (airForce Q α D C Y).y = Q * Y := by simp [airForce, rscale, radd]
  have e3 : (airForce Q α D C Y).z = Q * -(Real.sin α * D + Real.cos α * C) := by
    simp only [airForce, rscale, radd]; ring
  refine ⟨(V3.smul (s.dynamicPressure * p.vehicle.referenceArea) ⟨-(Flt.cos s.alpha * cd - Flt.sin s.alpha * cl), cy,
      -(Flt.sin s.alpha * cd + Flt.cos s.alpha * cl)⟩).map Post.nanToZero, ?_, ⟨?_, ?_, ?_⟩, ?_, ?_, ?_⟩
  · unfold Vehicle.aeroForce
    rw [d1, l1, y1]
    rfl
  · rw [e1]; exact f1.nanToZero
  · rw [e2]; exact f2.nanToZero
  · rw [e3]; exact f3.nanToZero
  · rw [e1]; exact f1'
  · rw [e2]; exact f2'
  · rw [e3]; exact f3'

/-- Newton's second law -/
theorem newton_near {f T : V3 (F64 L)} {φ τ : V3 ℝ} (hf : ReadsV f φ) (hT : ReadsV T τ) {K : F64 L} {m : ℝ} (hm : Reads K m)
    (hm1 : 1e-6 ≤ m) (hW : rnorm (radd φ τ) ≤ 1e25) :
    NearV ((f + T).divS K) (rscale (1 / m) (radd φ τ)) (3.7e-16 * (rnorm (radd φ τ) / m) + 1e-33) := by
  have hm0 : 0 < m := lt_of_lt_of_le (by norm_num) hm1
  set W := rnorm (radd φ τ) with hW'
  have hW0 : 0 ≤ W := Real.sqrt_nonneg _
  have hWm : 0 ≤ W / m := by positivity
  have hWm' : W / m ≤ 1e31 := by
    rw [div_le_iff₀ hm0]
    norm_num at *
    linarith
  obtain ⟨c1, c2, c3⟩ := comp_le_rnorm (radd φ τ)
  rw [← hW'] at c1 c2 c3
  have key : ∀ {x y : F64 L} {ξ η : ℝ}, Reads x ξ → Reads y η → |ξ + η| ≤ W →
      Near ((x + y) / K) (1 / m * (ξ + η)) (3.7e-16 * (W / m) + 1e-33) := by
    intro x y ξ η h1 h2 h3
    have n1 : Near (x + y) (ξ + η) (1.2e-16 * W + 1e-40) :=
      (reads_near.1 h1).add (reads_near.1 h2) h3 (by norm_num) (by norm_num at *; linarith)
    have e : 2 * ((1.2e-16 * W + 1e-40) + W / m * 0) / m = 2.4e-16 * (W / m) + 2e-40 * (1 / m) := by field_simp; ring
    have hi : 1 / m ≤ 1e6 := by
      rw [div_le_iff₀ hm0]
      norm_num at *
      linarith
    refine (n1.div (reads_near.1 hm) (b := m) (M := W / m) hm0 (le_abs_self m) (by linarith) ?_ ?_ ?_).congr (by ring)
    · rw [abs_div, abs_of_pos hm0]
      exact div_le_div_of_nonneg_right h3 hm0.le
    · rw [e]
      have : 0 ≤ 1 / m := by positivity
      generalize 1 / m = I at *
      generalize W / m = J at *
      clear n1
      norm_num at *
      linarith
    · rw [e]
      have : 0 ≤ 1 / m := by positivity
      generalize 1 / m = I at *
      generalize W / m = J at *
      clear n1
      norm_num at *
      linarith
  exact ⟨key hf.1 hT.1 c1, key hf.2.1 hT.2.1 c2, key hf.2.2 hT.2.2 c3⟩

end Post
