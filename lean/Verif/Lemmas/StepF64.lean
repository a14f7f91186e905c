import Verif.Lemmas.CoastF64
/-! # One integration step in double precision -/

namespace Post
open Spec Flt F64

section scalar
variable {L : Libm} {y h v T1 T2 T3 T4 : F64 L} {Y η ξ τ1 τ2 τ3 τ4 E K B e : ℝ}

theorem near_zz : Near (0 * 0 : F64 L) 0 1e-40 := by
  have := Near.zero.mul (Near.zero (L := L)) (A := 0) (B := 0) (M := 0) (e := 1e-40) (by simp) (by simp)
    (by simp) (by norm_num) (by norm_num)
  simpa using this

theorem near_zT (h1 : Near T1 τ1 E) : Near (0 * T1) 0 1e-40 := by
  have := Near.zero.mul h1 (A := 0) (B := |τ1|) (M := 0) (e := 1e-40) (by simp) le_rfl
    (by simp) (by norm_num) (by norm_num)
  simpa using this

theorem near_hv (hh : Near h η 0) (h0 : 0 ≤ η) (h1 : η ≤ 1) (hv : Near v ξ E) (hK : |ξ| ≤ K) (hE : E ≤ 1)
    (hK' : K ≤ 1e5) : Near (h * v) (η * ξ) (E + 1.2e-16 * (K + E) + 1e-40) := by
  have hη : |η| ≤ 1 := by rw [abs_of_nonneg h0]; exact h1
  refine hh.mul hv (A := 1) (B := K) (M := K) hη hK (abs_mul_le hη hK (by linarith)) (by linarith) ?_
  norm_num at hK' ⊢
  linarith

theorem abs_hv (h0 : 0 ≤ η) (h1 : η ≤ 1) (hK : |ξ| ≤ K) : |η * ξ| ≤ K :=
  abs_mul_le (A := 1) (by rw [abs_of_nonneg h0]; exact h1) hK (by linarith)

theorem near_half : Near (0.5 : F64 L) 0.5 1e-16 :=
  Near.lit 5 true 1 (by norm_num) (by norm_num [abs_of_pos]) (by norm_num [abs_of_pos])

theorem near_sixth : Near (1 / 6 : F64 L) (1 / 6) 3e-17 := by
  have six : Near (6 : F64 L) 6 0 := Near.nat 6 (by norm_num)
  exact Near.one.div six (b := 6) (M := 1 / 6) (by norm_num) (by norm_num) (by norm_num)
    (by norm_num [abs_of_pos]) (by norm_num) (by norm_num)

theorem near_third : Near (1 / 3 : F64 L) (1 / 3) 5e-17 := by
  have three : Near (3 : F64 L) 3 0 := Near.nat 3 (by norm_num)
  exact Near.one.div three (b := 3) (M := 1 / 3) (by norm_num) (by norm_num) (by norm_num)
    (by norm_num [abs_of_pos]) (by norm_num) (by norm_num)

/-- a coefficient times a stage vector -/
theorem near_cT {c : F64 L} {γ : ℝ} (hc : Near c γ 1e-16) (h0 : 0 ≤ γ) (hγ : γ ≤ 1) (h1 : Near T1 τ1 E)
    (hK : |τ1| ≤ K) (hE : E ≤ 1) (hK' : K ≤ 1e5) :
    Near (c * T1) (γ * τ1) (γ * E + 3e-16 * (K + E) + 1e-40) := by
  have hE0 := h1.nonneg
  have hK0 := (abs_nonneg _).trans hK
  have hγE : γ * E ≤ E := by nlinarith
  have hγK : γ * K ≤ K := by nlinarith
  refine hc.mul h1 (A := γ) (B := K) (M := K) (by rw [abs_of_nonneg h0])
    hK (abs_mul_le (by rw [abs_of_nonneg h0]) hK hγK) ?_ ?_
  · norm_num at hK' ⊢
    linarith
  · norm_num at hK' ⊢
    linarith

theorem near_add_small {x z : F64 L} {α δ a b : ℝ} (hx : Near x α a) (hz : Near z δ b) (hK : |α + δ| ≤ K)
    (hab : a + b ≤ 4) (hK' : K ≤ 1e5) : Near (x + z) (α + δ) (a + b + 1.2e-16 * (K + (a + b)) + 1e-40) := by
  refine hx.add hz hK le_rfl ?_
  norm_num at hK' ⊢
  linarith

theorem near_yT (hy : Near y Y 0) (hB : |Y| ≤ B) (hB' : B ≤ 1e9) (h1 : Near T1 τ1 E) (hK : |τ1| ≤ K) (hE : E ≤ 4)
    (hK' : K ≤ 1e5) : Near (y + T1) (Y + τ1) (E + 1.2e-16 * (B + K + E) + 1e-40) := by
  refine hy.add h1 (M := B + K) (abs_add_le' hB hK le_rfl) (by linarith) ?_
  norm_num at hK' hB' ⊢
  linarith

theorem near_stage2 (hy : Near y Y 0) (hB : |Y| ≤ B) (hB' : B ≤ 1e9) (h1 : Near T1 τ1 E) (hK : |τ1| ≤ K)
    (hE : E ≤ 1) (hK' : K ≤ 1e5) (he : E + 1e-14 * (K + E) + 1.3e-16 * B + 1e-37 ≤ e) :
    Near (y + ((((0 + 0.5 * T1) + 0 * 0) + 0 * 0) + 0 * 0)) (Y + 0.5 * τ1) e := by
  have hE0 := h1.nonneg
  have hK0 := (abs_nonneg _).trans hK
  have hB0 := (abs_nonneg _).trans hB
  have hb : |0.5 * τ1| ≤ K := abs_mul_le (A := 0.5) (B := K) (by norm_num [abs_of_pos]) hK (by norm_num; linarith)
  have a1 := near_cT near_half (by norm_num) (by norm_num) h1 hK hE hK'
  norm_num at a1 hb he hE0 hK0 hB0 hK' hB'
  have a2 := near_add_small Near.zero a1 (by simpa using hb) (by norm_num; linarith) (by norm_num; linarith)
  have a3 := near_add_small a2 near_zz (by simpa using hb) (by norm_num; linarith) (by norm_num; linarith)
  have a4 := near_add_small a3 near_zz (by simpa using hb) (by norm_num; linarith) (by norm_num; linarith)
  have a5 := near_add_small a4 near_zz (by simpa using hb) (by norm_num; linarith) (by norm_num; linarith)
  have a6 := near_yT hy hB (by norm_num; linarith) a5 (by simpa using hb) (by norm_num; linarith) (by norm_num; linarith)
  refine (a6.congr (by norm_num)).mono ?_
  norm_num
  linarith

theorem near_stage3 (hy : Near y Y 0) (hB : |Y| ≤ B) (hB' : B ≤ 1e9) (h1 : Near T1 τ1 E) (h2 : Near T2 τ2 E)
    (hK : |τ2| ≤ K) (hE : E ≤ 1) (hK' : K ≤ 1e5) (he : E + 1e-14 * (K + E) + 1.3e-16 * B + 1e-37 ≤ e) :
    Near (y + ((((0 + 0 * T1) + 0.5 * T2) + 0 * 0) + 0 * 0)) (Y + 0.5 * τ2) e := by
  have hE0 := h1.nonneg
  have hK0 := (abs_nonneg _).trans hK
  have hB0 := (abs_nonneg _).trans hB
  have hb : |0.5 * τ2| ≤ K := abs_mul_le (A := 0.5) (B := K) (by norm_num [abs_of_pos]) hK (by norm_num; linarith)
  have a1 := near_cT near_half (by norm_num) (by norm_num) h2 hK hE hK'
  have a0 := near_zT h1
  norm_num at a0 a1 hb he hE0 hK0 hB0 hK' hB'
  have a2 := near_add_small (K := K) Near.zero a0 (by simpa using hK0) (by norm_num) (by norm_num; linarith)
  have a3 := near_add_small a2 a1 (by simpa using hb) (by norm_num; linarith) (by norm_num; linarith)
  have a4 := near_add_small a3 near_zz (by simpa using hb) (by norm_num; linarith) (by norm_num; linarith)
  have a5 := near_add_small a4 near_zz (by simpa using hb) (by norm_num; linarith) (by norm_num; linarith)
  have a6 := near_yT hy hB (by norm_num; linarith) a5 (by simpa using hb) (by norm_num; linarith) (by norm_num; linarith)
  refine (a6.congr (by norm_num)).mono ?_
  norm_num
  linarith

theorem near_stage4 (hy : Near y Y 0) (hB : |Y| ≤ B) (hB' : B ≤ 1e9) (h1 : Near T1 τ1 E) (h2 : Near T2 τ2 E)
    (h3 : Near T3 τ3 E)
    (hK : |τ3| ≤ K) (hE : E ≤ 1) (hK' : K ≤ 1e5) (he : E + 1e-14 * (K + E) + 1.3e-16 * B + 1e-37 ≤ e) :
    Near (y + ((((0 + 0 * T1) + 0 * T2) + 1 * T3) + 0 * 0)) (Y + τ3) e := by
  have hE0 := h1.nonneg
  have hK0 := (abs_nonneg _).trans hK
  have hB0 := (abs_nonneg _).trans hB
  have a1 := near_cT (Near.one.mono (by norm_num)) (by norm_num) (by norm_num) h3 hK hE hK'
  have a0 := near_zT h1
  have a0' := near_zT h2
  norm_num at a0 a0' a1 he hE0 hK0 hB0 hK' hB'
  have a2 := near_add_small (K := K) Near.zero a0 (by simpa using hK0) (by norm_num) (by norm_num; linarith)
  have a3 := near_add_small (K := K) a2 a0' (by simpa using hK0) (by norm_num; linarith) (by norm_num; linarith)
  have a4 := near_add_small a3 a1 (by simpa using hK) (by norm_num; linarith) (by norm_num; linarith)
  have a5 := near_add_small a4 near_zz (by simpa using hK) (by norm_num; linarith) (by norm_num; linarith)
  have a6 := near_yT hy hB (by norm_num; linarith) a5 (by simpa using hK) (by norm_num; linarith) (by norm_num; linarith)
  refine (a6.congr (by norm_num)).mono ?_
  norm_num
  linarith

theorem near_final (hy : Near y Y 0) (hB : |Y| ≤ B) (hB' : B ≤ 1e9) (h1 : Near T1 τ1 E) (h2 : Near T2 τ2 E)
    (h3 : Near T3 τ3 E) (h4 : Near T4 τ4 E) (k1 : |τ1| ≤ K) (k2 : |τ2| ≤ K) (k3 : |τ3| ≤ K) (k4 : |τ4| ≤ K)
    (hE : E ≤ 1) (hK' : K ≤ 1e5) (he : E + 1e-14 * (K + E) + 1.3e-16 * B + 1e-37 ≤ e) :
    Near (y + ((((0 + 1 / 6 * T1) + 1 / 3 * T2) + 1 / 3 * T3) + 1 / 6 * T4))
      (Y + (1 / 6 * τ1 + 1 / 3 * τ2 + 1 / 3 * τ3 + 1 / 6 * τ4)) e := by
  have hE0 := h1.nonneg
  have hK0 := (abs_nonneg _).trans k1
  have hB0 := (abs_nonneg _).trans hB
  have six : Near (1 / 6 : F64 L) (1 / 6) 1e-16 := near_sixth.mono (by norm_num)
  have three : Near (1 / 3 : F64 L) (1 / 3) 1e-16 := near_third.mono (by norm_num)
  have a1 := near_cT six (by norm_num) (by norm_num) h1 k1 hE hK'
  have a2 := near_cT three (by norm_num) (by norm_num) h2 k2 hE hK'
  have a3 := near_cT three (by norm_num) (by norm_num) h3 k3 hE hK'
  have a4 := near_cT six (by norm_num) (by norm_num) h4 k4 hE hK'
  obtain ⟨l1, u1⟩ := abs_le.1 k1
  obtain ⟨l2, u2⟩ := abs_le.1 k2
  obtain ⟨l3, u3⟩ := abs_le.1 k3
  obtain ⟨l4, u4⟩ := abs_le.1 k4
  norm_num at he hK' hB'
  have b1 := near_add_small (K := K) Near.zero a1 (by rw [abs_le]; constructor <;> linarith)
    (by norm_num; linarith) (by norm_num; linarith)
  have b2 := near_add_small (K := K) b1 a2 (by rw [abs_le]; constructor <;> linarith)
    (by norm_num; linarith) (by norm_num; linarith)
  have b3 := near_add_small (K := K) b2 a3 (by rw [abs_le]; constructor <;> linarith)
    (by norm_num; linarith) (by norm_num; linarith)
  have b4 := near_add_small (K := K) b3 a4 (by rw [abs_le]; constructor <;> linarith)
    (by norm_num; linarith) (by norm_num; linarith)
  have b5 := near_yT (K := K) hy hB (by norm_num; linarith) b4 (by rw [abs_le]; constructor <;> linarith)
    (by norm_num; linarith) (by norm_num; linarith)
  refine (b5.congr (by ring)).mono ?_
  norm_num
  linarith

end scalar

section step
variable {L : Libm}

noncomputable section

/-- rounding errors of the stage vectors -/
def eY : Fin 7 → ℝ := ![2.8e-9, 2.8e-9, 2.8e-9, 2.9e-11, 2.9e-11, 2.9e-11, 0]
/-- errors of their derivatives -/
def eW : Fin 7 → ℝ := ![3e-11, 3e-11, 3e-11, 2.1e-11, 2.1e-11, 2.1e-11, 0]
/-- sizes of the stage vectors -/
def bY : Fin 7 → ℝ := ![2e7, 2e7, 2e7, 8500, 8500, 8500, 0]
/-- sizes of their derivatives -/
def bW : Fin 7 → ℝ := ![8500, 8500, 8500, 33, 33, 33, 0]

/-- where the stage vectors are -/
structure Reg (P : Fin 7 → ℝ) : Prop where
  lo : 6.405e6 ≤ rnorm (pos7 P)
  hi : rnorm (pos7 P) ≤ 1.99e7
  vel : rnorm (vel7 P) ≤ 8400

/-- where a step starts -/
structure Reg0 (P : Fin 7 → ℝ) : Prop where
  lo : 6.4139e6 ≤ rnorm (pos7 P)
  hi : rnorm (pos7 P) ≤ 1.98e7
  vel : rnorm (vel7 P) ≤ 8300

theorem Reg0.reg {P : Fin 7 → ℝ} (h : Reg0 P) : Reg P :=
  ⟨le_trans (by norm_num) h.lo, h.hi.trans (by norm_num), h.vel.trans (by norm_num)⟩

theorem rnorm_le_of_comp {w : V3 ℝ} {e : ℝ} (hx : |w.x| ≤ e) (hy : |w.y| ≤ e) (hz : |w.z| ≤ e) :
    rnorm w ≤ 2 * e := by
  have he : 0 ≤ e := (abs_nonneg _).trans hx
  unfold rnorm
  rw [Real.sqrt_le_left (by linarith)]
  have h1 : w.x ^ 2 ≤ e ^ 2 := sq_le_sq' (abs_le.1 hx).1 (abs_le.1 hx).2
  have h2 : w.y ^ 2 ≤ e ^ 2 := sq_le_sq' (abs_le.1 hy).1 (abs_le.1 hy).2
  have h3 : w.z ^ 2 ≤ e ^ 2 := sq_le_sq' (abs_le.1 hz).1 (abs_le.1 hz).2
  nlinarith [sq_nonneg e]

theorem rnorm_triangle (a b : V3 ℝ) : rnorm a ≤ rnorm b + rdist a b := by
  rw [← norm_e3, ← norm_e3, ← norm_e3_sub]
  have := norm_add_le (e3 b) (e3 a - e3 b)
  rwa [add_sub_cancel] at this

theorem rdist_comm (a b : V3 ℝ) : rdist a b = rdist b a := by
  rw [← norm_e3_sub, ← norm_e3_sub, norm_sub_rev]

variable {a μ j2 j3 j4 : ℝ} {gC : Kepler.C3 → Kepler.C3}

theorem fall_size (H : Kepler.Field (field a μ j2 j3 j4) gC 6.4e6 32.12 7.04e-6) {P : Fin 7 → ℝ}
    (hP : Reg P) : ∀ i, |fall a μ j2 j3 j4 P i| ≤ bW i := by
  have hg : rnorm (grav a μ j2 j3 j4 (pos7 P)) ≤ 32.12 := by
    have := H.size (by norm_num) (x := e3 (pos7 P)) (by
      rw [norm_e3]
      exact le_trans (by norm_num) hP.lo)
    rwa [field_e3, norm_e3] at this
  obtain ⟨g1, g2, g3⟩ := comp_le_rnorm (grav a μ j2 j3 j4 (pos7 P))
  obtain ⟨v1, v2, v3⟩ := comp_le_rnorm (vel7 P)
  have hv := hP.vel
  norm_num at hg hv
  intro i
  fin_cases i <;> simp only [bW, fall, vec7] <;> norm_num
  · exact v1.trans (by linarith)
  · exact v2.trans (by linarith)
  · exact v3.trans (by linarith)
  · exact g1.trans (by linarith)
  · exact g2.trans (by linarith)
  · exact g3.trans (by linarith)

theorem reg_next (H : Kepler.Field (field a μ j2 j3 j4) gC 6.4e6 32.12 7.04e-6) {Y P : Fin 7 → ℝ}
    (hY : Reg0 Y) (hP : Reg P) {c : ℝ} (h0 : 0 ≤ c) (h1 : c ≤ 1) : Reg (Y + c • fall a μ j2 j3 j4 P) := by
  have lin : (proj7 (Y + c • fall a μ j2 j3 j4 P)) = proj7 Y + c • proj7 (fall a μ j2 j3 j4 P) := by
    rw [map_add, map_smul]
  rw [← proj7_fall] at lin
  simp only [proj7_apply, Kepler.motion, Prod.smul_mk, Prod.mk_add_mk, Prod.mk.injEq] at lin
  obtain ⟨l1, l2⟩ := lin
  have hg : ‖field a μ j2 j3 j4 (e3 (pos7 P))‖ ≤ 32.12 := H.size (by norm_num) (by
      rw [norm_e3]
      exact le_trans (by norm_num) hP.lo)
  have hv : ‖e3 (vel7 P)‖ ≤ 8400 := by rw [norm_e3]; exact hP.vel
  have hsm : ∀ w : Kepler.R3, ‖c • w‖ ≤ ‖w‖ := by
    intro w
    rw [norm_smul, Real.norm_of_nonneg h0]
    nlinarith [norm_nonneg w]
  have d1 := hsm (e3 (vel7 P))
  have d2 := hsm (field a μ j2 j3 j4 (e3 (pos7 P)))
  have t1 := norm_add_le (e3 (pos7 Y)) (c • e3 (vel7 P))
  have t2 := norm_add_le (e3 (vel7 Y)) (c • field a μ j2 j3 j4 (e3 (pos7 P)))
  have t3 := norm_sub_norm_le (e3 (pos7 Y)) (-(c • e3 (vel7 P)))
  rw [norm_neg, sub_neg_eq_add] at t3
  have y1 := hY.lo
  have y2 := hY.hi
  have y3 := hY.vel
  norm_num at y1 y2 y3 hg hv
  rw [← norm_e3] at y1 y2 y3
  constructor
  · rw [← norm_e3, l1]
    norm_num
    linarith
  · rw [← norm_e3, l1]
    norm_num
    linarith
  · rw [← norm_e3, l2]
    norm_num
    linarith

/-- The equations of motion at a stage. -/
theorem stage_rhs (hL : GoodLibrary L) {p : Phase (F64 L)} (hp : CoastingDouble p)
    (hn : NearEarth p.planet a μ j2 j3 j4)
    (H : Kepler.Field (field a μ j2 j3 j4) gC 6.4e6 32.12 7.04e-6) {x : Fin 2 → F64 L} {y : Fin 7 → F64 L}
    {P : Fin 7 → ℝ} {m : ℚ} (hx : ∀ i, ∃ t, Reads (x i) t ∧ |t| ≤ 1e9)
    (hy : ∀ i, i ≠ 6 → Near (y i) (P i) (eY i)) (hm : (y 6).Is m) (hm0 : m ≠ 0) (hP : Reg P) :
    ∃ w, convertedFunc p.system x y = .ok w ∧
      (∀ i, i ≠ 6 → Near (w i) (fall a μ j2 j3 j4 P i) (eW i)) ∧ IsZero (w 6) ∧
      ∃ d, p.system (State.fromVec x y) = .ok d := by
  obtain ⟨t, ht, ht'⟩ := hx 0
  obtain ⟨te, hte, hte'⟩ := hx 1
  obtain ⟨q0, i0, e0⟩ := hy 0 (by decide)
  obtain ⟨q1, i1, e1⟩ := hy 1 (by decide)
  obtain ⟨q2, i2, e2⟩ := hy 2 (by decide)
  obtain ⟨q3, i3, e3'⟩ := hy 3 (by decide)
  obtain ⟨q4, i4, e4⟩ := hy 4 (by decide)
  obtain ⟨q5, i5, e5⟩ := hy 5 (by decide)
  let r : V3 ℝ := ⟨q0, q1, q2⟩
  let v : V3 ℝ := ⟨q3, q4, q5⟩
  have dr : rdist r (pos7 P) ≤ 5.6e-9 := by
    refine (rnorm_le_of_comp (e := 2.8e-9) e0 e1 e2).trans (by norm_num)
  have dv : rdist v (vel7 P) ≤ 5.8e-11 := by
    refine (rnorm_le_of_comp (e := 2.9e-11) e3' e4 e5).trans (by norm_num)
  have tr1 := rnorm_triangle r (pos7 P)
  have tr2 := rnorm_triangle (pos7 P) r
  have tv := rnorm_triangle v (vel7 P)
  rw [rdist_comm (pos7 P) r] at tr2
  have p1 := hP.lo
  have p2 := hP.hi
  have p3 := hP.vel
  have hr1 : 6.4e6 ≤ rnorm r := by norm_num at *; linarith
  have hr2 : rnorm r ≤ 2e7 := by norm_num at *; linarith
  have hv' : rnorm v ≤ 1e4 := by norm_num at *; linarith
  obtain ⟨d, hd, hvel, hacc, hfl⟩ := coast_system hL hp hn (s := State.fromVec x y) (r := r) (v := v) ht ht' hte hte'
    ⟨⟨q0, i0, rfl⟩, ⟨q1, i1, rfl⟩, ⟨q2, i2, rfl⟩⟩ hr1 hr2 ⟨⟨q3, i3, rfl⟩, ⟨q4, i4, rfl⟩, ⟨q5, i5, rfl⟩⟩ hv'
    ⟨m, hm, rfl⟩ (by exact_mod_cast hm0)
  have hlip : rdist (grav a μ j2 j3 j4 r) (grav a μ j2 j3 j4 (pos7 P)) ≤ 1e-12 := by
    have := H.lipschitz (e3 r) (e3 (pos7 P)) (by rw [norm_e3]; exact hr1) (by
      rw [norm_e3]
      exact le_trans (by norm_num) p1)
    rw [field_e3, field_e3, norm_e3_sub, norm_e3_sub] at this
    refine this.trans ((mul_le_mul_of_nonneg_left dr (by norm_num)).trans (by norm_num))
  obtain ⟨c1, c2, c3⟩ := comp_le_rnorm (rsub (grav a μ j2 j3 j4 r) (grav a μ j2 j3 j4 (pos7 P)))
  refine ⟨d.toDifferentialsVector, by simp [convertedFunc, hd, bind, Except.bind, pure, Except.pure], ?_, hfl,
    d, hd⟩
  have w : ∀ {z : F64 L} {q : ℚ} {ξ : ℝ}, z.Is q → |(q : ℝ) - ξ| ≤ 2.9e-11 → Near z ξ 3e-11 :=
    fun h1 h2 => ⟨_, h1, h2.trans (by norm_num)⟩
  intro i hi
  fin_cases i <;> simp only [fall, vec7, State.toDifferentialsVector, hvel]
  · exact w i3 e3'
  · exact w i4 e4
  · exact w i5 e5
  · exact hacc.x.move (c1.trans hlip) (by norm_num [eW])
  · exact hacc.y.move (c2.trans hlip) (by norm_num [eW])
  · exact hacc.z.move (c3.trans hlip) (by norm_num [eW])
  · exact absurd rfl hi

/-- The position, velocity and mass of the state, as numbers. -/
structure Vals (s : State (F64 L)) (Y : Fin 7 → ℝ) (m : ℚ) : Prop where
  val : ∀ i, i ≠ 6 → Near (s.toPrimaryVec i) (Y i) 0
  mass : s.mass.Is m
  dbl : s.mass.dbl.IsDouble

theorem time_add {x k : F64 L} {t κ e : ℝ} (hx : Reads x t) (hk : Near k κ e) (hκ : |κ| ≤ 1) (he : e ≤ 1)
    (ht : |t| ≤ 9e8) : ∃ t', Reads (x + k) t' ∧ |t'| ≤ 1e9 := by
  have h0 := hk.nonneg
  obtain ⟨q, h1, h2⟩ : Near (x + k) (t + κ) 4 := by
    refine (reads_near.1 hx).add hk (M := 9e8 + 1) (abs_add_le' ht hκ le_rfl) ?_ ?_ <;> norm_num <;> linarith
  refine ⟨q, ⟨q, h1, rfl⟩, ?_⟩
  have := abs_add_le' ht hκ (le_refl (9e8 + 1))
  have h3 := Near.big h2 this
  norm_num at h3 ⊢
  linarith

theorem coast_step (hL : GoodLibrary L) {p : Phase (F64 L)} (hp : CoastingDouble p)
    (hn : NearEarth p.planet a μ j2 j3 j4)
    (H : Kepler.Field (field a μ j2 j3 j4) gC 6.4e6 32.12 7.04e-6) {h : F64 L} {η : ℝ} (hh : Reads h η)
    (hη0 : 0 ≤ η) (hη1 : η ≤ 1) {s : State (F64 L)} {Y : Fin 7 → ℝ} {m : ℚ} (hs : Vals s Y m) (hm0 : m ≠ 0)
    (hx : ∀ i, ∃ t, Reads (vec2 s.time s.timeSinceEvent i) t ∧ |t| ≤ 9e8) (hY : Reg0 Y) :
    ∃ s', OneStep p h s s' ∧ ∃ Y', Vals s' Y' m ∧
      ∀ i, i ≠ 6 → |Y' i - RKOrder.rk4 (fall a μ j2 j3 j4) Y η i| ≤ eY i := by
  have hhq := hh
  obtain ⟨hq, hhq, _⟩ := hhq
  have hh' := reads_near.1 hh
  have hηa : |η| ≤ 1 := by rw [abs_of_nonneg hη0]; exact hη1
  set f := fall a μ j2 j3 j4 with hf
  set y := s.toPrimaryVec with hy
  let x := vec2 s.time s.timeSinceEvent
  -- sizes
  have hYb : ∀ i, i ≠ 6 → |Y i| ≤ bY i := by
    obtain ⟨r1, r2, r3⟩ := comp_le_rnorm (pos7 Y)
    obtain ⟨v1, v2, v3⟩ := comp_le_rnorm (vel7 Y)
    have y2 := hY.hi
    have y3 := hY.vel
    norm_num at y2 y3
    intro i hi
    fin_cases i <;> simp only [bY] <;> norm_num
    · exact r1.trans (by linarith)
    · exact r2.trans (by linarith)
    · exact r3.trans (by linarith)
    · exact v1.trans (by linarith)
    · exact v2.trans (by linarith)
    · exact v3.trans (by linarith)
    · exact absurd rfl hi
  have hbY : ∀ i, bY i ≤ 1e9 := by intro i; fin_cases i <;> norm_num [bY]
  have hbW : ∀ i, bW i ≤ 1e5 := by intro i; fin_cases i <;> norm_num [bW]
  have heW : ∀ i, eW i ≤ 1 := by intro i; fin_cases i <;> norm_num [eW]
  -- the errors of the products with the step size
  have hE1 : ∀ i, eW i + 1.2e-16 * (bW i + eW i) + 1e-40 ≤ 1 := by
    intro i
    fin_cases i <;> norm_num [eW, bW]
  have hfin : ∀ i, i ≠ 6 → (eW i + 1.2e-16 * (bW i + eW i) + 1e-40) +
      1e-14 * (bW i + (eW i + 1.2e-16 * (bW i + eW i) + 1e-40)) + 1.3e-16 * bY i + 1e-37 ≤ eY i := by
    intro i hi
    fin_cases i <;> first | exact absurd rfl hi | norm_num [eW, bW, bY, eY]
  have hT : ∀ {w : Fin 7 → F64 L} {P : Fin 7 → ℝ}, Reg P → (∀ i, i ≠ 6 → Near (w i) (f P i) (eW i)) →
      ∀ i, i ≠ 6 → Near (h * w i) (η * f P i) (eW i + 1.2e-16 * (bW i + eW i) + 1e-40) := by
    intro w P hP hw i hi
    exact near_hv hh' hη0 hη1 (hw i hi) (fall_size H hP i) (heW i) (hbW i)
  have hTb : ∀ {P : Fin 7 → ℝ}, Reg P → ∀ i, |η * f P i| ≤ bW i :=
    fun hP i => abs_hv hη0 hη1 (fall_size H hP i)
  have eY0 : ∀ i, i ≠ 6 → 0 ≤ eY i := by
    intro i hi
    fin_cases i <;> norm_num [eY]
  have zz : IsZero (0 * 0 : F64 L) := zero_isZero.mul_left is_zero
  -- times
  have hx1 : ∀ i, ∃ t, Reads (addScalar x (0 * h) i) t ∧ |t| ≤ 1e9 := by
    intro i
    obtain ⟨t, h1, h2⟩ := hx i
    exact time_add h1 (near_zT hh') (by simp) (by norm_num) h2
  have hx2 : ∀ i, ∃ t, Reads (addScalar x (0.5 * h) i) t ∧ |t| ≤ 1e9 := by
    intro i
    obtain ⟨t, h1, h2⟩ := hx i
    refine time_add h1 (near_cT near_half (by norm_num) (by norm_num) hh' hηa (by norm_num) (by norm_num)) ?_
      (by norm_num) h2
    exact abs_mul_le (A := 1) (B := 1) (by norm_num [abs_of_pos]) hηa (by norm_num)
  have hx4 : ∀ i, ∃ t, Reads (addScalar x (1 * h) i) t ∧ |t| ≤ 1e9 := by
    intro i
    obtain ⟨t, h1, h2⟩ := hx i
    refine time_add h1 (near_cT (Near.one.mono (by norm_num)) (by norm_num) (by norm_num) hh' hηa (by norm_num)
      (by norm_num)) ?_ (by norm_num) h2
    rw [one_mul]
    exact hηa
  have hx5 : ∀ i, ∃ t, Reads (addScalar x h i) t ∧ |t| ≤ 1e9 := by
    intro i
    obtain ⟨t, h1, h2⟩ := hx i
    exact time_add h1 hh' hηa (by norm_num) h2
  -- first stage
  have r1 : Reg Y := hY.reg
  obtain ⟨w1, e1, n1, z1, _⟩ := stage_rhs hL hp hn H (x := addScalar x (0 * h))
    (y := fun i => y i + ((((0 + 0 * 0) + 0 * 0) + 0 * 0) + 0 * 0)) (P := Y) (m := m) hx1
    (fun i hi => by
      have h0 : Near (0 + 0 * 0 + 0 * 0 + 0 * 0 + 0 * 0 : F64 L) 0 1e-38 := by
        have b1 := near_add_small (K := 0) Near.zero (near_zz (L := L)) (by simp) (by norm_num) (by norm_num)
        have b2 := near_add_small (K := 0) b1 near_zz (by simp) (by norm_num) (by norm_num)
        have b3 := near_add_small (K := 0) b2 near_zz (by simp) (by norm_num) (by norm_num)
        have b4 := near_add_small (K := 0) b3 near_zz (by simp) (by norm_num) (by norm_num)
        simp only [add_zero] at b4
        exact b4.mono (by norm_num)
      have := near_yT (hs.val i hi) (hYb i hi) (hbY i) h0 (K := 0) (by simp) (by norm_num) (by norm_num)
      simp only [add_zero] at this
      refine this.mono ?_
      fin_cases i <;> first | exact absurd rfl hi | norm_num [bY, eY])
    (is_add_zero hs.mass hs.dbl ((((zero_isZero.add zz).add zz).add zz).add zz)) hm0 r1
  have t1 := hT r1 n1
  have b1 := hTb r1
  -- second stage
  have r2 : Reg (Y + (η / 2) • f Y) := reg_next H hY r1 (by linarith) (by linarith)
  obtain ⟨_, half, _⟩ := near_half (L := L)
  obtain ⟨w2, e2, n2, z2, _⟩ := stage_rhs hL hp hn H (x := addScalar x (0.5 * h))
    (y := fun i => y i + ((((0 + 0.5 * (h * w1 i)) + 0 * 0) + 0 * 0) + 0 * 0)) (P := Y + (η / 2) • f Y) (m := m) hx2
    (fun i hi => (near_stage2 (hs.val i hi) (hYb i hi) (hbY i) (t1 i hi) (b1 i) (hE1 i) (hbW i)
      (hfin i hi)).congr (by
        simp only [Pi.add_apply, Pi.smul_apply, smul_eq_mul]
        ring))
    (is_add_zero hs.mass hs.dbl ((((zero_isZero.add ((z1.mul_left hhq).mul_left half)).add zz).add zz).add zz))
    hm0 r2
  have t2 := hT r2 n2
  have b2 := hTb r2
  -- third stage
  have r3 : Reg (Y + (η / 2) • f (Y + (η / 2) • f Y)) := reg_next H hY r2 (by linarith) (by linarith)
  obtain ⟨w3, e3, n3, z3, _⟩ := stage_rhs hL hp hn H (x := addScalar x (0.5 * h))
    (y := fun i => y i + ((((0 + 0 * (h * w1 i)) + 0.5 * (h * w2 i)) + 0 * 0) + 0 * 0))
    (P := Y + (η / 2) • f (Y + (η / 2) • f Y)) (m := m) hx2
    (fun i hi => (near_stage3 (hs.val i hi) (hYb i hi) (hbY i) (t1 i hi) (t2 i hi) (b2 i) (hE1 i) (hbW i)
      (hfin i hi)).congr (by
        simp only [Pi.add_apply, Pi.smul_apply, smul_eq_mul]
        ring))
    (is_add_zero hs.mass hs.dbl ((((zero_isZero.add ((z1.mul_left hhq).mul_left is_zero)).add
      ((z2.mul_left hhq).mul_left half)).add zz).add zz)) hm0 r3
  have t3 := hT r3 n3
  have b3 := hTb r3
  -- fourth stage
  have r4 : Reg (Y + η • f (Y + (η / 2) • f (Y + (η / 2) • f Y))) := reg_next H hY r3 (by linarith) (by linarith)
  obtain ⟨w4, e4, n4, z4, _⟩ := stage_rhs hL hp hn H (x := addScalar x (1 * h))
    (y := fun i => y i + ((((0 + 0 * (h * w1 i)) + 0 * (h * w2 i)) + 1 * (h * w3 i)) + 0 * 0))
    (P := Y + η • f (Y + (η / 2) • f (Y + (η / 2) • f Y))) (m := m) hx4
    (fun i hi => (near_stage4 (hs.val i hi) (hYb i hi) (hbY i) (t1 i hi) (t2 i hi) (t3 i hi) (b3 i) (hE1 i)
      (hbW i) (hfin i hi)).congr (by
        simp only [Pi.add_apply, Pi.smul_apply, smul_eq_mul]))
    (is_add_zero hs.mass hs.dbl ((((zero_isZero.add ((z1.mul_left hhq).mul_left is_zero)).add
      ((z2.mul_left hhq).mul_left is_zero)).add ((z3.mul_left hhq).mul_left is_one)).add zz)) hm0 r4
  have t4 := hT r4 n4
  have b4 := hTb r4
  -- the new state
  obtain ⟨_, h6⟩ := sixth_is (L := L)
  obtain ⟨_, h3⟩ := third_is (L := L)
  set y' : Fin 7 → F64 L := fun i => y i + ((((0 + 1 / 6 * (h * w1 i)) + 1 / 3 * (h * w2 i)) +
    1 / 3 * (h * w3 i)) + 1 / 6 * (h * w4 i)) with hy'
  have key := rk4_forward e1 e2 e3 e4
  have n5 : ∀ i, i ≠ 6 → Near (y' i) (RKOrder.rk4 f Y η i) (eY i) := by
    intro i hi
    refine (near_final (hs.val i hi) (hYb i hi) (hbY i) (t1 i hi) (t2 i hi) (t3 i hi) (t4 i hi) (b1 i) (b2 i) (b3 i)
      (b4 i) (hE1 i) (hbW i) (hfin i hi)).congr ?_
    simp only [RKOrder.rk4, Pi.add_apply, Pi.smul_apply, smul_eq_mul]
    ring
  have m5 : (y' 6).Is m := is_add_zero hs.mass hs.dbl ((((zero_isZero.add ((z1.mul_left hhq).mul_left h6)).add
      ((z2.mul_left hhq).mul_left h3)).add ((z3.mul_left hhq).mul_left h3)).add ((z4.mul_left hhq).mul_left h6))
  obtain ⟨d, hd⟩ := coasting_system hp.unlimited hp.engines hp.tables (State.fromVec (addScalar x h) y')
  have hprim := Phase.system_primary hd
  choose q hq1 hq2 using n5
  refine ⟨d, ?_, fun i => if hi : i ≠ 6 then (q i hi : ℝ) else 0, ⟨?_, ?_, ?_⟩, ?_⟩
  · unfold OneStep
    cases p.integrator
    simp only [Integrator.step, bind, Except.bind]
    rw [show RK4.step (convertedFunc p.system) (vec2 s.time s.timeSinceEvent) s.toPrimaryVec h = _
      from key]
    exact hd
  · intro i hi
    have e : d.toPrimaryVec i = y' i := by
      unfold State.toPrimaryVec
      rw [hprim.2.2.1, hprim.2.2.2.1, hprim.2.2.2.2]
      fin_cases i <;> rfl
    rw [e]
    simp only [hi, ne_eq, not_false_eq_true, dite_true]
    exact Near.of_is (hq1 i hi)
  · rw [hprim.2.2.2.2]
    exact m5
  · rw [hprim.2.2.2.2]
    exact Dbl.add_isDouble _ _
  · intro i hi
    simp only [hi, ne_eq, not_false_eq_true, dite_true]
    exact hq2 i hi

end
end step

end Post
