import Verif.Lemmas.AltF64
import Verif.Lemmas.CoastF64
import Verif.Lemmas.StepF64
import Verif.Spec.Vec
/-! # Lemmas: velocities relative to the Earth and to the air in double precision -/

set_option exponentiation.threshold 2000

namespace Post
open Spec Flt F64
variable {L : Libm}

/-- rounding a double changes nothing -/
theorem is_round_exact {s : Bool} {q : ℚ} (h : Dbl.IsMag |q|) : F64.Is (⟨Dbl.round s q⟩ : F64 L) q := by
  unfold Dbl.round
  by_cases h0 : q = 0
  · rw [if_pos h0]
    exact ⟨s, 0, rfl, by rw [Dbl.val_zero, h0], le_rfl⟩
  · rw [if_neg h0, Dbl.roundMag_isMag_self h, if_neg (not_le.2 h.lt)]
    refine ⟨_, _, rfl, ?_, abs_nonneg q⟩
    unfold Dbl.val
    by_cases hq : q < 0
    · simp [hq, abs_of_neg hq]
    · simp [hq, abs_of_nonneg (not_lt.1 hq)]

/-- subtracting a double from zero is exact -/
theorem is_zero_sub {z x : F64 L} {q : ℚ} (hz : z.Is 0) (hx : x.Is q) (hd : x.dbl.IsDouble) : (z - x).Is (-q) := by
  obtain ⟨s, a, h1, rfl, h3⟩ := hx
  obtain ⟨t, b, h4, h5, _⟩ := hz
  have e : z - x = ⟨Dbl.round (t && !s) (Dbl.val t b + Dbl.val (!s) a)⟩ := by
    show (⟨Dbl.add _ (Dbl.neg _)⟩ : F64 L) = _
    rw [h1, h4]
    rfl
  have e2 : Dbl.val t b + Dbl.val (!s) a = -Dbl.val s a := by
    rw [h5]
    cases s <;> simp [Dbl.val]
  rw [e, e2]
  apply is_round_exact
  rw [abs_neg, Dbl.val_abs s h3]
  rw [h1] at hd
  exact hd

/-- the difference of equal numbers is zero -/
theorem is_sub_self {x y : F64 L} {q : ℚ} (hx : x.Is q) (hy : y.Is q) : (x - y).Is 0 := by
  obtain ⟨s, a, h1, rfl, h3⟩ := hx
  obtain ⟨t, b, h4, h5, _⟩ := hy
  have e : x - y = ⟨Dbl.round (s && !t) (Dbl.val s a + Dbl.val (!t) b)⟩ := by
    show (⟨Dbl.add _ (Dbl.neg _)⟩ : F64 L) = _
    rw [h1, h4]
    rfl
  have e2 : Dbl.val (!t) b = -Dbl.val t b := by cases t <;> simp [Dbl.val]
  rw [e, e2, h5, add_neg_cancel]
  exact ⟨_, 0, rfl, Dbl.val_zero _, le_rfl⟩

/-- If `-(0 - c)` is a number then it is `c`. -/
theorem is_neg_zero_sub {c : F64 L} {q : ℚ} (hd : c.dbl.IsDouble) (h : (-(0 - c)).Is q) : c.Is q := by
  obtain ⟨t, b, h4, h5, _⟩ := F64.is_zero (L := L)
  have e : (-((0 : F64 L) - c)).dbl = ((Dbl.add (.fin t b) c.dbl.neg)).neg := by
    show Dbl.neg (Dbl.add _ (Dbl.neg _)) = _
    rw [h4]
  rcases hc : c.dbl with _ | u | ⟨u, d⟩
  · obtain ⟨s, a, h1, _⟩ := h
    rw [e, hc] at h1
    cases h1
  · obtain ⟨s, a, h1, _⟩ := h
    rw [e, hc] at h1
    cases h1
  · have hd' := hd
    rw [hc] at hd'
    have hi : c.Is (Dbl.val u d) := ⟨u, d, hc, rfl, Dbl.IsMag.nonneg hd'⟩
    have h1 := F64.is_neg (is_zero_sub F64.is_zero hi hd)
    rw [neg_neg] at h1
    rwa [h.unique h1]

/-- The velocity relative to a planet at rest relative to it is zero, exactly. -/
theorem velocityPlanet_rest {P : Planet (F64 L)} {r : V3 (F64 L)}
    (h : FiniteDouble (-(P.velocityPlanet r .zero)).x ∧ FiniteDouble (-(P.velocityPlanet r .zero)).y ∧
      FiniteDouble (-(P.velocityPlanet r .zero)).z) :
    ReadsV (P.velocityPlanet r (-(P.velocityPlanet r .zero))) ⟨0, 0, 0⟩ := by
  have key : ∀ {c : F64 L}, c.dbl.IsDouble → FiniteDouble (-(0 - c)) → Reads (-(0 - c) - c) 0 := by
    rintro c hd ⟨q, hq⟩
    exact ⟨0, is_sub_self hq (is_neg_zero_sub hd hq), by simp⟩
  exact ⟨key (Dbl.add_isDouble _ _) h.1, key (Dbl.add_isDouble _ _) h.2.1, key (Dbl.add_isDouble _ _) h.2.2⟩

theorem sameEarth_rate {P : Planet (F64 L)} {Q : Planet XR} (h : SameEarth P Q) {ω : ℝ}
    (hω : Q.rotationRate = .fin ω) : ω = 7.29211e-5 ∧ Near P.rotationRate ω 9e-21 := by
  have f1 : (7.29211e-5 : XR) = .fin 7.29211e-5 := by
    rw [XR.fin_sci]
  have n1 : Near (7.29211e-5 : F64 L) 7.29211e-5 9e-21 :=
    Near.lit 729211 true 10 (by norm_num) (by norm_num [abs_of_pos]) (by norm_num [abs_of_pos])
  have e : ω = 7.29211e-5 := by
    have h1 : (7.29211e-5 : XR) = .fin ω := by
      rcases h with ⟨_, rfl⟩ | ⟨_, rfl⟩ | ⟨_, rfl⟩ <;> exact hω
    rw [f1, XR.fin.injEq] at h1
    exact h1.symm
  refine ⟨e, ?_⟩
  rw [e]
  rcases h with ⟨rfl, _⟩ | ⟨rfl, _⟩ | ⟨rfl, _⟩ <;> exact n1

theorem velocityPlanet_near {P : Planet (F64 L)} {Q : Planet XR} (hP : SameEarth P Q) {ω : ℝ}
    (hω : Q.rotationRate = .fin ω) {x v : V3 (F64 L)} {r u : V3 ℝ} (hx : ReadsV x r) (hv : ReadsV v u)
    (hr : rnorm r ≤ 1e8) (hu : rnorm u ≤ 1e5) :
    NearV (P.velocityPlanet x v) (rsub u (rcross ⟨0, 0, ω⟩ r)) 2e-11 ∧
      |(rsub u (rcross ⟨0, 0, ω⟩ r)).x| ≤ 1.08e5 ∧ |(rsub u (rcross ⟨0, 0, ω⟩ r)).y| ≤ 1.08e5 ∧
      |(rsub u (rcross ⟨0, 0, ω⟩ r)).z| ≤ 1.08e5 := by
  obtain ⟨hω1, hω2⟩ := sameEarth_rate hP hω
  have hωa : |ω| ≤ 7.3e-5 := by rw [hω1]; norm_num [abs_of_pos]
  obtain ⟨nx, ny, nz⟩ := readsV_near hx
  obtain ⟨mx, my, mz⟩ := readsV_near hv
  obtain ⟨ax, ay, az⟩ := comp_le_rnorm r
  obtain ⟨cx, cy, cz⟩ := comp_le_rnorm u
  replace ax := ax.trans hr
  replace ay := ay.trans hr
  replace az := az.trans hr
  replace cx := cx.trans hu
  replace cy := cy.trans hu
  replace cz := cz.trans hu
  clear hω1
  have zr : ∀ {a : F64 L} {A : ℝ}, Near a A 0 → |A| ≤ 1e8 → Near (0 * a) (0 * A) 1e-39 := by
    intro a A ha hA
    refine Near.zero.mul ha (A := 0) (B := 1e8) (M := 0) (by simp) hA (by simp) ?_ ?_ <;> norm_num
  have om : ∀ {a : F64 L} {A : ℝ}, Near a A 0 → |A| ≤ 1e8 → Near (P.rotationRate * a) (ω * A) 1.8e-12 ∧ |ω * A| ≤ 7.3e3 := by
    intro a A ha hA
    have hb : |ω * A| ≤ 7.3e3 := abs_mul_le hωa hA (by norm_num)
    refine ⟨hω2.mul ha (A := 7.3e-5) (B := 1e8) (M := 7.3e3) hωa hA hb ?_ ?_, hb⟩ <;> norm_num
  obtain ⟨ox, bx⟩ := om nx ax
  obtain ⟨oy, by'⟩ := om ny ay
  have tri : ∀ {a b A B : ℝ}, |a| ≤ A → |b| ≤ B → |a - b| ≤ A + B := by
    intro a b A B h1 h2
    exact (abs_sub _ _).trans (add_le_add h1 h2)
  have k1 : |0 * r.z - ω * r.y| ≤ 7.3e3 := by
    rw [zero_mul, zero_sub, abs_neg]; exact by'
  have k2 : |ω * r.x - 0 * r.z| ≤ 7.3e3 := by
    rw [zero_mul, sub_zero]; exact bx
  have k3 : |0 * r.y - 0 * r.x| ≤ 0 := by simp
  have c1 : Near (0 * x.z - P.rotationRate * x.y) (0 * r.z - ω * r.y) 3e-12 := by
    refine (zr nz az).sub oy k1 ?_ ?_ <;> norm_num
  have c2 : Near (P.rotationRate * x.x - 0 * x.z) (ω * r.x - 0 * r.z) 3e-12 := by
    refine ox.sub (zr nz az) k2 ?_ ?_ <;> norm_num
  have c3 : Near (0 * x.y - 0 * x.x) (0 * r.y - 0 * r.x) 1e-38 := by
    refine (zr ny ay).sub (zr nx ax) k3 ?_ ?_ <;> norm_num
  have d1 : |u.x - (0 * r.z - ω * r.y)| ≤ 1.08e5 := (tri cx k1).trans (by norm_num)
  have d2 : |u.y - (ω * r.x - 0 * r.z)| ≤ 1.08e5 := (tri cy k2).trans (by norm_num)
  have d3 : |u.z - (0 * r.y - 0 * r.x)| ≤ 1.08e5 := (tri cz k3).trans (by norm_num)
  refine ⟨⟨?_, ?_, ?_⟩, d1, d2, d3⟩
  · refine mx.sub c1 d1 ?_ ?_ <;> norm_num
  · refine my.sub c2 d2 ?_ ?_ <;> norm_num
  · refine mz.sub c3 d3 ?_ ?_ <;> norm_num

/-- a wind -/
theorem velocity_wind {a w : V3 (F64 L)} {A W : V3 ℝ} (ha : NearV a A 2e-11) (hw : ReadsV w W)
    (hA : |A.x| ≤ 1.08e5 ∧ |A.y| ≤ 1.08e5 ∧ |A.z| ≤ 1.08e5) (hW : rnorm W ≤ 1e4) :
    NearV (a - w) (rsub A W) 4e-11 := by
  obtain ⟨nx, ny, nz⟩ := readsV_near hw
  obtain ⟨ax, ay, az⟩ := comp_le_rnorm W
  replace ax := ax.trans hW
  replace ay := ay.trans hW
  replace az := az.trans hW
  have tri : ∀ {a b A B : ℝ}, |a| ≤ A → |b| ≤ B → |a - b| ≤ A + B := by
    intro a b A B h1 h2
    exact (abs_sub _ _).trans (add_le_add h1 h2)
  refine ⟨?_, ?_, ?_⟩
  · refine ha.x.sub nx (tri hA.1 ax) ?_ ?_ <;> norm_num
  · refine ha.y.sub ny (tri hA.2.1 ay) ?_ ?_ <;> norm_num
  · refine ha.z.sub nz (tri hA.2.2 az) ?_ ?_ <;> norm_num

theorem NearV.readsV {v : V3 (F64 L)} {w : V3 ℝ} {e E : ℝ} (h : NearV v w e) (he : 1.74 * e ≤ E) :
    ∃ u : V3 ℝ, ReadsV v u ∧ rdist u w ≤ E := by
  have he0 := h.x.nonneg
  obtain ⟨a, ha, ha'⟩ := h.x
  obtain ⟨b, hb, hb'⟩ := h.y
  obtain ⟨c, hc, hc'⟩ := h.z
  refine ⟨⟨a, b, c⟩, ⟨⟨a, ha, rfl⟩, ⟨b, hb, rfl⟩, c, hc, rfl⟩, ?_⟩
  refine le_trans ?_ he
  unfold rdist rnorm rsub
  refine Real.sqrt_le_iff.2 ⟨by positivity, ?_⟩
  have q1 := sq_le_sq' (abs_le.1 ha').1 (abs_le.1 ha').2
  have q2 := sq_le_sq' (abs_le.1 hb').1 (abs_le.1 hb').2
  have q3 := sq_le_sq' (abs_le.1 hc').1 (abs_le.1 hc').2
  simp only
  have : 0 ≤ e ^ 2 := sq_nonneg e
  rw [mul_pow]
  norm_num
  linarith

theorem rnorm_close (u w : V3 ℝ) : |rnorm u - rnorm w| ≤ rdist u w := by
  have h1 := rnorm_triangle u w
  have h2 := rnorm_triangle w u
  rw [rdist_comm] at h2
  rw [abs_le]
  constructor <;> linarith

end Post
