import Verif.Spec.Planet
import Verif.Lemmas.Vec
/-! # Lemmas about the planet model in exact arithmetic -/

namespace Post
open Spec Flt

theorem radicand_pos {a b s : ℝ} (ha : a ≠ 0) (hb : b ≠ 0) (hs : s ^ 2 ≤ 1) :
    0 < 1 + ((a / b) ^ 2 - 1) * s ^ 2 := by
  have hk : 0 < (a / b) ^ 2 := by positivity
  rcases eq_or_lt_of_le (sq_nonneg s) with h | h
  · rw [← h]; norm_num
  · nlinarith [mul_pos hk h]

theorem ratio_sq_le_one {r : V3 ℝ} (hr : rnorm r ≠ 0) : (r.z / rnorm r) ^ 2 ≤ 1 := by
  rw [div_pow, div_le_one (by positivity), rnorm_sq]
  nlinarith [sq_nonneg r.x, sq_nonneg r.y]

theorem ratio_abs {r : V3 ℝ} (hr : rnorm r ≠ 0) : -1 ≤ r.z / rnorm r ∧ r.z / rnorm r ≤ 1 :=
  abs_le.1 ((sq_le_one_iff_abs_le_one _).1 (ratio_sq_le_one hr))

/-- The distance from the centre to the surface in the direction of `r`. -/
noncomputable def surfaceDistance (a b : ℝ) (r : V3 ℝ) : ℝ :=
  a / Real.sqrt (1 + ((a / b) ^ 2 - 1) * (r.z / rnorm r) ^ 2)

theorem altitude_fin {p : Planet XR} {a b : ℝ} (hpa : p.equatorialRadius = .fin a)
    (hpb : p.polarRadius = .fin b) (ha : a ≠ 0) (hb : b ≠ 0) {r : V3 ℝ} (hr : r ≠ ⟨0, 0, 0⟩) :
    p.altitude r.fin = .fin (rnorm r - surfaceDistance a b r) := by
  have hn : rnorm r ≠ 0 := fun h => hr ((rnorm_eq_zero r).1 h)
  have hpos := radicand_pos ha hb (ratio_sq_le_one hn)
  unfold Planet.altitude
  have hz : r.fin.z = .fin r.z := rfl
  simp only [hpa, hpb, V3.fin_norm, hz, XR.fin_div _ _ hb, XR.fin_div _ _ hn,
    XR.fin_asin _ (ratio_abs hn).1 (ratio_abs hn).2, XR.fin_sin,
    Real.sin_arcsin (ratio_abs hn).1 (ratio_abs hn).2, XR.fin_powi, XR.fin_one, XR.fin_sub,
    XR.fin_mul, XR.fin_add, XR.fin_sqrt _ hpos.le]
  rw [XR.fin_div _ _ (Real.sqrt_pos.2 hpos).ne', XR.fin_sub]
  rfl

theorem surfaceDistance_pos {a b : ℝ} (ha : 0 < a) (hb : b ≠ 0) {r : V3 ℝ}
    (hr : r ≠ ⟨0, 0, 0⟩) : 0 < surfaceDistance a b r := by
  have hn : rnorm r ≠ 0 := fun h => hr ((rnorm_eq_zero r).1 h)
  exact div_pos ha (Real.sqrt_pos.2 (radicand_pos ha.ne' hb (ratio_sq_le_one hn)))

/-- The level of the ellipsoid is the square of distance over surface distance. -/
theorem level_eq {a b : ℝ} (ha : 0 < a) (hb : b ≠ 0) {r : V3 ℝ} (hr : r ≠ ⟨0, 0, 0⟩) :
    ellipsoidLevel a b r = (rnorm r / surfaceDistance a b r) ^ 2 := by
  have hn : rnorm r ≠ 0 := fun h => hr ((rnorm_eq_zero r).1 h)
  have hpos := radicand_pos ha.ne' hb (ratio_sq_le_one hn)
  unfold surfaceDistance
  rw [div_pow, div_pow, Real.sq_sqrt hpos.le]
  unfold ellipsoidLevel
  have h2 := rnorm_sq r
  have ha' := ha.ne'
  have : rnorm r ^ 2 * (1 + ((a / b) ^ 2 - 1) * (r.z / rnorm r) ^ 2) =
      r.x ^ 2 + r.y ^ 2 + (a / b) ^ 2 * r.z ^ 2 := by
    rw [div_pow r.z]
    field_simp
    rw [h2]; ring
  rw [div_div_eq_mul_div, this]
  field_simp

theorem altitude_sign {a b : ℝ} (ha : 0 < a) (hb : b ≠ 0) {r : V3 ℝ} (hr : r ≠ ⟨0, 0, 0⟩) :
    (0 < rnorm r - surfaceDistance a b r ↔ 1 < ellipsoidLevel a b r) ∧
    (rnorm r - surfaceDistance a b r < 0 ↔ ellipsoidLevel a b r < 1) := by
  have hd := surfaceDistance_pos ha hb hr
  have hn := rnorm_nonneg r
  rw [level_eq ha hb hr]
  have hq : 0 ≤ rnorm r / surfaceDistance a b r := by positivity
  constructor
  · rw [sub_pos, ← one_lt_div hd]
    constructor
    · intro h; nlinarith
    · intro h; nlinarith
  · rw [sub_neg, ← div_lt_one hd]
    constructor
    · intro h; nlinarith
    · intro h; nlinarith

end Post
