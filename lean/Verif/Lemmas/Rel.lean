import Verif.Lemmas.Near
import Mathlib.Analysis.SpecialFunctions.Pow.Real
import Mathlib.Analysis.SpecialFunctions.Exp
import Mathlib.Analysis.Complex.ExponentialBounds
/-! # Relative rounding errors -/

set_option exponentiation.threshold 2000

namespace Post

/-- The double is a number whose relative distance from `ξ` is at most `e`. -/
def Rel {L : Libm} (x : F64 L) (ξ e : ℝ) : Prop := Near x ξ (e * |ξ|)

namespace Rel
variable {L : Libm} {x y : F64 L} {ξ η a b e : ℝ}

theorem mono (h : Rel x ξ a) (he : a ≤ e) : Rel x ξ e :=
  Near.mono h (mul_le_mul_of_nonneg_right he (abs_nonneg _))

theorem congr (h : Rel x ξ e) (he : ξ = η) : Rel x η e := he ▸ h

theorem neg (h : Rel x ξ e) : Rel (-x) (-ξ) e := by
  unfold Rel
  rw [abs_neg]
  exact Near.neg h

/-- Rounding: `r` is the rounded value of `q`, whose relative distance from `ξ` is at most `d`. -/
theorem of_round {z : F64 L} {q r : ℚ} {d : ℝ} (hz : z.Is r) (hr : |r - q| ≤ F64.ulpErr q)
    (hd : |(q : ℝ) - ξ| ≤ d * |ξ|) (hlo : 1e-200 ≤ |ξ|) (hd0 : 0 ≤ d) (he : d + 1.2e-16 * (1 + d) ≤ e) :
    Rel z ξ e := by
  refine ⟨r, hz, ?_⟩
  have h1 : |(q : ℝ)| ≤ |ξ| + d * |ξ| := by
    have := abs_add_le ((q : ℝ) - ξ) ξ
    rw [sub_add_cancel] at this
    linarith
  have h53 : (2 : ℝ) ^ (-53 : ℤ) ≤ 1.15e-16 := by norm_num
  have h1075 : (2 : ℝ) ^ (-1075 : ℤ) ≤ 5e-18 * |ξ| := by
    have e1 : (2 : ℝ) ^ (-1075 : ℤ) ≤ 2 ^ (-750 : ℤ) := zpow_le_zpow_right₀ (by norm_num) (by norm_num)
    refine e1.trans (le_trans ?_ (mul_le_mul_of_nonneg_left hlo (by norm_num)))
    rw [zpow_neg, show ((750 : ℤ)) = ((750 : ℕ) : ℤ) from rfl, zpow_natCast]
    norm_num
  have h2 : |(r : ℝ) - q| ≤ 1.15e-16 * (|ξ| + d * |ξ|) + 5e-18 * |ξ| := by
    have h3 : |(r : ℝ) - q| ≤ ((F64.ulpErr q : ℚ) : ℝ) := by exact_mod_cast hr
    refine h3.trans ?_
    unfold F64.ulpErr
    push_cast
    exact add_le_add (mul_le_mul h53 h1 (abs_nonneg _) (by norm_num)) h1075
  have h3 := abs_add_le ((r : ℝ) - q) (q - ξ)
  rw [show (r : ℝ) - q + (q - ξ) = r - ξ by ring] at h3
  have h4 : (d + 1.2e-16 * (1 + d)) * |ξ| ≤ e * |ξ| := mul_le_mul_of_nonneg_right he (abs_nonneg _)
  have h5 : 0 ≤ d * |ξ| := mul_nonneg hd0 (abs_nonneg _)
  refine le_trans ?_ h4
  have e5 : (d + 1.2e-16 * (1 + d)) * |ξ| = d * |ξ| + 1.2e-16 * |ξ| + 1.2e-16 * (d * |ξ|) := by ring
  rw [e5]
  clear h53 h1075 e5 h4 he
  norm_num at h2 h3 ⊢
  linarith

theorem small {q : ℚ} {d : ℝ} (hd : |(q : ℝ) - ξ| ≤ d * |ξ|) (hd1 : d ≤ 1) (hhi : |ξ| ≤ 1e58) : |q| ≤ 2 ^ 200 := by
  refine Near.small (M := 2 * |ξ|) ?_ (by norm_num at hhi ⊢; linarith)
  have := abs_add_le ((q : ℝ) - ξ) ξ
  rw [sub_add_cancel] at this
  have : d * |ξ| ≤ 1 * |ξ| := mul_le_mul_of_nonneg_right hd1 (abs_nonneg _)
  linarith

theorem mul (hx : Rel x ξ a) (hy : Rel y η b) (ha : 0 ≤ a) (ha1 : a ≤ 0.3) (hb : 0 ≤ b) (hb1 : b ≤ 0.3)
    (hlo : 1e-200 ≤ |ξ * η|) (hhi : |ξ * η| ≤ 1e58)
    (he : (a + b + a * b) + 1.2e-16 * (1 + (a + b + a * b)) ≤ e) : Rel (x * y) (ξ * η) e := by
  obtain ⟨p, h1, h2⟩ := hx
  obtain ⟨q, h3, h4⟩ := hy
  have hd : |((p * q : ℚ) : ℝ) - ξ * η| ≤ (a + b + a * b) * |ξ * η| := by
    push_cast
    rw [show (p : ℝ) * q - ξ * η = ξ * (q - η) + η * (p - ξ) + (p - ξ) * (q - η) by ring]
    have g1 : |ξ * (q - η)| ≤ |ξ| * (b * |η|) := by
      rw [abs_mul]; exact mul_le_mul_of_nonneg_left h4 (abs_nonneg _)
    have g2 : |η * (p - ξ)| ≤ |η| * (a * |ξ|) := by
      rw [abs_mul]; exact mul_le_mul_of_nonneg_left h2 (abs_nonneg _)
    have g3 : |(p - ξ) * (q - η)| ≤ (a * |ξ|) * (b * |η|) := by
      rw [abs_mul]; exact mul_le_mul h2 h4 (abs_nonneg _) (by positivity)
    refine (abs_add_le _ _).trans ((add_le_add ((abs_add_le _ _).trans (add_le_add g1 g2)) g3).trans (le_of_eq ?_))
    rw [abs_mul]
    ring
  have hab : a * b ≤ 0.3 * 0.3 := mul_le_mul ha1 hb1 hb (by norm_num)
  obtain ⟨r, h5, h6⟩ := F64.is_mul h1 h3 (small hd (by norm_num at *; linarith) hhi)
  exact of_round h5 h6 hd hlo (by positivity) he

theorem div (hx : Rel x ξ a) (hy : Rel y η b) (ha : 0 ≤ a) (ha1 : a ≤ 0.2) (hb : 0 ≤ b) (hb1 : b ≤ 0.2) (hη : η ≠ 0)
    (hlo : 1e-200 ≤ |ξ / η|) (hhi : |ξ / η| ≤ 1e58)
    (he : (a + b) * (1 + 2 * b) + 1.2e-16 * (1 + (a + b) * (1 + 2 * b)) ≤ e) : Rel (x / y) (ξ / η) e := by
  obtain ⟨p, h1, h2⟩ := hx
  obtain ⟨q, h3, h4⟩ := hy
  have hη' : 0 < |η| := abs_pos.2 hη
  have hq : (1 - b) * |η| ≤ |(q : ℝ)| := by
    have := abs_sub_abs_le_abs_sub η (q : ℝ)
    rw [abs_sub_comm] at this
    linarith
  have hb2 : 0 < 1 - b := by norm_num at hb1; linarith
  have hqpos : 0 < |(q : ℝ)| := lt_of_lt_of_le (by positivity) hq
  have hq0 : (q : ℝ) ≠ 0 := abs_pos.1 hqpos
  have hq0' : q ≠ 0 := by exact_mod_cast hq0
  have hd : |((p / q : ℚ) : ℝ) - ξ / η| ≤ ((a + b) * (1 + 2 * b)) * |ξ / η| := by
    push_cast
    rw [show (p : ℝ) / q - ξ / η = ((p - ξ) - ξ / η * (q - η)) / q by field_simp; ring, abs_div, div_le_iff₀ hqpos]
    have h5 : |(p : ℝ) - ξ - ξ / η * (q - η)| ≤ (a + b) * |ξ| := by
      refine (abs_sub _ _).trans ?_
      have : |ξ / η * (q - η)| ≤ b * |ξ| := by
        rw [abs_mul, abs_div]
        calc |ξ| / |η| * |(q : ℝ) - η| ≤ |ξ| / |η| * (b * |η|) := by gcongr
          _ = b * |ξ| := by field_simp
      linarith
    refine h5.trans ?_
    have h6 : (a + b) * |ξ| ≤ (a + b) * ((1 + 2 * b) * (1 - b) * |ξ|) := by
      refine mul_le_mul_of_nonneg_left ?_ (by positivity)
      have : 1 ≤ (1 + 2 * b) * (1 - b) := by nlinarith
      exact le_mul_of_one_le_left (abs_nonneg _) this
    refine h6.trans ?_
    calc (a + b) * ((1 + 2 * b) * (1 - b) * |ξ|) = ((a + b) * (1 + 2 * b)) * |ξ / η| * ((1 - b) * |η|) := by
          rw [abs_div]; field_simp
      _ ≤ ((a + b) * (1 + 2 * b)) * |ξ / η| * |(q : ℝ)| := by gcongr
  have h1' : (a + b) * (1 + 2 * b) ≤ 1 := by
    norm_num at ha1 hb1
    nlinarith
  obtain ⟨r, h5, h6⟩ := F64.is_div h1 h3 hq0' (small hd h1' hhi)
  exact of_round h5 h6 hd hlo (by positivity) he

/-- decimal literals -/
theorem lit (m : ℕ) (s : Bool) (k : ℕ) {v : ℝ} (hv : (if s then (m : ℝ) / 10 ^ k else m * 10 ^ k) = v)
    (hlo : 1e-200 ≤ |v|) (hv' : |v| ≤ 1e58) : Rel (OfScientific.ofScientific m s k : F64 L) v 1.2e-16 := by
  set q : ℚ := if s then (m : ℚ) / 10 ^ k else m * 10 ^ k with hq
  have hqv : (q : ℝ) = v := by
    rw [← hv, hq]
    split_ifs <;> push_cast <;> rfl
  have e0 : (OfScientific.ofScientific m s k : F64 L) = ⟨.round false q⟩ := rfl
  rw [e0]
  obtain ⟨r, h1, h2⟩ := F64.is_round (L := L) (s := false) (q := q)
    (small (ξ := v) (d := 0) (by rw [hqv]; simp) (by norm_num) hv')
  exact of_round h1 h2 (d := 0) (by rw [hqv]; simp) hlo le_rfl (by norm_num)

theorem one : Rel (1 : F64 L) 1 0 := by
  unfold Rel
  simpa using Near.one (L := L)

theorem of_near (h : Near x ξ a) (he : a ≤ e * |ξ|) : Rel x ξ e := Near.mono h he

end Rel

/-! ## powers and exponentials of perturbed numbers -/

theorem abs_exp_sub_one {d : ℝ} (hd : |d| ≤ 1) : |Real.exp d - 1| ≤ 2 * |d| := by
  have := Real.abs_exp_sub_one_le hd
  exact this

theorem exp_perturb {z w d : ℝ} (h : |z - w| ≤ d) (hd : d ≤ 1) : |Real.exp z - Real.exp w| ≤ 2 * d * Real.exp w := by
  have e1 : Real.exp z - Real.exp w = (Real.exp (z - w) - 1) * Real.exp w := by
    rw [sub_mul, ← Real.exp_add]
    ring_nf
  rw [e1, abs_mul, abs_of_pos (Real.exp_pos w)]
  refine mul_le_mul_of_nonneg_right ?_ (Real.exp_pos w).le
  exact (abs_exp_sub_one (h.trans hd)).trans (by linarith)

theorem abs_log_one {u : ℝ} (hu : |u - 1| ≤ 1 / 2) : |Real.log u| ≤ 2 * |u - 1| := by
  have hb := abs_le.1 hu
  have h0 : 0 < u := by linarith [hb.1]
  have h1 := Real.log_le_sub_one_of_pos h0
  have h2 := Real.one_sub_inv_le_log_of_pos h0
  rw [abs_le]
  constructor
  · refine le_trans ?_ h2
    rw [show (1 : ℝ) - u⁻¹ = (u - 1) / u by field_simp]
    rw [le_div_iff₀ h0]
    rcases le_total 0 (u - 1) with g | g
    · rw [abs_of_nonneg g]
      nlinarith
    · rw [abs_of_nonpos g]
      nlinarith [hb.1]
  · refine h1.trans ?_
    have := le_abs_self (u - 1)
    have := abs_nonneg (u - 1)
    linarith

theorem abs_log_three {X : ℝ} (hX0 : 0.05 ≤ X) (hX1 : X ≤ 20) : |Real.log X| ≤ 3 := by
  have hXp : 0 < X := by norm_num at hX0; linarith
  have e3 : (20 : ℝ) ≤ Real.exp 3 := by
    have h1 := Real.exp_one_gt_d9
    have h2 : Real.exp 3 = Real.exp 1 ^ 3 := by rw [← Real.exp_nat_mul]; norm_num
    rw [h2]
    have h3 : (2.7182818283 : ℝ) ^ 3 ≤ Real.exp 1 ^ 3 := pow_le_pow_left₀ (by norm_num) h1.le 3
    refine le_trans ?_ h3
    norm_num
  rw [abs_le]
  constructor
  · rw [Real.le_log_iff_exp_le hXp, Real.exp_neg]
    refine le_trans (inv_anti₀ (by norm_num) e3) ?_
    norm_num at hX0 ⊢
    linarith
  · rw [Real.log_le_iff_le_exp hXp]
    exact hX1.trans e3

/-- A power of a perturbed number with a perturbed exponent. -/
theorem rpow_perturb {x X y Y d ε : ℝ} (hX0 : 0.05 ≤ X) (hX1 : X ≤ 20) (hx : |x - X| ≤ d * X) (hd : d ≤ 1e-6)
    (hy : |y - Y| ≤ ε) (hY : |Y| ≤ 40) (hε : ε ≤ 1e-6) (hd0 : 0 ≤ d) :
    |x ^ y - X ^ Y| ≤ (170 * d + 6 * ε) * X ^ Y := by
  have hXp : 0 < X := by norm_num at hX0; linarith
  have hε0 := (abs_nonneg _).trans hy
  have hu : |x / X - 1| ≤ d := by
    rw [show x / X - 1 = (x - X) / X by field_simp, abs_div, abs_of_pos hXp, div_le_iff₀ hXp]
    exact hx
  have hd2 : d ≤ 1 / 2 := by norm_num at hd; linarith
  have hxp : 0 < x := by
    have h1 := (abs_le.1 hu).1
    have h2 : 0 < x / X := by linarith
    exact (div_pos_iff_of_pos_right hXp).1 h2
  have hlog : |Real.log x - Real.log X| ≤ 2 * d := by
    rw [← Real.log_div hxp.ne' hXp.ne']
    exact (abs_log_one (hu.trans hd2)).trans (by linarith)
  have hlX := abs_log_three hX0 hX1
  rw [Real.rpow_def_of_pos hxp, Real.rpow_def_of_pos hXp]
  have hz : |Real.log x * y - Real.log X * Y| ≤ 85 * d + 3 * ε := by
    rw [show Real.log x * y - Real.log X * Y = (Real.log x - Real.log X) * Y + Real.log X * (y - Y) +
      (Real.log x - Real.log X) * (y - Y) by ring]
    refine (abs_add_le _ _).trans ((add_le_add (abs_add_le _ _) le_rfl).trans ?_)
    rw [abs_mul, abs_mul, abs_mul]
    have g1 : |Real.log x - Real.log X| * |Y| ≤ 2 * d * 40 := mul_le_mul hlog hY (abs_nonneg _) (by positivity)
    have g2 : |Real.log X| * |y - Y| ≤ 3 * ε := mul_le_mul hlX hy (abs_nonneg _) (by norm_num)
    have g3 : |Real.log x - Real.log X| * |y - Y| ≤ 2 * d * 1 :=
      mul_le_mul hlog (hy.trans (by norm_num at hε; linarith)) (abs_nonneg _) (by positivity)
    linarith
  refine (exp_perturb hz (by norm_num at hd hε; linarith)).trans (le_of_eq (by ring))

end Post
