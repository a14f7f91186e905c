import Mathlib.Analysis.SpecialFunctions.Trigonometric.Deriv
import Mathlib.Analysis.SpecialFunctions.Trigonometric.Bounds
import Mathlib.Analysis.SpecialFunctions.Trigonometric.Inverse
import Mathlib.Tactic.Linarith
import Mathlib.Tactic.FieldSimp
import Mathlib.Tactic.Positivity
import Mathlib.Tactic.Ring
/-! # Triangles with inexact angles -/

namespace Post

theorem triangle_low {B c g s : ℝ} (hB : |B| ≤ 1 + 1.7e-6) (hcos : g ^ 2 = 1 - B ^ 2 * s ^ 2)
    (hsc : s ^ 2 + c ^ 2 = 1) (hg : -1e-14 ≤ g) : -2.9e-3 ≤ g + B * c := by
  by_contra hcon
  have hneg : g + 2.9e-3 < -(B * c) := by
    have := not_le.1 hcon
    linarith
  have hgp : 0 ≤ g + 2.9e-3 := by
    have : (-2.9e-3 : ℝ) ≤ -1e-14 := by norm_num
    linarith
  have hsq : (g + 2.9e-3) ^ 2 < (-(B * c)) ^ 2 := pow_lt_pow_left₀ hneg hgp (by norm_num)
  have hbc2 : (-(B * c)) ^ 2 = B ^ 2 - B ^ 2 * s ^ 2 := by linear_combination B ^ 2 * hsc
  have hB2 : B ^ 2 ≤ (1 + 1.7e-6) ^ 2 := by
    rw [← sq_abs]
    exact pow_le_pow_left₀ (abs_nonneg _) hB 2
  rw [hbc2] at hsq
  have h1 : (g + 2.9e-3) ^ 2 = g ^ 2 + 2 * 2.9e-3 * g + 2.9e-3 ^ 2 := by ring
  norm_num at *
  linarith

/-- A triangle with side `a = 1`, up to small errors. -/
theorem triangle_one {b α β x κ : ℝ} (hb0 : 0 ≤ b) (hb1 : b ≤ 1) (hs : 0.9e-8 ≤ Real.sin α)
    (h1 : |Real.sin β - Real.sin α * b| ≤ 1.5e-14) (hβ : -1e-14 ≤ Real.cos β)
    (hx : |x - Real.sin (α + β) / Real.sin α| ≤ 2e-6) (hκ : |Real.cos α - κ| ≤ 1e-10) (hκ1 : |κ| ≤ 1) :
    |b ^ 2 + x ^ 2 - 2 * b * x * κ - 1| ≤ 3e-5 ∧ -3e-3 ≤ x ∧ x ≤ 2.1 := by
  have hs0 : 0 < Real.sin α := lt_of_lt_of_le (by norm_num) hs
  set B := Real.sin β / Real.sin α with hB
  set X := Real.sin (α + β) / Real.sin α with hX
  have hXe : X = Real.cos β + B * Real.cos α := by
    rw [hX, hB, Real.sin_add]
    field_simp
  have hid : B ^ 2 + X ^ 2 - 2 * B * X * Real.cos α = 1 := by
    have e1 : B * Real.sin α = Real.sin β := by rw [hB]; field_simp
    have e2 := Real.sin_sq_add_cos_sq α
    have e3 := Real.sin_sq_add_cos_sq β
    rw [hXe]
    have e4 : B ^ 2 * Real.sin α ^ 2 = Real.sin β ^ 2 := by rw [← e1]; ring
    linear_combination e4 + e3 - B ^ 2 * e2
  have hBb : |B - b| ≤ 1.7e-6 := by
    rw [show B - b = (Real.sin β - Real.sin α * b) / Real.sin α by rw [hB]; field_simp, abs_div, abs_of_pos hs0,
      div_le_iff₀ hs0]
    refine h1.trans ?_
    norm_num at *
    linarith
  have hc1 := Real.cos_le_one β
  have hca : |Real.cos α| ≤ 1 := Real.abs_cos_le_one α
  have hcos2 : Real.cos β ^ 2 = 1 - B ^ 2 * Real.sin α ^ 2 := by
    have e1 : B * Real.sin α = Real.sin β := by rw [hB]; field_simp
    have e3 := Real.sin_sq_add_cos_sq β
    rw [← e1] at e3
    linear_combination e3
  have hsc := Real.sin_sq_add_cos_sq α
  set c := Real.cos α with hc
  set g := Real.cos β with hg
  set s := Real.sin α with hsdef
  clear_value B X c g s
  rw [abs_le] at hBb hx hca hκ hκ1 
  obtain ⟨u1, u2⟩ := hBb
  obtain ⟨v1, v2⟩ := hx
  -- bounds
  have hB0 : -1.7e-6 ≤ B := by linarith
  have hB1 : B ≤ 1 + 1.7e-6 := by linarith
  have hBc : |B * c| ≤ 1 + 1.7e-6 := by
    rw [abs_mul]
    have a1 : |B| ≤ 1 + 1.7e-6 := abs_le.2 ⟨by norm_num at *; linarith, hB1⟩
    have a2 : |c| ≤ 1 := abs_le.2 hca
    calc |B| * |c| ≤ (1 + 1.7e-6) * 1 := mul_le_mul a1 a2 (abs_nonneg _) (by norm_num)
      _ = _ := by ring
  rw [abs_le] at hBc
  have hXlow : -2.9e-3 ≤ X := by
    rw [hXe]
    exact triangle_low (abs_le.2 ⟨by norm_num at *; linarith, hB1⟩) hcos2 hsc hβ
  have hXup : X ≤ 2.0001 := by rw [hXe]; norm_num at *; linarith [hBc.2]
  refine ⟨?_, by norm_num at *; linarith, by norm_num at *; linarith⟩
  have e : b ^ 2 + x ^ 2 - 2 * b * x * κ - 1 =
      (b - B) * (b + B) + (x - X) * (x + X) - 2 * ((b - B) * (x * κ) + B * ((x - X) * κ) + B * X * (κ - c)) := by
    linear_combination hid
  rw [e]
  have hx1 : |x| ≤ 2.1 := abs_le.2 ⟨by norm_num at *; linarith, by norm_num at *; linarith⟩
  have hX1 : |X| ≤ 2.0001 := abs_le.2 ⟨by norm_num at *; linarith, hXup⟩
  have hB1 : |B| ≤ 1.00001 := abs_le.2 ⟨by norm_num at *; linarith, by norm_num at *; linarith⟩
  have hb1' : |b| ≤ 1 := abs_le.2 ⟨by linarith, hb1⟩
  have d1 : |b - B| ≤ 1.7e-6 := abs_le.2 ⟨by linarith, by linarith⟩
  have d2 : |x - X| ≤ 2e-6 := abs_le.2 ⟨v1, v2⟩
  have d3 : |κ - c| ≤ 1e-10 := abs_le.2 ⟨by linarith [hκ.2], by linarith [hκ.1]⟩
  have k1 : |κ| ≤ 1 := abs_le.2 hκ1
  have mul2 : ∀ {p q P Q : ℝ}, |p| ≤ P → |q| ≤ Q → |p * q| ≤ P * Q := fun hp hq => by
    rw [abs_mul]
    exact mul_le_mul hp hq (abs_nonneg _) ((abs_nonneg _).trans hp)
  have t1 := mul2 d1 ((abs_add_le b B).trans (add_le_add hb1' hB1))
  have t2 := mul2 d2 ((abs_add_le x X).trans (add_le_add hx1 hX1))
  have t3 := mul2 d1 (mul2 hx1 k1)
  have t4 := mul2 hB1 (mul2 d2 k1)
  have t5 := mul2 (mul2 hB1 hX1) d3
  rw [abs_le] at *
  obtain ⟨t1a, t1b⟩ := t1
  obtain ⟨t2a, t2b⟩ := t2
  obtain ⟨t3a, t3b⟩ := t3
  obtain ⟨t4a, t4b⟩ := t4
  obtain ⟨t5a, t5b⟩ := t5
  norm_num at t1a t1b t2a t2b t3a t3b t4a t4b t5a t5b ⊢
  constructor <;> linarith

/-- A triangle with side `a`, up to small errors. -/
theorem triangle_near {a b α β x κ : ℝ} (ha : 0 < a) (hb0 : 0 ≤ b) (hb1 : b ≤ a) (hs : 0.9e-8 ≤ Real.sin α)
    (h1 : |Real.sin β - Real.sin α * (b / a)| ≤ 1.5e-14) (hβ : -1e-14 ≤ Real.cos β)
    (hx : |x - a * Real.sin (α + β) / Real.sin α| ≤ 2e-6 * a) (hκ : |Real.cos α - κ| ≤ 1e-10) (hκ1 : |κ| ≤ 1) :
    |b ^ 2 + x ^ 2 - 2 * b * x * κ - a ^ 2| ≤ 3e-5 * a ^ 2 ∧ -3e-3 * a ≤ x ∧ x ≤ 2.1 * a := by
  have h2 := triangle_one (b := b / a) (x := x / a) (div_nonneg hb0 ha.le) ((div_le_one ha).2 hb1) hs h1 hβ
    (by
      rw [show x / a - Real.sin (α + β) / Real.sin α = (x - a * Real.sin (α + β) / Real.sin α) / a by
        field_simp, abs_div, abs_of_pos ha, div_le_iff₀ ha]
      exact hx) hκ hκ1
  obtain ⟨h3, h4, h5⟩ := h2
  refine ⟨?_, by rwa [le_div_iff₀ ha] at h4, by rwa [div_le_iff₀ ha] at h5⟩
  rw [show (b / a) ^ 2 + (x / a) ^ 2 - 2 * (b / a) * (x / a) * κ - 1 =
    (b ^ 2 + x ^ 2 - 2 * b * x * κ - a ^ 2) / a ^ 2 by field_simp, abs_div, abs_of_pos (by positivity : 0 < a ^ 2),
    div_le_iff₀ (by positivity)] at h3
  exact h3

theorem mul_abs_le {p q P Q : ℝ} (hp : |p| ≤ P) (hq : |q| ≤ Q) : |p * q| ≤ P * Q := by
  rw [abs_mul]
  exact mul_le_mul hp hq (abs_nonneg _) ((abs_nonneg _).trans hp)

/-- A flat triangle, the angle being 180 degrees up to an error. -/
theorem triangle_flat {a b ξ c : ℝ} (ha : 0 < a) (hb0 : 0 ≤ b) (hb1 : b ≤ a) (hξ : |ξ - (a - b)| ≤ 4e-15 * a)
    (hc0 : 1 - 3e-14 ≤ c) (hc1 : c ≤ 1) :
    |b ^ 2 + ξ ^ 2 + 2 * ξ * (b * c) - a ^ 2| ≤ 3e-5 * a ^ 2 ∧ -3e-3 * a ≤ ξ ∧ ξ ≤ 2.1 * a := by
  have h1 := abs_le.1 hξ
  refine ⟨?_, by linarith, by linarith⟩
  have e : b ^ 2 + ξ ^ 2 + 2 * ξ * (b * c) - a ^ 2 = (ξ - (a - b)) * (b + ξ + a) - 2 * (ξ * (b * (1 - c))) := by
    ring
  have t1 := mul_abs_le hξ (q := b + ξ + a) (Q := 3 * a) (by rw [abs_le]; constructor <;> linarith)
  have t2 := mul_abs_le (p := ξ) (P := 2 * a) (by rw [abs_le]; constructor <;> linarith)
    (mul_abs_le (p := b) (P := a) (by rw [abs_le]; constructor <;> linarith) (q := 1 - c) (Q := 3e-14)
      (by rw [abs_le]; constructor <;> linarith))
  rw [abs_le] at t1 t2
  have h2 : 0 ≤ a ^ 2 := sq_nonneg a
  rw [e, abs_le]
  constructor <;> linarith [t1.1, t1.2, t2.1, t2.2]

/-- A flat triangle, the angle being 0 up to an error. -/
theorem triangle_flat' {a b ξ c : ℝ} (ha : 0 < a) (hb0 : 0 ≤ b) (hb1 : b ≤ a) (hξ : |ξ - (a + b)| ≤ 4e-15 * a)
    (hc0 : c ≤ -1 + 3e-14) (hc1 : -1 ≤ c) :
    |b ^ 2 + ξ ^ 2 + 2 * ξ * (b * c) - a ^ 2| ≤ 3e-5 * a ^ 2 ∧ -3e-3 * a ≤ ξ ∧ ξ ≤ 2.1 * a := by
  have h1 := abs_le.1 hξ
  refine ⟨?_, by linarith, by linarith⟩
  have e : b ^ 2 + ξ ^ 2 + 2 * ξ * (b * c) - a ^ 2 = (ξ - (a + b)) * (ξ - b + a) + 2 * (ξ * (b * (1 + c))) := by
    ring
  have t1 := mul_abs_le hξ (q := ξ - b + a) (Q := 3 * a) (by rw [abs_le]; constructor <;> linarith)
  have t2 := mul_abs_le (p := ξ) (P := 2.1 * a) (by rw [abs_le]; constructor <;> linarith)
    (mul_abs_le (p := b) (P := a) (by rw [abs_le]; constructor <;> linarith) (q := 1 + c) (Q := 3e-14)
      (by rw [abs_le]; constructor <;> linarith))
  rw [abs_le] at t1 t2
  have h2 : 0 ≤ a ^ 2 := sq_nonneg a
  rw [e, abs_le]
  constructor <;> linarith [t1.1, t1.2, t2.1, t2.2]

/-- Clamping the throttle: `d` is the component of the aerodynamic force along the thrust, `x` the required
thrust, `t` the full thrust. -/
theorem clamp_real {a b d x t q k : ℝ} (ha : 0 < a) (hb0 : 0 ≤ b) (hb1 : b ≤ a) (hd : |d| ≤ b) (ht : 0 < t)
    (hq : q * t = x) (hx : |b ^ 2 + x ^ 2 + 2 * x * d - a ^ 2| ≤ 3.1e-5 * a ^ 2) (h0 : -3.1e-3 * a ≤ x)
    (h1 : x ≤ 2.2 * a) (hk : k = if q < 0 then 0 else if 1 < q then 1 else q) :
    0 ≤ k ∧ k ≤ 1 ∧ k * t ≤ 2.2 * a ∧ b ^ 2 + (k * t) ^ 2 + 2 * (k * t) * d ≤ (1 + 3.1e-5) * a ^ 2 ∧
      (k = 1 ∨ (0.991 * a) ^ 2 ≤ b ^ 2 + (k * t) ^ 2 + 2 * (k * t) * d) := by
  rw [abs_le] at hx hd
  have hba : b ^ 2 ≤ a ^ 2 := pow_le_pow_left₀ hb0 hb1 2
  have ha2 : 0 < a ^ 2 := by positivity
  split_ifs at hk with g1 g2
  · subst hk
    have hx0 : x ≤ 0 := by rw [← hq]; exact mul_nonpos_of_nonpos_of_nonneg g1.le ht.le
    have hx2 : x ^ 2 ≤ (3.1e-3 * a) ^ 2 := by
      rw [← neg_sq x]
      exact pow_le_pow_left₀ (by linarith) (by linarith) 2
    have hxd := mul_abs_le (p := x) (P := 3.1e-3 * a) (by rw [abs_le]; constructor <;> linarith) (q := d) (Q := a)
      (by rw [abs_le]; constructor <;> linarith)
    rw [abs_le] at hxd
    refine ⟨le_rfl, zero_le_one, by linarith, ?_, .inr ?_⟩
    · rw [zero_mul]
      linarith
    · rw [zero_mul]
      have e1 : (3.1e-3 * a) ^ 2 = 9.61e-6 * a ^ 2 := by ring
      have e2 : (0.991 * a) ^ 2 = 0.982081 * a ^ 2 := by ring
      have e3 : 3.1e-3 * a * a = 3.1e-3 * a ^ 2 := by ring
      rw [e1] at hx2
      rw [e3] at hxd
      rw [e2]
      linarith [hxd.1, hxd.2, hx.1]
  · subst hk
    have hxt : t ≤ x := by
      rw [← hq]
      nlinarith
    refine ⟨zero_le_one, le_rfl, by linarith, ?_, .inl rfl⟩
    rw [one_mul]
    rcases le_total (t + 2 * d) 0 with h | h
    · have : t * (t + 2 * d) ≤ 0 := mul_nonpos_of_nonneg_of_nonpos ht.le h
      linarith [show t * (t + 2 * d) = t ^ 2 + 2 * t * d by ring]
    · have h2 : t * (t + 2 * d) ≤ x * (x + 2 * d) :=
        mul_le_mul hxt (by linarith) h (ht.le.trans hxt)
      linarith [show t * (t + 2 * d) = t ^ 2 + 2 * t * d by ring,
        show x * (x + 2 * d) = x ^ 2 + 2 * x * d by ring, hx.2]
  · subst hk
    rw [hq]
    refine ⟨not_lt.1 g1, not_lt.1 g2, h1, by linarith [hx.2], .inr ?_⟩
    have e2 : (0.991 * a) ^ 2 = 0.982081 * a ^ 2 := by ring
    rw [e2]
    linarith [hx.1]

theorem sin_near (x y : ℝ) : |Real.sin x - Real.sin y| ≤ |x - y| := Real.abs_sin_sub_sin_le x y
theorem cos_near (x y : ℝ) : |Real.cos x - Real.cos y| ≤ |x - y| := Real.abs_cos_sub_cos_le x y

end Post
