import Verif.Spec.Atmosphere
import Mathlib.Analysis.Complex.ExponentialBounds
import Mathlib.Tactic.FieldSimp
/-! # Bounds of real powers by rational ones, for the pressure law -/

namespace Post
open Spec

/-- an upper bound of a power of a number below one -/
theorem rpow_upper {z zh κ U : ℝ} {a b : ℕ} (hz : 0 < z) (hzh : z ≤ zh) (h1 : zh ≤ 1) (hb : 0 < b)
    (hκ : (a / b : ℝ) ≤ κ) (hU : 0 ≤ U) (h : zh ^ a ≤ U ^ b) : z ^ κ ≤ U := by
  have hzh0 : 0 < zh := hz.trans_le hzh
  have ha : (0 : ℝ) ≤ a / b := by positivity
  have hb' : (b : ℝ) ≠ 0 := by positivity
  calc z ^ κ ≤ z ^ (a / b : ℝ) := Real.rpow_le_rpow_of_exponent_ge hz (hzh.trans h1) hκ
    _ ≤ zh ^ (a / b : ℝ) := Real.rpow_le_rpow hz.le hzh ha
    _ = (zh ^ a) ^ (1 / b : ℝ) := by
        rw [← Real.rpow_natCast, ← Real.rpow_mul hzh0.le]; congr 1; ring
    _ ≤ (U ^ b) ^ (1 / b : ℝ) := Real.rpow_le_rpow (by positivity) h (by positivity)
    _ = U := by rw [← Real.rpow_natCast, ← Real.rpow_mul hU]; simp [hb']

/-- a lower bound of a power of a number below one -/
theorem rpow_lower {z zl κ W : ℝ} {a b : ℕ} (hz1 : z ≤ 1) (hzl : zl ≤ z) (h0 : 0 < zl) (hb : 0 < b)
    (hκ : κ ≤ (a / b : ℝ)) (hW : 0 ≤ W) (h : W ^ b ≤ zl ^ a) : W ≤ z ^ κ := by
  have hz : 0 < z := h0.trans_le hzl
  have ha : (0 : ℝ) ≤ a / b := by positivity
  have hb' : (b : ℝ) ≠ 0 := by positivity
  calc W = (W ^ b) ^ (1 / b : ℝ) := by rw [← Real.rpow_natCast, ← Real.rpow_mul hW]; simp [hb']
    _ ≤ (zl ^ a) ^ (1 / b : ℝ) := Real.rpow_le_rpow (by positivity) h (by positivity)
    _ = zl ^ (a / b : ℝ) := by
        rw [← Real.rpow_natCast, ← Real.rpow_mul h0.le]; congr 1; ring
    _ ≤ z ^ (a / b : ℝ) := Real.rpow_le_rpow h0.le hzl ha
    _ ≤ z ^ κ := Real.rpow_le_rpow_of_exponent_ge hz hz1 hκ

theorem pressure_bounds_pos {l n : Layer} {lo hi zl zh U W : ℝ} {a b a' b' : ℕ}
    (hg : 0 < l.grad) (hp : 0 < l.pres) (hzl0 : 0 < zl) (hzl : zl ≤ l.temp / l.temperature n.alt)
    (hzh : l.temp / l.temperature n.alt ≤ zh) (hzh1 : zh ≤ 1)
    (hκ : (a / b : ℝ) ≤ gravityPerGas / l.grad) (hκ' : gravityPerGas / l.grad ≤ (a' / b' : ℝ))
    (hbs : 0 < b ∧ 0 < b' ∧ 0 ≤ U ∧ 0 ≤ W)
    (hu : zh ^ a ≤ U ^ b) (hw : W ^ b' ≤ zl ^ a')
    (hU : l.pres * U ≤ hi * n.pres) (hW : lo * n.pres ≤ l.pres * W) :
    lo * n.pres ≤ l.pressure n.alt ∧ l.pressure n.alt ≤ hi * n.pres := by
  unfold Layer.pressure
  rw [if_neg hg.ne']
  have hz : 0 < l.temp / l.temperature n.alt := hzl0.trans_le hzl
  exact ⟨hW.trans (mul_le_mul_of_nonneg_left
      (rpow_lower (hzh.trans hzh1) hzl hzl0 hbs.2.1 hκ' hbs.2.2.2 hw) hp.le),
    (mul_le_mul_of_nonneg_left
      (rpow_upper hz hzh hzh1 hbs.1 hκ hbs.2.2.1 hu) hp.le).trans hU⟩

theorem pressure_bounds_neg {l n : Layer} {lo hi zl zh U W : ℝ} {a b a' b' : ℕ}
    (hg : l.grad < 0) (hp : 0 < l.pres) (hzl0 : 0 < zl) (hzl : zl ≤ l.temperature n.alt / l.temp)
    (hzh : l.temperature n.alt / l.temp ≤ zh) (hzh1 : zh ≤ 1)
    (hκ : (a / b : ℝ) ≤ -(gravityPerGas / l.grad)) (hκ' : -(gravityPerGas / l.grad) ≤ (a' / b' : ℝ))
    (hbs : 0 < b ∧ 0 < b' ∧ 0 ≤ U ∧ 0 ≤ W)
    (hu : zh ^ a ≤ U ^ b) (hw : W ^ b' ≤ zl ^ a')
    (hU : l.pres * U ≤ hi * n.pres) (hW : lo * n.pres ≤ l.pres * W) :
    lo * n.pres ≤ l.pressure n.alt ∧ l.pressure n.alt ≤ hi * n.pres := by
  unfold Layer.pressure
  rw [if_neg hg.ne]
  have hz : 0 < l.temperature n.alt / l.temp := hzl0.trans_le hzl
  have he : (l.temp / l.temperature n.alt) ^ (gravityPerGas / l.grad) =
      (l.temperature n.alt / l.temp) ^ (-(gravityPerGas / l.grad)) := by
    rw [Real.rpow_neg hz.le, ← Real.inv_rpow hz.le, inv_div]
  rw [he]
  exact ⟨hW.trans (mul_le_mul_of_nonneg_left
      (rpow_lower (hzh.trans hzh1) hzl hzl0 hbs.2.1 hκ' hbs.2.2.2 hw) hp.le),
    (mul_le_mul_of_nonneg_left
      (rpow_upper hz hzh hzh1 hbs.1 hκ hbs.2.2.1 hu) hp.le).trans hU⟩

theorem exp_neg_one_bounds : (0.3678794411 : ℝ) ≤ Real.exp (-1) ∧ Real.exp (-1) ≤ 0.3678794413 :=
  ⟨by have := Real.exp_neg_one_gt_d9; linarith, by have := Real.exp_neg_one_lt_d9; linarith⟩

theorem pressure_bounds_exp {l n : Layer} {lo hi zl zh U W : ℝ} {a b a' b' : ℕ}
    (hg : l.grad = 0) (hp : 0 < l.pres) (hzl0 : 0 < zl) (hzl : zl ≤ 0.3678794411)
    (hzh : 0.3678794413 ≤ zh) (hzh1 : zh ≤ 1)
    (hκ : (a / b : ℝ) ≤ gravityPerGas * (n.alt - l.alt) / l.temp)
    (hκ' : gravityPerGas * (n.alt - l.alt) / l.temp ≤ (a' / b' : ℝ))
    (hbs : 0 < b ∧ 0 < b' ∧ 0 ≤ U ∧ 0 ≤ W)
    (hu : zh ^ a ≤ U ^ b) (hw : W ^ b' ≤ zl ^ a')
    (hU : l.pres * U ≤ hi * n.pres) (hW : lo * n.pres ≤ l.pres * W) :
    lo * n.pres ≤ l.pressure n.alt ∧ l.pressure n.alt ≤ hi * n.pres := by
  unfold Layer.pressure
  rw [if_pos hg]
  have he : Real.exp (-(gravityPerGas * (n.alt - l.alt) / l.temp)) =
      Real.exp (-1) ^ (gravityPerGas * (n.alt - l.alt) / l.temp) := by
    rw [← Real.exp_mul]; congr 1; ring
  rw [he]
  have hb := exp_neg_one_bounds
  exact ⟨hW.trans (mul_le_mul_of_nonneg_left
      (rpow_lower ((hb.2.trans hzh).trans hzh1) (hzl.trans hb.1) hzl0 hbs.2.1 hκ' hbs.2.2.2 hw) hp.le),
    (mul_le_mul_of_nonneg_left
      (rpow_upper (Real.exp_pos _) (hb.2.trans hzh) hzh1 hbs.1 hκ hbs.2.2.1 hu) hp.le).trans hU⟩

end Post
