import Verif.Lemmas.Powered
import Verif.Spec.Powered
import Verif.Props.Accuracy
import Mathlib.Analysis.SpecialFunctions.Trigonometric.Deriv
import Mathlib.Analysis.InnerProductSpace.Calculus
import Mathlib.Analysis.Complex.CauchyIntegral
/-! # A turning thrust, continued to complex times -/

namespace Post
open Spec Kepler

noncomputable section

/-- turns about the three axes, back from the turned frame, by complex angles -/
def backX (z : ℂ) (u : C3) : C3 :=
  !₂[u 0, Complex.cos z * u 1 - Complex.sin z * u 2, Complex.sin z * u 1 + Complex.cos z * u 2]
def backY (z : ℂ) (u : C3) : C3 :=
  !₂[Complex.cos z * u 0 + Complex.sin z * u 2, u 1, -(Complex.sin z * u 0) + Complex.cos z * u 2]
def backZ (z : ℂ) (u : C3) : C3 :=
  !₂[Complex.cos z * u 0 - Complex.sin z * u 1, Complex.sin z * u 0 + Complex.cos z * u 1, u 2]

theorem backX_real (θ : ℝ) (w : V3 ℝ) : backX θ (cx (e3 w)) = cx (e3 (rmulVecT (turnX θ) w)) := by
  ext i
  fin_cases i <;> simp [backX, cx_apply, e3, rmulVecT, rmulVec, rdot, turnX, M3.transpose, M3.col1, M3.col2, M3.col3] <;> ring

theorem backY_real (θ : ℝ) (w : V3 ℝ) : backY θ (cx (e3 w)) = cx (e3 (rmulVecT (turnY θ) w)) := by
  ext i
  fin_cases i <;> simp [backY, cx_apply, e3, rmulVecT, rmulVec, rdot, turnY, M3.transpose, M3.col1, M3.col2, M3.col3] <;> ring

theorem backZ_real (θ : ℝ) (w : V3 ℝ) : backZ θ (cx (e3 w)) = cx (e3 (rmulVecT (turnZ θ) w)) := by
  ext i
  fin_cases i <;> simp [backZ, cx_apply, e3, rmulVecT, rmulVec, rdot, turnZ, M3.transpose, M3.col1, M3.col2, M3.col3] <;> ring

/-- A turn by a complex angle makes a vector longer by the exponential of the imaginary part at most. -/
theorem turn_pair (z a b : ℂ) :
    ‖Complex.cos z * a - Complex.sin z * b‖ ^ 2 + ‖Complex.sin z * a + Complex.cos z * b‖ ^ 2 ≤
      Real.exp |z.im| ^ 2 * (‖a‖ ^ 2 + ‖b‖ ^ 2) := by
  have par : ∀ p q : ℂ, ‖p‖ ^ 2 + ‖q‖ ^ 2 = (‖p + Complex.I * q‖ ^ 2 + ‖p - Complex.I * q‖ ^ 2) / 2 := by
    intro p q
    simp only [← Complex.normSq_eq_norm_sq, Complex.normSq_apply]
    simp
    ring
  have e1 : Complex.cos z * a - Complex.sin z * b + Complex.I * (Complex.sin z * a + Complex.cos z * b) =
      Complex.exp (z * Complex.I) * (a + Complex.I * b) := by
    rw [Complex.exp_mul_I]
    ring_nf
    rw [Complex.I_sq]
    ring
  have e2 : Complex.cos z * a - Complex.sin z * b - Complex.I * (Complex.sin z * a + Complex.cos z * b) =
      Complex.exp (-z * Complex.I) * (a - Complex.I * b) := by
    rw [Complex.exp_mul_I, Complex.cos_neg, Complex.sin_neg]
    ring_nf
    rw [Complex.I_sq]
    ring
  rw [par (Complex.cos z * a - Complex.sin z * b), par a b, e1, e2, norm_mul, norm_mul, Complex.norm_exp, Complex.norm_exp]
  have k1 : Real.exp (z * Complex.I).re ≤ Real.exp |z.im| := by
    refine Real.exp_le_exp.2 ?_
    simp [neg_le_abs]
  have k2 : Real.exp (-z * Complex.I).re ≤ Real.exp |z.im| := by
    refine Real.exp_le_exp.2 ?_
    simp [le_abs_self]
  have p1 := pow_le_pow_left₀ (Real.exp_pos _).le k1 2
  have p2 := pow_le_pow_left₀ (Real.exp_pos _).le k2 2
  rw [mul_pow, mul_pow]
  nlinarith [mul_le_mul_of_nonneg_right p1 (sq_nonneg ‖a + Complex.I * b‖),
    mul_le_mul_of_nonneg_right p2 (sq_nonneg ‖a - Complex.I * b‖)]

theorem norm_sq_C3 (u : C3) : ‖u‖ ^ 2 = ‖u 0‖ ^ 2 + ‖u 1‖ ^ 2 + ‖u 2‖ ^ 2 := by
  rw [EuclideanSpace.norm_sq_eq, Fin.sum_univ_three]

theorem le_of_sq {x c y : ℝ} (hc : 0 ≤ c) (hy : 0 ≤ y) (h : x ^ 2 ≤ c ^ 2 * y ^ 2) : x ≤ c * y := by
  refine le_of_sq_le_sq ?_ (by positivity)
  rw [mul_pow]
  exact h

theorem one_le_exp_sq (z : ℂ) : 1 ≤ Real.exp |z.im| ^ 2 := one_le_pow₀ (Real.one_le_exp (abs_nonneg _))

theorem backX_norm (z : ℂ) (u : C3) : ‖backX z u‖ ≤ Real.exp |z.im| * ‖u‖ := by
  refine le_of_sq (Real.exp_pos _).le (norm_nonneg _) ?_
  rw [norm_sq_C3, norm_sq_C3]
  have := turn_pair z (u 1) (u 2)
  have h1 := mul_le_mul_of_nonneg_right (one_le_exp_sq z) (sq_nonneg ‖u 0‖)
  simp only [backX, PiLp.toLp_apply, Matrix.cons_val_zero, Matrix.cons_val_one, Matrix.cons_val]
  linarith

theorem backZ_norm (z : ℂ) (u : C3) : ‖backZ z u‖ ≤ Real.exp |z.im| * ‖u‖ := by
  refine le_of_sq (Real.exp_pos _).le (norm_nonneg _) ?_
  rw [norm_sq_C3, norm_sq_C3]
  have := turn_pair z (u 0) (u 1)
  have h1 := mul_le_mul_of_nonneg_right (one_le_exp_sq z) (sq_nonneg ‖u 2‖)
  simp only [backZ, PiLp.toLp_apply, Matrix.cons_val_zero, Matrix.cons_val_one, Matrix.cons_val]
  linarith

theorem backY_norm (z : ℂ) (u : C3) : ‖backY z u‖ ≤ Real.exp |z.im| * ‖u‖ := by
  refine le_of_sq (Real.exp_pos _).le (norm_nonneg _) ?_
  rw [norm_sq_C3, norm_sq_C3]
  have := turn_pair z (u 2) (u 0)
  have h1 := mul_le_mul_of_nonneg_right (one_le_exp_sq z) (sq_nonneg ‖u 1‖)
  simp only [backY, PiLp.toLp_apply, Matrix.cons_val_zero, Matrix.cons_val_one, Matrix.cons_val]
  rw [show -(Complex.sin z * u 0) + Complex.cos z * u 2 = Complex.cos z * u 2 - Complex.sin z * u 0 by ring,
    show Complex.cos z * u 0 + Complex.sin z * u 2 = Complex.sin z * u 2 + Complex.cos z * u 0 by ring]
  linarith

theorem backX_diff {z : ℂ → ℂ} {u : ℂ → C3} (hz : Differentiable ℂ z) (hu : Differentiable ℂ u) :
    Differentiable ℂ fun ζ => backX (z ζ) (u ζ) := by
  rw [differentiable_euclidean] at hu ⊢
  intro i
  have h0 := hu 0
  have h1 := hu 1
  have h2 := hu 2
  fin_cases i <;> simp only [backX, Fin.zero_eta, Fin.mk_one, Fin.reduceFinMk, PiLp.toLp_apply, Matrix.cons_val_zero, Matrix.cons_val_one, Matrix.cons_val] <;> fun_prop

theorem backY_diff {z : ℂ → ℂ} {u : ℂ → C3} (hz : Differentiable ℂ z) (hu : Differentiable ℂ u) :
    Differentiable ℂ fun ζ => backY (z ζ) (u ζ) := by
  rw [differentiable_euclidean] at hu ⊢
  intro i
  have h0 := hu 0
  have h1 := hu 1
  have h2 := hu 2
  fin_cases i <;> simp only [backY, Fin.zero_eta, Fin.mk_one, Fin.reduceFinMk, PiLp.toLp_apply, Matrix.cons_val_zero, Matrix.cons_val_one, Matrix.cons_val] <;> fun_prop

theorem backZ_diff {z : ℂ → ℂ} {u : ℂ → C3} (hz : Differentiable ℂ z) (hu : Differentiable ℂ u) :
    Differentiable ℂ fun ζ => backZ (z ζ) (u ζ) := by
  rw [differentiable_euclidean] at hu ⊢
  intro i
  have h0 := hu 0
  have h1 := hu 1
  have h2 := hu 2
  fin_cases i <;> simp only [backZ, Fin.zero_eta, Fin.mk_one, Fin.reduceFinMk, PiLp.toLp_apply, Matrix.cons_val_zero, Matrix.cons_val_one, Matrix.cons_val] <;> fun_prop

/-- an angle that grows uniformly, in radians -/
def angleC (c0 c1 : ℝ) (ζ : ℂ) : ℂ := ((Real.pi / 180 : ℝ) : ℂ) * ((c0 : ℂ) + (c1 : ℂ) * ζ)

theorem angleC_real (c0 c1 t : ℝ) : angleC c0 c1 t = ((rad (c0 + c1 * t) : ℝ) : ℂ) := by
  unfold angleC rad
  push_cast
  ring

theorem angleC_diff (c0 c1 : ℝ) : Differentiable ℂ (angleC c0 c1) := by
  unfold angleC
  fun_prop

theorem angleC_im (c0 c1 : ℝ) (ζ : ℂ) : |(angleC c0 c1 ζ).im| = Real.pi / 180 * |c1| * |ζ.im| := by
  have e : (angleC c0 c1 ζ).im = Real.pi / 180 * (c1 * ζ.im) := by
    unfold angleC
    rw [Complex.im_ofReal_mul]
    simp
  rw [e, abs_mul, abs_mul, abs_of_pos (by positivity)]
  ring

/-- the direction of the thrust at complex times -/
def turnedC (P : TurnProgram) (lat long az : ℝ) (F : V3 ℝ) (ζ : ℂ) : C3 :=
  backZ long (backY ((-lat : ℝ) : ℂ) (backX ((-az : ℝ) : ℂ) (backX (angleC P.roll P.rollRate ζ) (backZ (angleC P.yaw P.yawRate ζ)
    (backY (angleC P.pitch P.pitchRate ζ) (cx (e3 F)))))))

theorem rmulVecT_rmul (a b : M3 ℝ) (w : V3 ℝ) : rmulVecT (rmul a b) w = rmulVecT b (rmulVecT a w) := by
  simp only [rmulVecT, rmulVec, rmul, rdot, M3.transpose, M3.col1, M3.col2, M3.col3, V3.mk.injEq]
  refine ⟨by ring, by ring, by ring⟩

theorem launchAxes_turns (lat long az : ℝ) : launchAxes lat long az = rmul (turnX (-az)) (rmul (turnY (-lat)) (turnZ long)) := by
  unfold launchAxes
  congr 1
  simp [rmul, rdot, turnY, turnZ, up, east, north, M3.col1, M3.col2, M3.col3]

theorem turnedC_real (P : TurnProgram) (lat long az : ℝ) (F : V3 ℝ) (t : ℝ) :
    turnedC P lat long az F t = cx (e3 (rmulVecT (P.frame lat long az t) F)) := by
  unfold turnedC TurnProgram.frame bodyFrame
  rw [launchAxes_turns]
  simp only [angleC_real, backX_real, backY_real, backZ_real, rmulVecT_rmul]

theorem turnedC_diff (P : TurnProgram) (lat long az : ℝ) (F : V3 ℝ) : Differentiable ℂ (turnedC P lat long az F) := by
  unfold turnedC
  exact backZ_diff (differentiable_const _) (backY_diff (differentiable_const _) (backX_diff (differentiable_const _)
    (backX_diff (angleC_diff _ _) (backZ_diff (angleC_diff _ _) (backY_diff (angleC_diff _ _) (differentiable_const _))))))

theorem turnedC_norm (P : TurnProgram) (lat long az : ℝ) (F : V3 ℝ) (ζ : ℂ) :
    ‖turnedC P lat long az F ζ‖ ≤
      Real.exp (Real.pi / 180 * (|P.rollRate| + |P.yawRate| + |P.pitchRate|) * |ζ.im|) * rnorm F := by
  have fixed : ∀ θ : ℝ, Real.exp |(θ : ℂ).im| = 1 := fun θ => by simp
  have h1 := backY_norm (angleC P.pitch P.pitchRate ζ) (cx (e3 F))
  have h2 := backZ_norm (angleC P.yaw P.yawRate ζ) (backY (angleC P.pitch P.pitchRate ζ) (cx (e3 F)))
  have h3 := backX_norm (angleC P.roll P.rollRate ζ) (backZ (angleC P.yaw P.yawRate ζ) (backY (angleC P.pitch P.pitchRate ζ) (cx (e3 F))))
  unfold turnedC
  set w := backX (angleC P.roll P.rollRate ζ) (backZ (angleC P.yaw P.yawRate ζ) (backY (angleC P.pitch P.pitchRate ζ) (cx (e3 F))))
  have h4 := backX_norm ((-az : ℝ) : ℂ) w
  have h5 := backY_norm ((-lat : ℝ) : ℂ) (backX ((-az : ℝ) : ℂ) w)
  have h6 := backZ_norm (long : ℂ) (backY ((-lat : ℝ) : ℂ) (backX ((-az : ℝ) : ℂ) w))
  rw [fixed, one_mul] at h4 h5 h6
  refine h6.trans (h5.trans (h4.trans (h3.trans ?_)))
  rw [norm_cx, norm_e3] at h1
  have e : Real.exp (Real.pi / 180 * (|P.rollRate| + |P.yawRate| + |P.pitchRate|) * |ζ.im|) =
      Real.exp |(angleC P.roll P.rollRate ζ).im| * (Real.exp |(angleC P.yaw P.yawRate ζ).im| *
        Real.exp |(angleC P.pitch P.pitchRate ζ).im|) := by
    rw [← Real.exp_add, ← Real.exp_add, angleC_im, angleC_im, angleC_im]
    congr 1
    ring
  rw [e, mul_assoc]
  refine mul_le_mul_of_nonneg_left (h2.trans ?_) (Real.exp_pos _).le
  rw [mul_assoc]
  exact mul_le_mul_of_nonneg_left h1 (Real.exp_pos _).le

/-- The acceleration by the thrust. -/
def pushT (P : TurnProgram) (lat long az : ℝ) (F : V3 ℝ) (m0 q te : ℝ) (t : ℝ) : V3 ℝ :=
  rscale (1 / (m0 - q * (t - te))) (rmulVecT (P.frame lat long az t) F)

theorem push_forcing (P : TurnProgram) (lat long az : ℝ) (F : V3 ℝ) {m0 q te te2 T B : ℝ} (hT : 0 ≤ T) (hq : 0 ≤ q)
    (hm : 0 < m0 - q * (te2 - te)) (hmass : 2 * T * q ≤ m0 - q * (te2 - te))
    (hB : 2 * (Real.exp (Real.pi / 180 * (|P.rollRate| + |P.yawRate| + |P.pitchRate|) * T) * rnorm F) ≤
      B * (m0 - q * (te2 - te))) :
    ∃ AC, Forcing (fun t => e3 (pushT P lat long az F m0 q te t)) AC (Set.Icc te te2) T B := by
  refine ⟨fun ζ => ((m0 : ℂ) - (q : ℂ) * (ζ - (te : ℂ)))⁻¹ • turnedC P lat long az F ζ, ?_, ?_⟩
  · intro t
    rw [turnedC_real]
    have e : ((m0 : ℂ) - (q : ℂ) * ((t : ℂ) - (te : ℂ)))⁻¹ = (((m0 - q * (t - te))⁻¹ : ℝ) : ℂ) := by push_cast; rfl
    rw [e]
    ext i
    fin_cases i <;> simp [cx_apply, e3, pushT, rscale]
  · intro t ht ζ hζ
    have him : |ζ.im| ≤ T := by
      have h1 := Complex.abs_im_le_norm (ζ - t)
      simp at h1
      exact h1.trans hζ
    set M := m0 - q * (te2 - te) with hM
    have hlow : M / 2 ≤ ‖(m0 : ℂ) - (q : ℂ) * (ζ - (te : ℂ))‖ := by
      have e : (m0 : ℂ) - (q : ℂ) * (ζ - (te : ℂ)) = ((m0 - q * (t - te) : ℝ) : ℂ) - (q : ℂ) * (ζ - t) := by
        push_cast
        ring
      rw [e]
      have h1 := norm_sub_norm_le ((m0 - q * (t - te) : ℝ) : ℂ) ((q : ℂ) * (ζ - t))
      rw [Complex.norm_real, norm_mul, Complex.norm_real, Real.norm_of_nonneg hq] at h1
      have h2 : M ≤ m0 - q * (t - te) := by
        have : q * (t - te) ≤ q * (te2 - te) := mul_le_mul_of_nonneg_left (by linarith [ht.2]) hq
        rw [hM]
        linarith
      rw [Real.norm_of_nonneg (hm.le.trans h2)] at h1
      have h3 : q * ‖ζ - t‖ ≤ q * T := mul_le_mul_of_nonneg_left hζ hq
      linarith
    have hne : (m0 : ℂ) - (q : ℂ) * (ζ - (te : ℂ)) ≠ 0 := by
      intro h0
      rw [h0, norm_zero] at hlow
      linarith
    constructor
    · have hinv : AnalyticAt ℂ (fun ζ : ℂ => ((m0 : ℂ) - (q : ℂ) * (ζ - (te : ℂ)))⁻¹) ζ :=
        AnalyticAt.inv (by exact analyticAt_const.sub (analyticAt_const.mul (analyticAt_id.sub analyticAt_const))) hne
      exact hinv.smul ((turnedC_diff P lat long az F).analyticAt ζ)
    · rw [norm_smul, norm_inv]
      have h1 := turnedC_norm P lat long az F ζ
      have h2 : Real.exp (Real.pi / 180 * (|P.rollRate| + |P.yawRate| + |P.pitchRate|) * |ζ.im|) ≤
          Real.exp (Real.pi / 180 * (|P.rollRate| + |P.yawRate| + |P.pitchRate|) * T) := by
        refine Real.exp_le_exp.2 ?_
        have hpi := Real.pi_pos
        gcongr
      have hF : 0 ≤ rnorm F := Real.sqrt_nonneg _
      have h3 := h1.trans (mul_le_mul_of_nonneg_right h2 hF)
      rw [inv_mul_le_iff₀ (lt_of_lt_of_le (by linarith) hlow)]
      have hB0 : 0 ≤ B := by
        have : 0 ≤ B * M := le_trans (by positivity) hB
        by_contra hc
        push Not at hc
        nlinarith
      nlinarith [mul_le_mul_of_nonneg_right hlow hB0]

end
end Post
