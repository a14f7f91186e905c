import Verif.Lemmas.Kepler
/-! # The field of a planet with zonal harmonics

Pure analysis: no reference to the program.  The attraction of a point mass and the terms of the zonal
harmonics J2, J3 and J4, continued to complex positions, with explicit bounds. -/

namespace Post.Kepler
open Metric Set

section
variable {K : Type*} [_root_.Field K]

/-- the factor of the harmonics in the equatorial plane; `u` is one over the distance -/
def eqPart (a j2 j3 j4 z u : K) : K :=
  3 / 2 * j2 * (a * u) ^ 2 * (1 - 5 * (z * u) ^ 2) + 5 / 2 * j3 * (a * u) ^ 3 * ((z * u) * (3 - 7 * (z * u) ^ 2))
    - 35 / 8 * j4 * (a * u) ^ 4 * (9 * (z * u) ^ 4 - 6 * (z * u) ^ 2 + 3 / 7)

/-- the harmonics along the axis; `s` is the square of the distance -/
def axPart (a j2 j3 j4 z u s : K) : K :=
  3 / 2 * j2 * (a * u) ^ 2 * ((3 - 5 * (z * u) ^ 2) * z)
    + 5 / 2 * j3 * (a * u) ^ 3 * (z * (z * u) * (6 - 7 * (z * u) ^ 2) - 3 / 5 * (u * s))
    - 35 / 8 * j4 * (a * u) ^ 4 * ((15 / 7 - 10 * (z * u) ^ 2 + 9 * (z * u) ^ 4) * z)
end

/-- the attraction by the harmonics -/
noncomputable def harm (a μ j2 j3 j4 : ℝ) (r : R3) : R3 :=
  (-μ * ‖r‖⁻¹ ^ 3) • !₂[r 0 * eqPart a j2 j3 j4 (r 2) ‖r‖⁻¹, r 1 * eqPart a j2 j3 j4 (r 2) ‖r‖⁻¹,
    axPart a j2 j3 j4 (r 2) ‖r‖⁻¹ (‖r‖ ^ 2)]

/-- one over the distance, for complex positions -/
noncomputable def invC (ζ : C3) : ℂ := sq ζ ^ (-(1 / 2) : ℂ)

/-- the attraction by the harmonics, for complex positions -/
noncomputable def harmC (a μ j2 j3 j4 : ℝ) (ζ : C3) : C3 :=
  (-(μ : ℂ) * invC ζ ^ 3) • !₂[ζ 0 * eqPart (a : ℂ) j2 j3 j4 (ζ 2) (invC ζ),
    ζ 1 * eqPart (a : ℂ) j2 j3 j4 (ζ 2) (invC ζ), axPart (a : ℂ) j2 j3 j4 (ζ 2) (invC ζ) (sq ζ)]

theorem invC_cx (r : R3) : invC (cx r) = ((‖r‖⁻¹ : ℝ) : ℂ) := by
  unfold invC
  rw [sq_cx, show (-(1 / 2) : ℂ) = ((-(1 / 2) : ℝ) : ℂ) by push_cast; ring,
    ← Complex.ofReal_cpow (by positivity)]
  congr 1
  rw [Real.rpow_neg (by positivity), ← Real.rpow_natCast, ← Real.rpow_mul (norm_nonneg _)]
  norm_num

theorem harmC_cx (a μ j2 j3 j4 : ℝ) (r : R3) : harmC a μ j2 j3 j4 (cx r) = cx (harm a μ j2 j3 j4 r) := by
  unfold harmC harm
  rw [invC_cx, sq_cx, map_smul]
  have e1 : eqPart (a : ℂ) j2 j3 j4 (cx r 2) ((‖r‖⁻¹ : ℝ) : ℂ) =
      ((eqPart a j2 j3 j4 (r 2) ‖r‖⁻¹ : ℝ) : ℂ) := by
    rw [cx_apply]
    unfold eqPart
    push_cast
    rfl
  have e2 : axPart (a : ℂ) j2 j3 j4 (cx r 2) ((‖r‖⁻¹ : ℝ) : ℂ) ((‖r‖ ^ 2 : ℝ) : ℂ) =
      ((axPart a j2 j3 j4 (r 2) ‖r‖⁻¹ (‖r‖ ^ 2) : ℝ) : ℂ) := by
    rw [cx_apply]
    unfold axPart
    push_cast
    rfl
  rw [e1, e2]
  ext i
  simp only [PiLp.smul_apply, cx_apply, smul_eq_mul, Complex.real_smul]
  fin_cases i <;> simp

/-- the size of the harmonics, relative to the attraction of the point mass, for complex positions within
a quarter of the distance -/
noncomputable def harmSize (α j2 j3 j4 : ℝ) : ℝ :=
  50 * |j2| * α ^ 2 + 205 * |j3| * α ^ 3 + 820 * |j4| * α ^ 4

theorem norm_eqPart {a j2 j3 j4 α : ℝ} {z u : ℂ} (hau : ‖(a : ℂ) * u‖ ≤ α) (hzu : ‖z * u‖ ≤ 5 / 3) :
    ‖eqPart (a : ℂ) j2 j3 j4 z u‖ ≤ 45 / 2 * |j2| * α ^ 2 + 94 * |j3| * α ^ 3 + 380 * |j4| * α ^ 4 := by
  have hα : 0 ≤ α := (norm_nonneg _).trans hau
  set w := z * u with hw
  set b := (a : ℂ) * u with hb
  have w2 : ‖w ^ 2‖ ≤ 25 / 9 := by
    rw [norm_pow]
    calc ‖w‖ ^ 2 ≤ (5 / 3) ^ 2 := pow_le_pow_left₀ (norm_nonneg _) hzu 2
      _ = 25 / 9 := by norm_num
  have w4 : ‖w ^ 4‖ ≤ 625 / 81 := by
    rw [norm_pow]
    calc ‖w‖ ^ 4 ≤ (5 / 3) ^ 4 := pow_le_pow_left₀ (norm_nonneg _) hzu 4
      _ = 625 / 81 := by norm_num
  have p1 : ‖(1 : ℂ) - 5 * w ^ 2‖ ≤ 15 := by
    refine (norm_sub_le _ _).trans ?_
    rw [norm_one, norm_mul, Complex.norm_ofNat]
    linarith
  have p2 : ‖w * (3 - 7 * w ^ 2)‖ ≤ 188 / 5 := by
    have : ‖(3 : ℂ) - 7 * w ^ 2‖ ≤ 202 / 9 := by
      refine (norm_sub_le _ _).trans ?_
      rw [norm_mul, Complex.norm_ofNat, Complex.norm_ofNat]
      linarith
    rw [norm_mul]
    calc ‖w‖ * ‖(3 : ℂ) - 7 * w ^ 2‖ ≤ 5 / 3 * (202 / 9) := by gcongr
      _ ≤ 188 / 5 := by norm_num
  have p3 : ‖9 * w ^ 4 - 6 * w ^ 2 + 3 / 7‖ ≤ 433 / 5 := by
    refine (norm_add_le _ _).trans ?_
    have h1 := norm_sub_le (9 * w ^ 4) (6 * w ^ 2)
    rw [norm_mul, norm_mul, Complex.norm_ofNat, Complex.norm_ofNat] at h1
    have h2 : ‖(3 / 7 : ℂ)‖ = 3 / 7 := by rw [norm_div, Complex.norm_ofNat, Complex.norm_ofNat]
    rw [h2]
    linarith
  have bp : ∀ n : ℕ, ‖b ^ n‖ ≤ α ^ n := fun n => by
    rw [norm_pow]
    exact pow_le_pow_left₀ (norm_nonneg _) hau n
  have t1 : ‖3 / 2 * (j2 : ℂ) * b ^ 2 * (1 - 5 * w ^ 2)‖ ≤ 45 / 2 * |j2| * α ^ 2 := by
    rw [norm_mul, norm_mul, norm_mul, norm_div, Complex.norm_ofNat, Complex.norm_ofNat,
      Complex.norm_real, Real.norm_eq_abs]
    calc 3 / 2 * |j2| * ‖b ^ 2‖ * ‖1 - 5 * w ^ 2‖ ≤ 3 / 2 * |j2| * α ^ 2 * 15 := by
          gcongr
          exact bp 2
      _ = 45 / 2 * |j2| * α ^ 2 := by ring
  have t2 : ‖5 / 2 * (j3 : ℂ) * b ^ 3 * (w * (3 - 7 * w ^ 2))‖ ≤ 94 * |j3| * α ^ 3 := by
    rw [norm_mul, norm_mul, norm_mul, norm_div, Complex.norm_ofNat, Complex.norm_ofNat,
      Complex.norm_real, Real.norm_eq_abs]
    calc 5 / 2 * |j3| * ‖b ^ 3‖ * ‖w * (3 - 7 * w ^ 2)‖ ≤ 5 / 2 * |j3| * α ^ 3 * (188 / 5) := by
          gcongr
          exact bp 3
      _ = 94 * |j3| * α ^ 3 := by ring
  have t3 : ‖35 / 8 * (j4 : ℂ) * b ^ 4 * (9 * w ^ 4 - 6 * w ^ 2 + 3 / 7)‖ ≤ 380 * |j4| * α ^ 4 := by
    rw [norm_mul, norm_mul, norm_mul, norm_div, Complex.norm_ofNat, Complex.norm_ofNat,
      Complex.norm_real, Real.norm_eq_abs]
    calc 35 / 8 * |j4| * ‖b ^ 4‖ * ‖9 * w ^ 4 - 6 * w ^ 2 + 3 / 7‖ ≤ 35 / 8 * |j4| * α ^ 4 * (433 / 5) := by
          gcongr
          exact bp 4
      _ = 35 / 8 * (433 / 5) * (|j4| * α ^ 4) := by ring
      _ ≤ 380 * (|j4| * α ^ 4) := by
          have : 0 ≤ |j4| * α ^ 4 := by positivity
          gcongr
          norm_num
      _ = 380 * |j4| * α ^ 4 := by ring
  unfold eqPart
  rw [← hw, ← hb]
  exact (norm_sub_le _ _).trans (add_le_add ((norm_add_le _ _).trans (add_le_add t1 t2)) t3)

theorem norm_axPart {a j2 j3 j4 α ρ : ℝ} {z u s : ℂ} (hau : ‖(a : ℂ) * u‖ ≤ α) (hzu : ‖z * u‖ ≤ 5 / 3)
    (hz : ‖z‖ ≤ ρ) (hus : ‖u * s‖ ≤ ρ) :
    ‖axPart (a : ℂ) j2 j3 j4 z u s‖ ≤
      (26 * |j2| * α ^ 2 + 108 * |j3| * α ^ 3 + 436 * |j4| * α ^ 4) * ρ := by
  have hα : 0 ≤ α := (norm_nonneg _).trans hau
  have hρ : 0 ≤ ρ := (norm_nonneg _).trans hz
  set w := z * u with hw
  set b := (a : ℂ) * u with hb
  have w2 : ‖w ^ 2‖ ≤ 25 / 9 := by
    rw [norm_pow]
    calc ‖w‖ ^ 2 ≤ (5 / 3) ^ 2 := pow_le_pow_left₀ (norm_nonneg _) hzu 2
      _ = 25 / 9 := by norm_num
  have w4 : ‖w ^ 4‖ ≤ 625 / 81 := by
    rw [norm_pow]
    calc ‖w‖ ^ 4 ≤ (5 / 3) ^ 4 := pow_le_pow_left₀ (norm_nonneg _) hzu 4
      _ = 625 / 81 := by norm_num
  have p1 : ‖(3 - 5 * w ^ 2) * z‖ ≤ 52 / 3 * ρ := by
    have : ‖(3 : ℂ) - 5 * w ^ 2‖ ≤ 52 / 3 := by
      refine (norm_sub_le _ _).trans ?_
      rw [norm_mul, Complex.norm_ofNat, Complex.norm_ofNat]
      linarith
    rw [norm_mul]
    gcongr
  have p2 : ‖z * w * (6 - 7 * w ^ 2) - 3 / 5 * (u * s)‖ ≤ 216 / 5 * ρ := by
    have h1 : ‖(6 : ℂ) - 7 * w ^ 2‖ ≤ 229 / 9 := by
      refine (norm_sub_le _ _).trans ?_
      rw [norm_mul, Complex.norm_ofNat, Complex.norm_ofNat]
      linarith
    have h2 : ‖z * w * (6 - 7 * w ^ 2)‖ ≤ ρ * (5 / 3) * (229 / 9) := by
      rw [norm_mul, norm_mul]
      gcongr
    have h3 : ‖3 / 5 * (u * s)‖ ≤ 3 / 5 * ρ := by
      rw [norm_mul, norm_div, Complex.norm_ofNat, Complex.norm_ofNat]
      gcongr
    refine (norm_sub_le _ _).trans ?_
    linarith
  have p3 : ‖(15 / 7 - 10 * w ^ 2 + 9 * w ^ 4) * z‖ ≤ 497 / 5 * ρ := by
    have : ‖(15 / 7 : ℂ) - 10 * w ^ 2 + 9 * w ^ 4‖ ≤ 497 / 5 := by
      refine (norm_add_le _ _).trans ?_
      have h1 := norm_sub_le (15 / 7 : ℂ) (10 * w ^ 2)
      rw [norm_mul, norm_div, Complex.norm_ofNat, Complex.norm_ofNat, Complex.norm_ofNat] at h1
      rw [norm_mul, Complex.norm_ofNat]
      linarith
    rw [norm_mul]
    gcongr
  have bp : ∀ n : ℕ, ‖b ^ n‖ ≤ α ^ n := fun n => by
    rw [norm_pow]
    exact pow_le_pow_left₀ (norm_nonneg _) hau n
  have t1 : ‖3 / 2 * (j2 : ℂ) * b ^ 2 * ((3 - 5 * w ^ 2) * z)‖ ≤ 26 * |j2| * α ^ 2 * ρ := by
    rw [norm_mul, norm_mul, norm_mul, norm_div, Complex.norm_ofNat, Complex.norm_ofNat,
      Complex.norm_real, Real.norm_eq_abs]
    calc 3 / 2 * |j2| * ‖b ^ 2‖ * ‖(3 - 5 * w ^ 2) * z‖ ≤ 3 / 2 * |j2| * α ^ 2 * (52 / 3 * ρ) := by
          gcongr
          exact bp 2
      _ = 26 * |j2| * α ^ 2 * ρ := by ring
  have t2 : ‖5 / 2 * (j3 : ℂ) * b ^ 3 * (z * w * (6 - 7 * w ^ 2) - 3 / 5 * (u * s))‖ ≤
      108 * |j3| * α ^ 3 * ρ := by
    rw [norm_mul, norm_mul, norm_mul, norm_div, Complex.norm_ofNat, Complex.norm_ofNat,
      Complex.norm_real, Real.norm_eq_abs]
    calc 5 / 2 * |j3| * ‖b ^ 3‖ * ‖z * w * (6 - 7 * w ^ 2) - 3 / 5 * (u * s)‖ ≤
          5 / 2 * |j3| * α ^ 3 * (216 / 5 * ρ) := by
          gcongr
          exact bp 3
      _ = 108 * |j3| * α ^ 3 * ρ := by ring
  have t3 : ‖35 / 8 * (j4 : ℂ) * b ^ 4 * ((15 / 7 - 10 * w ^ 2 + 9 * w ^ 4) * z)‖ ≤
      436 * |j4| * α ^ 4 * ρ := by
    rw [norm_mul, norm_mul, norm_mul, norm_div, Complex.norm_ofNat, Complex.norm_ofNat,
      Complex.norm_real, Real.norm_eq_abs]
    calc 35 / 8 * |j4| * ‖b ^ 4‖ * ‖(15 / 7 - 10 * w ^ 2 + 9 * w ^ 4) * z‖ ≤
          35 / 8 * |j4| * α ^ 4 * (497 / 5 * ρ) := by
          gcongr
          exact bp 4
      _ = 35 / 8 * (497 / 5) * (|j4| * α ^ 4 * ρ) := by ring
      _ ≤ 436 * (|j4| * α ^ 4 * ρ) := by
          have : 0 ≤ |j4| * α ^ 4 * ρ := by positivity
          gcongr
          norm_num
      _ = 436 * |j4| * α ^ 4 * ρ := by ring
  unfold axPart
  rw [← hw, ← hb]
  refine (norm_sub_le _ _).trans (le_trans (add_le_add ((norm_add_le _ _).trans (add_le_add t1 t2)) t3)
    (le_of_eq (by ring)))

theorem norm_three_le (x y z : ℂ) {a b ρ : ℝ} (ha : 0 ≤ a) (hb : 0 ≤ b) (hρ : 0 ≤ ρ)
    (hxy : ‖x‖ ^ 2 + ‖y‖ ^ 2 ≤ (a * ρ) ^ 2) (hz : ‖z‖ ≤ b * ρ) : ‖(!₂[x, y, z] : C3)‖ ≤ (a + b) * ρ := by
  rw [EuclideanSpace.norm_eq, Fin.sum_univ_three]
  refine Real.sqrt_le_iff.2 ⟨by positivity, ?_⟩
  show ‖x‖ ^ 2 + ‖y‖ ^ 2 + ‖z‖ ^ 2 ≤ _
  have h1 : ‖z‖ ^ 2 ≤ (b * ρ) ^ 2 := pow_le_pow_left₀ (norm_nonneg _) hz 2
  have h2 : 0 ≤ a * b * ρ ^ 2 := by positivity
  nlinarith

/-- the harmonics near a real vector -/
theorem harmC_near {a μ j2 j3 j4 R : ℝ} (ha : 0 ≤ a) (hμ : 0 ≤ μ) (hR : 0 < R) {r : R3} (hr : R ≤ ‖r‖)
    {ζ : C3} (hζ : ‖ζ - cx r‖ ≤ R / 4) :
    AnalyticAt ℂ (harmC a μ j2 j3 j4) ζ ∧
      ‖harmC a μ j2 j3 j4 ζ‖ ≤ harmSize (4 / 3 * a / R) j2 j3 j4 * (80 / 27 * (μ / R ^ 2)) := by
  have hre := re_sq_ge hζ (by linarith)
  have hs0 : 0 < ‖r‖ - R / 4 := by linarith
  have hpos : 0 < (sq ζ).re := lt_of_lt_of_le (by positivity) hre
  have hslit : sq ζ ∈ Complex.slitPlane := Or.inl hpos
  have hsne : sq ζ ≠ 0 := Complex.slitPlane_ne_zero hslit
  constructor
  · have hc : ∀ i : Fin 3, AnalyticAt ℂ (fun z : C3 => z i) ζ := fun i =>
      (EuclideanSpace.proj (𝕜 := ℂ) i : C3 →L[ℂ] ℂ).analyticAt ζ
    have hs : AnalyticAt ℂ sq ζ := (((hc 0).pow 2).add ((hc 1).pow 2)).add ((hc 2).pow 2)
    have hu : AnalyticAt ℂ invC ζ := hs.cpow analyticAt_const hslit
    have hz := hc 2
    have heq : AnalyticAt ℂ (fun ζ : C3 => eqPart (a : ℂ) j2 j3 j4 (ζ 2) (invC ζ)) ζ := by
      unfold eqPart
      fun_prop
    have hax : AnalyticAt ℂ (fun ζ : C3 => axPart (a : ℂ) j2 j3 j4 (ζ 2) (invC ζ) (sq ζ)) ζ := by
      unfold axPart
      fun_prop
    have hvec : AnalyticAt ℂ (fun ζ : C3 => (!₂[ζ 0 * eqPart (a : ℂ) j2 j3 j4 (ζ 2) (invC ζ),
        ζ 1 * eqPart (a : ℂ) j2 j3 j4 (ζ 2) (invC ζ),
        axPart (a : ℂ) j2 j3 j4 (ζ 2) (invC ζ) (sq ζ)] : C3)) ζ := by
      have hpi : AnalyticAt ℂ (fun ζ : C3 => (![ζ 0 * eqPart (a : ℂ) j2 j3 j4 (ζ 2) (invC ζ),
          ζ 1 * eqPart (a : ℂ) j2 j3 j4 (ζ 2) (invC ζ),
          axPart (a : ℂ) j2 j3 j4 (ζ 2) (invC ζ) (sq ζ)] : Fin 3 → ℂ)) ζ := by
        rw [analyticAt_pi_iff]
        intro i
        fin_cases i
        · exact (hc 0).mul heq
        · exact (hc 1).mul heq
        · exact hax
      exact ((EuclideanSpace.equiv (Fin 3) ℂ).symm.toContinuousLinearMap.analyticAt _).comp hpi
    unfold harmC
    exact (analyticAt_const.mul (hu.pow 3)).smul hvec
  · set x := ‖r‖ - R / 4 with hx
    have hxR : 3 / 4 * R ≤ x := by linarith
    have hsn : x ^ 2 ≤ ‖sq ζ‖ := hre.trans ((le_abs_self _).trans (Complex.abs_re_le_norm _))
    have hzn : ‖ζ‖ ≤ x + R / 2 := by
      have := norm_add_le (ζ - cx r) (cx r)
      rw [sub_add_cancel, norm_cx] at this
      linarith
    have hun : ‖invC ζ‖ = (Real.sqrt ‖sq ζ‖)⁻¹ := by
      unfold invC
      rw [show (-(1 / 2) : ℂ) = ((-(1 / 2) : ℝ) : ℂ) by push_cast; ring, Complex.norm_cpow_real,
        Real.rpow_neg (norm_nonneg _), Real.sqrt_eq_rpow]
    have hsq : x ≤ Real.sqrt ‖sq ζ‖ := Real.le_sqrt_of_sq_le hsn
    have hsqpos : 0 < Real.sqrt ‖sq ζ‖ := hs0.trans_le hsq
    have hui : ‖invC ζ‖ ≤ x⁻¹ := by
      rw [hun]
      exact inv_anti₀ hs0 hsq
    have hsζ : Real.sqrt ‖sq ζ‖ ≤ ‖ζ‖ := Real.sqrt_le_iff.2 ⟨norm_nonneg _, norm_sq_le ζ⟩
    have hcomp : ∀ i, ‖ζ i‖ ≤ ‖ζ‖ := fun i => PiLp.norm_apply_le ζ i
    have hau : ‖(a : ℂ) * invC ζ‖ ≤ 4 / 3 * a / R := by
      rw [norm_mul, Complex.norm_real, Real.norm_of_nonneg ha]
      calc a * ‖invC ζ‖ ≤ a * (3 / 4 * R)⁻¹ := by
            gcongr
            exact hui.trans (inv_anti₀ (by positivity) hxR)
        _ = 4 / 3 * a / R := by field_simp
    have hzu : ‖ζ 2 * invC ζ‖ ≤ 5 / 3 := by
      rw [norm_mul]
      calc ‖ζ 2‖ * ‖invC ζ‖ ≤ (x + R / 2) * x⁻¹ := by
            gcongr
            exact (hcomp 2).trans hzn
        _ ≤ 5 / 3 := by
            rw [← div_eq_mul_inv, div_le_iff₀ hs0]
            linarith
    have hus : ‖invC ζ * sq ζ‖ ≤ ‖ζ‖ := by
      rw [norm_mul, hun]
      have : (Real.sqrt ‖sq ζ‖)⁻¹ * ‖sq ζ‖ = Real.sqrt ‖sq ζ‖ := by
        have h1 := Real.mul_self_sqrt (norm_nonneg (sq ζ))
        field_simp
        nlinarith
      rw [this]
      exact hsζ
    have b1 := norm_eqPart (j2 := j2) (j3 := j3) (j4 := j4) hau hzu
    have b2 := norm_axPart (j2 := j2) (j3 := j3) (j4 := j4) hau hzu (hcomp 2) hus
    set α := 4 / 3 * a / R with hα
    have hα0 : 0 ≤ α := by positivity
    set A := 45 / 2 * |j2| * α ^ 2 + 94 * |j3| * α ^ 3 + 380 * |j4| * α ^ 4 with hA
    set B := 26 * |j2| * α ^ 2 + 108 * |j3| * α ^ 3 + 436 * |j4| * α ^ 4 with hB
    have hA0 : 0 ≤ A := by positivity
    have hB0 : 0 ≤ B := by positivity
    have hvec := norm_three_le (ζ 0 * eqPart (a : ℂ) j2 j3 j4 (ζ 2) (invC ζ))
      (ζ 1 * eqPart (a : ℂ) j2 j3 j4 (ζ 2) (invC ζ)) (axPart (a : ℂ) j2 j3 j4 (ζ 2) (invC ζ) (sq ζ))
      hA0 hB0 (norm_nonneg ζ) (by
        rw [norm_mul, norm_mul, mul_pow, mul_pow, ← add_mul]
        have h1 : ‖ζ 0‖ ^ 2 + ‖ζ 1‖ ^ 2 ≤ ‖ζ‖ ^ 2 := by
          rw [EuclideanSpace.norm_sq_eq, Fin.sum_univ_three]
          have := sq_nonneg ‖ζ 2‖
          linarith
        have h2 : ‖eqPart (a : ℂ) j2 j3 j4 (ζ 2) (invC ζ)‖ ^ 2 ≤ A ^ 2 :=
          pow_le_pow_left₀ (norm_nonneg _) b1 2
        calc _ ≤ ‖ζ‖ ^ 2 * A ^ 2 := by gcongr
          _ = (A * ‖ζ‖) ^ 2 := by ring) b2
    have hAB : A + B ≤ harmSize α j2 j3 j4 := by
      unfold harmSize
      have e2 : 0 ≤ |j2| * α ^ 2 := by positivity
      have e3 : 0 ≤ |j3| * α ^ 3 := by positivity
      have e4 : 0 ≤ |j4| * α ^ 4 := by positivity
      rw [hA, hB]
      linarith
    have hsz : 0 ≤ harmSize α j2 j3 j4 := (add_nonneg hA0 hB0).trans hAB
    have hfac : x⁻¹ ^ 3 * (x + R / 2) ≤ 80 / 27 / R ^ 2 := by
      rw [inv_pow, inv_mul_le_iff₀ (by positivity), mul_div_assoc', le_div_iff₀ (by positivity)]
      have k1 : (3 / 4 * R) ^ 2 ≤ x ^ 2 := pow_le_pow_left₀ (by positivity) hxR 2
      have k2 : (3 / 4 * R) ^ 3 ≤ x ^ 3 := pow_le_pow_left₀ (by positivity) hxR 3
      nlinarith [mul_le_mul_of_nonneg_left k1 hs0.le]
    unfold harmC
    rw [norm_smul, norm_mul, norm_neg, norm_pow, Complex.norm_real, Real.norm_of_nonneg hμ]
    calc μ * ‖invC ζ‖ ^ 3 * _ ≤ μ * x⁻¹ ^ 3 * ((A + B) * ‖ζ‖) := by gcongr
      _ ≤ μ * x⁻¹ ^ 3 * (harmSize α j2 j3 j4 * (x + R / 2)) := by gcongr
      _ = harmSize α j2 j3 j4 * (μ * (x⁻¹ ^ 3 * (x + R / 2))) := by ring
      _ ≤ harmSize α j2 j3 j4 * (μ * (80 / 27 / R ^ 2)) := by
          gcongr
      _ = _ := by ring

/-- A field with a bounded continuation is Lipschitz continuous. -/
theorem lipschitz_of_near {g : R3 → R3} {gC : C3 → C3} {R G : ℝ} (hR : 0 < R)
    (real : ∀ r, gC (cx r) = cx (g r))
    (near : ∀ r ζ, R ≤ ‖r‖ → ‖ζ - cx r‖ ≤ R / 4 → AnalyticAt ℂ gC ζ ∧ ‖gC ζ‖ ≤ G) {x y : R3}
    (hx : R ≤ ‖x‖) (hy : R ≤ ‖y‖) : ‖g x - g y‖ ≤ 8 * G / R * ‖x - y‖ := by
  have size : ∀ z : R3, R ≤ ‖z‖ → ‖g z‖ ≤ G := by
    intro z hz
    have := (near z (cx z) hz (by simp; positivity)).2
    rwa [real, norm_cx] at this
  have hG : 0 ≤ G := (norm_nonneg _).trans (size x hx)
  rcases eq_or_ne x y with rfl | hne
  · simp
  have hpos : 0 < ‖x - y‖ := norm_pos_iff.2 (sub_ne_zero.2 hne)
  rcases le_or_gt (R / 4) ‖x - y‖ with hfar | hnear
  · calc ‖g x - g y‖ ≤ G + G := (norm_sub_le _ _).trans (add_le_add (size x hx) (size y hy))
      _ = 8 * G / R * (R / 4) := by field_simp; ring
      _ ≤ 8 * G / R * ‖x - y‖ := by gcongr
  · have hin : ∀ τ ∈ ball (0 : ℂ) (R / 4 / ‖x - y‖), ‖(cx y + τ • cx (x - y)) - cx y‖ ≤ R / 4 := by
      intro τ hτ
      rw [mem_ball_zero_iff, lt_div_iff₀ hpos] at hτ
      rw [add_sub_cancel_left, norm_smul, norm_cx]
      exact hτ.le
    have hd : DifferentiableOn ℂ (fun τ : ℂ => gC (cx y + τ • cx (x - y))) (ball 0 (R / 4 / ‖x - y‖)) := by
      intro τ hτ
      have h1 := (near y _ hy (hin τ hτ)).1.differentiableAt
      have h2 : DifferentiableAt ℂ (fun τ : ℂ => cx y + τ • cx (x - y)) τ :=
        (differentiableAt_id.smul_const _).const_add _
      exact (DifferentiableAt.comp τ (g := gC) h1 h2).differentiableWithinAt
    have hmaps : MapsTo (fun τ : ℂ => gC (cx y + τ • cx (x - y))) (ball 0 (R / 4 / ‖x - y‖))
        (closedBall ((fun τ : ℂ => gC (cx y + τ • cx (x - y))) 0) (G + G)) := by
      intro τ hτ
      rw [mem_closedBall, dist_eq_norm]
      refine (norm_sub_le _ _).trans (add_le_add (near y _ hy (hin τ hτ)).2 ?_)
      exact (near y _ hy (hin 0 (mem_ball_self (by positivity)))).2
    have h1 : (1 : ℂ) ∈ ball (0 : ℂ) (R / 4 / ‖x - y‖) := by
      rw [mem_ball_zero_iff, norm_one, lt_div_iff₀ hpos]
      linarith
    have := Complex.dist_le_div_mul_dist_of_mapsTo_ball hd hmaps h1
    simp only [zero_smul, add_zero, one_smul, dist_zero_right, norm_one, mul_one] at this
    rw [dist_eq_norm, map_sub, add_sub_cancel, real, real, ← map_sub, norm_cx] at this
    refine this.trans (le_of_eq ?_)
    field_simp
    ring

/-- The field of a planet with harmonics. -/
theorem harm_field {a μ j2 j3 j4 R : ℝ} (ha : 0 ≤ a) (hμ : 0 ≤ μ) (hR : 0 < R) :
    Field (fun r => grav μ r + harm a μ j2 j3 j4 r) (fun ζ => gravC μ ζ + harmC a μ j2 j3 j4 ζ) R
      ((1 + harmSize (4 / 3 * a / R) j2 j3 j4) * (80 / 27 * (μ / R ^ 2)))
      ((2 + 640 / 27 * harmSize (4 / 3 * a / R) j2 j3 j4) * (μ / R ^ 3)) := by
  refine ⟨fun r => by rw [gravC_cx, harmC_cx, map_add], fun r ζ hr hζ => ?_, fun x y hx hy => ?_⟩
  · obtain ⟨a1, b1⟩ := gravC_near hμ hR hr hζ
    obtain ⟨a2, b2⟩ := harmC_near (j2 := j2) (j3 := j3) (j4 := j4) ha hμ hR hr hζ
    refine ⟨a1.add a2, (norm_add_le _ _).trans ?_⟩
    linarith
  · have h1 := grav_lipschitz hμ hR hx hy
    have h2 := lipschitz_of_near hR (harmC_cx a μ j2 j3 j4)
      (fun r ζ hr hζ => harmC_near (j2 := j2) (j3 := j3) (j4 := j4) ha hμ hR hr hζ) hx hy
    rw [show grav μ x + harm a μ j2 j3 j4 x - (grav μ y + harm a μ j2 j3 j4 y) =
      (grav μ x - grav μ y) + (harm a μ j2 j3 j4 x - harm a μ j2 j3 j4 y) by abel]
    refine (norm_add_le _ _).trans ((add_le_add h1 h2).trans (le_of_eq ?_))
    field_simp
    ring

end Post.Kepler
