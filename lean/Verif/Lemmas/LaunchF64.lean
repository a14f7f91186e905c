import Verif.Lemmas.TrackF64
import Verif.Lemmas.ThrottleF64
import Verif.Lemmas.AltF64
import Verif.Lemmas.Launch
import Verif.Spec.DoubleLaunch
/-! # Lemmas: the launch site in double precision -/

set_option exponentiation.threshold 2000

namespace Post
open Spec Flt F64
variable {L : Libm}

/-! ## Degrees and radians -/

theorem pi_bounds : |(884279719003555 / 281474976710656 : ℝ) - Real.pi| ≤ 1.3e-16 ∧
    (884279719003555 / 281474976710656 : ℝ) + 1.2e-16 ≤ Real.pi := by
  have h1 := Real.pi_gt_d20
  have h2 := Real.pi_lt_d20
  rw [abs_le]
  norm_num at *
  refine ⟨⟨?_, ?_⟩, ?_⟩ <;> linarith

theorem degree_near : Near (Flt.pi / 180 : F64 L) (Real.pi / 180) 4e-18 := by
  have h3 := Real.pi_lt_d2
  have h0 := Real.pi_pos
  have h : Near (180 : F64 L) 180 0 := by simpa using Near.nat (L := L) 180 (by norm_num)
  refine pi_near.div h (b := 180) (M := 0.0175) (by norm_num) (by norm_num) (by norm_num) ?_ (by norm_num) (by norm_num)
  rw [abs_of_pos (by positivity)]
  norm_num at *
  linarith

theorem abs_rad_le {d D : ℝ} (h : |d| ≤ D) : |rad d| ≤ 0.01746 * D := by
  have h3 := Real.pi_lt_d4
  have h0 := Real.pi_pos
  unfold rad
  rw [abs_mul, abs_of_pos (by positivity : (0:ℝ) < Real.pi / 180), mul_comm]
  refine mul_le_mul ?_ h (abs_nonneg _) (by norm_num)
  norm_num at *
  linarith

theorem toRadians_near {x : F64 L} {d : ℝ} (hx : Reads x d) (hd : |d| ≤ 360) : Near (toRadians x) (rad d) 2.3e-15 := by
  have h3 := Real.pi_lt_d4
  refine (reads_near.1 hx).mul degree_near (A := 360) (B := 0.0175) (M := 6.3) hd ?_ ?_ (by norm_num) (by norm_num)
  · rw [abs_of_pos (by positivity)]
    norm_num at *
    linarith
  · have := abs_rad_le hd
    refine le_trans this (by norm_num)

theorem degree_dbl : (Flt.pi / 180 : F64 L) = ⟨.fin false (5030569068109113 / 288230376151711744)⟩ := by
  show (⟨Dbl.div F64.piDbl (.round false (180 * 10 ^ 0))⟩ : F64 L) = _
  congr 1
  decide +kernel

/-- The double nearest to pi/2. -/
def halfPiQ : ℚ := 884279719003555 / 562949953421312

theorem ninety_dbl (s : Bool) : Dbl.round s (90 * (5030569068109113 / 288230376151711744)) = .fin false halfPiQ := by
  cases s <;> decide +kernel

theorem neg_ninety_dbl (s : Bool) : Dbl.round s (-90 * (5030569068109113 / 288230376151711744)) = .fin true halfPiQ := by
  cases s <;> decide +kernel

/-- A latitude in radians is at most the double nearest to pi/2, which is smaller than pi/2. -/
theorem latitude_near {x : F64 L} {d : ℝ} (hx : Reads x d) (hd : |d| ≤ 90) :
    ∃ q : ℚ, (toRadians x).Is q ∧ |q| ≤ halfPiQ ∧ |(q : ℝ) - rad d| ≤ 6e-16 := by
  have h3 := Real.pi_lt_d4
  obtain ⟨r, hr, hr'⟩ : Near (toRadians x) (rad d) 6e-16 := by
    refine (reads_near.1 hx).mul degree_near (A := 90) (B := 0.0175) (M := 1.58) hd ?_ ?_ (by norm_num) (by norm_num)
    · rw [abs_of_pos (by positivity)]
      norm_num at *
      linarith
    · have := abs_rad_le hd
      refine le_trans this (by norm_num)
  refine ⟨r, hr, ?_, hr'⟩
  obtain ⟨p, ⟨s, a, h1, h2, _⟩, rfl⟩ := hx
  have hp : |p| ≤ 90 := by
    have : ((|p| : ℚ) : ℝ) ≤ ((90 : ℚ) : ℝ) := by push_cast; exact hd
    exact_mod_cast this
  obtain ⟨p1, p2⟩ := abs_le.1 hp
  have e : toRadians x = (⟨Dbl.round (s != false) (p * (5030569068109113 / 288230376151711744))⟩ : F64 L) := by
    unfold toRadians
    rw [degree_dbl]
    show (⟨Dbl.mul x.dbl _⟩ : F64 L) = _
    rw [h1]
    simp only [Dbl.mul, h2]
    simp [Dbl.val]
  rw [e] at hr
  have m1 := Dbl.round_mono (s := s != false) (t := false) (mul_le_mul_of_nonneg_right p2
    (by norm_num : (0 : ℚ) ≤ 5030569068109113 / 288230376151711744))
  have m2 := Dbl.round_mono (s := false) (t := s != false) (mul_le_mul_of_nonneg_right p1
    (by norm_num : (0 : ℚ) ≤ 5030569068109113 / 288230376151711744))
  rw [ninety_dbl] at m1
  rw [neg_ninety_dbl] at m2
  obtain ⟨s', a', f1, f2, _⟩ := hr
  simp only at f1
  rw [f1] at m1 m2
  have g1 : Dbl.val s' a' ≤ Dbl.val false halfPiQ := m1
  have g2 : Dbl.val true halfPiQ ≤ Dbl.val s' a' := m2
  rw [f2] at g1 g2
  exact abs_le.2 ⟨by simpa [Dbl.val] using g2, by simpa [Dbl.val] using g1⟩

theorem halfPi_lt : (halfPiQ : ℝ) + 6e-17 ≤ Real.pi / 2 := by
  have := pi_bounds.2
  unfold halfPiQ
  push_cast
  norm_num at *
  linarith

/-- the tangent and the cosine of a latitude -/
theorem latitude_cos {q : ℚ} (h : |q| ≤ halfPiQ) :
    |(q : ℝ)| < Real.pi / 2 ∧ 0 < Real.cos q ∧ |Real.tan q| ≤ 1e17 := by
  have hq : |(q : ℝ)| ≤ halfPiQ := by exact_mod_cast h
  have h1 := halfPi_lt
  have h0 := Real.pi_lt_d4
  have hlt : |(q : ℝ)| < Real.pi / 2 := by
    norm_num at *
    linarith
  have hcos : 2e-17 ≤ Real.cos q := by
    rw [← Real.cos_abs, ← Real.sin_pi_div_two_sub]
    have := Real.mul_le_sin (x := Real.pi / 2 - |(q : ℝ)|) (by linarith) (by linarith [abs_nonneg (q : ℝ)])
    refine le_trans ?_ this
    have h4 : 6e-17 ≤ Real.pi / 2 - |(q : ℝ)| := by linarith
    have h5 : (0.5 : ℝ) ≤ 2 / Real.pi := by
      rw [le_div_iff₀ Real.pi_pos]
      norm_num at *
      linarith
    calc (2e-17 : ℝ) ≤ 0.5 * 6e-17 := by norm_num
      _ ≤ _ := mul_le_mul h5 h4 (by norm_num) (by positivity)
  have hc0 : 0 < Real.cos q := lt_of_lt_of_le (by norm_num) hcos
  refine ⟨hlt, hc0, ?_⟩
  rw [Real.tan_eq_sin_div_cos, abs_div, abs_of_pos hc0, div_le_iff₀ hc0]
  refine (Real.abs_sin_le_one _).trans ?_
  calc (1 : ℝ) ≤ 1e17 * 2e-17 := by norm_num
    _ ≤ _ := mul_le_mul_of_nonneg_left hcos (by norm_num)

/-! ## The geocentric latitude -/

theorem abs_arctan_le (x : ℝ) : |Real.arctan x| ≤ |x| := by
  have key : ∀ y : ℝ, 0 ≤ y → Real.arctan y ≤ y := by
    intro y hy
    rcases eq_or_lt_of_le hy with rfl | hy
    · simp
    · have h1 : 0 < Real.arctan y := Real.arctan_pos.2 hy
      have := Real.le_tan h1.le (Real.arctan_lt_pi_div_two y)
      rwa [Real.tan_arctan] at this
  rcases le_total 0 x with h | h
  · rw [abs_of_nonneg h, abs_of_nonneg (Real.arctan_nonneg.2 h)]
    exact key x h
  · have := key (-x) (by linarith)
    rw [Real.arctan_neg] at this
    rw [abs_of_nonpos h, abs_of_nonpos (by have := Real.arctan_nonneg.2 (neg_nonneg.2 h); rw [Real.arctan_neg] at this; linarith)]
    exact this

theorem arctan_perturb {u v d e : ℝ} (h : |u - v| ≤ d * |v| + e) (hd0 : 0 ≤ d) (hd : d ≤ 0.1) (he0 : 0 ≤ e) (he : e ≤ 0.1) :
    |Real.arctan u - Real.arctan v| ≤ d + 2 * e := by
  have hv2 : |v| ^ 2 = v ^ 2 := sq_abs v
  have hv0 := abs_nonneg v
  have hprod : |v * (u - v)| ≤ |v| * (d * |v| + e) := by
    rw [abs_mul]
    exact mul_le_mul_of_nonneg_left h hv0
  have hlow : 0.8 * (1 + v ^ 2) ≤ 1 + u * v := by
    have h1 := neg_abs_le (v * (u - v))
    have h2 : |v| * (d * |v| + e) ≤ 0.1 * v ^ 2 + 0.1 * |v| := by
      rw [← hv2]
      nlinarith
    nlinarith [sq_nonneg (|v| - 1)]
  have hpos : 0 < 1 + u * v := lt_of_lt_of_le (by positivity) hlow
  have hsum : Real.arctan u - Real.arctan v = Real.arctan ((u - v) / (1 + u * v)) := by
    rw [sub_eq_add_neg, ← Real.arctan_neg, Real.arctan_add (by linarith)]
    congr 1
    congr 1
    ring
  rw [hsum]
  refine (abs_arctan_le _).trans ?_
  rw [abs_div, abs_of_pos hpos, div_le_iff₀ hpos]
  refine h.trans ?_
  have h5 : d * |v| + e ≤ (d / 2 + e) * (1 + v ^ 2) := by
    rw [← hv2]
    nlinarith [sq_nonneg (|v| - 1), mul_nonneg hd0 (sq_nonneg (|v| - 1)), mul_nonneg he0 (sq_nonneg |v|)]
  refine h5.trans ?_
  calc (d / 2 + e) * (1 + v ^ 2) ≤ ((d + 2 * e) * 0.8) * (1 + v ^ 2) :=
        mul_le_mul_of_nonneg_right (by linarith) (by positivity)
    _ = (d + 2 * e) * (0.8 * (1 + v ^ 2)) := by ring
    _ ≤ (d + 2 * e) * (1 + u * v) := mul_le_mul_of_nonneg_left hlow (by linarith)

/-- The direction with the geocentric latitude that the program computes from `l`: `(C, S)` is the unit vector along
`(cos l, K sin l)`. -/
def Direction (K l C S : ℝ) : Prop := C ^ 2 + S ^ 2 = 1 ∧ ∃ N : ℝ, 0 < N ∧ N * C = Real.cos l ∧ N * S = K * Real.sin l

theorem chord_aux {x y : ℝ} (hx : 0 ≤ x) (h : x ^ 2 + y ^ 2 = 1) : 2 - 2 * x ≤ 2 * y ^ 2 := by
  have : x ≤ 1 := by nlinarith [sq_nonneg y]
  nlinarith

theorem direction_close {K l l' C S C' S' d : ℝ} (hK1 : 1 ≤ K) (hK2 : K ≤ 1.02) (h : Direction K l C S)
    (h' : Direction K l' C' S') (hd : |l - l'| ≤ d) (hd1 : d ≤ 0.1) : |S - S'| ≤ 1.5 * d ∧ |C - C'| ≤ 1.5 * d := by
  obtain ⟨hu, N, hN0, hC, hS⟩ := h
  obtain ⟨hu', N', hN0', hC', hS'⟩ := h'
  have hd0 : 0 ≤ d := (abs_nonneg _).trans hd
  have hN : ∀ {N C S l : ℝ}, 0 < N → C ^ 2 + S ^ 2 = 1 → N * C = Real.cos l → N * S = K * Real.sin l → 1 ≤ N := by
    intro N C S l h0 h1 h2 h3
    have h4 : N ^ 2 = Real.cos l ^ 2 + K ^ 2 * Real.sin l ^ 2 := by
      calc N ^ 2 = N ^ 2 * (C ^ 2 + S ^ 2) := by rw [h1, mul_one]
        _ = (N * C) ^ 2 + (N * S) ^ 2 := by ring
        _ = _ := by rw [h2, h3]; ring
    have h5 := Real.sin_sq_add_cos_sq l
    have h6 : 1 ≤ N ^ 2 := by
      rw [h4]
      nlinarith [sq_nonneg (Real.sin l), mul_nonneg (sub_nonneg.2 hK1) (sq_nonneg (Real.sin l)),
        mul_nonneg (by nlinarith : (0:ℝ) ≤ K ^ 2 - 1) (sq_nonneg (Real.sin l))]
    nlinarith
  have g1 := hN hN0 hu hC hS
  have g2 := hN hN0' hu' hC' hS'
  have hNN : 1 ≤ N * N' := by nlinarith
  have hcross : N * N' * (S * C' - C * S') = K * Real.sin (l - l') := by
    rw [Real.sin_sub]
    calc N * N' * (S * C' - C * S') = (N * S) * (N' * C') - (N * C) * (N' * S') := by ring
      _ = _ := by rw [hC, hS, hC', hS']; ring
  have hdot : N * N' * (C * C' + S * S') = Real.cos (l - l') + (K ^ 2 - 1) * (Real.sin l * Real.sin l') := by
    rw [Real.cos_sub]
    calc N * N' * (C * C' + S * S') = (N * C) * (N' * C') + (N * S) * (N' * S') := by ring
      _ = _ := by rw [hC, hS, hC', hS']; ring
  have hc1 : |S * C' - C * S'| ≤ 1.02 * d := by
    have e1 : |N * N' * (S * C' - C * S')| = N * N' * |S * C' - C * S'| := by
      rw [abs_mul, abs_of_pos (by positivity)]
    have e2 : |K * Real.sin (l - l')| ≤ 1.02 * d := by
      rw [abs_mul, abs_of_pos (by linarith)]
      exact mul_le_mul hK2 ((Real.abs_sin_le_abs).trans hd) (abs_nonneg _) (by norm_num)
    rw [← hcross, e1] at e2
    have := mul_le_mul_of_nonneg_right hNN (abs_nonneg (S * C' - C * S'))
    linarith
  have hd2 : 0 ≤ C * C' + S * S' := by
    have c1 := Real.one_sub_sq_div_two_le_cos (x := l - l')
    have c2 : (l - l') ^ 2 ≤ 0.01 := by
      rw [← sq_abs]
      have := abs_nonneg (l - l')
      nlinarith
    have c3 : |(K ^ 2 - 1) * (Real.sin l * Real.sin l')| ≤ 0.05 := by
      rw [abs_mul, abs_mul]
      have a1 := Real.abs_sin_le_one l
      have a2 := Real.abs_sin_le_one l'
      have a3 : |Real.sin l| * |Real.sin l'| ≤ 1 := mul_le_one₀ a1 (abs_nonneg _) a2
      have a4 : |K ^ 2 - 1| ≤ 0.05 := by
        rw [abs_of_nonneg (by nlinarith)]
        norm_num at hK2 ⊢
        nlinarith
      calc _ ≤ (0.05 : ℝ) * 1 := mul_le_mul a4 a3 (by positivity) (by norm_num)
        _ = 0.05 := by norm_num
    have c4 := neg_abs_le ((K ^ 2 - 1) * (Real.sin l * Real.sin l'))
    have : 0 < N * N' * (C * C' + S * S') := by
      rw [hdot]
      norm_num at *
      linarith
    exact ((mul_pos_iff_of_pos_left (by positivity)).1 this).le
  have hone : (C * C' + S * S') ^ 2 + (S * C' - C * S') ^ 2 = 1 := by
    calc _ = (C ^ 2 + S ^ 2) * (C' ^ 2 + S' ^ 2) := by ring
      _ = 1 := by rw [hu, hu', mul_one]
  have hchord : (S - S') ^ 2 + (C - C') ^ 2 ≤ 2 * (S * C' - C * S') ^ 2 := by
    have e : (S - S') ^ 2 + (C - C') ^ 2 = 2 - 2 * (C * C' + S * S') := by linear_combination hu + hu'
    rw [e]
    exact chord_aux hd2 hone
  generalize S * C' - C * S' = y at *
  have hsq : y ^ 2 ≤ (1.02 * d) ^ 2 := sq_le_sq' (by linarith [(abs_le.1 hc1).1]) (abs_le.1 hc1).2
  have h6 : 2 * (1.02 * d) ^ 2 ≤ (1.5 * d) ^ 2 := by
    have := sq_nonneg d
    rw [mul_pow, mul_pow]
    norm_num at *
    linarith
  have h7 := sq_nonneg (C - C')
  have h8 := sq_nonneg (S - S')
  exact ⟨abs_le_of_sq_le_sq (by linarith) (by positivity), abs_le_of_sq_le_sq (by linarith) (by positivity)⟩

/-- The ratio of the radii and its powers. -/
theorem ratio_near (hG : GoodLibrary L) {P : Planet (F64 L)} {a b : ℝ} (hP : NearRadii P a b) :
    Near (powi (P.equatorialRadius / P.polarRadius) 2) ((a / b) ^ 2) 3.1e-15 ∧
    Near (powi (powi (P.equatorialRadius / P.polarRadius) 2) 2) (((a / b) ^ 2) ^ 2) 7.5e-15 ∧
    1 ≤ a / b ∧ 1 ≤ (a / b) ^ 2 ∧ (a / b) ^ 2 ≤ 1.0081 ∧ 1 ≤ ((a / b) ^ 2) ^ 2 ∧ ((a / b) ^ 2) ^ 2 ≤ 1.0163 := by
  obtain ⟨hPa, hPb, hba, hb6, ha6⟩ := hP
  have hb0 : 0 < b := lt_of_lt_of_le (by norm_num) hb6
  have ha0 : 0 < a := lt_of_lt_of_le hb0 hba
  set k := a / b with hk
  have hk1 : 1 ≤ k := by rw [hk, one_le_div hb0]; exact hba
  have hk2 : k ≤ 1.004 := by
    rw [hk, div_le_iff₀ hb0]
    norm_num at *
    linarith
  have hk0 : 0 < k := by linarith
  have hkn : Near (P.equatorialRadius / P.polarRadius) k 1e-15 := by
    have : Rel (P.equatorialRadius / P.polarRadius) k 9.3e-16 := by
      refine hPa.div hPb (by norm_num) (by norm_num) (by norm_num) (by norm_num) hb0.ne' ?_ ?_ (by norm_num)
      · rw [← hk, abs_of_pos hk0]
        norm_num
        linarith
      · rw [← hk, abs_of_pos hk0]
        norm_num at hk2 ⊢
        linarith
    refine Near.mono this ?_
    rw [abs_of_pos hk0]
    norm_num at hk2 ⊢
    linarith
  have hkk : Near (powi (P.equatorialRadius / P.polarRadius) 2) (k ^ 2) 3.1e-15 :=
    hkn.powi hG 2 (by norm_num) (A := 1.004) (by rw [abs_of_pos hk0]; exact hk2) (by norm_num) (by norm_num)
  have hk21 : 1 ≤ k ^ 2 := one_le_pow₀ hk1
  have hk22 : k ^ 2 ≤ 1.0081 := by
    have := pow_le_pow_left₀ hk0.le hk2 2
    exact this.trans (by norm_num)
  refine ⟨hkk, hkk.powi hG 2 (by norm_num) (A := 1.0081) (by rw [abs_of_pos (by positivity)]; exact hk22) (by norm_num)
    (by norm_num), hk1, hk21, hk22, one_le_pow₀ hk21, ?_⟩
  have := pow_le_pow_left₀ (by positivity) hk22 2
  exact this.trans (by norm_num)

/-- The distance of the launch site from the centre. -/
theorem distance_near (hG : GoodLibrary L) {P : Planet (F64 L)} {a b : ℝ} (hP : NearRadii P a b) {x : F64 L} {u : ℝ}
    (hx : Near x u 3e-14) (hu1 : |u| ≤ 1) :
    Near (P.equatorialRadius / Flt.sqrt (1 + (Flt.powi (P.equatorialRadius / P.polarRadius) 2 - 1) * Flt.powi x 2))
      (a / Real.sqrt (1 + ((a / b) ^ 2 - 1) * u ^ 2)) 4e-8 ∧
    b ≤ a / Real.sqrt (1 + ((a / b) ^ 2 - 1) * u ^ 2) ∧ a / Real.sqrt (1 + ((a / b) ^ 2 - 1) * u ^ 2) ≤ a := by
  obtain ⟨hkk, _, hk1, hk21, hk22, _, _⟩ := ratio_near hG hP
  obtain ⟨hPa, hPb, hba, hb6, ha6⟩ := hP
  have hb0 : 0 < b := lt_of_lt_of_le (by norm_num) hb6
  have ha0 : 0 < a := lt_of_lt_of_le hb0 hba
  have hka : b * (a / b) = a := by field_simp
  generalize a / b = k at *
  have hk0 : 0 < k := by linarith
  have hsin2 : Near (Flt.powi x 2) (u ^ 2) 6.2e-14 :=
    hx.powi hG 2 (by norm_num) (A := 1) hu1 (by norm_num) (by norm_num)
  have hu2 : |u ^ 2| ≤ 1 := by
    rw [abs_pow]
    exact pow_le_one₀ (abs_nonneg _) hu1
  have hkm : Near (Flt.powi (P.equatorialRadius / P.polarRadius) 2 - 1) (k ^ 2 - 1) 3.2e-15 := by
    refine hkk.sub Near.one (M := 0.0081) ?_ (by norm_num) (by norm_num)
    rw [abs_of_nonneg (by linarith)]
    norm_num at hk22 ⊢
    linarith
  have hprod : Near ((Flt.powi (P.equatorialRadius / P.polarRadius) 2 - 1) * Flt.powi x 2) ((k ^ 2 - 1) * u ^ 2) 3.8e-15 := by
    have hA : |k ^ 2 - 1| ≤ 0.0081 := by
      rw [abs_of_nonneg (by linarith)]
      norm_num at hk22 ⊢
      linarith
    refine hkm.mul hsin2 (A := 0.0081) (B := 1) (M := 0.0081) hA hu2 ?_ (by norm_num) (by norm_num)
    rw [abs_mul]
    calc |k ^ 2 - 1| * |u ^ 2| ≤ 0.0081 * 1 := mul_le_mul hA hu2 (abs_nonneg _) (by norm_num)
      _ = 0.0081 := mul_one _
  have hu20 : 0 ≤ u ^ 2 := sq_nonneg u
  have hu21 : u ^ 2 ≤ 1 := by rwa [abs_of_nonneg hu20] at hu2
  set w' := 1 + (k ^ 2 - 1) * u ^ 2 with hw'
  have hw'1 : 1 ≤ w' := by
    rw [hw']
    nlinarith
  have hw'2 : w' ≤ k ^ 2 := by
    rw [hw']
    nlinarith
  have hrad : Near (1 + (Flt.powi (P.equatorialRadius / P.polarRadius) 2 - 1) * Flt.powi x 2) w' 4e-15 := by
    refine Near.one.add hprod (M := 1.0081) ?_ (by norm_num) (by norm_num)
    rw [← hw', abs_of_nonneg (by linarith)]
    linarith
  have hrel : Rel (1 + (Flt.powi (P.equatorialRadius / P.polarRadius) 2 - 1) * Flt.powi x 2) w' 4e-15 := by
    refine Rel.of_near hrad ?_
    rw [abs_of_nonneg (by linarith)]
    norm_num
    linarith
  have hsq := rel_sqrt hrel (e := 4.3e-15) (by norm_num; linarith) (by norm_num) (by norm_num)
  have hsq1 : 1 ≤ Real.sqrt w' := Real.one_le_sqrt.2 hw'1
  have hsq2 : Real.sqrt w' ≤ k := by
    rw [Real.sqrt_le_left hk0.le]
    exact hw'2
  have hsq0 : 0 < Real.sqrt w' := by linarith
  have hD1 : b ≤ a / Real.sqrt w' := by
    rw [le_div_iff₀ hsq0]
    calc b * Real.sqrt w' ≤ b * k := mul_le_mul_of_nonneg_left hsq2 hb0.le
      _ = a := hka
  have hD2 : a / Real.sqrt w' ≤ a := div_le_self ha0.le hsq1
  refine ⟨?_, hD1, hD2⟩
  have hdist : Rel (P.equatorialRadius / Flt.sqrt (1 + (Flt.powi (P.equatorialRadius / P.polarRadius) 2 - 1) *
      Flt.powi x 2)) (a / Real.sqrt w') 5.5e-15 := by
    refine hPa.div hsq (by norm_num) (by norm_num) (by norm_num) (by norm_num) hsq0.ne' ?_ ?_ (by norm_num)
    · rw [abs_of_pos (by positivity)]
      norm_num at hb6 ⊢
      linarith
    · rw [abs_of_pos (by positivity)]
      norm_num at ha6 ⊢
      linarith
  refine Near.mono hdist ?_
  rw [abs_of_pos (by positivity)]
  norm_num at ha6 ⊢
  linarith

/-- The geocentric latitude: its sine and cosine. -/
theorem geocentric_near (hF : FrameLibrary L) (hL : LaunchLibrary L) (hG : GoodLibrary L) {P : Planet (F64 L)} {a b : ℝ}
    (hP : NearRadii P a b) {x : F64 L} {d : ℝ} (hx : Reads x d) (hd : |d| ≤ 90) {C S : ℝ}
    (hCS : Direction (((a / b) ^ 2) ^ 2) (rad d) C S) :
    let g := atan (powi (powi (P.equatorialRadius / P.polarRadius) 2) 2 * tan (toRadians x))
    Near (sin g) S 1.5e-14 ∧ Near (cos g) C 1.5e-14 := by
  obtain ⟨_, hK, _, _, _, hK1, hK2⟩ := ratio_near hG hP
  obtain ⟨l, hl, hl1, hl2⟩ := latitude_near hx hd
  obtain ⟨hlt, hc0, hT⟩ := latitude_cos hl1
  have ht := withinOf_near.1 (hL.tan _ l hl hl1)
  have hTa := abs_nonneg (Real.tan (l : ℝ))
  generalize ((a / b) ^ 2) ^ 2 = K at *
  have hKa : |K| ≤ 1.0163 := by rw [abs_of_pos (by linarith)]; exact hK2
  have hprod : Near (powi (powi (P.equatorialRadius / P.polarRadius) 2) 2 * tan (toRadians x)) (K * Real.tan l)
      (9e-15 * |Real.tan (l : ℝ)| + 1e-30) := by
    refine hK.mul ht (A := 1.0163) (B := |Real.tan (l : ℝ)|) (M := 1.0163 * |Real.tan (l : ℝ)|) hKa le_rfl ?_ ?_ ?_
    · rw [abs_mul]
      exact mul_le_mul_of_nonneg_right hKa hTa
    · generalize |Real.tan (l : ℝ)| = T at *
      norm_num
      linarith
    · generalize |Real.tan (l : ℝ)| = T at *
      norm_num at *
      linarith
  obtain ⟨y, hy, hy'⟩ := hprod
  obtain ⟨γ, hγ, hγ'⟩ := withinOf_near.1 (hL.atan _ y hy)
  have hy2 : |(y : ℝ) - K * Real.tan l| ≤ 9e-15 * |K * Real.tan l| + 1e-30 := by
    refine hy'.trans ?_
    rw [abs_mul, abs_of_pos (by linarith : 0 < K)]
    generalize |Real.tan (l : ℝ)| = T at *
    have : T ≤ K * T := by nlinarith
    norm_num at *
    linarith
  have harc := arctan_perturb hy2 (by norm_num) (by norm_num) (by norm_num) (by norm_num)
  have hgap : |(γ : ℝ) - Real.arctan (K * Real.tan l)| ≤ 1.1e-14 := by
    have := abs_add_le ((γ : ℝ) - Real.arctan y) (Real.arctan y - Real.arctan (K * Real.tan l))
    rw [sub_add_sub_cancel] at this
    norm_num at *
    linarith
  have hdir : Direction K l (Real.cos (Real.arctan (K * Real.tan l))) (Real.sin (Real.arctan (K * Real.tan l))) := by
    refine ⟨Real.cos_sq_add_sin_sq _, ?_⟩
    have hp := Real.cos_arctan_pos (K * Real.tan l)
    refine ⟨Real.cos l / Real.cos (Real.arctan (K * Real.tan l)), by positivity, by field_simp, ?_⟩
    have h := Real.tan_arctan (K * Real.tan l)
    rw [Real.tan_eq_sin_div_cos, div_eq_iff hp.ne'] at h
    rw [h, Real.tan_eq_sin_div_cos]
    field_simp
  have hclose := direction_close hK1 (by norm_num at *; linarith) hdir hCS hl2 (by norm_num)
  have hγb : |γ| ≤ 1000 := by
    have h1 : |Real.arctan (K * Real.tan l)| ≤ 2 := by
      have k1 := Real.arctan_lt_pi_div_two (K * Real.tan l)
      have k2 := Real.neg_pi_div_two_lt_arctan (K * Real.tan l)
      have k3 := Real.pi_lt_d2
      rw [abs_le]
      norm_num at k3
      constructor <;> linarith
    have h2 := (Near.big hgap h1).trans (show _ ≤ (1000 : ℝ) by norm_num)
    have h3 : ((|γ| : ℚ) : ℝ) ≤ ((1000 : ℚ) : ℝ) := by push_cast; exact h2
    exact_mod_cast h3
  have hs := withinOf_near.1 (hF.sin _ γ hγ hγb)
  have hc := withinOf_near.1 (hF.cos _ γ hγ hγb)
  exact ⟨(hs.move ((abs_sin_sub_le _ _).trans hgap) le_rfl).move hclose.1 (by norm_num),
    (hc.move ((abs_cos_sub_le _ _).trans hgap) le_rfl).move hclose.2 (by norm_num)⟩

/-- sine and cosine of the longitude -/
theorem longitude_near (hF : FrameLibrary L) {x : F64 L} {d : ℝ} (hx : Reads x d) (hd : |d| ≤ 360) :
    Near (sin (toRadians x)) (Real.sin (rad d)) 3.4e-15 ∧ Near (cos (toRadians x)) (Real.cos (rad d)) 3.4e-15 := by
  obtain ⟨q, hq, hq'⟩ := toRadians_near hx hd
  have hqb : |q| ≤ 1000 := by
    have h2 := (Near.big hq' (abs_rad_le hd)).trans (show _ ≤ (1000 : ℝ) by norm_num)
    have h3 : ((|q| : ℚ) : ℝ) ≤ ((1000 : ℚ) : ℝ) := by push_cast; exact h2
    exact_mod_cast h3
  exact ⟨(withinOf_near.1 (hF.sin _ q hq hqb)).move ((abs_sin_sub_le _ _).trans hq') (by norm_num),
    (withinOf_near.1 (hF.cos _ q hq hqb)).move ((abs_cos_sub_le _ _).trans hq') (by norm_num)⟩

/-- The initial position. -/
theorem site_near (hF : FrameLibrary L) (hL : LaunchLibrary L) (hG : GoodLibrary L) {p : Phase (F64 L)} {a b : ℝ}
    (hP : NearRadii p.planet a b) {i : InitConfig (F64 L)} {lat long : ℝ} (hlat : Reads i.latitude lat) (h90 : |lat| ≤ 90)
    (hlong : Reads i.longitude long) (h360 : |long| ≤ 360) {g : ℝ}
    (hCS : Direction (((a / b) ^ 2) ^ 2) (rad lat) (Real.cos g) (Real.sin g)) :
    NearV (p.init i).state.position (rscale (siteDistance a b g) (up g (rad long))) 2.5e-7 ∧
    b ≤ siteDistance a b g ∧ siteDistance a b g ≤ a := by
  obtain ⟨hs, hc⟩ := geocentric_near hF hL hG hP hlat h90 hCS
  obtain ⟨hsl, hcl⟩ := longitude_near hF hlong h360
  have s1 := Real.abs_sin_le_one g
  have c1 := Real.abs_cos_le_one g
  have sl1 := Real.abs_sin_le_one (rad long)
  have cl1 := Real.abs_cos_le_one (rad long)
  obtain ⟨hD, hD1, hD2⟩ := distance_near hG hP (hs.mono (by norm_num)) s1
  refine ⟨?_, hD1, hD2⟩
  have hb0 : 0 < b := lt_of_lt_of_le (by norm_num) hP.low
  have hDa : |siteDistance a b g| ≤ 6.379e6 := by
    unfold siteDistance
    rw [abs_of_pos (lt_of_lt_of_le hb0 hD1)]
    exact hD2.trans hP.high
  have m : ∀ {x y : F64 L} {ξ η : ℝ}, Near x ξ 1.5e-14 → |ξ| ≤ 1 → Near y η 3.4e-15 → |η| ≤ 1 →
      Near (x * y) (ξ * η) 2e-14 ∧ |ξ * η| ≤ 1 := by
    intro x y ξ η h1 h2 h3 h4
    have hb : |ξ * η| ≤ 1 := abs_mul_le h2 h4 (by norm_num)
    exact ⟨h1.mul h3 (A := 1) (B := 1) (M := 1) h2 h4 hb (by norm_num) (by norm_num), hb⟩
  have k : ∀ {x y : F64 L} {ξ η : ℝ}, Near x ξ 4e-8 → |ξ| ≤ 6.379e6 → Near y η 2e-14 → |η| ≤ 1 →
      Near (x * y) (ξ * η) 2.5e-7 := by
    intro x y ξ η h1 h2 h3 h4
    have hb : |ξ * η| ≤ 6.379e6 := abs_mul_le h2 h4 (by norm_num)
    exact h1.mul h3 (A := 6.379e6) (B := 1) (M := 6.379e6) h2 h4 hb (by norm_num) (by norm_num)
  obtain ⟨m1, n1⟩ := m hc c1 hcl cl1
  obtain ⟨m2, n2⟩ := m hc c1 hsl sl1
  exact ⟨k hD hDa m1 n1, k hD hDa m2 n2, k hD hDa (hs.mono (by norm_num)) s1⟩

end Post
