import Verif.Spec.DoubleTable
import Verif.Lemmas.Interp
import Verif.Lemmas.F64
import Verif.Lemmas.F64Sign
/-! # Rounding errors of interpolation in double precision -/

namespace Post
open Spec Flt F64

section
variable {L : Libm}

/-- unit roundoff -/
local notation "u" => ((2 : ℝ) ^ (-53 : ℤ))

/-- The double is a number and stands for `r`. -/
def IsR (x : F64 L) (r : ℝ) : Prop := ∃ q : ℚ, Is x q ∧ (q : ℝ) = r

theorem real_of_is {x : F64 L} {q : ℚ} (h : Is x q) : real x = q := by
  obtain ⟨s, a, h1, h2, -⟩ := h
  unfold real
  rw [h1, ← h2]
  cases s <;> simp [Dbl.val]

theorem IsR.real {x : F64 L} {r : ℝ} (h : IsR x r) : Spec.real x = r := by
  obtain ⟨q, h1, h2⟩ := h
  rw [real_of_is h1, h2]

theorem IsR.isNumber {x : F64 L} {r : ℝ} (h : IsR x r) : IsNumber x := by
  obtain ⟨q, ⟨s, a, h1, h2, h3⟩, -⟩ := h
  exact ⟨s, a, h1, h3⟩

theorem isR_of_isNumber {x : F64 L} (h : IsNumber x) : IsR x (real x) := by
  obtain ⟨s, a, h1, h2⟩ := h
  have h3 : Is x (Dbl.val s a) := ⟨s, a, h1, rfl, h2⟩
  exact ⟨_, h3, (real_of_is h3).symm⟩

theorem eta_le : ((2 : ℚ) ^ (-1075 : ℤ)) ≤ 1e-76 := by
  have : (2 : ℚ) ^ (-1075 : ℤ) ≤ 2 ^ (-255 : ℤ) := zpow_le_zpow_right₀ (by norm_num) (by norm_num)
  exact this.trans (by norm_num)

theorem ulpErr_real (q : ℚ) : ((ulpErr q : ℚ) : ℝ) ≤ u * |(q : ℝ)| + 1e-76 := by
  have h : ulpErr q ≤ 2 ^ (-53 : ℤ) * |q| + 1e-76 := by
    unfold ulpErr
    linarith [eta_le]
  have h2 : ((ulpErr q : ℚ) : ℝ) ≤ ((2 ^ (-53 : ℤ) * |q| + 1e-76 : ℚ) : ℝ) := by exact_mod_cast h
  refine h2.trans (le_of_eq ?_)
  push_cast
  norm_num

theorem cast_bound {q : ℚ} (h : |(q : ℝ)| ≤ 1e60) : |q| ≤ 2 ^ 200 := by
  have h1 : |q| ≤ 1e60 := by
    have : ((|q| : ℚ) : ℝ) ≤ ((1e60 : ℚ) : ℝ) := by push_cast; norm_num at h ⊢; exact h
    exact_mod_cast this
  refine h1.trans ?_
  norm_num

theorem isR_add {x y : F64 L} {a b : ℝ} (hx : IsR x a) (hy : IsR y b) (h : |a + b| ≤ 1e60) :
    ∃ r, IsR (x + y) r ∧ |r - (a + b)| ≤ u * |a + b| + 1e-76 := by
  obtain ⟨p, hx, rfl⟩ := hx
  obtain ⟨q, hy, rfl⟩ := hy
  obtain ⟨r, h1, h2⟩ := is_add hx hy (cast_bound (by push_cast; exact h))
  refine ⟨r, ⟨r, h1, rfl⟩, ?_⟩
  have h3 : ((|r - (p + q)| : ℚ) : ℝ) ≤ ((ulpErr (p + q) : ℚ) : ℝ) := by exact_mod_cast h2
  have h4 := h3.trans (ulpErr_real _)
  push_cast at h4
  exact h4

theorem isR_sub {x y : F64 L} {a b : ℝ} (hx : IsR x a) (hy : IsR y b) (h : |a - b| ≤ 1e60) :
    ∃ r, IsR (x - y) r ∧ |r - (a - b)| ≤ u * |a - b| + 1e-76 := by
  obtain ⟨p, hx, rfl⟩ := hx
  obtain ⟨q, hy, rfl⟩ := hy
  obtain ⟨r, h1, h2⟩ := is_sub hx hy (cast_bound (by push_cast; exact h))
  refine ⟨r, ⟨r, h1, rfl⟩, ?_⟩
  have h3 : ((|r - (p - q)| : ℚ) : ℝ) ≤ ((ulpErr (p - q) : ℚ) : ℝ) := by exact_mod_cast h2
  have h4 := h3.trans (ulpErr_real _)
  push_cast at h4
  exact h4

theorem isR_mul {x y : F64 L} {a b : ℝ} (hx : IsR x a) (hy : IsR y b) (h : |a * b| ≤ 1e60) :
    ∃ r, IsR (x * y) r ∧ |r - a * b| ≤ u * |a * b| + 1e-76 := by
  obtain ⟨p, hx, rfl⟩ := hx
  obtain ⟨q, hy, rfl⟩ := hy
  obtain ⟨r, h1, h2⟩ := is_mul hx hy (cast_bound (by push_cast; exact h))
  refine ⟨r, ⟨r, h1, rfl⟩, ?_⟩
  have h3 : ((|r - p * q| : ℚ) : ℝ) ≤ ((ulpErr (p * q) : ℚ) : ℝ) := by exact_mod_cast h2
  have h4 := h3.trans (ulpErr_real _)
  push_cast at h4
  exact h4

theorem isR_div {x y : F64 L} {a b : ℝ} (hx : IsR x a) (hy : IsR y b) (hb : b ≠ 0)
    (h : |a / b| ≤ 1e60) : ∃ r, IsR (x / y) r ∧ |r - a / b| ≤ u * |a / b| + 1e-76 := by
  obtain ⟨p, hx, rfl⟩ := hx
  obtain ⟨q, hy, rfl⟩ := hy
  obtain ⟨r, h1, h2⟩ := is_div hx hy (by rintro rfl; simp at hb)
    (cast_bound (by push_cast; exact h))
  refine ⟨r, ⟨r, h1, rfl⟩, ?_⟩
  have h3 : ((|r - p / q| : ℚ) : ℝ) ≤ ((ulpErr (p / q) : ℚ) : ℝ) := by exact_mod_cast h2
  have h4 := h3.trans (ulpErr_real _)
  push_cast at h4
  exact h4

theorem isR_lt {x y : F64 L} {a b : ℝ} (hx : IsR x a) (hy : IsR y b) :
    Flt.lt x y = decide (a < b) := by
  obtain ⟨p, hx, rfl⟩ := hx
  obtain ⟨q, hy, rfl⟩ := hy
  rw [is_lt hx hy]
  simp

/-- Quotients, for real numbers: normalised difference. -/
theorem normalised_error {v A D a : ℝ} (hv : 1e-16 ≤ v) (hD : 1e-20 ≤ D) (hA0 : 0 ≤ A) (hAD : A ≤ D)
    (ha : |a - A| ≤ v * |A| + 1e-76) : |a / D - A / D| ≤ 2 * v := by
  have hD0 : 0 < D := lt_of_lt_of_le (by norm_num) hD
  have hv0 : 0 < v := lt_of_lt_of_le (by norm_num) hv
  rw [← sub_div, abs_div, abs_of_pos hD0, div_le_iff₀ hD0]
  rw [abs_of_nonneg hA0] at ha
  have h1 : v * A ≤ v * D := mul_le_mul_of_nonneg_left hAD hv0.le
  have h2 : (1e-16 : ℝ) * 1e-20 ≤ v * D := mul_le_mul hv hD (by norm_num) hv0.le
  norm_num at *
  linarith

/-- ... product -/
theorem product_error {v α b β t B D a p : ℝ} (hv : 1e-16 ≤ v) (hv1 : v ≤ 1.2e-16) (hB : 1e-30 ≤ B)
    (hD : 1e-20 ≤ D) (ha : a = α * D) (ht0 : 0 ≤ t) (ht1 : t ≤ 1) (hαt : |α - t| ≤ 2 * v)
    (hβ : |β| ≤ 2 * B) (hb : |b - β| ≤ v * |β| + 1e-76)
    (hp : |p - a * b| ≤ v * |a * b| + 1e-76) : |p / D - t * β| ≤ 8.7 * (v * B) := by
  have hD0 : 0 < D := lt_of_lt_of_le (by norm_num) hD
  have hv0 : 0 < v := lt_of_lt_of_le (by norm_num) hv
  have hBp : 0 < B := lt_of_lt_of_le (by norm_num) hB
  have hvB : (1e-16 : ℝ) * 1e-30 ≤ v * B := mul_le_mul hv hB (by norm_num) hv0.le
  have hvB1 : v * B ≤ 1.2e-16 * B := mul_le_mul_of_nonneg_right hv1 hBp.le
  have hη : (1e-76 : ℝ) ≤ 0.01 * (v * B) := by norm_num at *; linarith
  have hαb : |α| ≤ 1.1 := by
    have h1 : |α| ≤ |α - t| + |t| := by
      have := abs_add_le (α - t) t; rwa [sub_add_cancel] at this
    rw [abs_of_nonneg ht0] at h1
    norm_num at *
    linarith
  have hb' : |b - β| ≤ 2.1 * (v * B) := by
    have : v * |β| ≤ v * (2 * B) := mul_le_mul_of_nonneg_left hβ hv0.le
    linarith
  have hbb : |b| ≤ 2.1 * B := by
    have h1 : |b| ≤ |b - β| + |β| := by
      have := abs_add_le (b - β) β; rwa [sub_add_cancel] at this
    norm_num at *
    linarith
  have h1 : |α * b - t * β| ≤ 6.3 * (v * B) := by
    have e : α * b - t * β = (α - t) * b + t * (b - β) := by ring
    rw [e]
    refine (abs_add_le _ _).trans ?_
    rw [abs_mul, abs_mul, abs_of_nonneg ht0]
    have i1 : |α - t| * |b| ≤ (2 * v) * (2.1 * B) :=
      mul_le_mul hαt hbb (abs_nonneg _) (by positivity)
    have i2 : t * |b - β| ≤ 1 * (2.1 * (v * B)) :=
      mul_le_mul ht1 hb' (abs_nonneg _) (by norm_num)
    linarith
  have hαbb : |α * b| ≤ 1.1 * (2.1 * B) := by
    rw [abs_mul]; exact mul_le_mul hαb hbb (abs_nonneg _) (by norm_num)
  have h2 : |p / D - α * b| ≤ 2.4 * (v * B) := by
    have e : p / D - α * b = (p - a * b) / D := by rw [ha]; field_simp
    rw [e, abs_div, abs_of_pos hD0, div_le_iff₀ hD0]
    have e2 : |a * b| = |α * b| * D := by
      rw [ha, show α * D * b = α * b * D by ring, abs_mul (α * b), abs_of_pos hD0]
    rw [e2] at hp
    have i1 : v * (|α * b| * D) ≤ v * (1.1 * (2.1 * B) * D) := by
      apply mul_le_mul_of_nonneg_left _ hv0.le
      exact mul_le_mul_of_nonneg_right hαbb hD0.le
    have i2 : (1e-16 : ℝ) * 1e-30 * 1e-20 ≤ v * B * D :=
      mul_le_mul hvB hD (by norm_num) (by positivity)
    have e3 : v * (1.1 * (2.1 * B) * D) = 2.31 * (v * B * D) := by ring
    rw [e3] at i1
    rw [show 2.4 * (v * B) * D = 2.4 * (v * B * D) by ring]
    norm_num at *
    linarith
  have e : p / D - t * β = (p / D - α * b) + (α * b - t * β) := by ring
  rw [e]
  exact (abs_add_le _ _).trans (by linarith)

/-- ... quotient -/
theorem quotient_error {v t β B D d p q : ℝ} (hv : 1e-16 ≤ v) (hv1 : v ≤ 1.2e-16) (hB : 1e-30 ≤ B)
    (hD : 1e-20 ≤ D) (htβ : |t * β| ≤ 2 * B) (hp : |p / D - t * β| ≤ 8.7 * (v * B))
    (hd : |d - D| ≤ v * |D| + 1e-76) :
    0 < d ∧ |p / d| ≤ 2.2 * B ∧
      (|q - p / d| ≤ v * |p / d| + 1e-76 → |q - t * β| ≤ 15.5 * (v * B)) := by
  have hD0 : 0 < D := lt_of_lt_of_le (by norm_num) hD
  have hv0 : 0 < v := lt_of_lt_of_le (by norm_num) hv
  have hBp : 0 < B := lt_of_lt_of_le (by norm_num) hB
  have hvB : (1e-16 : ℝ) * 1e-30 ≤ v * B := mul_le_mul hv hB (by norm_num) hv0.le
  have hvB1 : v * B ≤ 1.2e-16 * B := mul_le_mul_of_nonneg_right hv1 hBp.le
  have hvD : (1e-16 : ℝ) * 1e-20 ≤ v * D := mul_le_mul hv hD (by norm_num) hv0.le
  have hvD1 : v * D ≤ 1.2e-16 * D := mul_le_mul_of_nonneg_right hv1 hD0.le
  have hη : (1e-76 : ℝ) ≤ 0.01 * (v * B) := by norm_num at *; linarith
  have hπb : |p / D| ≤ 2.1 * B := by
    have h1 : |p / D| ≤ |p / D - t * β| + |t * β| := by
      have := abs_add_le (p / D - t * β) (t * β); rwa [sub_add_cancel] at this
    norm_num at *
    linarith
  have hdD : |d - D| ≤ 2 * (v * D) := by
    rw [abs_of_pos hD0] at hd
    norm_num at *
    linarith
  have hdl : D ≤ 1.01 * d := by
    have := (abs_le.1 hdD).1
    norm_num at *
    linarith
  have hd0 : 0 < d := by norm_num at *; linarith
  have hw : |p / d - p / D| ≤ 4.5 * (v * B) := by
    have e : p / d - p / D = p / D * ((D - d) / d) := by field_simp
    rw [e, abs_mul, abs_div (D - d), abs_of_pos hd0]
    have i1 : |D - d| / d ≤ 2.1 * v := by
      rw [div_le_iff₀ hd0, abs_sub_comm]
      have h5 : v * D ≤ v * (1.01 * d) := mul_le_mul_of_nonneg_left hdl hv0.le
      have h6 : 0 < v * d := mul_pos hv0 hd0
      rw [show v * (1.01 * d) = 1.01 * (v * d) by ring] at h5
      rw [show 2.1 * v * d = 2.1 * (v * d) by ring]
      norm_num at *
      linarith
    have := mul_le_mul hπb i1 (by positivity) (by positivity)
    refine this.trans ?_
    rw [show 2.1 * B * (2.1 * v) = 4.41 * (v * B) by ring]
    exact mul_le_mul_of_nonneg_right (by norm_num) (by positivity)
  have hwb : |p / d| ≤ 2.2 * B := by
    have h1 : |p / d| ≤ |p / d - p / D| + |p / D| := by
      have := abs_add_le (p / d - p / D) (p / D); rwa [sub_add_cancel] at this
    norm_num at *
    linarith
  refine ⟨hd0, hwb, fun hq => ?_⟩
  have h4 : |q - p / d| ≤ 2.3 * (v * B) := by
    have : v * |p / d| ≤ v * (2.2 * B) := mul_le_mul_of_nonneg_left hwb hv0.le
    linarith
  have e : q - t * β = (q - p / d) + (p / d - p / D) + (p / D - t * β) := by ring
  rw [e]
  have := abs_add_three (q - p / d) (p / d - p / D) (p / D - t * β)
  linarith

/-- ... sum -/
theorem sum_error {v τ B q r y0 : ℝ} (hv : 1e-16 ≤ v) (hv1 : v ≤ 1.2e-16) (hB : 1e-30 ≤ B)
    (hy : |y0 + τ| ≤ B) (hq : |q - τ| ≤ 15.5 * (v * B)) :
    |y0 + q| ≤ 1.1 * B ∧ (|r - (y0 + q)| ≤ v * |y0 + q| + 1e-76 → |r - (y0 + τ)| ≤ 2.1e-15 * B) := by
  have hv0 : 0 < v := lt_of_lt_of_le (by norm_num) hv
  have hBp : 0 < B := lt_of_lt_of_le (by norm_num) hB
  have hvB : (1e-16 : ℝ) * 1e-30 ≤ v * B := mul_le_mul hv hB (by norm_num) hv0.le
  have hvB1 : v * B ≤ 1.2e-16 * B := mul_le_mul_of_nonneg_right hv1 hBp.le
  have hη : (1e-76 : ℝ) ≤ 0.01 * (v * B) := by norm_num at *; linarith
  have hs : |y0 + q| ≤ 1.1 * B := by
    have e : y0 + q = (y0 + τ) + (q - τ) := by ring
    rw [e]
    have := abs_add_le (y0 + τ) (q - τ)
    norm_num at *
    linarith
  refine ⟨hs, fun hr => ?_⟩
  have h5 : |r - (y0 + q)| ≤ 1.2 * (v * B) := by
    have : v * |y0 + q| ≤ v * (1.1 * B) := mul_le_mul_of_nonneg_left hs hv0.le
    linarith
  have e : r - (y0 + τ) = (r - (y0 + q)) + (q - τ) := by ring
  rw [e]
  have h6 := abs_add_le (r - (y0 + q)) (q - τ)
  norm_num at *
  linarith

/-- The computed value of one segment. -/
theorem segment_double {x x0 x1 y0 y1 : F64 L} {X X0 X1 Y0 Y1 B : ℝ} (hx : IsR x X)
    (hx0 : IsR x0 X0) (hx1 : IsR x1 X1) (hy0 : IsR y0 Y0) (hy1 : IsR y1 Y1) (hB : 1e-30 ≤ B)
    (hB' : B ≤ 1e21) (h0 : |X0| ≤ 1e20) (h1 : |X1| ≤ 1e20) (hD : 1e-20 ≤ X1 - X0) (hl : X0 ≤ X)
    (hr : X ≤ X1) (b0 : |Y0| ≤ B) (b1 : |Y1| ≤ B) :
    ∃ R, IsR (y0 + (x - x0) * (y1 - y0) / (x1 - x0)) R ∧
      |R - line X0 X1 Y0 Y1 X| ≤ 2.1e-15 * B := by
  have hD0 : 0 < X1 - X0 := lt_of_lt_of_le (by norm_num) hD
  have hβ : |Y1 - Y0| ≤ 2 * B := (abs_sub _ _).trans (by linarith)
  have hA : |X - X0| ≤ 2e20 := by
    have := abs_le.1 h0; have := abs_le.1 h1
    rw [abs_le]; constructor <;> linarith
  have hDD : |X1 - X0| ≤ 2e20 := (abs_sub _ _).trans (by linarith)
  have hy : |Y0 + (X - X0) * (Y1 - Y0) / (X1 - X0)| ≤ B :=
    abs_le.2 (line_between (by linarith) hl hr (abs_le.1 b0) (abs_le.1 b1))
  obtain ⟨a, ia, ea⟩ := isR_sub hx hx0 (hA.trans (by norm_num))
  obtain ⟨d, id', ed⟩ := isR_sub hx1 hx0 (hDD.trans (by norm_num))
  obtain ⟨b, ib, eb⟩ := isR_sub hy1 hy0 (hβ.trans (by linarith))
  have hu : u = 1 / 9007199254740992 := by norm_num
  have hab : |a| ≤ 3e20 := by
    have h1 : |a| ≤ |a - (X - X0)| + |X - X0| := by
      have := abs_add_le (a - (X - X0)) (X - X0); rwa [sub_add_cancel] at this
    rw [hu] at ea
    linarith
  have hbb : |b| ≤ 3e21 := by
    have h1 : |b| ≤ |b - (Y1 - Y0)| + |Y1 - Y0| := by
      have := abs_add_le (b - (Y1 - Y0)) (Y1 - Y0); rwa [sub_add_cancel] at this
    rw [hu] at eb
    linarith
  have hpp : |a * b| ≤ 9e41 := by
    rw [abs_mul]
    exact (mul_le_mul hab hbb (abs_nonneg _) (by norm_num)).trans (by norm_num)
  obtain ⟨p, ip, ep⟩ := isR_mul ia ib (hpp.trans (by norm_num))
  have hv : (1e-16 : ℝ) ≤ u := by norm_num
  have hv1 : u ≤ 1.2e-16 := by norm_num
  have ht0 : 0 ≤ (X - X0) / (X1 - X0) := div_nonneg (by linarith) hD0.le
  have ht1 : (X - X0) / (X1 - X0) ≤ 1 := (div_le_one hD0).2 (by linarith)
  have s1 := normalised_error hv hD (by linarith : 0 ≤ X - X0) (by linarith) ea
  have s2 := product_error hv hv1 hB hD (by field_simp : a = a / (X1 - X0) * (X1 - X0)) ht0 ht1 s1
    hβ eb ep
  have htβ : |(X - X0) / (X1 - X0) * (Y1 - Y0)| ≤ 2 * B := by
    rw [abs_mul, abs_of_nonneg ht0]
    exact (mul_le_mul_of_nonneg_right ht1 (abs_nonneg _)).trans (by linarith)
  obtain ⟨hd0, hpd, -⟩ := quotient_error (q := 0) hv hv1 hB hD htβ s2 ed
  obtain ⟨q, iq, eq⟩ := isR_div ip id' hd0.ne' (hpd.trans (by norm_num at *; linarith))
  have s3 := (quotient_error hv hv1 hB hD htβ s2 ed).2.2 eq
  rw [show (X - X0) * (Y1 - Y0) / (X1 - X0) = (X - X0) / (X1 - X0) * (Y1 - Y0) by ring] at hy
  obtain ⟨hyq, -⟩ := sum_error (r := 0) hv hv1 hB hy s3
  obtain ⟨r, ir, er⟩ := isR_add hy0 iq (hyq.trans (by norm_num at *; linarith))
  refine ⟨r, ir, ?_⟩
  have := (sum_error hv hv1 hB hy s3).2 er
  unfold line
  rwa [show (X - X0) * (Y1 - Y0) / (X1 - X0) = (X - X0) / (X1 - X0) * (Y1 - Y0) by ring]

/-! ## Tables -/

/-- The search for the segment, from what the comparisons say. -/
theorem getIdx_governs' {F : Type} [Flt F] {l : List F} {y : F} {xs : List ℝ} {x : ℝ} (h : Asc xs)
    (hlen : l.length = xs.length) (hl : 2 ≤ xs.length)
    (hpred : ∀ i (hi : i < l.length), Flt.lt l[i] y = decide (xs[i]'(by omega) < x)) :
    ∃ i, getIdx l y = .ok (i, i + 1) ∧ Governs xs i x := by
  have hspec := binSearch_spec (fun i => Flt.lt i y) l 0 l.length (by omega) le_rfl
    (by
      intro i j hi hj hij hp
      simp only [hpred, decide_eq_true_eq] at hp ⊢
      rcases Nat.lt_or_eq_of_le hij with h' | h'
      · exact lt_trans (asc_lt h _ _ h') hp
      · subst h'; exact hp)
    (by intro i _ h; omega) (by intro i hi h; omega)
  have hp := partitionPoint_le (fun i => Flt.lt i y) l
  change (∀ i (hi : i < l.length), i < partitionPoint (fun i => Flt.lt i y) l → _) ∧
    (∀ i (hi : i < l.length), partitionPoint (fun i => Flt.lt i y) l ≤ i → _) at hspec
  unfold getIdx
  generalize partitionPoint (fun i => Flt.lt i y) l = p at hp hspec
  simp only [hpred, decide_eq_true_eq, decide_eq_false_iff_not, not_lt] at hspec
  simp only [bind, Except.bind]
  by_cases h1 : p = l.length
  · refine ⟨p - 2, ?_, by omega, .inr ?_, .inl (by omega)⟩
    · rw [if_pos h1, if_neg (by omega), if_neg (by omega)]
      simp; omega
    · exact (hspec.1 (p - 2) (by omega) (by omega)).le
  · by_cases h2 : p = 0
    · subst h2
      refine ⟨0, ?_, by omega, .inl rfl, .inr (hspec.2 1 (by omega) (by omega))⟩
      rw [if_neg h1]; simp
    · refine ⟨p - 1, ?_, by omega, .inr (hspec.1 (p - 1) (by omega) (by omega)).le, .inr ?_⟩
      · simp [h1, h2, show p - 1 + 1 = p by omega]
      · have := hspec.2 p (by omega) le_rfl
        have hpp : p - 1 + 1 = p := by omega
        simpa [hpp] using this

theorem Spec.GoodAxis.asc {l : List (F64 L)} (h : GoodAxis l) : Asc (l.map Spec.real) := by
  unfold Asc
  rw [List.isChain_iff_getElem]
  intro i hi
  have := h.gap i (by simpa using hi)
  simp only [List.getElem_map]
  norm_num at this
  linarith

theorem line_sub (x0 x1 y0 y1 z0 z1 x : ℝ) :
    line x0 x1 y0 y1 x - line x0 x1 z0 z1 x = line x0 x1 (y0 - z0) (y1 - z1) x := by
  unfold line; ring

/-- The common interpolation scheme in double precision: the errors of the inner values are not
amplified, and one segment adds its own error. -/
theorem interp_double {T : Type} {inner : T → Except Panic (F64 L)} {l : List (F64 L)} {x : F64 L}
    {data : List T} {val : T → ℝ} {M e : ℝ} (hM : 1e-30 ≤ M) (hMe : M + e ≤ 1e21) (he : 0 ≤ e)
    (hl : GoodAxis l) (hx : Within l x) (hne : data ≠ []) (hlen : data.length = l.length)
    (hval : ∀ t ∈ data, ∃ r R, inner t = .ok r ∧ IsR r R ∧ |val t| ≤ M ∧ |R - val t| ≤ e) :
    ∃ r R, interp inner l x data = .ok r ∧ IsR r R ∧
      |piecewise (l.map Spec.real) (data.map val) (Spec.real x)| ≤ M ∧
      |R - piecewise (l.map Spec.real) (data.map val) (Spec.real x)| ≤ e + 2.1e-15 * (M + e) := by
  have hpos := List.length_pos_iff.2 hne
  have hMp : 0 < M := lt_of_lt_of_le (by norm_num) hM
  have hasc := hl.asc
  have hbound : |piecewise (l.map Spec.real) (data.map val) (Spec.real x)| ≤ M := by
    rw [abs_le]
    refine piecewise_between hasc (by simpa using hlen) ?_ ?_ ?_ ?_
    · intro h; simp at h; subst h; simp at hlen; exact hne hlen
    · intro a ha
      rw [List.head?_map, Option.map_eq_some_iff] at ha
      obtain ⟨b, hb, rfl⟩ := ha
      exact hx.low b hb
    · intro a ha
      rw [List.getLast?_map, Option.map_eq_some_iff] at ha
      obtain ⟨b, hb, rfl⟩ := ha
      exact hx.high b hb
    · intro y hy
      obtain ⟨t, ht, rfl⟩ := List.mem_map.1 hy
      obtain ⟨r, R, -, -, h3, -⟩ := hval t ht
      exact abs_le.1 h3
  unfold interp
  rw [if_neg (by simpa using hne)]
  by_cases h1 : data.length = 1
  · rw [if_pos h1]
    obtain ⟨t, rfl⟩ := List.length_eq_one_iff.1 h1
    obtain ⟨r, R, h2, h3, h4, h5⟩ := hval t (by simp)
    refine ⟨r, R, by simp [idx, bind, Except.bind, h2], h3, hbound, ?_⟩
    simp only [List.map_cons, List.map_nil, piecewise_const]
    refine h5.trans ?_
    have : 0 ≤ 2.1e-15 * (M + e) := by positivity
    linarith
  · rw [if_neg h1]
    obtain ⟨i, hgi, hg⟩ := getIdx_governs' (l := l) (y := x) (xs := l.map Spec.real)
      (x := Spec.real x) hasc (by simp) (by simp; omega) (by
        intro i hi
        rw [isR_lt (isR_of_isNumber (hl.number _ (List.getElem_mem hi)).1)
          (isR_of_isNumber hx.number)]
        simp)
    rw [piecewise_governs hasc (by simpa using hlen) hg] at hbound ⊢
    obtain ⟨hi, hg1, hg2⟩ := hg
    have hi' : i + 1 < l.length := by simpa using hi
    obtain ⟨r0, R0, a1, a2, a3, a4⟩ := hval data[i] (List.getElem_mem (by omega))
    obtain ⟨r1, R1, b1, b2, b3, b4⟩ := hval data[i + 1] (List.getElem_mem (by omega))
    have n0 := hl.number l[i] (List.getElem_mem _)
    have n1 := hl.number l[i + 1] (List.getElem_mem _)
    have hgap := hl.gap i hi'
    have hlow : Spec.real l[i] ≤ Spec.real x := by
      rcases hg1 with h' | h'
      · subst h'
        exact hx.low _ (by rw [List.head?_eq_getElem?, List.getElem?_eq_getElem])
      · simpa using h'
    have hhigh : Spec.real x ≤ Spec.real l[i + 1] := by
      rcases hg2 with h' | h'
      · refine hx.high _ ?_
        rw [List.getLast?_eq_getElem?, List.getElem?_eq_getElem (by omega)]
        simp at h'
        congr 2; omega
      · simpa using h'
    have hR : ∀ R v : ℝ, |v| ≤ M → |R - v| ≤ e → |R| ≤ M + e := by
      intro R v h1 h2
      have := abs_add_le (R - v) v
      rw [sub_add_cancel] at this
      linarith
    obtain ⟨R, c1, c2⟩ := segment_double (isR_of_isNumber hx.number) (isR_of_isNumber n0.1)
      (isR_of_isNumber n1.1) a2 b2 (B := M + e) (by linarith) hMe n0.2 n1.2 hgap hlow hhigh
      (hR _ _ a3 a4) (hR _ _ b3 b4)
    refine ⟨_, R, ?_, c1, hbound, ?_⟩
    · simp only [hgi, bind, Except.bind, idx_lt (l := l) (i := i) (by omega),
        idx_lt (l := l) (i := i + 1) (by omega), idx_lt (l := data) (i := i) (by omega),
        idx_lt (l := data) (i := i + 1) (by omega), a1, b1]
    · simp only [List.getElem_map]
      have h5 : |line (Spec.real l[i]) (Spec.real l[i + 1]) R0 R1 (Spec.real x) -
          line (Spec.real l[i]) (Spec.real l[i + 1]) (val data[i]) (val data[i + 1])
            (Spec.real x)| ≤ e := by
        rw [line_sub, abs_le]
        exact line_between (by norm_num at hgap; linarith) hlow hhigh (abs_le.1 a4) (abs_le.1 b4)
      have := abs_add_le
        (R - line (Spec.real l[i]) (Spec.real l[i + 1]) R0 R1 (Spec.real x))
        (line (Spec.real l[i]) (Spec.real l[i + 1]) R0 R1 (Spec.real x) -
          line (Spec.real l[i]) (Spec.real l[i + 1]) (val data[i]) (val data[i + 1])
            (Spec.real x))
      rw [sub_add_sub_cancel] at this
      linarith

/-! ## Exact results -/

theorem is_mul_zero_left {x y : F64 L} {p : ℚ} (hx : Is x 0) (hy : Is y p) : Is (x * y) 0 := by
  obtain ⟨s, a, h1, h2, _⟩ := hx
  obtain ⟨t, b, h3, rfl, _⟩ := hy
  have : x * y = ⟨Dbl.round (s != t) 0⟩ := by
    show (⟨x.dbl.mul y.dbl⟩ : F64 L) = _
    rw [h1, h3]
    show (⟨Dbl.round (s != t) (Dbl.val s a * Dbl.val t b)⟩ : F64 L) = _
    rw [h2, zero_mul]
  rw [this]
  exact ⟨s != t, 0, by simp [Dbl.round], Dbl.val_zero _, le_rfl⟩

theorem is_mul_zero_right {x y : F64 L} {p : ℚ} (hx : Is x p) (hy : Is y 0) : Is (x * y) 0 := by
  obtain ⟨s, a, h1, rfl, _⟩ := hx
  obtain ⟨t, b, h3, h4, _⟩ := hy
  have : x * y = ⟨Dbl.round (s != t) 0⟩ := by
    show (⟨x.dbl.mul y.dbl⟩ : F64 L) = _
    rw [h1, h3]
    show (⟨Dbl.round (s != t) (Dbl.val s a * Dbl.val t b)⟩ : F64 L) = _
    rw [h4, mul_zero]
  rw [this]
  exact ⟨s != t, 0, by simp [Dbl.round], Dbl.val_zero _, le_rfl⟩

theorem is_zero_div {x y : F64 L} {p : ℚ} (hx : Is x 0) (hy : Is y p) (hp : p ≠ 0) :
    Is (x / y) 0 := by
  obtain ⟨s, a, h1, h2, _⟩ := hx
  obtain ⟨t, b, h3, rfl, _⟩ := hy
  have hb : b ≠ 0 := by
    rintro rfl
    exact hp (Dbl.val_zero t)
  have : x / y = ⟨Dbl.round (s != t) 0⟩ := by
    show (⟨x.dbl.div y.dbl⟩ : F64 L) = _
    rw [h1, h3]
    show (⟨if b = 0 then _ else Dbl.round (s != t) (Dbl.val s a / Dbl.val t b)⟩ : F64 L) = _
    rw [if_neg hb, h2, zero_div]
  rw [this]
  exact ⟨s != t, 0, by simp [Dbl.round], Dbl.val_zero _, le_rfl⟩

theorem is_sub_self {x y : F64 L} {p : ℚ} (hx : Is x p) (hy : Is y p) : Is (x - y) 0 := by
  obtain ⟨s, a, h1, h2, _⟩ := hx
  obtain ⟨t, b, h3, h4, _⟩ := is_neg hy
  have : x - y = ⟨Dbl.round (s && t) 0⟩ := by
    show (⟨x.dbl.add (-y).dbl⟩ : F64 L) = _
    rw [h1, h3]
    show (⟨Dbl.round (s && t) (Dbl.val s a + Dbl.val t b)⟩ : F64 L) = _
    rw [h2, h4, add_neg_cancel]
  rw [this]
  exact ⟨s && t, 0, by simp [Dbl.round], Dbl.val_zero _, le_rfl⟩

theorem isAddZero {x y : F64 L} {p : ℚ} (hx : Is x p) (hd : x.dbl.IsDouble) (hy : Is y 0) :
    Is (x + y) p ∧ (x + y).dbl.IsDouble := by
  obtain ⟨s, a, h1, rfl, h2⟩ := hx
  obtain ⟨t, b, h3, h4, _⟩ := hy
  have e : x + y = ⟨Dbl.round (s && t) (Dbl.val s a)⟩ := by
    show (⟨x.dbl.add y.dbl⟩ : F64 L) = _
    rw [h1, h3]
    show (⟨Dbl.round (s && t) (Dbl.val s a + Dbl.val t b)⟩ : F64 L) = _
    rw [h4, add_zero]
  rw [h1] at hd
  obtain ⟨v, h5, h6⟩ := Dbl.round_isMag (s := s && t) (t := s) (a := a) hd
  rw [e, h5]
  exact ⟨⟨v, a, rfl, h6, h2⟩, hd⟩

theorem isNumber_is {x : F64 L} (h : IsNumber x) : ∃ q : ℚ, Is x q ∧ (q : ℝ) = real x :=
  isR_of_isNumber h

/-- The computed difference of two neighbouring arguments is not zero. -/
theorem gap_double {l : List (F64 L)} (hl : GoodAxis l) {i : ℕ} (hi : i + 1 < l.length) :
    ∃ q : ℚ, Is (l[i + 1] - l[i]) q ∧ q ≠ 0 := by
  have n0 := hl.number l[i] (List.getElem_mem _)
  have n1 := hl.number l[i + 1] (List.getElem_mem _)
  have hgap := hl.gap i hi
  have hD0 : 0 < real l[i + 1] - real l[i] := by norm_num at hgap; linarith
  obtain ⟨r, ⟨q, h1, rfl⟩, h2⟩ := isR_sub (isR_of_isNumber n1.1) (isR_of_isNumber n0.1)
    ((abs_sub _ _).trans (by have := n0.2; have := n1.2; norm_num at *; linarith))
  refine ⟨q, h1, ?_⟩
  rintro rfl
  rw [abs_of_pos hD0] at h2
  have hu : u = 1 / 9007199254740992 := by norm_num
  rw [hu] at h2
  have h3 := (abs_le.1 h2).1
  norm_num at *
  linarith

/-- If all inner values are the same number, so is the result, wherever the argument lies. -/
theorem interp_constant {T : Type} {inner : T → Except Panic (F64 L)} {l : List (F64 L)} {x : F64 L}
    {data : List T} {y : ℚ} (hl : GoodAxis l) (hx : IsNumber x) (hxb : |real x| ≤ 1e40)
    (hne : data ≠ []) (hlen : data.length = l.length)
    (hval : ∀ t ∈ data, ∃ r, inner t = .ok r ∧ Is r y ∧ r.dbl.IsDouble) :
    ∃ r, interp inner l x data = .ok r ∧ Is r y ∧ r.dbl.IsDouble := by
  have hpos := List.length_pos_iff.2 hne
  unfold interp
  rw [if_neg (by simpa using hne)]
  by_cases h1 : data.length = 1
  · rw [if_pos h1]
    obtain ⟨t, rfl⟩ := List.length_eq_one_iff.1 h1
    obtain ⟨r, h2, h3⟩ := hval t (by simp)
    exact ⟨r, by simp [idx, bind, Except.bind, h2], h3⟩
  · rw [if_neg h1]
    obtain ⟨i, hgi, hi⟩ := getIdx_ok x (by omega : 2 ≤ l.length)
    obtain ⟨r0, a1, a2, a3⟩ := hval data[i] (List.getElem_mem (by omega))
    obtain ⟨r1, b1, b2, b3⟩ := hval data[i + 1] (List.getElem_mem (by omega))
    have n0 := hl.number l[i] (List.getElem_mem _)
    obtain ⟨d, hd, hd0⟩ := gap_double hl hi
    obtain ⟨_, ⟨q, hq, -⟩, -⟩ := isR_sub (isR_of_isNumber hx) (isR_of_isNumber n0.1)
      ((abs_sub _ _).trans (by have := n0.2; norm_num at *; linarith))
    obtain ⟨h5, h6⟩ := isAddZero a2 a3
      (is_zero_div (is_mul_zero_right hq (is_sub_self b2 a2)) hd hd0)
    refine ⟨_, ?_, h5, h6⟩
    simp only [hgi, bind, Except.bind, idx_lt (l := l) (i := i) (by omega),
        idx_lt (l := l) (i := i + 1) (by omega), idx_lt (l := data) (i := i) (by omega),
        idx_lt (l := data) (i := i + 1) (by omega), a1, b1]

/-- At the first argument the result is the first inner value. -/
theorem interp_first {T : Type} {inner : T → Except Panic (F64 L)} {l : List (F64 L)} {x : F64 L}
    {data : List T} {y : ℚ} (hl : GoodAxis l) (hx : IsNumber x)
    (hx0 : ∀ a, l.head? = some a → real x = real a) (hlen : data.length = l.length)
    (hval : ∀ t ∈ data, ∃ r q, inner t = .ok r ∧ Is r q ∧ |q| ≤ 2 ^ 190)
    (hfirst : ∃ t, data.head? = some t ∧ ∃ r, inner t = .ok r ∧ Is r y ∧ r.dbl.IsDouble) :
    ∃ r, interp inner l x data = .ok r ∧ Is r y ∧ r.dbl.IsDouble := by
  obtain ⟨t0, ht0, r0, a1, a2, a3⟩ := hfirst
  have hne : data ≠ [] := by rintro rfl; simp at ht0
  have hpos := List.length_pos_iff.2 hne
  have ht0' : data[0] = t0 := by
    rw [List.head?_eq_getElem?, List.getElem?_eq_getElem hpos] at ht0
    injection ht0
  unfold interp
  rw [if_neg (by simpa using hne)]
  by_cases h1 : data.length = 1
  · rw [if_pos h1]
    refine ⟨r0, ?_, a2, a3⟩
    simp only [idx_lt (l := data) (i := 0) hpos, ht0', bind, Except.bind, a1]
  · rw [if_neg h1]
    have hl0 : 0 < l.length := by omega
    have hxl : real x = real l[0] :=
      hx0 _ (by rw [List.head?_eq_getElem?, List.getElem?_eq_getElem])
    obtain ⟨i, hgi, hg⟩ := getIdx_governs' (l := l) (y := x) (xs := l.map Spec.real)
      (x := Spec.real x) hl.asc (by simp) (by simp; omega) (by
        intro i hi
        rw [isR_lt (isR_of_isNumber (hl.number _ (List.getElem_mem hi)).1) (isR_of_isNumber hx)]
        simp)
    have hi0 : i = 0 := by
      by_contra hc
      rcases hg.2.1 with h' | h'
      · exact hc h'
      · have h2 := asc_lt hl.asc (i := 0) (j := i) (by simp; omega)
          (by have := hg.1; simp at this ⊢; omega) (by omega)
        simp only [List.getElem_map] at h' h2
        linarith
    subst hi0
    obtain ⟨r1, q1, b1, b2, b3⟩ := hval data[1] (List.getElem_mem (by omega))
    obtain ⟨r0', q0, c1, c2, c3⟩ := hval data[0] (List.getElem_mem (by omega))
    rw [ht0', a1] at c1
    injection c1 with c1
    subst c1
    obtain ⟨d, hd, hd0⟩ := gap_double hl (i := 0) (by omega)
    obtain ⟨qx, h3, h4⟩ := isNumber_is hx
    obtain ⟨qa, h5, h6⟩ := isNumber_is (hl.number l[0] (List.getElem_mem _)).1
    have : qx = qa := by
      have h7 : (qx : ℝ) = qa := by rw [h4, h6, hxl]
      exact_mod_cast h7
    subst this
    obtain ⟨w, hw, -⟩ := is_sub b2 c2 ((abs_sub _ _).trans (by
      have : (2 : ℚ) ^ 190 + 2 ^ 190 ≤ 2 ^ 200 := by norm_num
      linarith))
    obtain ⟨h8, h9⟩ := isAddZero a2 a3
      (is_zero_div (is_mul_zero_left (is_sub_self h3 h5) hw) hd hd0)
    refine ⟨_, ?_, h8, h9⟩
    simp only [hgi, bind, Except.bind, idx_lt (l := l) (i := 0) (by omega), zero_add,
        idx_lt (l := l) (i := 1) (by omega), idx_lt (l := data) (i := 0) (by omega),
        idx_lt (l := data) (i := 1) (by omega), ht0', a1, b1]

end
end Post
