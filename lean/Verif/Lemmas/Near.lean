import Verif.Lemmas.F64Round
import Mathlib.Analysis.Real.Sqrt
import Mathlib.Tactic.FieldSimp
import Mathlib.Tactic.GCongr
import Mathlib.Tactic.Ring
/-! # Rounding errors: doubles near real numbers -/

namespace Post

/-- The double is a number, within `e` of `ξ`. -/
def Near {L : Libm} (x : F64 L) (ξ e : ℝ) : Prop := ∃ q : ℚ, x.Is q ∧ |(q : ℝ) - ξ| ≤ e

namespace Dbl

/-- The square root is correctly rounded up to one unit in the 53rd bit. -/
theorem sqrtMag_near {a : ℚ} (ha : 0 < a) :
    0 ≤ sqrtMag a ∧ |(sqrtMag a : ℝ) - Real.sqrt a| ≤ 2 ^ (-53 : ℤ) * Real.sqrt a := by
  unfold sqrtMag
  rw [if_neg ha.ne']
  simp only
  set l := Int.log 2 a with hl
  set e : ℤ := l / 2 - 52 with he
  set y := a / 4 ^ e with hy
  set m := Nat.sqrt ⌊y⌋₊ with hm
  have h4 : (0 : ℚ) < 4 ^ e := zpow_pos (by norm_num) e
  have hy0 : 0 < y := div_pos ha h4
  have hlow := log_le_self ha
  rw [← hl] at hlow
  have h4e : (4 : ℚ) ^ e = 2 ^ (2 * e) := by
    rw [show (4 : ℚ) = 2 ^ (2 : ℤ) by norm_num, ← zpow_mul]
  -- the root of the scaled number is at least 2^52
  have hy52 : (2 : ℚ) ^ (104 : ℤ) ≤ y := by
    rw [hy, le_div_iff₀ h4, h4e, ← zpow_add₀ (by norm_num)]
    refine le_trans (zpow_le_zpow_right₀ (by norm_num) ?_) hlow
    omega
  -- in real numbers
  set Y : ℝ := (y : ℝ) with hY
  have hY0 : 0 < Y := by rw [hY]; exact_mod_cast hy0
  have haY : Real.sqrt a = Real.sqrt Y * 2 ^ e := by
    have h5 : (a : ℝ) = Y * (2 ^ e) ^ 2 := by
      rw [hY, hy]
      push_cast
      have h6 : ((4 : ℝ) ^ e) = (2 ^ e) ^ 2 := by
        rw [show (4 : ℝ) = 2 ^ (2 : ℕ) by norm_num, ← zpow_natCast, ← zpow_natCast, ← zpow_mul, ← zpow_mul,
          mul_comm]
      rw [h6]
      field_simp
    have h7 : (0 : ℝ) < 2 ^ e := zpow_pos (by norm_num) e
    rw [h5, Real.sqrt_mul hY0.le, Real.sqrt_sq h7.le]
  have h1 : (m : ℝ) ≤ Real.sqrt Y := by
    refine Real.le_sqrt_of_sq_le ?_
    have : (m ^ 2 : ℕ) ≤ ⌊y⌋₊ := Nat.sqrt_le' _
    have h2 : ((⌊y⌋₊ : ℕ) : ℚ) ≤ y := Nat.floor_le hy0.le
    have h3 : ((m ^ 2 : ℕ) : ℚ) ≤ y := le_trans (by exact_mod_cast this) h2
    have h4 : (((m ^ 2 : ℕ) : ℚ) : ℝ) ≤ Y := by rw [hY]; exact_mod_cast h3
    push_cast at h4
    exact h4
  have h2 : Real.sqrt Y < m + 1 := by
    rw [Real.sqrt_lt' (by positivity)]
    have h3 : ⌊y⌋₊ < (m + 1) ^ 2 := Nat.lt_succ_sqrt' _
    have h4 : y < ((⌊y⌋₊ + 1 : ℕ) : ℚ) := by
      push_cast
      exact Nat.lt_floor_add_one y
    have h5 : y < (((m + 1) ^ 2 : ℕ) : ℚ) := lt_of_lt_of_le h4 (by exact_mod_cast h3)
    have h6 : Y < ((((m + 1) ^ 2 : ℕ) : ℚ) : ℝ) := by rw [hY]; exact_mod_cast h5
    push_cast at h6
    exact h6
  have hroot : (2 : ℝ) ^ (52 : ℤ) ≤ Real.sqrt Y := by
    refine Real.le_sqrt_of_sq_le ?_
    have : (((2 : ℚ) ^ (104 : ℤ) : ℚ) : ℝ) ≤ Y := by rw [hY]; exact_mod_cast hy52
    push_cast at this
    refine le_trans (le_of_eq ?_) this
    norm_num
  set M : ℕ := if ((m : ℚ) + 1 / 2) ^ 2 < y then m + 1 else m with hM
  have hclose : |(M : ℝ) - Real.sqrt Y| ≤ 1 / 2 := by
    rw [hM]
    split_ifs with h
    · have h3 : (m : ℝ) + 1 / 2 ≤ Real.sqrt Y := by
        refine Real.le_sqrt_of_sq_le ?_
        have : (((((m : ℚ) + 1 / 2) ^ 2 : ℚ)) : ℝ) ≤ Y := by rw [hY]; exact_mod_cast h.le
        push_cast at this
        exact this
      push_cast
      rw [abs_le]
      constructor <;> linarith
    · have h3 : Real.sqrt Y ≤ m + 1 / 2 := by
        rw [Real.sqrt_le_left (by positivity)]
        have : Y ≤ (((((m : ℚ) + 1 / 2) ^ 2 : ℚ)) : ℝ) := by rw [hY]; exact_mod_cast not_lt.1 h
        push_cast at this
        exact this
      rw [abs_le]
      constructor <;> linarith
  have h2e : (0 : ℝ) < 2 ^ e := zpow_pos (by norm_num) e
  refine ⟨by positivity, ?_⟩
  rw [haY]
  push_cast
  rw [← sub_mul, abs_mul, abs_of_pos h2e, ← mul_assoc]
  refine mul_le_mul_of_nonneg_right (hclose.trans ?_) h2e.le
  have h53 : (0 : ℝ) < 2 ^ (-53 : ℤ) := by norm_num
  calc (1 / 2 : ℝ) = 2 ^ (-53 : ℤ) * 2 ^ (52 : ℤ) := by norm_num
    _ ≤ 2 ^ (-53 : ℤ) * Real.sqrt Y := mul_le_mul_of_nonneg_left hroot h53.le

end Dbl

namespace Near
variable {L : Libm} {x y : F64 L} {ξ η ex ey e : ℝ}

theorem nonneg (h : Near x ξ e) : 0 ≤ e := by
  obtain ⟨q, _, h2⟩ := h
  exact (abs_nonneg _).trans h2

theorem mono (h : Near x ξ ex) (he : ex ≤ e) : Near x ξ e := by
  obtain ⟨q, h1, h2⟩ := h
  exact ⟨q, h1, h2.trans he⟩

theorem congr (h : Near x ξ e) (he : ξ = η) : Near x η e := he ▸ h

theorem of_is {q : ℚ} (h : x.Is q) : Near x q 0 := ⟨q, h, by simp⟩

/-- a number near another one -/
theorem move (h : Near x ξ ex) (hd : |ξ - η| ≤ ey) (he : ex + ey ≤ e) : Near x η e := by
  obtain ⟨q, h1, h2⟩ := h
  refine ⟨q, h1, ?_⟩
  have := abs_add_le ((q : ℝ) - ξ) (ξ - η)
  rw [show (q : ℝ) - ξ + (ξ - η) = q - η by ring] at this
  linarith

theorem ulp_real {q : ℚ} {M : ℝ} (h : |(q : ℝ)| ≤ M) :
    ((F64.ulpErr q : ℚ) : ℝ) ≤ 1.2e-16 * M + 1e-40 := by
  unfold F64.ulpErr
  push_cast
  have h1 : (2 : ℝ) ^ (-53 : ℤ) ≤ 1.2e-16 := by norm_num
  have h2 : (2 : ℝ) ^ (-1075 : ℤ) ≤ 1e-40 := by
    have e1 : (2 : ℝ) ^ (-1075 : ℤ) ≤ 2 ^ (-200 : ℤ) := zpow_le_zpow_right₀ (by norm_num) (by norm_num)
    refine e1.trans ?_
    norm_num
  have h3 : (2 : ℝ) ^ (-53 : ℤ) * |(q : ℝ)| ≤ 1.2e-16 * M :=
    mul_le_mul h1 h (abs_nonneg _) (by norm_num)
  linarith

/-- Rounding: `r` is the rounded value of `q`, which is within `d` of `ξ`. -/
theorem of_round {z : F64 L} {q r : ℚ} {M d : ℝ} (hz : z.Is r) (hr : |r - q| ≤ F64.ulpErr q)
    (hd : |(q : ℝ) - ξ| ≤ d) (hM : |ξ| ≤ M) (he : d + 1.2e-16 * (M + d) + 1e-40 ≤ e) : Near z ξ e := by
  refine ⟨r, hz, ?_⟩
  have h1 : |(q : ℝ)| ≤ M + d := by
    have := abs_add_le ((q : ℝ) - ξ) ξ
    rw [sub_add_cancel] at this
    linarith
  have h2 : |(r : ℝ) - q| ≤ 1.2e-16 * (M + d) + 1e-40 := by
    refine le_trans ?_ (ulp_real h1)
    exact_mod_cast hr
  have h3 := abs_add_le ((r : ℝ) - q) (q - ξ)
  rw [show (r : ℝ) - q + (q - ξ) = r - ξ by ring] at h3
  linarith

theorem small {q : ℚ} {M : ℝ} (h : |(q : ℝ)| ≤ M) (hM : M ≤ 1e60) : |q| ≤ 2 ^ 200 := by
  have h1 : ((|q| : ℚ) : ℝ) ≤ ((2 ^ 200 : ℚ) : ℝ) := by
    push_cast
    refine h.trans (hM.trans (by norm_num))
  exact_mod_cast h1

theorem big {q : ℚ} {M d : ℝ} (hd : |(q : ℝ) - ξ| ≤ d) (hM : |ξ| ≤ M) : |(q : ℝ)| ≤ M + d := by
  have := abs_add_le ((q : ℝ) - ξ) ξ
  rw [sub_add_cancel] at this
  linarith

theorem add (hx : Near x ξ ex) (hy : Near y η ey) {M : ℝ} (hM : |ξ + η| ≤ M)
    (he : ex + ey + 1.2e-16 * (M + (ex + ey)) + 1e-40 ≤ e) (hB : M + (ex + ey) ≤ 1e60) :
    Near (x + y) (ξ + η) e := by
  obtain ⟨p, h1, h2⟩ := hx
  obtain ⟨q, h3, h4⟩ := hy
  have hd : |((p + q : ℚ) : ℝ) - (ξ + η)| ≤ ex + ey := by
    push_cast
    rw [show (p : ℝ) + q - (ξ + η) = (p - ξ) + (q - η) by ring]
    exact (abs_add_le _ _).trans (by linarith)
  obtain ⟨r, h5, h6⟩ := F64.is_add h1 h3 (small (big hd hM) hB)
  exact of_round h5 h6 hd hM he

theorem neg (hx : Near x ξ e) : Near (-x) (-ξ) e := by
  obtain ⟨p, h1, h2⟩ := hx
  refine ⟨-p, F64.is_neg h1, ?_⟩
  push_cast
  rw [show -(p : ℝ) - -ξ = -(p - ξ) by ring, abs_neg]
  exact h2

theorem sub (hx : Near x ξ ex) (hy : Near y η ey) {M : ℝ} (hM : |ξ - η| ≤ M)
    (he : ex + ey + 1.2e-16 * (M + (ex + ey)) + 1e-40 ≤ e) (hB : M + (ex + ey) ≤ 1e60) :
    Near (x - y) (ξ - η) e := by
  obtain ⟨p, h1, h2⟩ := hx
  obtain ⟨q, h3, h4⟩ := hy
  have hd : |((p - q : ℚ) : ℝ) - (ξ - η)| ≤ ex + ey := by
    push_cast
    rw [show (p : ℝ) - q - (ξ - η) = (p - ξ) + -(q - η) by ring]
    refine (abs_add_le _ _).trans ?_
    rw [abs_neg]
    linarith
  obtain ⟨r, h5, h6⟩ := F64.is_sub h1 h3 (small (big hd hM) hB)
  exact of_round h5 h6 hd hM he

theorem mul (hx : Near x ξ ex) (hy : Near y η ey) {A B M : ℝ} (hA : |ξ| ≤ A) (hB : |η| ≤ B)
    (hM : |ξ * η| ≤ M)
    (he : (A * ey + B * ex + ex * ey) + 1.2e-16 * (M + (A * ey + B * ex + ex * ey)) + 1e-40 ≤ e)
    (hb : M + (A * ey + B * ex + ex * ey) ≤ 1e60) : Near (x * y) (ξ * η) e := by
  have h0x := hx.nonneg
  have h0y := hy.nonneg
  obtain ⟨p, h1, h2⟩ := hx
  obtain ⟨q, h3, h4⟩ := hy
  have hA0 := (abs_nonneg _).trans hA
  have hB0 := (abs_nonneg _).trans hB
  have hd : |((p * q : ℚ) : ℝ) - ξ * η| ≤ A * ey + B * ex + ex * ey := by
    push_cast
    rw [show (p : ℝ) * q - ξ * η = ξ * (q - η) + η * (p - ξ) + (p - ξ) * (q - η) by ring]
    refine (abs_add_le _ _).trans (add_le_add ((abs_add_le _ _).trans (add_le_add ?_ ?_)) ?_)
    all_goals rw [abs_mul]
    · exact mul_le_mul hA h4 (abs_nonneg _) hA0
    · exact mul_le_mul hB h2 (abs_nonneg _) hB0
    · exact mul_le_mul h2 h4 (abs_nonneg _) h0x
  obtain ⟨r, h5, h6⟩ := F64.is_mul h1 h3 (small (big hd hM) hb)
  exact of_round h5 h6 hd hM he

theorem div (hx : Near x ξ ex) (hy : Near y η ey) {b M : ℝ} (hb : 0 < b) (hB : b ≤ |η|) (hey : ey ≤ b / 2)
    (hM : |ξ / η| ≤ M)
    (he : 2 * (ex + M * ey) / b + 1.2e-16 * (M + 2 * (ex + M * ey) / b) + 1e-40 ≤ e)
    (hB' : M + 2 * (ex + M * ey) / b ≤ 1e60) : Near (x / y) (ξ / η) e := by
  have h0x := hx.nonneg
  have h0y := hy.nonneg
  obtain ⟨p, h1, h2⟩ := hx
  obtain ⟨q, h3, h4⟩ := hy
  have hM0 := (abs_nonneg _).trans hM
  have hη : η ≠ 0 := by
    intro h
    rw [h, abs_zero] at hB
    linarith
  have hq : b / 2 ≤ |(q : ℝ)| := by
    have := abs_sub_abs_le_abs_sub η (q : ℝ)
    rw [abs_sub_comm] at this
    linarith
  have hqpos : 0 < |(q : ℝ)| := lt_of_lt_of_le (by positivity) hq
  have hq0 : (q : ℝ) ≠ 0 := abs_pos.1 hqpos
  have hq0' : q ≠ 0 := by exact_mod_cast hq0
  have hd : |((p / q : ℚ) : ℝ) - ξ / η| ≤ 2 * (ex + M * ey) / b := by
    push_cast
    rw [show (p : ℝ) / q - ξ / η = ((p - ξ) - ξ / η * (q - η)) / q by field_simp; ring, abs_div,
      div_le_div_iff₀ hqpos hb]
    have h5 : |(p : ℝ) - ξ - ξ / η * (q - η)| ≤ ex + M * ey := by
      refine (abs_sub _ _).trans (add_le_add h2 ?_)
      rw [abs_mul]
      exact mul_le_mul hM h4 (abs_nonneg _) hM0
    have h6 : 0 ≤ ex + M * ey := by positivity
    calc |(p : ℝ) - ξ - ξ / η * (q - η)| * b ≤ (ex + M * ey) * b :=
          mul_le_mul_of_nonneg_right h5 hb.le
      _ ≤ (ex + M * ey) * (2 * |(q : ℝ)|) := mul_le_mul_of_nonneg_left (by linarith) h6
      _ = 2 * (ex + M * ey) * |(q : ℝ)| := by ring
  obtain ⟨r, h5, h6⟩ := F64.is_div h1 h3 hq0' (small (big hd hM) hB')
  exact of_round h5 h6 hd hM he

theorem sqrt (hx : Near x ξ ex) {b M : ℝ} (hb : 0 < b) (hB : b ≤ Real.sqrt ξ) (hex : ex ≤ b ^ 2 / 2)
    (hM : Real.sqrt ξ ≤ M) (he : ex / b + 1.2e-16 * (M + ex / b) + 1e-40 ≤ e) :
    Near (Flt.sqrt x) (Real.sqrt ξ) e := by
  have h0 := hx.nonneg
  obtain ⟨p, h1, h2⟩ := hx
  have hξ : 0 < ξ := Real.sqrt_pos.1 (lt_of_lt_of_le hb hB)
  have hξb : b ^ 2 ≤ ξ := (Real.le_sqrt hb.le hξ.le).1 hB
  have hp : 0 < (p : ℝ) := by
    have := (abs_le.1 h2).1
    have : 0 < b ^ 2 := by positivity
    linarith
  have hp' : 0 < p := by exact_mod_cast hp
  obtain ⟨s, a, h3, h4, h5⟩ := h1
  have hs : s = false := by
    cases s
    · rfl
    · simp only [Dbl.val, if_true] at h4
      linarith
  subst hs
  have hap : a = p := by simpa [Dbl.val] using h4
  subst hap
  obtain ⟨h6, h7⟩ := Dbl.sqrtMag_near hp'
  have hd : |Real.sqrt a - Real.sqrt ξ| ≤ ex / b := by
    rw [le_div_iff₀ hb]
    have hs := Real.sqrt_nonneg (a : ℝ)
    have e1 : (Real.sqrt a - Real.sqrt ξ) * (Real.sqrt a + Real.sqrt ξ) = a - ξ := by
      have := Real.sq_sqrt hp.le
      have := Real.sq_sqrt hξ.le
      nlinarith
    calc |Real.sqrt a - Real.sqrt ξ| * b ≤ |Real.sqrt a - Real.sqrt ξ| * (Real.sqrt a + Real.sqrt ξ) :=
          mul_le_mul_of_nonneg_left (by linarith) (abs_nonneg _)
      _ = |(a : ℝ) - ξ| := by
        rw [← e1, abs_mul, abs_of_nonneg (by positivity : 0 ≤ Real.sqrt (a : ℝ) + Real.sqrt ξ)]
      _ ≤ ex := h2
  refine ⟨Dbl.sqrtMag a, ⟨false, Dbl.sqrtMag a, ?_, rfl, h6⟩, ?_⟩
  · show Dbl.sqrt x.dbl = _
    rw [h3]
    simp [Dbl.sqrt, hp'.ne']
  · have h8 : Real.sqrt a ≤ M + ex / b := by
      have := (abs_le.1 hd).2
      linarith
    have h9 : (2 : ℝ) ^ (-53 : ℤ) * Real.sqrt a ≤ 1.2e-16 * (M + ex / b) :=
      mul_le_mul (by norm_num) h8 (Real.sqrt_nonneg _) (by norm_num)
    have h10 := abs_add_le ((Dbl.sqrtMag a : ℝ) - Real.sqrt a) (Real.sqrt a - Real.sqrt ξ)
    rw [show (Dbl.sqrtMag a : ℝ) - Real.sqrt a + (Real.sqrt a - Real.sqrt ξ) =
      (Dbl.sqrtMag a : ℝ) - Real.sqrt ξ by ring] at h10
    have h11 : (0 : ℝ) ≤ 1e-40 := by norm_num
    have h12 := h7.trans h9
    clear h7 h9
    linarith

/-- decimal literals -/
theorem lit (m : ℕ) (s : Bool) (k : ℕ) {v : ℝ} (hv : (if s then (m : ℝ) / 10 ^ k else m * 10 ^ k) = v)
    (hv' : |v| ≤ 1e60) (he : 1.2e-16 * |v| + 1e-40 ≤ e) : Near (OfScientific.ofScientific m s k : F64 L) v e := by
  set q : ℚ := if s then (m : ℚ) / 10 ^ k else m * 10 ^ k with hq
  have hqv : (q : ℝ) = v := by
    rw [← hv, hq]
    split_ifs <;> push_cast <;> rfl
  have e0 : (OfScientific.ofScientific m s k : F64 L) = ⟨.round false q⟩ := rfl
  rw [e0]
  obtain ⟨r, h1, h2⟩ := F64.is_round (L := L) (s := false) (q := q) (small (M := |v|) (by rw [hqv]) hv')
  exact of_round h1 h2 (d := 0) (M := |v|) (by rw [hqv]; simp) le_rfl (by linarith)

theorem nat (n : ℕ) (h : n < 2 ^ 53) : Near (OfNat.ofNat n : F64 L) n 0 := by
  simpa using of_is (F64.is_nat (L := L) n h)

theorem zero : Near (0 : F64 L) 0 0 := by simpa using nat (L := L) 0 (by norm_num)
theorem one : Near (1 : F64 L) 1 0 := by simpa using nat (L := L) 1 (by norm_num)

end Near
end Post
