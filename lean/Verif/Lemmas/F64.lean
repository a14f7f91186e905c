import Verif.F64
import Mathlib.Tactic.Ring
import Mathlib.Tactic.FieldSimp
/-! # Rounding errors of binary64 -/

namespace Post

namespace Dbl

theorem nearest_abs (y : ℚ) : |(nearest y : ℚ) - y| ≤ 1 / 2 := by
  have h1 := Int.floor_le y
  have h2 := Int.lt_floor_add_one y
  unfold nearest
  split
  · rw [abs_le]; constructor <;> linarith
  · split
    · push_cast; rw [abs_le]; constructor <;> linarith
    · split
      · rw [abs_le]; constructor <;> linarith
      · push_cast; rw [abs_le]; constructor <;> linarith

theorem nearest_int (n : ℤ) : nearest (n : ℚ) = n := by
  unfold nearest
  rw [Int.floor_intCast]
  simp

theorem roundMag_abs {a : ℚ} (ha : 0 ≤ a) :
    |roundMag a - a| ≤ 2 ^ (-53 : ℤ) * a + 2 ^ (-1075 : ℤ) := by
  unfold roundMag
  split
  · next h => subst h; simp
  · next h =>
    have hpos : 0 < a := lt_of_le_of_ne ha (Ne.symm h)
    have he : (0 : ℚ) < 2 ^ exponent a := zpow_pos (by norm_num) _
    have h1 := nearest_abs (a / 2 ^ exponent a)
    have h2 : |(nearest (a / 2 ^ exponent a) : ℚ) * 2 ^ exponent a - a| ≤
        1 / 2 * 2 ^ exponent a := by
      have : (nearest (a / 2 ^ exponent a) : ℚ) * 2 ^ exponent a - a =
          ((nearest (a / 2 ^ exponent a) : ℚ) - a / 2 ^ exponent a) * 2 ^ exponent a := by
        field_simp
      rw [this, abs_mul, abs_of_pos he]
      exact mul_le_mul_of_nonneg_right h1 he.le
    refine h2.trans ?_
    have h3 : ((2 : ℕ) : ℚ) ^ Int.log 2 a ≤ a := Int.zpow_log_le_self (by norm_num) hpos
    unfold exponent
    rcases max_cases (-1074 : ℤ) (Int.log 2 a - 52) with ⟨hm, _⟩ | ⟨hm, _⟩
    · rw [hm]
      have : (1 : ℚ) / 2 * 2 ^ (-1074 : ℤ) = 2 ^ (-1075 : ℤ) := by
        rw [show (-1074 : ℤ) = -1075 + 1 by norm_num, zpow_add₀ (by norm_num)]
        ring
      rw [this]
      have : (0 : ℚ) ≤ 2 ^ (-53 : ℤ) * a := by positivity
      linarith
    · rw [hm]
      have h4 : (1 : ℚ) / 2 * 2 ^ (Int.log 2 a - 52) = 2 ^ (-53 : ℤ) * 2 ^ Int.log 2 a := by
        rw [← zpow_add₀ (by norm_num : (2 : ℚ) ≠ 0),
          show -53 + Int.log 2 a = -1 + (Int.log 2 a - 52) by ring,
          zpow_add₀ (by norm_num : (2 : ℚ) ≠ 0)]
        norm_num
      rw [h4]
      have h5 : (2 : ℚ) ^ (-53 : ℤ) * 2 ^ Int.log 2 a ≤ 2 ^ (-53 : ℤ) * a :=
        mul_le_mul_of_nonneg_left (by exact_mod_cast h3) (by positivity)
      have : (0 : ℚ) < 2 ^ (-1075 : ℤ) := zpow_pos (by norm_num) _
      linarith

theorem roundMag_nonneg {a : ℚ} (ha : 0 ≤ a) : 0 ≤ roundMag a := by
  unfold roundMag
  split
  · exact le_refl _
  · have he : (0 : ℚ) < 2 ^ exponent a := zpow_pos (by norm_num) _
    refine mul_nonneg ?_ he.le
    have h1 : 0 ≤ ⌊a / 2 ^ exponent a⌋ := Int.floor_nonneg.2 (by positivity)
    unfold nearest
    split_ifs <;> exact_mod_cast (by omega)

theorem roundMag_nat {n : ℕ} (hn : n < 2 ^ 53) : roundMag (n : ℚ) = n := by
  unfold roundMag
  split
  · next h => exact h.symm
  · next h =>
    have hn0 : n ≠ 0 := fun h0 => h (by simp [h0])
    have hlog : Int.log 2 (n : ℚ) ≤ 52 := by
      have h1 : ((2 : ℕ) : ℚ) ^ Int.log 2 (n : ℚ) ≤ n :=
        Int.zpow_log_le_self (by norm_num) (by positivity)
      have h2 : (n : ℚ) < 2 ^ (53 : ℤ) := by exact_mod_cast hn
      have h3 : (2 : ℚ) ^ Int.log 2 (n : ℚ) < 2 ^ (53 : ℤ) := by
        refine lt_of_le_of_lt ?_ h2
        exact_mod_cast h1
      have := (zpow_lt_zpow_iff_right₀ (by norm_num : (1 : ℚ) < 2)).1 h3
      omega
    have he : exponent (n : ℚ) ≤ 0 := by unfold exponent; omega
    obtain ⟨k, hk⟩ := Int.eq_ofNat_of_zero_le (show 0 ≤ -exponent (n : ℚ) by omega)
    have hk' : exponent (n : ℚ) = -(k : ℤ) := by omega
    rw [hk', zpow_neg, zpow_natCast, div_inv_eq_mul]
    have : ((n : ℚ) * 2 ^ k) = (((n * 2 ^ k : ℕ) : ℤ) : ℚ) := by push_cast; ring
    rw [this, nearest_int]
    push_cast
    field_simp

end Dbl

namespace F64
variable {L : Libm}

/-- The double `x` is finite and its value is `q`. -/
def Is (x : F64 L) (q : ℚ) : Prop := ∃ s a, x.dbl = .fin s a ∧ Dbl.val s a = q ∧ 0 ≤ a

theorem Is.unique {x : F64 L} {p q : ℚ} (hp : Is x p) (hq : Is x q) : p = q := by
  obtain ⟨s, a, h1, h2, _⟩ := hp
  obtain ⟨t, b, h3, h4, _⟩ := hq
  rw [h1] at h3
  injection h3 with h3 h5
  subst h3 h5
  exact h2.symm.trans h4

/-- the error of one rounding of `q` -/
def ulpErr (q : ℚ) : ℚ := 2 ^ (-53 : ℤ) * |q| + 2 ^ (-1075 : ℤ)

theorem is_round {s : Bool} {q : ℚ} (hq : |q| ≤ 2 ^ 200) :
    ∃ r, Is (⟨Dbl.round s q⟩ : F64 L) r ∧ |r - q| ≤ ulpErr q := by
  unfold Dbl.round
  split
  · next h =>
    subst h
    refine ⟨0, ⟨s, 0, rfl, by cases s <;> simp [Dbl.val], le_refl _⟩, ?_⟩
    unfold ulpErr
    simp
  · next h =>
    have h1 := Dbl.roundMag_abs (abs_nonneg q)
    have h2 : Dbl.roundMag |q| < 2 ^ 1024 := by
      have h3 := (abs_le.1 h1).2
      have h4 : (2 : ℚ) ^ (-53 : ℤ) * |q| ≤ 1 * |q| :=
        mul_le_mul_of_nonneg_right (by norm_num) (abs_nonneg q)
      have h5 : (2 : ℚ) ^ (-1075 : ℤ) ≤ 1 := by
        rw [zpow_neg]
        exact inv_le_one_of_one_le₀ (one_le_zpow₀ (by norm_num) (by norm_num))
      have h6 : (2 : ℚ) ^ 200 * 2 + 1 < 2 ^ 202 := by norm_num
      have h7 : (2 : ℚ) ^ 202 < 2 ^ 1024 := pow_lt_pow_right₀ (by norm_num) (by norm_num)
      refine lt_trans ?_ h7
      linarith
    rw [if_neg (not_le.2 h2)]
    refine ⟨Dbl.val (decide (q < 0)) (Dbl.roundMag |q|),
      ⟨_, _, rfl, rfl, Dbl.roundMag_nonneg (abs_nonneg q)⟩, ?_⟩
    unfold ulpErr Dbl.val
    rcases lt_or_ge q 0 with hq0 | hq0
    · simp only [hq0, decide_true, if_true]
      rw [show -Dbl.roundMag |q| - q = -(Dbl.roundMag |q| - |q|) by rw [abs_of_neg hq0]; ring,
        abs_neg]
      exact h1
    · simp only [not_lt.2 hq0, decide_false, Bool.false_eq_true, if_false]
      rw [show Dbl.roundMag |q| - q = Dbl.roundMag |q| - |q| by rw [abs_of_nonneg hq0]]
      exact h1

theorem is_round_nat {s : Bool} {n : ℕ} (hn : n < 2 ^ 53) :
    Is (⟨Dbl.round s n⟩ : F64 L) n := by
  unfold Dbl.round
  split
  · next h => exact ⟨s, 0, rfl, by rw [h]; cases s <;> simp [Dbl.val], le_refl _⟩
  · next h =>
    have h0 : |(n : ℚ)| = n := abs_of_nonneg (by positivity)
    rw [h0, Dbl.roundMag_nat hn]
    have h2 : (n : ℚ) < 2 ^ 1024 := by
      have : (n : ℚ) < 2 ^ 53 := by exact_mod_cast hn
      have h6 : (2 : ℚ) ^ 53 < 2 ^ 1024 := pow_lt_pow_right₀ (by norm_num) (by norm_num)
      exact lt_trans this h6
    rw [if_neg (not_le.2 h2)]
    refine ⟨_, _, rfl, ?_, by positivity⟩
    have : ¬ (n : ℚ) < 0 := not_lt.2 (by positivity)
    simp [Dbl.val]

theorem is_neg {x : F64 L} {p : ℚ} (hx : Is x p) : Is (-x) (-p) := by
  obtain ⟨s, a, h1, h2, h3⟩ := hx
  refine ⟨!s, a, ?_, ?_, h3⟩
  · show x.dbl.neg = _
    rw [h1]; rfl
  · rw [← h2]; cases s <;> simp [Dbl.val]

theorem is_abs {x : F64 L} {p : ℚ} (hx : Is x p) : Is (Flt.abs x) |p| := by
  obtain ⟨s, a, h1, h2, this⟩ := hx
  refine ⟨false, a, ?_, ?_, this⟩
  · show x.dbl.abs = _
    rw [h1]; rfl
  · rw [← h2]; cases s <;> simp [Dbl.val, abs_of_nonneg this]

theorem is_add {x y : F64 L} {p q : ℚ} (hx : Is x p) (hy : Is y q) (h : |p + q| ≤ 2 ^ 200) :
    ∃ r, Is (x + y) r ∧ |r - (p + q)| ≤ ulpErr (p + q) := by
  obtain ⟨s, a, h1, rfl, _⟩ := hx
  obtain ⟨t, b, h3, rfl, _⟩ := hy
  have : x + y = ⟨Dbl.round (s && t) (Dbl.val s a + Dbl.val t b)⟩ := by
    show (⟨x.dbl.add y.dbl⟩ : F64 L) = _
    rw [h1, h3]; rfl
  rw [this]
  exact is_round h

theorem is_add_nat {x y : F64 L} {m n : ℕ} (hx : Is x m) (hy : Is y n) (h : m + n < 2 ^ 53) :
    Is (x + y) ((m + n : ℕ) : ℚ) := by
  obtain ⟨s, a, h1, h2, _⟩ := hx
  obtain ⟨t, b, h3, h4, _⟩ := hy
  have : x + y = ⟨Dbl.round (s && t) ((m + n : ℕ) : ℚ)⟩ := by
    show (⟨x.dbl.add y.dbl⟩ : F64 L) = _
    rw [h1, h3]
    show (⟨Dbl.round (s && t) (Dbl.val s a + Dbl.val t b)⟩ : F64 L) = _
    rw [h2, h4]; push_cast; rfl
  rw [this]
  exact is_round_nat h

theorem is_sub {x y : F64 L} {p q : ℚ} (hx : Is x p) (hy : Is y q) (h : |p - q| ≤ 2 ^ 200) :
    ∃ r, Is (x - y) r ∧ |r - (p - q)| ≤ ulpErr (p - q) := by
  have : x - y = x + -y := rfl
  rw [this, sub_eq_add_neg]
  exact is_add hx (is_neg hy) (by rwa [← sub_eq_add_neg])

theorem is_mul {x y : F64 L} {p q : ℚ} (hx : Is x p) (hy : Is y q) (h : |p * q| ≤ 2 ^ 200) :
    ∃ r, Is (x * y) r ∧ |r - p * q| ≤ ulpErr (p * q) := by
  obtain ⟨s, a, h1, rfl, _⟩ := hx
  obtain ⟨t, b, h3, rfl, _⟩ := hy
  have : x * y = ⟨Dbl.round (s != t) (Dbl.val s a * Dbl.val t b)⟩ := by
    show (⟨x.dbl.mul y.dbl⟩ : F64 L) = _
    rw [h1, h3]; rfl
  rw [this]
  exact is_round h

theorem is_div {x y : F64 L} {p q : ℚ} (hx : Is x p) (hy : Is y q) (hq : q ≠ 0)
    (h : |p / q| ≤ 2 ^ 200) : ∃ r, Is (x / y) r ∧ |r - p / q| ≤ ulpErr (p / q) := by
  obtain ⟨s, a, h1, rfl, _⟩ := hx
  obtain ⟨t, b, h3, rfl, _⟩ := hy
  have hb : b ≠ 0 := by
    rintro rfl
    apply hq
    cases t <;> simp [Dbl.val]
  have : x / y = ⟨Dbl.round (s != t) (Dbl.val s a / Dbl.val t b)⟩ := by
    show (⟨x.dbl.div y.dbl⟩ : F64 L) = _
    rw [h1, h3]
    simp [Dbl.div, hb]
  rw [this]
  exact is_round h

theorem is_lt {x y : F64 L} {p q : ℚ} (hx : Is x p) (hy : Is y q) :
    Flt.lt x y = decide (p < q) := by
  obtain ⟨s, a, h1, rfl, _⟩ := hx
  obtain ⟨t, b, h3, rfl, _⟩ := hy
  show x.dbl.lt y.dbl = _
  rw [h1, h3]; rfl

theorem is_nat (n : ℕ) (h : n < 2 ^ 53) : Is (OfNat.ofNat n : F64 L) n := by
  have : (OfNat.ofNat n : F64 L) = ⟨Dbl.round false (n : ℚ)⟩ := by
    show (⟨Dbl.round false _⟩ : F64 L) = _
    simp
  rw [this]
  exact is_round_nat h

theorem is_zero : Is (0 : F64 L) 0 := by simpa using is_nat 0 (by norm_num)
theorem is_one : Is (1 : F64 L) 1 := by simpa using is_nat 1 (by norm_num)

end F64
end Post
