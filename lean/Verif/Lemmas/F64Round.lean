import Verif.Lemmas.F64
import Mathlib.Algebra.Order.Field.Power
/-! # Rounding of binary64 is correct and monotone -/

namespace Post

namespace Dbl

theorem two_zpow_pos (e : ℤ) : (0 : ℚ) < 2 ^ e := zpow_pos (by norm_num) e

theorem two_zpow_1024 : (2 : ℚ) ^ (1024 : ℤ) = 2 ^ 1024 := zpow_natCast (2 : ℚ) 1024

/-- The magnitude is one of binary64: an integer below `2^53` times a power of two between
`2^-1074` and `2^971`. -/
def IsMag (a : ℚ) : Prop := ∃ (m : ℕ) (e : ℤ), m < 2 ^ 53 ∧ -1074 ≤ e ∧ e ≤ 971 ∧ a = m * 2 ^ e

/-- The same without an upper bound for the exponent. -/
def OnGrid (a : ℚ) : Prop := ∃ (m : ℕ) (e : ℤ), m < 2 ^ 53 ∧ -1074 ≤ e ∧ a = m * 2 ^ e

theorem IsMag.onGrid {a : ℚ} (h : IsMag a) : OnGrid a := by
  obtain ⟨m, e, h1, h2, _, h4⟩ := h
  exact ⟨m, e, h1, h2, h4⟩

theorem OnGrid.nonneg {a : ℚ} (h : OnGrid a) : 0 ≤ a := by
  obtain ⟨m, e, _, _, rfl⟩ := h
  positivity

/-- The value is one of the values of Rust's type `f64`. -/
def IsDouble : Dbl → Prop
  | .fin _ a => IsMag a
  | _ => True

theorem IsMag.nonneg {a : ℚ} (h : IsMag a) : 0 ≤ a := by
  obtain ⟨m, e, _, _, _, rfl⟩ := h
  positivity

theorem isMag_zero : IsMag 0 := ⟨0, 0, by norm_num, by norm_num, by norm_num, by simp⟩

theorem IsMag.lt {a : ℚ} (h : IsMag a) : a < 2 ^ 1024 := by
  obtain ⟨m, e, h1, _, h3, rfl⟩ := h
  have h4 : (m : ℚ) < 2 ^ (53 : ℤ) := by exact_mod_cast h1
  have h5 : (2 : ℚ) ^ e ≤ 2 ^ (971 : ℤ) := zpow_le_zpow_right₀ (by norm_num) h3
  calc (m : ℚ) * 2 ^ e < 2 ^ (53 : ℤ) * 2 ^ e := mul_lt_mul_of_pos_right h4 (by positivity)
    _ ≤ 2 ^ (53 : ℤ) * 2 ^ (971 : ℤ) := mul_le_mul_of_nonneg_left h5 (two_zpow_pos _).le
    _ = 2 ^ (1024 : ℤ) := by rw [← zpow_add₀ (by norm_num)]; rfl
    _ = 2 ^ 1024 := two_zpow_1024

theorem log_le_self {a : ℚ} (ha : 0 < a) : (2 : ℚ) ^ Int.log 2 a ≤ a := by
  exact_mod_cast Int.zpow_log_le_self (b := 2) (by norm_num) ha

theorem lt_log_succ (a : ℚ) : a < (2 : ℚ) ^ (Int.log 2 a + 1) := by
  exact_mod_cast Int.lt_zpow_succ_log_self (b := 2) (by norm_num) a

theorem log_lt {a : ℚ} (ha : 0 < a) {k : ℤ} (h : a < 2 ^ k) : Int.log 2 a < k :=
  (zpow_lt_zpow_iff_right₀ (by norm_num : (1 : ℚ) < 2)).1 (lt_of_le_of_lt (log_le_self ha) h)

theorem le_log {a : ℚ} {k : ℤ} (h : 2 ^ k ≤ a) : k ≤ Int.log 2 a := by
  have := (zpow_lt_zpow_iff_right₀ (by norm_num : (1 : ℚ) < 2)).1 (lt_of_le_of_lt h (lt_log_succ a))
  omega

theorem log_mono {a b : ℚ} (ha : 0 < a) (h : a ≤ b) : Int.log 2 a ≤ Int.log 2 b :=
  le_log ((log_le_self ha).trans h)

theorem exponent_mono {a b : ℚ} (ha : 0 < a) (h : a ≤ b) : exponent a ≤ exponent b := by
  have := log_mono ha h
  unfold exponent
  omega

/-- A double is a multiple of the unit in its last place. -/
theorem OnGrid.multiple {b : ℚ} (h : OnGrid b) (hb : 0 < b) {k : ℤ} (hk : k ≤ exponent b) :
    ∃ n : ℤ, b = n * 2 ^ k := by
  obtain ⟨m, e, h1, h2, rfl⟩ := h
  have hlog : Int.log 2 ((m : ℚ) * 2 ^ e) < 53 + e := by
    apply log_lt hb
    rw [zpow_add₀ (by norm_num : (2 : ℚ) ≠ 0)]
    have h4 : (m : ℚ) < 2 ^ (53 : ℤ) := by exact_mod_cast h1
    exact mul_lt_mul_of_pos_right h4 (by positivity)
  have hke : k ≤ e := by unfold exponent at hk; omega
  obtain ⟨j, hj⟩ := Int.eq_ofNat_of_zero_le (show 0 ≤ e - k by omega)
  refine ⟨m * 2 ^ j, ?_⟩
  rw [show e = j + k by omega, zpow_add₀ (by norm_num : (2 : ℚ) ≠ 0)]
  push_cast
  rw [zpow_natCast]
  ring

theorem nearest_le {y : ℚ} {n : ℤ} (h : y ≤ n) : nearest y ≤ n := by
  have h1 := Int.floor_le y
  have h2 := Int.lt_floor_add_one y
  by_cases hn : ⌊y⌋ = n
  · have : y = n := le_antisymm h (by rw [← hn]; exact h1)
    rw [this, nearest_int]
  · have h3 : ⌊y⌋ ≤ n := by
      have : (⌊y⌋ : ℚ) ≤ n := h1.trans h
      exact_mod_cast this
    unfold nearest
    split_ifs <;> omega

theorem le_nearest {y : ℚ} {n : ℤ} (h : n ≤ y) : n ≤ nearest y := by
  have h3 : n ≤ ⌊y⌋ := Int.le_floor.2 h
  unfold nearest
  split_ifs <;> omega

/-- Rounding does not jump over a double, upwards. -/
theorem roundMag_le {a b : ℚ} (ha : 0 ≤ a) (hb : OnGrid b) (h : a ≤ b) : roundMag a ≤ b := by
  unfold roundMag
  split
  · exact hb.nonneg
  · next h0 =>
    have ha' : 0 < a := lt_of_le_of_ne ha (Ne.symm h0)
    obtain ⟨n, hn⟩ := hb.multiple (lt_of_lt_of_le ha' h) (exponent_mono ha' h)
    have he : (0 : ℚ) < 2 ^ exponent a := zpow_pos (by norm_num) _
    have : nearest (a / 2 ^ exponent a) ≤ n := by
      apply nearest_le
      rw [div_le_iff₀ he, ← hn]
      exact h
    rw [hn]
    exact mul_le_mul_of_nonneg_right (by exact_mod_cast this) he.le

/-- Rounding does not jump over a double, downwards. -/
theorem le_roundMag {a b : ℚ} (hb : OnGrid b) (h : b ≤ a) : b ≤ roundMag a := by
  rcases hb.nonneg.eq_or_lt with hb0 | hb0
  · rw [← hb0]; exact roundMag_nonneg (hb.nonneg.trans h)
  have ha : 0 < a := lt_of_lt_of_le hb0 h
  unfold roundMag
  rw [if_neg ha.ne']
  have he : (0 : ℚ) < 2 ^ exponent a := zpow_pos (by norm_num) _
  rcases (exponent_mono hb0 h).eq_or_lt with hx | hx
  · obtain ⟨n, hn⟩ := hb.multiple hb0 hx.ge
    have : n ≤ nearest (a / 2 ^ exponent a) := by
      apply le_nearest
      rw [le_div_iff₀ he, ← hn]
      exact h
    rw [hn]
    exact mul_le_mul_of_nonneg_right (by exact_mod_cast this) he.le
  · have hea : exponent a = Int.log 2 a - 52 := by unfold exponent at hx ⊢; omega
    have hlog : Int.log 2 b + 1 ≤ Int.log 2 a := by unfold exponent at hx; omega
    have h1 : b ≤ 2 ^ Int.log 2 a :=
      (lt_log_succ b).le.trans (zpow_le_zpow_right₀ (by norm_num) hlog)
    have h2 : (2 : ℚ) ^ Int.log 2 a = ((2 ^ 52 : ℤ) : ℚ) * 2 ^ exponent a := by
      rw [hea, show Int.log 2 a = 52 + (Int.log 2 a - 52) by ring,
        zpow_add₀ (by norm_num : (2 : ℚ) ≠ 0), show 52 + (Int.log 2 a - 52) - 52 = Int.log 2 a - 52 by
        ring]
      norm_num
    have h3 : (2 ^ 52 : ℤ) ≤ nearest (a / 2 ^ exponent a) := by
      apply le_nearest
      rw [le_div_iff₀ he, ← h2]
      exact log_le_self ha
    rw [h2] at h1
    exact h1.trans (mul_le_mul_of_nonneg_right (by exact_mod_cast h3) he.le)

theorem roundMag_isMag_self {a : ℚ} (h : IsMag a) : roundMag a = a :=
  le_antisymm (roundMag_le h.nonneg h.onGrid (le_refl _)) (le_roundMag h.onGrid (le_refl _))

/-- The result of rounding is on the grid. -/
theorem roundMag_onGrid {a : ℚ} (ha : 0 ≤ a) : OnGrid (roundMag a) := by
  by_cases h0 : a = 0
  · rw [h0]; unfold roundMag; rw [if_pos rfl]; exact isMag_zero.onGrid
  have hr : roundMag a = nearest (a / 2 ^ exponent a) * 2 ^ exponent a := by
    unfold roundMag; rw [if_neg h0]
  have he : (0 : ℚ) < 2 ^ exponent a := zpow_pos (by norm_num) _
  have hn0 : 0 ≤ nearest (a / 2 ^ exponent a) := le_nearest (by push_cast; positivity)
  have hn1 : nearest (a / 2 ^ exponent a) ≤ 2 ^ 53 := by
    apply nearest_le
    rw [div_le_iff₀ he]
    push_cast
    have h1 : a < 2 ^ (53 + exponent a) := by
      refine lt_of_lt_of_le (lt_log_succ a) (zpow_le_zpow_right₀ (by norm_num) ?_)
      unfold exponent; omega
    rw [zpow_add₀ (by norm_num : (2 : ℚ) ≠ 0)] at h1
    exact_mod_cast h1.le
  have he0 : -1074 ≤ exponent a := by unfold exponent; omega
  obtain ⟨m, hm⟩ := Int.eq_ofNat_of_zero_le hn0
  have hm' : (nearest (a / 2 ^ exponent a) : ℚ) = m := by rw [hm]; norm_cast
  rw [hr, hm']
  have hm1 : m ≤ 2 ^ 53 := by
    rw [hm] at hn1; exact_mod_cast hn1
  rcases hm1.eq_or_lt with hm2 | hm2
  · refine ⟨2 ^ 52, exponent a + 1, by norm_num, by omega, ?_⟩
    rw [hm2, zpow_add₀ (by norm_num : (2 : ℚ) ≠ 0)]
    push_cast
    ring
  · exact ⟨m, exponent a, hm2, he0, rfl⟩

/-- The result of rounding is a double, if it does not overflow. -/
theorem roundMag_isMag {a : ℚ} (ha : 0 ≤ a) (h : roundMag a < 2 ^ 1024) : IsMag (roundMag a) := by
  by_cases h0 : a = 0
  · rw [h0]; unfold roundMag; rw [if_pos rfl]; exact isMag_zero
  have ha' : 0 < a := lt_of_le_of_ne ha (Ne.symm h0)
  have hr : roundMag a = nearest (a / 2 ^ exponent a) * 2 ^ exponent a := by
    unfold roundMag; rw [if_neg h0]
  have he : (0 : ℚ) < 2 ^ exponent a := zpow_pos (by norm_num) _
  have hn0 : 0 ≤ nearest (a / 2 ^ exponent a) := le_nearest (by push_cast; positivity)
  have hn1 : nearest (a / 2 ^ exponent a) ≤ 2 ^ 53 := by
    apply nearest_le
    rw [div_le_iff₀ he]
    push_cast
    have h1 : a < 2 ^ (53 + exponent a) := by
      refine lt_of_lt_of_le (lt_log_succ a) (zpow_le_zpow_right₀ (by norm_num) ?_)
      unfold exponent; omega
    rw [zpow_add₀ (by norm_num : (2 : ℚ) ≠ 0)] at h1
    exact_mod_cast h1.le
  have he0 : -1074 ≤ exponent a := by unfold exponent; omega
  obtain ⟨m, hm⟩ := Int.eq_ofNat_of_zero_le hn0
  have hm' : (nearest (a / 2 ^ exponent a) : ℚ) = m := by rw [hm]; norm_cast
  rw [hr, hm'] at h ⊢
  have hm1 : m ≤ 2 ^ 53 := by
    rw [hm] at hn1; exact_mod_cast hn1
  by_cases hbig : 971 < exponent a
  · exfalso
    have hea : exponent a = Int.log 2 a - 52 := by unfold exponent at hbig ⊢; omega
    have h3 : (2 ^ 52 : ℤ) ≤ nearest (a / 2 ^ exponent a) := by
      apply le_nearest
      rw [le_div_iff₀ he]
      have h2 : (2 : ℚ) ^ Int.log 2 a = ((2 ^ 52 : ℤ) : ℚ) * 2 ^ exponent a := by
        rw [hea, show Int.log 2 a = 52 + (Int.log 2 a - 52) by ring,
          zpow_add₀ (by norm_num : (2 : ℚ) ≠ 0), show 52 + (Int.log 2 a - 52) - 52 = Int.log 2 a - 52
          by ring]
        norm_num
      rw [← h2]
      exact log_le_self ha'
    have h4 : (2 : ℚ) ^ (52 : ℤ) ≤ m := by
      rw [← hm']
      exact_mod_cast h3
    have h5 : (2 : ℚ) ^ (972 : ℤ) ≤ 2 ^ exponent a := zpow_le_zpow_right₀ (by norm_num) (by omega)
    have h6 : (2 : ℚ) ^ (52 : ℤ) * 2 ^ (972 : ℤ) ≤ m * 2 ^ exponent a :=
      mul_le_mul h4 h5 (two_zpow_pos _).le (Nat.cast_nonneg _)
    rw [← zpow_add₀ (by norm_num : (2 : ℚ) ≠ 0)] at h6
    have h7 : (2 : ℚ) ^ ((52 : ℤ) + 972) = 2 ^ 1024 := two_zpow_1024
    rw [h7] at h6
    exact absurd h (not_lt.2 h6)
  · rcases hm1.eq_or_lt with hm2 | hm2
    · refine ⟨2 ^ 52, exponent a + 1, by norm_num, by omega, ?_, ?_⟩
      · by_contra hc
        have he1 : exponent a = 971 := by omega
        rw [hm2, he1] at h
        have h7 : ((2 ^ 53 : ℕ) : ℚ) * 2 ^ (971 : ℤ) = 2 ^ 1024 := by
          rw [show ((2 ^ 53 : ℕ) : ℚ) = 2 ^ (53 : ℤ) by norm_cast,
            ← zpow_add₀ (by norm_num : (2 : ℚ) ≠ 0)]
          exact two_zpow_1024
        rw [h7] at h
        exact lt_irrefl _ h
      · rw [hm2, zpow_add₀ (by norm_num : (2 : ℚ) ≠ 0)]
        push_cast
        ring
    · exact ⟨m, exponent a, hm2, he0, by omega, rfl⟩

/-- Rounding gives a double. -/
theorem round_isDouble (s : Bool) (q : ℚ) : IsDouble (round s q) := by
  unfold round
  split_ifs with h1 h2
  · exact isMag_zero
  · trivial
  · exact roundMag_isMag (abs_nonneg q) (not_le.1 h2)

theorem val_abs (s : Bool) {a : ℚ} (ha : 0 ≤ a) : |val s a| = a := by
  cases s <;> simp [val, abs_of_nonneg ha]

/-- The largest double. -/
def maxMag : ℚ := (2 ^ 53 - 1) * 2 ^ 971

/-- Rounding is to nearest: no double is closer to `q` than the result. -/
theorem roundMag_nearest {a b : ℚ} (ha : 0 ≤ a) (hb : OnGrid b) : |roundMag a - a| ≤ |b - a| := by
  rcases ha.eq_or_lt with h0 | h0
  · rw [← h0]; unfold roundMag; simp
  have he : (0 : ℚ) < 2 ^ exponent a := zpow_pos (by norm_num) _
  -- if `b` is on the grid of `a`
  have key : ∀ n : ℤ, b = n * 2 ^ exponent a → |roundMag a - a| ≤ |b - a| := by
    intro n hn
    have h1 : |(nearest (a / 2 ^ exponent a) : ℚ) - a / 2 ^ exponent a| ≤
        |(n : ℚ) - a / 2 ^ exponent a| := by
      set y := a / 2 ^ exponent a
      have hh := nearest_abs y
      by_cases hc : n = nearest y
      · rw [hc]
      · have h3 : (1 : ℚ) ≤ |(n : ℚ) - nearest y| := by
          have h5 : (1 : ℤ) ≤ |n - nearest y| := Int.one_le_abs (sub_ne_zero.2 hc)
          exact_mod_cast h5
        have h4 : |(n : ℚ) - nearest y| ≤ |(n : ℚ) - y| + |(nearest y : ℚ) - y| := by
          have := abs_sub_le (n : ℚ) y (nearest y)
          rwa [abs_sub_comm y _] at this
        linarith
    have h2 : ∀ k : ℤ, |(k : ℚ) * 2 ^ exponent a - a| =
        |(k : ℚ) - a / 2 ^ exponent a| * 2 ^ exponent a := by
      intro k
      rw [← abs_of_pos he, ← abs_mul, abs_of_pos he]
      congr 1
      field_simp
    have hr : roundMag a = nearest (a / 2 ^ exponent a) * 2 ^ exponent a := by
      unfold roundMag; rw [if_neg h0.ne']
    rw [hr, hn, h2, h2]
    exact mul_le_mul_of_nonneg_right h1 he.le
  rcases le_total a b with hab | hab
  · obtain ⟨n, hn⟩ := hb.multiple (lt_of_lt_of_le h0 hab) (exponent_mono h0 hab)
    exact key n hn
  · rcases hb.nonneg.eq_or_lt with hb0 | hb0
    · exact key 0 (by rw [← hb0]; simp)
    rcases (exponent_mono hb0 hab).eq_or_lt with hx | hx
    · obtain ⟨n, hn⟩ := hb.multiple hb0 hx.ge
      exact key n hn
    · -- `b` is below the binade of `a`
      have hea : exponent a = Int.log 2 a - 52 := by unfold exponent at hx ⊢; omega
      have hlog : Int.log 2 b + 1 ≤ Int.log 2 a := by unfold exponent at hx; omega
      have h1 : b ≤ 2 ^ Int.log 2 a :=
        (lt_log_succ b).le.trans (zpow_le_zpow_right₀ (by norm_num) hlog)
      have h2 : (2 : ℚ) ^ Int.log 2 a = ((2 ^ 52 : ℤ) : ℚ) * 2 ^ exponent a := by
        rw [hea, show Int.log 2 a = 52 + (Int.log 2 a - 52) by ring,
          zpow_add₀ (by norm_num : (2 : ℚ) ≠ 0), show 52 + (Int.log 2 a - 52) - 52 = Int.log 2 a - 52
          by ring]
        norm_num
      have h3 := log_le_self h0
      rw [h2] at h1 h3
      have h4 : |(((2 ^ 52 : ℤ) : ℚ) * 2 ^ exponent a) - a| ≤ |b - a| := by
        rw [abs_of_nonpos (by linarith), abs_of_nonpos (by linarith)]
        linarith
      refine le_trans ?_ h4
      have h5 : |(nearest (a / 2 ^ exponent a) : ℚ) - a / 2 ^ exponent a| ≤
          |(((2 ^ 52 : ℤ) : ℤ) : ℚ) - a / 2 ^ exponent a| := by
        set y := a / 2 ^ exponent a
        have hh := nearest_abs y
        by_cases hc : (2 ^ 52 : ℤ) = nearest y
        · rw [hc]
        · have h3 : (1 : ℚ) ≤ |((2 ^ 52 : ℤ) : ℚ) - nearest y| := by
            have h5 : (1 : ℤ) ≤ |2 ^ 52 - nearest y| := Int.one_le_abs (sub_ne_zero.2 hc)
            exact_mod_cast h5
          have h4 : |((2 ^ 52 : ℤ) : ℚ) - nearest y| ≤
              |((2 ^ 52 : ℤ) : ℚ) - y| + |(nearest y : ℚ) - y| := by
            have := abs_sub_le ((2 ^ 52 : ℤ) : ℚ) y (nearest y)
            rwa [abs_sub_comm y _] at this
          linarith
      have h6 : ∀ k : ℤ, |(k : ℚ) * 2 ^ exponent a - a| =
          |(k : ℚ) - a / 2 ^ exponent a| * 2 ^ exponent a := by
        intro k
        rw [← abs_of_pos he, ← abs_mul, abs_of_pos he]
        congr 1
        field_simp
      have hr : roundMag a = nearest (a / 2 ^ exponent a) * 2 ^ exponent a := by
        unfold roundMag; rw [if_neg h0.ne']
      rw [hr, h6, h6]
      exact mul_le_mul_of_nonneg_right h5 he.le

/-- Rounding is monotone. -/
theorem roundMag_mono {a b : ℚ} (ha : 0 ≤ a) (h : a ≤ b) : roundMag a ≤ roundMag b := by
  have hb := ha.trans h
  have hB := roundMag_onGrid hb
  have hA := roundMag_onGrid ha
  rcases le_total a (roundMag b) with h1 | h1
  · exact roundMag_le ha hB h1
  · by_contra hlt
    have hlt := not_le.1 hlt
    have e1 := roundMag_nearest ha hB
    have e2 := roundMag_nearest hb hA
    rw [abs_of_nonpos (show roundMag b - a ≤ 0 by linarith)] at e1
    rw [abs_of_nonpos (show roundMag b - b ≤ 0 by linarith)] at e2
    have e3 := (abs_le.1 e1).2
    rcases le_total (roundMag a) b with h2 | h2
    · rw [abs_of_nonpos (show roundMag a - b ≤ 0 by linarith)] at e2
      linarith
    · rw [abs_of_nonneg (show 0 ≤ roundMag a - b by linarith)] at e2
      have : a = b := by linarith
      subst this
      exact lt_irrefl _ hlt

end Dbl
end Post
