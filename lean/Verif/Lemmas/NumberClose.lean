import Verif.Lemmas.NumberF64
import Mathlib.Tactic.FieldSimp
/-! # How close a number of the configuration file is read -/

namespace Post.Txt
open Spec F64 Dbl

variable {L : Libm}

/-! ## digits that are ignored -/

theorem push_bounds : ∀ (ds : List Nat) (s : Nat), (∀ d ∈ ds, d < 10) →
    (push s ds).1 * 10 ^ (push s ds).2 ≤ s * 10 ^ ds.length + ofDigits ds ∧
    s * 10 ^ ds.length + ofDigits ds < ((push s ds).1 + 1) * 10 ^ (push s ds).2 ∧ (push s ds).2 ≤ ds.length ∧
    ((push s ds).2 ≠ 0 → 1800000000000000000 ≤ (push s ds).1) := by
  intro ds
  induction ds with
  | nil => intro s _; simp [push, ofDigits]
  | cons d ds ih =>
    intro s h
    have hd := h d (by simp)
    have e : s * 10 ^ (d :: ds).length + ofDigits (d :: ds) = (s * 10 + d) * 10 ^ ds.length + ofDigits ds := by
      simp only [List.length_cons, ofDigits]
      ring
    rw [e]
    unfold push
    split_ifs with h1
    · simp only
      have hlt := ofDigits_lt fun d' hd' => h d' (List.mem_cons_of_mem d hd')
      refine ⟨?_, ?_, by simp, fun _ => by norm_num at h1; omega⟩
      · rw [pow_succ]
        nlinarith [Nat.zero_le (d * 10 ^ ds.length), Nat.zero_le (ofDigits ds)]
      · rw [pow_succ]
        have : d * 10 ^ ds.length ≤ 9 * 10 ^ ds.length := Nat.mul_le_mul_right _ (by omega)
        nlinarith
    · obtain ⟨a1, a2, a3, a4⟩ := ih (s * 10 + d) fun d' hd' => h d' (List.mem_cons_of_mem d hd')
      exact ⟨a1, a2, by simp only [List.length_cons]; omega, a4⟩

/-- The significand and the power of ten represent the number up to two parts in 10^18. -/
theorem truncation {x : Decimal} (hd : ∀ d ∈ x.int ++ x.frac, d < 10) :
    |(significand x : ℚ) * 10 ^ tenPower x - (|Decimal.value x|)| ≤ 2e-18 * |Decimal.value x| := by
  obtain ⟨a1, a2, a3, a4⟩ := push_bounds x.int 0 fun d h => hd d (by simp [h])
  obtain ⟨b1, b2, b3, b4⟩ := push_bounds x.frac (push 0 x.int).1 fun d h => hd d (by simp [h])
  have hB := ofDigits_lt (ds := x.frac) fun d h => hd d (by simp [h])
  have hS : significand x = (push (push 0 x.int).1 x.frac).1 := rfl
  have hT : tenPower x = (((push 0 x.int).2 + (push (push 0 x.int).1 x.frac).2 : ℕ) : ℤ) + (-(x.frac.length : ℤ)) +
      (if x.expNeg then -(ofDigits x.exp : ℤ) else ofDigits x.exp) := by
    unfold tenPower
    rw [natOf_eq]
    push_cast [Nat.cast_sub b3]
    ring
  rw [zero_mul, zero_add] at a1 a2
  rw [← hS] at b1 b2 b4
  generalize (push (push 0 x.int).1 x.frac).2 = k2 at *
  generalize (push 0 x.int).2 = k1 at *
  generalize (push 0 x.int).1 = s1 at *
  generalize significand x = s2 at *
  have hX : |Decimal.value x| = ((ofDigits x.int * 10 ^ x.frac.length + ofDigits x.frac : ℕ) : ℚ) *
      ((10 : ℚ) ^ (-(x.frac.length : ℤ)) * (10 : ℚ) ^ (if x.expNeg then -(ofDigits x.exp : ℤ) else ofDigits x.exp)) := by
    unfold Decimal.value
    have : |(if x.neg then (-1 : ℚ) else 1)| = 1 := by split <;> simp
    rw [abs_mul, abs_mul, abs_mul, ofDigits_append, abs_of_pos (zpow_pos (by norm_num : (0 : ℚ) < 10) _),
      abs_of_pos (zpow_pos (by norm_num : (0 : ℚ) < 10) _), Nat.abs_cast, this]
    ring
  have hY : (s2 : ℚ) * 10 ^ tenPower x = ((s2 * 10 ^ (k1 + k2) : ℕ) : ℚ) *
      ((10 : ℚ) ^ (-(x.frac.length : ℤ)) * (10 : ℚ) ^ (if x.expNeg then -(ofDigits x.exp : ℤ) else ofDigits x.exp)) := by
    rw [hT, zpow_add₀ (by norm_num), zpow_add₀ (by norm_num), zpow_natCast]
    push_cast
    ring
  have hw : (0 : ℚ) < (10 : ℚ) ^ (-(x.frac.length : ℤ)) *
      (10 : ℚ) ^ (if x.expNeg then -(ofDigits x.exp : ℤ) else ofDigits x.exp) :=
    mul_pos (zpow_pos (by norm_num) _) (zpow_pos (by norm_num) _)
  rw [hX, hY]
  generalize (10 : ℚ) ^ (-(x.frac.length : ℤ)) *
    (10 : ℚ) ^ (if x.expNeg then -(ofDigits x.exp : ℤ) else ofDigits x.exp) = w at *
  rw [← sub_mul, abs_mul, abs_of_pos hw, ← mul_assoc]
  refine mul_le_mul_of_nonneg_right ?_ hw.le
  generalize ofDigits x.int = A at *
  generalize ofDigits x.frac = B at *
  generalize x.frac.length = n at *
  -- now about natural numbers
  suffices h : ∀ X Y : ℕ, Y * 500000000000000000 ≤ X * 500000000000000001 → X * 499999999999999999 ≤ Y * 500000000000000000 →
      |(Y : ℚ) - X| ≤ 2e-18 * X by
    refine h _ _ ?_ ?_
    · by_cases hk1 : k1 = 0
      · subst hk1
        simp only [pow_zero, mul_one, zero_add] at *
        obtain rfl : A = s1 := by omega
        nlinarith
      · have h1 := a4 hk1
        have e1 : s2 * 10 ^ (k1 + k2) ≤ 10 ^ k1 * (s1 * 10 ^ n + B) := by
          rw [pow_add]
          nlinarith [Nat.mul_le_mul_left (10 ^ k1) b1]
        have e2 : 10 ^ k1 * s1 * 10 ^ n ≤ A * 10 ^ n := Nat.mul_le_mul_right _ (by rw [mul_comm]; exact a1)
        have e3 : 10 ^ k1 * B ≤ 10 ^ k1 * 10 ^ n := Nat.mul_le_mul_left _ hB.le
        have e4 : 10 ^ k1 * 10 ^ n * 1800000000000000000 ≤ A * 10 ^ n := by nlinarith [Nat.zero_le (10 ^ k1 * 10 ^ n)]
        nlinarith
    · by_cases hk1 : k1 = 0
      · subst hk1
        simp only [pow_zero, mul_one, zero_add] at *
        obtain rfl : A = s1 := by omega
        by_cases hk2 : k2 = 0
        · subst hk2
          simp only [pow_zero, mul_one] at *
          omega
        · have h2 := b4 hk2
          nlinarith [Nat.mul_le_mul_right (10 ^ k2) h2]
      · have h1 := a4 hk1
        have e1 : 10 ^ k1 * (s1 * 10 ^ n + B) ≤ (s2 + 1) * 10 ^ (k1 + k2) := by
          rw [pow_add]
          nlinarith [Nat.mul_le_mul_left (10 ^ k1) b2.le]
        have e2 : A * 10 ^ n ≤ (s1 + 1) * 10 ^ k1 * 10 ^ n := Nat.mul_le_mul_right _ a2.le
        have e3 : B ≤ 10 ^ k1 * 10 ^ n := hB.le.trans (Nat.le_mul_of_pos_left _ (by positivity))
        have e4 : 10 ^ (k1 + k2) ≤ 10 ^ k1 * 10 ^ n := by
          rw [← pow_add]
          exact Nat.pow_le_pow_right (by norm_num) (by omega)
        have e5 : 10 ^ k1 * 10 ^ n * 1800000000000000000 ≤ 10 ^ k1 * s1 * 10 ^ n := by nlinarith [Nat.zero_le (10 ^ k1 * 10 ^ n)]
        nlinarith [Nat.zero_le (10 ^ k1 * B)]
  intro X Y h1 h2
  have h1' : (Y : ℚ) * 500000000000000000 ≤ X * 500000000000000001 := by exact_mod_cast h1
  have h2' : (X : ℚ) * 499999999999999999 ≤ Y * 500000000000000000 := by exact_mod_cast h2
  rw [abs_le]
  constructor <;> norm_num <;> linarith

/-! ## rounding -/

set_option exponentiation.threshold 1100 in
theorem roundMag_rel {a : ℚ} (h : 1e-300 ≤ a) : |roundMag a - a| ≤ 1.111e-16 * a := by
  have h0 : (0 : ℚ) ≤ a := le_trans (by norm_num) h
  refine (roundMag_abs h0).trans ?_
  have h1 : (2 : ℚ) ^ (-1075 : ℤ) ≤ 1e-20 * 1e-300 := by norm_num
  have h2 : (1e-20 : ℚ) * 1e-300 ≤ 1e-20 * a := mul_le_mul_of_nonneg_left h (by norm_num)
  have h3 : (2 : ℚ) ^ (-53 : ℤ) + 1e-20 ≤ 1.111e-16 := by norm_num
  nlinarith

theorem roundMag_lt' {a : ℚ} (h0 : 0 ≤ a) (h : a ≤ 2 ^ 1000) : roundMag a < 2 ^ 1024 := by
  have h1 : OnGrid (2 ^ 1000 : ℚ) := ⟨1, (1000 : ℕ), by norm_num, by norm_num, by rw [zpow_natCast, Nat.cast_one, one_mul]⟩
  refine (roundMag_le h0 h1 h).trans_lt ?_
  exact pow_lt_pow_right₀ (by norm_num) (by norm_num)

set_option exponentiation.threshold 1100 in
theorem ten_le : (10 : ℚ) ^ 301 ≤ 2 ^ 1000 := by norm_num

theorem pow10_val {n : ℕ} (hn : n ≤ 301) : (Flt.ofSci 1 false n : F64 L).dbl = .fin false (roundMag (10 ^ n)) := by
  have h0 : (0 : ℚ) ≤ 10 ^ n := by positivity
  have h1 : (10 : ℚ) ^ n ≤ 2 ^ 1000 := (pow_le_pow_right₀ (by norm_num) hn).trans ten_le
  rw [ofSci_dbl, Nat.cast_one, one_mul, round_fin h0 (roundMag_lt' h0 h1) fun _ => rfl]

theorem mul_rel {f S p P u : ℚ} (hS : 0 ≤ S) (hP : 0 ≤ P) (hu : u = 1.111e-16) (hf : |f - S| ≤ u * S) (hp : |p - P| ≤ u * P) :
    |f * p - S * P| ≤ 2.2221e-16 * (S * P) := by
  have e : f * p - S * P = (f - S) * (p - P) + (f - S) * P + S * (p - P) := by ring
  have hSP := mul_nonneg hS hP
  rw [e]
  have h1 : |(f - S) * (p - P)| ≤ (u * S) * (u * P) := by
    rw [abs_mul]
    exact mul_le_mul hf hp (abs_nonneg _) ((abs_nonneg _).trans hf)
  have h2 : |(f - S) * P| ≤ (u * S) * P := by
    rw [abs_mul, abs_of_nonneg hP]
    exact mul_le_mul_of_nonneg_right hf hP
  have h3 : |S * (p - P)| ≤ S * (u * P) := by
    rw [abs_mul, abs_of_nonneg hS]
    exact mul_le_mul_of_nonneg_left hp hS
  refine (abs_add_three _ _ _).trans ?_
  subst hu
  nlinarith

theorem div_rel {f S p P u : ℚ} (hS : 0 ≤ S) (hP : 0 < P) (hu : u = 1.111e-16) (hf : |f - S| ≤ u * S) (hp : |p - P| ≤ u * P) :
    |f / p - S / P| ≤ 2.2221e-16 * (S / P) := by
  obtain ⟨hf1, hf2⟩ := abs_le.1 hf
  obtain ⟨hp1, hp2⟩ := abs_le.1 hp
  have hp0 : 0 < p := by subst hu; nlinarith
  have hSP : 0 ≤ S / P := div_nonneg hS hP.le
  have e : S = S / P * P := by field_simp
  rw [abs_le]
  constructor
  · rw [neg_le_sub_iff_le_add, ← sub_le_iff_le_add, le_div_iff₀ hp0]
    generalize S / P = r at *
    subst e hu
    nlinarith [mul_nonneg hSP hP.le, mul_le_mul_of_nonneg_left hp2 hSP]
  · rw [sub_le_iff_le_add, div_le_iff₀ hp0]
    generalize S / P = r at *
    subst e hu
    nlinarith [mul_nonneg hSP hP.le, mul_le_mul_of_nonneg_left hp1 hSP]

set_option exponentiation.threshold 1100 in
/-- A number of ordinary size is read up to four parts in 10^16, however many digits it has. -/
theorem toFloat_close {x : Decimal} (hd : ∀ d ∈ x.int ++ x.frac, d < 10) (h1 : 1e-280 ≤ |Decimal.value x|)
    (h2 : |Decimal.value x| ≤ 1e300) :
    ∃ (y : F64 L) (q : ℚ), toFloat x = some y ∧ Is y q ∧ |q - Decimal.value x| ≤ 4e-16 * |Decimal.value x| := by
  have ht := truncation hd
  have hsle : (significand x : ℚ) ≤ 2 ^ 64 := by
    have : significand x ≤ 2 ^ 64 := (significand_le x).trans (by norm_num)
    exact_mod_cast this
  have hval : Decimal.value x = if x.neg then -|Decimal.value x| else |Decimal.value x| := by
    have hp : 0 ≤ (ofDigits (x.int ++ x.frac) : ℚ) * (10 : ℚ) ^ (-(x.frac.length : ℤ)) *
      (10 : ℚ) ^ (if x.expNeg then -(ofDigits x.exp : ℤ) else ofDigits x.exp) := by positivity
    have e : Decimal.value x = (if x.neg then -1 else 1) * ((ofDigits (x.int ++ x.frac) : ℚ) * (10 : ℚ) ^ (-(x.frac.length : ℤ)) *
      (10 : ℚ) ^ (if x.expNeg then -(ofDigits x.exp : ℤ) else ofDigits x.exp)) := by
      unfold Decimal.value
      ring
    rw [e]
    generalize (ofDigits (x.int ++ x.frac) : ℚ) * (10 : ℚ) ^ (-(x.frac.length : ℤ)) *
      (10 : ℚ) ^ (if x.expNeg then -(ofDigits x.exp : ℤ) else ofDigits x.exp) = z at hp
    split
    · rw [neg_one_mul, abs_neg, abs_of_nonneg hp]
    · rw [one_mul, abs_of_nonneg hp]
  suffices key : ∃ (z : F64 L) (g : ℚ), fromParts (significand x) (tenPower x) = some z ∧ z.dbl = .fin false g ∧ 0 ≤ g ∧
      |g - significand x * 10 ^ tenPower x| ≤ 3.4e-16 * (significand x * 10 ^ tenPower x) by
    obtain ⟨z, g, k1, k2, k3, k4⟩ := key
    have hc : |g - (|Decimal.value x|)| ≤ 4e-16 * |Decimal.value x| := by
      generalize |Decimal.value x| = v at *
      generalize (significand x : ℚ) * 10 ^ tenPower x = w at *
      have hv : 0 ≤ v := le_trans (by norm_num) h1
      rw [abs_le] at *
      constructor <;> nlinarith
    unfold toFloat
    rw [k1]
    simp only [Option.map_some, Option.some.injEq]
    rcases hn : x.neg with _ | _
    · rw [hn] at hval
      simp only [Bool.false_eq_true, if_false] at hval ⊢
      refine ⟨z, g, rfl, ⟨false, g, k2, rfl, k3⟩, ?_⟩
      rw [← hval] at hc
      rwa [← hval]
    · rw [hn] at hval
      simp only [if_true] at hval ⊢
      refine ⟨-z, -g, rfl, is_neg ⟨false, g, k2, rfl, k3⟩, ?_⟩
      have e : -g - Decimal.value x = -(g - |Decimal.value x|) := by linarith
      rw [e, abs_neg]
      exact hc
  have hw1 : 9e-281 ≤ (significand x : ℚ) * 10 ^ tenPower x := by
    have := (abs_le.1 ht).1
    nlinarith
  have hw2 : (significand x : ℚ) * 10 ^ tenPower x ≤ 2e300 := by
    have := (abs_le.1 ht).2
    nlinarith
  generalize significand x = s at *
  generalize tenPower x = e at *
  have hs1 : (1 : ℚ) ≤ s := by
    rcases Nat.eq_zero_or_pos s with h0 | h0
    · rw [h0] at hw1
      norm_num at hw1
    · exact_mod_cast h0
  have hS := roundMag_rel (a := (s : ℚ)) (le_trans (by norm_num) hs1)
  have hf0 : (0 : ℚ) ≤ s := by linarith
  have hf : (Flt.ofSci s false 0 : F64 L).dbl = .fin false (roundMag s) := by
    rw [ofSci_dbl, pow_zero, mul_one, round_fin hf0 (roundMag_lt hf0 (hsle.trans (by norm_num))) fun _ => rfl]
  have hfn := roundMag_nonneg hf0
  unfold fromParts
  simp only
  by_cases he : e < 0
  · rw [if_pos he]
    obtain ⟨n, rfl⟩ : ∃ n : ℕ, e = -n := ⟨e.natAbs, by omega⟩
    rw [zpow_neg, zpow_natCast, ← div_eq_mul_inv] at hw1 hw2 ⊢
    have hn : n ≤ 301 := by
      by_contra hc
      have h3 : (10 : ℚ) ^ 301 ≤ 10 ^ n := pow_le_pow_right₀ (by norm_num) (by omega)
      rw [le_div_iff₀ (by positivity)] at hw1
      have h4 : (9e-281 : ℚ) * 10 ^ 301 ≤ 9e-281 * 10 ^ n := mul_le_mul_of_nonneg_left h3 (by norm_num)
      have h5 := (h4.trans hw1).trans hsle
      norm_num at h5
    have hk : (-(n : ℤ)).natAbs = n := by simp
    rw [hk, Nat.div_eq_of_lt (by omega)]
    simp only [scaleDown]
    rw [if_pos (by omega)]
    have hP := roundMag_rel (a := (10 : ℚ) ^ n) (le_trans (by norm_num) (one_le_pow₀ (by norm_num : (1 : ℚ) ≤ 10)))
    have hp1 : 1 ≤ roundMag ((10 : ℚ) ^ n) :=
      le_roundMag ⟨1, 0, by norm_num, by norm_num, by norm_num⟩ (one_le_pow₀ (by norm_num))
    have hq := div_rel hf0 (by positivity) rfl hS hP
    have hq0 : 0 ≤ roundMag (s : ℚ) / roundMag ((10 : ℚ) ^ n) := div_nonneg hfn (by linarith)
    have hq1 : 1e-300 ≤ roundMag (s : ℚ) / roundMag ((10 : ℚ) ^ n) := by
      have := (abs_le.1 hq).1
      norm_num at hw1 ⊢
      nlinarith
    have hr := roundMag_rel hq1
    have hmag : IsMag (roundMag (s : ℚ)) := roundMag_isMag hf0 (roundMag_lt hf0 (hsle.trans (by norm_num)))
    obtain ⟨d1, -⟩ := div_fin hf hmag (pow10_val (L := L) hn) hp1
    refine ⟨_, _, rfl, d1, roundMag_nonneg hq0, ?_⟩
    generalize roundMag (s : ℚ) / roundMag ((10 : ℚ) ^ n) = r at *
    generalize roundMag r = g at *
    generalize (s : ℚ) / 10 ^ n = w at *
    have hw0 : 0 ≤ w := le_trans (by norm_num) hw1
    rw [abs_le] at *
    constructor <;> nlinarith
  · rw [if_neg he]
    obtain ⟨n, rfl⟩ : ∃ n : ℕ, e = n := ⟨e.natAbs, by omega⟩
    rw [zpow_natCast] at hw1 hw2 ⊢
    have hn : n ≤ 301 := by
      by_contra hc
      have h3 : (10 : ℚ) ^ 301 ≤ 10 ^ n := pow_le_pow_right₀ (by norm_num) (by omega)
      have h4 : (10 : ℚ) ^ n ≤ s * 10 ^ n := le_mul_of_one_le_left (by positivity) hs1
      have h5 := (h3.trans h4).trans hw2
      norm_num at h5
    rw [if_pos (by omega), Int.natAbs_natCast]
    have hP := roundMag_rel (a := (10 : ℚ) ^ n) (le_trans (by norm_num) (one_le_pow₀ (by norm_num : (1 : ℚ) ≤ 10)))
    have hp1 : 1 ≤ roundMag ((10 : ℚ) ^ n) :=
      le_roundMag ⟨1, 0, by norm_num, by norm_num, by norm_num⟩ (one_le_pow₀ (by norm_num))
    have hq := mul_rel hf0 (by positivity) rfl hS hP
    have hq0 : 0 ≤ roundMag (s : ℚ) * roundMag ((10 : ℚ) ^ n) := mul_nonneg hfn (by linarith)
    have hq1 : 1e-300 ≤ roundMag (s : ℚ) * roundMag ((10 : ℚ) ^ n) := by
      have := (abs_le.1 hq).1
      norm_num at hw1 ⊢
      nlinarith
    have hq2 : roundMag (s : ℚ) * roundMag ((10 : ℚ) ^ n) ≤ 2 ^ 1000 := by
      refine le_trans ?_ ten_le
      have := (abs_le.1 hq).2
      nlinarith
    have hr := roundMag_rel hq1
    have hg : (Flt.ofSci s false 0 * Flt.ofSci 1 false n : F64 L).dbl =
        .fin false (roundMag (roundMag (s : ℚ) * roundMag ((10 : ℚ) ^ n))) := by
      show Dbl.mul (Flt.ofSci s false 0 : F64 L).dbl (Flt.ofSci 1 false n : F64 L).dbl = _
      rw [hf, pow10_val hn]
      simp only [Dbl.mul, Dbl.val, Bool.false_eq_true, if_false]
      exact round_fin hq0 (roundMag_lt' hq0 hq2) fun _ => rfl
    rw [eq_inf hg]
    refine ⟨_, _, rfl, hg, roundMag_nonneg hq0, ?_⟩
    generalize roundMag (s : ℚ) * roundMag ((10 : ℚ) ^ n) = r at *
    generalize roundMag r = g at *
    generalize (s : ℚ) * 10 ^ n = w at *
    have hw0 : 0 ≤ w := le_trans (by norm_num) hw1
    rw [abs_le] at *
    constructor <;> nlinarith

end Post.Txt
