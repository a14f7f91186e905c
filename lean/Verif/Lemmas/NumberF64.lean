import Verif.Lemmas.JsonText
import Verif.Lemmas.F64Sign
import Verif.Spec.DoubleOrbit
/-! # What becomes of a number of the configuration file -/

namespace Post.Txt
open Spec F64 Dbl

variable {L : Libm}

/-! ## digits -/

theorem ofDigits_append (a b : List Nat) : ofDigits (a ++ b) = ofDigits a * 10 ^ b.length + ofDigits b := by
  induction a with
  | nil => simp [ofDigits]
  | cons d a ih =>
    simp only [List.cons_append, ofDigits, ih, List.length_append]
    ring

theorem ofDigits_lt {ds : List Nat} (h : ∀ d ∈ ds, d < 10) : ofDigits ds < 10 ^ ds.length := by
  induction ds with
  | nil => simp [ofDigits]
  | cons d ds ih =>
    have h1 := ih fun d hd => h d (by simp [hd])
    have h2 : d ≤ 9 := by have := h d (by simp); omega
    simp only [ofDigits, List.length_cons, pow_succ]
    nlinarith [Nat.mul_le_mul_right (10 ^ ds.length) h2]

theorem natOf_eq (ds : List Nat) : natOf ds = ofDigits ds := by
  have key : ∀ (ds : List Nat) (n : Nat), ds.foldl (fun n d => n * 10 + d) n = n * 10 ^ ds.length + ofDigits ds := by
    intro ds
    induction ds with
    | nil => intro n; simp [ofDigits]
    | cons d ds ih =>
      intro n
      simp only [List.foldl_cons, ih, ofDigits, List.length_cons]
      ring
  unfold natOf
  rw [key]
  simp

theorem push_exact : ∀ (ds : List Nat) (s : Nat), s * 10 ^ ds.length + ofDigits ds ≤ 2 ^ 64 - 1 →
    push s ds = (s * 10 ^ ds.length + ofDigits ds, 0) := by
  intro ds
  induction ds with
  | nil => intro s _; simp [push, ofDigits]
  | cons d ds ih =>
    intro s h
    have e : s * 10 ^ (d :: ds).length + ofDigits (d :: ds) = (s * 10 + d) * 10 ^ ds.length + ofDigits ds := by
      simp only [List.length_cons, ofDigits]
      ring
    rw [e] at h ⊢
    have h1 : 1 ≤ 10 ^ ds.length := Nat.one_le_pow _ _ (by norm_num)
    have h2 : s * 10 + d ≤ 2 ^ 64 - 1 := by nlinarith
    unfold push
    rw [if_neg (by omega), ih _ h]

theorem push_le : ∀ (ds : List Nat) (s : Nat), s ≤ 2 ^ 64 - 1 → (push s ds).1 ≤ 2 ^ 64 - 1 := by
  intro ds
  induction ds with
  | nil => intro s h; exact h
  | cons d ds ih =>
    intro s h
    unfold push
    split
    · exact h
    · exact ih _ (by omega)

theorem significand_le (x : Decimal) : significand x ≤ 2 ^ 64 - 1 := push_le _ _ (push_le _ _ (by norm_num))

/-! ## doubles -/

theorem round_fin {q : ℚ} {s : Bool} (hq : 0 ≤ q) (h : roundMag q < 2 ^ 1024) (hs : q = 0 → s = false) :
    Dbl.round s q = .fin false (roundMag q) := by
  unfold Dbl.round
  by_cases h0 : q = 0
  · rw [if_pos h0, hs h0, h0]
    simp [roundMag]
  · rw [if_neg h0, abs_of_nonneg hq, if_neg (not_le.2 h), decide_eq_false (not_lt.2 hq)]

theorem round_mag {a : ℚ} (h : IsMag a) : Dbl.round false a = .fin false a := by
  rw [round_fin h.nonneg (by rw [roundMag_isMag_self h]; exact h.lt) fun _ => rfl, roundMag_isMag_self h]

theorem isMag_nat {n : ℕ} (h : n < 2 ^ 53) : IsMag n := ⟨n, 0, h, by norm_num, by norm_num, by simp⟩

theorem isMag_pow10 {n : ℕ} (h : n ≤ 22) : IsMag (10 ^ n : ℚ) := by
  refine ⟨5 ^ n, n, ?_, by omega, by omega, ?_⟩
  · calc 5 ^ n ≤ 5 ^ 22 := Nat.pow_le_pow_right (by norm_num) h
      _ < 2 ^ 53 := by norm_num
  · push_cast
    rw [zpow_natCast, ← mul_pow]
    norm_num

theorem ofSci_dbl (m e : ℕ) : (Flt.ofSci m false e : F64 L).dbl = Dbl.round false (m * 10 ^ e) := rfl

theorem round_neg (q : ℚ) : (Dbl.round false q).neg = Dbl.round true (-q) := by
  unfold Dbl.round
  by_cases h0 : q = 0
  · simp [h0, Dbl.neg]
  · have h0' : -q ≠ 0 := by simpa using h0
    rw [if_neg h0, if_neg h0', abs_neg]
    have hd : decide (-q < 0) = !decide (q < 0) := by
      rcases lt_or_gt_of_ne h0 with h | h
      · rw [decide_eq_false (by linarith), decide_eq_true h]; rfl
      · rw [decide_eq_true (by linarith), decide_eq_false (by linarith)]; rfl
    rw [hd]
    split <;> rfl

theorem f64_ext {x y : F64 L} (h : x.dbl = y.dbl) : x = y := by
  cases x
  cases y
  exact congrArg F64.mk h

theorem eq_inf {x : F64 L} {s : Bool} {a : ℚ} (h : x.dbl = .fin s a) : Flt.eq (Flt.abs x) (Flt.inf : F64 L) = false := by
  show Dbl.eq (Dbl.abs x.dbl) (.inf false) = false
  rw [h]
  rfl

theorem roundMag_lt {a : ℚ} (h0 : 0 ≤ a) (h : a ≤ 2 ^ 200) : roundMag a < 2 ^ 1024 := by
  have h1 : OnGrid (2 ^ 200 : ℚ) := ⟨1, 200, by norm_num, by norm_num, by norm_num⟩
  refine (roundMag_le h0 h1 h).trans_lt ?_
  exact pow_lt_pow_right₀ (by norm_num) (by norm_num)

/-- Up to 15 digits and powers of ten up to 22: one rounding. -/
theorem fromParts_exact {sig : ℕ} (hs : sig < 2 ^ 53) {e : ℤ} (he : |e| ≤ 22) :
    (fromParts sig e : Option (F64 L)) = some ⟨Dbl.round false (sig * 10 ^ e)⟩ := by
  have hf : (Flt.ofSci sig false 0 : F64 L).dbl = .fin false sig := by
    rw [ofSci_dbl, pow_zero, mul_one, round_mag (isMag_nat hs)]
  have hp : ∀ n : ℕ, n ≤ 22 → (Flt.ofSci 1 false n : F64 L).dbl = .fin false (10 ^ n) := by
    intro n hn
    rw [ofSci_dbl, Nat.cast_one, one_mul, round_mag (isMag_pow10 hn)]
  rw [abs_le] at he
  unfold fromParts
  simp only
  by_cases h1 : e < 0
  · rw [if_pos h1]
    obtain ⟨n, rfl⟩ : ∃ n : ℕ, e = -n := ⟨e.natAbs, by omega⟩
    have hn : n ≤ 22 := by omega
    have hk : (-(n : ℤ)).natAbs = n := by simp
    rw [hk, Nat.div_eq_of_lt (by omega)]
    simp only [scaleDown]
    rw [if_pos (by omega)]
    refine congrArg some (f64_ext ?_)
    show Dbl.div (Flt.ofSci sig false 0 : F64 L).dbl (Flt.ofSci 1 false n : F64 L).dbl = _
    rw [hf, hp n hn]
    simp [Dbl.div, Dbl.val, div_eq_mul_inv]
  · rw [if_neg h1, if_pos (by omega)]
    obtain ⟨n, rfl⟩ : ∃ n : ℕ, e = n := ⟨e.natAbs, by omega⟩
    have hn : n ≤ 22 := by omega
    rw [Int.natAbs_natCast]
    have hg : (Flt.ofSci sig false 0 * Flt.ofSci 1 false n : F64 L).dbl = Dbl.round false (sig * 10 ^ (n : ℤ)) := by
      show Dbl.mul (Flt.ofSci sig false 0 : F64 L).dbl (Flt.ofSci 1 false n : F64 L).dbl = _
      rw [hf, hp n hn]
      simp [Dbl.mul, Dbl.val]
    have h2 : (sig : ℚ) * 10 ^ n ≤ 2 ^ 200 := by
      have h3 : sig * 10 ^ n ≤ 2 ^ 53 * 10 ^ 22 :=
        Nat.mul_le_mul hs.le (Nat.pow_le_pow_right (by norm_num) hn)
      have h4 : sig * 10 ^ n ≤ 2 ^ 200 := h3.trans (by norm_num)
      exact_mod_cast h4
    have h5 : (0 : ℚ) ≤ sig * 10 ^ n := by positivity
    rw [eq_inf (s := false) (a := roundMag (sig * 10 ^ n)) (by
      rw [hg, zpow_natCast, round_fin h5 (roundMag_lt h5 h2) fun _ => rfl])]
    exact congrArg some (f64_ext hg)

theorem significand_eq {x : Decimal} (h : ofDigits (x.int ++ x.frac) ≤ 2 ^ 64 - 1) :
    significand x = ofDigits (x.int ++ x.frac) ∧
    tenPower x = -(x.frac.length : ℤ) + (if x.expNeg then -(ofDigits x.exp : ℤ) else ofDigits x.exp) := by
  rw [ofDigits_append] at h
  have h1 : 1 ≤ 10 ^ x.frac.length := Nat.one_le_pow _ _ (by norm_num)
  have e1 : push 0 x.int = (ofDigits x.int, 0) := by
    rw [push_exact _ _ (by rw [zero_mul, zero_add]; nlinarith), zero_mul, zero_add]
  have e2 := push_exact x.frac (ofDigits x.int) h
  unfold significand tenPower
  rw [e1]
  simp only
  rw [e2, ofDigits_append, natOf_eq]
  simp

/-- A number of up to 15 digits with up to 22 decimal places or zeros is read as the double nearest to it. -/
theorem toFloat_exact {x : Decimal} (hd : ∀ d ∈ x.int ++ x.frac, d < 10) (hl : (x.int ++ x.frac).length ≤ 15)
    (he : |(if x.expNeg then -(ofDigits x.exp : ℤ) else ofDigits x.exp) - (x.frac.length : ℤ)| ≤ 22) :
    (toFloat x : Option (F64 L)) = some ⟨Dbl.round x.neg (Decimal.value x)⟩ := by
  have h1 : ofDigits (x.int ++ x.frac) < 10 ^ 15 :=
    (ofDigits_lt hd).trans_le (Nat.pow_le_pow_right (by norm_num) hl)
  obtain ⟨h2, h3⟩ := significand_eq (x := x) (by norm_num at h1 ⊢; omega)
  unfold toFloat
  rw [h2, h3, fromParts_exact (by norm_num at h1 ⊢; omega) (by rwa [neg_add_eq_sub])]
  have hv : Decimal.value x = (if x.neg then -1 else 1) * ((ofDigits (x.int ++ x.frac) : ℚ) *
      10 ^ (-(x.frac.length : ℤ) + (if x.expNeg then -(ofDigits x.exp : ℤ) else ofDigits x.exp))) := by
    unfold Decimal.value
    rw [zpow_add₀ (by norm_num)]
    ring
  rw [hv]
  simp only [Option.map_some, Option.some.injEq]
  rcases x.neg with _ | _
  · simp
  · refine f64_ext ?_
    show Dbl.neg _ = _
    simp only [if_true]
    rw [round_neg, neg_one_mul]

/-! ## every number is finite -/

set_option exponentiation.threshold 1100 in
theorem pow10_fin {n : ℕ} (hn : n ≤ 308) : ∃ p, (Flt.ofSci 1 false n : F64 L).dbl = .fin false p ∧ 1 ≤ p := by
  have h0 : (0 : ℚ) ≤ 10 ^ n := by positivity
  have hg : OnGrid (maxMag) := ⟨2 ^ 53 - 1, 971, by norm_num, by norm_num, by
    unfold maxMag
    rw [show (971 : ℤ) = ((971 : ℕ) : ℤ) by norm_num, zpow_natCast]
    norm_num⟩
  have h1 : (10 : ℚ) ^ n ≤ maxMag := by
    have : (10 : ℚ) ^ n ≤ 10 ^ 308 := pow_le_pow_right₀ (by norm_num) hn
    refine this.trans ?_
    unfold maxMag
    norm_num
  have h2 := roundMag_le h0 hg h1
  refine ⟨roundMag (10 ^ n), ?_, le_roundMag ⟨1, 0, by norm_num, by norm_num, by norm_num⟩ (one_le_pow₀ (by norm_num))⟩
  rw [ofSci_dbl, Nat.cast_one, one_mul, round_fin h0 (h2.trans_lt (by unfold maxMag; norm_num)) fun _ => rfl]

theorem div_fin {f g : F64 L} {a p : ℚ} (hf : f.dbl = .fin false a) (ha : IsMag a) (hg : g.dbl = .fin false p) (hp : 1 ≤ p) :
    (f / g).dbl = .fin false (roundMag (a / p)) ∧ IsMag (roundMag (a / p)) := by
  have h0 : 0 ≤ a / p := div_nonneg ha.nonneg (by linarith)
  have h1 : a / p ≤ a := div_le_self ha.nonneg hp
  have h2 : roundMag (a / p) < 2 ^ 1024 := (roundMag_le h0 ha.onGrid h1).trans_lt ha.lt
  refine ⟨?_, roundMag_isMag h0 h2⟩
  show Dbl.div f.dbl g.dbl = _
  rw [hf, hg]
  simp only [Dbl.div, Dbl.val]
  rw [if_neg (by linarith)]
  simp only [Bool.false_eq_true, if_false]
  exact round_fin h0 h2 fun _ => rfl

theorem scaleDown_fin : ∀ (k : ℕ) (f : F64 L) (n : ℕ) (a : ℚ), f.dbl = .fin false a → IsMag a →
    ∃ b, (scaleDown k f n).dbl = .fin false b ∧ IsMag b := by
  intro k
  induction k with
  | zero => intro f n a h1 h2; exact ⟨a, h1, h2⟩
  | succ k ih =>
    intro f n a h1 h2
    simp only [scaleDown]
    split_ifs with h3 h4
    · obtain ⟨p, hp, hp1⟩ := pow10_fin (L := L) h3
      obtain ⟨d1, d2⟩ := div_fin h1 h2 hp hp1
      exact ⟨_, d1, d2⟩
    · exact ⟨a, h1, h2⟩
    · obtain ⟨p, hp, hp1⟩ := pow10_fin (L := L) (n := 308) le_rfl
      obtain ⟨d1, d2⟩ := div_fin h1 h2 hp hp1
      exact ih _ _ _ d1 d2

theorem sig_fin (x : Decimal) : ∃ a, (Flt.ofSci (significand x) false 0 : F64 L).dbl = .fin false a ∧ IsMag a := by
  have h0 : (0 : ℚ) ≤ (significand x : ℚ) := by positivity
  have h1 : (significand x : ℚ) ≤ 2 ^ 200 := by
    have h2 : significand x ≤ 2 ^ 200 := (significand_le x).trans (by norm_num)
    exact_mod_cast h2
  refine ⟨roundMag (significand x), ?_, roundMag_isMag h0 (roundMag_lt h0 h1)⟩
  rw [ofSci_dbl, pow_zero, mul_one, round_fin h0 (roundMag_lt h0 h1) fun _ => rfl]

/-- Every number that is accepted becomes a double which is neither NaN nor infinite. -/
theorem toFloat_finite {x : Decimal} {y : F64 L} (h : toFloat x = some y) : ∃ s a, y.dbl = .fin s a ∧ IsMag a := by
  obtain ⟨a, ha, hm⟩ := sig_fin (L := L) x
  have key : ∀ z : F64 L, fromParts (significand x) (tenPower x) = some z → ∃ b, z.dbl = .fin false b ∧ IsMag b := by
    intro z hz
    unfold fromParts at hz
    simp only at hz
    split_ifs at hz with h1 h2 h3 h4
    · simp only [Option.some.injEq] at hz
      rw [← hz]
      exact scaleDown_fin _ _ _ a ha hm
    · simp only [Option.some.injEq] at hz
      obtain ⟨p, hp, hp1⟩ := pow10_fin (L := L) (n := (tenPower x).natAbs) (by omega)
      have hd : z.dbl = Dbl.round false (a * p) := by
        rw [← hz]
        show Dbl.mul (Flt.ofSci (significand x) false 0 : F64 L).dbl (Flt.ofSci 1 false _ : F64 L).dbl = _
        rw [ha, hp]
        simp [Dbl.mul, Dbl.val]
      have hq : 0 ≤ a * p := mul_nonneg hm.nonneg (by linarith)
      by_cases hlt : roundMag (a * p) < 2 ^ 1024
      · exact ⟨_, by rw [hd, round_fin hq hlt fun _ => rfl], roundMag_isMag hq hlt⟩
      · exfalso
        apply h3
        rw [hz]
        show Dbl.eq (Dbl.abs z.dbl) (.inf false) = true
        rw [hd]
        unfold Dbl.round
        rw [if_neg (by
          intro h0
          rw [h0] at hlt
          apply hlt
          simp [roundMag]), abs_of_nonneg hq, if_pos (not_lt.1 hlt)]
        rfl
    · simp only [Option.some.injEq] at hz
      rw [← hz]
      exact ⟨a, ha, hm⟩
  unfold toFloat at h
  simp only [Option.map_eq_some_iff] at h
  obtain ⟨z, h1, h2⟩ := h
  obtain ⟨b, h3, h4⟩ := key z h1
  split_ifs at h2
  · rw [← h2]
    refine ⟨true, b, ?_, h4⟩
    show Dbl.neg z.dbl = _
    rw [h3]
    rfl
  · rw [← h2]
    exact ⟨false, b, h3, h4⟩

end Post.Txt
