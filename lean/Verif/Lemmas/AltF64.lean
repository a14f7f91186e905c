import Verif.Props.DoubleAir
import Verif.Lemmas.EarthF64
import Verif.Spec.Trig
/-! # The altitude in double precision -/

set_option exponentiation.threshold 2000

namespace Post
open Spec Flt F64

namespace Dbl

theorem pos_aux {r q u t v : ℚ} (h : -(u + t) ≤ r - q) (h1 : t ≤ v) (h2 : v ≤ 1 / 4 * q) (h3 : u ≤ 1 / 4 * q) (hq : 0 < q) :
    0 < r := by linarith

theorem lt_aux {r q u t v w g : ℚ} (h : -(u + t) ≤ r - q) (h1 : t ≤ v) (h2 : v ≤ w) (h3 : g < q - u - w) : g < r := by
  linarith

/-- A number at least as large as the rounded square of a double has a square root that is at least as large as the
double. -/
theorem le_sqrtMag {a b : ℚ} (hb : OnGrid b) (hb0 : 2 ^ (-100 : ℤ) ≤ b) (h : roundMag (b * b) ≤ a) : b ≤ sqrtMag a := by
  have h100 : (0 : ℚ) < 2 ^ (-100 : ℤ) := by positivity
  have hbp : 0 < b := lt_of_lt_of_le h100 hb0
  have hbb : 0 < b * b := mul_pos hbp hbp
  have hround := (abs_le.1 (roundMag_abs hbb.le)).1
  have hbb0 : (2 : ℚ) ^ (-200 : ℤ) ≤ b * b := by
    have := mul_le_mul hb0 hb0 h100.le hbp.le
    rwa [← zpow_add₀ (by norm_num)] at this
  have htiny : (2 : ℚ) ^ (-1075 : ℤ) ≤ 2 ^ (-1075 + 200 : ℤ) * (b * b) := by
    rw [zpow_add₀ (by norm_num), mul_assoc]
    refine le_mul_of_one_le_right (by positivity) ?_
    calc (1 : ℚ) = 2 ^ (200 : ℤ) * 2 ^ (-200 : ℤ) := by rw [← zpow_add₀ (by norm_num)]; norm_num
      _ ≤ 2 ^ (200 : ℤ) * (b * b) := mul_le_mul_of_nonneg_left hbb0 (by positivity)
  have ha : 0 < a := by
    refine lt_of_lt_of_le ?_ h
    have h53 : (2 : ℚ) ^ (-53 : ℤ) ≤ 1 / 4 := by norm_num
    have h875 : (2 : ℚ) ^ (-1075 + 200 : ℤ) ≤ 1 / 4 := by
      refine (zpow_le_zpow_right₀ (by norm_num) (show (-1075 + 200 : ℤ) ≤ -2 by norm_num)).trans (by norm_num)
    have e1 := mul_le_mul_of_nonneg_right h53 hbb.le
    have e2 := mul_le_mul_of_nonneg_right h875 hbb.le
    exact pos_aux hround htiny e2 e1 hbb
  unfold sqrtMag
  rw [if_neg ha.ne']
  simp only
  set l := Int.log 2 a with hl
  set e : ℤ := l / 2 - 52 with he
  set y := a / 4 ^ e with hy
  set m := Nat.sqrt ⌊y⌋₊ with hm
  have h4 : (0 : ℚ) < 4 ^ e := zpow_pos (by norm_num) e
  have h2e : (0 : ℚ) < 2 ^ e := two_zpow_pos e
  have h4e : (4 : ℚ) ^ e = 2 ^ (2 * e) := by
    rw [show (4 : ℚ) = 2 ^ (2 : ℤ) by norm_num, ← zpow_mul]
  have h4e' : (4 : ℚ) ^ e = 2 ^ e * 2 ^ e := by rw [h4e, two_mul, zpow_add₀ (by norm_num)]
  have hy0 : 0 < y := div_pos ha h4
  have hlow := log_le_self ha
  have hup := lt_log_succ a
  rw [← hl] at hlow hup
  have hy52 : (2 : ℚ) ^ (104 : ℤ) ≤ y := by
    rw [hy, le_div_iff₀ h4, h4e, ← zpow_add₀ (by norm_num)]
    refine le_trans (zpow_le_zpow_right₀ (by norm_num) ?_) hlow
    omega
  have hy53 : y < (2 : ℚ) ^ (106 : ℤ) := by
    rw [hy, div_lt_iff₀ h4, h4e, ← zpow_add₀ (by norm_num)]
    refine lt_of_lt_of_le hup (zpow_le_zpow_right₀ (by norm_num) ?_)
    omega
  -- facts on the integer root
  have hm1 : ((m : ℚ)) ^ 2 ≤ y := by
    have h1 : (m ^ 2 : ℕ) ≤ ⌊y⌋₊ := Nat.sqrt_le' _
    have h2 : ((⌊y⌋₊ : ℕ) : ℚ) ≤ y := Nat.floor_le hy0.le
    have : ((m ^ 2 : ℕ) : ℚ) ≤ y := le_trans (by exact_mod_cast h1) h2
    push_cast at this
    exact this
  have hm2 : y < ((m : ℚ) + 1) ^ 2 := by
    have h3 : ⌊y⌋₊ < (m + 1) ^ 2 := Nat.lt_succ_sqrt' _
    have h5 : y < ((⌊y⌋₊ + 1 : ℕ) : ℚ) := by
      push_cast
      exact Nat.lt_floor_add_one y
    have := lt_of_lt_of_le h5 (by exact_mod_cast h3 : ((⌊y⌋₊ + 1 : ℕ) : ℚ) ≤ (((m + 1) ^ 2 : ℕ) : ℚ))
    push_cast at this
    exact this
  -- the result is at least every integer `n` whose square minus `n` plus 1/4 is below `y`
  have key : ∀ n : ℕ, (n : ℚ) ^ 2 - n + 1 / 4 < y → n ≤ (if ((m : ℚ) + 1 / 2) ^ 2 < y then m + 1 else m) := by
    intro n hn
    by_contra hc
    push Not at hc
    split_ifs at hc with hif
    · have : (m : ℚ) + 2 ≤ n := by exact_mod_cast hc
      nlinarith
    · have : (m : ℚ) + 1 ≤ n := by exact_mod_cast hc
      nlinarith
  -- the case of a small `b`
  rcases lt_or_ge b (2 ^ (52 + e)) with hsmall | hbig
  · have := key (2 ^ 52) (by
      refine lt_of_lt_of_le ?_ hy52
      norm_num)
    refine hsmall.le.trans ?_
    rw [zpow_add₀ (by norm_num)]
    refine mul_le_mul_of_nonneg_right ?_ h2e.le
    have h6 : ((2 ^ 52 : ℕ) : ℚ) ≤ ((if ((m : ℚ) + 1 / 2) ^ 2 < y then m + 1 else m : ℕ) : ℚ) := by exact_mod_cast this
    refine le_trans (by norm_num) h6
  · -- `b` is a multiple of `2 ^ e`
    have hlogb : 52 + e ≤ Int.log 2 b := le_log hbig
    obtain ⟨n, hn⟩ := hb.multiple hbp (k := e) (by unfold exponent; omega)
    have hn0 : 0 < n := by
      by_contra hc
      push Not at hc
      have : (n : ℚ) ≤ 0 := by exact_mod_cast hc
      have := mul_nonpos_of_nonpos_of_nonneg this h2e.le
      linarith
    obtain ⟨k, rfl⟩ := Int.eq_ofNat_of_zero_le hn0.le
    simp only [Int.ofNat_eq_natCast, Int.cast_natCast] at hn
    have hk52 : (2 : ℚ) ^ 52 ≤ k := by
      rw [hn, zpow_add₀ (by norm_num)] at hbig
      have := le_of_mul_le_mul_right hbig h2e
      exact_mod_cast this
    have hbk : b * b = (k : ℚ) ^ 2 * 4 ^ e := by rw [hn, h4e']; ring
    -- `k < 2 ^ 53`
    have hk53 : (k : ℚ) ≤ 2 ^ 53 - 1 := by
      by_contra hc
      push Not at hc
      have hk : 2 ^ 53 ≤ k := by
        have : ((2 ^ 53 - 1 : ℕ) : ℚ) < k := by
          push_cast
          norm_num at hc ⊢
          exact hc
        have : 2 ^ 53 - 1 < k := by exact_mod_cast this
        omega
      have hk' : (2 : ℚ) ^ 53 ≤ k := by exact_mod_cast hk
      have hpow : (2 : ℚ) ^ (106 + 2 * e) ≤ b * b := by
        rw [hbk, zpow_add₀ (by norm_num), ← h4e]
        refine mul_le_mul_of_nonneg_right ?_ h4.le
        calc (2 : ℚ) ^ (106 : ℤ) = (2 ^ 53) ^ 2 := by norm_num
          _ ≤ (k : ℚ) ^ 2 := pow_le_pow_left₀ (by norm_num) hk' 2
      have hbound : -1074 ≤ 106 + 2 * e := by
        have hlb : -200 ≤ Int.log 2 (b * b) := le_log hbb0
        by_contra hc'
        push Not at hc'
        -- then a is too small
        have e1 : a < 2 ^ (106 + 2 * e) := by
          rw [zpow_add₀ (by norm_num), ← h4e]
          rw [hy, div_lt_iff₀ h4] at hy53
          exact hy53
        have e2 : (2 : ℚ) ^ (106 + 2 * e) ≤ 2 ^ (-1074 : ℤ) := zpow_le_zpow_right₀ (by norm_num) (by omega)
        have e3 : (2 : ℚ) ^ (-1074 : ℤ) ≤ roundMag (b * b) := by
          refine le_roundMag ⟨1, -1074, by norm_num, le_rfl, by simp⟩ (le_trans ?_ hbb0)
          exact zpow_le_zpow_right₀ (by norm_num) (by norm_num)
        linarith
      have hgrid : OnGrid ((2 : ℚ) ^ (106 + 2 * e)) := ⟨1, 106 + 2 * e, by norm_num, hbound, by simp⟩
      have e4 := le_roundMag hgrid hpow
      have e1 : a < 2 ^ (106 + 2 * e) := by
        rw [zpow_add₀ (by norm_num), ← h4e]
        rw [hy, div_lt_iff₀ h4] at hy53
        exact hy53
      linarith
    have hfin := key k (by
      rw [hy, lt_div_iff₀ h4]
      refine lt_of_lt_of_le ?_ h
      rw [hbk] at hround htiny ⊢
      have h875 : (2 : ℚ) ^ (-1075 + 200 : ℤ) ≤ 2 ^ (-120 : ℤ) := zpow_le_zpow_right₀ (by norm_num) (by norm_num)
      have e5 : (2 : ℚ) ^ (-1075 + 200 : ℤ) * ((k : ℚ) ^ 2 * 4 ^ e) ≤ 2 ^ (-120 : ℤ) * ((k : ℚ) ^ 2 * 4 ^ e) :=
        mul_le_mul_of_nonneg_right h875 (by positivity)
      have e6 : ((k : ℚ) ^ 2 - k + 1 / 4) * 4 ^ e < ((k : ℚ) ^ 2 - 2 ^ (-53 : ℤ) * (k : ℚ) ^ 2 - 2 ^ (-120 : ℤ) * (k : ℚ) ^ 2) * 4 ^ e := by
        refine mul_lt_mul_of_pos_right ?_ h4
        have c1 : (2 ^ (-53 : ℤ) + 2 ^ (-120 : ℤ)) * (k : ℚ) ≤ 1 - 9 / 10 * 2 ^ (-53 : ℤ) := by
          refine (mul_le_mul_of_nonneg_left hk53 (by norm_num)).trans ?_
          norm_num
        have c2 : (2 ^ (-53 : ℤ) + 2 ^ (-120 : ℤ)) * (k : ℚ) * k ≤ (1 - 9 / 10 * 2 ^ (-53 : ℤ)) * k :=
          mul_le_mul_of_nonneg_right c1 (by positivity)
        have c3 : 9 / 10 * 2 ^ (-53 : ℤ) * (2 : ℚ) ^ 52 ≤ 9 / 10 * 2 ^ (-53 : ℤ) * k := mul_le_mul_of_nonneg_left hk52 (by norm_num)
        have c4 : (9 / 10 * 2 ^ (-53 : ℤ) * (2 : ℚ) ^ 52) = 9 / 20 := by norm_num
        rw [c4] at c3
        have c5 : (1 - 9 / 10 * 2 ^ (-53 : ℤ)) * (k : ℚ) = k - 9 / 10 * 2 ^ (-53 : ℤ) * k := by ring
        have c6 : (2 ^ (-53 : ℤ) + 2 ^ (-120 : ℤ)) * (k : ℚ) * k = 2 ^ (-53 : ℤ) * (k : ℚ) ^ 2 + 2 ^ (-120 : ℤ) * (k : ℚ) ^ 2 := by ring
        rw [c5, c6] at c2
        generalize 2 ^ (-53 : ℤ) * (k : ℚ) ^ 2 = A at c2 ⊢
        generalize 2 ^ (-120 : ℤ) * (k : ℚ) ^ 2 = B at c2 ⊢
        generalize 9 / 10 * 2 ^ (-53 : ℤ) * (k : ℚ) = C at c2 c3
        generalize (k : ℚ) ^ 2 = D
        clear * - c2 c3
        linarith
      have e7 : ((k : ℚ) ^ 2 - 2 ^ (-53 : ℤ) * (k : ℚ) ^ 2 - 2 ^ (-120 : ℤ) * (k : ℚ) ^ 2) * 4 ^ e =
        (k : ℚ) ^ 2 * 4 ^ e - 2 ^ (-53 : ℤ) * ((k : ℚ) ^ 2 * 4 ^ e) - 2 ^ (-120 : ℤ) * ((k : ℚ) ^ 2 * 4 ^ e) := by ring
      rw [e7] at e6
      exact lt_aux hround htiny e5 e6)
    calc b = k * 2 ^ e := hn
      _ ≤ _ := mul_le_mul_of_nonneg_right (by exact_mod_cast hfin) h2e.le

end Dbl

variable {L : Libm}

/-! ## a coordinate is never larger than the computed length -/

theorem is_round_pos {s : Bool} {q : ℚ} (h0 : 0 ≤ q) (h : q ≤ 2 ^ 200) : F64.Is (⟨Dbl.round s q⟩ : F64 L) (Dbl.roundMag q) := by
  obtain ⟨r, h1, h2⟩ := is_round (L := L) (s := s) (q := q) (by rwa [abs_of_nonneg h0])
  have h3 : r = Dbl.roundMag q := by
    obtain ⟨t, a, k1, k2, k3⟩ := h1
    rcases Dbl.val_round s q with ⟨hq, e⟩ | ⟨hq, e⟩ | ⟨hq, _⟩
    · simp only [e, Dbl.fin.injEq] at k1
      obtain ⟨_, rfl⟩ := k1
      rw [Dbl.val_zero] at k2
      rw [← k2, hq]
      simp [Dbl.roundMag]
    · simp only [e] at k1
      split at k1
      · cases k1
      · simp only [Dbl.fin.injEq] at k1
        obtain ⟨rfl, rfl⟩ := k1
        rw [← k2]
        rfl
    · linarith
  rw [← h3]
  exact h1

theorem is_sq {x : F64 L} {p : ℚ} (hx : x.Is p) (h : p * p ≤ 2 ^ 200) : (x * x).Is (Dbl.roundMag (p * p)) := by
  obtain ⟨s, a, h1, rfl, h3⟩ := hx
  have e : x * x = (⟨Dbl.round (s != s) (Dbl.val s a * Dbl.val s a)⟩ : F64 L) := by
    show (⟨Dbl.mul x.dbl x.dbl⟩ : F64 L) = _
    rw [h1]
    rfl
  rw [e]
  exact is_round_pos (mul_self_nonneg _) h

theorem is_add_pos {x y : F64 L} {p q : ℚ} (hx : x.Is p) (hy : y.Is q) (hp : 0 ≤ p) (hq : 0 ≤ q) (h : p + q ≤ 2 ^ 200) :
    (x + y).Is (Dbl.roundMag (p + q)) := by
  obtain ⟨s, a, h1, rfl, h3⟩ := hx
  obtain ⟨t, b, k1, rfl, k3⟩ := hy
  have e : x + y = (⟨Dbl.round (s && t) (Dbl.val s a + Dbl.val t b)⟩ : F64 L) := by
    show (⟨Dbl.add x.dbl y.dbl⟩ : F64 L) = _
    rw [h1, k1]
    rfl
  rw [e]
  exact is_round_pos (by linarith) h

theorem is_sqrt_pos {x : F64 L} {p : ℚ} (hx : x.Is p) (hp : 0 < p) : (Flt.sqrt x).Is (Dbl.sqrtMag p) := by
  obtain ⟨s, a, h1, h2, h3⟩ := hx
  have hs : s = false := by
    cases s
    · rfl
    · simp only [Dbl.val, if_true] at h2
      linarith
  subst hs
  have hap : a = p := by simpa [Dbl.val] using h2
  subst hap
  refine ⟨false, Dbl.sqrtMag a, ?_, rfl, (Dbl.sqrtMag_near hp).1⟩
  show Dbl.sqrt x.dbl = _
  rw [h1]
  simp [Dbl.sqrt, hp.ne']

theorem roundMag_le_two {q : ℚ} (h0 : 0 ≤ q) : Dbl.roundMag q ≤ 2 * q + 1 := by
  have h := (abs_le.1 (Dbl.roundMag_abs h0)).2
  have h53 : (2 : ℚ) ^ (-53 : ℤ) * q ≤ 1 * q := mul_le_mul_of_nonneg_right (by norm_num) h0
  have h1075 : (2 : ℚ) ^ (-1075 : ℤ) ≤ 1 := by
    rw [zpow_neg]
    exact inv_le_one_of_one_le₀ (one_le_zpow₀ (by norm_num) (by norm_num))
  have h' : Dbl.roundMag q ≤ q + (2 ^ (-53 : ℤ) * q + 2 ^ (-1075 : ℤ)) := by
    rw [add_comm]
    exact sub_le_iff_le_add.1 h
  refine h'.trans ?_
  rw [two_mul, add_assoc]
  exact add_le_add le_rfl (add_le_add (h53.trans (one_mul q).le) h1075)

theorem coord_le_norm {v : V3 (F64 L)} {px py pz : ℚ} (hx : v.x.Is px) (hy : v.y.Is py) (hz : v.z.Is pz)
    (hd : v.z.dbl.IsDouble) (bx : |px| ≤ 1e9) (by' : |py| ≤ 1e9) (bz : |pz| ≤ 1e9) (hlow : 2 ^ (-100 : ℤ) ≤ |pz|) :
    ∃ n, v.norm.Is n ∧ |pz| ≤ n := by
  have sq : ∀ {p : ℚ}, |p| ≤ 1e9 → p * p ≤ 1e18 := by
    intro p hp
    have := mul_le_mul hp hp (abs_nonneg _) (by norm_num)
    rw [abs_mul_abs_self] at this
    exact this.trans (by norm_num)
  have qx := sq bx
  have qy := sq by'
  have qz := sq bz
  have big : (1e20 : ℚ) ≤ 2 ^ 200 := by norm_num
  have i1 := is_sq hx (le_trans qx (le_trans (by norm_num) big))
  have i2 := is_sq hy (le_trans qy (le_trans (by norm_num) big))
  have i3 := is_sq hz (le_trans qz (le_trans (by norm_num) big))
  have u1 := roundMag_le_two (mul_self_nonneg px)
  have u2 := roundMag_le_two (mul_self_nonneg py)
  have u3 := roundMag_le_two (mul_self_nonneg pz)
  have n1 := Dbl.roundMag_nonneg (mul_self_nonneg px)
  have n2 := Dbl.roundMag_nonneg (mul_self_nonneg py)
  have n3 := Dbl.roundMag_nonneg (mul_self_nonneg pz)
  set A := Dbl.roundMag (px * px)
  set B := Dbl.roundMag (py * py)
  set C := Dbl.roundMag (pz * pz) with hC
  have i4 := is_add_pos i1 i2 n1 n2 (le_trans (by norm_num at qx qy ⊢; linarith) big)
  have u4 := roundMag_le_two (add_nonneg n1 n2)
  have n4 := Dbl.roundMag_nonneg (add_nonneg n1 n2)
  set D := Dbl.roundMag (A + B)
  have i5 := is_add_pos i4 i3 n4 n3 (le_trans (by norm_num at qx qy qz ⊢; linarith) big)
  set E := Dbl.roundMag (D + C) with hE
  have hCE : C ≤ E := Dbl.le_roundMag (Dbl.roundMag_onGrid (mul_self_nonneg pz)) (by linarith)
  have hgrid : Dbl.OnGrid |pz| := (is_isMag hz hd).onGrid
  have hpos : 0 < |pz| := lt_of_lt_of_le (by positivity) hlow
  have hbb : Dbl.roundMag (|pz| * |pz|) ≤ E := by
    rw [abs_mul_abs_self]
    exact hCE
  have hres := Dbl.le_sqrtMag hgrid hlow hbb
  have hE0 : 0 < E := by
    refine lt_of_le_of_ne (n3.trans hCE) fun h0 => ?_
    rw [← h0] at hres
    have : Dbl.sqrtMag 0 = 0 := by simp [Dbl.sqrtMag]
    rw [this] at hres
    linarith
  exact ⟨_, is_sqrt_pos i5 hE0, hres⟩

theorem readsV_is {v : V3 (F64 L)} {r : V3 ℝ} (hv : ReadsV v r) : ∃ px py pz : ℚ, v.x.Is px ∧ v.y.Is py ∧ v.z.Is pz ∧
    (px : ℝ) = r.x ∧ (py : ℝ) = r.y ∧ (pz : ℝ) = r.z := by
  obtain ⟨⟨px, h1, h2⟩, ⟨py, h3, h4⟩, ⟨pz, h5, h6⟩⟩ := hv
  exact ⟨px, py, pz, h1, h3, h5, h2, h4, h6⟩

theorem one_isMag : Dbl.IsMag 1 := ⟨1, 0, by norm_num, by norm_num, by norm_num, by simp⟩

/-- The computed sine of the latitude is between -1 and 1. -/
theorem ratio_double {v : V3 (F64 L)} {r : V3 ℝ} (hv : ReadsV v r) (hd : v.z.dbl.IsDouble) (h1 : 1e-3 ≤ rnorm r)
    (h2 : rnorm r ≤ 1e8) : ∃ q, (v.z / v.norm).Is q ∧ |q| ≤ 1 ∧ |(q : ℝ) - r.z / rnorm r| ≤ 3e-15 := by
  have hn := rel_norm hv h1 h2
  obtain ⟨bx, by', bz⟩ := comp_le_rnorm r
  have hV0 : 0 < rnorm r := lt_of_lt_of_le (by norm_num) h1
  have hq1 : |r.z / rnorm r| ≤ 1 := by
    rw [abs_div, abs_of_pos hV0, div_le_one hV0]
    exact bz
  have hzn : Near v.z r.z 0 := (readsV_near hv).z
  have hdiv : Near (v.z / v.norm) (r.z / rnorm r) 3e-15 := by
    have hn' : Near v.norm (rnorm r) (1e-15 * rnorm r) := by
      unfold Rel at hn
      rwa [abs_of_pos hV0] at hn
    refine hzn.div hn' (b := rnorm r) (M := 1) hV0 (le_abs_self _) ?_ hq1 ?_ ?_
    · norm_num
      linarith
    · rw [zero_add, one_mul, mul_left_comm, ← mul_assoc, mul_div_assoc, div_self hV0.ne']
      norm_num
    · rw [zero_add, one_mul, mul_left_comm, ← mul_assoc, mul_div_assoc, div_self hV0.ne']
      norm_num
  obtain ⟨q, hq, hq'⟩ := hdiv
  refine ⟨q, hq, ?_, hq'⟩
  by_cases hsmall : |r.z / rnorm r| ≤ 1 / 2
  · have h3 : |(q : ℝ)| ≤ 1 := (Near.big hq' hsmall).trans (by norm_num)
    exact_mod_cast h3
  · push Not at hsmall
    obtain ⟨px, py, pz, i1, i2, i3, e1, e2, e3⟩ := readsV_is hv
    have hcast : ∀ {p : ℚ} {c : ℝ}, (p : ℝ) = c → |c| ≤ rnorm r → |p| ≤ 1e9 := by
      intro p c hp hc
      have : ((|p| : ℚ) : ℝ) ≤ ((1e9 : ℚ) : ℝ) := by
        push_cast
        rw [hp]
        exact hc.trans (h2.trans (by norm_num))
      exact_mod_cast this
    have hlow : (2 : ℚ) ^ (-100 : ℤ) ≤ |pz| := by
      rw [abs_div, abs_of_pos hV0, lt_div_iff₀ hV0] at hsmall
      have : (((2 : ℚ) ^ (-100 : ℤ) : ℚ) : ℝ) ≤ ((|pz| : ℚ) : ℝ) := by
        push_cast
        rw [e3]
        norm_num at h1 ⊢
        linarith
      exact_mod_cast this
    obtain ⟨n, hn1, hn2⟩ := coord_le_norm i1 i2 i3 hd (hcast e1 bx) (hcast e2 by') (hcast e3 bz) hlow
    have hn0 : 0 < n := lt_of_lt_of_le (lt_of_lt_of_le (by positivity) hlow) hn2
    have hle : |pz / n| ≤ 1 := by
      rw [abs_div, abs_of_pos hn0, div_le_one hn0]
      exact hn2
    obtain ⟨h5, h6⟩ := abs_le.1 hle
    obtain ⟨s, a, d1, d2, d3⟩ := i3
    obtain ⟨t, b, c1, c2, c3⟩ := hn1
    have hb0 : b ≠ 0 := by
      rintro rfl
      rw [Dbl.val_zero] at c2
      linarith
    have e : v.z / v.norm = (⟨Dbl.round (s != t) (pz / n)⟩ : F64 L) := by
      show (⟨Dbl.div v.z.dbl v.norm.dbl⟩ : F64 L) = _
      rw [d1, c1]
      simp only [Dbl.div, if_neg hb0, d2, c2]
    rw [e] at hq
    have a1 := Dbl.round_atMost (s := s != t) (t := false) one_isMag (show pz / n ≤ 1 from h6)
    have a2 := Dbl.atMost_round (s := s != t) (t := true) one_isMag (show -1 ≤ pz / n from h5)
    obtain ⟨s', a', f1, f2, f3⟩ := hq
    simp only at f1
    rw [f1] at a1 a2
    have g1 : Dbl.val s' a' ≤ 1 := a1
    have g2 : -1 ≤ Dbl.val s' a' := a2
    rw [f2] at g1 g2
    exact abs_le.2 ⟨g2, g1⟩

/-! ## altitude -/

/-- The radii of the planet. -/
structure NearRadii (P : Planet (F64 L)) (a b : ℝ) : Prop where
  equatorial : Rel P.equatorialRadius a 4e-16
  polar : Rel P.polarRadius b 4e-16
  le : b ≤ a
  low : 6.356e6 ≤ b
  high : a ≤ 6.379e6

theorem altitude_double (hL : TrigLibrary L) (hG : GoodLibrary L) {P : Planet (F64 L)} {a b : ℝ} (hP : NearRadii P a b)
    {v : V3 (F64 L)} {r : V3 ℝ} (hv : ReadsV v r) (hd : v.z.dbl.IsDouble) (h1 : 6.3e6 ≤ rnorm r) (h2 : rnorm r ≤ 1e8) :
    Near (P.altitude v) (rnorm r - surfaceDistance a b r) 2e-7 ∧
      b ≤ surfaceDistance a b r ∧ surfaceDistance a b r ≤ a := by
  obtain ⟨hPa, hPb, hba, hb6, ha6⟩ := hP
  have h1' : 1e-3 ≤ rnorm r := le_trans (by norm_num) h1
  have hn := rel_norm hv h1' h2
  obtain ⟨q, hq, hq1, hq2⟩ := ratio_double hv hd h1' h2
  have hb0 : 0 < b := lt_of_lt_of_le (by norm_num) hb6
  have ha0 : 0 < a := lt_of_lt_of_le hb0 hba
  have hρ0 : 0 < rnorm r := lt_of_lt_of_le (by norm_num) h1
  set ρ := rnorm r with hρ
  set u := r.z / ρ with hu
  have hu1 : |u| ≤ 1 := by
    rw [hu, abs_div, abs_of_pos hρ0, div_le_one hρ0]
    exact (comp_le_rnorm r).2.2
  -- the sine of the latitude
  obtain ⟨t, ht, ht'⟩ := hL.asin _ q hq hq1
  have hqr : |(q : ℝ)| ≤ 1 := by exact_mod_cast hq1
  have htb : |t| ≤ 6 := by
    have h3 : |(t : ℝ)| ≤ 6 := by
      have k1 := Real.arcsin_le_pi_div_two (q : ℝ)
      have k2 := Real.neg_pi_div_two_le_arcsin (q : ℝ)
      have k3 := Real.pi_lt_d2
      have : |Real.arcsin (q : ℝ)| ≤ 2 := by
        rw [abs_le]
        norm_num at k3
        constructor <;> linarith
      exact (Near.big ht' this).trans (by norm_num)
    exact_mod_cast h3
  obtain ⟨w, hw, hw1, hw2⟩ := hL.sin _ t ht htb
  have hsin : Near (Flt.sin (Flt.asin (v.z / v.norm))) u 5.1e-15 := by
    refine ⟨w, hw, ?_⟩
    have k1 : |Real.sin (t : ℝ) - q| ≤ 1e-15 := by
      have := Real.abs_sin_sub_sin_le (t : ℝ) (Real.arcsin q)
      rw [Real.sin_arcsin (abs_le.1 hqr).1 (abs_le.1 hqr).2] at this
      exact this.trans ht'
    have k2 := abs_add_le ((w : ℝ) - Real.sin t) (Real.sin t - q)
    have k3 := abs_add_le ((w : ℝ) - q) (q - u)
    rw [sub_add_sub_cancel] at k2 k3
    norm_num at *
    linarith
  have hsin2 : Near (Flt.powi (Flt.sin (Flt.asin (v.z / v.norm))) 2) (u ^ 2) 1.2e-14 :=
    hsin.powi hG 2 (by norm_num) (A := 1) hu1 (by norm_num) (by norm_num)
  have hu2 : |u ^ 2| ≤ 1 := by
    rw [abs_pow]
    exact pow_le_one₀ (abs_nonneg _) hu1
  -- the ratio of the radii
  set k := a / b with hk
  have hk1 : 1 ≤ k := by rw [hk, one_le_div hb0]; exact hba
  have hk2 : k ≤ 1.004 := by
    rw [hk, div_le_iff₀ hb0]
    norm_num at *
    linarith
  have hk0 : 0 < k := by linarith
  have hkn : Near (P.equatorialRadius / P.polarRadius) k 1e-15 := by
    have : Rel (P.equatorialRadius / P.polarRadius) k 9.3e-16 := by
      refine hPa.div hPb (by norm_num) (by norm_num) (by norm_num) (by norm_num) hb0.ne' ?_ ?_ (by norm_num)
      · rw [← hk, abs_of_pos hk0]
        norm_num
        linarith
      · rw [← hk, abs_of_pos hk0]
        norm_num at hk2 ⊢
        linarith
    refine Near.mono this ?_
    rw [abs_of_pos hk0]
    norm_num at hk2 ⊢
    linarith
  have hkk : Near (Flt.powi (P.equatorialRadius / P.polarRadius) 2) (k ^ 2) 3.1e-15 :=
    hkn.powi hG 2 (by norm_num) (A := 1.004) (by rw [abs_of_pos hk0]; exact hk2) (by norm_num) (by norm_num)
  have hk21 : 1 ≤ k ^ 2 := one_le_pow₀ hk1
  have hk22 : k ^ 2 ≤ 1.0081 := by
    have := pow_le_pow_left₀ hk0.le hk2 2
    exact this.trans (by norm_num)
  have hkm : Near (Flt.powi (P.equatorialRadius / P.polarRadius) 2 - 1) (k ^ 2 - 1) 3.2e-15 := by
    refine hkk.sub Near.one (M := 0.0081) ?_ (by norm_num) (by norm_num)
    rw [abs_of_nonneg (by linarith)]
    norm_num at hk22 ⊢
    linarith
  have hprod : Near ((Flt.powi (P.equatorialRadius / P.polarRadius) 2 - 1) * Flt.powi (Flt.sin (Flt.asin (v.z / v.norm))) 2)
      ((k ^ 2 - 1) * u ^ 2) 3.4e-15 := by
    have hA : |k ^ 2 - 1| ≤ 0.0081 := by
      rw [abs_of_nonneg (by linarith)]
      norm_num at hk22 ⊢
      linarith
    refine hkm.mul hsin2 (A := 0.0081) (B := 1) (M := 0.0081) hA hu2 ?_ (by norm_num) (by norm_num)
    rw [abs_mul]
    calc |k ^ 2 - 1| * |u ^ 2| ≤ 0.0081 * 1 := mul_le_mul hA hu2 (abs_nonneg _) (by norm_num)
      _ = 0.0081 := mul_one _
  have hu20 : 0 ≤ u ^ 2 := sq_nonneg u
  have hu21 : u ^ 2 ≤ 1 := by rwa [abs_of_nonneg hu20] at hu2
  set w' := 1 + (k ^ 2 - 1) * u ^ 2 with hw'
  have hw'1 : 1 ≤ w' := by
    rw [hw']
    nlinarith
  have hw'2 : w' ≤ k ^ 2 := by
    rw [hw']
    nlinarith
  have hrad : Near (1 + (Flt.powi (P.equatorialRadius / P.polarRadius) 2 - 1) * Flt.powi (Flt.sin (Flt.asin (v.z / v.norm))) 2)
      w' 3.6e-15 := by
    refine Near.one.add hprod (M := 1.0081) ?_ (by norm_num) (by norm_num)
    rw [← hw', abs_of_nonneg (by linarith)]
    linarith
  have hrel : Rel (1 + (Flt.powi (P.equatorialRadius / P.polarRadius) 2 - 1) * Flt.powi (Flt.sin (Flt.asin (v.z / v.norm))) 2)
      w' 3.6e-15 := by
    refine Rel.of_near hrad ?_
    rw [abs_of_nonneg (by linarith)]
    norm_num
    linarith
  have hsq := rel_sqrt hrel (e := 3.8e-15) (by norm_num; linarith) (by norm_num) (by norm_num)
  have hsq1 : 1 ≤ Real.sqrt w' := Real.one_le_sqrt.2 hw'1
  have hsq2 : Real.sqrt w' ≤ k := by
    rw [Real.sqrt_le_left hk0.le]
    exact hw'2
  have hsq0 : 0 < Real.sqrt w' := by linarith
  have hD : surfaceDistance a b r = a / Real.sqrt w' := rfl
  have hD1 : b ≤ a / Real.sqrt w' := by
    rw [le_div_iff₀ hsq0]
    calc b * Real.sqrt w' ≤ b * k := mul_le_mul_of_nonneg_left hsq2 hb0.le
      _ = a := by rw [hk]; field_simp
  have hD2 : a / Real.sqrt w' ≤ a := div_le_self ha0.le hsq1
  have hdist : Rel (P.equatorialRadius / Flt.sqrt (1 + (Flt.powi (P.equatorialRadius / P.polarRadius) 2 - 1) *
      Flt.powi (Flt.sin (Flt.asin (v.z / v.norm))) 2)) (a / Real.sqrt w') 5e-15 := by
    refine hPa.div hsq (by norm_num) (by norm_num) (by norm_num) (by norm_num) hsq0.ne' ?_ ?_ (by norm_num)
    · rw [abs_of_pos (by positivity)]
      norm_num at hb6 ⊢
      linarith
    · rw [abs_of_pos (by positivity)]
      norm_num at ha6 ⊢
      linarith
  have hdist' : Near (P.equatorialRadius / Flt.sqrt (1 + (Flt.powi (P.equatorialRadius / P.polarRadius) 2 - 1) *
      Flt.powi (Flt.sin (Flt.asin (v.z / v.norm))) 2)) (a / Real.sqrt w') 3.2e-8 := by
    refine Near.mono hdist ?_
    rw [abs_of_pos (by positivity)]
    norm_num at ha6 ⊢
    linarith
  have hn' : Near v.norm ρ 1e-7 := by
    refine Near.mono hn ?_
    rw [abs_of_pos hρ0]
    norm_num at h2 ⊢
    linarith
  rw [hD]
  refine ⟨?_, hD1, hD2⟩
  refine hn'.sub hdist' (M := 1e8) ?_ (by norm_num) (by norm_num)
  rw [abs_le]
  norm_num at *
  constructor <;> linarith

theorem geopotential_double (hL : TrigLibrary L) (hG : GoodLibrary L) {P : Planet (F64 L)} {a b : ℝ} (hP : NearRadii P a b)
    {v : V3 (F64 L)} {r : V3 ℝ} (hv : ReadsV v r) (hd : v.z.dbl.IsDouble) (h1 : 6.3e6 ≤ rnorm r) (h2 : rnorm r ≤ 1e8) :
    Near (P.geopotentialAltitude v) (geopotential ((a + b) / 2) (rnorm r - surfaceDistance a b r)) 2e-6 ∧
    -9e4 ≤ geopotential ((a + b) / 2) (rnorm r - surfaceDistance a b r) ∧
    geopotential ((a + b) / 2) (rnorm r - surfaceDistance a b r) ≤ 6.4e6 := by
  obtain ⟨halt, hD1, hD2⟩ := altitude_double hL hG hP hv hd h1 h2
  obtain ⟨hPa, hPb, hba, hb6, ha6⟩ := hP
  have hb0 : 0 < b := lt_of_lt_of_le (by norm_num) hb6
  have ha0 : 0 < a := lt_of_lt_of_le hb0 hba
  set h := rnorm r - surfaceDistance a b r with hh
  have hh1 : -8e4 ≤ h := by
    rw [hh]
    norm_num at *
    linarith
  have hh2 : h ≤ 1e8 := by
    rw [hh]
    norm_num at *
    linarith
  set R := (a + b) / 2 with hR
  have hR1 : 6.356e6 ≤ R := by rw [hR]; norm_num at *; linarith
  have hR2 : R ≤ 6.379e6 := by rw [hR]; norm_num at *; linarith
  have hna : Near P.equatorialRadius a 3e-9 := by
    refine Near.mono hPa ?_
    rw [abs_of_pos ha0]
    norm_num at ha6 ⊢
    linarith
  have hnb : Near P.polarRadius b 3e-9 := by
    refine Near.mono hPb ?_
    rw [abs_of_pos hb0]
    norm_num at ha6 ⊢
    linarith
  have hsum : Near (P.equatorialRadius + P.polarRadius) (a + b) 1e-8 := by
    refine hna.add hnb (M := 1.3e7) ?_ (by norm_num) (by norm_num)
    rw [abs_of_pos (by linarith)]
    norm_num at ha6 ⊢
    linarith
  have hhalf : Near (0.5 : F64 L) 0.5 1e-16 :=
    Near.lit 5 true 1 (by norm_num) (by norm_num [abs_of_pos]) (by norm_num [abs_of_pos])
  have havg : Near (0.5 * (P.equatorialRadius + P.polarRadius)) R 8e-9 := by
    refine (hhalf.mul hsum (e := 8e-9) (A := 0.5) (B := 1.3e7) (M := 6.4e6) (by norm_num [abs_of_pos]) ?_ ?_ (by norm_num)
      (by norm_num)).congr ?_
    · rw [abs_of_pos (by linarith)]
      norm_num at ha6 ⊢
      linarith
    · rw [abs_of_pos (by linarith)]
      norm_num at ha6 ⊢
      linarith
    · rw [hR]
      ring
  have hR0 : 0 < R := lt_of_lt_of_le (by norm_num) hR1
  have hden0 : 6.2e6 ≤ R + h := by norm_num at *; linarith
  have hdenp : 0 < R + h := lt_of_lt_of_le (by norm_num) hden0
  have hhabs : |h| ≤ 1e8 := by
    rw [abs_le]
    norm_num at *
    constructor <;> linarith
  have hnum : Near (0.5 * (P.equatorialRadius + P.polarRadius) * P.altitude v) (R * h) 2.3 := by
    refine havg.mul halt (A := 6.379e6) (B := 1e8) (M := 6.379e14) (by rw [abs_of_pos hR0]; exact hR2) hhabs ?_ (by norm_num)
      (by norm_num)
    rw [abs_mul, abs_of_pos hR0]
    calc R * |h| ≤ 6.379e6 * 1e8 := mul_le_mul hR2 hhabs (abs_nonneg _) (by norm_num)
      _ ≤ 6.379e14 := by norm_num
  have hden : Near (0.5 * (P.equatorialRadius + P.polarRadius) + P.altitude v) (R + h) 2.4e-7 := by
    refine havg.add halt (M := 1.07e8) ?_ (by norm_num) (by norm_num)
    rw [abs_of_pos hdenp]
    norm_num at *
    linarith
  have hg1 : -9e4 ≤ R * h / (R + h) := by
    rw [le_div_iff₀ hdenp]
    norm_num at *
    nlinarith
  have hg2 : R * h / (R + h) ≤ 6.4e6 := by
    rw [div_le_iff₀ hdenp]
    norm_num at *
    nlinarith
  refine ⟨?_, hg1, hg2⟩
  refine hnum.div hden (b := 6.2e6) (M := 6.4e6) (by norm_num) (by rw [abs_of_pos hdenp]; exact hden0) (by norm_num) ?_
    (by norm_num) (by norm_num)
  rw [abs_le]
  refine ⟨le_trans (by norm_num) hg1, hg2⟩

theorem radii_rel {x : F64 L} {ft : ℝ} (h : Rel x ft 1.2e-16) (h1 : 2e7 ≤ ft) (h2 : ft ≤ 2.1e7) :
    Rel (x * METER_PER_FOOT) (ft * 0.3048) 4e-16 := by
  have h0 : 0 < ft := lt_of_lt_of_le (by norm_num) h1
  refine h.mul meter_rel (by norm_num) (by norm_num) (by norm_num) (by norm_num) ?_ ?_ (by norm_num)
  · rw [abs_of_pos (by positivity)]
    norm_num at h1 ⊢
    linarith
  · rw [abs_of_pos (by positivity)]
    norm_num at h2 ⊢
    linarith

theorem sameEarth_radii {P : Planet (F64 L)} {Q : Planet XR} (h : SameEarth P Q) {a b : ℝ}
    (ha : Q.equatorialRadius = .fin a) (hb : Q.polarRadius = .fin b) : NearRadii P a b := by
  have e1 : Rel (2.0925741e7 : F64 L) 20925741 1.2e-16 := rel_sci _ _ _ (by norm_num) (by norm_num) (by norm_num)
  have e2 : Rel (2.0855590e7 : F64 L) 20855590 1.2e-16 := rel_sci _ _ _ (by norm_num) (by norm_num) (by norm_num)
  have r1 := radii_rel e1 (by norm_num) (by norm_num)
  have r2 := radii_rel e2 (by norm_num) (by norm_num)
  have f1 : (2.0925741e7 * METER_PER_FOOT : XR) = .fin (20925741 * 0.3048) := by
    unfold METER_PER_FOOT
    rw [XR.fin_sci, XR.fin_sci, XR.fin_mul]
    norm_num
  have f2 : (2.0855590e7 * METER_PER_FOOT : XR) = .fin (20855590 * 0.3048) := by
    unfold METER_PER_FOOT
    rw [XR.fin_sci, XR.fin_sci, XR.fin_mul]
    norm_num
  rcases h with ⟨rfl, rfl⟩ | ⟨rfl, rfl⟩ | ⟨rfl, rfl⟩
  · have ha' : (2.0925741e7 * METER_PER_FOOT : XR) = .fin a := ha
    have hb' : (2.0925741e7 * METER_PER_FOOT : XR) = .fin b := hb
    rw [f1, XR.fin.injEq] at ha' hb'
    subst ha' hb'
    exact ⟨r1, r1, le_rfl, by norm_num, by norm_num⟩
  · have ha' : (2.0925741e7 * METER_PER_FOOT : XR) = .fin a := ha
    have hb' : (2.0855590e7 * METER_PER_FOOT : XR) = .fin b := hb
    rw [f1, XR.fin.injEq] at ha'
    rw [f2, XR.fin.injEq] at hb'
    subst ha' hb'
    exact ⟨r1, r2, by norm_num, by norm_num, by norm_num⟩
  · have ha' : (2.0925741e7 * METER_PER_FOOT : XR) = .fin a := ha
    have hb' : (2.0855590e7 * METER_PER_FOOT : XR) = .fin b := hb
    rw [f1, XR.fin.injEq] at ha'
    rw [f2, XR.fin.injEq] at hb'
    subst ha' hb'
    exact ⟨r1, r2, by norm_num, by norm_num, by norm_num⟩

end Post
