import Verif.Lemmas.CoastF64
import Verif.Lemmas.ThrottleReal
import Verif.Spec.Trig
import Verif.Props.Throttle
import Mathlib.Analysis.Real.Pi.Bounds
/-! # The automatic throttle in double precision -/

namespace Post
open Spec Flt F64
variable {L : Libm}

/-! ## lengths and scalar products -/

theorem dot_near {v w : V3 (F64 L)} {r q : V3 ℝ} (hv : NearV v r 0) (hw : NearV w q 0) {P Q : ℝ}
    (hP : rnorm r ≤ P) (hQ : rnorm q ≤ Q) (h1 : 1e-20 ≤ P * Q) (h2 : P * Q ≤ 1e50) :
    Near (V3.dot v w) (rdot r q) (1.1e-15 * (P * Q)) := by
  have hP0 := (rnorm_nonneg r).trans hP
  have hQ0 := (rnorm_nonneg q).trans hQ
  obtain ⟨rx, ry, rz⟩ := comp_le_rnorm r
  obtain ⟨qx, qy, qz⟩ := comp_le_rnorm q
  have hdot : |rdot r q| ≤ P * Q :=
    (abs_rdot_le r q).trans (mul_le_mul hP hQ (rnorm_nonneg q) hP0)
  have mx : |r.x * q.x| ≤ P * Q := abs_mul_le (rx.trans hP) (qx.trans hQ) le_rfl
  have my : |r.y * q.y| ≤ P * Q := abs_mul_le (ry.trans hP) (qy.trans hQ) le_rfl
  have mz : |r.z * q.z| ≤ P * Q := abs_mul_le (rz.trans hP) (qz.trans hQ) le_rfl
  unfold V3.dot rdot
  unfold rdot at hdot
  set R := P * Q with hR
  have key : ∀ {a b : F64 L} {α β : ℝ}, Near a α 0 → Near b β 0 → |α| ≤ P → |β| ≤ Q → |α * β| ≤ R →
      Near (a * b) (α * β) (1.3e-16 * R) := fun ha hb h3 h4 h5 =>
    ha.mul hb h3 h4 h5 (by norm_num at *; linarith) (by norm_num at *; linarith)
  have kx := key hv.x hw.x (rx.trans hP) (qx.trans hQ) mx
  have ky := key hv.y hw.y (ry.trans hP) (qy.trans hQ) my
  have kz := key hv.z hw.z (rz.trans hP) (qz.trans hQ) mz
  have kxy := kx.add ky (M := 2 * R) (e := 5.1e-16 * R) (abs_add_le' mx my (by linarith))
    (by norm_num at *; linarith) (by norm_num at *; linarith)
  exact kxy.add kz (M := R) hdot (by norm_num at *; linarith) (by norm_num at *; linarith)

theorem norm_rel {v : V3 (F64 L)} {r : V3 ℝ} (hv : NearV v r 0) (h1 : 1e-10 ≤ rnorm r)
    (h2 : rnorm r ≤ 1e25) : Near v.norm (rnorm r) (2e-15 * rnorm r) := by
  have hp : 0 < rnorm r := lt_of_lt_of_le (by norm_num) h1
  have h3 : (1e-20 : ℝ) ≤ rnorm r * rnorm r := by
    calc (1e-20 : ℝ) = 1e-10 * 1e-10 := by norm_num
      _ ≤ _ := mul_le_mul h1 h1 (by norm_num) hp.le
  have h4 : rnorm r * rnorm r ≤ 1e50 := by
    calc rnorm r * rnorm r ≤ 1e25 * 1e25 := mul_le_mul h2 h2 hp.le (by norm_num)
      _ = _ := by norm_num
  have hd := dot_near hv hv le_rfl le_rfl h3 h4
  rw [rdot_self] at hd
  have h5 : Real.sqrt (rnorm r ^ 2) = rnorm r := Real.sqrt_sq hp.le
  have := hd.sqrt (b := rnorm r) (M := rnorm r) (e := 2e-15 * rnorm r) hp (by rw [h5])
    (by rw [← pow_two]; have := sq_nonneg (rnorm r); norm_num at *; linarith) (by rw [h5])
    (by
      rw [show 1.1e-15 * (rnorm r * rnorm r) / rnorm r = 1.1e-15 * rnorm r by field_simp]
      norm_num at *
      linarith)
  rwa [h5] at this

/-- the square root of a number that is not negative is a number -/
theorem sqrt_is {x : F64 L} {p : ℚ} (hx : x.Is p) (hp : 0 ≤ p) :
    ∃ r, (Flt.sqrt x).Is r ∧ 0 ≤ r ∧ |(r : ℝ) - Real.sqrt p| ≤ 2 ^ (-53 : ℤ) * Real.sqrt p := by
  obtain ⟨s, a, h1, h2, h3⟩ := hx
  rcases hp.eq_or_lt with h0 | h0
  · have ha : a = 0 := by
      rw [← h0] at h2
      unfold Dbl.val at h2
      split_ifs at h2 <;> linarith
    subst ha
    refine ⟨0, ⟨s, 0, ?_, Dbl.val_zero s, le_rfl⟩, le_rfl, ?_⟩
    · show Dbl.sqrt x.dbl = _
      rw [h1]
      simp [Dbl.sqrt]
    · rw [← h0]
      simp
  · have hs : s = false := by
      cases s
      · rfl
      · simp only [Dbl.val, if_true] at h2
        linarith
    subst hs
    have hap : a = p := by simpa [Dbl.val] using h2
    subst hap
    obtain ⟨h6, h7⟩ := Dbl.sqrtMag_near h0
    refine ⟨Dbl.sqrtMag a, ⟨false, Dbl.sqrtMag a, ?_, rfl, h6⟩, h6, h7⟩
    show Dbl.sqrt x.dbl = _
    rw [h1]
    simp [Dbl.sqrt, h0.ne']

theorem notNeg_nonneg {x : F64 L} {p : ℚ} (hx : x.Is p) (h : x.dbl.NotNeg) : 0 ≤ p := by
  obtain ⟨s, a, h1, h2, h3⟩ := hx
  rw [h1] at h
  have h' : 0 ≤ Dbl.val s a := h
  rwa [h2] at h'

theorem mul_self_notNeg {x : F64 L} {p : ℚ} (hx : x.Is p) : (x * x).dbl.NotNeg := by
  obtain ⟨s, a, h1, h2, h3⟩ := hx
  show (Dbl.mul x.dbl x.dbl).NotNeg
  rw [h1]
  exact Dbl.round_notNeg (mul_self_nonneg _)

theorem dot_self_notNeg {v : V3 (F64 L)} {p q r : ℚ} (hx : v.x.Is p) (hy : v.y.Is q) (hz : v.z.Is r) :
    (V3.dot v v).dbl.NotNeg :=
  ((mul_self_notNeg hx).add (mul_self_notNeg hy)).add (mul_self_notNeg hz)

theorem isZero_of_is {x : F64 L} (h : x.Is 0) : IsZero x := by
  obtain ⟨s, a, h1, h2, h3⟩ := h
  have ha : a = 0 := by
    unfold Dbl.val at h2
    split_ifs at h2 <;> linarith
  exact ⟨s, by rw [h1, ha]⟩

theorem IsZero.is {x : F64 L} (h : IsZero x) : x.Is 0 := by
  obtain ⟨s, hs⟩ := h
  exact ⟨s, 0, hs, Dbl.val_zero s, le_rfl⟩

theorem norm_zero {v : V3 (F64 L)} (h : ZeroV v) : v.norm.Is 0 := by
  obtain ⟨hx, hy, hz⟩ := h
  have h0 : IsZero (V3.dot v v) :=
    ((hx.mul_right hx.is).add (hy.mul_right hy.is)).add (hz.mul_right hz.is)
  obtain ⟨s, hs⟩ := h0
  refine ⟨s, 0, ?_, Dbl.val_zero s, le_rfl⟩
  show Dbl.sqrt (V3.dot v v).dbl = _
  rw [hs]
  simp [Dbl.sqrt]

theorem is_eq {x y : F64 L} {p q : ℚ} (hx : x.Is p) (hy : y.Is q) : Flt.eq x y = decide (p = q) := by
  obtain ⟨s, a, h1, rfl, _⟩ := hx
  obtain ⟨t, b, h3, rfl, _⟩ := hy
  show x.dbl.eq y.dbl = _
  rw [h1, h3]; rfl

/-! ## pi -/

/-- the value of `f64::consts::PI` -/
def piQ : ℚ := 884279719003555 / 281474976710656

theorem pi_is : (Flt.pi : F64 L).Is piQ := ⟨false, piQ, rfl, rfl, by unfold piQ; norm_num⟩

theorem piQ_near : |(piQ : ℝ) - Real.pi| ≤ 1.3e-16 := by
  have h1 := Real.pi_gt_d20
  have h2 := Real.pi_lt_d20
  have h3 : (piQ : ℝ) = 884279719003555 / 281474976710656 := by unfold piQ; norm_num
  rw [h3, abs_le]
  norm_num at *
  constructor <;> linarith

theorem pi_near : Near (Flt.pi : F64 L) Real.pi 1.3e-16 := ⟨piQ, pi_is, piQ_near⟩

theorem piQ_isMag : Dbl.IsMag piQ :=
  ⟨884279719003555, -48, by norm_num, by norm_num, by norm_num, by unfold piQ; norm_num⟩

theorem pi_sub_zero {x : F64 L} (hx : x.Is 0) : (Flt.pi - x : F64 L).Is piQ := by
  obtain ⟨s, hs⟩ := isZero_of_is hx
  obtain ⟨u, h1, h2⟩ := Dbl.round_isMag (s := (false && !s)) (t := false) piQ_isMag
  refine ⟨u, piQ, ?_, by rw [h2]; rfl, by unfold piQ; norm_num⟩
  show Dbl.add F64.piDbl (Dbl.neg x.dbl) = _
  rw [hs]
  show Dbl.round (false && !s) (Dbl.val false _ + Dbl.val (!s) 0) = _
  rw [Dbl.val_zero, add_zero]
  exact h1

theorem pi_sub_pi : (Flt.pi - Flt.pi : F64 L).Is 0 := by
  refine ⟨false, 0, ?_, rfl, le_rfl⟩
  show Dbl.add F64.piDbl (Dbl.neg F64.piDbl) = _
  decide +kernel

/-- a double below 1 is below 1 by at least `2^-53` -/
theorem isMag_lt_one {a : ℚ} (h : Dbl.IsMag a) (h1 : a < 1) : a ≤ 1 - 2 ^ (-53 : ℤ) := by
  have hg : Dbl.OnGrid (1 - 2 ^ (-53 : ℤ)) := ⟨2 ^ 53 - 1, -53, by norm_num, by norm_num, by norm_num⟩
  obtain ⟨m, e, hm, _, _, rfl⟩ := h
  rcases lt_or_ge e (-53) with he | he
  · have h2 : (2 : ℚ) ^ e ≤ 2 ^ (-54 : ℤ) := zpow_le_zpow_right₀ (by norm_num) (by omega)
    have h3 : (m : ℚ) ≤ 2 ^ 53 := by exact_mod_cast hm.le
    calc (m : ℚ) * 2 ^ e ≤ 2 ^ 53 * 2 ^ (-54 : ℤ) := mul_le_mul h3 h2 (by positivity) (by positivity)
      _ ≤ _ := by norm_num
  · obtain ⟨k, hk⟩ := Int.eq_ofNat_of_zero_le (show 0 ≤ e + 53 by omega)
    have he' : e = (k : ℤ) - 53 := by omega
    have h53 : (0 : ℚ) < 2 ^ (-53 : ℤ) := by positivity
    have h2 : (m : ℚ) * 2 ^ e = ((m * 2 ^ k : ℕ) : ℚ) * 2 ^ (-53 : ℤ) := by
      rw [he', zpow_sub₀ (by norm_num)]
      push_cast
      rw [zpow_natCast, zpow_neg]
      ring
    rw [h2] at h1 ⊢
    have h3 : ((m * 2 ^ k : ℕ) : ℚ) < ((2 ^ 53 : ℕ) : ℚ) := by
      have : (1 : ℚ) = ((2 ^ 53 : ℕ) : ℚ) * 2 ^ (-53 : ℤ) := by norm_num
      rw [this] at h1
      exact lt_of_mul_lt_mul_right h1 h53.le
    have h4 : m * 2 ^ k ≤ 2 ^ 53 - 1 := by
      have : m * 2 ^ k < 2 ^ 53 := by exact_mod_cast h3
      omega
    have h5 : ((m * 2 ^ k : ℕ) : ℚ) ≤ ((2 ^ 53 - 1 : ℕ) : ℚ) := by exact_mod_cast h4
    calc ((m * 2 ^ k : ℕ) : ℚ) * 2 ^ (-53 : ℤ) ≤ ((2 ^ 53 - 1 : ℕ) : ℚ) * 2 ^ (-53 : ℤ) :=
          mul_le_mul_of_nonneg_right h5 h53.le
      _ = _ := by norm_num

theorem is_isMag {x : F64 L} {q : ℚ} (hx : x.Is q) (hd : x.dbl.IsDouble) : Dbl.IsMag |q| := by
  obtain ⟨s, a, h1, rfl, h3⟩ := hx
  rw [h1] at hd
  rw [Dbl.val_abs s h3]
  exact hd

/-! ## the angle between the aerodynamic force and the thrust -/

/-- The computed angle: that of opposite or parallel vectors, or an arc cosine. -/
theorem angle_cases (hL : TrigLibrary L) {v w : V3 (F64 L)} {f T : V3 ℝ} (hv : NearV v f 0) (hw : NearV w T 0)
    (hf1 : 1e-10 ≤ rnorm f) (hf2 : rnorm f ≤ 1e20) (hT1 : 1e-10 ≤ rnorm T) (hT2 : rnorm T ≤ 1e20) :
    ((V3.angle v w).Is 0 ∧ 1 - 3e-14 ≤ rdot f T / (rnorm f * rnorm T)) ∨
    (V3.angle v w = Flt.pi ∧ rdot f T / (rnorm f * rnorm T) ≤ -1 + 3e-14) ∨
    ∃ c : ℝ, |c - rdot f T / (rnorm f * rnorm T)| ≤ 3e-14 ∧ |c| ≤ 1 - 1e-16 ∧
      Near (V3.angle v w) (Real.arccos c) 1e-15 := by
  set b := rnorm f with hb
  set t := rnorm T with ht
  have hb0 : 0 < b := lt_of_lt_of_le (by norm_num) hf1
  have ht0 : 0 < t := lt_of_lt_of_le (by norm_num) hT1
  have h1 : (1e-20 : ℝ) ≤ b * t := by
    calc (1e-20 : ℝ) = 1e-10 * 1e-10 := by norm_num
      _ ≤ _ := mul_le_mul hf1 hT1 (by norm_num) hb0.le
  have h2 : b * t ≤ 1e40 := by
    calc b * t ≤ 1e20 * 1e20 := mul_le_mul hf2 hT2 ht0.le (by norm_num)
      _ = _ := by norm_num
  have hbt : 0 < b * t := by positivity
  have hn1 := norm_rel hv hf1 (hf2.trans (by norm_num))
  have hn2 := norm_rel hw hT1 (hT2.trans (by norm_num))
  rw [← hb] at hn1
  rw [← ht] at hn2
  have hd := dot_near hv hw le_rfl le_rfl h1 (h2.trans (by norm_num))
  rw [← hb, ← ht] at hd
  have hab : |b| ≤ b := (abs_of_pos hb0).le
  have hat : |t| ≤ t := (abs_of_pos ht0).le
  have habt : |b * t| = b * t := abs_of_pos hbt
  have hm : Near (v.norm * w.norm) (b * t) (4.2e-15 * (b * t)) := by
    refine hn1.mul hn2 hab hat habt.le ?_ ?_
    · rw [show b * (2e-15 * t) + t * (2e-15 * b) + 2e-15 * b * (2e-15 * t) =
        (4e-15 + 4e-30) * (b * t) by ring]
      norm_num at *
      linarith
    · rw [show b * (2e-15 * t) + t * (2e-15 * b) + 2e-15 * b * (2e-15 * t) =
        (4e-15 + 4e-30) * (b * t) by ring]
      norm_num at *
      linarith
  have hc1 : |rdot f T / (b * t)| ≤ 1 := by
    rw [abs_div, habt, div_le_one hbt]
    exact abs_rdot_le f T
  have hdiv : 2 * (1.1e-15 * (b * t) + 1 * (4.2e-15 * (b * t))) / (b * t) = 1.06e-14 := by
    field_simp
    norm_num
  have hc := hd.div hm (b := b * t) (M := 1) (e := 3e-14) hbt habt.ge (by norm_num at *; linarith) hc1
    (by rw [hdiv]; norm_num) (by rw [hdiv]; norm_num)
  obtain ⟨p1, hp1, hp1'⟩ := hn1
  obtain ⟨p2, hp2, hp2'⟩ := hn2
  have ne1 : p1 ≠ 0 := by
    rintro rfl
    rw [abs_le] at hp1'
    norm_num at *
    linarith
  have ne2 : p2 ≠ 0 := by
    rintro rfl
    rw [abs_le] at hp2'
    norm_num at *
    linarith
  have hang : V3.angle v w = (if Flt.gt (V3.dot v w / (v.norm * w.norm)) 1 then 0
      else if Flt.lt (V3.dot v w / (v.norm * w.norm)) (-1) then Flt.pi
      else Flt.acos (V3.dot v w / (v.norm * w.norm))) := by
    unfold V3.angle
    simp only [is_eq hp1 is_zero, is_eq hp2 is_zero, ne1, ne2, decide_false, Bool.or_self, Bool.false_eq_true,
      if_false]
  rw [hang]
  obtain ⟨c, hcis, hcn⟩ := hc
  rw [abs_le] at hcn
  unfold Flt.gt
  rw [is_lt is_one hcis, is_lt hcis (is_neg is_one)]
  by_cases g1 : 1 < c
  · rw [if_pos (by simpa using g1)]
    left
    refine ⟨is_zero, ?_⟩
    have : (1 : ℝ) < c := by exact_mod_cast g1
    linarith
  rw [if_neg (by simpa using g1)]
  by_cases g2 : c < -1
  · rw [if_pos (by simpa using g2)]
    right; left
    refine ⟨rfl, ?_⟩
    have : (c : ℝ) < -1 := by exact_mod_cast g2
    linarith
  rw [if_neg (by simpa using g2)]
  rcases eq_or_lt_of_le (not_lt.1 g1) with e1 | l1
  · left
    rw [e1] at hcis hcn
    refine ⟨hL.acos_one _ hcis, ?_⟩
    push_cast at hcn
    linarith
  rcases eq_or_lt_of_le (not_lt.1 g2) with e2 | l2
  · right; left
    rw [← e2] at hcis hcn
    refine ⟨hL.acos_neg_one _ hcis, ?_⟩
    push_cast at hcn
    linarith
  right; right
  have habs : |c| < 1 := abs_lt.2 ⟨l2, l1⟩
  have hmag := isMag_lt_one (is_isMag hcis (Dbl.div_isDouble _ _)) habs
  obtain ⟨r, hr, hr'⟩ := hL.acos _ c hcis habs.le
  refine ⟨c, abs_le.2 hcn, ?_, r, hr, hr'⟩
  have h3 : ((|c| : ℚ) : ℝ) ≤ ((1 - 2 ^ (-53 : ℤ) : ℚ) : ℝ) := by exact_mod_cast hmag
  push_cast at h3
  refine h3.trans ?_
  norm_num

/-! ## the third side of the triangle -/

theorem is_bound {x : F64 L} {q : ℚ} {ξ e : ℝ} (hx : x.Is q) (h : Near x ξ e) : |(q : ℝ) - ξ| ≤ e := by
  obtain ⟨r, hr, hr'⟩ := h
  rwa [hx.unique hr]

theorem sin_piQ : Real.sin piQ ≤ 1.3e-16 := by
  have h := sin_near (piQ : ℝ) Real.pi
  rw [Real.sin_pi, sub_zero] at h
  exact (le_abs_self _).trans (h.trans piQ_near)

/-- The third side, at an angle that is neither 0 nor 180 degrees. -/
theorem ssa_general (hL : TrigLibrary L) {A' B' x : F64 L} {a b : ℝ} (hA : Near A' a (2e-16 * a))
    (hB : Near B' b (2e-15 * b)) (hb1 : 1e-10 ≤ b) (hba : b ≤ (1 - 1e-9) * a) (ha2 : a ≤ 1e20) {α : ℚ}
    (hα : x.Is α) (hα0 : 0 ≤ (α : ℝ)) (hα3' : (α : ℝ) ≤ 3.2) (hs : 0.9e-8 ≤ Real.sin α) :
    ∃ (X : F64 L) (ξ β : ℝ), sideSideAngle A' B' x = some X ∧ Reads X ξ ∧
      |Real.sin β - Real.sin α * (b / a)| ≤ 1.5e-14 ∧ -1e-14 ≤ Real.cos β ∧
      |ξ - a * Real.sin (α + β) / Real.sin α| ≤ 2e-6 * a := by
  have hα3 : |(α : ℝ)| ≤ 3.2 := by rwa [abs_of_nonneg hα0]
  have hb0 : 0 < b := lt_of_lt_of_le (by norm_num) hb1
  have hba' : b ≤ a := by
    by_contra h
    have h := not_le.1 h
    norm_num at *
    linarith
  have ha0 : 0 < a := lt_of_lt_of_le hb0 hba'
  have ha1 : 1e-10 ≤ a := hb1.trans hba'
  obtain ⟨qa, hqa, hqa'⟩ := id hA
  obtain ⟨qb, hqb, hqb'⟩ := id hB
  have hltq : (qb : ℝ) < qa := by
    rw [abs_le] at hqa' hqb'
    have h1 := hqa'.1
    have h2 := hqb'.2
    clear hqa' hqb'
    generalize (qa : ℝ) = y at *
    generalize (qb : ℝ) = z at *
    norm_num at *
    linarith
  have hlt : qb < qa := by exact_mod_cast hltq
  -- the branches that are not taken
  have n1 : Flt.eq x 0 = false := by
    rw [is_eq hα is_zero]
    simp only [decide_eq_false_iff_not]
    rintro rfl
    simp only [Rat.cast_zero, Real.sin_zero] at hs
    norm_num at hs
  have n2 : Flt.eq x Flt.pi = false := by
    rw [is_eq hα pi_is]
    simp only [decide_eq_false_iff_not]
    rintro rfl
    have := hs.trans sin_piQ
    norm_num at this
  have n4 : Flt.gt B' A' = false := by
    unfold Flt.gt
    rw [is_lt hqa hqb]
    simpa using hlt.le
  -- the sine of the angle
  have hα6 : |α| ≤ 6 := by
    have : ((|α| : ℚ) : ℝ) ≤ ((6 : ℚ) : ℝ) := by
      push_cast
      exact hα3.trans (by norm_num)
    exact_mod_cast this
  obtain ⟨qs, hqs, hqs1, hqs2⟩ := hL.sin x α hα hα6
  set σ := Real.sin α with hσ
  have hσ1 : |σ| ≤ 1 := Real.abs_sin_le_one _
  have hσ0 : 0 < σ := lt_of_lt_of_le (by norm_num) hs
  have nsin : Near (Flt.sin x) σ 1e-15 := ⟨qs, hqs, hqs2⟩
  have habs : |b| ≤ b := (abs_of_pos hb0).le
  have hσb : |σ * b| ≤ b := by
    rw [abs_mul]
    calc |σ| * |b| ≤ 1 * b := mul_le_mul hσ1 habs (abs_nonneg _) (by norm_num)
      _ = b := one_mul b
  have hp : Near (Flt.sin x * B') (σ * b) (3.2e-15 * b) := by
    refine nsin.mul hB hσ1 habs hσb ?_ ?_
    · norm_num at *
      linarith
    · norm_num at *
      linarith
  obtain ⟨qp, hqp, hqp'⟩ := id hp
  have n3 : Flt.gt (Flt.sin x * B') A' = false := by
    unfold Flt.gt
    rw [is_lt hqa hqp]
    simp only [decide_eq_false_iff_not, not_lt]
    have : (qp : ℝ) ≤ qa := by
      rw [abs_le] at hqa' hqp' hσb
      have h1 := hqa'.1
      have h2 := hqp'.2
      have h3 := hσb.2
      clear hqa' hqp' hσb
      generalize (qa : ℝ) = y at *
      generalize (qp : ℝ) = z at *
      norm_num at *
      linarith
    exact_mod_cast this
  -- the arc sine
  have haa : a ≤ |a| := le_abs_self a
  have hM : |σ * b / a| ≤ 1 := by
    rw [abs_div, abs_of_pos ha0, div_le_one ha0]
    exact hσb.trans hba'
  have hw : Near (Flt.sin x * B' / A') (σ * b / a) 7e-15 := by
    have e : 2 * (3.2e-15 * b + 1 * (2e-16 * a)) / a ≤ 6.8e-15 := by
      rw [div_le_iff₀ ha0]
      norm_num at *
      linarith
    refine hp.div hA (b := a) (M := 1) ha0 haa (by norm_num at *; linarith) hM ?_ ?_
    · norm_num at *
      linarith
    · norm_num at *
      linarith
  obtain ⟨qw, hqw, hqw'⟩ := hw
  have hσba : |σ * b / a| ≤ 1 - 1e-9 := by
    rw [abs_div, abs_of_pos ha0, div_le_iff₀ ha0]
    exact hσb.trans hba
  have hqw1 : |qw| ≤ 1 := by
    have : ((|qw| : ℚ) : ℝ) ≤ ((1 : ℚ) : ℝ) := by
      push_cast
      refine (Near.big hqw' hσba).trans ?_
      norm_num
    exact_mod_cast this
  obtain ⟨β, hβ, hβ'⟩ := hL.asin _ qw hqw hqw1
  have hqw1' : |(qw : ℝ)| ≤ 1 := by exact_mod_cast hqw1
  rw [abs_le] at hqw1'
  have hsβ : |Real.sin β - qw| ≤ 1e-15 := by
    have := sin_near (β : ℝ) (Real.arcsin qw)
    rw [Real.sin_arcsin hqw1'.1 hqw1'.2] at this
    exact this.trans hβ'
  have hcβ : -1e-15 ≤ Real.cos β := by
    have h1 := cos_near (β : ℝ) (Real.arcsin qw)
    have h2 := Real.cos_arcsin_nonneg (qw : ℝ)
    have h3 := abs_le.1 (h1.trans hβ')
    linarith [h3.1]
  have hβb : |(β : ℝ)| ≤ 1.58 := by
    have h1 := Real.arcsin_le_pi_div_two (qw : ℝ)
    have h2 := Real.neg_pi_div_two_le_arcsin (qw : ℝ)
    have h3 := Real.pi_lt_d2
    rw [abs_le] at hβ' ⊢
    norm_num at *
    constructor <;> linarith
  -- the third angle
  have hπ1 := Real.pi_lt_d2
  have hπ2 := Real.pi_gt_d2
  have hπ3 := Real.pi_pos
  have hb1' := abs_le.1 hβb
  have ha1' := abs_le.1 hα3
  have nβ : Near (Flt.asin (Flt.sin x * B' / A')) (β : ℝ) 0 := Near.of_is hβ
  have g1 : Near (Flt.pi - Flt.asin (Flt.sin x * B' / A')) (Real.pi - β) 8e-16 :=
    pi_near.sub nβ (M := 5) (by rw [abs_le]; norm_num at *; constructor <;> linarith) (by norm_num) (by norm_num)
  have g2 : Near (Flt.pi - Flt.asin (Flt.sin x * B' / A') - x) (Real.pi - β - α) 2e-15 :=
    g1.sub (Near.of_is hα) (M := 9) (by rw [abs_le]; norm_num at *; constructor <;> linarith) (by norm_num)
      (by norm_num)
  obtain ⟨γ, hγ, hγ'⟩ := g2
  have hγ6 : |γ| ≤ 6 := by
    have : ((|γ| : ℚ) : ℝ) ≤ ((6 : ℚ) : ℝ) := by
      push_cast
      refine (Near.big hγ' (M := 5) ?_).trans (by norm_num)
      have h5 := hb1'.1
      have h6 := hb1'.2
      rw [abs_le]
      constructor <;> linarith
    exact_mod_cast this
  obtain ⟨qg, hqg, hqg1, hqg2⟩ := hL.sin _ γ hγ hγ6
  have hsγ : Near (Flt.sin (Flt.pi - Flt.asin (Flt.sin x * B' / A') - x)) (Real.sin (α + β)) 3e-15 := by
    refine ⟨qg, hqg, ?_⟩
    have h1 := (sin_near (γ : ℝ) (Real.pi - β - α)).trans hγ'
    rw [show Real.pi - β - α = Real.pi - (α + β) by ring, Real.sin_pi_sub] at h1
    have h2 := abs_add_le ((qg : ℝ) - Real.sin γ) (Real.sin γ - Real.sin (α + β))
    rw [sub_add_sub_cancel] at h2
    refine h2.trans ((add_le_add hqg2 h1).trans (by norm_num))
  have hsum1 : |Real.sin (α + β)| ≤ 1 := Real.abs_sin_le_one _
  have haa' : |a| ≤ a := (abs_of_pos ha0).le
  have hnum : Near (A' * Flt.sin (Flt.pi - Flt.asin (Flt.sin x * B' / A') - x)) (a * Real.sin (α + β))
      (3.4e-15 * a) := by
    refine hA.mul hsγ haa' hsum1 (M := a) ?_ ?_ ?_
    · rw [abs_mul]
      calc |a| * |Real.sin (α + β)| ≤ a * 1 := mul_le_mul haa' hsum1 (abs_nonneg _) ha0.le
        _ = a := mul_one a
    · norm_num at *
      linarith
    · norm_num at *
      linarith
  have hba1 : 0 ≤ b / a ∧ b / a ≤ 1 := ⟨by positivity, (div_le_one ha0).2 hba'⟩
  have hsβ2 : |Real.sin β - σ * (b / a)| ≤ 8e-15 := by
    have h2 := abs_add_le (Real.sin β - (qw : ℝ)) (qw - σ * b / a)
    rw [sub_add_sub_cancel, mul_div_assoc] at h2
    rw [mul_div_assoc] at hqw'
    refine h2.trans ((add_le_add hsβ hqw').trans (by norm_num))
  -- the size of the exact third side
  have hX : |a * Real.sin (α + β) / σ| ≤ 2.1 * a := by
    rw [Real.sin_add, ← hσ, show a * (σ * Real.cos β + Real.cos α * Real.sin β) / σ =
      a * (Real.cos β + Real.cos α * (Real.sin β / σ)) by field_simp, abs_mul, abs_of_pos ha0, mul_comm]
    refine mul_le_mul_of_nonneg_right ?_ ha0.le
    have h1 : |Real.sin β / σ| ≤ 1.01 := by
      rw [abs_div, abs_of_pos hσ0, div_le_iff₀ hσ0]
      have h3 := abs_add_le (Real.sin β - σ * (b / a)) (σ * (b / a))
      rw [sub_add_cancel, abs_of_nonneg (mul_nonneg hσ0.le hba1.1)] at h3
      have h4 : σ * (b / a) ≤ σ * 1 := mul_le_mul_of_nonneg_left hba1.2 hσ0.le
      refine h3.trans ((add_le_add hsβ2 h4).trans ?_)
      norm_num at *
      linarith
    have h2 := Real.abs_cos_le_one (β : ℝ)
    have h3 := Real.abs_cos_le_one (α : ℝ)
    refine (abs_add_le _ _).trans ?_
    rw [abs_mul]
    have h4 : |Real.cos α| * |Real.sin β / σ| ≤ 1 * 1.01 := mul_le_mul h3 h1 (abs_nonneg _) (by norm_num)
    norm_num at *
    linarith
  have hXn : Near (A' * Flt.sin (Flt.pi - Flt.asin (Flt.sin x * B' / A') - x) / Flt.sin x)
      (a * Real.sin (α + β) / σ) (2e-6 * a) := by
    have e : 2 * (3.4e-15 * a + 2.1 * a * 1e-15) / 0.9e-8 ≤ 1.3e-6 * a := by
      rw [div_le_iff₀ (by norm_num)]
      norm_num at *
      linarith
    refine hnum.div nsin (b := 0.9e-8) (M := 2.1 * a) (by norm_num) (by rwa [abs_of_pos hσ0]) (by norm_num) hX
      ?_ ?_
    · norm_num at *
      linarith
    · norm_num at *
      linarith
  obtain ⟨ξ, hξ, hξ'⟩ := hXn
  refine ⟨_, ξ, β, ?_, ⟨ξ, hξ, rfl⟩, hsβ2.trans (by norm_num), le_trans (by norm_num) hcβ, hξ'⟩
  unfold sideSideAngle
  simp only [n1, n2, n3, n4, Bool.false_eq_true, if_false]

end Post
