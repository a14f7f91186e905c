import Verif.Lemmas.AutoThrottleF64
import Verif.Lemmas.System
/-! # The acceleration limit in double precision (C85) -/

namespace Post
open Spec Flt F64
variable {L : Libm}

/-- C85 (throttle).  In double precision, if the aerodynamic force `f` alone is within the force `a` that the
limit allows, the chosen throttle `k` is a number between 0 and 1, the total force with it is at most 1.00002
times the allowed force, and it is at least 0.99 times the allowed force unless the throttle is 1. -/
theorem C85_throttle (hL : TrigLibrary L) {V : Vehicle (F64 L)} {limit mass pressure : F64 L} {aero : V3 (F64 L)}
    {f T : V3 ℝ} {A m : ℝ} (hA : Reads limit A) (hA1 : 1e-6 ≤ A) (hA2 : A ≤ 1e10) (hm : Reads mass m)
    (hm1 : 1e-6 ≤ m) (hm2 : m ≤ 1e10) (hf : ReadsV aero f) (hf0 : rnorm f = 0 ∨ 1e-10 ≤ rnorm f)
    (hfA : rnorm f ≤ (1 - 1e-9) * (A * m)) (hT : ReadsV (V.thrustForce 1 pressure) T) (hT1 : 1e-6 ≤ rnorm T)
    (hT2 : rnorm T ≤ 1e12) :
    ∃ k, Reads (V.autoThrottle limit mass pressure aero) k ∧ 0 ≤ k ∧ k ≤ 1 ∧
      rnorm (radd f (rscale k T)) ≤ 1.00002 * (A * m) ∧
      (k = 1 ∨ 0.99 * (A * m) ≤ rnorm (radd f (rscale k T))) := by
  have hA0 : 0 < A := lt_of_lt_of_le (by norm_num) hA1
  have hm0 : 0 < m := lt_of_lt_of_le (by norm_num) hm1
  have ha1 : 1e-12 ≤ A * m := by
    calc (1e-12 : ℝ) = 1e-6 * 1e-6 := by norm_num
      _ ≤ _ := mul_le_mul hA1 hm1 (by norm_num) hA0.le
  have ha2 : A * m ≤ 1e20 := by
    calc A * m ≤ 1e10 * 1e10 := mul_le_mul hA2 hm2 hm0.le (by norm_num)
      _ = _ := by norm_num
  have ha0 : 0 < A * m := by positivity
  have hAm : Near (limit * mass) (A * m) (2e-16 * (A * m)) := by
    refine (reads_near.1 hA).mul (reads_near.1 hm) (A := A) (B := m) (M := A * m) (abs_of_pos hA0).le
      (abs_of_pos hm0).le (abs_of_pos ha0).le ?_ ?_
    · linarith
    · linarith
  obtain ⟨k, k1, k2, k3, _, k5, k6⟩ := throttle_near (V := V) (P := pressure) hL (readsV_near hf) (readsV_near hT)
    hAm ha1 ha2 hf0 hfA hT1 hT2
  have hg0 := rnorm_nonneg (radd f (rscale k T))
  refine ⟨k, k1, k2, k3, ?_, k6.imp_right fun h => ?_⟩
  · refine abs_le_of_sq_le_sq' (k5.trans ?_) (by positivity) |>.2
    have : 0 ≤ (A * m) ^ 2 := sq_nonneg _
    rw [mul_pow]
    norm_num
    linarith
  · have h1 : 0.991 * (A * m) ≤ rnorm (radd f (rscale k T)) := abs_le_of_sq_le_sq' h hg0 |>.2
    linarith

/-- C85.  In double precision, if the aerodynamic force alone is within the acceleration limit `A`, the equations
of motion do not fail; the throttle is between 0 and 1, the sensed acceleration is at most 1.0001 times the
limit, and it is at least 0.99 times the limit unless the engines run at full thrust. -/
theorem C85_limit_kept (hL : TrigLibrary L) {p : Phase (F64 L)} {s : State (F64 L)} {aero : V3 (F64 L)} {f T : V3 ℝ}
    {A m : ℝ} (hA : Reads p.maxAcceleration A) (hA1 : 1e-6 ≤ A) (hA2 : A ≤ 1e10)
    (hm : Reads s.mass m) (hm1 : 1e-6 ≤ m) (hm2 : m ≤ 1e10)
    (haero : p.vehicle.aeroForce (p.systemPre s) = .ok aero) (hf : ReadsV aero f)
    (hf0 : rnorm f = 0 ∨ 1e-10 ≤ rnorm f) (hfA : rnorm f ≤ (1 - 1e-9) * (A * m))
    (hT : ReadsV (p.vehicle.thrustForce 1 (p.systemPre s).pressure) T) (hT1 : 1e-6 ≤ rnorm T)
    (hT2 : rnorm T ≤ 1e12) :
    ∃ d k acc, p.system s = .ok d ∧ Reads d.throttle k ∧ 0 ≤ k ∧ k ≤ 1 ∧
      ReadsV d.vehicleAccelerationBody acc ∧ rnorm acc ≤ 1.0001 * A ∧ (k = 1 ∨ 0.99 * A ≤ rnorm acc) := by
  have hA0 : 0 < A := lt_of_lt_of_le (by norm_num) hA1
  have hm0 : 0 < m := lt_of_lt_of_le (by norm_num) hm1
  have ha1 : 1e-12 ≤ A * m := by
    calc (1e-12 : ℝ) = 1e-6 * 1e-6 := by norm_num
      _ ≤ _ := mul_le_mul hA1 hm1 (by norm_num) hA0.le
  have ha2 : A * m ≤ 1e20 := by
    calc A * m ≤ 1e10 * 1e10 := mul_le_mul hA2 hm2 hm0.le (by norm_num)
      _ = _ := by norm_num
  have ha0 : 0 < A * m := by positivity
  have nA := reads_near.1 hA
  have nm := reads_near.1 hm
  have hv := readsV_near hf
  have hw := readsV_near hT
  have hAm : Near (p.maxAcceleration * s.mass) (A * m) (2e-16 * (A * m)) := by
    refine nA.mul nm (A := A) (B := m) (M := A * m) (abs_of_pos hA0).le (abs_of_pos hm0).le (abs_of_pos ha0).le
      ?_ ?_
    · linarith
    · linarith
  obtain ⟨k, k1, k2, k3, k4, k5, k6⟩ := throttle_near (V := p.vehicle) (P := (p.systemPre s).pressure) hL hv hw hAm
    ha1 ha2 hf0 hfA hT1 hT2
  have hg0 := rnorm_nonneg (radd f (rscale k T))
  have hg : rnorm (radd f (rscale k T)) ≤ 1.00002 * (A * m) := by
    refine abs_le_of_sq_le_sq' (k5.trans ?_) (by positivity) |>.2
    have : 0 ≤ (A * m) ^ 2 := sq_nonneg _
    rw [mul_pow]
    norm_num
    linarith
  set K := p.vehicle.autoThrottle p.maxAcceleration s.mass (p.systemPre s).pressure aero with hKdef
  have hs := sensed_near hv hw (reads_near.1 k1) nm hm0 hA1 ha1 ha2 hA2 k2 k3 k4 (hg.trans (by linarith))
  rw [← thrust_scale] at hs
  set acc' := (aero + p.vehicle.thrustForce K (p.systemPre s).pressure).divS s.mass with hacc'
  obtain ⟨⟨qx, ix, ex⟩, ⟨qy, iy, ey⟩, ⟨qz, iz, ez⟩⟩ := hs
  set g := rscale (1 / m) (radd f (rscale k T)) with hgdef
  have hgn : rnorm g = rnorm (radd f (rscale k T)) / m := by
    rw [hgdef, rnorm_rscale, abs_of_pos (by positivity)]
    ring
  have hgA : rnorm g ≤ 1.00002 * A := by
    rw [hgn, div_le_iff₀ hm0]
    linarith
  set acc : V3 ℝ := ⟨qx, qy, qz⟩ with hacc
  have hdist : rdist acc g ≤ 2e-15 * A := by
    unfold rdist rnorm rsub
    rw [Real.sqrt_le_left (by positivity)]
    have sq : ∀ {z : ℝ}, |z| ≤ 1.1e-15 * A → z ^ 2 ≤ (1.1e-15 * A) ^ 2 := fun h => by
      rw [← sq_abs]
      exact pow_le_pow_left₀ (abs_nonneg _) h 2
    have s1 := sq ex
    have s2 := sq ey
    have s3 := sq ez
    have : 0 ≤ A ^ 2 := sq_nonneg _
    rw [mul_pow] at s1 s2 s3
    rw [mul_pow]
    norm_num at s1 s2 s3 ⊢
    linarith
  have hup := rnorm_triangle acc g
  have hlo := rnorm_triangle g acc
  rw [rdist_comm] at hlo
  have hacc1 : rnorm acc ≤ 1.00003 * A := by linarith
  have haccA : rnorm acc ≤ 1.0001 * A := by linarith
  have hR : ReadsV acc' acc := ⟨⟨qx, ix, rfl⟩, ⟨qy, iy, rfl⟩, ⟨qz, iz, rfl⟩⟩
  -- the check does not fail
  have hcheck : p.exceedsLimit (p.systemForces (p.systemPre s) aero) = false := by
    show (Flt.gt acc'.norm (p.maxAcceleration * 1.001) || isNan K) = false
    rw [Bool.or_eq_false_iff]
    constructor
    · have hAA1 : (1e-20 : ℝ) ≤ 1.00003 * A * (1.00003 * A) := by nlinarith
      have hAA2 : 1.00003 * A * (1.00003 * A) ≤ 1e50 := by nlinarith
      have hd := dot_near (readsV_near hR) (readsV_near hR) hacc1 hacc1 hAA1 hAA2
      obtain ⟨pd, hpd, hpd'⟩ := hd
      have hpd0 := notNeg_nonneg hpd (dot_self_notNeg ix iy iz)
      obtain ⟨r, hr, hr0, hr'⟩ := sqrt_is hpd hpd0
      have hlim : Near (p.maxAcceleration * 1.001) (A * 1.001) (1e-15 * A) := by
        have h1 : Near (1.001 : F64 L) 1.001 2e-16 :=
          Near.lit 1001 true 3 (by norm_num) (by rw [abs_of_pos] <;> norm_num) (by rw [abs_of_pos] <;> norm_num)
        refine nA.mul h1 (A := A) (B := 1.001) (M := A * 1.001) (abs_of_pos hA0).le (by rw [abs_of_pos]; norm_num)
          (by rw [abs_of_pos (by positivity)]) ?_ ?_
        · linarith
        · linarith
      obtain ⟨l, hl, hl'⟩ := hlim
      unfold Flt.gt
      rw [show acc'.norm = Flt.sqrt (V3.dot acc' acc') from rfl, is_lt hl hr]
      simp only [decide_eq_false_iff_not, not_lt]
      have h1 : Real.sqrt pd ≤ 1.00004 * A := by
        rw [Real.sqrt_le_left (by positivity)]
        rw [rdot_self] at hpd'
        have h2 := (abs_le.1 hpd').2
        have h3 : rnorm acc ^ 2 ≤ (1.00003 * A) ^ 2 := pow_le_pow_left₀ (rnorm_nonneg _) hacc1 2
        have h4 : 0 < A ^ 2 := by positivity
        have e1 : 1.00003 * A * (1.00003 * A) = 1.0000600009 * A ^ 2 := by ring
        have e2 : (1.00003 * A) ^ 2 = 1.0000600009 * A ^ 2 := by ring
        have e3 : (1.00004 * A) ^ 2 = 1.0000800016 * A ^ 2 := by ring
        rw [e1] at h2
        rw [e2] at h3
        rw [e3]
        linarith
      have h5 : (2 : ℝ) ^ (-53 : ℤ) * Real.sqrt pd ≤ 1e-15 * (1.00004 * A) :=
        mul_le_mul (by norm_num) h1 (Real.sqrt_nonneg _) (by norm_num)
      have h6 := (abs_le.1 (hr'.trans h5)).2
      have h7 := (abs_le.1 hl').1
      have : (r : ℝ) ≤ l := by
        clear hr' h5
        linarith
      exact_mod_cast this
    · obtain ⟨q, hq, _⟩ := k1
      show (!Flt.eq K K) = false
      rw [is_eq hq hq]
      simp
  refine ⟨p.systemAcceleration (p.systemForces (p.systemPre s) aero), k, acc, ?_, k1, k2, k3, hR, haccA, ?_⟩
  · unfold Phase.system
    simp only [haero, bind, Except.bind, hcheck, Bool.false_eq_true, if_false]
  · rcases k6 with h | h
    · exact .inl h
    · right
      have h1 : 0.991 * (A * m) ≤ rnorm (radd f (rscale k T)) := abs_le_of_sq_le_sq' h hg0 |>.2
      have h2 : 0.991 * A ≤ rnorm g := by
        rw [hgn, le_div_iff₀ hm0]
        linarith
      linarith

/-! ## without a limit -/

theorem inf_mul_is {x y : F64 L} {q : ℚ} (hx : x.dbl = .inf false) (hy : y.Is q) (hq : 0 < q) :
    (x * y).dbl = .inf false := by
  obtain ⟨s, a, h1, h2, h3⟩ := hy
  show Dbl.mul x.dbl y.dbl = _
  rw [hx, h1]
  have ha : a ≠ 0 := by
    rintro rfl
    rw [Dbl.val_zero] at h2
    exact hq.ne h2
  have hs : s = false := by
    cases s
    · rfl
    · simp only [Dbl.val, if_true] at h2
      linarith
  simp [Dbl.mul, ha, hs]

theorem inf_div_is {x y : F64 L} {q : ℚ} (hx : x.dbl = .inf false) (hy : y.Is q) (hq : 0 < q) :
    (x / y).dbl = .inf false := by
  obtain ⟨s, a, h1, h2, h3⟩ := hy
  show Dbl.div x.dbl y.dbl = _
  rw [hx, h1]
  have hs : s = false := by
    cases s
    · rfl
    · simp only [Dbl.val, if_true] at h2
      linarith
  simp [Dbl.div, hs]

theorem gt_inf {x y : F64 L} (hy : y.dbl = .inf false) : Flt.gt x y = false := by
  show Dbl.lt y.dbl x.dbl = false
  rw [hy]
  cases x.dbl <;> rfl

/-- The third side of a triangle with an infinite side is infinite. -/
theorem ssa_inf (hL : TrigLibrary L) {A' : F64 L} (hA : A'.dbl = .inf false) {v w : V3 (F64 L)} {f T : V3 ℝ}
    (hv : NearV v f 0) (hw : NearV w T 0) (hf : rnorm f = 0 ∨ 1e-10 ≤ rnorm f) (hf2 : rnorm f ≤ 1e20)
    (hT1 : 1e-10 ≤ rnorm T) (hT2 : rnorm T ≤ 1e20) :
    ∃ X : F64 L, sideSideAngle A' v.norm (pi - V3.angle v w) = some X ∧ X.dbl = .inf false := by
  have hn : ∃ q : ℚ, v.norm.Is q ∧ |(q : ℝ)| ≤ 1e21 := by
    rcases hf with h0 | h1
    · have hf0' := rnorm_zero_eq h0
      subst hf0'
      refine ⟨0, norm_zero ⟨isZero_of_is (near_zero_is hv.x), isZero_of_is (near_zero_is hv.y),
        isZero_of_is (near_zero_is hv.z)⟩, by norm_num⟩
    · obtain ⟨q, hq, hq'⟩ := norm_rel hv h1 (hf2.trans (by norm_num))
      have := rnorm_nonneg f
      refine ⟨q, hq, (Near.big hq' (M := 1e20) (by rwa [abs_of_nonneg this])).trans (by linarith)⟩
  obtain ⟨qb, hqb, hqb1⟩ := hn
  have hpi0 : piQ ≠ 0 := by unfold piQ; norm_num
  have hα : (pi - V3.angle v w : F64 L).Is piQ ∨ (pi - V3.angle v w : F64 L).Is 0 ∨
      ∃ α : ℚ, (pi - V3.angle v w : F64 L).Is α ∧ 0 ≤ (α : ℝ) ∧ (α : ℝ) ≤ 3.2 ∧ 0.9e-8 ≤ Real.sin α := by
    rcases hf with h0 | h1
    · left
      have hf0' := rnorm_zero_eq h0
      subst hf0'
      have hn0 := norm_zero (v := v) ⟨isZero_of_is (near_zero_is hv.x), isZero_of_is (near_zero_is hv.y),
        isZero_of_is (near_zero_is hv.z)⟩
      have hang : V3.angle v w = 0 := by
        unfold V3.angle
        simp [is_eq hn0 is_zero]
      rw [hang]
      exact pi_sub_zero is_zero
    · rcases angle_cases hL hv hw h1 hf2 hT1 hT2 with ⟨hang, _⟩ | ⟨hang, _⟩ | ⟨c', hcc, hc'1, hang⟩
      · exact .inl (pi_sub_zero hang)
      · right; left
        rw [hang]
        exact pi_sub_pi
      · right; right
        set θ := Real.arccos c' with hθ
        have hθ0 : 0 ≤ θ := Real.arccos_nonneg _
        have hθπ : θ ≤ Real.pi := Real.arccos_le_pi _
        have hπ1 := Real.pi_lt_d2
        have hα : Near (pi - V3.angle v w : F64 L) (Real.pi - θ) 2e-15 :=
          pi_near.sub hang (M := 3.2) (by rw [abs_le]; constructor <;> linarith) (by norm_num) (by norm_num)
        obtain ⟨α, hαi, hα'⟩ := hα
        have hsin : 1e-8 ≤ Real.sin (Real.pi - θ) := by
          rw [Real.sin_pi_sub, hθ, Real.sin_arccos]
          refine Real.le_sqrt_of_sq_le ?_
          have h1 : c' ^ 2 ≤ (1 - 1e-16) ^ 2 := by
            rw [← sq_abs]
            exact pow_le_pow_left₀ (abs_nonneg _) hc'1 2
          norm_num at h1 ⊢
          linarith
        have hs1 := abs_le.1 ((sin_near (α : ℝ) (Real.pi - θ)).trans hα')
        have hx0 : 1e-8 ≤ Real.pi - θ := hsin.trans (Real.sin_le (by linarith))
        have hα'' := abs_le.1 hα'
        exact ⟨α, hαi, by linarith [hα''.1], by linarith [hα''.2], by linarith [hs1.1]⟩
  set x := (pi - V3.angle v w : F64 L) with hx
  have hgB : Flt.gt v.norm A' = false := gt_inf hA
  have hadd : (A' + v.norm).dbl = .inf false := by
    obtain ⟨s, b, hb, _, _⟩ := hqb
    show Dbl.add A'.dbl v.norm.dbl = _
    rw [hA, hb]
    rfl
  have hsub : (A' - v.norm).dbl = .inf false := by
    obtain ⟨s, b, hb, _, _⟩ := hqb
    show Dbl.add A'.dbl v.norm.dbl.neg = _
    rw [hA, hb]
    rfl
  unfold sideSideAngle
  rcases hα with hα | hα | ⟨α, hα, hα0, hα3, hs⟩
  · have e1 : Flt.eq x 0 = false := by
      rw [is_eq hα is_zero]
      simpa using hpi0
    have e2 : Flt.eq x pi = true := by
      rw [is_eq hα pi_is]
      simp
    simp only [e1, e2, Bool.false_eq_true, if_false, if_true]
    exact ⟨_, rfl, hsub⟩
  · have e1 : Flt.eq x 0 = true := by
      rw [is_eq hα is_zero]
      simp
    simp only [e1, hgB, Bool.false_eq_true, if_false, if_true]
    exact ⟨_, rfl, hadd⟩
  · have n1 : Flt.eq x 0 = false := by
      rw [is_eq hα is_zero]
      simp only [decide_eq_false_iff_not]
      rintro rfl
      simp only [Rat.cast_zero, Real.sin_zero] at hs
      norm_num at hs
    have n2 : Flt.eq x Flt.pi = false := by
      rw [is_eq hα pi_is]
      simp only [decide_eq_false_iff_not]
      rintro rfl
      have := hs.trans sin_piQ
      norm_num at this
    simp only [n1, n2, gt_inf hA, Bool.false_eq_true, if_false]
    refine ⟨_, rfl, ?_⟩
    have hα6 : |α| ≤ 6 := by
      have : ((|α| : ℚ) : ℝ) ≤ ((6 : ℚ) : ℝ) := by
        push_cast
        rw [abs_of_nonneg hα0]
        linarith
      exact_mod_cast this
    obtain ⟨qs, hqs, hqs1, hqs2⟩ := hL.sin x α hα hα6
    have hqs0 : 0 < qs := by
      have h1 := (abs_le.1 hqs2).1
      have : (0 : ℝ) < qs := by linarith
      exact_mod_cast this
    -- the arc sine of zero
    have hw0 : (Flt.sin x * v.norm / A').Is 0 := by
      have hqsb : |qs * qb| ≤ 2 ^ 200 := by
        have h1 : |(qs : ℝ)| ≤ 1 := by exact_mod_cast hqs1
        refine Near.small (M := 1 * 1e21) ?_ (by norm_num)
        push_cast
        exact mul_abs_le h1 hqb1
      obtain ⟨r, ⟨s, b, hb, _, _⟩, _⟩ := F64.is_mul hqs hqb hqsb
      refine ⟨s != false, 0, ?_, Dbl.val_zero _, le_rfl⟩
      show Dbl.div (Flt.sin x * v.norm).dbl A'.dbl = _
      rw [hb, hA]
      rfl
    obtain ⟨β, hβ, hβ'⟩ := hL.asin _ 0 hw0 (by norm_num)
    rw [Rat.cast_zero, Real.arcsin_zero, sub_zero] at hβ'
    have hπ1 := Real.pi_lt_d2
    have hπ2 := Real.pi_gt_d2
    have hβ2 := abs_le.1 hβ'
    have g1 : Near (Flt.pi - Flt.asin (Flt.sin x * v.norm / A')) (Real.pi - β) 8e-16 :=
      pi_near.sub (Near.of_is hβ) (M := 5) (by rw [abs_le]; constructor <;> linarith [hβ2.1, hβ2.2]) (by norm_num)
        (by norm_num)
    have g2 : Near (Flt.pi - Flt.asin (Flt.sin x * v.norm / A') - x) (Real.pi - β - α) 2e-15 :=
      g1.sub (Near.of_is hα) (M := 9) (by rw [abs_le]; constructor <;> linarith [hβ2.1, hβ2.2]) (by norm_num)
        (by norm_num)
    obtain ⟨γ, hγ, hγ'⟩ := g2
    have hγ6 : |γ| ≤ 6 := by
      have : ((|γ| : ℚ) : ℝ) ≤ ((6 : ℚ) : ℝ) := by
        push_cast
        refine (Near.big hγ' (M := 5) ?_).trans (by norm_num)
        rw [abs_le]
        constructor <;> linarith [hβ2.1, hβ2.2]
      exact_mod_cast this
    obtain ⟨qg, hqg, hqg1, hqg2⟩ := hL.sin _ γ hγ hγ6
    have hqg0 : 0 < qg := by
      have h1 := (sin_near (γ : ℝ) (Real.pi - β - α)).trans hγ'
      have h2 := (sin_near (Real.pi - β - α) (Real.pi - α))
      rw [show Real.pi - β - α - (Real.pi - α) = -β by ring, abs_neg, Real.sin_pi_sub] at h2
      have h3 := (abs_le.1 h1).1
      have h4 := (abs_le.1 (h2.trans hβ')).1
      have h5 := (abs_le.1 hqg2).1
      have : (0 : ℝ) < qg := by linarith
      exact_mod_cast this
    exact inf_div_is (inf_mul_is hA hqg hqg0) hqs hqs0

/-- C85 (no limit).  In double precision, without an acceleration limit the engines run at full thrust and the
equations of motion never fail because of the acceleration. -/
theorem C85_no_limit (hL : TrigLibrary L) {p : Phase (F64 L)} {s : State (F64 L)} {aero : V3 (F64 L)} {f T : V3 ℝ}
    {m : ℝ} (hA : p.maxAcceleration = Flt.inf) (hm : Reads s.mass m) (hm0 : 0 < m)
    (haero : p.vehicle.aeroForce (p.systemPre s) = .ok aero) (hf : ReadsV aero f)
    (hf0 : rnorm f = 0 ∨ 1e-10 ≤ rnorm f) (hf2 : rnorm f ≤ 1e20)
    (hT : ReadsV (p.vehicle.thrustForce 1 (p.systemPre s).pressure) T) (hT1 : 1e-6 ≤ rnorm T)
    (hT2 : rnorm T ≤ 1e12) :
    ∃ d, p.system s = .ok d ∧ d.throttle = 1 := by
  obtain ⟨mq, hmq, rfl⟩ := hm
  have hmq0 : 0 < mq := by exact_mod_cast hm0
  have hinf : p.maxAcceleration.dbl = .inf false := by rw [hA]; rfl
  have hAm : (p.maxAcceleration * s.mass).dbl = .inf false := inf_mul_is hinf hmq hmq0
  have hw := readsV_near hT
  obtain ⟨X, hX, hXinf⟩ := ssa_inf hL hAm (readsV_near hf) hw hf0 hf2 (le_trans (by norm_num) hT1)
    (hT2.trans (by norm_num))
  have ht0 : 0 < rnorm T := lt_of_lt_of_le (by norm_num) hT1
  have hthr : p.vehicle.autoThrottle p.maxAcceleration s.mass (p.systemPre s).pressure aero = 1 := by
    unfold Vehicle.autoThrottle
    simp only [hX]
    split
    · rfl
    · obtain ⟨q, hq, hq'⟩ := norm_rel hw (le_trans (by norm_num) hT1) (hT2.trans (by norm_num))
      have hq0 : 0 < q := by
        have h1 := (abs_le.1 hq').1
        have : (0 : ℝ) < q := by linarith
        exact_mod_cast this
      have hd := inf_div_is hXinf hq hq0
      have e1 : ∀ y : F64 L, y.dbl = .inf false → clamp01 y = 1 := by
        intro y hy
        unfold clamp01
        have e2 : Flt.lt y 0 = false := by
          show Dbl.lt y.dbl (0 : F64 L).dbl = false
          rw [hy, zero_dbl]
          rfl
        have e3 : Flt.gt y 1 = true := by
          show Dbl.lt (1 : F64 L).dbl y.dbl = true
          rw [hy, one_dbl]
          rfl
        simp only [e2, e3, Bool.false_eq_true, if_false, if_true]
      exact e1 _ hd
  have hcheck : p.exceedsLimit (p.systemForces (p.systemPre s) aero) = false := by
    unfold Phase.exceedsLimit
    rw [Bool.or_eq_false_iff]
    constructor
    · obtain ⟨q, hq, hq'⟩ : Near (1.001 : F64 L) 1.001 2e-16 :=
        Near.lit 1001 true 3 (by norm_num) (by rw [abs_of_pos] <;> norm_num) (by rw [abs_of_pos] <;> norm_num)
      have hq0 : 0 < q := by
        have h1 := (abs_le.1 hq').1
        have : (0 : ℝ) < q := by linarith
        exact_mod_cast this
      exact gt_inf (inf_mul_is hinf hq hq0)
    · show isNan (p.vehicle.autoThrottle p.maxAcceleration s.mass (p.systemPre s).pressure aero) = false
      rw [hthr]
      show (!Flt.eq (1 : F64 L) 1) = false
      rw [is_eq is_one is_one]
      simp
  refine ⟨p.systemAcceleration (p.systemForces (p.systemPre s) aero), ?_, hthr⟩
  unfold Phase.system
  simp only [haero, bind, Except.bind, hcheck, Bool.false_eq_true, if_false]

/-! ## a library and an example -/

/-- A real number rounded to a double (via a multiple of `2^-60`). -/
noncomputable def roundReal (x : ℝ) : Dbl := .round false (⌊x * 2 ^ 60⌋ / 2 ^ 60)

theorem floor60 (x : ℝ) : |((⌊x * 2 ^ 60⌋ / 2 ^ 60 : ℚ) : ℝ) - x| ≤ 1e-18 := by
  have h1 : (⌊x * 2 ^ 60⌋ : ℝ) ≤ x * 2 ^ 60 := Int.floor_le _
  have h2 : x * 2 ^ 60 < ⌊x * 2 ^ 60⌋ + 1 := Int.lt_floor_add_one _
  push_cast
  rw [show (⌊x * 2 ^ 60⌋ : ℝ) / 2 ^ 60 - x = (⌊x * 2 ^ 60⌋ - x * 2 ^ 60) / 2 ^ 60 by field_simp, abs_div,
    div_le_iff₀ (by positivity)]
  have h3 : |(⌊x * 2 ^ 60⌋ : ℝ) - x * 2 ^ 60| ≤ 1 := by
    rw [abs_le]
    constructor <;> linarith
  refine h3.trans ?_
  norm_num

theorem roundReal_is {x : ℝ} (hx : |x| ≤ 4) :
    ∃ r, F64.Is (⟨roundReal x⟩ : F64 L) r ∧ |(r : ℝ) - x| ≤ 1e-15 := by
  have h1 := floor60 x
  have h2 : |((⌊x * 2 ^ 60⌋ / 2 ^ 60 : ℚ) : ℝ)| ≤ 4 + 1e-18 := Near.big h1 hx
  obtain ⟨r, h3, h4⟩ := is_round (L := L) (s := false) (Near.small h2 (by norm_num))
  exact (Near.of_round h3 h4 h1 hx (by norm_num) : Near (⟨roundReal x⟩ : F64 L) x 1e-15)

theorem roundReal_one {x : ℝ} (hx : |x| ≤ 1) {r : ℚ} (hr : F64.Is (⟨roundReal x⟩ : F64 L) r) : |r| ≤ 1 := by
  set q : ℚ := ⌊x * 2 ^ 60⌋ / 2 ^ 60 with hq
  have hx' := abs_le.1 hx
  have hq1 : |q| ≤ 1 := by
    have h1 : (⌊x * 2 ^ 60⌋ : ℤ) ≤ 2 ^ 60 := by
      have : (⌊x * 2 ^ 60⌋ : ℝ) ≤ ((2 ^ 60 : ℤ) : ℝ) := by
        push_cast
        refine (Int.floor_le _).trans ?_
        nlinarith [hx'.2]
      exact_mod_cast this
    have h2 : -2 ^ 60 ≤ (⌊x * 2 ^ 60⌋ : ℤ) := by
      rw [Int.le_floor]
      push_cast
      nlinarith [hx'.1]
    have h1' : (⌊x * 2 ^ 60⌋ : ℚ) ≤ 2 ^ 60 := by exact_mod_cast h1
    have h2' : -2 ^ 60 ≤ (⌊x * 2 ^ 60⌋ : ℚ) := by exact_mod_cast h2
    rw [hq, abs_div, abs_of_pos (show (0 : ℚ) < 2 ^ 60 by positivity), div_le_one (by positivity)]
    exact abs_le.2 ⟨h2', h1'⟩
  have hm : Dbl.roundMag |q| ≤ 1 :=
    Dbl.roundMag_le (abs_nonneg q) ⟨1, 0, by norm_num, by norm_num, by norm_num⟩ hq1
  obtain ⟨s, a, h1, rfl, h3⟩ := hr
  have h1' : Dbl.round false q = .fin s a := h1
  rw [Dbl.val_abs s h3]
  unfold Dbl.round at h1'
  split_ifs at h1' with g1 g2
  · injection h1' with _ e
    rw [← e]
    norm_num
  · injection h1' with _ e
    rw [← e]
    exact hm

theorem exists_rat_rel (x : ℝ) : ∃ q : ℚ, |(q : ℝ) - x| ≤ 1e-17 * |x| := by
  rcases eq_or_ne x 0 with rfl | hx
  · exact ⟨0, by simp⟩
  · have h0 : 0 < 1e-17 * |x| := mul_pos (by norm_num) (abs_pos.2 hx)
    obtain ⟨q, h1, h2⟩ := exists_rat_btwn (show x < x + 1e-17 * |x| by linarith)
    exact ⟨q, by rw [abs_le]; constructor <;> linarith⟩

/-- A real number rounded to a double, via a rational number that agrees with it in seventeen digits. -/
noncomputable def roundRel (x : ℝ) : Dbl := .round false (exists_rat_rel x).choose

open Classical in
/-- A library whose trigonometric functions are rounded values of the exact ones. -/
noncomputable def trigLibm : Libm where
  sin d := match d with
    | .fin s a => roundReal (Real.sin (Dbl.val s a : ℚ))
    | _ => .nan
  cos d := match d with
    | .fin s a => roundReal (Real.cos (Dbl.val s a : ℚ))
    | _ => .nan
  tan d := match d with
    | .fin s a => roundRel (Real.tan (Dbl.val s a : ℚ))
    | _ => .nan
  asin d := match d with
    | .fin s a => roundReal (Real.arcsin (Dbl.val s a : ℚ))
    | _ => .nan
  acos d := match d with
    | .fin s a => if Dbl.val s a = -1 then F64.piDbl else roundReal (Real.arccos (Dbl.val s a : ℚ))
    | _ => .nan
  atan d := match d with
    | .fin s a => roundReal (Real.arctan (Dbl.val s a : ℚ))
    | _ => .nan
  exp _ := .nan
  powi _ _ := .nan
  powf _ _ := .nan
  rotFromMatrix m := m

theorem trigLibm_trig : TrigLibrary trigLibm where
  sin := by
    rintro x q ⟨s, a, h1, rfl, _⟩ _
    have e : Flt.sin x = (⟨roundReal (Real.sin (Dbl.val s a : ℚ))⟩ : F64 trigLibm) := by
      show (⟨trigLibm.sin x.dbl⟩ : F64 trigLibm) = _
      rw [h1]
      rfl
    rw [e]
    have hs := Real.abs_sin_le_one (Dbl.val s a : ℚ)
    obtain ⟨r, h2, h3⟩ := roundReal_is (L := trigLibm) (hs.trans (by norm_num))
    exact ⟨r, h2, roundReal_one hs h2, h3⟩
  asin := by
    rintro x q ⟨s, a, h1, rfl, _⟩ _
    have e : Flt.asin x = (⟨roundReal (Real.arcsin (Dbl.val s a : ℚ))⟩ : F64 trigLibm) := by
      show (⟨trigLibm.asin x.dbl⟩ : F64 trigLibm) = _
      rw [h1]
      rfl
    rw [e]
    refine roundReal_is ?_
    have h2 := Real.arcsin_le_pi_div_two ((Dbl.val s a : ℚ) : ℝ)
    have h3 := Real.neg_pi_div_two_le_arcsin ((Dbl.val s a : ℚ) : ℝ)
    have h4 := Real.pi_lt_d2
    rw [abs_le]
    constructor <;> linarith
  acos := by
    rintro x q ⟨s, a, h1, rfl, _⟩ _
    have e : Flt.acos x = (⟨if Dbl.val s a = -1 then F64.piDbl else roundReal (Real.arccos (Dbl.val s a : ℚ))⟩ :
        F64 trigLibm) := by
      show (⟨trigLibm.acos x.dbl⟩ : F64 trigLibm) = _
      rw [h1]
      rfl
    rw [e]
    split_ifs with g
    · rw [g]
      push_cast
      rw [Real.arccos_neg_one]
      exact ⟨piQ, pi_is, piQ_near.trans (by norm_num)⟩
    · refine roundReal_is ?_
      have h2 := Real.arccos_nonneg ((Dbl.val s a : ℚ) : ℝ)
      have h3 := Real.arccos_le_pi ((Dbl.val s a : ℚ) : ℝ)
      have h4 := Real.pi_lt_d2
      rw [abs_le]
      constructor <;> linarith
  acos_one := by
    rintro x ⟨s, a, h1, h2, _⟩
    have e : Flt.acos x = (⟨if Dbl.val s a = -1 then F64.piDbl else roundReal (Real.arccos (Dbl.val s a : ℚ))⟩ :
        F64 trigLibm) := by
      show (⟨trigLibm.acos x.dbl⟩ : F64 trigLibm) = _
      rw [h1]
      rfl
    rw [e, h2, if_neg (by norm_num)]
    push_cast
    rw [Real.arccos_one]
    refine ⟨false, 0, ?_, rfl, le_rfl⟩
    show Dbl.round false _ = _
    rw [zero_mul, Int.floor_zero]
    simp [dbl_round_zero]
  acos_neg_one := by
    rintro x ⟨s, a, h1, h2, _⟩
    have e : Flt.acos x = (⟨if Dbl.val s a = -1 then F64.piDbl else roundReal (Real.arccos (Dbl.val s a : ℚ))⟩ :
        F64 trigLibm) := by
      show (⟨trigLibm.acos x.dbl⟩ : F64 trigLibm) = _
      rw [h1]
      rfl
    rw [e, h2, if_pos rfl]
    rfl

theorem sin_zero_trig : (Flt.sin 0 : F64 trigLibm) = 0 := by
  have h : (Flt.sin 0 : F64 trigLibm) = ⟨trigLibm.sin (0 : F64 trigLibm).dbl⟩ := rfl
  rw [h, zero_dbl]
  show (⟨roundReal (Real.sin (Dbl.val false 0 : ℚ))⟩ : F64 trigLibm) = 0
  rw [Dbl.val_zero, Rat.cast_zero, Real.sin_zero]
  unfold roundReal
  rw [zero_mul, Int.floor_zero]
  exact congrArg (F64.mk (L := trigLibm)) (show Dbl.round false (((0 : ℤ) : ℚ) / 2 ^ 60) = (0 : F64 trigLibm).dbl by
    rw [zero_dbl]; simp [dbl_round_zero])

theorem cos_zero_trig : (Flt.cos 0 : F64 trigLibm) = 1 := by
  have h : (Flt.cos 0 : F64 trigLibm) = ⟨trigLibm.cos (0 : F64 trigLibm).dbl⟩ := rfl
  rw [h, zero_dbl]
  show (⟨roundReal (Real.cos (Dbl.val false 0 : ℚ))⟩ : F64 trigLibm) = 1
  rw [Dbl.val_zero, Rat.cast_zero, Real.cos_zero]
  unfold roundReal
  have h1 : ⌊(1 : ℝ) * 2 ^ 60⌋ = 2 ^ 60 := by
    rw [one_mul]
    exact_mod_cast Int.floor_natCast (R := ℝ) (2 ^ 60)
  rw [h1]
  exact congrArg (F64.mk (L := trigLibm)) (show Dbl.round false (((2 ^ 60 : ℤ) : ℚ) / 2 ^ 60) =
    (1 : F64 trigLibm).dbl by rw [one_dbl]; decide +kernel)

/-- A vehicle with one engine of 1000 kN. -/
def oneEngine : Vehicle (F64 L) := { Vehicle.default with engines := [⟨0, 0, 1000000, 300, 0⟩] }

theorem oneEngine_thrust :
    ReadsV ((oneEngine : Vehicle (F64 trigLibm)).thrustForce 1 0) ⟨1000000, 0, 0⟩ := by
  have e1 : ((oneEngine : Vehicle (F64 trigLibm)).thrustForce 1 0) = ⟨1000000, 0, 0⟩ := by
    unfold Vehicle.thrustForce oneEngine Engine.thrust
    simp only [List.map_cons, List.map_nil, sin_zero_trig, cos_zero_trig]
    unfold V3.sum V3.smul V3.mulS
    simp only [List.foldl_cons, List.foldl_nil]
    rw [V3.mk.injEq]
    refine ⟨?_, ?_, ?_⟩
    · refine congrArg (F64.mk (L := trigLibm)) (show Dbl.mul (.round false (1 * 10 ^ 0)) (Dbl.add (.round false (0 * 10 ^ 0))
        (Dbl.mul (Dbl.mul (.round false (1 * 10 ^ 0)) (.round false (1 * 10 ^ 0))) (Dbl.add
          (.round false (1000000 * 10 ^ 0)) (Dbl.neg (Dbl.mul (.round false (0 * 10 ^ 0)) (.round false (0 * 10 ^ 0))))))) =
            .round false (1000000 * 10 ^ 0) from ?_)
      decide +kernel
    · refine congrArg (F64.mk (L := trigLibm)) (show Dbl.mul (.round false (1 * 10 ^ 0)) (Dbl.add (.round false (0 * 10 ^ 0))
        (Dbl.mul (.round false (0 * 10 ^ 0)) (Dbl.add
          (.round false (1000000 * 10 ^ 0)) (Dbl.neg (Dbl.mul (.round false (0 * 10 ^ 0)) (.round false (0 * 10 ^ 0))))))) =
            .round false (0 * 10 ^ 0) from ?_)
      decide +kernel
    · refine congrArg (F64.mk (L := trigLibm)) (show Dbl.mul (.round false (1 * 10 ^ 0)) (Dbl.add (.round false (0 * 10 ^ 0))
        (Dbl.mul (Dbl.mul (.round false (1 * 10 ^ 0)) (.round false (0 * 10 ^ 0))) (Dbl.add
          (.round false (1000000 * 10 ^ 0)) (Dbl.neg (Dbl.mul (.round false (0 * 10 ^ 0)) (.round false (0 * 10 ^ 0))))))) =
            .round false (0 * 10 ^ 0) from ?_)
      decide +kernel
  rw [e1]
  have h1 : Reads (1000000 : F64 trigLibm) 1000000 := by
    have := F64.is_nat (L := trigLibm) 1000000 (by norm_num)
    exact ⟨_, this, by norm_num⟩
  have h0 : Reads (0 : F64 trigLibm) 0 := ⟨0, is_zero, by norm_num⟩
  exact ⟨h1, h0, h0⟩

theorem rnorm_x (x : ℝ) (hx : 0 ≤ x) : rnorm ⟨x, 0, 0⟩ = x := by
  unfold rnorm
  simp [Real.sqrt_sq hx]

/-- A drag of 12 kN and a side force of 5 kN, that is 13 kN in all; a mass of 1000 kg; a limit of 30 m/s²;
1000 kN of thrust: the throttle keeps the total force between 29.7 and 30.0006 kN. -/
example : ∃ k, Reads ((oneEngine : Vehicle (F64 trigLibm)).autoThrottle 30 1000 0 ⟨-12000, 5000, 0⟩) k ∧
    0 ≤ k ∧ k < 1 ∧ 29700 ≤ rnorm (radd ⟨-12000, 5000, 0⟩ (rscale k ⟨1000000, 0, 0⟩)) ∧
    rnorm (radd ⟨-12000, 5000, 0⟩ (rscale k ⟨1000000, 0, 0⟩)) ≤ 30000.6 := by
  have hn : ∀ n : ℕ, n < 2 ^ 53 → Reads (OfNat.ofNat n : F64 trigLibm) n := fun n h => ⟨n, is_nat n h, by norm_num⟩
  have h30 : Reads (30 : F64 trigLibm) 30 := by simpa using hn 30 (by norm_num)
  have h1000 : Reads (1000 : F64 trigLibm) 1000 := by simpa using hn 1000 (by norm_num)
  have h5000 : Reads (5000 : F64 trigLibm) 5000 := by simpa using hn 5000 (by norm_num)
  have h12000 : Reads (-12000 : F64 trigLibm) (-12000) := ⟨-12000, is_neg (is_nat 12000 (by norm_num)), by norm_num⟩
  have h0 : Reads (0 : F64 trigLibm) 0 := ⟨0, is_zero, by norm_num⟩
  have hf : rnorm ⟨-12000, 5000, 0⟩ = 13000 := by
    unfold rnorm
    rw [show ((-12000 : ℝ)) ^ 2 + 5000 ^ 2 + 0 ^ 2 = 13000 ^ 2 by norm_num, Real.sqrt_sq (by norm_num)]
  obtain ⟨k, h1, h2, h3, h4, h5⟩ := C85_throttle trigLibm_trig h30 (by norm_num) (by norm_num) h1000 (by norm_num)
    (by norm_num) (f := ⟨-12000, 5000, 0⟩) (aero := ⟨-12000, 5000, 0⟩) ⟨h12000, h5000, h0⟩
    (.inr (by rw [hf]; norm_num)) (by rw [hf]; norm_num) oneEngine_thrust (by rw [rnorm_x] <;> norm_num)
    (by rw [rnorm_x] <;> norm_num)
  have hk : k ≠ 1 := by
    rintro rfl
    have h6 := (comp_le_rnorm (radd ⟨-12000, 5000, 0⟩ (rscale 1 ⟨1000000, 0, 0⟩))).1
    have h7 := h6.trans h4
    unfold radd rscale at h7
    norm_num [abs_of_pos] at h7
  refine ⟨k, h1, h2, lt_of_le_of_ne h3 hk, ?_, by linarith⟩
  have := h5.resolve_left hk
  linarith

/-! ## in vacuum -/

theorem aeroForce_zero {p : Phase (F64 L)} (hv : p.atmosphere.model = .noAtmosphere) {s : State (F64 L)}
    {aero : V3 (F64 L)} (ha : p.vehicle.aeroForce (p.systemPre s) = .ok aero) : ZeroV aero := by
  have hq : ZN (p.systemPre s).dynamicPressure := by
    have e : (p.systemPre s).dynamicPressure = p.atmosphere.dynamicPressure (p.systemAtmosphere (p.systemAir
      (p.systemPlanet s))) := rfl
    rw [e]
    unfold Atmosphere.dynamicPressure
    have e2 : (p.systemAtmosphere (p.systemAir (p.systemPlanet s))).density = 0 := by
      show p.atmosphere.density _ = 0
      unfold Atmosphere.density
      rw [hv]
    rw [e2]
    refine ZN.mul_right (.inr ?_) _
    obtain ⟨q, hq, _⟩ : Near (0.5 : F64 L) 0.5 1 :=
      Near.lit 5 true 1 (by norm_num) (by norm_num [abs_of_pos]) (by norm_num [abs_of_pos])
    exact zero_isZero.mul_left hq
  unfold Vehicle.aeroForce at ha
  simp only [bind, Except.bind] at ha
  split at ha
  · cases ha
  split at ha
  · cases ha
  split at ha
  · cases ha
  injection ha with ha
  rw [← ha]
  exact ⟨((hq.mul_right _).mul_right _).nanToZero, ((hq.mul_right _).mul_right _).nanToZero,
    ((hq.mul_right _).mul_right _).nanToZero⟩

/-- C85 (vacuum).  In double precision, a phase without atmosphere whose vehicle has engines with full thrust `T`
never fails, in any state with a mass of `m` kg, whatever the other values of the state are (even NaN); the
throttle is between 0 and 1, the sensed acceleration is at most 1.0001 times the limit, and at least 0.99 times
the limit unless the engines run at full thrust. -/
theorem C85_vacuum (hL : TrigLibrary L) {p : Phase (F64 L)} (s : State (F64 L)) {T : V3 ℝ} {A m : ℝ}
    (hvac : p.atmosphere.model = .noAtmosphere)
    (htab : WellFormed p.vehicle.dragCoeff ∧ WellFormed p.vehicle.liftCoeff ∧ WellFormed p.vehicle.sideForceCoeff)
    (hA : Reads p.maxAcceleration A) (hA1 : 1e-6 ≤ A) (hA2 : A ≤ 1e10)
    (hm : Reads s.mass m) (hm1 : 1e-6 ≤ m) (hm2 : m ≤ 1e10)
    (hT : ReadsV (p.vehicle.thrustForce 1 0) T) (hT1 : 1e-6 ≤ rnorm T) (hT2 : rnorm T ≤ 1e12) :
    ∃ d k acc, p.system s = .ok d ∧ Reads d.throttle k ∧ 0 ≤ k ∧ k ≤ 1 ∧
      ReadsV d.vehicleAccelerationBody acc ∧ rnorm acc ≤ 1.0001 * A ∧ (k = 1 ∨ 0.99 * A ≤ rnorm acc) := by
  obtain ⟨aero, ha⟩ := Vehicle.aeroForce_ok htab (p.systemPre s)
  obtain ⟨zx, zy, zz⟩ := aeroForce_zero hvac ha
  have hpr : (p.systemPre s).pressure = 0 := by
    show p.atmosphere.pressure _ = 0
    unfold Atmosphere.pressure
    rw [hvac]
  have hz : rnorm ⟨0, 0, 0⟩ = 0 := by simp [rnorm]
  have hA0 : 0 < A := lt_of_lt_of_le (by norm_num) hA1
  have hm0 : 0 < m := lt_of_lt_of_le (by norm_num) hm1
  have ham : 0 ≤ A * m := by positivity
  exact C85_limit_kept hL hA hA1 hA2 hm hm1 hm2 ha (f := ⟨0, 0, 0⟩)
    ⟨⟨0, zx.is, by norm_num⟩, ⟨0, zy.is, by norm_num⟩, ⟨0, zz.is, by norm_num⟩⟩ (.inl hz)
    (by rw [hz]; linarith) (by rw [hpr]; exact hT) hT1 hT2

/-- 1000 kg and 1000 kN in vacuum, with a limit of 30 m/s²: the sensed acceleration is between 29.7 and 30.003
m/s². -/
example (s : State (F64 trigLibm)) (hs : s.mass = 1000) :
    ∃ d acc, ({ Phase.default with vehicle := oneEngine, maxAcceleration := 30 } : Phase (F64 trigLibm)).system s = .ok d ∧
      ReadsV d.vehicleAccelerationBody acc ∧ rnorm acc ≤ 30.003 := by
  have h30 : Reads (30 : F64 trigLibm) 30 := ⟨30, is_nat 30 (by norm_num), by norm_num⟩
  have h1000 : Reads (1000 : F64 trigLibm) 1000 := ⟨1000, is_nat 1000 (by norm_num), by norm_num⟩
  obtain ⟨d, k, acc, h1, _, _, _, h2, h3, _⟩ := C85_vacuum
    (p := { Phase.default with vehicle := oneEngine, maxAcceleration := 30 }) trigLibm_trig s rfl
    ⟨wellFormed_default, wellFormed_default, wellFormed_default⟩ h30 (by norm_num) (by norm_num)
    (by rw [hs]; exact h1000) (by norm_num) (by norm_num) oneEngine_thrust (by rw [rnorm_x] <;> norm_num)
    (by rw [rnorm_x] <;> norm_num)
  exact ⟨d, acc, h1, h2, by linarith⟩

end Post
