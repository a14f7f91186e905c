import Verif.Lemmas.ThrottleF64
import Verif.Lemmas.StepF64
/-! # The automatic throttle in double precision: the required thrust, the throttle and the force -/

namespace Post
open Spec Flt F64
variable {L : Libm}

theorem near_zero_is {x : F64 L} (h : Near x 0 0) : x.Is 0 := by
  obtain ⟨q, hq, hq'⟩ := h
  have : (q : ℝ) = 0 := by
    rw [sub_zero] at hq'
    exact abs_eq_zero.1 (le_antisymm hq' (abs_nonneg _))
  have h0 : q = 0 := by exact_mod_cast this
  rwa [h0] at hq

theorem rnorm_zero_eq {f : V3 ℝ} (h : rnorm f = 0) : f = ⟨0, 0, 0⟩ := (rnorm_eq_zero f).1 h

/-- The required thrust. -/
theorem required_thrust (hL : TrigLibrary L) {v w : V3 (F64 L)} {f T : V3 ℝ} (hv : NearV v f 0) (hw : NearV w T 0)
    {A' : F64 L} {a : ℝ} (hA : Near A' a (2e-16 * a)) (ha1 : 1e-12 ≤ a) (ha2 : a ≤ 1e20)
    (hf : rnorm f = 0 ∨ 1e-10 ≤ rnorm f) (hfa : rnorm f ≤ (1 - 1e-9) * a)
    (hT1 : 1e-10 ≤ rnorm T) (hT2 : rnorm T ≤ 1e20) :
    ∃ (X : F64 L) (ξ : ℝ), sideSideAngle A' v.norm (pi - V3.angle v w) = some X ∧ Reads X ξ ∧
      |rnorm f ^ 2 + ξ ^ 2 + 2 * ξ * (rdot f T / rnorm T) - a ^ 2| ≤ 3e-5 * a ^ 2 ∧
      -3e-3 * a ≤ ξ ∧ ξ ≤ 2.1 * a := by
  have ha0 : 0 < a := lt_of_lt_of_le (by norm_num) ha1
  have ht0 : 0 < rnorm T := lt_of_lt_of_le (by norm_num) hT1
  have hfn := rnorm_nonneg f
  have hfa' : rnorm f ≤ a := by linarith
  have hpi0 : Flt.eq (Flt.pi : F64 L) 0 = false := by
    rw [is_eq pi_is is_zero]
    simp only [decide_eq_false_iff_not]
    unfold piQ
    norm_num
  have haa : |a| = a := abs_of_pos ha0
  rcases hf with hf0 | hf1
  · -- no aerodynamic force
    have hf0' := rnorm_zero_eq hf0
    subst hf0'
    have hz : ZeroV v := ⟨isZero_of_is (near_zero_is hv.x), isZero_of_is (near_zero_is hv.y),
      isZero_of_is (near_zero_is hv.z)⟩
    have hn := norm_zero hz
    have hang : V3.angle v w = 0 := by
      unfold V3.angle
      simp [is_eq hn is_zero]
    have hα : (pi - V3.angle v w : F64 L).Is piQ := by rw [hang]; exact pi_sub_zero is_zero
    have hX : Near (A' - v.norm) (a - 0) (4e-15 * a) := by
      have h0 : Near v.norm 0 0 := by simpa using Near.of_is hn
      refine hA.sub h0 (M := a) (by rw [sub_zero, haa]) ?_ ?_
      · linarith
      · linarith
    obtain ⟨q, hq, hq'⟩ := hX
    obtain ⟨r1, r2, r3⟩ := triangle_flat (b := 0) (c := 1) ha0 le_rfl ha0.le hq' (by norm_num) le_rfl
    refine ⟨_, q, ?_, ⟨q, hq, rfl⟩, ?_, r2, r3⟩
    · unfold sideSideAngle
      have e1 : Flt.eq (pi - V3.angle v w : F64 L) 0 = false := by
        rw [is_eq hα is_zero]
        simp only [decide_eq_false_iff_not]
        unfold piQ
        norm_num
      have e2 : Flt.eq (pi - V3.angle v w : F64 L) pi = true := by
        rw [is_eq hα pi_is]
        simp
      simp only [e1, e2, Bool.false_eq_true, if_false, if_true]
    · rw [hf0]
      simpa [rdot] using r1
  · have hb0 : 0 < rnorm f := lt_of_lt_of_le (by norm_num) hf1
    have hn := norm_rel hv hf1 (hfa'.trans (ha2.trans (by norm_num)))
    have hbt : 0 < rnorm f * rnorm T := by positivity
    obtain ⟨hc1, hc2⟩ := abs_le.1 (abs_rdot_le f T)
    have hc1' : -1 ≤ rdot f T / (rnorm f * rnorm T) := by rw [le_div_iff₀ hbt]; linarith
    have hc2' : rdot f T / (rnorm f * rnorm T) ≤ 1 := by rw [div_le_one hbt]; linarith
    have hce : rdot f T / rnorm T = rnorm f * (rdot f T / (rnorm f * rnorm T)) := by field_simp
    rw [hce]
    set c := rdot f T / (rnorm f * rnorm T) with hc
    rcases angle_cases hL hv hw hf1 (hfa'.trans ha2) hT1 hT2 with ⟨hang, hcc⟩ | ⟨hang, hcc⟩ | ⟨c', hcc, hc'1, hang⟩
    · have hα : (pi - V3.angle v w : F64 L).Is piQ := pi_sub_zero hang
      have hX : Near (A' - v.norm) (a - rnorm f) (4e-15 * a) := by
        refine hA.sub hn (M := a) (by rw [abs_le]; constructor <;> linarith) ?_ ?_
        · linarith
        · linarith
      obtain ⟨q, hq, hq'⟩ := hX
      obtain ⟨r1, r2, r3⟩ := triangle_flat ha0 hb0.le hfa' hq' hcc hc2'
      refine ⟨_, q, ?_, ⟨q, hq, rfl⟩, r1, r2, r3⟩
      unfold sideSideAngle
      have e1 : Flt.eq (pi - V3.angle v w : F64 L) 0 = false := by
        rw [is_eq hα is_zero]
        simp only [decide_eq_false_iff_not]
        unfold piQ
        norm_num
      have e2 : Flt.eq (pi - V3.angle v w : F64 L) pi = true := by
        rw [is_eq hα pi_is]
        simp
      simp only [e1, e2, Bool.false_eq_true, if_false, if_true]
    · have hα : (pi - V3.angle v w : F64 L).Is 0 := by rw [hang]; exact pi_sub_pi
      have hX : Near (A' + v.norm) (a + rnorm f) (4e-15 * a) := by
        refine hA.add hn (M := 2 * a) (by rw [abs_le]; constructor <;> linarith) ?_ ?_
        · linarith
        · linarith
      obtain ⟨qa, hqa, hqa'⟩ := id hA
      obtain ⟨qb, hqb, hqb'⟩ := id hn
      have hlt : qb ≤ qa := by
        have h1 := (abs_le.1 hqa').1
        have h2 := (abs_le.1 hqb').2
        have : (qb : ℝ) ≤ qa := by linarith
        exact_mod_cast this
      obtain ⟨q, hq, hq'⟩ := hX
      obtain ⟨r1, r2, r3⟩ := triangle_flat' ha0 hb0.le hfa' hq' hcc hc1'
      refine ⟨_, q, ?_, ⟨q, hq, rfl⟩, r1, r2, r3⟩
      unfold sideSideAngle
      have e1 : Flt.eq (pi - V3.angle v w : F64 L) 0 = true := by
        rw [is_eq hα is_zero]
        simp
      have e2 : Flt.gt v.norm A' = false := by
        unfold Flt.gt
        rw [is_lt hqa hqb]
        simpa using hlt
      simp only [e1, e2, Bool.false_eq_true, if_false, if_true]
    · have hc'2 := abs_le.1 hc'1
      have hlo : -1 ≤ c' := by linarith
      have hhi : c' ≤ 1 := by linarith
      set θ := Real.arccos c' with hθ
      have hθ0 : 0 ≤ θ := Real.arccos_nonneg _
      have hθπ : θ ≤ Real.pi := Real.arccos_le_pi _
      have hπ1 := Real.pi_lt_d2
      have hα : Near (pi - V3.angle v w : F64 L) (Real.pi - θ) 2e-15 :=
        pi_near.sub hang (M := 3.2) (by rw [abs_le]; constructor <;> linarith) (by norm_num) (by norm_num)
      obtain ⟨α, hαi, hα'⟩ := hα
      have hsin : 1e-8 ≤ Real.sin (Real.pi - θ) := by
        rw [Real.sin_pi_sub, hθ, Real.sin_arccos]
        refine Real.le_sqrt_of_sq_le ?_
        have h1 : c' ^ 2 ≤ (1 - 1e-16) ^ 2 := by
          rw [← sq_abs]
          exact pow_le_pow_left₀ (abs_nonneg _) hc'1 2
        norm_num at h1 ⊢
        linarith
      have hs1 := abs_le.1 ((sin_near (α : ℝ) (Real.pi - θ)).trans hα')
      have hcs := (cos_near (α : ℝ) (Real.pi - θ)).trans hα'
      have hx0 : 1e-8 ≤ Real.pi - θ := hsin.trans (Real.sin_le (by linarith))
      have hα'' := abs_le.1 hα'
      obtain ⟨X, ξ, β, h1, h2, h3, h4, h5⟩ := ssa_general hL hA hn hf1 hfa ha2 hαi (by linarith [hα''.1])
        (by linarith [hα''.2]) (by linarith [hs1.1])
      have hκ : |Real.cos α - -c| ≤ 1e-10 := by
        rw [Real.cos_pi_sub, hθ, Real.cos_arccos hlo hhi] at hcs
        have h6 := abs_le.1 hcs
        have h7 := abs_le.1 hcc
        rw [abs_le]
        constructor <;> linarith [h6.1, h6.2, h7.1, h7.2]
      obtain ⟨r1, r2, r3⟩ := triangle_near ha0 hb0.le hfa' (by linarith [hs1.1]) h3 h4 h5 hκ
        (by rw [abs_le]; constructor <;> linarith)
      refine ⟨X, ξ, h1, h2, ?_, r2, r3⟩
      rw [show rnorm f ^ 2 + ξ ^ 2 + 2 * ξ * (rnorm f * c) - a ^ 2 =
        rnorm f ^ 2 + ξ ^ 2 - 2 * rnorm f * ξ * -c - a ^ 2 by ring]
      exact r1

/-! ## the throttle -/

theorem clamp01_is {x : F64 L} {q : ℚ} (hx : x.Is q) :
    (clamp01 x).Is (if q < 0 then 0 else if 1 < q then 1 else q) := by
  unfold clamp01
  rw [is_lt hx is_zero]
  by_cases h : q < 0
  · simp only [h, decide_true, if_true]
    unfold Flt.gt
    rw [is_lt is_one is_zero, show decide ((1 : ℚ) < 0) = false by norm_num]
    exact is_zero
  · simp only [h, decide_false, Bool.false_eq_true, if_false]
    unfold Flt.gt
    rw [is_lt is_one hx]
    by_cases h1 : 1 < q
    · simpa [h1] using is_one (L := L)
    · simpa [h1] using hx

/-- The throttle chosen when the aerodynamic force alone is within the limit. -/
theorem throttle_near (hL : TrigLibrary L) {V : Vehicle (F64 L)} {A' M' P : F64 L} {v : V3 (F64 L)} {f T : V3 ℝ}
    (hv : NearV v f 0) (hw : NearV (V.thrustForce 1 P) T 0) {a : ℝ} (hA : Near (A' * M') a (2e-16 * a))
    (ha1 : 1e-12 ≤ a) (ha2 : a ≤ 1e20) (hf : rnorm f = 0 ∨ 1e-10 ≤ rnorm f) (hfa : rnorm f ≤ (1 - 1e-9) * a)
    (hT1 : 1e-6 ≤ rnorm T) (hT2 : rnorm T ≤ 1e12) :
    ∃ k : ℝ, Reads (V.autoThrottle A' M' P v) k ∧ 0 ≤ k ∧ k ≤ 1 ∧ k * rnorm T ≤ 2.2 * a ∧
      rnorm (radd f (rscale k T)) ^ 2 ≤ (1 + 3.1e-5) * a ^ 2 ∧
      (k = 1 ∨ (0.991 * a) ^ 2 ≤ rnorm (radd f (rscale k T)) ^ 2) := by
  have ha0 : 0 < a := lt_of_lt_of_le (by norm_num) ha1
  have ht0 : 0 < rnorm T := lt_of_lt_of_le (by norm_num) hT1
  have hfn := rnorm_nonneg f
  have hfa' : rnorm f ≤ a := by linarith
  obtain ⟨X, ξ, h1, h2, h3, h4, h5⟩ := required_thrust hL hv hw hA ha1 ha2 hf hfa
    (le_trans (by norm_num) hT1) (hT2.trans (by norm_num))
  have hbeq : V3.beq (V.thrustForce 1 P) .zero = false := by
    rw [Bool.eq_false_iff]
    intro h
    unfold V3.beq at h
    simp only [Bool.and_eq_true] at h
    obtain ⟨⟨e1, e2⟩, e3⟩ := h
    have key : ∀ {x : F64 L} {ξ : ℝ}, Near x ξ 0 → Flt.eq x 0 = true → ξ = 0 := by
      intro x ξ hx he
      obtain ⟨q, hq, hq'⟩ := hx
      rw [is_eq hq is_zero] at he
      have : q = 0 := by simpa using he
      rw [this] at hq'
      have h6 := abs_le.1 hq'
      push_cast at h6
      linarith [h6.1, h6.2]
    have : T = ⟨0, 0, 0⟩ := by
      have a1 := key hw.x e1
      have a2 := key hw.y e2
      have a3 := key hw.z e3
      cases T
      simp_all
    rw [this] at ht0
    simp [rnorm] at ht0
  have hthr : V.autoThrottle A' M' P v = clamp01 (X / (V.thrustForce 1 P).norm) := by
    unfold Vehicle.autoThrottle
    simp only [hbeq, Bool.false_eq_true, if_false, h1]
  have hn := norm_rel hw (le_trans (by norm_num) hT1) (hT2.trans (by norm_num))
  have hX : Near X ξ 0 := reads_near.1 h2
  have hξ : |ξ| ≤ 2.1 * a := by rw [abs_le]; constructor <;> linarith
  have hM : |ξ / rnorm T| ≤ 2.1 * a / rnorm T := by
    rw [abs_div, abs_of_pos ht0]
    exact div_le_div_of_nonneg_right hξ ht0.le
  have hbig : 2.1 * a / rnorm T ≤ 2.1e26 := by
    rw [div_le_iff₀ ht0]
    linarith
  have hdiv : 2 * (0 + 2.1 * a / rnorm T * (2e-15 * rnorm T)) / rnorm T = 4e-15 * (2.1 * a / rnorm T) := by
    field_simp
    ring
  have hMp : 0 < 2.1 * a / rnorm T := by positivity
  have hq : Near (X / (V.thrustForce 1 P).norm) (ξ / rnorm T) (5e-15 * (2.1 * a / rnorm T) + 1e-40) := by
    refine hX.div hn (b := rnorm T) (M := 2.1 * a / rnorm T) ht0 (le_abs_self _) (by linarith) hM ?_ ?_
    · rw [hdiv]
      linarith
    · rw [hdiv]
      linarith
  obtain ⟨q, hqi, hq'⟩ := hq
  have hx : |(q : ℝ) * rnorm T - ξ| ≤ 2e-14 * a := by
    rw [show (q : ℝ) * rnorm T - ξ = (q - ξ / rnorm T) * rnorm T by field_simp, abs_mul, abs_of_pos ht0]
    refine (mul_le_mul_of_nonneg_right hq' ht0.le).trans ?_
    rw [add_mul, show 5e-15 * (2.1 * a / rnorm T) * rnorm T = 5e-15 * (2.1 * a) by field_simp]
    linarith
  have hd : |rdot f T / rnorm T| ≤ rnorm f := by
    rw [abs_div, abs_of_pos ht0, div_le_iff₀ ht0]
    exact abs_rdot_le f T
  have hx' := abs_le.1 hx
  have hx3 : |rnorm f ^ 2 + ((q : ℝ) * rnorm T) ^ 2 + 2 * ((q : ℝ) * rnorm T) * (rdot f T / rnorm T) - a ^ 2| ≤
      3.1e-5 * a ^ 2 := by
    set x := (q : ℝ) * rnorm T with hxd
    set d := rdot f T / rnorm T with hdd
    have t1 := mul_abs_le hx (q := x + ξ + 2 * d) (Q := 7 * a) (by
      have h7 := abs_le.1 hd
      rw [abs_le]
      constructor <;> linarith [h7.1, h7.2])
    have t1' := abs_le.1 t1
    have h3' := abs_le.1 h3
    have h8 : 0 ≤ a ^ 2 := sq_nonneg a
    rw [show rnorm f ^ 2 + x ^ 2 + 2 * x * d - a ^ 2 =
      rnorm f ^ 2 + ξ ^ 2 + 2 * ξ * d - a ^ 2 + (x - ξ) * (x + ξ + 2 * d) by ring, abs_le]
    constructor <;> linarith [h3'.1, h3'.2, t1'.1, t1'.2]
  set kq : ℚ := if q < 0 then 0 else if 1 < q then 1 else q with hkq
  have hk : (kq : ℝ) = if (q : ℝ) < 0 then 0 else if 1 < (q : ℝ) then 1 else (q : ℝ) := by
    rw [hkq]
    have e1 : (q : ℝ) < 0 ↔ q < 0 := by exact_mod_cast Iff.rfl
    have e2 : 1 < (q : ℝ) ↔ 1 < q := by exact_mod_cast Iff.rfl
    simp only [e1, e2]
    split_ifs <;> simp
  obtain ⟨r1, r2, r3, r4, r5⟩ := clamp_real ha0 hfn hfa' hd ht0 rfl hx3 (by linarith [hx'.1])
    (by linarith [hx'.2]) hk
  have e : ∀ k : ℝ, rnorm (radd f (rscale k T)) ^ 2 =
      rnorm f ^ 2 + (k * rnorm T) ^ 2 + 2 * (k * rnorm T) * (rdot f T / rnorm T) := by
    intro k
    rw [rnorm_add_sq]
    field_simp
    ring
  refine ⟨kq, ⟨kq, ?_, rfl⟩, r1, r2, r3, ?_, ?_⟩
  · rw [hthr]
    exact clamp01_is hqi
  · rw [e]; exact r4
  · rw [e]; exact r5

/-! ## the thrust -/

theorem one_mul_double {x : F64 L} (hx : x.dbl.IsDouble) : 1 * x = x := by
  have e : (1 * x).dbl = Dbl.mul (1 : F64 L).dbl x.dbl := rfl
  have : (1 * x).dbl = x.dbl := by
    rw [e, one_dbl]
    rcases h : x.dbl with _ | s | ⟨s, a⟩
    · rfl
    · cases s <;> rfl
    · rw [h] at hx
      have ha : 0 ≤ a := Dbl.IsMag.nonneg hx
      show Dbl.round (false != s) (Dbl.val false 1 * Dbl.val s a) = _
      rw [show Dbl.val false 1 * Dbl.val s a = Dbl.val s a by simp [Dbl.val]]
      unfold Dbl.round
      rcases ha.eq_or_lt with h0 | h0
      · rw [← h0, Dbl.val_zero, if_pos rfl]
        cases s <;> rfl
      · have hv : Dbl.val s a ≠ 0 := by
          unfold Dbl.val
          split_ifs
          · exact neg_ne_zero.2 h0.ne'
          · exact h0.ne'
        rw [if_neg hv, Dbl.val_abs s ha, Dbl.roundMag_isMag_self hx, if_neg (not_le.2 (Dbl.IsMag.lt hx))]
        congr 1
        unfold Dbl.val
        cases s
        · simp [h0.le]
        · simp [h0]
  exact congrArg (F64.mk (L := L)) this

/-- A vector of doubles. -/
def DoubleV (v : V3 (F64 L)) : Prop := v.x.dbl.IsDouble ∧ v.y.dbl.IsDouble ∧ v.z.dbl.IsDouble

theorem sum_doubleV (l : List (V3 (F64 L))) : DoubleV (V3.sum l) := by
  have h : ∀ (l : List (V3 (F64 L))) (a : V3 (F64 L)), DoubleV a → DoubleV (l.foldl (· + ·) a) := by
    intro l
    induction l with
    | nil => exact fun a ha => ha
    | cons b l ih =>
      intro a _
      exact ih _ ⟨Dbl.add_isDouble _ _, Dbl.add_isDouble _ _, Dbl.add_isDouble _ _⟩
  refine h l _ ?_
  have : ((0 : F64 L)).dbl.IsDouble := Dbl.round_isDouble _ _
  exact ⟨this, this, this⟩

/-- The thrust at a throttle setting is the multiple of the full thrust. -/
theorem thrust_scale (V : Vehicle (F64 L)) (k P : F64 L) :
    V.thrustForce k P = V3.smul k (V.thrustForce 1 P) := by
  obtain ⟨h1, h2, h3⟩ := sum_doubleV (V.engines.map fun e => e.thrust P)
  unfold Vehicle.thrustForce V3.smul
  simp only [one_mul_double h1, one_mul_double h2, one_mul_double h3]

/-- The sensed acceleration. -/
theorem sensed_near {v w : V3 (F64 L)} {f T : V3 ℝ} (hv : NearV v f 0) (hw : NearV w T 0) {K M' : F64 L}
    {k A m : ℝ} (hK : Near K k 0) (hM : Near M' m 0) (hm0 : 0 < m) (hA : 1e-6 ≤ A) (ha1 : 1e-12 ≤ A * m)
    (ha2 : A * m ≤ 1e20) (hA2 : A ≤ 1e10) (hk0 : 0 ≤ k) (hk1 : k ≤ 1)
    (hk : k * rnorm T ≤ 2.2 * (A * m)) (hg : rnorm (radd f (rscale k T)) ≤ 1.01 * (A * m)) :
    NearV ((v + V3.smul K w).divS M') (rscale (1 / m) (radd f (rscale k T))) (1.1e-15 * A) := by
  obtain ⟨tx, ty, tz⟩ := comp_le_rnorm T
  obtain ⟨gx, gy, gz⟩ := comp_le_rnorm (radd f (rscale k T))
  have hA0 : 0 < A := lt_of_lt_of_le (by norm_num) hA
  have ha0 : 0 < A * m := by positivity
  have key : ∀ {x y : F64 L} {ξ η : ℝ}, Near x ξ 0 → Near y η 0 → |η| ≤ rnorm T → |ξ + k * η| ≤ 1.01 * (A * m) →
      Near ((x + K * y) / M') (1 / m * (ξ + k * η)) (1.1e-15 * A) := by
    intro x y ξ η hx hy h1 h2
    have hp : Near (K * y) (k * η) (2.8e-16 * (A * m)) := by
      refine hK.mul hy (A := 1) (B := rnorm T) (M := 2.2 * (A * m)) (by rwa [abs_of_nonneg hk0]) h1 ?_ ?_ ?_
      · rw [abs_mul, abs_of_nonneg hk0]
        exact (mul_le_mul_of_nonneg_left h1 hk0).trans hk
      · linarith
      · linarith
    have hs : Near (x + K * y) (ξ + k * η) (4.2e-16 * (A * m)) :=
      hx.add hp (M := 1.01 * (A * m)) h2 (by linarith) (by linarith)
    have hdiv : 2 * (4.2e-16 * (A * m) + 1.01 * A * 0) / m = 8.4e-16 * A := by
      field_simp
      ring
    have hd : Near ((x + K * y) / M') ((ξ + k * η) / m) (1.1e-15 * A) := by
      refine hs.div hM (b := m) (M := 1.01 * A) hm0 (le_abs_self m) (by linarith) ?_ ?_ ?_
      · rw [abs_div, abs_of_pos hm0, div_le_iff₀ hm0]
        linarith
      · rw [hdiv]
        linarith
      · rw [hdiv]
        linarith
    rwa [show (ξ + k * η) / m = 1 / m * (ξ + k * η) by field_simp] at hd
  exact ⟨key hv.x hw.x tx (gx.trans hg), key hv.y hw.y ty (gy.trans hg), key hv.z hw.z tz (gz.trans hg)⟩

end Post
