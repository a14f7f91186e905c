import Verif.Lemmas.Throttle
import Verif.Lemmas.Aero
import Verif.Props.State
/-! # The automatic throttle (C15, C32, C33) -/

namespace Post
open Spec Flt

/-! ## C32: throttle between 0 and 1, in any lawful arithmetic -/

section lawful
variable {F : Type} [LawfulFlt F]

/-- The number is between 0 and 1, in the comparison of the arithmetic. -/
def Spec.InUnit (k : F) : Prop :=
  (Flt.lt 0 k = true ∨ Flt.eq 0 k = true) ∧ (Flt.lt k 1 = true ∨ Flt.eq k 1 = true)

theorem clamp01_range (a : F) : Flt.isNan (clamp01 a) = true ∨ InUnit (clamp01 a) := by
  unfold clamp01
  by_cases h0 : Flt.lt a 0 = true
  · right
    simp only [h0, if_true, Flt.gt]
    have h1 : Flt.lt (1 : F) 0 = false := by
      cases h : Flt.lt (1 : F) 0 with
      | false => rfl
      | true =>
        have := LawfulFlt.lt_trans _ _ _ h LawfulFlt.zero_lt_one
        rw [LawfulFlt.lt_irrefl] at this
        cases this
    simp only [h1, Bool.false_eq_true, if_false]
    exact ⟨.inr LawfulFlt.zero_nonNan, .inl LawfulFlt.zero_lt_one⟩
  · simp only [h0, Bool.false_eq_true, if_false, Flt.gt]
    by_cases h1 : Flt.lt 1 a = true
    · right
      simp only [h1, if_true]
      exact ⟨.inl LawfulFlt.zero_lt_one, .inr LawfulFlt.one_nonNan⟩
    · simp only [h1, Bool.false_eq_true, if_false]
      by_cases hn : Flt.eq a a = true
      · right
        refine ⟨?_, ?_⟩
        · rcases LawfulFlt.lt_total _ _ LawfulFlt.zero_nonNan hn with h | h | h
          · exact .inl h
          · exact .inr h
          · exact absurd h h0
        · rcases LawfulFlt.lt_total _ _ hn LawfulFlt.one_nonNan with h | h | h
          · exact .inl h
          · exact .inr h
          · exact absurd h h1
      · left
        unfold Flt.isNan
        simp [hn]

/-- C32.  In every arithmetic with lawful comparisons the throttle chosen by the program is NaN
or between 0 and 1, whatever the vehicle, limit, mass, pressure and aerodynamic force. -/
theorem C32_throttle_range (v : Vehicle F) (limit mass pressure : F) (aero : V3 F) :
    Flt.isNan (v.autoThrottle limit mass pressure aero) = true ∨
      InUnit (v.autoThrottle limit mass pressure aero) := by
  have one : InUnit (1 : F) := ⟨.inl LawfulFlt.zero_lt_one, .inr LawfulFlt.one_nonNan⟩
  unfold Vehicle.autoThrottle
  simp only
  split
  · exact .inr one
  · split
    · exact clamp01_range _
    · exact .inr one

/-- C32 (runs).  Every state a run visits has a throttle between 0 and 1. -/
theorem C32_visited {p : Phase F} {s : State F} (hs : Visited p s) : InUnit s.throttle := by
  obtain ⟨s1, h⟩ := hs.system
  have hlim := Phase.system_limit h
  have hc := (C57_visited_consistent hs).throttle
  rcases C32_throttle_range p.vehicle p.maxAcceleration s.mass s.pressure s.aeroForceBody with h | h
  · unfold Phase.exceedsLimit at hlim
    rw [hc, h] at hlim
    simp at hlim
  · rw [hc]; exact h

/-- C32 (NaN aborts).  If the throttle computed for a state is NaN, the equations of motion fail
there. -/
theorem C32_nan_aborts {p : Phase F} {s : State F} {aero : V3 F}
    (ha : p.vehicle.aeroForce (p.systemPre s) = .ok aero)
    (hn : Flt.isNan (p.vehicle.autoThrottle p.maxAcceleration s.mass (p.systemPre s).pressure aero)
      = true) : p.system s = .error .maxAcceleration := by
  unfold Phase.system
  simp only [ha, bind, Except.bind]
  have : p.exceedsLimit (p.systemForces (p.systemPre s) aero) = true := by
    unfold Phase.exceedsLimit
    have ht : (p.systemForces (p.systemPre s) aero).throttle =
      p.vehicle.autoThrottle p.maxAcceleration s.mass (p.systemPre s).pressure aero := rfl
    rw [ht, hn]
    simp
  rw [if_pos this]

end lawful

/-- The comparison of real numbers: `InUnit` means what it should. -/
example (k : ℝ) : InUnit (XR.fin k) ↔ 0 ≤ k ∧ k ≤ 1 := by
  unfold InUnit
  xr_eval
  simp only [decide_eq_true_iff]
  constructor
  · rintro ⟨h1 | h1, h2 | h2⟩ <;> constructor <;> linarith
  · rintro ⟨h1, h2⟩
    exact ⟨lt_or_eq_of_le h1, lt_or_eq_of_le h2⟩

/-! ## C33: the throttle keeps the limit whenever possible -/

section limit
variable {v : Vehicle XR} {es : List RealEngine} {A m pr : ℝ} {f : V3 ℝ}

theorem sensed_le_iff (hm : 0 < m) (T : V3 ℝ) (k : ℝ) :
    sensed m f T k ≤ A ↔ 0 ≤ A ∧
      rnorm f ^ 2 + 2 * k * rdot f T + k ^ 2 * rnorm T ^ 2 ≤ (A * m) ^ 2 := by
  unfold sensed
  rw [div_le_iff₀ hm, ← rnorm_add_sq]
  have h0 := rnorm_nonneg (radd f (rscale k T))
  constructor
  · intro h
    refine ⟨?_, by nlinarith⟩
    by_contra hA
    have : A * m < 0 := mul_neg_of_neg_of_pos (not_le.1 hA) hm
    linarith
  · rintro ⟨hA, h⟩
    have : 0 ≤ A * m := mul_nonneg hA hm.le
    exact abs_le_of_sq_le_sq' h this |>.2

/-- With `u` the projection of the aerodynamic force against the thrust, a throttle is within the
limit exactly if its thrust differs from `u` by at most the square root of `D`. -/
theorem allowed_iff (hm : 0 < m) {T : V3 ℝ} (hT : 0 < rnorm T) (k : ℝ) :
    Allowed A m f T k ↔ 0 ≤ k ∧ k ≤ 1 ∧ 0 ≤ A ∧
      (k * rnorm T - -(rdot f T / rnorm T)) ^ 2 ≤
        (A * m) ^ 2 - rnorm f ^ 2 + (rdot f T / rnorm T) ^ 2 := by
  unfold Allowed
  rw [sensed_le_iff hm]
  have : (k * rnorm T - -(rdot f T / rnorm T)) ^ 2 =
      k ^ 2 * rnorm T ^ 2 + 2 * k * rdot f T + (rdot f T / rnorm T) ^ 2 := by
    field_simp
    ring
  rw [this]
  constructor <;> rintro ⟨h1, h2, h3, h4⟩ <;> exact ⟨h1, h2, h3, by linarith⟩

theorem autoThrottle_eq (hE : HasEngines v es) (hT : fullThrust es pr ≠ ⟨0, 0, 0⟩) :
    v.autoThrottle (.fin A) (.fin m) (.fin pr) f.fin =
      match sideSideAngle (XR.fin (A * m)) (.fin (rnorm f))
        (pi - V3.angle f.fin (fullThrust es pr).fin) with
      | some req => clamp01 (req / .fin (rnorm (fullThrust es pr)))
      | none => 1 := by
  have h1 : v.thrustForce 1 (.fin pr) = (fullThrust es pr).fin := by
    rw [XR.fin_one, thrustForce_fin hE]
    congr 1
    simp [rscale]
  unfold Vehicle.autoThrottle
  simp only [h1, V3.beq_zero_fin, hT, decide_false, Bool.false_eq_true, if_false, V3.fin_norm,
    XR.fin_mul]
  cases sideSideAngle (XR.fin (A * m)) (XR.fin (rnorm f))
    (pi - V3.angle f.fin (fullThrust es pr).fin) <;> rfl

theorem throttle_zero_thrust (hE : HasEngines v es) (hT : fullThrust es pr = ⟨0, 0, 0⟩)
    (limit mass : XR) (aero : V3 XR) :
    v.autoThrottle limit mass (.fin pr) aero = .fin 1 := by
  have h1 : v.thrustForce 1 (.fin pr) = (fullThrust es pr).fin := by
    rw [XR.fin_one, thrustForce_fin hE]
    congr 1
    simp [rscale]
  unfold Vehicle.autoThrottle
  simp only [h1, V3.beq_zero_fin, hT, decide_true, if_true]
  exact XR.fin_one

/-- the angle used, with its cosine and sine -/
theorem throttle_angle (hf : 0 < rnorm f) {T : V3 ℝ} (hT : 0 < rnorm T) :
    ∃ α : ℝ, pi - V3.angle f.fin T.fin = XR.fin α ∧ 0 ≤ α ∧ α ≤ Real.pi ∧
      rnorm f * Real.cos α = -(rdot f T / rnorm T) ∧ 0 ≤ Real.sin α := by
  have h := abs_le.1 (abs_rdot_le f T)
  have hpos : 0 < rnorm f * rnorm T := mul_pos hf hT
  have h1 : rdot f T / (rnorm f * rnorm T) ≤ 1 := by rw [div_le_one hpos]; exact h.2
  have h2 : -1 ≤ rdot f T / (rnorm f * rnorm T) := by rw [le_div_iff₀ hpos]; linarith [h.1]
  refine ⟨Real.pi - Real.arccos (rdot f T / (rnorm f * rnorm T)), ?_, ?_, ?_, ?_, ?_⟩
  · rw [V3.angle_fin hf.ne' hT.ne', XR.fin_pi, XR.fin_sub]
  · linarith [Real.arccos_le_pi (rdot f T / (rnorm f * rnorm T))]
  · linarith [Real.arccos_nonneg (rdot f T / (rnorm f * rnorm T))]
  · rw [Real.cos_pi_sub, Real.cos_arccos h2 h1]
    field_simp
  · rw [Real.sin_pi_sub]
    exact Real.sin_nonneg_of_nonneg_of_le_pi (Real.arccos_nonneg _) (Real.arccos_le_pi _)

/-- C33 (enough room).  If the aerodynamic force alone is within the limit, the chosen throttle
keeps the limit and is the largest throttle setting that does. -/
theorem C33_largest (hm : 0 < m) (hE : HasEngines v es) (hf : rnorm f / m ≤ A) :
    ∃ k, v.autoThrottle (.fin A) (.fin m) (.fin pr) f.fin = .fin k ∧
      Allowed A m f (fullThrust es pr) k ∧
      ∀ k', Allowed A m f (fullThrust es pr) k' → k' ≤ k := by
  have hA : 0 ≤ A := le_trans (div_nonneg (rnorm_nonneg f) hm.le) hf
  have hfa : rnorm f ≤ A * m := by rwa [div_le_iff₀ hm] at hf
  generalize hTe : fullThrust es pr = T
  by_cases hT0 : T = ⟨0, 0, 0⟩
  · refine ⟨1, throttle_zero_thrust hE (by rw [hTe, hT0]) _ _ _, ⟨zero_le_one, le_refl _, ?_⟩,
      fun k' h => h.2.1⟩
    rw [hT0]
    unfold sensed
    rw [show radd f (rscale 1 ⟨0, 0, 0⟩) = f by simp [radd, rscale]]
    exact hf
  · have hT : 0 < rnorm T := rnorm_pos T hT0
    rw [autoThrottle_eq hE (by rw [hTe]; exact hT0), hTe]
    set u := -(rdot f T / rnorm T) with hu
    set D := (A * m) ^ 2 - rnorm f ^ 2 + (rdot f T / rnorm T) ^ 2 with hD
    have hDu : u ^ 2 ≤ D := by
      rw [hu, hD]
      have : rnorm f ^ 2 ≤ (A * m) ^ 2 := pow_le_pow_left₀ (rnorm_nonneg f) hfa 2
      nlinarith
    have hD0 : 0 ≤ D := le_trans (sq_nonneg u) hDu
    have hsq := Real.sq_sqrt hD0
    have hs0 := Real.sqrt_nonneg D
    have hus : |u| ≤ Real.sqrt D := Real.abs_le_sqrt hDu
    rw [abs_le] at hus
    have hreq : sideSideAngle (XR.fin (A * m)) (.fin (rnorm f)) (pi - V3.angle f.fin T.fin) =
        some (.fin (u + Real.sqrt D)) := by
      by_cases hf0 : rnorm f = 0
      · have hz : f = ⟨0, 0, 0⟩ := (rnorm_eq_zero f).1 hf0
        have hd : rdot f T = 0 := by rw [hz]; simp [rdot]
        rw [V3.angle_zero_left hf0, XR.fin_pi, XR.fin_sub, sub_zero]
        unfold sideSideAngle
        simp only [XR.fin_zero, XR.fin_pi]
        rw [if_neg (by rw [eq_fin]; exact Real.pi_ne_zero), if_pos ((eq_fin _ _).2 rfl), XR.fin_sub,
          hu, hD, hd, hf0]
        congr 2
        rw [show (A * m) ^ 2 - 0 ^ 2 + (0 / rnorm T) ^ 2 = (A * m) ^ 2 by simp,
          Real.sqrt_sq (mul_nonneg hA hm.le)]
        simp
      · have hfp : 0 < rnorm f := lt_of_le_of_ne (rnorm_nonneg f) (Ne.symm hf0)
        obtain ⟨α, h1, h2, h3, h4, _⟩ := throttle_angle hfp hT
        rw [h1, sideSideAngle_long hfp hfa h2 h3, h4]
        congr 4
        have : (rnorm f * Real.sin α) ^ 2 = rnorm f ^ 2 - (rnorm f * Real.cos α) ^ 2 := by
          have := Real.sin_sq_add_cos_sq α
          linear_combination rnorm f ^ 2 * this
        rw [this, h4]
        ring
    rw [hreq]
    simp only
    rw [XR.fin_div _ _ hT.ne', clamp01_fin]
    have hnn : 0 ≤ (u + Real.sqrt D) / rnorm T := div_nonneg (by linarith) hT.le
    rw [if_neg (not_lt.2 hnn)]
    refine ⟨_, rfl, ?_, ?_⟩
    · rw [allowed_iff hm hT, ← hu, ← hD]
      split
      · next h1 =>
        rw [lt_div_iff₀ hT, one_mul] at h1
        refine ⟨zero_le_one, le_refl _, hA, ?_⟩
        rw [← hsq]
        refine sq_le_sq' ?_ ?_ <;> linarith
      · next h1 =>
        refine ⟨hnn, not_lt.1 h1, hA, ?_⟩
        rw [div_mul_cancel₀ _ hT.ne']
        rw [show u + Real.sqrt D - u = Real.sqrt D by ring, hsq]
    · intro k' hk'
      rw [allowed_iff hm hT, ← hu, ← hD] at hk'
      obtain ⟨h1, h2, _, h4⟩ := hk'
      split
      · exact h2
      · rw [le_div_iff₀ hT]
        rw [← hsq] at h4
        have := abs_le_of_sq_le_sq' h4 hs0
        linarith [this.2]

/-- C33 (too much drag).  If the aerodynamic force alone exceeds the limit but some throttle
setting keeps it, the chosen throttle keeps it and is the smallest throttle setting that
does. -/
theorem C33_smallest (hm : 0 < m) (hE : HasEngines v es) (hf : A < rnorm f / m)
    {k0 : ℝ} (hk0 : Allowed A m f (fullThrust es pr) k0) :
    ∃ k, v.autoThrottle (.fin A) (.fin m) (.fin pr) f.fin = .fin k ∧
      Allowed A m f (fullThrust es pr) k ∧
      ∀ k', Allowed A m f (fullThrust es pr) k' → k ≤ k' := by
  have hfa : A * m < rnorm f := by rwa [lt_div_iff₀ hm] at hf
  generalize hTe : fullThrust es pr = T at *
  by_cases hT0 : T = ⟨0, 0, 0⟩
  · exfalso
    have := hk0.2.2
    rw [hT0] at this
    unfold sensed at this
    rw [show radd f (rscale k0 ⟨0, 0, 0⟩) = f by simp [radd, rscale]] at this
    linarith
  · have hT : 0 < rnorm T := rnorm_pos T hT0
    rw [autoThrottle_eq hE (by rw [hTe]; exact hT0), hTe]
    rw [allowed_iff hm hT] at hk0
    set u := -(rdot f T / rnorm T) with hu
    set D := (A * m) ^ 2 - rnorm f ^ 2 + (rdot f T / rnorm T) ^ 2 with hD
    obtain ⟨k1, k2, hA, k4⟩ := hk0
    have hAm : 0 ≤ A * m := mul_nonneg hA hm.le
    have hDu : D < u ^ 2 := by
      rw [hu, hD]
      have : (A * m) ^ 2 < rnorm f ^ 2 := pow_lt_pow_left₀ hfa hAm (by norm_num)
      nlinarith
    have hD0 : 0 ≤ D := le_trans (sq_nonneg _) k4
    have hsq := Real.sq_sqrt hD0
    have hs0 := Real.sqrt_nonneg D
    have hk : -Real.sqrt D ≤ k0 * rnorm T - u ∧ k0 * rnorm T - u ≤ Real.sqrt D :=
      abs_le_of_sq_le_sq' (by rw [hsq]; exact k4) hs0
    have hkT : 0 ≤ k0 * rnorm T := mul_nonneg k1 hT.le
    have hup : Real.sqrt D < u := by
      have h1 : Real.sqrt D < |u| := by
        rw [← sq_abs] at hDu
        exact (Real.sqrt_lt' (lt_of_le_of_ne (abs_nonneg u) (by
          intro h; rw [← h] at hDu; nlinarith))).2 hDu
      rcases le_total 0 u with h | h
      · rwa [abs_of_nonneg h] at h1
      · rw [abs_of_nonpos h] at h1
        linarith [hk.2]
    have hfp : 0 < rnorm f := lt_of_le_of_lt hAm hfa
    obtain ⟨α, h1, h2, h3, h4, h5⟩ := throttle_angle hfp hT
    have hsin : (rnorm f * Real.sin α) ^ 2 = rnorm f ^ 2 - (rnorm f * Real.cos α) ^ 2 := by
      have := Real.sin_sq_add_cos_sq α
      linear_combination rnorm f ^ 2 * this
    have hle : rnorm f * Real.sin α ≤ A * m := by
      refine abs_le_of_sq_le_sq' ?_ hAm |>.2
      rw [hsin, h4]
      have : 0 ≤ D := hD0
      rw [hD] at this
      nlinarith
    have hlt : α < Real.pi := by
      refine lt_of_le_of_ne h3 fun h => ?_
      rw [h, Real.cos_pi] at h4
      linarith
    have hreq : sideSideAngle (XR.fin (A * m)) (.fin (rnorm f)) (pi - V3.angle f.fin T.fin) =
        some (.fin (u - Real.sqrt D)) := by
      rw [h1, sideSideAngle_short hAm hfa h2 hlt hle, h4]
      congr 4
      rw [hsin, h4]
      ring
    rw [hreq]
    simp only
    rw [XR.fin_div _ _ hT.ne', clamp01_fin]
    have hnn : 0 ≤ (u - Real.sqrt D) / rnorm T := div_nonneg (by linarith) hT.le
    have hle1 : (u - Real.sqrt D) / rnorm T ≤ k0 := by
      rw [div_le_iff₀ hT]; linarith [hk.1]
    rw [if_neg (not_lt.2 hnn), if_neg (not_lt.2 (le_trans hle1 k2))]
    refine ⟨_, rfl, ?_, ?_⟩
    · rw [allowed_iff hm hT, ← hu, ← hD]
      refine ⟨hnn, le_trans hle1 k2, hA, ?_⟩
      rw [div_mul_cancel₀ _ hT.ne', show u - Real.sqrt D - u = -Real.sqrt D by ring, neg_sq, hsq]
    · intro k' hk'
      rw [allowed_iff hm hT, ← hu, ← hD] at hk'
      obtain ⟨_, _, _, q4⟩ := hk'
      rw [div_le_iff₀ hT]
      rw [← hsq] at q4
      linarith [(abs_le_of_sq_le_sq' q4 hs0).1]

/-- C33 (whenever possible).  If some throttle setting keeps the limit, the chosen one does. -/
theorem C33_keeps_limit (hm : 0 < m) (hE : HasEngines v es)
    {k0 : ℝ} (hk0 : Allowed A m f (fullThrust es pr) k0) :
    ∃ k, v.autoThrottle (.fin A) (.fin m) (.fin pr) f.fin = .fin k ∧
      Allowed A m f (fullThrust es pr) k := by
  rcases le_or_gt (rnorm f / m) A with h | h
  · obtain ⟨k, h1, h2, _⟩ := C33_largest (pr := pr) hm hE h
    exact ⟨k, h1, h2⟩
  · obtain ⟨k, h1, h2, _⟩ := C33_smallest hm hE h hk0
    exact ⟨k, h1, h2⟩

/-- C33 (aborts).  If the equations of motion fail with the acceleration panic in a state with
real mass, pressure and aerodynamic force, no throttle setting keeps the limit there. -/
theorem C33_abort_only_if_impossible {p : Phase XR} {s : State XR} (hm : 0 < m)
    (hE : HasEngines p.vehicle es) (hlim : p.maxAcceleration = .fin A) (hmass : s.mass = .fin m)
    (hpr : (p.systemPre s).pressure = .fin pr)
    (haero : p.vehicle.aeroForce (p.systemPre s) = .ok f.fin)
    (herr : p.system s = .error .maxAcceleration) (k : ℝ) :
    ¬ Allowed A m f (fullThrust es pr) k := by
  intro hk
  obtain ⟨k', h1, h2⟩ := C33_keeps_limit hm hE hk
  unfold Phase.system at herr
  simp only [haero, bind, Except.bind] at herr
  have hmass' : (p.systemPre s).mass = .fin m := hmass
  have : p.exceedsLimit (p.systemForces (p.systemPre s) f.fin) = false := by
    unfold Phase.exceedsLimit
    have ht : (p.systemForces (p.systemPre s) f.fin).throttle = .fin k' := by
      show p.vehicle.autoThrottle p.maxAcceleration (p.systemPre s).mass (p.systemPre s).pressure
        f.fin = _
      rw [hlim, hmass', hpr, h1]
    have hv : (p.systemForces (p.systemPre s) f.fin).vehicleAccelerationBody.norm =
        .fin (sensed m f (fullThrust es pr) k') := by
      show V3.norm ((f.fin + p.vehicle.thrustForce (p.vehicle.autoThrottle p.maxAcceleration
        (p.systemPre s).mass (p.systemPre s).pressure f.fin) (p.systemPre s).pressure).divS
        (p.systemPre s).mass) = _
      rw [hlim, hmass', hpr, h1, thrustForce_fin hE, V3.fin_add']
      unfold V3.divS
      have hd : ∀ w : V3 ℝ, (⟨w.fin.x / .fin m, w.fin.y / .fin m, w.fin.z / .fin m⟩ : V3 XR) =
          (rscale (1 / m) w).fin := by
        intro w
        simp only [V3.fin, V3.map, XR.fin_div _ _ hm.ne', rscale, V3.mk.injEq, XR.fin_inj]
        refine ⟨?_, ?_, ?_⟩ <;> ring
      rw [hd, V3.fin_norm, rnorm_rscale, abs_of_pos (by positivity)]
      unfold sensed
      congr 1
      ring
    rw [ht, hv, XR.isNan_fin, hlim]
    have hA : 0 ≤ A := ((sensed_le_iff hm _ _).1 h2.2.2).1
    have hA' : sensed m f (fullThrust es pr) k' ≤ A * 1.001 := by
      refine le_trans h2.2.2 ?_
      nlinarith
    simp only [Flt.gt]
    xr_eval
    simp [hA']
  rw [if_neg (by rw [this]; simp)] at herr
  cases herr

/-- A vehicle of mass 2 with one engine of thrust 10 (isp 1, no exit area), drag 1 against the
thrust and limit 2: throttle settings up to 0.5 are allowed, so the theorems apply. -/
example : Allowed 2 2 ⟨-1, 0, 0⟩ (fullThrust [⟨10, 1, 0, 0, 0⟩] 0) (1 / 2) := by
  refine ⟨by norm_num, by norm_num, ?_⟩
  unfold sensed fullThrust rsum RealEngine.thrustAt RealEngine.direction rscale radd rnorm
  simp
  norm_num
  rw [show (16 : ℝ) = 4 ^ 2 by norm_num, Real.sqrt_sq (by norm_num)]
  norm_num

end limit
end Post
