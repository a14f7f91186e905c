import Verif.Lemmas.ForcesF64
import Verif.Props.DoubleAttitude
import Verif.Props.Real
/-! # C95: thrust, aerodynamic forces and sensed acceleration in double precision -/

set_option exponentiation.threshold 2000

namespace Post
open Spec Flt F64
variable {L : Libm}

/-- C95 (thrust).  In every state visited, the reported thrust is the reported throttle times the sum of the thrusts of the
engines in air of the reported pressure, each in the direction of its mounting; the error is at most 5e-14 of the sum of the
vacuum thrusts and the forces of the air on the exit areas. -/
theorem C95_thrust (hF : FrameLibrary L) {p : Phase (F64 L)} {s : State (F64 L)} (hs : Visited p s) {es : List RealEngine}
    (h : List.Forall₂ EngineReads p.vehicle.engines es) (hlen : es.length ≤ 100) {k P : ℝ} (hk : Reads s.throttle k)
    (hk' : |k| ≤ 1) (hP : Reads s.pressure P) (h0 : 0 ≤ P) (h1 : P ≤ 1e8) :
    ∃ T, ReadsV s.thrustForceBody T ∧ rdist T (rscale k (fullThrust es P)) ≤ 5e-14 * grossThrust es P + 1e-34 := by
  rw [(C57_visited_consistent hs).thrustForceBody]
  obtain ⟨g0, n, _⟩ := thrustForce_near hF h hlen hk hk' hP h0 h1
  exact n.readsV (by norm_num; linarith)

/-- C95 (air).  In every state visited in which the tables of the three coefficients can be used, the reported aerodynamic
force is the one given by the exact interpolation of the tables and the reported dynamic pressure and angle of attack, the
drag against the air velocity in the pitch plane, the lift perpendicular to it and the side force along the second axis; the
error is at most 5e-14 times dynamic pressure, reference area and the largest coefficient. -/
theorem C95_air (hF : FrameLibrary L) {p : Phase (F64 L)} {s : State (F64 L)} (hs : Visited p s) {M : ℝ}
    (hc : CoefficientsCovered p s M) {q S α : ℝ} (hq : Reads s.dynamicPressure q) (hS : Reads p.vehicle.referenceArea S)
    (hα : Reads s.alpha α) (q0 : 0 ≤ q) (q1 : q ≤ 1e9) (S0 : 0 ≤ S) (S1 : S ≤ 1e6) (hα' : |α| ≤ 1000) :
    ∃ f, ReadsV s.aeroForceBody f ∧ rdist f (tableForce p s (q * S) α) ≤ 5e-14 * (q * S * M) + 1e-21 := by
  obtain ⟨f, h1, n, _⟩ := aeroForce_near hF hc hq hS hα q0 q1 S0 S1 hα'
  rw [C57_visited_aero hs hc.early] at h1
  injection h1 with h1
  rw [h1]
  refine n.readsV ?_
  have : 0 ≤ q * S * M := mul_nonneg (mul_nonneg q0 S0) (le_trans (by norm_num) hc.low)
  norm_num
  linarith

/-- C95 (Newton).  In every state visited, the reported sensed acceleration is the sum of the reported forces divided by the
reported mass, up to 7e-16 of its size. -/
theorem C95_newton {p : Phase (F64 L)} {s : State (F64 L)} (hs : Visited p s) {f T : V3 ℝ} {m : ℝ}
    (hf : ReadsV s.aeroForceBody f) (hT : ReadsV s.thrustForceBody T) (hm : Reads s.mass m) (hm1 : 1e-6 ≤ m)
    (hW : rnorm (radd f T) ≤ 1e25) :
    ∃ b, ReadsV s.vehicleAccelerationBody b ∧
      rdist b (rscale (1 / m) (radd f T)) ≤ 7e-16 * (rnorm (radd f T) / m) + 1e-32 := by
  rw [(C57_visited_consistent hs).vehicleAccelerationBody]
  refine (newton_near hf hT hm hm1 hW).readsV ?_
  have : 0 ≤ rnorm (radd f T) / m := div_nonneg (Real.sqrt_nonneg _) (le_trans (by norm_num) hm1)
  norm_num
  linarith

/-- C95 (consumption).  In every state visited, the reported mass flow is minus the reported throttle times the consumption
of the engines, up to 3e-13 of it. -/
theorem C95_massflow {p : Phase (F64 L)} {s : State (F64 L)} (hs : Visited p s) {es : List RealEngine}
    (h : List.Forall₂ EngineDouble p.vehicle.engines es) (hlen : es.length ≤ 100) (hQ : fullConsumption es ≤ 1e5) {k : ℝ}
    (hk : Reads s.throttle k) (h0 : 0 ≤ k) (h1 : k ≤ 1) :
    WithinOf s.massflow (-(k * fullConsumption es)) (3e-13 * fullConsumption es + 1e-33) := by
  rw [(C57_visited_consistent hs).massflow]
  exact (massflow_near h hlen hQ hk h0 h1).withinOf

/-- C95 (all together).  In every state visited, the reported sensed acceleration is that of the exact aerodynamic force of
the tables and the exact thrust of the engines, for the reported dynamic pressure, pressure, angle of attack, throttle and
mass, up to 1e-13 of what these forces can be at most, divided by the mass. -/
theorem C95_sensed (hF : FrameLibrary L) {p : Phase (F64 L)} {s : State (F64 L)} (hs : Visited p s) {es : List RealEngine}
    (h : List.Forall₂ EngineReads p.vehicle.engines es) (hlen : es.length ≤ 100) {M : ℝ} (hc : CoefficientsCovered p s M)
    {k P q S α m : ℝ} (hk : Reads s.throttle k) (hk' : |k| ≤ 1) (hP : Reads s.pressure P) (h0 : 0 ≤ P) (h1 : P ≤ 1e8)
    (hq : Reads s.dynamicPressure q) (hS : Reads p.vehicle.referenceArea S) (hα : Reads s.alpha α) (q0 : 0 ≤ q) (q1 : q ≤ 1e9)
    (S0 : 0 ≤ S) (S1 : S ≤ 1e6) (hα' : |α| ≤ 1000) (hm : Reads s.mass m) (hm1 : 1e-6 ≤ m)
    (hG : grossThrust es P ≤ 1e20) :
    ∃ b, ReadsV s.vehicleAccelerationBody b ∧
      rdist b (rscale (1 / m) (radd (tableForce p s (q * S) α) (rscale k (fullThrust es P)))) ≤
        1e-13 * ((q * S * M + grossThrust es P) / m) + 1e-14 := by
  have hm0 : 0 < m := lt_of_lt_of_le (by norm_num) hm1
  obtain ⟨g0, _, t1, t2, t3⟩ := thrustForce_near hF h hlen hk hk' hP h0 h1
  obtain ⟨_, _, _, a1, a2, a3⟩ := aeroForce_near hF hc hq hS hα q0 q1 S0 S1 hα'
  obtain ⟨T, hT, hT'⟩ := C95_thrust hF hs h hlen hk hk' hP h0 h1
  obtain ⟨f, hf, hf'⟩ := C95_air hF hs hc hq hS hα q0 q1 S0 S1 hα'
  have hA0 : 0 ≤ q * S * M := mul_nonneg (mul_nonneg q0 S0) (le_trans (by norm_num) hc.low)
  have hA1 : q * S * M ≤ 1e21 := by
    have h2 := mul_le_mul q1 S1 S0 (by norm_num)
    have h3 := mul_le_mul h2 hc.high (le_trans (by norm_num) hc.low) (by norm_num)
    norm_num at h3 ⊢
    linarith
  set τ := rscale k (fullThrust es P)
  set φ := tableForce p s (q * S) α
  have n1 := rnorm_le_of_comp t1 t2 t3
  have n2 := rnorm_le_of_comp a1 a2 a3
  set A := q * S * M
  set G := grossThrust es P
  have e0 := rnorm_add_le f T
  have e1 := rnorm_triangle f φ
  have e2 := rnorm_triangle T τ
  have hW : rnorm (radd f T) ≤ 5 * (A + G) + 1e-15 := by
    clear t1 t2 t3 a1 a2 a3
    norm_num at *
    linarith
  obtain ⟨b, hb, hb'⟩ := C95_newton hs hf hT hm hm1 (hW.trans (by norm_num at *; linarith))
  refine ⟨b, hb, ?_⟩
  have e3 := rdist_triangle b (rscale (1 / m) (radd f T)) (rscale (1 / m) (radd φ τ))
  have e4 : rdist (rscale (1 / m) (radd f T)) (rscale (1 / m) (radd φ τ)) ≤ (rdist f φ + rdist T τ) / m := by
    have : rsub (rscale (1 / m) (radd f T)) (rscale (1 / m) (radd φ τ)) = rscale (1 / m) (radd (rsub f φ) (rsub T τ)) := by
      unfold rsub rscale radd
      simp only [V3.mk.injEq]
      refine ⟨by ring, by ring, by ring⟩
    show rnorm (rsub _ _) ≤ _
    rw [this, rnorm_rscale, abs_of_pos (by positivity), one_div, inv_mul_eq_div]
    exact div_le_div_of_nonneg_right (rnorm_add_le _ _) hm0.le
  have e5 : (rdist f φ + rdist T τ) / m ≤ (5e-14 * (A + G) + 2e-21) / m := by
    refine div_le_div_of_nonneg_right ?_ hm0.le
    clear t1 t2 t3 a1 a2 a3
    norm_num at *
    linarith
  have e6 : rnorm (radd f T) / m ≤ (5 * (A + G) + 1e-15) / m := div_le_div_of_nonneg_right hW hm0.le
  have e7 : (5e-14 * (A + G) + 2e-21) / m = 5e-14 * ((A + G) / m) + 2e-21 * (1 / m) := by field_simp
  have e8 : (5 * (A + G) + 1e-15) / m = 5 * ((A + G) / m) + 1e-15 * (1 / m) := by field_simp
  have hi : 1 / m ≤ 1e6 := by
    rw [div_le_iff₀ hm0]
    norm_num at *
    linarith
  have hi0 : 0 ≤ 1 / m := by positivity
  have hj0 : 0 ≤ (A + G) / m := by positivity
  rw [e7] at e5
  rw [e8] at e6
  generalize 1 / m = I at *
  generalize (A + G) / m = J at *
  clear t1 t2 t3 a1 a2 a3 n1 n2 hT' hf' hW e7 e8 e0 e1 e2 hA0 hA1 hG
  norm_num at *
  linarith

/-! ## Examples -/

/-- The vehicle of `exampleTurning` in vacuum: the thrust is the throttle times 1000 kN along the first axis, the sensed
acceleration is the thrust divided by 1000 kg, and the mass flow is the throttle times 339.9 kg/s. -/
example : ∃ s k T b, Visited exampleTurning s ∧ Reads s.throttle k ∧ ReadsV s.thrustForceBody T ∧
    rdist T (rscale k (fullThrust [realOneEngine] 0)) ≤ 6e-8 ∧ ReadsV s.vehicleAccelerationBody b ∧
    rdist b (rscale (1 / 1000) T) ≤ 1e-12 ∧
    WithinOf s.massflow (-(k * (1000000 / 300 / 9.80665))) 2e-10 := by
  have hz : Reads (0 : F64 fullLibm) 0 := reads_zero
  have h30 : Reads (30 : F64 fullLibm) 30 := by simpa using reads_nat (L := fullLibm) 30 (by norm_num)
  have h1000 : Reads (1000 : F64 fullLibm) 1000 := by simpa using reads_nat (L := fullLibm) 1000 (by norm_num)
  have hM : Reads (1000000 : F64 fullLibm) 1000000 := by simpa using reads_nat (L := fullLibm) 1000000 (by norm_num)
  have h300 : Reads (300 : F64 fullLibm) 300 := by simpa using reads_nat (L := fullLibm) 300 (by norm_num)
  obtain ⟨s, k, _, hs, hk, k0, k1, _⟩ := C85_vacuum (p := exampleTurning) fullLibm_trig exampleTurning.state rfl
    ⟨wellFormed_default, wellFormed_default, wellFormed_default⟩ h30 (by norm_num) (by norm_num) h1000 (by norm_num)
    (by norm_num) oneEngine_thrust_full (by rw [rnorm_x] <;> norm_num) (by rw [rnorm_x] <;> norm_num)
  have hvis : Visited exampleTurning s := ⟨s, [], _, hs, .nil _, .inl rfl⟩
  have hpr : s.pressure = 0 := by
    rw [(C57_visited_consistent hvis).pressure]
    rfl
  have hmass : Reads s.mass 1000 := by
    rw [(Phase.system_primary hs).2.2.2.2]
    exact h1000
  have haero : ReadsV s.aeroForceBody ⟨0, 0, 0⟩ := by
    obtain ⟨aero, h1, _, rfl⟩ := Phase.system_ok hs
    obtain ⟨zx, zy, zz⟩ := aeroForce_zero rfl h1
    exact ⟨⟨0, zx.is, by norm_num⟩, ⟨0, zy.is, by norm_num⟩, ⟨0, zz.is, by norm_num⟩⟩
  have hE : List.Forall₂ EngineReads exampleTurning.vehicle.engines [realOneEngine] := by
    refine List.Forall₂.cons ⟨hM, hz, hz, hz, ?_, ?_, ?_, ?_⟩ .nil <;> norm_num [realOneEngine]
  have hE' : List.Forall₂ EngineDouble exampleTurning.vehicle.engines [realOneEngine] := by
    refine List.Forall₂.cons ⟨hM, h300, ?_, ?_, ?_, ?_⟩ .nil <;> norm_num [realOneEngine]
  obtain ⟨T, hT, hT'⟩ := C95_thrust fullLibm_frame hvis hE (by simp) hk (by rwa [abs_of_nonneg k0]) (P := 0)
    (by rw [hpr]; exact hz) le_rfl (by norm_num)
  have hfull : fullThrust [realOneEngine] 0 = ⟨1000000, 0, 0⟩ := by
    simp [fullThrust, rsum, RealEngine.thrustAt, realOneEngine, rscale, RealEngine.direction]
  have hgross : grossThrust [realOneEngine] 0 = 1000000 := by simp [grossThrust, realOneEngine]
  have hTn : rnorm T ≤ 1000001 := by
    have h1 := rnorm_triangle T (rscale k (fullThrust [realOneEngine] 0))
    rw [hfull, rnorm_rscale, rnorm_x _ (by norm_num), abs_of_nonneg k0] at h1
    rw [hgross, hfull] at hT'
    norm_num at hT'
    linarith
  have e0 : radd ⟨0, 0, 0⟩ T = T := by simp [radd]
  obtain ⟨b, hb, hb'⟩ := C95_newton hvis haero hT hmass (by norm_num) (by rw [e0]; exact hTn.trans (by norm_num))
  have hf := C95_massflow hvis hE' (by simp) (by norm_num [fullConsumption, RealEngine.consumption, realOneEngine]) hk k0 k1
  have hcon : fullConsumption [realOneEngine] = 1000000 / 300 / 9.80665 := by
    simp [fullConsumption, RealEngine.consumption, realOneEngine]
  rw [hcon] at hf
  rw [e0] at hb'
  refine ⟨s, k, T, b, hvis, hk, hT, hT'.trans ?_, hb, hb'.trans ?_, ?_⟩
  · rw [hgross]; norm_num
  · norm_num
    linarith
  · obtain ⟨r, r1, r2⟩ := hf
    refine ⟨r, r1, r2.trans ?_⟩
    norm_num

/-- A table with one axis and the entries 1 and 3 at 0 and 100. -/
noncomputable def exampleLine (v : StateVariable) : Table (F64 fullLibm) := .d1 ⟨(v, [0, 100]), [1, 3], .linear⟩

/-- A vehicle of 1000 kg and an area of 10 m², rising with 340 m/s, 10 km above the equator; its coefficients depend on the
time since the event. -/
noncomputable def exampleGlide : Phase (F64 fullLibm) :=
  { Phase.default with
    vehicle := ⟨0, 0, 10, exampleLine .timeSinceEvent,
      exampleLine .timeSinceEvent, exampleLine .timeSinceEvent, []⟩
    planet := EARTH_SMITHSONIAN
    atmosphere := { Phase.default.atmosphere with model := .standardAtmosphere1962 }
    state := { State.default with timeSinceEvent := 50, position := ⟨6388000, 0, 0⟩, velocity := ⟨340, 0, 0⟩, mass := 1000 } }

theorem exampleLine_wellFormed (v : StateVariable) : WellFormed (exampleLine v) := by
  refine ⟨?_, rfl⟩
  intro i hi
  have : i = 0 := by simp at hi; omega
  subst this
  show Flt.lt (0 : F64 fullLibm) 100 = true
  rw [is_lt (is_nat 0 (by norm_num)) (is_nat 100 (by norm_num))]
  norm_num

theorem exampleLine_covers {s : State (F64 fullLibm)} (h : s.timeSinceEvent = 50) :
    Covers 3 s (exampleLine .timeSinceEvent) ∧ exactValue s (exampleLine .timeSinceEvent) = 2 := by
  have e0 := real_nat (L := fullLibm) 0 (by norm_num)
  have e1 := real_nat (L := fullLibm) 1 (by norm_num)
  have e3 := real_nat (L := fullLibm) 3 (by norm_num)
  have e50 := real_nat (L := fullLibm) 50 (by norm_num)
  have e100 := real_nat (L := fullLibm) 100 (by norm_num)
  have hv : StateVariable.timeSinceEvent.getValue s = 50 := h
  constructor
  · refine ⟨by simp [Filled, exampleLine], ?_, ?_⟩
    · intro y hy
      simp only [exampleLine, Spec.entries, List.mem_cons, List.not_mem_nil, or_false] at hy
      rcases hy with rfl | rfl
      · exact ⟨isNumber_nat 1 (by norm_num), by rw [e1]; norm_num⟩
      · exact ⟨isNumber_nat 3 (by norm_num), by rw [e3]; norm_num⟩
    · intro a ha
      simp only [exampleLine, axes, List.mem_cons, List.not_mem_nil, or_false] at ha
      subst ha
      rw [hv]
      refine ⟨⟨?_, ?_⟩, isNumber_nat 50 (by norm_num), ?_, ?_⟩
      · intro x hx
        simp only [List.mem_cons, List.not_mem_nil, or_false] at hx
        rcases hx with rfl | rfl
        · exact ⟨isNumber_nat 0 (by norm_num), by rw [e0]; norm_num⟩
        · exact ⟨isNumber_nat 100 (by norm_num), by rw [e100]; norm_num⟩
      · intro i hi
        have : i = 0 := by simp at hi; omega
        subst this
        show (1e-20 : ℝ) ≤ real (100 : F64 fullLibm) - real (0 : F64 fullLibm)
        rw [e0, e100]; norm_num
      · intro a ha
        simp only [List.head?_cons, Option.some.injEq] at ha
        rw [← ha, e0, e50]; norm_num
      · intro a ha
        simp only [List.getLast?_cons_cons, List.getLast?_singleton, Option.some.injEq] at ha
        rw [← ha, e50, e100]; norm_num
  · unfold exampleLine exactValue
    simp only [hv, List.map_cons, List.map_nil, e0, e1, e3, e50, e100]
    norm_num [piecewise, line]

/-- A vehicle at rest in the frame of the launch site sees its velocity along the first axis. -/
theorem level_flight {roll yaw pitch : ℝ} {v : V3 ℝ} (hroll' : |roll| ≤ 1e-30) (hyaw' : |yaw| ≤ 1e-30)
    (hpitch' : |pitch| ≤ 1e-30) (d1 : |v.x - 340| ≤ 8e-11) (d2 : |v.y + 465.8199868| ≤ 8e-11) (d3 : |v.z| ≤ 8e-11) :
    300 ≤ (rmulVec (bodyFrame 0 0 0 roll yaw pitch) v).x := by
  have hsr := (Real.abs_sin_le_abs (x := roll)).trans hroll'
  have hsy := (Real.abs_sin_le_abs (x := yaw)).trans hyaw'
  have hcos : ∀ x : ℝ, |x| ≤ 1e-30 → 0.99 ≤ Real.cos x := by
    intro x hx
    have h1 := Real.one_sub_sq_div_two_le_cos (x := x)
    have : x ^ 2 ≤ 1e-30 := by
      rw [← sq_abs]
      have h0 := abs_nonneg x
      norm_num at hx
      nlinarith
    norm_num at this ⊢
    linarith
  have hcy := hcos yaw hyaw'
  have hcp := hcos pitch hpitch'
  have hcr1 := Real.abs_cos_le_one roll
  have hsp1 := Real.abs_sin_le_one pitch
  have ex : (rmulVec (bodyFrame 0 0 0 roll yaw pitch) v).x = Real.cos pitch * Real.cos yaw * v.x +
      (Real.cos pitch * Real.sin yaw * Real.cos roll + Real.sin pitch * Real.sin roll) * v.y +
      (Real.cos pitch * Real.sin yaw * Real.sin roll - Real.sin pitch * Real.cos roll) * v.z := by
    simp [rmulVec, bodyFrame, launchAxes, rmul, rdot, turnX, turnY, turnZ, up, east, north, M3.col1, M3.col2, M3.col3]
    ring
  have hcp' : |Real.cos pitch| ≤ 1 := Real.abs_cos_le_one _
  have t1 : |(Real.cos pitch * Real.sin yaw * Real.cos roll + Real.sin pitch * Real.sin roll) * v.y| ≤ 1 := by
    have a1 : |Real.cos pitch * Real.sin yaw * Real.cos roll| ≤ 1e-30 :=
      abs_mul_le (abs_mul_le hcp' hsy (M := 1e-30) (by norm_num)) hcr1 (by norm_num)
    have a2 : |Real.sin pitch * Real.sin roll| ≤ 1e-30 := abs_mul_le hsp1 hsr (by norm_num)
    have a3 : |v.y| ≤ 511 := by
      rw [abs_le] at d2 ⊢
      norm_num at d2 ⊢
      constructor <;> linarith [d2.1, d2.2]
    exact abs_mul_le (abs_add_le' a1 a2 (M := 1e-20) (by norm_num)) a3 (by norm_num)
  have t2 : |(Real.cos pitch * Real.sin yaw * Real.sin roll - Real.sin pitch * Real.cos roll) * v.z| ≤ 1 := by
    have a1 : |Real.cos pitch * Real.sin yaw * Real.sin roll| ≤ 1e-30 :=
      abs_mul_le (abs_mul_le hcp' hsy (M := 1e-30) (by norm_num)) (Real.abs_sin_le_one _) (by norm_num)
    have a2 : |-(Real.sin pitch * Real.cos roll)| ≤ 1 := by rw [abs_neg]; exact abs_mul_le hsp1 hcr1 (by norm_num)
    rw [sub_eq_add_neg]
    exact abs_mul_le (abs_add_le' a1 a2 (M := 2) (by norm_num)) d3 (by norm_num)
  have t4 : 0.9 ≤ Real.cos pitch * Real.cos yaw := by
    norm_num at hcp hcy ⊢
    nlinarith
  have t5 : 339 ≤ v.x := by
    have := (abs_le.1 d1).1
    norm_num at this ⊢
    linarith
  have t6 : 305 ≤ Real.cos pitch * Real.cos yaw * v.x := by
    generalize Real.cos pitch * Real.cos yaw = c at *
    norm_num at t4
    nlinarith
  rw [ex]
  linarith [(abs_le.1 t1).1, (abs_le.1 t2).1]

set_option maxHeartbeats 1000000 in
/-- The hypotheses of the theorem on the forces of the air are met by a vehicle that moves through air. -/
example : ∃ s q α f, Visited exampleGlide s ∧ Reads s.dynamicPressure q ∧ 0 < q ∧ Reads s.alpha α ∧
    ReadsV s.aeroForceBody f ∧ rdist f (airForce (q * 10) α 2 2 2) ≤ 5e-14 * (q * 10 * 3) + 1e-21 := by
  have hz : Reads (0 : F64 fullLibm) 0 := reads_zero
  have h10 : Reads (10 : F64 fullLibm) 10 := by simpa using reads_nat (L := fullLibm) 10 (by norm_num)
  obtain ⟨s, hs⟩ := coasting_system (p := exampleGlide) rfl rfl
    ⟨exampleLine_wellFormed _, exampleLine_wellFormed _, exampleLine_wellFormed _⟩ exampleGlide.state
  have hvis : Visited exampleGlide s := ⟨s, [], _, hs, .nil _, .inl rfl⟩
  have hpr := Phase.system_primary hs
  have hread : ReadsV s.position ⟨6388000, 0, 0⟩ := by
    rw [hpr.2.2.1]
    have h9 : Reads (6388000 : F64 fullLibm) 6388000 := by simpa using reads_nat (L := fullLibm) 6388000 (by norm_num)
    exact ⟨h9, hz, hz⟩
  have hvel : ReadsV s.velocity ⟨340, 0, 0⟩ := by
    rw [hpr.2.2.2.1]
    have h9 : Reads (340 : F64 fullLibm) 340 := by simpa using reads_nat (L := fullLibm) 340 (by norm_num)
    exact ⟨h9, hz, hz⟩
  have hsince : s.timeSinceEvent = 50 := hpr.2.1
  have hn : rnorm ⟨6388000, 0, 0⟩ = 6388000 := rnorm_x _ (by norm_num)
  have hn3 : rnorm ⟨340, 0, 0⟩ = 340 := rnorm_x _ (by norm_num)
  have hn0 : rnorm ⟨0, 0, 0⟩ = 0 := rnorm_x _ le_rfl
  have hd : DoubleComponents exampleGlide.state.position :=
    ⟨Dbl.round_isDouble _ _, Dbl.round_isDouble _ _, Dbl.round_isDouble _ _⟩
  have f1 : (EARTH_SMITHSONIAN : Planet XR).equatorialRadius = .fin (20925741 * 0.3048) := by
    show (2.0925741e7 * METER_PER_FOOT : XR) = _
    unfold METER_PER_FOOT
    rw [XR.fin_sci, XR.fin_sci, XR.fin_mul]
    norm_num
  have f2 : (EARTH_SMITHSONIAN : Planet XR).polarRadius = .fin (20855590 * 0.3048) := by
    show (2.0855590e7 * METER_PER_FOOT : XR) = _
    unfold METER_PER_FOOT
    rw [XR.fin_sci, XR.fin_sci, XR.fin_mul]
    norm_num
  have f3 : (EARTH_SMITHSONIAN : Planet XR).rotationRate = .fin 7.29211e-5 := by
    show (7.29211e-5 : XR) = _
    rw [XR.fin_sci]
  have hE : SameEarth exampleGlide.planet (EARTH_SMITHSONIAN : Planet XR) := .inr (.inr ⟨rfl, rfl⟩)
  have ev : rsub (rsub ⟨340, 0, 0⟩ (rcross ⟨0, 0, 7.29211e-5⟩ ⟨6388000, 0, 0⟩)) ⟨0, 0, 0⟩ = ⟨340, -465.8199868, 0⟩ := by
    unfold rsub rcross
    norm_num
  -- the dynamic pressure
  have hV1 : 340 ≤ rnorm ⟨340, -465.8199868, 0⟩ := by
    unfold rnorm
    refine Real.le_sqrt_of_sq_le ?_
    norm_num
  have hV2 : rnorm ⟨340, -465.8199868, 0⟩ ≤ 600 := by
    unfold rnorm
    rw [Real.sqrt_le_left (by norm_num)]
    norm_num
  have hh : RadialAltitude (20925741 * 0.3048) (20855590 * 0.3048) ⟨6388000, 0, 0⟩ (6388000 - 20925741 * 0.3048) := by
    refine ⟨by rw [hn]; norm_num, ?_⟩
    rw [hn]
    unfold OnEllipsoid rscale
    norm_num
  obtain ⟨g, l, hg, hl, hT, hP, _, q, hq, hq'⟩ := C91_mach fullLibm_air fullLibm_trig fullLibm_good
    (p := exampleGlide) hE f1 f2 f3 hd rfl (w := ⟨0, 0, 0⟩) ⟨hz, hz, hz⟩ (by rw [hn0]; norm_num)
    hvis hread hvel (by rw [hn]; norm_num) (by rw [hn]; norm_num) (by rw [hn3]; norm_num) hh (by rw [ev])
    (le_trans (by norm_num) hV1) (hV2.trans (by norm_num))
  have hg9 : 9800 ≤ g ∧ g ≤ 9900 := by
    unfold geopotential at hg
    norm_num [abs_le] at hg ⊢
    constructor <;> linarith [hg.1, hg.2]
  obtain ⟨_, _, _, hT160, _⟩ := layerNear_facts hl (by norm_num; linarith [hg9.1]) (by norm_num; linarith [hg9.2])
  have hl0 : l = layer 0.0 0.21162166e4 518.67 (-0.35661600e-2) := by
    refine layerAt_unique (h := g) ?_ (layerNear_inside hl ?_)
    · exact ⟨[], layers.tail, rfl, .inl rfl, by
        intro n hn
        obtain rfl : n = layer 36089.239 0.47268050e3 389.97 0.0 := by
          simpa [layers, eq_comm] using hn
        unfold layer; norm_num; linarith [hg9.2]⟩
    · intro n hn
      unfold layers layer at hn
      simp only [List.mem_cons, List.not_mem_nil, or_false] at hn
      rcases hn with rfl | rfl | rfl | rfl | rfl | rfl | rfl | rfl | rfl | rfl | rfl | rfl | rfl | rfl | rfl | rfl | rfl | rfl | rfl |
        rfl | rfl | rfl <;> rw [lt_abs] <;> norm_num <;> first | (left; linarith [hg9.1]) | (right; linarith [hg9.2])
  have hP5 : l.pressure g ≤ 1.1e5 := by
    have h0 : l.pressure 0 ≤ 1.1e5 := by
      unfold Layer.pressure
      rw [if_neg (by rw [hl0]; norm_num [layer]), show l.temperature 0 = l.temp by
        rw [hl0]; norm_num [layer, Layer.temperature], div_self (by rw [hl0]; norm_num [layer]), Real.one_rpow]
      rw [hl0]
      norm_num [layer]
    refine le_trans (le_of_lt ?_) h0
    refine layer_pressure_strictAnti (by rw [hl0]; norm_num [layer]) (by rw [hl0]; norm_num [layer])
      (by linarith [hg9.1]) ?_
    intro x _ hx
    rw [hl0]
    norm_num [layer, Layer.temperature]
    linarith [hg9.2]
  have hR := airGasConstant_pos
  have hV0 : 0 < rnorm ⟨340, -465.8199868, 0⟩ := by linarith
  have hqpos : 0 < l.pressure g / (airGasConstant * l.temperature g) / 2 * rnorm ⟨340, -465.8199868, 0⟩ ^ 2 := by
    positivity
  have hqle : l.pressure g / (airGasConstant * l.temperature g) / 2 * rnorm ⟨340, -465.8199868, 0⟩ ^ 2 ≤ 1e8 := by
    have h1 : 287 ≤ airGasConstant := by unfold airGasConstant; norm_num
    have h2 : 1 ≤ airGasConstant * l.temperature g := by
      norm_num at hT160
      nlinarith
    have h3 : l.pressure g / (airGasConstant * l.temperature g) ≤ 4 := by
      rw [div_le_iff₀ (by linarith)]
      norm_num at hT160 hP5
      nlinarith
    have h4 : rnorm ⟨340, -465.8199868, 0⟩ ^ 2 ≤ 360000 := by nlinarith
    have h5 : 0 ≤ l.pressure g / (airGasConstant * l.temperature g) := by positivity
    have h6 := sq_nonneg (rnorm ⟨340, -465.8199868, 0⟩)
    norm_num
    nlinarith
  rw [abs_of_pos hqpos] at hq'
  obtain ⟨j1, j2⟩ := abs_le.1 hq'
  generalize l.pressure g / (airGasConstant * l.temperature g) / 2 * rnorm ⟨340, -465.8199868, 0⟩ ^ 2 = q' at *
  have hq0 : 0 < q := by norm_num at j1; linarith
  have hq9 : q ≤ 1e9 := by norm_num at j2 hqle ⊢; linarith
  -- the angle of attack
  have ang : ∀ a : AxisName, WithinOf (a.angle s.eulerAngles) 0 1e-30 := by
    intro a
    have hv0 : Reads ((a.axis exampleGlide.steering).var.getValue s) 0 := by
      cases a <;> (show Reads s.time 0; rw [hpr.1]; exact hz)
    obtain ⟨r, r1, r2⟩ := C94_angle fullLibm_good hvis a (by cases a <;> decide) hv0 (c0 := 0) (c1 := 0) (c2 := 0) (c3 := 0)
      (by cases a <;> exact hz) (by cases a <;> exact hz) (by cases a <;> exact hz) (by cases a <;> exact hz) (T := 0)
      (by norm_num [abs_of_pos]) (by norm_num) (by norm_num) (by norm_num) (by norm_num) (by norm_num) (by norm_num)
    refine ⟨r, r1, ?_⟩
    have e0 : rad (cubic 0 0 0 0 0) = 0 := by norm_num [rad, cubic]
    rw [e0] at r2
    refine r2.trans ?_
    norm_num
  obtain ⟨roll, hroll, hroll'⟩ := ang .roll
  obtain ⟨yaw, hyaw, hyaw'⟩ := ang .yaw
  obtain ⟨pitch, hpitch, hpitch'⟩ := ang .pitch
  rw [sub_zero] at hroll' hyaw' hpitch'
  have hatt : AttitudeAngles s roll yaw pitch := ⟨⟨hroll, hyaw, hpitch⟩, hroll'.trans (by norm_num), hyaw'.trans (by norm_num),
    hpitch'.trans (by norm_num)⟩
  have hlaunch : LaunchAngles exampleGlide 0 0 0 := ⟨⟨hz, hz, hz⟩, by norm_num, by norm_num, by norm_num⟩
  obtain ⟨v, hv, hv'⟩ := (C91_velocity hE f3 hvis hread hvel (by rw [hn]; norm_num) (by rw [hn3]; norm_num)).2
    ⟨0, 0, 0⟩ ⟨hz, hz, hz⟩ (by rw [hn0]; norm_num)
  rw [ev] at hv'
  obtain ⟨d1, d2, d3⟩ := comp_le_rnorm (rsub v ⟨340, -465.8199868, 0⟩)
  replace d1 : |v.x - 340| ≤ 8e-11 := d1.trans hv'
  replace d2 : |v.y + 465.8199868| ≤ 8e-11 := by
    have e : v.y + 465.8199868 = v.y - (-465.8199868) := by ring
    rw [e]
    exact d2.trans hv'
  replace d3 : |v.z| ≤ 8e-11 := by
    have := d3.trans hv'
    simpa [rsub] using this
  have hnv : rnorm v ≤ 700 := by
    have h1 := rnorm_triangle v ⟨340, -465.8199868, 0⟩
    norm_num at h1 hV2 hv' ⊢
    linarith
  have hwx := level_flight hroll' hyaw' hpitch' d1 d2 d3
  obtain ⟨α, hα, hα'⟩ := C94_alpha fullLibm_frame fullLibm_launch hvis hlaunch hatt hv (hnv.trans (by norm_num)) rfl
    (le_trans (by norm_num) hwx) (by norm_num at hnv hwx ⊢; linarith)
  have hα9 : |α| ≤ 1000 := by
    have h1 : rnorm v / (rmulVec (bodyFrame 0 0 0 roll yaw pitch) v).x ≤ 3 := by
      rw [div_le_iff₀ (lt_of_lt_of_le (by norm_num) hwx)]
      linarith
    generalize (rmulVec (bodyFrame 0 0 0 roll yaw pitch) v).z / (rmulVec (bodyFrame 0 0 0 roll yaw pitch) v).x = t at *
    have h2 := Real.arctan_lt_pi_div_two t
    have h3 := Real.neg_pi_div_two_lt_arctan t
    have h4 := Real.pi_lt_d2
    rw [abs_le] at hα' ⊢
    norm_num at hα' h4 ⊢
    constructor <;> linarith [hα'.1, hα'.2]
  -- the force
  obtain ⟨hcov, hval⟩ := exampleLine_covers hsince
  have hc : CoefficientsCovered exampleGlide s 3 := by
    refine ⟨?_, ⟨exampleLine_wellFormed _, hcov⟩, ⟨exampleLine_wellFormed _, hcov⟩, ⟨exampleLine_wellFormed _, hcov⟩,
      by norm_num, by norm_num⟩
    intro t ht v hv
    have : t = exampleLine .timeSinceEvent := by simpa [exampleGlide] using ht
    subst this
    have : v = .timeSinceEvent := by simpa [tableVariables, exampleLine] using hv
    subst this
    decide
  obtain ⟨f, hf, hf'⟩ := C95_air fullLibm_frame hvis hc hq h10 hα hq0.le hq9 (by norm_num) (by norm_num) hα9
  have et : tableForce exampleGlide s (q * 10) α = airForce (q * 10) α 2 2 2 := by
    show airForce _ _ (exactValue s (exampleLine .timeSinceEvent)) (exactValue s (exampleLine .timeSinceEvent))
      (exactValue s (exampleLine .timeSinceEvent)) = _
    rw [hval]
  rw [et] at hf'
  exact ⟨s, q, α, f, hvis, hq, hq0, hα, hf, hf'⟩

end Post
