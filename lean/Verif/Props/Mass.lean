import Verif.Lemmas.RK
import Verif.Props.Unlimited
import Verif.Props.Time
import Verif.Props.Integrator
/-! # Thrust, mass flow and mass (C34-C36), exact arithmetic -/

namespace Post
open Spec Flt

/-! ## C34: the thrust law -/

theorem direction_unit (e : RealEngine) : rnorm e.direction = 1 := by
  unfold rnorm RealEngine.direction
  rw [Real.sqrt_eq_one]
  have h1 := Real.sin_sq_add_cos_sq e.yaw
  have h2 := Real.sin_sq_add_cos_sq e.pitch
  simp only
  linear_combination h1 + Real.cos e.yaw ^ 2 * h2

/-- C34 (one engine).  In air of pressure `p` an engine pushes with vacuum thrust minus exit area
times pressure, along the unit vector given by its mounting angles; so the magnitude is the
absolute value of that number. -/
theorem C34_engine (e : RealEngine) (p : ℝ) :
    ∃ w : V3 ℝ, e.toEngine.thrust (.fin p) = w.fin ∧
      w = rscale (e.thrust - e.area * p) e.direction ∧ rnorm e.direction = 1 ∧
      rnorm w = |e.thrust - e.area * p| :=
  ⟨_, RealEngine_thrust e p, rfl, direction_unit e, by
    unfold RealEngine.thrustAt
    rw [rnorm_rscale, direction_unit, mul_one]⟩

/-- The mounting angles mean what they should: an engine without incidence pushes along the first
body axis, a yaw angle turns it towards the second axis, a pitch angle towards the third. -/
example (T I A : ℝ) : (RealEngine.mk T I A 0 0).direction = ⟨1, 0, 0⟩ := by
  simp [RealEngine.direction]
example (T I A : ℝ) : (RealEngine.mk T I A (Real.pi / 2) 0).direction = ⟨0, 1, 0⟩ := by
  simp [RealEngine.direction]
example (T I A : ℝ) : (RealEngine.mk T I A 0 (Real.pi / 2)).direction = ⟨0, 0, 1⟩ := by
  simp [RealEngine.direction]

/-- C34 (sum).  The thrust is the throttle times the sum of the engines' thrust vectors. -/
theorem C34_sum {v : Vehicle XR} {es : List RealEngine} (h : HasEngines v es) (k p : ℝ) :
    v.thrustForce (.fin k) (.fin p) = (rscale k (rsum (es.map (·.thrustAt p)))).fin :=
  thrustForce_fin h k p

theorem massflow_engine (e : RealEngine) (h : e.isp ≠ 0) :
    e.toEngine.massflow = .fin (-e.consumption) := by
  unfold Engine.massflow RealEngine.toEngine RealEngine.consumption STD_GRAVITY
  xr_eval
  rw [XR.fin_div _ _ h, XR.fin_div _ _ (by norm_num)]
  congr 1
  ring

theorem sum_neg (l : List ℝ) : (l.map Neg.neg).sum = -l.sum := by
  induction l with
  | nil => simp
  | cons a l ih => simp only [List.map_cons, List.sum_cons, ih]; ring

theorem massflow_fin {v : Vehicle XR} {es : List RealEngine} (h : HasEngines v es)
    (hi : ∀ e ∈ es, e.isp ≠ 0) (k : ℝ) :
    v.massflow (.fin k) = .fin (-(k * fullConsumption es)) := by
  unfold Vehicle.massflow
  have : v.engines.map (fun e => e.massflow) = (es.map fun e => -e.consumption).map XR.fin := by
    rw [show v.engines = es.map (·.toEngine) from h, List.map_map, List.map_map]
    exact List.map_congr_left fun e he => massflow_engine e (hi e he)
  rw [this, sum_fin, XR.fin_mul, XR.fin_inj]
  unfold fullConsumption
  rw [show (es.map fun e => -e.consumption) = (es.map (·.consumption)).map Neg.neg by
    rw [List.map_map]; rfl, sum_neg]
  ring

/-- C34 (order).  The order of the engines does not matter, for thrust and mass flow. -/
theorem C34_order {v w : Vehicle XR} {es fs : List RealEngine} (hv : HasEngines v es)
    (hw : HasEngines w fs) (hp : es.Perm fs) (k p : ℝ) :
    v.thrustForce (.fin k) (.fin p) = w.thrustForce (.fin k) (.fin p) ∧
    ((∀ e ∈ es, e.isp ≠ 0) → v.massflow (.fin k) = w.massflow (.fin k)) := by
  constructor
  · rw [thrustForce_fin hv, thrustForce_fin hw]
    congr 2
    unfold fullThrust rsum
    have := hp.map (·.thrustAt p)
    rw [V3.mk.injEq]
    exact ⟨(this.map _).sum_eq, (this.map _).sum_eq, (this.map _).sum_eq⟩
  · intro hi
    rw [massflow_fin hv hi, massflow_fin hw fun e he => hi e (hp.mem_iff.2 he)]
    congr 3
    unfold fullConsumption
    exact (hp.map _).sum_eq

/-- C34 (no engines).  Without engines thrust and mass flow are zero. -/
theorem C34_no_engines {v : Vehicle XR} (h : v.engines = []) (k : ℝ) (p : XR) :
    v.thrustForce (.fin k) p = V3.fin ⟨0, 0, 0⟩ ∧ v.massflow (.fin k) = .fin 0 := by
  constructor
  · unfold Vehicle.thrustForce
    rw [h, List.map_nil]
    show V3.smul _ V3.zero = _
    rw [V3.fin_zero, V3.fin_smul]
    simp
  · have := massflow_fin (v := v) (es := []) h (by simp) k
    simpa [fullConsumption] using this

/-! ## C35: mass never grows -/

/-- Engines with non-negative thrust and positive specific impulse. -/
def Spec.Realistic (es : List RealEngine) : Prop := ∀ e ∈ es, 0 ≤ e.thrust ∧ 0 < e.isp

theorem fullConsumption_nonneg {es : List RealEngine} (h : Realistic es) :
    0 ≤ fullConsumption es := by
  apply List.sum_nonneg
  intro x hx
  obtain ⟨e, he, rfl⟩ := List.mem_map.1 hx
  obtain ⟨h1, h2⟩ := h e he
  unfold RealEngine.consumption
  positivity

theorem inUnit_fin {x : XR} (h : InUnit x) : ∃ k : ℝ, x = .fin k ∧ 0 ≤ k ∧ k ≤ 1 := by
  unfold InUnit at h
  rw [XR.fin_zero, XR.fin_one] at h
  cases x with
  | fin k =>
    refine ⟨k, rfl, ?_, ?_⟩
    · rcases h.1 with h | h
      · rw [XR.fin_lt, decide_eq_true_iff] at h; exact h.le
      · rw [XR.fin_eq, decide_eq_true_iff] at h; exact h.le
    · rcases h.2 with h | h
      · rw [XR.fin_lt, decide_eq_true_iff] at h; exact h.le
      · rw [XR.fin_eq, decide_eq_true_iff] at h; exact h.le
  | nan => rcases h.1 with h | h <;> cases h
  | ninf => rcases h.1 with h | h <;> cases h
  | pinf => rcases h.2 with h | h <;> cases h

theorem system_throttle {p : Phase XR} {s s' : State XR} (h : p.system s = .ok s') :
    ∃ k : ℝ, s'.throttle = .fin k ∧ 0 ≤ k ∧ k ≤ 1 := by
  apply inUnit_fin
  have hlim := Phase.system_limit h
  have hc := (system_consistent h).throttle
  rcases C32_throttle_range p.vehicle p.maxAcceleration s'.mass s'.pressure s'.aeroForceBody with h | h
  · unfold Phase.exceedsLimit at hlim
    rw [hc, h] at hlim
    simp at hlim
  · rw [hc]; exact h

/-- Whenever the equations of motion succeed, the mass flow is real, not positive, and not more
than that at full throttle. -/
theorem system_massflow {p : Phase XR} {es : List RealEngine} (hE : HasEngines p.vehicle es)
    (hr : Realistic es) {s s' : State XR} (h : p.system s = .ok s') :
    ∃ q : ℝ, s'.massflow = .fin q ∧ -fullConsumption es ≤ q ∧ q ≤ 0 := by
  obtain ⟨k, hk, h0, h1⟩ := system_throttle h
  have hc := fullConsumption_nonneg hr
  refine ⟨-(k * fullConsumption es), ?_, by nlinarith, by nlinarith⟩
  rw [(system_consistent h).massflow, hk, massflow_fin hE fun e he => (hr e he).2.ne']

/-- C35 (flow).  In every state a run visits, mass leaves the vehicle, at most at the rate of
full throttle. -/
theorem C35_flow {p : Phase XR} {es : List RealEngine} (hE : HasEngines p.vehicle es)
    (hr : Realistic es) {s : State XR} (hs : Visited p s) :
    ∃ q : ℝ, s.massflow = .fin q ∧ -fullConsumption es ≤ q ∧ q ≤ 0 := by
  obtain ⟨s1, h⟩ := hs.system
  exact system_massflow hE hr h

theorem fin_sixth : (1 / 6 : XR) = .fin (1 / 6) := by
  rw [XR.fin_one, XR.fin_nat, XR.fin_div _ _ (by norm_num)]
theorem fin_third : (1 / 3 : XR) = .fin (1 / 3) := by
  rw [XR.fin_one, XR.fin_nat, XR.fin_div _ _ (by norm_num)]

/-- C35 (steps).  An integration step of non-negative size never increases the mass and removes
at most the step size times the full-throttle consumption. -/
theorem C35_step {p : Phase XR} {es : List RealEngine} (hE : HasEngines p.vehicle es)
    (hr : Realistic es) {s s' : State XR} {h m : ℝ} (hh : 0 ≤ h) (hm : s.mass = .fin m)
    (hs : OneStep p (.fin h) s s') :
    ∃ m' : ℝ, s'.mass = .fin m' ∧ m - h * fullConsumption es ≤ m' ∧ m' ≤ m := by
  obtain ⟨s1, s2, s3, s4, d1, d2, d3, d4, f1, f2, f3, f4, _, _, _, _, hm'⟩ := oneStep_mass hs
  obtain ⟨q1, e1, a1, b1⟩ := system_massflow hE hr f1
  obtain ⟨q2, e2, a2, b2⟩ := system_massflow hE hr f2
  obtain ⟨q3, e3, a3, b3⟩ := system_massflow hE hr f3
  obtain ⟨q4, e4, a4, b4⟩ := system_massflow hE hr f4
  rw [e1, e2, e3, e4, hm, fin_sixth, fin_third, XR.fin_zero] at hm'
  simp only [XR.fin_mul, XR.fin_add] at hm'
  refine ⟨_, hm', ?_, ?_⟩ <;> nlinarith

/-- C35 (linear).  Without acceleration limit the mass falls exactly linearly: a step of size `h`
(positive, or negative as in a correction) removes `h` times the full-throttle consumption, as long
as there is mass before and after. -/
theorem C35_linear {p : Phase XR} {es : List RealEngine} (hE : HasEngines p.vehicle es)
    (hr : Realistic es) (hlim : p.maxAcceleration = Flt.inf) {s s' : State XR} {h m : ℝ}
    (hm : s.mass = .fin m) (hm0 : 0 < m) (hpos : 0 < m - h * fullConsumption es)
    (hs : OneStep p (.fin h) s s') : s'.mass = .fin (m - h * fullConsumption es) := by
  obtain ⟨s1, s2, s3, s4, d1, d2, d3, d4, f1, f2, f3, f4, m1, m2, m3, m4, hm'⟩ := oneStep_mass hs
  have hc := fullConsumption_nonneg hr
  have flow : ∀ {st d : State XR} {μ : ℝ}, p.system st = .ok d → st.mass = .fin μ → 0 < μ →
      d.massflow = .fin (-fullConsumption es) := by
    intro st d μ hd hμ hpos
    rw [(system_consistent hd).massflow, system_unlimited_throttle hlim hd hμ hpos,
      massflow_fin hE fun e he => (hr e he).2.ne', one_mul]
  rw [hm, XR.fin_zero] at m1
  simp only [XR.fin_mul, XR.fin_add] at m1
  have e1 := flow f1 m1 (by linarith)
  rw [hm, XR.fin_zero, e1, fin_half] at m2
  simp only [XR.fin_mul, XR.fin_add] at m2
  have e2 := flow f2 m2 (by nlinarith)
  rw [hm, XR.fin_zero, e1, e2, fin_half] at m3
  simp only [XR.fin_mul, XR.fin_add] at m3
  have e3 := flow f3 m3 (by nlinarith)
  rw [hm, XR.fin_zero, e1, e2, e3, XR.fin_one] at m4
  simp only [XR.fin_mul, XR.fin_add] at m4
  have e4 := flow f4 m4 (by nlinarith)
  rw [e1, e2, e3, e4, hm, fin_sixth, fin_third, XR.fin_zero] at hm'
  simp only [XR.fin_mul, XR.fin_add] at hm'
  rw [hm', XR.fin_inj]
  ring

end Post
