import Verif.Lemmas.F64Sign
import Verif.Lemmas.RK
import Verif.Props.Double
import Verif.Props.Throttle
/-! # C69: mass in double precision -/

namespace Post
open Spec Flt F64

/-- Engines with non-negative thrust and positive specific impulse, in double precision. -/
def Spec.RealisticF64 {L : Libm} (es : List (Engine (F64 L))) : Prop :=
  ∀ e ∈ es, ∃ t i : ℚ, e.thrustVac.Is t ∧ 0 ≤ t ∧ e.ispVac.Is i ∧ 0 < i

section
variable {L : Libm}

theorem is_notNeg {x : F64 L} {q : ℚ} (h : x.Is q) (hq : 0 ≤ q) : x.dbl.NotNeg := by
  obtain ⟨s, a, h1, h2, h3⟩ := h
  rw [h1]; show 0 ≤ Dbl.val s a; rw [h2]; exact hq

theorem is_notPos {x : F64 L} {q : ℚ} (h : x.Is q) (hq : q ≤ 0) : x.dbl.NotPos := by
  obtain ⟨s, a, h1, h2, h3⟩ := h
  rw [h1]; show Dbl.val s a ≤ 0; rw [h2]; exact hq

theorem is_magOk {x : F64 L} {q : ℚ} (h : x.Is q) : x.dbl.MagOk := by
  obtain ⟨s, a, h1, h2, h3⟩ := h
  rw [h1]; exact h3

theorem is_plus {x : F64 L} {q : ℚ} (h : x.Is q) (hq : 0 < q) : x.dbl.Plus := by
  obtain ⟨s, a, h1, h2, h3⟩ := h
  rw [h1]
  show s = false
  cases s
  · rfl
  · have : -a = q := h2
    linarith

theorem engine_massflow {e : Engine (F64 L)} {t i : ℚ} (ht : e.thrustVac.Is t) (ht0 : 0 ≤ t)
    (hi : e.ispVac.Is i) (hi0 : 0 < i) : e.massflow.dbl.NotPos ∧ e.massflow.dbl.MagOk := by
  unfold Engine.massflow
  have h1 : (-e.thrustVac / e.ispVac).dbl.NotPos :=
    Dbl.NotPos.div (is_magOk (is_neg ht)) (is_magOk hi) (is_notPos (is_neg ht) (by linarith))
      (is_plus hi hi0)
  have hm : (-e.thrustVac / e.ispVac).dbl.MagOk := (Dbl.div_isDouble _ _).magOk
  have hg : (STD_GRAVITY : F64 L).dbl.Plus ∧ (STD_GRAVITY : F64 L).dbl.MagOk := by
    refine ⟨?_, Dbl.round_magOk _ _⟩
    have : (STD_GRAVITY : F64 L).dbl = .fin false (5520653160719109 / 562949953421312) := by
      show Dbl.round false _ = _
      decide +kernel
    rw [this]; rfl
  exact ⟨Dbl.NotPos.div hm hg.2 h1 hg.1, (Dbl.div_isDouble _ _).magOk⟩

theorem foldl_notPos {l : List (F64 L)} (hl : ∀ x ∈ l, x.dbl.NotPos) {a : F64 L}
    (ha : a.dbl.NotPos) (ha' : a.dbl.IsDouble) :
    (l.foldl (· + ·) a).dbl.NotPos ∧ (l.foldl (· + ·) a).dbl.IsDouble := by
  induction l generalizing a with
  | nil => exact ⟨ha, ha'⟩
  | cons x l ih =>
    exact ih (fun y hy => hl y (by simp [hy])) (Dbl.NotPos.add ha (hl x (by simp)))
      (Dbl.add_isDouble _ _)

theorem zero_dbl : (0 : F64 L).dbl = .fin false 0 := by
  show Dbl.round false _ = _
  decide +kernel

theorem one_dbl : (1 : F64 L).dbl = .fin false 1 := by
  show Dbl.round false _ = _
  decide +kernel

theorem zero_notPos : (0 : F64 L).dbl.NotPos := by rw [zero_dbl]; simp [Dbl.NotPos, Dbl.val_zero]

theorem zero_isDouble : (0 : F64 L).dbl.IsDouble := by rw [zero_dbl]; exact Dbl.isMag_zero

theorem one_isDouble : (1 : F64 L).dbl.IsDouble := by
  rw [one_dbl]; exact ⟨1, 0, by norm_num, by norm_num, by norm_num, by norm_num⟩

theorem inUnit_notNeg {k : F64 L} (h : InUnit k) : k.dbl.NotNeg := by
  have h1 := h.1
  rcases k with ⟨_ | s | ⟨s, a⟩⟩
  · trivial
  · cases s
    · rfl
    · rcases h1 with h | h
      · have : Dbl.lt (0 : F64 L).dbl (.inf true) = true := h
        rw [zero_dbl] at this; cases this
      · have : Dbl.eq (0 : F64 L).dbl (.inf true) = true := h
        rw [zero_dbl] at this; cases this
  · show 0 ≤ Dbl.val s a
    rcases h1 with h | h
    · have : Dbl.lt (0 : F64 L).dbl (.fin s a) = true := h
      rw [zero_dbl] at this
      simp only [Dbl.lt, decide_eq_true_iff, Dbl.val_zero] at this
      exact this.le
    · have : Dbl.eq (0 : F64 L).dbl (.fin s a) = true := h
      rw [zero_dbl] at this
      simp only [Dbl.eq, decide_eq_true_iff, Dbl.val_zero] at this
      exact this.le

theorem clamp01_isDouble {x : F64 L} (h : x.dbl.IsDouble) : (clamp01 x).dbl.IsDouble := by
  unfold clamp01
  simp only
  split_ifs <;> first | exact one_isDouble | exact zero_isDouble | exact h

theorem autoThrottle_isDouble (v : Vehicle (F64 L)) (limit mass pressure : F64 L)
    (aero : V3 (F64 L)) : (v.autoThrottle limit mass pressure aero).dbl.IsDouble := by
  unfold Vehicle.autoThrottle
  simp only
  split
  · exact one_isDouble
  · split
    · exact clamp01_isDouble (Dbl.div_isDouble _ _)
    · exact one_isDouble

theorem system_throttle_f64 {p : Phase (F64 L)} {s s' : State (F64 L)} (h : p.system s = .ok s') :
    InUnit s'.throttle ∧ s'.throttle.dbl.IsDouble := by
  have hlim := Phase.system_limit h
  have hc := (system_consistent h).throttle
  refine ⟨?_, by rw [hc]; exact autoThrottle_isDouble _ _ _ _ _⟩
  rcases C32_throttle_range p.vehicle p.maxAcceleration s'.mass s'.pressure s'.aeroForceBody with
    h | h
  · unfold Phase.exceedsLimit at hlim
    rw [hc, h] at hlim
    simp at hlim
  · rw [hc]; exact h

theorem system_massflow_f64 {p : Phase (F64 L)} (hE : RealisticF64 p.vehicle.engines)
    {s s' : State (F64 L)} (h : p.system s = .ok s') :
    s'.massflow.dbl.NotPos ∧ s'.massflow.dbl.MagOk := by
  obtain ⟨h1, h2⟩ := system_throttle_f64 h
  rw [(system_consistent h).massflow]
  unfold Vehicle.massflow Flt.sum
  have h3 := foldl_notPos (l := p.vehicle.engines.map fun e => e.massflow) (by
    intro x hx
    obtain ⟨e, he, rfl⟩ := List.mem_map.1 hx
    obtain ⟨t, i, k1, k2, k3, k4⟩ := hE e he
    exact (engine_massflow k1 k2 k3 k4).1) (zero_notPos (L := L)) zero_isDouble
  exact ⟨Dbl.NotNeg.mul_notPos h2.magOk h3.2.magOk (inUnit_notNeg h1) h3.1,
    (Dbl.mul_isDouble _ _).magOk⟩

theorem sixth_ok : (1 / 6 : F64 L).dbl.NotNeg ∧ (1 / 6 : F64 L).dbl.MagOk := by
  refine ⟨?_, (Dbl.div_isDouble _ _).magOk⟩
  have h6 : (6 : F64 L).dbl = .fin false 6 := by
    show Dbl.round false _ = _
    decide +kernel
  refine Dbl.NotNeg.div ?_ ?_ ?_ ?_
  · exact one_isDouble.magOk
  · exact Dbl.round_magOk _ _
  · rw [one_dbl]; simp [Dbl.NotNeg, Dbl.val]
  · rw [h6]; rfl

theorem third_ok : (1 / 3 : F64 L).dbl.NotNeg ∧ (1 / 3 : F64 L).dbl.MagOk := by
  refine ⟨?_, (Dbl.div_isDouble _ _).magOk⟩
  have h6 : (3 : F64 L).dbl = .fin false 3 := by
    show Dbl.round false _ = _
    decide +kernel
  refine Dbl.NotNeg.div ?_ ?_ ?_ ?_
  · exact one_isDouble.magOk
  · exact Dbl.round_magOk _ _
  · rw [one_dbl]; simp [Dbl.NotNeg, Dbl.val]
  · rw [h6]; rfl

/-- C69 (steps).  In double precision: an integration step whose size is not negative never
increases the mass, not even by rounding. -/
theorem C69_step {p : Phase (F64 L)} (hE : RealisticF64 p.vehicle.engines) {h : F64 L}
    {s s' : State (F64 L)} (hh : h.dbl.NotNeg) (hh' : h.dbl.IsDouble)
    (hm : s.mass.dbl.IsDouble) (hs : OneStep p h s s') : AtMost s'.mass s.mass := by
  obtain ⟨s1, s2, s3, s4, d1, d2, d3, d4, f1, f2, f3, f4, _, _, _, _, hm'⟩ := oneStep_mass hs
  have flow : ∀ {st d : State (F64 L)} {c : F64 L}, p.system st = .ok d →
      c.dbl.NotNeg ∧ c.dbl.MagOk → (c * (h * d.massflow)).dbl.NotPos := by
    intro st d c hd hc
    obtain ⟨k1, k2⟩ := system_massflow_f64 hE hd
    exact Dbl.NotNeg.mul_notPos hc.2 (Dbl.mul_isDouble _ _).magOk hc.1
      (Dbl.NotNeg.mul_notPos hh'.magOk k2 hh k1)
  rw [atMost_iff, hm']
  exact Dbl.add_atMost hm (((((zero_notPos.add (flow f1 sixth_ok)).add (flow f2 third_ok)).add
    (flow f3 third_ok)).add (flow f4 sixth_ok)))

/-- In the state after a step the mass is a double. -/
theorem oneStep_isDouble {p : Phase (F64 L)} {h : F64 L} {s s' : State (F64 L)}
    (hs : OneStep p h s s') : s'.mass.dbl.IsDouble := by
  obtain ⟨s1, s2, s3, s4, d1, d2, d3, d4, f1, f2, f3, f4, _, _, _, _, hm'⟩ := oneStep_mass hs
  rw [hm']
  exact Dbl.add_isDouble _ _

/-- The corrected step size is not negative. -/
theorem timeToGo_notNeg {p : Phase (F64 L)} {v : StateVariable} {T : F64 L}
    {s s' : State (F64 L)} (hc : p.endCriterion = (v, T))
    (hh : p.stepsize.dbl.NotNeg) (hh' : p.stepsize.dbl.IsDouble) (hT : T.dbl.MagOk)
    (h0 : Flt.lt T (v.getValue s) = false) (h1 : Flt.lt T (v.getValue s') = true) :
    (p.timeToGo s s').dbl.NotNeg ∧ (p.timeToGo s s').dbl.IsDouble := by
  refine ⟨?_, Dbl.div_isDouble _ _⟩
  unfold Phase.timeToGo Phase.critValue
  simp only [hc]
  generalize v.getValue s = a at *
  generalize v.getValue s' = b at *
  have hy0 : (a - T).dbl.NotPos := by
    rcases a with ⟨_ | s | ⟨s, a⟩⟩ <;> rcases T with ⟨_ | t | ⟨t, b⟩⟩ <;>
      simp only [Flt.lt, Dbl.lt] at h0
    · trivial
    · trivial
    · trivial
    · trivial
    · show Dbl.NotPos (Dbl.add (.inf s) (.inf !t))
      cases s <;> cases t <;> simp_all [Dbl.add, Dbl.NotPos]
    · show Dbl.NotPos (Dbl.add (.inf s) (.fin (!t) b))
      simpa [Dbl.add, Dbl.NotPos] using h0
    · trivial
    · show Dbl.NotPos (Dbl.add (.fin s a) (.inf !t))
      simpa [Dbl.add, Dbl.NotPos] using h0
    · rw [decide_eq_false_iff_not, not_lt] at h0
      refine Dbl.round_notPos ?_
      have : Dbl.val (!t) b = -Dbl.val t b := by cases t <;> simp [Dbl.val]
      rw [this]; linarith
  have hy1 : (b - T).dbl.Plus ∧ ((b - T).dbl = .nan ∨ (b - T).dbl = .inf false ∨
      ∃ a, (b - T).dbl = .fin false a) := by
    have key : (b - T).dbl = .nan ∨ (b - T).dbl = .inf false ∨
      ∃ a, (b - T).dbl = .fin false a := by
      rcases b with ⟨_ | s | ⟨s, a⟩⟩ <;> rcases T with ⟨_ | t | ⟨t, b⟩⟩ <;>
        simp only [Flt.lt, Dbl.lt] at h1
      · cases h1
      · cases h1
      · cases h1
      · cases h1
      · cases s <;> cases t <;> simp at h1
        exact .inr (.inl rfl)
      · cases s <;> simp at h1
        exact .inr (.inl rfl)
      · cases h1
      · subst h1
        exact .inr (.inl rfl)
      · rw [decide_eq_true_iff] at h1
        have hpos : 0 < Dbl.val s a + Dbl.val (!t) b := by
          have : Dbl.val (!t) b = -Dbl.val t b := by cases t <;> simp [Dbl.val]
          rw [this]; linarith
        have hd : ((⟨.fin s a⟩ : F64 L) - ⟨.fin t b⟩).dbl =
          Dbl.round (s && !t) (Dbl.val s a + Dbl.val (!t) b) := rfl
        rw [hd]
        rcases Dbl.val_round (s && !t) (Dbl.val s a + Dbl.val (!t) b) with ⟨k, _⟩ | ⟨_, k⟩ | ⟨k, _⟩
        · linarith
        · rw [k]
          split
          · exact .inr (.inl rfl)
          · exact .inr (.inr ⟨_, rfl⟩)
        · linarith
    refine ⟨?_, key⟩
    rcases key with k | k | ⟨a, k⟩ <;> rw [k] <;> first | trivial | rfl
  have hnum : (-(a - T) * p.stepsize).dbl.NotNeg := by
    have hneg : (-(a - T)).dbl.NotNeg ∧ (-(a - T)).dbl.MagOk := by
      have hd : (a - T).dbl.MagOk := (Dbl.add_isDouble _ _).magOk
      show Dbl.NotNeg (a - T).dbl.neg ∧ Dbl.MagOk (a - T).dbl.neg
      rcases hx : (a - T).dbl with _ | s | ⟨s, c⟩
      · exact ⟨trivial, trivial⟩
      · rw [hx] at hy0
        have : s = true := hy0
        subst this
        exact ⟨rfl, trivial⟩
      · rw [hx] at hy0 hd
        refine ⟨?_, hd⟩
        have h3 : Dbl.val s c ≤ 0 := hy0
        show 0 ≤ Dbl.val (!s) c
        have : Dbl.val (!s) c = -Dbl.val s c := by cases s <;> simp [Dbl.val]
        rw [this]; linarith
    exact Dbl.NotNeg.mul hneg.2 hh'.magOk hneg.1 hh
  have hden : ((b - T) - (a - T)).dbl.Plus := by
    show (Dbl.add (b - T).dbl (a - T).dbl.neg).Plus
    rcases hx : (a - T).dbl with _ | s | ⟨s, c⟩ <;> rcases hy1.2 with k | k | ⟨d, k⟩ <;> rw [k] <;>
      try trivial
    · rw [hx] at hy0
      have : s = true := hy0
      subst this; rfl
    · rw [hx] at hy0
      have : s = true := hy0
      subst this; rfl
    · rw [hx] at hy0
      have h3 : Dbl.val s c ≤ 0 := hy0
      have hd : (b - T).dbl.MagOk := (Dbl.add_isDouble _ _).magOk
      rw [k] at hd
      have hd : 0 ≤ d := hd
      have hneg : Dbl.val (!s) c = -Dbl.val s c := by cases s <;> simp [Dbl.val]
      show (Dbl.round (false && !s) (Dbl.val false d + Dbl.val (!s) c)).Plus
      rcases Dbl.val_round (false && !s) (Dbl.val false d + Dbl.val (!s) c) with
        ⟨_, k⟩ | ⟨_, k⟩ | ⟨hlt, _⟩
      · rw [k]; rfl
      · rw [k]; split <;> rfl
      · rw [hneg] at hlt
        have : Dbl.val false d = d := rfl
        linarith
  exact Dbl.NotNeg.div (Dbl.mul_isDouble _ _).magOk (Dbl.add_isDouble _ _).magOk hnum hden

theorem lt_false_of_add {a h : F64 L} (ha : a.dbl.IsDouble) (hh : h.dbl.NotNeg) :
    Flt.lt (a + h) a = false := by
  show Dbl.lt (Dbl.add a.dbl h.dbl) a.dbl = false
  by_cases hn : Dbl.add a.dbl h.dbl = .nan
  · rw [hn]; rfl
  · have := Dbl.atMost_add ha hn hh
    generalize Dbl.add a.dbl h.dbl = b at *
    generalize a.dbl = a at *
    rcases a with _ | s | ⟨s, a⟩ <;> rcases b with _ | t | ⟨t, b⟩ <;>
      simp_all [Dbl.AtMost, Dbl.lt]

theorem atMost_trans {x y z : F64 L} (h1 : AtMost x y) (h2 : AtMost y z) : AtMost x z := by
  rw [atMost_iff] at *
  exact h1.trans h2

theorem atMost_refl (x : F64 L) : AtMost x x := by
  rw [atMost_iff]; exact Dbl.AtMost.refl _

/-- C69 (runs).  In double precision: in a phase that is ended by time and does not start after its
target, the mass never grows, not even by rounding: of any two states along the run the later one
has at most the mass of the earlier one (or NaN). -/
theorem C69_never_grows {r q : Phase (F64 L)} {ps : List (Phase (F64 L))} (hpath : Path r ps q)
    {v : StateVariable} (hv : IsTime v) {T : F64 L} (hc : r.endCriterion = (v, T))
    (hT : T.dbl.IsDouble) (hE : RealisticF64 r.vehicle.engines)
    (hst : r.stepsize.dbl.NotNeg) (hst' : r.stepsize.dbl.IsDouble)
    (ht : (v.getValue r.state).dbl.IsDouble) (hstart : Flt.lt T (v.getValue r.state) = false)
    (hm : r.state.mass.dbl.IsDouble) :
    List.Pairwise (fun x y => AtMost y.state.mass x.state.mass) (r :: ps) := by
  have main : ∀ {r q : Phase (F64 L)} {ps}, Path r ps q → r.endCriterion = (v, T) →
      RealisticF64 r.vehicle.engines → r.stepsize.dbl.NotNeg → r.stepsize.dbl.IsDouble →
      (v.getValue r.state).dbl.IsDouble → (r.ended = false → Flt.lt T (v.getValue r.state) = false) →
      r.state.mass.dbl.IsDouble →
      List.Pairwise (fun x y => AtMost y.state.mass x.state.mass) (r :: ps) ∧
        ∀ r' ∈ ps, AtMost r'.state.mass r.state.mass := by
    intro r q ps hpath
    induction hpath with
    | nil r => intros; simp
    | @cons r r1 q ps he h2 h3 ih =>
      intro hc hE hst hst' ht hstart hm
      have hsame := Phase.step_sameParams h2
      obtain ⟨_, s, hs, hcase⟩ := Phase.step_ok h2
      have htime := isTime_step hv hs
      have hback : Flt.lt (v.getValue s) (v.getValue r.state) = false := by
        rw [htime]; exact lt_false_of_add ht hst
      have hover : Overshot (v, T) r.state s ↔ Flt.lt T (v.getValue s) = true := by
        unfold Overshot
        simp [hback]
      have key : AtMost r1.state.mass r.state.mass ∧ r1.stepsize.dbl.NotNeg ∧
          r1.stepsize.dbl.IsDouble ∧ (v.getValue r1.state).dbl.IsDouble ∧
          (r1.ended = false → Flt.lt T (v.getValue r1.state) = false) ∧
          r1.state.mass.dbl.IsDouble := by
        have hd : (v.getValue s).dbl.IsDouble := by rw [htime]; exact Dbl.add_isDouble _ _
        rcases hcase with ⟨_, rfl⟩ | ⟨_, ho, _, rfl⟩ | ⟨_, ho, rfl⟩
        · exact ⟨C69_step hE hst hst' hm hs, hst, hst', hd, by simp, oneStep_isDouble hs⟩
        · rw [hc] at ho
          have := timeToGo_notNeg hc hst hst' hT.magOk (hstart he) (hover.1 ho)
          exact ⟨atMost_refl _, this.1, this.2, ht, fun _ => hstart he, hm⟩
        · rw [hc, hover] at ho
          exact ⟨C69_step hE hst hst' hm hs, hst, hst', hd, fun _ => by simpa using ho,
            oneStep_isDouble hs⟩
      obtain ⟨k1, k2, k3, k4, k5, k6⟩ := key
      obtain ⟨i1, i2⟩ := ih (by rw [hsame.endCriterion]; exact hc) (by rw [hsame.vehicle]; exact hE)
        k2 k3 k4 k5 k6
      have hall : ∀ r' ∈ r1 :: ps, AtMost r'.state.mass r.state.mass := by
        intro r' hr'
        rcases List.mem_cons.1 hr' with rfl | hr'
        · exact k1
        · exact atMost_trans (i2 r' hr') k1
      exact ⟨List.pairwise_cons.2 ⟨hall, i1⟩, hall⟩
  exact (main hpath hc hE hst hst' ht (fun _ => hstart) hm).1

/-! ### Configured phases -/

/-- mass and time are doubles -/
def Doubles (q : Phase (F64 L)) : Prop := q.state.mass.dbl.IsDouble ∧ q.state.time.dbl.IsDouble

theorem doubles_path {r q : Phase (F64 L)} {ps : List (Phase (F64 L))} (h : Path r ps q)
    (hr : Doubles r) : Doubles q := by
  induction h with
  | nil r => exact hr
  | @cons r r1 q ps he h2 h3 ih =>
    apply ih
    obtain ⟨_, s, hs, hcase⟩ := Phase.step_ok h2
    have h1 : s.mass.dbl.IsDouble ∧ s.time.dbl.IsDouble := by
      refine ⟨oneStep_isDouble hs, ?_⟩
      have : s.time = r.state.time + r.stepsize := isTime_step (v := .time) (.inl rfl) hs
      rw [this]; exact Dbl.add_isDouble _ _
    rcases hcase with ⟨_, rfl⟩ | ⟨_, _, _, rfl⟩ | ⟨_, _, rfl⟩
    · exact h1
    · exact hr
    · exact h1

theorem doubles_applyConfig {p : Phase (F64 L)} (h : Doubles p) (c : PhaseConfig (F64 L)) :
    Doubles (p.applyConfig c) := by
  have key : (p.applyConfig c).state.time = p.state.time ∧
      ((p.applyConfig c).state.mass = p.state.mass ∨
        ∃ a b, (p.applyConfig c).state.mass = a + b) := by
    unfold Phase.applyConfig Phase.applyPlanet Phase.applyAtmosphere Phase.applyVehicle
      Phase.applyMaxAcceleration Phase.applySteering Phase.applyStepsize Phase.applyEndCriterion
      Phase.applyStructureMass Phase.applyPropellantMass
    constructor
    · split <;> split <;> split <;> (try split) <;> (try split) <;> (try split) <;> (try split) <;>
        (try split) <;> (try split) <;> (try split) <;> rfl
    · split <;> split <;> split <;> (try split) <;> (try split) <;> (try split) <;> (try split) <;>
        (try split) <;> (try split) <;> (try split) <;>
        first | exact .inl rfl | exact .inr ⟨_, _, rfl⟩
  obtain ⟨k1, k2⟩ := key
  refine ⟨?_, by rw [k1]; exact h.2⟩
  rcases k2 with k2 | ⟨a, b, k2⟩
  · rw [k2]; exact h.1
  · rw [k2]; exact Dbl.add_isDouble _ _

theorem doubles_new {prev : Option (Phase (F64 L))} {c : PhaseConfig (F64 L)} {p : Phase (F64 L)}
    (h : ∀ q, prev = some q → Doubles q) (hp : Phase.new prev c = .ok p) : Doubles p := by
  unfold Phase.new at hp
  cases prev with
  | some q =>
    injection hp with hp
    subst hp
    exact doubles_applyConfig (h q rfl) c
  | none =>
    cases hi : c.init with
    | none => simp [hi] at hp
    | some i =>
      simp only [hi] at hp
      injection hp with hp
      subst hp
      exact doubles_applyConfig (p := Phase.default) ⟨zero_isDouble, zero_isDouble⟩ c

theorem doubles_sequence {i : Nat} {prev last : Option (Phase (F64 L))}
    {cs : List (PhaseConfig (F64 L))} {log : List (LogEntry (F64 L))}
    (h : Sequence i prev cs log last) (hp : ∀ q, prev = some q → Doubles q) :
    ∀ q, last = some q → Doubles q := by
  induction h with
  | nil i prev => exact hp
  | cons hc _ ih =>
    apply ih
    intro q hq
    injection hq with hq
    subst hq
    obtain ⟨p, hnew, fuel, hrun⟩ := hc
    have hd := doubles_new hp hnew
    rcases Phase.run_some hrun with ⟨e, _, _, h3⟩ | ⟨s0, h0, ps, q, hpath, _, _, hq⟩
    · cases h3
    · rcases hq with ⟨_, hq⟩ | ⟨_, e, _, hq⟩
      · injection hq with hq
        subst hq
        have hprim := Phase.system_primary h0
        refine doubles_path hpath ⟨?_, ?_⟩
        · show s0.mass.dbl.IsDouble
          rw [hprim.2.2.2.2]; exact hd.1
        · show s0.time.dbl.IsDouble
          rw [hprim.1]; exact hd.2
      · cases hq

theorem ready_doubles {cs : List (PhaseConfig (F64 L))} {c : PhaseConfig (F64 L)}
    {p : Phase (F64 L)} (hr : Ready cs c p) : Doubles p := by
  obtain ⟨log, prev, p', hseq, hnew, rfl⟩ := hr
  have h : Doubles p' := doubles_new (doubles_sequence hseq (by simp)) hnew
  exact h

/-- C69 for configured phases.  Take any phase of any simulation, with engines that are realistic,
a finite structure mass and the end criterion `time_since_event` with a target that is not
negative.  Then the printed propellant mass never grows from a row to a later one, in double
precision, whatever the rounding, however long the run and whether or not it aborts. -/
theorem C69_configured {cs : List (PhaseConfig (F64 L))} {c : PhaseConfig (F64 L)}
    {p : Phase (F64 L)} (hr : Ready cs c p) {T : F64 L} (hT : T.dbl.IsDouble)
    (h0 : Flt.lt T 0 = false) (hc : p.endCriterion = (.timeSinceEvent, T))
    (hE : RealisticF64 p.vehicle.engines) {m : ℚ} (hm : p.vehicle.structureMass.Is m)
    {fuel : Nat} {rows : List (Row (F64 L))} {res : Except Panic (Phase (F64 L))}
    (hrun : p.run fuel = some ⟨rows, res⟩) :
    rows.Pairwise fun x y => AtMost y.propellantMass x.propellantMass := by
  have hst := C09_initial_stepsize_one_partial hr
  have hbase : p.state.timeSinceEvent = 0 := by
    obtain ⟨log, prev, p', _, _, rfl⟩ := hr
    rfl
  have hd := ready_doubles hr
  rcases Phase.run_some hrun with ⟨e, _, h2, _⟩ | ⟨s0, hs0, ps, q, hpath, rfl, _, _⟩
  · rw [h2]; exact List.Pairwise.nil
  · have hprim := Phase.system_primary hs0
    have hmono := C69_never_grows hpath (v := .timeSinceEvent) (.inr rfl) hc hT hE
      (by show p.stepsize.dbl.NotNeg
          rw [hst, one_dbl]; simp [Dbl.NotNeg, Dbl.val])
      (by show p.stepsize.dbl.IsDouble
          rw [hst]; exact one_isDouble)
      (by show s0.timeSinceEvent.dbl.IsDouble
          rw [hprim.2.1, hbase]; exact zero_isDouble)
      (by show Flt.lt T s0.timeSinceEvent = false
          rw [hprim.2.1, hbase]; exact h0)
      (by show s0.mass.dbl.IsDouble
          rw [hprim.2.2.2.2]; exact hd.1)
    rw [List.pairwise_map]
    refine (List.Pairwise.and_mem.1 (List.pairwise_cons.1 hmono).2).imp ?_
    rintro x y ⟨hx, hy, hxy⟩
    have hprop : ∀ r ∈ ps, r.state.propellantMass = r.state.mass - p.vehicle.structureMass := by
      intro r hr'
      obtain ⟨s1, hs1⟩ := Spec.Visited.system (p := p) (s := r.state)
        ⟨s0, ps, q, hs0, hpath, .inr ⟨r, hr', rfl⟩⟩
      exact (system_consistent hs1).propellantMass
    show AtMost y.state.propellantMass x.state.propellantMass
    rw [hprop x hx, hprop y hy, atMost_iff]
    rw [atMost_iff] at hxy
    obtain ⟨t, b, hb, _, _⟩ := hm
    show Dbl.AtMost (Dbl.add y.state.mass.dbl p.vehicle.structureMass.dbl.neg)
      (Dbl.add x.state.mass.dbl p.vehicle.structureMass.dbl.neg)
    rw [hb]
    exact hxy.add_right (!t) b

/-! ### Unpowered flight -/

/-- The double is `+0` or `-0`. -/
def IsZero (x : F64 L) : Prop := ∃ s, x.dbl = .fin s 0

theorem IsZero.mul_left {x : F64 L} (hx : IsZero x) {y : F64 L} {q : ℚ} (hy : y.Is q) :
    IsZero (y * x) := by
  obtain ⟨s, hs⟩ := hx
  obtain ⟨t, b, hb, _, _⟩ := hy
  refine ⟨t != s, ?_⟩
  show Dbl.mul y.dbl x.dbl = _
  rw [hs, hb]
  show Dbl.round (t != s) (Dbl.val t b * Dbl.val s 0) = _
  rw [Dbl.val_zero, mul_zero]
  unfold Dbl.round
  rw [if_pos rfl]

theorem IsZero.add {x y : F64 L} (hx : IsZero x) (hy : IsZero y) : IsZero (x + y) := by
  obtain ⟨s, hs⟩ := hx
  obtain ⟨t, ht⟩ := hy
  refine ⟨s && t, ?_⟩
  show Dbl.add x.dbl y.dbl = _
  rw [hs, ht]
  show Dbl.round (s && t) (Dbl.val s 0 + Dbl.val t 0) = _
  rw [Dbl.val_zero, Dbl.val_zero, add_zero]
  unfold Dbl.round
  rw [if_pos rfl]

theorem is_add_zero {x y : F64 L} {m : ℚ} (hx : x.Is m) (hx' : x.dbl.IsDouble) (hy : IsZero y) :
    (x + y).Is m := by
  obtain ⟨t, ht⟩ := hy
  obtain ⟨s, a, hs, hv, ha⟩ := hx
  rw [hs] at hx'
  obtain ⟨u, h1, h2⟩ := Dbl.round_isMag (s := s && t) (t := s) hx'
  refine ⟨u, a, ?_, by rw [h2]; exact hv, ha⟩
  show Dbl.add x.dbl y.dbl = _
  rw [hs, ht]
  show Dbl.round (s && t) (Dbl.val s a + Dbl.val t 0) = _
  rw [Dbl.val_zero, add_zero]
  exact h1

theorem inUnit_is {k : F64 L} (h : InUnit k) (hk : k.dbl.IsDouble) : ∃ q, k.Is q := by
  rcases k with ⟨_ | s | ⟨s, a⟩⟩
  · rcases h.1 with h | h
    · have : Dbl.lt (0 : F64 L).dbl .nan = true := h
      rw [zero_dbl] at this; cases this
    · have : Dbl.eq (0 : F64 L).dbl .nan = true := h
      rw [zero_dbl] at this; cases this
  · rcases h.2 with h2 | h2
    · have h2 : Dbl.lt (.inf s) (1 : F64 L).dbl = true := h2
      rw [one_dbl] at h2
      have h2 : s = true := h2
      subst h2
      rcases h.1 with h | h
      · have : Dbl.lt (0 : F64 L).dbl (.inf true) = true := h
        rw [zero_dbl] at this; cases this
      · have : Dbl.eq (0 : F64 L).dbl (.inf true) = true := h
        rw [zero_dbl] at this; cases this
    · have h2 : Dbl.eq (.inf s) (1 : F64 L).dbl = true := h2
      rw [one_dbl] at h2
      cases h2
  · exact ⟨Dbl.val s a, s, a, rfl, rfl, Dbl.IsMag.nonneg hk⟩

theorem coasting_massflow {p : Phase (F64 L)} (hE : p.vehicle.engines = [])
    {s s' : State (F64 L)} (h : p.system s = .ok s') : IsZero s'.massflow := by
  obtain ⟨h1, h2⟩ := system_throttle_f64 h
  obtain ⟨q, hq⟩ := inUnit_is h1 h2
  rw [(system_consistent h).massflow]
  unfold Vehicle.massflow
  rw [hE]
  exact IsZero.mul_left ⟨false, zero_dbl⟩ hq

theorem sixth_is : ∃ q, (1 / 6 : F64 L).Is q := by
  obtain ⟨q, h, _⟩ := is_div (is_one (L := L)) (is_nat (L := L) 6 (by norm_num)) (by norm_num)
    (by norm_num [abs_of_pos])
  exact ⟨q, h⟩

theorem third_is : ∃ q, (1 / 3 : F64 L).Is q := by
  obtain ⟨q, h, _⟩ := is_div (is_one (L := L)) (is_nat (L := L) 3 (by norm_num)) (by norm_num)
    (by norm_num [abs_of_pos])
  exact ⟨q, h⟩

/-- C69 (coasting, steps).  Without engines an integration step of any finite size leaves the mass
exactly as it is, in double precision. -/
theorem C69_coasting_step {p : Phase (F64 L)} (hE : p.vehicle.engines = []) {h : F64 L} {η m : ℚ}
    {s s' : State (F64 L)} (hh : h.Is η) (hm : s.mass.Is m) (hm' : s.mass.dbl.IsDouble)
    (hs : OneStep p h s s') : s'.mass.Is m := by
  obtain ⟨s1, s2, s3, s4, d1, d2, d3, d4, f1, f2, f3, f4, _, _, _, _, hf⟩ := oneStep_mass hs
  obtain ⟨_, h6⟩ := sixth_is (L := L)
  obtain ⟨_, h3⟩ := third_is (L := L)
  rw [hf]
  refine is_add_zero hm hm' ?_
  exact (((IsZero.add ⟨false, zero_dbl⟩
    (((coasting_massflow hE f1).mul_left hh).mul_left h6)).add
    (((coasting_massflow hE f2).mul_left hh).mul_left h3)).add
    (((coasting_massflow hE f3).mul_left hh).mul_left h3)).add
    (((coasting_massflow hE f4).mul_left hh).mul_left h6)

/-- Stepping is deterministic. -/
theorem path_det {r q q' : Phase (F64 L)} {ps ps' : List (Phase (F64 L))} (h : Path r ps q)
    (h' : Path r ps' q') (hl : ps.length = ps'.length) : ps = ps' ∧ q = q' := by
  induction h generalizing ps' q' with
  | nil r =>
    cases h' with
    | nil => exact ⟨rfl, rfl⟩
    | cons => simp at hl
  | cons _ h2 _ ih =>
    cases h' with
    | nil => simp at hl
    | cons _ k2 k3 =>
      rw [h2] at k2
      injection k2 with k2
      subst k2
      obtain ⟨rfl, rfl⟩ := ih k3 (by simpa using hl)
      exact ⟨rfl, rfl⟩

theorem coasting_path {r q : Phase (F64 L)} {ps : List (Phase (F64 L))} (hpath : Path r ps q)
    (hE : r.vehicle.engines = []) {m : ℚ} (hm : r.state.mass.Is m)
    (hm' : r.state.mass.dbl.IsDouble) (hst : ∀ r' ∈ r :: ps, ∃ h, r'.stepsize.Is h) :
    ∀ r' ∈ ps, r'.state.mass.Is m := by
  induction hpath with
  | nil r => simp
  | @cons r r1 q ps he h2 h3 ih =>
    obtain ⟨_, s, hs, hcase⟩ := Phase.step_ok h2
    obtain ⟨η, hη⟩ := hst r (by simp)
    have h1 := C69_coasting_step hE hη hm hm' hs
    have hr1 : r1.state.mass.Is m ∧ r1.state.mass.dbl.IsDouble := by
      rcases hcase with ⟨_, rfl⟩ | ⟨_, _, _, rfl⟩ | ⟨_, _, rfl⟩
      · exact ⟨h1, oneStep_isDouble hs⟩
      · exact ⟨hm, hm'⟩
      · exact ⟨h1, oneStep_isDouble hs⟩
    have := ih (by rw [(Phase.step_sameParams h2).vehicle]; exact hE) hr1.1 hr1.2
      (fun r' hr' => hst r' (by simp only [List.mem_cons] at hr' ⊢; exact .inr hr'))
    intro r' hr'
    rcases List.mem_cons.1 hr' with rfl | hr'
    · exact hr1.1
    · exact this r' hr'

/-- C69 (coasting).  An unpowered phase of any simulation without acceleration limit, configured
to last `τ` seconds, ends normally with exactly the mass it started with, in double precision;
and every row of it prints the same propellant mass, that of its start. -/
theorem C69_coasting {cs : List (PhaseConfig (F64 L))} {c : PhaseConfig (F64 L)}
    {p : Phase (F64 L)} (hr : Ready cs c p) {T : F64 L} {τ : ℚ} (hT : T.Is τ) (h0 : 0 ≤ τ)
    (hτ : τ ≤ 1e9) (hc : p.endCriterion = (.timeSinceEvent, T))
    (hlim : p.maxAcceleration = Flt.inf) (hE : p.vehicle.engines = [])
    (ht : ∀ c' ∈ cs ++ [c], ∀ t ∈ tablesOf c', WellFormed t)
    {m k : ℚ} (hm : p.state.mass.Is m) (hk : p.vehicle.structureMass.Is k) :
    ∃ fuel rows q, p.run fuel = some ⟨rows, .ok q⟩ ∧ q.state.mass.Is m ∧
      ∀ row ∈ rows, Flt.eq row.propellantMass (p.state.mass - p.vehicle.structureMass) = true := by
  have hd := ready_doubles hr
  have hst := C09_initial_stepsize_one_partial hr
  have hbase : p.ended = false ∧ p.endCriterionTries = 0 ∧ p.state.timeSinceEvent = 0 := by
    obtain ⟨log, prev, p', _, _, rfl⟩ := hr
    exact ⟨rfl, rfl, rfl⟩
  obtain ⟨fuel, rows, q, w, hrun, _⟩ := C65_coasting hr hT h0 hτ hc hlim hE ht
  obtain ⟨fuel', rows', res', hrun', _, _, hps⟩ := C65_no_drift (p := p) (m := 0) (.inr rfl) hT hτ
    (by simpa using h0) hc
    (by rw [Nat.cast_zero]; show Is p.state.timeSinceEvent 0; rw [hbase.2.2]; exact is_zero)
    hbase.1 hbase.2.1 hst
  have hdet := Phase.run_det hrun' hrun
  injection hdet with hd1 hd2
  subst hd1 hd2
  rcases Phase.run_some hrun with ⟨e, _, _, h3⟩ | ⟨s0, hs0, _, _, _, _, _, _⟩
  · cases h3
  obtain ⟨ps, q', hpath, hrows, hfin⟩ := hps s0 hs0
  have hprim := Phase.system_primary hs0
  have hm0 : s0.mass = p.state.mass := hprim.2.2.2.2
  have hmass := coasting_path hpath hE (m := m) (by show s0.mass.Is m; rw [hm0]; exact hm)
    (by show s0.mass.dbl.IsDouble; rw [hm0]; exact hd.1)
    (by
      intro r' hr'
      rcases List.mem_cons.1 hr' with rfl | hr'
      · exact ⟨1, by show p.stepsize.Is 1; rw [hst]; exact is_one⟩
      · exact (hfin r' hr').1)
  refine ⟨fuel, _, q, hrun, ?_, ?_⟩
  · have hvis := (Spec.visited_of_run hrun).2 q rfl
    -- the final phase is the end of a path
    rcases Phase.run_some hrun with ⟨e, _, _, h3⟩ | ⟨s1, hs1, ps1, q1, hpath1, hrows1, _, hq1⟩
    · cases h3
    rw [hs0] at hs1
    injection hs1 with hs1
    subst hs1
    rcases hq1 with ⟨he1, hq1⟩ | ⟨_, e, _, hq1⟩
    · injection hq1 with hq1
      subst hq1
      have hlen : ps.length = ps1.length := by
        have := congrArg List.length (hrows.symm.trans hrows1)
        simpa using this
      obtain ⟨rfl, rfl⟩ := path_det hpath hpath1 hlen
      rcases path_last hpath1 with ⟨h, _⟩ | h
      · rw [h]; show s0.mass.Is m; rw [hm0]; exact hm
      · exact hmass _ h
    · cases hq1
  · intro row hrow
    rw [hrows] at hrow
    obtain ⟨r, hr', rfl⟩ := List.mem_map.1 hrow
    obtain ⟨s1, hs1⟩ := Spec.Visited.system (p := p) (s := r.state)
      ⟨s0, ps, q', hs0, hpath, .inr ⟨r, hr', rfl⟩⟩
    have hprop := (system_consistent hs1).propellantMass
    show Flt.eq r.state.propellantMass _ = true
    rw [hprop]
    obtain ⟨t, b, hb, _, _⟩ := hk
    obtain ⟨s, a, ha, hv, _⟩ := hm
    obtain ⟨s', a', ha', hv', _⟩ := hmass r hr'
    show Dbl.eq (Dbl.add r.state.mass.dbl p.vehicle.structureMass.dbl.neg)
      (Dbl.add p.state.mass.dbl p.vehicle.structureMass.dbl.neg) = true
    rw [hb, ha, ha']
    show Dbl.eq (Dbl.round (s' && !t) (Dbl.val s' a' + Dbl.val (!t) b))
      (Dbl.round (s && !t) (Dbl.val s a + Dbl.val (!t) b)) = true
    rw [hv, hv']
    rcases Dbl.val_round (s' && !t) (m + Dbl.val (!t) b) with ⟨k0, k⟩ | ⟨k0, k⟩ | ⟨k0, k⟩ <;>
      rcases Dbl.val_round (s && !t) (m + Dbl.val (!t) b) with ⟨j0, j⟩ | ⟨j0, j⟩ | ⟨j0, j⟩ <;>
      rw [k, j] <;> try linarith
    · simp [Dbl.eq, Dbl.val_zero]
    · split <;> simp [Dbl.eq]
    · split <;> simp [Dbl.eq]

/-- The hypotheses of `C69_coasting` are met by the coast of C65: one tonne stays one tonne. -/
example : ∃ fuel rows q, ((Phase.default.applyConfig (exampleCoast (L := L))).init
    ⟨45, 10, 90, 0⟩).reset.run fuel = some ⟨rows, .ok q⟩ ∧ q.state.mass.Is 1000 := by
  have hr : Ready [] (exampleCoast (L := L)) ((Phase.default.applyConfig exampleCoast).init
      ⟨45, 10, 90, 0⟩).reset := ⟨_, none, _, .nil _ _, rfl, rfl⟩
  have hT : (2.5 : F64 L).Is (5 / 2) := by
    refine ⟨false, 5 / 2, ?_, rfl, by norm_num⟩
    show Dbl.round false _ = _
    decide +kernel
  obtain ⟨fuel, rows, q, h1, h2, _⟩ := C69_coasting hr hT (by norm_num) (by norm_num) rfl rfl rfl (by
    intro c' hc' t ht
    simp only [List.nil_append, List.mem_singleton] at hc'
    subst hc'
    simp [tablesOf, exampleCoast] at ht) (m := 1000) (k := 1000) (by
      show (0 + 1000 : F64 L).Is 1000
      simpa using is_add_nat (m := 0) (n := 1000) (by simpa using is_zero (L := L))
        (is_nat (L := L) 1000 (by norm_num)) (by norm_num)) (is_nat 1000 (by norm_num))
  exact ⟨fuel, rows, q, h1, h2⟩

/-- A stage with one engine burning for 2.5 seconds. -/
def exampleBurnF64 : PhaseConfig (F64 L) :=
  { exampleCoast (L := L) with
    vehicle := some ⟨some 1000, some 500, none, none, none, none, some [⟨0, 0, 20000, 300, 1⟩]⟩ }

/-- The hypotheses of `C69_configured` are met: whatever the C library, the propellant mass printed
for this burn never grows. -/
example : ∃ fuel rows res, ((Phase.default.applyConfig (exampleBurnF64 (L := L))).init
    ⟨45, 10, 90, 0⟩).reset.run fuel = some ⟨rows, res⟩ ∧
      rows.Pairwise fun x y => AtMost y.propellantMass x.propellantMass := by
  have hr : Ready [] (exampleBurnF64 (L := L)) ((Phase.default.applyConfig exampleBurnF64).init
      ⟨45, 10, 90, 0⟩).reset := ⟨_, none, _, .nil _ _, rfl, rfl⟩
  have hT : (2.5 : F64 L).Is (5 / 2) := by
    refine ⟨false, 5 / 2, ?_, rfl, by norm_num⟩
    show Dbl.round false _ = _
    decide +kernel
  obtain ⟨fuel, rows, res, hrun, _⟩ := C65_configured hr hT (by norm_num) (by norm_num) rfl
  refine ⟨fuel, rows, res, hrun, C69_configured hr (T := 2.5) (Dbl.round_isDouble _ _) ?_ rfl ?_
    (m := 1000) (is_nat 1000 (by norm_num)) hrun⟩
  · rw [is_lt hT is_zero]; norm_num
  · intro e he
    have he : e = ⟨0, 0, 20000, 300, 1⟩ := List.mem_singleton.1 he
    subst he
    exact ⟨20000, 300, is_nat 20000 (by norm_num), by norm_num, is_nat 300 (by norm_num), by norm_num⟩

end
end Post
