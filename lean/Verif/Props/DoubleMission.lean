import Verif.Lemmas.StageF64
import Verif.Props.Timetable
import Verif.Props.Program
/-! # C87: missions of several stages in vacuum, in double precision -/

namespace Post
open Spec Flt F64
variable {L : Libm}

theorem carries_nothing {full : Prop} {M : ℝ} (hM : 0 ≤ M) :
    Carries (Phase.base (none : Option (Phase (F64 L)))) .nothing full M 0 where
  structureMass := ⟨0, is_zero, by simp [Ship.nothing]⟩
  engines := .nil
  filled := le_rfl
  masses := by
    refine ⟨0, 0, ⟨0, is_zero, by norm_num⟩, ⟨0, is_zero, by norm_num⟩, ?_, ?_, fun _ => ?_, ?_⟩
    · simp only [Ship.nothing, sub_zero, abs_zero]; positivity
    all_goals simp [Ship.nothing]

theorem rel_getD {α β : Type*} {R : α → β → Prop} {x : Option α} {y : Option β} (h : Option.Rel R x y) {a : α} {b : β}
    (hd : R a b) : R (x.getD a) (y.getD b) := by
  cases h with
  | some h => exact h
  | none => exact hd

theorem consumption_nonneg {es : List (Engine (F64 L))} {Es : List RealEngine} (hE : List.Forall₂ MountedDouble es Es) :
    0 ≤ fullConsumption Es := by
  refine List.sum_nonneg fun x hx => ?_
  obtain ⟨E, hE', rfl⟩ := List.mem_map.1 hx
  obtain ⟨i, hi, rfl⟩ := List.getElem_of_mem hE'
  have h2 := List.forall₂_iff_get.1 hE
  have h3 := h2.2 i (by rw [h2.1]; exact hi) hi
  have := h3.thrust_nonneg
  have := h3.isp_ge
  unfold RealEngine.consumption
  simp only [List.get_eq_getElem] at *
  positivity

/-- The vehicle at the beginning of a leg. -/
theorem leg_start {prev : Option (Phase (F64 L))} {v : Ship} {full : Prop} {M e : ℝ}
    (h : Carries (Phase.base prev) v full M e) {c : PhaseConfig (F64 L)} {l : Leg} (hc : Describes c l)
    {p : Phase (F64 L)} (hp : Phase.new prev c = .ok p) {n : ℕ} (hcan : (v.begin l).CanBurn M n) (he0 : 0 ≤ e)
    (he : e ≤ 3e-9 * M) (hM : M ≤ 9e8) :
    Reads p.reset.vehicle.structureMass (v.begin l).structureMass ∧
    List.Forall₂ MountedDouble p.reset.vehicle.engines (v.begin l).engines ∧
    (v.begin l).propellant ≤ (v.begin l).filled ∧
    ∃ m0, Reads p.reset.state.mass m0 ∧
      (v.begin l).structureMass + (v.begin l).propellant - (e + 1e-15 * M) ≤ m0 ∧
      (full → m0 ≤ (v.begin l).structureMass + (v.begin l).propellant + (e + 1e-15 * M)) ∧
      m0 ≤ (v.begin l).structureMass + (v.begin l).filled + (e + 1e-15 * M) := by
  obtain ⟨w, μ, hw, hμ, d1, d2, d3, d4⟩ := h.masses
  have hveh : p.reset.vehicle = ((Phase.base prev).applyConfig c).vehicle := by
    rcases Phase.new_ok hp with ⟨_, rfl⟩ | ⟨_, i, _, rfl⟩ <;> rfl
  have hs : Reads p.reset.vehicle.structureMass (v.begin l).structureMass := by
    have e1 : p.reset.vehicle.structureMass =
        (vehicleParam (·.structureMass) c).getD (Phase.base prev).vehicle.structureMass := by
      rw [hveh, Phase.applyConfig_vehicle]; unfold vehicleParam; cases c.vehicle <;> rfl
    rw [e1]
    exact rel_getD hc.structureMass h.structureMass
  have hE : List.Forall₂ MountedDouble p.reset.vehicle.engines (v.begin l).engines := by
    have e1 : p.reset.vehicle.engines =
        (vehicleParam (·.engines) c).getD (Phase.base prev).vehicle.engines := by
      rw [hveh, Phase.applyConfig_vehicle]; unfold vehicleParam; cases c.vehicle <;> rfl
    rw [e1]
    exact rel_getD hc.engines h.engines
  have hfill : (v.begin l).propellant ≤ (v.begin l).filled := by
    show l.propellant.getD _ ≤ l.propellant.getD _
    cases l.propellant with
    | none => exact h.filled
    | some _ => exact le_rfl
  refine ⟨hs, hE, hfill, ?_⟩
  obtain ⟨c1, c2, c3⟩ := C14_initial_mass hp
  have hheavy := hcan.heavy
  have hle := hcan.le
  have hQ : 0 ≤ (v.begin l).propellant := by
    have hb := consumption_nonneg hE
    have := hcan.enough
    have : 0 ≤ n * fullConsumption (v.begin l).engines := by positivity
    linarith
  have hM0 : 2 ≤ M := by linarith
  have add : ∀ {a b : F64 L} {α β : ℝ}, Reads a α → Reads b β → |α + β| ≤ 1.1 * M →
      ∃ m, Reads (a + b) m ∧ |m - (α + β)| ≤ 5e-16 * M := by
    intro a b α β ha hb hab
    obtain ⟨m, h1, h2⟩ := (reads_near.1 ha).add (reads_near.1 hb) (M := 1.1 * M) (e := 5e-16 * M) hab
      (by norm_num at hM0 ⊢; linarith) (by norm_num at hM ⊢; linarith)
    exact ⟨m, ⟨m, h1, rfl⟩, h2⟩
  cases hpr : vehicleParam (·.propellantMass) c with
  | some a =>
    have hr := hc.propellant
    rw [hpr] at hr
    cases hl : l.propellant with
    | none => rw [hl] at hr; cases hr
    | some α =>
      rw [hl] at hr
      cases hr with
      | some hr =>
        rw [c1 a hpr]
        have hb : (v.begin l).propellant = α ∧ (v.begin l).filled = α := by simp [Ship.begin, hl]
        rw [hb.2] at hle
        rw [hb.1] at hQ
        obtain ⟨m, h1, h2⟩ := add hs hr (by rw [abs_of_nonneg] <;> linarith)
        rw [abs_le] at h2
        rw [hb.1, hb.2]
        norm_num at h2 hM0 he0 ⊢
        exact ⟨m, h1, by linarith, fun _ => by linarith, by linarith⟩
  | none =>
    have hr := hc.propellant
    rw [hpr] at hr
    cases hl : l.propellant with
    | some α => rw [hl] at hr; cases hr
    | none =>
      have hb : (v.begin l).propellant = v.propellant ∧ (v.begin l).filled = v.filled := by simp [Ship.begin, hl]
      rw [hb.1] at hQ ⊢
      rw [hb.2] at hle ⊢
      cases hst : vehicleParam (·.structureMass) c with
      | some b =>
        obtain ⟨k1, k2⟩ := c2 b hpr hst
        have k1' : p.reset.state.mass = (Phase.base prev).state.propellantMass + b := by
          rw [k1]
          cases prev <;> rfl
        rw [k1']
        have hsb : Reads b (v.begin l).structureMass := by rw [← k2]; exact hs
        obtain ⟨m, h1, h2⟩ := add hw hsb (by
          rw [abs_le]
          norm_num at *
          constructor <;> linarith)
        rw [abs_le] at h2
        norm_num at h2 hM0 he0 d2 d3 d4 ⊢
        exact ⟨m, h1, by linarith, fun hf => by linarith [d3 hf], by linarith⟩
      | none =>
        have k1 := c3 hpr hst
        have hls : (v.begin l).structureMass = v.structureMass := by
          have hr := hc.structureMass
          rw [hst] at hr
          cases hl : l.structureMass with
          | some α => rw [hl] at hr; cases hr
          | none => simp [Ship.begin, hl]
        have hμ' : Reads p.reset.state.mass μ := by
          rw [k1]
          cases prev with
          | none => exact hμ
          | some q => exact hμ
        rw [hls]
        rw [abs_le] at d1
        norm_num at d1 hM0 he0 d2 d3 d4 ⊢
        exact ⟨μ, hμ', by linarith, fun hf => by linarith [d3 hf], by linarith⟩

/-- The acceleration limit in force. -/
theorem leg_limit {cs : List (PhaseConfig (F64 L))} {c : PhaseConfig (F64 L)} {p : Phase (F64 L)} (hr : Ready cs c p)
    {full : Prop} (hd : ∀ c' ∈ cs ++ [c], ∃ l, Describes c' l)
    (hfull : full → ∀ c' ∈ cs ++ [c], ∀ a, c'.maxAcceleration = some a → a = -1) :
    p.maxAcceleration = Flt.inf ∨ (¬ full ∧ ∃ A, Reads p.maxAcceleration A ∧ 1e-6 ≤ A ∧ A ≤ 1e10) := by
  rw [(C07_parameters_in_force hr).maxAcceleration]
  refine inForce_prop (fun x => x = Flt.inf ∨ (¬ full ∧ ∃ A, Reads x A ∧ 1e-6 ≤ A ∧ A ≤ 1e10)) _ (.inl rfl)
    fun c' hc' a ha => ?_
  obtain ⟨a', ha', rfl⟩ := Option.map_eq_some_iff.1 ha
  have heq : Flt.eq (-1 : F64 L) (-1) = true := by
    show Dbl.eq (Dbl.neg (.round false _)) (Dbl.neg (.round false _)) = true
    decide +kernel
  unfold accelerationLimit
  by_cases h1 : a' = -1
  · left
    rw [h1, heq]
    rfl
  · split
    · exact .inl rfl
    · right
      obtain ⟨l, hl⟩ := hd c' hc'
      refine ⟨fun hf => h1 (hfull hf c' hc' a' ha'), ?_⟩
      rcases hl.limit a' ha' with h2 | h2
      · exact absurd h2 h1
      · exact h2

/-- The equations of motion of a leg. -/
theorem leg_system (hL : AngleLibrary L) {p : Phase (F64 L)} {Es : List RealEngine} {full : Prop}
    (hv : p.atmosphere.model = .noAtmosphere) (ht : p.vehicle.TablesOk)
    (hE : List.Forall₂ MountedDouble p.vehicle.engines Es) (hpr : Propels Es)
    (hA : p.maxAcceleration = Flt.inf ∨ (¬ full ∧ ∃ A, Reads p.maxAcceleration A ∧ 1e-6 ≤ A ∧ A ≤ 1e10))
    (s : State (F64 L)) (m : ℝ) (hm : Reads s.mass m) (hm1 : 9e-4 ≤ m) (hm2 : m ≤ 1.1e9) :
    ∃ d κ, p.system s = .ok d ∧ Reads d.throttle κ ∧ 0 ≤ κ ∧ κ ≤ 1 ∧ (full → κ = 1) := by
  have hm0 : 0 < m := by norm_num at hm1; linarith
  have one : ∀ {d : State (F64 L)}, d.throttle = 1 → Reads d.throttle 1 := fun h => by
    rw [h]; exact ⟨1, is_one, by norm_num⟩
  rcases hpr with rfl | ⟨hlen, hQ, hS, h1, h2⟩
  · have hE0 : p.vehicle.engines = [] := by
      generalize p.vehicle.engines = es at hE
      cases hE
      rfl
    obtain ⟨d, d1, d2⟩ := coast_vacuum hE0 hv ht (by
      rcases hA with hA | ⟨_, hA⟩
      · exact .inl hA
      · exact .inr hA) s hm hm0
    exact ⟨d, 1, d1, one d2, zero_le_one, le_rfl, fun _ => rfl⟩
  · obtain ⟨T, hT, hT1, hT2⟩ := propels_thrust hL hE hlen hS h1 h2
    rcases hA with hA | ⟨hnf, A, hA, hA1, hA2⟩
    · obtain ⟨d, d1, d2⟩ := vacuum_unlimited hL.toTrigLibrary
        ⟨hv, ht, hE.imp fun _ _ h => h.toEngineDouble, hlen, hQ, T, hT, hT1, hT2⟩ hA s hm hm0
      exact ⟨d, 1, d1, one d2, zero_le_one, le_rfl, fun _ => rfl⟩
    · obtain ⟨d, k, acc, d1, d2, d3, d4, _⟩ := C85_vacuum hL.toTrigLibrary s hv ht hA hA1 hA2 hm
        (by norm_num at hm1 ⊢; linarith) (by norm_num at hm2 ⊢; linarith) hT hT1 hT2
      exact ⟨d, k, d1, d2, d3, d4, fun hf => absurd hf hnf⟩

/-- One leg of a mission, if it is in vacuum. -/
theorem leg_core (hL : AngleLibrary L) {prev : Option (Phase (F64 L))}
    {c : PhaseConfig (F64 L)} {l : Leg} {full : Prop} (hc : Describes c l) {p : Phase (F64 L)}
    (hp : Phase.new prev c = .ok p) (hsec : SecondsLeft p.reset l.seconds)
    (hdbl : p.reset.state.mass.dbl.IsDouble) (hvac : p.reset.atmosphere.model = .noAtmosphere)
    (htab : p.reset.vehicle.TablesOk)
    (hlim : p.reset.maxAcceleration = Flt.inf ∨ (¬ full ∧ ∃ A, Reads p.reset.maxAcceleration A ∧ 1e-6 ≤ A ∧ A ≤ 1e10))
    {v : Ship} {M e : ℝ} (h : Carries (Phase.base prev) v full M e)
    (hcan : (v.begin l).CanBurn M l.seconds) (he0 : 0 ≤ e)
    (he : e ≤ 3e-9 * M) (hM : M ≤ 9e8) :
    ∃ rows q, (∃ fuel, p.reset.run fuel = some ⟨rows, .ok q⟩) ∧
      Carries q ((v.begin l).burn l.seconds) full M (e + (1.1e-12 + 2.1e-16 * l.seconds) * M) ∧
      rows.length = l.seconds ∧ ∀ (k : ℕ) r, rows[k]? = some r → ∃ w, Reads r.propellantMass w ∧
        ((v.begin l).burn (k + 1)).propellant - (e + (1.1e-12 + 2.1e-16 * l.seconds) * M) ≤ w ∧
        (full → w ≤ ((v.begin l).burn (k + 1)).propellant + (e + (1.1e-12 + 2.1e-16 * l.seconds) * M)) := by
  obtain ⟨hs, hE, hfill, m0, hm, hlo, hhi, hup⟩ := leg_start h hc hp hcan he0 he hM
  have hEd : List.Forall₂ EngineDouble p.reset.vehicle.engines (v.begin l).engines :=
    hE.imp fun _ _ h => h.toEngineDouble
  have hlenQ : (v.begin l).engines.length ≤ 100 ∧ fullConsumption (v.begin l).engines ≤ 1e5 := by
    rcases hcan.propels with h0 | ⟨h1, h2, _⟩
    · rw [h0]; norm_num [fullConsumption]
    · exact ⟨h1, h2⟩
  obtain ⟨hQ0, _⟩ := flow_near hEd hlenQ.1 hlenQ.2
  set v' := v.begin l with hv'
  set Q := fullConsumption v'.engines with hQd
  set n := l.seconds with hnd
  have hen := hcan.enough
  have hnn : (0 : ℝ) ≤ n := by positivity
  have hnQ : 0 ≤ n * Q := by positivity
  have hheavy := hcan.heavy
  have hfrac := hcan.fraction
  have hlarge := hcan.largest
  have hle := hcan.le
  have hM2 : 2 ≤ M := by linarith
  obtain ⟨s, fuel, q, r1, r2, r3⟩ := burn_run (p := p.reset) hEd hlenQ.1 hlenQ.2 hsec
    hm hdbl hs (by linarith) (by norm_num at *; linarith) (by norm_num at *; linarith)
    (by norm_num at *; linarith) (by norm_num at *; linarith) (G := fun κ => full → κ = 1)
    (leg_system hL hvac htab hE hcan.propels hlim)
  have hm0M : m0 ≤ 1.01 * M := by norm_num at *; linarith
  have hm00 : 0 ≤ m0 := by norm_num at *; linarith
  -- the propellant after `k` seconds
  have key : ∀ k ≤ n, ∃ w μ, Reads (s k).propellantMass w ∧ Reads (s k).mass μ ∧
      |w - (μ - v'.structureMass)| ≤ 3e-16 * M ∧
      (v'.burn k).propellant - (e + (1.1e-12 + 2.1e-16 * n) * M) ≤ w ∧
      (full → w ≤ (v'.burn k).propellant + (e + (1.1e-12 + 2.1e-16 * n) * M)) ∧
      w ≤ v'.filled + (e + (1.1e-12 + 2.1e-16 * n) * M) := by
    intro k hk
    obtain ⟨_, _, μ, a1, a2, a3, a4, a5, w, a6, a7⟩ := r3 k hk
    have hkn : (k : ℝ) ≤ n := by exact_mod_cast hk
    have hk0 : (0 : ℝ) ≤ k := by positivity
    have b1 : (k : ℝ) * Q ≤ n * Q := by gcongr
    have b2 : (k : ℝ) * (2e-16 * m0) ≤ n * (2e-16 * (1.01 * M)) := by gcongr
    have b3 : (0 : ℝ) ≤ n * M := by positivity
    have b4 : (k : ℝ) * (1e-12 * Q + 2e-16 * m0) ≤ 1e-12 * M + 2.05e-16 * (n * M) := by
      have : (k : ℝ) * (1e-12 * Q + 2e-16 * m0) = 1e-12 * (k * Q) + k * (2e-16 * m0) := by ring
      rw [this]
      norm_num at *
      linarith
    have e1 : e + (1.1e-12 + 2.1e-16 * (n : ℝ)) * M = e + 1.1e-12 * M + 2.1e-16 * (n * M) := by ring
    have e2 : (v'.burn k).propellant = v'.propellant - k * Q := rfl
    rw [e1, e2]
    rw [abs_le] at a7
    refine ⟨w, μ, a6, a1, ?_, ?_, fun hf => ?_, ?_⟩
    · rw [abs_le]
      norm_num at *
      constructor <;> linarith
    · norm_num at *
      linarith
    · have a6' := abs_le.1 (a5 fun κ hκ => hκ hf)
      have := hhi hf
      norm_num at *
      linarith
    · norm_num at *
      linarith
  have hsame := Phase.run_ok_sameParams r1
  refine ⟨_, q, ⟨fuel, r1⟩, ⟨?_, ?_, ?_, ?_⟩, by simp, fun k r hk => ?_⟩
  · rw [hsame.vehicle]; exact hs
  · rw [hsame.vehicle]; exact hE
  · show v'.propellant - n * Q ≤ v'.filled
    linarith
  · rw [r2]
    exact key n le_rfl
  · rw [List.getElem?_map, Option.map_eq_some_iff] at hk
    obtain ⟨j, hj, rfl⟩ := hk
    rw [List.getElem?_eq_some_iff] at hj
    obtain ⟨hlt, rfl⟩ := hj
    rw [List.length_range] at hlt
    obtain ⟨w, μ, k1, _, _, k2, k3, _⟩ := key (k + 1) hlt
    rw [List.getElem_range]
    exact ⟨w, k1, k2, k3⟩

/-- One leg of a mission. -/
theorem leg_flies (hL : AngleLibrary L) {done : List (PhaseConfig (F64 L))} {log : List (LogEntry (F64 L))}
    {prev : Option (Phase (F64 L))} (hseq : Sequence 0 none done log prev) {c : PhaseConfig (F64 L)} {l : Leg}
    {full : Prop} (hd : ∀ c' ∈ done ++ [c], ∃ l, Describes c' l)
    (hfull : full → ∀ c' ∈ done ++ [c], ∀ a, c'.maxAcceleration = some a → a = -1) (hc : Describes c l)
    (hinit : prev = none → c.init ≠ none) {v : Ship} {M e : ℝ} (h : Carries (Phase.base prev) v full M e)
    (hcan : (v.begin l).CanBurn M l.seconds) (hn1 : 1 ≤ l.seconds) (hn2 : l.seconds ≤ 10 ^ 6) (he0 : 0 ≤ e)
    (he : e ≤ 3e-9 * M) (hM : M ≤ 9e8) :
    ∃ rows q, Completes prev c rows q ∧
      Carries q ((v.begin l).burn l.seconds) full M (e + (1.1e-12 + 2.1e-16 * l.seconds) * M) ∧
      rows.length = l.seconds ∧ ∀ (k : ℕ) r, rows[k]? = some r → ∃ w, Reads r.propellantMass w ∧
        ((v.begin l).burn (k + 1)).propellant - (e + (1.1e-12 + 2.1e-16 * l.seconds) * M) ≤ w ∧
        (full → w ≤ ((v.begin l).burn (k + 1)).propellant + (e + (1.1e-12 + 2.1e-16 * l.seconds) * M)) := by
  obtain ⟨p, hp⟩ : ∃ p, Phase.new prev c = .ok p := by
    cases prev with
    | some q => exact ⟨_, rfl⟩
    | none =>
      cases hi : c.init with
      | none => exact absurd hi (hinit rfl)
      | some i => exact ⟨_, by simp [Phase.new, hi]; rfl⟩
  have hr : Ready done c p.reset := ⟨_, _, _, hseq, hp, rfl⟩
  have hpar := C07_parameters_in_force hr
  have hvac : p.reset.atmosphere.model = .noAtmosphere := by
    rw [hpar.atmosphere]
    have : inForce (atmosphereParam (·.enabled)) false (done ++ [c]) = false := by
      refine inForce_prop (· = false) _ rfl fun c' hc' b hb => ?_
      obtain ⟨l', hl'⟩ := hd c' hc'
      cases b with
      | false => rfl
      | true => exact absurd hb hl'.vacuum
    rw [this]
    rfl
  have htab : p.reset.vehicle.TablesOk := ready_tablesOk hr fun c' hc' => by
    obtain ⟨l', hl'⟩ := hd c' hc'
    exact hl'.tables
  have hlim := leg_limit hr hd hfull
  obtain ⟨T, hT, hT'⟩ := hc.criterion
  have hcrit : p.reset.endCriterion = (.timeSinceEvent, T) := by
    rw [hpar.endCriterion, inForce_append]
    simp [inForce, hT]
  obtain ⟨rows, q, ⟨fuel, h1⟩, h2⟩ := leg_core hL hc hp (ready_seconds hr hn1 hn2 hcrit hT')
    (ready_doubles hr).1 hvac htab hlim h hcan he0 he hM
  exact ⟨rows, q, ⟨p, hp, fuel, h1⟩, h2⟩

/-- Rows whose times and masses are those of the flight log. -/
theorem flight_rows {full : Prop} {E : ℝ} {f : ℕ → ℝ} : ∀ {rows : List (Row (F64 L))} {t : ℕ},
    List.Forall₂ ShowsLine (rows.map .row) ((List.range' (t + 1) rows.length).map .second) →
    (∀ (k : ℕ) r, rows[k]? = some r → ∃ w, Reads r.propellantMass w ∧ f (k + 1) - E ≤ w ∧ (full → w ≤ f (k + 1) + E)) →
    List.Forall₂ (ShowsFlight full E) (rows.map .row)
      ((List.range rows.length).map fun k => .second (t + (k + 1)) (f (k + 1))) := by
  intro rows t h1 h2
  rw [List.forall₂_map_left_iff, List.forall₂_map_right_iff] at h1 ⊢
  rw [List.forall₂_iff_get] at h1 ⊢
  refine ⟨by simp, fun k hk1 hk2 => ?_⟩
  have h3 := h1.2 k hk1 (by simpa using hk1)
  simp only [List.get_eq_getElem, List.getElem_range', one_mul] at h3
  have h4 : (rows[k]).time.Is ((t + 1 + k : ℕ) : ℚ) := h3
  simp only [List.get_eq_getElem, List.getElem_range]
  refine ⟨?_, h2 k _ (List.getElem?_eq_getElem hk1)⟩
  rw [show t + (k + 1) = t + 1 + k by omega]
  exact h4

/-- The legs of a mission, one after the other. -/
theorem mission_flies (hL : AngleLibrary L) {full : Prop} {M : ℝ} (hM0 : 0 ≤ M) (hM : M ≤ 9e8) {N J : ℕ}
    (hN : N ≤ 10 ^ 6) (hJ : J ≤ 1000) : ∀ {cs : List (PhaseConfig (F64 L))} {legs : List Leg}
    (_ : List.Forall₂ Describes cs legs) {done : List (PhaseConfig (F64 L))} {log : List (LogEntry (F64 L))}
    {prev : Option (Phase (F64 L))} (_ : Sequence 0 none done log prev)
    (_ : ∀ c' ∈ done ++ cs, ∃ l, Describes c' l)
    (_ : full → ∀ c' ∈ done ++ cs, ∀ a, c'.maxAcceleration = some a → a = -1)
    (_ : prev = none → cs ≠ [] → cs.head?.bind (·.init) ≠ none) {v : Ship} {t j : ℕ} {crit : StateVariable × F64 L}
    (_ : HandsOver prev crit t) (_ : Carries (Phase.base prev) v full M ((1.1e-12 * j + 2.1e-16 * t) * M))
    (_ : Feasible M v legs) (_ : t + totalSeconds legs ≤ N) (_ : j + legs.length ≤ J),
    ∃ log' last, Sequence done.length prev cs log' last ∧
      List.Forall₂ (ShowsFlight full (2e-9 * M)) log' (flightLog done.length t v legs) ∧
      ∃ crit', HandsOver last crit' (t + totalSeconds legs) := by
  intro cs legs hdes
  induction hdes with
  | nil =>
    intro done log prev _ _ _ _ v t j crit hand _ _ _ _
    exact ⟨[], prev, .nil _ _, .nil, crit, by simpa [totalSeconds] using hand⟩
  | @cons c l cs legs hc hcs ih =>
    intro done log prev hseq hd hfull hinit v t j crit hand hcar hfeas hT hlen
    obtain ⟨hn1, hcan, hrest⟩ := hfeas
    have hsum : totalSeconds (l :: legs) = l.seconds + totalSeconds legs := by simp [totalSeconds]
    rw [hsum] at hT
    rw [List.length_cons] at hlen
    have hmem : ∀ c' ∈ done ++ [c], c' ∈ done ++ c :: cs := by
      intro c' hc'
      simp at hc' ⊢
      tauto
    have hjR : (j : ℝ) + 1 ≤ 1000 := by
      have : j + 1 ≤ 1000 := by omega
      exact_mod_cast this
    have htR : (t : ℝ) + l.seconds ≤ 1e6 := by
      have h1 : t + l.seconds ≤ 10 ^ 6 := by omega
      have h2 : ((t + l.seconds : ℕ) : ℝ) ≤ ((10 ^ 6 : ℕ) : ℝ) := by exact_mod_cast h1
      push_cast at h2
      norm_num at h2 ⊢
      exact h2
    have hls : (0 : ℝ) ≤ l.seconds := by positivity
    have hj0 : (0 : ℝ) ≤ j := by positivity
    have hbound : ((1.1e-12 * j + 2.1e-16 * t) * M) ≤ 2e-9 * M := by
      refine mul_le_mul_of_nonneg_right ?_ hM0
      norm_num at hjR htR ⊢
      linarith
    have hbound' : ((1.1e-12 * j + 2.1e-16 * t) * M) + (1.1e-12 + 2.1e-16 * l.seconds) * M ≤ 2e-9 * M := by
      rw [← add_mul]
      refine mul_le_mul_of_nonneg_right ?_ hM0
      norm_num at hjR htR ⊢
      linarith
    obtain ⟨rows, q, hcomp, hcar', hrl, hrows⟩ := leg_flies hL hseq (fun c' hc' => hd c' (hmem c' hc'))
      (fun hf c' hc' => hfull hf c' (hmem c' hc')) hc (fun hp => by simpa using hinit hp (by simp)) hcar hcan hn1
      (by omega) (by positivity) (hbound.trans (by norm_num; linarith)) hM
    -- the clock
    obtain ⟨T, hT1, T2, hT2, hT3⟩ := hc.criterion
    have hTn : T.Is ((t + l.seconds - t : ℕ) : ℚ) := by
      rw [Nat.add_sub_cancel_left]
      have : T2 = (l.seconds : ℚ) := by exact_mod_cast hT3
      rw [← this]
      exact hT2
    have hend : EndsAt (c.endCriterion.getD crit) t (t + l.seconds) := by
      rw [hT1]
      refine ⟨by omega, ?_, .inr ⟨rfl, hTn⟩⟩
      have : (10 : ℕ) ^ 6 < 2 ^ 53 := by norm_num
      omega
    obtain ⟨p, hp, fuel, hrun⟩ := hcomp
    have hclock : HandsOver (some q) (c.endCriterion.getD crit) (t + l.seconds) ∧
        List.Forall₂ ShowsLine (rows.map .row) ((List.range' (t + 1) rows.length).map .second) := by
      rcases timed_phase hand hend with ⟨rows', q', ⟨p', hp', fuel', hrun'⟩, k2, k3⟩ | ⟨rows', e, k1, _⟩
      · rw [hp] at hp'
        injection hp' with hp'
        subst hp'
        have := Phase.run_det hrun hrun'
        injection this with e1 e2
        injection e2 with e2
        subst e1 e2
        rw [Nat.add_sub_cancel_left, ← hrl] at k3
        exact ⟨k2, k3⟩
      · exfalso
        rcases k1 with ⟨k1, _⟩ | ⟨p', hp', fuel', hrun'⟩
        · rw [hp] at k1; cases k1
        · rw [hp] at hp'
          injection hp' with hp'
          subst hp'
          have := Phase.run_det hrun hrun'
          injection this with e1 e2
          cases e2
    obtain ⟨hand', hshow⟩ := hclock
    have hfl := flight_rows (full := full) (f := fun k => ((v.begin l).burn k).propellant)
      (E := (1.1e-12 * j + 2.1e-16 * t) * M + (1.1e-12 + 2.1e-16 * l.seconds) * M) hshow hrows
    have happ : (done ++ [c]) ++ cs = done ++ c :: cs := by simp
    obtain ⟨log', last, s1, s2, s3⟩ := ih (done := done ++ [c]) (prev := some q) (j := j + 1) (t := t + l.seconds)
      (C53_append.2 ⟨prev, _, _, hseq, .cons ⟨p, hp, fuel, hrun⟩ (.nil _ _), rfl⟩)
      (by rw [happ]; exact hd) (by rw [happ]; exact hfull) (fun h => by cases h) hand'
      (by
        have : ((1.1e-12 * ((j + 1 : ℕ) : ℝ) + 2.1e-16 * ((t + l.seconds : ℕ) : ℝ)) * M) =
          ((1.1e-12 * j + 2.1e-16 * t) * M) + (1.1e-12 + 2.1e-16 * l.seconds) * M := by push_cast; ring
        rw [this]
        exact hcar') hrest (by omega) (by omega)
    rw [List.length_append, List.length_singleton] at s1 s2
    refine ⟨_, last, .cons ⟨p, hp, fuel, hrun⟩ s1, ?_, ?_⟩
    · rw [flightLog]
      refine .cons rfl (List.rel_append ?_ s2)
      rw [← hrl]
      refine hfl.imp ?_
      intro a b hab
      cases a with
      | startingPhase i => cases b <;> exact hab
      | row r =>
        cases b with
        | starting i => exact hab
        | second u x =>
          obtain ⟨h1, w, h2, h3, h4⟩ := hab
          exact ⟨h1, w, h2, by linarith, fun hf => by linarith [h4 hf]⟩
    · obtain ⟨crit', h⟩ := s3
      refine ⟨crit', ?_⟩
      rw [hsum, ← add_assoc]
      exact h

/-- C87.  In double precision, a mission of up to 1000 legs in vacuum, of at most 10⁶ seconds in all, each leg of
which has enough propellant for running the engines at full thrust, always ends normally, whatever its attitudes
and trajectory are.  Its output is the flight log of the mission: the legs are announced, there is one row
for each second, at the exact second, and the propellant printed is at least that of the propellant budget, up to
2e-9 of the largest mass of the mission; it equals that of the budget, up to this error, if no leg has an
acceleration limit. -/
theorem C87_mission (hL : AngleLibrary L) {cs : List (PhaseConfig (F64 L))} {legs : List Leg}
    (hd : List.Forall₂ Describes cs legs) (hinit : cs.head?.bind (·.init) ≠ none) {M : ℝ} (hM : M ≤ 9e8)
    (hf : Feasible M .nothing legs) (hfew : legs.length ≤ 1000) (hshort : totalSeconds legs ≤ 10 ^ 6) :
    ∃ log s, Simulation.Terminates cs ⟨log, .ok s⟩ ∧
      List.Forall₂ (ShowsFlight (WithoutLimit cs) (2e-9 * M)) log (flightLog 0 0 .nothing legs) ∧
      s.time.Is (totalSeconds legs) := by
  have hM0 : 0 ≤ M := by
    cases hd with
    | nil => simp at hinit
    | @cons _ l _ _ h1 h2 =>
      have := hf.2.1.le
      have := hf.2.1.heavy
      have hb := consumption_nonneg (rel_getD h1.engines .nil)
      have := hf.2.1.enough
      have : 0 ≤ (l.seconds : ℝ) * fullConsumption (Ship.nothing.begin l).engines := mul_nonneg (by positivity) hb
      have : (Ship.nothing.begin l).filled = (Ship.nothing.begin l).propellant := by
        cases hl : l.propellant <;> simp [Ship.begin, Ship.nothing, hl]
      linarith
  have hmem : ∀ c ∈ ([] : List (PhaseConfig (F64 L))) ++ cs, ∃ l, Describes c l := by
    intro c hc
    rw [List.nil_append] at hc
    obtain ⟨i, hi, rfl⟩ := List.getElem_of_mem hc
    have h2 := List.forall₂_iff_get.1 hd
    exact ⟨_, h2.2 i hi (by rw [← h2.1]; exact hi)⟩
  obtain ⟨log, last, h1, h2, crit, h3⟩ := mission_flies hL (full := WithoutLimit cs) hM0 hM hshort hfew hd
    (done := []) (prev := none) (.nil _ _) hmem (fun h => h) (fun _ _ => hinit) (v := .nothing)
    (t := 0) (j := 0) (crit := (.timeSinceEvent, 0)) ⟨rfl, rfl⟩ (by simpa using carries_nothing hM0) hf (by simp)
    (by simp)
  rw [Nat.zero_add] at h3
  refine ⟨log, _, C53_terminates_ok_iff.2 ⟨last, h1, rfl⟩, h2, ?_⟩
  cases last with
  | none =>
    obtain ⟨_, h4⟩ := h3
    rw [h4]
    show Is (0 : F64 L) _
    simpa using is_zero (L := L)
  | some q => exact h3.2.1

/-- C87 (program).  A file that describes such a mission makes the program succeed, having printed the flight log. -/
theorem C87_program (hL : AngleLibrary L) {file : File (F64 L)} {cs : List (PhaseConfig (F64 L))}
    (hfile : Simulation.fromFile file = some cs) {legs : List Leg}
    (hd : List.Forall₂ Describes cs legs) (hinit : cs.head?.bind (·.init) ≠ none) {M : ℝ} (hM : M ≤ 9e8)
    (hf : Feasible M .nothing legs) (hfew : legs.length ≤ 1000) (hshort : totalSeconds legs ≤ 10 ^ 6) :
    ∃ fuel log, main fuel file = some (log, .success) ∧
      List.Forall₂ (ShowsFlight (WithoutLimit cs) (2e-9 * M)) log (flightLog 0 0 .nothing legs) := by
  obtain ⟨log, s, h1, h2, _⟩ := C87_mission hL hd hinit hM hf hfew hshort
  obtain ⟨fuel, hm⟩ := ((C56_bad_file_never_runs file).2 cs hfile log .success).2 ⟨_, h1, .inl ⟨rfl, s, rfl⟩⟩
  exact ⟨fuel, log, hm, h2⟩

/-! ## an example -/

theorem trigLibm_angle : AngleLibrary trigLibm where
  toTrigLibrary := trigLibm_trig
  cos := by
    rintro x q ⟨s, a, h1, rfl, _⟩ _
    have e : Flt.cos x = (⟨roundReal (Real.cos (Dbl.val s a : ℚ))⟩ : F64 trigLibm) := by
      show (⟨trigLibm.cos x.dbl⟩ : F64 trigLibm) = _
      rw [h1]
      rfl
    rw [e]
    have hs := Real.abs_cos_le_one (Dbl.val s a : ℚ)
    obtain ⟨r, h2, h3⟩ := roundReal_is (L := trigLibm) (hs.trans (by norm_num))
    exact ⟨r, h2, roundReal_one hs h2, h3⟩

/-- 100 seconds with one engine; 10 seconds without engines, after dropping 1 ton of structure; and 30 seconds
with the engine again. -/
def exampleMission : List (PhaseConfig (F64 L)) := [
  { PhaseConfig.empty with
    init := some ⟨45, 10, 90, 0⟩
    vehicle := some ⟨some 10000, some 90000, none, none, none, none, some [⟨0, 0, 1000000, 300, 0⟩]⟩
    endCriterion := some (.timeSinceEvent, 100) },
  { PhaseConfig.empty with
    vehicle := some ⟨some 9000, none, none, none, none, none, some []⟩
    endCriterion := some (.timeSinceEvent, 10) },
  { PhaseConfig.empty with
    vehicle := some ⟨none, none, none, none, none, none, some [⟨0, 0, 1000000, 300, 0⟩]⟩
    endCriterion := some (.timeSinceEvent, 30) }]

/-- The same mission, in real numbers. -/
def exampleLegs : List Leg :=
  [⟨100, some 10000, some 90000, some [realOneEngine]⟩, ⟨10, some 9000, none, some []⟩,
    ⟨30, none, none, some [realOneEngine]⟩]

theorem exampleMission_described : List.Forall₂ Describes (exampleMission (L := trigLibm)) exampleLegs := by
  have n1 : Reads (10000 : F64 trigLibm) 10000 := by simpa using reads_nat (L := trigLibm) 10000 (by norm_num)
  have n2 : Reads (90000 : F64 trigLibm) 90000 := by simpa using reads_nat (L := trigLibm) 90000 (by norm_num)
  have n3 : Reads (9000 : F64 trigLibm) 9000 := by simpa using reads_nat (L := trigLibm) 9000 (by norm_num)
  have h1 : Reads (1000000 : F64 trigLibm) 1000000 := by simpa using reads_nat (L := trigLibm) 1000000 (by norm_num)
  have h2 : Reads (300 : F64 trigLibm) 300 := by simpa using reads_nat (L := trigLibm) 300 (by norm_num)
  have h0 : Reads (0 : F64 trigLibm) 0 := ⟨0, is_zero, by norm_num⟩
  have he : List.Forall₂ MountedDouble [(⟨0, 0, 1000000, 300, 0⟩ : Engine (F64 trigLibm))] [realOneEngine] := by
    refine .cons ⟨⟨h1, h2, ?_, ?_, ?_, ?_⟩, h0, h0, h0, ?_, ?_⟩ .nil <;> norm_num [realOneEngine]
  refine .cons ⟨⟨_, rfl, reads_nat 100 (by norm_num)⟩, .some n1, .some n2, .some he, ?_, ?_, ?_⟩
    (.cons ⟨⟨_, rfl, reads_nat 10 (by norm_num)⟩, .some n3, .none, .some .nil, ?_, ?_, ?_⟩
    (.cons ⟨⟨_, rfl, reads_nat 30 (by norm_num)⟩, .none, .none, .some he, ?_, ?_, ?_⟩ .nil)) <;>
    simp [atmosphereParam, tablesOf, PhaseConfig.empty]

theorem realOne_propels : Propels [realOneEngine] := by
  refine .inr ⟨by simp, by norm_num [fullConsumption, RealEngine.consumption, realOneEngine],
    by norm_num [sumOfThrusts, realOneEngine], ?_⟩
  have : rnorm (fullThrust [realOneEngine] 0) = 1000000 := by
    have e : fullThrust [realOneEngine] 0 = ⟨1000000, 0, 0⟩ := by
      simp [fullThrust, rsum, RealEngine.thrustAt, RealEngine.direction, rscale, realOneEngine]
    rw [e, rnorm_x]
    norm_num
  rw [this]
  norm_num [sumOfThrusts, realOneEngine]

theorem exampleLegs_feasible : Feasible 100000 .nothing exampleLegs := by
  refine ⟨by norm_num, ⟨realOne_propels, ?_, ?_, ?_, ?_, ?_⟩, by norm_num, ⟨.inl rfl, ?_, ?_, ?_, ?_, ?_⟩, by norm_num,
    ⟨realOne_propels, ?_, ?_, ?_, ?_, ?_⟩, trivial⟩ <;>
    norm_num [Ship.begin, Ship.burn, Ship.nothing, fullConsumption, RealEngine.consumption, realOneEngine]

/-- The hypotheses are met.  The output has 143 lines; the last one shows the time 140 s and the
propellant 90000 - 130 · 1e6 / (300 · 9.80665) kg, about 45812 kg, up to a gram. -/
example : ∃ (log : List (LogEntry (F64 trigLibm))) (s : State (F64 trigLibm)),
    Simulation.Terminates exampleMission ⟨log, .ok s⟩ ∧ log.length = 143 ∧ s.time.Is 140 ∧
    ∃ r w, log[142]? = some (.row r) ∧ r.time.Is 140 ∧ Reads r.propellantMass w ∧
      |w - (90000 - 130 * (1000000 / (300 * 9.80665)))| ≤ 1e-3 := by
  obtain ⟨log, s, h1, h2, h3⟩ := C87_mission trigLibm_angle exampleMission_described (by simp [exampleMission])
    (by norm_num) exampleLegs_feasible (by norm_num [exampleLegs]) (by norm_num [totalSeconds, exampleLegs])
  have hlen : (flightLog 0 0 .nothing exampleLegs).length = 143 := by simp [flightLog, exampleLegs]
  have hl := h2.length_eq
  rw [hlen] at hl
  refine ⟨log, s, h1, hl, h3, ?_⟩
  have h4 := (List.forall₂_iff_get.1 h2).2 142 (by omega) (by omega)
  have h5 : (flightLog 0 0 .nothing exampleLegs)[142]'(by omega) =
      .second 140 (90000 - 130 * (1000000 / (300 * 9.80665))) := by
    have e : (flightLog 0 0 .nothing exampleLegs)[142]? =
        some (.second 140 (90000 - 130 * (1000000 / (300 * 9.80665)))) := by
      simp [flightLog, exampleLegs]
      norm_num [Ship.begin, Ship.burn, Ship.nothing, fullConsumption, RealEngine.consumption, realOneEngine]
    rw [List.getElem?_eq_getElem (by omega)] at e
    exact Option.some.inj e
  simp only [List.get_eq_getElem] at h4
  rw [h5] at h4
  cases hg : log[142] with
  | startingPhase i => rw [hg] at h4; exact h4.elim
  | row r =>
    rw [hg] at h4
    obtain ⟨k1, w, k2, k3, k4⟩ := h4
    have k5 := k4 (fun c hc a ha => by
      simp only [exampleMission, List.mem_cons, List.not_mem_nil, or_false] at hc
      rcases hc with rfl | rfl | rfl <;> simp [PhaseConfig.empty] at ha)
    refine ⟨r, w, by rw [List.getElem?_eq_getElem (by omega), hg], k1, k2, ?_⟩
    rw [abs_le]
    norm_num at k3 k5 ⊢
    constructor <;> linarith

end Post
