import Verif.Lemmas.SpeedF64
import Verif.Props.DoubleAltitude
import Verif.Props.Print
/-! # C91: speeds, Mach number and dynamic pressure in double precision -/

set_option exponentiation.threshold 2000

namespace Post
open Spec Flt F64
variable {L : Libm}

/-- C91 (velocities).  In every state visited by a phase near one of the three models of the Earth, the velocity
relative to the Earth is that of the state minus that of a point turning with the Earth, and the velocity relative to the
air is smaller by the configured wind, each up to less than a tenth of a nanometre per second. -/
theorem C91_velocity {p : Phase (F64 L)} {Q : Planet XR} (hP : SameEarth p.planet Q) {ω : ℝ}
    (hω : Q.rotationRate = .fin ω) {s : State (F64 L)} (hs : Visited p s) {r v : V3 ℝ} (hr : ReadsV s.position r)
    (hv : ReadsV s.velocity v) (h1 : rnorm r ≤ 1e8) (h2 : rnorm v ≤ 1e5) :
    (∃ u, ReadsV s.velocityPlanet u ∧ rdist u (rsub v (rcross ⟨0, 0, ω⟩ r)) ≤ 4e-11) ∧
    ∀ w : V3 ℝ, ReadsV p.atmosphere.wind w → rnorm w ≤ 1e4 →
      ∃ u, ReadsV s.velocityAtmosphere u ∧ rdist u (rsub (rsub v (rcross ⟨0, 0, ω⟩ r)) w) ≤ 8e-11 := by
  have hc := C57_visited_consistent hs
  obtain ⟨hN, hb⟩ := velocityPlanet_near hP hω hr hv h1 h2
  rw [← hc.velocityPlanet] at hN
  refine ⟨hN.readsV (by norm_num), fun w hw hw' => ?_⟩
  rw [hc.velocityAtmosphere]
  exact (velocity_wind hN hw hb hw').readsV (by norm_num)

theorem agrees_move {x : F64 L} {ξ η a d e : ℝ} (h : Agrees x ξ a) (hd : |ξ - η| ≤ d * |η|) (ha : 0 ≤ a)
    (he : a * (1 + d) + d ≤ e) : Agrees x η e := by
  obtain ⟨q, h1, h2⟩ := h
  refine ⟨q, h1, ?_⟩
  have h3 : |ξ| ≤ (1 + d) * |η| := by
    have := abs_add_le (ξ - η) η
    rw [sub_add_cancel] at this
    linarith
  have h4 := abs_add_le (q - ξ) (ξ - η)
  rw [sub_add_sub_cancel] at h4
  have h5 := mul_le_mul_of_nonneg_left h3 ha
  have h6 := mul_le_mul_of_nonneg_right he (abs_nonneg η)
  calc |q - η| ≤ a * ((1 + d) * |η|) + d * |η| := by linarith
    _ = (a * (1 + d) + d) * |η| := by ring
    _ ≤ e * |η| := h6

/-- C91 (Mach number and dynamic pressure).  In every state visited by a phase with an atmosphere, between 6300 and
100000 km from the centre of the Earth, with an air speed between one metre and 90 km per second: the Mach number is the
ratio of the air speed to the speed of sound, up to a fraction of 1e-10, and the dynamic pressure is half the density times
the square of the air speed, up to a fraction of 3e-10.  Here the air speed is the exact one that belongs to the position,
the velocity and the wind; temperature and pressure are those of the standard atmosphere at a geopotential altitude at most
2 micrometres from the exact one. -/
theorem C91_mach (hA : AirLibrary L) (hL : TrigLibrary L) (hG : GoodLibrary L) {p : Phase (F64 L)} {Q : Planet XR}
    (hP : SameEarth p.planet Q) {a b ω : ℝ} (ha : Q.equatorialRadius = .fin a) (hb : Q.polarRadius = .fin b)
    (hω : Q.rotationRate = .fin ω) (hp : DoubleComponents p.state.position)
    (hatm : p.atmosphere.model = .standardAtmosphere1962) {w : V3 ℝ} (hw : ReadsV p.atmosphere.wind w)
    (hw' : rnorm w ≤ 1e4) {s : State (F64 L)} (hs : Visited p s) {r v : V3 ℝ} (hr : ReadsV s.position r)
    (hv : ReadsV s.velocity v) (h1 : 6.3e6 ≤ rnorm r) (h2 : rnorm r ≤ 1e8) (h3 : rnorm v ≤ 1e5) {h : ℝ}
    (hh : RadialAltitude a b r h) {V : ℝ} (hV : V = rnorm (rsub (rsub v (rcross ⟨0, 0, ω⟩ r)) w)) (hV1 : 1 ≤ V)
    (hV2 : V ≤ 9e4) :
    ∃ g l, |g - geopotential ((a + b) / 2) h| ≤ 2e-6 ∧ LayerNear g l ∧ 0 < l.temperature g ∧ 0 < l.pressure g ∧
      Agrees s.machNumber (V / Real.sqrt (1.4 * airGasConstant * l.temperature g)) 1e-10 ∧
      Agrees s.dynamicPressure (l.pressure g / (airGasConstant * l.temperature g) / 2 * V ^ 2) 3e-10 := by
  have hR := sameEarth_radii hP ha hb
  have hb0 : 0 < b := lt_of_lt_of_le (by norm_num) hR.low
  have hd := C89_doubles hp hs
  have hc := C57_visited_consistent hs
  obtain ⟨hN, g1, g2⟩ := geopotential_double hL hG hR hr hd.2.2 h1 h2
  obtain ⟨g, hg, hge⟩ := hN.reads
  rw [← hc.altitudeGeopotential] at hg
  rw [radial_unique (lt_of_lt_of_le hb0 hR.le) hb0 (lt_of_lt_of_le (by norm_num) h1) hh] at hge g1 g2
  obtain ⟨k1, k2⟩ := abs_le.1 hge
  obtain ⟨l, m1, m2, m3, m4, m5, m6, m7⟩ := C88_visited hA hG hs hatm hg (by norm_num at *; linarith)
    (by norm_num at *; linarith)
  obtain ⟨u, hu, hu'⟩ := (C91_velocity hP hω hs hr hv h2 h3).2 w hw hw'
  have hclose := (rnorm_close u (rsub (rsub v (rcross ⟨0, 0, ω⟩ r)) w)).trans hu'
  rw [← hV] at hclose
  set U := rnorm u with hU
  obtain ⟨q1, q2⟩ := abs_le.1 hclose
  have hV0 : 0 < V := by linarith
  have hUV : |U - V| ≤ 8e-11 * V := by
    refine hclose.trans ?_
    norm_num
    linarith
  obtain ⟨n1, n2⟩ := m7 u hu (by norm_num at *; linarith) (by norm_num at *; linarith)
  refine ⟨g, l, hge, m1, m2, m3, agrees_move n1 (d := 8e-11) ?_ (by norm_num) (by norm_num), ?_⟩
  · rw [← sub_div, abs_div, abs_div, abs_of_pos hV0, ← mul_div_assoc]
    exact div_le_div_of_nonneg_right hUV (abs_nonneg _)
  · rw [← rnorm_sq] at n2
    refine agrees_move n2 (d := 1.7e-10) ?_ (by norm_num) (by norm_num)
    rw [← mul_sub, abs_mul, abs_mul, abs_of_nonneg (sq_nonneg V), mul_left_comm]
    refine mul_le_mul_of_nonneg_left ?_ (abs_nonneg _)
    rw [show rnorm u ^ 2 - V ^ 2 = (U - V) * (U + V) by rw [hU]; ring, abs_mul]
    have h5 : |U + V| ≤ 2.1 * V := by
      rw [abs_le]
      norm_num at q1 q2 ⊢
      constructor <;> linarith
    calc |U - V| * |U + V| ≤ (8e-11 * V) * (2.1 * V) := mul_le_mul hUV h5 (abs_nonneg _) (by positivity)
      _ = 1.68e-10 * V ^ 2 := by ring
      _ ≤ 1.7e-10 * V ^ 2 := mul_le_mul_of_nonneg_right (by norm_num) (sq_nonneg V)

/-- The state with which a simulation starts. -/
theorem started_rest {c : PhaseConfig (F64 L)} {s : State (F64 L)} (h : Started c s) :
    ∃ p : Phase (F64 L), Phase.new none c = .ok p ∧ Visited p.reset s ∧
      s.velocity = -(p.planet.velocityPlanet s.position .zero) := by
  obtain ⟨p, hp, hs⟩ := h
  have hpr := Phase.system_primary hs
  refine ⟨p, hp, ⟨s, [], _, hs, .nil _, .inl rfl⟩, ?_⟩
  rw [hpr.2.2.2.1, hpr.2.2.1]
  unfold Phase.new at hp
  cases hi : c.init with
  | none => rw [hi] at hp; cases hp
  | some i =>
    rw [hi] at hp
    injection hp with hp
    rw [← hp]
    rfl

/-- C91 (start).  In double precision a simulation starts exactly at rest relative to the planet, whatever the planet, the
launch site and the mathematical library are: if the initial velocity is a number at all, then the velocity relative to the
planet is zero, and the velocity relative to the air is the opposite of the configured wind, without any rounding error. -/
theorem C91_start {c : PhaseConfig (F64 L)} {s : State (F64 L)} (h : Started c s)
    (hv : FiniteDouble s.velocity.x ∧ FiniteDouble s.velocity.y ∧ FiniteDouble s.velocity.z) :
    ReadsV s.velocityPlanet ⟨0, 0, 0⟩ ∧
    ∀ p w, Phase.new none c = .ok p → ReadsV p.atmosphere.wind w → DoubleComponents p.atmosphere.wind →
      ReadsV s.velocityAtmosphere (rscale (-1) w) := by
  obtain ⟨p, hp, hs, he⟩ := started_rest h
  have hc := C57_visited_consistent hs
  have hrest : ReadsV s.velocityPlanet ⟨0, 0, 0⟩ := by
    rw [hc.velocityPlanet]
    rw [he] at hv ⊢
    exact velocityPlanet_rest hv
  refine ⟨hrest, ?_⟩
  intro p' w hp' hw hd
  rw [hp] at hp'
  injection hp' with hp'
  rw [← hp'] at hw hd
  rw [hc.velocityAtmosphere]
  have key : ∀ {z x : F64 L} {ξ : ℝ}, Reads z 0 → Reads x ξ → x.dbl.IsDouble → Reads (z - x) (-1 * ξ) := by
    rintro z x ξ ⟨a, ha, ha'⟩ ⟨q, hq, rfl⟩ hx
    obtain rfl : a = 0 := by exact_mod_cast ha'
    exact ⟨-q, is_zero_sub ha hq hx, by push_cast; ring⟩
  exact ⟨key hrest.1 hw.1 hd.1, key hrest.2.1 hw.2.1 hd.2.1, key hrest.2.2 hw.2.2 hd.2.2⟩

/-! ## Examples -/

/-- `examplePole`, rising with 340 metres per second. -/
noncomputable def exampleRise : Phase (F64 fullLibm) :=
  { examplePole with state := { examplePole.state with velocity := ⟨0, 0, 340⟩ } }

/-- The hypotheses of the theorem on the Mach number are met by this phase. -/
example : ∃ s, Visited exampleRise s ∧ ∃ M, Reads s.machNumber M ∧ 0 < M := by
  obtain ⟨s, hs⟩ := coasting_system (p := exampleRise) rfl rfl ⟨wellFormed_default, wellFormed_default, wellFormed_default⟩
    exampleRise.state
  have hvis : Visited exampleRise s := ⟨s, [], _, hs, .nil _, .inl rfl⟩
  have hz : Reads (0 : F64 fullLibm) 0 := reads_zero
  have hread : ReadsV s.position ⟨0, 0, 6366784⟩ := by
    rw [(Phase.system_primary hs).2.2.1]
    have h9 : Reads (6366784 : F64 fullLibm) 6366784 := by simpa using reads_nat (L := fullLibm) 6366784 (by norm_num)
    exact ⟨hz, hz, h9⟩
  have hvel : ReadsV s.velocity ⟨0, 0, 340⟩ := by
    rw [(Phase.system_primary hs).2.2.2.1]
    have h9 : Reads (340 : F64 fullLibm) 340 := by simpa using reads_nat (L := fullLibm) 340 (by norm_num)
    exact ⟨hz, hz, h9⟩
  have hn : rnorm ⟨0, 0, 6366784⟩ = 6366784 := by
    unfold rnorm
    rw [show (0 : ℝ) ^ 2 + 0 ^ 2 + 6366784 ^ 2 = 6366784 ^ 2 by ring, Real.sqrt_sq (by norm_num)]
  have hn3 : rnorm ⟨0, 0, 340⟩ = 340 := by
    unfold rnorm
    rw [show (0 : ℝ) ^ 2 + 0 ^ 2 + 340 ^ 2 = 340 ^ 2 by ring, Real.sqrt_sq (by norm_num)]
  have hn0 : rnorm ⟨0, 0, 0⟩ = 0 := by simp [rnorm]
  have hd : DoubleComponents exampleRise.state.position :=
    ⟨Dbl.round_isDouble _ _, Dbl.round_isDouble _ _, Dbl.round_isDouble _ _⟩
  have f1 : (EARTH_SMITHSONIAN : Planet XR).equatorialRadius = .fin (20925741 * 0.3048) := by
    show (2.0925741e7 * METER_PER_FOOT : XR) = _
    unfold METER_PER_FOOT
    rw [XR.fin_sci, XR.fin_sci, XR.fin_mul]
    norm_num
  have f2 : (EARTH_SMITHSONIAN : Planet XR).polarRadius = .fin (20855590 * 0.3048) := by
    show (2.0855590e7 * METER_PER_FOOT : XR) = _
    unfold METER_PER_FOOT
    rw [XR.fin_sci, XR.fin_sci, XR.fin_mul]
    norm_num
  have f3 : (EARTH_SMITHSONIAN : Planet XR).rotationRate = .fin 7.29211e-5 := by
    show (7.29211e-5 : XR) = _
    rw [XR.fin_sci]
  have hV : (340 : ℝ) = rnorm (rsub (rsub ⟨0, 0, 340⟩ (rcross ⟨0, 0, 7.29211e-5⟩ ⟨0, 0, 6366784⟩)) ⟨0, 0, 0⟩) := by
    rw [show rsub (rsub ⟨0, 0, 340⟩ (rcross ⟨0, 0, 7.29211e-5⟩ ⟨0, 0, 6366784⟩)) ⟨0, 0, 0⟩ = ⟨0, 0, 340⟩ by
      unfold rsub rcross; simp, hn3]
  have hh : RadialAltitude (20925741 * 0.3048) (20855590 * 0.3048) ⟨0, 0, 6366784⟩ 10000.168 := by
    refine ⟨by rw [hn]; norm_num, ?_⟩
    rw [hn]
    unfold OnEllipsoid rscale
    norm_num
  obtain ⟨g, l, _, _, hT, _, ⟨M, hM, hM'⟩, _⟩ := C91_mach fullLibm_air fullLibm_trig fullLibm_good
    (p := exampleRise) (.inr (.inr ⟨rfl, rfl⟩)) f1 f2 f3 hd rfl (w := ⟨0, 0, 0⟩) ⟨hz, hz, hz⟩ (by rw [hn0]; norm_num)
    hvis hread hvel (by rw [hn]; norm_num) (by rw [hn]; norm_num) (by rw [hn3]; norm_num) hh hV (by norm_num) (by norm_num)
  refine ⟨s, hvis, M, hM, ?_⟩
  have hpos : 0 < 340 / Real.sqrt (1.4 * airGasConstant * l.temperature g) := by
    have := airGasConstant_pos
    positivity
  rw [abs_of_pos hpos] at hM'
  have := (abs_le.1 hM').1
  norm_num at this
  nlinarith

/-- A launch from the equator of the rotating Earth, with a wind. -/
def exampleWindy : PhaseConfig (F64 plainLibm) :=
  { PhaseConfig.empty with
    init := some ⟨0, 0, 0, 0⟩
    vehicle := some ⟨some 1000, none, none, none, none, none, none⟩
    atmosphere := some ⟨none, some ⟨3, 4, 0⟩⟩ }

/-- The phase made from the configuration and the state with which it starts. -/
def exampleWindyStart : Option (Phase (F64 plainLibm) × State (F64 plainLibm)) :=
  match Phase.new none exampleWindy with
  | .ok p => match p.reset.system p.reset.state with
    | .ok s => some (p, s)
    | .error _ => none
  | .error _ => none

theorem exampleWindy_ok : (exampleWindyStart.map fun x => (isNumber x.2.velocity.x && isNumber x.2.velocity.y &&
    isNumber x.2.velocity.z && decide (x.1.atmosphere.wind = ⟨3, 4, 0⟩) && lt 465 x.2.velocity.y)) = some true := by
  decide +kernel

/-- The vehicle moves with more than 465 metres per second, like the ground; it is at rest relative to the ground, and
there is a head wind. -/
example : ∃ s, Started exampleWindy s ∧ lt 465 s.velocity.y = true ∧ ReadsV s.velocityPlanet ⟨0, 0, 0⟩ ∧
    ReadsV s.velocityAtmosphere ⟨-3, -4, 0⟩ := by
  have h := exampleWindy_ok
  unfold exampleWindyStart at h
  split at h
  · next p hp =>
    split at h
    · next s hs =>
      simp only [Option.map_some, Option.some.injEq, Bool.and_eq_true, decide_eq_true_eq] at h
      obtain ⟨⟨⟨⟨h1, h2⟩, h3⟩, h4⟩, h5⟩ := h
      have hst : Started exampleWindy s := ⟨p, hp, hs⟩
      obtain ⟨k1, k2⟩ := C91_start hst ⟨isNumber_finite h1, isNumber_finite h2, isNumber_finite h3⟩
      refine ⟨s, hst, h5, k1, ?_⟩
      have := k2 p ⟨3, 4, 0⟩ hp (by
        rw [h4]
        exact ⟨by simpa using reads_nat (L := plainLibm) 3 (by norm_num),
          by simpa using reads_nat (L := plainLibm) 4 (by norm_num), reads_zero⟩) (by
        rw [h4]
        exact ⟨Dbl.round_isDouble _ _, Dbl.round_isDouble _ _, Dbl.round_isDouble _ _⟩)
      simpa [rscale] using this
    · cases h
  · cases h

end Post
