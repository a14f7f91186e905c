import Verif.Lemmas.AltF64
import Verif.Spec.DoubleAltitude
import Verif.Props.DoubleOrbit
import Verif.Props.Planet
import Verif.Props.DoubleMission
/-! # C89: the altitude in double precision -/

set_option exponentiation.threshold 2000

namespace Post
open Spec Flt F64
variable {L : Libm}

/-- C89 (latitude).  For every position, a vector of doubles with a length between a millimetre and 100000 km, the
computed sine of the latitude is a number between -1 and 1: the rounding errors never push it out of the domain of the
arc sine, not even over the poles. -/
theorem C89_latitude {v : V3 (F64 L)} {r : V3 ℝ} (hv : ReadsV v r) (hd : DoubleComponents v) (h1 : 1e-3 ≤ rnorm r)
    (h2 : rnorm r ≤ 1e8) : ∃ q : ℝ, Reads (v.z / v.norm) q ∧ |q| ≤ 1 ∧ |q - r.z / rnorm r| ≤ 3e-15 := by
  obtain ⟨q, h3, h4, h5⟩ := ratio_double hv hd.2.2 h1 h2
  exact ⟨q, ⟨q, h3, rfl⟩, by exact_mod_cast h4, h5⟩

theorem radial_unique {a b : ℝ} (ha : 0 < a) (hb : 0 < b) {r : V3 ℝ} (hr : 0 < rnorm r) {h : ℝ}
    (hh : RadialAltitude a b r h) : rnorm r - surfaceDistance a b r = h := by
  obtain ⟨h1, h2⟩ := hh
  have hr0 : r ≠ ⟨0, 0, 0⟩ := by
    rintro rfl
    simp [rnorm] at hr
  have hl := level_eq ha hb.ne' hr0
  have hD := surfaceDistance_pos ha hb.ne' hr0
  unfold ellipsoidLevel at hl
  unfold OnEllipsoid rscale at h2
  have : ∀ k : ℝ, (k * r.x) ^ 2 / a ^ 2 + (k * r.y) ^ 2 / a ^ 2 + (k * r.z) ^ 2 / b ^ 2 =
      k ^ 2 * (r.x ^ 2 / a ^ 2 + r.y ^ 2 / a ^ 2 + r.z ^ 2 / b ^ 2) := by intro k; ring
  simp only [this, hl] at h2
  have h3 : (rnorm r - h) ^ 2 = surfaceDistance a b r ^ 2 := by
    field_simp at h2
    linarith
  rw [sq_eq_sq₀ (by linarith) hD.le] at h3
  linarith

theorem Near.reads {x : F64 L} {ξ e : ℝ} (h : Near x ξ e) : ∃ r : ℝ, Reads x r ∧ |r - ξ| ≤ e := by
  obtain ⟨q, h1, h2⟩ := h
  exact ⟨q, ⟨q, h1, rfl⟩, h2⟩

/-- C89 (altitude).  With each of the three models of the Earth, at every position (a vector of doubles) between 6300
and 100000 km from the centre, the computed altitude is a number, and it differs by at most 0.2 micrometres from the
exact one: going down by the latter one meets the surface of the ellipsoid. -/
theorem C89_altitude (hL : TrigLibrary L) (hG : GoodLibrary L) {P : Planet (F64 L)} {Q : Planet XR} (hP : SameEarth P Q)
    {a b : ℝ} (ha : Q.equatorialRadius = .fin a) (hb : Q.polarRadius = .fin b) {v : V3 (F64 L)} {r : V3 ℝ}
    (hv : ReadsV v r) (hd : DoubleComponents v) (h1 : 6.3e6 ≤ rnorm r) (h2 : rnorm r ≤ 1e8) {h : ℝ}
    (hh : RadialAltitude a b r h) : ∃ h' : ℝ, Reads (P.altitude v) h' ∧ |h' - h| ≤ 2e-7 := by
  have hR := sameEarth_radii hP ha hb
  have hb0 : 0 < b := lt_of_lt_of_le (by norm_num) hR.low
  have := (altitude_double hL hG hR hv hd.2.2 h1 h2).1.reads
  rwa [radial_unique (lt_of_lt_of_le hb0 hR.le) hb0 (lt_of_lt_of_le (by norm_num) h1) hh] at this

/-- C89 (geopotential altitude).  The computed geopotential altitude is a number that differs by at most 2 micrometres
from the one belonging to the exact altitude, with the mean of the two radii as the radius of the Earth. -/
theorem C89_geopotential (hL : TrigLibrary L) (hG : GoodLibrary L) {P : Planet (F64 L)} {Q : Planet XR}
    (hP : SameEarth P Q) {a b : ℝ} (ha : Q.equatorialRadius = .fin a) (hb : Q.polarRadius = .fin b) {v : V3 (F64 L)}
    {r : V3 ℝ} (hv : ReadsV v r) (hd : DoubleComponents v) (h1 : 6.3e6 ≤ rnorm r) (h2 : rnorm r ≤ 1e8) {h : ℝ}
    (hh : RadialAltitude a b r h) :
    ∃ g : ℝ, Reads (P.geopotentialAltitude v) g ∧ |g - geopotential ((a + b) / 2) h| ≤ 2e-6 := by
  have hR := sameEarth_radii hP ha hb
  have hb0 : 0 < b := lt_of_lt_of_le (by norm_num) hR.low
  have := (geopotential_double hL hG hR hv hd.2.2 h1 h2).1.reads
  rwa [radial_unique (lt_of_lt_of_le hb0 hR.le) hb0 (lt_of_lt_of_le (by norm_num) h1) hh] at this

/-- Every position has an altitude. -/
theorem radial_exists {a b : ℝ} (ha : 0 < a) (hb : 0 < b) {r : V3 ℝ} (hr : 0 < rnorm r) : ∃ h, RadialAltitude a b r h := by
  have hr0 : r ≠ ⟨0, 0, 0⟩ := by
    rintro rfl
    simp [rnorm] at hr
  obtain ⟨h, _, h1, h2⟩ := C44_radial (p := ⟨.fin a, .fin b, ⟨.fin 1, .fin 0, .fin 0, .fin 0⟩, .fin 0⟩) rfl rfl ha hb hr0
  exact ⟨h, h1, h2⟩

/-- The integrator only stores doubles in the position. -/
theorem oneStep_position_double {p : Phase (F64 L)} {h : F64 L} {s s' : State (F64 L)} (hs : OneStep p h s s') :
    DoubleComponents s'.position := by
  obtain ⟨y, hy, hf⟩ := Integrator.step_ok hs
  obtain ⟨v1, v2, v3, v4, x1, x2, x3, x4, y1, y2, y3, y4, e1, e2, e3, e4, m1, m2, m3, m4, m5, _⟩ := rk4_ok hy
  have hp := (Phase.system_primary hf).2.2.1
  have d : ∀ i, (y i).dbl.IsDouble := by
    intro i
    rw [m5 i]
    exact Dbl.add_isDouble _ _
  rw [hp]
  exact ⟨d 0, d 1, d 2⟩

/-- C89 (doubles).  If the position at the start of a phase is given by doubles, then so is every one visited. -/
theorem C89_doubles {p : Phase (F64 L)} (hp : DoubleComponents p.state.position) {s : State (F64 L)} (hs : Visited p s) :
    DoubleComponents s.position :=
  hs.induction (I := fun s => DoubleComponents s.position)
    (fun s0 h => by rw [(Phase.system_primary h).2.2.1]; exact hp) fun _ _ _ _ h => oneStep_position_double h

/-- C89 (visited states).  In every state visited by a phase, between 6300 and 100000 km from the centre of the Earth,
the altitude is a number with an error of at most 0.2 micrometres, and the geopotential altitude one with an error of at
most 2 micrometres. -/
theorem C89_visited (hL : TrigLibrary L) (hG : GoodLibrary L) {p : Phase (F64 L)} {Q : Planet XR}
    (hP : SameEarth p.planet Q) {a b : ℝ} (ha : Q.equatorialRadius = .fin a) (hb : Q.polarRadius = .fin b)
    (hp : DoubleComponents p.state.position) {s : State (F64 L)} (hs : Visited p s) {r : V3 ℝ} (hr : ReadsV s.position r)
    (h1 : 6.3e6 ≤ rnorm r) (h2 : rnorm r ≤ 1e8) {h : ℝ} (hh : RadialAltitude a b r h) :
    (∃ h' : ℝ, Reads s.altitude h' ∧ |h' - h| ≤ 2e-7) ∧
    ∃ g : ℝ, Reads s.altitudeGeopotential g ∧ |g - geopotential ((a + b) / 2) h| ≤ 2e-6 := by
  have hc := C57_visited_consistent hs
  have hd := C89_doubles hp hs
  rw [hc.altitude, hc.altitudeGeopotential]
  exact ⟨C89_altitude hL hG hP ha hb hr hd h1 h2 hh, C89_geopotential hL hG hP ha hb hr hd h1 h2 hh⟩

/-- C89 (rows).  Each row printed by a run belongs to a state visited; if that is between 6300 and 100000 km from the
centre of the Earth, then the altitude in the row is a number with an error of at most 0.2 micrometres. -/
theorem C89_rows (hL : TrigLibrary L) (hG : GoodLibrary L) {p : Phase (F64 L)} {Q : Planet XR}
    (hP : SameEarth p.planet Q) {a b : ℝ} (ha : Q.equatorialRadius = .fin a) (hb : Q.polarRadius = .fin b)
    (hp : DoubleComponents p.state.position) {fuel : ℕ} {rows : List (Row (F64 L))} {res : Except Panic (Phase (F64 L))}
    (hrun : p.run fuel = some ⟨rows, res⟩) {row : Row (F64 L)} (hrow : row ∈ rows) :
    ∃ s, Visited p s ∧ row = s.row ∧ ∀ (r : V3 ℝ) (h : ℝ), ReadsV s.position r → 6.3e6 ≤ rnorm r → rnorm r ≤ 1e8 →
      RadialAltitude a b r h → ∃ h' : ℝ, Reads row.altitude h' ∧ |h' - h| ≤ 2e-7 := by
  obtain ⟨s, hs, rfl⟩ := (visited_of_run hrun).1 row hrow
  exact ⟨s, hs, rfl, fun r h hr h1 h2 hh => (C89_visited hL hG hP ha hb hp hs hr h1 h2 hh).1⟩

/-- C89 (air).  In every state visited by a phase with an atmosphere, between 6300 and 100000 km from the centre of the
Earth, temperature, pressure and density are numbers, greater than zero, that agree with the laws of the standard
atmosphere at a geopotential altitude at most 2 micrometres from the exact one. -/
theorem C89_air (hA : AirLibrary L) (hL : TrigLibrary L) (hG : GoodLibrary L) {p : Phase (F64 L)} {Q : Planet XR}
    (hP : SameEarth p.planet Q) {a b : ℝ} (ha : Q.equatorialRadius = .fin a) (hb : Q.polarRadius = .fin b)
    (hp : DoubleComponents p.state.position) (hatm : p.atmosphere.model = .standardAtmosphere1962) {s : State (F64 L)}
    (hs : Visited p s) {r : V3 ℝ} (hr : ReadsV s.position r) (h1 : 6.3e6 ≤ rnorm r) (h2 : rnorm r ≤ 1e8) {h : ℝ}
    (hh : RadialAltitude a b r h) :
    ∃ g l, |g - geopotential ((a + b) / 2) h| ≤ 2e-6 ∧ LayerNear g l ∧ 0 < l.temperature g ∧ 0 < l.pressure g ∧
      Agrees s.temperature (l.temperature g) 1e-13 ∧ Agrees s.pressure (l.pressure g) 2e-11 ∧
      Agrees s.density (l.pressure g / (airGasConstant * l.temperature g)) 3e-11 := by
  have hR := sameEarth_radii hP ha hb
  have hb0 : 0 < b := lt_of_lt_of_le (by norm_num) hR.low
  have hd := C89_doubles hp hs
  have hc := C57_visited_consistent hs
  obtain ⟨hN, g1, g2⟩ := geopotential_double hL hG hR hr hd.2.2 h1 h2
  obtain ⟨g, hg, hge⟩ := hN.reads
  rw [← hc.altitudeGeopotential] at hg
  rw [radial_unique (lt_of_lt_of_le hb0 hR.le) hb0 (lt_of_lt_of_le (by norm_num) h1) hh] at hge g1 g2
  obtain ⟨k1, k2⟩ := abs_le.1 hge
  obtain ⟨l, m1, m2, m3, m4, m5, m6, _⟩ := C88_visited hA hG hs hatm hg (by norm_num at *; linarith)
    (by norm_num at *; linarith)
  exact ⟨g, l, hge, m1, m2, m3, m4, m5, m6⟩

/-! ## A library with all these properties, and an example -/

open Classical in
/-- The library `trigLibm`, with the powers and `Rotation3::from_matrix` of `goodLibm` and the exponential and power
functions of `airLibm`. -/
noncomputable def fullLibm : Libm :=
  { trigLibm with
    powi := goodLibm.powi
    rotFromMatrix := goodLibm.rotFromMatrix
    exp := airLibm.exp
    powf := airLibm.powf }

theorem fullLibm_trig : TrigLibrary fullLibm where
  sin x q h hq := trigLibm_trig.sin ⟨x.dbl⟩ q h hq
  asin x q h hq := trigLibm_trig.asin ⟨x.dbl⟩ q h hq
  acos x q h hq := trigLibm_trig.acos ⟨x.dbl⟩ q h hq
  acos_one x h := trigLibm_trig.acos_one ⟨x.dbl⟩ h
  acos_neg_one x h := by
    have h1 := trigLibm_trig.acos_neg_one ⟨x.dbl⟩ h
    exact congrArg (fun y : F64 trigLibm => (⟨y.dbl⟩ : F64 fullLibm)) h1

theorem fullLibm_air : AirLibrary fullLibm where
  exp x q h hq := airLibm_air.exp ⟨x.dbl⟩ q h hq
  powf x y p q h h' a b c := airLibm_air.powf ⟨x.dbl⟩ ⟨y.dbl⟩ p q h h' a b c

theorem fullLibm_good : GoodLibrary fullLibm where
  sin := by
    rintro x q ⟨s, a, h1, rfl, _⟩
    have e : Flt.sin x = (⟨roundReal (Real.sin (Dbl.val s a : ℚ))⟩ : F64 fullLibm) := by
      show (⟨fullLibm.sin x.dbl⟩ : F64 fullLibm) = _
      rw [h1]
      rfl
    rw [e]
    have hs := Real.abs_sin_le_one (Dbl.val s a : ℚ)
    obtain ⟨r, h2, _⟩ := roundReal_is (L := fullLibm) (hs.trans (by norm_num))
    exact ⟨r, h2, roundReal_one hs h2⟩
  cos := by
    rintro x q ⟨s, a, h1, rfl, _⟩
    have e : Flt.cos x = (⟨roundReal (Real.cos (Dbl.val s a : ℚ))⟩ : F64 fullLibm) := by
      show (⟨fullLibm.cos x.dbl⟩ : F64 fullLibm) = _
      rw [h1]
      rfl
    rw [e]
    have hs := Real.abs_cos_le_one (Dbl.val s a : ℚ)
    obtain ⟨r, h2, _⟩ := roundReal_is (L := fullLibm) (hs.trans (by norm_num))
    exact ⟨r, h2, roundReal_one hs h2⟩
  powi x q n h hq hn := goodLibm_good.powi ⟨x.dbl⟩ q n h hq hn
  rot m hm := by
    have h := goodLibm_good.rot (m.map fun x => ⟨x.dbl⟩) (by
      intro x hx
      simp only [M3.map, V3.map, List.mem_cons, List.not_mem_nil, or_false] at hx
      rcases hx with rfl | rfl | rfl | rfl | rfl | rfl | rfl | rfl | rfl
      · exact hm m.r1.x (by simp)
      · exact hm m.r1.y (by simp)
      · exact hm m.r1.z (by simp)
      · exact hm m.r2.x (by simp)
      · exact hm m.r2.y (by simp)
      · exact hm m.r2.z (by simp)
      · exact hm m.r3.x (by simp)
      · exact hm m.r3.y (by simp)
      · exact hm m.r3.z (by simp))
    intro x hx
    have e : Flt.rotFromMatrix m = (goodLibm.rotFromMatrix (m.map F64.dbl)).map (F64.mk (L := fullLibm)) := rfl
    have e' : Flt.rotFromMatrix (m.map fun x => (⟨x.dbl⟩ : F64 goodLibm)) =
      (goodLibm.rotFromMatrix (m.map F64.dbl)).map (F64.mk (L := goodLibm)) := rfl
    rw [e] at hx
    rw [e'] at h
    generalize goodLibm.rotFromMatrix (m.map F64.dbl) = M at hx h
    have : (⟨x.dbl⟩ : F64 goodLibm) ∈ [M.r1.x, M.r1.y, M.r1.z, M.r2.x, M.r2.y, M.r2.z, M.r3.x, M.r3.y, M.r3.z].map
        (F64.mk (L := goodLibm)) := by
      have h1 : x ∈ [M.r1.x, M.r1.y, M.r1.z, M.r2.x, M.r2.y, M.r2.z, M.r3.x, M.r3.y, M.r3.z].map
        (F64.mk (L := fullLibm)) := hx
      obtain ⟨d, h2, rfl⟩ := List.mem_map.1 h1
      exact List.mem_map.2 ⟨d, h2, rfl⟩
    exact h _ this

/-- A phase over the north pole of the Smithsonian Earth, in the standard atmosphere. -/
noncomputable def examplePole : Phase (F64 fullLibm) :=
  { Phase.default with
    planet := EARTH_SMITHSONIAN
    atmosphere := { Phase.default.atmosphere with model := .standardAtmosphere1962 }
    state := { State.default with position := ⟨0, 0, 6366784⟩, mass := 1000 } }

/-- 10 km above the pole: the polar radius is 6356.783832 km. -/
example : ∃ s, Visited examplePole s ∧ ∃ h, Reads s.altitude h ∧ |h - 10000.168| ≤ 2e-7 := by
  obtain ⟨s, hs⟩ := coasting_system (p := examplePole) rfl rfl ⟨wellFormed_default, wellFormed_default, wellFormed_default⟩
    examplePole.state
  have hvis : Visited examplePole s := ⟨s, [], _, hs, .nil _, .inl rfl⟩
  have hz : Reads (0 : F64 fullLibm) 0 := reads_zero
  have hread : ReadsV s.position ⟨0, 0, 6366784⟩ := by
    rw [(Phase.system_primary hs).2.2.1]
    have h9 : Reads (6366784 : F64 fullLibm) 6366784 := by simpa using reads_nat (L := fullLibm) 6366784 (by norm_num)
    exact ⟨hz, hz, h9⟩
  have hn : rnorm ⟨0, 0, 6366784⟩ = 6366784 := by
    unfold rnorm
    rw [show (0 : ℝ) ^ 2 + 0 ^ 2 + 6366784 ^ 2 = 6366784 ^ 2 by ring, Real.sqrt_sq (by norm_num)]
  have hd : DoubleComponents examplePole.state.position :=
    ⟨Dbl.round_isDouble _ _, Dbl.round_isDouble _ _, Dbl.round_isDouble _ _⟩
  have f1 : (EARTH_SMITHSONIAN : Planet XR).equatorialRadius = .fin (20925741 * 0.3048) := by
    show (2.0925741e7 * METER_PER_FOOT : XR) = _
    unfold METER_PER_FOOT
    rw [XR.fin_sci, XR.fin_sci, XR.fin_mul]
    norm_num
  have f2 : (EARTH_SMITHSONIAN : Planet XR).polarRadius = .fin (20855590 * 0.3048) := by
    show (2.0855590e7 * METER_PER_FOOT : XR) = _
    unfold METER_PER_FOOT
    rw [XR.fin_sci, XR.fin_sci, XR.fin_mul]
    norm_num
  refine ⟨s, hvis, (C89_visited fullLibm_trig fullLibm_good (.inr (.inr ⟨rfl, rfl⟩)) f1 f2 hd hvis hread
    (by rw [hn]; norm_num) (by rw [hn]; norm_num) ?_).1⟩
  refine ⟨by rw [hn]; norm_num, ?_⟩
  rw [hn]
  unfold OnEllipsoid rscale
  norm_num

end Post
