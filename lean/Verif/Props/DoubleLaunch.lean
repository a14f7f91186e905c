import Verif.Lemmas.LaunchF64
import Verif.Props.DoubleTrack
import Verif.Props.DoubleSpeed
import Verif.Props.Unlimited
/-! # C93: the launch site in double precision, and how far it is from the documented one -/

set_option exponentiation.threshold 2000

namespace Post
open Spec Flt F64
variable {L : Libm}

/-! ## The documented launch site -/

/-- The launch site that the program computes: its direction. -/
theorem site_direction {K lat g : ℝ} (hK : 0 < K) (h90 : |lat| ≤ 90)
    (h : (Real.cos (rad lat) ≠ 0 ∧ 0 < Real.cos g ∧ Real.sin g * Real.cos (rad lat) = K * Real.sin (rad lat) * Real.cos g) ∨
       (Real.cos (rad lat) = 0 ∧ Real.cos g = 0 ∧ Real.sin g = Real.sin (rad lat))) :
    Direction K (rad lat) (Real.cos g) (Real.sin g) := by
  refine ⟨Real.cos_sq_add_sin_sq g, ?_⟩
  rcases h with ⟨h1, h2, h3⟩ | ⟨h1, h2, h3⟩
  · have hpi := Real.pi_pos
    have h4 : 0 ≤ Real.cos (rad lat) := by
      rw [abs_le] at h90
      apply Real.cos_nonneg_of_mem_Icc
      constructor <;> unfold rad <;> nlinarith
    have h5 : 0 < Real.cos (rad lat) := lt_of_le_of_ne h4 (Ne.symm h1)
    refine ⟨Real.cos (rad lat) / Real.cos g, by positivity, by field_simp, ?_⟩
    rw [div_mul_eq_mul_div, div_eq_iff h2.ne']
    linear_combination h3
  · exact ⟨K, hK, by rw [h1, h2, mul_zero], by rw [h3]⟩

/-- C12 (how wrong the launch site is).  On every planet whose equatorial radius is at least the polar one, the distance
between the initial position and the point of the surface that has the configured geodetic latitude and longitude is at
least `b (1 - (b/a)^6) / 2` times the sine of twice the latitude: more than 63 kilometres at 45 degrees on the two oblate
models of the Earth. -/
theorem C12_distance {c : PhaseConfig XR} {s : State XR} (h : Started c s) {a b ω lat long az : ℝ} {gr : Grav XR}
    (hp : IsPlanet (firstPlanet c) a b gr ω) (hb : 0 < b) (hab : b ≤ a) (hl : LaunchSite c lat long az) (h90 : |lat| ≤ 90)
    {r' : V3 ℝ} (h1 : OnEllipsoid a b r') (h2 : HasGeodeticLatitude a b (rad lat) (rad long) r') :
    ∃ r : V3 ℝ, s.position = r.fin ∧ b * (1 - (b / a) ^ 6) / 2 * |Real.sin (2 * rad lat)| ≤ rdist r r' := by
  have ha : 0 < a := lt_of_lt_of_le hb hab
  obtain ⟨p, g, hnew, hpl, hla, hc, ht, hpos, hvel, hcase⟩ := started_fin h hp ha hb hl
  obtain ⟨_, N, hN0, hNC, hNS⟩ := site_direction (K := ((a / b) ^ 2) ^ 2) (by positivity) h90 hcase
  refine ⟨_, hpos, ?_⟩
  obtain ⟨m, hm, hn⟩ := h2
  set φ := rad lat with hφ
  set K := ((a / b) ^ 2) ^ 2 with hK
  have hK1 : 1 ≤ K := by
    have : 1 ≤ a / b := by rw [one_le_div hb]; exact hab
    exact one_le_pow₀ (one_le_pow₀ this)
  simp only [ellipsoidNormal, rscale, up, V3.mk.injEq] at hn
  obtain ⟨n1, n2, n3⟩ := hn
  rw [div_eq_iff (by positivity)] at n1 n2 n3
  have hlong := Real.sin_sq_add_cos_sq (rad long)
  have hφ1 := Real.sin_sq_add_cos_sq φ
  have hg1 := Real.sin_sq_add_cos_sq g
  -- the point with the configured latitude is at least `b` away from the centre
  have hma : b ≤ m * a ^ 2 := by
    have e1 : r'.x ^ 2 + r'.y ^ 2 + r'.z ^ 2 = m ^ 2 * (a ^ 4 * Real.cos φ ^ 2 + b ^ 4 * Real.sin φ ^ 2) := by
      rw [n1, n2, n3]
      linear_combination m ^ 2 * a ^ 4 * Real.cos φ ^ 2 * hlong
    have e2 : b ^ 2 ≤ r'.x ^ 2 + r'.y ^ 2 + r'.z ^ 2 := by
      unfold OnEllipsoid at h1
      have k1 : ∀ u : ℝ, b ^ 2 * (u ^ 2 / a ^ 2) ≤ u ^ 2 := by
        intro u
        rw [mul_div_assoc', div_le_iff₀ (by positivity), mul_comm]
        exact mul_le_mul_of_nonneg_left (pow_le_pow_left₀ hb.le hab 2) (sq_nonneg u)
      have k2 : b ^ 2 * (r'.z ^ 2 / b ^ 2) = r'.z ^ 2 := by field_simp
      have k3 : b ^ 2 = b ^ 2 * (r'.x ^ 2 / a ^ 2) + b ^ 2 * (r'.y ^ 2 / a ^ 2) + b ^ 2 * (r'.z ^ 2 / b ^ 2) := by
        rw [← mul_add, ← mul_add, h1, mul_one]
      rw [k2] at k3
      have := k1 r'.x
      have := k1 r'.y
      linarith
    have e3 : m ^ 2 * (a ^ 4 * Real.cos φ ^ 2 + b ^ 4 * Real.sin φ ^ 2) ≤ (m * a ^ 2) ^ 2 := by
      have k4 : b ^ 4 * Real.sin φ ^ 2 ≤ a ^ 4 * Real.sin φ ^ 2 :=
        mul_le_mul_of_nonneg_right (pow_le_pow_left₀ hb.le hab 4) (sq_nonneg _)
      calc m ^ 2 * (a ^ 4 * Real.cos φ ^ 2 + b ^ 4 * Real.sin φ ^ 2)
          ≤ m ^ 2 * (a ^ 4 * Real.cos φ ^ 2 + a ^ 4 * Real.sin φ ^ 2) := by gcongr
        _ = (m * a ^ 2) ^ 2 := by linear_combination m ^ 2 * a ^ 4 * hφ1
    exact le_of_sq_le_sq (e2.trans (by rw [e1]; exact e3)) (by positivity)
  -- the part of the difference along the meridian
  have hdot : rdot (north g (rad long)) (rsub (rscale (siteDistance a b g) (up g (rad long))) r') =
      m * (a ^ 2 * Real.cos φ * Real.sin g - b ^ 2 * Real.sin φ * Real.cos g) := by
    simp only [rdot, north, rsub, rscale, up]
    rw [n1, n2, n3]
    linear_combination (m * a ^ 2 * Real.cos φ * Real.sin g - siteDistance a b g * Real.sin g * Real.cos g) * hlong
  have hcs := abs_rdot_le (north g (rad long)) (rsub (rscale (siteDistance a b g) (up g (rad long))) r')
  have hunit : rnorm (north g (rad long)) = 1 := by
    unfold rnorm north
    rw [show (-Real.sin g * Real.cos (rad long)) ^ 2 + (-Real.sin g * Real.sin (rad long)) ^ 2 + Real.cos g ^ 2 = 1 by
      linear_combination Real.sin g ^ 2 * hlong + hg1, Real.sqrt_one]
  rw [hunit, one_mul, hdot] at hcs
  refine le_trans ?_ hcs
  have hNK : N ≤ K := by
    have e : N ^ 2 = Real.cos φ ^ 2 + K ^ 2 * Real.sin φ ^ 2 := by
      calc N ^ 2 = N ^ 2 * (Real.sin g ^ 2 + Real.cos g ^ 2) := by rw [hg1, mul_one]
        _ = (N * Real.cos g) ^ 2 + (N * Real.sin g) ^ 2 := by ring
        _ = _ := by rw [hNC, hNS]; ring
    have e2 : N ^ 2 ≤ K ^ 2 := by
      rw [e]
      have : 1 ≤ K ^ 2 := one_le_pow₀ hK1
      nlinarith [mul_nonneg (sub_nonneg.2 this) (sq_nonneg (Real.cos φ))]
    exact le_of_sq_le_sq e2 (by linarith)
  have hsin : m * (a ^ 2 * Real.cos φ * Real.sin g - b ^ 2 * Real.sin φ * Real.cos g) =
      m * a ^ 2 * (1 - (b / a) ^ 6) * (K / N) / 2 * Real.sin (2 * φ) := by
    have hs : Real.sin g = K * Real.sin φ / N := by rw [eq_div_iff hN0.ne', mul_comm]; exact hNS
    have hco : Real.cos g = Real.cos φ / N := by rw [eq_div_iff hN0.ne', mul_comm]; exact hNC
    rw [hs, hco, Real.sin_two_mul]
    have hKa : K = a ^ 4 / b ^ 4 := by rw [hK]; field_simp
    rw [hKa]
    field_simp
  rw [hsin, abs_mul]
  refine mul_le_mul_of_nonneg_right ?_ (abs_nonneg _)
  have hq : (b / a) ^ 6 ≤ 1 := pow_le_one₀ (by positivity) (by rw [div_le_one ha]; exact hab)
  have hKN : 1 ≤ K / N := by rw [one_le_div hN0]; exact hNK
  have hnn : 0 ≤ 1 - (b / a) ^ 6 := by linarith
  refine le_trans ?_ (le_abs_self _)
  calc b * (1 - (b / a) ^ 6) / 2 ≤ m * a ^ 2 * (1 - (b / a) ^ 6) / 2 := by gcongr
    _ = m * a ^ 2 * (1 - (b / a) ^ 6) * 1 / 2 := by ring
    _ ≤ m * a ^ 2 * (1 - (b / a) ^ 6) * (K / N) / 2 := by gcongr

/-! ## The launch site in double precision -/

/-- What is known of the state with which a simulation in double precision starts. -/
theorem started_double {c : PhaseConfig (F64 L)} {s : State (F64 L)} (h : Started c s) {i : InitConfig (F64 L)}
    (hi : c.init = some i) :
    ∃ q : Phase (F64 L), q.planet = firstPlanetDouble c ∧ s.position = (q.init i).state.position ∧
      s.velocity = -((firstPlanetDouble c).velocityPlanet s.position .zero) ∧
      s.altitude = (firstPlanetDouble c).altitude s.position := by
  obtain ⟨p, hnew, hsys⟩ := h
  have hpl : ((Phase.base none).applyConfig c).planet = firstPlanetDouble c := by
    rw [Phase.applyConfig_planet]
    unfold firstPlanetDouble
    cases c.planetModel <;> rfl
  rcases Phase.new_ok hnew with ⟨hne, _⟩ | ⟨_, i', hi', hpe⟩
  · exact absurd rfl hne
  · rw [hi] at hi'
    injection hi' with hi'
    subst hi'
    have hprim := Phase.system_primary hsys
    have hc := system_consistent hsys
    have hpp : p.planet = firstPlanetDouble c := by rw [hpe]; exact hpl
    have hpos : s.position = (((Phase.base none).applyConfig c).init i).state.position := by
      rw [hprim.2.2.1, hpe]; rfl
    refine ⟨(Phase.base none).applyConfig c, hpl, hpos, ?_, ?_⟩
    · rw [hprim.2.2.2.1, hpos, ← hpl, hpe]
      rfl
    · rw [hc.altitude, ← hpp]
      rfl

theorem rdist_cross_le (ω : ℝ) (r u : V3 ℝ) : rdist (rcross ⟨0, 0, ω⟩ r) (rcross ⟨0, 0, ω⟩ u) ≤ |ω| * rdist r u := by
  have e : rsub (rcross ⟨0, 0, ω⟩ r) (rcross ⟨0, 0, ω⟩ u) = rscale ω ⟨-(r.y - u.y), r.x - u.x, 0⟩ := by
    simp only [rsub, rcross, rscale, V3.mk.injEq]
    refine ⟨?_, ?_, ?_⟩ <;> ring
  unfold rdist
  rw [e, rnorm_rscale]
  refine mul_le_mul_of_nonneg_left ?_ (abs_nonneg _)
  unfold rnorm rsub
  refine Real.sqrt_le_sqrt ?_
  simp only
  nlinarith [sq_nonneg (r.z - u.z)]

theorem sameEarth_isPlanet {P : Planet (F64 L)} {Q : Planet XR} (hP : SameEarth P Q) : ∃ a b ω gr, IsPlanet Q a b gr ω := by
  unfold IsPlanet
  have hw : (7.29211e-5 : XR) = .fin 7.29211e-5 := by rw [XR.fin_sci]
  obtain ⟨a, ha⟩ : ∃ a, (2.0925741e7 * METER_PER_FOOT : XR) = .fin a := ⟨_, by
    unfold METER_PER_FOOT; rw [XR.fin_sci, XR.fin_sci, XR.fin_mul]⟩
  obtain ⟨b, hb⟩ : ∃ b, (2.0855590e7 * METER_PER_FOOT : XR) = .fin b := ⟨_, by
    unfold METER_PER_FOOT; rw [XR.fin_sci, XR.fin_sci, XR.fin_mul]⟩
  rcases hP with ⟨_, h⟩ | ⟨_, h⟩ | ⟨_, h⟩ <;> rw [h]
  · exact ⟨a, a, 7.29211e-5, _, by unfold EARTH_SPHERICAL; rw [ha, hw]⟩
  · exact ⟨a, b, 7.29211e-5, _, by unfold EARTH_FISHER_1960; rw [ha, hb, hw]⟩
  · exact ⟨a, b, 7.29211e-5, _, by unfold EARTH_SMITHSONIAN; rw [ha, hb, hw]⟩

/-- C93 (initial state).  On the three models of the Earth, for every launch site, the initial position computed in double
precision is at most half a micrometre away from that computed in exact arithmetic, and the initial velocity differs by at
most a tenth of a nanometre per second. -/
theorem C93_site (hF : FrameLibrary L) (hL : LaunchLibrary L) (hG : GoodLibrary L) {c : PhaseConfig (F64 L)}
    {c' : PhaseConfig XR} {s : State (F64 L)} {s' : State XR} (h : Started c s) (h' : Started c' s')
    (hP : SameEarth (firstPlanetDouble c) (firstPlanet c')) {lat long az : ℝ} (hl : LaunchSiteDouble c lat long az)
    (hl' : LaunchSite c' lat long az) (h90 : |lat| ≤ 90) (h360 : |long| ≤ 360) :
    ∃ r v r' v' : V3 ℝ, ReadsV s.position r ∧ ReadsV s.velocity v ∧ s'.position = r'.fin ∧ s'.velocity = v'.fin ∧
      rdist r r' ≤ 5e-7 ∧ rdist v v' ≤ 1e-10 := by
  obtain ⟨a, b, ω, gr, hp⟩ := sameEarth_isPlanet hP
  have hR := sameEarth_radii hP (a := a) (b := b) (by rw [hp]) (by rw [hp])
  have hb0 : 0 < b := lt_of_lt_of_le (by norm_num) hR.low
  have ha0 : 0 < a := lt_of_lt_of_le hb0 hR.le
  obtain ⟨p, g, hnew, hpl, hla, hc, ht, hpos, hvel, hcase⟩ := started_fin h' hp ha0 hb0 hl'
  have hdir := site_direction (K := ((a / b) ^ 2) ^ 2) (by positivity) h90 hcase
  obtain ⟨i, hi, i1, i2, _⟩ := hl
  obtain ⟨q, hq, hpq, hvq, _⟩ := started_double h hi
  rw [← hq] at hR
  obtain ⟨hN, hD1, hD2⟩ := site_near hF hL hG hR i1 h90 i2 h360 hdir
  rw [← hpq] at hN
  obtain ⟨r, hr, hr'⟩ := hN.readsV (E := 4.5e-7) (by norm_num)
  set D := siteDistance a b g with hD
  set r0 := rscale D (up g (rad long)) with hr0
  have hup : rnorm (up g (rad long)) = 1 := by
    have h1 := Real.sin_sq_add_cos_sq (rad long)
    have h2 := Real.sin_sq_add_cos_sq g
    unfold rnorm up
    rw [show (Real.cos g * Real.cos (rad long)) ^ 2 + (Real.cos g * Real.sin (rad long)) ^ 2 + Real.sin g ^ 2 = 1 by
      linear_combination Real.cos g ^ 2 * h1 + h2, Real.sqrt_one]
  have hnr0 : rnorm r0 ≤ 6.379e6 := by
    rw [hr0, rnorm_rscale, hup, mul_one, abs_of_pos (lt_of_lt_of_le hb0 hD1)]
    exact hD2.trans hR.high
  have hnr : rnorm r ≤ 1e8 := by
    have := (abs_le.1 (rnorm_close r r0)).2
    norm_num at *
    linarith
  have hz : Reads (0 : F64 L) 0 := reads_zero
  obtain ⟨⟨nx, ny, nz⟩, _⟩ := velocityPlanet_near hP (ω := ω) (by rw [hp]) hr (v := .zero) (u := ⟨0, 0, 0⟩) ⟨hz, hz, hz⟩ hnr
    (by simp [rnorm]; norm_num)
  have hV : NearV s.velocity (rcross ⟨0, 0, ω⟩ r) 2e-11 := by
    rw [hvq]
    refine ⟨nx.neg.congr ?_, ny.neg.congr ?_, nz.neg.congr ?_⟩ <;> simp only [rsub] <;> ring
  obtain ⟨v, hv, hv'⟩ := hV.readsV (E := 4e-11) (by norm_num)
  refine ⟨r, v, r0, rcross ⟨0, 0, ω⟩ r0, hr, hv, hpos, hvel, hr'.trans (by norm_num), ?_⟩
  have h1 := rdist_cross_le ω r r0
  have h2 := rdist_triangle v (rcross ⟨0, 0, ω⟩ r) (rcross ⟨0, 0, ω⟩ r0)
  obtain ⟨hω, _⟩ := sameEarth_rate hP (ω := ω) (by rw [hp])
  have h3 : |ω| = 7.29211e-5 := by rw [hω]; norm_num [abs_of_pos]
  rw [h3] at h1
  generalize rdist (rcross ⟨0, 0, ω⟩ r) (rcross ⟨0, 0, ω⟩ r0) = A at *
  norm_num at *
  linarith

/-- The distance of the surface in two nearly equal directions. -/
theorem surfaceDistance_close {a b : ℝ} (hb : 0 < b) (hab : b ≤ a) (hk : (a / b) ^ 2 ≤ 1.0081) (ha6 : a ≤ 6.379e6)
    {r r0 : V3 ℝ} {d : ℝ} (hd : rdist r r0 ≤ d) (h1 : 6.3e6 ≤ rnorm r) (h0 : 6.3e6 ≤ rnorm r0) :
    |surfaceDistance a b r - surfaceDistance a b r0| ≤ 0.02 * d := by
  have ha : 0 < a := lt_of_lt_of_le hb hab
  have hk1 : 1 ≤ (a / b) ^ 2 := one_le_pow₀ (by rw [one_le_div hb]; exact hab)
  have e : ∀ u : V3 ℝ, surfaceDistance a b u = a / Real.sqrt (1 + ((a / b) ^ 2 - 1) * (u.z / rnorm u) ^ 2) := fun _ => rfl
  have hρ : 0 < rnorm r := lt_of_lt_of_le (by norm_num) h1
  have hρ0 : 0 < rnorm r0 := lt_of_lt_of_le (by norm_num) h0
  have hd0 : 0 ≤ d := (Real.sqrt_nonneg _).trans hd
  have hone : ∀ {u : V3 ℝ}, 0 < rnorm u → |u.z / rnorm u| ≤ 1 := by
    intro u hu
    rw [abs_div, abs_of_pos hu, div_le_one hu]
    exact (comp_le_rnorm u).2.2
  have hu1 := hone hρ
  have hu0 := hone hρ0
  have hdiff : |r.z / rnorm r - r0.z / rnorm r0| ≤ 3.2e-7 * d := by
    have k1 : |r.z - r0.z| ≤ d := ((comp_le_rnorm (rsub r r0)).2.2).trans hd
    have k2 := (rnorm_close r r0).trans hd
    have e1 : r.z / rnorm r - r0.z / rnorm r0 = ((r.z - r0.z) + (r0.z / rnorm r0) * (rnorm r0 - rnorm r)) / rnorm r := by
      field_simp
      ring
    rw [e1, abs_div, abs_of_pos hρ, div_le_iff₀ hρ]
    have k3 : |(r0.z / rnorm r0) * (rnorm r0 - rnorm r)| ≤ d := by
      rw [abs_mul, abs_sub_comm (rnorm r0)]
      calc _ ≤ 1 * d := mul_le_mul hu0 k2 (abs_nonneg _) (by norm_num)
        _ = d := one_mul d
    have k4 := abs_add_le (r.z - r0.z) ((r0.z / rnorm r0) * (rnorm r0 - rnorm r))
    have k5 : 3.2e-7 * d * 6.3e6 ≤ 3.2e-7 * d * rnorm r := mul_le_mul_of_nonneg_left h1 (by positivity)
    norm_num at *
    linarith
  rw [e, e]
  generalize r.z / rnorm r = u at *
  generalize r0.z / rnorm r0 = v at *
  generalize (a / b) ^ 2 = k at *
  have hw : ∀ {x : ℝ}, 1 ≤ 1 + (k - 1) * x ^ 2 := by
    intro x
    nlinarith [mul_nonneg (sub_nonneg.2 hk1) (sq_nonneg x)]
  have s1 : 1 ≤ Real.sqrt (1 + (k - 1) * u ^ 2) := Real.one_le_sqrt.2 hw
  have s2 : 1 ≤ Real.sqrt (1 + (k - 1) * v ^ 2) := Real.one_le_sqrt.2 hw
  have q1 := Real.sq_sqrt (le_trans zero_le_one (hw (x := u)))
  have q2 := Real.sq_sqrt (le_trans zero_le_one (hw (x := v)))
  generalize Real.sqrt (1 + (k - 1) * u ^ 2) = p at *
  generalize Real.sqrt (1 + (k - 1) * v ^ 2) = q at *
  have hp0 : 0 < p := by linarith
  have hq0 : 0 < q := by linarith
  have e2 : a / p - a / q = a * ((k - 1) * (v - u) * (v + u)) / (p * q * (p + q)) := by
    field_simp
    linear_combination q2 - q1
  rw [e2, abs_div, abs_of_pos (by positivity : 0 < p * q * (p + q)), div_le_iff₀ (by positivity)]
  have hden : 2 ≤ p * q * (p + q) := by
    have : 1 ≤ p * q := by nlinarith
    nlinarith
  have h5 : |v + u| ≤ 2 := abs_add_le' hu0 hu1 (by norm_num)
  have h6 : |v - u| ≤ 3.2e-7 * d := by rw [abs_sub_comm]; exact hdiff
  have h7 : |k - 1| ≤ 0.0081 := by rw [abs_of_nonneg (by linarith)]; norm_num at *; linarith
  rw [abs_mul, abs_mul, abs_mul, abs_of_pos ha]
  calc a * (|k - 1| * |v - u| * |v + u|) ≤ 6.379e6 * (0.0081 * (3.2e-7 * d) * 2) := by gcongr
    _ ≤ 0.02 * d * 2 := by
      norm_num
      linarith
    _ ≤ 0.02 * d * (p * q * (p + q)) := by gcongr

/-- C93 (surface).  On the three models of the Earth the simulation starts, in double precision, at most half a micrometre
away from a point of the surface on the configured meridian, and the altitude reported there is zero up to one micrometre. -/
theorem C93_surface (hF : FrameLibrary L) (hL : LaunchLibrary L) (hT : TrigLibrary L) (hG : GoodLibrary L)
    {c : PhaseConfig (F64 L)} {s : State (F64 L)} (h : Started c s) {c' : PhaseConfig XR} {s' : State XR} (h' : Started c' s')
    (hP : SameEarth (firstPlanetDouble c) (firstPlanet c')) {a b ω lat long az : ℝ} {gr : Grav XR}
    (hp : IsPlanet (firstPlanet c') a b gr ω) (hl : LaunchSiteDouble c lat long az)
    (hl' : LaunchSite c' lat long az) (h90 : |lat| ≤ 90) (h360 : |long| ≤ 360) :
    (∃ r r' : V3 ℝ, ReadsV s.position r ∧ OnEllipsoid a b r' ∧ OnMeridian (rad long) r' ∧ rdist r r' ≤ 5e-7) ∧
    WithinOf s.altitude 0 1e-6 := by
  have hR := sameEarth_radii hP (a := a) (b := b) (by rw [hp]) (by rw [hp])
  have hb0 : 0 < b := lt_of_lt_of_le (by norm_num) hR.low
  have ha0 : 0 < a := lt_of_lt_of_le hb0 hR.le
  obtain ⟨r, v, r', v', hr, hv, hr', hv', hd, _⟩ := C93_site hF hL hG h h' hP hl hl' h90 h360
  obtain ⟨u, hu, h1, h2, h3, _⟩ := C11_starts_on_surface h' hp ha0 hb0 hl'
  rw [hr', V3.fin_inj] at hu
  subst hu
  refine ⟨⟨r, r', hr, h1, h2, hd⟩, ?_⟩
  obtain ⟨i, hi, i1, i2, _⟩ := hl
  obtain ⟨q, hq, hpq, hvq, halt⟩ := started_double h hi
  obtain ⟨p, g, hnew, hpl, hla, hc, ht, hpos, hvel, hcase⟩ := started_fin h' hp ha0 hb0 hl'
  rw [hr', V3.fin_inj] at hpos
  have hdir := site_direction (K := ((a / b) ^ 2) ^ 2) (by positivity) h90 hcase
  have hR' := hR
  rw [← hq] at hR'
  obtain ⟨_, hD1, hD2⟩ := site_near hF hL hG hR' i1 h90 i2 h360 hdir
  have hzd : s.position.z.dbl.IsDouble := by
    rw [hpq]
    exact Dbl.mul_isDouble _ _
  set D := siteDistance a b g with hDdef
  have hDpos : 0 < D := lt_of_lt_of_le hb0 hD1
  have hup : rnorm (up g (rad long)) = 1 := by
    have h1 := Real.sin_sq_add_cos_sq (rad long)
    have h2 := Real.sin_sq_add_cos_sq g
    unfold rnorm up
    rw [show (Real.cos g * Real.cos (rad long)) ^ 2 + (Real.cos g * Real.sin (rad long)) ^ 2 + Real.sin g ^ 2 = 1 by
      linear_combination Real.cos g ^ 2 * h1 + h2, Real.sqrt_one]
  have hn' : rnorm r' = D := by rw [hpos, rnorm_rscale, hup, mul_one, abs_of_pos hDpos]
  have hs' : surfaceDistance a b r' = D := by
    have : r'.z / rnorm r' = Real.sin g := by
      rw [hn', hpos]
      show D * Real.sin g / D = _
      field_simp
    unfold surfaceDistance
    rw [this]
    rfl
  have hclose := (rnorm_close r r').trans hd
  obtain ⟨k1, k2⟩ := abs_le.1 hclose
  rw [hn'] at k1 k2
  have hlow := hR.low
  have hhigh := hR.high
  have hn1 : 6.3e6 ≤ rnorm r := by norm_num at *; linarith
  have hn2 : rnorm r ≤ 1e8 := by norm_num at *; linarith
  obtain ⟨hA, _, _⟩ := altitude_double hT hG hR hr hzd hn1 hn2
  have hsd := surfaceDistance_close hb0 hR.le (ratio_near hG hR).2.2.2.2.1 hR.high hd hn1 (by rw [hn']; norm_num at *; linarith)
  rw [hs'] at hsd
  rw [halt]
  refine (hA.move (η := 0) (ey := 5.2e-7) ?_ (by norm_num)).withinOf
  obtain ⟨k3, k4⟩ := abs_le.1 hsd
  rw [sub_zero, abs_le]
  norm_num at *
  constructor <;> linarith

/-- C93 (displacement).  In double precision the simulation starts, on the two oblate models of the Earth, more than 63 km
times the sine of twice the latitude away from the point of the surface that has the configured geodetic latitude and
longitude. -/
theorem C93_displaced (hF : FrameLibrary L) (hL : LaunchLibrary L) (hG : GoodLibrary L)
    {c : PhaseConfig (F64 L)} {s : State (F64 L)} (h : Started c s) {c' : PhaseConfig XR} {s' : State XR} (h' : Started c' s')
    (hP : SameEarth (firstPlanetDouble c) (firstPlanet c')) {a b ω lat long az : ℝ} {gr : Grav XR}
    (hp : IsPlanet (firstPlanet c') a b gr ω) (hab : a ≠ b) (hl : LaunchSiteDouble c lat long az)
    (hl' : LaunchSite c' lat long az) (h90 : |lat| ≤ 90) (h360 : |long| ≤ 360)
    {r' : V3 ℝ} (h1 : OnEllipsoid a b r') (h2 : HasGeodeticLatitude a b (rad lat) (rad long) r') :
    ∃ r : V3 ℝ, ReadsV s.position r ∧ 63000 * |Real.sin (2 * rad lat)| - 5e-7 ≤ rdist r r' := by
  have hR := sameEarth_radii hP (a := a) (b := b) (by rw [hp]) (by rw [hp])
  have hb0 : 0 < b := lt_of_lt_of_le (by norm_num) hR.low
  obtain ⟨r, v, r0, v', hr, hv, hr', hv', hd, _⟩ := C93_site hF hL hG h h' hP hl hl' h90 h360
  obtain ⟨u, hu, hdist⟩ := C12_distance h' hp hb0 hR.le hl' h90 h1 h2
  rw [hr', V3.fin_inj] at hu
  subst hu
  refine ⟨r, hr, ?_⟩
  have hval : a = 20925741 * 0.3048 ∧ b = 20855590 * 0.3048 := by
    have f1 : (2.0925741e7 * METER_PER_FOOT : XR) = .fin (20925741 * 0.3048) := by
      unfold METER_PER_FOOT
      rw [XR.fin_sci, XR.fin_sci, XR.fin_mul]
      norm_num
    have f2 : (2.0855590e7 * METER_PER_FOOT : XR) = .fin (20855590 * 0.3048) := by
      unfold METER_PER_FOOT
      rw [XR.fin_sci, XR.fin_sci, XR.fin_mul]
      norm_num
    unfold IsPlanet at hp
    rcases hP with ⟨_, hq⟩ | ⟨_, hq⟩ | ⟨_, hq⟩ <;> rw [hq] at hp
    · unfold EARTH_SPHERICAL at hp
      injection hp with e1 e2
      rw [e1, XR.fin_inj] at e2
      exact absurd e2 hab
    · unfold EARTH_FISHER_1960 at hp
      injection hp with e1 e2
      rw [f1, XR.fin_inj] at e1
      rw [f2, XR.fin_inj] at e2
      exact ⟨e1.symm, e2.symm⟩
    · unfold EARTH_SMITHSONIAN at hp
      injection hp with e1 e2
      rw [f1, XR.fin_inj] at e1
      rw [f2, XR.fin_inj] at e2
      exact ⟨e1.symm, e2.symm⟩
  have hfac : 63000 ≤ b * (1 - (b / a) ^ 6) / 2 := by
    rw [hval.1, hval.2]
    norm_num
  have h3 := mul_le_mul_of_nonneg_right hfac (abs_nonneg (Real.sin (2 * rad lat)))
  have h4 := rdist_triangle r0 r r'
  rw [rdist_comm r0 r] at h4
  linarith

/-! ## Examples -/

theorem roundRel_near {x : ℝ} (hx : |x| ≤ 1e50) : Near (⟨roundRel x⟩ : F64 L) x (1e-15 * |x| + 1e-300) := by
  have h1 := (exists_rat_rel x).choose_spec
  unfold roundRel
  set q := (exists_rat_rel x).choose with hq
  have h2 : |(q : ℝ)| ≤ 2 * |x| := by
    have := abs_add_le ((q : ℝ) - x) x
    rw [sub_add_cancel] at this
    have h0 := abs_nonneg x
    norm_num at h1
    linarith
  have h0 := abs_nonneg x
  obtain ⟨r, h3, h4⟩ := is_round (L := L) (s := false) (Near.small (M := 2 * |x|) h2 (by norm_num at *; linarith))
  refine ⟨r, h3, ?_⟩
  have h5 : |(r : ℝ) - q| ≤ 2 ^ (-53 : ℤ) * |(q : ℝ)| + 2 ^ (-1075 : ℤ) := by
    have : ((|r - q| : ℚ) : ℝ) ≤ ((ulpErr q : ℚ) : ℝ) := by exact_mod_cast h4
    unfold ulpErr at this
    push_cast at this
    exact this
  have h6 := abs_add_le ((r : ℝ) - q) (q - x)
  rw [sub_add_sub_cancel] at h6
  have h7 : (2 : ℝ) ^ (-53 : ℤ) ≤ 1.2e-16 := by norm_num
  have h8 : (2 : ℝ) ^ (-1075 : ℤ) ≤ 1e-300 := by
    rw [zpow_neg, inv_le_comm₀ (by positivity) (by norm_num)]
    norm_num
  have h9 : (2 : ℝ) ^ (-53 : ℤ) * |(q : ℝ)| ≤ 1.2e-16 * (2 * |x|) := mul_le_mul h7 h2 (abs_nonneg _) (by norm_num)
  generalize (2 : ℝ) ^ (-53 : ℤ) * |(q : ℝ)| = A at *
  generalize (2 : ℝ) ^ (-1075 : ℤ) = B at *
  clear h7 h4 h3 h2
  calc |(r : ℝ) - x| ≤ A + B + 1e-17 * |x| := h6.trans (add_le_add h5 h1)
    _ ≤ 1.2e-16 * (2 * |x|) + 1e-300 + 1e-17 * |x| := by gcongr
    _ = 2.5e-16 * |x| + 1e-300 := by ring
    _ ≤ 1e-15 * |x| + 1e-300 := by gcongr; norm_num

theorem fullLibm_launch : LaunchLibrary fullLibm where
  tan := by
    rintro x q ⟨s, a, h1, rfl, _⟩ hq
    have e : Flt.tan x = (⟨roundRel (Real.tan (Dbl.val s a : ℚ))⟩ : F64 fullLibm) := by
      show (⟨fullLibm.tan x.dbl⟩ : F64 fullLibm) = _
      rw [h1]
      rfl
    rw [e]
    exact (roundRel_near ((latitude_cos hq).2.2.trans (by norm_num))).withinOf
  atan := by
    rintro x q ⟨s, a, h1, rfl, _⟩
    have e : Flt.atan x = (⟨roundReal (Real.arctan (Dbl.val s a : ℚ))⟩ : F64 fullLibm) := by
      show (⟨fullLibm.atan x.dbl⟩ : F64 fullLibm) = _
      rw [h1]
      rfl
    rw [e]
    have k1 := Real.arctan_lt_pi_div_two (Dbl.val s a : ℚ)
    have k2 := Real.neg_pi_div_two_lt_arctan (Dbl.val s a : ℚ)
    have k3 := Real.pi_lt_d2
    exact withinOf_near.2 (roundReal_is (by rw [abs_le]; norm_num at k3 ⊢; constructor <;> linarith))

/-- A launch from 45 degrees north on the Smithsonian Earth. -/
noncomputable def exampleNorth : PhaseConfig (F64 fullLibm) :=
  { PhaseConfig.empty with
    init := some ⟨45, 10, 90, 0⟩
    planetModel := some .smithsonian }

/-- The same launch in exact arithmetic. -/
noncomputable def exampleNorthExact : PhaseConfig XR :=
  { PhaseConfig.empty with
    init := some ⟨.fin 45, .fin 10, .fin 90, .fin 0⟩
    planetModel := some .smithsonian }

/-- It starts, in double precision, half a micrometre from the exact launch site and of the surface, and more than 62 km from
the place the configuration names. -/
example : ∃ s, Started exampleNorth s ∧ WithinOf s.altitude 0 1e-6 ∧ ∃ r, ReadsV s.position r ∧
    ∀ r', OnEllipsoid (20925741 * 0.3048) (20855590 * 0.3048) r' →
      HasGeodeticLatitude (20925741 * 0.3048) (20855590 * 0.3048) (rad 45) (rad 10) r' → 62999 ≤ rdist r r' := by
  obtain ⟨p, hp⟩ : ∃ p, Phase.new none exampleNorth = .ok p := ⟨_, rfl⟩
  obtain ⟨s, hs⟩ : ∃ s, p.reset.system p.reset.state = .ok s := by
    injection hp with hp
    have e1 : p.reset.maxAcceleration = Flt.inf := by rw [← hp]; rfl
    have e2 : p.reset.vehicle = Vehicle.default := by rw [← hp]; rfl
    exact coasting_system e1 (by rw [e2]; rfl)
      (by rw [e2]; exact ⟨wellFormed_default, wellFormed_default, wellFormed_default⟩) _
  obtain ⟨p', hp'⟩ : ∃ p, Phase.new none exampleNorthExact = .ok p := ⟨_, rfl⟩
  obtain ⟨s', hs'⟩ : ∃ s, p'.reset.system p'.reset.state = .ok s := by
    injection hp' with hp'
    have e1 : p'.reset.maxAcceleration = Flt.inf := by rw [← hp']; rfl
    have e2 : p'.reset.vehicle = Vehicle.default := by rw [← hp']; rfl
    have ht : WellFormed (Table.default : Table XR) := by
      unfold Table.default WellFormed AxisFits Ascending
      simp
    exact system_coasting_ok e1 (by rw [e2]; rfl) (by rw [e2]; exact ⟨ht, ht, ht⟩) _
  have f1 : (2.0925741e7 * METER_PER_FOOT : XR) = .fin (20925741 * 0.3048) := by
    unfold METER_PER_FOOT
    rw [XR.fin_sci, XR.fin_sci, XR.fin_mul]
    norm_num
  have f2 : (2.0855590e7 * METER_PER_FOOT : XR) = .fin (20855590 * 0.3048) := by
    unfold METER_PER_FOOT
    rw [XR.fin_sci, XR.fin_sci, XR.fin_mul]
    norm_num
  have f3 : (7.29211e-5 : XR) = .fin 7.29211e-5 := by rw [XR.fin_sci]
  have hpl : IsPlanet (firstPlanet exampleNorthExact) (20925741 * 0.3048) (20855590 * 0.3048)
      (EARTH_SMITHSONIAN : Planet XR).grav 7.29211e-5 := by
    show (EARTH_SMITHSONIAN : Planet XR) = _
    unfold EARTH_SMITHSONIAN
    rw [f1, f2, f3]
  have h45 : Reads (45 : F64 fullLibm) 45 := by simpa using reads_nat (L := fullLibm) 45 (by norm_num)
  have h10 : Reads (10 : F64 fullLibm) 10 := by simpa using reads_nat (L := fullLibm) 10 (by norm_num)
  have h90 : Reads (90 : F64 fullLibm) 90 := by simpa using reads_nat (L := fullLibm) 90 (by norm_num)
  have hl : LaunchSiteDouble exampleNorth 45 10 90 := ⟨_, rfl, h45, h10, h90⟩
  have hl' : LaunchSite exampleNorthExact 45 10 90 := ⟨_, rfl⟩
  have hE : SameEarth (firstPlanetDouble exampleNorth) (firstPlanet exampleNorthExact) :=
    .inr (.inr ⟨rfl, rfl⟩)
  obtain ⟨⟨r, r0, hr, h1, h2, h3⟩, h4⟩ := C93_surface fullLibm_frame fullLibm_launch fullLibm_trig fullLibm_good
    ⟨p, hp, hs⟩ ⟨p', hp', hs'⟩ hE hpl hl hl' (by norm_num [abs_of_pos]) (by norm_num [abs_of_pos])
  refine ⟨s, ⟨p, hp, hs⟩, h4, r, hr, fun r' g1 g2 => ?_⟩
  obtain ⟨u, hu, h5⟩ := C93_displaced fullLibm_frame fullLibm_launch fullLibm_good
    ⟨p, hp, hs⟩ ⟨p', hp', hs'⟩ hE hpl (by norm_num) hl hl' (by norm_num [abs_of_pos]) (by norm_num [abs_of_pos]) g1 g2
  have key : ∀ {x : F64 fullLibm} {ξ η : ℝ}, Reads x ξ → Reads x η → ξ = η := by
    rintro x ξ η ⟨a, ha, rfl⟩ ⟨b, hb, rfl⟩
    rw [ha.unique hb]
  have hur : u = r := V3.ext (key hu.1 hr.1) (key hu.2.1 hr.2.1) (key hu.2.2 hr.2.2)
  rw [hur] at h5
  have : Real.sin (2 * rad 45) = 1 := by
    rw [show 2 * rad 45 = Real.pi / 2 by unfold rad; ring, Real.sin_pi_div_two]
  rw [this, abs_one] at h5
  norm_num at h5 ⊢
  linarith

end Post
