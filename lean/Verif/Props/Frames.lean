import Verif.Lemmas.Launch
import Verif.Props.Planet
/-! # Properties of frames and of the initial state (C10-C13, C39-C41), exact arithmetic -/

namespace Post
open Spec Flt

/-! ## C39: frame changes are proper rotations -/

/-- C39 (rotations).  For all real angles, each frame change is a proper rotation matrix. -/
theorem C39_rotations :
    (∀ lat long az : ℝ, ∃ m : M3 ℝ, m.IsRotation ∧
      inertialToLaunch (.fin lat) (.fin long) (.fin az) = m.fin) ∧
    (∀ roll yaw pitch : ℝ, ∃ m : M3 ℝ, m.IsRotation ∧
      launchToBody (.fin roll) (.fin yaw) (.fin pitch) = m.fin) ∧
    (∀ lat long az roll yaw pitch : ℝ, ∃ m : M3 ℝ, m.IsRotation ∧
      inertialToBody ⟨.fin lat, .fin long, .fin az⟩ ⟨.fin roll, .fin yaw, .fin pitch⟩ = m.fin) ∧
    (∀ t ω : ℝ, ∃ m : M3 ℝ, m.IsRotation ∧ inertialToPlanet (.fin t) (.fin ω) = m.fin) := by
  have hb : ∀ roll yaw pitch : ℝ, (rmul (turnY pitch) (rmul (turnZ yaw) (turnX roll))).IsRotation :=
    fun _ _ _ => (turnY_isRotation _).mul ((turnZ_isRotation _).mul (turnX_isRotation _))
  refine ⟨fun lat long az => ⟨_, launchMat_isRotation _ _ _, inertialToLaunch_fin _ _ _⟩,
    fun roll yaw pitch => ⟨_, hb _ _ _, launchToBody_fin _ _ _⟩,
    fun lat long az roll yaw pitch =>
      ⟨_, (hb roll yaw pitch).mul (launchMat_isRotation lat long az), ?_⟩,
    fun t ω => ⟨_, turnZ_isRotation _, inertialToPlanet_fin _ _⟩⟩
  unfold inertialToBody
  simp only
  rw [launchToBody_fin, inertialToLaunch_fin, M3.fin_mul]

/-- C39 (what that means).  A proper rotation keeps dot products, lengths and cross products
(handedness), and its transpose undoes it, in both orders. -/
theorem C39_rotation_laws {m : M3 ℝ} (h : m.IsRotation) (v w : V3 ℝ) :
    rdot (rmulVec m v) (rmulVec m w) = rdot v w ∧ rnorm (rmulVec m v) = rnorm v ∧
    rcross (rmulVec m v) (rmulVec m w) = rmulVec m (rcross v w) ∧
    m.fin.transpose.mulVec (m.fin.mulVec v.fin) = v.fin ∧
    m.fin.mulVec (m.fin.transpose.mulVec v.fin) = v.fin := by
  refine ⟨h.dot v w, h.norm v, h.cross v w, ?_, ?_⟩
  · rw [M3.fin_transpose, M3.fin_mulVec, M3.fin_mulVec, h.transpose_mulVec_mulVec]
  · rw [M3.fin_transpose, M3.fin_mulVec, M3.fin_mulVec, h.mulVec_transpose_mulVec]

/-- C39 (order of the Euler angles).  The body frame is reached from the launch frame by turning
about the first axis by roll, then about the new third axis by yaw, then about the new second
axis by pitch. -/
theorem C39_roll_yaw_pitch (roll yaw pitch : ℝ) (v : V3 ℝ) :
    (launchToBody (.fin roll) (.fin yaw) (.fin pitch)).mulVec v.fin =
      (rmulVec (turnY pitch) (rmulVec (turnZ yaw) (rmulVec (turnX roll) v))).fin := by
  rw [launchToBody_fin, M3.fin_mulVec, rmulVec_rmul, rmulVec_rmul]

/-- The angles matter: a quarter turn of yaw maps the second axis to the first. -/
example : rmulVec (turnZ (Real.pi / 2)) ⟨0, 1, 0⟩ = ⟨1, 0, 0⟩ := by
  simp [rmulVec, turnZ, rdot]

/-! ## C40: orientation of the launch frame -/

/-- C40 (axes).  In launch-frame coordinates the direction up is the first axis; the horizontal
direction at the azimuth, measured from north towards east, is the third axis; and the
horizontal direction 90 degrees further is the second. -/
theorem C40_axes (lat long az : ℝ) :
    (inertialToLaunch (.fin lat) (.fin long) (.fin az)).mulVec (up lat long).fin =
      V3.fin ⟨1, 0, 0⟩ ∧
    (inertialToLaunch (.fin lat) (.fin long) (.fin az)).mulVec
      (radd (rscale (Real.cos az) (north lat long)) (rscale (Real.sin az) (east long))).fin =
      V3.fin ⟨0, 0, 1⟩ ∧
    (inertialToLaunch (.fin lat) (.fin long) (.fin az)).mulVec
      (radd (rscale (-Real.sin az) (north lat long)) (rscale (Real.cos az) (east long))).fin =
      V3.fin ⟨0, 1, 0⟩ := by
  have h1 := Real.sin_sq_add_cos_sq lat
  have h2 := Real.sin_sq_add_cos_sq long
  have h3 := Real.sin_sq_add_cos_sq az
  simp only [inertialToLaunch_fin, M3.fin_mulVec, V3.fin_inj, launchMat, rmulVec_rmul]
  have e : ∀ α β γ : ℝ, rmulVec ⟨up lat long, east long, north lat long⟩
      (radd (rscale α (up lat long)) (radd (rscale β (east long)) (rscale γ (north lat long)))) =
      ⟨α, β, γ⟩ := by
    intro α β γ
    simp only [rmulVec, rdot, up, east, north, radd, rscale, V3.mk.injEq]
    refine ⟨?_, ?_, ?_⟩
    · linear_combination (α * Real.cos lat ^ 2 - γ * Real.sin lat * Real.cos lat) * h2 + α * h1
    · linear_combination β * h2
    · linear_combination (γ * Real.sin lat ^ 2 - α * Real.sin lat * Real.cos lat) * h2 + γ * h1
  have e1 : rmulVec ⟨up lat long, east long, north lat long⟩ (up lat long) = ⟨1, 0, 0⟩ := by
    have := e 1 0 0
    rwa [show radd (rscale 1 (up lat long)) (radd (rscale 0 (east long))
      (rscale 0 (north lat long))) = up lat long by simp [radd, rscale]] at this
  have e2 : ∀ β γ : ℝ, rmulVec ⟨up lat long, east long, north lat long⟩
      (radd (rscale γ (north lat long)) (rscale β (east long))) = ⟨0, β, γ⟩ := by
    intro β γ
    have := e 0 β γ
    rwa [show radd (rscale 0 (up lat long)) (radd (rscale β (east long))
      (rscale γ (north lat long))) = radd (rscale γ (north lat long)) (rscale β (east long)) by
        simp only [radd, rscale, V3.mk.injEq]; refine ⟨?_, ?_, ?_⟩ <;> ring] at this
  rw [e1, e2, e2]
  simp only [rmulVec, rdot, turnX, Real.sin_neg, Real.cos_neg, V3.mk.injEq]
  refine ⟨⟨?_, ?_, ?_⟩, ⟨?_, ?_, ?_⟩, ⟨?_, ?_, ?_⟩⟩ <;> first | ring1 | linear_combination h3

/-- C40 (azimuth 0).  For azimuth 0 the third axis points north. -/
theorem C40_north (lat long : ℝ) :
    (inertialToLaunch (.fin lat) (.fin long) (.fin 0)).mulVec (north lat long).fin =
      V3.fin ⟨0, 0, 1⟩ := by
  have h := (C40_axes lat long 0).2.1
  rwa [show radd (rscale (Real.cos 0) (north lat long)) (rscale (Real.sin 0) (east long)) =
    north lat long by simp [radd, rscale]] at h

/-- `north` and `east` are the directions of growing latitude and longitude. -/
theorem C40_directions (lat long : ℝ) :
    (HasDerivAt (fun φ => (up φ long).x) (north lat long).x lat ∧
     HasDerivAt (fun φ => (up φ long).y) (north lat long).y lat ∧
     HasDerivAt (fun φ => (up φ long).z) (north lat long).z lat) ∧
    (HasDerivAt (fun l => (up lat l).x) (Real.cos lat * (east long).x) long ∧
     HasDerivAt (fun l => (up lat l).y) (Real.cos lat * (east long).y) long ∧
     HasDerivAt (fun l => (up lat l).z) (Real.cos lat * (east long).z) long) := by
  simp only [up, north, east, mul_zero]
  exact ⟨⟨(Real.hasDerivAt_cos lat).mul_const _, (Real.hasDerivAt_cos lat).mul_const _,
    Real.hasDerivAt_sin lat⟩, (Real.hasDerivAt_cos long).const_mul _,
    (Real.hasDerivAt_sin long).const_mul _, hasDerivAt_const _ _⟩

/-- C40 (zero attitude).  With zero Euler angles the body frame is the launch frame. -/
theorem C40_zero_attitude (lat long az : ℝ) (v : V3 ℝ) :
    (inertialToBody ⟨.fin lat, .fin long, .fin az⟩ ⟨.fin 0, .fin 0, .fin 0⟩).mulVec v.fin =
      (inertialToLaunch (.fin lat) (.fin long) (.fin az)).mulVec v.fin := by
  unfold inertialToBody
  simp only
  rw [launchToBody_fin, inertialToLaunch_fin, M3.fin_mul, M3.fin_mulVec, M3.fin_mulVec,
    rmulVec_rmul]
  congr 1
  generalize rmulVec (launchMat lat long az) v = w
  simp [rmulVec, rmul, rdot, turnX, turnY, turnZ, M3.col1, M3.col2, M3.col3]

/-! ## C11-C13: the initial state -/

section start
variable {c : PhaseConfig XR} {s : State XR} {a b ω lat long az : ℝ} {gr : Grav XR}

theorem site_ne_zero (ha : 0 < a) (hb : 0 < b) (g l : ℝ) :
    rscale (siteDistance a b g) (up g l) ≠ ⟨0, 0, 0⟩ := by
  intro h
  have hd := siteDistance_pos ha hb g
  have h1 : rnorm (rscale (siteDistance a b g) (up g l)) = 0 := (rnorm_eq_zero _).2 h
  rw [rnorm_rscale] at h1
  have hu : rnorm (up g l) = 1 := by
    unfold rnorm up
    simp only
    rw [show (Real.cos g * Real.cos l) ^ 2 + (Real.cos g * Real.sin l) ^ 2 + Real.sin g ^ 2 =
      Real.cos g ^ 2 * (Real.sin l ^ 2 + Real.cos l ^ 2) + Real.sin g ^ 2 by ring,
      Real.sin_sq_add_cos_sq, mul_one, Real.cos_sq_add_sin_sq, Real.sqrt_one]
  rw [hu, mul_one, abs_eq_zero] at h1
  exact hd.ne' h1

theorem site_onEllipsoid (ha : 0 < a) (hb : 0 < b) (g l : ℝ) :
    OnEllipsoid a b (rscale (siteDistance a b g) (up g l)) := by
  have hpos := radicand_pos ha.ne' hb.ne' (Real.sin_sq_le_one g)
  have h2 := Real.sin_sq_add_cos_sq l
  have h1 := Real.sin_sq_add_cos_sq g
  have hd : siteDistance a b g ^ 2 * (1 + ((a / b) ^ 2 - 1) * Real.sin g ^ 2) = a ^ 2 := by
    unfold siteDistance
    rw [div_pow, Real.sq_sqrt hpos.le, div_mul_cancel₀ _ hpos.ne']
  unfold OnEllipsoid rscale up
  simp only
  have ha' := ha.ne'
  have hb' := hb.ne'
  have e : (siteDistance a b g * (Real.cos g * Real.cos l)) ^ 2 / a ^ 2 +
      (siteDistance a b g * (Real.cos g * Real.sin l)) ^ 2 / a ^ 2 +
      (siteDistance a b g * Real.sin g) ^ 2 / b ^ 2 =
      siteDistance a b g ^ 2 * (Real.cos g ^ 2 * (Real.sin l ^ 2 + Real.cos l ^ 2) +
        (a / b) ^ 2 * Real.sin g ^ 2) / a ^ 2 := by
    field_simp
    ring
  rw [e, h2, mul_one, show Real.cos g ^ 2 + (a / b) ^ 2 * Real.sin g ^ 2 =
    1 + ((a / b) ^ 2 - 1) * Real.sin g ^ 2 by linear_combination h1, hd, div_self (by positivity)]

/-- C11.  For every planet with positive radii and every configured launch site, the simulation
starts at a point of the planet's surface in the half plane of the configured longitude, with
reported altitude zero. -/
theorem C11_starts_on_surface (h : Started c s) (hp : IsPlanet (firstPlanet c) a b gr ω)
    (ha : 0 < a) (hb : 0 < b) (hl : LaunchSite c lat long az) :
    ∃ r : V3 ℝ, s.position = r.fin ∧ OnEllipsoid a b r ∧ OnMeridian (rad long) r ∧
      s.altitude = .fin 0 ∧ s.positionPlanet = r.fin := by
  obtain ⟨p, g, hnew, hpl, hla, hc, ht, hpos, hvel, hcase⟩ := started_fin h hp ha hb hl
  have hpp : p.reset.planet = ⟨.fin a, .fin b, gr, .fin ω⟩ := hpl.trans hp
  have hE := site_onEllipsoid ha hb g (rad long)
  refine ⟨_, hpos, hE, ?_, ?_, ?_⟩
  · have hcos := cos_nonneg_of_geocentric hcase
    have hd := siteDistance_pos ha hb g
    refine ⟨siteDistance a b g * Real.cos g, by positivity, ?_, ?_⟩ <;>
      simp only [rscale, up] <;> ring
  · rw [hc.altitude, hpos]
    obtain ⟨h0, he, -, -, hz⟩ := C44_altitude_sign (p := p.reset.planet) (by rw [hpp])
      (by rw [hpp]) ha hb (site_ne_zero ha hb g (rad long))
    rw [he, hz.2 hE]
  · rw [hc.positionPlanet, hpp, ht, hpos]
    simp only
    rw [inertialToPlanet_fin, M3.fin_mulVec, V3.fin_inj]
    simp [turnZ, rmulVec, rdot]

/-- C10 is false in exact arithmetic, too: whatever altitude is configured, the simulation starts
at altitude zero. -/
theorem C10_refuted (h : Started c s) (hp : IsPlanet (firstPlanet c) a b gr ω)
    (ha : 0 < a) (hb : 0 < b) {alt : ℝ}
    (hl : c.init = some ⟨.fin lat, .fin long, .fin az, .fin alt⟩) (halt : alt ≠ 0) :
    s.altitude ≠ .fin alt := by
  obtain ⟨r, -, -, -, h0, -⟩ := C11_starts_on_surface h hp ha hb ⟨_, hl⟩
  rw [h0, Ne, XR.fin_inj]
  exact fun h => halt h.symm

/-- The configured latitude is the geodetic one of the point `r`: the normal of the surface
there is a positive multiple of the unit vector with that latitude and longitude. -/
def Spec.HasGeodeticLatitude (a b lat long : ℝ) (r : V3 ℝ) : Prop :=
  ∃ k : ℝ, 0 < k ∧ ellipsoidNormal a b r = rscale k (up lat long)

/-- C12 (partial: spherical planets).  There the launch site has the configured latitude.
Missing: oblate planets, for which the claim is false (`C12_refuted`). -/
theorem C12_latitude_partial (h : Started c s) (hp : IsPlanet (firstPlanet c) a a gr ω)
    (ha : 0 < a) (hl : LaunchSite c lat long az) (hlat : |lat| ≤ 90) :
    ∃ r : V3 ℝ, s.position = r.fin ∧ HasGeodeticLatitude a a (rad lat) (rad long) r := by
  obtain ⟨p, g, hnew, hpl, hla, hc, ht, hpos, hvel, hcase⟩ := started_fin h hp ha ha hl
  refine ⟨_, hpos, siteDistance a a g / a ^ 2, ?_, ?_⟩
  · have := siteDistance_pos ha ha g
    positivity
  · have hcl : 0 ≤ Real.cos (rad lat) := by
      rw [abs_le] at hlat
      have hpi := Real.pi_pos
      apply Real.cos_nonneg_of_neg_pi_div_two_le_of_le <;> unfold rad <;> nlinarith
    have key : Real.cos g = Real.cos (rad lat) ∧ Real.sin g = Real.sin (rad lat) := by
      rcases hcase with ⟨h1, h2, h3⟩ | ⟨h1, h2, h3⟩
      · rw [div_self ha.ne'] at h3
        have e1 := Real.sin_sq_add_cos_sq g
        have e2 := Real.sin_sq_add_cos_sq (rad lat)
        have hcl' : 0 < Real.cos (rad lat) := lt_of_le_of_ne hcl (Ne.symm h1)
        have h3' : Real.sin g * Real.cos (rad lat) = Real.sin (rad lat) * Real.cos g := by
          linear_combination h3
        have hsq : Real.cos g ^ 2 = Real.cos (rad lat) ^ 2 := by
          have : (Real.sin g * Real.cos (rad lat)) ^ 2 = (Real.sin (rad lat) * Real.cos g) ^ 2 := by
            rw [h3']
          nlinarith
        have hc1 : Real.cos g = Real.cos (rad lat) := by
          rcases sq_eq_sq_iff_eq_or_eq_neg.1 hsq with h | h
          · exact h
          · linarith
        refine ⟨hc1, ?_⟩
        rw [hc1] at h3'
        exact mul_right_cancel₀ h1 h3'
      · exact ⟨by rw [h1, h2], h3⟩
    unfold ellipsoidNormal rscale up
    simp only [V3.mk.injEq]
    rw [key.1, key.2]
    refine ⟨?_, ?_, ?_⟩ <;> ring

/-- C12 is false for every planet with different radii and every latitude other than 0 and ±90
degrees. -/
theorem C12_refuted (h : Started c s) (hp : IsPlanet (firstPlanet c) a b gr ω)
    (ha : 0 < a) (hb : 0 < b) (hab : a ≠ b) (hl : LaunchSite c lat long az)
    (h0 : lat ≠ 0) (h90 : |lat| < 90) :
    ∀ r : V3 ℝ, s.position = r.fin → ¬ HasGeodeticLatitude a b (rad lat) (rad long) r := by
  rintro r hr ⟨k, hk, hn⟩
  obtain ⟨p, g, hnew, hpl, hla, hc, ht, hpos, hvel, hcase⟩ := started_fin h hp ha hb hl
  rw [hr, V3.fin_inj] at hpos
  subst hpos
  have hpi := Real.pi_pos
  rw [abs_lt] at h90
  have hcl : 0 < Real.cos (rad lat) := by
    apply Real.cos_pos_of_mem_Ioo
    constructor <;> unfold rad <;> nlinarith
  have hsl : Real.sin (rad lat) ≠ 0 := by
    rcases lt_or_gt_of_ne h0 with h | h
    · exact (Real.sin_neg_of_neg_of_neg_pi_lt (by unfold rad; nlinarith)
        (by unfold rad; nlinarith)).ne
    · exact (Real.sin_pos_of_pos_of_lt_pi (by unfold rad; nlinarith)
        (by unfold rad; nlinarith)).ne'
  rcases hcase with ⟨_, h2, h3⟩ | ⟨h1, _⟩
  · have hd := siteDistance_pos ha hb g
    simp only [ellipsoidNormal, rscale, up, V3.mk.injEq] at hn
    obtain ⟨n1, n2, n3⟩ := hn
    have hl2 := Real.sin_sq_add_cos_sq (rad long)
    -- horizontal component of the normal
    have m1 : siteDistance a b g * Real.cos g / a ^ 2 = k * Real.cos (rad lat) := by
      have e : ∀ u : ℝ, u = u * (Real.sin (rad long) ^ 2 + Real.cos (rad long) ^ 2) := by
        intro u; rw [hl2, mul_one]
      rw [e (siteDistance a b g * Real.cos g / a ^ 2), e (k * Real.cos (rad lat))]
      linear_combination Real.cos (rad long) * n1 + Real.sin (rad long) * n2
    have m3 : siteDistance a b g * Real.sin g / b ^ 2 = k * Real.sin (rad lat) := n3
    have ha' := ha.ne'
    have hb' := hb.ne'
    -- tan g = (b/a)² tan lat, but the code makes it (a/b)⁴ tan lat
    have m4 : Real.sin g * a ^ 2 * Real.cos (rad lat) = Real.sin (rad lat) * b ^ 2 * Real.cos g := by
      have q1 : siteDistance a b g * Real.cos g = k * Real.cos (rad lat) * a ^ 2 := by
        rw [div_eq_iff (by positivity)] at m1; exact m1
      have q3 : siteDistance a b g * Real.sin g = k * Real.sin (rad lat) * b ^ 2 := by
        rw [div_eq_iff (by positivity)] at m3; exact m3
      have : siteDistance a b g * (Real.sin g * a ^ 2 * Real.cos (rad lat)) =
          siteDistance a b g * (Real.sin (rad lat) * b ^ 2 * Real.cos g) := by
        linear_combination a ^ 2 * Real.cos (rad lat) * q3 - b ^ 2 * Real.sin (rad lat) * q1
      exact mul_left_cancel₀ hd.ne' this
    have m5 : (a / b) ^ 2 ^ 2 * a ^ 2 = b ^ 2 := by
      have : Real.sin (rad lat) * Real.cos g * ((a / b) ^ 2 ^ 2 * a ^ 2) =
          Real.sin (rad lat) * Real.cos g * b ^ 2 := by
        have e : (a / b) ^ 2 ^ 2 = ((a / b) ^ 2) ^ 2 := by norm_num [← pow_mul]
        rw [e]
        linear_combination m4 - a ^ 2 * h3
      exact mul_left_cancel₀ (mul_ne_zero hsl h2.ne') this
    have m6 : a ^ 6 = b ^ 6 := by
      rw [div_pow] at m5
      field_simp at m5
      norm_num at m5
      linear_combination m5
    exact hab ((pow_left_inj₀ ha.le hb.le (by norm_num)).1 m6)
  · exact hcl.ne' h1

/-- C13.  The vehicle starts at rest relative to the planet: the reported planet-relative
velocity is zero, and the inertial velocity is that of a point rotating with the planet. -/
theorem C13_starts_at_rest (h : Started c s) (hp : IsPlanet (firstPlanet c) a b gr ω)
    (ha : 0 < a) (hb : 0 < b) (hl : LaunchSite c lat long az) :
    s.velocityPlanet = V3.fin ⟨0, 0, 0⟩ ∧
    ∃ r : V3 ℝ, s.position = r.fin ∧ s.velocity = (rcross ⟨0, 0, ω⟩ r).fin := by
  obtain ⟨p, g, hnew, hpl, hla, hc, ht, hpos, hvel, hcase⟩ := started_fin h hp ha hb hl
  have hpp : p.reset.planet.rotationRate = .fin ω := by
    show p.planet.rotationRate = _
    rw [hpl, hp]
  refine ⟨?_, _, hpos, hvel⟩
  rw [hc.velocityPlanet, hpos, hvel, velocityPlanet_fin hpp, V3.fin_inj]
  simp [rsub]

/-- C40 (launch site).  The launch frame's first axis goes from the planet's centre through the
launch site: the initial position has only a first component, and it is positive. -/
theorem C40_launch_site {p : Phase XR} (hnew : Phase.new none c = .ok p) (h : Started c s)
    (hp : IsPlanet (firstPlanet c) a b gr ω) (ha : 0 < a) (hb : 0 < b)
    (hl : LaunchSite c lat long az) :
    ∃ d : ℝ, 0 < d ∧ (inertialToLaunch p.launch.lat p.launch.long p.launch.az).mulVec s.position =
      V3.fin ⟨d, 0, 0⟩ := by
  obtain ⟨p', g, hnew', hpl, hla, hc, ht, hpos, hvel, hcase⟩ := started_fin h hp ha hb hl
  rw [hnew] at hnew'
  injection hnew' with hnew'
  subst hnew'
  refine ⟨_, siteDistance_pos ha hb g, ?_⟩
  have h1 := (C40_axes g (rad long) (rad az)).1
  rw [inertialToLaunch_fin, M3.fin_mulVec, V3.fin_inj] at h1
  rw [hla, hpos]
  simp only
  rw [inertialToLaunch_fin, M3.fin_mulVec, rmulVec_rscale, h1]
  simp [rscale]

end start

/-! ## C41: planet-fixed points -/

/-- The inertial position at time `t` of a point that rotates with the planet and has
planet-frame coordinates `q`. -/
noncomputable def Spec.rotating (ω t : ℝ) (q : V3 ℝ) : V3 ℝ :=
  ⟨Real.cos (ω * t) * q.x - Real.sin (ω * t) * q.y,
   Real.sin (ω * t) * q.x + Real.cos (ω * t) * q.y, q.z⟩

theorem rotating_eq (ω t : ℝ) (q : V3 ℝ) : rotating ω t q = rmulVec (turnZ (ω * t)).transpose q := by
  simp only [rotating, rmulVec, rdot, turnZ, M3.transpose, M3.col1, M3.col2, M3.col3, V3.mk.injEq]
  refine ⟨?_, ?_, ?_⟩ <;> ring

/-- C41 (fixed points).  A point rotating with the planet has constant planet-frame coordinates
and, with its own velocity, zero planet-relative velocity, at every time. -/
theorem C41_fixed_points {p : Planet XR} {ω : ℝ} (hω : p.rotationRate = .fin ω) (t : ℝ)
    (q : V3 ℝ) :
    (inertialToPlanet (.fin t) p.rotationRate).mulVec (rotating ω t q).fin = q.fin ∧
    ∃ v : V3 ℝ, (HasDerivAt (fun τ => (rotating ω τ q).x) v.x t ∧
        HasDerivAt (fun τ => (rotating ω τ q).y) v.y t ∧
        HasDerivAt (fun τ => (rotating ω τ q).z) v.z t) ∧
      p.velocityPlanet (rotating ω t q).fin v.fin = V3.fin ⟨0, 0, 0⟩ := by
  constructor
  · rw [hω, inertialToPlanet_fin, rotating_eq, M3.fin_mulVec,
      (turnZ_isRotation _).mulVec_transpose_mulVec]
  · refine ⟨rcross ⟨0, 0, ω⟩ (rotating ω t q), ?_, ?_⟩
    · have hid : HasDerivAt (fun τ : ℝ => ω * τ) ω t := by
        simpa using (hasDerivAt_id t).const_mul ω
      have hs := HasDerivAt.sin hid
      have hcs := HasDerivAt.cos hid
      simp only [rotating, rcross]
      refine ⟨?_, ?_, ?_⟩
      · refine (HasDerivAt.fun_sub (hcs.mul_const q.x) (hs.mul_const q.y)).congr_deriv ?_
        ring
      · refine (HasDerivAt.fun_add (hs.mul_const q.x) (hcs.mul_const q.y)).congr_deriv ?_
        ring
      · refine (hasDerivAt_const t q.z).congr_deriv ?_
        ring
    · rw [velocityPlanet_fin hω, V3.fin_inj]
      simp [rsub]

/-- C41 (distance and altitude).  Planet-frame coordinates have the same distance from the centre
and the same altitude as the inertial ones. -/
theorem C41_same_altitude {p : Planet XR} {ω : ℝ} (t : ℝ) (r : V3 ℝ) :
    ∃ q : V3 ℝ, (inertialToPlanet (.fin t) (.fin ω)).mulVec r.fin = q.fin ∧
      rnorm q = rnorm r ∧ p.altitude q.fin = p.altitude r.fin := by
  have hn := (turnZ_isRotation (ω * t)).norm r
  refine ⟨rmulVec (turnZ (ω * t)) r, by rw [inertialToPlanet_fin, M3.fin_mulVec], hn, ?_⟩
  have hz : (rmulVec (turnZ (ω * t)) r).fin.z = r.fin.z := by
    simp [rmulVec, turnZ, rdot, V3.fin, V3.map]
  unfold Planet.altitude
  rw [V3.fin_norm, V3.fin_norm, hn, hz]

/-- C41 (kinematics).  Along every differentiable motion, the time derivative of the
planet-frame coordinates is the planet-relative velocity expressed in the planet frame. -/
theorem C41_kinematics {p : Planet XR} {ω : ℝ} (hω : p.rotationRate = .fin ω)
    {x y z : ℝ → ℝ} {v : V3 ℝ} {t : ℝ} (hx : HasDerivAt x v.x t) (hy : HasDerivAt y v.y t)
    (hz : HasDerivAt z v.z t) {q : ℝ → V3 ℝ}
    (hq : ∀ τ, (inertialToPlanet (.fin τ) p.rotationRate).mulVec (V3.fin ⟨x τ, y τ, z τ⟩) =
      (q τ).fin) {w : V3 ℝ}
    (hw : (inertialToPlanet (.fin t) p.rotationRate).mulVec
      (p.velocityPlanet (V3.fin ⟨x t, y t, z t⟩) v.fin) = w.fin) :
    HasDerivAt (fun τ => (q τ).x) w.x t ∧ HasDerivAt (fun τ => (q τ).y) w.y t ∧
      HasDerivAt (fun τ => (q τ).z) w.z t := by
  have hq' : ∀ τ, q τ = rmulVec (turnZ (ω * τ)) ⟨x τ, y τ, z τ⟩ := by
    intro τ
    have := hq τ
    rw [hω, inertialToPlanet_fin, M3.fin_mulVec, V3.fin_inj] at this
    exact this.symm
  have hw' : w = rmulVec (turnZ (ω * t)) (rsub v (rcross ⟨0, 0, ω⟩ ⟨x t, y t, z t⟩)) := by
    rw [velocityPlanet_fin hω, hω, inertialToPlanet_fin, M3.fin_mulVec, V3.fin_inj] at hw
    exact hw.symm
  have hid : HasDerivAt (fun τ : ℝ => ω * τ) ω t := by
    simpa using (hasDerivAt_id t).const_mul ω
  have hs := HasDerivAt.sin hid
  have hcs := HasDerivAt.cos hid
  simp only [hq', hw', rmulVec, rdot, turnZ, rsub, rcross, zero_mul, one_mul, add_zero]
  refine ⟨?_, ?_, ?_⟩
  · refine (HasDerivAt.fun_add (HasDerivAt.fun_mul hcs hx) (HasDerivAt.fun_mul hs hy)).congr_deriv ?_
    ring
  · refine (HasDerivAt.fun_add (HasDerivAt.fun_mul (HasDerivAt.fun_neg hs) hx)
      (HasDerivAt.fun_mul hcs hy)).congr_deriv ?_
    ring
  · refine ((HasDerivAt.fun_add (hasDerivAt_const t (0 : ℝ)) hz)).congr_deriv ?_
    ring

end Post
