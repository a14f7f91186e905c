import Verif.Lemmas.EarthF64
import Verif.Props.DoubleMass
/-! # The equations of motion of a coasting phase, in double precision -/

namespace Post
open Spec Flt F64
variable {L : Libm}

/-! ## zeros -/

theorem dbl_round_zero (s : Bool) : Dbl.round s 0 = .fin s 0 := by
  unfold Dbl.round
  rw [if_pos rfl]

theorem IsZero.mul_right {x : F64 L} (hx : IsZero x) {y : F64 L} {q : ℚ} (hy : y.Is q) :
    IsZero (x * y) := by
  obtain ⟨s, hs⟩ := hx
  obtain ⟨t, b, hb, _, _⟩ := hy
  refine ⟨s != t, ?_⟩
  show Dbl.mul x.dbl y.dbl = _
  rw [hs, hb]
  show Dbl.round (s != t) (Dbl.val s 0 * Dbl.val t b) = _
  rw [Dbl.val_zero, zero_mul, dbl_round_zero]

theorem IsZero.div {x : F64 L} (hx : IsZero x) {y : F64 L} {q : ℚ} (hy : y.Is q) (hq : q ≠ 0) :
    IsZero (x / y) := by
  obtain ⟨s, hs⟩ := hx
  obtain ⟨t, b, hb, hv, _⟩ := hy
  refine ⟨s != t, ?_⟩
  have hb0 : b ≠ 0 := by
    rintro rfl
    rw [Dbl.val_zero] at hv
    exact hq hv.symm
  show Dbl.div x.dbl y.dbl = _
  rw [hs, hb]
  show (if b = 0 then _ else Dbl.round (s != t) (Dbl.val s 0 / Dbl.val t b)) = _
  rw [if_neg hb0, Dbl.val_zero, zero_div, dbl_round_zero]

theorem is_zero_add {x y : F64 L} {m : ℚ} (hx : x.Is m) (hx' : x.dbl.IsDouble) (hy : IsZero y) :
    (y + x).Is m := by
  obtain ⟨t, ht⟩ := hy
  obtain ⟨s, a, hs, hv, ha⟩ := hx
  rw [hs] at hx'
  obtain ⟨u, h1, h2⟩ := Dbl.round_isMag (s := t && s) (t := s) hx'
  refine ⟨u, a, ?_, by rw [h2]; exact hv, ha⟩
  show Dbl.add y.dbl x.dbl = _
  rw [hs, ht]
  show Dbl.round (t && s) (Dbl.val t 0 + Dbl.val s a) = _
  rw [Dbl.val_zero, zero_add]
  exact h1

/-- The double is zero or NaN. -/
def ZN (x : F64 L) : Prop := x.dbl = .nan ∨ IsZero x

theorem ZN.mul_right {x : F64 L} (hx : ZN x) (y : F64 L) : ZN (x * y) := by
  have e : (x * y).dbl = Dbl.mul x.dbl y.dbl := rfl
  rcases hx with hx | ⟨s, hx⟩
  · left
    rw [e, hx]
    rfl
  · rcases hy : y.dbl with _ | t | ⟨t, b⟩
    · left
      rw [e, hx, hy]
      rfl
    · left
      rw [e, hx, hy]
      rfl
    · right
      refine ⟨s != t, ?_⟩
      rw [e, hx, hy]
      show Dbl.round (s != t) (Dbl.val s 0 * Dbl.val t b) = _
      rw [Dbl.val_zero, zero_mul, dbl_round_zero]

theorem ZN.nanToZero {x : F64 L} (hx : ZN x) : IsZero (nanToZero x) := by
  unfold Post.nanToZero
  rcases hx with hx | ⟨s, hx⟩
  · have : isNan x = true := by
      show (!Dbl.eq x.dbl x.dbl) = true
      rw [hx]
      rfl
    rw [if_pos this]
    exact ⟨false, zero_dbl⟩
  · have : isNan x = false := by
      show (!Dbl.eq x.dbl x.dbl) = false
      rw [hx]
      simp [Dbl.eq]
    rw [this]
    exact ⟨s, hx⟩

theorem zero_isZero : IsZero (0 : F64 L) := ⟨false, zero_dbl⟩

/-- a vector of zeros -/
def ZeroV (v : V3 (F64 L)) : Prop := IsZero v.x ∧ IsZero v.y ∧ IsZero v.z

theorem aero_zero {p : Phase (F64 L)} (hv : p.atmosphere.model = .noAtmosphere)
    {s d : State (F64 L)} (h : p.system s = .ok d) : ZeroV d.aeroForceBody := by
  obtain ⟨aero, ha, _, rfl⟩ := Phase.system_ok h
  show ZeroV aero
  have hq : ZN (p.systemPre s).dynamicPressure := by
    have e : (p.systemPre s).dynamicPressure = p.atmosphere.dynamicPressure (p.systemAtmosphere (p.systemAir
      (p.systemPlanet s))) := rfl
    rw [e]
    unfold Atmosphere.dynamicPressure
    have e2 : (p.systemAtmosphere (p.systemAir (p.systemPlanet s))).density = 0 := by
      show p.atmosphere.density _ = 0
      unfold Atmosphere.density
      rw [hv]
    rw [e2]
    refine ZN.mul_right (.inr ?_) _
    obtain ⟨q, hq, _⟩ : Near (0.5 : F64 L) 0.5 1 :=
      Near.lit 5 true 1 (by norm_num) (by norm_num [abs_of_pos]) (by norm_num [abs_of_pos])
    exact zero_isZero.mul_left hq
  unfold Vehicle.aeroForce at ha
  simp only [bind, Except.bind] at ha
  split at ha
  · cases ha
  split at ha
  · cases ha
  split at ha
  · cases ha
  injection ha with ha
  rw [← ha]
  exact ⟨((hq.mul_right _).mul_right _).nanToZero, ((hq.mul_right _).mul_right _).nanToZero,
    ((hq.mul_right _).mul_right _).nanToZero⟩

theorem thrust_zero {p : Phase (F64 L)} (hE : p.vehicle.engines = [])
    {s d : State (F64 L)} (h : p.system s = .ok d) : ZeroV d.thrustForceBody := by
  obtain ⟨h1, h2⟩ := system_throttle_f64 h
  obtain ⟨q, hq⟩ := inUnit_is h1 h2
  rw [(system_consistent h).thrustForceBody]
  unfold Vehicle.thrustForce
  rw [hE]
  exact ⟨zero_isZero.mul_left hq, zero_isZero.mul_left hq, zero_isZero.mul_left hq⟩

theorem sensed_zero {p : Phase (F64 L)} (hE : p.vehicle.engines = [])
    (hv : p.atmosphere.model = .noAtmosphere) {s d : State (F64 L)} (h : p.system s = .ok d) {m : ℚ}
    (hm : s.mass.Is m) (hm0 : m ≠ 0) : ZeroV d.vehicleAccelerationBody := by
  obtain ⟨a1, a2, a3⟩ := aero_zero hv h
  obtain ⟨b1, b2, b3⟩ := thrust_zero hE h
  rw [(system_consistent h).vehicleAccelerationBody]
  have hm' : d.mass.Is m := by rw [(Phase.system_primary h).2.2.2.2]; exact hm
  exact ⟨(a1.add b1).div hm' hm0, (a2.add b2).div hm' hm0, (a3.add b3).div hm' hm0⟩

/-! ## bounded numbers -/

theorem num_mul {x y : F64 L} {a b c : ℝ} (hx : Near x 0 a) (hy : Near y 0 b)
    (h : a * b * 1.01 + 1e-3 ≤ c) (hc : c ≤ 1e55) : Near (x * y) 0 c := by
  have ha := hx.nonneg
  have hb := hy.nonneg
  have hab : 0 ≤ a * b := mul_nonneg ha hb
  norm_num at h hc
  have := hx.mul hy (A := 0) (B := 0) (M := 0) (e := c) (by simp) (by simp) (by simp)
    (by norm_num; nlinarith) (by norm_num; nlinarith)
  simpa using this

theorem num_add {x y : F64 L} {a b c : ℝ} (hx : Near x 0 a) (hy : Near y 0 b)
    (h : (a + b) * 1.01 + 1e-3 ≤ c) (hc : c ≤ 1e55) : Near (x + y) 0 c := by
  have ha := hx.nonneg
  have hb := hy.nonneg
  norm_num at h hc
  have := hx.add hy (M := 0) (e := c) (by simp)
    (by norm_num; nlinarith) (by norm_num; nlinarith)
  simpa using this

theorem num_neg {x : F64 L} {a : ℝ} (hx : Near x 0 a) : Near (-x) 0 a := by
  simpa using hx.neg

theorem num_sub {x y : F64 L} {a b c : ℝ} (hx : Near x 0 a) (hy : Near y 0 b)
    (h : (a + b) * 1.01 + 1e-3 ≤ c) (hc : c ≤ 1e55) : Near (x - y) 0 c := by
  have ha := hx.nonneg
  have hb := hy.nonneg
  norm_num at h hc
  have := hx.sub hy (M := 0) (e := c) (by simp)
    (by norm_num; nlinarith) (by norm_num; nlinarith)
  simpa using this

theorem num_bounded {x : F64 L} {b : ℚ} (hx : Near x 0 (b : ℝ)) : ∃ q : ℚ, x.Is q ∧ |q| ≤ b := by
  obtain ⟨q, h1, h2⟩ := hx
  refine ⟨q, h1, ?_⟩
  rw [sub_zero] at h2
  exact_mod_cast h2

theorem bounded_num {x : F64 L} {b : ℚ} (hx : ∃ q : ℚ, x.Is q ∧ |q| ≤ b) : Near x 0 (b : ℝ) := by
  obtain ⟨q, h1, h2⟩ := hx
  refine ⟨q, h1, ?_⟩
  rw [sub_zero]
  exact_mod_cast h2

theorem num_sin (hL : GoodLibrary L) {x : F64 L} (hx : FiniteDouble x) : Near (Flt.sin x) 0 1 := by
  obtain ⟨q, hq⟩ := hx
  simpa using bounded_num (hL.sin x q hq)

theorem num_cos (hL : GoodLibrary L) {x : F64 L} (hx : FiniteDouble x) : Near (Flt.cos x) 0 1 := by
  obtain ⟨q, hq⟩ := hx
  simpa using bounded_num (hL.cos x q hq)

/-- matrices of bounded numbers -/
structure NumM (m : M3 (F64 L)) (b : ℝ) : Prop where
  xx : Near m.r1.x 0 b
  xy : Near m.r1.y 0 b
  xz : Near m.r1.z 0 b
  yx : Near m.r2.x 0 b
  yy : Near m.r2.y 0 b
  yz : Near m.r2.z 0 b
  zx : Near m.r3.x 0 b
  zy : Near m.r3.y 0 b
  zz : Near m.r3.z 0 b

theorem num_rot (hL : GoodLibrary L) {m : M3 (F64 L)} (h : NumM m 4) : NumM (Flt.rotFromMatrix m) 2 := by
  have h1 : BoundedMatrix m 4 := by
    intro x hx
    simp only [List.mem_cons, List.not_mem_nil, or_false] at hx
    rcases hx with rfl | rfl | rfl | rfl | rfl | rfl | rfl | rfl | rfl
    · exact num_bounded (by simpa using h.xx)
    · exact num_bounded (by simpa using h.xy)
    · exact num_bounded (by simpa using h.xz)
    · exact num_bounded (by simpa using h.yx)
    · exact num_bounded (by simpa using h.yy)
    · exact num_bounded (by simpa using h.yz)
    · exact num_bounded (by simpa using h.zx)
    · exact num_bounded (by simpa using h.zy)
    · exact num_bounded (by simpa using h.zz)
  have h2 := hL.rot m h1
  have h3 : ∀ x ∈ [(Flt.rotFromMatrix m).r1.x, (Flt.rotFromMatrix m).r1.y, (Flt.rotFromMatrix m).r1.z,
      (Flt.rotFromMatrix m).r2.x, (Flt.rotFromMatrix m).r2.y, (Flt.rotFromMatrix m).r2.z,
      (Flt.rotFromMatrix m).r3.x, (Flt.rotFromMatrix m).r3.y, (Flt.rotFromMatrix m).r3.z], Near x 0 2 := by
    intro x hx
    simpa using bounded_num (h2 x hx)
  simp only [List.mem_cons, List.not_mem_nil, or_false, forall_eq_or_imp, forall_eq] at h3
  obtain ⟨k1, k2, k3, k4, k5, k6, k7, k8, k9⟩ := h3
  exact ⟨k1, k2, k3, k4, k5, k6, k7, k8, k9⟩

theorem num_dot {u v : V3 (F64 L)} (hu : Near u.x 0 2 ∧ Near u.y 0 2 ∧ Near u.z 0 2)
    (hv : Near v.x 0 2 ∧ Near v.y 0 2 ∧ Near v.z 0 2) : Near (V3.dot u v) 0 14 := by
  have h1 := num_mul (c := 4.1) hu.1 hv.1 (by norm_num) (by norm_num)
  have h2 := num_mul (c := 4.1) hu.2.1 hv.2.1 (by norm_num) (by norm_num)
  have h3 := num_mul (c := 4.1) hu.2.2 hv.2.2 (by norm_num) (by norm_num)
  exact num_add (num_add (c := 9) h1 h2 (by norm_num) (by norm_num)) h3 (by norm_num) (by norm_num)

theorem num_body (hL : GoodLibrary L) {launch : Launch (F64 L)} {e : Angles (F64 L)}
    (hl : FiniteDouble launch.lat ∧ FiniteDouble launch.long ∧ FiniteDouble launch.az)
    (he : FiniteDouble e.roll ∧ FiniteDouble e.yaw ∧ FiniteDouble e.pitch) : NumM (inertialToBody launch e) 14 := by
  obtain ⟨l1, l2, l3⟩ := hl
  obtain ⟨e1, e2, e3⟩ := he
  have two : ∀ {x y : F64 L}, Near x 0 1 → Near y 0 1 → Near (x * y) 0 1.1 :=
    fun hx hy => num_mul hx hy (by norm_num) (by norm_num)
  have three : ∀ {x y z : F64 L}, Near x 0 1 → Near y 0 1 → Near z 0 1 → Near (x * y * z) 0 1.2 :=
    fun hx hy hz => num_mul (two hx hy) hz (by norm_num) (by norm_num)
  have w : ∀ {x : F64 L} {a : ℝ}, Near x 0 a → a ≤ 4 → Near x 0 4 := fun h => h.mono
  have a1 : NumM (inertialToLaunch launch.lat launch.long launch.az) 2 := by
    refine num_rot hL ⟨?_, ?_, ?_, ?_, ?_, ?_, ?_, ?_, ?_⟩ <;> unfold inertialToLaunchMat
    · exact w (two (num_cos hL l1) (num_cos hL l2)) (by norm_num)
    · exact w (two (num_cos hL l1) (num_sin hL l2)) (by norm_num)
    · exact w (num_sin hL l1) (by norm_num)
    · exact num_sub (three (num_sin hL l1) (num_cos hL l2) (num_sin hL l3))
        (two (num_cos hL l3) (num_sin hL l2)) (by norm_num) (by norm_num)
    · exact num_add (two (num_cos hL l3) (num_cos hL l2))
        (three (num_sin hL l3) (num_sin hL l1) (num_sin hL l2)) (by norm_num) (by norm_num)
    · exact w (two (num_neg (num_sin hL l3)) (num_cos hL l1)) (by norm_num)
    · exact num_sub (two (num_neg (num_sin hL l3)) (num_sin hL l2))
        (three (num_cos hL l3) (num_sin hL l1) (num_cos hL l2)) (by norm_num) (by norm_num)
    · exact num_sub (two (num_sin hL l3) (num_cos hL l2))
        (three (num_cos hL l3) (num_sin hL l1) (num_sin hL l2)) (by norm_num) (by norm_num)
    · exact w (two (num_cos hL l3) (num_cos hL l1)) (by norm_num)
  have a2 : NumM (launchToBody e.roll e.yaw e.pitch) 2 := by
    refine num_rot hL ⟨?_, ?_, ?_, ?_, ?_, ?_, ?_, ?_, ?_⟩ <;> unfold launchToBodyMat
    · exact w (two (num_cos hL e2) (num_cos hL e3)) (by norm_num)
    · exact num_add (three (num_cos hL e1) (num_sin hL e2) (num_cos hL e3))
        (two (num_sin hL e1) (num_sin hL e3)) (by norm_num) (by norm_num)
    · exact num_sub (three (num_sin hL e1) (num_sin hL e2) (num_cos hL e3))
        (two (num_cos hL e1) (num_sin hL e3)) (by norm_num) (by norm_num)
    · exact w (num_neg (num_sin hL e2)) (by norm_num)
    · exact w (two (num_cos hL e1) (num_cos hL e2)) (by norm_num)
    · exact w (two (num_sin hL e1) (num_cos hL e2)) (by norm_num)
    · exact w (two (num_cos hL e2) (num_sin hL e3)) (by norm_num)
    · exact num_sub (three (num_cos hL e1) (num_sin hL e2) (num_sin hL e3))
        (two (num_sin hL e1) (num_cos hL e3)) (by norm_num) (by norm_num)
    · exact num_add (three (num_sin hL e1) (num_sin hL e2) (num_sin hL e3))
        (two (num_cos hL e1) (num_cos hL e3)) (by norm_num) (by norm_num)
  exact ⟨num_dot ⟨a2.xx, a2.xy, a2.xz⟩ ⟨a1.xx, a1.yx, a1.zx⟩,
    num_dot ⟨a2.xx, a2.xy, a2.xz⟩ ⟨a1.xy, a1.yy, a1.zy⟩,
    num_dot ⟨a2.xx, a2.xy, a2.xz⟩ ⟨a1.xz, a1.yz, a1.zz⟩,
    num_dot ⟨a2.yx, a2.yy, a2.yz⟩ ⟨a1.xx, a1.yx, a1.zx⟩,
    num_dot ⟨a2.yx, a2.yy, a2.yz⟩ ⟨a1.xy, a1.yy, a1.zy⟩,
    num_dot ⟨a2.yx, a2.yy, a2.yz⟩ ⟨a1.xz, a1.yz, a1.zz⟩,
    num_dot ⟨a2.zx, a2.zy, a2.zz⟩ ⟨a1.xx, a1.yx, a1.zx⟩,
    num_dot ⟨a2.zx, a2.zy, a2.zz⟩ ⟨a1.xy, a1.yy, a1.zy⟩,
    num_dot ⟨a2.zx, a2.zy, a2.zz⟩ ⟨a1.xz, a1.yz, a1.zz⟩⟩

theorem dot_zero {u v : V3 (F64 L)} {b : ℝ} (hx : Near u.x 0 b) (hy : Near u.y 0 b) (hz : Near u.z 0 b)
    (hv : ZeroV v) : IsZero (V3.dot u v) := by
  obtain ⟨q1, h1, _⟩ := hx
  obtain ⟨q2, h2, _⟩ := hy
  obtain ⟨q3, h3, _⟩ := hz
  exact ((hv.1.mul_left h1).add (hv.2.1.mul_left h2)).add (hv.2.2.mul_left h3)

theorem near_zero_add {x y : F64 L} {ξ e : ℝ} (hx : Near x ξ e) (hx' : x.dbl.IsDouble) (hy : IsZero y) :
    Near (y + x) ξ e := by
  obtain ⟨q, h1, h2⟩ := hx
  exact ⟨q, is_zero_add h1 hx' hy, h2⟩

theorem reads_near {x : F64 L} {ξ : ℝ} : Reads x ξ ↔ Near x ξ 0 := by
  constructor
  · rintro ⟨q, h1, rfl⟩
    exact Near.of_is h1
  · rintro ⟨q, h1, h2⟩
    exact ⟨q, h1, by simpa [sub_eq_zero] using h2⟩

theorem readsV_near {v : V3 (F64 L)} {w : V3 ℝ} (h : ReadsV v w) : NearV v w 0 :=
  ⟨reads_near.1 h.1, reads_near.1 h.2.1, reads_near.1 h.2.2⟩

theorem Spec.Reads.number {x : F64 L} {ξ : ℝ} (h : Reads x ξ) : ∃ q : ℚ, x.Is q ∧ (q : ℝ) = ξ := h

/-- The equations of motion of a coasting phase: they succeed, the acceleration is gravity up to
2e-11 m/s², and the mass flow is zero. -/
theorem coast_system (hL : GoodLibrary L) {p : Phase (F64 L)} (hp : CoastingDouble p)
    {a μ j2 j3 j4 : ℝ} (hn : NearEarth p.planet a μ j2 j3 j4) {s : State (F64 L)} {t te m : ℝ} {r v : V3 ℝ}
    (ht : Reads s.time t) (ht' : |t| ≤ 1e9) (hte : Reads s.timeSinceEvent te) (hte' : |te| ≤ 1e9)
    (hr : ReadsV s.position r) (hr1 : 6.4e6 ≤ rnorm r) (hr2 : rnorm r ≤ 2e7) (hv : ReadsV s.velocity v)
    (hv' : rnorm v ≤ 1e4) (hm : Reads s.mass m) (hm0 : m ≠ 0) :
    ∃ d, p.system s = .ok d ∧ d.velocity = s.velocity ∧
      NearV d.acceleration (grav a μ j2 j3 j4 r) 2e-11 ∧ IsZero d.massflow := by
  obtain ⟨d, hd⟩ := coasting_system hp.unlimited hp.engines hp.tables s
  have hprim := Phase.system_primary hd
  have hatt := hp.attitude s d t te m r v ht ht' hte hte' hr hr1 hr2 hv hv' hm hd
  have hc := system_consistent hd
  obtain ⟨mq, hmq, rfl⟩ := hm
  have hz := sensed_zero hp.engines hp.vacuum hd hmq (by exact_mod_cast hm0)
  have hb := num_body hL hp.launch hatt
  have hg := gravity_near hL hn (readsV_near hr) hr1 hr2
  refine ⟨d, hd, hprim.2.2.2.1, ?_, coasting_massflow hp.engines hd⟩
  rw [hc.acceleration, hc.gravityAcceleration, hprim.2.2.1]
  have i1 : (p.planet.gravity s.position).x.dbl.IsDouble := Dbl.mul_isDouble _ _
  have i2 : (p.planet.gravity s.position).y.dbl.IsDouble := Dbl.mul_isDouble _ _
  have i3 : (p.planet.gravity s.position).z.dbl.IsDouble := Dbl.mul_isDouble _ _
  exact ⟨near_zero_add hg.x i1 (dot_zero (u := M3.col1 _) hb.xx hb.yx hb.zx hz),
    near_zero_add hg.y i2 (dot_zero (u := M3.col2 _) hb.xy hb.yy hb.zy hz),
    near_zero_add hg.z i3 (dot_zero (u := M3.col3 _) hb.xz hb.yz hb.zz hz)⟩

end Post
