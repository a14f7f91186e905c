import Verif.Lemmas.LaunchF64
import Verif.Spec.DoubleAttitude
import Verif.Props.Steering
/-! # Lemmas: attitude in double precision -/

set_option exponentiation.threshold 2000

namespace Post
open Spec Flt F64
variable {L : Libm}

/-! ## The steering polynomial -/

/-- one term of the steering polynomial -/
theorem term_near (hL : GoodLibrary L) {c y : F64 L} {C Y : ℝ} (hc : Reads c C) (hy : Reads y Y) (hC : |C| ≤ 1e9)
    (hY : |Y| ≤ 1e9) {n : ℕ} (hn : n ≤ 3) {T : ℝ} (hT : |C * Y ^ n| ≤ T) (hT' : T ≤ 1e6) :
    Near (c * powi y n) (C * Y ^ n) (1.13e-15 * T + 2e-31) := by
  have hp : Near (powi y n) (Y ^ n) (1e-15 * |Y| ^ n + 1e-40) := by
    refine (reads_near.1 hy).powi hL n (by omega) (A := |Y|) le_rfl ?_ ?_
    · norm_num at *
      linarith
    · simp
  have hT0 : 0 ≤ T := (abs_nonneg _).trans hT
  have hAB : |C| * |Y| ^ n ≤ T := by rwa [abs_mul, abs_pow] at hT
  have h1 : |C| * (1e-15 * |Y| ^ n + 1e-40) ≤ 1e-15 * T + 1e-31 := by
    have : |C| * (1e-15 * |Y| ^ n + 1e-40) = 1e-15 * (|C| * |Y| ^ n) + 1e-40 * |C| := by ring
    rw [this]
    norm_num at *
    linarith
  refine (reads_near.1 hc).mul hp (A := |C|) (B := |Y| ^ n) (M := T) le_rfl (by rw [abs_pow]) hT ?_ ?_
  · generalize |C| * (1e-15 * |Y| ^ n + 1e-40) = X at *
    norm_num at *
    linarith
  · generalize |C| * (1e-15 * |Y| ^ n + 1e-40) = X at *
    norm_num at *
    linarith

theorem sum4_near {x0 x1 x2 x3 : F64 L} {v0 v1 v2 v3 T0 T1 T2 T3 T : ℝ} (h0 : Near x0 v0 (1.13e-15 * T0 + 2e-31))
    (h1 : Near x1 v1 (1.13e-15 * T1 + 2e-31)) (h2 : Near x2 v2 (1.13e-15 * T2 + 2e-31))
    (h3 : Near x3 v3 (1.13e-15 * T3 + 2e-31)) (k0 : |v0| ≤ T0) (k1 : |v1| ≤ T1) (k2 : |v2| ≤ T2) (k3 : |v3| ≤ T3)
    (hT : T0 + T1 + T2 + T3 ≤ T) (hT' : T ≤ 1e6) :
    Near (0 + x0 + x1 + x2 + x3) (v0 + v1 + v2 + v3) (1.7e-15 * T + 1.2e-30) := by
  have p0 : 0 ≤ T0 := (abs_nonneg _).trans k0
  have p1 : 0 ≤ T1 := (abs_nonneg _).trans k1
  have p2 : 0 ≤ T2 := (abs_nonneg _).trans k2
  have p3 : 0 ≤ T3 := (abs_nonneg _).trans k3
  have b1 : |v0 + v1| ≤ T0 + T1 := abs_add_le' k0 k1 le_rfl
  have b2 : |v0 + v1 + v2| ≤ T0 + T1 + T2 := abs_add_le' b1 k2 le_rfl
  have b3 : |v0 + v1 + v2 + v3| ≤ T := abs_add_le' b2 k3 hT
  have z : Near (0 + x0) (0 + v0) (1.26e-15 * T0 + 3e-31) := by
    refine Near.zero.add h0 (M := T0) (by rwa [zero_add]) ?_ ?_ <;> clear h0 h1 h2 h3 <;> norm_num at * <;> linarith
  rw [zero_add v0] at z
  have s1 : Near (0 + x0 + x1) (v0 + v1) (1.4e-15 * (T0 + T1) + 6e-31) := by
    refine z.add h1 b1 ?_ ?_ <;> clear h0 h1 h2 h3 z <;> norm_num at * <;> linarith
  have s2 : Near (0 + x0 + x1 + x2) (v0 + v1 + v2) (1.54e-15 * (T0 + T1 + T2) + 9e-31) := by
    refine s1.add h2 b2 ?_ ?_ <;> clear h0 h1 h2 h3 z s1 <;> norm_num at * <;> linarith
  refine s2.add h3 b3 ?_ ?_ <;> clear h0 h1 h2 h3 z s1 s2 <;> norm_num at * <;> linarith

/-- the steering polynomial, in radians; `T` bounds the sum of the sizes of its terms in degrees -/
theorem axisAngle_near (hL : GoodLibrary L) {a : Axis (F64 L)} {s : State (F64 L)} {y c0 c1 c2 c3 : ℝ}
    (hy : Reads (a.var.getValue s) y) (h0 : Reads a.c0 c0) (h1 : Reads a.c1 c1) (h2 : Reads a.c2 c2) (h3 : Reads a.c3 c3)
    (hY : |y| ≤ 1e9) (hc0 : |c0| ≤ 1e9) (hc1 : |c1| ≤ 1e9) (hc2 : |c2| ≤ 1e9) (hc3 : |c3| ≤ 1e9) {T : ℝ}
    (hT : |c0| + |c1 * y| + |c2 * y ^ 2| + |c3 * y ^ 3| ≤ T) (hT' : T ≤ 1e6) :
    Near (a.angle s) (rad (cubic c0 c1 c2 c3 y)) (4.5e-17 * T + 1e-30) := by
  have k0 := abs_nonneg c0
  have k1 := abs_nonneg (c1 * y)
  have k2 := abs_nonneg (c2 * y ^ 2)
  have k3 := abs_nonneg (c3 * y ^ 3)
  have t0 := term_near hL h0 hy hc0 hY (n := 0) (by norm_num) (T := |c0|) (by simp) (by linarith)
  have t1 := term_near hL h1 hy hc1 hY (n := 1) (by norm_num) (T := |c1 * y|) (by simp) (by linarith)
  have t2 := term_near hL h2 hy hc2 hY (n := 2) (by norm_num) (T := |c2 * y ^ 2|) le_rfl (by linarith)
  have t3 := term_near hL h3 hy hc3 hY (n := 3) (by norm_num) (T := |c3 * y ^ 3|) le_rfl (by linarith)
  have b3 : |c0 + c1 * y + c2 * y ^ 2 + c3 * y ^ 3| ≤ T :=
    abs_add_le' (abs_add_le' (abs_add_le' le_rfl le_rfl le_rfl) le_rfl le_rfl) le_rfl hT
  rw [pow_zero, mul_one] at t0
  rw [pow_one] at t1
  have s3 := sum4_near t0 t1 t2 t3 le_rfl le_rfl le_rfl le_rfl hT hT'
  have hpi := Real.pi_lt_d4
  have hpi0 := Real.pi_pos
  have hd : |Real.pi / 180| ≤ 0.01746 := by
    rw [abs_of_pos (by positivity)]
    norm_num at *
    linarith
  have hT0 : 0 ≤ T := by linarith
  refine s3.mul degree_near (A := T) (B := 0.01746) (M := 0.01746 * T) b3 hd ?_ ?_ ?_
  · rw [abs_mul, mul_comm]
    exact mul_le_mul hd b3 (abs_nonneg _) (by norm_num)
  · norm_num at *
    nlinarith
  · norm_num at *
    nlinarith

/-- conversion to degrees -/
theorem toDegrees_near {x : F64 L} {φ : ℝ} (hx : Reads x φ) (hφ : |φ| ≤ 1000) :
    Near (toDegrees x) (φ * (180 / Real.pi)) (2.5e-14 * |φ| + 1e-39) := by
  have h3 := Real.pi_gt_d4
  have h0 := Real.pi_pos
  have hk : |180 / Real.pi| ≤ 57.3 := by
    rw [abs_of_pos (by positivity), div_le_iff₀ h0]
    norm_num at *
    linarith
  have h : Near (180 : F64 L) 180 0 := by simpa using Near.nat (L := L) 180 (by norm_num)
  have hd : Near (180 / Flt.pi : F64 L) (180 / Real.pi) 1.8e-14 := by
    refine h.div pi_near (b := 3.14) (M := 57.3) (by norm_num) ?_ (by norm_num) hk (by norm_num) (by norm_num)
    rw [abs_of_pos h0]
    norm_num at *
    linarith
  have hφ0 := abs_nonneg φ
  refine (reads_near.1 hx).mul hd (A := |φ|) (B := 57.3) (M := 57.3 * |φ|) le_rfl hk ?_ ?_ ?_
  · rw [abs_mul, mul_comm]
    exact mul_le_mul_of_nonneg_right hk hφ0
  · norm_num at *
    linarith [abs_nonneg φ]
  · norm_num at *
    linarith [abs_nonneg φ]

/-! ## Rotation matrices -/

theorem near_of_reads {x : F64 L} {ξ : ℝ} (h : Reads x ξ) (hξ : |ξ| ≤ 1000) (hF : FrameLibrary L) :
    (Near (Flt.sin x) (Real.sin ξ) 1e-15 ∧ |Real.sin ξ| ≤ 1) ∧ Near (Flt.cos x) (Real.cos ξ) 1e-15 ∧ |Real.cos ξ| ≤ 1 := by
  obtain ⟨q, hq, rfl⟩ := h
  have hq' : |q| ≤ 1000 := by
    have : ((|q| : ℚ) : ℝ) ≤ ((1000 : ℚ) : ℝ) := by push_cast; exact hξ
    exact_mod_cast this
  exact ⟨⟨withinOf_near.1 (hF.sin _ _ hq hq'), Real.abs_sin_le_one _⟩, withinOf_near.1 (hF.cos _ _ hq hq'),
    Real.abs_cos_le_one _⟩

/-- a double near a real number of size at most one -/
def Unit1 (x : F64 L) (ξ e : ℝ) : Prop := Near x ξ e ∧ |ξ| ≤ 1

theorem Unit1.mul1 {x y : F64 L} {ξ η a b e : ℝ} (hx : Unit1 x ξ a) (hy : Unit1 y η b) (ha : a ≤ 1e-10)
    (hb : b ≤ 1e-10) (he : a + b + a * b + 1.21e-16 ≤ e) : Unit1 (x * y) (ξ * η) e := by
  have hm : |ξ * η| ≤ 1 := abs_mul_le hx.2 hy.2 (by norm_num)
  have h0 := hx.1.nonneg
  have h1 := hy.1.nonneg
  have h2 : a * b ≤ 1e-10 := by
    calc a * b ≤ 1e-10 * 1 := mul_le_mul ha (hb.trans (by norm_num)) h1 (by norm_num)
      _ = _ := by norm_num
  refine ⟨hx.1.mul hy.1 (A := 1) (B := 1) (M := 1) hx.2 hy.2 hm ?_ ?_, hm⟩
  · norm_num at *
    linarith
  · norm_num at *
    linarith

theorem Unit1.neg1 {x : F64 L} {ξ a : ℝ} (hx : Unit1 x ξ a) : Unit1 (-x) (-ξ) a := ⟨hx.1.neg, by rw [abs_neg]; exact hx.2⟩

theorem Unit1.entry {x : F64 L} {ξ η a : ℝ} (hx : Unit1 x ξ a) (h : ξ = η) (ha : a ≤ 1e-14) : WithinOf x η 1e-14 :=
  ((hx.1.congr h).mono ha).withinOf

theorem Unit1.entry_add {x y : F64 L} {ξ η ζ : ℝ} (hx : Unit1 x ξ 3.3e-15) (hy : Unit1 y η 3.3e-15) (h : ξ + η = ζ) :
    WithinOf (x + y) ζ 1e-14 := by
  have hm : |ξ + η| ≤ 2 := abs_add_le' hx.2 hy.2 (by norm_num)
  refine ((hx.1.add hy.1 (M := 2) hm (e := 1e-14) ?_ ?_).congr h).withinOf <;> norm_num

theorem Unit1.entry_sub {x y : F64 L} {ξ η ζ : ℝ} (hx : Unit1 x ξ 3.3e-15) (hy : Unit1 y η 3.3e-15) (h : ξ - η = ζ) :
    WithinOf (x - y) ζ 1e-14 := by
  have hm : |ξ - η| ≤ 2 := by
    rw [sub_eq_add_neg]
    have hy' : |-η| ≤ 1 := by rw [abs_neg]; exact hy.2
    exact abs_add_le' hx.2 hy' (by norm_num)
  refine ((hx.1.sub hy.1 (M := 2) hm (e := 1e-14) ?_ ?_).congr h).withinOf <;> norm_num

theorem Unit1.two {x y : F64 L} {ξ η : ℝ} (hx : Unit1 x ξ 1e-15) (hy : Unit1 y η 1e-15) : Unit1 (x * y) (ξ * η) 2.13e-15 :=
  hx.mul1 hy (by norm_num) (by norm_num) (by norm_num)

theorem Unit1.three {x y : F64 L} {ξ η : ℝ} (hx : Unit1 x ξ 2.13e-15) (hy : Unit1 y η 1e-15) :
    Unit1 (x * y) (ξ * η) 3.3e-15 :=
  hx.mul1 hy (by norm_num) (by norm_num) (by norm_num)

theorem Unit1.up {x : F64 L} {ξ a e : ℝ} (hx : Unit1 x ξ a) (h : a ≤ e) : Unit1 x ξ e := ⟨hx.1.mono h, hx.2⟩

theorem euler_isRotation (roll yaw pitch : ℝ) : (rmul (turnY pitch) (rmul (turnZ yaw) (turnX roll))).IsRotation :=
  (turnY_isRotation _).mul ((turnZ_isRotation _).mul (turnX_isRotation _))

/-- the attitude relative to the launch frame -/
theorem launchToBody_near (hF : FrameLibrary L) {roll yaw pitch : F64 L} {ρ ψ θ : ℝ} (h1 : Reads roll ρ)
    (h2 : Reads yaw ψ) (h3 : Reads pitch θ) (b1 : |ρ| ≤ 1000) (b2 : |ψ| ≤ 1000) (b3 : |θ| ≤ 1000) :
    CloseMatrix (launchToBody roll yaw pitch) (rmul (turnY θ) (rmul (turnZ ψ) (turnX ρ))) 1e-13 := by
  refine hF.rot _ _ (euler_isRotation _ _ _) ?_
  obtain ⟨sr, cr⟩ := near_of_reads h1 b1 hF
  obtain ⟨sy, cy⟩ := near_of_reads h2 b2 hF
  obtain ⟨sp, cp⟩ := near_of_reads h3 b3 hF
  change Unit1 _ _ _ at sr cr sy cy sp cp
  constructor <;> simp only [launchToBodyMat, rmul, rdot, turnX, turnY, turnZ, M3.col1, M3.col2, M3.col3]
  · exact (cy.two cp).entry (by ring) (by norm_num)
  · exact ((cr.two sy).three cp).entry_add ((sr.two sp).up (by norm_num)) (by ring)
  · exact ((sr.two sy).three cp).entry_sub ((cr.two sp).up (by norm_num)) (by ring)
  · exact (sy.neg1).entry (by ring) (by norm_num)
  · exact (cr.two cy).entry (by ring) (by norm_num)
  · exact (sr.two cy).entry (by ring) (by norm_num)
  · exact (cy.two sp).entry (by ring) (by norm_num)
  · exact ((cr.two sy).three sp).entry_sub ((sr.two cp).up (by norm_num)) (by ring)
  · exact ((sr.two sy).three sp).entry_add ((cr.two cp).up (by norm_num)) (by ring)

/-- the launch frame -/
theorem inertialToLaunch_near (hF : FrameLibrary L) {lat long az : F64 L} {φ l α : ℝ} (h1 : Reads lat φ)
    (h2 : Reads long l) (h3 : Reads az α) (b1 : |φ| ≤ 1000) (b2 : |l| ≤ 1000) (b3 : |α| ≤ 1000) :
    CloseMatrix (inertialToLaunch lat long az) (launchAxes φ l α) 1e-13 := by
  refine hF.rot _ _ (launchMat_isRotation _ _ _) ?_
  obtain ⟨sf, cf⟩ := near_of_reads h1 b1 hF
  obtain ⟨sl, cl⟩ := near_of_reads h2 b2 hF
  obtain ⟨sa, ca⟩ := near_of_reads h3 b3 hF
  change Unit1 _ _ _ at sf cf sl cl sa ca
  constructor <;> simp only [inertialToLaunchMat, launchAxes, rmul, rdot, turnX, up, east, north, M3.col1, M3.col2, M3.col3,
    Real.sin_neg, Real.cos_neg]
  · exact (cf.two cl).entry (by ring) (by norm_num)
  · exact (cf.two sl).entry (by ring) (by norm_num)
  · exact sf.entry (by ring) (by norm_num)
  · exact ((sf.two cl).three sa).entry_sub ((ca.two sl).up (by norm_num)) (by ring)
  · exact ((ca.two cl).up (by norm_num)).entry_add ((sa.two sf).three sl) (by ring)
  · exact (sa.neg1.two cf).entry (by ring) (by norm_num)
  · exact ((sa.neg1.two sl).up (by norm_num)).entry_sub ((ca.two sf).three cl) (by ring)
  · exact ((sa.two cl).up (by norm_num)).entry_sub ((ca.two sf).three sl) (by ring)
  · exact (ca.two cf).entry (by ring) (by norm_num)

theorem Unit1.entry_dot {a b c a' b' c' : F64 L} {α β γ α' β' γ' : ℝ} (h1 : Unit1 a α 1e-13) (h2 : Unit1 b β 1e-13)
    (h3 : Unit1 c γ 1e-13) (k1 : Unit1 a' α' 1e-13) (k2 : Unit1 b' β' 1e-13) (k3 : Unit1 c' γ' 1e-13) :
    WithinOf (a * a' + b * b' + c * c') (α * α' + β * β' + γ * γ') 7e-13 := by
  have m1 : Unit1 _ _ 2.01e-13 := h1.mul1 k1 (by norm_num) (by norm_num) (by norm_num)
  have m2 : Unit1 _ _ 2.01e-13 := h2.mul1 k2 (by norm_num) (by norm_num) (by norm_num)
  have m3 : Unit1 _ _ 2.01e-13 := h3.mul1 k3 (by norm_num) (by norm_num) (by norm_num)
  have s1 : |α * α' + β * β'| ≤ 2 := abs_add_le' m1.2 m2.2 (by norm_num)
  have s2 : |α * α' + β * β' + γ * γ'| ≤ 3 := abs_add_le' s1 m3.2 (by norm_num)
  have n1 : Near (a * a' + b * b') (α * α' + β * β') 4.03e-13 := m1.1.add m2.1 s1 (by norm_num) (by norm_num)
  exact (n1.add m3.1 s2 (e := 7e-13) (by norm_num) (by norm_num)).withinOf

/-- the product of two rotations -/
theorem mul_near {m n : M3 (F64 L)} {R S : M3 ℝ} (hm : CloseMatrix m R 1e-13) (hn : CloseMatrix n S 1e-13)
    (hR : R.IsRotation) (hS : S.IsRotation) : CloseMatrix (m * n) (rmul R S) 7e-13 := by
  obtain ⟨⟨a, b, c⟩, ⟨d, e, f⟩, g, h, i⟩ := abs_entries hR
  obtain ⟨⟨a', b', c'⟩, ⟨d', e', f'⟩, g', h', i'⟩ := abs_entries hS
  have u : ∀ {x : F64 L} {ξ : ℝ}, WithinOf x ξ 1e-13 → |ξ| ≤ 1 → Unit1 x ξ 1e-13 := fun h1 h2 => ⟨withinOf_near.1 h1, h2⟩
  have a := u hm.xx a
  have b := u hm.xy b
  have c := u hm.xz c
  have d := u hm.yx d
  have e := u hm.yy e
  have f := u hm.yz f
  have g := u hm.zx g
  have h := u hm.zy h
  have i := u hm.zz i
  have a' := u hn.xx a'
  have b' := u hn.xy b'
  have c' := u hn.xz c'
  have d' := u hn.yx d'
  have e' := u hn.yy e'
  have f' := u hn.yz f'
  have g' := u hn.zx g'
  have h' := u hn.zy h'
  have i' := u hn.zz i'
  exact ⟨a.entry_dot b c a' d' g', a.entry_dot b c b' e' h', a.entry_dot b c c' f' i',
    d.entry_dot e f a' d' g', d.entry_dot e f b' e' h', d.entry_dot e f c' f' i',
    g.entry_dot h i a' d' g', g.entry_dot h i b' e' h', g.entry_dot h i c' f' i'⟩

theorem bodyFrame_isRotation (lat long az roll yaw pitch : ℝ) : (bodyFrame lat long az roll yaw pitch).IsRotation :=
  (euler_isRotation _ _ _).mul (launchMat_isRotation _ _ _)

theorem bodyRotation_near (hF : FrameLibrary L) {p : Phase (F64 L)} {s : State (F64 L)} {lat long az roll yaw pitch : ℝ}
    (hp : LaunchAngles p lat long az) (hs : AttitudeAngles s roll yaw pitch) :
    CloseMatrix (inertialToBody p.launch s.eulerAngles) (bodyFrame lat long az roll yaw pitch) 7e-13 := by
  obtain ⟨⟨h1, h2, h3⟩, h4, h5, h6⟩ := hp
  obtain ⟨⟨k1, k2, k3⟩, k4, k5, k6⟩ := hs
  exact mul_near (launchToBody_near hF k1 k2 k3 k4 k5 k6) (inertialToLaunch_near hF h1 h2 h3 h4 h5 h6)
    (euler_isRotation _ _ _) (launchMat_isRotation _ _ _)

/-- a row of a matrix times a vector of size at most `B` -/
theorem rowDot_near' {a v : V3 (F64 L)} {A r : V3 ℝ} (hx : Near a.x A.x 7e-13) (hy : Near a.y A.y 7e-13)
    (hz : Near a.z A.z 7e-13) (bx : |A.x| ≤ 1) (by' : |A.y| ≤ 1) (bz : |A.z| ≤ 1) (hv : NearV v r 0) {B : ℝ}
    (hr : rnorm r ≤ B) (hB : B ≤ 1e8) : Near (V3.dot a v) (rdot A r) (2.2e-12 * B + 1e-38) := by
  obtain ⟨ax, ay, az⟩ := comp_le_rnorm r
  replace ax := ax.trans hr
  replace ay := ay.trans hr
  replace az := az.trans hr
  have hB0 : 0 ≤ B := (abs_nonneg _).trans ax
  have m : ∀ {c y : F64 L} {C Y : ℝ}, Near c C 7e-13 → |C| ≤ 1 → Near y Y 0 → |Y| ≤ B →
      Near (c * y) (C * Y) (7.01e-13 * B + 2e-40) ∧ |C * Y| ≤ B := by
    intro c y C Y h1 h2 h3 h4
    have hb : |C * Y| ≤ B := abs_mul_le h2 h4 (by linarith)
    refine ⟨h1.mul h3 (A := 1) (B := B) (M := B) h2 h4 hb ?_ ?_, hb⟩ <;> norm_num at * <;> linarith
  obtain ⟨m1, k1⟩ := m hx bx hv.x ax
  obtain ⟨m2, k2⟩ := m hy by' hv.y ay
  obtain ⟨m3, k3⟩ := m hz bz hv.z az
  have s1 : |A.x * r.x + A.y * r.y| ≤ 2 * B := abs_add_le' k1 k2 (by linarith)
  have s2 : |A.x * r.x + A.y * r.y + A.z * r.z| ≤ 3 * B := abs_add_le' s1 k3 (by linarith)
  have n1 : Near (a.x * v.x + a.y * v.y) (A.x * r.x + A.y * r.y) (1.41e-12 * B + 1e-39) := by
    refine m1.add m2 s1 ?_ ?_ <;> norm_num at * <;> linarith
  refine n1.add m3 s2 ?_ ?_ <;> norm_num at * <;> linarith

theorem rotate_near' {m : M3 (F64 L)} {R : M3 ℝ} (hR : R.IsRotation) (hm : CloseMatrix m R 7e-13) {v : V3 (F64 L)}
    {r : V3 ℝ} (hv : ReadsV v r) {B : ℝ} (hr : rnorm r ≤ B) (hB : B ≤ 1e8) :
    NearV (m.mulVec v) (rmulVec R r) (2.2e-12 * B + 1e-38) := by
  obtain ⟨⟨a, b, c⟩, ⟨d, e, f⟩, g, h, i⟩ := abs_entries hR
  have hv' := readsV_near hv
  exact ⟨rowDot_near' (withinOf_near.1 hm.xx) (withinOf_near.1 hm.xy) (withinOf_near.1 hm.xz) a b c hv' hr hB,
    rowDot_near' (withinOf_near.1 hm.yx) (withinOf_near.1 hm.yy) (withinOf_near.1 hm.yz) d e f hv' hr hB,
    rowDot_near' (withinOf_near.1 hm.zx) (withinOf_near.1 hm.zy) (withinOf_near.1 hm.zz) g h i hv' hr hB⟩

theorem unrotate_near {m : M3 (F64 L)} {R : M3 ℝ} (hR : R.IsRotation) (hm : CloseMatrix m R 7e-13) {v : V3 (F64 L)}
    {r : V3 ℝ} (hv : ReadsV v r) {B : ℝ} (hr : rnorm r ≤ B) (hB : B ≤ 1e8) :
    NearV (m.transpose.mulVec v) (rmulVecT R r) (2.2e-12 * B + 1e-38) := by
  obtain ⟨⟨a, b, c⟩, ⟨d, e, f⟩, g, h, i⟩ := abs_entries hR
  have hv' := readsV_near hv
  exact ⟨rowDot_near' (a := m.col1) (A := R.col1) (withinOf_near.1 hm.xx) (withinOf_near.1 hm.yx) (withinOf_near.1 hm.zx) a d g hv' hr hB,
    rowDot_near' (a := m.col2) (A := R.col2) (withinOf_near.1 hm.xy) (withinOf_near.1 hm.yy) (withinOf_near.1 hm.zy) b e h hv' hr hB,
    rowDot_near' (a := m.col3) (A := R.col3) (withinOf_near.1 hm.xz) (withinOf_near.1 hm.yz) (withinOf_near.1 hm.zz) c f i hv' hr hB⟩

/-! ## The angle of attack -/

theorem nearlyZero_near : Near (NEARLY_ZERO : F64 L) 1e-6 1e-21 := by
  refine Near.lit 1 true 6 (by norm_num) ?_ ?_ <;> norm_num

theorem alpha_near (hA : LaunchLibrary L) {v : V3 (F64 L)} {w : V3 ℝ} {δ D : ℝ} (hv : NearV v w δ) (hx : 1e-3 ≤ w.x)
    (hz : |w.z| ≤ 1e4 * w.x) (hδ : δ ≤ D * w.x)
    (hD : D ≤ 1e-8) :
    WithinOf (Vehicle.alpha v) (Real.arctan (w.z / w.x)) (6.1 * D + 2e-15) := by
  have hx0 : 0 < w.x := lt_of_lt_of_le (by norm_num) hx
  have hδ0 := hv.x.nonneg
  have hD0 : 0 ≤ D := by
    by_contra h
    nlinarith
  have hδx : δ ≤ 1e-8 * w.x := hδ.trans (mul_le_mul_of_nonneg_right hD hx0.le)
  have hlt : Flt.lt v.x (NEARLY_ZERO : F64 L) = false := by
    obtain ⟨p, h1, h2⟩ := hv.x
    obtain ⟨q, h3, h4⟩ := nearlyZero_near (L := L)
    rw [is_lt h1 h3, decide_eq_false_iff_not, not_lt]
    have h5 := (abs_le.1 h2).1
    have h6 := (abs_le.1 h4).2
    have : (q : ℝ) ≤ p := by
      generalize (q : ℝ) = a at *
      generalize (p : ℝ) = b at *
      norm_num at *
      linarith
    exact_mod_cast this
  unfold Vehicle.alpha
  rw [hlt, if_neg (by simp)]
  set t := |w.z / w.x| with ht
  have ht0 : 0 ≤ t := abs_nonneg _
  have hq : 2 * (δ + t * δ) / w.x ≤ 2 * D * (1 + t) := by
    rw [div_le_iff₀ hx0]
    calc 2 * (δ + t * δ) = 2 * (1 + t) * δ := by ring
      _ ≤ 2 * (1 + t) * (D * w.x) := mul_le_mul_of_nonneg_left hδ (by positivity)
      _ = _ := by ring
  have hbig : t ≤ 1e4 := by
    rw [ht, abs_div, abs_of_pos hx0, div_le_iff₀ hx0]
    exact hz
  · have hd : Near (v.z / v.x) (w.z / w.x) ((2.01 * D + 1.3e-16) * t + (2.01 * D + 1e-30)) := by
      have hDt : D * t ≤ 1e-8 * t := mul_le_mul_of_nonneg_right hD ht0
      have hDt0 : 0 ≤ D * t := mul_nonneg hD0 ht0
      refine hv.z.div hv.x (b := w.x) (M := t) hx0 (le_abs_self _) ?_ le_rfl ?_ ?_
      · norm_num at *
        linarith
      · refine (add_le_add_left (add_le_add hq (mul_le_mul_of_nonneg_left (add_le_add_right hq t) (by norm_num))) _).trans ?_
        clear hq
        ring_nf at *
        norm_num at *
        linarith
      · refine (add_le_add_right hq _).trans ?_
        ring_nf at *
        norm_num at *
        linarith
    obtain ⟨q, h1, h2⟩ := hd
    obtain ⟨r, h3, h4⟩ := hA.atan _ q h1
    refine ⟨r, h3, ?_⟩
    have h5 := arctan_perturb h2 (by positivity) (by norm_num at *; linarith) (by positivity) (by norm_num at *; linarith)
    have h6 := abs_sub_le r (Real.arctan q) (Real.arctan (w.z / w.x))
    norm_num at *
    linarith

end Post
