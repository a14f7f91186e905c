import Verif.Lemmas.SpeedF64
import Verif.Lemmas.Vec
import Verif.Spec.DoubleTrack
/-! # Lemmas: frames of reference in double precision -/

set_option exponentiation.threshold 2000

namespace Post
open Spec Flt F64
variable {L : Libm}

theorem withinOf_near {x : F64 L} {ξ e : ℝ} : WithinOf x ξ e ↔ Near x ξ e := by
  constructor
  · rintro ⟨r, ⟨q, hq, rfl⟩, h⟩
    exact ⟨q, hq, h⟩
  · rintro ⟨q, hq, h⟩
    exact ⟨q, ⟨q, hq, rfl⟩, h⟩

theorem Near.withinOf {x : F64 L} {ξ e : ℝ} (h : Near x ξ e) : WithinOf x ξ e := withinOf_near.2 h

/-- the frame of the turning planet -/
theorem planetFrame_near (hF : FrameLibrary L) {t w : F64 L} {τ ω : ℝ} (ht : Reads t τ) (hτ : |τ| ≤ 1e7)
    (hw : Near w ω 9e-21) (hω : |ω| ≤ 7.3e-5) :
    ∃ α : ℝ, |α - ω * τ| ≤ 2e-13 ∧ CloseMatrix (inertialToPlanet t w) (turnZ α) 1e-13 := by
  have hM : |ω * τ| ≤ 730 := abs_mul_le hω hτ (by norm_num)
  obtain ⟨q, hq, hq'⟩ : Near (w * t) (ω * τ) 2e-13 :=
    hw.mul (reads_near.1 ht) (A := 7.3e-5) (B := 1e7) (M := 730) hω hτ hM (by norm_num) (by norm_num)
  refine ⟨q, hq', hF.rot _ _ (turnZ_isRotation _) ?_⟩
  have hqb : |q| ≤ 1000 := by
    have h1 : |(q : ℝ)| ≤ 1000 := by
      have := Near.big hq' hM
      norm_num at this ⊢
      linarith
    have h2 : ((|q| : ℚ) : ℝ) ≤ ((1000 : ℚ) : ℝ) := by push_cast; exact h1
    exact_mod_cast h2
  have hs := (withinOf_near.1 (hF.sin _ q hq hqb)).mono (e := 1e-14) (by norm_num)
  have hc := (withinOf_near.1 (hF.cos _ q hq hqb)).mono (e := 1e-14) (by norm_num)
  have z : Near (0 : F64 L) 0 1e-14 := Near.zero.mono (by norm_num)
  have o : Near (1 : F64 L) 1 1e-14 := Near.one.mono (by norm_num)
  exact ⟨hc.withinOf, hs.withinOf, z.withinOf, hs.neg.withinOf, hc.withinOf, z.withinOf, z.withinOf, z.withinOf, o.withinOf⟩

theorem abs_entries {R : M3 ℝ} (h : R.IsRotation) :
    (|R.r1.x| ≤ 1 ∧ |R.r1.y| ≤ 1 ∧ |R.r1.z| ≤ 1) ∧ (|R.r2.x| ≤ 1 ∧ |R.r2.y| ≤ 1 ∧ |R.r2.z| ≤ 1) ∧
      (|R.r3.x| ≤ 1 ∧ |R.r3.y| ≤ 1 ∧ |R.r3.z| ≤ 1) := by
  obtain ⟨h1, h2, h3, _⟩ := h
  have key : ∀ {a b c : ℝ}, a ^ 2 + b ^ 2 + c ^ 2 = 1 → |a| ≤ 1 ∧ |b| ≤ 1 ∧ |c| ≤ 1 := by
    intro a b c h
    refine ⟨?_, ?_, ?_⟩ <;> rw [← sq_le_one_iff_abs_le_one] <;> nlinarith [sq_nonneg a, sq_nonneg b, sq_nonneg c]
  exact ⟨key h1, key h2, key h3⟩

/-- a row of a matrix times a vector -/
theorem rowDot_near {a v : V3 (F64 L)} {A r : V3 ℝ} (hx : Near a.x A.x 1e-13) (hy : Near a.y A.y 1e-13)
    (hz : Near a.z A.z 1e-13) (bx : |A.x| ≤ 1) (by' : |A.y| ≤ 1) (bz : |A.z| ≤ 1) (hv : NearV v r 0) (hr : rnorm r ≤ 1e8) :
    Near (V3.dot a v) (rdot A r) 3.5e-5 := by
  obtain ⟨ax, ay, az⟩ := comp_le_rnorm r
  replace ax := ax.trans hr
  replace ay := ay.trans hr
  replace az := az.trans hr
  have m : ∀ {c y : F64 L} {C Y : ℝ}, Near c C 1e-13 → |C| ≤ 1 → Near y Y 0 → |Y| ≤ 1e8 →
      Near (c * y) (C * Y) 1.01e-5 ∧ |C * Y| ≤ 1e8 := by
    intro c y C Y h1 h2 h3 h4
    have hb : |C * Y| ≤ 1e8 := abs_mul_le h2 h4 (by norm_num)
    exact ⟨h1.mul h3 (A := 1) (B := 1e8) (M := 1e8) h2 h4 hb (by norm_num) (by norm_num), hb⟩
  obtain ⟨m1, k1⟩ := m hx bx hv.x ax
  obtain ⟨m2, k2⟩ := m hy by' hv.y ay
  obtain ⟨m3, k3⟩ := m hz bz hv.z az
  have s1 : |A.x * r.x + A.y * r.y| ≤ 2e8 := abs_add_le' k1 k2 (by norm_num)
  have s2 : |A.x * r.x + A.y * r.y + A.z * r.z| ≤ 3e8 := abs_add_le' s1 k3 (by norm_num)
  have n1 : Near (a.x * v.x + a.y * v.y) (A.x * r.x + A.y * r.y) 2.1e-5 := m1.add m2 s1 (by norm_num) (by norm_num)
  exact n1.add m3 s2 (by norm_num) (by norm_num)

/-- a rotation matrix times a vector -/
theorem rotate_near {m : M3 (F64 L)} {R : M3 ℝ} (hR : R.IsRotation) (hm : CloseMatrix m R 1e-13) {v : V3 (F64 L)}
    {r : V3 ℝ} (hv : ReadsV v r) (hr : rnorm r ≤ 1e8) : NearV (m.mulVec v) (rmulVec R r) 3.5e-5 := by
  obtain ⟨⟨a, b, c⟩, ⟨d, e, f⟩, g, h, i⟩ := abs_entries hR
  have hv' := readsV_near hv
  exact ⟨rowDot_near (withinOf_near.1 hm.xx) (withinOf_near.1 hm.xy) (withinOf_near.1 hm.xz) a b c hv' hr,
    rowDot_near (withinOf_near.1 hm.yx) (withinOf_near.1 hm.yy) (withinOf_near.1 hm.yz) d e f hv' hr,
    rowDot_near (withinOf_near.1 hm.zx) (withinOf_near.1 hm.zy) (withinOf_near.1 hm.zz) g h i hv' hr⟩

theorem abs_sin_sub_le (a b : ℝ) : |Real.sin a - Real.sin b| ≤ |a - b| := by
  rw [Real.sin_sub_sin, abs_mul, abs_mul]
  have h1 := Real.abs_sin_le_abs (x := (a - b) / 2)
  have h2 := Real.abs_cos_le_one ((a + b) / 2)
  rw [abs_div, abs_two] at h1
  rw [abs_two]
  calc 2 * |Real.sin ((a - b) / 2)| * |Real.cos ((a + b) / 2)| ≤ 2 * (|a - b| / 2) * 1 := by
        gcongr
    _ = |a - b| := by ring

theorem abs_cos_sub_le (a b : ℝ) : |Real.cos a - Real.cos b| ≤ |a - b| := by
  have := abs_sin_sub_le (Real.pi / 2 - a) (Real.pi / 2 - b)
  rw [Real.sin_pi_div_two_sub, Real.sin_pi_div_two_sub] at this
  rw [show Real.pi / 2 - a - (Real.pi / 2 - b) = -(a - b) by ring, abs_neg] at this
  exact this

theorem turnZ_close {α β d : ℝ} (h : |α - β| ≤ d) (r : V3 ℝ) (hr : rnorm r ≤ 1e8) :
    |(rmulVec (turnZ α) r).x - (rmulVec (turnZ β) r).x| ≤ 2e8 * d ∧
    |(rmulVec (turnZ α) r).y - (rmulVec (turnZ β) r).y| ≤ 2e8 * d ∧
    (rmulVec (turnZ α) r).z = (rmulVec (turnZ β) r).z := by
  obtain ⟨ax, ay, az⟩ := comp_le_rnorm r
  replace ax := ax.trans hr
  replace ay := ay.trans hr
  have hs := (abs_sin_sub_le α β).trans h
  have hc := (abs_cos_sub_le α β).trans h
  simp only [rmulVec, rdot, turnZ]
  refine ⟨?_, ?_, trivial⟩
  · rw [show Real.cos α * r.x + Real.sin α * r.y + 0 * r.z - (Real.cos β * r.x + Real.sin β * r.y + 0 * r.z) =
      (Real.cos α - Real.cos β) * r.x + (Real.sin α - Real.sin β) * r.y by ring]
    refine abs_add_le' (abs_mul_le hc ax le_rfl) (abs_mul_le hs ay le_rfl) (le_of_eq (by ring))
  · rw [show -Real.sin α * r.x + Real.cos α * r.y + 0 * r.z - (-Real.sin β * r.x + Real.cos β * r.y + 0 * r.z) =
      -(Real.sin α - Real.sin β) * r.x + (Real.cos α - Real.cos β) * r.y by ring]
    have hs' : |-(Real.sin α - Real.sin β)| ≤ d := by rw [abs_neg]; exact hs
    refine abs_add_le' (abs_mul_le hs' ax le_rfl) (abs_mul_le hc ay le_rfl) (le_of_eq (by ring))

/-- the position in the frame of the turning Earth -/
theorem positionPlanet_near (hF : FrameLibrary L) {P : Planet (F64 L)} {Q : Planet XR} (hP : SameEarth P Q) {ω : ℝ}
    (hω : Q.rotationRate = .fin ω) {t : F64 L} {τ : ℝ} (ht : Reads t τ) (hτ : |τ| ≤ 1e7) {v : V3 (F64 L)} {r : V3 ℝ}
    (hv : ReadsV v r) (hr : rnorm r ≤ 1e8) :
    NearV ((inertialToPlanet t P.rotationRate).mulVec v) (rmulVec (turnZ (ω * τ)) r) 8e-5 := by
  obtain ⟨hω1, hω2⟩ := sameEarth_rate hP hω
  have hωa : |ω| ≤ 7.3e-5 := by rw [hω1]; norm_num [abs_of_pos]
  obtain ⟨α, h1, h2⟩ := planetFrame_near hF ht hτ hω2 hωa
  obtain ⟨nx, ny, nz⟩ := rotate_near (turnZ_isRotation α) h2 hv hr
  obtain ⟨dx, dy, dz⟩ := turnZ_close h1 r hr
  exact ⟨nx.move dx (by norm_num), ny.move dy (by norm_num), (nz.mono (by norm_num)).congr dz⟩

end Post
