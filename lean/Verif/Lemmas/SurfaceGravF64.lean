import Verif.Lemmas.GravF64
/-! # Gravity of the Earth in double precision down to the surface

The estimate of `GravF64` once more, with the bounds that hold from 6350 km on. -/

namespace Post
open Spec Flt F64

section
variable {L : Libm} {p : Planet (F64 L)} {a μ j2 j3 j4 : ℝ} {v : V3 (F64 L)} {r : V3 ℝ}

theorem norm_near_surface (hv : NearV v r 0) (h1 : 6.35e6 ≤ rnorm r) (h2 : rnorm r ≤ 2e7) :
    Near v.norm (rnorm r) 5e-8 := by
  obtain ⟨bx, by', bz⟩ := comp_le_rnorm r
  have hsq := rnorm_sq r
  have hb : rnorm r ^ 2 ≤ 4e14 := by
    norm_num at *
    nlinarith
  have nx := sq_nonneg r.x
  have ny := sq_nonneg r.y
  have nz := sq_nonneg r.z
  have hx : Near (v.x * v.x) (r.x * r.x) 0.05 :=
    hv.x.mul hv.x (bx.trans h2) (bx.trans h2) (M := 4e14)
      (by rw [abs_of_nonneg (by nlinarith)]; nlinarith) (by norm_num) (by norm_num)
  have hy : Near (v.y * v.y) (r.y * r.y) 0.05 :=
    hv.y.mul hv.y (by'.trans h2) (by'.trans h2) (M := 4e14)
      (by rw [abs_of_nonneg (by nlinarith)]; nlinarith) (by norm_num) (by norm_num)
  have hz : Near (v.z * v.z) (r.z * r.z) 0.05 :=
    hv.z.mul hv.z (bz.trans h2) (bz.trans h2) (M := 4e14)
      (by rw [abs_of_nonneg (by nlinarith)]; nlinarith) (by norm_num) (by norm_num)
  have hxy := hx.add hy (M := 4e14) (e := 0.15)
    (by rw [abs_of_nonneg (by nlinarith)]; nlinarith) (by norm_num) (by norm_num)
  have hs := hxy.add hz (M := 4e14) (e := 0.25)
    (by rw [abs_of_nonneg (by nlinarith)]; nlinarith) (by norm_num) (by norm_num)
  have e0 : r.x * r.x + r.y * r.y + r.z * r.z = r.x ^ 2 + r.y ^ 2 + r.z ^ 2 := by ring
  rw [e0] at hs
  exact hs.sqrt (b := 6.35e6) (M := 2e7) (by norm_num) h1 (by norm_num) h2 (by norm_num)

/-- Gravity of the Earth in double precision is within 3e-11 m/s² of the exact one, also on the surface. -/
theorem gravity_near_surface (hL : GoodLibrary L) (hp : NearEarth p a μ j2 j3 j4) (hv : NearV v r 0)
    (h1 : 6.35e6 ≤ rnorm r) (h2 : rnorm r ≤ 2e7) :
    NearV (p.gravity v) (grav a μ j2 j3 j4 r) 3e-11 := by
  obtain ⟨bx, by', bz⟩ := comp_le_rnorm r
  have hn := norm_near_surface hv h1 h2
  have hρ0 : 0 < rnorm r := lt_of_lt_of_le (by norm_num) h1
  unfold Planet.gravity grav gravP gravQ Planet.mu
  simp only
  set N := v.norm with hN
  set ρ := rnorm r with hρ
  set u := a / ρ with hu
  set w := r.z / ρ with hw
  have hu1 : |u| ≤ 1.005 := by
    rw [hu, abs_div, abs_of_pos hρ0, abs_of_nonneg hp.a0, div_le_iff₀ hρ0]
    refine hp.a1.trans ?_
    norm_num at h1 ⊢
    linarith
  have hw1 : |w| ≤ 1 := by
    rw [hw, abs_div, abs_of_pos hρ0, div_le_one hρ0]
    exact bz
  have hw2 : |w ^ 2| ≤ 1 := by rw [abs_pow]; exact pow_le_one₀ (abs_nonneg _) hw1
  have hw4 : |w ^ 4| ≤ 1 := by rw [abs_pow]; exact pow_le_one₀ (abs_nonneg _) hw1
  have hu2 : |u ^ 2| ≤ 1.0101 := by
    rw [abs_pow]
    exact (pow_le_pow_left₀ (abs_nonneg _) hu1 2).trans (by norm_num)
  have hu3 : |u ^ 3| ≤ 1.0152 := by
    rw [abs_pow]
    exact (pow_le_pow_left₀ (abs_nonneg _) hu1 3).trans (by norm_num)
  have hu4 : |u ^ 4| ≤ 1.0203 := by
    rw [abs_pow]
    exact (pow_le_pow_left₀ (abs_nonneg _) hu1 4).trans (by norm_num)
  have w2p : 0 ≤ w ^ 2 := sq_nonneg w
  have w2q : w ^ 2 ≤ 1 := (le_abs_self _).trans hw2
  have hρb : 6.35e6 ≤ |ρ| := by rwa [abs_of_pos hρ0]
  have hρa : |ρ| ≤ 2e7 := by rwa [abs_of_pos hρ0]
  have hxa := bx.trans h2
  have hya := by'.trans h2
  have hza := bz.trans h2
  have two : Near (2 : F64 L) 2 0 := Near.nat 2 (by norm_num)
  have three : Near (3 : F64 L) 3 0 := Near.nat 3 (by norm_num)
  have five : Near (5 : F64 L) 5 0 := Near.nat 5 (by norm_num)
  have six : Near (6 : F64 L) 6 0 := Near.nat 6 (by norm_num)
  have seven' : Near (7 : F64 L) 7 0 := Near.nat 7 (by norm_num)
  have eight : Near (8 : F64 L) 8 0 := Near.nat 8 (by norm_num)
  have nine : Near (9 : F64 L) 9 0 := Near.nat 9 (by norm_num)
  have ten : Near (10 : F64 L) 10 0 := Near.nat 10 (by norm_num)
  have fifteen : Near (15 : F64 L) 15 0 := Near.nat 15 (by norm_num)
  have c35 : Near (35 : F64 L) 35 0 := Near.nat 35 (by norm_num)
  have q32 : Near (3 / 2 : F64 L) (3 / 2) 2e-16 :=
    three.div two (b := 2) (M := 1.5) (by norm_num) (by norm_num) (by norm_num) (by norm_num [abs_of_pos])
      (by norm_num) (by norm_num)
  have q52 : Near (5 / 2 : F64 L) (5 / 2) 4e-16 :=
    five.div two (b := 2) (M := 3) (by norm_num) (by norm_num) (by norm_num) (by norm_num [abs_of_pos])
      (by norm_num) (by norm_num)
  have q358 : Near (-35 / 8 : F64 L) (-35 / 8) 1e-15 :=
    c35.neg.div eight (b := 8) (M := 5) (by norm_num) (by norm_num) (by norm_num)
      (by rw [abs_le]; norm_num) (by norm_num) (by norm_num)
  have q37 : Near (3 / 7 : F64 L) (3 / 7) 1e-16 :=
    three.div seven' (b := 7) (M := 0.5) (by norm_num) (by norm_num) (by norm_num)
      (by norm_num [abs_of_pos]) (by norm_num) (by norm_num)
  have q35 : Near (3 / 5 : F64 L) (3 / 5) 1e-16 :=
    three.div five (b := 5) (M := 0.7) (by norm_num) (by norm_num) (by norm_num)
      (by norm_num [abs_of_pos]) (by norm_num) (by norm_num)
  have q157 : Near (15 / 7 : F64 L) (15 / 7) 3e-16 :=
    fifteen.div seven' (b := 7) (M := 2.2) (by norm_num) (by norm_num) (by norm_num)
      (by norm_num [abs_of_pos]) (by norm_num) (by norm_num)
  have a32 : |(3 / 2 : ℝ)| ≤ 1.5 := by norm_num [abs_of_pos]
  have a52 : |(5 / 2 : ℝ)| ≤ 2.5 := by norm_num [abs_of_pos]
  have a358 : |(-35 / 8 : ℝ)| ≤ 4.375 := by rw [abs_le]; norm_num
  have hR : Near (p.equatorialRadius / N) u 2.5e-14 :=
    hp.radius.div hn (b := 6.35e6) (M := 1.005) (by norm_num) hρb (by norm_num) hu1 (by norm_num) (by norm_num)
  have hZ : Near (v.z / N) w 2e-14 :=
    hv.z.div hn (b := 6.35e6) (M := 1) (by norm_num) hρb (by norm_num) hw1 (by norm_num) (by norm_num)
  have hJb : |3 / 2 * j2| ≤ 1.7e-3 := abs_mul_le a32 hp.j2b (by norm_num)
  have hHb : |5 / 2 * j3| ≤ 6.5e-6 := abs_mul_le a52 hp.j3b (by norm_num)
  have hDb : |-35 / 8 * j4| ≤ 7.5e-6 := abs_mul_le a358 hp.j4b (by norm_num)
  have hJ : Near (3 / 2 * p.grav.j2) (3 / 2 * j2) 1e-17 :=
    q32.mul hp.nj2 a32 hp.j2b hJb (by norm_num) (by norm_num)
  have hH : Near (5 / 2 * p.grav.j3) (5 / 2 * j3) 1e-19 :=
    q52.mul hp.nj3 a52 hp.j3b hHb (by norm_num) (by norm_num)
  have hD : Near (-35 / 8 * p.grav.j4) (-35 / 8 * j4) 1e-19 :=
    q358.mul hp.nj4 a358 hp.j4b hDb (by norm_num) (by norm_num)
  set J := 3 / 2 * j2 with hJd
  set H := 5 / 2 * j3 with hHd
  set D := -35 / 8 * j4 with hDd
  have R2 : Near (Flt.powi (p.equatorialRadius / N) 2) (u ^ 2) 1e-13 :=
    hR.powi hL 2 (by norm_num) hu1 (by norm_num) (by norm_num)
  have R3 : Near (Flt.powi (p.equatorialRadius / N) 3) (u ^ 3) 1e-13 :=
    hR.powi hL 3 (by norm_num) hu1 (by norm_num) (by norm_num)
  have R4 : Near (Flt.powi (p.equatorialRadius / N) 4) (u ^ 4) 2e-13 :=
    hR.powi hL 4 (by norm_num) hu1 (by norm_num) (by norm_num)
  have Z2 : Near (Flt.powi (v.z / N) 2) (w ^ 2) 1e-13 :=
    hZ.powi hL 2 (by norm_num) hw1 (by norm_num) (by norm_num)
  have Z4 : Near (Flt.powi (v.z / N) 4) (w ^ 4) 1e-13 :=
    hZ.powi hL 4 (by norm_num) hw1 (by norm_num) (by norm_num)
  have JR := hJ.mul R2 hJb hu2 (M := 1.72e-3) (e := 2e-16) (abs_mul_le hJb hu2 (by norm_num))
    (by norm_num) (by norm_num)
  have bJR : |J * u ^ 2| ≤ 1.72e-3 := abs_mul_le hJb hu2 (by norm_num)
  have HR := hH.mul R3 hHb hu3 (M := 6.7e-6) (e := 1e-18) (abs_mul_le hHb hu3 (by norm_num))
    (by norm_num) (by norm_num)
  have bHR : |H * u ^ 3| ≤ 6.7e-6 := abs_mul_le hHb hu3 (by norm_num)
  have DR := hD.mul R4 hDb hu4 (M := 7.7e-6) (e := 2e-18) (abs_mul_le hDb hu4 (by norm_num))
    (by norm_num) (by norm_num)
  have bDR : |D * u ^ 4| ≤ 7.7e-6 := abs_mul_le hDb hu4 (by norm_num)
  have bHRr : |H * u ^ 3 / ρ| ≤ 1.1e-12 := by
    rw [abs_div, div_le_iff₀ (by rw [abs_of_pos hρ0]; exact hρ0)]
    refine bHR.trans ?_
    have : 1.1e-12 * 6.35e6 ≤ 1.1e-12 * |ρ| := mul_le_mul_of_nonneg_left hρb (by norm_num)
    refine le_trans ?_ this
    norm_num
  have HRr := HR.div hn (b := 6.35e6) (M := 1.1e-12) (e := 5e-25) (by norm_num) hρb (by norm_num) bHRr
    (by norm_num) (by norm_num)
  have Z25 := five.mul Z2 (A := 5) (B := 1) (M := 5) (e := 6e-13) (by norm_num) hw2
    (abs_mul_le (A := 5) (by norm_num) hw2 (by norm_num)) (by norm_num) (by norm_num)
  have Z27 := seven'.mul Z2 (A := 7) (B := 1) (M := 7) (e := 8e-13) (by norm_num) hw2
    (abs_mul_le (A := 7) (by norm_num) hw2 (by norm_num)) (by norm_num) (by norm_num)
  have Z26 := six.mul Z2 (A := 6) (B := 1) (M := 6) (e := 7e-13) (by norm_num) hw2
    (abs_mul_le (A := 6) (by norm_num) hw2 (by norm_num)) (by norm_num) (by norm_num)
  have Z210 := ten.mul Z2 (A := 10) (B := 1) (M := 10) (e := 1.1e-12) (by norm_num) hw2
    (abs_mul_le (A := 10) (by norm_num) hw2 (by norm_num)) (by norm_num) (by norm_num)
  have Z49 := nine.mul Z4 (A := 9) (B := 1) (M := 9) (e := 1e-12) (by norm_num) hw4
    (abs_mul_le (A := 9) (by norm_num) hw4 (by norm_num)) (by norm_num) (by norm_num)
  -- the factor in the equatorial plane
  have b1 : |1 - 5 * w ^ 2| ≤ 4 := by rw [abs_le]; constructor <;> linarith
  have t1 := Near.one.sub Z25 (M := 4) (e := 7e-13) b1 (by norm_num) (by norm_num)
  have b2 : |J * u ^ 2 * (1 - 5 * w ^ 2)| ≤ 6.9e-3 := abs_mul_le bJR b1 (by norm_num)
  have t2 := JR.mul t1 bJR b1 (e := 3e-15) b2 (by norm_num) (by norm_num)
  have b3 : |1 + J * u ^ 2 * (1 - 5 * w ^ 2)| ≤ 1.01 := abs_add_le' (A := 1) (by norm_num) b2 (by norm_num)
  have t3 := Near.one.add t2 (M := 1.01) (e := 4e-15) b3 (by norm_num) (by norm_num)
  have b4 : |3 - 7 * w ^ 2| ≤ 4 := by rw [abs_le]; constructor <;> linarith
  have t4 := three.sub Z27 (M := 4) (e := 1e-12) b4 (by norm_num) (by norm_num)
  have b5 : |H * u ^ 3 / ρ * (3 - 7 * w ^ 2)| ≤ 4.4e-12 := abs_mul_le bHRr b4 (by norm_num)
  have t5 := HRr.mul t4 bHRr b4 (e := 5e-24) b5 (by norm_num) (by norm_num)
  have b6 : |H * u ^ 3 / ρ * (3 - 7 * w ^ 2) * r.z| ≤ 1e-4 := abs_mul_le b5 hza (by norm_num)
  have t6 := t5.mul hv.z b5 hza (e := 2e-16) b6 (by norm_num) (by norm_num)
  have b7 := abs_add_le' b3 b6 (M := 1.02) (by norm_num)
  have t7 := t3.add t6 (e := 5e-15) b7 (by norm_num) (by norm_num)
  have b8 : |9 * w ^ 4 - 6 * w ^ 2| ≤ 15 := by
    refine (abs_sub _ _).trans ?_
    have e1 := abs_mul_le (A := 9) (a := 9) (b := w ^ 4) (M := 9) (by norm_num) hw4 (by norm_num)
    have e2 := abs_mul_le (A := 6) (a := 6) (b := w ^ 2) (M := 6) (by norm_num) hw2 (by norm_num)
    linarith
  have t8 := Z49.sub Z26 (e := 2e-12) b8 (by norm_num) (by norm_num)
  have b9 : |9 * w ^ 4 - 6 * w ^ 2 + 3 / 7| ≤ 16 :=
    abs_add_le' b8 (B := 1) (by norm_num [abs_of_pos]) (by norm_num)
  have t9 := t8.add q37 (e := 3e-12) b9 (by norm_num) (by norm_num)
  have b10 : |D * u ^ 4 * (9 * w ^ 4 - 6 * w ^ 2 + 3 / 7)| ≤ 1.3e-4 := abs_mul_le bDR b9 (by norm_num)
  have t10 := DR.mul t9 bDR b9 (e := 1e-16) b10 (by norm_num) (by norm_num)
  have b11 := abs_add_le' b7 b10 (M := 1.03) (by norm_num)
  have t11 := t7.add t10 (e := 6e-15) b11 (by norm_num) (by norm_num)
  -- the factor of both components
  have hμb : |-μ| ≤ 4e14 := by rw [abs_neg, abs_of_nonneg hp.mu0]; exact hp.mu1
  have hμn := hp.mu.neg
  have N3 : Near (Flt.powi N 3) (ρ ^ 3) 7e7 :=
    hn.powi hL 3 (by norm_num) hρa (by norm_num) (by norm_num)
  have N2 : Near (Flt.powi N 2) (ρ ^ 2) 3 :=
    hn.powi hL 2 (by norm_num) hρa (by norm_num) (by norm_num)
  have hρ3 : 2.56e20 ≤ |ρ ^ 3| := by
    rw [abs_pow]
    exact le_trans (by norm_num) (pow_le_pow_left₀ (by norm_num) hρb 3)
  have hρ3pos : 0 < ρ ^ 3 := by positivity
  have xy : ∀ {c P : F64 L} {γ π : ℝ}, Near P π 6e-15 → |π| ≤ 1.03 → Near c γ 0 → |γ| ≤ ρ → |γ| ≤ 2e7 →
      Near (-p.grav.mu * c / Flt.powi N 3 * P) (-μ * γ / ρ ^ 3 * π) 3e-11 := by
    intro c P γ π hP hπ hc hγ hγ'
    have s1 := hμn.mul hc hμb hγ' (M := 8e21) (e := 1.2e7) (abs_mul_le hμb hγ' (by norm_num))
      (by norm_num) (by norm_num)
    have s2 : |-μ * γ / ρ ^ 3| ≤ 10 := by
      rw [abs_div, abs_of_pos hρ3pos, div_le_iff₀ hρ3pos, abs_mul]
      calc |-μ| * |γ| ≤ 4e14 * ρ := mul_le_mul hμb hγ (abs_nonneg _) (by norm_num)
        _ ≤ 10 * (6.35e6) ^ 2 * ρ := mul_le_mul_of_nonneg_right (by norm_num) hρ0.le
        _ ≤ 10 * ρ ^ 2 * ρ := by gcongr
        _ = 10 * ρ ^ 3 := by ring
    have s3 := s1.div N3 (b := 2.56e20) (M := 10) (e := 6e-12) (by norm_num) hρ3 (by norm_num) s2
      (by norm_num) (by norm_num)
    exact s3.mul hP s2 hπ (M := 10.3) (abs_mul_le s2 hπ (by norm_num)) (by norm_num) (by norm_num)
  refine ⟨xy t11 b11 hv.x bx hxa, xy t11 b11 hv.y by' hya, ?_⟩
  -- the component along the axis
  have c1 : |3 - 5 * w ^ 2| ≤ 3 := by rw [abs_le]; constructor <;> linarith
  have k1 := three.sub Z25 (e := 7e-13) c1 (by norm_num) (by norm_num)
  have c2 : |J * u ^ 2 * (3 - 5 * w ^ 2)| ≤ 5.2e-3 := abs_mul_le bJR c1 (by norm_num)
  have k2 := JR.mul k1 bJR c1 (e := 2e-15) c2 (by norm_num) (by norm_num)
  have c3 : |1 + J * u ^ 2 * (3 - 5 * w ^ 2)| ≤ 1.01 := abs_add_le' (A := 1) (by norm_num) c2 (by norm_num)
  have k3 := Near.one.add k2 (e := 3e-15) c3 (by norm_num) (by norm_num)
  have c4 : |(1 + J * u ^ 2 * (3 - 5 * w ^ 2)) * r.z| ≤ 2.02e7 := abs_mul_le c3 hza (by norm_num)
  have k4 := k3.mul hv.z c3 hza (e := 7e-8) c4 (by norm_num) (by norm_num)
  have hz2b : |r.z ^ 2| ≤ 4e14 := by
    rw [abs_pow]
    exact (pow_le_pow_left₀ (abs_nonneg _) hza 2).trans (by norm_num)
  have hz2 : Near (Flt.powi v.z 2) (r.z ^ 2) 0.5 :=
    hv.z.powi hL 2 (by norm_num) hza (by norm_num) (by norm_num)
  have k5 := six.mul hz2 (A := 6) (M := 2.4e15) (e := 4) (by norm_num) hz2b
    (abs_mul_le (A := 6) (by norm_num) hz2b (by norm_num)) (by norm_num) (by norm_num)
  have c6 : |7 * r.z ^ 2| ≤ 2.8e15 := abs_mul_le (A := 7) (by norm_num) hz2b (by norm_num)
  have k6 := seven'.mul hz2 (A := 7) (e := 4) (by norm_num) hz2b c6 (by norm_num) (by norm_num)
  have c7 : |7 * r.z ^ 2 * w ^ 2| ≤ 2.8e15 := abs_mul_le c6 hw2 (by norm_num)
  have k7 := k6.mul Z2 c6 hw2 (e := 300) c7 (by norm_num) (by norm_num)
  have c8 : |6 * r.z ^ 2 - 7 * r.z ^ 2 * w ^ 2| ≤ 5.2e15 := by
    refine (abs_sub _ _).trans ?_
    have e1 := abs_mul_le (A := 6) (a := 6) (b := r.z ^ 2) (M := 2.4e15) (by norm_num) hz2b (by norm_num)
    norm_num at e1 c7 ⊢
    linarith
  have k8 := k5.sub k7 (e := 310) c8 (by norm_num) (by norm_num)
  have hρ2b : |ρ ^ 2| ≤ 4e14 := by
    rw [abs_pow]
    exact (pow_le_pow_left₀ (abs_nonneg _) hρa 2).trans (by norm_num)
  have c9 : |3 / 5 * ρ ^ 2| ≤ 2.4e14 := abs_mul_le (A := 0.6) (by norm_num [abs_of_pos]) hρ2b (by norm_num)
  have k9 := q35.mul N2 (A := 0.6) (e := 2) (by norm_num [abs_of_pos]) hρ2b c9 (by norm_num) (by norm_num)
  have c10 : |6 * r.z ^ 2 - 7 * r.z ^ 2 * w ^ 2 - 3 / 5 * ρ ^ 2| ≤ 5.5e15 := by
    refine (abs_sub _ _).trans ?_
    norm_num at c8 c9 ⊢
    linarith
  have k10 := k8.sub k9 (e := 320) c10 (by norm_num) (by norm_num)
  have c11 := abs_mul_le bHRr c10 (M := 6.1e3) (by norm_num)
  have k11 := HRr.mul k10 bHRr c10 (e := 4e-9) c11 (by norm_num) (by norm_num)
  have c12 := abs_add_le' c4 c11 (M := 2.03e7) (by norm_num)
  have k12 := k4.add k11 (e := 8e-8) c12 (by norm_num) (by norm_num)
  have c13 : |15 / 7 - 10 * w ^ 2| ≤ 8 := by rw [abs_le]; constructor <;> linarith
  have k13 := q157.sub Z210 (e := 1.2e-12) c13 (by norm_num) (by norm_num)
  have c14 : |15 / 7 - 10 * w ^ 2 + 9 * w ^ 4| ≤ 17 :=
    abs_add_le' c13 (abs_mul_le (A := 9) (M := 9) (by norm_num) hw4 (by norm_num)) (by norm_num)
  have k14 := k13.add Z49 (e := 2.3e-12) c14 (by norm_num) (by norm_num)
  have c15 := abs_mul_le bDR c14 (M := 1.32e-4) (by norm_num)
  have k15 := DR.mul k14 bDR c14 (e := 1e-16) c15 (by norm_num) (by norm_num)
  have c16 := abs_mul_le c15 hza (M := 2.7e3) (by norm_num)
  have k16 := k15.mul hv.z c15 hza (e := 3e-9) c16 (by norm_num) (by norm_num)
  have c17 := abs_add_le' c12 c16 (M := 2.04e7) (by norm_num)
  have k17 := k12.add k16 (e := 9e-8) c17 (by norm_num) (by norm_num)
  have s2 : |-μ / ρ ^ 3| ≤ 1.57e-6 := by
    rw [abs_div, abs_of_pos hρ3pos, div_le_iff₀ hρ3pos]
    calc |-μ| ≤ 4e14 := hμb
      _ ≤ 1.57e-6 * (6.35e6) ^ 3 := by norm_num
      _ ≤ 1.57e-6 * ρ ^ 3 := by gcongr
  have s3 := hμn.div N3 (b := 2.56e20) (M := 1.57e-6) (e := 9e-19) (by norm_num) hρ3 (by norm_num) s2
    (by norm_num) (by norm_num)
  exact s3.mul k17 s2 c17 (M := 32.1) (abs_mul_le s2 c17 (by norm_num)) (by norm_num) (by norm_num)

end
end Post
