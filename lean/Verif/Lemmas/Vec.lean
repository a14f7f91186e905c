import Verif.Spec.Vec
import Verif.Lemmas.System
import Verif.Lemmas.Config
/-! # Lemmas about real vectors, rotations and frame changes -/

set_option linter.unusedSectionVars false

namespace Post
open Spec Flt

theorem M3.fin_mulVec (m : M3 ℝ) (v : V3 ℝ) : M3.mulVec m.fin v.fin = (rmulVec m v).fin := rfl
theorem M3.fin_transpose (m : M3 ℝ) : m.fin.transpose = m.transpose.fin := rfl
theorem M3.fin_mul (a b : M3 ℝ) : (a.fin * b.fin : M3 XR) = (rmul a b).fin := rfl
theorem V3.fin_cross (a b : V3 ℝ) : V3.cross a.fin b.fin = (rcross a b).fin := by
  unfold V3.cross rcross V3.fin V3.map
  simp only [XR.fin_mul, XR.fin_sub]
theorem V3.fin_add' (a b : V3 ℝ) : (a.fin + b.fin : V3 XR) = (radd a b).fin := rfl
theorem V3.fin_sub' (a b : V3 ℝ) : (a.fin - b.fin : V3 XR) = (rsub a b).fin := V3.fin_sub a b
theorem V3.fin_smul' (k : ℝ) (a : V3 ℝ) : V3.smul (XR.fin k) a.fin = (rscale k a).fin := rfl
theorem V3.fin_neg (a : V3 ℝ) : (-a.fin : V3 XR) = V3.fin ⟨-a.x, -a.y, -a.z⟩ := rfl
theorem V3.fin_inj {a b : V3 ℝ} : a.fin = b.fin ↔ a = b := by
  constructor
  · intro h
    have h1 := congrArg V3.x h
    have h2 := congrArg V3.y h
    have h3 := congrArg V3.z h
    simp only [V3.fin, V3.map, XR.fin_inj] at h1 h2 h3
    exact V3.ext h1 h2 h3
  · rintro rfl; rfl
theorem V3.mk_fin (x y z : ℝ) : (⟨.fin x, .fin y, .fin z⟩ : V3 XR) = V3.fin ⟨x, y, z⟩ := rfl

namespace M3.IsRotation
variable {m : M3 ℝ}

/-- In a proper rotation each row is the cross product of the other two. -/
theorem rows (h : m.IsRotation) :
    m.r3 = rcross m.r1 m.r2 ∧ m.r1 = rcross m.r2 m.r3 ∧ m.r2 = rcross m.r3 m.r1 := by
  obtain ⟨⟨a, b, c⟩, ⟨d, e, f⟩, ⟨g, i, j⟩⟩ := m
  obtain ⟨h1, h2, h3, h4, h5, h6, h7⟩ := h
  simp only at h1 h2 h3 h4 h5 h6 h7
  have key : ∀ a b c d e f g i j : ℝ, a ^ 2 + b ^ 2 + c ^ 2 = 1 → d ^ 2 + e ^ 2 + f ^ 2 = 1 →
      g ^ 2 + i ^ 2 + j ^ 2 = 1 → a * d + b * e + c * f = 0 →
      a * (e * j - f * i) - b * (d * j - f * g) + c * (d * i - e * g) = 1 →
      (⟨g, i, j⟩ : V3 ℝ) = rcross ⟨a, b, c⟩ ⟨d, e, f⟩ := by
    intro a b c d e f g i j h1 h2 h3 h4 h7
    have hs : (g - (b * f - c * e)) ^ 2 + (i - (c * d - a * f)) ^ 2 + (j - (a * e - b * d)) ^ 2 = 0 := by
      have hc : (b * f - c * e) ^ 2 + (c * d - a * f) ^ 2 + (a * e - b * d) ^ 2 = 1 := by
        have : (b * f - c * e) ^ 2 + (c * d - a * f) ^ 2 + (a * e - b * d) ^ 2 =
          (a ^ 2 + b ^ 2 + c ^ 2) * (d ^ 2 + e ^ 2 + f ^ 2) - (a * d + b * e + c * f) ^ 2 := by ring
        rw [this, h1, h2, h4]; ring
      have hd : g * (b * f - c * e) + i * (c * d - a * f) + j * (a * e - b * d) = 1 := by
        rw [← h7]; ring
      linear_combination h3 + hc - 2 * hd
    have z1 := sq_nonneg (g - (b * f - c * e))
    have z2 := sq_nonneg (i - (c * d - a * f))
    have z3 := sq_nonneg (j - (a * e - b * d))
    have e1 : g - (b * f - c * e) = 0 := by
      have : (g - (b * f - c * e)) ^ 2 = 0 := by linarith
      simpa using this
    have e2 : i - (c * d - a * f) = 0 := by
      have : (i - (c * d - a * f)) ^ 2 = 0 := by linarith
      simpa using this
    have e3 : j - (a * e - b * d) = 0 := by
      have : (j - (a * e - b * d)) ^ 2 = 0 := by linarith
      simpa using this
    unfold rcross
    ext
    · show g = b * f - c * e; linarith
    · show i = c * d - a * f; linarith
    · show j = a * e - b * d; linarith
  refine ⟨key a b c d e f g i j h1 h2 h3 h4 h7, key d e f g i j a b c h2 h3 h1 h6 (by rw [← h7]; ring), 
    key g i j a b c d e f h3 h1 h2 (by rw [← h5]; ring) (by rw [← h7]; ring)⟩

theorem transpose_mulVec_mulVec (h : m.IsRotation) (v : V3 ℝ) :
    rmulVec m.transpose (rmulVec m v) = v := by
  obtain ⟨k3, k1, k2⟩ := h.rows
  obtain ⟨⟨a, b, c⟩, ⟨d, e, f⟩, ⟨g, i, j⟩⟩ := m
  obtain ⟨x, y, z⟩ := v
  obtain ⟨h1, h2, h3, h4, h5, h6, h7⟩ := h
  simp only [rcross, V3.mk.injEq] at h1 h2 h3 h4 h5 h6 h7 k1 k2 k3
  obtain ⟨a1, a2, a3⟩ := k1
  obtain ⟨b1, b2, b3⟩ := k2
  obtain ⟨c1, c2, c3⟩ := k3
  have q1 : a * a + d * d + g * g = 1 := by linear_combination h7 + a * a1 + d * b1 + g * c1
  have q2 : b * b + e * e + i * i = 1 := by linear_combination h7 + b * a2 + e * b2 + i * c2
  have q3 : c * c + f * f + j * j = 1 := by linear_combination h7 + c * a3 + f * b3 + j * c3
  have q12 : a * b + d * e + g * i = 0 := by linear_combination b * a1 + e * b1 + i * c1
  have q13 : a * c + d * f + g * j = 0 := by linear_combination c * a1 + f * b1 + j * c1
  have q23 : b * c + e * f + i * j = 0 := by linear_combination c * a2 + f * b2 + j * c2
  simp only [rmulVec, rdot, M3.transpose, M3.col1, M3.col2, M3.col3, V3.mk.injEq]
  refine ⟨?_, ?_, ?_⟩
  · linear_combination x * q1 + y * q12 + z * q13
  · linear_combination x * q12 + y * q2 + z * q23
  · linear_combination x * q13 + y * q23 + z * q3

theorem transpose (h : m.IsRotation) : m.transpose.IsRotation := by
  obtain ⟨k3, k1, k2⟩ := h.rows
  obtain ⟨⟨a, b, c⟩, ⟨d, e, f⟩, ⟨g, i, j⟩⟩ := m
  obtain ⟨h1, h2, h3, h4, h5, h6, h7⟩ := h
  simp only [rcross, V3.mk.injEq] at h1 h2 h3 h4 h5 h6 h7 k1 k2 k3
  obtain ⟨a1, a2, a3⟩ := k1
  obtain ⟨b1, b2, b3⟩ := k2
  obtain ⟨c1, c2, c3⟩ := k3
  refine ⟨?_, ?_, ?_, ?_, ?_, ?_, ?_⟩ <;>
    simp only [M3.transpose, M3.col1, M3.col2, M3.col3]
  · linear_combination h7 + a * a1 + d * b1 + g * c1
  · linear_combination h7 + b * a2 + e * b2 + i * c2
  · linear_combination h7 + c * a3 + f * b3 + j * c3
  · linear_combination b * a1 + e * b1 + i * c1
  · linear_combination c * a1 + f * b1 + j * c1
  · linear_combination c * a2 + f * b2 + j * c2
  · linear_combination h7

theorem mulVec_transpose_mulVec (h : m.IsRotation) (v : V3 ℝ) :
    rmulVec m (rmulVec m.transpose v) = v :=
  h.transpose.transpose_mulVec_mulVec v

theorem dot (h : m.IsRotation) (v w : V3 ℝ) : rdot (rmulVec m v) (rmulVec m w) = rdot v w := by
  have e := h.transpose_mulVec_mulVec w
  calc rdot (rmulVec m v) (rmulVec m w) = rdot v (rmulVec m.transpose (rmulVec m w)) := by
        simp only [rmulVec, rdot, M3.transpose, M3.col1, M3.col2, M3.col3]; ring
    _ = rdot v w := by rw [e]

theorem norm (h : m.IsRotation) (v : V3 ℝ) : rnorm (rmulVec m v) = rnorm v := by
  have := h.dot v v
  unfold rnorm
  congr 1
  simp only [rdot] at this
  linear_combination this

theorem mul {m' : M3 ℝ} (h : m.IsRotation) (h' : m'.IsRotation) : (rmul m m').IsRotation := by
  have ht := h'.transpose
  have e1 := h'.transpose.dot m.r1 m.r1
  have e2 := h'.transpose.dot m.r2 m.r2
  have e3 := h'.transpose.dot m.r3 m.r3
  have e4 := h'.transpose.dot m.r1 m.r2
  have e5 := h'.transpose.dot m.r1 m.r3
  have e6 := h'.transpose.dot m.r2 m.r3
  have hdet := h'.2.2.2.2.2.2
  obtain ⟨h1, h2, h3, h4, h5, h6, h7⟩ := h
  simp only [rmulVec, rdot, M3.transpose, M3.col1, M3.col2, M3.col3] at e1 e2 e3 e4 e5 e6
  refine ⟨?_, ?_, ?_, ?_, ?_, ?_, ?_⟩ <;>
    simp only [rmul, rdot, M3.col1, M3.col2, M3.col3]
  · linear_combination e1 + h1
  · linear_combination e2 + h2
  · linear_combination e3 + h3
  · linear_combination e4 + h4
  · linear_combination e5 + h5
  · linear_combination e6 + h6
  · linear_combination (m'.r1.x * (m'.r2.y * m'.r3.z - m'.r2.z * m'.r3.y) - m'.r1.y * (m'.r2.x * m'.r3.z - m'.r2.z * m'.r3.x)
      + m'.r1.z * (m'.r2.x * m'.r3.y - m'.r2.y * m'.r3.x)) * h7 + hdet

theorem cross (h : m.IsRotation) (v w : V3 ℝ) :
    rcross (rmulVec m v) (rmulVec m w) = rmulVec m (rcross v w) := by
  obtain ⟨k3, k1, k2⟩ := h.rows
  obtain ⟨⟨a, b, c⟩, ⟨d, e, f⟩, ⟨g, i, j⟩⟩ := m
  obtain ⟨x, y, z⟩ := v
  obtain ⟨x', y', z'⟩ := w
  simp only [rcross, V3.mk.injEq] at k1 k2 k3
  obtain ⟨a1, a2, a3⟩ := k1
  obtain ⟨b1, b2, b3⟩ := k2
  obtain ⟨c1, c2, c3⟩ := k3
  simp only [rmulVec, rdot, rcross, V3.mk.injEq]
  refine ⟨?_, ?_, ?_⟩
  · linear_combination -(y * z' - z * y') * a1 - (z * x' - x * z') * a2 - (x * y' - y * x') * a3
  · linear_combination -(y * z' - z * y') * b1 - (z * x' - x * z') * b2 - (x * y' - y * x') * b3
  · linear_combination -(y * z' - z * y') * c1 - (z * x' - x * z') * c2 - (x * y' - y * x') * c3

end M3.IsRotation

theorem turnX_isRotation (θ : ℝ) : (turnX θ).IsRotation := by
  have := Real.sin_sq_add_cos_sq θ
  refine ⟨?_, ?_, ?_, ?_, ?_, ?_, ?_⟩ <;> simp only [turnX] <;> first | linear_combination this | ring1
theorem turnY_isRotation (θ : ℝ) : (turnY θ).IsRotation := by
  have := Real.sin_sq_add_cos_sq θ
  refine ⟨?_, ?_, ?_, ?_, ?_, ?_, ?_⟩ <;> simp only [turnY] <;> first | linear_combination this | ring1
theorem turnZ_isRotation (θ : ℝ) : (turnZ θ).IsRotation := by
  have := Real.sin_sq_add_cos_sq θ
  refine ⟨?_, ?_, ?_, ?_, ?_, ?_, ?_⟩ <;> simp only [turnZ] <;> first | linear_combination this | ring1

/-- The body frame is reached by roll, then yaw, then pitch. -/
theorem launchToBody_fin (roll yaw pitch : ℝ) :
    launchToBody (.fin roll) (.fin yaw) (.fin pitch) =
      (rmul (turnY pitch) (rmul (turnZ yaw) (turnX roll))).fin := by
  unfold launchToBody
  have h : launchToBodyMat (.fin roll) (.fin yaw) (.fin pitch) =
      (rmul (turnY pitch) (rmul (turnZ yaw) (turnX roll))).fin := by
    unfold launchToBodyMat
    xr_eval
    simp only [M3.fin, M3.map, V3.map, rmul, rdot, turnX, turnY, turnZ, M3.col1, M3.col2,
      M3.col3, M3.mk.injEq, V3.mk.injEq, XR.fin_inj]
    refine ⟨⟨?_, ?_, ?_⟩, ⟨?_, ?_, ?_⟩, ⟨?_, ?_, ?_⟩⟩ <;> ring
  rw [h, rotFromMatrix_fin]
  exact (turnY_isRotation _).mul ((turnZ_isRotation _).mul (turnX_isRotation _))

/-- The rows of the launch frame: up, and the directions right of and along the azimuth. -/
noncomputable def launchMat (lat long az : ℝ) : M3 ℝ :=
  rmul (turnX (-az)) ⟨up lat long, east long, north lat long⟩

theorem upEastNorth_isRotation (lat long : ℝ) :
    (⟨up lat long, east long, north lat long⟩ : M3 ℝ).IsRotation := by
  have h1 := Real.sin_sq_add_cos_sq lat
  have h2 := Real.sin_sq_add_cos_sq long
  refine ⟨?_, ?_, ?_, ?_, ?_, ?_, ?_⟩ <;> simp only [up, east, north]
  · linear_combination h1 + Real.cos lat ^ 2 * h2
  · linear_combination h2
  · linear_combination h1 + Real.sin lat ^ 2 * h2
  · ring
  · linear_combination -Real.sin lat * Real.cos lat * h2
  · ring
  · linear_combination (Real.cos lat ^ 2 + Real.sin lat ^ 2) * h2 + h1

theorem launchMat_isRotation (lat long az : ℝ) : (launchMat lat long az).IsRotation :=
  (turnX_isRotation _).mul (upEastNorth_isRotation _ _)

theorem inertialToLaunch_fin (lat long az : ℝ) :
    inertialToLaunch (.fin lat) (.fin long) (.fin az) = (launchMat lat long az).fin := by
  unfold inertialToLaunch
  have h : inertialToLaunchMat (.fin lat) (.fin long) (.fin az) = (launchMat lat long az).fin := by
    unfold inertialToLaunchMat
    xr_eval
    simp only [M3.fin, M3.map, V3.map, launchMat, rmul, rdot, turnX, up, east, north, M3.col1,
      M3.col2, M3.col3, M3.mk.injEq, V3.mk.injEq, XR.fin_inj, Real.sin_neg, Real.cos_neg]
    refine ⟨⟨?_, ?_, ?_⟩, ⟨?_, ?_, ?_⟩, ⟨?_, ?_, ?_⟩⟩ <;> ring
  rw [h, rotFromMatrix_fin _ (launchMat_isRotation _ _ _)]

theorem inertialToPlanet_fin (t ω : ℝ) :
    inertialToPlanet (.fin t) (.fin ω) = (turnZ (ω * t)).fin := by
  unfold inertialToPlanet
  have h : inertialToPlanetMat (.fin t) (.fin ω) = (turnZ (ω * t)).fin := by
    unfold inertialToPlanetMat
    xr_eval
    rfl
  rw [h, rotFromMatrix_fin _ (turnZ_isRotation _)]

theorem velocityPlanet_fin {p : Planet XR} {ω : ℝ} (h : p.rotationRate = .fin ω) (r v : V3 ℝ) :
    p.velocityPlanet r.fin v.fin = (rsub v (rcross ⟨0, 0, ω⟩ r)).fin := by
  unfold Planet.velocityPlanet
  rw [h, XR.fin_zero, V3.mk_fin, V3.fin_cross, V3.fin_sub']

theorem rnorm_rscale (k : ℝ) (v : V3 ℝ) : rnorm (rscale k v) = |k| * rnorm v := by
  unfold rnorm rscale
  simp only
  rw [show (k * v.x) ^ 2 + (k * v.y) ^ 2 + (k * v.z) ^ 2 = k ^ 2 * (v.x ^ 2 + v.y ^ 2 + v.z ^ 2) by ring,
    Real.sqrt_mul (sq_nonneg k), Real.sqrt_sq_eq_abs]

theorem rmulVec_rscale (m : M3 ℝ) (k : ℝ) (v : V3 ℝ) :
    rmulVec m (rscale k v) = rscale k (rmulVec m v) := by
  simp only [rmulVec, rscale, rdot, V3.mk.injEq]
  refine ⟨?_, ?_, ?_⟩ <;> ring

theorem rmulVec_rmul (m m' : M3 ℝ) (v : V3 ℝ) :
    rmulVec (rmul m m') v = rmulVec m (rmulVec m' v) := by
  simp only [rmulVec, rmul, rdot, M3.col1, M3.col2, M3.col3, V3.mk.injEq]
  refine ⟨?_, ?_, ?_⟩ <;> ring

end Post
