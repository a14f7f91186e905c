import Verif.Ext
import Verif.Spec.Phase
/-! # Specification vocabulary: real vectors, rotations, planets, launch sites -/

namespace Post.Spec

/-- sum of real vectors -/
def radd (a b : V3 ℝ) : V3 ℝ := ⟨a.x + b.x, a.y + b.y, a.z + b.z⟩
/-- difference of real vectors -/
def rsub (a b : V3 ℝ) : V3 ℝ := ⟨a.x - b.x, a.y - b.y, a.z - b.z⟩
/-- multiple of a real vector -/
def rscale (k : ℝ) (a : V3 ℝ) : V3 ℝ := ⟨k * a.x, k * a.y, k * a.z⟩
/-- cross product of real vectors -/
def rcross (a b : V3 ℝ) : V3 ℝ :=
  ⟨a.y * b.z - a.z * b.y, a.z * b.x - a.x * b.z, a.x * b.y - a.y * b.x⟩
/-- real matrix times vector -/
def rmulVec (m : M3 ℝ) (v : V3 ℝ) : V3 ℝ := ⟨rdot m.r1 v, rdot m.r2 v, rdot m.r3 v⟩
/-- product of real matrices -/
def rmul (a b : M3 ℝ) : M3 ℝ :=
  ⟨⟨rdot a.r1 b.col1, rdot a.r1 b.col2, rdot a.r1 b.col3⟩,
   ⟨rdot a.r2 b.col1, rdot a.r2 b.col2, rdot a.r2 b.col3⟩,
   ⟨rdot a.r3 b.col1, rdot a.r3 b.col2, rdot a.r3 b.col3⟩⟩

noncomputable section

/-- change of frame by a rotation about the first axis -/
def turnX (θ : ℝ) : M3 ℝ :=
  ⟨⟨1, 0, 0⟩, ⟨0, Real.cos θ, Real.sin θ⟩, ⟨0, -Real.sin θ, Real.cos θ⟩⟩
/-- change of frame by a rotation about the second axis -/
def turnY (θ : ℝ) : M3 ℝ :=
  ⟨⟨Real.cos θ, 0, -Real.sin θ⟩, ⟨0, 1, 0⟩, ⟨Real.sin θ, 0, Real.cos θ⟩⟩
/-- change of frame by a rotation about the third axis -/
def turnZ (θ : ℝ) : M3 ℝ :=
  ⟨⟨Real.cos θ, Real.sin θ, 0⟩, ⟨-Real.sin θ, Real.cos θ, 0⟩, ⟨0, 0, 1⟩⟩

/-- The unit vector pointing up at the given geocentric latitude and longitude. -/
def up (lat long : ℝ) : V3 ℝ :=
  ⟨Real.cos lat * Real.cos long, Real.cos lat * Real.sin long, Real.sin lat⟩
/-- The unit vector pointing north there: the direction of growing latitude. -/
def north (lat long : ℝ) : V3 ℝ :=
  ⟨-Real.sin lat * Real.cos long, -Real.sin lat * Real.sin long, Real.cos lat⟩
/-- The unit vector pointing east there: the direction of growing longitude. -/
def east (long : ℝ) : V3 ℝ := ⟨-Real.sin long, Real.cos long, 0⟩

end

/-- degrees to radians -/
noncomputable def rad (deg : ℝ) : ℝ := deg * (Real.pi / 180)

/-- The ellipsoid of revolution with equatorial radius `a` and polar radius `b`. -/
def OnEllipsoid (a b : ℝ) (r : V3 ℝ) : Prop :=
  r.x ^ 2 / a ^ 2 + r.y ^ 2 / a ^ 2 + r.z ^ 2 / b ^ 2 = 1

/-- The outward normal of that ellipsoid: the gradient of its equation (up to the factor 2). -/
noncomputable def ellipsoidNormal (a b : ℝ) (r : V3 ℝ) : V3 ℝ :=
  ⟨r.x / a ^ 2, r.y / a ^ 2, r.z / b ^ 2⟩

/-- `r` lies in the half plane bounded by the polar axis that contains the meridian of the given
longitude. -/
def OnMeridian (long : ℝ) (r : V3 ℝ) : Prop :=
  ∃ ρ, 0 ≤ ρ ∧ r.x = ρ * Real.cos long ∧ r.y = ρ * Real.sin long

/-- The planet has the given real radii, gravitational parameters and rotation rate. -/
def IsPlanet (p : Planet XR) (a b : ℝ) (g : Grav XR) (ω : ℝ) : Prop := p = ⟨.fin a, .fin b, g, .fin ω⟩

/-- The planet with which the first phase `c` is run. -/
noncomputable def firstPlanet (c : PhaseConfig XR) : Planet XR :=
  Planet.ofConfig (c.planetModel.getD .spherical)

/-- `s` is the state with which a simulation starting with the phase `c` starts. -/
def Started {F : Type} [Flt F] (c : PhaseConfig F) (s : State F) : Prop :=
  ∃ p, Phase.new none c = .ok p ∧ p.reset.system p.reset.state = .ok s

/-- The configured launch site, in degrees. -/
def LaunchSite (c : PhaseConfig XR) (lat long az : ℝ) : Prop :=
  ∃ h, c.init = some ⟨.fin lat, .fin long, .fin az, h⟩

end Post.Spec
