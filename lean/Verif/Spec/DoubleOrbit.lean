import Verif.Spec.Accuracy
import Verif.Spec.Library
import Verif.Spec.Table
/-! # Specification vocabulary: orbits in double precision -/

namespace Post.Spec
variable {L : Libm}

/-- The double is a number: neither NaN nor infinite. -/
def FiniteDouble (x : F64 L) : Prop := ∃ q : ℚ, x.Is q

/-- The double is the number `ξ`. -/
def Reads (x : F64 L) (ξ : ℝ) : Prop := ∃ q : ℚ, x.Is q ∧ (q : ℝ) = ξ

/-- The vector of doubles is the vector `w`. -/
def ReadsV (v : V3 (F64 L)) (w : V3 ℝ) : Prop := Reads v.x w.x ∧ Reads v.y w.y ∧ Reads v.z w.z

/-- The planet of a simulation in double precision and that of the exact description are the same one
of the three built-in models of the Earth. -/
def SameEarth (P : Planet (F64 L)) (Q : Planet XR) : Prop :=
  (P = EARTH_SPHERICAL ∧ Q = EARTH_SPHERICAL) ∨ (P = EARTH_FISHER_1960 ∧ Q = EARTH_FISHER_1960) ∨
    (P = EARTH_SMITHSONIAN ∧ Q = EARTH_SMITHSONIAN)

/-- The steering gives an attitude of numbers in every state that occurs in an orbit of the Earth. -/
def NumberAttitude (p : Phase (F64 L)) : Prop :=
  ∀ (s d : State (F64 L)) (t te m : ℝ) (r v : V3 ℝ), Reads s.time t → |t| ≤ 1e9 →
    Reads s.timeSinceEvent te → |te| ≤ 1e9 → ReadsV s.position r → 6.4e6 ≤ rnorm r → rnorm r ≤ 2e7 →
    ReadsV s.velocity v → rnorm v ≤ 1e4 → Reads s.mass m → p.system s = .ok d →
    FiniteDouble d.eulerAngles.roll ∧ FiniteDouble d.eulerAngles.yaw ∧ FiniteDouble d.eulerAngles.pitch

/-- The axis is steered by a polynomial in the time or the time since the last event, with coefficients
that are numbers of at most 1e20 in size. -/
def TimeSteeredDouble (x : Axis (F64 L)) : Prop :=
  (x.var = .time ∨ x.var = .timeSinceEvent) ∧ ∀ c ∈ [x.c0, x.c1, x.c2, x.c3], ∃ q : ℚ, c.Is q ∧ |q| ≤ 1e20

/-- A phase in double precision that falls freely: without engines, atmosphere and acceleration limit,
with tables that can be read, a launch site given by numbers and an attitude that is always given by
numbers. -/
structure CoastingDouble (p : Phase (F64 L)) : Prop where
  engines : p.vehicle.engines = []
  vacuum : p.atmosphere.model = .noAtmosphere
  unlimited : p.maxAcceleration = Flt.inf
  tables : WellFormed p.vehicle.dragCoeff ∧ WellFormed p.vehicle.liftCoeff ∧
    WellFormed p.vehicle.sideForceCoeff
  launch : FiniteDouble p.launch.lat ∧ FiniteDouble p.launch.long ∧ FiniteDouble p.launch.az
  attitude : NumberAttitude p

/-- The state is that after `te` seconds, at position `r` with velocity `v`, and its mass is `m`. -/
structure ReadsAt (s : State (F64 L)) (te : ℝ) (r v : V3 ℝ) (m : ℝ) : Prop where
  timeSinceEvent : Reads s.timeSinceEvent te
  position : ReadsV s.position r
  velocity : ReadsV s.velocity v
  mass : Reads s.mass m

end Post.Spec
