import Verif.Spec.DoubleTrack
import Verif.Spec.DoubleTable
import Verif.Spec.Vehicle
import Verif.Spec.Steering
/-! # Specification vocabulary: forces in double precision -/

namespace Post.Spec
variable {L : Libm}
noncomputable section

/-- The thrust, exit area and mounting angles of an engine in double precision are those of `E`, and they are of a
reasonable size. -/
structure EngineReads (e : Engine (F64 L)) (E : RealEngine) : Prop where
  thrust : Reads e.thrustVac E.thrust
  area : Reads e.exitArea E.area
  yaw : Reads e.incidenceYaw E.yaw
  pitch : Reads e.incidencePitch E.pitch
  thrust_range : 0 ≤ E.thrust ∧ E.thrust ≤ 1e12
  area_range : 0 ≤ E.area ∧ E.area ≤ 1e5
  yaw_range : |E.yaw| ≤ 1000
  pitch_range : |E.pitch| ≤ 1000

/-- The sum of the thrusts of some engines in vacuum and of the forces of the air on their exit areas. -/
def grossThrust (es : List RealEngine) (pressure : ℝ) : ℝ := (es.map fun e => e.thrust + e.area * pressure).sum

/-- The aerodynamic force in the frame of the vehicle: `Q` is the product of dynamic pressure and reference area.  The drag
acts against the direction in which the vehicle moves in the pitch plane, at the angle of attack to the first axis; the
lift acts perpendicular to it, and the side force along the second axis. -/
def airForce (Q alpha drag lift side : ℝ) : V3 ℝ :=
  rscale Q (radd (radd (rscale (-drag) ⟨Real.cos alpha, 0, Real.sin alpha⟩) (rscale lift ⟨Real.sin alpha, 0, -Real.cos alpha⟩))
    ⟨0, side, 0⟩)

/-- In the given state all three coefficients of the vehicle are within the range of their tables, whose entries are at most
`M`, and the variables of the tables are computed before the coefficients are looked up. -/
structure CoefficientsCovered (p : Phase (F64 L)) (s : State (F64 L)) (M : ℝ) : Prop where
  early : p.TablesEarly
  drag : WellFormed p.vehicle.dragCoeff ∧ Covers M s p.vehicle.dragCoeff
  lift : WellFormed p.vehicle.liftCoeff ∧ Covers M s p.vehicle.liftCoeff
  side : WellFormed p.vehicle.sideForceCoeff ∧ Covers M s p.vehicle.sideForceCoeff
  low : 1e-30 ≤ M
  high : M ≤ 1e6

/-- The aerodynamic force that the tables of the vehicle, evaluated without rounding, give in the state, for the product `Q`
of dynamic pressure and reference area and the angle of attack `alpha`. -/
def tableForce (p : Phase (F64 L)) (s : State (F64 L)) (Q alpha : ℝ) : V3 ℝ :=
  airForce Q alpha (exactValue s p.vehicle.dragCoeff) (exactValue s p.vehicle.liftCoeff) (exactValue s p.vehicle.sideForceCoeff)

end
end Post.Spec
