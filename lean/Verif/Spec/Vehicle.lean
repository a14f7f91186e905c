import Verif.Spec.Vec
/-! # Specification vocabulary for vehicles: engines, thrust, sensed acceleration -/

namespace Post.Spec
noncomputable section

/-- An engine with real parameters: vacuum thrust, specific impulse, nozzle exit area and the
yaw and pitch angles of its mounting. -/
structure RealEngine where
  thrust : ℝ
  isp : ℝ
  area : ℝ
  yaw : ℝ
  pitch : ℝ

/-- The same engine in the arithmetic of the program. -/
def RealEngine.toEngine (e : RealEngine) : Engine XR :=
  ⟨.fin e.pitch, .fin e.yaw, .fin e.thrust, .fin e.isp, .fin e.area⟩

/-- The direction in which the engine pushes: the first body axis, turned by the yaw angle
towards the second axis and by the pitch angle towards the third. -/
def RealEngine.direction (e : RealEngine) : V3 ℝ :=
  ⟨Real.cos e.yaw * Real.cos e.pitch, Real.sin e.yaw, Real.cos e.yaw * Real.sin e.pitch⟩

/-- The thrust of an engine in air of the given pressure. -/
def RealEngine.thrustAt (e : RealEngine) (pressure : ℝ) : V3 ℝ :=
  rscale (e.thrust - e.area * pressure) e.direction

/-- Sum of real vectors, by components. -/
def rsum (l : List (V3 ℝ)) : V3 ℝ :=
  ⟨(l.map (·.x)).sum, (l.map (·.y)).sum, (l.map (·.z)).sum⟩

/-- The vacuum propellant consumption of an engine at full throttle: thrust divided by specific
impulse and standard gravity. -/
def RealEngine.consumption (e : RealEngine) : ℝ := e.thrust / e.isp / 9.80665

/-- The vehicle's engines are the given ones. -/
def HasEngines (v : Vehicle XR) (es : List RealEngine) : Prop := v.engines = es.map (·.toEngine)

/-- The full thrust of some engines in air of the given pressure. -/
def fullThrust (es : List RealEngine) (pressure : ℝ) : V3 ℝ :=
  rsum (es.map (·.thrustAt pressure))

/-- The consumption of some engines at full throttle. -/
def fullConsumption (es : List RealEngine) : ℝ := (es.map (·.consumption)).sum

/-- The sensed acceleration of a vehicle of mass `m` under the aerodynamic force `f` and a
fraction `k` of the full thrust `T`. -/
def sensed (m : ℝ) (f T : V3 ℝ) (k : ℝ) : ℝ := rnorm (radd f (rscale k T)) / m

/-- The throttle setting `k` is possible and keeps the limit `A`. -/
def Allowed (A m : ℝ) (f T : V3 ℝ) (k : ℝ) : Prop := 0 ≤ k ∧ k ≤ 1 ∧ sensed m f T k ≤ A

end
end Post.Spec
