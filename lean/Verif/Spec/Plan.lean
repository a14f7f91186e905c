import Verif.Spec.Phase
/-! # Specification vocabulary: configurations that mean the same -/

namespace Post.Spec
variable {F : Type} [Flt F]

/-- Two tables have the same value in every state. -/
def SameTable (t t' : Table F) : Prop := ∀ s, t.atState s = t'.atState s

/-- The thrust of all engines together, at full throttle. -/
def totalThrust (es : List (Engine F)) (pressure : F) : V3 F :=
  V3.sum (es.map fun e => e.thrust pressure)

/-- The rate at which all engines together change the mass, at full throttle. -/
def totalFlow (es : List (Engine F)) : F := Flt.sum (es.map fun e => e.massflow)

/-- Two sets of engines have the same total thrust at every pressure and the same total mass
flow. -/
def SameEngines (es es' : List (Engine F)) : Prop :=
  (∀ p, totalThrust es p = totalThrust es' p) ∧ totalFlow es = totalFlow es'

/-- After the configurations `cs` and after `cs'`, the values in force (the last ones specified, or
the defaults) mean the same. -/
structure SameInForce (cs cs' : List (PhaseConfig F)) : Prop where
  planet : Planet.ofConfig (inForce (·.planetModel) .spherical cs) =
    Planet.ofConfig (inForce (·.planetModel) .spherical cs')
  atmosphere : inForce (atmosphereParam (·.enabled)) false cs =
    inForce (atmosphereParam (·.enabled)) false cs'
  wind : inForce (atmosphereParam (·.wind)) ⟨0, 0, 0⟩ cs =
    inForce (atmosphereParam (·.wind)) ⟨0, 0, 0⟩ cs'
  structureMass : inForce (vehicleParam (·.structureMass)) 0 cs =
    inForce (vehicleParam (·.structureMass)) 0 cs'
  referenceArea : inForce (vehicleParam (·.referenceArea)) 0 cs =
    inForce (vehicleParam (·.referenceArea)) 0 cs'
  drag : SameTable (inForce (vehicleParam (·.dragCoeff)) (.d1 ⟨(.time, []), [], .linear⟩) cs)
    (inForce (vehicleParam (·.dragCoeff)) (.d1 ⟨(.time, []), [], .linear⟩) cs')
  lift : SameTable (inForce (vehicleParam (·.liftCoeff)) (.d1 ⟨(.time, []), [], .linear⟩) cs)
    (inForce (vehicleParam (·.liftCoeff)) (.d1 ⟨(.time, []), [], .linear⟩) cs')
  sideForce :
    SameTable (inForce (vehicleParam (·.sideForceCoeff)) (.d1 ⟨(.time, []), [], .linear⟩) cs)
      (inForce (vehicleParam (·.sideForceCoeff)) (.d1 ⟨(.time, []), [], .linear⟩) cs')
  engines : SameEngines (inForce (vehicleParam (·.engines)) [] cs)
    (inForce (vehicleParam (·.engines)) [] cs')
  maxAcceleration : inForce (fun c => c.maxAcceleration.map accelerationLimit) Flt.inf cs =
    inForce (fun c => c.maxAcceleration.map accelerationLimit) Flt.inf cs'
  roll : inForce (steeringAxis (·.roll)) ⟨.time, 0, 0, 0⟩ cs =
    inForce (steeringAxis (·.roll)) ⟨.time, 0, 0, 0⟩ cs'
  yaw : inForce (steeringAxis (·.yaw)) ⟨.time, 0, 0, 0⟩ cs =
    inForce (steeringAxis (·.yaw)) ⟨.time, 0, 0, 0⟩ cs'
  pitch : inForce (steeringAxis (·.pitch)) ⟨.time, 0, 0, 0⟩ cs =
    inForce (steeringAxis (·.pitch)) ⟨.time, 0, 0, 0⟩ cs'
  endCriterion : inForce (·.endCriterion) (.timeSinceEvent, 0) cs =
    inForce (·.endCriterion) (.timeSinceEvent, 0) cs'

/-- Two files describe the same flight: as many phases, the same initialisation of the first one,
in each phase the values in force mean the same, and the same phases fill the tanks, with the same
amounts. -/
structure SamePlan (cs cs' : List (PhaseConfig F)) : Prop where
  length : cs.length = cs'.length
  init : cs.head?.bind (·.init) = cs'.head?.bind (·.init)
  inForce : ∀ n, SameInForce (cs.take n) (cs'.take n)
  propellant : cs.map (vehicleParam (·.propellantMass)) = cs'.map (vehicleParam (·.propellantMass))

/-- The structure mass is written in the same phases. -/
def SameStructureEntries (cs cs' : List (PhaseConfig F)) : Prop :=
  cs.map (fun c => (vehicleParam (·.structureMass) c).isSome) =
    cs'.map (fun c => (vehicleParam (·.structureMass) c).isSome)

/-- The entry `f` of `c'` is that of `c`, or `c` has none and `c'` writes out the value in force. -/
def Restated {β : Type} (done : List (PhaseConfig F)) (c c' : PhaseConfig F)
    (f : PhaseConfig F → Option β) (default : β) : Prop :=
  f c' = f c ∨ (f c = none ∧ f c' = some (inForce f default done))

/-- `c'` is the configuration `c`, to be used after `done`, in which some values that are in force
anyway are written out. -/
structure Restates (done : List (PhaseConfig F)) (c c' : PhaseConfig F) : Prop where
  init : done = [] → c'.init = c.init
  planet : Restated done c c' (·.planetModel) .spherical
  atmosphere : Restated done c c' (atmosphereParam (·.enabled)) false
  wind : Restated done c c' (atmosphereParam (·.wind)) ⟨0, 0, 0⟩
  structureMass : vehicleParam (·.structureMass) c' = vehicleParam (·.structureMass) c
  propellantMass : vehicleParam (·.propellantMass) c' = vehicleParam (·.propellantMass) c
  referenceArea : Restated done c c' (vehicleParam (·.referenceArea)) 0
  drag : Restated done c c' (vehicleParam (·.dragCoeff)) (.d1 ⟨(.time, []), [], .linear⟩)
  lift : Restated done c c' (vehicleParam (·.liftCoeff)) (.d1 ⟨(.time, []), [], .linear⟩)
  sideForce : Restated done c c' (vehicleParam (·.sideForceCoeff)) (.d1 ⟨(.time, []), [], .linear⟩)
  engines : Restated done c c' (vehicleParam (·.engines)) []
  maxAcceleration : Restated done c c' (fun c => c.maxAcceleration.map accelerationLimit) Flt.inf
  roll : Restated done c c' (steeringAxis (·.roll)) ⟨.time, 0, 0, 0⟩
  yaw : Restated done c c' (steeringAxis (·.yaw)) ⟨.time, 0, 0, 0⟩
  pitch : Restated done c c' (steeringAxis (·.pitch)) ⟨.time, 0, 0, 0⟩
  endCriterion : Restated done c c' (·.endCriterion) (.timeSinceEvent, 0)

end Post.Spec
