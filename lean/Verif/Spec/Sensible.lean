import Verif.Ext
import Verif.Model.Config
/-! # Specification vocabulary: what a configuration that can be loaded still has to satisfy -/

namespace Post.Spec

/-- The engines of the phase have a specific impulse and a planet that is described has positive radii. -/
structure Sensible (c : PhaseConfig XR) : Prop where
  engines : ∀ v es e, c.vehicle = some v → v.engines = some es → e ∈ es → e.ispVac ≠ .fin 0
  planet : ∀ a b g w, c.planetModel = some (.custom (.fin a) (.fin b) g w) → 0 < a ∧ 0 < b

end Post.Spec
