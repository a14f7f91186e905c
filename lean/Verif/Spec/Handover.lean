import Verif.Spec.Phase
/-! # Specification vocabulary: what carries over from one phase to the next -/

namespace Post.Spec
variable {F : Type} [Flt F]

/-- The listed variables have the same values in both states. -/
def Agree (vs : List StateVariable) (s t : State F) : Prop := ∀ v ∈ vs, v.getValue s = v.getValue t

/-- Time and the motion of the vehicle. -/
def motionVariables : List StateVariable := [
  .time, .position1, .position2, .position3, .positionNorm,
  .velocity1, .velocity2, .velocity3, .velocityNorm]

/-- What is known about the vehicle relative to the planet. -/
def planetVariables : List StateVariable := [
  .positionPlanet1, .positionPlanet2, .positionPlanet3, .altitude, .altitudeGeopotential,
  .velocityPlanet1, .velocityPlanet2, .velocityPlanet3, .velocityPlanetNorm,
  .gravityAcceleration1, .gravityAcceleration2, .gravityAcceleration3, .gravityAccelerationNorm]

/-- What is known about the air around the vehicle. -/
def airVariables : List StateVariable := [
  .velocityAtmosphere1, .velocityAtmosphere2, .velocityAtmosphere3, .velocityAtmosphereNorm,
  .temperature, .pressure, .density, .machNumber, .dynamicPressure]

/-- The two masses. -/
def massVariables : List StateVariable := [.mass, .propellantMass]

end Post.Spec
