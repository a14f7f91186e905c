import Verif.Spec.Steering
/-! # Specification vocabulary: what a reported state must satisfy -/

namespace Post.Spec
variable {F : Type} [Flt F]

/-- The derived quantities of state `s` are those belonging to its own time, position, velocity
and mass under the parameters of phase `p`. -/
structure Consistent (p : Phase F) (s : State F) : Prop where
  positionPlanet :
    s.positionPlanet = (inertialToPlanet s.time p.planet.rotationRate).mulVec s.position
  velocityPlanet : s.velocityPlanet = p.planet.velocityPlanet s.position s.velocity
  altitude : s.altitude = p.planet.altitude s.position
  altitudeGeopotential : s.altitudeGeopotential = p.planet.geopotentialAltitude s.position
  propellantMass : s.propellantMass = s.mass - p.vehicle.structureMass
  gravityAcceleration : s.gravityAcceleration = p.planet.gravity s.position
  velocityAtmosphere : s.velocityAtmosphere = s.velocityPlanet - p.atmosphere.wind
  temperature : s.temperature = p.atmosphere.temperature s
  pressure : s.pressure = p.atmosphere.pressure s
  density : s.density = p.atmosphere.density s
  machNumber : s.machNumber = p.atmosphere.machNumber s
  dynamicPressure : s.dynamicPressure = p.atmosphere.dynamicPressure s
  alpha : s.alpha =
    Vehicle.alpha ((inertialToBody p.launch s.eulerAngles).mulVec s.velocityAtmosphere)
  throttle : s.throttle =
    p.vehicle.autoThrottle p.maxAcceleration s.mass s.pressure s.aeroForceBody
  thrustForceBody : s.thrustForceBody = p.vehicle.thrustForce s.throttle s.pressure
  massflow : s.massflow = p.vehicle.massflow s.throttle
  /-- Newton's second law for the sensed (non-gravitational) acceleration -/
  vehicleAccelerationBody : s.vehicleAccelerationBody =
    (s.aeroForceBody + s.thrustForceBody).divS s.mass
  /-- the total acceleration is the sensed one turned into the inertial frame plus gravity -/
  acceleration : s.acceleration =
    (inertialToBody p.launch s.eulerAngles).transpose.mulVec s.vehicleAccelerationBody
      + s.gravityAcceleration

end Post.Spec
