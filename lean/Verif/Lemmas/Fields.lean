import Verif.Model.Phase
/-! # Projections of the stages of `Phase.system` (generated by tools/gen_fields.py) -/

set_option linter.unusedSectionVars false

namespace Post.Phase
variable {F : Type} [Flt F] (p : Phase F) (s : State F) (a : V3 F)

@[simp] theorem systemPlanet_time : (p.systemPlanet s).time = s.time := rfl
@[simp] theorem systemPlanet_timeSinceEvent : (p.systemPlanet s).timeSinceEvent = s.timeSinceEvent := rfl
@[simp] theorem systemPlanet_position : (p.systemPlanet s).position = s.position := rfl
@[simp] theorem systemPlanet_positionPlanet : (p.systemPlanet s).positionPlanet = (inertialToPlanet s.time p.planet.rotationRate).mulVec s.position := rfl
@[simp] theorem systemPlanet_altitude : (p.systemPlanet s).altitude = p.planet.altitude s.position := rfl
@[simp] theorem systemPlanet_altitudeGeopotential : (p.systemPlanet s).altitudeGeopotential = p.planet.geopotentialAltitude s.position := rfl
@[simp] theorem systemPlanet_velocity : (p.systemPlanet s).velocity = s.velocity := rfl
@[simp] theorem systemPlanet_velocityPlanet : (p.systemPlanet s).velocityPlanet = p.planet.velocityPlanet s.position s.velocity := rfl
@[simp] theorem systemPlanet_velocityAtmosphere : (p.systemPlanet s).velocityAtmosphere = s.velocityAtmosphere := rfl
@[simp] theorem systemPlanet_acceleration : (p.systemPlanet s).acceleration = s.acceleration := rfl
@[simp] theorem systemPlanet_thrustForceBody : (p.systemPlanet s).thrustForceBody = s.thrustForceBody := rfl
@[simp] theorem systemPlanet_aeroForceBody : (p.systemPlanet s).aeroForceBody = s.aeroForceBody := rfl
@[simp] theorem systemPlanet_vehicleAccelerationBody : (p.systemPlanet s).vehicleAccelerationBody = s.vehicleAccelerationBody := rfl
@[simp] theorem systemPlanet_gravityAcceleration : (p.systemPlanet s).gravityAcceleration = p.planet.gravity s.position := rfl
@[simp] theorem systemPlanet_mass : (p.systemPlanet s).mass = s.mass := rfl
@[simp] theorem systemPlanet_propellantMass : (p.systemPlanet s).propellantMass = s.mass - p.vehicle.structureMass := rfl
@[simp] theorem systemPlanet_massflow : (p.systemPlanet s).massflow = s.massflow := rfl
@[simp] theorem systemPlanet_temperature : (p.systemPlanet s).temperature = s.temperature := rfl
@[simp] theorem systemPlanet_pressure : (p.systemPlanet s).pressure = s.pressure := rfl
@[simp] theorem systemPlanet_density : (p.systemPlanet s).density = s.density := rfl
@[simp] theorem systemPlanet_machNumber : (p.systemPlanet s).machNumber = s.machNumber := rfl
@[simp] theorem systemPlanet_dynamicPressure : (p.systemPlanet s).dynamicPressure = s.dynamicPressure := rfl
@[simp] theorem systemPlanet_alpha : (p.systemPlanet s).alpha = s.alpha := rfl
@[simp] theorem systemPlanet_eulerAngles : (p.systemPlanet s).eulerAngles = s.eulerAngles := rfl
@[simp] theorem systemPlanet_throttle : (p.systemPlanet s).throttle = s.throttle := rfl
@[simp] theorem systemAir_time : (p.systemAir s).time = s.time := rfl
@[simp] theorem systemAir_timeSinceEvent : (p.systemAir s).timeSinceEvent = s.timeSinceEvent := rfl
@[simp] theorem systemAir_position : (p.systemAir s).position = s.position := rfl
@[simp] theorem systemAir_positionPlanet : (p.systemAir s).positionPlanet = s.positionPlanet := rfl
@[simp] theorem systemAir_altitude : (p.systemAir s).altitude = s.altitude := rfl
@[simp] theorem systemAir_altitudeGeopotential : (p.systemAir s).altitudeGeopotential = s.altitudeGeopotential := rfl
@[simp] theorem systemAir_velocity : (p.systemAir s).velocity = s.velocity := rfl
@[simp] theorem systemAir_velocityPlanet : (p.systemAir s).velocityPlanet = s.velocityPlanet := rfl
@[simp] theorem systemAir_velocityAtmosphere : (p.systemAir s).velocityAtmosphere = p.atmosphere.velocityAtmosphere s := rfl
@[simp] theorem systemAir_acceleration : (p.systemAir s).acceleration = s.acceleration := rfl
@[simp] theorem systemAir_thrustForceBody : (p.systemAir s).thrustForceBody = s.thrustForceBody := rfl
@[simp] theorem systemAir_aeroForceBody : (p.systemAir s).aeroForceBody = s.aeroForceBody := rfl
@[simp] theorem systemAir_vehicleAccelerationBody : (p.systemAir s).vehicleAccelerationBody = s.vehicleAccelerationBody := rfl
@[simp] theorem systemAir_gravityAcceleration : (p.systemAir s).gravityAcceleration = s.gravityAcceleration := rfl
@[simp] theorem systemAir_mass : (p.systemAir s).mass = s.mass := rfl
@[simp] theorem systemAir_propellantMass : (p.systemAir s).propellantMass = s.propellantMass := rfl
@[simp] theorem systemAir_massflow : (p.systemAir s).massflow = s.massflow := rfl
@[simp] theorem systemAir_temperature : (p.systemAir s).temperature = s.temperature := rfl
@[simp] theorem systemAir_pressure : (p.systemAir s).pressure = s.pressure := rfl
@[simp] theorem systemAir_density : (p.systemAir s).density = s.density := rfl
@[simp] theorem systemAir_machNumber : (p.systemAir s).machNumber = s.machNumber := rfl
@[simp] theorem systemAir_dynamicPressure : (p.systemAir s).dynamicPressure = s.dynamicPressure := rfl
@[simp] theorem systemAir_alpha : (p.systemAir s).alpha = s.alpha := rfl
@[simp] theorem systemAir_eulerAngles : (p.systemAir s).eulerAngles = s.eulerAngles := rfl
@[simp] theorem systemAir_throttle : (p.systemAir s).throttle = s.throttle := rfl
@[simp] theorem systemAtmosphere_time : (p.systemAtmosphere s).time = s.time := rfl
@[simp] theorem systemAtmosphere_timeSinceEvent : (p.systemAtmosphere s).timeSinceEvent = s.timeSinceEvent := rfl
@[simp] theorem systemAtmosphere_position : (p.systemAtmosphere s).position = s.position := rfl
@[simp] theorem systemAtmosphere_positionPlanet : (p.systemAtmosphere s).positionPlanet = s.positionPlanet := rfl
@[simp] theorem systemAtmosphere_altitude : (p.systemAtmosphere s).altitude = s.altitude := rfl
@[simp] theorem systemAtmosphere_altitudeGeopotential : (p.systemAtmosphere s).altitudeGeopotential = s.altitudeGeopotential := rfl
@[simp] theorem systemAtmosphere_velocity : (p.systemAtmosphere s).velocity = s.velocity := rfl
@[simp] theorem systemAtmosphere_velocityPlanet : (p.systemAtmosphere s).velocityPlanet = s.velocityPlanet := rfl
@[simp] theorem systemAtmosphere_velocityAtmosphere : (p.systemAtmosphere s).velocityAtmosphere = s.velocityAtmosphere := rfl
@[simp] theorem systemAtmosphere_acceleration : (p.systemAtmosphere s).acceleration = s.acceleration := rfl
@[simp] theorem systemAtmosphere_thrustForceBody : (p.systemAtmosphere s).thrustForceBody = s.thrustForceBody := rfl
@[simp] theorem systemAtmosphere_aeroForceBody : (p.systemAtmosphere s).aeroForceBody = s.aeroForceBody := rfl
@[simp] theorem systemAtmosphere_vehicleAccelerationBody : (p.systemAtmosphere s).vehicleAccelerationBody = s.vehicleAccelerationBody := rfl
@[simp] theorem systemAtmosphere_gravityAcceleration : (p.systemAtmosphere s).gravityAcceleration = s.gravityAcceleration := rfl
@[simp] theorem systemAtmosphere_mass : (p.systemAtmosphere s).mass = s.mass := rfl
@[simp] theorem systemAtmosphere_propellantMass : (p.systemAtmosphere s).propellantMass = s.propellantMass := rfl
@[simp] theorem systemAtmosphere_massflow : (p.systemAtmosphere s).massflow = s.massflow := rfl
@[simp] theorem systemAtmosphere_temperature : (p.systemAtmosphere s).temperature = p.atmosphere.temperature s := rfl
@[simp] theorem systemAtmosphere_pressure : (p.systemAtmosphere s).pressure = p.atmosphere.pressure s := rfl
@[simp] theorem systemAtmosphere_density : (p.systemAtmosphere s).density = p.atmosphere.density s := rfl
@[simp] theorem systemAtmosphere_machNumber : (p.systemAtmosphere s).machNumber = s.machNumber := rfl
@[simp] theorem systemAtmosphere_dynamicPressure : (p.systemAtmosphere s).dynamicPressure = s.dynamicPressure := rfl
@[simp] theorem systemAtmosphere_alpha : (p.systemAtmosphere s).alpha = s.alpha := rfl
@[simp] theorem systemAtmosphere_eulerAngles : (p.systemAtmosphere s).eulerAngles = s.eulerAngles := rfl
@[simp] theorem systemAtmosphere_throttle : (p.systemAtmosphere s).throttle = s.throttle := rfl
@[simp] theorem systemDynamic_time : (p.systemDynamic s).time = s.time := rfl
@[simp] theorem systemDynamic_timeSinceEvent : (p.systemDynamic s).timeSinceEvent = s.timeSinceEvent := rfl
@[simp] theorem systemDynamic_position : (p.systemDynamic s).position = s.position := rfl
@[simp] theorem systemDynamic_positionPlanet : (p.systemDynamic s).positionPlanet = s.positionPlanet := rfl
@[simp] theorem systemDynamic_altitude : (p.systemDynamic s).altitude = s.altitude := rfl
@[simp] theorem systemDynamic_altitudeGeopotential : (p.systemDynamic s).altitudeGeopotential = s.altitudeGeopotential := rfl
@[simp] theorem systemDynamic_velocity : (p.systemDynamic s).velocity = s.velocity := rfl
@[simp] theorem systemDynamic_velocityPlanet : (p.systemDynamic s).velocityPlanet = s.velocityPlanet := rfl
@[simp] theorem systemDynamic_velocityAtmosphere : (p.systemDynamic s).velocityAtmosphere = s.velocityAtmosphere := rfl
@[simp] theorem systemDynamic_acceleration : (p.systemDynamic s).acceleration = s.acceleration := rfl
@[simp] theorem systemDynamic_thrustForceBody : (p.systemDynamic s).thrustForceBody = s.thrustForceBody := rfl
@[simp] theorem systemDynamic_aeroForceBody : (p.systemDynamic s).aeroForceBody = s.aeroForceBody := rfl
@[simp] theorem systemDynamic_vehicleAccelerationBody : (p.systemDynamic s).vehicleAccelerationBody = s.vehicleAccelerationBody := rfl
@[simp] theorem systemDynamic_gravityAcceleration : (p.systemDynamic s).gravityAcceleration = s.gravityAcceleration := rfl
@[simp] theorem systemDynamic_mass : (p.systemDynamic s).mass = s.mass := rfl
@[simp] theorem systemDynamic_propellantMass : (p.systemDynamic s).propellantMass = s.propellantMass := rfl
@[simp] theorem systemDynamic_massflow : (p.systemDynamic s).massflow = s.massflow := rfl
@[simp] theorem systemDynamic_temperature : (p.systemDynamic s).temperature = s.temperature := rfl
@[simp] theorem systemDynamic_pressure : (p.systemDynamic s).pressure = s.pressure := rfl
@[simp] theorem systemDynamic_density : (p.systemDynamic s).density = s.density := rfl
@[simp] theorem systemDynamic_machNumber : (p.systemDynamic s).machNumber = p.atmosphere.machNumber s := rfl
@[simp] theorem systemDynamic_dynamicPressure : (p.systemDynamic s).dynamicPressure = p.atmosphere.dynamicPressure s := rfl
@[simp] theorem systemDynamic_alpha : (p.systemDynamic s).alpha = s.alpha := rfl
@[simp] theorem systemDynamic_eulerAngles : (p.systemDynamic s).eulerAngles = s.eulerAngles := rfl
@[simp] theorem systemDynamic_throttle : (p.systemDynamic s).throttle = s.throttle := rfl
@[simp] theorem systemAttitude_time : (p.systemAttitude s).time = s.time := rfl
@[simp] theorem systemAttitude_timeSinceEvent : (p.systemAttitude s).timeSinceEvent = s.timeSinceEvent := rfl
@[simp] theorem systemAttitude_position : (p.systemAttitude s).position = s.position := rfl
@[simp] theorem systemAttitude_positionPlanet : (p.systemAttitude s).positionPlanet = s.positionPlanet := rfl
@[simp] theorem systemAttitude_altitude : (p.systemAttitude s).altitude = s.altitude := rfl
@[simp] theorem systemAttitude_altitudeGeopotential : (p.systemAttitude s).altitudeGeopotential = s.altitudeGeopotential := rfl
@[simp] theorem systemAttitude_velocity : (p.systemAttitude s).velocity = s.velocity := rfl
@[simp] theorem systemAttitude_velocityPlanet : (p.systemAttitude s).velocityPlanet = s.velocityPlanet := rfl
@[simp] theorem systemAttitude_velocityAtmosphere : (p.systemAttitude s).velocityAtmosphere = s.velocityAtmosphere := rfl
@[simp] theorem systemAttitude_acceleration : (p.systemAttitude s).acceleration = s.acceleration := rfl
@[simp] theorem systemAttitude_thrustForceBody : (p.systemAttitude s).thrustForceBody = s.thrustForceBody := rfl
@[simp] theorem systemAttitude_aeroForceBody : (p.systemAttitude s).aeroForceBody = s.aeroForceBody := rfl
@[simp] theorem systemAttitude_vehicleAccelerationBody : (p.systemAttitude s).vehicleAccelerationBody = s.vehicleAccelerationBody := rfl
@[simp] theorem systemAttitude_gravityAcceleration : (p.systemAttitude s).gravityAcceleration = s.gravityAcceleration := rfl
@[simp] theorem systemAttitude_mass : (p.systemAttitude s).mass = s.mass := rfl
@[simp] theorem systemAttitude_propellantMass : (p.systemAttitude s).propellantMass = s.propellantMass := rfl
@[simp] theorem systemAttitude_massflow : (p.systemAttitude s).massflow = s.massflow := rfl
@[simp] theorem systemAttitude_temperature : (p.systemAttitude s).temperature = s.temperature := rfl
@[simp] theorem systemAttitude_pressure : (p.systemAttitude s).pressure = s.pressure := rfl
@[simp] theorem systemAttitude_density : (p.systemAttitude s).density = s.density := rfl
@[simp] theorem systemAttitude_machNumber : (p.systemAttitude s).machNumber = s.machNumber := rfl
@[simp] theorem systemAttitude_dynamicPressure : (p.systemAttitude s).dynamicPressure = s.dynamicPressure := rfl
@[simp] theorem systemAttitude_alpha : (p.systemAttitude s).alpha = s.alpha := rfl
@[simp] theorem systemAttitude_eulerAngles : (p.systemAttitude s).eulerAngles = p.steering.eulerAngles s := rfl
@[simp] theorem systemAttitude_throttle : (p.systemAttitude s).throttle = s.throttle := rfl
@[simp] theorem systemAlpha_time : (p.systemAlpha s).time = s.time := rfl
@[simp] theorem systemAlpha_timeSinceEvent : (p.systemAlpha s).timeSinceEvent = s.timeSinceEvent := rfl
@[simp] theorem systemAlpha_position : (p.systemAlpha s).position = s.position := rfl
@[simp] theorem systemAlpha_positionPlanet : (p.systemAlpha s).positionPlanet = s.positionPlanet := rfl
@[simp] theorem systemAlpha_altitude : (p.systemAlpha s).altitude = s.altitude := rfl
@[simp] theorem systemAlpha_altitudeGeopotential : (p.systemAlpha s).altitudeGeopotential = s.altitudeGeopotential := rfl
@[simp] theorem systemAlpha_velocity : (p.systemAlpha s).velocity = s.velocity := rfl
@[simp] theorem systemAlpha_velocityPlanet : (p.systemAlpha s).velocityPlanet = s.velocityPlanet := rfl
@[simp] theorem systemAlpha_velocityAtmosphere : (p.systemAlpha s).velocityAtmosphere = s.velocityAtmosphere := rfl
@[simp] theorem systemAlpha_acceleration : (p.systemAlpha s).acceleration = s.acceleration := rfl
@[simp] theorem systemAlpha_thrustForceBody : (p.systemAlpha s).thrustForceBody = s.thrustForceBody := rfl
@[simp] theorem systemAlpha_aeroForceBody : (p.systemAlpha s).aeroForceBody = s.aeroForceBody := rfl
@[simp] theorem systemAlpha_vehicleAccelerationBody : (p.systemAlpha s).vehicleAccelerationBody = s.vehicleAccelerationBody := rfl
@[simp] theorem systemAlpha_gravityAcceleration : (p.systemAlpha s).gravityAcceleration = s.gravityAcceleration := rfl
@[simp] theorem systemAlpha_mass : (p.systemAlpha s).mass = s.mass := rfl
@[simp] theorem systemAlpha_propellantMass : (p.systemAlpha s).propellantMass = s.propellantMass := rfl
@[simp] theorem systemAlpha_massflow : (p.systemAlpha s).massflow = s.massflow := rfl
@[simp] theorem systemAlpha_temperature : (p.systemAlpha s).temperature = s.temperature := rfl
@[simp] theorem systemAlpha_pressure : (p.systemAlpha s).pressure = s.pressure := rfl
@[simp] theorem systemAlpha_density : (p.systemAlpha s).density = s.density := rfl
@[simp] theorem systemAlpha_machNumber : (p.systemAlpha s).machNumber = s.machNumber := rfl
@[simp] theorem systemAlpha_dynamicPressure : (p.systemAlpha s).dynamicPressure = s.dynamicPressure := rfl
@[simp] theorem systemAlpha_alpha : (p.systemAlpha s).alpha = Vehicle.alpha ((p.bodyRotation s).mulVec s.velocityAtmosphere) := rfl
@[simp] theorem systemAlpha_eulerAngles : (p.systemAlpha s).eulerAngles = s.eulerAngles := rfl
@[simp] theorem systemAlpha_throttle : (p.systemAlpha s).throttle = s.throttle := rfl
@[simp] theorem systemForces_time : (p.systemForces s a).time = s.time := rfl
@[simp] theorem systemForces_timeSinceEvent : (p.systemForces s a).timeSinceEvent = s.timeSinceEvent := rfl
@[simp] theorem systemForces_position : (p.systemForces s a).position = s.position := rfl
@[simp] theorem systemForces_positionPlanet : (p.systemForces s a).positionPlanet = s.positionPlanet := rfl
@[simp] theorem systemForces_altitude : (p.systemForces s a).altitude = s.altitude := rfl
@[simp] theorem systemForces_altitudeGeopotential : (p.systemForces s a).altitudeGeopotential = s.altitudeGeopotential := rfl
@[simp] theorem systemForces_velocity : (p.systemForces s a).velocity = s.velocity := rfl
@[simp] theorem systemForces_velocityPlanet : (p.systemForces s a).velocityPlanet = s.velocityPlanet := rfl
@[simp] theorem systemForces_velocityAtmosphere : (p.systemForces s a).velocityAtmosphere = s.velocityAtmosphere := rfl
@[simp] theorem systemForces_acceleration : (p.systemForces s a).acceleration = s.acceleration := rfl
@[simp] theorem systemForces_thrustForceBody : (p.systemForces s a).thrustForceBody = p.vehicle.thrustForce (p.vehicle.autoThrottle p.maxAcceleration s.mass s.pressure a) s.pressure := rfl
@[simp] theorem systemForces_aeroForceBody : (p.systemForces s a).aeroForceBody = a := rfl
@[simp] theorem systemForces_vehicleAccelerationBody : (p.systemForces s a).vehicleAccelerationBody = (a + p.vehicle.thrustForce (p.vehicle.autoThrottle p.maxAcceleration s.mass s.pressure a) s.pressure).divS s.mass := rfl
@[simp] theorem systemForces_gravityAcceleration : (p.systemForces s a).gravityAcceleration = s.gravityAcceleration := rfl
@[simp] theorem systemForces_mass : (p.systemForces s a).mass = s.mass := rfl
@[simp] theorem systemForces_propellantMass : (p.systemForces s a).propellantMass = s.propellantMass := rfl
@[simp] theorem systemForces_massflow : (p.systemForces s a).massflow = p.vehicle.massflow (p.vehicle.autoThrottle p.maxAcceleration s.mass s.pressure a) := rfl
@[simp] theorem systemForces_temperature : (p.systemForces s a).temperature = s.temperature := rfl
@[simp] theorem systemForces_pressure : (p.systemForces s a).pressure = s.pressure := rfl
@[simp] theorem systemForces_density : (p.systemForces s a).density = s.density := rfl
@[simp] theorem systemForces_machNumber : (p.systemForces s a).machNumber = s.machNumber := rfl
@[simp] theorem systemForces_dynamicPressure : (p.systemForces s a).dynamicPressure = s.dynamicPressure := rfl
@[simp] theorem systemForces_alpha : (p.systemForces s a).alpha = s.alpha := rfl
@[simp] theorem systemForces_eulerAngles : (p.systemForces s a).eulerAngles = s.eulerAngles := rfl
@[simp] theorem systemForces_throttle : (p.systemForces s a).throttle = p.vehicle.autoThrottle p.maxAcceleration s.mass s.pressure a := rfl
@[simp] theorem systemAcceleration_time : (p.systemAcceleration s).time = s.time := rfl
@[simp] theorem systemAcceleration_timeSinceEvent : (p.systemAcceleration s).timeSinceEvent = s.timeSinceEvent := rfl
@[simp] theorem systemAcceleration_position : (p.systemAcceleration s).position = s.position := rfl
@[simp] theorem systemAcceleration_positionPlanet : (p.systemAcceleration s).positionPlanet = s.positionPlanet := rfl
@[simp] theorem systemAcceleration_altitude : (p.systemAcceleration s).altitude = s.altitude := rfl
@[simp] theorem systemAcceleration_altitudeGeopotential : (p.systemAcceleration s).altitudeGeopotential = s.altitudeGeopotential := rfl
@[simp] theorem systemAcceleration_velocity : (p.systemAcceleration s).velocity = s.velocity := rfl
@[simp] theorem systemAcceleration_velocityPlanet : (p.systemAcceleration s).velocityPlanet = s.velocityPlanet := rfl
@[simp] theorem systemAcceleration_velocityAtmosphere : (p.systemAcceleration s).velocityAtmosphere = s.velocityAtmosphere := rfl
@[simp] theorem systemAcceleration_acceleration : (p.systemAcceleration s).acceleration = (p.bodyRotation s).transpose.mulVec s.vehicleAccelerationBody + s.gravityAcceleration := rfl
@[simp] theorem systemAcceleration_thrustForceBody : (p.systemAcceleration s).thrustForceBody = s.thrustForceBody := rfl
@[simp] theorem systemAcceleration_aeroForceBody : (p.systemAcceleration s).aeroForceBody = s.aeroForceBody := rfl
@[simp] theorem systemAcceleration_vehicleAccelerationBody : (p.systemAcceleration s).vehicleAccelerationBody = s.vehicleAccelerationBody := rfl
@[simp] theorem systemAcceleration_gravityAcceleration : (p.systemAcceleration s).gravityAcceleration = s.gravityAcceleration := rfl
@[simp] theorem systemAcceleration_mass : (p.systemAcceleration s).mass = s.mass := rfl
@[simp] theorem systemAcceleration_propellantMass : (p.systemAcceleration s).propellantMass = s.propellantMass := rfl
@[simp] theorem systemAcceleration_massflow : (p.systemAcceleration s).massflow = s.massflow := rfl
@[simp] theorem systemAcceleration_temperature : (p.systemAcceleration s).temperature = s.temperature := rfl
@[simp] theorem systemAcceleration_pressure : (p.systemAcceleration s).pressure = s.pressure := rfl
@[simp] theorem systemAcceleration_density : (p.systemAcceleration s).density = s.density := rfl
@[simp] theorem systemAcceleration_machNumber : (p.systemAcceleration s).machNumber = s.machNumber := rfl
@[simp] theorem systemAcceleration_dynamicPressure : (p.systemAcceleration s).dynamicPressure = s.dynamicPressure := rfl
@[simp] theorem systemAcceleration_alpha : (p.systemAcceleration s).alpha = s.alpha := rfl
@[simp] theorem systemAcceleration_eulerAngles : (p.systemAcceleration s).eulerAngles = s.eulerAngles := rfl
@[simp] theorem systemAcceleration_throttle : (p.systemAcceleration s).throttle = s.throttle := rfl

end Post.Phase

/-! # Projections of the stages of `Phase.applyConfig` -/

namespace Post.Phase
variable {F : Type} [Flt F] (p : Phase F)

@[simp] theorem applyPlanet_state (c : Option (PlanetConfig F)) : (p.applyPlanet c).state = p.state := by cases c <;> rfl
@[simp] theorem applyPlanet_vehicle (c : Option (PlanetConfig F)) : (p.applyPlanet c).vehicle = p.vehicle := by cases c <;> rfl
@[simp] theorem applyPlanet_steering (c : Option (PlanetConfig F)) : (p.applyPlanet c).steering = p.steering := by cases c <;> rfl
@[simp] theorem applyPlanet_atmosphere (c : Option (PlanetConfig F)) : (p.applyPlanet c).atmosphere = p.atmosphere := by cases c <;> rfl
@[simp] theorem applyPlanet_launch (c : Option (PlanetConfig F)) : (p.applyPlanet c).launch = p.launch := by cases c <;> rfl
@[simp] theorem applyPlanet_integrator (c : Option (PlanetConfig F)) : (p.applyPlanet c).integrator = p.integrator := by cases c <;> rfl
@[simp] theorem applyPlanet_maxAcceleration (c : Option (PlanetConfig F)) : (p.applyPlanet c).maxAcceleration = p.maxAcceleration := by cases c <;> rfl
@[simp] theorem applyPlanet_stepsize (c : Option (PlanetConfig F)) : (p.applyPlanet c).stepsize = p.stepsize := by cases c <;> rfl
@[simp] theorem applyPlanet_baseStepsize (c : Option (PlanetConfig F)) : (p.applyPlanet c).baseStepsize = p.baseStepsize := by cases c <;> rfl
@[simp] theorem applyPlanet_endCriterion (c : Option (PlanetConfig F)) : (p.applyPlanet c).endCriterion = p.endCriterion := by cases c <;> rfl
@[simp] theorem applyPlanet_endCriterionTries (c : Option (PlanetConfig F)) : (p.applyPlanet c).endCriterionTries = p.endCriterionTries := by cases c <;> rfl
@[simp] theorem applyPlanet_ended (c : Option (PlanetConfig F)) : (p.applyPlanet c).ended = p.ended := by cases c <;> rfl
@[simp] theorem applyAtmosphere_state (c : Option (AtmosphereConfig F)) : (p.applyAtmosphere c).state = p.state := by cases c <;> rfl
@[simp] theorem applyAtmosphere_vehicle (c : Option (AtmosphereConfig F)) : (p.applyAtmosphere c).vehicle = p.vehicle := by cases c <;> rfl
@[simp] theorem applyAtmosphere_steering (c : Option (AtmosphereConfig F)) : (p.applyAtmosphere c).steering = p.steering := by cases c <;> rfl
@[simp] theorem applyAtmosphere_planet (c : Option (AtmosphereConfig F)) : (p.applyAtmosphere c).planet = p.planet := by cases c <;> rfl
@[simp] theorem applyAtmosphere_launch (c : Option (AtmosphereConfig F)) : (p.applyAtmosphere c).launch = p.launch := by cases c <;> rfl
@[simp] theorem applyAtmosphere_integrator (c : Option (AtmosphereConfig F)) : (p.applyAtmosphere c).integrator = p.integrator := by cases c <;> rfl
@[simp] theorem applyAtmosphere_maxAcceleration (c : Option (AtmosphereConfig F)) : (p.applyAtmosphere c).maxAcceleration = p.maxAcceleration := by cases c <;> rfl
@[simp] theorem applyAtmosphere_stepsize (c : Option (AtmosphereConfig F)) : (p.applyAtmosphere c).stepsize = p.stepsize := by cases c <;> rfl
@[simp] theorem applyAtmosphere_baseStepsize (c : Option (AtmosphereConfig F)) : (p.applyAtmosphere c).baseStepsize = p.baseStepsize := by cases c <;> rfl
@[simp] theorem applyAtmosphere_endCriterion (c : Option (AtmosphereConfig F)) : (p.applyAtmosphere c).endCriterion = p.endCriterion := by cases c <;> rfl
@[simp] theorem applyAtmosphere_endCriterionTries (c : Option (AtmosphereConfig F)) : (p.applyAtmosphere c).endCriterionTries = p.endCriterionTries := by cases c <;> rfl
@[simp] theorem applyAtmosphere_ended (c : Option (AtmosphereConfig F)) : (p.applyAtmosphere c).ended = p.ended := by cases c <;> rfl
@[simp] theorem applyStructureMass_vehicle (c : Option F) : (p.applyStructureMass c).vehicle = p.vehicle := by cases c <;> rfl
@[simp] theorem applyStructureMass_steering (c : Option F) : (p.applyStructureMass c).steering = p.steering := by cases c <;> rfl
@[simp] theorem applyStructureMass_atmosphere (c : Option F) : (p.applyStructureMass c).atmosphere = p.atmosphere := by cases c <;> rfl
@[simp] theorem applyStructureMass_planet (c : Option F) : (p.applyStructureMass c).planet = p.planet := by cases c <;> rfl
@[simp] theorem applyStructureMass_launch (c : Option F) : (p.applyStructureMass c).launch = p.launch := by cases c <;> rfl
@[simp] theorem applyStructureMass_integrator (c : Option F) : (p.applyStructureMass c).integrator = p.integrator := by cases c <;> rfl
@[simp] theorem applyStructureMass_maxAcceleration (c : Option F) : (p.applyStructureMass c).maxAcceleration = p.maxAcceleration := by cases c <;> rfl
@[simp] theorem applyStructureMass_stepsize (c : Option F) : (p.applyStructureMass c).stepsize = p.stepsize := by cases c <;> rfl
@[simp] theorem applyStructureMass_baseStepsize (c : Option F) : (p.applyStructureMass c).baseStepsize = p.baseStepsize := by cases c <;> rfl
@[simp] theorem applyStructureMass_endCriterion (c : Option F) : (p.applyStructureMass c).endCriterion = p.endCriterion := by cases c <;> rfl
@[simp] theorem applyStructureMass_endCriterionTries (c : Option F) : (p.applyStructureMass c).endCriterionTries = p.endCriterionTries := by cases c <;> rfl
@[simp] theorem applyStructureMass_ended (c : Option F) : (p.applyStructureMass c).ended = p.ended := by cases c <;> rfl
@[simp] theorem applyStructureMass_state_time (c : Option F) : (p.applyStructureMass c).state.time = p.state.time := by cases c <;> rfl
@[simp] theorem applyStructureMass_state_timeSinceEvent (c : Option F) : (p.applyStructureMass c).state.timeSinceEvent = p.state.timeSinceEvent := by cases c <;> rfl
@[simp] theorem applyStructureMass_state_position (c : Option F) : (p.applyStructureMass c).state.position = p.state.position := by cases c <;> rfl
@[simp] theorem applyStructureMass_state_positionPlanet (c : Option F) : (p.applyStructureMass c).state.positionPlanet = p.state.positionPlanet := by cases c <;> rfl
@[simp] theorem applyStructureMass_state_altitude (c : Option F) : (p.applyStructureMass c).state.altitude = p.state.altitude := by cases c <;> rfl
@[simp] theorem applyStructureMass_state_altitudeGeopotential (c : Option F) : (p.applyStructureMass c).state.altitudeGeopotential = p.state.altitudeGeopotential := by cases c <;> rfl
@[simp] theorem applyStructureMass_state_velocity (c : Option F) : (p.applyStructureMass c).state.velocity = p.state.velocity := by cases c <;> rfl
@[simp] theorem applyStructureMass_state_velocityPlanet (c : Option F) : (p.applyStructureMass c).state.velocityPlanet = p.state.velocityPlanet := by cases c <;> rfl
@[simp] theorem applyStructureMass_state_velocityAtmosphere (c : Option F) : (p.applyStructureMass c).state.velocityAtmosphere = p.state.velocityAtmosphere := by cases c <;> rfl
@[simp] theorem applyStructureMass_state_acceleration (c : Option F) : (p.applyStructureMass c).state.acceleration = p.state.acceleration := by cases c <;> rfl
@[simp] theorem applyStructureMass_state_thrustForceBody (c : Option F) : (p.applyStructureMass c).state.thrustForceBody = p.state.thrustForceBody := by cases c <;> rfl
@[simp] theorem applyStructureMass_state_aeroForceBody (c : Option F) : (p.applyStructureMass c).state.aeroForceBody = p.state.aeroForceBody := by cases c <;> rfl
@[simp] theorem applyStructureMass_state_vehicleAccelerationBody (c : Option F) : (p.applyStructureMass c).state.vehicleAccelerationBody = p.state.vehicleAccelerationBody := by cases c <;> rfl
@[simp] theorem applyStructureMass_state_gravityAcceleration (c : Option F) : (p.applyStructureMass c).state.gravityAcceleration = p.state.gravityAcceleration := by cases c <;> rfl
@[simp] theorem applyStructureMass_state_propellantMass (c : Option F) : (p.applyStructureMass c).state.propellantMass = p.state.propellantMass := by cases c <;> rfl
@[simp] theorem applyStructureMass_state_massflow (c : Option F) : (p.applyStructureMass c).state.massflow = p.state.massflow := by cases c <;> rfl
@[simp] theorem applyStructureMass_state_temperature (c : Option F) : (p.applyStructureMass c).state.temperature = p.state.temperature := by cases c <;> rfl
@[simp] theorem applyStructureMass_state_pressure (c : Option F) : (p.applyStructureMass c).state.pressure = p.state.pressure := by cases c <;> rfl
@[simp] theorem applyStructureMass_state_density (c : Option F) : (p.applyStructureMass c).state.density = p.state.density := by cases c <;> rfl
@[simp] theorem applyStructureMass_state_machNumber (c : Option F) : (p.applyStructureMass c).state.machNumber = p.state.machNumber := by cases c <;> rfl
@[simp] theorem applyStructureMass_state_dynamicPressure (c : Option F) : (p.applyStructureMass c).state.dynamicPressure = p.state.dynamicPressure := by cases c <;> rfl
@[simp] theorem applyStructureMass_state_alpha (c : Option F) : (p.applyStructureMass c).state.alpha = p.state.alpha := by cases c <;> rfl
@[simp] theorem applyStructureMass_state_eulerAngles (c : Option F) : (p.applyStructureMass c).state.eulerAngles = p.state.eulerAngles := by cases c <;> rfl
@[simp] theorem applyStructureMass_state_throttle (c : Option F) : (p.applyStructureMass c).state.throttle = p.state.throttle := by cases c <;> rfl
@[simp] theorem applyPropellantMass_vehicle (c : Option F) : (p.applyPropellantMass c).vehicle = p.vehicle := by cases c <;> rfl
@[simp] theorem applyPropellantMass_steering (c : Option F) : (p.applyPropellantMass c).steering = p.steering := by cases c <;> rfl
@[simp] theorem applyPropellantMass_atmosphere (c : Option F) : (p.applyPropellantMass c).atmosphere = p.atmosphere := by cases c <;> rfl
@[simp] theorem applyPropellantMass_planet (c : Option F) : (p.applyPropellantMass c).planet = p.planet := by cases c <;> rfl
@[simp] theorem applyPropellantMass_launch (c : Option F) : (p.applyPropellantMass c).launch = p.launch := by cases c <;> rfl
@[simp] theorem applyPropellantMass_integrator (c : Option F) : (p.applyPropellantMass c).integrator = p.integrator := by cases c <;> rfl
@[simp] theorem applyPropellantMass_maxAcceleration (c : Option F) : (p.applyPropellantMass c).maxAcceleration = p.maxAcceleration := by cases c <;> rfl
@[simp] theorem applyPropellantMass_stepsize (c : Option F) : (p.applyPropellantMass c).stepsize = p.stepsize := by cases c <;> rfl
@[simp] theorem applyPropellantMass_baseStepsize (c : Option F) : (p.applyPropellantMass c).baseStepsize = p.baseStepsize := by cases c <;> rfl
@[simp] theorem applyPropellantMass_endCriterion (c : Option F) : (p.applyPropellantMass c).endCriterion = p.endCriterion := by cases c <;> rfl
@[simp] theorem applyPropellantMass_endCriterionTries (c : Option F) : (p.applyPropellantMass c).endCriterionTries = p.endCriterionTries := by cases c <;> rfl
@[simp] theorem applyPropellantMass_ended (c : Option F) : (p.applyPropellantMass c).ended = p.ended := by cases c <;> rfl
@[simp] theorem applyPropellantMass_state_time (c : Option F) : (p.applyPropellantMass c).state.time = p.state.time := by cases c <;> rfl
@[simp] theorem applyPropellantMass_state_timeSinceEvent (c : Option F) : (p.applyPropellantMass c).state.timeSinceEvent = p.state.timeSinceEvent := by cases c <;> rfl
@[simp] theorem applyPropellantMass_state_position (c : Option F) : (p.applyPropellantMass c).state.position = p.state.position := by cases c <;> rfl
@[simp] theorem applyPropellantMass_state_positionPlanet (c : Option F) : (p.applyPropellantMass c).state.positionPlanet = p.state.positionPlanet := by cases c <;> rfl
@[simp] theorem applyPropellantMass_state_altitude (c : Option F) : (p.applyPropellantMass c).state.altitude = p.state.altitude := by cases c <;> rfl
@[simp] theorem applyPropellantMass_state_altitudeGeopotential (c : Option F) : (p.applyPropellantMass c).state.altitudeGeopotential = p.state.altitudeGeopotential := by cases c <;> rfl
@[simp] theorem applyPropellantMass_state_velocity (c : Option F) : (p.applyPropellantMass c).state.velocity = p.state.velocity := by cases c <;> rfl
@[simp] theorem applyPropellantMass_state_velocityPlanet (c : Option F) : (p.applyPropellantMass c).state.velocityPlanet = p.state.velocityPlanet := by cases c <;> rfl
@[simp] theorem applyPropellantMass_state_velocityAtmosphere (c : Option F) : (p.applyPropellantMass c).state.velocityAtmosphere = p.state.velocityAtmosphere := by cases c <;> rfl
@[simp] theorem applyPropellantMass_state_acceleration (c : Option F) : (p.applyPropellantMass c).state.acceleration = p.state.acceleration := by cases c <;> rfl
@[simp] theorem applyPropellantMass_state_thrustForceBody (c : Option F) : (p.applyPropellantMass c).state.thrustForceBody = p.state.thrustForceBody := by cases c <;> rfl
@[simp] theorem applyPropellantMass_state_aeroForceBody (c : Option F) : (p.applyPropellantMass c).state.aeroForceBody = p.state.aeroForceBody := by cases c <;> rfl
@[simp] theorem applyPropellantMass_state_vehicleAccelerationBody (c : Option F) : (p.applyPropellantMass c).state.vehicleAccelerationBody = p.state.vehicleAccelerationBody := by cases c <;> rfl
@[simp] theorem applyPropellantMass_state_gravityAcceleration (c : Option F) : (p.applyPropellantMass c).state.gravityAcceleration = p.state.gravityAcceleration := by cases c <;> rfl
@[simp] theorem applyPropellantMass_state_propellantMass (c : Option F) : (p.applyPropellantMass c).state.propellantMass = p.state.propellantMass := by cases c <;> rfl
@[simp] theorem applyPropellantMass_state_massflow (c : Option F) : (p.applyPropellantMass c).state.massflow = p.state.massflow := by cases c <;> rfl
@[simp] theorem applyPropellantMass_state_temperature (c : Option F) : (p.applyPropellantMass c).state.temperature = p.state.temperature := by cases c <;> rfl
@[simp] theorem applyPropellantMass_state_pressure (c : Option F) : (p.applyPropellantMass c).state.pressure = p.state.pressure := by cases c <;> rfl
@[simp] theorem applyPropellantMass_state_density (c : Option F) : (p.applyPropellantMass c).state.density = p.state.density := by cases c <;> rfl
@[simp] theorem applyPropellantMass_state_machNumber (c : Option F) : (p.applyPropellantMass c).state.machNumber = p.state.machNumber := by cases c <;> rfl
@[simp] theorem applyPropellantMass_state_dynamicPressure (c : Option F) : (p.applyPropellantMass c).state.dynamicPressure = p.state.dynamicPressure := by cases c <;> rfl
@[simp] theorem applyPropellantMass_state_alpha (c : Option F) : (p.applyPropellantMass c).state.alpha = p.state.alpha := by cases c <;> rfl
@[simp] theorem applyPropellantMass_state_eulerAngles (c : Option F) : (p.applyPropellantMass c).state.eulerAngles = p.state.eulerAngles := by cases c <;> rfl
@[simp] theorem applyPropellantMass_state_throttle (c : Option F) : (p.applyPropellantMass c).state.throttle = p.state.throttle := by cases c <;> rfl
@[simp] theorem applyMaxAcceleration_state (c : Option F) : (p.applyMaxAcceleration c).state = p.state := by cases c with | none => rfl | some a => unfold applyMaxAcceleration; dsimp only <;> (split <;> rfl)
@[simp] theorem applyMaxAcceleration_vehicle (c : Option F) : (p.applyMaxAcceleration c).vehicle = p.vehicle := by cases c with | none => rfl | some a => unfold applyMaxAcceleration; dsimp only <;> (split <;> rfl)
@[simp] theorem applyMaxAcceleration_steering (c : Option F) : (p.applyMaxAcceleration c).steering = p.steering := by cases c with | none => rfl | some a => unfold applyMaxAcceleration; dsimp only <;> (split <;> rfl)
@[simp] theorem applyMaxAcceleration_atmosphere (c : Option F) : (p.applyMaxAcceleration c).atmosphere = p.atmosphere := by cases c with | none => rfl | some a => unfold applyMaxAcceleration; dsimp only <;> (split <;> rfl)
@[simp] theorem applyMaxAcceleration_planet (c : Option F) : (p.applyMaxAcceleration c).planet = p.planet := by cases c with | none => rfl | some a => unfold applyMaxAcceleration; dsimp only <;> (split <;> rfl)
@[simp] theorem applyMaxAcceleration_launch (c : Option F) : (p.applyMaxAcceleration c).launch = p.launch := by cases c with | none => rfl | some a => unfold applyMaxAcceleration; dsimp only <;> (split <;> rfl)
@[simp] theorem applyMaxAcceleration_integrator (c : Option F) : (p.applyMaxAcceleration c).integrator = p.integrator := by cases c with | none => rfl | some a => unfold applyMaxAcceleration; dsimp only <;> (split <;> rfl)
@[simp] theorem applyMaxAcceleration_stepsize (c : Option F) : (p.applyMaxAcceleration c).stepsize = p.stepsize := by cases c with | none => rfl | some a => unfold applyMaxAcceleration; dsimp only <;> (split <;> rfl)
@[simp] theorem applyMaxAcceleration_baseStepsize (c : Option F) : (p.applyMaxAcceleration c).baseStepsize = p.baseStepsize := by cases c with | none => rfl | some a => unfold applyMaxAcceleration; dsimp only <;> (split <;> rfl)
@[simp] theorem applyMaxAcceleration_endCriterion (c : Option F) : (p.applyMaxAcceleration c).endCriterion = p.endCriterion := by cases c with | none => rfl | some a => unfold applyMaxAcceleration; dsimp only <;> (split <;> rfl)
@[simp] theorem applyMaxAcceleration_endCriterionTries (c : Option F) : (p.applyMaxAcceleration c).endCriterionTries = p.endCriterionTries := by cases c with | none => rfl | some a => unfold applyMaxAcceleration; dsimp only <;> (split <;> rfl)
@[simp] theorem applyMaxAcceleration_ended (c : Option F) : (p.applyMaxAcceleration c).ended = p.ended := by cases c with | none => rfl | some a => unfold applyMaxAcceleration; dsimp only <;> (split <;> rfl)
@[simp] theorem applySteering_state (c : Option (SteeringConfig F)) : (p.applySteering c).state = p.state := by cases c <;> rfl
@[simp] theorem applySteering_vehicle (c : Option (SteeringConfig F)) : (p.applySteering c).vehicle = p.vehicle := by cases c <;> rfl
@[simp] theorem applySteering_atmosphere (c : Option (SteeringConfig F)) : (p.applySteering c).atmosphere = p.atmosphere := by cases c <;> rfl
@[simp] theorem applySteering_planet (c : Option (SteeringConfig F)) : (p.applySteering c).planet = p.planet := by cases c <;> rfl
@[simp] theorem applySteering_launch (c : Option (SteeringConfig F)) : (p.applySteering c).launch = p.launch := by cases c <;> rfl
@[simp] theorem applySteering_integrator (c : Option (SteeringConfig F)) : (p.applySteering c).integrator = p.integrator := by cases c <;> rfl
@[simp] theorem applySteering_maxAcceleration (c : Option (SteeringConfig F)) : (p.applySteering c).maxAcceleration = p.maxAcceleration := by cases c <;> rfl
@[simp] theorem applySteering_stepsize (c : Option (SteeringConfig F)) : (p.applySteering c).stepsize = p.stepsize := by cases c <;> rfl
@[simp] theorem applySteering_baseStepsize (c : Option (SteeringConfig F)) : (p.applySteering c).baseStepsize = p.baseStepsize := by cases c <;> rfl
@[simp] theorem applySteering_endCriterion (c : Option (SteeringConfig F)) : (p.applySteering c).endCriterion = p.endCriterion := by cases c <;> rfl
@[simp] theorem applySteering_endCriterionTries (c : Option (SteeringConfig F)) : (p.applySteering c).endCriterionTries = p.endCriterionTries := by cases c <;> rfl
@[simp] theorem applySteering_ended (c : Option (SteeringConfig F)) : (p.applySteering c).ended = p.ended := by cases c <;> rfl
@[simp] theorem applyStepsize_state (c : Option F) : (p.applyStepsize c).state = p.state := by cases c <;> rfl
@[simp] theorem applyStepsize_vehicle (c : Option F) : (p.applyStepsize c).vehicle = p.vehicle := by cases c <;> rfl
@[simp] theorem applyStepsize_steering (c : Option F) : (p.applyStepsize c).steering = p.steering := by cases c <;> rfl
@[simp] theorem applyStepsize_atmosphere (c : Option F) : (p.applyStepsize c).atmosphere = p.atmosphere := by cases c <;> rfl
@[simp] theorem applyStepsize_planet (c : Option F) : (p.applyStepsize c).planet = p.planet := by cases c <;> rfl
@[simp] theorem applyStepsize_launch (c : Option F) : (p.applyStepsize c).launch = p.launch := by cases c <;> rfl
@[simp] theorem applyStepsize_integrator (c : Option F) : (p.applyStepsize c).integrator = p.integrator := by cases c <;> rfl
@[simp] theorem applyStepsize_maxAcceleration (c : Option F) : (p.applyStepsize c).maxAcceleration = p.maxAcceleration := by cases c <;> rfl
@[simp] theorem applyStepsize_baseStepsize (c : Option F) : (p.applyStepsize c).baseStepsize = p.baseStepsize := by cases c <;> rfl
@[simp] theorem applyStepsize_endCriterion (c : Option F) : (p.applyStepsize c).endCriterion = p.endCriterion := by cases c <;> rfl
@[simp] theorem applyStepsize_endCriterionTries (c : Option F) : (p.applyStepsize c).endCriterionTries = p.endCriterionTries := by cases c <;> rfl
@[simp] theorem applyStepsize_ended (c : Option F) : (p.applyStepsize c).ended = p.ended := by cases c <;> rfl
@[simp] theorem applyEndCriterion_state (c : Option (StateVariable × F)) : (p.applyEndCriterion c).state = p.state := by cases c <;> rfl
@[simp] theorem applyEndCriterion_vehicle (c : Option (StateVariable × F)) : (p.applyEndCriterion c).vehicle = p.vehicle := by cases c <;> rfl
@[simp] theorem applyEndCriterion_steering (c : Option (StateVariable × F)) : (p.applyEndCriterion c).steering = p.steering := by cases c <;> rfl
@[simp] theorem applyEndCriterion_atmosphere (c : Option (StateVariable × F)) : (p.applyEndCriterion c).atmosphere = p.atmosphere := by cases c <;> rfl
@[simp] theorem applyEndCriterion_planet (c : Option (StateVariable × F)) : (p.applyEndCriterion c).planet = p.planet := by cases c <;> rfl
@[simp] theorem applyEndCriterion_launch (c : Option (StateVariable × F)) : (p.applyEndCriterion c).launch = p.launch := by cases c <;> rfl
@[simp] theorem applyEndCriterion_integrator (c : Option (StateVariable × F)) : (p.applyEndCriterion c).integrator = p.integrator := by cases c <;> rfl
@[simp] theorem applyEndCriterion_maxAcceleration (c : Option (StateVariable × F)) : (p.applyEndCriterion c).maxAcceleration = p.maxAcceleration := by cases c <;> rfl
@[simp] theorem applyEndCriterion_stepsize (c : Option (StateVariable × F)) : (p.applyEndCriterion c).stepsize = p.stepsize := by cases c <;> rfl
@[simp] theorem applyEndCriterion_baseStepsize (c : Option (StateVariable × F)) : (p.applyEndCriterion c).baseStepsize = p.baseStepsize := by cases c <;> rfl
@[simp] theorem applyEndCriterion_endCriterionTries (c : Option (StateVariable × F)) : (p.applyEndCriterion c).endCriterionTries = p.endCriterionTries := by cases c <;> rfl
@[simp] theorem applyEndCriterion_ended (c : Option (StateVariable × F)) : (p.applyEndCriterion c).ended = p.ended := by cases c <;> rfl
@[simp] theorem applyVehicle_steering (c : Option (VehicleConfig F)) : (p.applyVehicle c).steering = p.steering := by cases c <;> simp [applyVehicle]
@[simp] theorem applyVehicle_atmosphere (c : Option (VehicleConfig F)) : (p.applyVehicle c).atmosphere = p.atmosphere := by cases c <;> simp [applyVehicle]
@[simp] theorem applyVehicle_planet (c : Option (VehicleConfig F)) : (p.applyVehicle c).planet = p.planet := by cases c <;> simp [applyVehicle]
@[simp] theorem applyVehicle_launch (c : Option (VehicleConfig F)) : (p.applyVehicle c).launch = p.launch := by cases c <;> simp [applyVehicle]
@[simp] theorem applyVehicle_integrator (c : Option (VehicleConfig F)) : (p.applyVehicle c).integrator = p.integrator := by cases c <;> simp [applyVehicle]
@[simp] theorem applyVehicle_maxAcceleration (c : Option (VehicleConfig F)) : (p.applyVehicle c).maxAcceleration = p.maxAcceleration := by cases c <;> simp [applyVehicle]
@[simp] theorem applyVehicle_stepsize (c : Option (VehicleConfig F)) : (p.applyVehicle c).stepsize = p.stepsize := by cases c <;> simp [applyVehicle]
@[simp] theorem applyVehicle_baseStepsize (c : Option (VehicleConfig F)) : (p.applyVehicle c).baseStepsize = p.baseStepsize := by cases c <;> simp [applyVehicle]
@[simp] theorem applyVehicle_endCriterion (c : Option (VehicleConfig F)) : (p.applyVehicle c).endCriterion = p.endCriterion := by cases c <;> simp [applyVehicle]
@[simp] theorem applyVehicle_endCriterionTries (c : Option (VehicleConfig F)) : (p.applyVehicle c).endCriterionTries = p.endCriterionTries := by cases c <;> simp [applyVehicle]
@[simp] theorem applyVehicle_ended (c : Option (VehicleConfig F)) : (p.applyVehicle c).ended = p.ended := by cases c <;> simp [applyVehicle]
@[simp] theorem applyVehicle_state_time (c : Option (VehicleConfig F)) : (p.applyVehicle c).state.time = p.state.time := by cases c <;> simp [applyVehicle]
@[simp] theorem applyVehicle_state_timeSinceEvent (c : Option (VehicleConfig F)) : (p.applyVehicle c).state.timeSinceEvent = p.state.timeSinceEvent := by cases c <;> simp [applyVehicle]
@[simp] theorem applyVehicle_state_position (c : Option (VehicleConfig F)) : (p.applyVehicle c).state.position = p.state.position := by cases c <;> simp [applyVehicle]
@[simp] theorem applyVehicle_state_positionPlanet (c : Option (VehicleConfig F)) : (p.applyVehicle c).state.positionPlanet = p.state.positionPlanet := by cases c <;> simp [applyVehicle]
@[simp] theorem applyVehicle_state_altitude (c : Option (VehicleConfig F)) : (p.applyVehicle c).state.altitude = p.state.altitude := by cases c <;> simp [applyVehicle]
@[simp] theorem applyVehicle_state_altitudeGeopotential (c : Option (VehicleConfig F)) : (p.applyVehicle c).state.altitudeGeopotential = p.state.altitudeGeopotential := by cases c <;> simp [applyVehicle]
@[simp] theorem applyVehicle_state_velocity (c : Option (VehicleConfig F)) : (p.applyVehicle c).state.velocity = p.state.velocity := by cases c <;> simp [applyVehicle]
@[simp] theorem applyVehicle_state_velocityPlanet (c : Option (VehicleConfig F)) : (p.applyVehicle c).state.velocityPlanet = p.state.velocityPlanet := by cases c <;> simp [applyVehicle]
@[simp] theorem applyVehicle_state_velocityAtmosphere (c : Option (VehicleConfig F)) : (p.applyVehicle c).state.velocityAtmosphere = p.state.velocityAtmosphere := by cases c <;> simp [applyVehicle]
@[simp] theorem applyVehicle_state_acceleration (c : Option (VehicleConfig F)) : (p.applyVehicle c).state.acceleration = p.state.acceleration := by cases c <;> simp [applyVehicle]
@[simp] theorem applyVehicle_state_thrustForceBody (c : Option (VehicleConfig F)) : (p.applyVehicle c).state.thrustForceBody = p.state.thrustForceBody := by cases c <;> simp [applyVehicle]
@[simp] theorem applyVehicle_state_aeroForceBody (c : Option (VehicleConfig F)) : (p.applyVehicle c).state.aeroForceBody = p.state.aeroForceBody := by cases c <;> simp [applyVehicle]
@[simp] theorem applyVehicle_state_vehicleAccelerationBody (c : Option (VehicleConfig F)) : (p.applyVehicle c).state.vehicleAccelerationBody = p.state.vehicleAccelerationBody := by cases c <;> simp [applyVehicle]
@[simp] theorem applyVehicle_state_gravityAcceleration (c : Option (VehicleConfig F)) : (p.applyVehicle c).state.gravityAcceleration = p.state.gravityAcceleration := by cases c <;> simp [applyVehicle]
@[simp] theorem applyVehicle_state_propellantMass (c : Option (VehicleConfig F)) : (p.applyVehicle c).state.propellantMass = p.state.propellantMass := by cases c <;> simp [applyVehicle]
@[simp] theorem applyVehicle_state_massflow (c : Option (VehicleConfig F)) : (p.applyVehicle c).state.massflow = p.state.massflow := by cases c <;> simp [applyVehicle]
@[simp] theorem applyVehicle_state_temperature (c : Option (VehicleConfig F)) : (p.applyVehicle c).state.temperature = p.state.temperature := by cases c <;> simp [applyVehicle]
@[simp] theorem applyVehicle_state_pressure (c : Option (VehicleConfig F)) : (p.applyVehicle c).state.pressure = p.state.pressure := by cases c <;> simp [applyVehicle]
@[simp] theorem applyVehicle_state_density (c : Option (VehicleConfig F)) : (p.applyVehicle c).state.density = p.state.density := by cases c <;> simp [applyVehicle]
@[simp] theorem applyVehicle_state_machNumber (c : Option (VehicleConfig F)) : (p.applyVehicle c).state.machNumber = p.state.machNumber := by cases c <;> simp [applyVehicle]
@[simp] theorem applyVehicle_state_dynamicPressure (c : Option (VehicleConfig F)) : (p.applyVehicle c).state.dynamicPressure = p.state.dynamicPressure := by cases c <;> simp [applyVehicle]
@[simp] theorem applyVehicle_state_alpha (c : Option (VehicleConfig F)) : (p.applyVehicle c).state.alpha = p.state.alpha := by cases c <;> simp [applyVehicle]
@[simp] theorem applyVehicle_state_eulerAngles (c : Option (VehicleConfig F)) : (p.applyVehicle c).state.eulerAngles = p.state.eulerAngles := by cases c <;> simp [applyVehicle]
@[simp] theorem applyVehicle_state_throttle (c : Option (VehicleConfig F)) : (p.applyVehicle c).state.throttle = p.state.throttle := by cases c <;> simp [applyVehicle]
@[simp] theorem applyConfig_launch (c : PhaseConfig F) : (p.applyConfig c).launch = p.launch := by simp [applyConfig]
@[simp] theorem applyConfig_integrator (c : PhaseConfig F) : (p.applyConfig c).integrator = p.integrator := by simp [applyConfig]
@[simp] theorem applyConfig_baseStepsize (c : PhaseConfig F) : (p.applyConfig c).baseStepsize = p.baseStepsize := by simp [applyConfig]
@[simp] theorem applyConfig_endCriterionTries (c : PhaseConfig F) : (p.applyConfig c).endCriterionTries = p.endCriterionTries := by simp [applyConfig]
@[simp] theorem applyConfig_ended (c : PhaseConfig F) : (p.applyConfig c).ended = p.ended := by simp [applyConfig]
@[simp] theorem applyConfig_state_time (c : PhaseConfig F) : (p.applyConfig c).state.time = p.state.time := by simp [applyConfig]
@[simp] theorem applyConfig_state_timeSinceEvent (c : PhaseConfig F) : (p.applyConfig c).state.timeSinceEvent = p.state.timeSinceEvent := by simp [applyConfig]
@[simp] theorem applyConfig_state_position (c : PhaseConfig F) : (p.applyConfig c).state.position = p.state.position := by simp [applyConfig]
@[simp] theorem applyConfig_state_positionPlanet (c : PhaseConfig F) : (p.applyConfig c).state.positionPlanet = p.state.positionPlanet := by simp [applyConfig]
@[simp] theorem applyConfig_state_altitude (c : PhaseConfig F) : (p.applyConfig c).state.altitude = p.state.altitude := by simp [applyConfig]
@[simp] theorem applyConfig_state_altitudeGeopotential (c : PhaseConfig F) : (p.applyConfig c).state.altitudeGeopotential = p.state.altitudeGeopotential := by simp [applyConfig]
@[simp] theorem applyConfig_state_velocity (c : PhaseConfig F) : (p.applyConfig c).state.velocity = p.state.velocity := by simp [applyConfig]
@[simp] theorem applyConfig_state_velocityPlanet (c : PhaseConfig F) : (p.applyConfig c).state.velocityPlanet = p.state.velocityPlanet := by simp [applyConfig]
@[simp] theorem applyConfig_state_velocityAtmosphere (c : PhaseConfig F) : (p.applyConfig c).state.velocityAtmosphere = p.state.velocityAtmosphere := by simp [applyConfig]
@[simp] theorem applyConfig_state_acceleration (c : PhaseConfig F) : (p.applyConfig c).state.acceleration = p.state.acceleration := by simp [applyConfig]
@[simp] theorem applyConfig_state_thrustForceBody (c : PhaseConfig F) : (p.applyConfig c).state.thrustForceBody = p.state.thrustForceBody := by simp [applyConfig]
@[simp] theorem applyConfig_state_aeroForceBody (c : PhaseConfig F) : (p.applyConfig c).state.aeroForceBody = p.state.aeroForceBody := by simp [applyConfig]
@[simp] theorem applyConfig_state_vehicleAccelerationBody (c : PhaseConfig F) : (p.applyConfig c).state.vehicleAccelerationBody = p.state.vehicleAccelerationBody := by simp [applyConfig]
@[simp] theorem applyConfig_state_gravityAcceleration (c : PhaseConfig F) : (p.applyConfig c).state.gravityAcceleration = p.state.gravityAcceleration := by simp [applyConfig]
@[simp] theorem applyConfig_state_propellantMass (c : PhaseConfig F) : (p.applyConfig c).state.propellantMass = p.state.propellantMass := by simp [applyConfig]
@[simp] theorem applyConfig_state_massflow (c : PhaseConfig F) : (p.applyConfig c).state.massflow = p.state.massflow := by simp [applyConfig]
@[simp] theorem applyConfig_state_temperature (c : PhaseConfig F) : (p.applyConfig c).state.temperature = p.state.temperature := by simp [applyConfig]
@[simp] theorem applyConfig_state_pressure (c : PhaseConfig F) : (p.applyConfig c).state.pressure = p.state.pressure := by simp [applyConfig]
@[simp] theorem applyConfig_state_density (c : PhaseConfig F) : (p.applyConfig c).state.density = p.state.density := by simp [applyConfig]
@[simp] theorem applyConfig_state_machNumber (c : PhaseConfig F) : (p.applyConfig c).state.machNumber = p.state.machNumber := by simp [applyConfig]
@[simp] theorem applyConfig_state_dynamicPressure (c : PhaseConfig F) : (p.applyConfig c).state.dynamicPressure = p.state.dynamicPressure := by simp [applyConfig]
@[simp] theorem applyConfig_state_alpha (c : PhaseConfig F) : (p.applyConfig c).state.alpha = p.state.alpha := by simp [applyConfig]
@[simp] theorem applyConfig_state_eulerAngles (c : PhaseConfig F) : (p.applyConfig c).state.eulerAngles = p.state.eulerAngles := by simp [applyConfig]
@[simp] theorem applyConfig_state_throttle (c : PhaseConfig F) : (p.applyConfig c).state.throttle = p.state.throttle := by simp [applyConfig]

end Post.Phase
