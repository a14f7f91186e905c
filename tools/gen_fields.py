#!/usr/bin/env python3
"""Generates lean/Verif/Lemmas/Fields.lean: projections of the stages of `Phase.system`."""
fields = """time timeSinceEvent position positionPlanet altitude altitudeGeopotential velocity velocityPlanet
velocityAtmosphere acceleration thrustForceBody aeroForceBody vehicleAccelerationBody gravityAcceleration
mass propellantMass massflow temperature pressure density machNumber dynamicPressure alpha eulerAngles
throttle""".split()
stages = {
 "systemPlanet": ("p.systemPlanet s", {
   "positionPlanet": "(inertialToPlanet s.time p.planet.rotationRate).mulVec s.position",
   "velocityPlanet": "p.planet.velocityPlanet s.position s.velocity",
   "altitude": "p.planet.altitude s.position",
   "altitudeGeopotential": "p.planet.geopotentialAltitude s.position",
   "propellantMass": "s.mass - p.vehicle.structureMass",
   "gravityAcceleration": "p.planet.gravity s.position"}),
 "systemAir": ("p.systemAir s", {"velocityAtmosphere": "p.atmosphere.velocityAtmosphere s"}),
 "systemAtmosphere": ("p.systemAtmosphere s", {
   "temperature": "p.atmosphere.temperature s", "pressure": "p.atmosphere.pressure s",
   "density": "p.atmosphere.density s"}),
 "systemDynamic": ("p.systemDynamic s", {
   "machNumber": "p.atmosphere.machNumber s", "dynamicPressure": "p.atmosphere.dynamicPressure s"}),
 "systemAttitude": ("p.systemAttitude s", {"eulerAngles": "p.steering.eulerAngles s"}),
 "systemAlpha": ("p.systemAlpha s", {
   "alpha": "Vehicle.alpha ((p.bodyRotation s).mulVec s.velocityAtmosphere)"}),
 "systemForces": ("p.systemForces s a", {
   "aeroForceBody": "a",
   "throttle": "p.vehicle.autoThrottle p.maxAcceleration s.mass s.pressure a",
   "thrustForceBody": "p.vehicle.thrustForce (p.vehicle.autoThrottle p.maxAcceleration s.mass s.pressure a) s.pressure",
   "massflow": "p.vehicle.massflow (p.vehicle.autoThrottle p.maxAcceleration s.mass s.pressure a)",
   "vehicleAccelerationBody": "(a + p.vehicle.thrustForce (p.vehicle.autoThrottle p.maxAcceleration s.mass s.pressure a) s.pressure).divS s.mass"}),
 "systemAcceleration": ("p.systemAcceleration s", {
   "acceleration": "(p.bodyRotation s).transpose.mulVec s.vehicleAccelerationBody + s.gravityAcceleration"}),
}
out = ["import Verif.Model.Phase",
"/-! # Projections of the stages of `Phase.system` (generated by tools/gen_fields.py) -/",
"", "set_option linter.unusedSectionVars false", "", "namespace Post.Phase", "variable {F : Type} [Flt F] (p : Phase F) (s : State F) (a : V3 F)", ""]
for st, (e, mods) in stages.items():
    for f in fields:
        rhs = mods.get(f, f"s.{f}")
        out.append(f"@[simp] theorem {st}_{f} : ({e}).{f} = {rhs} := rfl")
out.append("""
end Post.Phase

/-! # Projections of the stages of `Phase.applyConfig` -/

namespace Post.Phase
variable {F : Type} [Flt F] (p : Phase F)
""")
pfields = "state vehicle steering atmosphere planet launch integrator maxAcceleration stepsize baseStepsize endCriterion endCriterionTries ended".split()
sfields = [f for f in fields if f != "mass"]
astages = [("applyPlanet", "Option (PlanetConfig F)", ["planet"]),
 ("applyAtmosphere", "Option (AtmosphereConfig F)", ["atmosphere"]),
 ("applyStructureMass", "Option F", ["state"]),
 ("applyPropellantMass", "Option F", ["state"]),
 ("applyMaxAcceleration", "Option F", ["maxAcceleration"]),
 ("applySteering", "Option (SteeringConfig F)", ["steering"]),
 ("applyStepsize", "Option F", ["stepsize"]),
 ("applyEndCriterion", "Option (StateVariable × F)", ["endCriterion"]),
 ("applyVehicle", "Option (VehicleConfig F)", ["state", "vehicle"])]
for st, ty, ch in astages:
    for f in pfields:
        if f not in ch:
            pr = "cases c <;> simp [applyVehicle]" if st == "applyVehicle" else (
              "cases c with | none => rfl | some a => unfold applyMaxAcceleration; dsimp only <;> (split <;> rfl)"
              if st == "applyMaxAcceleration" else "cases c <;> rfl")
            out.append(f"@[simp] theorem {st}_{f} (c : {ty}) : (p.{st} c).{f} = p.{f} := by {pr}")
    if "state" in ch:
        for f in sfields:
            pr = "cases c <;> simp [applyVehicle]" if st == "applyVehicle" else "cases c <;> rfl"
            out.append(f"@[simp] theorem {st}_state_{f} (c : {ty}) : (p.{st} c).state.{f} = p.state.{f} := by {pr}")
for f in pfields:
    if f in ("launch","integrator","baseStepsize","endCriterionTries","ended"):
        out.append(f"@[simp] theorem applyConfig_{f} (c : PhaseConfig F) : (p.applyConfig c).{f} = p.{f} := by simp [applyConfig]")
for f in sfields:
    out.append(f"@[simp] theorem applyConfig_state_{f} (c : PhaseConfig F) : (p.applyConfig c).state.{f} = p.state.{f} := by simp [applyConfig]")
out.append("\nend Post.Phase")
open("/verif/lean/Verif/Lemmas/Fields.lean", "w").write("\n".join(out) + "\n")
