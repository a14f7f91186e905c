import Verif.Model.State
/-! # Model of `sim/src/transformations.rs` -/

namespace Post
variable {F : Type} [Flt F]
open Flt

/-- transformations.rs:14-18, the matrix handed to `Rotation3::from_matrix` -/
def inertialToLaunchMat (lat long az : F) : M3 F :=
  ⟨⟨cos lat * cos long, cos lat * sin long, sin lat⟩,
   ⟨sin lat * cos long * sin az - cos az * sin long,
    cos az * cos long + sin az * sin lat * sin long,
    -sin az * cos lat⟩,
   ⟨-sin az * sin long - cos az * sin lat * cos long,
    sin az * cos long - cos az * sin lat * sin long,
    cos az * cos lat⟩⟩

/-- transformations.rs:13-19 `inertial_to_launch` -/
def inertialToLaunch (lat long az : F) : M3 F := rotFromMatrix (inertialToLaunchMat lat long az)

/-- transformations.rs:25-29, the matrix handed to `Rotation3::from_matrix` -/
def launchToBodyMat (roll yaw pitch : F) : M3 F :=
  ⟨⟨cos yaw * cos pitch,
    cos roll * sin yaw * cos pitch + sin roll * sin pitch,
    sin roll * sin yaw * cos pitch - cos roll * sin pitch⟩,
   ⟨-sin yaw, cos roll * cos yaw, sin roll * cos yaw⟩,
   ⟨cos yaw * sin pitch,
    cos roll * sin yaw * sin pitch - sin roll * cos pitch,
    sin roll * sin yaw * sin pitch + cos roll * cos pitch⟩⟩

/-- transformations.rs:24-30 `launch_to_body` -/
def launchToBody (roll yaw pitch : F) : M3 F := rotFromMatrix (launchToBodyMat roll yaw pitch)

/-- The launch frame `[f64; 3]`: geocentric latitude, longitude, azimuth in rad
(phase.rs:34-36). -/
@[ext] structure Launch (F : Type) where
  lat : F
  long : F
  az : F

/-- transformations.rs:38-41 `inertial_to_body` -/
def inertialToBody (launch : Launch F) (euler : Angles F) : M3 F :=
  launchToBody euler.roll euler.yaw euler.pitch * inertialToLaunch launch.lat launch.long launch.az

/-- transformations.rs:49-53, the matrix handed to `Rotation3::from_matrix` -/
def inertialToPlanetMat (time rotationRate : F) : M3 F :=
  ⟨⟨cos (rotationRate * time), sin (rotationRate * time), 0⟩,
   ⟨-sin (rotationRate * time), cos (rotationRate * time), 0⟩,
   ⟨0, 0, 1⟩⟩

/-- transformations.rs:48-54 `inertial_to_planet` -/
def inertialToPlanet (time rotationRate : F) : M3 F :=
  rotFromMatrix (inertialToPlanetMat time rotationRate)

end Post
