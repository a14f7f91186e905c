import Verif.Model.Config
/-! # Model of `sim/src/planet.rs` -/

namespace Post
open Flt

/-- planet.rs:17-27 struct `Planet` -/
@[ext] structure Planet (F : Type) where
  equatorialRadius : F
  polarRadius : F
  grav : Grav F
  rotationRate : F

variable {F : Type} [Flt F]

/-- planet.rs:61-66 `EARTH_SPHERICAL` -/
def EARTH_SPHERICAL : Planet F where
  equatorialRadius := 2.0925741e7 * METER_PER_FOOT
  polarRadius := 2.0925741e7 * METER_PER_FOOT
  grav := ⟨1.4076539e16 * CUBIC_METER_PER_CUBIC_FOOT, 0, 0, 0⟩
  rotationRate := 7.29211e-5

/-- planet.rs:72-77 `EARTH_FISHER_1960` -/
def EARTH_FISHER_1960 : Planet F where
  equatorialRadius := 2.0925741e7 * METER_PER_FOOT
  polarRadius := 2.0855590e7 * METER_PER_FOOT
  grav := ⟨1.4076539e16 * CUBIC_METER_PER_CUBIC_FOOT, 1.0823e-3, 0, 0⟩
  rotationRate := 7.29211e-5

/-- planet.rs:83-93 `EARTH_SMITHSONIAN` -/
def EARTH_SMITHSONIAN : Planet F where
  equatorialRadius := 2.0925741e7 * METER_PER_FOOT
  polarRadius := 2.0855590e7 * METER_PER_FOOT
  grav := ⟨1.407645794e16 * CUBIC_METER_PER_CUBIC_FOOT, 1.082639e-3, -2.565e-6, -1.608e-6⟩
  rotationRate := 7.29211e-5

/-- planet.rs:29-33 `Planet::default` -/
def Planet.default : Planet F := EARTH_SPHERICAL

/-- planet.rs:37-54 `Planet::update_with_config` -/
def Planet.ofConfig (c : PlanetConfig F) : Planet F :=
  match c with
  | .spherical => EARTH_SPHERICAL
  | .fisher1960 => EARTH_FISHER_1960
  | .smithsonian => EARTH_SMITHSONIAN
  | .custom a b g w => ⟨a, b, g, w⟩

/-- planet.rs:97-106 `Planet::altitude` -/
def Planet.altitude (p : Planet F) (position : V3 F) : F :=
  let k := powi (p.equatorialRadius / p.polarRadius) 2
  let geocentricLat := asin (position.z / position.norm)
  let distanceToSurface :=
    p.equatorialRadius / sqrt (1 + (k - 1) * powi (sin geocentricLat) 2)
  position.norm - distanceToSurface

/-- planet.rs:110-114 `Planet::geopotential_altitude` -/
def Planet.geopotentialAltitude (p : Planet F) (position : V3 F) : F :=
  let altitude := p.altitude position
  let avgAltitude := 0.5 * (p.equatorialRadius + p.polarRadius)
  avgAltitude * altitude / (avgAltitude + altitude)

/-- planet.rs:117-119 `Planet::velocity_planet` -/
def Planet.velocityPlanet (p : Planet F) (position velocity : V3 F) : V3 F :=
  velocity - V3.cross ⟨0, 0, p.rotationRate⟩ position

/-- planet.rs:122-124 `Planet::mu` -/
def Planet.mu (p : Planet F) : F := p.grav.mu

/-- planet.rs:129-152 `Planet::gravity` -/
def Planet.gravity (p : Planet F) (position : V3 F) : V3 F :=
  let r := position.norm
  let R := p.equatorialRadius / r
  let Z := position.z / r
  let J := 3 / 2 * p.grav.j2
  let H := 5 / 2 * p.grav.j3
  let D := -35 / 8 * p.grav.j4
  let P := 1 + J * powi R 2 * (1 - 5 * powi Z 2)
    + H * powi R 3 / r * (3 - 7 * powi Z 2) * position.z
    + D * powi R 4 * (9 * powi Z 4 - 6 * powi Z 2 + 3 / 7)
  ⟨-p.mu * position.x / powi r 3 * P,
   -p.mu * position.y / powi r 3 * P,
   -p.mu / powi r 3
     * ((1 + J * powi R 2 * (3 - 5 * powi Z 2)) * position.z
       + H * powi R 3 / r
         * (6 * powi position.z 2 - 7 * powi position.z 2 * powi Z 2 - 3 / 5 * powi r 2)
       + D * powi R 4 * (15 / 7 - 10 * powi Z 2 + 9 * powi Z 4) * position.z)⟩

end Post
