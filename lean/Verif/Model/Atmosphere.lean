import Verif.Model.Config
/-! # Model of `sim/src/atmosphere/standard_atmosphere_1962.rs` and `sim/src/atmosphere/mod.rs` -/

namespace Post
open Flt

/-- One row of the table: base geopotential altitude, pressure, temperature and temperature
gradient (standard_atmosphere_1962.rs:74-78). -/
structure AtmosRow (F : Type) where
  alt : F
  pres : F
  temp : F
  grad : F

variable {F : Type} [Flt F]

/-- standard_atmosphere_1962.rs:77-211 `STD_ATMOS_TABLE` (22 rows) -/
def stdAtmosTable : List (AtmosRow F) := [
  ⟨0.0 * METER_PER_FOOT, 0.21162166e4 * PASCAL_PER_PSF, 518.67 * KELVIN_PER_RANKIN,
    -0.35661600e-2 * KELVIN_PER_RANKIN / METER_PER_FOOT⟩,
  ⟨36089.239 * METER_PER_FOOT, 0.47268050e3 * PASCAL_PER_PSF, 389.97 * KELVIN_PER_RANKIN,
    0.0 * KELVIN_PER_RANKIN / METER_PER_FOOT⟩,
  ⟨65616.797 * METER_PER_FOOT, 0.11434543e3 * PASCAL_PER_PSF, 389.97 * KELVIN_PER_RANKIN,
    0.54863995e-3 * KELVIN_PER_RANKIN / METER_PER_FOOT⟩,
  ⟨104986.87 * METER_PER_FOOT, 0.18128948e2 * PASCAL_PER_PSF, 411.57 * KELVIN_PER_RANKIN,
    0.15361920e-2 * KELVIN_PER_RANKIN / METER_PER_FOOT⟩,
  ⟨154199.48 * METER_PER_FOOT, 0.23163263e1 * PASCAL_PER_PSF, 487.17 * KELVIN_PER_RANKIN,
    0.0 * KELVIN_PER_RANKIN / METER_PER_FOOT⟩,
  ⟨170603.68 * METER_PER_FOOT, 0.12322603e1 * PASCAL_PER_PSF, 487.17 * KELVIN_PER_RANKIN,
    -0.10972801e-2 * KELVIN_PER_RANKIN / METER_PER_FOOT⟩,
  ⟨200131.23 * METER_PER_FOOT, 0.38032532e0 * PASCAL_PER_PSF, 454.77 * KELVIN_PER_RANKIN,
    -0.21945600e-2 * KELVIN_PER_RANKIN / METER_PER_FOOT⟩,
  ⟨259186.35 * METER_PER_FOOT, 0.21673064e-1 * PASCAL_PER_PSF, 325.17 * KELVIN_PER_RANKIN,
    0.0 * KELVIN_PER_RANKIN / METER_PER_FOOT⟩,
  ⟨291151.57 * METER_PER_FOOT, 0.34333824e-2 * PASCAL_PER_PSF, 325.17 * KELVIN_PER_RANKIN,
    0.16953850e-2 * KELVIN_PER_RANKIN / METER_PER_FOOT⟩,
  ⟨323002.74 * METER_PER_FOOT, 0.62814785e-3 * PASCAL_PER_PSF, 379.17 * KELVIN_PER_RANKIN,
    0.28345707e-2 * KELVIN_PER_RANKIN / METER_PER_FOOT⟩,
  ⟨354753.59 * METER_PER_FOOT, 0.15361733e-3 * PASCAL_PER_PSF, 469.17 * KELVIN_PER_RANKIN,
    0.56867005e-2 * KELVIN_PER_RANKIN / METER_PER_FOOT⟩,
  ⟨396406.39 * METER_PER_FOOT, 0.52676024e-4 * PASCAL_PER_PSF, 649.17 * KELVIN_PER_RANKIN,
    0.11443751e-1 * KELVIN_PER_RANKIN / METER_PER_FOOT⟩,
  ⟨480781.04 * METER_PER_FOOT, 0.10566108e-4 * PASCAL_PER_PSF, 1729.17 * KELVIN_PER_RANKIN,
    0.86358208e-2 * KELVIN_PER_RANKIN / METER_PER_FOOT⟩,
  ⟨512046.16 * METER_PER_FOOT, 0.77263469e-5 * PASCAL_PER_PSF, 1999.17 * KELVIN_PER_RANKIN,
    0.57749093e-2 * KELVIN_PER_RANKIN / METER_PER_FOOT⟩,
  ⟨543215.48 * METER_PER_FOOT, 0.58405376e-5 * PASCAL_PER_PSF, 2179.17 * KELVIN_PER_RANKIN,
    0.40610461e-2 * KELVIN_PER_RANKIN / METER_PER_FOOT⟩,
  ⟨605268.45 * METER_PER_FOOT, 0.35246030e-5 * PASCAL_PER_PSF, 2431.17 * KELVIN_PER_RANKIN,
    0.29274135e-2 * KELVIN_PER_RANKIN / METER_PER_FOOT⟩,
  ⟨728243.91 * METER_PER_FOOT, 0.14559124e-5 * PASCAL_PER_PSF, 2791.17 * KELVIN_PER_RANKIN,
    0.23812804e-2 * KELVIN_PER_RANKIN / METER_PER_FOOT⟩,
  ⟨939894.74 * METER_PER_FOOT, 0.39418091e-6 * PASCAL_PER_PSF, 3295.17 * KELVIN_PER_RANKIN,
    0.20152600e-2 * KELVIN_PER_RANKIN / METER_PER_FOOT⟩,
  ⟨1234645.7 * METER_PER_FOOT, 0.84380249e-7 * PASCAL_PER_PSF, 3889.17 * KELVIN_PER_RANKIN,
    0.16354849e-2 * KELVIN_PER_RANKIN / METER_PER_FOOT⟩,
  ⟨1520799.4 * METER_PER_FOOT, 0.22945543e-7 * PASCAL_PER_PSF, 4357.17 * KELVIN_PER_RANKIN,
    0.11010085e-2 * KELVIN_PER_RANKIN / METER_PER_FOOT⟩,
  ⟨1798726.4 * METER_PER_FOOT, 0.72259271e-8 * PASCAL_PER_PSF, 4663.17 * KELVIN_PER_RANKIN,
    0.73319725e-3 * KELVIN_PER_RANKIN / METER_PER_FOOT⟩,
  ⟨2068776.5 * METER_PER_FOOT, 0.24958752e-8 * PASCAL_PER_PSF, 4861.17 * KELVIN_PER_RANKIN,
    0.0 * KELVIN_PER_RANKIN / METER_PER_FOOT⟩]

/-- The loop of `get_table_row` started after row `prev`: return the row before the first one
whose altitude exceeds `alt`, or the last row. -/
def rowFrom (alt : F) (prev : AtmosRow F) : List (AtmosRow F) → AtmosRow F
  | [] => prev
  | r :: rest => if gt r.alt alt then prev else rowFrom alt r rest

/-- standard_atmosphere_1962.rs:65-72 `get_table_row`.  (The table is a non-empty constant; the
first branch is never taken.) -/
def getTableRow (alt : F) : AtmosRow F :=
  match (stdAtmosTable : List (AtmosRow F)) with
  | [] => ⟨nan, nan, nan, nan⟩
  | r :: rest => rowFrom alt r rest

/-- standard_atmosphere_1962.rs:15-19 `temperature` -/
def stdTemperature (alt : F) : F :=
  let row := getTableRow alt
  row.temp + row.grad * (alt - row.alt)

/-- standard_atmosphere_1962.rs:31-43 `pressure` -/
def stdPressure (alt : F) : F :=
  let row := getTableRow alt
  let temperature := stdTemperature alt
  if !(eq row.grad 0) then
    row.pres * powf (row.temp / temperature) ((STD_GRAVITY / AIR_GAS_CONSTANT) / row.grad)
  else
    row.pres * exp (-(STD_GRAVITY / AIR_GAS_CONSTANT) * (alt - row.alt) / row.temp)

/-- standard_atmosphere_1962.rs:49-53 `density` -/
def stdDensity (alt : F) : F :=
  let temperature := stdTemperature alt
  let pressure := stdPressure alt
  pressure / (temperature * AIR_GAS_CONSTANT)

/-- standard_atmosphere_1962.rs:58-61 `speed_of_sound` -/
def stdSpeedOfSound (alt : F) : F :=
  sqrt (AIR_KAPPA * AIR_GAS_CONSTANT * stdTemperature alt)

/-- atmosphere/mod.rs:34-42 enum `AtmosphereModel` -/
inductive AtmosphereModel
  | noAtmosphere
  | standardAtmosphere1962
deriving DecidableEq, Repr

/-- atmosphere/mod.rs:23-28 struct `Atmosphere` -/
@[ext] structure Atmosphere (F : Type) where
  wind : V3 F
  model : AtmosphereModel

namespace Atmosphere

/-- atmosphere/mod.rs:22,33,37 `#[derive(Default)]` -/
def default : Atmosphere F := ⟨.zero, .noAtmosphere⟩

/-- atmosphere/mod.rs:46-57 `Atmosphere::update_with_config` -/
def updateWithConfig {F : Type} (a : Atmosphere F) (c : AtmosphereConfig F) : Atmosphere F :=
  let a := match c.enabled with
    | some true => { a with model := .standardAtmosphere1962 }
    | some false => { a with model := .noAtmosphere }
    | none => a
  match c.wind with
    | some w => { a with wind := w }
    | none => a

/-- atmosphere/mod.rs:64-71 `Atmosphere::temperature` -/
def temperature (a : Atmosphere F) (s : State F) : F :=
  match a.model with
  | .standardAtmosphere1962 => stdTemperature s.altitudeGeopotential
  | .noAtmosphere => 0

/-- atmosphere/mod.rs:76-83 `Atmosphere::pressure` -/
def pressure (a : Atmosphere F) (s : State F) : F :=
  match a.model with
  | .standardAtmosphere1962 => stdPressure s.altitudeGeopotential
  | .noAtmosphere => 0

/-- atmosphere/mod.rs:88-95 `Atmosphere::density` -/
def density (a : Atmosphere F) (s : State F) : F :=
  match a.model with
  | .standardAtmosphere1962 => stdDensity s.altitudeGeopotential
  | .noAtmosphere => 0

/-- atmosphere/mod.rs:100-107 `Atmosphere::speed_of_sound` -/
def speedOfSound (a : Atmosphere F) (s : State F) : F :=
  match a.model with
  | .standardAtmosphere1962 => stdSpeedOfSound s.altitudeGeopotential
  | .noAtmosphere => 0

/-- atmosphere/mod.rs:113-115 `Atmosphere::mach_number` -/
def machNumber (a : Atmosphere F) (s : State F) : F :=
  s.velocityAtmosphere.norm / a.speedOfSound s

/-- atmosphere/mod.rs:121-123 `Atmosphere::dynamic_pressure` -/
def dynamicPressure (_a : Atmosphere F) (s : State F) : F :=
  0.5 * s.density * powi s.velocityAtmosphere.norm 2

/-- atmosphere/mod.rs:129-131 `Atmosphere::velocity_atmosphere` -/
def velocityAtmosphere (a : Atmosphere F) (s : State F) : V3 F :=
  s.velocityPlanet - a.wind

end Atmosphere
end Post
