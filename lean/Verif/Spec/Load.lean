import Verif.Spec.Json
import Mathlib.Data.List.Forall2
/-! # What a configuration file says

The relation `Says j cs`: the JSON document `j` describes the phase configurations `cs`.  It is
written from the user manual (project.tex:406-583), one relation per section; each lists the keys
of the section and the parameter each key sets.  Two lenient forms accepted by the JSON library
are included: a section may be an array with its values in the order of the keys, and a name
from an enumeration may be written as an object `{"name": null}`. -/

namespace Post.Spec
variable {F : Type}

/-! ## Shapes -/

/-- The JSON number `x`. -/
def SaysNumber (j : Json F) (x : F) : Prop := j = .num x

/-- `true` or `false`. -/
def SaysBool (j : Json F) (b : Bool) : Prop := j = .bool b

/-- An array whose elements describe the elements of a list. -/
def SaysList {α : Type} (R : Json F → α → Prop) (j : Json F) (as : List α) : Prop :=
  ∃ l, j = .arr l ∧ List.Forall₂ R l as

/-- An array of exactly two elements. -/
def SaysPair {α β : Type} (R : Json F → α → Prop) (S : Json F → β → Prop) (j : Json F)
    (p : α × β) : Prop :=
  ∃ a b, j = .arr [a, b] ∧ R a p.1 ∧ S b p.2

/-- One of the names of an enumeration. -/
def SaysName (j : Json F) (name : String) : Prop := j = .str name ∨ j = .obj [(name, .null)]

/-- A simulation variable. -/
def SaysVariable (j : Json F) (v : StateVariable) : Prop := SaysName j (variableName v)

/-- `j` is a section with the given keys, and `m` lists what it gives for them: an object with
known keys, none of them twice, or an array of the values in the order of the keys, in which
only the last `optional` ones may be missing. -/
def SectionWith (keys : List String) (optional : Nat) (j : Json F) (m : List (String × Json F)) :
    Prop :=
  (j = .obj m ∧ (∀ e ∈ m, e.1 ∈ keys) ∧ (m.map Prod.fst).Nodup) ∨
  (∃ l, j = .arr l ∧ l.length ≤ keys.length ∧ keys.length ≤ l.length + optional ∧
    m = keys.zip l)

/-- The key `k` gives the value `a`. -/
def Gives {α : Type} (m : List (String × Json F)) (k : String) (R : Json F → α → Prop) (a : α) :
    Prop :=
  ∃ v, (k, v) ∈ m ∧ R v a

/-- The key `k` is optional: not given and `null` both mean `none`. -/
def GivesOptional {α : Type} (m : List (String × Json F)) (k : String) (R : Json F → α → Prop) :
    Option α → Prop
  | none => (∀ v, (k, v) ∉ m) ∨ (k, .null) ∈ m
  | some a => ∃ v, (k, v) ∈ m ∧ v ≠ .null ∧ R v a

/-! ## Tables -/

/-- A table axis: the variable and its values. -/
def SaysAxis : Json F → StateVariable × List F → Prop :=
  SaysPair SaysVariable (SaysList SaysNumber)

/-- The interpolation method; there is only one, which is also the default. -/
def GivesInterpolator (m : List (String × Json F)) : Prop :=
  (∀ v, ("interpolator", v) ∉ m) ∨ ∃ v, ("interpolator", v) ∈ m ∧ SaysName v "linear"

/-- A one-, two- or three-dimensional table. -/
def SaysTable [Flt F] (j : Json F) (t : Table F) : Prop :=
  WellFormed t ∧
  match t with
  | .d1 t => ∃ m, SectionWith ["x", "data", "interpolator"] 1 j m ∧ GivesInterpolator m ∧
      Gives m "x" SaysAxis t.x ∧
      Gives m "data" (SaysList SaysNumber) t.data
  | .d2 t => ∃ m, SectionWith ["x", "y", "data", "interpolator"] 1 j m ∧ GivesInterpolator m ∧
      Gives m "x" SaysAxis t.x ∧ Gives m "y" SaysAxis t.y ∧
      Gives m "data" (SaysList (SaysList SaysNumber)) t.data
  | .d3 t => ∃ m, SectionWith ["x", "y", "z", "data", "interpolator"] 1 j m ∧
      GivesInterpolator m ∧
      Gives m "x" SaysAxis t.x ∧ Gives m "y" SaysAxis t.y ∧ Gives m "z" SaysAxis t.z ∧
      Gives m "data" (SaysList (SaysList (SaysList SaysNumber))) t.data

/-! ## Sections -/

/-- Three numbers. -/
def SaysVector (j : Json F) (v : V3 F) : Prop := j = .arr [.num v.x, .num v.y, .num v.z]

/-- The planet model. -/
def SaysPlanet (j : Json F) : PlanetConfig F → Prop
  | .spherical => SaysName j "spherical"
  | .fisher1960 => SaysName j "fisher1960"
  | .smithsonian => SaysName j "smithsonian"
  | .custom a b g w => ∃ s m, j = .obj [("custom", s)] ∧
      SectionWith Kind.customPlanet.keys 0 s m ∧
      Gives m "equatorial_radius" SaysNumber a ∧
      Gives m "polar_radius" SaysNumber b ∧
      ("gravitational_parameters", .arr [.num g.mu, .num g.j2, .num g.j3, .num g.j4]) ∈ m ∧
      Gives m "rotation_rate" SaysNumber w

/-- The atmosphere. -/
def SaysAtmosphere (j : Json F) (c : AtmosphereConfig F) : Prop :=
  ∃ m, SectionWith Kind.atmosphere.keys 0 j m ∧
    GivesOptional m "enabled" SaysBool c.enabled ∧
    GivesOptional m "wind" SaysVector c.wind

/-- The launch site. -/
def SaysInit (j : Json F) (c : InitConfig F) : Prop :=
  ∃ m, SectionWith Kind.init.keys 0 j m ∧
    Gives m "latitude" SaysNumber c.latitude ∧
    Gives m "longitude" SaysNumber c.longitude ∧
    Gives m "azimuth" SaysNumber c.azimuth ∧
    Gives m "altitude" SaysNumber c.altitude

/-- An engine. -/
def SaysEngine (j : Json F) (e : Engine F) : Prop :=
  ∃ m, SectionWith Kind.engine.keys 0 j m ∧
    ("incidence", .arr [.num e.incidencePitch, .num e.incidenceYaw]) ∈ m ∧
    Gives m "thrust_vac" SaysNumber e.thrustVac ∧
    Gives m "isp_vac" SaysNumber e.ispVac ∧
    Gives m "exit_area" SaysNumber e.exitArea

/-- The vehicle. -/
def SaysVehicle [Flt F] (j : Json F) (c : VehicleConfig F) : Prop :=
  ∃ m, SectionWith Kind.vehicle.keys 0 j m ∧
    GivesOptional m "structure_mass" SaysNumber c.structureMass ∧
    GivesOptional m "propellant_mass" SaysNumber c.propellantMass ∧
    GivesOptional m "reference_area" SaysNumber c.referenceArea ∧
    GivesOptional m "drag_coeff" SaysTable c.dragCoeff ∧
    GivesOptional m "lift_coeff" SaysTable c.liftCoeff ∧
    GivesOptional m "side_force_coeff" SaysTable c.sideForceCoeff ∧
    GivesOptional m "engines" (SaysList SaysEngine) c.engines

/-- A steering axis: the variable, and the coefficients of its first three powers. -/
def SaysSteeringAxis (j : Json F) (c : AxisConfig F) : Prop :=
  ∃ v, SaysVariable v c.var ∧ j = .arr [v, .arr [.num c.c1, .num c.c2, .num c.c3]]

/-- The steering. -/
def SaysSteering (j : Json F) (c : SteeringConfig F) : Prop :=
  ∃ m, SectionWith Kind.steering.keys 0 j m ∧
    GivesOptional m "roll" SaysSteeringAxis c.roll ∧
    GivesOptional m "yaw" SaysSteeringAxis c.yaw ∧
    GivesOptional m "pitch" SaysSteeringAxis c.pitch

/-- A phase. -/
def SaysPhase [Flt F] (j : Json F) (c : PhaseConfig F) : Prop :=
  ∃ m, SectionWith Kind.phase.keys 0 j m ∧
    GivesOptional m "init" SaysInit c.init ∧
    GivesOptional m "vehicle" SaysVehicle c.vehicle ∧
    GivesOptional m "steering" SaysSteering c.steering ∧
    GivesOptional m "planet_model" SaysPlanet c.planetModel ∧
    GivesOptional m "atmosphere" SaysAtmosphere c.atmosphere ∧
    GivesOptional m "max_acceleration" SaysNumber c.maxAcceleration ∧
    GivesOptional m "stepsize" SaysNumber c.stepsize ∧
    GivesOptional m "end_criterion" (SaysPair SaysVariable SaysNumber) c.endCriterion

/-- A configuration file: an array of phases. -/
def Says [Flt F] : Json F → List (PhaseConfig F) → Prop := SaysList SaysPhase

end Post.Spec
