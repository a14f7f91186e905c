import Verif.Spec.Json
/-! # The example mission that comes with the program

Generated by tools/gen_shipped.py from utils/example.json; numbers are copied literally. -/

namespace Post.Shipped
open Spec
variable {F : Type} [Flt F]

/-- a table of utils/example.json -/
def table1 : Table F :=
  .d2 ⟨(.alpha, [(-3.4906585e-1), (-8.72664626e-2), 0, 8.72664626e-2, 3.4906585e-1]),
    (.machNumber, [0, 0.5, 0.7, 0.8, 1, 1.2, 1.5, 2.0, 3, 5, 7, 10]),
    [[1.456, 1.585, 1.598, 1.242, 3.157, 2.996, 1.816, 1.301, 0.850, 0.482, 0.382, 0.396],
    [0.263, 0.338, 0.110, 0.302, 0.690, 0.671, 0.563, 0.480, 0.383, 0.256, 0.212, 0.210],
    [0.180, 0.18, 0.200, 0.251, 0.495, 0.502, 0.485, 0.456, 0.391, 0.272, 0.231, 0.231],
    [0.263, 0.338, 0.110, 0.302, 0.690, 0.671, 0.563, 0.480, 0.383, 0.256, 0.212, 0.210],
    [1.456, 1.585, 1.598, 1.242, 3.157, 2.996, 1.816, 1.301, 0.850, 0.482, 0.382, 0.396]],
    .linear⟩

/-- a table of utils/example.json -/
def table2 : Table F :=
  .d2 ⟨(.alpha, [(-3.4906585e-1), 0, 8.72664626e-2, 3.4906585e-1]),
    (.machNumber, [0, 0.5, 0.7, 0.8, 1, 1.2, 1.5, 2.0, 3, 5, 7, 10]),
    [[(-1.010), (-1.025), (-0.99), (-0.815), (-1.08), (-1.11), (-0.895), (-0.788), (-0.635), (-0.480), (-0.43), (-0.43)],
    [0.015, 0.04, 0.01, (-0.045), 0.08, 0.038, (-0.02), (-0.108), (-0.145), (-0.15), (-0.15), (-0.15)],
    [0.545, 0.75, 0.53, 0.365, 0.69, 0.638, 0.43, 0.242, 0.11, 0.025, 0.00, 0.00],
    [2.135, 2.24, 2.09, 1.595, 2.52, 2.438, 1.78, 1.292, 0.875, 0.55, 0.45, 0.45]],
    .linear⟩

/-- a table of utils/example.json -/
def table3 : Table F :=
  .d2 ⟨(.alpha, [(-3.4906585e-1), (-6.98131701e-2), 0, 8.72664626e-2, 1.74532925e-1, 3.4906585e-1, 5.23598776e-1]),
    (.machNumber, [0, 0.2, 0.6, 0.8, 0.9, 1.3, 1.5, 2, 2.48, 3, 3.9, 40]),
    [[0.024, 0.024, 0.026, 0.028, 0.035, 0.93, 0.122, 0.116, 0.1, 0.092, 0.082, 0.03],
    [0.024, 0.024, 0.026, 0.028, 0.035, 0.93, 0.122, 0.116, 0.1, 0.092, 0.082, 0.03],
    [0.026, 0.026, 0.026, 0.024, 0.036, 0.092, 0.118, 0.106, 0.091, 0.082, 0.074, 0.022],
    [0.042, 0.042, 0.04, 0.042, 0.076, 0.124, 0.142, 0.124, 0.098, 0.088, 0.079, 0.033],
    [0.076, 0.076, 0.08, 0.1, 0.13, 0.194, 0.192, 0.165, 0.127, 0.114, 0.095, 0.057],
    [0.36, 0.36, 0.362, 0.44, 0.41, 0.39, 0.36, 0.32, 0.242, 0.224, 0.216, 0.238],
    [0.36, 0.36, 0.36, 0.44, 0.41, 0.39, 0.36, 0.32, 0.44, 0.418, 0.4, 0.3]],
    .linear⟩

/-- a table of utils/example.json -/
def table4 : Table F :=
  .d2 ⟨(.alpha, [(-3.4906585e-1), (-6.98131701e-2), 0, 8.72664626e-2, 1.74532925e-1, 3.4906585e-1, 5.23598776e-1]),
    (.machNumber, [0, 0.2, 0.6, 0.8, 0.9, 1.3, 1.5, 2, 2.48, 3, 3.9, 40]),
    [[(-0.07), (-0.08), (-0.12), (-0.12), (-0.12), (-0.12), (-0.12), (-0.13), (-0.14), (-0.12), (-0.1), (-0.14)],
    [(-0.07), (-0.08), (-0.12), (-0.12), (-0.12), (-0.12), (-0.12), (-0.13), (-0.14), (-0.12), (-0.1), (-0.14)],
    [0.08, 0.08, 0.08, 0.06, 0.06, 0.07, 0.04, 0.0, (-0.02), (-0.03), (-0.04), 0.03],
    [0.29, 0.29, 0.29, 0.28, 0.28, 0.3, 0.24, 0.17, 0.12, 0.09, 0.08, 0.21],
    [0.5, 0.6, 0.49, 0.48, 0.52, 0.52, 0.41, 0.33, 0.25, 0.2, 0.15, 0.4],
    [0.94, 0.94, 0.92, 0.9, 0.94, 0.89, 0.75, 0.68, 0.67, 0.65, 0.62, 0.76],
    [0.94, 0.94, 0.92, 0.9, 0.94, 0.89, 0.75, 0.68, 0.67, 0.65, 0.62, 0.76]],
    .linear⟩

/-- The vehicle in section 1 of utils/example.json. -/
def vehicle1 : List (String × Json F) :=
  [
    ("structure_mass", .num 8.09336355e5),
    ("propellant_mass", .num 1.02012931e6),
    ("reference_area", .num 4.1806368e2),
    ("drag_coeff", .obj (tableMembers table1)),
    ("lift_coeff", .obj (tableMembers table2)),
    ("side_force_coeff", .null),
    ("engines", .arr [
      .obj [
        ("incidence", .arr [.num 0, .num 0]),
        ("thrust_vac", .num 2.43406703e7),
        ("isp_vac", .num 439.0),
        ("exit_area", .num 2.15999568e1)]])]

/-- Section 1 of utils/example.json. -/
def section1 : List (String × Json F) :=
  [
    ("planet_model", .str "spherical"),
    ("atmosphere", .obj [
      ("enabled", .bool true),
      ("wind", .arr [.num 0, .num 0, .num 0])]),
    ("init", .obj [
      ("latitude", .num 28.5),
      ("longitude", .num 279.4),
      ("azimuth", .num 90),
      ("altitude", .num 0)]),
    ("vehicle", .obj vehicle1),
    ("max_acceleration", .num (-1)),
    ("steering", .obj [
      ("pitch", .arr [.str "time_since_event", .arr [.num 0, .num 0, .num 0]])]),
    ("stepsize", .num 5),
    ("end_criterion", .arr [.str "time", .num 15])]

/-- The phase described by it. -/
def phase1 : PhaseConfig F :=
  ⟨some ⟨28.5, 279.4, 90, 0⟩, some ⟨some 8.09336355e5, some 1.02012931e6, some 4.1806368e2, some table1, some table2, none, some [⟨0, 0, 2.43406703e7, 439.0, 2.15999568e1⟩]⟩, some ⟨none, none, some ⟨.timeSinceEvent, 0, 0, 0⟩⟩, some .spherical, some ⟨some true, some ⟨0, 0, 0⟩⟩, some (-1), some 5, some (.time, 15)⟩

/-- Section 2 of utils/example.json. -/
def section2 : List (String × Json F) :=
  [
    ("steering", .obj [
      ("pitch", .arr [.str "time_since_event", .arr [.num (-4.02959110e-1), .num 0, .num 0]])]),
    ("end_criterion", .arr [.str "time", .num 25])]

/-- The phase described by it. -/
def phase2 : PhaseConfig F :=
  ⟨none, none, some ⟨none, none, some ⟨.timeSinceEvent, (-4.02959110e-1), 0, 0⟩⟩, none, none, none, none, some (.time, 25)⟩

/-- Section 3 of utils/example.json. -/
def section3 : List (String × Json F) :=
  [
    ("steering", .obj [
      ("pitch", .arr [.str "time_since_event", .arr [.num (-4.55853620e-1), .num 0, .num 0]])]),
    ("end_criterion", .arr [.str "time", .num 40])]

/-- The phase described by it. -/
def phase3 : PhaseConfig F :=
  ⟨none, none, some ⟨none, none, some ⟨.timeSinceEvent, (-4.55853620e-1), 0, 0⟩⟩, none, none, none, none, some (.time, 40)⟩

/-- Section 4 of utils/example.json. -/
def section4 : List (String × Json F) :=
  [
    ("steering", .obj [
      ("pitch", .arr [.str "time_since_event", .arr [.num (-1.67888963e-1), .num 0, .num 0]])]),
    ("end_criterion", .arr [.str "time", .num 60])]

/-- The phase described by it. -/
def phase4 : PhaseConfig F :=
  ⟨none, none, some ⟨none, none, some ⟨.timeSinceEvent, (-1.67888963e-1), 0, 0⟩⟩, none, none, none, none, some (.time, 60)⟩

/-- Section 5 of utils/example.json. -/
def section5 : List (String × Json F) :=
  [
    ("max_acceleration", .num 29.41995),
    ("steering", .obj [
      ("pitch", .arr [.str "time_since_event", .arr [.num (-6.77243251e-1), .num 0, .num 0]])]),
    ("end_criterion", .arr [.str "time", .num 120])]

/-- The phase described by it. -/
def phase5 : PhaseConfig F :=
  ⟨none, none, some ⟨none, none, some ⟨.timeSinceEvent, (-6.77243251e-1), 0, 0⟩⟩, none, none, some 29.41995, none, some (.time, 120)⟩

/-- Section 6 of utils/example.json. -/
def section6 : List (String × Json F) :=
  [
    ("steering", .obj [
      ("pitch", .arr [.str "time_since_event", .arr [.num (-2.87672429e-1), .num 0, .num 0]])]),
    ("end_criterion", .arr [.str "time", .num 150])]

/-- The phase described by it. -/
def phase6 : PhaseConfig F :=
  ⟨none, none, some ⟨none, none, some ⟨.timeSinceEvent, (-2.87672429e-1), 0, 0⟩⟩, none, none, none, none, some (.time, 150)⟩

/-- Section 7 of utils/example.json. -/
def section7 : List (String × Json F) :=
  [
    ("steering", .obj [
      ("pitch", .arr [.str "time_since_event", .arr [.num (-6.85708451e-2), .num 0, .num 0]])]),
    ("stepsize", .num 10),
    ("end_criterion", .arr [.str "propellant_mass", .num 0])]

/-- The phase described by it. -/
def phase7 : PhaseConfig F :=
  ⟨none, none, some ⟨none, none, some ⟨.timeSinceEvent, (-6.85708451e-2), 0, 0⟩⟩, none, none, none, some 10, some (.propellantMass, 0)⟩

/-- The vehicle in section 8 of utils/example.json. -/
def vehicle8 : List (String × Json F) :=
  [
    ("engines", .arr [])]

/-- Section 8 of utils/example.json. -/
def section8 : List (String × Json F) :=
  [
    ("vehicle", .obj vehicle8),
    ("max_acceleration", .num (-1)),
    ("end_criterion", .arr [.str "time_since_event", .num 7])]

/-- The phase described by it. -/
def phase8 : PhaseConfig F :=
  ⟨none, some ⟨none, none, none, none, none, none, some []⟩, none, none, none, some (-1), none, some (.timeSinceEvent, 7)⟩

/-- The vehicle in section 9 of utils/example.json. -/
def vehicle9 : List (String × Json F) :=
  [
    ("structure_mass", .num 1.40741158e5),
    ("propellant_mass", .num 3.66956252e5),
    ("reference_area", .num 4.49650714e2),
    ("drag_coeff", .obj (tableMembers table3)),
    ("lift_coeff", .obj (tableMembers table4)),
    ("side_force_coeff", .null),
    ("engines", .arr [
      .obj [
        ("incidence", .arr [.num 0, .num 0]),
        ("thrust_vac", .num 6.36540555e6),
        ("isp_vac", .num 459.0),
        ("exit_area", .num 1.43572358e1)]])]

/-- Section 9 of utils/example.json. -/
def section9 : List (String × Json F) :=
  [
    ("vehicle", .obj vehicle9),
    ("max_acceleration", .num 29.41995),
    ("steering", .obj [
      ("pitch", .arr [.str "time_since_event", .arr [.num (-1.30635729e-1), .num 0, .num 0]])]),
    ("stepsize", .num 20),
    ("end_criterion", .arr [.str "time_since_event", .num 100])]

/-- The phase described by it. -/
def phase9 : PhaseConfig F :=
  ⟨none, some ⟨some 1.40741158e5, some 3.66956252e5, some 4.49650714e2, some table3, some table4, none, some [⟨0, 0, 6.36540555e6, 459.0, 1.43572358e1⟩]⟩, some ⟨none, none, some ⟨.timeSinceEvent, (-1.30635729e-1), 0, 0⟩⟩, none, none, some 29.41995, some 20, some (.timeSinceEvent, 100)⟩

/-- Section 10 of utils/example.json. -/
def section10 : List (String × Json F) :=
  [
    ("steering", .obj [
      ("pitch", .arr [.str "time_since_event", .arr [.num (-1.16711775e-1), .num 0, .num 0]])]),
    ("end_criterion", .arr [.str "time_since_event", .num 150])]

/-- The phase described by it. -/
def phase10 : PhaseConfig F :=
  ⟨none, none, some ⟨none, none, some ⟨.timeSinceEvent, (-1.16711775e-1), 0, 0⟩⟩, none, none, none, none, some (.timeSinceEvent, 150)⟩

/-- Section 11 of utils/example.json. -/
def section11 : List (String × Json F) :=
  [
    ("end_criterion", .arr [.str "propellant_mass", .num 0])]

/-- The phase described by it. -/
def phase11 : PhaseConfig F :=
  ⟨none, none, none, none, none, none, none, some (.propellantMass, 0)⟩

/-- The contents of utils/example.json. -/
def document : Json F :=
  .arr [.obj section1, .obj section2, .obj section3, .obj section4, .obj section5, .obj section6, .obj section7, .obj section8, .obj section9, .obj section10, .obj section11]

/-- The phases described by utils/example.json. -/
def phases : List (PhaseConfig F) :=
  [phase1, phase2, phase3, phase4, phase5, phase6, phase7, phase8, phase9, phase10, phase11]

end Post.Shipped
