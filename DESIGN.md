# Formal model of TiborVoelcker/post in Lean 4 — design

## 1. Approach

The crate is a numerical trajectory simulator: a JSON configuration is deserialised into a list of
phase configurations; each phase is built from the previous one, reset, and integrated with RK4
until an end criterion is hit.  The model mirrors it function by function
(`lean/Verif/Model/*.lean`, every definition cites file and lines in /repo).

**Numbers.** The code computes with `f64`.  The model is written once, over an arbitrary type `F`
with the operations of `f64` (`class Flt`, `Verif/Num.lean`).  This gives three levels:

* *generic* theorems: for every `[Flt F]`, no law assumed.  They hold for IEEE `f64` with rounding
  as well as for exact arithmetic (control flow, bookkeeping, configuration, phases, output).
* *lawful* theorems: for every `[LawfulFlt F]`, which only assumes the order laws of `<` and `==`
  that IEEE-754 guarantees, NaN included (tables in bounds, throttle range).
* *exact* theorems: for the instance `XR` (`Verif/Ext.lean`): real numbers extended by NaN, +inf,
  -inf with the IEEE rules for special values, and exact (unrounded) arithmetic on finite numbers.
  These settle what the formulas compute; rounding error is **not** modelled.
* *binary64* theorems (C65, C69, C74, C77, C84, C85, C86, C87, C88, C89, C90, C91, C92, C93, C94, C95, C97, C98, C99, C100, C102): for the instance `F64 L` (`Verif/F64.lean`), IEEE-754 double precision
  with round to nearest even, overflow, signed zeros and NaN, for an arbitrary C library `L` (sin,
  exp, powf, ...).  `F64 L` is also an instance of `LawfulFlt`: the generic and lawful theorems
  apply to it, and the laws assumed there are not contradictory.

**Panics** are `Except Panic` values.  **Loops** that may not end (`Phase::run`) take a fuel
argument; `none` = not finished.  "The program terminates with o" is `∃ fuel, run fuel = some o`.
**Standard output** is modelled as the list of log entries (phase announcements, rows of numbers)
before number formatting.

## 2. Trusted base

* Lean 4.33.0 kernel; Mathlib definitions used in statements (ℝ, Real.sin, Real.sqrt, deriv, ...).
* Axioms: at most `propext`, `Classical.choice`, `Quot.sound` (checked with `#print axioms`).
  No axioms added; nothing compiled is trusted.
* The reading of the Rust source (the model is not extracted mechanically).
* Simplifications, each repeated at the definition:
  - `XR`: no rounding, no overflow/underflow, no signed zero (`x / 0` behaves as `x / +0`),
    exact values of decimal literals.
  - nalgebra's `Rotation3::from_matrix` is iterative; in `XR` it is the identity on matrices that
    already are proper rotations (which is what its documentation states) and unspecified
    otherwise.  Generic theorems assume nothing about it.
  - `[T]::partition_point`: the binary search loop of the Rust standard library is modelled.
  - serde / serde_json: most properties start from the JSON value tree (objects keep order and
    duplicates); the model implements the derive-macro semantics (`deny_unknown_fields`, Option,
    tuples, enums, `untagged`, `try_from`).  C101 and C102 add the text reader and the conversion
    of numbers of serde_json 1.0.115 (`Model/JsonText.lean`); its source is not in the repository,
    so that this model agrees with the crate is trusted.
  - How `{:.0}` prints a number is a parameter in C63 and modelled for doubles in
    `Model/Print.lean` (C90); file I/O errors are abstracted.

## 3. What is modelled, what is not

Modelled: sim/src/{state,steering,planet,vehicle,transformations,phase,lib,config}.rs,
sim/src/atmosphere/*, sim/src/integration/*, sim/src/utils/{constants,tables/*}, src/main.rs
(control flow), the parser of utils/plot/plot.py (regular expressions, lists instead of pandas)
and the text of the rows it reads, the points, colours, labels and camera it hands to PyVista.
Not modelled: example_data.rs and all `#[cfg(test)]` code, the docs, the rest of the drawing in
utils/plot (background, earth, light), clap argument parsing, logging/`Debug` impls, text of error
messages.

## 4. Properties

`properties.jsonl` holds the full statements; MANIFEST.json the theorem names.

| id | level | model | proof |
|----|-------|-------|-------|
| C01 | generic | Json.lean loader, `tryNew` | inversion of the loader; spec `Table.WellFormed` |
| C02 | generic | loader | construct the object for a table, evaluate the loader under any key order |
| C03 | generic | loader | field lookup treats `null` and absent alike |
| C04 | generic | loader | struct visitor refuses unknown and duplicate keys, induction on members |
| C05 | generic | names + `getValue` | finite table of names (all of them), equality with a documented table |
| C06 | generic | loader | false as documented: witness, plus partial theorem for the other names |
| C07 | generic | `Phase.new`, `applyConfig` | case analysis per parameter, spec = record of overrides |
| C08 | generic | `Simulation.run` | induction on phases; erasing later `init`s |
| C09 | generic | `reset`, `Simulation.run` | negative: run is invariant under editing `stepsize`; effective step is 1 |
| C10 | generic | `Phase.init` | negative: run is invariant under editing `altitude` |
| C11 | exact | `Phase.init` | algebra in ℝ |
| C12 | exact | `Phase.init` | negative for oblate, partial for spherical |
| C13 | exact | `Phase.init` | algebra |
| C14 | generic/exact | `applyVehicle`, `systemPlanet` | case analysis |
| C15 | exact | `autoThrottle`, `sideSideAngle` at infinity | case analysis on special values |
| C16 | generic/exact | steering | unfolding to the cubic; frame lemmas |
| C17 | exact | `reset` + `system` | positive for time_since_event, negative witness otherwise |
| C18 | generic | `system` | dependency (non-interference) theorem |
| C19 | lawful | tables | bounds of binary search |
| C20, C21 | exact | tables | uniqueness of the partition point on sorted lists, convexity |
| C22 | exact/generic | `aeroForce` | NaN analysis, negative witness |
| C23–C26, C29–C31, C52, C53 | generic | `step`, `loop`, `run` | induction on fuel / phases |
| C27, C28 | exact | `step`, `run` with time criterion | induction on number of steps |
| C32 | lawful | `autoThrottle` | clamp |
| C33 | exact | `autoThrottle` | law of sines/cosines, monotonicity of a quadratic |
| C34–C38 | exact | vehicle | algebra, trigonometry |
| C39–C41 | exact | transformations | orthonormality by trigonometric identities; derivatives |
| C42, C43 | exact | gravity | partial derivatives in Mathlib (`HasDerivAt`) |
| C44, C45 | exact | altitude | algebra |
| C46–C50 | exact | atmosphere | case analysis of 22 rows, monotonicity, derivatives |
| C51 | exact | RK4 | equality with textbook formula; order conditions by norm_num/ring; local error: Taylor expansion of the exact solution (bootstrapping the order) and of the four stages (`Lemmas/RKOrder.lean`), all terms below h^5 cancel |
| C54 | generic/exact | system, run | induction |
| C55 | exact | presets | norm_num |
| C56 | generic | main | case analysis |
| C57 | generic | system, run | inversion of `system`; every visited state is a result of `system` |
| C58 | exact | whole phase in vacuum | totality of `system` and of the RK4 step, then C27 and C35 |
| C59 | exact | `step`, `run` | invariant: mass constant or NaN, never equal to the target, never "ended" |
| C60 | generic | all deserialisers | each deserialiser accepts exactly what the relation `Says…` describes (`De.Reads`), by combinators |
| C61 | generic | `Phase::run` | induction over the path of phases |
| C62 | generic + 0 laws | `Phase::new`, defaults | section by section: updating with the default is the identity; end criterion: a bisimulation of runs whose two clocks agree, and a phase with the default criterion ends where it started |
| C63 | generic; accuracy exact | printed text, `plot.py` parser | the regular expressions are run symbolically: characters without capitals are skipped, each pattern matches exactly at its own heading; induction over rows and phases |
| C64 | exact | `run`, `time_to_go`, mass flow | the criterion variable is linear in time (`Lemmas/Linear.lean`); induction over steps as in C27 |
| C65 | binary64 (`F64 L`) | `run`, `step`, `time_to_go` over `F64` | rounding-error bounds for + - * / from the definition of rounding (`Lemmas/F64.lean`), small whole numbers are exact; induction over steps |
| C66 | exact | `system`, RK4 step in vacuum without engines | derivative of energy and momentum along solutions is zero (C42, C43); existence of solutions (Picard-Lindelöf), C51 and a Lipschitz bound for the step |
| C67 | exact | `Phase::new`, `reset`, `run`, `Simulation::run`, steering | a run of n seconds is n fold iteration of the step; relating the steps of the two halves by shifting the event clock; a phase with an end criterion does not see the rest |
| C68 | exact | `system` in vacuum with engines | the derivative of velocity plus logarithm of mass times exhaust velocity is gravity; fundamental theorem of calculus |
| C69 | binary64 | phases ended by time | rounding is monotone and fixes doubles; every summand of the mass change is not positive; sign analysis of `time_to_go`; induction over the run |
| C70 | exact | whole simulations, pairs of missions | multiplication by a positive number commutes with every operation of the equations of motion that touches masses and forces, special values included; Runge-Kutta steps commute with such maps; induction over steps and phases |
| C71 | exact with special values | equations of motion, steps, configurations, whole simulations | every operation of the equations of motion shown to yield a real number on real inputs, with the guards of the code (missing coefficients, resting vehicle, zero thrust); Runge-Kutta stages by induction; a step is regular if the right-hand side may be changed arbitrarily in singular states without changing it; bounds on accelerations give regular steps |
| C72 | exact | equations of motion, whole simulations, pairs of missions | `Lemmas/Symmetry.lean`: a transformation of states that commutes with the equations of motion away from the singularities commutes with Runge-Kutta steps, phases and simulations; instance: turning about the polar axis, which commutes with gravity, altitude, the planet frame and, together with the launch longitude, with the body frame |
| C73 | exact | equations of motion, whole simulations, pairs of missions | second instance of `Lemmas/Symmetry.lean`: mirroring at the plane of the equator; parity of every operation of the equations of motion, the mirrored launch and attitude matrices are conjugates of the original ones |
| C74 | binary64 | table look-ups of all dimensions | error analysis of one segment (difference, product, quotient, sum, each with relative error 2^-53 and absolute error below 1e-76), which is then applied at each level; the binary search finds the governing segment because comparisons are exact; constants and the first argument: exact zeros propagate |
| C75 | exact | integrator with any right-hand side; integration steps of phases; free fall | the local error (C51) is uniform along a compact piece of the solution: solutions are smooth, the error is a smooth function of starting time and step whose first four derivatives by the step vanish; the step is Lipschitz in the starting point near the solution; discrete Gronwall argument that also shows that no evaluation fails |
| C76 | exact | integration steps of a phase in free fall | exact orbits conserve these quantities (C66); the computed positions and velocities are within K h^4 of the orbit (C75); the quantities are Lipschitz, with one constant, near the compact orbit |
| C77 | binary64 | whole missions whose phases end at whole seconds | whole numbers below 2^53 are added exactly, so clock and time since event agree with the integers (induction over the steps of a phase); the end criterion is hit at the target exactly and not before; induction over the phases, each handing over its clock, end criterion and base step size; the shipped example is an instance |
| C78 | generic | the state a phase starts from against the state the program so far ended in | the state a run ends in is self-consistent (C57) under its phase's parameters; applying a configuration keeps the primary state, and re-evaluating the equations of motion gives the same derived values wherever the parameters were not changed; induction over the phases for the launch frame |
| C79 | exact | the run of a phase whose end variable moves towards the target at a rate between m and M < 2 m | each correction of the step size is a secant step: it misses by at most κ = M/m - 1 times the last miss (or the remaining gap); a step that falls short is followed by one that overshoots; induction over the corrections left, then over the number of full steps before the first overshoot |
| C80 | exact | the picture drawn by `plot.py` from the printed text: corners of the trajectory, colours, labels, camera | the parsed lines of C63, converted to km, are within half a metre of the rows; the speed by the triangle inequality with error √3/2; one label per phase because the phase numbers are distinct as texts and every phase has a row |
| C81 | any / exact | two files with the same values in force in each phase, or a file in which values in force are written out again | vehicles that behave alike give the same equations of motion, hence the same steps, runs and sequences, by induction over the phases; the values in force from C04/C05 |
| C82 | any / exact | a file whose engines, tables or planets are written differently | corollaries of C81; addition in exact arithmetic is commutative and associative also with infinities and NaN; a table with at least two points is determined by its function of real numbers, also at infinities and NaN |
| C83 | exact | integration steps, and whole phases, of a coasting vehicle near the Earth against a true orbit given by its derivatives | gravity is continued to complex positions and bounded there; Cauchy estimates bound the remainder of the Taylor expansion of the solution and of the Runge-Kutta step, which agree up to h^4 by C51; the errors of the steps add up by a Lipschitz bound in a norm that weighs position and velocity |
| C84 | binary64 | integration steps, and whole phases, of a coasting vehicle near the Earth in double precision against a true orbit | forward error analysis of gravity and of the Runge-Kutta step (`Near x ξ e`: the double x is a number within e of ξ); one step is within 2.8e-9 m and 2.9e-11 m/s per component of the exact step; then the error propagation of C83 with this perturbation in each step |
| C85 | binary64 | throttle, sensed acceleration and acceleration check of one evaluation of the equations of motion in double precision | forward error analysis of norms, angle, `side_side_angle` and clamping. The computed angles α, β need not be accurate: the exact triangle with these angles and side a satisfies the law of cosines, and its other side differs from the aerodynamic force by at most 2e-6 a because a computed cosine that is not ±1 differs from ±1 by 2^-53 or more, so that sin α ≥ 0.9e-8 |
| C86 | binary64 | a whole powered phase in vacuum in double precision: run, time, throttle, mass and propellant | C85 in every evaluation of the equations of motion, forward error analysis of the mass component of the Runge-Kutta step, induction over the seconds; the mass never grows (C69), so that the error stays in proportion to the first mass |
| C87 | binary64 | a whole mission of several legs in vacuum in double precision: staging, coasting, refilled propellant, the log of the program against a propellant budget in real numbers | the thrust of mounted engines (forward error analysis of cos, sin and sums) meets the hypotheses of C85; C86's run for each leg; C14 for the mass at the beginning of a leg; C77's clock; induction over the legs with the error as invariant |
| C88 | binary64 | temperature, pressure, density, speed of sound, Mach number and dynamic pressure of the standard atmosphere in double precision, for every altitude from -100 to 7000 km | relative error analysis (`Rel`) of all 22 rows, of the selection of the row, and of exp and powf with perturbed arguments; bounds of the laws from the table |
| C89 | binary64 | latitude, altitude and geopotential altitude in double precision for every position between 6300 and 100000 km from the centre of the Earth; the air of every visited state | monotonicity of correct rounding gives abs z <= norm exactly, so asin never sees more than 1 (`le_sqrtMag`); conditioning of asin near the poles is absorbed because only its sine is used; error analysis with `Near` and `Rel`; uniqueness of the point of the ellipsoid on a ray |
| C90 | binary64, text | the text printed for missions timed in whole seconds, for staged missions in vacuum and for the shipped example; the altitude printed; what plot.py reads from it | model of `{:.0}` for doubles; C77, C87 and C89 give the doubles, a nearest integer of a whole number is that number; C63 for the parser, blocks of rows matched with the timetable |
| C91 | binary64 | velocities relative to Earth and air, Mach number and dynamic pressure from position, velocity and wind of every visited state; the start is exactly at rest | absolute errors through the cross product; C88 and C89 for the air; at the start the same rounded product is added and subtracted, and rounding a double is exact |
| C92 | binary64 | position over ground in every visited state, in the printed rows and along a coasting orbit | error of the rounded angle, of sine and cosine and of the rotation found, through the matrix product; sine and cosine are 1-Lipschitz; rotations keep distances, so the error of C84 carries over |
| C93 | binary64 | initial position and velocity for every launch site on the three Earths, compared with the exact ones, with the surface and with the documented site | rounding is monotonic, so that a latitude never exceeds the largest double below pi/2; a relative error of a tangent is an absolute one of its arc tangent; the geocentric direction is a unit vector along (cos, K sin), whose change is bounded by a cross product; Cauchy-Schwarz along the meridian for the displacement |
| C94 | binary64 | Euler angles, their handover at events, the change to the frame of the vehicle, the total acceleration and the angle of attack in every visited state, compared with the exact ones | error of each term of the cubic relative to its size; products of nearly orthogonal matrices whose rows have entries of at most one; the transposed rotation preserves lengths; a relative error of a tangent is an absolute one of its arc tangent |
| C95 | binary64 | thrust, aerodynamic force, mass flow and sensed acceleration of every visited state, compared with the exact sums, interpolations and quotients of the reported quantities | induction over the engines with a bound relative to the sum of the gross thrusts; the error of a table (C84) is carried through the turn by the angle of attack |
| C96 | XR | powered flight in vacuum with turning vehicle and decreasing mass: the simulated flight against a solution of the law of motion, with a bound in metres | the acceleration by the thrust is continued to complex times (products of complex turns, bounded by the exponential of the imaginary part; the mass stays away from zero), the force field to complex positions (C83); Cauchy's estimates bound the fifth derivative of step and solution; a Lipschitz argument adds up the steps; Picard-Lindelöf shows that true flights exist |
| C97 | F64 | C96 with all roundings: the simulated powered flight in binary64 against a solution of the law of motion; and existence of true flights for a given time | a step in binary64 is a step in exact arithmetic up to 8e-8 m and 6.4e-8 m/s (interval-like error propagation through attitude, thrust, mass, gravity and the four stages); the Lipschitz argument of C96 adds these; the mass from C86; Picard-Lindelöf on a ball for the true flight |
| C98 | F64 | the trajectory of a mission of several legs (coasting and powered, with staging, changes of engines and of rates) at the level of configurations: plan and true flight in real numbers, configurations and phases in binary64 | induction over the legs with the invariant HandsOverCraft (masses up to 1.1e-12 M per leg, angles up to 1.3e-10 degrees per leg) and the error of position and velocity; one leg from C97 (powered) or C88's step lemma (coasting); the masses from C87 |
| C99 | F64 | the reported gravitational acceleration and its norm in binary64, from the surface to 20000 km | rounding analysis of the code's formula down to the surface (Lemmas/SurfaceGravF64), C42 for the gradient, a lower bound of 0.97 of the attraction of a sphere to make the error relative |
| C100 | F64 | energy and angular momentum along the steps of a coasting phase in binary64, and the run of a day | every step is compared with the exact motion through its own beginning, which exists for a second and keeps energy and angular momentum, so that the errors add up and do not grow; energy and angular momentum confine the radius, which keeps the induction in the region |
| C101 | generic; shipped file F64 | text of the configuration file, `serde_json::from_reader`, `main` | the recursive descent reader accepts exactly the grammar of RFC 8259 (`Spec/JsonText.lean`): soundness and completeness by induction on the fuel and on the value; the shipped text is evaluated by the kernel; bytes: Lean's UTF-8 (`List.utf8Encode`) and its decoder are inverse to each other |
| C102 | F64 | conversion of numbers in `serde_json` | error analysis of the significand (digits beyond u64 are dropped) and of one multiplication or division by a rounded power of ten; with 15 digits both operands are exact; counterexample with 16 digits |
| C103 | generic (keys); F64 (notation) | every deserialiser, text reader, conversion of numbers | each deserialiser is blind to the order of members (`De.Blind`): struct visitors look members up by name and refuse duplicate keys; conversion of numbers respects the relation; every value has a text by induction on the value |

## 5. Disagreements between documentation and code (findings)

1. C09: `stepsize` is ignored (`Phase::new` sets it, `Phase::reset` overwrites it with the constant
   `base_stepsize = 1`).
2. C10: `init.altitude` is never read.
3. C12: geodetic→geocentric latitude conversion multiplies by k² instead of dividing by k.
4. C06: the manual documents `fisher_1960`; serde's snake_case of `Fisher1960` is `fisher1960`.
5. C17: steering by variables other than time_since_event makes the attitude jump at events.
6. C18: steering by `alpha`/Euler angles reads stale values in the first evaluation of a phase.
7. C22: a missing lift table (NaN) also zeroes the drag, and vice versa.
8. C28: a target already passed when the phase starts makes the time run backwards.
9. C36: propellant can become negative.
10. C38: angle of attack for backward flow is 0 for downward flow, π/2 for upward flow.
11. C49: Mach number is NaN, not infinite, at zero air speed with disabled atmosphere.
12. C15: with zero mass the throttle is NaN and the run aborts even with max_acceleration -1.
13. C48: the base altitude 396406.39 ft in `STD_ATMOS_TABLE` should read 386406.39 ft (the
    temperature law of the layer below reaches the tabulated 649.17 R there); as it stands the
    temperature drops by 8 % and the pressure rises by 30 % when that altitude is crossed upwards.
    The base pressure 0.10566108e-4 psf at 480781.04 ft is off by 0.2 %.
14. C59: a phase whose criterion variable never changes (mass, without engines) divides by zero in
    `time_to_go`; the step becomes -inf and the phase loops forever.
15. C62: the documented default phase has an `init` section and an engine with zero thrust and zero
    specific impulse; the program has no default `init` (it aborts) and no engine (the documented
    one would make the mass flow NaN).  The default end criterion is time_since_event, not time.
16. C61: a row is printed after every integration attempt, so after a discarded step the previous
    row is repeated ("for each time step" in the manual).
17. C63: `plot.py` refuses output with a negative time, and silently reads the next numbers if a
    coordinate is NaN.
18. Not about the code: formulas of the manual that disagree with it and with each other (mass flow
    written T·Isp·g0 instead of T/(Isp·g0); the thrust direction repeats cos i_p; the steering
    polynomial repeats its first coefficients).  The light in `plot.py:140` mixes radians and degrees.

## 6. Files

* `Num.lean` arithmetic interface; `Ext.lean` exact arithmetic `XR`; `F64.lean` binary64; `Toy.lean` a small decimal
  fixed-point arithmetic in which examples are evaluated by the kernel.
* `Model/` the model; `Spec/` the vocabulary of the theorems, independent of the model's helpers;
  `Lemmas/` auxiliary facts; `Props/` the theorems listed in MANIFEST.json with their examples.
* `Spec/Library.lean`, `Spec/DoubleOrbit.lean`, `Lemmas/Near.lean`, `Lemmas/GravF64.lean`, `Lemmas/EarthF64.lean`,
  `Lemmas/CoastF64.lean`, `Lemmas/StepF64.lean`, `Props/DoubleOrbit.lean`: rounding errors of an orbit (C84).
* `Spec/Trig.lean`, `Lemmas/ThrottleReal.lean`, `Lemmas/ThrottleF64.lean`, `Lemmas/AutoThrottleF64.lean`,
  `Props/DoubleThrottle.lean`: the acceleration limit in double precision (C85).
* `Spec/DoubleBurn.lean`, `Lemmas/BurnF64.lean`, `Props/DoubleBurn.lean`: powered phases in vacuum in double
  precision (C86).
* `Spec/Stages.lean`, `Lemmas/StageF64.lean`, `Props/DoubleMission.lean`: missions of several legs in vacuum in double
  precision (C87).
* `Spec/DoubleAir.lean`, `Lemmas/Rel.lean`, `Lemmas/AirF64.lean`, `Props/DoubleAir.lean`: the standard atmosphere in double
  precision (C88).
* `Spec/DoubleAltitude.lean`, `Lemmas/AltF64.lean`, `Props/DoubleAltitude.lean`: the altitude in double precision (C89).
* `Model/Print.lean`, `Spec/Print.lean`, `Props/Print.lean`: the printed text in double precision (C90).
* `Lemmas/SpeedF64.lean`, `Props/DoubleSpeed.lean`: speeds, Mach number and dynamic pressure in double precision (C91).
* `Spec/DoubleTrack.lean`, `Lemmas/TrackF64.lean`, `Props/DoubleTrack.lean`: the position over ground in double precision (C92).
* `Spec/DoubleLaunch.lean`, `Lemmas/LaunchF64.lean`, `Props/DoubleLaunch.lean`: the launch site in double precision (C93), and how far it is from the documented one (C12_distance).
* `Spec/DoubleAttitude.lean`, `Lemmas/AttitudeF64.lean`, `Props/DoubleAttitude.lean`: angles, frame of the vehicle, acceleration and angle of attack in double precision (C94).
* `Spec/DoubleForces.lean`, `Lemmas/ForcesF64.lean`, `Props/DoubleForces.lean`: thrust and aerodynamic forces in double precision (C95).
* `Spec/Powered.lean`, `Lemmas/Powered.lean`, `Lemmas/ComplexTurn.lean`, `Props/Powered.lean`: accuracy of a powered flight in vacuum (C96).
* `Spec/DoublePowered.lean`, `Lemmas/PoweredF64.lean`, `Lemmas/TrueFlight.lean`, `Props/DoublePowered.lean`: accuracy of a powered flight in vacuum in double precision (C97).
* `Spec/Trajectory.lean`, `Props/Trajectory.lean`: trajectory of a mission of several legs in vacuum in double precision (C98).
* `Lemmas/SurfaceGravF64.lean`, `Spec/DoubleGravity.lean`, `Props/DoubleGravity.lean`: gravity in double precision from the surface on (C99).
* `Lemmas/ConserveF64.lean`, `Spec/DoubleConserve.lean`, `Props/DoubleConserve.lean`: energy and angular momentum in double precision (C100).
* `Model/JsonText.lean`, `Spec/JsonText.lean`, `Lemmas/{JsonText,NumberF64,NumberClose,ShippedText}.lean`, `Props/JsonText.lean`, `Spec/ConfigNumbers.lean`, `Props/LoadedNumbers.lean`, `Spec/Sensible.lean`, `Props/LoadedReal.lean`, `Model/JsonBytes.lean`, `Props/JsonBytes.lean`, `Props/ShippedReal.lean`, `Props/ShippedSymmetry.lean`, `Props/ShippedNumbers.lean`: the text of the configuration file and the numbers in it (C101, C102, C71 from the text on, and C71-C73 for the shipped example); `ShippedText.lean` is generated by `tools/gen_shipped_text.py` from utils/example.json.
* `{Spec,Lemmas,Props}/JsonNotation.lean`: the order of keys and the notation of numbers (C103).
* `Lemmas/AtmosNum.lean` is generated by `tools/gen_atmos.py`, `Lemmas/Fields.lean` by
  `tools/gen_fields.py`, `Shipped.lean` (the shipped mission) by `tools/gen_shipped.py`.
* `tools/exec_model.lean.txt` runs the model with Lean's `Float` and compares it with the numbers
  in the unit tests of the crate (a test of the reading of the source, not part of the proofs).
* `seeded/LOG.jsonl` records edits of the model and the theorems that noticed.
