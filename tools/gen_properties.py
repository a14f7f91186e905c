#!/usr/bin/env python3
"""Writes /verif/properties.jsonl (kept as a script so that entries stay uniform)."""
import json, os
P = []
def p(title, statement, quantifier, why, anchors):
    P.append(dict(id="C%02d" % (len(P)+1), title=title, statement=statement,
                  quantifier=quantifier, why_tests_cant=why, anchors=anchors))

DES="sim/src/utils/tables/deserialization.rs"; TAB="sim/src/utils/tables/mod.rs"
LIN="sim/src/utils/tables/linear_interpolation.rs"; CFG="sim/src/config.rs"; PH="sim/src/phase.rs"
LIB="sim/src/lib.rs"; ST="sim/src/state.rs"; STE="sim/src/steering.rs"; VEH="sim/src/vehicle.rs"
PL="sim/src/planet.rs"; TR="sim/src/transformations.rs"; AT="sim/src/atmosphere/mod.rs"
SA="sim/src/atmosphere/standard_atmosphere_1962.rs"; INT="sim/src/integration/mod.rs"
RK="sim/src/integration/runge_kutta.rs"; MAN="docs/user-manual/project.tex"

p("Accepted tables are well formed",
  "Whenever loading a configuration file succeeds, every coefficient table in it has strictly ascending argument values on every axis that is used and data whose length matches the argument list at every nesting level.",
  "every JSON document", "the space of JSON documents is infinite; tests show only a handful of malformed tables being refused",
  [TAB+"::init::validate", TAB+"::Table1D/2D/3D::try_new", DES, LIB+"::Simulation::from_file"])
p("Well-formed tables are accepted verbatim",
  "A JSON table object with ascending arguments and matching data lengths loads as a table of the dimension it describes, holding exactly the given variables, arguments and data; the order of the keys does not matter.",
  "every 1D, 2D and 3D table description", "untagged-enum resolution must pick the right dimension for every document, not for sample ones",
  [TAB+"::Table", DES])
p("null means not specified",
  "In a phase configuration, and in its vehicle, atmosphere and steering sections, giving an optional parameter the value null loads to exactly the same configuration as leaving the parameter out.",
  "every JSON object and every subset of null entries", "all combinations of optional parameters cannot be enumerated by examples",
  [CFG+"::PhaseConfig", CFG+"::VehicleConfig", CFG+"::AtmosphereConfig", CFG+"::SteeringConfig", MAN])
p("Misspelled and duplicate keys are refused",
  "A configuration with a key that is not a parameter of its section, or with the same key twice in one section, is never accepted, at any nesting level.",
  "every JSON document and every unknown key", "unknown keys form an infinite set",
  [CFG+" deny_unknown_fields", VEH+"::Engine", DES])
p("Simulation-variable names select the documented quantity",
  "Each variable name listed in the user manual is accepted and, for every state, yields the documented component or Euclidean norm; no string other than the snake_case names of the variables is accepted.",
  "every string and every state", "the value must be right for every state and all other strings refused",
  [ST+"::StateVariable", ST+"::StateVariable::get_value", MAN])
p("Documented planet-model names are accepted",
  "Each planet model name of the user manual (spherical, fisher_1960, smithsonian, custom) loads as that model. (The code accepts fisher1960, not the documented fisher_1960.)",
  "every planet_model value", "no test loads any planet model but spherical; accepting exactly the right set concerns all strings",
  [CFG+"::PlanetConfig", PL+"::Planet::update_with_config", MAN])
p("Parameters are inherited unless overwritten",
  "A phase uses, for each parameter, the value its own configuration specifies and otherwise the value in force at the end of the previous phase (for the first phase: the program's default values); specifying one parameter changes no other.",
  "every previous phase and every phase configuration", "2^n combinations of optional parameters times arbitrary values",
  [PH+"::Phase::new", VEH+"::Vehicle::update_with_config", AT+"::Atmosphere::update_with_config", STE+"::Steering::update_with_config"])
p("Initialisation is required once and used once",
  "A simulation whose first phase has no init section panics before integrating; init sections of later phases have no effect on the outcome; an empty configuration prints nothing and returns the default state.",
  "every list of phase configurations", "must hold for any number and content of phases",
  [PH+"::Phase::new", LIB+"::Simulation::run"])
p("Configured step size is used",
  "The integration step size of a phase is the configured stepsize. (False: the configured value is overwritten by a constant 1 s before the phase runs, so the outcome never depends on any stepsize entry.)",
  "every list of phase configurations", "the existing end-to-end test passes although the parameter is ignored; independence from a parameter ranges over all its values",
  [PH+"::Phase::new", PH+"::Phase::reset", LIB+"::Simulation::run"])
p("Configured initial altitude is used",
  "The vehicle starts at the configured altitude above the surface. (False: the altitude entry is never read, so the outcome never depends on it.)",
  "every init section", "independence from a parameter ranges over all its values",
  [PH+"::Phase::init", CFG+"::InitConfig"])
p("Launch point lies on the planet surface at the requested longitude",
  "For every planet with positive radii the initial position satisfies the ellipsoid equation, reports altitude zero, and lies in the half plane of the configured longitude.",
  "all planets with positive radii, all latitudes strictly between the poles, all longitudes", "continuum of planets and sites",
  [PH+"::Phase::init", PL+"::Planet::altitude"])
p("Launch latitude is the configured geodetic latitude",
  "The surface normal at the initial position makes the configured geodetic latitude with the equatorial plane. (Holds for spherical planets, false for every oblate planet off the equator: the conversion is applied the wrong way round.)",
  "all planets and latitudes", "only spherical Earth is tested; the claim concerns every oblateness and latitude",
  [PH+"::Phase::init"])
p("Vehicle starts at rest relative to the planet",
  "Right after initialisation the planet-relative velocity is the zero vector and the inertial velocity equals rotation vector cross position.",
  "all planets and launch sites", "continuum of inputs",
  [PH+"::Phase::init", PL+"::Planet::velocity_planet"])
p("Mass bookkeeping at phase changes",
  "Specifying a propellant mass makes the total mass structure + propellant; specifying only a structure mass keeps the remaining propellant; specifying neither keeps the total mass; the reported propellant is always total mass minus structure mass.",
  "every previous phase, every configuration, every history of phases", "all staging sequences cannot be enumerated",
  [PH+"::Phase::new", PH+"::Phase::system"])
p("max_acceleration -1 disables throttling",
  "With max_acceleration -1 (or never set) every computed state of positive mass has throttle exactly 1, whatever the aerodynamic force and engines, and the acceleration check never aborts the run. (With zero mass the throttle is not a number and the run aborts.)",
  "every vehicle, mass > 0, pressure and aerodynamic force", "must hold in every state along every trajectory",
  [PH+"::Phase::new", VEH+"::Vehicle::auto_throttle", PH+"::Phase::system"])
p("Attitude is the configured cubic",
  "Each Euler angle is, in degrees, c0 + c1*y + c2*y^2 + c3*y^3 of that axis' own variable; configuring one axis never changes the others.",
  "every coefficient set, variable and state", "continuum of inputs",
  [STE+"::Steering::euler_angles", STE+"::Steering::calc_coeff"])
p("Attitude does not jump at events",
  "The Euler angles at the start of a phase equal those at the end of the previous phase. (Holds for axes steered by time_since_event; false for axes steered by other variables with non-zero coefficients.)",
  "every pair of consecutive phases and every steering configuration", "continuum of states and coefficients",
  [STE+"::Steering::init", PH+"::Phase::reset", MAN])
p("Derived variables cannot leak between steps",
  "The state computed for given time, position, velocity and mass does not depend on any previously computed derived value, provided steering uses only variables computed before it and tables only variables computed before them; a steering variable not yet computed is read as zero inside integration steps.",
  "every pair of states agreeing on the primary variables", "two-run (relational) property over all states",
  [PH+"::Phase::system", INT+"::Integrator::step", ST+"::State::from_vec"])
p("Table evaluation never goes out of bounds",
  "Evaluating any accepted table at any state, including states holding NaN or infinities, returns a number and never panics.",
  "every accepted table of any size and every state, in any arithmetic", "all sizes and all special values",
  [LIN+"::get_idx", LIN+"::linear_interpolate", LIN+"::bilinear_interpolate", LIN+"::trilinear_interpolate"])
p("1D tables interpolate linearly",
  "A 1D table returns the data value at each argument, the straight line between neighbouring points in between, the extension of the first or last segment outside, and the constant for a single entry; inside the range the result lies between the neighbouring data values and the function is continuous.",
  "every table of any length and every argument", "all table sizes and all arguments",
  [LIN+"::linear_interpolate", LIN+"::get_idx"])
p("2D and 3D tables interpolate multilinearly",
  "2D and 3D tables return the bi-/trilinear interpolant of the enclosing cell, hit the data at grid points, stay within the data's minimum and maximum inside the grid, and are continuous.",
  "every table size and argument tuple", "all table sizes and all arguments",
  [LIN+"::bilinear_interpolate", LIN+"::trilinear_interpolate"])
p("Missing coefficient tables contribute no force",
  "The aerodynamic force never contains NaN; a vehicle without tables has zero aerodynamic force; a coefficient without table counts as zero. (The last part is false: without a lift table the drag is dropped too, and vice versa.)",
  "every vehicle and every state", "continuum of states and NaN propagation",
  [VEH+"::Vehicle::aero_force", TAB+"::Table::default"])
p("A finished phase has met its end criterion",
  "When running a phase returns, the chosen variable of its final state is within 1e-3 of the target value.",
  "every phase, every configuration, every run of any length, in any arithmetic", "all trajectories of all lengths",
  [PH+"::Phase::run", PH+"::Phase::step"])
p("Overshooting steps leave no trace",
  "Each printed state is either the previous one (a discarded step) or one full integrator step from it; a discarded step changes only the next step size and the retry count.",
  "every phase and every number of steps", "all histories",
  [PH+"::Phase::step", PH+"::Phase::run"])
p("Retries are bounded",
  "In one phase at most 21 steps are discarded; the next overshoot aborts with the documented panic; every run therefore accepts all but at most 21 of its steps.",
  "every phase and every number of steps", "all histories",
  [PH+"::Phase::step"])
p("Time bookkeeping",
  "Each accepted step advances time and time since event by the same step size, so their difference is constant in a phase; time since event starts each phase at zero and time is carried over.",
  "every phase, step and history of phases", "all histories",
  [RK+"::RungeKutta::step", PH+"::Phase::reset"])
p("Phases ended by time terminate at the exact time",
  "A phase whose end criterion is time or time_since_event with a target not before its start terminates, after at most ceil((target-start)/stepsize) accepted steps and at most one discarded step, at exactly the target time or at a regular step within 1e-3 of it, never later than the target plus 1e-3, unless an evaluation of the equations of motion on the way aborts the run.",
  "every phase, start time, target and positive step size", "unbounded number of steps",
  [PH+"::Phase::step", PH+"::Phase::time_to_go", PH+"::Phase::event_is_active"])
p("Step-size correction aims inside the overshot step",
  "After a step that crossed the target from one side to the other, the corrected step size is strictly between zero and the discarded one, so time never runs backwards. (False if the target was already passed before the step: the corrected step is negative and time decreases.)",
  "every pair of old and new values around every target", "continuum of values",
  [PH+"::Phase::time_to_go", PH+"::Phase::event_is_active", PH+"::Phase::step"])
p("Ended phases stay ended",
  "Stepping an ended phase always panics and running an ended phase takes no step.",
  "every ended phase", "all states",
  [PH+"::Phase::step", PH+"::Phase::run"])
p("Reported states respect the acceleration limit",
  "Every state printed or returned by a run has a sensed acceleration not above 1.001 times the phase's limit and a throttle that is not NaN; otherwise the run has aborted.",
  "every phase, every run, in any arithmetic", "all trajectories",
  [PH+"::Phase::system"])
p("Only documented aborts are possible",
  "Running a simulation loaded from a file can abort only for a missing first init, an unreachable acceleration limit or an end criterion that could not be hit; index errors, arithmetic underflow and stepping an ended phase are impossible.",
  "every accepted configuration file and every run", "all configurations and all runs",
  [LIB+"::Simulation::run", PH, LIN])
p("Throttle is between 0 and 1",
  "The automatic throttle is always in [0, 1] or NaN, in any arithmetic, and NaN aborts the run.",
  "every vehicle, limit, mass, pressure and aerodynamic force", "continuum of inputs",
  [VEH+"::Vehicle::auto_throttle"])
p("Auto-throttle keeps the limit whenever possible",
  "If any throttle in [0, 1] keeps the sensed acceleration within the limit, the chosen throttle does; it is the largest such throttle when the aerodynamic force alone is within the limit and the smallest such throttle otherwise; a run aborts only if no throttle can keep the limit.",
  "every thrust vector, aerodynamic force, mass and limit", "continuum of geometric configurations including degenerate ones",
  [VEH+"::side_side_angle", VEH+"::Vehicle::auto_throttle"])
p("Thrust law",
  "Thrust is the sum of the engines' vectors times throttle, independent of engine order; each engine's vector has magnitude |vacuum thrust - exit area * pressure| and the configured direction; without engines thrust and mass flow are zero.",
  "every list of engines, throttle and pressure", "all list lengths and values",
  [VEH+"::Vehicle::thrust_force", VEH+"::Engine::thrust", VEH+"::Vehicle::massflow"])
p("Mass never grows",
  "With non-negative vacuum thrusts and positive specific impulses, mass flow is never positive, an accepted step with positive step size never increases the mass and removes at most step size times the full-throttle flow; without throttling mass falls exactly linearly with time.",
  "every vehicle, state and number of steps", "all histories",
  [VEH+"::Vehicle::massflow", VEH+"::Engine::massflow", INT+"::Integrator::step"])
p("Propellant never becomes negative",
  "A run never reports negative propellant mass. (False: engines keep thrusting and consuming mass after the propellant is used up.)",
  "every run", "a run of suitable length is needed; the positive claim is over all runs",
  [PH+"::Phase::system", MAN])
p("Aerodynamic force geometry",
  "The body-frame force from drag and lift has magnitude q*S*sqrt(CD^2+CL^2+CY^2); with no side slip and forward flow its component along the air-relative velocity is -q*S*CD and its component perpendicular to it in the pitch plane is -q*S*CL.",
  "every coefficient triple, dynamic pressure, area and velocity", "continuum of inputs",
  [VEH+"::Vehicle::aero_force", VEH+"::Vehicle::alpha"])
p("Angle of attack",
  "For forward air flow the angle of attack is the angle in (-pi/2, pi/2) whose tangent is vz/vx; it vanishes exactly when vz does and is odd in vz. (Oddness fails when vx is below 1e-6: upward flow gives pi/2, downward flow gives 0.)",
  "every body-frame velocity", "continuum of inputs",
  [VEH+"::Vehicle::alpha"])
p("Frame changes are proper rotations",
  "Each of the frame transformations has orthonormal rows and determinant 1 for all angles, so it preserves lengths and angles and its transpose undoes it; the body frame is reached by roll, then yaw, then pitch.",
  "all angles and times", "continuum of angles",
  [TR])
p("Launch frame orientation",
  "The launch frame's first axis points from the planet centre through the launch site; for azimuth 0 its third axis points north; with zero Euler angles the body frame is the launch frame.",
  "all sites and azimuths", "continuum of angles",
  [TR+"::inertial_to_launch", TR+"::inertial_to_body", PH+"::Phase::init"])
p("Planet-fixed points stay fixed",
  "A point rotating with the planet has constant planet-frame coordinates and zero planet-relative velocity at all times; planet-frame coordinates have the same distance and altitude as inertial ones; the time derivative of planet-frame coordinates along any motion is the planet-relative velocity expressed in the planet frame.",
  "all times, positions, motions and rotation rates", "continuum of times and motions",
  [TR+"::inertial_to_planet", PL+"::Planet::velocity_planet"])
p("Gravity is the gradient of the zonal potential",
  "At every point outside the centre the gravity vector is the exact gradient of mu/r*(1 - sum_{n=2..4} J_n (R_e/r)^n P_n(z/r)).",
  "every position except the centre and every parameter set", "continuum of positions; only J1 is ever tested",
  [PL+"::Planet::gravity"])
p("Gravity symmetries",
  "Without harmonics gravity is mu/r^2 towards the centre; with any harmonics it commutes with rotations about the polar axis and lies in the meridian plane; with J3 = 0 it mirrors at the equator.",
  "every position and parameter set", "continuum of positions and rotations",
  [PL+"::Planet::gravity"])
p("Altitude is zero exactly on the surface",
  "Altitude is zero exactly on the oblate ellipsoid, positive exactly outside and negative exactly inside, and for a spherical planet is distance minus radius.",
  "every position except the centre and every pair of positive radii", "continuum of positions",
  [PL+"::Planet::altitude"])
p("Geopotential altitude",
  "Geopotential altitude equals R*h/(R+h), has the sign of the altitude, is strictly increasing in it, never exceeds it, and stays below R.",
  "every position outside the planet centre", "continuum of positions",
  [PL+"::Planet::geopotential_altitude"])
p("Atmosphere is defined and positive at every altitude",
  "For every geopotential altitude exactly the layer containing it is used (the lowest one below zero, the highest above the table), and temperature, pressure, density and speed of sound are positive finite numbers.",
  "every real altitude", "continuum of altitudes",
  [SA])
p("Atmosphere obeys gas law and hydrostatic balance",
  "Density is p/(R*T) everywhere; inside each layer dp/dh = -g0*rho, so pressure strictly decreases with altitude within a layer.",
  "every altitude inside a layer", "differential statement over a continuum",
  [SA])
p("Atmosphere has no visible jumps",
  "At each layer boundary the temperature and pressure reached from below differ from the value at the boundary by less than one part in a million, so temperature and pressure are practically continuous in the altitude. (False at 396406.39 ft and 480781.04 ft, where temperature and pressure jump by 6 to 30 percent, the pressure even upwards, because of a mistyped table entry, and at 512046.16 ft, where the pressure jumps by 0.2 percent.)",
  "all 21 layer boundaries and all altitudes near them", "limit statement; rounding of table constants",
  [SA+"::STD_ATMOS_TABLE"])
p("Disabled atmosphere has no effect",
  "With the atmosphere disabled temperature, pressure, density and dynamic pressure are zero and the aerodynamic force is zero for every vehicle and tables; the Mach number is infinite for every non-zero air speed and not a number at zero air speed.",
  "every vehicle, state and table", "NaN and infinity propagation through arbitrary tables",
  [AT, VEH+"::Vehicle::aero_force"])
p("Only velocity relative to the air matters",
  "Air-relative velocity is planet-relative velocity minus wind; dynamic pressure is half density times its square, never negative, and zero exactly when density or relative speed is zero.",
  "every state and wind", "continuum of inputs",
  [AT])
p("Integrator is the classical fourth-order Runge-Kutta method",
  "One step equals the textbook k1..k4 formula for every right-hand side; it is exact for right-hand sides that are cubic polynomials of time, reproduces the degree-4 Taylor polynomial of exp for linear systems, and its coefficients satisfy all order conditions up to 4. For every system of differential equations, possibly depending on time, whose right-hand side is analytic at the starting point, the result of one step of size h differs from the exact solution by at most K*|h|^5 for all small h.",
  "every right-hand side, dimension, step size and initial value", "tests check one ODE with an average error bound",
  [RK])
p("Steps depend only on the primary state",
  "The next state is a function of time, time since event, position, velocity and mass (and the phase parameters) only.",
  "every pair of states agreeing on the primary variables", "relational property over all states",
  [INT+"::Integrator::step", ST+"::State::to_primary_vec", ST+"::State::from_vec"])
p("Phases compose",
  "Running a list of phases is running the prefix and then continuing with the rest from the phase reached; output announces phases 1, 2, ... in order; the final state is that of the last phase, which has met its end criterion.",
  "every list of phase configurations", "all list lengths",
  [LIB+"::Simulation::run"])
p("Coasting",
  "Without engines the mass never changes during a phase; without engines and atmosphere the acceleration equals gravity in every state, independent of attitude, mass and vehicle.",
  "every run of any length", "all histories",
  [PH+"::Phase::system", VEH+"::Vehicle::thrust_force"])
p("Planet presets",
  "Custom planets are used verbatim; the spherical preset has equal radii and no harmonics; the Fisher preset has only J2; all presets have polar radius not above equatorial radius, positive mu and eastward rotation.",
  "every planet configuration", "custom values range over all numbers",
  [PL+"::EARTH_SPHERICAL", PL+"::Planet::update_with_config"])
p("A bad file never starts a simulation",
  "If the configuration file cannot be loaded the program reports the error and neither prints nor integrates anything; otherwise its output is exactly that of running the loaded simulation.",
  "every file content", "all file contents",
  ["src/main.rs::main", LIB+"::Simulation::from_file"])

p("Reported states are self-consistent",
  "In every state a run prints or returns, the derived quantities (planet-frame position and velocity, altitude, gravity, air data, thrust, mass flow, propellant, accelerations) are those belonging to that state's own time, position, velocity and mass; in particular Newton's second law holds: total acceleration is gravity plus the sum of thrust and aerodynamic force over mass, turned into the inertial frame.",
  "every phase, every run of any length, in any arithmetic", "all histories; a stale value would show only in particular states",
  [PH+"::Phase::system", PH+"::Phase::run", INT+"::Integrator::step"])
p("A powered phase in vacuum ends on time with the exact mass",
  "Without atmosphere and acceleration limit, a phase that ends by time with enough mass left runs to its end without abort, whatever the launch site, attitude and engines, with throttle 1 throughout and the mass reduced by exactly the consumption rate times the time passed.",
  "every vehicle, planet, steering, start time and duration", "unbounded number of steps and continuum of parameters",
  [PH+"::Phase::run", PH+"::Phase::step", VEH+"::Vehicle::massflow"])
p("A criterion that cannot be met is reported",
  "If the end criterion of a phase can never be met, the run aborts with the documented message. (False: a phase without engines waiting for a different mass never ends; the step size becomes minus infinity.)",
  "every phase whose variable stays away from the target", "termination concerns runs of unbounded length",
  [PH+"::Phase::run", PH+"::Phase::step", PH+"::Phase::time_to_go"])

p("Every key sets the parameter it names",
  "A JSON document is accepted with the phase configurations cs exactly if it says so in the syntax of the manual: each key of each section (phase, init, vehicle, engine, table, steering, atmosphere, custom planet) sets its own parameter to the value given, a missing or null key sets nothing, and the order of keys is irrelevant.",
  "every JSON document and every list of configurations", "the space of documents is infinite; a key wired to the wrong field or a value read in the wrong order shows only in particular files",
  [CFG+"::PhaseConfig", CFG+"::VehicleConfig", "sim/src/utils/tables/deserialization.rs::Table1DUnchecked", LIB+"::Simulation::from_file"])
p("Output lists every step",
  "Running a phase prints one row per integration step attempted, in order, showing time, planet-fixed position, velocity, altitude and propellant mass of the state after the attempt; a discarded step repeats the row before it; every kept state is printed, and the last row is the final state.",
  "every phase and run of any length, in any arithmetic", "all histories",
  [PH+"::Phase::run"])
p("Documented defaults",
  "Writing the documented default of a parameter explicitly into the first phase changes nothing. (False for init, which is mandatory, and engines, whose documented default engine gives NaN.)",
  "every first phase configuration, followed by any phases", "all configurations",
  [PH+"::Phase::default", VEH+"::Vehicle", "sim/src/steering.rs::Steering"])
p("The plot shows the simulation",
  "The plotting tool, given the text the program prints for a finished simulation, accepts it and plots exactly the phases that were run and, for each of them, one data point per printed row in the same order, with time, position and velocity within half a unit of the simulated values.",
  "every simulation of one or more phases whose printed numbers are finite and whose times are not negative, and every way of printing numbers as nearest integers", "the texts are unbounded, and the patterns of the tool could match across rows, columns or phases",
  ["utils/plot/plot.py::parse_test_output", PH+"::Phase::run", LIB+"::Simulation::run"])
p("Burning to a mass or propellant target ends exactly there",
  "A phase at constant full throttle whose end criterion is a mass or a propellant mass below the current one terminates, with exactly the requested mass after exactly the time the engines need for it, or at a regular step within the tolerance 1e-3, unless the equations of motion fail on the way; no printed mass is more than 1e-3 below the target.",
  "every planet, atmosphere, attitude, set of engines with positive consumption, target and start", "termination of runs of unbounded length over a continuum of parameters",
  [PH+"::Phase::run", PH+"::Phase::time_to_go", VEH+"::Vehicle::massflow", VEH+"::Vehicle::propellant_mass"])
p("Time targets are met in double precision",
  "In IEEE-754 binary64 arithmetic, with any implementation of the library functions, a phase that ends by time (not before its start, all times at most 1e9 seconds) terminates within 1e-3 (up to rounding) of the target, after at most two rows more than the number of seconds, up to a relative rounding error; counted from the start of the phase, rows are at exactly 1, 2, 3, ... seconds, and a phase of n whole seconds takes exactly n steps and ends at exactly n; unless the equations of motion fail on the way.",
  "every phase, target and start time, every C library", "rounding errors accumulate over runs of unbounded length",
  [PH+"::Phase::run", PH+"::Phase::step", PH+"::Phase::time_to_go", PH+"::Phase::event_is_active"])
p("Coasting in vacuum follows the laws of orbits",
  "Between any two times at which a vehicle without engines and atmosphere moves by the computed equations of motion, its energy (kinetic minus zonal potential), the component of its angular momentum along the planet's axis and its mass stay the same, whatever the steering; around a planet without harmonics the whole angular momentum and the Laplace-Runge-Lenz vector (orbital plane, orientation, eccentricity) stay the same. One integration step of size h changes energy and axial angular momentum by at most K*|h|^5.",
  "every planet, vehicle, steering, orbit and step size", "invariants of solutions of a differential equation over a continuum of states",
  [PH+"::Phase::system", PL+"::Planet::gravity", INT+"::Integrator::step"])
p("A phase can be split at a whole second",
  "A phase of n + m seconds does the same as a phase of n seconds followed by an otherwise empty phase of m seconds: the same rows, the same panic if any, the same final state (except for the time since the last event), and the same continuation of the simulation, provided that attitude angles are constant or change at constant rates since the last event and the aerodynamic tables do not depend on the time since the last event or on quantities computed after them.",
  "every simulation, position of the phase in it, vehicle, planet, atmosphere, limit, n, m >= 1; exact arithmetic", "relates two runs of unbounded length over a continuum of parameters",
  [PH+"::Phase::new", PH+"::Phase::reset", PH+"::Phase::run", "sim/src/steering.rs::Steering::init"])
p("The rocket equation",
  "Along every exact trajectory of the computed equations of motion in vacuum at a constant attitude, the velocity gained between any two times is the effective exhaust velocity (total vacuum thrust divided by total consumption, turned to the inertial frame) times the logarithm of the mass ratio, plus the integral of gravity, whatever the throttle and the acceleration limit do in between; for a single engine and no gravity its size is specific impulse times 9.80665 times that logarithm.",
  "every planet, launch site, attitude, set of engines and time span", "a statement about solutions of a differential equation over a continuum",
  [PH+"::Phase::system", VEH+"::Vehicle::thrust_force", VEH+"::Vehicle::massflow", VEH+"::Engine::massflow"])
p("Mass accounting in double precision",
  "In IEEE-754 binary64 arithmetic, with any implementation of the library functions: in a phase that ends by time and does not start after its target, with engines of non-negative thrust and positive specific impulse, the mass never grows from a state to a later one, not even by rounding, and neither does the printed propellant mass; a phase without engines and acceleration limit ends with exactly the mass it started with and prints the same propellant mass in every row.",
  "every simulation, phase, set of engines, throttle history and duration, every C library", "rounding errors accumulate over runs of unbounded length",
  [PH+"::Phase::run", PH+"::Phase::time_to_go", VEH+"::Vehicle::massflow", VEH+"::Engine::massflow", INT+"::Integrator::step"])
p("Scaling a vehicle changes only masses and forces",
  "Multiplying the structure and propellant masses, the reference areas and the thrusts and exit areas of the engines of a whole mission by the same positive number leaves the simulation as it is - whether it ends, panics or runs forever, every step, time, position, velocity, angle, throttle and acceleration - except that masses, mass flows and forces are multiplied by that number; provided that no table, steering axis or end criterion looks at a mass or a force.",
  "every mission of any number of phases and every positive factor; exact arithmetic", "relates two runs of unbounded length over a continuum of parameters",
  [PH+"::Phase::system", PH+"::Phase::new", VEH+"::Vehicle::auto_throttle", VEH+"::Vehicle::aero_force", VEH+"::Engine::massflow", INT+"::Integrator::step"])
p("Numbers stay numbers",
  "If all numbers in the configurations are finite, the tables well formed, specific impulses not zero and planet radii positive, then every variable of every state of the simulation (except perhaps the Mach number, without atmosphere) and every printed number is finite, never NaN or infinite, as long as the equations of motion are only evaluated with positive mass, farther from the planet's centre than half the difference of its radii, and with finite step sizes. The equations of motion themselves then either succeed or stop with the acceleration panic, and the step size stays finite unless a step overshoots without changing the criterion's variable. Too short steps to reach the centre or to use up the mass satisfy this by themselves. Every configuration that can be loaded from the text of a file satisfies these conditions, provided that specific impulses are not zero and planet radii positive. The shipped example satisfies them.",
  "every mission of any number of phases, every intermediate state, at rest or in motion, at the poles, in vacuum, with missing tables or engines; exact arithmetic", "undefined values arise only at exceptional points of a continuum of states",
  [PH+"::Phase::system", PH+"::Phase::new", PH+"::Phase::run", PH+"::Phase::time_to_go", VEH+"::Vehicle::auto_throttle", VEH+"::Vehicle::aero_force", PL+"::Planet::gravity", INT+"::Integrator::step"])
p("The launch longitude is a symmetry",
  "Launching a whole mission further east by any angle, in a wind turned about the polar axis by the same angle, leaves the simulation as it is - whether it ends, panics or runs forever, every step, time, altitude, speed, angle, force, throttle and mass - except that the vectors of the inertial and the planet's frame (in particular the printed position and velocity) are turned about the polar axis by that angle; provided that no table, steering axis or end criterion looks at an equatorial component of such a vector, all configured numbers are finite and the flight stays away from the singularities of the equations of motion. The shipped example satisfies these conditions on the configuration.",
  "every mission of any number of phases and every change of longitude; exact arithmetic", "relates two runs of unbounded length over a continuum of parameters",
  [PH+"::Phase::system", PH+"::Phase::init", PL+"::Planet::gravity", PL+"::Planet::altitude", "sim/src/transformations.rs::inertial_to_launch", "sim/src/transformations.rs::inertial_to_planet", INT+"::Integrator::step"])
p("The hemispheres are alike",
  "On a planet without third harmonic, flying a whole mission from the opposite latitude with the azimuth counted from the south, in mirrored wind, with opposite roll and yaw programs, opposite side-force coefficients and engines mounted on the other side, leaves the simulation as it is - whether it ends, panics or runs forever, every step, time, altitude, speed, throttle and mass - except that everything is mirrored at the plane of the equator (in particular the third components of the printed position and velocity); provided that no table, steering axis or end criterion looks at a quantity that changes its sign in the mirror, all configured numbers are finite and the flight stays away from the singularities of the equations of motion. The spherical and the Fischer planets have no third harmonic, the Smithsonian has one. The shipped example satisfies these conditions on the configuration.",
  "every mission of any number of phases; exact arithmetic", "relates two runs of unbounded length over a continuum of parameters",
  [PH+"::Phase::system", PH+"::Phase::init", PL+"::Planet::gravity", "sim/src/transformations.rs::inertial_to_launch", "sim/src/transformations.rs::launch_to_body", VEH+"::Engine::thrust", VEH+"::Vehicle::aero_force", INT+"::Integrator::step"])

p("Table look-ups are accurate in double precision",
  "With numbers as the computer has them (IEEE-754 doubles): within the range of the arguments of a well-formed table of one, two or three dimensions whose entries are numbers of size at most M (between 1e-30 and 1e20) and whose arguments are numbers of size at most 1e20, at least 1e-20 apart, the look-up yields a number that differs from the exact multilinear interpolation by at most 1e-14 M, and hence leaves the range of the entries by no more than that; a table all of whose entries are the same number yields exactly that number, far beyond its range, too; at the first argument a one-dimensional table yields exactly its first entry, whereas at later arguments the result may differ from the entry (it may be 0 where the entry is 1e-20).",
  "every table and every state within its range; IEEE-754 binary64", "continuum of tables and arguments; rounding errors depend on all of them",
  ["sim/src/utils/tables/linear_interpolation.rs::linear_interpolate", "sim/src/utils/tables/linear_interpolation.rs::bilinear_interpolate", "sim/src/utils/tables/linear_interpolation.rs::trilinear_interpolate", "sim/src/utils/tables/mod.rs::Table::at_state"])

p("Smaller steps converge to the true flight",
  "Let an exact solution of the differential equation be given over some time, near which the right-hand side can be evaluated and is analytic. Then for all small step sizes h successive integration steps that start on the solution succeed, and at every time within that span the result differs from the exact solution by at most K h^4, where K does not depend on h: the integrator is of fourth order globally, not only for one step. In particular the integration steps of a phase converge in this way to the exact flight by its equations of motion, and without engines and atmosphere to every exact orbit around any planet.",
  "every differential equation, every solution, every step size below some bound, any number of steps; exact arithmetic", "a statement about a limit; constants depend on the unknown exact solution",
  [INT+"::Integrator::step", "sim/src/integration/runge_kutta.rs::RungeKutta::step", PH+"::Phase::system"])

p("Orbital invariants do not drift over a long coast",
  "Without engines, atmosphere and acceleration limit, over any span of time for which the exact orbit exists, the energy and the axial angular momentum of the computed orbit differ from those at its start by at most K h^4 after any number of steps within the span, where K does not depend on the step size h. Around a planet without harmonics so do the whole angular momentum (orbital plane) and the Laplace-Runge-Lenz vector (eccentricity and orientation).",
  "every planet, every orbit, every span of time, every step size below some bound, any number of steps; exact arithmetic", "a statement about a limit and about all orbits; a test sees the drift of one orbit with one step size",
  [INT+"::Integrator::step", "sim/src/integration/runge_kutta.rs::RungeKutta::step", PH+"::Phase::system", "sim/src/planet.rs::Planet::gravity"])

p("Missions timed in whole seconds run like clockwork",
  "In double precision a mission whose phases end at whole seconds (by `time` or by `time_since_event`) always terminates. Its output is exactly the timetable: each phase is announced, followed by one row for each second, stamped with the exact second, up to the end of the phase; the clock never drifts and no second is skipped or printed twice. If it aborts, the output is an initial part of the timetable and the reason is a missing `init` section or the acceleration limit. If only the first phases are timed like this, the output begins with their timetable, as it does for the shipped example, whose first 150 seconds are of this kind. Unpowered missions without acceleration limit cannot abort.",
  "every mission of any number of phases of any whole durations with end times below 2^53, every vehicle, planet, atmosphere and steering, any phases that follow, every C library", "quantifies over all missions and over rounding in every step; a test runs one mission",
  [PH+"::Phase::run", PH+"::Phase::step", PH+"::Phase::reset", "sim/src/lib.rs::Simulation::run", "utils/example.json"])

p("The flight goes on where the phase before ended",
  "A new phase starts, bit for bit, with the time, position and velocity the program so far ended with, and with a time since event of zero. Planet-relative position and velocity, altitude and gravity are unchanged unless the phase chooses a planet; the state of the air is unchanged unless it chooses a planet or an atmosphere; the masses are unchanged unless it gives a structure or a propellant mass. All phases use the launch frame of the first.",
  "every program of any number of phases that has ended, every phase that follows, any arithmetic", "quantifies over all programs and flights; a test sees one hand-over",
  [PH+"::Phase::new", PH+"::Phase::reset", PH+"::Phase::system", "sim/src/lib.rs::Simulation::run"])

p("A target that is approached steadily is always hit",
  "If, in every state a phase comes to before its target, the variable of the end criterion moves towards the target at a rate between m and M per second over steps up to the step size, where M is less than twice m, say M = (1 + k) m, and M times the step size times k to the 21 is below the tolerance, the phase ends normally, within the tolerance of the target. The 21 retries always suffice, and apart from the steps that cover the distance at most 42 attempts are made. With the step size of one second it is enough that the rate is at most 2000 per second and varies by at most half of itself.",
  "every phase, end variable, target, direction of approach and pair of rates with these properties (exact arithmetic)", "quantifies over all nonlinear courses of the variable and over the whole run; a test tries one",
  [PH+"::Phase::step", PH+"::Phase::time_to_go", PH+"::Phase::run"])

p("The picture shows the flight",
  "If the text printed by a simulation that ends normally, with at least two rows of finite numbers and no negative times, is given to the plotting tool, it draws a polygonal line with one corner for each printed row, in order, at the printed position in kilometres, at most half a metre off in each direction; the colour of each corner is the speed of the row in km/s, less than 1 m/s off; each phase has exactly one label, its number, at the point where its first row is drawn; and the camera looks at the first corner from twice its distance from the centre of the planet.",
  "every list of configurations whose simulation ends normally with finite numbers (exact arithmetic), every way of printing numbers rounded to the nearest integer", "must hold for all flights and all numbers of phases and rows, and PyVista cannot be run in a unit test", ["utils/plot/plot.py::parse_test_output", "utils/plot/plot.py::plot", PH+"::Phase::run", LIB+"::Simulation::run"])

p("Only the values in force matter",
  "If two input files have the same number of phases, the same initialisation of the first phase, the same tank fillings (the same phases give a propellant mass, the same one) and in each phase the same values in force - the last ones given in this or an earlier phase, or the defaults - then they lead to the same output, row for row, and the same outcome. In particular, writing out in a later phase a value that is in force anyway (planet, atmosphere, wind, reference area, coefficients, engines, acceleration limit, steering, end criterion) changes nothing, an init section or step size there is ignored, and in exact arithmetic the structure mass may be written out again, too. The propellant mass is the exception: writing it out again refuels.",
  "every pair of lists of phase configurations, of any length, any arithmetic", "must hold for all files, all numbers of phases and all the ways a value can get into force", [PH+"::Phase::new", VEH+"::Vehicle::update_with_config", LIB+"::Simulation::run", CFG])

p("How a configuration is written down does not matter",
  "Replacing in an input file planets, tables or sets of engines by others that mean the same - a planet with the same parameters, a table with the same values, engines with the same total thrust at each pressure and the same total mass flow - does not change the output or the outcome. So a preset planet may be written out, a table with a single row may be written as a table of one dimension less and, in exact arithmetic, engines may be listed in any order, an engine may be replaced by n engines of an n-th of its thrust and exit area, and points on the straight line between (or beyond) the points of a table may be added or left out.",
  "every list of phase configurations and every such replacement in any of its phases; any arithmetic, or exact arithmetic where sums are reordered", "must hold for all flights, all engines, all tables and all states in which they are evaluated", [VEH+"::Vehicle::thrust_force", VEH+"::Vehicle::massflow", VEH+"::Engine::thrust", VEH+"::Engine::massflow", TAB, LIN+"::linear_interpolate", PL, LIB+"::Simulation::run"])

p("How wrong a simulated orbit is, in metres",
  "A vehicle that coasts without atmosphere around one of the built-in models of the Earth, 6500 km or more from its centre and at most 8 km/s fast, is simulated with the regular steps of one second so well that after t seconds, for up to 80 minutes, its position differs from that on the true orbit by at most 0.225 (e^(t/375) - 1) metres and its velocity by at most 0.0006 (e^(t/375) - 1) metres per second: less than a metre after ten minutes. With steps of h < 1 seconds the bounds get smaller by the factor h^4. If the start is wrong by er metres and ev metres per second, this adds at most (er + 375 ev) e^(t/375) metres. A phase that coasts for n seconds runs to its end and prints the n states of which this holds.",
  "every orbit within these limits, every attitude program, every number of steps, in exact arithmetic", "an orbit to compare with is not available in closed form once the harmonics act, and no sample of orbits bounds the error on all the others", [INT, RK, PL+"::Planet::gravity", PH+"::Phase::step", PH+"::Phase::run"])

p("How wrong a simulated orbit is in double precision",
  "With the f64 arithmetic the program really uses, a vehicle that coasts without atmosphere around one of the built-in models of the Earth, between 6500 and 19000 km from its centre and at most 8 km/s fast, is simulated with the regular steps of one second so well that after t seconds, for up to 80 minutes, its position differs from that on the true orbit by at most (er + 375 ev) e^(t/375) + 0.225 (e^(t/375) - 1) metres, where er and ev, the errors of the starting position and velocity, satisfy er + 375 ev <= 1 mm; the velocity differs by at most one 375th of this. With steps of h seconds, 0.001 <= h <= 1, the factor 0.225 becomes 0.224 h^4 + 0.000014 / h: rounding adds at most 0.000014 / h, so steps much shorter than 0.1 s do not make the result better. A phase that coasts for n seconds (n an integer up to 4800) runs to its end, prints n rows with time since event exactly 1, 2, ..., n, and this holds of every row.",
  "every orbit within these limits, every attitude program that yields numbers, every number of steps, and every C library with sine and cosine between -1 and 1, small powers to a relative error of 1e-15 and bounded results of Rotation3::from_matrix", "rounding errors depend on every bit of every intermediate result; tests only see the errors of the few orbits they fly", [INT, RK, PL+"::Planet::gravity", PH+"::Phase::step", PH+"::Phase::run"])

p("The acceleration limit in double precision",
  "With the f64 arithmetic the program really uses, if the aerodynamic force alone is within the acceleration limit (by a margin of one part in 10^9), the equations of motion do not fail: the automatic throttle is a number between 0 and 1, the sensed acceleration is at most 1.0001 times the limit (the check of the program allows 1.001), and the engines are not throttled more than needed: unless they run at full thrust the sensed acceleration is at least 0.99 times the limit. Without atmosphere this holds in every state with a positive mass, whatever the other values are. Without a limit the throttle is exactly 1 and the check never fails.",
  "every vehicle, engine arrangement, direction and size of aerodynamic force and thrust within the stated ranges, every state, and every C library whose sin, asin and acos have an error of at most 1e-15, with exact arc cosines of 1 and -1", "the formula divides by the sine of an angle that may be as small as 1e-8, so rounding errors are amplified 10^8 times near parallel forces; whether a flight is aborted by rounding errors depends on every direction of the force", [VEH+"::side_side_angle", VEH+"::Vehicle::auto_throttle", PH+"::Phase::system"])

p("A powered phase in vacuum in double precision",
  "With the f64 arithmetic the program really uses, a phase without atmosphere that ends a whole number of seconds after its event and whose engines leave some mass at the end is always completed, with exactly one row per second and exact times, whatever the attitude and the trajectory are. Without an acceleration limit the throttle is exactly 1 in every row, and after k seconds the mass is the initial mass minus k times the nominal consumption, up to an error of 1e-12 of the consumption and 2e-16 of the mass per second; with a limit the sensed acceleration of every row is at most 1.0001 times the limit, and at least 0.99 times the limit unless the throttle is 1, and at most the full consumption is burnt. The propellant printed is the mass minus the structure mass up to one rounding.",
  "every vehicle, engine arrangement, attitude and initial state within the stated ranges, every number of seconds up to 10^6, and every C library whose sin, asin and acos have an error of at most 1e-15", "a single abort because of a rounding error in any of the four million evaluations of the equations of motion would end the simulation, and rounding errors of the mass add up over the seconds", [PH+"::Phase::run", PH+"::Phase::system", VEH+"::Vehicle::massflow", VEH+"::Vehicle::auto_throttle", RK+"::RungeKutta::step"])

p("A mission of several stages in double precision follows its propellant budget",
  "With the f64 arithmetic the program really uses, a mission of legs in vacuum, each of which lasts a whole number of seconds, may change the structure mass, refill the propellant and change the engines, and has enough propellant for full thrust, always ends normally, whatever its attitudes, trajectory, planet and (ordinary) acceleration limits are. The output is exactly one announcement per leg and one row per second at the exact second, and the propellant printed in each row is at least that of the propellant budget (the last filling minus seconds times nominal consumption since then), up to 2e-9 of the largest mass of the mission; if no leg has an acceleration limit it equals the budget up to this error. Staging keeps the propellant unless it is refilled, and dropping structure does not change it.",
  "every sequence of up to 1000 legs with up to 10^6 seconds in all, every vehicle and engine arrangement within the stated ranges, and every C library whose sin, cos, asin and acos have an error of at most 1e-15", "rounding errors of the mass accumulate over all legs, hand-over between legs goes through two different variables (mass and propellant mass), and one abort in any evaluation would lose the whole mission", [PH+"::Phase::run", PH+"::Phase::new", PH+"::Phase::system", VEH+"::Vehicle::massflow", VEH+"::Vehicle::auto_throttle", MAN+"::main"])

p("In double precision the standard atmosphere is right to ten digits at every altitude",
  "With the f64 arithmetic the program really uses, at every geopotential altitude between 100 km below and 7000 km above sea level the temperature, pressure, density and speed of sound are finite and positive and agree with the laws of the 1962 standard atmosphere for the layer of the altitude, up to a relative error of 1e-13, 2e-11, 3e-11 and 2e-13; only within a nanometre of the base of a layer may the laws of the neighbouring layer be used instead. The Mach number and the dynamic pressure of every visited state agree with their definitions up to 3e-13 and 4e-11.",
  "every double between -1e5 and 7e6, every visited state of every phase with an atmosphere, and every C library whose exp and powf have a relative error of at most 1e-15", "the table has 22 layers with different laws, each with its own conditioning: powers with exponents up to 38 and exponentials with arguments up to 89 amplify rounding errors, a temperature gradient that is not exactly zero would switch the law, and a few sampled altitudes say nothing about the rest", [SA+"::temperature", SA+"::pressure", SA+"::density", SA+"::speed_of_sound", SA+"::get_table_row", AT+"::Atmosphere::mach_number", AT+"::Atmosphere::dynamic_pressure"])

p("In double precision the altitude is right to a micrometre everywhere, also over the poles",
  "With the f64 arithmetic the program really uses and each of the three models of the Earth, at every position between 6300 and 100000 km from the centre the computed sine of the latitude is between -1 and 1, so that the arc sine is never NaN, not even exactly over the poles; the altitude is finite and differs by at most 2e-7 m from the exact one, by which one has to go down towards the centre to meet the ellipsoid; the geopotential altitude is finite and right to within 2e-6 m; and temperature, pressure and density of every visited state are finite, positive and follow the laws of the standard atmosphere at such an altitude.",
  "every vector of doubles with a length between 6.3e6 and 1e8, every visited state and printed row of every phase, and every C library with the stated accuracy", "a single position for which the norm is rounded below the third coordinate would give an arc sine of a number above 1, a NaN altitude and then a NaN trajectory; no sample of positions excludes it", [PL+"::Planet::altitude", PL+"::Planet::geopotential_altitude", PH+"::Phase::system"])

p("In double precision the printed text shows the exact seconds and the nearest integers, and the plot reads them",
  "With the f64 arithmetic the program really uses, every number is printed as an integer at most one half away from it and positive whole numbers are printed exactly. So a mission whose phases end at whole seconds prints its timetable as text: `Starting Phase i` and then, for each second, a row beginning with `Time: ` and exactly this second; so does the shipped example for its first 150 seconds, unless it stops because of the acceleration limit. For staged missions in vacuum the propellant mass printed is that of the propellant budget to within 0.5 kg and 2e-9 of the mass. The altitude printed is within 0.5000002 m of the exact one. The plotting tool reads from this text exactly the phases and seconds of the timetable and the nearest integers of all positions and velocities.",
  "every mission timed in whole seconds, every staged mission in vacuum, every run, every finite double, and every format that prints nearest integers", "the text is the only output and the plotting tool parses it with regular expressions; whether a time like 14.999999999999998 is ever printed as 15, a row is lost or two rows show the same second depends on all rounding errors of a mission of arbitrary length", [PH+"::Phase::run", LIB+"::Simulation::run", "utils/plot/plot.py::parse_test_output"])

p("In double precision a flight starts exactly at rest, and speeds, Mach number and dynamic pressure are right to ten digits",
  "With the f64 arithmetic the program really uses: at the start of a simulation the velocity relative to the planet is exactly zero, without any rounding error, and that relative to the air is exactly the opposite of the configured wind. In every state visited the velocities relative to the Earth and to the air differ by less than a tenth of a nanometre per second from the exact ones that belong to the position, the velocity and the wind; the Mach number is the ratio of the exact air speed to the speed of sound up to a fraction of 1e-10, and the dynamic pressure is half the density times the square of the exact air speed up to 3e-10.",
  "every state visited by every phase, every position, velocity, wind and launch site, and every mathematical library", "the ground speed is the small difference of two large velocities, and at launch any rounding residue would be turned into a spurious air speed, Mach number and angle of attack; tests see a few sites and times", [PH+"::Phase::init", PH+"::Phase::system", PL+"::Planet::velocity_planet", AT+"::Atmosphere::mach_number", AT+"::Atmosphere::dynamic_pressure"])

p("In double precision the position over ground is right to a fraction of a millimetre",
  "With the f64 arithmetic the program really uses, the position relative to the turning Earth that is reported for a state differs by at most 0.2 mm from that of the point of the Earth at which the state is at its time, and the integers printed for it by at most 0.5002 m. For a coast in vacuum from a whole second on, in steps of one second, the position over ground in the row for each second is that of the true orbit at this second, up to the error of the orbit (C84) and 0.2 mm.",
  "every state visited, within 100000 km of the centre and 10 million seconds of the beginning; every coasting orbit of C84; every library with the stated accuracies", "the angle the Earth has turned by is a rounded product of a rounded rate and a growing time, and its sine and cosine are then multiplied with coordinates of millions of metres; what is plotted depends on all of them at all times", [PH+"::Phase::system", TR+"::inertial_to_planet", PH+"::Phase::run"])

p("In double precision a flight starts within half a micrometre of the exact launch site, on the surface",
  "With the f64 arithmetic the program really uses, on each of the three models of the Earth and for every latitude and longitude, the initial position is at most 0.5 micrometres and the initial velocity at most 0.1 nm/s away from those computed without rounding; it is at most 0.5 micrometres away from a point of the surface on the configured meridian, and the altitude reported for it is zero to within a micrometre. So rounding does not repair the wrong conversion of the latitude (C12): on the oblate models of the Earth the start is at least 63 km times the sine of twice the latitude away from the place with the configured geodetic latitude and longitude.",
  "every latitude from -90 to 90 degrees and longitude from -360 to 360, the three Earths, every library with the stated accuracies", "the tangent is ill-conditioned near the poles (1.6e16 at 90 degrees) and only the arc tangent makes up for it; no sample of latitudes shows that no latitude is bad", [PH+"::Phase::init", PH+"::Phase::new", PL+"::Planet::altitude"])

p("In double precision the vehicle is turned, and accelerated, as the steering prescribes",
  "With the f64 arithmetic the program really uses, in every state visited: each Euler angle is the cubic polynomial of its variable, converted to radians, to within 3e-15 times the sum of the sizes of its terms; an axis steered by the time since the event continues the angle with which the phase before ended, to within a fraction of 4e-15; the change of frame made from the launch site and the angles differs in no entry by more than 7e-13 from an exact rotation with these angles; the acceleration is the sensed acceleration turned back by this exact rotation plus gravity, to within 4e-12 of the sensed acceleration and 1e-13 m/s^2; and the angle of attack is that between the forward axis and the air velocity in the pitch plane, to within 1.5e-11 times the ratio of speed to forward component.",
  "every phase, state visited, steering law, launch site and azimuth with angles up to 1000 radians, every library with the stated accuracies", "the errors depend on cancellation in the polynomial, on products of nine rounded trigonometric factors and on the angles between vectors; tests see a few attitudes", [STE+"::Steering::euler_angles", TR+"::launch_to_body", TR+"::inertial_to_launch", PH+"::Phase::system", ST+"::State"])

p("In double precision the reported forces, mass flow and sensed acceleration are those of the engines and tables to 13 digits",
  "With the f64 arithmetic the program really uses, in every state of every phase the reported thrust is the reported throttle times the sum of the thrusts of the engines in air of the reported pressure (vacuum thrust minus pressure times exit area, in the direction of the mounting), up to 5e-14 of the gross thrust; the reported aerodynamic force is the one with the exact table values of drag, lift and side force at the reported dynamic pressure and angle of attack, up to 5e-14 of dynamic pressure times area times the largest table entry; the reported mass flow is minus the throttle times the sum of the consumptions, up to 3e-13 of it; and the reported sensed acceleration is the sum of the two forces divided by the reported mass.",
  "every phase, every state visited, any list of up to 100 engines, tables of every dimension with values in range, every library with the stated accuracies", "an unchecked exchange of two terms, or a cancellation between engines, could lose all digits for some vehicles only; tests cover a few vehicles", [VEH+"::Vehicle::thrust_force", VEH+"::Vehicle::aero_force", VEH+"::Vehicle::massflow", VEH+"::Engine", PH+"::Phase::system"])

p("How wrong a simulated powered flight in vacuum is, in metres",
  "A flight outside the atmosphere of the Earth with any number of engines running at full thrust, the vehicle turning at constant roll, yaw and pitch rates of together at most 0.95 degrees per second, the acceleration by the engines at most 25 m/s^2 and at the end still at least two minutes of propellant flow in mass, at distances of 6500 km or more from the centre and with speeds of at most 8 km/s, simulated with steps of h <= 1 seconds for at most 50 minutes: no step aborts, after t = k h seconds the mass is exactly the initial one less t times the consumption, the position differs from that of the true flight (the solution of the law of motion) by at most 16.5 h^4 (e^(t/375) - 1) metres and the velocity by at most 0.044 h^4 (e^(t/375) - 1) metres per second.  An error at the start of er metres and ev metres per second adds at most (er + 375 ev) e^(t/375) metres.  Run with steps of one second, such a phase ends after the requested number of seconds and prints one row for each of them.  From every start a true flight exists for some time.",
  "every vehicle with any engines, every attitude program with these rates, all three models of the Earth, every launch site, every start, every step size up to a second, every number of steps", "the true flight has no formula to compare with; a term of the right-hand side evaluated at the wrong stage time, or a stage weight that is wrong, gives flights that look plausible but converge more slowly", [PH+"::Phase::system", PH+"::Phase::run", VEH+"::Vehicle::thrust_force", VEH+"::Vehicle::massflow", STE+"::Steering", TR, RK])

p("How wrong a simulated powered flight in vacuum is, in metres, with the arithmetic the program really uses",
  "In double precision, with any mathematical library whose functions are accurate to the usual bounds: a phase of n <= 3000 seconds outside the atmosphere of the Earth with up to a hundred engines at full thrust, the vehicle turning at constant roll, yaw and pitch rates of together at most 0.95 degrees per second, the acceleration by the engines at most 25 m/s^2 and at the end still at least two minutes of propellant flow in mass, between 6500 and 19000 km from the centre and with speeds of at most 8 km/s, which starts er metres and ev metres per second off a true flight (a solution of the law of motion), er + 375 ev <= 10: it runs to its end and prints n rows, one for each second; after k seconds the time is exact, the mass is that of k seconds of consumption up to a relative error of 1e-12 of the consumption and 2e-16 of the mass per second, the position is within (er + 375 ev) e^(k/375) + 16.5 (e^(k/375) - 1) metres of that of the true flight, and the velocity within one 375th of this per second.  From every start that leaves room for it there is a true flight for the whole time.",
  "every vehicle with any engines in these bounds, every attitude program with these rates, all three models of the Earth, every launch site, every start, every duration up to 50 minutes, every library of sufficient accuracy", "the true flight has no formula to compare with, and whether thousands of roundings in attitude, thrust, mass and gravity add up to millimetres or kilometres cannot be seen from runs that have nothing exact to be compared with", [PH+"::Phase::system", PH+"::Phase::run", VEH+"::Vehicle::thrust_force", VEH+"::Vehicle::massflow", STE+"::Steering", TR, RK])

p("The printed trajectory of a mission of several phases in vacuum is that of the planned flight, up to metres",
  "In double precision, with any mathematical library whose functions are accurate to the usual bounds: take a mission some phases of which have been completed, and the last of these leaves the vehicle outside the atmosphere of the Earth.  Let up to ten phases follow, of 3000 seconds in all, each of which coasts or flies with engines at full thrust and turns uniformly; each may drop structure, fill propellant, change the engines and the rates, and what it does not change stays: masses, engines and rates, and the angles go on from those reached.  A true flight follows the same plan in real numbers: in each leg it obeys the law of motion with the engines, the mass and the attitude of the plan, and the legs are joined.  If it starts at the position and velocity of the simulation up to X <= 10 metres (375 s times the error of the velocity included) then the simulation terminates without an error, prints after the output of the completed phases exactly one row for each second of the plan, and the k-th of them has the position and velocity of the true flight at second k up to X e^(k/375) + 16.5 (e^(k/375) - 1) metres, across all changes of phase.  A file that describes such a mission makes the program succeed with this output.  Every plan that can be flown has a true flight from every start that is high and slow enough for the whole duration.",
  "every sequence of completed phases, every plan of up to ten legs within these bounds, every sequence of configurations that describes it, all three models of the Earth, every launch site, every start, every library of sufficient accuracy", "errors of mass, attitude and clock that one phase hands to the next change the trajectory of all later ones, and there is no exact trajectory to compare a run with", [PH+"::Phase::new", PH+"::Phase::reset", PH+"::Phase::run", PH+"::Phase::system", VEH+"::Vehicle::update_with_config", STE+"::Steering::update_with_config", STE+"::Steering::init", LIB+"::Simulation::run"])

p("In double precision the reported gravity is the gradient of the potential to ten digits, from the surface on",
  "In double precision, with any mathematical library whose functions are accurate to the usual bounds: in every state which a phase near one of the three models of the Earth visits on or above the surface and up to 20000 km from the centre (indeed from 6350 km from the centre on), the reported gravitational acceleration consists of three numbers (no NaN, no infinity), and it differs from the gradient of the potential with the zonal harmonics J2, J3, J4 of the model by at most 6e-11 of the length of that gradient; the variable gravity_acceleration_norm is this length up to 6.1e-11 of it.",
  "every phase, every state it visits (at any position, the poles and the equator included), all three models of the Earth, every library of sufficient accuracy", "the formula has powers and cancelling harmonics, and tests compare a handful of positions with stored values", [PL+"::Planet::gravity", PH+"::Phase::system"])

p("A coasting satellite keeps its energy and angular momentum in double precision, and stays in orbit for a day",
  "In double precision, with any mathematical library whose functions are accurate to the usual bounds: every step of up to one second of a phase without thrust and aerodynamic forces near one of the three models of the Earth, beginning between 6450 and 19200 km from the centre with a speed of at most 8200 m/s, changes the energy (with the harmonics of the model) by at most 0.017 J/kg and the axial component of the angular momentum by at most 18.3 m^2/s, and n such steps by at most n times that: the errors add up but do not grow. Near the spherical Earth a satellite that begins on an ellipse with perigee of at least 6600 km and apogee of at most 18500 km and with a perigee speed of at most 8050 m/s can be propagated for 86400 steps of up to a second: no step fails, the mass is kept, the radius never leaves the band from 65/66 of the perigee to 1.03 of the apogee, after k steps the energy is that of the ellipse up to 0.01 k J/kg and the angular momentum vector the initial one up to 18.3 k m^2/s; and the phase with step size 1 s that ends after n <= 86400 s reports exactly n rows, for the ends of these steps, and succeeds.",
  "every phase, every library of sufficient accuracy, every ellipse and point on it, every step size up to a second, every number of steps up to a day", "energy drift over a day of rounding errors cannot be read off from runs of a few steps, and tests cover one orbit", [PH+"::Phase::system", PH+"::Phase::run", RK+"::RungeKutta::step", PL+"::Planet::gravity", INT+"::Integrator::step"])

p("The configuration file is read as the JSON standard says",
  "A configuration file is read without a syntax error exactly if its bytes are the UTF-8 encoding of a text that is a JSON document in the sense of RFC 8259 nested at most 127 deep (numbers without leading zeros or plus sign, no trailing commas, no comments, escapes including surrogate pairs, no control characters in strings, nothing but white space around the value), and what is read is the value the text denotes; every text denotes at most one value; files that denote the same value, however they are laid out and escaped, make the program do the same; for a file that is no JSON document, or not encoded in UTF-8, the program reports an error and neither simulates nor prints anything. The text of the shipped example is such a document, and started with it the program prints the documented timetable unless it stops on the acceleration limit.",
  "every text and every sequence of bytes; for the shipped example every mathematical library", "the set of texts is infinite, and a sample of well-formed files says nothing about texts that should be rejected", [LIB+"::Simulation::from_file", "src/main.rs::main", "utils/example.json"])
p("Numbers in the configuration file keep the precision of a double, up to a rounding or two",
  "Every number that is read from a configuration file is a finite double, and so is every number of the phases loaded from it (launch site, masses, tables, engines, steering, planet, wind, limits): none is NaN or infinite, and none comes from anywhere but the file. A whole number of magnitude below 2^53, written without point and exponent, is read exactly. A number written with at most 15 digits whose last digit is at most 22 places away from the decimal point is read as the double nearest to the written decimal, with the written sign; a number of magnitude between 1e-280 and 1e300, however many digits it is written with, is read with a relative error of at most 4e-16. With 16 digits the nearest double may be missed: 9.512243180921393 is not read as the double nearest to it. Every number of the shipped example is read as the double nearest to it.",
  "every decimal number text", "there are infinitely many decimals, and misrounding occurs for isolated ones", [LIB+"::Simulation::from_file", "sim/Cargo.toml", "utils/example.json"])

p("The order of keys and the notation of numbers do not matter",
  "Two configuration files whose values differ only in the order of the keys, in any of their objects and to any depth, make the program do the same: the same rows, the same end, or the same refusal (in any arithmetic). In double precision the files may also differ in layout, in the escaping of characters and in the way numbers are written (150, 1.50e2, 15000E-2), as long as the numbers keep value and sign, have at most 15 digits and their last digit is at most 22 places away from the decimal point. Every value nested at most 127 deep, whatever characters its strings contain, can be written as a file and is read back unchanged.",
  "every pair of configuration files, every number notation, every JSON value", "there are infinitely many ways to write a file; tests fix one of them", [LIB+"::Simulation::from_file", CFG, DES, TAB+"::Table", VEH+"::Engine", "src/main.rs::main"])

out = os.path.join(os.path.dirname(__file__), "..", "properties.jsonl")
with open(out, "w") as f:
    for x in P: f.write(json.dumps(x, ensure_ascii=False) + "\n")
print(len(P))
