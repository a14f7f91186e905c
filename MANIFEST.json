{
 "claims": [
  {
   "property": "C01",
   "status": "proved",
   "theorems": [
    "Post.C01_accepted_tables_wellFormed"
   ],
   "note": "any arithmetic (no law of numbers assumed). For every JSON value tree the loader accepts, every table in it is well formed."
  },
  {
   "property": "C02",
   "status": "proved",
   "theorems": [
    "Post.C02_wellFormed_table_loads"
   ],
   "note": "any arithmetic (no law of numbers assumed). Every well-formed 1D, 2D, 3D table object, with its keys in any order, loads as itself."
  },
  {
   "property": "C03",
   "status": "proved",
   "theorems": [
    "Post.C03_null_is_absent"
   ],
   "note": "any arithmetic (no law of numbers assumed). At the level of JSON value trees."
  },
  {
   "property": "C04",
   "status": "proved",
   "theorems": [
    "Post.C04_bad_keys_refused"
   ],
   "note": "any arithmetic (no law of numbers assumed). Unknown and duplicate keys, at every nesting level of a configuration."
  },
  {
   "property": "C05",
   "status": "proved",
   "theorems": [
    "Post.C05_manual_variables",
    "Post.C05_only_these_names"
   ],
   "note": "any arithmetic (no law of numbers assumed). All documented names against a separately written table of quantities; no other string is accepted."
  },
  {
   "property": "C06",
   "status": "partial",
   "theorems": [
    "Post.C06_planet_names_partial",
    "Post.C06_refuted"
   ],
   "note": "The documented name fisher_1960 is refused (C06_refuted): the property is false of the code. C06_planet_names_partial proves it for the other three names and shows fisher1960 is accepted instead."
  },
  {
   "property": "C07",
   "status": "proved",
   "theorems": [
    "Post.C07_parameters_in_force"
   ],
   "note": "any arithmetic (no law of numbers assumed). The parameters in force in a phase are exactly those of a separately specified override record."
  },
  {
   "property": "C08",
   "status": "proved",
   "theorems": [
    "Post.C08_missing_init",
    "Post.C08_missing_init_only",
    "Post.C08_later_init_ignored",
    "Post.C08_empty"
   ],
   "note": "any arithmetic (no law of numbers assumed)."
  },
  {
   "property": "C09",
   "status": "partial",
   "theorems": [
    "Post.C09_stepsize_ignored",
    "Post.C09_initial_stepsize_one_partial",
    "Post.C09_refuted"
   ],
   "note": "False of the code: C09_stepsize_ignored shows the outcome never depends on any stepsize entry, C09_refuted exhibits it. C09_initial_stepsize_one_partial: the step used at the start of each phase is 1."
  },
  {
   "property": "C10",
   "status": "partial",
   "theorems": [
    "Post.C10_refuted",
    "Post.C10_altitude_ignored"
   ],
   "note": "False of the code: C10_altitude_ignored (the outcome never depends on the entry), C10_refuted (a vehicle configured at altitude 1000 starts at altitude 0)."
  },
  {
   "property": "C11",
   "status": "proved",
   "theorems": [
    "Post.C11_starts_on_surface"
   ],
   "note": "exact arithmetic (XR: reals with NaN and infinities, no rounding)."
  },
  {
   "property": "C12",
   "status": "partial",
   "theorems": [
    "Post.C12_distance",
    "Post.C12_latitude_partial",
    "Post.C12_refuted"
   ],
   "note": "exact arithmetic (XR: reals with NaN and infinities, no rounding). C12_latitude_partial: true on spherical planets and at the equator; C12_refuted: false on every oblate planet off the equator and poles; C12_distance: by how many metres at least (63 km at 45 degrees on the oblate Earths)."
  },
  {
   "property": "C13",
   "status": "proved",
   "theorems": [
    "Post.C13_starts_at_rest"
   ],
   "note": "exact arithmetic (XR: reals with NaN and infinities, no rounding)."
  },
  {
   "property": "C14",
   "status": "proved",
   "theorems": [
    "Post.C14_initial_mass",
    "Post.C14_propellant",
    "Post.C14_propellant_reset",
    "Post.C14_propellant_kept"
   ],
   "note": "any arithmetic (no law of numbers assumed); sums of masses read in the arithmetic of the program."
  },
  {
   "property": "C15",
   "status": "proved",
   "theorems": [
    "Post.C15_throttle_one",
    "Post.C15_never_aborts",
    "Post.C15_configured",
    "Post.C15_zero_mass_aborts"
   ],
   "note": "exact arithmetic (XR: reals with NaN and infinities, no rounding). C15_zero_mass_aborts shows that positive mass is needed."
  },
  {
   "property": "C16",
   "status": "proved",
   "theorems": [
    "Post.C16_axis_angle",
    "Post.C16_attitude_is_cubic",
    "Post.C16_constant_term",
    "Post.C16_relative",
    "Post.C16_configured",
    "Post.C16_unconfigured"
   ],
   "note": "C16_axis_angle/C16_attitude_is_cubic; C16_relative: in a phase of a simulation, relative to the attitude with which the previous phase ended; C16_configured/C16_unconfigured: a configuration keeps the constant term and the axes it does not mention; the cubic in exact arithmetic (XR: reals with NaN and infinities, no rounding)."
  },
  {
   "property": "C17",
   "status": "partial",
   "theorems": [
    "Post.C17_no_jump_partial",
    "Post.C17_jump",
    "Post.C17_refuted"
   ],
   "note": "exact arithmetic (XR: reals with NaN and infinities, no rounding). C17_no_jump_partial: no jump for axes steered by time_since_event; C17_jump: the exact jump otherwise; C17_refuted: a concrete jump."
  },
  {
   "property": "C18",
   "status": "proved",
   "theorems": [
    "Post.C18_no_leak",
    "Post.C18_late_variable_is_default",
    "Post.C18_default_is_zero",
    "Post.C18_leak_witness"
   ],
   "note": "any arithmetic (no law of numbers assumed). C18_no_leak under the stated conditions on variables; C18_leak_witness shows the condition is needed."
  },
  {
   "property": "C19",
   "status": "proved",
   "theorems": [
    "Post.C19_lookup_never_panics",
    "Post.C19_wellFormed_never_panics"
   ],
   "note": "any arithmetic (no law of numbers assumed); every table size."
  },
  {
   "property": "C20",
   "status": "proved",
   "theorems": [
    "Post.C20_value",
    "Post.C20_at_points",
    "Post.C20_governs",
    "Post.C20_between",
    "Post.C20_below",
    "Post.C20_above",
    "Post.C20_range",
    "Post.C20_segment_range",
    "Post.C20_continuous",
    "Post.C20_single",
    "Post.C20_empty"
   ],
   "note": "exact arithmetic (XR: reals with NaN and infinities, no rounding). Values at points, between, below, above, single entry, range and continuity."
  },
  {
   "property": "C21",
   "status": "proved",
   "theorems": [
    "Post.C21_value2",
    "Post.C21_cell2",
    "Post.C21_at_points2",
    "Post.C21_range2",
    "Post.C21_continuous2",
    "Post.C21_value3",
    "Post.C21_at_points3",
    "Post.C21_cell3",
    "Post.C21_range3",
    "Post.C21_continuous3"
   ],
   "note": "exact arithmetic (XR: reals with NaN and infinities, no rounding). Value per cell, grid points, range, continuity, in two and three dimensions."
  },
  {
   "property": "C22",
   "status": "partial",
   "theorems": [
    "Post.C22_no_nan",
    "Post.C22_visited_no_nan",
    "Post.C22_no_tables",
    "Post.C22_side_missing_partial",
    "Post.C22_drag_dropped",
    "Post.C22_lift_dropped",
    "Post.C22_refuted"
   ],
   "note": "C22_no_nan (any arithmetic with the IEEE comparison laws), C22_no_tables, C22_side_missing_partial: true; a missing drag or lift table removes the whole drag/lift force: C22_drag_dropped, C22_lift_dropped, C22_refuted."
  },
  {
   "property": "C23",
   "status": "proved",
   "theorems": [
    "Post.C23_criterion_in_force",
    "Post.C23_finished_phase_met_criterion"
   ],
   "note": "any arithmetic (no law of numbers assumed)."
  },
  {
   "property": "C24",
   "status": "proved",
   "theorems": [
    "Post.C24_step",
    "Post.C24_run"
   ],
   "note": "any arithmetic (no law of numbers assumed)."
  },
  {
   "property": "C25",
   "status": "proved",
   "theorems": [
    "Post.C25_in_simulation",
    "Post.C25_retries_bounded"
   ],
   "note": "any arithmetic (no law of numbers assumed)."
  },
  {
   "property": "C26",
   "status": "proved",
   "theorems": [
    "Post.C26_step",
    "Post.C26_start",
    "Post.C26_difference"
   ],
   "note": "any arithmetic (no law of numbers assumed); constancy of the difference in exact arithmetic (XR: reals with NaN and infinities, no rounding)."
  },
  {
   "property": "C27",
   "status": "proved",
   "theorems": [
    "Post.C27_time_targets",
    "Post.C27_configured"
   ],
   "note": "exact arithmetic (XR: reals with NaN and infinities, no rounding). Including configured phases (step size 1). Failure is characterised: the run aborts only if an evaluation of the equations of motion at a state on the way does."
  },
  {
   "property": "C28",
   "status": "partial",
   "theorems": [
    "Post.C28_between",
    "Post.C28_refuted"
   ],
   "note": "exact arithmetic (XR: reals with NaN and infinities, no rounding). C28_between: between zero and the discarded step when the step crossed the target; C28_refuted: a negative step and time running backwards when the target had been passed before."
  },
  {
   "property": "C29",
   "status": "proved",
   "theorems": [
    "Post.C29_ended_stays_ended"
   ],
   "note": "any arithmetic (no law of numbers assumed)."
  },
  {
   "property": "C30",
   "status": "proved",
   "theorems": [
    "Post.C30_limit_respected",
    "Post.C30_run"
   ],
   "note": "any arithmetic (no law of numbers assumed)."
  },
  {
   "property": "C31",
   "status": "proved",
   "theorems": [
    "Post.C31_only_documented_aborts"
   ],
   "note": "any arithmetic with the IEEE comparison laws."
  },
  {
   "property": "C32",
   "status": "proved",
   "theorems": [
    "Post.C32_throttle_range",
    "Post.C32_visited",
    "Post.C32_nan_aborts"
   ],
   "note": "any arithmetic with the IEEE comparison laws."
  },
  {
   "property": "C33",
   "status": "proved",
   "theorems": [
    "Post.C33_largest",
    "Post.C33_smallest",
    "Post.C33_keeps_limit",
    "Post.C33_abort_only_if_impossible"
   ],
   "note": "exact arithmetic (XR: reals with NaN and infinities, no rounding)."
  },
  {
   "property": "C34",
   "status": "proved",
   "theorems": [
    "Post.C34_engine",
    "Post.C34_sum",
    "Post.C34_order",
    "Post.C34_no_engines"
   ],
   "note": "exact arithmetic (XR: reals with NaN and infinities, no rounding)."
  },
  {
   "property": "C35",
   "status": "proved",
   "theorems": [
    "Post.C35_path",
    "Post.C35_run",
    "Post.C35_flow",
    "Post.C35_step",
    "Post.C35_linear"
   ],
   "note": "exact arithmetic (XR: reals with NaN and infinities, no rounding). C35_path: over any number of steps."
  },
  {
   "property": "C36",
   "status": "partial",
   "theorems": [
    "Post.C36_negative",
    "Post.C36_refuted"
   ],
   "note": "False of the code: C36_refuted is a complete simulation that ends normally with -90 kg propellant; C36_negative says when in general the propellant becomes negative."
  },
  {
   "property": "C37",
   "status": "proved",
   "theorems": [
    "Post.C37_force",
    "Post.C37_magnitude",
    "Post.C37_directions",
    "Post.C37_drag_opposes_motion"
   ],
   "note": "exact arithmetic (XR: reals with NaN and infinities, no rounding)."
  },
  {
   "property": "C38",
   "status": "partial",
   "theorems": [
    "Post.C38_forward",
    "Post.C38_not_forward",
    "Post.C38_refuted"
   ],
   "note": "exact arithmetic (XR: reals with NaN and infinities, no rounding). C38_forward: true for forward flow; C38_not_forward gives the value otherwise; C38_refuted: oddness fails there."
  },
  {
   "property": "C39",
   "status": "proved",
   "theorems": [
    "Post.C39_rotations",
    "Post.C39_rotation_laws",
    "Post.C39_roll_yaw_pitch"
   ],
   "note": "exact arithmetic (XR: reals with NaN and infinities, no rounding)."
  },
  {
   "property": "C40",
   "status": "proved",
   "theorems": [
    "Post.C40_axes",
    "Post.C40_north",
    "Post.C40_directions",
    "Post.C40_zero_attitude",
    "Post.C40_launch_site"
   ],
   "note": "exact arithmetic (XR: reals with NaN and infinities, no rounding)."
  },
  {
   "property": "C41",
   "status": "proved",
   "theorems": [
    "Post.C41_fixed_points",
    "Post.C41_same_altitude",
    "Post.C41_kinematics"
   ],
   "note": "exact arithmetic (XR: reals with NaN and infinities, no rounding); derivatives in Mathlib."
  },
  {
   "property": "C42",
   "status": "proved",
   "theorems": [
    "Post.C42_gravity_is_gradient"
   ],
   "note": "exact arithmetic (XR: reals with NaN and infinities, no rounding). The gradient is Mathlib's derivative along each axis."
  },
  {
   "property": "C43",
   "status": "proved",
   "theorems": [
    "Post.C43_central",
    "Post.C43_rotation",
    "Post.C43_meridian",
    "Post.C43_mirror"
   ],
   "note": "exact arithmetic (XR: reals with NaN and infinities, no rounding)."
  },
  {
   "property": "C44",
   "status": "proved",
   "theorems": [
    "Post.C44_altitude_sign",
    "Post.C44_spherical",
    "Post.C44_radial",
    "Post.C44_visited"
   ],
   "note": "exact arithmetic (XR: reals with NaN and infinities, no rounding)."
  },
  {
   "property": "C45",
   "status": "proved",
   "theorems": [
    "Post.C45_value",
    "Post.C45_laws",
    "Post.C45_visited"
   ],
   "note": "exact arithmetic (XR: reals with NaN and infinities, no rounding)."
  },
  {
   "property": "C46",
   "status": "proved",
   "theorems": [
    "Post.C46_laws",
    "Post.C46_visited"
   ],
   "note": "exact arithmetic (XR: reals with NaN and infinities, no rounding)."
  },
  {
   "property": "C47",
   "status": "proved",
   "theorems": [
    "Post.C47_hydrostatic",
    "Post.C47_decreasing"
   ],
   "note": "exact arithmetic (XR: reals with NaN and infinities, no rounding); derivative in Mathlib; one-sided at the bases."
  },
  {
   "property": "C48",
   "status": "partial",
   "theorems": [
    "Post.C48_continuous_partial",
    "Post.C48_refuted"
   ],
   "note": "exact arithmetic (XR: reals with NaN and infinities, no rounding). C48_continuous_partial: continuous between the bases, and jumps below 1e-7 (temperature) and 1e-6 (pressure) at all bases but the named ones; C48_refuted: the jumps at 396406.39 ft and 480781.04 ft."
  },
  {
   "property": "C49",
   "status": "proved",
   "theorems": [
    "Post.C49_visited",
    "Post.C49_mach",
    "Post.C49_dynamic_pressure"
   ],
   "note": "exact arithmetic (XR: reals with NaN and infinities, no rounding)."
  },
  {
   "property": "C50",
   "status": "proved",
   "theorems": [
    "Post.C50_air_speed",
    "Post.C50_dynamic_pressure"
   ],
   "note": "Air speed in any arithmetic, dynamic pressure in exact arithmetic (XR: reals with NaN and infinities, no rounding)."
  },
  {
   "property": "C51",
   "status": "proved",
   "theorems": [
    "Post.C51_stages",
    "Post.C51_textbook",
    "Post.C51_exact_for_cubics",
    "Post.C51_linear",
    "Post.C51_order_conditions",
    "Post.C51_phase_step",
    "Post.C51_local_error"
   ],
   "note": "exact arithmetic (XR: reals with NaN and infinities, no rounding) for exactness and linear systems; the textbook formula and the order conditions for every right-hand side. C51_local_error: local error O(h^5) against any exact solution, for every analytic (time-dependent) right-hand side in any dimension."
  },
  {
   "property": "C52",
   "status": "proved",
   "theorems": [
    "Post.C52_step_depends_on_primary"
   ],
   "note": "any arithmetic (no law of numbers assumed)."
  },
  {
   "property": "C53",
   "status": "proved",
   "theorems": [
    "Post.C53_final_met",
    "Post.C53_terminates_ok_iff",
    "Post.C53_terminates_error_iff",
    "Post.C53_append",
    "Post.C53_announcements",
    "Post.C53_prefix",
    "Post.C53_deterministic"
   ],
   "note": "any arithmetic (no law of numbers assumed)."
  },
  {
   "property": "C54",
   "status": "proved",
   "theorems": [
    "Post.C54_mass",
    "Post.C54_free_fall"
   ],
   "note": "C54_mass and C54_free_fall in exact arithmetic (XR: reals with NaN and infinities, no rounding)."
  },
  {
   "property": "C55",
   "status": "proved",
   "theorems": [
    "Post.C55_custom",
    "Post.C55_presets"
   ],
   "note": "Custom planets in any arithmetic, presets in exact arithmetic (XR: reals with NaN and infinities, no rounding)."
  },
  {
   "property": "C56",
   "status": "proved",
   "theorems": [
    "Post.C56_bad_file_never_runs"
   ],
   "note": "any arithmetic (no law of numbers assumed). The JSON text parser is a parameter."
  },
  {
   "property": "C57",
   "status": "proved",
   "theorems": [
    "Post.C57_visited_consistent",
    "Post.C57_reported",
    "Post.C57_visited_attitude",
    "Post.C57_visited_aero"
   ],
   "note": "any arithmetic (no law of numbers assumed)."
  },
  {
   "property": "C58",
   "status": "proved",
   "theorems": [
    "Post.C58_vacuum_run"
   ],
   "note": "exact arithmetic (XR: reals with NaN and infinities, no rounding)."
  },
  {
   "property": "C59",
   "status": "partial",
   "theorems": [
    "Post.C59_never_ends",
    "Post.C59_minus_infinity"
   ],
   "note": "exact arithmetic (XR: reals with NaN and infinities, no rounding). False of the code: C59_never_ends (no run of such a phase ever ends), C59_minus_infinity (its time is minus infinity after two steps)."
  },
  {
   "property": "C60",
   "status": "proved",
   "theorems": [
    "Post.C60_keys_set_parameters",
    "Post.C60_key_order"
   ],
   "note": "any arithmetic (no law of numbers assumed). Says is the manual's syntax (plus two lenient forms of the JSON library) as a relation, one line per key; the text parser is not modelled."
  },
  {
   "property": "C61",
   "status": "proved",
   "theorems": [
    "Post.C61_one_row_per_attempt",
    "Post.C61_nothing_before_start",
    "Post.C61_all_steps_printed"
   ],
   "note": "any arithmetic (no law of numbers assumed). The rows are numbers; their formatting as text is not modelled here."
  },
  {
   "property": "C62",
   "status": "partial",
   "theorems": [
    "Post.C62_documented_defaults_partial",
    "Post.C62_refuted"
   ],
   "note": "any arithmetic (no law of numbers assumed) satisfying a few laws of 0 and 1, which hold in exact arithmetic and in IEEE double precision (zeroLaws_f64). C62_documented_defaults_partial covers planet, atmosphere, vehicle without engines, acceleration limit, steering, step size and end criterion (documented as [time, 0], implemented as [time_since_event, 0], with the same effect); C62_refuted: the property is false of init and engines."
  },
  {
   "property": "C63",
   "status": "proved",
   "theorems": [
    "Post.C63_reads_back",
    "Post.C63_plot_shows_simulation",
    "Post.C63_plot_accuracy",
    "Post.C63_negative_time_refused",
    "Post.C63_nan_misread"
   ],
   "note": "any arithmetic (no law of numbers assumed) for the text; the accuracy in exact arithmetic. Python's re is modelled as a backtracking matcher for the operators used, pandas as lists that must have equal length; nalgebra's Display from its documented layout. C63_negative_time_refused and C63_nan_misread show why times must not be negative and numbers finite."
  },
  {
   "property": "C64",
   "status": "proved",
   "theorems": [
    "Post.C64_burn_to_target",
    "Post.C64_vacuum"
   ],
   "note": "exact arithmetic (XR: reals with NaN and infinities, no rounding)."
  },
  {
   "property": "C65",
   "status": "proved",
   "theorems": [
    "Post.C65_time_targets",
    "Post.C65_no_drift",
    "Post.C65_whole_seconds",
    "Post.C65_configured",
    "Post.C65_coasting"
   ],
   "note": "IEEE-754 binary64 with correctly rounded + - * / and literals; the C library functions are arbitrary. The model's rounding is defined from scratch in Verif/F64.lean."
  },
  {
   "property": "C66",
   "status": "proved",
   "theorems": [
    "Post.C66_orbit",
    "Post.C66_kepler",
    "Post.C66_step"
   ],
   "note": "exact arithmetic (XR: reals with NaN and infinities, no rounding) for the conservation laws of exact trajectories (C66_orbit, C66_kepler; a real acceleration is shown to be gravity without assumptions on attitude, mass or steering). C66_step needs real attitude and launch data, no acceleration limit and tables that can be read; K and the size of small steps depend on the state."
  },
  {
   "property": "C67",
   "status": "proved",
   "theorems": [
    "Post.C67_split",
    "Post.C67_split_aborts",
    "Post.C67_simulation",
    "Post.C67_simulation_aborts",
    "Post.C67_simulation_last"
   ],
   "note": "exact arithmetic (XR: reals with NaN and infinities, no rounding). Step sizes are the default of one second (C09 shows that a configured one is ignored). In the simulation theorems the phase after the split one must have an end criterion of its own or not exist; otherwise it would inherit a different one."
  },
  {
   "property": "C68",
   "status": "proved",
   "theorems": [
    "Post.C68_rocket_equation",
    "Post.C68_ideal_velocity"
   ],
   "note": "exact arithmetic (XR: reals with NaN and infinities, no rounding) and exact solutions of the differential equations (what one integration step does to them is C51). Mass is positive on the way; the existence of such flights is shown by an example with an explicit solution."
  },
  {
   "property": "C69",
   "status": "proved",
   "theorems": [
    "Post.C69_step",
    "Post.C69_never_grows",
    "Post.C69_configured",
    "Post.C69_coasting_step",
    "Post.C69_coasting"
   ],
   "note": "IEEE-754 binary64, as in C65. Rounding is shown to be to nearest and monotone in Lemmas/F64Round.lean. A mass that has become NaN is allowed in the comparison and stays NaN. That mass and time are values of f64 is a theorem for configured phases (ready_doubles)."
  },
  {
   "property": "C70",
   "status": "proved",
   "theorems": [
    "Post.C70_scaling",
    "Post.C70_outcome",
    "Post.C70_ends_alike"
   ],
   "note": "exact arithmetic (XR: reals with NaN and infinities, no rounding), special values included. End criteria on masses are excluded because their tolerance of 1e-3 is absolute."
  },
  {
   "property": "C71",
   "status": "proved",
   "theorems": [
    "Post.C71_bytes",
    "Post.C71_loaded",
    "Post.C71_text",
    "Post.C71_system",
    "Post.C71_step",
    "Post.C71_visited",
    "Post.C71_new",
    "Post.C71_simulation",
    "Post.C71_stepsize",
    "Post.C71_short_steps",
    "Post.C71_free_fall",
    "Post.C71_shipped"
   ],
   "note": "exact arithmetic (XR: reals with NaN and infinities, no rounding). The provisos are those of the statement: positive mass, distance from the centre, finite step sizes; C71_short_steps and C71_free_fall give explicit sufficient conditions. Without atmosphere the speed of sound is 0, so the Mach number is infinite or NaN, which is why it is excepted. Overflow of doubles is outside exact arithmetic."
  },
  {
   "property": "C72",
   "status": "proved",
   "theorems": [
    "Post.C72_shipped",
    "Post.C72_system",
    "Post.C72_longitude",
    "Post.C72_outcome"
   ],
   "note": "exact arithmetic (XR: reals with NaN and infinities, no rounding). The provisos (actual numbers, flight away from the singularities) are those of C71; C71_short_steps and C71_free_fall give explicit sufficient conditions, and the example shows a flight that meets them."
  },
  {
   "property": "C73",
   "status": "proved",
   "theorems": [
    "Post.C73_system",
    "Post.C73_hemispheres",
    "Post.C73_outcome",
    "Post.C73_presets",
    "Post.C73_shipped"
   ],
   "note": "exact arithmetic (XR: reals with NaN and infinities, no rounding). The provisos (actual numbers, flight away from the singularities) are those of C71 and C72; the example shows a flight that meets them. A planet with third harmonic is not symmetric (C73_presets)."
  },
  {
   "property": "C74",
   "status": "proved",
   "theorems": [
    "Post.C74_accuracy",
    "Post.C74_range",
    "Post.C74_constant",
    "Post.C74_first_argument",
    "Post.C74_later_arguments"
   ],
   "note": "IEEE-754 binary64, as in C65. Exact values are those of the exact multilinear interpolation between the doubles in the table, at the double values of the state variables. C74_later_arguments: a witness that the code is not exact at arguments other than the first."
  },
  {
   "property": "C75",
   "status": "proved",
   "theorems": [
    "Post.C75_convergence",
    "Post.C75_flight",
    "Post.C75_orbit"
   ],
   "note": "exact arithmetic (XR: reals with NaN and infinities, no rounding). The step size is a parameter of the integrator; the phases of the program always use 1 s (C09). FliesBy evaluates the equations of motion as the integrator does, in a state of which only time, position, velocity and mass are set."
  },
  {
   "property": "C76",
   "status": "proved",
   "theorems": [
    "Post.C76_energy",
    "Post.C76_kepler"
   ],
   "note": "exact arithmetic (XR: reals with NaN and infinities, no rounding). Follows the computed orbit over any given time, where C66_step is about one step. As in C75 the step size is a parameter of the integrator."
  },
  {
   "property": "C77",
   "status": "proved",
   "theorems": [
    "Post.C77_shipped_example",
    "Post.C77_timetable",
    "Post.C77_mission",
    "Post.C77_program",
    "Post.C77_unpowered"
   ],
   "note": "IEEE double precision, for every C library. C77_shipped_example is about utils/example.json itself (Verif/Shipped.lean is generated from it)."
  },
  {
   "property": "C78",
   "status": "proved",
   "theorems": [
    "Post.C78_continuous",
    "Post.C78_launch_frame"
   ],
   "note": "any arithmetic (no law of numbers assumed)What a phase may change is stated by the side conditions; the attitude is the subject of C17, the derived forces follow from the new parameters by C57."
  },
  {
   "property": "C79",
   "status": "proved",
   "theorems": [
    "Post.C79_steady_target",
    "Post.C79_rule_of_thumb"
   ],
   "note": "exact arithmetic (XR: reals with NaN and infinities, no rounding). The rate is bounded through the values reached by the steps themselves; the states considered are those the run visits by steps of at most the step size."
  },
  {
   "property": "C80",
   "status": "proved",
   "theorems": [
    "Post.C80_picture"
   ],
   "note": "exact arithmetic (XR: reals with NaN and infinities, no rounding). What is drawn is a list of points, colours, labels and the camera; the rendering by PyVista, the background, the earth and the light are not modelled. The order of the labels (sorted as texts) does not matter for the picture."
  },
  {
   "property": "C81",
   "status": "proved",
   "theorems": [
    "Post.C81_same_plan",
    "Post.C81_same_plan_exact",
    "Post.C81_restate"
   ],
   "note": "any arithmetic (no law of numbers assumed)For all lists of configurations; the values in force of each phase are compared by meaning (tables by their values in all states, engines by their total thrust and mass flow). Restating the structure mass is exact only in exact arithmetic (the program recomputes the mass), hence C81_same_plan_exact; restating the propellant mass refuels, shown by an example."
  },
  {
   "property": "C82",
   "status": "proved",
   "theorems": [
    "Post.C82_rewritten",
    "Post.C82_engines",
    "Post.C82_tables",
    "Post.C82_one_row",
    "Post.C82_one_plane",
    "Post.C82_one_point",
    "Post.C82_engine_order",
    "Post.C82_clusters",
    "Post.C82_same_function",
    "Post.C82_extra_point"
   ],
   "note": "any arithmetic (no law of numbers assumed)C82_rewritten, C82_engines, C82_tables, C82_one_row, C82_one_plane and C82_one_point hold in any arithmetic. exact arithmetic (XR: reals with NaN and infinities, no rounding): C82_engine_order, C82_clusters, C82_same_function and C82_extra_point are about exact arithmetic: with rounding a different order of additions can change the last digit."
  },
  {
   "property": "C83",
   "status": "proved",
   "theorems": [
    "Post.C83_start_error",
    "Post.C83_low_orbit",
    "Post.C83_run"
   ],
   "note": "exact arithmetic (XR: reals with NaN and infinities, no rounding). The true orbit enters as a hypothesis (curves whose derivatives are velocity and gravity); that such curves exist is shown for a circular orbit. The three built-in models of the Earth, with their harmonics; no engines, no atmosphere. Constants: distance at least 6500 km, speed at most 8 km/s, steps of at most one second, at most 80 minutes."
  },
  {
   "property": "C84",
   "status": "proved",
   "theorems": [
    "Post.C84_start_error",
    "Post.C84_low_orbit",
    "Post.C84_run"
   ],
   "note": "IEEE-754 binary64 with correctly rounded + - * / sqrt and literals. Of the C library and nalgebra only GoodLibrary (Spec/Library.lean) is assumed: sine and cosine between -1 and 1, small integer powers with relative error 1e-15, Rotation3::from_matrix bounded; a library that meets it is constructed. The true orbit is a hypothesis as in C83; distances between 6500 and 19000 km, speed at most 8 km/s, time at most 1e8 s."
  },
  {
   "property": "C85",
   "status": "proved",
   "theorems": [
    "Post.C85_throttle",
    "Post.C85_limit_kept",
    "Post.C85_no_limit",
    "Post.C85_vacuum"
   ],
   "note": "IEEE-754 binary64 with correctly rounded + - * / sqrt and literals. Of the C library only TrigLibrary (Spec/Trig.lean) is assumed: sin, asin and acos with an error of at most 1e-15, sin between -1 and 1, acos(1) = 0 and acos(-1) = PI exactly; a library that meets it is constructed. The limit and the mass are between 1e-6 and 1e10, the aerodynamic force is zero or at least 1e-10 N and at most (1 - 1e-9) of what the limit allows, the full thrust is between 1e-6 and 1e12 N. The case that the aerodynamic force alone exceeds the limit (C33_smallest) is only proved in exact arithmetic."
  },
  {
   "property": "C86",
   "status": "proved",
   "theorems": [
    "Post.C86_full_thrust",
    "Post.C86_limited",
    "Post.C86_configured"
   ],
   "note": "IEEE-754 binary64 with correctly rounded + - * / sqrt and literals; of the C library only TrigLibrary (Spec/Trig.lean) is assumed. At most 10^6 seconds, at most 100 engines, a mass between 1 kg and 10^6 t of which a thousandth is left at the end at full thrust, at most 100 t/s of consumption. The position and velocity are not bounded: they may even be NaN."
  },
  {
   "property": "C87",
   "status": "proved",
   "theorems": [
    "Post.C87_mission",
    "Post.C87_program"
   ],
   "note": "IEEE-754 binary64 with correctly rounded + - * / sqrt and literals; of the C library only AngleLibrary (Spec/Stages.lean: sin, cos, asin, acos with an error of at most 1e-15) is assumed. At most 1000 legs and 10^6 seconds; masses up to 9e8 kg; the structure has at least 2 kg, 1/500 of the vehicle when it was last filled and a millionth of the largest vehicle of the mission. Every leg ends with time_since_event. The budget, the feasibility and the flight log are defined in Spec/Stages.lean in real numbers. If a leg has an acceleration limit the printed propellant is only bounded from below by the budget."
  },
  {
   "property": "C88",
   "status": "proved",
   "theorems": [
    "Post.C88_air",
    "Post.C88_inside",
    "Post.C88_positive",
    "Post.C88_visited"
   ],
   "note": "IEEE-754 binary64 with correctly rounded + - * / sqrt and literals; of the C library exp and powf with a relative error of at most 1e-15 (AirLibrary) are assumed, and for the dynamic pressure powi (GoodLibrary). Altitudes from -100 km to 7000 km. The table is that of Spec/Atmosphere.lean in real numbers, in the original units; the theorem includes the rounding of all its entries and unit conversions. Within 1e-9 m of the base of a layer the row of the layer on the other side may be used."
  },
  {
   "property": "C89",
   "status": "proved",
   "theorems": [
    "Post.C89_latitude",
    "Post.C89_altitude",
    "Post.C89_geopotential",
    "Post.C89_doubles",
    "Post.C89_visited",
    "Post.C89_rows",
    "Post.C89_air"
   ],
   "note": "IEEE-754 binary64 with correctly rounded + - * / sqrt and literals; of the C library sin and asin with an error of at most 1e-15 (TrigLibrary) and powi with a relative error of at most 1e-15 (GoodLibrary) are assumed, for the air also exp and powf (AirLibrary). The three built-in models of the Earth, 6300 to 100000 km from its centre. The exact altitude is characterised by the point where the ray from the centre meets the ellipsoid. That the integrator only stores 53-bit doubles is proved (C89_doubles)."
  },
  {
   "property": "C90",
   "status": "proved",
   "theorems": [
    "Post.C90_format",
    "Post.C90_halves",
    "Post.C90_number",
    "Post.C90_whole",
    "Post.C90_timetable",
    "Post.C90_shipped",
    "Post.C90_flight",
    "Post.C90_altitude",
    "Post.C90_plot"
   ],
   "note": "Rust's format {:.0} for f64 is in the standard library, not in the repository; it is modelled in Model/Print.lean (nearest integer, halves to even, sign bit, NaN, inf), and the theorems hold for every format that prints a nearest integer (PrintsDouble), so they do not depend on the treatment of halves, which changed in Rust 1.67. The layout of a vector is that of nalgebra 0.32. C90_plot assumes that the rows are finite numbers; that this cannot be dropped is C63_nan_misread."
  },
  {
   "property": "C91",
   "status": "proved",
   "theorems": [
    "Post.C91_velocity",
    "Post.C91_mach",
    "Post.C91_start"
   ],
   "note": "The three built-in Earths for the numerical bounds; C91_start holds for every planet, launch site and library. Air speeds between 1 m/s and 90 km/s for the Mach number and the dynamic pressure (at rest the relative error is meaningless). The libraries' accuracies are those of C88 and C89."
  },
  {
   "property": "C92",
   "status": "proved",
   "theorems": [
    "Post.C92_position",
    "Post.C92_printed",
    "Post.C92_orbit"
   ],
   "note": "nalgebra's Rotation3::from_matrix is outside the repository; it is assumed (FrameLibrary, satisfied by the library fullLibm of the examples) to return a rotation right to 13 digits for a matrix that is a rotation to 14 digits; sine and cosine are assumed right to 1e-15 for angles up to 1000 rad. Times up to 1e7 s, distances up to 1e8 m."
  },
  {
   "property": "C93",
   "status": "proved",
   "theorems": [
    "Post.C93_site",
    "Post.C93_surface",
    "Post.C93_displaced"
   ],
   "note": "The three built-in Earths, latitudes from -90 to 90 degrees (the poles included), longitudes from -360 to 360. Tangent and arc tangent are assumed right to 15 digits (LaunchLibrary), sine, cosine and the library as in C89 and C92; all assumptions are met by the library fullLibm of the examples. C93_displaced carries C12_distance, a lower bound on how far the launch site is from the documented one, to double precision."
  },
  {
   "property": "C94",
   "status": "proved",
   "theorems": [
    "Post.C94_angle",
    "Post.C94_handover",
    "Post.C94_frame",
    "Post.C94_acceleration",
    "Post.C94_alpha"
   ],
   "note": "Every phase and state visited, for angles up to 1000 radians and coefficients up to 1e9; sine, cosine, the construction of a rotation, integer powers and the arc tangent as in C84, C92 and C93 (all met by fullLibm, the library of the examples). C94_angle and C94_handover are about the angles; C94_frame, C94_acceleration and C94_alpha about what is made of them. The angle of attack is covered where the air comes from the forward hemisphere with a cosine of at least one thousandth."
  },
  {
   "property": "C95",
   "status": "proved",
   "theorems": [
    "Post.C95_thrust",
    "Post.C95_air",
    "Post.C95_newton",
    "Post.C95_massflow",
    "Post.C95_sensed"
   ],
   "note": "Up to 100 engines; the tables of the coefficients are in range and do not read quantities computed later (C18, C62 say what happens otherwise). Sine and cosine are assumed right to 15 digits (FrameLibrary). With C85, C88, C91 and C94 every quantity of the equations of motion is now compared with its exact value."
  },
  {
   "property": "C96",
   "status": "proved",
   "theorems": [
    "Post.C96_start_error",
    "Post.C96_flight",
    "Post.C96_run",
    "Post.C96_true_flight"
   ],
   "note": "Exact arithmetic (the rounding of single quantities is in C85 and C94, C95; that of a whole coasting flight in C86). Flights in vacuum without acceleration limit, attitude given by constant rates. Never aborting is part of the conclusion. C96_true_flight shows that the condition of following a true flight can be met from every start."
  },
  {
   "property": "C97",
   "status": "proved",
   "theorems": [
    "Post.C97_run",
    "Post.C97_true_flight"
   ],
   "note": "binary64, for every mathematical library with errors within the stated bounds (GoodLibrary, FrameLibrary, TrigLibrary). Steps of one second, the regular ones of the program. Flights in vacuum without acceleration limit, attitude given by constant rates. C97_true_flight shows that the condition of following a true flight can be met."
  },
  {
   "property": "C98",
   "status": "proved",
   "theorems": [
    "Post.C98_phases",
    "Post.C98_mission",
    "Post.C98_true_flight",
    "Post.C98_program"
   ],
   "note": "binary64, for every mathematical library with errors within the stated bounds (GoodLibrary, FrameLibrary, AngleLibrary). The phases before the legs may be of any kind (C98_mission) or the start any phase state (C98_phases, with which the example is met); the legs are in vacuum above 6500 km, without acceleration limit, with the attitude given by rates. The true flight follows the plan in real numbers, so that the errors of mass, angles and clock that one phase hands to the next are part of the claim."
  },
  {
   "property": "C99",
   "status": "proved",
   "theorems": [
    "Post.C99_gravity",
    "Post.C99_above_surface"
   ],
   "note": "binary64, for every mathematical library with errors within the bounds of GoodLibrary; the three models of the Earth, from 6350 km (below the surface of each) to 20000 km from the centre. The gradient is stated with derivatives of the potential with zonal harmonics, not with the formula of the code."
  },
  {
   "property": "C100",
   "status": "proved",
   "theorems": [
    "Post.C100_energy",
    "Post.C100_orbit",
    "Post.C100_run"
   ],
   "note": "binary64, for every mathematical library with errors within the bounds of GoodLibrary. The bound on a single step for the three models of the Earth; the satellite that stays in orbit for a day for the spherical one (the harmonics let the perigee of an orbit wander, so that no ellipse confines it)."
  },
  {
   "property": "C101",
   "status": "proved",
   "theorems": [
    "Post.C101_bytes",
    "Post.C101_bytes_rejected",
    "Post.C101_bytes_layout",
    "Post.C101_grammar",
    "Post.C101_unambiguous",
    "Post.C101_layout",
    "Post.C101_rejected",
    "Post.C101_shipped"
   ],
   "note": "The text reader is in the crate serde_json (1.0.115, default features), which is not in the repository: Model/JsonText.lean models it from its documented behaviour (RFC 8259, nesting up to 127), and the agreement of that model with the crate is trusted. UTF-8 is Lean's List.utf8Encode and ByteArray.utf8Decode?; that serde_json rejects what is not UTF-8 is part of the model (it decodes strings, and no other token contains bytes above 127). The text of utils/example.json is copied into ShippedText.lean by tools/gen_shipped_text.py."
  },
  {
   "property": "C102",
   "status": "proved",
   "theorems": [
    "Post.C102_whole",
    "Post.C102_nearest",
    "Post.C102_close",
    "Post.C102_finite",
    "Post.C102_not_nearest",
    "Post.C102_from_file",
    "Post.C102_loaded",
    "Post.C102_shipped"
   ],
   "note": "binary64. serde_json without the feature float_roundtrip (sim/Cargo.toml) is modelled: the significand as u64, one multiplication or division by a power of ten. C102_not_nearest shows that the bound of 15 digits in C102_nearest cannot be raised to 16."
  },
  {
   "property": "C103",
   "status": "proved",
   "theorems": [
    "Post.C103_keys",
    "Post.C103_notation",
    "Post.C103_writable"
   ],
   "note": "The order of the keys for the whole loader and in any arithmetic; notation of numbers in binary64. The text reader is modelled from the documented behaviour of serde_json (see C101)."
  }
 ]
}