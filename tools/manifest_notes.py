NOTES = {
"C01": ("proved", G + ". For every JSON value tree the loader accepts, every table in it is well formed."),
"C02": ("proved", G + ". Every well-formed 1D, 2D, 3D table object, with its keys in any order, loads as itself."),
"C03": ("proved", G + ". At the level of JSON value trees."),
"C04": ("proved", G + ". Unknown and duplicate keys, at every nesting level of a configuration."),
"C05": ("proved", G + ". All documented names against a separately written table of quantities; no other string is accepted."),
"C06": ("partial", "The documented name fisher_1960 is refused (C06_refuted): the property is false of the code. C06_planet_names_partial proves it for the other three names and shows fisher1960 is accepted instead."),
"C07": ("proved", G + ". The parameters in force in a phase are exactly those of a separately specified override record."),
"C08": ("proved", G + "."),
"C09": ("partial", "False of the code: C09_stepsize_ignored shows the outcome never depends on any stepsize entry, C09_refuted exhibits it. C09_initial_stepsize_one_partial: the step used at the start of each phase is 1."),
"C10": ("partial", "False of the code: C10_altitude_ignored (the outcome never depends on the entry), C10_refuted (a vehicle configured at altitude 1000 starts at altitude 0)."),
"C11": ("proved", E + "."),
"C12": ("partial", E + ". C12_latitude_partial: true on spherical planets and at the equator; C12_refuted: false on every oblate planet off the equator and poles; C12_distance: by how many metres at least (63 km at 45 degrees on the oblate Earths)."),
"C13": ("proved", E + "."),
"C14": ("proved", G + "; sums of masses read in the arithmetic of the program."),
"C15": ("proved", E + ". C15_zero_mass_aborts shows that positive mass is needed."),
"C16": ("proved", "C16_axis_angle/C16_attitude_is_cubic; C16_relative: in a phase of a simulation, relative to the attitude with which the previous phase ended; C16_configured/C16_unconfigured: a configuration keeps the constant term and the axes it does not mention; the cubic in " + E + "."),
"C17": ("partial", E + ". C17_no_jump_partial: no jump for axes steered by time_since_event; C17_jump: the exact jump otherwise; C17_refuted: a concrete jump."),
"C18": ("proved", G + ". C18_no_leak under the stated conditions on variables; C18_leak_witness shows the condition is needed."),
"C19": ("proved", G + "; every table size."),
"C20": ("proved", E + ". Values at points, between, below, above, single entry, range and continuity."),
"C21": ("proved", E + ". Value per cell, grid points, range, continuity, in two and three dimensions."),
"C22": ("partial", "C22_no_nan (" + L + "), C22_no_tables, C22_side_missing_partial: true; a missing drag or lift table removes the whole drag/lift force: C22_drag_dropped, C22_lift_dropped, C22_refuted."),
"C23": ("proved", G + "."),
"C24": ("proved", G + "."),
"C25": ("proved", G + "."),
"C26": ("proved", G + "; constancy of the difference in " + E + "."),
"C27": ("proved", E + ". Including configured phases (step size 1). Failure is characterised: the run aborts only if an evaluation of the equations of motion at a state on the way does."),
"C28": ("partial", E + ". C28_between: between zero and the discarded step when the step crossed the target; C28_refuted: a negative step and time running backwards when the target had been passed before."),
"C29": ("proved", G + "."),
"C30": ("proved", G + "."),
"C31": ("proved", L + "."),
"C32": ("proved", L + "."),
"C33": ("proved", E + "."),
"C34": ("proved", E + "."),
"C35": ("proved", E + ". C35_path: over any number of steps."),
"C36": ("partial", "False of the code: C36_refuted is a complete simulation that ends normally with -90 kg propellant; C36_negative says when in general the propellant becomes negative."),
"C37": ("proved", E + "."),
"C38": ("partial", E + ". C38_forward: true for forward flow; C38_not_forward gives the value otherwise; C38_refuted: oddness fails there."),
"C39": ("proved", E + "."),
"C40": ("proved", E + "."),
"C41": ("proved", E + "; derivatives in Mathlib."),
"C42": ("proved", E + ". The gradient is Mathlib's derivative along each axis."),
"C43": ("proved", E + "."),
"C44": ("proved", E + "."),
"C45": ("proved", E + "."),
"C46": ("proved", E + "."),
"C47": ("proved", E + "; derivative in Mathlib; one-sided at the bases."),
"C48": ("partial", E + ". C48_continuous_partial: continuous between the bases, and jumps below 1e-7 (temperature) and 1e-6 (pressure) at all bases but the named ones; C48_refuted: the jumps at 396406.39 ft and 480781.04 ft."),
"C49": ("proved", E + "."),
"C50": ("proved", "Air speed in any arithmetic, dynamic pressure in " + E + "."),
"C51": ("proved", E + " for exactness and linear systems; the textbook formula and the order conditions for every right-hand side. C51_local_error: local error O(h^5) against any exact solution, for every analytic (time-dependent) right-hand side in any dimension."),
"C52": ("proved", G + "."),
"C53": ("proved", G + "."),
"C54": ("proved", "C54_mass and C54_free_fall in " + E + "."),
"C55": ("proved", "Custom planets in any arithmetic, presets in " + E + "."),
"C56": ("proved", G + ". The JSON text parser is a parameter."),
"C57": ("proved", G + "."),
"C58": ("proved", E + "."),
"C59": ("partial", E + ". False of the code: C59_never_ends (no run of such a phase ever ends), C59_minus_infinity (its time is minus infinity after two steps)."),
"C60": ("proved", G + ". Says is the manual's syntax (plus two lenient forms of the JSON library) as a relation, one line per key; the text parser is not modelled."),
"C61": ("proved", G + ". The rows are numbers; their formatting as text is not modelled here."),
"C62": ("partial", G + " satisfying a few laws of 0 and 1, which hold in exact arithmetic and in IEEE double precision (zeroLaws_f64). C62_documented_defaults_partial covers planet, atmosphere, vehicle without engines, acceleration limit, steering, step size and end criterion (documented as [time, 0], implemented as [time_since_event, 0], with the same effect); C62_refuted: the property is false of init and engines."),
"C63": ("proved", G + " for the text; the accuracy in exact arithmetic. Python's re is modelled as a backtracking matcher for the operators used, pandas as lists that must have equal length; nalgebra's Display from its documented layout. C63_negative_time_refused and C63_nan_misread show why times must not be negative and numbers finite."),
"C64": ("proved", E + "."),
"C66": ("proved", E + " for the conservation laws of exact trajectories (C66_orbit, C66_kepler; a real acceleration is shown to be gravity without assumptions on attitude, mass or steering). C66_step needs real attitude and launch data, no acceleration limit and tables that can be read; K and the size of small steps depend on the state."),
"C67": ("proved", E + ". Step sizes are the default of one second (C09 shows that a configured one is ignored). In the simulation theorems the phase after the split one must have an end criterion of its own or not exist; otherwise it would inherit a different one."),
"C68": ("proved", E + " and exact solutions of the differential equations (what one integration step does to them is C51). Mass is positive on the way; the existence of such flights is shown by an example with an explicit solution."),
"C69": ("proved", "IEEE-754 binary64, as in C65. Rounding is shown to be to nearest and monotone in Lemmas/F64Round.lean. A mass that has become NaN is allowed in the comparison and stays NaN. That mass and time are values of f64 is a theorem for configured phases (ready_doubles)."),
"C70": ("proved", E + ", special values included. End criteria on masses are excluded because their tolerance of 1e-3 is absolute."),
"C71": ("proved", E + ". The provisos are those of the statement: positive mass, distance from the centre, finite step sizes; C71_short_steps and C71_free_fall give explicit sufficient conditions. Without atmosphere the speed of sound is 0, so the Mach number is infinite or NaN, which is why it is excepted. Overflow of doubles is outside exact arithmetic."),
"C72": ("proved", E + ". The provisos (actual numbers, flight away from the singularities) are those of C71; C71_short_steps and C71_free_fall give explicit sufficient conditions, and the example shows a flight that meets them."),
"C73": ("proved", E + ". The provisos (actual numbers, flight away from the singularities) are those of C71 and C72; the example shows a flight that meets them. A planet with third harmonic is not symmetric (C73_presets)."),
"C74": ("proved", "IEEE-754 binary64, as in C65. Exact values are those of the exact multilinear interpolation between the doubles in the table, at the double values of the state variables. C74_later_arguments: a witness that the code is not exact at arguments other than the first."),
"C75": ("proved", E + ". The step size is a parameter of the integrator; the phases of the program always use 1 s (C09). FliesBy evaluates the equations of motion as the integrator does, in a state of which only time, position, velocity and mass are set."),
"C76": ("proved", E + ". Follows the computed orbit over any given time, where C66_step is about one step. As in C75 the step size is a parameter of the integrator."),
"C77": ("proved", "IEEE double precision, for every C library. C77_shipped_example is about utils/example.json itself (Verif/Shipped.lean is generated from it)."),
"C78": ("proved", G + "What a phase may change is stated by the side conditions; the attitude is the subject of C17, the derived forces follow from the new parameters by C57."),
"C79": ("proved", E + ". The rate is bounded through the values reached by the steps themselves; the states considered are those the run visits by steps of at most the step size."),
"C80": ("proved", E + ". What is drawn is a list of points, colours, labels and the camera; the rendering by PyVista, the background, the earth and the light are not modelled. The order of the labels (sorted as texts) does not matter for the picture."),
"C81": ("proved", G + "For all lists of configurations; the values in force of each phase are compared by meaning (tables by their values in all states, engines by their total thrust and mass flow). Restating the structure mass is exact only in exact arithmetic (the program recomputes the mass), hence C81_same_plan_exact; restating the propellant mass refuels, shown by an example."),
"C82": ("proved", G + "C82_rewritten, C82_engines, C82_tables, C82_one_row, C82_one_plane and C82_one_point hold in any arithmetic. " + E + ": C82_engine_order, C82_clusters, C82_same_function and C82_extra_point are about exact arithmetic: with rounding a different order of additions can change the last digit."),
"C83": ("proved", E + ". The true orbit enters as a hypothesis (curves whose derivatives are velocity and gravity); that such curves exist is shown for a circular orbit. The three built-in models of the Earth, with their harmonics; no engines, no atmosphere. Constants: distance at least 6500 km, speed at most 8 km/s, steps of at most one second, at most 80 minutes."),
"C84": ("proved", "IEEE-754 binary64 with correctly rounded + - * / sqrt and literals. Of the C library and nalgebra only GoodLibrary (Spec/Library.lean) is assumed: sine and cosine between -1 and 1, small integer powers with relative error 1e-15, Rotation3::from_matrix bounded; a library that meets it is constructed. The true orbit is a hypothesis as in C83; distances between 6500 and 19000 km, speed at most 8 km/s, time at most 1e8 s."),
"C85": ("proved", "IEEE-754 binary64 with correctly rounded + - * / sqrt and literals. Of the C library only TrigLibrary (Spec/Trig.lean) is assumed: sin, asin and acos with an error of at most 1e-15, sin between -1 and 1, acos(1) = 0 and acos(-1) = PI exactly; a library that meets it is constructed. The limit and the mass are between 1e-6 and 1e10, the aerodynamic force is zero or at least 1e-10 N and at most (1 - 1e-9) of what the limit allows, the full thrust is between 1e-6 and 1e12 N. The case that the aerodynamic force alone exceeds the limit (C33_smallest) is only proved in exact arithmetic."),
"C86": ("proved", "IEEE-754 binary64 with correctly rounded + - * / sqrt and literals; of the C library only TrigLibrary (Spec/Trig.lean) is assumed. At most 10^6 seconds, at most 100 engines, a mass between 1 kg and 10^6 t of which a thousandth is left at the end at full thrust, at most 100 t/s of consumption. The position and velocity are not bounded: they may even be NaN."),
"C87": ("proved", "IEEE-754 binary64 with correctly rounded + - * / sqrt and literals; of the C library only AngleLibrary (Spec/Stages.lean: sin, cos, asin, acos with an error of at most 1e-15) is assumed. At most 1000 legs and 10^6 seconds; masses up to 9e8 kg; the structure has at least 2 kg, 1/500 of the vehicle when it was last filled and a millionth of the largest vehicle of the mission. Every leg ends with time_since_event. The budget, the feasibility and the flight log are defined in Spec/Stages.lean in real numbers. If a leg has an acceleration limit the printed propellant is only bounded from below by the budget."),
"C88": ("proved", "IEEE-754 binary64 with correctly rounded + - * / sqrt and literals; of the C library exp and powf with a relative error of at most 1e-15 (AirLibrary) are assumed, and for the dynamic pressure powi (GoodLibrary). Altitudes from -100 km to 7000 km. The table is that of Spec/Atmosphere.lean in real numbers, in the original units; the theorem includes the rounding of all its entries and unit conversions. Within 1e-9 m of the base of a layer the row of the layer on the other side may be used."),
"C89": ("proved", "IEEE-754 binary64 with correctly rounded + - * / sqrt and literals; of the C library sin and asin with an error of at most 1e-15 (TrigLibrary) and powi with a relative error of at most 1e-15 (GoodLibrary) are assumed, for the air also exp and powf (AirLibrary). The three built-in models of the Earth, 6300 to 100000 km from its centre. The exact altitude is characterised by the point where the ray from the centre meets the ellipsoid. That the integrator only stores 53-bit doubles is proved (C89_doubles)."),
"C90": ("proved", "Rust's format {:.0} for f64 is in the standard library, not in the repository; it is modelled in Model/Print.lean (nearest integer, halves to even, sign bit, NaN, inf), and the theorems hold for every format that prints a nearest integer (PrintsDouble), so they do not depend on the treatment of halves, which changed in Rust 1.67. The layout of a vector is that of nalgebra 0.32. C90_plot assumes that the rows are finite numbers; that this cannot be dropped is C63_nan_misread."),
"C91": ("proved", "The three built-in Earths for the numerical bounds; C91_start holds for every planet, launch site and library. Air speeds between 1 m/s and 90 km/s for the Mach number and the dynamic pressure (at rest the relative error is meaningless). The libraries' accuracies are those of C88 and C89."),
"C92": ("proved", "nalgebra's Rotation3::from_matrix is outside the repository; it is assumed (FrameLibrary, satisfied by the library fullLibm of the examples) to return a rotation right to 13 digits for a matrix that is a rotation to 14 digits; sine and cosine are assumed right to 1e-15 for angles up to 1000 rad. Times up to 1e7 s, distances up to 1e8 m."),
"C93": ("proved", "The three built-in Earths, latitudes from -90 to 90 degrees (the poles included), longitudes from -360 to 360. Tangent and arc tangent are assumed right to 15 digits (LaunchLibrary), sine, cosine and the library as in C89 and C92; all assumptions are met by the library fullLibm of the examples. C93_displaced carries C12_distance, a lower bound on how far the launch site is from the documented one, to double precision."),
"C94": ("proved", "Every phase and state visited, for angles up to 1000 radians and coefficients up to 1e9; sine, cosine, the construction of a rotation, integer powers and the arc tangent as in C84, C92 and C93 (all met by fullLibm, the library of the examples). C94_angle and C94_handover are about the angles; C94_frame, C94_acceleration and C94_alpha about what is made of them. The angle of attack is covered where the air comes from the forward hemisphere with a cosine of at least one thousandth."),
"C95": ("proved", "Up to 100 engines; the tables of the coefficients are in range and do not read quantities computed later (C18, C62 say what happens otherwise). Sine and cosine are assumed right to 15 digits (FrameLibrary). With C85, C88, C91 and C94 every quantity of the equations of motion is now compared with its exact value."),
"C96": ("proved", "Exact arithmetic (the rounding of single quantities is in C85 and C94, C95; that of a whole coasting flight in C86). Flights in vacuum without acceleration limit, attitude given by constant rates. Never aborting is part of the conclusion. C96_true_flight shows that the condition of following a true flight can be met from every start."),
"C97": ("proved", "binary64, for every mathematical library with errors within the stated bounds (GoodLibrary, FrameLibrary, TrigLibrary). Steps of one second, the regular ones of the program. Flights in vacuum without acceleration limit, attitude given by constant rates. C97_true_flight shows that the condition of following a true flight can be met."),
"C98": ("proved", "binary64, for every mathematical library with errors within the stated bounds (GoodLibrary, FrameLibrary, AngleLibrary). The phases before the legs may be of any kind (C98_mission) or the start any phase state (C98_phases, with which the example is met); the legs are in vacuum above 6500 km, without acceleration limit, with the attitude given by rates. The true flight follows the plan in real numbers, so that the errors of mass, angles and clock that one phase hands to the next are part of the claim."),
"C99": ("proved", "binary64, for every mathematical library with errors within the bounds of GoodLibrary; the three models of the Earth, from 6350 km (below the surface of each) to 20000 km from the centre. The gradient is stated with derivatives of the potential with zonal harmonics, not with the formula of the code."),
"C100": ("proved", "binary64, for every mathematical library with errors within the bounds of GoodLibrary. The bound on a single step for the three models of the Earth; the satellite that stays in orbit for a day for the spherical one (the harmonics let the perigee of an orbit wander, so that no ellipse confines it)."),
"C101": ("proved", "The text reader is in the crate serde_json (1.0.115, default features), which is not in the repository: Model/JsonText.lean models it from its documented behaviour (RFC 8259, nesting up to 127), and the agreement of that model with the crate is trusted. UTF-8 is Lean's List.utf8Encode and ByteArray.utf8Decode?; that serde_json rejects what is not UTF-8 is part of the model (it decodes strings, and no other token contains bytes above 127). The text of utils/example.json is copied into ShippedText.lean by tools/gen_shipped_text.py."),
"C102": ("proved", "binary64. serde_json without the feature float_roundtrip (sim/Cargo.toml) is modelled: the significand as u64, one multiplication or division by a power of ten. C102_not_nearest shows that the bound of 15 digits in C102_nearest cannot be raised to 16."),
"C103": ("proved", "The order of the keys for the whole loader and in any arithmetic; notation of numbers in binary64. The text reader is modelled from the documented behaviour of serde_json (see C101)."),
"C65": ("proved", "IEEE-754 binary64 with correctly rounded + - * / and literals; the C library functions are arbitrary. The model's rounding is defined from scratch in Verif/F64.lean."),
}
