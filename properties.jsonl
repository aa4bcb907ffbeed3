{"id": "C01", "title": "Validity check reports exactly the out-of-range values", "statement": "Checking values against a range returns one verdict per value in the same order; a verdict is False exactly when the value lies strictly below the lower or strictly above the upper bound, and exactly one warning per False verdict is issued, naming variable, value and range. Values on a bound and NaN are accepted without warning.", "quantifier": "every list of values (any length, including NaN and infinities) and every pair of bounds", "why_tests_cant": "All lengths of value list and all values, including the special ones, must be covered.", "anchors": ["deltares_coastal_structures_toolbox/functions/core_utility.py: check_variable_validity_range"]}
{"id": "C02", "title": "Rock size and rock mass conversions are inverse", "statement": "Converting a nominal diameter to a mass and back (or a mass to a diameter and back) with the same density returns the original number.", "quantifier": "every positive diameter / mass and every positive density", "why_tests_cant": "The inputs are real numbers; a test can only sample finitely many of them, and regressions hide at regime boundaries that the samples miss.", "anchors": ["deltares_coastal_structures_toolbox/functions/core_physics.py: calculate_M50_from_Dn50, calculate_Dn50_from_M50"]}
{"id": "C03", "title": "Damage number conversions are inverse", "statement": "S to Nod and Nod to S conversions with the same gradation and porosity undo each other.", "quantifier": "every damage number, every G ≠ 0 and every porosity ≠ 1", "why_tests_cant": "The inputs are real numbers; a test can only sample finitely many of them, and regressions hide at regime boundaries that the samples miss.", "anchors": ["deltares_coastal_structures_toolbox/functions/core_physics.py: calculate_S_from_Nod, calculate_Nod_from_S"]}
{"id": "C04", "title": "Choice between Dn50 and M50", "statement": "When a diameter is given it is used unchanged and mass and density are ignored; when only a mass is given the equivalent diameter is used, with the given density or, with a warning, 2650 kg/m3; when neither is given the call raises ValueError and nothing else ever raises.", "quantifier": "every combination of given/omitted diameter, mass and density and every value of those given", "why_tests_cant": "Combinations times real values.", "anchors": ["deltares_coastal_structures_toolbox/functions/core_physics.py: check_usage_Dn50_or_M50"]}
{"id": "C05", "title": "Stability-number helper solves for the missing quantity", "statement": "Given exactly three of Hs, Dn, Delta, Ns the helper returns the fourth, labelled with its name, such that Hs = Ns*Delta*Dn; in every other case it raises ValueError.", "quantifier": "every subset of supplied arguments and every non-zero value of them", "why_tests_cant": "Subsets times real values.", "anchors": ["deltares_coastal_structures_toolbox/functions/core_physics.py: check_usage_stabilitynumber"]}
{"id": "C06", "title": "Wave steepness and Iribarren number have the right sense", "statement": "For positive inputs both are positive and finite; steepness strictly increases with wave height and strictly decreases with period, the Iribarren number strictly decreases with wave height and with cot(alpha) and strictly increases with period, and ksi^2 * s * cot(alpha)^2 = 1.", "quantifier": "all positive wave heights, periods, cot(alpha) and g", "why_tests_cant": "The inputs are real numbers; a test can only sample finitely many of them, and regressions hide at regime boundaries that the samples miss.", "anchors": ["deltares_coastal_structures_toolbox/functions/core_physics.py: calculate_wave_steepness_s, calculate_Iribarren_number_ksi"]}
{"id": "C07", "title": "Hudson: mass and wave height are inverse (no damage)", "statement": "The wave height computed for the rock mass that was designed for a wave height is that wave height, and conversely.", "quantifier": "all positive Hs / M50, KD, cot(alpha), alpha_Hs and all 0 < rho_water < rho_armour", "why_tests_cant": "The inputs are real numbers; a test can only sample finitely many of them, and regressions hide at regime boundaries that the samples miss.", "anchors": ["deltares_coastal_structures_toolbox/functions/structural/stability_rock_armour/hudson1959.py: calculate_median_rock_mass_M50_no_damage, calculate_significant_wave_height_Hs_no_damage"]}
{"id": "C08", "title": "Hudson: mass and wave height are inverse for an accepted damage level", "statement": "With the same damage percentage and rock type the damage versions are inverse too. An unknown rock type raises ValueError. Every percentage from 0 up to and including 100 is accepted.", "quantifier": "all positive inputs, all damage percentages in [0,100], all rock-type strings", "why_tests_cant": "The inputs are real numbers; a test can only sample finitely many of them, and regressions hide at regime boundaries that the samples miss.", "anchors": ["deltares_coastal_structures_toolbox/functions/structural/stability_rock_armour/hudson1959.py: lookup_table_damage_factors, calculate_median_rock_mass_M50, calculate_significant_wave_height_Hs"]}
{"id": "C09", "title": "Accepting more damage never requires heavier rock", "statement": "The required mass is non-increasing in the accepted damage percentage, never exceeds the no-damage mass, and equals it below 5 %; the allowed wave height is non-decreasing.", "quantifier": "all pairs of damage percentages in [0,100), both rock types, all positive inputs", "why_tests_cant": "Pairs of real percentages.", "anchors": ["deltares_coastal_structures_toolbox/functions/structural/stability_rock_armour/hudson1959.py: lookup_table_damage_factors, calculate_median_rock_mass_M50, calculate_significant_wave_height_Hs"]}
{"id": "C10", "title": "Concrete-unit Hudson wrappers are inverse", "statement": "For Accropode, Accropode II, Core-Loc, double-layer cubes, Cubipod and Tetrapod the unit mass for a wave height and the wave height for a unit mass undo each other.", "quantifier": "all positive Hs / M, KD, cot(alpha), alpha_Hs and 0 < rho_water < rho_armour; every seabed slope for the wrappers deriving KD", "why_tests_cant": "The inputs are real numbers; a test can only sample finitely many of them, and regressions hide at regime boundaries that the samples miss.", "anchors": ["deltares_coastal_structures_toolbox/functions/structural/stability_concrete_armour/accropode_hudson1959.py", "deltares_coastal_structures_toolbox/functions/structural/stability_concrete_armour/accropode2_hudson1959.py", "deltares_coastal_structures_toolbox/functions/structural/stability_concrete_armour/core_loc_hudson1959.py", "deltares_coastal_structures_toolbox/functions/structural/stability_concrete_armour/cubes_double_layer_hudson1959.py", "deltares_coastal_structures_toolbox/functions/structural/stability_concrete_armour/cubipod_hudson1959.py", "deltares_coastal_structures_toolbox/functions/structural/stability_concrete_armour/tetrapod_hudson1959.py"]}
{"id": "C11", "title": "KD from seabed slope is conservative", "statement": "The KD value derived from the seabed slope never exceeds the linear interpolation of the published table, is less than 0.1 below it, is a multiple of 0.1, is non-increasing in the slope and stays within the table's extremes for every slope.", "quantifier": "all seabed slopes (any real number), breaking and non-breaking waves", "why_tests_cant": "Interpolation plus rounding down must be right for every real slope.", "anchors": ["deltares_coastal_structures_toolbox/functions/structural/stability_concrete_armour/accropode_hudson1959.py: calculate_KD_breaking_trunk_from_seabed_slope, calculate_KD_nonbreaking_trunk_from_seabed_slope", "deltares_coastal_structures_toolbox/functions/structural/stability_concrete_armour/core_loc_hudson1959.py"]}
{"id": "C12", "title": "Xbloc and XblocPlus: unit size and wave height are inverse", "statement": "Unit volume (and unit mass) for a wave height and wave height for a unit volume (mass) undo each other, with any total correction factor.", "quantifier": "all positive Hs / V / M, correction factors, 0 < rho_water < rho_concrete and positive slopes", "why_tests_cant": "The inputs are real numbers; a test can only sample finitely many of them, and regressions hide at regime boundaries that the samples miss.", "anchors": ["deltares_coastal_structures_toolbox/functions/structural/stability_concrete_armour/xbloc.py", "deltares_coastal_structures_toolbox/functions/structural/stability_concrete_armour/xblocplus.py"]}
{"id": "C13", "title": "Xbloc(Plus) correction factors never reduce the unit and worsen monotonically", "statement": "Every correction factor is at least 1; it is non-increasing in relative freeboard, non-decreasing in relative depth, non-increasing in seabed cot; specifying the seabed slope in per cent gives the same factor as its cotangent.", "quantifier": "all real arguments and all ordered pairs of them", "why_tests_cant": "Pairs of reals and closed/open interval ends.", "anchors": ["deltares_coastal_structures_toolbox/functions/structural/stability_concrete_armour/xbloc.py: calculate_correctionfactor_unit_mass_M_by_*", "deltares_coastal_structures_toolbox/functions/structural/stability_concrete_armour/xblocplus.py: calculate_correctionfactor_unit_mass_M_by_*"]}
{"id": "C14", "title": "Xbloc: the standard 1:1.33 slope needs no correction", "statement": "The structure-slope correction is documented as being for slopes other than 1:1.33: at cot(alpha)=1.33 (4/3) and for steeper slopes the factor is 1 and milder slopes never get a smaller factor than steeper ones.", "quantifier": "all cot(alpha) > 0 and all ordered pairs", "why_tests_cant": "Ordering claim over pairs of reals.", "anchors": ["deltares_coastal_structures_toolbox/functions/structural/stability_concrete_armour/xbloc.py: calculate_correctionfactor_unit_mass_M_by_structure_slope"]}
{"id": "C15", "title": "Double-layer cubes (Van der Meer 1988): Hs, Dn and Nod are mutually inverse", "statement": "Computing the damage for the size designed for a damage level returns that level; the wave height for that size and damage returns the wave height.", "quantifier": "all positive Hs, Dn, N, Nod, steepness and 0 < rho_water < rho_armour with non-negative resulting damage", "why_tests_cant": "The inputs are real numbers; a test can only sample finitely many of them, and regressions hide at regime boundaries that the samples miss.", "anchors": ["deltares_coastal_structures_toolbox/functions/structural/stability_concrete_armour/cubes_double_layer_vandermeer1988.py"]}
{"id": "C16", "title": "Single-layer cubes (Van Gent 2002): Hs and Dn are inverse", "statement": "Cube size for a wave height and wave height for a cube size undo each other.", "quantifier": "all positive inputs", "why_tests_cant": "The inputs are real numbers; a test can only sample finitely many of them, and regressions hide at regime boundaries that the samples miss.", "anchors": ["deltares_coastal_structures_toolbox/functions/structural/stability_concrete_armour/cubes_single_layer_vangent2002.py"]}
{"id": "C17", "title": "Van der Meer 1988: damage and rock size are inverse", "statement": "The damage predicted for the rock size designed for a damage level is that level, in the plunging as well as in the surging regime and exactly at the transition; and conversely.", "quantifier": "all positive wave heights, periods, N, P, slopes, damage levels and 0 < rho_water < rho_armour", "why_tests_cant": "The inputs are real numbers; a test can only sample finitely many of them, and regressions hide at regime boundaries that the samples miss.", "anchors": ["deltares_coastal_structures_toolbox/functions/structural/stability_rock_armour/vandermeer1988.py: calculate_damage_number_S, calculate_nominal_rock_diameter_Dn50"]}
{"id": "C18", "title": "Van der Meer 1988: damage and wave height are inverse", "statement": "The damage at the wave height allowed for a damage level is that level: the allowed wave height, although chosen from two regime formulas, always lies in the regime whose formula produced it.", "quantifier": "all positive periods, N, P, slopes, sizes, damage levels and 0 < rho_water < rho_armour", "why_tests_cant": "The regime (plunging/surging) of the result depends on the result itself; a mismatch could hide anywhere along the transition surface.", "anchors": ["deltares_coastal_structures_toolbox/functions/structural/stability_rock_armour/vandermeer1988.py: calculate_significant_wave_height_Hs, calculate_damage_number_S"]}
{"id": "C19", "title": "Modified Van der Meer: damage, rock size and wave height are mutually inverse", "statement": "Same as C17 and C18 for the modified formula with the H2%/Hs ratio.", "quantifier": "all positive inputs incl. H2%/Hs and coefficients", "why_tests_cant": "The inputs are real numbers; a test can only sample finitely many of them, and regressions hide at regime boundaries that the samples miss.", "anchors": ["deltares_coastal_structures_toolbox/functions/structural/stability_rock_armour/vandermeer1988_modified.py"]}
{"id": "C20", "title": "Van der Meer 2021: damage, rock size and wave height are mutually inverse", "statement": "Same as C17 and C18 for the rewritten 2021 formula, which must also agree with the modified formula for H2%=1.4*Hs-type rescaling.", "quantifier": "all positive inputs", "why_tests_cant": "The inputs are real numbers; a test can only sample finitely many of them, and regressions hide at regime boundaries that the samples miss.", "anchors": ["deltares_coastal_structures_toolbox/functions/structural/stability_rock_armour/vandermeer2021.py"]}
{"id": "C21", "title": "Etemad-Shahidi 2020: damage and wave height are inverse", "statement": "The damage at the wave height allowed for a damage level is that level.", "quantifier": "all positive inputs, permeable and impermeable core, any water density", "why_tests_cant": "The regime of the result depends on the result.", "anchors": ["deltares_coastal_structures_toolbox/functions/structural/stability_rock_armour/etemadshahidi2020.py"]}
{"id": "C22", "title": "Etemad-Shahidi 2020: the rock size iteration converges", "statement": "The iteration for the rock size over a permeable core converges geometrically to the unique size solving the design equation, from any positive starting value, and the returned size reproduces the requested damage up to a bound set by the tolerance.", "quantifier": "all positive inputs, all iteration counts, all tolerances", "why_tests_cant": "Unbounded number of iterations and real inputs.", "anchors": ["deltares_coastal_structures_toolbox/functions/structural/stability_rock_armour/etemadshahidi2020.py: calculate_nominal_rock_diameter_Dn50"]}
{"id": "C23", "title": "Jumelet 2024: damage and rock size are inverse", "statement": "The damage predicted for the designed rock size is the requested damage and the size designed for a predicted damage is that size.", "quantifier": "all wave heights, periods, numbers of waves, slopes, densities, damage levels and coefficients for which at least one wave is plunging; all water densities", "why_tests_cant": "The inputs are real numbers; a test can only sample finitely many of them, and regressions hide at regime boundaries that the samples miss.", "anchors": ["deltares_coastal_structures_toolbox/functions/structural/stability_rock_armour/jumelet2024.py"]}
{"id": "C24", "title": "Scaravaglione 2025: damage, rock size and wave height are mutually inverse", "statement": "Damage and wave height undo each other. The size designed for the damage of a size is that size. If the designed size is positive, its predicted damage is the requested one; a non-positive size (unattainable damage level) is reported by a warning.", "quantifier": "all positive inputs and core sizes", "why_tests_cant": "The inputs are real numbers; a test can only sample finitely many of them, and regressions hide at regime boundaries that the samples miss.", "anchors": ["deltares_coastal_structures_toolbox/functions/structural/stability_rock_armour/scaravaglione2025.py"]}
{"id": "C25", "title": "Kramer & Burcharth: the designed rock size reproduces the wave height", "statement": "When the size iteration stops on its tolerance the wave height recomputed from the size differs from the requested one by at most a bound proportional to the tolerance; at zero freeboard it is exact. A size that does not reproduce the wave height is never returned silently.", "quantifier": "all wave heights, freeboards, densities, tolerances and iteration limits", "why_tests_cant": "Unbounded iterations; non-convergence is a property of the whole orbit.", "anchors": ["deltares_coastal_structures_toolbox/functions/structural/stability_rock_armour/kramerburcharth2004_lowcrested.py"]}
{"id": "C26", "title": "Armour damage moves the right way", "statement": "Predicted damage strictly increases with wave height and with the number of waves and strictly decreases with rock size within a regime, for the Van der Meer family.", "quantifier": "all positive inputs and ordered pairs in the same regime", "why_tests_cant": "Pairs of reals.", "anchors": ["deltares_coastal_structures_toolbox/functions/structural/stability_rock_armour/vandermeer1988.py", "deltares_coastal_structures_toolbox/functions/structural/stability_rock_armour/vandermeer1988_modified.py"]}
{"id": "C27", "title": "Gerding 1993 toe: Hs, Dn50 and Nod are mutually inverse", "statement": "The three solvers undo each other.", "quantifier": "all positive inputs with ht/Dn50 or ht giving a positive strength term", "why_tests_cant": "The inputs are real numbers; a test can only sample finitely many of them, and regressions hide at regime boundaries that the samples miss.", "anchors": ["deltares_coastal_structures_toolbox/functions/structural/stability_toe_berm/gerding1993.py"]}
{"id": "C28", "title": "Van der Meer 1998 toe: Hs, Dn50, ht and Nod are mutually inverse", "statement": "The solvers undo each other.", "quantifier": "all positive inputs", "why_tests_cant": "The inputs are real numbers; a test can only sample finitely many of them, and regressions hide at regime boundaries that the samples miss.", "anchors": ["deltares_coastal_structures_toolbox/functions/structural/stability_toe_berm/vandermeer1998.py"]}
{"id": "C29", "title": "Van Gent & Van der Werf 2014 toe: damage and rock size are inverse", "statement": "Damage predicted for the size designed for a damage level is that level, also for user-supplied coefficients.", "quantifier": "all positive inputs and coefficients", "why_tests_cant": "The inputs are real numbers; a test can only sample finitely many of them, and regressions hide at regime boundaries that the samples miss.", "anchors": ["deltares_coastal_structures_toolbox/functions/structural/stability_toe_berm/vangentvanderwerf2014.py"]}
{"id": "C30", "title": "Etemad-Shahidi 2021 toe: damage and rock size are inverse", "statement": "Damage predicted for the size designed for a damage level is that level.", "quantifier": "all positive inputs", "why_tests_cant": "The inputs are real numbers; a test can only sample finitely many of them, and regressions hide at regime boundaries that the samples miss.", "anchors": ["deltares_coastal_structures_toolbox/functions/structural/stability_toe_berm/etemadshahidi2021.py: calculate_damage_Nod, calculate_nominal_rock_diameter_Dn50"]}
{"id": "C31", "title": "Etemad-Shahidi 2021 toe: wave-height iteration terminates", "statement": "The wave-height solver always terminates, within the iteration limit the caller passes.", "quantifier": "all positive inputs, tolerances and limits", "why_tests_cant": "Termination of an unbounded loop.", "anchors": ["deltares_coastal_structures_toolbox/functions/structural/stability_toe_berm/etemadshahidi2021.py: calculate_wave_height_Hs"]}
{"id": "C32", "title": "Takahashi 1990 caisson toe: stability number has a floor", "statement": "The stability number is at least 1.8 for every geometry, so the designed size never exceeds Hs/(1.8*Delta).", "quantifier": "all inputs for which it is finite", "why_tests_cant": "The inputs are real numbers; a test can only sample finitely many of them, and regressions hide at regime boundaries that the samples miss.", "anchors": ["deltares_coastal_structures_toolbox/functions/structural/stability_toe_berm/takahashi1990_caisson.py"]}
{"id": "C33", "title": "Van Gent 2007 rear slope: damage, rock size and run-up level are mutually inverse", "statement": "The solvers undo each other.", "quantifier": "all positive inputs", "why_tests_cant": "The inputs are real numbers; a test can only sample finitely many of them, and regressions hide at regime boundaries that the samples miss.", "anchors": ["deltares_coastal_structures_toolbox/functions/structural/stability_rock_rear/vangent2007.py"]}
{"id": "C34", "title": "Van Gent & Pozueta 2004 rear slope: damage, rock size and crest velocity are mutually inverse", "statement": "The solvers undo each other.", "quantifier": "all positive inputs", "why_tests_cant": "The inputs are real numbers; a test can only sample finitely many of them, and regressions hide at regime boundaries that the samples miss.", "anchors": ["deltares_coastal_structures_toolbox/functions/structural/stability_rock_rear/vangentpozueta2004.py"]}
{"id": "C35", "title": "Goda 1985: pressures are ordered and forces non-negative", "statement": "Pressures at the crest and at the toe never exceed the pressure at the still-water line, all are non-negative for obliqueness up to 180 degrees, and the horizontal and uplift forces and their moments are non-negative.", "quantifier": "all positive geometries and wave conditions and any positive wavelength", "why_tests_cant": "The inputs are real numbers; a test can only sample finitely many of them, and regressions hide at regime boundaries that the samples miss.", "anchors": ["deltares_coastal_structures_toolbox/functions/structural/forces_caisson/goda1985.py"]}
{"id": "C36", "title": "Goda 1985: obliqueness is symmetric", "statement": "Loads depend only on the absolute value of the wave angle, and angles up to 15 degrees give the loads of perpendicular waves.", "quantifier": "all angles and all other inputs", "why_tests_cant": "The inputs are real numbers; a test can only sample finitely many of them, and regressions hide at regime boundaries that the samples miss.", "anchors": ["deltares_coastal_structures_toolbox/functions/structural/forces_caisson/goda1985.py"]}
{"id": "C37", "title": "Goda 1985: heel pressure balances the resulting load", "statement": "The bearing pressure is that of the linear (triangular or trapezoidal) distribution whose resultant and moment equal the effective weight and moment, and is continuous where the distribution changes from triangle to trapezoid.", "quantifier": "all positive weights, moments and widths", "why_tests_cant": "The inputs are real numbers; a test can only sample finitely many of them, and regressions hide at regime boundaries that the samples miss.", "anchors": ["deltares_coastal_structures_toolbox/functions/structural/forces_caisson/goda1985.py: calculate_bearing_pressure"]}
{"id": "C38", "title": "Crest wall loads (Van Gent & Van der Werf 2019): sign and obliqueness", "statement": "Forces are non-negative, oblique forces never exceed the perpendicular ones, and an angle of zero gives exactly the perpendicular force.", "quantifier": "all inputs in the documented ranges", "why_tests_cant": "The inputs are real numbers; a test can only sample finitely many of them, and regressions hide at regime boundaries that the samples miss.", "anchors": ["deltares_coastal_structures_toolbox/functions/structural/forces_crestwall/vangentvanderwerf2019.py"]}
{"id": "C39", "title": "d'Angremond 1996: transmission coefficient is bounded", "statement": "The transmission coefficient is a number in [0.075, 0.8] and non-increasing in the crest freeboard.", "quantifier": "all positive wave and geometry inputs, all freeboards", "why_tests_cant": "The inputs are real numbers; a test can only sample finitely many of them, and regressions hide at regime boundaries that the samples miss.", "anchors": ["deltares_coastal_structures_toolbox/functions/hydraulic/wave_transmission/dangremond1996.py"]}
{"id": "C40", "title": "Briganti 2003: transmission coefficient is bounded and monotone", "statement": "The coefficient lies in [0.05, 0.93] and is non-increasing in the crest freeboard for every crest width.", "quantifier": "all positive inputs, all freeboards", "why_tests_cant": "Two regimes separated at B/Hs = 10.", "anchors": ["deltares_coastal_structures_toolbox/functions/hydraulic/wave_transmission/briganti2003.py"]}
{"id": "C41", "title": "Goda 1967 caisson transmission is bounded and non-increasing in freeboard", "statement": "A higher crest never transmits more; the coefficient lies in [0.03, 1].", "quantifier": "all freeboards and pairs of freeboards, positive wave heights", "why_tests_cant": "The inputs are real numbers; a test can only sample finitely many of them, and regressions hide at regime boundaries that the samples miss.", "anchors": ["deltares_coastal_structures_toolbox/functions/hydraulic/wave_transmission/goda1967_caisson.py"]}
{"id": "C42", "title": "Van Gent 2023 transmission is bounded, monotone and checked", "statement": "For each structure type the coefficient lies strictly within the tanh asymptotes and strictly decreases with freeboard; an unknown structure type raises ValueError; inputs outside the validity range are reported.", "quantifier": "all structure-type strings, all positive inputs, all freeboards", "why_tests_cant": "The inputs are real numbers; a test can only sample finitely many of them, and regressions hide at regime boundaries that the samples miss.", "anchors": ["deltares_coastal_structures_toolbox/functions/hydraulic/wave_transmission/vangent2023.py"]}
{"id": "C43", "title": "Van Gent 2024 set-up grows with the crest level from its zero point", "statement": "The set-up behind the structure is zero at the freeboard where the fit starts (-1.6 Hm0 impermeable, -1.5 Hm0 permeable), strictly increases with the crest level above it, and behind permeable structures strictly decreases with the structure height; below the zero point the result is NaN.", "quantifier": "all positive wave heights and periods, all freeboards", "why_tests_cant": "Monotonicity over a continuum of real inputs cannot be sampled.", "anchors": ["deltares_coastal_structures_toolbox/functions/hydraulic/wave_transmission/vangent2024_setup.py"]}
{"id": "C44", "title": "Van Gent 2001 run-up is continuous, increasing and invertible", "statement": "Run-up is continuous at the regime transition, strictly increases with wave height, and the wave-height solver undoes it. Exactly one of the two wave heights must be given, else ValueError.", "quantifier": "all positive inputs", "why_tests_cant": "The inputs are real numbers; a test can only sample finitely many of them, and regressions hide at regime boundaries that the samples miss.", "anchors": ["deltares_coastal_structures_toolbox/functions/hydraulic/wave_runup/vangent2001.py"]}
{"id": "C45", "title": "TAW 2002 influence factors stay within their published ranges", "statement": "The berm factor lies in [0.6, 1], the obliqueness factor is symmetric in the angle, non-increasing in its size and constant beyond 80 degrees.", "quantifier": "all real arguments", "why_tests_cant": "The inputs are real numbers; a test can only sample finitely many of them, and regressions hide at regime boundaries that the samples miss.", "anchors": ["deltares_coastal_structures_toolbox/functions/hydraulic/wave_runup/taw2002.py"]}
{"id": "C46", "title": "TAW 2002 run-up is the smaller of the two formulas and says which", "statement": "The run-up returned is the minimum of the breaking-wave expression and its maximum, and the flag is true exactly when the maximum governs.", "quantifier": "all inputs", "why_tests_cant": "The inputs are real numbers; a test can only sample finitely many of them, and regressions hide at regime boundaries that the samples miss.", "anchors": ["deltares_coastal_structures_toolbox/functions/hydraulic/wave_runup/taw2002.py"]}
{"id": "C47", "title": "TAW 2002 composite-slope iteration respects its limits", "statement": "The run-up iteration stops after at most the permitted number of iterations, and when it stops on the tolerance the last two levels differ by no more than it.", "quantifier": "all inputs, limits and tolerances", "why_tests_cant": "Unbounded number of iterations.", "anchors": ["deltares_coastal_structures_toolbox/functions/hydraulic/wave_runup/taw2002.py: iteration_procedure_z2p"]}
{"id": "C48", "title": "A user-supplied obliqueness factor is honoured by EurOtop 2018 run-up", "statement": "Supplying gamma_beta instead of beta is accepted and used.", "quantifier": "all gamma_beta", "why_tests_cant": "The inputs are real numbers; a test can only sample finitely many of them, and regressions hide at regime boundaries that the samples miss.", "anchors": ["deltares_coastal_structures_toolbox/functions/hydraulic/wave_runup/eurotop2018.py"]}
{"id": "C49", "title": "TAW 2002: discharge and freeboard are inverse", "statement": "The discharge at the freeboard computed for an allowed discharge is that discharge, whichever of the two formulas governs, and the governing-formula flags agree.", "quantifier": "all positive inputs incl. any gravity", "why_tests_cant": "Which formula governs depends on the result.", "anchors": ["deltares_coastal_structures_toolbox/functions/hydraulic/wave_overtopping/taw2002.py"]}
{"id": "C50", "title": "TAW 2002, EurOtop 2007 and 2018: a higher crest never overtops more", "statement": "Discharge is strictly decreasing in crest freeboard and positive.", "quantifier": "all positive inputs, pairs of freeboards", "why_tests_cant": "The inputs are real numbers; a test can only sample finitely many of them, and regressions hide at regime boundaries that the samples miss.", "anchors": ["deltares_coastal_structures_toolbox/functions/hydraulic/wave_overtopping/taw2002.py", "deltares_coastal_structures_toolbox/functions/hydraulic/wave_overtopping/eurotop2007.py", "deltares_coastal_structures_toolbox/functions/hydraulic/wave_overtopping/eurotop2018.py"]}
{"id": "C51", "title": "EurOtop 2007: discharge and freeboard are inverse", "statement": "Discharge and freeboard solvers undo each other for any gravity.", "quantifier": "all positive inputs", "why_tests_cant": "The inputs are real numbers; a test can only sample finitely many of them, and regressions hide at regime boundaries that the samples miss.", "anchors": ["deltares_coastal_structures_toolbox/functions/hydraulic/wave_overtopping/eurotop2007.py"]}
{"id": "C52", "title": "EurOtop 2018: discharge and freeboard are inverse", "statement": "Discharge and freeboard solvers undo each other whichever formula governs, and a user-supplied berm factor is used.", "quantifier": "all positive inputs", "why_tests_cant": "The inputs are real numbers; a test can only sample finitely many of them, and regressions hide at regime boundaries that the samples miss.", "anchors": ["deltares_coastal_structures_toolbox/functions/hydraulic/wave_overtopping/eurotop2018.py"]}
{"id": "C53", "title": "Van Gent 2021 caisson: discharge and freeboard are inverse, also with defaults", "statement": "Discharge and freeboard solvers undo each other for every option combination; without crossing seas the swell height need not be given.", "quantifier": "all option combinations and positive inputs", "why_tests_cant": "Option combinations times reals.", "anchors": ["deltares_coastal_structures_toolbox/functions/hydraulic/wave_overtopping/vangent2021_caisson.py"]}
{"id": "C54", "title": "Van Gent 2025: discharge and freeboard are inverse, also with defaults", "statement": "Discharge and freeboard solvers undo each other for design and mean-value calculations; the crest-wall factor need not be given when there is no crest wall.", "quantifier": "all option combinations and positive inputs", "why_tests_cant": "The inputs are real numbers; a test can only sample finitely many of them, and regressions hide at regime boundaries that the samples miss.", "anchors": ["deltares_coastal_structures_toolbox/functions/hydraulic/wave_overtopping/vangent2025.py"]}
{"id": "C55", "title": "De Ridder 2024: discharge and freeboard are inverse", "statement": "Discharge and freeboard solvers undo each other for both equations and any gravity.", "quantifier": "all positive inputs", "why_tests_cant": "The inputs are real numbers; a test can only sample finitely many of them, and regressions hide at regime boundaries that the samples miss.", "anchors": ["deltares_coastal_structures_toolbox/functions/hydraulic/wave_overtopping/deridder2024.py"]}
{"id": "C56", "title": "De Ridder 2026: discharge and freeboard are inverse", "statement": "Discharge and freeboard solvers undo each other for both equations and any gravity; the obliqueness factor is symmetric and within [0.35, 1].", "quantifier": "all positive inputs, all angles", "why_tests_cant": "The inputs are real numbers; a test can only sample finitely many of them, and regressions hide at regime boundaries that the samples miss.", "anchors": ["deltares_coastal_structures_toolbox/functions/hydraulic/wave_overtopping/deridder2026.py"]}
{"id": "C57", "title": "Van Gent 2002 crest velocity: velocity and run-up level are inverse", "statement": "Crest velocity from run-up level and run-up level from crest velocity undo each other.", "quantifier": "all inputs above the crest level", "why_tests_cant": "The inputs are real numbers; a test can only sample finitely many of them, and regressions hide at regime boundaries that the samples miss.", "anchors": ["deltares_coastal_structures_toolbox/functions/hydraulic/wave_overtopping/vangent2002_velocity.py"]}
{"id": "C58", "title": "Roughness factor adjustment stays between roughness and smooth", "statement": "The run-up-adjusted roughness factor lies between the roughness factor and 1 and does not decrease with the Iribarren number.", "quantifier": "all roughness factors in (0,1], berm factors in [0.6,1], Iribarren numbers", "why_tests_cant": "The inputs are real numbers; a test can only sample finitely many of them, and regressions hide at regime boundaries that the samples miss.", "anchors": ["deltares_coastal_structures_toolbox/functions/hydraulic/wave_runup/taw2002.py", "deltares_coastal_structures_toolbox/functions/hydraulic/wave_overtopping/eurotop2018.py"]}
{"id": "C59", "title": "Neural-network input files keep columns apart", "statement": "The input files written for the overtopping networks contain, for every record, each argument under its own column in the documented order.", "quantifier": "all records, any number of them", "why_tests_cant": "All record counts and values.", "anchors": ["deltares_coastal_structures_toolbox/functions/hydraulic/wave_overtopping/denbieman2021.py", "deltares_coastal_structures_toolbox/functions/hydraulic/wave_overtopping/vangent2007.py"]}
{"id": "C60", "title": "Out-of-range inputs are reported", "statement": "A calculation called with a parameter combination outside the published validity range issues a warning naming it; in-range calls issue none; the numerical result is the same either way.", "quantifier": "all inputs", "why_tests_cant": "The inputs are real numbers; a test can only sample finitely many of them, and regressions hide at regime boundaries that the samples miss.", "anchors": ["deltares_coastal_structures_toolbox/functions/structural/stability_rock_armour/vandermeer1988.py: check_validity_range", "deltares_coastal_structures_toolbox/functions/hydraulic/wave_transmission/vangent2023.py", "deltares_coastal_structures_toolbox/functions/hydraulic/wave_transmission/dangremond1996.py"]}
{"id": "C61", "title": "Takahashi 1990 caisson toe: wave height solver returns a stable wave height", "statement": "The wave height solver returns a height Hs that equals Ns(H)*Delta*Dn50 for a height H within 1 mm of Hs, or warns that the precision is worse; it always returns.", "quantifier": "all inputs, all dispersion solvers", "why_tests_cant": "Two-stage table search over real inputs; failures occur in regions (stability number floor) that samples miss.", "anchors": ["deltares_coastal_structures_toolbox/functions/structural/stability_toe_berm/takahashi1990_caisson.py: calculate_significant_wave_height_Hs"]}
{"id": "C62", "title": "Takahashi 1990 caisson toe: depth solver brackets the required depth", "statement": "The depth solver returns a depth at most one step beyond the depth where the stability number crosses Hs/(Delta*Dn50), and always terminates.", "quantifier": "all inputs, all dispersion solvers", "why_tests_cant": "Termination and correctness of an unbounded search.", "anchors": ["deltares_coastal_structures_toolbox/functions/structural/stability_toe_berm/takahashi1990_caisson.py: calculate_significant_depth_above_toe_hacc"]}
{"id": "C63", "title": "Van Gent 2007 rear slope: the wave height solver converges to the wave height with the requested damage", "statement": "There is exactly one wave height whose run-up passes the crest and whose damage is the requested one. If the solver does not warn about convergence, its result is within a bound set by the tolerance of that wave height. For every positive tolerance the warning disappears once the iteration limit is large enough.", "quantifier": "all positive inputs, all tolerances, all iteration limits", "why_tests_cant": "Convergence of an iteration for all real inputs cannot be sampled.", "anchors": ["deltares_coastal_structures_toolbox/functions/structural/stability_rock_rear/vangent2007.py: calculate_maximum_significant_wave_height_Hs"]}
{"id": "C64", "title": "Van Gent 2001 run-up: coefficients supplied by the user are used", "statement": "calculate_wave_runup_height_z2p computes with the c0 and c1 passed by the caller.", "quantifier": "all inputs", "why_tests_cant": "A test with the default coefficients does not see that supplied ones are discarded on one of the two call paths.", "anchors": ["deltares_coastal_structures_toolbox/functions/hydraulic/wave_runup/vangent2001.py: calculate_wave_runup_height_z2p"]}
{"id": "C65", "title": "Van Gent 2007 rear slope: no damage when the run-up does not reach the crest", "statement": "The predicted damage is not positive when the fictitious run-up level is below the crest.", "quantifier": "all positive inputs with run-up below the crest", "why_tests_cant": "Tests sample the validity range only.", "anchors": ["deltares_coastal_structures_toolbox/functions/structural/stability_rock_rear/vangent2007.py: calculate_damage_number_S"]}
{"id": "C66", "title": "Van Gent & Pozueta 2004 rear slope: the wave height solver converges to the wave height with the requested damage", "statement": "There is exactly one wave height whose run-up passes the crest and whose damage is the requested one; without a convergence warning the result is within a bound set by the tolerance; for every positive tolerance the warning disappears once the iteration limit is large enough.", "quantifier": "all positive inputs, all tolerances, all iteration limits", "why_tests_cant": "Convergence of an iteration for all real inputs cannot be sampled.", "anchors": ["deltares_coastal_structures_toolbox/functions/structural/stability_rock_rear/vangentpozueta2004.py: calculate_maximum_significant_wave_height_Hs"]}
{"id": "C67", "title": "Goda 1985: forces and moments are the integrals of the pressure diagram", "statement": "The horizontal force and its moment about the heel equal the integrals over the wall height of the piecewise linear pressure through the returned pressures, and the uplift force and moment equal the integrals of the triangular uplift pressure over the base.", "quantifier": "all positive geometries and wave inputs, all angles", "why_tests_cant": "An equality of a closed form with an integral for all real inputs is not a finite check.", "anchors": ["deltares_coastal_structures_toolbox/functions/structural/forces_caisson/goda1985.py"]}
{"id": "C68", "title": "Goda 1985: oblique waves never load the caisson more", "statement": "Up to 105 degrees, a larger absolute wave angle never gives a larger pressure, force or moment.", "quantifier": "all angles up to 105 degrees, all positive inputs", "why_tests_cant": "The inputs are real numbers; a test can only sample finitely many of them.", "anchors": ["deltares_coastal_structures_toolbox/functions/structural/forces_caisson/goda1985.py"]}
{"id": "C69", "title": "Goda 1985: a higher design wave never loads the caisson less", "statement": "With the other inputs fixed, pressures, forces and moments are non-decreasing in the design wave height.", "quantifier": "all pairs of positive design wave heights", "why_tests_cant": "The inputs are real numbers; a test can only sample finitely many of them.", "anchors": ["deltares_coastal_structures_toolbox/functions/structural/forces_caisson/goda1985.py"]}
{"id": "C70", "title": "Goda 1985: safety factors and reactions agree", "statement": "The sliding factor is friction over horizontal force and the overturning factor is restoring over overturning moment. An overturning factor above one puts the resultant inside the base, with a heel pressure that balances the effective weight and moment; a factor below one gives a negative heel pressure.", "quantifier": "all inputs with positive loads", "why_tests_cant": "The inputs are real numbers; a test can only sample finitely many of them.", "anchors": ["deltares_coastal_structures_toolbox/functions/structural/forces_caisson/goda1985.py"]}
{"id": "C71", "title": "Goda 1985: impulsive flag and warning agree", "statement": "The impulsive-breaking flag is set exactly when the impulsive warning is issued, exactly once, and the set of configurations that are flagged is the documented one.", "quantifier": "all geometries and waves", "why_tests_cant": "The flag is a conjunction of strict inequalities over reals; tests miss the boundaries.", "anchors": ["deltares_coastal_structures_toolbox/functions/structural/forces_caisson/goda1985.py"]}
{"id": "C72", "title": "Crest wall: the 0.1 % load is never below the 2 % load", "statement": "For equal inputs the force exceeded by 0.1 % of the waves is at least the force exceeded by 2 % of the waves.", "quantifier": "all inputs", "why_tests_cant": "The inputs are real numbers; a test can only sample finitely many of them.", "anchors": ["deltares_coastal_structures_toolbox/functions/structural/forces_crestwall/vangentvanderwerf2019.py"]}
{"id": "C73", "title": "Briganti 2003: a wider crest never transmits more", "statement": "The transmission coefficient is non-increasing in the crest width, including across the change of formula at ten wave heights.", "quantifier": "all positive widths, all freeboards", "why_tests_cant": "The inputs are real numbers; a test can only sample finitely many of them.", "anchors": ["deltares_coastal_structures_toolbox/functions/hydraulic/wave_transmission/briganti2003.py"]}
{"id": "C74", "title": "Run-up and overtopping on a straight slope need no berm factor", "statement": "On a single slope without a berm the run-up and overtopping functions return a result when gamma_b is left out, the same as with gamma_b = 1.", "quantifier": "all positive inputs, all option combinations", "why_tests_cant": "Whether a default combination works for all inputs is a statement about every call; the existing tests of run-up always give a composite slope.", "anchors": ["deltares_coastal_structures_toolbox/functions/hydraulic/wave_runup/taw2002.py", "deltares_coastal_structures_toolbox/functions/hydraulic/wave_overtopping/taw2002.py"]}
{"id": "C75", "title": "Two equal slopes are one slope", "statement": "A composite slope whose lower and upper parts are equally steep gives the same run-up, discharge and freeboard as the straight slope, with or without a berm.", "quantifier": "all positive inputs, all option combinations", "why_tests_cant": "The composite slope goes through an iteration whose outcome for all inputs cannot be sampled.", "anchors": ["deltares_coastal_structures_toolbox/functions/hydraulic/wave_runup/taw2002.py", "deltares_coastal_structures_toolbox/functions/hydraulic/wave_overtopping/taw2002.py"]}
{"id": "C76", "title": "Obliqueness factors of the newer overtopping formulas", "statement": "The influence factor for oblique waves of Van Gent 2021, Van Gent 2025 and De Ridder 2026 is 1 for perpendicular waves, the same for waves from the left and from the right, stays between its limit value and 1, and decreases as the angle grows from 0 to 90 degrees.", "quantifier": "all angles, all limit values between 0 and 1", "why_tests_cant": "Symmetry, range and monotonicity over a continuum of angles cannot be sampled.", "anchors": ["deltares_coastal_structures_toolbox/functions/hydraulic/wave_overtopping/vangent2021_caisson.py", "deltares_coastal_structures_toolbox/functions/hydraulic/wave_overtopping/vangent2025.py", "deltares_coastal_structures_toolbox/functions/hydraulic/wave_overtopping/deridder2026.py"]}
{"id": "C77", "title": "Van Gent 2025: friction, crest wall and wind", "statement": "Larger stones and steeper waves change the friction factor in the published direction; the crest-wall and wind factors are 1 without a protruding wall and grow with the wall; with the crest at or above the armour crest wind never lowers the discharge nor the freeboard that is needed.", "quantifier": "all positive inputs, all option combinations", "why_tests_cant": "Directions of change over real inputs, and the outcome of the wind iteration in the freeboard solver, cannot be settled by samples.", "anchors": ["deltares_coastal_structures_toolbox/functions/hydraulic/wave_overtopping/vangent2025.py"]}
{"id": "C78", "title": "Returned numbers satisfy the published formulas", "statement": "Whatever variable a design function is solved for, the number it returns satisfies the relation printed in the literature between wave, structure and damage, with the published coefficients as defaults (Van der Meer, Hudson, concrete units, Etemad-Shahidi, toe, rear slope, low-crested, overtopping, run-up and transmission formulas).", "quantifier": "all positive wave heights, periods, slopes, sizes, densities, damage levels and coefficients", "why_tests_cant": "A test compares single numbers to single numbers; that every returned number lies on the published curve, on both sides of every case distinction, is a statement about all inputs.", "anchors": ["deltares_coastal_structures_toolbox/functions/structural/stability_rock_armour", "deltares_coastal_structures_toolbox/functions/structural/stability_concrete_armour", "deltares_coastal_structures_toolbox/functions/structural/stability_toe_berm", "deltares_coastal_structures_toolbox/functions/hydraulic"]}
{"id": "C79", "title": "Validity checks report exactly the published limits", "statement": "A validity check called with all its quantities given as numbers issues one warning for each published quantity that lies outside its published limits, in the documented order, and no warning for the others; with every quantity inside the limits it is silent.", "quantifier": "all real values of the quantities (positive where the ratio needs it)", "why_tests_cant": "A test sees a handful of values; that no value inside the limits warns and every value outside does, for all quantities at once, is a statement about all inputs.", "anchors": ["deltares_coastal_structures_toolbox/functions/core_utility.py", "deltares_coastal_structures_toolbox/functions/structural", "deltares_coastal_structures_toolbox/functions/hydraulic"]}
{"id": "C80", "title": "Worse conditions never give less run-up or overtopping", "statement": "With higher waves, longer waves, a steeper or smoother slope, less reduction by obliqueness or walls, or a lower crest (any combination), run-up heights and overtopping discharges never become smaller, and the crest level needed for a discharge never becomes lower.", "quantifier": "all pairs of conditions ordered in every one of these variables", "why_tests_cant": "A test compares single pairs of conditions; monotonicity in eight variables at once, across every switch between formulas, is a statement about all pairs.", "anchors": ["deltares_coastal_structures_toolbox/functions/hydraulic/wave_runup", "deltares_coastal_structures_toolbox/functions/hydraulic/wave_overtopping"]}
{"id": "C81", "title": "Omitted optional arguments take the documented values", "statement": "A call that leaves out optional arguments does exactly what the call with the documented values does: gravity 9.81 m/s2, water density 1025 kg/m3 and rock density 2650 kg/m3 in every function that takes them, the published coefficients, factors 1.0 and no berm, and every other quantity missing.", "quantifier": "all functions with optional arguments, all values of the required arguments", "why_tests_cant": "A test of one call with defaults cannot show that all functions of a method use the same constants for all inputs, which results combined from several functions depend on.", "anchors": ["deltares_coastal_structures_toolbox/functions"]}
{"id": "C82", "title": "Results follow Froude's scale law", "statement": "When all lengths of a case are multiplied by one factor, all periods by its square root, and gravity and densities stay, then every stability number, damage, transmission coefficient, safety factor and dimensionless result is the same; every stone size, wave height, freeboard, depth, run-up and pressure is multiplied by the factor, every velocity by its square root, every discharge by its power 3/2, every force per metre by its square, and every mass, volume and moment by its cube; the same warnings and errors are given.", "quantifier": "all scale factors > 0, all inputs including NaN and infinities, all calculation functions of rock, concrete, toe, rear slope, crest wall, caisson, transmission, run-up and overtopping", "why_tests_cant": "It relates two runs for every factor and every input; a wrong power or a missing factor of one quantity can be hidden in tests at one size, and results of scale models are converted with this law.", "anchors": ["deltares_coastal_structures_toolbox/functions/structural", "deltares_coastal_structures_toolbox/functions/hydraulic"]}
{"id": "C83", "title": "Calls with arrays give the values of the single cases", "statement": "When arguments of a calculation function are NumPy arrays (all of one length, the others numbers), the outcome at every position is the outcome of the call with the numbers of that position: the same value, or the same exception.", "quantifier": "all calculation functions, all lengths of arrays, all mixtures of arrays and numbers, all values including NaN and infinities", "why_tests_cant": "Tests call with numbers or with a few arrays; the claim is about every mixture of arrays and numbers at every length, where the code can mix up cases, use the first case for all, or raise.", "anchors": ["deltares_coastal_structures_toolbox/functions/core_physics.py", "deltares_coastal_structures_toolbox/functions/structural", "deltares_coastal_structures_toolbox/functions/hydraulic"]}
{"id": "C84", "title": "Iterations over arrays serve every case", "statement": "A function that solves by iteration, called with arrays, returns for every case the value after at least as many passes as the call for that case alone takes, and stops only when the limit of passes is used up or no case changed by more than the tolerance in the last pass; passes beyond that are only made while some case still changes by more than the tolerance.", "quantifier": "all iterating functions, all array lengths, all inputs, all limits and tolerances", "why_tests_cant": "It needs all combinations of fast and slowly converging cases and of limits and tolerances.", "anchors": ["deltares_coastal_structures_toolbox/functions/structural/stability_rock_armour/kramerburcharth2004_lowcrested.py", "deltares_coastal_structures_toolbox/functions/structural/stability_rock_armour/jumelet2024.py", "deltares_coastal_structures_toolbox/functions/structural/stability_rock_armour/etemadshahidi2020.py", "deltares_coastal_structures_toolbox/functions/structural/stability_rock_rear"]}
{"id": "C85", "title": "Calls with arrays warn like the single cases", "statement": "A call with arrays warns of nothing that no call for one of its cases alone warns of, and of everything that some call for one of its cases alone warns of.", "quantifier": "all functions with validity checks, all array lengths, all inputs", "why_tests_cant": "A check that is skipped for the whole array because of one case is only seen for particular combinations of cases.", "anchors": ["deltares_coastal_structures_toolbox/functions/core_utility.py"]}
{"id": "C86", "title": "Iterating functions stop at the first settled estimate", "statement": "A function that solves by iteration, called with a limit N of passes and a tolerance t, returns the estimate after the first pass that changed the estimate by not more than t, or after N passes if there is none. So a limit larger than needed makes no difference, and a smaller tolerance never stops earlier.", "quantifier": "all iterating functions, all inputs (NaN and infinities included), all limits and tolerances", "why_tests_cant": "One pass too many or too few changes the result by less than the tolerance for all but a few inputs.", "anchors": ["deltares_coastal_structures_toolbox/functions/structural/stability_rock_armour/kramerburcharth2004_lowcrested.py", "deltares_coastal_structures_toolbox/functions/structural/stability_rock_armour/jumelet2024.py", "deltares_coastal_structures_toolbox/functions/structural/stability_rock_armour/etemadshahidi2020.py", "deltares_coastal_structures_toolbox/functions/structural/stability_rock_rear", "deltares_coastal_structures_toolbox/functions/hydraulic/wave_overtopping/vangent2025.py"]}
{"id": "C87", "title": "Numbers written without a decimal point", "statement": "An argument that is a whole number gives the same outcome whether it is passed as a Python int or as a float.", "quantifier": "all functions, all whole numbers, all values of the other arguments", "why_tests_cant": "Whether integer arguments reach an operation that NumPy refuses for integers depends on the path taken; samples with floats never show it.", "anchors": ["deltares_coastal_structures_toolbox/functions/structural/stability_rock_armour/jumelet2024.py", "deltares_coastal_structures_toolbox/functions/core_physics.py"]}
{"id": "C88", "title": "Two slopes lie between the two straight slopes", "statement": "For a structure with different slopes below and above the water line and no berm width, run-up height and overtopping discharge are at least those of a straight slope as flat as the flatter of the two and at most those of a straight slope as steep as the steeper one.", "quantifier": "all wave heights and periods, all pairs of slopes, transition depths, roughness and obliqueness factors, freeboards and coefficients", "why_tests_cant": "The average slope is found by an iteration whose number of passes depends on the inputs; a test sees one pair of slopes at a time.", "anchors": ["deltares_coastal_structures_toolbox/functions/hydraulic/wave_runup/taw2002.py", "deltares_coastal_structures_toolbox/functions/hydraulic/wave_runup/eurotop2018.py", "deltares_coastal_structures_toolbox/functions/hydraulic/wave_overtopping/taw2002.py", "deltares_coastal_structures_toolbox/functions/hydraulic/wave_overtopping/eurotop2018.py"]}
{"id": "C89", "title": "Run-up on two slopes agrees with the average slope it is based on", "statement": "On a structure with different slopes below and above the water line the average slope depends on the run-up. There is exactly one level p such that a straight slope with the average slope for p has run-up p, and the run-up returned is that level to within a few tenths of a millimetre.", "quantifier": "all wave heights and periods, all pairs of slopes, transition depths, roughness and obliqueness factors and coefficients", "why_tests_cant": "Existence, uniqueness and the distance of the last iterate to the limit cannot be observed from outputs; a loop that stops too early or oscillates shows only for particular inputs.", "anchors": ["deltares_coastal_structures_toolbox/functions/hydraulic/wave_runup/taw2002.py", "deltares_coastal_structures_toolbox/functions/hydraulic/wave_runup/eurotop2018.py"]}
{"id": "C90", "title": "Rock may be given by its mass or by its size", "statement": "In every function that takes a nominal diameter or a median mass (armour, rear side or core), giving the mass ρ·D³ gives exactly the result and the validity warnings that giving the diameter D gives; without a density 2650 kg/m³ is used; a mass given next to a diameter has no effect; giving neither is a ValueError.", "quantifier": "all functions with Dn50/M50 or Dn50_core/M50_core arguments, all diameters and densities > 0, all values of the other arguments", "why_tests_cant": "The choice is repeated in every function with its own density argument (armour, core, rear); a swapped density or a mass that overrides a diameter only shows for particular combinations of arguments.", "anchors": ["deltares_coastal_structures_toolbox/functions/core_physics.py", "deltares_coastal_structures_toolbox/functions/structural/stability_rock_armour", "deltares_coastal_structures_toolbox/functions/structural/stability_rock_rear"]}
{"id": "C91", "title": "A missing value never becomes a number", "statement": "When a value a formula needs is missing (NaN), the result is NaN or an exception, never a number: no branch, comparison, minimum, table lookup or iteration silently replaces it.", "quantifier": "all scalar functions of the stability, run-up, overtopping, transmission and force modules, each of their needed arguments, all values of the other arguments", "why_tests_cant": "Comparisons with NaN are false, so every branch of every function is a place where NaN can vanish; tests use complete inputs.", "anchors": ["deltares_coastal_structures_toolbox/functions/structural", "deltares_coastal_structures_toolbox/functions/hydraulic", "deltares_coastal_structures_toolbox/functions/core_physics.py"]}
{"id": "C92", "title": "A worse situation never looks safer", "statement": "When the loads grow (higher or longer waves, longer storm) or the structure weakens (smaller or lighter armour, less cover, a stricter damage limit), all at the same time or one by one, the predicted damage and the required size never go down and the allowed wave height never goes up; where one of them really changes, the result changes too.", "quantifier": "the structural stability functions other than Van der Meer's (C26), all pairs of inputs ordered argument by argument", "why_tests_cant": "Tests compare single points with references; whether a formula with branches, rounding and several powers of the same argument is monotone everywhere, jointly in all its arguments, is a statement about all pairs of inputs.", "anchors": ["deltares_coastal_structures_toolbox/functions/structural/stability_toe_berm", "deltares_coastal_structures_toolbox/functions/structural/stability_concrete_armour", "deltares_coastal_structures_toolbox/functions/structural/stability_rock_armour", "deltares_coastal_structures_toolbox/functions/structural/stability_rock_rear"]}
{"id": "C93", "title": "The tables of concrete units fit the formulas beside them", "statement": "The stability coefficients a user reads from a concrete unit's `unit_properties` and passes on as KD are usable and consistent: a harder place (head instead of trunk, breaking instead of non-breaking waves, one layer instead of two) always gives a heavier unit and a lower allowed wave; the functions giving KD from the seabed slope stay within the table's values and never below the table's value for breaking waves; and a unit sized with the table's KD by Hudson weighs practically what the unit's own design function gives.", "quantifier": "all wave heights, masses, densities, slopes and factors; all seabed slopes; every entry of the tables", "why_tests_cant": "The tables are data no test reads; that a coefficient orders the results, or stays on the safe side of a graph, is a statement about all inputs of the formulas the coefficient goes into.", "anchors": ["deltares_coastal_structures_toolbox/functions/structural/stability_concrete_armour"]}
{"id": "C94", "title": "Design values are on the safe side of best-fit values", "statement": "Asking for design values (the default) instead of the best fit or mean never gives less overtopping, a lower required crest or less run-up: the design variant is, as documented, the more conservative one; and a positive number of standard deviations is not a safety margin: it is added to the coefficients and reduces the overtopping.", "quantifier": "all wave heights, periods, freeboards, discharges, slopes, berms, factors, gravities, numbers of standard deviations, user-supplied coefficients at least as cautious as the best fit; all combinations of options for which a number is returned", "why_tests_cant": "Tests compare single numbers for one variant; that one variant bounds the other for all inputs, and where it stops doing so, is an inequality between two runs for all inputs.", "anchors": ["deltares_coastal_structures_toolbox/functions/hydraulic/wave_overtopping/taw2002.py", "deltares_coastal_structures_toolbox/functions/hydraulic/wave_overtopping/eurotop2007.py", "deltares_coastal_structures_toolbox/functions/hydraulic/wave_overtopping/eurotop2018.py", "deltares_coastal_structures_toolbox/functions/hydraulic/wave_overtopping/vangent2025.py", "deltares_coastal_structures_toolbox/functions/hydraulic/wave_runup/taw2002.py", "deltares_coastal_structures_toolbox/functions/hydraulic/wave_runup/eurotop2018.py"]}
{"id": "C95", "title": "Small changes of the inputs make small changes of the result", "statement": "The results of the design formulas change continuously with all inputs together: arbitrarily small changes of wave height, period, slope, sizes, densities, factors and coefficients change the result arbitrarily little. In particular where a function switches between formulas (plunging to surging, breaking to non-breaking, clipping, angles up to 15, 45 or 80 degrees) both branches agree at the switch.", "quantifier": "all topological spaces of inputs, all continuous families of admissible inputs through it (hence all inputs jointly), all options", "why_tests_cant": "Tests sample single points on either side of a switch; agreement of the branches exactly at the switch, for every combination of the other inputs, and the absence of any other jump are statements about limits.", "anchors": ["deltares_coastal_structures_toolbox/functions/structural/stability_rock_armour/vandermeer1988.py", "deltares_coastal_structures_toolbox/functions/structural/stability_rock_armour/vandermeer1988_modified.py", "deltares_coastal_structures_toolbox/functions/structural/stability_rock_armour/etemadshahidi2020.py", "deltares_coastal_structures_toolbox/functions/structural/stability_rock_armour/jumelet2024.py", "deltares_coastal_structures_toolbox/functions/hydraulic/wave_overtopping/taw2002.py", "deltares_coastal_structures_toolbox/functions/hydraulic/wave_runup/taw2002.py", "deltares_coastal_structures_toolbox/functions/hydraulic/wave_transmission/briganti2003.py", "deltares_coastal_structures_toolbox/functions/hydraulic/wave_transmission/goda1967_caisson.py"]}
{"id": "C96", "title": "Design values are limits", "statement": "The value returned by a design function is exactly the limit: for a rock or unit size, every size at least as large keeps the damage within the allowed damage and every smaller size does not; for a wave height, every height up to it is within the allowed damage and every larger one is not; for a crest level, every crest at least as high overtops at most the allowed discharge and every lower one overtops more.", "quantifier": "all admissible inputs and options, all allowed damages or discharges, and for each of these all sizes, wave heights or crest levels compared with the returned one", "why_tests_cant": "A test can check that the returned value reproduces the allowed damage; that nothing smaller would do and that everything larger is safe is a statement about all other values of the design parameter, for every combination of inputs.", "anchors": ["deltares_coastal_structures_toolbox/functions/structural/stability_rock_armour/vandermeer1988.py", "deltares_coastal_structures_toolbox/functions/structural/stability_rock_armour/vandermeer2021.py", "deltares_coastal_structures_toolbox/functions/structural/stability_rock_armour/etemadshahidi2020.py", "deltares_coastal_structures_toolbox/functions/structural/stability_concrete_armour/cubes_double_layer_vandermeer1988.py", "deltares_coastal_structures_toolbox/functions/structural/stability_toe_berm/vandermeer1998.py", "deltares_coastal_structures_toolbox/functions/structural/stability_toe_berm/vangentvanderwerf2014.py", "deltares_coastal_structures_toolbox/functions/structural/stability_toe_berm/etemadshahidi2021.py", "deltares_coastal_structures_toolbox/functions/structural/stability_rock_rear/vangent2007.py", "deltares_coastal_structures_toolbox/functions/hydraulic/wave_overtopping/taw2002.py", "deltares_coastal_structures_toolbox/functions/hydraulic/wave_overtopping/eurotop2018.py", "deltares_coastal_structures_toolbox/functions/hydraulic/wave_overtopping/vangent2025.py"]}
{"id": "C97", "title": "Relative errors of the inputs are passed on with known powers", "statement": "Multiplying one input by a factor k of at least 1 multiplies the (positive) result by a factor between k^a and k^b, with powers a and b that depend on the formula and the input but not on the other inputs, whichever of the formula's branches the two calls fall in; where the formula is a single power law the factor is exactly k^a. So a relative error of an input is passed on to damage, size, wave height or run-up within known bounds, and no error is blown up at a transition between branches.", "quantifier": "all positive inputs, all factors k >= 1, all combinations of branches of the two calls", "why_tests_cant": "A test compares two calls for one factor and one setting of the other inputs; the bound has to hold for all factors, including those that carry the call over a transition from plunging to surging waves or from one run-up formula to another.", "anchors": ["deltares_coastal_structures_toolbox/functions/structural/stability_rock_armour/vandermeer1988.py", "deltares_coastal_structures_toolbox/functions/structural/stability_rock_armour/vandermeer2021.py", "deltares_coastal_structures_toolbox/functions/structural/stability_rock_armour/etemadshahidi2020.py", "deltares_coastal_structures_toolbox/functions/structural/stability_rock_armour/hudson1959.py", "deltares_coastal_structures_toolbox/functions/structural/stability_toe_berm/vangentvanderwerf2014.py", "deltares_coastal_structures_toolbox/functions/structural/stability_rock_rear/vangent2007.py"]}
{"id": "C98", "title": "Every result belongs to exactly one value of the input", "statement": "For the inputs that are designed or back-calculated (wave height, size, damage, number of waves, wave period): whatever positive result is asked for, there is exactly one positive value of the input for which the function returns it. So a measured damage identifies the wave height, and a required damage identifies the size, over all branches of the formula together.", "quantifier": "all admissible other inputs, all positive results", "why_tests_cant": "A round trip in a test shows that one value of the input gives the result; that no other value gives it, and that there is one for every result however large or small, is a statement about all values across all branches.", "anchors": ["deltares_coastal_structures_toolbox/functions/structural/stability_rock_armour/vandermeer1988.py", "deltares_coastal_structures_toolbox/functions/structural/stability_rock_armour/vandermeer1988_modified.py", "deltares_coastal_structures_toolbox/functions/structural/stability_rock_armour/vandermeer2021.py", "deltares_coastal_structures_toolbox/functions/structural/stability_rock_armour/scaravaglione2025.py", "deltares_coastal_structures_toolbox/functions/structural/stability_rock_armour/hudson1959.py", "deltares_coastal_structures_toolbox/functions/structural/stability_concrete_armour/xbloc.py", "deltares_coastal_structures_toolbox/functions/structural/stability_toe_berm/gerding1993.py", "deltares_coastal_structures_toolbox/functions/structural/stability_rock_rear/vangent2007.py"]}
{"id": "C99", "title": "Raising a higher crest pays at least as much", "statement": "Raising the higher of two crests by a given height reduces its overtopping discharge by at least the factor by which the same raise reduces the discharge over the lower crest, also where the governing formula changes between breaking and maximum discharge; for EurOtop (2007) rubble mounds and De Ridder et al. by exactly the same factor.", "quantifier": "all admissible inputs and options, all pairs of crest levels (from the water level, or from the swell correction, where the formula has an exponent), all raises", "why_tests_cant": "The claim compares four calls for every pair of levels and every raise; the interesting cases have the four calls on different sides of the change of formula.", "anchors": ["deltares_coastal_structures_toolbox/functions/hydraulic/wave_overtopping/taw2002.py", "deltares_coastal_structures_toolbox/functions/hydraulic/wave_overtopping/eurotop2007.py", "deltares_coastal_structures_toolbox/functions/hydraulic/wave_overtopping/eurotop2018.py", "deltares_coastal_structures_toolbox/functions/hydraulic/wave_overtopping/deridder2024.py", "deltares_coastal_structures_toolbox/functions/hydraulic/wave_overtopping/deridder2026.py", "deltares_coastal_structures_toolbox/functions/hydraulic/wave_overtopping/vangent2021_caisson.py", "deltares_coastal_structures_toolbox/functions/hydraulic/wave_overtopping/vangent2025.py"]}
{"id": "C100", "title": "What is built against overtopping does not increase it", "statement": "A higher crest wall, a wider berm, larger stones or a parapet, each with the influence factor that the library computes for it, never gives a larger overtopping discharge than without it (Van Gent et al. 2025, Van Gent 2021, TAW 2002), and less when the crest is above the water level.", "quantifier": "all wave conditions, slopes, crest levels, sizes of the feature and other influence factors; both design and mean values", "why_tests_cant": "The wall and the berm act twice, through the crest level and through a factor that may exceed one; whether the net effect has the right sign for all sizes is a statement about all pairs of calls.", "anchors": ["deltares_coastal_structures_toolbox/functions/hydraulic/wave_overtopping/vangent2025.py", "deltares_coastal_structures_toolbox/functions/hydraulic/wave_overtopping/vangent2021_caisson.py", "deltares_coastal_structures_toolbox/functions/hydraulic/wave_overtopping/taw2002.py"]}
{"id": "C101", "title": "Very high crests stay dry and very small waves do not overtop", "statement": "However small the allowed discharge, all crests from some level on overtop less; over a crest at or above the water level no discharge exceeds the leading coefficient of the formula times sqrt(g Hm0^3), so that the discharge goes to zero with the wave height.", "quantifier": "all allowed discharges, all crest levels or wave heights beyond some bound, all values of the other inputs", "why_tests_cant": "Limits are statements about all small or large inputs; a wrong sign, a wind factor that grows faster than the discharge falls, or a level that is not reduced by the swell shows only beyond any tested input.", "anchors": ["deltares_coastal_structures_toolbox/functions/hydraulic/wave_overtopping/taw2002.py", "deltares_coastal_structures_toolbox/functions/hydraulic/wave_overtopping/eurotop2007.py", "deltares_coastal_structures_toolbox/functions/hydraulic/wave_overtopping/eurotop2018.py", "deltares_coastal_structures_toolbox/functions/hydraulic/wave_overtopping/deridder2024.py", "deltares_coastal_structures_toolbox/functions/hydraulic/wave_overtopping/deridder2026.py", "deltares_coastal_structures_toolbox/functions/hydraulic/wave_overtopping/vangent2021_caisson.py", "deltares_coastal_structures_toolbox/functions/hydraulic/wave_overtopping/vangent2025.py"]}
{"id": "C102", "title": "Impossible results come with a warning", "statement": "Where a formula gives a size, height, depth, damage or run-up level that is zero or negative, the call gives at least one warning; silence means that the result is physically possible.", "quantifier": "all values of all inputs, missing values included, with a positive length that the checked ratio is built from", "why_tests_cant": "That no input gives an impossible result in silence is a statement about all inputs and all branches of the function together with its validity checks; the counterexamples lie in corners that tests do not visit.", "anchors": ["deltares_coastal_structures_toolbox/functions/structural/stability_toe_berm/gerding1993.py", "deltares_coastal_structures_toolbox/functions/structural/stability_toe_berm/vandermeer1998.py", "deltares_coastal_structures_toolbox/functions/structural/stability_rock_rear/vangent2007.py", "deltares_coastal_structures_toolbox/functions/structural/stability_rock_rear/vangentpozueta2004.py", "deltares_coastal_structures_toolbox/functions/structural/stability_rock_armour/scaravaglione2025.py", "deltares_coastal_structures_toolbox/functions/structural/stability_rock_armour/kramerburcharth2004_lowcrested.py", "deltares_coastal_structures_toolbox/functions/hydraulic/wave_runup/taw2002.py", "deltares_coastal_structures_toolbox/functions/hydraulic/wave_runup/eurotop2018.py", "deltares_coastal_structures_toolbox/functions/structural/forces_crestwall/vangentvanderwerf2019.py"]}
{"id": "C103", "title": "A result that is not a number comes with a warning", "statement": "Where a formula has no finite value for the given finite inputs, so that the function returns NaN or infinity, the call gives at least one warning; silence means that the result is a finite number.", "quantifier": "all finite inputs with the physical positivity of wave height, period, densities and slopes", "why_tests_cant": "Whether NaN can pass in silence depends on the whole set of inputs for which no check fires; NaN also switches off the checks on the result itself. Tests only visit inputs with a finite result.", "anchors": ["deltares_coastal_structures_toolbox/functions/structural/stability_concrete_armour/cubes_double_layer_vandermeer1988.py", "deltares_coastal_structures_toolbox/functions/structural/stability_toe_berm/etemadshahidi2021.py", "deltares_coastal_structures_toolbox/functions/structural/stability_toe_berm/vandermeer1998.py", "deltares_coastal_structures_toolbox/functions/structural/stability_toe_berm/takahashi1990_caisson.py", "deltares_coastal_structures_toolbox/functions/structural/stability_rock_rear/vangent2007.py", "deltares_coastal_structures_toolbox/functions/structural/stability_rock_rear/vangentpozueta2004.py", "deltares_coastal_structures_toolbox/functions/hydraulic/wave_transmission/vangent2024_setup.py"]}
{"id": "C104", "title": "The crest level with wind agrees with its own wind factor", "statement": "By Van Gent et al. (2025) the wind factor depends on the crest level that is asked for. There is exactly one level above the armour crest at which the formula for breaking waves times the wind factor of that level gives the required discharge. The returned level never lies above it (or above the level of the maximum formula, if that is lower), and is as close to it as the number of passes and the tolerance allow, with the error shrinking geometrically.", "quantifier": "all wave heights, periods, slopes, swell, positive influence factors and discharges for which the armour crest lies below the level needed without wind; mean-value and design calculations; every iteration limit and tolerance", "why_tests_cant": "A test can compare one result with a stored number. That the fixed point is unique and that the iteration reaches it from below for every input is a statement about a whole family of concave maps and about all iteration counts.", "anchors": ["deltares_coastal_structures_toolbox/functions/hydraulic/wave_overtopping/vangent2025.py"]}
{"id": "C105", "title": "A wider berm never gives more run-up", "statement": "For a structure with two slopes and a berm in between, widening the berm never raises the run-up height returned, up to the tolerance of the iteration (0.2 mm).", "quantifier": "all wave heights and periods, slopes, berm depths, pairs of berm widths, roughness and obliqueness factors", "why_tests_cant": "The berm width changes the berm factor and, through the run-up level, the average slope; the two effects can oppose each other, and each result comes from an iteration with its own number of passes. A test compares one pair of berms.", "anchors": ["deltares_coastal_structures_toolbox/functions/hydraulic/wave_runup/taw2002.py", "deltares_coastal_structures_toolbox/functions/hydraulic/wave_runup/eurotop2018.py"]}
{"id": "C106", "title": "Only the slope within reach of the waves counts", "statement": "For a structure with two slopes and no berm, the run-up follows from the slope between 1.5 Hm0 below the water line and the run-up level. Where the slopes meet at or below the lower end of that zone, the run-up is that of the straight upper slope; where they meet above the run-up level, it is that of the straight lower slope.", "quantifier": "all wave heights and periods, pairs of slopes, levels of the transition, roughness and obliqueness factors", "why_tests_cant": "The error only shows for transitions outside the zone and grows with the distance; a test with a transition inside the zone, or at its end, passes. Whether any structure is affected needs a statement about all levels, and the result comes from an iteration.", "anchors": ["deltares_coastal_structures_toolbox/functions/hydraulic/wave_runup/taw2002.py", "deltares_coastal_structures_toolbox/functions/hydraulic/wave_runup/eurotop2018.py"]}
{"id": "C107", "title": "A berm out of reach of the waves changes nothing", "statement": "In a straight slope, a berm that lies 2 Hm0 or more below the water line, or at or above the run-up level of the slope without a berm, changes neither the run-up height nor the overtopping discharge, whatever its width.", "quantifier": "all wave heights and periods, slopes with Iribarren numbers from 0.5 on, roughness and obliqueness factors, berm widths and levels; run-up by TAW (2002) and EurOtop (2018), overtopping by TAW (2002)", "why_tests_cant": "The berm factor and the run-up level depend on each other and are found in an iteration; that the iteration leaves the factor at exactly 1 for every berm out of reach, and not only for the berm of one test, is a statement about all levels and widths.", "anchors": ["deltares_coastal_structures_toolbox/functions/hydraulic/wave_runup/taw2002.py", "deltares_coastal_structures_toolbox/functions/hydraulic/wave_runup/eurotop2018.py", "deltares_coastal_structures_toolbox/functions/hydraulic/wave_overtopping/taw2002.py"]}
