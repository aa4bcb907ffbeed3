{
"C08": {"status": "partial", "note": "Proved for every damage percentage below 100 and every known rock type; at 100 % (documented as allowed) the lookup raises IndexError: C08_hundred_percent_refuted."},
"C100": {"status": "partial", "note": "Proved: higher walls on slopes up to 1:8.9, larger stones and stones instead of a smooth slope (Van Gent et al. 2025), parapets on caissons (Van Gent 2021), walls on dikes (TAW 2002). False, proved as refutations: Van Gent et al. (2025) berms in long waves (steepness below 0.34^5 (Ac - db)/Ac) and berms with a negative berm factor, both also within the range of validity without a warning; low walls on slopes gentler than 1:8.9. Berms of any width at any level in a straight slope never give more run-up (TAW 2002, EurOtop 2018) or overtopping (TAW 2002) than no berm, on smooth slopes or Iribarren numbers below 1.8. Missing: wind (see C80), overtopping by EurOtop (2018) with computed berm factors."},
"C101": {"status": "partial", "note": "Proved: all discharges over rising crests go to zero, with every option for which TAW (2002) and EurOtop (2018) return a discharge, and for EurOtop (2007), De Ridder et al. (2024, 2026), caissons, and Van Gent et al. (2025) with and without wind; the ceilings for crests at or above the water level (raised by the swell or infragravity part); very small waves then do not overtop. False, proved as a refutation: over a crest between the water level and the infragravity part (or below the water level), De Ridder et al. (2024, 2026) give the smallest waves the largest discharge, without bound."},
"C102": {"status": "partial", "note": "Proved for toe stability (Gerding 1993: size and depth; Van der Meer 1998: size, height and depth), rear slopes (damage, size and wave height by Van Gent 2007 and Van Gent & Pozueta 2004), Scaravaglione et al. (2025) sizes, and run-up by TAW (2002) and EurOtop (2018) with the coefficients of the code, composite slopes and berms included. Refuted for sizes by Kramer & Burcharth (2004) and crest wall forces in oblique waves, which can be negative without a warning. Sizes by Takahashi et al. (1990) are zero without a warning for toes half a wave length wide. Functions whose result is positive for positive inputs are covered by C78."},
"C103": {"status": "partial", "note": "Proved for EurOtop (2018) rubble mounds with the crest at or above the water, Jumelet et al. damage and size, wave set-up by Van Gent et al. (2024), Van Gent & Pozueta (2004) size and damage, Van Gent (2007) damage for every crest and crest element, Van Gent (2007) sizes with the rear crest element below the crest, and crest wall forces by Van Gent & Van der Werf (2019) with the armour crest above the water unless the run-up of oblique waves ends exactly at the reference level. Refuted for cube damage, Etemad-Shahidi et al. (2021) damage, Van der Meer (1998) depth, Van Gent (2007) sizes with the rear crest element above the crest, EurOtop (2018) rubble mounds with the crest under water (discharge) or discharges beyond the maximum (freeboard), Van Gent et al. (2025) crest levels with wind for high armour crests, Takahashi et al. (1990) stability numbers, crest wall forces of oblique waves that run up exactly to the reference level, and the vertical force with base and armour crest at the water line, with results NaN or infinite in silence. NumPy numbers; plain Python floats give a complex number where the power of a negative number is taken with **. Functions whose result is a positive number for positive inputs are covered by C78; other functions are not covered."},
"C104": {"status": "proved", "note": "Gravity 9.81, influence factors given, armour crest below the level needed without wind. C103_vangent2025_wind_refuted shows that an armour crest far above that level gives NaN; C54_wind_refuted that the discharge function takes the wind factor at another discharge."},
"C105": {"status": "partial", "note": "Proved for berms from the water line to 1.5 Hm0 below it, slopes at most a factor four apart, roughness that does not depend on the Iribarren number, up to the 0.2 mm left by the iteration. Missing: berms above the water line, rough slopes with Iribarren numbers from 1.8 on, Iribarren numbers below 0.5."},
"C106": {"status": "partial", "note": "Holds where the slopes meet exactly at 1.5 Hm0 below the water line (C106_*_at_limit, any roughness, TAW (2002) and EurOtop (2018)). False elsewhere outside the zone, proved for all inputs with an average slope that stays positive: the slope out of reach is counted with a negative length, so a steep slope far below the water (or a steep upper slope the waves never reach) lowers the run-up, a gentle one raises it (C106_*_refuted; the two cases above the run-up level for TAW (2002))."},
"C107": {"status": "proved", "note": "Run-up by TAW (2002) and EurOtop (2018) and overtopping by TAW (2002), any roughness, Iribarren numbers from 0.5 on. The slope above and below the berm is the same; with two slopes see C106."},
"C14": {"status": "partial", "note": "The stated conservative reading is false in the code for the Xbloc structure slope (1:1.33 gets 1.25): C14_structure_slope_refuted. The part that holds is C14_structure_slope_partial."},
"C18": {"status": "proved", "note": "For the default gravity 9.81. C18_other_gravity_refuted shows the inverse fails for any other gravity on slopes of 1:4 or gentler because the damage function has no gravity argument."},
"C20": {"status": "proved", "note": "C20_agrees_with_modified: agreement when the ratio is absorbed in the coefficients; the published default coefficients do not correspond to one common ratio (C20_defaults_differ)."},
"C21": {"status": "partial", "note": "Wave height -> damage -> wave height exact for all inputs; damage -> wave height -> damage exact for every attainable level; for the levels skipped by the 2.3 % jump at the regime boundary only C21_damage_of_height_partial holds (C21_gap_refuted). Water density: only 1025 (C21_water_density_refuted)."},
"C22": {"status": "proved", "note": "Water density 1025, the value fixed inside the size function."},
"C23": {"status": "partial", "note": "Proved for water of 1025 kg/m3. The size function fixes that density internally, and for every other density the inverse fails: C23_water_density_refuted."},
"C24": {"status": "proved", "note": "Wave height inverse for the default gravity 9.81 (the damage function has no gravity argument)."},
"C25": {"status": "partial", "note": "Settled and converging iterations proved. The last sentence of the property is false in the code: C25_silent_nonconvergence_refuted gives an input where no size is a solution and a negative size is returned without warning."},
"C26": {"status": "proved", "note": "Stronger than stated: across regimes, not only within one."},
"C27": {"status": "proved", "note": "For positive strength 1.6 Dn50 + 0.24 ht; a non-positive designed size is always accompanied by a warning."},
"C28": {"status": "proved", "note": "The depth solver returns NaN exactly when no toe depth has the requested damage."},
"C29": {"status": "partial", "note": "False in the code: the size formula uses 0.32 where the damage formula has 0.032 = 0.3175^3, so the round trip scales damage by 0.9765625 (C29_inverse_refuted), and user coefficients are not passed on. Exact inverse only for c1 = 0.32^3."},
"C30": {"status": "proved", "note": "For all coefficients with c1 >= 0, c2 > 0, c5 nonzero, 1 - c7 m > 0."},
"C31": {"status": "partial", "note": "Terminates for all inputs when |c4 - c6| < 1 (defaults: 0.27), with an a posteriori error bound. The iteration limit is never used (n_iter is not incremented): C31_within_limit_refuted exhibits a call with limit 1 that never returns."},
"C32": {"status": "proved", "note": "For every dispersion solver."},
"C33": {"status": "partial", "note": "Run-up level and damage are exact inverses. Damage and rock size are not: the published constants 0.00025 and 0.036 do not match, so a round trip multiplies the damage by a fixed factor between 1.016 and 1.017 (C33_size_damage_partial, C33_size_damage_refuted)."},
"C37": {"status": "partial", "note": "Balance and continuity proved for a resultant within 2/3 of the (reduced) base from the heel; beyond that the returned pressure is negative (C37_beyond_refuted)."},
"C38": {"status": "partial", "note": "Perpendicular forces proved. Oblique forces become negative for large angles (C38_horizontal_negative_refuted), are NaN when the run-up equals the crest level (C38_runup_at_crest_refuted), and the vertical force can be positive without wave load (C38_vertical_spurious)."},
"C39": {"status": "proved", "note": "Permeable and impermeable; strict monotonicity whenever no range warning on Kt is issued."},
"C40": {"status": "proved", "note": ""},
"C41": {"status": "partial", "note": "False at the upper transition: the coefficient drops to 0 there and jumps up to 0.03 (C41_jump_refuted); a NaN freeboard gives 0.03 (C41_nan)."},
"C42": {"status": "partial", "note": "Bounds, strict monotonicity and the ValueError proved for every dispersion solver. The validity check is never called, so nothing is reported (C42_never_warns_refuted)."},
"C43": {"status": "proved", "note": "Statement corrected after reading the code: set-up increases with the crest level."},
"C45": {"status": "proved", "note": "Berm factor never outside [0.6,1] for any argument values including NaN/inf; monotone in berm width; obliqueness factor symmetric, non-increasing, constant from 80 degrees, for the TAW and EurOtop coefficients."},
"C46": {"status": "proved", "note": "Single slope: closed form, flag exactly when the maximum governs, monotone in wave length and steepness of slope. Composite slope: equals the single-slope result at the iterated average slope and berm factor."},
"C47": {"status": "partial", "note": "Proved: the levels form a chain of run-up evaluations, and the loop stops on the tolerance or at the limit. The limit itself is exceeded by one pass (C47_one_too_many_refuted): max_iter = 0 still makes one pass."},
"C48": {"status": "partial", "note": "False in the code: gamma_beta alone raises ValueError and is ignored when beta is also given (refutation theorems for all inputs). Proved: the factor of the angle is used."},
"C49": {"status": "partial", "note": "Proved in both directions for gravity 9.81 and every option combination (single/composite slope, berm, angle or factor, best fit with standard deviations). False for other gravity: the maximum formula of the freeboard always uses 9.81 (C49_other_gravity_refuted)."},
"C50": {"status": "proved", "note": "TAW 2002, EurOtop 2007, EurOtop 2018 and EurOtop 2018 rubble mound, any gravity, whenever the lower crest returns a number (rubble mound with best fit: single slope)."},
"C51": {"status": "partial", "note": "Proved in both directions at gravity 9.81 for every freeboard, slope, period, angle and coefficient argument. False for every other gravity: the freeboard function has no gravity argument (C51_other_gravity_refuted)."},
"C52": {"status": "partial", "note": "Proved for smooth slopes (any slope description), for rough straight slopes outside the breaker range where the roughness correction acts, and for rubble mounds. False for rough slopes inside that range (C52_rough_slope_refuted: the discharge limit uses the given factor, the freeboard limit the corrected one) and the berm factor argument is ignored (C52_berm_factor_ignored_refuted). With best-fit coefficients on a structure with two slopes C52_composite_best_fit_refuted shows that the crest level returned is too low: the freeboard function hands design coefficients to the run-up iteration."},
"C53": {"status": "partial", "note": "Inverse proved for exponent 1 (all options, any crest) and exponent 1.3 (crest at or above the swell correction, discharge up to the limit value). Refuted: with exponent 1.3 a crest below the swell correction gives NaN; without crossing seas the omitted swell height makes every result NaN (0 * NaN)."},
"C54": {"status": "partial", "note": "Inverse proved at gravity 9.81 without wind: mean-value calculation in full, design calculation where the exponential formula governs. Refuted: design calculation where the maximum governs; any other gravity (freeboard function has no gravity argument); omitted crest-wall factor gives NaN. With wind: the crest returned overtops more than the required discharge whenever it has a wall (C54_wind_refuted)."},
"C55": {"status": "partial", "note": "Equation 26 inverse for any gravity; equation 24 inverse at 9.81 only. Refuted for other gravity with equation 24: the freeboard function accepts g but computes with 9.81."},
"C56": {"status": "proved", "note": "Both equations, any gravity, any direction; default arguments too."},
"C58": {"status": "partial", "note": "Proved for Iribarren numbers up to 10. Beyond 10 false in the code: exceeds 1, or drops back to gamma_f (refutation theorems)."},
"C59": {"status": "partial", "note": "With an array of angles every record is written under its documented column (both writers, any number of records, single numbers broadcast); single float numbers give one record. Refuted: an integer angle or a single angle next to arrays raises ValueError (neural network: after leaving a file without records); a NaN is written as nothing, so a blank-separated reader sees the later values shifted. Not modelled: the decimal text of a float (a parameter that contains no separator)."},
"C60": {"status": "partial", "note": "For each calculation the warnings are shown to be exactly those about listed quantities outside listed ranges. Theorems named _partial give the exact list where some published limits are never looked at because the caller does not hand the quantity over (steepness of Van der Meer 1988 / rear slope / De Ridder, most of Etemad-Shahidi 2021, berm width of Goda, Van Gent 2025 and De Ridder 2024 with units). Theorems named _refuted prove the failures: Van der Meer 2021 warns for every input about the ratio H2%/Hs that its user never gives; Van Gent 2023 never warns; the De Ridder 2026 freeboards and the toe wave height of Etemad-Shahidi 2021 are never checked; the toe formula of Van der Meer 1998 always warns for stones below 0.49 m although its criterion is met; Van Gent 2025 reports a berm out of range for every structure without a berm. Missing: composite slopes (TAW iterations repeat warnings about intermediate estimates)."},
"C61": {"status": "partial", "note": "There is exactly one solution (C61_one_solution); a returned height is within c * 0.5 mm of it with c given explicitly, within 1 mm if no precision warning is given, and no warning is given for c < 1 (C61_near_solution); a height is returned whenever the stability number at the smallest height exceeds the solution by 0.18 (C61_returns). But where the 1.8 floor governs the search table is empty and the call raises ValueError (C61_fails_at_floor, C61_always_returns_refuted)."},
"C62": {"status": "partial", "note": "Proved: the returned depth is the first crossing on the search grid (C62_first_crossing), and the search ends whenever the first stability number is not above Hs/(Delta Dn50) (C62_terminates_partial). Termination in general is false: for Hs/(Delta Dn50) < 1.8 the search never ends (C62_terminates_refuted)."},
"C63": {"status": "proved", "note": "Holds for every positive crest-element recess Rc2_front; for Rc2_front = 0, inside the documented range, the solver returns NaN (C63_no_crest_element_refuted); with max_iterations = 0 it raises UnboundLocalError (C63_no_iterations)."},
"C64": {"status": "partial", "note": "Holds with the significant wave height; with the spectral wave height the user's coefficients are overwritten (C64_coefficients_ignored_refuted)."},
"C65": {"status": "partial", "note": "The claim is false in the code; the theorem proves its negation for every configuration with the run-up below the crest."},
"C66": {"status": "partial", "note": "Exactly one solution for every crest width (C66_one_solution). Convergence to it, with error bounds, for crests with Bc*gamma_f <= 0.75*Rc; for every crest width C66_settled bounds the error of a result returned without the convergence warning. Convergence is false for wide crests: C66_wide_crest_refuted gives a structure for which the iteration alternates between 0.5 m and 2 m for ever. Not settled: crests in between."},
"C70": {"status": "proved", "note": "Balance for a weight resultant within 2/3 of the base (beyond that see C37_beyond_refuted)."},
"C71": {"status": "proved", "note": "The flag and the warning agree; gaps in the documented set are C71_boundary_gap and C71_default_steepness."},
"C72": {"status": "partial", "note": "Horizontal proved; vertical holds for steepness up to 0.05875 and is refuted above (C72_vertical_refuted)."},
"C73": {"status": "partial", "note": "Holds for freeboards above -1.8 Hsi; refuted at -2.5 Hsi (C73_width_refuted)."},
"C74": {"status": "partial", "note": "Proved for TAW 2002 overtopping. False for run-up (TAW 2002 and EurOtop 2018): ValueError for all inputs without gamma_b on a single slope."},
"C75": {"status": "proved", "note": "For TAW 2002 run-up and overtopping, Iribarren number above 0.15 (the published range starts at 0.4/0.5)."},
"C76": {"status": "proved", "note": ""},
"C77": {"status": "proved", "note": ""},
"C78": {"status": "partial", "note": "The returned numbers satisfy the published dimensionless relation, written down separately in SpecFormula.lean. Covered: Van der Meer 1988, modified and 2021; Hudson; concrete units; toes; rear slopes; remaining armour formulas; wave transmission, set-up, obliqueness; run-up and overtopping by TAW (2002), EurOtop (2007), EurOtop (2018), De Ridder et al., Van Gent (caissons) and Van Gent et al. (2025); Takahashi caisson toes; Goda pressures and safety factors; Van Gent and Van der Werf crest-wall forces. Partial: roughness above an Iribarren number of 10 and with berms (see C58); EurOtop (2007) rubble mounds use the run-up obliqueness factor (refuted); oblique crest-wall forces only where the published force is positive (see C38); crest levels only where the result is not cut off."},
"C79": {"status": "partial", "note": "Every validity check, called directly with all its arguments as numbers, reports exactly the published quantities outside the published limits and no others. Partial: the Van der Meer (1998) toe check groups Hs/Delta*Dn50 differently from the stability number; the Van Gent (2025) check looks at the freeboard under the label of the armour width; the Etemad-Shahidi (2021) check raises an error as soon as wave height and period are both given (refuted)."},
"C80": {"status": "partial", "note": "Worse conditions: higher or longer waves, steeper or smoother slope, less reduction (berm factor included), lower crest. Proved for TAW (2002) run-up, discharge and crest level, EurOtop 2018 run-up and discharge, EurOtop 2007/2018 rubble mounds, Van Gent (2021, 2025) and De Ridder et al. (2024, 2026). The methods with a roughness adjustment only where that is the published one: smooth slopes, breaker parameter below 1.8, or no berm and Iribarren number up to 10. Beyond 10 the claim is false on rough slopes (C80_longer_waves_refuted), and with a berm it is false at breaker parameter 1.8 (C80_higher_waves_berm_refuted). Run-up from Iribarren number 0.5 on. Van Gent et al. (2025) with wind: proved as long as the discharge without wind is not too small; for smaller discharges a wall on the armour crest overtops more than no wall, on every slope (C80_vangent2025_wind_refuted)."},
"C81": {"status": "proved", "note": "One theorem per source file, covering every function with optional arguments except the two writers of network input files; values taken from the signatures in the source."},
"C82": {"status": "partial", "note": "Complete for all functions of the theorems without suffix. The tolerances of iterations are lengths and scale with the rest. Partial: for run-up and overtopping of TAW (2002) and EurOtop (2018) slopes that are not composite (composite slopes iterate to an absolute 1e-4 m: run-up there follows the scale up to 0.1 to 0.3 mm in model and prototype, C82_composite_*, under the conditions of C89; the parts of that computation are in C82_runup_taw2002_parts; overtopping of composite slopes is not covered); results and errors without the warnings for cubes of Van der Meer (1988), toes of Van der Meer (1998), Takahashi (1990) and the reactions of Goda (1985), whose checks are on metres and seconds. The toe wave height of Etemad-Shahidi (2021) (tolerance 1 mm) and the wave height of Van Gent and Pozueta (2004) (start value 0.5 m, crests with Bc gamma_f up to 0.75 Rc) follow the scale up to what the tolerances leave. So does the wave height of Takahashi (1990), up to what its search step of 0.5 mm leaves. Refuted for the toe depth of Takahashi (1990), searched in steps of 1 mm. The dispersion solver is a parameter, assumed to follow the scale where it is used."},
"C83": {"status": "partial", "note": "Proved for every calculation function that works on arrays, with every mixture of arrays and numbers for which the code does not raise (theorems named _partial restrict which arguments may be arrays; 'Uniform' says an optional argument is given for all cases or for none). The full claim is false in the code: C83_refuted_wavelength, C83_refuted_goda, C83_first_period_only, C83_goda_whole_numbers, C83_berm_factor_raises, C83_xbloc_raises, C83_hudson_damage_raises, C83_eurotop_array_of_periods_raises, C83_refuted_gravity_levels. Both searches of Takahashi raise for arrays of anything but periods, and use the first period only: C83_takahashi_depth_raises, C83_takahashi_height_raises, C83_takahashi_depth_first_period, C83_takahashi_height_first_period. Composite slopes (TAW, EurOtop 2018) raise for every array of wave heights, slopes, berm widths or levels: C83_composite_*_raises."},
"C84": {"status": "partial", "note": "Proved for the iterations of Kramer & Burcharth (size, freeboard), Jumelet, Van Gent (2007) and Van Gent & Pozueta rear slope, and Etemad-Shahidi (2020); for Van Gent (2025) crest levels with wind, that all cases get the same number of passes. A case without result ends the iteration of all cases: C84_missing_case_stops_all, C84_refuted_missing_case. An array of armour crest levels alone raises with wind: C84_wall_levels_raise, C84_wall_levels_refuted. Etemad-Shahidi (2021) toe wave height: the call ends and every case gets a height within the error bound of its own solution (coefficients with |c4 - c6| < 1)."},
"C85": {"status": "partial", "note": "No false alarm: proved for every function of C83. All warnings of the single cases: proved for every check function, and for every calculation function whose checks look at its arguments; where a check looks at a computed value only the first half is proved. One missing case silences the check of all cases: C85_missing_case_silences_all, C85_refuted_missing_case."},
"C86": {"status": "partial", "note": "Proved for both Kramer & Burcharth solvers, Jumelet et al., both rear slope wave heights and Etemad-Shahidi et al. (2020). Partial: Van Gent et al. (2025) with wind, where the returned estimates are cut off. The wave height of Etemad-Shahidi et al. (2021) ignores its limit (see C31)."},
"C87": {"status": "partial", "note": "Refuted for the wave height of Jumelet (np.power(Tmm10, -2) raises ValueError for every int period) and for the local wave length at several depths with one int period (TypeError). Only these two places, found by reading all uses of np.power with negative whole exponents and of isinstance, are modelled with ints; the other functions are modelled with floats only."},
"C88": {"status": "partial", "note": "Proved for run-up and overtopping by TAW (2002) and EurOtop (2018), any coefficients, transition anywhere between the water line and 1.5 Hm0 below it. Also with a berm there (C88_*_berm_partial; run-up by both, overtopping by TAW (2002)), between the straight slopes with the published berm factor, on smooth slopes or breaker parameters below 1.8. Missing: berms above the water line, overtopping by EurOtop (2018) with a berm, Iribarren numbers below 0.5 at the flatter slope, and rough slopes with Iribarren numbers above 10 (where the roughness correction jumps, see C58 and C80)."},
"C89": {"status": "partial", "note": "Proved for TAW (2002) and EurOtop (2018) without berm width: exactly one self-consistent level, and the returned run-up is within 0.3 mm of it (0.1 mm where the roughness does not depend on the Iribarren number), also when all passes are used up. Also with a berm at or below the water line where the roughness does not depend on the Iribarren number (C89_*_berm_partial). Missing: berms above the water line, berms on rough slopes, slopes more than a factor four apart, Iribarren numbers below 0.5 at the flatter slope, rough slopes with Iribarren numbers above 10."},
"C90": {"status": "proved", "note": "All 20 functions (parameter-range checks included) with a choice between diameter and mass (Van der Meer, Etemad-Shahidi 2020, Jumelet, Scaravaglione, Kramer & Burcharth, both rear-slope formulas), for armour, rear-side and core rock: a mass \u03c1D\u00b3 gives the result of the diameter D including the warnings, 2650 kg/m\u00b3 without density, a mass next to a diameter is not read, and neither gives a ValueError."},
"C91": {"status": "partial", "note": "For every scalar formula function and every argument it needs, NaN in gives NaN or an exception out (C91_<module>_<function>), and the arguments a result does not depend on are identified (C91_..._unused). The full claim is false in the code: Goda (1967) coefficients, Xbloc factors, the storm duration factor and the plunging coefficient of Van der Meer, and the wave period of the EurOtop (2007) rubble mound formula turn NaN into a number (C91_..._swallowed), a missing tolerance returns the initial guess in Kramer & Burcharth, and the Takahashi search never ends (C91_Takahashi1990_depth_search_hangs). Arguments that have an alternative (Dn50/M50, gamma_beta/beta and the like) are covered only where the alternative is missing too; exponents must be non-zero reals; EurOtop (2018) rubble mound and the berm slope functions only in part."},
"C92": {"status": "partial", "note": "Proved jointly in all arguments, strict where one changes, for toes (Gerding, Van der Meer 1998, Van Gent & Van der Werf, Etemad-Shahidi 2021, Takahashi), concrete units (all Hudson units, XblocPlus, cubes), Etemad-Shahidi 2020 (period and slope fixed), Scaravaglione 2025, Van Gent & Pozueta 2004 and the horizontal crest wall force. Proved under a condition, and refuted without it, for Jumelet 2024 (the number of plunging waves is rounded: a higher wave can do less damage), Kramer & Burcharth (crests above 1.9 stone sizes), Van Gent 2007 (run-up below the crest: damage falls as waves grow; crests below a fifth of the run-up; a gentler rear slope is more damaged, contrary to Van Gent & Pozueta) and the vertical crest wall force (lower armour crest). Refuted for the period in Etemad-Shahidi 2020 (jump at xi = 1.8). Results of iterations (Etemad-Shahidi 2020 size, Etemad-Shahidi 2021 wave height, rear slope wave heights): the exact solution is ordered, the returned numbers up to the error left by the tolerance (Van Gent 2007 with the crest level unchanged, Van Gent & Pozueta for crests up to 0.75 Rc/gamma_f; Kramer & Burcharth size and crest level where the iteration settles, for crests from 4.7 stone sizes below to 1.9 above the water). Takahashi wave heights: the exact solution is ordered, the heights found by the search up to its grid (2 mm without the precision warning). Takahashi depths: ordered up to one step of the search where larger depths are not less safe. Jumelet wave heights: ordered where the rounded number of plunging waves of the last pass does not go down."},
"C93": {"status": "partial", "note": "Proved: in every table a harder place has a number that gives a larger unit and a lower wave; the functions for non-breaking waves return the table's entry; the Accropode II graph runs between the table's lowest and highest coefficient and reaches both; Xbloc and XblocPlus weigh what Hudson gives with the table's coefficient up to 0.13 % and 2.2 %; both modules for double-layer cubes agree. Refuted for one entry: the Accropode coefficient 12 for breaking waves is on the safe side of the graph only for seabed slopes up to 1 + 12/5.3 = 3.26 %. The head entry of cubes under breaking waves is None and raises a TypeError."},
"C94": {"status": "partial", "note": "Proved where true, for every combination of options that returns a number: TAW (2002) discharge for crests at or above the water level and required levels at or above it; EurOtop (2007); EurOtop (2018) discharge on single slopes and required levels on any slope, dikes and rubble mounds; run-up from breaker parameter 1/9 (TAW) or about 0.031 (EurOtop 2018) on; Van Gent (2025) discharges up to sqrt(g Hm0^3) and levels without wind; Van Gent (2025) levels with wind up to what the iteration leaves, for armour crests that alone let more than the required discharge pass. Refuted: crests below the water level (TAW 2002, EurOtop 2007), run-up at smaller breaker parameters, Van Gent discharges above sqrt(g Hm0^3), Van Gent levels governed by the maximum formula (design adds nothing). Also proved: positive sigma is the unsafe side. Run-up on composite slopes with a berm at or below the water line (TAW 2002, EurOtop 2018): design not lower up to the 0.2 mm of the iteration and higher from 6 mm on, on slopes of constant roughness within a factor four, Iribarren numbers from 0.5 on. EurOtop (2018) discharge on composite slopes without a berm: dikes in breaking waves (Iribarren numbers 0.5 to 1.7), rubble mounds of constant roughness, although the average slope differs between the variants. Missing: EurOtop (2018) discharge on composite slopes with berms or other Iribarren numbers, and run-up with berms above the water line."},
"C95": {"status": "partial", "note": "Every formula function with a closed form is continuous in all its inputs together, or the place where it jumps is proved and continuity is proved away from it. False, and refuted, for: Van der Meer (1988) at 5000 waves and, with the modified formula, at slopes of 1:4 for surging waves; Etemad-Shahidi et al. (2020) at Iribarren number 1.8 (damage) and at the damage of plunging waves there (wave height, C95_etemad2020_height_*); Jumelet et al. (2024), damage and size, where the number of waves is rounded to another number (C95_jumelet_*); Briganti et al. (2003) at a crest of ten wave heights; Goda (1967) at the upper end of the transition; TAW (2002) run-up and discharge on rough slopes at Iribarren number 10 and, with a berm, at 1.8; the crest wall factor of TAW (2002) at 45 degrees; the obliqueness factor of EurOtop (2018) at roughness 0.6; the forces on crest walls in oblique waves where the run-up reaches the armour crest (no number there would connect both sides). The wave height of Takahashi (1990) is continuous in stone size and densities up to 2 mm left by its search (C95_takahashi_height_partial). Run-up on composite slopes by TAW (2002) and EurOtop (2018) stays within 0.1 to 0.3 mm of a level that changes continuously with all inputs together, under the conditions of C89 (C95_composite_*; for EurOtop (2018) with the roughness on one side of 0.6). So do the stone size of Etemad-Shahidi et al. (2020) away from Iribarren number 1.8 (C95_etemad2020_size_partial) and the iterated wave heights of Etemad-Shahidi et al. (2021), Van Gent & Pozueta (2004) and Van Gent (2007), up to what their tolerances leave (C95_etemad_toe_height_partial, C95_rear_pozueta_height_partial, C95_rear2007_height_partial). Missing: other results of iterations (overtopping on composite slopes, Jumelet height, Takahashi depth), concrete unit tables (step functions). Crest levels with exponent 1.3 (EurOtop (2018), caissons) for discharges up to the one at zero freeboard."},
"C96": {"status": "partial", "note": "The returned size, wave height or crest level is proved to be exactly the limit for rock armour (Van der Meer 1988, its modification and 2021, Scaravaglione, Jumelet size), concrete units, toes by Gerding and Van der Meer (1998), rear slopes by Van Gent & Pozueta, and the crest levels of TAW, EurOtop 2007, De Ridder, caissons and Van Gent (2025). Partial because it is false in the code, and refuted, for: Van der Meer (1998) toe depth and Etemad-Shahidi (2021) toes and double layers of cubes (NaN on the safe side), Van Gent & Van der Werf (2014) (returned size 0.8 % larger than needed), rear slopes by Van Gent (2007) (returned size has 1.6 % more damage than allowed), Etemad-Shahidi (2020) wave heights in the jump of the formula, TAW (2002) with gravity above 9.81, Van Gent (2025) design crests where the maximum formula governs (overtops more than asked), EurOtop (2018) on rough slopes with the roughness correction (higher than needed). The restrictions of the other _partial theorems are stated in them. Kramer & Burcharth sizes and crest levels are limits up to what the tolerance leaves, where the iteration settles and in the range where the formula is monotone. Etemad-Shahidi (2020) sizes and Takahashi wave heights are the exact limit up to what the tolerance or the search grid leaves. The Takahashi depth is the limit up to one step of the search when the stones are too small at Hs/20; when they are stable there, the depth returned is one where they are not (C96_takahashi_depth_unsafe, _refuted). The damage at the wave height of Jumelet is the allowed one times the root of the ratio of two rounded numbers of waves, allowed exactly when these agree. Missing: run-up levels, Van Gent (2025) with wind (whose crests are not safe: C54_wind_refuted)."},
"C97": {"status": "partial", "note": "Proved for Van der Meer (1988, 2021, modified), Scaravaglione et al., Jumelet et al. (stone size and damage), Etemad-Shahidi et al. (2020) (number of waves, armour and core size), Hudson, Xbloc, cubes in single and double layer, the toe formulas of Gerding, Van der Meer (1998) and Van Gent & Van der Werf (2014), the rear side formulas of Van Gent (2007) and Van Gent & Pozueta (2004) and the run-up of Van Gent (2002). Refuted for the number of waves in Van der Meer (1988), where the correction for long storms jumps at 5000 waves, and for the wave period in Etemad-Shahidi et al. (2020), where the formula jumps at the Iribarren number 1.8, and for the damage level in its wave height. Not stated for overtopping discharges, which depend exponentially on their inputs."},
"C98": {"status": "partial", "note": "Proved for wave height, size, damage, number of waves and density where the formula passes relative changes on with powers of one sign (rock, units, toes, run-up and rear slopes). Refuted: in the Van der Meer formulas the damage as a function of the wave period has a maximum on slopes steeper than 1:4 (no period above it, two periods below it), Van der Meer (1988) has bounded damage in the number of waves, and Gerding (1993) has sizes without an answer. Overtopping: every discharge belongs to exactly one wave height for crests at or above the (swell-corrected) water level (De Ridder et al., caissons, Van Gent et al. 2025, smooth dikes by TAW and EurOtop 2018); the crest level questions are C49-C56 and C96. Refuted: run-up levels by TAW (2002) belong to two wave heights. Questions answered by iterations: one wave height per stone size (Takahashi), one size per damage (Etemad-Shahidi 2020), at most one size and one crest level per wave height in the range where Kramer & Burcharth is monotone; refuted for Kramer & Burcharth over all sizes (two sizes withstand the same wave). Depths above a caisson toe: refuted, in shallow water the designed size is Hs/(1.8 Delta) at every depth. Missing: rough slopes, where the discharge jumps."},
"C99": {"status": "partial", "note": "Proved for TAW (2002) and EurOtop (2018), dikes and rubble mounds, with all options, EurOtop (2007) and De Ridder et al. (with equality), caissons above the swell correction, Van Gent et al. (2025) without wind and with given influence factors. With the crest wall factor computed from the crest level it holds for low swell, (1 + k) 0.4 Hm0_swell <= k Ac with k the coefficient of the wall factor, and is false for higher swell (C99_vangent2025_wall_refuted). With wind it is false for low walls (C99_vangent2025_wind_refuted)."}
}
