{
 "claims": [
  {
   "property": "C01",
   "status": "proved",
   "theorems": [
    "C01_check_variable_validity_range",
    "C01_accepts",
    "C01_scalar"
   ],
   "note": ""
  },
  {
   "property": "C02",
   "status": "proved",
   "theorems": [
    "C02_Dn50_of_M50_of_Dn50",
    "C02_M50_of_Dn50_of_M50"
   ],
   "note": ""
  },
  {
   "property": "C03",
   "status": "proved",
   "theorems": [
    "C03_roundtrip"
   ],
   "note": ""
  },
  {
   "property": "C04",
   "status": "proved",
   "theorems": [
    "C04_diameter_given",
    "C04_mass_given",
    "C04_mass_without_density",
    "C04_error_iff",
    "C04_mass_equals_diameter"
   ],
   "note": ""
  },
  {
   "property": "C05",
   "status": "proved",
   "theorems": [
    "C05_error_iff",
    "C05_solves"
   ],
   "note": ""
  },
  {
   "property": "C06",
   "status": "proved",
   "theorems": [
    "C06_steepness",
    "C06_Iribarren"
   ],
   "note": ""
  },
  {
   "property": "C07",
   "status": "proved",
   "theorems": [
    "C07_default_arguments",
    "C07_Hs_of_M50_of_Hs",
    "C07_M50_of_Hs_of_M50"
   ],
   "note": ""
  },
  {
   "property": "C08",
   "status": "partial",
   "theorems": [
    "C08_default_arguments_partial",
    "C08_Hs_of_M50_of_Hs_partial",
    "C08_M50_of_Hs_of_M50_partial",
    "C08_unknown_rock_type",
    "C08_hundred_percent_refuted"
   ],
   "note": "Proved for every damage percentage below 100 and every known rock type; at 100 % (documented as allowed) the lookup raises IndexError: C08_hundred_percent_refuted."
  },
  {
   "property": "C09",
   "status": "proved",
   "theorems": [
    "C09_factor",
    "C09_monotone"
   ],
   "note": ""
  },
  {
   "property": "C10",
   "status": "proved",
   "theorems": [
    "C10_accropode",
    "C10_accropode2",
    "C10_plain_wrappers",
    "C10_default_arguments",
    "C10_default_alpha"
   ],
   "note": ""
  },
  {
   "property": "C11",
   "status": "proved",
   "theorems": [
    "C11_accropode",
    "C11_accropode2",
    "C11_coreloc",
    "C11_nonbreaking"
   ],
   "note": ""
  },
  {
   "property": "C12",
   "status": "proved",
   "theorems": [
    "C12_xbloc_volume",
    "C12_xblocplus_volume",
    "C12_mass",
    "C12_default_arguments"
   ],
   "note": ""
  },
  {
   "property": "C13",
   "status": "proved",
   "theorems": [
    "C13_relative_freeboard",
    "C13_cotalpha_seabed",
    "C13_percslope_seabed",
    "C13_rel_depth",
    "C13_switches"
   ],
   "note": ""
  },
  {
   "property": "C14",
   "status": "partial",
   "theorems": [
    "C14_structure_slope_refuted",
    "C14_structure_slope_partial"
   ],
   "note": "The stated conservative reading is false in the code for the Xbloc structure slope (1:1.33 gets 1.25): C14_structure_slope_refuted. The part that holds is C14_structure_slope_partial."
  },
  {
   "property": "C15",
   "status": "proved",
   "theorems": [
    "C15_from_Nod",
    "C15_from_Dn",
    "C15_below_start_of_damage"
   ],
   "note": ""
  },
  {
   "property": "C16",
   "status": "proved",
   "theorems": [
    "C16_single_layer",
    "C16_default_arguments"
   ],
   "note": ""
  },
  {
   "property": "C17",
   "status": "proved",
   "theorems": [
    "C17_default_arguments",
    "C17_damage_size_inverse"
   ],
   "note": ""
  },
  {
   "property": "C18",
   "status": "proved",
   "theorems": [
    "C18_default_arguments",
    "C18_damage_height_inverse",
    "C18_other_gravity_refuted"
   ],
   "note": "For the default gravity 9.81. C18_other_gravity_refuted shows the inverse fails for any other gravity on slopes of 1:4 or gentler because the damage function has no gravity argument."
  },
  {
   "property": "C19",
   "status": "proved",
   "theorems": [
    "C19_default_arguments",
    "C19_damage_size_inverse",
    "C19_damage_height_inverse"
   ],
   "note": ""
  },
  {
   "property": "C20",
   "status": "proved",
   "theorems": [
    "C20_default_arguments",
    "C20_damage_size_inverse",
    "C20_damage_height_inverse",
    "C20_agrees_with_modified",
    "C20_defaults_differ"
   ],
   "note": "C20_agrees_with_modified: agreement when the ratio is absorbed in the coefficients; the published default coefficients do not correspond to one common ratio (C20_defaults_differ)."
  },
  {
   "property": "C21",
   "status": "partial",
   "theorems": [
    "C21_default_arguments",
    "C21_height_of_damage",
    "C21_damage_of_height",
    "C21_damage_of_height_partial",
    "C21_gap_refuted",
    "C21_water_density_refuted"
   ],
   "note": "Wave height -> damage -> wave height exact for all inputs; damage -> wave height -> damage exact for every attainable level; for the levels skipped by the 2.3 % jump at the regime boundary only C21_damage_of_height_partial holds (C21_gap_refuted). Water density: only 1025 (C21_water_density_refuted)."
  },
  {
   "property": "C22",
   "status": "proved",
   "theorems": [
    "C22_unique_and_geometric",
    "C22_stops_on_tolerance",
    "C22_settled"
   ],
   "note": "Water density 1025, the value fixed inside the size function."
  },
  {
   "property": "C23",
   "status": "partial",
   "theorems": [
    "C23_default_arguments",
    "C23_damage_size_inverse",
    "C23_water_density_refuted"
   ],
   "note": "Proved for water of 1025 kg/m3. The size function fixes that density internally, and for every other density the inverse fails: C23_water_density_refuted."
  },
  {
   "property": "C24",
   "status": "proved",
   "theorems": [
    "C24_default_arguments",
    "C24_size_of_damage",
    "C24_damage_of_size",
    "C24_unattainable_is_reported",
    "C24_damage_height_inverse"
   ],
   "note": "Wave height inverse for the default gravity 9.81 (the damage function has no gravity argument)."
  },
  {
   "property": "C25",
   "status": "partial",
   "theorems": [
    "C25_settled_size",
    "C25_zero_freeboard",
    "C25_no_size",
    "C25_silent_nonconvergence_refuted",
    "C25_converges",
    "C25_settled_freeboard"
   ],
   "note": "Settled and converging iterations proved. The last sentence of the property is false in the code: C25_silent_nonconvergence_refuted gives an input where no size is a solution and a negative size is returned without warning."
  },
  {
   "property": "C26",
   "status": "proved",
   "theorems": [
    "C26_1988_wave_height",
    "C26_1988_rock_size",
    "C26_modified_wave_height",
    "C26_modified_rock_size",
    "C26_1988_number_of_waves",
    "C26_modified_number_of_waves"
   ],
   "note": "Stronger than stated: across regimes, not only within one."
  },
  {
   "property": "C27",
   "status": "proved",
   "theorems": [
    "C27_height_damage_inverse",
    "C27_size_of_damage",
    "C27_damage_of_size",
    "C27_unattainable_is_reported",
    "C27_depth_damage_inverse"
   ],
   "note": "For positive strength 1.6 Dn50 + 0.24 ht; a non-positive designed size is always accompanied by a warning."
  },
  {
   "property": "C28",
   "status": "proved",
   "theorems": [
    "C28_height_damage_inverse",
    "C28_size_damage_inverse",
    "C28_depth_of_damage",
    "C28_damage_of_depth"
   ],
   "note": "The depth solver returns NaN exactly when no toe depth has the requested damage."
  },
  {
   "property": "C29",
   "status": "partial",
   "theorems": [
    "C29_consistent_coefficient_partial",
    "C29_roundtrip_scales_partial",
    "C29_inverse_refuted"
   ],
   "note": "False in the code: the size formula uses 0.32 where the damage formula has 0.032 = 0.3175^3, so the round trip scales damage by 0.9765625 (C29_inverse_refuted), and user coefficients are not passed on. Exact inverse only for c1 = 0.32^3."
  },
  {
   "property": "C30",
   "status": "proved",
   "theorems": [
    "C30_damage_of_size",
    "C30_size_of_damage",
    "C30_undamaged_is_nan"
   ],
   "note": "For all coefficients with c1 >= 0, c2 > 0, c5 nonzero, 1 - c7 m > 0."
  },
  {
   "property": "C31",
   "status": "partial",
   "theorems": [
    "C31_terminates_partial",
    "C31_within_limit_refuted",
    "C31_limit_has_no_effect"
   ],
   "note": "Terminates for all inputs when |c4 - c6| < 1 (defaults: 0.27), with an a posteriori error bound. The iteration limit is never used (n_iter is not incremented): C31_within_limit_refuted exhibits a call with limit 1 that never returns."
  },
  {
   "property": "C32",
   "status": "proved",
   "theorems": [
    "C32_floor",
    "C32_size_bound"
   ],
   "note": "For every dispersion solver."
  },
  {
   "property": "C33",
   "status": "partial",
   "theorems": [
    "C33_size_damage_partial",
    "C33_size_damage_refuted",
    "C33_level_of_damage",
    "C33_damage_of_level"
   ],
   "note": "Run-up level and damage are exact inverses. Damage and rock size are not: the published constants 0.00025 and 0.036 do not match, so a round trip multiplies the damage by a fixed factor between 1.016 and 1.017 (C33_size_damage_partial, C33_size_damage_refuted)."
  },
  {
   "property": "C34",
   "status": "proved",
   "theorems": [
    "C34_damage_size_inverse",
    "C34_velocity_of_damage",
    "C34_damage_of_velocity",
    "C34_defaults"
   ],
   "note": ""
  },
  {
   "property": "C35",
   "status": "proved",
   "theorems": [
    "C35_pressures"
   ],
   "note": ""
  },
  {
   "property": "C36",
   "status": "proved",
   "theorems": [
    "C36_symmetric",
    "C36_within_15",
    "C36_reactions",
    "C36_nan_raises"
   ],
   "note": ""
  },
  {
   "property": "C37",
   "status": "partial",
   "theorems": [
    "C37_balance_partial",
    "C37_continuous",
    "C37_beyond_refuted"
   ],
   "note": "Balance and continuity proved for a resultant within 2/3 of the (reduced) base from the heel; beyond that the returned pressure is negative (C37_beyond_refuted)."
  },
  {
   "property": "C38",
   "status": "partial",
   "theorems": [
    "C38_horizontal_perpendicular",
    "C38_horizontal_oblique_partial",
    "C38_horizontal_negative_refuted",
    "C38_runup_at_crest_refuted",
    "C38_vertical_perpendicular",
    "C38_vertical_oblique_partial",
    "C38_vertical_spurious",
    "C38_defaults",
    "C38_gamma_beta"
   ],
   "note": "Perpendicular forces proved. Oblique forces become negative for large angles (C38_horizontal_negative_refuted), are NaN when the run-up equals the crest level (C38_runup_at_crest_refuted), and the vertical force can be positive without wave load (C38_vertical_spurious)."
  },
  {
   "property": "C39",
   "status": "proved",
   "theorems": [
    "C39_bounded_and_decreasing",
    "C39_strict_unless_warned",
    "C39_impermeable"
   ],
   "note": "Permeable and impermeable; strict monotonicity whenever no range warning on Kt is issued."
  },
  {
   "property": "C40",
   "status": "proved",
   "theorems": [
    "C40_bounded_and_decreasing"
   ],
   "note": ""
  },
  {
   "property": "C41",
   "status": "partial",
   "theorems": [
    "C41_bounded_and_decreasing_partial",
    "C41_jump_refuted",
    "C41_nan"
   ],
   "note": "False at the upper transition: the coefficient drops to 0 there and jumps up to 0.03 (C41_jump_refuted); a NaN freeboard gives 0.03 (C41_nan)."
  },
  {
   "property": "C42",
   "status": "partial",
   "theorems": [
    "C42_bounded_and_decreasing",
    "C42_unknown_type",
    "C42_never_warns_refuted",
    "C42_default"
   ],
   "note": "Bounds, strict monotonicity and the ValueError proved for every dispersion solver. The validity check is never called, so nothing is reported (C42_never_warns_refuted)."
  },
  {
   "property": "C43",
   "status": "proved",
   "theorems": [
    "C43_impermeable",
    "C43_permeable",
    "C43_nan"
   ],
   "note": "Statement corrected after reading the code: set-up increases with the crest level."
  },
  {
   "property": "C44",
   "status": "proved",
   "theorems": [
    "C44_continuous",
    "C44_increasing",
    "C44_solver_fixed_points",
    "C44_solver_converges",
    "C44_levels",
    "C44_exactly_one"
   ],
   "note": ""
  },
  {
   "property": "C45",
   "status": "proved",
   "theorems": [
    "RunupTawProofs.C45_berm_range",
    "RunupTawProofs.C45_berm_never_outside",
    "RunupTawProofs.C45_berm_influence",
    "RunupTawProofs.C45_oblique",
    "RunupTawProofs.C45_oblique_published"
   ],
   "note": "Berm factor never outside [0.6,1] for any argument values including NaN/inf; monotone in berm width; obliqueness factor symmetric, non-increasing, constant from 80 degrees, for the TAW and EurOtop coefficients."
  },
  {
   "property": "C46",
   "status": "proved",
   "theorems": [
    "RunupTawProofs.C46_smaller_of_two",
    "RunupTawProofs.C46_longer_waves",
    "RunupTawProofs.C46_composite_equivalent"
   ],
   "note": "Single slope: closed form, flag exactly when the maximum governs, monotone in wave length and steepness of slope. Composite slope: equals the single-slope result at the iterated average slope and berm factor."
  },
  {
   "property": "C47",
   "status": "partial",
   "theorems": [
    "RunupTawProofs.C47_levels_partial",
    "RunupTawProofs.C47_one_too_many_refuted"
   ],
   "note": "Proved: the levels form a chain of run-up evaluations, and the loop stops on the tolerance or at the limit. The limit itself is exceeded by one pass (C47_one_too_many_refuted): max_iter = 0 still makes one pass."
  },
  {
   "property": "C48",
   "status": "partial",
   "theorems": [
    "RunupTawProofs.C48_factor_without_angle_refuted",
    "RunupTawProofs.C48_factor_ignored_refuted",
    "RunupTawProofs.C48_angle_partial"
   ],
   "note": "False in the code: gamma_beta alone raises ValueError and is ignored when beta is also given (refutation theorems for all inputs). Proved: the factor of the angle is used."
  },
  {
   "property": "C49",
   "status": "partial",
   "theorems": [
    "OvertoppingTawProofs.C49_freeboard_of_discharge_partial",
    "OvertoppingTawProofs.C49_discharge_of_freeboard_partial",
    "OvertoppingTawProofs.C49_straight_slope_returns",
    "OvertoppingTawProofs.C49_other_gravity_refuted"
   ],
   "note": "Proved in both directions for gravity 9.81 and every option combination (single/composite slope, berm, angle or factor, best fit with standard deviations). False for other gravity: the maximum formula of the freeboard always uses 9.81 (C49_other_gravity_refuted)."
  },
  {
   "property": "C50",
   "status": "proved",
   "theorems": [
    "OvertoppingEurProofs.C50_eurotop2007_decreasing",
    "OvertoppingEurProofs.C50_eurotop2018_decreasing",
    "OvertoppingEurProofs.C50_eurotop2018_rubble_decreasing",
    "OvertoppingTawProofs.C50_decreasing"
   ],
   "note": "TAW 2002, EurOtop 2007, EurOtop 2018 and EurOtop 2018 rubble mound, any gravity, whenever the lower crest returns a number (rubble mound with best fit: single slope)."
  },
  {
   "property": "C51",
   "status": "partial",
   "theorems": [
    "OvertoppingEurProofs.C51_inverse_partial",
    "OvertoppingEurProofs.C51_other_gravity_refuted"
   ],
   "note": "Proved in both directions at gravity 9.81 for every freeboard, slope, period, angle and coefficient argument. False for every other gravity: the freeboard function has no gravity argument (C51_other_gravity_refuted)."
  },
  {
   "property": "C52",
   "status": "partial",
   "theorems": [
    "C52_composite_best_fit_refuted",
    "OvertoppingEurProofs.C52_smooth_freeboard_of_discharge_partial",
    "OvertoppingEurProofs.C52_smooth_discharge_of_freeboard_partial",
    "OvertoppingEurProofs.C52_rough_straight_partial",
    "OvertoppingEurProofs.C52_rough_slope_refuted",
    "OvertoppingEurProofs.C52_berm_factor_ignored_refuted",
    "OvertoppingEurProofs.C52_rubble_freeboard_of_discharge_partial",
    "OvertoppingEurProofs.C52_rubble_discharge_of_freeboard_partial",
    "OvertoppingEurProofs.C52_rubble_returns"
   ],
   "note": "Proved for smooth slopes (any slope description), for rough straight slopes outside the breaker range where the roughness correction acts, and for rubble mounds. False for rough slopes inside that range (C52_rough_slope_refuted: the discharge limit uses the given factor, the freeboard limit the corrected one) and the berm factor argument is ignored (C52_berm_factor_ignored_refuted). With best-fit coefficients on a structure with two slopes C52_composite_best_fit_refuted shows that the crest level returned is too low: the freeboard function hands design coefficients to the run-up iteration."
  },
  {
   "property": "C53",
   "status": "partial",
   "theorems": [
    "OvertoppingMoreProofs.C53_exponent_one_partial",
    "OvertoppingMoreProofs.C53_exponent_13_partial",
    "OvertoppingMoreProofs.C53_exponent_13_low_crest_refuted",
    "OvertoppingMoreProofs.C53_swell_default_refuted",
    "OvertoppingMoreProofs.C53_refused"
   ],
   "note": "Inverse proved for exponent 1 (all options, any crest) and exponent 1.3 (crest at or above the swell correction, discharge up to the limit value). Refuted: with exponent 1.3 a crest below the swell correction gives NaN; without crossing seas the omitted swell height makes every result NaN (0 * NaN)."
  },
  {
   "property": "C54",
   "status": "partial",
   "theorems": [
    "OvertoppingMoreProofs.C54_mean_value_partial",
    "OvertoppingMoreProofs.C54_design_partial",
    "OvertoppingMoreProofs.C54_design_maximum_refuted",
    "OvertoppingMoreProofs.C54_crest_wall_default_refuted",
    "OvertoppingMoreProofs.C54_friction_refused",
    "OvertoppingMoreProofs.C54_other_gravity_refuted",
    "C54_wind_refuted"
   ],
   "note": "Inverse proved at gravity 9.81 without wind: mean-value calculation in full, design calculation where the exponential formula governs. Refuted: design calculation where the maximum governs; any other gravity (freeboard function has no gravity argument); omitted crest-wall factor gives NaN. With wind: the crest returned overtops more than the required discharge whenever it has a wall (C54_wind_refuted)."
  },
  {
   "property": "C55",
   "status": "partial",
   "theorems": [
    "OvertoppingMoreProofs.C55_eq24_partial",
    "OvertoppingMoreProofs.C55_eq24_gravity_refuted",
    "OvertoppingMoreProofs.C55_eq26",
    "OvertoppingMoreProofs.C55_eq26_default",
    "OvertoppingMoreProofs.C55_eq26_infragravity_lowers_crest"
   ],
   "note": "Equation 26 inverse for any gravity; equation 24 inverse at 9.81 only. Refuted for other gravity with equation 24: the freeboard function accepts g but computes with 9.81."
  },
  {
   "property": "C56",
   "status": "proved",
   "theorems": [
    "OvertoppingMoreProofs.C56_eq28",
    "OvertoppingMoreProofs.C56_eq32",
    "OvertoppingMoreProofs.C56_defaults",
    "OvertoppingMoreProofs.C56_oblique"
   ],
   "note": "Both equations, any gravity, any direction; default arguments too."
  },
  {
   "property": "C57",
   "status": "proved",
   "theorems": [
    "C57_level_of_velocity",
    "C57_velocity_of_level",
    "C57_defaults",
    "C57_below_crest_is_nan"
   ],
   "note": ""
  },
  {
   "property": "C58",
   "status": "partial",
   "theorems": [
    "RunupTawProofs.C58_between_partial",
    "RunupTawProofs.C58_exceeds_one_refuted",
    "RunupTawProofs.C58_drops_refuted"
   ],
   "note": "Proved for Iribarren numbers up to 10. Beyond 10 false in the code: exceeds 1, or drops back to gamma_f (refutation theorems)."
  },
  {
   "property": "C59",
   "status": "partial",
   "theorems": [
    "NetworkInput.C59_nn",
    "NetworkInput.C59_nn_records",
    "NetworkInput.C59_nn_single",
    "NetworkInput.C59_nn_integer_refuted",
    "NetworkInput.C59_nn_single_angle_refuted",
    "NetworkInput.C59_nn_missing_refuted",
    "NetworkInput.C59_xgb",
    "NetworkInput.C59_xgb_records",
    "NetworkInput.C59_xgb_single",
    "NetworkInput.C59_xgb_integer_refuted"
   ],
   "note": "With an array of angles every record is written under its documented column (both writers, any number of records, single numbers broadcast); single float numbers give one record. Refuted: an integer angle or a single angle next to arrays raises ValueError (neural network: after leaving a file without records); a NaN is written as nothing, so a blank-separated reader sees the later values shifted. Not modelled: the decimal text of a float (a parameter that contains no separator)."
  },
  {
   "property": "C60",
   "status": "partial",
   "theorems": [
    "RangeArmour.C60_vandermeer1988_damage_partial",
    "RangeArmour.C60_vandermeer1988_size_partial",
    "RangeArmour.C60_vandermeer1988_height_partial",
    "RangeArmour.C60_vandermeer1988_steepness_refuted",
    "RangeArmour.C60_modified_damage_partial",
    "RangeArmour.C60_modified_size_partial",
    "RangeArmour.C60_modified_height_partial",
    "RangeArmour.C60_modified_other_density_refuted",
    "RangeArmour.C60_vandermeer2021_refuted",
    "RangeArmour.C60_etemad2020_damage",
    "RangeArmour.C60_etemad2020_size",
    "RangeArmour.C60_etemad2020_height",
    "RangeArmour.C60_jumelet_damage",
    "RangeArmour.C60_jumelet_size",
    "RangeArmour.C60_jumelet_height",
    "RangeArmour.C60_scaravaglione_damage_partial",
    "RangeArmour.C60_scaravaglione_size_partial",
    "RangeArmour.C60_scaravaglione_height_partial",
    "RangeArmour.C60_kramer_height",
    "RangeArmour.C60_kramer_size",
    "RangeArmour.C60_kramer_freeboard",
    "RangeHydraulics.C60_dangremond",
    "RangeHydraulics.C60_dangremond_impermeable",
    "RangeHydraulics.C60_briganti",
    "RangeHydraulics.C60_vangent2023_refuted",
    "RangeHydraulics.C60_setup_impermeable",
    "RangeHydraulics.C60_setup_permeable_partial",
    "RangeHydraulics.C60_runup_taw",
    "RangeHydraulics.C60_runup_taw_angle",
    "RangeHydraulics.C60_overtopping_taw",
    "RangeHydraulics.C60_freeboard_taw",
    "RangeHydraulics.C60_eurotop2018_rubble",
    "RangeHydraulics.C60_eurotop2018_rubble_freeboard",
    "RangeHydraulics.C60_caisson_discharge_partial",
    "RangeHydraulics.C60_caisson_freeboard_partial",
    "RangeHydraulics.C60_vangent2025_without_berm_refuted",
    "RangeHydraulics.C60_vangent2025_never_checked_refuted",
    "RangeHydraulics.C60_deridder2024_eq24_partial",
    "RangeHydraulics.C60_deridder2024_eq26_partial",
    "RangeHydraulics.C60_deridder2024_freeboard_eq26_partial",
    "RangeHydraulics.C60_deridder2026_eq28_partial",
    "RangeHydraulics.C60_deridder2026_eq32_partial",
    "RangeHydraulics.C60_deridder_steepness_refuted",
    "RangeHydraulics.C60_goda_partial",
    "RangeMore.C60_vandermeer2021_height",
    "RangeMore.C60_toe_vandermeer1998_size_partial",
    "RangeMore.C60_toe_vandermeer1998_height_partial",
    "RangeMore.C60_toe_vandermeer1998_depth_partial",
    "RangeMore.C60_toe_vandermeer1998_damage_partial",
    "RangeMore.C60_toe_etemad_height_refuted",
    "RangeMore.C60_takahashi_size",
    "RangeOvertoppingMore.C60_vangent2025_partial",
    "RangeOvertoppingMore.C60_deridder2024_freeboard_eq24_partial",
    "RangeOvertoppingMore.C60_vangent2025_freeboard_partial",
    "RangeOvertoppingMore.C60_with_units",
    "RangeOvertoppingMore.C60_deridder2026_freeboard_refuted",
    "C60_rear_vangent_height_partial",
    "C60_rear_pozueta_height",
    "C60_runup_eurotop2018",
    "RangeStructures.C60_gerding_damage",
    "RangeStructures.C60_gerding_height",
    "RangeStructures.C60_gerding_size",
    "RangeStructures.C60_gerding_depth",
    "RangeStructures.C60_toe_vandermeer1998_refuted",
    "RangeStructures.C60_toe_vangent_damage",
    "RangeStructures.C60_toe_vangent_size",
    "RangeStructures.C60_toe_etemad_damage_partial",
    "RangeStructures.C60_toe_etemad_size_partial",
    "RangeStructures.C60_takahashi",
    "RangeStructures.C60_accropode_mass",
    "RangeStructures.C60_accropode_height",
    "RangeStructures.C60_accropode_KD",
    "RangeStructures.C60_accropode2_mass",
    "RangeStructures.C60_accropode2_height",
    "RangeStructures.C60_accropode2_KD",
    "RangeStructures.C60_core_loc_KD",
    "RangeStructures.C60_cubes_size",
    "RangeStructures.C60_cubes_damage",
    "RangeStructures.C60_cubes_height",
    "RangeStructures.C60_rear_vangent_damage_partial",
    "RangeStructures.C60_rear_vangent_size_partial",
    "RangeStructures.C60_rear_vangent_steepness_refuted",
    "RangeStructures.C60_rear_pozueta_damage",
    "RangeStructures.C60_rear_pozueta_size",
    "RangeStructures.C60_wall_horizontal",
    "RangeStructures.C60_wall_horizontal_oblique",
    "RangeStructures.C60_wall_vertical",
    "RangeStructures.C60_wall_vertical_oblique"
   ],
   "note": "For each calculation the warnings are shown to be exactly those about listed quantities outside listed ranges. Theorems named _partial give the exact list where some published limits are never looked at because the caller does not hand the quantity over (steepness of Van der Meer 1988 / rear slope / De Ridder, most of Etemad-Shahidi 2021, berm width of Goda, Van Gent 2025 and De Ridder 2024 with units). Theorems named _refuted prove the failures: Van der Meer 2021 warns for every input about the ratio H2%/Hs that its user never gives; Van Gent 2023 never warns; the De Ridder 2026 freeboards and the toe wave height of Etemad-Shahidi 2021 are never checked; the toe formula of Van der Meer 1998 always warns for stones below 0.49 m although its criterion is met; Van Gent 2025 reports a berm out of range for every structure without a berm. Missing: composite slopes (TAW iterations repeat warnings about intermediate estimates)."
  },
  {
   "property": "C61",
   "status": "partial",
   "theorems": [
    "C61_result_is_close",
    "C61_fails_at_floor",
    "C61_always_returns_refuted",
    "C61_one_solution",
    "C61_near_solution",
    "C61_returns"
   ],
   "note": "There is exactly one solution (C61_one_solution); a returned height is within c * 0.5 mm of it with c given explicitly, within 1 mm if no precision warning is given, and no warning is given for c < 1 (C61_near_solution); a height is returned whenever the stability number at the smallest height exceeds the solution by 0.18 (C61_returns). But where the 1.8 floor governs the search table is empty and the call raises ValueError (C61_fails_at_floor, C61_always_returns_refuted)."
  },
  {
   "property": "C62",
   "status": "partial",
   "theorems": [
    "C62_brackets",
    "C62_first_crossing",
    "C62_terminates_partial",
    "C62_terminates_refuted"
   ],
   "note": "Proved: the returned depth is the first crossing on the search grid (C62_first_crossing), and the search ends whenever the first stability number is not above Hs/(Delta Dn50) (C62_terminates_partial). Termination in general is false: for Hs/(Delta Dn50) < 1.8 the search never ends (C62_terminates_refuted)."
  },
  {
   "property": "C63",
   "status": "proved",
   "theorems": [
    "C63_solves",
    "C63_terminates",
    "C63_no_crest_element_refuted",
    "C63_no_iterations"
   ],
   "note": "Holds for every positive crest-element recess Rc2_front; for Rc2_front = 0, inside the documented range, the solver returns NaN (C63_no_crest_element_refuted); with max_iterations = 0 it raises UnboundLocalError (C63_no_iterations)."
  },
  {
   "property": "C64",
   "status": "partial",
   "theorems": [
    "C64_coefficients_ignored_refuted",
    "C64_coefficients_used_partial"
   ],
   "note": "Holds with the significant wave height; with the spectral wave height the user's coefficients are overwritten (C64_coefficients_ignored_refuted)."
  },
  {
   "property": "C65",
   "status": "partial",
   "theorems": [
    "C65_unreached_slope_damaged_refuted"
   ],
   "note": "The claim is false in the code; the theorem proves its negation for every configuration with the run-up below the crest."
  },
  {
   "property": "C66",
   "status": "partial",
   "theorems": [
    "C66_solves_partial",
    "C66_terminates_partial",
    "C66_settled",
    "C66_one_solution",
    "C66_wide_crest_refuted"
   ],
   "note": "Exactly one solution for every crest width (C66_one_solution). Convergence to it, with error bounds, for crests with Bc*gamma_f <= 0.75*Rc; for every crest width C66_settled bounds the error of a result returned without the convergence warning. Convergence is false for wide crests: C66_wide_crest_refuted gives a structure for which the iteration alternates between 0.5 m and 2 m for ever. Not settled: crests in between."
  },
  {
   "property": "C67",
   "status": "proved",
   "theorems": [
    "C67_forces_are_integrals"
   ],
   "note": ""
  },
  {
   "property": "C68",
   "status": "proved",
   "theorems": [
    "C68_obliqueness"
   ],
   "note": ""
  },
  {
   "property": "C69",
   "status": "proved",
   "theorems": [
    "C69_wave_height"
   ],
   "note": ""
  },
  {
   "property": "C70",
   "status": "proved",
   "theorems": [
    "C70_reactions"
   ],
   "note": "Balance for a weight resultant within 2/3 of the base (beyond that see C37_beyond_refuted)."
  },
  {
   "property": "C71",
   "status": "proved",
   "theorems": [
    "C71_flag_iff_warning",
    "C71_flag_iff",
    "C71_boundary_gap",
    "C71_default_steepness"
   ],
   "note": "The flag and the warning agree; gaps in the documented set are C71_boundary_gap and C71_default_steepness."
  },
  {
   "property": "C72",
   "status": "partial",
   "theorems": [
    "C72_horizontal",
    "C72_vertical_partial",
    "C72_vertical_refuted"
   ],
   "note": "Horizontal proved; vertical holds for steepness up to 0.05875 and is refuted above (C72_vertical_refuted)."
  },
  {
   "property": "C73",
   "status": "partial",
   "theorems": [
    "C73_width_partial",
    "C73_width_refuted"
   ],
   "note": "Holds for freeboards above -1.8 Hsi; refuted at -2.5 Hsi (C73_width_refuted)."
  },
  {
   "property": "C74",
   "status": "partial",
   "theorems": [
    "OvertoppingTawProofs.C74_overtopping_without_berm_factor",
    "RunupTawProofs.C74_runup_needs_berm_factor_refuted",
    "RunupTawProofs.C74_runup_with_berm_factor"
   ],
   "note": "Proved for TAW 2002 overtopping. False for run-up (TAW 2002 and EurOtop 2018): ValueError for all inputs without gamma_b on a single slope."
  },
  {
   "property": "C75",
   "status": "proved",
   "theorems": [
    "OvertoppingTawProofs.C75_overtopping_equal_slopes",
    "RunupTawProofs.C75_runup_equal_slopes"
   ],
   "note": "For TAW 2002 run-up and overtopping, Iribarren number above 0.15 (the published range starts at 0.4/0.5)."
  },
  {
   "property": "C76",
   "status": "proved",
   "theorems": [
    "OvertoppingMoreProofs.C76_caisson",
    "OvertoppingMoreProofs.C76_vangent2025",
    "OvertoppingMoreProofs.C76_deridder2026"
   ],
   "note": ""
  },
  {
   "property": "C77",
   "status": "proved",
   "theorems": [
    "OvertoppingMoreProofs.C77_friction",
    "OvertoppingMoreProofs.C77_crest_wall",
    "OvertoppingMoreProofs.C77_wind_factor",
    "OvertoppingMoreProofs.C77_wind_discharge",
    "OvertoppingMoreProofs.C77_wind_freeboard"
   ],
   "note": ""
  },
  {
   "property": "C78",
   "status": "partial",
   "theorems": [
    "C78_vdm1988_damage",
    "C78_vdm1988_size",
    "C78_vdm1988_height",
    "C78_modified_damage",
    "C78_modified_size",
    "C78_modified_height",
    "C78_vdm2021_damage",
    "C78_vdm2021_size",
    "C78_vdm2021_height",
    "C78_vdm_default_coefficients",
    "C78_hudson_mass",
    "C78_hudson_height",
    "C78_concrete_units_mass",
    "C78_concrete_units_height",
    "C78_hudson_default_wave",
    "C78_hudson_damage_partial",
    "C78_dangremond",
    "C78_dangremond_defaults",
    "C78_briganti",
    "C78_goda1967_partial",
    "C78_vangent2023",
    "C78_setup_impermeable",
    "C78_setup_permeable",
    "C78_obliqueness",
    "C78_obliqueness_eurotop2018",
    "C78_crest_wall_factor",
    "C78_runup_taw_partial",
    "C78_runup_eurotop2018_partial",
    "C78_runup_eurotop2018_defaults",
    "C78_jumelet_height",
    "C78_taw_discharge_partial",
    "C78_taw_freeboard_partial",
    "C78_eurotop2007_discharge_partial",
    "C78_eurotop2007_freeboard_partial",
    "C78_eurotop2007_defaults",
    "C78_eurotop2007_obliqueness_refuted",
    "C78_eurotop2018_discharge_partial",
    "C78_eurotop2018_freeboard_partial",
    "C78_eurotop2018_defaults",
    "C78_eurotop2018_rubble_discharge_partial",
    "C78_eurotop2018_rubble_freeboard_partial",
    "C78_eurotop2018_rubble_defaults",
    "C78_deridder2024_discharge",
    "C78_deridder2024_freeboard_partial",
    "C78_deridder2026_discharge",
    "C78_deridder2026_freeboard",
    "C78_deridder_defaults",
    "C78_caisson_discharge_partial",
    "C78_caisson_freeboard_partial",
    "C78_caisson_defaults",
    "C78_vangent2025_discharge",
    "C78_vangent2025_freeboard_partial",
    "C78_vangent2025_factors",
    "C78_vangent2025_crest_wall",
    "C78_vangent2025_wind",
    "C78_xbloc_size",
    "C78_xbloc_height",
    "C78_xbloc_default",
    "C78_cubes_double_size",
    "C78_cubes_double_height",
    "C78_cubes_double_damage",
    "C78_cubes_single",
    "C78_etemad2020_damage",
    "C78_etemad2020_height_partial",
    "C78_jumelet_damage",
    "C78_jumelet_size",
    "C78_scaravaglione_damage",
    "C78_scaravaglione_size",
    "C78_scaravaglione_height",
    "C78_kramer_height",
    "C78_takahashi",
    "C78_goda1985_pressures",
    "C78_goda1985_safety",
    "C78_crest_wall_perpendicular",
    "C78_crest_wall_oblique_partial",
    "C78_gerding_damage",
    "C78_gerding_size",
    "C78_gerding_height",
    "C78_gerding_depth",
    "C78_vdm1998_damage",
    "C78_vdm1998_size",
    "C78_vdm1998_height",
    "C78_vdm1998_depth",
    "C78_vangent_toe_damage",
    "C78_vangent_toe_size",
    "C78_vangent_toe_default",
    "C78_etemad_toe_damage",
    "C78_etemad_toe_size",
    "C78_etemad_toe_default",
    "C78_vangent_runup",
    "C78_vangent_runup_defaults",
    "C78_rear2007_damage",
    "C78_rear2007_size_partial",
    "C78_pozueta_size",
    "C78_pozueta_damage",
    "C78_vangent2025_discharge_wind"
   ],
   "note": "The returned numbers satisfy the published dimensionless relation, written down separately in SpecFormula.lean. Covered: Van der Meer 1988, modified and 2021; Hudson; concrete units; toes; rear slopes; remaining armour formulas; wave transmission, set-up, obliqueness; run-up and overtopping by TAW (2002), EurOtop (2007), EurOtop (2018), De Ridder et al., Van Gent (caissons) and Van Gent et al. (2025); Takahashi caisson toes; Goda pressures and safety factors; Van Gent and Van der Werf crest-wall forces. Partial: roughness above an Iribarren number of 10 and with berms (see C58); EurOtop (2007) rubble mounds use the run-up obliqueness factor (refuted); oblique crest-wall forces only where the published force is positive (see C38); crest levels only where the result is not cut off."
  },
  {
   "property": "C79",
   "status": "partial",
   "theorems": [
    "RangeChecks.C79_vandermeer1988",
    "RangeChecks.C79_modified",
    "RangeChecks.C79_toe_vandermeer1998_partial",
    "RangeChecks.C79_rear_vangent",
    "RangeChecks.C79_transmission",
    "RangeChecks.C79_setup_permeable",
    "RangeChecks.C79_caisson",
    "RangeChecks.C79_vangent2025_partial",
    "RangeChecks.C79_vangent2025_armour_width_refuted",
    "RangeChecks.C79_deridder2024",
    "RangeChecks.C79_deridder2026",
    "RangeChecks.C79_goda",
    "RangeChecks.C79_etemad_toe_refuted",
    "RangeChecks.C79_etemad_toe_partial",
    "RangeChecks.C79_takahashi",
    "RangeChecks.C79_scaravaglione",
    "RangeChecks.C79_overtopping_taw",
    "RangeChecks.C79_crest_wall"
   ],
   "note": "Every validity check, called directly with all its arguments as numbers, reports exactly the published quantities outside the published limits and no others. Partial: the Van der Meer (1998) toe check groups Hs/Delta*Dn50 differently from the stability number; the Van Gent (2025) check looks at the freeboard under the label of the armour width; the Etemad-Shahidi (2021) check raises an error as soon as wave height and period are both given (refuted)."
  },
  {
   "property": "C80",
   "status": "partial",
   "theorems": [
    "C80_vangent2025_wind_partial",
    "C80_vangent2025_wind_refuted",
    "C80_vangent2025_wind_any_slope_refuted",
    "C80_taw_overtopping_partial",
    "C80_taw_freeboard_partial",
    "C80_taw_runup_partial",
    "C80_eurotop2018_overtopping_partial",
    "C80_rubble_overtopping_partial",
    "C80_eurotop2018_runup_partial",
    "C80_vangent2025_overtopping",
    "C80_caisson_overtopping",
    "C80_deridder_overtopping",
    "C80_longer_waves_refuted",
    "C80_taw_overtopping_berm_partial",
    "C80_taw_freeboard_berm_partial",
    "C80_taw_runup_berm_partial",
    "C80_eurotop2018_runup_berm_partial",
    "C80_higher_waves_berm_refuted"
   ],
   "note": "Worse conditions: higher or longer waves, steeper or smoother slope, less reduction (berm factor included), lower crest. Proved for TAW (2002) run-up, discharge and crest level, EurOtop 2018 run-up and discharge, EurOtop 2007/2018 rubble mounds, Van Gent (2021, 2025) and De Ridder et al. (2024, 2026). The methods with a roughness adjustment only where that is the published one: smooth slopes, breaker parameter below 1.8, or no berm and Iribarren number up to 10. Beyond 10 the claim is false on rough slopes (C80_longer_waves_refuted), and with a berm it is false at breaker parameter 1.8 (C80_higher_waves_berm_refuted). Run-up from Iribarren number 0.5 on. Van Gent et al. (2025) with wind: proved as long as the discharge without wind is not too small; for smaller discharges a wall on the armour crest overtops more than no wall, on every slope (C80_vangent2025_wind_refuted)."
  },
  {
   "property": "C81",
   "status": "proved",
   "theorems": [
    "C81_goda1985",
    "C81_vangentvanderwerf2019",
    "C81_core_physics",
    "C81_accropode2_hudson1959",
    "C81_accropode_hudson1959",
    "C81_core_loc_hudson1959",
    "C81_cubes_double_layer_hudson1959",
    "C81_cubes_double_layer_vandermeer1988",
    "C81_cubes_single_layer_vangent2002",
    "C81_cubipod_hudson1959",
    "C81_tetrapod_hudson1959",
    "C81_xbloc",
    "C81_xblocplus",
    "C81_etemadshahidi2020",
    "C81_hudson1959",
    "C81_jumelet2024",
    "C81_kramerburcharth2004_lowcrested",
    "C81_scaravaglione2025",
    "C81_vandermeer1988",
    "C81_vandermeer1988_modified",
    "C81_vandermeer2021",
    "C81_rock_rear_vangent2007",
    "C81_vangentpozueta2004",
    "C81_etemadshahidi2021",
    "C81_gerding1993",
    "C81_takahashi1990_caisson",
    "C81_vandermeer1998",
    "C81_vangentvanderwerf2014",
    "C81_deridder2024",
    "C81_deridder2026",
    "C81_eurotop2007",
    "C81_overtopping_eurotop2018",
    "C81_overtopping_taw2002",
    "C81_vangent2002_velocity",
    "C81_vangent2021_caisson",
    "C81_vangent2025",
    "C81_runup_eurotop2018",
    "C81_runup_taw2002",
    "C81_vangent2001",
    "C81_briganti2003",
    "C81_dangremond1996",
    "C81_goda1967_caisson",
    "C81_vangent2023",
    "C81_vangent2024_setup"
   ],
   "note": "One theorem per source file, covering every function with optional arguments except the two writers of network input files; values taken from the signatures in the source."
  },
  {
   "property": "C82",
   "status": "partial",
   "theorems": [
    "C82_hudson1959",
    "C82_vandermeer1988",
    "C82_vandermeer1988_modified",
    "C82_vandermeer2021",
    "C82_etemad2020",
    "C82_jumelet2024",
    "C82_scaravaglione2025",
    "C82_kramer_burcharth",
    "C82_xbloc",
    "C82_xblocplus",
    "C82_accropode",
    "C82_accropode2",
    "C82_coreloc",
    "C82_cubes_hudson",
    "C82_cubipod",
    "C82_tetrapod",
    "C82_cubes_vandermeer1988_partial",
    "C82_cubes_single",
    "C82_composite_taw2002_partial",
    "C82_composite_taw2002_berm_partial",
    "C82_composite_eurotop2018_partial",
    "C82_composite_eurotop2018_berm_partial",
    "C82_toe_etemadshahidi2021_height_partial",
    "C82_crest_wall",
    "C82_goda1985_loads",
    "C82_goda1985_safety",
    "C82_goda1985_reactions_partial",
    "C82_transmission_dangremond1996",
    "C82_transmission_briganti2003",
    "C82_transmission_goda1967",
    "C82_transmission_vangent2023",
    "C82_setup_vangent2024",
    "C82_overtopping_taw2002_partial",
    "C82_overtopping_eurotop2007",
    "C82_overtopping_eurotop2018_partial",
    "C82_runup_taw2002_partial",
    "C82_runup_taw2002_parts",
    "C82_runup_eurotop2018_partial",
    "C82_overtopping_vangent2021",
    "C82_overtopping_vangent2025",
    "C82_overtopping_deridder2024",
    "C82_overtopping_deridder2026",
    "C82_rear_pozueta_height_partial",
    "C82_takahashi_depth_refuted",
    "C82_takahashi_height_partial",
    "C82_toe_gerding1993",
    "C82_toe_vandermeer1998_partial",
    "C82_toe_vangentvanderwerf2014",
    "C82_toe_etemadshahidi2021",
    "C82_toe_takahashi1990_partial",
    "C82_runup_vangent2001",
    "C82_velocity_vangent2002",
    "C82_rear_vangent2007",
    "C82_rear_vangentpozueta2004_partial"
   ],
   "note": "Complete for all functions of the theorems without suffix. The tolerances of iterations are lengths and scale with the rest. Partial: for run-up and overtopping of TAW (2002) and EurOtop (2018) slopes that are not composite (composite slopes iterate to an absolute 1e-4 m: run-up there follows the scale up to 0.1 to 0.3 mm in model and prototype, C82_composite_*, under the conditions of C89; the parts of that computation are in C82_runup_taw2002_parts; overtopping of composite slopes is not covered); results and errors without the warnings for cubes of Van der Meer (1988), toes of Van der Meer (1998), Takahashi (1990) and the reactions of Goda (1985), whose checks are on metres and seconds. The toe wave height of Etemad-Shahidi (2021) (tolerance 1 mm) and the wave height of Van Gent and Pozueta (2004) (start value 0.5 m, crests with Bc gamma_f up to 0.75 Rc) follow the scale up to what the tolerances leave. So does the wave height of Takahashi (1990), up to what its search step of 0.5 mm leaves. Refuted for the toe depth of Takahashi (1990), searched in steps of 1 mm. The dispersion solver is a parameter, assumed to follow the scale where it is used."
  },
  {
   "property": "C83",
   "status": "partial",
   "theorems": [
    "C83_composite_taw_runup_raises",
    "C83_composite_taw_discharge_raises",
    "C83_composite_taw_crest_raises",
    "C83_composite_eurotop_runup_raises",
    "C83_composite_eurotop_discharge_raises",
    "C83_composite_eurotop_crest_raises",
    "C83_composite_eurotop_rubble_discharge_raises",
    "C83_composite_eurotop_rubble_crest_raises",
    "C83_first_period_only",
    "C83_refuted_wavelength",
    "C83_goda_whole_numbers",
    "C83_refuted_goda",
    "C83_berm_factor_raises",
    "C83_xbloc_raises",
    "C83_hudson_damage_raises",
    "C83_eurotop_array_of_periods_raises",
    "C83_VanGent2025_calculate_dimensionless_crest_freeboard_partial",
    "C83_VanGent2025_calculate_crest_freeboard_Rc_partial",
    "C83_refuted_gravity_levels",
    "C83_takahashi_depth_raises",
    "C83_takahashi_depth_first_period",
    "C83_takahashi_height_raises",
    "C83_takahashi_height_first_period",
    "C83_CorePhysics_check_usage_Dn50_or_M50",
    "C83_CorePhysics_check_usage_stabilitynumber",
    "C83_CorePhysics_calculate_wave_steepness_s",
    "C83_CorePhysics_calculate_Iribarren_number_ksi",
    "C83_CorePhysics_calculate_critical_Iribarren_number_ksi_mc",
    "C83_CorePhysics_calculate_buoyant_density_Delta",
    "C83_CorePhysics_calculate_stability_number_Ns",
    "C83_CorePhysics_calculate_M50_from_Dn50",
    "C83_CorePhysics_calculate_Dn50_from_M50",
    "C83_CorePhysics_calculate_S_from_Nod",
    "C83_CorePhysics_calculate_Nod_from_S",
    "C83_CorePhysics_calculate_local_wavelength_partial",
    "C83_VdM1988_calculate_correction_term_gamma_N",
    "C83_VdM1988_calculate_damage_number_S",
    "C83_VdM1988_calculate_nominal_rock_diameter_Dn50",
    "C83_VdM1988_calculate_significant_wave_height_Hs",
    "C83_VdMModified_calculate_damage_number_S",
    "C83_VdMModified_calculate_nominal_rock_diameter_Dn50",
    "C83_VdMModified_calculate_significant_wave_height_Hs",
    "C83_VdM2021_calculate_damage_number_S",
    "C83_VdM2021_calculate_nominal_rock_diameter_Dn50",
    "C83_VdM2021_calculate_significant_wave_height_Hs",
    "C83_CubesVdM_calculate_nominal_diameter_Dn_vanDerMeer1988",
    "C83_CubesVdM_calculate_wave_height_Hs_vanDerMeer1988",
    "C83_CubesVdM_calculate_damage_Nod_vanDerMeer1988",
    "C83_CubesSingle_calculate_unit_mass_M_start_of_damage",
    "C83_CubesSingle_calculate_unit_mass_M_failure",
    "C83_CubesSingle_calculate_significant_wave_height_Hs_start_of_damage",
    "C83_CubesSingle_calculate_significant_wave_height_Hs_failure",
    "C83_Hudson1959_calculate_median_rock_mass_M50_no_damage",
    "C83_Hudson1959_calculate_significant_wave_height_Hs_no_damage",
    "C83_Hudson1959_lookup_table_damage_factors_partial",
    "C83_Hudson1959_calculate_median_rock_mass_M50_partial",
    "C83_Hudson1959_calculate_significant_wave_height_Hs_partial",
    "C83_Accropode_calculate_unit_mass_M",
    "C83_Accropode_calculate_significant_wave_height_Hs",
    "C83_Accropode_calculate_KD_breaking_trunk_from_seabed_slope",
    "C83_Accropode_calculate_KD_nonbreaking_trunk_from_seabed_slope",
    "C83_Accropode2_calculate_unit_mass_M",
    "C83_Accropode2_calculate_significant_wave_height_Hs",
    "C83_Accropode2_calculate_KD_breaking_trunk_from_seabed_slope",
    "C83_Accropode2_calculate_KD_nonbreaking_trunk_from_seabed_slope",
    "C83_CoreLoc_calculate_unit_mass_M",
    "C83_CoreLoc_calculate_significant_wave_height_Hs",
    "C83_CoreLoc_calculate_KD_breaking_trunk_from_seabed_slope",
    "C83_CoreLoc_calculate_KD_nonbreaking_trunk_from_seabed_slope",
    "C83_CubesHudson_calculate_unit_mass_M",
    "C83_CubesHudson_calculate_significant_wave_height_Hs",
    "C83_Cubipod_calculate_unit_mass_M",
    "C83_Cubipod_calculate_significant_wave_height_Hs",
    "C83_Tetrapod_calculate_unit_mass_M",
    "C83_Tetrapod_calculate_significant_wave_height_Hs",
    "C83_Xbloc_calculate_wave_height_Hs_from_V",
    "C83_Xbloc_calculate_wave_height_Hs_from_M",
    "C83_Xbloc_calculate_unit_volume_V",
    "C83_Xbloc_calculate_unit_mass_M",
    "C83_XblocPlus_calculate_wave_height_Hs_from_V",
    "C83_XblocPlus_calculate_wave_height_Hs_from_M",
    "C83_XblocPlus_calculate_unit_volume_V",
    "C83_XblocPlus_calculate_unit_mass_M",
    "C83_Jumelet2024_calculate_fraction_plunging_waves_Fp",
    "C83_Jumelet2024_calculate_damage_number_S",
    "C83_Jumelet2024_calculate_nominal_rock_diameter_Dn50",
    "C83_Scaravaglione2025_calculate_damage_number_S",
    "C83_Scaravaglione2025_calculate_nominal_rock_diameter_Dn50",
    "C83_Scaravaglione2025_calculate_significant_wave_height_Hm0",
    "C83_KramerBurcharth_calculate_significant_wave_height_Hs",
    "C83_Etemad2020_calculate_permeability_coefficient_Cp",
    "C83_Etemad2020_calculate_damage_number_S",
    "C83_Etemad2020_calculate_significant_wave_height_Hs",
    "C83_Gerding1993_calculate_damage_Nod",
    "C83_Gerding1993_calculate_nominal_diameter_Dn50",
    "C83_Gerding1993_calculate_wave_height_Hs",
    "C83_Gerding1993_calculate_depth_above_toe_ht",
    "C83_VanDerMeer1998_calculate_damage_Nod",
    "C83_VanDerMeer1998_calculate_nominal_diameter_Dn50",
    "C83_VanDerMeer1998_calculate_wave_height_Hs",
    "C83_VanDerMeer1998_calculate_depth_above_toe_ht_partial",
    "C83_VanGentVanDerWerf2014_calculate_velocity_u_delta",
    "C83_VanGentVanDerWerf2014_calculate_damage_Nod",
    "C83_VanGentVanDerWerf2014_calculate_nominal_diameter_Dn50",
    "C83_EtemadShahidi2021_calculate_damage_Nod",
    "C83_EtemadShahidi2021_calculate_nominal_diameter_Dn50",
    "C83_Takahashi1990_calculate_stability_number_Ns_partial",
    "C83_Takahashi1990_calculate_nominal_diameter_Dn50_partial",
    "C83_VanGent2001_calculate_wave_runup_height_zXp",
    "C83_VanGent2001_calculate_wave_runup_height_z1p",
    "C83_VanGent2001_calculate_wave_runup_height_z2p_partial",
    "C83_VanGent2001_calculate_wave_runup_height_z10p",
    "C83_VanGent2001_invert_for_Hs",
    "C83_VanGent2002Velocity_calculate_maximum_wave_overtopping_velocity_uXp",
    "C83_VanGent2002Velocity_invert_for_zXp",
    "C83_VanGent2007Rear_calculate_damage_number_S",
    "C83_VanGent2007Rear_calculate_nominal_rock_diameter_Dn50",
    "C83_VanGent2007Rear_invert_for_z1p",
    "C83_VanGentPozueta2004_calculate_damage_number_S",
    "C83_VanGentPozueta2004_calculate_nominal_rock_diameter_Dn50",
    "C83_VanGentPozueta2004_invert_for_u1p",
    "C83_VanGent2021Caisson_calculate_influence_oblique_waves_gamma_beta",
    "C83_VanGent2021Caisson_calculate_dimensionless_overtopping_discharge_q_partial",
    "C83_VanGent2021Caisson_calculate_overtopping_discharge_q_partial",
    "C83_VanGent2021Caisson_calculate_dimensionless_crest_freeboard_partial",
    "C83_VanGent2021Caisson_calculate_crest_freeboard_Rc_partial",
    "C83_VanGent2025_q_diml_max_equation",
    "C83_VanGent2025_calculate_influence_friction_gamma_f",
    "C83_VanGent2025_calculate_influence_berm_gamma_b",
    "C83_VanGent2025_calculate_influence_oblique_waves_gamma_beta",
    "C83_VanGent2025_calculate_influence_crest_wall_gamma_v",
    "C83_VanGent2025_calculate_influence_wind_gamma_w",
    "C83_VanGent2025_calculate_dimensionless_overtopping_discharge_q_partial",
    "C83_VanGent2025_calculate_overtopping_discharge_q_partial",
    "C83_VanGent2025_Rc_diml_max_equation",
    "C83_VanGent2025_Rc_diml_eqB1",
    "C83_DeRidder2024_period_HF",
    "C83_DeRidder2024_calculate_dimensionless_crest_freeboard_discharge_q_eq24",
    "C83_DeRidder2024_calculate_crest_freeboard_discharge_q_eq24",
    "C83_DeRidder2024_calculate_crest_freeboard_discharge_q_eq26",
    "C83_DeRidder2024_calculate_dimensionless_overtopping_discharge_eq24",
    "C83_DeRidder2024_calculate_overtopping_discharge_q_eq24",
    "C83_DeRidder2024_calculate_dimensionless_overtopping_discharge_eq26",
    "C83_DeRidder2024_calculate_overtopping_discharge_q_eq26",
    "C83_DeRidder2026_calculate_gamma_beta",
    "C83_DeRidder2026_calculate_dimensionless_crest_freeboard_discharge_q_eq28",
    "C83_DeRidder2026_calculate_crest_freeboard_discharge_q_eq28",
    "C83_DeRidder2026_calculate_crest_freeboard_discharge_q_eq32",
    "C83_DeRidder2026_calculate_dimensionless_overtopping_discharge_eq28",
    "C83_DeRidder2026_calculate_overtopping_discharge_q_eq28",
    "C83_DeRidder2026_calculate_dimensionless_overtopping_discharge_eq32",
    "C83_DeRidder2026_calculate_overtopping_discharge_q_eq32",
    "C83_DAngremond1996_calculate_wave_transmission_Kt_permeable",
    "C83_DAngremond1996_calculate_wave_transmission_Kt_impermeable",
    "C83_Briganti2003_calculate_wave_transmission_Kt",
    "C83_Goda1967_calculate_wave_transmission_Kt_partial",
    "C83_VanGent2023_calculate_wave_transmission_Kt_partial",
    "C83_VanGent2024_calculate_dimensionless_structure_induced_setup_impermeable",
    "C83_VanGent2024_calculate_structure_induced_setup_delta_impermeable",
    "C83_VanGent2024_calculate_dimensionless_structure_induced_setup_permeable",
    "C83_VanGent2024_calculate_structure_induced_setup_delta_permeable",
    "C83_CrestWall_calculate_influence_oblique_waves_force_gamma_F_beta",
    "C83_CrestWall_calculate_influence_oblique_waves_horizontal_force_gamma_FH_beta",
    "C83_CrestWall_calculate_influence_oblique_waves_vertical_force_gamma_FV_beta",
    "C83_CrestWall_calculate_influence_oblique_waves_gamma_beta",
    "C83_CrestWall_calculate_FH2p_perpendicular_from_z2p",
    "C83_CrestWall_calculate_FH2p_perpendicular",
    "C83_CrestWall_calculate_FH2p_oblique",
    "C83_CrestWall_calculate_FV2p_perpendicular_from_z2p",
    "C83_CrestWall_calculate_FV2p_perpendicular",
    "C83_CrestWall_calculate_FV2p_oblique",
    "C83_CrestWall_calculate_FH01p_perpendicular",
    "C83_CrestWall_calculate_FV01p_perpendicular",
    "C83_RunupTaw2002_determine_average_slope",
    "C83_RunupTaw2002_calculate_berm_length",
    "C83_RunupTaw2002_calculate_influence_oblique_waves_gamma_beta",
    "C83_RunupTaw2002_calculate_adjusted_influence_roughness_gamma_f",
    "C83_OvertoppingEurOtop2007_check_best_fit",
    "C83_OvertoppingEurOtop2018_check_best_fit",
    "C83_OvertoppingTaw2002_q_diml_max_equation",
    "C83_OvertoppingTaw2002_calculate_influence_oblique_waves_gamma_beta",
    "C83_OvertoppingTaw2002_calculate_influence_crest_wall_gamma_v",
    "C83_OvertoppingTaw2002_Rc_diml_max_equation",
    "C83_OvertoppingEurOtop2007_calculate_dimensionless_overtopping_discharge_q_rubble_mound",
    "C83_OvertoppingEurOtop2007_calculate_overtopping_discharge_q_rubble_mound",
    "C83_OvertoppingEurOtop2007_calculate_dimensionless_crest_freeboard_rubble_mound",
    "C83_OvertoppingEurOtop2007_calculate_crest_freeboard_Rc_rubble_mound",
    "C83_OvertoppingEurOtop2018_q_diml_max_equation",
    "C83_OvertoppingEurOtop2018_Rc_diml_max_equation",
    "C83_RunupTaw2002_calculate_dimensionless_wave_runup_height_z2p",
    "C83_RunupTaw2002_calculate_wave_runup_height_z2p",
    "C83_RunupEurOtop2018_check_best_fit",
    "C83_RunupEurOtop2018_calculate_influence_oblique_waves_gamma_beta_partial",
    "C83_RunupEurOtop2018_calculate_dimensionless_wave_runup_height_z2p_partial",
    "C83_RunupEurOtop2018_calculate_wave_runup_height_z2p_partial",
    "C83_OvertoppingTaw2002_calculate_dimensionless_overtopping_discharge_q_partial",
    "C83_OvertoppingTaw2002_calculate_overtopping_discharge_q_partial",
    "C83_OvertoppingTaw2002_calculate_dimensionless_crest_freeboard_partial",
    "C83_OvertoppingTaw2002_calculate_crest_freeboard_Rc_partial",
    "C83_OvertoppingEurOtop2018_calculate_influence_oblique_waves_gamma_beta_partial",
    "C83_RunupEurOtop2018_iteration_procedure_gamma_b_partial",
    "C83_RunupTaw2002_iteration_procedure_gamma_b_partial",
    "C83_OvertoppingEurOtop2018_calculate_dimensionless_overtopping_discharge_q_partial",
    "C83_OvertoppingEurOtop2018_calculate_overtopping_discharge_q_partial",
    "C83_OvertoppingEurOtop2018_calculate_dimensionless_crest_freeboard_partial",
    "C83_OvertoppingEurOtop2018_calculate_crest_freeboard_Rc_partial",
    "C83_OvertoppingEurOtop2018_calculate_dimensionless_overtopping_discharge_q_rubble_mound_partial",
    "C83_OvertoppingEurOtop2018_calculate_overtopping_discharge_q_rubble_mound_partial",
    "C83_OvertoppingEurOtop2018_calculate_dimensionless_crest_freeboard_rubble_mound_partial",
    "C83_OvertoppingEurOtop2018_calculate_crest_freeboard_Rc_rubble_mound_partial",
    "C83_Goda1985_calculate_Wup",
    "C83_Goda1985_calculate_safety_factors_1",
    "C83_Goda1985_calculate_safety_factors_2",
    "C83_Goda1985_check_impulsive_breaking_partial",
    "C83_Goda1985_calculate_bearing_pressures_partial",
    "C83_Goda1985_calculate_pressures_and_forces_partial",
    "C83_Goda1985_calculate_forces_and_reactions_partial"
   ],
   "note": "Proved for every calculation function that works on arrays, with every mixture of arrays and numbers for which the code does not raise (theorems named _partial restrict which arguments may be arrays; 'Uniform' says an optional argument is given for all cases or for none). The full claim is false in the code: C83_refuted_wavelength, C83_refuted_goda, C83_first_period_only, C83_goda_whole_numbers, C83_berm_factor_raises, C83_xbloc_raises, C83_hudson_damage_raises, C83_eurotop_array_of_periods_raises, C83_refuted_gravity_levels. Both searches of Takahashi raise for arrays of anything but periods, and use the first period only: C83_takahashi_depth_raises, C83_takahashi_height_raises, C83_takahashi_depth_first_period, C83_takahashi_height_first_period. Composite slopes (TAW, EurOtop 2018) raise for every array of wave heights, slopes, berm widths or levels: C83_composite_*_raises."
  },
  {
   "property": "C84",
   "status": "partial",
   "theorems": [
    "C84_missing_case_stops_all",
    "C84_refuted_missing_case",
    "C84_VanGent2025_freeboard_wind_partial",
    "C84_wall_levels_raise",
    "C84_wall_levels_refuted",
    "C84_KramerBurcharth_calculate_nominal_rock_diameter_Dn50",
    "C84_KramerBurcharth_calculate_crest_freeboard_Rc",
    "C84_Jumelet2024_calculate_significant_wave_height_Hs",
    "C84_VanGent2007Rear_calculate_maximum_significant_wave_height_Hs",
    "C84_VanGentPozueta2004_calculate_maximum_significant_wave_height_Hs",
    "C84_Etemad2020_calculate_nominal_rock_diameter_Dn50",
    "C84_toe_etemad2021_partial"
   ],
   "note": "Proved for the iterations of Kramer & Burcharth (size, freeboard), Jumelet, Van Gent (2007) and Van Gent & Pozueta rear slope, and Etemad-Shahidi (2020); for Van Gent (2025) crest levels with wind, that all cases get the same number of passes. A case without result ends the iteration of all cases: C84_missing_case_stops_all, C84_refuted_missing_case. An array of armour crest levels alone raises with wind: C84_wall_levels_raise, C84_wall_levels_refuted. Etemad-Shahidi (2021) toe wave height: the call ends and every case gets a height within the error bound of its own solution (coefficients with |c4 - c6| < 1)."
  },
  {
   "property": "C85",
   "status": "partial",
   "theorems": [
    "C85_missing_case_silences_all",
    "C85_refuted_missing_case",
    "C85_CorePhysics_check_usage_Dn50_or_M50_no_false_alarm",
    "C85_CorePhysics_check_usage_Dn50_or_M50",
    "C85_CorePhysics_check_usage_stabilitynumber_no_false_alarm",
    "C85_CorePhysics_check_usage_stabilitynumber",
    "C85_CorePhysics_calculate_local_wavelength_no_false_alarm_partial",
    "C85_CorePhysics_calculate_local_wavelength_partial",
    "C85_VdM1988_check_validity_range_no_false_alarm",
    "C85_VdM1988_check_validity_range",
    "C85_VdM1988_calculate_damage_number_S_no_false_alarm",
    "C85_VdM1988_calculate_damage_number_S",
    "C85_VdM1988_calculate_nominal_rock_diameter_Dn50_no_false_alarm",
    "C85_VdM1988_calculate_nominal_rock_diameter_Dn50",
    "C85_VdM1988_calculate_significant_wave_height_Hs_no_false_alarm",
    "C85_VdMModified_check_validity_range_no_false_alarm",
    "C85_VdMModified_check_validity_range",
    "C85_VdMModified_calculate_damage_number_S_no_false_alarm",
    "C85_VdMModified_calculate_nominal_rock_diameter_Dn50_no_false_alarm",
    "C85_VdMModified_calculate_significant_wave_height_Hs_no_false_alarm",
    "C85_VdM2021_calculate_damage_number_S_no_false_alarm",
    "C85_VdM2021_calculate_nominal_rock_diameter_Dn50_no_false_alarm",
    "C85_VdM2021_calculate_significant_wave_height_Hs_no_false_alarm",
    "C85_CubesVdM_check_validity_range_no_false_alarm",
    "C85_CubesVdM_check_validity_range",
    "C85_CubesVdM_calculate_nominal_diameter_Dn_vanDerMeer1988_no_false_alarm",
    "C85_CubesVdM_calculate_nominal_diameter_Dn_vanDerMeer1988",
    "C85_CubesVdM_calculate_wave_height_Hs_vanDerMeer1988_no_false_alarm",
    "C85_CubesVdM_calculate_damage_Nod_vanDerMeer1988_no_false_alarm",
    "C85_CubesSingle_calculate_unit_mass_M_start_of_damage_no_false_alarm",
    "C85_CubesSingle_calculate_unit_mass_M_start_of_damage",
    "C85_CubesSingle_calculate_unit_mass_M_failure_no_false_alarm",
    "C85_CubesSingle_calculate_unit_mass_M_failure",
    "C85_CubesSingle_calculate_significant_wave_height_Hs_start_of_damage_no_false_alarm",
    "C85_CubesSingle_calculate_significant_wave_height_Hs_start_of_damage",
    "C85_CubesSingle_calculate_significant_wave_height_Hs_failure_no_false_alarm",
    "C85_CubesSingle_calculate_significant_wave_height_Hs_failure",
    "C85_Hudson1959_lookup_table_damage_factors_no_false_alarm_partial",
    "C85_Hudson1959_lookup_table_damage_factors_partial",
    "C85_Hudson1959_calculate_median_rock_mass_M50_no_false_alarm_partial",
    "C85_Hudson1959_calculate_median_rock_mass_M50_partial",
    "C85_Hudson1959_calculate_significant_wave_height_Hs_no_false_alarm_partial",
    "C85_Hudson1959_calculate_significant_wave_height_Hs_partial",
    "C85_Accropode_check_validity_range_no_false_alarm",
    "C85_Accropode_check_validity_range",
    "C85_Accropode_calculate_unit_mass_M_no_false_alarm",
    "C85_Accropode_calculate_unit_mass_M",
    "C85_Accropode_calculate_significant_wave_height_Hs_no_false_alarm",
    "C85_Accropode_calculate_significant_wave_height_Hs",
    "C85_Accropode_calculate_KD_breaking_trunk_from_seabed_slope_no_false_alarm",
    "C85_Accropode_calculate_KD_breaking_trunk_from_seabed_slope",
    "C85_Accropode2_check_validity_range_no_false_alarm",
    "C85_Accropode2_check_validity_range",
    "C85_Accropode2_calculate_unit_mass_M_no_false_alarm",
    "C85_Accropode2_calculate_unit_mass_M",
    "C85_Accropode2_calculate_significant_wave_height_Hs_no_false_alarm",
    "C85_Accropode2_calculate_significant_wave_height_Hs",
    "C85_Accropode2_calculate_KD_breaking_trunk_from_seabed_slope_no_false_alarm",
    "C85_Accropode2_calculate_KD_breaking_trunk_from_seabed_slope",
    "C85_CoreLoc_check_validity_range_no_false_alarm",
    "C85_CoreLoc_check_validity_range",
    "C85_CoreLoc_calculate_KD_breaking_trunk_from_seabed_slope_no_false_alarm",
    "C85_CoreLoc_calculate_KD_breaking_trunk_from_seabed_slope",
    "C85_Jumelet2024_check_validity_range_no_false_alarm",
    "C85_Jumelet2024_check_validity_range",
    "C85_Jumelet2024_calculate_damage_number_S_no_false_alarm",
    "C85_Jumelet2024_calculate_damage_number_S",
    "C85_Jumelet2024_calculate_nominal_rock_diameter_Dn50_no_false_alarm",
    "C85_Jumelet2024_calculate_nominal_rock_diameter_Dn50",
    "C85_Scaravaglione2025_check_validity_range_no_false_alarm",
    "C85_Scaravaglione2025_check_validity_range",
    "C85_Scaravaglione2025_calculate_damage_number_S_no_false_alarm",
    "C85_Scaravaglione2025_calculate_nominal_rock_diameter_Dn50_no_false_alarm",
    "C85_Scaravaglione2025_calculate_significant_wave_height_Hm0_no_false_alarm",
    "C85_KramerBurcharth_check_validity_range_no_false_alarm",
    "C85_KramerBurcharth_check_validity_range",
    "C85_KramerBurcharth_calculate_significant_wave_height_Hs_no_false_alarm",
    "C85_Etemad2020_check_validity_range_no_false_alarm",
    "C85_Etemad2020_check_validity_range",
    "C85_Etemad2020_calculate_damage_number_S_no_false_alarm",
    "C85_Etemad2020_calculate_significant_wave_height_Hs_no_false_alarm",
    "C85_Gerding1993_check_validity_no_false_alarm",
    "C85_Gerding1993_check_validity",
    "C85_Gerding1993_calculate_damage_Nod_no_false_alarm",
    "C85_Gerding1993_calculate_damage_Nod",
    "C85_Gerding1993_calculate_nominal_diameter_Dn50_no_false_alarm",
    "C85_Gerding1993_calculate_wave_height_Hs_no_false_alarm",
    "C85_Gerding1993_calculate_wave_height_Hs",
    "C85_Gerding1993_calculate_depth_above_toe_ht_no_false_alarm",
    "C85_VanDerMeer1998_check_validity_no_false_alarm",
    "C85_VanDerMeer1998_check_validity",
    "C85_VanDerMeer1998_calculate_damage_Nod_no_false_alarm",
    "C85_VanDerMeer1998_calculate_nominal_diameter_Dn50_no_false_alarm",
    "C85_VanDerMeer1998_calculate_wave_height_Hs_no_false_alarm",
    "C85_VanDerMeer1998_calculate_depth_above_toe_ht_no_false_alarm_partial",
    "C85_VanGentVanDerWerf2014_check_validity_no_false_alarm",
    "C85_VanGentVanDerWerf2014_check_validity",
    "C85_VanGentVanDerWerf2014_calculate_damage_Nod_no_false_alarm",
    "C85_VanGentVanDerWerf2014_calculate_damage_Nod",
    "C85_VanGentVanDerWerf2014_calculate_nominal_diameter_Dn50_no_false_alarm",
    "C85_VanGentVanDerWerf2014_calculate_nominal_diameter_Dn50",
    "C85_EtemadShahidi2021_check_validity_no_false_alarm_partial",
    "C85_EtemadShahidi2021_check_validity_partial",
    "C85_EtemadShahidi2021_calculate_damage_Nod_no_false_alarm",
    "C85_EtemadShahidi2021_calculate_damage_Nod",
    "C85_EtemadShahidi2021_calculate_nominal_diameter_Dn50_no_false_alarm",
    "C85_EtemadShahidi2021_calculate_nominal_diameter_Dn50",
    "C85_Takahashi1990_check_validity_no_false_alarm",
    "C85_Takahashi1990_check_validity",
    "C85_Takahashi1990_calculate_stability_number_Ns_no_false_alarm_partial",
    "C85_Takahashi1990_calculate_nominal_diameter_Dn50_no_false_alarm_partial",
    "C85_VanGent2001_calculate_wave_runup_height_z2p_no_false_alarm_partial",
    "C85_VanGent2007Rear_check_validity_range_no_false_alarm",
    "C85_VanGent2007Rear_check_validity_range",
    "C85_VanGent2007Rear_calculate_damage_number_S_no_false_alarm",
    "C85_VanGent2007Rear_calculate_nominal_rock_diameter_Dn50_no_false_alarm",
    "C85_VanGentPozueta2004_check_validity_range_no_false_alarm",
    "C85_VanGentPozueta2004_check_validity_range",
    "C85_VanGentPozueta2004_calculate_damage_number_S_no_false_alarm",
    "C85_VanGentPozueta2004_calculate_nominal_rock_diameter_Dn50_no_false_alarm",
    "C85_VanGent2021Caisson_check_validity_range_no_false_alarm",
    "C85_VanGent2021Caisson_check_validity_range",
    "C85_VanGent2021Caisson_calculate_dimensionless_overtopping_discharge_q_no_false_alarm_partial",
    "C85_VanGent2021Caisson_calculate_overtopping_discharge_q_no_false_alarm_partial",
    "C85_VanGent2021Caisson_calculate_dimensionless_crest_freeboard_no_false_alarm_partial",
    "C85_VanGent2021Caisson_calculate_crest_freeboard_Rc_no_false_alarm_partial",
    "C85_VanGent2025_check_validity_range_no_false_alarm",
    "C85_VanGent2025_check_validity_range",
    "C85_VanGent2025_calculate_dimensionless_overtopping_discharge_q_no_false_alarm_partial",
    "C85_VanGent2025_calculate_overtopping_discharge_q_no_false_alarm_partial",
    "C85_DeRidder2024_check_validity_range_no_false_alarm",
    "C85_DeRidder2024_check_validity_range",
    "C85_DeRidder2024_calculate_dimensionless_crest_freeboard_discharge_q_eq24_no_false_alarm",
    "C85_DeRidder2024_calculate_crest_freeboard_discharge_q_eq24_no_false_alarm",
    "C85_DeRidder2024_calculate_crest_freeboard_discharge_q_eq26_no_false_alarm",
    "C85_DeRidder2024_calculate_dimensionless_overtopping_discharge_eq24_no_false_alarm",
    "C85_DeRidder2024_calculate_overtopping_discharge_q_eq24_no_false_alarm",
    "C85_DeRidder2024_calculate_dimensionless_overtopping_discharge_eq26_no_false_alarm",
    "C85_DeRidder2024_calculate_overtopping_discharge_q_eq26_no_false_alarm",
    "C85_DeRidder2026_check_validity_range_no_false_alarm",
    "C85_DeRidder2026_check_validity_range",
    "C85_DeRidder2026_calculate_crest_freeboard_discharge_q_eq28_no_false_alarm",
    "C85_DeRidder2026_calculate_crest_freeboard_discharge_q_eq28",
    "C85_DeRidder2026_calculate_crest_freeboard_discharge_q_eq32_no_false_alarm",
    "C85_DeRidder2026_calculate_crest_freeboard_discharge_q_eq32",
    "C85_DeRidder2026_calculate_dimensionless_overtopping_discharge_eq28_no_false_alarm",
    "C85_DeRidder2026_calculate_overtopping_discharge_q_eq28_no_false_alarm",
    "C85_DeRidder2026_calculate_dimensionless_overtopping_discharge_eq32_no_false_alarm",
    "C85_DeRidder2026_calculate_overtopping_discharge_q_eq32_no_false_alarm",
    "C85_DAngremond1996_check_validity_no_false_alarm",
    "C85_DAngremond1996_check_validity",
    "C85_DAngremond1996_calculate_wave_transmission_Kt_permeable_no_false_alarm",
    "C85_DAngremond1996_calculate_wave_transmission_Kt_impermeable_no_false_alarm",
    "C85_Briganti2003_check_validity_no_false_alarm",
    "C85_Briganti2003_check_validity",
    "C85_Briganti2003_calculate_wave_transmission_Kt_no_false_alarm",
    "C85_Goda1967_calculate_wave_transmission_Kt_no_false_alarm_partial",
    "C85_Goda1967_calculate_wave_transmission_Kt_partial",
    "C85_VanGent2023_check_validity_range_no_false_alarm_partial",
    "C85_VanGent2023_check_validity_range_partial",
    "C85_VanGent2023_calculate_wave_transmission_Kt_no_false_alarm_partial",
    "C85_VanGent2023_calculate_wave_transmission_Kt_partial",
    "C85_VanGent2024_check_validity_range_no_false_alarm",
    "C85_VanGent2024_check_validity_range",
    "C85_VanGent2024_calculate_dimensionless_structure_induced_setup_impermeable_no_false_alarm",
    "C85_VanGent2024_calculate_dimensionless_structure_induced_setup_impermeable",
    "C85_VanGent2024_calculate_structure_induced_setup_delta_impermeable_no_false_alarm",
    "C85_VanGent2024_calculate_structure_induced_setup_delta_impermeable",
    "C85_VanGent2024_calculate_dimensionless_structure_induced_setup_permeable_no_false_alarm",
    "C85_VanGent2024_calculate_dimensionless_structure_induced_setup_permeable",
    "C85_VanGent2024_calculate_structure_induced_setup_delta_permeable_no_false_alarm",
    "C85_VanGent2024_calculate_structure_induced_setup_delta_permeable",
    "C85_CrestWall_check_validity_no_false_alarm",
    "C85_CrestWall_check_validity",
    "C85_CrestWall_calculate_FH2p_perpendicular_from_z2p_no_false_alarm",
    "C85_CrestWall_calculate_FH2p_perpendicular_from_z2p",
    "C85_CrestWall_calculate_FH2p_perpendicular_no_false_alarm",
    "C85_CrestWall_calculate_FH2p_oblique_no_false_alarm",
    "C85_CrestWall_calculate_FV2p_perpendicular_no_false_alarm",
    "C85_CrestWall_calculate_FV2p_perpendicular",
    "C85_CrestWall_calculate_FV2p_oblique_no_false_alarm",
    "C85_CrestWall_calculate_FV2p_oblique",
    "C85_RunupTaw2002_check_validity_range_no_false_alarm",
    "C85_RunupTaw2002_check_validity_range",
    "C85_RunupTaw2002_calculate_berm_length_no_false_alarm",
    "C85_RunupTaw2002_calculate_berm_length",
    "C85_OvertoppingTaw2002_check_validity_range_no_false_alarm",
    "C85_OvertoppingTaw2002_check_validity_range",
    "C85_OvertoppingEurOtop2007_calculate_dimensionless_overtopping_discharge_q_rubble_mound_no_false_alarm",
    "C85_OvertoppingEurOtop2007_calculate_dimensionless_overtopping_discharge_q_rubble_mound",
    "C85_OvertoppingEurOtop2007_calculate_overtopping_discharge_q_rubble_mound_no_false_alarm",
    "C85_OvertoppingEurOtop2007_calculate_overtopping_discharge_q_rubble_mound",
    "C85_OvertoppingEurOtop2007_calculate_dimensionless_crest_freeboard_rubble_mound_no_false_alarm",
    "C85_OvertoppingEurOtop2007_calculate_dimensionless_crest_freeboard_rubble_mound",
    "C85_OvertoppingEurOtop2007_calculate_crest_freeboard_Rc_rubble_mound_no_false_alarm",
    "C85_OvertoppingEurOtop2007_calculate_crest_freeboard_Rc_rubble_mound",
    "C85_OvertoppingEurOtop2018_check_validity_range_rubble_mound_no_false_alarm",
    "C85_OvertoppingEurOtop2018_check_validity_range_rubble_mound",
    "C85_RunupTaw2002_calculate_dimensionless_wave_runup_height_z2p_no_false_alarm",
    "C85_RunupTaw2002_calculate_wave_runup_height_z2p_no_false_alarm",
    "C85_RunupEurOtop2018_calculate_influence_oblique_waves_gamma_beta_no_false_alarm_partial",
    "C85_RunupEurOtop2018_calculate_influence_oblique_waves_gamma_beta_partial",
    "C85_RunupEurOtop2018_calculate_dimensionless_wave_runup_height_z2p_no_false_alarm_partial",
    "C85_RunupEurOtop2018_calculate_wave_runup_height_z2p_no_false_alarm_partial",
    "C85_OvertoppingTaw2002_calculate_dimensionless_overtopping_discharge_q_no_false_alarm_partial",
    "C85_OvertoppingTaw2002_calculate_overtopping_discharge_q_no_false_alarm_partial",
    "C85_OvertoppingTaw2002_calculate_dimensionless_crest_freeboard_no_false_alarm_partial",
    "C85_OvertoppingTaw2002_calculate_crest_freeboard_Rc_no_false_alarm_partial",
    "C85_OvertoppingEurOtop2018_calculate_influence_oblique_waves_gamma_beta_no_false_alarm_partial",
    "C85_OvertoppingEurOtop2018_calculate_influence_oblique_waves_gamma_beta_partial",
    "C85_RunupEurOtop2018_iteration_procedure_gamma_b_no_false_alarm_partial",
    "C85_RunupEurOtop2018_iteration_procedure_gamma_b_partial",
    "C85_RunupTaw2002_iteration_procedure_gamma_b_no_false_alarm_partial",
    "C85_RunupTaw2002_iteration_procedure_gamma_b_partial",
    "C85_OvertoppingEurOtop2018_calculate_dimensionless_overtopping_discharge_q_no_false_alarm_partial",
    "C85_OvertoppingEurOtop2018_calculate_overtopping_discharge_q_no_false_alarm_partial",
    "C85_OvertoppingEurOtop2018_calculate_dimensionless_crest_freeboard_no_false_alarm_partial",
    "C85_OvertoppingEurOtop2018_calculate_crest_freeboard_Rc_no_false_alarm_partial",
    "C85_OvertoppingEurOtop2018_calculate_overtopping_discharge_q_rubble_mound_no_false_alarm_partial",
    "C85_OvertoppingEurOtop2018_calculate_dimensionless_crest_freeboard_rubble_mound_no_false_alarm_partial",
    "C85_OvertoppingEurOtop2018_calculate_crest_freeboard_Rc_rubble_mound_no_false_alarm_partial",
    "C85_Goda1985_check_validity_range_no_false_alarm",
    "C85_Goda1985_check_validity_range",
    "C85_Goda1985_check_impulsive_breaking_no_false_alarm_partial",
    "C85_Goda1985_check_impulsive_breaking_partial",
    "C85_Goda1985_calculate_bearing_pressures_no_false_alarm_partial",
    "C85_Goda1985_calculate_bearing_pressures_partial",
    "C85_Goda1985_calculate_pressures_and_forces_no_false_alarm_partial",
    "C85_Goda1985_calculate_pressures_and_forces_partial",
    "C85_Goda1985_calculate_forces_and_reactions_no_false_alarm_partial",
    "C85_Goda1985_calculate_forces_and_reactions_partial"
   ],
   "note": "No false alarm: proved for every function of C83. All warnings of the single cases: proved for every check function, and for every calculation function whose checks look at its arguments; where a check looks at a computed value only the first half is proved. One missing case silences the check of all cases: C85_missing_case_silences_all, C85_refuted_missing_case."
  },
  {
   "property": "C86",
   "status": "partial",
   "theorems": [
    "C86_kramer_size",
    "C86_kramer_freeboard",
    "C86_jumelet_height",
    "C86_rear2007_height",
    "C86_pozueta_height",
    "C86_etemad_size",
    "C86_wind_freeboard_partial",
    "C86_larger_limit",
    "C86_smaller_tolerance"
   ],
   "note": "Proved for both Kramer & Burcharth solvers, Jumelet et al., both rear slope wave heights and Etemad-Shahidi et al. (2020). Partial: Van Gent et al. (2025) with wind, where the returned estimates are cut off. The wave height of Etemad-Shahidi et al. (2021) ignores its limit (see C31)."
  },
  {
   "property": "C87",
   "status": "partial",
   "theorems": [
    "C87_jumelet_float",
    "C87_jumelet_whole_number",
    "C87_jumelet_refuted",
    "C87_wavelength_float",
    "C87_wavelength_whole_number"
   ],
   "note": "Refuted for the wave height of Jumelet (np.power(Tmm10, -2) raises ValueError for every int period) and for the local wave length at several depths with one int period (TypeError). Only these two places, found by reading all uses of np.power with negative whole exponents and of isinstance, are modelled with ints; the other functions are modelled with floats only."
  },
  {
   "property": "C88",
   "status": "partial",
   "theorems": [
    "C88_taw_runup_partial",
    "C88_taw_overtopping_partial",
    "C88_eurotop2018_overtopping_partial",
    "C88_eurotop2018_runup_partial",
    "C88_taw_runup_berm_partial",
    "C88_taw_overtopping_berm_partial",
    "C88_eurotop2018_runup_berm_partial"
   ],
   "note": "Proved for run-up and overtopping by TAW (2002) and EurOtop (2018), any coefficients, transition anywhere between the water line and 1.5 Hm0 below it. Also with a berm there (C88_*_berm_partial; run-up by both, overtopping by TAW (2002)), between the straight slopes with the published berm factor, on smooth slopes or breaker parameters below 1.8. Missing: berms above the water line, overtopping by EurOtop (2018) with a berm, Iribarren numbers below 0.5 at the flatter slope, and rough slopes with Iribarren numbers above 10 (where the roughness correction jumps, see C58 and C80)."
  },
  {
   "property": "C89",
   "status": "partial",
   "theorems": [
    "C89_taw_runup_berm_partial",
    "C89_eurotop2018_runup_berm_partial",
    "C89_taw_runup_partial",
    "C89_eurotop2018_runup_partial"
   ],
   "note": "Proved for TAW (2002) and EurOtop (2018) without berm width: exactly one self-consistent level, and the returned run-up is within 0.3 mm of it (0.1 mm where the roughness does not depend on the Iribarren number), also when all passes are used up. Also with a berm at or below the water line where the roughness does not depend on the Iribarren number (C89_*_berm_partial). Missing: berms above the water line, berms on rough slopes, slopes more than a factor four apart, Iribarren numbers below 0.5 at the flatter slope, rough slopes with Iribarren numbers above 10."
  },
  {
   "property": "C90",
   "status": "proved",
   "theorems": [
    "C90_Etemad2020_calculate_damage_number_S",
    "C90_Etemad2020_calculate_damage_number_S_core",
    "C90_Etemad2020_calculate_nominal_rock_diameter_Dn50_core",
    "C90_Etemad2020_calculate_significant_wave_height_Hs",
    "C90_Etemad2020_calculate_significant_wave_height_Hs_core",
    "C90_VanGent2007Rear_calculate_damage_number_S",
    "C90_VanGent2007Rear_calculate_maximum_significant_wave_height_Hs",
    "C90_VanGentPozueta2004_calculate_damage_number_S",
    "C90_VanGentPozueta2004_calculate_maximum_significant_wave_height_Hs",
    "C90_Jumelet2024_calculate_damage_number_S",
    "C90_Jumelet2024_calculate_significant_wave_height_Hs",
    "C90_Scaravaglione2025_calculate_damage_number_S",
    "C90_Scaravaglione2025_calculate_damage_number_S_core",
    "C90_Scaravaglione2025_calculate_nominal_rock_diameter_Dn50_core",
    "C90_Scaravaglione2025_calculate_significant_wave_height_Hm0",
    "C90_Scaravaglione2025_calculate_significant_wave_height_Hm0_core",
    "C90_KramerBurcharth_calculate_significant_wave_height_Hs",
    "C90_KramerBurcharth_calculate_crest_freeboard_Rc",
    "C90_VdM1988_calculate_damage_number_S",
    "C90_VdM1988_calculate_significant_wave_height_Hs",
    "C90_VdMModified_calculate_damage_number_S",
    "C90_VdMModified_calculate_significant_wave_height_Hs",
    "C90_VdM2021_calculate_damage_number_S",
    "C90_VdM2021_calculate_significant_wave_height_Hs"
   ],
   "note": "All 20 functions (parameter-range checks included) with a choice between diameter and mass (Van der Meer, Etemad-Shahidi 2020, Jumelet, Scaravaglione, Kramer & Burcharth, both rear-slope formulas), for armour, rear-side and core rock: a mass \u03c1D\u00b3 gives the result of the diameter D including the warnings, 2650 kg/m\u00b3 without density, a mass next to a diameter is not read, and neither gives a ValueError."
  },
  {
   "property": "C91",
   "status": "partial",
   "theorems": [
    "C91_Accropode_calculate_unit_mass_M",
    "C91_Accropode_calculate_significant_wave_height_Hs",
    "C91_Accropode_calculate_KD_breaking_trunk_from_seabed_slope",
    "C91_Accropode2_calculate_unit_mass_M",
    "C91_Accropode2_calculate_significant_wave_height_Hs",
    "C91_Accropode2_calculate_KD_breaking_trunk_from_seabed_slope",
    "C91_CoreLoc_calculate_unit_mass_M",
    "C91_CoreLoc_calculate_significant_wave_height_Hs",
    "C91_CoreLoc_calculate_KD_breaking_trunk_from_seabed_slope",
    "C91_CubesHudson_calculate_unit_mass_M",
    "C91_CubesHudson_calculate_significant_wave_height_Hs",
    "C91_Cubipod_calculate_unit_mass_M",
    "C91_Cubipod_calculate_significant_wave_height_Hs",
    "C91_Tetrapod_calculate_unit_mass_M",
    "C91_Tetrapod_calculate_significant_wave_height_Hs",
    "C91_CubesVdM_calculate_nominal_diameter_Dn_vanDerMeer1988",
    "C91_CubesVdM_calculate_wave_height_Hs_vanDerMeer1988",
    "C91_CubesVdM_calculate_damage_Nod_vanDerMeer1988",
    "C91_CubesSingle_calculate_unit_mass_M_start_of_damage",
    "C91_CubesSingle_calculate_unit_mass_M_failure",
    "C91_CubesSingle_calculate_significant_wave_height_Hs_start_of_damage",
    "C91_CubesSingle_calculate_significant_wave_height_Hs_failure",
    "C91_Etemad2020_calculate_permeability_coefficient_Cp",
    "C91_Etemad2020_calculate_damage_number_S",
    "C91_Etemad2020_calculate_significant_wave_height_Hs",
    "C91_Hudson1959_calculate_median_rock_mass_M50_no_damage",
    "C91_Hudson1959_calculate_significant_wave_height_Hs_no_damage",
    "C91_Hudson1959_calculate_median_rock_mass_M50",
    "C91_Hudson1959_calculate_significant_wave_height_Hs",
    "C91_Xbloc_calculate_wave_height_Hs_from_V",
    "C91_Xbloc_calculate_wave_height_Hs_from_M",
    "C91_Xbloc_calculate_unit_volume_V",
    "C91_Xbloc_calculate_unit_mass_M",
    "C91_XblocPlus_calculate_wave_height_Hs_from_V",
    "C91_XblocPlus_calculate_wave_height_Hs_from_M",
    "C91_XblocPlus_calculate_unit_volume_V",
    "C91_XblocPlus_calculate_unit_mass_M",
    "C91_CorePhysics_calculate_wave_steepness_s",
    "C91_CorePhysics_calculate_Iribarren_number_ksi",
    "C91_CorePhysics_calculate_critical_Iribarren_number_ksi_mc",
    "C91_CorePhysics_calculate_buoyant_density_Delta",
    "C91_CorePhysics_calculate_stability_number_Ns",
    "C91_CorePhysics_calculate_M50_from_Dn50",
    "C91_CorePhysics_calculate_Dn50_from_M50",
    "C91_CorePhysics_calculate_S_from_Nod",
    "C91_CorePhysics_calculate_Nod_from_S",
    "C91_CorePhysics_calculate_local_wavelength",
    "C91_Goda1985_calculate_Wup",
    "C91_VanGent2021Caisson_calculate_influence_oblique_waves_gamma_beta",
    "C91_VanGent2021Caisson_calculate_dimensionless_overtopping_discharge_q",
    "C91_VanGent2021Caisson_calculate_overtopping_discharge_q",
    "C91_VanGent2021Caisson_calculate_dimensionless_crest_freeboard",
    "C91_VanGent2021Caisson_calculate_crest_freeboard_Rc",
    "C91_VanGent2025_q_diml_max_equation",
    "C91_VanGent2025_calculate_influence_friction_gamma_f",
    "C91_VanGent2025_calculate_influence_berm_gamma_b",
    "C91_VanGent2025_calculate_influence_oblique_waves_gamma_beta",
    "C91_VanGent2025_calculate_influence_crest_wall_gamma_v",
    "C91_VanGent2025_calculate_influence_wind_gamma_w",
    "C91_VanGent2025_calculate_dimensionless_overtopping_discharge_q",
    "C91_VanGent2025_calculate_overtopping_discharge_q",
    "C91_VanGent2025_Rc_diml_max_equation",
    "C91_VanGent2025_calculate_dimensionless_crest_freeboard",
    "C91_VanGent2025_calculate_crest_freeboard_Rc",
    "C91_DeRidder2024_calculate_dimensionless_crest_freeboard_discharge_q_eq24",
    "C91_DeRidder2024_calculate_crest_freeboard_discharge_q_eq24",
    "C91_DeRidder2024_calculate_crest_freeboard_discharge_q_eq26",
    "C91_DeRidder2024_calculate_dimensionless_overtopping_discharge_eq24",
    "C91_DeRidder2024_calculate_overtopping_discharge_q_eq24",
    "C91_DeRidder2024_calculate_dimensionless_overtopping_discharge_eq26",
    "C91_DeRidder2024_calculate_overtopping_discharge_q_eq26",
    "C91_DeRidder2026_calculate_gamma_beta",
    "C91_DeRidder2026_calculate_dimensionless_crest_freeboard_discharge_q_eq28",
    "C91_DeRidder2026_calculate_crest_freeboard_discharge_q_eq28",
    "C91_DeRidder2026_calculate_crest_freeboard_discharge_q_eq32",
    "C91_DeRidder2026_calculate_dimensionless_overtopping_discharge_eq28",
    "C91_DeRidder2026_calculate_overtopping_discharge_q_eq28",
    "C91_DeRidder2026_calculate_dimensionless_overtopping_discharge_eq32",
    "C91_DeRidder2026_calculate_overtopping_discharge_q_eq32",
    "C91_DAngremond1996_calculate_wave_transmission_Kt_permeable",
    "C91_DAngremond1996_calculate_wave_transmission_Kt_impermeable",
    "C91_Briganti2003_calculate_wave_transmission_Kt",
    "C91_VanGent2024_calculate_dimensionless_structure_induced_setup_impermeable",
    "C91_VanGent2024_calculate_structure_induced_setup_delta_impermeable",
    "C91_VanGent2024_calculate_dimensionless_structure_induced_setup_permeable",
    "C91_VanGent2024_calculate_structure_induced_setup_delta_permeable",
    "C91_Etemad2020_calculate_nominal_rock_diameter_Dn50",
    "C91_Jumelet2024_calculate_significant_wave_height_Hs",
    "C91_KramerBurcharth_calculate_nominal_rock_diameter_Dn50",
    "C91_KramerBurcharth_calculate_crest_freeboard_Rc",
    "C91_KramerBurcharth_missing_tolerance",
    "C91_VanGent2007Rear_calculate_maximum_significant_wave_height_Hs",
    "C91_VanGentPozueta2004_calculate_maximum_significant_wave_height_Hs",
    "C91_EtemadShahidi2021_calculate_significant_wave_height_Hs",
    "C91_Takahashi1990_calculate_significant_wave_height_Hs",
    "C91_Takahashi1990_depth_search_hangs",
    "C91_Jumelet2024_calculate_fraction_plunging_waves_Fp",
    "C91_Jumelet2024_calculate_damage_number_S",
    "C91_Jumelet2024_calculate_nominal_rock_diameter_Dn50",
    "C91_Scaravaglione2025_calculate_damage_number_S",
    "C91_Scaravaglione2025_calculate_nominal_rock_diameter_Dn50",
    "C91_Scaravaglione2025_calculate_significant_wave_height_Hm0",
    "C91_KramerBurcharth_calculate_significant_wave_height_Hs",
    "C91_VdM1988_calculate_damage_number_S",
    "C91_VdM1988_calculate_nominal_rock_diameter_Dn50",
    "C91_VdM1988_calculate_significant_wave_height_Hs",
    "C91_VdMModified_calculate_damage_number_S",
    "C91_VdMModified_calculate_nominal_rock_diameter_Dn50",
    "C91_VdMModified_calculate_significant_wave_height_Hs",
    "C91_VdM2021_calculate_damage_number_S",
    "C91_VdM2021_calculate_nominal_rock_diameter_Dn50",
    "C91_VdM2021_calculate_significant_wave_height_Hs",
    "C91_Goda1967_swallowed",
    "C91_Xbloc_factors_swallowed",
    "C91_VdM1988_gamma_N_swallowed",
    "C91_density_swallowed",
    "C91_VdMModified_c_pl_swallowed",
    "C91_VdMModified_c_s",
    "C91_Hudson1959_damage_percentage",
    "C91_VanGent2001_z2p_coefficients",
    "C91_VanGent2023_calculate_wave_transmission_Kt",
    "C91_Etemad2020_foreshore_slope",
    "C91_VanGent2021Caisson_c_swell",
    "C91_VanGent2025_needed",
    "C91_VdM1988_c_pl_swallowed",
    "C91_RunupTaw2002_calculate_dimensionless_wave_runup_height_z2p",
    "C91_RunupTaw2002_calculate_wave_runup_height_z2p",
    "C91_RunupEurOtop2018_calculate_dimensionless_wave_runup_height_z2p",
    "C91_RunupEurOtop2018_calculate_wave_runup_height_z2p",
    "C91_OvertoppingTaw2002_calculate_dimensionless_overtopping_discharge_q",
    "C91_OvertoppingTaw2002_calculate_overtopping_discharge_q",
    "C91_OvertoppingTaw2002_calculate_dimensionless_crest_freeboard",
    "C91_OvertoppingTaw2002_calculate_crest_freeboard_Rc",
    "C91_OvertoppingTaw2002_berm_width",
    "C91_OvertoppingTaw2002_berm_level",
    "C91_OvertoppingEurOtop2007_calculate_dimensionless_overtopping_discharge_q_rubble_mound",
    "C91_OvertoppingEurOtop2007_calculate_overtopping_discharge_q_rubble_mound",
    "C91_OvertoppingEurOtop2007_calculate_dimensionless_crest_freeboard_rubble_mound",
    "C91_OvertoppingEurOtop2007_calculate_crest_freeboard_Rc_rubble_mound",
    "C91_OvertoppingEurOtop2007_period_swallowed",
    "C91_OvertoppingEurOtop2018_calculate_dimensionless_overtopping_discharge_q",
    "C91_OvertoppingEurOtop2018_calculate_overtopping_discharge_q",
    "C91_OvertoppingEurOtop2018_calculate_dimensionless_crest_freeboard",
    "C91_OvertoppingEurOtop2018_calculate_crest_freeboard_Rc",
    "C91_OvertoppingEurOtop2018_calculate_dimensionless_overtopping_discharge_q_rubble_mound",
    "C91_OvertoppingEurOtop2018_calculate_dimensionless_crest_freeboard_rubble_mound",
    "C91_OvertoppingEurOtop2018_calculate_overtopping_discharge_q_rubble_mound",
    "C91_OvertoppingEurOtop2018_calculate_crest_freeboard_Rc_rubble_mound",
    "C91_CrestWall_calculate_influence_oblique_waves_force_gamma_F_beta",
    "C91_CrestWall_calculate_influence_oblique_waves_horizontal_force_gamma_FH_beta",
    "C91_CrestWall_calculate_influence_oblique_waves_vertical_force_gamma_FV_beta",
    "C91_CrestWall_calculate_influence_oblique_waves_gamma_beta",
    "C91_CrestWall_calculate_FH2p_perpendicular_from_z2p",
    "C91_CrestWall_calculate_FH2p_perpendicular",
    "C91_CrestWall_calculate_FH2p_oblique",
    "C91_CrestWall_calculate_FV2p_perpendicular_from_z2p",
    "C91_CrestWall_calculate_FV2p_perpendicular",
    "C91_CrestWall_calculate_FV2p_oblique",
    "C91_CrestWall_calculate_FH01p_perpendicular",
    "C91_CrestWall_calculate_FV01p_perpendicular",
    "C91_VanGent2001_calculate_wave_runup_height_zXp",
    "C91_VanGent2001_calculate_wave_runup_height_z1p",
    "C91_VanGent2001_calculate_wave_runup_height_z2p",
    "C91_VanGent2001_calculate_wave_runup_height_z10p",
    "C91_VanGent2001__invert_for_Hs",
    "C91_VanGent2002Velocity_calculate_maximum_wave_overtopping_velocity_uXp",
    "C91_VanGent2002Velocity__invert_for_zXp",
    "C91_VanGent2007Rear_calculate_damage_number_S",
    "C91_VanGent2007Rear_calculate_nominal_rock_diameter_Dn50",
    "C91_VanGent2007Rear__invert_for_z1p",
    "C91_VanGentPozueta2004_calculate_damage_number_S",
    "C91_VanGentPozueta2004_calculate_nominal_rock_diameter_Dn50",
    "C91_VanGentPozueta2004__invert_for_u1p",
    "C91_Gerding1993_calculate_damage_Nod",
    "C91_Gerding1993_calculate_nominal_diameter_Dn50",
    "C91_Gerding1993_calculate_wave_height_Hs",
    "C91_Gerding1993_calculate_depth_above_toe_ht",
    "C91_VanDerMeer1998_calculate_damage_Nod",
    "C91_VanDerMeer1998_calculate_nominal_diameter_Dn50",
    "C91_VanDerMeer1998_calculate_wave_height_Hs",
    "C91_VanDerMeer1998_calculate_depth_above_toe_ht",
    "C91_VanGentVanDerWerf2014_calculate_velocity_u_delta",
    "C91_VanGentVanDerWerf2014_calculate_damage_Nod",
    "C91_VanGentVanDerWerf2014_calculate_nominal_diameter_Dn50",
    "C91_EtemadShahidi2021_calculate_damage_Nod",
    "C91_EtemadShahidi2021_calculate_nominal_diameter_Dn50",
    "C91_Takahashi1990_calculate_stability_number_Ns",
    "C91_Takahashi1990_calculate_nominal_diameter_Dn50",
    "C91_CubesVdM_calculate_nominal_diameter_Dn_vanDerMeer1988_cot_alpha_unused",
    "C91_CubesVdM_calculate_wave_height_Hs_vanDerMeer1988_cot_alpha_unused",
    "C91_CubesVdM_calculate_damage_Nod_vanDerMeer1988_cot_alpha_unused",
    "C91_Gerding1993_calculate_damage_Nod_h_unused",
    "C91_Gerding1993_calculate_nominal_diameter_Dn50_h_unused",
    "C91_Gerding1993_calculate_wave_height_Hs_h_unused",
    "C91_Gerding1993_calculate_depth_above_toe_ht_h_unused",
    "C91_VanGentVanDerWerf2014_calculate_damage_Nod_cot_alpha_armour_slope_unused",
    "C91_VanGentVanDerWerf2014_calculate_nominal_diameter_Dn50_cot_alpha_armour_slope_unused",
    "C91_DAngremond1996_calculate_wave_transmission_Kt_permeable_h_unused",
    "C91_DAngremond1996_calculate_wave_transmission_Kt_impermeable_h_unused",
    "C91_CrestWall_calculate_FH2p_perpendicular_from_z2p_Hm0_unused",
    "C91_CrestWall_calculate_FH2p_perpendicular_from_z2p_Rc_unused",
    "C91_CrestWall_calculate_FH2p_perpendicular_Rc_unused",
    "C91_CrestWall_calculate_FH2p_oblique_Rc_unused"
   ],
   "note": "For every scalar formula function and every argument it needs, NaN in gives NaN or an exception out (C91_<module>_<function>), and the arguments a result does not depend on are identified (C91_..._unused). The full claim is false in the code: Goda (1967) coefficients, Xbloc factors, the storm duration factor and the plunging coefficient of Van der Meer, and the wave period of the EurOtop (2007) rubble mound formula turn NaN into a number (C91_..._swallowed), a missing tolerance returns the initial guess in Kramer & Burcharth, and the Takahashi search never ends (C91_Takahashi1990_depth_search_hangs). Arguments that have an alternative (Dn50/M50, gamma_beta/beta and the like) are covered only where the alternative is missing too; exponents must be non-zero reals; EurOtop (2018) rubble mound and the berm slope functions only in part."
  },
  {
   "property": "C92",
   "status": "partial",
   "theorems": [
    "C92_jumelet_damage_partial",
    "C92_jumelet_size_partial",
    "C92_jumelet_damage_refuted",
    "C92_jumelet_height_partial",
    "C92_kramer_required_size_partial",
    "C92_kramer_size_partial",
    "C92_kramer_allowed_crest_partial",
    "C92_kramer_crest_partial",
    "C92_rear2007_damage_partial",
    "C92_rear2007_size_partial",
    "C92_rear2007_dry_refuted",
    "C92_rear2007_slope_refuted",
    "C92_rear2007_crest_refuted",
    "C92_pozueta_damage",
    "C92_pozueta_size",
    "C92_etemad2020_damage",
    "C92_etemad2020_period_refuted",
    "C92_scaravaglione_damage",
    "C92_scaravaglione_size",
    "C92_scaravaglione_height",
    "C92_kramer_height_partial",
    "C92_kramer_height_refuted",
    "C92_etemad2020_required_size",
    "C92_etemad2020_size",
    "C92_rear2007_allowed_height_partial",
    "C92_rear2007_height_partial",
    "C92_pozueta_allowed_height",
    "C92_pozueta_height_partial",
    "C92_etemad_toe_allowed_height",
    "C92_etemad_toe_height",
    "C92_takahashi_stable_height",
    "C92_takahashi_height",
    "C92_takahashi_depth_partial",
    "C92_gerding_damage",
    "C92_gerding_size",
    "C92_gerding_height",
    "C92_vdm1998_damage",
    "C92_vdm1998_size",
    "C92_vdm1998_height",
    "C92_vangent_toe_damage",
    "C92_vangent_toe_size",
    "C92_etemad_toe_damage",
    "C92_etemad_toe_size",
    "C92_takahashi_stability",
    "C92_takahashi_size",
    "C92_hudson_mass",
    "C92_hudson_height",
    "C92_xbloc_size",
    "C92_xbloc_height",
    "C92_cubes_single",
    "C92_cubes_double_size",
    "C92_cubes_double_height",
    "C92_cubes_double_damage",
    "C92_crest_wall_horizontal",
    "C92_crest_wall_vertical_partial",
    "C92_crest_wall_vertical_refuted"
   ],
   "note": "Proved jointly in all arguments, strict where one changes, for toes (Gerding, Van der Meer 1998, Van Gent & Van der Werf, Etemad-Shahidi 2021, Takahashi), concrete units (all Hudson units, XblocPlus, cubes), Etemad-Shahidi 2020 (period and slope fixed), Scaravaglione 2025, Van Gent & Pozueta 2004 and the horizontal crest wall force. Proved under a condition, and refuted without it, for Jumelet 2024 (the number of plunging waves is rounded: a higher wave can do less damage), Kramer & Burcharth (crests above 1.9 stone sizes), Van Gent 2007 (run-up below the crest: damage falls as waves grow; crests below a fifth of the run-up; a gentler rear slope is more damaged, contrary to Van Gent & Pozueta) and the vertical crest wall force (lower armour crest). Refuted for the period in Etemad-Shahidi 2020 (jump at xi = 1.8). Results of iterations (Etemad-Shahidi 2020 size, Etemad-Shahidi 2021 wave height, rear slope wave heights): the exact solution is ordered, the returned numbers up to the error left by the tolerance (Van Gent 2007 with the crest level unchanged, Van Gent & Pozueta for crests up to 0.75 Rc/gamma_f; Kramer & Burcharth size and crest level where the iteration settles, for crests from 4.7 stone sizes below to 1.9 above the water). Takahashi wave heights: the exact solution is ordered, the heights found by the search up to its grid (2 mm without the precision warning). Takahashi depths: ordered up to one step of the search where larger depths are not less safe. Jumelet wave heights: ordered where the rounded number of plunging waves of the last pass does not go down."
  },
  {
   "property": "C93",
   "status": "partial",
   "theorems": [
    "C93_places_accropode",
    "C93_places_tetrapod",
    "C93_places_cubes",
    "C93_places_cubipod",
    "C93_places_core_loc",
    "C93_nonbreaking",
    "C93_accropode2_range",
    "C93_accropode_breaking_refuted",
    "C93_accropode_mass_refuted",
    "C93_xbloc_table",
    "C93_cubes_agree"
   ],
   "note": "Proved: in every table a harder place has a number that gives a larger unit and a lower wave; the functions for non-breaking waves return the table's entry; the Accropode II graph runs between the table's lowest and highest coefficient and reaches both; Xbloc and XblocPlus weigh what Hudson gives with the table's coefficient up to 0.13 % and 2.2 %; both modules for double-layer cubes agree. Refuted for one entry: the Accropode coefficient 12 for breaking waves is on the safe side of the graph only for seabed slopes up to 1 + 12/5.3 = 3.26 %. The head entry of cubes under breaking waves is None and raises a TypeError."
  },
  {
   "property": "C94",
   "status": "partial",
   "theorems": [
    "C94_taw_runup_composite_partial",
    "C94_eurotop2018_runup_composite_partial",
    "C94_eurotop2018_composite_discharge_partial",
    "C94_eurotop2018_rubble_composite_discharge_partial",
    "DesignSafe.C94_taw_discharge_partial",
    "DesignSafe.C94_taw_submerged_refuted",
    "DesignSafe.C94_taw_sigma",
    "DesignSafe.C94_taw_sigma_minus_one",
    "DesignSafe.C94_taw_freeboard_partial",
    "DesignSafe.C94_eurotop2007_discharge_partial",
    "DesignSafe.C94_eurotop2007_submerged_refuted",
    "DesignSafe.C94_eurotop2007_freeboard_partial",
    "DesignSafe.C94_eurotop2018_discharge_partial",
    "DesignSafe.C94_eurotop2018_freeboard",
    "DesignSafe.C94_eurotop2018_rubble_discharge_partial",
    "DesignSafe.C94_eurotop2018_rubble_freeboard",
    "DesignSafe.C94_runup_taw_partial",
    "DesignSafe.C94_runup_eurotop2018_partial",
    "DesignSafe.C94_vangent2025_discharge_partial",
    "DesignSafe.C94_vangent2025_freeboard_partial",
    "C94_vangent2025_wind_level_partial"
   ],
   "note": "Proved where true, for every combination of options that returns a number: TAW (2002) discharge for crests at or above the water level and required levels at or above it; EurOtop (2007); EurOtop (2018) discharge on single slopes and required levels on any slope, dikes and rubble mounds; run-up from breaker parameter 1/9 (TAW) or about 0.031 (EurOtop 2018) on; Van Gent (2025) discharges up to sqrt(g Hm0^3) and levels without wind; Van Gent (2025) levels with wind up to what the iteration leaves, for armour crests that alone let more than the required discharge pass. Refuted: crests below the water level (TAW 2002, EurOtop 2007), run-up at smaller breaker parameters, Van Gent discharges above sqrt(g Hm0^3), Van Gent levels governed by the maximum formula (design adds nothing). Also proved: positive sigma is the unsafe side. Run-up on composite slopes with a berm at or below the water line (TAW 2002, EurOtop 2018): design not lower up to the 0.2 mm of the iteration and higher from 6 mm on, on slopes of constant roughness within a factor four, Iribarren numbers from 0.5 on. EurOtop (2018) discharge on composite slopes without a berm: dikes in breaking waves (Iribarren numbers 0.5 to 1.7), rubble mounds of constant roughness, although the average slope differs between the variants. Missing: EurOtop (2018) discharge on composite slopes with berms or other Iribarren numbers, and run-up with berms above the water line."
  },
  {
   "property": "C95",
   "status": "partial",
   "theorems": [
    "C95_composite_taw2002_partial",
    "C95_composite_taw2002_berm_partial",
    "C95_composite_eurotop2018_partial",
    "C95_composite_eurotop2018_berm_partial",
    "C95_etemad2020_height_refuted",
    "C95_etemad2020_height_partial",
    "C95_etemad2020_size_partial",
    "C95_etemad_toe_height_partial",
    "C95_rear_pozueta_height_partial",
    "C95_rear2007_height_partial",
    "C95_jumelet_size_refuted",
    "C95_jumelet_damage_partial",
    "C95_jumelet_size_partial",
    "C95_takahashi_height_partial",
    "C95_vdm1988_damage_partial",
    "C95_vdm1988_size_partial",
    "C95_vdm1988_height_partial",
    "C95_modified_damage_partial",
    "C95_modified_size_partial",
    "C95_modified_height_partial",
    "C95_vdm2021_damage_partial",
    "C95_vdm2021_size_partial",
    "C95_vdm2021_height_partial",
    "C95_vdm1988_damage_5000_refuted",
    "C95_vdm1988_size_5000_refuted",
    "C95_vdm1988_damage_slope_refuted",
    "C95_vdm1988_size_slope_refuted",
    "C95_modified_damage_slope_refuted",
    "C95_modified_size_slope_refuted",
    "C95_eurotop2007_freeboard_partial",
    "C95_eurotop2018_rubble_freeboard_partial",
    "C95_eurotop2018_freeboard_partial",
    "C95_deridder2024_freeboard",
    "C95_deridder2026_freeboard",
    "C95_caisson_freeboard_partial",
    "C95_dangremond",
    "C95_briganti_partial",
    "C95_briganti_refuted",
    "C95_goda1967_refuted",
    "C95_goda1967_partial",
    "C95_vangent2023",
    "C95_setup_impermeable",
    "C95_setup_permeable",
    "C95_goda1985_loads",
    "C95_taw_runup_partial",
    "C95_taw_runup_long_waves_refuted",
    "C95_taw_runup_berm_refuted",
    "C95_taw_discharge_partial",
    "C95_taw_freeboard_partial",
    "C95_eurotop2007_discharge_partial",
    "C95_deridder2024_discharge",
    "C95_deridder2026_discharge",
    "C95_vangent2025_discharge",
    "C95_vangent2025_freeboard_partial",
    "C95_eurotop2018_discharge_partial",
    "C95_caisson_discharge_partial",
    "C95_crest_wall_factor_refuted",
    "C95_obliqueness",
    "C95_obliqueness_eurotop2018_refuted",
    "C95_taw_discharge_long_waves_refuted",
    "C95_taw_discharge_berm_refuted",
    "C95_hudson_mass",
    "C95_hudson_height",
    "C95_scaravaglione_damage",
    "C95_scaravaglione_height",
    "C95_scaravaglione_size",
    "C95_kramer_height",
    "C95_etemad2020_damage_refuted",
    "C95_etemad2020_damage_partial",
    "C95_jumelet_damage_refuted",
    "C95_gerding_damage",
    "C95_gerding_size",
    "C95_gerding_height",
    "C95_vdm1998_damage",
    "C95_vdm1998_size",
    "C95_vdm1998_height",
    "C95_vangent_toe_damage",
    "C95_vangent_toe_size",
    "C95_etemad_toe_size",
    "C95_vangent_runup",
    "C95_rear2007_damage",
    "C95_rear2007_size",
    "C95_pozueta_damage",
    "C95_pozueta_size",
    "C95_crest_wall_horizontal",
    "C95_crest_wall_vertical",
    "C95_crest_wall_horizontal_oblique_partial",
    "C95_crest_wall_vertical_oblique_partial",
    "C95_crest_wall_horizontal_oblique_refuted",
    "C95_crest_wall_vertical_oblique_refuted"
   ],
   "note": "Every formula function with a closed form is continuous in all its inputs together, or the place where it jumps is proved and continuity is proved away from it. False, and refuted, for: Van der Meer (1988) at 5000 waves and, with the modified formula, at slopes of 1:4 for surging waves; Etemad-Shahidi et al. (2020) at Iribarren number 1.8 (damage) and at the damage of plunging waves there (wave height, C95_etemad2020_height_*); Jumelet et al. (2024), damage and size, where the number of waves is rounded to another number (C95_jumelet_*); Briganti et al. (2003) at a crest of ten wave heights; Goda (1967) at the upper end of the transition; TAW (2002) run-up and discharge on rough slopes at Iribarren number 10 and, with a berm, at 1.8; the crest wall factor of TAW (2002) at 45 degrees; the obliqueness factor of EurOtop (2018) at roughness 0.6; the forces on crest walls in oblique waves where the run-up reaches the armour crest (no number there would connect both sides). The wave height of Takahashi (1990) is continuous in stone size and densities up to 2 mm left by its search (C95_takahashi_height_partial). Run-up on composite slopes by TAW (2002) and EurOtop (2018) stays within 0.1 to 0.3 mm of a level that changes continuously with all inputs together, under the conditions of C89 (C95_composite_*; for EurOtop (2018) with the roughness on one side of 0.6). So do the stone size of Etemad-Shahidi et al. (2020) away from Iribarren number 1.8 (C95_etemad2020_size_partial) and the iterated wave heights of Etemad-Shahidi et al. (2021), Van Gent & Pozueta (2004) and Van Gent (2007), up to what their tolerances leave (C95_etemad_toe_height_partial, C95_rear_pozueta_height_partial, C95_rear2007_height_partial). Missing: other results of iterations (overtopping on composite slopes, Jumelet height, Takahashi depth), concrete unit tables (step functions). Crest levels with exponent 1.3 (EurOtop (2018), caissons) for discharges up to the one at zero freeboard."
  },
  {
   "property": "C96",
   "status": "partial",
   "theorems": [
    "C96_vdm1988_size",
    "C96_vdm1988_height",
    "C96_modified_size",
    "C96_modified_height",
    "C96_vdm2021_size",
    "C96_vdm2021_height",
    "C96_scaravaglione_size",
    "C96_scaravaglione_height",
    "C96_jumelet_size",
    "C96_etemad2020_height_partial",
    "C96_etemad2020_height_refuted",
    "DesignProof.C96_taw2002_crest",
    "DesignProof.C96_taw2002_crest_straight",
    "DesignProof.C96_taw2002_other_gravity_refuted",
    "DesignProof.C96_eurotop2007_crest",
    "DesignProof.C96_eurotop2018_smooth_crest_partial",
    "DesignProof.C96_eurotop2018_rough_crest_partial",
    "DesignProof.C96_eurotop2018_rough_crest_refuted",
    "DesignProof.C96_eurotop2018_rubble_crest_partial",
    "DesignProof.C96_deridder2024_crest_partial",
    "DesignProof.C96_deridder2026_crest",
    "DesignProof.C96_caisson_crest_partial",
    "DesignProof.C96_caisson_crest_13_partial",
    "DesignProof.C96_vangent2025_mean_crest",
    "DesignProof.C96_vangent2025_design_crest_partial",
    "DesignProof.C96_vangent2025_design_crest_refuted",
    "C96_cubes_double_size_partial",
    "C96_cubes_double_height_partial",
    "C96_cubes_double_size_refuted",
    "C96_pozueta_size",
    "C96_vangent2007_size_partial",
    "C96_vangent2007_size_refuted",
    "C96_etemad2020_size_partial",
    "C96_jumelet_height_partial",
    "C96_takahashi_depth_partial",
    "C96_takahashi_depth_unsafe",
    "C96_takahashi_depth_refuted",
    "C96_gerding_height",
    "C96_gerding_size",
    "C96_gerding_depth",
    "C96_vdm1998_height",
    "C96_vdm1998_toe_size",
    "C96_vdm1998_depth_partial",
    "C96_vdm1998_depth_refuted",
    "C96_vgw2014_size_partial",
    "C96_vgw2014_size_refuted",
    "C96_etemad2021_size_partial",
    "C96_etemad2021_size_refuted",
    "C96_hudson",
    "C96_xbloc",
    "C96_cubes_single",
    "C96_kramer_size_partial",
    "C96_kramer_crest_partial",
    "C96_takahashi_height_partial"
   ],
   "note": "The returned size, wave height or crest level is proved to be exactly the limit for rock armour (Van der Meer 1988, its modification and 2021, Scaravaglione, Jumelet size), concrete units, toes by Gerding and Van der Meer (1998), rear slopes by Van Gent & Pozueta, and the crest levels of TAW, EurOtop 2007, De Ridder, caissons and Van Gent (2025). Partial because it is false in the code, and refuted, for: Van der Meer (1998) toe depth and Etemad-Shahidi (2021) toes and double layers of cubes (NaN on the safe side), Van Gent & Van der Werf (2014) (returned size 0.8 % larger than needed), rear slopes by Van Gent (2007) (returned size has 1.6 % more damage than allowed), Etemad-Shahidi (2020) wave heights in the jump of the formula, TAW (2002) with gravity above 9.81, Van Gent (2025) design crests where the maximum formula governs (overtops more than asked), EurOtop (2018) on rough slopes with the roughness correction (higher than needed). The restrictions of the other _partial theorems are stated in them. Kramer & Burcharth sizes and crest levels are limits up to what the tolerance leaves, where the iteration settles and in the range where the formula is monotone. Etemad-Shahidi (2020) sizes and Takahashi wave heights are the exact limit up to what the tolerance or the search grid leaves. The Takahashi depth is the limit up to one step of the search when the stones are too small at Hs/20; when they are stable there, the depth returned is one where they are not (C96_takahashi_depth_unsafe, _refuted). The damage at the wave height of Jumelet is the allowed one times the root of the ratio of two rounded numbers of waves, allowed exactly when these agree. Missing: run-up levels, Van Gent (2025) with wind (whose crests are not safe: C54_wind_refuted)."
  },
  {
   "property": "C97",
   "status": "partial",
   "theorems": [
    "C97_etemad2020_height_refuted",
    "C97_etemad2020_damage",
    "C97_jumelet",
    "C97_vdm1988_waves_refuted",
    "C97_etemad2020_refuted",
    "C97_vdm1988",
    "C97_modified",
    "C97_vdm2021",
    "C97_scaravaglione",
    "C97_vangent_runup",
    "C97_gerding",
    "C97_vdm1998",
    "C97_vangent_toe",
    "C97_rear2007",
    "C97_pozueta",
    "C97_hudson_mass",
    "C97_xbloc",
    "C97_cubes_single",
    "C97_cubes_double"
   ],
   "note": "Proved for Van der Meer (1988, 2021, modified), Scaravaglione et al., Jumelet et al. (stone size and damage), Etemad-Shahidi et al. (2020) (number of waves, armour and core size), Hudson, Xbloc, cubes in single and double layer, the toe formulas of Gerding, Van der Meer (1998) and Van Gent & Van der Werf (2014), the rear side formulas of Van Gent (2007) and Van Gent & Pozueta (2004) and the run-up of Van Gent (2002). Refuted for the number of waves in Van der Meer (1988), where the correction for long storms jumps at 5000 waves, and for the wave period in Etemad-Shahidi et al. (2020), where the formula jumps at the Iribarren number 1.8, and for the damage level in its wave height. Not stated for overtopping discharges, which depend exponentially on their inputs."
  },
  {
   "property": "C98",
   "status": "partial",
   "theorems": [
    "C98_vdm1988",
    "C98_vdm1988_period_refuted",
    "C98_modified",
    "C98_modified_period_refuted",
    "C98_vdm1988_waves_refuted",
    "C98_vdm2021",
    "C98_vdm2021_period_refuted",
    "C98_scaravaglione",
    "C98_hudson_mass",
    "C98_xbloc",
    "C98_cubes",
    "C98_toes",
    "C98_gerding_size_refuted",
    "C98_vangent_toe",
    "C98_rear2007",
    "C98_pozueta",
    "C98_takahashi_depth_flat",
    "C98_takahashi_depth_refuted",
    "C98_takahashi_height",
    "C98_etemad2020_size",
    "C98_kramer_size_refuted",
    "C98_kramer_unique_partial",
    "C98_deridder_wave_height",
    "C98_caisson_wave_height",
    "C98_vangent2025_wave_height",
    "C98_taw_wave_height_partial",
    "C98_eurotop2018_wave_height_partial",
    "C98_taw_runup_height_refuted"
   ],
   "note": "Proved for wave height, size, damage, number of waves and density where the formula passes relative changes on with powers of one sign (rock, units, toes, run-up and rear slopes). Refuted: in the Van der Meer formulas the damage as a function of the wave period has a maximum on slopes steeper than 1:4 (no period above it, two periods below it), Van der Meer (1988) has bounded damage in the number of waves, and Gerding (1993) has sizes without an answer. Overtopping: every discharge belongs to exactly one wave height for crests at or above the (swell-corrected) water level (De Ridder et al., caissons, Van Gent et al. 2025, smooth dikes by TAW and EurOtop 2018); the crest level questions are C49-C56 and C96. Refuted: run-up levels by TAW (2002) belong to two wave heights. Questions answered by iterations: one wave height per stone size (Takahashi), one size per damage (Etemad-Shahidi 2020), at most one size and one crest level per wave height in the range where Kramer & Burcharth is monotone; refuted for Kramer & Burcharth over all sizes (two sizes withstand the same wave). Depths above a caisson toe: refuted, in shallow water the designed size is Hs/(1.8 Delta) at every depth. Missing: rough slopes, where the discharge jumps."
  },
  {
   "property": "C99",
   "status": "partial",
   "theorems": [
    "C99_taw2002",
    "C99_eurotop2007",
    "C99_eurotop2018",
    "C99_eurotop2018_rubble",
    "C99_deridder",
    "C99_caisson",
    "C99_vangent2025_partial",
    "C99_vangent2025_wall_partial",
    "C99_vangent2025_wind_refuted",
    "C99_vangent2025_wall_refuted"
   ],
   "note": "Proved for TAW (2002) and EurOtop (2018), dikes and rubble mounds, with all options, EurOtop (2007) and De Ridder et al. (with equality), caissons above the swell correction, Van Gent et al. (2025) without wind and with given influence factors. With the crest wall factor computed from the crest level it holds for low swell, (1 + k) 0.4 Hm0_swell <= k Ac with k the coefficient of the wall factor, and is false for higher swell (C99_vangent2025_wall_refuted). With wind it is false for low walls (C99_vangent2025_wind_refuted)."
  },
  {
   "property": "C100",
   "status": "partial",
   "theorems": [
    "C100_taw_runup_any_berm_partial",
    "C100_taw_overtopping_any_berm_partial",
    "C100_eurotop2018_runup_any_berm_partial",
    "C100_vangent2025_wall_partial",
    "C100_vangent2025_wall_refuted",
    "C100_vangent2025_berm_partial",
    "C100_vangent2025_berm_refuted",
    "C100_vangent2025_stones",
    "C100_vangent2025_negative_factor_refuted",
    "C100_vangent2025_berm_in_range_refuted",
    "C100_caisson_parapet",
    "C100_taw_wall_partial"
   ],
   "note": "Proved: higher walls on slopes up to 1:8.9, larger stones and stones instead of a smooth slope (Van Gent et al. 2025), parapets on caissons (Van Gent 2021), walls on dikes (TAW 2002). False, proved as refutations: Van Gent et al. (2025) berms in long waves (steepness below 0.34^5 (Ac - db)/Ac) and berms with a negative berm factor, both also within the range of validity without a warning; low walls on slopes gentler than 1:8.9. Berms of any width at any level in a straight slope never give more run-up (TAW 2002, EurOtop 2018) or overtopping (TAW 2002) than no berm, on smooth slopes or Iribarren numbers below 1.8. Missing: wind (see C80), overtopping by EurOtop (2018) with computed berm factors."
  },
  {
   "property": "C101",
   "status": "partial",
   "theorems": [
    "C101_taw2002_high_crest",
    "C101_taw2002_ceiling",
    "C101_taw2002_small_waves",
    "C101_eurotop2007_high_crest",
    "C101_eurotop2007_ceiling",
    "C101_eurotop2007_small_waves",
    "C101_eurotop2018_high_crest",
    "C101_eurotop2018_ceiling",
    "C101_eurotop2018_small_waves",
    "C101_deridder_high_crest",
    "C101_deridder_small_waves",
    "C101_deridder_small_waves_refuted",
    "C101_eurotop2018_rubble_high_crest",
    "C101_eurotop2018_rubble_ceiling",
    "C101_eurotop2018_rubble_small_waves",
    "C101_caisson_high_crest",
    "C101_caisson_ceiling",
    "C101_caisson_small_waves",
    "C101_vangent2025_high_crest",
    "C101_vangent2025_wind_high_crest",
    "C101_vangent2025_ceiling",
    "C101_vangent2025_small_waves",
    "C101_vangent2025_wind_small_waves"
   ],
   "note": "Proved: all discharges over rising crests go to zero, with every option for which TAW (2002) and EurOtop (2018) return a discharge, and for EurOtop (2007), De Ridder et al. (2024, 2026), caissons, and Van Gent et al. (2025) with and without wind; the ceilings for crests at or above the water level (raised by the swell or infragravity part); very small waves then do not overtop. False, proved as a refutation: over a crest between the water level and the infragravity part (or below the water level), De Ridder et al. (2024, 2026) give the smallest waves the largest discharge, without bound."
  },
  {
   "property": "C102",
   "status": "partial",
   "theorems": [
    "C102_takahashi_size_refuted",
    "C102_gerding_size",
    "C102_gerding_depth",
    "C102_vdm1998_size",
    "C102_vdm1998_height",
    "C102_vdm1998_depth",
    "C102_rear2007_damage",
    "C102_pozueta_damage",
    "C102_rear2007_size",
    "C102_pozueta_size",
    "C102_rear2007_height",
    "C102_pozueta_height",
    "C102_scaravaglione_size",
    "C102_kramer_size_refuted",
    "C102_taw_runup",
    "C102_eurotop2018_runup",
    "C102_crest_wall_refuted"
   ],
   "note": "Proved for toe stability (Gerding 1993: size and depth; Van der Meer 1998: size, height and depth), rear slopes (damage, size and wave height by Van Gent 2007 and Van Gent & Pozueta 2004), Scaravaglione et al. (2025) sizes, and run-up by TAW (2002) and EurOtop (2018) with the coefficients of the code, composite slopes and berms included. Refuted for sizes by Kramer & Burcharth (2004) and crest wall forces in oblique waves, which can be negative without a warning. Sizes by Takahashi et al. (1990) are zero without a warning for toes half a wave length wide. Functions whose result is positive for positive inputs are covered by C78."
  },
  {
   "property": "C103",
   "status": "partial",
   "theorems": [
    "C103_jumelet_damage",
    "C103_jumelet_size",
    "C103_setup_impermeable",
    "C103_setup_permeable",
    "C103_rear2007_size_partial",
    "C103_pozueta_size",
    "C103_pozueta_damage",
    "C103_rear2007_damage",
    "C103_eurotop2018_rubble_refuted",
    "C103_eurotop2018_rubble_freeboard_refuted",
    "C103_eurotop2018_rubble_above",
    "C103_cubes_damage_refuted",
    "C103_etemad2021_damage_refuted",
    "C103_vdm1998_depth_refuted",
    "C103_rear2007_size_refuted",
    "C103_takahashi_refuted",
    "C103_wall_horizontal",
    "C103_wall_vertical_partial",
    "C103_wall_vertical_oblique_partial",
    "C103_wall_horizontal_oblique_partial",
    "C103_wall_horizontal_oblique_refuted",
    "C103_wall_vertical_oblique_refuted",
    "C103_wall_vertical_refuted",
    "C103_vangent2025_wind_refuted"
   ],
   "note": "Proved for EurOtop (2018) rubble mounds with the crest at or above the water, Jumelet et al. damage and size, wave set-up by Van Gent et al. (2024), Van Gent & Pozueta (2004) size and damage, Van Gent (2007) damage for every crest and crest element, Van Gent (2007) sizes with the rear crest element below the crest, and crest wall forces by Van Gent & Van der Werf (2019) with the armour crest above the water unless the run-up of oblique waves ends exactly at the reference level. Refuted for cube damage, Etemad-Shahidi et al. (2021) damage, Van der Meer (1998) depth, Van Gent (2007) sizes with the rear crest element above the crest, EurOtop (2018) rubble mounds with the crest under water (discharge) or discharges beyond the maximum (freeboard), Van Gent et al. (2025) crest levels with wind for high armour crests, Takahashi et al. (1990) stability numbers, crest wall forces of oblique waves that run up exactly to the reference level, and the vertical force with base and armour crest at the water line, with results NaN or infinite in silence. NumPy numbers; plain Python floats give a complex number where the power of a negative number is taken with **. Functions whose result is a positive number for positive inputs are covered by C78; other functions are not covered."
  },
  {
   "property": "C104",
   "status": "proved",
   "theorems": [
    "C104_wind_one_level",
    "C104_wind_level",
    "C104_wind_converges"
   ],
   "note": "Gravity 9.81, influence factors given, armour crest below the level needed without wind. C103_vangent2025_wind_refuted shows that an armour crest far above that level gives NaN; C54_wind_refuted that the discharge function takes the wind factor at another discharge."
  },
  {
   "property": "C105",
   "status": "partial",
   "theorems": [
    "C105_taw_runup_partial",
    "C105_eurotop2018_runup_partial"
   ],
   "note": "Proved for berms from the water line to 1.5 Hm0 below it, slopes at most a factor four apart, roughness that does not depend on the Iribarren number, up to the 0.2 mm left by the iteration. Missing: berms above the water line, rough slopes with Iribarren numbers from 1.8 on, Iribarren numbers below 0.5."
  },
  {
   "property": "C106",
   "status": "partial",
   "theorems": [
    "C106_taw_runup_at_limit",
    "C106_taw_runup_deep_gentle_below_refuted",
    "C106_taw_runup_deep_steep_below_refuted",
    "C106_taw_runup_high_gentle_above_refuted",
    "C106_taw_runup_high_steep_above_refuted",
    "C106_eurotop2018_runup_at_limit",
    "C106_eurotop2018_runup_deep_steep_below_refuted"
   ],
   "note": "Holds where the slopes meet exactly at 1.5 Hm0 below the water line (C106_*_at_limit, any roughness, TAW (2002) and EurOtop (2018)). False elsewhere outside the zone, proved for all inputs with an average slope that stays positive: the slope out of reach is counted with a negative length, so a steep slope far below the water (or a steep upper slope the waves never reach) lowers the run-up, a gentle one raises it (C106_*_refuted; the two cases above the run-up level for TAW (2002))."
  },
  {
   "property": "C107",
   "status": "proved",
   "theorems": [
    "C107_taw_runup",
    "C107_taw_overtopping",
    "C107_eurotop2018_runup"
   ],
   "note": "Run-up by TAW (2002) and EurOtop (2018) and overtopping by TAW (2002), any roughness, Iribarren numbers from 0.5 on. The slope above and below the berm is the same; with two slopes see C106."
  }
 ]
}
