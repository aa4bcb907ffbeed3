import Verif.Model.ConcreteHudson
import Verif.Model.Xbloc
import Verif.Model.VanDerMeer
import Verif.Model.RearSlope
import Verif.Model.Etemad2020
import Verif.Model.OvertoppingMore
import Verif.Model.Transmission
import Verif.Lemmas.MissingCore

/-! # C91: arguments that matter in part of the cases, and missing values that do become numbers -/

open Classical
open PF Missing
set_option maxRecDepth 4000
noncomputable section

/-! ## Missing values that become numbers -/

/-- Goda (1967): with a missing value every comparison is false and the smallest transmission coefficient is
returned. -/
theorem C91_Goda1967_swallowed (Hsi Rc alpha_1 beta_1 : PF) (missing : nan ∈ [Hsi, Rc, alpha_1, beta_1]) :
    Goda1967.calculate_wave_transmission_Kt Hsi Rc alpha_1 beta_1 = 0.03 := by
  simp only [List.mem_cons, List.not_mem_nil, or_false] at missing
  rcases missing with rfl | rfl | rfl | rfl <;> nan_simp [Goda1967.calculate_wave_transmission_Kt]

example := C91_Goda1967_swallowed nan (.fin 1) (.fin 2.2) (.fin 0.4) (by simp)

/-- Xbloc: for a missing value the correction factor is 1, as if the situation needed no heavier units. -/
theorem C91_Xbloc_factors_swallowed :
    Xbloc.calculate_correctionfactor_unit_mass_M_by_cotalpha_seabed nan = 1.0 ∧
    Xbloc.calculate_correctionfactor_unit_mass_M_by_percslope_seabed nan = 1.0 ∧
    Xbloc.calculate_correctionfactor_unit_mass_M_by_relative_freeboard nan = 1.0 ∧
    Xbloc.calculate_correctionfactor_unit_mass_M_by_rel_depth nan = 1.0 ∧
    Xbloc.calculate_correctionfactor_unit_mass_M_by_structure_slope nan = 1.0 ∧
    XblocPlus.calculate_correctionfactor_unit_mass_M_by_cotalpha_seabed nan = 1.0 ∧
    XblocPlus.calculate_correctionfactor_unit_mass_M_by_percslope_seabed nan = 1.0 ∧
    XblocPlus.calculate_correctionfactor_unit_mass_M_by_relative_freeboard nan = 1.0 := by
  refine ⟨?_, ?_, ?_, ?_, ?_, ?_, ?_, ?_⟩
  all_goals
    nan_simp [Xbloc.calculate_correctionfactor_unit_mass_M_by_cotalpha_seabed,
      Xbloc.calculate_correctionfactor_unit_mass_M_by_percslope_seabed,
      Xbloc.calculate_correctionfactor_unit_mass_M_by_relative_freeboard,
      Xbloc.calculate_correctionfactor_unit_mass_M_by_rel_depth,
      Xbloc.calculate_correctionfactor_unit_mass_M_by_structure_slope,
      XblocPlus.calculate_correctionfactor_unit_mass_M_by_cotalpha_seabed,
      XblocPlus.calculate_correctionfactor_unit_mass_M_by_percslope_seabed,
      XblocPlus.calculate_correctionfactor_unit_mass_M_by_relative_freeboard]

/-- Van der Meer (1988): the correction for the storm duration is 1 for a missing number of waves. -/
theorem C91_VdM1988_gamma_N_swallowed : VdM1988.calculate_correction_term_gamma_N nan = 1.0 := by
  nan_simp [VdM1988.calculate_correction_term_gamma_N]

/-- A missing density of the rock becomes 2650 kg/m³, with a warning, when a mass is given. -/
theorem C91_density_swallowed (m : ℝ) :
    CorePhysics.check_usage_Dn50_or_M50 nan (fin m) nan =
      ⟨[.text "rho_armour is not provided, the default value of 2650 kg/m3 is used."],
        .ok (CorePhysics.calculate_Dn50_from_M50 (fin m) 2650)⟩ := by
  unfold CorePhysics.check_usage_Dn50_or_M50
  rw [if_neg (fun h => h.2), if_pos ⟨trivial, fun h => h⟩, if_pos (show nan.isnan from trivial)]
  rfl

example := C91_density_swallowed 3000

/-- Van der Meer: with a missing coefficient `c_pl` for plunging waves the critical Iribarren number is NaN, and on
slopes steeper than 1:4 the formula for surging waves is used, also for waves that are plunging. -/
theorem C91_VdMModified_c_pl_swallowed (Hs H2p Tmm10 N_waves cot_alpha : PF) (P : ℝ) (rho_armour S c_s rho_water : PF)
    (hP : 0 < P) (steep : ¬ (4.0 ≤ cot_alpha)) :
    (VdMModified.calculate_nominal_rock_diameter_Dn50 Hs H2p Tmm10 N_waves cot_alpha (fin P) rho_armour S nan c_s
      rho_water).res =
      .ok ((Hs / ((rho_armour - rho_water) / rho_water)) * (H2p / Hs) * (1 / c_s) * npow (fin P) 0.13
        * npow (S / PF.sqrt N_waves) (-0.2) * (1 / PF.sqrt cot_alpha)
        * npow (CorePhysics.calculate_Iribarren_number_ksi Hs Tmm10 cot_alpha) (-fin P)) := by
  unfold VdMModified.calculate_nominal_rock_diameter_Dn50
  nan_simp [CorePhysics.calculate_critical_Iribarren_number_ksi_mc, VdMModified.check_validity_range,
    CorePhysics.calculate_buoyant_density_Delta, check_bind_res, steep]
  rfl

example := C91_VdMModified_c_pl_swallowed (.fin 2) (.fin 2.8) (.fin 5) (.fin 3000) (.fin 3) 0.4 (.fin 2650) (.fin 2)
  (.fin 1.3) (.fin 1025) (by norm_num) (by rw [sci_eq, le_fin]; norm_num)

/-- A missing coefficient `c_s` for surging waves gives no number on slopes steeper than 1:4. -/
theorem C91_VdMModified_c_s (Hs H2p Tmm10 N_waves cot_alpha : PF) (P : ℝ) (rho_armour S c_pl rho_water : PF)
    (hP : 0 < P) (steep : ¬ (4.0 ≤ cot_alpha)) :
    NoNumber (VdMModified.calculate_nominal_rock_diameter_Dn50 Hs H2p Tmm10 N_waves cot_alpha (fin P) rho_armour S
      c_pl nan rho_water) := by
  no_number [VdMModified.calculate_nominal_rock_diameter_Dn50,
    CorePhysics.calculate_critical_Iribarren_number_ksi_mc, steep]

example := C91_VdMModified_c_s (.fin 2) (.fin 2.8) (.fin 5) (.fin 3000) (.fin 3) 0.4 (.fin 2650) (.fin 2)
  (.fin 8.4) (.fin 1025) (by norm_num) (by rw [sci_eq, le_fin]; norm_num)

/-! ## Values needed in part of the cases -/

private theorem searchsorted_nan : Hudson1959.searchsorted_right Hudson1959.percentages nan = 9 := if_pos trivial

private theorem lookup_nan (rock_type : String) :
    ∃ e, Hudson1959.lookup_table_damage_factors nan rock_type = PyM.raise e := by
  unfold Hudson1959.lookup_table_damage_factors
  rw [searchsorted_nan]
  dsimp only
  split_ifs
  exacts [⟨_, rfl⟩, ⟨_, rfl⟩, ⟨_, rfl⟩]

/-- Hudson: a missing damage percentage raises an exception. -/
theorem C91_Hudson1959_damage_percentage (Hs M50 rho_water rho_armour KD cot_alpha : PF) (rock_type : String)
    (alpha_Hs : PF) :
    (∃ e, (Hudson1959.calculate_median_rock_mass_M50 Hs rho_water rho_armour KD cot_alpha nan rock_type alpha_Hs).res =
      .error e) ∧
    ∃ e, (Hudson1959.calculate_significant_wave_height_Hs M50 rho_water rho_armour KD cot_alpha nan rock_type
      alpha_Hs).res = .error e := by
  obtain ⟨e, he⟩ := lookup_nan rock_type
  refine ⟨⟨e, ?_⟩, ⟨e, ?_⟩⟩
  · unfold Hudson1959.calculate_median_rock_mass_M50; rw [he]; rfl
  · unfold Hudson1959.calculate_significant_wave_height_Hs; rw [he]; rfl

example := C91_Hudson1959_damage_percentage (.fin 2) (.fin 3000) (.fin 1025) (.fin 2650) (.fin 4) (.fin 2) "rough"
  (.fin 1.27)

/-- Van Gent (2001): the coefficients of the 2% run-up count only when `Hs` is given; with `Hm0` they are
overwritten. -/
theorem C91_VanGent2001_z2p_coefficients (Tmm10 gamma cot_alpha H c0 c1 : PF) :
    (nan ∈ [c0, c1] → NoNumber (VanGent2001.calculate_wave_runup_height_z2p Tmm10 gamma cot_alpha nan H c0 c1)) ∧
    Unused (fun c => VanGent2001.calculate_wave_runup_height_z2p Tmm10 gamma cot_alpha H nan c c1) ∧
    Unused (fun c => VanGent2001.calculate_wave_runup_height_z2p Tmm10 gamma cot_alpha H nan c0 c) := by
  refine ⟨?_, ?_, ?_⟩
  · intro h
    simp only [List.mem_cons, List.not_mem_nil, or_false] at h
    rcases h with rfl | rfl <;>
      no_number [VanGent2001.calculate_wave_runup_height_z2p, VanGent2001.calculate_wave_runup_height_zXp]
  all_goals
    intro x y
    unfold VanGent2001.calculate_wave_runup_height_z2p
    dsimp only
    by_cases h : H.isnan
    · rw [if_pos (show H.isnan ∧ nan.isnan ∨ ¬ nan.isnan ∧ ¬ H.isnan from .inl ⟨h, trivial⟩)]
      exact (congrArg PyM.res (if_pos (show H.isnan ∧ nan.isnan ∨ ¬ nan.isnan ∧ ¬ H.isnan from
        .inl ⟨h, trivial⟩))).symm
    · rw [if_pos (show nan.isnan ∧ ¬ H.isnan from ⟨trivial, h⟩), if_pos (show nan.isnan ∧ ¬ H.isnan from ⟨trivial, h⟩)]

example := (C91_VanGent2001_z2p_coefficients (.fin 7) (.fin 0.5) (.fin 2) (.fin 2) nan (.fin 4.7)).1 (by simp)

/-- Van Gent et al. (2023): no number for a missing wave height, wave period, freeboard or crest width, whatever the
structure. -/
theorem C91_VanGent2023_calculate_wave_transmission_Kt (disper : PF → PF → PF → PF) (Hm0 Tmm10 Rc B : PF)
    (structure_type : String) (hd : Passes disper) (missing : nan ∈ [Hm0, Tmm10, Rc, B]) :
    NoNumber (VanGent2023.calculate_wave_transmission_Kt disper Hm0 Tmm10 Rc B structure_type) := by
  unfold VanGent2023.calculate_wave_transmission_Kt VanGent2023.coefficients
  simp only [List.mem_cons, List.not_mem_nil, or_false] at missing
  split
  all_goals
    first
    | exact .raise_bind _ _
    | (rw [pure_bind]
       rcases missing with rfl | rfl | rfl | rfl <;>
         no_number [CorePhysics.calculate_local_wavelength, hd.1, hd.2.1, hd.2.2])

example := C91_VanGent2023_calculate_wave_transmission_Kt (fun w h g => w + h + g) (.fin 2) nan (.fin 0.5) (.fin 5)
  "permeable" passes_sum (by simp)

/-- Etemad-Shahidi et al. (2020): the depth-limited version without a foreshore slope raises an exception. -/
theorem C91_Etemad2020_foreshore_slope (Hs Tmm10 N_waves cot_alpha rho_armour Dn50 M50 Dn50_core M50_core rho_core
    rho_water : PF) :
    (Etemad2020.calculate_damage_number_S Hs Tmm10 N_waves cot_alpha rho_armour Dn50 M50 Dn50_core M50_core rho_core
      rho_water nan true).res = .error .valueError := by
  have : Etemad2020.depth_limitation nan true = PyM.raise .valueError := by
    unfold Etemad2020.depth_limitation
    rw [if_pos rfl, if_pos (show nan.isnan from trivial)]
  unfold Etemad2020.calculate_damage_number_S
  rw [this]
  rfl

example := C91_Etemad2020_foreshore_slope (.fin 2) (.fin 7) (.fin 3000) (.fin 2) (.fin 2650) (.fin 1) nan (.fin 0.3)
  nan nan (.fin 1025)

/-- Van Gent (2021), caissons: with crossing seas a missing swell coefficient gives no number. -/
theorem C91_VanGent2021Caisson_c_swell (Hm0 Rc q beta gamma_beta Hm0_swell : PF) (c : ℝ) (g : PF)
    (short_crested_waves parapet : Bool) (hc : c ≠ 0) :
    NoNumber (VanGent2021Caisson.calculate_dimensionless_overtopping_discharge_q Hm0 Rc beta gamma_beta Hm0_swell
      (fin c) nan short_crested_waves true parapet) ∧
    NoNumber (VanGent2021Caisson.calculate_dimensionless_crest_freeboard Hm0 q beta gamma_beta Hm0_swell
      (fin c) nan short_crested_waves true parapet g) := by
  have hs : NoNumber (VanGent2021Caisson.swell_coefficient nan Hm0_swell true) := by
    no_number [VanGent2021Caisson.swell_coefficient, Bool.not_true, Bool.false_eq_true]
  have hc' : (fin c) ≠ fin 0 := fin_ne hc
  have hc'' : (1.0 / fin c : PF) ≠ fin 0 := by
    rw [sci_eq, div_fin hc]
    exact fin_ne (div_ne_zero (by norm_num) hc)
  constructor
  · unfold VanGent2021Caisson.calculate_dimensionless_overtopping_discharge_q
    refine .bind fun k => ?_
    dsimp only
    refine .bind_nan hs ?_
    no_number []
  · unfold VanGent2021Caisson.calculate_dimensionless_crest_freeboard
    refine .bind fun k => ?_
    dsimp only
    refine .bind_nan hs ?_
    no_number []

example := C91_VanGent2021Caisson_c_swell (.fin 3) (.fin 4) (.fin 0.01) (.fin 10) nan (.fin 1) 1.3 (.fin 9.81) true
  false (by norm_num)

/-- Van Gent et al. (2025): the slope and the crest wall factor are always needed, the berm when its factor is not
given, the wave angle when its factor is not given. -/
theorem C91_VanGent2025_needed (Hm0 Hm0_swell Tmm10 Rc Ac cot_alpha beta B_berm db Dn50 gamma_f gamma_b gamma_v
    gamma_beta : PF) (design_calculation include_influence_wind : Bool)
    (missing : nan ∈ [cot_alpha, gamma_v] ∨ (gamma_b = nan ∧ nan ∈ [Ac, B_berm, db]) ∨
      (gamma_beta = nan ∧ beta = nan)) :
    NoNumber (VanGent2025.calculate_dimensionless_overtopping_discharge_q Hm0 Hm0_swell Tmm10 Rc Ac cot_alpha beta
      B_berm db Dn50 gamma_f gamma_b gamma_v gamma_beta design_calculation include_influence_wind) := by
  simp only [List.mem_cons, List.not_mem_nil, or_false] at missing
  rcases missing with (rfl | rfl) | ⟨rfl, rfl | rfl | rfl⟩ | ⟨rfl, rfl⟩ <;>
    no_number [VanGent2025.calculate_dimensionless_overtopping_discharge_q,
      VanGent2025.calculate_influence_oblique_waves_gamma_beta, CorePhysics.calculate_Iribarren_number_ksi,
      CorePhysics.calculate_wave_steepness_s, VanGent2025.calculate_influence_berm_gamma_b,
      VanGent2025.q_diml_max_equation, VanGent2025.calculate_influence_wind_gamma_w]

example := C91_VanGent2025_needed (.fin 2) (.fin 0.5) (.fin 7) (.fin 3) nan (.fin 2) (.fin 10) (.fin 5) (.fin 1)
  (.fin 1) (.fin 0.5) nan (.fin 1) (.fin 1) false false (.inr (.inl ⟨rfl, by simp⟩))

/-- Van der Meer (1988): as `C91_VdMModified_c_pl_swallowed`. -/
theorem C91_VdM1988_c_pl_swallowed (Hs H2p Tm N_waves cot_alpha : PF) (P : ℝ) (rho_armour S c_s rho_water : PF)
    (hP : 0 < P) (steep : ¬ (4.0 ≤ cot_alpha)) :
    (VdM1988.calculate_nominal_rock_diameter_Dn50 Hs H2p Tm N_waves cot_alpha (fin P) rho_armour S nan c_s
      rho_water).res =
      .ok ((Hs / ((rho_armour - rho_water) / rho_water)) * (H2p / Hs) * (1 / c_s) * npow (fin P) 0.13
        * npow (VdM1988.calculate_correction_term_gamma_N N_waves * S / PF.sqrt N_waves) (-0.2)
        * (1 / PF.sqrt cot_alpha)
        * npow (CorePhysics.calculate_Iribarren_number_ksi Hs Tm cot_alpha) (-fin P)) := by
  unfold VdM1988.calculate_nominal_rock_diameter_Dn50
  nan_simp [CorePhysics.calculate_critical_Iribarren_number_ksi_mc, VdM1988.check_validity_range,
    CorePhysics.calculate_buoyant_density_Delta, check_bind_res, steep]
  rfl

example := C91_VdM1988_c_pl_swallowed (.fin 2) (.fin 2.8) (.fin 5) (.fin 3000) (.fin 3) 0.4 (.fin 2650) (.fin 2)
  (.fin 1.3) (.fin 1025) (by norm_num) (by rw [sci_eq, le_fin]; norm_num)

end
