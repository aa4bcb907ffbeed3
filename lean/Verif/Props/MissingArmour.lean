import Verif.Model.ConcreteHudson
import Verif.Model.Hudson1959
import Verif.Model.Cubes
import Verif.Model.Xbloc
import Verif.Model.Etemad2020
import Verif.Lemmas.MissingCore

/-! # C91: missing values are not turned into numbers — concrete armour units, the Hudson formula and Etemad-Shahidi et al. (2020) -/

open Classical
open PF Missing
set_option maxRecDepth 4000
noncomputable section

theorem C91_Accropode_calculate_unit_mass_M (Hs rho_water rho_armour KD cot_alpha alpha_Hs : PF) (missing : nan
    ∈ [Hs, rho_water, rho_armour, KD, cot_alpha, alpha_Hs]) : NoNumber (Accropode.calculate_unit_mass_M Hs
    rho_water rho_armour KD cot_alpha alpha_Hs) := by
  simp only [List.mem_cons, List.not_mem_nil, or_false] at missing
  rcases missing with rfl | rfl | rfl | rfl | rfl | rfl <;>
    no_number [Accropode.calculate_unit_mass_M, Hudson1959.calculate_median_rock_mass_M50_no_damage,
      CorePhysics.calculate_buoyant_density_Delta]

example := C91_Accropode_calculate_unit_mass_M nan (.fin 1025) (.fin 2650) (.fin 8) (.fin 2) (.fin 1.5) (by
  simp)

theorem C91_Accropode_calculate_significant_wave_height_Hs (M rho_water rho_armour KD cot_alpha alpha_Hs : PF)
    (missing : nan ∈ [M, rho_water, rho_armour, KD, cot_alpha, alpha_Hs]) : NoNumber
    (Accropode.calculate_significant_wave_height_Hs M rho_water rho_armour KD cot_alpha alpha_Hs) := by
  simp only [List.mem_cons, List.not_mem_nil, or_false] at missing
  rcases missing with rfl | rfl | rfl | rfl | rfl | rfl <;>
    no_number [Accropode.calculate_significant_wave_height_Hs,
      Hudson1959.calculate_significant_wave_height_Hs_no_damage,
      CorePhysics.calculate_buoyant_density_Delta]

example := C91_Accropode_calculate_significant_wave_height_Hs nan (.fin 1025) (.fin 2650) (.fin 8) (.fin 2)
  (.fin 1.5) (by simp)

theorem C91_Accropode_calculate_KD_breaking_trunk_from_seabed_slope (seabed_slope_perc : PF) (missing : nan ∈
    [seabed_slope_perc]) : NoNumber (Accropode.calculate_KD_breaking_trunk_from_seabed_slope seabed_slope_perc)
    := by
  simp only [List.mem_cons, List.not_mem_nil, or_false] at missing
  rcases missing with rfl
  no_number [Accropode.calculate_KD_breaking_trunk_from_seabed_slope, np_interp, interpR]

example := C91_Accropode_calculate_KD_breaking_trunk_from_seabed_slope nan (by simp)

theorem C91_Accropode2_calculate_unit_mass_M (Hs rho_water rho_armour KD cot_alpha alpha_Hs : PF) (missing : nan
    ∈ [Hs, rho_water, rho_armour, KD, cot_alpha, alpha_Hs]) : NoNumber (Accropode2.calculate_unit_mass_M Hs
    rho_water rho_armour KD cot_alpha alpha_Hs) := by
  simp only [List.mem_cons, List.not_mem_nil, or_false] at missing
  rcases missing with rfl | rfl | rfl | rfl | rfl | rfl <;>
    no_number [Accropode2.calculate_unit_mass_M, Hudson1959.calculate_median_rock_mass_M50_no_damage,
      CorePhysics.calculate_buoyant_density_Delta]

example := C91_Accropode2_calculate_unit_mass_M nan (.fin 1025) (.fin 2650) (.fin 8) (.fin 2) (.fin 1.5) (by
  simp)

theorem C91_Accropode2_calculate_significant_wave_height_Hs (M rho_water rho_armour KD cot_alpha alpha_Hs : PF)
    (missing : nan ∈ [M, rho_water, rho_armour, KD, cot_alpha, alpha_Hs]) : NoNumber
    (Accropode2.calculate_significant_wave_height_Hs M rho_water rho_armour KD cot_alpha alpha_Hs) := by
  simp only [List.mem_cons, List.not_mem_nil, or_false] at missing
  rcases missing with rfl | rfl | rfl | rfl | rfl | rfl <;>
    no_number [Accropode2.calculate_significant_wave_height_Hs,
      Hudson1959.calculate_significant_wave_height_Hs_no_damage,
      CorePhysics.calculate_buoyant_density_Delta]

example := C91_Accropode2_calculate_significant_wave_height_Hs nan (.fin 1025) (.fin 2650) (.fin 8) (.fin 2)
  (.fin 1.5) (by simp)

theorem C91_Accropode2_calculate_KD_breaking_trunk_from_seabed_slope (seabed_slope_perc : PF) (missing : nan ∈
    [seabed_slope_perc]) : NoNumber (Accropode2.calculate_KD_breaking_trunk_from_seabed_slope seabed_slope_perc)
    := by
  simp only [List.mem_cons, List.not_mem_nil, or_false] at missing
  rcases missing with rfl
  no_number [Accropode2.calculate_KD_breaking_trunk_from_seabed_slope, np_interp, interpR]

example := C91_Accropode2_calculate_KD_breaking_trunk_from_seabed_slope nan (by simp)

theorem C91_CoreLoc_calculate_unit_mass_M (Hs rho_water rho_armour KD cot_alpha alpha_Hs : PF) (missing : nan ∈
    [Hs, rho_water, rho_armour, KD, cot_alpha, alpha_Hs]) : CoreLoc.calculate_unit_mass_M Hs rho_water
    rho_armour KD cot_alpha alpha_Hs = nan := by
  simp only [List.mem_cons, List.not_mem_nil, or_false] at missing
  rcases missing with rfl | rfl | rfl | rfl | rfl | rfl <;>
    nan_simp [CoreLoc.calculate_unit_mass_M, Hudson1959.calculate_median_rock_mass_M50_no_damage,
      CorePhysics.calculate_buoyant_density_Delta]

example := C91_CoreLoc_calculate_unit_mass_M nan (.fin 1025) (.fin 2650) (.fin 8) (.fin 2) (.fin 1.5) (by simp)

theorem C91_CoreLoc_calculate_significant_wave_height_Hs (M rho_water rho_armour KD cot_alpha alpha_Hs : PF)
    (missing : nan ∈ [M, rho_water, rho_armour, KD, cot_alpha, alpha_Hs]) :
    CoreLoc.calculate_significant_wave_height_Hs M rho_water rho_armour KD cot_alpha alpha_Hs = nan := by
  simp only [List.mem_cons, List.not_mem_nil, or_false] at missing
  rcases missing with rfl | rfl | rfl | rfl | rfl | rfl <;>
    nan_simp [CoreLoc.calculate_significant_wave_height_Hs,
      Hudson1959.calculate_significant_wave_height_Hs_no_damage,
      CorePhysics.calculate_buoyant_density_Delta]

example := C91_CoreLoc_calculate_significant_wave_height_Hs nan (.fin 1025) (.fin 2650) (.fin 8) (.fin 2) (.fin
  1.5) (by simp)

theorem C91_CoreLoc_calculate_KD_breaking_trunk_from_seabed_slope (seabed_slope_perc : PF) (missing : nan ∈
    [seabed_slope_perc]) : NoNumber (CoreLoc.calculate_KD_breaking_trunk_from_seabed_slope seabed_slope_perc) :=
    by
  simp only [List.mem_cons, List.not_mem_nil, or_false] at missing
  rcases missing with rfl
  no_number [CoreLoc.calculate_KD_breaking_trunk_from_seabed_slope, np_interp, interpR]

example := C91_CoreLoc_calculate_KD_breaking_trunk_from_seabed_slope nan (by simp)

theorem C91_CubesHudson_calculate_unit_mass_M (Hs rho_water rho_armour KD cot_alpha alpha_Hs : PF) (missing :
    nan ∈ [Hs, rho_water, rho_armour, KD, cot_alpha, alpha_Hs]) : CubesHudson.calculate_unit_mass_M Hs rho_water
    rho_armour KD cot_alpha alpha_Hs = nan := by
  simp only [List.mem_cons, List.not_mem_nil, or_false] at missing
  rcases missing with rfl | rfl | rfl | rfl | rfl | rfl <;>
    nan_simp [CubesHudson.calculate_unit_mass_M, Hudson1959.calculate_median_rock_mass_M50_no_damage,
      CorePhysics.calculate_buoyant_density_Delta]

example := C91_CubesHudson_calculate_unit_mass_M nan (.fin 1025) (.fin 2650) (.fin 8) (.fin 2) (.fin 1.5) (by
  simp)

theorem C91_CubesHudson_calculate_significant_wave_height_Hs (M rho_water rho_armour KD cot_alpha alpha_Hs : PF)
    (missing : nan ∈ [M, rho_water, rho_armour, KD, cot_alpha, alpha_Hs]) :
    CubesHudson.calculate_significant_wave_height_Hs M rho_water rho_armour KD cot_alpha alpha_Hs = nan := by
  simp only [List.mem_cons, List.not_mem_nil, or_false] at missing
  rcases missing with rfl | rfl | rfl | rfl | rfl | rfl <;>
    nan_simp [CubesHudson.calculate_significant_wave_height_Hs,
      Hudson1959.calculate_significant_wave_height_Hs_no_damage,
      CorePhysics.calculate_buoyant_density_Delta]

example := C91_CubesHudson_calculate_significant_wave_height_Hs nan (.fin 1025) (.fin 2650) (.fin 8) (.fin 2)
  (.fin 1.5) (by simp)

theorem C91_Cubipod_calculate_unit_mass_M (Hs rho_water rho_armour KD cot_alpha alpha_Hs : PF) (missing : nan ∈
    [Hs, rho_water, rho_armour, KD, cot_alpha, alpha_Hs]) : Cubipod.calculate_unit_mass_M Hs rho_water
    rho_armour KD cot_alpha alpha_Hs = nan := by
  simp only [List.mem_cons, List.not_mem_nil, or_false] at missing
  rcases missing with rfl | rfl | rfl | rfl | rfl | rfl <;>
    nan_simp [Cubipod.calculate_unit_mass_M, Hudson1959.calculate_median_rock_mass_M50_no_damage,
      CorePhysics.calculate_buoyant_density_Delta]

example := C91_Cubipod_calculate_unit_mass_M nan (.fin 1025) (.fin 2650) (.fin 8) (.fin 2) (.fin 1.5) (by simp)

theorem C91_Cubipod_calculate_significant_wave_height_Hs (M rho_water rho_armour KD cot_alpha alpha_Hs : PF)
    (missing : nan ∈ [M, rho_water, rho_armour, KD, cot_alpha, alpha_Hs]) :
    Cubipod.calculate_significant_wave_height_Hs M rho_water rho_armour KD cot_alpha alpha_Hs = nan := by
  simp only [List.mem_cons, List.not_mem_nil, or_false] at missing
  rcases missing with rfl | rfl | rfl | rfl | rfl | rfl <;>
    nan_simp [Cubipod.calculate_significant_wave_height_Hs,
      Hudson1959.calculate_significant_wave_height_Hs_no_damage,
      CorePhysics.calculate_buoyant_density_Delta]

example := C91_Cubipod_calculate_significant_wave_height_Hs nan (.fin 1025) (.fin 2650) (.fin 8) (.fin 2) (.fin
  1.5) (by simp)

theorem C91_Tetrapod_calculate_unit_mass_M (Hs rho_water rho_armour KD cot_alpha alpha_Hs : PF) (missing : nan ∈
    [Hs, rho_water, rho_armour, KD, cot_alpha, alpha_Hs]) : Tetrapod.calculate_unit_mass_M Hs rho_water
    rho_armour KD cot_alpha alpha_Hs = nan := by
  simp only [List.mem_cons, List.not_mem_nil, or_false] at missing
  rcases missing with rfl | rfl | rfl | rfl | rfl | rfl <;>
    nan_simp [Tetrapod.calculate_unit_mass_M, Hudson1959.calculate_median_rock_mass_M50_no_damage,
      CorePhysics.calculate_buoyant_density_Delta]

example := C91_Tetrapod_calculate_unit_mass_M nan (.fin 1025) (.fin 2650) (.fin 8) (.fin 2) (.fin 1.5) (by simp)

theorem C91_Tetrapod_calculate_significant_wave_height_Hs (M rho_water rho_armour KD cot_alpha alpha_Hs : PF)
    (missing : nan ∈ [M, rho_water, rho_armour, KD, cot_alpha, alpha_Hs]) :
    Tetrapod.calculate_significant_wave_height_Hs M rho_water rho_armour KD cot_alpha alpha_Hs = nan := by
  simp only [List.mem_cons, List.not_mem_nil, or_false] at missing
  rcases missing with rfl | rfl | rfl | rfl | rfl | rfl <;>
    nan_simp [Tetrapod.calculate_significant_wave_height_Hs,
      Hudson1959.calculate_significant_wave_height_Hs_no_damage,
      CorePhysics.calculate_buoyant_density_Delta]

example := C91_Tetrapod_calculate_significant_wave_height_Hs nan (.fin 1025) (.fin 2650) (.fin 8) (.fin 2) (.fin
  1.5) (by simp)

theorem C91_CubesVdM_calculate_nominal_diameter_Dn_vanDerMeer1988 (Hs Tm rho_water rho_armour N_waves cot_alpha
    Nod : PF) (missing : nan ∈ [Hs, Tm, rho_water, rho_armour, N_waves, Nod]) : NoNumber
    (CubesVdM.calculate_nominal_diameter_Dn_vanDerMeer1988 Hs Tm rho_water rho_armour N_waves cot_alpha Nod) :=
    by
  simp only [List.mem_cons, List.not_mem_nil, or_false] at missing
  rcases missing with rfl | rfl | rfl | rfl | rfl | rfl <;>
    no_number [CubesVdM.calculate_nominal_diameter_Dn_vanDerMeer1988,
      CorePhysics.calculate_buoyant_density_Delta, CorePhysics.calculate_wave_steepness_s, stab1, stab2,
      stab3, stab4]

example := C91_CubesVdM_calculate_nominal_diameter_Dn_vanDerMeer1988 nan (.fin 7) (.fin 1025) (.fin 2650) (.fin
  3000) (.fin 2) (.fin 0.5) (by simp)

theorem C91_CubesVdM_calculate_wave_height_Hs_vanDerMeer1988 (Dn s0m rho_water rho_armour N_waves cot_alpha Nod
    : PF) (missing : nan ∈ [Dn, s0m, rho_water, rho_armour, N_waves, Nod]) : NoNumber
    (CubesVdM.calculate_wave_height_Hs_vanDerMeer1988 Dn s0m rho_water rho_armour N_waves cot_alpha Nod) := by
  simp only [List.mem_cons, List.not_mem_nil, or_false] at missing
  rcases missing with rfl | rfl | rfl | rfl | rfl | rfl <;>
    no_number [CubesVdM.calculate_wave_height_Hs_vanDerMeer1988, CorePhysics.calculate_buoyant_density_Delta,
      stab1, stab2, stab3, stab4]

example := C91_CubesVdM_calculate_wave_height_Hs_vanDerMeer1988 nan (.fin 0.03) (.fin 1025) (.fin 2650) (.fin
  3000) (.fin 2) (.fin 0.5) (by simp)

theorem C91_CubesVdM_calculate_damage_Nod_vanDerMeer1988 (Hs Dn s0m rho_water rho_armour N_waves cot_alpha : PF)
    (missing : nan ∈ [Hs, Dn, s0m, rho_water, rho_armour, N_waves]) : NoNumber
    (CubesVdM.calculate_damage_Nod_vanDerMeer1988 Hs Dn s0m rho_water rho_armour N_waves cot_alpha) := by
  simp only [List.mem_cons, List.not_mem_nil, or_false] at missing
  rcases missing with rfl | rfl | rfl | rfl | rfl | rfl <;>
    no_number [CubesVdM.calculate_damage_Nod_vanDerMeer1988, CorePhysics.calculate_buoyant_density_Delta, stab1,
      stab2, stab3, stab4]

example := C91_CubesVdM_calculate_damage_Nod_vanDerMeer1988 nan (.fin 1) (.fin 0.03) (.fin 1025) (.fin 2650)
  (.fin 3000) (.fin 2) (by simp)

theorem C91_CubesSingle_calculate_unit_mass_M_start_of_damage (Hs rho_water rho_armour Ns : PF) (missing : nan ∈
    [Hs, rho_water, rho_armour, Ns]) : NoNumber (CubesSingle.calculate_unit_mass_M_start_of_damage Hs rho_water
    rho_armour Ns) := by
  simp only [List.mem_cons, List.not_mem_nil, or_false] at missing
  rcases missing with rfl | rfl | rfl | rfl <;>
    no_number [CubesSingle.calculate_unit_mass_M_start_of_damage, CorePhysics.calculate_buoyant_density_Delta,
      stab1, stab2, stab3, stab4, CorePhysics.calculate_M50_from_Dn50]

example := C91_CubesSingle_calculate_unit_mass_M_start_of_damage nan (.fin 1025) (.fin 2650) (.fin 2) (by simp)

theorem C91_CubesSingle_calculate_unit_mass_M_failure (Hs rho_water rho_armour Ns : PF) (missing : nan ∈ [Hs,
    rho_water, rho_armour, Ns]) : NoNumber (CubesSingle.calculate_unit_mass_M_failure Hs rho_water rho_armour
    Ns) := by
  simp only [List.mem_cons, List.not_mem_nil, or_false] at missing
  rcases missing with rfl | rfl | rfl | rfl <;>
    no_number [CubesSingle.calculate_unit_mass_M_failure, CubesSingle.calculate_unit_mass_M_start_of_damage,
      CorePhysics.calculate_buoyant_density_Delta, stab1, stab2, stab3, stab4,
      CorePhysics.calculate_M50_from_Dn50]

example := C91_CubesSingle_calculate_unit_mass_M_failure nan (.fin 1025) (.fin 2650) (.fin 2) (by simp)

theorem C91_CubesSingle_calculate_significant_wave_height_Hs_start_of_damage (M rho_water rho_armour Ns : PF)
    (missing : nan ∈ [M, rho_water, rho_armour, Ns]) : NoNumber
    (CubesSingle.calculate_significant_wave_height_Hs_start_of_damage M rho_water rho_armour Ns) := by
  simp only [List.mem_cons, List.not_mem_nil, or_false] at missing
  rcases missing with rfl | rfl | rfl | rfl <;>
    no_number [CubesSingle.calculate_significant_wave_height_Hs_start_of_damage,
      CorePhysics.calculate_buoyant_density_Delta, CorePhysics.calculate_Dn50_from_M50, stab1, stab2, stab3,
      stab4]

example := C91_CubesSingle_calculate_significant_wave_height_Hs_start_of_damage nan (.fin 1025) (.fin 2650)
  (.fin 2) (by simp)

theorem C91_CubesSingle_calculate_significant_wave_height_Hs_failure (M rho_water rho_armour Ns : PF) (missing :
    nan ∈ [M, rho_water, rho_armour, Ns]) : NoNumber (CubesSingle.calculate_significant_wave_height_Hs_failure M
    rho_water rho_armour Ns) := by
  simp only [List.mem_cons, List.not_mem_nil, or_false] at missing
  rcases missing with rfl | rfl | rfl | rfl <;>
    no_number [CubesSingle.calculate_significant_wave_height_Hs_failure,
      CubesSingle.calculate_significant_wave_height_Hs_start_of_damage,
      CorePhysics.calculate_buoyant_density_Delta, CorePhysics.calculate_Dn50_from_M50, stab1, stab2, stab3,
      stab4]

example := C91_CubesSingle_calculate_significant_wave_height_Hs_failure nan (.fin 1025) (.fin 2650) (.fin 2) (by
  simp)

theorem C91_Etemad2020_calculate_permeability_coefficient_Cp (Dn50 Dn50_core : PF) (missing : nan ∈ [Dn50,
    Dn50_core]) : Etemad2020.calculate_permeability_coefficient_Cp Dn50 Dn50_core = nan := by
  simp only [List.mem_cons, List.not_mem_nil, or_false] at missing
  rcases missing with rfl | rfl <;>
    nan_simp [Etemad2020.calculate_permeability_coefficient_Cp]

example := C91_Etemad2020_calculate_permeability_coefficient_Cp nan (.fin 0.3) (by simp)

theorem C91_Etemad2020_calculate_damage_number_S (Hs Tmm10 N_waves cot_alpha rho_armour Dn50 M50 Dn50_core
    M50_core rho_core rho_water m : PF) (use_depth_limited_version : Bool) (missing : nan ∈ [Hs, Tmm10, N_waves,
    cot_alpha, rho_armour, rho_water]) : NoNumber (Etemad2020.calculate_damage_number_S Hs Tmm10 N_waves
    cot_alpha rho_armour Dn50 M50 Dn50_core M50_core rho_core rho_water m use_depth_limited_version) := by
  simp only [List.mem_cons, List.not_mem_nil, or_false] at missing
  rcases missing with rfl | rfl | rfl | rfl | rfl | rfl <;>
    no_number [Etemad2020.calculate_damage_number_S, Etemad2020.depth_limitation,
      CorePhysics.calculate_Iribarren_number_ksi, CorePhysics.calculate_wave_steepness_s,
      CorePhysics.calculate_stability_number_Ns, CorePhysics.calculate_buoyant_density_Delta,
      Etemad2020.calculate_permeability_coefficient_Cp]

example := C91_Etemad2020_calculate_damage_number_S nan (.fin 7) (.fin 3000) (.fin 2) (.fin 2650) (.fin 1) (.fin
  3000) (.fin 0.3) (.fin 70) (.fin 2650) (.fin 1025) (.fin 0.02) false (by simp)

theorem C91_Etemad2020_calculate_significant_wave_height_Hs (Tmm10 N_waves cot_alpha rho_armour S Dn50 M50
    Dn50_core M50_core rho_core m : PF) (use_depth_limited_version : Bool) (g : PF) (missing : nan ∈ [Tmm10,
    N_waves, cot_alpha, rho_armour, S, g]) : NoNumber (Etemad2020.calculate_significant_wave_height_Hs Tmm10
    N_waves cot_alpha rho_armour S Dn50 M50 Dn50_core M50_core rho_core m use_depth_limited_version g) := by
  simp only [List.mem_cons, List.not_mem_nil, or_false] at missing
  rcases missing with rfl | rfl | rfl | rfl | rfl | rfl <;>
    no_number [Etemad2020.calculate_significant_wave_height_Hs, Etemad2020.depth_limitation,
      CorePhysics.calculate_buoyant_density_Delta, Etemad2020.calculate_permeability_coefficient_Cp,
      CorePhysics.calculate_Iribarren_number_ksi, CorePhysics.calculate_wave_steepness_s]

example := C91_Etemad2020_calculate_significant_wave_height_Hs nan (.fin 3000) (.fin 2) (.fin 2650) (.fin 2)
  (.fin 1) (.fin 3000) (.fin 0.3) (.fin 70) (.fin 2650) (.fin 0.02) false (.fin 9.81) (by simp)

theorem C91_Hudson1959_calculate_median_rock_mass_M50_no_damage (Hs rho_water rho_armour KD cot_alpha alpha_Hs :
    PF) (missing : nan ∈ [Hs, rho_water, rho_armour, KD, cot_alpha, alpha_Hs]) :
    Hudson1959.calculate_median_rock_mass_M50_no_damage Hs rho_water rho_armour KD cot_alpha alpha_Hs = nan :=
    by
  simp only [List.mem_cons, List.not_mem_nil, or_false] at missing
  rcases missing with rfl | rfl | rfl | rfl | rfl | rfl <;>
    nan_simp [Hudson1959.calculate_median_rock_mass_M50_no_damage, CorePhysics.calculate_buoyant_density_Delta]

example := C91_Hudson1959_calculate_median_rock_mass_M50_no_damage nan (.fin 1025) (.fin 2650) (.fin 8) (.fin 2)
  (.fin 1.5) (by simp)

theorem C91_Hudson1959_calculate_significant_wave_height_Hs_no_damage (M50 rho_water rho_armour KD cot_alpha
    alpha_Hs : PF) (missing : nan ∈ [M50, rho_water, rho_armour, KD, cot_alpha, alpha_Hs]) :
    Hudson1959.calculate_significant_wave_height_Hs_no_damage M50 rho_water rho_armour KD cot_alpha alpha_Hs =
    nan := by
  simp only [List.mem_cons, List.not_mem_nil, or_false] at missing
  rcases missing with rfl | rfl | rfl | rfl | rfl | rfl <;>
    nan_simp [Hudson1959.calculate_significant_wave_height_Hs_no_damage,
      CorePhysics.calculate_buoyant_density_Delta]

example := C91_Hudson1959_calculate_significant_wave_height_Hs_no_damage nan (.fin 1025) (.fin 2650) (.fin 8)
  (.fin 2) (.fin 1.5) (by simp)

theorem C91_Hudson1959_calculate_median_rock_mass_M50 (Hs rho_water rho_armour KD cot_alpha damage_percentage :
    PF) (rock_type : String) (alpha_Hs : PF) (missing : nan ∈ [Hs, rho_water, rho_armour, KD, cot_alpha,
    alpha_Hs]) : NoNumber (Hudson1959.calculate_median_rock_mass_M50 Hs rho_water rho_armour KD cot_alpha
    damage_percentage rock_type alpha_Hs) := by
  simp only [List.mem_cons, List.not_mem_nil, or_false] at missing
  rcases missing with rfl | rfl | rfl | rfl | rfl | rfl <;>
    no_number [Hudson1959.calculate_median_rock_mass_M50, Hudson1959.calculate_median_rock_mass_M50_no_damage,
      CorePhysics.calculate_buoyant_density_Delta]

example := C91_Hudson1959_calculate_median_rock_mass_M50 nan (.fin 1025) (.fin 2650) (.fin 8) (.fin 2) (.fin 3)
  "rough" (.fin 1.5) (by simp)

theorem C91_Hudson1959_calculate_significant_wave_height_Hs (M50 rho_water rho_armour KD cot_alpha
    damage_percentage : PF) (rock_type : String) (alpha_Hs : PF) (missing : nan ∈ [M50, rho_water, rho_armour,
    KD, cot_alpha, alpha_Hs]) : NoNumber (Hudson1959.calculate_significant_wave_height_Hs M50 rho_water
    rho_armour KD cot_alpha damage_percentage rock_type alpha_Hs) := by
  simp only [List.mem_cons, List.not_mem_nil, or_false] at missing
  rcases missing with rfl | rfl | rfl | rfl | rfl | rfl <;>
    no_number [Hudson1959.calculate_significant_wave_height_Hs,
      Hudson1959.calculate_significant_wave_height_Hs_no_damage,
      CorePhysics.calculate_buoyant_density_Delta]

example := C91_Hudson1959_calculate_significant_wave_height_Hs nan (.fin 1025) (.fin 2650) (.fin 8) (.fin 2)
  (.fin 3) "rough" (.fin 1.5) (by simp)

theorem C91_Xbloc_calculate_wave_height_Hs_from_V (V rho_water rho_armour total_correction_factor : PF) (missing
    : nan ∈ [V, rho_water, rho_armour, total_correction_factor]) : Xbloc.calculate_wave_height_Hs_from_V V
    rho_water rho_armour total_correction_factor = nan := by
  simp only [List.mem_cons, List.not_mem_nil, or_false] at missing
  rcases missing with rfl | rfl | rfl | rfl <;>
    nan_simp [Xbloc.calculate_wave_height_Hs_from_V, CorePhysics.calculate_buoyant_density_Delta]

example := C91_Xbloc_calculate_wave_height_Hs_from_V nan (.fin 1025) (.fin 2650) (.fin 1) (by simp)

theorem C91_Xbloc_calculate_wave_height_Hs_from_M (M rho_water rho_armour total_correction_factor : PF) (missing
    : nan ∈ [M, rho_water, rho_armour, total_correction_factor]) : Xbloc.calculate_wave_height_Hs_from_M M
    rho_water rho_armour total_correction_factor = nan := by
  simp only [List.mem_cons, List.not_mem_nil, or_false] at missing
  rcases missing with rfl | rfl | rfl | rfl <;>
    nan_simp [Xbloc.calculate_wave_height_Hs_from_M, Xbloc.calculate_wave_height_Hs_from_V,
      CorePhysics.calculate_buoyant_density_Delta]

example := C91_Xbloc_calculate_wave_height_Hs_from_M nan (.fin 1025) (.fin 2650) (.fin 1) (by simp)

theorem C91_Xbloc_calculate_unit_volume_V (Hs rho_water rho_armour total_correction_factor : PF) (missing : nan
    ∈ [Hs, rho_water, rho_armour, total_correction_factor]) : Xbloc.calculate_unit_volume_V Hs rho_water
    rho_armour total_correction_factor = nan := by
  simp only [List.mem_cons, List.not_mem_nil, or_false] at missing
  rcases missing with rfl | rfl | rfl | rfl <;>
    nan_simp [Xbloc.calculate_unit_volume_V, CorePhysics.calculate_buoyant_density_Delta]

example := C91_Xbloc_calculate_unit_volume_V nan (.fin 1025) (.fin 2650) (.fin 1) (by simp)

theorem C91_Xbloc_calculate_unit_mass_M (Hs rho_water rho_armour total_correction_factor : PF) (missing : nan ∈
    [Hs, rho_water, rho_armour, total_correction_factor]) : Xbloc.calculate_unit_mass_M Hs rho_water rho_armour
    total_correction_factor = nan := by
  simp only [List.mem_cons, List.not_mem_nil, or_false] at missing
  rcases missing with rfl | rfl | rfl | rfl <;>
    nan_simp [Xbloc.calculate_unit_mass_M, Xbloc.calculate_unit_volume_V,
      CorePhysics.calculate_buoyant_density_Delta]

example := C91_Xbloc_calculate_unit_mass_M nan (.fin 1025) (.fin 2650) (.fin 1) (by simp)

theorem C91_XblocPlus_calculate_wave_height_Hs_from_V (V rho_water rho_armour total_correction_factor : PF)
    (missing : nan ∈ [V, rho_water, rho_armour, total_correction_factor]) :
    XblocPlus.calculate_wave_height_Hs_from_V V rho_water rho_armour total_correction_factor = nan := by
  simp only [List.mem_cons, List.not_mem_nil, or_false] at missing
  rcases missing with rfl | rfl | rfl | rfl <;>
    nan_simp [XblocPlus.calculate_wave_height_Hs_from_V, CorePhysics.calculate_buoyant_density_Delta]

example := C91_XblocPlus_calculate_wave_height_Hs_from_V nan (.fin 1025) (.fin 2650) (.fin 1) (by simp)

theorem C91_XblocPlus_calculate_wave_height_Hs_from_M (M rho_water rho_armour total_correction_factor : PF)
    (missing : nan ∈ [M, rho_water, rho_armour, total_correction_factor]) :
    XblocPlus.calculate_wave_height_Hs_from_M M rho_water rho_armour total_correction_factor = nan := by
  simp only [List.mem_cons, List.not_mem_nil, or_false] at missing
  rcases missing with rfl | rfl | rfl | rfl <;>
    nan_simp [XblocPlus.calculate_wave_height_Hs_from_M, XblocPlus.calculate_wave_height_Hs_from_V,
      CorePhysics.calculate_buoyant_density_Delta]

example := C91_XblocPlus_calculate_wave_height_Hs_from_M nan (.fin 1025) (.fin 2650) (.fin 1) (by simp)

theorem C91_XblocPlus_calculate_unit_volume_V (Hs rho_water rho_armour total_correction_factor : PF) (missing :
    nan ∈ [Hs, rho_water, rho_armour, total_correction_factor]) : XblocPlus.calculate_unit_volume_V Hs rho_water
    rho_armour total_correction_factor = nan := by
  simp only [List.mem_cons, List.not_mem_nil, or_false] at missing
  rcases missing with rfl | rfl | rfl | rfl <;>
    nan_simp [XblocPlus.calculate_unit_volume_V, CorePhysics.calculate_buoyant_density_Delta]

example := C91_XblocPlus_calculate_unit_volume_V nan (.fin 1025) (.fin 2650) (.fin 1) (by simp)

theorem C91_XblocPlus_calculate_unit_mass_M (Hs rho_water rho_armour total_correction_factor : PF) (missing :
    nan ∈ [Hs, rho_water, rho_armour, total_correction_factor]) : XblocPlus.calculate_unit_mass_M Hs rho_water
    rho_armour total_correction_factor = nan := by
  simp only [List.mem_cons, List.not_mem_nil, or_false] at missing
  rcases missing with rfl | rfl | rfl | rfl <;>
    nan_simp [XblocPlus.calculate_unit_mass_M, XblocPlus.calculate_unit_volume_V,
      CorePhysics.calculate_buoyant_density_Delta]

example := C91_XblocPlus_calculate_unit_mass_M nan (.fin 1025) (.fin 2650) (.fin 1) (by simp)

end
