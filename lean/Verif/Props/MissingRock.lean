import Verif.Model.VanDerMeer
import Verif.Model.RockArmourOther
import Verif.Lemmas.MissingCore

/-! # C91: missing values are not turned into numbers — rock armour -/

open Classical
open PF Missing
set_option maxRecDepth 4000
noncomputable section

theorem C91_Jumelet2024_calculate_fraction_plunging_waves_Fp (ksi_mm10 : PF) (missing : nan ∈ [ksi_mm10]) :
    Jumelet2024.calculate_fraction_plunging_waves_Fp ksi_mm10 = nan := by
  simp only [List.mem_cons, List.not_mem_nil, or_false] at missing
  rcases missing with rfl
  nan_simp [Jumelet2024.calculate_fraction_plunging_waves_Fp]

example := C91_Jumelet2024_calculate_fraction_plunging_waves_Fp nan (by simp)

theorem C91_Jumelet2024_calculate_damage_number_S (Hs Tmm10 N_waves cot_alpha rho_armour Dn50 M50 c_pl rho_water
    : PF) (missing : nan ∈ [Hs, Tmm10, N_waves, cot_alpha, rho_armour, c_pl, rho_water]) : NoNumber
    (Jumelet2024.calculate_damage_number_S Hs Tmm10 N_waves cot_alpha rho_armour Dn50 M50 c_pl rho_water) := by
  simp only [List.mem_cons, List.not_mem_nil, or_false] at missing
  rcases missing with rfl | rfl | rfl | rfl | rfl | rfl | rfl <;>
    no_number [Jumelet2024.calculate_damage_number_S, CorePhysics.calculate_Iribarren_number_ksi,
      CorePhysics.calculate_wave_steepness_s, CorePhysics.calculate_stability_number_Ns,
      CorePhysics.calculate_buoyant_density_Delta, Jumelet2024.calculate_fraction_plunging_waves_Fp]

example := C91_Jumelet2024_calculate_damage_number_S nan (.fin 7) (.fin 3000) (.fin 2) (.fin 2650) (.fin 1)
  (.fin 3000) (.fin 6.2) (.fin 1025) (by simp)

theorem C91_Jumelet2024_calculate_nominal_rock_diameter_Dn50 (Hs Tmm10 N_waves cot_alpha rho_armour S c_pl : PF)
    (missing : nan ∈ [Hs, Tmm10, N_waves, cot_alpha, rho_armour, S, c_pl]) : NoNumber
    (Jumelet2024.calculate_nominal_rock_diameter_Dn50 Hs Tmm10 N_waves cot_alpha rho_armour S c_pl) := by
  simp only [List.mem_cons, List.not_mem_nil, or_false] at missing
  rcases missing with rfl | rfl | rfl | rfl | rfl | rfl | rfl <;>
    no_number [Jumelet2024.calculate_nominal_rock_diameter_Dn50, CorePhysics.calculate_Iribarren_number_ksi,
      CorePhysics.calculate_wave_steepness_s, CorePhysics.calculate_buoyant_density_Delta,
      Jumelet2024.calculate_fraction_plunging_waves_Fp]

example := C91_Jumelet2024_calculate_nominal_rock_diameter_Dn50 nan (.fin 7) (.fin 3000) (.fin 2) (.fin 2650)
  (.fin 2) (.fin 6.2) (by simp)

theorem C91_Scaravaglione2025_calculate_damage_number_S (Hm0 Tmm10 N_waves cot_alpha rho_armour rho_core Dn50
    Dn50_core M50 M50_core c_VGnew rho_water : PF) (missing : nan ∈ [Hm0, Tmm10, N_waves, cot_alpha, rho_armour,
    c_VGnew, rho_water]) : NoNumber (Scaravaglione2025.calculate_damage_number_S Hm0 Tmm10 N_waves cot_alpha
    rho_armour rho_core Dn50 Dn50_core M50 M50_core c_VGnew rho_water) := by
  simp only [List.mem_cons, List.not_mem_nil, or_false] at missing
  rcases missing with rfl | rfl | rfl | rfl | rfl | rfl | rfl <;>
    no_number [Scaravaglione2025.calculate_damage_number_S, CorePhysics.calculate_wave_steepness_s,
      CorePhysics.calculate_stability_number_Ns, CorePhysics.calculate_buoyant_density_Delta]

example := C91_Scaravaglione2025_calculate_damage_number_S nan (.fin 7) (.fin 3000) (.fin 2) (.fin 2650) (.fin
  2650) (.fin 1) (.fin 0.3) (.fin 3000) (.fin 70) (.fin 1) (.fin 1025) (by simp)

theorem C91_Scaravaglione2025_calculate_nominal_rock_diameter_Dn50 (Hm0 Tmm10 N_waves cot_alpha rho_armour
    rho_core S Dn50_core M50_core c_VGnew rho_water : PF) (missing : nan ∈ [Hm0, Tmm10, N_waves, cot_alpha,
    rho_armour, S, c_VGnew, rho_water]) : NoNumber (Scaravaglione2025.calculate_nominal_rock_diameter_Dn50 Hm0
    Tmm10 N_waves cot_alpha rho_armour rho_core S Dn50_core M50_core c_VGnew rho_water) := by
  simp only [List.mem_cons, List.not_mem_nil, or_false] at missing
  rcases missing with rfl | rfl | rfl | rfl | rfl | rfl | rfl | rfl <;>
    no_number [Scaravaglione2025.calculate_nominal_rock_diameter_Dn50, CorePhysics.calculate_wave_steepness_s,
      CorePhysics.calculate_buoyant_density_Delta]

example := C91_Scaravaglione2025_calculate_nominal_rock_diameter_Dn50 nan (.fin 7) (.fin 3000) (.fin 2) (.fin
  2650) (.fin 2650) (.fin 2) (.fin 0.3) (.fin 70) (.fin 1) (.fin 1025) (by simp)

theorem C91_Scaravaglione2025_calculate_significant_wave_height_Hm0 (Tmm10 N_waves cot_alpha rho_armour rho_core
    S Dn50 Dn50_core M50 M50_core c_VGnew g rho_water : PF) (missing : nan ∈ [Tmm10, N_waves, cot_alpha,
    rho_armour, S, c_VGnew, g, rho_water]) : NoNumber (Scaravaglione2025.calculate_significant_wave_height_Hm0
    Tmm10 N_waves cot_alpha rho_armour rho_core S Dn50 Dn50_core M50 M50_core c_VGnew g rho_water) := by
  simp only [List.mem_cons, List.not_mem_nil, or_false] at missing
  rcases missing with rfl | rfl | rfl | rfl | rfl | rfl | rfl | rfl <;>
    no_number [Scaravaglione2025.calculate_significant_wave_height_Hm0,
      CorePhysics.calculate_buoyant_density_Delta]

example := C91_Scaravaglione2025_calculate_significant_wave_height_Hm0 nan (.fin 3000) (.fin 2) (.fin 2650)
  (.fin 2650) (.fin 2) (.fin 1) (.fin 0.3) (.fin 3000) (.fin 70) (.fin 1) (.fin 9.81) (.fin 1025) (by simp)

theorem C91_KramerBurcharth_calculate_significant_wave_height_Hs (Rc rho_armour Dn50 M50 : PF) (missing : nan ∈
    [Rc, rho_armour]) : NoNumber (KramerBurcharth.calculate_significant_wave_height_Hs Rc rho_armour Dn50 M50)
    := by
  simp only [List.mem_cons, List.not_mem_nil, or_false] at missing
  rcases missing with rfl | rfl <;>
    no_number [KramerBurcharth.calculate_significant_wave_height_Hs,
      CorePhysics.calculate_buoyant_density_Delta]

example := C91_KramerBurcharth_calculate_significant_wave_height_Hs nan (.fin 2650) (.fin 1) (.fin 3000) (by
  simp)

theorem C91_VdM1988_calculate_damage_number_S (Hs H2p Tm N_waves cot_alpha P rho_armour Dn50 M50 c_pl c_s
    rho_water : PF) (hP : PositiveOrMissing P) (missing : nan ∈ [Hs, H2p, Tm, N_waves, cot_alpha, P, rho_armour,
    rho_water]) : NoNumber (VdM1988.calculate_damage_number_S Hs H2p Tm N_waves cot_alpha P rho_armour Dn50 M50
    c_pl c_s rho_water) := by
  rcases hP with rfl | ⟨p, hp, rfl⟩
  · no_number [VdM1988.calculate_damage_number_S, CorePhysics.calculate_Iribarren_number_ksi,
      CorePhysics.calculate_wave_steepness_s, CorePhysics.calculate_critical_Iribarren_number_ksi_mc,
      VdM1988.calculate_correction_term_gamma_N, CorePhysics.calculate_stability_number_Ns,
      CorePhysics.calculate_buoyant_density_Delta]
  simp only [List.mem_cons, List.not_mem_nil, reduceCtorEq, false_or, or_false] at missing
  rcases missing with rfl | rfl | rfl | rfl | rfl | rfl | rfl <;>
    no_number [VdM1988.calculate_damage_number_S, CorePhysics.calculate_Iribarren_number_ksi,
      CorePhysics.calculate_wave_steepness_s, CorePhysics.calculate_critical_Iribarren_number_ksi_mc,
      VdM1988.calculate_correction_term_gamma_N, CorePhysics.calculate_stability_number_Ns,
      CorePhysics.calculate_buoyant_density_Delta]

example := C91_VdM1988_calculate_damage_number_S nan (.fin 2.8) (.fin 7) (.fin 3000) (.fin 2) (.fin 0.4) (.fin
  2650) (.fin 1) (.fin 3000) (.fin 6.2) (.fin 1) (.fin 1025) (.inr ⟨0.4, by norm_num, rfl⟩) (by simp)

theorem C91_VdM1988_calculate_nominal_rock_diameter_Dn50 (Hs H2p Tm N_waves cot_alpha P rho_armour S c_pl c_s
    rho_water : PF) (hP : PositiveOrMissing P) (missing : nan ∈ [Hs, H2p, Tm, N_waves, cot_alpha, P, rho_armour,
    S, rho_water]) : NoNumber (VdM1988.calculate_nominal_rock_diameter_Dn50 Hs H2p Tm N_waves cot_alpha P
    rho_armour S c_pl c_s rho_water) := by
  rcases hP with rfl | ⟨p, hp, rfl⟩
  · no_number [VdM1988.calculate_nominal_rock_diameter_Dn50, CorePhysics.calculate_Iribarren_number_ksi,
      CorePhysics.calculate_wave_steepness_s, CorePhysics.calculate_critical_Iribarren_number_ksi_mc,
      VdM1988.calculate_correction_term_gamma_N, CorePhysics.calculate_buoyant_density_Delta]
  simp only [List.mem_cons, List.not_mem_nil, reduceCtorEq, false_or, or_false] at missing
  rcases missing with rfl | rfl | rfl | rfl | rfl | rfl | rfl | rfl <;>
    no_number [VdM1988.calculate_nominal_rock_diameter_Dn50, CorePhysics.calculate_Iribarren_number_ksi,
      CorePhysics.calculate_wave_steepness_s, CorePhysics.calculate_critical_Iribarren_number_ksi_mc,
      VdM1988.calculate_correction_term_gamma_N, CorePhysics.calculate_buoyant_density_Delta]

example := C91_VdM1988_calculate_nominal_rock_diameter_Dn50 nan (.fin 2.8) (.fin 7) (.fin 3000) (.fin 2) (.fin
  0.4) (.fin 2650) (.fin 2) (.fin 6.2) (.fin 1) (.fin 1025) (.inr ⟨0.4, by norm_num, rfl⟩) (by simp)

theorem C91_VdM1988_calculate_significant_wave_height_Hs (ratio_H2p_Hs Tm N_waves cot_alpha P rho_armour S Dn50
    M50 c_pl c_s g rho_water : PF) (hP : PositiveOrMissing P) (missing : nan ∈ [ratio_H2p_Hs, Tm, N_waves,
    cot_alpha, P, rho_armour, S, g, rho_water]) : NoNumber (VdM1988.calculate_significant_wave_height_Hs
    ratio_H2p_Hs Tm N_waves cot_alpha P rho_armour S Dn50 M50 c_pl c_s g rho_water) := by
  rcases hP with rfl | ⟨p, hp, rfl⟩
  · no_number [VdM1988.calculate_significant_wave_height_Hs,
      CorePhysics.calculate_critical_Iribarren_number_ksi_mc, VdM1988.calculate_correction_term_gamma_N,
      CorePhysics.calculate_buoyant_density_Delta, CorePhysics.calculate_Iribarren_number_ksi,
      CorePhysics.calculate_wave_steepness_s]
  simp only [List.mem_cons, List.not_mem_nil, reduceCtorEq, false_or, or_false] at missing
  rcases missing with rfl | rfl | rfl | rfl | rfl | rfl | rfl | rfl <;>
    no_number [VdM1988.calculate_significant_wave_height_Hs,
      CorePhysics.calculate_critical_Iribarren_number_ksi_mc, VdM1988.calculate_correction_term_gamma_N,
      CorePhysics.calculate_buoyant_density_Delta, CorePhysics.calculate_Iribarren_number_ksi,
      CorePhysics.calculate_wave_steepness_s]

example := C91_VdM1988_calculate_significant_wave_height_Hs nan (.fin 7) (.fin 3000) (.fin 2) (.fin 0.4) (.fin
  2650) (.fin 2) (.fin 1) (.fin 3000) (.fin 6.2) (.fin 1) (.fin 9.81) (.fin 1025) (.inr ⟨0.4, by norm_num, rfl⟩)
  (by simp)

theorem C91_VdMModified_calculate_damage_number_S (Hs H2p Tmm10 N_waves cot_alpha P rho_armour Dn50 M50 c_pl c_s
    rho_water : PF) (hP : PositiveOrMissing P) (missing : nan ∈ [Hs, H2p, Tmm10, N_waves, cot_alpha, P,
    rho_armour, rho_water]) : NoNumber (VdMModified.calculate_damage_number_S Hs H2p Tmm10 N_waves cot_alpha P
    rho_armour Dn50 M50 c_pl c_s rho_water) := by
  rcases hP with rfl | ⟨p, hp, rfl⟩
  · no_number [VdMModified.calculate_damage_number_S, CorePhysics.calculate_Iribarren_number_ksi,
      CorePhysics.calculate_wave_steepness_s, CorePhysics.calculate_critical_Iribarren_number_ksi_mc,
      CorePhysics.calculate_stability_number_Ns, CorePhysics.calculate_buoyant_density_Delta]
  simp only [List.mem_cons, List.not_mem_nil, reduceCtorEq, false_or, or_false] at missing
  rcases missing with rfl | rfl | rfl | rfl | rfl | rfl | rfl <;>
    no_number [VdMModified.calculate_damage_number_S, CorePhysics.calculate_Iribarren_number_ksi,
      CorePhysics.calculate_wave_steepness_s, CorePhysics.calculate_critical_Iribarren_number_ksi_mc,
      CorePhysics.calculate_stability_number_Ns, CorePhysics.calculate_buoyant_density_Delta]

example := C91_VdMModified_calculate_damage_number_S nan (.fin 2.8) (.fin 7) (.fin 3000) (.fin 2) (.fin 0.4)
  (.fin 2650) (.fin 1) (.fin 3000) (.fin 6.2) (.fin 1) (.fin 1025) (.inr ⟨0.4, by norm_num, rfl⟩) (by simp)

theorem C91_VdMModified_calculate_nominal_rock_diameter_Dn50 (Hs H2p Tmm10 N_waves cot_alpha P rho_armour S c_pl
    c_s rho_water : PF) (hP : PositiveOrMissing P) (missing : nan ∈ [Hs, H2p, Tmm10, N_waves, cot_alpha, P,
    rho_armour, S, rho_water]) : NoNumber (VdMModified.calculate_nominal_rock_diameter_Dn50 Hs H2p Tmm10 N_waves
    cot_alpha P rho_armour S c_pl c_s rho_water) := by
  rcases hP with rfl | ⟨p, hp, rfl⟩
  · no_number [VdMModified.calculate_nominal_rock_diameter_Dn50, CorePhysics.calculate_Iribarren_number_ksi,
      CorePhysics.calculate_wave_steepness_s, CorePhysics.calculate_critical_Iribarren_number_ksi_mc,
      CorePhysics.calculate_buoyant_density_Delta]
  simp only [List.mem_cons, List.not_mem_nil, reduceCtorEq, false_or, or_false] at missing
  rcases missing with rfl | rfl | rfl | rfl | rfl | rfl | rfl | rfl <;>
    no_number [VdMModified.calculate_nominal_rock_diameter_Dn50, CorePhysics.calculate_Iribarren_number_ksi,
      CorePhysics.calculate_wave_steepness_s, CorePhysics.calculate_critical_Iribarren_number_ksi_mc,
      CorePhysics.calculate_buoyant_density_Delta]

example := C91_VdMModified_calculate_nominal_rock_diameter_Dn50 nan (.fin 2.8) (.fin 7) (.fin 3000) (.fin 2)
  (.fin 0.4) (.fin 2650) (.fin 2) (.fin 6.2) (.fin 1) (.fin 1025) (.inr ⟨0.4, by norm_num, rfl⟩) (by simp)

theorem C91_VdMModified_calculate_significant_wave_height_Hs (ratio_H2p_Hs Tmm10 N_waves cot_alpha P rho_armour
    S Dn50 M50 c_pl c_s g rho_water : PF) (hP : PositiveOrMissing P) (missing : nan ∈ [ratio_H2p_Hs, Tmm10,
    N_waves, cot_alpha, P, rho_armour, S, g, rho_water]) : NoNumber
    (VdMModified.calculate_significant_wave_height_Hs ratio_H2p_Hs Tmm10 N_waves cot_alpha P rho_armour S Dn50
    M50 c_pl c_s g rho_water) := by
  rcases hP with rfl | ⟨p, hp, rfl⟩
  · no_number [VdMModified.calculate_significant_wave_height_Hs,
      CorePhysics.calculate_critical_Iribarren_number_ksi_mc, CorePhysics.calculate_buoyant_density_Delta,
      CorePhysics.calculate_Iribarren_number_ksi, CorePhysics.calculate_wave_steepness_s]
  simp only [List.mem_cons, List.not_mem_nil, reduceCtorEq, false_or, or_false] at missing
  rcases missing with rfl | rfl | rfl | rfl | rfl | rfl | rfl | rfl <;>
    no_number [VdMModified.calculate_significant_wave_height_Hs,
      CorePhysics.calculate_critical_Iribarren_number_ksi_mc, CorePhysics.calculate_buoyant_density_Delta,
      CorePhysics.calculate_Iribarren_number_ksi, CorePhysics.calculate_wave_steepness_s]

example := C91_VdMModified_calculate_significant_wave_height_Hs nan (.fin 7) (.fin 3000) (.fin 2) (.fin 0.4)
  (.fin 2650) (.fin 2) (.fin 1) (.fin 3000) (.fin 6.2) (.fin 1) (.fin 9.81) (.fin 1025) (.inr ⟨0.4, by norm_num,
  rfl⟩) (by simp)

theorem C91_VdM2021_calculate_damage_number_S (Hs Tmm10 N_waves cot_alpha P rho_armour Dn50 M50 c_pl c_s
    c_pl_mult c_s_mult : PF) (hP : PositiveOrMissing P) (missing : nan ∈ [Hs, Tmm10, N_waves, cot_alpha, P,
    rho_armour]) : NoNumber (VdM2021.calculate_damage_number_S Hs Tmm10 N_waves cot_alpha P rho_armour Dn50 M50
    c_pl c_s c_pl_mult c_s_mult) := by
  rcases hP with rfl | ⟨p, hp, rfl⟩
  · no_number [VdM2021.calculate_damage_number_S, VdMModified.calculate_damage_number_S,
      CorePhysics.calculate_Iribarren_number_ksi, CorePhysics.calculate_wave_steepness_s,
      CorePhysics.calculate_critical_Iribarren_number_ksi_mc, CorePhysics.calculate_stability_number_Ns,
      CorePhysics.calculate_buoyant_density_Delta]
  simp only [List.mem_cons, List.not_mem_nil, reduceCtorEq, false_or, or_false] at missing
  rcases missing with rfl | rfl | rfl | rfl | rfl <;>
    no_number [VdM2021.calculate_damage_number_S, VdMModified.calculate_damage_number_S,
      CorePhysics.calculate_Iribarren_number_ksi, CorePhysics.calculate_wave_steepness_s,
      CorePhysics.calculate_critical_Iribarren_number_ksi_mc, CorePhysics.calculate_stability_number_Ns,
      CorePhysics.calculate_buoyant_density_Delta]

example := C91_VdM2021_calculate_damage_number_S nan (.fin 7) (.fin 3000) (.fin 2) (.fin 0.4) (.fin 2650) (.fin
  1) (.fin 3000) (.fin 6.2) (.fin 1) (.fin 1) (.fin 1) (.inr ⟨0.4, by norm_num, rfl⟩) (by simp)

theorem C91_VdM2021_calculate_nominal_rock_diameter_Dn50 (Hs Tmm10 N_waves cot_alpha P rho_armour S c_pl c_s
    c_pl_mult c_s_mult : PF) (hP : PositiveOrMissing P) (missing : nan ∈ [Hs, Tmm10, N_waves, cot_alpha, P,
    rho_armour, S]) : NoNumber (VdM2021.calculate_nominal_rock_diameter_Dn50 Hs Tmm10 N_waves cot_alpha P
    rho_armour S c_pl c_s c_pl_mult c_s_mult) := by
  rcases hP with rfl | ⟨p, hp, rfl⟩
  · no_number [VdM2021.calculate_nominal_rock_diameter_Dn50, VdMModified.calculate_nominal_rock_diameter_Dn50,
      CorePhysics.calculate_Iribarren_number_ksi, CorePhysics.calculate_wave_steepness_s,
      CorePhysics.calculate_critical_Iribarren_number_ksi_mc, CorePhysics.calculate_buoyant_density_Delta]
  simp only [List.mem_cons, List.not_mem_nil, reduceCtorEq, false_or, or_false] at missing
  rcases missing with rfl | rfl | rfl | rfl | rfl | rfl <;>
    no_number [VdM2021.calculate_nominal_rock_diameter_Dn50, VdMModified.calculate_nominal_rock_diameter_Dn50,
      CorePhysics.calculate_Iribarren_number_ksi, CorePhysics.calculate_wave_steepness_s,
      CorePhysics.calculate_critical_Iribarren_number_ksi_mc, CorePhysics.calculate_buoyant_density_Delta]

example := C91_VdM2021_calculate_nominal_rock_diameter_Dn50 nan (.fin 7) (.fin 3000) (.fin 2) (.fin 0.4) (.fin
  2650) (.fin 2) (.fin 6.2) (.fin 1) (.fin 1) (.fin 1) (.inr ⟨0.4, by norm_num, rfl⟩) (by simp)

theorem C91_VdM2021_calculate_significant_wave_height_Hs (Tmm10 N_waves cot_alpha P rho_armour S Dn50 M50 c_pl
    c_s c_pl_mult c_s_mult g : PF) (hP : PositiveOrMissing P) (missing : nan ∈ [Tmm10, N_waves, cot_alpha, P,
    rho_armour, S, g]) : NoNumber (VdM2021.calculate_significant_wave_height_Hs Tmm10 N_waves cot_alpha P
    rho_armour S Dn50 M50 c_pl c_s c_pl_mult c_s_mult g) := by
  rcases hP with rfl | ⟨p, hp, rfl⟩
  · no_number [VdM2021.calculate_significant_wave_height_Hs, VdMModified.calculate_significant_wave_height_Hs,
      CorePhysics.calculate_critical_Iribarren_number_ksi_mc, CorePhysics.calculate_buoyant_density_Delta,
      CorePhysics.calculate_Iribarren_number_ksi, CorePhysics.calculate_wave_steepness_s]
  simp only [List.mem_cons, List.not_mem_nil, reduceCtorEq, false_or, or_false] at missing
  rcases missing with rfl | rfl | rfl | rfl | rfl | rfl <;>
    no_number [VdM2021.calculate_significant_wave_height_Hs, VdMModified.calculate_significant_wave_height_Hs,
      CorePhysics.calculate_critical_Iribarren_number_ksi_mc, CorePhysics.calculate_buoyant_density_Delta,
      CorePhysics.calculate_Iribarren_number_ksi, CorePhysics.calculate_wave_steepness_s]

example := C91_VdM2021_calculate_significant_wave_height_Hs nan (.fin 3000) (.fin 2) (.fin 0.4) (.fin 2650)
  (.fin 2) (.fin 1) (.fin 3000) (.fin 6.2) (.fin 1) (.fin 1) (.fin 1) (.fin 9.81) (.inr ⟨0.4, by norm_num, rfl⟩)
  (by simp)

end
