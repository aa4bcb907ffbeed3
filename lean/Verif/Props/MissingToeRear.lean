import Verif.Model.Toe
import Verif.Model.RearSlope
import Verif.Model.CrestWall
import Verif.Lemmas.MissingCore

/-! # C91: missing values are not turned into numbers — toes, rear slopes and crest walls -/

open Classical
open PF Missing
set_option maxRecDepth 4000
noncomputable section

theorem C91_CrestWall_calculate_influence_oblique_waves_force_gamma_F_beta (z2p Ac beta gamma_A : PF) (missing :
    nan ∈ [z2p, Ac, beta, gamma_A]) : CrestWall.calculate_influence_oblique_waves_force_gamma_F_beta z2p Ac beta
    gamma_A = nan := by
  simp only [List.mem_cons, List.not_mem_nil, or_false] at missing
  rcases missing with rfl | rfl | rfl | rfl <;>
    nan_simp [CrestWall.calculate_influence_oblique_waves_force_gamma_F_beta]

example := C91_CrestWall_calculate_influence_oblique_waves_force_gamma_F_beta nan (.fin 3) (.fin 10) (.fin 1)
  (by simp)

theorem C91_CrestWall_calculate_influence_oblique_waves_horizontal_force_gamma_FH_beta (z2p Ac beta gamma_A :
    PF) (missing : nan ∈ [z2p, Ac, beta, gamma_A]) :
    CrestWall.calculate_influence_oblique_waves_horizontal_force_gamma_FH_beta z2p Ac beta gamma_A = nan := by
  simp only [List.mem_cons, List.not_mem_nil, or_false] at missing
  rcases missing with rfl | rfl | rfl | rfl <;>
    nan_simp [CrestWall.calculate_influence_oblique_waves_horizontal_force_gamma_FH_beta,
      CrestWall.calculate_influence_oblique_waves_force_gamma_F_beta]

example := C91_CrestWall_calculate_influence_oblique_waves_horizontal_force_gamma_FH_beta nan (.fin 3) (.fin 10)
  (.fin 1) (by simp)

theorem C91_CrestWall_calculate_influence_oblique_waves_vertical_force_gamma_FV_beta (z2p Ac beta gamma_A : PF)
    (missing : nan ∈ [z2p, Ac, beta, gamma_A]) :
    CrestWall.calculate_influence_oblique_waves_vertical_force_gamma_FV_beta z2p Ac beta gamma_A = nan := by
  simp only [List.mem_cons, List.not_mem_nil, or_false] at missing
  rcases missing with rfl | rfl | rfl | rfl <;>
    nan_simp [CrestWall.calculate_influence_oblique_waves_vertical_force_gamma_FV_beta,
      CrestWall.calculate_influence_oblique_waves_force_gamma_F_beta]

example := C91_CrestWall_calculate_influence_oblique_waves_vertical_force_gamma_FV_beta nan (.fin 3) (.fin 10)
  (.fin 1) (by simp)

theorem C91_CrestWall_calculate_influence_oblique_waves_gamma_beta (beta c_beta : PF) (missing : nan ∈ [beta,
    c_beta]) : CrestWall.calculate_influence_oblique_waves_gamma_beta beta c_beta = nan := by
  simp only [List.mem_cons, List.not_mem_nil, or_false] at missing
  rcases missing with rfl | rfl <;>
    nan_simp [CrestWall.calculate_influence_oblique_waves_gamma_beta]

example := C91_CrestWall_calculate_influence_oblique_waves_gamma_beta nan (.fin 1) (by simp)

theorem C91_CrestWall_calculate_FH2p_perpendicular_from_z2p (Hm0 z2p Ac Rc Hwall rho_water g cFH : PF) (missing
    : nan ∈ [z2p, Ac, Hwall, rho_water, g, cFH]) : NoNumber (CrestWall.calculate_FH2p_perpendicular_from_z2p Hm0
    z2p Ac Rc Hwall rho_water g cFH) := by
  simp only [List.mem_cons, List.not_mem_nil, or_false] at missing
  rcases missing with rfl | rfl | rfl | rfl | rfl | rfl <;>
    no_number [CrestWall.calculate_FH2p_perpendicular_from_z2p]

example := C91_CrestWall_calculate_FH2p_perpendicular_from_z2p (.fin 2) nan (.fin 3) (.fin 3) (.fin 3) (.fin
  1025) (.fin 9.81) (.fin 1) (by simp)

theorem C91_CrestWall_calculate_FH2p_perpendicular (Hm0 Tmm10 cot_alpha Ac Rc Hwall gamma_beta gamma_f c0 c1
    rho_water g cFH : PF) (missing : nan ∈ [Hm0, Tmm10, cot_alpha, Ac, Hwall, gamma_beta, gamma_f, c0, c1,
    rho_water, g, cFH]) : NoNumber (CrestWall.calculate_FH2p_perpendicular Hm0 Tmm10 cot_alpha Ac Rc Hwall
    gamma_beta gamma_f c0 c1 rho_water g cFH) := by
  simp only [List.mem_cons, List.not_mem_nil, or_false] at missing
  rcases missing with rfl | rfl | rfl | rfl | rfl | rfl | rfl | rfl | rfl | rfl | rfl | rfl <;>
    no_number [CrestWall.calculate_FH2p_perpendicular, VanGent2001.calculate_wave_runup_height_zXp,
      CorePhysics.calculate_Iribarren_number_ksi, CorePhysics.calculate_wave_steepness_s,
      CrestWall.calculate_FH2p_perpendicular_from_z2p]

example := C91_CrestWall_calculate_FH2p_perpendicular nan (.fin 7) (.fin 2) (.fin 3) (.fin 3) (.fin 3) (.fin 1)
  (.fin 0.5) (.fin 1) (.fin 1.5) (.fin 1025) (.fin 9.81) (.fin 1) (by simp)

theorem C91_CrestWall_calculate_FH2p_oblique (Hm0 Tmm10 beta cot_alpha Ac Rc Hwall gamma_beta gamma_f c0 c1 cFH
    rho_water g : PF) (missing : nan ∈ [Hm0, Tmm10, beta, cot_alpha, Ac, Hwall, gamma_beta, gamma_f, c0, c1,
    cFH, rho_water, g]) : NoNumber (CrestWall.calculate_FH2p_oblique Hm0 Tmm10 beta cot_alpha Ac Rc Hwall
    gamma_beta gamma_f c0 c1 cFH rho_water g) := by
  simp only [List.mem_cons, List.not_mem_nil, or_false] at missing
  rcases missing with rfl | rfl | rfl | rfl | rfl | rfl | rfl | rfl | rfl | rfl | rfl | rfl | rfl <;>
    no_number [CrestWall.calculate_FH2p_oblique, VanGent2001.calculate_wave_runup_height_zXp,
      CorePhysics.calculate_Iribarren_number_ksi, CorePhysics.calculate_wave_steepness_s,
      CrestWall.calculate_FH2p_perpendicular_from_z2p,
      CrestWall.calculate_influence_oblique_waves_horizontal_force_gamma_FH_beta,
      CrestWall.calculate_influence_oblique_waves_force_gamma_F_beta]

example := C91_CrestWall_calculate_FH2p_oblique nan (.fin 7) (.fin 10) (.fin 2) (.fin 3) (.fin 3) (.fin 3) (.fin
  1) (.fin 0.5) (.fin 1) (.fin 1.5) (.fin 1) (.fin 1025) (.fin 9.81) (by simp)

theorem C91_CrestWall_calculate_FV2p_perpendicular_from_z2p (z2p Ac Bwall Fb cFV : PF) (cFb : ℝ) (rho_water g :
    PF) (h_cFb : cFb ≠ 0) (missing : nan ∈ [z2p, Ac, Bwall, Fb, cFV, rho_water, g]) :
    CrestWall.calculate_FV2p_perpendicular_from_z2p z2p Ac Bwall Fb cFV (fin cFb) rho_water g = nan := by
  simp only [List.mem_cons, List.not_mem_nil, or_false] at missing
  rcases missing with rfl | rfl | rfl | rfl | rfl | rfl | rfl <;>
    nan_simp [CrestWall.calculate_FV2p_perpendicular_from_z2p]

example := C91_CrestWall_calculate_FV2p_perpendicular_from_z2p nan (.fin 3) (.fin 3) (.fin 0.5) (.fin 1) 1 (.fin
  1025) (.fin 9.81) (by norm_num) (by simp)

theorem C91_CrestWall_calculate_FV2p_perpendicular (Hm0 Tmm10 cot_alpha Ac Bwall Fb gamma_beta gamma_f c0 c1 cFV
    : PF) (cFb : ℝ) (rho_water g : PF) (h_cFb : cFb ≠ 0) (missing : nan ∈ [Hm0, Tmm10, cot_alpha, Ac, Bwall, Fb,
    gamma_beta, gamma_f, c0, c1, cFV, rho_water, g]) : NoNumber (CrestWall.calculate_FV2p_perpendicular Hm0
    Tmm10 cot_alpha Ac Bwall Fb gamma_beta gamma_f c0 c1 cFV (fin cFb) rho_water g) := by
  simp only [List.mem_cons, List.not_mem_nil, or_false] at missing
  rcases missing with rfl | rfl | rfl | rfl | rfl | rfl | rfl | rfl | rfl | rfl | rfl | rfl | rfl <;>
    no_number [CrestWall.calculate_FV2p_perpendicular, VanGent2001.calculate_wave_runup_height_zXp,
      CorePhysics.calculate_Iribarren_number_ksi, CorePhysics.calculate_wave_steepness_s,
      CrestWall.calculate_FV2p_perpendicular_from_z2p]

example := C91_CrestWall_calculate_FV2p_perpendicular nan (.fin 7) (.fin 2) (.fin 3) (.fin 3) (.fin 0.5) (.fin
  1) (.fin 0.5) (.fin 1) (.fin 1.5) (.fin 1) 1 (.fin 1025) (.fin 9.81) (by norm_num) (by simp)

theorem C91_CrestWall_calculate_FV2p_oblique (Hm0 Tmm10 beta cot_alpha Ac Bwall Fb gamma_beta gamma_f c0 c1 cFV
    : PF) (cFb : ℝ) (rho_water g : PF) (h_cFb : cFb ≠ 0) (missing : nan ∈ [Hm0, Tmm10, beta, cot_alpha, Ac,
    Bwall, Fb, gamma_beta, gamma_f, c0, c1, cFV, rho_water, g]) : NoNumber (CrestWall.calculate_FV2p_oblique Hm0
    Tmm10 beta cot_alpha Ac Bwall Fb gamma_beta gamma_f c0 c1 cFV (fin cFb) rho_water g) := by
  simp only [List.mem_cons, List.not_mem_nil, or_false] at missing
  rcases missing with rfl | rfl | rfl | rfl | rfl | rfl | rfl | rfl | rfl | rfl | rfl | rfl | rfl | rfl <;>
    no_number [CrestWall.calculate_FV2p_oblique, VanGent2001.calculate_wave_runup_height_zXp,
      CorePhysics.calculate_Iribarren_number_ksi, CorePhysics.calculate_wave_steepness_s,
      CrestWall.calculate_FV2p_perpendicular_from_z2p,
      CrestWall.calculate_influence_oblique_waves_vertical_force_gamma_FV_beta,
      CrestWall.calculate_influence_oblique_waves_force_gamma_F_beta]

example := C91_CrestWall_calculate_FV2p_oblique nan (.fin 7) (.fin 10) (.fin 2) (.fin 3) (.fin 3) (.fin 0.5)
  (.fin 1) (.fin 0.5) (.fin 1) (.fin 1.5) (.fin 1) 1 (.fin 1025) (.fin 9.81) (by norm_num) (by simp)

theorem C91_CrestWall_calculate_FH01p_perpendicular (FH2p : PF) (missing : nan ∈ [FH2p]) :
    CrestWall.calculate_FH01p_perpendicular FH2p = nan := by
  simp only [List.mem_cons, List.not_mem_nil, or_false] at missing
  rcases missing with rfl
  nan_simp [CrestWall.calculate_FH01p_perpendicular]

example := C91_CrestWall_calculate_FH01p_perpendicular nan (by simp)

theorem C91_CrestWall_calculate_FV01p_perpendicular (FV2p s0p : PF) (missing : nan ∈ [FV2p, s0p]) :
    CrestWall.calculate_FV01p_perpendicular FV2p s0p = nan := by
  simp only [List.mem_cons, List.not_mem_nil, or_false] at missing
  rcases missing with rfl | rfl <;>
    nan_simp [CrestWall.calculate_FV01p_perpendicular]

example := C91_CrestWall_calculate_FV01p_perpendicular nan (.fin 0.03) (by simp)

theorem C91_VanGent2001_calculate_wave_runup_height_zXp (H Tmm10 gamma cot_alpha c0 c1 : PF) (missing : nan ∈
    [H, Tmm10, gamma, cot_alpha, c0, c1]) : VanGent2001.calculate_wave_runup_height_zXp H Tmm10 gamma cot_alpha
    c0 c1 = nan := by
  simp only [List.mem_cons, List.not_mem_nil, or_false] at missing
  rcases missing with rfl | rfl | rfl | rfl | rfl | rfl <;>
    nan_simp [VanGent2001.calculate_wave_runup_height_zXp, CorePhysics.calculate_Iribarren_number_ksi,
      CorePhysics.calculate_wave_steepness_s]

example := C91_VanGent2001_calculate_wave_runup_height_zXp nan (.fin 7) (.fin 0.5) (.fin 2) (.fin 1) (.fin 1.5)
  (by simp)

theorem C91_VanGent2001_calculate_wave_runup_height_z1p (Hs Tmm10 gamma cot_alpha c0 c1 : PF) (missing : nan ∈
    [Hs, Tmm10, gamma, cot_alpha, c0, c1]) : VanGent2001.calculate_wave_runup_height_z1p Hs Tmm10 gamma
    cot_alpha c0 c1 = nan := by
  simp only [List.mem_cons, List.not_mem_nil, or_false] at missing
  rcases missing with rfl | rfl | rfl | rfl | rfl | rfl <;>
    nan_simp [VanGent2001.calculate_wave_runup_height_z1p, VanGent2001.calculate_wave_runup_height_zXp,
      CorePhysics.calculate_Iribarren_number_ksi, CorePhysics.calculate_wave_steepness_s]

example := C91_VanGent2001_calculate_wave_runup_height_z1p nan (.fin 7) (.fin 0.5) (.fin 2) (.fin 1) (.fin 1.5)
  (by simp)

theorem C91_VanGent2001_calculate_wave_runup_height_z2p (Tmm10 gamma cot_alpha Hm0 Hs c0 c1 : PF) (missing : nan
    ∈ [Tmm10, gamma, cot_alpha]) : NoNumber (VanGent2001.calculate_wave_runup_height_z2p Tmm10 gamma cot_alpha
    Hm0 Hs c0 c1) := by
  simp only [List.mem_cons, List.not_mem_nil, or_false] at missing
  rcases missing with rfl | rfl | rfl <;>
    no_number [VanGent2001.calculate_wave_runup_height_z2p, VanGent2001.calculate_wave_runup_height_zXp,
      CorePhysics.calculate_Iribarren_number_ksi, CorePhysics.calculate_wave_steepness_s]

example := C91_VanGent2001_calculate_wave_runup_height_z2p nan (.fin 0.5) (.fin 2) (.fin 2) (.fin 2) (.fin 1)
  (.fin 1.5) (by simp)

theorem C91_VanGent2001_calculate_wave_runup_height_z10p (Hs Tmm10 gamma cot_alpha c0 c1 : PF) (missing : nan ∈
    [Hs, Tmm10, gamma, cot_alpha, c0, c1]) : VanGent2001.calculate_wave_runup_height_z10p Hs Tmm10 gamma
    cot_alpha c0 c1 = nan := by
  simp only [List.mem_cons, List.not_mem_nil, or_false] at missing
  rcases missing with rfl | rfl | rfl | rfl | rfl | rfl <;>
    nan_simp [VanGent2001.calculate_wave_runup_height_z10p, VanGent2001.calculate_wave_runup_height_zXp,
      CorePhysics.calculate_Iribarren_number_ksi, CorePhysics.calculate_wave_steepness_s]

example := C91_VanGent2001_calculate_wave_runup_height_z10p nan (.fin 7) (.fin 0.5) (.fin 2) (.fin 1) (.fin 1.5)
  (by simp)

theorem C91_VanGent2001__invert_for_Hs (Hs_i0 z1p Tmm10 gamma cot_alpha c0 c1 : PF) (missing : nan ∈ [Hs_i0,
    z1p, Tmm10, gamma, cot_alpha, c0, c1]) : VanGent2001._invert_for_Hs Hs_i0 z1p Tmm10 gamma cot_alpha c0 c1 =
    nan := by
  simp only [List.mem_cons, List.not_mem_nil, or_false] at missing
  rcases missing with rfl | rfl | rfl | rfl | rfl | rfl | rfl <;>
    nan_simp [VanGent2001._invert_for_Hs, CorePhysics.calculate_Iribarren_number_ksi,
      CorePhysics.calculate_wave_steepness_s]

example := C91_VanGent2001__invert_for_Hs nan (.fin 5) (.fin 7) (.fin 0.5) (.fin 2) (.fin 1) (.fin 1.5) (by
  simp)

theorem C91_VanGent2002Velocity_calculate_maximum_wave_overtopping_velocity_uXp (Hs zXp Rc Bc gamma_f
    gamma_f_Crest cu1 cu2 g : PF) (missing : nan ∈ [Hs, zXp, Rc, Bc, gamma_f, gamma_f_Crest, cu1, cu2, g]) :
    VanGent2002Velocity.calculate_maximum_wave_overtopping_velocity_uXp Hs zXp Rc Bc gamma_f gamma_f_Crest cu1
    cu2 g = nan := by
  simp only [List.mem_cons, List.not_mem_nil, or_false] at missing
  rcases missing with rfl | rfl | rfl | rfl | rfl | rfl | rfl | rfl | rfl <;>
    nan_simp [VanGent2002Velocity.calculate_maximum_wave_overtopping_velocity_uXp]

example := C91_VanGent2002Velocity_calculate_maximum_wave_overtopping_velocity_uXp nan (.fin 1) (.fin 3) (.fin
  5) (.fin 0.5) (.fin 1) (.fin 1) (.fin 1) (.fin 9.81) (by simp)

theorem C91_VanGent2002Velocity__invert_for_zXp (Hs uXp Rc Bc gamma_f gamma_f_Crest cu1 cu2 g : PF) (missing :
    nan ∈ [Hs, uXp, Rc, Bc, gamma_f, gamma_f_Crest, cu1, cu2, g]) : VanGent2002Velocity._invert_for_zXp Hs uXp
    Rc Bc gamma_f gamma_f_Crest cu1 cu2 g = nan := by
  simp only [List.mem_cons, List.not_mem_nil, or_false] at missing
  rcases missing with rfl | rfl | rfl | rfl | rfl | rfl | rfl | rfl | rfl <;>
    nan_simp [VanGent2002Velocity._invert_for_zXp]

example := C91_VanGent2002Velocity__invert_for_zXp nan (.fin 1) (.fin 3) (.fin 5) (.fin 0.5) (.fin 1) (.fin 1)
  (.fin 1) (.fin 9.81) (by simp)

theorem C91_VanGent2007Rear_calculate_damage_number_S (cot_alpha cot_phi gamma Hs Tmm10 Rc Rc2_front Rc2_rear
    N_waves Dn50 M50 rho_rock : PF) (missing : nan ∈ [cot_alpha, cot_phi, gamma, Hs, Tmm10, Rc, Rc2_front,
    Rc2_rear, N_waves]) : NoNumber (VanGent2007Rear.calculate_damage_number_S cot_alpha cot_phi gamma Hs Tmm10
    Rc Rc2_front Rc2_rear N_waves Dn50 M50 rho_rock) := by
  simp only [List.mem_cons, List.not_mem_nil, or_false] at missing
  rcases missing with rfl | rfl | rfl | rfl | rfl | rfl | rfl | rfl | rfl <;>
    no_number [VanGent2007Rear.calculate_damage_number_S, VanGent2001.calculate_wave_runup_height_z1p,
      VanGent2001.calculate_wave_runup_height_zXp, CorePhysics.calculate_Iribarren_number_ksi,
      CorePhysics.calculate_wave_steepness_s]

example := C91_VanGent2007Rear_calculate_damage_number_S nan (.fin 2) (.fin 0.5) (.fin 2) (.fin 7) (.fin 3)
  (.fin 1) (.fin 1) (.fin 3000) (.fin 1) (.fin 3000) (.fin 2650) (by simp)

theorem C91_VanGent2007Rear_calculate_nominal_rock_diameter_Dn50 (cot_alpha cot_phi gamma S Hs Tmm10 Rc
    Rc2_front Rc2_rear N_waves : PF) (missing : nan ∈ [cot_alpha, cot_phi, gamma, S, Hs, Tmm10, Rc, Rc2_front,
    Rc2_rear, N_waves]) : NoNumber (VanGent2007Rear.calculate_nominal_rock_diameter_Dn50 cot_alpha cot_phi gamma
    S Hs Tmm10 Rc Rc2_front Rc2_rear N_waves) := by
  simp only [List.mem_cons, List.not_mem_nil, or_false] at missing
  rcases missing with rfl | rfl | rfl | rfl | rfl | rfl | rfl | rfl | rfl | rfl <;>
    no_number [VanGent2007Rear.calculate_nominal_rock_diameter_Dn50,
      VanGent2001.calculate_wave_runup_height_z1p, VanGent2001.calculate_wave_runup_height_zXp,
      CorePhysics.calculate_Iribarren_number_ksi, CorePhysics.calculate_wave_steepness_s]

example := C91_VanGent2007Rear_calculate_nominal_rock_diameter_Dn50 nan (.fin 2) (.fin 0.5) (.fin 2) (.fin 2)
  (.fin 7) (.fin 3) (.fin 1) (.fin 1) (.fin 3000) (by simp)

theorem C91_VanGent2007Rear__invert_for_z1p (cot_phi S Dn50 Hs Rc Rc2_front Rc2_rear N_waves : PF) (missing :
    nan ∈ [cot_phi, S, Dn50, Hs, Rc, Rc2_front, Rc2_rear, N_waves]) : VanGent2007Rear._invert_for_z1p cot_phi S
    Dn50 Hs Rc Rc2_front Rc2_rear N_waves = nan := by
  simp only [List.mem_cons, List.not_mem_nil, or_false] at missing
  rcases missing with rfl | rfl | rfl | rfl | rfl | rfl | rfl | rfl <;>
    nan_simp [VanGent2007Rear._invert_for_z1p]

example := C91_VanGent2007Rear__invert_for_z1p nan (.fin 2) (.fin 1) (.fin 2) (.fin 3) (.fin 1) (.fin 1) (.fin
  3000) (by simp)

theorem C91_VanGentPozueta2004_calculate_damage_number_S (cot_alpha cot_phi gamma_f gamma_f_Crest Hs Tmm10 Rc
    Rc_rear Bc N_waves Dn50 M50 rho_rock rho_water cs : PF) (missing : nan ∈ [cot_alpha, cot_phi, gamma_f,
    gamma_f_Crest, Hs, Tmm10, Rc, Rc_rear, Bc, N_waves, rho_water, cs]) : NoNumber
    (VanGentPozueta2004.calculate_damage_number_S cot_alpha cot_phi gamma_f gamma_f_Crest Hs Tmm10 Rc Rc_rear Bc
    N_waves Dn50 M50 rho_rock rho_water cs) := by
  simp only [List.mem_cons, List.not_mem_nil, or_false] at missing
  rcases missing with rfl | rfl | rfl | rfl | rfl | rfl | rfl | rfl | rfl | rfl | rfl | rfl <;>
    no_number [VanGentPozueta2004.calculate_damage_number_S, VanGent2001.calculate_wave_runup_height_z1p,
      VanGent2001.calculate_wave_runup_height_zXp, CorePhysics.calculate_Iribarren_number_ksi,
      CorePhysics.calculate_wave_steepness_s,
      VanGent2002Velocity.calculate_maximum_wave_overtopping_velocity_uXp,
      CorePhysics.calculate_buoyant_density_Delta]

example := C91_VanGentPozueta2004_calculate_damage_number_S nan (.fin 2) (.fin 0.5) (.fin 1) (.fin 2) (.fin 7)
  (.fin 3) (.fin 1) (.fin 5) (.fin 3000) (.fin 1) (.fin 3000) (.fin 2650) (.fin 1025) (.fin 1) (by simp)

theorem C91_VanGentPozueta2004_calculate_nominal_rock_diameter_Dn50 (cot_alpha cot_phi gamma_f gamma_f_Crest S
    Hs Tmm10 Rc Rc_rear Bc rho_rock N_waves rho_water cs : PF) (missing : nan ∈ [cot_alpha, cot_phi, gamma_f,
    gamma_f_Crest, S, Hs, Tmm10, Rc, Rc_rear, Bc, rho_rock, N_waves, rho_water, cs]) : NoNumber
    (VanGentPozueta2004.calculate_nominal_rock_diameter_Dn50 cot_alpha cot_phi gamma_f gamma_f_Crest S Hs Tmm10
    Rc Rc_rear Bc rho_rock N_waves rho_water cs) := by
  simp only [List.mem_cons, List.not_mem_nil, or_false] at missing
  rcases missing with rfl | rfl | rfl | rfl | rfl | rfl | rfl | rfl | rfl | rfl | rfl | rfl | rfl | rfl <;>
    no_number [VanGentPozueta2004.calculate_nominal_rock_diameter_Dn50,
      VanGent2001.calculate_wave_runup_height_z1p, VanGent2001.calculate_wave_runup_height_zXp,
      CorePhysics.calculate_Iribarren_number_ksi, CorePhysics.calculate_wave_steepness_s,
      VanGent2002Velocity.calculate_maximum_wave_overtopping_velocity_uXp,
      CorePhysics.calculate_buoyant_density_Delta]

example := C91_VanGentPozueta2004_calculate_nominal_rock_diameter_Dn50 nan (.fin 2) (.fin 0.5) (.fin 1) (.fin 2)
  (.fin 2) (.fin 7) (.fin 3) (.fin 1) (.fin 5) (.fin 2650) (.fin 3000) (.fin 1025) (.fin 1) (by simp)

theorem C91_VanGentPozueta2004__invert_for_u1p (cot_phi S Hs Tmm10 Rc_rear N_waves Dn50 Delta cs : PF) (missing
    : nan ∈ [cot_phi, S, Hs, Tmm10, Rc_rear, N_waves, cs]) : VanGentPozueta2004._invert_for_u1p cot_phi S Hs
    Tmm10 Rc_rear N_waves Dn50 Delta cs = nan := by
  simp only [List.mem_cons, List.not_mem_nil, or_false] at missing
  rcases missing with rfl | rfl | rfl | rfl | rfl | rfl | rfl <;>
    nan_simp [VanGentPozueta2004._invert_for_u1p]

example := C91_VanGentPozueta2004__invert_for_u1p nan (.fin 2) (.fin 2) (.fin 7) (.fin 1) (.fin 3000) (.fin 1)
  (.fin 1.6) (.fin 1) (by simp)

theorem C91_Gerding1993_calculate_damage_Nod (Hs ht h Dn50 rho_rock rho_water : PF) (missing : nan ∈ [Hs, ht,
    Dn50, rho_rock, rho_water]) : NoNumber (Gerding1993.calculate_damage_Nod Hs ht h Dn50 rho_rock rho_water) :=
    by
  simp only [List.mem_cons, List.not_mem_nil, or_false] at missing
  rcases missing with rfl | rfl | rfl | rfl | rfl <;>
    no_number [Gerding1993.calculate_damage_Nod, CorePhysics.calculate_buoyant_density_Delta]

example := C91_Gerding1993_calculate_damage_Nod nan (.fin 6) (.fin 8) (.fin 1) (.fin 2650) (.fin 1025) (by simp)

theorem C91_Gerding1993_calculate_nominal_diameter_Dn50 (Hs ht h Nod rho_rock rho_water : PF) (missing : nan ∈
    [Hs, ht, Nod, rho_rock, rho_water]) : NoNumber (Gerding1993.calculate_nominal_diameter_Dn50 Hs ht h Nod
    rho_rock rho_water) := by
  simp only [List.mem_cons, List.not_mem_nil, or_false] at missing
  rcases missing with rfl | rfl | rfl | rfl | rfl <;>
    no_number [Gerding1993.calculate_nominal_diameter_Dn50, CorePhysics.calculate_buoyant_density_Delta]

example := C91_Gerding1993_calculate_nominal_diameter_Dn50 nan (.fin 6) (.fin 8) (.fin 0.5) (.fin 2650) (.fin
  1025) (by simp)

theorem C91_Gerding1993_calculate_wave_height_Hs (Dn50 ht h Nod rho_rock rho_water : PF) (missing : nan ∈ [Dn50,
    ht, Nod, rho_rock, rho_water]) : NoNumber (Gerding1993.calculate_wave_height_Hs Dn50 ht h Nod rho_rock
    rho_water) := by
  simp only [List.mem_cons, List.not_mem_nil, or_false] at missing
  rcases missing with rfl | rfl | rfl | rfl | rfl <;>
    no_number [Gerding1993.calculate_wave_height_Hs, CorePhysics.calculate_buoyant_density_Delta]

example := C91_Gerding1993_calculate_wave_height_Hs nan (.fin 6) (.fin 8) (.fin 0.5) (.fin 2650) (.fin 1025) (by
  simp)

theorem C91_Gerding1993_calculate_depth_above_toe_ht (Hs Dn50 h Nod rho_rock rho_water : PF) (missing : nan ∈
    [Hs, Dn50, Nod, rho_rock, rho_water]) : NoNumber (Gerding1993.calculate_depth_above_toe_ht Hs Dn50 h Nod
    rho_rock rho_water) := by
  simp only [List.mem_cons, List.not_mem_nil, or_false] at missing
  rcases missing with rfl | rfl | rfl | rfl | rfl <;>
    no_number [Gerding1993.calculate_depth_above_toe_ht, CorePhysics.calculate_buoyant_density_Delta]

example := C91_Gerding1993_calculate_depth_above_toe_ht nan (.fin 1) (.fin 8) (.fin 0.5) (.fin 2650) (.fin 1025)
  (by simp)

theorem C91_VanDerMeer1998_calculate_damage_Nod (Hs ht h Dn50 rho_rock rho_water : PF) (missing : nan ∈ [Hs, ht,
    h, Dn50, rho_rock, rho_water]) : NoNumber (VanDerMeer1998.calculate_damage_Nod Hs ht h Dn50 rho_rock
    rho_water) := by
  simp only [List.mem_cons, List.not_mem_nil, or_false] at missing
  rcases missing with rfl | rfl | rfl | rfl | rfl | rfl <;>
    no_number [VanDerMeer1998.calculate_damage_Nod, CorePhysics.calculate_buoyant_density_Delta]

example := C91_VanDerMeer1998_calculate_damage_Nod nan (.fin 6) (.fin 8) (.fin 1) (.fin 2650) (.fin 1025) (by
  simp)

theorem C91_VanDerMeer1998_calculate_nominal_diameter_Dn50 (Hs ht h Nod rho_rock rho_water : PF) (missing : nan
    ∈ [Hs, ht, h, Nod, rho_rock, rho_water]) : NoNumber (VanDerMeer1998.calculate_nominal_diameter_Dn50 Hs ht h
    Nod rho_rock rho_water) := by
  simp only [List.mem_cons, List.not_mem_nil, or_false] at missing
  rcases missing with rfl | rfl | rfl | rfl | rfl | rfl <;>
    no_number [VanDerMeer1998.calculate_nominal_diameter_Dn50, CorePhysics.calculate_buoyant_density_Delta]

example := C91_VanDerMeer1998_calculate_nominal_diameter_Dn50 nan (.fin 6) (.fin 8) (.fin 0.5) (.fin 2650) (.fin
  1025) (by simp)

theorem C91_VanDerMeer1998_calculate_wave_height_Hs (Dn50 ht h Nod rho_rock rho_water : PF) (missing : nan ∈
    [Dn50, ht, h, Nod, rho_rock, rho_water]) : NoNumber (VanDerMeer1998.calculate_wave_height_Hs Dn50 ht h Nod
    rho_rock rho_water) := by
  simp only [List.mem_cons, List.not_mem_nil, or_false] at missing
  rcases missing with rfl | rfl | rfl | rfl | rfl | rfl <;>
    no_number [VanDerMeer1998.calculate_wave_height_Hs, CorePhysics.calculate_buoyant_density_Delta]

example := C91_VanDerMeer1998_calculate_wave_height_Hs nan (.fin 6) (.fin 8) (.fin 0.5) (.fin 2650) (.fin 1025)
  (by simp)

theorem C91_VanDerMeer1998_calculate_depth_above_toe_ht (Hs Dn50 h Nod rho_rock rho_water : PF) (missing : nan ∈
    [Hs, Dn50, h, Nod, rho_rock, rho_water]) : NoNumber (VanDerMeer1998.calculate_depth_above_toe_ht Hs Dn50 h
    Nod rho_rock rho_water) := by
  simp only [List.mem_cons, List.not_mem_nil, or_false] at missing
  rcases missing with rfl | rfl | rfl | rfl | rfl | rfl <;>
    no_number [VanDerMeer1998.calculate_depth_above_toe_ht, CorePhysics.calculate_buoyant_density_Delta]

example := C91_VanDerMeer1998_calculate_depth_above_toe_ht nan (.fin 1) (.fin 8) (.fin 0.5) (.fin 2650) (.fin
  1025) (by simp)

theorem C91_VanGentVanDerWerf2014_calculate_velocity_u_delta (Hs Tmm10 ht g : PF) (missing : nan ∈ [Hs, Tmm10,
    ht, g]) : VanGentVanDerWerf2014.calculate_velocity_u_delta Hs Tmm10 ht g = nan := by
  simp only [List.mem_cons, List.not_mem_nil, or_false] at missing
  rcases missing with rfl | rfl | rfl | rfl <;>
    nan_simp [VanGentVanDerWerf2014.calculate_velocity_u_delta]

example := C91_VanGentVanDerWerf2014_calculate_velocity_u_delta nan (.fin 7) (.fin 6) (.fin 9.81) (by simp)

theorem C91_VanGentVanDerWerf2014_calculate_damage_Nod (Hm0 Tmm10 ht Bt tt Dn50 rho_rock rho_water
    cot_alpha_armour_slope g : PF) (c1 c2 c3 c4 c5 : ℝ) (h_c1 : c1 ≠ 0) (h_c2 : c2 ≠ 0) (h_c3 : c3 ≠ 0) (h_c4 :
    c4 ≠ 0) (h_c5 : c5 ≠ 0) (missing : nan ∈ [Hm0, Tmm10, ht, Bt, tt, Dn50, rho_rock, rho_water, g]) : NoNumber
    (VanGentVanDerWerf2014.calculate_damage_Nod Hm0 Tmm10 ht Bt tt Dn50 rho_rock rho_water
    cot_alpha_armour_slope g (fin c1) (fin c2) (fin c3) (fin c4) (fin c5)) := by
  simp only [List.mem_cons, List.not_mem_nil, or_false] at missing
  rcases missing with rfl | rfl | rfl | rfl | rfl | rfl | rfl | rfl | rfl <;>
    no_number [VanGentVanDerWerf2014.calculate_damage_Nod, VanGentVanDerWerf2014.calculate_velocity_u_delta,
      CorePhysics.calculate_buoyant_density_Delta]

example := C91_VanGentVanDerWerf2014_calculate_damage_Nod nan (.fin 7) (.fin 6) (.fin 5) (.fin 2) (.fin 1) (.fin
  2650) (.fin 1025) (.fin 2) (.fin 9.81) 1.5 0.2 0.3 0.3 1 (by norm_num) (by norm_num) (by norm_num) (by
  norm_num) (by norm_num) (by simp)

theorem C91_VanGentVanDerWerf2014_calculate_nominal_diameter_Dn50 (Hm0 Tmm10 ht Bt tt Nod rho_rock rho_water
    cot_alpha_armour_slope g : PF) (missing : nan ∈ [Hm0, Tmm10, ht, Bt, tt, Nod, rho_rock, rho_water, g]) :
    NoNumber (VanGentVanDerWerf2014.calculate_nominal_diameter_Dn50 Hm0 Tmm10 ht Bt tt Nod rho_rock rho_water
    cot_alpha_armour_slope g) := by
  simp only [List.mem_cons, List.not_mem_nil, or_false] at missing
  rcases missing with rfl | rfl | rfl | rfl | rfl | rfl | rfl | rfl | rfl <;>
    no_number [VanGentVanDerWerf2014.calculate_nominal_diameter_Dn50,
      VanGentVanDerWerf2014.calculate_velocity_u_delta, CorePhysics.calculate_buoyant_density_Delta]

example := C91_VanGentVanDerWerf2014_calculate_nominal_diameter_Dn50 nan (.fin 7) (.fin 6) (.fin 5) (.fin 2)
  (.fin 0.5) (.fin 2650) (.fin 1025) (.fin 2) (.fin 9.81) (by simp)

theorem C91_EtemadShahidi2021_calculate_damage_Nod (Hs Tmm10 h ht Bt m Dn50 rho_rock rho_water g : PF) (c1 c2 c3
    c4 c5 c6 c7 : ℝ) (h_c1 : c1 ≠ 0) (h_c2 : c2 ≠ 0) (h_c3 : c3 ≠ 0) (h_c4 : c4 ≠ 0) (h_c5 : c5 ≠ 0) (h_c6 : c6
    ≠ 0) (h_c7 : c7 ≠ 0) (missing : nan ∈ [Hs, Tmm10, h, ht, Bt, m, Dn50, rho_rock, rho_water, g]) : NoNumber
    (EtemadShahidi2021.calculate_damage_Nod Hs Tmm10 h ht Bt m Dn50 rho_rock rho_water g (fin c1) (fin c2) (fin
    c3) (fin c4) (fin c5) (fin c6) (fin c7)) := by
  simp only [List.mem_cons, List.not_mem_nil, or_false] at missing
  rcases missing with rfl | rfl | rfl | rfl | rfl | rfl | rfl | rfl | rfl | rfl <;>
    no_number [EtemadShahidi2021.calculate_damage_Nod, CorePhysics.calculate_wave_steepness_s,
      CorePhysics.calculate_stability_number_Ns, CorePhysics.calculate_buoyant_density_Delta]

example := C91_EtemadShahidi2021_calculate_damage_Nod nan (.fin 7) (.fin 8) (.fin 6) (.fin 5) (.fin 0.02) (.fin
  1) (.fin 2650) (.fin 1025) (.fin 9.81) 1.5 0.2 0.3 0.3 1 1 1 (by norm_num) (by norm_num) (by norm_num) (by
  norm_num) (by norm_num) (by norm_num) (by norm_num) (by simp)

theorem C91_EtemadShahidi2021_calculate_nominal_diameter_Dn50 (Hs Tmm10 h ht Bt Nod m rho_rock rho_water g : PF)
    (c1 c2 c3 c4 c5 c6 c7 : ℝ) (h_c1 : c1 ≠ 0) (h_c2 : c2 ≠ 0) (h_c3 : c3 ≠ 0) (h_c4 : c4 ≠ 0) (h_c5 : c5 ≠ 0)
    (h_c6 : c6 ≠ 0) (h_c7 : c7 ≠ 0) (missing : nan ∈ [Hs, Tmm10, h, ht, Bt, Nod, m, rho_rock, rho_water, g]) :
    NoNumber (EtemadShahidi2021.calculate_nominal_diameter_Dn50 Hs Tmm10 h ht Bt Nod m rho_rock rho_water g (fin
    c1) (fin c2) (fin c3) (fin c4) (fin c5) (fin c6) (fin c7)) := by
  simp only [List.mem_cons, List.not_mem_nil, or_false] at missing
  rcases missing with rfl | rfl | rfl | rfl | rfl | rfl | rfl | rfl | rfl | rfl <;>
    no_number [EtemadShahidi2021.calculate_nominal_diameter_Dn50, CorePhysics.calculate_buoyant_density_Delta,
      CorePhysics.calculate_wave_steepness_s]

example := C91_EtemadShahidi2021_calculate_nominal_diameter_Dn50 nan (.fin 7) (.fin 8) (.fin 6) (.fin 5) (.fin
  0.5) (.fin 0.02) (.fin 2650) (.fin 1025) (.fin 9.81) 1.5 0.2 0.3 0.3 1 1 1 (by norm_num) (by norm_num) (by
  norm_num) (by norm_num) (by norm_num) (by norm_num) (by norm_num) (by simp)

theorem C91_Takahashi1990_calculate_stability_number_Ns (disper : PF → PF → PF → PF) (Hs Tp hacc Bt beta g : PF)
    (hd : Passes disper) (missing : nan ∈ [Hs, Tp, hacc, Bt, beta, g]) : NoNumber
    (Takahashi1990.calculate_stability_number_Ns disper Hs Tp hacc Bt beta g) := by
  simp only [List.mem_cons, List.not_mem_nil, or_false] at missing
  rcases missing with rfl | rfl | rfl | rfl | rfl | rfl <;>
    no_number [Takahashi1990.calculate_stability_number_Ns, Takahashi1990.ns_value,
      CorePhysics.calculate_local_wavelength, hd.1, hd.2.1, hd.2.2]

example := C91_Takahashi1990_calculate_stability_number_Ns (fun w h g => w + h + g) nan (.fin 8) (.fin 6) (.fin
  5) (.fin 10) (.fin 9.81) passes_sum (by simp)

theorem C91_Takahashi1990_calculate_nominal_diameter_Dn50 (disper : PF → PF → PF → PF) (Hs Tp hacc Bt rho_rock
    rho_water beta g : PF) (hd : Passes disper) (missing : nan ∈ [Hs, Tp, hacc, Bt, rho_rock, rho_water, beta,
    g]) : NoNumber (Takahashi1990.calculate_nominal_diameter_Dn50 disper Hs Tp hacc Bt rho_rock rho_water beta
    g) := by
  simp only [List.mem_cons, List.not_mem_nil, or_false] at missing
  rcases missing with rfl | rfl | rfl | rfl | rfl | rfl | rfl | rfl <;>
    no_number [Takahashi1990.calculate_nominal_diameter_Dn50, CorePhysics.calculate_buoyant_density_Delta,
      Takahashi1990.calculate_stability_number_Ns, Takahashi1990.ns_value,
      CorePhysics.calculate_local_wavelength, stab1, stab2, stab3, stab4, hd.1, hd.2.1, hd.2.2]

example := C91_Takahashi1990_calculate_nominal_diameter_Dn50 (fun w h g => w + h + g) nan (.fin 8) (.fin 6)
  (.fin 5) (.fin 2650) (.fin 1025) (.fin 10) (.fin 9.81) passes_sum (by simp)

end
