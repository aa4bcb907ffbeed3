import Verif.Model.CorePhysics
import Verif.Model.OvertoppingMore
import Verif.Model.Transmission
import Verif.Model.Goda1985
import Verif.Lemmas.MissingCore

/-! # C91: missing values are not turned into numbers — wave characteristics, overtopping, transmission and caissons -/

open Classical
open PF Missing
set_option maxRecDepth 4000
noncomputable section

theorem C91_CorePhysics_calculate_wave_steepness_s (H T g : PF) (missing : nan ∈ [H, T, g]) :
    CorePhysics.calculate_wave_steepness_s H T g = nan := by
  simp only [List.mem_cons, List.not_mem_nil, or_false] at missing
  rcases missing with rfl | rfl | rfl <;>
    nan_simp [CorePhysics.calculate_wave_steepness_s]

example := C91_CorePhysics_calculate_wave_steepness_s nan (.fin 7) (.fin 9.81) (by simp)

theorem C91_CorePhysics_calculate_Iribarren_number_ksi (H T cot_alpha : PF) (missing : nan ∈ [H, T, cot_alpha])
    : CorePhysics.calculate_Iribarren_number_ksi H T cot_alpha = nan := by
  simp only [List.mem_cons, List.not_mem_nil, or_false] at missing
  rcases missing with rfl | rfl | rfl <;>
    nan_simp [CorePhysics.calculate_Iribarren_number_ksi, CorePhysics.calculate_wave_steepness_s]

example := C91_CorePhysics_calculate_Iribarren_number_ksi nan (.fin 7) (.fin 2) (by simp)

theorem C91_CorePhysics_calculate_critical_Iribarren_number_ksi_mc (c_pl c_s P cot_alpha : PF) (hP :
    PositiveOrMissing P) (missing : nan ∈ [c_pl, c_s, P, cot_alpha]) :
    CorePhysics.calculate_critical_Iribarren_number_ksi_mc c_pl c_s P cot_alpha = nan := by
  rcases hP with rfl | ⟨p, hp, rfl⟩
  · nan_simp [CorePhysics.calculate_critical_Iribarren_number_ksi_mc]
  simp only [List.mem_cons, List.not_mem_nil, reduceCtorEq, false_or, or_false] at missing
  rcases missing with rfl | rfl | rfl <;>
    nan_simp [CorePhysics.calculate_critical_Iribarren_number_ksi_mc]

example := C91_CorePhysics_calculate_critical_Iribarren_number_ksi_mc nan (.fin 1) (.fin 0.4) (.fin 2) (.inr
  ⟨0.4, by norm_num, rfl⟩) (by simp)

theorem C91_CorePhysics_calculate_buoyant_density_Delta (rho_rock rho_water : PF) (missing : nan ∈ [rho_rock,
    rho_water]) : CorePhysics.calculate_buoyant_density_Delta rho_rock rho_water = nan := by
  simp only [List.mem_cons, List.not_mem_nil, or_false] at missing
  rcases missing with rfl | rfl <;>
    nan_simp [CorePhysics.calculate_buoyant_density_Delta]

example := C91_CorePhysics_calculate_buoyant_density_Delta nan (.fin 1025) (by simp)

theorem C91_CorePhysics_calculate_stability_number_Ns (H D rho_rock rho_water : PF) (missing : nan ∈ [H, D,
    rho_rock, rho_water]) : CorePhysics.calculate_stability_number_Ns H D rho_rock rho_water = nan := by
  simp only [List.mem_cons, List.not_mem_nil, or_false] at missing
  rcases missing with rfl | rfl | rfl | rfl <;>
    nan_simp [CorePhysics.calculate_stability_number_Ns, CorePhysics.calculate_buoyant_density_Delta]

example := C91_CorePhysics_calculate_stability_number_Ns nan (.fin 1) (.fin 2650) (.fin 1025) (by simp)

theorem C91_CorePhysics_calculate_M50_from_Dn50 (Dn50 rho_rock : PF) (missing : nan ∈ [Dn50, rho_rock]) :
    CorePhysics.calculate_M50_from_Dn50 Dn50 rho_rock = nan := by
  simp only [List.mem_cons, List.not_mem_nil, or_false] at missing
  rcases missing with rfl | rfl <;>
    nan_simp [CorePhysics.calculate_M50_from_Dn50]

example := C91_CorePhysics_calculate_M50_from_Dn50 nan (.fin 2650) (by simp)

theorem C91_CorePhysics_calculate_Dn50_from_M50 (M50 rho_rock : PF) (missing : nan ∈ [M50, rho_rock]) :
    CorePhysics.calculate_Dn50_from_M50 M50 rho_rock = nan := by
  simp only [List.mem_cons, List.not_mem_nil, or_false] at missing
  rcases missing with rfl | rfl <;>
    nan_simp [CorePhysics.calculate_Dn50_from_M50]

example := C91_CorePhysics_calculate_Dn50_from_M50 nan (.fin 2650) (by simp)

theorem C91_CorePhysics_calculate_S_from_Nod (Nod G nv : PF) (missing : nan ∈ [Nod, G, nv]) :
    CorePhysics.calculate_S_from_Nod Nod G nv = nan := by
  simp only [List.mem_cons, List.not_mem_nil, or_false] at missing
  rcases missing with rfl | rfl | rfl <;>
    nan_simp [CorePhysics.calculate_S_from_Nod]

example := C91_CorePhysics_calculate_S_from_Nod nan (.fin 2) (.fin 0.4) (by simp)

theorem C91_CorePhysics_calculate_Nod_from_S (S G nv : PF) (missing : nan ∈ [S, G, nv]) :
    CorePhysics.calculate_Nod_from_S S G nv = nan := by
  simp only [List.mem_cons, List.not_mem_nil, or_false] at missing
  rcases missing with rfl | rfl | rfl <;>
    nan_simp [CorePhysics.calculate_Nod_from_S]

example := C91_CorePhysics_calculate_Nod_from_S nan (.fin 2) (.fin 0.4) (by simp)

theorem C91_CorePhysics_calculate_local_wavelength (disper : PF → PF → PF → PF) (T h g : PF) (hd : Passes
    disper) (missing : nan ∈ [T, h, g]) : CorePhysics.calculate_local_wavelength disper T h g = nan := by
  simp only [List.mem_cons, List.not_mem_nil, or_false] at missing
  rcases missing with rfl | rfl | rfl <;>
    nan_simp [CorePhysics.calculate_local_wavelength, hd.1, hd.2.1, hd.2.2]

example := C91_CorePhysics_calculate_local_wavelength (fun w h g => w + h + g) nan (.fin 8) (.fin 9.81)
  passes_sum (by simp)

theorem C91_Goda1985_calculate_Wup (hacc Rc Bup rho_fill_below_SWL rho_water rho_fill_above_SWL g : PF) (missing
    : nan ∈ [hacc, Rc, Bup, rho_fill_below_SWL, rho_water, rho_fill_above_SWL, g]) : Goda1985.calculate_Wup hacc
    Rc Bup rho_fill_below_SWL rho_water rho_fill_above_SWL g = nan := by
  simp only [List.mem_cons, List.not_mem_nil, or_false] at missing
  rcases missing with rfl | rfl | rfl | rfl | rfl | rfl | rfl <;>
    nan_simp [Goda1985.calculate_Wup]

example := C91_Goda1985_calculate_Wup nan (.fin 3) (.fin 10) (.fin 2000) (.fin 1025) (.fin 2000) (.fin 9.81) (by
  simp)

theorem C91_VanGent2021Caisson_calculate_influence_oblique_waves_gamma_beta (beta gamma_p c_beta : PF) (missing
    : nan ∈ [beta, gamma_p, c_beta]) : VanGent2021Caisson.calculate_influence_oblique_waves_gamma_beta beta
    gamma_p c_beta = nan := by
  simp only [List.mem_cons, List.not_mem_nil, or_false] at missing
  rcases missing with rfl | rfl | rfl <;>
    nan_simp [VanGent2021Caisson.calculate_influence_oblique_waves_gamma_beta]

example := C91_VanGent2021Caisson_calculate_influence_oblique_waves_gamma_beta nan (.fin 1) (.fin 1) (by simp)

theorem C91_VanGent2021Caisson_calculate_dimensionless_overtopping_discharge_q (Hm0 Rc beta gamma_beta Hm0_swell
    : PF) (c : ℝ) (c_swell : PF) (short_crested_waves crossing_seas parapet : Bool) (h_c : c ≠ 0) (missing : nan
    ∈ [Hm0, Rc]) : NoNumber (VanGent2021Caisson.calculate_dimensionless_overtopping_discharge_q Hm0 Rc beta
    gamma_beta Hm0_swell (fin c) c_swell short_crested_waves crossing_seas parapet) := by
  simp only [List.mem_cons, List.not_mem_nil, or_false] at missing
  rcases missing with rfl | rfl <;>
    no_number [VanGent2021Caisson.calculate_dimensionless_overtopping_discharge_q,
      VanGent2021Caisson.determine_coefficients, VanGent2021Caisson.swell_coefficient,
      VanGent2021Caisson.calculate_influence_oblique_waves_gamma_beta]

example := C91_VanGent2021Caisson_calculate_dimensionless_overtopping_discharge_q nan (.fin 3) (.fin 10) (.fin
  1) (.fin 0.5) 1 (.fin 1) false false false (by norm_num) (by simp)

theorem C91_VanGent2021Caisson_calculate_overtopping_discharge_q (Hm0 Rc beta gamma_beta Hm0_swell : PF) (c : ℝ)
    (c_swell : PF) (short_crested_waves crossing_seas parapet : Bool) (g : PF) (h_c : c ≠ 0) (missing : nan ∈
    [Hm0, Rc, g]) : NoNumber (VanGent2021Caisson.calculate_overtopping_discharge_q Hm0 Rc beta gamma_beta
    Hm0_swell (fin c) c_swell short_crested_waves crossing_seas parapet g) := by
  simp only [List.mem_cons, List.not_mem_nil, or_false] at missing
  rcases missing with rfl | rfl | rfl <;>
    no_number [VanGent2021Caisson.calculate_overtopping_discharge_q,
      VanGent2021Caisson.calculate_dimensionless_overtopping_discharge_q,
      VanGent2021Caisson.determine_coefficients, VanGent2021Caisson.swell_coefficient,
      VanGent2021Caisson.calculate_influence_oblique_waves_gamma_beta]

example := C91_VanGent2021Caisson_calculate_overtopping_discharge_q nan (.fin 3) (.fin 10) (.fin 1) (.fin 0.5) 1
  (.fin 1) false false false (.fin 9.81) (by norm_num) (by simp)

theorem C91_VanGent2021Caisson_calculate_dimensionless_crest_freeboard (Hm0 q beta gamma_beta Hm0_swell : PF) (c
    : ℝ) (c_swell : PF) (short_crested_waves crossing_seas parapet : Bool) (g : PF) (h_c : c ≠ 0) (missing : nan
    ∈ [Hm0, q, g]) : NoNumber (VanGent2021Caisson.calculate_dimensionless_crest_freeboard Hm0 q beta gamma_beta
    Hm0_swell (fin c) c_swell short_crested_waves crossing_seas parapet g) := by
  simp only [List.mem_cons, List.not_mem_nil, or_false] at missing
  rcases missing with rfl | rfl | rfl <;>
    no_number [VanGent2021Caisson.calculate_dimensionless_crest_freeboard,
      VanGent2021Caisson.determine_coefficients, VanGent2021Caisson.swell_coefficient,
      VanGent2021Caisson.calculate_influence_oblique_waves_gamma_beta]

example := C91_VanGent2021Caisson_calculate_dimensionless_crest_freeboard nan (.fin 0.001) (.fin 10) (.fin 1)
  (.fin 0.5) 1 (.fin 1) false false false (.fin 9.81) (by norm_num) (by simp)

theorem C91_VanGent2021Caisson_calculate_crest_freeboard_Rc (Hm0 q beta gamma_beta Hm0_swell : PF) (c : ℝ)
    (c_swell : PF) (short_crested_waves crossing_seas parapet : Bool) (g : PF) (h_c : c ≠ 0) (missing : nan ∈
    [Hm0, q, g]) : NoNumber (VanGent2021Caisson.calculate_crest_freeboard_Rc Hm0 q beta gamma_beta Hm0_swell
    (fin c) c_swell short_crested_waves crossing_seas parapet g) := by
  simp only [List.mem_cons, List.not_mem_nil, or_false] at missing
  rcases missing with rfl | rfl | rfl <;>
    no_number [VanGent2021Caisson.calculate_crest_freeboard_Rc,
      VanGent2021Caisson.calculate_dimensionless_crest_freeboard, VanGent2021Caisson.determine_coefficients,
      VanGent2021Caisson.swell_coefficient, VanGent2021Caisson.calculate_influence_oblique_waves_gamma_beta]

example := C91_VanGent2021Caisson_calculate_crest_freeboard_Rc nan (.fin 0.001) (.fin 10) (.fin 1) (.fin 0.5) 1
  (.fin 1) false false false (.fin 9.81) (by norm_num) (by simp)

theorem C91_VanGent2025_q_diml_max_equation (Hm0 Hm0_swell ksi_mm10 cot_alpha Rc gamma_f gamma_b gamma_v
    gamma_beta c2 c3 : PF) (missing : nan ∈ [Hm0, Hm0_swell, ksi_mm10, cot_alpha, Rc, gamma_f, gamma_b, gamma_v,
    gamma_beta, c2, c3]) : VanGent2025.q_diml_max_equation Hm0 Hm0_swell ksi_mm10 cot_alpha Rc gamma_f gamma_b
    gamma_v gamma_beta c2 c3 = nan := by
  simp only [List.mem_cons, List.not_mem_nil, or_false] at missing
  rcases missing with rfl | rfl | rfl | rfl | rfl | rfl | rfl | rfl | rfl | rfl | rfl <;>
    nan_simp [VanGent2025.q_diml_max_equation]

example := C91_VanGent2025_q_diml_max_equation nan (.fin 0.5) (.fin 3) (.fin 2) (.fin 3) (.fin 0.5) (.fin 1)
  (.fin 1) (.fin 1) (.fin 0.2) (.fin 0.3) (by simp)

theorem C91_VanGent2025_calculate_influence_friction_gamma_f (Dn50 Hm0 smm10 c_f1 : PF) (c_f2 : ℝ) (smm10_lim :
    PF) (h_c_f2 : c_f2 ≠ 0) (missing : nan ∈ [Dn50, Hm0, smm10, c_f1, smm10_lim]) :
    VanGent2025.calculate_influence_friction_gamma_f Dn50 Hm0 smm10 c_f1 (fin c_f2) smm10_lim = nan := by
  simp only [List.mem_cons, List.not_mem_nil, or_false] at missing
  rcases missing with rfl | rfl | rfl | rfl | rfl <;>
    nan_simp [VanGent2025.calculate_influence_friction_gamma_f]

example := C91_VanGent2025_calculate_influence_friction_gamma_f nan (.fin 2) (.fin 0.03) (.fin 1) 1 (.fin 1) (by
  norm_num) (by simp)

theorem C91_VanGent2025_calculate_influence_berm_gamma_b (Hm0 smm10 Ac B_berm BL c_b1 : PF) (c_b2 : ℝ) (c_b3 :
    PF) (c_b4 : ℝ) (h_c_b2 : c_b2 ≠ 0) (h_c_b4 : c_b4 ≠ 0) (missing : nan ∈ [Hm0, smm10, Ac, B_berm, BL, c_b1,
    c_b3]) : VanGent2025.calculate_influence_berm_gamma_b Hm0 smm10 Ac B_berm BL c_b1 (fin c_b2) c_b3 (fin c_b4)
    = nan := by
  simp only [List.mem_cons, List.not_mem_nil, or_false] at missing
  rcases missing with rfl | rfl | rfl | rfl | rfl | rfl | rfl <;>
    nan_simp [VanGent2025.calculate_influence_berm_gamma_b]

example := C91_VanGent2025_calculate_influence_berm_gamma_b nan (.fin 0.03) (.fin 3) (.fin 5) (.fin 20) (.fin 1)
  1 (.fin 1) 1 (by norm_num) (by norm_num) (by simp)

theorem C91_VanGent2025_calculate_influence_oblique_waves_gamma_beta (beta c_beta : PF) (missing : nan ∈ [beta,
    c_beta]) : VanGent2025.calculate_influence_oblique_waves_gamma_beta beta c_beta = nan := by
  simp only [List.mem_cons, List.not_mem_nil, or_false] at missing
  rcases missing with rfl | rfl <;>
    nan_simp [VanGent2025.calculate_influence_oblique_waves_gamma_beta]

example := C91_VanGent2025_calculate_influence_oblique_waves_gamma_beta nan (.fin 1) (by simp)

theorem C91_VanGent2025_calculate_influence_crest_wall_gamma_v (cot_alpha Rc Ac c_v : PF) (missing : nan ∈
    [cot_alpha, Rc, Ac]) : VanGent2025.calculate_influence_crest_wall_gamma_v cot_alpha Rc Ac c_v = nan := by
  simp only [List.mem_cons, List.not_mem_nil, or_false] at missing
  rcases missing with rfl | rfl | rfl <;>
    nan_simp [VanGent2025.calculate_influence_crest_wall_gamma_v]

example := C91_VanGent2025_calculate_influence_crest_wall_gamma_v nan (.fin 3) (.fin 3) (.fin 1) (by simp)

theorem C91_VanGent2025_calculate_influence_wind_gamma_w (Rc Ac Hm0 q_diml c_w1 : PF) (c_w2 : ℝ) (h_c_w2 : c_w2
    ≠ 0) (missing : nan ∈ [Rc, Ac, Hm0, q_diml, c_w1]) : VanGent2025.calculate_influence_wind_gamma_w Rc Ac Hm0
    q_diml c_w1 (fin c_w2) = nan := by
  simp only [List.mem_cons, List.not_mem_nil, or_false] at missing
  rcases missing with rfl | rfl | rfl | rfl | rfl <;>
    nan_simp [VanGent2025.calculate_influence_wind_gamma_w]

example := C91_VanGent2025_calculate_influence_wind_gamma_w nan (.fin 3) (.fin 2) (.fin 1) (.fin 1) 1 (by
  norm_num) (by simp)

theorem C91_VanGent2025_calculate_dimensionless_overtopping_discharge_q (Hm0 Hm0_swell Tmm10 Rc Ac cot_alpha
    beta B_berm db Dn50 gamma_f gamma_b gamma_v gamma_beta : PF) (design_calculation include_influence_wind :
    Bool) (missing : nan ∈ [Hm0, Hm0_swell, Tmm10, Rc]) : NoNumber
    (VanGent2025.calculate_dimensionless_overtopping_discharge_q Hm0 Hm0_swell Tmm10 Rc Ac cot_alpha beta B_berm
    db Dn50 gamma_f gamma_b gamma_v gamma_beta design_calculation include_influence_wind) := by
  simp only [List.mem_cons, List.not_mem_nil, or_false] at missing
  rcases missing with rfl | rfl | rfl | rfl <;>
    no_number [VanGent2025.calculate_dimensionless_overtopping_discharge_q,
      VanGent2025.calculate_influence_oblique_waves_gamma_beta, CorePhysics.calculate_Iribarren_number_ksi,
      CorePhysics.calculate_wave_steepness_s, VanGent2025.calculate_influence_berm_gamma_b,
      VanGent2025.friction_or_raise, VanGent2025.calculate_influence_friction_gamma_f,
      VanGent2025.q_diml_max_equation, VanGent2025.calculate_influence_wind_gamma_w]

example := C91_VanGent2025_calculate_dimensionless_overtopping_discharge_q nan (.fin 0.5) (.fin 7) (.fin 3)
  (.fin 3) (.fin 2) (.fin 10) (.fin 5) (.fin 1) (.fin 1) (.fin 0.5) (.fin 1) (.fin 1) (.fin 1) false false (by
  simp)

theorem C91_VanGent2025_calculate_overtopping_discharge_q (Hm0 Hm0_swell Tmm10 Rc Ac cot_alpha beta B_berm db
    Dn50 gamma_f gamma_b gamma_v gamma_beta g : PF) (design_calculation include_influence_wind : Bool) (missing
    : nan ∈ [Hm0, Hm0_swell, Tmm10, Rc, g]) : NoNumber (VanGent2025.calculate_overtopping_discharge_q Hm0
    Hm0_swell Tmm10 Rc Ac cot_alpha beta B_berm db Dn50 gamma_f gamma_b gamma_v gamma_beta g design_calculation
    include_influence_wind) := by
  simp only [List.mem_cons, List.not_mem_nil, or_false] at missing
  rcases missing with rfl | rfl | rfl | rfl | rfl <;>
    no_number [VanGent2025.calculate_overtopping_discharge_q,
      VanGent2025.calculate_dimensionless_overtopping_discharge_q,
      VanGent2025.calculate_influence_oblique_waves_gamma_beta, CorePhysics.calculate_Iribarren_number_ksi,
      CorePhysics.calculate_wave_steepness_s, VanGent2025.calculate_influence_berm_gamma_b,
      VanGent2025.friction_or_raise, VanGent2025.calculate_influence_friction_gamma_f,
      VanGent2025.q_diml_max_equation, VanGent2025.calculate_influence_wind_gamma_w]

example := C91_VanGent2025_calculate_overtopping_discharge_q nan (.fin 0.5) (.fin 7) (.fin 3) (.fin 3) (.fin 2)
  (.fin 10) (.fin 5) (.fin 1) (.fin 1) (.fin 0.5) (.fin 1) (.fin 1) (.fin 1) (.fin 9.81) false false (by simp)

theorem C91_VanGent2025_Rc_diml_max_equation (Hm0 Hm0_swell q cot_alpha ksi_mm10 gamma_f gamma_b gamma_v
    gamma_beta c2 c3 g : PF) (missing : nan ∈ [Hm0, Hm0_swell, q, cot_alpha, ksi_mm10, gamma_f, gamma_b,
    gamma_v, gamma_beta, c2, c3, g]) : VanGent2025.Rc_diml_max_equation Hm0 Hm0_swell q cot_alpha ksi_mm10
    gamma_f gamma_b gamma_v gamma_beta c2 c3 g = nan := by
  simp only [List.mem_cons, List.not_mem_nil, or_false] at missing
  rcases missing with rfl | rfl | rfl | rfl | rfl | rfl | rfl | rfl | rfl | rfl | rfl | rfl <;>
    nan_simp [VanGent2025.Rc_diml_max_equation]

example := C91_VanGent2025_Rc_diml_max_equation nan (.fin 0.5) (.fin 0.001) (.fin 2) (.fin 3) (.fin 0.5) (.fin
  1) (.fin 1) (.fin 1) (.fin 0.2) (.fin 0.3) (.fin 9.81) (by simp)

theorem C91_VanGent2025_calculate_dimensionless_crest_freeboard (Hm0 Hm0_swell Tmm10 q Ac cot_alpha beta B_berm
    db Dn50 gamma_f gamma_b gamma_v gamma_beta g : PF) (design_calculation include_influence_wind : Bool)
    (max_iter : ℕ) (tolerance : PF) (missing : nan ∈ [Hm0, Hm0_swell, Tmm10, q]) : NoNumber
    (VanGent2025.calculate_dimensionless_crest_freeboard Hm0 Hm0_swell Tmm10 q Ac cot_alpha beta B_berm db Dn50
    gamma_f gamma_b gamma_v gamma_beta g design_calculation include_influence_wind max_iter tolerance) := by
  simp only [List.mem_cons, List.not_mem_nil, or_false] at missing
  rcases missing with rfl | rfl | rfl | rfl <;>
    no_number [VanGent2025.calculate_dimensionless_crest_freeboard,
      VanGent2025.calculate_influence_oblique_waves_gamma_beta, CorePhysics.calculate_Iribarren_number_ksi,
      CorePhysics.calculate_wave_steepness_s, VanGent2025.calculate_influence_berm_gamma_b,
      VanGent2025.friction_or_raise, VanGent2025.calculate_influence_friction_gamma_f,
      VanGent2025.Rc_diml_eqB1, VanGent2025.calculate_influence_wind_gamma_w,
      VanGent2025.Rc_diml_max_equation]

example := C91_VanGent2025_calculate_dimensionless_crest_freeboard nan (.fin 0.5) (.fin 7) (.fin 0.001) (.fin 3)
  (.fin 2) (.fin 10) (.fin 5) (.fin 1) (.fin 1) (.fin 0.5) (.fin 1) (.fin 1) (.fin 1) (.fin 9.81) false false
  100 (.fin 1e-4) (by simp)

theorem C91_VanGent2025_calculate_crest_freeboard_Rc (Hm0 Hm0_swell Tmm10 q Ac cot_alpha beta B_berm db Dn50
    gamma_f gamma_b gamma_v gamma_beta : PF) (design_calculation include_influence_wind : Bool) (missing : nan ∈
    [Hm0, Hm0_swell, Tmm10, q]) : NoNumber (VanGent2025.calculate_crest_freeboard_Rc Hm0 Hm0_swell Tmm10 q Ac
    cot_alpha beta B_berm db Dn50 gamma_f gamma_b gamma_v gamma_beta design_calculation include_influence_wind)
    := by
  simp only [List.mem_cons, List.not_mem_nil, or_false] at missing
  rcases missing with rfl | rfl | rfl | rfl <;>
    no_number [VanGent2025.calculate_crest_freeboard_Rc, VanGent2025.calculate_dimensionless_crest_freeboard,
      VanGent2025.calculate_influence_oblique_waves_gamma_beta, CorePhysics.calculate_Iribarren_number_ksi,
      CorePhysics.calculate_wave_steepness_s, VanGent2025.calculate_influence_berm_gamma_b,
      VanGent2025.friction_or_raise, VanGent2025.calculate_influence_friction_gamma_f,
      VanGent2025.Rc_diml_eqB1, VanGent2025.calculate_influence_wind_gamma_w,
      VanGent2025.Rc_diml_max_equation]

example := C91_VanGent2025_calculate_crest_freeboard_Rc nan (.fin 0.5) (.fin 7) (.fin 0.001) (.fin 3) (.fin 2)
  (.fin 10) (.fin 5) (.fin 1) (.fin 1) (.fin 0.5) (.fin 1) (.fin 1) (.fin 1) false false (by simp)

theorem C91_DeRidder2024_calculate_dimensionless_crest_freeboard_discharge_q_eq24 (Hm0 smm10_HF gamma_f q g :
    PF) (missing : nan ∈ [Hm0, smm10_HF, gamma_f, q, g]) : NoNumber
    (DeRidder2024.calculate_dimensionless_crest_freeboard_discharge_q_eq24 Hm0 smm10_HF gamma_f q g) := by
  simp only [List.mem_cons, List.not_mem_nil, or_false] at missing
  rcases missing with rfl | rfl | rfl | rfl | rfl <;>
    no_number [DeRidder2024.calculate_dimensionless_crest_freeboard_discharge_q_eq24, DeRidder2024.period_HF]

example := C91_DeRidder2024_calculate_dimensionless_crest_freeboard_discharge_q_eq24 nan (.fin 0.03) (.fin 0.5)
  (.fin 0.001) (.fin 9.81) (by simp)

theorem C91_DeRidder2024_calculate_crest_freeboard_discharge_q_eq24 (Hm0 smm10_HF gamma_f q _g : PF) (missing :
    nan ∈ [Hm0, smm10_HF, gamma_f, q]) : NoNumber (DeRidder2024.calculate_crest_freeboard_discharge_q_eq24 Hm0
    smm10_HF gamma_f q _g) := by
  simp only [List.mem_cons, List.not_mem_nil, or_false] at missing
  rcases missing with rfl | rfl | rfl | rfl <;>
    no_number [DeRidder2024.calculate_crest_freeboard_discharge_q_eq24,
      DeRidder2024.calculate_dimensionless_crest_freeboard_discharge_q_eq24, DeRidder2024.period_HF]

example := C91_DeRidder2024_calculate_crest_freeboard_discharge_q_eq24 nan (.fin 0.03) (.fin 0.5) (.fin 0.001)
  (.fin 1) (by simp)

theorem C91_DeRidder2024_calculate_crest_freeboard_discharge_q_eq26 (Hm0 smm10_HF Hm0_LF gamma_f q g : PF)
    (missing : nan ∈ [Hm0, smm10_HF, Hm0_LF, gamma_f, q, g]) : NoNumber
    (DeRidder2024.calculate_crest_freeboard_discharge_q_eq26 Hm0 smm10_HF Hm0_LF gamma_f q g) := by
  simp only [List.mem_cons, List.not_mem_nil, or_false] at missing
  rcases missing with rfl | rfl | rfl | rfl | rfl | rfl <;>
    no_number [DeRidder2024.calculate_crest_freeboard_discharge_q_eq26, DeRidder2024.period_HF]

example := C91_DeRidder2024_calculate_crest_freeboard_discharge_q_eq26 nan (.fin 0.03) (.fin 0.5) (.fin 0.5)
  (.fin 0.001) (.fin 9.81) (by simp)

theorem C91_DeRidder2024_calculate_dimensionless_overtopping_discharge_eq24 (Hm0 smm10_HF gamma_f Rc : PF)
    (missing : nan ∈ [Hm0, smm10_HF, gamma_f, Rc]) : NoNumber
    (DeRidder2024.calculate_dimensionless_overtopping_discharge_eq24 Hm0 smm10_HF gamma_f Rc) := by
  simp only [List.mem_cons, List.not_mem_nil, or_false] at missing
  rcases missing with rfl | rfl | rfl | rfl <;>
    no_number [DeRidder2024.calculate_dimensionless_overtopping_discharge_eq24, DeRidder2024.period_HF]

example := C91_DeRidder2024_calculate_dimensionless_overtopping_discharge_eq24 nan (.fin 0.03) (.fin 0.5) (.fin
  3) (by simp)

theorem C91_DeRidder2024_calculate_overtopping_discharge_q_eq24 (Hm0 smm10_HF gamma_f Rc g : PF) (missing : nan
    ∈ [Hm0, smm10_HF, gamma_f, Rc, g]) : NoNumber (DeRidder2024.calculate_overtopping_discharge_q_eq24 Hm0
    smm10_HF gamma_f Rc g) := by
  simp only [List.mem_cons, List.not_mem_nil, or_false] at missing
  rcases missing with rfl | rfl | rfl | rfl | rfl <;>
    no_number [DeRidder2024.calculate_overtopping_discharge_q_eq24,
      DeRidder2024.calculate_dimensionless_overtopping_discharge_eq24, DeRidder2024.period_HF]

example := C91_DeRidder2024_calculate_overtopping_discharge_q_eq24 nan (.fin 0.03) (.fin 0.5) (.fin 3) (.fin
  9.81) (by simp)

theorem C91_DeRidder2024_calculate_dimensionless_overtopping_discharge_eq26 (Hm0 smm10_HF Hm0_LF gamma_f Rc :
    PF) (missing : nan ∈ [Hm0, smm10_HF, Hm0_LF, gamma_f, Rc]) : NoNumber
    (DeRidder2024.calculate_dimensionless_overtopping_discharge_eq26 Hm0 smm10_HF Hm0_LF gamma_f Rc) := by
  simp only [List.mem_cons, List.not_mem_nil, or_false] at missing
  rcases missing with rfl | rfl | rfl | rfl | rfl <;>
    no_number [DeRidder2024.calculate_dimensionless_overtopping_discharge_eq26, DeRidder2024.period_HF]

example := C91_DeRidder2024_calculate_dimensionless_overtopping_discharge_eq26 nan (.fin 0.03) (.fin 0.5) (.fin
  0.5) (.fin 3) (by simp)

theorem C91_DeRidder2024_calculate_overtopping_discharge_q_eq26 (Hm0 smm10_HF Hm0_LF gamma_f Rc g : PF) (missing
    : nan ∈ [Hm0, smm10_HF, Hm0_LF, gamma_f, Rc, g]) : NoNumber
    (DeRidder2024.calculate_overtopping_discharge_q_eq26 Hm0 smm10_HF Hm0_LF gamma_f Rc g) := by
  simp only [List.mem_cons, List.not_mem_nil, or_false] at missing
  rcases missing with rfl | rfl | rfl | rfl | rfl | rfl <;>
    no_number [DeRidder2024.calculate_overtopping_discharge_q_eq26,
      DeRidder2024.calculate_dimensionless_overtopping_discharge_eq26, DeRidder2024.period_HF]

example := C91_DeRidder2024_calculate_overtopping_discharge_q_eq26 nan (.fin 0.03) (.fin 0.5) (.fin 0.5) (.fin
  3) (.fin 9.81) (by simp)

theorem C91_DeRidder2026_calculate_gamma_beta (theta : PF) (missing : nan ∈ [theta]) :
    DeRidder2026.calculate_gamma_beta theta = nan := by
  simp only [List.mem_cons, List.not_mem_nil, or_false] at missing
  rcases missing with rfl
  nan_simp [DeRidder2026.calculate_gamma_beta]

example := C91_DeRidder2026_calculate_gamma_beta nan (by simp)

theorem C91_DeRidder2026_calculate_dimensionless_crest_freeboard_discharge_q_eq28 (Hm0 smm10_HF gamma_f q g
    gamma_beta : PF) (missing : nan ∈ [Hm0, smm10_HF, gamma_f, q, g, gamma_beta]) :
    DeRidder2026.calculate_dimensionless_crest_freeboard_discharge_q_eq28 Hm0 smm10_HF gamma_f q g gamma_beta =
    nan := by
  simp only [List.mem_cons, List.not_mem_nil, or_false] at missing
  rcases missing with rfl | rfl | rfl | rfl | rfl | rfl <;>
    nan_simp [DeRidder2026.calculate_dimensionless_crest_freeboard_discharge_q_eq28]

example := C91_DeRidder2026_calculate_dimensionless_crest_freeboard_discharge_q_eq28 nan (.fin 0.03) (.fin 0.5)
  (.fin 0.001) (.fin 9.81) (.fin 1) (by simp)

theorem C91_DeRidder2026_calculate_crest_freeboard_discharge_q_eq28 (Hm0 smm10_HF gamma_f q g theta : PF)
    (missing : nan ∈ [Hm0, smm10_HF, gamma_f, q, g, theta]) : NoNumber
    (DeRidder2026.calculate_crest_freeboard_discharge_q_eq28 Hm0 smm10_HF gamma_f q g theta) := by
  simp only [List.mem_cons, List.not_mem_nil, or_false] at missing
  rcases missing with rfl | rfl | rfl | rfl | rfl | rfl <;>
    no_number [DeRidder2026.calculate_crest_freeboard_discharge_q_eq28, DeRidder2026.calculate_gamma_beta,
      DeRidder2026.calculate_dimensionless_crest_freeboard_discharge_q_eq28]

example := C91_DeRidder2026_calculate_crest_freeboard_discharge_q_eq28 nan (.fin 0.03) (.fin 0.5) (.fin 0.001)
  (.fin 9.81) (.fin 10) (by simp)

theorem C91_DeRidder2026_calculate_crest_freeboard_discharge_q_eq32 (Hm0_HF smm10_HF Hm0_LF gamma_f q g theta :
    PF) (missing : nan ∈ [Hm0_HF, smm10_HF, Hm0_LF, gamma_f, q, g, theta]) : NoNumber
    (DeRidder2026.calculate_crest_freeboard_discharge_q_eq32 Hm0_HF smm10_HF Hm0_LF gamma_f q g theta) := by
  simp only [List.mem_cons, List.not_mem_nil, or_false] at missing
  rcases missing with rfl | rfl | rfl | rfl | rfl | rfl | rfl <;>
    no_number [DeRidder2026.calculate_crest_freeboard_discharge_q_eq32, DeRidder2026.calculate_gamma_beta]

example := C91_DeRidder2026_calculate_crest_freeboard_discharge_q_eq32 nan (.fin 0.03) (.fin 0.5) (.fin 0.5)
  (.fin 0.001) (.fin 9.81) (.fin 10) (by simp)

theorem C91_DeRidder2026_calculate_dimensionless_overtopping_discharge_eq28 (Hm0 smm10_HF gamma_f Rc theta : PF)
    (missing : nan ∈ [Hm0, smm10_HF, gamma_f, Rc, theta]) : NoNumber
    (DeRidder2026.calculate_dimensionless_overtopping_discharge_eq28 Hm0 smm10_HF gamma_f Rc theta) := by
  simp only [List.mem_cons, List.not_mem_nil, or_false] at missing
  rcases missing with rfl | rfl | rfl | rfl | rfl <;>
    no_number [DeRidder2026.calculate_dimensionless_overtopping_discharge_eq28,
      DeRidder2026.calculate_gamma_beta, DeRidder2024.period_HF]

example := C91_DeRidder2026_calculate_dimensionless_overtopping_discharge_eq28 nan (.fin 0.03) (.fin 0.5) (.fin
  3) (.fin 10) (by simp)

theorem C91_DeRidder2026_calculate_overtopping_discharge_q_eq28 (Hm0 smm10_HF gamma_f Rc g theta : PF) (missing
    : nan ∈ [Hm0, smm10_HF, gamma_f, Rc, g, theta]) : NoNumber
    (DeRidder2026.calculate_overtopping_discharge_q_eq28 Hm0 smm10_HF gamma_f Rc g theta) := by
  simp only [List.mem_cons, List.not_mem_nil, or_false] at missing
  rcases missing with rfl | rfl | rfl | rfl | rfl | rfl <;>
    no_number [DeRidder2026.calculate_overtopping_discharge_q_eq28,
      DeRidder2026.calculate_dimensionless_overtopping_discharge_eq28, DeRidder2026.calculate_gamma_beta,
      DeRidder2024.period_HF]

example := C91_DeRidder2026_calculate_overtopping_discharge_q_eq28 nan (.fin 0.03) (.fin 0.5) (.fin 3) (.fin
  9.81) (.fin 10) (by simp)

theorem C91_DeRidder2026_calculate_dimensionless_overtopping_discharge_eq32 (Hm0_HF smm10_HF Hm0_LF gamma_f Rc
    theta : PF) (missing : nan ∈ [Hm0_HF, smm10_HF, Hm0_LF, gamma_f, Rc, theta]) : NoNumber
    (DeRidder2026.calculate_dimensionless_overtopping_discharge_eq32 Hm0_HF smm10_HF Hm0_LF gamma_f Rc theta) :=
    by
  simp only [List.mem_cons, List.not_mem_nil, or_false] at missing
  rcases missing with rfl | rfl | rfl | rfl | rfl | rfl <;>
    no_number [DeRidder2026.calculate_dimensionless_overtopping_discharge_eq32,
      DeRidder2026.calculate_gamma_beta, DeRidder2024.period_HF]

example := C91_DeRidder2026_calculate_dimensionless_overtopping_discharge_eq32 nan (.fin 0.03) (.fin 0.5) (.fin
  0.5) (.fin 3) (.fin 10) (by simp)

theorem C91_DeRidder2026_calculate_overtopping_discharge_q_eq32 (Hm0_HF smm10_HF Hm0_LF gamma_f Rc g theta : PF)
    (missing : nan ∈ [Hm0_HF, smm10_HF, Hm0_LF, gamma_f, Rc, g, theta]) : NoNumber
    (DeRidder2026.calculate_overtopping_discharge_q_eq32 Hm0_HF smm10_HF Hm0_LF gamma_f Rc g theta) := by
  simp only [List.mem_cons, List.not_mem_nil, or_false] at missing
  rcases missing with rfl | rfl | rfl | rfl | rfl | rfl | rfl <;>
    no_number [DeRidder2026.calculate_overtopping_discharge_q_eq32,
      DeRidder2026.calculate_dimensionless_overtopping_discharge_eq32, DeRidder2026.calculate_gamma_beta,
      DeRidder2024.period_HF]

example := C91_DeRidder2026_calculate_overtopping_discharge_q_eq32 nan (.fin 0.03) (.fin 0.5) (.fin 0.5) (.fin
  3) (.fin 9.81) (.fin 10) (by simp)

theorem C91_DAngremond1996_calculate_wave_transmission_Kt_permeable (Hsi Tpi h Rc B cot_alpha C1 : PF)
    (do_validity_check : Bool) (missing : nan ∈ [Hsi, Tpi, Rc, B, cot_alpha, C1]) : NoNumber
    (DAngremond1996.calculate_wave_transmission_Kt_permeable Hsi Tpi h Rc B cot_alpha C1 do_validity_check) :=
    by
  simp only [List.mem_cons, List.not_mem_nil, or_false] at missing
  rcases missing with rfl | rfl | rfl | rfl | rfl | rfl <;>
    no_number [DAngremond1996.calculate_wave_transmission_Kt_permeable,
      CorePhysics.calculate_Iribarren_number_ksi, CorePhysics.calculate_wave_steepness_s]

example := C91_DAngremond1996_calculate_wave_transmission_Kt_permeable nan (.fin 8) (.fin 8) (.fin 3) (.fin 5)
  (.fin 2) (.fin 1) false (by simp)

theorem C91_DAngremond1996_calculate_wave_transmission_Kt_impermeable (Hsi Tpi h Rc B cot_alpha C1 : PF)
    (missing : nan ∈ [Hsi, Tpi, Rc, B, cot_alpha, C1]) : NoNumber
    (DAngremond1996.calculate_wave_transmission_Kt_impermeable Hsi Tpi h Rc B cot_alpha C1) := by
  simp only [List.mem_cons, List.not_mem_nil, or_false] at missing
  rcases missing with rfl | rfl | rfl | rfl | rfl | rfl <;>
    no_number [DAngremond1996.calculate_wave_transmission_Kt_impermeable,
      DAngremond1996.calculate_wave_transmission_Kt_permeable, CorePhysics.calculate_Iribarren_number_ksi,
      CorePhysics.calculate_wave_steepness_s]

example := C91_DAngremond1996_calculate_wave_transmission_Kt_impermeable nan (.fin 8) (.fin 8) (.fin 3) (.fin 5)
  (.fin 2) (.fin 1) (by simp)

theorem C91_Briganti2003_calculate_wave_transmission_Kt (Hsi Tpi Rc B cot_alpha : PF) (missing : nan ∈ [Hsi,
    Tpi, Rc, B, cot_alpha]) : NoNumber (Briganti2003.calculate_wave_transmission_Kt Hsi Tpi Rc B cot_alpha) :=
    by
  simp only [List.mem_cons, List.not_mem_nil, or_false] at missing
  rcases missing with rfl | rfl | rfl | rfl | rfl <;>
    no_number [Briganti2003.calculate_wave_transmission_Kt, CorePhysics.calculate_Iribarren_number_ksi,
      CorePhysics.calculate_wave_steepness_s, Briganti2003.Kt_unlimited,
      DAngremond1996.calculate_wave_transmission_Kt_permeable]

example := C91_Briganti2003_calculate_wave_transmission_Kt nan (.fin 8) (.fin 3) (.fin 5) (.fin 2) (by simp)

theorem C91_VanGent2024_calculate_dimensionless_structure_induced_setup_impermeable (Hm0 Tmm10 Rc : PF) (missing
    : nan ∈ [Hm0, Tmm10, Rc]) : NoNumber
    (VanGent2024.calculate_dimensionless_structure_induced_setup_impermeable Hm0 Tmm10 Rc) := by
  simp only [List.mem_cons, List.not_mem_nil, or_false] at missing
  rcases missing with rfl | rfl | rfl <;>
    no_number [VanGent2024.calculate_dimensionless_structure_induced_setup_impermeable,
      CorePhysics.calculate_wave_steepness_s]

example := C91_VanGent2024_calculate_dimensionless_structure_induced_setup_impermeable nan (.fin 7) (.fin 3) (by
  simp)

theorem C91_VanGent2024_calculate_structure_induced_setup_delta_impermeable (Hm0 Tmm10 Rc : PF) (missing : nan ∈
    [Hm0, Tmm10, Rc]) : NoNumber (VanGent2024.calculate_structure_induced_setup_delta_impermeable Hm0 Tmm10 Rc)
    := by
  simp only [List.mem_cons, List.not_mem_nil, or_false] at missing
  rcases missing with rfl | rfl | rfl <;>
    no_number [VanGent2024.calculate_structure_induced_setup_delta_impermeable,
      VanGent2024.calculate_dimensionless_structure_induced_setup_impermeable,
      CorePhysics.calculate_wave_steepness_s]

example := C91_VanGent2024_calculate_structure_induced_setup_delta_impermeable nan (.fin 7) (.fin 3) (by simp)

theorem C91_VanGent2024_calculate_dimensionless_structure_induced_setup_permeable (Hm0 Tmm10 Rc hc : PF)
    (missing : nan ∈ [Hm0, Tmm10, Rc, hc]) : NoNumber
    (VanGent2024.calculate_dimensionless_structure_induced_setup_permeable Hm0 Tmm10 Rc hc) := by
  simp only [List.mem_cons, List.not_mem_nil, or_false] at missing
  rcases missing with rfl | rfl | rfl | rfl <;>
    no_number [VanGent2024.calculate_dimensionless_structure_induced_setup_permeable,
      CorePhysics.calculate_wave_steepness_s]

example := C91_VanGent2024_calculate_dimensionless_structure_induced_setup_permeable nan (.fin 7) (.fin 3) (.fin
  7) (by simp)

theorem C91_VanGent2024_calculate_structure_induced_setup_delta_permeable (Hm0 Tmm10 Rc hc : PF) (missing : nan
    ∈ [Hm0, Tmm10, Rc, hc]) : NoNumber (VanGent2024.calculate_structure_induced_setup_delta_permeable Hm0 Tmm10
    Rc hc) := by
  simp only [List.mem_cons, List.not_mem_nil, or_false] at missing
  rcases missing with rfl | rfl | rfl | rfl <;>
    no_number [VanGent2024.calculate_structure_induced_setup_delta_permeable,
      VanGent2024.calculate_dimensionless_structure_induced_setup_permeable,
      CorePhysics.calculate_wave_steepness_s]

example := C91_VanGent2024_calculate_structure_induced_setup_delta_permeable nan (.fin 7) (.fin 3) (.fin 7) (by
  simp)

end
