import Verif.Lemmas.Scale
import Verif.Model.VanDerMeer
/-! Dimensions of the quantities of `Verif/Model/VanDerMeer.lean`. -/

open Classical
open PF
open CorePhysics CoreUtility
noncomputable section

namespace ScaleProof

variable {l : {x : ℝ // 0 < x}}
set_option maxHeartbeats 1000000

theorem VdM1988_check_validity_range (Hs H2p Tp N_waves cot_alpha P rho_armour : PF) :
    VdM1988.check_validity_range (sc l 1 Hs) (sc l 1 H2p) (sc l (1 / 2) Tp) N_waves cot_alpha P rho_armour =
      VdM1988.check_validity_range Hs H2p Tp N_waves cot_alpha P rho_armour := by
  unfold VdM1988.check_validity_range
  dims [steep, steep_nan, steep_nan', map_bind, map_pure, bind_map_left]

theorem VdM1988_calculate_damage_number_S (Hs H2p Tm N_waves cot_alpha P rho_armour Dn50 M50 c_pl c_s
    rho_water : PF) :
    VdM1988.calculate_damage_number_S (sc l 1 Hs) (sc l 1 H2p) (sc l (1 / 2) Tm) N_waves cot_alpha P
        rho_armour (sc l 1 Dn50) (sc l 3 M50) c_pl c_s rho_water =
      VdM1988.calculate_damage_number_S Hs H2p Tm N_waves cot_alpha P rho_armour Dn50 M50 c_pl c_s rho_water
          := by
  unfold VdM1988.calculate_damage_number_S VdM1988.check_validity_range
  dims [steep, steep_nan, steep_nan', irib, irib_nan, irib_nan', stab, stab_nan, stab_nan', size, map_bind,
      map_pure, bind_map_left, VdM1988_check_validity_range]

theorem VdM1988_calculate_nominal_rock_diameter_Dn50 (Hs H2p Tm N_waves cot_alpha P rho_armour S c_pl c_s
    rho_water : PF) :
    VdM1988.calculate_nominal_rock_diameter_Dn50 (sc l 1 Hs) (sc l 1 H2p) (sc l (1 / 2) Tm) N_waves cot_alpha
        P rho_armour S c_pl c_s rho_water =
      sc l 1 <$> VdM1988.calculate_nominal_rock_diameter_Dn50 Hs H2p Tm N_waves cot_alpha P rho_armour S c_pl
          c_s rho_water := by
  unfold VdM1988.calculate_nominal_rock_diameter_Dn50 VdM1988.check_validity_range
  dims [steep, steep_nan, steep_nan', irib, irib_nan, irib_nan', map_bind, map_pure, bind_map_left,
      VdM1988_check_validity_range]

theorem VdMModified_check_validity_range (Hs H2p Tmm10 N_waves cot_alpha P Dn50 rho_armour rho_water : PF) :
    VdMModified.check_validity_range (sc l 1 Hs) (sc l 1 H2p) (sc l (1 / 2) Tmm10) N_waves cot_alpha P (sc l 1
        Dn50) rho_armour rho_water =
      VdMModified.check_validity_range Hs H2p Tmm10 N_waves cot_alpha P Dn50 rho_armour rho_water := by
  unfold VdMModified.check_validity_range
  dims [irib, irib_nan, irib_nan', stab, stab_nan, stab_nan', map_bind, map_pure, bind_map_left]

theorem VdMModified_calculate_damage_number_S (Hs H2p Tmm10 N_waves cot_alpha P rho_armour Dn50 M50 c_pl c_s
    rho_water : PF) :
    VdMModified.calculate_damage_number_S (sc l 1 Hs) (sc l 1 H2p) (sc l (1 / 2) Tmm10) N_waves cot_alpha P
        rho_armour (sc l 1 Dn50) (sc l 3 M50) c_pl c_s rho_water =
      VdMModified.calculate_damage_number_S Hs H2p Tmm10 N_waves cot_alpha P rho_armour Dn50 M50 c_pl c_s
          rho_water := by
  unfold VdMModified.calculate_damage_number_S VdMModified.check_validity_range
  dims [irib, irib_nan, irib_nan', stab, stab_nan, stab_nan', size, map_bind, map_pure, bind_map_left,
      VdMModified_check_validity_range]

theorem VdMModified_calculate_nominal_rock_diameter_Dn50 (Hs H2p Tmm10 N_waves cot_alpha P rho_armour S c_pl
    c_s rho_water : PF) :
    VdMModified.calculate_nominal_rock_diameter_Dn50 (sc l 1 Hs) (sc l 1 H2p) (sc l (1 / 2) Tmm10) N_waves
        cot_alpha P rho_armour S c_pl c_s rho_water =
      sc l 1 <$> VdMModified.calculate_nominal_rock_diameter_Dn50 Hs H2p Tmm10 N_waves cot_alpha P rho_armour
          S c_pl c_s rho_water := by
  unfold VdMModified.calculate_nominal_rock_diameter_Dn50 VdMModified.check_validity_range
  dims [irib, irib_nan, irib_nan', stab, stab_nan, stab_nan', map_bind, map_pure, bind_map_left,
      VdMModified_check_validity_range]

theorem VdM2021_calculate_damage_number_S (Hs Tmm10 N_waves cot_alpha P rho_armour Dn50 M50 c_pl c_s c_pl_mult
    c_s_mult : PF) :
    VdM2021.calculate_damage_number_S (sc l 1 Hs) (sc l (1 / 2) Tmm10) N_waves cot_alpha P rho_armour (sc l 1
        Dn50) (sc l 3 M50) c_pl c_s c_pl_mult c_s_mult =
      VdM2021.calculate_damage_number_S Hs Tmm10 N_waves cot_alpha P rho_armour Dn50 M50 c_pl c_s c_pl_mult
          c_s_mult := by
  unfold VdM2021.calculate_damage_number_S VdM1988.check_validity_range
  dims [steep, steep_nan, steep_nan', map_bind, map_pure, bind_map_left, VdM1988_check_validity_range,
      VdM1988_calculate_damage_number_S, VdMModified_check_validity_range,
      VdMModified_calculate_damage_number_S]

theorem VdM2021_calculate_nominal_rock_diameter_Dn50 (Hs Tmm10 N_waves cot_alpha P rho_armour S c_pl c_s
    c_pl_mult c_s_mult : PF) :
    VdM2021.calculate_nominal_rock_diameter_Dn50 (sc l 1 Hs) (sc l (1 / 2) Tmm10) N_waves cot_alpha P
        rho_armour S c_pl c_s c_pl_mult c_s_mult =
      sc l 1 <$> VdM2021.calculate_nominal_rock_diameter_Dn50 Hs Tmm10 N_waves cot_alpha P rho_armour S c_pl
          c_s c_pl_mult c_s_mult := by
  unfold VdM2021.calculate_nominal_rock_diameter_Dn50 VdM1988.check_validity_range
  dims [steep, steep_nan, steep_nan', map_bind, map_pure, bind_map_left, VdM1988_check_validity_range,
      VdM1988_calculate_nominal_rock_diameter_Dn50, VdMModified_check_validity_range,
      VdMModified_calculate_nominal_rock_diameter_Dn50]

theorem VdM1988_calculate_significant_wave_height_Hs (ratio_H2p_Hs Tm N_waves cot_alpha rho_armour S Dn50 M50 c_pl c_s g rho_water : PF) (p : ℝ) (hp : 0 ≤ p) :
    VdM1988.calculate_significant_wave_height_Hs ratio_H2p_Hs (sc l (1 / 2) Tm) N_waves cot_alpha (fin p) rho_armour S (sc l 1 Dn50) (sc l 3 M50) c_pl c_s g rho_water =
      sc l 1 <$> VdM1988.calculate_significant_wave_height_Hs ratio_H2p_Hs Tm N_waves cot_alpha (fin p) rho_armour S Dn50 M50 c_pl c_s g rho_water := by
  have hne : 1 + 1 / 2 * p ≠ 0 := by positivity
  have e : -1 * (-(1 / 2) * p) * (1 / (1 + 1 / 2 * p)) + 1 * (1 / (1 + 1 / 2 * p)) = 1 := by
    field_simp; ring
  unfold VdM1988.calculate_significant_wave_height_Hs VdM1988.check_validity_range
  dims [steep, irib, stab, size, steep_nan, steep_nan', map_bind, map_pure, bind_map_left, mul_fin, add_fin, div_fin hne, e]

theorem VdMModified_calculate_significant_wave_height_Hs (ratio_H2p_Hs Tm N_waves cot_alpha rho_armour S Dn50 M50 c_pl c_s g rho_water : PF) (p : ℝ) (hp : 0 ≤ p) :
    VdMModified.calculate_significant_wave_height_Hs ratio_H2p_Hs (sc l (1 / 2) Tm) N_waves cot_alpha (fin p) rho_armour S (sc l 1 Dn50) (sc l 3 M50) c_pl c_s g rho_water =
      sc l 1 <$> VdMModified.calculate_significant_wave_height_Hs ratio_H2p_Hs Tm N_waves cot_alpha (fin p) rho_armour S Dn50 M50 c_pl c_s g rho_water := by
  have hne : 1 + 1 / 2 * p ≠ 0 := by positivity
  have e : -1 * (-(1 / 2) * p) * (1 / (1 + 1 / 2 * p)) + 1 * (1 / (1 + 1 / 2 * p)) = 1 := by
    field_simp; ring
  unfold VdMModified.calculate_significant_wave_height_Hs VdMModified.check_validity_range
  dims [steep, irib, stab, size, steep_nan, steep_nan', map_bind, map_pure, bind_map_left, mul_fin, add_fin, div_fin hne, e]

theorem VdM2021_calculate_significant_wave_height_Hs (Tmm10 N_waves cot_alpha rho_armour S Dn50 M50 c_pl c_s c_pl_mult c_s_mult g : PF) (p : ℝ) (hp : 0 ≤ p) :
    VdM2021.calculate_significant_wave_height_Hs (sc l (1 / 2) Tmm10) N_waves cot_alpha (fin p) rho_armour S (sc l 1 Dn50) (sc l 3 M50) c_pl c_s c_pl_mult c_s_mult g =
      sc l 1 <$> VdM2021.calculate_significant_wave_height_Hs Tmm10 N_waves cot_alpha (fin p) rho_armour S Dn50 M50 c_pl c_s c_pl_mult c_s_mult g := by
  unfold VdM2021.calculate_significant_wave_height_Hs VdM1988.check_validity_range
  rw [VdMModified_calculate_significant_wave_height_Hs _ _ _ _ _ _ _ _ _ _ _ _ p hp]
  dims [steep, irib, stab, size, steep_nan, steep_nan', map_bind, map_pure, bind_map_left]

end ScaleProof
end
