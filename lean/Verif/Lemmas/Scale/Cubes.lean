import Verif.Lemmas.Scale
import Verif.Model.Cubes
/-! Dimensions of the quantities of `Verif/Model/Cubes.lean`. -/

open Classical
open PF
open CorePhysics CoreUtility
noncomputable section

namespace ScaleProof

variable {l : {x : ℝ // 0 < x}}
set_option maxHeartbeats 1000000

theorem CubesVdM_calculate_nominal_diameter_Dn_vanDerMeer1988 (Hs Tm rho_water rho_armour N_waves cot_alpha
    Nod : PF) :
    (CubesVdM.calculate_nominal_diameter_Dn_vanDerMeer1988 (sc l 1 Hs) (sc l (1 / 2) Tm) rho_water rho_armour
        N_waves cot_alpha Nod).res =
      (sc l 1 <$> CubesVdM.calculate_nominal_diameter_Dn_vanDerMeer1988 Hs Tm rho_water rho_armour N_waves
          cot_alpha Nod).res := by
  unfold CubesVdM.calculate_nominal_diameter_Dn_vanDerMeer1988 CubesVdM.check_validity_range
  dims [steep, steep_nan, steep_nan', stabnum_Dn, stabnum_Hs, stabnum_Ns, map_bind, map_pure, bind_map_left,
      res_bind, res_check, ok_bind]

theorem CubesVdM_calculate_wave_height_Hs_vanDerMeer1988 (Dn s0m rho_water rho_armour N_waves cot_alpha Nod :
    PF) :
    (CubesVdM.calculate_wave_height_Hs_vanDerMeer1988 (sc l 1 Dn) s0m rho_water rho_armour N_waves cot_alpha
        Nod).res =
      (sc l 1 <$> CubesVdM.calculate_wave_height_Hs_vanDerMeer1988 Dn s0m rho_water rho_armour N_waves
          cot_alpha Nod).res := by
  unfold CubesVdM.calculate_wave_height_Hs_vanDerMeer1988 CubesVdM.check_validity_range
  dims [steep, steep_nan, steep_nan', stabnum_Dn, stabnum_Hs, stabnum_Ns, map_bind, map_pure, bind_map_left,
      res_bind, res_check, ok_bind]

theorem CubesVdM_calculate_damage_Nod_vanDerMeer1988 (Hs Dn s0m rho_water rho_armour N_waves cot_alpha : PF) :
    (CubesVdM.calculate_damage_Nod_vanDerMeer1988 (sc l 1 Hs) (sc l 1 Dn) s0m rho_water rho_armour N_waves
        cot_alpha).res =
      (CubesVdM.calculate_damage_Nod_vanDerMeer1988 Hs Dn s0m rho_water rho_armour N_waves cot_alpha).res :=
          by
  unfold CubesVdM.calculate_damage_Nod_vanDerMeer1988 CubesVdM.check_validity_range
  dims [steep, steep_nan, steep_nan', stabnum_Dn, stabnum_Hs, stabnum_Ns, map_bind, map_pure, bind_map_left,
      res_bind, res_check, ok_bind]

theorem CubesSingle_calculate_unit_mass_M_start_of_damage (Hs rho_water rho_armour Ns : PF) :
    CubesSingle.calculate_unit_mass_M_start_of_damage (sc l 1 Hs) rho_water rho_armour Ns =
      sc l 3  <$> CubesSingle.calculate_unit_mass_M_start_of_damage Hs rho_water rho_armour Ns := by
  unfold CubesSingle.calculate_unit_mass_M_start_of_damage
  dims [stabnum_Dn, stabnum_Hs, stabnum_Ns, mass, map_bind, map_pure, bind_map_left]

theorem CubesSingle_calculate_unit_mass_M_failure (Hs rho_water rho_armour Ns : PF) :
    CubesSingle.calculate_unit_mass_M_failure (sc l 1 Hs) rho_water rho_armour Ns =
      sc l 3  <$> CubesSingle.calculate_unit_mass_M_failure Hs rho_water rho_armour Ns := by
  unfold CubesSingle.calculate_unit_mass_M_failure
  dims [map_bind, map_pure, bind_map_left, CubesSingle_calculate_unit_mass_M_start_of_damage]

theorem CubesSingle_calculate_significant_wave_height_Hs_start_of_damage (M rho_water rho_armour Ns : PF) :
    CubesSingle.calculate_significant_wave_height_Hs_start_of_damage (sc l 3 M) rho_water rho_armour Ns =
      sc l 1 <$> CubesSingle.calculate_significant_wave_height_Hs_start_of_damage M rho_water rho_armour Ns :=
          by
  unfold CubesSingle.calculate_significant_wave_height_Hs_start_of_damage
  dims [stabnum_Dn, stabnum_Hs, stabnum_Ns, diameter, map_bind, map_pure, bind_map_left]

theorem CubesSingle_calculate_significant_wave_height_Hs_failure (M rho_water rho_armour Ns : PF) :
    CubesSingle.calculate_significant_wave_height_Hs_failure (sc l 3 M) rho_water rho_armour Ns =
      sc l 1  <$> CubesSingle.calculate_significant_wave_height_Hs_failure M rho_water rho_armour Ns := by
  unfold CubesSingle.calculate_significant_wave_height_Hs_failure
  dims [map_bind, map_pure, bind_map_left, CubesSingle_calculate_significant_wave_height_Hs_start_of_damage]

end ScaleProof
end
