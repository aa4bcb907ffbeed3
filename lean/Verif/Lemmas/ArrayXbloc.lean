import Verif.Lemmas.ArrayTac
import Verif.Array.Xbloc
import Verif.Model.Xbloc
import Verif.Lemmas.ArrayCore

/-! # One case of a call on arrays: `Array/Xbloc.lean` -/

open Classical
open Arrays
noncomputable section
namespace ArrProof
variable {n : ℕ}

@[cases_simp] theorem Xbloc_calculate_wave_height_Hs_from_V (V rho_water rho_armour total_correction_factor : Val n) (i : Fin n) :
    (Arr.Xbloc.calculate_wave_height_Hs_from_V V rho_water rho_armour total_correction_factor).get i =
      Xbloc.calculate_wave_height_Hs_from_V (V.get i) (rho_water.get i) (rho_armour.get i) (total_correction_factor.get i) := by
  unfold Arr.Xbloc.calculate_wave_height_Hs_from_V Xbloc.calculate_wave_height_Hs_from_V
  arr_pure

@[cases_simp] theorem Xbloc_calculate_wave_height_Hs_from_M (M rho_water rho_armour total_correction_factor : Val n) (i : Fin n) :
    (Arr.Xbloc.calculate_wave_height_Hs_from_M M rho_water rho_armour total_correction_factor).get i =
      Xbloc.calculate_wave_height_Hs_from_M (M.get i) (rho_water.get i) (rho_armour.get i) (total_correction_factor.get i) := by
  unfold Arr.Xbloc.calculate_wave_height_Hs_from_M Xbloc.calculate_wave_height_Hs_from_M
  arr_pure

@[cases_simp] theorem Xbloc_calculate_unit_volume_V (Hs rho_water rho_armour total_correction_factor : Val n) (i : Fin n) :
    (Arr.Xbloc.calculate_unit_volume_V Hs rho_water rho_armour total_correction_factor).get i =
      Xbloc.calculate_unit_volume_V (Hs.get i) (rho_water.get i) (rho_armour.get i) (total_correction_factor.get i) := by
  unfold Arr.Xbloc.calculate_unit_volume_V Xbloc.calculate_unit_volume_V
  arr_pure

@[cases_simp] theorem Xbloc_calculate_unit_mass_M (Hs rho_water rho_armour total_correction_factor : Val n) (i : Fin n) :
    (Arr.Xbloc.calculate_unit_mass_M Hs rho_water rho_armour total_correction_factor).get i =
      Xbloc.calculate_unit_mass_M (Hs.get i) (rho_water.get i) (rho_armour.get i) (total_correction_factor.get i) := by
  unfold Arr.Xbloc.calculate_unit_mass_M Xbloc.calculate_unit_mass_M
  arr_pure

@[cases_simp] theorem XblocPlus_calculate_wave_height_Hs_from_V (V rho_water rho_armour total_correction_factor : Val n) (i : Fin n) :
    (Arr.XblocPlus.calculate_wave_height_Hs_from_V V rho_water rho_armour total_correction_factor).get i =
      XblocPlus.calculate_wave_height_Hs_from_V (V.get i) (rho_water.get i) (rho_armour.get i) (total_correction_factor.get i) := by
  unfold Arr.XblocPlus.calculate_wave_height_Hs_from_V XblocPlus.calculate_wave_height_Hs_from_V
  arr_pure

@[cases_simp] theorem XblocPlus_calculate_wave_height_Hs_from_M (M rho_water rho_armour total_correction_factor : Val n) (i : Fin n) :
    (Arr.XblocPlus.calculate_wave_height_Hs_from_M M rho_water rho_armour total_correction_factor).get i =
      XblocPlus.calculate_wave_height_Hs_from_M (M.get i) (rho_water.get i) (rho_armour.get i) (total_correction_factor.get i) := by
  unfold Arr.XblocPlus.calculate_wave_height_Hs_from_M XblocPlus.calculate_wave_height_Hs_from_M
  arr_pure

@[cases_simp] theorem XblocPlus_calculate_unit_volume_V (Hs rho_water rho_armour total_correction_factor : Val n) (i : Fin n) :
    (Arr.XblocPlus.calculate_unit_volume_V Hs rho_water rho_armour total_correction_factor).get i =
      XblocPlus.calculate_unit_volume_V (Hs.get i) (rho_water.get i) (rho_armour.get i) (total_correction_factor.get i) := by
  unfold Arr.XblocPlus.calculate_unit_volume_V XblocPlus.calculate_unit_volume_V
  arr_pure

@[cases_simp] theorem XblocPlus_calculate_unit_mass_M (Hs rho_water rho_armour total_correction_factor : Val n) (i : Fin n) :
    (Arr.XblocPlus.calculate_unit_mass_M Hs rho_water rho_armour total_correction_factor).get i =
      XblocPlus.calculate_unit_mass_M (Hs.get i) (rho_water.get i) (rho_armour.get i) (total_correction_factor.get i) := by
  unfold Arr.XblocPlus.calculate_unit_mass_M XblocPlus.calculate_unit_mass_M
  arr_pure

end ArrProof
end
