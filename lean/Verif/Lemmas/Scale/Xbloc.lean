import Verif.Lemmas.Scale
import Verif.Model.Xbloc
/-! Dimensions of the quantities of `Verif/Model/Xbloc.lean`. -/

open Classical
open PF
open CorePhysics CoreUtility
noncomputable section

namespace ScaleProof

variable {l : {x : ℝ // 0 < x}}
set_option maxHeartbeats 1000000

theorem Xbloc_calculate_wave_height_Hs_from_V (V rho_water rho_armour total_correction_factor : PF) :
    Xbloc.calculate_wave_height_Hs_from_V (sc l 3 V) rho_water rho_armour total_correction_factor =
      sc l 1 (Xbloc.calculate_wave_height_Hs_from_V V rho_water rho_armour total_correction_factor) := by
  unfold Xbloc.calculate_wave_height_Hs_from_V
  dims []

theorem Xbloc_calculate_wave_height_Hs_from_M (M rho_water rho_armour total_correction_factor : PF) :
    Xbloc.calculate_wave_height_Hs_from_M (sc l 3 M) rho_water rho_armour total_correction_factor =
      sc l 1 (Xbloc.calculate_wave_height_Hs_from_M M rho_water rho_armour total_correction_factor) := by
  unfold Xbloc.calculate_wave_height_Hs_from_M
  dims [Xbloc_calculate_wave_height_Hs_from_V]

theorem Xbloc_calculate_unit_volume_V (Hs rho_water rho_armour total_correction_factor : PF) :
    Xbloc.calculate_unit_volume_V (sc l 1 Hs) rho_water rho_armour total_correction_factor =
      sc l 3 (Xbloc.calculate_unit_volume_V Hs rho_water rho_armour total_correction_factor) := by
  unfold Xbloc.calculate_unit_volume_V
  dims []

theorem Xbloc_calculate_unit_mass_M (Hs rho_water rho_armour total_correction_factor : PF) :
    Xbloc.calculate_unit_mass_M (sc l 1 Hs) rho_water rho_armour total_correction_factor =
      sc l 3 (Xbloc.calculate_unit_mass_M Hs rho_water rho_armour total_correction_factor) := by
  unfold Xbloc.calculate_unit_mass_M
  dims [Xbloc_calculate_unit_volume_V]

theorem XblocPlus_calculate_wave_height_Hs_from_V (V rho_water rho_armour total_correction_factor : PF) :
    XblocPlus.calculate_wave_height_Hs_from_V (sc l 3 V) rho_water rho_armour total_correction_factor =
      sc l 1 (XblocPlus.calculate_wave_height_Hs_from_V V rho_water rho_armour total_correction_factor) := by
  unfold XblocPlus.calculate_wave_height_Hs_from_V
  dims []

theorem XblocPlus_calculate_wave_height_Hs_from_M (M rho_water rho_armour total_correction_factor : PF) :
    XblocPlus.calculate_wave_height_Hs_from_M (sc l 3 M) rho_water rho_armour total_correction_factor =
      sc l 1 (XblocPlus.calculate_wave_height_Hs_from_M M rho_water rho_armour total_correction_factor) := by
  unfold XblocPlus.calculate_wave_height_Hs_from_M
  dims [XblocPlus_calculate_wave_height_Hs_from_V]

theorem XblocPlus_calculate_unit_volume_V (Hs rho_water rho_armour total_correction_factor : PF) :
    XblocPlus.calculate_unit_volume_V (sc l 1 Hs) rho_water rho_armour total_correction_factor =
      sc l 3 (XblocPlus.calculate_unit_volume_V Hs rho_water rho_armour total_correction_factor) := by
  unfold XblocPlus.calculate_unit_volume_V
  dims []

theorem XblocPlus_calculate_unit_mass_M (Hs rho_water rho_armour total_correction_factor : PF) :
    XblocPlus.calculate_unit_mass_M (sc l 1 Hs) rho_water rho_armour total_correction_factor =
      sc l 3 (XblocPlus.calculate_unit_mass_M Hs rho_water rho_armour total_correction_factor) := by
  unfold XblocPlus.calculate_unit_mass_M
  dims [XblocPlus_calculate_unit_volume_V]

end ScaleProof
end
