import Verif.Lemmas.Scale
import Verif.Model.Hudson1959
/-! Dimensions of the quantities of `Verif/Model/Hudson1959.lean`. -/

open Classical
open PF
open CorePhysics CoreUtility
noncomputable section

namespace ScaleProof

variable {l : {x : ℝ // 0 < x}}
set_option maxHeartbeats 1000000

theorem Hudson1959_calculate_median_rock_mass_M50_no_damage (Hs rho_water rho_armour KD cot_alpha alpha_Hs :
    PF) :
    Hudson1959.calculate_median_rock_mass_M50_no_damage (sc l 1 Hs) rho_water rho_armour KD cot_alpha alpha_Hs
        =
      sc l 3 (Hudson1959.calculate_median_rock_mass_M50_no_damage Hs rho_water rho_armour KD cot_alpha
          alpha_Hs) := by
  unfold Hudson1959.calculate_median_rock_mass_M50_no_damage
  dims []

theorem Hudson1959_calculate_significant_wave_height_Hs_no_damage (M50 rho_water rho_armour KD cot_alpha
    alpha_Hs : PF) :
    Hudson1959.calculate_significant_wave_height_Hs_no_damage (sc l 3 M50) rho_water rho_armour KD cot_alpha
        alpha_Hs =
      sc l 1 (Hudson1959.calculate_significant_wave_height_Hs_no_damage M50 rho_water rho_armour KD cot_alpha
          alpha_Hs) := by
  unfold Hudson1959.calculate_significant_wave_height_Hs_no_damage
  dims []

theorem Hudson1959_calculate_median_rock_mass_M50 (Hs rho_water rho_armour KD cot_alpha damage_percentage :
    PF) (rock_type : String) (alpha_Hs : PF) :
    Hudson1959.calculate_median_rock_mass_M50 (sc l 1 Hs) rho_water rho_armour KD cot_alpha damage_percentage
        rock_type alpha_Hs =
      sc l 3 <$> Hudson1959.calculate_median_rock_mass_M50 Hs rho_water rho_armour KD cot_alpha
          damage_percentage rock_type alpha_Hs := by
  unfold Hudson1959.calculate_median_rock_mass_M50
  dims [map_bind, map_pure, bind_map_left, Hudson1959_calculate_median_rock_mass_M50_no_damage]

theorem Hudson1959_calculate_significant_wave_height_Hs (M50 rho_water rho_armour KD cot_alpha
    damage_percentage : PF) (rock_type : String) (alpha_Hs : PF) :
    Hudson1959.calculate_significant_wave_height_Hs (sc l 3 M50) rho_water rho_armour KD cot_alpha
        damage_percentage rock_type alpha_Hs =
      sc l 1 <$> Hudson1959.calculate_significant_wave_height_Hs M50 rho_water rho_armour KD cot_alpha
          damage_percentage rock_type alpha_Hs := by
  unfold Hudson1959.calculate_significant_wave_height_Hs
  dims [map_bind, map_pure, bind_map_left, Hudson1959_calculate_significant_wave_height_Hs_no_damage]

end ScaleProof
end
