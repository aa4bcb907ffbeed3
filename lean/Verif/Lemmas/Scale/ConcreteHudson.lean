import Verif.Lemmas.Scale
import Verif.Model.ConcreteHudson
import Verif.Lemmas.Scale.Hudson1959
/-! Dimensions of the quantities of `Verif/Model/ConcreteHudson.lean`. -/

open Classical
open PF
open CorePhysics CoreUtility
noncomputable section

namespace ScaleProof

variable {l : {x : ℝ // 0 < x}}
set_option maxHeartbeats 1000000

theorem Accropode_calculate_unit_mass_M (Hs rho_water rho_armour KD cot_alpha alpha_Hs : PF) :
    Accropode.calculate_unit_mass_M (sc l 1 Hs) rho_water rho_armour KD cot_alpha alpha_Hs =
      sc l 3  <$> Accropode.calculate_unit_mass_M Hs rho_water rho_armour KD cot_alpha alpha_Hs := by
  unfold Accropode.calculate_unit_mass_M Accropode.check_validity_range
  dims [map_bind, map_pure, bind_map_left, Hudson1959_calculate_median_rock_mass_M50_no_damage,
      Hudson1959_calculate_median_rock_mass_M50]

theorem Accropode_calculate_significant_wave_height_Hs (M rho_water rho_armour KD cot_alpha alpha_Hs : PF) :
    Accropode.calculate_significant_wave_height_Hs (sc l 3 M) rho_water rho_armour KD cot_alpha alpha_Hs =
      sc l 1 <$> Accropode.calculate_significant_wave_height_Hs M rho_water rho_armour KD cot_alpha alpha_Hs
          := by
  unfold Accropode.calculate_significant_wave_height_Hs Accropode.check_validity_range
  dims [map_bind, map_pure, bind_map_left, Hudson1959_calculate_significant_wave_height_Hs_no_damage,
      Hudson1959_calculate_significant_wave_height_Hs]

theorem Accropode2_calculate_unit_mass_M (Hs rho_water rho_armour KD cot_alpha alpha_Hs : PF) :
    Accropode2.calculate_unit_mass_M (sc l 1 Hs) rho_water rho_armour KD cot_alpha alpha_Hs =
      sc l 3  <$> Accropode2.calculate_unit_mass_M Hs rho_water rho_armour KD cot_alpha alpha_Hs := by
  unfold Accropode2.calculate_unit_mass_M Accropode2.check_validity_range
  dims [map_bind, map_pure, bind_map_left, Hudson1959_calculate_median_rock_mass_M50_no_damage,
      Hudson1959_calculate_median_rock_mass_M50]

theorem Accropode2_calculate_significant_wave_height_Hs (M rho_water rho_armour KD cot_alpha alpha_Hs : PF) :
    Accropode2.calculate_significant_wave_height_Hs (sc l 3 M) rho_water rho_armour KD cot_alpha alpha_Hs =
      sc l 1 <$> Accropode2.calculate_significant_wave_height_Hs M rho_water rho_armour KD cot_alpha alpha_Hs
          := by
  unfold Accropode2.calculate_significant_wave_height_Hs Accropode2.check_validity_range
  dims [map_bind, map_pure, bind_map_left, Hudson1959_calculate_significant_wave_height_Hs_no_damage,
      Hudson1959_calculate_significant_wave_height_Hs]

theorem CoreLoc_calculate_unit_mass_M (Hs rho_water rho_armour KD cot_alpha alpha_Hs : PF) :
    CoreLoc.calculate_unit_mass_M (sc l 1 Hs) rho_water rho_armour KD cot_alpha alpha_Hs =
      sc l 3 (CoreLoc.calculate_unit_mass_M Hs rho_water rho_armour KD cot_alpha alpha_Hs) := by
  unfold CoreLoc.calculate_unit_mass_M
  dims [Hudson1959_calculate_median_rock_mass_M50_no_damage, Hudson1959_calculate_median_rock_mass_M50]

theorem CoreLoc_calculate_significant_wave_height_Hs (M rho_water rho_armour KD cot_alpha alpha_Hs : PF) :
    CoreLoc.calculate_significant_wave_height_Hs (sc l 3 M) rho_water rho_armour KD cot_alpha alpha_Hs =
      sc l 1 (CoreLoc.calculate_significant_wave_height_Hs M rho_water rho_armour KD cot_alpha alpha_Hs) := by
  unfold CoreLoc.calculate_significant_wave_height_Hs
  dims [Hudson1959_calculate_significant_wave_height_Hs_no_damage,
      Hudson1959_calculate_significant_wave_height_Hs]

theorem CubesHudson_calculate_unit_mass_M (Hs rho_water rho_armour KD cot_alpha alpha_Hs : PF) :
    CubesHudson.calculate_unit_mass_M (sc l 1 Hs) rho_water rho_armour KD cot_alpha alpha_Hs =
      sc l 3 (CubesHudson.calculate_unit_mass_M Hs rho_water rho_armour KD cot_alpha alpha_Hs) := by
  unfold CubesHudson.calculate_unit_mass_M
  dims [Hudson1959_calculate_median_rock_mass_M50_no_damage, Hudson1959_calculate_median_rock_mass_M50]

theorem CubesHudson_calculate_significant_wave_height_Hs (M rho_water rho_armour KD cot_alpha alpha_Hs : PF) :
    CubesHudson.calculate_significant_wave_height_Hs (sc l 3 M) rho_water rho_armour KD cot_alpha alpha_Hs =
      sc l 1 (CubesHudson.calculate_significant_wave_height_Hs M rho_water rho_armour KD cot_alpha alpha_Hs)
          := by
  unfold CubesHudson.calculate_significant_wave_height_Hs
  dims [Hudson1959_calculate_significant_wave_height_Hs_no_damage,
      Hudson1959_calculate_significant_wave_height_Hs]

theorem Cubipod_calculate_unit_mass_M (Hs rho_water rho_armour KD cot_alpha alpha_Hs : PF) :
    Cubipod.calculate_unit_mass_M (sc l 1 Hs) rho_water rho_armour KD cot_alpha alpha_Hs =
      sc l 3 (Cubipod.calculate_unit_mass_M Hs rho_water rho_armour KD cot_alpha alpha_Hs) := by
  unfold Cubipod.calculate_unit_mass_M
  dims [Hudson1959_calculate_median_rock_mass_M50_no_damage, Hudson1959_calculate_median_rock_mass_M50]

theorem Cubipod_calculate_significant_wave_height_Hs (M rho_water rho_armour KD cot_alpha alpha_Hs : PF) :
    Cubipod.calculate_significant_wave_height_Hs (sc l 3 M) rho_water rho_armour KD cot_alpha alpha_Hs =
      sc l 1 (Cubipod.calculate_significant_wave_height_Hs M rho_water rho_armour KD cot_alpha alpha_Hs) := by
  unfold Cubipod.calculate_significant_wave_height_Hs
  dims [Hudson1959_calculate_significant_wave_height_Hs_no_damage,
      Hudson1959_calculate_significant_wave_height_Hs]

theorem Tetrapod_calculate_unit_mass_M (Hs rho_water rho_armour KD cot_alpha alpha_Hs : PF) :
    Tetrapod.calculate_unit_mass_M (sc l 1 Hs) rho_water rho_armour KD cot_alpha alpha_Hs =
      sc l 3 (Tetrapod.calculate_unit_mass_M Hs rho_water rho_armour KD cot_alpha alpha_Hs) := by
  unfold Tetrapod.calculate_unit_mass_M
  dims [Hudson1959_calculate_median_rock_mass_M50_no_damage, Hudson1959_calculate_median_rock_mass_M50]

theorem Tetrapod_calculate_significant_wave_height_Hs (M rho_water rho_armour KD cot_alpha alpha_Hs : PF) :
    Tetrapod.calculate_significant_wave_height_Hs (sc l 3 M) rho_water rho_armour KD cot_alpha alpha_Hs =
      sc l 1 (Tetrapod.calculate_significant_wave_height_Hs M rho_water rho_armour KD cot_alpha alpha_Hs) :=
          by
  unfold Tetrapod.calculate_significant_wave_height_Hs
  dims [Hudson1959_calculate_significant_wave_height_Hs_no_damage,
      Hudson1959_calculate_significant_wave_height_Hs]

end ScaleProof
end
