import Verif.Lemmas.ArrayTac
import Verif.Array.RockArmourOther
import Verif.Model.RockArmourOther
import Verif.Lemmas.ArrayCore

/-! # One case of a call on arrays: `Array/RockArmourOther.lean` -/

open Classical
open Arrays
noncomputable section
namespace ArrProof
variable {n : ℕ}

theorem Jumelet2024_check_validity_range [NeZero n] {U : Prop} (Hs Tmm10 N_waves cot_alpha : Val n)
    (hU : U → ∀ x ∈ [Hs, Tmm10, N_waves, cot_alpha], Val.Uniform x) :
    Rel U (Arr.Jumelet2024.check_validity_range Hs Tmm10 N_waves cot_alpha)
      (fun i => Jumelet2024.check_validity_range (Hs.get i) (Tmm10.get i) (N_waves.get i) (cot_alpha.get i)) := by
  unfold Arr.Jumelet2024.check_validity_range Jumelet2024.check_validity_range
  arr_rel [] hU

@[cases_simp] theorem Jumelet2024_calculate_fraction_plunging_waves_Fp (ksi_mm10 : Val n) (i : Fin n) :
    (Arr.Jumelet2024.calculate_fraction_plunging_waves_Fp ksi_mm10).get i =
      Jumelet2024.calculate_fraction_plunging_waves_Fp (ksi_mm10.get i) := by
  unfold Arr.Jumelet2024.calculate_fraction_plunging_waves_Fp Jumelet2024.calculate_fraction_plunging_waves_Fp
  arr_pure

theorem Jumelet2024_calculate_damage_number_S [NeZero n] {U : Prop} (Hs Tmm10 N_waves cot_alpha rho_armour Dn50 M50 c_pl rho_water : Val n)
    (h_Dn50 : Dn50.Uniform)
    (h_M50 : M50.Uniform)
    (h_rho_armour : rho_armour.Uniform)
    (hU : U → ∀ x ∈ [Hs, Tmm10, N_waves, cot_alpha, rho_armour, Dn50, M50, c_pl, rho_water], Val.Uniform x) :
    Rel U (Arr.Jumelet2024.calculate_damage_number_S Hs Tmm10 N_waves cot_alpha rho_armour Dn50 M50 c_pl rho_water)
      (fun i => Jumelet2024.calculate_damage_number_S (Hs.get i) (Tmm10.get i) (N_waves.get i) (cot_alpha.get i) (rho_armour.get i) (Dn50.get i) (M50.get i) (c_pl.get i) (rho_water.get i)) := by
  unfold Arr.Jumelet2024.calculate_damage_number_S Jumelet2024.calculate_damage_number_S
  arr_rel [CorePhysics_check_usage_Dn50_or_M50, Jumelet2024_check_validity_range] hU

theorem Jumelet2024_calculate_nominal_rock_diameter_Dn50 [NeZero n] {U : Prop} (Hs Tmm10 N_waves cot_alpha rho_armour S c_pl : Val n)
    (hU : U → ∀ x ∈ [Hs, Tmm10, N_waves, cot_alpha, rho_armour, S, c_pl], Val.Uniform x) :
    Rel U (Arr.Jumelet2024.calculate_nominal_rock_diameter_Dn50 Hs Tmm10 N_waves cot_alpha rho_armour S c_pl)
      (fun i => Jumelet2024.calculate_nominal_rock_diameter_Dn50 (Hs.get i) (Tmm10.get i) (N_waves.get i) (cot_alpha.get i) (rho_armour.get i) (S.get i) (c_pl.get i)) := by
  unfold Arr.Jumelet2024.calculate_nominal_rock_diameter_Dn50 Jumelet2024.calculate_nominal_rock_diameter_Dn50
  arr_rel [Jumelet2024_check_validity_range] hU

theorem Scaravaglione2025_check_validity_range [NeZero n] {U : Prop} (Hm0 Tmm10 N_waves cot_alpha P Dn50 Dn50_core rho_armour rho_water : Val n)
    (hU : U → ∀ x ∈ [Hm0, Tmm10, N_waves, cot_alpha, P, Dn50, Dn50_core, rho_armour, rho_water], Val.Uniform x) :
    Rel U (Arr.Scaravaglione2025.check_validity_range Hm0 Tmm10 N_waves cot_alpha P Dn50 Dn50_core rho_armour rho_water)
      (fun i => Scaravaglione2025.check_validity_range (Hm0.get i) (Tmm10.get i) (N_waves.get i) (cot_alpha.get i) (P.get i) (Dn50.get i) (Dn50_core.get i) (rho_armour.get i) (rho_water.get i)) := by
  unfold Arr.Scaravaglione2025.check_validity_range Scaravaglione2025.check_validity_range
  arr_rel [] hU

theorem Scaravaglione2025_calculate_damage_number_S [NeZero n] (Hm0 Tmm10 N_waves cot_alpha rho_armour rho_core Dn50 Dn50_core M50 M50_core c_VGnew rho_water : Val n)
    (h_Dn50 : Dn50.Uniform)
    (h_M50 : M50.Uniform)
    (h_rho_armour : rho_armour.Uniform)
    (h_Dn50_core : Dn50_core.Uniform)
    (h_M50_core : M50_core.Uniform)
    (h_rho_core : rho_core.Uniform) :
    Rel False (Arr.Scaravaglione2025.calculate_damage_number_S Hm0 Tmm10 N_waves cot_alpha rho_armour rho_core Dn50 Dn50_core M50 M50_core c_VGnew rho_water)
      (fun i => Scaravaglione2025.calculate_damage_number_S (Hm0.get i) (Tmm10.get i) (N_waves.get i) (cot_alpha.get i) (rho_armour.get i) (rho_core.get i) (Dn50.get i) (Dn50_core.get i) (M50.get i) (M50_core.get i) (c_VGnew.get i) (rho_water.get i)) := by
  unfold Arr.Scaravaglione2025.calculate_damage_number_S Scaravaglione2025.calculate_damage_number_S
  arr_rel [CorePhysics_check_usage_Dn50_or_M50, Scaravaglione2025_check_validity_range]

theorem Scaravaglione2025_calculate_nominal_rock_diameter_Dn50 [NeZero n] (Hm0 Tmm10 N_waves cot_alpha rho_armour rho_core S Dn50_core M50_core c_VGnew rho_water : Val n)
    (h_Dn50_core : Dn50_core.Uniform)
    (h_M50_core : M50_core.Uniform)
    (h_rho_core : rho_core.Uniform) :
    Rel False (Arr.Scaravaglione2025.calculate_nominal_rock_diameter_Dn50 Hm0 Tmm10 N_waves cot_alpha rho_armour rho_core S Dn50_core M50_core c_VGnew rho_water)
      (fun i => Scaravaglione2025.calculate_nominal_rock_diameter_Dn50 (Hm0.get i) (Tmm10.get i) (N_waves.get i) (cot_alpha.get i) (rho_armour.get i) (rho_core.get i) (S.get i) (Dn50_core.get i) (M50_core.get i) (c_VGnew.get i) (rho_water.get i)) := by
  unfold Arr.Scaravaglione2025.calculate_nominal_rock_diameter_Dn50 Scaravaglione2025.calculate_nominal_rock_diameter_Dn50
  arr_rel [CorePhysics_check_usage_Dn50_or_M50, Scaravaglione2025_check_validity_range]

theorem Scaravaglione2025_calculate_significant_wave_height_Hm0 [NeZero n] (Tmm10 N_waves cot_alpha rho_armour rho_core S Dn50 Dn50_core M50 M50_core c_VGnew g rho_water : Val n)
    (h_Dn50 : Dn50.Uniform)
    (h_M50 : M50.Uniform)
    (h_rho_armour : rho_armour.Uniform)
    (h_Dn50_core : Dn50_core.Uniform)
    (h_M50_core : M50_core.Uniform)
    (h_rho_core : rho_core.Uniform) :
    Rel False (Arr.Scaravaglione2025.calculate_significant_wave_height_Hm0 Tmm10 N_waves cot_alpha rho_armour rho_core S Dn50 Dn50_core M50 M50_core c_VGnew g rho_water)
      (fun i => Scaravaglione2025.calculate_significant_wave_height_Hm0 (Tmm10.get i) (N_waves.get i) (cot_alpha.get i) (rho_armour.get i) (rho_core.get i) (S.get i) (Dn50.get i) (Dn50_core.get i) (M50.get i) (M50_core.get i) (c_VGnew.get i) (g.get i) (rho_water.get i)) := by
  unfold Arr.Scaravaglione2025.calculate_significant_wave_height_Hm0 Scaravaglione2025.calculate_significant_wave_height_Hm0
  arr_rel [CorePhysics_check_usage_Dn50_or_M50, Scaravaglione2025_check_validity_range]

theorem KramerBurcharth_check_validity_range [NeZero n] {U : Prop} (Rc Dn50 : Val n)
    (hU : U → ∀ x ∈ [Rc, Dn50], Val.Uniform x) :
    Rel U (Arr.KramerBurcharth.check_validity_range Rc Dn50)
      (fun i => KramerBurcharth.check_validity_range (Rc.get i) (Dn50.get i)) := by
  unfold Arr.KramerBurcharth.check_validity_range KramerBurcharth.check_validity_range
  arr_rel [] hU

theorem KramerBurcharth_calculate_significant_wave_height_Hs [NeZero n] (Rc rho_armour Dn50 M50 : Val n)
    (h_Dn50 : Dn50.Uniform)
    (h_M50 : M50.Uniform)
    (h_rho_armour : rho_armour.Uniform) :
    Rel False (Arr.KramerBurcharth.calculate_significant_wave_height_Hs Rc rho_armour Dn50 M50)
      (fun i => KramerBurcharth.calculate_significant_wave_height_Hs (Rc.get i) (rho_armour.get i) (Dn50.get i) (M50.get i)) := by
  unfold Arr.KramerBurcharth.calculate_significant_wave_height_Hs KramerBurcharth.calculate_significant_wave_height_Hs
  arr_rel [CorePhysics_check_usage_Dn50_or_M50, KramerBurcharth_check_validity_range]

end ArrProof
end
