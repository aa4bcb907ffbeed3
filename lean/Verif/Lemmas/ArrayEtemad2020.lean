import Verif.Lemmas.ArrayTac
import Verif.Array.Etemad2020
import Verif.Model.Etemad2020
import Verif.Lemmas.ArrayCore

/-! # One case of a call on arrays: `Array/Etemad2020.lean` -/

open Classical
open Arrays
noncomputable section
namespace ArrProof
variable {n : ℕ}

theorem Etemad2020_check_validity_range [NeZero n] {U : Prop} (Hs Tmm10 N_waves cot_alpha P S Dn50 Dn50_core rho_armour rho_water : Val n)
    (hU : U → ∀ x ∈ [Hs, Tmm10, N_waves, cot_alpha, P, S, Dn50, Dn50_core, rho_armour, rho_water], Val.Uniform x) :
    Rel U (Arr.Etemad2020.check_validity_range Hs Tmm10 N_waves cot_alpha P S Dn50 Dn50_core rho_armour rho_water)
      (fun i => Etemad2020.check_validity_range (Hs.get i) (Tmm10.get i) (N_waves.get i) (cot_alpha.get i) (P.get i) (S.get i) (Dn50.get i) (Dn50_core.get i) (rho_armour.get i) (rho_water.get i)) := by
  unfold Arr.Etemad2020.check_validity_range Etemad2020.check_validity_range
  arr_rel [] hU

@[cases_simp] theorem Etemad2020_calculate_permeability_coefficient_Cp (Dn50 Dn50_core : Val n) (i : Fin n) :
    (Arr.Etemad2020.calculate_permeability_coefficient_Cp Dn50 Dn50_core).get i =
      Etemad2020.calculate_permeability_coefficient_Cp (Dn50.get i) (Dn50_core.get i) := by
  unfold Arr.Etemad2020.calculate_permeability_coefficient_Cp Etemad2020.calculate_permeability_coefficient_Cp
  arr_pure

theorem Etemad2020_depth_limitation [NeZero n] {U : Prop} (m : Val n) (b : Bool) (h_m : m.Uniform) :
    Rel U (Arr.Etemad2020.depth_limitation m b) (fun i => Etemad2020.depth_limitation (m.get i) b) := by
  unfold Arr.Etemad2020.depth_limitation Etemad2020.depth_limitation
  refine Rel.ite (fun i => Iff.rfl) (fun _ => ?_) fun _ => Rel.pure fun i => rfl
  refine Rel.ite (fun i => h_m.any_iff i) (fun _ => Rel.raise) fun _ => Rel.pure fun i => ?_
  arr_eq

theorem Etemad2020_calculate_damage_number_S [NeZero n] (Hs Tmm10 N_waves cot_alpha rho_armour Dn50 M50 Dn50_core M50_core rho_core rho_water m : Val n) (use_depth_limited_version : Bool)
    (h_Dn50 : Dn50.Uniform)
    (h_M50 : M50.Uniform)
    (h_rho_armour : rho_armour.Uniform)
    (h_Dn50_core : Dn50_core.Uniform)
    (h_M50_core : M50_core.Uniform)
    (h_rho_core : rho_core.Uniform)
    (h_m : m.Uniform) :
    Rel False (Arr.Etemad2020.calculate_damage_number_S Hs Tmm10 N_waves cot_alpha rho_armour Dn50 M50 Dn50_core M50_core rho_core rho_water m use_depth_limited_version)
      (fun i => Etemad2020.calculate_damage_number_S (Hs.get i) (Tmm10.get i) (N_waves.get i) (cot_alpha.get i) (rho_armour.get i) (Dn50.get i) (M50.get i) (Dn50_core.get i) (M50_core.get i) (rho_core.get i) (rho_water.get i) (m.get i) use_depth_limited_version) := by
  unfold Arr.Etemad2020.calculate_damage_number_S Etemad2020.calculate_damage_number_S
  arr_rel [CorePhysics_check_usage_Dn50_or_M50, Etemad2020_check_validity_range, Etemad2020_depth_limitation]

theorem Etemad2020_calculate_significant_wave_height_Hs [NeZero n] (Tmm10 N_waves cot_alpha rho_armour S Dn50 M50 Dn50_core M50_core rho_core m : Val n) (use_depth_limited_version : Bool) (g : Val n)
    (h_Dn50 : Dn50.Uniform)
    (h_M50 : M50.Uniform)
    (h_rho_armour : rho_armour.Uniform)
    (h_Dn50_core : Dn50_core.Uniform)
    (h_M50_core : M50_core.Uniform)
    (h_rho_core : rho_core.Uniform)
    (h_m : m.Uniform) :
    Rel False (Arr.Etemad2020.calculate_significant_wave_height_Hs Tmm10 N_waves cot_alpha rho_armour S Dn50 M50 Dn50_core M50_core rho_core m use_depth_limited_version g)
      (fun i => Etemad2020.calculate_significant_wave_height_Hs (Tmm10.get i) (N_waves.get i) (cot_alpha.get i) (rho_armour.get i) (S.get i) (Dn50.get i) (M50.get i) (Dn50_core.get i) (M50_core.get i) (rho_core.get i) (m.get i) use_depth_limited_version (g.get i)) := by
  unfold Arr.Etemad2020.calculate_significant_wave_height_Hs Etemad2020.calculate_significant_wave_height_Hs
  arr_rel [CorePhysics_check_usage_Dn50_or_M50, Etemad2020_check_validity_range, Etemad2020_depth_limitation]

end ArrProof
end
