import Verif.Lemmas.ArrayTac
import Verif.Array.Cubes
import Verif.Model.Cubes
import Verif.Lemmas.ArrayCore

/-! # One case of a call on arrays: `Array/Cubes.lean` -/

open Classical
open Arrays
noncomputable section
namespace ArrProof
variable {n : ℕ}

theorem CubesVdM_check_validity_range [NeZero n] {U : Prop} (Hs Tm rho_armour N_waves cot_alpha : Val n)
    (hU : U → ∀ x ∈ [Hs, Tm, rho_armour, N_waves, cot_alpha], Val.Uniform x) :
    Rel U (Arr.CubesVdM.check_validity_range Hs Tm rho_armour N_waves cot_alpha)
      (fun i => CubesVdM.check_validity_range (Hs.get i) (Tm.get i) (rho_armour.get i) (N_waves.get i) (cot_alpha.get i)) := by
  unfold Arr.CubesVdM.check_validity_range CubesVdM.check_validity_range
  arr_rel [] hU

theorem CubesVdM_calculate_nominal_diameter_Dn_vanDerMeer1988 [NeZero n] {U : Prop} (Hs Tm rho_water rho_armour N_waves cot_alpha Nod : Val n)
    (hU : U → ∀ x ∈ [Hs, Tm, rho_water, rho_armour, N_waves, cot_alpha, Nod], Val.Uniform x) :
    Rel U (Arr.CubesVdM.calculate_nominal_diameter_Dn_vanDerMeer1988 Hs Tm rho_water rho_armour N_waves cot_alpha Nod)
      (fun i => CubesVdM.calculate_nominal_diameter_Dn_vanDerMeer1988 (Hs.get i) (Tm.get i) (rho_water.get i) (rho_armour.get i) (N_waves.get i) (cot_alpha.get i) (Nod.get i)) := by
  unfold Arr.CubesVdM.calculate_nominal_diameter_Dn_vanDerMeer1988 CubesVdM.calculate_nominal_diameter_Dn_vanDerMeer1988
  arr_rel [CorePhysics_check_usage_stabilitynumber, CubesVdM_check_validity_range] hU

theorem CubesVdM_calculate_wave_height_Hs_vanDerMeer1988 [NeZero n] (Dn s0m rho_water rho_armour N_waves cot_alpha Nod : Val n) :
    Rel False (Arr.CubesVdM.calculate_wave_height_Hs_vanDerMeer1988 Dn s0m rho_water rho_armour N_waves cot_alpha Nod)
      (fun i => CubesVdM.calculate_wave_height_Hs_vanDerMeer1988 (Dn.get i) (s0m.get i) (rho_water.get i) (rho_armour.get i) (N_waves.get i) (cot_alpha.get i) (Nod.get i)) := by
  unfold Arr.CubesVdM.calculate_wave_height_Hs_vanDerMeer1988 CubesVdM.calculate_wave_height_Hs_vanDerMeer1988
  arr_rel [CorePhysics_check_usage_stabilitynumber, CubesVdM_check_validity_range]

theorem CubesVdM_calculate_damage_Nod_vanDerMeer1988 [NeZero n] (Hs Dn s0m rho_water rho_armour N_waves cot_alpha : Val n) :
    Rel False (Arr.CubesVdM.calculate_damage_Nod_vanDerMeer1988 Hs Dn s0m rho_water rho_armour N_waves cot_alpha)
      (fun i => CubesVdM.calculate_damage_Nod_vanDerMeer1988 (Hs.get i) (Dn.get i) (s0m.get i) (rho_water.get i) (rho_armour.get i) (N_waves.get i) (cot_alpha.get i)) := by
  unfold Arr.CubesVdM.calculate_damage_Nod_vanDerMeer1988 CubesVdM.calculate_damage_Nod_vanDerMeer1988
  arr_rel [CorePhysics_check_usage_stabilitynumber, CubesVdM_check_validity_range]

theorem CubesSingle_calculate_unit_mass_M_start_of_damage [NeZero n] {U : Prop} (Hs rho_water rho_armour Ns : Val n)
    (hU : U → ∀ x ∈ [Hs, rho_water, rho_armour, Ns], Val.Uniform x) :
    Rel U (Arr.CubesSingle.calculate_unit_mass_M_start_of_damage Hs rho_water rho_armour Ns)
      (fun i => CubesSingle.calculate_unit_mass_M_start_of_damage (Hs.get i) (rho_water.get i) (rho_armour.get i) (Ns.get i)) := by
  unfold Arr.CubesSingle.calculate_unit_mass_M_start_of_damage CubesSingle.calculate_unit_mass_M_start_of_damage
  arr_rel [CorePhysics_check_usage_stabilitynumber] hU

theorem CubesSingle_calculate_unit_mass_M_failure [NeZero n] {U : Prop} (Hs rho_water rho_armour Ns : Val n)
    (hU : U → ∀ x ∈ [Hs, rho_water, rho_armour, Ns], Val.Uniform x) :
    Rel U (Arr.CubesSingle.calculate_unit_mass_M_failure Hs rho_water rho_armour Ns)
      (fun i => CubesSingle.calculate_unit_mass_M_failure (Hs.get i) (rho_water.get i) (rho_armour.get i) (Ns.get i)) := by
  unfold Arr.CubesSingle.calculate_unit_mass_M_failure CubesSingle.calculate_unit_mass_M_failure
  arr_rel [CubesSingle_calculate_unit_mass_M_start_of_damage] hU

theorem CubesSingle_calculate_significant_wave_height_Hs_start_of_damage [NeZero n] {U : Prop} (M rho_water rho_armour Ns : Val n)
    (hU : U → ∀ x ∈ [M, rho_water, rho_armour, Ns], Val.Uniform x) :
    Rel U (Arr.CubesSingle.calculate_significant_wave_height_Hs_start_of_damage M rho_water rho_armour Ns)
      (fun i => CubesSingle.calculate_significant_wave_height_Hs_start_of_damage (M.get i) (rho_water.get i) (rho_armour.get i) (Ns.get i)) := by
  unfold Arr.CubesSingle.calculate_significant_wave_height_Hs_start_of_damage CubesSingle.calculate_significant_wave_height_Hs_start_of_damage
  arr_rel [CorePhysics_check_usage_stabilitynumber] hU

theorem CubesSingle_calculate_significant_wave_height_Hs_failure [NeZero n] {U : Prop} (M rho_water rho_armour Ns : Val n)
    (hU : U → ∀ x ∈ [M, rho_water, rho_armour, Ns], Val.Uniform x) :
    Rel U (Arr.CubesSingle.calculate_significant_wave_height_Hs_failure M rho_water rho_armour Ns)
      (fun i => CubesSingle.calculate_significant_wave_height_Hs_failure (M.get i) (rho_water.get i) (rho_armour.get i) (Ns.get i)) := by
  unfold Arr.CubesSingle.calculate_significant_wave_height_Hs_failure CubesSingle.calculate_significant_wave_height_Hs_failure
  arr_rel [CubesSingle_calculate_significant_wave_height_Hs_start_of_damage] hU

end ArrProof
end
