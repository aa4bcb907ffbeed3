import Verif.Lemmas.ArrayTac
import Verif.Array.VanDerMeer
import Verif.Model.VanDerMeer
import Verif.Lemmas.ArrayCore

/-! # One case of a call on arrays: `Array/VanDerMeer.lean` -/

open Classical
open Arrays
noncomputable section
namespace ArrProof
variable {n : ℕ}

theorem VdM1988_check_validity_range [NeZero n] {U : Prop} (Hs H2p Tp N_waves cot_alpha P rho_armour : Val n)
    (hU : U → ∀ x ∈ [Hs, H2p, Tp, N_waves, cot_alpha, P, rho_armour], Val.Uniform x) :
    Rel U (Arr.VdM1988.check_validity_range Hs H2p Tp N_waves cot_alpha P rho_armour)
      (fun i => VdM1988.check_validity_range (Hs.get i) (H2p.get i) (Tp.get i) (N_waves.get i) (cot_alpha.get i) (P.get i) (rho_armour.get i)) := by
  unfold Arr.VdM1988.check_validity_range VdM1988.check_validity_range
  arr_rel [] hU

@[cases_simp] theorem VdM1988_calculate_correction_term_gamma_N (N_waves : Val n) (i : Fin n) :
    (Arr.VdM1988.calculate_correction_term_gamma_N N_waves).get i =
      VdM1988.calculate_correction_term_gamma_N (N_waves.get i) := by
  unfold Arr.VdM1988.calculate_correction_term_gamma_N VdM1988.calculate_correction_term_gamma_N
  arr_pure

theorem VdM1988_calculate_damage_number_S [NeZero n] {U : Prop} (Hs H2p Tm N_waves cot_alpha P rho_armour Dn50 M50 c_pl c_s rho_water : Val n)
    (h_Dn50 : Dn50.Uniform)
    (h_M50 : M50.Uniform)
    (h_rho_armour : rho_armour.Uniform)
    (hU : U → ∀ x ∈ [Hs, H2p, Tm, N_waves, cot_alpha, P, rho_armour, Dn50, M50, c_pl, c_s, rho_water], Val.Uniform x) :
    Rel U (Arr.VdM1988.calculate_damage_number_S Hs H2p Tm N_waves cot_alpha P rho_armour Dn50 M50 c_pl c_s rho_water)
      (fun i => VdM1988.calculate_damage_number_S (Hs.get i) (H2p.get i) (Tm.get i) (N_waves.get i) (cot_alpha.get i) (P.get i) (rho_armour.get i) (Dn50.get i) (M50.get i) (c_pl.get i) (c_s.get i) (rho_water.get i)) := by
  unfold Arr.VdM1988.calculate_damage_number_S VdM1988.calculate_damage_number_S
  arr_rel [CorePhysics_check_usage_Dn50_or_M50, VdM1988_check_validity_range] hU

theorem VdM1988_calculate_nominal_rock_diameter_Dn50 [NeZero n] {U : Prop} (Hs H2p Tm N_waves cot_alpha P rho_armour S c_pl c_s rho_water : Val n)
    (hU : U → ∀ x ∈ [Hs, H2p, Tm, N_waves, cot_alpha, P, rho_armour, S, c_pl, c_s, rho_water], Val.Uniform x) :
    Rel U (Arr.VdM1988.calculate_nominal_rock_diameter_Dn50 Hs H2p Tm N_waves cot_alpha P rho_armour S c_pl c_s rho_water)
      (fun i => VdM1988.calculate_nominal_rock_diameter_Dn50 (Hs.get i) (H2p.get i) (Tm.get i) (N_waves.get i) (cot_alpha.get i) (P.get i) (rho_armour.get i) (S.get i) (c_pl.get i) (c_s.get i) (rho_water.get i)) := by
  unfold Arr.VdM1988.calculate_nominal_rock_diameter_Dn50 VdM1988.calculate_nominal_rock_diameter_Dn50
  arr_rel [VdM1988_check_validity_range] hU

theorem VdM1988_calculate_significant_wave_height_Hs [NeZero n] (ratio_H2p_Hs Tm N_waves cot_alpha P rho_armour S Dn50 M50 c_pl c_s g rho_water : Val n)
    (h_Dn50 : Dn50.Uniform)
    (h_M50 : M50.Uniform)
    (h_rho_armour : rho_armour.Uniform) :
    Rel False (Arr.VdM1988.calculate_significant_wave_height_Hs ratio_H2p_Hs Tm N_waves cot_alpha P rho_armour S Dn50 M50 c_pl c_s g rho_water)
      (fun i => VdM1988.calculate_significant_wave_height_Hs (ratio_H2p_Hs.get i) (Tm.get i) (N_waves.get i) (cot_alpha.get i) (P.get i) (rho_armour.get i) (S.get i) (Dn50.get i) (M50.get i) (c_pl.get i) (c_s.get i) (g.get i) (rho_water.get i)) := by
  unfold Arr.VdM1988.calculate_significant_wave_height_Hs VdM1988.calculate_significant_wave_height_Hs
  arr_rel [CorePhysics_check_usage_Dn50_or_M50, VdM1988_check_validity_range]

theorem VdMModified_check_validity_range [NeZero n] {U : Prop} (Hs H2p Tmm10 N_waves cot_alpha P Dn50 rho_armour rho_water : Val n)
    (hU : U → ∀ x ∈ [Hs, H2p, Tmm10, N_waves, cot_alpha, P, Dn50, rho_armour, rho_water], Val.Uniform x) :
    Rel U (Arr.VdMModified.check_validity_range Hs H2p Tmm10 N_waves cot_alpha P Dn50 rho_armour rho_water)
      (fun i => VdMModified.check_validity_range (Hs.get i) (H2p.get i) (Tmm10.get i) (N_waves.get i) (cot_alpha.get i) (P.get i) (Dn50.get i) (rho_armour.get i) (rho_water.get i)) := by
  unfold Arr.VdMModified.check_validity_range VdMModified.check_validity_range
  arr_rel [] hU

theorem VdMModified_calculate_damage_number_S [NeZero n] (Hs H2p Tmm10 N_waves cot_alpha P rho_armour Dn50 M50 c_pl c_s rho_water : Val n)
    (h_Dn50 : Dn50.Uniform)
    (h_M50 : M50.Uniform)
    (h_rho_armour : rho_armour.Uniform) :
    Rel False (Arr.VdMModified.calculate_damage_number_S Hs H2p Tmm10 N_waves cot_alpha P rho_armour Dn50 M50 c_pl c_s rho_water)
      (fun i => VdMModified.calculate_damage_number_S (Hs.get i) (H2p.get i) (Tmm10.get i) (N_waves.get i) (cot_alpha.get i) (P.get i) (rho_armour.get i) (Dn50.get i) (M50.get i) (c_pl.get i) (c_s.get i) (rho_water.get i)) := by
  unfold Arr.VdMModified.calculate_damage_number_S VdMModified.calculate_damage_number_S
  arr_rel [CorePhysics_check_usage_Dn50_or_M50, VdMModified_check_validity_range]

theorem VdMModified_calculate_nominal_rock_diameter_Dn50 [NeZero n] (Hs H2p Tmm10 N_waves cot_alpha P rho_armour S c_pl c_s rho_water : Val n) :
    Rel False (Arr.VdMModified.calculate_nominal_rock_diameter_Dn50 Hs H2p Tmm10 N_waves cot_alpha P rho_armour S c_pl c_s rho_water)
      (fun i => VdMModified.calculate_nominal_rock_diameter_Dn50 (Hs.get i) (H2p.get i) (Tmm10.get i) (N_waves.get i) (cot_alpha.get i) (P.get i) (rho_armour.get i) (S.get i) (c_pl.get i) (c_s.get i) (rho_water.get i)) := by
  unfold Arr.VdMModified.calculate_nominal_rock_diameter_Dn50 VdMModified.calculate_nominal_rock_diameter_Dn50
  arr_rel [VdMModified_check_validity_range]

theorem VdMModified_calculate_significant_wave_height_Hs [NeZero n] (ratio_H2p_Hs Tmm10 N_waves cot_alpha P rho_armour S Dn50 M50 c_pl c_s g rho_water : Val n)
    (h_Dn50 : Dn50.Uniform)
    (h_M50 : M50.Uniform)
    (h_rho_armour : rho_armour.Uniform) :
    Rel False (Arr.VdMModified.calculate_significant_wave_height_Hs ratio_H2p_Hs Tmm10 N_waves cot_alpha P rho_armour S Dn50 M50 c_pl c_s g rho_water)
      (fun i => VdMModified.calculate_significant_wave_height_Hs (ratio_H2p_Hs.get i) (Tmm10.get i) (N_waves.get i) (cot_alpha.get i) (P.get i) (rho_armour.get i) (S.get i) (Dn50.get i) (M50.get i) (c_pl.get i) (c_s.get i) (g.get i) (rho_water.get i)) := by
  unfold Arr.VdMModified.calculate_significant_wave_height_Hs VdMModified.calculate_significant_wave_height_Hs
  arr_rel [CorePhysics_check_usage_Dn50_or_M50, VdMModified_check_validity_range]

theorem VdM2021_calculate_damage_number_S [NeZero n] (Hs Tmm10 N_waves cot_alpha P rho_armour Dn50 M50 c_pl c_s c_pl_mult c_s_mult : Val n)
    (h_Dn50 : Dn50.Uniform)
    (h_M50 : M50.Uniform)
    (h_rho_armour : rho_armour.Uniform) :
    Rel False (Arr.VdM2021.calculate_damage_number_S Hs Tmm10 N_waves cot_alpha P rho_armour Dn50 M50 c_pl c_s c_pl_mult c_s_mult)
      (fun i => VdM2021.calculate_damage_number_S (Hs.get i) (Tmm10.get i) (N_waves.get i) (cot_alpha.get i) (P.get i) (rho_armour.get i) (Dn50.get i) (M50.get i) (c_pl.get i) (c_s.get i) (c_pl_mult.get i) (c_s_mult.get i)) := by
  unfold Arr.VdM2021.calculate_damage_number_S VdM2021.calculate_damage_number_S
  arr_rel [VdM1988_check_validity_range, VdMModified_calculate_damage_number_S]

theorem VdM2021_calculate_nominal_rock_diameter_Dn50 [NeZero n] (Hs Tmm10 N_waves cot_alpha P rho_armour S c_pl c_s c_pl_mult c_s_mult : Val n) :
    Rel False (Arr.VdM2021.calculate_nominal_rock_diameter_Dn50 Hs Tmm10 N_waves cot_alpha P rho_armour S c_pl c_s c_pl_mult c_s_mult)
      (fun i => VdM2021.calculate_nominal_rock_diameter_Dn50 (Hs.get i) (Tmm10.get i) (N_waves.get i) (cot_alpha.get i) (P.get i) (rho_armour.get i) (S.get i) (c_pl.get i) (c_s.get i) (c_pl_mult.get i) (c_s_mult.get i)) := by
  unfold Arr.VdM2021.calculate_nominal_rock_diameter_Dn50 VdM2021.calculate_nominal_rock_diameter_Dn50
  arr_rel [VdM1988_check_validity_range, VdMModified_calculate_nominal_rock_diameter_Dn50]

theorem VdM2021_calculate_significant_wave_height_Hs [NeZero n] (Tmm10 N_waves cot_alpha P rho_armour S Dn50 M50 c_pl c_s c_pl_mult c_s_mult g : Val n)
    (h_Dn50 : Dn50.Uniform)
    (h_M50 : M50.Uniform)
    (h_rho_armour : rho_armour.Uniform) :
    Rel False (Arr.VdM2021.calculate_significant_wave_height_Hs Tmm10 N_waves cot_alpha P rho_armour S Dn50 M50 c_pl c_s c_pl_mult c_s_mult g)
      (fun i => VdM2021.calculate_significant_wave_height_Hs (Tmm10.get i) (N_waves.get i) (cot_alpha.get i) (P.get i) (rho_armour.get i) (S.get i) (Dn50.get i) (M50.get i) (c_pl.get i) (c_s.get i) (c_pl_mult.get i) (c_s_mult.get i) (g.get i)) := by
  unfold Arr.VdM2021.calculate_significant_wave_height_Hs VdM2021.calculate_significant_wave_height_Hs
  arr_rel [VdM1988_check_validity_range, VdMModified_calculate_significant_wave_height_Hs]

end ArrProof
end
