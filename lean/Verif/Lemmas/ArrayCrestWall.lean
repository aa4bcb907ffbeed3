import Verif.Lemmas.ArrayTac
import Verif.Array.CrestWall
import Verif.Model.CrestWall
import Verif.Lemmas.ArrayRearSlope

/-! # One case of a call on arrays: `Array/CrestWall.lean` -/

open Classical
open Arrays
noncomputable section
namespace ArrProof
variable {n : ℕ}

theorem CrestWall_check_validity [NeZero n] {U : Prop} (Rc Ac Hm0 Fb beta : Val n)
    (hU : U → ∀ x ∈ [Rc, Ac, Hm0, Fb, beta], Val.Uniform x) :
    Rel U (Arr.CrestWall.check_validity Rc Ac Hm0 Fb beta)
      (fun i => CrestWall.check_validity (Rc.get i) (Ac.get i) (Hm0.get i) (Fb.get i) (beta.get i)) := by
  unfold Arr.CrestWall.check_validity CrestWall.check_validity
  arr_rel [] hU

@[cases_simp] theorem CrestWall_calculate_influence_oblique_waves_force_gamma_F_beta (z2p Ac beta gamma_A : Val n) (i : Fin n) :
    (Arr.CrestWall.calculate_influence_oblique_waves_force_gamma_F_beta z2p Ac beta gamma_A).get i =
      CrestWall.calculate_influence_oblique_waves_force_gamma_F_beta (z2p.get i) (Ac.get i) (beta.get i) (gamma_A.get i) := by
  unfold Arr.CrestWall.calculate_influence_oblique_waves_force_gamma_F_beta CrestWall.calculate_influence_oblique_waves_force_gamma_F_beta
  arr_pure

@[cases_simp] theorem CrestWall_calculate_influence_oblique_waves_horizontal_force_gamma_FH_beta (z2p Ac beta gamma_A : Val n) (i : Fin n) :
    (Arr.CrestWall.calculate_influence_oblique_waves_horizontal_force_gamma_FH_beta z2p Ac beta gamma_A).get i =
      CrestWall.calculate_influence_oblique_waves_horizontal_force_gamma_FH_beta (z2p.get i) (Ac.get i) (beta.get i) (gamma_A.get i) := by
  unfold Arr.CrestWall.calculate_influence_oblique_waves_horizontal_force_gamma_FH_beta CrestWall.calculate_influence_oblique_waves_horizontal_force_gamma_FH_beta
  arr_pure

@[cases_simp] theorem CrestWall_calculate_influence_oblique_waves_vertical_force_gamma_FV_beta (z2p Ac beta gamma_A : Val n) (i : Fin n) :
    (Arr.CrestWall.calculate_influence_oblique_waves_vertical_force_gamma_FV_beta z2p Ac beta gamma_A).get i =
      CrestWall.calculate_influence_oblique_waves_vertical_force_gamma_FV_beta (z2p.get i) (Ac.get i) (beta.get i) (gamma_A.get i) := by
  unfold Arr.CrestWall.calculate_influence_oblique_waves_vertical_force_gamma_FV_beta CrestWall.calculate_influence_oblique_waves_vertical_force_gamma_FV_beta
  arr_pure

@[cases_simp] theorem CrestWall_calculate_influence_oblique_waves_gamma_beta (beta c_beta : Val n) (i : Fin n) :
    (Arr.CrestWall.calculate_influence_oblique_waves_gamma_beta beta c_beta).get i =
      CrestWall.calculate_influence_oblique_waves_gamma_beta (beta.get i) (c_beta.get i) := by
  unfold Arr.CrestWall.calculate_influence_oblique_waves_gamma_beta CrestWall.calculate_influence_oblique_waves_gamma_beta
  arr_pure

theorem CrestWall_calculate_FH2p_perpendicular_from_z2p [NeZero n] {U : Prop} (Hm0 z2p Ac Rc Hwall rho_water g cFH : Val n)
    (hU : U → ∀ x ∈ [Hm0, z2p, Ac, Rc, Hwall, rho_water, g, cFH], Val.Uniform x) :
    Rel U (Arr.CrestWall.calculate_FH2p_perpendicular_from_z2p Hm0 z2p Ac Rc Hwall rho_water g cFH)
      (fun i => CrestWall.calculate_FH2p_perpendicular_from_z2p (Hm0.get i) (z2p.get i) (Ac.get i) (Rc.get i) (Hwall.get i) (rho_water.get i) (g.get i) (cFH.get i)) := by
  unfold Arr.CrestWall.calculate_FH2p_perpendicular_from_z2p CrestWall.calculate_FH2p_perpendicular_from_z2p
  arr_rel [CrestWall_check_validity] hU

theorem CrestWall_calculate_FH2p_perpendicular [NeZero n] (Hm0 Tmm10 cot_alpha Ac Rc Hwall gamma_beta gamma_f c0 c1 rho_water g cFH : Val n) :
    Rel False (Arr.CrestWall.calculate_FH2p_perpendicular Hm0 Tmm10 cot_alpha Ac Rc Hwall gamma_beta gamma_f c0 c1 rho_water g cFH)
      (fun i => CrestWall.calculate_FH2p_perpendicular (Hm0.get i) (Tmm10.get i) (cot_alpha.get i) (Ac.get i) (Rc.get i) (Hwall.get i) (gamma_beta.get i) (gamma_f.get i) (c0.get i) (c1.get i) (rho_water.get i) (g.get i) (cFH.get i)) := by
  unfold Arr.CrestWall.calculate_FH2p_perpendicular CrestWall.calculate_FH2p_perpendicular
  arr_rel [CrestWall_check_validity, CrestWall_calculate_FH2p_perpendicular_from_z2p]

theorem CrestWall_calculate_FH2p_oblique [NeZero n] (Hm0 Tmm10 beta cot_alpha Ac Rc Hwall gamma_beta gamma_f c0 c1 cFH rho_water g : Val n) :
    Rel False (Arr.CrestWall.calculate_FH2p_oblique Hm0 Tmm10 beta cot_alpha Ac Rc Hwall gamma_beta gamma_f c0 c1 cFH rho_water g)
      (fun i => CrestWall.calculate_FH2p_oblique (Hm0.get i) (Tmm10.get i) (beta.get i) (cot_alpha.get i) (Ac.get i) (Rc.get i) (Hwall.get i) (gamma_beta.get i) (gamma_f.get i) (c0.get i) (c1.get i) (cFH.get i) (rho_water.get i) (g.get i)) := by
  unfold Arr.CrestWall.calculate_FH2p_oblique CrestWall.calculate_FH2p_oblique
  arr_rel [CrestWall_check_validity, CrestWall_calculate_FH2p_perpendicular_from_z2p]

@[cases_simp] theorem CrestWall_calculate_FV2p_perpendicular_from_z2p (z2p Ac Bwall Fb cFV cFb rho_water g : Val n) (i : Fin n) :
    (Arr.CrestWall.calculate_FV2p_perpendicular_from_z2p z2p Ac Bwall Fb cFV cFb rho_water g).get i =
      CrestWall.calculate_FV2p_perpendicular_from_z2p (z2p.get i) (Ac.get i) (Bwall.get i) (Fb.get i) (cFV.get i) (cFb.get i) (rho_water.get i) (g.get i) := by
  unfold Arr.CrestWall.calculate_FV2p_perpendicular_from_z2p CrestWall.calculate_FV2p_perpendicular_from_z2p
  arr_pure

theorem CrestWall_calculate_FV2p_perpendicular [NeZero n] {U : Prop} (Hm0 Tmm10 cot_alpha Ac Bwall Fb gamma_beta gamma_f c0 c1 cFV cFb rho_water g : Val n)
    (hU : U → ∀ x ∈ [Hm0, Tmm10, cot_alpha, Ac, Bwall, Fb, gamma_beta, gamma_f, c0, c1, cFV, cFb, rho_water, g], Val.Uniform x) :
    Rel U (Arr.CrestWall.calculate_FV2p_perpendicular Hm0 Tmm10 cot_alpha Ac Bwall Fb gamma_beta gamma_f c0 c1 cFV cFb rho_water g)
      (fun i => CrestWall.calculate_FV2p_perpendicular (Hm0.get i) (Tmm10.get i) (cot_alpha.get i) (Ac.get i) (Bwall.get i) (Fb.get i) (gamma_beta.get i) (gamma_f.get i) (c0.get i) (c1.get i) (cFV.get i) (cFb.get i) (rho_water.get i) (g.get i)) := by
  unfold Arr.CrestWall.calculate_FV2p_perpendicular CrestWall.calculate_FV2p_perpendicular
  arr_rel [CrestWall_check_validity] hU

theorem CrestWall_calculate_FV2p_oblique [NeZero n] {U : Prop} (Hm0 Tmm10 beta cot_alpha Ac Bwall Fb gamma_beta gamma_f c0 c1 cFV cFb rho_water g : Val n)
    (hU : U → ∀ x ∈ [Hm0, Tmm10, beta, cot_alpha, Ac, Bwall, Fb, gamma_beta, gamma_f, c0, c1, cFV, cFb, rho_water, g], Val.Uniform x) :
    Rel U (Arr.CrestWall.calculate_FV2p_oblique Hm0 Tmm10 beta cot_alpha Ac Bwall Fb gamma_beta gamma_f c0 c1 cFV cFb rho_water g)
      (fun i => CrestWall.calculate_FV2p_oblique (Hm0.get i) (Tmm10.get i) (beta.get i) (cot_alpha.get i) (Ac.get i) (Bwall.get i) (Fb.get i) (gamma_beta.get i) (gamma_f.get i) (c0.get i) (c1.get i) (cFV.get i) (cFb.get i) (rho_water.get i) (g.get i)) := by
  unfold Arr.CrestWall.calculate_FV2p_oblique CrestWall.calculate_FV2p_oblique
  arr_rel [CrestWall_check_validity] hU

@[cases_simp] theorem CrestWall_calculate_FH01p_perpendicular (FH2p : Val n) (i : Fin n) :
    (Arr.CrestWall.calculate_FH01p_perpendicular FH2p).get i =
      CrestWall.calculate_FH01p_perpendicular (FH2p.get i) := by
  unfold Arr.CrestWall.calculate_FH01p_perpendicular CrestWall.calculate_FH01p_perpendicular
  arr_pure

@[cases_simp] theorem CrestWall_calculate_FV01p_perpendicular (FV2p s0p : Val n) (i : Fin n) :
    (Arr.CrestWall.calculate_FV01p_perpendicular FV2p s0p).get i =
      CrestWall.calculate_FV01p_perpendicular (FV2p.get i) (s0p.get i) := by
  unfold Arr.CrestWall.calculate_FV01p_perpendicular CrestWall.calculate_FV01p_perpendicular
  arr_pure

end ArrProof
end
