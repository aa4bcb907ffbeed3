import Verif.Lemmas.Scale
import Verif.Model.CrestWall
import Verif.Lemmas.Scale.RearSlope
/-! Dimensions of the quantities of `Verif/Model/CrestWall.lean`. -/

open Classical
open PF
open CorePhysics CoreUtility
noncomputable section

namespace ScaleProof

variable {l : {x : ℝ // 0 < x}}
set_option maxHeartbeats 1000000

theorem CrestWall_check_validity (Rc Ac Hm0 Fb beta : PF) :
    CrestWall.check_validity (sc l 1 Rc) (sc l 1 Ac) (sc l 1 Hm0) (sc l 1 Fb) beta =
      CrestWall.check_validity Rc Ac Hm0 Fb beta := by
  unfold CrestWall.check_validity
  dims [map_bind, map_pure, bind_map_left]

theorem CrestWall_calculate_influence_oblique_waves_force_gamma_F_beta (z2p Ac beta gamma_A : PF) :
    CrestWall.calculate_influence_oblique_waves_force_gamma_F_beta (sc l 1 z2p) (sc l 1 Ac) beta gamma_A =
      CrestWall.calculate_influence_oblique_waves_force_gamma_F_beta z2p Ac beta gamma_A := by
  unfold CrestWall.calculate_influence_oblique_waves_force_gamma_F_beta
  dims []

theorem CrestWall_calculate_influence_oblique_waves_horizontal_force_gamma_FH_beta (z2p Ac beta gamma_A : PF)
    :
    CrestWall.calculate_influence_oblique_waves_horizontal_force_gamma_FH_beta (sc l 1 z2p) (sc l 1 Ac) beta
        gamma_A =
      CrestWall.calculate_influence_oblique_waves_horizontal_force_gamma_FH_beta z2p Ac beta gamma_A := by
  unfold CrestWall.calculate_influence_oblique_waves_horizontal_force_gamma_FH_beta
  dims [CrestWall_calculate_influence_oblique_waves_force_gamma_F_beta]

theorem CrestWall_calculate_influence_oblique_waves_vertical_force_gamma_FV_beta (z2p Ac beta gamma_A : PF) :
    CrestWall.calculate_influence_oblique_waves_vertical_force_gamma_FV_beta (sc l 1 z2p) (sc l 1 Ac) beta
        gamma_A =
      CrestWall.calculate_influence_oblique_waves_vertical_force_gamma_FV_beta z2p Ac beta gamma_A := by
  unfold CrestWall.calculate_influence_oblique_waves_vertical_force_gamma_FV_beta
  dims [CrestWall_calculate_influence_oblique_waves_force_gamma_F_beta]

theorem CrestWall_calculate_FH2p_perpendicular_from_z2p (Hm0 z2p Ac Rc Hwall rho_water g cFH : PF) :
    CrestWall.calculate_FH2p_perpendicular_from_z2p (sc l 1 Hm0) (sc l 1 z2p) (sc l 1 Ac) (sc l 1 Rc) (sc l 1
        Hwall) rho_water g cFH =
      sc l 2  <$> CrestWall.calculate_FH2p_perpendicular_from_z2p Hm0 z2p Ac Rc Hwall rho_water g cFH := by
  unfold CrestWall.calculate_FH2p_perpendicular_from_z2p CrestWall.check_validity
  dims [map_bind, map_pure, bind_map_left, CrestWall_check_validity]

theorem CrestWall_calculate_FH2p_perpendicular (Hm0 Tmm10 cot_alpha Ac Rc Hwall gamma_beta gamma_f c0 c1
    rho_water g cFH : PF) :
    CrestWall.calculate_FH2p_perpendicular (sc l 1 Hm0) (sc l (1 / 2) Tmm10) cot_alpha (sc l 1 Ac) (sc l 1 Rc)
        (sc l 1 Hwall) gamma_beta gamma_f c0 c1 rho_water g cFH =
      sc l 2 <$> CrestWall.calculate_FH2p_perpendicular Hm0 Tmm10 cot_alpha Ac Rc Hwall gamma_beta gamma_f c0
          c1 rho_water g cFH := by
  unfold CrestWall.calculate_FH2p_perpendicular CrestWall.check_validity
  dims [map_bind, map_pure, bind_map_left, VanGent2001_calculate_wave_runup_height_zXp,
      CrestWall_check_validity, CrestWall_calculate_FH2p_perpendicular_from_z2p]

theorem CrestWall_calculate_FH2p_oblique (Hm0 Tmm10 beta cot_alpha Ac Rc Hwall gamma_beta gamma_f c0 c1 cFH
    rho_water g : PF) :
    CrestWall.calculate_FH2p_oblique (sc l 1 Hm0) (sc l (1 / 2) Tmm10) beta cot_alpha (sc l 1 Ac) (sc l 1 Rc)
        (sc l 1 Hwall) gamma_beta gamma_f c0 c1 cFH rho_water g =
      sc l 2 <$> CrestWall.calculate_FH2p_oblique Hm0 Tmm10 beta cot_alpha Ac Rc Hwall gamma_beta gamma_f c0
          c1 cFH rho_water g := by
  unfold CrestWall.calculate_FH2p_oblique CrestWall.check_validity
  dims [map_bind, map_pure, bind_map_left, VanGent2001_calculate_wave_runup_height_zXp,
      CrestWall_check_validity, CrestWall_calculate_influence_oblique_waves_horizontal_force_gamma_FH_beta,
      CrestWall_calculate_FH2p_perpendicular_from_z2p]

theorem CrestWall_calculate_FV2p_perpendicular_from_z2p (z2p Ac Bwall Fb cFV cFb rho_water g : PF) :
    CrestWall.calculate_FV2p_perpendicular_from_z2p (sc l 1 z2p) (sc l 1 Ac) (sc l 1 Bwall) (sc l 1 Fb) cFV
        cFb rho_water g =
      sc l 2 (CrestWall.calculate_FV2p_perpendicular_from_z2p z2p Ac Bwall Fb cFV cFb rho_water g) := by
  unfold CrestWall.calculate_FV2p_perpendicular_from_z2p
  dims []

theorem CrestWall_calculate_FV2p_perpendicular (Hm0 Tmm10 cot_alpha Ac Bwall Fb gamma_beta gamma_f c0 c1 cFV
    cFb rho_water g : PF) :
    CrestWall.calculate_FV2p_perpendicular (sc l 1 Hm0) (sc l (1 / 2) Tmm10) cot_alpha (sc l 1 Ac) (sc l 1
        Bwall) (sc l 1 Fb) gamma_beta gamma_f c0 c1 cFV cFb rho_water g =
      sc l 2 <$> CrestWall.calculate_FV2p_perpendicular Hm0 Tmm10 cot_alpha Ac Bwall Fb gamma_beta gamma_f c0
          c1 cFV cFb rho_water g := by
  unfold CrestWall.calculate_FV2p_perpendicular CrestWall.check_validity
  dims [map_bind, map_pure, bind_map_left, VanGent2001_calculate_wave_runup_height_zXp,
      CrestWall_check_validity, CrestWall_calculate_FV2p_perpendicular_from_z2p]

theorem CrestWall_calculate_FV2p_oblique (Hm0 Tmm10 beta cot_alpha Ac Bwall Fb gamma_beta gamma_f c0 c1 cFV
    cFb rho_water g : PF) :
    CrestWall.calculate_FV2p_oblique (sc l 1 Hm0) (sc l (1 / 2) Tmm10) beta cot_alpha (sc l 1 Ac) (sc l 1
        Bwall) (sc l 1 Fb) gamma_beta gamma_f c0 c1 cFV cFb rho_water g =
      sc l 2 <$> CrestWall.calculate_FV2p_oblique Hm0 Tmm10 beta cot_alpha Ac Bwall Fb gamma_beta gamma_f c0
          c1 cFV cFb rho_water g := by
  unfold CrestWall.calculate_FV2p_oblique CrestWall.check_validity
  dims [map_bind, map_pure, bind_map_left, VanGent2001_calculate_wave_runup_height_zXp,
      CrestWall_check_validity, CrestWall_calculate_influence_oblique_waves_vertical_force_gamma_FV_beta,
      CrestWall_calculate_FV2p_perpendicular_from_z2p]

theorem CrestWall_calculate_FH01p_perpendicular (FH2p : PF) :
    CrestWall.calculate_FH01p_perpendicular (sc l 2 FH2p) =
      sc l 2 (CrestWall.calculate_FH01p_perpendicular FH2p) := by
  unfold CrestWall.calculate_FH01p_perpendicular
  dims []

theorem CrestWall_calculate_FV01p_perpendicular (FV2p s0p : PF) :
    CrestWall.calculate_FV01p_perpendicular (sc l 2 FV2p) s0p =
      sc l 2 (CrestWall.calculate_FV01p_perpendicular FV2p s0p) := by
  unfold CrestWall.calculate_FV01p_perpendicular
  dims []

end ScaleProof
end
