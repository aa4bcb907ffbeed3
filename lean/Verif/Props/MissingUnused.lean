import Verif.Model.Toe
import Verif.Model.Cubes
import Verif.Model.Transmission
import Verif.Model.CrestWall
import Verif.Lemmas.MissingCore
import Verif.Lemmas.Check

/-! # C91: arguments that are only checked

These arguments may be missing without any effect on the number returned. -/

open Classical
open PF Missing
set_option maxRecDepth 4000
noncomputable section

theorem C91_CubesVdM_calculate_nominal_diameter_Dn_vanDerMeer1988_cot_alpha_unused (Hs Tm rho_water rho_armour
    N_waves Nod : PF) : Unused fun cot_alpha => CubesVdM.calculate_nominal_diameter_Dn_vanDerMeer1988 Hs Tm
    rho_water rho_armour N_waves cot_alpha Nod := by
  unused [CubesVdM.calculate_nominal_diameter_Dn_vanDerMeer1988, CorePhysics.calculate_buoyant_density_Delta,
    CorePhysics.calculate_wave_steepness_s, stab1, stab2, stab3, stab4, pure_bind,
    CubesVdM.check_validity_range]

example := C91_CubesVdM_calculate_nominal_diameter_Dn_vanDerMeer1988_cot_alpha_unused (.fin 2) (.fin 7) (.fin
  1025) (.fin 2650) (.fin 3000) (.fin 0.5)  nan (.fin 2)

theorem C91_CubesVdM_calculate_wave_height_Hs_vanDerMeer1988_cot_alpha_unused (Dn s0m rho_water rho_armour
    N_waves Nod : PF) : Unused fun cot_alpha => CubesVdM.calculate_wave_height_Hs_vanDerMeer1988 Dn s0m
    rho_water rho_armour N_waves cot_alpha Nod := by
  unused [CubesVdM.calculate_wave_height_Hs_vanDerMeer1988, CorePhysics.calculate_buoyant_density_Delta,
    stab1, stab2, stab3, stab4, pure_bind, CubesVdM.check_validity_range]

example := C91_CubesVdM_calculate_wave_height_Hs_vanDerMeer1988_cot_alpha_unused (.fin 1) (.fin 0.03) (.fin
  1025) (.fin 2650) (.fin 3000) (.fin 0.5)  nan (.fin 2)

theorem C91_CubesVdM_calculate_damage_Nod_vanDerMeer1988_cot_alpha_unused (Hs Dn s0m rho_water rho_armour
    N_waves : PF) : Unused fun cot_alpha => CubesVdM.calculate_damage_Nod_vanDerMeer1988 Hs Dn s0m rho_water
    rho_armour N_waves cot_alpha := by
  unused [CubesVdM.calculate_damage_Nod_vanDerMeer1988, CorePhysics.calculate_buoyant_density_Delta, stab1,
    stab2, stab3, stab4, pure_bind, CubesVdM.check_validity_range]

example := C91_CubesVdM_calculate_damage_Nod_vanDerMeer1988_cot_alpha_unused (.fin 2) (.fin 1) (.fin 0.03) (.fin
  1025) (.fin 2650) (.fin 3000)  nan (.fin 2)

theorem C91_Gerding1993_calculate_damage_Nod_h_unused (Hs ht Dn50 rho_rock rho_water : PF) : Unused fun h =>
    Gerding1993.calculate_damage_Nod Hs ht h Dn50 rho_rock rho_water := by
  unused [Gerding1993.calculate_damage_Nod, CorePhysics.calculate_buoyant_density_Delta,
    Gerding1993.check_validity, pure_bind]

example := C91_Gerding1993_calculate_damage_Nod_h_unused (.fin 2) (.fin 6) (.fin 1) (.fin 2650) (.fin 1025)  nan
  (.fin 8)

theorem C91_Gerding1993_calculate_nominal_diameter_Dn50_h_unused (Hs ht Nod rho_rock rho_water : PF) : Unused
    fun h => Gerding1993.calculate_nominal_diameter_Dn50 Hs ht h Nod rho_rock rho_water := by
  unused [Gerding1993.calculate_nominal_diameter_Dn50, CorePhysics.calculate_buoyant_density_Delta,
    Gerding1993.check_validity, pure_bind]

example := C91_Gerding1993_calculate_nominal_diameter_Dn50_h_unused (.fin 2) (.fin 6) (.fin 0.5) (.fin 2650)
  (.fin 1025)  nan (.fin 8)

theorem C91_Gerding1993_calculate_wave_height_Hs_h_unused (Dn50 ht Nod rho_rock rho_water : PF) : Unused fun h
    => Gerding1993.calculate_wave_height_Hs Dn50 ht h Nod rho_rock rho_water := by
  unused [Gerding1993.calculate_wave_height_Hs, CorePhysics.calculate_buoyant_density_Delta,
    Gerding1993.check_validity, pure_bind]

example := C91_Gerding1993_calculate_wave_height_Hs_h_unused (.fin 1) (.fin 6) (.fin 0.5) (.fin 2650) (.fin
  1025)  nan (.fin 8)

theorem C91_Gerding1993_calculate_depth_above_toe_ht_h_unused (Hs Dn50 Nod rho_rock rho_water : PF) : Unused fun
    h => Gerding1993.calculate_depth_above_toe_ht Hs Dn50 h Nod rho_rock rho_water := by
  unused [Gerding1993.calculate_depth_above_toe_ht, CorePhysics.calculate_buoyant_density_Delta,
    Gerding1993.check_validity, pure_bind]

example := C91_Gerding1993_calculate_depth_above_toe_ht_h_unused (.fin 2) (.fin 1) (.fin 0.5) (.fin 2650) (.fin
  1025)  nan (.fin 8)

theorem C91_VanGentVanDerWerf2014_calculate_damage_Nod_cot_alpha_armour_slope_unused (Hm0 Tmm10 ht Bt tt Dn50
    rho_rock rho_water g c1 c2 c3 c4 c5 : PF) : Unused fun cot_alpha_armour_slope =>
    VanGentVanDerWerf2014.calculate_damage_Nod Hm0 Tmm10 ht Bt tt Dn50 rho_rock rho_water cot_alpha_armour_slope
    g c1 c2 c3 c4 c5 := by
  unused [VanGentVanDerWerf2014.calculate_damage_Nod, VanGentVanDerWerf2014.calculate_velocity_u_delta,
    CorePhysics.calculate_buoyant_density_Delta, VanGentVanDerWerf2014.check_validity, pure_bind]

example := C91_VanGentVanDerWerf2014_calculate_damage_Nod_cot_alpha_armour_slope_unused (.fin 2) (.fin 7) (.fin
  6) (.fin 5) (.fin 2) (.fin 1) (.fin 2650) (.fin 1025) (.fin 9.81) (.fin 1.5) (.fin 0.2) (.fin 0.3) (.fin 0.3)
  (.fin 1)  nan (.fin 2)

theorem C91_VanGentVanDerWerf2014_calculate_nominal_diameter_Dn50_cot_alpha_armour_slope_unused (Hm0 Tmm10 ht Bt
    tt Nod rho_rock rho_water g : PF) : Unused fun cot_alpha_armour_slope =>
    VanGentVanDerWerf2014.calculate_nominal_diameter_Dn50 Hm0 Tmm10 ht Bt tt Nod rho_rock rho_water
    cot_alpha_armour_slope g := by
  unused [VanGentVanDerWerf2014.calculate_nominal_diameter_Dn50,
    VanGentVanDerWerf2014.calculate_velocity_u_delta, CorePhysics.calculate_buoyant_density_Delta,
    VanGentVanDerWerf2014.check_validity, pure_bind]

example := C91_VanGentVanDerWerf2014_calculate_nominal_diameter_Dn50_cot_alpha_armour_slope_unused (.fin 2)
  (.fin 7) (.fin 6) (.fin 5) (.fin 2) (.fin 0.5) (.fin 2650) (.fin 1025) (.fin 9.81)  nan (.fin 2)

theorem C91_DAngremond1996_calculate_wave_transmission_Kt_permeable_h_unused (Hsi Tpi Rc B cot_alpha C1 : PF)
    (do_validity_check : Bool) : Unused fun h => DAngremond1996.calculate_wave_transmission_Kt_permeable Hsi Tpi
    h Rc B cot_alpha C1 do_validity_check := by
  cases do_validity_check <;>
    unused [DAngremond1996.calculate_wave_transmission_Kt_permeable, CorePhysics.calculate_Iribarren_number_ksi,
    CorePhysics.calculate_wave_steepness_s, DAngremond1996.check_validity, if_true, Bool.false_eq_true,
    if_false, pure_bind]

example := C91_DAngremond1996_calculate_wave_transmission_Kt_permeable_h_unused (.fin 2) (.fin 8) (.fin 3) (.fin
  5) (.fin 2) (.fin 1) true nan (.fin 8)

theorem C91_DAngremond1996_calculate_wave_transmission_Kt_impermeable_h_unused (Hsi Tpi Rc B cot_alpha C1 : PF)
    : Unused fun h => DAngremond1996.calculate_wave_transmission_Kt_impermeable Hsi Tpi h Rc B cot_alpha C1 :=
    by
  unused [DAngremond1996.calculate_wave_transmission_Kt_impermeable,
    DAngremond1996.calculate_wave_transmission_Kt_permeable, CorePhysics.calculate_Iribarren_number_ksi,
    CorePhysics.calculate_wave_steepness_s, DAngremond1996.check_validity, if_true, Bool.false_eq_true,
    if_false, pure_bind]

example := C91_DAngremond1996_calculate_wave_transmission_Kt_impermeable_h_unused (.fin 2) (.fin 8) (.fin 3)
  (.fin 5) (.fin 2) (.fin 1)  nan (.fin 8)

theorem C91_CrestWall_calculate_FH2p_perpendicular_from_z2p_Hm0_unused (z2p Ac Rc Hwall rho_water g cFH : PF) :
    Unused fun Hm0 => CrestWall.calculate_FH2p_perpendicular_from_z2p Hm0 z2p Ac Rc Hwall rho_water g cFH := by
  unused [CrestWall.calculate_FH2p_perpendicular_from_z2p, CrestWall.check_validity, pure_bind]

example := C91_CrestWall_calculate_FH2p_perpendicular_from_z2p_Hm0_unused (.fin 4) (.fin 3) (.fin 3) (.fin 3)
  (.fin 1025) (.fin 9.81) (.fin 1)  nan (.fin 2)

theorem C91_CrestWall_calculate_FH2p_perpendicular_from_z2p_Rc_unused (Hm0 z2p Ac Hwall rho_water g cFH : PF) :
    Unused fun Rc => CrestWall.calculate_FH2p_perpendicular_from_z2p Hm0 z2p Ac Rc Hwall rho_water g cFH := by
  unused [CrestWall.calculate_FH2p_perpendicular_from_z2p, CrestWall.check_validity, pure_bind]

example := C91_CrestWall_calculate_FH2p_perpendicular_from_z2p_Rc_unused (.fin 2) (.fin 4) (.fin 3) (.fin 3)
  (.fin 1025) (.fin 9.81) (.fin 1)  nan (.fin 3)

theorem C91_CrestWall_calculate_FH2p_perpendicular_Rc_unused (Hm0 Tmm10 cot_alpha Ac Hwall gamma_beta gamma_f c0
    c1 rho_water g cFH : PF) : Unused fun Rc => CrestWall.calculate_FH2p_perpendicular Hm0 Tmm10 cot_alpha Ac Rc
    Hwall gamma_beta gamma_f c0 c1 rho_water g cFH := by
  unused [CrestWall.calculate_FH2p_perpendicular, VanGent2001.calculate_wave_runup_height_zXp,
    CorePhysics.calculate_Iribarren_number_ksi, CorePhysics.calculate_wave_steepness_s,
    CrestWall.calculate_FH2p_perpendicular_from_z2p, CrestWall.check_validity, pure_bind]

example := C91_CrestWall_calculate_FH2p_perpendicular_Rc_unused (.fin 2) (.fin 7) (.fin 2) (.fin 3) (.fin 3)
  (.fin 1) (.fin 0.5) (.fin 1) (.fin 1.5) (.fin 1025) (.fin 9.81) (.fin 1)  nan (.fin 3)

theorem C91_CrestWall_calculate_FH2p_oblique_Rc_unused (Hm0 Tmm10 beta cot_alpha Ac Hwall gamma_beta gamma_f c0
    c1 cFH rho_water g : PF) : Unused fun Rc => CrestWall.calculate_FH2p_oblique Hm0 Tmm10 beta cot_alpha Ac Rc
    Hwall gamma_beta gamma_f c0 c1 cFH rho_water g := by
  unused [CrestWall.calculate_FH2p_oblique, VanGent2001.calculate_wave_runup_height_zXp,
    CorePhysics.calculate_Iribarren_number_ksi, CorePhysics.calculate_wave_steepness_s,
    CrestWall.calculate_FH2p_perpendicular_from_z2p,
    CrestWall.calculate_influence_oblique_waves_horizontal_force_gamma_FH_beta,
    CrestWall.calculate_influence_oblique_waves_force_gamma_F_beta, CrestWall.check_validity, pure_bind]

example := C91_CrestWall_calculate_FH2p_oblique_Rc_unused (.fin 2) (.fin 7) (.fin 10) (.fin 2) (.fin 3) (.fin 3)
  (.fin 1) (.fin 0.5) (.fin 1) (.fin 1.5) (.fin 1) (.fin 1025) (.fin 9.81)  nan (.fin 3)
end
