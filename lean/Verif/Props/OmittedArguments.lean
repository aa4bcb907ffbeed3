import Verif.Model.ConcreteHudson
import Verif.Model.CorePhysics
import Verif.Model.CoreUtility
import Verif.Model.CrestWall
import Verif.Model.Cubes
import Verif.Model.Etemad2020
import Verif.Model.Goda1985
import Verif.Model.Hudson1959
import Verif.Model.NetworkInput
import Verif.Model.Overtopping
import Verif.Model.OvertoppingMore
import Verif.Model.RearSlope
import Verif.Model.RockArmourOther
import Verif.Model.Taw2002
import Verif.Model.Toe
import Verif.Model.Transmission
import Verif.Model.VanDerMeer
import Verif.Model.Xbloc

/-! # C81: optional arguments that are left out take the documented values

One theorem per source file: every function of the file that has optional arguments, called with the required
ones only, does what it does with the documented values written out. The values here
were taken from the signatures in the source, not from the definitions in the model. Not listed: the two writers
of input files, and `return_dict` of Goda (1985), which only changes the container of the result. -/

open Classical
open PF
open CorePhysics CoreUtility
noncomputable section

/-- C81: functions/structural/forces_caisson/goda1985.py -/
theorem C81_goda1985 :
    (∀ hacc Rc Bup rho_fill_below_SWL rho_water rho_fill_above_SWL, Goda1985.calculate_Wup (hacc := hacc)
      (Rc := Rc) (Bup := Bup) (rho_fill_below_SWL := rho_fill_below_SWL) (rho_water := rho_water)
      (rho_fill_above_SWL := rho_fill_above_SWL) = Goda1985.calculate_Wup (hacc := hacc) (Rc := Rc) (Bup :=
      Bup) (rho_fill_below_SWL := rho_fill_below_SWL) (rho_water := rho_water) (rho_fill_above_SWL :=
      rho_fill_above_SWL) (g := 9.81)) ∧
    (∀ HD Hsi Tmax beta h_s d B1 cota_seabed rho_water hacc Rc Bup, Goda1985.calculate_forces_and_reactions
      (HD := HD) (Hsi := Hsi) (Tmax := Tmax) (beta := beta) (h_s := h_s) (d := d) (B1 := B1) (cota_seabed :=
      cota_seabed) (rho_water := rho_water) (hacc := hacc) (Rc := Rc) (Bup := Bup) =
      Goda1985.calculate_forces_and_reactions (HD := HD) (Hsi := Hsi) (Tmax := Tmax) (beta := beta) (h_s :=
      h_s) (d := d) (B1 := B1) (cota_seabed := cota_seabed) (rho_water := rho_water) (hacc := hacc) (Rc :=
      Rc) (Bup := Bup) (rho_fill_above_SWL := 2400) (rho_fill_below_SWL := 2100) (offshore_wave_steepness :=
      nan) (muf := 0.6) (tup_over_Bup := 0.5) (g := 9.81)) ∧
    (∀ HD Hsi Tmax beta h_s d B1 cota_seabed rho_water hacc Rc Bup, Goda1985.calculate_pressures_and_forces
      (HD := HD) (Hsi := Hsi) (Tmax := Tmax) (beta := beta) (h_s := h_s) (d := d) (B1 := B1) (cota_seabed :=
      cota_seabed) (rho_water := rho_water) (hacc := hacc) (Rc := Rc) (Bup := Bup) =
      Goda1985.calculate_pressures_and_forces (HD := HD) (Hsi := Hsi) (Tmax := Tmax) (beta := beta) (h_s :=
      h_s) (d := d) (B1 := B1) (cota_seabed := cota_seabed) (rho_water := rho_water) (hacc := hacc) (Rc :=
      Rc) (Bup := Bup) (offshore_wave_steepness := nan) (g := 9.81)) ∧
    (Goda1985.check_impulsive_breaking = Goda1985.check_impulsive_breaking (beta := nan) (B1 := nan) (L :=
      nan) (cota_seabed := nan) (offshore_wave_steepness := nan) (Rc := nan) (Hsi := nan) (d := nan) (h_s :=
      nan)) ∧
    (Goda1985.check_validity_range = Goda1985.check_validity_range (beta := nan) (cota_seabed := nan) (Tmax
      := nan) (tup := nan) (Bup := nan) (h_s := nan) (B1 := nan)) := by
  refine ⟨?_, ?_, ?_, ?_, ?_⟩ <;> (intros; rfl)

/-- C81: functions/structural/forces_crestwall/vangentvanderwerf2019.py -/
theorem C81_vangentvanderwerf2019 :
    (∀ Hm0 Tmm10 beta cot_alpha Ac Rc Hwall, CrestWall.calculate_FH2p_oblique (Hm0 := Hm0) (Tmm10 := Tmm10)
      (beta := beta) (cot_alpha := cot_alpha) (Ac := Ac) (Rc := Rc) (Hwall := Hwall) =
      CrestWall.calculate_FH2p_oblique (Hm0 := Hm0) (Tmm10 := Tmm10) (beta := beta) (cot_alpha := cot_alpha)
      (Ac := Ac) (Rc := Rc) (Hwall := Hwall) (gamma_beta := 1.0) (gamma_f := 0.45) (c0 := 1.45) (c1 := 5.0)
      (cFH := 1.0) (rho_water := 1025.0) (g := 9.81)) ∧
    (∀ Hm0 Tmm10 cot_alpha Ac Rc Hwall, CrestWall.calculate_FH2p_perpendicular (Hm0 := Hm0) (Tmm10 := Tmm10)
      (cot_alpha := cot_alpha) (Ac := Ac) (Rc := Rc) (Hwall := Hwall) =
      CrestWall.calculate_FH2p_perpendicular (Hm0 := Hm0) (Tmm10 := Tmm10) (cot_alpha := cot_alpha) (Ac :=
      Ac) (Rc := Rc) (Hwall := Hwall) (gamma_beta := 1.0) (gamma_f := 0.45) (c0 := 1.45) (c1 := 5.0)
      (rho_water := 1025.0) (g := 9.81) (cFH := 1.0)) ∧
    (∀ Hm0 z2p Ac Rc Hwall, CrestWall.calculate_FH2p_perpendicular_from_z2p (Hm0 := Hm0) (z2p := z2p) (Ac :=
      Ac) (Rc := Rc) (Hwall := Hwall) = CrestWall.calculate_FH2p_perpendicular_from_z2p (Hm0 := Hm0) (z2p :=
      z2p) (Ac := Ac) (Rc := Rc) (Hwall := Hwall) (rho_water := 1025.0) (g := 9.81) (cFH := 1.0)) ∧
    (∀ Hm0 Tmm10 beta cot_alpha Ac Bwall Fb, CrestWall.calculate_FV2p_oblique (Hm0 := Hm0) (Tmm10 := Tmm10)
      (beta := beta) (cot_alpha := cot_alpha) (Ac := Ac) (Bwall := Bwall) (Fb := Fb) =
      CrestWall.calculate_FV2p_oblique (Hm0 := Hm0) (Tmm10 := Tmm10) (beta := beta) (cot_alpha := cot_alpha)
      (Ac := Ac) (Bwall := Bwall) (Fb := Fb) (gamma_beta := 1.0) (gamma_f := 0.45) (c0 := 1.45) (c1 := 5.0)
      (cFV := 0.4) (cFb := 0.5) (rho_water := 1025.0) (g := 9.81)) ∧
    (∀ Hm0 Tmm10 cot_alpha Ac Bwall Fb, CrestWall.calculate_FV2p_perpendicular (Hm0 := Hm0) (Tmm10 := Tmm10)
      (cot_alpha := cot_alpha) (Ac := Ac) (Bwall := Bwall) (Fb := Fb) =
      CrestWall.calculate_FV2p_perpendicular (Hm0 := Hm0) (Tmm10 := Tmm10) (cot_alpha := cot_alpha) (Ac :=
      Ac) (Bwall := Bwall) (Fb := Fb) (gamma_beta := 1.0) (gamma_f := 0.45) (c0 := 1.45) (c1 := 5.0) (cFV :=
      0.4) (cFb := 0.5) (rho_water := 1025.0) (g := 9.81)) ∧
    (∀ z2p Ac Bwall Fb, CrestWall.calculate_FV2p_perpendicular_from_z2p (z2p := z2p) (Ac := Ac) (Bwall :=
      Bwall) (Fb := Fb) = CrestWall.calculate_FV2p_perpendicular_from_z2p (z2p := z2p) (Ac := Ac) (Bwall :=
      Bwall) (Fb := Fb) (cFV := 0.4) (cFb := 0.5) (rho_water := 1025.0) (g := 9.81)) ∧
    (∀ beta, CrestWall.calculate_influence_oblique_waves_gamma_beta (beta := beta) =
      CrestWall.calculate_influence_oblique_waves_gamma_beta (beta := beta) (c_beta := 0.5)) ∧
    (∀ z2p Ac beta, CrestWall.calculate_influence_oblique_waves_horizontal_force_gamma_FH_beta (z2p := z2p)
      (Ac := Ac) (beta := beta) = CrestWall.calculate_influence_oblique_waves_horizontal_force_gamma_FH_beta
      (z2p := z2p) (Ac := Ac) (beta := beta) (gamma_A := 1.0)) ∧
    (∀ z2p Ac beta, CrestWall.calculate_influence_oblique_waves_vertical_force_gamma_FV_beta (z2p := z2p)
      (Ac := Ac) (beta := beta) = CrestWall.calculate_influence_oblique_waves_vertical_force_gamma_FV_beta
      (z2p := z2p) (Ac := Ac) (beta := beta) (gamma_A := 0.75)) ∧
    (CrestWall.check_validity = CrestWall.check_validity (Rc := nan) (Ac := nan) (Hm0 := nan) (Fb := nan)
      (beta := nan)) := by
  refine ⟨?_, ?_, ?_, ?_, ?_, ?_, ?_, ?_, ?_, ?_⟩ <;> (intros; rfl)

/-- C81: functions/core_physics.py -/
theorem C81_core_physics :
    (∀ M50, CorePhysics.calculate_Dn50_from_M50 (M50 := M50) = CorePhysics.calculate_Dn50_from_M50 (M50 :=
      M50) (rho_rock := 2650)) ∧
    (∀ Dn50, CorePhysics.calculate_M50_from_Dn50 (Dn50 := Dn50) = CorePhysics.calculate_M50_from_Dn50 (Dn50
      := Dn50) (rho_rock := 2650)) ∧
    (∀ T h, CorePhysics.calculate_local_wavelength (T := T) (h := h) =
      CorePhysics.calculate_local_wavelength (T := T) (h := h) (g := 9.81)) ∧
    (∀ H T, CorePhysics.calculate_wave_steepness_s (H := H) (T := T) =
      CorePhysics.calculate_wave_steepness_s (H := H) (T := T) (g := 9.81)) ∧
    (CorePhysics.check_usage_stabilitynumber = CorePhysics.check_usage_stabilitynumber (Hs := none) (Dn :=
      none) (Delta := none) (Ns := none)) := by
  refine ⟨?_, ?_, ?_, ?_, ?_⟩ <;> (intros; rfl)

/-- C81: functions/structural/stability_concrete_armour/accropode2_hudson1959.py -/
theorem C81_accropode2_hudson1959 :
    (∀ M rho_water rho_armour KD, Accropode2.calculate_significant_wave_height_Hs (M := M) (rho_water :=
      rho_water) (rho_armour := rho_armour) (KD := KD) = Accropode2.calculate_significant_wave_height_Hs (M
      := M) (rho_water := rho_water) (rho_armour := rho_armour) (KD := KD) (cot_alpha := 1.33) (alpha_Hs :=
      1.0)) ∧
    (∀ Hs rho_water rho_armour KD, Accropode2.calculate_unit_mass_M (Hs := Hs) (rho_water := rho_water)
      (rho_armour := rho_armour) (KD := KD) = Accropode2.calculate_unit_mass_M (Hs := Hs) (rho_water :=
      rho_water) (rho_armour := rho_armour) (KD := KD) (cot_alpha := 1.33) (alpha_Hs := 1.0)) ∧
    (Accropode2.check_validity_range = Accropode2.check_validity_range (cot_alpha := nan) (seabed_slope_perc
      := nan)) := by
  refine ⟨?_, ?_, ?_⟩ <;> (intros; rfl)

/-- C81: functions/structural/stability_concrete_armour/accropode_hudson1959.py -/
theorem C81_accropode_hudson1959 :
    (∀ M rho_water rho_armour KD, Accropode.calculate_significant_wave_height_Hs (M := M) (rho_water :=
      rho_water) (rho_armour := rho_armour) (KD := KD) = Accropode.calculate_significant_wave_height_Hs (M
      := M) (rho_water := rho_water) (rho_armour := rho_armour) (KD := KD) (cot_alpha := 1.33) (alpha_Hs :=
      1.0)) ∧
    (∀ Hs rho_water rho_armour KD, Accropode.calculate_unit_mass_M (Hs := Hs) (rho_water := rho_water)
      (rho_armour := rho_armour) (KD := KD) = Accropode.calculate_unit_mass_M (Hs := Hs) (rho_water :=
      rho_water) (rho_armour := rho_armour) (KD := KD) (cot_alpha := 1.33) (alpha_Hs := 1.0)) ∧
    (Accropode.check_validity_range = Accropode.check_validity_range (cot_alpha := nan) (seabed_slope_perc
      := nan)) := by
  refine ⟨?_, ?_, ?_⟩ <;> (intros; rfl)

/-- C81: functions/structural/stability_concrete_armour/core_loc_hudson1959.py -/
theorem C81_core_loc_hudson1959 :
    (∀ M rho_water rho_armour KD, CoreLoc.calculate_significant_wave_height_Hs (M := M) (rho_water :=
      rho_water) (rho_armour := rho_armour) (KD := KD) = CoreLoc.calculate_significant_wave_height_Hs (M :=
      M) (rho_water := rho_water) (rho_armour := rho_armour) (KD := KD) (cot_alpha := 1.33) (alpha_Hs :=
      1.0)) ∧
    (∀ Hs rho_water rho_armour KD, CoreLoc.calculate_unit_mass_M (Hs := Hs) (rho_water := rho_water)
      (rho_armour := rho_armour) (KD := KD) = CoreLoc.calculate_unit_mass_M (Hs := Hs) (rho_water :=
      rho_water) (rho_armour := rho_armour) (KD := KD) (cot_alpha := 1.33) (alpha_Hs := 1.0)) ∧
    (CoreLoc.check_validity_range = CoreLoc.check_validity_range (cot_alpha := nan) (seabed_slope_perc :=
      nan)) := by
  refine ⟨?_, ?_, ?_⟩ <;> (intros; rfl)

/-- C81: functions/structural/stability_concrete_armour/cubes_double_layer_hudson1959.py -/
theorem C81_cubes_double_layer_hudson1959 :
    (∀ M rho_water rho_armour KD cot_alpha, CubesHudson.calculate_significant_wave_height_Hs (M := M)
      (rho_water := rho_water) (rho_armour := rho_armour) (KD := KD) (cot_alpha := cot_alpha) =
      CubesHudson.calculate_significant_wave_height_Hs (M := M) (rho_water := rho_water) (rho_armour :=
      rho_armour) (KD := KD) (cot_alpha := cot_alpha) (alpha_Hs := 1.0)) ∧
    (∀ Hs rho_water rho_armour KD cot_alpha, CubesHudson.calculate_unit_mass_M (Hs := Hs) (rho_water :=
      rho_water) (rho_armour := rho_armour) (KD := KD) (cot_alpha := cot_alpha) =
      CubesHudson.calculate_unit_mass_M (Hs := Hs) (rho_water := rho_water) (rho_armour := rho_armour) (KD
      := KD) (cot_alpha := cot_alpha) (alpha_Hs := 1.0)) := by
  refine ⟨?_, ?_⟩ <;> (intros; rfl)

/-- C81: functions/structural/stability_concrete_armour/cubes_double_layer_vandermeer1988.py -/
theorem C81_cubes_double_layer_vandermeer1988 :
    CubesVdM.check_validity_range = CubesVdM.check_validity_range (Hs := nan) (Tm := nan) (rho_armour :=
      nan) (N_waves := nan) (cot_alpha := nan) := by
  intros; rfl

/-- C81: functions/structural/stability_concrete_armour/cubes_single_layer_vangent2002.py -/
theorem C81_cubes_single_layer_vangent2002 :
    (∀ M rho_water rho_armour, CubesSingle.calculate_significant_wave_height_Hs_failure (M := M) (rho_water
      := rho_water) (rho_armour := rho_armour) = CubesSingle.calculate_significant_wave_height_Hs_failure (M
      := M) (rho_water := rho_water) (rho_armour := rho_armour) (Ns := 3.5)) ∧
    (∀ M rho_water rho_armour, CubesSingle.calculate_significant_wave_height_Hs_start_of_damage (M := M)
      (rho_water := rho_water) (rho_armour := rho_armour) =
      CubesSingle.calculate_significant_wave_height_Hs_start_of_damage (M := M) (rho_water := rho_water)
      (rho_armour := rho_armour) (Ns := 2.9)) ∧
    (∀ Hs rho_water rho_armour, CubesSingle.calculate_unit_mass_M_failure (Hs := Hs) (rho_water :=
      rho_water) (rho_armour := rho_armour) = CubesSingle.calculate_unit_mass_M_failure (Hs := Hs)
      (rho_water := rho_water) (rho_armour := rho_armour) (Ns := 3.5)) ∧
    (∀ Hs rho_water rho_armour, CubesSingle.calculate_unit_mass_M_start_of_damage (Hs := Hs) (rho_water :=
      rho_water) (rho_armour := rho_armour) = CubesSingle.calculate_unit_mass_M_start_of_damage (Hs := Hs)
      (rho_water := rho_water) (rho_armour := rho_armour) (Ns := 2.9)) := by
  refine ⟨?_, ?_, ?_, ?_⟩ <;> (intros; rfl)

/-- C81: functions/structural/stability_concrete_armour/cubipod_hudson1959.py -/
theorem C81_cubipod_hudson1959 :
    (∀ M rho_water rho_armour KD, Cubipod.calculate_significant_wave_height_Hs (M := M) (rho_water :=
      rho_water) (rho_armour := rho_armour) (KD := KD) = Cubipod.calculate_significant_wave_height_Hs (M :=
      M) (rho_water := rho_water) (rho_armour := rho_armour) (KD := KD) (cot_alpha := 1.33) (alpha_Hs :=
      1.0)) ∧
    (∀ Hs rho_water rho_armour KD, Cubipod.calculate_unit_mass_M (Hs := Hs) (rho_water := rho_water)
      (rho_armour := rho_armour) (KD := KD) = Cubipod.calculate_unit_mass_M (Hs := Hs) (rho_water :=
      rho_water) (rho_armour := rho_armour) (KD := KD) (cot_alpha := 1.33) (alpha_Hs := 1.0)) := by
  refine ⟨?_, ?_⟩ <;> (intros; rfl)

/-- C81: functions/structural/stability_concrete_armour/tetrapod_hudson1959.py -/
theorem C81_tetrapod_hudson1959 :
    (∀ M rho_water rho_armour KD cot_alpha, Tetrapod.calculate_significant_wave_height_Hs (M := M)
      (rho_water := rho_water) (rho_armour := rho_armour) (KD := KD) (cot_alpha := cot_alpha) =
      Tetrapod.calculate_significant_wave_height_Hs (M := M) (rho_water := rho_water) (rho_armour :=
      rho_armour) (KD := KD) (cot_alpha := cot_alpha) (alpha_Hs := 1.0)) ∧
    (∀ Hs rho_water rho_armour KD cot_alpha, Tetrapod.calculate_unit_mass_M (Hs := Hs) (rho_water :=
      rho_water) (rho_armour := rho_armour) (KD := KD) (cot_alpha := cot_alpha) =
      Tetrapod.calculate_unit_mass_M (Hs := Hs) (rho_water := rho_water) (rho_armour := rho_armour) (KD :=
      KD) (cot_alpha := cot_alpha) (alpha_Hs := 1.0)) := by
  refine ⟨?_, ?_⟩ <;> (intros; rfl)

/-- C81: functions/structural/stability_concrete_armour/xbloc.py -/
theorem C81_xbloc :
    (∀ Hs rho_water rho_armour, Xbloc.calculate_unit_mass_M (Hs := Hs) (rho_water := rho_water) (rho_armour
      := rho_armour) = Xbloc.calculate_unit_mass_M (Hs := Hs) (rho_water := rho_water) (rho_armour :=
      rho_armour) (total_correction_factor := 1.0)) ∧
    (∀ Hs rho_water rho_armour, Xbloc.calculate_unit_volume_V (Hs := Hs) (rho_water := rho_water)
      (rho_armour := rho_armour) = Xbloc.calculate_unit_volume_V (Hs := Hs) (rho_water := rho_water)
      (rho_armour := rho_armour) (total_correction_factor := 1.0)) ∧
    (∀ M rho_water rho_armour, Xbloc.calculate_wave_height_Hs_from_M (M := M) (rho_water := rho_water)
      (rho_armour := rho_armour) = Xbloc.calculate_wave_height_Hs_from_M (M := M) (rho_water := rho_water)
      (rho_armour := rho_armour) (total_correction_factor := 1.0)) ∧
    (∀ V rho_water rho_armour, Xbloc.calculate_wave_height_Hs_from_V (V := V) (rho_water := rho_water)
      (rho_armour := rho_armour) = Xbloc.calculate_wave_height_Hs_from_V (V := V) (rho_water := rho_water)
      (rho_armour := rho_armour) (total_correction_factor := 1.0)) ∧
    (Xbloc.switch_correction_factor_unit_mass_M_near_design_event_frequency =
      Xbloc.switch_correction_factor_unit_mass_M_near_design_event_frequency (design_event_occurs_frequently
      := false)) ∧
    (Xbloc.switch_correctionfactor_unit_mass_M_by_core_permeability =
      Xbloc.switch_correctionfactor_unit_mass_M_by_core_permeability (low_core_permeability := false)
      (core_impermeable := false)) := by
  refine ⟨?_, ?_, ?_, ?_, ?_, ?_⟩ <;> (intros; rfl)

/-- C81: functions/structural/stability_concrete_armour/xblocplus.py -/
theorem C81_xblocplus :
    (∀ Hs rho_water rho_armour, XblocPlus.calculate_unit_mass_M (Hs := Hs) (rho_water := rho_water)
      (rho_armour := rho_armour) = XblocPlus.calculate_unit_mass_M (Hs := Hs) (rho_water := rho_water)
      (rho_armour := rho_armour) (total_correction_factor := 1.0)) ∧
    (∀ Hs rho_water rho_armour, XblocPlus.calculate_unit_volume_V (Hs := Hs) (rho_water := rho_water)
      (rho_armour := rho_armour) = XblocPlus.calculate_unit_volume_V (Hs := Hs) (rho_water := rho_water)
      (rho_armour := rho_armour) (total_correction_factor := 1.0)) ∧
    (∀ M rho_water rho_armour, XblocPlus.calculate_wave_height_Hs_from_M (M := M) (rho_water := rho_water)
      (rho_armour := rho_armour) = XblocPlus.calculate_wave_height_Hs_from_M (M := M) (rho_water :=
      rho_water) (rho_armour := rho_armour) (total_correction_factor := 1.0)) ∧
    (∀ V rho_water rho_armour, XblocPlus.calculate_wave_height_Hs_from_V (V := V) (rho_water := rho_water)
      (rho_armour := rho_armour) = XblocPlus.calculate_wave_height_Hs_from_V (V := V) (rho_water :=
      rho_water) (rho_armour := rho_armour) (total_correction_factor := 1.0)) ∧
    (XblocPlus.switch_correctionfactor_unit_mass_M_by_core_permeability =
      XblocPlus.switch_correctionfactor_unit_mass_M_by_core_permeability (low_core_permeability := false)
      (core_impermeable := false)) := by
  refine ⟨?_, ?_, ?_, ?_, ?_⟩ <;> (intros; rfl)

/-- C81: functions/structural/stability_rock_armour/etemadshahidi2020.py -/
theorem C81_etemadshahidi2020 :
    (∀ Hs Tmm10 N_waves cot_alpha rho_armour, Etemad2020.calculate_damage_number_S (Hs := Hs) (Tmm10 :=
      Tmm10) (N_waves := N_waves) (cot_alpha := cot_alpha) (rho_armour := rho_armour) =
      Etemad2020.calculate_damage_number_S (Hs := Hs) (Tmm10 := Tmm10) (N_waves := N_waves) (cot_alpha :=
      cot_alpha) (rho_armour := rho_armour) (Dn50 := nan) (M50 := nan) (Dn50_core := nan) (M50_core := nan)
      (rho_core := nan) (rho_water := 1025.0) (m := nan) (use_depth_limited_version := false)) ∧
    (∀ Hs Tmm10 N_waves cot_alpha rho_armour S, Etemad2020.calculate_nominal_rock_diameter_Dn50 (Hs := Hs)
      (Tmm10 := Tmm10) (N_waves := N_waves) (cot_alpha := cot_alpha) (rho_armour := rho_armour) (S := S) =
      Etemad2020.calculate_nominal_rock_diameter_Dn50 (Hs := Hs) (Tmm10 := Tmm10) (N_waves := N_waves)
      (cot_alpha := cot_alpha) (rho_armour := rho_armour) (S := S) (Dn50_core := nan) (M50_core := nan)
      (rho_core := nan) (m := nan) (use_depth_limited_version := false) (Cp_init := 0.5) (max_iter := 1000)
      (tolerance := 1e-5)) ∧
    (∀ Tmm10 N_waves cot_alpha rho_armour S, Etemad2020.calculate_significant_wave_height_Hs (Tmm10 :=
      Tmm10) (N_waves := N_waves) (cot_alpha := cot_alpha) (rho_armour := rho_armour) (S := S) =
      Etemad2020.calculate_significant_wave_height_Hs (Tmm10 := Tmm10) (N_waves := N_waves) (cot_alpha :=
      cot_alpha) (rho_armour := rho_armour) (S := S) (Dn50 := nan) (M50 := nan) (Dn50_core := nan) (M50_core
      := nan) (rho_core := nan) (m := nan) (use_depth_limited_version := false) (g := 9.81)) ∧
    (Etemad2020.check_validity_range = Etemad2020.check_validity_range (Hs := nan) (Tmm10 := nan) (N_waves
      := nan) (cot_alpha := nan) (P := nan) (S := nan) (Dn50 := nan) (Dn50_core := nan) (rho_armour := nan)
      (rho_water := 1025.0)) := by
  refine ⟨?_, ?_, ?_, ?_⟩ <;> (intros; rfl)

/-- C81: functions/structural/stability_rock_armour/hudson1959.py -/
theorem C81_hudson1959 :
    (∀ Hs rho_water rho_armour KD cot_alpha damage_percentage, Hudson1959.calculate_median_rock_mass_M50 (Hs
      := Hs) (rho_water := rho_water) (rho_armour := rho_armour) (KD := KD) (cot_alpha := cot_alpha)
      (damage_percentage := damage_percentage) = Hudson1959.calculate_median_rock_mass_M50 (Hs := Hs)
      (rho_water := rho_water) (rho_armour := rho_armour) (KD := KD) (cot_alpha := cot_alpha)
      (damage_percentage := damage_percentage) (rock_type := "rough") (alpha_Hs := 1.27)) ∧
    (∀ Hs rho_water rho_armour KD cot_alpha, Hudson1959.calculate_median_rock_mass_M50_no_damage (Hs := Hs)
      (rho_water := rho_water) (rho_armour := rho_armour) (KD := KD) (cot_alpha := cot_alpha) =
      Hudson1959.calculate_median_rock_mass_M50_no_damage (Hs := Hs) (rho_water := rho_water) (rho_armour :=
      rho_armour) (KD := KD) (cot_alpha := cot_alpha) (alpha_Hs := 1.27)) ∧
    (∀ M50 rho_water rho_armour KD cot_alpha damage_percentage,
      Hudson1959.calculate_significant_wave_height_Hs (M50 := M50) (rho_water := rho_water) (rho_armour :=
      rho_armour) (KD := KD) (cot_alpha := cot_alpha) (damage_percentage := damage_percentage) =
      Hudson1959.calculate_significant_wave_height_Hs (M50 := M50) (rho_water := rho_water) (rho_armour :=
      rho_armour) (KD := KD) (cot_alpha := cot_alpha) (damage_percentage := damage_percentage) (rock_type :=
      "rough") (alpha_Hs := 1.27)) ∧
    (∀ M50 rho_water rho_armour KD cot_alpha, Hudson1959.calculate_significant_wave_height_Hs_no_damage (M50
      := M50) (rho_water := rho_water) (rho_armour := rho_armour) (KD := KD) (cot_alpha := cot_alpha) =
      Hudson1959.calculate_significant_wave_height_Hs_no_damage (M50 := M50) (rho_water := rho_water)
      (rho_armour := rho_armour) (KD := KD) (cot_alpha := cot_alpha) (alpha_Hs := 1.27)) ∧
    (∀ damage_percentage, Hudson1959.lookup_table_damage_factors (damage_percentage := damage_percentage) =
      Hudson1959.lookup_table_damage_factors (damage_percentage := damage_percentage) (rock_type :=
      "rough")) := by
  refine ⟨?_, ?_, ?_, ?_, ?_⟩ <;> (intros; rfl)

/-- C81: functions/structural/stability_rock_armour/jumelet2024.py -/
theorem C81_jumelet2024 :
    (∀ Hs Tmm10 N_waves cot_alpha rho_armour, Jumelet2024.calculate_damage_number_S (Hs := Hs) (Tmm10 :=
      Tmm10) (N_waves := N_waves) (cot_alpha := cot_alpha) (rho_armour := rho_armour) =
      Jumelet2024.calculate_damage_number_S (Hs := Hs) (Tmm10 := Tmm10) (N_waves := N_waves) (cot_alpha :=
      cot_alpha) (rho_armour := rho_armour) (Dn50 := nan) (M50 := nan) (c_pl := 4.3) (rho_water := 1025.0))
      ∧
    (∀ Hs Tmm10 N_waves cot_alpha rho_armour S, Jumelet2024.calculate_nominal_rock_diameter_Dn50 (Hs := Hs)
      (Tmm10 := Tmm10) (N_waves := N_waves) (cot_alpha := cot_alpha) (rho_armour := rho_armour) (S := S) =
      Jumelet2024.calculate_nominal_rock_diameter_Dn50 (Hs := Hs) (Tmm10 := Tmm10) (N_waves := N_waves)
      (cot_alpha := cot_alpha) (rho_armour := rho_armour) (S := S) (c_pl := 4.3)) ∧
    (∀ Tmm10 N_waves cot_alpha rho_armour S, Jumelet2024.calculate_significant_wave_height_Hs (Tmm10 :=
      Tmm10) (N_waves := N_waves) (cot_alpha := cot_alpha) (rho_armour := rho_armour) (S := S) =
      Jumelet2024.calculate_significant_wave_height_Hs (Tmm10 := Tmm10) (N_waves := N_waves) (cot_alpha :=
      cot_alpha) (rho_armour := rho_armour) (S := S) (Dn50 := nan) (M50 := nan) (c_pl := 4.3) (g := 9.81)
      (smm10_init := 0.03) (max_iter := 1000) (tolerance := 1e-3)) ∧
    (Jumelet2024.check_validity_range = Jumelet2024.check_validity_range (Hs := nan) (Tmm10 := nan) (N_waves
      := nan) (cot_alpha := nan)) := by
  refine ⟨?_, ?_, ?_, ?_⟩ <;> (intros; rfl)

/-- C81: functions/structural/stability_rock_armour/kramerburcharth2004_lowcrested.py -/
theorem C81_kramerburcharth2004_lowcrested :
    (∀ Hs rho_armour, KramerBurcharth.calculate_crest_freeboard_Rc (Hs := Hs) (rho_armour := rho_armour) =
      KramerBurcharth.calculate_crest_freeboard_Rc (Hs := Hs) (rho_armour := rho_armour) (Dn50 := nan) (M50
      := nan) (Rc_Dn50_init := -1.0) (max_iter := 1000) (tolerance := 1e-5)) ∧
    (∀ Hs Rc rho_armour, KramerBurcharth.calculate_nominal_rock_diameter_Dn50 (Hs := Hs) (Rc := Rc)
      (rho_armour := rho_armour) = KramerBurcharth.calculate_nominal_rock_diameter_Dn50 (Hs := Hs) (Rc :=
      Rc) (rho_armour := rho_armour) (Ns_init := 2.0) (max_iter := 1000) (tolerance := 1e-5)) ∧
    (∀ Rc rho_armour, KramerBurcharth.calculate_significant_wave_height_Hs (Rc := Rc) (rho_armour :=
      rho_armour) = KramerBurcharth.calculate_significant_wave_height_Hs (Rc := Rc) (rho_armour :=
      rho_armour) (Dn50 := nan) (M50 := nan)) ∧
    (KramerBurcharth.check_validity_range = KramerBurcharth.check_validity_range (Rc := nan) (Dn50 := nan)) := by
  refine ⟨?_, ?_, ?_, ?_⟩ <;> (intros; rfl)

/-- C81: functions/structural/stability_rock_armour/scaravaglione2025.py -/
theorem C81_scaravaglione2025 :
    (∀ Hm0 Tmm10 N_waves cot_alpha rho_armour rho_core, Scaravaglione2025.calculate_damage_number_S (Hm0 :=
      Hm0) (Tmm10 := Tmm10) (N_waves := N_waves) (cot_alpha := cot_alpha) (rho_armour := rho_armour)
      (rho_core := rho_core) = Scaravaglione2025.calculate_damage_number_S (Hm0 := Hm0) (Tmm10 := Tmm10)
      (N_waves := N_waves) (cot_alpha := cot_alpha) (rho_armour := rho_armour) (rho_core := rho_core) (Dn50
      := nan) (Dn50_core := nan) (M50 := nan) (M50_core := nan) (c_VGnew := 3.3) (rho_water := 1025.0)) ∧
    (∀ Hm0 Tmm10 N_waves cot_alpha rho_armour rho_core S,
      Scaravaglione2025.calculate_nominal_rock_diameter_Dn50 (Hm0 := Hm0) (Tmm10 := Tmm10) (N_waves :=
      N_waves) (cot_alpha := cot_alpha) (rho_armour := rho_armour) (rho_core := rho_core) (S := S) =
      Scaravaglione2025.calculate_nominal_rock_diameter_Dn50 (Hm0 := Hm0) (Tmm10 := Tmm10) (N_waves :=
      N_waves) (cot_alpha := cot_alpha) (rho_armour := rho_armour) (rho_core := rho_core) (S := S)
      (Dn50_core := nan) (M50_core := nan) (c_VGnew := 3.3) (rho_water := 1025.0)) ∧
    (∀ Tmm10 N_waves cot_alpha rho_armour rho_core S,
      Scaravaglione2025.calculate_significant_wave_height_Hm0 (Tmm10 := Tmm10) (N_waves := N_waves)
      (cot_alpha := cot_alpha) (rho_armour := rho_armour) (rho_core := rho_core) (S := S) =
      Scaravaglione2025.calculate_significant_wave_height_Hm0 (Tmm10 := Tmm10) (N_waves := N_waves)
      (cot_alpha := cot_alpha) (rho_armour := rho_armour) (rho_core := rho_core) (S := S) (Dn50 := nan)
      (Dn50_core := nan) (M50 := nan) (M50_core := nan) (c_VGnew := 3.3) (g := 9.81) (rho_water := 1025.0))
      ∧
    (Scaravaglione2025.check_validity_range = Scaravaglione2025.check_validity_range (Hm0 := nan) (Tmm10 :=
      nan) (N_waves := nan) (cot_alpha := nan) (P := nan) (Dn50 := nan) (Dn50_core := nan) (rho_armour :=
      nan) (rho_water := 1025.0)) := by
  refine ⟨?_, ?_, ?_, ?_⟩ <;> (intros; rfl)

/-- C81: functions/structural/stability_rock_armour/vandermeer1988.py -/
theorem C81_vandermeer1988 :
    (∀ Hs H2p Tm N_waves cot_alpha P rho_armour, VdM1988.calculate_damage_number_S (Hs := Hs) (H2p := H2p)
      (Tm := Tm) (N_waves := N_waves) (cot_alpha := cot_alpha) (P := P) (rho_armour := rho_armour) =
      VdM1988.calculate_damage_number_S (Hs := Hs) (H2p := H2p) (Tm := Tm) (N_waves := N_waves) (cot_alpha
      := cot_alpha) (P := P) (rho_armour := rho_armour) (Dn50 := nan) (M50 := nan) (c_pl := 8.7) (c_s :=
      1.4) (rho_water := 1025.0)) ∧
    (∀ Hs H2p Tm N_waves cot_alpha P rho_armour S, VdM1988.calculate_nominal_rock_diameter_Dn50 (Hs := Hs)
      (H2p := H2p) (Tm := Tm) (N_waves := N_waves) (cot_alpha := cot_alpha) (P := P) (rho_armour :=
      rho_armour) (S := S) = VdM1988.calculate_nominal_rock_diameter_Dn50 (Hs := Hs) (H2p := H2p) (Tm := Tm)
      (N_waves := N_waves) (cot_alpha := cot_alpha) (P := P) (rho_armour := rho_armour) (S := S) (c_pl :=
      8.7) (c_s := 1.4) (rho_water := 1025.0)) ∧
    (∀ ratio_H2p_Hs Tm N_waves cot_alpha P rho_armour S, VdM1988.calculate_significant_wave_height_Hs
      (ratio_H2p_Hs := ratio_H2p_Hs) (Tm := Tm) (N_waves := N_waves) (cot_alpha := cot_alpha) (P := P)
      (rho_armour := rho_armour) (S := S) = VdM1988.calculate_significant_wave_height_Hs (ratio_H2p_Hs :=
      ratio_H2p_Hs) (Tm := Tm) (N_waves := N_waves) (cot_alpha := cot_alpha) (P := P) (rho_armour :=
      rho_armour) (S := S) (Dn50 := nan) (M50 := nan) (c_pl := 8.7) (c_s := 1.4) (g := 9.81) (rho_water :=
      1025.0)) ∧
    (VdM1988.check_validity_range = VdM1988.check_validity_range (Hs := nan) (H2p := nan) (Tp := nan)
      (N_waves := nan) (cot_alpha := nan) (P := nan) (rho_armour := nan)) := by
  refine ⟨?_, ?_, ?_, ?_⟩ <;> (intros; rfl)

/-- C81: functions/structural/stability_rock_armour/vandermeer1988_modified.py -/
theorem C81_vandermeer1988_modified :
    (∀ Hs H2p Tmm10 N_waves cot_alpha P rho_armour, VdMModified.calculate_damage_number_S (Hs := Hs) (H2p :=
      H2p) (Tmm10 := Tmm10) (N_waves := N_waves) (cot_alpha := cot_alpha) (P := P) (rho_armour :=
      rho_armour) = VdMModified.calculate_damage_number_S (Hs := Hs) (H2p := H2p) (Tmm10 := Tmm10) (N_waves
      := N_waves) (cot_alpha := cot_alpha) (P := P) (rho_armour := rho_armour) (Dn50 := nan) (M50 := nan)
      (c_pl := 8.4) (c_s := 1.3) (rho_water := 1025.0)) ∧
    (∀ Hs H2p Tmm10 N_waves cot_alpha P rho_armour S, VdMModified.calculate_nominal_rock_diameter_Dn50 (Hs
      := Hs) (H2p := H2p) (Tmm10 := Tmm10) (N_waves := N_waves) (cot_alpha := cot_alpha) (P := P)
      (rho_armour := rho_armour) (S := S) = VdMModified.calculate_nominal_rock_diameter_Dn50 (Hs := Hs) (H2p
      := H2p) (Tmm10 := Tmm10) (N_waves := N_waves) (cot_alpha := cot_alpha) (P := P) (rho_armour :=
      rho_armour) (S := S) (c_pl := 8.4) (c_s := 1.3) (rho_water := 1025.0)) ∧
    (∀ ratio_H2p_Hs Tmm10 N_waves cot_alpha P rho_armour S, VdMModified.calculate_significant_wave_height_Hs
      (ratio_H2p_Hs := ratio_H2p_Hs) (Tmm10 := Tmm10) (N_waves := N_waves) (cot_alpha := cot_alpha) (P := P)
      (rho_armour := rho_armour) (S := S) = VdMModified.calculate_significant_wave_height_Hs (ratio_H2p_Hs
      := ratio_H2p_Hs) (Tmm10 := Tmm10) (N_waves := N_waves) (cot_alpha := cot_alpha) (P := P) (rho_armour
      := rho_armour) (S := S) (Dn50 := nan) (M50 := nan) (c_pl := 8.4) (c_s := 1.3) (g := 9.81) (rho_water
      := 1025.0)) ∧
    (VdMModified.check_validity_range = VdMModified.check_validity_range (Hs := nan) (H2p := nan) (Tmm10 :=
      nan) (N_waves := nan) (cot_alpha := nan) (P := nan) (Dn50 := nan) (rho_armour := nan) (rho_water :=
      1025.0)) := by
  refine ⟨?_, ?_, ?_, ?_⟩ <;> (intros; rfl)

/-- C81: functions/structural/stability_rock_armour/vandermeer2021.py -/
theorem C81_vandermeer2021 :
    (∀ Hs Tmm10 N_waves cot_alpha P rho_armour, VdM2021.calculate_damage_number_S (Hs := Hs) (Tmm10 :=
      Tmm10) (N_waves := N_waves) (cot_alpha := cot_alpha) (P := P) (rho_armour := rho_armour) =
      VdM2021.calculate_damage_number_S (Hs := Hs) (Tmm10 := Tmm10) (N_waves := N_waves) (cot_alpha :=
      cot_alpha) (P := P) (rho_armour := rho_armour) (Dn50 := nan) (M50 := nan) (c_pl := 6.49) (c_s := 0.97)
      (c_pl_mult := 1.0) (c_s_mult := 1.0)) ∧
    (∀ Hs Tmm10 N_waves cot_alpha P rho_armour S, VdM2021.calculate_nominal_rock_diameter_Dn50 (Hs := Hs)
      (Tmm10 := Tmm10) (N_waves := N_waves) (cot_alpha := cot_alpha) (P := P) (rho_armour := rho_armour) (S
      := S) = VdM2021.calculate_nominal_rock_diameter_Dn50 (Hs := Hs) (Tmm10 := Tmm10) (N_waves := N_waves)
      (cot_alpha := cot_alpha) (P := P) (rho_armour := rho_armour) (S := S) (c_pl := 6.49) (c_s := 0.97)
      (c_pl_mult := 1.0) (c_s_mult := 1.0)) ∧
    (∀ Tmm10 N_waves cot_alpha P rho_armour S, VdM2021.calculate_significant_wave_height_Hs (Tmm10 := Tmm10)
      (N_waves := N_waves) (cot_alpha := cot_alpha) (P := P) (rho_armour := rho_armour) (S := S) =
      VdM2021.calculate_significant_wave_height_Hs (Tmm10 := Tmm10) (N_waves := N_waves) (cot_alpha :=
      cot_alpha) (P := P) (rho_armour := rho_armour) (S := S) (Dn50 := nan) (M50 := nan) (c_pl := 6.49) (c_s
      := 0.97) (c_pl_mult := 1.0) (c_s_mult := 1.0) (g := 9.81)) := by
  refine ⟨?_, ?_, ?_⟩ <;> (intros; rfl)

/-- C81: functions/structural/stability_rock_rear/vangent2007.py -/
theorem C81_rock_rear_vangent2007 :
    (∀ cot_alpha cot_phi gamma Hs Tmm10 Rc Rc2_front Rc2_rear N_waves,
      VanGent2007Rear.calculate_damage_number_S (cot_alpha := cot_alpha) (cot_phi := cot_phi) (gamma :=
      gamma) (Hs := Hs) (Tmm10 := Tmm10) (Rc := Rc) (Rc2_front := Rc2_front) (Rc2_rear := Rc2_rear) (N_waves
      := N_waves) = VanGent2007Rear.calculate_damage_number_S (cot_alpha := cot_alpha) (cot_phi := cot_phi)
      (gamma := gamma) (Hs := Hs) (Tmm10 := Tmm10) (Rc := Rc) (Rc2_front := Rc2_front) (Rc2_rear :=
      Rc2_rear) (N_waves := N_waves) (Dn50 := nan) (M50 := nan) (rho_rock := nan)) ∧
    (∀ cot_alpha cot_phi gamma S Tmm10 Rc Rc2_front Rc2_rear N_waves,
      VanGent2007Rear.calculate_maximum_significant_wave_height_Hs (cot_alpha := cot_alpha) (cot_phi :=
      cot_phi) (gamma := gamma) (S := S) (Tmm10 := Tmm10) (Rc := Rc) (Rc2_front := Rc2_front) (Rc2_rear :=
      Rc2_rear) (N_waves := N_waves) = VanGent2007Rear.calculate_maximum_significant_wave_height_Hs
      (cot_alpha := cot_alpha) (cot_phi := cot_phi) (gamma := gamma) (S := S) (Tmm10 := Tmm10) (Rc := Rc)
      (Rc2_front := Rc2_front) (Rc2_rear := Rc2_rear) (N_waves := N_waves) (Dn50 := nan) (M50 := nan)
      (rho_rock := nan) (tolerance := 1e-4) (max_iterations := 10000)) ∧
    (VanGent2007Rear.check_validity_range = VanGent2007Rear.check_validity_range (Rc := nan) (Rc2_front :=
      nan) (Rc2_rear := nan) (Gc := nan) (Dn50 := nan) (B_element := nan) (h := nan) (Hs := nan) (Tmm10 :=
      nan) (z1p := nan) (S := nan) (N_waves := nan)) := by
  refine ⟨?_, ?_, ?_⟩ <;> (intros; rfl)

/-- C81: functions/structural/stability_rock_rear/vangentpozueta2004.py -/
theorem C81_vangentpozueta2004 :
    (∀ cot_phi S Hs Tmm10 Rc_rear N_waves, VanGentPozueta2004._invert_for_u1p (cot_phi := cot_phi) (S := S)
      (Hs := Hs) (Tmm10 := Tmm10) (Rc_rear := Rc_rear) (N_waves := N_waves) =
      VanGentPozueta2004._invert_for_u1p (cot_phi := cot_phi) (S := S) (Hs := Hs) (Tmm10 := Tmm10) (Rc_rear
      := Rc_rear) (N_waves := N_waves) (Dn50 := nan) (Delta := nan) (cs := npow 0.008 6.0)) ∧
    (∀ cot_alpha cot_phi gamma_f gamma_f_Crest Hs Tmm10 Rc Rc_rear Bc N_waves,
      VanGentPozueta2004.calculate_damage_number_S (cot_alpha := cot_alpha) (cot_phi := cot_phi) (gamma_f :=
      gamma_f) (gamma_f_Crest := gamma_f_Crest) (Hs := Hs) (Tmm10 := Tmm10) (Rc := Rc) (Rc_rear := Rc_rear)
      (Bc := Bc) (N_waves := N_waves) = VanGentPozueta2004.calculate_damage_number_S (cot_alpha :=
      cot_alpha) (cot_phi := cot_phi) (gamma_f := gamma_f) (gamma_f_Crest := gamma_f_Crest) (Hs := Hs)
      (Tmm10 := Tmm10) (Rc := Rc) (Rc_rear := Rc_rear) (Bc := Bc) (N_waves := N_waves) (Dn50 := nan) (M50 :=
      nan) (rho_rock := nan) (rho_water := 1025.0) (cs := npow 0.008 6.0)) ∧
    (∀ cot_alpha cot_phi gamma_f gamma_f_Crest S Tmm10 Rc Rc_rear Bc N_waves,
      VanGentPozueta2004.calculate_maximum_significant_wave_height_Hs (cot_alpha := cot_alpha) (cot_phi :=
      cot_phi) (gamma_f := gamma_f) (gamma_f_Crest := gamma_f_Crest) (S := S) (Tmm10 := Tmm10) (Rc := Rc)
      (Rc_rear := Rc_rear) (Bc := Bc) (N_waves := N_waves) =
      VanGentPozueta2004.calculate_maximum_significant_wave_height_Hs (cot_alpha := cot_alpha) (cot_phi :=
      cot_phi) (gamma_f := gamma_f) (gamma_f_Crest := gamma_f_Crest) (S := S) (Tmm10 := Tmm10) (Rc := Rc)
      (Rc_rear := Rc_rear) (Bc := Bc) (N_waves := N_waves) (Dn50 := nan) (M50 := nan) (rho_rock := nan)
      (rho_water := 1025.0) (cs := npow 0.008 6.0) (tolerance := 1e-4) (max_iterations := 10000)) ∧
    (∀ cot_alpha cot_phi gamma_f gamma_f_Crest S Hs Tmm10 Rc Rc_rear Bc rho_rock N_waves,
      VanGentPozueta2004.calculate_nominal_rock_diameter_Dn50 (cot_alpha := cot_alpha) (cot_phi := cot_phi)
      (gamma_f := gamma_f) (gamma_f_Crest := gamma_f_Crest) (S := S) (Hs := Hs) (Tmm10 := Tmm10) (Rc := Rc)
      (Rc_rear := Rc_rear) (Bc := Bc) (rho_rock := rho_rock) (N_waves := N_waves) =
      VanGentPozueta2004.calculate_nominal_rock_diameter_Dn50 (cot_alpha := cot_alpha) (cot_phi := cot_phi)
      (gamma_f := gamma_f) (gamma_f_Crest := gamma_f_Crest) (S := S) (Hs := Hs) (Tmm10 := Tmm10) (Rc := Rc)
      (Rc_rear := Rc_rear) (Bc := Bc) (rho_rock := rho_rock) (N_waves := N_waves) (rho_water := 1025.0) (cs
      := npow 0.008 6.0)) ∧
    (VanGentPozueta2004.check_validity_range = VanGentPozueta2004.check_validity_range (Rc := nan) (Rc_rear
      := nan) (cot_phi := nan) (gamma_f := nan) (Dn50 := nan) (rho_rock := nan) (rho_water := nan) (Bc :=
      nan) (Hs := nan) (Tmm10 := nan) (z1p := nan) (S := nan) (N_waves := nan)) := by
  refine ⟨?_, ?_, ?_, ?_, ?_⟩ <;> (intros; rfl)

/-- C81: functions/structural/stability_toe_berm/etemadshahidi2021.py -/
theorem C81_etemadshahidi2021 :
    (∀ Hs Tmm10 h ht Bt m Dn50 rho_rock, EtemadShahidi2021.calculate_damage_Nod (Hs := Hs) (Tmm10 := Tmm10)
      (h := h) (ht := ht) (Bt := Bt) (m := m) (Dn50 := Dn50) (rho_rock := rho_rock) =
      EtemadShahidi2021.calculate_damage_Nod (Hs := Hs) (Tmm10 := Tmm10) (h := h) (ht := ht) (Bt := Bt) (m
      := m) (Dn50 := Dn50) (rho_rock := rho_rock) (rho_water := 1025.0) (g := 9.81) (c1 := 1.2) (c2 := 11.2)
      (c3 := 7.0 / 4.0) (c4 := 1.0 / 6.0) (c5 := 2.0 / 5.0) (c6 := -1.0 / 10.0) (c7 := 3.7)) ∧
    (∀ Hs Tmm10 h ht Bt Nod m rho_rock, EtemadShahidi2021.calculate_nominal_diameter_Dn50 (Hs := Hs) (Tmm10
      := Tmm10) (h := h) (ht := ht) (Bt := Bt) (Nod := Nod) (m := m) (rho_rock := rho_rock) =
      EtemadShahidi2021.calculate_nominal_diameter_Dn50 (Hs := Hs) (Tmm10 := Tmm10) (h := h) (ht := ht) (Bt
      := Bt) (Nod := Nod) (m := m) (rho_rock := rho_rock) (rho_water := 1025.0) (g := 9.81) (c1 := 1.2) (c2
      := 11.2) (c3 := 7.0 / 4.0) (c4 := 1.0 / 6.0) (c5 := 2.0 / 5.0) (c6 := -1.0 / 10.0) (c7 := 3.7)) ∧
    (∀ Tmm10 h ht Bt Nod m Dn50 rho_rock, EtemadShahidi2021.calculate_significant_wave_height_Hs (Tmm10 :=
      Tmm10) (h := h) (ht := ht) (Bt := Bt) (Nod := Nod) (m := m) (Dn50 := Dn50) (rho_rock := rho_rock) =
      EtemadShahidi2021.calculate_significant_wave_height_Hs (Tmm10 := Tmm10) (h := h) (ht := ht) (Bt := Bt)
      (Nod := Nod) (m := m) (Dn50 := Dn50) (rho_rock := rho_rock) (rho_water := 1025.0) (g := 9.81) (c1 :=
      1.2) (c2 := 11.2) (c3 := 7.0 / 4.0) (c4 := 1.0 / 6.0) (c5 := 2.0 / 5.0) (c6 := -1.0 / 10.0) (c7 :=
      3.7) (smm10_init := 0.03) (max_iter := 1000)) ∧
    (EtemadShahidi2021.check_validity = EtemadShahidi2021.check_validity (Hs := nan) (Tmm10 := nan) (h :=
      nan) (ht := nan) (Bt := nan) (Dn50 := nan) (m := nan) (Nod := nan) (cot_alpha_armour_slope := nan)
      (rho_armour := nan) (rho_water := 1025.0)) := by
  refine ⟨?_, ?_, ?_, ?_⟩ <;> (intros; rfl)

/-- C81: functions/structural/stability_toe_berm/gerding1993.py -/
theorem C81_gerding1993 :
    Gerding1993.check_validity = Gerding1993.check_validity (ht := nan) (h := nan) (Dn50 := nan) := by
  intros; rfl

/-- C81: functions/structural/stability_toe_berm/takahashi1990_caisson.py -/
theorem C81_takahashi1990_caisson :
    (∀ Hs Tp hacc Bt rho_rock rho_water beta, Takahashi1990.calculate_nominal_diameter_Dn50 (Hs := Hs) (Tp
      := Tp) (hacc := hacc) (Bt := Bt) (rho_rock := rho_rock) (rho_water := rho_water) (beta := beta) =
      Takahashi1990.calculate_nominal_diameter_Dn50 (Hs := Hs) (Tp := Tp) (hacc := hacc) (Bt := Bt)
      (rho_rock := rho_rock) (rho_water := rho_water) (beta := beta) (g := 9.81)) ∧
    (∀ Dn50 Tp Hs Bt rho_rock rho_water beta, Takahashi1990.calculate_significant_depth_above_toe_hacc (Dn50
      := Dn50) (Tp := Tp) (Hs := Hs) (Bt := Bt) (rho_rock := rho_rock) (rho_water := rho_water) (beta :=
      beta) = Takahashi1990.calculate_significant_depth_above_toe_hacc (Dn50 := Dn50) (Tp := Tp) (Hs := Hs)
      (Bt := Bt) (rho_rock := rho_rock) (rho_water := rho_water) (beta := beta) (g := 9.81)) ∧
    (∀ Dn50 Tp hacc Bt rho_rock rho_water beta, Takahashi1990.calculate_significant_wave_height_Hs (Dn50 :=
      Dn50) (Tp := Tp) (hacc := hacc) (Bt := Bt) (rho_rock := rho_rock) (rho_water := rho_water) (beta :=
      beta) = Takahashi1990.calculate_significant_wave_height_Hs (Dn50 := Dn50) (Tp := Tp) (hacc := hacc)
      (Bt := Bt) (rho_rock := rho_rock) (rho_water := rho_water) (beta := beta) (g := 9.81)) ∧
    (∀ Hs Tp hacc Bt beta, Takahashi1990.calculate_stability_number_Ns (Hs := Hs) (Tp := Tp) (hacc := hacc)
      (Bt := Bt) (beta := beta) = Takahashi1990.calculate_stability_number_Ns (Hs := Hs) (Tp := Tp) (hacc :=
      hacc) (Bt := Bt) (beta := beta) (g := 9.81)) ∧
    (Takahashi1990.check_validity = Takahashi1990.check_validity (Ns := nan) (Bt := nan)) := by
  refine ⟨?_, ?_, ?_, ?_, ?_⟩ <;> (intros; rfl)

/-- C81: functions/structural/stability_toe_berm/vandermeer1998.py -/
theorem C81_vandermeer1998 :
    VanDerMeer1998.check_validity = VanDerMeer1998.check_validity (Hs := nan) (ht := nan) (h := nan) (Dn50
      := nan) (Nod := nan) (Delta := nan) := by
  intros; rfl

/-- C81: functions/structural/stability_toe_berm/vangentvanderwerf2014.py -/
theorem C81_vangentvanderwerf2014 :
    (∀ Hm0 Tmm10 ht Bt tt Dn50 rho_rock rho_water cot_alpha_armour_slope,
      VanGentVanDerWerf2014.calculate_damage_Nod (Hm0 := Hm0) (Tmm10 := Tmm10) (ht := ht) (Bt := Bt) (tt :=
      tt) (Dn50 := Dn50) (rho_rock := rho_rock) (rho_water := rho_water) (cot_alpha_armour_slope :=
      cot_alpha_armour_slope) = VanGentVanDerWerf2014.calculate_damage_Nod (Hm0 := Hm0) (Tmm10 := Tmm10) (ht
      := ht) (Bt := Bt) (tt := tt) (Dn50 := Dn50) (rho_rock := rho_rock) (rho_water := rho_water)
      (cot_alpha_armour_slope := cot_alpha_armour_slope) (g := 9.81) (c1 := 0.032) (c2 := 0.3) (c3 := 1.0)
      (c4 := 3.0) (c5 := 1.0)) ∧
    (∀ Hm0 Tmm10 ht Bt tt Nod rho_rock rho_water cot_alpha_armour_slope,
      VanGentVanDerWerf2014.calculate_nominal_diameter_Dn50 (Hm0 := Hm0) (Tmm10 := Tmm10) (ht := ht) (Bt :=
      Bt) (tt := tt) (Nod := Nod) (rho_rock := rho_rock) (rho_water := rho_water) (cot_alpha_armour_slope :=
      cot_alpha_armour_slope) = VanGentVanDerWerf2014.calculate_nominal_diameter_Dn50 (Hm0 := Hm0) (Tmm10 :=
      Tmm10) (ht := ht) (Bt := Bt) (tt := tt) (Nod := Nod) (rho_rock := rho_rock) (rho_water := rho_water)
      (cot_alpha_armour_slope := cot_alpha_armour_slope) (g := 9.81)) ∧
    (∀ Hs Tmm10 ht, VanGentVanDerWerf2014.calculate_velocity_u_delta (Hs := Hs) (Tmm10 := Tmm10) (ht := ht)
      = VanGentVanDerWerf2014.calculate_velocity_u_delta (Hs := Hs) (Tmm10 := Tmm10) (ht := ht) (g := 9.81))
      ∧
    (VanGentVanDerWerf2014.check_validity = VanGentVanDerWerf2014.check_validity (Hs := nan) (tt := nan) (ht
      := nan) (cot_alpha_armour_slope := nan)) := by
  refine ⟨?_, ?_, ?_, ?_⟩ <;> (intros; rfl)

/-- C81: functions/hydraulic/wave_overtopping/deridder2024.py -/
theorem C81_deridder2024 :
    (∀ Hm0 smm10_HF gamma_f q, DeRidder2024.calculate_crest_freeboard_discharge_q_eq24 (Hm0 := Hm0)
      (smm10_HF := smm10_HF) (gamma_f := gamma_f) (q := q) =
      DeRidder2024.calculate_crest_freeboard_discharge_q_eq24 (Hm0 := Hm0) (smm10_HF := smm10_HF) (gamma_f
      := gamma_f) (q := q) (_g := 9.81)) ∧
    (∀ Hm0 smm10_HF Hm0_LF gamma_f q, DeRidder2024.calculate_crest_freeboard_discharge_q_eq26 (Hm0 := Hm0)
      (smm10_HF := smm10_HF) (Hm0_LF := Hm0_LF) (gamma_f := gamma_f) (q := q) =
      DeRidder2024.calculate_crest_freeboard_discharge_q_eq26 (Hm0 := Hm0) (smm10_HF := smm10_HF) (Hm0_LF :=
      Hm0_LF) (gamma_f := gamma_f) (q := q) (g := 9.81)) ∧
    (∀ Hm0 smm10_HF gamma_f q, DeRidder2024.calculate_dimensionless_crest_freeboard_discharge_q_eq24 (Hm0 :=
      Hm0) (smm10_HF := smm10_HF) (gamma_f := gamma_f) (q := q) =
      DeRidder2024.calculate_dimensionless_crest_freeboard_discharge_q_eq24 (Hm0 := Hm0) (smm10_HF :=
      smm10_HF) (gamma_f := gamma_f) (q := q) (g := 9.81)) ∧
    (∀ Hm0 smm10_HF gamma_f Rc, DeRidder2024.calculate_overtopping_discharge_q_eq24 (Hm0 := Hm0) (smm10_HF
      := smm10_HF) (gamma_f := gamma_f) (Rc := Rc) = DeRidder2024.calculate_overtopping_discharge_q_eq24
      (Hm0 := Hm0) (smm10_HF := smm10_HF) (gamma_f := gamma_f) (Rc := Rc) (g := 9.81)) ∧
    (∀ Hm0 smm10_HF Hm0_LF gamma_f Rc, DeRidder2024.calculate_overtopping_discharge_q_eq26 (Hm0 := Hm0)
      (smm10_HF := smm10_HF) (Hm0_LF := Hm0_LF) (gamma_f := gamma_f) (Rc := Rc) =
      DeRidder2024.calculate_overtopping_discharge_q_eq26 (Hm0 := Hm0) (smm10_HF := smm10_HF) (Hm0_LF :=
      Hm0_LF) (gamma_f := gamma_f) (Rc := Rc) (g := 9.81)) ∧
    (DeRidder2024.check_validity_range = DeRidder2024.check_validity_range (h := nan) (Hm0 := nan) (Hm0_HF
      := nan) (Hm0_LF := nan) (Tmm10 := nan) (Tmm10_HF := nan) (Rc := nan) (cot_alpha := nan)
      (m_foreshore_slope := nan) (Dn50 := nan)) := by
  refine ⟨?_, ?_, ?_, ?_, ?_, ?_⟩ <;> (intros; rfl)

/-- C81: functions/hydraulic/wave_overtopping/deridder2026.py -/
theorem C81_deridder2026 :
    (∀ Hm0 smm10_HF gamma_f q, DeRidder2026.calculate_crest_freeboard_discharge_q_eq28 (Hm0 := Hm0)
      (smm10_HF := smm10_HF) (gamma_f := gamma_f) (q := q) =
      DeRidder2026.calculate_crest_freeboard_discharge_q_eq28 (Hm0 := Hm0) (smm10_HF := smm10_HF) (gamma_f
      := gamma_f) (q := q) (g := 9.81) (theta := 0.0)) ∧
    (∀ Hm0_HF smm10_HF Hm0_LF gamma_f q, DeRidder2026.calculate_crest_freeboard_discharge_q_eq32 (Hm0_HF :=
      Hm0_HF) (smm10_HF := smm10_HF) (Hm0_LF := Hm0_LF) (gamma_f := gamma_f) (q := q) =
      DeRidder2026.calculate_crest_freeboard_discharge_q_eq32 (Hm0_HF := Hm0_HF) (smm10_HF := smm10_HF)
      (Hm0_LF := Hm0_LF) (gamma_f := gamma_f) (q := q) (g := 9.81) (theta := 0.0)) ∧
    (∀ Hm0 smm10_HF gamma_f q, DeRidder2026.calculate_dimensionless_crest_freeboard_discharge_q_eq28 (Hm0 :=
      Hm0) (smm10_HF := smm10_HF) (gamma_f := gamma_f) (q := q) =
      DeRidder2026.calculate_dimensionless_crest_freeboard_discharge_q_eq28 (Hm0 := Hm0) (smm10_HF :=
      smm10_HF) (gamma_f := gamma_f) (q := q) (g := 9.81) (gamma_beta := 1.0)) ∧
    (∀ Hm0 smm10_HF gamma_f Rc, DeRidder2026.calculate_dimensionless_overtopping_discharge_eq28 (Hm0 := Hm0)
      (smm10_HF := smm10_HF) (gamma_f := gamma_f) (Rc := Rc) =
      DeRidder2026.calculate_dimensionless_overtopping_discharge_eq28 (Hm0 := Hm0) (smm10_HF := smm10_HF)
      (gamma_f := gamma_f) (Rc := Rc) (theta := 0.0)) ∧
    (∀ Hm0_HF smm10_HF Hm0_LF gamma_f Rc, DeRidder2026.calculate_dimensionless_overtopping_discharge_eq32
      (Hm0_HF := Hm0_HF) (smm10_HF := smm10_HF) (Hm0_LF := Hm0_LF) (gamma_f := gamma_f) (Rc := Rc) =
      DeRidder2026.calculate_dimensionless_overtopping_discharge_eq32 (Hm0_HF := Hm0_HF) (smm10_HF :=
      smm10_HF) (Hm0_LF := Hm0_LF) (gamma_f := gamma_f) (Rc := Rc) (theta := 0.0)) ∧
    (∀ Hm0 smm10_HF gamma_f Rc, DeRidder2026.calculate_overtopping_discharge_q_eq28 (Hm0 := Hm0) (smm10_HF
      := smm10_HF) (gamma_f := gamma_f) (Rc := Rc) = DeRidder2026.calculate_overtopping_discharge_q_eq28
      (Hm0 := Hm0) (smm10_HF := smm10_HF) (gamma_f := gamma_f) (Rc := Rc) (g := 9.81) (theta := 0.0)) ∧
    (∀ Hm0_HF smm10_HF Hm0_LF gamma_f Rc, DeRidder2026.calculate_overtopping_discharge_q_eq32 (Hm0_HF :=
      Hm0_HF) (smm10_HF := smm10_HF) (Hm0_LF := Hm0_LF) (gamma_f := gamma_f) (Rc := Rc) =
      DeRidder2026.calculate_overtopping_discharge_q_eq32 (Hm0_HF := Hm0_HF) (smm10_HF := smm10_HF) (Hm0_LF
      := Hm0_LF) (gamma_f := gamma_f) (Rc := Rc) (g := 9.81) (theta := 0.0)) ∧
    (DeRidder2026.check_validity_range = DeRidder2026.check_validity_range (h := nan) (Hm0 := nan) (Hm0_HF
      := nan) (Hm0_LF := nan) (Tmm10 := nan) (Tmm10_HF := nan) (Rc := nan) (Dn50 := nan) (theta := nan)) := by
  refine ⟨?_, ?_, ?_, ?_, ?_, ?_, ?_, ?_⟩ <;> (intros; rfl)

/-- C81: functions/hydraulic/wave_overtopping/eurotop2007.py -/
theorem C81_eurotop2007 :
    (∀ Hm0 Tmm10 q, OvertoppingEurOtop2007.calculate_crest_freeboard_Rc_rubble_mound (Hm0 := Hm0) (Tmm10 :=
      Tmm10) (q := q) = OvertoppingEurOtop2007.calculate_crest_freeboard_Rc_rubble_mound (Hm0 := Hm0) (Tmm10
      := Tmm10) (q := q) (beta := nan) (gamma_beta := nan) (gamma_f := 1.0) (cot_alpha := nan) (c2 := 0.2)
      (c3 := 2.3) (use_best_fit := false)) ∧
    (∀ Hm0 Tmm10 q, OvertoppingEurOtop2007.calculate_dimensionless_crest_freeboard_rubble_mound (Hm0 := Hm0)
      (Tmm10 := Tmm10) (q := q) =
      OvertoppingEurOtop2007.calculate_dimensionless_crest_freeboard_rubble_mound (Hm0 := Hm0) (Tmm10 :=
      Tmm10) (q := q) (beta := nan) (gamma_beta := nan) (gamma_f := 1.0) (cot_alpha := nan) (c2 := 0.2) (c3
      := 2.3) (use_best_fit := false)) ∧
    (∀ Hm0 Tmm10 Rc, OvertoppingEurOtop2007.calculate_dimensionless_overtopping_discharge_q_rubble_mound
      (Hm0 := Hm0) (Tmm10 := Tmm10) (Rc := Rc) =
      OvertoppingEurOtop2007.calculate_dimensionless_overtopping_discharge_q_rubble_mound (Hm0 := Hm0)
      (Tmm10 := Tmm10) (Rc := Rc) (beta := nan) (gamma_beta := nan) (gamma_f := 1.0) (cot_alpha := nan) (c2
      := 0.2) (c3 := 2.3) (use_best_fit := false)) ∧
    (∀ Hm0 Tmm10 Rc, OvertoppingEurOtop2007.calculate_overtopping_discharge_q_rubble_mound (Hm0 := Hm0)
      (Tmm10 := Tmm10) (Rc := Rc) = OvertoppingEurOtop2007.calculate_overtopping_discharge_q_rubble_mound
      (Hm0 := Hm0) (Tmm10 := Tmm10) (Rc := Rc) (beta := nan) (gamma_beta := nan) (gamma_f := 1.0) (cot_alpha
      := nan) (c2 := 0.2) (c3 := 2.3) (use_best_fit := false) (g := 9.81)) := by
  refine ⟨?_, ?_, ?_, ?_⟩ <;> (intros; rfl)

/-- C81: functions/hydraulic/wave_overtopping/eurotop2018.py -/
theorem C81_overtopping_eurotop2018 :
    (∀ Hm0 q, OvertoppingEurOtop2018.Rc_diml_max_equation (Hm0 := Hm0) (q := q) =
      OvertoppingEurOtop2018.Rc_diml_max_equation (Hm0 := Hm0) (q := q) (gamma_beta := nan) (gamma_f := 1.0)
      (gamma_star := 1.0) (c2 := 0.1035) (c3 := 1.35) (g := 9.81)) ∧
    (∀ Hm0 Tmm10 q, OvertoppingEurOtop2018.calculate_crest_freeboard_Rc (Hm0 := Hm0) (Tmm10 := Tmm10) (q :=
      q) = OvertoppingEurOtop2018.calculate_crest_freeboard_Rc (Hm0 := Hm0) (Tmm10 := Tmm10) (q := q) (beta
      := nan) (gamma_beta := nan) (gamma_b := nan) (gamma_f := 1.0) (gamma_v := 1.0) (gamma_star := 1.0)
      (B_berm := 0.0) (db := 0.0) (cot_alpha := nan) (cot_alpha_down := nan) (cot_alpha_up := nan) (c1 :=
      2.5) (c2 := 0.1035) (c3 := 1.35) (c4 := 0.026) (use_best_fit := false) (g := 9.81)) ∧
    (∀ Hm0 Tmm10 q, OvertoppingEurOtop2018.calculate_crest_freeboard_Rc_rubble_mound (Hm0 := Hm0) (Tmm10 :=
      Tmm10) (q := q) = OvertoppingEurOtop2018.calculate_crest_freeboard_Rc_rubble_mound (Hm0 := Hm0) (Tmm10
      := Tmm10) (q := q) (beta := nan) (gamma_beta := nan) (gamma_f := 1.0) (B_berm := 0.0) (db := 0.0)
      (cot_alpha := nan) (cot_alpha_down := nan) (cot_alpha_up := nan) (c2 := 0.1035) (c3 := 1.35)
      (use_best_fit := false) (g := 9.81)) ∧
    (∀ Hm0 Tmm10 q, OvertoppingEurOtop2018.calculate_dimensionless_crest_freeboard (Hm0 := Hm0) (Tmm10 :=
      Tmm10) (q := q) = OvertoppingEurOtop2018.calculate_dimensionless_crest_freeboard (Hm0 := Hm0) (Tmm10
      := Tmm10) (q := q) (beta := nan) (gamma_beta := nan) (_gamma_b := nan) (gamma_f := 1.0) (gamma_v :=
      1.0) (gamma_star := 1.0) (B_berm := 0.0) (db := 0.0) (cot_alpha := nan) (cot_alpha_down := nan)
      (cot_alpha_up := nan) (c1 := 2.5) (c2 := 0.1035) (c3 := 1.35) (c4 := 0.026) (use_best_fit := false) (g
      := 9.81)) ∧
    (∀ Hm0 Tmm10 q, OvertoppingEurOtop2018.calculate_dimensionless_crest_freeboard_rubble_mound (Hm0 := Hm0)
      (Tmm10 := Tmm10) (q := q) =
      OvertoppingEurOtop2018.calculate_dimensionless_crest_freeboard_rubble_mound (Hm0 := Hm0) (Tmm10 :=
      Tmm10) (q := q) (beta := nan) (gamma_beta := nan) (gamma_f := 1.0) (B_berm := 0.0) (db := 0.0)
      (cot_alpha := nan) (cot_alpha_down := nan) (cot_alpha_up := nan) (c2 := 0.1035) (c3 := 1.35)
      (use_best_fit := false) (g := 9.81)) ∧
    (∀ Hm0 Tmm10 Rc, OvertoppingEurOtop2018.calculate_dimensionless_overtopping_discharge_q (Hm0 := Hm0)
      (Tmm10 := Tmm10) (Rc := Rc) = OvertoppingEurOtop2018.calculate_dimensionless_overtopping_discharge_q
      (Hm0 := Hm0) (Tmm10 := Tmm10) (Rc := Rc) (beta := nan) (gamma_beta := nan) (_gamma_b := nan) (gamma_f
      := 1.0) (gamma_v := 1.0) (gamma_star := 1.0) (B_berm := 0.0) (db := 0.0) (cot_alpha := nan)
      (cot_alpha_down := nan) (cot_alpha_up := nan) (c1 := 2.5) (c2 := 0.1035) (c3 := 1.35) (c4 := 0.026)
      (use_best_fit := false)) ∧
    (∀ Hm0 Tmm10 Rc, OvertoppingEurOtop2018.calculate_dimensionless_overtopping_discharge_q_rubble_mound
      (Hm0 := Hm0) (Tmm10 := Tmm10) (Rc := Rc) =
      OvertoppingEurOtop2018.calculate_dimensionless_overtopping_discharge_q_rubble_mound (Hm0 := Hm0)
      (Tmm10 := Tmm10) (Rc := Rc) (beta := nan) (gamma_beta := nan) (gamma_f := 1.0) (B_berm := 0.0) (db :=
      0.0) (cot_alpha := nan) (cot_alpha_down := nan) (cot_alpha_up := nan) (c2 := 0.1035) (c3 := 1.35)
      (use_best_fit := false)) ∧
    (∀ beta gamma_f, OvertoppingEurOtop2018.calculate_influence_oblique_waves_gamma_beta (beta := beta)
      (gamma_f := gamma_f) = OvertoppingEurOtop2018.calculate_influence_oblique_waves_gamma_beta (beta :=
      beta) (gamma_f := gamma_f) (gamma_f_crit := 0.6) (c_gamma_beta_smooth := 0.0033) (c_gamma_beta_rough
      := 0.0063) (max_angle := 80.0)) ∧
    (∀ Hm0 Tmm10 Rc, OvertoppingEurOtop2018.calculate_overtopping_discharge_q (Hm0 := Hm0) (Tmm10 := Tmm10)
      (Rc := Rc) = OvertoppingEurOtop2018.calculate_overtopping_discharge_q (Hm0 := Hm0) (Tmm10 := Tmm10)
      (Rc := Rc) (beta := nan) (gamma_beta := nan) (gamma_b := nan) (gamma_f := 1.0) (gamma_v := 1.0)
      (gamma_star := 1.0) (B_berm := 0.0) (db := 0.0) (cot_alpha := nan) (cot_alpha_down := nan)
      (cot_alpha_up := nan) (c1 := 2.5) (c2 := 0.1035) (c3 := 1.35) (c4 := 0.026) (use_best_fit := false) (g
      := 9.81)) ∧
    (∀ Hm0 Tmm10 Rc, OvertoppingEurOtop2018.calculate_overtopping_discharge_q_rubble_mound (Hm0 := Hm0)
      (Tmm10 := Tmm10) (Rc := Rc) = OvertoppingEurOtop2018.calculate_overtopping_discharge_q_rubble_mound
      (Hm0 := Hm0) (Tmm10 := Tmm10) (Rc := Rc) (beta := nan) (gamma_beta := nan) (gamma_f := 1.0) (B_berm :=
      0.0) (db := 0.0) (cot_alpha := nan) (cot_alpha_down := nan) (cot_alpha_up := nan) (c2 := 0.1035) (c3
      := 1.35) (use_best_fit := false) (g := 9.81)) ∧
    (OvertoppingEurOtop2018.check_validity_range_rubble_mound =
      OvertoppingEurOtop2018.check_validity_range_rubble_mound (cot_alpha := nan)) ∧
    (∀ Hm0 Rc, OvertoppingEurOtop2018.q_diml_max_equation (Hm0 := Hm0) (Rc := Rc) =
      OvertoppingEurOtop2018.q_diml_max_equation (Hm0 := Hm0) (Rc := Rc) (gamma_beta := nan) (gamma_f :=
      1.0) (gamma_star := 1.0) (c2 := 0.1035) (c3 := 1.35)) := by
  refine ⟨?_, ?_, ?_, ?_, ?_, ?_, ?_, ?_, ?_, ?_, ?_, ?_⟩ <;> (intros; rfl)

/-- C81: functions/hydraulic/wave_overtopping/taw2002.py -/
theorem C81_overtopping_taw2002 :
    (∀ Hm0 q gamma_beta gamma_f c3, OvertoppingTaw2002.Rc_diml_max_equation (Hm0 := Hm0) (q := q)
      (gamma_beta := gamma_beta) (gamma_f := gamma_f) (c3 := c3) = OvertoppingTaw2002.Rc_diml_max_equation
      (Hm0 := Hm0) (q := q) (gamma_beta := gamma_beta) (gamma_f := gamma_f) (c3 := c3) (cor3 := 0.0) (c2 :=
      0.2) (g := 9.81)) ∧
    (∀ Hm0 Tmm10 q, OvertoppingTaw2002.calculate_crest_freeboard_Rc (Hm0 := Hm0) (Tmm10 := Tmm10) (q := q) =
      OvertoppingTaw2002.calculate_crest_freeboard_Rc (Hm0 := Hm0) (Tmm10 := Tmm10) (q := q) (cot_alpha :=
      nan) (cot_alpha_down := nan) (cot_alpha_up := nan) (beta := nan) (B_berm := 0.0) (db := 0.0)
      (gamma_beta := nan) (gamma_b := nan) (gamma_f := 1.0) (gamma_v := 1.0) (sigma := 0) (g := 9.81)
      (use_best_fit := false)) ∧
    (∀ Hm0 Tmm10 q, OvertoppingTaw2002.calculate_dimensionless_crest_freeboard (Hm0 := Hm0) (Tmm10 := Tmm10)
      (q := q) = OvertoppingTaw2002.calculate_dimensionless_crest_freeboard (Hm0 := Hm0) (Tmm10 := Tmm10) (q
      := q) (cot_alpha := nan) (cot_alpha_down := nan) (cot_alpha_up := nan) (beta := nan) (B_berm := 0.0)
      (db := 0.0) (gamma_beta := nan) (gamma_b := nan) (gamma_f := 1.0) (gamma_v := 1.0) (sigma := 0) (g :=
      9.81) (use_best_fit := false)) ∧
    (∀ Hm0 Tmm10 Rc, OvertoppingTaw2002.calculate_dimensionless_overtopping_discharge_q (Hm0 := Hm0) (Tmm10
      := Tmm10) (Rc := Rc) = OvertoppingTaw2002.calculate_dimensionless_overtopping_discharge_q (Hm0 := Hm0)
      (Tmm10 := Tmm10) (Rc := Rc) (cot_alpha := nan) (cot_alpha_down := nan) (cot_alpha_up := nan) (beta :=
      nan) (B_berm := 0.0) (db := 0.0) (gamma_beta := nan) (gamma_b := nan) (gamma_f := 1.0) (gamma_v :=
      1.0) (sigma := 0) (use_best_fit := false)) ∧
    (∀ beta, OvertoppingTaw2002.calculate_influence_oblique_waves_gamma_beta (beta := beta) =
      OvertoppingTaw2002.calculate_influence_oblique_waves_gamma_beta (beta := beta) (c_gamma_beta :=
      0.0033) (max_angle := 80.0)) ∧
    (∀ Hm0 Tmm10 Rc, OvertoppingTaw2002.calculate_overtopping_discharge_q (Hm0 := Hm0) (Tmm10 := Tmm10) (Rc
      := Rc) = OvertoppingTaw2002.calculate_overtopping_discharge_q (Hm0 := Hm0) (Tmm10 := Tmm10) (Rc := Rc)
      (cot_alpha := nan) (cot_alpha_down := nan) (cot_alpha_up := nan) (beta := nan) (B_berm := 0.0) (db :=
      0.0) (gamma_beta := nan) (gamma_b := nan) (gamma_f := 1.0) (gamma_v := 1.0) (sigma := 0) (g := 9.81)
      (use_best_fit := false)) ∧
    (OvertoppingTaw2002.check_validity_range = OvertoppingTaw2002.check_validity_range (Hm0 := nan) (Tmm10
      := nan) (beta := nan) (cot_alpha := nan) (cot_alpha_down := nan) (cot_alpha_up := nan) (gamma_f :=
      nan) (gamma_b := nan) (gamma_beta := nan) (gamma_v := nan)) ∧
    (∀ Hm0 Rc gamma_beta gamma_f c3, OvertoppingTaw2002.q_diml_max_equation (Hm0 := Hm0) (Rc := Rc)
      (gamma_beta := gamma_beta) (gamma_f := gamma_f) (c3 := c3) = OvertoppingTaw2002.q_diml_max_equation
      (Hm0 := Hm0) (Rc := Rc) (gamma_beta := gamma_beta) (gamma_f := gamma_f) (c3 := c3) (cor3 := 0.0) (c2
      := 0.2)) := by
  refine ⟨?_, ?_, ?_, ?_, ?_, ?_, ?_, ?_⟩ <;> (intros; rfl)

/-- C81: functions/hydraulic/wave_overtopping/vangent2002_velocity.py -/
theorem C81_vangent2002_velocity :
    (∀ Hs uXp Rc Bc gamma_f gamma_f_Crest, VanGent2002Velocity._invert_for_zXp (Hs := Hs) (uXp := uXp) (Rc
      := Rc) (Bc := Bc) (gamma_f := gamma_f) (gamma_f_Crest := gamma_f_Crest) =
      VanGent2002Velocity._invert_for_zXp (Hs := Hs) (uXp := uXp) (Rc := Rc) (Bc := Bc) (gamma_f := gamma_f)
      (gamma_f_Crest := gamma_f_Crest) (cu1 := 1.7) (cu2 := 0.1) (g := 9.81)) ∧
    (∀ Hs zXp Rc Bc gamma_f gamma_f_Crest,
      VanGent2002Velocity.calculate_maximum_wave_overtopping_velocity_uXp (Hs := Hs) (zXp := zXp) (Rc := Rc)
      (Bc := Bc) (gamma_f := gamma_f) (gamma_f_Crest := gamma_f_Crest) =
      VanGent2002Velocity.calculate_maximum_wave_overtopping_velocity_uXp (Hs := Hs) (zXp := zXp) (Rc := Rc)
      (Bc := Bc) (gamma_f := gamma_f) (gamma_f_Crest := gamma_f_Crest) (cu1 := 1.7) (cu2 := 0.1) (g :=
      9.81)) := by
  refine ⟨?_, ?_⟩ <;> (intros; rfl)

/-- C81: functions/hydraulic/wave_overtopping/vangent2021_caisson.py -/
theorem C81_vangent2021_caisson :
    (∀ Hm0 q, VanGent2021Caisson.calculate_crest_freeboard_Rc (Hm0 := Hm0) (q := q) =
      VanGent2021Caisson.calculate_crest_freeboard_Rc (Hm0 := Hm0) (q := q) (beta := nan) (gamma_beta :=
      nan) (Hm0_swell := nan) (c := 1.0) (c_swell := 0.4) (short_crested_waves := true) (crossing_seas :=
      false) (parapet := false) (g := 9.81)) ∧
    (∀ Hm0 q, VanGent2021Caisson.calculate_dimensionless_crest_freeboard (Hm0 := Hm0) (q := q) =
      VanGent2021Caisson.calculate_dimensionless_crest_freeboard (Hm0 := Hm0) (q := q) (beta := nan)
      (gamma_beta := nan) (Hm0_swell := nan) (c := 1.0) (c_swell := 0.4) (short_crested_waves := true)
      (crossing_seas := false) (parapet := false) (g := 9.81)) ∧
    (∀ Hm0 Rc, VanGent2021Caisson.calculate_dimensionless_overtopping_discharge_q (Hm0 := Hm0) (Rc := Rc) =
      VanGent2021Caisson.calculate_dimensionless_overtopping_discharge_q (Hm0 := Hm0) (Rc := Rc) (beta :=
      nan) (gamma_beta := nan) (Hm0_swell := nan) (c := 1.0) (c_swell := 0.4) (short_crested_waves := true)
      (crossing_seas := false) (parapet := false)) ∧
    (∀ Hm0 Rc, VanGent2021Caisson.calculate_overtopping_discharge_q (Hm0 := Hm0) (Rc := Rc) =
      VanGent2021Caisson.calculate_overtopping_discharge_q (Hm0 := Hm0) (Rc := Rc) (beta := nan) (gamma_beta
      := nan) (Hm0_swell := nan) (c := 1.0) (c_swell := 0.4) (short_crested_waves := true) (crossing_seas :=
      false) (parapet := false) (g := 9.81)) ∧
    (VanGent2021Caisson.check_validity_range = VanGent2021Caisson.check_validity_range (Hm0 := nan) (Tmm10
      := nan) (beta := nan) (Rc := nan) (q_diml := nan)) := by
  refine ⟨?_, ?_, ?_, ?_, ?_⟩ <;> (intros; rfl)

/-- C81: functions/hydraulic/wave_overtopping/vangent2025.py -/
theorem C81_vangent2025 :
    (∀ Hm0 Hm0_swell q cot_alpha ksi_mm10 gamma_f gamma_b gamma_v gamma_beta,
      VanGent2025.Rc_diml_max_equation (Hm0 := Hm0) (Hm0_swell := Hm0_swell) (q := q) (cot_alpha :=
      cot_alpha) (ksi_mm10 := ksi_mm10) (gamma_f := gamma_f) (gamma_b := gamma_b) (gamma_v := gamma_v)
      (gamma_beta := gamma_beta) = VanGent2025.Rc_diml_max_equation (Hm0 := Hm0) (Hm0_swell := Hm0_swell) (q
      := q) (cot_alpha := cot_alpha) (ksi_mm10 := ksi_mm10) (gamma_f := gamma_f) (gamma_b := gamma_b)
      (gamma_v := gamma_v) (gamma_beta := gamma_beta) (c2 := 0.8) (c3 := -2.5) (g := 9.81)) ∧
    (∀ Hm0 Hm0_swell Tmm10 q Ac, VanGent2025.calculate_crest_freeboard_Rc (Hm0 := Hm0) (Hm0_swell :=
      Hm0_swell) (Tmm10 := Tmm10) (q := q) (Ac := Ac) = VanGent2025.calculate_crest_freeboard_Rc (Hm0 :=
      Hm0) (Hm0_swell := Hm0_swell) (Tmm10 := Tmm10) (q := q) (Ac := Ac) (cot_alpha := nan) (beta := nan)
      (B_berm := 0.0) (db := 0.0) (Dn50 := nan) (gamma_f := nan) (gamma_b := nan) (gamma_v := nan)
      (gamma_beta := nan) (design_calculation := true) (include_influence_wind := false)) ∧
    (∀ Hm0 Hm0_swell Tmm10 q Ac, VanGent2025.calculate_dimensionless_crest_freeboard (Hm0 := Hm0) (Hm0_swell
      := Hm0_swell) (Tmm10 := Tmm10) (q := q) (Ac := Ac) =
      VanGent2025.calculate_dimensionless_crest_freeboard (Hm0 := Hm0) (Hm0_swell := Hm0_swell) (Tmm10 :=
      Tmm10) (q := q) (Ac := Ac) (cot_alpha := nan) (beta := nan) (B_berm := 0.0) (db := 0.0) (Dn50 := nan)
      (gamma_f := nan) (gamma_b := nan) (gamma_v := nan) (gamma_beta := nan) (g := 9.81) (design_calculation
      := true) (include_influence_wind := false) (max_iter := 1000) (tolerance := 1e-5)) ∧
    (∀ Hm0 Hm0_swell Tmm10 Rc Ac, VanGent2025.calculate_dimensionless_overtopping_discharge_q (Hm0 := Hm0)
      (Hm0_swell := Hm0_swell) (Tmm10 := Tmm10) (Rc := Rc) (Ac := Ac) =
      VanGent2025.calculate_dimensionless_overtopping_discharge_q (Hm0 := Hm0) (Hm0_swell := Hm0_swell)
      (Tmm10 := Tmm10) (Rc := Rc) (Ac := Ac) (cot_alpha := nan) (beta := nan) (B_berm := 0.0) (db := 0.0)
      (Dn50 := nan) (gamma_f := nan) (gamma_b := nan) (gamma_v := nan) (gamma_beta := nan)
      (design_calculation := true) (include_influence_wind := false)) ∧
    (∀ Hm0 smm10 Ac B_berm BL, VanGent2025.calculate_influence_berm_gamma_b (Hm0 := Hm0) (smm10 := smm10)
      (Ac := Ac) (B_berm := B_berm) (BL := BL) = VanGent2025.calculate_influence_berm_gamma_b (Hm0 := Hm0)
      (smm10 := smm10) (Ac := Ac) (B_berm := B_berm) (BL := BL) (c_b1 := 18.0) (c_b2 := 1.3) (c_b3 := 0.34)
      (c_b4 := 0.2)) ∧
    (∀ cot_alpha Rc Ac, VanGent2025.calculate_influence_crest_wall_gamma_v (cot_alpha := cot_alpha) (Rc :=
      Rc) (Ac := Ac) = VanGent2025.calculate_influence_crest_wall_gamma_v (cot_alpha := cot_alpha) (Rc :=
      Rc) (Ac := Ac) (c_v := 0.45)) ∧
    (∀ Dn50 Hm0 smm10, VanGent2025.calculate_influence_friction_gamma_f (Dn50 := Dn50) (Hm0 := Hm0) (smm10
      := smm10) = VanGent2025.calculate_influence_friction_gamma_f (Dn50 := Dn50) (Hm0 := Hm0) (smm10 :=
      smm10) (c_f1 := 0.70) (c_f2 := 0.05) (smm10_lim := 0.012)) ∧
    (∀ beta, VanGent2025.calculate_influence_oblique_waves_gamma_beta (beta := beta) =
      VanGent2025.calculate_influence_oblique_waves_gamma_beta (beta := beta) (c_beta := 0.35)) ∧
    (∀ Rc Ac Hm0 q_diml, VanGent2025.calculate_influence_wind_gamma_w (Rc := Rc) (Ac := Ac) (Hm0 := Hm0)
      (q_diml := q_diml) = VanGent2025.calculate_influence_wind_gamma_w (Rc := Rc) (Ac := Ac) (Hm0 := Hm0)
      (q_diml := q_diml) (c_w1 := 0.075) (c_w2 := -0.3)) ∧
    (∀ Hm0 Hm0_swell Tmm10 Rc Ac, VanGent2025.calculate_overtopping_discharge_q (Hm0 := Hm0) (Hm0_swell :=
      Hm0_swell) (Tmm10 := Tmm10) (Rc := Rc) (Ac := Ac) = VanGent2025.calculate_overtopping_discharge_q (Hm0
      := Hm0) (Hm0_swell := Hm0_swell) (Tmm10 := Tmm10) (Rc := Rc) (Ac := Ac) (cot_alpha := nan) (beta :=
      nan) (B_berm := 0.0) (db := 0.0) (Dn50 := nan) (gamma_f := nan) (gamma_b := nan) (gamma_v := nan)
      (gamma_beta := nan) (g := 9.81) (design_calculation := true) (include_influence_wind := false)) ∧
    (VanGent2025.check_validity_range = VanGent2025.check_validity_range (Hm0 := nan) (Hm0_deep := nan)
      (Tmm10 := nan) (beta := nan) (h := nan) (cot_alpha := nan) (Dn50 := nan) (Rc := nan) (Ac := nan) (Gc
      := nan) (B_berm := nan) (db := nan)) ∧
    (∀ Hm0 Hm0_swell ksi_mm10 cot_alpha Rc gamma_f gamma_b gamma_v gamma_beta,
      VanGent2025.q_diml_max_equation (Hm0 := Hm0) (Hm0_swell := Hm0_swell) (ksi_mm10 := ksi_mm10)
      (cot_alpha := cot_alpha) (Rc := Rc) (gamma_f := gamma_f) (gamma_b := gamma_b) (gamma_v := gamma_v)
      (gamma_beta := gamma_beta) = VanGent2025.q_diml_max_equation (Hm0 := Hm0) (Hm0_swell := Hm0_swell)
      (ksi_mm10 := ksi_mm10) (cot_alpha := cot_alpha) (Rc := Rc) (gamma_f := gamma_f) (gamma_b := gamma_b)
      (gamma_v := gamma_v) (gamma_beta := gamma_beta) (c2 := 0.8) (c3 := -2.5)) := by
  refine ⟨?_, ?_, ?_, ?_, ?_, ?_, ?_, ?_, ?_, ?_, ?_, ?_⟩ <;> (intros; rfl)

/-- C81: functions/hydraulic/wave_runup/eurotop2018.py -/
theorem C81_runup_eurotop2018 :
    (∀ Hm0 Tmm10, RunupEurOtop2018.calculate_dimensionless_wave_runup_height_z2p (Hm0 := Hm0) (Tmm10 :=
      Tmm10) = RunupEurOtop2018.calculate_dimensionless_wave_runup_height_z2p (Hm0 := Hm0) (Tmm10 := Tmm10)
      (beta := nan) (gamma_beta := nan) (gamma_b := nan) (gamma_f := 1.0) (B_berm := 0.0) (db := 0.0)
      (cot_alpha := nan) (cot_alpha_down := nan) (cot_alpha_up := nan) (c1 := 1.75) (c2 := 4.3) (c3 := 1.5)
      (c4 := 1.07) (use_best_fit := false)) ∧
    (∀ beta gamma_f, RunupEurOtop2018.calculate_influence_oblique_waves_gamma_beta (beta := beta) (gamma_f
      := gamma_f) = RunupEurOtop2018.calculate_influence_oblique_waves_gamma_beta (beta := beta) (gamma_f :=
      gamma_f) (gamma_f_crit := 0.6) (c_gamma_beta_smooth := 0.0022) (c_gamma_beta_rough := 0.0063)
      (max_angle := 80.0)) ∧
    (∀ Hm0 Tmm10, RunupEurOtop2018.calculate_wave_runup_height_z2p (Hm0 := Hm0) (Tmm10 := Tmm10) =
      RunupEurOtop2018.calculate_wave_runup_height_z2p (Hm0 := Hm0) (Tmm10 := Tmm10) (beta := nan)
      (gamma_beta := nan) (gamma_b := nan) (gamma_f := 1.0) (B_berm := 0.0) (db := 0.0) (cot_alpha := nan)
      (cot_alpha_down := nan) (cot_alpha_up := nan) (c1 := 1.75) (c2 := 4.3) (c3 := 1.5) (c4 := 1.07)
      (use_best_fit := false)) ∧
    (∀ Hm0 Tmm10 cot_alpha_average B_berm L_berm db gamma_beta, RunupEurOtop2018.iteration_procedure_gamma_b
      (Hm0 := Hm0) (Tmm10 := Tmm10) (cot_alpha_average := cot_alpha_average) (B_berm := B_berm) (L_berm :=
      L_berm) (db := db) (gamma_beta := gamma_beta) = RunupEurOtop2018.iteration_procedure_gamma_b (Hm0 :=
      Hm0) (Tmm10 := Tmm10) (cot_alpha_average := cot_alpha_average) (B_berm := B_berm) (L_berm := L_berm)
      (db := db) (gamma_beta := gamma_beta) (c1 := 1.75) (c2 := 4.3) (c3 := 1.5) (c4 := 1.07) (use_best_fit
      := false) (gamma_f := 1.0)) ∧
    (∀ Hm0 Tmm10 cot_alpha_down cot_alpha_up B_berm db gamma_f gamma_beta,
      RunupEurOtop2018.iteration_procedure_z2p (Hm0 := Hm0) (Tmm10 := Tmm10) (cot_alpha_down :=
      cot_alpha_down) (cot_alpha_up := cot_alpha_up) (B_berm := B_berm) (db := db) (gamma_f := gamma_f)
      (gamma_beta := gamma_beta) = RunupEurOtop2018.iteration_procedure_z2p (Hm0 := Hm0) (Tmm10 := Tmm10)
      (cot_alpha_down := cot_alpha_down) (cot_alpha_up := cot_alpha_up) (B_berm := B_berm) (db := db)
      (gamma_f := gamma_f) (gamma_beta := gamma_beta) (c1 := 1.75) (c2 := 4.3) (c3 := 1.5) (c4 := 1.07)
      (use_best_fit := false) (tolerance := 1e-4) (max_iter := 1000)) := by
  refine ⟨?_, ?_, ?_, ?_, ?_⟩ <;> (intros; rfl)

/-- C81: functions/hydraulic/wave_runup/taw2002.py -/
theorem C81_runup_taw2002 :
    (∀ Hm0 B_berm, RunupTaw2002.calculate_berm_length (Hm0 := Hm0) (B_berm := B_berm) =
      RunupTaw2002.calculate_berm_length (Hm0 := Hm0) (B_berm := B_berm) (cot_alpha := nan) (cot_alpha_down
      := nan) (cot_alpha_up := nan)) ∧
    (∀ Hm0 Tmm10, RunupTaw2002.calculate_dimensionless_wave_runup_height_z2p { Hm0 := Hm0, Tmm10 := Tmm10 } =
      RunupTaw2002.calculate_dimensionless_wave_runup_height_z2p { Hm0 := Hm0, Tmm10 := Tmm10, beta := nan, gamma_beta := nan, gamma_b := nan, gamma_f := 1.0, B_berm := 0.0, db := 0.0, cot_alpha := nan, cot_alpha_down := nan, cot_alpha_up := nan, c1 := 1.75, c2 := 4.3, c3 := 1.6, c4 := 1.0, use_best_fit := false }) ∧
    (∀ beta, RunupTaw2002.calculate_influence_oblique_waves_gamma_beta (beta := beta) =
      RunupTaw2002.calculate_influence_oblique_waves_gamma_beta (beta := beta) (c_gamma_beta := 0.0022)
      (max_angle := 80.0)) ∧
    (∀ Hm0 Tmm10, RunupTaw2002.calculate_wave_runup_height_z2p { Hm0 := Hm0, Tmm10 := Tmm10 } =
      RunupTaw2002.calculate_wave_runup_height_z2p { Hm0 := Hm0, Tmm10 := Tmm10, beta := nan, gamma_beta := nan, gamma_b := nan, gamma_f := 1.0, B_berm := 0.0, db := 0.0, cot_alpha := nan, cot_alpha_down := nan, cot_alpha_up := nan, c1 := 1.75, c2 := 4.3, c3 := 1.6, c4 := 1.0, use_best_fit := false }) ∧
    (RunupTaw2002.check_composite_slope = RunupTaw2002.check_composite_slope (cot_alpha := nan)
      (cot_alpha_down := nan) (cot_alpha_up := nan)) ∧
    (RunupTaw2002.check_validity_range = RunupTaw2002.check_validity_range (Hm0 := nan) (Tmm10 := nan)
      (gamma_f := nan) (gamma_b := nan) (gamma_beta := nan) (cot_alpha := nan)) ∧
    (∀ Hm0 Tmm10 cot_alpha_average B_berm L_berm db gamma_beta, RunupTaw2002.iteration_procedure_gamma_b
      (Hm0 := Hm0) (Tmm10 := Tmm10) (cot_alpha_average := cot_alpha_average) (B_berm := B_berm) (L_berm :=
      L_berm) (db := db) (gamma_beta := gamma_beta) = RunupTaw2002.iteration_procedure_gamma_b (Hm0 := Hm0)
      (Tmm10 := Tmm10) (cot_alpha_average := cot_alpha_average) (B_berm := B_berm) (L_berm := L_berm) (db :=
      db) (gamma_beta := gamma_beta) (c1 := 1.75) (c2 := 4.3) (c3 := 1.6) (c4 := 1.0) (use_best_fit :=
      false) (gamma_f := 1.0)) ∧
    (∀ Hm0 Tmm10 cot_alpha_down cot_alpha_up B_berm db gamma_f gamma_beta,
      RunupTaw2002.iteration_procedure_z2p (Hm0 := Hm0) (Tmm10 := Tmm10) (cot_alpha_down := cot_alpha_down)
      (cot_alpha_up := cot_alpha_up) (B_berm := B_berm) (db := db) (gamma_f := gamma_f) (gamma_beta :=
      gamma_beta) = RunupTaw2002.iteration_procedure_z2p (Hm0 := Hm0) (Tmm10 := Tmm10) (cot_alpha_down :=
      cot_alpha_down) (cot_alpha_up := cot_alpha_up) (B_berm := B_berm) (db := db) (gamma_f := gamma_f)
      (gamma_beta := gamma_beta) (c1 := 1.75) (c2 := 4.3) (c3 := 1.6) (c4 := 1.0) (use_best_fit := false)
      (tolerance := 1e-4) (max_iter := 1000)) := by
  refine ⟨?_, ?_, ?_, ?_, ?_, ?_, ?_, ?_⟩ <;> (intros; rfl)

/-- C81: functions/hydraulic/wave_runup/vangent2001.py -/
theorem C81_vangent2001 :
    (∀ Hs_i0 z1p Tmm10 gamma cot_alpha, VanGent2001._invert_for_Hs (Hs_i0 := Hs_i0) (z1p := z1p) (Tmm10 :=
      Tmm10) (gamma := gamma) (cot_alpha := cot_alpha) = VanGent2001._invert_for_Hs (Hs_i0 := Hs_i0) (z1p :=
      z1p) (Tmm10 := Tmm10) (gamma := gamma) (cot_alpha := cot_alpha) (c0 := 1.45) (c1 := 5.1)) ∧
    (∀ Hs Tmm10 gamma cot_alpha, VanGent2001.calculate_wave_runup_height_z10p (Hs := Hs) (Tmm10 := Tmm10)
      (gamma := gamma) (cot_alpha := cot_alpha) = VanGent2001.calculate_wave_runup_height_z10p (Hs := Hs)
      (Tmm10 := Tmm10) (gamma := gamma) (cot_alpha := cot_alpha) (c0 := 1.1) (c1 := 4.0)) ∧
    (∀ Hs Tmm10 gamma cot_alpha, VanGent2001.calculate_wave_runup_height_z1p (Hs := Hs) (Tmm10 := Tmm10)
      (gamma := gamma) (cot_alpha := cot_alpha) = VanGent2001.calculate_wave_runup_height_z1p (Hs := Hs)
      (Tmm10 := Tmm10) (gamma := gamma) (cot_alpha := cot_alpha) (c0 := 1.45) (c1 := 5.1)) ∧
    (∀ Tmm10 gamma cot_alpha, VanGent2001.calculate_wave_runup_height_z2p (Tmm10 := Tmm10) (gamma := gamma)
      (cot_alpha := cot_alpha) = VanGent2001.calculate_wave_runup_height_z2p (Tmm10 := Tmm10) (gamma :=
      gamma) (cot_alpha := cot_alpha) (Hm0 := nan) (Hs := nan) (c0 := 1.35) (c1 := 4.7)) := by
  refine ⟨?_, ?_, ?_, ?_⟩ <;> (intros; rfl)

/-- C81: functions/hydraulic/wave_transmission/briganti2003.py -/
theorem C81_briganti2003 :
    Briganti2003.check_validity = Briganti2003.check_validity (s0p := nan) (ksi_0p := nan) := by
  intros; rfl

/-- C81: functions/hydraulic/wave_transmission/dangremond1996.py -/
theorem C81_dangremond1996 :
    (∀ Hsi Tpi h Rc B cot_alpha, DAngremond1996.calculate_wave_transmission_Kt_impermeable (Hsi := Hsi) (Tpi
      := Tpi) (h := h) (Rc := Rc) (B := B) (cot_alpha := cot_alpha) =
      DAngremond1996.calculate_wave_transmission_Kt_impermeable (Hsi := Hsi) (Tpi := Tpi) (h := h) (Rc :=
      Rc) (B := B) (cot_alpha := cot_alpha) (C1 := 0.80)) ∧
    (∀ Hsi Tpi h Rc B cot_alpha, DAngremond1996.calculate_wave_transmission_Kt_permeable (Hsi := Hsi) (Tpi
      := Tpi) (h := h) (Rc := Rc) (B := B) (cot_alpha := cot_alpha) =
      DAngremond1996.calculate_wave_transmission_Kt_permeable (Hsi := Hsi) (Tpi := Tpi) (h := h) (Rc := Rc)
      (B := B) (cot_alpha := cot_alpha) (C1 := 0.64) (do_validity_check := true)) ∧
    (DAngremond1996.check_validity = DAngremond1996.check_validity (Kt := nan) (s0p := nan) (Hsi_over_h :=
      nan) (Rc_over_Hsi := nan)) := by
  refine ⟨?_, ?_, ?_⟩ <;> (intros; rfl)

/-- C81: functions/hydraulic/wave_transmission/goda1967_caisson.py -/
theorem C81_goda1967_caisson :
    ∀ Hsi Rc, Goda1967.calculate_wave_transmission_Kt (Hsi := Hsi) (Rc := Rc) =
      Goda1967.calculate_wave_transmission_Kt (Hsi := Hsi) (Rc := Rc) (alpha_1 := 2.2) (beta_1 := 0.4) := by
  intros; rfl

/-- C81: functions/hydraulic/wave_transmission/vangent2023.py -/
theorem C81_vangent2023 :
    (∀ Hm0 Tmm10 Rc B, VanGent2023.calculate_wave_transmission_Kt (Hm0 := Hm0) (Tmm10 := Tmm10) (Rc := Rc)
      (B := B) = VanGent2023.calculate_wave_transmission_Kt (Hm0 := Hm0) (Tmm10 := Tmm10) (Rc := Rc) (B :=
      B) (structure_type := "permeable")) ∧
    (VanGent2023.check_validity_range = VanGent2023.check_validity_range (Hm0 := nan) (Tmm10 := nan) (Rc :=
      nan) (B := nan) (structure_type := none)) := by
  refine ⟨?_, ?_⟩ <;> (intros; rfl)

/-- C81: functions/hydraulic/wave_transmission/vangent2024_setup.py -/
theorem C81_vangent2024_setup :
    VanGent2024.check_validity_range = VanGent2024.check_validity_range (Hm0 := nan) (Tmm10 := nan) (Rc :=
      nan) (B := nan) (hc := nan) (Dn50 := nan) (structure_type := "impermeable") := by
  intros; rfl

-- a call without density, gravity and coefficients
example : VanGentPozueta2004.calculate_damage_number_S 2 2 0.5 0.6 2 8 3 3 4 2000 (Dn50 := 0.5) (rho_rock := 2650) =
    VanGentPozueta2004.calculate_damage_number_S 2 2 0.5 0.6 2 8 3 3 4 2000 (Dn50 := 0.5) (M50 := nan)
      (rho_rock := 2650) (rho_water := 1025.0) (cs := npow 0.008 6.0) := rfl

end
