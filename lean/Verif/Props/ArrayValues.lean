import Verif.Lemmas.ArrayCore
import Verif.Lemmas.ArrayExample
import Verif.Lemmas.ArrayVanDerMeer
import Verif.Lemmas.ArrayCubes
import Verif.Lemmas.ArrayHudson1959
import Verif.Lemmas.ArrayConcreteHudson
import Verif.Lemmas.ArrayXbloc
import Verif.Lemmas.ArrayRockArmourOther
import Verif.Lemmas.ArrayEtemad2020
import Verif.Lemmas.ArrayToe
import Verif.Lemmas.ArrayRearSlope
import Verif.Lemmas.ArrayOvertoppingMore
import Verif.Lemmas.ArrayTransmission
import Verif.Lemmas.ArrayCrestWall
import Verif.Lemmas.ArrayTaw2002
import Verif.Lemmas.ArrayOvertopping
import Verif.Lemmas.ArrayTaw
import Verif.Lemmas.ArrayDike
import Verif.Lemmas.ArrayGoda1985

/-! # Calls with arrays give the values of the single cases (C83) -/

open Classical
open Arrays
noncomputable section
variable {n : ℕ}

theorem C83_CorePhysics_check_usage_Dn50_or_M50 [NeZero n] (Dn50 M50 rho_rock : Val n)
    (h_Dn50 : Dn50.Uniform)
    (h_M50 : M50.Uniform)
    (h_rho_rock : rho_rock.Uniform) :
    CaseByCase (Arr.CorePhysics.check_usage_Dn50_or_M50 Dn50 M50 rho_rock)
      (fun i => CorePhysics.check_usage_Dn50_or_M50 (Dn50.get i) (M50.get i) (rho_rock.get i)) :=
  (ArrProof.CorePhysics_check_usage_Dn50_or_M50 (U := False) Dn50 M50 rho_rock h_Dn50 h_M50 h_rho_rock).vals

example := C83_CorePhysics_check_usage_Dn50_or_M50 (n := 2) ArrEx.two ArrEx.two ArrEx.two (by arr_ex) (by
  arr_ex) (by arr_ex)

theorem C83_CorePhysics_check_usage_stabilitynumber [NeZero n] (Hs Dn Delta Ns : Option (Val n)) :
    CaseByCase (Arr.CorePhysics.check_usage_stabilitynumber Hs Dn Delta Ns)
      (fun i => CorePhysics.check_usage_stabilitynumber (Hs.map (·.get i)) (Dn.map (·.get i))
        (Delta.map (·.get i)) (Ns.map (·.get i))) :=
  (ArrProof.CorePhysics_check_usage_stabilitynumber (U := False) Hs Dn Delta Ns).vals

theorem C83_CorePhysics_calculate_wave_steepness_s (H T g : Val n) (i : Fin n) :
    (Arr.CorePhysics.calculate_wave_steepness_s H T g).get i =
      CorePhysics.calculate_wave_steepness_s (H.get i) (T.get i) (g.get i) :=
  ArrProof.CorePhysics_calculate_wave_steepness_s H T g i

theorem C83_CorePhysics_calculate_Iribarren_number_ksi (H T cot_alpha : Val n) (i : Fin n) :
    (Arr.CorePhysics.calculate_Iribarren_number_ksi H T cot_alpha).get i =
      CorePhysics.calculate_Iribarren_number_ksi (H.get i) (T.get i) (cot_alpha.get i) :=
  ArrProof.CorePhysics_calculate_Iribarren_number_ksi H T cot_alpha i

theorem C83_CorePhysics_calculate_critical_Iribarren_number_ksi_mc (c_pl c_s P cot_alpha : Val n) (i : Fin n)
    :
    (Arr.CorePhysics.calculate_critical_Iribarren_number_ksi_mc c_pl c_s P cot_alpha).get i =
      CorePhysics.calculate_critical_Iribarren_number_ksi_mc (c_pl.get i) (c_s.get i) (P.get i) (cot_alpha.get
        i) :=
  ArrProof.CorePhysics_calculate_critical_Iribarren_number_ksi_mc c_pl c_s P cot_alpha i

theorem C83_CorePhysics_calculate_buoyant_density_Delta (rho_rock rho_water : Val n) (i : Fin n) :
    (Arr.CorePhysics.calculate_buoyant_density_Delta rho_rock rho_water).get i =
      CorePhysics.calculate_buoyant_density_Delta (rho_rock.get i) (rho_water.get i) :=
  ArrProof.CorePhysics_calculate_buoyant_density_Delta rho_rock rho_water i

theorem C83_CorePhysics_calculate_stability_number_Ns (H D rho_rock rho_water : Val n) (i : Fin n) :
    (Arr.CorePhysics.calculate_stability_number_Ns H D rho_rock rho_water).get i =
      CorePhysics.calculate_stability_number_Ns (H.get i) (D.get i) (rho_rock.get i) (rho_water.get i) :=
  ArrProof.CorePhysics_calculate_stability_number_Ns H D rho_rock rho_water i

theorem C83_CorePhysics_calculate_M50_from_Dn50 (Dn50 rho_rock : Val n) (i : Fin n) :
    (Arr.CorePhysics.calculate_M50_from_Dn50 Dn50 rho_rock).get i =
      CorePhysics.calculate_M50_from_Dn50 (Dn50.get i) (rho_rock.get i) :=
  ArrProof.CorePhysics_calculate_M50_from_Dn50 Dn50 rho_rock i

theorem C83_CorePhysics_calculate_Dn50_from_M50 (M50 rho_rock : Val n) (i : Fin n) :
    (Arr.CorePhysics.calculate_Dn50_from_M50 M50 rho_rock).get i =
      CorePhysics.calculate_Dn50_from_M50 (M50.get i) (rho_rock.get i) :=
  ArrProof.CorePhysics_calculate_Dn50_from_M50 M50 rho_rock i

theorem C83_CorePhysics_calculate_S_from_Nod (Nod G nv : Val n) (i : Fin n) :
    (Arr.CorePhysics.calculate_S_from_Nod Nod G nv).get i =
      CorePhysics.calculate_S_from_Nod (Nod.get i) (G.get i) (nv.get i) :=
  ArrProof.CorePhysics_calculate_S_from_Nod Nod G nv i

theorem C83_CorePhysics_calculate_Nod_from_S (S G nv : Val n) (i : Fin n) :
    (Arr.CorePhysics.calculate_Nod_from_S S G nv).get i =
      CorePhysics.calculate_Nod_from_S (S.get i) (G.get i) (nv.get i) :=
  ArrProof.CorePhysics_calculate_Nod_from_S S G nv i

theorem C83_CorePhysics_calculate_local_wavelength_partial [NeZero n] (disper : PF → PF → PF → PF) (T h : Val
    n) (g : PF) (hT : T.isArray = true → h.isArray = true) (hh : h.isArray = true → 1 < n) :
    CaseByCase (Arr.CorePhysics.calculate_local_wavelength disper T h g)
      (fun i => pure (CorePhysics.calculate_local_wavelength disper (T.get i) (h.get i) g)) :=
  (ArrProof.CorePhysics_calculate_local_wavelength (U := False) disper T h g hT hh).vals

example := C83_CorePhysics_calculate_local_wavelength_partial (n := 2) (fun _ _ _ => .fin 1) ArrEx.two
  ArrEx.two (.fin 1) (by arr_ex) (by arr_ex)

theorem C83_VdM1988_calculate_correction_term_gamma_N (N_waves : Val n) (i : Fin n) :
    (Arr.VdM1988.calculate_correction_term_gamma_N N_waves).get i =
      VdM1988.calculate_correction_term_gamma_N (N_waves.get i) :=
  ArrProof.VdM1988_calculate_correction_term_gamma_N N_waves i

theorem C83_VdM1988_calculate_damage_number_S [NeZero n] (Hs H2p Tm N_waves cot_alpha P rho_armour Dn50 M50
    c_pl c_s rho_water : Val n)
    (h_Dn50 : Dn50.Uniform)
    (h_M50 : M50.Uniform)
    (h_rho_armour : rho_armour.Uniform) :
    CaseByCase (Arr.VdM1988.calculate_damage_number_S Hs H2p Tm N_waves cot_alpha P rho_armour Dn50 M50 c_pl
      c_s rho_water)
      (fun i => VdM1988.calculate_damage_number_S (Hs.get i) (H2p.get i) (Tm.get i) (N_waves.get i)
        (cot_alpha.get i) (P.get i) (rho_armour.get i) (Dn50.get i) (M50.get i) (c_pl.get i) (c_s.get i)
        (rho_water.get i)) :=
  (ArrProof.VdM1988_calculate_damage_number_S (U := False) Hs H2p Tm N_waves cot_alpha P rho_armour Dn50 M50
      c_pl c_s rho_water h_Dn50 h_M50 h_rho_armour (fun h => h.elim)).vals

example := C83_VdM1988_calculate_damage_number_S (n := 2) ArrEx.two ArrEx.two ArrEx.two ArrEx.two ArrEx.two
  ArrEx.two ArrEx.two ArrEx.two ArrEx.two ArrEx.two ArrEx.two ArrEx.two (by arr_ex) (by arr_ex) (by arr_ex)

theorem C83_VdM1988_calculate_nominal_rock_diameter_Dn50 [NeZero n] (Hs H2p Tm N_waves cot_alpha P rho_armour
    S c_pl c_s rho_water : Val n) :
    CaseByCase (Arr.VdM1988.calculate_nominal_rock_diameter_Dn50 Hs H2p Tm N_waves cot_alpha P rho_armour S
      c_pl c_s rho_water)
      (fun i => VdM1988.calculate_nominal_rock_diameter_Dn50 (Hs.get i) (H2p.get i) (Tm.get i) (N_waves.get i)
        (cot_alpha.get i) (P.get i) (rho_armour.get i) (S.get i) (c_pl.get i) (c_s.get i) (rho_water.get i))
        :=
  (ArrProof.VdM1988_calculate_nominal_rock_diameter_Dn50 (U := False) Hs H2p Tm N_waves cot_alpha P rho_armour
      S c_pl c_s rho_water (fun h => h.elim)).vals

theorem C83_VdM1988_calculate_significant_wave_height_Hs [NeZero n] (ratio_H2p_Hs Tm N_waves cot_alpha P
    rho_armour S Dn50 M50 c_pl c_s g rho_water : Val n)
    (h_Dn50 : Dn50.Uniform)
    (h_M50 : M50.Uniform)
    (h_rho_armour : rho_armour.Uniform) :
    CaseByCase (Arr.VdM1988.calculate_significant_wave_height_Hs ratio_H2p_Hs Tm N_waves cot_alpha P
      rho_armour S Dn50 M50 c_pl c_s g rho_water)
      (fun i => VdM1988.calculate_significant_wave_height_Hs (ratio_H2p_Hs.get i) (Tm.get i) (N_waves.get i)
        (cot_alpha.get i) (P.get i) (rho_armour.get i) (S.get i) (Dn50.get i) (M50.get i) (c_pl.get i)
        (c_s.get i) (g.get i) (rho_water.get i)) :=
  (ArrProof.VdM1988_calculate_significant_wave_height_Hs ratio_H2p_Hs Tm N_waves cot_alpha P rho_armour S Dn50
      M50 c_pl c_s g rho_water h_Dn50 h_M50 h_rho_armour).vals

example := C83_VdM1988_calculate_significant_wave_height_Hs (n := 2) ArrEx.two ArrEx.two ArrEx.two ArrEx.two
  ArrEx.two ArrEx.two ArrEx.two ArrEx.two ArrEx.two ArrEx.two ArrEx.two ArrEx.two ArrEx.two (by arr_ex) (by
  arr_ex) (by arr_ex)

theorem C83_VdMModified_calculate_damage_number_S [NeZero n] (Hs H2p Tmm10 N_waves cot_alpha P rho_armour Dn50
    M50 c_pl c_s rho_water : Val n)
    (h_Dn50 : Dn50.Uniform)
    (h_M50 : M50.Uniform)
    (h_rho_armour : rho_armour.Uniform) :
    CaseByCase (Arr.VdMModified.calculate_damage_number_S Hs H2p Tmm10 N_waves cot_alpha P rho_armour Dn50 M50
      c_pl c_s rho_water)
      (fun i => VdMModified.calculate_damage_number_S (Hs.get i) (H2p.get i) (Tmm10.get i) (N_waves.get i)
        (cot_alpha.get i) (P.get i) (rho_armour.get i) (Dn50.get i) (M50.get i) (c_pl.get i) (c_s.get i)
        (rho_water.get i)) :=
  (ArrProof.VdMModified_calculate_damage_number_S Hs H2p Tmm10 N_waves cot_alpha P rho_armour Dn50 M50 c_pl
      c_s rho_water h_Dn50 h_M50 h_rho_armour).vals

example := C83_VdMModified_calculate_damage_number_S (n := 2) ArrEx.two ArrEx.two ArrEx.two ArrEx.two
  ArrEx.two ArrEx.two ArrEx.two ArrEx.two ArrEx.two ArrEx.two ArrEx.two ArrEx.two (by arr_ex) (by arr_ex)
  (by arr_ex)

theorem C83_VdMModified_calculate_nominal_rock_diameter_Dn50 [NeZero n] (Hs H2p Tmm10 N_waves cot_alpha P
    rho_armour S c_pl c_s rho_water : Val n) :
    CaseByCase (Arr.VdMModified.calculate_nominal_rock_diameter_Dn50 Hs H2p Tmm10 N_waves cot_alpha P
      rho_armour S c_pl c_s rho_water)
      (fun i => VdMModified.calculate_nominal_rock_diameter_Dn50 (Hs.get i) (H2p.get i) (Tmm10.get i)
        (N_waves.get i) (cot_alpha.get i) (P.get i) (rho_armour.get i) (S.get i) (c_pl.get i) (c_s.get i)
        (rho_water.get i)) :=
  (ArrProof.VdMModified_calculate_nominal_rock_diameter_Dn50 Hs H2p Tmm10 N_waves cot_alpha P rho_armour S
      c_pl c_s rho_water).vals

theorem C83_VdMModified_calculate_significant_wave_height_Hs [NeZero n] (ratio_H2p_Hs Tmm10 N_waves cot_alpha
    P rho_armour S Dn50 M50 c_pl c_s g rho_water : Val n)
    (h_Dn50 : Dn50.Uniform)
    (h_M50 : M50.Uniform)
    (h_rho_armour : rho_armour.Uniform) :
    CaseByCase (Arr.VdMModified.calculate_significant_wave_height_Hs ratio_H2p_Hs Tmm10 N_waves cot_alpha P
      rho_armour S Dn50 M50 c_pl c_s g rho_water)
      (fun i => VdMModified.calculate_significant_wave_height_Hs (ratio_H2p_Hs.get i) (Tmm10.get i)
        (N_waves.get i) (cot_alpha.get i) (P.get i) (rho_armour.get i) (S.get i) (Dn50.get i) (M50.get i)
        (c_pl.get i) (c_s.get i) (g.get i) (rho_water.get i)) :=
  (ArrProof.VdMModified_calculate_significant_wave_height_Hs ratio_H2p_Hs Tmm10 N_waves cot_alpha P rho_armour
      S Dn50 M50 c_pl c_s g rho_water h_Dn50 h_M50 h_rho_armour).vals

example := C83_VdMModified_calculate_significant_wave_height_Hs (n := 2) ArrEx.two ArrEx.two ArrEx.two
  ArrEx.two ArrEx.two ArrEx.two ArrEx.two ArrEx.two ArrEx.two ArrEx.two ArrEx.two ArrEx.two ArrEx.two (by
  arr_ex) (by arr_ex) (by arr_ex)

theorem C83_VdM2021_calculate_damage_number_S [NeZero n] (Hs Tmm10 N_waves cot_alpha P rho_armour Dn50 M50
    c_pl c_s c_pl_mult c_s_mult : Val n)
    (h_Dn50 : Dn50.Uniform)
    (h_M50 : M50.Uniform)
    (h_rho_armour : rho_armour.Uniform) :
    CaseByCase (Arr.VdM2021.calculate_damage_number_S Hs Tmm10 N_waves cot_alpha P rho_armour Dn50 M50 c_pl
      c_s c_pl_mult c_s_mult)
      (fun i => VdM2021.calculate_damage_number_S (Hs.get i) (Tmm10.get i) (N_waves.get i) (cot_alpha.get i)
        (P.get i) (rho_armour.get i) (Dn50.get i) (M50.get i) (c_pl.get i) (c_s.get i) (c_pl_mult.get i)
        (c_s_mult.get i)) :=
  (ArrProof.VdM2021_calculate_damage_number_S Hs Tmm10 N_waves cot_alpha P rho_armour Dn50 M50 c_pl c_s
      c_pl_mult c_s_mult h_Dn50 h_M50 h_rho_armour).vals

example := C83_VdM2021_calculate_damage_number_S (n := 2) ArrEx.two ArrEx.two ArrEx.two ArrEx.two ArrEx.two
  ArrEx.two ArrEx.two ArrEx.two ArrEx.two ArrEx.two ArrEx.two ArrEx.two (by arr_ex) (by arr_ex) (by arr_ex)

theorem C83_VdM2021_calculate_nominal_rock_diameter_Dn50 [NeZero n] (Hs Tmm10 N_waves cot_alpha P rho_armour S
    c_pl c_s c_pl_mult c_s_mult : Val n) :
    CaseByCase (Arr.VdM2021.calculate_nominal_rock_diameter_Dn50 Hs Tmm10 N_waves cot_alpha P rho_armour S
      c_pl c_s c_pl_mult c_s_mult)
      (fun i => VdM2021.calculate_nominal_rock_diameter_Dn50 (Hs.get i) (Tmm10.get i) (N_waves.get i)
        (cot_alpha.get i) (P.get i) (rho_armour.get i) (S.get i) (c_pl.get i) (c_s.get i) (c_pl_mult.get i)
        (c_s_mult.get i)) :=
  (ArrProof.VdM2021_calculate_nominal_rock_diameter_Dn50 Hs Tmm10 N_waves cot_alpha P rho_armour S c_pl c_s
      c_pl_mult c_s_mult).vals

theorem C83_VdM2021_calculate_significant_wave_height_Hs [NeZero n] (Tmm10 N_waves cot_alpha P rho_armour S
    Dn50 M50 c_pl c_s c_pl_mult c_s_mult g : Val n)
    (h_Dn50 : Dn50.Uniform)
    (h_M50 : M50.Uniform)
    (h_rho_armour : rho_armour.Uniform) :
    CaseByCase (Arr.VdM2021.calculate_significant_wave_height_Hs Tmm10 N_waves cot_alpha P rho_armour S Dn50
      M50 c_pl c_s c_pl_mult c_s_mult g)
      (fun i => VdM2021.calculate_significant_wave_height_Hs (Tmm10.get i) (N_waves.get i) (cot_alpha.get i)
        (P.get i) (rho_armour.get i) (S.get i) (Dn50.get i) (M50.get i) (c_pl.get i) (c_s.get i)
        (c_pl_mult.get i) (c_s_mult.get i) (g.get i)) :=
  (ArrProof.VdM2021_calculate_significant_wave_height_Hs Tmm10 N_waves cot_alpha P rho_armour S Dn50 M50 c_pl
      c_s c_pl_mult c_s_mult g h_Dn50 h_M50 h_rho_armour).vals

example := C83_VdM2021_calculate_significant_wave_height_Hs (n := 2) ArrEx.two ArrEx.two ArrEx.two ArrEx.two
  ArrEx.two ArrEx.two ArrEx.two ArrEx.two ArrEx.two ArrEx.two ArrEx.two ArrEx.two ArrEx.two (by arr_ex) (by
  arr_ex) (by arr_ex)

theorem C83_CubesVdM_calculate_nominal_diameter_Dn_vanDerMeer1988 [NeZero n] (Hs Tm rho_water rho_armour
    N_waves cot_alpha Nod : Val n) :
    CaseByCase (Arr.CubesVdM.calculate_nominal_diameter_Dn_vanDerMeer1988 Hs Tm rho_water rho_armour N_waves
      cot_alpha Nod)
      (fun i => CubesVdM.calculate_nominal_diameter_Dn_vanDerMeer1988 (Hs.get i) (Tm.get i) (rho_water.get i)
        (rho_armour.get i) (N_waves.get i) (cot_alpha.get i) (Nod.get i)) :=
  (ArrProof.CubesVdM_calculate_nominal_diameter_Dn_vanDerMeer1988 (U := False) Hs Tm rho_water rho_armour
      N_waves cot_alpha Nod (fun h => h.elim)).vals

theorem C83_CubesVdM_calculate_wave_height_Hs_vanDerMeer1988 [NeZero n] (Dn s0m rho_water rho_armour N_waves
    cot_alpha Nod : Val n) :
    CaseByCase (Arr.CubesVdM.calculate_wave_height_Hs_vanDerMeer1988 Dn s0m rho_water rho_armour N_waves
      cot_alpha Nod)
      (fun i => CubesVdM.calculate_wave_height_Hs_vanDerMeer1988 (Dn.get i) (s0m.get i) (rho_water.get i)
        (rho_armour.get i) (N_waves.get i) (cot_alpha.get i) (Nod.get i)) :=
  (ArrProof.CubesVdM_calculate_wave_height_Hs_vanDerMeer1988 Dn s0m rho_water rho_armour N_waves cot_alpha
      Nod).vals

theorem C83_CubesVdM_calculate_damage_Nod_vanDerMeer1988 [NeZero n] (Hs Dn s0m rho_water rho_armour N_waves
    cot_alpha : Val n) :
    CaseByCase (Arr.CubesVdM.calculate_damage_Nod_vanDerMeer1988 Hs Dn s0m rho_water rho_armour N_waves
      cot_alpha)
      (fun i => CubesVdM.calculate_damage_Nod_vanDerMeer1988 (Hs.get i) (Dn.get i) (s0m.get i) (rho_water.get
        i) (rho_armour.get i) (N_waves.get i) (cot_alpha.get i)) :=
  (ArrProof.CubesVdM_calculate_damage_Nod_vanDerMeer1988 Hs Dn s0m rho_water rho_armour N_waves
      cot_alpha).vals

theorem C83_CubesSingle_calculate_unit_mass_M_start_of_damage [NeZero n] (Hs rho_water rho_armour Ns : Val n)
    :
    CaseByCase (Arr.CubesSingle.calculate_unit_mass_M_start_of_damage Hs rho_water rho_armour Ns)
      (fun i => CubesSingle.calculate_unit_mass_M_start_of_damage (Hs.get i) (rho_water.get i) (rho_armour.get
        i) (Ns.get i)) :=
  (ArrProof.CubesSingle_calculate_unit_mass_M_start_of_damage (U := False) Hs rho_water rho_armour Ns (fun h
      => h.elim)).vals

theorem C83_CubesSingle_calculate_unit_mass_M_failure [NeZero n] (Hs rho_water rho_armour Ns : Val n) :
    CaseByCase (Arr.CubesSingle.calculate_unit_mass_M_failure Hs rho_water rho_armour Ns)
      (fun i => CubesSingle.calculate_unit_mass_M_failure (Hs.get i) (rho_water.get i) (rho_armour.get i)
        (Ns.get i)) :=
  (ArrProof.CubesSingle_calculate_unit_mass_M_failure (U := False) Hs rho_water rho_armour Ns (fun h =>
      h.elim)).vals

theorem C83_CubesSingle_calculate_significant_wave_height_Hs_start_of_damage [NeZero n] (M rho_water
    rho_armour Ns : Val n) :
    CaseByCase (Arr.CubesSingle.calculate_significant_wave_height_Hs_start_of_damage M rho_water rho_armour
      Ns)
      (fun i => CubesSingle.calculate_significant_wave_height_Hs_start_of_damage (M.get i) (rho_water.get i)
        (rho_armour.get i) (Ns.get i)) :=
  (ArrProof.CubesSingle_calculate_significant_wave_height_Hs_start_of_damage (U := False) M rho_water
      rho_armour Ns (fun h => h.elim)).vals

theorem C83_CubesSingle_calculate_significant_wave_height_Hs_failure [NeZero n] (M rho_water rho_armour Ns :
    Val n) :
    CaseByCase (Arr.CubesSingle.calculate_significant_wave_height_Hs_failure M rho_water rho_armour Ns)
      (fun i => CubesSingle.calculate_significant_wave_height_Hs_failure (M.get i) (rho_water.get i)
        (rho_armour.get i) (Ns.get i)) :=
  (ArrProof.CubesSingle_calculate_significant_wave_height_Hs_failure (U := False) M rho_water rho_armour Ns
      (fun h => h.elim)).vals

theorem C83_Hudson1959_calculate_median_rock_mass_M50_no_damage (Hs rho_water rho_armour KD cot_alpha alpha_Hs
    : Val n) (i : Fin n) :
    (Arr.Hudson1959.calculate_median_rock_mass_M50_no_damage Hs rho_water rho_armour KD cot_alpha
      alpha_Hs).get i =
      Hudson1959.calculate_median_rock_mass_M50_no_damage (Hs.get i) (rho_water.get i) (rho_armour.get i)
        (KD.get i) (cot_alpha.get i) (alpha_Hs.get i) :=
  ArrProof.Hudson1959_calculate_median_rock_mass_M50_no_damage Hs rho_water rho_armour KD cot_alpha alpha_Hs i

theorem C83_Hudson1959_calculate_significant_wave_height_Hs_no_damage (M50 rho_water rho_armour KD cot_alpha
    alpha_Hs : Val n) (i : Fin n) :
    (Arr.Hudson1959.calculate_significant_wave_height_Hs_no_damage M50 rho_water rho_armour KD cot_alpha
      alpha_Hs).get i =
      Hudson1959.calculate_significant_wave_height_Hs_no_damage (M50.get i) (rho_water.get i) (rho_armour.get
        i) (KD.get i) (cot_alpha.get i) (alpha_Hs.get i) :=
  ArrProof.Hudson1959_calculate_significant_wave_height_Hs_no_damage M50 rho_water rho_armour KD cot_alpha
      alpha_Hs i

theorem C83_Hudson1959_lookup_table_damage_factors_partial [NeZero n] (damage_percentage : Val n) (rock_type :
    String) (h : ∀ i, damage_percentage.get i < 100) :
    CaseByCase (Arr.Hudson1959.lookup_table_damage_factors damage_percentage rock_type)
      (fun i => Hudson1959.lookup_table_damage_factors (damage_percentage.get i) rock_type) :=
  (ArrProof.Hudson1959_lookup_table_damage_factors (U := False) damage_percentage rock_type h).vals

example := C83_Hudson1959_lookup_table_damage_factors_partial (n := 2) ArrEx.two "rough" (by arr_ex)

theorem C83_Hudson1959_calculate_median_rock_mass_M50_partial [NeZero n] (Hs rho_water rho_armour KD cot_alpha
    damage_percentage : Val n) (rock_type : String) (alpha_Hs : Val n)
    (h_damage : ∀ i, damage_percentage.get i < 100) :
    CaseByCase (Arr.Hudson1959.calculate_median_rock_mass_M50 Hs rho_water rho_armour KD cot_alpha
      damage_percentage rock_type alpha_Hs)
      (fun i => Hudson1959.calculate_median_rock_mass_M50 (Hs.get i) (rho_water.get i) (rho_armour.get i)
        (KD.get i) (cot_alpha.get i) (damage_percentage.get i) rock_type (alpha_Hs.get i)) :=
  (ArrProof.Hudson1959_calculate_median_rock_mass_M50 (U := False) Hs rho_water rho_armour KD cot_alpha
      damage_percentage rock_type alpha_Hs h_damage (fun h => h.elim)).vals

example := C83_Hudson1959_calculate_median_rock_mass_M50_partial (n := 2) ArrEx.two ArrEx.two ArrEx.two
  ArrEx.two ArrEx.two ArrEx.two "rough" ArrEx.two (by arr_ex)

theorem C83_Hudson1959_calculate_significant_wave_height_Hs_partial [NeZero n] (M50 rho_water rho_armour KD
    cot_alpha damage_percentage : Val n) (rock_type : String) (alpha_Hs : Val n)
    (h_damage : ∀ i, damage_percentage.get i < 100) :
    CaseByCase (Arr.Hudson1959.calculate_significant_wave_height_Hs M50 rho_water rho_armour KD cot_alpha
      damage_percentage rock_type alpha_Hs)
      (fun i => Hudson1959.calculate_significant_wave_height_Hs (M50.get i) (rho_water.get i) (rho_armour.get
        i) (KD.get i) (cot_alpha.get i) (damage_percentage.get i) rock_type (alpha_Hs.get i)) :=
  (ArrProof.Hudson1959_calculate_significant_wave_height_Hs (U := False) M50 rho_water rho_armour KD cot_alpha
      damage_percentage rock_type alpha_Hs h_damage (fun h => h.elim)).vals

example := C83_Hudson1959_calculate_significant_wave_height_Hs_partial (n := 2) ArrEx.two ArrEx.two
  ArrEx.two ArrEx.two ArrEx.two ArrEx.two "rough" ArrEx.two (by arr_ex)

theorem C83_Accropode_calculate_unit_mass_M [NeZero n] (Hs rho_water rho_armour KD cot_alpha alpha_Hs : Val n)
    :
    CaseByCase (Arr.Accropode.calculate_unit_mass_M Hs rho_water rho_armour KD cot_alpha alpha_Hs)
      (fun i => Accropode.calculate_unit_mass_M (Hs.get i) (rho_water.get i) (rho_armour.get i) (KD.get i)
        (cot_alpha.get i) (alpha_Hs.get i)) :=
  (ArrProof.Accropode_calculate_unit_mass_M (U := False) Hs rho_water rho_armour KD cot_alpha alpha_Hs (fun h
      => h.elim)).vals

theorem C83_Accropode_calculate_significant_wave_height_Hs [NeZero n] (M rho_water rho_armour KD cot_alpha
    alpha_Hs : Val n) :
    CaseByCase (Arr.Accropode.calculate_significant_wave_height_Hs M rho_water rho_armour KD cot_alpha
      alpha_Hs)
      (fun i => Accropode.calculate_significant_wave_height_Hs (M.get i) (rho_water.get i) (rho_armour.get i)
        (KD.get i) (cot_alpha.get i) (alpha_Hs.get i)) :=
  (ArrProof.Accropode_calculate_significant_wave_height_Hs (U := False) M rho_water rho_armour KD cot_alpha
      alpha_Hs (fun h => h.elim)).vals

theorem C83_Accropode_calculate_KD_breaking_trunk_from_seabed_slope [NeZero n] (seabed_slope_perc : Val n) :
    CaseByCase (Arr.Accropode.calculate_KD_breaking_trunk_from_seabed_slope seabed_slope_perc)
      (fun i => Accropode.calculate_KD_breaking_trunk_from_seabed_slope (seabed_slope_perc.get i)) :=
  (ArrProof.Accropode_calculate_KD_breaking_trunk_from_seabed_slope (U := False) seabed_slope_perc (fun h =>
      h.elim)).vals

theorem C83_Accropode_calculate_KD_nonbreaking_trunk_from_seabed_slope (i : Fin n) :
    (Arr.Accropode.calculate_KD_nonbreaking_trunk_from_seabed_slope ).get i =
      Accropode.calculate_KD_nonbreaking_trunk_from_seabed_slope :=
  ArrProof.Accropode_calculate_KD_nonbreaking_trunk_from_seabed_slope i

theorem C83_Accropode2_calculate_unit_mass_M [NeZero n] (Hs rho_water rho_armour KD cot_alpha alpha_Hs : Val
    n) :
    CaseByCase (Arr.Accropode2.calculate_unit_mass_M Hs rho_water rho_armour KD cot_alpha alpha_Hs)
      (fun i => Accropode2.calculate_unit_mass_M (Hs.get i) (rho_water.get i) (rho_armour.get i) (KD.get i)
        (cot_alpha.get i) (alpha_Hs.get i)) :=
  (ArrProof.Accropode2_calculate_unit_mass_M (U := False) Hs rho_water rho_armour KD cot_alpha alpha_Hs (fun h
      => h.elim)).vals

theorem C83_Accropode2_calculate_significant_wave_height_Hs [NeZero n] (M rho_water rho_armour KD cot_alpha
    alpha_Hs : Val n) :
    CaseByCase (Arr.Accropode2.calculate_significant_wave_height_Hs M rho_water rho_armour KD cot_alpha
      alpha_Hs)
      (fun i => Accropode2.calculate_significant_wave_height_Hs (M.get i) (rho_water.get i) (rho_armour.get i)
        (KD.get i) (cot_alpha.get i) (alpha_Hs.get i)) :=
  (ArrProof.Accropode2_calculate_significant_wave_height_Hs (U := False) M rho_water rho_armour KD cot_alpha
      alpha_Hs (fun h => h.elim)).vals

theorem C83_Accropode2_calculate_KD_breaking_trunk_from_seabed_slope [NeZero n] (seabed_slope_perc : Val n) :
    CaseByCase (Arr.Accropode2.calculate_KD_breaking_trunk_from_seabed_slope seabed_slope_perc)
      (fun i => Accropode2.calculate_KD_breaking_trunk_from_seabed_slope (seabed_slope_perc.get i)) :=
  (ArrProof.Accropode2_calculate_KD_breaking_trunk_from_seabed_slope (U := False) seabed_slope_perc (fun h =>
      h.elim)).vals

theorem C83_Accropode2_calculate_KD_nonbreaking_trunk_from_seabed_slope (i : Fin n) :
    (Arr.Accropode2.calculate_KD_nonbreaking_trunk_from_seabed_slope ).get i =
      Accropode2.calculate_KD_nonbreaking_trunk_from_seabed_slope :=
  ArrProof.Accropode2_calculate_KD_nonbreaking_trunk_from_seabed_slope i

theorem C83_CoreLoc_calculate_unit_mass_M (Hs rho_water rho_armour KD cot_alpha alpha_Hs : Val n) (i : Fin n)
    :
    (Arr.CoreLoc.calculate_unit_mass_M Hs rho_water rho_armour KD cot_alpha alpha_Hs).get i =
      CoreLoc.calculate_unit_mass_M (Hs.get i) (rho_water.get i) (rho_armour.get i) (KD.get i) (cot_alpha.get
        i) (alpha_Hs.get i) :=
  ArrProof.CoreLoc_calculate_unit_mass_M Hs rho_water rho_armour KD cot_alpha alpha_Hs i

theorem C83_CoreLoc_calculate_significant_wave_height_Hs (M rho_water rho_armour KD cot_alpha alpha_Hs : Val
    n) (i : Fin n) :
    (Arr.CoreLoc.calculate_significant_wave_height_Hs M rho_water rho_armour KD cot_alpha alpha_Hs).get i =
      CoreLoc.calculate_significant_wave_height_Hs (M.get i) (rho_water.get i) (rho_armour.get i) (KD.get i)
        (cot_alpha.get i) (alpha_Hs.get i) :=
  ArrProof.CoreLoc_calculate_significant_wave_height_Hs M rho_water rho_armour KD cot_alpha alpha_Hs i

theorem C83_CoreLoc_calculate_KD_breaking_trunk_from_seabed_slope [NeZero n] (seabed_slope_perc : Val n) :
    CaseByCase (Arr.CoreLoc.calculate_KD_breaking_trunk_from_seabed_slope seabed_slope_perc)
      (fun i => CoreLoc.calculate_KD_breaking_trunk_from_seabed_slope (seabed_slope_perc.get i)) :=
  (ArrProof.CoreLoc_calculate_KD_breaking_trunk_from_seabed_slope (U := False) seabed_slope_perc (fun h =>
      h.elim)).vals

theorem C83_CoreLoc_calculate_KD_nonbreaking_trunk_from_seabed_slope (i : Fin n) :
    (Arr.CoreLoc.calculate_KD_nonbreaking_trunk_from_seabed_slope ).get i =
      CoreLoc.calculate_KD_nonbreaking_trunk_from_seabed_slope :=
  ArrProof.CoreLoc_calculate_KD_nonbreaking_trunk_from_seabed_slope i

theorem C83_CubesHudson_calculate_unit_mass_M (Hs rho_water rho_armour KD cot_alpha alpha_Hs : Val n) (i : Fin
    n) :
    (Arr.CubesHudson.calculate_unit_mass_M Hs rho_water rho_armour KD cot_alpha alpha_Hs).get i =
      CubesHudson.calculate_unit_mass_M (Hs.get i) (rho_water.get i) (rho_armour.get i) (KD.get i)
        (cot_alpha.get i) (alpha_Hs.get i) :=
  ArrProof.CubesHudson_calculate_unit_mass_M Hs rho_water rho_armour KD cot_alpha alpha_Hs i

theorem C83_CubesHudson_calculate_significant_wave_height_Hs (M rho_water rho_armour KD cot_alpha alpha_Hs :
    Val n) (i : Fin n) :
    (Arr.CubesHudson.calculate_significant_wave_height_Hs M rho_water rho_armour KD cot_alpha alpha_Hs).get i
      =
      CubesHudson.calculate_significant_wave_height_Hs (M.get i) (rho_water.get i) (rho_armour.get i) (KD.get
        i) (cot_alpha.get i) (alpha_Hs.get i) :=
  ArrProof.CubesHudson_calculate_significant_wave_height_Hs M rho_water rho_armour KD cot_alpha alpha_Hs i

theorem C83_Cubipod_calculate_unit_mass_M (Hs rho_water rho_armour KD cot_alpha alpha_Hs : Val n) (i : Fin n)
    :
    (Arr.Cubipod.calculate_unit_mass_M Hs rho_water rho_armour KD cot_alpha alpha_Hs).get i =
      Cubipod.calculate_unit_mass_M (Hs.get i) (rho_water.get i) (rho_armour.get i) (KD.get i) (cot_alpha.get
        i) (alpha_Hs.get i) :=
  ArrProof.Cubipod_calculate_unit_mass_M Hs rho_water rho_armour KD cot_alpha alpha_Hs i

theorem C83_Cubipod_calculate_significant_wave_height_Hs (M rho_water rho_armour KD cot_alpha alpha_Hs : Val
    n) (i : Fin n) :
    (Arr.Cubipod.calculate_significant_wave_height_Hs M rho_water rho_armour KD cot_alpha alpha_Hs).get i =
      Cubipod.calculate_significant_wave_height_Hs (M.get i) (rho_water.get i) (rho_armour.get i) (KD.get i)
        (cot_alpha.get i) (alpha_Hs.get i) :=
  ArrProof.Cubipod_calculate_significant_wave_height_Hs M rho_water rho_armour KD cot_alpha alpha_Hs i

theorem C83_Tetrapod_calculate_unit_mass_M (Hs rho_water rho_armour KD cot_alpha alpha_Hs : Val n) (i : Fin n)
    :
    (Arr.Tetrapod.calculate_unit_mass_M Hs rho_water rho_armour KD cot_alpha alpha_Hs).get i =
      Tetrapod.calculate_unit_mass_M (Hs.get i) (rho_water.get i) (rho_armour.get i) (KD.get i) (cot_alpha.get
        i) (alpha_Hs.get i) :=
  ArrProof.Tetrapod_calculate_unit_mass_M Hs rho_water rho_armour KD cot_alpha alpha_Hs i

theorem C83_Tetrapod_calculate_significant_wave_height_Hs (M rho_water rho_armour KD cot_alpha alpha_Hs : Val
    n) (i : Fin n) :
    (Arr.Tetrapod.calculate_significant_wave_height_Hs M rho_water rho_armour KD cot_alpha alpha_Hs).get i =
      Tetrapod.calculate_significant_wave_height_Hs (M.get i) (rho_water.get i) (rho_armour.get i) (KD.get i)
        (cot_alpha.get i) (alpha_Hs.get i) :=
  ArrProof.Tetrapod_calculate_significant_wave_height_Hs M rho_water rho_armour KD cot_alpha alpha_Hs i

theorem C83_Xbloc_calculate_wave_height_Hs_from_V (V rho_water rho_armour total_correction_factor : Val n) (i
    : Fin n) :
    (Arr.Xbloc.calculate_wave_height_Hs_from_V V rho_water rho_armour total_correction_factor).get i =
      Xbloc.calculate_wave_height_Hs_from_V (V.get i) (rho_water.get i) (rho_armour.get i)
        (total_correction_factor.get i) :=
  ArrProof.Xbloc_calculate_wave_height_Hs_from_V V rho_water rho_armour total_correction_factor i

theorem C83_Xbloc_calculate_wave_height_Hs_from_M (M rho_water rho_armour total_correction_factor : Val n) (i
    : Fin n) :
    (Arr.Xbloc.calculate_wave_height_Hs_from_M M rho_water rho_armour total_correction_factor).get i =
      Xbloc.calculate_wave_height_Hs_from_M (M.get i) (rho_water.get i) (rho_armour.get i)
        (total_correction_factor.get i) :=
  ArrProof.Xbloc_calculate_wave_height_Hs_from_M M rho_water rho_armour total_correction_factor i

theorem C83_Xbloc_calculate_unit_volume_V (Hs rho_water rho_armour total_correction_factor : Val n) (i : Fin
    n) :
    (Arr.Xbloc.calculate_unit_volume_V Hs rho_water rho_armour total_correction_factor).get i =
      Xbloc.calculate_unit_volume_V (Hs.get i) (rho_water.get i) (rho_armour.get i)
        (total_correction_factor.get i) :=
  ArrProof.Xbloc_calculate_unit_volume_V Hs rho_water rho_armour total_correction_factor i

theorem C83_Xbloc_calculate_unit_mass_M (Hs rho_water rho_armour total_correction_factor : Val n) (i : Fin n)
    :
    (Arr.Xbloc.calculate_unit_mass_M Hs rho_water rho_armour total_correction_factor).get i =
      Xbloc.calculate_unit_mass_M (Hs.get i) (rho_water.get i) (rho_armour.get i) (total_correction_factor.get
        i) :=
  ArrProof.Xbloc_calculate_unit_mass_M Hs rho_water rho_armour total_correction_factor i

theorem C83_XblocPlus_calculate_wave_height_Hs_from_V (V rho_water rho_armour total_correction_factor : Val n)
    (i : Fin n) :
    (Arr.XblocPlus.calculate_wave_height_Hs_from_V V rho_water rho_armour total_correction_factor).get i =
      XblocPlus.calculate_wave_height_Hs_from_V (V.get i) (rho_water.get i) (rho_armour.get i)
        (total_correction_factor.get i) :=
  ArrProof.XblocPlus_calculate_wave_height_Hs_from_V V rho_water rho_armour total_correction_factor i

theorem C83_XblocPlus_calculate_wave_height_Hs_from_M (M rho_water rho_armour total_correction_factor : Val n)
    (i : Fin n) :
    (Arr.XblocPlus.calculate_wave_height_Hs_from_M M rho_water rho_armour total_correction_factor).get i =
      XblocPlus.calculate_wave_height_Hs_from_M (M.get i) (rho_water.get i) (rho_armour.get i)
        (total_correction_factor.get i) :=
  ArrProof.XblocPlus_calculate_wave_height_Hs_from_M M rho_water rho_armour total_correction_factor i

theorem C83_XblocPlus_calculate_unit_volume_V (Hs rho_water rho_armour total_correction_factor : Val n) (i :
    Fin n) :
    (Arr.XblocPlus.calculate_unit_volume_V Hs rho_water rho_armour total_correction_factor).get i =
      XblocPlus.calculate_unit_volume_V (Hs.get i) (rho_water.get i) (rho_armour.get i)
        (total_correction_factor.get i) :=
  ArrProof.XblocPlus_calculate_unit_volume_V Hs rho_water rho_armour total_correction_factor i

theorem C83_XblocPlus_calculate_unit_mass_M (Hs rho_water rho_armour total_correction_factor : Val n) (i : Fin
    n) :
    (Arr.XblocPlus.calculate_unit_mass_M Hs rho_water rho_armour total_correction_factor).get i =
      XblocPlus.calculate_unit_mass_M (Hs.get i) (rho_water.get i) (rho_armour.get i)
        (total_correction_factor.get i) :=
  ArrProof.XblocPlus_calculate_unit_mass_M Hs rho_water rho_armour total_correction_factor i

theorem C83_Jumelet2024_calculate_fraction_plunging_waves_Fp (ksi_mm10 : Val n) (i : Fin n) :
    (Arr.Jumelet2024.calculate_fraction_plunging_waves_Fp ksi_mm10).get i =
      Jumelet2024.calculate_fraction_plunging_waves_Fp (ksi_mm10.get i) :=
  ArrProof.Jumelet2024_calculate_fraction_plunging_waves_Fp ksi_mm10 i

theorem C83_Jumelet2024_calculate_damage_number_S [NeZero n] (Hs Tmm10 N_waves cot_alpha rho_armour Dn50 M50
    c_pl rho_water : Val n)
    (h_Dn50 : Dn50.Uniform)
    (h_M50 : M50.Uniform)
    (h_rho_armour : rho_armour.Uniform) :
    CaseByCase (Arr.Jumelet2024.calculate_damage_number_S Hs Tmm10 N_waves cot_alpha rho_armour Dn50 M50 c_pl
      rho_water)
      (fun i => Jumelet2024.calculate_damage_number_S (Hs.get i) (Tmm10.get i) (N_waves.get i) (cot_alpha.get
        i) (rho_armour.get i) (Dn50.get i) (M50.get i) (c_pl.get i) (rho_water.get i)) :=
  (ArrProof.Jumelet2024_calculate_damage_number_S (U := False) Hs Tmm10 N_waves cot_alpha rho_armour Dn50 M50
      c_pl rho_water h_Dn50 h_M50 h_rho_armour (fun h => h.elim)).vals

example := C83_Jumelet2024_calculate_damage_number_S (n := 2) ArrEx.two ArrEx.two ArrEx.two ArrEx.two
  ArrEx.two ArrEx.two ArrEx.two ArrEx.two ArrEx.two (by arr_ex) (by arr_ex) (by arr_ex)

theorem C83_Jumelet2024_calculate_nominal_rock_diameter_Dn50 [NeZero n] (Hs Tmm10 N_waves cot_alpha rho_armour
    S c_pl : Val n) :
    CaseByCase (Arr.Jumelet2024.calculate_nominal_rock_diameter_Dn50 Hs Tmm10 N_waves cot_alpha rho_armour S
      c_pl)
      (fun i => Jumelet2024.calculate_nominal_rock_diameter_Dn50 (Hs.get i) (Tmm10.get i) (N_waves.get i)
        (cot_alpha.get i) (rho_armour.get i) (S.get i) (c_pl.get i)) :=
  (ArrProof.Jumelet2024_calculate_nominal_rock_diameter_Dn50 (U := False) Hs Tmm10 N_waves cot_alpha
      rho_armour S c_pl (fun h => h.elim)).vals

theorem C83_Scaravaglione2025_calculate_damage_number_S [NeZero n] (Hm0 Tmm10 N_waves cot_alpha rho_armour
    rho_core Dn50 Dn50_core M50 M50_core c_VGnew rho_water : Val n)
    (h_Dn50 : Dn50.Uniform)
    (h_M50 : M50.Uniform)
    (h_rho_armour : rho_armour.Uniform)
    (h_Dn50_core : Dn50_core.Uniform)
    (h_M50_core : M50_core.Uniform)
    (h_rho_core : rho_core.Uniform) :
    CaseByCase (Arr.Scaravaglione2025.calculate_damage_number_S Hm0 Tmm10 N_waves cot_alpha rho_armour
      rho_core Dn50 Dn50_core M50 M50_core c_VGnew rho_water)
      (fun i => Scaravaglione2025.calculate_damage_number_S (Hm0.get i) (Tmm10.get i) (N_waves.get i)
        (cot_alpha.get i) (rho_armour.get i) (rho_core.get i) (Dn50.get i) (Dn50_core.get i) (M50.get i)
        (M50_core.get i) (c_VGnew.get i) (rho_water.get i)) :=
  (ArrProof.Scaravaglione2025_calculate_damage_number_S Hm0 Tmm10 N_waves cot_alpha rho_armour rho_core Dn50
      Dn50_core M50 M50_core c_VGnew rho_water h_Dn50 h_M50 h_rho_armour h_Dn50_core h_M50_core
      h_rho_core).vals

example := C83_Scaravaglione2025_calculate_damage_number_S (n := 2) ArrEx.two ArrEx.two ArrEx.two ArrEx.two
  ArrEx.two ArrEx.two ArrEx.two ArrEx.two ArrEx.two ArrEx.two ArrEx.two ArrEx.two (by arr_ex) (by arr_ex)
  (by arr_ex) (by arr_ex) (by arr_ex) (by arr_ex)

theorem C83_Scaravaglione2025_calculate_nominal_rock_diameter_Dn50 [NeZero n] (Hm0 Tmm10 N_waves cot_alpha
    rho_armour rho_core S Dn50_core M50_core c_VGnew rho_water : Val n)
    (h_Dn50_core : Dn50_core.Uniform)
    (h_M50_core : M50_core.Uniform)
    (h_rho_core : rho_core.Uniform) :
    CaseByCase (Arr.Scaravaglione2025.calculate_nominal_rock_diameter_Dn50 Hm0 Tmm10 N_waves cot_alpha
      rho_armour rho_core S Dn50_core M50_core c_VGnew rho_water)
      (fun i => Scaravaglione2025.calculate_nominal_rock_diameter_Dn50 (Hm0.get i) (Tmm10.get i) (N_waves.get
        i) (cot_alpha.get i) (rho_armour.get i) (rho_core.get i) (S.get i) (Dn50_core.get i) (M50_core.get i)
        (c_VGnew.get i) (rho_water.get i)) :=
  (ArrProof.Scaravaglione2025_calculate_nominal_rock_diameter_Dn50 Hm0 Tmm10 N_waves cot_alpha rho_armour
      rho_core S Dn50_core M50_core c_VGnew rho_water h_Dn50_core h_M50_core h_rho_core).vals

example := C83_Scaravaglione2025_calculate_nominal_rock_diameter_Dn50 (n := 2) ArrEx.two ArrEx.two ArrEx.two
  ArrEx.two ArrEx.two ArrEx.two ArrEx.two ArrEx.two ArrEx.two ArrEx.two ArrEx.two (by arr_ex) (by arr_ex)
  (by arr_ex)

theorem C83_Scaravaglione2025_calculate_significant_wave_height_Hm0 [NeZero n] (Tmm10 N_waves cot_alpha
    rho_armour rho_core S Dn50 Dn50_core M50 M50_core c_VGnew g rho_water : Val n)
    (h_Dn50 : Dn50.Uniform)
    (h_M50 : M50.Uniform)
    (h_rho_armour : rho_armour.Uniform)
    (h_Dn50_core : Dn50_core.Uniform)
    (h_M50_core : M50_core.Uniform)
    (h_rho_core : rho_core.Uniform) :
    CaseByCase (Arr.Scaravaglione2025.calculate_significant_wave_height_Hm0 Tmm10 N_waves cot_alpha rho_armour
      rho_core S Dn50 Dn50_core M50 M50_core c_VGnew g rho_water)
      (fun i => Scaravaglione2025.calculate_significant_wave_height_Hm0 (Tmm10.get i) (N_waves.get i)
        (cot_alpha.get i) (rho_armour.get i) (rho_core.get i) (S.get i) (Dn50.get i) (Dn50_core.get i)
        (M50.get i) (M50_core.get i) (c_VGnew.get i) (g.get i) (rho_water.get i)) :=
  (ArrProof.Scaravaglione2025_calculate_significant_wave_height_Hm0 Tmm10 N_waves cot_alpha rho_armour
      rho_core S Dn50 Dn50_core M50 M50_core c_VGnew g rho_water h_Dn50 h_M50 h_rho_armour h_Dn50_core
      h_M50_core h_rho_core).vals

example := C83_Scaravaglione2025_calculate_significant_wave_height_Hm0 (n := 2) ArrEx.two ArrEx.two
  ArrEx.two ArrEx.two ArrEx.two ArrEx.two ArrEx.two ArrEx.two ArrEx.two ArrEx.two ArrEx.two ArrEx.two
  ArrEx.two (by arr_ex) (by arr_ex) (by arr_ex) (by arr_ex) (by arr_ex) (by arr_ex)

theorem C83_KramerBurcharth_calculate_significant_wave_height_Hs [NeZero n] (Rc rho_armour Dn50 M50 : Val n)
    (h_Dn50 : Dn50.Uniform)
    (h_M50 : M50.Uniform)
    (h_rho_armour : rho_armour.Uniform) :
    CaseByCase (Arr.KramerBurcharth.calculate_significant_wave_height_Hs Rc rho_armour Dn50 M50)
      (fun i => KramerBurcharth.calculate_significant_wave_height_Hs (Rc.get i) (rho_armour.get i) (Dn50.get
        i) (M50.get i)) :=
  (ArrProof.KramerBurcharth_calculate_significant_wave_height_Hs Rc rho_armour Dn50 M50 h_Dn50 h_M50
      h_rho_armour).vals

example := C83_KramerBurcharth_calculate_significant_wave_height_Hs (n := 2) ArrEx.two ArrEx.two ArrEx.two
  ArrEx.two (by arr_ex) (by arr_ex) (by arr_ex)

theorem C83_Etemad2020_calculate_permeability_coefficient_Cp (Dn50 Dn50_core : Val n) (i : Fin n) :
    (Arr.Etemad2020.calculate_permeability_coefficient_Cp Dn50 Dn50_core).get i =
      Etemad2020.calculate_permeability_coefficient_Cp (Dn50.get i) (Dn50_core.get i) :=
  ArrProof.Etemad2020_calculate_permeability_coefficient_Cp Dn50 Dn50_core i

theorem C83_Etemad2020_calculate_damage_number_S [NeZero n] (Hs Tmm10 N_waves cot_alpha rho_armour Dn50 M50
    Dn50_core M50_core rho_core rho_water m : Val n) (use_depth_limited_version : Bool)
    (h_Dn50 : Dn50.Uniform)
    (h_M50 : M50.Uniform)
    (h_rho_armour : rho_armour.Uniform)
    (h_Dn50_core : Dn50_core.Uniform)
    (h_M50_core : M50_core.Uniform)
    (h_rho_core : rho_core.Uniform)
    (h_m : m.Uniform) :
    CaseByCase (Arr.Etemad2020.calculate_damage_number_S Hs Tmm10 N_waves cot_alpha rho_armour Dn50 M50
      Dn50_core M50_core rho_core rho_water m use_depth_limited_version)
      (fun i => Etemad2020.calculate_damage_number_S (Hs.get i) (Tmm10.get i) (N_waves.get i) (cot_alpha.get
        i) (rho_armour.get i) (Dn50.get i) (M50.get i) (Dn50_core.get i) (M50_core.get i) (rho_core.get i)
        (rho_water.get i) (m.get i) use_depth_limited_version) :=
  (ArrProof.Etemad2020_calculate_damage_number_S Hs Tmm10 N_waves cot_alpha rho_armour Dn50 M50 Dn50_core
      M50_core rho_core rho_water m use_depth_limited_version h_Dn50 h_M50 h_rho_armour h_Dn50_core h_M50_core
      h_rho_core h_m).vals

example := C83_Etemad2020_calculate_damage_number_S (n := 2) ArrEx.two ArrEx.two ArrEx.two ArrEx.two
  ArrEx.two ArrEx.two ArrEx.two ArrEx.two ArrEx.two ArrEx.two ArrEx.two ArrEx.two true (by arr_ex) (by
  arr_ex) (by arr_ex) (by arr_ex) (by arr_ex) (by arr_ex) (by arr_ex)

theorem C83_Etemad2020_calculate_significant_wave_height_Hs [NeZero n] (Tmm10 N_waves cot_alpha rho_armour S
    Dn50 M50 Dn50_core M50_core rho_core m : Val n) (use_depth_limited_version : Bool) (g : Val n)
    (h_Dn50 : Dn50.Uniform)
    (h_M50 : M50.Uniform)
    (h_rho_armour : rho_armour.Uniform)
    (h_Dn50_core : Dn50_core.Uniform)
    (h_M50_core : M50_core.Uniform)
    (h_rho_core : rho_core.Uniform)
    (h_m : m.Uniform) :
    CaseByCase (Arr.Etemad2020.calculate_significant_wave_height_Hs Tmm10 N_waves cot_alpha rho_armour S Dn50
      M50 Dn50_core M50_core rho_core m use_depth_limited_version g)
      (fun i => Etemad2020.calculate_significant_wave_height_Hs (Tmm10.get i) (N_waves.get i) (cot_alpha.get
        i) (rho_armour.get i) (S.get i) (Dn50.get i) (M50.get i) (Dn50_core.get i) (M50_core.get i)
        (rho_core.get i) (m.get i) use_depth_limited_version (g.get i)) :=
  (ArrProof.Etemad2020_calculate_significant_wave_height_Hs Tmm10 N_waves cot_alpha rho_armour S Dn50 M50
      Dn50_core M50_core rho_core m use_depth_limited_version g h_Dn50 h_M50 h_rho_armour h_Dn50_core
      h_M50_core h_rho_core h_m).vals

example := C83_Etemad2020_calculate_significant_wave_height_Hs (n := 2) ArrEx.two ArrEx.two ArrEx.two
  ArrEx.two ArrEx.two ArrEx.two ArrEx.two ArrEx.two ArrEx.two ArrEx.two ArrEx.two true ArrEx.two (by arr_ex)
  (by arr_ex) (by arr_ex) (by arr_ex) (by arr_ex) (by arr_ex) (by arr_ex)

theorem C83_Gerding1993_calculate_damage_Nod [NeZero n] (Hs ht h Dn50 rho_rock rho_water : Val n) :
    CaseByCase (Arr.Gerding1993.calculate_damage_Nod Hs ht h Dn50 rho_rock rho_water)
      (fun i => Gerding1993.calculate_damage_Nod (Hs.get i) (ht.get i) (h.get i) (Dn50.get i) (rho_rock.get i)
        (rho_water.get i)) :=
  (ArrProof.Gerding1993_calculate_damage_Nod (U := False) Hs ht h Dn50 rho_rock rho_water (fun h =>
      h.elim)).vals

theorem C83_Gerding1993_calculate_nominal_diameter_Dn50 [NeZero n] (Hs ht h Nod rho_rock rho_water : Val n) :
    CaseByCase (Arr.Gerding1993.calculate_nominal_diameter_Dn50 Hs ht h Nod rho_rock rho_water)
      (fun i => Gerding1993.calculate_nominal_diameter_Dn50 (Hs.get i) (ht.get i) (h.get i) (Nod.get i)
        (rho_rock.get i) (rho_water.get i)) :=
  (ArrProof.Gerding1993_calculate_nominal_diameter_Dn50 Hs ht h Nod rho_rock rho_water).vals

theorem C83_Gerding1993_calculate_wave_height_Hs [NeZero n] (Dn50 ht h Nod rho_rock rho_water : Val n) :
    CaseByCase (Arr.Gerding1993.calculate_wave_height_Hs Dn50 ht h Nod rho_rock rho_water)
      (fun i => Gerding1993.calculate_wave_height_Hs (Dn50.get i) (ht.get i) (h.get i) (Nod.get i)
        (rho_rock.get i) (rho_water.get i)) :=
  (ArrProof.Gerding1993_calculate_wave_height_Hs (U := False) Dn50 ht h Nod rho_rock rho_water (fun h =>
      h.elim)).vals

theorem C83_Gerding1993_calculate_depth_above_toe_ht [NeZero n] (Hs Dn50 h Nod rho_rock rho_water : Val n) :
    CaseByCase (Arr.Gerding1993.calculate_depth_above_toe_ht Hs Dn50 h Nod rho_rock rho_water)
      (fun i => Gerding1993.calculate_depth_above_toe_ht (Hs.get i) (Dn50.get i) (h.get i) (Nod.get i)
        (rho_rock.get i) (rho_water.get i)) :=
  (ArrProof.Gerding1993_calculate_depth_above_toe_ht Hs Dn50 h Nod rho_rock rho_water).vals

theorem C83_VanDerMeer1998_calculate_damage_Nod [NeZero n] (Hs ht h Dn50 rho_rock rho_water : Val n) :
    CaseByCase (Arr.VanDerMeer1998.calculate_damage_Nod Hs ht h Dn50 rho_rock rho_water)
      (fun i => VanDerMeer1998.calculate_damage_Nod (Hs.get i) (ht.get i) (h.get i) (Dn50.get i) (rho_rock.get
        i) (rho_water.get i)) :=
  (ArrProof.VanDerMeer1998_calculate_damage_Nod Hs ht h Dn50 rho_rock rho_water).vals

theorem C83_VanDerMeer1998_calculate_nominal_diameter_Dn50 [NeZero n] (Hs ht h Nod rho_rock rho_water : Val n)
    :
    CaseByCase (Arr.VanDerMeer1998.calculate_nominal_diameter_Dn50 Hs ht h Nod rho_rock rho_water)
      (fun i => VanDerMeer1998.calculate_nominal_diameter_Dn50 (Hs.get i) (ht.get i) (h.get i) (Nod.get i)
        (rho_rock.get i) (rho_water.get i)) :=
  (ArrProof.VanDerMeer1998_calculate_nominal_diameter_Dn50 Hs ht h Nod rho_rock rho_water).vals

theorem C83_VanDerMeer1998_calculate_wave_height_Hs [NeZero n] (Dn50 ht h Nod rho_rock rho_water : Val n) :
    CaseByCase (Arr.VanDerMeer1998.calculate_wave_height_Hs Dn50 ht h Nod rho_rock rho_water)
      (fun i => VanDerMeer1998.calculate_wave_height_Hs (Dn50.get i) (ht.get i) (h.get i) (Nod.get i)
        (rho_rock.get i) (rho_water.get i)) :=
  (ArrProof.VanDerMeer1998_calculate_wave_height_Hs Dn50 ht h Nod rho_rock rho_water).vals

theorem C83_VanDerMeer1998_calculate_depth_above_toe_ht_partial [NeZero n] (Hs Dn50 : PF) (h : Val n) (Nod
    rho_rock rho_water : PF) :
    CaseByCase (Arr.VanDerMeer1998.calculate_depth_above_toe_ht (.num Hs) (.num Dn50) h (.num Nod) (.num
      rho_rock) (.num rho_water))
      (fun i => VanDerMeer1998.calculate_depth_above_toe_ht Hs Dn50 (h.get i) Nod rho_rock rho_water) :=
  (ArrProof.VanDerMeer1998_calculate_depth_above_toe_ht Hs Dn50 h Nod rho_rock rho_water).vals

theorem C83_VanGentVanDerWerf2014_calculate_velocity_u_delta (Hs Tmm10 ht g : Val n) (i : Fin n) :
    (Arr.VanGentVanDerWerf2014.calculate_velocity_u_delta Hs Tmm10 ht g).get i =
      VanGentVanDerWerf2014.calculate_velocity_u_delta (Hs.get i) (Tmm10.get i) (ht.get i) (g.get i) :=
  ArrProof.VanGentVanDerWerf2014_calculate_velocity_u_delta Hs Tmm10 ht g i

theorem C83_VanGentVanDerWerf2014_calculate_damage_Nod [NeZero n] (Hm0 Tmm10 ht Bt tt Dn50 rho_rock rho_water
    cot_alpha_armour_slope g c1 c2 c3 c4 c5 : Val n) :
    CaseByCase (Arr.VanGentVanDerWerf2014.calculate_damage_Nod Hm0 Tmm10 ht Bt tt Dn50 rho_rock rho_water
      cot_alpha_armour_slope g c1 c2 c3 c4 c5)
      (fun i => VanGentVanDerWerf2014.calculate_damage_Nod (Hm0.get i) (Tmm10.get i) (ht.get i) (Bt.get i)
        (tt.get i) (Dn50.get i) (rho_rock.get i) (rho_water.get i) (cot_alpha_armour_slope.get i) (g.get i)
        (c1.get i) (c2.get i) (c3.get i) (c4.get i) (c5.get i)) :=
  (ArrProof.VanGentVanDerWerf2014_calculate_damage_Nod (U := False) Hm0 Tmm10 ht Bt tt Dn50 rho_rock rho_water
      cot_alpha_armour_slope g c1 c2 c3 c4 c5 (fun h => h.elim)).vals

theorem C83_VanGentVanDerWerf2014_calculate_nominal_diameter_Dn50 [NeZero n] (Hm0 Tmm10 ht Bt tt Nod rho_rock
    rho_water cot_alpha_armour_slope g : Val n) :
    CaseByCase (Arr.VanGentVanDerWerf2014.calculate_nominal_diameter_Dn50 Hm0 Tmm10 ht Bt tt Nod rho_rock
      rho_water cot_alpha_armour_slope g)
      (fun i => VanGentVanDerWerf2014.calculate_nominal_diameter_Dn50 (Hm0.get i) (Tmm10.get i) (ht.get i)
        (Bt.get i) (tt.get i) (Nod.get i) (rho_rock.get i) (rho_water.get i) (cot_alpha_armour_slope.get i)
        (g.get i)) :=
  (ArrProof.VanGentVanDerWerf2014_calculate_nominal_diameter_Dn50 (U := False) Hm0 Tmm10 ht Bt tt Nod rho_rock
      rho_water cot_alpha_armour_slope g (fun h => h.elim)).vals

theorem C83_EtemadShahidi2021_calculate_damage_Nod [NeZero n] (Hs Tmm10 h ht Bt m Dn50 rho_rock rho_water g c1
    c2 c3 c4 c5 c6 c7 : Val n) :
    CaseByCase (Arr.EtemadShahidi2021.calculate_damage_Nod Hs Tmm10 h ht Bt m Dn50 rho_rock rho_water g c1 c2
      c3 c4 c5 c6 c7)
      (fun i => EtemadShahidi2021.calculate_damage_Nod (Hs.get i) (Tmm10.get i) (h.get i) (ht.get i) (Bt.get
        i) (m.get i) (Dn50.get i) (rho_rock.get i) (rho_water.get i) (g.get i) (c1.get i) (c2.get i) (c3.get
        i) (c4.get i) (c5.get i) (c6.get i) (c7.get i)) :=
  (ArrProof.EtemadShahidi2021_calculate_damage_Nod (U := False) Hs Tmm10 h ht Bt m Dn50 rho_rock rho_water g
      c1 c2 c3 c4 c5 c6 c7 (fun h => h.elim)).vals

theorem C83_EtemadShahidi2021_calculate_nominal_diameter_Dn50 [NeZero n] (Hs Tmm10 h ht Bt Nod m rho_rock
    rho_water g c1 c2 c3 c4 c5 c6 c7 : Val n) :
    CaseByCase (Arr.EtemadShahidi2021.calculate_nominal_diameter_Dn50 Hs Tmm10 h ht Bt Nod m rho_rock
      rho_water g c1 c2 c3 c4 c5 c6 c7)
      (fun i => EtemadShahidi2021.calculate_nominal_diameter_Dn50 (Hs.get i) (Tmm10.get i) (h.get i) (ht.get
        i) (Bt.get i) (Nod.get i) (m.get i) (rho_rock.get i) (rho_water.get i) (g.get i) (c1.get i) (c2.get i)
        (c3.get i) (c4.get i) (c5.get i) (c6.get i) (c7.get i)) :=
  (ArrProof.EtemadShahidi2021_calculate_nominal_diameter_Dn50 (U := False) Hs Tmm10 h ht Bt Nod m rho_rock
      rho_water g c1 c2 c3 c4 c5 c6 c7 (fun h => h.elim)).vals

theorem C83_Takahashi1990_calculate_stability_number_Ns_partial [NeZero n] (disper : PF → PF → PF → PF) (Hs Tp
    hacc Bt beta : Val n) (g : PF) (hT : Tp.isArray = true → hacc.isArray = true) (hh : hacc.isArray = true →
    1 < n) :
    CaseByCase (Arr.Takahashi1990.calculate_stability_number_Ns disper Hs Tp hacc Bt beta g)
      (fun i => Takahashi1990.calculate_stability_number_Ns disper (Hs.get i) (Tp.get i) (hacc.get i) (Bt.get
        i) (beta.get i) g) :=
  (ArrProof.Takahashi1990_calculate_stability_number_Ns disper Hs Tp hacc Bt beta g hT hh).vals

example := C83_Takahashi1990_calculate_stability_number_Ns_partial (n := 2) (fun _ _ _ => .fin 1) ArrEx.two
  ArrEx.two ArrEx.two ArrEx.two ArrEx.two (.fin 1) (by arr_ex) (by arr_ex)

theorem C83_Takahashi1990_calculate_nominal_diameter_Dn50_partial [NeZero n] (disper : PF → PF → PF → PF) (Hs
    Tp hacc Bt rho_rock rho_water beta : Val n) (g : PF) (hT : Tp.isArray = true → hacc.isArray = true) (hh :
    hacc.isArray = true → 1 < n) :
    CaseByCase (Arr.Takahashi1990.calculate_nominal_diameter_Dn50 disper Hs Tp hacc Bt rho_rock rho_water beta
      g)
      (fun i => Takahashi1990.calculate_nominal_diameter_Dn50 disper (Hs.get i) (Tp.get i) (hacc.get i)
        (Bt.get i) (rho_rock.get i) (rho_water.get i) (beta.get i) g) :=
  (ArrProof.Takahashi1990_calculate_nominal_diameter_Dn50 disper Hs Tp hacc Bt rho_rock rho_water beta g hT
      hh).vals

example := C83_Takahashi1990_calculate_nominal_diameter_Dn50_partial (n := 2) (fun _ _ _ => .fin 1)
  ArrEx.two ArrEx.two ArrEx.two ArrEx.two ArrEx.two ArrEx.two ArrEx.two (.fin 1) (by arr_ex) (by arr_ex)

theorem C83_VanGent2001_calculate_wave_runup_height_zXp (H Tmm10 gamma cot_alpha c0 c1 : Val n) (i : Fin n) :
    (Arr.VanGent2001.calculate_wave_runup_height_zXp H Tmm10 gamma cot_alpha c0 c1).get i =
      VanGent2001.calculate_wave_runup_height_zXp (H.get i) (Tmm10.get i) (gamma.get i) (cot_alpha.get i)
        (c0.get i) (c1.get i) :=
  ArrProof.VanGent2001_calculate_wave_runup_height_zXp H Tmm10 gamma cot_alpha c0 c1 i

theorem C83_VanGent2001_calculate_wave_runup_height_z1p (Hs Tmm10 gamma cot_alpha c0 c1 : Val n) (i : Fin n) :
    (Arr.VanGent2001.calculate_wave_runup_height_z1p Hs Tmm10 gamma cot_alpha c0 c1).get i =
      VanGent2001.calculate_wave_runup_height_z1p (Hs.get i) (Tmm10.get i) (gamma.get i) (cot_alpha.get i)
        (c0.get i) (c1.get i) :=
  ArrProof.VanGent2001_calculate_wave_runup_height_z1p Hs Tmm10 gamma cot_alpha c0 c1 i

theorem C83_VanGent2001_calculate_wave_runup_height_z2p_partial [NeZero n] (Tmm10 gamma cot_alpha : Val n)
    (Hm0 Hs : PF) (c0 c1 : Val n) :
    CaseByCase (Arr.VanGent2001.calculate_wave_runup_height_z2p Tmm10 gamma cot_alpha (.num Hm0) (.num Hs) c0
      c1)
      (fun i => VanGent2001.calculate_wave_runup_height_z2p (Tmm10.get i) (gamma.get i) (cot_alpha.get i) Hm0
        Hs (c0.get i) (c1.get i)) :=
  (ArrProof.VanGent2001_calculate_wave_runup_height_z2p Tmm10 gamma cot_alpha Hm0 Hs c0 c1).vals

theorem C83_VanGent2001_calculate_wave_runup_height_z10p (Hs Tmm10 gamma cot_alpha c0 c1 : Val n) (i : Fin n)
    :
    (Arr.VanGent2001.calculate_wave_runup_height_z10p Hs Tmm10 gamma cot_alpha c0 c1).get i =
      VanGent2001.calculate_wave_runup_height_z10p (Hs.get i) (Tmm10.get i) (gamma.get i) (cot_alpha.get i)
        (c0.get i) (c1.get i) :=
  ArrProof.VanGent2001_calculate_wave_runup_height_z10p Hs Tmm10 gamma cot_alpha c0 c1 i

theorem C83_VanGent2001_invert_for_Hs (Hs_i0 z1p Tmm10 gamma cot_alpha c0 c1 : Val n) (i : Fin n) :
    (Arr.VanGent2001._invert_for_Hs Hs_i0 z1p Tmm10 gamma cot_alpha c0 c1).get i =
      VanGent2001._invert_for_Hs (Hs_i0.get i) (z1p.get i) (Tmm10.get i) (gamma.get i) (cot_alpha.get i)
        (c0.get i) (c1.get i) :=
  ArrProof.VanGent2001_invert_for_Hs Hs_i0 z1p Tmm10 gamma cot_alpha c0 c1 i

theorem C83_VanGent2002Velocity_calculate_maximum_wave_overtopping_velocity_uXp (Hs zXp Rc Bc gamma_f
    gamma_f_Crest cu1 cu2 g : Val n) (i : Fin n) :
    (Arr.VanGent2002Velocity.calculate_maximum_wave_overtopping_velocity_uXp Hs zXp Rc Bc gamma_f
      gamma_f_Crest cu1 cu2 g).get i =
      VanGent2002Velocity.calculate_maximum_wave_overtopping_velocity_uXp (Hs.get i) (zXp.get i) (Rc.get i)
        (Bc.get i) (gamma_f.get i) (gamma_f_Crest.get i) (cu1.get i) (cu2.get i) (g.get i) :=
  ArrProof.VanGent2002Velocity_calculate_maximum_wave_overtopping_velocity_uXp Hs zXp Rc Bc gamma_f
      gamma_f_Crest cu1 cu2 g i

theorem C83_VanGent2002Velocity_invert_for_zXp (Hs uXp Rc Bc gamma_f gamma_f_Crest cu1 cu2 g : Val n) (i : Fin
    n) :
    (Arr.VanGent2002Velocity._invert_for_zXp Hs uXp Rc Bc gamma_f gamma_f_Crest cu1 cu2 g).get i =
      VanGent2002Velocity._invert_for_zXp (Hs.get i) (uXp.get i) (Rc.get i) (Bc.get i) (gamma_f.get i)
        (gamma_f_Crest.get i) (cu1.get i) (cu2.get i) (g.get i) :=
  ArrProof.VanGent2002Velocity_invert_for_zXp Hs uXp Rc Bc gamma_f gamma_f_Crest cu1 cu2 g i

theorem C83_VanGent2007Rear_calculate_damage_number_S [NeZero n] (cot_alpha cot_phi gamma Hs Tmm10 Rc
    Rc2_front Rc2_rear N_waves Dn50 M50 rho_rock : Val n)
    (h_Dn50 : Dn50.Uniform)
    (h_M50 : M50.Uniform)
    (h_rho_rock : rho_rock.Uniform) :
    CaseByCase (Arr.VanGent2007Rear.calculate_damage_number_S cot_alpha cot_phi gamma Hs Tmm10 Rc Rc2_front
      Rc2_rear N_waves Dn50 M50 rho_rock)
      (fun i => VanGent2007Rear.calculate_damage_number_S (cot_alpha.get i) (cot_phi.get i) (gamma.get i)
        (Hs.get i) (Tmm10.get i) (Rc.get i) (Rc2_front.get i) (Rc2_rear.get i) (N_waves.get i) (Dn50.get i)
        (M50.get i) (rho_rock.get i)) :=
  (ArrProof.VanGent2007Rear_calculate_damage_number_S cot_alpha cot_phi gamma Hs Tmm10 Rc Rc2_front Rc2_rear
      N_waves Dn50 M50 rho_rock h_Dn50 h_M50 h_rho_rock).vals

example := C83_VanGent2007Rear_calculate_damage_number_S (n := 2) ArrEx.two ArrEx.two ArrEx.two ArrEx.two
  ArrEx.two ArrEx.two ArrEx.two ArrEx.two ArrEx.two ArrEx.two ArrEx.two ArrEx.two (by arr_ex) (by arr_ex)
  (by arr_ex)

theorem C83_VanGent2007Rear_calculate_nominal_rock_diameter_Dn50 [NeZero n] (cot_alpha cot_phi gamma S Hs
    Tmm10 Rc Rc2_front Rc2_rear N_waves : Val n) :
    CaseByCase (Arr.VanGent2007Rear.calculate_nominal_rock_diameter_Dn50 cot_alpha cot_phi gamma S Hs Tmm10 Rc
      Rc2_front Rc2_rear N_waves)
      (fun i => VanGent2007Rear.calculate_nominal_rock_diameter_Dn50 (cot_alpha.get i) (cot_phi.get i)
        (gamma.get i) (S.get i) (Hs.get i) (Tmm10.get i) (Rc.get i) (Rc2_front.get i) (Rc2_rear.get i)
        (N_waves.get i)) :=
  (ArrProof.VanGent2007Rear_calculate_nominal_rock_diameter_Dn50 cot_alpha cot_phi gamma S Hs Tmm10 Rc
      Rc2_front Rc2_rear N_waves).vals

theorem C83_VanGent2007Rear_invert_for_z1p (cot_phi S Dn50 Hs Rc Rc2_front Rc2_rear N_waves : Val n) (i : Fin
    n) :
    (Arr.VanGent2007Rear._invert_for_z1p cot_phi S Dn50 Hs Rc Rc2_front Rc2_rear N_waves).get i =
      VanGent2007Rear._invert_for_z1p (cot_phi.get i) (S.get i) (Dn50.get i) (Hs.get i) (Rc.get i)
        (Rc2_front.get i) (Rc2_rear.get i) (N_waves.get i) :=
  ArrProof.VanGent2007Rear_invert_for_z1p cot_phi S Dn50 Hs Rc Rc2_front Rc2_rear N_waves i

theorem C83_VanGentPozueta2004_calculate_damage_number_S [NeZero n] (cot_alpha cot_phi gamma_f gamma_f_Crest
    Hs Tmm10 Rc Rc_rear Bc N_waves Dn50 M50 rho_rock rho_water cs : Val n)
    (h_Dn50 : Dn50.Uniform)
    (h_M50 : M50.Uniform)
    (h_rho_rock : rho_rock.Uniform) :
    CaseByCase (Arr.VanGentPozueta2004.calculate_damage_number_S cot_alpha cot_phi gamma_f gamma_f_Crest Hs
      Tmm10 Rc Rc_rear Bc N_waves Dn50 M50 rho_rock rho_water cs)
      (fun i => VanGentPozueta2004.calculate_damage_number_S (cot_alpha.get i) (cot_phi.get i) (gamma_f.get i)
        (gamma_f_Crest.get i) (Hs.get i) (Tmm10.get i) (Rc.get i) (Rc_rear.get i) (Bc.get i) (N_waves.get i)
        (Dn50.get i) (M50.get i) (rho_rock.get i) (rho_water.get i) (cs.get i)) :=
  (ArrProof.VanGentPozueta2004_calculate_damage_number_S cot_alpha cot_phi gamma_f gamma_f_Crest Hs Tmm10 Rc
      Rc_rear Bc N_waves Dn50 M50 rho_rock rho_water cs h_Dn50 h_M50 h_rho_rock).vals

example := C83_VanGentPozueta2004_calculate_damage_number_S (n := 2) ArrEx.two ArrEx.two ArrEx.two ArrEx.two
  ArrEx.two ArrEx.two ArrEx.two ArrEx.two ArrEx.two ArrEx.two ArrEx.two ArrEx.two ArrEx.two ArrEx.two
  ArrEx.two (by arr_ex) (by arr_ex) (by arr_ex)

theorem C83_VanGentPozueta2004_calculate_nominal_rock_diameter_Dn50 [NeZero n] (cot_alpha cot_phi gamma_f
    gamma_f_Crest S Hs Tmm10 Rc Rc_rear Bc rho_rock N_waves rho_water cs : Val n) :
    CaseByCase (Arr.VanGentPozueta2004.calculate_nominal_rock_diameter_Dn50 cot_alpha cot_phi gamma_f
      gamma_f_Crest S Hs Tmm10 Rc Rc_rear Bc rho_rock N_waves rho_water cs)
      (fun i => VanGentPozueta2004.calculate_nominal_rock_diameter_Dn50 (cot_alpha.get i) (cot_phi.get i)
        (gamma_f.get i) (gamma_f_Crest.get i) (S.get i) (Hs.get i) (Tmm10.get i) (Rc.get i) (Rc_rear.get i)
        (Bc.get i) (rho_rock.get i) (N_waves.get i) (rho_water.get i) (cs.get i)) :=
  (ArrProof.VanGentPozueta2004_calculate_nominal_rock_diameter_Dn50 cot_alpha cot_phi gamma_f gamma_f_Crest S
      Hs Tmm10 Rc Rc_rear Bc rho_rock N_waves rho_water cs).vals

theorem C83_VanGentPozueta2004_invert_for_u1p (cot_phi S Hs Tmm10 Rc_rear N_waves Dn50 Delta cs : Val n) (i :
    Fin n) :
    (Arr.VanGentPozueta2004._invert_for_u1p cot_phi S Hs Tmm10 Rc_rear N_waves Dn50 Delta cs).get i =
      VanGentPozueta2004._invert_for_u1p (cot_phi.get i) (S.get i) (Hs.get i) (Tmm10.get i) (Rc_rear.get i)
        (N_waves.get i) (Dn50.get i) (Delta.get i) (cs.get i) :=
  ArrProof.VanGentPozueta2004_invert_for_u1p cot_phi S Hs Tmm10 Rc_rear N_waves Dn50 Delta cs i

theorem C83_VanGent2021Caisson_calculate_influence_oblique_waves_gamma_beta (beta : Val n) (gamma_p c_beta :
    PF) (i : Fin n) :
    (Arr.VanGent2021Caisson.calculate_influence_oblique_waves_gamma_beta beta gamma_p c_beta).get i =
      VanGent2021Caisson.calculate_influence_oblique_waves_gamma_beta (beta.get i) gamma_p c_beta :=
  ArrProof.VanGent2021Caisson_calculate_influence_oblique_waves_gamma_beta beta gamma_p c_beta i

theorem C83_VanGent2021Caisson_calculate_dimensionless_overtopping_discharge_q_partial [NeZero n] (Hm0 Rc beta
    : Val n) (gamma_beta Hm0_swell c : PF) (c_swell : Val n) (short_crested_waves crossing_seas parapet :
    Bool) :
    CaseByCase (Arr.VanGent2021Caisson.calculate_dimensionless_overtopping_discharge_q Hm0 Rc beta (.num
      gamma_beta) (.num Hm0_swell) c c_swell short_crested_waves crossing_seas parapet)
      (fun i => VanGent2021Caisson.calculate_dimensionless_overtopping_discharge_q (Hm0.get i) (Rc.get i)
        (beta.get i) gamma_beta Hm0_swell c (c_swell.get i) short_crested_waves crossing_seas parapet) :=
  (ArrProof.VanGent2021Caisson_calculate_dimensionless_overtopping_discharge_q Hm0 Rc beta gamma_beta
      Hm0_swell c c_swell short_crested_waves crossing_seas parapet).vals

theorem C83_VanGent2021Caisson_calculate_overtopping_discharge_q_partial [NeZero n] (Hm0 Rc beta : Val n)
    (gamma_beta Hm0_swell c : PF) (c_swell : Val n) (short_crested_waves crossing_seas parapet : Bool) (g :
    Val n) :
    CaseByCase (Arr.VanGent2021Caisson.calculate_overtopping_discharge_q Hm0 Rc beta (.num gamma_beta) (.num
      Hm0_swell) c c_swell short_crested_waves crossing_seas parapet g)
      (fun i => VanGent2021Caisson.calculate_overtopping_discharge_q (Hm0.get i) (Rc.get i) (beta.get i)
        gamma_beta Hm0_swell c (c_swell.get i) short_crested_waves crossing_seas parapet (g.get i)) :=
  (ArrProof.VanGent2021Caisson_calculate_overtopping_discharge_q Hm0 Rc beta gamma_beta Hm0_swell c c_swell
      short_crested_waves crossing_seas parapet g).vals

theorem C83_VanGent2021Caisson_calculate_dimensionless_crest_freeboard_partial [NeZero n] (Hm0 q beta : Val n)
    (gamma_beta Hm0_swell c : PF) (c_swell : Val n) (short_crested_waves crossing_seas parapet : Bool) (g :
    Val n) :
    CaseByCase (Arr.VanGent2021Caisson.calculate_dimensionless_crest_freeboard Hm0 q beta (.num gamma_beta)
      (.num Hm0_swell) c c_swell short_crested_waves crossing_seas parapet g)
      (fun i => VanGent2021Caisson.calculate_dimensionless_crest_freeboard (Hm0.get i) (q.get i) (beta.get i)
        gamma_beta Hm0_swell c (c_swell.get i) short_crested_waves crossing_seas parapet (g.get i)) :=
  (ArrProof.VanGent2021Caisson_calculate_dimensionless_crest_freeboard Hm0 q beta gamma_beta Hm0_swell c
      c_swell short_crested_waves crossing_seas parapet g).vals

theorem C83_VanGent2021Caisson_calculate_crest_freeboard_Rc_partial [NeZero n] (Hm0 q beta : Val n)
    (gamma_beta Hm0_swell c : PF) (c_swell : Val n) (short_crested_waves crossing_seas parapet : Bool) (g :
    Val n) :
    CaseByCase (Arr.VanGent2021Caisson.calculate_crest_freeboard_Rc Hm0 q beta (.num gamma_beta) (.num
      Hm0_swell) c c_swell short_crested_waves crossing_seas parapet g)
      (fun i => VanGent2021Caisson.calculate_crest_freeboard_Rc (Hm0.get i) (q.get i) (beta.get i) gamma_beta
        Hm0_swell c (c_swell.get i) short_crested_waves crossing_seas parapet (g.get i)) :=
  (ArrProof.VanGent2021Caisson_calculate_crest_freeboard_Rc Hm0 q beta gamma_beta Hm0_swell c c_swell
      short_crested_waves crossing_seas parapet g).vals

theorem C83_VanGent2025_q_diml_max_equation (Hm0 Hm0_swell ksi_mm10 cot_alpha Rc gamma_f gamma_b gamma_v
    gamma_beta c2 c3 : Val n) (i : Fin n) :
    (Arr.VanGent2025.q_diml_max_equation Hm0 Hm0_swell ksi_mm10 cot_alpha Rc gamma_f gamma_b gamma_v
      gamma_beta c2 c3).get i =
      VanGent2025.q_diml_max_equation (Hm0.get i) (Hm0_swell.get i) (ksi_mm10.get i) (cot_alpha.get i) (Rc.get
        i) (gamma_f.get i) (gamma_b.get i) (gamma_v.get i) (gamma_beta.get i) (c2.get i) (c3.get i) :=
  ArrProof.VanGent2025_q_diml_max_equation Hm0 Hm0_swell ksi_mm10 cot_alpha Rc gamma_f gamma_b gamma_v
      gamma_beta c2 c3 i

theorem C83_VanGent2025_calculate_influence_friction_gamma_f (Dn50 Hm0 smm10 c_f1 c_f2 smm10_lim : Val n) (i :
    Fin n) :
    (Arr.VanGent2025.calculate_influence_friction_gamma_f Dn50 Hm0 smm10 c_f1 c_f2 smm10_lim).get i =
      VanGent2025.calculate_influence_friction_gamma_f (Dn50.get i) (Hm0.get i) (smm10.get i) (c_f1.get i)
        (c_f2.get i) (smm10_lim.get i) :=
  ArrProof.VanGent2025_calculate_influence_friction_gamma_f Dn50 Hm0 smm10 c_f1 c_f2 smm10_lim i

theorem C83_VanGent2025_calculate_influence_berm_gamma_b (Hm0 smm10 Ac B_berm BL c_b1 c_b2 c_b3 c_b4 : Val n)
    (i : Fin n) :
    (Arr.VanGent2025.calculate_influence_berm_gamma_b Hm0 smm10 Ac B_berm BL c_b1 c_b2 c_b3 c_b4).get i =
      VanGent2025.calculate_influence_berm_gamma_b (Hm0.get i) (smm10.get i) (Ac.get i) (B_berm.get i) (BL.get
        i) (c_b1.get i) (c_b2.get i) (c_b3.get i) (c_b4.get i) :=
  ArrProof.VanGent2025_calculate_influence_berm_gamma_b Hm0 smm10 Ac B_berm BL c_b1 c_b2 c_b3 c_b4 i

theorem C83_VanGent2025_calculate_influence_oblique_waves_gamma_beta (beta c_beta : Val n) (i : Fin n) :
    (Arr.VanGent2025.calculate_influence_oblique_waves_gamma_beta beta c_beta).get i =
      VanGent2025.calculate_influence_oblique_waves_gamma_beta (beta.get i) (c_beta.get i) :=
  ArrProof.VanGent2025_calculate_influence_oblique_waves_gamma_beta beta c_beta i

theorem C83_VanGent2025_calculate_influence_crest_wall_gamma_v (cot_alpha Rc Ac c_v : Val n) (i : Fin n) :
    (Arr.VanGent2025.calculate_influence_crest_wall_gamma_v cot_alpha Rc Ac c_v).get i =
      VanGent2025.calculate_influence_crest_wall_gamma_v (cot_alpha.get i) (Rc.get i) (Ac.get i) (c_v.get i)
        :=
  ArrProof.VanGent2025_calculate_influence_crest_wall_gamma_v cot_alpha Rc Ac c_v i

theorem C83_VanGent2025_calculate_influence_wind_gamma_w (Rc Ac Hm0 q_diml c_w1 c_w2 : Val n) (i : Fin n) :
    (Arr.VanGent2025.calculate_influence_wind_gamma_w Rc Ac Hm0 q_diml c_w1 c_w2).get i =
      VanGent2025.calculate_influence_wind_gamma_w (Rc.get i) (Ac.get i) (Hm0.get i) (q_diml.get i) (c_w1.get
        i) (c_w2.get i) :=
  ArrProof.VanGent2025_calculate_influence_wind_gamma_w Rc Ac Hm0 q_diml c_w1 c_w2 i

theorem C83_VanGent2025_calculate_dimensionless_overtopping_discharge_q_partial [NeZero n] (Hm0 Hm0_swell
    Tmm10 Rc Ac cot_alpha beta B_berm db : Val n) (Dn50 gamma_f gamma_b : PF) (gamma_v : Val n) (gamma_beta :
    PF) (design_calculation include_influence_wind : Bool) :
    CaseByCase (Arr.VanGent2025.calculate_dimensionless_overtopping_discharge_q Hm0 Hm0_swell Tmm10 Rc Ac
      cot_alpha beta B_berm db (.num Dn50) (.num gamma_f) (.num gamma_b) gamma_v (.num gamma_beta)
      design_calculation include_influence_wind)
      (fun i => VanGent2025.calculate_dimensionless_overtopping_discharge_q (Hm0.get i) (Hm0_swell.get i)
        (Tmm10.get i) (Rc.get i) (Ac.get i) (cot_alpha.get i) (beta.get i) (B_berm.get i) (db.get i) Dn50
        gamma_f gamma_b (gamma_v.get i) gamma_beta design_calculation include_influence_wind) :=
  (ArrProof.VanGent2025_calculate_dimensionless_overtopping_discharge_q Hm0 Hm0_swell Tmm10 Rc Ac cot_alpha
      beta B_berm db Dn50 gamma_f gamma_b gamma_v gamma_beta design_calculation include_influence_wind).vals

theorem C83_VanGent2025_calculate_overtopping_discharge_q_partial [NeZero n] (Hm0 Hm0_swell Tmm10 Rc Ac
    cot_alpha beta B_berm db : Val n) (Dn50 gamma_f gamma_b : PF) (gamma_v : Val n) (gamma_beta : PF) (g : Val
    n) (design_calculation include_influence_wind : Bool) :
    CaseByCase (Arr.VanGent2025.calculate_overtopping_discharge_q Hm0 Hm0_swell Tmm10 Rc Ac cot_alpha beta
      B_berm db (.num Dn50) (.num gamma_f) (.num gamma_b) gamma_v (.num gamma_beta) g design_calculation
      include_influence_wind)
      (fun i => VanGent2025.calculate_overtopping_discharge_q (Hm0.get i) (Hm0_swell.get i) (Tmm10.get i)
        (Rc.get i) (Ac.get i) (cot_alpha.get i) (beta.get i) (B_berm.get i) (db.get i) Dn50 gamma_f gamma_b
        (gamma_v.get i) gamma_beta (g.get i) design_calculation include_influence_wind) :=
  (ArrProof.VanGent2025_calculate_overtopping_discharge_q Hm0 Hm0_swell Tmm10 Rc Ac cot_alpha beta B_berm db
      Dn50 gamma_f gamma_b gamma_v gamma_beta g design_calculation include_influence_wind).vals

theorem C83_VanGent2025_Rc_diml_max_equation (Hm0 Hm0_swell q cot_alpha ksi_mm10 gamma_f gamma_b gamma_v
    gamma_beta c2 c3 g : Val n) (i : Fin n) :
    (Arr.VanGent2025.Rc_diml_max_equation Hm0 Hm0_swell q cot_alpha ksi_mm10 gamma_f gamma_b gamma_v
      gamma_beta c2 c3 g).get i =
      VanGent2025.Rc_diml_max_equation (Hm0.get i) (Hm0_swell.get i) (q.get i) (cot_alpha.get i) (ksi_mm10.get
        i) (gamma_f.get i) (gamma_b.get i) (gamma_v.get i) (gamma_beta.get i) (c2.get i) (c3.get i) (g.get i)
        :=
  ArrProof.VanGent2025_Rc_diml_max_equation Hm0 Hm0_swell q cot_alpha ksi_mm10 gamma_f gamma_b gamma_v
      gamma_beta c2 c3 g i

theorem C83_VanGent2025_Rc_diml_eqB1 (Hm0 Hm0_swell q_diml cot_alpha ksi_mm10 gamma_f gamma_b gamma_v
    gamma_beta : Val n) (i : Fin n) :
    (Arr.VanGent2025.Rc_diml_eqB1 Hm0 Hm0_swell q_diml cot_alpha ksi_mm10 gamma_f gamma_b gamma_v
      gamma_beta).get i =
      VanGent2025.Rc_diml_eqB1 (Hm0.get i) (Hm0_swell.get i) (q_diml.get i) (cot_alpha.get i) (ksi_mm10.get i)
        (gamma_f.get i) (gamma_b.get i) (gamma_v.get i) (gamma_beta.get i) :=
  ArrProof.VanGent2025_Rc_diml_eqB1 Hm0 Hm0_swell q_diml cot_alpha ksi_mm10 gamma_f gamma_b gamma_v gamma_beta
      i

theorem C83_DeRidder2024_period_HF (Hm0 smm10_HF : Val n) (i : Fin n) :
    (Arr.DeRidder2024.period_HF Hm0 smm10_HF).get i =
      DeRidder2024.period_HF (Hm0.get i) (smm10_HF.get i) :=
  ArrProof.DeRidder2024_period_HF Hm0 smm10_HF i

theorem C83_DeRidder2024_calculate_dimensionless_crest_freeboard_discharge_q_eq24 [NeZero n] (Hm0 smm10_HF
    gamma_f q g : Val n) :
    CaseByCase (Arr.DeRidder2024.calculate_dimensionless_crest_freeboard_discharge_q_eq24 Hm0 smm10_HF gamma_f
      q g)
      (fun i => DeRidder2024.calculate_dimensionless_crest_freeboard_discharge_q_eq24 (Hm0.get i)
        (smm10_HF.get i) (gamma_f.get i) (q.get i) (g.get i)) :=
  (ArrProof.DeRidder2024_calculate_dimensionless_crest_freeboard_discharge_q_eq24 Hm0 smm10_HF gamma_f q
      g).vals

theorem C83_DeRidder2024_calculate_crest_freeboard_discharge_q_eq24 [NeZero n] (Hm0 smm10_HF gamma_f q _g :
    Val n) :
    CaseByCase (Arr.DeRidder2024.calculate_crest_freeboard_discharge_q_eq24 Hm0 smm10_HF gamma_f q _g)
      (fun i => DeRidder2024.calculate_crest_freeboard_discharge_q_eq24 (Hm0.get i) (smm10_HF.get i)
        (gamma_f.get i) (q.get i) (_g.get i)) :=
  (ArrProof.DeRidder2024_calculate_crest_freeboard_discharge_q_eq24 Hm0 smm10_HF gamma_f q _g).vals

theorem C83_DeRidder2024_calculate_crest_freeboard_discharge_q_eq26 [NeZero n] (Hm0 smm10_HF Hm0_LF gamma_f q
    g : Val n) :
    CaseByCase (Arr.DeRidder2024.calculate_crest_freeboard_discharge_q_eq26 Hm0 smm10_HF Hm0_LF gamma_f q g)
      (fun i => DeRidder2024.calculate_crest_freeboard_discharge_q_eq26 (Hm0.get i) (smm10_HF.get i)
        (Hm0_LF.get i) (gamma_f.get i) (q.get i) (g.get i)) :=
  (ArrProof.DeRidder2024_calculate_crest_freeboard_discharge_q_eq26 Hm0 smm10_HF Hm0_LF gamma_f q g).vals

theorem C83_DeRidder2024_calculate_dimensionless_overtopping_discharge_eq24 [NeZero n] (Hm0 smm10_HF gamma_f
    Rc : Val n) :
    CaseByCase (Arr.DeRidder2024.calculate_dimensionless_overtopping_discharge_eq24 Hm0 smm10_HF gamma_f Rc)
      (fun i => DeRidder2024.calculate_dimensionless_overtopping_discharge_eq24 (Hm0.get i) (smm10_HF.get i)
        (gamma_f.get i) (Rc.get i)) :=
  (ArrProof.DeRidder2024_calculate_dimensionless_overtopping_discharge_eq24 Hm0 smm10_HF gamma_f Rc).vals

theorem C83_DeRidder2024_calculate_overtopping_discharge_q_eq24 [NeZero n] (Hm0 smm10_HF gamma_f Rc g : Val n)
    :
    CaseByCase (Arr.DeRidder2024.calculate_overtopping_discharge_q_eq24 Hm0 smm10_HF gamma_f Rc g)
      (fun i => DeRidder2024.calculate_overtopping_discharge_q_eq24 (Hm0.get i) (smm10_HF.get i) (gamma_f.get
        i) (Rc.get i) (g.get i)) :=
  (ArrProof.DeRidder2024_calculate_overtopping_discharge_q_eq24 Hm0 smm10_HF gamma_f Rc g).vals

theorem C83_DeRidder2024_calculate_dimensionless_overtopping_discharge_eq26 [NeZero n] (Hm0 smm10_HF Hm0_LF
    gamma_f Rc : Val n) :
    CaseByCase (Arr.DeRidder2024.calculate_dimensionless_overtopping_discharge_eq26 Hm0 smm10_HF Hm0_LF
      gamma_f Rc)
      (fun i => DeRidder2024.calculate_dimensionless_overtopping_discharge_eq26 (Hm0.get i) (smm10_HF.get i)
        (Hm0_LF.get i) (gamma_f.get i) (Rc.get i)) :=
  (ArrProof.DeRidder2024_calculate_dimensionless_overtopping_discharge_eq26 Hm0 smm10_HF Hm0_LF gamma_f
      Rc).vals

theorem C83_DeRidder2024_calculate_overtopping_discharge_q_eq26 [NeZero n] (Hm0 smm10_HF Hm0_LF gamma_f Rc g :
    Val n) :
    CaseByCase (Arr.DeRidder2024.calculate_overtopping_discharge_q_eq26 Hm0 smm10_HF Hm0_LF gamma_f Rc g)
      (fun i => DeRidder2024.calculate_overtopping_discharge_q_eq26 (Hm0.get i) (smm10_HF.get i) (Hm0_LF.get
        i) (gamma_f.get i) (Rc.get i) (g.get i)) :=
  (ArrProof.DeRidder2024_calculate_overtopping_discharge_q_eq26 Hm0 smm10_HF Hm0_LF gamma_f Rc g).vals

theorem C83_DeRidder2026_calculate_gamma_beta (theta : Val n) (i : Fin n) :
    (Arr.DeRidder2026.calculate_gamma_beta theta).get i =
      DeRidder2026.calculate_gamma_beta (theta.get i) :=
  ArrProof.DeRidder2026_calculate_gamma_beta theta i

theorem C83_DeRidder2026_calculate_dimensionless_crest_freeboard_discharge_q_eq28 (Hm0 smm10_HF gamma_f q g
    gamma_beta : Val n) (i : Fin n) :
    (Arr.DeRidder2026.calculate_dimensionless_crest_freeboard_discharge_q_eq28 Hm0 smm10_HF gamma_f q g
      gamma_beta).get i =
      DeRidder2026.calculate_dimensionless_crest_freeboard_discharge_q_eq28 (Hm0.get i) (smm10_HF.get i)
        (gamma_f.get i) (q.get i) (g.get i) (gamma_beta.get i) :=
  ArrProof.DeRidder2026_calculate_dimensionless_crest_freeboard_discharge_q_eq28 Hm0 smm10_HF gamma_f q g
      gamma_beta i

theorem C83_DeRidder2026_calculate_crest_freeboard_discharge_q_eq28 [NeZero n] (Hm0 smm10_HF gamma_f q g theta
    : Val n) :
    CaseByCase (Arr.DeRidder2026.calculate_crest_freeboard_discharge_q_eq28 Hm0 smm10_HF gamma_f q g theta)
      (fun i => DeRidder2026.calculate_crest_freeboard_discharge_q_eq28 (Hm0.get i) (smm10_HF.get i)
        (gamma_f.get i) (q.get i) (g.get i) (theta.get i)) :=
  (ArrProof.DeRidder2026_calculate_crest_freeboard_discharge_q_eq28 (U := False) Hm0 smm10_HF gamma_f q g
      theta (fun h => h.elim)).vals

theorem C83_DeRidder2026_calculate_crest_freeboard_discharge_q_eq32 [NeZero n] (Hm0_HF smm10_HF Hm0_LF gamma_f
    q g theta : Val n) :
    CaseByCase (Arr.DeRidder2026.calculate_crest_freeboard_discharge_q_eq32 Hm0_HF smm10_HF Hm0_LF gamma_f q g
      theta)
      (fun i => DeRidder2026.calculate_crest_freeboard_discharge_q_eq32 (Hm0_HF.get i) (smm10_HF.get i)
        (Hm0_LF.get i) (gamma_f.get i) (q.get i) (g.get i) (theta.get i)) :=
  (ArrProof.DeRidder2026_calculate_crest_freeboard_discharge_q_eq32 (U := False) Hm0_HF smm10_HF Hm0_LF
      gamma_f q g theta (fun h => h.elim)).vals

theorem C83_DeRidder2026_calculate_dimensionless_overtopping_discharge_eq28 [NeZero n] (Hm0 smm10_HF gamma_f
    Rc theta : Val n) :
    CaseByCase (Arr.DeRidder2026.calculate_dimensionless_overtopping_discharge_eq28 Hm0 smm10_HF gamma_f Rc
      theta)
      (fun i => DeRidder2026.calculate_dimensionless_overtopping_discharge_eq28 (Hm0.get i) (smm10_HF.get i)
        (gamma_f.get i) (Rc.get i) (theta.get i)) :=
  (ArrProof.DeRidder2026_calculate_dimensionless_overtopping_discharge_eq28 Hm0 smm10_HF gamma_f Rc
      theta).vals

theorem C83_DeRidder2026_calculate_overtopping_discharge_q_eq28 [NeZero n] (Hm0 smm10_HF gamma_f Rc g theta :
    Val n) :
    CaseByCase (Arr.DeRidder2026.calculate_overtopping_discharge_q_eq28 Hm0 smm10_HF gamma_f Rc g theta)
      (fun i => DeRidder2026.calculate_overtopping_discharge_q_eq28 (Hm0.get i) (smm10_HF.get i) (gamma_f.get
        i) (Rc.get i) (g.get i) (theta.get i)) :=
  (ArrProof.DeRidder2026_calculate_overtopping_discharge_q_eq28 Hm0 smm10_HF gamma_f Rc g theta).vals

theorem C83_DeRidder2026_calculate_dimensionless_overtopping_discharge_eq32 [NeZero n] (Hm0_HF smm10_HF Hm0_LF
    gamma_f Rc theta : Val n) :
    CaseByCase (Arr.DeRidder2026.calculate_dimensionless_overtopping_discharge_eq32 Hm0_HF smm10_HF Hm0_LF
      gamma_f Rc theta)
      (fun i => DeRidder2026.calculate_dimensionless_overtopping_discharge_eq32 (Hm0_HF.get i) (smm10_HF.get
        i) (Hm0_LF.get i) (gamma_f.get i) (Rc.get i) (theta.get i)) :=
  (ArrProof.DeRidder2026_calculate_dimensionless_overtopping_discharge_eq32 Hm0_HF smm10_HF Hm0_LF gamma_f Rc
      theta).vals

theorem C83_DeRidder2026_calculate_overtopping_discharge_q_eq32 [NeZero n] (Hm0_HF smm10_HF Hm0_LF gamma_f Rc
    g theta : Val n) :
    CaseByCase (Arr.DeRidder2026.calculate_overtopping_discharge_q_eq32 Hm0_HF smm10_HF Hm0_LF gamma_f Rc g
      theta)
      (fun i => DeRidder2026.calculate_overtopping_discharge_q_eq32 (Hm0_HF.get i) (smm10_HF.get i)
        (Hm0_LF.get i) (gamma_f.get i) (Rc.get i) (g.get i) (theta.get i)) :=
  (ArrProof.DeRidder2026_calculate_overtopping_discharge_q_eq32 Hm0_HF smm10_HF Hm0_LF gamma_f Rc g
      theta).vals

theorem C83_DAngremond1996_calculate_wave_transmission_Kt_permeable [NeZero n] (Hsi Tpi h Rc B cot_alpha C1 :
    Val n) (do_validity_check : Bool) :
    CaseByCase (Arr.DAngremond1996.calculate_wave_transmission_Kt_permeable Hsi Tpi h Rc B cot_alpha C1
      do_validity_check)
      (fun i => DAngremond1996.calculate_wave_transmission_Kt_permeable (Hsi.get i) (Tpi.get i) (h.get i)
        (Rc.get i) (B.get i) (cot_alpha.get i) (C1.get i) do_validity_check) :=
  (ArrProof.DAngremond1996_calculate_wave_transmission_Kt_permeable Hsi Tpi h Rc B cot_alpha C1
      do_validity_check).vals

theorem C83_DAngremond1996_calculate_wave_transmission_Kt_impermeable [NeZero n] (Hsi Tpi h Rc B cot_alpha C1
    : Val n) :
    CaseByCase (Arr.DAngremond1996.calculate_wave_transmission_Kt_impermeable Hsi Tpi h Rc B cot_alpha C1)
      (fun i => DAngremond1996.calculate_wave_transmission_Kt_impermeable (Hsi.get i) (Tpi.get i) (h.get i)
        (Rc.get i) (B.get i) (cot_alpha.get i) (C1.get i)) :=
  (ArrProof.DAngremond1996_calculate_wave_transmission_Kt_impermeable Hsi Tpi h Rc B cot_alpha C1).vals

theorem C83_Briganti2003_calculate_wave_transmission_Kt [NeZero n] (Hsi Tpi Rc B cot_alpha : Val n) :
    CaseByCase (Arr.Briganti2003.calculate_wave_transmission_Kt Hsi Tpi Rc B cot_alpha)
      (fun i => Briganti2003.calculate_wave_transmission_Kt (Hsi.get i) (Tpi.get i) (Rc.get i)
        (B.get i) (cot_alpha.get i)) :=
  (ArrProof.Briganti2003_calculate_wave_transmission_Kt Hsi Tpi Rc B cot_alpha).vals

theorem C83_Goda1967_calculate_wave_transmission_Kt_partial [NeZero n] (Hsi Rc alpha_1 beta_1 : Val n)
    (h_shape : Hsi.isArray = false → Rc.isArray = false →
      alpha_1.isArray = false ∧ beta_1.isArray = false)
    (h_first : ¬ (Rc.get 0 / Hsi.get 0 ≤ -1 * alpha_1.get 0 - beta_1.get 0)) :
    CaseByCase (Arr.Goda1967.calculate_wave_transmission_Kt Hsi Rc alpha_1 beta_1)
      (fun i => (pure (Goda1967.calculate_wave_transmission_Kt (Hsi.get i) (Rc.get i)
        (alpha_1.get i) (beta_1.get i)) : PyM _)) :=
  (ArrProof.Goda1967_calculate_wave_transmission_Kt (U := False) Hsi Rc alpha_1 beta_1 h_shape h_first).vals

example := C83_Goda1967_calculate_wave_transmission_Kt_partial (n := 2) ArrEx.two ArrEx.two ArrEx.two
  ArrEx.two (by arr_ex) (by arr_ex)

theorem C83_VanGent2023_calculate_wave_transmission_Kt_partial [NeZero n] (disper : PF → PF → PF → PF) (Hm0 :
    Val n) (Tmm10 : PF) (Rc B : Val n) (structure_type : String) :
    CaseByCase (Arr.VanGent2023.calculate_wave_transmission_Kt disper Hm0 (.num Tmm10) Rc B structure_type)
      (fun i => VanGent2023.calculate_wave_transmission_Kt disper (Hm0.get i) Tmm10 (Rc.get i)
        (B.get i) structure_type) :=
  (ArrProof.VanGent2023_calculate_wave_transmission_Kt (U := False) disper Hm0 Tmm10 Rc B structure_type).vals

theorem C83_VanGent2024_calculate_dimensionless_structure_induced_setup_impermeable [NeZero n] (Hm0 Tmm10 Rc :
    Val n) :
    CaseByCase (Arr.VanGent2024.calculate_dimensionless_structure_induced_setup_impermeable Hm0 Tmm10 Rc)
      (fun i => VanGent2024.calculate_dimensionless_structure_induced_setup_impermeable (Hm0.get i) (Tmm10.get
        i) (Rc.get i)) :=
  (ArrProof.VanGent2024_calculate_dimensionless_structure_induced_setup_impermeable (U := False) Hm0 Tmm10 Rc
      (fun h => h.elim)).vals

theorem C83_VanGent2024_calculate_structure_induced_setup_delta_impermeable [NeZero n] (Hm0 Tmm10 Rc : Val n)
    :
    CaseByCase (Arr.VanGent2024.calculate_structure_induced_setup_delta_impermeable Hm0 Tmm10 Rc)
      (fun i => VanGent2024.calculate_structure_induced_setup_delta_impermeable (Hm0.get i) (Tmm10.get i)
        (Rc.get i)) :=
  (ArrProof.VanGent2024_calculate_structure_induced_setup_delta_impermeable (U := False) Hm0 Tmm10 Rc (fun h
      => h.elim)).vals

theorem C83_VanGent2024_calculate_dimensionless_structure_induced_setup_permeable [NeZero n] (Hm0 Tmm10 Rc hc
    : Val n) :
    CaseByCase (Arr.VanGent2024.calculate_dimensionless_structure_induced_setup_permeable Hm0 Tmm10 Rc hc)
      (fun i => VanGent2024.calculate_dimensionless_structure_induced_setup_permeable (Hm0.get i) (Tmm10.get
        i) (Rc.get i) (hc.get i)) :=
  (ArrProof.VanGent2024_calculate_dimensionless_structure_induced_setup_permeable (U := False) Hm0 Tmm10 Rc hc
      (fun h => h.elim)).vals

theorem C83_VanGent2024_calculate_structure_induced_setup_delta_permeable [NeZero n] (Hm0 Tmm10 Rc hc : Val n)
    :
    CaseByCase (Arr.VanGent2024.calculate_structure_induced_setup_delta_permeable Hm0 Tmm10 Rc hc)
      (fun i => VanGent2024.calculate_structure_induced_setup_delta_permeable (Hm0.get i) (Tmm10.get i)
        (Rc.get i) (hc.get i)) :=
  (ArrProof.VanGent2024_calculate_structure_induced_setup_delta_permeable (U := False) Hm0 Tmm10 Rc hc (fun h
      => h.elim)).vals

theorem C83_CrestWall_calculate_influence_oblique_waves_force_gamma_F_beta (z2p Ac beta gamma_A : Val n) (i :
    Fin n) :
    (Arr.CrestWall.calculate_influence_oblique_waves_force_gamma_F_beta z2p Ac beta gamma_A).get i =
      CrestWall.calculate_influence_oblique_waves_force_gamma_F_beta (z2p.get i) (Ac.get i) (beta.get i)
        (gamma_A.get i) :=
  ArrProof.CrestWall_calculate_influence_oblique_waves_force_gamma_F_beta z2p Ac beta gamma_A i

theorem C83_CrestWall_calculate_influence_oblique_waves_horizontal_force_gamma_FH_beta (z2p Ac beta gamma_A :
    Val n) (i : Fin n) :
    (Arr.CrestWall.calculate_influence_oblique_waves_horizontal_force_gamma_FH_beta z2p Ac beta gamma_A).get i
      =
      CrestWall.calculate_influence_oblique_waves_horizontal_force_gamma_FH_beta (z2p.get i) (Ac.get i)
        (beta.get i) (gamma_A.get i) :=
  ArrProof.CrestWall_calculate_influence_oblique_waves_horizontal_force_gamma_FH_beta z2p Ac beta gamma_A i

theorem C83_CrestWall_calculate_influence_oblique_waves_vertical_force_gamma_FV_beta (z2p Ac beta gamma_A :
    Val n) (i : Fin n) :
    (Arr.CrestWall.calculate_influence_oblique_waves_vertical_force_gamma_FV_beta z2p Ac beta gamma_A).get i =
      CrestWall.calculate_influence_oblique_waves_vertical_force_gamma_FV_beta (z2p.get i) (Ac.get i)
        (beta.get i) (gamma_A.get i) :=
  ArrProof.CrestWall_calculate_influence_oblique_waves_vertical_force_gamma_FV_beta z2p Ac beta gamma_A i

theorem C83_CrestWall_calculate_influence_oblique_waves_gamma_beta (beta c_beta : Val n) (i : Fin n) :
    (Arr.CrestWall.calculate_influence_oblique_waves_gamma_beta beta c_beta).get i =
      CrestWall.calculate_influence_oblique_waves_gamma_beta (beta.get i) (c_beta.get i) :=
  ArrProof.CrestWall_calculate_influence_oblique_waves_gamma_beta beta c_beta i

theorem C83_CrestWall_calculate_FH2p_perpendicular_from_z2p [NeZero n] (Hm0 z2p Ac Rc Hwall rho_water g cFH :
    Val n) :
    CaseByCase (Arr.CrestWall.calculate_FH2p_perpendicular_from_z2p Hm0 z2p Ac Rc Hwall rho_water g cFH)
      (fun i => CrestWall.calculate_FH2p_perpendicular_from_z2p (Hm0.get i) (z2p.get i) (Ac.get i) (Rc.get i)
        (Hwall.get i) (rho_water.get i) (g.get i) (cFH.get i)) :=
  (ArrProof.CrestWall_calculate_FH2p_perpendicular_from_z2p (U := False) Hm0 z2p Ac Rc Hwall rho_water g cFH
      (fun h => h.elim)).vals

theorem C83_CrestWall_calculate_FH2p_perpendicular [NeZero n] (Hm0 Tmm10 cot_alpha Ac Rc Hwall gamma_beta
    gamma_f c0 c1 rho_water g cFH : Val n) :
    CaseByCase (Arr.CrestWall.calculate_FH2p_perpendicular Hm0 Tmm10 cot_alpha Ac Rc Hwall gamma_beta gamma_f
      c0 c1 rho_water g cFH)
      (fun i => CrestWall.calculate_FH2p_perpendicular (Hm0.get i) (Tmm10.get i) (cot_alpha.get i) (Ac.get i)
        (Rc.get i) (Hwall.get i) (gamma_beta.get i) (gamma_f.get i) (c0.get i) (c1.get i) (rho_water.get i)
        (g.get i) (cFH.get i)) :=
  (ArrProof.CrestWall_calculate_FH2p_perpendicular Hm0 Tmm10 cot_alpha Ac Rc Hwall gamma_beta gamma_f c0 c1
      rho_water g cFH).vals

theorem C83_CrestWall_calculate_FH2p_oblique [NeZero n] (Hm0 Tmm10 beta cot_alpha Ac Rc Hwall gamma_beta
    gamma_f c0 c1 cFH rho_water g : Val n) :
    CaseByCase (Arr.CrestWall.calculate_FH2p_oblique Hm0 Tmm10 beta cot_alpha Ac Rc Hwall gamma_beta gamma_f
      c0 c1 cFH rho_water g)
      (fun i => CrestWall.calculate_FH2p_oblique (Hm0.get i) (Tmm10.get i) (beta.get i) (cot_alpha.get i)
        (Ac.get i) (Rc.get i) (Hwall.get i) (gamma_beta.get i) (gamma_f.get i) (c0.get i) (c1.get i) (cFH.get
        i) (rho_water.get i) (g.get i)) :=
  (ArrProof.CrestWall_calculate_FH2p_oblique Hm0 Tmm10 beta cot_alpha Ac Rc Hwall gamma_beta gamma_f c0 c1 cFH
      rho_water g).vals

theorem C83_CrestWall_calculate_FV2p_perpendicular_from_z2p (z2p Ac Bwall Fb cFV cFb rho_water g : Val n) (i :
    Fin n) :
    (Arr.CrestWall.calculate_FV2p_perpendicular_from_z2p z2p Ac Bwall Fb cFV cFb rho_water g).get i =
      CrestWall.calculate_FV2p_perpendicular_from_z2p (z2p.get i) (Ac.get i) (Bwall.get i) (Fb.get i) (cFV.get
        i) (cFb.get i) (rho_water.get i) (g.get i) :=
  ArrProof.CrestWall_calculate_FV2p_perpendicular_from_z2p z2p Ac Bwall Fb cFV cFb rho_water g i

theorem C83_CrestWall_calculate_FV2p_perpendicular [NeZero n] (Hm0 Tmm10 cot_alpha Ac Bwall Fb gamma_beta
    gamma_f c0 c1 cFV cFb rho_water g : Val n) :
    CaseByCase (Arr.CrestWall.calculate_FV2p_perpendicular Hm0 Tmm10 cot_alpha Ac Bwall Fb gamma_beta gamma_f
      c0 c1 cFV cFb rho_water g)
      (fun i => CrestWall.calculate_FV2p_perpendicular (Hm0.get i) (Tmm10.get i) (cot_alpha.get i) (Ac.get i)
        (Bwall.get i) (Fb.get i) (gamma_beta.get i) (gamma_f.get i) (c0.get i) (c1.get i) (cFV.get i) (cFb.get
        i) (rho_water.get i) (g.get i)) :=
  (ArrProof.CrestWall_calculate_FV2p_perpendicular (U := False) Hm0 Tmm10 cot_alpha Ac Bwall Fb gamma_beta
      gamma_f c0 c1 cFV cFb rho_water g (fun h => h.elim)).vals

theorem C83_CrestWall_calculate_FV2p_oblique [NeZero n] (Hm0 Tmm10 beta cot_alpha Ac Bwall Fb gamma_beta
    gamma_f c0 c1 cFV cFb rho_water g : Val n) :
    CaseByCase (Arr.CrestWall.calculate_FV2p_oblique Hm0 Tmm10 beta cot_alpha Ac Bwall Fb gamma_beta gamma_f
      c0 c1 cFV cFb rho_water g)
      (fun i => CrestWall.calculate_FV2p_oblique (Hm0.get i) (Tmm10.get i) (beta.get i) (cot_alpha.get i)
        (Ac.get i) (Bwall.get i) (Fb.get i) (gamma_beta.get i) (gamma_f.get i) (c0.get i) (c1.get i) (cFV.get
        i) (cFb.get i) (rho_water.get i) (g.get i)) :=
  (ArrProof.CrestWall_calculate_FV2p_oblique (U := False) Hm0 Tmm10 beta cot_alpha Ac Bwall Fb gamma_beta
      gamma_f c0 c1 cFV cFb rho_water g (fun h => h.elim)).vals

theorem C83_CrestWall_calculate_FH01p_perpendicular (FH2p : Val n) (i : Fin n) :
    (Arr.CrestWall.calculate_FH01p_perpendicular FH2p).get i =
      CrestWall.calculate_FH01p_perpendicular (FH2p.get i) :=
  ArrProof.CrestWall_calculate_FH01p_perpendicular FH2p i

theorem C83_CrestWall_calculate_FV01p_perpendicular (FV2p s0p : Val n) (i : Fin n) :
    (Arr.CrestWall.calculate_FV01p_perpendicular FV2p s0p).get i =
      CrestWall.calculate_FV01p_perpendicular (FV2p.get i) (s0p.get i) :=
  ArrProof.CrestWall_calculate_FV01p_perpendicular FV2p s0p i

theorem C83_RunupTaw2002_determine_average_slope (Hm0 z2p cot_alpha_down cot_alpha_up B_berm db : Val n) (i :
    Fin n) :
    (Arr.RunupTaw2002.determine_average_slope Hm0 z2p cot_alpha_down cot_alpha_up B_berm db).get i =
      RunupTaw2002.determine_average_slope (Hm0.get i) (z2p.get i) (cot_alpha_down.get i) (cot_alpha_up.get i)
        (B_berm.get i) (db.get i) :=
  ArrProof.RunupTaw2002_determine_average_slope Hm0 z2p cot_alpha_down cot_alpha_up B_berm db i

theorem C83_RunupTaw2002_calculate_berm_length [NeZero n] (Hm0 B_berm cot_alpha cot_alpha_down cot_alpha_up :
    Val n)
    (h_cot_alpha : cot_alpha.Uniform)
    (h_cot_alpha_down : cot_alpha_down.Uniform)
    (h_cot_alpha_up : cot_alpha_up.Uniform) :
    CaseByCase (Arr.RunupTaw2002.calculate_berm_length Hm0 B_berm cot_alpha cot_alpha_down cot_alpha_up)
      (fun i => RunupTaw2002.calculate_berm_length (Hm0.get i) (B_berm.get i) (cot_alpha.get i)
        (cot_alpha_down.get i) (cot_alpha_up.get i)) :=
  (ArrProof.RunupTaw2002_calculate_berm_length (U := False) Hm0 B_berm cot_alpha cot_alpha_down cot_alpha_up
      h_cot_alpha h_cot_alpha_down h_cot_alpha_up (fun h => h.elim)).vals

example := C83_RunupTaw2002_calculate_berm_length (n := 2) ArrEx.two ArrEx.two ArrEx.two ArrEx.two ArrEx.two
  (by arr_ex) (by arr_ex) (by arr_ex)

theorem C83_RunupTaw2002_calculate_influence_oblique_waves_gamma_beta (beta : Val n) (c_gamma_beta max_angle :
    PF) (i : Fin n) :
    (Arr.RunupTaw2002.calculate_influence_oblique_waves_gamma_beta beta c_gamma_beta max_angle).get i =
      RunupTaw2002.calculate_influence_oblique_waves_gamma_beta (beta.get i) c_gamma_beta max_angle :=
  ArrProof.RunupTaw2002_calculate_influence_oblique_waves_gamma_beta beta c_gamma_beta max_angle i

theorem C83_RunupTaw2002_calculate_adjusted_influence_roughness_gamma_f (gamma_f gamma_b ksi_mm10 : Val n) (i
    : Fin n) :
    (Arr.RunupTaw2002.calculate_adjusted_influence_roughness_gamma_f gamma_f gamma_b ksi_mm10).get i =
      RunupTaw2002.calculate_adjusted_influence_roughness_gamma_f (gamma_f.get i) (gamma_b.get i)
        (ksi_mm10.get i) :=
  ArrProof.RunupTaw2002_calculate_adjusted_influence_roughness_gamma_f gamma_f gamma_b ksi_mm10 i

theorem C83_OvertoppingEurOtop2007_check_best_fit (c2 c3 : PF) (b : Bool) :
    Arr.OvertoppingEurOtop2007.check_best_fit c2 c3 b = OvertoppingEurOtop2007.check_best_fit c2 c3 b :=
  ArrProof.OvertoppingEurOtop2007_check_best_fit c2 c3 b

theorem C83_OvertoppingEurOtop2018_check_best_fit (c1 c2 c3 c4 : PF) (b : Bool) :
    Arr.OvertoppingEurOtop2018.check_best_fit c1 c2 c3 c4 b =
      OvertoppingEurOtop2018.check_best_fit c1 c2 c3 c4 b :=
  ArrProof.OvertoppingEurOtop2018_check_best_fit c1 c2 c3 c4 b

theorem C83_OvertoppingTaw2002_q_diml_max_equation (Hm0 Rc gamma_beta gamma_f : Val n) (c3 : PF) (cor3 : Val
    n) (c2 : PF) (i : Fin n) :
    (Arr.OvertoppingTaw2002.q_diml_max_equation Hm0 Rc gamma_beta gamma_f c3 cor3 c2).get i =
      OvertoppingTaw2002.q_diml_max_equation (Hm0.get i) (Rc.get i) (gamma_beta.get i) (gamma_f.get i) c3
        (cor3.get i) c2 :=
  ArrProof.OvertoppingTaw2002_q_diml_max_equation Hm0 Rc gamma_beta gamma_f c3 cor3 c2 i

theorem C83_OvertoppingTaw2002_calculate_influence_oblique_waves_gamma_beta (beta : Val n) (c_gamma_beta
    max_angle : PF) (i : Fin n) :
    (Arr.OvertoppingTaw2002.calculate_influence_oblique_waves_gamma_beta beta c_gamma_beta max_angle).get i =
      OvertoppingTaw2002.calculate_influence_oblique_waves_gamma_beta (beta.get i) c_gamma_beta max_angle :=
  ArrProof.OvertoppingTaw2002_calculate_influence_oblique_waves_gamma_beta beta c_gamma_beta max_angle i

theorem C83_OvertoppingTaw2002_calculate_influence_crest_wall_gamma_v (alpha_wall_deg : Val n) (i : Fin n) :
    (Arr.OvertoppingTaw2002.calculate_influence_crest_wall_gamma_v alpha_wall_deg).get i =
      OvertoppingTaw2002.calculate_influence_crest_wall_gamma_v (alpha_wall_deg.get i) :=
  ArrProof.OvertoppingTaw2002_calculate_influence_crest_wall_gamma_v alpha_wall_deg i

theorem C83_OvertoppingTaw2002_Rc_diml_max_equation (Hm0 q gamma_beta gamma_f : Val n) (c3 : PF) (cor3 : Val
    n) (c2 : PF) (g : Val n) (i : Fin n) :
    (Arr.OvertoppingTaw2002.Rc_diml_max_equation Hm0 q gamma_beta gamma_f c3 cor3 c2 g).get i =
      OvertoppingTaw2002.Rc_diml_max_equation (Hm0.get i) (q.get i) (gamma_beta.get i) (gamma_f.get i) c3
        (cor3.get i) c2 (g.get i) :=
  ArrProof.OvertoppingTaw2002_Rc_diml_max_equation Hm0 q gamma_beta gamma_f c3 cor3 c2 g i

theorem C83_OvertoppingEurOtop2007_calculate_dimensionless_overtopping_discharge_q_rubble_mound [NeZero n]
    (Hm0 Tmm10 Rc beta gamma_beta gamma_f cot_alpha : Val n) (c2 c3 : PF) (use_best_fit : Bool)
    (h_beta : beta.Uniform)
    (h_gamma_beta : gamma_beta.Uniform) :
    CaseByCase (Arr.OvertoppingEurOtop2007.calculate_dimensionless_overtopping_discharge_q_rubble_mound Hm0
      Tmm10 Rc beta gamma_beta gamma_f cot_alpha c2 c3 use_best_fit)
      (fun i => OvertoppingEurOtop2007.calculate_dimensionless_overtopping_discharge_q_rubble_mound (Hm0.get
        i) (Tmm10.get i) (Rc.get i) (beta.get i) (gamma_beta.get i) (gamma_f.get i) (cot_alpha.get i) c2 c3
        use_best_fit) :=
  (ArrProof.OvertoppingEurOtop2007_calculate_dimensionless_overtopping_discharge_q_rubble_mound (U := False)
      Hm0 Tmm10 Rc beta gamma_beta gamma_f cot_alpha c2 c3 use_best_fit h_beta h_gamma_beta (fun h =>
      h.elim)).vals

example := C83_OvertoppingEurOtop2007_calculate_dimensionless_overtopping_discharge_q_rubble_mound (n := 2)
  ArrEx.two ArrEx.two ArrEx.two ArrEx.two ArrEx.two ArrEx.two ArrEx.two (.fin 1) (.fin 1) true (by arr_ex)
  (by arr_ex)

theorem C83_OvertoppingEurOtop2007_calculate_overtopping_discharge_q_rubble_mound [NeZero n] (Hm0 Tmm10 Rc
    beta gamma_beta gamma_f cot_alpha : Val n) (c2 c3 : PF) (use_best_fit : Bool) (g : Val n)
    (h_beta : beta.Uniform)
    (h_gamma_beta : gamma_beta.Uniform) :
    CaseByCase (Arr.OvertoppingEurOtop2007.calculate_overtopping_discharge_q_rubble_mound Hm0 Tmm10 Rc beta
      gamma_beta gamma_f cot_alpha c2 c3 use_best_fit g)
      (fun i => OvertoppingEurOtop2007.calculate_overtopping_discharge_q_rubble_mound (Hm0.get i) (Tmm10.get
        i) (Rc.get i) (beta.get i) (gamma_beta.get i) (gamma_f.get i) (cot_alpha.get i) c2 c3 use_best_fit
        (g.get i)) :=
  (ArrProof.OvertoppingEurOtop2007_calculate_overtopping_discharge_q_rubble_mound (U := False) Hm0 Tmm10 Rc
      beta gamma_beta gamma_f cot_alpha c2 c3 use_best_fit g h_beta h_gamma_beta (fun h => h.elim)).vals

example := C83_OvertoppingEurOtop2007_calculate_overtopping_discharge_q_rubble_mound (n := 2) ArrEx.two
  ArrEx.two ArrEx.two ArrEx.two ArrEx.two ArrEx.two ArrEx.two (.fin 1) (.fin 1) true ArrEx.two (by arr_ex)
  (by arr_ex)

theorem C83_OvertoppingEurOtop2007_calculate_dimensionless_crest_freeboard_rubble_mound [NeZero n] (Hm0 Tmm10
    q beta gamma_beta gamma_f cot_alpha : Val n) (c2 c3 : PF) (use_best_fit : Bool)
    (h_beta : beta.Uniform)
    (h_gamma_beta : gamma_beta.Uniform) :
    CaseByCase (Arr.OvertoppingEurOtop2007.calculate_dimensionless_crest_freeboard_rubble_mound Hm0 Tmm10 q
      beta gamma_beta gamma_f cot_alpha c2 c3 use_best_fit)
      (fun i => OvertoppingEurOtop2007.calculate_dimensionless_crest_freeboard_rubble_mound (Hm0.get i)
        (Tmm10.get i) (q.get i) (beta.get i) (gamma_beta.get i) (gamma_f.get i) (cot_alpha.get i) c2 c3
        use_best_fit) :=
  (ArrProof.OvertoppingEurOtop2007_calculate_dimensionless_crest_freeboard_rubble_mound (U := False) Hm0 Tmm10
      q beta gamma_beta gamma_f cot_alpha c2 c3 use_best_fit h_beta h_gamma_beta (fun h => h.elim)).vals

example := C83_OvertoppingEurOtop2007_calculate_dimensionless_crest_freeboard_rubble_mound (n := 2)
  ArrEx.two ArrEx.two ArrEx.two ArrEx.two ArrEx.two ArrEx.two ArrEx.two (.fin 1) (.fin 1) true (by arr_ex)
  (by arr_ex)

theorem C83_OvertoppingEurOtop2007_calculate_crest_freeboard_Rc_rubble_mound [NeZero n] (Hm0 Tmm10 q beta
    gamma_beta gamma_f cot_alpha : Val n) (c2 c3 : PF) (use_best_fit : Bool)
    (h_beta : beta.Uniform)
    (h_gamma_beta : gamma_beta.Uniform) :
    CaseByCase (Arr.OvertoppingEurOtop2007.calculate_crest_freeboard_Rc_rubble_mound Hm0 Tmm10 q beta
      gamma_beta gamma_f cot_alpha c2 c3 use_best_fit)
      (fun i => OvertoppingEurOtop2007.calculate_crest_freeboard_Rc_rubble_mound (Hm0.get i) (Tmm10.get i)
        (q.get i) (beta.get i) (gamma_beta.get i) (gamma_f.get i) (cot_alpha.get i) c2 c3 use_best_fit) :=
  (ArrProof.OvertoppingEurOtop2007_calculate_crest_freeboard_Rc_rubble_mound (U := False) Hm0 Tmm10 q beta
      gamma_beta gamma_f cot_alpha c2 c3 use_best_fit h_beta h_gamma_beta (fun h => h.elim)).vals

example := C83_OvertoppingEurOtop2007_calculate_crest_freeboard_Rc_rubble_mound (n := 2) ArrEx.two ArrEx.two
  ArrEx.two ArrEx.two ArrEx.two ArrEx.two ArrEx.two (.fin 1) (.fin 1) true (by arr_ex) (by arr_ex)

theorem C83_OvertoppingEurOtop2018_q_diml_max_equation (Hm0 Rc gamma_beta gamma_f gamma_star : Val n) (c2 c3 :
    PF) (i : Fin n) :
    (Arr.OvertoppingEurOtop2018.q_diml_max_equation Hm0 Rc gamma_beta gamma_f gamma_star c2 c3).get i =
      OvertoppingEurOtop2018.q_diml_max_equation (Hm0.get i) (Rc.get i) (gamma_beta.get i) (gamma_f.get i)
        (gamma_star.get i) c2 c3 :=
  ArrProof.OvertoppingEurOtop2018_q_diml_max_equation Hm0 Rc gamma_beta gamma_f gamma_star c2 c3 i

theorem C83_OvertoppingEurOtop2018_Rc_diml_max_equation (Hm0 q gamma_beta gamma_f gamma_star : Val n) (c2 c3 :
    PF) (g : Val n) (i : Fin n) :
    (Arr.OvertoppingEurOtop2018.Rc_diml_max_equation Hm0 q gamma_beta gamma_f gamma_star c2 c3 g).get i =
      OvertoppingEurOtop2018.Rc_diml_max_equation (Hm0.get i) (q.get i) (gamma_beta.get i) (gamma_f.get i)
        (gamma_star.get i) c2 c3 (g.get i) :=
  ArrProof.OvertoppingEurOtop2018_Rc_diml_max_equation Hm0 q gamma_beta gamma_f gamma_star c2 c3 g i

theorem C83_RunupTaw2002_calculate_dimensionless_wave_runup_height_z2p [NeZero n] (Hm0 Tmm10 beta gamma_beta :
    Val n) (gamma_b : PF) (gamma_f B_berm db cot_alpha : Val n) (c1 c2 c3 c4 : PF) (use_best_fit : Bool)
    (h_beta : beta.Uniform)
    (h_gamma_beta : gamma_beta.Uniform)
    (h_cot_alpha : cot_alpha.Uniform) :
    CaseByCase (Arr.RunupTaw2002.calculate_dimensionless_wave_runup_height_z2p
        ⟨Hm0, Tmm10, beta, gamma_beta, .num gamma_b, gamma_f, B_berm, db, cot_alpha, Val.nan, Val.nan,
          c1, c2, c3, c4, use_best_fit⟩)
      (fun i => RunupTaw2002.calculate_dimensionless_wave_runup_height_z2p
        ⟨Hm0.get i, Tmm10.get i, beta.get i, gamma_beta.get i, gamma_b, gamma_f.get i, B_berm.get i,
          db.get i, cot_alpha.get i, PF.nan, PF.nan, c1, c2, c3, c4, use_best_fit⟩) :=
  (ArrProof.RunupTaw2002_calculate_dimensionless_wave_runup_height_z2p Hm0 Tmm10 beta gamma_beta gamma_b
      gamma_f B_berm db cot_alpha c1 c2 c3 c4 use_best_fit h_beta h_gamma_beta h_cot_alpha).vals

example := C83_RunupTaw2002_calculate_dimensionless_wave_runup_height_z2p (n := 2) ArrEx.two ArrEx.two
  ArrEx.two ArrEx.two (.fin 1) ArrEx.two ArrEx.two ArrEx.two ArrEx.two (.fin 1) (.fin 1) (.fin 1) (.fin 1)
  true (by arr_ex) (by arr_ex) (by arr_ex)

theorem C83_RunupTaw2002_calculate_wave_runup_height_z2p [NeZero n] (Hm0 Tmm10 beta gamma_beta : Val n)
    (gamma_b : PF) (gamma_f B_berm db cot_alpha : Val n) (c1 c2 c3 c4 : PF) (use_best_fit : Bool)
    (h_beta : beta.Uniform)
    (h_gamma_beta : gamma_beta.Uniform)
    (h_cot_alpha : cot_alpha.Uniform) :
    CaseByCase (Arr.RunupTaw2002.calculate_wave_runup_height_z2p
        ⟨Hm0, Tmm10, beta, gamma_beta, .num gamma_b, gamma_f, B_berm, db, cot_alpha, Val.nan, Val.nan,
          c1, c2, c3, c4, use_best_fit⟩)
      (fun i => RunupTaw2002.calculate_wave_runup_height_z2p
        ⟨Hm0.get i, Tmm10.get i, beta.get i, gamma_beta.get i, gamma_b, gamma_f.get i, B_berm.get i,
          db.get i, cot_alpha.get i, PF.nan, PF.nan, c1, c2, c3, c4, use_best_fit⟩) :=
  (ArrProof.RunupTaw2002_calculate_wave_runup_height_z2p Hm0 Tmm10 beta gamma_beta gamma_b gamma_f B_berm db
      cot_alpha c1 c2 c3 c4 use_best_fit h_beta h_gamma_beta h_cot_alpha).vals

example := C83_RunupTaw2002_calculate_wave_runup_height_z2p (n := 2) ArrEx.two ArrEx.two ArrEx.two ArrEx.two
  (.fin 1) ArrEx.two ArrEx.two ArrEx.two ArrEx.two (.fin 1) (.fin 1) (.fin 1) (.fin 1) true (by arr_ex) (by
  arr_ex) (by arr_ex)

theorem C83_RunupEurOtop2018_check_best_fit (c1 c2 c3 c4 : PF) (b : Bool) :
    Arr.RunupEurOtop2018.check_best_fit c1 c2 c3 c4 b =
      RunupEurOtop2018.check_best_fit c1 c2 c3 c4 b :=
  ArrProof.RunupEurOtop2018_check_best_fit c1 c2 c3 c4 b

theorem C83_RunupEurOtop2018_calculate_influence_oblique_waves_gamma_beta_partial [NeZero n] (beta : Val n)
    (gamma_f gamma_f_crit smooth rough max_angle : PF) :
    CaseByCase (Arr.RunupEurOtop2018.calculate_influence_oblique_waves_gamma_beta beta (.num gamma_f)
        gamma_f_crit smooth rough max_angle)
      (fun i => pure (RunupEurOtop2018.calculate_influence_oblique_waves_gamma_beta (beta.get i) gamma_f
        gamma_f_crit smooth rough max_angle)) :=
  (ArrProof.RunupEurOtop2018_calculate_influence_oblique_waves_gamma_beta (U := False) beta gamma_f
      gamma_f_crit smooth rough max_angle).vals

theorem C83_RunupEurOtop2018_calculate_dimensionless_wave_runup_height_z2p_partial [NeZero n] (Hm0 Tmm10 beta
    gamma_beta : Val n) (gamma_b gamma_f : PF) (B_berm db cot_alpha : Val n) (c1 c2 c3 c4 : PF) (use_best_fit
    : Bool)
    (h_beta : beta.Uniform)
    (h_cot_alpha : cot_alpha.Uniform) :
    CaseByCase (Arr.RunupEurOtop2018.calculate_dimensionless_wave_runup_height_z2p
        Hm0 Tmm10 beta gamma_beta (.num gamma_b) (.num gamma_f) B_berm db cot_alpha Val.nan Val.nan
          c1 c2 c3 c4 use_best_fit)
      (fun i => RunupEurOtop2018.calculate_dimensionless_wave_runup_height_z2p
        (Hm0.get i) (Tmm10.get i) (beta.get i) (gamma_beta.get i) gamma_b gamma_f (B_berm.get i)
          (db.get i) (cot_alpha.get i) PF.nan PF.nan c1 c2 c3 c4 use_best_fit) :=
  (ArrProof.RunupEurOtop2018_calculate_dimensionless_wave_runup_height_z2p Hm0 Tmm10 beta gamma_beta gamma_b
      gamma_f B_berm db cot_alpha c1 c2 c3 c4 use_best_fit h_beta h_cot_alpha).vals

example := C83_RunupEurOtop2018_calculate_dimensionless_wave_runup_height_z2p_partial (n := 2) ArrEx.two
  ArrEx.two ArrEx.two ArrEx.two (.fin 1) (.fin 1) ArrEx.two ArrEx.two ArrEx.two (.fin 1) (.fin 1) (.fin 1)
  (.fin 1) true (by arr_ex) (by arr_ex)

theorem C83_RunupEurOtop2018_calculate_wave_runup_height_z2p_partial [NeZero n] (Hm0 Tmm10 beta gamma_beta :
    Val n) (gamma_b gamma_f : PF) (B_berm db cot_alpha : Val n) (c1 c2 c3 c4 : PF) (use_best_fit : Bool)
    (h_beta : beta.Uniform)
    (h_cot_alpha : cot_alpha.Uniform) :
    CaseByCase (Arr.RunupEurOtop2018.calculate_wave_runup_height_z2p
        Hm0 Tmm10 beta gamma_beta (.num gamma_b) (.num gamma_f) B_berm db cot_alpha Val.nan Val.nan
          c1 c2 c3 c4 use_best_fit)
      (fun i => RunupEurOtop2018.calculate_wave_runup_height_z2p
        (Hm0.get i) (Tmm10.get i) (beta.get i) (gamma_beta.get i) gamma_b gamma_f (B_berm.get i)
          (db.get i) (cot_alpha.get i) PF.nan PF.nan c1 c2 c3 c4 use_best_fit) :=
  (ArrProof.RunupEurOtop2018_calculate_wave_runup_height_z2p Hm0 Tmm10 beta gamma_beta gamma_b gamma_f B_berm
      db cot_alpha c1 c2 c3 c4 use_best_fit h_beta h_cot_alpha).vals

example := C83_RunupEurOtop2018_calculate_wave_runup_height_z2p_partial (n := 2) ArrEx.two ArrEx.two
  ArrEx.two ArrEx.two (.fin 1) (.fin 1) ArrEx.two ArrEx.two ArrEx.two (.fin 1) (.fin 1) (.fin 1) (.fin 1)
  true (by arr_ex) (by arr_ex)

theorem C83_OvertoppingTaw2002_calculate_dimensionless_overtopping_discharge_q_partial [NeZero n] (Hm0 Tmm10
    Rc cot_alpha beta : Val n) (B_berm : PF) (db gamma_beta : Val n) (gamma_b : PF) (gamma_f gamma_v : Val n)
    (sigma : PF) (use_best_fit : Bool)
    (h_cot_alpha : cot_alpha.Uniform)
    (h_beta : beta.Uniform)
    (h_gamma_beta : gamma_beta.Uniform)
    (h_berm : ¬ gamma_b.isnan ∨ PF.eqF B_berm 0.0)
    (h_shape : gamma_v.isArray → Hm0.isArray || Tmm10.isArray || Rc.isArray || cot_alpha.isArray ||
      gamma_f.isArray) :
    CaseByCase (Arr.OvertoppingTaw2002.calculate_dimensionless_overtopping_discharge_q Hm0 Tmm10 Rc cot_alpha
      Val.nan Val.nan beta (.num B_berm) db
        gamma_beta (.num gamma_b) gamma_f gamma_v (.num sigma) use_best_fit)
      (fun i => OvertoppingTaw2002.calculate_dimensionless_overtopping_discharge_q (Hm0.get i) (Tmm10.get i)
        (Rc.get i) (cot_alpha.get i) PF.nan
        PF.nan (beta.get i) B_berm (db.get i) (gamma_beta.get i) gamma_b (gamma_f.get i)
        (gamma_v.get i) sigma use_best_fit) :=
  (ArrProof.OvertoppingTaw2002_calculate_dimensionless_overtopping_discharge_q Hm0 Tmm10 Rc cot_alpha beta
      B_berm db gamma_beta gamma_b gamma_f gamma_v sigma use_best_fit h_cot_alpha h_beta h_gamma_beta h_berm
      h_shape).vals

example := C83_OvertoppingTaw2002_calculate_dimensionless_overtopping_discharge_q_partial (n := 2) ArrEx.two
  ArrEx.two ArrEx.two ArrEx.two ArrEx.two 0.0 ArrEx.two ArrEx.two (.fin 1) ArrEx.two ArrEx.two (.fin 1) true
  (by arr_ex) (by arr_ex) (by arr_ex) (by arr_ex) (by arr_ex)

theorem C83_OvertoppingTaw2002_calculate_overtopping_discharge_q_partial [NeZero n] (Hm0 Tmm10 Rc cot_alpha
    beta : Val n) (B_berm : PF) (db gamma_beta : Val n) (gamma_b : PF) (gamma_f gamma_v : Val n) (sigma : PF)
    (g : Val n) (use_best_fit : Bool)
    (h_cot_alpha : cot_alpha.Uniform)
    (h_beta : beta.Uniform)
    (h_gamma_beta : gamma_beta.Uniform)
    (h_berm : ¬ gamma_b.isnan ∨ PF.eqF B_berm 0.0)
    (h_shape : gamma_v.isArray → Hm0.isArray || Tmm10.isArray || Rc.isArray || cot_alpha.isArray ||
      gamma_f.isArray) :
    CaseByCase (Arr.OvertoppingTaw2002.calculate_overtopping_discharge_q Hm0 Tmm10 Rc cot_alpha Val.nan
      Val.nan beta (.num B_berm) db
        gamma_beta (.num gamma_b) gamma_f gamma_v (.num sigma) g use_best_fit)
      (fun i => OvertoppingTaw2002.calculate_overtopping_discharge_q (Hm0.get i) (Tmm10.get i) (Rc.get i)
        (cot_alpha.get i) PF.nan
        PF.nan (beta.get i) B_berm (db.get i) (gamma_beta.get i) gamma_b (gamma_f.get i)
        (gamma_v.get i) sigma (g.get i) use_best_fit) :=
  (ArrProof.OvertoppingTaw2002_calculate_overtopping_discharge_q Hm0 Tmm10 Rc cot_alpha beta B_berm db
      gamma_beta gamma_b gamma_f gamma_v sigma g use_best_fit h_cot_alpha h_beta h_gamma_beta h_berm
      h_shape).vals

example := C83_OvertoppingTaw2002_calculate_overtopping_discharge_q_partial (n := 2) ArrEx.two ArrEx.two
  ArrEx.two ArrEx.two ArrEx.two 0.0 ArrEx.two ArrEx.two (.fin 1) ArrEx.two ArrEx.two (.fin 1) ArrEx.two true
  (by arr_ex) (by arr_ex) (by arr_ex) (by arr_ex) (by arr_ex)

theorem C83_OvertoppingTaw2002_calculate_dimensionless_crest_freeboard_partial [NeZero n] (Hm0 Tmm10 q
    cot_alpha beta : Val n) (B_berm : PF) (db gamma_beta : Val n) (gamma_b : PF) (gamma_f gamma_v : Val n)
    (sigma : PF) (g : Val n) (use_best_fit : Bool)
    (h_cot_alpha : cot_alpha.Uniform)
    (h_beta : beta.Uniform)
    (h_gamma_beta : gamma_beta.Uniform)
    (h_berm : ¬ gamma_b.isnan ∨ PF.eqF B_berm 0.0)
    (h_shape : gamma_v.isArray || g.isArray → Hm0.isArray || Tmm10.isArray || q.isArray || cot_alpha.isArray
      ||
      gamma_f.isArray) :
    CaseByCase (Arr.OvertoppingTaw2002.calculate_dimensionless_crest_freeboard Hm0 Tmm10 q cot_alpha Val.nan
      Val.nan beta (.num B_berm) db
        gamma_beta (.num gamma_b) gamma_f gamma_v (.num sigma) g use_best_fit)
      (fun i => OvertoppingTaw2002.calculate_dimensionless_crest_freeboard (Hm0.get i) (Tmm10.get i) (q.get i)
        (cot_alpha.get i) PF.nan
        PF.nan (beta.get i) B_berm (db.get i) (gamma_beta.get i) gamma_b (gamma_f.get i)
        (gamma_v.get i) sigma (g.get i) use_best_fit) :=
  (ArrProof.OvertoppingTaw2002_calculate_dimensionless_crest_freeboard Hm0 Tmm10 q cot_alpha beta B_berm db
      gamma_beta gamma_b gamma_f gamma_v sigma g use_best_fit h_cot_alpha h_beta h_gamma_beta h_berm
      h_shape).vals

example := C83_OvertoppingTaw2002_calculate_dimensionless_crest_freeboard_partial (n := 2) ArrEx.two
  ArrEx.two ArrEx.two ArrEx.two ArrEx.two 0.0 ArrEx.two ArrEx.two (.fin 1) ArrEx.two ArrEx.two (.fin 1)
  ArrEx.two true (by arr_ex) (by arr_ex) (by arr_ex) (by arr_ex) (by arr_ex)

theorem C83_OvertoppingTaw2002_calculate_crest_freeboard_Rc_partial [NeZero n] (Hm0 Tmm10 q cot_alpha beta :
    Val n) (B_berm : PF) (db gamma_beta : Val n) (gamma_b : PF) (gamma_f gamma_v : Val n) (sigma : PF) (g :
    Val n) (use_best_fit : Bool)
    (h_cot_alpha : cot_alpha.Uniform)
    (h_beta : beta.Uniform)
    (h_gamma_beta : gamma_beta.Uniform)
    (h_berm : ¬ gamma_b.isnan ∨ PF.eqF B_berm 0.0)
    (h_shape : gamma_v.isArray || g.isArray → Hm0.isArray || Tmm10.isArray || q.isArray || cot_alpha.isArray
      ||
      gamma_f.isArray) :
    CaseByCase (Arr.OvertoppingTaw2002.calculate_crest_freeboard_Rc Hm0 Tmm10 q cot_alpha Val.nan Val.nan beta
      (.num B_berm) db
        gamma_beta (.num gamma_b) gamma_f gamma_v (.num sigma) g use_best_fit)
      (fun i => OvertoppingTaw2002.calculate_crest_freeboard_Rc (Hm0.get i) (Tmm10.get i) (q.get i)
        (cot_alpha.get i) PF.nan
        PF.nan (beta.get i) B_berm (db.get i) (gamma_beta.get i) gamma_b (gamma_f.get i)
        (gamma_v.get i) sigma (g.get i) use_best_fit) :=
  (ArrProof.OvertoppingTaw2002_calculate_crest_freeboard_Rc Hm0 Tmm10 q cot_alpha beta B_berm db gamma_beta
      gamma_b gamma_f gamma_v sigma g use_best_fit h_cot_alpha h_beta h_gamma_beta h_berm h_shape).vals

example := C83_OvertoppingTaw2002_calculate_crest_freeboard_Rc_partial (n := 2) ArrEx.two ArrEx.two
  ArrEx.two ArrEx.two ArrEx.two 0.0 ArrEx.two ArrEx.two (.fin 1) ArrEx.two ArrEx.two (.fin 1) ArrEx.two true
  (by arr_ex) (by arr_ex) (by arr_ex) (by arr_ex) (by arr_ex)

theorem C83_OvertoppingEurOtop2018_calculate_influence_oblique_waves_gamma_beta_partial [NeZero n] (beta : Val
    n) (gamma_f gamma_f_crit smooth rough max_angle : PF) :
    CaseByCase (Arr.OvertoppingEurOtop2018.calculate_influence_oblique_waves_gamma_beta beta (.num gamma_f)
        gamma_f_crit smooth rough max_angle)
      (fun i => pure (OvertoppingEurOtop2018.calculate_influence_oblique_waves_gamma_beta (beta.get i)
        gamma_f gamma_f_crit smooth rough max_angle)) :=
  (ArrProof.OvertoppingEurOtop2018_calculate_influence_oblique_waves_gamma_beta (U := False) beta gamma_f
      gamma_f_crit smooth rough max_angle).vals

theorem C83_RunupEurOtop2018_iteration_procedure_gamma_b_partial [NeZero n] (Hm0 Tmm10 cot_alpha_average : Val
    n) (B_berm : PF) (L_berm db gamma_beta : Val n) (c1 c2 c3 c4 : PF) (use_best_fit : Bool) (gamma_f : Val n)
    (hB : PF.eqF B_berm 0.0) :
    CaseByCase (Arr.RunupEurOtop2018.iteration_procedure_gamma_b Hm0 Tmm10 cot_alpha_average (.num B_berm)
      L_berm db gamma_beta c1 c2 c3 c4 use_best_fit gamma_f)
      (fun i => RunupEurOtop2018.iteration_procedure_gamma_b (Hm0.get i) (Tmm10.get i)
        (cot_alpha_average.get i) B_berm (L_berm.get i) (db.get i) (gamma_beta.get i) c1 c2 c3 c4
        use_best_fit (gamma_f.get i)) :=
  (ArrProof.RunupEurOtop2018_iteration_procedure_gamma_b (U := False) Hm0 Tmm10 cot_alpha_average B_berm
      L_berm db gamma_beta c1 c2 c3 c4 use_best_fit gamma_f hB).vals

example := C83_RunupEurOtop2018_iteration_procedure_gamma_b_partial (n := 2) ArrEx.two ArrEx.two ArrEx.two
  0.0 ArrEx.two ArrEx.two ArrEx.two (.fin 1) (.fin 1) (.fin 1) (.fin 1) true ArrEx.two (by arr_ex)

theorem C83_RunupTaw2002_iteration_procedure_gamma_b_partial [NeZero n] (Hm0 Tmm10 cot_alpha_average : Val n)
    (B_berm : PF) (L_berm db gamma_beta : Val n) (c1 c2 c3 c4 : PF) (use_best_fit : Bool) (gamma_f : Val n)
    (hB : PF.eqF B_berm 0.0) :
    CaseByCase (Arr.RunupTaw2002.iteration_procedure_gamma_b Hm0 Tmm10 cot_alpha_average (.num B_berm)
      L_berm db gamma_beta c1 c2 c3 c4 use_best_fit gamma_f)
      (fun i => RunupTaw2002.iteration_procedure_gamma_b (Hm0.get i) (Tmm10.get i)
        (cot_alpha_average.get i) B_berm (L_berm.get i) (db.get i) (gamma_beta.get i) c1 c2 c3 c4
        use_best_fit (gamma_f.get i)) :=
  (ArrProof.RunupTaw2002_iteration_procedure_gamma_b (U := False) Hm0 Tmm10 cot_alpha_average B_berm L_berm db
      gamma_beta c1 c2 c3 c4 use_best_fit gamma_f hB).vals

example := C83_RunupTaw2002_iteration_procedure_gamma_b_partial (n := 2) ArrEx.two ArrEx.two ArrEx.two 0.0
  ArrEx.two ArrEx.two ArrEx.two (.fin 1) (.fin 1) (.fin 1) (.fin 1) true ArrEx.two (by arr_ex)

theorem C83_OvertoppingEurOtop2018_calculate_dimensionless_overtopping_discharge_q_partial [NeZero n] (Hm0
    Tmm10 Rc beta gamma_beta gamma_b : Val n) (gamma_f : PF) (gamma_v gamma_star : Val n) (B_berm : PF) (db
    cot_alpha : Val n) (c1 c2 c3 c4 : PF) (use_best_fit : Bool)
    (h_beta : beta.Uniform)
    (h_gamma_beta : gamma_beta.Uniform)
    (h_cot_alpha : cot_alpha.Uniform)
    (h_berm : PF.eqF B_berm 0.0)
    (h_shape : Tmm10.isArray || cot_alpha.isArray || gamma_v.isArray || gamma_star.isArray → Hm0.isArray ||
      Rc.isArray) :
    CaseByCase (Arr.OvertoppingEurOtop2018.calculate_dimensionless_overtopping_discharge_q Hm0 Tmm10 Rc beta
      gamma_beta gamma_b (.num gamma_f)
        gamma_v gamma_star (.num B_berm) db cot_alpha Val.nan Val.nan c1 c2 c3 c4 use_best_fit)
      (fun i => OvertoppingEurOtop2018.calculate_dimensionless_overtopping_discharge_q (Hm0.get i) (Tmm10.get
        i) (Rc.get i) (beta.get i)
        (gamma_beta.get i) (gamma_b.get i) gamma_f (gamma_v.get i) (gamma_star.get i) B_berm (db.get i)
        (cot_alpha.get i) PF.nan PF.nan c1 c2 c3 c4 use_best_fit) :=
  (ArrProof.OvertoppingEurOtop2018_calculate_dimensionless_overtopping_discharge_q Hm0 Tmm10 Rc beta
      gamma_beta gamma_b gamma_f gamma_v gamma_star B_berm db cot_alpha c1 c2 c3 c4 use_best_fit h_beta
      h_gamma_beta h_cot_alpha h_berm h_shape).vals

example := C83_OvertoppingEurOtop2018_calculate_dimensionless_overtopping_discharge_q_partial (n := 2)
  ArrEx.two ArrEx.two ArrEx.two ArrEx.two ArrEx.two ArrEx.two (.fin 1) ArrEx.two ArrEx.two 0.0 ArrEx.two
  ArrEx.two (.fin 1) (.fin 1) (.fin 1) (.fin 1) true (by arr_ex) (by arr_ex) (by arr_ex) (by arr_ex) (by
  arr_ex)

theorem C83_OvertoppingEurOtop2018_calculate_overtopping_discharge_q_partial [NeZero n] (Hm0 Tmm10 Rc beta
    gamma_beta gamma_b : Val n) (gamma_f : PF) (gamma_v gamma_star : Val n) (B_berm : PF) (db cot_alpha : Val
    n) (c1 c2 c3 c4 : PF) (use_best_fit : Bool) (g : Val n)
    (h_beta : beta.Uniform)
    (h_gamma_beta : gamma_beta.Uniform)
    (h_cot_alpha : cot_alpha.Uniform)
    (h_berm : PF.eqF B_berm 0.0)
    (h_shape : Tmm10.isArray || cot_alpha.isArray || gamma_v.isArray || gamma_star.isArray → Hm0.isArray ||
      Rc.isArray) :
    CaseByCase (Arr.OvertoppingEurOtop2018.calculate_overtopping_discharge_q Hm0 Tmm10 Rc beta gamma_beta
      gamma_b (.num gamma_f)
        gamma_v gamma_star (.num B_berm) db cot_alpha Val.nan Val.nan c1 c2 c3 c4 use_best_fit g)
      (fun i => OvertoppingEurOtop2018.calculate_overtopping_discharge_q (Hm0.get i) (Tmm10.get i) (Rc.get i)
        (beta.get i)
        (gamma_beta.get i) (gamma_b.get i) gamma_f (gamma_v.get i) (gamma_star.get i) B_berm (db.get i)
        (cot_alpha.get i) PF.nan PF.nan c1 c2 c3 c4 use_best_fit (g.get i)) :=
  (ArrProof.OvertoppingEurOtop2018_calculate_overtopping_discharge_q Hm0 Tmm10 Rc beta gamma_beta gamma_b
      gamma_f gamma_v gamma_star B_berm db cot_alpha c1 c2 c3 c4 use_best_fit g h_beta h_gamma_beta
      h_cot_alpha h_berm h_shape).vals

example := C83_OvertoppingEurOtop2018_calculate_overtopping_discharge_q_partial (n := 2) ArrEx.two ArrEx.two
  ArrEx.two ArrEx.two ArrEx.two ArrEx.two (.fin 1) ArrEx.two ArrEx.two 0.0 ArrEx.two ArrEx.two (.fin 1)
  (.fin 1) (.fin 1) (.fin 1) true ArrEx.two (by arr_ex) (by arr_ex) (by arr_ex) (by arr_ex) (by arr_ex)

theorem C83_OvertoppingEurOtop2018_calculate_dimensionless_crest_freeboard_partial [NeZero n] (Hm0 Tmm10 q
    beta gamma_beta gamma_b : Val n) (gamma_f : PF) (gamma_v gamma_star : Val n) (B_berm : PF) (db cot_alpha :
    Val n) (c1 c2 c3 c4 : PF) (use_best_fit : Bool) (g : Val n)
    (h_beta : beta.Uniform)
    (h_gamma_beta : gamma_beta.Uniform)
    (h_cot_alpha : cot_alpha.Uniform)
    (h_berm : PF.eqF B_berm 0.0)
    (h_shape : gamma_v.isArray || gamma_star.isArray →
      Hm0.isArray || Tmm10.isArray || q.isArray || cot_alpha.isArray || g.isArray) :
    CaseByCase (Arr.OvertoppingEurOtop2018.calculate_dimensionless_crest_freeboard Hm0 Tmm10 q beta gamma_beta
      gamma_b (.num gamma_f)
        gamma_v gamma_star (.num B_berm) db cot_alpha Val.nan Val.nan c1 c2 c3 c4 use_best_fit g)
      (fun i => OvertoppingEurOtop2018.calculate_dimensionless_crest_freeboard (Hm0.get i) (Tmm10.get i)
        (q.get i) (beta.get i)
        (gamma_beta.get i) (gamma_b.get i) gamma_f (gamma_v.get i) (gamma_star.get i) B_berm (db.get i)
        (cot_alpha.get i) PF.nan PF.nan c1 c2 c3 c4 use_best_fit (g.get i)) :=
  (ArrProof.OvertoppingEurOtop2018_calculate_dimensionless_crest_freeboard Hm0 Tmm10 q beta gamma_beta gamma_b
      gamma_f gamma_v gamma_star B_berm db cot_alpha c1 c2 c3 c4 use_best_fit g h_beta h_gamma_beta
      h_cot_alpha h_berm h_shape).vals

example := C83_OvertoppingEurOtop2018_calculate_dimensionless_crest_freeboard_partial (n := 2) ArrEx.two
  ArrEx.two ArrEx.two ArrEx.two ArrEx.two ArrEx.two (.fin 1) ArrEx.two ArrEx.two 0.0 ArrEx.two ArrEx.two
  (.fin 1) (.fin 1) (.fin 1) (.fin 1) true ArrEx.two (by arr_ex) (by arr_ex) (by arr_ex) (by arr_ex) (by
  arr_ex)

theorem C83_OvertoppingEurOtop2018_calculate_crest_freeboard_Rc_partial [NeZero n] (Hm0 Tmm10 q beta
    gamma_beta gamma_b : Val n) (gamma_f : PF) (gamma_v gamma_star : Val n) (B_berm : PF) (db cot_alpha : Val
    n) (c1 c2 c3 c4 : PF) (use_best_fit : Bool) (g : Val n)
    (h_beta : beta.Uniform)
    (h_gamma_beta : gamma_beta.Uniform)
    (h_cot_alpha : cot_alpha.Uniform)
    (h_berm : PF.eqF B_berm 0.0)
    (h_shape : gamma_v.isArray || gamma_star.isArray →
      Hm0.isArray || Tmm10.isArray || q.isArray || cot_alpha.isArray || g.isArray) :
    CaseByCase (Arr.OvertoppingEurOtop2018.calculate_crest_freeboard_Rc Hm0 Tmm10 q beta gamma_beta gamma_b
      (.num gamma_f)
        gamma_v gamma_star (.num B_berm) db cot_alpha Val.nan Val.nan c1 c2 c3 c4 use_best_fit g)
      (fun i => OvertoppingEurOtop2018.calculate_crest_freeboard_Rc (Hm0.get i) (Tmm10.get i) (q.get i)
        (beta.get i)
        (gamma_beta.get i) (gamma_b.get i) gamma_f (gamma_v.get i) (gamma_star.get i) B_berm (db.get i)
        (cot_alpha.get i) PF.nan PF.nan c1 c2 c3 c4 use_best_fit (g.get i)) :=
  (ArrProof.OvertoppingEurOtop2018_calculate_crest_freeboard_Rc Hm0 Tmm10 q beta gamma_beta gamma_b gamma_f
      gamma_v gamma_star B_berm db cot_alpha c1 c2 c3 c4 use_best_fit g h_beta h_gamma_beta h_cot_alpha h_berm
      h_shape).vals

example := C83_OvertoppingEurOtop2018_calculate_crest_freeboard_Rc_partial (n := 2) ArrEx.two ArrEx.two
  ArrEx.two ArrEx.two ArrEx.two ArrEx.two (.fin 1) ArrEx.two ArrEx.two 0.0 ArrEx.two ArrEx.two (.fin 1)
  (.fin 1) (.fin 1) (.fin 1) true ArrEx.two (by arr_ex) (by arr_ex) (by arr_ex) (by arr_ex) (by arr_ex)

theorem C83_OvertoppingEurOtop2018_calculate_dimensionless_overtopping_discharge_q_rubble_mound_partial
    [NeZero n] (Hm0 Tmm10 Rc beta gamma_beta : Val n) (gamma_f : PF) (B_berm db cot_alpha : Val n) (c2 c3 :
    PF) (use_best_fit : Bool)
    (h_beta : beta.Uniform)
    (h_gamma_beta : gamma_beta.Uniform)
    (h_cot_alpha : cot_alpha.Uniform) :
    CaseByCase (Arr.OvertoppingEurOtop2018.calculate_dimensionless_overtopping_discharge_q_rubble_mound Hm0
      Tmm10 Rc beta gamma_beta (.num gamma_f) B_berm db
        cot_alpha Val.nan Val.nan c2 c3 use_best_fit)
      (fun i => OvertoppingEurOtop2018.calculate_dimensionless_overtopping_discharge_q_rubble_mound (Hm0.get
        i) (Tmm10.get i) (Rc.get i) (beta.get i)
        (gamma_beta.get i) gamma_f (B_berm.get i) (db.get i) (cot_alpha.get i) PF.nan PF.nan c2 c3
        use_best_fit) :=
  (ArrProof.OvertoppingEurOtop2018_calculate_dimensionless_overtopping_discharge_q_rubble_mound Hm0 Tmm10 Rc
      beta gamma_beta gamma_f B_berm db cot_alpha c2 c3 use_best_fit h_beta h_gamma_beta h_cot_alpha).vals

example := C83_OvertoppingEurOtop2018_calculate_dimensionless_overtopping_discharge_q_rubble_mound_partial
  (n := 2) ArrEx.two ArrEx.two ArrEx.two ArrEx.two ArrEx.two (.fin 1) ArrEx.two ArrEx.two ArrEx.two (.fin 1)
  (.fin 1) true (by arr_ex) (by arr_ex) (by arr_ex)

theorem C83_OvertoppingEurOtop2018_calculate_overtopping_discharge_q_rubble_mound_partial [NeZero n] (Hm0
    Tmm10 Rc beta gamma_beta : Val n) (gamma_f : PF) (B_berm db cot_alpha : Val n) (c2 c3 : PF) (use_best_fit
    : Bool) (g : Val n)
    (h_beta : beta.Uniform)
    (h_gamma_beta : gamma_beta.Uniform)
    (h_cot_alpha : cot_alpha.Uniform) :
    CaseByCase (Arr.OvertoppingEurOtop2018.calculate_overtopping_discharge_q_rubble_mound Hm0 Tmm10 Rc beta
      gamma_beta (.num gamma_f) B_berm db
        cot_alpha Val.nan Val.nan c2 c3 use_best_fit g)
      (fun i => OvertoppingEurOtop2018.calculate_overtopping_discharge_q_rubble_mound (Hm0.get i) (Tmm10.get
        i) (Rc.get i) (beta.get i)
        (gamma_beta.get i) gamma_f (B_berm.get i) (db.get i) (cot_alpha.get i) PF.nan PF.nan c2 c3
        use_best_fit (g.get i)) :=
  (ArrProof.OvertoppingEurOtop2018_calculate_overtopping_discharge_q_rubble_mound Hm0 Tmm10 Rc beta gamma_beta
      gamma_f B_berm db cot_alpha c2 c3 use_best_fit g h_beta h_gamma_beta h_cot_alpha).vals

example := C83_OvertoppingEurOtop2018_calculate_overtopping_discharge_q_rubble_mound_partial (n := 2)
  ArrEx.two ArrEx.two ArrEx.two ArrEx.two ArrEx.two (.fin 1) ArrEx.two ArrEx.two ArrEx.two (.fin 1) (.fin 1)
  true ArrEx.two (by arr_ex) (by arr_ex) (by arr_ex)

theorem C83_OvertoppingEurOtop2018_calculate_dimensionless_crest_freeboard_rubble_mound_partial [NeZero n]
    (Hm0 Tmm10 q beta gamma_beta : Val n) (gamma_f : PF) (B_berm db cot_alpha : Val n) (c2 c3 : PF)
    (use_best_fit : Bool) (g : Val n)
    (h_beta : beta.Uniform)
    (h_gamma_beta : gamma_beta.Uniform)
    (h_cot_alpha : cot_alpha.Uniform) :
    CaseByCase (Arr.OvertoppingEurOtop2018.calculate_dimensionless_crest_freeboard_rubble_mound Hm0 Tmm10 q
      beta gamma_beta (.num gamma_f) B_berm db
        cot_alpha Val.nan Val.nan c2 c3 use_best_fit g)
      (fun i => OvertoppingEurOtop2018.calculate_dimensionless_crest_freeboard_rubble_mound (Hm0.get i)
        (Tmm10.get i) (q.get i) (beta.get i)
        (gamma_beta.get i) gamma_f (B_berm.get i) (db.get i) (cot_alpha.get i) PF.nan PF.nan c2 c3
        use_best_fit (g.get i)) :=
  (ArrProof.OvertoppingEurOtop2018_calculate_dimensionless_crest_freeboard_rubble_mound Hm0 Tmm10 q beta
      gamma_beta gamma_f B_berm db cot_alpha c2 c3 use_best_fit g h_beta h_gamma_beta h_cot_alpha).vals

example := C83_OvertoppingEurOtop2018_calculate_dimensionless_crest_freeboard_rubble_mound_partial (n := 2)
  ArrEx.two ArrEx.two ArrEx.two ArrEx.two ArrEx.two (.fin 1) ArrEx.two ArrEx.two ArrEx.two (.fin 1) (.fin 1)
  true ArrEx.two (by arr_ex) (by arr_ex) (by arr_ex)

theorem C83_OvertoppingEurOtop2018_calculate_crest_freeboard_Rc_rubble_mound_partial [NeZero n] (Hm0 Tmm10 q
    beta gamma_beta : Val n) (gamma_f : PF) (B_berm db cot_alpha : Val n) (c2 c3 : PF) (use_best_fit : Bool)
    (g : Val n)
    (h_beta : beta.Uniform)
    (h_gamma_beta : gamma_beta.Uniform)
    (h_cot_alpha : cot_alpha.Uniform) :
    CaseByCase (Arr.OvertoppingEurOtop2018.calculate_crest_freeboard_Rc_rubble_mound Hm0 Tmm10 q beta
      gamma_beta (.num gamma_f) B_berm db
        cot_alpha Val.nan Val.nan c2 c3 use_best_fit g)
      (fun i => OvertoppingEurOtop2018.calculate_crest_freeboard_Rc_rubble_mound (Hm0.get i) (Tmm10.get i)
        (q.get i) (beta.get i)
        (gamma_beta.get i) gamma_f (B_berm.get i) (db.get i) (cot_alpha.get i) PF.nan PF.nan c2 c3
        use_best_fit (g.get i)) :=
  (ArrProof.OvertoppingEurOtop2018_calculate_crest_freeboard_Rc_rubble_mound Hm0 Tmm10 q beta gamma_beta
      gamma_f B_berm db cot_alpha c2 c3 use_best_fit g h_beta h_gamma_beta h_cot_alpha).vals

example := C83_OvertoppingEurOtop2018_calculate_crest_freeboard_Rc_rubble_mound_partial (n := 2) ArrEx.two
  ArrEx.two ArrEx.two ArrEx.two ArrEx.two (.fin 1) ArrEx.two ArrEx.two ArrEx.two (.fin 1) (.fin 1) true
  ArrEx.two (by arr_ex) (by arr_ex) (by arr_ex)

theorem C83_Goda1985_calculate_Wup (hacc Rc Bup a b c : Val n) (g : PF) (i : Fin n) :
    (Arr.Goda1985.calculate_Wup hacc Rc Bup a b c g).get i =
      Goda1985.calculate_Wup (hacc.get i) (Rc.get i) (Bup.get i) (a.get i) (b.get i) (c.get i) g :=
  ArrProof.Goda1985_calculate_Wup hacc Rc Bup a b c g i

theorem C83_Goda1985_calculate_safety_factors_1 (FU FH Wup muf tup MH MU : Val n) (i : Fin n) :
    (Arr.Goda1985.calculate_safety_factors FU FH Wup muf tup MH MU).1.get i =
      (Goda1985.calculate_safety_factors (FU.get i) (FH.get i) (Wup.get i) (muf.get i) (tup.get i)
        (MH.get i) (MU.get i)).1 :=
  ArrProof.Goda1985_calculate_safety_factors_1 FU FH Wup muf tup MH MU i

theorem C83_Goda1985_calculate_safety_factors_2 (FU FH Wup muf tup MH MU : Val n) (i : Fin n) :
    (Arr.Goda1985.calculate_safety_factors FU FH Wup muf tup MH MU).2.get i =
      (Goda1985.calculate_safety_factors (FU.get i) (FH.get i) (Wup.get i) (muf.get i) (tup.get i)
        (MH.get i) (MU.get i)).2 :=
  ArrProof.Goda1985_calculate_safety_factors_2 FU FH Wup muf tup MH MU i

theorem C83_Goda1985_check_impulsive_breaking_partial [NeZero n] (beta B1 L cota_seabed
    offshore_wave_steepness Rc Hsi d h_s : PF) :
    CaseByCase (Arr.Goda1985.check_impulsive_breaking (n := n) (.num beta) (.num B1) (.num L) (.num
      cota_seabed)
        (.num offshore_wave_steepness) (.num Rc) (.num Hsi) (.num d) (.num h_s))
      (fun _ : Fin n => Goda1985.check_impulsive_breaking beta B1 L cota_seabed offshore_wave_steepness Rc Hsi
        d h_s) :=
  (ArrProof.Goda1985_check_impulsive_breaking (U := False) beta B1 L cota_seabed offshore_wave_steepness Rc
      Hsi d h_s).vals

theorem C83_Goda1985_calculate_bearing_pressures_partial [NeZero n] (Wup tup MH MU FU Bup : PF) :
    CaseByCase (Arr.Goda1985.calculate_bearing_pressures (.num Wup : Val n) (.num tup) (.num MH) (.num MU)
        (.num FU) (.num Bup))
      (fun _ : Fin n => pure (Goda1985.calculate_bearing_pressures Wup tup MH MU FU Bup)) :=
  (ArrProof.Goda1985_calculate_bearing_pressures (U := False) Wup tup MH MU FU Bup).vals

theorem C83_Goda1985_calculate_pressures_and_forces_partial [NeZero n] (disper : PF → PF → PF → PF) (HD Hsi
    Tmax beta h_s d B1 cota_seabed : PF) (rho_water hacc : Val n) (Rc : PF) (Bup : Val n)
    (offshore_wave_steepness g : PF) :
    CaseByCase (Arr.Goda1985.calculate_pressures_and_forces disper (.num HD) (.num Hsi) (.num Tmax)
        (.num beta) (.num h_s) (.num d) (.num B1) (.num cota_seabed) rho_water hacc (.num Rc) Bup
        (.num offshore_wave_steepness) g)
      (fun i => Goda1985.calculate_pressures_and_forces disper HD Hsi Tmax beta h_s d B1 cota_seabed
        (rho_water.get i) (hacc.get i) Rc (Bup.get i) offshore_wave_steepness g) :=
  (ArrProof.Goda1985_calculate_pressures_and_forces (U := False) disper HD Hsi Tmax beta h_s d B1 cota_seabed
      rho_water hacc Rc Bup offshore_wave_steepness g).vals

theorem C83_Goda1985_calculate_forces_and_reactions_partial [NeZero n] (disper : PF → PF → PF → PF) (HD Hsi
    Tmax beta h_s d B1 cota_seabed rho_water hacc Rc Bup rho_fill_above_SWL
      rho_fill_below_SWL offshore_wave_steepness : PF) (muf : Val n) (tup_over_Bup g : PF) :
    CaseByCase (Arr.Goda1985.calculate_forces_and_reactions disper (.num HD) (.num Hsi) (.num Tmax)
        (.num beta) (.num h_s) (.num d) (.num B1) (.num cota_seabed) (.num rho_water) (.num hacc)
        (.num Rc) (.num Bup) (.num rho_fill_above_SWL) (.num rho_fill_below_SWL)
        (.num offshore_wave_steepness) muf (.num tup_over_Bup) g)
      (fun i => Goda1985.calculate_forces_and_reactions disper HD Hsi Tmax beta h_s d B1 cota_seabed
        rho_water hacc Rc Bup rho_fill_above_SWL rho_fill_below_SWL offshore_wave_steepness (muf.get i)
        tup_over_Bup g) :=
  (ArrProof.Goda1985_calculate_forces_and_reactions (U := False) disper HD Hsi Tmax beta h_s d B1 cota_seabed
      rho_water hacc Rc Bup rho_fill_above_SWL rho_fill_below_SWL offshore_wave_steepness muf tup_over_Bup
      g).vals

end
