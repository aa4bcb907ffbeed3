import Verif.Lemmas.ArrayCore
import Verif.Lemmas.ArrayExample
import Verif.Lemmas.ArrayVanDerMeer
import Verif.Lemmas.ArrayCubes
import Verif.Lemmas.ArrayHudson1959
import Verif.Lemmas.ArrayConcreteHudson
import Verif.Lemmas.ArrayXbloc
import Verif.Lemmas.ArrayRockArmourOther
import Verif.Lemmas.ArrayEtemad2020
import Verif.Lemmas.ArrayToe
import Verif.Lemmas.ArrayRearSlope
import Verif.Lemmas.ArrayOvertoppingMore
import Verif.Lemmas.ArrayTransmission
import Verif.Lemmas.ArrayCrestWall
import Verif.Lemmas.ArrayTaw2002
import Verif.Lemmas.ArrayOvertopping
import Verif.Lemmas.ArrayTaw
import Verif.Lemmas.ArrayDike
import Verif.Lemmas.ArrayGoda1985

/-! # Warnings of calls with arrays (C85) -/

open Classical
open Arrays
noncomputable section
variable {n : ℕ}

theorem C85_CorePhysics_check_usage_Dn50_or_M50_no_false_alarm [NeZero n] (Dn50 M50 rho_rock : Val n)
    (h_Dn50 : Dn50.Uniform)
    (h_M50 : M50.Uniform)
    (h_rho_rock : rho_rock.Uniform) :
    NoFalseAlarm (Arr.CorePhysics.check_usage_Dn50_or_M50 Dn50 M50 rho_rock)
      (fun i => CorePhysics.check_usage_Dn50_or_M50 (Dn50.get i) (M50.get i) (rho_rock.get i)) :=
  (ArrProof.CorePhysics_check_usage_Dn50_or_M50 (U := False) Dn50 M50 rho_rock h_Dn50 h_M50 h_rho_rock).sub

example := C85_CorePhysics_check_usage_Dn50_or_M50_no_false_alarm (n := 2) ArrEx.two ArrEx.two ArrEx.two (by
  arr_ex) (by arr_ex) (by arr_ex)

theorem C85_CorePhysics_check_usage_Dn50_or_M50 [NeZero n] (Dn50 M50 rho_rock : Val n)
    (h_Dn50 : Dn50.Uniform)
    (h_M50 : M50.Uniform)
    (h_rho_rock : rho_rock.Uniform) :
    SameWarnings (Arr.CorePhysics.check_usage_Dn50_or_M50 Dn50 M50 rho_rock)
      (fun i => CorePhysics.check_usage_Dn50_or_M50 (Dn50.get i) (M50.get i) (rho_rock.get i)) :=
  (ArrProof.CorePhysics_check_usage_Dn50_or_M50 (U := True) Dn50 M50 rho_rock h_Dn50 h_M50 h_rho_rock).same
      trivial

example := C85_CorePhysics_check_usage_Dn50_or_M50 (n := 2) ArrEx.two ArrEx.two ArrEx.two (by arr_ex) (by
  arr_ex) (by arr_ex)

theorem C85_CorePhysics_check_usage_stabilitynumber_no_false_alarm [NeZero n] (Hs Dn Delta Ns : Option (Val
    n)) :
    NoFalseAlarm (Arr.CorePhysics.check_usage_stabilitynumber Hs Dn Delta Ns)
      (fun i => CorePhysics.check_usage_stabilitynumber (Hs.map (·.get i)) (Dn.map (·.get i))
        (Delta.map (·.get i)) (Ns.map (·.get i))) :=
  (ArrProof.CorePhysics_check_usage_stabilitynumber (U := False) Hs Dn Delta Ns).sub

theorem C85_CorePhysics_check_usage_stabilitynumber [NeZero n] (Hs Dn Delta Ns : Option (Val n)) :
    SameWarnings (Arr.CorePhysics.check_usage_stabilitynumber Hs Dn Delta Ns)
      (fun i => CorePhysics.check_usage_stabilitynumber (Hs.map (·.get i)) (Dn.map (·.get i))
        (Delta.map (·.get i)) (Ns.map (·.get i))) :=
  (ArrProof.CorePhysics_check_usage_stabilitynumber (U := True) Hs Dn Delta Ns).same trivial

theorem C85_CorePhysics_calculate_local_wavelength_no_false_alarm_partial [NeZero n] (disper : PF → PF → PF →
    PF) (T h : Val n) (g : PF) (hT : T.isArray = true → h.isArray = true) (hh : h.isArray = true → 1 < n) :
    NoFalseAlarm (Arr.CorePhysics.calculate_local_wavelength disper T h g)
      (fun i => pure (CorePhysics.calculate_local_wavelength disper (T.get i) (h.get i) g)) :=
  (ArrProof.CorePhysics_calculate_local_wavelength (U := False) disper T h g hT hh).sub

example := C85_CorePhysics_calculate_local_wavelength_no_false_alarm_partial (n := 2) (fun _ _ _ => .fin 1)
  ArrEx.two ArrEx.two (.fin 1) (by arr_ex) (by arr_ex)

theorem C85_CorePhysics_calculate_local_wavelength_partial [NeZero n] (disper : PF → PF → PF → PF) (T h : Val
    n) (g : PF) (hT : T.isArray = true → h.isArray = true) (hh : h.isArray = true → 1 < n) :
    SameWarnings (Arr.CorePhysics.calculate_local_wavelength disper T h g)
      (fun i => pure (CorePhysics.calculate_local_wavelength disper (T.get i) (h.get i) g)) :=
  (ArrProof.CorePhysics_calculate_local_wavelength (U := True) disper T h g hT hh).same trivial

example := C85_CorePhysics_calculate_local_wavelength_partial (n := 2) (fun _ _ _ => .fin 1) ArrEx.two
  ArrEx.two (.fin 1) (by arr_ex) (by arr_ex)

theorem C85_VdM1988_check_validity_range_no_false_alarm [NeZero n] (Hs H2p Tp N_waves cot_alpha P rho_armour :
    Val n) :
    NoFalseAlarm (Arr.VdM1988.check_validity_range Hs H2p Tp N_waves cot_alpha P rho_armour)
      (fun i => VdM1988.check_validity_range (Hs.get i) (H2p.get i) (Tp.get i) (N_waves.get i) (cot_alpha.get
        i) (P.get i) (rho_armour.get i)) :=
  (ArrProof.VdM1988_check_validity_range (U := False) Hs H2p Tp N_waves cot_alpha P rho_armour (fun h =>
      h.elim)).sub

theorem C85_VdM1988_check_validity_range [NeZero n] (Hs H2p Tp N_waves cot_alpha P rho_armour : Val n)
    (given : ∀ x ∈ [Hs, H2p, Tp, N_waves, cot_alpha, P, rho_armour], Val.Uniform x) :
    SameWarnings (Arr.VdM1988.check_validity_range Hs H2p Tp N_waves cot_alpha P rho_armour)
      (fun i => VdM1988.check_validity_range (Hs.get i) (H2p.get i) (Tp.get i) (N_waves.get i) (cot_alpha.get
        i) (P.get i) (rho_armour.get i)) :=
  (ArrProof.VdM1988_check_validity_range (U := True) Hs H2p Tp N_waves cot_alpha P rho_armour (fun _ =>
      given)).same trivial

example := C85_VdM1988_check_validity_range (n := 2) ArrEx.two ArrEx.two ArrEx.two ArrEx.two ArrEx.two
  ArrEx.two ArrEx.two (by arr_ex)

theorem C85_VdM1988_calculate_damage_number_S_no_false_alarm [NeZero n] (Hs H2p Tm N_waves cot_alpha P
    rho_armour Dn50 M50 c_pl c_s rho_water : Val n)
    (h_Dn50 : Dn50.Uniform)
    (h_M50 : M50.Uniform)
    (h_rho_armour : rho_armour.Uniform) :
    NoFalseAlarm (Arr.VdM1988.calculate_damage_number_S Hs H2p Tm N_waves cot_alpha P rho_armour Dn50 M50 c_pl
      c_s rho_water)
      (fun i => VdM1988.calculate_damage_number_S (Hs.get i) (H2p.get i) (Tm.get i) (N_waves.get i)
        (cot_alpha.get i) (P.get i) (rho_armour.get i) (Dn50.get i) (M50.get i) (c_pl.get i) (c_s.get i)
        (rho_water.get i)) :=
  (ArrProof.VdM1988_calculate_damage_number_S (U := False) Hs H2p Tm N_waves cot_alpha P rho_armour Dn50 M50
      c_pl c_s rho_water h_Dn50 h_M50 h_rho_armour (fun h => h.elim)).sub

example := C85_VdM1988_calculate_damage_number_S_no_false_alarm (n := 2) ArrEx.two ArrEx.two ArrEx.two
  ArrEx.two ArrEx.two ArrEx.two ArrEx.two ArrEx.two ArrEx.two ArrEx.two ArrEx.two ArrEx.two (by arr_ex) (by
  arr_ex) (by arr_ex)

theorem C85_VdM1988_calculate_damage_number_S [NeZero n] (Hs H2p Tm N_waves cot_alpha P rho_armour Dn50 M50
    c_pl c_s rho_water : Val n)
    (h_Dn50 : Dn50.Uniform)
    (h_M50 : M50.Uniform)
    (h_rho_armour : rho_armour.Uniform)
    (given : ∀ x ∈ [Hs, H2p, Tm, N_waves, cot_alpha, P, rho_armour, Dn50, M50, c_pl, c_s, rho_water],
      Val.Uniform x) :
    SameWarnings (Arr.VdM1988.calculate_damage_number_S Hs H2p Tm N_waves cot_alpha P rho_armour Dn50 M50 c_pl
      c_s rho_water)
      (fun i => VdM1988.calculate_damage_number_S (Hs.get i) (H2p.get i) (Tm.get i) (N_waves.get i)
        (cot_alpha.get i) (P.get i) (rho_armour.get i) (Dn50.get i) (M50.get i) (c_pl.get i) (c_s.get i)
        (rho_water.get i)) :=
  (ArrProof.VdM1988_calculate_damage_number_S (U := True) Hs H2p Tm N_waves cot_alpha P rho_armour Dn50 M50
      c_pl c_s rho_water h_Dn50 h_M50 h_rho_armour (fun _ => given)).same trivial

example := C85_VdM1988_calculate_damage_number_S (n := 2) ArrEx.two ArrEx.two ArrEx.two ArrEx.two ArrEx.two
  ArrEx.two ArrEx.two ArrEx.two ArrEx.two ArrEx.two ArrEx.two ArrEx.two (by arr_ex) (by arr_ex) (by arr_ex)
  (by arr_ex)

theorem C85_VdM1988_calculate_nominal_rock_diameter_Dn50_no_false_alarm [NeZero n] (Hs H2p Tm N_waves
    cot_alpha P rho_armour S c_pl c_s rho_water : Val n) :
    NoFalseAlarm (Arr.VdM1988.calculate_nominal_rock_diameter_Dn50 Hs H2p Tm N_waves cot_alpha P rho_armour S
      c_pl c_s rho_water)
      (fun i => VdM1988.calculate_nominal_rock_diameter_Dn50 (Hs.get i) (H2p.get i) (Tm.get i) (N_waves.get i)
        (cot_alpha.get i) (P.get i) (rho_armour.get i) (S.get i) (c_pl.get i) (c_s.get i) (rho_water.get i))
        :=
  (ArrProof.VdM1988_calculate_nominal_rock_diameter_Dn50 (U := False) Hs H2p Tm N_waves cot_alpha P rho_armour
      S c_pl c_s rho_water (fun h => h.elim)).sub

theorem C85_VdM1988_calculate_nominal_rock_diameter_Dn50 [NeZero n] (Hs H2p Tm N_waves cot_alpha P rho_armour
    S c_pl c_s rho_water : Val n)
    (given : ∀ x ∈ [Hs, H2p, Tm, N_waves, cot_alpha, P, rho_armour, S, c_pl, c_s, rho_water], Val.Uniform x) :
    SameWarnings (Arr.VdM1988.calculate_nominal_rock_diameter_Dn50 Hs H2p Tm N_waves cot_alpha P rho_armour S
      c_pl c_s rho_water)
      (fun i => VdM1988.calculate_nominal_rock_diameter_Dn50 (Hs.get i) (H2p.get i) (Tm.get i) (N_waves.get i)
        (cot_alpha.get i) (P.get i) (rho_armour.get i) (S.get i) (c_pl.get i) (c_s.get i) (rho_water.get i))
        :=
  (ArrProof.VdM1988_calculate_nominal_rock_diameter_Dn50 (U := True) Hs H2p Tm N_waves cot_alpha P rho_armour
      S c_pl c_s rho_water (fun _ => given)).same trivial

example := C85_VdM1988_calculate_nominal_rock_diameter_Dn50 (n := 2) ArrEx.two ArrEx.two ArrEx.two ArrEx.two
  ArrEx.two ArrEx.two ArrEx.two ArrEx.two ArrEx.two ArrEx.two ArrEx.two (by arr_ex)

theorem C85_VdM1988_calculate_significant_wave_height_Hs_no_false_alarm [NeZero n] (ratio_H2p_Hs Tm N_waves
    cot_alpha P rho_armour S Dn50 M50 c_pl c_s g rho_water : Val n)
    (h_Dn50 : Dn50.Uniform)
    (h_M50 : M50.Uniform)
    (h_rho_armour : rho_armour.Uniform) :
    NoFalseAlarm (Arr.VdM1988.calculate_significant_wave_height_Hs ratio_H2p_Hs Tm N_waves cot_alpha P
      rho_armour S Dn50 M50 c_pl c_s g rho_water)
      (fun i => VdM1988.calculate_significant_wave_height_Hs (ratio_H2p_Hs.get i) (Tm.get i) (N_waves.get i)
        (cot_alpha.get i) (P.get i) (rho_armour.get i) (S.get i) (Dn50.get i) (M50.get i) (c_pl.get i)
        (c_s.get i) (g.get i) (rho_water.get i)) :=
  (ArrProof.VdM1988_calculate_significant_wave_height_Hs ratio_H2p_Hs Tm N_waves cot_alpha P rho_armour S Dn50
      M50 c_pl c_s g rho_water h_Dn50 h_M50 h_rho_armour).sub

example := C85_VdM1988_calculate_significant_wave_height_Hs_no_false_alarm (n := 2) ArrEx.two ArrEx.two
  ArrEx.two ArrEx.two ArrEx.two ArrEx.two ArrEx.two ArrEx.two ArrEx.two ArrEx.two ArrEx.two ArrEx.two
  ArrEx.two (by arr_ex) (by arr_ex) (by arr_ex)

theorem C85_VdMModified_check_validity_range_no_false_alarm [NeZero n] (Hs H2p Tmm10 N_waves cot_alpha P Dn50
    rho_armour rho_water : Val n) :
    NoFalseAlarm (Arr.VdMModified.check_validity_range Hs H2p Tmm10 N_waves cot_alpha P Dn50 rho_armour
      rho_water)
      (fun i => VdMModified.check_validity_range (Hs.get i) (H2p.get i) (Tmm10.get i) (N_waves.get i)
        (cot_alpha.get i) (P.get i) (Dn50.get i) (rho_armour.get i) (rho_water.get i)) :=
  (ArrProof.VdMModified_check_validity_range (U := False) Hs H2p Tmm10 N_waves cot_alpha P Dn50 rho_armour
      rho_water (fun h => h.elim)).sub

theorem C85_VdMModified_check_validity_range [NeZero n] (Hs H2p Tmm10 N_waves cot_alpha P Dn50 rho_armour
    rho_water : Val n)
    (given : ∀ x ∈ [Hs, H2p, Tmm10, N_waves, cot_alpha, P, Dn50, rho_armour, rho_water], Val.Uniform x) :
    SameWarnings (Arr.VdMModified.check_validity_range Hs H2p Tmm10 N_waves cot_alpha P Dn50 rho_armour
      rho_water)
      (fun i => VdMModified.check_validity_range (Hs.get i) (H2p.get i) (Tmm10.get i) (N_waves.get i)
        (cot_alpha.get i) (P.get i) (Dn50.get i) (rho_armour.get i) (rho_water.get i)) :=
  (ArrProof.VdMModified_check_validity_range (U := True) Hs H2p Tmm10 N_waves cot_alpha P Dn50 rho_armour
      rho_water (fun _ => given)).same trivial

example := C85_VdMModified_check_validity_range (n := 2) ArrEx.two ArrEx.two ArrEx.two ArrEx.two ArrEx.two
  ArrEx.two ArrEx.two ArrEx.two ArrEx.two (by arr_ex)

theorem C85_VdMModified_calculate_damage_number_S_no_false_alarm [NeZero n] (Hs H2p Tmm10 N_waves cot_alpha P
    rho_armour Dn50 M50 c_pl c_s rho_water : Val n)
    (h_Dn50 : Dn50.Uniform)
    (h_M50 : M50.Uniform)
    (h_rho_armour : rho_armour.Uniform) :
    NoFalseAlarm (Arr.VdMModified.calculate_damage_number_S Hs H2p Tmm10 N_waves cot_alpha P rho_armour Dn50
      M50 c_pl c_s rho_water)
      (fun i => VdMModified.calculate_damage_number_S (Hs.get i) (H2p.get i) (Tmm10.get i) (N_waves.get i)
        (cot_alpha.get i) (P.get i) (rho_armour.get i) (Dn50.get i) (M50.get i) (c_pl.get i) (c_s.get i)
        (rho_water.get i)) :=
  (ArrProof.VdMModified_calculate_damage_number_S Hs H2p Tmm10 N_waves cot_alpha P rho_armour Dn50 M50 c_pl
      c_s rho_water h_Dn50 h_M50 h_rho_armour).sub

example := C85_VdMModified_calculate_damage_number_S_no_false_alarm (n := 2) ArrEx.two ArrEx.two ArrEx.two
  ArrEx.two ArrEx.two ArrEx.two ArrEx.two ArrEx.two ArrEx.two ArrEx.two ArrEx.two ArrEx.two (by arr_ex) (by
  arr_ex) (by arr_ex)

theorem C85_VdMModified_calculate_nominal_rock_diameter_Dn50_no_false_alarm [NeZero n] (Hs H2p Tmm10 N_waves
    cot_alpha P rho_armour S c_pl c_s rho_water : Val n) :
    NoFalseAlarm (Arr.VdMModified.calculate_nominal_rock_diameter_Dn50 Hs H2p Tmm10 N_waves cot_alpha P
      rho_armour S c_pl c_s rho_water)
      (fun i => VdMModified.calculate_nominal_rock_diameter_Dn50 (Hs.get i) (H2p.get i) (Tmm10.get i)
        (N_waves.get i) (cot_alpha.get i) (P.get i) (rho_armour.get i) (S.get i) (c_pl.get i) (c_s.get i)
        (rho_water.get i)) :=
  (ArrProof.VdMModified_calculate_nominal_rock_diameter_Dn50 Hs H2p Tmm10 N_waves cot_alpha P rho_armour S
      c_pl c_s rho_water).sub

theorem C85_VdMModified_calculate_significant_wave_height_Hs_no_false_alarm [NeZero n] (ratio_H2p_Hs Tmm10
    N_waves cot_alpha P rho_armour S Dn50 M50 c_pl c_s g rho_water : Val n)
    (h_Dn50 : Dn50.Uniform)
    (h_M50 : M50.Uniform)
    (h_rho_armour : rho_armour.Uniform) :
    NoFalseAlarm (Arr.VdMModified.calculate_significant_wave_height_Hs ratio_H2p_Hs Tmm10 N_waves cot_alpha P
      rho_armour S Dn50 M50 c_pl c_s g rho_water)
      (fun i => VdMModified.calculate_significant_wave_height_Hs (ratio_H2p_Hs.get i) (Tmm10.get i)
        (N_waves.get i) (cot_alpha.get i) (P.get i) (rho_armour.get i) (S.get i) (Dn50.get i) (M50.get i)
        (c_pl.get i) (c_s.get i) (g.get i) (rho_water.get i)) :=
  (ArrProof.VdMModified_calculate_significant_wave_height_Hs ratio_H2p_Hs Tmm10 N_waves cot_alpha P rho_armour
      S Dn50 M50 c_pl c_s g rho_water h_Dn50 h_M50 h_rho_armour).sub

example := C85_VdMModified_calculate_significant_wave_height_Hs_no_false_alarm (n := 2) ArrEx.two ArrEx.two
  ArrEx.two ArrEx.two ArrEx.two ArrEx.two ArrEx.two ArrEx.two ArrEx.two ArrEx.two ArrEx.two ArrEx.two
  ArrEx.two (by arr_ex) (by arr_ex) (by arr_ex)

theorem C85_VdM2021_calculate_damage_number_S_no_false_alarm [NeZero n] (Hs Tmm10 N_waves cot_alpha P
    rho_armour Dn50 M50 c_pl c_s c_pl_mult c_s_mult : Val n)
    (h_Dn50 : Dn50.Uniform)
    (h_M50 : M50.Uniform)
    (h_rho_armour : rho_armour.Uniform) :
    NoFalseAlarm (Arr.VdM2021.calculate_damage_number_S Hs Tmm10 N_waves cot_alpha P rho_armour Dn50 M50 c_pl
      c_s c_pl_mult c_s_mult)
      (fun i => VdM2021.calculate_damage_number_S (Hs.get i) (Tmm10.get i) (N_waves.get i) (cot_alpha.get i)
        (P.get i) (rho_armour.get i) (Dn50.get i) (M50.get i) (c_pl.get i) (c_s.get i) (c_pl_mult.get i)
        (c_s_mult.get i)) :=
  (ArrProof.VdM2021_calculate_damage_number_S Hs Tmm10 N_waves cot_alpha P rho_armour Dn50 M50 c_pl c_s
      c_pl_mult c_s_mult h_Dn50 h_M50 h_rho_armour).sub

example := C85_VdM2021_calculate_damage_number_S_no_false_alarm (n := 2) ArrEx.two ArrEx.two ArrEx.two
  ArrEx.two ArrEx.two ArrEx.two ArrEx.two ArrEx.two ArrEx.two ArrEx.two ArrEx.two ArrEx.two (by arr_ex) (by
  arr_ex) (by arr_ex)

theorem C85_VdM2021_calculate_nominal_rock_diameter_Dn50_no_false_alarm [NeZero n] (Hs Tmm10 N_waves cot_alpha
    P rho_armour S c_pl c_s c_pl_mult c_s_mult : Val n) :
    NoFalseAlarm (Arr.VdM2021.calculate_nominal_rock_diameter_Dn50 Hs Tmm10 N_waves cot_alpha P rho_armour S
      c_pl c_s c_pl_mult c_s_mult)
      (fun i => VdM2021.calculate_nominal_rock_diameter_Dn50 (Hs.get i) (Tmm10.get i) (N_waves.get i)
        (cot_alpha.get i) (P.get i) (rho_armour.get i) (S.get i) (c_pl.get i) (c_s.get i) (c_pl_mult.get i)
        (c_s_mult.get i)) :=
  (ArrProof.VdM2021_calculate_nominal_rock_diameter_Dn50 Hs Tmm10 N_waves cot_alpha P rho_armour S c_pl c_s
      c_pl_mult c_s_mult).sub

theorem C85_VdM2021_calculate_significant_wave_height_Hs_no_false_alarm [NeZero n] (Tmm10 N_waves cot_alpha P
    rho_armour S Dn50 M50 c_pl c_s c_pl_mult c_s_mult g : Val n)
    (h_Dn50 : Dn50.Uniform)
    (h_M50 : M50.Uniform)
    (h_rho_armour : rho_armour.Uniform) :
    NoFalseAlarm (Arr.VdM2021.calculate_significant_wave_height_Hs Tmm10 N_waves cot_alpha P rho_armour S Dn50
      M50 c_pl c_s c_pl_mult c_s_mult g)
      (fun i => VdM2021.calculate_significant_wave_height_Hs (Tmm10.get i) (N_waves.get i) (cot_alpha.get i)
        (P.get i) (rho_armour.get i) (S.get i) (Dn50.get i) (M50.get i) (c_pl.get i) (c_s.get i)
        (c_pl_mult.get i) (c_s_mult.get i) (g.get i)) :=
  (ArrProof.VdM2021_calculate_significant_wave_height_Hs Tmm10 N_waves cot_alpha P rho_armour S Dn50 M50 c_pl
      c_s c_pl_mult c_s_mult g h_Dn50 h_M50 h_rho_armour).sub

example := C85_VdM2021_calculate_significant_wave_height_Hs_no_false_alarm (n := 2) ArrEx.two ArrEx.two
  ArrEx.two ArrEx.two ArrEx.two ArrEx.two ArrEx.two ArrEx.two ArrEx.two ArrEx.two ArrEx.two ArrEx.two
  ArrEx.two (by arr_ex) (by arr_ex) (by arr_ex)

theorem C85_CubesVdM_check_validity_range_no_false_alarm [NeZero n] (Hs Tm rho_armour N_waves cot_alpha : Val
    n) :
    NoFalseAlarm (Arr.CubesVdM.check_validity_range Hs Tm rho_armour N_waves cot_alpha)
      (fun i => CubesVdM.check_validity_range (Hs.get i) (Tm.get i) (rho_armour.get i) (N_waves.get i)
        (cot_alpha.get i)) :=
  (ArrProof.CubesVdM_check_validity_range (U := False) Hs Tm rho_armour N_waves cot_alpha (fun h =>
      h.elim)).sub

theorem C85_CubesVdM_check_validity_range [NeZero n] (Hs Tm rho_armour N_waves cot_alpha : Val n)
    (given : ∀ x ∈ [Hs, Tm, rho_armour, N_waves, cot_alpha], Val.Uniform x) :
    SameWarnings (Arr.CubesVdM.check_validity_range Hs Tm rho_armour N_waves cot_alpha)
      (fun i => CubesVdM.check_validity_range (Hs.get i) (Tm.get i) (rho_armour.get i) (N_waves.get i)
        (cot_alpha.get i)) :=
  (ArrProof.CubesVdM_check_validity_range (U := True) Hs Tm rho_armour N_waves cot_alpha (fun _ =>
      given)).same trivial

example := C85_CubesVdM_check_validity_range (n := 2) ArrEx.two ArrEx.two ArrEx.two ArrEx.two ArrEx.two (by
  arr_ex)

theorem C85_CubesVdM_calculate_nominal_diameter_Dn_vanDerMeer1988_no_false_alarm [NeZero n] (Hs Tm rho_water
    rho_armour N_waves cot_alpha Nod : Val n) :
    NoFalseAlarm (Arr.CubesVdM.calculate_nominal_diameter_Dn_vanDerMeer1988 Hs Tm rho_water rho_armour N_waves
      cot_alpha Nod)
      (fun i => CubesVdM.calculate_nominal_diameter_Dn_vanDerMeer1988 (Hs.get i) (Tm.get i) (rho_water.get i)
        (rho_armour.get i) (N_waves.get i) (cot_alpha.get i) (Nod.get i)) :=
  (ArrProof.CubesVdM_calculate_nominal_diameter_Dn_vanDerMeer1988 (U := False) Hs Tm rho_water rho_armour
      N_waves cot_alpha Nod (fun h => h.elim)).sub

theorem C85_CubesVdM_calculate_nominal_diameter_Dn_vanDerMeer1988 [NeZero n] (Hs Tm rho_water rho_armour
    N_waves cot_alpha Nod : Val n)
    (given : ∀ x ∈ [Hs, Tm, rho_water, rho_armour, N_waves, cot_alpha, Nod], Val.Uniform x) :
    SameWarnings (Arr.CubesVdM.calculate_nominal_diameter_Dn_vanDerMeer1988 Hs Tm rho_water rho_armour N_waves
      cot_alpha Nod)
      (fun i => CubesVdM.calculate_nominal_diameter_Dn_vanDerMeer1988 (Hs.get i) (Tm.get i) (rho_water.get i)
        (rho_armour.get i) (N_waves.get i) (cot_alpha.get i) (Nod.get i)) :=
  (ArrProof.CubesVdM_calculate_nominal_diameter_Dn_vanDerMeer1988 (U := True) Hs Tm rho_water rho_armour
      N_waves cot_alpha Nod (fun _ => given)).same trivial

example := C85_CubesVdM_calculate_nominal_diameter_Dn_vanDerMeer1988 (n := 2) ArrEx.two ArrEx.two ArrEx.two
  ArrEx.two ArrEx.two ArrEx.two ArrEx.two (by arr_ex)

theorem C85_CubesVdM_calculate_wave_height_Hs_vanDerMeer1988_no_false_alarm [NeZero n] (Dn s0m rho_water
    rho_armour N_waves cot_alpha Nod : Val n) :
    NoFalseAlarm (Arr.CubesVdM.calculate_wave_height_Hs_vanDerMeer1988 Dn s0m rho_water rho_armour N_waves
      cot_alpha Nod)
      (fun i => CubesVdM.calculate_wave_height_Hs_vanDerMeer1988 (Dn.get i) (s0m.get i) (rho_water.get i)
        (rho_armour.get i) (N_waves.get i) (cot_alpha.get i) (Nod.get i)) :=
  (ArrProof.CubesVdM_calculate_wave_height_Hs_vanDerMeer1988 Dn s0m rho_water rho_armour N_waves cot_alpha
      Nod).sub

theorem C85_CubesVdM_calculate_damage_Nod_vanDerMeer1988_no_false_alarm [NeZero n] (Hs Dn s0m rho_water
    rho_armour N_waves cot_alpha : Val n) :
    NoFalseAlarm (Arr.CubesVdM.calculate_damage_Nod_vanDerMeer1988 Hs Dn s0m rho_water rho_armour N_waves
      cot_alpha)
      (fun i => CubesVdM.calculate_damage_Nod_vanDerMeer1988 (Hs.get i) (Dn.get i) (s0m.get i) (rho_water.get
        i) (rho_armour.get i) (N_waves.get i) (cot_alpha.get i)) :=
  (ArrProof.CubesVdM_calculate_damage_Nod_vanDerMeer1988 Hs Dn s0m rho_water rho_armour N_waves cot_alpha).sub

theorem C85_CubesSingle_calculate_unit_mass_M_start_of_damage_no_false_alarm [NeZero n] (Hs rho_water
    rho_armour Ns : Val n) :
    NoFalseAlarm (Arr.CubesSingle.calculate_unit_mass_M_start_of_damage Hs rho_water rho_armour Ns)
      (fun i => CubesSingle.calculate_unit_mass_M_start_of_damage (Hs.get i) (rho_water.get i) (rho_armour.get
        i) (Ns.get i)) :=
  (ArrProof.CubesSingle_calculate_unit_mass_M_start_of_damage (U := False) Hs rho_water rho_armour Ns (fun h
      => h.elim)).sub

theorem C85_CubesSingle_calculate_unit_mass_M_start_of_damage [NeZero n] (Hs rho_water rho_armour Ns : Val n)
    (given : ∀ x ∈ [Hs, rho_water, rho_armour, Ns], Val.Uniform x) :
    SameWarnings (Arr.CubesSingle.calculate_unit_mass_M_start_of_damage Hs rho_water rho_armour Ns)
      (fun i => CubesSingle.calculate_unit_mass_M_start_of_damage (Hs.get i) (rho_water.get i) (rho_armour.get
        i) (Ns.get i)) :=
  (ArrProof.CubesSingle_calculate_unit_mass_M_start_of_damage (U := True) Hs rho_water rho_armour Ns (fun _ =>
      given)).same trivial

example := C85_CubesSingle_calculate_unit_mass_M_start_of_damage (n := 2) ArrEx.two ArrEx.two ArrEx.two
  ArrEx.two (by arr_ex)

theorem C85_CubesSingle_calculate_unit_mass_M_failure_no_false_alarm [NeZero n] (Hs rho_water rho_armour Ns :
    Val n) :
    NoFalseAlarm (Arr.CubesSingle.calculate_unit_mass_M_failure Hs rho_water rho_armour Ns)
      (fun i => CubesSingle.calculate_unit_mass_M_failure (Hs.get i) (rho_water.get i) (rho_armour.get i)
        (Ns.get i)) :=
  (ArrProof.CubesSingle_calculate_unit_mass_M_failure (U := False) Hs rho_water rho_armour Ns (fun h =>
      h.elim)).sub

theorem C85_CubesSingle_calculate_unit_mass_M_failure [NeZero n] (Hs rho_water rho_armour Ns : Val n)
    (given : ∀ x ∈ [Hs, rho_water, rho_armour, Ns], Val.Uniform x) :
    SameWarnings (Arr.CubesSingle.calculate_unit_mass_M_failure Hs rho_water rho_armour Ns)
      (fun i => CubesSingle.calculate_unit_mass_M_failure (Hs.get i) (rho_water.get i) (rho_armour.get i)
        (Ns.get i)) :=
  (ArrProof.CubesSingle_calculate_unit_mass_M_failure (U := True) Hs rho_water rho_armour Ns (fun _ =>
      given)).same trivial

example := C85_CubesSingle_calculate_unit_mass_M_failure (n := 2) ArrEx.two ArrEx.two ArrEx.two ArrEx.two
  (by arr_ex)

theorem C85_CubesSingle_calculate_significant_wave_height_Hs_start_of_damage_no_false_alarm [NeZero n] (M
    rho_water rho_armour Ns : Val n) :
    NoFalseAlarm (Arr.CubesSingle.calculate_significant_wave_height_Hs_start_of_damage M rho_water rho_armour
      Ns)
      (fun i => CubesSingle.calculate_significant_wave_height_Hs_start_of_damage (M.get i) (rho_water.get i)
        (rho_armour.get i) (Ns.get i)) :=
  (ArrProof.CubesSingle_calculate_significant_wave_height_Hs_start_of_damage (U := False) M rho_water
      rho_armour Ns (fun h => h.elim)).sub

theorem C85_CubesSingle_calculate_significant_wave_height_Hs_start_of_damage [NeZero n] (M rho_water
    rho_armour Ns : Val n)
    (given : ∀ x ∈ [M, rho_water, rho_armour, Ns], Val.Uniform x) :
    SameWarnings (Arr.CubesSingle.calculate_significant_wave_height_Hs_start_of_damage M rho_water rho_armour
      Ns)
      (fun i => CubesSingle.calculate_significant_wave_height_Hs_start_of_damage (M.get i) (rho_water.get i)
        (rho_armour.get i) (Ns.get i)) :=
  (ArrProof.CubesSingle_calculate_significant_wave_height_Hs_start_of_damage (U := True) M rho_water
      rho_armour Ns (fun _ => given)).same trivial

example := C85_CubesSingle_calculate_significant_wave_height_Hs_start_of_damage (n := 2) ArrEx.two ArrEx.two
  ArrEx.two ArrEx.two (by arr_ex)

theorem C85_CubesSingle_calculate_significant_wave_height_Hs_failure_no_false_alarm [NeZero n] (M rho_water
    rho_armour Ns : Val n) :
    NoFalseAlarm (Arr.CubesSingle.calculate_significant_wave_height_Hs_failure M rho_water rho_armour Ns)
      (fun i => CubesSingle.calculate_significant_wave_height_Hs_failure (M.get i) (rho_water.get i)
        (rho_armour.get i) (Ns.get i)) :=
  (ArrProof.CubesSingle_calculate_significant_wave_height_Hs_failure (U := False) M rho_water rho_armour Ns
      (fun h => h.elim)).sub

theorem C85_CubesSingle_calculate_significant_wave_height_Hs_failure [NeZero n] (M rho_water rho_armour Ns :
    Val n)
    (given : ∀ x ∈ [M, rho_water, rho_armour, Ns], Val.Uniform x) :
    SameWarnings (Arr.CubesSingle.calculate_significant_wave_height_Hs_failure M rho_water rho_armour Ns)
      (fun i => CubesSingle.calculate_significant_wave_height_Hs_failure (M.get i) (rho_water.get i)
        (rho_armour.get i) (Ns.get i)) :=
  (ArrProof.CubesSingle_calculate_significant_wave_height_Hs_failure (U := True) M rho_water rho_armour Ns
      (fun _ => given)).same trivial

example := C85_CubesSingle_calculate_significant_wave_height_Hs_failure (n := 2) ArrEx.two ArrEx.two
  ArrEx.two ArrEx.two (by arr_ex)

theorem C85_Hudson1959_lookup_table_damage_factors_no_false_alarm_partial [NeZero n] (damage_percentage : Val
    n) (rock_type : String) (h : ∀ i, damage_percentage.get i < 100) :
    NoFalseAlarm (Arr.Hudson1959.lookup_table_damage_factors damage_percentage rock_type)
      (fun i => Hudson1959.lookup_table_damage_factors (damage_percentage.get i) rock_type) :=
  (ArrProof.Hudson1959_lookup_table_damage_factors (U := False) damage_percentage rock_type h).sub

example := C85_Hudson1959_lookup_table_damage_factors_no_false_alarm_partial (n := 2) ArrEx.two "rough" (by
  arr_ex)

theorem C85_Hudson1959_lookup_table_damage_factors_partial [NeZero n] (damage_percentage : Val n) (rock_type :
    String) (h : ∀ i, damage_percentage.get i < 100) :
    SameWarnings (Arr.Hudson1959.lookup_table_damage_factors damage_percentage rock_type)
      (fun i => Hudson1959.lookup_table_damage_factors (damage_percentage.get i) rock_type) :=
  (ArrProof.Hudson1959_lookup_table_damage_factors (U := True) damage_percentage rock_type h).same trivial

example := C85_Hudson1959_lookup_table_damage_factors_partial (n := 2) ArrEx.two "rough" (by arr_ex)

theorem C85_Hudson1959_calculate_median_rock_mass_M50_no_false_alarm_partial [NeZero n] (Hs rho_water
    rho_armour KD cot_alpha damage_percentage : Val n) (rock_type : String) (alpha_Hs : Val n)
    (h_damage : ∀ i, damage_percentage.get i < 100) :
    NoFalseAlarm (Arr.Hudson1959.calculate_median_rock_mass_M50 Hs rho_water rho_armour KD cot_alpha
      damage_percentage rock_type alpha_Hs)
      (fun i => Hudson1959.calculate_median_rock_mass_M50 (Hs.get i) (rho_water.get i) (rho_armour.get i)
        (KD.get i) (cot_alpha.get i) (damage_percentage.get i) rock_type (alpha_Hs.get i)) :=
  (ArrProof.Hudson1959_calculate_median_rock_mass_M50 (U := False) Hs rho_water rho_armour KD cot_alpha
      damage_percentage rock_type alpha_Hs h_damage (fun h => h.elim)).sub

example := C85_Hudson1959_calculate_median_rock_mass_M50_no_false_alarm_partial (n := 2) ArrEx.two ArrEx.two
  ArrEx.two ArrEx.two ArrEx.two ArrEx.two "rough" ArrEx.two (by arr_ex)

theorem C85_Hudson1959_calculate_median_rock_mass_M50_partial [NeZero n] (Hs rho_water rho_armour KD cot_alpha
    damage_percentage : Val n) (rock_type : String) (alpha_Hs : Val n)
    (h_damage : ∀ i, damage_percentage.get i < 100)
    (given : ∀ x ∈ [Hs, rho_water, rho_armour, KD, cot_alpha, damage_percentage, alpha_Hs], Val.Uniform x) :
    SameWarnings (Arr.Hudson1959.calculate_median_rock_mass_M50 Hs rho_water rho_armour KD cot_alpha
      damage_percentage rock_type alpha_Hs)
      (fun i => Hudson1959.calculate_median_rock_mass_M50 (Hs.get i) (rho_water.get i) (rho_armour.get i)
        (KD.get i) (cot_alpha.get i) (damage_percentage.get i) rock_type (alpha_Hs.get i)) :=
  (ArrProof.Hudson1959_calculate_median_rock_mass_M50 (U := True) Hs rho_water rho_armour KD cot_alpha
      damage_percentage rock_type alpha_Hs h_damage (fun _ => given)).same trivial

example := C85_Hudson1959_calculate_median_rock_mass_M50_partial (n := 2) ArrEx.two ArrEx.two ArrEx.two
  ArrEx.two ArrEx.two ArrEx.two "rough" ArrEx.two (by arr_ex) (by arr_ex)

theorem C85_Hudson1959_calculate_significant_wave_height_Hs_no_false_alarm_partial [NeZero n] (M50 rho_water
    rho_armour KD cot_alpha damage_percentage : Val n) (rock_type : String) (alpha_Hs : Val n)
    (h_damage : ∀ i, damage_percentage.get i < 100) :
    NoFalseAlarm (Arr.Hudson1959.calculate_significant_wave_height_Hs M50 rho_water rho_armour KD cot_alpha
      damage_percentage rock_type alpha_Hs)
      (fun i => Hudson1959.calculate_significant_wave_height_Hs (M50.get i) (rho_water.get i) (rho_armour.get
        i) (KD.get i) (cot_alpha.get i) (damage_percentage.get i) rock_type (alpha_Hs.get i)) :=
  (ArrProof.Hudson1959_calculate_significant_wave_height_Hs (U := False) M50 rho_water rho_armour KD cot_alpha
      damage_percentage rock_type alpha_Hs h_damage (fun h => h.elim)).sub

example := C85_Hudson1959_calculate_significant_wave_height_Hs_no_false_alarm_partial (n := 2) ArrEx.two
  ArrEx.two ArrEx.two ArrEx.two ArrEx.two ArrEx.two "rough" ArrEx.two (by arr_ex)

theorem C85_Hudson1959_calculate_significant_wave_height_Hs_partial [NeZero n] (M50 rho_water rho_armour KD
    cot_alpha damage_percentage : Val n) (rock_type : String) (alpha_Hs : Val n)
    (h_damage : ∀ i, damage_percentage.get i < 100)
    (given : ∀ x ∈ [M50, rho_water, rho_armour, KD, cot_alpha, damage_percentage, alpha_Hs], Val.Uniform x) :
    SameWarnings (Arr.Hudson1959.calculate_significant_wave_height_Hs M50 rho_water rho_armour KD cot_alpha
      damage_percentage rock_type alpha_Hs)
      (fun i => Hudson1959.calculate_significant_wave_height_Hs (M50.get i) (rho_water.get i) (rho_armour.get
        i) (KD.get i) (cot_alpha.get i) (damage_percentage.get i) rock_type (alpha_Hs.get i)) :=
  (ArrProof.Hudson1959_calculate_significant_wave_height_Hs (U := True) M50 rho_water rho_armour KD cot_alpha
      damage_percentage rock_type alpha_Hs h_damage (fun _ => given)).same trivial

example := C85_Hudson1959_calculate_significant_wave_height_Hs_partial (n := 2) ArrEx.two ArrEx.two
  ArrEx.two ArrEx.two ArrEx.two ArrEx.two "rough" ArrEx.two (by arr_ex) (by arr_ex)

theorem C85_Accropode_check_validity_range_no_false_alarm [NeZero n] (cot_alpha seabed_slope_perc : Val n) :
    NoFalseAlarm (Arr.Accropode.check_validity_range cot_alpha seabed_slope_perc)
      (fun i => Accropode.check_validity_range (cot_alpha.get i) (seabed_slope_perc.get i)) :=
  (ArrProof.Accropode_check_validity_range (U := False) cot_alpha seabed_slope_perc (fun h => h.elim)).sub

theorem C85_Accropode_check_validity_range [NeZero n] (cot_alpha seabed_slope_perc : Val n)
    (given : ∀ x ∈ [cot_alpha, seabed_slope_perc], Val.Uniform x) :
    SameWarnings (Arr.Accropode.check_validity_range cot_alpha seabed_slope_perc)
      (fun i => Accropode.check_validity_range (cot_alpha.get i) (seabed_slope_perc.get i)) :=
  (ArrProof.Accropode_check_validity_range (U := True) cot_alpha seabed_slope_perc (fun _ => given)).same
      trivial

example := C85_Accropode_check_validity_range (n := 2) ArrEx.two ArrEx.two (by arr_ex)

theorem C85_Accropode_calculate_unit_mass_M_no_false_alarm [NeZero n] (Hs rho_water rho_armour KD cot_alpha
    alpha_Hs : Val n) :
    NoFalseAlarm (Arr.Accropode.calculate_unit_mass_M Hs rho_water rho_armour KD cot_alpha alpha_Hs)
      (fun i => Accropode.calculate_unit_mass_M (Hs.get i) (rho_water.get i) (rho_armour.get i) (KD.get i)
        (cot_alpha.get i) (alpha_Hs.get i)) :=
  (ArrProof.Accropode_calculate_unit_mass_M (U := False) Hs rho_water rho_armour KD cot_alpha alpha_Hs (fun h
      => h.elim)).sub

theorem C85_Accropode_calculate_unit_mass_M [NeZero n] (Hs rho_water rho_armour KD cot_alpha alpha_Hs : Val n)
    (given : ∀ x ∈ [Hs, rho_water, rho_armour, KD, cot_alpha, alpha_Hs], Val.Uniform x) :
    SameWarnings (Arr.Accropode.calculate_unit_mass_M Hs rho_water rho_armour KD cot_alpha alpha_Hs)
      (fun i => Accropode.calculate_unit_mass_M (Hs.get i) (rho_water.get i) (rho_armour.get i) (KD.get i)
        (cot_alpha.get i) (alpha_Hs.get i)) :=
  (ArrProof.Accropode_calculate_unit_mass_M (U := True) Hs rho_water rho_armour KD cot_alpha alpha_Hs (fun _
      => given)).same trivial

example := C85_Accropode_calculate_unit_mass_M (n := 2) ArrEx.two ArrEx.two ArrEx.two ArrEx.two ArrEx.two
  ArrEx.two (by arr_ex)

theorem C85_Accropode_calculate_significant_wave_height_Hs_no_false_alarm [NeZero n] (M rho_water rho_armour
    KD cot_alpha alpha_Hs : Val n) :
    NoFalseAlarm (Arr.Accropode.calculate_significant_wave_height_Hs M rho_water rho_armour KD cot_alpha
      alpha_Hs)
      (fun i => Accropode.calculate_significant_wave_height_Hs (M.get i) (rho_water.get i) (rho_armour.get i)
        (KD.get i) (cot_alpha.get i) (alpha_Hs.get i)) :=
  (ArrProof.Accropode_calculate_significant_wave_height_Hs (U := False) M rho_water rho_armour KD cot_alpha
      alpha_Hs (fun h => h.elim)).sub

theorem C85_Accropode_calculate_significant_wave_height_Hs [NeZero n] (M rho_water rho_armour KD cot_alpha
    alpha_Hs : Val n)
    (given : ∀ x ∈ [M, rho_water, rho_armour, KD, cot_alpha, alpha_Hs], Val.Uniform x) :
    SameWarnings (Arr.Accropode.calculate_significant_wave_height_Hs M rho_water rho_armour KD cot_alpha
      alpha_Hs)
      (fun i => Accropode.calculate_significant_wave_height_Hs (M.get i) (rho_water.get i) (rho_armour.get i)
        (KD.get i) (cot_alpha.get i) (alpha_Hs.get i)) :=
  (ArrProof.Accropode_calculate_significant_wave_height_Hs (U := True) M rho_water rho_armour KD cot_alpha
      alpha_Hs (fun _ => given)).same trivial

example := C85_Accropode_calculate_significant_wave_height_Hs (n := 2) ArrEx.two ArrEx.two ArrEx.two
  ArrEx.two ArrEx.two ArrEx.two (by arr_ex)

theorem C85_Accropode_calculate_KD_breaking_trunk_from_seabed_slope_no_false_alarm [NeZero n]
    (seabed_slope_perc : Val n) :
    NoFalseAlarm (Arr.Accropode.calculate_KD_breaking_trunk_from_seabed_slope seabed_slope_perc)
      (fun i => Accropode.calculate_KD_breaking_trunk_from_seabed_slope (seabed_slope_perc.get i)) :=
  (ArrProof.Accropode_calculate_KD_breaking_trunk_from_seabed_slope (U := False) seabed_slope_perc (fun h =>
      h.elim)).sub

theorem C85_Accropode_calculate_KD_breaking_trunk_from_seabed_slope [NeZero n] (seabed_slope_perc : Val n)
    (given : ∀ x ∈ [seabed_slope_perc], Val.Uniform x) :
    SameWarnings (Arr.Accropode.calculate_KD_breaking_trunk_from_seabed_slope seabed_slope_perc)
      (fun i => Accropode.calculate_KD_breaking_trunk_from_seabed_slope (seabed_slope_perc.get i)) :=
  (ArrProof.Accropode_calculate_KD_breaking_trunk_from_seabed_slope (U := True) seabed_slope_perc (fun _ =>
      given)).same trivial

example := C85_Accropode_calculate_KD_breaking_trunk_from_seabed_slope (n := 2) ArrEx.two (by arr_ex)

theorem C85_Accropode2_check_validity_range_no_false_alarm [NeZero n] (cot_alpha seabed_slope_perc : Val n) :
    NoFalseAlarm (Arr.Accropode2.check_validity_range cot_alpha seabed_slope_perc)
      (fun i => Accropode2.check_validity_range (cot_alpha.get i) (seabed_slope_perc.get i)) :=
  (ArrProof.Accropode2_check_validity_range (U := False) cot_alpha seabed_slope_perc (fun h => h.elim)).sub

theorem C85_Accropode2_check_validity_range [NeZero n] (cot_alpha seabed_slope_perc : Val n)
    (given : ∀ x ∈ [cot_alpha, seabed_slope_perc], Val.Uniform x) :
    SameWarnings (Arr.Accropode2.check_validity_range cot_alpha seabed_slope_perc)
      (fun i => Accropode2.check_validity_range (cot_alpha.get i) (seabed_slope_perc.get i)) :=
  (ArrProof.Accropode2_check_validity_range (U := True) cot_alpha seabed_slope_perc (fun _ => given)).same
      trivial

example := C85_Accropode2_check_validity_range (n := 2) ArrEx.two ArrEx.two (by arr_ex)

theorem C85_Accropode2_calculate_unit_mass_M_no_false_alarm [NeZero n] (Hs rho_water rho_armour KD cot_alpha
    alpha_Hs : Val n) :
    NoFalseAlarm (Arr.Accropode2.calculate_unit_mass_M Hs rho_water rho_armour KD cot_alpha alpha_Hs)
      (fun i => Accropode2.calculate_unit_mass_M (Hs.get i) (rho_water.get i) (rho_armour.get i) (KD.get i)
        (cot_alpha.get i) (alpha_Hs.get i)) :=
  (ArrProof.Accropode2_calculate_unit_mass_M (U := False) Hs rho_water rho_armour KD cot_alpha alpha_Hs (fun h
      => h.elim)).sub

theorem C85_Accropode2_calculate_unit_mass_M [NeZero n] (Hs rho_water rho_armour KD cot_alpha alpha_Hs : Val
    n)
    (given : ∀ x ∈ [Hs, rho_water, rho_armour, KD, cot_alpha, alpha_Hs], Val.Uniform x) :
    SameWarnings (Arr.Accropode2.calculate_unit_mass_M Hs rho_water rho_armour KD cot_alpha alpha_Hs)
      (fun i => Accropode2.calculate_unit_mass_M (Hs.get i) (rho_water.get i) (rho_armour.get i) (KD.get i)
        (cot_alpha.get i) (alpha_Hs.get i)) :=
  (ArrProof.Accropode2_calculate_unit_mass_M (U := True) Hs rho_water rho_armour KD cot_alpha alpha_Hs (fun _
      => given)).same trivial

example := C85_Accropode2_calculate_unit_mass_M (n := 2) ArrEx.two ArrEx.two ArrEx.two ArrEx.two ArrEx.two
  ArrEx.two (by arr_ex)

theorem C85_Accropode2_calculate_significant_wave_height_Hs_no_false_alarm [NeZero n] (M rho_water rho_armour
    KD cot_alpha alpha_Hs : Val n) :
    NoFalseAlarm (Arr.Accropode2.calculate_significant_wave_height_Hs M rho_water rho_armour KD cot_alpha
      alpha_Hs)
      (fun i => Accropode2.calculate_significant_wave_height_Hs (M.get i) (rho_water.get i) (rho_armour.get i)
        (KD.get i) (cot_alpha.get i) (alpha_Hs.get i)) :=
  (ArrProof.Accropode2_calculate_significant_wave_height_Hs (U := False) M rho_water rho_armour KD cot_alpha
      alpha_Hs (fun h => h.elim)).sub

theorem C85_Accropode2_calculate_significant_wave_height_Hs [NeZero n] (M rho_water rho_armour KD cot_alpha
    alpha_Hs : Val n)
    (given : ∀ x ∈ [M, rho_water, rho_armour, KD, cot_alpha, alpha_Hs], Val.Uniform x) :
    SameWarnings (Arr.Accropode2.calculate_significant_wave_height_Hs M rho_water rho_armour KD cot_alpha
      alpha_Hs)
      (fun i => Accropode2.calculate_significant_wave_height_Hs (M.get i) (rho_water.get i) (rho_armour.get i)
        (KD.get i) (cot_alpha.get i) (alpha_Hs.get i)) :=
  (ArrProof.Accropode2_calculate_significant_wave_height_Hs (U := True) M rho_water rho_armour KD cot_alpha
      alpha_Hs (fun _ => given)).same trivial

example := C85_Accropode2_calculate_significant_wave_height_Hs (n := 2) ArrEx.two ArrEx.two ArrEx.two
  ArrEx.two ArrEx.two ArrEx.two (by arr_ex)

theorem C85_Accropode2_calculate_KD_breaking_trunk_from_seabed_slope_no_false_alarm [NeZero n]
    (seabed_slope_perc : Val n) :
    NoFalseAlarm (Arr.Accropode2.calculate_KD_breaking_trunk_from_seabed_slope seabed_slope_perc)
      (fun i => Accropode2.calculate_KD_breaking_trunk_from_seabed_slope (seabed_slope_perc.get i)) :=
  (ArrProof.Accropode2_calculate_KD_breaking_trunk_from_seabed_slope (U := False) seabed_slope_perc (fun h =>
      h.elim)).sub

theorem C85_Accropode2_calculate_KD_breaking_trunk_from_seabed_slope [NeZero n] (seabed_slope_perc : Val n)
    (given : ∀ x ∈ [seabed_slope_perc], Val.Uniform x) :
    SameWarnings (Arr.Accropode2.calculate_KD_breaking_trunk_from_seabed_slope seabed_slope_perc)
      (fun i => Accropode2.calculate_KD_breaking_trunk_from_seabed_slope (seabed_slope_perc.get i)) :=
  (ArrProof.Accropode2_calculate_KD_breaking_trunk_from_seabed_slope (U := True) seabed_slope_perc (fun _ =>
      given)).same trivial

example := C85_Accropode2_calculate_KD_breaking_trunk_from_seabed_slope (n := 2) ArrEx.two (by arr_ex)

theorem C85_CoreLoc_check_validity_range_no_false_alarm [NeZero n] (cot_alpha seabed_slope_perc : Val n) :
    NoFalseAlarm (Arr.CoreLoc.check_validity_range cot_alpha seabed_slope_perc)
      (fun i => CoreLoc.check_validity_range (cot_alpha.get i) (seabed_slope_perc.get i)) :=
  (ArrProof.CoreLoc_check_validity_range (U := False) cot_alpha seabed_slope_perc (fun h => h.elim)).sub

theorem C85_CoreLoc_check_validity_range [NeZero n] (cot_alpha seabed_slope_perc : Val n)
    (given : ∀ x ∈ [cot_alpha, seabed_slope_perc], Val.Uniform x) :
    SameWarnings (Arr.CoreLoc.check_validity_range cot_alpha seabed_slope_perc)
      (fun i => CoreLoc.check_validity_range (cot_alpha.get i) (seabed_slope_perc.get i)) :=
  (ArrProof.CoreLoc_check_validity_range (U := True) cot_alpha seabed_slope_perc (fun _ => given)).same
      trivial

example := C85_CoreLoc_check_validity_range (n := 2) ArrEx.two ArrEx.two (by arr_ex)

theorem C85_CoreLoc_calculate_KD_breaking_trunk_from_seabed_slope_no_false_alarm [NeZero n] (seabed_slope_perc
    : Val n) :
    NoFalseAlarm (Arr.CoreLoc.calculate_KD_breaking_trunk_from_seabed_slope seabed_slope_perc)
      (fun i => CoreLoc.calculate_KD_breaking_trunk_from_seabed_slope (seabed_slope_perc.get i)) :=
  (ArrProof.CoreLoc_calculate_KD_breaking_trunk_from_seabed_slope (U := False) seabed_slope_perc (fun h =>
      h.elim)).sub

theorem C85_CoreLoc_calculate_KD_breaking_trunk_from_seabed_slope [NeZero n] (seabed_slope_perc : Val n)
    (given : ∀ x ∈ [seabed_slope_perc], Val.Uniform x) :
    SameWarnings (Arr.CoreLoc.calculate_KD_breaking_trunk_from_seabed_slope seabed_slope_perc)
      (fun i => CoreLoc.calculate_KD_breaking_trunk_from_seabed_slope (seabed_slope_perc.get i)) :=
  (ArrProof.CoreLoc_calculate_KD_breaking_trunk_from_seabed_slope (U := True) seabed_slope_perc (fun _ =>
      given)).same trivial

example := C85_CoreLoc_calculate_KD_breaking_trunk_from_seabed_slope (n := 2) ArrEx.two (by arr_ex)

theorem C85_Jumelet2024_check_validity_range_no_false_alarm [NeZero n] (Hs Tmm10 N_waves cot_alpha : Val n) :
    NoFalseAlarm (Arr.Jumelet2024.check_validity_range Hs Tmm10 N_waves cot_alpha)
      (fun i => Jumelet2024.check_validity_range (Hs.get i) (Tmm10.get i) (N_waves.get i) (cot_alpha.get i))
        :=
  (ArrProof.Jumelet2024_check_validity_range (U := False) Hs Tmm10 N_waves cot_alpha (fun h => h.elim)).sub

theorem C85_Jumelet2024_check_validity_range [NeZero n] (Hs Tmm10 N_waves cot_alpha : Val n)
    (given : ∀ x ∈ [Hs, Tmm10, N_waves, cot_alpha], Val.Uniform x) :
    SameWarnings (Arr.Jumelet2024.check_validity_range Hs Tmm10 N_waves cot_alpha)
      (fun i => Jumelet2024.check_validity_range (Hs.get i) (Tmm10.get i) (N_waves.get i) (cot_alpha.get i))
        :=
  (ArrProof.Jumelet2024_check_validity_range (U := True) Hs Tmm10 N_waves cot_alpha (fun _ => given)).same
      trivial

example := C85_Jumelet2024_check_validity_range (n := 2) ArrEx.two ArrEx.two ArrEx.two ArrEx.two (by arr_ex)

theorem C85_Jumelet2024_calculate_damage_number_S_no_false_alarm [NeZero n] (Hs Tmm10 N_waves cot_alpha
    rho_armour Dn50 M50 c_pl rho_water : Val n)
    (h_Dn50 : Dn50.Uniform)
    (h_M50 : M50.Uniform)
    (h_rho_armour : rho_armour.Uniform) :
    NoFalseAlarm (Arr.Jumelet2024.calculate_damage_number_S Hs Tmm10 N_waves cot_alpha rho_armour Dn50 M50
      c_pl rho_water)
      (fun i => Jumelet2024.calculate_damage_number_S (Hs.get i) (Tmm10.get i) (N_waves.get i) (cot_alpha.get
        i) (rho_armour.get i) (Dn50.get i) (M50.get i) (c_pl.get i) (rho_water.get i)) :=
  (ArrProof.Jumelet2024_calculate_damage_number_S (U := False) Hs Tmm10 N_waves cot_alpha rho_armour Dn50 M50
      c_pl rho_water h_Dn50 h_M50 h_rho_armour (fun h => h.elim)).sub

example := C85_Jumelet2024_calculate_damage_number_S_no_false_alarm (n := 2) ArrEx.two ArrEx.two ArrEx.two
  ArrEx.two ArrEx.two ArrEx.two ArrEx.two ArrEx.two ArrEx.two (by arr_ex) (by arr_ex) (by arr_ex)

theorem C85_Jumelet2024_calculate_damage_number_S [NeZero n] (Hs Tmm10 N_waves cot_alpha rho_armour Dn50 M50
    c_pl rho_water : Val n)
    (h_Dn50 : Dn50.Uniform)
    (h_M50 : M50.Uniform)
    (h_rho_armour : rho_armour.Uniform)
    (given : ∀ x ∈ [Hs, Tmm10, N_waves, cot_alpha, rho_armour, Dn50, M50, c_pl, rho_water], Val.Uniform x) :
    SameWarnings (Arr.Jumelet2024.calculate_damage_number_S Hs Tmm10 N_waves cot_alpha rho_armour Dn50 M50
      c_pl rho_water)
      (fun i => Jumelet2024.calculate_damage_number_S (Hs.get i) (Tmm10.get i) (N_waves.get i) (cot_alpha.get
        i) (rho_armour.get i) (Dn50.get i) (M50.get i) (c_pl.get i) (rho_water.get i)) :=
  (ArrProof.Jumelet2024_calculate_damage_number_S (U := True) Hs Tmm10 N_waves cot_alpha rho_armour Dn50 M50
      c_pl rho_water h_Dn50 h_M50 h_rho_armour (fun _ => given)).same trivial

example := C85_Jumelet2024_calculate_damage_number_S (n := 2) ArrEx.two ArrEx.two ArrEx.two ArrEx.two
  ArrEx.two ArrEx.two ArrEx.two ArrEx.two ArrEx.two (by arr_ex) (by arr_ex) (by arr_ex) (by arr_ex)

theorem C85_Jumelet2024_calculate_nominal_rock_diameter_Dn50_no_false_alarm [NeZero n] (Hs Tmm10 N_waves
    cot_alpha rho_armour S c_pl : Val n) :
    NoFalseAlarm (Arr.Jumelet2024.calculate_nominal_rock_diameter_Dn50 Hs Tmm10 N_waves cot_alpha rho_armour S
      c_pl)
      (fun i => Jumelet2024.calculate_nominal_rock_diameter_Dn50 (Hs.get i) (Tmm10.get i) (N_waves.get i)
        (cot_alpha.get i) (rho_armour.get i) (S.get i) (c_pl.get i)) :=
  (ArrProof.Jumelet2024_calculate_nominal_rock_diameter_Dn50 (U := False) Hs Tmm10 N_waves cot_alpha
      rho_armour S c_pl (fun h => h.elim)).sub

theorem C85_Jumelet2024_calculate_nominal_rock_diameter_Dn50 [NeZero n] (Hs Tmm10 N_waves cot_alpha rho_armour
    S c_pl : Val n)
    (given : ∀ x ∈ [Hs, Tmm10, N_waves, cot_alpha, rho_armour, S, c_pl], Val.Uniform x) :
    SameWarnings (Arr.Jumelet2024.calculate_nominal_rock_diameter_Dn50 Hs Tmm10 N_waves cot_alpha rho_armour S
      c_pl)
      (fun i => Jumelet2024.calculate_nominal_rock_diameter_Dn50 (Hs.get i) (Tmm10.get i) (N_waves.get i)
        (cot_alpha.get i) (rho_armour.get i) (S.get i) (c_pl.get i)) :=
  (ArrProof.Jumelet2024_calculate_nominal_rock_diameter_Dn50 (U := True) Hs Tmm10 N_waves cot_alpha rho_armour
      S c_pl (fun _ => given)).same trivial

example := C85_Jumelet2024_calculate_nominal_rock_diameter_Dn50 (n := 2) ArrEx.two ArrEx.two ArrEx.two
  ArrEx.two ArrEx.two ArrEx.two ArrEx.two (by arr_ex)

theorem C85_Scaravaglione2025_check_validity_range_no_false_alarm [NeZero n] (Hm0 Tmm10 N_waves cot_alpha P
    Dn50 Dn50_core rho_armour rho_water : Val n) :
    NoFalseAlarm (Arr.Scaravaglione2025.check_validity_range Hm0 Tmm10 N_waves cot_alpha P Dn50 Dn50_core
      rho_armour rho_water)
      (fun i => Scaravaglione2025.check_validity_range (Hm0.get i) (Tmm10.get i) (N_waves.get i)
        (cot_alpha.get i) (P.get i) (Dn50.get i) (Dn50_core.get i) (rho_armour.get i) (rho_water.get i)) :=
  (ArrProof.Scaravaglione2025_check_validity_range (U := False) Hm0 Tmm10 N_waves cot_alpha P Dn50 Dn50_core
      rho_armour rho_water (fun h => h.elim)).sub

theorem C85_Scaravaglione2025_check_validity_range [NeZero n] (Hm0 Tmm10 N_waves cot_alpha P Dn50 Dn50_core
    rho_armour rho_water : Val n)
    (given : ∀ x ∈ [Hm0, Tmm10, N_waves, cot_alpha, P, Dn50, Dn50_core, rho_armour, rho_water], Val.Uniform x)
      :
    SameWarnings (Arr.Scaravaglione2025.check_validity_range Hm0 Tmm10 N_waves cot_alpha P Dn50 Dn50_core
      rho_armour rho_water)
      (fun i => Scaravaglione2025.check_validity_range (Hm0.get i) (Tmm10.get i) (N_waves.get i)
        (cot_alpha.get i) (P.get i) (Dn50.get i) (Dn50_core.get i) (rho_armour.get i) (rho_water.get i)) :=
  (ArrProof.Scaravaglione2025_check_validity_range (U := True) Hm0 Tmm10 N_waves cot_alpha P Dn50 Dn50_core
      rho_armour rho_water (fun _ => given)).same trivial

example := C85_Scaravaglione2025_check_validity_range (n := 2) ArrEx.two ArrEx.two ArrEx.two ArrEx.two
  ArrEx.two ArrEx.two ArrEx.two ArrEx.two ArrEx.two (by arr_ex)

theorem C85_Scaravaglione2025_calculate_damage_number_S_no_false_alarm [NeZero n] (Hm0 Tmm10 N_waves cot_alpha
    rho_armour rho_core Dn50 Dn50_core M50 M50_core c_VGnew rho_water : Val n)
    (h_Dn50 : Dn50.Uniform)
    (h_M50 : M50.Uniform)
    (h_rho_armour : rho_armour.Uniform)
    (h_Dn50_core : Dn50_core.Uniform)
    (h_M50_core : M50_core.Uniform)
    (h_rho_core : rho_core.Uniform) :
    NoFalseAlarm (Arr.Scaravaglione2025.calculate_damage_number_S Hm0 Tmm10 N_waves cot_alpha rho_armour
      rho_core Dn50 Dn50_core M50 M50_core c_VGnew rho_water)
      (fun i => Scaravaglione2025.calculate_damage_number_S (Hm0.get i) (Tmm10.get i) (N_waves.get i)
        (cot_alpha.get i) (rho_armour.get i) (rho_core.get i) (Dn50.get i) (Dn50_core.get i) (M50.get i)
        (M50_core.get i) (c_VGnew.get i) (rho_water.get i)) :=
  (ArrProof.Scaravaglione2025_calculate_damage_number_S Hm0 Tmm10 N_waves cot_alpha rho_armour rho_core Dn50
      Dn50_core M50 M50_core c_VGnew rho_water h_Dn50 h_M50 h_rho_armour h_Dn50_core h_M50_core
      h_rho_core).sub

example := C85_Scaravaglione2025_calculate_damage_number_S_no_false_alarm (n := 2) ArrEx.two ArrEx.two
  ArrEx.two ArrEx.two ArrEx.two ArrEx.two ArrEx.two ArrEx.two ArrEx.two ArrEx.two ArrEx.two ArrEx.two (by
  arr_ex) (by arr_ex) (by arr_ex) (by arr_ex) (by arr_ex) (by arr_ex)

theorem C85_Scaravaglione2025_calculate_nominal_rock_diameter_Dn50_no_false_alarm [NeZero n] (Hm0 Tmm10
    N_waves cot_alpha rho_armour rho_core S Dn50_core M50_core c_VGnew rho_water : Val n)
    (h_Dn50_core : Dn50_core.Uniform)
    (h_M50_core : M50_core.Uniform)
    (h_rho_core : rho_core.Uniform) :
    NoFalseAlarm (Arr.Scaravaglione2025.calculate_nominal_rock_diameter_Dn50 Hm0 Tmm10 N_waves cot_alpha
      rho_armour rho_core S Dn50_core M50_core c_VGnew rho_water)
      (fun i => Scaravaglione2025.calculate_nominal_rock_diameter_Dn50 (Hm0.get i) (Tmm10.get i) (N_waves.get
        i) (cot_alpha.get i) (rho_armour.get i) (rho_core.get i) (S.get i) (Dn50_core.get i) (M50_core.get i)
        (c_VGnew.get i) (rho_water.get i)) :=
  (ArrProof.Scaravaglione2025_calculate_nominal_rock_diameter_Dn50 Hm0 Tmm10 N_waves cot_alpha rho_armour
      rho_core S Dn50_core M50_core c_VGnew rho_water h_Dn50_core h_M50_core h_rho_core).sub

example := C85_Scaravaglione2025_calculate_nominal_rock_diameter_Dn50_no_false_alarm (n := 2) ArrEx.two
  ArrEx.two ArrEx.two ArrEx.two ArrEx.two ArrEx.two ArrEx.two ArrEx.two ArrEx.two ArrEx.two ArrEx.two (by
  arr_ex) (by arr_ex) (by arr_ex)

theorem C85_Scaravaglione2025_calculate_significant_wave_height_Hm0_no_false_alarm [NeZero n] (Tmm10 N_waves
    cot_alpha rho_armour rho_core S Dn50 Dn50_core M50 M50_core c_VGnew g rho_water : Val n)
    (h_Dn50 : Dn50.Uniform)
    (h_M50 : M50.Uniform)
    (h_rho_armour : rho_armour.Uniform)
    (h_Dn50_core : Dn50_core.Uniform)
    (h_M50_core : M50_core.Uniform)
    (h_rho_core : rho_core.Uniform) :
    NoFalseAlarm (Arr.Scaravaglione2025.calculate_significant_wave_height_Hm0 Tmm10 N_waves cot_alpha
      rho_armour rho_core S Dn50 Dn50_core M50 M50_core c_VGnew g rho_water)
      (fun i => Scaravaglione2025.calculate_significant_wave_height_Hm0 (Tmm10.get i) (N_waves.get i)
        (cot_alpha.get i) (rho_armour.get i) (rho_core.get i) (S.get i) (Dn50.get i) (Dn50_core.get i)
        (M50.get i) (M50_core.get i) (c_VGnew.get i) (g.get i) (rho_water.get i)) :=
  (ArrProof.Scaravaglione2025_calculate_significant_wave_height_Hm0 Tmm10 N_waves cot_alpha rho_armour
      rho_core S Dn50 Dn50_core M50 M50_core c_VGnew g rho_water h_Dn50 h_M50 h_rho_armour h_Dn50_core
      h_M50_core h_rho_core).sub

example := C85_Scaravaglione2025_calculate_significant_wave_height_Hm0_no_false_alarm (n := 2) ArrEx.two
  ArrEx.two ArrEx.two ArrEx.two ArrEx.two ArrEx.two ArrEx.two ArrEx.two ArrEx.two ArrEx.two ArrEx.two
  ArrEx.two ArrEx.two (by arr_ex) (by arr_ex) (by arr_ex) (by arr_ex) (by arr_ex) (by arr_ex)

theorem C85_KramerBurcharth_check_validity_range_no_false_alarm [NeZero n] (Rc Dn50 : Val n) :
    NoFalseAlarm (Arr.KramerBurcharth.check_validity_range Rc Dn50)
      (fun i => KramerBurcharth.check_validity_range (Rc.get i) (Dn50.get i)) :=
  (ArrProof.KramerBurcharth_check_validity_range (U := False) Rc Dn50 (fun h => h.elim)).sub

theorem C85_KramerBurcharth_check_validity_range [NeZero n] (Rc Dn50 : Val n)
    (given : ∀ x ∈ [Rc, Dn50], Val.Uniform x) :
    SameWarnings (Arr.KramerBurcharth.check_validity_range Rc Dn50)
      (fun i => KramerBurcharth.check_validity_range (Rc.get i) (Dn50.get i)) :=
  (ArrProof.KramerBurcharth_check_validity_range (U := True) Rc Dn50 (fun _ => given)).same trivial

example := C85_KramerBurcharth_check_validity_range (n := 2) ArrEx.two ArrEx.two (by arr_ex)

theorem C85_KramerBurcharth_calculate_significant_wave_height_Hs_no_false_alarm [NeZero n] (Rc rho_armour Dn50
    M50 : Val n)
    (h_Dn50 : Dn50.Uniform)
    (h_M50 : M50.Uniform)
    (h_rho_armour : rho_armour.Uniform) :
    NoFalseAlarm (Arr.KramerBurcharth.calculate_significant_wave_height_Hs Rc rho_armour Dn50 M50)
      (fun i => KramerBurcharth.calculate_significant_wave_height_Hs (Rc.get i) (rho_armour.get i) (Dn50.get
        i) (M50.get i)) :=
  (ArrProof.KramerBurcharth_calculate_significant_wave_height_Hs Rc rho_armour Dn50 M50 h_Dn50 h_M50
      h_rho_armour).sub

example := C85_KramerBurcharth_calculate_significant_wave_height_Hs_no_false_alarm (n := 2) ArrEx.two
  ArrEx.two ArrEx.two ArrEx.two (by arr_ex) (by arr_ex) (by arr_ex)

theorem C85_Etemad2020_check_validity_range_no_false_alarm [NeZero n] (Hs Tmm10 N_waves cot_alpha P S Dn50
    Dn50_core rho_armour rho_water : Val n) :
    NoFalseAlarm (Arr.Etemad2020.check_validity_range Hs Tmm10 N_waves cot_alpha P S Dn50 Dn50_core rho_armour
      rho_water)
      (fun i => Etemad2020.check_validity_range (Hs.get i) (Tmm10.get i) (N_waves.get i) (cot_alpha.get i)
        (P.get i) (S.get i) (Dn50.get i) (Dn50_core.get i) (rho_armour.get i) (rho_water.get i)) :=
  (ArrProof.Etemad2020_check_validity_range (U := False) Hs Tmm10 N_waves cot_alpha P S Dn50 Dn50_core
      rho_armour rho_water (fun h => h.elim)).sub

theorem C85_Etemad2020_check_validity_range [NeZero n] (Hs Tmm10 N_waves cot_alpha P S Dn50 Dn50_core
    rho_armour rho_water : Val n)
    (given : ∀ x ∈ [Hs, Tmm10, N_waves, cot_alpha, P, S, Dn50, Dn50_core, rho_armour, rho_water], Val.Uniform
      x) :
    SameWarnings (Arr.Etemad2020.check_validity_range Hs Tmm10 N_waves cot_alpha P S Dn50 Dn50_core rho_armour
      rho_water)
      (fun i => Etemad2020.check_validity_range (Hs.get i) (Tmm10.get i) (N_waves.get i) (cot_alpha.get i)
        (P.get i) (S.get i) (Dn50.get i) (Dn50_core.get i) (rho_armour.get i) (rho_water.get i)) :=
  (ArrProof.Etemad2020_check_validity_range (U := True) Hs Tmm10 N_waves cot_alpha P S Dn50 Dn50_core
      rho_armour rho_water (fun _ => given)).same trivial

example := C85_Etemad2020_check_validity_range (n := 2) ArrEx.two ArrEx.two ArrEx.two ArrEx.two ArrEx.two
  ArrEx.two ArrEx.two ArrEx.two ArrEx.two ArrEx.two (by arr_ex)

theorem C85_Etemad2020_calculate_damage_number_S_no_false_alarm [NeZero n] (Hs Tmm10 N_waves cot_alpha
    rho_armour Dn50 M50 Dn50_core M50_core rho_core rho_water m : Val n) (use_depth_limited_version : Bool)
    (h_Dn50 : Dn50.Uniform)
    (h_M50 : M50.Uniform)
    (h_rho_armour : rho_armour.Uniform)
    (h_Dn50_core : Dn50_core.Uniform)
    (h_M50_core : M50_core.Uniform)
    (h_rho_core : rho_core.Uniform)
    (h_m : m.Uniform) :
    NoFalseAlarm (Arr.Etemad2020.calculate_damage_number_S Hs Tmm10 N_waves cot_alpha rho_armour Dn50 M50
      Dn50_core M50_core rho_core rho_water m use_depth_limited_version)
      (fun i => Etemad2020.calculate_damage_number_S (Hs.get i) (Tmm10.get i) (N_waves.get i) (cot_alpha.get
        i) (rho_armour.get i) (Dn50.get i) (M50.get i) (Dn50_core.get i) (M50_core.get i) (rho_core.get i)
        (rho_water.get i) (m.get i) use_depth_limited_version) :=
  (ArrProof.Etemad2020_calculate_damage_number_S Hs Tmm10 N_waves cot_alpha rho_armour Dn50 M50 Dn50_core
      M50_core rho_core rho_water m use_depth_limited_version h_Dn50 h_M50 h_rho_armour h_Dn50_core h_M50_core
      h_rho_core h_m).sub

example := C85_Etemad2020_calculate_damage_number_S_no_false_alarm (n := 2) ArrEx.two ArrEx.two ArrEx.two
  ArrEx.two ArrEx.two ArrEx.two ArrEx.two ArrEx.two ArrEx.two ArrEx.two ArrEx.two ArrEx.two true (by arr_ex)
  (by arr_ex) (by arr_ex) (by arr_ex) (by arr_ex) (by arr_ex) (by arr_ex)

theorem C85_Etemad2020_calculate_significant_wave_height_Hs_no_false_alarm [NeZero n] (Tmm10 N_waves cot_alpha
    rho_armour S Dn50 M50 Dn50_core M50_core rho_core m : Val n) (use_depth_limited_version : Bool) (g : Val
    n)
    (h_Dn50 : Dn50.Uniform)
    (h_M50 : M50.Uniform)
    (h_rho_armour : rho_armour.Uniform)
    (h_Dn50_core : Dn50_core.Uniform)
    (h_M50_core : M50_core.Uniform)
    (h_rho_core : rho_core.Uniform)
    (h_m : m.Uniform) :
    NoFalseAlarm (Arr.Etemad2020.calculate_significant_wave_height_Hs Tmm10 N_waves cot_alpha rho_armour S
      Dn50 M50 Dn50_core M50_core rho_core m use_depth_limited_version g)
      (fun i => Etemad2020.calculate_significant_wave_height_Hs (Tmm10.get i) (N_waves.get i) (cot_alpha.get
        i) (rho_armour.get i) (S.get i) (Dn50.get i) (M50.get i) (Dn50_core.get i) (M50_core.get i)
        (rho_core.get i) (m.get i) use_depth_limited_version (g.get i)) :=
  (ArrProof.Etemad2020_calculate_significant_wave_height_Hs Tmm10 N_waves cot_alpha rho_armour S Dn50 M50
      Dn50_core M50_core rho_core m use_depth_limited_version g h_Dn50 h_M50 h_rho_armour h_Dn50_core
      h_M50_core h_rho_core h_m).sub

example := C85_Etemad2020_calculate_significant_wave_height_Hs_no_false_alarm (n := 2) ArrEx.two ArrEx.two
  ArrEx.two ArrEx.two ArrEx.two ArrEx.two ArrEx.two ArrEx.two ArrEx.two ArrEx.two ArrEx.two true ArrEx.two
  (by arr_ex) (by arr_ex) (by arr_ex) (by arr_ex) (by arr_ex) (by arr_ex) (by arr_ex)

theorem C85_Gerding1993_check_validity_no_false_alarm [NeZero n] (ht h Dn50 : Val n) :
    NoFalseAlarm (Arr.Gerding1993.check_validity ht h Dn50)
      (fun i => Gerding1993.check_validity (ht.get i) (h.get i) (Dn50.get i)) :=
  (ArrProof.Gerding1993_check_validity (U := False) ht h Dn50 (fun h => h.elim)).sub

theorem C85_Gerding1993_check_validity [NeZero n] (ht h Dn50 : Val n)
    (given : ∀ x ∈ [ht, h, Dn50], Val.Uniform x) :
    SameWarnings (Arr.Gerding1993.check_validity ht h Dn50)
      (fun i => Gerding1993.check_validity (ht.get i) (h.get i) (Dn50.get i)) :=
  (ArrProof.Gerding1993_check_validity (U := True) ht h Dn50 (fun _ => given)).same trivial

example := C85_Gerding1993_check_validity (n := 2) ArrEx.two ArrEx.two ArrEx.two (by arr_ex)

theorem C85_Gerding1993_calculate_damage_Nod_no_false_alarm [NeZero n] (Hs ht h Dn50 rho_rock rho_water : Val
    n) :
    NoFalseAlarm (Arr.Gerding1993.calculate_damage_Nod Hs ht h Dn50 rho_rock rho_water)
      (fun i => Gerding1993.calculate_damage_Nod (Hs.get i) (ht.get i) (h.get i) (Dn50.get i) (rho_rock.get i)
        (rho_water.get i)) :=
  (ArrProof.Gerding1993_calculate_damage_Nod (U := False) Hs ht h Dn50 rho_rock rho_water (fun h =>
      h.elim)).sub

theorem C85_Gerding1993_calculate_damage_Nod [NeZero n] (Hs ht h Dn50 rho_rock rho_water : Val n)
    (given : ∀ x ∈ [Hs, ht, h, Dn50, rho_rock, rho_water], Val.Uniform x) :
    SameWarnings (Arr.Gerding1993.calculate_damage_Nod Hs ht h Dn50 rho_rock rho_water)
      (fun i => Gerding1993.calculate_damage_Nod (Hs.get i) (ht.get i) (h.get i) (Dn50.get i) (rho_rock.get i)
        (rho_water.get i)) :=
  (ArrProof.Gerding1993_calculate_damage_Nod (U := True) Hs ht h Dn50 rho_rock rho_water (fun _ =>
      given)).same trivial

example := C85_Gerding1993_calculate_damage_Nod (n := 2) ArrEx.two ArrEx.two ArrEx.two ArrEx.two ArrEx.two
  ArrEx.two (by arr_ex)

theorem C85_Gerding1993_calculate_nominal_diameter_Dn50_no_false_alarm [NeZero n] (Hs ht h Nod rho_rock
    rho_water : Val n) :
    NoFalseAlarm (Arr.Gerding1993.calculate_nominal_diameter_Dn50 Hs ht h Nod rho_rock rho_water)
      (fun i => Gerding1993.calculate_nominal_diameter_Dn50 (Hs.get i) (ht.get i) (h.get i) (Nod.get i)
        (rho_rock.get i) (rho_water.get i)) :=
  (ArrProof.Gerding1993_calculate_nominal_diameter_Dn50 Hs ht h Nod rho_rock rho_water).sub

theorem C85_Gerding1993_calculate_wave_height_Hs_no_false_alarm [NeZero n] (Dn50 ht h Nod rho_rock rho_water :
    Val n) :
    NoFalseAlarm (Arr.Gerding1993.calculate_wave_height_Hs Dn50 ht h Nod rho_rock rho_water)
      (fun i => Gerding1993.calculate_wave_height_Hs (Dn50.get i) (ht.get i) (h.get i) (Nod.get i)
        (rho_rock.get i) (rho_water.get i)) :=
  (ArrProof.Gerding1993_calculate_wave_height_Hs (U := False) Dn50 ht h Nod rho_rock rho_water (fun h =>
      h.elim)).sub

theorem C85_Gerding1993_calculate_wave_height_Hs [NeZero n] (Dn50 ht h Nod rho_rock rho_water : Val n)
    (given : ∀ x ∈ [Dn50, ht, h, Nod, rho_rock, rho_water], Val.Uniform x) :
    SameWarnings (Arr.Gerding1993.calculate_wave_height_Hs Dn50 ht h Nod rho_rock rho_water)
      (fun i => Gerding1993.calculate_wave_height_Hs (Dn50.get i) (ht.get i) (h.get i) (Nod.get i)
        (rho_rock.get i) (rho_water.get i)) :=
  (ArrProof.Gerding1993_calculate_wave_height_Hs (U := True) Dn50 ht h Nod rho_rock rho_water (fun _ =>
      given)).same trivial

example := C85_Gerding1993_calculate_wave_height_Hs (n := 2) ArrEx.two ArrEx.two ArrEx.two ArrEx.two
  ArrEx.two ArrEx.two (by arr_ex)

theorem C85_Gerding1993_calculate_depth_above_toe_ht_no_false_alarm [NeZero n] (Hs Dn50 h Nod rho_rock
    rho_water : Val n) :
    NoFalseAlarm (Arr.Gerding1993.calculate_depth_above_toe_ht Hs Dn50 h Nod rho_rock rho_water)
      (fun i => Gerding1993.calculate_depth_above_toe_ht (Hs.get i) (Dn50.get i) (h.get i) (Nod.get i)
        (rho_rock.get i) (rho_water.get i)) :=
  (ArrProof.Gerding1993_calculate_depth_above_toe_ht Hs Dn50 h Nod rho_rock rho_water).sub

theorem C85_VanDerMeer1998_check_validity_no_false_alarm [NeZero n] (Hs ht h Dn50 Nod Delta : Val n) :
    NoFalseAlarm (Arr.VanDerMeer1998.check_validity Hs ht h Dn50 Nod Delta)
      (fun i => VanDerMeer1998.check_validity (Hs.get i) (ht.get i) (h.get i) (Dn50.get i) (Nod.get i)
        (Delta.get i)) :=
  (ArrProof.VanDerMeer1998_check_validity (U := False) Hs ht h Dn50 Nod Delta (fun h => h.elim)).sub

theorem C85_VanDerMeer1998_check_validity [NeZero n] (Hs ht h Dn50 Nod Delta : Val n)
    (given : ∀ x ∈ [Hs, ht, h, Dn50, Nod, Delta], Val.Uniform x) :
    SameWarnings (Arr.VanDerMeer1998.check_validity Hs ht h Dn50 Nod Delta)
      (fun i => VanDerMeer1998.check_validity (Hs.get i) (ht.get i) (h.get i) (Dn50.get i) (Nod.get i)
        (Delta.get i)) :=
  (ArrProof.VanDerMeer1998_check_validity (U := True) Hs ht h Dn50 Nod Delta (fun _ => given)).same trivial

example := C85_VanDerMeer1998_check_validity (n := 2) ArrEx.two ArrEx.two ArrEx.two ArrEx.two ArrEx.two
  ArrEx.two (by arr_ex)

theorem C85_VanDerMeer1998_calculate_damage_Nod_no_false_alarm [NeZero n] (Hs ht h Dn50 rho_rock rho_water :
    Val n) :
    NoFalseAlarm (Arr.VanDerMeer1998.calculate_damage_Nod Hs ht h Dn50 rho_rock rho_water)
      (fun i => VanDerMeer1998.calculate_damage_Nod (Hs.get i) (ht.get i) (h.get i) (Dn50.get i) (rho_rock.get
        i) (rho_water.get i)) :=
  (ArrProof.VanDerMeer1998_calculate_damage_Nod Hs ht h Dn50 rho_rock rho_water).sub

theorem C85_VanDerMeer1998_calculate_nominal_diameter_Dn50_no_false_alarm [NeZero n] (Hs ht h Nod rho_rock
    rho_water : Val n) :
    NoFalseAlarm (Arr.VanDerMeer1998.calculate_nominal_diameter_Dn50 Hs ht h Nod rho_rock rho_water)
      (fun i => VanDerMeer1998.calculate_nominal_diameter_Dn50 (Hs.get i) (ht.get i) (h.get i) (Nod.get i)
        (rho_rock.get i) (rho_water.get i)) :=
  (ArrProof.VanDerMeer1998_calculate_nominal_diameter_Dn50 Hs ht h Nod rho_rock rho_water).sub

theorem C85_VanDerMeer1998_calculate_wave_height_Hs_no_false_alarm [NeZero n] (Dn50 ht h Nod rho_rock
    rho_water : Val n) :
    NoFalseAlarm (Arr.VanDerMeer1998.calculate_wave_height_Hs Dn50 ht h Nod rho_rock rho_water)
      (fun i => VanDerMeer1998.calculate_wave_height_Hs (Dn50.get i) (ht.get i) (h.get i) (Nod.get i)
        (rho_rock.get i) (rho_water.get i)) :=
  (ArrProof.VanDerMeer1998_calculate_wave_height_Hs Dn50 ht h Nod rho_rock rho_water).sub

theorem C85_VanDerMeer1998_calculate_depth_above_toe_ht_no_false_alarm_partial [NeZero n] (Hs Dn50 : PF) (h :
    Val n) (Nod rho_rock rho_water : PF) :
    NoFalseAlarm (Arr.VanDerMeer1998.calculate_depth_above_toe_ht (.num Hs) (.num Dn50) h (.num Nod) (.num
      rho_rock) (.num rho_water))
      (fun i => VanDerMeer1998.calculate_depth_above_toe_ht Hs Dn50 (h.get i) Nod rho_rock rho_water) :=
  (ArrProof.VanDerMeer1998_calculate_depth_above_toe_ht Hs Dn50 h Nod rho_rock rho_water).sub

theorem C85_VanGentVanDerWerf2014_check_validity_no_false_alarm [NeZero n] (Hs tt ht cot_alpha_armour_slope :
    Val n) :
    NoFalseAlarm (Arr.VanGentVanDerWerf2014.check_validity Hs tt ht cot_alpha_armour_slope)
      (fun i => VanGentVanDerWerf2014.check_validity (Hs.get i) (tt.get i) (ht.get i)
        (cot_alpha_armour_slope.get i)) :=
  (ArrProof.VanGentVanDerWerf2014_check_validity (U := False) Hs tt ht cot_alpha_armour_slope (fun h =>
      h.elim)).sub

theorem C85_VanGentVanDerWerf2014_check_validity [NeZero n] (Hs tt ht cot_alpha_armour_slope : Val n)
    (given : ∀ x ∈ [Hs, tt, ht, cot_alpha_armour_slope], Val.Uniform x) :
    SameWarnings (Arr.VanGentVanDerWerf2014.check_validity Hs tt ht cot_alpha_armour_slope)
      (fun i => VanGentVanDerWerf2014.check_validity (Hs.get i) (tt.get i) (ht.get i)
        (cot_alpha_armour_slope.get i)) :=
  (ArrProof.VanGentVanDerWerf2014_check_validity (U := True) Hs tt ht cot_alpha_armour_slope (fun _ =>
      given)).same trivial

example := C85_VanGentVanDerWerf2014_check_validity (n := 2) ArrEx.two ArrEx.two ArrEx.two ArrEx.two (by
  arr_ex)

theorem C85_VanGentVanDerWerf2014_calculate_damage_Nod_no_false_alarm [NeZero n] (Hm0 Tmm10 ht Bt tt Dn50
    rho_rock rho_water cot_alpha_armour_slope g c1 c2 c3 c4 c5 : Val n) :
    NoFalseAlarm (Arr.VanGentVanDerWerf2014.calculate_damage_Nod Hm0 Tmm10 ht Bt tt Dn50 rho_rock rho_water
      cot_alpha_armour_slope g c1 c2 c3 c4 c5)
      (fun i => VanGentVanDerWerf2014.calculate_damage_Nod (Hm0.get i) (Tmm10.get i) (ht.get i) (Bt.get i)
        (tt.get i) (Dn50.get i) (rho_rock.get i) (rho_water.get i) (cot_alpha_armour_slope.get i) (g.get i)
        (c1.get i) (c2.get i) (c3.get i) (c4.get i) (c5.get i)) :=
  (ArrProof.VanGentVanDerWerf2014_calculate_damage_Nod (U := False) Hm0 Tmm10 ht Bt tt Dn50 rho_rock rho_water
      cot_alpha_armour_slope g c1 c2 c3 c4 c5 (fun h => h.elim)).sub

theorem C85_VanGentVanDerWerf2014_calculate_damage_Nod [NeZero n] (Hm0 Tmm10 ht Bt tt Dn50 rho_rock rho_water
    cot_alpha_armour_slope g c1 c2 c3 c4 c5 : Val n)
    (given : ∀ x ∈ [Hm0, Tmm10, ht, Bt, tt, Dn50, rho_rock, rho_water, cot_alpha_armour_slope, g, c1, c2, c3,
      c4, c5], Val.Uniform x) :
    SameWarnings (Arr.VanGentVanDerWerf2014.calculate_damage_Nod Hm0 Tmm10 ht Bt tt Dn50 rho_rock rho_water
      cot_alpha_armour_slope g c1 c2 c3 c4 c5)
      (fun i => VanGentVanDerWerf2014.calculate_damage_Nod (Hm0.get i) (Tmm10.get i) (ht.get i) (Bt.get i)
        (tt.get i) (Dn50.get i) (rho_rock.get i) (rho_water.get i) (cot_alpha_armour_slope.get i) (g.get i)
        (c1.get i) (c2.get i) (c3.get i) (c4.get i) (c5.get i)) :=
  (ArrProof.VanGentVanDerWerf2014_calculate_damage_Nod (U := True) Hm0 Tmm10 ht Bt tt Dn50 rho_rock rho_water
      cot_alpha_armour_slope g c1 c2 c3 c4 c5 (fun _ => given)).same trivial

example := C85_VanGentVanDerWerf2014_calculate_damage_Nod (n := 2) ArrEx.two ArrEx.two ArrEx.two ArrEx.two
  ArrEx.two ArrEx.two ArrEx.two ArrEx.two ArrEx.two ArrEx.two ArrEx.two ArrEx.two ArrEx.two ArrEx.two
  ArrEx.two (by arr_ex)

theorem C85_VanGentVanDerWerf2014_calculate_nominal_diameter_Dn50_no_false_alarm [NeZero n] (Hm0 Tmm10 ht Bt
    tt Nod rho_rock rho_water cot_alpha_armour_slope g : Val n) :
    NoFalseAlarm (Arr.VanGentVanDerWerf2014.calculate_nominal_diameter_Dn50 Hm0 Tmm10 ht Bt tt Nod rho_rock
      rho_water cot_alpha_armour_slope g)
      (fun i => VanGentVanDerWerf2014.calculate_nominal_diameter_Dn50 (Hm0.get i) (Tmm10.get i) (ht.get i)
        (Bt.get i) (tt.get i) (Nod.get i) (rho_rock.get i) (rho_water.get i) (cot_alpha_armour_slope.get i)
        (g.get i)) :=
  (ArrProof.VanGentVanDerWerf2014_calculate_nominal_diameter_Dn50 (U := False) Hm0 Tmm10 ht Bt tt Nod rho_rock
      rho_water cot_alpha_armour_slope g (fun h => h.elim)).sub

theorem C85_VanGentVanDerWerf2014_calculate_nominal_diameter_Dn50 [NeZero n] (Hm0 Tmm10 ht Bt tt Nod rho_rock
    rho_water cot_alpha_armour_slope g : Val n)
    (given : ∀ x ∈ [Hm0, Tmm10, ht, Bt, tt, Nod, rho_rock, rho_water, cot_alpha_armour_slope, g], Val.Uniform
      x) :
    SameWarnings (Arr.VanGentVanDerWerf2014.calculate_nominal_diameter_Dn50 Hm0 Tmm10 ht Bt tt Nod rho_rock
      rho_water cot_alpha_armour_slope g)
      (fun i => VanGentVanDerWerf2014.calculate_nominal_diameter_Dn50 (Hm0.get i) (Tmm10.get i) (ht.get i)
        (Bt.get i) (tt.get i) (Nod.get i) (rho_rock.get i) (rho_water.get i) (cot_alpha_armour_slope.get i)
        (g.get i)) :=
  (ArrProof.VanGentVanDerWerf2014_calculate_nominal_diameter_Dn50 (U := True) Hm0 Tmm10 ht Bt tt Nod rho_rock
      rho_water cot_alpha_armour_slope g (fun _ => given)).same trivial

example := C85_VanGentVanDerWerf2014_calculate_nominal_diameter_Dn50 (n := 2) ArrEx.two ArrEx.two ArrEx.two
  ArrEx.two ArrEx.two ArrEx.two ArrEx.two ArrEx.two ArrEx.two ArrEx.two (by arr_ex)

theorem C85_EtemadShahidi2021_check_validity_no_false_alarm_partial [NeZero n] (Hs Tmm10 h ht Bt Dn50 m Nod
    cot_alpha_armour_slope rho_armour rho_water : Val n) (hT : ∀ i, (¬ Hs.isnan.any ∧ ¬ Tmm10.isnan.any) ↔ (¬
    (Hs.get i).isnan ∧ ¬ (Tmm10.get i).isnan)) :
    NoFalseAlarm (Arr.EtemadShahidi2021.check_validity Hs Tmm10 h ht Bt Dn50 m Nod cot_alpha_armour_slope
      rho_armour rho_water)
      (fun i => EtemadShahidi2021.check_validity (Hs.get i) (Tmm10.get i) (h.get i) (ht.get i) (Bt.get i)
        (Dn50.get i) (m.get i) (Nod.get i) (cot_alpha_armour_slope.get i) (rho_armour.get i) (rho_water.get
        i)) :=
  (ArrProof.EtemadShahidi2021_check_validity (U := False) Hs Tmm10 h ht Bt Dn50 m Nod cot_alpha_armour_slope
      rho_armour rho_water hT (fun h => h.elim)).sub

example := C85_EtemadShahidi2021_check_validity_no_false_alarm_partial (n := 2) ArrEx.two ArrEx.two
  ArrEx.two ArrEx.two ArrEx.two ArrEx.two ArrEx.two ArrEx.two ArrEx.two ArrEx.two ArrEx.two (by arr_ex)

theorem C85_EtemadShahidi2021_check_validity_partial [NeZero n] (Hs Tmm10 h ht Bt Dn50 m Nod
    cot_alpha_armour_slope rho_armour rho_water : Val n) (hT : ∀ i, (¬ Hs.isnan.any ∧ ¬ Tmm10.isnan.any) ↔ (¬
    (Hs.get i).isnan ∧ ¬ (Tmm10.get i).isnan))
    (given : ∀ x ∈ [Hs, Tmm10, h, ht, Bt, Dn50, m, Nod, cot_alpha_armour_slope, rho_armour, rho_water],
      Val.Uniform x) :
    SameWarnings (Arr.EtemadShahidi2021.check_validity Hs Tmm10 h ht Bt Dn50 m Nod cot_alpha_armour_slope
      rho_armour rho_water)
      (fun i => EtemadShahidi2021.check_validity (Hs.get i) (Tmm10.get i) (h.get i) (ht.get i) (Bt.get i)
        (Dn50.get i) (m.get i) (Nod.get i) (cot_alpha_armour_slope.get i) (rho_armour.get i) (rho_water.get
        i)) :=
  (ArrProof.EtemadShahidi2021_check_validity (U := True) Hs Tmm10 h ht Bt Dn50 m Nod cot_alpha_armour_slope
      rho_armour rho_water hT (fun _ => given)).same trivial

example := C85_EtemadShahidi2021_check_validity_partial (n := 2) ArrEx.two ArrEx.two ArrEx.two ArrEx.two
  ArrEx.two ArrEx.two ArrEx.two ArrEx.two ArrEx.two ArrEx.two ArrEx.two (by arr_ex) (by arr_ex)

theorem C85_EtemadShahidi2021_calculate_damage_Nod_no_false_alarm [NeZero n] (Hs Tmm10 h ht Bt m Dn50 rho_rock
    rho_water g c1 c2 c3 c4 c5 c6 c7 : Val n) :
    NoFalseAlarm (Arr.EtemadShahidi2021.calculate_damage_Nod Hs Tmm10 h ht Bt m Dn50 rho_rock rho_water g c1
      c2 c3 c4 c5 c6 c7)
      (fun i => EtemadShahidi2021.calculate_damage_Nod (Hs.get i) (Tmm10.get i) (h.get i) (ht.get i) (Bt.get
        i) (m.get i) (Dn50.get i) (rho_rock.get i) (rho_water.get i) (g.get i) (c1.get i) (c2.get i) (c3.get
        i) (c4.get i) (c5.get i) (c6.get i) (c7.get i)) :=
  (ArrProof.EtemadShahidi2021_calculate_damage_Nod (U := False) Hs Tmm10 h ht Bt m Dn50 rho_rock rho_water g
      c1 c2 c3 c4 c5 c6 c7 (fun h => h.elim)).sub

theorem C85_EtemadShahidi2021_calculate_damage_Nod [NeZero n] (Hs Tmm10 h ht Bt m Dn50 rho_rock rho_water g c1
    c2 c3 c4 c5 c6 c7 : Val n)
    (given : ∀ x ∈ [Hs, Tmm10, h, ht, Bt, m, Dn50, rho_rock, rho_water, g, c1, c2, c3, c4, c5, c6, c7],
      Val.Uniform x) :
    SameWarnings (Arr.EtemadShahidi2021.calculate_damage_Nod Hs Tmm10 h ht Bt m Dn50 rho_rock rho_water g c1
      c2 c3 c4 c5 c6 c7)
      (fun i => EtemadShahidi2021.calculate_damage_Nod (Hs.get i) (Tmm10.get i) (h.get i) (ht.get i) (Bt.get
        i) (m.get i) (Dn50.get i) (rho_rock.get i) (rho_water.get i) (g.get i) (c1.get i) (c2.get i) (c3.get
        i) (c4.get i) (c5.get i) (c6.get i) (c7.get i)) :=
  (ArrProof.EtemadShahidi2021_calculate_damage_Nod (U := True) Hs Tmm10 h ht Bt m Dn50 rho_rock rho_water g c1
      c2 c3 c4 c5 c6 c7 (fun _ => given)).same trivial

example := C85_EtemadShahidi2021_calculate_damage_Nod (n := 2) ArrEx.two ArrEx.two ArrEx.two ArrEx.two
  ArrEx.two ArrEx.two ArrEx.two ArrEx.two ArrEx.two ArrEx.two ArrEx.two ArrEx.two ArrEx.two ArrEx.two
  ArrEx.two ArrEx.two ArrEx.two (by arr_ex)

theorem C85_EtemadShahidi2021_calculate_nominal_diameter_Dn50_no_false_alarm [NeZero n] (Hs Tmm10 h ht Bt Nod
    m rho_rock rho_water g c1 c2 c3 c4 c5 c6 c7 : Val n) :
    NoFalseAlarm (Arr.EtemadShahidi2021.calculate_nominal_diameter_Dn50 Hs Tmm10 h ht Bt Nod m rho_rock
      rho_water g c1 c2 c3 c4 c5 c6 c7)
      (fun i => EtemadShahidi2021.calculate_nominal_diameter_Dn50 (Hs.get i) (Tmm10.get i) (h.get i) (ht.get
        i) (Bt.get i) (Nod.get i) (m.get i) (rho_rock.get i) (rho_water.get i) (g.get i) (c1.get i) (c2.get i)
        (c3.get i) (c4.get i) (c5.get i) (c6.get i) (c7.get i)) :=
  (ArrProof.EtemadShahidi2021_calculate_nominal_diameter_Dn50 (U := False) Hs Tmm10 h ht Bt Nod m rho_rock
      rho_water g c1 c2 c3 c4 c5 c6 c7 (fun h => h.elim)).sub

theorem C85_EtemadShahidi2021_calculate_nominal_diameter_Dn50 [NeZero n] (Hs Tmm10 h ht Bt Nod m rho_rock
    rho_water g c1 c2 c3 c4 c5 c6 c7 : Val n)
    (given : ∀ x ∈ [Hs, Tmm10, h, ht, Bt, Nod, m, rho_rock, rho_water, g, c1, c2, c3, c4, c5, c6, c7],
      Val.Uniform x) :
    SameWarnings (Arr.EtemadShahidi2021.calculate_nominal_diameter_Dn50 Hs Tmm10 h ht Bt Nod m rho_rock
      rho_water g c1 c2 c3 c4 c5 c6 c7)
      (fun i => EtemadShahidi2021.calculate_nominal_diameter_Dn50 (Hs.get i) (Tmm10.get i) (h.get i) (ht.get
        i) (Bt.get i) (Nod.get i) (m.get i) (rho_rock.get i) (rho_water.get i) (g.get i) (c1.get i) (c2.get i)
        (c3.get i) (c4.get i) (c5.get i) (c6.get i) (c7.get i)) :=
  (ArrProof.EtemadShahidi2021_calculate_nominal_diameter_Dn50 (U := True) Hs Tmm10 h ht Bt Nod m rho_rock
      rho_water g c1 c2 c3 c4 c5 c6 c7 (fun _ => given)).same trivial

example := C85_EtemadShahidi2021_calculate_nominal_diameter_Dn50 (n := 2) ArrEx.two ArrEx.two ArrEx.two
  ArrEx.two ArrEx.two ArrEx.two ArrEx.two ArrEx.two ArrEx.two ArrEx.two ArrEx.two ArrEx.two ArrEx.two
  ArrEx.two ArrEx.two ArrEx.two ArrEx.two (by arr_ex)

theorem C85_Takahashi1990_check_validity_no_false_alarm [NeZero n] (Ns Bt : Val n) :
    NoFalseAlarm (Arr.Takahashi1990.check_validity Ns Bt)
      (fun i => Takahashi1990.check_validity (Ns.get i) (Bt.get i)) :=
  (ArrProof.Takahashi1990_check_validity (U := False) Ns Bt (fun h => h.elim)).sub

theorem C85_Takahashi1990_check_validity [NeZero n] (Ns Bt : Val n)
    (given : ∀ x ∈ [Ns, Bt], Val.Uniform x) :
    SameWarnings (Arr.Takahashi1990.check_validity Ns Bt)
      (fun i => Takahashi1990.check_validity (Ns.get i) (Bt.get i)) :=
  (ArrProof.Takahashi1990_check_validity (U := True) Ns Bt (fun _ => given)).same trivial

example := C85_Takahashi1990_check_validity (n := 2) ArrEx.two ArrEx.two (by arr_ex)

theorem C85_Takahashi1990_calculate_stability_number_Ns_no_false_alarm_partial [NeZero n] (disper : PF → PF →
    PF → PF) (Hs Tp hacc Bt beta : Val n) (g : PF) (hT : Tp.isArray = true → hacc.isArray = true) (hh :
    hacc.isArray = true → 1 < n) :
    NoFalseAlarm (Arr.Takahashi1990.calculate_stability_number_Ns disper Hs Tp hacc Bt beta g)
      (fun i => Takahashi1990.calculate_stability_number_Ns disper (Hs.get i) (Tp.get i) (hacc.get i) (Bt.get
        i) (beta.get i) g) :=
  (ArrProof.Takahashi1990_calculate_stability_number_Ns disper Hs Tp hacc Bt beta g hT hh).sub

example := C85_Takahashi1990_calculate_stability_number_Ns_no_false_alarm_partial (n := 2) (fun _ _ _ =>
  .fin 1) ArrEx.two ArrEx.two ArrEx.two ArrEx.two ArrEx.two (.fin 1) (by arr_ex) (by arr_ex)

theorem C85_Takahashi1990_calculate_nominal_diameter_Dn50_no_false_alarm_partial [NeZero n] (disper : PF → PF
    → PF → PF) (Hs Tp hacc Bt rho_rock rho_water beta : Val n) (g : PF) (hT : Tp.isArray = true → hacc.isArray
    = true) (hh : hacc.isArray = true → 1 < n) :
    NoFalseAlarm (Arr.Takahashi1990.calculate_nominal_diameter_Dn50 disper Hs Tp hacc Bt rho_rock rho_water
      beta g)
      (fun i => Takahashi1990.calculate_nominal_diameter_Dn50 disper (Hs.get i) (Tp.get i) (hacc.get i)
        (Bt.get i) (rho_rock.get i) (rho_water.get i) (beta.get i) g) :=
  (ArrProof.Takahashi1990_calculate_nominal_diameter_Dn50 disper Hs Tp hacc Bt rho_rock rho_water beta g hT
      hh).sub

example := C85_Takahashi1990_calculate_nominal_diameter_Dn50_no_false_alarm_partial (n := 2) (fun _ _ _ =>
  .fin 1) ArrEx.two ArrEx.two ArrEx.two ArrEx.two ArrEx.two ArrEx.two ArrEx.two (.fin 1) (by arr_ex) (by
  arr_ex)

theorem C85_VanGent2001_calculate_wave_runup_height_z2p_no_false_alarm_partial [NeZero n] (Tmm10 gamma
    cot_alpha : Val n) (Hm0 Hs : PF) (c0 c1 : Val n) :
    NoFalseAlarm (Arr.VanGent2001.calculate_wave_runup_height_z2p Tmm10 gamma cot_alpha (.num Hm0) (.num Hs)
      c0 c1)
      (fun i => VanGent2001.calculate_wave_runup_height_z2p (Tmm10.get i) (gamma.get i) (cot_alpha.get i) Hm0
        Hs (c0.get i) (c1.get i)) :=
  (ArrProof.VanGent2001_calculate_wave_runup_height_z2p Tmm10 gamma cot_alpha Hm0 Hs c0 c1).sub

theorem C85_VanGent2007Rear_check_validity_range_no_false_alarm [NeZero n] (Rc Rc2_front Rc2_rear Gc Dn50
    B_element h Hs Tmm10 z1p S N_waves : Val n) :
    NoFalseAlarm (Arr.VanGent2007Rear.check_validity_range Rc Rc2_front Rc2_rear Gc Dn50 B_element h Hs Tmm10
      z1p S N_waves)
      (fun i => VanGent2007Rear.check_validity_range (Rc.get i) (Rc2_front.get i) (Rc2_rear.get i) (Gc.get i)
        (Dn50.get i) (B_element.get i) (h.get i) (Hs.get i) (Tmm10.get i) (z1p.get i) (S.get i) (N_waves.get
        i)) :=
  (ArrProof.VanGent2007Rear_check_validity_range (U := False) Rc Rc2_front Rc2_rear Gc Dn50 B_element h Hs
      Tmm10 z1p S N_waves (fun h => h.elim)).sub

theorem C85_VanGent2007Rear_check_validity_range [NeZero n] (Rc Rc2_front Rc2_rear Gc Dn50 B_element h Hs
    Tmm10 z1p S N_waves : Val n)
    (given : ∀ x ∈ [Rc, Rc2_front, Rc2_rear, Gc, Dn50, B_element, h, Hs, Tmm10, z1p, S, N_waves], Val.Uniform
      x) :
    SameWarnings (Arr.VanGent2007Rear.check_validity_range Rc Rc2_front Rc2_rear Gc Dn50 B_element h Hs Tmm10
      z1p S N_waves)
      (fun i => VanGent2007Rear.check_validity_range (Rc.get i) (Rc2_front.get i) (Rc2_rear.get i) (Gc.get i)
        (Dn50.get i) (B_element.get i) (h.get i) (Hs.get i) (Tmm10.get i) (z1p.get i) (S.get i) (N_waves.get
        i)) :=
  (ArrProof.VanGent2007Rear_check_validity_range (U := True) Rc Rc2_front Rc2_rear Gc Dn50 B_element h Hs
      Tmm10 z1p S N_waves (fun _ => given)).same trivial

example := C85_VanGent2007Rear_check_validity_range (n := 2) ArrEx.two ArrEx.two ArrEx.two ArrEx.two
  ArrEx.two ArrEx.two ArrEx.two ArrEx.two ArrEx.two ArrEx.two ArrEx.two ArrEx.two (by arr_ex)

theorem C85_VanGent2007Rear_calculate_damage_number_S_no_false_alarm [NeZero n] (cot_alpha cot_phi gamma Hs
    Tmm10 Rc Rc2_front Rc2_rear N_waves Dn50 M50 rho_rock : Val n)
    (h_Dn50 : Dn50.Uniform)
    (h_M50 : M50.Uniform)
    (h_rho_rock : rho_rock.Uniform) :
    NoFalseAlarm (Arr.VanGent2007Rear.calculate_damage_number_S cot_alpha cot_phi gamma Hs Tmm10 Rc Rc2_front
      Rc2_rear N_waves Dn50 M50 rho_rock)
      (fun i => VanGent2007Rear.calculate_damage_number_S (cot_alpha.get i) (cot_phi.get i) (gamma.get i)
        (Hs.get i) (Tmm10.get i) (Rc.get i) (Rc2_front.get i) (Rc2_rear.get i) (N_waves.get i) (Dn50.get i)
        (M50.get i) (rho_rock.get i)) :=
  (ArrProof.VanGent2007Rear_calculate_damage_number_S cot_alpha cot_phi gamma Hs Tmm10 Rc Rc2_front Rc2_rear
      N_waves Dn50 M50 rho_rock h_Dn50 h_M50 h_rho_rock).sub

example := C85_VanGent2007Rear_calculate_damage_number_S_no_false_alarm (n := 2) ArrEx.two ArrEx.two
  ArrEx.two ArrEx.two ArrEx.two ArrEx.two ArrEx.two ArrEx.two ArrEx.two ArrEx.two ArrEx.two ArrEx.two (by
  arr_ex) (by arr_ex) (by arr_ex)

theorem C85_VanGent2007Rear_calculate_nominal_rock_diameter_Dn50_no_false_alarm [NeZero n] (cot_alpha cot_phi
    gamma S Hs Tmm10 Rc Rc2_front Rc2_rear N_waves : Val n) :
    NoFalseAlarm (Arr.VanGent2007Rear.calculate_nominal_rock_diameter_Dn50 cot_alpha cot_phi gamma S Hs Tmm10
      Rc Rc2_front Rc2_rear N_waves)
      (fun i => VanGent2007Rear.calculate_nominal_rock_diameter_Dn50 (cot_alpha.get i) (cot_phi.get i)
        (gamma.get i) (S.get i) (Hs.get i) (Tmm10.get i) (Rc.get i) (Rc2_front.get i) (Rc2_rear.get i)
        (N_waves.get i)) :=
  (ArrProof.VanGent2007Rear_calculate_nominal_rock_diameter_Dn50 cot_alpha cot_phi gamma S Hs Tmm10 Rc
      Rc2_front Rc2_rear N_waves).sub

theorem C85_VanGentPozueta2004_check_validity_range_no_false_alarm [NeZero n] (Rc Rc_rear cot_phi gamma_f Dn50
    rho_rock rho_water Bc Hs Tmm10 z1p S N_waves : Val n) :
    NoFalseAlarm (Arr.VanGentPozueta2004.check_validity_range Rc Rc_rear cot_phi gamma_f Dn50 rho_rock
      rho_water Bc Hs Tmm10 z1p S N_waves)
      (fun i => VanGentPozueta2004.check_validity_range (Rc.get i) (Rc_rear.get i) (cot_phi.get i)
        (gamma_f.get i) (Dn50.get i) (rho_rock.get i) (rho_water.get i) (Bc.get i) (Hs.get i) (Tmm10.get i)
        (z1p.get i) (S.get i) (N_waves.get i)) :=
  (ArrProof.VanGentPozueta2004_check_validity_range (U := False) Rc Rc_rear cot_phi gamma_f Dn50 rho_rock
      rho_water Bc Hs Tmm10 z1p S N_waves (fun h => h.elim)).sub

theorem C85_VanGentPozueta2004_check_validity_range [NeZero n] (Rc Rc_rear cot_phi gamma_f Dn50 rho_rock
    rho_water Bc Hs Tmm10 z1p S N_waves : Val n)
    (given : ∀ x ∈ [Rc, Rc_rear, cot_phi, gamma_f, Dn50, rho_rock, rho_water, Bc, Hs, Tmm10, z1p, S, N_waves],
      Val.Uniform x) :
    SameWarnings (Arr.VanGentPozueta2004.check_validity_range Rc Rc_rear cot_phi gamma_f Dn50 rho_rock
      rho_water Bc Hs Tmm10 z1p S N_waves)
      (fun i => VanGentPozueta2004.check_validity_range (Rc.get i) (Rc_rear.get i) (cot_phi.get i)
        (gamma_f.get i) (Dn50.get i) (rho_rock.get i) (rho_water.get i) (Bc.get i) (Hs.get i) (Tmm10.get i)
        (z1p.get i) (S.get i) (N_waves.get i)) :=
  (ArrProof.VanGentPozueta2004_check_validity_range (U := True) Rc Rc_rear cot_phi gamma_f Dn50 rho_rock
      rho_water Bc Hs Tmm10 z1p S N_waves (fun _ => given)).same trivial

example := C85_VanGentPozueta2004_check_validity_range (n := 2) ArrEx.two ArrEx.two ArrEx.two ArrEx.two
  ArrEx.two ArrEx.two ArrEx.two ArrEx.two ArrEx.two ArrEx.two ArrEx.two ArrEx.two ArrEx.two (by arr_ex)

theorem C85_VanGentPozueta2004_calculate_damage_number_S_no_false_alarm [NeZero n] (cot_alpha cot_phi gamma_f
    gamma_f_Crest Hs Tmm10 Rc Rc_rear Bc N_waves Dn50 M50 rho_rock rho_water cs : Val n)
    (h_Dn50 : Dn50.Uniform)
    (h_M50 : M50.Uniform)
    (h_rho_rock : rho_rock.Uniform) :
    NoFalseAlarm (Arr.VanGentPozueta2004.calculate_damage_number_S cot_alpha cot_phi gamma_f gamma_f_Crest Hs
      Tmm10 Rc Rc_rear Bc N_waves Dn50 M50 rho_rock rho_water cs)
      (fun i => VanGentPozueta2004.calculate_damage_number_S (cot_alpha.get i) (cot_phi.get i) (gamma_f.get i)
        (gamma_f_Crest.get i) (Hs.get i) (Tmm10.get i) (Rc.get i) (Rc_rear.get i) (Bc.get i) (N_waves.get i)
        (Dn50.get i) (M50.get i) (rho_rock.get i) (rho_water.get i) (cs.get i)) :=
  (ArrProof.VanGentPozueta2004_calculate_damage_number_S cot_alpha cot_phi gamma_f gamma_f_Crest Hs Tmm10 Rc
      Rc_rear Bc N_waves Dn50 M50 rho_rock rho_water cs h_Dn50 h_M50 h_rho_rock).sub

example := C85_VanGentPozueta2004_calculate_damage_number_S_no_false_alarm (n := 2) ArrEx.two ArrEx.two
  ArrEx.two ArrEx.two ArrEx.two ArrEx.two ArrEx.two ArrEx.two ArrEx.two ArrEx.two ArrEx.two ArrEx.two
  ArrEx.two ArrEx.two ArrEx.two (by arr_ex) (by arr_ex) (by arr_ex)

theorem C85_VanGentPozueta2004_calculate_nominal_rock_diameter_Dn50_no_false_alarm [NeZero n] (cot_alpha
    cot_phi gamma_f gamma_f_Crest S Hs Tmm10 Rc Rc_rear Bc rho_rock N_waves rho_water cs : Val n) :
    NoFalseAlarm (Arr.VanGentPozueta2004.calculate_nominal_rock_diameter_Dn50 cot_alpha cot_phi gamma_f
      gamma_f_Crest S Hs Tmm10 Rc Rc_rear Bc rho_rock N_waves rho_water cs)
      (fun i => VanGentPozueta2004.calculate_nominal_rock_diameter_Dn50 (cot_alpha.get i) (cot_phi.get i)
        (gamma_f.get i) (gamma_f_Crest.get i) (S.get i) (Hs.get i) (Tmm10.get i) (Rc.get i) (Rc_rear.get i)
        (Bc.get i) (rho_rock.get i) (N_waves.get i) (rho_water.get i) (cs.get i)) :=
  (ArrProof.VanGentPozueta2004_calculate_nominal_rock_diameter_Dn50 cot_alpha cot_phi gamma_f gamma_f_Crest S
      Hs Tmm10 Rc Rc_rear Bc rho_rock N_waves rho_water cs).sub

theorem C85_VanGent2021Caisson_check_validity_range_no_false_alarm [NeZero n] (Hm0 Tmm10 beta Rc q_diml : Val
    n) :
    NoFalseAlarm (Arr.VanGent2021Caisson.check_validity_range Hm0 Tmm10 beta Rc q_diml)
      (fun i => VanGent2021Caisson.check_validity_range (Hm0.get i) (Tmm10.get i) (beta.get i) (Rc.get i)
        (q_diml.get i)) :=
  (ArrProof.VanGent2021Caisson_check_validity_range (U := False) Hm0 Tmm10 beta Rc q_diml (fun h =>
      h.elim)).sub

theorem C85_VanGent2021Caisson_check_validity_range [NeZero n] (Hm0 Tmm10 beta Rc q_diml : Val n)
    (given : ∀ x ∈ [Hm0, Tmm10, beta, Rc, q_diml], Val.Uniform x) :
    SameWarnings (Arr.VanGent2021Caisson.check_validity_range Hm0 Tmm10 beta Rc q_diml)
      (fun i => VanGent2021Caisson.check_validity_range (Hm0.get i) (Tmm10.get i) (beta.get i) (Rc.get i)
        (q_diml.get i)) :=
  (ArrProof.VanGent2021Caisson_check_validity_range (U := True) Hm0 Tmm10 beta Rc q_diml (fun _ =>
      given)).same trivial

example := C85_VanGent2021Caisson_check_validity_range (n := 2) ArrEx.two ArrEx.two ArrEx.two ArrEx.two
  ArrEx.two (by arr_ex)

theorem C85_VanGent2021Caisson_calculate_dimensionless_overtopping_discharge_q_no_false_alarm_partial [NeZero
    n] (Hm0 Rc beta : Val n) (gamma_beta Hm0_swell c : PF) (c_swell : Val n) (short_crested_waves
    crossing_seas parapet : Bool) :
    NoFalseAlarm (Arr.VanGent2021Caisson.calculate_dimensionless_overtopping_discharge_q Hm0 Rc beta (.num
      gamma_beta) (.num Hm0_swell) c c_swell short_crested_waves crossing_seas parapet)
      (fun i => VanGent2021Caisson.calculate_dimensionless_overtopping_discharge_q (Hm0.get i) (Rc.get i)
        (beta.get i) gamma_beta Hm0_swell c (c_swell.get i) short_crested_waves crossing_seas parapet) :=
  (ArrProof.VanGent2021Caisson_calculate_dimensionless_overtopping_discharge_q Hm0 Rc beta gamma_beta
      Hm0_swell c c_swell short_crested_waves crossing_seas parapet).sub

theorem C85_VanGent2021Caisson_calculate_overtopping_discharge_q_no_false_alarm_partial [NeZero n] (Hm0 Rc
    beta : Val n) (gamma_beta Hm0_swell c : PF) (c_swell : Val n) (short_crested_waves crossing_seas parapet :
    Bool) (g : Val n) :
    NoFalseAlarm (Arr.VanGent2021Caisson.calculate_overtopping_discharge_q Hm0 Rc beta (.num gamma_beta) (.num
      Hm0_swell) c c_swell short_crested_waves crossing_seas parapet g)
      (fun i => VanGent2021Caisson.calculate_overtopping_discharge_q (Hm0.get i) (Rc.get i) (beta.get i)
        gamma_beta Hm0_swell c (c_swell.get i) short_crested_waves crossing_seas parapet (g.get i)) :=
  (ArrProof.VanGent2021Caisson_calculate_overtopping_discharge_q Hm0 Rc beta gamma_beta Hm0_swell c c_swell
      short_crested_waves crossing_seas parapet g).sub

theorem C85_VanGent2021Caisson_calculate_dimensionless_crest_freeboard_no_false_alarm_partial [NeZero n] (Hm0
    q beta : Val n) (gamma_beta Hm0_swell c : PF) (c_swell : Val n) (short_crested_waves crossing_seas parapet
    : Bool) (g : Val n) :
    NoFalseAlarm (Arr.VanGent2021Caisson.calculate_dimensionless_crest_freeboard Hm0 q beta (.num gamma_beta)
      (.num Hm0_swell) c c_swell short_crested_waves crossing_seas parapet g)
      (fun i => VanGent2021Caisson.calculate_dimensionless_crest_freeboard (Hm0.get i) (q.get i) (beta.get i)
        gamma_beta Hm0_swell c (c_swell.get i) short_crested_waves crossing_seas parapet (g.get i)) :=
  (ArrProof.VanGent2021Caisson_calculate_dimensionless_crest_freeboard Hm0 q beta gamma_beta Hm0_swell c
      c_swell short_crested_waves crossing_seas parapet g).sub

theorem C85_VanGent2021Caisson_calculate_crest_freeboard_Rc_no_false_alarm_partial [NeZero n] (Hm0 q beta :
    Val n) (gamma_beta Hm0_swell c : PF) (c_swell : Val n) (short_crested_waves crossing_seas parapet : Bool)
    (g : Val n) :
    NoFalseAlarm (Arr.VanGent2021Caisson.calculate_crest_freeboard_Rc Hm0 q beta (.num gamma_beta) (.num
      Hm0_swell) c c_swell short_crested_waves crossing_seas parapet g)
      (fun i => VanGent2021Caisson.calculate_crest_freeboard_Rc (Hm0.get i) (q.get i) (beta.get i) gamma_beta
        Hm0_swell c (c_swell.get i) short_crested_waves crossing_seas parapet (g.get i)) :=
  (ArrProof.VanGent2021Caisson_calculate_crest_freeboard_Rc Hm0 q beta gamma_beta Hm0_swell c c_swell
      short_crested_waves crossing_seas parapet g).sub

theorem C85_VanGent2025_check_validity_range_no_false_alarm [NeZero n] (Hm0 Hm0_deep Tmm10 beta h cot_alpha
    Dn50 Rc Ac Gc B_berm db : Val n) :
    NoFalseAlarm (Arr.VanGent2025.check_validity_range Hm0 Hm0_deep Tmm10 beta h cot_alpha Dn50 Rc Ac Gc
      B_berm db)
      (fun i => VanGent2025.check_validity_range (Hm0.get i) (Hm0_deep.get i) (Tmm10.get i) (beta.get i)
        (h.get i) (cot_alpha.get i) (Dn50.get i) (Rc.get i) (Ac.get i) (Gc.get i) (B_berm.get i) (db.get i))
        :=
  (ArrProof.VanGent2025_check_validity_range (U := False) Hm0 Hm0_deep Tmm10 beta h cot_alpha Dn50 Rc Ac Gc
      B_berm db (fun h => h.elim)).sub

theorem C85_VanGent2025_check_validity_range [NeZero n] (Hm0 Hm0_deep Tmm10 beta h cot_alpha Dn50 Rc Ac Gc
    B_berm db : Val n)
    (given : ∀ x ∈ [Hm0, Hm0_deep, Tmm10, beta, h, cot_alpha, Dn50, Rc, Ac, Gc, B_berm, db], Val.Uniform x) :
    SameWarnings (Arr.VanGent2025.check_validity_range Hm0 Hm0_deep Tmm10 beta h cot_alpha Dn50 Rc Ac Gc
      B_berm db)
      (fun i => VanGent2025.check_validity_range (Hm0.get i) (Hm0_deep.get i) (Tmm10.get i) (beta.get i)
        (h.get i) (cot_alpha.get i) (Dn50.get i) (Rc.get i) (Ac.get i) (Gc.get i) (B_berm.get i) (db.get i))
        :=
  (ArrProof.VanGent2025_check_validity_range (U := True) Hm0 Hm0_deep Tmm10 beta h cot_alpha Dn50 Rc Ac Gc
      B_berm db (fun _ => given)).same trivial

example := C85_VanGent2025_check_validity_range (n := 2) ArrEx.two ArrEx.two ArrEx.two ArrEx.two ArrEx.two
  ArrEx.two ArrEx.two ArrEx.two ArrEx.two ArrEx.two ArrEx.two ArrEx.two (by arr_ex)

theorem C85_VanGent2025_calculate_dimensionless_overtopping_discharge_q_no_false_alarm_partial [NeZero n] (Hm0
    Hm0_swell Tmm10 Rc Ac cot_alpha beta B_berm db : Val n) (Dn50 gamma_f gamma_b : PF) (gamma_v : Val n)
    (gamma_beta : PF) (design_calculation include_influence_wind : Bool) :
    NoFalseAlarm (Arr.VanGent2025.calculate_dimensionless_overtopping_discharge_q Hm0 Hm0_swell Tmm10 Rc Ac
      cot_alpha beta B_berm db (.num Dn50) (.num gamma_f) (.num gamma_b) gamma_v (.num gamma_beta)
      design_calculation include_influence_wind)
      (fun i => VanGent2025.calculate_dimensionless_overtopping_discharge_q (Hm0.get i) (Hm0_swell.get i)
        (Tmm10.get i) (Rc.get i) (Ac.get i) (cot_alpha.get i) (beta.get i) (B_berm.get i) (db.get i) Dn50
        gamma_f gamma_b (gamma_v.get i) gamma_beta design_calculation include_influence_wind) :=
  (ArrProof.VanGent2025_calculate_dimensionless_overtopping_discharge_q Hm0 Hm0_swell Tmm10 Rc Ac cot_alpha
      beta B_berm db Dn50 gamma_f gamma_b gamma_v gamma_beta design_calculation include_influence_wind).sub

theorem C85_VanGent2025_calculate_overtopping_discharge_q_no_false_alarm_partial [NeZero n] (Hm0 Hm0_swell
    Tmm10 Rc Ac cot_alpha beta B_berm db : Val n) (Dn50 gamma_f gamma_b : PF) (gamma_v : Val n) (gamma_beta :
    PF) (g : Val n) (design_calculation include_influence_wind : Bool) :
    NoFalseAlarm (Arr.VanGent2025.calculate_overtopping_discharge_q Hm0 Hm0_swell Tmm10 Rc Ac cot_alpha beta
      B_berm db (.num Dn50) (.num gamma_f) (.num gamma_b) gamma_v (.num gamma_beta) g design_calculation
      include_influence_wind)
      (fun i => VanGent2025.calculate_overtopping_discharge_q (Hm0.get i) (Hm0_swell.get i) (Tmm10.get i)
        (Rc.get i) (Ac.get i) (cot_alpha.get i) (beta.get i) (B_berm.get i) (db.get i) Dn50 gamma_f gamma_b
        (gamma_v.get i) gamma_beta (g.get i) design_calculation include_influence_wind) :=
  (ArrProof.VanGent2025_calculate_overtopping_discharge_q Hm0 Hm0_swell Tmm10 Rc Ac cot_alpha beta B_berm db
      Dn50 gamma_f gamma_b gamma_v gamma_beta g design_calculation include_influence_wind).sub

theorem C85_DeRidder2024_check_validity_range_no_false_alarm [NeZero n] (h Hm0 Hm0_HF Hm0_LF Tmm10 Tmm10_HF Rc
    cot_alpha m_foreshore_slope Dn50 : Val n) :
    NoFalseAlarm (Arr.DeRidder2024.check_validity_range h Hm0 Hm0_HF Hm0_LF Tmm10 Tmm10_HF Rc cot_alpha
      m_foreshore_slope Dn50)
      (fun i => DeRidder2024.check_validity_range (h.get i) (Hm0.get i) (Hm0_HF.get i) (Hm0_LF.get i)
        (Tmm10.get i) (Tmm10_HF.get i) (Rc.get i) (cot_alpha.get i) (m_foreshore_slope.get i) (Dn50.get i)) :=
  (ArrProof.DeRidder2024_check_validity_range (U := False) h Hm0 Hm0_HF Hm0_LF Tmm10 Tmm10_HF Rc cot_alpha
      m_foreshore_slope Dn50 (fun h => h.elim)).sub

theorem C85_DeRidder2024_check_validity_range [NeZero n] (h Hm0 Hm0_HF Hm0_LF Tmm10 Tmm10_HF Rc cot_alpha
    m_foreshore_slope Dn50 : Val n)
    (given : ∀ x ∈ [h, Hm0, Hm0_HF, Hm0_LF, Tmm10, Tmm10_HF, Rc, cot_alpha, m_foreshore_slope, Dn50],
      Val.Uniform x) :
    SameWarnings (Arr.DeRidder2024.check_validity_range h Hm0 Hm0_HF Hm0_LF Tmm10 Tmm10_HF Rc cot_alpha
      m_foreshore_slope Dn50)
      (fun i => DeRidder2024.check_validity_range (h.get i) (Hm0.get i) (Hm0_HF.get i) (Hm0_LF.get i)
        (Tmm10.get i) (Tmm10_HF.get i) (Rc.get i) (cot_alpha.get i) (m_foreshore_slope.get i) (Dn50.get i)) :=
  (ArrProof.DeRidder2024_check_validity_range (U := True) h Hm0 Hm0_HF Hm0_LF Tmm10 Tmm10_HF Rc cot_alpha
      m_foreshore_slope Dn50 (fun _ => given)).same trivial

example := C85_DeRidder2024_check_validity_range (n := 2) ArrEx.two ArrEx.two ArrEx.two ArrEx.two ArrEx.two
  ArrEx.two ArrEx.two ArrEx.two ArrEx.two ArrEx.two (by arr_ex)

theorem C85_DeRidder2024_calculate_dimensionless_crest_freeboard_discharge_q_eq24_no_false_alarm [NeZero n]
    (Hm0 smm10_HF gamma_f q g : Val n) :
    NoFalseAlarm (Arr.DeRidder2024.calculate_dimensionless_crest_freeboard_discharge_q_eq24 Hm0 smm10_HF
      gamma_f q g)
      (fun i => DeRidder2024.calculate_dimensionless_crest_freeboard_discharge_q_eq24 (Hm0.get i)
        (smm10_HF.get i) (gamma_f.get i) (q.get i) (g.get i)) :=
  (ArrProof.DeRidder2024_calculate_dimensionless_crest_freeboard_discharge_q_eq24 Hm0 smm10_HF gamma_f q
      g).sub

theorem C85_DeRidder2024_calculate_crest_freeboard_discharge_q_eq24_no_false_alarm [NeZero n] (Hm0 smm10_HF
    gamma_f q _g : Val n) :
    NoFalseAlarm (Arr.DeRidder2024.calculate_crest_freeboard_discharge_q_eq24 Hm0 smm10_HF gamma_f q _g)
      (fun i => DeRidder2024.calculate_crest_freeboard_discharge_q_eq24 (Hm0.get i) (smm10_HF.get i)
        (gamma_f.get i) (q.get i) (_g.get i)) :=
  (ArrProof.DeRidder2024_calculate_crest_freeboard_discharge_q_eq24 Hm0 smm10_HF gamma_f q _g).sub

theorem C85_DeRidder2024_calculate_crest_freeboard_discharge_q_eq26_no_false_alarm [NeZero n] (Hm0 smm10_HF
    Hm0_LF gamma_f q g : Val n) :
    NoFalseAlarm (Arr.DeRidder2024.calculate_crest_freeboard_discharge_q_eq26 Hm0 smm10_HF Hm0_LF gamma_f q g)
      (fun i => DeRidder2024.calculate_crest_freeboard_discharge_q_eq26 (Hm0.get i) (smm10_HF.get i)
        (Hm0_LF.get i) (gamma_f.get i) (q.get i) (g.get i)) :=
  (ArrProof.DeRidder2024_calculate_crest_freeboard_discharge_q_eq26 Hm0 smm10_HF Hm0_LF gamma_f q g).sub

theorem C85_DeRidder2024_calculate_dimensionless_overtopping_discharge_eq24_no_false_alarm [NeZero n] (Hm0
    smm10_HF gamma_f Rc : Val n) :
    NoFalseAlarm (Arr.DeRidder2024.calculate_dimensionless_overtopping_discharge_eq24 Hm0 smm10_HF gamma_f Rc)
      (fun i => DeRidder2024.calculate_dimensionless_overtopping_discharge_eq24 (Hm0.get i) (smm10_HF.get i)
        (gamma_f.get i) (Rc.get i)) :=
  (ArrProof.DeRidder2024_calculate_dimensionless_overtopping_discharge_eq24 Hm0 smm10_HF gamma_f Rc).sub

theorem C85_DeRidder2024_calculate_overtopping_discharge_q_eq24_no_false_alarm [NeZero n] (Hm0 smm10_HF
    gamma_f Rc g : Val n) :
    NoFalseAlarm (Arr.DeRidder2024.calculate_overtopping_discharge_q_eq24 Hm0 smm10_HF gamma_f Rc g)
      (fun i => DeRidder2024.calculate_overtopping_discharge_q_eq24 (Hm0.get i) (smm10_HF.get i) (gamma_f.get
        i) (Rc.get i) (g.get i)) :=
  (ArrProof.DeRidder2024_calculate_overtopping_discharge_q_eq24 Hm0 smm10_HF gamma_f Rc g).sub

theorem C85_DeRidder2024_calculate_dimensionless_overtopping_discharge_eq26_no_false_alarm [NeZero n] (Hm0
    smm10_HF Hm0_LF gamma_f Rc : Val n) :
    NoFalseAlarm (Arr.DeRidder2024.calculate_dimensionless_overtopping_discharge_eq26 Hm0 smm10_HF Hm0_LF
      gamma_f Rc)
      (fun i => DeRidder2024.calculate_dimensionless_overtopping_discharge_eq26 (Hm0.get i) (smm10_HF.get i)
        (Hm0_LF.get i) (gamma_f.get i) (Rc.get i)) :=
  (ArrProof.DeRidder2024_calculate_dimensionless_overtopping_discharge_eq26 Hm0 smm10_HF Hm0_LF gamma_f
      Rc).sub

theorem C85_DeRidder2024_calculate_overtopping_discharge_q_eq26_no_false_alarm [NeZero n] (Hm0 smm10_HF Hm0_LF
    gamma_f Rc g : Val n) :
    NoFalseAlarm (Arr.DeRidder2024.calculate_overtopping_discharge_q_eq26 Hm0 smm10_HF Hm0_LF gamma_f Rc g)
      (fun i => DeRidder2024.calculate_overtopping_discharge_q_eq26 (Hm0.get i) (smm10_HF.get i) (Hm0_LF.get
        i) (gamma_f.get i) (Rc.get i) (g.get i)) :=
  (ArrProof.DeRidder2024_calculate_overtopping_discharge_q_eq26 Hm0 smm10_HF Hm0_LF gamma_f Rc g).sub

theorem C85_DeRidder2026_check_validity_range_no_false_alarm [NeZero n] (h Hm0 Hm0_HF Hm0_LF Tmm10 Tmm10_HF Rc
    Dn50 theta : Val n) :
    NoFalseAlarm (Arr.DeRidder2026.check_validity_range h Hm0 Hm0_HF Hm0_LF Tmm10 Tmm10_HF Rc Dn50 theta)
      (fun i => DeRidder2026.check_validity_range (h.get i) (Hm0.get i) (Hm0_HF.get i) (Hm0_LF.get i)
        (Tmm10.get i) (Tmm10_HF.get i) (Rc.get i) (Dn50.get i) (theta.get i)) :=
  (ArrProof.DeRidder2026_check_validity_range (U := False) h Hm0 Hm0_HF Hm0_LF Tmm10 Tmm10_HF Rc Dn50 theta
      (fun h => h.elim)).sub

theorem C85_DeRidder2026_check_validity_range [NeZero n] (h Hm0 Hm0_HF Hm0_LF Tmm10 Tmm10_HF Rc Dn50 theta :
    Val n)
    (given : ∀ x ∈ [h, Hm0, Hm0_HF, Hm0_LF, Tmm10, Tmm10_HF, Rc, Dn50, theta], Val.Uniform x) :
    SameWarnings (Arr.DeRidder2026.check_validity_range h Hm0 Hm0_HF Hm0_LF Tmm10 Tmm10_HF Rc Dn50 theta)
      (fun i => DeRidder2026.check_validity_range (h.get i) (Hm0.get i) (Hm0_HF.get i) (Hm0_LF.get i)
        (Tmm10.get i) (Tmm10_HF.get i) (Rc.get i) (Dn50.get i) (theta.get i)) :=
  (ArrProof.DeRidder2026_check_validity_range (U := True) h Hm0 Hm0_HF Hm0_LF Tmm10 Tmm10_HF Rc Dn50 theta
      (fun _ => given)).same trivial

example := C85_DeRidder2026_check_validity_range (n := 2) ArrEx.two ArrEx.two ArrEx.two ArrEx.two ArrEx.two
  ArrEx.two ArrEx.two ArrEx.two ArrEx.two (by arr_ex)

theorem C85_DeRidder2026_calculate_crest_freeboard_discharge_q_eq28_no_false_alarm [NeZero n] (Hm0 smm10_HF
    gamma_f q g theta : Val n) :
    NoFalseAlarm (Arr.DeRidder2026.calculate_crest_freeboard_discharge_q_eq28 Hm0 smm10_HF gamma_f q g theta)
      (fun i => DeRidder2026.calculate_crest_freeboard_discharge_q_eq28 (Hm0.get i) (smm10_HF.get i)
        (gamma_f.get i) (q.get i) (g.get i) (theta.get i)) :=
  (ArrProof.DeRidder2026_calculate_crest_freeboard_discharge_q_eq28 (U := False) Hm0 smm10_HF gamma_f q g
      theta (fun h => h.elim)).sub

theorem C85_DeRidder2026_calculate_crest_freeboard_discharge_q_eq28 [NeZero n] (Hm0 smm10_HF gamma_f q g theta
    : Val n)
    (given : ∀ x ∈ [Hm0, smm10_HF, gamma_f, q, g, theta], Val.Uniform x) :
    SameWarnings (Arr.DeRidder2026.calculate_crest_freeboard_discharge_q_eq28 Hm0 smm10_HF gamma_f q g theta)
      (fun i => DeRidder2026.calculate_crest_freeboard_discharge_q_eq28 (Hm0.get i) (smm10_HF.get i)
        (gamma_f.get i) (q.get i) (g.get i) (theta.get i)) :=
  (ArrProof.DeRidder2026_calculate_crest_freeboard_discharge_q_eq28 (U := True) Hm0 smm10_HF gamma_f q g theta
      (fun _ => given)).same trivial

example := C85_DeRidder2026_calculate_crest_freeboard_discharge_q_eq28 (n := 2) ArrEx.two ArrEx.two
  ArrEx.two ArrEx.two ArrEx.two ArrEx.two (by arr_ex)

theorem C85_DeRidder2026_calculate_crest_freeboard_discharge_q_eq32_no_false_alarm [NeZero n] (Hm0_HF smm10_HF
    Hm0_LF gamma_f q g theta : Val n) :
    NoFalseAlarm (Arr.DeRidder2026.calculate_crest_freeboard_discharge_q_eq32 Hm0_HF smm10_HF Hm0_LF gamma_f q
      g theta)
      (fun i => DeRidder2026.calculate_crest_freeboard_discharge_q_eq32 (Hm0_HF.get i) (smm10_HF.get i)
        (Hm0_LF.get i) (gamma_f.get i) (q.get i) (g.get i) (theta.get i)) :=
  (ArrProof.DeRidder2026_calculate_crest_freeboard_discharge_q_eq32 (U := False) Hm0_HF smm10_HF Hm0_LF
      gamma_f q g theta (fun h => h.elim)).sub

theorem C85_DeRidder2026_calculate_crest_freeboard_discharge_q_eq32 [NeZero n] (Hm0_HF smm10_HF Hm0_LF gamma_f
    q g theta : Val n)
    (given : ∀ x ∈ [Hm0_HF, smm10_HF, Hm0_LF, gamma_f, q, g, theta], Val.Uniform x) :
    SameWarnings (Arr.DeRidder2026.calculate_crest_freeboard_discharge_q_eq32 Hm0_HF smm10_HF Hm0_LF gamma_f q
      g theta)
      (fun i => DeRidder2026.calculate_crest_freeboard_discharge_q_eq32 (Hm0_HF.get i) (smm10_HF.get i)
        (Hm0_LF.get i) (gamma_f.get i) (q.get i) (g.get i) (theta.get i)) :=
  (ArrProof.DeRidder2026_calculate_crest_freeboard_discharge_q_eq32 (U := True) Hm0_HF smm10_HF Hm0_LF gamma_f
      q g theta (fun _ => given)).same trivial

example := C85_DeRidder2026_calculate_crest_freeboard_discharge_q_eq32 (n := 2) ArrEx.two ArrEx.two
  ArrEx.two ArrEx.two ArrEx.two ArrEx.two ArrEx.two (by arr_ex)

theorem C85_DeRidder2026_calculate_dimensionless_overtopping_discharge_eq28_no_false_alarm [NeZero n] (Hm0
    smm10_HF gamma_f Rc theta : Val n) :
    NoFalseAlarm (Arr.DeRidder2026.calculate_dimensionless_overtopping_discharge_eq28 Hm0 smm10_HF gamma_f Rc
      theta)
      (fun i => DeRidder2026.calculate_dimensionless_overtopping_discharge_eq28 (Hm0.get i) (smm10_HF.get i)
        (gamma_f.get i) (Rc.get i) (theta.get i)) :=
  (ArrProof.DeRidder2026_calculate_dimensionless_overtopping_discharge_eq28 Hm0 smm10_HF gamma_f Rc theta).sub

theorem C85_DeRidder2026_calculate_overtopping_discharge_q_eq28_no_false_alarm [NeZero n] (Hm0 smm10_HF
    gamma_f Rc g theta : Val n) :
    NoFalseAlarm (Arr.DeRidder2026.calculate_overtopping_discharge_q_eq28 Hm0 smm10_HF gamma_f Rc g theta)
      (fun i => DeRidder2026.calculate_overtopping_discharge_q_eq28 (Hm0.get i) (smm10_HF.get i) (gamma_f.get
        i) (Rc.get i) (g.get i) (theta.get i)) :=
  (ArrProof.DeRidder2026_calculate_overtopping_discharge_q_eq28 Hm0 smm10_HF gamma_f Rc g theta).sub

theorem C85_DeRidder2026_calculate_dimensionless_overtopping_discharge_eq32_no_false_alarm [NeZero n] (Hm0_HF
    smm10_HF Hm0_LF gamma_f Rc theta : Val n) :
    NoFalseAlarm (Arr.DeRidder2026.calculate_dimensionless_overtopping_discharge_eq32 Hm0_HF smm10_HF Hm0_LF
      gamma_f Rc theta)
      (fun i => DeRidder2026.calculate_dimensionless_overtopping_discharge_eq32 (Hm0_HF.get i) (smm10_HF.get
        i) (Hm0_LF.get i) (gamma_f.get i) (Rc.get i) (theta.get i)) :=
  (ArrProof.DeRidder2026_calculate_dimensionless_overtopping_discharge_eq32 Hm0_HF smm10_HF Hm0_LF gamma_f Rc
      theta).sub

theorem C85_DeRidder2026_calculate_overtopping_discharge_q_eq32_no_false_alarm [NeZero n] (Hm0_HF smm10_HF
    Hm0_LF gamma_f Rc g theta : Val n) :
    NoFalseAlarm (Arr.DeRidder2026.calculate_overtopping_discharge_q_eq32 Hm0_HF smm10_HF Hm0_LF gamma_f Rc g
      theta)
      (fun i => DeRidder2026.calculate_overtopping_discharge_q_eq32 (Hm0_HF.get i) (smm10_HF.get i)
        (Hm0_LF.get i) (gamma_f.get i) (Rc.get i) (g.get i) (theta.get i)) :=
  (ArrProof.DeRidder2026_calculate_overtopping_discharge_q_eq32 Hm0_HF smm10_HF Hm0_LF gamma_f Rc g theta).sub

theorem C85_DAngremond1996_check_validity_no_false_alarm [NeZero n] (Kt s0p Hsi_over_h Rc_over_Hsi : Val n) :
    NoFalseAlarm (Arr.DAngremond1996.check_validity Kt s0p Hsi_over_h Rc_over_Hsi)
      (fun i => DAngremond1996.check_validity (Kt.get i) (s0p.get i) (Hsi_over_h.get i) (Rc_over_Hsi.get i))
        :=
  (ArrProof.DAngremond1996_check_validity (U := False) Kt s0p Hsi_over_h Rc_over_Hsi (fun h => h.elim)).sub

theorem C85_DAngremond1996_check_validity [NeZero n] (Kt s0p Hsi_over_h Rc_over_Hsi : Val n)
    (given : ∀ x ∈ [Kt, s0p, Hsi_over_h, Rc_over_Hsi], Val.Uniform x) :
    SameWarnings (Arr.DAngremond1996.check_validity Kt s0p Hsi_over_h Rc_over_Hsi)
      (fun i => DAngremond1996.check_validity (Kt.get i) (s0p.get i) (Hsi_over_h.get i) (Rc_over_Hsi.get i))
        :=
  (ArrProof.DAngremond1996_check_validity (U := True) Kt s0p Hsi_over_h Rc_over_Hsi (fun _ => given)).same
      trivial

example := C85_DAngremond1996_check_validity (n := 2) ArrEx.two ArrEx.two ArrEx.two ArrEx.two (by arr_ex)

theorem C85_DAngremond1996_calculate_wave_transmission_Kt_permeable_no_false_alarm [NeZero n] (Hsi Tpi h Rc B
    cot_alpha C1 : Val n) (do_validity_check : Bool) :
    NoFalseAlarm (Arr.DAngremond1996.calculate_wave_transmission_Kt_permeable Hsi Tpi h Rc B cot_alpha C1
      do_validity_check)
      (fun i => DAngremond1996.calculate_wave_transmission_Kt_permeable (Hsi.get i) (Tpi.get i) (h.get i)
        (Rc.get i) (B.get i) (cot_alpha.get i) (C1.get i) do_validity_check) :=
  (ArrProof.DAngremond1996_calculate_wave_transmission_Kt_permeable Hsi Tpi h Rc B cot_alpha C1
      do_validity_check).sub

theorem C85_DAngremond1996_calculate_wave_transmission_Kt_impermeable_no_false_alarm [NeZero n] (Hsi Tpi h Rc
    B cot_alpha C1 : Val n) :
    NoFalseAlarm (Arr.DAngremond1996.calculate_wave_transmission_Kt_impermeable Hsi Tpi h Rc B cot_alpha C1)
      (fun i => DAngremond1996.calculate_wave_transmission_Kt_impermeable (Hsi.get i) (Tpi.get i) (h.get i)
        (Rc.get i) (B.get i) (cot_alpha.get i) (C1.get i)) :=
  (ArrProof.DAngremond1996_calculate_wave_transmission_Kt_impermeable Hsi Tpi h Rc B cot_alpha C1).sub

theorem C85_Briganti2003_check_validity_no_false_alarm [NeZero n] (s0p ksi_0p : Val n) :
    NoFalseAlarm (Arr.Briganti2003.check_validity s0p ksi_0p)
      (fun i => Briganti2003.check_validity (s0p.get i) (ksi_0p.get i)) :=
  (ArrProof.Briganti2003_check_validity (U := False) s0p ksi_0p (fun h => h.elim)).sub

theorem C85_Briganti2003_check_validity [NeZero n] (s0p ksi_0p : Val n)
    (given : ∀ x ∈ [s0p, ksi_0p], Val.Uniform x) :
    SameWarnings (Arr.Briganti2003.check_validity s0p ksi_0p)
      (fun i => Briganti2003.check_validity (s0p.get i) (ksi_0p.get i)) :=
  (ArrProof.Briganti2003_check_validity (U := True) s0p ksi_0p (fun _ => given)).same trivial

example := C85_Briganti2003_check_validity (n := 2) ArrEx.two ArrEx.two (by arr_ex)

theorem C85_Briganti2003_calculate_wave_transmission_Kt_no_false_alarm [NeZero n] (Hsi Tpi Rc B cot_alpha :
    Val n) :
    NoFalseAlarm (Arr.Briganti2003.calculate_wave_transmission_Kt Hsi Tpi Rc B cot_alpha)
      (fun i => Briganti2003.calculate_wave_transmission_Kt (Hsi.get i) (Tpi.get i) (Rc.get i)
        (B.get i) (cot_alpha.get i)) :=
  (ArrProof.Briganti2003_calculate_wave_transmission_Kt Hsi Tpi Rc B cot_alpha).sub

theorem C85_Goda1967_calculate_wave_transmission_Kt_no_false_alarm_partial [NeZero n] (Hsi Rc alpha_1 beta_1 :
    Val n)
    (h_shape : Hsi.isArray = false → Rc.isArray = false →
      alpha_1.isArray = false ∧ beta_1.isArray = false)
    (h_first : ¬ (Rc.get 0 / Hsi.get 0 ≤ -1 * alpha_1.get 0 - beta_1.get 0)) :
    NoFalseAlarm (Arr.Goda1967.calculate_wave_transmission_Kt Hsi Rc alpha_1 beta_1)
      (fun i => (pure (Goda1967.calculate_wave_transmission_Kt (Hsi.get i) (Rc.get i)
        (alpha_1.get i) (beta_1.get i)) : PyM _)) :=
  (ArrProof.Goda1967_calculate_wave_transmission_Kt (U := False) Hsi Rc alpha_1 beta_1 h_shape h_first).sub

example := C85_Goda1967_calculate_wave_transmission_Kt_no_false_alarm_partial (n := 2) ArrEx.two ArrEx.two
  ArrEx.two ArrEx.two (by arr_ex) (by arr_ex)

theorem C85_Goda1967_calculate_wave_transmission_Kt_partial [NeZero n] (Hsi Rc alpha_1 beta_1 : Val n)
    (h_shape : Hsi.isArray = false → Rc.isArray = false →
      alpha_1.isArray = false ∧ beta_1.isArray = false)
    (h_first : ¬ (Rc.get 0 / Hsi.get 0 ≤ -1 * alpha_1.get 0 - beta_1.get 0)) :
    SameWarnings (Arr.Goda1967.calculate_wave_transmission_Kt Hsi Rc alpha_1 beta_1)
      (fun i => (pure (Goda1967.calculate_wave_transmission_Kt (Hsi.get i) (Rc.get i)
        (alpha_1.get i) (beta_1.get i)) : PyM _)) :=
  (ArrProof.Goda1967_calculate_wave_transmission_Kt (U := True) Hsi Rc alpha_1 beta_1 h_shape h_first).same
      trivial

example := C85_Goda1967_calculate_wave_transmission_Kt_partial (n := 2) ArrEx.two ArrEx.two ArrEx.two
  ArrEx.two (by arr_ex) (by arr_ex)

theorem C85_VanGent2023_check_validity_range_no_false_alarm_partial [NeZero n] (disper : PF → PF → PF → PF)
    (Hm0 : Val n) (Tmm10 : PF) (Rc B : Val n) (structure_type : Option String) :
    NoFalseAlarm (Arr.VanGent2023.check_validity_range disper Hm0 (.num Tmm10) Rc B structure_type)
      (fun i => VanGent2023.check_validity_range disper (Hm0.get i) Tmm10 (Rc.get i)
        (B.get i) structure_type) :=
  (ArrProof.VanGent2023_check_validity_range (U := False) disper Hm0 Tmm10 Rc B structure_type (fun h =>
      h.elim)).sub

theorem C85_VanGent2023_check_validity_range_partial [NeZero n] (disper : PF → PF → PF → PF) (Hm0 : Val n)
    (Tmm10 : PF) (Rc B : Val n) (structure_type : Option String)
    (given : ∀ x ∈ [Hm0, Rc, B], Val.Uniform x) :
    SameWarnings (Arr.VanGent2023.check_validity_range disper Hm0 (.num Tmm10) Rc B structure_type)
      (fun i => VanGent2023.check_validity_range disper (Hm0.get i) Tmm10 (Rc.get i)
        (B.get i) structure_type) :=
  (ArrProof.VanGent2023_check_validity_range (U := True) disper Hm0 Tmm10 Rc B structure_type (fun _ =>
      given)).same trivial

example := C85_VanGent2023_check_validity_range_partial (n := 2) (fun _ _ _ => .fin 1) ArrEx.two (.fin 1)
  ArrEx.two ArrEx.two none (by arr_ex)

theorem C85_VanGent2023_calculate_wave_transmission_Kt_no_false_alarm_partial [NeZero n] (disper : PF → PF →
    PF → PF) (Hm0 : Val n) (Tmm10 : PF) (Rc B : Val n) (structure_type : String) :
    NoFalseAlarm (Arr.VanGent2023.calculate_wave_transmission_Kt disper Hm0 (.num Tmm10) Rc B structure_type)
      (fun i => VanGent2023.calculate_wave_transmission_Kt disper (Hm0.get i) Tmm10 (Rc.get i)
        (B.get i) structure_type) :=
  (ArrProof.VanGent2023_calculate_wave_transmission_Kt (U := False) disper Hm0 Tmm10 Rc B structure_type).sub

theorem C85_VanGent2023_calculate_wave_transmission_Kt_partial [NeZero n] (disper : PF → PF → PF → PF) (Hm0 :
    Val n) (Tmm10 : PF) (Rc B : Val n) (structure_type : String) :
    SameWarnings (Arr.VanGent2023.calculate_wave_transmission_Kt disper Hm0 (.num Tmm10) Rc B structure_type)
      (fun i => VanGent2023.calculate_wave_transmission_Kt disper (Hm0.get i) Tmm10 (Rc.get i)
        (B.get i) structure_type) :=
  (ArrProof.VanGent2023_calculate_wave_transmission_Kt (U := True) disper Hm0 Tmm10 Rc B structure_type).same
      trivial

theorem C85_VanGent2024_check_validity_range_no_false_alarm [NeZero n] (Hm0 Tmm10 Rc B hc Dn50 : Val n)
    (structure_type : String) :
    NoFalseAlarm (Arr.VanGent2024.check_validity_range Hm0 Tmm10 Rc B hc Dn50 structure_type)
      (fun i => VanGent2024.check_validity_range (Hm0.get i) (Tmm10.get i) (Rc.get i) (B.get i) (hc.get i)
        (Dn50.get i) structure_type) :=
  (ArrProof.VanGent2024_check_validity_range (U := False) Hm0 Tmm10 Rc B hc Dn50 structure_type (fun h =>
      h.elim)).sub

theorem C85_VanGent2024_check_validity_range [NeZero n] (Hm0 Tmm10 Rc B hc Dn50 : Val n) (structure_type :
    String)
    (given : ∀ x ∈ [Hm0, Tmm10, Rc, B, hc, Dn50], Val.Uniform x) :
    SameWarnings (Arr.VanGent2024.check_validity_range Hm0 Tmm10 Rc B hc Dn50 structure_type)
      (fun i => VanGent2024.check_validity_range (Hm0.get i) (Tmm10.get i) (Rc.get i) (B.get i) (hc.get i)
        (Dn50.get i) structure_type) :=
  (ArrProof.VanGent2024_check_validity_range (U := True) Hm0 Tmm10 Rc B hc Dn50 structure_type (fun _ =>
      given)).same trivial

example := C85_VanGent2024_check_validity_range (n := 2) ArrEx.two ArrEx.two ArrEx.two ArrEx.two ArrEx.two
  ArrEx.two "rough" (by arr_ex)

theorem C85_VanGent2024_calculate_dimensionless_structure_induced_setup_impermeable_no_false_alarm [NeZero n]
    (Hm0 Tmm10 Rc : Val n) :
    NoFalseAlarm (Arr.VanGent2024.calculate_dimensionless_structure_induced_setup_impermeable Hm0 Tmm10 Rc)
      (fun i => VanGent2024.calculate_dimensionless_structure_induced_setup_impermeable (Hm0.get i) (Tmm10.get
        i) (Rc.get i)) :=
  (ArrProof.VanGent2024_calculate_dimensionless_structure_induced_setup_impermeable (U := False) Hm0 Tmm10 Rc
      (fun h => h.elim)).sub

theorem C85_VanGent2024_calculate_dimensionless_structure_induced_setup_impermeable [NeZero n] (Hm0 Tmm10 Rc :
    Val n)
    (given : ∀ x ∈ [Hm0, Tmm10, Rc], Val.Uniform x) :
    SameWarnings (Arr.VanGent2024.calculate_dimensionless_structure_induced_setup_impermeable Hm0 Tmm10 Rc)
      (fun i => VanGent2024.calculate_dimensionless_structure_induced_setup_impermeable (Hm0.get i) (Tmm10.get
        i) (Rc.get i)) :=
  (ArrProof.VanGent2024_calculate_dimensionless_structure_induced_setup_impermeable (U := True) Hm0 Tmm10 Rc
      (fun _ => given)).same trivial

example := C85_VanGent2024_calculate_dimensionless_structure_induced_setup_impermeable (n := 2) ArrEx.two
  ArrEx.two ArrEx.two (by arr_ex)

theorem C85_VanGent2024_calculate_structure_induced_setup_delta_impermeable_no_false_alarm [NeZero n] (Hm0
    Tmm10 Rc : Val n) :
    NoFalseAlarm (Arr.VanGent2024.calculate_structure_induced_setup_delta_impermeable Hm0 Tmm10 Rc)
      (fun i => VanGent2024.calculate_structure_induced_setup_delta_impermeable (Hm0.get i) (Tmm10.get i)
        (Rc.get i)) :=
  (ArrProof.VanGent2024_calculate_structure_induced_setup_delta_impermeable (U := False) Hm0 Tmm10 Rc (fun h
      => h.elim)).sub

theorem C85_VanGent2024_calculate_structure_induced_setup_delta_impermeable [NeZero n] (Hm0 Tmm10 Rc : Val n)
    (given : ∀ x ∈ [Hm0, Tmm10, Rc], Val.Uniform x) :
    SameWarnings (Arr.VanGent2024.calculate_structure_induced_setup_delta_impermeable Hm0 Tmm10 Rc)
      (fun i => VanGent2024.calculate_structure_induced_setup_delta_impermeable (Hm0.get i) (Tmm10.get i)
        (Rc.get i)) :=
  (ArrProof.VanGent2024_calculate_structure_induced_setup_delta_impermeable (U := True) Hm0 Tmm10 Rc (fun _ =>
      given)).same trivial

example := C85_VanGent2024_calculate_structure_induced_setup_delta_impermeable (n := 2) ArrEx.two ArrEx.two
  ArrEx.two (by arr_ex)

theorem C85_VanGent2024_calculate_dimensionless_structure_induced_setup_permeable_no_false_alarm [NeZero n]
    (Hm0 Tmm10 Rc hc : Val n) :
    NoFalseAlarm (Arr.VanGent2024.calculate_dimensionless_structure_induced_setup_permeable Hm0 Tmm10 Rc hc)
      (fun i => VanGent2024.calculate_dimensionless_structure_induced_setup_permeable (Hm0.get i) (Tmm10.get
        i) (Rc.get i) (hc.get i)) :=
  (ArrProof.VanGent2024_calculate_dimensionless_structure_induced_setup_permeable (U := False) Hm0 Tmm10 Rc hc
      (fun h => h.elim)).sub

theorem C85_VanGent2024_calculate_dimensionless_structure_induced_setup_permeable [NeZero n] (Hm0 Tmm10 Rc hc
    : Val n)
    (given : ∀ x ∈ [Hm0, Tmm10, Rc, hc], Val.Uniform x) :
    SameWarnings (Arr.VanGent2024.calculate_dimensionless_structure_induced_setup_permeable Hm0 Tmm10 Rc hc)
      (fun i => VanGent2024.calculate_dimensionless_structure_induced_setup_permeable (Hm0.get i) (Tmm10.get
        i) (Rc.get i) (hc.get i)) :=
  (ArrProof.VanGent2024_calculate_dimensionless_structure_induced_setup_permeable (U := True) Hm0 Tmm10 Rc hc
      (fun _ => given)).same trivial

example := C85_VanGent2024_calculate_dimensionless_structure_induced_setup_permeable (n := 2) ArrEx.two
  ArrEx.two ArrEx.two ArrEx.two (by arr_ex)

theorem C85_VanGent2024_calculate_structure_induced_setup_delta_permeable_no_false_alarm [NeZero n] (Hm0 Tmm10
    Rc hc : Val n) :
    NoFalseAlarm (Arr.VanGent2024.calculate_structure_induced_setup_delta_permeable Hm0 Tmm10 Rc hc)
      (fun i => VanGent2024.calculate_structure_induced_setup_delta_permeable (Hm0.get i) (Tmm10.get i)
        (Rc.get i) (hc.get i)) :=
  (ArrProof.VanGent2024_calculate_structure_induced_setup_delta_permeable (U := False) Hm0 Tmm10 Rc hc (fun h
      => h.elim)).sub

theorem C85_VanGent2024_calculate_structure_induced_setup_delta_permeable [NeZero n] (Hm0 Tmm10 Rc hc : Val n)
    (given : ∀ x ∈ [Hm0, Tmm10, Rc, hc], Val.Uniform x) :
    SameWarnings (Arr.VanGent2024.calculate_structure_induced_setup_delta_permeable Hm0 Tmm10 Rc hc)
      (fun i => VanGent2024.calculate_structure_induced_setup_delta_permeable (Hm0.get i) (Tmm10.get i)
        (Rc.get i) (hc.get i)) :=
  (ArrProof.VanGent2024_calculate_structure_induced_setup_delta_permeable (U := True) Hm0 Tmm10 Rc hc (fun _
      => given)).same trivial

example := C85_VanGent2024_calculate_structure_induced_setup_delta_permeable (n := 2) ArrEx.two ArrEx.two
  ArrEx.two ArrEx.two (by arr_ex)

theorem C85_CrestWall_check_validity_no_false_alarm [NeZero n] (Rc Ac Hm0 Fb beta : Val n) :
    NoFalseAlarm (Arr.CrestWall.check_validity Rc Ac Hm0 Fb beta)
      (fun i => CrestWall.check_validity (Rc.get i) (Ac.get i) (Hm0.get i) (Fb.get i) (beta.get i)) :=
  (ArrProof.CrestWall_check_validity (U := False) Rc Ac Hm0 Fb beta (fun h => h.elim)).sub

theorem C85_CrestWall_check_validity [NeZero n] (Rc Ac Hm0 Fb beta : Val n)
    (given : ∀ x ∈ [Rc, Ac, Hm0, Fb, beta], Val.Uniform x) :
    SameWarnings (Arr.CrestWall.check_validity Rc Ac Hm0 Fb beta)
      (fun i => CrestWall.check_validity (Rc.get i) (Ac.get i) (Hm0.get i) (Fb.get i) (beta.get i)) :=
  (ArrProof.CrestWall_check_validity (U := True) Rc Ac Hm0 Fb beta (fun _ => given)).same trivial

example := C85_CrestWall_check_validity (n := 2) ArrEx.two ArrEx.two ArrEx.two ArrEx.two ArrEx.two (by
  arr_ex)

theorem C85_CrestWall_calculate_FH2p_perpendicular_from_z2p_no_false_alarm [NeZero n] (Hm0 z2p Ac Rc Hwall
    rho_water g cFH : Val n) :
    NoFalseAlarm (Arr.CrestWall.calculate_FH2p_perpendicular_from_z2p Hm0 z2p Ac Rc Hwall rho_water g cFH)
      (fun i => CrestWall.calculate_FH2p_perpendicular_from_z2p (Hm0.get i) (z2p.get i) (Ac.get i) (Rc.get i)
        (Hwall.get i) (rho_water.get i) (g.get i) (cFH.get i)) :=
  (ArrProof.CrestWall_calculate_FH2p_perpendicular_from_z2p (U := False) Hm0 z2p Ac Rc Hwall rho_water g cFH
      (fun h => h.elim)).sub

theorem C85_CrestWall_calculate_FH2p_perpendicular_from_z2p [NeZero n] (Hm0 z2p Ac Rc Hwall rho_water g cFH :
    Val n)
    (given : ∀ x ∈ [Hm0, z2p, Ac, Rc, Hwall, rho_water, g, cFH], Val.Uniform x) :
    SameWarnings (Arr.CrestWall.calculate_FH2p_perpendicular_from_z2p Hm0 z2p Ac Rc Hwall rho_water g cFH)
      (fun i => CrestWall.calculate_FH2p_perpendicular_from_z2p (Hm0.get i) (z2p.get i) (Ac.get i) (Rc.get i)
        (Hwall.get i) (rho_water.get i) (g.get i) (cFH.get i)) :=
  (ArrProof.CrestWall_calculate_FH2p_perpendicular_from_z2p (U := True) Hm0 z2p Ac Rc Hwall rho_water g cFH
      (fun _ => given)).same trivial

example := C85_CrestWall_calculate_FH2p_perpendicular_from_z2p (n := 2) ArrEx.two ArrEx.two ArrEx.two
  ArrEx.two ArrEx.two ArrEx.two ArrEx.two ArrEx.two (by arr_ex)

theorem C85_CrestWall_calculate_FH2p_perpendicular_no_false_alarm [NeZero n] (Hm0 Tmm10 cot_alpha Ac Rc Hwall
    gamma_beta gamma_f c0 c1 rho_water g cFH : Val n) :
    NoFalseAlarm (Arr.CrestWall.calculate_FH2p_perpendicular Hm0 Tmm10 cot_alpha Ac Rc Hwall gamma_beta
      gamma_f c0 c1 rho_water g cFH)
      (fun i => CrestWall.calculate_FH2p_perpendicular (Hm0.get i) (Tmm10.get i) (cot_alpha.get i) (Ac.get i)
        (Rc.get i) (Hwall.get i) (gamma_beta.get i) (gamma_f.get i) (c0.get i) (c1.get i) (rho_water.get i)
        (g.get i) (cFH.get i)) :=
  (ArrProof.CrestWall_calculate_FH2p_perpendicular Hm0 Tmm10 cot_alpha Ac Rc Hwall gamma_beta gamma_f c0 c1
      rho_water g cFH).sub

theorem C85_CrestWall_calculate_FH2p_oblique_no_false_alarm [NeZero n] (Hm0 Tmm10 beta cot_alpha Ac Rc Hwall
    gamma_beta gamma_f c0 c1 cFH rho_water g : Val n) :
    NoFalseAlarm (Arr.CrestWall.calculate_FH2p_oblique Hm0 Tmm10 beta cot_alpha Ac Rc Hwall gamma_beta gamma_f
      c0 c1 cFH rho_water g)
      (fun i => CrestWall.calculate_FH2p_oblique (Hm0.get i) (Tmm10.get i) (beta.get i) (cot_alpha.get i)
        (Ac.get i) (Rc.get i) (Hwall.get i) (gamma_beta.get i) (gamma_f.get i) (c0.get i) (c1.get i) (cFH.get
        i) (rho_water.get i) (g.get i)) :=
  (ArrProof.CrestWall_calculate_FH2p_oblique Hm0 Tmm10 beta cot_alpha Ac Rc Hwall gamma_beta gamma_f c0 c1 cFH
      rho_water g).sub

theorem C85_CrestWall_calculate_FV2p_perpendicular_no_false_alarm [NeZero n] (Hm0 Tmm10 cot_alpha Ac Bwall Fb
    gamma_beta gamma_f c0 c1 cFV cFb rho_water g : Val n) :
    NoFalseAlarm (Arr.CrestWall.calculate_FV2p_perpendicular Hm0 Tmm10 cot_alpha Ac Bwall Fb gamma_beta
      gamma_f c0 c1 cFV cFb rho_water g)
      (fun i => CrestWall.calculate_FV2p_perpendicular (Hm0.get i) (Tmm10.get i) (cot_alpha.get i) (Ac.get i)
        (Bwall.get i) (Fb.get i) (gamma_beta.get i) (gamma_f.get i) (c0.get i) (c1.get i) (cFV.get i) (cFb.get
        i) (rho_water.get i) (g.get i)) :=
  (ArrProof.CrestWall_calculate_FV2p_perpendicular (U := False) Hm0 Tmm10 cot_alpha Ac Bwall Fb gamma_beta
      gamma_f c0 c1 cFV cFb rho_water g (fun h => h.elim)).sub

theorem C85_CrestWall_calculate_FV2p_perpendicular [NeZero n] (Hm0 Tmm10 cot_alpha Ac Bwall Fb gamma_beta
    gamma_f c0 c1 cFV cFb rho_water g : Val n)
    (given : ∀ x ∈ [Hm0, Tmm10, cot_alpha, Ac, Bwall, Fb, gamma_beta, gamma_f, c0, c1, cFV, cFb, rho_water,
      g], Val.Uniform x) :
    SameWarnings (Arr.CrestWall.calculate_FV2p_perpendicular Hm0 Tmm10 cot_alpha Ac Bwall Fb gamma_beta
      gamma_f c0 c1 cFV cFb rho_water g)
      (fun i => CrestWall.calculate_FV2p_perpendicular (Hm0.get i) (Tmm10.get i) (cot_alpha.get i) (Ac.get i)
        (Bwall.get i) (Fb.get i) (gamma_beta.get i) (gamma_f.get i) (c0.get i) (c1.get i) (cFV.get i) (cFb.get
        i) (rho_water.get i) (g.get i)) :=
  (ArrProof.CrestWall_calculate_FV2p_perpendicular (U := True) Hm0 Tmm10 cot_alpha Ac Bwall Fb gamma_beta
      gamma_f c0 c1 cFV cFb rho_water g (fun _ => given)).same trivial

example := C85_CrestWall_calculate_FV2p_perpendicular (n := 2) ArrEx.two ArrEx.two ArrEx.two ArrEx.two
  ArrEx.two ArrEx.two ArrEx.two ArrEx.two ArrEx.two ArrEx.two ArrEx.two ArrEx.two ArrEx.two ArrEx.two (by
  arr_ex)

theorem C85_CrestWall_calculate_FV2p_oblique_no_false_alarm [NeZero n] (Hm0 Tmm10 beta cot_alpha Ac Bwall Fb
    gamma_beta gamma_f c0 c1 cFV cFb rho_water g : Val n) :
    NoFalseAlarm (Arr.CrestWall.calculate_FV2p_oblique Hm0 Tmm10 beta cot_alpha Ac Bwall Fb gamma_beta gamma_f
      c0 c1 cFV cFb rho_water g)
      (fun i => CrestWall.calculate_FV2p_oblique (Hm0.get i) (Tmm10.get i) (beta.get i) (cot_alpha.get i)
        (Ac.get i) (Bwall.get i) (Fb.get i) (gamma_beta.get i) (gamma_f.get i) (c0.get i) (c1.get i) (cFV.get
        i) (cFb.get i) (rho_water.get i) (g.get i)) :=
  (ArrProof.CrestWall_calculate_FV2p_oblique (U := False) Hm0 Tmm10 beta cot_alpha Ac Bwall Fb gamma_beta
      gamma_f c0 c1 cFV cFb rho_water g (fun h => h.elim)).sub

theorem C85_CrestWall_calculate_FV2p_oblique [NeZero n] (Hm0 Tmm10 beta cot_alpha Ac Bwall Fb gamma_beta
    gamma_f c0 c1 cFV cFb rho_water g : Val n)
    (given : ∀ x ∈ [Hm0, Tmm10, beta, cot_alpha, Ac, Bwall, Fb, gamma_beta, gamma_f, c0, c1, cFV, cFb,
      rho_water, g], Val.Uniform x) :
    SameWarnings (Arr.CrestWall.calculate_FV2p_oblique Hm0 Tmm10 beta cot_alpha Ac Bwall Fb gamma_beta gamma_f
      c0 c1 cFV cFb rho_water g)
      (fun i => CrestWall.calculate_FV2p_oblique (Hm0.get i) (Tmm10.get i) (beta.get i) (cot_alpha.get i)
        (Ac.get i) (Bwall.get i) (Fb.get i) (gamma_beta.get i) (gamma_f.get i) (c0.get i) (c1.get i) (cFV.get
        i) (cFb.get i) (rho_water.get i) (g.get i)) :=
  (ArrProof.CrestWall_calculate_FV2p_oblique (U := True) Hm0 Tmm10 beta cot_alpha Ac Bwall Fb gamma_beta
      gamma_f c0 c1 cFV cFb rho_water g (fun _ => given)).same trivial

example := C85_CrestWall_calculate_FV2p_oblique (n := 2) ArrEx.two ArrEx.two ArrEx.two ArrEx.two ArrEx.two
  ArrEx.two ArrEx.two ArrEx.two ArrEx.two ArrEx.two ArrEx.two ArrEx.two ArrEx.two ArrEx.two ArrEx.two (by
  arr_ex)

theorem C85_RunupTaw2002_check_validity_range_no_false_alarm [NeZero n] (Hm0 Tmm10 gamma_f gamma_b gamma_beta
    cot_alpha : Val n) :
    NoFalseAlarm (Arr.RunupTaw2002.check_validity_range Hm0 Tmm10 gamma_f gamma_b gamma_beta cot_alpha)
      (fun i => RunupTaw2002.check_validity_range (Hm0.get i) (Tmm10.get i) (gamma_f.get i) (gamma_b.get i)
        (gamma_beta.get i) (cot_alpha.get i)) :=
  (ArrProof.RunupTaw2002_check_validity_range (U := False) Hm0 Tmm10 gamma_f gamma_b gamma_beta cot_alpha (fun
      h => h.elim)).sub

theorem C85_RunupTaw2002_check_validity_range [NeZero n] (Hm0 Tmm10 gamma_f gamma_b gamma_beta cot_alpha : Val
    n)
    (given : ∀ x ∈ [Hm0, Tmm10, gamma_f, gamma_b, gamma_beta, cot_alpha], Val.Uniform x) :
    SameWarnings (Arr.RunupTaw2002.check_validity_range Hm0 Tmm10 gamma_f gamma_b gamma_beta cot_alpha)
      (fun i => RunupTaw2002.check_validity_range (Hm0.get i) (Tmm10.get i) (gamma_f.get i) (gamma_b.get i)
        (gamma_beta.get i) (cot_alpha.get i)) :=
  (ArrProof.RunupTaw2002_check_validity_range (U := True) Hm0 Tmm10 gamma_f gamma_b gamma_beta cot_alpha (fun
      _ => given)).same trivial

example := C85_RunupTaw2002_check_validity_range (n := 2) ArrEx.two ArrEx.two ArrEx.two ArrEx.two ArrEx.two
  ArrEx.two (by arr_ex)

theorem C85_RunupTaw2002_calculate_berm_length_no_false_alarm [NeZero n] (Hm0 B_berm cot_alpha cot_alpha_down
    cot_alpha_up : Val n)
    (h_cot_alpha : cot_alpha.Uniform)
    (h_cot_alpha_down : cot_alpha_down.Uniform)
    (h_cot_alpha_up : cot_alpha_up.Uniform) :
    NoFalseAlarm (Arr.RunupTaw2002.calculate_berm_length Hm0 B_berm cot_alpha cot_alpha_down cot_alpha_up)
      (fun i => RunupTaw2002.calculate_berm_length (Hm0.get i) (B_berm.get i) (cot_alpha.get i)
        (cot_alpha_down.get i) (cot_alpha_up.get i)) :=
  (ArrProof.RunupTaw2002_calculate_berm_length (U := False) Hm0 B_berm cot_alpha cot_alpha_down cot_alpha_up
      h_cot_alpha h_cot_alpha_down h_cot_alpha_up (fun h => h.elim)).sub

example := C85_RunupTaw2002_calculate_berm_length_no_false_alarm (n := 2) ArrEx.two ArrEx.two ArrEx.two
  ArrEx.two ArrEx.two (by arr_ex) (by arr_ex) (by arr_ex)

theorem C85_RunupTaw2002_calculate_berm_length [NeZero n] (Hm0 B_berm cot_alpha cot_alpha_down cot_alpha_up :
    Val n)
    (h_cot_alpha : cot_alpha.Uniform)
    (h_cot_alpha_down : cot_alpha_down.Uniform)
    (h_cot_alpha_up : cot_alpha_up.Uniform)
    (given : ∀ x ∈ [Hm0, B_berm, cot_alpha, cot_alpha_down, cot_alpha_up], Val.Uniform x) :
    SameWarnings (Arr.RunupTaw2002.calculate_berm_length Hm0 B_berm cot_alpha cot_alpha_down cot_alpha_up)
      (fun i => RunupTaw2002.calculate_berm_length (Hm0.get i) (B_berm.get i) (cot_alpha.get i)
        (cot_alpha_down.get i) (cot_alpha_up.get i)) :=
  (ArrProof.RunupTaw2002_calculate_berm_length (U := True) Hm0 B_berm cot_alpha cot_alpha_down cot_alpha_up
      h_cot_alpha h_cot_alpha_down h_cot_alpha_up (fun _ => given)).same trivial

example := C85_RunupTaw2002_calculate_berm_length (n := 2) ArrEx.two ArrEx.two ArrEx.two ArrEx.two ArrEx.two
  (by arr_ex) (by arr_ex) (by arr_ex) (by arr_ex)

theorem C85_OvertoppingTaw2002_check_validity_range_no_false_alarm [NeZero n] (Hm0 Tmm10 beta cot_alpha
    cot_alpha_down cot_alpha_up gamma_f gamma_b gamma_beta gamma_v : Val n) :
    NoFalseAlarm (Arr.OvertoppingTaw2002.check_validity_range Hm0 Tmm10 beta cot_alpha cot_alpha_down
      cot_alpha_up gamma_f gamma_b gamma_beta gamma_v)
      (fun i => OvertoppingTaw2002.check_validity_range (Hm0.get i) (Tmm10.get i) (beta.get i) (cot_alpha.get
        i) (cot_alpha_down.get i) (cot_alpha_up.get i) (gamma_f.get i) (gamma_b.get i) (gamma_beta.get i)
        (gamma_v.get i)) :=
  (ArrProof.OvertoppingTaw2002_check_validity_range (U := False) Hm0 Tmm10 beta cot_alpha cot_alpha_down
      cot_alpha_up gamma_f gamma_b gamma_beta gamma_v (fun h => h.elim)).sub

theorem C85_OvertoppingTaw2002_check_validity_range [NeZero n] (Hm0 Tmm10 beta cot_alpha cot_alpha_down
    cot_alpha_up gamma_f gamma_b gamma_beta gamma_v : Val n)
    (given : ∀ x ∈ [Hm0, Tmm10, beta, cot_alpha, cot_alpha_down, cot_alpha_up, gamma_f, gamma_b, gamma_beta,
      gamma_v], Val.Uniform x) :
    SameWarnings (Arr.OvertoppingTaw2002.check_validity_range Hm0 Tmm10 beta cot_alpha cot_alpha_down
      cot_alpha_up gamma_f gamma_b gamma_beta gamma_v)
      (fun i => OvertoppingTaw2002.check_validity_range (Hm0.get i) (Tmm10.get i) (beta.get i) (cot_alpha.get
        i) (cot_alpha_down.get i) (cot_alpha_up.get i) (gamma_f.get i) (gamma_b.get i) (gamma_beta.get i)
        (gamma_v.get i)) :=
  (ArrProof.OvertoppingTaw2002_check_validity_range (U := True) Hm0 Tmm10 beta cot_alpha cot_alpha_down
      cot_alpha_up gamma_f gamma_b gamma_beta gamma_v (fun _ => given)).same trivial

example := C85_OvertoppingTaw2002_check_validity_range (n := 2) ArrEx.two ArrEx.two ArrEx.two ArrEx.two
  ArrEx.two ArrEx.two ArrEx.two ArrEx.two ArrEx.two ArrEx.two (by arr_ex)

theorem C85_OvertoppingEurOtop2007_calculate_dimensionless_overtopping_discharge_q_rubble_mound_no_false_alarm
    [NeZero n] (Hm0 Tmm10 Rc beta gamma_beta gamma_f cot_alpha : Val n) (c2 c3 : PF) (use_best_fit : Bool)
    (h_beta : beta.Uniform)
    (h_gamma_beta : gamma_beta.Uniform) :
    NoFalseAlarm (Arr.OvertoppingEurOtop2007.calculate_dimensionless_overtopping_discharge_q_rubble_mound Hm0
      Tmm10 Rc beta gamma_beta gamma_f cot_alpha c2 c3 use_best_fit)
      (fun i => OvertoppingEurOtop2007.calculate_dimensionless_overtopping_discharge_q_rubble_mound (Hm0.get
        i) (Tmm10.get i) (Rc.get i) (beta.get i) (gamma_beta.get i) (gamma_f.get i) (cot_alpha.get i) c2 c3
        use_best_fit) :=
  (ArrProof.OvertoppingEurOtop2007_calculate_dimensionless_overtopping_discharge_q_rubble_mound (U := False)
      Hm0 Tmm10 Rc beta gamma_beta gamma_f cot_alpha c2 c3 use_best_fit h_beta h_gamma_beta (fun h =>
      h.elim)).sub

example :=
  C85_OvertoppingEurOtop2007_calculate_dimensionless_overtopping_discharge_q_rubble_mound_no_false_alarm (n
  := 2) ArrEx.two ArrEx.two ArrEx.two ArrEx.two ArrEx.two ArrEx.two ArrEx.two (.fin 1) (.fin 1) true (by
  arr_ex) (by arr_ex)

theorem C85_OvertoppingEurOtop2007_calculate_dimensionless_overtopping_discharge_q_rubble_mound [NeZero n]
    (Hm0 Tmm10 Rc beta gamma_beta gamma_f cot_alpha : Val n) (c2 c3 : PF) (use_best_fit : Bool)
    (h_beta : beta.Uniform)
    (h_gamma_beta : gamma_beta.Uniform)
    (given : ∀ x ∈ [Hm0, Tmm10, Rc, beta, gamma_beta, gamma_f, cot_alpha], Val.Uniform x) :
    SameWarnings (Arr.OvertoppingEurOtop2007.calculate_dimensionless_overtopping_discharge_q_rubble_mound Hm0
      Tmm10 Rc beta gamma_beta gamma_f cot_alpha c2 c3 use_best_fit)
      (fun i => OvertoppingEurOtop2007.calculate_dimensionless_overtopping_discharge_q_rubble_mound (Hm0.get
        i) (Tmm10.get i) (Rc.get i) (beta.get i) (gamma_beta.get i) (gamma_f.get i) (cot_alpha.get i) c2 c3
        use_best_fit) :=
  (ArrProof.OvertoppingEurOtop2007_calculate_dimensionless_overtopping_discharge_q_rubble_mound (U := True)
      Hm0 Tmm10 Rc beta gamma_beta gamma_f cot_alpha c2 c3 use_best_fit h_beta h_gamma_beta (fun _ =>
      given)).same trivial

example := C85_OvertoppingEurOtop2007_calculate_dimensionless_overtopping_discharge_q_rubble_mound (n := 2)
  ArrEx.two ArrEx.two ArrEx.two ArrEx.two ArrEx.two ArrEx.two ArrEx.two (.fin 1) (.fin 1) true (by arr_ex)
  (by arr_ex) (by arr_ex)

theorem C85_OvertoppingEurOtop2007_calculate_overtopping_discharge_q_rubble_mound_no_false_alarm [NeZero n]
    (Hm0 Tmm10 Rc beta gamma_beta gamma_f cot_alpha : Val n) (c2 c3 : PF) (use_best_fit : Bool) (g : Val n)
    (h_beta : beta.Uniform)
    (h_gamma_beta : gamma_beta.Uniform) :
    NoFalseAlarm (Arr.OvertoppingEurOtop2007.calculate_overtopping_discharge_q_rubble_mound Hm0 Tmm10 Rc beta
      gamma_beta gamma_f cot_alpha c2 c3 use_best_fit g)
      (fun i => OvertoppingEurOtop2007.calculate_overtopping_discharge_q_rubble_mound (Hm0.get i) (Tmm10.get
        i) (Rc.get i) (beta.get i) (gamma_beta.get i) (gamma_f.get i) (cot_alpha.get i) c2 c3 use_best_fit
        (g.get i)) :=
  (ArrProof.OvertoppingEurOtop2007_calculate_overtopping_discharge_q_rubble_mound (U := False) Hm0 Tmm10 Rc
      beta gamma_beta gamma_f cot_alpha c2 c3 use_best_fit g h_beta h_gamma_beta (fun h => h.elim)).sub

example := C85_OvertoppingEurOtop2007_calculate_overtopping_discharge_q_rubble_mound_no_false_alarm (n := 2)
  ArrEx.two ArrEx.two ArrEx.two ArrEx.two ArrEx.two ArrEx.two ArrEx.two (.fin 1) (.fin 1) true ArrEx.two (by
  arr_ex) (by arr_ex)

theorem C85_OvertoppingEurOtop2007_calculate_overtopping_discharge_q_rubble_mound [NeZero n] (Hm0 Tmm10 Rc
    beta gamma_beta gamma_f cot_alpha : Val n) (c2 c3 : PF) (use_best_fit : Bool) (g : Val n)
    (h_beta : beta.Uniform)
    (h_gamma_beta : gamma_beta.Uniform)
    (given : ∀ x ∈ [Hm0, Tmm10, Rc, beta, gamma_beta, gamma_f, cot_alpha, g], Val.Uniform x) :
    SameWarnings (Arr.OvertoppingEurOtop2007.calculate_overtopping_discharge_q_rubble_mound Hm0 Tmm10 Rc beta
      gamma_beta gamma_f cot_alpha c2 c3 use_best_fit g)
      (fun i => OvertoppingEurOtop2007.calculate_overtopping_discharge_q_rubble_mound (Hm0.get i) (Tmm10.get
        i) (Rc.get i) (beta.get i) (gamma_beta.get i) (gamma_f.get i) (cot_alpha.get i) c2 c3 use_best_fit
        (g.get i)) :=
  (ArrProof.OvertoppingEurOtop2007_calculate_overtopping_discharge_q_rubble_mound (U := True) Hm0 Tmm10 Rc
      beta gamma_beta gamma_f cot_alpha c2 c3 use_best_fit g h_beta h_gamma_beta (fun _ => given)).same
      trivial

example := C85_OvertoppingEurOtop2007_calculate_overtopping_discharge_q_rubble_mound (n := 2) ArrEx.two
  ArrEx.two ArrEx.two ArrEx.two ArrEx.two ArrEx.two ArrEx.two (.fin 1) (.fin 1) true ArrEx.two (by arr_ex)
  (by arr_ex) (by arr_ex)

theorem C85_OvertoppingEurOtop2007_calculate_dimensionless_crest_freeboard_rubble_mound_no_false_alarm [NeZero
    n] (Hm0 Tmm10 q beta gamma_beta gamma_f cot_alpha : Val n) (c2 c3 : PF) (use_best_fit : Bool)
    (h_beta : beta.Uniform)
    (h_gamma_beta : gamma_beta.Uniform) :
    NoFalseAlarm (Arr.OvertoppingEurOtop2007.calculate_dimensionless_crest_freeboard_rubble_mound Hm0 Tmm10 q
      beta gamma_beta gamma_f cot_alpha c2 c3 use_best_fit)
      (fun i => OvertoppingEurOtop2007.calculate_dimensionless_crest_freeboard_rubble_mound (Hm0.get i)
        (Tmm10.get i) (q.get i) (beta.get i) (gamma_beta.get i) (gamma_f.get i) (cot_alpha.get i) c2 c3
        use_best_fit) :=
  (ArrProof.OvertoppingEurOtop2007_calculate_dimensionless_crest_freeboard_rubble_mound (U := False) Hm0 Tmm10
      q beta gamma_beta gamma_f cot_alpha c2 c3 use_best_fit h_beta h_gamma_beta (fun h => h.elim)).sub

example := C85_OvertoppingEurOtop2007_calculate_dimensionless_crest_freeboard_rubble_mound_no_false_alarm (n
  := 2) ArrEx.two ArrEx.two ArrEx.two ArrEx.two ArrEx.two ArrEx.two ArrEx.two (.fin 1) (.fin 1) true (by
  arr_ex) (by arr_ex)

theorem C85_OvertoppingEurOtop2007_calculate_dimensionless_crest_freeboard_rubble_mound [NeZero n] (Hm0 Tmm10
    q beta gamma_beta gamma_f cot_alpha : Val n) (c2 c3 : PF) (use_best_fit : Bool)
    (h_beta : beta.Uniform)
    (h_gamma_beta : gamma_beta.Uniform)
    (given : ∀ x ∈ [Hm0, Tmm10, q, beta, gamma_beta, gamma_f, cot_alpha], Val.Uniform x) :
    SameWarnings (Arr.OvertoppingEurOtop2007.calculate_dimensionless_crest_freeboard_rubble_mound Hm0 Tmm10 q
      beta gamma_beta gamma_f cot_alpha c2 c3 use_best_fit)
      (fun i => OvertoppingEurOtop2007.calculate_dimensionless_crest_freeboard_rubble_mound (Hm0.get i)
        (Tmm10.get i) (q.get i) (beta.get i) (gamma_beta.get i) (gamma_f.get i) (cot_alpha.get i) c2 c3
        use_best_fit) :=
  (ArrProof.OvertoppingEurOtop2007_calculate_dimensionless_crest_freeboard_rubble_mound (U := True) Hm0 Tmm10
      q beta gamma_beta gamma_f cot_alpha c2 c3 use_best_fit h_beta h_gamma_beta (fun _ => given)).same
      trivial

example := C85_OvertoppingEurOtop2007_calculate_dimensionless_crest_freeboard_rubble_mound (n := 2)
  ArrEx.two ArrEx.two ArrEx.two ArrEx.two ArrEx.two ArrEx.two ArrEx.two (.fin 1) (.fin 1) true (by arr_ex)
  (by arr_ex) (by arr_ex)

theorem C85_OvertoppingEurOtop2007_calculate_crest_freeboard_Rc_rubble_mound_no_false_alarm [NeZero n] (Hm0
    Tmm10 q beta gamma_beta gamma_f cot_alpha : Val n) (c2 c3 : PF) (use_best_fit : Bool)
    (h_beta : beta.Uniform)
    (h_gamma_beta : gamma_beta.Uniform) :
    NoFalseAlarm (Arr.OvertoppingEurOtop2007.calculate_crest_freeboard_Rc_rubble_mound Hm0 Tmm10 q beta
      gamma_beta gamma_f cot_alpha c2 c3 use_best_fit)
      (fun i => OvertoppingEurOtop2007.calculate_crest_freeboard_Rc_rubble_mound (Hm0.get i) (Tmm10.get i)
        (q.get i) (beta.get i) (gamma_beta.get i) (gamma_f.get i) (cot_alpha.get i) c2 c3 use_best_fit) :=
  (ArrProof.OvertoppingEurOtop2007_calculate_crest_freeboard_Rc_rubble_mound (U := False) Hm0 Tmm10 q beta
      gamma_beta gamma_f cot_alpha c2 c3 use_best_fit h_beta h_gamma_beta (fun h => h.elim)).sub

example := C85_OvertoppingEurOtop2007_calculate_crest_freeboard_Rc_rubble_mound_no_false_alarm (n := 2)
  ArrEx.two ArrEx.two ArrEx.two ArrEx.two ArrEx.two ArrEx.two ArrEx.two (.fin 1) (.fin 1) true (by arr_ex)
  (by arr_ex)

theorem C85_OvertoppingEurOtop2007_calculate_crest_freeboard_Rc_rubble_mound [NeZero n] (Hm0 Tmm10 q beta
    gamma_beta gamma_f cot_alpha : Val n) (c2 c3 : PF) (use_best_fit : Bool)
    (h_beta : beta.Uniform)
    (h_gamma_beta : gamma_beta.Uniform)
    (given : ∀ x ∈ [Hm0, Tmm10, q, beta, gamma_beta, gamma_f, cot_alpha], Val.Uniform x) :
    SameWarnings (Arr.OvertoppingEurOtop2007.calculate_crest_freeboard_Rc_rubble_mound Hm0 Tmm10 q beta
      gamma_beta gamma_f cot_alpha c2 c3 use_best_fit)
      (fun i => OvertoppingEurOtop2007.calculate_crest_freeboard_Rc_rubble_mound (Hm0.get i) (Tmm10.get i)
        (q.get i) (beta.get i) (gamma_beta.get i) (gamma_f.get i) (cot_alpha.get i) c2 c3 use_best_fit) :=
  (ArrProof.OvertoppingEurOtop2007_calculate_crest_freeboard_Rc_rubble_mound (U := True) Hm0 Tmm10 q beta
      gamma_beta gamma_f cot_alpha c2 c3 use_best_fit h_beta h_gamma_beta (fun _ => given)).same trivial

example := C85_OvertoppingEurOtop2007_calculate_crest_freeboard_Rc_rubble_mound (n := 2) ArrEx.two ArrEx.two
  ArrEx.two ArrEx.two ArrEx.two ArrEx.two ArrEx.two (.fin 1) (.fin 1) true (by arr_ex) (by arr_ex) (by
  arr_ex)

theorem C85_OvertoppingEurOtop2018_check_validity_range_rubble_mound_no_false_alarm [NeZero n] (cot_alpha :
    Val n) :
    NoFalseAlarm (Arr.OvertoppingEurOtop2018.check_validity_range_rubble_mound cot_alpha)
      (fun i => OvertoppingEurOtop2018.check_validity_range_rubble_mound (cot_alpha.get i)) :=
  (ArrProof.OvertoppingEurOtop2018_check_validity_range_rubble_mound (U := False) cot_alpha (fun h =>
      h.elim)).sub

theorem C85_OvertoppingEurOtop2018_check_validity_range_rubble_mound [NeZero n] (cot_alpha : Val n)
    (given : ∀ x ∈ [cot_alpha], Val.Uniform x) :
    SameWarnings (Arr.OvertoppingEurOtop2018.check_validity_range_rubble_mound cot_alpha)
      (fun i => OvertoppingEurOtop2018.check_validity_range_rubble_mound (cot_alpha.get i)) :=
  (ArrProof.OvertoppingEurOtop2018_check_validity_range_rubble_mound (U := True) cot_alpha (fun _ =>
      given)).same trivial

example := C85_OvertoppingEurOtop2018_check_validity_range_rubble_mound (n := 2) ArrEx.two (by arr_ex)

theorem C85_RunupTaw2002_calculate_dimensionless_wave_runup_height_z2p_no_false_alarm [NeZero n] (Hm0 Tmm10
    beta gamma_beta : Val n) (gamma_b : PF) (gamma_f B_berm db cot_alpha : Val n) (c1 c2 c3 c4 : PF)
    (use_best_fit : Bool)
    (h_beta : beta.Uniform)
    (h_gamma_beta : gamma_beta.Uniform)
    (h_cot_alpha : cot_alpha.Uniform) :
    NoFalseAlarm (Arr.RunupTaw2002.calculate_dimensionless_wave_runup_height_z2p
        ⟨Hm0, Tmm10, beta, gamma_beta, .num gamma_b, gamma_f, B_berm, db, cot_alpha, Val.nan, Val.nan,
          c1, c2, c3, c4, use_best_fit⟩)
      (fun i => RunupTaw2002.calculate_dimensionless_wave_runup_height_z2p
        ⟨Hm0.get i, Tmm10.get i, beta.get i, gamma_beta.get i, gamma_b, gamma_f.get i, B_berm.get i,
          db.get i, cot_alpha.get i, PF.nan, PF.nan, c1, c2, c3, c4, use_best_fit⟩) :=
  (ArrProof.RunupTaw2002_calculate_dimensionless_wave_runup_height_z2p Hm0 Tmm10 beta gamma_beta gamma_b
      gamma_f B_berm db cot_alpha c1 c2 c3 c4 use_best_fit h_beta h_gamma_beta h_cot_alpha).sub

example := C85_RunupTaw2002_calculate_dimensionless_wave_runup_height_z2p_no_false_alarm (n := 2) ArrEx.two
  ArrEx.two ArrEx.two ArrEx.two (.fin 1) ArrEx.two ArrEx.two ArrEx.two ArrEx.two (.fin 1) (.fin 1) (.fin 1)
  (.fin 1) true (by arr_ex) (by arr_ex) (by arr_ex)

theorem C85_RunupTaw2002_calculate_wave_runup_height_z2p_no_false_alarm [NeZero n] (Hm0 Tmm10 beta gamma_beta
    : Val n) (gamma_b : PF) (gamma_f B_berm db cot_alpha : Val n) (c1 c2 c3 c4 : PF) (use_best_fit : Bool)
    (h_beta : beta.Uniform)
    (h_gamma_beta : gamma_beta.Uniform)
    (h_cot_alpha : cot_alpha.Uniform) :
    NoFalseAlarm (Arr.RunupTaw2002.calculate_wave_runup_height_z2p
        ⟨Hm0, Tmm10, beta, gamma_beta, .num gamma_b, gamma_f, B_berm, db, cot_alpha, Val.nan, Val.nan,
          c1, c2, c3, c4, use_best_fit⟩)
      (fun i => RunupTaw2002.calculate_wave_runup_height_z2p
        ⟨Hm0.get i, Tmm10.get i, beta.get i, gamma_beta.get i, gamma_b, gamma_f.get i, B_berm.get i,
          db.get i, cot_alpha.get i, PF.nan, PF.nan, c1, c2, c3, c4, use_best_fit⟩) :=
  (ArrProof.RunupTaw2002_calculate_wave_runup_height_z2p Hm0 Tmm10 beta gamma_beta gamma_b gamma_f B_berm db
      cot_alpha c1 c2 c3 c4 use_best_fit h_beta h_gamma_beta h_cot_alpha).sub

example := C85_RunupTaw2002_calculate_wave_runup_height_z2p_no_false_alarm (n := 2) ArrEx.two ArrEx.two
  ArrEx.two ArrEx.two (.fin 1) ArrEx.two ArrEx.two ArrEx.two ArrEx.two (.fin 1) (.fin 1) (.fin 1) (.fin 1)
  true (by arr_ex) (by arr_ex) (by arr_ex)

theorem C85_RunupEurOtop2018_calculate_influence_oblique_waves_gamma_beta_no_false_alarm_partial [NeZero n]
    (beta : Val n) (gamma_f gamma_f_crit smooth rough max_angle : PF) :
    NoFalseAlarm (Arr.RunupEurOtop2018.calculate_influence_oblique_waves_gamma_beta beta (.num gamma_f)
        gamma_f_crit smooth rough max_angle)
      (fun i => pure (RunupEurOtop2018.calculate_influence_oblique_waves_gamma_beta (beta.get i) gamma_f
        gamma_f_crit smooth rough max_angle)) :=
  (ArrProof.RunupEurOtop2018_calculate_influence_oblique_waves_gamma_beta (U := False) beta gamma_f
      gamma_f_crit smooth rough max_angle).sub

theorem C85_RunupEurOtop2018_calculate_influence_oblique_waves_gamma_beta_partial [NeZero n] (beta : Val n)
    (gamma_f gamma_f_crit smooth rough max_angle : PF) :
    SameWarnings (Arr.RunupEurOtop2018.calculate_influence_oblique_waves_gamma_beta beta (.num gamma_f)
        gamma_f_crit smooth rough max_angle)
      (fun i => pure (RunupEurOtop2018.calculate_influence_oblique_waves_gamma_beta (beta.get i) gamma_f
        gamma_f_crit smooth rough max_angle)) :=
  (ArrProof.RunupEurOtop2018_calculate_influence_oblique_waves_gamma_beta (U := True) beta gamma_f
      gamma_f_crit smooth rough max_angle).same trivial

theorem C85_RunupEurOtop2018_calculate_dimensionless_wave_runup_height_z2p_no_false_alarm_partial [NeZero n]
    (Hm0 Tmm10 beta gamma_beta : Val n) (gamma_b gamma_f : PF) (B_berm db cot_alpha : Val n) (c1 c2 c3 c4 :
    PF) (use_best_fit : Bool)
    (h_beta : beta.Uniform)
    (h_cot_alpha : cot_alpha.Uniform) :
    NoFalseAlarm (Arr.RunupEurOtop2018.calculate_dimensionless_wave_runup_height_z2p
        Hm0 Tmm10 beta gamma_beta (.num gamma_b) (.num gamma_f) B_berm db cot_alpha Val.nan Val.nan
          c1 c2 c3 c4 use_best_fit)
      (fun i => RunupEurOtop2018.calculate_dimensionless_wave_runup_height_z2p
        (Hm0.get i) (Tmm10.get i) (beta.get i) (gamma_beta.get i) gamma_b gamma_f (B_berm.get i)
          (db.get i) (cot_alpha.get i) PF.nan PF.nan c1 c2 c3 c4 use_best_fit) :=
  (ArrProof.RunupEurOtop2018_calculate_dimensionless_wave_runup_height_z2p Hm0 Tmm10 beta gamma_beta gamma_b
      gamma_f B_berm db cot_alpha c1 c2 c3 c4 use_best_fit h_beta h_cot_alpha).sub

example := C85_RunupEurOtop2018_calculate_dimensionless_wave_runup_height_z2p_no_false_alarm_partial (n :=
  2) ArrEx.two ArrEx.two ArrEx.two ArrEx.two (.fin 1) (.fin 1) ArrEx.two ArrEx.two ArrEx.two (.fin 1) (.fin
  1) (.fin 1) (.fin 1) true (by arr_ex) (by arr_ex)

theorem C85_RunupEurOtop2018_calculate_wave_runup_height_z2p_no_false_alarm_partial [NeZero n] (Hm0 Tmm10 beta
    gamma_beta : Val n) (gamma_b gamma_f : PF) (B_berm db cot_alpha : Val n) (c1 c2 c3 c4 : PF) (use_best_fit
    : Bool)
    (h_beta : beta.Uniform)
    (h_cot_alpha : cot_alpha.Uniform) :
    NoFalseAlarm (Arr.RunupEurOtop2018.calculate_wave_runup_height_z2p
        Hm0 Tmm10 beta gamma_beta (.num gamma_b) (.num gamma_f) B_berm db cot_alpha Val.nan Val.nan
          c1 c2 c3 c4 use_best_fit)
      (fun i => RunupEurOtop2018.calculate_wave_runup_height_z2p
        (Hm0.get i) (Tmm10.get i) (beta.get i) (gamma_beta.get i) gamma_b gamma_f (B_berm.get i)
          (db.get i) (cot_alpha.get i) PF.nan PF.nan c1 c2 c3 c4 use_best_fit) :=
  (ArrProof.RunupEurOtop2018_calculate_wave_runup_height_z2p Hm0 Tmm10 beta gamma_beta gamma_b gamma_f B_berm
      db cot_alpha c1 c2 c3 c4 use_best_fit h_beta h_cot_alpha).sub

example := C85_RunupEurOtop2018_calculate_wave_runup_height_z2p_no_false_alarm_partial (n := 2) ArrEx.two
  ArrEx.two ArrEx.two ArrEx.two (.fin 1) (.fin 1) ArrEx.two ArrEx.two ArrEx.two (.fin 1) (.fin 1) (.fin 1)
  (.fin 1) true (by arr_ex) (by arr_ex)

theorem C85_OvertoppingTaw2002_calculate_dimensionless_overtopping_discharge_q_no_false_alarm_partial [NeZero
    n] (Hm0 Tmm10 Rc cot_alpha beta : Val n) (B_berm : PF) (db gamma_beta : Val n) (gamma_b : PF) (gamma_f
    gamma_v : Val n) (sigma : PF) (use_best_fit : Bool)
    (h_cot_alpha : cot_alpha.Uniform)
    (h_beta : beta.Uniform)
    (h_gamma_beta : gamma_beta.Uniform)
    (h_berm : ¬ gamma_b.isnan ∨ PF.eqF B_berm 0.0)
    (h_shape : gamma_v.isArray → Hm0.isArray || Tmm10.isArray || Rc.isArray || cot_alpha.isArray ||
      gamma_f.isArray) :
    NoFalseAlarm (Arr.OvertoppingTaw2002.calculate_dimensionless_overtopping_discharge_q Hm0 Tmm10 Rc
      cot_alpha Val.nan Val.nan beta (.num B_berm) db
        gamma_beta (.num gamma_b) gamma_f gamma_v (.num sigma) use_best_fit)
      (fun i => OvertoppingTaw2002.calculate_dimensionless_overtopping_discharge_q (Hm0.get i) (Tmm10.get i)
        (Rc.get i) (cot_alpha.get i) PF.nan
        PF.nan (beta.get i) B_berm (db.get i) (gamma_beta.get i) gamma_b (gamma_f.get i)
        (gamma_v.get i) sigma use_best_fit) :=
  (ArrProof.OvertoppingTaw2002_calculate_dimensionless_overtopping_discharge_q Hm0 Tmm10 Rc cot_alpha beta
      B_berm db gamma_beta gamma_b gamma_f gamma_v sigma use_best_fit h_cot_alpha h_beta h_gamma_beta h_berm
      h_shape).sub

example := C85_OvertoppingTaw2002_calculate_dimensionless_overtopping_discharge_q_no_false_alarm_partial (n
  := 2) ArrEx.two ArrEx.two ArrEx.two ArrEx.two ArrEx.two 0.0 ArrEx.two ArrEx.two (.fin 1) ArrEx.two
  ArrEx.two (.fin 1) true (by arr_ex) (by arr_ex) (by arr_ex) (by arr_ex) (by arr_ex)

theorem C85_OvertoppingTaw2002_calculate_overtopping_discharge_q_no_false_alarm_partial [NeZero n] (Hm0 Tmm10
    Rc cot_alpha beta : Val n) (B_berm : PF) (db gamma_beta : Val n) (gamma_b : PF) (gamma_f gamma_v : Val n)
    (sigma : PF) (g : Val n) (use_best_fit : Bool)
    (h_cot_alpha : cot_alpha.Uniform)
    (h_beta : beta.Uniform)
    (h_gamma_beta : gamma_beta.Uniform)
    (h_berm : ¬ gamma_b.isnan ∨ PF.eqF B_berm 0.0)
    (h_shape : gamma_v.isArray → Hm0.isArray || Tmm10.isArray || Rc.isArray || cot_alpha.isArray ||
      gamma_f.isArray) :
    NoFalseAlarm (Arr.OvertoppingTaw2002.calculate_overtopping_discharge_q Hm0 Tmm10 Rc cot_alpha Val.nan
      Val.nan beta (.num B_berm) db
        gamma_beta (.num gamma_b) gamma_f gamma_v (.num sigma) g use_best_fit)
      (fun i => OvertoppingTaw2002.calculate_overtopping_discharge_q (Hm0.get i) (Tmm10.get i) (Rc.get i)
        (cot_alpha.get i) PF.nan
        PF.nan (beta.get i) B_berm (db.get i) (gamma_beta.get i) gamma_b (gamma_f.get i)
        (gamma_v.get i) sigma (g.get i) use_best_fit) :=
  (ArrProof.OvertoppingTaw2002_calculate_overtopping_discharge_q Hm0 Tmm10 Rc cot_alpha beta B_berm db
      gamma_beta gamma_b gamma_f gamma_v sigma g use_best_fit h_cot_alpha h_beta h_gamma_beta h_berm
      h_shape).sub

example := C85_OvertoppingTaw2002_calculate_overtopping_discharge_q_no_false_alarm_partial (n := 2)
  ArrEx.two ArrEx.two ArrEx.two ArrEx.two ArrEx.two 0.0 ArrEx.two ArrEx.two (.fin 1) ArrEx.two ArrEx.two
  (.fin 1) ArrEx.two true (by arr_ex) (by arr_ex) (by arr_ex) (by arr_ex) (by arr_ex)

theorem C85_OvertoppingTaw2002_calculate_dimensionless_crest_freeboard_no_false_alarm_partial [NeZero n] (Hm0
    Tmm10 q cot_alpha beta : Val n) (B_berm : PF) (db gamma_beta : Val n) (gamma_b : PF) (gamma_f gamma_v :
    Val n) (sigma : PF) (g : Val n) (use_best_fit : Bool)
    (h_cot_alpha : cot_alpha.Uniform)
    (h_beta : beta.Uniform)
    (h_gamma_beta : gamma_beta.Uniform)
    (h_berm : ¬ gamma_b.isnan ∨ PF.eqF B_berm 0.0)
    (h_shape : gamma_v.isArray || g.isArray → Hm0.isArray || Tmm10.isArray || q.isArray || cot_alpha.isArray
      ||
      gamma_f.isArray) :
    NoFalseAlarm (Arr.OvertoppingTaw2002.calculate_dimensionless_crest_freeboard Hm0 Tmm10 q cot_alpha Val.nan
      Val.nan beta (.num B_berm) db
        gamma_beta (.num gamma_b) gamma_f gamma_v (.num sigma) g use_best_fit)
      (fun i => OvertoppingTaw2002.calculate_dimensionless_crest_freeboard (Hm0.get i) (Tmm10.get i) (q.get i)
        (cot_alpha.get i) PF.nan
        PF.nan (beta.get i) B_berm (db.get i) (gamma_beta.get i) gamma_b (gamma_f.get i)
        (gamma_v.get i) sigma (g.get i) use_best_fit) :=
  (ArrProof.OvertoppingTaw2002_calculate_dimensionless_crest_freeboard Hm0 Tmm10 q cot_alpha beta B_berm db
      gamma_beta gamma_b gamma_f gamma_v sigma g use_best_fit h_cot_alpha h_beta h_gamma_beta h_berm
      h_shape).sub

example := C85_OvertoppingTaw2002_calculate_dimensionless_crest_freeboard_no_false_alarm_partial (n := 2)
  ArrEx.two ArrEx.two ArrEx.two ArrEx.two ArrEx.two 0.0 ArrEx.two ArrEx.two (.fin 1) ArrEx.two ArrEx.two
  (.fin 1) ArrEx.two true (by arr_ex) (by arr_ex) (by arr_ex) (by arr_ex) (by arr_ex)

theorem C85_OvertoppingTaw2002_calculate_crest_freeboard_Rc_no_false_alarm_partial [NeZero n] (Hm0 Tmm10 q
    cot_alpha beta : Val n) (B_berm : PF) (db gamma_beta : Val n) (gamma_b : PF) (gamma_f gamma_v : Val n)
    (sigma : PF) (g : Val n) (use_best_fit : Bool)
    (h_cot_alpha : cot_alpha.Uniform)
    (h_beta : beta.Uniform)
    (h_gamma_beta : gamma_beta.Uniform)
    (h_berm : ¬ gamma_b.isnan ∨ PF.eqF B_berm 0.0)
    (h_shape : gamma_v.isArray || g.isArray → Hm0.isArray || Tmm10.isArray || q.isArray || cot_alpha.isArray
      ||
      gamma_f.isArray) :
    NoFalseAlarm (Arr.OvertoppingTaw2002.calculate_crest_freeboard_Rc Hm0 Tmm10 q cot_alpha Val.nan Val.nan
      beta (.num B_berm) db
        gamma_beta (.num gamma_b) gamma_f gamma_v (.num sigma) g use_best_fit)
      (fun i => OvertoppingTaw2002.calculate_crest_freeboard_Rc (Hm0.get i) (Tmm10.get i) (q.get i)
        (cot_alpha.get i) PF.nan
        PF.nan (beta.get i) B_berm (db.get i) (gamma_beta.get i) gamma_b (gamma_f.get i)
        (gamma_v.get i) sigma (g.get i) use_best_fit) :=
  (ArrProof.OvertoppingTaw2002_calculate_crest_freeboard_Rc Hm0 Tmm10 q cot_alpha beta B_berm db gamma_beta
      gamma_b gamma_f gamma_v sigma g use_best_fit h_cot_alpha h_beta h_gamma_beta h_berm h_shape).sub

example := C85_OvertoppingTaw2002_calculate_crest_freeboard_Rc_no_false_alarm_partial (n := 2) ArrEx.two
  ArrEx.two ArrEx.two ArrEx.two ArrEx.two 0.0 ArrEx.two ArrEx.two (.fin 1) ArrEx.two ArrEx.two (.fin 1)
  ArrEx.two true (by arr_ex) (by arr_ex) (by arr_ex) (by arr_ex) (by arr_ex)

theorem C85_OvertoppingEurOtop2018_calculate_influence_oblique_waves_gamma_beta_no_false_alarm_partial [NeZero
    n] (beta : Val n) (gamma_f gamma_f_crit smooth rough max_angle : PF) :
    NoFalseAlarm (Arr.OvertoppingEurOtop2018.calculate_influence_oblique_waves_gamma_beta beta (.num gamma_f)
        gamma_f_crit smooth rough max_angle)
      (fun i => pure (OvertoppingEurOtop2018.calculate_influence_oblique_waves_gamma_beta (beta.get i)
        gamma_f gamma_f_crit smooth rough max_angle)) :=
  (ArrProof.OvertoppingEurOtop2018_calculate_influence_oblique_waves_gamma_beta (U := False) beta gamma_f
      gamma_f_crit smooth rough max_angle).sub

theorem C85_OvertoppingEurOtop2018_calculate_influence_oblique_waves_gamma_beta_partial [NeZero n] (beta : Val
    n) (gamma_f gamma_f_crit smooth rough max_angle : PF) :
    SameWarnings (Arr.OvertoppingEurOtop2018.calculate_influence_oblique_waves_gamma_beta beta (.num gamma_f)
        gamma_f_crit smooth rough max_angle)
      (fun i => pure (OvertoppingEurOtop2018.calculate_influence_oblique_waves_gamma_beta (beta.get i)
        gamma_f gamma_f_crit smooth rough max_angle)) :=
  (ArrProof.OvertoppingEurOtop2018_calculate_influence_oblique_waves_gamma_beta (U := True) beta gamma_f
      gamma_f_crit smooth rough max_angle).same trivial

theorem C85_RunupEurOtop2018_iteration_procedure_gamma_b_no_false_alarm_partial [NeZero n] (Hm0 Tmm10
    cot_alpha_average : Val n) (B_berm : PF) (L_berm db gamma_beta : Val n) (c1 c2 c3 c4 : PF) (use_best_fit :
    Bool) (gamma_f : Val n) (hB : PF.eqF B_berm 0.0) :
    NoFalseAlarm (Arr.RunupEurOtop2018.iteration_procedure_gamma_b Hm0 Tmm10 cot_alpha_average (.num B_berm)
      L_berm db gamma_beta c1 c2 c3 c4 use_best_fit gamma_f)
      (fun i => RunupEurOtop2018.iteration_procedure_gamma_b (Hm0.get i) (Tmm10.get i)
        (cot_alpha_average.get i) B_berm (L_berm.get i) (db.get i) (gamma_beta.get i) c1 c2 c3 c4
        use_best_fit (gamma_f.get i)) :=
  (ArrProof.RunupEurOtop2018_iteration_procedure_gamma_b (U := False) Hm0 Tmm10 cot_alpha_average B_berm
      L_berm db gamma_beta c1 c2 c3 c4 use_best_fit gamma_f hB).sub

example := C85_RunupEurOtop2018_iteration_procedure_gamma_b_no_false_alarm_partial (n := 2) ArrEx.two
  ArrEx.two ArrEx.two 0.0 ArrEx.two ArrEx.two ArrEx.two (.fin 1) (.fin 1) (.fin 1) (.fin 1) true ArrEx.two
  (by arr_ex)

theorem C85_RunupEurOtop2018_iteration_procedure_gamma_b_partial [NeZero n] (Hm0 Tmm10 cot_alpha_average : Val
    n) (B_berm : PF) (L_berm db gamma_beta : Val n) (c1 c2 c3 c4 : PF) (use_best_fit : Bool) (gamma_f : Val n)
    (hB : PF.eqF B_berm 0.0) :
    SameWarnings (Arr.RunupEurOtop2018.iteration_procedure_gamma_b Hm0 Tmm10 cot_alpha_average (.num B_berm)
      L_berm db gamma_beta c1 c2 c3 c4 use_best_fit gamma_f)
      (fun i => RunupEurOtop2018.iteration_procedure_gamma_b (Hm0.get i) (Tmm10.get i)
        (cot_alpha_average.get i) B_berm (L_berm.get i) (db.get i) (gamma_beta.get i) c1 c2 c3 c4
        use_best_fit (gamma_f.get i)) :=
  (ArrProof.RunupEurOtop2018_iteration_procedure_gamma_b (U := True) Hm0 Tmm10 cot_alpha_average B_berm L_berm
      db gamma_beta c1 c2 c3 c4 use_best_fit gamma_f hB).same trivial

example := C85_RunupEurOtop2018_iteration_procedure_gamma_b_partial (n := 2) ArrEx.two ArrEx.two ArrEx.two
  0.0 ArrEx.two ArrEx.two ArrEx.two (.fin 1) (.fin 1) (.fin 1) (.fin 1) true ArrEx.two (by arr_ex)

theorem C85_RunupTaw2002_iteration_procedure_gamma_b_no_false_alarm_partial [NeZero n] (Hm0 Tmm10
    cot_alpha_average : Val n) (B_berm : PF) (L_berm db gamma_beta : Val n) (c1 c2 c3 c4 : PF) (use_best_fit :
    Bool) (gamma_f : Val n) (hB : PF.eqF B_berm 0.0) :
    NoFalseAlarm (Arr.RunupTaw2002.iteration_procedure_gamma_b Hm0 Tmm10 cot_alpha_average (.num B_berm)
      L_berm db gamma_beta c1 c2 c3 c4 use_best_fit gamma_f)
      (fun i => RunupTaw2002.iteration_procedure_gamma_b (Hm0.get i) (Tmm10.get i)
        (cot_alpha_average.get i) B_berm (L_berm.get i) (db.get i) (gamma_beta.get i) c1 c2 c3 c4
        use_best_fit (gamma_f.get i)) :=
  (ArrProof.RunupTaw2002_iteration_procedure_gamma_b (U := False) Hm0 Tmm10 cot_alpha_average B_berm L_berm db
      gamma_beta c1 c2 c3 c4 use_best_fit gamma_f hB).sub

example := C85_RunupTaw2002_iteration_procedure_gamma_b_no_false_alarm_partial (n := 2) ArrEx.two ArrEx.two
  ArrEx.two 0.0 ArrEx.two ArrEx.two ArrEx.two (.fin 1) (.fin 1) (.fin 1) (.fin 1) true ArrEx.two (by arr_ex)

theorem C85_RunupTaw2002_iteration_procedure_gamma_b_partial [NeZero n] (Hm0 Tmm10 cot_alpha_average : Val n)
    (B_berm : PF) (L_berm db gamma_beta : Val n) (c1 c2 c3 c4 : PF) (use_best_fit : Bool) (gamma_f : Val n)
    (hB : PF.eqF B_berm 0.0) :
    SameWarnings (Arr.RunupTaw2002.iteration_procedure_gamma_b Hm0 Tmm10 cot_alpha_average (.num B_berm)
      L_berm db gamma_beta c1 c2 c3 c4 use_best_fit gamma_f)
      (fun i => RunupTaw2002.iteration_procedure_gamma_b (Hm0.get i) (Tmm10.get i)
        (cot_alpha_average.get i) B_berm (L_berm.get i) (db.get i) (gamma_beta.get i) c1 c2 c3 c4
        use_best_fit (gamma_f.get i)) :=
  (ArrProof.RunupTaw2002_iteration_procedure_gamma_b (U := True) Hm0 Tmm10 cot_alpha_average B_berm L_berm db
      gamma_beta c1 c2 c3 c4 use_best_fit gamma_f hB).same trivial

example := C85_RunupTaw2002_iteration_procedure_gamma_b_partial (n := 2) ArrEx.two ArrEx.two ArrEx.two 0.0
  ArrEx.two ArrEx.two ArrEx.two (.fin 1) (.fin 1) (.fin 1) (.fin 1) true ArrEx.two (by arr_ex)

theorem C85_OvertoppingEurOtop2018_calculate_dimensionless_overtopping_discharge_q_no_false_alarm_partial
    [NeZero n] (Hm0 Tmm10 Rc beta gamma_beta gamma_b : Val n) (gamma_f : PF) (gamma_v gamma_star : Val n)
    (B_berm : PF) (db cot_alpha : Val n) (c1 c2 c3 c4 : PF) (use_best_fit : Bool)
    (h_beta : beta.Uniform)
    (h_gamma_beta : gamma_beta.Uniform)
    (h_cot_alpha : cot_alpha.Uniform)
    (h_berm : PF.eqF B_berm 0.0)
    (h_shape : Tmm10.isArray || cot_alpha.isArray || gamma_v.isArray || gamma_star.isArray → Hm0.isArray ||
      Rc.isArray) :
    NoFalseAlarm (Arr.OvertoppingEurOtop2018.calculate_dimensionless_overtopping_discharge_q Hm0 Tmm10 Rc beta
      gamma_beta gamma_b (.num gamma_f)
        gamma_v gamma_star (.num B_berm) db cot_alpha Val.nan Val.nan c1 c2 c3 c4 use_best_fit)
      (fun i => OvertoppingEurOtop2018.calculate_dimensionless_overtopping_discharge_q (Hm0.get i) (Tmm10.get
        i) (Rc.get i) (beta.get i)
        (gamma_beta.get i) (gamma_b.get i) gamma_f (gamma_v.get i) (gamma_star.get i) B_berm (db.get i)
        (cot_alpha.get i) PF.nan PF.nan c1 c2 c3 c4 use_best_fit) :=
  (ArrProof.OvertoppingEurOtop2018_calculate_dimensionless_overtopping_discharge_q Hm0 Tmm10 Rc beta
      gamma_beta gamma_b gamma_f gamma_v gamma_star B_berm db cot_alpha c1 c2 c3 c4 use_best_fit h_beta
      h_gamma_beta h_cot_alpha h_berm h_shape).sub

example := C85_OvertoppingEurOtop2018_calculate_dimensionless_overtopping_discharge_q_no_false_alarm_partial
  (n := 2) ArrEx.two ArrEx.two ArrEx.two ArrEx.two ArrEx.two ArrEx.two (.fin 1) ArrEx.two ArrEx.two 0.0
  ArrEx.two ArrEx.two (.fin 1) (.fin 1) (.fin 1) (.fin 1) true (by arr_ex) (by arr_ex) (by arr_ex) (by
  arr_ex) (by arr_ex)

theorem C85_OvertoppingEurOtop2018_calculate_overtopping_discharge_q_no_false_alarm_partial [NeZero n] (Hm0
    Tmm10 Rc beta gamma_beta gamma_b : Val n) (gamma_f : PF) (gamma_v gamma_star : Val n) (B_berm : PF) (db
    cot_alpha : Val n) (c1 c2 c3 c4 : PF) (use_best_fit : Bool) (g : Val n)
    (h_beta : beta.Uniform)
    (h_gamma_beta : gamma_beta.Uniform)
    (h_cot_alpha : cot_alpha.Uniform)
    (h_berm : PF.eqF B_berm 0.0)
    (h_shape : Tmm10.isArray || cot_alpha.isArray || gamma_v.isArray || gamma_star.isArray → Hm0.isArray ||
      Rc.isArray) :
    NoFalseAlarm (Arr.OvertoppingEurOtop2018.calculate_overtopping_discharge_q Hm0 Tmm10 Rc beta gamma_beta
      gamma_b (.num gamma_f)
        gamma_v gamma_star (.num B_berm) db cot_alpha Val.nan Val.nan c1 c2 c3 c4 use_best_fit g)
      (fun i => OvertoppingEurOtop2018.calculate_overtopping_discharge_q (Hm0.get i) (Tmm10.get i) (Rc.get i)
        (beta.get i)
        (gamma_beta.get i) (gamma_b.get i) gamma_f (gamma_v.get i) (gamma_star.get i) B_berm (db.get i)
        (cot_alpha.get i) PF.nan PF.nan c1 c2 c3 c4 use_best_fit (g.get i)) :=
  (ArrProof.OvertoppingEurOtop2018_calculate_overtopping_discharge_q Hm0 Tmm10 Rc beta gamma_beta gamma_b
      gamma_f gamma_v gamma_star B_berm db cot_alpha c1 c2 c3 c4 use_best_fit g h_beta h_gamma_beta
      h_cot_alpha h_berm h_shape).sub

example := C85_OvertoppingEurOtop2018_calculate_overtopping_discharge_q_no_false_alarm_partial (n := 2)
  ArrEx.two ArrEx.two ArrEx.two ArrEx.two ArrEx.two ArrEx.two (.fin 1) ArrEx.two ArrEx.two 0.0 ArrEx.two
  ArrEx.two (.fin 1) (.fin 1) (.fin 1) (.fin 1) true ArrEx.two (by arr_ex) (by arr_ex) (by arr_ex) (by
  arr_ex) (by arr_ex)

theorem C85_OvertoppingEurOtop2018_calculate_dimensionless_crest_freeboard_no_false_alarm_partial [NeZero n]
    (Hm0 Tmm10 q beta gamma_beta gamma_b : Val n) (gamma_f : PF) (gamma_v gamma_star : Val n) (B_berm : PF)
    (db cot_alpha : Val n) (c1 c2 c3 c4 : PF) (use_best_fit : Bool) (g : Val n)
    (h_beta : beta.Uniform)
    (h_gamma_beta : gamma_beta.Uniform)
    (h_cot_alpha : cot_alpha.Uniform)
    (h_berm : PF.eqF B_berm 0.0)
    (h_shape : gamma_v.isArray || gamma_star.isArray →
      Hm0.isArray || Tmm10.isArray || q.isArray || cot_alpha.isArray || g.isArray) :
    NoFalseAlarm (Arr.OvertoppingEurOtop2018.calculate_dimensionless_crest_freeboard Hm0 Tmm10 q beta
      gamma_beta gamma_b (.num gamma_f)
        gamma_v gamma_star (.num B_berm) db cot_alpha Val.nan Val.nan c1 c2 c3 c4 use_best_fit g)
      (fun i => OvertoppingEurOtop2018.calculate_dimensionless_crest_freeboard (Hm0.get i) (Tmm10.get i)
        (q.get i) (beta.get i)
        (gamma_beta.get i) (gamma_b.get i) gamma_f (gamma_v.get i) (gamma_star.get i) B_berm (db.get i)
        (cot_alpha.get i) PF.nan PF.nan c1 c2 c3 c4 use_best_fit (g.get i)) :=
  (ArrProof.OvertoppingEurOtop2018_calculate_dimensionless_crest_freeboard Hm0 Tmm10 q beta gamma_beta gamma_b
      gamma_f gamma_v gamma_star B_berm db cot_alpha c1 c2 c3 c4 use_best_fit g h_beta h_gamma_beta
      h_cot_alpha h_berm h_shape).sub

example := C85_OvertoppingEurOtop2018_calculate_dimensionless_crest_freeboard_no_false_alarm_partial (n :=
  2) ArrEx.two ArrEx.two ArrEx.two ArrEx.two ArrEx.two ArrEx.two (.fin 1) ArrEx.two ArrEx.two 0.0 ArrEx.two
  ArrEx.two (.fin 1) (.fin 1) (.fin 1) (.fin 1) true ArrEx.two (by arr_ex) (by arr_ex) (by arr_ex) (by
  arr_ex) (by arr_ex)

theorem C85_OvertoppingEurOtop2018_calculate_crest_freeboard_Rc_no_false_alarm_partial [NeZero n] (Hm0 Tmm10 q
    beta gamma_beta gamma_b : Val n) (gamma_f : PF) (gamma_v gamma_star : Val n) (B_berm : PF) (db cot_alpha :
    Val n) (c1 c2 c3 c4 : PF) (use_best_fit : Bool) (g : Val n)
    (h_beta : beta.Uniform)
    (h_gamma_beta : gamma_beta.Uniform)
    (h_cot_alpha : cot_alpha.Uniform)
    (h_berm : PF.eqF B_berm 0.0)
    (h_shape : gamma_v.isArray || gamma_star.isArray →
      Hm0.isArray || Tmm10.isArray || q.isArray || cot_alpha.isArray || g.isArray) :
    NoFalseAlarm (Arr.OvertoppingEurOtop2018.calculate_crest_freeboard_Rc Hm0 Tmm10 q beta gamma_beta gamma_b
      (.num gamma_f)
        gamma_v gamma_star (.num B_berm) db cot_alpha Val.nan Val.nan c1 c2 c3 c4 use_best_fit g)
      (fun i => OvertoppingEurOtop2018.calculate_crest_freeboard_Rc (Hm0.get i) (Tmm10.get i) (q.get i)
        (beta.get i)
        (gamma_beta.get i) (gamma_b.get i) gamma_f (gamma_v.get i) (gamma_star.get i) B_berm (db.get i)
        (cot_alpha.get i) PF.nan PF.nan c1 c2 c3 c4 use_best_fit (g.get i)) :=
  (ArrProof.OvertoppingEurOtop2018_calculate_crest_freeboard_Rc Hm0 Tmm10 q beta gamma_beta gamma_b gamma_f
      gamma_v gamma_star B_berm db cot_alpha c1 c2 c3 c4 use_best_fit g h_beta h_gamma_beta h_cot_alpha h_berm
      h_shape).sub

theorem
    C85_OvertoppingEurOtop2018_calculate_dimensionless_overtopping_discharge_q_rubble_mound_no_false_alarm_partial
    [NeZero n] (Hm0 Tmm10 Rc beta gamma_beta : Val n) (gamma_f : PF) (B_berm db cot_alpha : Val n) (c2 c3 :
    PF) (use_best_fit : Bool)
    (h_beta : beta.Uniform)
    (h_gamma_beta : gamma_beta.Uniform)
    (h_cot_alpha : cot_alpha.Uniform) :
    NoFalseAlarm (Arr.OvertoppingEurOtop2018.calculate_dimensionless_overtopping_discharge_q_rubble_mound Hm0
      Tmm10 Rc beta gamma_beta (.num gamma_f) B_berm db
        cot_alpha Val.nan Val.nan c2 c3 use_best_fit)
      (fun i => OvertoppingEurOtop2018.calculate_dimensionless_overtopping_discharge_q_rubble_mound (Hm0.get
        i) (Tmm10.get i) (Rc.get i) (beta.get i)
        (gamma_beta.get i) gamma_f (B_berm.get i) (db.get i) (cot_alpha.get i) PF.nan PF.nan c2 c3
        use_best_fit) :=
  (ArrProof.OvertoppingEurOtop2018_calculate_dimensionless_overtopping_discharge_q_rubble_mound Hm0 Tmm10 Rc
      beta gamma_beta gamma_f B_berm db cot_alpha c2 c3 use_best_fit h_beta h_gamma_beta h_cot_alpha).sub

example := C85_OvertoppingEurOtop2018_calculate_crest_freeboard_Rc_no_false_alarm_partial (n := 2) ArrEx.two
  ArrEx.two ArrEx.two ArrEx.two ArrEx.two ArrEx.two (.fin 1) ArrEx.two ArrEx.two 0.0 ArrEx.two ArrEx.two
  (.fin 1) (.fin 1) (.fin 1) (.fin 1) true ArrEx.two (by arr_ex) (by arr_ex) (by arr_ex) (by arr_ex) (by
  arr_ex)

theorem C85_OvertoppingEurOtop2018_calculate_overtopping_discharge_q_rubble_mound_no_false_alarm_partial
    [NeZero n] (Hm0 Tmm10 Rc beta gamma_beta : Val n) (gamma_f : PF) (B_berm db cot_alpha : Val n) (c2 c3 :
    PF) (use_best_fit : Bool) (g : Val n)
    (h_beta : beta.Uniform)
    (h_gamma_beta : gamma_beta.Uniform)
    (h_cot_alpha : cot_alpha.Uniform) :
    NoFalseAlarm (Arr.OvertoppingEurOtop2018.calculate_overtopping_discharge_q_rubble_mound Hm0 Tmm10 Rc beta
      gamma_beta (.num gamma_f) B_berm db
        cot_alpha Val.nan Val.nan c2 c3 use_best_fit g)
      (fun i => OvertoppingEurOtop2018.calculate_overtopping_discharge_q_rubble_mound (Hm0.get i) (Tmm10.get
        i) (Rc.get i) (beta.get i)
        (gamma_beta.get i) gamma_f (B_berm.get i) (db.get i) (cot_alpha.get i) PF.nan PF.nan c2 c3
        use_best_fit (g.get i)) :=
  (ArrProof.OvertoppingEurOtop2018_calculate_overtopping_discharge_q_rubble_mound Hm0 Tmm10 Rc beta gamma_beta
      gamma_f B_berm db cot_alpha c2 c3 use_best_fit g h_beta h_gamma_beta h_cot_alpha).sub

example := C85_OvertoppingEurOtop2018_calculate_overtopping_discharge_q_rubble_mound_no_false_alarm_partial
  (n := 2) ArrEx.two ArrEx.two ArrEx.two ArrEx.two ArrEx.two (.fin 1) ArrEx.two ArrEx.two ArrEx.two (.fin 1)
  (.fin 1) true ArrEx.two (by arr_ex) (by arr_ex) (by arr_ex)

theorem C85_OvertoppingEurOtop2018_calculate_dimensionless_crest_freeboard_rubble_mound_no_false_alarm_partial
    [NeZero n] (Hm0 Tmm10 q beta gamma_beta : Val n) (gamma_f : PF) (B_berm db cot_alpha : Val n) (c2 c3 : PF)
    (use_best_fit : Bool) (g : Val n)
    (h_beta : beta.Uniform)
    (h_gamma_beta : gamma_beta.Uniform)
    (h_cot_alpha : cot_alpha.Uniform) :
    NoFalseAlarm (Arr.OvertoppingEurOtop2018.calculate_dimensionless_crest_freeboard_rubble_mound Hm0 Tmm10 q
      beta gamma_beta (.num gamma_f) B_berm db
        cot_alpha Val.nan Val.nan c2 c3 use_best_fit g)
      (fun i => OvertoppingEurOtop2018.calculate_dimensionless_crest_freeboard_rubble_mound (Hm0.get i)
        (Tmm10.get i) (q.get i) (beta.get i)
        (gamma_beta.get i) gamma_f (B_berm.get i) (db.get i) (cot_alpha.get i) PF.nan PF.nan c2 c3
        use_best_fit (g.get i)) :=
  (ArrProof.OvertoppingEurOtop2018_calculate_dimensionless_crest_freeboard_rubble_mound Hm0 Tmm10 q beta
      gamma_beta gamma_f B_berm db cot_alpha c2 c3 use_best_fit g h_beta h_gamma_beta h_cot_alpha).sub

example :=
  C85_OvertoppingEurOtop2018_calculate_dimensionless_crest_freeboard_rubble_mound_no_false_alarm_partial (n
  := 2) ArrEx.two ArrEx.two ArrEx.two ArrEx.two ArrEx.two (.fin 1) ArrEx.two ArrEx.two ArrEx.two (.fin 1)
  (.fin 1) true ArrEx.two (by arr_ex) (by arr_ex) (by arr_ex)

theorem C85_OvertoppingEurOtop2018_calculate_crest_freeboard_Rc_rubble_mound_no_false_alarm_partial [NeZero n]
    (Hm0 Tmm10 q beta gamma_beta : Val n) (gamma_f : PF) (B_berm db cot_alpha : Val n) (c2 c3 : PF)
    (use_best_fit : Bool) (g : Val n)
    (h_beta : beta.Uniform)
    (h_gamma_beta : gamma_beta.Uniform)
    (h_cot_alpha : cot_alpha.Uniform) :
    NoFalseAlarm (Arr.OvertoppingEurOtop2018.calculate_crest_freeboard_Rc_rubble_mound Hm0 Tmm10 q beta
      gamma_beta (.num gamma_f) B_berm db
        cot_alpha Val.nan Val.nan c2 c3 use_best_fit g)
      (fun i => OvertoppingEurOtop2018.calculate_crest_freeboard_Rc_rubble_mound (Hm0.get i) (Tmm10.get i)
        (q.get i) (beta.get i)
        (gamma_beta.get i) gamma_f (B_berm.get i) (db.get i) (cot_alpha.get i) PF.nan PF.nan c2 c3
        use_best_fit (g.get i)) :=
  (ArrProof.OvertoppingEurOtop2018_calculate_crest_freeboard_Rc_rubble_mound Hm0 Tmm10 q beta gamma_beta
      gamma_f B_berm db cot_alpha c2 c3 use_best_fit g h_beta h_gamma_beta h_cot_alpha).sub

example := C85_OvertoppingEurOtop2018_calculate_crest_freeboard_Rc_rubble_mound_no_false_alarm_partial (n :=
  2) ArrEx.two ArrEx.two ArrEx.two ArrEx.two ArrEx.two (.fin 1) ArrEx.two ArrEx.two ArrEx.two (.fin 1) (.fin
  1) true ArrEx.two (by arr_ex) (by arr_ex) (by arr_ex)

theorem C85_Goda1985_check_validity_range_no_false_alarm [NeZero n] (beta cota_seabed Tmax tup Bup h_s B1 :
    Val n) :
    NoFalseAlarm (Arr.Goda1985.check_validity_range beta cota_seabed Tmax tup Bup h_s B1)
      (fun i => Goda1985.check_validity_range (beta.get i) (cota_seabed.get i) (Tmax.get i) (tup.get i)
        (Bup.get i) (h_s.get i) (B1.get i)) :=
  (ArrProof.Goda1985_check_validity_range (U := False) beta cota_seabed Tmax tup Bup h_s B1 (fun h =>
      h.elim)).sub

theorem C85_Goda1985_check_validity_range [NeZero n] (beta cota_seabed Tmax tup Bup h_s B1 : Val n)
    (given : ∀ x ∈ [beta, cota_seabed, Tmax, tup, Bup, h_s, B1], Val.Uniform x) :
    SameWarnings (Arr.Goda1985.check_validity_range beta cota_seabed Tmax tup Bup h_s B1)
      (fun i => Goda1985.check_validity_range (beta.get i) (cota_seabed.get i) (Tmax.get i) (tup.get i)
        (Bup.get i) (h_s.get i) (B1.get i)) :=
  (ArrProof.Goda1985_check_validity_range (U := True) beta cota_seabed Tmax tup Bup h_s B1 (fun _ =>
      given)).same trivial

example := C85_Goda1985_check_validity_range (n := 2) ArrEx.two ArrEx.two ArrEx.two ArrEx.two ArrEx.two
  ArrEx.two ArrEx.two (by arr_ex)

theorem C85_Goda1985_check_impulsive_breaking_no_false_alarm_partial [NeZero n] (beta B1 L cota_seabed
    offshore_wave_steepness Rc Hsi d h_s : PF) :
    NoFalseAlarm (Arr.Goda1985.check_impulsive_breaking (n := n) (.num beta) (.num B1) (.num L) (.num
      cota_seabed)
        (.num offshore_wave_steepness) (.num Rc) (.num Hsi) (.num d) (.num h_s))
      (fun _ : Fin n => Goda1985.check_impulsive_breaking beta B1 L cota_seabed offshore_wave_steepness Rc Hsi
        d h_s) :=
  (ArrProof.Goda1985_check_impulsive_breaking (U := False) beta B1 L cota_seabed offshore_wave_steepness Rc
      Hsi d h_s).sub

theorem C85_Goda1985_check_impulsive_breaking_partial [NeZero n] (beta B1 L cota_seabed
    offshore_wave_steepness Rc Hsi d h_s : PF) :
    SameWarnings (Arr.Goda1985.check_impulsive_breaking (n := n) (.num beta) (.num B1) (.num L) (.num
      cota_seabed)
        (.num offshore_wave_steepness) (.num Rc) (.num Hsi) (.num d) (.num h_s))
      (fun _ : Fin n => Goda1985.check_impulsive_breaking beta B1 L cota_seabed offshore_wave_steepness Rc Hsi
        d h_s) :=
  (ArrProof.Goda1985_check_impulsive_breaking (U := True) beta B1 L cota_seabed offshore_wave_steepness Rc Hsi
      d h_s).same trivial

theorem C85_Goda1985_calculate_bearing_pressures_no_false_alarm_partial [NeZero n] (Wup tup MH MU FU Bup : PF)
    :
    NoFalseAlarm (Arr.Goda1985.calculate_bearing_pressures (.num Wup : Val n) (.num tup) (.num MH) (.num MU)
        (.num FU) (.num Bup))
      (fun _ : Fin n => pure (Goda1985.calculate_bearing_pressures Wup tup MH MU FU Bup)) :=
  (ArrProof.Goda1985_calculate_bearing_pressures (U := False) Wup tup MH MU FU Bup).sub

theorem C85_Goda1985_calculate_bearing_pressures_partial [NeZero n] (Wup tup MH MU FU Bup : PF) :
    SameWarnings (Arr.Goda1985.calculate_bearing_pressures (.num Wup : Val n) (.num tup) (.num MH) (.num MU)
        (.num FU) (.num Bup))
      (fun _ : Fin n => pure (Goda1985.calculate_bearing_pressures Wup tup MH MU FU Bup)) :=
  (ArrProof.Goda1985_calculate_bearing_pressures (U := True) Wup tup MH MU FU Bup).same trivial

theorem C85_Goda1985_calculate_pressures_and_forces_no_false_alarm_partial [NeZero n] (disper : PF → PF → PF →
    PF) (HD Hsi Tmax beta h_s d B1 cota_seabed : PF) (rho_water hacc : Val n) (Rc : PF) (Bup : Val n)
    (offshore_wave_steepness g : PF) :
    NoFalseAlarm (Arr.Goda1985.calculate_pressures_and_forces disper (.num HD) (.num Hsi) (.num Tmax)
        (.num beta) (.num h_s) (.num d) (.num B1) (.num cota_seabed) rho_water hacc (.num Rc) Bup
        (.num offshore_wave_steepness) g)
      (fun i => Goda1985.calculate_pressures_and_forces disper HD Hsi Tmax beta h_s d B1 cota_seabed
        (rho_water.get i) (hacc.get i) Rc (Bup.get i) offshore_wave_steepness g) :=
  (ArrProof.Goda1985_calculate_pressures_and_forces (U := False) disper HD Hsi Tmax beta h_s d B1 cota_seabed
      rho_water hacc Rc Bup offshore_wave_steepness g).sub

theorem C85_Goda1985_calculate_pressures_and_forces_partial [NeZero n] (disper : PF → PF → PF → PF) (HD Hsi
    Tmax beta h_s d B1 cota_seabed : PF) (rho_water hacc : Val n) (Rc : PF) (Bup : Val n)
    (offshore_wave_steepness g : PF) :
    SameWarnings (Arr.Goda1985.calculate_pressures_and_forces disper (.num HD) (.num Hsi) (.num Tmax)
        (.num beta) (.num h_s) (.num d) (.num B1) (.num cota_seabed) rho_water hacc (.num Rc) Bup
        (.num offshore_wave_steepness) g)
      (fun i => Goda1985.calculate_pressures_and_forces disper HD Hsi Tmax beta h_s d B1 cota_seabed
        (rho_water.get i) (hacc.get i) Rc (Bup.get i) offshore_wave_steepness g) :=
  (ArrProof.Goda1985_calculate_pressures_and_forces (U := True) disper HD Hsi Tmax beta h_s d B1 cota_seabed
      rho_water hacc Rc Bup offshore_wave_steepness g).same trivial

theorem C85_Goda1985_calculate_forces_and_reactions_no_false_alarm_partial [NeZero n] (disper : PF → PF → PF →
    PF) (HD Hsi Tmax beta h_s d B1 cota_seabed rho_water hacc Rc Bup rho_fill_above_SWL
      rho_fill_below_SWL offshore_wave_steepness : PF) (muf : Val n) (tup_over_Bup g : PF) :
    NoFalseAlarm (Arr.Goda1985.calculate_forces_and_reactions disper (.num HD) (.num Hsi) (.num Tmax)
        (.num beta) (.num h_s) (.num d) (.num B1) (.num cota_seabed) (.num rho_water) (.num hacc)
        (.num Rc) (.num Bup) (.num rho_fill_above_SWL) (.num rho_fill_below_SWL)
        (.num offshore_wave_steepness) muf (.num tup_over_Bup) g)
      (fun i => Goda1985.calculate_forces_and_reactions disper HD Hsi Tmax beta h_s d B1 cota_seabed
        rho_water hacc Rc Bup rho_fill_above_SWL rho_fill_below_SWL offshore_wave_steepness (muf.get i)
        tup_over_Bup g) :=
  (ArrProof.Goda1985_calculate_forces_and_reactions (U := False) disper HD Hsi Tmax beta h_s d B1 cota_seabed
      rho_water hacc Rc Bup rho_fill_above_SWL rho_fill_below_SWL offshore_wave_steepness muf tup_over_Bup
      g).sub

theorem C85_Goda1985_calculate_forces_and_reactions_partial [NeZero n] (disper : PF → PF → PF → PF) (HD Hsi
    Tmax beta h_s d B1 cota_seabed rho_water hacc Rc Bup rho_fill_above_SWL
      rho_fill_below_SWL offshore_wave_steepness : PF) (muf : Val n) (tup_over_Bup g : PF) :
    SameWarnings (Arr.Goda1985.calculate_forces_and_reactions disper (.num HD) (.num Hsi) (.num Tmax)
        (.num beta) (.num h_s) (.num d) (.num B1) (.num cota_seabed) (.num rho_water) (.num hacc)
        (.num Rc) (.num Bup) (.num rho_fill_above_SWL) (.num rho_fill_below_SWL)
        (.num offshore_wave_steepness) muf (.num tup_over_Bup) g)
      (fun i => Goda1985.calculate_forces_and_reactions disper HD Hsi Tmax beta h_s d B1 cota_seabed
        rho_water hacc Rc Bup rho_fill_above_SWL rho_fill_below_SWL offshore_wave_steepness (muf.get i)
        tup_over_Bup g) :=
  (ArrProof.Goda1985_calculate_forces_and_reactions (U := True) disper HD Hsi Tmax beta h_s d B1 cota_seabed
      rho_water hacc Rc Bup rho_fill_above_SWL rho_fill_below_SWL offshore_wave_steepness muf tup_over_Bup
      g).same trivial

end
