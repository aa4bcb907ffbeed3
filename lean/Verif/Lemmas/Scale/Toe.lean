import Verif.Lemmas.Scale
import Verif.Model.Toe
/-! Dimensions of the quantities of `Verif/Model/Toe.lean`. -/

open Classical
open PF
open CorePhysics CoreUtility
noncomputable section

namespace ScaleProof

variable {l : {x : ℝ // 0 < x}}
set_option maxHeartbeats 1000000

theorem Gerding1993_check_validity (ht h Dn50 : PF) :
    Gerding1993.check_validity (sc l 1 ht) (sc l 1 h) (sc l 1 Dn50) =
      Gerding1993.check_validity ht h Dn50 := by
  unfold Gerding1993.check_validity
  dims [map_bind, map_pure, bind_map_left]

theorem Gerding1993_calculate_damage_Nod (Hs ht h Dn50 rho_rock rho_water : PF) :
    Gerding1993.calculate_damage_Nod (sc l 1 Hs) (sc l 1 ht) (sc l 1 h) (sc l 1 Dn50) rho_rock rho_water =
      Gerding1993.calculate_damage_Nod Hs ht h Dn50 rho_rock rho_water := by
  unfold Gerding1993.calculate_damage_Nod Gerding1993.check_validity
  dims [map_bind, map_pure, bind_map_left, Gerding1993_check_validity]

theorem Gerding1993_calculate_nominal_diameter_Dn50 (Hs ht h Nod rho_rock rho_water : PF) :
    Gerding1993.calculate_nominal_diameter_Dn50 (sc l 1 Hs) (sc l 1 ht) (sc l 1 h) Nod rho_rock rho_water =
      sc l 1  <$> Gerding1993.calculate_nominal_diameter_Dn50 Hs ht h Nod rho_rock rho_water := by
  unfold Gerding1993.calculate_nominal_diameter_Dn50 Gerding1993.check_validity
  dims [map_bind, map_pure, bind_map_left, Gerding1993_check_validity]

theorem Gerding1993_calculate_wave_height_Hs (Dn50 ht h Nod rho_rock rho_water : PF) :
    Gerding1993.calculate_wave_height_Hs (sc l 1 Dn50) (sc l 1 ht) (sc l 1 h) Nod rho_rock rho_water =
      sc l 1  <$> Gerding1993.calculate_wave_height_Hs Dn50 ht h Nod rho_rock rho_water := by
  unfold Gerding1993.calculate_wave_height_Hs Gerding1993.check_validity
  dims [map_bind, map_pure, bind_map_left, Gerding1993_check_validity]

theorem Gerding1993_calculate_depth_above_toe_ht (Hs Dn50 h Nod rho_rock rho_water : PF) :
    Gerding1993.calculate_depth_above_toe_ht (sc l 1 Hs) (sc l 1 Dn50) (sc l 1 h) Nod rho_rock rho_water =
      sc l 1  <$> Gerding1993.calculate_depth_above_toe_ht Hs Dn50 h Nod rho_rock rho_water := by
  unfold Gerding1993.calculate_depth_above_toe_ht Gerding1993.check_validity
  dims [map_bind, map_pure, bind_map_left, Gerding1993_check_validity]

theorem VanDerMeer1998_calculate_damage_Nod (Hs ht h Dn50 rho_rock rho_water : PF) :
    (VanDerMeer1998.calculate_damage_Nod (sc l 1 Hs) (sc l 1 ht) (sc l 1 h) (sc l 1 Dn50) rho_rock
        rho_water).res =
      (VanDerMeer1998.calculate_damage_Nod Hs ht h Dn50 rho_rock rho_water).res := by
  unfold VanDerMeer1998.calculate_damage_Nod VanDerMeer1998.check_validity
  dims [map_bind, map_pure, bind_map_left, res_bind, res_check, ok_bind]

theorem VanDerMeer1998_calculate_nominal_diameter_Dn50 (Hs ht h Nod rho_rock rho_water : PF) :
    (VanDerMeer1998.calculate_nominal_diameter_Dn50 (sc l 1 Hs) (sc l 1 ht) (sc l 1 h) Nod rho_rock
        rho_water).res =
      (sc l 1  <$> VanDerMeer1998.calculate_nominal_diameter_Dn50 Hs ht h Nod rho_rock rho_water).res := by
  unfold VanDerMeer1998.calculate_nominal_diameter_Dn50 VanDerMeer1998.check_validity
  dims [map_bind, map_pure, bind_map_left, res_bind, res_check, ok_bind]

theorem VanDerMeer1998_calculate_wave_height_Hs (Dn50 ht h Nod rho_rock rho_water : PF) :
    (VanDerMeer1998.calculate_wave_height_Hs (sc l 1 Dn50) (sc l 1 ht) (sc l 1 h) Nod rho_rock rho_water).res
        =
      (sc l 1  <$> VanDerMeer1998.calculate_wave_height_Hs Dn50 ht h Nod rho_rock rho_water).res := by
  unfold VanDerMeer1998.calculate_wave_height_Hs VanDerMeer1998.check_validity
  dims [map_bind, map_pure, bind_map_left, res_bind, res_check, ok_bind]

theorem VanDerMeer1998_calculate_depth_above_toe_ht (Hs Dn50 h Nod rho_rock rho_water : PF) :
    (VanDerMeer1998.calculate_depth_above_toe_ht (sc l 1 Hs) (sc l 1 Dn50) (sc l 1 h) Nod rho_rock
        rho_water).res =
      (sc l 1  <$> VanDerMeer1998.calculate_depth_above_toe_ht Hs Dn50 h Nod rho_rock rho_water).res := by
  unfold VanDerMeer1998.calculate_depth_above_toe_ht VanDerMeer1998.check_validity
  dims [map_bind, map_pure, bind_map_left, res_bind, res_check, ok_bind]

theorem VanGentVanDerWerf2014_check_validity (Hs tt ht cot_alpha_armour_slope : PF) :
    VanGentVanDerWerf2014.check_validity (sc l 1 Hs) (sc l 1 tt) (sc l 1 ht) cot_alpha_armour_slope =
      VanGentVanDerWerf2014.check_validity Hs tt ht cot_alpha_armour_slope := by
  unfold VanGentVanDerWerf2014.check_validity
  dims [map_bind, map_pure, bind_map_left]

theorem VanGentVanDerWerf2014_calculate_velocity_u_delta (Hs Tmm10 ht g : PF) :
    VanGentVanDerWerf2014.calculate_velocity_u_delta (sc l 1 Hs) (sc l (1 / 2) Tmm10) (sc l 1 ht) g =
      sc l (1 / 2) (VanGentVanDerWerf2014.calculate_velocity_u_delta Hs Tmm10 ht g) := by
  unfold VanGentVanDerWerf2014.calculate_velocity_u_delta
  dims []

theorem VanGentVanDerWerf2014_calculate_damage_Nod (Hm0 Tmm10 ht Bt tt Dn50 rho_rock rho_water
    cot_alpha_armour_slope g c1 c2 c3 c4 c5 : PF) :
    VanGentVanDerWerf2014.calculate_damage_Nod (sc l 1 Hm0) (sc l (1 / 2) Tmm10) (sc l 1 ht) (sc l 1 Bt) (sc l
        1 tt) (sc l 1 Dn50) rho_rock rho_water cot_alpha_armour_slope g c1 c2 c3 c4 c5 =
      VanGentVanDerWerf2014.calculate_damage_Nod Hm0 Tmm10 ht Bt tt Dn50 rho_rock rho_water
          cot_alpha_armour_slope g c1 c2 c3 c4 c5 := by
  unfold VanGentVanDerWerf2014.calculate_damage_Nod VanGentVanDerWerf2014.check_validity
  dims [map_bind, map_pure, bind_map_left, VanGentVanDerWerf2014_check_validity,
      VanGentVanDerWerf2014_calculate_velocity_u_delta]

theorem VanGentVanDerWerf2014_calculate_nominal_diameter_Dn50 (Hm0 Tmm10 ht Bt tt Nod rho_rock rho_water
    cot_alpha_armour_slope g : PF) :
    VanGentVanDerWerf2014.calculate_nominal_diameter_Dn50 (sc l 1 Hm0) (sc l (1 / 2) Tmm10) (sc l 1 ht) (sc l
        1 Bt) (sc l 1 tt) Nod rho_rock rho_water cot_alpha_armour_slope g =
      sc l 1 <$> VanGentVanDerWerf2014.calculate_nominal_diameter_Dn50 Hm0 Tmm10 ht Bt tt Nod rho_rock
          rho_water cot_alpha_armour_slope g := by
  unfold VanGentVanDerWerf2014.calculate_nominal_diameter_Dn50 VanGentVanDerWerf2014.check_validity
  dims [map_bind, map_pure, bind_map_left, VanGentVanDerWerf2014_check_validity,
      VanGentVanDerWerf2014_calculate_velocity_u_delta]

theorem EtemadShahidi2021_check_validity (Hs Tmm10 h ht Bt Dn50 m Nod cot_alpha_armour_slope rho_armour
    rho_water : PF) :
    EtemadShahidi2021.check_validity (sc l 1 Hs) (sc l (1 / 2) Tmm10) (sc l 1 h) (sc l 1 ht) (sc l 1 Bt) (sc l
        1 Dn50) m Nod cot_alpha_armour_slope rho_armour rho_water =
      EtemadShahidi2021.check_validity Hs Tmm10 h ht Bt Dn50 m Nod cot_alpha_armour_slope rho_armour rho_water
          := by
  unfold EtemadShahidi2021.check_validity
  dims [stab, stab_nan, stab_nan', map_bind, map_pure, bind_map_left]

theorem EtemadShahidi2021_calculate_damage_Nod (Hs Tmm10 h ht Bt m Dn50 rho_rock rho_water g c1 c2 c3 c4 c5 c6
    c7 : PF) :
    EtemadShahidi2021.calculate_damage_Nod (sc l 1 Hs) (sc l (1 / 2) Tmm10) (sc l 1 h) (sc l 1 ht) (sc l 1 Bt)
        m (sc l 1 Dn50) rho_rock rho_water g c1 c2 c3 c4 c5 c6 c7 =
      EtemadShahidi2021.calculate_damage_Nod Hs Tmm10 h ht Bt m Dn50 rho_rock rho_water g c1 c2 c3 c4 c5 c6 c7
          := by
  unfold EtemadShahidi2021.calculate_damage_Nod EtemadShahidi2021.check_validity
  dims [steep, steep_nan, steep_nan', stab, stab_nan, stab_nan', map_bind, map_pure, bind_map_left,
      EtemadShahidi2021_check_validity]

theorem EtemadShahidi2021_calculate_nominal_diameter_Dn50 (Hs Tmm10 h ht Bt Nod m rho_rock rho_water g c1 c2
    c3 c4 c5 c6 c7 : PF) :
    EtemadShahidi2021.calculate_nominal_diameter_Dn50 (sc l 1 Hs) (sc l (1 / 2) Tmm10) (sc l 1 h) (sc l 1 ht)
        (sc l 1 Bt) Nod m rho_rock rho_water g c1 c2 c3 c4 c5 c6 c7 =
      sc l 1 <$> EtemadShahidi2021.calculate_nominal_diameter_Dn50 Hs Tmm10 h ht Bt Nod m rho_rock rho_water g
          c1 c2 c3 c4 c5 c6 c7 := by
  unfold EtemadShahidi2021.calculate_nominal_diameter_Dn50 EtemadShahidi2021.check_validity
  dims [steep, steep_nan, steep_nan', stab, stab_nan, stab_nan', map_bind, map_pure, bind_map_left,
      EtemadShahidi2021_check_validity]

theorem Takahashi1990_ns_value {disper : PF → PF → PF → PF}
    (hd : ∀ w h g, disper (sc l (-(1 / 2)) w) (sc l 1 h) g = sc l (-1) (disper w h g)) (Hs Tp hacc Bt beta g : PF) :
    Takahashi1990.ns_value disper (sc l 1 Hs) (sc l (1 / 2) Tp) (sc l 1 hacc) (sc l 1 Bt) beta g =
      Takahashi1990.ns_value disper Hs Tp hacc Bt beta g := by
  unfold Takahashi1990.ns_value
  rw [wavelength hd]
  dims []

theorem Takahashi1990_calculate_stability_number_Ns {disper : PF → PF → PF → PF}
    (hd : ∀ w h g, disper (sc l (-(1 / 2)) w) (sc l 1 h) g = sc l (-1) (disper w h g)) (Hs Tp hacc Bt beta g : PF) :
    (Takahashi1990.calculate_stability_number_Ns disper (sc l 1 Hs) (sc l (1 / 2) Tp) (sc l 1 hacc) (sc l 1 Bt) beta g).res =
      (Takahashi1990.calculate_stability_number_Ns disper Hs Tp hacc Bt beta g).res := by
  unfold Takahashi1990.calculate_stability_number_Ns Takahashi1990.check_validity
  simp only [Takahashi1990_ns_value hd, res_bind, res_check, ok_bind]

theorem Takahashi1990_calculate_nominal_diameter_Dn50 {disper : PF → PF → PF → PF}
    (hd : ∀ w h g, disper (sc l (-(1 / 2)) w) (sc l 1 h) g = sc l (-1) (disper w h g)) (Hs Tp hacc Bt rho_rock rho_water beta g : PF) :
    (Takahashi1990.calculate_nominal_diameter_Dn50 disper (sc l 1 Hs) (sc l (1 / 2) Tp) (sc l 1 hacc) (sc l 1 Bt) rho_rock rho_water beta g).res =
      (sc l 1 <$> Takahashi1990.calculate_nominal_diameter_Dn50 disper Hs Tp hacc Bt rho_rock rho_water beta g).res := by
  unfold Takahashi1990.calculate_nominal_diameter_Dn50
  rw [res_bind, Takahashi1990_calculate_stability_number_Ns hd, map_bind, res_bind]
  simp only [stabnum_Dn, bind_map_left, map_bind, map_pure]

end ScaleProof
end
