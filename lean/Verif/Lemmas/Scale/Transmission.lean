import Verif.Lemmas.Scale
import Verif.Model.Transmission
/-! Dimensions of the quantities of `Verif/Model/Transmission.lean`. -/

open Classical
open PF
open CorePhysics CoreUtility
noncomputable section

namespace ScaleProof

variable {l : {x : ℝ // 0 < x}}
set_option maxHeartbeats 1000000

theorem DAngremond1996_calculate_wave_transmission_Kt_permeable (Hsi Tpi h Rc B cot_alpha C1 : PF)
    (do_validity_check : Bool) :
    DAngremond1996.calculate_wave_transmission_Kt_permeable (sc l 1 Hsi) (sc l (1 / 2) Tpi) (sc l 1 h) (sc l 1
        Rc) (sc l 1 B) cot_alpha C1 do_validity_check =
      DAngremond1996.calculate_wave_transmission_Kt_permeable Hsi Tpi h Rc B cot_alpha C1 do_validity_check :=
          by
  unfold DAngremond1996.calculate_wave_transmission_Kt_permeable DAngremond1996.check_validity
  dims [steep, steep_nan, steep_nan', irib, irib_nan, irib_nan', map_bind, map_pure, bind_map_left]

theorem DAngremond1996_calculate_wave_transmission_Kt_impermeable (Hsi Tpi h Rc B cot_alpha C1 : PF) :
    DAngremond1996.calculate_wave_transmission_Kt_impermeable (sc l 1 Hsi) (sc l (1 / 2) Tpi) (sc l 1 h) (sc l
        1 Rc) (sc l 1 B) cot_alpha C1 =
      DAngremond1996.calculate_wave_transmission_Kt_impermeable Hsi Tpi h Rc B cot_alpha C1 := by
  unfold DAngremond1996.calculate_wave_transmission_Kt_impermeable
  dims [map_bind, map_pure, bind_map_left, DAngremond1996_calculate_wave_transmission_Kt_permeable]

theorem Goda1967_calculate_wave_transmission_Kt (Hsi Rc alpha_1 beta_1 : PF) :
    Goda1967.calculate_wave_transmission_Kt (sc l 1 Hsi) (sc l 1 Rc) alpha_1 beta_1 =
      Goda1967.calculate_wave_transmission_Kt Hsi Rc alpha_1 beta_1 := by
  unfold Goda1967.calculate_wave_transmission_Kt
  dims []

theorem VanGent2024_check_validity_range (Hm0 Tmm10 Rc B hc Dn50 : PF) (structure_type : String) :
    VanGent2024.check_validity_range (sc l 1 Hm0) (sc l (1 / 2) Tmm10) (sc l 1 Rc) (sc l 1 B) (sc l 1 hc) (sc
        l 1 Dn50) structure_type =
      VanGent2024.check_validity_range Hm0 Tmm10 Rc B hc Dn50 structure_type := by
  unfold VanGent2024.check_validity_range
  dims [steep, steep_nan, steep_nan', map_bind, map_pure, bind_map_left]

theorem VanGent2024_calculate_dimensionless_structure_induced_setup_impermeable (Hm0 Tmm10 Rc : PF) :
    VanGent2024.calculate_dimensionless_structure_induced_setup_impermeable (sc l 1 Hm0) (sc l (1 / 2) Tmm10)
        (sc l 1 Rc) =
      VanGent2024.calculate_dimensionless_structure_induced_setup_impermeable Hm0 Tmm10 Rc := by
  unfold VanGent2024.calculate_dimensionless_structure_induced_setup_impermeable
      VanGent2024.check_validity_range
  dims [steep, steep_nan, steep_nan', map_bind, map_pure, bind_map_left, VanGent2024_check_validity_range]

theorem VanGent2024_calculate_structure_induced_setup_delta_impermeable (Hm0 Tmm10 Rc : PF) :
    VanGent2024.calculate_structure_induced_setup_delta_impermeable (sc l 1 Hm0) (sc l (1 / 2) Tmm10) (sc l 1
        Rc) =
      sc l 1  <$> VanGent2024.calculate_structure_induced_setup_delta_impermeable Hm0 Tmm10 Rc := by
  unfold VanGent2024.calculate_structure_induced_setup_delta_impermeable
  dims [map_bind, map_pure, bind_map_left,
      VanGent2024_calculate_dimensionless_structure_induced_setup_impermeable]

theorem VanGent2024_calculate_dimensionless_structure_induced_setup_permeable (Hm0 Tmm10 Rc hc : PF) :
    VanGent2024.calculate_dimensionless_structure_induced_setup_permeable (sc l 1 Hm0) (sc l (1 / 2) Tmm10)
        (sc l 1 Rc) (sc l 1 hc) =
      VanGent2024.calculate_dimensionless_structure_induced_setup_permeable Hm0 Tmm10 Rc hc := by
  unfold VanGent2024.calculate_dimensionless_structure_induced_setup_permeable
      VanGent2024.check_validity_range
  dims [steep, steep_nan, steep_nan', map_bind, map_pure, bind_map_left, VanGent2024_check_validity_range]

theorem VanGent2024_calculate_structure_induced_setup_delta_permeable (Hm0 Tmm10 Rc hc : PF) :
    VanGent2024.calculate_structure_induced_setup_delta_permeable (sc l 1 Hm0) (sc l (1 / 2) Tmm10) (sc l 1
        Rc) (sc l 1 hc) =
      sc l 1  <$> VanGent2024.calculate_structure_induced_setup_delta_permeable Hm0 Tmm10 Rc hc := by
  unfold VanGent2024.calculate_structure_induced_setup_delta_permeable
  dims [map_bind, map_pure, bind_map_left,
      VanGent2024_calculate_dimensionless_structure_induced_setup_permeable]

theorem Briganti2003_Kt_unlimited (Hsi Tpi Rc B cot_alpha ksi_0p : PF) :
    Briganti2003.Kt_unlimited (sc l 1 Hsi) (sc l (1 / 2) Tpi) (sc l 1 Rc) (sc l 1 B) cot_alpha ksi_0p =
      Briganti2003.Kt_unlimited Hsi Tpi Rc B cot_alpha ksi_0p := by
  unfold Briganti2003.Kt_unlimited
  have h := DAngremond1996_calculate_wave_transmission_Kt_permeable (l := l) Hsi Tpi nan Rc B cot_alpha 0.64 false
  rw [sc_nan] at h
  rw [h]
  dims []

theorem VanGent2023_wavelength {disper : PF → PF → PF → PF}
    (hd : ∀ w, disper (sc l (-(1 / 2)) w) 1e100 9.81 = sc l (-1) (disper w 1e100 9.81)) (T : PF) :
    calculate_local_wavelength disper (sc l (1 / 2) T) 1e100 9.81 = sc l 1 (calculate_local_wavelength disper T 1e100 9.81) := by
  unfold calculate_local_wavelength
  dsimp only
  rw [div_sc, hd, div_sc, neg_neg]

theorem VanGent2023_calculate_wave_transmission_Kt {disper : PF → PF → PF → PF}
    (hd : ∀ w, disper (sc l (-(1 / 2)) w) 1e100 9.81 = sc l (-1) (disper w 1e100 9.81)) (Hm0 Tmm10 Rc B : PF) (structure_type : String) :
    VanGent2023.calculate_wave_transmission_Kt disper (sc l 1 Hm0) (sc l (1 / 2) Tmm10) (sc l 1 Rc) (sc l 1 B) structure_type =
      VanGent2023.calculate_wave_transmission_Kt disper Hm0 Tmm10 Rc B structure_type := by
  unfold VanGent2023.calculate_wave_transmission_Kt
  rw [VanGent2023_wavelength hd]
  dims []

theorem Briganti2003_calculate_wave_transmission_Kt (Hsi Tpi Rc B cot_alpha : PF) :
    Briganti2003.calculate_wave_transmission_Kt (sc l 1 Hsi) (sc l (1 / 2) Tpi) (sc l 1 Rc) (sc l 1 B) cot_alpha =
      Briganti2003.calculate_wave_transmission_Kt Hsi Tpi Rc B cot_alpha := by
  unfold Briganti2003.calculate_wave_transmission_Kt
  dims [irib, steep, Briganti2003_Kt_unlimited]

end ScaleProof
end
