import Verif.SpecScale
import Verif.Lemmas.Scale.Hudson1959
import Verif.Lemmas.Scale.VanDerMeer
import Verif.Lemmas.Scale.Etemad2020
import Verif.Lemmas.Scale.RockArmourOther
import Verif.Lemmas.Scale.Xbloc
import Verif.Lemmas.Scale.ConcreteHudson
import Verif.Lemmas.Scale.Cubes

/-! # C82: a scale model

Lengths times `lam`, times by its square root, gravity and densities as they are. Results without a
dimension are the same, and the others follow with their own dimension. Equality of the whole outcome:
the warnings and errors are the same too. -/

open Classical
open PF
open CorePhysics CoreUtility ScaleProof
noncomputable section

theorem C82_hudson1959 {lam : ℝ} (hl : 0 < lam) :
    (∀ (Hs rho_water rho_armour KD cot_alpha alpha_Hs : PF),
      Hudson1959.calculate_median_rock_mass_M50_no_damage (Scale.len lam Hs) rho_water rho_armour KD cot_alpha alpha_Hs =
        Scale.vol lam (Hudson1959.calculate_median_rock_mass_M50_no_damage Hs rho_water rho_armour KD cot_alpha alpha_Hs)) ∧
    (∀ (M50 rho_water rho_armour KD cot_alpha alpha_Hs : PF),
      Hudson1959.calculate_significant_wave_height_Hs_no_damage (Scale.vol lam M50) rho_water rho_armour KD cot_alpha alpha_Hs =
        Scale.len lam (Hudson1959.calculate_significant_wave_height_Hs_no_damage M50 rho_water rho_armour KD cot_alpha alpha_Hs)) ∧
    (∀ (Hs rho_water rho_armour KD cot_alpha damage_percentage : PF) (rock_type : String) (alpha_Hs : PF),
      Hudson1959.calculate_median_rock_mass_M50 (Scale.len lam Hs) rho_water rho_armour KD cot_alpha damage_percentage rock_type alpha_Hs =
        Scale.vol lam <$> Hudson1959.calculate_median_rock_mass_M50 Hs rho_water rho_armour KD cot_alpha damage_percentage rock_type alpha_Hs) ∧
    (∀ (M50 rho_water rho_armour KD cot_alpha damage_percentage : PF) (rock_type : String) (alpha_Hs : PF),
      Hudson1959.calculate_significant_wave_height_Hs (Scale.vol lam M50) rho_water rho_armour KD cot_alpha damage_percentage rock_type alpha_Hs =
        Scale.len lam <$> Hudson1959.calculate_significant_wave_height_Hs M50 rho_water rho_armour KD cot_alpha damage_percentage rock_type alpha_Hs) := by
  simp only [len_eq hl, time_eq hl, vel_eq hl, area_eq hl, disch_eq hl, vol_eq hl]
  exact ⟨Hudson1959_calculate_median_rock_mass_M50_no_damage, Hudson1959_calculate_significant_wave_height_Hs_no_damage, Hudson1959_calculate_median_rock_mass_M50, Hudson1959_calculate_significant_wave_height_Hs⟩

theorem C82_vandermeer1988 {lam : ℝ} (hl : 0 < lam) :
    (∀ (Hs H2p Tm N_waves cot_alpha P rho_armour Dn50 M50 c_pl c_s rho_water : PF),
      VdM1988.calculate_damage_number_S (Scale.len lam Hs) (Scale.len lam H2p) (Scale.time lam Tm) N_waves cot_alpha P rho_armour (Scale.len lam Dn50) (Scale.vol lam M50) c_pl c_s rho_water =
        VdM1988.calculate_damage_number_S Hs H2p Tm N_waves cot_alpha P rho_armour Dn50 M50 c_pl c_s rho_water) ∧
    (∀ (Hs H2p Tm N_waves cot_alpha P rho_armour S c_pl c_s rho_water : PF),
      VdM1988.calculate_nominal_rock_diameter_Dn50 (Scale.len lam Hs) (Scale.len lam H2p) (Scale.time lam Tm) N_waves cot_alpha P rho_armour S c_pl c_s rho_water =
        Scale.len lam <$> VdM1988.calculate_nominal_rock_diameter_Dn50 Hs H2p Tm N_waves cot_alpha P rho_armour S c_pl c_s rho_water) ∧
    (∀ (ratio_H2p_Hs Tm N_waves cot_alpha rho_armour S Dn50 M50 c_pl c_s g rho_water : PF) (p : ℝ) (hp : 0 ≤ p),
      VdM1988.calculate_significant_wave_height_Hs ratio_H2p_Hs (Scale.time lam Tm) N_waves cot_alpha (fin p) rho_armour S (Scale.len lam Dn50) (Scale.vol lam M50) c_pl c_s g rho_water =
        Scale.len lam <$> VdM1988.calculate_significant_wave_height_Hs ratio_H2p_Hs Tm N_waves cot_alpha (fin p) rho_armour S Dn50 M50 c_pl c_s g rho_water) := by
  simp only [len_eq hl, time_eq hl, vel_eq hl, area_eq hl, disch_eq hl, vol_eq hl]
  exact ⟨VdM1988_calculate_damage_number_S, VdM1988_calculate_nominal_rock_diameter_Dn50, VdM1988_calculate_significant_wave_height_Hs⟩

theorem C82_vandermeer1988_modified {lam : ℝ} (hl : 0 < lam) :
    (∀ (Hs H2p Tmm10 N_waves cot_alpha P rho_armour Dn50 M50 c_pl c_s rho_water : PF),
      VdMModified.calculate_damage_number_S (Scale.len lam Hs) (Scale.len lam H2p) (Scale.time lam Tmm10) N_waves cot_alpha P rho_armour (Scale.len lam Dn50) (Scale.vol lam M50) c_pl c_s rho_water =
        VdMModified.calculate_damage_number_S Hs H2p Tmm10 N_waves cot_alpha P rho_armour Dn50 M50 c_pl c_s rho_water) ∧
    (∀ (Hs H2p Tmm10 N_waves cot_alpha P rho_armour S c_pl c_s rho_water : PF),
      VdMModified.calculate_nominal_rock_diameter_Dn50 (Scale.len lam Hs) (Scale.len lam H2p) (Scale.time lam Tmm10) N_waves cot_alpha P rho_armour S c_pl c_s rho_water =
        Scale.len lam <$> VdMModified.calculate_nominal_rock_diameter_Dn50 Hs H2p Tmm10 N_waves cot_alpha P rho_armour S c_pl c_s rho_water) ∧
    (∀ (ratio_H2p_Hs Tm N_waves cot_alpha rho_armour S Dn50 M50 c_pl c_s g rho_water : PF) (p : ℝ) (hp : 0 ≤ p),
      VdMModified.calculate_significant_wave_height_Hs ratio_H2p_Hs (Scale.time lam Tm) N_waves cot_alpha (fin p) rho_armour S (Scale.len lam Dn50) (Scale.vol lam M50) c_pl c_s g rho_water =
        Scale.len lam <$> VdMModified.calculate_significant_wave_height_Hs ratio_H2p_Hs Tm N_waves cot_alpha (fin p) rho_armour S Dn50 M50 c_pl c_s g rho_water) := by
  simp only [len_eq hl, time_eq hl, vel_eq hl, area_eq hl, disch_eq hl, vol_eq hl]
  exact ⟨VdMModified_calculate_damage_number_S, VdMModified_calculate_nominal_rock_diameter_Dn50, VdMModified_calculate_significant_wave_height_Hs⟩

theorem C82_vandermeer2021 {lam : ℝ} (hl : 0 < lam) :
    (∀ (Hs Tmm10 N_waves cot_alpha P rho_armour Dn50 M50 c_pl c_s c_pl_mult c_s_mult : PF),
      VdM2021.calculate_damage_number_S (Scale.len lam Hs) (Scale.time lam Tmm10) N_waves cot_alpha P rho_armour (Scale.len lam Dn50) (Scale.vol lam M50) c_pl c_s c_pl_mult c_s_mult =
        VdM2021.calculate_damage_number_S Hs Tmm10 N_waves cot_alpha P rho_armour Dn50 M50 c_pl c_s c_pl_mult c_s_mult) ∧
    (∀ (Hs Tmm10 N_waves cot_alpha P rho_armour S c_pl c_s c_pl_mult c_s_mult : PF),
      VdM2021.calculate_nominal_rock_diameter_Dn50 (Scale.len lam Hs) (Scale.time lam Tmm10) N_waves cot_alpha P rho_armour S c_pl c_s c_pl_mult c_s_mult =
        Scale.len lam <$> VdM2021.calculate_nominal_rock_diameter_Dn50 Hs Tmm10 N_waves cot_alpha P rho_armour S c_pl c_s c_pl_mult c_s_mult) ∧
    (∀ (Tmm10 N_waves cot_alpha rho_armour S Dn50 M50 c_pl c_s c_pl_mult c_s_mult g : PF) (p : ℝ) (hp : 0 ≤ p),
      VdM2021.calculate_significant_wave_height_Hs (Scale.time lam Tmm10) N_waves cot_alpha (fin p) rho_armour S (Scale.len lam Dn50) (Scale.vol lam M50) c_pl c_s c_pl_mult c_s_mult g =
        Scale.len lam <$> VdM2021.calculate_significant_wave_height_Hs Tmm10 N_waves cot_alpha (fin p) rho_armour S Dn50 M50 c_pl c_s c_pl_mult c_s_mult g) := by
  simp only [len_eq hl, time_eq hl, vel_eq hl, area_eq hl, disch_eq hl, vol_eq hl]
  exact ⟨VdM2021_calculate_damage_number_S, VdM2021_calculate_nominal_rock_diameter_Dn50, VdM2021_calculate_significant_wave_height_Hs⟩

theorem C82_etemad2020 {lam : ℝ} (hl : 0 < lam) :
    (∀ (Dn50 Dn50_core : PF),
      Etemad2020.calculate_permeability_coefficient_Cp (Scale.len lam Dn50) (Scale.len lam Dn50_core) =
        Etemad2020.calculate_permeability_coefficient_Cp Dn50 Dn50_core) ∧
    (∀ (Hs Tmm10 N_waves cot_alpha rho_armour Dn50 M50 Dn50_core M50_core rho_core rho_water m : PF) (use_depth_limited_version : Bool),
      Etemad2020.calculate_damage_number_S (Scale.len lam Hs) (Scale.time lam Tmm10) N_waves cot_alpha rho_armour (Scale.len lam Dn50) (Scale.vol lam M50) (Scale.len lam Dn50_core) (Scale.vol lam M50_core) rho_core rho_water m use_depth_limited_version =
        Etemad2020.calculate_damage_number_S Hs Tmm10 N_waves cot_alpha rho_armour Dn50 M50 Dn50_core M50_core rho_core rho_water m use_depth_limited_version) ∧
    (∀ (Tmm10 N_waves cot_alpha rho_armour S Dn50 M50 Dn50_core M50_core rho_core m : PF) (use_depth_limited_version : Bool) (g : PF),
      Etemad2020.calculate_significant_wave_height_Hs (Scale.time lam Tmm10) N_waves cot_alpha rho_armour S (Scale.len lam Dn50) (Scale.vol lam M50) (Scale.len lam Dn50_core) (Scale.vol lam M50_core) rho_core m use_depth_limited_version g =
        Scale.len lam <$> Etemad2020.calculate_significant_wave_height_Hs Tmm10 N_waves cot_alpha rho_armour S Dn50 M50 Dn50_core M50_core rho_core m use_depth_limited_version g) ∧
    (∀ (Hs Tmm10 N_waves cot_alpha rho_armour S Dn50_core M50_core rho_core m : PF) (use_depth_limited_version : Bool) (Cp_init : PF) (max_iter : ℕ) (tolerance : PF),
      Etemad2020.calculate_nominal_rock_diameter_Dn50 (Scale.len lam Hs) (Scale.time lam Tmm10) N_waves cot_alpha rho_armour S (Scale.len lam Dn50_core) (Scale.vol lam M50_core) rho_core m use_depth_limited_version Cp_init max_iter (Scale.len lam tolerance) =
        Scale.len lam <$> Etemad2020.calculate_nominal_rock_diameter_Dn50 Hs Tmm10 N_waves cot_alpha rho_armour S Dn50_core M50_core rho_core m use_depth_limited_version Cp_init max_iter tolerance) := by
  simp only [len_eq hl, time_eq hl, vel_eq hl, area_eq hl, disch_eq hl, vol_eq hl]
  exact ⟨Etemad2020_calculate_permeability_coefficient_Cp, Etemad2020_calculate_damage_number_S, Etemad2020_calculate_significant_wave_height_Hs, Etemad2020_calculate_nominal_rock_diameter_Dn50⟩

theorem C82_jumelet2024 {lam : ℝ} (hl : 0 < lam) :
    (∀ (Hs Tmm10 N_waves cot_alpha rho_armour Dn50 M50 c_pl rho_water : PF),
      Jumelet2024.calculate_damage_number_S (Scale.len lam Hs) (Scale.time lam Tmm10) N_waves cot_alpha rho_armour (Scale.len lam Dn50) (Scale.vol lam M50) c_pl rho_water =
        Jumelet2024.calculate_damage_number_S Hs Tmm10 N_waves cot_alpha rho_armour Dn50 M50 c_pl rho_water) ∧
    (∀ (Hs Tmm10 N_waves cot_alpha rho_armour S c_pl : PF),
      Jumelet2024.calculate_nominal_rock_diameter_Dn50 (Scale.len lam Hs) (Scale.time lam Tmm10) N_waves cot_alpha rho_armour S c_pl =
        Scale.len lam <$> Jumelet2024.calculate_nominal_rock_diameter_Dn50 Hs Tmm10 N_waves cot_alpha rho_armour S c_pl) ∧
    (∀ (Tmm10 N_waves cot_alpha rho_armour S Dn50 M50 c_pl g smm10_init : PF) (max_iter : ℕ) (tolerance : PF),
      Jumelet2024.calculate_significant_wave_height_Hs (Scale.time lam Tmm10) N_waves cot_alpha rho_armour S (Scale.len lam Dn50) (Scale.vol lam M50) c_pl g smm10_init max_iter (Scale.len lam tolerance) =
        Scale.len lam <$> Jumelet2024.calculate_significant_wave_height_Hs Tmm10 N_waves cot_alpha rho_armour S Dn50 M50 c_pl g smm10_init max_iter tolerance) := by
  simp only [len_eq hl, time_eq hl, vel_eq hl, area_eq hl, disch_eq hl, vol_eq hl]
  exact ⟨Jumelet2024_calculate_damage_number_S, Jumelet2024_calculate_nominal_rock_diameter_Dn50, Jumelet2024_calculate_significant_wave_height_Hs⟩

theorem C82_scaravaglione2025 {lam : ℝ} (hl : 0 < lam) :
    (∀ (Hm0 Tmm10 N_waves cot_alpha rho_armour rho_core Dn50 Dn50_core M50 M50_core c_VGnew rho_water : PF),
      Scaravaglione2025.calculate_damage_number_S (Scale.len lam Hm0) (Scale.time lam Tmm10) N_waves cot_alpha rho_armour rho_core (Scale.len lam Dn50) (Scale.len lam Dn50_core) (Scale.vol lam M50) (Scale.vol lam M50_core) c_VGnew rho_water =
        Scaravaglione2025.calculate_damage_number_S Hm0 Tmm10 N_waves cot_alpha rho_armour rho_core Dn50 Dn50_core M50 M50_core c_VGnew rho_water) ∧
    (∀ (Hm0 Tmm10 N_waves cot_alpha rho_armour rho_core S Dn50_core M50_core c_VGnew rho_water : PF),
      Scaravaglione2025.calculate_nominal_rock_diameter_Dn50 (Scale.len lam Hm0) (Scale.time lam Tmm10) N_waves cot_alpha rho_armour rho_core S (Scale.len lam Dn50_core) (Scale.vol lam M50_core) c_VGnew rho_water =
        Scale.len lam <$> Scaravaglione2025.calculate_nominal_rock_diameter_Dn50 Hm0 Tmm10 N_waves cot_alpha rho_armour rho_core S Dn50_core M50_core c_VGnew rho_water) ∧
    (∀ (Tmm10 N_waves cot_alpha rho_armour rho_core S Dn50 Dn50_core M50 M50_core c_VGnew g rho_water : PF),
      Scaravaglione2025.calculate_significant_wave_height_Hm0 (Scale.time lam Tmm10) N_waves cot_alpha rho_armour rho_core S (Scale.len lam Dn50) (Scale.len lam Dn50_core) (Scale.vol lam M50) (Scale.vol lam M50_core) c_VGnew g rho_water =
        Scale.len lam <$> Scaravaglione2025.calculate_significant_wave_height_Hm0 Tmm10 N_waves cot_alpha rho_armour rho_core S Dn50 Dn50_core M50 M50_core c_VGnew g rho_water) := by
  simp only [len_eq hl, time_eq hl, vel_eq hl, area_eq hl, disch_eq hl, vol_eq hl]
  exact ⟨Scaravaglione2025_calculate_damage_number_S, Scaravaglione2025_calculate_nominal_rock_diameter_Dn50, Scaravaglione2025_calculate_significant_wave_height_Hm0⟩

theorem C82_kramer_burcharth {lam : ℝ} (hl : 0 < lam) :
    (∀ (Rc rho_armour Dn50 M50 : PF),
      KramerBurcharth.calculate_significant_wave_height_Hs (Scale.len lam Rc) rho_armour (Scale.len lam Dn50) (Scale.vol lam M50) =
        Scale.len lam <$> KramerBurcharth.calculate_significant_wave_height_Hs Rc rho_armour Dn50 M50) ∧
    (∀ (Hs : PF) (Rc : PF) (rho_armour : PF) (Ns_init : PF) (max_iter : ℕ) (tolerance : PF),
      KramerBurcharth.calculate_nominal_rock_diameter_Dn50 (Scale.len lam Hs) (Scale.len lam Rc) rho_armour Ns_init max_iter (Scale.len lam tolerance) =
        Scale.len lam <$> KramerBurcharth.calculate_nominal_rock_diameter_Dn50 Hs Rc rho_armour Ns_init max_iter tolerance) ∧
    (∀ (Hs rho_armour Dn50 M50 Rc_Dn50_init : PF) (max_iter : ℕ) (tolerance : PF),
      KramerBurcharth.calculate_crest_freeboard_Rc (Scale.len lam Hs) rho_armour (Scale.len lam Dn50) (Scale.vol lam M50) Rc_Dn50_init max_iter (Scale.len lam tolerance) =
        Scale.len lam <$> KramerBurcharth.calculate_crest_freeboard_Rc Hs rho_armour Dn50 M50 Rc_Dn50_init max_iter tolerance) := by
  simp only [len_eq hl, time_eq hl, vel_eq hl, area_eq hl, disch_eq hl, vol_eq hl]
  exact ⟨KramerBurcharth_calculate_significant_wave_height_Hs, KramerBurcharth_calculate_nominal_rock_diameter_Dn50, KramerBurcharth_calculate_crest_freeboard_Rc⟩

theorem C82_xbloc {lam : ℝ} (hl : 0 < lam) :
    (∀ (V rho_water rho_armour total_correction_factor : PF),
      Xbloc.calculate_wave_height_Hs_from_V (Scale.vol lam V) rho_water rho_armour total_correction_factor =
        Scale.len lam (Xbloc.calculate_wave_height_Hs_from_V V rho_water rho_armour total_correction_factor)) ∧
    (∀ (M rho_water rho_armour total_correction_factor : PF),
      Xbloc.calculate_wave_height_Hs_from_M (Scale.vol lam M) rho_water rho_armour total_correction_factor =
        Scale.len lam (Xbloc.calculate_wave_height_Hs_from_M M rho_water rho_armour total_correction_factor)) ∧
    (∀ (Hs rho_water rho_armour total_correction_factor : PF),
      Xbloc.calculate_unit_volume_V (Scale.len lam Hs) rho_water rho_armour total_correction_factor =
        Scale.vol lam (Xbloc.calculate_unit_volume_V Hs rho_water rho_armour total_correction_factor)) ∧
    (∀ (Hs rho_water rho_armour total_correction_factor : PF),
      Xbloc.calculate_unit_mass_M (Scale.len lam Hs) rho_water rho_armour total_correction_factor =
        Scale.vol lam (Xbloc.calculate_unit_mass_M Hs rho_water rho_armour total_correction_factor)) := by
  simp only [len_eq hl, time_eq hl, vel_eq hl, area_eq hl, disch_eq hl, vol_eq hl]
  exact ⟨Xbloc_calculate_wave_height_Hs_from_V, Xbloc_calculate_wave_height_Hs_from_M, Xbloc_calculate_unit_volume_V, Xbloc_calculate_unit_mass_M⟩

theorem C82_xblocplus {lam : ℝ} (hl : 0 < lam) :
    (∀ (V rho_water rho_armour total_correction_factor : PF),
      XblocPlus.calculate_wave_height_Hs_from_V (Scale.vol lam V) rho_water rho_armour total_correction_factor =
        Scale.len lam (XblocPlus.calculate_wave_height_Hs_from_V V rho_water rho_armour total_correction_factor)) ∧
    (∀ (M rho_water rho_armour total_correction_factor : PF),
      XblocPlus.calculate_wave_height_Hs_from_M (Scale.vol lam M) rho_water rho_armour total_correction_factor =
        Scale.len lam (XblocPlus.calculate_wave_height_Hs_from_M M rho_water rho_armour total_correction_factor)) ∧
    (∀ (Hs rho_water rho_armour total_correction_factor : PF),
      XblocPlus.calculate_unit_volume_V (Scale.len lam Hs) rho_water rho_armour total_correction_factor =
        Scale.vol lam (XblocPlus.calculate_unit_volume_V Hs rho_water rho_armour total_correction_factor)) ∧
    (∀ (Hs rho_water rho_armour total_correction_factor : PF),
      XblocPlus.calculate_unit_mass_M (Scale.len lam Hs) rho_water rho_armour total_correction_factor =
        Scale.vol lam (XblocPlus.calculate_unit_mass_M Hs rho_water rho_armour total_correction_factor)) := by
  simp only [len_eq hl, time_eq hl, vel_eq hl, area_eq hl, disch_eq hl, vol_eq hl]
  exact ⟨XblocPlus_calculate_wave_height_Hs_from_V, XblocPlus_calculate_wave_height_Hs_from_M, XblocPlus_calculate_unit_volume_V, XblocPlus_calculate_unit_mass_M⟩

theorem C82_accropode {lam : ℝ} (hl : 0 < lam) :
    (∀ (Hs rho_water rho_armour KD cot_alpha alpha_Hs : PF),
      Accropode.calculate_unit_mass_M (Scale.len lam Hs) rho_water rho_armour KD cot_alpha alpha_Hs =
        Scale.vol lam <$> Accropode.calculate_unit_mass_M Hs rho_water rho_armour KD cot_alpha alpha_Hs) ∧
    (∀ (M rho_water rho_armour KD cot_alpha alpha_Hs : PF),
      Accropode.calculate_significant_wave_height_Hs (Scale.vol lam M) rho_water rho_armour KD cot_alpha alpha_Hs =
        Scale.len lam <$> Accropode.calculate_significant_wave_height_Hs M rho_water rho_armour KD cot_alpha alpha_Hs) := by
  simp only [len_eq hl, time_eq hl, vel_eq hl, area_eq hl, disch_eq hl, vol_eq hl]
  exact ⟨Accropode_calculate_unit_mass_M, Accropode_calculate_significant_wave_height_Hs⟩

theorem C82_accropode2 {lam : ℝ} (hl : 0 < lam) :
    (∀ (Hs rho_water rho_armour KD cot_alpha alpha_Hs : PF),
      Accropode2.calculate_unit_mass_M (Scale.len lam Hs) rho_water rho_armour KD cot_alpha alpha_Hs =
        Scale.vol lam <$> Accropode2.calculate_unit_mass_M Hs rho_water rho_armour KD cot_alpha alpha_Hs) ∧
    (∀ (M rho_water rho_armour KD cot_alpha alpha_Hs : PF),
      Accropode2.calculate_significant_wave_height_Hs (Scale.vol lam M) rho_water rho_armour KD cot_alpha alpha_Hs =
        Scale.len lam <$> Accropode2.calculate_significant_wave_height_Hs M rho_water rho_armour KD cot_alpha alpha_Hs) := by
  simp only [len_eq hl, time_eq hl, vel_eq hl, area_eq hl, disch_eq hl, vol_eq hl]
  exact ⟨Accropode2_calculate_unit_mass_M, Accropode2_calculate_significant_wave_height_Hs⟩

theorem C82_coreloc {lam : ℝ} (hl : 0 < lam) :
    (∀ (Hs rho_water rho_armour KD cot_alpha alpha_Hs : PF),
      CoreLoc.calculate_unit_mass_M (Scale.len lam Hs) rho_water rho_armour KD cot_alpha alpha_Hs =
        Scale.vol lam (CoreLoc.calculate_unit_mass_M Hs rho_water rho_armour KD cot_alpha alpha_Hs)) ∧
    (∀ (M rho_water rho_armour KD cot_alpha alpha_Hs : PF),
      CoreLoc.calculate_significant_wave_height_Hs (Scale.vol lam M) rho_water rho_armour KD cot_alpha alpha_Hs =
        Scale.len lam (CoreLoc.calculate_significant_wave_height_Hs M rho_water rho_armour KD cot_alpha alpha_Hs)) := by
  simp only [len_eq hl, time_eq hl, vel_eq hl, area_eq hl, disch_eq hl, vol_eq hl]
  exact ⟨CoreLoc_calculate_unit_mass_M, CoreLoc_calculate_significant_wave_height_Hs⟩

theorem C82_cubes_hudson {lam : ℝ} (hl : 0 < lam) :
    (∀ (Hs rho_water rho_armour KD cot_alpha alpha_Hs : PF),
      CubesHudson.calculate_unit_mass_M (Scale.len lam Hs) rho_water rho_armour KD cot_alpha alpha_Hs =
        Scale.vol lam (CubesHudson.calculate_unit_mass_M Hs rho_water rho_armour KD cot_alpha alpha_Hs)) ∧
    (∀ (M rho_water rho_armour KD cot_alpha alpha_Hs : PF),
      CubesHudson.calculate_significant_wave_height_Hs (Scale.vol lam M) rho_water rho_armour KD cot_alpha alpha_Hs =
        Scale.len lam (CubesHudson.calculate_significant_wave_height_Hs M rho_water rho_armour KD cot_alpha alpha_Hs)) := by
  simp only [len_eq hl, time_eq hl, vel_eq hl, area_eq hl, disch_eq hl, vol_eq hl]
  exact ⟨CubesHudson_calculate_unit_mass_M, CubesHudson_calculate_significant_wave_height_Hs⟩

theorem C82_cubipod {lam : ℝ} (hl : 0 < lam) :
    (∀ (Hs rho_water rho_armour KD cot_alpha alpha_Hs : PF),
      Cubipod.calculate_unit_mass_M (Scale.len lam Hs) rho_water rho_armour KD cot_alpha alpha_Hs =
        Scale.vol lam (Cubipod.calculate_unit_mass_M Hs rho_water rho_armour KD cot_alpha alpha_Hs)) ∧
    (∀ (M rho_water rho_armour KD cot_alpha alpha_Hs : PF),
      Cubipod.calculate_significant_wave_height_Hs (Scale.vol lam M) rho_water rho_armour KD cot_alpha alpha_Hs =
        Scale.len lam (Cubipod.calculate_significant_wave_height_Hs M rho_water rho_armour KD cot_alpha alpha_Hs)) := by
  simp only [len_eq hl, time_eq hl, vel_eq hl, area_eq hl, disch_eq hl, vol_eq hl]
  exact ⟨Cubipod_calculate_unit_mass_M, Cubipod_calculate_significant_wave_height_Hs⟩

theorem C82_tetrapod {lam : ℝ} (hl : 0 < lam) :
    (∀ (Hs rho_water rho_armour KD cot_alpha alpha_Hs : PF),
      Tetrapod.calculate_unit_mass_M (Scale.len lam Hs) rho_water rho_armour KD cot_alpha alpha_Hs =
        Scale.vol lam (Tetrapod.calculate_unit_mass_M Hs rho_water rho_armour KD cot_alpha alpha_Hs)) ∧
    (∀ (M rho_water rho_armour KD cot_alpha alpha_Hs : PF),
      Tetrapod.calculate_significant_wave_height_Hs (Scale.vol lam M) rho_water rho_armour KD cot_alpha alpha_Hs =
        Scale.len lam (Tetrapod.calculate_significant_wave_height_Hs M rho_water rho_armour KD cot_alpha alpha_Hs)) := by
  simp only [len_eq hl, time_eq hl, vel_eq hl, area_eq hl, disch_eq hl, vol_eq hl]
  exact ⟨Tetrapod_calculate_unit_mass_M, Tetrapod_calculate_significant_wave_height_Hs⟩

theorem C82_cubes_vandermeer1988_partial {lam : ℝ} (hl : 0 < lam) :
    (∀ (Hs Tm rho_water rho_armour N_waves cot_alpha Nod : PF),
      (CubesVdM.calculate_nominal_diameter_Dn_vanDerMeer1988 (Scale.len lam Hs) (Scale.time lam Tm) rho_water rho_armour N_waves cot_alpha Nod).res =
        (Scale.len lam <$> CubesVdM.calculate_nominal_diameter_Dn_vanDerMeer1988 Hs Tm rho_water rho_armour N_waves cot_alpha Nod).res) ∧
    (∀ (Dn s0m rho_water rho_armour N_waves cot_alpha Nod : PF),
      (CubesVdM.calculate_wave_height_Hs_vanDerMeer1988 (Scale.len lam Dn) s0m rho_water rho_armour N_waves cot_alpha Nod).res =
        (Scale.len lam <$> CubesVdM.calculate_wave_height_Hs_vanDerMeer1988 Dn s0m rho_water rho_armour N_waves cot_alpha Nod).res) ∧
    (∀ (Hs Dn s0m rho_water rho_armour N_waves cot_alpha : PF),
      (CubesVdM.calculate_damage_Nod_vanDerMeer1988 (Scale.len lam Hs) (Scale.len lam Dn) s0m rho_water rho_armour N_waves cot_alpha).res =
        (CubesVdM.calculate_damage_Nod_vanDerMeer1988 Hs Dn s0m rho_water rho_armour N_waves cot_alpha).res) := by
  simp only [len_eq hl, time_eq hl, vel_eq hl, area_eq hl, disch_eq hl, vol_eq hl]
  exact ⟨CubesVdM_calculate_nominal_diameter_Dn_vanDerMeer1988, CubesVdM_calculate_wave_height_Hs_vanDerMeer1988, CubesVdM_calculate_damage_Nod_vanDerMeer1988⟩

theorem C82_cubes_single {lam : ℝ} (hl : 0 < lam) :
    (∀ (Hs rho_water rho_armour Ns : PF),
      CubesSingle.calculate_unit_mass_M_start_of_damage (Scale.len lam Hs) rho_water rho_armour Ns =
        Scale.vol lam <$> CubesSingle.calculate_unit_mass_M_start_of_damage Hs rho_water rho_armour Ns) ∧
    (∀ (Hs rho_water rho_armour Ns : PF),
      CubesSingle.calculate_unit_mass_M_failure (Scale.len lam Hs) rho_water rho_armour Ns =
        Scale.vol lam <$> CubesSingle.calculate_unit_mass_M_failure Hs rho_water rho_armour Ns) ∧
    (∀ (M rho_water rho_armour Ns : PF),
      CubesSingle.calculate_significant_wave_height_Hs_start_of_damage (Scale.vol lam M) rho_water rho_armour Ns =
        Scale.len lam <$> CubesSingle.calculate_significant_wave_height_Hs_start_of_damage M rho_water rho_armour Ns) ∧
    (∀ (M rho_water rho_armour Ns : PF),
      CubesSingle.calculate_significant_wave_height_Hs_failure (Scale.vol lam M) rho_water rho_armour Ns =
        Scale.len lam <$> CubesSingle.calculate_significant_wave_height_Hs_failure M rho_water rho_armour Ns) := by
  simp only [len_eq hl, time_eq hl, vel_eq hl, area_eq hl, disch_eq hl, vol_eq hl]
  exact ⟨CubesSingle_calculate_unit_mass_M_start_of_damage, CubesSingle_calculate_unit_mass_M_failure, CubesSingle_calculate_significant_wave_height_Hs_start_of_damage, CubesSingle_calculate_significant_wave_height_Hs_failure⟩

/-- a flume test at a scale of 1 to 25: 4 m waves and 2 m rock become 16 cm and 8 cm -/
example : KramerBurcharth.calculate_nominal_rock_diameter_Dn50 (fin (4 / 25)) (fin (2 / 25)) (fin 2650) 2 100 (fin (1 / 250000)) =
    Scale.len (1 / 25) <$> KramerBurcharth.calculate_nominal_rock_diameter_Dn50 (fin 4) (fin 2) (fin 2650) 2 100 (fin (1 / 10000)) := by
  have h := (C82_kramer_burcharth (lam := 1 / 25) (by norm_num)).2.1 (fin 4) (fin 2) (fin 2650) 2 100 (fin (1 / 10000))
  rw [← h]
  simp only [Scale.len, Scale.times, mul_fin]
  norm_num

/-- a notional permeability for `C82_vandermeer1988` -/
example : (0 : ℝ) ≤ 0.4 := by norm_num


end
