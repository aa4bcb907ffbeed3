import Verif.Lemmas.Scale
import Verif.Model.RockArmourOther
/-! Dimensions of the quantities of `Verif/Model/RockArmourOther.lean`. -/

open Classical
open PF
open CorePhysics CoreUtility
noncomputable section

namespace ScaleProof

variable {l : {x : ℝ // 0 < x}}
set_option maxHeartbeats 1000000

theorem Jumelet2024_check_validity_range (Hs Tmm10 N_waves cot_alpha : PF) :
    Jumelet2024.check_validity_range (sc l 1 Hs) (sc l (1 / 2) Tmm10) N_waves cot_alpha =
      Jumelet2024.check_validity_range Hs Tmm10 N_waves cot_alpha := by
  unfold Jumelet2024.check_validity_range
  dims [steep, steep_nan, steep_nan', irib, irib_nan, irib_nan', map_bind, map_pure, bind_map_left]

theorem Jumelet2024_calculate_damage_number_S (Hs Tmm10 N_waves cot_alpha rho_armour Dn50 M50 c_pl rho_water :
    PF) :
    Jumelet2024.calculate_damage_number_S (sc l 1 Hs) (sc l (1 / 2) Tmm10) N_waves cot_alpha rho_armour (sc l
        1 Dn50) (sc l 3 M50) c_pl rho_water =
      Jumelet2024.calculate_damage_number_S Hs Tmm10 N_waves cot_alpha rho_armour Dn50 M50 c_pl rho_water :=
          by
  unfold Jumelet2024.calculate_damage_number_S Jumelet2024.check_validity_range
  dims [steep, steep_nan, steep_nan', irib, irib_nan, irib_nan', stab, stab_nan, stab_nan', size, map_bind,
      map_pure, bind_map_left, Jumelet2024_check_validity_range]

theorem Jumelet2024_calculate_nominal_rock_diameter_Dn50 (Hs Tmm10 N_waves cot_alpha rho_armour S c_pl : PF) :
    Jumelet2024.calculate_nominal_rock_diameter_Dn50 (sc l 1 Hs) (sc l (1 / 2) Tmm10) N_waves cot_alpha
        rho_armour S c_pl =
      sc l 1 <$> Jumelet2024.calculate_nominal_rock_diameter_Dn50 Hs Tmm10 N_waves cot_alpha rho_armour S c_pl
          := by
  unfold Jumelet2024.calculate_nominal_rock_diameter_Dn50 Jumelet2024.check_validity_range
  dims [steep, steep_nan, steep_nan', irib, irib_nan, irib_nan', map_bind, map_pure, bind_map_left,
      Jumelet2024_check_validity_range]

theorem Scaravaglione2025_check_validity_range (Hm0 Tmm10 N_waves cot_alpha P Dn50 Dn50_core rho_armour
    rho_water : PF) :
    Scaravaglione2025.check_validity_range (sc l 1 Hm0) (sc l (1 / 2) Tmm10) N_waves cot_alpha P (sc l 1 Dn50)
        (sc l 1 Dn50_core) rho_armour rho_water =
      Scaravaglione2025.check_validity_range Hm0 Tmm10 N_waves cot_alpha P Dn50 Dn50_core rho_armour rho_water
          := by
  unfold Scaravaglione2025.check_validity_range
  dims [steep, steep_nan, steep_nan', irib, irib_nan, irib_nan', stab, stab_nan, stab_nan', map_bind,
      map_pure, bind_map_left]

theorem Scaravaglione2025_calculate_damage_number_S (Hm0 Tmm10 N_waves cot_alpha rho_armour rho_core Dn50
    Dn50_core M50 M50_core c_VGnew rho_water : PF) :
    Scaravaglione2025.calculate_damage_number_S (sc l 1 Hm0) (sc l (1 / 2) Tmm10) N_waves cot_alpha rho_armour
        rho_core (sc l 1 Dn50) (sc l 1 Dn50_core) (sc l 3 M50) (sc l 3 M50_core) c_VGnew rho_water =
      Scaravaglione2025.calculate_damage_number_S Hm0 Tmm10 N_waves cot_alpha rho_armour rho_core Dn50
          Dn50_core M50 M50_core c_VGnew rho_water := by
  unfold Scaravaglione2025.calculate_damage_number_S Scaravaglione2025.check_validity_range
  dims [steep, steep_nan, steep_nan', irib, irib_nan, irib_nan', stab, stab_nan, stab_nan', size, map_bind,
      map_pure, bind_map_left, Scaravaglione2025_check_validity_range]

theorem Scaravaglione2025_calculate_nominal_rock_diameter_Dn50 (Hm0 Tmm10 N_waves cot_alpha rho_armour
    rho_core S Dn50_core M50_core c_VGnew rho_water : PF) :
    Scaravaglione2025.calculate_nominal_rock_diameter_Dn50 (sc l 1 Hm0) (sc l (1 / 2) Tmm10) N_waves cot_alpha
        rho_armour rho_core S (sc l 1 Dn50_core) (sc l 3 M50_core) c_VGnew rho_water =
      sc l 1 <$> Scaravaglione2025.calculate_nominal_rock_diameter_Dn50 Hm0 Tmm10 N_waves cot_alpha rho_armour
          rho_core S Dn50_core M50_core c_VGnew rho_water := by
  unfold Scaravaglione2025.calculate_nominal_rock_diameter_Dn50 Scaravaglione2025.check_validity_range
  dims [steep, steep_nan, steep_nan', irib, irib_nan, irib_nan', stab, stab_nan, stab_nan', size, map_bind,
      map_pure, bind_map_left, Scaravaglione2025_check_validity_range]

theorem Scaravaglione2025_calculate_significant_wave_height_Hm0 (Tmm10 N_waves cot_alpha rho_armour rho_core S
    Dn50 Dn50_core M50 M50_core c_VGnew g rho_water : PF) :
    Scaravaglione2025.calculate_significant_wave_height_Hm0 (sc l (1 / 2) Tmm10) N_waves cot_alpha rho_armour
        rho_core S (sc l 1 Dn50) (sc l 1 Dn50_core) (sc l 3 M50) (sc l 3 M50_core) c_VGnew g rho_water =
      sc l 1 <$> Scaravaglione2025.calculate_significant_wave_height_Hm0 Tmm10 N_waves cot_alpha rho_armour
          rho_core S Dn50 Dn50_core M50 M50_core c_VGnew g rho_water := by
  unfold Scaravaglione2025.calculate_significant_wave_height_Hm0 Scaravaglione2025.check_validity_range
  dims [steep, steep_nan, steep_nan', irib, irib_nan, irib_nan', stab, stab_nan, stab_nan', size, map_bind,
      map_pure, bind_map_left, Scaravaglione2025_check_validity_range]

theorem KramerBurcharth_check_validity_range (Rc Dn50 : PF) :
    KramerBurcharth.check_validity_range (sc l 1 Rc) (sc l 1 Dn50) =
      KramerBurcharth.check_validity_range Rc Dn50 := by
  unfold KramerBurcharth.check_validity_range
  dims [map_bind, map_pure, bind_map_left]

theorem KramerBurcharth_calculate_significant_wave_height_Hs (Rc rho_armour Dn50 M50 : PF) :
    KramerBurcharth.calculate_significant_wave_height_Hs (sc l 1 Rc) rho_armour (sc l 1 Dn50) (sc l 3 M50) =
      sc l 1  <$> KramerBurcharth.calculate_significant_wave_height_Hs Rc rho_armour Dn50 M50 := by
  unfold KramerBurcharth.calculate_significant_wave_height_Hs KramerBurcharth.check_validity_range
  dims [size, map_bind, map_pure, bind_map_left, KramerBurcharth_check_validity_range]

theorem KramerBurcharth_calculate_nominal_rock_diameter_Dn50 (Hs : PF) (Rc : PF) (rho_armour : PF) (Ns_init : PF) (max_iter : ℕ) (tolerance : PF) :
    KramerBurcharth.calculate_nominal_rock_diameter_Dn50 (sc l 1 Hs) (sc l 1 Rc) rho_armour Ns_init max_iter (sc l 1 tolerance) =
      sc l 1 <$> KramerBurcharth.calculate_nominal_rock_diameter_Dn50 Hs Rc rho_armour Ns_init max_iter tolerance := by
  unfold KramerBurcharth.calculate_nominal_rock_diameter_Dn50
  have h := loop_map (fun s : KramerBurcharth.LoopState => (⟨sc l 1 s.diff, sc l 1 s.prev, sc l 1 s.cur⟩ : KramerBurcharth.LoopState))
    (c := fun s => s.diff > tolerance) (c' := fun s => s.diff > sc l 1 tolerance)
    (b := KramerBurcharth.size_step Hs Rc (calculate_buoyant_density_Delta rho_armour 1025))
    (b' := KramerBurcharth.size_step (sc l 1 Hs) (sc l 1 Rc) (calculate_buoyant_density_Delta rho_armour 1025))
    (fun s => sc_lt) (fun s => by unfold KramerBurcharth.size_step; dims []) max_iter
    ⟨pinf, pinf, Hs / (calculate_buoyant_density_Delta rho_armour 1025 * Ns_init)⟩
  dsimp only at h ⊢
  rw [sc_pinf, ← sc_div] at h
  rw [h]
  unfold KramerBurcharth.check_validity_range
  dims [map_bind, map_pure]

theorem KramerBurcharth_calculate_crest_freeboard_Rc (Hs rho_armour Dn50 M50 Rc_Dn50_init : PF) (max_iter : ℕ) (tolerance : PF) :
    KramerBurcharth.calculate_crest_freeboard_Rc (sc l 1 Hs) rho_armour (sc l 1 Dn50) (sc l 3 M50) Rc_Dn50_init max_iter (sc l 1 tolerance) =
      sc l 1 <$> KramerBurcharth.calculate_crest_freeboard_Rc Hs rho_armour Dn50 M50 Rc_Dn50_init max_iter tolerance := by
  unfold KramerBurcharth.calculate_crest_freeboard_Rc
  rw [size, bind_map_left, map_bind]
  congr 1
  funext Dn50
  have h := loop_map (fun s : KramerBurcharth.LoopState => (⟨sc l 1 s.diff, sc l 1 s.prev, sc l 1 s.cur⟩ : KramerBurcharth.LoopState))
    (c := fun s => s.diff > tolerance) (c' := fun s => s.diff > sc l 1 tolerance)
    (b := KramerBurcharth.freeboard_step Hs Dn50 (calculate_buoyant_density_Delta rho_armour 1025))
    (b' := KramerBurcharth.freeboard_step (sc l 1 Hs) (sc l 1 Dn50) (calculate_buoyant_density_Delta rho_armour 1025))
    (fun s => sc_lt) (fun s => by unfold KramerBurcharth.freeboard_step; dims []) max_iter
    ⟨pinf, pinf, Rc_Dn50_init * Dn50⟩
  dsimp only at h ⊢
  rw [sc_pinf, ← mul_sc] at h
  rw [h]
  unfold KramerBurcharth.check_validity_range
  dims [map_bind, map_pure]

theorem Jumelet2024_calculate_significant_wave_height_Hs (Tmm10 N_waves cot_alpha rho_armour S Dn50 M50 c_pl g smm10_init : PF)
    (max_iter : ℕ) (tolerance : PF) :
    Jumelet2024.calculate_significant_wave_height_Hs (sc l (1 / 2) Tmm10) N_waves cot_alpha rho_armour S (sc l 1 Dn50) (sc l 3 M50) c_pl g smm10_init max_iter (sc l 1 tolerance) =
      sc l 1 <$> Jumelet2024.calculate_significant_wave_height_Hs Tmm10 N_waves cot_alpha rho_armour S Dn50 M50 c_pl g smm10_init max_iter tolerance := by
  unfold Jumelet2024.calculate_significant_wave_height_Hs
  rw [size, bind_map_left, map_bind]
  congr 1
  funext Dn50
  have h := loop_map (fun s : Jumelet2024.LoopState => (⟨sc l 1 s.diff, sc l 1 s.prev, s.ksi, s.Hs.map (sc l 1)⟩ : Jumelet2024.LoopState))
    (c := fun s => s.diff > tolerance) (c' := fun s => s.diff > sc l 1 tolerance)
    (b := Jumelet2024.height_step Tmm10 N_waves cot_alpha S Dn50 c_pl g (calculate_buoyant_density_Delta rho_armour 1025))
    (b' := Jumelet2024.height_step (sc l (1 / 2) Tmm10) N_waves cot_alpha S (sc l 1 Dn50) c_pl g (calculate_buoyant_density_Delta rho_armour 1025))
    (fun s => sc_lt) (fun s => by unfold Jumelet2024.height_step; dims [irib, Option.map_some]) max_iter
    ⟨pinf, smm10_init * npow Tmm10 2 * g / (2 * PF.pi),
      calculate_Iribarren_number_ksi (smm10_init * npow Tmm10 2 * g / (2 * PF.pi)) Tmm10 cot_alpha, none⟩
  dsimp only [Option.map_none] at h ⊢
  have e : smm10_init * npow (sc l (1 / 2) Tmm10) 2 * g / (2 * PF.pi) = sc l 1 (smm10_init * npow Tmm10 2 * g / (2 * PF.pi)) := by
    dims []
  rw [e, irib]
  rw [sc_pinf] at h
  rw [h]
  generalize whileIter _ _ _ _ = s
  rcases s with ⟨_, _, _, _ | Hs⟩
  · rfl
  · unfold Jumelet2024.check_validity_range
    dims [steep, irib, map_bind, map_pure, Option.map_some]

end ScaleProof
end
