import Verif.Lemmas.Scale
import Verif.Model.Etemad2020
/-! Dimensions of the quantities of `Verif/Model/Etemad2020.lean`. -/

open Classical
open PF
open CorePhysics CoreUtility
noncomputable section

namespace ScaleProof

variable {l : {x : ℝ // 0 < x}}
set_option maxHeartbeats 1000000

theorem Etemad2020_check_validity_range (Hs Tmm10 N_waves cot_alpha P S Dn50 Dn50_core rho_armour rho_water :
    PF) :
    Etemad2020.check_validity_range (sc l 1 Hs) (sc l (1 / 2) Tmm10) N_waves cot_alpha P S (sc l 1 Dn50) (sc l
        1 Dn50_core) rho_armour rho_water =
      Etemad2020.check_validity_range Hs Tmm10 N_waves cot_alpha P S Dn50 Dn50_core rho_armour rho_water := by
  unfold Etemad2020.check_validity_range
  dims [steep, steep_nan, steep_nan', irib, irib_nan, irib_nan', stab, stab_nan, stab_nan', map_bind,
      map_pure, bind_map_left]

theorem Etemad2020_calculate_permeability_coefficient_Cp (Dn50 Dn50_core : PF) :
    Etemad2020.calculate_permeability_coefficient_Cp (sc l 1 Dn50) (sc l 1 Dn50_core) =
      Etemad2020.calculate_permeability_coefficient_Cp Dn50 Dn50_core := by
  unfold Etemad2020.calculate_permeability_coefficient_Cp
  dims []

theorem Etemad2020_calculate_damage_number_S (Hs Tmm10 N_waves cot_alpha rho_armour Dn50 M50 Dn50_core
    M50_core rho_core rho_water m : PF) (use_depth_limited_version : Bool) :
    Etemad2020.calculate_damage_number_S (sc l 1 Hs) (sc l (1 / 2) Tmm10) N_waves cot_alpha rho_armour (sc l 1
        Dn50) (sc l 3 M50) (sc l 1 Dn50_core) (sc l 3 M50_core) rho_core rho_water m use_depth_limited_version
        =
      Etemad2020.calculate_damage_number_S Hs Tmm10 N_waves cot_alpha rho_armour Dn50 M50 Dn50_core M50_core
          rho_core rho_water m use_depth_limited_version := by
  unfold Etemad2020.calculate_damage_number_S Etemad2020.check_validity_range
  dims [steep, steep_nan, steep_nan', irib, irib_nan, irib_nan', stab, stab_nan, stab_nan', size, map_bind,
      map_pure, bind_map_left, Etemad2020_check_validity_range,
      Etemad2020_calculate_permeability_coefficient_Cp]

theorem Etemad2020_calculate_significant_wave_height_Hs (Tmm10 N_waves cot_alpha rho_armour S Dn50 M50
    Dn50_core M50_core rho_core m : PF) (use_depth_limited_version : Bool) (g : PF) :
    Etemad2020.calculate_significant_wave_height_Hs (sc l (1 / 2) Tmm10) N_waves cot_alpha rho_armour S (sc l
        1 Dn50) (sc l 3 M50) (sc l 1 Dn50_core) (sc l 3 M50_core) rho_core m use_depth_limited_version g =
      sc l 1 <$> Etemad2020.calculate_significant_wave_height_Hs Tmm10 N_waves cot_alpha rho_armour S Dn50 M50
          Dn50_core M50_core rho_core m use_depth_limited_version g := by
  unfold Etemad2020.calculate_significant_wave_height_Hs Etemad2020.check_validity_range
  dims [steep, steep_nan, steep_nan', irib, irib_nan, irib_nan', stab, stab_nan, stab_nan', size, map_bind,
      map_pure, bind_map_left, Etemad2020_check_validity_range,
      Etemad2020_calculate_permeability_coefficient_Cp]

theorem Etemad_loop (c e Hs Delta N_waves S ksi inf core Cp_init : PF) (n : ℕ) (tol : PF) :
    (Etemad2020.size_loop c e (sc l 1 Hs) Delta N_waves S ksi inf (sc l 1 core) Cp_init n (sc l 1 tol)).Dn50 =
      (Etemad2020.size_loop c e Hs Delta N_waves S ksi inf core Cp_init n tol).Dn50.map (sc l 1) := by
  unfold Etemad2020.size_loop
  have h := loop_map (fun s : Etemad2020.LoopState => (⟨sc l 1 s.diff, sc l 1 s.prev, s.Cp, s.Dn50.map (sc l 1)⟩ : Etemad2020.LoopState))
    (c := fun s => s.diff > tol) (c' := fun s => s.diff > sc l 1 tol)
    (b := Etemad2020.size_step c e Hs Delta N_waves S ksi inf core)
    (b' := Etemad2020.size_step c e (sc l 1 Hs) Delta N_waves S ksi inf (sc l 1 core))
    (fun s => sc_lt) (fun s => by unfold Etemad2020.size_step Etemad2020.calculate_permeability_coefficient_Cp; dims [Option.map_some]) n
    ⟨pinf, pinf, Cp_init, none⟩
  dsimp only [Option.map_none] at h
  rw [sc_pinf] at h
  rw [h]

theorem Etemad_bound (o : Option PF) : Etemad2020.bound (o.map (sc l 1)) = sc l 1 <$> Etemad2020.bound o := by
  cases o <;> rfl

theorem Etemad2020_calculate_nominal_rock_diameter_Dn50 (Hs Tmm10 N_waves cot_alpha rho_armour S Dn50_core M50_core rho_core m : PF)
    (use_depth_limited_version : Bool) (Cp_init : PF) (max_iter : ℕ) (tolerance : PF) :
    Etemad2020.calculate_nominal_rock_diameter_Dn50 (sc l 1 Hs) (sc l (1 / 2) Tmm10) N_waves cot_alpha rho_armour S (sc l 1 Dn50_core) (sc l 3 M50_core) rho_core m use_depth_limited_version Cp_init max_iter (sc l 1 tolerance) =
      sc l 1 <$> Etemad2020.calculate_nominal_rock_diameter_Dn50 Hs Tmm10 N_waves cot_alpha rho_armour S Dn50_core M50_core rho_core m use_depth_limited_version Cp_init max_iter tolerance := by
  unfold Etemad2020.calculate_nominal_rock_diameter_Dn50
  unfold Etemad2020.check_validity_range
  dims [steep, irib, stab, size, Etemad_loop, Etemad_bound, map_bind, map_pure, bind_map_left]

end ScaleProof
end
