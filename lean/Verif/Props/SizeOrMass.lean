import Verif.SpecMass
import Verif.Props.Core
import Verif.Model.VanDerMeer
import Verif.Model.Etemad2020
import Verif.Model.RockArmourOther
import Verif.Model.RearSlope

/-! # C90: rock given by its mass or by its size -/

open PF CorePhysics
noncomputable section

namespace SizeOrMass
variable {α β : Type}

private theorem mass_eq (D r : ℝ) (hD : 0 < D) (hr : 0 < r) :
    calculate_Dn50_from_M50 (fin (r * D ^ 3)) (fin r) = fin D := by
  obtain ⟨M, hM, h1, h2⟩ := C02_Dn50_of_M50_of_Dn50 D r hD hr
  obtain rfl : r * D ^ 3 = M := by
    unfold calculate_M50_from_Dn50 at h1; revert h1; pf_eval []; exact id
  exact h2

private theorem res_congr {x y : PyM α} (h : x.res = y.res) (f : α → PyM β) : (x >>= f).res = (y >>= f).res := by
  obtain ⟨w, r⟩ := x
  obtain ⟨w', r'⟩ := y
  obtain rfl : r = r' := h
  cases r <;> rfl

theorem choose (rho : PF) : SizeOrMass rho fun D M => check_usage_Dn50_or_M50 D M rho where
  mass D r hD hr h := by
    subst h
    simp [check_usage_Dn50_or_M50, mass_eq D r hD hr]
  no_density D hD h := by
    subst h
    have := mass_eq D 2650 hD (by norm_num)
    simp [check_usage_Dn50_or_M50, ofNat_eq, this]
  both D M h := by
    have : ¬ D.isnan := fun hn => h (by cases D <;> first | rfl | cases hn)
    simp [check_usage_Dn50_or_M50, this]
  neither := by simp [check_usage_Dn50_or_M50]

theorem bind {rho : PF} {f : PF → PF → PyM α} (h : SizeOrMass rho f) (k : α → PyM β) :
    SizeOrMass rho fun D M => f D M >>= k where
  mass D r hD hr e := by rw [h.mass D r hD hr e]
  no_density D hD e := res_congr (h.no_density D hD e) k
  both D M e := by rw [h.both D M e]
  neither := by
    have := h.neither
    generalize f nan nan = x at this ⊢
    obtain ⟨w, r⟩ := x
    obtain rfl : r = _ := this
    rfl

theorem of (rho : PF) (k : PF → PyM β) : SizeOrMass rho fun D M => check_usage_Dn50_or_M50 D M rho >>= k :=
  (choose rho).bind k

theorem later {rho : PF} (x : PyM α) (hx : ∀ e, x.res = .error e → e = .valueError) {g : α → PF → PF → PyM β}
    (h : ∀ a, SizeOrMass rho (g a)) : SizeOrMass rho fun D M => x >>= fun a => g a D M := by
  obtain ⟨w, e | a⟩ := x
  · obtain rfl := hx e rfl
    exact ⟨fun _ _ _ _ _ => rfl, fun _ _ _ => rfl, fun _ _ _ => rfl, rfl⟩
  · refine ⟨fun D r hD hr e => ?_, fun D hD e => ?_, fun D M e => ?_, ?_⟩
    · exact congrArg (fun y : PyM β => (⟨w, .ok a⟩ : PyM α) >>= fun _ => y) ((h a).mass D r hD hr e)
    · exact (h a).no_density D hD e
    · exact congrArg (fun y : PyM β => (⟨w, .ok a⟩ : PyM α) >>= fun _ => y) ((h a).both D M e)
    · exact (h a).neither

private theorem size_error (D M rho : PF) : ∀ e, (check_usage_Dn50_or_M50 D M rho).res = .error e → e = .valueError :=
  fun e h => ((C04_error_iff _ _ _ e).1 h).2.2

private theorem depth_error (m : PF) (b : Bool) : ∀ e, (Etemad2020.depth_limitation m b).res = .error e →
    e = .valueError := by
  intro e h
  unfold Etemad2020.depth_limitation at h
  split_ifs at h
  all_goals cases h
  rfl

end SizeOrMass

theorem C90_Etemad2020_calculate_damage_number_S (Hs Tmm10 N_waves cot_alpha rho_armour Dn50_core M50_core rho_core
    rho_water m : PF) (use_depth_limited_version : Bool) : SizeOrMass rho_armour fun Dn50 M50 =>
    Etemad2020.calculate_damage_number_S Hs Tmm10 N_waves cot_alpha rho_armour Dn50 M50 Dn50_core M50_core rho_core
    rho_water m use_depth_limited_version :=
  .later _ (SizeOrMass.depth_error _ _) fun _ => .of _ _

example := (C90_Etemad2020_calculate_damage_number_S (.fin 2) (.fin 7) (.fin 3000) (.fin 2) (.fin 2650) (.fin 0.3)
  (.fin 70) (.fin 2650) (.fin 1025) (.fin 0.02) false).mass 1.2 2650 (by norm_num) (by norm_num) rfl

theorem C90_Etemad2020_calculate_damage_number_S_core (Hs Tmm10 N_waves cot_alpha rho_armour Dn50 M50 rho_core
    rho_water m : PF) (use_depth_limited_version : Bool) : SizeOrMass rho_core fun Dn50_core M50_core =>
    Etemad2020.calculate_damage_number_S Hs Tmm10 N_waves cot_alpha rho_armour Dn50 M50 Dn50_core M50_core rho_core
    rho_water m use_depth_limited_version :=
  .later _ (SizeOrMass.depth_error _ _) fun _ => .later _ (SizeOrMass.size_error _ _ _) fun _ => .of _ _

example := (C90_Etemad2020_calculate_damage_number_S_core (.fin 2) (.fin 7) (.fin 3000) (.fin 2) (.fin 2650) (.fin
  1) (.fin 3000) (.fin 2650) (.fin 1025) (.fin 0.02) false).mass 1.2 2650 (by norm_num) (by norm_num) rfl

theorem C90_Etemad2020_calculate_nominal_rock_diameter_Dn50_core (Hs Tmm10 N_waves cot_alpha rho_armour S rho_core m
    : PF) (use_depth_limited_version : Bool) (Cp_init : PF) (max_iter : ℕ) (tolerance : PF) : SizeOrMass rho_core
    fun Dn50_core M50_core => Etemad2020.calculate_nominal_rock_diameter_Dn50 Hs Tmm10 N_waves cot_alpha rho_armour
    S Dn50_core M50_core rho_core m use_depth_limited_version Cp_init max_iter tolerance :=
  .later _ (SizeOrMass.depth_error _ _) fun _ => .of _ _

example := (C90_Etemad2020_calculate_nominal_rock_diameter_Dn50_core (.fin 2) (.fin 7) (.fin 3000) (.fin 2) (.fin
  2650) (.fin 2) (.fin 2650) (.fin 0.02) false (.fin 1) 100 (.fin 1e-4)).mass 1.2 2650 (by norm_num) (by norm_num)
  rfl

theorem C90_Etemad2020_calculate_significant_wave_height_Hs (Tmm10 N_waves cot_alpha rho_armour S Dn50_core M50_core
    rho_core m : PF) (use_depth_limited_version : Bool) (g : PF) : SizeOrMass rho_armour fun Dn50 M50 =>
    Etemad2020.calculate_significant_wave_height_Hs Tmm10 N_waves cot_alpha rho_armour S Dn50 M50 Dn50_core M50_core
    rho_core m use_depth_limited_version g :=
  .later _ (SizeOrMass.depth_error _ _) fun _ => .of _ _

example := (C90_Etemad2020_calculate_significant_wave_height_Hs (.fin 7) (.fin 3000) (.fin 2) (.fin 2650) (.fin 2)
  (.fin 0.3) (.fin 70) (.fin 2650) (.fin 0.02) false (.fin 9.81)).mass 1.2 2650 (by norm_num) (by norm_num) rfl

theorem C90_Etemad2020_calculate_significant_wave_height_Hs_core (Tmm10 N_waves cot_alpha rho_armour S Dn50 M50
    rho_core m : PF) (use_depth_limited_version : Bool) (g : PF) : SizeOrMass rho_core fun Dn50_core M50_core =>
    Etemad2020.calculate_significant_wave_height_Hs Tmm10 N_waves cot_alpha rho_armour S Dn50 M50 Dn50_core M50_core
    rho_core m use_depth_limited_version g :=
  .later _ (SizeOrMass.depth_error _ _) fun _ => .later _ (SizeOrMass.size_error _ _ _) fun _ => .of _ _

example := (C90_Etemad2020_calculate_significant_wave_height_Hs_core (.fin 7) (.fin 3000) (.fin 2) (.fin 2650) (.fin
  2) (.fin 1) (.fin 3000) (.fin 2650) (.fin 0.02) false (.fin 9.81)).mass 1.2 2650 (by norm_num) (by norm_num) rfl

theorem C90_VanGent2007Rear_calculate_damage_number_S (cot_alpha cot_phi gamma Hs Tmm10 Rc Rc2_front Rc2_rear
    N_waves rho_rock : PF) : SizeOrMass rho_rock fun Dn50 M50 => VanGent2007Rear.calculate_damage_number_S cot_alpha
    cot_phi gamma Hs Tmm10 Rc Rc2_front Rc2_rear N_waves Dn50 M50 rho_rock :=
  .of _ _

example := (C90_VanGent2007Rear_calculate_damage_number_S (.fin 2) (.fin 2) (.fin 0.5) (.fin 2) (.fin 7) (.fin 3)
  (.fin 1) (.fin 1) (.fin 3000) (.fin 2650)).mass 1.2 2650 (by norm_num) (by norm_num) rfl

theorem C90_VanGent2007Rear_calculate_maximum_significant_wave_height_Hs (cot_alpha cot_phi gamma S Tmm10 Rc
    Rc2_front Rc2_rear N_waves rho_rock tolerance : PF) (max_iterations : ℕ) : SizeOrMass rho_rock fun Dn50 M50 =>
    VanGent2007Rear.calculate_maximum_significant_wave_height_Hs cot_alpha cot_phi gamma S Tmm10 Rc Rc2_front
    Rc2_rear N_waves Dn50 M50 rho_rock tolerance max_iterations :=
  .of _ _

example := (C90_VanGent2007Rear_calculate_maximum_significant_wave_height_Hs (.fin 2) (.fin 2) (.fin 0.5) (.fin 2)
  (.fin 7) (.fin 3) (.fin 1) (.fin 1) (.fin 3000) (.fin 2650) (.fin 1e-4) 100).mass 1.2 2650 (by norm_num) (by
  norm_num) rfl

theorem C90_VanGentPozueta2004_calculate_damage_number_S (cot_alpha cot_phi gamma_f gamma_f_Crest Hs Tmm10 Rc
    Rc_rear Bc N_waves rho_rock rho_water cs : PF) : SizeOrMass rho_rock fun Dn50 M50 =>
    VanGentPozueta2004.calculate_damage_number_S cot_alpha cot_phi gamma_f gamma_f_Crest Hs Tmm10 Rc Rc_rear Bc
    N_waves Dn50 M50 rho_rock rho_water cs :=
  .of _ _

example := (C90_VanGentPozueta2004_calculate_damage_number_S (.fin 2) (.fin 2) (.fin 0.5) (.fin 1) (.fin 2) (.fin 7)
  (.fin 3) (.fin 1) (.fin 5) (.fin 3000) (.fin 2650) (.fin 1025) (.fin 1)).mass 1.2 2650 (by norm_num) (by norm_num)
  rfl

theorem C90_VanGentPozueta2004_calculate_maximum_significant_wave_height_Hs (cot_alpha cot_phi gamma_f gamma_f_Crest
    S Tmm10 Rc Rc_rear Bc N_waves rho_rock rho_water cs tolerance : PF) (max_iterations : ℕ) : SizeOrMass rho_rock
    fun Dn50 M50 => VanGentPozueta2004.calculate_maximum_significant_wave_height_Hs cot_alpha cot_phi gamma_f
    gamma_f_Crest S Tmm10 Rc Rc_rear Bc N_waves Dn50 M50 rho_rock rho_water cs tolerance max_iterations :=
  .of _ _

example := (C90_VanGentPozueta2004_calculate_maximum_significant_wave_height_Hs (.fin 2) (.fin 2) (.fin 0.5) (.fin
  1) (.fin 2) (.fin 7) (.fin 3) (.fin 1) (.fin 5) (.fin 3000) (.fin 2650) (.fin 1025) (.fin 1) (.fin 1e-4) 100).mass
  1.2 2650 (by norm_num) (by norm_num) rfl

theorem C90_Jumelet2024_calculate_damage_number_S (Hs Tmm10 N_waves cot_alpha rho_armour c_pl rho_water : PF) :
    SizeOrMass rho_armour fun Dn50 M50 => Jumelet2024.calculate_damage_number_S Hs Tmm10 N_waves cot_alpha
    rho_armour Dn50 M50 c_pl rho_water :=
  .of _ _

example := (C90_Jumelet2024_calculate_damage_number_S (.fin 2) (.fin 7) (.fin 3000) (.fin 2) (.fin 2650) (.fin 6.2)
  (.fin 1025)).mass 1.2 2650 (by norm_num) (by norm_num) rfl

theorem C90_Jumelet2024_calculate_significant_wave_height_Hs (Tmm10 N_waves cot_alpha rho_armour S c_pl g smm10_init
    : PF) (max_iter : ℕ) (tolerance : PF) : SizeOrMass rho_armour fun Dn50 M50 =>
    Jumelet2024.calculate_significant_wave_height_Hs Tmm10 N_waves cot_alpha rho_armour S Dn50 M50 c_pl g smm10_init
    max_iter tolerance :=
  .of _ _

example := (C90_Jumelet2024_calculate_significant_wave_height_Hs (.fin 7) (.fin 3000) (.fin 2) (.fin 2650) (.fin 2)
  (.fin 6.2) (.fin 9.81) (.fin 1) 100 (.fin 1e-4)).mass 1.2 2650 (by norm_num) (by norm_num) rfl

theorem C90_Scaravaglione2025_calculate_damage_number_S (Hm0 Tmm10 N_waves cot_alpha rho_armour rho_core Dn50_core
    M50_core c_VGnew rho_water : PF) : SizeOrMass rho_armour fun Dn50 M50 =>
    Scaravaglione2025.calculate_damage_number_S Hm0 Tmm10 N_waves cot_alpha rho_armour rho_core Dn50 Dn50_core M50
    M50_core c_VGnew rho_water :=
  .of _ _

example := (C90_Scaravaglione2025_calculate_damage_number_S (.fin 2) (.fin 7) (.fin 3000) (.fin 2) (.fin 2650) (.fin
  2650) (.fin 0.3) (.fin 70) (.fin 1) (.fin 1025)).mass 1.2 2650 (by norm_num) (by norm_num) rfl

theorem C90_Scaravaglione2025_calculate_damage_number_S_core (Hm0 Tmm10 N_waves cot_alpha rho_armour rho_core Dn50
    M50 c_VGnew rho_water : PF) : SizeOrMass rho_core fun Dn50_core M50_core =>
    Scaravaglione2025.calculate_damage_number_S Hm0 Tmm10 N_waves cot_alpha rho_armour rho_core Dn50 Dn50_core M50
    M50_core c_VGnew rho_water :=
  .later _ (SizeOrMass.size_error _ _ _) fun _ => .of _ _

example := (C90_Scaravaglione2025_calculate_damage_number_S_core (.fin 2) (.fin 7) (.fin 3000) (.fin 2) (.fin 2650)
  (.fin 2650) (.fin 1) (.fin 3000) (.fin 1) (.fin 1025)).mass 1.2 2650 (by norm_num) (by norm_num) rfl

theorem C90_Scaravaglione2025_calculate_nominal_rock_diameter_Dn50_core (Hm0 Tmm10 N_waves cot_alpha rho_armour
    rho_core S c_VGnew rho_water : PF) : SizeOrMass rho_core fun Dn50_core M50_core =>
    Scaravaglione2025.calculate_nominal_rock_diameter_Dn50 Hm0 Tmm10 N_waves cot_alpha rho_armour rho_core S
    Dn50_core M50_core c_VGnew rho_water :=
  .of _ _

example := (C90_Scaravaglione2025_calculate_nominal_rock_diameter_Dn50_core (.fin 2) (.fin 7) (.fin 3000) (.fin 2)
  (.fin 2650) (.fin 2650) (.fin 2) (.fin 1) (.fin 1025)).mass 1.2 2650 (by norm_num) (by norm_num) rfl

theorem C90_Scaravaglione2025_calculate_significant_wave_height_Hm0 (Tmm10 N_waves cot_alpha rho_armour rho_core S
    Dn50_core M50_core c_VGnew g rho_water : PF) : SizeOrMass rho_armour fun Dn50 M50 =>
    Scaravaglione2025.calculate_significant_wave_height_Hm0 Tmm10 N_waves cot_alpha rho_armour rho_core S Dn50
    Dn50_core M50 M50_core c_VGnew g rho_water :=
  .of _ _

example := (C90_Scaravaglione2025_calculate_significant_wave_height_Hm0 (.fin 7) (.fin 3000) (.fin 2) (.fin 2650)
  (.fin 2650) (.fin 2) (.fin 0.3) (.fin 70) (.fin 1) (.fin 9.81) (.fin 1025)).mass 1.2 2650 (by norm_num) (by
  norm_num) rfl

theorem C90_Scaravaglione2025_calculate_significant_wave_height_Hm0_core (Tmm10 N_waves cot_alpha rho_armour
    rho_core S Dn50 M50 c_VGnew g rho_water : PF) : SizeOrMass rho_core fun Dn50_core M50_core =>
    Scaravaglione2025.calculate_significant_wave_height_Hm0 Tmm10 N_waves cot_alpha rho_armour rho_core S Dn50
    Dn50_core M50 M50_core c_VGnew g rho_water :=
  .later _ (SizeOrMass.size_error _ _ _) fun _ => .of _ _

example := (C90_Scaravaglione2025_calculate_significant_wave_height_Hm0_core (.fin 7) (.fin 3000) (.fin 2) (.fin
  2650) (.fin 2650) (.fin 2) (.fin 1) (.fin 3000) (.fin 1) (.fin 9.81) (.fin 1025)).mass 1.2 2650 (by norm_num) (by
  norm_num) rfl

theorem C90_KramerBurcharth_calculate_significant_wave_height_Hs (Rc rho_armour : PF) : SizeOrMass rho_armour fun
    Dn50 M50 => KramerBurcharth.calculate_significant_wave_height_Hs Rc rho_armour Dn50 M50 :=
  .of _ _

example := (C90_KramerBurcharth_calculate_significant_wave_height_Hs (.fin 3) (.fin 2650)).mass 1.2 2650 (by
  norm_num) (by norm_num) rfl

theorem C90_KramerBurcharth_calculate_crest_freeboard_Rc (Hs rho_armour Rc_Dn50_init : PF) (max_iter : ℕ) (tolerance
    : PF) : SizeOrMass rho_armour fun Dn50 M50 => KramerBurcharth.calculate_crest_freeboard_Rc Hs rho_armour Dn50
    M50 Rc_Dn50_init max_iter tolerance :=
  .of _ _

example := (C90_KramerBurcharth_calculate_crest_freeboard_Rc (.fin 2) (.fin 2650) (.fin 1) 100 (.fin 1e-4)).mass 1.2
  2650 (by norm_num) (by norm_num) rfl

theorem C90_VdM1988_calculate_damage_number_S (Hs H2p Tm N_waves cot_alpha P rho_armour c_pl c_s rho_water : PF) :
    SizeOrMass rho_armour fun Dn50 M50 => VdM1988.calculate_damage_number_S Hs H2p Tm N_waves cot_alpha P rho_armour
    Dn50 M50 c_pl c_s rho_water :=
  .of _ _

example := (C90_VdM1988_calculate_damage_number_S (.fin 2) (.fin 2.8) (.fin 7) (.fin 3000) (.fin 2) (.fin 0.4) (.fin
  2650) (.fin 6.2) (.fin 1) (.fin 1025)).mass 1.2 2650 (by norm_num) (by norm_num) rfl

theorem C90_VdM1988_calculate_significant_wave_height_Hs (ratio_H2p_Hs Tm N_waves cot_alpha P rho_armour S c_pl c_s
    g rho_water : PF) : SizeOrMass rho_armour fun Dn50 M50 => VdM1988.calculate_significant_wave_height_Hs
    ratio_H2p_Hs Tm N_waves cot_alpha P rho_armour S Dn50 M50 c_pl c_s g rho_water :=
  .of _ _

example := (C90_VdM1988_calculate_significant_wave_height_Hs (.fin 1) (.fin 7) (.fin 3000) (.fin 2) (.fin 0.4) (.fin
  2650) (.fin 2) (.fin 6.2) (.fin 1) (.fin 9.81) (.fin 1025)).mass 1.2 2650 (by norm_num) (by norm_num) rfl

theorem C90_VdMModified_calculate_damage_number_S (Hs H2p Tmm10 N_waves cot_alpha P rho_armour c_pl c_s rho_water :
    PF) : SizeOrMass rho_armour fun Dn50 M50 => VdMModified.calculate_damage_number_S Hs H2p Tmm10 N_waves cot_alpha
    P rho_armour Dn50 M50 c_pl c_s rho_water :=
  .of _ _

example := (C90_VdMModified_calculate_damage_number_S (.fin 2) (.fin 2.8) (.fin 7) (.fin 3000) (.fin 2) (.fin 0.4)
  (.fin 2650) (.fin 6.2) (.fin 1) (.fin 1025)).mass 1.2 2650 (by norm_num) (by norm_num) rfl

theorem C90_VdMModified_calculate_significant_wave_height_Hs (ratio_H2p_Hs Tmm10 N_waves cot_alpha P rho_armour S
    c_pl c_s g rho_water : PF) : SizeOrMass rho_armour fun Dn50 M50 =>
    VdMModified.calculate_significant_wave_height_Hs ratio_H2p_Hs Tmm10 N_waves cot_alpha P rho_armour S Dn50 M50
    c_pl c_s g rho_water :=
  .of _ _

example := (C90_VdMModified_calculate_significant_wave_height_Hs (.fin 1) (.fin 7) (.fin 3000) (.fin 2) (.fin 0.4)
  (.fin 2650) (.fin 2) (.fin 6.2) (.fin 1) (.fin 9.81) (.fin 1025)).mass 1.2 2650 (by norm_num) (by norm_num) rfl

theorem C90_VdM2021_calculate_damage_number_S (Hs Tmm10 N_waves cot_alpha P rho_armour c_pl c_s c_pl_mult c_s_mult :
    PF) : SizeOrMass rho_armour fun Dn50 M50 => VdM2021.calculate_damage_number_S Hs Tmm10 N_waves cot_alpha P
    rho_armour Dn50 M50 c_pl c_s c_pl_mult c_s_mult :=
  .bind (.of _ _) _

example := (C90_VdM2021_calculate_damage_number_S (.fin 2) (.fin 7) (.fin 3000) (.fin 2) (.fin 0.4) (.fin 2650)
  (.fin 6.2) (.fin 1) (.fin 1) (.fin 1)).mass 1.2 2650 (by norm_num) (by norm_num) rfl

theorem C90_VdM2021_calculate_significant_wave_height_Hs (Tmm10 N_waves cot_alpha P rho_armour S c_pl c_s c_pl_mult
    c_s_mult g : PF) : SizeOrMass rho_armour fun Dn50 M50 => VdM2021.calculate_significant_wave_height_Hs Tmm10
    N_waves cot_alpha P rho_armour S Dn50 M50 c_pl c_s c_pl_mult c_s_mult g :=
  .bind (.of _ _) _

example := (C90_VdM2021_calculate_significant_wave_height_Hs (.fin 7) (.fin 3000) (.fin 2) (.fin 0.4) (.fin 2650)
  (.fin 2) (.fin 6.2) (.fin 1) (.fin 1) (.fin 1) (.fin 9.81)).mass 1.2 2650 (by norm_num) (by norm_num) rfl

end
