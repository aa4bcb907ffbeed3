import Verif.Lemmas.ArrayIter
import Verif.Lemmas.ArrayExample
import Verif.Lemmas.ArrayIterEtemad

/-! # Iterations over arrays (C84) -/

open Classical
open Arrays
noncomputable section
variable {n : ℕ}

theorem C84_KramerBurcharth_calculate_nominal_rock_diameter_Dn50 [NeZero n]
    (Hs Rc rho_armour Ns_init : Val n) (max_iter : ℕ) (t : ℝ) :
    IteratedTogether
      (Arr.KramerBurcharth.calculate_nominal_rock_diameter_Dn50 Hs Rc rho_armour Ns_init max_iter (.fin t))
      (fun i => KramerBurcharth.calculate_nominal_rock_diameter_Dn50 (Hs.get i) (Rc.get i)
        (rho_armour.get i) (Ns_init.get i) max_iter (.fin t))
      (fun k i => KramerBurcharth.calculate_nominal_rock_diameter_Dn50 (Hs.get i) (Rc.get i)
        (rho_armour.get i) (Ns_init.get i) k (-1.0)) max_iter t :=
  ArrProof.KramerBurcharth_calculate_nominal_rock_diameter_Dn50 Hs Rc rho_armour Ns_init max_iter t

example := C84_KramerBurcharth_calculate_nominal_rock_diameter_Dn50 (n := 2) ArrEx.two ArrEx.two (.num 2650)
  (.num 2) 1000 1e-5

theorem C84_KramerBurcharth_calculate_crest_freeboard_Rc [NeZero n]
    (Hs rho_armour Dn50 M50 Rc_Dn50_init : Val n) (max_iter : ℕ) (t : ℝ)
    (h_Dn50 : Dn50.Uniform) (h_M50 : M50.Uniform) (h_rho_armour : rho_armour.Uniform) :
    IteratedTogether
      (Arr.KramerBurcharth.calculate_crest_freeboard_Rc Hs rho_armour Dn50 M50 Rc_Dn50_init max_iter (.fin t))
      (fun i => KramerBurcharth.calculate_crest_freeboard_Rc (Hs.get i) (rho_armour.get i)
        (Dn50.get i) (M50.get i) (Rc_Dn50_init.get i) max_iter (.fin t))
      (fun k i => KramerBurcharth.calculate_crest_freeboard_Rc (Hs.get i) (rho_armour.get i)
        (Dn50.get i) (M50.get i) (Rc_Dn50_init.get i) k (-1.0)) max_iter t :=
    ArrProof.KramerBurcharth_calculate_crest_freeboard_Rc Hs rho_armour Dn50 M50 Rc_Dn50_init max_iter t
    h_Dn50 h_M50 h_rho_armour

example := C84_KramerBurcharth_calculate_crest_freeboard_Rc (n := 2) ArrEx.two ArrEx.two ArrEx.two ArrEx.two
  ArrEx.two 1000 1e-5 (by arr_ex) (by arr_ex) (by arr_ex)

theorem C84_Jumelet2024_calculate_significant_wave_height_Hs [NeZero n]
    (Tmm10 N_waves cot_alpha rho_armour S Dn50 M50 c_pl g smm10_init : Val n) (max_iter : ℕ) (t : ℝ)
    (h_Dn50 : Dn50.Uniform) (h_M50 : M50.Uniform) (h_rho_armour : rho_armour.Uniform) :
    IteratedTogether
      (Arr.Jumelet2024.calculate_significant_wave_height_Hs Tmm10 N_waves cot_alpha rho_armour S Dn50
        M50 c_pl g smm10_init max_iter (.fin t))
      (fun i => Jumelet2024.calculate_significant_wave_height_Hs (Tmm10.get i) (N_waves.get i)
        (cot_alpha.get i) (rho_armour.get i) (S.get i) (Dn50.get i) (M50.get i) (c_pl.get i) (g.get i)
        (smm10_init.get i) max_iter (.fin t))
      (fun k i => Jumelet2024.calculate_significant_wave_height_Hs (Tmm10.get i) (N_waves.get i)
        (cot_alpha.get i) (rho_armour.get i) (S.get i) (Dn50.get i) (M50.get i) (c_pl.get i) (g.get i)
        (smm10_init.get i) k (-1.0)) max_iter t :=
    ArrProof.Jumelet2024_calculate_significant_wave_height_Hs Tmm10 N_waves cot_alpha rho_armour S Dn50 M50
    c_pl g smm10_init max_iter t h_Dn50 h_M50 h_rho_armour

example := C84_Jumelet2024_calculate_significant_wave_height_Hs (n := 2) ArrEx.two ArrEx.two ArrEx.two
  ArrEx.two ArrEx.two ArrEx.two ArrEx.two ArrEx.two ArrEx.two ArrEx.two 1000 1e-5 (by arr_ex) (by arr_ex)
  (by arr_ex)

theorem C84_VanGent2007Rear_calculate_maximum_significant_wave_height_Hs [NeZero n]
    (cot_alpha cot_phi gamma S Tmm10 Rc Rc2_front Rc2_rear N_waves Dn50 M50 rho_rock : Val n) (t : ℝ)
    (max_iterations : ℕ)
    (h_Dn50 : Dn50.Uniform) (h_M50 : M50.Uniform) (h_rho_rock : rho_rock.Uniform) :
    IteratedTogether
      (Arr.VanGent2007Rear.calculate_maximum_significant_wave_height_Hs cot_alpha cot_phi gamma S Tmm10 Rc
        Rc2_front Rc2_rear N_waves Dn50 M50 rho_rock (.fin t) max_iterations)
      (fun i => VanGent2007Rear.calculate_maximum_significant_wave_height_Hs (cot_alpha.get i)
        (cot_phi.get i) (gamma.get i) (S.get i) (Tmm10.get i) (Rc.get i) (Rc2_front.get i)
        (Rc2_rear.get i) (N_waves.get i) (Dn50.get i) (M50.get i) (rho_rock.get i) (.fin t) max_iterations)
      (fun k i => VanGent2007Rear.calculate_maximum_significant_wave_height_Hs (cot_alpha.get i)
        (cot_phi.get i) (gamma.get i) (S.get i) (Tmm10.get i) (Rc.get i) (Rc2_front.get i)
        (Rc2_rear.get i) (N_waves.get i) (Dn50.get i) (M50.get i) (rho_rock.get i) (-1.0) k)
      max_iterations t :=
    ArrProof.VanGent2007Rear_calculate_maximum_significant_wave_height_Hs cot_alpha cot_phi gamma S Tmm10 Rc
    Rc2_front Rc2_rear N_waves Dn50 M50 rho_rock t max_iterations h_Dn50 h_M50 h_rho_rock

example := C84_VanGent2007Rear_calculate_maximum_significant_wave_height_Hs (n := 2) ArrEx.two ArrEx.two
  ArrEx.two ArrEx.two ArrEx.two ArrEx.two ArrEx.two ArrEx.two ArrEx.two ArrEx.two ArrEx.two ArrEx.two 1e-5
  1000 (by arr_ex) (by arr_ex) (by arr_ex)

theorem C84_VanGentPozueta2004_calculate_maximum_significant_wave_height_Hs [NeZero n]
    (cot_alpha cot_phi gamma_f gamma_f_Crest S Tmm10 Rc Rc_rear Bc N_waves Dn50 M50 rho_rock rho_water
      cs : Val n) (t : ℝ) (max_iterations : ℕ)
    (h_Dn50 : Dn50.Uniform) (h_M50 : M50.Uniform) (h_rho_rock : rho_rock.Uniform) :
    IteratedTogether
      (Arr.VanGentPozueta2004.calculate_maximum_significant_wave_height_Hs cot_alpha cot_phi gamma_f
        gamma_f_Crest S Tmm10 Rc Rc_rear Bc N_waves Dn50 M50 rho_rock rho_water cs (.fin t) max_iterations)
      (fun i => VanGentPozueta2004.calculate_maximum_significant_wave_height_Hs (cot_alpha.get i)
        (cot_phi.get i) (gamma_f.get i) (gamma_f_Crest.get i) (S.get i) (Tmm10.get i) (Rc.get i)
        (Rc_rear.get i) (Bc.get i) (N_waves.get i) (Dn50.get i) (M50.get i) (rho_rock.get i)
        (rho_water.get i) (cs.get i) (.fin t) max_iterations)
      (fun k i => VanGentPozueta2004.calculate_maximum_significant_wave_height_Hs (cot_alpha.get i)
        (cot_phi.get i) (gamma_f.get i) (gamma_f_Crest.get i) (S.get i) (Tmm10.get i) (Rc.get i)
        (Rc_rear.get i) (Bc.get i) (N_waves.get i) (Dn50.get i) (M50.get i) (rho_rock.get i)
        (rho_water.get i) (cs.get i) (-1.0) k) max_iterations t :=
  ArrProof.VanGentPozueta2004_calculate_maximum_significant_wave_height_Hs cot_alpha cot_phi gamma_f
    gamma_f_Crest S Tmm10 Rc Rc_rear Bc N_waves Dn50 M50 rho_rock rho_water cs t max_iterations h_Dn50 h_M50
    h_rho_rock

example := C84_VanGentPozueta2004_calculate_maximum_significant_wave_height_Hs (n := 2) ArrEx.two ArrEx.two
  ArrEx.two ArrEx.two ArrEx.two ArrEx.two ArrEx.two ArrEx.two ArrEx.two ArrEx.two ArrEx.two ArrEx.two
  ArrEx.two ArrEx.two ArrEx.two 1e-5 1000 (by arr_ex) (by arr_ex) (by arr_ex)

theorem C84_Etemad2020_calculate_nominal_rock_diameter_Dn50 [NeZero n]
    (Hs Tmm10 N_waves cot_alpha rho_armour S Dn50_core M50_core rho_core m : Val n)
    (use_depth_limited_version : Bool) (Cp_init : Val n) (max_iter : ℕ) (t : ℝ)
    (h_Hs : Positive Hs) (h_Tmm10 : Positive Tmm10) (h_N_waves : Positive N_waves)
    (h_cot_alpha : Positive cot_alpha) (h_rho_armour : ∀ i, ∃ r : ℝ, 1025 < r ∧ rho_armour.get i = .fin r)
    (h_S : Positive S) (h_core : Positive Dn50_core) (h_M50_core : M50_core.Uniform)
    (h_rho_core : rho_core.Uniform)
    (h_m : m.Uniform) (h_m' : use_depth_limited_version = true → ∀ i, ∃ r : ℝ, r < 1 / 3 ∧ m.get i = .fin r)
    (h_Cp : Positive Cp_init) (h_max : 0 < max_iter) :
    EachIterated
      (Arr.Etemad2020.calculate_nominal_rock_diameter_Dn50 Hs Tmm10 N_waves cot_alpha rho_armour S
        Dn50_core M50_core rho_core m use_depth_limited_version Cp_init max_iter (.fin t))
      (fun i => Etemad2020.calculate_nominal_rock_diameter_Dn50 (Hs.get i) (Tmm10.get i) (N_waves.get i)
        (cot_alpha.get i) (rho_armour.get i) (S.get i) (Dn50_core.get i) (M50_core.get i)
        (rho_core.get i) (m.get i) use_depth_limited_version (Cp_init.get i) max_iter (.fin t))
      (fun k i => Etemad2020.calculate_nominal_rock_diameter_Dn50 (Hs.get i) (Tmm10.get i) (N_waves.get i)
        (cot_alpha.get i) (rho_armour.get i) (S.get i) (Dn50_core.get i) (M50_core.get i)
        (rho_core.get i) (m.get i) use_depth_limited_version (Cp_init.get i) k (-1.0)) max_iter t :=
    ArrProof.Etemad2020_calculate_nominal_rock_diameter_Dn50 Hs Tmm10 N_waves cot_alpha rho_armour S
    Dn50_core M50_core rho_core m use_depth_limited_version Cp_init max_iter t h_Hs h_Tmm10 h_N_waves
    h_cot_alpha h_rho_armour h_S h_core h_M50_core h_rho_core h_m h_m' h_Cp h_max

example := C84_Etemad2020_calculate_nominal_rock_diameter_Dn50 (n := 2) ArrEx.two ArrEx.two ArrEx.two
  ArrEx.two (.num (.fin 2650)) ArrEx.two ArrEx.two ArrEx.two ArrEx.two ArrEx.two false ArrEx.two 1000 1e-5
  ArrEx.two_positive ArrEx.two_positive ArrEx.two_positive ArrEx.two_positive (fun _ => ⟨2650, by norm_num,
  rfl⟩) ArrEx.two_positive ArrEx.two_positive (by arr_ex) (by arr_ex) (by arr_ex) (fun h => by cases h)
  ArrEx.two_positive (by norm_num)

end
