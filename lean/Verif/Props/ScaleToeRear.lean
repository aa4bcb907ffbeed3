import Verif.SpecScale
import Verif.Lemmas.Scale.Toe
import Verif.Lemmas.Scale.RearSlope

/-! # C82: a scale model

Lengths times `lam`, times by its square root, gravity and densities as they are. Results without a
dimension are the same, and the others follow with their own dimension. Equality of the whole outcome:
the warnings and errors are the same too. -/

open Classical
open PF
open CorePhysics CoreUtility ScaleProof
noncomputable section

theorem C82_toe_gerding1993 {lam : ℝ} (hl : 0 < lam) :
    (∀ (Hs ht h Dn50 rho_rock rho_water : PF),
      Gerding1993.calculate_damage_Nod (Scale.len lam Hs) (Scale.len lam ht) (Scale.len lam h) (Scale.len lam Dn50) rho_rock rho_water =
        Gerding1993.calculate_damage_Nod Hs ht h Dn50 rho_rock rho_water) ∧
    (∀ (Hs ht h Nod rho_rock rho_water : PF),
      Gerding1993.calculate_nominal_diameter_Dn50 (Scale.len lam Hs) (Scale.len lam ht) (Scale.len lam h) Nod rho_rock rho_water =
        Scale.len lam <$> Gerding1993.calculate_nominal_diameter_Dn50 Hs ht h Nod rho_rock rho_water) ∧
    (∀ (Dn50 ht h Nod rho_rock rho_water : PF),
      Gerding1993.calculate_wave_height_Hs (Scale.len lam Dn50) (Scale.len lam ht) (Scale.len lam h) Nod rho_rock rho_water =
        Scale.len lam <$> Gerding1993.calculate_wave_height_Hs Dn50 ht h Nod rho_rock rho_water) ∧
    (∀ (Hs Dn50 h Nod rho_rock rho_water : PF),
      Gerding1993.calculate_depth_above_toe_ht (Scale.len lam Hs) (Scale.len lam Dn50) (Scale.len lam h) Nod rho_rock rho_water =
        Scale.len lam <$> Gerding1993.calculate_depth_above_toe_ht Hs Dn50 h Nod rho_rock rho_water) := by
  simp only [len_eq hl, time_eq hl, vel_eq hl, area_eq hl, disch_eq hl, vol_eq hl]
  exact ⟨Gerding1993_calculate_damage_Nod, Gerding1993_calculate_nominal_diameter_Dn50, Gerding1993_calculate_wave_height_Hs, Gerding1993_calculate_depth_above_toe_ht⟩

theorem C82_toe_vandermeer1998_partial {lam : ℝ} (hl : 0 < lam) :
    (∀ (Hs ht h Dn50 rho_rock rho_water : PF),
      (VanDerMeer1998.calculate_damage_Nod (Scale.len lam Hs) (Scale.len lam ht) (Scale.len lam h) (Scale.len lam Dn50) rho_rock rho_water).res =
        (VanDerMeer1998.calculate_damage_Nod Hs ht h Dn50 rho_rock rho_water).res) ∧
    (∀ (Hs ht h Nod rho_rock rho_water : PF),
      (VanDerMeer1998.calculate_nominal_diameter_Dn50 (Scale.len lam Hs) (Scale.len lam ht) (Scale.len lam h) Nod rho_rock rho_water).res =
        (Scale.len lam <$> VanDerMeer1998.calculate_nominal_diameter_Dn50 Hs ht h Nod rho_rock rho_water).res) ∧
    (∀ (Dn50 ht h Nod rho_rock rho_water : PF),
      (VanDerMeer1998.calculate_wave_height_Hs (Scale.len lam Dn50) (Scale.len lam ht) (Scale.len lam h) Nod rho_rock rho_water).res =
        (Scale.len lam <$> VanDerMeer1998.calculate_wave_height_Hs Dn50 ht h Nod rho_rock rho_water).res) ∧
    (∀ (Hs Dn50 h Nod rho_rock rho_water : PF),
      (VanDerMeer1998.calculate_depth_above_toe_ht (Scale.len lam Hs) (Scale.len lam Dn50) (Scale.len lam h) Nod rho_rock rho_water).res =
        (Scale.len lam <$> VanDerMeer1998.calculate_depth_above_toe_ht Hs Dn50 h Nod rho_rock rho_water).res) := by
  simp only [len_eq hl, time_eq hl, vel_eq hl, area_eq hl, disch_eq hl, vol_eq hl]
  exact ⟨VanDerMeer1998_calculate_damage_Nod, VanDerMeer1998_calculate_nominal_diameter_Dn50, VanDerMeer1998_calculate_wave_height_Hs, VanDerMeer1998_calculate_depth_above_toe_ht⟩

theorem C82_toe_vangentvanderwerf2014 {lam : ℝ} (hl : 0 < lam) :
    (∀ (Hs Tmm10 ht g : PF),
      VanGentVanDerWerf2014.calculate_velocity_u_delta (Scale.len lam Hs) (Scale.time lam Tmm10) (Scale.len lam ht) g =
        Scale.vel lam (VanGentVanDerWerf2014.calculate_velocity_u_delta Hs Tmm10 ht g)) ∧
    (∀ (Hm0 Tmm10 ht Bt tt Dn50 rho_rock rho_water cot_alpha_armour_slope g c1 c2 c3 c4 c5 : PF),
      VanGentVanDerWerf2014.calculate_damage_Nod (Scale.len lam Hm0) (Scale.time lam Tmm10) (Scale.len lam ht) (Scale.len lam Bt) (Scale.len lam tt) (Scale.len lam Dn50) rho_rock rho_water cot_alpha_armour_slope g c1 c2 c3 c4 c5 =
        VanGentVanDerWerf2014.calculate_damage_Nod Hm0 Tmm10 ht Bt tt Dn50 rho_rock rho_water cot_alpha_armour_slope g c1 c2 c3 c4 c5) ∧
    (∀ (Hm0 Tmm10 ht Bt tt Nod rho_rock rho_water cot_alpha_armour_slope g : PF),
      VanGentVanDerWerf2014.calculate_nominal_diameter_Dn50 (Scale.len lam Hm0) (Scale.time lam Tmm10) (Scale.len lam ht) (Scale.len lam Bt) (Scale.len lam tt) Nod rho_rock rho_water cot_alpha_armour_slope g =
        Scale.len lam <$> VanGentVanDerWerf2014.calculate_nominal_diameter_Dn50 Hm0 Tmm10 ht Bt tt Nod rho_rock rho_water cot_alpha_armour_slope g) := by
  simp only [len_eq hl, time_eq hl, vel_eq hl, area_eq hl, disch_eq hl, vol_eq hl]
  exact ⟨VanGentVanDerWerf2014_calculate_velocity_u_delta, VanGentVanDerWerf2014_calculate_damage_Nod, VanGentVanDerWerf2014_calculate_nominal_diameter_Dn50⟩

theorem C82_toe_etemadshahidi2021 {lam : ℝ} (hl : 0 < lam) :
    (∀ (Hs Tmm10 h ht Bt m Dn50 rho_rock rho_water g c1 c2 c3 c4 c5 c6 c7 : PF),
      EtemadShahidi2021.calculate_damage_Nod (Scale.len lam Hs) (Scale.time lam Tmm10) (Scale.len lam h) (Scale.len lam ht) (Scale.len lam Bt) m (Scale.len lam Dn50) rho_rock rho_water g c1 c2 c3 c4 c5 c6 c7 =
        EtemadShahidi2021.calculate_damage_Nod Hs Tmm10 h ht Bt m Dn50 rho_rock rho_water g c1 c2 c3 c4 c5 c6 c7) ∧
    (∀ (Hs Tmm10 h ht Bt Nod m rho_rock rho_water g c1 c2 c3 c4 c5 c6 c7 : PF),
      EtemadShahidi2021.calculate_nominal_diameter_Dn50 (Scale.len lam Hs) (Scale.time lam Tmm10) (Scale.len lam h) (Scale.len lam ht) (Scale.len lam Bt) Nod m rho_rock rho_water g c1 c2 c3 c4 c5 c6 c7 =
        Scale.len lam <$> EtemadShahidi2021.calculate_nominal_diameter_Dn50 Hs Tmm10 h ht Bt Nod m rho_rock rho_water g c1 c2 c3 c4 c5 c6 c7) := by
  simp only [len_eq hl, time_eq hl, vel_eq hl, area_eq hl, disch_eq hl, vol_eq hl]
  exact ⟨EtemadShahidi2021_calculate_damage_Nod, EtemadShahidi2021_calculate_nominal_diameter_Dn50⟩

theorem C82_toe_takahashi1990_partial {lam : ℝ} (hl : 0 < lam) {disper : PF → PF → PF → PF}
    (hd : Scale.Dispersion disper) :
    (∀ (Hs Tp hacc Bt beta g : PF),
      (Takahashi1990.calculate_stability_number_Ns disper (Scale.len lam Hs) (Scale.time lam Tp) (Scale.len lam hacc) (Scale.len lam Bt) beta g).res =
        (Takahashi1990.calculate_stability_number_Ns disper Hs Tp hacc Bt beta g).res) ∧
    (∀ (Hs Tp hacc Bt rho_rock rho_water beta g : PF),
      (Takahashi1990.calculate_nominal_diameter_Dn50 disper (Scale.len lam Hs) (Scale.time lam Tp) (Scale.len lam hacc) (Scale.len lam Bt) rho_rock rho_water beta g).res =
        (Scale.len lam <$> Takahashi1990.calculate_nominal_diameter_Dn50 disper Hs Tp hacc Bt rho_rock rho_water beta g).res) := by
  simp only [len_eq hl, time_eq hl, vel_eq hl, area_eq hl, disch_eq hl, vol_eq hl]
  exact ⟨Takahashi1990_calculate_stability_number_Ns (hdw hl hd), Takahashi1990_calculate_nominal_diameter_Dn50 (hdw hl hd)⟩

theorem C82_runup_vangent2001 {lam : ℝ} (hl : 0 < lam) :
    (∀ (H Tmm10 gamma cot_alpha c0 c1 : PF),
      VanGent2001.calculate_wave_runup_height_zXp (Scale.len lam H) (Scale.time lam Tmm10) gamma cot_alpha c0 c1 =
        Scale.len lam (VanGent2001.calculate_wave_runup_height_zXp H Tmm10 gamma cot_alpha c0 c1)) ∧
    (∀ (Hs Tmm10 gamma cot_alpha c0 c1 : PF),
      VanGent2001.calculate_wave_runup_height_z1p (Scale.len lam Hs) (Scale.time lam Tmm10) gamma cot_alpha c0 c1 =
        Scale.len lam (VanGent2001.calculate_wave_runup_height_z1p Hs Tmm10 gamma cot_alpha c0 c1)) ∧
    (∀ (Hs Tmm10 gamma cot_alpha c0 c1 : PF),
      VanGent2001.calculate_wave_runup_height_z10p (Scale.len lam Hs) (Scale.time lam Tmm10) gamma cot_alpha c0 c1 =
        Scale.len lam (VanGent2001.calculate_wave_runup_height_z10p Hs Tmm10 gamma cot_alpha c0 c1)) ∧
    (∀ (Tmm10 gamma cot_alpha Hm0 Hs c0 c1 : PF),
      VanGent2001.calculate_wave_runup_height_z2p (Scale.time lam Tmm10) gamma cot_alpha (Scale.len lam Hm0) (Scale.len lam Hs) c0 c1 =
        Scale.len lam <$> VanGent2001.calculate_wave_runup_height_z2p Tmm10 gamma cot_alpha Hm0 Hs c0 c1) := by
  simp only [len_eq hl, time_eq hl, vel_eq hl, area_eq hl, disch_eq hl, vol_eq hl]
  exact ⟨VanGent2001_calculate_wave_runup_height_zXp, VanGent2001_calculate_wave_runup_height_z1p, VanGent2001_calculate_wave_runup_height_z10p, VanGent2001_calculate_wave_runup_height_z2p⟩

theorem C82_velocity_vangent2002 {lam : ℝ} (hl : 0 < lam) :
    (∀ (Hs zXp Rc Bc gamma_f gamma_f_Crest cu1 cu2 g : PF),
      VanGent2002Velocity.calculate_maximum_wave_overtopping_velocity_uXp (Scale.len lam Hs) (Scale.len lam zXp) (Scale.len lam Rc) (Scale.len lam Bc) gamma_f gamma_f_Crest cu1 cu2 g =
        Scale.vel lam (VanGent2002Velocity.calculate_maximum_wave_overtopping_velocity_uXp Hs zXp Rc Bc gamma_f gamma_f_Crest cu1 cu2 g)) := by
  simp only [len_eq hl, time_eq hl, vel_eq hl, area_eq hl, disch_eq hl, vol_eq hl]
  exact VanGent2002Velocity_calculate_maximum_wave_overtopping_velocity_uXp

theorem C82_rear_vangent2007 {lam : ℝ} (hl : 0 < lam) :
    (∀ (cot_alpha cot_phi gamma Hs Tmm10 Rc Rc2_front Rc2_rear N_waves Dn50 M50 rho_rock : PF),
      VanGent2007Rear.calculate_damage_number_S cot_alpha cot_phi gamma (Scale.len lam Hs) (Scale.time lam Tmm10) (Scale.len lam Rc) (Scale.len lam Rc2_front) (Scale.len lam Rc2_rear) N_waves (Scale.len lam Dn50) (Scale.vol lam M50) rho_rock =
        VanGent2007Rear.calculate_damage_number_S cot_alpha cot_phi gamma Hs Tmm10 Rc Rc2_front Rc2_rear N_waves Dn50 M50 rho_rock) ∧
    (∀ (cot_alpha cot_phi gamma S Hs Tmm10 Rc Rc2_front Rc2_rear N_waves : PF),
      VanGent2007Rear.calculate_nominal_rock_diameter_Dn50 cot_alpha cot_phi gamma S (Scale.len lam Hs) (Scale.time lam Tmm10) (Scale.len lam Rc) (Scale.len lam Rc2_front) (Scale.len lam Rc2_rear) N_waves =
        Scale.len lam <$> VanGent2007Rear.calculate_nominal_rock_diameter_Dn50 cot_alpha cot_phi gamma S Hs Tmm10 Rc Rc2_front Rc2_rear N_waves) ∧
    (∀ (cot_alpha cot_phi gamma S Tmm10 Rc Rc2_front Rc2_rear N_waves Dn50 M50 rho_rock tolerance : PF) (max_iterations : ℕ),
      VanGent2007Rear.calculate_maximum_significant_wave_height_Hs cot_alpha cot_phi gamma S (Scale.time lam Tmm10) (Scale.len lam Rc) (Scale.len lam Rc2_front) (Scale.len lam Rc2_rear) N_waves (Scale.len lam Dn50) (Scale.vol lam M50) rho_rock (Scale.len lam tolerance) max_iterations =
        Scale.len lam <$> VanGent2007Rear.calculate_maximum_significant_wave_height_Hs cot_alpha cot_phi gamma S Tmm10 Rc Rc2_front Rc2_rear N_waves Dn50 M50 rho_rock tolerance max_iterations) := by
  simp only [len_eq hl, time_eq hl, vel_eq hl, area_eq hl, disch_eq hl, vol_eq hl]
  exact ⟨VanGent2007Rear_calculate_damage_number_S, VanGent2007Rear_calculate_nominal_rock_diameter_Dn50, VanGent2007Rear_calculate_maximum_significant_wave_height_Hs⟩

theorem C82_rear_vangentpozueta2004_partial {lam : ℝ} (hl : 0 < lam) :
    (∀ (cot_alpha cot_phi gamma_f gamma_f_Crest Hs Tmm10 Rc Rc_rear Bc N_waves Dn50 M50 rho_rock rho_water cs : PF),
      VanGentPozueta2004.calculate_damage_number_S cot_alpha cot_phi gamma_f gamma_f_Crest (Scale.len lam Hs) (Scale.time lam Tmm10) (Scale.len lam Rc) (Scale.len lam Rc_rear) (Scale.len lam Bc) N_waves (Scale.len lam Dn50) (Scale.vol lam M50) rho_rock rho_water cs =
        VanGentPozueta2004.calculate_damage_number_S cot_alpha cot_phi gamma_f gamma_f_Crest Hs Tmm10 Rc Rc_rear Bc N_waves Dn50 M50 rho_rock rho_water cs) ∧
    (∀ (cot_alpha cot_phi gamma_f gamma_f_Crest S Hs Tmm10 Rc Rc_rear Bc rho_rock N_waves rho_water cs : PF),
      VanGentPozueta2004.calculate_nominal_rock_diameter_Dn50 cot_alpha cot_phi gamma_f gamma_f_Crest S (Scale.len lam Hs) (Scale.time lam Tmm10) (Scale.len lam Rc) (Scale.len lam Rc_rear) (Scale.len lam Bc) rho_rock N_waves rho_water cs =
        Scale.len lam <$> VanGentPozueta2004.calculate_nominal_rock_diameter_Dn50 cot_alpha cot_phi gamma_f gamma_f_Crest S Hs Tmm10 Rc Rc_rear Bc rho_rock N_waves rho_water cs) := by
  simp only [len_eq hl, time_eq hl, vel_eq hl, area_eq hl, disch_eq hl, vol_eq hl]
  exact ⟨VanGentPozueta2004_calculate_damage_number_S, VanGentPozueta2004_calculate_nominal_rock_diameter_Dn50⟩

/-- a flume test at a scale of 1 to 25 (times 1 to 5) -/
example : VanGent2001.calculate_wave_runup_height_zXp (fin (3 / 25)) (fin (8 / 5)) (fin (1 / 2)) (fin 2) (fin 1) (fin 4) =
    Scale.len (1 / 25) (VanGent2001.calculate_wave_runup_height_zXp (fin 3) (fin 8) (fin (1 / 2)) (fin 2) (fin 1) (fin 4)) := by
  have h := (C82_runup_vangent2001 (lam := 1 / 25) (by norm_num)).1 (fin 3) (fin 8) (fin (1 / 2)) (fin 2) (fin 1) (fin 4)
  rw [← h]
  have e : √(1 / 25 : ℝ) = 1 / 5 := by rw [Real.sqrt_eq_iff_mul_self_eq] <;> norm_num
  simp only [Scale.len, Scale.time, Scale.times, mul_fin, e]
  norm_num


end
