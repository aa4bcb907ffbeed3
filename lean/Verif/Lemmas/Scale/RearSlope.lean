import Verif.Lemmas.Scale
import Verif.Model.RearSlope
/-! Dimensions of the quantities of `Verif/Model/RearSlope.lean`. -/

open Classical
open PF
open CorePhysics CoreUtility
noncomputable section

namespace ScaleProof

variable {l : {x : ℝ // 0 < x}}
set_option maxHeartbeats 1000000

theorem VanGent2001_calculate_wave_runup_height_zXp (H Tmm10 gamma cot_alpha c0 c1 : PF) :
    VanGent2001.calculate_wave_runup_height_zXp (sc l 1 H) (sc l (1 / 2) Tmm10) gamma cot_alpha c0 c1 =
      sc l 1 (VanGent2001.calculate_wave_runup_height_zXp H Tmm10 gamma cot_alpha c0 c1) := by
  unfold VanGent2001.calculate_wave_runup_height_zXp
  dims [irib, irib_nan, irib_nan']

theorem VanGent2001_calculate_wave_runup_height_z1p (Hs Tmm10 gamma cot_alpha c0 c1 : PF) :
    VanGent2001.calculate_wave_runup_height_z1p (sc l 1 Hs) (sc l (1 / 2) Tmm10) gamma cot_alpha c0 c1 =
      sc l 1 (VanGent2001.calculate_wave_runup_height_z1p Hs Tmm10 gamma cot_alpha c0 c1) := by
  unfold VanGent2001.calculate_wave_runup_height_z1p
  dims [VanGent2001_calculate_wave_runup_height_zXp]

theorem VanGent2001_calculate_wave_runup_height_z10p (Hs Tmm10 gamma cot_alpha c0 c1 : PF) :
    VanGent2001.calculate_wave_runup_height_z10p (sc l 1 Hs) (sc l (1 / 2) Tmm10) gamma cot_alpha c0 c1 =
      sc l 1 (VanGent2001.calculate_wave_runup_height_z10p Hs Tmm10 gamma cot_alpha c0 c1) := by
  unfold VanGent2001.calculate_wave_runup_height_z10p
  dims [VanGent2001_calculate_wave_runup_height_zXp]

theorem VanGent2001__invert_for_Hs (Hs_i0 z1p Tmm10 gamma cot_alpha c0 c1 : PF) :
    VanGent2001._invert_for_Hs (sc l 1 Hs_i0) (sc l 1 z1p) (sc l (1 / 2) Tmm10) gamma cot_alpha c0 c1 =
      sc l 1 (VanGent2001._invert_for_Hs Hs_i0 z1p Tmm10 gamma cot_alpha c0 c1) := by
  unfold VanGent2001._invert_for_Hs
  dims [irib, irib_nan, irib_nan']

theorem VanGent2002Velocity_calculate_maximum_wave_overtopping_velocity_uXp (Hs zXp Rc Bc gamma_f
    gamma_f_Crest cu1 cu2 g : PF) :
    VanGent2002Velocity.calculate_maximum_wave_overtopping_velocity_uXp (sc l 1 Hs) (sc l 1 zXp) (sc l 1 Rc)
        (sc l 1 Bc) gamma_f gamma_f_Crest cu1 cu2 g =
      sc l (1 / 2) (VanGent2002Velocity.calculate_maximum_wave_overtopping_velocity_uXp Hs zXp Rc Bc gamma_f
          gamma_f_Crest cu1 cu2 g) := by
  unfold VanGent2002Velocity.calculate_maximum_wave_overtopping_velocity_uXp
  dims []

theorem VanGent2002Velocity__invert_for_zXp (Hs uXp Rc Bc gamma_f gamma_f_Crest cu1 cu2 g : PF) :
    VanGent2002Velocity._invert_for_zXp (sc l 1 Hs) (sc l (1 / 2) uXp) (sc l 1 Rc) (sc l 1 Bc) gamma_f
        gamma_f_Crest cu1 cu2 g =
      sc l 1 (VanGent2002Velocity._invert_for_zXp Hs uXp Rc Bc gamma_f gamma_f_Crest cu1 cu2 g) := by
  unfold VanGent2002Velocity._invert_for_zXp
  dims []

theorem VanGent2007Rear_check_validity_range (Rc Rc2_front Rc2_rear Gc Dn50 B_element h Hs Tmm10 z1p S N_waves
    : PF) :
    VanGent2007Rear.check_validity_range (sc l 1 Rc) (sc l 1 Rc2_front) (sc l 1 Rc2_rear) (sc l 1 Gc) (sc l 1
        Dn50) (sc l 1 B_element) (sc l 1 h) (sc l 1 Hs) (sc l (1 / 2) Tmm10) (sc l 1 z1p) S N_waves =
      VanGent2007Rear.check_validity_range Rc Rc2_front Rc2_rear Gc Dn50 B_element h Hs Tmm10 z1p S N_waves :=
          by
  unfold VanGent2007Rear.check_validity_range
  dims [steep, steep_nan, steep_nan', stab, stab_nan, stab_nan', map_bind, map_pure, bind_map_left]

theorem VanGent2007Rear_calculate_damage_number_S (cot_alpha cot_phi gamma Hs Tmm10 Rc Rc2_front Rc2_rear
    N_waves Dn50 M50 rho_rock : PF) :
    VanGent2007Rear.calculate_damage_number_S cot_alpha cot_phi gamma (sc l 1 Hs) (sc l (1 / 2) Tmm10) (sc l 1
        Rc) (sc l 1 Rc2_front) (sc l 1 Rc2_rear) N_waves (sc l 1 Dn50) (sc l 3 M50) rho_rock =
      VanGent2007Rear.calculate_damage_number_S cot_alpha cot_phi gamma Hs Tmm10 Rc Rc2_front Rc2_rear N_waves
          Dn50 M50 rho_rock := by
  unfold VanGent2007Rear.calculate_damage_number_S VanGent2007Rear.check_validity_range
  dims [steep, steep_nan, steep_nan', stab, stab_nan, stab_nan', size, map_bind, map_pure, bind_map_left,
      VanGent2001_calculate_wave_runup_height_z1p, VanGent2007Rear_check_validity_range]

theorem VanGent2007Rear_calculate_nominal_rock_diameter_Dn50 (cot_alpha cot_phi gamma S Hs Tmm10 Rc Rc2_front
    Rc2_rear N_waves : PF) :
    VanGent2007Rear.calculate_nominal_rock_diameter_Dn50 cot_alpha cot_phi gamma S (sc l 1 Hs) (sc l (1 / 2)
        Tmm10) (sc l 1 Rc) (sc l 1 Rc2_front) (sc l 1 Rc2_rear) N_waves =
      sc l 1 <$> VanGent2007Rear.calculate_nominal_rock_diameter_Dn50 cot_alpha cot_phi gamma S Hs Tmm10 Rc
          Rc2_front Rc2_rear N_waves := by
  unfold VanGent2007Rear.calculate_nominal_rock_diameter_Dn50 VanGent2007Rear.check_validity_range
  dims [steep, steep_nan, steep_nan', stab, stab_nan, stab_nan', map_bind, map_pure, bind_map_left,
      VanGent2001_calculate_wave_runup_height_z1p, VanGent2007Rear_check_validity_range]

theorem VanGent2007Rear__invert_for_z1p (cot_phi S Dn50 Hs Rc Rc2_front Rc2_rear N_waves : PF) :
    VanGent2007Rear._invert_for_z1p cot_phi S (sc l 1 Dn50) (sc l 1 Hs) (sc l 1 Rc) (sc l 1 Rc2_front) (sc l 1
        Rc2_rear) N_waves =
      sc l 1 (VanGent2007Rear._invert_for_z1p cot_phi S Dn50 Hs Rc Rc2_front Rc2_rear N_waves) := by
  unfold VanGent2007Rear._invert_for_z1p
  dims []

theorem VanGentPozueta2004_check_validity_range (Rc Rc_rear cot_phi gamma_f Dn50 rho_rock rho_water Bc Hs
    Tmm10 z1p S N_waves : PF) :
    VanGentPozueta2004.check_validity_range (sc l 1 Rc) (sc l 1 Rc_rear) cot_phi gamma_f (sc l 1 Dn50)
        rho_rock rho_water (sc l 1 Bc) (sc l 1 Hs) (sc l (1 / 2) Tmm10) (sc l 1 z1p) S N_waves =
      VanGentPozueta2004.check_validity_range Rc Rc_rear cot_phi gamma_f Dn50 rho_rock rho_water Bc Hs Tmm10
          z1p S N_waves := by
  unfold VanGentPozueta2004.check_validity_range
  dims [steep, steep_nan, steep_nan', stab, stab_nan, stab_nan', map_bind, map_pure, bind_map_left]

theorem VanGentPozueta2004_calculate_damage_number_S (cot_alpha cot_phi gamma_f gamma_f_Crest Hs Tmm10 Rc
    Rc_rear Bc N_waves Dn50 M50 rho_rock rho_water cs : PF) :
    VanGentPozueta2004.calculate_damage_number_S cot_alpha cot_phi gamma_f gamma_f_Crest (sc l 1 Hs) (sc l (1
        / 2) Tmm10) (sc l 1 Rc) (sc l 1 Rc_rear) (sc l 1 Bc) N_waves (sc l 1 Dn50) (sc l 3 M50) rho_rock
        rho_water cs =
      VanGentPozueta2004.calculate_damage_number_S cot_alpha cot_phi gamma_f gamma_f_Crest Hs Tmm10 Rc Rc_rear
          Bc N_waves Dn50 M50 rho_rock rho_water cs := by
  unfold VanGentPozueta2004.calculate_damage_number_S VanGentPozueta2004.check_validity_range
  dims [steep, steep_nan, steep_nan', stab, stab_nan, stab_nan', size, map_bind, map_pure, bind_map_left,
      VanGent2001_calculate_wave_runup_height_z1p,
      VanGent2002Velocity_calculate_maximum_wave_overtopping_velocity_uXp,
      VanGentPozueta2004_check_validity_range]

theorem VanGentPozueta2004_calculate_nominal_rock_diameter_Dn50 (cot_alpha cot_phi gamma_f gamma_f_Crest S Hs
    Tmm10 Rc Rc_rear Bc rho_rock N_waves rho_water cs : PF) :
    VanGentPozueta2004.calculate_nominal_rock_diameter_Dn50 cot_alpha cot_phi gamma_f gamma_f_Crest S (sc l 1
        Hs) (sc l (1 / 2) Tmm10) (sc l 1 Rc) (sc l 1 Rc_rear) (sc l 1 Bc) rho_rock N_waves rho_water cs =
      sc l 1 <$> VanGentPozueta2004.calculate_nominal_rock_diameter_Dn50 cot_alpha cot_phi gamma_f
          gamma_f_Crest S Hs Tmm10 Rc Rc_rear Bc rho_rock N_waves rho_water cs := by
  unfold VanGentPozueta2004.calculate_nominal_rock_diameter_Dn50 VanGentPozueta2004.check_validity_range
  dims [steep, steep_nan, steep_nan', stab, stab_nan, stab_nan', map_bind, map_pure, bind_map_left,
      VanGent2001_calculate_wave_runup_height_z1p,
      VanGent2002Velocity_calculate_maximum_wave_overtopping_velocity_uXp,
      VanGentPozueta2004_check_validity_range]

theorem VanGentPozueta2004__invert_for_u1p (cot_phi S Hs Tmm10 Rc_rear N_waves Dn50 Delta cs : PF) :
    VanGentPozueta2004._invert_for_u1p cot_phi S (sc l 1 Hs) (sc l (1 / 2) Tmm10) (sc l 1 Rc_rear) N_waves (sc
        l 1 Dn50) Delta cs =
      sc l (1 / 2) (VanGentPozueta2004._invert_for_u1p cot_phi S Hs Tmm10 Rc_rear N_waves Dn50 Delta cs) := by
  unfold VanGentPozueta2004._invert_for_u1p
  dims []

theorem VanGent2007Rear_calculate_maximum_significant_wave_height_Hs
    (cot_alpha cot_phi gamma S Tmm10 Rc Rc2_front Rc2_rear N_waves Dn50 M50 rho_rock tolerance : PF) (max_iterations : ℕ) :
    VanGent2007Rear.calculate_maximum_significant_wave_height_Hs cot_alpha cot_phi gamma S (sc l (1 / 2) Tmm10) (sc l 1 Rc) (sc l 1 Rc2_front) (sc l 1 Rc2_rear) N_waves (sc l 1 Dn50) (sc l 3 M50) rho_rock (sc l 1 tolerance) max_iterations =
      sc l 1 <$> VanGent2007Rear.calculate_maximum_significant_wave_height_Hs cot_alpha cot_phi gamma S Tmm10 Rc Rc2_front Rc2_rear N_waves Dn50 M50 rho_rock tolerance max_iterations := by
  unfold VanGent2007Rear.calculate_maximum_significant_wave_height_Hs
  rw [size, bind_map_left, map_bind]
  congr 1
  funext Dn50
  have h := loop_map (fun s : RearState => (⟨s.iteration, sc l 1 s.Hs_i1, sc l 1 s.Hs_i0, s.z1p.map (sc l 1)⟩ : RearState))
    (c := RearState.go tolerance) (c' := RearState.go (sc l 1 tolerance))
    (b := VanGent2007Rear.height_step cot_alpha cot_phi gamma S Tmm10 Rc Rc2_front Rc2_rear N_waves Dn50)
    (b' := VanGent2007Rear.height_step cot_alpha cot_phi gamma S (sc l (1 / 2) Tmm10) (sc l 1 Rc) (sc l 1 Rc2_front) (sc l 1 Rc2_rear) N_waves (sc l 1 Dn50))
    (fun s => by unfold RearState.go; dims [])
    (fun s => by unfold VanGent2007Rear.height_step VanGent2007Rear._invert_for_z1p; dims [Option.map_some, VanGent2001__invert_for_Hs]) max_iterations
    ⟨0, Rc2_front, Rc2_front + pinf, none⟩
  dsimp only [Option.map_none] at h ⊢
  rw [← sc_add, sc_pinf] at h
  rw [h]
  generalize whileIter _ _ _ _ = s
  rcases s with ⟨_, _, _, _ | z⟩ <;> dsimp only [Option.map_none, Option.map_some] 
  · split_ifs <;> rfl
  · unfold VanGent2007Rear.check_validity_range
    split_ifs <;>
    dims [steep, steep_nan, stab, map_bind, map_pure]

theorem VanGent2001_calculate_wave_runup_height_z2p (Tmm10 gamma cot_alpha Hm0 Hs c0 c1 : PF) :
    VanGent2001.calculate_wave_runup_height_z2p (sc l (1 / 2) Tmm10) gamma cot_alpha (sc l 1 Hm0) (sc l 1 Hs) c0 c1 =
      sc l 1 <$> VanGent2001.calculate_wave_runup_height_z2p Tmm10 gamma cot_alpha Hm0 Hs c0 c1 := by
  unfold VanGent2001.calculate_wave_runup_height_z2p
  simp only [sc_isnan]
  split_ifs <;> simp only [map_raise, map_pure, VanGent2001_calculate_wave_runup_height_zXp]

end ScaleProof
end
