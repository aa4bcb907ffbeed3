import Verif.Lemmas.ArrayTac
import Verif.Array.RearSlope
import Verif.Model.RearSlope
import Verif.Lemmas.ArrayCore

/-! # One case of a call on arrays: `Array/RearSlope.lean` -/

open Classical
open Arrays
noncomputable section
namespace ArrProof
variable {n : ℕ}

@[cases_simp] theorem VanGent2001_calculate_wave_runup_height_zXp (H Tmm10 gamma cot_alpha c0 c1 : Val n) (i : Fin n) :
    (Arr.VanGent2001.calculate_wave_runup_height_zXp H Tmm10 gamma cot_alpha c0 c1).get i =
      VanGent2001.calculate_wave_runup_height_zXp (H.get i) (Tmm10.get i) (gamma.get i) (cot_alpha.get i) (c0.get i) (c1.get i) := by
  unfold Arr.VanGent2001.calculate_wave_runup_height_zXp VanGent2001.calculate_wave_runup_height_zXp
  arr_pure

@[cases_simp] theorem VanGent2001_calculate_wave_runup_height_z1p (Hs Tmm10 gamma cot_alpha c0 c1 : Val n) (i : Fin n) :
    (Arr.VanGent2001.calculate_wave_runup_height_z1p Hs Tmm10 gamma cot_alpha c0 c1).get i =
      VanGent2001.calculate_wave_runup_height_z1p (Hs.get i) (Tmm10.get i) (gamma.get i) (cot_alpha.get i) (c0.get i) (c1.get i) := by
  unfold Arr.VanGent2001.calculate_wave_runup_height_z1p VanGent2001.calculate_wave_runup_height_z1p
  arr_pure

theorem VanGent2001_calculate_wave_runup_height_z2p [NeZero n] (Tmm10 gamma cot_alpha : Val n) (Hm0 Hs : PF) (c0 c1 : Val n) :
    Rel False (Arr.VanGent2001.calculate_wave_runup_height_z2p Tmm10 gamma cot_alpha (.num Hm0) (.num Hs) c0 c1)
      (fun i => VanGent2001.calculate_wave_runup_height_z2p (Tmm10.get i) (gamma.get i) (cot_alpha.get i) Hm0 Hs (c0.get i) (c1.get i)) := by
  unfold Arr.VanGent2001.calculate_wave_runup_height_z2p VanGent2001.calculate_wave_runup_height_z2p
  simp only [num_simp]
  refine Rel.cond_num (fun i => Iff.rfl) (fun _ => Rel.raise) fun _ => ?_
  refine Rel.pure fun i => ?_
  by_cases h : Hs.isnan ∧ ¬ Hm0.isnan
  · rw [if_pos h, if_pos h]; simp only [cases_simp]
  · rw [if_neg h, if_neg h]; simp only [cases_simp]

@[cases_simp] theorem VanGent2001_calculate_wave_runup_height_z10p (Hs Tmm10 gamma cot_alpha c0 c1 : Val n) (i : Fin n) :
    (Arr.VanGent2001.calculate_wave_runup_height_z10p Hs Tmm10 gamma cot_alpha c0 c1).get i =
      VanGent2001.calculate_wave_runup_height_z10p (Hs.get i) (Tmm10.get i) (gamma.get i) (cot_alpha.get i) (c0.get i) (c1.get i) := by
  unfold Arr.VanGent2001.calculate_wave_runup_height_z10p VanGent2001.calculate_wave_runup_height_z10p
  arr_pure

@[cases_simp] theorem VanGent2001_invert_for_Hs (Hs_i0 z1p Tmm10 gamma cot_alpha c0 c1 : Val n) (i : Fin n) :
    (Arr.VanGent2001._invert_for_Hs Hs_i0 z1p Tmm10 gamma cot_alpha c0 c1).get i =
      VanGent2001._invert_for_Hs (Hs_i0.get i) (z1p.get i) (Tmm10.get i) (gamma.get i) (cot_alpha.get i) (c0.get i) (c1.get i) := by
  unfold Arr.VanGent2001._invert_for_Hs VanGent2001._invert_for_Hs
  arr_pure

@[cases_simp] theorem VanGent2002Velocity_calculate_maximum_wave_overtopping_velocity_uXp (Hs zXp Rc Bc gamma_f gamma_f_Crest cu1 cu2 g : Val n) (i : Fin n) :
    (Arr.VanGent2002Velocity.calculate_maximum_wave_overtopping_velocity_uXp Hs zXp Rc Bc gamma_f gamma_f_Crest cu1 cu2 g).get i =
      VanGent2002Velocity.calculate_maximum_wave_overtopping_velocity_uXp (Hs.get i) (zXp.get i) (Rc.get i) (Bc.get i) (gamma_f.get i) (gamma_f_Crest.get i) (cu1.get i) (cu2.get i) (g.get i) := by
  unfold Arr.VanGent2002Velocity.calculate_maximum_wave_overtopping_velocity_uXp VanGent2002Velocity.calculate_maximum_wave_overtopping_velocity_uXp
  arr_pure

@[cases_simp] theorem VanGent2002Velocity_invert_for_zXp (Hs uXp Rc Bc gamma_f gamma_f_Crest cu1 cu2 g : Val n) (i : Fin n) :
    (Arr.VanGent2002Velocity._invert_for_zXp Hs uXp Rc Bc gamma_f gamma_f_Crest cu1 cu2 g).get i =
      VanGent2002Velocity._invert_for_zXp (Hs.get i) (uXp.get i) (Rc.get i) (Bc.get i) (gamma_f.get i) (gamma_f_Crest.get i) (cu1.get i) (cu2.get i) (g.get i) := by
  unfold Arr.VanGent2002Velocity._invert_for_zXp VanGent2002Velocity._invert_for_zXp
  arr_pure

theorem VanGent2007Rear_check_validity_range [NeZero n] {U : Prop} (Rc Rc2_front Rc2_rear Gc Dn50 B_element h Hs Tmm10 z1p S N_waves : Val n)
    (hU : U → ∀ x ∈ [Rc, Rc2_front, Rc2_rear, Gc, Dn50, B_element, h, Hs, Tmm10, z1p, S, N_waves], Val.Uniform x) :
    Rel U (Arr.VanGent2007Rear.check_validity_range Rc Rc2_front Rc2_rear Gc Dn50 B_element h Hs Tmm10 z1p S N_waves)
      (fun i => VanGent2007Rear.check_validity_range (Rc.get i) (Rc2_front.get i) (Rc2_rear.get i) (Gc.get i) (Dn50.get i) (B_element.get i) (h.get i) (Hs.get i) (Tmm10.get i) (z1p.get i) (S.get i) (N_waves.get i)) := by
  unfold Arr.VanGent2007Rear.check_validity_range VanGent2007Rear.check_validity_range
  arr_rel [] hU

theorem VanGent2007Rear_calculate_damage_number_S [NeZero n] (cot_alpha cot_phi gamma Hs Tmm10 Rc Rc2_front Rc2_rear N_waves Dn50 M50 rho_rock : Val n)
    (h_Dn50 : Dn50.Uniform)
    (h_M50 : M50.Uniform)
    (h_rho_rock : rho_rock.Uniform) :
    Rel False (Arr.VanGent2007Rear.calculate_damage_number_S cot_alpha cot_phi gamma Hs Tmm10 Rc Rc2_front Rc2_rear N_waves Dn50 M50 rho_rock)
      (fun i => VanGent2007Rear.calculate_damage_number_S (cot_alpha.get i) (cot_phi.get i) (gamma.get i) (Hs.get i) (Tmm10.get i) (Rc.get i) (Rc2_front.get i) (Rc2_rear.get i) (N_waves.get i) (Dn50.get i) (M50.get i) (rho_rock.get i)) := by
  unfold Arr.VanGent2007Rear.calculate_damage_number_S VanGent2007Rear.calculate_damage_number_S
  arr_rel [CorePhysics_check_usage_Dn50_or_M50, VanGent2007Rear_check_validity_range]

theorem VanGent2007Rear_calculate_nominal_rock_diameter_Dn50 [NeZero n] (cot_alpha cot_phi gamma S Hs Tmm10 Rc Rc2_front Rc2_rear N_waves : Val n) :
    Rel False (Arr.VanGent2007Rear.calculate_nominal_rock_diameter_Dn50 cot_alpha cot_phi gamma S Hs Tmm10 Rc Rc2_front Rc2_rear N_waves)
      (fun i => VanGent2007Rear.calculate_nominal_rock_diameter_Dn50 (cot_alpha.get i) (cot_phi.get i) (gamma.get i) (S.get i) (Hs.get i) (Tmm10.get i) (Rc.get i) (Rc2_front.get i) (Rc2_rear.get i) (N_waves.get i)) := by
  unfold Arr.VanGent2007Rear.calculate_nominal_rock_diameter_Dn50 VanGent2007Rear.calculate_nominal_rock_diameter_Dn50
  arr_rel [VanGent2007Rear_check_validity_range]

@[cases_simp] theorem VanGent2007Rear_invert_for_z1p (cot_phi S Dn50 Hs Rc Rc2_front Rc2_rear N_waves : Val n) (i : Fin n) :
    (Arr.VanGent2007Rear._invert_for_z1p cot_phi S Dn50 Hs Rc Rc2_front Rc2_rear N_waves).get i =
      VanGent2007Rear._invert_for_z1p (cot_phi.get i) (S.get i) (Dn50.get i) (Hs.get i) (Rc.get i) (Rc2_front.get i) (Rc2_rear.get i) (N_waves.get i) := by
  unfold Arr.VanGent2007Rear._invert_for_z1p VanGent2007Rear._invert_for_z1p
  arr_pure

theorem VanGentPozueta2004_check_validity_range [NeZero n] {U : Prop} (Rc Rc_rear cot_phi gamma_f Dn50 rho_rock rho_water Bc Hs Tmm10 z1p S N_waves : Val n)
    (hU : U → ∀ x ∈ [Rc, Rc_rear, cot_phi, gamma_f, Dn50, rho_rock, rho_water, Bc, Hs, Tmm10, z1p, S, N_waves], Val.Uniform x) :
    Rel U (Arr.VanGentPozueta2004.check_validity_range Rc Rc_rear cot_phi gamma_f Dn50 rho_rock rho_water Bc Hs Tmm10 z1p S N_waves)
      (fun i => VanGentPozueta2004.check_validity_range (Rc.get i) (Rc_rear.get i) (cot_phi.get i) (gamma_f.get i) (Dn50.get i) (rho_rock.get i) (rho_water.get i) (Bc.get i) (Hs.get i) (Tmm10.get i) (z1p.get i) (S.get i) (N_waves.get i)) := by
  unfold Arr.VanGentPozueta2004.check_validity_range VanGentPozueta2004.check_validity_range
  arr_rel [] hU

theorem VanGentPozueta2004_calculate_damage_number_S [NeZero n] (cot_alpha cot_phi gamma_f gamma_f_Crest Hs Tmm10 Rc Rc_rear Bc N_waves Dn50 M50 rho_rock rho_water cs : Val n)
    (h_Dn50 : Dn50.Uniform)
    (h_M50 : M50.Uniform)
    (h_rho_rock : rho_rock.Uniform) :
    Rel False (Arr.VanGentPozueta2004.calculate_damage_number_S cot_alpha cot_phi gamma_f gamma_f_Crest Hs Tmm10 Rc Rc_rear Bc N_waves Dn50 M50 rho_rock rho_water cs)
      (fun i => VanGentPozueta2004.calculate_damage_number_S (cot_alpha.get i) (cot_phi.get i) (gamma_f.get i) (gamma_f_Crest.get i) (Hs.get i) (Tmm10.get i) (Rc.get i) (Rc_rear.get i) (Bc.get i) (N_waves.get i) (Dn50.get i) (M50.get i) (rho_rock.get i) (rho_water.get i) (cs.get i)) := by
  unfold Arr.VanGentPozueta2004.calculate_damage_number_S VanGentPozueta2004.calculate_damage_number_S
  arr_rel [CorePhysics_check_usage_Dn50_or_M50, VanGentPozueta2004_check_validity_range]

theorem VanGentPozueta2004_calculate_nominal_rock_diameter_Dn50 [NeZero n] (cot_alpha cot_phi gamma_f gamma_f_Crest S Hs Tmm10 Rc Rc_rear Bc rho_rock N_waves rho_water cs : Val n) :
    Rel False (Arr.VanGentPozueta2004.calculate_nominal_rock_diameter_Dn50 cot_alpha cot_phi gamma_f gamma_f_Crest S Hs Tmm10 Rc Rc_rear Bc rho_rock N_waves rho_water cs)
      (fun i => VanGentPozueta2004.calculate_nominal_rock_diameter_Dn50 (cot_alpha.get i) (cot_phi.get i) (gamma_f.get i) (gamma_f_Crest.get i) (S.get i) (Hs.get i) (Tmm10.get i) (Rc.get i) (Rc_rear.get i) (Bc.get i) (rho_rock.get i) (N_waves.get i) (rho_water.get i) (cs.get i)) := by
  unfold Arr.VanGentPozueta2004.calculate_nominal_rock_diameter_Dn50 VanGentPozueta2004.calculate_nominal_rock_diameter_Dn50
  arr_rel [VanGentPozueta2004_check_validity_range]

@[cases_simp] theorem VanGentPozueta2004_invert_for_u1p (cot_phi S Hs Tmm10 Rc_rear N_waves Dn50 Delta cs : Val n) (i : Fin n) :
    (Arr.VanGentPozueta2004._invert_for_u1p cot_phi S Hs Tmm10 Rc_rear N_waves Dn50 Delta cs).get i =
      VanGentPozueta2004._invert_for_u1p (cot_phi.get i) (S.get i) (Hs.get i) (Tmm10.get i) (Rc_rear.get i) (N_waves.get i) (Dn50.get i) (Delta.get i) (cs.get i) := by
  unfold Arr.VanGentPozueta2004._invert_for_u1p VanGentPozueta2004._invert_for_u1p
  arr_pure

end ArrProof
end
