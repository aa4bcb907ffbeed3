import Verif.Lemmas.ArrayTac
import Verif.Array.Toe
import Verif.Model.Toe
import Verif.Lemmas.ArrayCore

/-! # One case of a call on arrays: `Array/Toe.lean` -/

open Classical
open Arrays
noncomputable section
namespace ArrProof
variable {n : ℕ}

theorem any_nan [NeZero n] : (Val.nan : Val n).isnan.any = True := by
  exact eq_true trivial

theorem Gerding1993_check_validity [NeZero n] {U : Prop} (ht h Dn50 : Val n)
    (hU : U → ∀ x ∈ [ht, h, Dn50], Val.Uniform x) :
    Rel U (Arr.Gerding1993.check_validity ht h Dn50)
      (fun i => Gerding1993.check_validity (ht.get i) (h.get i) (Dn50.get i)) := by
  unfold Arr.Gerding1993.check_validity Gerding1993.check_validity
  arr_rel [] hU

theorem Gerding1993_calculate_damage_Nod [NeZero n] {U : Prop} (Hs ht h Dn50 rho_rock rho_water : Val n)
    (hU : U → ∀ x ∈ [Hs, ht, h, Dn50, rho_rock, rho_water], Val.Uniform x) :
    Rel U (Arr.Gerding1993.calculate_damage_Nod Hs ht h Dn50 rho_rock rho_water)
      (fun i => Gerding1993.calculate_damage_Nod (Hs.get i) (ht.get i) (h.get i) (Dn50.get i) (rho_rock.get i) (rho_water.get i)) := by
  unfold Arr.Gerding1993.calculate_damage_Nod Gerding1993.calculate_damage_Nod
  arr_rel [Gerding1993_check_validity] hU

theorem Gerding1993_calculate_nominal_diameter_Dn50 [NeZero n] (Hs ht h Nod rho_rock rho_water : Val n) :
    Rel False (Arr.Gerding1993.calculate_nominal_diameter_Dn50 Hs ht h Nod rho_rock rho_water)
      (fun i => Gerding1993.calculate_nominal_diameter_Dn50 (Hs.get i) (ht.get i) (h.get i) (Nod.get i) (rho_rock.get i) (rho_water.get i)) := by
  unfold Arr.Gerding1993.calculate_nominal_diameter_Dn50 Gerding1993.calculate_nominal_diameter_Dn50
  arr_rel [Gerding1993_check_validity]

theorem Gerding1993_calculate_wave_height_Hs [NeZero n] {U : Prop} (Dn50 ht h Nod rho_rock rho_water : Val n)
    (hU : U → ∀ x ∈ [Dn50, ht, h, Nod, rho_rock, rho_water], Val.Uniform x) :
    Rel U (Arr.Gerding1993.calculate_wave_height_Hs Dn50 ht h Nod rho_rock rho_water)
      (fun i => Gerding1993.calculate_wave_height_Hs (Dn50.get i) (ht.get i) (h.get i) (Nod.get i) (rho_rock.get i) (rho_water.get i)) := by
  unfold Arr.Gerding1993.calculate_wave_height_Hs Gerding1993.calculate_wave_height_Hs
  arr_rel [Gerding1993_check_validity] hU

theorem Gerding1993_calculate_depth_above_toe_ht [NeZero n] (Hs Dn50 h Nod rho_rock rho_water : Val n) :
    Rel False (Arr.Gerding1993.calculate_depth_above_toe_ht Hs Dn50 h Nod rho_rock rho_water)
      (fun i => Gerding1993.calculate_depth_above_toe_ht (Hs.get i) (Dn50.get i) (h.get i) (Nod.get i) (rho_rock.get i) (rho_water.get i)) := by
  unfold Arr.Gerding1993.calculate_depth_above_toe_ht Gerding1993.calculate_depth_above_toe_ht
  arr_rel [Gerding1993_check_validity]

theorem VanDerMeer1998_check_validity [NeZero n] {U : Prop} (Hs ht h Dn50 Nod Delta : Val n)
    (hU : U → ∀ x ∈ [Hs, ht, h, Dn50, Nod, Delta], Val.Uniform x) :
    Rel U (Arr.VanDerMeer1998.check_validity Hs ht h Dn50 Nod Delta)
      (fun i => VanDerMeer1998.check_validity (Hs.get i) (ht.get i) (h.get i) (Dn50.get i) (Nod.get i) (Delta.get i)) := by
  unfold Arr.VanDerMeer1998.check_validity VanDerMeer1998.check_validity
  arr_rel [] hU

theorem VanDerMeer1998_calculate_damage_Nod [NeZero n] (Hs ht h Dn50 rho_rock rho_water : Val n) :
    Rel False (Arr.VanDerMeer1998.calculate_damage_Nod Hs ht h Dn50 rho_rock rho_water)
      (fun i => VanDerMeer1998.calculate_damage_Nod (Hs.get i) (ht.get i) (h.get i) (Dn50.get i) (rho_rock.get i) (rho_water.get i)) := by
  unfold Arr.VanDerMeer1998.calculate_damage_Nod VanDerMeer1998.calculate_damage_Nod
  arr_rel [VanDerMeer1998_check_validity]

theorem VanDerMeer1998_calculate_nominal_diameter_Dn50 [NeZero n] (Hs ht h Nod rho_rock rho_water : Val n) :
    Rel False (Arr.VanDerMeer1998.calculate_nominal_diameter_Dn50 Hs ht h Nod rho_rock rho_water)
      (fun i => VanDerMeer1998.calculate_nominal_diameter_Dn50 (Hs.get i) (ht.get i) (h.get i) (Nod.get i) (rho_rock.get i) (rho_water.get i)) := by
  unfold Arr.VanDerMeer1998.calculate_nominal_diameter_Dn50 VanDerMeer1998.calculate_nominal_diameter_Dn50
  arr_rel [VanDerMeer1998_check_validity]

theorem VanDerMeer1998_calculate_wave_height_Hs [NeZero n] (Dn50 ht h Nod rho_rock rho_water : Val n) :
    Rel False (Arr.VanDerMeer1998.calculate_wave_height_Hs Dn50 ht h Nod rho_rock rho_water)
      (fun i => VanDerMeer1998.calculate_wave_height_Hs (Dn50.get i) (ht.get i) (h.get i) (Nod.get i) (rho_rock.get i) (rho_water.get i)) := by
  unfold Arr.VanDerMeer1998.calculate_wave_height_Hs VanDerMeer1998.calculate_wave_height_Hs
  arr_rel [VanDerMeer1998_check_validity]

theorem VanDerMeer1998_calculate_depth_above_toe_ht [NeZero n] (Hs Dn50 : PF) (h : Val n) (Nod rho_rock rho_water : PF) :
    Rel False (Arr.VanDerMeer1998.calculate_depth_above_toe_ht (.num Hs) (.num Dn50) h (.num Nod) (.num rho_rock) (.num rho_water))
      (fun i => VanDerMeer1998.calculate_depth_above_toe_ht Hs Dn50 (h.get i) Nod rho_rock rho_water) := by
  unfold Arr.VanDerMeer1998.calculate_depth_above_toe_ht VanDerMeer1998.calculate_depth_above_toe_ht
  try simp only [num_simp]
  arr_rel [VanDerMeer1998_check_validity]

theorem VanGentVanDerWerf2014_check_validity [NeZero n] {U : Prop} (Hs tt ht cot_alpha_armour_slope : Val n)
    (hU : U → ∀ x ∈ [Hs, tt, ht, cot_alpha_armour_slope], Val.Uniform x) :
    Rel U (Arr.VanGentVanDerWerf2014.check_validity Hs tt ht cot_alpha_armour_slope)
      (fun i => VanGentVanDerWerf2014.check_validity (Hs.get i) (tt.get i) (ht.get i) (cot_alpha_armour_slope.get i)) := by
  unfold Arr.VanGentVanDerWerf2014.check_validity VanGentVanDerWerf2014.check_validity
  arr_rel [] hU

@[cases_simp] theorem VanGentVanDerWerf2014_calculate_velocity_u_delta (Hs Tmm10 ht g : Val n) (i : Fin n) :
    (Arr.VanGentVanDerWerf2014.calculate_velocity_u_delta Hs Tmm10 ht g).get i =
      VanGentVanDerWerf2014.calculate_velocity_u_delta (Hs.get i) (Tmm10.get i) (ht.get i) (g.get i) := by
  unfold Arr.VanGentVanDerWerf2014.calculate_velocity_u_delta VanGentVanDerWerf2014.calculate_velocity_u_delta
  arr_pure

theorem VanGentVanDerWerf2014_calculate_damage_Nod [NeZero n] {U : Prop} (Hm0 Tmm10 ht Bt tt Dn50 rho_rock rho_water cot_alpha_armour_slope g c1 c2 c3 c4 c5 : Val n)
    (hU : U → ∀ x ∈ [Hm0, Tmm10, ht, Bt, tt, Dn50, rho_rock, rho_water, cot_alpha_armour_slope, g, c1, c2, c3, c4, c5], Val.Uniform x) :
    Rel U (Arr.VanGentVanDerWerf2014.calculate_damage_Nod Hm0 Tmm10 ht Bt tt Dn50 rho_rock rho_water cot_alpha_armour_slope g c1 c2 c3 c4 c5)
      (fun i => VanGentVanDerWerf2014.calculate_damage_Nod (Hm0.get i) (Tmm10.get i) (ht.get i) (Bt.get i) (tt.get i) (Dn50.get i) (rho_rock.get i) (rho_water.get i) (cot_alpha_armour_slope.get i) (g.get i) (c1.get i) (c2.get i) (c3.get i) (c4.get i) (c5.get i)) := by
  unfold Arr.VanGentVanDerWerf2014.calculate_damage_Nod VanGentVanDerWerf2014.calculate_damage_Nod
  arr_rel [VanGentVanDerWerf2014_check_validity] hU

theorem VanGentVanDerWerf2014_calculate_nominal_diameter_Dn50 [NeZero n] {U : Prop} (Hm0 Tmm10 ht Bt tt Nod rho_rock rho_water cot_alpha_armour_slope g : Val n)
    (hU : U → ∀ x ∈ [Hm0, Tmm10, ht, Bt, tt, Nod, rho_rock, rho_water, cot_alpha_armour_slope, g], Val.Uniform x) :
    Rel U (Arr.VanGentVanDerWerf2014.calculate_nominal_diameter_Dn50 Hm0 Tmm10 ht Bt tt Nod rho_rock rho_water cot_alpha_armour_slope g)
      (fun i => VanGentVanDerWerf2014.calculate_nominal_diameter_Dn50 (Hm0.get i) (Tmm10.get i) (ht.get i) (Bt.get i) (tt.get i) (Nod.get i) (rho_rock.get i) (rho_water.get i) (cot_alpha_armour_slope.get i) (g.get i)) := by
  unfold Arr.VanGentVanDerWerf2014.calculate_nominal_diameter_Dn50 VanGentVanDerWerf2014.calculate_nominal_diameter_Dn50
  arr_rel [VanGentVanDerWerf2014_check_validity] hU

theorem EtemadShahidi2021_check_validity [NeZero n] {U : Prop} (Hs Tmm10 h ht Bt Dn50 m Nod cot_alpha_armour_slope rho_armour rho_water : Val n)
    (hT : ∀ i, (¬ Hs.isnan.any ∧ ¬ Tmm10.isnan.any) ↔ (¬ (Hs.get i).isnan ∧ ¬ (Tmm10.get i).isnan))
    (hU : U → ∀ x ∈ [Hs, Tmm10, h, ht, Bt, Dn50, m, Nod, cot_alpha_armour_slope, rho_armour, rho_water], Val.Uniform x) :
    Rel U (Arr.EtemadShahidi2021.check_validity Hs Tmm10 h ht Bt Dn50 m Nod cot_alpha_armour_slope rho_armour rho_water)
      (fun i => EtemadShahidi2021.check_validity (Hs.get i) (Tmm10.get i) (h.get i) (ht.get i) (Bt.get i) (Dn50.get i) (m.get i) (Nod.get i) (cot_alpha_armour_slope.get i) (rho_armour.get i) (rho_water.get i)) := by
  unfold Arr.EtemadShahidi2021.check_validity EtemadShahidi2021.check_validity
  arr_rel [] hU

theorem EtemadShahidi2021_calculate_damage_Nod [NeZero n] {U : Prop} (Hs Tmm10 h ht Bt m Dn50 rho_rock rho_water g c1 c2 c3 c4 c5 c6 c7 : Val n)
    (hU : U → ∀ x ∈ [Hs, Tmm10, h, ht, Bt, m, Dn50, rho_rock, rho_water, g, c1, c2, c3, c4, c5, c6, c7], Val.Uniform x) :
    Rel U (Arr.EtemadShahidi2021.calculate_damage_Nod Hs Tmm10 h ht Bt m Dn50 rho_rock rho_water g c1 c2 c3 c4 c5 c6 c7)
      (fun i => EtemadShahidi2021.calculate_damage_Nod (Hs.get i) (Tmm10.get i) (h.get i) (ht.get i) (Bt.get i) (m.get i) (Dn50.get i) (rho_rock.get i) (rho_water.get i) (g.get i) (c1.get i) (c2.get i) (c3.get i) (c4.get i) (c5.get i) (c6.get i) (c7.get i)) := by
  unfold Arr.EtemadShahidi2021.calculate_damage_Nod EtemadShahidi2021.calculate_damage_Nod
  have hT : ∀ i, (¬ Hs.isnan.any ∧ ¬ (Val.nan : Val n).isnan.any) ↔
      (¬ (Hs.get i).isnan ∧ ¬ ((Val.nan : Val n).get i).isnan) := by
    intro i
    rw [any_nan, Val.get_nan]
    simp [PF.isnan]
  arr_rel [EtemadShahidi2021_check_validity] hU

theorem EtemadShahidi2021_calculate_nominal_diameter_Dn50 [NeZero n] {U : Prop} (Hs Tmm10 h ht Bt Nod m rho_rock rho_water g c1 c2 c3 c4 c5 c6 c7 : Val n)
    (hU : U → ∀ x ∈ [Hs, Tmm10, h, ht, Bt, Nod, m, rho_rock, rho_water, g, c1, c2, c3, c4, c5, c6, c7], Val.Uniform x) :
    Rel U (Arr.EtemadShahidi2021.calculate_nominal_diameter_Dn50 Hs Tmm10 h ht Bt Nod m rho_rock rho_water g c1 c2 c3 c4 c5 c6 c7)
      (fun i => EtemadShahidi2021.calculate_nominal_diameter_Dn50 (Hs.get i) (Tmm10.get i) (h.get i) (ht.get i) (Bt.get i) (Nod.get i) (m.get i) (rho_rock.get i) (rho_water.get i) (g.get i) (c1.get i) (c2.get i) (c3.get i) (c4.get i) (c5.get i) (c6.get i) (c7.get i)) := by
  unfold Arr.EtemadShahidi2021.calculate_nominal_diameter_Dn50 EtemadShahidi2021.calculate_nominal_diameter_Dn50
  have hT : ∀ i, (¬ Hs.isnan.any ∧ ¬ (Val.nan : Val n).isnan.any) ↔
      (¬ (Hs.get i).isnan ∧ ¬ ((Val.nan : Val n).get i).isnan) := by
    intro i
    rw [any_nan, Val.get_nan]
    simp [PF.isnan]
  arr_rel [EtemadShahidi2021_check_validity] hU

theorem Takahashi1990_check_validity [NeZero n] {U : Prop} (Ns Bt : Val n)
    (hU : U → ∀ x ∈ [Ns, Bt], Val.Uniform x) :
    Rel U (Arr.Takahashi1990.check_validity Ns Bt)
      (fun i => Takahashi1990.check_validity (Ns.get i) (Bt.get i)) := by
  unfold Arr.Takahashi1990.check_validity Takahashi1990.check_validity
  arr_rel [] hU

theorem Takahashi1990_ns_value [NeZero n] {U : Prop} (disper : PF → PF → PF → PF) (Hs Tp hacc Bt beta : Val n) (g : PF)
    (hT : Tp.isArray = true → hacc.isArray = true)
    (hh : hacc.isArray = true → 1 < n)
    (hU : U → ∀ x ∈ [Hs, Tp, hacc, Bt, beta], Val.Uniform x) :
    Rel U (Arr.Takahashi1990.ns_value disper Hs Tp hacc Bt beta g)
      (fun i => (pure (Takahashi1990.ns_value disper (Hs.get i) (Tp.get i) (hacc.get i) (Bt.get i) (beta.get i) g) : PyM _)) := by
  unfold Arr.Takahashi1990.ns_value Takahashi1990.ns_value
  dsimp only
  obtain ⟨L, hL, hLi⟩ := local_wavelength disper Tp hacc g hT hh
  rw [hL]
  rw [Val.pure_bind]
  refine Rel.pure fun i => ?_
  simp only [cases_simp, hLi]

theorem Takahashi1990_calculate_stability_number_Ns [NeZero n] (disper : PF → PF → PF → PF) (Hs Tp hacc Bt beta : Val n) (g : PF)
    (hT : Tp.isArray = true → hacc.isArray = true)
    (hh : hacc.isArray = true → 1 < n) :
    Rel False (Arr.Takahashi1990.calculate_stability_number_Ns disper Hs Tp hacc Bt beta g)
      (fun i => Takahashi1990.calculate_stability_number_Ns disper (Hs.get i) (Tp.get i) (hacc.get i) (Bt.get i) (beta.get i) g) := by
  unfold Arr.Takahashi1990.calculate_stability_number_Ns Takahashi1990.calculate_stability_number_Ns
  dsimp only
  refine Rel.bind_pure (k := fun i Ns => do Takahashi1990.check_validity Ns (Bt.get i); pure Ns)
    (Takahashi1990_ns_value disper Hs Tp hacc Bt beta g hT hh fun h => h.elim) fun v => ?_
  arr_rel [Takahashi1990_check_validity]

theorem Takahashi1990_calculate_nominal_diameter_Dn50 [NeZero n] (disper : PF → PF → PF → PF) (Hs Tp hacc Bt rho_rock rho_water beta : Val n) (g : PF)
    (hT : Tp.isArray = true → hacc.isArray = true)
    (hh : hacc.isArray = true → 1 < n) :
    Rel False (Arr.Takahashi1990.calculate_nominal_diameter_Dn50 disper Hs Tp hacc Bt rho_rock rho_water beta g)
      (fun i => Takahashi1990.calculate_nominal_diameter_Dn50 disper (Hs.get i) (Tp.get i) (hacc.get i) (Bt.get i) (rho_rock.get i) (rho_water.get i) (beta.get i) g) := by
  unfold Arr.Takahashi1990.calculate_nominal_diameter_Dn50 Takahashi1990.calculate_nominal_diameter_Dn50
  arr_rel [CorePhysics_check_usage_stabilitynumber, Takahashi1990_calculate_stability_number_Ns]

end ArrProof
end
