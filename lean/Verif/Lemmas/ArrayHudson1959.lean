import Verif.Lemmas.ArrayTac
import Verif.Array.Hudson1959
import Verif.Model.Hudson1959
import Verif.Lemmas.ArrayCore

/-! # One case of a call on arrays: `Array/Hudson1959.lean` -/

open Classical
open Arrays
noncomputable section
namespace ArrProof
variable {n : ℕ}

theorem damage_index {p : PF} (h : p < 100) :
    Hudson1959.searchsorted_right Hudson1959.percentages p < 9 := by
  unfold Hudson1959.searchsorted_right
  have h1 : ¬ p.isnan := by
    cases p with
    | nan => exact absurd h (fun h => h)
    | _ => simp [PF.isnan]
  have h2 : ¬ ((100 : PF) ≤ p) := by
    cases p with
    | nan => exact fun h => h
    | ninf => exact fun h => h
    | pinf => exact absurd h (fun h => h)
    | fin d =>
      rw [PF.ofNat_eq, PF.le_fin]
      rw [PF.ofNat_eq, PF.lt_fin] at h
      exact not_le.mpr h
  rw [if_neg h1]
  by_contra hc
  have hle := (List.takeWhile_prefix (l := Hudson1959.percentages) fun x => decide (x ≤ p)).length_le
  have hl : Hudson1959.percentages.length = 9 := rfl
  have heq : Hudson1959.percentages.takeWhile (fun x => decide (x ≤ p)) = Hudson1959.percentages :=
    (List.takeWhile_prefix _).eq_of_length (by omega)
  have hm : (100 : PF) ∈ Hudson1959.percentages := by simp [Hudson1959.percentages]
  rw [← heq] at hm
  exact h2 (by simpa using List.all_eq_true.mp List.all_takeWhile _ hm)

@[cases_simp] theorem Hudson1959_calculate_median_rock_mass_M50_no_damage (Hs rho_water rho_armour KD cot_alpha alpha_Hs : Val n) (i : Fin n) :
    (Arr.Hudson1959.calculate_median_rock_mass_M50_no_damage Hs rho_water rho_armour KD cot_alpha alpha_Hs).get i =
      Hudson1959.calculate_median_rock_mass_M50_no_damage (Hs.get i) (rho_water.get i) (rho_armour.get i) (KD.get i) (cot_alpha.get i) (alpha_Hs.get i) := by
  unfold Arr.Hudson1959.calculate_median_rock_mass_M50_no_damage Hudson1959.calculate_median_rock_mass_M50_no_damage
  arr_pure

@[cases_simp] theorem Hudson1959_calculate_significant_wave_height_Hs_no_damage (M50 rho_water rho_armour KD cot_alpha alpha_Hs : Val n) (i : Fin n) :
    (Arr.Hudson1959.calculate_significant_wave_height_Hs_no_damage M50 rho_water rho_armour KD cot_alpha alpha_Hs).get i =
      Hudson1959.calculate_significant_wave_height_Hs_no_damage (M50.get i) (rho_water.get i) (rho_armour.get i) (KD.get i) (cot_alpha.get i) (alpha_Hs.get i) := by
  unfold Arr.Hudson1959.calculate_significant_wave_height_Hs_no_damage Hudson1959.calculate_significant_wave_height_Hs_no_damage
  arr_pure

theorem Hudson1959_lookup_table_damage_factors [NeZero n] {U : Prop} (damage_percentage : Val n)
    (rock_type : String) (h : ∀ i, damage_percentage.get i < 100) :
    Rel U (Arr.Hudson1959.lookup_table_damage_factors damage_percentage rock_type)
      (fun i => Hudson1959.lookup_table_damage_factors (damage_percentage.get i) rock_type) := by
  have key : ∀ i, Hudson1959.searchsorted_right Hudson1959.percentages (damage_percentage.get i) < 9 :=
    fun i => damage_index (h i)
  have take : ∀ factors : List PF, factors.length = 9 →
      Rel U (Arr.Hudson1959.take factors damage_percentage)
        (fun i => Hudson1959.index factors
          (Hudson1959.searchsorted_right Hudson1959.percentages (damage_percentage.get i))) := by
    intro factors hl
    have hi : ∀ k, k < 9 → Hudson1959.index factors k = pure (factors.getD k PF.nan) := by
      intro k hk
      unfold Hudson1959.index
      rw [List.getD_eq_getElem?_getD, List.getElem?_eq_getElem (by omega)]
      rfl
    refine Rel.congr (one := fun i => pure (factors.getD (Hudson1959.searchsorted_right
      Hudson1959.percentages (damage_percentage.get i)) PF.nan)) ?_ fun i => (hi _ (key i)).symm
    cases damage_percentage with
    | num p =>
      unfold Arr.Hudson1959.take
      have := key 0
      simp only [Val.get_num] at this
      simp only [hi _ this, PyM.pure_def, PyM.bind_ok]
      exact Rel.pure fun i => rfl
    | arr p =>
      unfold Arr.Hudson1959.take
      simp only [Val.get_arr] at key ⊢
      rw [if_pos (by simpa [hl] using key)]
      exact Rel.pure fun i => rfl
  unfold Arr.Hudson1959.lookup_table_damage_factors Hudson1959.lookup_table_damage_factors
  dsimp only
  refine Rel.ite (fun i => Iff.rfl) (fun _ => take _ rfl) fun _ => ?_
  exact Rel.ite (fun i => Iff.rfl) (fun _ => take _ rfl) fun _ => Rel.raise

theorem Hudson1959_calculate_median_rock_mass_M50 [NeZero n] {U : Prop} (Hs rho_water rho_armour KD cot_alpha damage_percentage : Val n) (rock_type : String) (alpha_Hs : Val n)
    (h_damage : ∀ i, damage_percentage.get i < 100)
    (hU : U → ∀ x ∈ [Hs, rho_water, rho_armour, KD, cot_alpha, damage_percentage, alpha_Hs], Val.Uniform x) :
    Rel U (Arr.Hudson1959.calculate_median_rock_mass_M50 Hs rho_water rho_armour KD cot_alpha damage_percentage rock_type alpha_Hs)
      (fun i => Hudson1959.calculate_median_rock_mass_M50 (Hs.get i) (rho_water.get i) (rho_armour.get i) (KD.get i) (cot_alpha.get i) (damage_percentage.get i) rock_type (alpha_Hs.get i)) := by
  unfold Arr.Hudson1959.calculate_median_rock_mass_M50 Hudson1959.calculate_median_rock_mass_M50
  arr_rel [Hudson1959_lookup_table_damage_factors] hU

theorem Hudson1959_calculate_significant_wave_height_Hs [NeZero n] {U : Prop} (M50 rho_water rho_armour KD cot_alpha damage_percentage : Val n) (rock_type : String) (alpha_Hs : Val n)
    (h_damage : ∀ i, damage_percentage.get i < 100)
    (hU : U → ∀ x ∈ [M50, rho_water, rho_armour, KD, cot_alpha, damage_percentage, alpha_Hs], Val.Uniform x) :
    Rel U (Arr.Hudson1959.calculate_significant_wave_height_Hs M50 rho_water rho_armour KD cot_alpha damage_percentage rock_type alpha_Hs)
      (fun i => Hudson1959.calculate_significant_wave_height_Hs (M50.get i) (rho_water.get i) (rho_armour.get i) (KD.get i) (cot_alpha.get i) (damage_percentage.get i) rock_type (alpha_Hs.get i)) := by
  unfold Arr.Hudson1959.calculate_significant_wave_height_Hs Hudson1959.calculate_significant_wave_height_Hs
  arr_rel [Hudson1959_lookup_table_damage_factors] hU

end ArrProof
end
