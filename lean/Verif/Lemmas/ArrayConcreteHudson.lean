import Verif.Lemmas.ArrayTac
import Verif.Array.ConcreteHudson
import Verif.Model.ConcreteHudson
import Verif.Lemmas.ArrayHudson1959

/-! # One case of a call on arrays: `Array/ConcreteHudson.lean` -/

open Classical
open Arrays
noncomputable section
namespace ArrProof
variable {n : ℕ}

@[cases_simp] theorem interp (x : Val n) (table : List (ℝ × ℝ)) (i : Fin n) :
    (Arr.np_interp x table).get i = _root_.np_interp (x.get i) table := Val.get_lift1 ..

theorem Accropode_check_validity_range [NeZero n] {U : Prop} (cot_alpha seabed_slope_perc : Val n)
    (hU : U → ∀ x ∈ [cot_alpha, seabed_slope_perc], Val.Uniform x) :
    Rel U (Arr.Accropode.check_validity_range cot_alpha seabed_slope_perc)
      (fun i => Accropode.check_validity_range (cot_alpha.get i) (seabed_slope_perc.get i)) := by
  unfold Arr.Accropode.check_validity_range Accropode.check_validity_range
  arr_rel [] hU

theorem Accropode_calculate_unit_mass_M [NeZero n] {U : Prop} (Hs rho_water rho_armour KD cot_alpha alpha_Hs : Val n)
    (hU : U → ∀ x ∈ [Hs, rho_water, rho_armour, KD, cot_alpha, alpha_Hs], Val.Uniform x) :
    Rel U (Arr.Accropode.calculate_unit_mass_M Hs rho_water rho_armour KD cot_alpha alpha_Hs)
      (fun i => Accropode.calculate_unit_mass_M (Hs.get i) (rho_water.get i) (rho_armour.get i) (KD.get i) (cot_alpha.get i) (alpha_Hs.get i)) := by
  unfold Arr.Accropode.calculate_unit_mass_M Accropode.calculate_unit_mass_M
  arr_rel [Accropode_check_validity_range] hU

theorem Accropode_calculate_significant_wave_height_Hs [NeZero n] {U : Prop} (M rho_water rho_armour KD cot_alpha alpha_Hs : Val n)
    (hU : U → ∀ x ∈ [M, rho_water, rho_armour, KD, cot_alpha, alpha_Hs], Val.Uniform x) :
    Rel U (Arr.Accropode.calculate_significant_wave_height_Hs M rho_water rho_armour KD cot_alpha alpha_Hs)
      (fun i => Accropode.calculate_significant_wave_height_Hs (M.get i) (rho_water.get i) (rho_armour.get i) (KD.get i) (cot_alpha.get i) (alpha_Hs.get i)) := by
  unfold Arr.Accropode.calculate_significant_wave_height_Hs Accropode.calculate_significant_wave_height_Hs
  arr_rel [Accropode_check_validity_range] hU

theorem Accropode_calculate_KD_breaking_trunk_from_seabed_slope [NeZero n] {U : Prop} (seabed_slope_perc : Val n)
    (hU : U → ∀ x ∈ [seabed_slope_perc], Val.Uniform x) :
    Rel U (Arr.Accropode.calculate_KD_breaking_trunk_from_seabed_slope seabed_slope_perc)
      (fun i => Accropode.calculate_KD_breaking_trunk_from_seabed_slope (seabed_slope_perc.get i)) := by
  unfold Arr.Accropode.calculate_KD_breaking_trunk_from_seabed_slope Accropode.calculate_KD_breaking_trunk_from_seabed_slope
  arr_rel [Accropode_check_validity_range] hU

@[cases_simp] theorem Accropode_calculate_KD_nonbreaking_trunk_from_seabed_slope  (i : Fin n) :
    (Arr.Accropode.calculate_KD_nonbreaking_trunk_from_seabed_slope ).get i =
      Accropode.calculate_KD_nonbreaking_trunk_from_seabed_slope  := by
  unfold Arr.Accropode.calculate_KD_nonbreaking_trunk_from_seabed_slope Accropode.calculate_KD_nonbreaking_trunk_from_seabed_slope
  arr_pure

theorem Accropode2_check_validity_range [NeZero n] {U : Prop} (cot_alpha seabed_slope_perc : Val n)
    (hU : U → ∀ x ∈ [cot_alpha, seabed_slope_perc], Val.Uniform x) :
    Rel U (Arr.Accropode2.check_validity_range cot_alpha seabed_slope_perc)
      (fun i => Accropode2.check_validity_range (cot_alpha.get i) (seabed_slope_perc.get i)) := by
  unfold Arr.Accropode2.check_validity_range Accropode2.check_validity_range
  arr_rel [] hU

theorem Accropode2_calculate_unit_mass_M [NeZero n] {U : Prop} (Hs rho_water rho_armour KD cot_alpha alpha_Hs : Val n)
    (hU : U → ∀ x ∈ [Hs, rho_water, rho_armour, KD, cot_alpha, alpha_Hs], Val.Uniform x) :
    Rel U (Arr.Accropode2.calculate_unit_mass_M Hs rho_water rho_armour KD cot_alpha alpha_Hs)
      (fun i => Accropode2.calculate_unit_mass_M (Hs.get i) (rho_water.get i) (rho_armour.get i) (KD.get i) (cot_alpha.get i) (alpha_Hs.get i)) := by
  unfold Arr.Accropode2.calculate_unit_mass_M Accropode2.calculate_unit_mass_M
  arr_rel [Accropode2_check_validity_range] hU

theorem Accropode2_calculate_significant_wave_height_Hs [NeZero n] {U : Prop} (M rho_water rho_armour KD cot_alpha alpha_Hs : Val n)
    (hU : U → ∀ x ∈ [M, rho_water, rho_armour, KD, cot_alpha, alpha_Hs], Val.Uniform x) :
    Rel U (Arr.Accropode2.calculate_significant_wave_height_Hs M rho_water rho_armour KD cot_alpha alpha_Hs)
      (fun i => Accropode2.calculate_significant_wave_height_Hs (M.get i) (rho_water.get i) (rho_armour.get i) (KD.get i) (cot_alpha.get i) (alpha_Hs.get i)) := by
  unfold Arr.Accropode2.calculate_significant_wave_height_Hs Accropode2.calculate_significant_wave_height_Hs
  arr_rel [Accropode2_check_validity_range] hU

theorem Accropode2_calculate_KD_breaking_trunk_from_seabed_slope [NeZero n] {U : Prop} (seabed_slope_perc : Val n)
    (hU : U → ∀ x ∈ [seabed_slope_perc], Val.Uniform x) :
    Rel U (Arr.Accropode2.calculate_KD_breaking_trunk_from_seabed_slope seabed_slope_perc)
      (fun i => Accropode2.calculate_KD_breaking_trunk_from_seabed_slope (seabed_slope_perc.get i)) := by
  unfold Arr.Accropode2.calculate_KD_breaking_trunk_from_seabed_slope Accropode2.calculate_KD_breaking_trunk_from_seabed_slope
  arr_rel [Accropode2_check_validity_range] hU

@[cases_simp] theorem Accropode2_calculate_KD_nonbreaking_trunk_from_seabed_slope  (i : Fin n) :
    (Arr.Accropode2.calculate_KD_nonbreaking_trunk_from_seabed_slope ).get i =
      Accropode2.calculate_KD_nonbreaking_trunk_from_seabed_slope  := by
  unfold Arr.Accropode2.calculate_KD_nonbreaking_trunk_from_seabed_slope Accropode2.calculate_KD_nonbreaking_trunk_from_seabed_slope
  arr_pure

theorem CoreLoc_check_validity_range [NeZero n] {U : Prop} (cot_alpha seabed_slope_perc : Val n)
    (hU : U → ∀ x ∈ [cot_alpha, seabed_slope_perc], Val.Uniform x) :
    Rel U (Arr.CoreLoc.check_validity_range cot_alpha seabed_slope_perc)
      (fun i => CoreLoc.check_validity_range (cot_alpha.get i) (seabed_slope_perc.get i)) := by
  unfold Arr.CoreLoc.check_validity_range CoreLoc.check_validity_range
  arr_rel [] hU

@[cases_simp] theorem CoreLoc_calculate_unit_mass_M (Hs rho_water rho_armour KD cot_alpha alpha_Hs : Val n) (i : Fin n) :
    (Arr.CoreLoc.calculate_unit_mass_M Hs rho_water rho_armour KD cot_alpha alpha_Hs).get i =
      CoreLoc.calculate_unit_mass_M (Hs.get i) (rho_water.get i) (rho_armour.get i) (KD.get i) (cot_alpha.get i) (alpha_Hs.get i) := by
  unfold Arr.CoreLoc.calculate_unit_mass_M CoreLoc.calculate_unit_mass_M
  arr_pure

@[cases_simp] theorem CoreLoc_calculate_significant_wave_height_Hs (M rho_water rho_armour KD cot_alpha alpha_Hs : Val n) (i : Fin n) :
    (Arr.CoreLoc.calculate_significant_wave_height_Hs M rho_water rho_armour KD cot_alpha alpha_Hs).get i =
      CoreLoc.calculate_significant_wave_height_Hs (M.get i) (rho_water.get i) (rho_armour.get i) (KD.get i) (cot_alpha.get i) (alpha_Hs.get i) := by
  unfold Arr.CoreLoc.calculate_significant_wave_height_Hs CoreLoc.calculate_significant_wave_height_Hs
  arr_pure

theorem CoreLoc_calculate_KD_breaking_trunk_from_seabed_slope [NeZero n] {U : Prop} (seabed_slope_perc : Val n)
    (hU : U → ∀ x ∈ [seabed_slope_perc], Val.Uniform x) :
    Rel U (Arr.CoreLoc.calculate_KD_breaking_trunk_from_seabed_slope seabed_slope_perc)
      (fun i => CoreLoc.calculate_KD_breaking_trunk_from_seabed_slope (seabed_slope_perc.get i)) := by
  unfold Arr.CoreLoc.calculate_KD_breaking_trunk_from_seabed_slope CoreLoc.calculate_KD_breaking_trunk_from_seabed_slope
  arr_rel [CoreLoc_check_validity_range] hU

@[cases_simp] theorem CoreLoc_calculate_KD_nonbreaking_trunk_from_seabed_slope  (i : Fin n) :
    (Arr.CoreLoc.calculate_KD_nonbreaking_trunk_from_seabed_slope ).get i =
      CoreLoc.calculate_KD_nonbreaking_trunk_from_seabed_slope  := by
  unfold Arr.CoreLoc.calculate_KD_nonbreaking_trunk_from_seabed_slope CoreLoc.calculate_KD_nonbreaking_trunk_from_seabed_slope
  arr_pure

@[cases_simp] theorem CubesHudson_calculate_unit_mass_M (Hs rho_water rho_armour KD cot_alpha alpha_Hs : Val n) (i : Fin n) :
    (Arr.CubesHudson.calculate_unit_mass_M Hs rho_water rho_armour KD cot_alpha alpha_Hs).get i =
      CubesHudson.calculate_unit_mass_M (Hs.get i) (rho_water.get i) (rho_armour.get i) (KD.get i) (cot_alpha.get i) (alpha_Hs.get i) := by
  unfold Arr.CubesHudson.calculate_unit_mass_M CubesHudson.calculate_unit_mass_M
  arr_pure

@[cases_simp] theorem CubesHudson_calculate_significant_wave_height_Hs (M rho_water rho_armour KD cot_alpha alpha_Hs : Val n) (i : Fin n) :
    (Arr.CubesHudson.calculate_significant_wave_height_Hs M rho_water rho_armour KD cot_alpha alpha_Hs).get i =
      CubesHudson.calculate_significant_wave_height_Hs (M.get i) (rho_water.get i) (rho_armour.get i) (KD.get i) (cot_alpha.get i) (alpha_Hs.get i) := by
  unfold Arr.CubesHudson.calculate_significant_wave_height_Hs CubesHudson.calculate_significant_wave_height_Hs
  arr_pure

@[cases_simp] theorem Cubipod_calculate_unit_mass_M (Hs rho_water rho_armour KD cot_alpha alpha_Hs : Val n) (i : Fin n) :
    (Arr.Cubipod.calculate_unit_mass_M Hs rho_water rho_armour KD cot_alpha alpha_Hs).get i =
      Cubipod.calculate_unit_mass_M (Hs.get i) (rho_water.get i) (rho_armour.get i) (KD.get i) (cot_alpha.get i) (alpha_Hs.get i) := by
  unfold Arr.Cubipod.calculate_unit_mass_M Cubipod.calculate_unit_mass_M
  arr_pure

@[cases_simp] theorem Cubipod_calculate_significant_wave_height_Hs (M rho_water rho_armour KD cot_alpha alpha_Hs : Val n) (i : Fin n) :
    (Arr.Cubipod.calculate_significant_wave_height_Hs M rho_water rho_armour KD cot_alpha alpha_Hs).get i =
      Cubipod.calculate_significant_wave_height_Hs (M.get i) (rho_water.get i) (rho_armour.get i) (KD.get i) (cot_alpha.get i) (alpha_Hs.get i) := by
  unfold Arr.Cubipod.calculate_significant_wave_height_Hs Cubipod.calculate_significant_wave_height_Hs
  arr_pure

@[cases_simp] theorem Tetrapod_calculate_unit_mass_M (Hs rho_water rho_armour KD cot_alpha alpha_Hs : Val n) (i : Fin n) :
    (Arr.Tetrapod.calculate_unit_mass_M Hs rho_water rho_armour KD cot_alpha alpha_Hs).get i =
      Tetrapod.calculate_unit_mass_M (Hs.get i) (rho_water.get i) (rho_armour.get i) (KD.get i) (cot_alpha.get i) (alpha_Hs.get i) := by
  unfold Arr.Tetrapod.calculate_unit_mass_M Tetrapod.calculate_unit_mass_M
  arr_pure

@[cases_simp] theorem Tetrapod_calculate_significant_wave_height_Hs (M rho_water rho_armour KD cot_alpha alpha_Hs : Val n) (i : Fin n) :
    (Arr.Tetrapod.calculate_significant_wave_height_Hs M rho_water rho_armour KD cot_alpha alpha_Hs).get i =
      Tetrapod.calculate_significant_wave_height_Hs (M.get i) (rho_water.get i) (rho_armour.get i) (KD.get i) (cot_alpha.get i) (alpha_Hs.get i) := by
  unfold Arr.Tetrapod.calculate_significant_wave_height_Hs Tetrapod.calculate_significant_wave_height_Hs
  arr_pure

end ArrProof
end
