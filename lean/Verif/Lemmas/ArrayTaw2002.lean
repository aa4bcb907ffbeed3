import Verif.Lemmas.ArrayTac
import Verif.Array.Taw2002
import Verif.Model.Taw2002
import Verif.Lemmas.ArrayCore

/-! # One case of a call on arrays: `Array/Taw2002.lean` -/

open Classical
open Arrays
noncomputable section
namespace ArrProof
variable {n : ℕ}

theorem RunupTaw2002_check_validity_range [NeZero n] {U : Prop} (Hm0 Tmm10 gamma_f gamma_b gamma_beta cot_alpha : Val n)
    (hU : U → ∀ x ∈ [Hm0, Tmm10, gamma_f, gamma_b, gamma_beta, cot_alpha], Val.Uniform x) :
    Rel U (Arr.RunupTaw2002.check_validity_range Hm0 Tmm10 gamma_f gamma_b gamma_beta cot_alpha)
      (fun i => RunupTaw2002.check_validity_range (Hm0.get i) (Tmm10.get i) (gamma_f.get i) (gamma_b.get i) (gamma_beta.get i) (cot_alpha.get i)) := by
  unfold Arr.RunupTaw2002.check_validity_range RunupTaw2002.check_validity_range
  arr_rel [] hU

@[cases_simp] theorem RunupTaw2002_determine_average_slope (Hm0 z2p cot_alpha_down cot_alpha_up B_berm db : Val n) (i : Fin n) :
    (Arr.RunupTaw2002.determine_average_slope Hm0 z2p cot_alpha_down cot_alpha_up B_berm db).get i =
      RunupTaw2002.determine_average_slope (Hm0.get i) (z2p.get i) (cot_alpha_down.get i) (cot_alpha_up.get i) (B_berm.get i) (db.get i) := by
  unfold Arr.RunupTaw2002.determine_average_slope RunupTaw2002.determine_average_slope
  arr_pure

theorem RunupTaw2002_check_composite_slope [NeZero n] {U : Prop}
    (cot_alpha cot_alpha_down cot_alpha_up : Val n) (h_cot_alpha : cot_alpha.Uniform)
    (h_cot_alpha_down : cot_alpha_down.Uniform) (h_cot_alpha_up : cot_alpha_up.Uniform) :
    Rel U (Arr.RunupTaw2002.check_composite_slope cot_alpha cot_alpha_down cot_alpha_up)
      (fun i => RunupTaw2002.check_composite_slope (cot_alpha.get i) (cot_alpha_down.get i)
        (cot_alpha_up.get i)) := by
  unfold Arr.RunupTaw2002.check_composite_slope RunupTaw2002.check_composite_slope
  refine Rel.ite (fun i => by rw [h_cot_alpha.all_iff i, h_cot_alpha_down.all_iff i])
    (fun _ => Rel.raise) fun _ => ?_
  exact Rel.ite (fun i => by rw [h_cot_alpha_up.all_iff i, h_cot_alpha_down.all_iff i])
    (fun _ => Rel.pure fun _ => rfl) fun _ => Rel.pure fun _ => rfl

/-- a single slope: given, or an error -/
theorem single_slope (cot_alpha : Val n) :
    Arr.RunupTaw2002.check_composite_slope cot_alpha Val.nan Val.nan =
      if cot_alpha.isnan.all then PyM.raise .valueError else pure false := by
  have h : (Val.nan : Val n).isnan.all = True := eq_true trivial
  unfold Arr.RunupTaw2002.check_composite_slope
  simp only [h, and_true, not_true_eq_false, false_and, if_false]

theorem single_slope_one (cot_alpha : PF) :
    RunupTaw2002.check_composite_slope cot_alpha PF.nan PF.nan =
      if cot_alpha.isnan then PyM.raise .valueError else pure false := by
  have h : PF.nan.isnan = True := eq_true trivial
  unfold RunupTaw2002.check_composite_slope
  simp only [h, and_true, not_true_eq_false, false_and, if_false]

theorem RunupTaw2002_calculate_berm_length [NeZero n] {U : Prop} (Hm0 B_berm cot_alpha cot_alpha_down cot_alpha_up : Val n)
    (h_cot_alpha : cot_alpha.Uniform)
    (h_cot_alpha_down : cot_alpha_down.Uniform)
    (h_cot_alpha_up : cot_alpha_up.Uniform)
    (hU : U → ∀ x ∈ [Hm0, B_berm, cot_alpha, cot_alpha_down, cot_alpha_up], Val.Uniform x) :
    Rel U (Arr.RunupTaw2002.calculate_berm_length Hm0 B_berm cot_alpha cot_alpha_down cot_alpha_up)
      (fun i => RunupTaw2002.calculate_berm_length (Hm0.get i) (B_berm.get i) (cot_alpha.get i) (cot_alpha_down.get i) (cot_alpha_up.get i)) := by
  unfold Arr.RunupTaw2002.calculate_berm_length RunupTaw2002.calculate_berm_length
  refine Rel.bind (RunupTaw2002_check_composite_slope _ _ _ h_cot_alpha h_cot_alpha_down
    h_cot_alpha_up) fun v => ?_
  dsimp only
  refine Rel.pure fun i => ?_
  cases v
  · simp only [cases_simp, Bool.false_eq_true, if_false]
  · simp only [cases_simp, if_true]

theorem RunupTaw2002_check_calculate_gamma_beta [NeZero n] {U : Prop} (beta gamma_beta : Val n)
    (h_beta : beta.Uniform) (h_gamma_beta : gamma_beta.Uniform) :
    Rel U (Arr.RunupTaw2002.check_calculate_gamma_beta beta gamma_beta)
      (fun i => RunupTaw2002.check_calculate_gamma_beta (beta.get i) (gamma_beta.get i)) := by
  unfold Arr.RunupTaw2002.check_calculate_gamma_beta RunupTaw2002.check_calculate_gamma_beta
  refine Rel.ite (fun i => by rw [h_beta.all_iff i, h_gamma_beta.all_iff i])
    (fun _ => Rel.raise) fun _ => ?_
  exact Rel.ite (fun i => by rw [h_gamma_beta.all_iff i])
    (fun _ => Rel.pure fun _ => rfl) fun _ => Rel.pure fun _ => rfl

@[shape_simp] theorem shape_RunupTaw2002_calculate_influence_oblique_waves_gamma_beta (beta : Val n) (c_gamma_beta max_angle : PF) :
    (Arr.RunupTaw2002.calculate_influence_oblique_waves_gamma_beta beta c_gamma_beta max_angle).isArray = (beta.isArray) := by
  unfold Arr.RunupTaw2002.calculate_influence_oblique_waves_gamma_beta
  simp only [shape_simp]
  try grind

@[cases_simp] theorem RunupTaw2002_calculate_influence_oblique_waves_gamma_beta (beta : Val n) (c_gamma_beta max_angle : PF) (i : Fin n) :
    (Arr.RunupTaw2002.calculate_influence_oblique_waves_gamma_beta beta c_gamma_beta max_angle).get i =
      RunupTaw2002.calculate_influence_oblique_waves_gamma_beta (beta.get i) c_gamma_beta max_angle := by
  unfold Arr.RunupTaw2002.calculate_influence_oblique_waves_gamma_beta RunupTaw2002.calculate_influence_oblique_waves_gamma_beta
  arr_pure

@[shape_simp] theorem shape_RunupTaw2002_calculate_adjusted_influence_roughness_gamma_f (gamma_f gamma_b ksi_mm10 : Val n) :
    (Arr.RunupTaw2002.calculate_adjusted_influence_roughness_gamma_f gamma_f gamma_b ksi_mm10).isArray = (gamma_f.isArray || gamma_b.isArray || ksi_mm10.isArray) := by
  unfold Arr.RunupTaw2002.calculate_adjusted_influence_roughness_gamma_f
  simp only [shape_simp]
  try grind

@[cases_simp] theorem RunupTaw2002_calculate_adjusted_influence_roughness_gamma_f (gamma_f gamma_b ksi_mm10 : Val n) (i : Fin n) :
    (Arr.RunupTaw2002.calculate_adjusted_influence_roughness_gamma_f gamma_f gamma_b ksi_mm10).get i =
      RunupTaw2002.calculate_adjusted_influence_roughness_gamma_f (gamma_f.get i) (gamma_b.get i) (ksi_mm10.get i) := by
  unfold Arr.RunupTaw2002.calculate_adjusted_influence_roughness_gamma_f RunupTaw2002.calculate_adjusted_influence_roughness_gamma_f
  arr_pure

end ArrProof
end
