import Verif.Lemmas.ArrayTac
import Verif.Array.Overtopping
import Verif.Model.Overtopping
import Verif.Lemmas.ArrayCore
import Verif.Lemmas.ArrayTaw2002

/-! # One case of a call on arrays: `Array/Overtopping.lean` -/

open Classical
open Arrays
noncomputable section
namespace ArrProof
variable {n : ℕ}

@[cases_simp] theorem OvertoppingEurOtop2007_check_best_fit (c2 c3 : PF) (b : Bool) :
    Arr.OvertoppingEurOtop2007.check_best_fit c2 c3 b = OvertoppingEurOtop2007.check_best_fit c2 c3 b := rfl

@[cases_simp] theorem OvertoppingEurOtop2018_check_best_fit (c1 c2 c3 c4 : PF) (b : Bool) :
    Arr.OvertoppingEurOtop2018.check_best_fit c1 c2 c3 c4 b =
      OvertoppingEurOtop2018.check_best_fit c1 c2 c3 c4 b := rfl

theorem OvertoppingTaw2002_check_validity_range [NeZero n] {U : Prop} (Hm0 Tmm10 beta cot_alpha cot_alpha_down cot_alpha_up gamma_f gamma_b gamma_beta gamma_v : Val n)
    (hU : U → ∀ x ∈ [Hm0, Tmm10, beta, cot_alpha, cot_alpha_down, cot_alpha_up, gamma_f, gamma_b, gamma_beta, gamma_v], Val.Uniform x) :
    Rel U (Arr.OvertoppingTaw2002.check_validity_range Hm0 Tmm10 beta cot_alpha cot_alpha_down cot_alpha_up gamma_f gamma_b gamma_beta gamma_v)
      (fun i => OvertoppingTaw2002.check_validity_range (Hm0.get i) (Tmm10.get i) (beta.get i) (cot_alpha.get i) (cot_alpha_down.get i) (cot_alpha_up.get i) (gamma_f.get i) (gamma_b.get i) (gamma_beta.get i) (gamma_v.get i)) := by
  unfold Arr.OvertoppingTaw2002.check_validity_range OvertoppingTaw2002.check_validity_range
  arr_rel [] hU

@[shape_simp] theorem shape_OvertoppingTaw2002_q_diml_max_equation (Hm0 Rc gamma_beta gamma_f : Val n) (c3 : PF) (cor3 : Val n) (c2 : PF) :
    (Arr.OvertoppingTaw2002.q_diml_max_equation Hm0 Rc gamma_beta gamma_f c3 cor3 c2).isArray = (Hm0.isArray || Rc.isArray || gamma_beta.isArray || gamma_f.isArray || cor3.isArray) := by
  unfold Arr.OvertoppingTaw2002.q_diml_max_equation
  simp only [shape_simp]
  try grind

@[cases_simp] theorem OvertoppingTaw2002_q_diml_max_equation (Hm0 Rc gamma_beta gamma_f : Val n) (c3 : PF) (cor3 : Val n) (c2 : PF) (i : Fin n) :
    (Arr.OvertoppingTaw2002.q_diml_max_equation Hm0 Rc gamma_beta gamma_f c3 cor3 c2).get i =
      OvertoppingTaw2002.q_diml_max_equation (Hm0.get i) (Rc.get i) (gamma_beta.get i) (gamma_f.get i) c3 (cor3.get i) c2 := by
  unfold Arr.OvertoppingTaw2002.q_diml_max_equation OvertoppingTaw2002.q_diml_max_equation
  arr_pure

@[shape_simp] theorem shape_OvertoppingTaw2002_calculate_influence_oblique_waves_gamma_beta (beta : Val n) (c_gamma_beta max_angle : PF) :
    (Arr.OvertoppingTaw2002.calculate_influence_oblique_waves_gamma_beta beta c_gamma_beta max_angle).isArray = (beta.isArray) := by
  unfold Arr.OvertoppingTaw2002.calculate_influence_oblique_waves_gamma_beta
  simp only [shape_simp]
  try grind

@[cases_simp] theorem OvertoppingTaw2002_calculate_influence_oblique_waves_gamma_beta (beta : Val n) (c_gamma_beta max_angle : PF) (i : Fin n) :
    (Arr.OvertoppingTaw2002.calculate_influence_oblique_waves_gamma_beta beta c_gamma_beta max_angle).get i =
      OvertoppingTaw2002.calculate_influence_oblique_waves_gamma_beta (beta.get i) c_gamma_beta max_angle := by
  unfold Arr.OvertoppingTaw2002.calculate_influence_oblique_waves_gamma_beta OvertoppingTaw2002.calculate_influence_oblique_waves_gamma_beta
  arr_pure

@[cases_simp] theorem OvertoppingTaw2002_calculate_influence_crest_wall_gamma_v (alpha_wall_deg : Val n) (i : Fin n) :
    (Arr.OvertoppingTaw2002.calculate_influence_crest_wall_gamma_v alpha_wall_deg).get i =
      OvertoppingTaw2002.calculate_influence_crest_wall_gamma_v (alpha_wall_deg.get i) := by
  unfold Arr.OvertoppingTaw2002.calculate_influence_crest_wall_gamma_v OvertoppingTaw2002.calculate_influence_crest_wall_gamma_v
  arr_pure

@[shape_simp] theorem shape_OvertoppingTaw2002_Rc_diml_max_equation (Hm0 q gamma_beta gamma_f : Val n) (c3 : PF) (cor3 : Val n) (c2 : PF) (g : Val n) :
    (Arr.OvertoppingTaw2002.Rc_diml_max_equation Hm0 q gamma_beta gamma_f c3 cor3 c2 g).isArray = (Hm0.isArray || q.isArray || gamma_beta.isArray || gamma_f.isArray || cor3.isArray || g.isArray) := by
  unfold Arr.OvertoppingTaw2002.Rc_diml_max_equation
  simp only [shape_simp]
  try grind

@[cases_simp] theorem OvertoppingTaw2002_Rc_diml_max_equation (Hm0 q gamma_beta gamma_f : Val n) (c3 : PF) (cor3 : Val n) (c2 : PF) (g : Val n) (i : Fin n) :
    (Arr.OvertoppingTaw2002.Rc_diml_max_equation Hm0 q gamma_beta gamma_f c3 cor3 c2 g).get i =
      OvertoppingTaw2002.Rc_diml_max_equation (Hm0.get i) (q.get i) (gamma_beta.get i) (gamma_f.get i) c3 (cor3.get i) c2 (g.get i) := by
  unfold Arr.OvertoppingTaw2002.Rc_diml_max_equation OvertoppingTaw2002.Rc_diml_max_equation
  arr_pure

theorem OvertoppingEurOtop2007_calculate_dimensionless_overtopping_discharge_q_rubble_mound [NeZero n] {U : Prop} (Hm0 Tmm10 Rc beta gamma_beta gamma_f cot_alpha : Val n) (c2 c3 : PF) (use_best_fit : Bool)
    (h_beta : beta.Uniform)
    (h_gamma_beta : gamma_beta.Uniform)
    (hU : U → ∀ x ∈ [Hm0, Tmm10, Rc, beta, gamma_beta, gamma_f, cot_alpha], Val.Uniform x) :
    Rel U (Arr.OvertoppingEurOtop2007.calculate_dimensionless_overtopping_discharge_q_rubble_mound Hm0 Tmm10 Rc beta gamma_beta gamma_f cot_alpha c2 c3 use_best_fit)
      (fun i => OvertoppingEurOtop2007.calculate_dimensionless_overtopping_discharge_q_rubble_mound (Hm0.get i) (Tmm10.get i) (Rc.get i) (beta.get i) (gamma_beta.get i) (gamma_f.get i) (cot_alpha.get i) c2 c3 use_best_fit) := by
  refine Rel.bind (RunupTaw2002_check_calculate_gamma_beta _ _ h_beta h_gamma_beta) fun v => ?_
  dsimp only
  refine Rel.pure fun i => ?_
  cases v <;> simp only [cases_simp, if_true, Bool.false_eq_true, if_false]

theorem OvertoppingEurOtop2007_calculate_overtopping_discharge_q_rubble_mound [NeZero n] {U : Prop} (Hm0 Tmm10 Rc beta gamma_beta gamma_f cot_alpha : Val n) (c2 c3 : PF) (use_best_fit : Bool) (g : Val n)
    (h_beta : beta.Uniform)
    (h_gamma_beta : gamma_beta.Uniform)
    (hU : U → ∀ x ∈ [Hm0, Tmm10, Rc, beta, gamma_beta, gamma_f, cot_alpha, g], Val.Uniform x) :
    Rel U (Arr.OvertoppingEurOtop2007.calculate_overtopping_discharge_q_rubble_mound Hm0 Tmm10 Rc beta gamma_beta gamma_f cot_alpha c2 c3 use_best_fit g)
      (fun i => OvertoppingEurOtop2007.calculate_overtopping_discharge_q_rubble_mound (Hm0.get i) (Tmm10.get i) (Rc.get i) (beta.get i) (gamma_beta.get i) (gamma_f.get i) (cot_alpha.get i) c2 c3 use_best_fit (g.get i)) := by
  unfold Arr.OvertoppingEurOtop2007.calculate_overtopping_discharge_q_rubble_mound OvertoppingEurOtop2007.calculate_overtopping_discharge_q_rubble_mound
  arr_rel [OvertoppingEurOtop2007_calculate_dimensionless_overtopping_discharge_q_rubble_mound] hU

theorem OvertoppingEurOtop2007_calculate_dimensionless_crest_freeboard_rubble_mound [NeZero n] {U : Prop} (Hm0 Tmm10 q beta gamma_beta gamma_f cot_alpha : Val n) (c2 c3 : PF) (use_best_fit : Bool)
    (h_beta : beta.Uniform)
    (h_gamma_beta : gamma_beta.Uniform)
    (hU : U → ∀ x ∈ [Hm0, Tmm10, q, beta, gamma_beta, gamma_f, cot_alpha], Val.Uniform x) :
    Rel U (Arr.OvertoppingEurOtop2007.calculate_dimensionless_crest_freeboard_rubble_mound Hm0 Tmm10 q beta gamma_beta gamma_f cot_alpha c2 c3 use_best_fit)
      (fun i => OvertoppingEurOtop2007.calculate_dimensionless_crest_freeboard_rubble_mound (Hm0.get i) (Tmm10.get i) (q.get i) (beta.get i) (gamma_beta.get i) (gamma_f.get i) (cot_alpha.get i) c2 c3 use_best_fit) := by
  refine Rel.bind (RunupTaw2002_check_calculate_gamma_beta _ _ h_beta h_gamma_beta) fun v => ?_
  dsimp only
  refine Rel.pure fun i => ?_
  cases v <;> simp only [cases_simp, if_true, Bool.false_eq_true, if_false]

theorem OvertoppingEurOtop2007_calculate_crest_freeboard_Rc_rubble_mound [NeZero n] {U : Prop} (Hm0 Tmm10 q beta gamma_beta gamma_f cot_alpha : Val n) (c2 c3 : PF) (use_best_fit : Bool)
    (h_beta : beta.Uniform)
    (h_gamma_beta : gamma_beta.Uniform)
    (hU : U → ∀ x ∈ [Hm0, Tmm10, q, beta, gamma_beta, gamma_f, cot_alpha], Val.Uniform x) :
    Rel U (Arr.OvertoppingEurOtop2007.calculate_crest_freeboard_Rc_rubble_mound Hm0 Tmm10 q beta gamma_beta gamma_f cot_alpha c2 c3 use_best_fit)
      (fun i => OvertoppingEurOtop2007.calculate_crest_freeboard_Rc_rubble_mound (Hm0.get i) (Tmm10.get i) (q.get i) (beta.get i) (gamma_beta.get i) (gamma_f.get i) (cot_alpha.get i) c2 c3 use_best_fit) := by
  unfold Arr.OvertoppingEurOtop2007.calculate_crest_freeboard_Rc_rubble_mound OvertoppingEurOtop2007.calculate_crest_freeboard_Rc_rubble_mound
  arr_rel [OvertoppingEurOtop2007_calculate_dimensionless_crest_freeboard_rubble_mound] hU

theorem OvertoppingEurOtop2018_check_validity_range_rubble_mound [NeZero n] {U : Prop} (cot_alpha : Val n)
    (hU : U → ∀ x ∈ [cot_alpha], Val.Uniform x) :
    Rel U (Arr.OvertoppingEurOtop2018.check_validity_range_rubble_mound cot_alpha)
      (fun i => OvertoppingEurOtop2018.check_validity_range_rubble_mound (cot_alpha.get i)) := by
  unfold Arr.OvertoppingEurOtop2018.check_validity_range_rubble_mound OvertoppingEurOtop2018.check_validity_range_rubble_mound
  arr_rel [] hU

@[shape_simp] theorem shape_OvertoppingEurOtop2018_q_diml_max_equation (Hm0 Rc gamma_beta gamma_f gamma_star : Val n) (c2 c3 : PF) :
    (Arr.OvertoppingEurOtop2018.q_diml_max_equation Hm0 Rc gamma_beta gamma_f gamma_star c2 c3).isArray = (Hm0.isArray || Rc.isArray || gamma_beta.isArray || gamma_f.isArray || gamma_star.isArray) := by
  unfold Arr.OvertoppingEurOtop2018.q_diml_max_equation
  simp only [shape_simp]
  try grind

@[cases_simp] theorem OvertoppingEurOtop2018_q_diml_max_equation (Hm0 Rc gamma_beta gamma_f gamma_star : Val n) (c2 c3 : PF) (i : Fin n) :
    (Arr.OvertoppingEurOtop2018.q_diml_max_equation Hm0 Rc gamma_beta gamma_f gamma_star c2 c3).get i =
      OvertoppingEurOtop2018.q_diml_max_equation (Hm0.get i) (Rc.get i) (gamma_beta.get i) (gamma_f.get i) (gamma_star.get i) c2 c3 := by
  unfold Arr.OvertoppingEurOtop2018.q_diml_max_equation OvertoppingEurOtop2018.q_diml_max_equation
  arr_pure

@[shape_simp] theorem shape_OvertoppingEurOtop2018_Rc_diml_max_equation (Hm0 q gamma_beta gamma_f gamma_star : Val n) (c2 c3 : PF) (g : Val n) :
    (Arr.OvertoppingEurOtop2018.Rc_diml_max_equation Hm0 q gamma_beta gamma_f gamma_star c2 c3 g).isArray = (Hm0.isArray || q.isArray || gamma_beta.isArray || gamma_f.isArray || gamma_star.isArray || g.isArray) := by
  unfold Arr.OvertoppingEurOtop2018.Rc_diml_max_equation
  simp only [shape_simp]
  try grind

@[cases_simp] theorem OvertoppingEurOtop2018_Rc_diml_max_equation (Hm0 q gamma_beta gamma_f gamma_star : Val n) (c2 c3 : PF) (g : Val n) (i : Fin n) :
    (Arr.OvertoppingEurOtop2018.Rc_diml_max_equation Hm0 q gamma_beta gamma_f gamma_star c2 c3 g).get i =
      OvertoppingEurOtop2018.Rc_diml_max_equation (Hm0.get i) (q.get i) (gamma_beta.get i) (gamma_f.get i) (gamma_star.get i) c2 c3 (g.get i) := by
  unfold Arr.OvertoppingEurOtop2018.Rc_diml_max_equation OvertoppingEurOtop2018.Rc_diml_max_equation
  arr_pure

end ArrProof
end
