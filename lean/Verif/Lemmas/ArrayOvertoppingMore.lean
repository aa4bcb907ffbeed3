import Verif.Lemmas.ArrayTac
import Verif.Array.OvertoppingMore
import Verif.Model.OvertoppingMore
import Verif.Lemmas.ArrayCore

/-! # One case of a call on arrays: `Array/OvertoppingMore.lean` -/

open Classical
open Arrays
noncomputable section
namespace ArrProof
variable {n : ℕ}

theorem VanGent2021Caisson_check_validity_range [NeZero n] {U : Prop} (Hm0 Tmm10 beta Rc q_diml : Val n)
    (hU : U → ∀ x ∈ [Hm0, Tmm10, beta, Rc, q_diml], Val.Uniform x) :
    Rel U (Arr.VanGent2021Caisson.check_validity_range Hm0 Tmm10 beta Rc q_diml)
      (fun i => VanGent2021Caisson.check_validity_range (Hm0.get i) (Tmm10.get i) (beta.get i) (Rc.get i) (q_diml.get i)) := by
  unfold Arr.VanGent2021Caisson.check_validity_range VanGent2021Caisson.check_validity_range
  arr_rel [] hU

theorem VanGent2021Caisson_determine_coefficients [NeZero n] {U : Prop} (c : PF) (s k p : Bool) :
    Rel (n := n) U (Arr.VanGent2021Caisson.determine_coefficients c s k p)
      (fun _ => VanGent2021Caisson.determine_coefficients c s k p) :=
  Rel.const fun _ _ => rfl

@[cases_simp] theorem VanGent2021Caisson_calculate_influence_oblique_waves_gamma_beta (beta : Val n) (gamma_p c_beta : PF) (i : Fin n) :
    (Arr.VanGent2021Caisson.calculate_influence_oblique_waves_gamma_beta beta gamma_p c_beta).get i =
      VanGent2021Caisson.calculate_influence_oblique_waves_gamma_beta (beta.get i) gamma_p c_beta := by
  unfold Arr.VanGent2021Caisson.calculate_influence_oblique_waves_gamma_beta VanGent2021Caisson.calculate_influence_oblique_waves_gamma_beta
  arr_pure

theorem VanGent2021Caisson_swell_coefficient [NeZero n] {U : Prop} (c_swell : Val n) (Hm0_swell : PF) (crossing_seas : Bool)
    (hU : U → ∀ x ∈ [c_swell], Val.Uniform x) :
    Rel U (Arr.VanGent2021Caisson.swell_coefficient c_swell (.num Hm0_swell) crossing_seas)
      (fun i => VanGent2021Caisson.swell_coefficient (c_swell.get i) Hm0_swell crossing_seas) := by
  unfold Arr.VanGent2021Caisson.swell_coefficient VanGent2021Caisson.swell_coefficient
  try simp only [num_simp]
  arr_rel [] hU

theorem VanGent2021Caisson_calculate_dimensionless_overtopping_discharge_q [NeZero n] (Hm0 Rc beta : Val n) (gamma_beta Hm0_swell c : PF) (c_swell : Val n) (short_crested_waves crossing_seas parapet : Bool) :
    Rel False (Arr.VanGent2021Caisson.calculate_dimensionless_overtopping_discharge_q Hm0 Rc beta (.num gamma_beta) (.num Hm0_swell) c c_swell short_crested_waves crossing_seas parapet)
      (fun i => VanGent2021Caisson.calculate_dimensionless_overtopping_discharge_q (Hm0.get i) (Rc.get i) (beta.get i) gamma_beta Hm0_swell c (c_swell.get i) short_crested_waves crossing_seas parapet) := by
  unfold Arr.VanGent2021Caisson.calculate_dimensionless_overtopping_discharge_q VanGent2021Caisson.calculate_dimensionless_overtopping_discharge_q
  try simp only [num_simp]
  arr_rel [VanGent2021Caisson_check_validity_range, VanGent2021Caisson_determine_coefficients, VanGent2021Caisson_swell_coefficient]

theorem VanGent2021Caisson_calculate_overtopping_discharge_q [NeZero n] (Hm0 Rc beta : Val n) (gamma_beta Hm0_swell c : PF) (c_swell : Val n) (short_crested_waves crossing_seas parapet : Bool) (g : Val n) :
    Rel False (Arr.VanGent2021Caisson.calculate_overtopping_discharge_q Hm0 Rc beta (.num gamma_beta) (.num Hm0_swell) c c_swell short_crested_waves crossing_seas parapet g)
      (fun i => VanGent2021Caisson.calculate_overtopping_discharge_q (Hm0.get i) (Rc.get i) (beta.get i) gamma_beta Hm0_swell c (c_swell.get i) short_crested_waves crossing_seas parapet (g.get i)) := by
  unfold Arr.VanGent2021Caisson.calculate_overtopping_discharge_q VanGent2021Caisson.calculate_overtopping_discharge_q
  try simp only [num_simp]
  arr_rel [VanGent2021Caisson_calculate_dimensionless_overtopping_discharge_q]

theorem VanGent2021Caisson_calculate_dimensionless_crest_freeboard [NeZero n] (Hm0 q beta : Val n) (gamma_beta Hm0_swell c : PF) (c_swell : Val n) (short_crested_waves crossing_seas parapet : Bool) (g : Val n) :
    Rel False (Arr.VanGent2021Caisson.calculate_dimensionless_crest_freeboard Hm0 q beta (.num gamma_beta) (.num Hm0_swell) c c_swell short_crested_waves crossing_seas parapet g)
      (fun i => VanGent2021Caisson.calculate_dimensionless_crest_freeboard (Hm0.get i) (q.get i) (beta.get i) gamma_beta Hm0_swell c (c_swell.get i) short_crested_waves crossing_seas parapet (g.get i)) := by
  unfold Arr.VanGent2021Caisson.calculate_dimensionless_crest_freeboard VanGent2021Caisson.calculate_dimensionless_crest_freeboard
  try simp only [num_simp]
  arr_rel [VanGent2021Caisson_check_validity_range, VanGent2021Caisson_determine_coefficients, VanGent2021Caisson_swell_coefficient]

theorem VanGent2021Caisson_calculate_crest_freeboard_Rc [NeZero n] (Hm0 q beta : Val n) (gamma_beta Hm0_swell c : PF) (c_swell : Val n) (short_crested_waves crossing_seas parapet : Bool) (g : Val n) :
    Rel False (Arr.VanGent2021Caisson.calculate_crest_freeboard_Rc Hm0 q beta (.num gamma_beta) (.num Hm0_swell) c c_swell short_crested_waves crossing_seas parapet g)
      (fun i => VanGent2021Caisson.calculate_crest_freeboard_Rc (Hm0.get i) (q.get i) (beta.get i) gamma_beta Hm0_swell c (c_swell.get i) short_crested_waves crossing_seas parapet (g.get i)) := by
  unfold Arr.VanGent2021Caisson.calculate_crest_freeboard_Rc VanGent2021Caisson.calculate_crest_freeboard_Rc
  try simp only [num_simp]
  arr_rel [VanGent2021Caisson_calculate_dimensionless_crest_freeboard]

theorem VanGent2025_check_validity_range [NeZero n] {U : Prop} (Hm0 Hm0_deep Tmm10 beta h cot_alpha Dn50 Rc Ac Gc B_berm db : Val n)
    (hU : U → ∀ x ∈ [Hm0, Hm0_deep, Tmm10, beta, h, cot_alpha, Dn50, Rc, Ac, Gc, B_berm, db], Val.Uniform x) :
    Rel U (Arr.VanGent2025.check_validity_range Hm0 Hm0_deep Tmm10 beta h cot_alpha Dn50 Rc Ac Gc B_berm db)
      (fun i => VanGent2025.check_validity_range (Hm0.get i) (Hm0_deep.get i) (Tmm10.get i) (beta.get i) (h.get i) (cot_alpha.get i) (Dn50.get i) (Rc.get i) (Ac.get i) (Gc.get i) (B_berm.get i) (db.get i)) := by
  unfold Arr.VanGent2025.check_validity_range VanGent2025.check_validity_range
  arr_rel [] hU

@[shape_simp] theorem shape_VanGent2025_q_diml_max_equation (Hm0 Hm0_swell ksi_mm10 cot_alpha Rc gamma_f gamma_b gamma_v gamma_beta c2 c3 : Val n) :
    (Arr.VanGent2025.q_diml_max_equation Hm0 Hm0_swell ksi_mm10 cot_alpha Rc gamma_f gamma_b gamma_v gamma_beta c2 c3).isArray = (Hm0.isArray || Hm0_swell.isArray || ksi_mm10.isArray || cot_alpha.isArray || Rc.isArray || gamma_f.isArray || gamma_b.isArray || gamma_v.isArray || gamma_beta.isArray || c2.isArray || c3.isArray) := by
  unfold Arr.VanGent2025.q_diml_max_equation
  simp only [shape_simp]
  try grind

@[cases_simp] theorem VanGent2025_q_diml_max_equation (Hm0 Hm0_swell ksi_mm10 cot_alpha Rc gamma_f gamma_b gamma_v gamma_beta c2 c3 : Val n) (i : Fin n) :
    (Arr.VanGent2025.q_diml_max_equation Hm0 Hm0_swell ksi_mm10 cot_alpha Rc gamma_f gamma_b gamma_v gamma_beta c2 c3).get i =
      VanGent2025.q_diml_max_equation (Hm0.get i) (Hm0_swell.get i) (ksi_mm10.get i) (cot_alpha.get i) (Rc.get i) (gamma_f.get i) (gamma_b.get i) (gamma_v.get i) (gamma_beta.get i) (c2.get i) (c3.get i) := by
  unfold Arr.VanGent2025.q_diml_max_equation VanGent2025.q_diml_max_equation
  arr_pure

@[cases_simp] theorem VanGent2025_calculate_influence_friction_gamma_f (Dn50 Hm0 smm10 c_f1 c_f2 smm10_lim : Val n) (i : Fin n) :
    (Arr.VanGent2025.calculate_influence_friction_gamma_f Dn50 Hm0 smm10 c_f1 c_f2 smm10_lim).get i =
      VanGent2025.calculate_influence_friction_gamma_f (Dn50.get i) (Hm0.get i) (smm10.get i) (c_f1.get i) (c_f2.get i) (smm10_lim.get i) := by
  unfold Arr.VanGent2025.calculate_influence_friction_gamma_f VanGent2025.calculate_influence_friction_gamma_f
  arr_pure

@[cases_simp] theorem VanGent2025_calculate_influence_berm_gamma_b (Hm0 smm10 Ac B_berm BL c_b1 c_b2 c_b3 c_b4 : Val n) (i : Fin n) :
    (Arr.VanGent2025.calculate_influence_berm_gamma_b Hm0 smm10 Ac B_berm BL c_b1 c_b2 c_b3 c_b4).get i =
      VanGent2025.calculate_influence_berm_gamma_b (Hm0.get i) (smm10.get i) (Ac.get i) (B_berm.get i) (BL.get i) (c_b1.get i) (c_b2.get i) (c_b3.get i) (c_b4.get i) := by
  unfold Arr.VanGent2025.calculate_influence_berm_gamma_b VanGent2025.calculate_influence_berm_gamma_b
  arr_pure

@[cases_simp] theorem VanGent2025_calculate_influence_oblique_waves_gamma_beta (beta c_beta : Val n) (i : Fin n) :
    (Arr.VanGent2025.calculate_influence_oblique_waves_gamma_beta beta c_beta).get i =
      VanGent2025.calculate_influence_oblique_waves_gamma_beta (beta.get i) (c_beta.get i) := by
  unfold Arr.VanGent2025.calculate_influence_oblique_waves_gamma_beta VanGent2025.calculate_influence_oblique_waves_gamma_beta
  arr_pure

@[cases_simp] theorem VanGent2025_calculate_influence_crest_wall_gamma_v (cot_alpha Rc Ac c_v : Val n) (i : Fin n) :
    (Arr.VanGent2025.calculate_influence_crest_wall_gamma_v cot_alpha Rc Ac c_v).get i =
      VanGent2025.calculate_influence_crest_wall_gamma_v (cot_alpha.get i) (Rc.get i) (Ac.get i) (c_v.get i) := by
  unfold Arr.VanGent2025.calculate_influence_crest_wall_gamma_v VanGent2025.calculate_influence_crest_wall_gamma_v
  arr_pure

@[shape_simp] theorem shape_VanGent2025_calculate_influence_wind_gamma_w (Rc Ac Hm0 q_diml c_w1 c_w2 : Val n) :
    (Arr.VanGent2025.calculate_influence_wind_gamma_w Rc Ac Hm0 q_diml c_w1 c_w2).isArray = (Rc.isArray || Ac.isArray || Hm0.isArray || q_diml.isArray || c_w1.isArray || c_w2.isArray) := by
  unfold Arr.VanGent2025.calculate_influence_wind_gamma_w
  simp only [shape_simp]
  try grind

@[cases_simp] theorem VanGent2025_calculate_influence_wind_gamma_w (Rc Ac Hm0 q_diml c_w1 c_w2 : Val n) (i : Fin n) :
    (Arr.VanGent2025.calculate_influence_wind_gamma_w Rc Ac Hm0 q_diml c_w1 c_w2).get i =
      VanGent2025.calculate_influence_wind_gamma_w (Rc.get i) (Ac.get i) (Hm0.get i) (q_diml.get i) (c_w1.get i) (c_w2.get i) := by
  unfold Arr.VanGent2025.calculate_influence_wind_gamma_w VanGent2025.calculate_influence_wind_gamma_w
  arr_pure

theorem VanGent2025_friction_or_raise [NeZero n] {U : Prop} (Hm0 Tmm10 : Val n) (Dn50 gamma_f : PF)
    (hU : U → ∀ x ∈ [Hm0, Tmm10], Val.Uniform x) :
    Rel U (Arr.VanGent2025.friction_or_raise Hm0 Tmm10 (.num Dn50) (.num gamma_f))
      (fun i => VanGent2025.friction_or_raise (Hm0.get i) (Tmm10.get i) Dn50 gamma_f) := by
  unfold Arr.VanGent2025.friction_or_raise VanGent2025.friction_or_raise
  try simp only [num_simp]
  arr_rel [] hU

theorem VanGent2025_calculate_dimensionless_overtopping_discharge_q [NeZero n] (Hm0 Hm0_swell Tmm10 Rc Ac cot_alpha beta B_berm db : Val n) (Dn50 gamma_f gamma_b : PF) (gamma_v : Val n) (gamma_beta : PF) (design_calculation include_influence_wind : Bool) :
    Rel False (Arr.VanGent2025.calculate_dimensionless_overtopping_discharge_q Hm0 Hm0_swell Tmm10 Rc Ac cot_alpha beta B_berm db (.num Dn50) (.num gamma_f) (.num gamma_b) gamma_v (.num gamma_beta) design_calculation include_influence_wind)
      (fun i => VanGent2025.calculate_dimensionless_overtopping_discharge_q (Hm0.get i) (Hm0_swell.get i) (Tmm10.get i) (Rc.get i) (Ac.get i) (cot_alpha.get i) (beta.get i) (B_berm.get i) (db.get i) Dn50 gamma_f gamma_b (gamma_v.get i) gamma_beta design_calculation include_influence_wind) := by
  unfold Arr.VanGent2025.calculate_dimensionless_overtopping_discharge_q VanGent2025.calculate_dimensionless_overtopping_discharge_q
  simp only [num_simp]
  cases design_calculation <;> cases include_influence_wind <;>
  simp only [if_true, Bool.false_eq_true, if_false]
  all_goals
    arr_rel [VanGent2025_check_validity_range, VanGent2025_friction_or_raise]

theorem VanGent2025_calculate_overtopping_discharge_q [NeZero n] (Hm0 Hm0_swell Tmm10 Rc Ac cot_alpha beta B_berm db : Val n) (Dn50 gamma_f gamma_b : PF) (gamma_v : Val n) (gamma_beta : PF) (g : Val n) (design_calculation include_influence_wind : Bool) :
    Rel False (Arr.VanGent2025.calculate_overtopping_discharge_q Hm0 Hm0_swell Tmm10 Rc Ac cot_alpha beta B_berm db (.num Dn50) (.num gamma_f) (.num gamma_b) gamma_v (.num gamma_beta) g design_calculation include_influence_wind)
      (fun i => VanGent2025.calculate_overtopping_discharge_q (Hm0.get i) (Hm0_swell.get i) (Tmm10.get i) (Rc.get i) (Ac.get i) (cot_alpha.get i) (beta.get i) (B_berm.get i) (db.get i) Dn50 gamma_f gamma_b (gamma_v.get i) gamma_beta (g.get i) design_calculation include_influence_wind) := by
  unfold Arr.VanGent2025.calculate_overtopping_discharge_q VanGent2025.calculate_overtopping_discharge_q
  try simp only [num_simp]
  arr_rel [VanGent2025_calculate_dimensionless_overtopping_discharge_q]

@[shape_simp] theorem shape_VanGent2025_Rc_diml_max_equation (Hm0 Hm0_swell q cot_alpha ksi_mm10 gamma_f gamma_b gamma_v gamma_beta c2 c3 g : Val n) :
    (Arr.VanGent2025.Rc_diml_max_equation Hm0 Hm0_swell q cot_alpha ksi_mm10 gamma_f gamma_b gamma_v gamma_beta c2 c3 g).isArray = (Hm0.isArray || Hm0_swell.isArray || q.isArray || cot_alpha.isArray || ksi_mm10.isArray || gamma_f.isArray || gamma_b.isArray || gamma_v.isArray || gamma_beta.isArray || c2.isArray || c3.isArray || g.isArray) := by
  unfold Arr.VanGent2025.Rc_diml_max_equation
  simp only [shape_simp]
  try grind

@[cases_simp] theorem VanGent2025_Rc_diml_max_equation (Hm0 Hm0_swell q cot_alpha ksi_mm10 gamma_f gamma_b gamma_v gamma_beta c2 c3 g : Val n) (i : Fin n) :
    (Arr.VanGent2025.Rc_diml_max_equation Hm0 Hm0_swell q cot_alpha ksi_mm10 gamma_f gamma_b gamma_v gamma_beta c2 c3 g).get i =
      VanGent2025.Rc_diml_max_equation (Hm0.get i) (Hm0_swell.get i) (q.get i) (cot_alpha.get i) (ksi_mm10.get i) (gamma_f.get i) (gamma_b.get i) (gamma_v.get i) (gamma_beta.get i) (c2.get i) (c3.get i) (g.get i) := by
  unfold Arr.VanGent2025.Rc_diml_max_equation VanGent2025.Rc_diml_max_equation
  arr_pure

@[shape_simp] theorem shape_VanGent2025_Rc_diml_eqB1 (Hm0 Hm0_swell q_diml cot_alpha ksi_mm10 gamma_f gamma_b gamma_v gamma_beta : Val n) :
    (Arr.VanGent2025.Rc_diml_eqB1 Hm0 Hm0_swell q_diml cot_alpha ksi_mm10 gamma_f gamma_b gamma_v gamma_beta).isArray = (Hm0.isArray || Hm0_swell.isArray || q_diml.isArray || cot_alpha.isArray || ksi_mm10.isArray || gamma_f.isArray || gamma_b.isArray || gamma_v.isArray || gamma_beta.isArray) := by
  unfold Arr.VanGent2025.Rc_diml_eqB1
  simp only [shape_simp]
  try grind

@[cases_simp] theorem VanGent2025_Rc_diml_eqB1 (Hm0 Hm0_swell q_diml cot_alpha ksi_mm10 gamma_f gamma_b gamma_v gamma_beta : Val n) (i : Fin n) :
    (Arr.VanGent2025.Rc_diml_eqB1 Hm0 Hm0_swell q_diml cot_alpha ksi_mm10 gamma_f gamma_b gamma_v gamma_beta).get i =
      VanGent2025.Rc_diml_eqB1 (Hm0.get i) (Hm0_swell.get i) (q_diml.get i) (cot_alpha.get i) (ksi_mm10.get i) (gamma_f.get i) (gamma_b.get i) (gamma_v.get i) (gamma_beta.get i) := by
  unfold Arr.VanGent2025.Rc_diml_eqB1 VanGent2025.Rc_diml_eqB1
  arr_pure

theorem DeRidder2024_check_validity_range [NeZero n] {U : Prop} (h Hm0 Hm0_HF Hm0_LF Tmm10 Tmm10_HF Rc cot_alpha m_foreshore_slope Dn50 : Val n)
    (hU : U → ∀ x ∈ [h, Hm0, Hm0_HF, Hm0_LF, Tmm10, Tmm10_HF, Rc, cot_alpha, m_foreshore_slope, Dn50], Val.Uniform x) :
    Rel U (Arr.DeRidder2024.check_validity_range h Hm0 Hm0_HF Hm0_LF Tmm10 Tmm10_HF Rc cot_alpha m_foreshore_slope Dn50)
      (fun i => DeRidder2024.check_validity_range (h.get i) (Hm0.get i) (Hm0_HF.get i) (Hm0_LF.get i) (Tmm10.get i) (Tmm10_HF.get i) (Rc.get i) (cot_alpha.get i) (m_foreshore_slope.get i) (Dn50.get i)) := by
  unfold Arr.DeRidder2024.check_validity_range DeRidder2024.check_validity_range
  arr_rel [] hU

@[cases_simp] theorem DeRidder2024_period_HF (Hm0 smm10_HF : Val n) (i : Fin n) :
    (Arr.DeRidder2024.period_HF Hm0 smm10_HF).get i =
      DeRidder2024.period_HF (Hm0.get i) (smm10_HF.get i) := by
  unfold Arr.DeRidder2024.period_HF DeRidder2024.period_HF
  arr_pure

theorem DeRidder2024_calculate_dimensionless_crest_freeboard_discharge_q_eq24 [NeZero n] (Hm0 smm10_HF gamma_f q g : Val n) :
    Rel False (Arr.DeRidder2024.calculate_dimensionless_crest_freeboard_discharge_q_eq24 Hm0 smm10_HF gamma_f q g)
      (fun i => DeRidder2024.calculate_dimensionless_crest_freeboard_discharge_q_eq24 (Hm0.get i) (smm10_HF.get i) (gamma_f.get i) (q.get i) (g.get i)) := by
  unfold Arr.DeRidder2024.calculate_dimensionless_crest_freeboard_discharge_q_eq24 DeRidder2024.calculate_dimensionless_crest_freeboard_discharge_q_eq24
  arr_rel [DeRidder2024_check_validity_range]

theorem DeRidder2024_calculate_crest_freeboard_discharge_q_eq24 [NeZero n] (Hm0 smm10_HF gamma_f q _g : Val n) :
    Rel False (Arr.DeRidder2024.calculate_crest_freeboard_discharge_q_eq24 Hm0 smm10_HF gamma_f q _g)
      (fun i => DeRidder2024.calculate_crest_freeboard_discharge_q_eq24 (Hm0.get i) (smm10_HF.get i) (gamma_f.get i) (q.get i) (_g.get i)) := by
  unfold Arr.DeRidder2024.calculate_crest_freeboard_discharge_q_eq24 DeRidder2024.calculate_crest_freeboard_discharge_q_eq24
  arr_rel [DeRidder2024_calculate_dimensionless_crest_freeboard_discharge_q_eq24]

theorem DeRidder2024_calculate_crest_freeboard_discharge_q_eq26 [NeZero n] (Hm0 smm10_HF Hm0_LF gamma_f q g : Val n) :
    Rel False (Arr.DeRidder2024.calculate_crest_freeboard_discharge_q_eq26 Hm0 smm10_HF Hm0_LF gamma_f q g)
      (fun i => DeRidder2024.calculate_crest_freeboard_discharge_q_eq26 (Hm0.get i) (smm10_HF.get i) (Hm0_LF.get i) (gamma_f.get i) (q.get i) (g.get i)) := by
  unfold Arr.DeRidder2024.calculate_crest_freeboard_discharge_q_eq26 DeRidder2024.calculate_crest_freeboard_discharge_q_eq26
  arr_rel [DeRidder2024_check_validity_range]

theorem DeRidder2024_calculate_dimensionless_overtopping_discharge_eq24 [NeZero n] (Hm0 smm10_HF gamma_f Rc : Val n) :
    Rel False (Arr.DeRidder2024.calculate_dimensionless_overtopping_discharge_eq24 Hm0 smm10_HF gamma_f Rc)
      (fun i => DeRidder2024.calculate_dimensionless_overtopping_discharge_eq24 (Hm0.get i) (smm10_HF.get i) (gamma_f.get i) (Rc.get i)) := by
  unfold Arr.DeRidder2024.calculate_dimensionless_overtopping_discharge_eq24 DeRidder2024.calculate_dimensionless_overtopping_discharge_eq24
  arr_rel [DeRidder2024_check_validity_range]

theorem DeRidder2024_calculate_overtopping_discharge_q_eq24 [NeZero n] (Hm0 smm10_HF gamma_f Rc g : Val n) :
    Rel False (Arr.DeRidder2024.calculate_overtopping_discharge_q_eq24 Hm0 smm10_HF gamma_f Rc g)
      (fun i => DeRidder2024.calculate_overtopping_discharge_q_eq24 (Hm0.get i) (smm10_HF.get i) (gamma_f.get i) (Rc.get i) (g.get i)) := by
  unfold Arr.DeRidder2024.calculate_overtopping_discharge_q_eq24 DeRidder2024.calculate_overtopping_discharge_q_eq24
  arr_rel [DeRidder2024_calculate_dimensionless_overtopping_discharge_eq24]

theorem DeRidder2024_calculate_dimensionless_overtopping_discharge_eq26 [NeZero n] (Hm0 smm10_HF Hm0_LF gamma_f Rc : Val n) :
    Rel False (Arr.DeRidder2024.calculate_dimensionless_overtopping_discharge_eq26 Hm0 smm10_HF Hm0_LF gamma_f Rc)
      (fun i => DeRidder2024.calculate_dimensionless_overtopping_discharge_eq26 (Hm0.get i) (smm10_HF.get i) (Hm0_LF.get i) (gamma_f.get i) (Rc.get i)) := by
  unfold Arr.DeRidder2024.calculate_dimensionless_overtopping_discharge_eq26 DeRidder2024.calculate_dimensionless_overtopping_discharge_eq26
  arr_rel [DeRidder2024_check_validity_range]

theorem DeRidder2024_calculate_overtopping_discharge_q_eq26 [NeZero n] (Hm0 smm10_HF Hm0_LF gamma_f Rc g : Val n) :
    Rel False (Arr.DeRidder2024.calculate_overtopping_discharge_q_eq26 Hm0 smm10_HF Hm0_LF gamma_f Rc g)
      (fun i => DeRidder2024.calculate_overtopping_discharge_q_eq26 (Hm0.get i) (smm10_HF.get i) (Hm0_LF.get i) (gamma_f.get i) (Rc.get i) (g.get i)) := by
  unfold Arr.DeRidder2024.calculate_overtopping_discharge_q_eq26 DeRidder2024.calculate_overtopping_discharge_q_eq26
  arr_rel [DeRidder2024_calculate_dimensionless_overtopping_discharge_eq26]

theorem DeRidder2026_check_validity_range [NeZero n] {U : Prop} (h Hm0 Hm0_HF Hm0_LF Tmm10 Tmm10_HF Rc Dn50 theta : Val n)
    (hU : U → ∀ x ∈ [h, Hm0, Hm0_HF, Hm0_LF, Tmm10, Tmm10_HF, Rc, Dn50, theta], Val.Uniform x) :
    Rel U (Arr.DeRidder2026.check_validity_range h Hm0 Hm0_HF Hm0_LF Tmm10 Tmm10_HF Rc Dn50 theta)
      (fun i => DeRidder2026.check_validity_range (h.get i) (Hm0.get i) (Hm0_HF.get i) (Hm0_LF.get i) (Tmm10.get i) (Tmm10_HF.get i) (Rc.get i) (Dn50.get i) (theta.get i)) := by
  unfold Arr.DeRidder2026.check_validity_range DeRidder2026.check_validity_range
  arr_rel [] hU

@[cases_simp] theorem DeRidder2026_calculate_gamma_beta (theta : Val n) (i : Fin n) :
    (Arr.DeRidder2026.calculate_gamma_beta theta).get i =
      DeRidder2026.calculate_gamma_beta (theta.get i) := by
  unfold Arr.DeRidder2026.calculate_gamma_beta DeRidder2026.calculate_gamma_beta
  arr_pure

@[cases_simp] theorem DeRidder2026_calculate_dimensionless_crest_freeboard_discharge_q_eq28 (Hm0 smm10_HF gamma_f q g gamma_beta : Val n) (i : Fin n) :
    (Arr.DeRidder2026.calculate_dimensionless_crest_freeboard_discharge_q_eq28 Hm0 smm10_HF gamma_f q g gamma_beta).get i =
      DeRidder2026.calculate_dimensionless_crest_freeboard_discharge_q_eq28 (Hm0.get i) (smm10_HF.get i) (gamma_f.get i) (q.get i) (g.get i) (gamma_beta.get i) := by
  unfold Arr.DeRidder2026.calculate_dimensionless_crest_freeboard_discharge_q_eq28 DeRidder2026.calculate_dimensionless_crest_freeboard_discharge_q_eq28
  arr_pure

theorem DeRidder2026_calculate_crest_freeboard_discharge_q_eq28 [NeZero n] {U : Prop} (Hm0 smm10_HF gamma_f q g theta : Val n)
    (hU : U → ∀ x ∈ [Hm0, smm10_HF, gamma_f, q, g, theta], Val.Uniform x) :
    Rel U (Arr.DeRidder2026.calculate_crest_freeboard_discharge_q_eq28 Hm0 smm10_HF gamma_f q g theta)
      (fun i => DeRidder2026.calculate_crest_freeboard_discharge_q_eq28 (Hm0.get i) (smm10_HF.get i) (gamma_f.get i) (q.get i) (g.get i) (theta.get i)) := by
  unfold Arr.DeRidder2026.calculate_crest_freeboard_discharge_q_eq28 DeRidder2026.calculate_crest_freeboard_discharge_q_eq28
  arr_rel [] hU

theorem DeRidder2026_calculate_crest_freeboard_discharge_q_eq32 [NeZero n] {U : Prop} (Hm0_HF smm10_HF Hm0_LF gamma_f q g theta : Val n)
    (hU : U → ∀ x ∈ [Hm0_HF, smm10_HF, Hm0_LF, gamma_f, q, g, theta], Val.Uniform x) :
    Rel U (Arr.DeRidder2026.calculate_crest_freeboard_discharge_q_eq32 Hm0_HF smm10_HF Hm0_LF gamma_f q g theta)
      (fun i => DeRidder2026.calculate_crest_freeboard_discharge_q_eq32 (Hm0_HF.get i) (smm10_HF.get i) (Hm0_LF.get i) (gamma_f.get i) (q.get i) (g.get i) (theta.get i)) := by
  unfold Arr.DeRidder2026.calculate_crest_freeboard_discharge_q_eq32 DeRidder2026.calculate_crest_freeboard_discharge_q_eq32
  arr_rel [] hU

theorem DeRidder2026_calculate_dimensionless_overtopping_discharge_eq28 [NeZero n] (Hm0 smm10_HF gamma_f Rc theta : Val n) :
    Rel False (Arr.DeRidder2026.calculate_dimensionless_overtopping_discharge_eq28 Hm0 smm10_HF gamma_f Rc theta)
      (fun i => DeRidder2026.calculate_dimensionless_overtopping_discharge_eq28 (Hm0.get i) (smm10_HF.get i) (gamma_f.get i) (Rc.get i) (theta.get i)) := by
  unfold Arr.DeRidder2026.calculate_dimensionless_overtopping_discharge_eq28 DeRidder2026.calculate_dimensionless_overtopping_discharge_eq28
  arr_rel [DeRidder2026_check_validity_range]

theorem DeRidder2026_calculate_overtopping_discharge_q_eq28 [NeZero n] (Hm0 smm10_HF gamma_f Rc g theta : Val n) :
    Rel False (Arr.DeRidder2026.calculate_overtopping_discharge_q_eq28 Hm0 smm10_HF gamma_f Rc g theta)
      (fun i => DeRidder2026.calculate_overtopping_discharge_q_eq28 (Hm0.get i) (smm10_HF.get i) (gamma_f.get i) (Rc.get i) (g.get i) (theta.get i)) := by
  unfold Arr.DeRidder2026.calculate_overtopping_discharge_q_eq28 DeRidder2026.calculate_overtopping_discharge_q_eq28
  arr_rel [DeRidder2026_calculate_dimensionless_overtopping_discharge_eq28]

theorem DeRidder2026_calculate_dimensionless_overtopping_discharge_eq32 [NeZero n] (Hm0_HF smm10_HF Hm0_LF gamma_f Rc theta : Val n) :
    Rel False (Arr.DeRidder2026.calculate_dimensionless_overtopping_discharge_eq32 Hm0_HF smm10_HF Hm0_LF gamma_f Rc theta)
      (fun i => DeRidder2026.calculate_dimensionless_overtopping_discharge_eq32 (Hm0_HF.get i) (smm10_HF.get i) (Hm0_LF.get i) (gamma_f.get i) (Rc.get i) (theta.get i)) := by
  unfold Arr.DeRidder2026.calculate_dimensionless_overtopping_discharge_eq32 DeRidder2026.calculate_dimensionless_overtopping_discharge_eq32
  arr_rel [DeRidder2026_check_validity_range]

theorem DeRidder2026_calculate_overtopping_discharge_q_eq32 [NeZero n] (Hm0_HF smm10_HF Hm0_LF gamma_f Rc g theta : Val n) :
    Rel False (Arr.DeRidder2026.calculate_overtopping_discharge_q_eq32 Hm0_HF smm10_HF Hm0_LF gamma_f Rc g theta)
      (fun i => DeRidder2026.calculate_overtopping_discharge_q_eq32 (Hm0_HF.get i) (smm10_HF.get i) (Hm0_LF.get i) (gamma_f.get i) (Rc.get i) (g.get i) (theta.get i)) := by
  unfold Arr.DeRidder2026.calculate_overtopping_discharge_q_eq32 DeRidder2026.calculate_overtopping_discharge_q_eq32
  arr_rel [DeRidder2026_calculate_dimensionless_overtopping_discharge_eq32]

end ArrProof
end
