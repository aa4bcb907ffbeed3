import Verif.Lemmas.ArrayTaw

/-! # One case of a call on arrays: overtopping discharge and crest level, single slope -/

open Classical
open Arrays
noncomputable section
namespace ArrProof
variable {n : ℕ}

theorem read_some (c : Val n × Val n) : Arr.OvertoppingTaw2002.read_correction (some c) = pure c := rfl
theorem read_none : Arr.OvertoppingTaw2002.read_correction (none : Option (Val n × Val n)) =
    PyM.raise .unboundLocal := rfl
theorem read_some_one (c : PF × PF) : OvertoppingTaw2002.read_correction (some c) = pure c := rfl
theorem read_none_one : OvertoppingTaw2002.read_correction none = PyM.raise .unboundLocal := rfl

@[cases_simp] theorem fst_case {α β γ δ : Type} [Cases n α β] [Cases n γ δ] (p : α × γ) (i : Fin n) :
    (Cases.case p i : β × δ).1 = Cases.case p.1 i := rfl
@[cases_simp] theorem snd_case {α β γ δ : Type} [Cases n α β] [Cases n γ δ] (p : α × γ) (i : Fin n) :
    (Cases.case p i : β × δ).2 = Cases.case p.2 i := rfl

theorem OvertoppingTaw2002_calculate_dimensionless_overtopping_discharge_q [NeZero n]
    (Hm0 Tmm10 Rc cot_alpha beta : Val n) (B_berm : PF) (db gamma_beta : Val n) (gamma_b : PF)
    (gamma_f gamma_v : Val n) (sigma : PF) (use_best_fit : Bool)
    (h_cot_alpha : cot_alpha.Uniform) (h_beta : beta.Uniform) (h_gamma_beta : gamma_beta.Uniform)
    (h_berm : ¬ gamma_b.isnan ∨ PF.eqF B_berm 0.0)
    (h_shape : gamma_v.isArray → Hm0.isArray || Tmm10.isArray || Rc.isArray || cot_alpha.isArray ||
      gamma_f.isArray) :
    Rel False (Arr.OvertoppingTaw2002.calculate_dimensionless_overtopping_discharge_q Hm0 Tmm10 Rc cot_alpha Val.nan Val.nan beta (.num B_berm) db
        gamma_beta (.num gamma_b) gamma_f gamma_v (.num sigma) use_best_fit)
      (fun i => OvertoppingTaw2002.calculate_dimensionless_overtopping_discharge_q (Hm0.get i) (Tmm10.get i) (Rc.get i) (cot_alpha.get i) PF.nan
        PF.nan (beta.get i) B_berm (db.get i) (gamma_beta.get i) gamma_b (gamma_f.get i)
        (gamma_v.get i) sigma use_best_fit) := by
  unfold Arr.OvertoppingTaw2002.calculate_dimensionless_overtopping_discharge_q OvertoppingTaw2002.calculate_dimensionless_overtopping_discharge_q
  dsimp only
  refine Rel.sigma sigma use_best_fit (fun a b => ?_) ?_
  rotate_left
  · refine Rel.gamma_beta h_beta h_gamma_beta fun given => ?_
    refine Rel.single_slope h_cot_alpha fun hn hn' => ?_
    simp only [Bool.false_eq_true, if_false, Val.pure_bind, berm_single _ _ _ _ _ _ _ _ h_berm hn,
      berm_single_one _ _ _ _ _ _ _ _ h_berm (hn' _), read_none, read_none_one, raise_bind]
    exact Rel.raise
  · refine Rel.gamma_beta h_beta h_gamma_beta fun given => ?_
    refine Rel.single_slope h_cot_alpha fun hn hn' => ?_
    simp only [Bool.false_eq_true, if_false, Val.pure_bind, berm_single _ _ _ _ _ _ _ _ h_berm hn,
      berm_single_one _ _ _ _ _ _ _ _ h_berm (hn' _), read_some, read_some_one]
    generalize (if gamma_b.isnan then 1.0 else gamma_b) = gamma_b
    cases given
    all_goals
      simp only [Bool.false_eq_true, if_false, if_true]
      arr_rel [OvertoppingTaw2002_check_validity_range]

theorem OvertoppingTaw2002_calculate_overtopping_discharge_q [NeZero n]
    (Hm0 Tmm10 Rc cot_alpha beta : Val n) (B_berm : PF) (db gamma_beta : Val n) (gamma_b : PF)
    (gamma_f gamma_v : Val n) (sigma : PF) (g : Val n) (use_best_fit : Bool)
    (h_cot_alpha : cot_alpha.Uniform) (h_beta : beta.Uniform) (h_gamma_beta : gamma_beta.Uniform)
    (h_berm : ¬ gamma_b.isnan ∨ PF.eqF B_berm 0.0)
    (h_shape : gamma_v.isArray → Hm0.isArray || Tmm10.isArray || Rc.isArray || cot_alpha.isArray ||
      gamma_f.isArray) :
    Rel False (Arr.OvertoppingTaw2002.calculate_overtopping_discharge_q Hm0 Tmm10 Rc cot_alpha Val.nan Val.nan beta (.num B_berm) db
        gamma_beta (.num gamma_b) gamma_f gamma_v (.num sigma) g use_best_fit)
      (fun i => OvertoppingTaw2002.calculate_overtopping_discharge_q (Hm0.get i) (Tmm10.get i) (Rc.get i) (cot_alpha.get i) PF.nan
        PF.nan (beta.get i) B_berm (db.get i) (gamma_beta.get i) gamma_b (gamma_f.get i)
        (gamma_v.get i) sigma (g.get i) use_best_fit) := by
  unfold Arr.OvertoppingTaw2002.calculate_overtopping_discharge_q OvertoppingTaw2002.calculate_overtopping_discharge_q
  refine Rel.bind (OvertoppingTaw2002_calculate_dimensionless_overtopping_discharge_q Hm0 Tmm10 Rc cot_alpha beta B_berm db gamma_beta gamma_b
    gamma_f gamma_v sigma use_best_fit h_cot_alpha h_beta h_gamma_beta h_berm h_shape) fun v => ?_
  exact Rel.pure fun i => by arr_eq

theorem OvertoppingTaw2002_calculate_dimensionless_crest_freeboard [NeZero n]
    (Hm0 Tmm10 q cot_alpha beta : Val n) (B_berm : PF) (db gamma_beta : Val n) (gamma_b : PF)
    (gamma_f gamma_v : Val n) (sigma : PF) (g : Val n) (use_best_fit : Bool)
    (h_cot_alpha : cot_alpha.Uniform) (h_beta : beta.Uniform) (h_gamma_beta : gamma_beta.Uniform)
    (h_berm : ¬ gamma_b.isnan ∨ PF.eqF B_berm 0.0)
    (h_shape : gamma_v.isArray || g.isArray → Hm0.isArray || Tmm10.isArray || q.isArray || cot_alpha.isArray ||
      gamma_f.isArray) :
    Rel False (Arr.OvertoppingTaw2002.calculate_dimensionless_crest_freeboard Hm0 Tmm10 q cot_alpha Val.nan Val.nan beta (.num B_berm) db
        gamma_beta (.num gamma_b) gamma_f gamma_v (.num sigma) g use_best_fit)
      (fun i => OvertoppingTaw2002.calculate_dimensionless_crest_freeboard (Hm0.get i) (Tmm10.get i) (q.get i) (cot_alpha.get i) PF.nan
        PF.nan (beta.get i) B_berm (db.get i) (gamma_beta.get i) gamma_b (gamma_f.get i)
        (gamma_v.get i) sigma (g.get i) use_best_fit) := by
  unfold Arr.OvertoppingTaw2002.calculate_dimensionless_crest_freeboard OvertoppingTaw2002.calculate_dimensionless_crest_freeboard
  dsimp only
  refine Rel.sigma sigma use_best_fit (fun a b => ?_) ?_
  rotate_left
  · refine Rel.gamma_beta h_beta h_gamma_beta fun given => ?_
    refine Rel.single_slope h_cot_alpha fun hn hn' => ?_
    simp only [Bool.false_eq_true, if_false, Val.pure_bind, berm_single _ _ _ _ _ _ _ _ h_berm hn,
      berm_single_one _ _ _ _ _ _ _ _ h_berm (hn' _), read_none, read_none_one, raise_bind]
    exact Rel.raise
  · refine Rel.gamma_beta h_beta h_gamma_beta fun given => ?_
    refine Rel.single_slope h_cot_alpha fun hn hn' => ?_
    simp only [Bool.false_eq_true, if_false, Val.pure_bind, berm_single _ _ _ _ _ _ _ _ h_berm hn,
      berm_single_one _ _ _ _ _ _ _ _ h_berm (hn' _), read_some, read_some_one]
    generalize (if gamma_b.isnan then 1.0 else gamma_b) = gamma_b
    cases given
    all_goals
      simp only [Bool.false_eq_true, if_false, if_true]
      arr_rel [OvertoppingTaw2002_check_validity_range]

theorem OvertoppingTaw2002_calculate_crest_freeboard_Rc [NeZero n]
    (Hm0 Tmm10 q cot_alpha beta : Val n) (B_berm : PF) (db gamma_beta : Val n) (gamma_b : PF)
    (gamma_f gamma_v : Val n) (sigma : PF) (g : Val n) (use_best_fit : Bool)
    (h_cot_alpha : cot_alpha.Uniform) (h_beta : beta.Uniform) (h_gamma_beta : gamma_beta.Uniform)
    (h_berm : ¬ gamma_b.isnan ∨ PF.eqF B_berm 0.0)
    (h_shape : gamma_v.isArray || g.isArray → Hm0.isArray || Tmm10.isArray || q.isArray || cot_alpha.isArray ||
      gamma_f.isArray) :
    Rel False (Arr.OvertoppingTaw2002.calculate_crest_freeboard_Rc Hm0 Tmm10 q cot_alpha Val.nan Val.nan beta (.num B_berm) db
        gamma_beta (.num gamma_b) gamma_f gamma_v (.num sigma) g use_best_fit)
      (fun i => OvertoppingTaw2002.calculate_crest_freeboard_Rc (Hm0.get i) (Tmm10.get i) (q.get i) (cot_alpha.get i) PF.nan
        PF.nan (beta.get i) B_berm (db.get i) (gamma_beta.get i) gamma_b (gamma_f.get i)
        (gamma_v.get i) sigma (g.get i) use_best_fit) := by
  unfold Arr.OvertoppingTaw2002.calculate_crest_freeboard_Rc OvertoppingTaw2002.calculate_crest_freeboard_Rc
  refine Rel.bind (OvertoppingTaw2002_calculate_dimensionless_crest_freeboard Hm0 Tmm10 q cot_alpha beta B_berm db gamma_beta gamma_b
    gamma_f gamma_v sigma g use_best_fit h_cot_alpha h_beta h_gamma_beta h_berm h_shape) fun v => ?_
  exact Rel.pure fun i => by arr_eq

theorem oblique_2018 (beta : Val n) (gamma_f gamma_f_crit smooth rough max_angle : PF) :
    Arr.OvertoppingEurOtop2018.calculate_influence_oblique_waves_gamma_beta beta (.num gamma_f) gamma_f_crit
      smooth rough max_angle = pure (Arr.RunupTaw2002.calculate_influence_oblique_waves_gamma_beta beta
        (if gamma_f > gamma_f_crit then smooth else rough) max_angle) :=
  RunupEurOtop2018_oblique ..

theorem oblique_2018_one (beta : PF) (gamma_f gamma_f_crit smooth rough max_angle : PF) :
    OvertoppingEurOtop2018.calculate_influence_oblique_waves_gamma_beta beta gamma_f gamma_f_crit
      smooth rough max_angle = RunupTaw2002.calculate_influence_oblique_waves_gamma_beta beta
        (if gamma_f > gamma_f_crit then smooth else rough) max_angle := rfl

theorem OvertoppingEurOtop2018_calculate_influence_oblique_waves_gamma_beta [NeZero n] {U : Prop}
    (beta : Val n) (gamma_f gamma_f_crit smooth rough max_angle : PF) :
    Rel U (Arr.OvertoppingEurOtop2018.calculate_influence_oblique_waves_gamma_beta beta (.num gamma_f)
        gamma_f_crit smooth rough max_angle)
      (fun i => pure (OvertoppingEurOtop2018.calculate_influence_oblique_waves_gamma_beta (beta.get i)
        gamma_f gamma_f_crit smooth rough max_angle)) := by
  rw [oblique_2018]
  simp only [oblique_2018_one]
  exact Rel.pure fun i => by arr_eq

theorem gamma_b_2018 (Hm0 Tmm10 cot_alpha_average : Val n) (B_berm : PF) (L_berm db gamma_beta : Val n)
    (c1 c2 c3 c4 : PF) (use_best_fit : Bool) (gamma_f : Val n) (hB : PF.eqF B_berm 0.0) :
    Arr.RunupEurOtop2018.iteration_procedure_gamma_b Hm0 Tmm10 cot_alpha_average (.num B_berm)
      L_berm db gamma_beta c1 c2 c3 c4 use_best_fit gamma_f = pure 1.0 := by
  unfold Arr.RunupEurOtop2018.iteration_procedure_gamma_b
  exact gamma_b_none _ _ _ _ _ _ _ _ _ _ _ _ _ hB

theorem gamma_b_2018_one (Hm0 Tmm10 cot_alpha_average B_berm L_berm db gamma_beta : PF)
    (c1 c2 c3 c4 : PF) (use_best_fit : Bool) (gamma_f : PF) (hB : PF.eqF B_berm 0.0) :
    RunupEurOtop2018.iteration_procedure_gamma_b Hm0 Tmm10 cot_alpha_average B_berm
      L_berm db gamma_beta c1 c2 c3 c4 use_best_fit gamma_f = pure 1.0 := by
  unfold RunupEurOtop2018.iteration_procedure_gamma_b
  exact gamma_b_none_one _ _ _ _ _ _ _ _ _ _ _ _ _ hB

theorem RunupEurOtop2018_iteration_procedure_gamma_b [NeZero n] {U : Prop}
    (Hm0 Tmm10 cot_alpha_average : Val n) (B_berm : PF) (L_berm db gamma_beta : Val n)
    (c1 c2 c3 c4 : PF) (use_best_fit : Bool) (gamma_f : Val n) (hB : PF.eqF B_berm 0.0) :
    Rel U (Arr.RunupEurOtop2018.iteration_procedure_gamma_b Hm0 Tmm10 cot_alpha_average (.num B_berm)
      L_berm db gamma_beta c1 c2 c3 c4 use_best_fit gamma_f)
      (fun i => RunupEurOtop2018.iteration_procedure_gamma_b (Hm0.get i) (Tmm10.get i)
        (cot_alpha_average.get i) B_berm (L_berm.get i) (db.get i) (gamma_beta.get i) c1 c2 c3 c4
        use_best_fit (gamma_f.get i)) := by
  rw [gamma_b_2018 _ _ _ _ _ _ _ _ _ _ _ _ _ hB]
  simp only [gamma_b_2018_one _ _ _ _ _ _ _ _ _ _ _ _ _ hB]
  exact Rel.pure fun i => rfl

theorem RunupTaw2002_iteration_procedure_gamma_b [NeZero n] {U : Prop}
    (Hm0 Tmm10 cot_alpha_average : Val n) (B_berm : PF) (L_berm db gamma_beta : Val n)
    (c1 c2 c3 c4 : PF) (use_best_fit : Bool) (gamma_f : Val n) (hB : PF.eqF B_berm 0.0) :
    Rel U (Arr.RunupTaw2002.iteration_procedure_gamma_b Hm0 Tmm10 cot_alpha_average (.num B_berm)
      L_berm db gamma_beta c1 c2 c3 c4 use_best_fit gamma_f)
      (fun i => RunupTaw2002.iteration_procedure_gamma_b (Hm0.get i) (Tmm10.get i)
        (cot_alpha_average.get i) B_berm (L_berm.get i) (db.get i) (gamma_beta.get i) c1 c2 c3 c4
        use_best_fit (gamma_f.get i)) := by
  rw [gamma_b_none _ _ _ _ _ _ _ _ _ _ _ _ _ hB]
  simp only [gamma_b_none_one _ _ _ _ _ _ _ _ _ _ _ _ _ hB]
  exact Rel.pure fun i => rfl

theorem OvertoppingEurOtop2018_calculate_dimensionless_overtopping_discharge_q [NeZero n]
    (Hm0 Tmm10 Rc beta gamma_beta gamma_b : Val n) (gamma_f : PF) (gamma_v gamma_star : Val n)
    (B_berm : PF) (db cot_alpha : Val n) (c1 c2 c3 c4 : PF) (use_best_fit : Bool)
    (h_beta : beta.Uniform) (h_gamma_beta : gamma_beta.Uniform) (h_cot_alpha : cot_alpha.Uniform)
    (h_berm : PF.eqF B_berm 0.0)
    (h_shape : Tmm10.isArray || cot_alpha.isArray || gamma_v.isArray || gamma_star.isArray → Hm0.isArray || Rc.isArray) :
    Rel False (Arr.OvertoppingEurOtop2018.calculate_dimensionless_overtopping_discharge_q Hm0 Tmm10 Rc beta gamma_beta gamma_b (.num gamma_f)
        gamma_v gamma_star (.num B_berm) db cot_alpha Val.nan Val.nan c1 c2 c3 c4 use_best_fit)
      (fun i => OvertoppingEurOtop2018.calculate_dimensionless_overtopping_discharge_q (Hm0.get i) (Tmm10.get i) (Rc.get i) (beta.get i)
        (gamma_beta.get i) (gamma_b.get i) gamma_f (gamma_v.get i) (gamma_star.get i) B_berm (db.get i)
        (cot_alpha.get i) PF.nan PF.nan c1 c2 c3 c4 use_best_fit) := by
  unfold Arr.OvertoppingEurOtop2018.calculate_dimensionless_overtopping_discharge_q OvertoppingEurOtop2018.calculate_dimensionless_overtopping_discharge_q
  dsimp only
  refine Rel.gamma_beta h_beta h_gamma_beta fun given => ?_
  have hg : (if given = true then Arr.OvertoppingEurOtop2018.calculate_influence_oblique_waves_gamma_beta
      beta (.num gamma_f) else pure gamma_beta : PyM (Val n)) = pure (if given = true then
        Arr.RunupTaw2002.calculate_influence_oblique_waves_gamma_beta beta
          (if gamma_f > 0.6 then 0.0033 else 0.0063) 80.0 else gamma_beta) := by
    cases given
    · rfl
    · exact oblique_2018 ..
  rw [hg, Val.pure_bind]
  refine Rel.single_slope h_cot_alpha fun hn hn' => ?_
  obtain ⟨L, hL⟩ := berm_length_single (Hm0 := Hm0) (B_berm := .num B_berm) hn
  have hL' := fun i => berm_length_single_one (Hm0 := Hm0.get i) (B_berm := B_berm) (hn' i)
  choose L' hL' using hL'
  simp only [Bool.false_eq_true, if_false, Val.pure_bind, hL, hL',
    gamma_b_2018 _ _ _ _ _ _ _ _ _ _ _ _ _ h_berm, gamma_b_2018_one _ _ _ _ _ _ _ _ _ _ _ _ _ h_berm]
  cases given
  all_goals
    simp only [Bool.false_eq_true, if_false, if_true, oblique_2018_one]
    arr_rel [OvertoppingEurOtop2018_check_validity_range_rubble_mound]

theorem OvertoppingEurOtop2018_calculate_overtopping_discharge_q [NeZero n]
    (Hm0 Tmm10 Rc beta gamma_beta gamma_b : Val n) (gamma_f : PF) (gamma_v gamma_star : Val n)
    (B_berm : PF) (db cot_alpha : Val n) (c1 c2 c3 c4 : PF) (use_best_fit : Bool) (g : Val n)
    (h_beta : beta.Uniform) (h_gamma_beta : gamma_beta.Uniform) (h_cot_alpha : cot_alpha.Uniform)
    (h_berm : PF.eqF B_berm 0.0)
    (h_shape : Tmm10.isArray || cot_alpha.isArray || gamma_v.isArray || gamma_star.isArray → Hm0.isArray || Rc.isArray) :
    Rel False (Arr.OvertoppingEurOtop2018.calculate_overtopping_discharge_q Hm0 Tmm10 Rc beta gamma_beta gamma_b (.num gamma_f)
        gamma_v gamma_star (.num B_berm) db cot_alpha Val.nan Val.nan c1 c2 c3 c4 use_best_fit g)
      (fun i => OvertoppingEurOtop2018.calculate_overtopping_discharge_q (Hm0.get i) (Tmm10.get i) (Rc.get i) (beta.get i)
        (gamma_beta.get i) (gamma_b.get i) gamma_f (gamma_v.get i) (gamma_star.get i) B_berm (db.get i)
        (cot_alpha.get i) PF.nan PF.nan c1 c2 c3 c4 use_best_fit (g.get i)) := by
  unfold Arr.OvertoppingEurOtop2018.calculate_overtopping_discharge_q OvertoppingEurOtop2018.calculate_overtopping_discharge_q
  refine Rel.bind (OvertoppingEurOtop2018_calculate_dimensionless_overtopping_discharge_q Hm0 Tmm10 Rc beta gamma_beta gamma_b gamma_f gamma_v gamma_star B_berm db cot_alpha c1 c2 c3 c4 use_best_fit
    h_beta h_gamma_beta h_cot_alpha h_berm h_shape) fun v => ?_
  exact Rel.pure fun i => by arr_eq

theorem OvertoppingEurOtop2018_calculate_dimensionless_crest_freeboard [NeZero n]
    (Hm0 Tmm10 q beta gamma_beta gamma_b : Val n) (gamma_f : PF) (gamma_v gamma_star : Val n)
    (B_berm : PF) (db cot_alpha : Val n) (c1 c2 c3 c4 : PF) (use_best_fit : Bool) (g : Val n)
    (h_beta : beta.Uniform) (h_gamma_beta : gamma_beta.Uniform) (h_cot_alpha : cot_alpha.Uniform)
    (h_berm : PF.eqF B_berm 0.0)
    (h_shape : gamma_v.isArray || gamma_star.isArray →
      Hm0.isArray || Tmm10.isArray || q.isArray || cot_alpha.isArray || g.isArray) :
    Rel False (Arr.OvertoppingEurOtop2018.calculate_dimensionless_crest_freeboard Hm0 Tmm10 q beta gamma_beta gamma_b (.num gamma_f)
        gamma_v gamma_star (.num B_berm) db cot_alpha Val.nan Val.nan c1 c2 c3 c4 use_best_fit g)
      (fun i => OvertoppingEurOtop2018.calculate_dimensionless_crest_freeboard (Hm0.get i) (Tmm10.get i) (q.get i) (beta.get i)
        (gamma_beta.get i) (gamma_b.get i) gamma_f (gamma_v.get i) (gamma_star.get i) B_berm (db.get i)
        (cot_alpha.get i) PF.nan PF.nan c1 c2 c3 c4 use_best_fit (g.get i)) := by
  unfold Arr.OvertoppingEurOtop2018.calculate_dimensionless_crest_freeboard OvertoppingEurOtop2018.calculate_dimensionless_crest_freeboard
  dsimp only
  refine Rel.gamma_beta h_beta h_gamma_beta fun given => ?_
  have hg : (if given = true then Arr.OvertoppingEurOtop2018.calculate_influence_oblique_waves_gamma_beta
      beta (.num gamma_f) else pure gamma_beta : PyM (Val n)) = pure (if given = true then
        Arr.RunupTaw2002.calculate_influence_oblique_waves_gamma_beta beta
          (if gamma_f > 0.6 then 0.0033 else 0.0063) 80.0 else gamma_beta) := by
    cases given
    · rfl
    · exact oblique_2018 ..
  rw [hg, Val.pure_bind]
  refine Rel.single_slope h_cot_alpha fun hn hn' => ?_
  obtain ⟨L, hL⟩ := berm_length_single (Hm0 := Hm0) (B_berm := .num B_berm) hn
  have hL' := fun i => berm_length_single_one (Hm0 := Hm0.get i) (B_berm := B_berm) (hn' i)
  choose L' hL' using hL'
  simp only [Bool.false_eq_true, if_false, Val.pure_bind, hL, hL',
    gamma_b_2018 _ _ _ _ _ _ _ _ _ _ _ _ _ h_berm, gamma_b_2018_one _ _ _ _ _ _ _ _ _ _ _ _ _ h_berm]
  cases given
  all_goals
    simp only [Bool.false_eq_true, if_false, if_true, oblique_2018_one]
    arr_rel [OvertoppingEurOtop2018_check_validity_range_rubble_mound]

theorem OvertoppingEurOtop2018_calculate_crest_freeboard_Rc [NeZero n]
    (Hm0 Tmm10 q beta gamma_beta gamma_b : Val n) (gamma_f : PF) (gamma_v gamma_star : Val n)
    (B_berm : PF) (db cot_alpha : Val n) (c1 c2 c3 c4 : PF) (use_best_fit : Bool) (g : Val n)
    (h_beta : beta.Uniform) (h_gamma_beta : gamma_beta.Uniform) (h_cot_alpha : cot_alpha.Uniform)
    (h_berm : PF.eqF B_berm 0.0)
    (h_shape : gamma_v.isArray || gamma_star.isArray →
      Hm0.isArray || Tmm10.isArray || q.isArray || cot_alpha.isArray || g.isArray) :
    Rel False (Arr.OvertoppingEurOtop2018.calculate_crest_freeboard_Rc Hm0 Tmm10 q beta gamma_beta gamma_b (.num gamma_f)
        gamma_v gamma_star (.num B_berm) db cot_alpha Val.nan Val.nan c1 c2 c3 c4 use_best_fit g)
      (fun i => OvertoppingEurOtop2018.calculate_crest_freeboard_Rc (Hm0.get i) (Tmm10.get i) (q.get i) (beta.get i)
        (gamma_beta.get i) (gamma_b.get i) gamma_f (gamma_v.get i) (gamma_star.get i) B_berm (db.get i)
        (cot_alpha.get i) PF.nan PF.nan c1 c2 c3 c4 use_best_fit (g.get i)) := by
  unfold Arr.OvertoppingEurOtop2018.calculate_crest_freeboard_Rc OvertoppingEurOtop2018.calculate_crest_freeboard_Rc
  refine Rel.bind (OvertoppingEurOtop2018_calculate_dimensionless_crest_freeboard Hm0 Tmm10 q beta gamma_beta gamma_b gamma_f gamma_v gamma_star B_berm db cot_alpha c1 c2 c3 c4 use_best_fit g
    h_beta h_gamma_beta h_cot_alpha h_berm h_shape) fun v => ?_
  exact Rel.pure fun i => by arr_eq

theorem OvertoppingEurOtop2018_calculate_dimensionless_overtopping_discharge_q_rubble_mound [NeZero n]
    (Hm0 Tmm10 Rc beta gamma_beta : Val n) (gamma_f : PF) (B_berm db cot_alpha : Val n) (c2 c3 : PF)
    (use_best_fit : Bool)
    (h_beta : beta.Uniform) (h_gamma_beta : gamma_beta.Uniform) (h_cot_alpha : cot_alpha.Uniform) :
    Rel False (Arr.OvertoppingEurOtop2018.calculate_dimensionless_overtopping_discharge_q_rubble_mound Hm0 Tmm10 Rc beta gamma_beta (.num gamma_f) B_berm db
        cot_alpha Val.nan Val.nan c2 c3 use_best_fit)
      (fun i => OvertoppingEurOtop2018.calculate_dimensionless_overtopping_discharge_q_rubble_mound (Hm0.get i) (Tmm10.get i) (Rc.get i) (beta.get i)
        (gamma_beta.get i) gamma_f (B_berm.get i) (db.get i) (cot_alpha.get i) PF.nan PF.nan c2 c3
        use_best_fit) := by
  unfold Arr.OvertoppingEurOtop2018.calculate_dimensionless_overtopping_discharge_q_rubble_mound OvertoppingEurOtop2018.calculate_dimensionless_overtopping_discharge_q_rubble_mound
  dsimp only
  refine Rel.gamma_beta h_beta h_gamma_beta fun given => ?_
  have hg : (if given = true then Arr.OvertoppingEurOtop2018.calculate_influence_oblique_waves_gamma_beta
      beta (.num gamma_f) else pure gamma_beta : PyM (Val n)) = pure (if given = true then
        Arr.RunupTaw2002.calculate_influence_oblique_waves_gamma_beta beta
          (if gamma_f > 0.6 then 0.0033 else 0.0063) 80.0 else gamma_beta) := by
    cases given
    · rfl
    · exact oblique_2018 ..
  rw [hg, Val.pure_bind]
  refine Rel.single_slope h_cot_alpha fun hn hn' => ?_
  simp only [Bool.false_eq_true, if_false, Val.pure_bind]
  cases given
  all_goals
    simp only [Bool.false_eq_true, if_false, if_true, oblique_2018_one]
    arr_rel [OvertoppingEurOtop2018_check_validity_range_rubble_mound]

theorem OvertoppingEurOtop2018_calculate_overtopping_discharge_q_rubble_mound [NeZero n]
    (Hm0 Tmm10 Rc beta gamma_beta : Val n) (gamma_f : PF) (B_berm db cot_alpha : Val n) (c2 c3 : PF)
    (use_best_fit : Bool) (g : Val n)
    (h_beta : beta.Uniform) (h_gamma_beta : gamma_beta.Uniform) (h_cot_alpha : cot_alpha.Uniform) :
    Rel False (Arr.OvertoppingEurOtop2018.calculate_overtopping_discharge_q_rubble_mound Hm0 Tmm10 Rc beta gamma_beta (.num gamma_f) B_berm db
        cot_alpha Val.nan Val.nan c2 c3 use_best_fit g)
      (fun i => OvertoppingEurOtop2018.calculate_overtopping_discharge_q_rubble_mound (Hm0.get i) (Tmm10.get i) (Rc.get i) (beta.get i)
        (gamma_beta.get i) gamma_f (B_berm.get i) (db.get i) (cot_alpha.get i) PF.nan PF.nan c2 c3
        use_best_fit (g.get i)) := by
  unfold Arr.OvertoppingEurOtop2018.calculate_overtopping_discharge_q_rubble_mound OvertoppingEurOtop2018.calculate_overtopping_discharge_q_rubble_mound
  refine Rel.bind (OvertoppingEurOtop2018_calculate_dimensionless_overtopping_discharge_q_rubble_mound Hm0 Tmm10 Rc beta gamma_beta gamma_f B_berm db cot_alpha c2 c3 use_best_fit
    h_beta h_gamma_beta h_cot_alpha) fun v => ?_
  exact Rel.pure fun i => by arr_eq

theorem OvertoppingEurOtop2018_calculate_dimensionless_crest_freeboard_rubble_mound [NeZero n]
    (Hm0 Tmm10 q beta gamma_beta : Val n) (gamma_f : PF) (B_berm db cot_alpha : Val n) (c2 c3 : PF)
    (use_best_fit : Bool) (g : Val n)
    (h_beta : beta.Uniform) (h_gamma_beta : gamma_beta.Uniform) (h_cot_alpha : cot_alpha.Uniform) :
    Rel False (Arr.OvertoppingEurOtop2018.calculate_dimensionless_crest_freeboard_rubble_mound Hm0 Tmm10 q beta gamma_beta (.num gamma_f) B_berm db
        cot_alpha Val.nan Val.nan c2 c3 use_best_fit g)
      (fun i => OvertoppingEurOtop2018.calculate_dimensionless_crest_freeboard_rubble_mound (Hm0.get i) (Tmm10.get i) (q.get i) (beta.get i)
        (gamma_beta.get i) gamma_f (B_berm.get i) (db.get i) (cot_alpha.get i) PF.nan PF.nan c2 c3
        use_best_fit (g.get i)) := by
  unfold Arr.OvertoppingEurOtop2018.calculate_dimensionless_crest_freeboard_rubble_mound OvertoppingEurOtop2018.calculate_dimensionless_crest_freeboard_rubble_mound
  dsimp only
  refine Rel.gamma_beta h_beta h_gamma_beta fun given => ?_
  have hg : (if given = true then Arr.OvertoppingEurOtop2018.calculate_influence_oblique_waves_gamma_beta
      beta (.num gamma_f) else pure gamma_beta : PyM (Val n)) = pure (if given = true then
        Arr.RunupTaw2002.calculate_influence_oblique_waves_gamma_beta beta
          (if gamma_f > 0.6 then 0.0033 else 0.0063) 80.0 else gamma_beta) := by
    cases given
    · rfl
    · exact oblique_2018 ..
  rw [hg, Val.pure_bind]
  refine Rel.single_slope h_cot_alpha fun hn hn' => ?_
  simp only [Bool.false_eq_true, if_false, Val.pure_bind]
  cases given
  all_goals
    simp only [Bool.false_eq_true, if_false, if_true, oblique_2018_one]
    arr_rel [OvertoppingEurOtop2018_check_validity_range_rubble_mound]

theorem OvertoppingEurOtop2018_calculate_crest_freeboard_Rc_rubble_mound [NeZero n]
    (Hm0 Tmm10 q beta gamma_beta : Val n) (gamma_f : PF) (B_berm db cot_alpha : Val n) (c2 c3 : PF)
    (use_best_fit : Bool) (g : Val n)
    (h_beta : beta.Uniform) (h_gamma_beta : gamma_beta.Uniform) (h_cot_alpha : cot_alpha.Uniform) :
    Rel False (Arr.OvertoppingEurOtop2018.calculate_crest_freeboard_Rc_rubble_mound Hm0 Tmm10 q beta gamma_beta (.num gamma_f) B_berm db
        cot_alpha Val.nan Val.nan c2 c3 use_best_fit g)
      (fun i => OvertoppingEurOtop2018.calculate_crest_freeboard_Rc_rubble_mound (Hm0.get i) (Tmm10.get i) (q.get i) (beta.get i)
        (gamma_beta.get i) gamma_f (B_berm.get i) (db.get i) (cot_alpha.get i) PF.nan PF.nan c2 c3
        use_best_fit (g.get i)) := by
  unfold Arr.OvertoppingEurOtop2018.calculate_crest_freeboard_Rc_rubble_mound OvertoppingEurOtop2018.calculate_crest_freeboard_Rc_rubble_mound
  refine Rel.bind (OvertoppingEurOtop2018_calculate_dimensionless_crest_freeboard_rubble_mound Hm0 Tmm10 q beta gamma_beta gamma_f B_berm db cot_alpha c2 c3 use_best_fit g
    h_beta h_gamma_beta h_cot_alpha) fun v => ?_
  exact Rel.pure fun i => by arr_eq

end ArrProof
end
