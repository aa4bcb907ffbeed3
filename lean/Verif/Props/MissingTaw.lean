import Verif.Model.Overtopping
import Verif.Lemmas.MissingCore

/-! # C91: missing values are not turned into numbers — run-up and overtopping of TAW (2002) and EurOtop -/

open Classical
open PF Missing
set_option maxRecDepth 4000
noncomputable section

/-! ## Run-up -/

private theorem ksi_H (T c : PF) : CorePhysics.calculate_Iribarren_number_ksi nan T c = nan := by
  nan_simp [CorePhysics.calculate_Iribarren_number_ksi, CorePhysics.calculate_wave_steepness_s]
private theorem ksi_T (H c : PF) : CorePhysics.calculate_Iribarren_number_ksi H nan c = nan := by
  nan_simp [CorePhysics.calculate_Iribarren_number_ksi, CorePhysics.calculate_wave_steepness_s]
private theorem ksi_c (H T : PF) : CorePhysics.calculate_Iribarren_number_ksi H T nan = nan := by
  nan_simp [CorePhysics.calculate_Iribarren_number_ksi, CorePhysics.calculate_wave_steepness_s]
private theorem adj_f (b k : PF) : RunupTaw2002.calculate_adjusted_influence_roughness_gamma_f nan b k = nan := by
  nan_simp [RunupTaw2002.calculate_adjusted_influence_roughness_gamma_f]
private theorem berm_B (H z d L : PF) : RunupTaw2002.calculate_influence_berm_gamma_b H z d nan L = nan := by
  nan_simp [RunupTaw2002.calculate_influence_berm_gamma_b]
private theorem slope_B (H z c1 c2 d : PF) : RunupTaw2002.determine_average_slope H z c1 c2 nan d = nan := by
  nan_simp [RunupTaw2002.determine_average_slope]
private theorem slope_d (H z c1 c2 B : PF) : RunupTaw2002.determine_average_slope H z c1 c2 B nan = nan := by
  nan_simp [RunupTaw2002.determine_average_slope]

private theorem diml_nan (rec : RunupTaw2002.Args → PyM (PF × Bool)) (a : RunupTaw2002.Args)
    (h : nan ∈ [a.Hm0, a.Tmm10, a.gamma_f] ∨ (a.use_best_fit = false ∧ nan ∈ [a.c1, a.c2, a.c3, a.c4])) :
    NoNumber (RunupTaw2002.diml_rec rec a) := by
  obtain ⟨Hm0, Tmm10, beta, gamma_beta, gamma_b, gamma_f, B, db, ca, cd, cu, c1, c2, c3, c4, best⟩ := a
  unfold RunupTaw2002.diml_rec
  dsimp only at h ⊢
  refine .bind fun _ => .bind fun ca => .bind fun gb => .bind fun _ => ?_
  simp only [List.mem_cons, List.not_mem_nil, or_false] at h
  rcases h with (rfl | rfl | rfl) | ⟨rfl, rfl | rfl | rfl | rfl⟩
  all_goals
    nan_simp [ksi_H, ksi_T, adj_f, Bool.false_eq_true]
    exact .nan2 _

theorem C91_RunupTaw2002_calculate_dimensionless_wave_runup_height_z2p (a : RunupTaw2002.Args)
    (missing : nan ∈ [a.Hm0, a.Tmm10, a.gamma_f] ∨ (a.use_best_fit = false ∧ nan ∈ [a.c1, a.c2, a.c3, a.c4])) :
    NoNumber (RunupTaw2002.calculate_dimensionless_wave_runup_height_z2p a) := diml_nan _ a missing

example := C91_RunupTaw2002_calculate_dimensionless_wave_runup_height_z2p
  { Hm0 := .fin 2, Tmm10 := nan, gamma_beta := .fin 1, cot_alpha := .fin 3 } (.inl (by simp))

theorem C91_RunupTaw2002_calculate_wave_runup_height_z2p (a : RunupTaw2002.Args)
    (missing : nan ∈ [a.Hm0, a.Tmm10, a.gamma_f] ∨ (a.use_best_fit = false ∧ nan ∈ [a.c1, a.c2, a.c3, a.c4])) :
    NoNumber (RunupTaw2002.calculate_wave_runup_height_z2p a) := by
  refine .bind_nan2 (diml_nan _ a missing) fun b => ?_
  rw [nan_mul]
  exact .nan2 _

example := C91_RunupTaw2002_calculate_wave_runup_height_z2p
  { Hm0 := .fin 2, Tmm10 := nan, gamma_beta := .fin 1, cot_alpha := .fin 3 } (.inl (by simp))

theorem C91_RunupEurOtop2018_calculate_dimensionless_wave_runup_height_z2p (Hm0 Tmm10 beta gamma_beta gamma_b gamma_f
    B_berm db cot_alpha cot_alpha_down cot_alpha_up c1 c2 c3 c4 : PF) (use_best_fit : Bool)
    (missing : nan ∈ [Hm0, Tmm10, gamma_f, beta] ∨ (use_best_fit = false ∧ nan ∈ [c1, c2, c3, c4])) :
    NoNumber (RunupEurOtop2018.calculate_dimensionless_wave_runup_height_z2p Hm0 Tmm10 beta gamma_beta gamma_b
      gamma_f B_berm db cot_alpha cot_alpha_down cot_alpha_up c1 c2 c3 c4 use_best_fit) := by
  unfold RunupEurOtop2018.calculate_dimensionless_wave_runup_height_z2p
  dsimp only
  simp only [List.mem_cons, List.not_mem_nil, or_false] at missing
  rcases missing with (rfl | rfl | rfl | rfl) | ⟨rfl, h⟩
  · exact diml_nan _ _ (.inl (by simp))
  · exact diml_nan _ _ (.inl (by simp))
  · exact diml_nan _ _ (.inl (by simp))
  · have : RunupEurOtop2018.calculate_influence_oblique_waves_gamma_beta nan gamma_f = nan := by
      nan_simp [RunupEurOtop2018.calculate_influence_oblique_waves_gamma_beta,
        RunupTaw2002.calculate_influence_oblique_waves_gamma_beta]
    rw [this]
    have h2 : RunupTaw2002.check_calculate_gamma_beta nan nan = PyM.raise .valueError := if_pos ⟨trivial, trivial⟩
    change NoNumber (RunupTaw2002.diml_rec _ _)
    unfold RunupTaw2002.diml_rec
    dsimp only
    rw [h2]
    exact .raise_bind _ _
  · refine diml_nan _ _ (.inr ⟨rfl, ?_⟩)
    simpa [RunupEurOtop2018.check_best_fit] using h

example := C91_RunupEurOtop2018_calculate_dimensionless_wave_runup_height_z2p (.fin 2) nan (.fin 10) nan nan (.fin 1)
  (.fin 0) (.fin 0) (.fin 3) nan nan (.fin 1.75) (.fin 4.3) (.fin 1.5) (.fin 1.07) false (.inl (by simp))

theorem C91_RunupEurOtop2018_calculate_wave_runup_height_z2p (Hm0 Tmm10 beta gamma_beta gamma_b gamma_f
    B_berm db cot_alpha cot_alpha_down cot_alpha_up c1 c2 c3 c4 : PF) (use_best_fit : Bool)
    (missing : nan ∈ [Hm0, Tmm10, gamma_f, beta] ∨ (use_best_fit = false ∧ nan ∈ [c1, c2, c3, c4])) :
    NoNumber (RunupEurOtop2018.calculate_wave_runup_height_z2p Hm0 Tmm10 beta gamma_beta gamma_b
      gamma_f B_berm db cot_alpha cot_alpha_down cot_alpha_up c1 c2 c3 c4 use_best_fit) := by
  refine .bind_nan2 (C91_RunupEurOtop2018_calculate_dimensionless_wave_runup_height_z2p Hm0 Tmm10 beta gamma_beta
    gamma_b gamma_f B_berm db cot_alpha cot_alpha_down cot_alpha_up c1 c2 c3 c4 use_best_fit missing) fun b => ?_
  rw [nan_mul]
  exact .nan2 _

example := C91_RunupEurOtop2018_calculate_wave_runup_height_z2p (.fin 2) nan (.fin 10) nan nan (.fin 1)
  (.fin 0) (.fin 0) (.fin 3) nan nan (.fin 1.75) (.fin 4.3) (.fin 1.5) (.fin 1.07) false (.inl (by simp))

/-! ## Overtopping, TAW (2002) -/

theorem C91_OvertoppingTaw2002_calculate_dimensionless_overtopping_discharge_q (Hm0 Tmm10 Rc cot_alpha cot_alpha_down
    cot_alpha_up beta B_berm db gamma_beta gamma_b gamma_f gamma_v sigma : PF) (use_best_fit : Bool)
    (missing : nan ∈ [Hm0, Tmm10, Rc, gamma_f, gamma_v, sigma]) :
    NoNumber (OvertoppingTaw2002.calculate_dimensionless_overtopping_discharge_q Hm0 Tmm10 Rc cot_alpha
      cot_alpha_down cot_alpha_up beta B_berm db gamma_beta gamma_b gamma_f gamma_v sigma use_best_fit) := by
  unfold OvertoppingTaw2002.calculate_dimensionless_overtopping_discharge_q
  simp only [List.mem_cons, List.not_mem_nil, or_false] at missing
  dsimp only
  rcases missing with rfl | rfl | rfl | rfl | rfl | rfl
  case inr.inr.inr.inr.inr =>
    simp only [OvertoppingTaw2002.sigma_correction, nan_eqF, if_false]
    cases use_best_fit
    · simp only [Bool.false_eq_true, if_false, bind_assoc, pure_bind]
      refine .bind fun _ => .bind fun _ => .bind fun _ => .bind fun _ => .bind fun _ => ?_
      exact .raise_bind _ _
    · simp only [if_true, pure_bind, OvertoppingTaw2002.read_correction]
      refine .bind fun _ => .bind fun _ => .bind fun _ => .bind fun _ => .bind fun _ => ?_
      nan_simp []
      exact .nan2 _
  all_goals
    refine .bind fun _ => .bind fun _ => .bind fun _ => .bind fun _ => .bind fun _ => .bind fun _ => .bind fun _ => ?_
    nan_simp [ksi_H, ksi_T, adj_f, OvertoppingTaw2002.q_diml_max_equation]
    exact .nan2 _

example := C91_OvertoppingTaw2002_calculate_dimensionless_overtopping_discharge_q (.fin 2) (.fin 7) nan (.fin 3) nan
  nan nan (.fin 0) (.fin 0) (.fin 1) nan (.fin 1) (.fin 1) (.fin 0) false (by simp)

theorem C91_OvertoppingTaw2002_calculate_overtopping_discharge_q (Hm0 Tmm10 Rc cot_alpha cot_alpha_down
    cot_alpha_up beta B_berm db gamma_beta gamma_b gamma_f gamma_v sigma g : PF) (use_best_fit : Bool) (missing
    : nan ∈ [Hm0, Tmm10, Rc, gamma_f, gamma_v, sigma, g]) : NoNumber
    (OvertoppingTaw2002.calculate_overtopping_discharge_q Hm0 Tmm10 Rc cot_alpha cot_alpha_down cot_alpha_up
    beta B_berm db gamma_beta gamma_b gamma_f gamma_v sigma g use_best_fit) := by
  by_cases h : nan ∈ [Hm0, Tmm10, Rc, gamma_f, gamma_v, sigma]
  · refine .bind_nan2 (C91_OvertoppingTaw2002_calculate_dimensionless_overtopping_discharge_q Hm0 Tmm10 Rc cot_alpha
      cot_alpha_down cot_alpha_up beta B_berm db gamma_beta gamma_b gamma_f gamma_v sigma use_best_fit h) fun _ => ?_
    rw [nan_mul]
    exact .nan2 _
  · simp only [List.mem_cons, List.not_mem_nil, or_false] at missing h
    obtain rfl : nan = g := by tauto
    refine .bind fun _ => ?_
    nan_simp []
    exact .nan2 _

example := C91_OvertoppingTaw2002_calculate_overtopping_discharge_q (.fin 2) (.fin 7) nan (.fin 3) nan nan nan
  (.fin 0) (.fin 0) (.fin 1) nan (.fin 1) (.fin 1) (.fin 0) (.fin 9.81) false (by simp)

theorem C91_OvertoppingTaw2002_calculate_dimensionless_crest_freeboard (Hm0 Tmm10 q cot_alpha cot_alpha_down
    cot_alpha_up beta B_berm db gamma_beta gamma_b gamma_f gamma_v sigma g : PF) (use_best_fit : Bool) (missing
    : nan ∈ [Hm0, Tmm10, q, gamma_f, gamma_v, sigma, g]) : NoNumber
    (OvertoppingTaw2002.calculate_dimensionless_crest_freeboard Hm0 Tmm10 q cot_alpha cot_alpha_down
    cot_alpha_up beta B_berm db gamma_beta gamma_b gamma_f gamma_v sigma g use_best_fit) := by
  unfold OvertoppingTaw2002.calculate_dimensionless_crest_freeboard
  simp only [List.mem_cons, List.not_mem_nil, or_false] at missing
  dsimp only
  rcases missing with rfl | rfl | rfl | rfl | rfl | rfl | rfl
  case inr.inr.inr.inr.inr.inl =>
    simp only [OvertoppingTaw2002.sigma_correction, nan_eqF, if_false]
    cases use_best_fit
    · simp only [Bool.false_eq_true, if_false, bind_assoc, pure_bind]
      refine .bind fun _ => .bind fun _ => .bind fun _ => .bind fun _ => .bind fun _ => ?_
      exact .raise_bind _ _
    · simp only [if_true, pure_bind, OvertoppingTaw2002.read_correction]
      refine .bind fun _ => .bind fun _ => .bind fun _ => .bind fun _ => .bind fun _ => ?_
      nan_simp []
      exact .nan2 _
  all_goals
    refine .bind fun _ => .bind fun _ => .bind fun _ => .bind fun _ => .bind fun _ => .bind fun _ => .bind fun _ => ?_
    nan_simp [ksi_H, ksi_T, adj_f, OvertoppingTaw2002.Rc_diml_max_equation]
    exact .nan2 _

example := C91_OvertoppingTaw2002_calculate_dimensionless_crest_freeboard (.fin 2) (.fin 7) nan (.fin 3) nan nan
  nan (.fin 0) (.fin 0) (.fin 1) nan (.fin 1) (.fin 1) (.fin 0) (.fin 9.81) false (by simp)

theorem C91_OvertoppingTaw2002_calculate_crest_freeboard_Rc (Hm0 Tmm10 q cot_alpha cot_alpha_down cot_alpha_up
    beta B_berm db gamma_beta gamma_b gamma_f gamma_v sigma g : PF) (use_best_fit : Bool) (missing : nan ∈ [Hm0,
    Tmm10, q, gamma_f, gamma_v, sigma, g]) : NoNumber (OvertoppingTaw2002.calculate_crest_freeboard_Rc Hm0 Tmm10
    q cot_alpha cot_alpha_down cot_alpha_up beta B_berm db gamma_beta gamma_b gamma_f gamma_v sigma g
    use_best_fit) := by
  refine .bind_nan2 (C91_OvertoppingTaw2002_calculate_dimensionless_crest_freeboard Hm0 Tmm10 q cot_alpha
    cot_alpha_down cot_alpha_up beta B_berm db gamma_beta gamma_b gamma_f gamma_v sigma g use_best_fit missing)
    fun _ => ?_
  rw [nan_mul]
  exact .nan2 _

example := C91_OvertoppingTaw2002_calculate_crest_freeboard_Rc (.fin 2) (.fin 7) nan (.fin 3) nan nan nan (.fin
  0) (.fin 0) (.fin 1) nan (.fin 1) (.fin 1) (.fin 0) (.fin 9.81) false (by simp)

private theorem berm_length_B (H c cd cu : PF) : NoNumber (RunupTaw2002.calculate_berm_length H nan c cd cu) := by
  unfold RunupTaw2002.calculate_berm_length
  refine .bind fun _ => ?_
  nan_simp []
  exact .nan

private theorem berm_factor_B (Hm0 Tmm10 ca L db gb c1 c2 c3 c4 : PF) (best : Bool) (gf : PF) (hL : L = nan) :
    NoNumber (RunupTaw2002.iteration_procedure_gamma_b Hm0 Tmm10 ca nan L db gb c1 c2 c3 c4 best gf) := by
  subst hL
  unfold RunupTaw2002.iteration_procedure_gamma_b RunupTaw2002.iteration_procedure_gamma_b_rec
  nan_simp [berm_B]
  exact .bind fun _ => .bind fun _ => .nan

private theorem composite {ca cd cu : PF} (h1 : cd ≠ nan) (h2 : cu ≠ nan) :
    RunupTaw2002.check_composite_slope ca cd cu = pure true := by
  have h1' : ¬ cd.isnan := fun h => h1 (by cases cd <;> first | rfl | cases h)
  have h2' : ¬ cu.isnan := fun h => h2 (by cases cu <;> first | rfl | cases h)
  unfold RunupTaw2002.check_composite_slope
  rw [if_neg (fun h => h1' h.2), if_pos ⟨h1', h2'⟩]

/-- A missing berm width gives no number unless it is not needed: unless the berm factor is given and the slope is
one straight slope. -/
theorem C91_OvertoppingTaw2002_berm_width (Hm0 Tmm10 Rc cot_alpha cot_alpha_down cot_alpha_up beta db gamma_beta
    gamma_b gamma_f gamma_v sigma : PF) (use_best_fit : Bool)
    (needed : gamma_b = nan ∨ (cot_alpha_down ≠ nan ∧ cot_alpha_up ≠ nan)) :
    NoNumber (OvertoppingTaw2002.calculate_dimensionless_overtopping_discharge_q Hm0 Tmm10 Rc cot_alpha
      cot_alpha_down cot_alpha_up beta nan db gamma_beta gamma_b gamma_f gamma_v sigma use_best_fit) := by
  unfold OvertoppingTaw2002.calculate_dimensionless_overtopping_discharge_q
  dsimp only
  rcases needed with rfl | ⟨h1, h2⟩
  · refine .bind fun _ => .bind fun _ => .bind fun _ => .bind fun ca => .bind_nan ?_ (.bind fun _ => .bind fun _ => ?_)
    · rw [if_pos (show nan.isnan from trivial)]
      exact .bind_nan (berm_length_B _ _ _ _) (berm_factor_B _ _ _ _ _ _ _ _ _ _ _ _ rfl)
    · nan_simp []
      exact .nan2 _
  · rw [composite h1 h2]
    refine .bind fun _ => .bind fun _ => ?_
    rw [pure_bind, if_pos rfl]
    refine .bind_nan ?_ (.bind fun _ => .bind fun _ => .bind fun _ => ?_)
    · refine .bind fun _ => ?_
      rw [slope_B]
      exact .nan
    · nan_simp [ksi_c]
      exact .nan2 _

example := C91_OvertoppingTaw2002_berm_width (.fin 2) (.fin 7) (.fin 3) (.fin 3) nan nan nan (.fin 0) (.fin 1) nan
  (.fin 1) (.fin 1) (.fin 0) false (.inl rfl)
example := C91_OvertoppingTaw2002_berm_width (.fin 2) (.fin 7) (.fin 3) nan (.fin 3) (.fin 4) nan (.fin 0) (.fin 1)
  (.fin 0.8) (.fin 1) (.fin 1) (.fin 0) false (.inr ⟨by nofun, by nofun⟩)

/-- A missing berm level gives no number on two slopes. -/
theorem C91_OvertoppingTaw2002_berm_level (Hm0 Tmm10 Rc cot_alpha cot_alpha_down cot_alpha_up beta B_berm gamma_beta
    gamma_b gamma_f gamma_v sigma : PF) (use_best_fit : Bool) (h1 : cot_alpha_down ≠ nan) (h2 : cot_alpha_up ≠ nan) :
    NoNumber (OvertoppingTaw2002.calculate_dimensionless_overtopping_discharge_q Hm0 Tmm10 Rc cot_alpha
      cot_alpha_down cot_alpha_up beta B_berm nan gamma_beta gamma_b gamma_f gamma_v sigma use_best_fit) := by
  unfold OvertoppingTaw2002.calculate_dimensionless_overtopping_discharge_q
  dsimp only
  rw [composite h1 h2]
  refine .bind fun _ => .bind fun _ => ?_
  rw [pure_bind, if_pos rfl]
  refine .bind_nan ?_ (.bind fun _ => .bind fun _ => .bind fun _ => ?_)
  · refine .bind fun _ => ?_
    rw [slope_d]
    exact .nan
  · nan_simp [ksi_c]
    exact .nan2 _

example := C91_OvertoppingTaw2002_berm_level (.fin 2) (.fin 7) (.fin 3) nan (.fin 3) (.fin 4) nan (.fin 5) (.fin 1)
  nan (.fin 1) (.fin 1) (.fin 0) false (by nofun) (by nofun)

/-! ## Overtopping of rubble mounds, EurOtop (2007) -/

theorem C91_OvertoppingEurOtop2007_calculate_dimensionless_overtopping_discharge_q_rubble_mound (Hm0 Tmm10 Rc
    beta gamma_beta gamma_f cot_alpha c2 c3 : PF) (use_best_fit : Bool) (missing : nan ∈ [Hm0, Rc, gamma_f] ∨
    (use_best_fit = false ∧ nan ∈ [c2, c3])) : NoNumber
    (OvertoppingEurOtop2007.calculate_dimensionless_overtopping_discharge_q_rubble_mound Hm0 Tmm10 Rc beta
    gamma_beta gamma_f cot_alpha c2 c3 use_best_fit) := by
  unfold OvertoppingEurOtop2007.calculate_dimensionless_overtopping_discharge_q_rubble_mound
  simp only [List.mem_cons, List.not_mem_nil, or_false] at missing
  dsimp only
  refine .bind fun _ => ?_
  rcases missing with (rfl | rfl | rfl) | ⟨rfl, rfl | rfl⟩
  all_goals
    nan_simp [adj_f, OvertoppingTaw2002.q_diml_max_equation, OvertoppingEurOtop2007.check_best_fit,
      Bool.false_eq_true]
    exact .nan

example := C91_OvertoppingEurOtop2007_calculate_dimensionless_overtopping_discharge_q_rubble_mound (.fin 2)
  (.fin 7) nan nan (.fin 1) (.fin 1) (.fin 3) (.fin 0.1) (.fin 1.35) false (.inl (by simp))

theorem C91_OvertoppingEurOtop2007_calculate_overtopping_discharge_q_rubble_mound (Hm0 Tmm10 Rc beta gamma_beta
    gamma_f cot_alpha c2 c3 : PF) (use_best_fit : Bool) (g : PF) (missing : nan ∈ [Hm0, Rc, gamma_f, g] ∨
    (use_best_fit = false ∧ nan ∈ [c2, c3])) : NoNumber
    (OvertoppingEurOtop2007.calculate_overtopping_discharge_q_rubble_mound Hm0 Tmm10 Rc beta gamma_beta gamma_f
    cot_alpha c2 c3 use_best_fit g) := by
  by_cases h : nan ∈ [Hm0, Rc, gamma_f] ∨ (use_best_fit = false ∧ nan ∈ [c2, c3])
  · refine .bind_nan (C91_OvertoppingEurOtop2007_calculate_dimensionless_overtopping_discharge_q_rubble_mound Hm0
      Tmm10 Rc beta gamma_beta gamma_f cot_alpha c2 c3 use_best_fit h) ?_
    rw [nan_mul]
    exact .nan
  · simp only [List.mem_cons, List.not_mem_nil, or_false] at missing h
    obtain rfl : nan = g := by tauto
    refine .bind fun _ => ?_
    nan_simp []
    exact .nan

example := C91_OvertoppingEurOtop2007_calculate_overtopping_discharge_q_rubble_mound (.fin 2) (.fin 7) nan nan
  (.fin 1) (.fin 1) (.fin 3) (.fin 0.1) (.fin 1.35) false (.fin 9.81) (.inl (by simp))

theorem C91_OvertoppingEurOtop2007_calculate_dimensionless_crest_freeboard_rubble_mound (Hm0 Tmm10 q beta
    gamma_beta gamma_f cot_alpha c2 c3 : PF) (use_best_fit : Bool) (missing : nan ∈ [Hm0, q, gamma_f] ∨
    (use_best_fit = false ∧ nan ∈ [c2, c3])) : NoNumber
    (OvertoppingEurOtop2007.calculate_dimensionless_crest_freeboard_rubble_mound Hm0 Tmm10 q beta gamma_beta
    gamma_f cot_alpha c2 c3 use_best_fit) := by
  unfold OvertoppingEurOtop2007.calculate_dimensionless_crest_freeboard_rubble_mound
  simp only [List.mem_cons, List.not_mem_nil, or_false] at missing
  dsimp only
  refine .bind fun _ => ?_
  rcases missing with (rfl | rfl | rfl) | ⟨rfl, rfl | rfl⟩
  all_goals
    nan_simp [adj_f, OvertoppingTaw2002.Rc_diml_max_equation, OvertoppingEurOtop2007.check_best_fit,
      Bool.false_eq_true]
    exact .nan

example := C91_OvertoppingEurOtop2007_calculate_dimensionless_crest_freeboard_rubble_mound (.fin 2) (.fin 7) nan
  nan (.fin 1) (.fin 1) (.fin 3) (.fin 0.1) (.fin 1.35) false (.inl (by simp))

theorem C91_OvertoppingEurOtop2007_calculate_crest_freeboard_Rc_rubble_mound (Hm0 Tmm10 q beta gamma_beta
    gamma_f cot_alpha c2 c3 : PF) (use_best_fit : Bool) (missing : nan ∈ [Hm0, q, gamma_f] ∨ (use_best_fit =
    false ∧ nan ∈ [c2, c3])) : NoNumber (OvertoppingEurOtop2007.calculate_crest_freeboard_Rc_rubble_mound Hm0
    Tmm10 q beta gamma_beta gamma_f cot_alpha c2 c3 use_best_fit) := by
  refine .bind_nan (C91_OvertoppingEurOtop2007_calculate_dimensionless_crest_freeboard_rubble_mound Hm0 Tmm10 q beta
    gamma_beta gamma_f cot_alpha c2 c3 use_best_fit missing) ?_
  rw [nan_mul]
  exact .nan

example := C91_OvertoppingEurOtop2007_calculate_crest_freeboard_Rc_rubble_mound (.fin 2) (.fin 7) nan nan (.fin
  1) (.fin 1) (.fin 3) (.fin 0.1) (.fin 1.35) false (.inl (by simp))

/-- The rubble mound formula of EurOtop (2007) takes a missing wave period, or a missing slope, for waves that need no
adjustment of the roughness: a missing value becomes a number. -/
theorem C91_OvertoppingEurOtop2007_period_swallowed (Hm0 Tmm10 Rc gamma_beta gamma_f cot_alpha c2 c3 : PF)
    (hb : gamma_beta ≠ nan) (missing : nan ∈ [Tmm10, cot_alpha]) :
    (OvertoppingEurOtop2007.calculate_dimensionless_overtopping_discharge_q_rubble_mound Hm0 Tmm10 Rc nan gamma_beta
      gamma_f cot_alpha c2 c3 false).res =
      .ok (c2 * PF.exp (-1.0 * (c3 + 0.0) * (Rc / Hm0) * (1.0 / (gamma_f * gamma_beta)))) := by
  unfold OvertoppingEurOtop2007.calculate_dimensionless_overtopping_discharge_q_rubble_mound
  have h1 : RunupTaw2002.check_calculate_gamma_beta nan gamma_beta = pure false := by
    have : ¬ gamma_beta.isnan := fun h => hb (by cases gamma_beta <;> first | rfl | cases h)
    unfold RunupTaw2002.check_calculate_gamma_beta
    rw [if_neg (fun h => this h.2), if_neg this]
  have h2 : CorePhysics.calculate_Iribarren_number_ksi Hm0 Tmm10 cot_alpha = nan := by
    simp only [List.mem_cons, List.not_mem_nil, or_false] at missing
    rcases missing with rfl | rfl
    · exact ksi_T ..
    · exact ksi_c ..
  dsimp only
  rw [h1, pure_bind, h2]
  nan_simp [RunupTaw2002.calculate_adjusted_influence_roughness_gamma_f, OvertoppingTaw2002.q_diml_max_equation,
    OvertoppingEurOtop2007.check_best_fit, Bool.false_eq_true]
  rfl

example := C91_OvertoppingEurOtop2007_period_swallowed (.fin 2) nan (.fin 3) (.fin 1) (.fin 0.5) (.fin 2) (.fin 0.2)
  (.fin 2.3) (by nofun) (by simp)

/-! ## Overtopping, EurOtop (2018) -/

theorem C91_OvertoppingEurOtop2018_calculate_dimensionless_overtopping_discharge_q (Hm0 Tmm10 Rc beta gamma_beta
    gamma_b gamma_f gamma_v gamma_star B_berm db cot_alpha cot_alpha_down cot_alpha_up c1 c2 c3 c4 : PF)
    (use_best_fit : Bool) (missing : nan ∈ [Hm0, Tmm10, Rc, gamma_f, gamma_v, gamma_star] ∨ (use_best_fit =
    false ∧ nan ∈ [c1, c2, c3, c4])) : NoNumber
    (OvertoppingEurOtop2018.calculate_dimensionless_overtopping_discharge_q Hm0 Tmm10 Rc beta gamma_beta gamma_b
    gamma_f gamma_v gamma_star B_berm db cot_alpha cot_alpha_down cot_alpha_up c1 c2 c3 c4 use_best_fit) := by
  unfold OvertoppingEurOtop2018.calculate_dimensionless_overtopping_discharge_q
  simp only [List.mem_cons, List.not_mem_nil, or_false] at missing
  dsimp only
  refine .bind fun _ => .bind fun _ => .bind fun _ => .bind fun _ => .bind fun _ => ?_
  rcases missing with (rfl | rfl | rfl | rfl | rfl | rfl) | ⟨rfl, rfl | rfl | rfl | rfl⟩
  all_goals
    nan_simp [ksi_H, ksi_T, adj_f, OvertoppingEurOtop2018.q_diml_max_equation,
      OvertoppingEurOtop2018.check_best_fit, Bool.false_eq_true]
    exact .nan2 _

example := C91_OvertoppingEurOtop2018_calculate_dimensionless_overtopping_discharge_q (.fin 2) (.fin 7) nan nan
  (.fin 1) nan (.fin 1) (.fin 1) (.fin 1) (.fin 0) (.fin 0) (.fin 3) nan nan (.fin 2.5) (.fin 0.1) (.fin 1.35)
  (.fin 0.026) false (.inl (by simp))

theorem C91_OvertoppingEurOtop2018_calculate_overtopping_discharge_q (Hm0 Tmm10 Rc beta gamma_beta gamma_b
    gamma_f gamma_v gamma_star B_berm db cot_alpha cot_alpha_down cot_alpha_up c1 c2 c3 c4 : PF) (use_best_fit :
    Bool) (g : PF) (missing : nan ∈ [Hm0, Tmm10, Rc, gamma_f, gamma_v, gamma_star, g] ∨ (use_best_fit = false ∧
    nan ∈ [c1, c2, c3, c4])) : NoNumber (OvertoppingEurOtop2018.calculate_overtopping_discharge_q Hm0 Tmm10 Rc
    beta gamma_beta gamma_b gamma_f gamma_v gamma_star B_berm db cot_alpha cot_alpha_down cot_alpha_up c1 c2 c3
    c4 use_best_fit g) := by
  by_cases h : nan ∈ [Hm0, Tmm10, Rc, gamma_f, gamma_v, gamma_star] ∨ (use_best_fit = false ∧ nan ∈ [c1, c2, c3, c4])
  · refine .bind_nan2 (C91_OvertoppingEurOtop2018_calculate_dimensionless_overtopping_discharge_q Hm0 Tmm10 Rc beta
      gamma_beta gamma_b gamma_f gamma_v gamma_star B_berm db cot_alpha cot_alpha_down cot_alpha_up c1 c2 c3 c4
      use_best_fit h) fun _ => ?_
    rw [nan_mul]
    exact .nan2 _
  · simp only [List.mem_cons, List.not_mem_nil, or_false] at missing h
    obtain rfl : nan = g := by tauto
    refine .bind fun _ => ?_
    nan_simp []
    exact .nan2 _

example := C91_OvertoppingEurOtop2018_calculate_overtopping_discharge_q (.fin 2) (.fin 7) nan nan (.fin 1) nan
  (.fin 1) (.fin 1) (.fin 1) (.fin 0) (.fin 0) (.fin 3) nan nan (.fin 2.5) (.fin 0.1) (.fin 1.35) (.fin 0.026)
  false (.fin 9.81) (.inl (by simp))

theorem C91_OvertoppingEurOtop2018_calculate_dimensionless_crest_freeboard (Hm0 Tmm10 q beta gamma_beta gamma_b
    gamma_f gamma_v gamma_star B_berm db cot_alpha cot_alpha_down cot_alpha_up c1 c2 c3 c4 : PF) (use_best_fit :
    Bool) (g : PF) (missing : nan ∈ [Hm0, Tmm10, q, gamma_f, gamma_v, gamma_star, g] ∨ (use_best_fit = false ∧
    nan ∈ [c1, c2, c3, c4])) : NoNumber (OvertoppingEurOtop2018.calculate_dimensionless_crest_freeboard Hm0
    Tmm10 q beta gamma_beta gamma_b gamma_f gamma_v gamma_star B_berm db cot_alpha cot_alpha_down cot_alpha_up
    c1 c2 c3 c4 use_best_fit g) := by
  unfold OvertoppingEurOtop2018.calculate_dimensionless_crest_freeboard
  simp only [List.mem_cons, List.not_mem_nil, or_false] at missing
  dsimp only
  refine .bind fun _ => .bind fun _ => .bind fun _ => .bind fun _ => .bind fun _ => ?_
  rcases missing with (rfl | rfl | rfl | rfl | rfl | rfl | rfl) | ⟨rfl, rfl | rfl | rfl | rfl⟩
  all_goals
    nan_simp [ksi_H, ksi_T, adj_f, OvertoppingEurOtop2018.Rc_diml_max_equation,
      OvertoppingEurOtop2018.check_best_fit, Bool.false_eq_true]
    exact .nan2 _

example := C91_OvertoppingEurOtop2018_calculate_dimensionless_crest_freeboard (.fin 2) (.fin 7) nan nan (.fin 1)
  nan (.fin 1) (.fin 1) (.fin 1) (.fin 0) (.fin 0) (.fin 3) nan nan (.fin 2.5) (.fin 0.1) (.fin 1.35) (.fin
  0.026) false (.fin 9.81) (.inl (by simp))

theorem C91_OvertoppingEurOtop2018_calculate_crest_freeboard_Rc (Hm0 Tmm10 q beta gamma_beta gamma_b gamma_f
    gamma_v gamma_star B_berm db cot_alpha cot_alpha_down cot_alpha_up c1 c2 c3 c4 : PF) (use_best_fit : Bool)
    (g : PF) (missing : nan ∈ [Hm0, Tmm10, q, gamma_f, gamma_v, gamma_star, g] ∨ (use_best_fit = false ∧ nan ∈
    [c1, c2, c3, c4])) : NoNumber (OvertoppingEurOtop2018.calculate_crest_freeboard_Rc Hm0 Tmm10 q beta
    gamma_beta gamma_b gamma_f gamma_v gamma_star B_berm db cot_alpha cot_alpha_down cot_alpha_up c1 c2 c3 c4
    use_best_fit g) := by
  refine .bind_nan2 (C91_OvertoppingEurOtop2018_calculate_dimensionless_crest_freeboard Hm0 Tmm10 q beta gamma_beta
    gamma_b gamma_f gamma_v gamma_star B_berm db cot_alpha cot_alpha_down cot_alpha_up c1 c2 c3 c4 use_best_fit g
    missing) fun _ => ?_
  rw [nan_mul]
  exact .nan2 _

example := C91_OvertoppingEurOtop2018_calculate_crest_freeboard_Rc (.fin 2) (.fin 7) nan nan (.fin 1) nan (.fin
  1) (.fin 1) (.fin 1) (.fin 0) (.fin 0) (.fin 3) nan nan (.fin 2.5) (.fin 0.1) (.fin 1.35) (.fin 0.026) false
  (.fin 9.81) (.inl (by simp))

theorem C91_OvertoppingEurOtop2018_calculate_dimensionless_overtopping_discharge_q_rubble_mound (Hm0 Tmm10 Rc
    beta gamma_beta gamma_f B_berm db cot_alpha cot_alpha_down cot_alpha_up c2 c3 : PF) (use_best_fit : Bool)
    (missing : nan ∈ [Hm0, Rc, gamma_f] ∨ (use_best_fit = false ∧ nan ∈ [c2, c3])) : NoNumber
    (OvertoppingEurOtop2018.calculate_dimensionless_overtopping_discharge_q_rubble_mound Hm0 Tmm10 Rc beta
    gamma_beta gamma_f B_berm db cot_alpha cot_alpha_down cot_alpha_up c2 c3 use_best_fit) := by
  unfold OvertoppingEurOtop2018.calculate_dimensionless_overtopping_discharge_q_rubble_mound
  simp only [List.mem_cons, List.not_mem_nil, or_false] at missing
  dsimp only
  refine .bind fun _ => .bind fun _ => .bind fun _ => .bind fun _ => ?_
  rcases missing with (rfl | rfl | rfl) | ⟨rfl, rfl | rfl⟩
  all_goals
    nan_simp [adj_f, OvertoppingEurOtop2018.q_diml_max_equation,
      OvertoppingEurOtop2018.check_best_fit, Bool.false_eq_true]
    exact .nan

example := C91_OvertoppingEurOtop2018_calculate_dimensionless_overtopping_discharge_q_rubble_mound (.fin 2)
  (.fin 7) nan nan (.fin 1) (.fin 1) (.fin 0) (.fin 0) (.fin 3) nan nan (.fin 0.1) (.fin 1.35) false (.inl (by
  simp))

theorem C91_OvertoppingEurOtop2018_calculate_dimensionless_crest_freeboard_rubble_mound (Hm0 Tmm10 q beta
    gamma_beta gamma_f B_berm db cot_alpha cot_alpha_down cot_alpha_up c2 c3 : PF) (use_best_fit : Bool) (g :
    PF) (missing : nan ∈ [Hm0, q, gamma_f, g] ∨ (use_best_fit = false ∧ nan ∈ [c2, c3])) : NoNumber
    (OvertoppingEurOtop2018.calculate_dimensionless_crest_freeboard_rubble_mound Hm0 Tmm10 q beta gamma_beta
    gamma_f B_berm db cot_alpha cot_alpha_down cot_alpha_up c2 c3 use_best_fit g) := by
  unfold OvertoppingEurOtop2018.calculate_dimensionless_crest_freeboard_rubble_mound
  simp only [List.mem_cons, List.not_mem_nil, or_false] at missing
  dsimp only
  refine .bind fun _ => .bind fun _ => .bind fun _ => .bind fun _ => ?_
  rcases missing with (rfl | rfl | rfl | rfl) | ⟨rfl, rfl | rfl⟩
  all_goals
    nan_simp [adj_f, OvertoppingEurOtop2018.Rc_diml_max_equation,
      OvertoppingEurOtop2018.check_best_fit, Bool.false_eq_true]
    exact .nan

example := C91_OvertoppingEurOtop2018_calculate_dimensionless_crest_freeboard_rubble_mound (.fin 2) (.fin 7) nan
  nan (.fin 1) (.fin 1) (.fin 0) (.fin 0) (.fin 3) nan nan (.fin 0.1) (.fin 1.35) false (.fin 9.81) (.inl (by
  simp))

theorem C91_OvertoppingEurOtop2018_calculate_overtopping_discharge_q_rubble_mound (Hm0 Tmm10 Rc beta gamma_beta
    gamma_f B_berm db cot_alpha cot_alpha_down cot_alpha_up c2 c3 : PF) (use_best_fit : Bool) (g : PF) (missing
    : nan ∈ [Hm0, Rc, gamma_f, g] ∨ (use_best_fit = false ∧ nan ∈ [c2, c3])) : NoNumber
    (OvertoppingEurOtop2018.calculate_overtopping_discharge_q_rubble_mound Hm0 Tmm10 Rc beta gamma_beta gamma_f
    B_berm db cot_alpha cot_alpha_down cot_alpha_up c2 c3 use_best_fit g) := by
  by_cases h : nan ∈ [Hm0, Rc, gamma_f] ∨ (use_best_fit = false ∧ nan ∈ [c2, c3])
  · refine .bind_nan (C91_OvertoppingEurOtop2018_calculate_dimensionless_overtopping_discharge_q_rubble_mound Hm0
      Tmm10 Rc beta gamma_beta gamma_f B_berm db cot_alpha cot_alpha_down cot_alpha_up c2 c3 use_best_fit h) ?_
    rw [nan_mul]
    exact .nan
  · simp only [List.mem_cons, List.not_mem_nil, or_false] at missing h
    obtain rfl : nan = g := by tauto
    refine .bind fun _ => ?_
    nan_simp []
    exact .nan

example := C91_OvertoppingEurOtop2018_calculate_overtopping_discharge_q_rubble_mound (.fin 2) (.fin 7) nan nan
  (.fin 1) (.fin 1) (.fin 0) (.fin 0) (.fin 3) nan nan (.fin 0.1) (.fin 1.35) false (.fin 9.81) (.inl (by simp))

theorem C91_OvertoppingEurOtop2018_calculate_crest_freeboard_Rc_rubble_mound (Hm0 Tmm10 q beta gamma_beta
    gamma_f B_berm db cot_alpha cot_alpha_down cot_alpha_up c2 c3 : PF) (use_best_fit : Bool) (g : PF) (missing
    : nan ∈ [Hm0, q, gamma_f, g] ∨ (use_best_fit = false ∧ nan ∈ [c2, c3])) : NoNumber
    (OvertoppingEurOtop2018.calculate_crest_freeboard_Rc_rubble_mound Hm0 Tmm10 q beta gamma_beta gamma_f B_berm
    db cot_alpha cot_alpha_down cot_alpha_up c2 c3 use_best_fit g) := by
  refine .bind_nan (C91_OvertoppingEurOtop2018_calculate_dimensionless_crest_freeboard_rubble_mound Hm0 Tmm10 q beta
    gamma_beta gamma_f B_berm db cot_alpha cot_alpha_down cot_alpha_up c2 c3 use_best_fit g missing) ?_
  rw [nan_mul]
  exact .nan

example := C91_OvertoppingEurOtop2018_calculate_crest_freeboard_Rc_rubble_mound (.fin 2) (.fin 7) nan nan (.fin
  1) (.fin 1) (.fin 0) (.fin 0) (.fin 3) nan nan (.fin 0.1) (.fin 1.35) false (.fin 9.81) (.inl (by simp))

end
