import Verif.SpecScale
import Verif.Lemmas.Scale.Transmission
import Verif.Lemmas.Scale.Overtopping
import Verif.Lemmas.Scale.OvertoppingMore

/-! # C82: a scale model

Lengths times `lam`, times by its square root, gravity and densities as they are. Results without a
dimension are the same, and the others follow with their own dimension. Equality of the whole outcome:
the warnings and errors are the same too. -/

open Classical
open PF
open CorePhysics CoreUtility ScaleProof
noncomputable section

theorem C82_transmission_dangremond1996 {lam : ℝ} (hl : 0 < lam) :
    (∀ (Hsi Tpi h Rc B cot_alpha C1 : PF) (do_validity_check : Bool),
      DAngremond1996.calculate_wave_transmission_Kt_permeable (Scale.len lam Hsi) (Scale.time lam Tpi) (Scale.len lam h) (Scale.len lam Rc) (Scale.len lam B) cot_alpha C1 do_validity_check =
        DAngremond1996.calculate_wave_transmission_Kt_permeable Hsi Tpi h Rc B cot_alpha C1 do_validity_check) ∧
    (∀ (Hsi Tpi h Rc B cot_alpha C1 : PF),
      DAngremond1996.calculate_wave_transmission_Kt_impermeable (Scale.len lam Hsi) (Scale.time lam Tpi) (Scale.len lam h) (Scale.len lam Rc) (Scale.len lam B) cot_alpha C1 =
        DAngremond1996.calculate_wave_transmission_Kt_impermeable Hsi Tpi h Rc B cot_alpha C1) := by
  simp only [len_eq hl, time_eq hl, vel_eq hl, area_eq hl, disch_eq hl, vol_eq hl]
  exact ⟨DAngremond1996_calculate_wave_transmission_Kt_permeable, DAngremond1996_calculate_wave_transmission_Kt_impermeable⟩

theorem C82_transmission_briganti2003 {lam : ℝ} (hl : 0 < lam) :
    (∀ (Hsi Tpi Rc B cot_alpha : PF),
      Briganti2003.calculate_wave_transmission_Kt (Scale.len lam Hsi) (Scale.time lam Tpi) (Scale.len lam Rc) (Scale.len lam B) cot_alpha =
        Briganti2003.calculate_wave_transmission_Kt Hsi Tpi Rc B cot_alpha) := by
  simp only [len_eq hl, time_eq hl, vel_eq hl, area_eq hl, disch_eq hl, vol_eq hl]
  exact Briganti2003_calculate_wave_transmission_Kt

theorem C82_transmission_goda1967 {lam : ℝ} (hl : 0 < lam) :
    (∀ (Hsi Rc alpha_1 beta_1 : PF),
      Goda1967.calculate_wave_transmission_Kt (Scale.len lam Hsi) (Scale.len lam Rc) alpha_1 beta_1 =
        Goda1967.calculate_wave_transmission_Kt Hsi Rc alpha_1 beta_1) := by
  simp only [len_eq hl, time_eq hl, vel_eq hl, area_eq hl, disch_eq hl, vol_eq hl]
  exact Goda1967_calculate_wave_transmission_Kt

theorem C82_transmission_vangent2023 {lam : ℝ} (hl : 0 < lam) {disper : PF → PF → PF → PF}
    (hd : Scale.DeepDispersion disper) :
    (∀ (Hm0 Tmm10 Rc B : PF) (structure_type : String),
      VanGent2023.calculate_wave_transmission_Kt disper (Scale.len lam Hm0) (Scale.time lam Tmm10) (Scale.len lam Rc) (Scale.len lam B) structure_type =
        VanGent2023.calculate_wave_transmission_Kt disper Hm0 Tmm10 Rc B structure_type) := by
  simp only [len_eq hl, time_eq hl, vel_eq hl, area_eq hl, disch_eq hl, vol_eq hl]
  exact VanGent2023_calculate_wave_transmission_Kt (hdd hl hd)

theorem C82_setup_vangent2024 {lam : ℝ} (hl : 0 < lam) :
    (∀ (Hm0 Tmm10 Rc : PF),
      VanGent2024.calculate_dimensionless_structure_induced_setup_impermeable (Scale.len lam Hm0) (Scale.time lam Tmm10) (Scale.len lam Rc) =
        VanGent2024.calculate_dimensionless_structure_induced_setup_impermeable Hm0 Tmm10 Rc) ∧
    (∀ (Hm0 Tmm10 Rc : PF),
      VanGent2024.calculate_structure_induced_setup_delta_impermeable (Scale.len lam Hm0) (Scale.time lam Tmm10) (Scale.len lam Rc) =
        Scale.len lam <$> VanGent2024.calculate_structure_induced_setup_delta_impermeable Hm0 Tmm10 Rc) ∧
    (∀ (Hm0 Tmm10 Rc hc : PF),
      VanGent2024.calculate_dimensionless_structure_induced_setup_permeable (Scale.len lam Hm0) (Scale.time lam Tmm10) (Scale.len lam Rc) (Scale.len lam hc) =
        VanGent2024.calculate_dimensionless_structure_induced_setup_permeable Hm0 Tmm10 Rc hc) ∧
    (∀ (Hm0 Tmm10 Rc hc : PF),
      VanGent2024.calculate_structure_induced_setup_delta_permeable (Scale.len lam Hm0) (Scale.time lam Tmm10) (Scale.len lam Rc) (Scale.len lam hc) =
        Scale.len lam <$> VanGent2024.calculate_structure_induced_setup_delta_permeable Hm0 Tmm10 Rc hc) := by
  simp only [len_eq hl, time_eq hl, vel_eq hl, area_eq hl, disch_eq hl, vol_eq hl]
  exact ⟨VanGent2024_calculate_dimensionless_structure_induced_setup_impermeable, VanGent2024_calculate_structure_induced_setup_delta_impermeable, VanGent2024_calculate_dimensionless_structure_induced_setup_permeable, VanGent2024_calculate_structure_induced_setup_delta_permeable⟩

theorem C82_overtopping_taw2002_partial {lam : ℝ} (hl : 0 < lam) :
    (∀ (Hm0 Tmm10 Rc cot_alpha cot_alpha_down cot_alpha_up beta B_berm db gamma_beta gamma_b gamma_f gamma_v sigma : PF) (use_best_fit : Bool) (hu : cot_alpha_down.isnan ∨ cot_alpha_up.isnan),
      OvertoppingTaw2002.calculate_dimensionless_overtopping_discharge_q (Scale.len lam Hm0) (Scale.time lam Tmm10) (Scale.len lam Rc) cot_alpha cot_alpha_down cot_alpha_up beta (Scale.len lam B_berm) (Scale.len lam db) gamma_beta gamma_b gamma_f gamma_v sigma use_best_fit =
        OvertoppingTaw2002.calculate_dimensionless_overtopping_discharge_q Hm0 Tmm10 Rc cot_alpha cot_alpha_down cot_alpha_up beta B_berm db gamma_beta gamma_b gamma_f gamma_v sigma use_best_fit) ∧
    (∀ (Hm0 Tmm10 Rc cot_alpha cot_alpha_down cot_alpha_up beta B_berm db gamma_beta gamma_b gamma_f gamma_v sigma g : PF) (use_best_fit : Bool) (hu : cot_alpha_down.isnan ∨ cot_alpha_up.isnan),
      OvertoppingTaw2002.calculate_overtopping_discharge_q (Scale.len lam Hm0) (Scale.time lam Tmm10) (Scale.len lam Rc) cot_alpha cot_alpha_down cot_alpha_up beta (Scale.len lam B_berm) (Scale.len lam db) gamma_beta gamma_b gamma_f gamma_v sigma g use_best_fit =
        (fun r => (Scale.disch lam r.1, r.2)) <$> OvertoppingTaw2002.calculate_overtopping_discharge_q Hm0 Tmm10 Rc cot_alpha cot_alpha_down cot_alpha_up beta B_berm db gamma_beta gamma_b gamma_f gamma_v sigma g use_best_fit) ∧
    (∀ (Hm0 Tmm10 q cot_alpha cot_alpha_down cot_alpha_up beta B_berm db gamma_beta gamma_b gamma_f gamma_v sigma g : PF) (use_best_fit : Bool) (hu : cot_alpha_down.isnan ∨ cot_alpha_up.isnan),
      OvertoppingTaw2002.calculate_dimensionless_crest_freeboard (Scale.len lam Hm0) (Scale.time lam Tmm10) (Scale.disch lam q) cot_alpha cot_alpha_down cot_alpha_up beta (Scale.len lam B_berm) (Scale.len lam db) gamma_beta gamma_b gamma_f gamma_v sigma g use_best_fit =
        OvertoppingTaw2002.calculate_dimensionless_crest_freeboard Hm0 Tmm10 q cot_alpha cot_alpha_down cot_alpha_up beta B_berm db gamma_beta gamma_b gamma_f gamma_v sigma g use_best_fit) ∧
    (∀ (Hm0 Tmm10 q cot_alpha cot_alpha_down cot_alpha_up beta B_berm db gamma_beta gamma_b gamma_f gamma_v sigma g : PF) (use_best_fit : Bool) (hu : cot_alpha_down.isnan ∨ cot_alpha_up.isnan),
      OvertoppingTaw2002.calculate_crest_freeboard_Rc (Scale.len lam Hm0) (Scale.time lam Tmm10) (Scale.disch lam q) cot_alpha cot_alpha_down cot_alpha_up beta (Scale.len lam B_berm) (Scale.len lam db) gamma_beta gamma_b gamma_f gamma_v sigma g use_best_fit =
        (fun r => (Scale.len lam r.1, r.2)) <$> OvertoppingTaw2002.calculate_crest_freeboard_Rc Hm0 Tmm10 q cot_alpha cot_alpha_down cot_alpha_up beta B_berm db gamma_beta gamma_b gamma_f gamma_v sigma g use_best_fit) := by
  simp only [len_eq hl, time_eq hl, vel_eq hl, area_eq hl, disch_eq hl, vol_eq hl]
  exact ⟨OvertoppingTaw2002_calculate_dimensionless_overtopping_discharge_q, OvertoppingTaw2002_calculate_overtopping_discharge_q, OvertoppingTaw2002_calculate_dimensionless_crest_freeboard, OvertoppingTaw2002_calculate_crest_freeboard_Rc⟩

theorem C82_overtopping_eurotop2007 {lam : ℝ} (hl : 0 < lam) :
    (∀ (Hm0 Tmm10 Rc beta gamma_beta gamma_f cot_alpha c2 c3 : PF) (use_best_fit : Bool),
      OvertoppingEurOtop2007.calculate_dimensionless_overtopping_discharge_q_rubble_mound (Scale.len lam Hm0) (Scale.time lam Tmm10) (Scale.len lam Rc) beta gamma_beta gamma_f cot_alpha c2 c3 use_best_fit =
        OvertoppingEurOtop2007.calculate_dimensionless_overtopping_discharge_q_rubble_mound Hm0 Tmm10 Rc beta gamma_beta gamma_f cot_alpha c2 c3 use_best_fit) ∧
    (∀ (Hm0 Tmm10 Rc beta gamma_beta gamma_f cot_alpha c2 c3 : PF) (use_best_fit : Bool) (g : PF),
      OvertoppingEurOtop2007.calculate_overtopping_discharge_q_rubble_mound (Scale.len lam Hm0) (Scale.time lam Tmm10) (Scale.len lam Rc) beta gamma_beta gamma_f cot_alpha c2 c3 use_best_fit g =
        Scale.disch lam <$> OvertoppingEurOtop2007.calculate_overtopping_discharge_q_rubble_mound Hm0 Tmm10 Rc beta gamma_beta gamma_f cot_alpha c2 c3 use_best_fit g) ∧
    (∀ (Hm0 Tmm10 q beta gamma_beta gamma_f cot_alpha c2 c3 : PF) (use_best_fit : Bool),
      OvertoppingEurOtop2007.calculate_dimensionless_crest_freeboard_rubble_mound (Scale.len lam Hm0) (Scale.time lam Tmm10) (Scale.disch lam q) beta gamma_beta gamma_f cot_alpha c2 c3 use_best_fit =
        OvertoppingEurOtop2007.calculate_dimensionless_crest_freeboard_rubble_mound Hm0 Tmm10 q beta gamma_beta gamma_f cot_alpha c2 c3 use_best_fit) ∧
    (∀ (Hm0 Tmm10 q beta gamma_beta gamma_f cot_alpha c2 c3 : PF) (use_best_fit : Bool),
      OvertoppingEurOtop2007.calculate_crest_freeboard_Rc_rubble_mound (Scale.len lam Hm0) (Scale.time lam Tmm10) (Scale.disch lam q) beta gamma_beta gamma_f cot_alpha c2 c3 use_best_fit =
        Scale.len lam <$> OvertoppingEurOtop2007.calculate_crest_freeboard_Rc_rubble_mound Hm0 Tmm10 q beta gamma_beta gamma_f cot_alpha c2 c3 use_best_fit) := by
  simp only [len_eq hl, time_eq hl, vel_eq hl, area_eq hl, disch_eq hl, vol_eq hl]
  exact ⟨OvertoppingEurOtop2007_calculate_dimensionless_overtopping_discharge_q_rubble_mound, OvertoppingEurOtop2007_calculate_overtopping_discharge_q_rubble_mound, OvertoppingEurOtop2007_calculate_dimensionless_crest_freeboard_rubble_mound, OvertoppingEurOtop2007_calculate_crest_freeboard_Rc_rubble_mound⟩

theorem C82_overtopping_eurotop2018_partial {lam : ℝ} (hl : 0 < lam) :
    (∀ (Hm0 Tmm10 Rc beta gamma_beta gamma_b gamma_f gamma_v gamma_star B_berm db cot_alpha cot_alpha_down cot_alpha_up c1 c2 c3 c4 : PF) (use_best_fit : Bool) (hu : cot_alpha_down.isnan ∨ cot_alpha_up.isnan),
      OvertoppingEurOtop2018.calculate_dimensionless_overtopping_discharge_q (Scale.len lam Hm0) (Scale.time lam Tmm10) (Scale.len lam Rc) beta gamma_beta gamma_b gamma_f gamma_v gamma_star (Scale.len lam B_berm) (Scale.len lam db) cot_alpha cot_alpha_down cot_alpha_up c1 c2 c3 c4 use_best_fit =
        OvertoppingEurOtop2018.calculate_dimensionless_overtopping_discharge_q Hm0 Tmm10 Rc beta gamma_beta gamma_b gamma_f gamma_v gamma_star B_berm db cot_alpha cot_alpha_down cot_alpha_up c1 c2 c3 c4 use_best_fit) ∧
    (∀ (Hm0 Tmm10 Rc beta gamma_beta gamma_b gamma_f gamma_v gamma_star B_berm db cot_alpha cot_alpha_down cot_alpha_up c1 c2 c3 c4 : PF) (use_best_fit : Bool) (g : PF) (hu : cot_alpha_down.isnan ∨ cot_alpha_up.isnan),
      OvertoppingEurOtop2018.calculate_overtopping_discharge_q (Scale.len lam Hm0) (Scale.time lam Tmm10) (Scale.len lam Rc) beta gamma_beta gamma_b gamma_f gamma_v gamma_star (Scale.len lam B_berm) (Scale.len lam db) cot_alpha cot_alpha_down cot_alpha_up c1 c2 c3 c4 use_best_fit g =
        (fun r => (Scale.disch lam r.1, r.2)) <$> OvertoppingEurOtop2018.calculate_overtopping_discharge_q Hm0 Tmm10 Rc beta gamma_beta gamma_b gamma_f gamma_v gamma_star B_berm db cot_alpha cot_alpha_down cot_alpha_up c1 c2 c3 c4 use_best_fit g) ∧
    (∀ (Hm0 Tmm10 q beta gamma_beta gamma_b gamma_f gamma_v gamma_star B_berm db cot_alpha cot_alpha_down cot_alpha_up c1 c2 c3 c4 : PF) (use_best_fit : Bool) (g : PF) (hu : cot_alpha_down.isnan ∨ cot_alpha_up.isnan),
      OvertoppingEurOtop2018.calculate_dimensionless_crest_freeboard (Scale.len lam Hm0) (Scale.time lam Tmm10) (Scale.disch lam q) beta gamma_beta gamma_b gamma_f gamma_v gamma_star (Scale.len lam B_berm) (Scale.len lam db) cot_alpha cot_alpha_down cot_alpha_up c1 c2 c3 c4 use_best_fit g =
        OvertoppingEurOtop2018.calculate_dimensionless_crest_freeboard Hm0 Tmm10 q beta gamma_beta gamma_b gamma_f gamma_v gamma_star B_berm db cot_alpha cot_alpha_down cot_alpha_up c1 c2 c3 c4 use_best_fit g) ∧
    (∀ (Hm0 Tmm10 q beta gamma_beta gamma_b gamma_f gamma_v gamma_star B_berm db cot_alpha cot_alpha_down cot_alpha_up c1 c2 c3 c4 : PF) (use_best_fit : Bool) (g : PF) (hu : cot_alpha_down.isnan ∨ cot_alpha_up.isnan),
      OvertoppingEurOtop2018.calculate_crest_freeboard_Rc (Scale.len lam Hm0) (Scale.time lam Tmm10) (Scale.disch lam q) beta gamma_beta gamma_b gamma_f gamma_v gamma_star (Scale.len lam B_berm) (Scale.len lam db) cot_alpha cot_alpha_down cot_alpha_up c1 c2 c3 c4 use_best_fit g =
        (fun r => (Scale.len lam r.1, r.2)) <$> OvertoppingEurOtop2018.calculate_crest_freeboard_Rc Hm0 Tmm10 q beta gamma_beta gamma_b gamma_f gamma_v gamma_star B_berm db cot_alpha cot_alpha_down cot_alpha_up c1 c2 c3 c4 use_best_fit g) ∧
    (∀ (Hm0 Tmm10 Rc beta gamma_beta gamma_f B_berm db cot_alpha cot_alpha_down cot_alpha_up c2 c3 : PF) (use_best_fit : Bool) (hu : cot_alpha_down.isnan ∨ cot_alpha_up.isnan),
      OvertoppingEurOtop2018.calculate_dimensionless_overtopping_discharge_q_rubble_mound (Scale.len lam Hm0) (Scale.time lam Tmm10) (Scale.len lam Rc) beta gamma_beta gamma_f (Scale.len lam B_berm) (Scale.len lam db) cot_alpha cot_alpha_down cot_alpha_up c2 c3 use_best_fit =
        OvertoppingEurOtop2018.calculate_dimensionless_overtopping_discharge_q_rubble_mound Hm0 Tmm10 Rc beta gamma_beta gamma_f B_berm db cot_alpha cot_alpha_down cot_alpha_up c2 c3 use_best_fit) ∧
    (∀ (Hm0 Tmm10 Rc beta gamma_beta gamma_f B_berm db cot_alpha cot_alpha_down cot_alpha_up c2 c3 : PF) (use_best_fit : Bool) (g : PF) (hu : cot_alpha_down.isnan ∨ cot_alpha_up.isnan),
      OvertoppingEurOtop2018.calculate_overtopping_discharge_q_rubble_mound (Scale.len lam Hm0) (Scale.time lam Tmm10) (Scale.len lam Rc) beta gamma_beta gamma_f (Scale.len lam B_berm) (Scale.len lam db) cot_alpha cot_alpha_down cot_alpha_up c2 c3 use_best_fit g =
        Scale.disch lam <$> OvertoppingEurOtop2018.calculate_overtopping_discharge_q_rubble_mound Hm0 Tmm10 Rc beta gamma_beta gamma_f B_berm db cot_alpha cot_alpha_down cot_alpha_up c2 c3 use_best_fit g) ∧
    (∀ (Hm0 Tmm10 q beta gamma_beta gamma_f B_berm db cot_alpha cot_alpha_down cot_alpha_up c2 c3 : PF) (use_best_fit : Bool) (g : PF) (hu : cot_alpha_down.isnan ∨ cot_alpha_up.isnan),
      OvertoppingEurOtop2018.calculate_dimensionless_crest_freeboard_rubble_mound (Scale.len lam Hm0) (Scale.time lam Tmm10) (Scale.disch lam q) beta gamma_beta gamma_f (Scale.len lam B_berm) (Scale.len lam db) cot_alpha cot_alpha_down cot_alpha_up c2 c3 use_best_fit g =
        OvertoppingEurOtop2018.calculate_dimensionless_crest_freeboard_rubble_mound Hm0 Tmm10 q beta gamma_beta gamma_f B_berm db cot_alpha cot_alpha_down cot_alpha_up c2 c3 use_best_fit g) ∧
    (∀ (Hm0 Tmm10 q beta gamma_beta gamma_f B_berm db cot_alpha cot_alpha_down cot_alpha_up c2 c3 : PF) (use_best_fit : Bool) (g : PF) (hu : cot_alpha_down.isnan ∨ cot_alpha_up.isnan),
      OvertoppingEurOtop2018.calculate_crest_freeboard_Rc_rubble_mound (Scale.len lam Hm0) (Scale.time lam Tmm10) (Scale.disch lam q) beta gamma_beta gamma_f (Scale.len lam B_berm) (Scale.len lam db) cot_alpha cot_alpha_down cot_alpha_up c2 c3 use_best_fit g =
        Scale.len lam <$> OvertoppingEurOtop2018.calculate_crest_freeboard_Rc_rubble_mound Hm0 Tmm10 q beta gamma_beta gamma_f B_berm db cot_alpha cot_alpha_down cot_alpha_up c2 c3 use_best_fit g) := by
  simp only [len_eq hl, time_eq hl, vel_eq hl, area_eq hl, disch_eq hl, vol_eq hl]
  exact ⟨E18_q, E18_Q, E18_rc, E18_Rc, E18_qr, E18_Qr, E18_rcr, E18_Rcr⟩

/-- Run-up on a slope that is not composite. -/
theorem C82_runup_taw2002_partial {lam : ℝ} (hl : 0 < lam) (a : RunupTaw2002.Args)
    (hu : a.cot_alpha_down.isnan ∨ a.cot_alpha_up.isnan) :
    RunupTaw2002.calculate_dimensionless_wave_runup_height_z2p
        { a with
          Hm0 := Scale.len lam a.Hm0, Tmm10 := Scale.time lam a.Tmm10, B_berm := Scale.len lam a.B_berm,
          db := Scale.len lam a.db } =
      RunupTaw2002.calculate_dimensionless_wave_runup_height_z2p a ∧
    RunupTaw2002.calculate_wave_runup_height_z2p
        { a with
          Hm0 := Scale.len lam a.Hm0, Tmm10 := Scale.time lam a.Tmm10, B_berm := Scale.len lam a.B_berm,
          db := Scale.len lam a.db } =
      (fun r => (Scale.len lam r.1, r.2)) <$> RunupTaw2002.calculate_wave_runup_height_z2p a := by
  simp only [len_eq hl, time_eq hl]
  exact ⟨diml_z2p a hu, height_z2p a hu⟩

/-- The parts of the computation for composite slopes, the iteration with its tolerance as a length. -/
theorem C82_runup_taw2002_parts {lam : ℝ} (hl : 0 < lam) :
    (∀ Hm0 z2p cot_alpha_down cot_alpha_up B_berm db : PF,
      RunupTaw2002.determine_average_slope (Scale.len lam Hm0) (Scale.len lam z2p) cot_alpha_down cot_alpha_up
          (Scale.len lam B_berm) (Scale.len lam db) =
        RunupTaw2002.determine_average_slope Hm0 z2p cot_alpha_down cot_alpha_up B_berm db) ∧
    (∀ Hm0 B_berm cot_alpha cot_alpha_down cot_alpha_up : PF,
      RunupTaw2002.calculate_berm_length (Scale.len lam Hm0) (Scale.len lam B_berm) cot_alpha cot_alpha_down cot_alpha_up =
        Scale.len lam <$> RunupTaw2002.calculate_berm_length Hm0 B_berm cot_alpha cot_alpha_down cot_alpha_up) ∧
    (∀ Hm0 z2p db B_berm L_berm : PF,
      RunupTaw2002.calculate_influence_berm_gamma_b (Scale.len lam Hm0) (Scale.len lam z2p) (Scale.len lam db)
          (Scale.len lam B_berm) (Scale.len lam L_berm) =
        RunupTaw2002.calculate_influence_berm_gamma_b Hm0 z2p db B_berm L_berm) ∧
    (∀ (Hm0 Tmm10 cot B_berm L_berm db gamma_beta c1 c2 c3 c4 : PF) (b : Bool) (gamma_f : PF),
      RunupTaw2002.iteration_procedure_gamma_b (Scale.len lam Hm0) (Scale.time lam Tmm10) cot (Scale.len lam B_berm)
          (Scale.len lam L_berm) (Scale.len lam db) gamma_beta c1 c2 c3 c4 b gamma_f =
        RunupTaw2002.iteration_procedure_gamma_b Hm0 Tmm10 cot B_berm L_berm db gamma_beta c1 c2 c3 c4 b gamma_f) ∧
    (∀ (Hm0 Tmm10 cot_alpha_down cot_alpha_up B_berm db gamma_f gamma_beta c1 c2 c3 c4 : PF) (b : Bool) (tol : PF) (n : ℤ),
      RunupTaw2002.iteration_procedure_z2p (Scale.len lam Hm0) (Scale.time lam Tmm10) cot_alpha_down cot_alpha_up
          (Scale.len lam B_berm) (Scale.len lam db) gamma_f gamma_beta c1 c2 c3 c4 b (Scale.len lam tol) n =
        Scale.len lam <$> RunupTaw2002.iteration_procedure_z2p Hm0 Tmm10 cot_alpha_down cot_alpha_up B_berm db gamma_f
          gamma_beta c1 c2 c3 c4 b tol n) := by
  simp only [len_eq hl, time_eq hl]
  exact ⟨slopeAvg, bermLen, bermFactor, gammaB, z2pIter⟩

/-- The same of EurOtop (2018). -/
theorem C82_runup_eurotop2018_partial {lam : ℝ} (hl : 0 < lam)
    (Hm0 Tmm10 beta gamma_beta gamma_b gamma_f B_berm db cot_alpha cot_alpha_down cot_alpha_up c1 c2 c3 c4 : PF) (b : Bool)
    (hu : cot_alpha_down.isnan ∨ cot_alpha_up.isnan) :
    RunupEurOtop2018.calculate_dimensionless_wave_runup_height_z2p (Scale.len lam Hm0) (Scale.time lam Tmm10) beta
        gamma_beta gamma_b gamma_f (Scale.len lam B_berm) (Scale.len lam db) cot_alpha cot_alpha_down cot_alpha_up
        c1 c2 c3 c4 b =
      RunupEurOtop2018.calculate_dimensionless_wave_runup_height_z2p Hm0 Tmm10 beta gamma_beta gamma_b gamma_f B_berm db
        cot_alpha cot_alpha_down cot_alpha_up c1 c2 c3 c4 b ∧
    RunupEurOtop2018.calculate_wave_runup_height_z2p (Scale.len lam Hm0) (Scale.time lam Tmm10) beta
        gamma_beta gamma_b gamma_f (Scale.len lam B_berm) (Scale.len lam db) cot_alpha cot_alpha_down cot_alpha_up
        c1 c2 c3 c4 b =
      (fun r => (Scale.len lam r.1, r.2)) <$> RunupEurOtop2018.calculate_wave_runup_height_z2p Hm0 Tmm10 beta gamma_beta
        gamma_b gamma_f B_berm db cot_alpha cot_alpha_down cot_alpha_up c1 c2 c3 c4 b := by
  simp only [len_eq hl, time_eq hl]
  exact ⟨runup18 _ _ _ _ _ _ _ _ _ _ _ _ _ _ _ _ hu, height18 _ _ _ _ _ _ _ _ _ _ _ _ _ _ _ _ hu⟩

/-- a slope given as one slope is not composite: 2 m waves of 6 s, at a scale of 1 to 25 -/
example : ∃ a : RunupTaw2002.Args, a.Hm0 = fin 2 ∧ a.Tmm10 = fin 6 ∧ a.cot_alpha = fin 3 ∧
    (a.cot_alpha_down.isnan ∨ a.cot_alpha_up.isnan) :=
  ⟨{ Hm0 := fin 2, Tmm10 := fin 6, cot_alpha := fin 3 }, rfl, rfl, rfl, Or.inl trivial⟩


theorem C82_overtopping_vangent2021 {lam : ℝ} (hl : 0 < lam) :
    (∀ (Hm0 Rc beta gamma_beta Hm0_swell c c_swell : PF) (short_crested_waves crossing_seas parapet : Bool),
      VanGent2021Caisson.calculate_dimensionless_overtopping_discharge_q (Scale.len lam Hm0) (Scale.len lam Rc) beta gamma_beta (Scale.len lam Hm0_swell) c c_swell short_crested_waves crossing_seas parapet =
        VanGent2021Caisson.calculate_dimensionless_overtopping_discharge_q Hm0 Rc beta gamma_beta Hm0_swell c c_swell short_crested_waves crossing_seas parapet) ∧
    (∀ (Hm0 Rc beta gamma_beta Hm0_swell c c_swell : PF) (short_crested_waves crossing_seas parapet : Bool) (g : PF),
      VanGent2021Caisson.calculate_overtopping_discharge_q (Scale.len lam Hm0) (Scale.len lam Rc) beta gamma_beta (Scale.len lam Hm0_swell) c c_swell short_crested_waves crossing_seas parapet g =
        Scale.disch lam <$> VanGent2021Caisson.calculate_overtopping_discharge_q Hm0 Rc beta gamma_beta Hm0_swell c c_swell short_crested_waves crossing_seas parapet g) ∧
    (∀ (Hm0 q beta gamma_beta Hm0_swell c c_swell : PF) (short_crested_waves crossing_seas parapet : Bool) (g : PF),
      VanGent2021Caisson.calculate_dimensionless_crest_freeboard (Scale.len lam Hm0) (Scale.disch lam q) beta gamma_beta (Scale.len lam Hm0_swell) c c_swell short_crested_waves crossing_seas parapet g =
        VanGent2021Caisson.calculate_dimensionless_crest_freeboard Hm0 q beta gamma_beta Hm0_swell c c_swell short_crested_waves crossing_seas parapet g) ∧
    (∀ (Hm0 q beta gamma_beta Hm0_swell c c_swell : PF) (short_crested_waves crossing_seas parapet : Bool) (g : PF),
      VanGent2021Caisson.calculate_crest_freeboard_Rc (Scale.len lam Hm0) (Scale.disch lam q) beta gamma_beta (Scale.len lam Hm0_swell) c c_swell short_crested_waves crossing_seas parapet g =
        Scale.len lam <$> VanGent2021Caisson.calculate_crest_freeboard_Rc Hm0 q beta gamma_beta Hm0_swell c c_swell short_crested_waves crossing_seas parapet g) := by
  simp only [len_eq hl, time_eq hl, vel_eq hl, area_eq hl, disch_eq hl, vol_eq hl]
  exact ⟨VanGent2021Caisson_calculate_dimensionless_overtopping_discharge_q, VanGent2021Caisson_calculate_overtopping_discharge_q, VanGent2021Caisson_calculate_dimensionless_crest_freeboard, VanGent2021Caisson_calculate_crest_freeboard_Rc⟩

theorem C82_overtopping_vangent2025 {lam : ℝ} (hl : 0 < lam) :
    (∀ (Dn50 Hm0 smm10 c_f1 c_f2 smm10_lim : PF),
      VanGent2025.calculate_influence_friction_gamma_f (Scale.len lam Dn50) (Scale.len lam Hm0) smm10 c_f1 c_f2 smm10_lim =
        VanGent2025.calculate_influence_friction_gamma_f Dn50 Hm0 smm10 c_f1 c_f2 smm10_lim) ∧
    (∀ (Hm0 smm10 Ac B_berm BL c_b1 c_b2 c_b3 c_b4 : PF),
      VanGent2025.calculate_influence_berm_gamma_b (Scale.len lam Hm0) smm10 (Scale.len lam Ac) (Scale.len lam B_berm) (Scale.len lam BL) c_b1 c_b2 c_b3 c_b4 =
        VanGent2025.calculate_influence_berm_gamma_b Hm0 smm10 Ac B_berm BL c_b1 c_b2 c_b3 c_b4) ∧
    (∀ (cot_alpha Rc Ac c_v : PF),
      VanGent2025.calculate_influence_crest_wall_gamma_v cot_alpha (Scale.len lam Rc) (Scale.len lam Ac) c_v =
        VanGent2025.calculate_influence_crest_wall_gamma_v cot_alpha Rc Ac c_v) ∧
    (∀ (Rc Ac Hm0 q_diml c_w1 c_w2 : PF),
      VanGent2025.calculate_influence_wind_gamma_w (Scale.len lam Rc) (Scale.len lam Ac) (Scale.len lam Hm0) q_diml c_w1 c_w2 =
        VanGent2025.calculate_influence_wind_gamma_w Rc Ac Hm0 q_diml c_w1 c_w2) ∧
    (∀ (Hm0 Hm0_swell Tmm10 Rc Ac cot_alpha beta B_berm db Dn50 gamma_f gamma_b gamma_v gamma_beta : PF) (design_calculation include_influence_wind : Bool),
      VanGent2025.calculate_dimensionless_overtopping_discharge_q (Scale.len lam Hm0) (Scale.len lam Hm0_swell) (Scale.time lam Tmm10) (Scale.len lam Rc) (Scale.len lam Ac) cot_alpha beta (Scale.len lam B_berm) (Scale.len lam db) (Scale.len lam Dn50) gamma_f gamma_b gamma_v gamma_beta design_calculation include_influence_wind =
        VanGent2025.calculate_dimensionless_overtopping_discharge_q Hm0 Hm0_swell Tmm10 Rc Ac cot_alpha beta B_berm db Dn50 gamma_f gamma_b gamma_v gamma_beta design_calculation include_influence_wind) ∧
    (∀ (Hm0 Hm0_swell Tmm10 Rc Ac cot_alpha beta B_berm db Dn50 gamma_f gamma_b gamma_v gamma_beta g : PF) (design_calculation include_influence_wind : Bool),
      VanGent2025.calculate_overtopping_discharge_q (Scale.len lam Hm0) (Scale.len lam Hm0_swell) (Scale.time lam Tmm10) (Scale.len lam Rc) (Scale.len lam Ac) cot_alpha beta (Scale.len lam B_berm) (Scale.len lam db) (Scale.len lam Dn50) gamma_f gamma_b gamma_v gamma_beta g design_calculation include_influence_wind =
        (fun r => (Scale.disch lam r.1, r.2)) <$> VanGent2025.calculate_overtopping_discharge_q Hm0 Hm0_swell Tmm10 Rc Ac cot_alpha beta B_berm db Dn50 gamma_f gamma_b gamma_v gamma_beta g design_calculation include_influence_wind) ∧
    (∀ (Hm0 Hm0_swell Tmm10 q Ac cot_alpha beta B_berm db Dn50 gamma_f gamma_b gamma_v gamma_beta g : PF) (design_calculation include_influence_wind : Bool) (max_iter : ℕ) (tolerance : PF),
      VanGent2025.calculate_dimensionless_crest_freeboard (Scale.len lam Hm0) (Scale.len lam Hm0_swell) (Scale.time lam Tmm10) (Scale.disch lam q) (Scale.len lam Ac) cot_alpha beta (Scale.len lam B_berm) (Scale.len lam db) (Scale.len lam Dn50) gamma_f gamma_b gamma_v gamma_beta g design_calculation include_influence_wind max_iter tolerance =
        VanGent2025.calculate_dimensionless_crest_freeboard Hm0 Hm0_swell Tmm10 q Ac cot_alpha beta B_berm db Dn50 gamma_f gamma_b gamma_v gamma_beta g design_calculation include_influence_wind max_iter tolerance) ∧
    (∀ (Hm0 Hm0_swell Tmm10 q Ac cot_alpha beta B_berm db Dn50 gamma_f gamma_b gamma_v gamma_beta : PF) (design_calculation include_influence_wind : Bool),
      VanGent2025.calculate_crest_freeboard_Rc (Scale.len lam Hm0) (Scale.len lam Hm0_swell) (Scale.time lam Tmm10) (Scale.disch lam q) (Scale.len lam Ac) cot_alpha beta (Scale.len lam B_berm) (Scale.len lam db) (Scale.len lam Dn50) gamma_f gamma_b gamma_v gamma_beta design_calculation include_influence_wind =
        (fun r => (Scale.len lam r.1, r.2)) <$> VanGent2025.calculate_crest_freeboard_Rc Hm0 Hm0_swell Tmm10 q Ac cot_alpha beta B_berm db Dn50 gamma_f gamma_b gamma_v gamma_beta design_calculation include_influence_wind) := by
  simp only [len_eq hl, time_eq hl, vel_eq hl, area_eq hl, disch_eq hl, vol_eq hl]
  exact ⟨VanGent2025_calculate_influence_friction_gamma_f, VanGent2025_calculate_influence_berm_gamma_b, VanGent2025_calculate_influence_crest_wall_gamma_v, VanGent2025_calculate_influence_wind_gamma_w, VanGent2025_calculate_dimensionless_overtopping_discharge_q, VanGent2025_calculate_overtopping_discharge_q, VanGent2025_calculate_dimensionless_crest_freeboard, VanGent2025_calculate_crest_freeboard_Rc⟩

theorem C82_overtopping_deridder2024 {lam : ℝ} (hl : 0 < lam) :
    (∀ (Hm0 smm10_HF gamma_f q g : PF),
      DeRidder2024.calculate_dimensionless_crest_freeboard_discharge_q_eq24 (Scale.len lam Hm0) smm10_HF gamma_f (Scale.disch lam q) g =
        DeRidder2024.calculate_dimensionless_crest_freeboard_discharge_q_eq24 Hm0 smm10_HF gamma_f q g) ∧
    (∀ (Hm0 smm10_HF gamma_f q _g : PF),
      DeRidder2024.calculate_crest_freeboard_discharge_q_eq24 (Scale.len lam Hm0) smm10_HF gamma_f (Scale.disch lam q) _g =
        Scale.len lam <$> DeRidder2024.calculate_crest_freeboard_discharge_q_eq24 Hm0 smm10_HF gamma_f q _g) ∧
    (∀ (Hm0 smm10_HF Hm0_LF gamma_f q g : PF),
      DeRidder2024.calculate_crest_freeboard_discharge_q_eq26 (Scale.len lam Hm0) smm10_HF (Scale.len lam Hm0_LF) gamma_f (Scale.disch lam q) g =
        Scale.len lam <$> DeRidder2024.calculate_crest_freeboard_discharge_q_eq26 Hm0 smm10_HF Hm0_LF gamma_f q g) ∧
    (∀ (Hm0 smm10_HF gamma_f Rc : PF),
      DeRidder2024.calculate_dimensionless_overtopping_discharge_eq24 (Scale.len lam Hm0) smm10_HF gamma_f (Scale.len lam Rc) =
        DeRidder2024.calculate_dimensionless_overtopping_discharge_eq24 Hm0 smm10_HF gamma_f Rc) ∧
    (∀ (Hm0 smm10_HF gamma_f Rc g : PF),
      DeRidder2024.calculate_overtopping_discharge_q_eq24 (Scale.len lam Hm0) smm10_HF gamma_f (Scale.len lam Rc) g =
        Scale.disch lam <$> DeRidder2024.calculate_overtopping_discharge_q_eq24 Hm0 smm10_HF gamma_f Rc g) ∧
    (∀ (Hm0 smm10_HF Hm0_LF gamma_f Rc : PF),
      DeRidder2024.calculate_dimensionless_overtopping_discharge_eq26 (Scale.len lam Hm0) smm10_HF (Scale.len lam Hm0_LF) gamma_f (Scale.len lam Rc) =
        DeRidder2024.calculate_dimensionless_overtopping_discharge_eq26 Hm0 smm10_HF Hm0_LF gamma_f Rc) ∧
    (∀ (Hm0 smm10_HF Hm0_LF gamma_f Rc g : PF),
      DeRidder2024.calculate_overtopping_discharge_q_eq26 (Scale.len lam Hm0) smm10_HF (Scale.len lam Hm0_LF) gamma_f (Scale.len lam Rc) g =
        Scale.disch lam <$> DeRidder2024.calculate_overtopping_discharge_q_eq26 Hm0 smm10_HF Hm0_LF gamma_f Rc g) := by
  simp only [len_eq hl, time_eq hl, vel_eq hl, area_eq hl, disch_eq hl, vol_eq hl]
  exact ⟨DeRidder2024_calculate_dimensionless_crest_freeboard_discharge_q_eq24, DeRidder2024_calculate_crest_freeboard_discharge_q_eq24, DeRidder2024_calculate_crest_freeboard_discharge_q_eq26, DeRidder2024_calculate_dimensionless_overtopping_discharge_eq24, DeRidder2024_calculate_overtopping_discharge_q_eq24, DeRidder2024_calculate_dimensionless_overtopping_discharge_eq26, DeRidder2024_calculate_overtopping_discharge_q_eq26⟩

theorem C82_overtopping_deridder2026 {lam : ℝ} (hl : 0 < lam) :
    (∀ (Hm0 smm10_HF gamma_f q g gamma_beta : PF),
      DeRidder2026.calculate_dimensionless_crest_freeboard_discharge_q_eq28 (Scale.len lam Hm0) smm10_HF gamma_f (Scale.disch lam q) g gamma_beta =
        DeRidder2026.calculate_dimensionless_crest_freeboard_discharge_q_eq28 Hm0 smm10_HF gamma_f q g gamma_beta) ∧
    (∀ (Hm0 smm10_HF gamma_f q g theta : PF),
      DeRidder2026.calculate_crest_freeboard_discharge_q_eq28 (Scale.len lam Hm0) smm10_HF gamma_f (Scale.disch lam q) g theta =
        Scale.len lam <$> DeRidder2026.calculate_crest_freeboard_discharge_q_eq28 Hm0 smm10_HF gamma_f q g theta) ∧
    (∀ (Hm0_HF smm10_HF Hm0_LF gamma_f q g theta : PF),
      DeRidder2026.calculate_crest_freeboard_discharge_q_eq32 (Scale.len lam Hm0_HF) smm10_HF (Scale.len lam Hm0_LF) gamma_f (Scale.disch lam q) g theta =
        Scale.len lam <$> DeRidder2026.calculate_crest_freeboard_discharge_q_eq32 Hm0_HF smm10_HF Hm0_LF gamma_f q g theta) ∧
    (∀ (Hm0 smm10_HF gamma_f Rc theta : PF),
      DeRidder2026.calculate_dimensionless_overtopping_discharge_eq28 (Scale.len lam Hm0) smm10_HF gamma_f (Scale.len lam Rc) theta =
        DeRidder2026.calculate_dimensionless_overtopping_discharge_eq28 Hm0 smm10_HF gamma_f Rc theta) ∧
    (∀ (Hm0 smm10_HF gamma_f Rc g theta : PF),
      DeRidder2026.calculate_overtopping_discharge_q_eq28 (Scale.len lam Hm0) smm10_HF gamma_f (Scale.len lam Rc) g theta =
        Scale.disch lam <$> DeRidder2026.calculate_overtopping_discharge_q_eq28 Hm0 smm10_HF gamma_f Rc g theta) ∧
    (∀ (Hm0_HF smm10_HF Hm0_LF gamma_f Rc theta : PF),
      DeRidder2026.calculate_dimensionless_overtopping_discharge_eq32 (Scale.len lam Hm0_HF) smm10_HF (Scale.len lam Hm0_LF) gamma_f (Scale.len lam Rc) theta =
        DeRidder2026.calculate_dimensionless_overtopping_discharge_eq32 Hm0_HF smm10_HF Hm0_LF gamma_f Rc theta) ∧
    (∀ (Hm0_HF smm10_HF Hm0_LF gamma_f Rc g theta : PF),
      DeRidder2026.calculate_overtopping_discharge_q_eq32 (Scale.len lam Hm0_HF) smm10_HF (Scale.len lam Hm0_LF) gamma_f (Scale.len lam Rc) g theta =
        Scale.disch lam <$> DeRidder2026.calculate_overtopping_discharge_q_eq32 Hm0_HF smm10_HF Hm0_LF gamma_f Rc g theta) := by
  simp only [len_eq hl, time_eq hl, vel_eq hl, area_eq hl, disch_eq hl, vol_eq hl]
  exact ⟨DeRidder2026_calculate_dimensionless_crest_freeboard_discharge_q_eq28, DeRidder2026_calculate_crest_freeboard_discharge_q_eq28, DeRidder2026_calculate_crest_freeboard_discharge_q_eq32, DeRidder2026_calculate_dimensionless_overtopping_discharge_eq28, DeRidder2026_calculate_overtopping_discharge_q_eq28, DeRidder2026_calculate_dimensionless_overtopping_discharge_eq32, DeRidder2026_calculate_overtopping_discharge_q_eq32⟩

/-- on deep water the wave number is `ω² / g` -/
example : Scale.DeepDispersion (fun w _ g => w * w / g) := by
  intro lam hl w
  show Scale.times _ w * Scale.times _ w / _ = _
  rw [inv_time_eq hl, inv_len_eq hl, sc_mul, mul_sc, sc_sc, sc_div]
  norm_num

/-- a flume test at a scale of 1 to 25: the discharge goes with the factor 1 to 125 -/
example (q : PF) : Scale.disch (1 / 25) q = fin (1 / 125) * q := by
  have e : √(1 / 25 : ℝ) = 1 / 5 := by rw [Real.sqrt_eq_iff_mul_self_eq] <;> norm_num
  simp only [Scale.disch, Scale.times, e]
  norm_num


end
