import Verif.Array.Overtopping
import Verif.Lemmas.ArrayLoop
import Verif.Props.ArraySearch

/-! # C83: composite slopes with arrays -/

open Classical
open Arrays
noncomputable section
variable {n : ℕ}

/-- the call raises an exception -/
def Raises {α : Type} (m : PyM α) : Prop := ∃ e, m.res = .error e

namespace CompositeProof
open SearchProof

theorem bind_raises {α β : Type} {x : PyM α} {f : α → PyM β} (h : ∀ a, Raises (f a)) : Raises (x >>= f) := by
  rcases x with ⟨w, e | a⟩
  · exact ⟨e, rfl⟩
  · obtain ⟨e, he⟩ := h a
    exact ⟨e, by rw [PyM.bind_ok]; exact he⟩

theorem raises_bind {α β : Type} {x : PyM α} {f : α → PyM β} (h : Raises x) : Raises (x >>= f) := by
  obtain ⟨e, he⟩ := h
  exact ⟨e, PyM.bind_res_of_error he f⟩

theorem whr_arr (c : BVal n) (a b : Val n) (h : (a.isArray || b.isArray) = true) :
    (Val.whr c a b).isArray = true := by
  cases c <;> cases a <;> cases b <;> first | rfl | cases h

/-- the berm factor raises on every array -/
theorem berm_factor_raises (Hm0 z2p db B_berm L_berm : Val n)
    (h : (Hm0.isArray || db.isArray || B_berm.isArray || L_berm.isArray || z2p.isArray) = true) :
    Raises (Arr.RunupTaw2002.calculate_influence_berm_gamma_b Hm0 z2p db B_berm L_berm) := by
  unfold Arr.RunupTaw2002.calculate_influence_berm_gamma_b
  dsimp only
  apply raises_bind
  have hl : ∀ v : Val n, v.isArray = true → Raises (Val.listMin v 1.0) := by
    intro v hv
    cases v with
    | num x => cases hv
    | arr v => exact ⟨_, rfl⟩
  apply hl
  have hx : (Hm0.isArray || z2p.isArray) = true →
      (Val.whr (db <. 0) z2p (2 * Hm0)).isArray = true := fun h => by
    apply whr_arr
    simp only [arr_mul, Bool.or_eq_true] at h ⊢
    tauto
  have hr : (Hm0.isArray || z2p.isArray || db.isArray) = true →
      (Val.whr (db >. 2 * Hm0 |. db <. -z2p) 1.0 (0.5 - 0.5 * Val.cos (Val.pi * db /
        (Val.whr (db <. 0) z2p (2 * Hm0))))).isArray = true := fun h => by
    apply whr_arr
    simp only [arr_sub, arr_mul, arr_div, arr_cos, Bool.or_eq_true] at h hx ⊢
    tauto
  simp only [arr_sub, arr_mul, arr_div, Bool.or_eq_true] at h hr ⊢
  tauto

/-- the iteration for composite slopes raises in its first pass -/
theorem iteration_raises [NeZero n] (rec : Arr.RunupTaw2002.Args n → PyM (Val n × BVal n))
    (Hm0 Tmm10 down up B_berm db gamma_f gamma_beta : Val n) (c1 c2 c3 c4 : PF) (bf : Bool) (t : ℝ) (ht : 0 < t)
    (N : ℤ) (hN : 0 ≤ N) (hd : ¬ down.isnan.all) (hu : ¬ up.isnan.all) (hH : ∀ i, ∃ H : ℝ, Hm0.get i = .fin H)
    (ha : ∃ x ∈ [Hm0, down, up, B_berm, db], x.isArray = true) :
    Raises (Arr.RunupTaw2002.iteration_procedure_z2p_rec rec Hm0 Tmm10 down up B_berm db gamma_f gamma_beta
      c1 c2 c3 c4 bf (.fin t) N) := by
  unfold Arr.RunupTaw2002.iteration_procedure_z2p_rec
  dsimp only
  apply raises_bind
  obtain ⟨k, hk⟩ : ∃ k, (N + 1).toNat = k + 1 := ⟨N.toNat, by omega⟩
  rw [hk]
  unfold whileIterM
  rw [if_pos]
  · apply raises_bind
    unfold Arr.RunupTaw2002.calculate_berm_length Arr.RunupTaw2002.check_composite_slope
    rw [if_neg (fun h => hd h.2), if_pos ⟨hd, hu⟩, pure_bind]
    simp only [if_true]
    rw [pure_bind]
    apply raises_bind
    apply berm_factor_raises
    simp only [List.mem_cons, List.not_mem_nil, or_false] at ha
    obtain ⟨x, hx, hxa⟩ := ha
    simp only [arr_add, arr_mul, Bool.or_eq_true]
    rcases hx with rfl | rfl | rfl | rfl | rfl <;> simp only [hxa] <;> tauto
  · dsimp only
    rw [ArrProof.amax_gt]
    refine ⟨fun i => ?_, 0, ?_⟩
    · obtain ⟨H, e⟩ := hH i
      simp only [cases_simp, e]
      pf_eval []
      exact fun h => h
    · obtain ⟨H, e⟩ := hH 0
      simp only [cases_simp, e]
      pf_eval []
      rw [show (1.5 * H - (1.5 * H + 2 * t) : ℝ) = -(2 * t) by ring, abs_neg, abs_of_pos (by linarith)]
      linarith

theorem composite_true (cot down up : Val n) (hd : ¬ down.isnan.all) (hu : ¬ up.isnan.all) :
    Arr.RunupTaw2002.check_composite_slope cot down up = pure true := by
  unfold Arr.RunupTaw2002.check_composite_slope
  rw [if_neg (fun h => hd h.2), if_pos ⟨hd, hu⟩]

end CompositeProof
open CompositeProof

section
variable [NeZero n] (Hm0 Tmm10 Rc q beta gamma_beta gamma_b gamma_f gamma_v gamma_star B_berm db cot_alpha
    cot_alpha_down cot_alpha_up sigma g : Val n) (c1 c2 c3 c4 : PF) (use_best_fit : Bool)
  (composite : ¬ cot_alpha_down.isnan.all ∧ ¬ cot_alpha_up.isnan.all)
  (finite : ∀ i, ∃ H : ℝ, Hm0.get i = .fin H)
  (array : ∃ x ∈ [Hm0, cot_alpha_down, cot_alpha_up, B_berm, db], x.isArray = true)
include composite finite array

/-- C83: for a composite slope, no array of wave heights, slopes, berm widths or berm levels can be used:
the run-up (TAW 2002) raises an exception, whatever the numbers are. -/
theorem C83_composite_taw_runup_raises :
    Raises (Arr.RunupTaw2002.calculate_wave_runup_height_z2p
      { Hm0, Tmm10, beta, gamma_beta, gamma_b, gamma_f, B_berm, db, cot_alpha, cot_alpha_down,
        cot_alpha_up, c1, c2, c3, c4, use_best_fit }) := by
  unfold Arr.RunupTaw2002.calculate_wave_runup_height_z2p Arr.RunupTaw2002.height_of
    Arr.RunupTaw2002.calculate_dimensionless_wave_runup_height_z2p Arr.RunupTaw2002.diml_depth
    Arr.RunupTaw2002.diml_rec Arr.RunupTaw2002.slope_rec
  refine raises_bind (bind_raises fun _ => raises_bind ?_)
  rw [composite_true _ _ _ composite.1 composite.2, pure_bind, if_pos rfl]
  refine raises_bind ?_
  rw [PF.sci_eq]
  exact iteration_raises _ _ _ _ _ _ _ _ _ _ _ _ _ _ _ (by norm_num) _ (by norm_num) composite.1
    composite.2 finite array

/-- as for TAW (2002) -/
theorem C83_composite_taw_discharge_raises :
    Raises (Arr.OvertoppingTaw2002.calculate_overtopping_discharge_q Hm0 Tmm10 Rc cot_alpha cot_alpha_down
      cot_alpha_up beta B_berm db gamma_beta gamma_b gamma_f gamma_v sigma g use_best_fit) := by
  unfold Arr.OvertoppingTaw2002.calculate_overtopping_discharge_q
    Arr.OvertoppingTaw2002.calculate_dimensionless_overtopping_discharge_q
    Arr.RunupTaw2002.iteration_procedure_z2p
  refine raises_bind (bind_raises fun _ => bind_raises fun _ => ?_)
  rw [composite_true _ _ _ composite.1 composite.2, pure_bind, if_pos rfl]
  refine raises_bind (raises_bind ?_)
  rw [PF.sci_eq (m := 1) (s := true) (e := 4)]
  exact iteration_raises _ _ _ _ _ _ _ _ _ _ _ _ _ _ _ (by norm_num) _ (by norm_num) composite.1
    composite.2 finite array

/-- as for TAW (2002) -/
theorem C83_composite_taw_crest_raises :
    Raises (Arr.OvertoppingTaw2002.calculate_crest_freeboard_Rc Hm0 Tmm10 q cot_alpha cot_alpha_down
      cot_alpha_up beta B_berm db gamma_beta gamma_b gamma_f gamma_v sigma g use_best_fit) := by
  unfold Arr.OvertoppingTaw2002.calculate_crest_freeboard_Rc
    Arr.OvertoppingTaw2002.calculate_dimensionless_crest_freeboard
    Arr.RunupTaw2002.iteration_procedure_z2p
  refine raises_bind (bind_raises fun _ => bind_raises fun _ => ?_)
  rw [composite_true _ _ _ composite.1 composite.2, pure_bind, if_pos rfl]
  refine raises_bind (raises_bind ?_)
  rw [PF.sci_eq (m := 1) (s := true) (e := 4)]
  exact iteration_raises _ _ _ _ _ _ _ _ _ _ _ _ _ _ _ (by norm_num) _ (by norm_num) composite.1
    composite.2 finite array

/-- the same for EurOtop (2018) -/
theorem C83_composite_eurotop_runup_raises :
    Raises (Arr.RunupEurOtop2018.calculate_wave_runup_height_z2p Hm0 Tmm10 beta gamma_beta gamma_b gamma_f
      B_berm db cot_alpha cot_alpha_down cot_alpha_up c1 c2 c3 c4 use_best_fit) := by
  unfold Arr.RunupEurOtop2018.calculate_wave_runup_height_z2p
    Arr.RunupEurOtop2018.calculate_dimensionless_wave_runup_height_z2p
    Arr.RunupTaw2002.calculate_dimensionless_wave_runup_height_z2p Arr.RunupTaw2002.diml_depth
    Arr.RunupTaw2002.diml_rec Arr.RunupTaw2002.slope_rec
  refine raises_bind (bind_raises fun _ => bind_raises fun _ => raises_bind ?_)
  rw [composite_true _ _ _ composite.1 composite.2, pure_bind, if_pos rfl]
  refine raises_bind ?_
  rw [PF.sci_eq]
  exact iteration_raises _ _ _ _ _ _ _ _ _ _ _ _ _ _ _ (by norm_num) _ (by norm_num) composite.1
    composite.2 finite array

/-- the same for EurOtop (2018) -/
theorem C83_composite_eurotop_discharge_raises :
    Raises (Arr.OvertoppingEurOtop2018.calculate_overtopping_discharge_q Hm0 Tmm10 Rc beta gamma_beta gamma_b
      gamma_f gamma_v gamma_star B_berm db cot_alpha cot_alpha_down cot_alpha_up c1 c2 c3 c4 use_best_fit
      g) := by
  unfold Arr.OvertoppingEurOtop2018.calculate_overtopping_discharge_q
    Arr.OvertoppingEurOtop2018.calculate_dimensionless_overtopping_discharge_q
    Arr.RunupEurOtop2018.iteration_procedure_z2p Arr.RunupTaw2002.iteration_procedure_z2p
  refine raises_bind (bind_raises fun _ => bind_raises fun _ => ?_)
  rw [composite_true _ _ _ composite.1 composite.2, pure_bind, if_pos rfl]
  refine raises_bind (raises_bind ?_)
  rw [PF.sci_eq (m := 1) (s := true) (e := 4)]
  exact iteration_raises _ _ _ _ _ _ _ _ _ _ _ _ _ _ _ (by norm_num) _ (by norm_num) composite.1
    composite.2 finite array

/-- the same for EurOtop (2018) -/
theorem C83_composite_eurotop_crest_raises :
    Raises (Arr.OvertoppingEurOtop2018.calculate_crest_freeboard_Rc Hm0 Tmm10 q beta gamma_beta gamma_b
      gamma_f gamma_v gamma_star B_berm db cot_alpha cot_alpha_down cot_alpha_up c1 c2 c3 c4 use_best_fit
      g) := by
  unfold Arr.OvertoppingEurOtop2018.calculate_crest_freeboard_Rc
    Arr.OvertoppingEurOtop2018.calculate_dimensionless_crest_freeboard
    Arr.RunupEurOtop2018.iteration_procedure_z2p Arr.RunupTaw2002.iteration_procedure_z2p
  refine raises_bind (bind_raises fun _ => bind_raises fun _ => ?_)
  rw [composite_true _ _ _ composite.1 composite.2, pure_bind, if_pos rfl]
  refine raises_bind (raises_bind ?_)
  rw [PF.sci_eq (m := 1) (s := true) (e := 4)]
  exact iteration_raises _ _ _ _ _ _ _ _ _ _ _ _ _ _ _ (by norm_num) _ (by norm_num) composite.1
    composite.2 finite array

/-- the same for rubble mounds, EurOtop (2018) -/
theorem C83_composite_eurotop_rubble_discharge_raises :
    Raises (Arr.OvertoppingEurOtop2018.calculate_overtopping_discharge_q_rubble_mound Hm0 Tmm10 Rc beta
      gamma_beta gamma_f B_berm db cot_alpha cot_alpha_down cot_alpha_up c2 c3 use_best_fit g) := by
  unfold Arr.OvertoppingEurOtop2018.calculate_overtopping_discharge_q_rubble_mound
    Arr.OvertoppingEurOtop2018.calculate_dimensionless_overtopping_discharge_q_rubble_mound
    Arr.RunupEurOtop2018.iteration_procedure_z2p Arr.RunupTaw2002.iteration_procedure_z2p
  refine raises_bind (bind_raises fun _ => bind_raises fun _ => ?_)
  rw [composite_true _ _ _ composite.1 composite.2, pure_bind, if_pos rfl]
  refine raises_bind (raises_bind ?_)
  rw [PF.sci_eq (m := 1) (s := true) (e := 4)]
  exact iteration_raises _ _ _ _ _ _ _ _ _ _ _ _ _ _ _ (by norm_num) _ (by norm_num) composite.1
    composite.2 finite array

/-- the same for rubble mounds, EurOtop (2018) -/
theorem C83_composite_eurotop_rubble_crest_raises :
    Raises (Arr.OvertoppingEurOtop2018.calculate_crest_freeboard_Rc_rubble_mound Hm0 Tmm10 q beta
      gamma_beta gamma_f B_berm db cot_alpha cot_alpha_down cot_alpha_up c2 c3 use_best_fit g) := by
  unfold Arr.OvertoppingEurOtop2018.calculate_crest_freeboard_Rc_rubble_mound
    Arr.OvertoppingEurOtop2018.calculate_dimensionless_crest_freeboard_rubble_mound
    Arr.RunupEurOtop2018.iteration_procedure_z2p Arr.RunupTaw2002.iteration_procedure_z2p
  refine raises_bind (bind_raises fun _ => bind_raises fun _ => ?_)
  rw [composite_true _ _ _ composite.1 composite.2, pure_bind, if_pos rfl]
  refine raises_bind (raises_bind ?_)
  rw [PF.sci_eq (m := 1) (s := true) (e := 4)]
  exact iteration_raises _ _ _ _ _ _ _ _ _ _ _ _ _ _ _ (by norm_num) _ (by norm_num) composite.1
    composite.2 finite array

end

/-- The case of two wave heights on a dike with a slope of 1 : 3 below and 1 : 4 above a berm. -/
example := C83_composite_taw_runup_raises (n := 2) (.arr ![.fin 1, .fin 2]) (.num (.fin 5)) Val.nan 1.0 Val.nan
  1.0 (.num (.fin 4)) 0.0 Val.nan (.num (.fin 3)) (.num (.fin 4)) 1.75 4.3 1.6 1.0 false
  ⟨fun h => h, fun h => h⟩ (fun i => by fin_cases i <;> exact ⟨_, rfl⟩)
  ⟨.arr ![.fin 1, .fin 2], by simp, rfl⟩
example := C83_composite_eurotop_discharge_raises (n := 2) (.num (.fin 1)) (.num (.fin 5)) (.num (.fin 3)) Val.nan
  1.0 Val.nan 1.0 1.0 1.0 (.num (.fin 4)) 0.0 Val.nan (.arr ![.fin 3, .fin 4]) (.num (.fin 4)) 9.81 2.5 0.1 1.35
  0.026 false ⟨fun h => (h 0).elim, fun h => h⟩ (fun i => ⟨_, rfl⟩) ⟨.arr ![.fin 3, .fin 4], by simp, rfl⟩

end
