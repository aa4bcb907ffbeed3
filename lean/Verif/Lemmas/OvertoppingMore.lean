import Verif.Model.OvertoppingMore
import Verif.Lemmas.OvertoppingEur
import Verif.SpecReal

/-! # Proof support for Van Gent 2021/2025 and De Ridder 2024/2026 overtopping -/

open Classical
open PF CorePhysics CoreUtility
noncomputable section

namespace MoreOvertopping
open TwoFormulas
open OvertoppingTaw2002 (Sc Sc_pos Sc_eval)

theorem rpow_pos' {x y : ℝ} (h : 0 < x) : 0 < x ^ y := Real.rpow_pos_of_pos h y

/-- shifted decay -/
theorem pair {f g : PF → PyM PF} {A k sh S : ℝ} (hA : 0 < A) (hk : 0 < k) (hS : 0 < S)
    (hf : ∀ R, (f (fin R)).res = .ok (fin (E A k (R - sh) * S)))
    (hg : ∀ q, 0 < q → (g (fin q)).res = .ok (fin (L A k (q / S) + sh))) :
    InverseOnReals f g ∧ StrictlyDecreasingOnReals f := by
  constructor
  · refine InverseOnReals.of_real _ _ hf hg (fun x => mul_pos (E_pos hA _ _) hS) (fun x => ?_)
      (fun y hy => ?_)
    · rw [mul_div_cancel_right₀ _ hS.ne', L_E hA hk]; ring
    · rw [add_sub_cancel_right, E_L hA hk (by positivity), div_mul_cancel₀ _ hS.ne']
  · exact StrictlyDecreasingOnReals.of_real _ hf fun x y h =>
      mul_lt_mul_of_pos_right (E_lt hA hk (by linarith)) hS

end MoreOvertopping

namespace DeRidder2024
open TwoFormulas
open OvertoppingTaw2002 (Sc Sc_pos Sc_eval)

theorem check_res (h Hm0 Hm0_HF Hm0_LF Tmm10 Tmm10_HF Rc cot_alpha m D : PF) :
    (check_validity_range h Hm0 Hm0_HF Hm0_LF Tmm10 Tmm10_HF Rc cot_alpha m D).res = .ok () := by
  unfold check_validity_range
  simp

theorem q24_res {H s gf R g : ℝ} (hH : 0 < H) (hs : 0 < s) (hf : 0 < gf) (hg : 0 < g) :
    (calculate_overtopping_discharge_q_eq24 (fin H) (fin s) (fin gf) (fin R) (fin g)).res =
      .ok (fin (E 0.74 (8.51 * s ^ (0.32 : ℝ) / (H * gf)) (R - 0) * Sc g H)) := by
  unfold calculate_overtopping_discharge_q_eq24 calculate_dimensionless_overtopping_discharge_eq24
  dsimp only
  have hm : H * gf ≠ 0 := by positivity
  rw [bind_assoc, PyM.bind_res_of_ok (check_res ..), pure_bind, Sc_eval hg hH, mul_fin, div_fin hm]
  simp only [sci_eq]
  rw [npow_fin_nonneg hs.le (by norm_num)]
  simp only [neg_fin, mul_fin, exp_fin, PyM.pure_def]
  unfold E
  congr 4
  generalize (8.51 : ℝ) = a
  generalize s ^ (0.32 : ℝ) = b
  rw [sub_zero]
  field_simp

theorem R24_res {H s gf q g : ℝ} (hH : 0 < H) (hs : 0 < s) (hf : 0 < gf) (hq : 0 < q) :
    (calculate_crest_freeboard_discharge_q_eq24 (fin H) (fin s) (fin gf) (fin q) (fin g)).res =
      .ok (fin (L 0.74 (8.51 * s ^ (0.32 : ℝ) / (H * gf)) (q / Sc 9.81 H) + 0)) := by
  unfold calculate_crest_freeboard_discharge_q_eq24
    calculate_dimensionless_crest_freeboard_discharge_q_eq24
  dsimp only
  have hS : 0 < Sc 9.81 H := Sc_pos (by norm_num) hH
  have eS : PF.sqrt (9.81 * npow (fin H) 3) = fin (Sc 9.81 H) := Sc_eval (by norm_num) hH
  have hp : 0 < s ^ (0.32 : ℝ) := MoreOvertopping.rpow_pos' hs
  have h7 : (0 : ℝ) < 0.74 := by norm_num
  have h8 : (0 : ℝ) < 8.51 := by norm_num
  rw [bind_assoc, PyM.bind_res_of_ok (check_res ..), pure_bind, eS, div_fin hS.ne',
    log_fin (by positivity)]
  simp only [sci_eq]
  rw [npow_fin_nonneg hs.le (by norm_num), log_fin h7]
  unfold L
  rw [Real.log_div (by positivity) h7.ne']
  generalize Real.log (q / Sc 9.81 H) = l
  generalize Real.log (0.74) = l'
  generalize (8.51 : ℝ) = a at *
  generalize s ^ (0.32 : ℝ) = b at *
  have hm : a * b ≠ 0 := by positivity
  simp only [sub_fin, neg_fin, mul_fin, div_fin hm, PyM.pure_def]
  congr 2
  field_simp
  ring

theorem q26_res {H s gf R g w : ℝ} (hH : 0 < H) (hs : 0 < s) (hf : 0 < gf) (hg : 0 < g) :
    (calculate_overtopping_discharge_q_eq26 (fin H) (fin s) (fin w) (fin gf) (fin R) (fin g)).res =
      .ok (fin (E 0.50 (7.91 * s ^ (0.30 : ℝ) / (H * gf)) (R - 0.21 * w) * Sc g H)) := by
  unfold calculate_overtopping_discharge_q_eq26 calculate_dimensionless_overtopping_discharge_eq26
  dsimp only
  have hm : H * gf ≠ 0 := by positivity
  rw [bind_assoc, PyM.bind_res_of_ok (check_res ..), pure_bind, Sc_eval hg hH]
  simp only [sci_eq]
  rw [npow_fin_nonneg hs.le (by norm_num)]
  simp only [neg_fin, mul_fin, sub_fin, div_fin hm, exp_fin, PyM.pure_def]
  unfold E
  congr 4
  generalize (7.91 : ℝ) = a
  generalize s ^ (0.30 : ℝ) = b
  generalize R - (0.21 : ℝ) * w = r
  field_simp

theorem R26_res {H s gf q g w : ℝ} (hH : 0 < H) (hs : 0 < s) (hf : 0 < gf) (hg : 0 < g) (hq : 0 < q) :
    (calculate_crest_freeboard_discharge_q_eq26 (fin H) (fin s) (fin w) (fin gf) (fin q) (fin g)).res =
      .ok (fin (L 0.50 (7.91 * s ^ (0.30 : ℝ) / (H * gf)) (q / Sc g H) + 0.21 * w)) := by
  unfold calculate_crest_freeboard_discharge_q_eq26
  dsimp only
  have hS : 0 < Sc g H := Sc_pos hg hH
  have hp : 0 < s ^ (0.30 : ℝ) := MoreOvertopping.rpow_pos' hs
  have h7 : (0 : ℝ) < 0.50 := by norm_num
  have h8 : (0 : ℝ) < 7.91 := by norm_num
  rw [PyM.bind_res_of_ok (check_res ..), Sc_eval hg hH, div_fin hS.ne', log_fin (by positivity)]
  simp only [sci_eq]
  rw [npow_fin_nonneg hs.le (by norm_num), log_fin h7]
  unfold L
  rw [Real.log_div (by positivity) h7.ne']
  generalize Real.log (q / Sc g H) = l
  generalize Real.log (0.50) = l'
  generalize (7.91 : ℝ) = a at *
  generalize s ^ (0.30 : ℝ) = b at *
  generalize (0.21 : ℝ) = z
  have hm : a * b ≠ 0 := by positivity
  simp only [sub_fin, neg_fin, mul_fin, add_fin, div_fin hm, PyM.pure_def]
  congr 2
  field_simp

end DeRidder2024

namespace DeRidder2026
open TwoFormulas
open OvertoppingTaw2002 (Sc Sc_pos Sc_eval)

theorem check_res (h Hm0 Hm0_HF Hm0_LF Tmm10 Tmm10_HF Rc D t : PF) :
    (check_validity_range h Hm0 Hm0_HF Hm0_LF Tmm10 Tmm10_HF Rc D t).res = .ok () := by
  unfold check_validity_range
  simp

theorem gamma_eval (t : ℝ) : ∃ r : ℝ, calculate_gamma_beta (fin t) = fin r ∧ 0.35 ≤ r ∧ r ≤ 1 ∧
    calculate_gamma_beta (fin (-t)) = fin r := by
  unfold calculate_gamma_beta
  have h : ∀ t : ℝ, (0.65 : PF) * npow (PF.cos (PF.deg2rad (PF.abs (fin t)))) 2 + 0.35 =
      fin (0.65 * Real.cos (|t| * (Real.pi / 180)) ^ 2 + 0.35) := by
    intro t
    simp only [sci_eq]
    pf_eval [PF.abs, PF.deg2rad, PF.cos, npow_two]
  refine ⟨_, h t, ?_, ?_, ?_⟩
  · have := sq_nonneg (Real.cos (|t| * (Real.pi / 180)))
    norm_num
    exact this
  · have := Real.cos_sq_le_one (|t| * (Real.pi / 180))
    norm_num
    linarith
  · rw [h, abs_neg]

theorem q28_res {H s gf R g r : ℝ} {t : PF} (hH : 0 < H) (hs : 0 < s) (hf : 0 < gf) (hg : 0 < g)
    (hr : 0 < r) (ht : calculate_gamma_beta t = fin r) :
    (calculate_overtopping_discharge_q_eq28 (fin H) (fin s) (fin gf) (fin R) (fin g) t).res =
      .ok (fin (E 0.16 (6.93 * s ^ (0.36 : ℝ) / (H * gf * r)) (R - 0) * Sc g H)) := by
  unfold calculate_overtopping_discharge_q_eq28 calculate_dimensionless_overtopping_discharge_eq28
  dsimp only
  have hm : H * gf * r ≠ 0 := by positivity
  rw [bind_assoc, PyM.bind_res_of_ok (check_res ..), pure_bind, Sc_eval hg hH, ht, mul_fin, mul_fin,
    div_fin hm]
  simp only [sci_eq]
  rw [npow_fin_nonneg hs.le (by norm_num)]
  simp only [neg_fin, mul_fin, exp_fin, PyM.pure_def]
  unfold E
  congr 4
  generalize (6.93 : ℝ) = a
  generalize s ^ (0.36 : ℝ) = b
  rw [sub_zero]
  field_simp

theorem R28_res {H s gf q g r : ℝ} {t : PF} (hH : 0 < H) (hs : 0 < s) (hf : 0 < gf) (hg : 0 < g)
    (hr : 0 < r) (ht : calculate_gamma_beta t = fin r) (hq : 0 < q) :
    (calculate_crest_freeboard_discharge_q_eq28 (fin H) (fin s) (fin gf) (fin q) (fin g) t).res =
      .ok (fin (L 0.16 (6.93 * s ^ (0.36 : ℝ) / (H * gf * r)) (q / Sc g H) + 0)) := by
  unfold calculate_crest_freeboard_discharge_q_eq28
    calculate_dimensionless_crest_freeboard_discharge_q_eq28
  dsimp only
  have hS : 0 < Sc g H := Sc_pos hg hH
  have hp : 0 < s ^ (0.36 : ℝ) := MoreOvertopping.rpow_pos' hs
  have h7 : (0 : ℝ) < 0.16 := by norm_num
  have h8 : (0 : ℝ) < 6.93 := by norm_num
  rw [Sc_eval hg hH, ht, div_fin hS.ne', log_fin (by positivity)]
  simp only [sci_eq]
  rw [npow_fin_nonneg hs.le (by norm_num), log_fin h7]
  unfold L
  rw [Real.log_div (by positivity) h7.ne']
  generalize Real.log (q / Sc g H) = l
  generalize Real.log (0.16) = l'
  generalize (6.93 : ℝ) = a at *
  generalize s ^ (0.36 : ℝ) = b at *
  have hm : a * b ≠ 0 := by positivity
  simp only [sub_fin, neg_fin, mul_fin, div_fin hm, PyM.pure_def]
  congr 2
  field_simp
  ring

theorem q32_res {H s gf R g r w : ℝ} {t : PF} (hH : 0 < H) (hs : 0 < s) (hf : 0 < gf) (hg : 0 < g)
    (hr : 0 < r) (ht : calculate_gamma_beta t = fin r) :
    (calculate_overtopping_discharge_q_eq32 (fin H) (fin s) (fin w) (fin gf) (fin R) (fin g) t).res =
      .ok (fin (E 0.05 (10.40 * s ^ (0.50 : ℝ) / (H * gf * r)) (R - 0.97 * w) * Sc g H)) := by
  unfold calculate_overtopping_discharge_q_eq32 calculate_dimensionless_overtopping_discharge_eq32
  dsimp only
  have hm : gf * r ≠ 0 := by positivity
  rw [bind_assoc, PyM.bind_res_of_ok (check_res ..), pure_bind, Sc_eval hg hH, ht, mul_fin, one_eq,
    div_fin hm]
  simp only [sci_eq]
  rw [npow_fin_nonneg hs.le (by norm_num)]
  simp only [neg_fin, mul_fin, sub_fin, div_fin hH.ne', exp_fin, PyM.pure_def]
  unfold E
  congr 4
  generalize (10.40 : ℝ) = a
  generalize s ^ (0.50 : ℝ) = b
  generalize R - (0.97 : ℝ) * w = r
  field_simp

theorem R32_res {H s gf q g r w : ℝ} {t : PF} (hH : 0 < H) (hs : 0 < s) (hf : 0 < gf) (hg : 0 < g)
    (hr : 0 < r) (ht : calculate_gamma_beta t = fin r) (hq : 0 < q) :
    (calculate_crest_freeboard_discharge_q_eq32 (fin H) (fin s) (fin w) (fin gf) (fin q) (fin g)
      t).res = .ok (fin (L 0.05 (10.40 * s ^ (0.50 : ℝ) / (H * gf * r)) (q / Sc g H) + 0.97 * w)) := by
  unfold calculate_crest_freeboard_discharge_q_eq32
  dsimp only
  have hS : 0 < Sc g H := Sc_pos hg hH
  have hp : 0 < s ^ (0.50 : ℝ) := MoreOvertopping.rpow_pos' hs
  have h7 : (0 : ℝ) < 0.05 := by norm_num
  have h8 : (0 : ℝ) < 10.40 := by norm_num
  have hr' : gf * r ≠ 0 := by positivity
  rw [Sc_eval hg hH, ht, div_fin hS.ne', log_fin (by positivity), mul_fin, one_eq, div_fin hr']
  simp only [sci_eq]
  rw [npow_fin_nonneg hs.le (by norm_num), log_fin h7]
  unfold L
  rw [Real.log_div (by positivity) h7.ne']
  generalize Real.log (q / Sc g H) = l
  generalize Real.log (0.05) = l'
  generalize (10.40 : ℝ) = a at *
  generalize s ^ (0.50 : ℝ) = b at *
  generalize (0.97 : ℝ) = z
  have hm : a * b * (1 / (gf * r)) ≠ 0 := by positivity
  simp only [sub_fin, neg_fin, mul_fin, add_fin, div_fin hm, PyM.pure_def]
  congr 2
  field_simp

end DeRidder2026

namespace VanGent2021Caisson
open TwoFormulas
open OvertoppingTaw2002 (Sc Sc_pos Sc_eval)

theorem check_res (H T b R q : PF) : (check_validity_range H T b R q).res = .ok () := by
  unfold check_validity_range
  simp

theorem e1 : (1.0 : PF) = fin 1 := by rw [sci_eq]; norm_num

/-- the coefficients of the supported options -/
theorem coeff_one {sc cs pp : Bool} (h : sc = true ∨ cs = true ∨ pp = false) :
    ∃ b cb gp : ℝ, 0 < b ∧ 0 < cb ∧ cb < gp ∧ determine_coefficients 1.0 sc cs pp =
      pure (fin 0.2, fin b, fin cb, fin gp) := by
  have he : PF.eqF (1.0 : PF) 1.0 := by rw [e1, eqF_fin]
  unfold determine_coefficients
  rw [if_pos he]
  simp only [sci_eq]
  rcases sc with _ | _ <;> rcases cs with _ | _ <;> rcases pp with _ | _ <;>
    first
    | (exfalso; simp at h; done)
    | (refine ⟨_, _, _, ?_, ?_, ?_, rfl⟩ <;> norm_num)

theorem coeff_13 {sc cs pp : Bool} (h : sc = true ∨ cs = true ∨ pp = false) :
    ∃ b cb gp : ℝ, 0 < b ∧ 0 < cb ∧ cb < gp ∧ determine_coefficients 1.3 sc cs pp =
      pure (fin 0.047, fin b, fin cb, fin gp) := by
  have he : ¬ PF.eqF (1.3 : PF) 1.0 := by rw [e1, sci_eq, eqF_fin]; norm_num
  have he' : PF.eqF (1.3 : PF) 1.3 := by rw [sci_eq, eqF_fin]
  unfold determine_coefficients
  rw [if_neg he, if_pos he']
  simp only [sci_eq]
  rcases sc with _ | _ <;> rcases cs with _ | _ <;> rcases pp with _ | _ <;>
    first
    | (exfalso; simp at h; done)
    | (refine ⟨_, _, _, ?_, ?_, ?_, rfl⟩ <;> norm_num)

/-- the effective swell shift -/
theorem swell_res {cw w : ℝ} (cs : Bool) : swell_coefficient (fin cw) (fin w) cs =
    pure (fin (if cs then cw else 0)) := by
  unfold swell_coefficient
  cases cs
  · simp only [Bool.not_false, ↓reduceIte, Bool.false_eq_true]
    rw [sci_eq]; norm_num
  · simp

theorem oblique_eval {cb gp b : ℝ} (hg : gp ≠ 0) :
    calculate_influence_oblique_waves_gamma_beta (fin b) (fin gp) (fin cb) =
      fin ((1 - cb / gp) * Real.cos (b * (Real.pi / 180)) ^ 2 + cb / gp) := by
  unfold calculate_influence_oblique_waves_gamma_beta
  rw [div_fin hg]
  pf_eval [PF.deg2rad, PF.cos, npow_two]

theorem oblique_bounds {cb gp b : ℝ} (h0 : 0 < cb) (h : cb < gp) :
    cb / gp ≤ (1 - cb / gp) * Real.cos (b * (Real.pi / 180)) ^ 2 + cb / gp ∧
    (1 - cb / gp) * Real.cos (b * (Real.pi / 180)) ^ 2 + cb / gp ≤ 1 ∧ 0 < cb / gp := by
  have hg : 0 < gp := h0.trans h
  have h1 : cb / gp < 1 := (div_lt_one hg).mpr h
  have h2 : 0 < cb / gp := by positivity
  have h3 := sq_nonneg (Real.cos (b * (Real.pi / 180)))
  have h4 := Real.cos_sq_le_one (b * (Real.pi / 180))
  generalize cb / gp = r at *
  generalize Real.cos (b * (Real.pi / 180)) ^ 2 = c at *
  refine ⟨?_, ?_, h2⟩ <;> nlinarith

/-- the factor given, or that of an angle -/
def Factor (beta gB : PF) : Prop := (∃ r : ℝ, gB = fin r ∧ 0 < r) ∨ (gB = nan ∧ ∃ b : ℝ, beta = fin b)

theorem factor_pos {beta gB : PF} {cb gp : ℝ} (h : Factor beta gB) (h0 : 0 < cb) (h1 : cb < gp) :
    ∃ r : ℝ, 0 < r ∧ (if gB.isnan then
      calculate_influence_oblique_waves_gamma_beta beta (fin gp) (fin cb) else gB) = fin r := by
  rcases h with ⟨r, rfl, hr⟩ | ⟨rfl, b, rfl⟩
  · exact ⟨r, hr, by simp⟩
  · have hb := oblique_bounds (b := b) h0 h1
    refine ⟨_, lt_of_lt_of_le hb.2.2 hb.1, ?_⟩
    rw [oblique_eval (h0.trans h1).ne']
    simp

theorem pow_one (x : ℝ) : npow (fin x) 1.0 = fin x := by
  have := npow_nat x 1
  rw [e1]
  simpa using this
theorem inv_one : (1.0 / 1.0 : PF) = 1.0 := by
  rw [e1, div_fin one_ne_zero]; norm_num

/-- the discharge for given coefficients -/
theorem q_gen {H R w cw g a b cb gp r : ℝ} {beta gB c : PF} {sc cs pp : Bool} (hH : 0 < H) (hg : 0 < g)
    (hc : determine_coefficients c sc cs pp = pure (fin a, fin b, fin cb, fin gp))
    (hr : (if gB.isnan then
      calculate_influence_oblique_waves_gamma_beta beta (fin gp) (fin cb) else gB) = fin r)
    (hr0 : 0 < r) (hp : 0 < gp) :
    (calculate_overtopping_discharge_q (fin H) (fin R) beta gB (fin w) c (fin cw) sc cs pp
      (fin g)).res = .ok (fin a * PF.exp (-(fin (b / (r * gp))) *
        npow (fin ((R - (if cs then cw else 0) * w) / H)) c) * fin (Sc g H)) := by
  unfold calculate_overtopping_discharge_q calculate_dimensionless_overtopping_discharge_q
  dsimp only
  rw [hc, pure_bind, swell_res, pure_bind]
  dsimp only
  rw [hr, bind_assoc, PyM.bind_res_of_ok (check_res ..), pure_bind, Sc_eval hg hH]
  rw [mul_fin, mul_fin, sub_fin, div_fin hH.ne', div_fin (by positivity : r * gp ≠ 0)]
  rfl

theorem R_gen {H q w cw g a b cb gp r : ℝ} {beta gB c : PF} {sc cs pp : Bool} (hH : 0 < H) (hg : 0 < g)
    (hq : 0 < q)
    (hc : determine_coefficients c sc cs pp = pure (fin a, fin b, fin cb, fin gp))
    (hr : (if gB.isnan then
      calculate_influence_oblique_waves_gamma_beta beta (fin gp) (fin cb) else gB) = fin r)
    (ha : 0 < a) (hb : 0 < b) :
    (calculate_crest_freeboard_Rc (fin H) (fin q) beta gB (fin w) c (fin cw) sc cs pp (fin g)).res =
      .ok ((npow (fin (Real.log (q / Sc g H * (1 / a)) * (-r * gp / b))) (1.0 / c) +
        fin ((if cs then cw else 0) * w / H)) * fin H) := by
  unfold calculate_crest_freeboard_Rc calculate_dimensionless_crest_freeboard
  dsimp only
  have hS : 0 < Sc g H := Sc_pos hg hH
  have e3 : (3.0 : PF) = 3 := by rw [sci_eq, ofNat_eq]; norm_num
  rw [hc, pure_bind, swell_res, pure_bind]
  dsimp only
  have hl : PF.log (fin q / (fin g * npow (fin H) 3.0).sqrt * (1.0 / fin a)) =
      fin (Real.log (q / Sc g H * (1 / a))) := by
    rw [e3, Sc_eval hg hH, div_fin hS.ne', e1, div_fin ha.ne', mul_fin, log_fin (by positivity)]
  rw [hr, bind_assoc, PyM.bind_res_of_ok (check_res ..), pure_bind, hl]
  rw [neg_fin, mul_fin, div_fin hb.ne', mul_fin, mul_fin, div_fin hH.ne']
  rfl

end VanGent2021Caisson

namespace VanGent2025
open TwoFormulas
open OvertoppingTaw2002 (Sc Sc_pos Sc_eval)
open VanGent2021Caisson (e1)

theorem check_res (a b c d e f g h i j k l : PF) :
    (check_validity_range a b c d e f g h i j k l).res = .ok () := by
  unfold check_validity_range
  simp

theorem oblique_eval (b c : ℝ) : calculate_influence_oblique_waves_gamma_beta (fin b) (fin c) =
    fin ((1 - c) * Real.cos (b * (Real.pi / 180)) ^ 2 + c) := by
  unfold calculate_influence_oblique_waves_gamma_beta
  pf_eval [PF.deg2rad, PF.cos, npow_two]

/-- the oblique-wave factor: given, or computed from an angle -/
def ObliqueOk (beta gB : PF) : Prop :=
  (∃ r : ℝ, gB = fin r ∧ 0 < r) ∨ (gB = nan ∧ ∃ b : ℝ, beta = fin b)
/-- the berm factor: given, or no berm below the armour crest -/
def BermOk (Ac B db gb : PF) : Prop :=
  (∃ r : ℝ, gb = fin r ∧ 0 < r) ∨
    (gb = nan ∧ B = 0.0 ∧ ∃ a d : ℝ, Ac = fin a ∧ db = fin d ∧ 0 < a ∧ d ≤ a)
/-- the friction factor: given, or computed from stones not larger than the wave height -/
def FrictionOk (H : ℝ) (D gf : PF) : Prop :=
  (∃ r : ℝ, gf = fin r ∧ 0 < r) ∨ (gf = nan ∧ ∃ d : ℝ, D = fin d ∧ 0 < d ∧ d ≤ H)

theorem oblique_ok {beta gB : PF} (h : ObliqueOk beta gB) : ∃ r : ℝ, 0 < r ∧
    (if gB.isnan then calculate_influence_oblique_waves_gamma_beta beta else gB) = fin r := by
  rcases h with ⟨r, rfl, hr⟩ | ⟨rfl, b, rfl⟩
  · exact ⟨r, hr, by simp⟩
  · refine ⟨_, ?_, by rw [if_pos (show nan.isnan from trivial), sci_eq, oblique_eval]⟩
    have := sq_nonneg (Real.cos (b * (Real.pi / 180)))
    have h35 : (0 : ℝ) < 0.35 := by norm_num
    have h65 : (0 : ℝ) ≤ 1 - 0.35 := by norm_num
    positivity

theorem steep_eval {H T : ℝ} (hT : 0 < T) (hH : 0 < H) : ∃ s : ℝ, 0 < s ∧
    calculate_wave_steepness_s (fin H) (fin T) = fin s := by
  refine ⟨(2 * Real.pi / 9.81) * (H / T ^ 2), ?_, ?_⟩
  · have : (0 : ℝ) < 9.81 := by norm_num
    have := Real.pi_pos
    positivity
  · unfold calculate_wave_steepness_s
    have h9 : (9.81 : ℝ) ≠ 0 := by norm_num
    rw [sci_eq]
    pf_eval [PF.pi, npow_two]
    generalize (9.81 : ℝ) = g at *
    field_simp

theorem berm_ok {H T : ℝ} {Ac B db gb : PF} (hH : 0 < H) (hT : 0 < T) (h : BermOk Ac B db gb) :
    ∃ r : ℝ, 0 < r ∧ (if gb.isnan then
      calculate_influence_berm_gamma_b (Hm0 := fin H)
        (smm10 := calculate_wave_steepness_s (fin H) (fin T)) (Ac := Ac) (B_berm := B)
        (BL := Ac - db)
    else gb) = fin r := by
  rcases h with ⟨r, rfl, hr⟩ | ⟨rfl, rfl, a, d, rfl, rfl, ha, hd⟩
  · exact ⟨r, hr, by simp⟩
  · refine ⟨1, one_pos, ?_⟩
    obtain ⟨s, hs, es⟩ := steep_eval hT hH
    rw [es]
    have h0 : (0.0 : PF) = fin 0 := by rw [sci_eq]; norm_num
    have hp : s * a ≠ 0 := by positivity
    have hx : 0 ≤ (a - d) / (s * a) := div_nonneg (by linarith) (by positivity)
    unfold calculate_influence_berm_gamma_b
    rw [h0]
    have h1 : npow (fin s * fin 0 / fin H) 1.3 = fin 0 := by
      rw [mul_fin, mul_zero, div_fin hH.ne', zero_div, sci_eq, npow_fin_nonneg le_rfl (by norm_num),
        Real.zero_rpow (by norm_num)]
    have h2 : npow ((fin a - fin d) / (fin s * fin a)) 0.2 = fin (((a - d) / (s * a)) ^ (0.2 : ℝ)) := by
      rw [sub_fin, mul_fin, div_fin hp, sci_eq, npow_fin_nonneg hx (by norm_num)]
    simp only [isnan_nan, if_true, ↓reduceIte]
    rw [h1, h2, e1]
    simp only [sci_eq, mul_fin, sub_fin, mul_zero, zero_mul, sub_zero]

theorem friction_ok {H T : ℝ} {D gf : PF} (hH : 0 < H) (hT : 0 < T) (h : FrictionOk H D gf) :
    ∃ r : ℝ, 0 < r ∧ friction_or_raise (fin H) (fin T) D gf = pure (fin r) := by
  unfold friction_or_raise
  rcases h with ⟨r, rfl, hr⟩ | ⟨rfl, d, rfl, hd, hdH⟩
  · exact ⟨r, hr, by simp⟩
  · obtain ⟨s, hs, es⟩ := steep_eval hT hH
    rw [es]
    simp only [isnan_nan, if_true, ↓reduceIte, isnan_fin, if_false]
    unfold calculate_influence_friction_gamma_f
    have hx : 0 < d / H := by positivity
    have h1 : (d / H) ^ (0.05 : ℝ) ≤ 1 := Real.rpow_le_one hx.le ((div_le_one hH).mpr hdH) (by norm_num)
    have h0 : 0 < (d / H) ^ (0.05 : ℝ) := Real.rpow_pos_of_pos hx _
    have e : (1.0 : PF) - 0.70 * npow (fin d / fin H) 0.05 = fin (1 - 0.70 * (d / H) ^ (0.05 : ℝ)) := by
      rw [e1, div_fin hH.ne']
      simp only [sci_eq]
      rw [npow_fin_nonneg hx.le (by norm_num), mul_fin, sub_fin]
    dsimp only
    rw [e, e1]
    simp only [sci_eq, mul_fin, sub_fin, add_fin]
    have hg : 0 < 1 - 0.70 * (d / H) ^ (0.05 : ℝ) := by
      generalize (d / H) ^ (0.05 : ℝ) = x at *
      norm_num; linarith
    have hg1 : 0 < 1 - (1 - 0.70 * (d / H) ^ (0.05 : ℝ)) := by
      generalize (d / H) ^ (0.05 : ℝ) = x at *
      norm_num; linarith
    by_cases hc : fin s ≥ fin 0.012
    · rw [whr_true hc]
      exact ⟨_, hg, rfl⟩
    · rw [whr_false hc]
      refine ⟨_, ?_, rfl⟩
      rw [ge_iff_le, le_fin, not_le] at hc
      generalize 1 - 0.70 * (d / H) ^ (0.05 : ℝ) = x at *
      have : (0 : ℝ) < 0.012 - s := by linarith
      have h12 : (0 : ℝ) < 12.0 := by norm_num
      positivity

/-- what the two formulas and the options make of the evaluated factors -/
def A1 (c : ℝ) : ℝ := 6.8 / c
def A2 (c : ℝ) : ℝ := 0.8 / c
def k1 (H G x : ℝ) : ℝ := 5 / (G * x * H)
def k2 (H G x : ℝ) : ℝ := 2.5 / (G * x ^ (0.24 : ℝ) * H)
def Q (H c G x r : ℝ) : ℝ := E (A1 c) (k1 H G x) r ⊓ E (A2 c) (k2 H G x) r

theorem A1_pos {c : ℝ} (h : 0 < c) : 0 < A1 c := by unfold A1; exact div_pos (by norm_num) h
theorem A2_pos {c : ℝ} (h : 0 < c) : 0 < A2 c := by unfold A2; exact div_pos (by norm_num) h
theorem k1_pos {H G x : ℝ} (hH : 0 < H) (hG : 0 < G) (hx : 0 < x) : 0 < k1 H G x := by
  unfold k1; positivity
theorem k2_pos {H G x : ℝ} (hH : 0 < H) (hG : 0 < G) (hx : 0 < x) : 0 < k2 H G x := by
  have := MoreOvertopping.rpow_pos' (y := 0.24) hx
  unfold k2; exact div_pos (by norm_num) (by positivity)
theorem Q_pos {H c G x : ℝ} (hc : 0 < c) (r : ℝ) : 0 < Q H c G x r :=
  lt_inf_iff.mpr ⟨E_pos (A1_pos hc) _ _, E_pos (A2_pos hc) _ _⟩

theorem flag_eval (a b : ℝ) : decide (PF.eqF (PF.min (fin a) (fin b)) (fin b)) = decide (b ≤ a) := by
  rw [min_fin, eqF_fin, inf_eq_right]

theorem inv_eval {c : ℝ} (hc : 0 < c) : npow (fin c) (-1.0) = fin (1 / c) := by
  rw [e1, neg_fin, npow_fin hc, Real.rpow_neg_one, one_div]

theorem q1_eval {H w c x R gf gb gv gB : ℝ} (hH : 0 < H) (hc : 0 < c) (hx : 0 < x) (hf : 0 < gf)
    (hb : 0 < gb) (hv : 0 < gv) (hB : 0 < gB) :
    6.8 * npow (fin c) (-1.0) * PF.exp (-5.0 * (fin R - 0.4 * fin w)
        / (fin gf * fin gb * fin gv * fin gB * fin x * fin H)) =
      fin (E (A1 c) (k1 H (gf * gb * gv * gB) x) (R - 0.4 * w)) := by
  have e5 : (5.0 : PF) = fin 5 := by rw [sci_eq]; norm_num
  have hm : gf * gb * gv * gB * x * H ≠ 0 := by positivity
  rw [inv_eval hc, e5]
  simp only [sci_eq]
  simp only [mul_fin, sub_fin, neg_fin, div_fin hm, exp_fin]
  unfold E A1 k1
  generalize (6.8 : ℝ) = z
  generalize R - (0.4 : ℝ) * w = y
  congr 1
  field_simp

theorem q2_eval {H w c x R gf gb gv gB : ℝ} (hH : 0 < H) (hc : 0 < c) (hx : 0 < x) (hf : 0 < gf)
    (hb : 0 < gb) (hv : 0 < gv) (hB : 0 < gB) :
    q_diml_max_equation (fin H) (fin w) (fin x) (fin c) (fin R) (fin gf) (fin gb) (fin gv) (fin gB) =
      fin (E (A2 c) (k2 H (gf * gb * gv * gB) x) (R - 0.4 * w)) := by
  have hp := MoreOvertopping.rpow_pos' (y := 0.24) hx
  unfold q_diml_max_equation E A2 k2
  rw [inv_eval hc]
  simp only [sci_eq]
  rw [npow_fin hx]
  generalize x ^ (0.24 : ℝ) = p at *
  have hm : gf * gb * gv * gB * p * H ≠ 0 := by positivity
  simp only [mul_fin, sub_fin, neg_fin, div_fin hm, exp_fin]
  generalize (0.8 : ℝ) = z
  generalize (2.5 : ℝ) = z'
  generalize R - (0.4 : ℝ) * w = y
  congr 1
  field_simp

theorem R1_eval {H w c x y gf gb gv gB : ℝ} (hH : 0 < H) (hc : 0 < c) (hx : 0 < x) (hf : 0 < gf)
    (hb : 0 < gb) (hv : 0 < gv) (hB : 0 < gB) (hy : 0 < y) :
    Rc_diml_eqB1 (fin H) (fin w) (fin y) (fin c) (fin x) (fin gf) (fin gb) (fin gv) (fin gB) =
      fin ((L (A1 c) (k1 H (gf * gb * gv * gB) x) y + 0.4 * w) / H) := by
  have e5 : (5.0 : PF) = fin 5 := by rw [sci_eq]; norm_num
  have h68 : (0 : ℝ) < 6.8 := by norm_num
  unfold Rc_diml_eqB1 L A1 k1
  have hl : PF.log ((1.0 / 6.8) * fin c * fin y) = fin (Real.log (y / (6.8 / c))) := by
    rw [e1, sci_eq]
    generalize (6.8 : ℝ) = z at *
    rw [div_fin h68.ne', mul_fin, mul_fin, log_fin (by positivity)]
    congr 2
    field_simp
  rw [hl, e1, e5]
  generalize Real.log (y / (6.8 / c)) = l
  have h5 : (5 : ℝ) ≠ 0 := by norm_num
  simp only [sci_eq]
  simp only [mul_fin, neg_fin, div_fin h5, div_fin hH.ne', add_fin]
  generalize (0.4 : ℝ) = z'
  congr 1
  field_simp

theorem R2_eval {H w c x q gf gb gv gB : ℝ} (hH : 0 < H) (hc : 0 < c) (hx : 0 < x) (hf : 0 < gf)
    (hb : 0 < gb) (hv : 0 < gv) (hB : 0 < gB) (hq : 0 < q) :
    Rc_diml_max_equation (fin H) (fin w) (fin q) (fin c) (fin x) (fin gf) (fin gb) (fin gv) (fin gB) =
      fin ((L (A2 c) (k2 H (gf * gb * gv * gB) x) (q / Sc 9.81 H) + 0.4 * w) / H) := by
  have h08 : (0 : ℝ) < 0.8 := by norm_num
  have hS : 0 < Sc 9.81 H := Sc_pos (by norm_num) hH
  have eS : PF.sqrt (9.81 * npow (fin H) 3) = fin (Sc 9.81 H) := Sc_eval (by norm_num) hH
  have hp := MoreOvertopping.rpow_pos' (y := 0.24) hx
  unfold Rc_diml_max_equation L A2 k2
  rw [eS]
  generalize Sc 9.81 H = S at *
  have hl : PF.log ((1.0 / 0.8) * fin c * fin q / fin S) = fin (Real.log (q / S / (0.8 / c))) := by
    rw [e1, sci_eq]
    generalize (0.8 : ℝ) = z at *
    rw [div_fin h08.ne', mul_fin, mul_fin, div_fin hS.ne', log_fin (by positivity)]
    congr 2
    field_simp
  rw [hl, e1]
  generalize Real.log (q / S / (0.8 / c)) = l
  simp only [sci_eq]
  rw [npow_fin hx]
  generalize x ^ (0.24 : ℝ) = p at *
  have h5 : (-2.5 : ℝ) ≠ 0 := by norm_num
  have h5' : (2.5 : ℝ) ≠ 0 := by norm_num
  simp only [mul_fin, neg_fin, div_fin h5, div_fin hH.ne', add_fin]
  generalize (0.4 : ℝ) = z'
  generalize (2.5 : ℝ) = z at *
  congr 1
  field_simp

/-- everything a call without wind needs -/
structure Ok (H T c gv : ℝ) (Ac beta B db D gf' gb' gB' : PF) : Prop where
  hH : 0 < H
  hT : 0 < T
  hc : 0 < c
  hv : 0 < gv
  f : FrictionOk H D gf'
  b : BermOk Ac B db gb'
  o : ObliqueOk beta gB'

/-- both calculations for given values of the factors -/
theorem both_eval {H T c gv gf gb gB : ℝ} {Ac beta B db D gf' gb' gB' : PF} (hH : 0 < H) (hT : 0 < T)
    (hc : 0 < c) (hv : 0 < gv) (hf : 0 < gf) (hb : 0 < gb) (hB : 0 < gB)
    (ef : friction_or_raise (fin H) (fin T) D gf' = pure (fin gf))
    (eb : (if gb'.isnan then calculate_influence_berm_gamma_b (Hm0 := fin H)
        (smm10 := calculate_wave_steepness_s (fin H) (fin T)) (Ac := Ac) (B_berm := B)
        (BL := Ac - db) else gb') = fin gb)
    (eB : (if gB'.isnan then calculate_influence_oblique_waves_gamma_beta beta else gB') = fin gB) :
    (∀ (R w g : ℝ) (dc : Bool), 0 < g →
      (calculate_overtopping_discharge_q (fin H) (fin w) (fin T) (fin R) Ac (fin c) beta B db D gf' gb'
        (fin gv) gB' (fin g) dc false).res =
      .ok (fin ((if dc then Q H c (gf * gb * gv * gB) (VdMProof.xi H T c) (R - 0.4 * w) ^ (0.857 : ℝ) else Q H c (gf * gb * gv * gB) (VdMProof.xi H T c) (R - 0.4 * w)) *
          Sc g H),
        decide (E (A2 c) (k2 H (gf * gb * gv * gB) (VdMProof.xi H T c)) (R - 0.4 * w) ≤ E (A1 c) (k1 H (gf * gb * gv * gB) (VdMProof.xi H T c)) (R - 0.4 * w)))) ∧
    (∀ (q w : ℝ) (dc : Bool), 0 < q →
      (calculate_crest_freeboard_Rc (fin H) (fin w) (fin T) (fin q) Ac (fin c) beta B db D gf' gb'
        (fin gv) gB' dc false).res =
      .ok (fin (L (A1 c) (k1 H (gf * gb * gv * gB) (VdMProof.xi H T c)) (if dc then (q / Sc 9.81 H) ^ (1 / 0.857 : ℝ) else q / Sc 9.81 H) ⊓
          L (A2 c) (k2 H (gf * gb * gv * gB) (VdMProof.xi H T c)) (q / Sc 9.81 H) + 0.4 * w),
        decide (L (A2 c) (k2 H (gf * gb * gv * gB) (VdMProof.xi H T c)) (q / Sc 9.81 H) ≤
          L (A1 c) (k1 H (gf * gb * gv * gB) (VdMProof.xi H T c)) (if dc then (q / Sc 9.81 H) ^ (1 / 0.857 : ℝ) else q / Sc 9.81 H)))) := by
  have hx := VdMProof.xi_pos hH hT hc
  have ex := VdMProof.xi_eval hH hT hc
  have eS : PF.sqrt (9.81 * npow (fin H) 3) = fin (Sc 9.81 H) := Sc_eval (by norm_num) hH
  have hS : 0 < Sc 9.81 H := Sc_pos (by norm_num) hH
  refine ⟨?_, ?_⟩
  · intro R w g dc hg
    unfold calculate_overtopping_discharge_q calculate_dimensionless_overtopping_discharge_q
    dsimp only
    rw [eB, eb, ex, ef, pure_bind, bind_assoc, PyM.bind_res_of_ok (check_res ..), pure_bind,
      q1_eval hH hc hx hf hb hv hB, q2_eval hH hc hx hf hb hv hB, flag_eval, min_fin, Sc_eval hg hH]
    simp only [Bool.false_eq_true, if_false]
    rw [PyM.pure_def]
    have hQ := Q_pos (H := H) (G := gf * gb * gv * gB) (x := VdMProof.xi H T c) hc (R - 0.4 * w)
    cases dc
    · simp only [Bool.false_eq_true, if_false, mul_fin]; rfl
    · simp only [if_true, sci_eq]
      rw [npow_fin (by exact hQ), mul_fin]; rfl
  · intro q w dc hq
    unfold calculate_crest_freeboard_Rc calculate_dimensionless_crest_freeboard
    dsimp only
    rw [eB, eb, ex, ef, pure_bind, bind_assoc, PyM.bind_res_of_ok (check_res ..), pure_bind, eS,
      div_fin hS.ne', R2_eval hH hc hx hf hb hv hB hq]
    have hy : 0 < q / Sc 9.81 H := by positivity
    have ey : (if dc = true then npow (fin (q / Sc 9.81 H)) (1.0 / 0.857) else fin (q / Sc 9.81 H)) =
        fin (if dc then (q / Sc 9.81 H) ^ (1 / 0.857 : ℝ) else q / Sc 9.81 H) := by
      cases dc
      · simp
      · have e8 : (1.0 / 0.857 : PF) = fin (1 / 0.857) := by
          rw [e1, sci_eq, div_fin (by norm_num)]
        simp only [if_true, e8]
        rw [npow_fin hy]
    have hy' : 0 < (if dc then (q / Sc 9.81 H) ^ (1 / 0.857 : ℝ) else q / Sc 9.81 H) := by
      split_ifs
      · exact Real.rpow_pos_of_pos hy _
      · exact hy
    rw [ey]
    generalize (if dc then (q / Sc 9.81 H) ^ (1 / 0.857 : ℝ) else q / Sc 9.81 H) = y at *
    rw [R1_eval hH hc hx hf hb hv hB hy', if_neg (by simp), min_fin, flag_eval, PyM.pure_def]
    generalize L (A1 c) (k1 H (gf * gb * gv * gB) (VdMProof.xi H T c)) y = a
    generalize L (A2 c) (k2 H (gf * gb * gv * gB) (VdMProof.xi H T c)) (q / Sc 9.81 H) = b
    generalize (0.4 : ℝ) * w = z
    dsimp only
    rw [mul_fin]
    congr 2
    · congr 1
      rcases le_total a b with h | h
      · rw [inf_eq_left.mpr h, inf_eq_left.mpr (by gcongr)]; field_simp
      · rw [inf_eq_right.mpr h, inf_eq_right.mpr (by gcongr)]; field_simp
    · apply decide_eq_decide.mpr
      rw [le_inf_iff, div_le_div_iff_of_pos_right hH]
      simp

theorem both {H T c gv : ℝ} {Ac beta B db D gf' gb' gB' : PF}
    (X : Ok H T c gv Ac beta B db D gf' gb' gB') : ∃ G x : ℝ, 0 < G ∧ 0 < x ∧
    (∀ (R w g : ℝ) (dc : Bool), 0 < g →
      (calculate_overtopping_discharge_q (fin H) (fin w) (fin T) (fin R) Ac (fin c) beta B db D gf' gb'
        (fin gv) gB' (fin g) dc false).res =
      .ok (fin ((if dc then Q H c G x (R - 0.4 * w) ^ (0.857 : ℝ) else Q H c G x (R - 0.4 * w)) *
          Sc g H),
        decide (E (A2 c) (k2 H G x) (R - 0.4 * w) ≤ E (A1 c) (k1 H G x) (R - 0.4 * w)))) ∧
    (∀ (q w : ℝ) (dc : Bool), 0 < q →
      (calculate_crest_freeboard_Rc (fin H) (fin w) (fin T) (fin q) Ac (fin c) beta B db D gf' gb'
        (fin gv) gB' dc false).res =
      .ok (fin (L (A1 c) (k1 H G x) (if dc then (q / Sc 9.81 H) ^ (1 / 0.857 : ℝ) else q / Sc 9.81 H) ⊓
          L (A2 c) (k2 H G x) (q / Sc 9.81 H) + 0.4 * w),
        decide (L (A2 c) (k2 H G x) (q / Sc 9.81 H) ≤
          L (A1 c) (k1 H G x) (if dc then (q / Sc 9.81 H) ^ (1 / 0.857 : ℝ) else q / Sc 9.81 H)))) := by
  obtain ⟨hH, hT, hc, hv, f, b, o⟩ := X
  obtain ⟨gf, hf, ef⟩ := friction_ok hH hT f
  obtain ⟨gb, hb, eb⟩ := berm_ok hH hT b
  obtain ⟨gB, hB, eB⟩ := oblique_ok o
  exact ⟨gf * gb * gv * gB, VdMProof.xi H T c, by positivity, VdMProof.xi_pos hH hT hc,
    both_eval hH hT hc hv hf hb hB ef eb eB⟩

end VanGent2025
end
