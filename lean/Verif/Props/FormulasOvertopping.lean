import Verif.Props.FormulasHydraulic

/-! # Property C78, continued: overtopping discharges and crest levels -/

open Classical
open PF
open CorePhysics RangeProof FormulaProof
noncomputable section

namespace FormulaProof
open OvertoppingTaw2002 TwoFormulas

theorem roughness_pos {gf p : ℝ} (h : 0 < gf) (h1 : gf ≤ 1) : 0 < Published.roughness gf p := by
  unfold Published.roughness
  split_ifs with hp
  · exact h
  · refine lt_min one_pos ?_
    have : 0 ≤ (p - 1.8) * (1 - gf) / (10 - 1.8) :=
      div_nonneg (mul_nonneg (by linarith [not_lt.mp hp]) (by linarith)) (by norm_num)
    linarith

theorem taw_breaking {H T c gb gf gB gv k R : ℝ} (hH : 0 < H) (hT : 0 < T) (hc : 0 < c) (hb : 0 < gb)
    (hf : 0 < gf) (hf1 : gf ≤ 1) (hB : 0 < gB) (hv : 0 < gv)
    (h : gf = 1 ∨ gb * Textbook.iribarren H T c < 1.8 ∨ (gb = 1 ∧ Textbook.iribarren H T c ≤ 10)) :
    E (A1 H T c gb) (d1 H T c gb gf gB gv k) R =
      Published.breakingDischarge k c gb (Published.roughness gf (gb * Textbook.iribarren H T c)) gB gv
        (Textbook.iribarren H T c) (R / H) := by
  have hr := roughness_pos (p := gb * Textbook.iribarren H T c) hf hf1
  have hx : 0 < Textbook.iribarren H T c := by rw [irib_eq]; exact VdMProof.xi_pos hH hT hc
  unfold E A1 d1 Published.breakingDischarge
  rw [← irib_eq, rough_published hf1 h, VdMProof.one_sci]
  generalize Published.roughness gf (gb * Textbook.iribarren H T c) = r at *
  generalize Textbook.iribarren H T c = x at *
  have e : -(k / (H * (x * gb * r * gB * gv)) * R) = -k * (R / H) / (x * gb * r * gB * gv) := by
    field_simp
  rw [e]
  ring

theorem taw_maximum {H T c gb gf gB k R : ℝ} (hH : 0 < H) (hf : 0 < gf) (hf1 : gf ≤ 1) (hB : 0 < gB)
    (h : gf = 1 ∨ gb * Textbook.iribarren H T c < 1.8 ∨ (gb = 1 ∧ Textbook.iribarren H T c ≤ 10)) :
    E 0.2 (d3 H T c gb gf gB k) R =
      Published.maximumDischarge 0.2 k (Published.roughness gf (gb * Textbook.iribarren H T c)) gB
        (R / H) := by
  have hr := roughness_pos (p := gb * Textbook.iribarren H T c) hf hf1
  unfold E d3 Published.maximumDischarge
  rw [← irib_eq, rough_published hf1 h]
  generalize Published.roughness gf (gb * Textbook.iribarren H T c) = r at *
  have e : -(k / (H * (r * gB)) * R) = -k * (R / H) / (r * gB) := by
    field_simp
  rw [e]

theorem taw_k1 (s : ℝ) (bf : Bool) : k1 s bf = (if bf then 4.75 else 4.3) + 0.5 * s := by
  unfold k1
  by_cases h : s = 0
  · rw [if_pos h, h, mul_zero]
  · rw [if_neg h]

theorem taw_k3 (s : ℝ) (bf : Bool) : k3 s bf = (if bf then 2.6 else 2.3) + 0.35 * s := by
  unfold k3
  by_cases h : s = 0
  · rw [if_pos h, h, mul_zero]
  · rw [if_neg h]

end FormulaProof

section
open OvertoppingTaw2002 TwoFormulas
variable (H T c gf gv gB gb s : ℝ) (beta B db : PF) (bf : Bool) (hH : 0 < H) (hT : 0 < T) (hc : 0 < c)
  (hf : 0 < gf) (hf1 : gf ≤ 1) (hv : 0 < gv) (hB : 0 < gB) (hb : 0 < gb) (hb1 : gb ≤ 1)
  (hs : s = 0 ∨ bf = true)
  (hr : gf = 1 ∨ gb * Textbook.iribarren H T c < 1.8 ∨ (gb = 1 ∧ Textbook.iribarren H T c ≤ 10))
include hH hT hc hf hf1 hv hB hb hb1 hs hr

/-- C78 (missing: rough slopes with a berm or with Iribarren numbers above 10, where the roughness
factor differs from the published one, see C58): overtopping discharge by TAW (2002), eqs. 24 and 25.
Design coefficients 4.3 and 2.3, best fit 4.75 and 2.6 with `s` standard deviations (0.5 and 0.35); the
flag says whether the maximum governs -/
theorem C78_taw_discharge_partial (R g : ℝ) (hg : 0 < g) : ∃ (q : ℝ) (f : Bool),
    (calculate_overtopping_discharge_q (fin H) (fin T) (fin R) (fin c) nan nan beta B db (fin gB)
      (fin gb) (fin gf) (fin gv) (fin s) (fin g) bf).res = .ok (fin q, f) ∧
    ∃ x r a b : ℝ, x = Textbook.iribarren H T c ∧ r = Published.roughness gf (gb * x) ∧
      a = Published.breakingDischarge ((if bf then 4.75 else 4.3) + 0.5 * s) c gb r gB gv x (R / H) ∧
      b = Published.maximumDischarge 0.2 ((if bf then 2.6 else 2.3) + 0.35 * s) r gB (R / H) ∧
      q / √(g * H ^ 3) = min a b ∧ (f = true ↔ b ≤ a) := by
  have hp : (pre (fin H) (fin T) (fin c) nan nan beta B db (fin gB) (fin gb) (fin gf)).res =
      .ok (fin gB, fin c, fin gb) := by
    have e1 : RunupTaw2002.check_calculate_gamma_beta beta (fin gB) = pure false := by
      unfold RunupTaw2002.check_calculate_gamma_beta; simp
    have e2 : RunupTaw2002.check_composite_slope (fin c) nan nan = pure false := by
      unfold RunupTaw2002.check_composite_slope; simp
    unfold pre
    rw [e1, pure_bind, e2]
    simp
  have hS := Sc_pos hg hH
  unfold calculate_overtopping_discharge_q
  rw [PyM.bind_res_of_ok (q_res hH hT hs hf hf1 hv hB hc hb hb1 hp)]
  dsimp only
  rw [Sc_eval hg hH, mul_fin, taw_breaking hH hT hc hb hf hf1 hB hv hr, taw_maximum hH hf hf1 hB hr,
    taw_k1, taw_k3]
  refine ⟨_, _, rfl, _, _, _, _, rfl, rfl, rfl, rfl, ?_, decide_eq_true_iff⟩
  exact mul_div_cancel_right₀ _ hS.ne'

/-- C78 (missing: as for the discharge, and other values of gravity than the default, see C49): the
crest level by TAW (2002) for a required discharge is on the same curves -/
theorem C78_taw_freeboard_partial (q : ℝ) (hq : 0 < q) (hs7 : -7 ≤ s) : ∃ (R : ℝ) (f : Bool),
    (calculate_crest_freeboard_Rc (fin H) (fin T) (fin q) (fin c) nan nan beta B db (fin gB)
      (fin gb) (fin gf) (fin gv) (fin s) (use_best_fit := bf)).res = .ok (fin R, f) ∧
    ∃ x r a b : ℝ, x = Textbook.iribarren H T c ∧ r = Published.roughness gf (gb * x) ∧
      a = Published.breakingDischarge ((if bf then 4.75 else 4.3) + 0.5 * s) c gb r gB gv x (R / H) ∧
      b = Published.maximumDischarge 0.2 ((if bf then 2.6 else 2.3) + 0.35 * s) r gB (R / H) ∧
      q / √(9.81 * H ^ 3) = min a b ∧ (f = true ↔ b ≤ a) := by
  have hp : (pre (fin H) (fin T) (fin c) nan nan beta B db (fin gB) (fin gb) (fin gf)).res =
      .ok (fin gB, fin c, fin gb) := by
    have e1 : RunupTaw2002.check_calculate_gamma_beta beta (fin gB) = pure false := by
      unfold RunupTaw2002.check_calculate_gamma_beta; simp
    have e2 : RunupTaw2002.check_composite_slope (fin c) nan nan = pure false := by
      unfold RunupTaw2002.check_composite_slope; simp
    unfold pre
    rw [e1, pure_bind, e2]
    simp
  have hR := R_res (g := 9.81) hH hT hs hs7 hf hf1 hv hB hc hb hb1 (by norm_num) hq hp
  refine ⟨_, _, hR, ?_⟩
  have hd := OvertoppingTawProofs.C49_discharge_of_freeboard_partial H T q gf gv s (fin c) nan nan beta
    B db (fin gB) (fin gb) bf hH hT hf hf1 hv hs7 (Or.inr ⟨_, rfl, hB⟩) (Or.inr ⟨_, rfl, hb, hb1⟩) _ _
    hq hR
  obtain ⟨q', f', h1, h2⟩ := C78_taw_discharge_partial H T c gf gv gB gb s beta B db bf hH hT hc hf hf1
    hv hB hb hb1 hs hr _ 9.81 (by norm_num)
  have h3 := hd.symm.trans h1
  simp only [Except.ok.injEq, Prod.mk.injEq, fin_inj] at h3
  obtain ⟨rfl, rfl⟩ := h3
  exact h2

example := C78_taw_freeboard_partial (H := 2) (T := 8) (c := 2) (gf := 1) (gv := 1) (gB := 0.9) (gb := 1)
  (s := 1) (beta := .fin 20) (B := .fin 4) (db := .fin 1) (bf := true) (q := 0.01) (by norm_num)
  (by norm_num) (by norm_num) (by norm_num) (by norm_num) (by norm_num) (by norm_num) (by norm_num)
  (by norm_num) (by norm_num) (by norm_num) (by norm_num) (by norm_num)
end

/-! ## EurOtop 2007, rubble mounds -/

section
open OvertoppingEurOtop2007 TwoFormulas
open OvertoppingTaw2002 (Sc Sc_pos Sc_eval qmax_eval Rmax_eval)

namespace FormulaProof

theorem max_published {a k H r gB R : ℝ} (hH : 0 < H) (hr : 0 < r) (hB : 0 < gB) :
    E a (k / (H * (r * gB))) R = Published.maximumDischarge a k r gB (R / H) := by
  unfold E Published.maximumDischarge
  have e : -(k / (H * (r * gB)) * R) = -k * (R / H) / (r * gB) := by
    field_simp
  rw [e]

theorem rubble_rough {H T c gf : ℝ} (hH : 0 < H) (hT : 0 < T) (hc : 0 < c) (hf1 : gf ≤ 1)
    (hr : gf = 1 ∨ Textbook.iribarren H T c ≤ 10) :
    RunupTaw2002.calculate_adjusted_influence_roughness_gamma_f (fin gf) 1.0
      (calculate_Iribarren_number_ksi (fin H) (fin T) (fin c)) =
      fin (Published.roughness gf (Textbook.iribarren H T c)) := by
  have e1 : (1.0 : PF) = fin 1 := by rw [sci_eq]; norm_num
  rw [e1, irib_eval hH hT hc, RunupTaw2002.rough_eval, rough_published hf1, one_mul]
  rcases hr with h | h
  · exact Or.inl h
  · exact Or.inr (Or.inr ⟨rfl, h⟩)

end FormulaProof

variable (H T c gf gB c2 c3 : ℝ) (beta : PF) (bf : Bool) (hH : 0 < H) (hT : 0 < T) (hc : 0 < c)
  (hf : 0 < gf) (hf1 : gf ≤ 1) (hB : 0 < gB) (h2 : 0 < c2) (h3 : 0 < c3)
  (hr : gf = 1 ∨ Textbook.iribarren H T c ≤ 10)
include hH hT hc hf hf1 hB hr h2

/-- C78 (missing: Iribarren numbers above 10, see C58): overtopping discharge of a rubble mound by
EurOtop (2007), user-supplied coefficients or the best-fit ones 0.2 and 2.6 -/
theorem C78_eurotop2007_discharge_partial (R g : ℝ) (hg : 0 < g) :
    Returns (calculate_overtopping_discharge_q_rubble_mound (fin H) (fin T) (fin R) beta (fin gB)
      (fin gf) (fin c) (fin c2) (fin c3) bf (fin g))
      fun q => q / √(g * H ^ 3) = Published.maximumDischarge (if bf then 0.2 else c2)
        (if bf then 2.6 else c3) (Published.roughness gf (Textbook.iribarren H T c)) gB (R / H) := by
  have hS := Sc_pos hg hH
  have e1 : RunupTaw2002.check_calculate_gamma_beta beta (fin gB) = pure false := by
    unfold RunupTaw2002.check_calculate_gamma_beta; simp
  have e3 : check_best_fit (fin c2) (fin c3) bf =
      (fin (if bf then 0.2 else c2), fin (if bf then 2.6 else c3)) := by cases bf <;> rfl
  have ha : 0 < if bf then 0.2 else c2 := by cases bf <;> norm_num [h2]
  have hp := roughness_pos (p := Textbook.iribarren H T c) hf hf1
  refine ⟨_, ?_, ?_, mul_div_cancel_right₀ _ hS.ne'⟩
  · refine mul_pos ?_ hS
    unfold Published.maximumDischarge
    exact mul_pos ha (Real.exp_pos _)
  · unfold calculate_overtopping_discharge_q_rubble_mound
      calculate_dimensionless_overtopping_discharge_q_rubble_mound
    rw [e1, e3, pure_bind]
    simp only [Bool.false_eq_true, if_false]
    rw [rubble_rough hH hT hc hf1 hr, pure_bind, qmax_eval hH hp hB, Sc_eval hg hH, mul_fin,
      max_published hH hp hB]
    rfl

example := C78_eurotop2007_discharge_partial (H := 2) (T := 8) (c := 2) (gf := 1) (gB := 0.9) (c2 := 0.2)
  (c3 := 0.3) (beta := .fin 20) (bf := true) (R := 1) (g := 9.81) (by norm_num) (by norm_num) (by norm_num)
  (by norm_num) (by norm_num) (by norm_num) (by norm_num) (by norm_num) (by norm_num)

include h3
/-- C78 (missing: as for the discharge, and gravity, which is fixed at 9.81, see C51): the crest level of
a rubble mound by EurOtop (2007) for a required discharge -/
theorem C78_eurotop2007_freeboard_partial (q : ℝ) (hq : 0 < q) : ∃ R : ℝ,
    (calculate_crest_freeboard_Rc_rubble_mound (fin H) (fin T) (fin q) beta (fin gB) (fin gf) (fin c)
      (fin c2) (fin c3) bf).res = .ok (fin R) ∧
    q / √(9.81 * H ^ 3) = Published.maximumDischarge (if bf then 0.2 else c2)
      (if bf then 2.6 else c3) (Published.roughness gf (Textbook.iribarren H T c)) gB (R / H) := by
  have hS : 0 < Sc 9.81 H := Sc_pos (by norm_num) hH
  have e1 : RunupTaw2002.check_calculate_gamma_beta beta (fin gB) = pure false := by
    unfold RunupTaw2002.check_calculate_gamma_beta; simp
  have e3 : check_best_fit (fin c2) (fin c3) bf =
      (fin (if bf then 0.2 else c2), fin (if bf then 2.6 else c3)) := by cases bf <;> rfl
  have ha : 0 < if bf then 0.2 else c2 := by cases bf <;> norm_num [h2]
  have hk : 0 < if bf then 2.6 else c3 := by cases bf <;> norm_num [h3]
  have hp := roughness_pos (p := Textbook.iribarren H T c) hf hf1
  generalize (if bf then 0.2 else c2) = a at *
  generalize (if bf then 2.6 else c3) = k at *
  refine ⟨L a (k / (H * (Published.roughness gf (Textbook.iribarren H T c) * gB))) (q / Sc 9.81 H),
    ?_, ?_⟩
  · unfold calculate_crest_freeboard_Rc_rubble_mound
      calculate_dimensionless_crest_freeboard_rubble_mound
    rw [e1, e3, pure_bind]
    simp only [Bool.false_eq_true, if_false]
    rw [rubble_rough hH hT hc hf1 hr, pure_bind, Rmax_eval hH hp hB hk ha hq, mul_fin,
      div_mul_cancel₀ _ hH.ne']
    rfl
  · rw [← max_published hH hp hB, E_L ha (by positivity) (by positivity)]
    rfl

example := C78_eurotop2007_freeboard_partial (H := 2) (T := 8) (c := 2) (gf := 1) (gB := 0.9) (c2 := 0.2)
  (c3 := 0.3) (beta := .fin 20) (bf := true) (q := 0.01) (by norm_num) (by norm_num) (by norm_num)
  (by norm_num) (by norm_num) (by norm_num) (by norm_num) (by norm_num) (by norm_num) (by norm_num)
end

/-- C78: the default coefficients of EurOtop (2007) for rubble mounds are the design values 0.2 and 2.3 -/
theorem C78_eurotop2007_defaults (H T x beta gB gf cot : PF) :
    OvertoppingEurOtop2007.calculate_overtopping_discharge_q_rubble_mound H T x beta gB gf cot =
      OvertoppingEurOtop2007.calculate_overtopping_discharge_q_rubble_mound H T x beta gB gf cot
        (fin 0.2) (fin 2.3) false (fin 9.81) ∧
    OvertoppingEurOtop2007.calculate_crest_freeboard_Rc_rubble_mound H T x beta gB gf cot =
      OvertoppingEurOtop2007.calculate_crest_freeboard_Rc_rubble_mound H T x beta gB gf cot
        (fin 0.2) (fin 2.3) false := ⟨rfl, rfl⟩

/-- C78, refuted for the obliqueness of EurOtop (2007): given an angle, both functions take the factor
for run-up (0.0022 per degree) and not the one for overtopping (0.0033, or 0.0063 on rough slopes), so
that oblique waves overtop more than published -/
theorem C78_eurotop2007_obliqueness_refuted (T cot : PF) (H R gf c2 c3 b g : ℝ) (bf : Bool) (hH : 0 < H)
    (hf : 0 < gf) (hf1 : gf ≤ 1) (h2 : 0 < c2) (h3 : 0 < c3) (hR : 0 < R) (hb : b ≠ 0) (hg : 0 < g) :
    ∃ q q' : ℝ, 0 < q' ∧ q' < q ∧
    (OvertoppingEurOtop2007.calculate_overtopping_discharge_q_rubble_mound (fin H) T (fin R) (fin b) nan
      (fin gf) cot (fin c2) (fin c3) bf (fin g)).res = .ok (fin q) ∧
    (OvertoppingEurOtop2007.calculate_overtopping_discharge_q_rubble_mound (fin H) T (fin R) nan
      (fin (Published.obliqueness 0.0033 b)) (fin gf) cot (fin c2) (fin c3) bf (fin g)).res =
        .ok (fin q') := by
  have hS := OvertoppingTaw2002.Sc_pos hg hH
  have e1 : RunupTaw2002.check_calculate_gamma_beta (fin b) nan = pure true := by
    unfold RunupTaw2002.check_calculate_gamma_beta; simp
  have e2 : RunupTaw2002.check_calculate_gamma_beta nan (fin (Published.obliqueness 0.0033 b)) =
      pure false := by
    unfold RunupTaw2002.check_calculate_gamma_beta; simp
  obtain ⟨a, k, ha, hk, e3⟩ := OvertoppingEurOtop2007.best_ok bf h2 h3
  obtain ⟨r, hr, e4, -⟩ := RunupTaw2002.rough_any hf hf1
    (calculate_Iribarren_number_ksi (fin H) T cot)
  have hm : 0 < min |b| 80 := lt_min (abs_pos.mpr hb) (by norm_num)
  have hm' : min |b| 80 ≤ 80 := min_le_right _ _
  have o1 : 0 < Published.obliqueness 0.0033 b := by
    unfold Published.obliqueness
    generalize min |b| 80 = m at *
    norm_num; linarith
  have o2 : Published.obliqueness 0.0033 b < Published.obliqueness 0.0022 b := by
    unfold Published.obliqueness
    generalize min |b| 80 = m at *
    norm_num; linarith
  have o3 := o1.trans o2
  refine ⟨TwoFormulas.E a (k / (H * (r * Published.obliqueness 0.0022 b))) R * OvertoppingTaw2002.Sc g H,
    TwoFormulas.E a (k / (H * (r * Published.obliqueness 0.0033 b))) R * OvertoppingTaw2002.Sc g H,
    ?_, ?_, ?_, ?_⟩
  rotate_left 2
  · unfold OvertoppingEurOtop2007.calculate_overtopping_discharge_q_rubble_mound
      OvertoppingEurOtop2007.calculate_dimensionless_overtopping_discharge_q_rubble_mound
    rw [e1, e3, pure_bind]
    simp only [if_true]
    rw [(C78_obliqueness b).1, e4, pure_bind, OvertoppingTaw2002.qmax_eval hH hr o3,
      OvertoppingTaw2002.Sc_eval hg hH, mul_fin]
    rfl
  · unfold OvertoppingEurOtop2007.calculate_overtopping_discharge_q_rubble_mound
      OvertoppingEurOtop2007.calculate_dimensionless_overtopping_discharge_q_rubble_mound
    rw [e2, e3, pure_bind]
    simp only [Bool.false_eq_true, if_false]
    rw [e4, pure_bind, OvertoppingTaw2002.qmax_eval hH hr o1,
      OvertoppingTaw2002.Sc_eval hg hH, mul_fin]
    rfl
  · exact mul_pos (TwoFormulas.E_pos ha _ _) hS
  · refine mul_lt_mul_of_pos_right ?_ hS
    unfold TwoFormulas.E
    refine mul_lt_mul_of_pos_left (Real.exp_lt_exp.mpr ?_) ha
    rw [neg_lt_neg_iff]
    gcongr

/-! ## EurOtop 2018 -/

section
open OvertoppingEurOtop2018 TwoFormulas
open OvertoppingTaw2002 (Sc Sc_pos Sc_eval)

namespace FormulaProof

theorem breaking2018 {H T c gb gf gB gv k k4 R : ℝ} (hH : 0 < H) (hT : 0 < T) (hc : 0 < c)
    (hb : 0 < gb) (hf : 0 < gf) (hf1 : gf ≤ 1) (hB : 0 < gB) (hv : 0 < gv)
    (h : gf = 1 ∨ gb * Textbook.iribarren H T c < 1.8 ∨ (gb = 1 ∧ Textbook.iribarren H T c ≤ 10)) :
    F (A1 H T c gb k4) (d1 H T c gb gf gB gv k) R =
      Published.breakingDischarge2018 k k4 c gb (Published.roughness gf (gb * Textbook.iribarren H T c))
        gB gv (Textbook.iribarren H T c) (R / H) := by
  have hr := roughness_pos (p := gb * Textbook.iribarren H T c) hf hf1
  have hx : 0 < Textbook.iribarren H T c := by rw [irib_eq]; exact VdMProof.xi_pos hH hT hc
  unfold F A1 d1 Published.breakingDischarge2018
  rw [← irib_eq, rough_published hf1 h, VdMProof.one_sci]
  generalize Published.roughness gf (gb * Textbook.iribarren H T c) = r at *
  generalize Textbook.iribarren H T c = x at *
  have e : k / (H * (x * gb * r * gB * gv)) * R = k * (R / H) / (x * gb * r * gB * gv) := by
    field_simp
  rw [e]
  ring

theorem maximum2018 {H r gB gs a k R : ℝ} (hH : 0 < H) (hr : 0 < r) (hB : 0 < gB) (hs : 0 < gs) :
    F a (d3 H r gB gs k) R = Published.maximumDischarge2018 a k r gB gs (R / H) := by
  unfold F d3 Published.maximumDischarge2018
  have e : k / (H * (r * gB * gs)) * R = k * (R / H) / (r * gB * gs) := by
    field_simp
  rw [e]

theorem pre2018 {H T c gB gf : ℝ} (hH : 0 < H) (hT : 0 < T) (hc : 0 < c) (beta db : PF) (bf : Bool) :
    (pre (fin H) (fin T) (fin c) nan nan beta 0.0 db (fin gB) (fin gf) bf).res =
      .ok (fin gB, fin c) ∧
    (berm (fin H) (fin T) nan nan 0.0 db (fin gf) (fin gB, fin c)).res = .ok (fin 1) := by
  have e1 : RunupTaw2002.check_calculate_gamma_beta beta (fin gB) = pure false := by
    unfold RunupTaw2002.check_calculate_gamma_beta; simp
  have e2 : RunupTaw2002.check_composite_slope (fin c) nan nan = pure false := by
    unfold RunupTaw2002.check_composite_slope; simp
  constructor
  · unfold pre
    rw [e1, pure_bind, e2]
    simp
  · have hl : ∃ L, RunupTaw2002.calculate_berm_length (fin H) 0.0 (fin c) nan nan = pure L := by
      unfold RunupTaw2002.calculate_berm_length
      rw [e2, pure_bind]
      exact ⟨_, rfl⟩
    obtain ⟨L, hL⟩ := hl
    unfold berm
    rw [hL, pure_bind]
    unfold RunupEurOtop2018.iteration_procedure_gamma_b RunupTaw2002.iteration_procedure_gamma_b
      RunupTaw2002.iteration_procedure_gamma_b_rec
    dsimp only
    rw [if_pos]
    · show Except.ok (1.0 : PF) = _
      rw [sci_eq, VdMProof.one_sci]
    · left
      rw [sci_eq, eqF_fin]

end FormulaProof

variable (H T c gf gv gs gB c1 c2 c3 c4 : ℝ) (beta gb : PF) (bf : Bool) (hH : 0 < H) (hT : 0 < T)
  (hc : 0 < c) (hf : 0 < gf) (hf1 : gf ≤ 1) (hv : 0 < gv) (hs : 0 < gs) (hB : 0 < gB)
  (h1 : 0 < c1) (h2 : 0 < c2) (h3 : 0 < c3) (h4 : 0 < c4)
  (hr : gf = 1 ∨ Textbook.iribarren H T c ≤ 10)

namespace FormulaProof
include hH hT hc hf hf1 hv hs hB h1 h2 h3 h4

theorem ctx2018 : Ctx H T gf gv gs gB c 1 (if bf then 2.7 else c1) (if bf then 0.09 else c2)
    (if bf then 1.5 else c3) (if bf then 0.023 else c4) c1 c2 c3 c4 bf where
  h0 := hH
  t0 := hT
  hf := hf
  hf1 := hf1
  hv := hv
  hs := hs
  hB := hB
  hc := hc
  hb := one_pos
  hb1 := le_rfl
  h1 := by cases bf <;> norm_num [h1]
  h2 := by cases bf <;> norm_num [h2]
  h3 := by cases bf <;> norm_num [h3]
  h4 := by cases bf <;> norm_num [h4]
  hK := by cases bf <;> rfl

end FormulaProof

include hH hT hc hf hf1 hv hs hB h1 h2 h3 h4 hr

/-- C78 (missing: berms, and Iribarren numbers above 10, see C58; the roughness factor of the maximum is
not adjusted for long waves, see C52): overtopping discharge by EurOtop (2018), eqs. 5.10 and 5.11, with
user-supplied coefficients or the mean values 2.7, 0.09, 1.5 and 0.023 -/
theorem C78_eurotop2018_discharge_partial (R g : ℝ) (hR : 0 ≤ R) (hg : 0 < g) : ∃ (q : ℝ) (f : Bool),
    (calculate_overtopping_discharge_q (fin H) (fin T) (fin R) beta (fin gB) gb (fin gf) (fin gv)
      (fin gs) (cot_alpha := fin c) (c1 := fin c1) (c2 := fin c2) (c3 := fin c3) (c4 := fin c4)
      (use_best_fit := bf) (g := fin g)).res = .ok (fin q, f) ∧
    ∃ x r a b : ℝ, x = Textbook.iribarren H T c ∧ r = Published.roughness gf x ∧
      a = Published.breakingDischarge2018 (if bf then 2.7 else c1) (if bf then 0.023 else c4) c 1 r gB gv
        x (R / H) ∧
      b = Published.maximumDischarge2018 (if bf then 0.09 else c2) (if bf then 1.5 else c3) gf gB gs
        (R / H) ∧
      q / √(g * H ^ 3) = min a b ∧ (f = true ↔ b ≤ a) := by
  have X := ctx2018 H T c gf gv gs gB c1 c2 c3 c4 bf hH hT hc hf hf1 hv hs hB h1 h2 h3 h4
  obtain ⟨hp, hb⟩ := pre2018 (gB := gB) (gf := gf) hH hT hc beta 0.0 bf
  have hr' : gf = 1 ∨ 1 * Textbook.iribarren H T c < 1.8 ∨
      ((1 : ℝ) = 1 ∧ Textbook.iribarren H T c ≤ 10) := by
    rcases hr with h | h
    · exact Or.inl h
    · exact Or.inr (Or.inr ⟨rfl, h⟩)
  have hS := Sc_pos hg hH
  refine ⟨_, _, X.q_res hg hR hp hb, _, _, _, _, rfl, rfl, ?_, ?_, mul_div_cancel_right₀ _ hS.ne',
    decide_eq_true_iff⟩
  · rw [breaking2018 hH hT hc one_pos hf hf1 hB hv hr', one_mul]
  · rw [maximum2018 hH hf hB hs]

/-- C78 (missing: as for the discharge): the crest level by EurOtop (2018) for a required discharge (not
above the two formulas at zero freeboard): the discharge by the published formulas at the returned level
is the required one -/
theorem C78_eurotop2018_freeboard_partial (q g : ℝ) (hq : 0 < q) (hg : 0 < g)
    (hq1 : q / √(g * H ^ 3) ≤ Published.breakingDischarge2018 (if bf then 2.7 else c1)
      (if bf then 0.023 else c4) c 1 (Published.roughness gf (Textbook.iribarren H T c)) gB gv
        (Textbook.iribarren H T c) 0)
    (hq2 : q / √(g * H ^ 3) ≤ if bf then 0.09 else c2) : ∃ (R : ℝ) (f : Bool),
    (calculate_crest_freeboard_Rc (fin H) (fin T) (fin q) beta (fin gB) gb (fin gf) (fin gv)
      (fin gs) (cot_alpha := fin c) (c1 := fin c1) (c2 := fin c2) (c3 := fin c3) (c4 := fin c4)
      (use_best_fit := bf) (g := fin g)).res = .ok (fin R, f) ∧
    ∃ x r a b : ℝ, x = Textbook.iribarren H T c ∧ r = Published.roughness gf x ∧
      a = Published.breakingDischarge2018 (if bf then 2.7 else c1) (if bf then 0.023 else c4) c 1 r gB gv
        x (R / H) ∧
      b = Published.maximumDischarge2018 (if bf then 0.09 else c2) (if bf then 1.5 else c3) r gB gs
        (R / H) ∧
      q / √(g * H ^ 3) = min a b ∧ (f = true ↔ b ≤ a) := by
  have X := ctx2018 H T c gf gv gs gB c1 c2 c3 c4 bf hH hT hc hf hf1 hv hs hB h1 h2 h3 h4
  obtain ⟨hp, hb⟩ := pre2018 (gB := gB) (gf := gf) hH hT hc beta 0.0 false
  have hr' : gf = 1 ∨ 1 * Textbook.iribarren H T c < 1.8 ∨
      ((1 : ℝ) = 1 ∧ Textbook.iribarren H T c ≤ 10) := by
    rcases hr with h | h
    · exact Or.inl h
    · exact Or.inr (Or.inr ⟨rfl, h⟩)
  have hS := Sc_pos hg hH
  have hrp := roughness_pos (p := Textbook.iribarren H T c) hf hf1
  have e0 : ∀ k1 k4 : ℝ, F (A1 H T c 1 k4) (d1 H T c 1 gf gB gv k1) 0 = A1 H T c 1 k4 := by
    intro k1 k4
    unfold F
    rw [mul_zero, Real.zero_rpow (by norm_num), neg_zero, Real.exp_zero, mul_one]
  have b1 : q / Sc g H ≤ A1 H T c 1 (if bf then 0.023 else c4) := by
    rw [← e0 (if bf then 2.7 else c1), breaking2018 hH hT hc one_pos hf hf1 hB hv hr', one_mul, zero_div]
    exact hq1
  refine ⟨_, _, X.R_res hg hq b1 hq2 hp hb, _, _, _, _, rfl, rfl, rfl, rfl, ?_⟩
  have er : RunupTaw2002.rough gf 1 (VdMProof.xi H T c) =
      Published.roughness gf (Textbook.iribarren H T c) := by
    rw [← irib_eq, rough_published hf1 hr', one_mul]
  rw [er]
  have hd3 := d3_pos hH hrp hB hs X.h3
  obtain ⟨t1, t2⟩ := two_G X.A X.h2 X.d hd3 (div_pos hq hS) b1 hq2
  rw [breaking2018 hH hT hc one_pos hf hf1 hB hv hr', one_mul, maximum2018 hH hrp hB hs] at t1 t2
  exact ⟨t1.symm, by rw [decide_eq_true_iff]; exact t2.symm⟩
end

/-- C78: the default coefficients of EurOtop (2018) are the design values -/
theorem C78_eurotop2018_defaults (H T x beta gB gb gf gv gs cot : PF) :
    OvertoppingEurOtop2018.calculate_overtopping_discharge_q H T x beta gB gb gf gv gs (cot_alpha := cot) =
      OvertoppingEurOtop2018.calculate_overtopping_discharge_q H T x beta gB gb gf gv gs (cot_alpha := cot)
        (c1 := fin 2.5) (c2 := fin 0.1035) (c3 := fin 1.35) (c4 := fin 0.026) (g := fin 9.81) ∧
    OvertoppingEurOtop2018.calculate_crest_freeboard_Rc H T x beta gB gb gf gv gs (cot_alpha := cot) =
      OvertoppingEurOtop2018.calculate_crest_freeboard_Rc H T x beta gB gb gf gv gs (cot_alpha := cot)
        (c1 := fin 2.5) (c2 := fin 0.1035) (c3 := fin 1.35) (c4 := fin 0.026) (g := fin 9.81) :=
  ⟨rfl, rfl⟩

/-! ## EurOtop 2018, rubble mounds -/

section
open OvertoppingEurOtop2018 TwoFormulas
open OvertoppingTaw2002 (Sc Sc_pos Sc_eval)
variable (H T c gf gB c2 c3 : ℝ) (beta B db : PF) (bf : Bool) (hH : 0 < H) (hT : 0 < T) (hc : 0 < c)
  (hf : 0 < gf) (hf1 : gf ≤ 1) (hB : 0 < gB) (h2 : 0 < c2) (h3 : 0 < c3)
  (hr : gf = 1 ∨ Textbook.iribarren H T c ≤ 10)
include hH hT hc hf hf1 hB hr h2 h3

/-- C78 (missing: Iribarren numbers above 10, see C58): overtopping discharge of a rubble mound by
EurOtop (2018), user-supplied coefficients or the mean values 0.09 and 1.5 -/
theorem C78_eurotop2018_rubble_discharge_partial (R g : ℝ) (hR : 0 ≤ R) (hg : 0 < g) :
    Returns (calculate_overtopping_discharge_q_rubble_mound (fin H) (fin T) (fin R) beta (fin gB)
      (fin gf) B db (fin c) nan nan (fin c2) (fin c3) bf (fin g))
      fun q => q / √(g * H ^ 3) = Published.maximumDischarge2018 (if bf then 0.09 else c2)
        (if bf then 1.5 else c3) (Published.roughness gf (Textbook.iribarren H T c)) gB 1 (R / H) := by
  have hS := Sc_pos hg hH
  have hp : (pre (fin H) (fin T) (fin c) nan nan beta B db (fin gB) (fin gf) bf).res =
      .ok (fin gB, fin c) := by
    have e1 : RunupTaw2002.check_calculate_gamma_beta beta (fin gB) = pure false := by
      unfold RunupTaw2002.check_calculate_gamma_beta; simp
    have e2 : RunupTaw2002.check_composite_slope (fin c) nan nan = pure false := by
      unfold RunupTaw2002.check_composite_slope; simp
    unfold pre
    rw [e1, pure_bind, e2]
    simp
  have e3 : check_best_fit nan (fin c2) (fin c3) nan bf =
      (if bf then 2.7 else nan, fin (if bf then 0.09 else c2), fin (if bf then 1.5 else c3),
        if bf then 0.023 else nan) := by cases bf <;> rfl
  have ha : 0 < if bf then 0.09 else c2 := by cases bf <;> norm_num [h2]
  have hk : 0 < if bf then 1.5 else c3 := by cases bf <;> norm_num [h3]
  have hrp := roughness_pos (p := Textbook.iribarren H T c) hf hf1
  have o : (1.0 : PF) = fin 1 := by rw [sci_eq]; norm_num
  have hv : (check_validity_range_rubble_mound (fin c)).res = .ok () := by
    unfold check_validity_range_rubble_mound; simp
  refine ⟨_, ?_, ?_, mul_div_cancel_right₀ _ hS.ne'⟩
  · refine mul_pos ?_ hS
    unfold Published.maximumDischarge2018
    exact mul_pos ha (Real.exp_pos _)
  · rw [qr_split, PyM.bind_res_of_ok hp, e3]
    dsimp only
    rw [PyM.bind_res_of_ok hv, rubble_rough hH hT hc hf1 hr, o, qmax_eval hH hrp hB one_pos hk,
      if_pos hR, ← maximum2018 hH hrp hB one_pos, Sc_eval hg hH, mul_fin]
    rfl

/-- C78 (missing: as for the discharge): the crest level of a rubble mound by EurOtop (2018) for a
required discharge -/
theorem C78_eurotop2018_rubble_freeboard_partial (q g : ℝ) (hq : 0 < q) (hg : 0 < g)
    (hq2 : q / √(g * H ^ 3) ≤ if bf then 0.09 else c2) : ∃ R : ℝ, 0 ≤ R ∧
    (calculate_crest_freeboard_Rc_rubble_mound (fin H) (fin T) (fin q) beta (fin gB)
      (fin gf) B db (fin c) nan nan (fin c2) (fin c3) bf (fin g)).res = .ok (fin R) ∧
    q / √(g * H ^ 3) = Published.maximumDischarge2018 (if bf then 0.09 else c2)
      (if bf then 1.5 else c3) (Published.roughness gf (Textbook.iribarren H T c)) gB 1 (R / H) := by
  have hS := Sc_pos hg hH
  have hp : (pre (fin H) (fin T) (fin c) nan nan beta B db (fin gB) (fin gf) false).res =
      .ok (fin gB, fin c) := by
    have e1 : RunupTaw2002.check_calculate_gamma_beta beta (fin gB) = pure false := by
      unfold RunupTaw2002.check_calculate_gamma_beta; simp
    have e2 : RunupTaw2002.check_composite_slope (fin c) nan nan = pure false := by
      unfold RunupTaw2002.check_composite_slope; simp
    unfold pre
    rw [e1, pure_bind, e2]
    simp
  have e3 : check_best_fit nan (fin c2) (fin c3) nan bf =
      (if bf then 2.7 else nan, fin (if bf then 0.09 else c2), fin (if bf then 1.5 else c3),
        if bf then 0.023 else nan) := by cases bf <;> rfl
  have ha : 0 < if bf then 0.09 else c2 := by cases bf <;> norm_num [h2]
  have hk : 0 < if bf then 1.5 else c3 := by cases bf <;> norm_num [h3]
  have hrp := roughness_pos (p := Textbook.iribarren H T c) hf hf1
  have o : (1.0 : PF) = fin 1 := by rw [sci_eq]; norm_num
  have hv : (check_validity_range_rubble_mound (fin c)).res = .ok () := by
    unfold check_validity_range_rubble_mound; simp
  have hd := d3_pos hH hrp hB one_pos hk
  have hy : 0 < q / Sc g H := by positivity
  have hq2 : q / Sc g H ≤ if bf then 0.09 else c2 := hq2
  refine ⟨_, G_nonneg ha hd hy hq2, ?_, ?_⟩
  · rw [Rr_split, PyM.bind_res_of_ok hp, e3]
    dsimp only
    rw [PyM.bind_res_of_ok hv, rubble_rough hH hT hc hf1 hr, o, Rmax_eval hH hrp hB one_pos hk ha hq hg,
      if_pos hq2, mul_fin, div_mul_cancel₀ _ hH.ne']
    rfl
  · rw [← maximum2018 hH hrp hB one_pos, F_G ha hd hy hq2]
    rfl
end

/-- C78: the default coefficients of EurOtop (2018) for rubble mounds are the design values -/
theorem C78_eurotop2018_rubble_defaults (H T x beta gB gf B db cot cd cu : PF) :
    OvertoppingEurOtop2018.calculate_overtopping_discharge_q_rubble_mound H T x beta gB gf B db cot cd cu =
      OvertoppingEurOtop2018.calculate_overtopping_discharge_q_rubble_mound H T x beta gB gf B db cot cd cu
        (fin 0.1035) (fin 1.35) false (fin 9.81) ∧
    OvertoppingEurOtop2018.calculate_crest_freeboard_Rc_rubble_mound H T x beta gB gf B db cot cd cu =
      OvertoppingEurOtop2018.calculate_crest_freeboard_Rc_rubble_mound H T x beta gB gf B db cot cd cu
        (fin 0.1035) (fin 1.35) false (fin 9.81) := ⟨rfl, rfl⟩

/-! ## Ordinary inputs -/

namespace FormulaProof
/-- a slope of 1:3 with waves of 2 m and 6 s has an Iribarren number below 10 -/
theorem ordinary : Textbook.iribarren 2 6 3 ≤ 10 := by
  unfold Textbook.iribarren Textbook.steepness
  rw [div_le_iff₀ (by positivity)]
  have h : (0.1 : ℝ) ≤ √(2 / (9.81 * 6 ^ 2 / (2 * Real.pi))) := by
    apply Real.le_sqrt_of_sq_le
    rw [le_div_iff₀ (by positivity), mul_div_assoc', div_le_iff₀ (by positivity)]
    have := Real.two_le_pi
    norm_num
    nlinarith
  norm_num at h ⊢
  linarith
end FormulaProof

example : ∃ (q : ℝ) (f : Bool),
    (OvertoppingTaw2002.calculate_overtopping_discharge_q (fin 2) (fin 6) (fin 3) (fin 3) nan nan nan 0 0
      (fin 0.9) (fin 1) (fin 0.7) (fin 1) (fin 1) (fin 9.81) true).res = .ok (fin q, f) ∧
    ∃ x r a b : ℝ, x = Textbook.iribarren 2 6 3 ∧ r = Published.roughness 0.7 (1 * x) ∧
      a = Published.breakingDischarge (4.75 + 0.5 * 1) 3 1 r 0.9 1 x (3 / 2) ∧
      b = Published.maximumDischarge 0.2 (2.6 + 0.35 * 1) r 0.9 (3 / 2) ∧
      q / √(9.81 * 2 ^ 3) = min a b ∧ (f = true ↔ b ≤ a) :=
  C78_taw_discharge_partial 2 6 3 0.7 1 0.9 1 1 nan 0 0 true (by norm_num) (by norm_num) (by norm_num)
    (by norm_num) (by norm_num) (by norm_num) (by norm_num) (by norm_num) (by norm_num) (Or.inr rfl)
    (Or.inr (Or.inr ⟨rfl, ordinary⟩)) 3 9.81 (by norm_num)

example : Returns (OvertoppingEurOtop2018.calculate_overtopping_discharge_q_rubble_mound (fin 2) (fin 6)
      (fin 3) nan (fin 0.9) (fin 0.5) 0 0 (fin 3) nan nan (fin 0.1035) (fin 1.35) true (fin 9.81))
      fun q => q / √(9.81 * 2 ^ 3) = Published.maximumDischarge2018 0.09 1.5
        (Published.roughness 0.5 (Textbook.iribarren 2 6 3)) 0.9 1 (3 / 2) :=
  C78_eurotop2018_rubble_discharge_partial 2 6 3 0.5 0.9 0.1035 1.35 nan 0 0 true (by norm_num)
    (by norm_num) (by norm_num) (by norm_num) (by norm_num) (by norm_num) (by norm_num) (by norm_num)
    (Or.inr ordinary) 3 9.81 (by norm_num) (by norm_num)

example : ∃ (q : ℝ) (f : Bool),
    (OvertoppingEurOtop2018.calculate_overtopping_discharge_q (fin 2) (fin 6) (fin 3) nan (fin 0.9) nan
      (fin 0.7) (fin 1) (fin 1) (cot_alpha := fin 3) (c1 := fin 2.5) (c2 := fin 0.1035) (c3 := fin 1.35)
      (c4 := fin 0.026) (use_best_fit := false) (g := fin 9.81)).res = .ok (fin q, f) ∧
    ∃ x r a b : ℝ, x = Textbook.iribarren 2 6 3 ∧ r = Published.roughness 0.7 x ∧
      a = Published.breakingDischarge2018 2.5 0.026 3 1 r 0.9 1 x (3 / 2) ∧
      b = Published.maximumDischarge2018 0.1035 1.35 0.7 0.9 1 (3 / 2) ∧
      q / √(9.81 * 2 ^ 3) = min a b ∧ (f = true ↔ b ≤ a) :=
  C78_eurotop2018_discharge_partial 2 6 3 0.7 1 1 0.9 2.5 0.1035 1.35 0.026 nan nan false (by norm_num)
    (by norm_num) (by norm_num) (by norm_num) (by norm_num) (by norm_num) (by norm_num) (by norm_num)
    (by norm_num) (by norm_num) (by norm_num) (by norm_num) (Or.inr ordinary) 3 9.81 (by norm_num)
    (by norm_num)

example : ∃ q q' : ℝ, 0 < q' ∧ q' < q ∧
    (OvertoppingEurOtop2007.calculate_overtopping_discharge_q_rubble_mound (fin 2) 6 (fin 3) (fin 40) nan
      (fin 0.5) 2 (fin 0.2) (fin 2.3) false (fin 9.81)).res = .ok (fin q) ∧
    (OvertoppingEurOtop2007.calculate_overtopping_discharge_q_rubble_mound (fin 2) 6 (fin 3) nan
      (fin (Published.obliqueness 0.0033 40)) (fin 0.5) 2 (fin 0.2) (fin 2.3) false (fin 9.81)).res =
        .ok (fin q') :=
  C78_eurotop2007_obliqueness_refuted 6 2 2 3 0.5 0.2 2.3 40 9.81 false (by norm_num) (by norm_num)
    (by norm_num) (by norm_num) (by norm_num) (by norm_num) (by norm_num) (by norm_num)

example : (Briganti2003.calculate_wave_transmission_Kt (fin 2) (fin 8) (fin 1) (fin 10) (fin 2)).res =
    .ok (fin (Published.briganti (1 / 2) (10 / 2) (Textbook.iribarren 2 8 2))) :=
  C78_briganti 2 8 10 2 (by norm_num) (by norm_num) (by norm_num) (by norm_num) 1

example : ∃ r r' : ℝ,
    OvertoppingTaw2002.calculate_influence_crest_wall_gamma_v (fin 60) = fin r ∧
    OvertoppingTaw2002.calculate_influence_crest_wall_gamma_v (fin 90) = fin r' ∧
    ((60 : ℝ) ≤ 45 → r = 1) ∧ ((45 : ℝ) < 60 → r = 1.35 - 0.0078 * 60) ∧ r' ≤ r ∧ 0.648 ≤ r' ∧ r ≤ 1 :=
  C78_crest_wall_factor 60 90 (by norm_num) le_rfl

end
