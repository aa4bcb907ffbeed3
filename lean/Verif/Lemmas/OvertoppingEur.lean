import Verif.Lemmas.Overtopping

/-! # Proof support for EurOtop 2007 and EurOtop 2018 -/

open Classical
open PF CorePhysics CoreUtility
noncomputable section

namespace TwoFormulas

/-- decay with the power 1.3, and its inverse -/
def F (A k R : ℝ) : ℝ := A * Real.exp (-(k * R) ^ (1.3 : ℝ))
def G (A k y : ℝ) : ℝ := (-Real.log (y / A)) ^ (1 / 1.3 : ℝ) / k

theorem F_pos {A : ℝ} (hA : 0 < A) (k R : ℝ) : 0 < F A k R := mul_pos hA (Real.exp_pos _)

theorem F_le_A {A k R : ℝ} (hA : 0 < A) (hk : 0 < k) (hR : 0 ≤ R) : F A k R ≤ A := by
  unfold F
  have : Real.exp (-(k * R) ^ (1.3 : ℝ)) ≤ 1 := by
    rw [Real.exp_le_one_iff]
    have : 0 ≤ (k * R) ^ (1.3 : ℝ) := by positivity
    linarith
  nlinarith

theorem G_F {A k R : ℝ} (hA : 0 < A) (hk : 0 < k) (hR : 0 ≤ R) : G A k (F A k R) = R := by
  unfold G F
  rw [mul_div_cancel_left₀ _ hA.ne', Real.log_exp, neg_neg, ← Real.rpow_mul (by positivity)]
  norm_num
  field_simp

theorem log_nonneg_of {A y : ℝ} (hA : 0 < A) (hy : 0 < y) (h : y ≤ A) : 0 ≤ -Real.log (y / A) := by
  rw [neg_nonneg]
  exact Real.log_nonpos (by positivity) ((div_le_one hA).mpr h)

theorem G_nonneg {A k y : ℝ} (hA : 0 < A) (hk : 0 < k) (hy : 0 < y) (h : y ≤ A) : 0 ≤ G A k y := by
  have := log_nonneg_of hA hy h
  unfold G; positivity

theorem F_G {A k y : ℝ} (hA : 0 < A) (hk : 0 < k) (hy : 0 < y) (h : y ≤ A) : F A k (G A k y) = y := by
  have := log_nonneg_of hA hy h
  unfold G F
  rw [mul_div_cancel₀ _ hk.ne', ← Real.rpow_mul this]
  norm_num
  rw [Real.exp_log (by positivity)]
  field_simp

theorem F_lt {A k R R' : ℝ} (hA : 0 < A) (hk : 0 < k) (hR : 0 ≤ R) (h : R < R') :
    F A k R' < F A k R := by
  unfold F
  refine mul_lt_mul_of_pos_left (Real.exp_lt_exp.mpr (neg_lt_neg ?_)) hA
  exact Real.rpow_lt_rpow (by positivity) (mul_lt_mul_of_pos_left h hk) (by norm_num)

theorem F_le {A k R R' : ℝ} (hA : 0 < A) (hk : 0 < k) (hR : 0 ≤ R) (h : R ≤ R') :
    F A k R' ≤ F A k R := by
  rcases h.eq_or_lt with rfl | h
  · exact le_rfl
  · exact (F_lt hA hk hR h).le

theorem G_lt {A k y y' : ℝ} (hA : 0 < A) (hk : 0 < k) (hy : 0 < y) (h : y < y') (h' : y' ≤ A) :
    G A k y' < G A k y := by
  by_contra hc
  have := F_le hA hk (G_nonneg hA hk hy (h.le.trans h')) (not_lt.mp hc)
  rw [F_G hA hk hy (h.le.trans h'), F_G hA hk (hy.trans h) h'] at this
  linarith

theorem G_le {A k y y' : ℝ} (hA : 0 < A) (hk : 0 < k) (hy : 0 < y) (h : y ≤ y') (h' : y' ≤ A) :
    G A k y' ≤ G A k y := by
  rcases h.eq_or_lt with rfl | h
  · exact le_rfl
  · exact (G_lt hA hk hy h h').le

theorem two_F {A B k l R : ℝ} (hA : 0 < A) (hB : 0 < B) (hk : 0 < k) (hl : 0 < l) (hR : 0 ≤ R) :
    G A k (F A k R ⊓ F B l R) ⊓ G B l (F A k R ⊓ F B l R) = R ∧
    (G B l (F A k R ⊓ F B l R) ≤ G A k (F A k R ⊓ F B l R) ↔ F B l R ≤ F A k R) := by
  refine two (G_F hA hk hR) (G_F hB hl hR) (fun h => ?_) (fun h => ?_)
  · have := G_le hA hk (F_pos hB l R) h (F_le_A hA hk hR)
    rwa [G_F hA hk hR] at this
  · have := G_lt hB hl (F_pos hA k R) h (F_le_A hB hl hR)
    rwa [G_F hB hl hR] at this

theorem two_G {A B k l y : ℝ} (hA : 0 < A) (hB : 0 < B) (hk : 0 < k) (hl : 0 < l) (hy : 0 < y)
    (h1 : y ≤ A) (h2 : y ≤ B) :
    F A k (G A k y ⊓ G B l y) ⊓ F B l (G A k y ⊓ G B l y) = y ∧
    (F B l (G A k y ⊓ G B l y) ≤ F A k (G A k y ⊓ G B l y) ↔ G B l y ≤ G A k y) := by
  refine two (F_G hA hk hy h1) (F_G hB hl hy h2) (fun h => ?_) (fun h => ?_)
  · have := F_le hA hk (G_nonneg hB hl hy h2) h
    rwa [F_G hA hk hy h1] at this
  · have := F_lt hB hl (G_nonneg hA hk hy h1) h
    rwa [F_G hB hl hy h2] at this

end TwoFormulas

namespace RunupTaw2002

/-- with berm factor 1 the adjusted roughness factor is a positive number for any Iribarren number
(also NaN, i.e. slope not given) -/
theorem rough_any {gf : ℝ} (h0 : 0 < gf) (h1 : gf ≤ 1) (x : PF) : ∃ r : ℝ, 0 < r ∧
    calculate_adjusted_influence_roughness_gamma_f (fin gf) 1.0 x = fin r ∧
    (x = nan ∨ x = fin 0 → r = gf) := by
  have e1 : (1.0 : PF) = fin 1 := by rw [sci_eq]; norm_num
  have e10 : (10.0 : PF) = fin 10 := by rw [sci_eq]; norm_num
  have mp : mulInf 1 = pinf := by simp [mulInf]
  cases x with
  | fin x =>
    rw [e1, rough_eval]
    by_cases hx : 0 < x
    · refine ⟨_, rough_pos h0 h1 le_rfl hx, rfl, ?_⟩
      rintro (h | h)
      · cases h
      · simp only [fin_inj] at h; linarith
    · refine ⟨gf, h0, ?_, fun _ => rfl⟩
      unfold rough
      rw [if_neg]
      rintro ⟨h, -⟩
      rw [one_mul] at h
      norm_num at h
      linarith
  | nan =>
    refine ⟨gf, h0, ?_, fun _ => rfl⟩
    unfold calculate_adjusted_influence_roughness_gamma_f
    refine whr_false ?_ _ _
    rintro ⟨h, -⟩
    rw [mul_nan] at h
    exact le_nan _ h
  | pinf =>
    refine ⟨gf, h0, ?_, by rintro (h | h) <;> cases h⟩
    unfold calculate_adjusted_influence_roughness_gamma_f
    refine whr_false ?_ _ _
    rintro ⟨-, h⟩
    rw [e1, show fin 1 * pinf = mulInf 1 from rfl, mp, e10] at h
    exact h
  | ninf =>
    refine ⟨gf, h0, ?_, by rintro (h | h) <;> cases h⟩
    unfold calculate_adjusted_influence_roughness_gamma_f
    refine whr_false ?_ _ _
    rintro ⟨h, -⟩
    rw [e1, show fin 1 * ninf = neg (mulInf 1) from rfl, mp, sci_eq] at h
    exact h

end RunupTaw2002

/-! ## EurOtop 2007 -/
namespace OvertoppingTaw2002
open TwoFormulas

theorem qmax_eval {H r gB k a R : ℝ} (hH : 0 < H) (hr : 0 < r) (hB : 0 < gB) :
    q_diml_max_equation (fin H) (fin R) (fin gB) (fin r) (fin k) (c2 := fin a) =
      fin (E a (k / (H * (r * gB))) R) := by
  have e1 : (1.0 : PF) = fin 1 := by rw [sci_eq]; norm_num
  have e0 : (0.0 : PF) = fin 0 := by rw [sci_eq]; norm_num
  unfold q_diml_max_equation E
  rw [e1, e0]
  simp only [mul_fin, add_fin]
  rw [div_fin hH.ne', div_fin (by positivity), neg_fin]
  simp only [mul_fin, exp_fin]
  congr 3
  field_simp
  ring

theorem Rmax_eval {H r gB k a q : ℝ} (hH : 0 < H) (hr : 0 < r) (hB : 0 < gB) (hk : 0 < k)
    (ha : 0 < a) (hq : 0 < q) :
    Rc_diml_max_equation (fin H) (fin q) (fin gB) (fin r) (fin k) (c2 := fin a) =
      fin (L a (k / (H * (r * gB))) (q / Sc 9.81 H) / H) := by
  have hS := Sc_pos (g := 9.81) (by norm_num) hH
  have e1 : (1.0 : PF) = fin 1 := by rw [sci_eq]; norm_num
  have e0 : fin k + (0.0 : PF) = fin k := by rw [sci_eq, add_fin]; norm_num
  unfold Rc_diml_max_equation L
  have eS : PF.sqrt (9.81 * npow (fin H) 3) = fin (Sc 9.81 H) := Sc_eval (by norm_num) hH
  rw [eS, e0]
  generalize Sc 9.81 H = S at *
  rw [e1, div_fin ha.ne', neg_fin, div_fin hk.ne']
  simp only [mul_fin]
  rw [div_fin hS.ne', log_fin (by positivity)]
  simp only [mul_fin]
  have : 1 / a * q / S = q / S / a := by
    field_simp
  rw [this]
  congr 1
  field_simp

end OvertoppingTaw2002

namespace OvertoppingEurOtop2007
open TwoFormulas
open OvertoppingTaw2002 (Sc Sc_pos Sc_eval qmax_eval Rmax_eval)

theorem best_ok {c2 c3 : ℝ} (bf : Bool) (h2 : 0 < c2) (h3 : 0 < c3) : ∃ a k : ℝ, 0 < a ∧ 0 < k ∧
    check_best_fit (fin c2) (fin c3) bf = (fin a, fin k) := by
  cases bf
  · exact ⟨c2, c3, h2, h3, rfl⟩
  · exact ⟨0.2, 2.6, by norm_num, by norm_num, rfl⟩

theorem oblique_ok {beta gB' : PF} (hgB : OmittedOr (0 < ·) gB')
    (hg : ¬ gB'.isnan ∨ ¬ beta.isnan) : ∃ (calculate : Bool) (gB : ℝ), 0 < gB ∧
    RunupTaw2002.check_calculate_gamma_beta beta gB' = pure calculate ∧
    (if calculate then RunupTaw2002.calculate_influence_oblique_waves_gamma_beta beta else gB') =
      fin gB := by
  unfold RunupTaw2002.check_calculate_gamma_beta
  rcases hgB with rfl | ⟨r, rfl, hr⟩
  · have hb : ¬ beta.isnan := hg.resolve_left (by simp)
    obtain ⟨r, hr, h0, -⟩ := RunupTaw2002.obl_any beta hb (c := 0.0022) (by norm_num) (by norm_num)
    exact ⟨true, r, by linarith, by simp [hb], hr⟩
  · exact ⟨false, r, hr, by simp, by simp⟩

/-- both functions as one exponential and its inverse -/
theorem both {H gf c2 c3 : ℝ} {T beta gB' cot : PF} (bf : Bool) (hH : 0 < H) (hf : 0 < gf)
    (hf1 : gf ≤ 1) (h2 : 0 < c2) (h3 : 0 < c3) (hgB : OmittedOr (0 < ·) gB')
    (hg : ¬ gB'.isnan ∨ ¬ beta.isnan) : ∃ A k : ℝ, 0 < A ∧ 0 < k ∧
    (∀ R g : ℝ, 0 < g → (calculate_overtopping_discharge_q_rubble_mound (fin H) T (fin R) beta gB'
      (fin gf) cot (fin c2) (fin c3) bf (fin g)).res = .ok (fin (E A k R * Sc g H))) ∧
    (∀ q : ℝ, 0 < q → (calculate_crest_freeboard_Rc_rubble_mound (fin H) T (fin q) beta gB'
      (fin gf) cot (fin c2) (fin c3) bf).res = .ok (fin (L A k (q / Sc 9.81 H)))) := by
  obtain ⟨cl, gB, hB, e1, e2⟩ := oblique_ok hgB hg
  obtain ⟨a, k, ha, hk, e3⟩ := best_ok bf h2 h3
  obtain ⟨r, hr, e4, -⟩ := RunupTaw2002.rough_any hf hf1
    (calculate_Iribarren_number_ksi (fin H) T cot)
  refine ⟨a, k / (H * (r * gB)), ha, by positivity, fun R g hg => ?_, fun q hq => ?_⟩
  · unfold calculate_overtopping_discharge_q_rubble_mound
      calculate_dimensionless_overtopping_discharge_q_rubble_mound
    rw [e1, e3, pure_bind]
    dsimp only
    rw [e2, e4, pure_bind, qmax_eval hH hr hB, Sc_eval hg hH, mul_fin]
    rfl
  · unfold calculate_crest_freeboard_Rc_rubble_mound
      calculate_dimensionless_crest_freeboard_rubble_mound
    rw [e1, e3, pure_bind]
    dsimp only
    rw [e2, e4, pure_bind, Rmax_eval hH hr hB hk ha hq, mul_fin, div_mul_cancel₀ _ hH.ne']
    rfl

end OvertoppingEurOtop2007

/-! ## EurOtop 2018 -/
namespace OvertoppingEurOtop2018
open TwoFormulas
open RunupTaw2002 (obl_any gamma_b_cases rough rough_eval rough_pos)
open OvertoppingTaw2002 (Sc Sc_pos Sc_eval bad_slope min_fin_inv)

theorem not_int {y : ℝ} (h0 : 0 < y) (h : (y < 1) ∨ (1 < y ∧ y < 2)) (n : ℤ) : (n : ℝ) ≠ y := by
  rintro rfl
  rcases h with h | ⟨h1, h2⟩
  · have h1 : 0 < n := by exact_mod_cast h0
    have h2 : n < 1 := by exact_mod_cast h
    omega
  · have h1 : 1 < n := by exact_mod_cast h1
    have h2 : n < 2 := by exact_mod_cast h2
    omega

theorem pow_13 {x : ℝ} (h : 0 ≤ x) : npow (fin x) 1.3 = fin (x ^ (1.3 : ℝ)) := by
  rw [sci_eq, npow_fin_nonneg h (by norm_num)]
theorem pow_13_neg {x : ℝ} (h : x < 0) : npow (fin x) 1.3 = nan := by
  rw [sci_eq]
  exact npow_neg_base h (not_int (by norm_num) (by norm_num))
theorem inv_13 : (1.0 / 1.3 : PF) = fin (1 / 1.3) := by
  rw [sci_eq, sci_eq, div_fin (by norm_num), VdMProof.one_sci]
theorem pow_inv {x : ℝ} (h : 0 ≤ x) : npow (fin x) (1.0 / 1.3) = fin (x ^ (1 / 1.3 : ℝ)) := by
  rw [inv_13, npow_fin_nonneg h (by norm_num)]
theorem pow_inv_neg {x : ℝ} (h : x < 0) : npow (fin x) (1.0 / 1.3) = nan := by
  rw [inv_13]
  exact npow_neg_base h (not_int (by norm_num) (by norm_num))

/-- decay with the power 1.3 of anything -/
theorem exp_pow {a d R : ℝ} (hd : 0 < d) :
    fin a * PF.exp (-1.0 * npow (fin (d * R)) 1.3) = if 0 ≤ R then fin (F a d R) else nan := by
  have e1 : (1.0 : PF) = fin 1 := by rw [sci_eq]; norm_num
  split_ifs with h
  · rw [pow_13 (by positivity), e1, neg_fin, mul_fin, exp_fin, mul_fin]
    unfold F
    congr 3
    ring
  · rw [pow_13_neg (mul_neg_of_pos_of_neg hd (not_le.mp h)), mul_nan]
    exact mul_nan _

/-- and its inverse -/
theorem log_pow {A d y H : ℝ} (hA : 0 < A) (hy : 0 < y) :
    npow (-(PF.log (fin (y / A)))) (1.0 / 1.3) * fin (1 / (d * H)) =
      if y ≤ A then fin (G A d y / H) else nan := by
  rw [log_fin (by positivity), neg_fin]
  split_ifs with h
  · rw [pow_inv (log_nonneg_of hA hy h), mul_fin]
    unfold G
    congr 1
    rw [div_div]; ring
  · rw [pow_inv_neg, nan_mul]
    rw [neg_lt_zero]
    exact Real.log_pos ((one_lt_div hA).mpr (not_le.mp h))

theorem log_pow_cases {A y : ℝ} (hA : 0 < A) (hy : 0 < y) :
    npow (-(PF.log (fin (y / A)))) (1.0 / 1.3) = nan ∨
    ∃ x : ℝ, npow (-(PF.log (fin (y / A)))) (1.0 / 1.3) = fin x := by
  rw [log_fin (by positivity), neg_fin]
  rcases le_or_gt 0 (-Real.log (y / A)) with h | h
  · exact Or.inr ⟨_, pow_inv h⟩
  · exact Or.inl (pow_inv_neg h)

theorem qmax_eval {H r gB gs k a R : ℝ} (hH : 0 < H) (hr : 0 < r) (hB : 0 < gB) (hs : 0 < gs)
    (hk : 0 < k) :
    q_diml_max_equation (fin H) (fin R) (fin gB) (fin r) (fin gs) (fin a) (fin k) =
      if 0 ≤ R then fin (F a (k / (H * (r * gB * gs))) R) else nan := by
  rw [← exp_pow (by positivity)]
  have e1 : (1.0 : PF) = fin 1 := by rw [sci_eq]; norm_num
  unfold q_diml_max_equation
  rw [div_fin hH.ne']
  simp only [mul_fin]
  have : (1.0 / fin (r * gB * gs) : PF) = fin (1 / (r * gB * gs)) := by
    rw [e1, div_fin (by positivity)]
  rw [this, mul_fin]
  congr 5
  field_simp

theorem Rmax_eval {H r gB gs k a q g : ℝ} (hH : 0 < H) (hr : 0 < r) (hB : 0 < gB) (hs : 0 < gs)
    (hk : 0 < k) (ha : 0 < a) (hq : 0 < q) (hg : 0 < g) :
    Rc_diml_max_equation (fin H) (fin q) (fin gB) (fin r) (fin gs) (fin a) (fin k) (fin g) =
      if q / Sc g H ≤ a then fin (G a (k / (H * (r * gB * gs))) (q / Sc g H) / H) else nan := by
  have hS := Sc_pos hg hH
  rw [← log_pow ha (by positivity)]
  have e1 : (1.0 : PF) = fin 1 := by rw [sci_eq]; norm_num
  unfold Rc_diml_max_equation
  rw [Sc_eval hg hH, div_fin hS.ne']
  have h1 : (1.0 / fin a : PF) = fin (1 / a) := by rw [e1, div_fin ha.ne']
  have h2 : (1.0 / fin k : PF) = fin (1 / k) := by rw [e1, div_fin hk.ne']
  rw [h1, h2, mul_fin]
  have h3 : 1 / (k / (H * (r * gB * gs)) * H) = 1 / k * r * gB * gs := by field_simp
  rw [h3, show q / Sc g H * (1 / a) = q / Sc g H / a by ring]
  rcases log_pow_cases (y := q / Sc g H) ha (by positivity) with h | ⟨x, h⟩
  · simp only [h, nan_mul]
  · simp only [h, mul_fin]; congr 1; ring

/-- the common first part of the discharge and the freeboard function; `bf` is whether the run-up
iteration gets the best-fit coefficients -/
def pre (Hm0 Tmm10 cot_alpha cot_alpha_down cot_alpha_up beta B_berm db gamma_beta gamma_f : PF)
    (bf : Bool) : PyM (PF × PF) := do
  let calculate ← RunupTaw2002.check_calculate_gamma_beta beta gamma_beta
  let gamma_beta := if calculate then calculate_influence_oblique_waves_gamma_beta beta gamma_f
    else gamma_beta
  let composite ← RunupTaw2002.check_composite_slope cot_alpha cot_alpha_down cot_alpha_up
  let cot_alpha ← (if composite then do
      let z2p_for_slope ← RunupEurOtop2018.iteration_procedure_z2p Hm0 Tmm10 cot_alpha_down
        cot_alpha_up B_berm db gamma_f gamma_beta (use_best_fit := bf)
      pure (RunupTaw2002.determine_average_slope Hm0 z2p_for_slope cot_alpha_down cot_alpha_up
        B_berm db)
    else pure cot_alpha : PyM PF)
  pure (gamma_beta, cot_alpha)

def berm (Hm0 Tmm10 cot_alpha_down cot_alpha_up B_berm db gamma_f : PF) (p : PF × PF) : PyM PF := do
  let L_berm ← RunupTaw2002.calculate_berm_length Hm0 B_berm p.2 cot_alpha_down cot_alpha_up
  RunupEurOtop2018.iteration_procedure_gamma_b Hm0 Tmm10 p.2 B_berm L_berm db
    p.1 (gamma_f := gamma_f)

def q510 (Hm0 Tmm10 Rc gamma_f gamma_v c1 c4 : PF) (p : PF × PF) (gamma_b : PF) : PF :=
  (c4 / PF.sqrt (1.0 / p.2)) * calculate_Iribarren_number_ksi Hm0 Tmm10 p.2 * gamma_b
    * PF.exp (-1.0 * npow (c1 * (Rc / Hm0)
        * (1.0 / (calculate_Iribarren_number_ksi Hm0 Tmm10 p.2 * gamma_b *
          RunupTaw2002.calculate_adjusted_influence_roughness_gamma_f gamma_f gamma_b
            (calculate_Iribarren_number_ksi Hm0 Tmm10 p.2) * p.1 * gamma_v))) 1.3)

def R510 (Hm0 Tmm10 q gamma_f gamma_v g c1 c4 : PF) (p : PF × PF) (gamma_b : PF) : PF :=
  npow (-(PF.log ((q / PF.sqrt (g * npow Hm0 3)) * PF.sqrt (1.0 / p.2)
      * (1.0 / c4) * (1.0 / (gamma_b * calculate_Iribarren_number_ksi Hm0 Tmm10 p.2))))) (1.0 / 1.3)
    * (1.0 / c1) * calculate_Iribarren_number_ksi Hm0 Tmm10 p.2 * gamma_b *
      RunupTaw2002.calculate_adjusted_influence_roughness_gamma_f gamma_f gamma_b
            (calculate_Iribarren_number_ksi Hm0 Tmm10 p.2) * p.1 * gamma_v

theorem q_split (H T R beta gB gb gf gv gs B db cot cd cu c1 c2 c3 c4 : PF) (bf : Bool) :
    calculate_dimensionless_overtopping_discharge_q H T R beta gB gb gf gv gs B db cot cd cu c1 c2 c3
      c4 bf =
    (do
      let p ← pre H T cot cd cu beta B db gB gf bf
      let b ← berm H T cd cu B db gf p
      let c := check_best_fit c1 c2 c3 c4 bf
      let x := q510 H T R gf gv c.1 c.2.2.2 p b
      let y := q_diml_max_equation H R p.1 gf gs (c2 := c.2.1) (c3 := c.2.2.1)
      pure (PF.min x y, decide (PF.eqF (PF.min x y) y)) : PyM (PF × Bool)) := by
  unfold calculate_dimensionless_overtopping_discharge_q pre berm q510
  simp only [bind_assoc, pure_bind]

theorem R_split (H T q beta gB gb gf gv gs B db cot cd cu c1 c2 c3 c4 g : PF) (bf : Bool) :
    calculate_dimensionless_crest_freeboard H T q beta gB gb gf gv gs B db cot cd cu c1 c2 c3
      c4 bf g =
    (do
      let p ← pre H T cot cd cu beta B db gB gf false
      let b ← berm H T cd cu B db gf p
      let c := check_best_fit c1 c2 c3 c4 bf
      let x := R510 H T q gf gv g c.1 c.2.2.2 p b
      let y := Rc_diml_max_equation H q p.1
        (RunupTaw2002.calculate_adjusted_influence_roughness_gamma_f gf b
            (calculate_Iribarren_number_ksi H T p.2)) gs (c2 := c.2.1) (c3 := c.2.2.1) (g := g)
      pure (PF.min x y, decide (PF.eqF (PF.min x y) y)) : PyM (PF × Bool)) := by
  unfold calculate_dimensionless_crest_freeboard pre berm R510
  simp only [bind_assoc, pure_bind]

theorem qr_split (H T R beta gB gf B db cot cd cu c2 c3 g : PF) (bf : Bool) :
    (calculate_overtopping_discharge_q_rubble_mound H T R beta gB gf B db cot cd cu c2 c3 bf g).res =
    (do
      let p ← pre H T cot cd cu beta B db gB gf bf
      let c := check_best_fit nan c2 c3 nan bf
      check_validity_range_rubble_mound p.2
      pure (q_diml_max_equation H R p.1
        (RunupTaw2002.calculate_adjusted_influence_roughness_gamma_f gf 1.0
            (calculate_Iribarren_number_ksi H T p.2)) (c2 := c.2.1) (c3 := c.2.2.1) *
              PF.sqrt (g * npow H 3)) : PyM PF).res := by
  unfold calculate_overtopping_discharge_q_rubble_mound
    calculate_dimensionless_overtopping_discharge_q_rubble_mound pre
  simp only [bind_assoc, pure_bind]

theorem Rr_split (H T q beta gB gf B db cot cd cu c2 c3 g : PF) (bf : Bool) :
    (calculate_crest_freeboard_Rc_rubble_mound H T q beta gB gf B db cot cd cu c2 c3 bf g).res =
    (do
      let p ← pre H T cot cd cu beta B db gB gf false
      let c := check_best_fit nan c2 c3 nan bf
      check_validity_range_rubble_mound p.2
      pure (Rc_diml_max_equation H q p.1
        (RunupTaw2002.calculate_adjusted_influence_roughness_gamma_f gf 1.0
            (calculate_Iribarren_number_ksi H T p.2)) (c2 := c.2.1) (c3 := c.2.2.1) (g := g) *
              H) : PyM PF).res := by
  unfold calculate_crest_freeboard_Rc_rubble_mound
    calculate_dimensionless_crest_freeboard_rubble_mound pre
  simp only [bind_assoc, pure_bind]

/-- the best-fit flag only matters to the iteration on a composite slope -/
theorem pre_single (H T cot cu beta B db gB gf : PF) (bf : Bool) :
    pre H T cot nan cu beta B db gB gf bf = pre H T cot nan cu beta B db gB gf false := by
  unfold pre RunupTaw2002.check_composite_slope
  by_cases h : cot.isnan <;> simp [h, PyM.bind_ok, PyM.bind_error]

theorem oblique_pos {beta : PF} (hb : ¬ beta.isnan) (gf : PF) : ∃ r : ℝ,
    calculate_influence_oblique_waves_gamma_beta beta gf = fin r ∧ 0 < r ∧ r ≤ 1 := by
  unfold calculate_influence_oblique_waves_gamma_beta
    RunupEurOtop2018.calculate_influence_oblique_waves_gamma_beta
  dsimp only
  split_ifs
  · obtain ⟨r, hr, h0, h1⟩ := obl_any beta hb (c := 0.0033) (by norm_num) (by norm_num)
    exact ⟨r, hr, by linarith, h1⟩
  · obtain ⟨r, hr, h0, h1⟩ := obl_any beta hb (c := 0.0063) (by norm_num) (by norm_num)
    exact ⟨r, hr, by linarith, h1⟩

theorem pre_inv {H T cot cd cu beta B db gB gf : PF} {bf : Bool} {p : PF × PF}
    (hgB : OmittedOr (0 < ·) gB)
    (h : (pre H T cot cd cu beta B db gB gf bf).res = .ok p) : ∃ r : ℝ, p.1 = fin r ∧ 0 < r := by
  unfold pre at h
  obtain ⟨calc', h1, h, -⟩ := PyM.bind_inv h
  dsimp only at h
  obtain ⟨comp, -, h, -⟩ := PyM.bind_inv h
  obtain ⟨ca, -, h, -⟩ := PyM.bind_inv h
  have hp : ((if calc' then calculate_influence_oblique_waves_gamma_beta beta gf else gB), ca) = p := by
    simpa using h
  subst hp
  dsimp only
  unfold RunupTaw2002.check_calculate_gamma_beta at h1
  split_ifs at h1 with g1 g2
  · simp [PyM.raise] at h1
  · have : calc' = true := by simpa using h1.symm
    subst this
    rw [if_pos rfl]
    have hb : ¬ beta.isnan := fun hb => g1 ⟨hb, g2⟩
    obtain ⟨r, hr, h0, -⟩ := oblique_pos hb gf
    exact ⟨r, hr, h0⟩
  · have : calc' = false := by simpa using h1.symm
    subst this
    rw [if_neg (by simp)]
    rcases hgB with rfl | h
    · exact absurd trivial g2
    · exact h

theorem berm_inv {H T cd cu B db gf b : PF} {p : PF × PF}
    (h : (berm H T cd cu B db gf p).res = .ok b) : b = nan ∨ ∃ r : ℝ, b = fin r ∧ 0 < r ∧ r ≤ 1 := by
  unfold berm at h
  obtain ⟨L, -, h, -⟩ := PyM.bind_inv h
  unfold RunupEurOtop2018.iteration_procedure_gamma_b at h
  rcases gamma_b_cases h with h | ⟨r, h, h3, h4⟩
  · exact Or.inl h
  · exact Or.inr ⟨r, h, by linarith, h4⟩

theorem best_ok {c1 c2 c3 c4 : ℝ} (bf : Bool) (h1 : 0 < c1) (h2 : 0 < c2) (h3 : 0 < c3) (h4 : 0 < c4) :
    ∃ k1 k2 k3 k4 : ℝ, 0 < k1 ∧ 0 < k2 ∧ 0 < k3 ∧ 0 < k4 ∧
    check_best_fit (fin c1) (fin c2) (fin c3) (fin c4) bf = (fin k1, fin k2, fin k3, fin k4) := by
  cases bf
  · exact ⟨c1, c2, c3, c4, h1, h2, h3, h4, rfl⟩
  · exact ⟨2.7, 0.09, 1.5, 0.023, by norm_num, by norm_num, by norm_num, by norm_num, rfl⟩

/-- amplitude and decay of the first formula -/
def A1 (H T c gb k4 : ℝ) : ℝ := k4 / √(1.0 / c) * VdMProof.xi H T c * gb
def d1 (H T c gb gf gB gv k : ℝ) : ℝ :=
  k / (H * (VdMProof.xi H T c * gb * rough gf gb (VdMProof.xi H T c) * gB * gv))

theorem A1_pos {H T c gb k4 : ℝ} (hH : 0 < H) (hT : 0 < T) (hc : 0 < c) (hb : 0 < gb) (h4 : 0 < k4) :
    0 < A1 H T c gb k4 := by
  have := VdMProof.xi_pos hH hT hc
  unfold A1; positivity
theorem d1_pos {H T c gb gf gB gv k : ℝ} (hH : 0 < H) (hT : 0 < T) (hc : 0 < c) (hb : 0 < gb)
    (hb1 : gb ≤ 1) (hf : 0 < gf) (hf1 : gf ≤ 1) (hB : 0 < gB) (hv : 0 < gv) (hk : 0 < k) :
    0 < d1 H T c gb gf gB gv k := by
  have hx := VdMProof.xi_pos hH hT hc
  have := rough_pos (gb := gb) hf hf1 hb1 hx
  unfold d1; positivity

theorem q510_eval {H T c gb gf gB gv k1 k4 R : ℝ} (hH : 0 < H) (hT : 0 < T) (hc : 0 < c)
    (hb : 0 < gb) (hb1 : gb ≤ 1) (hf : 0 < gf) (hf1 : gf ≤ 1) (hB : 0 < gB) (hv : 0 < gv)
    (hk : 0 < k1) :
    q510 (fin H) (fin T) (fin R) (fin gf) (fin gv) (fin k1) (fin k4) (fin gB, fin c) (fin gb) =
      if 0 ≤ R then fin (F (A1 H T c gb k4) (d1 H T c gb gf gB gv k1) R) else nan := by
  rw [← exp_pow (d1_pos hH hT hc hb hb1 hf hf1 hB hv hk)]
  have hx := VdMProof.xi_pos hH hT hc
  have hr := rough_pos (gb := gb) hf hf1 hb1 hx
  have e1 : (1.0 : PF) = fin 1 := by rw [sci_eq]; norm_num
  unfold q510 A1 d1
  dsimp only
  rw [VdMProof.xi_eval hH hT hc, rough_eval, VdMProof.one_sci]
  generalize VdMProof.xi H T c = x at *
  generalize rough gf gb x = r at *
  have h1 : PF.sqrt (1.0 / fin c) = fin √(1 / c) := by
    rw [e1, div_fin hc.ne', sqrt_fin (by positivity)]
  rw [h1, div_fin (by positivity), div_fin hH.ne']
  simp only [mul_fin]
  have h2 : (1.0 / fin (x * gb * r * gB * gv) : PF) = fin (1 / (x * gb * r * gB * gv)) := by
    rw [e1, div_fin (by positivity)]
  rw [h2, mul_fin]
  congr 5
  field_simp

theorem R510_eval {H T c gb gf gB gv k1 k4 q g : ℝ} (hH : 0 < H) (hT : 0 < T) (hc : 0 < c)
    (hb : 0 < gb) (hb1 : gb ≤ 1) (hf : 0 < gf) (hf1 : gf ≤ 1) (hB : 0 < gB) (hv : 0 < gv)
    (hk : 0 < k1) (h4 : 0 < k4) (hg : 0 < g) (hq : 0 < q) :
    R510 (fin H) (fin T) (fin q) (fin gf) (fin gv) (fin g) (fin k1) (fin k4) (fin gB, fin c) (fin gb) =
      if q / Sc g H ≤ A1 H T c gb k4 then
        fin (G (A1 H T c gb k4) (d1 H T c gb gf gB gv k1) (q / Sc g H) / H) else nan := by
  have hS := Sc_pos hg hH
  have hA := A1_pos hH hT hc hb h4
  rw [← log_pow hA (by positivity)]
  have hx := VdMProof.xi_pos hH hT hc
  have hr := rough_pos (gb := gb) hf hf1 hb1 hx
  have e1 : (1.0 : PF) = fin 1 := by rw [sci_eq]; norm_num
  have hlog := log_pow_cases (y := q / Sc g H) hA (by positivity)
  unfold R510 d1
  unfold A1 at *
  dsimp only
  rw [VdMProof.xi_eval hH hT hc, rough_eval]
  rw [VdMProof.one_sci] at *
  generalize VdMProof.xi H T c = x at *
  generalize rough gf gb x = r at *
  have h1 : PF.sqrt (1.0 / fin c) = fin √(1 / c) := by
    rw [e1, div_fin hc.ne', sqrt_fin (by positivity)]
  have h2 : (1.0 / fin k4 : PF) = fin (1 / k4) := by rw [e1, div_fin h4.ne']
  have h3 : (1.0 / fin k1 : PF) = fin (1 / k1) := by rw [e1, div_fin hk.ne']
  have h5 : (1.0 / (fin gb * fin x) : PF) = fin (1 / (gb * x)) := by
    rw [e1, mul_fin, div_fin (by positivity)]
  have hs : 0 < √(1 / c) := by positivity
  rw [h1, h2, h3, h5, Sc_eval hg hH, div_fin hS.ne']
  simp only [mul_fin]
  generalize √(1 / c) = s at *
  generalize q / Sc g H = y at *
  rw [show y * s * (1 / k4) * (1 / (gb * x)) = y / (k4 / s * x * gb) by field_simp]
  have h6 : 1 / (k1 / (H * (x * gb * r * gB * gv)) * H) = 1 / k1 * x * gb * r * gB * gv := by
    field_simp
  rw [h6]
  rcases hlog with h | ⟨z, h⟩
  · simp only [h, nan_mul]
  · simp only [h, mul_fin]; congr 1; ring

theorem q510_inv {R gf gB gv c1 ca gb : PF} {h t k4 : ℝ} (h0 : 0 < h) (h4 : 0 < k4)
    (t0 : 0 < t) (hb : gb = nan ∨ ∃ r : ℝ, gb = fin r ∧ 0 < r ∧ r ≤ 1)
    (hn : q510 (fin h) (fin t) R gf gv c1 (fin k4) (gB, ca) gb ≠ nan) :
    (∃ c : ℝ, ca = fin c ∧ 0 < c) ∧ ∃ r : ℝ, gb = fin r ∧ 0 < r ∧ r ≤ 1 := by
  unfold q510 at hn
  dsimp only at hn
  have h2 := hb.resolve_left (by rintro rfl; simp [mul_nan, nan_mul] at hn)
  rcases bad_slope h0 t0 ca with h | ⟨h, -⟩
  · exact ⟨h, h2⟩
  · rw [h k4 h4] at hn
    simp [nan_mul] at hn

theorem R510_inv {gf gB gv c1 ca gb : PF} {h' t k4 q g : ℝ} (h0 : 0 < h') (h4 : 0 < k4)
    (t0 : 0 < t) (hg : 0 < g) (hb : gb = nan ∨ ∃ r : ℝ, gb = fin r ∧ 0 < r ∧ r ≤ 1)
    (hn : R510 (fin h') (fin t) (fin q) gf gv (fin g) c1 (fin k4) (gB, ca) gb ≠ nan) :
    (∃ c : ℝ, ca = fin c ∧ 0 < c) ∧ ∃ r : ℝ, gb = fin r ∧ 0 < r ∧ r ≤ 1 := by
  have e1 : (1.0 : PF) = fin 1 := by rw [sci_eq]; norm_num
  have hl : PF.log nan = nan := rfl
  unfold R510 at hn
  dsimp only at hn
  obtain ⟨r, hr, r0, r1⟩ := hb.resolve_left (by rintro rfl; simp [mul_nan, nan_mul] at hn)
  subst hr
  rcases bad_slope h0 t0 ca with h | ⟨-, -, h⟩
  · exact ⟨h, r, rfl, r0, r1⟩
  · have := h (q / Sc g h') (1 / k4) r (by positivity) r0
    rw [← div_fin h4.ne', ← e1] at this
    rw [Sc_eval hg h0, div_fin (Sc_pos hg h0).ne', this] at hn
    have hm : -nan = nan := rfl
    simp (disch := norm_num) only [nan_mul, hl, hm, sci_eq, ofNat_eq, div_fin, npow_nan_fin] at hn
    exact (hn rfl).elim

/-! ### whole calls -/

/-- decay of the maximum -/
def d3 (H r gB gs k : ℝ) : ℝ := k / (H * (r * gB * gs))
theorem d3_pos {H r gB gs k : ℝ} (hH : 0 < H) (hr : 0 < r) (hB : 0 < gB) (hs : 0 < gs) (hk : 0 < k) :
    0 < d3 H r gB gs k := by unfold d3; positivity

/-- everything a call needs: what the common first part gives, and the coefficients -/
structure Ctx (h t gf gv gs gB c gb k1 k2 k3 k4 : ℝ) (c1 c2 c3 c4 : ℝ) (bf : Bool) : Prop where
  h0 : 0 < h
  t0 : 0 < t
  hf : 0 < gf
  hf1 : gf ≤ 1
  hv : 0 < gv
  hs : 0 < gs
  hB : 0 < gB
  hc : 0 < c
  hb : 0 < gb
  hb1 : gb ≤ 1
  h1 : 0 < k1
  h2 : 0 < k2
  h3 : 0 < k3
  h4 : 0 < k4
  hK : check_best_fit (fin c1) (fin c2) (fin c3) (fin c4) bf = (fin k1, fin k2, fin k3, fin k4)

namespace Ctx
variable {h t gf gv gs gB c gb k1 k2 k3 k4 : ℝ} {c1 c2 c3 c4 : ℝ} {bf : Bool}
variable (X : Ctx h t gf gv gs gB c gb k1 k2 k3 k4 c1 c2 c3 c4 bf)
include X

theorem A : 0 < A1 h t c gb k4 := A1_pos X.h0 X.t0 X.hc X.hb X.h4
theorem d : 0 < d1 h t c gb gf gB gv k1 := d1_pos X.h0 X.t0 X.hc X.hb X.hb1 X.hf X.hf1 X.hB X.hv X.h1
theorem r : 0 < rough gf gb (VdMProof.xi h t c) :=
  rough_pos X.hf X.hf1 X.hb1 (VdMProof.xi_pos X.h0 X.t0 X.hc)

theorem q_res {cot cd cu beta B db gB' gb' : PF} {R g : ℝ} (hg : 0 < g) (hR : 0 ≤ R)
    (hp : (pre (fin h) (fin t) cot cd cu beta B db gB' (fin gf) bf).res = .ok (fin gB, fin c))
    (hb : (berm (fin h) (fin t) cd cu B db (fin gf) (fin gB, fin c)).res = .ok (fin gb)) :
    (calculate_overtopping_discharge_q (fin h) (fin t) (fin R) beta gB' gb' (fin gf) (fin gv) (fin gs)
      B db cot cd cu (fin c1) (fin c2) (fin c3) (fin c4) bf (fin g)).res =
    .ok (fin ((F (A1 h t c gb k4) (d1 h t c gb gf gB gv k1) R ⊓ F k2 (d3 h gf gB gs k3) R) * Sc g h),
      decide (F k2 (d3 h gf gB gs k3) R ≤ F (A1 h t c gb k4) (d1 h t c gb gf gB gv k1) R)) := by
  unfold calculate_overtopping_discharge_q
  rw [q_split, bind_assoc, PyM.bind_res_of_ok hp, bind_assoc, PyM.bind_res_of_ok hb, X.hK]
  dsimp only
  rw [pure_bind, q510_eval X.h0 X.t0 X.hc X.hb X.hb1 X.hf X.hf1 X.hB X.hv X.h1, if_pos hR,
    qmax_eval X.h0 X.hf X.hB X.hs X.h3, if_pos hR, min_fin, eqF_fin, Sc_eval hg X.h0, mul_fin]
  simp only [inf_eq_right, PyM.pure_def]
  rfl

theorem q_neg {cot cd cu beta B db gB' gb' : PF} {R g : ℝ} (hR : R < 0)
    (hp : (pre (fin h) (fin t) cot cd cu beta B db gB' (fin gf) bf).res = .ok (fin gB, fin c))
    (hb : (berm (fin h) (fin t) cd cu B db (fin gf) (fin gB, fin c)).res = .ok (fin gb)) :
    (calculate_overtopping_discharge_q (fin h) (fin t) (fin R) beta gB' gb' (fin gf) (fin gv) (fin gs)
      B db cot cd cu (fin c1) (fin c2) (fin c3) (fin c4) bf (fin g)).res = .ok (nan, false) := by
  unfold calculate_overtopping_discharge_q
  rw [q_split, bind_assoc, PyM.bind_res_of_ok hp, bind_assoc, PyM.bind_res_of_ok hb, X.hK]
  dsimp only
  rw [pure_bind, q510_eval X.h0 X.t0 X.hc X.hb X.hb1 X.hf X.hf1 X.hB X.hv X.h1, if_neg (not_le.mpr hR),
    qmax_eval X.h0 X.hf X.hB X.hs X.h3, if_neg (not_le.mpr hR)]
  simp [PF.min, nan_mul, PF.eqF]

theorem R_res {cot cd cu beta B db gB' gb' : PF} {q g : ℝ} (hg : 0 < g) (hq : 0 < q)
    (hq1 : q / Sc g h ≤ A1 h t c gb k4) (hq2 : q / Sc g h ≤ k2)
    (hp : (pre (fin h) (fin t) cot cd cu beta B db gB' (fin gf) false).res = .ok (fin gB, fin c))
    (hb : (berm (fin h) (fin t) cd cu B db (fin gf) (fin gB, fin c)).res = .ok (fin gb)) :
    (calculate_crest_freeboard_Rc (fin h) (fin t) (fin q) beta gB' gb' (fin gf) (fin gv) (fin gs)
      B db cot cd cu (fin c1) (fin c2) (fin c3) (fin c4) bf (fin g)).res =
    .ok (fin (G (A1 h t c gb k4) (d1 h t c gb gf gB gv k1) (q / Sc g h) ⊓
        G k2 (d3 h (rough gf gb (VdMProof.xi h t c)) gB gs k3) (q / Sc g h)),
      decide (G k2 (d3 h (rough gf gb (VdMProof.xi h t c)) gB gs k3) (q / Sc g h) ≤
        G (A1 h t c gb k4) (d1 h t c gb gf gB gv k1) (q / Sc g h))) := by
  unfold calculate_crest_freeboard_Rc
  rw [R_split, bind_assoc, PyM.bind_res_of_ok hp, bind_assoc, PyM.bind_res_of_ok hb, X.hK]
  dsimp only
  rw [pure_bind, R510_eval X.h0 X.t0 X.hc X.hb X.hb1 X.hf X.hf1 X.hB X.hv X.h1 X.h4 hg hq, if_pos hq1,
    VdMProof.xi_eval X.h0 X.t0 X.hc, rough_eval, Rmax_eval X.h0 X.r X.hB X.hs X.h3 X.h2 hq hg,
    if_pos hq2, min_fin, eqF_fin, mul_fin, min_mul_of_nonneg _ _ X.h0.le]
  simp only [inf_eq_right, PyM.pure_def, div_le_div_iff_of_pos_right X.h0, div_mul_cancel₀ _ X.h0.ne']
  rfl

theorem R_range {cot cd cu beta B db gB' gb' : PF} {q g R : ℝ} {m : Bool} (hg : 0 < g) (hq : 0 < q)
    (hp : (pre (fin h) (fin t) cot cd cu beta B db gB' (fin gf) false).res = .ok (fin gB, fin c))
    (hb : (berm (fin h) (fin t) cd cu B db (fin gf) (fin gB, fin c)).res = .ok (fin gb))
    (hr : (calculate_crest_freeboard_Rc (fin h) (fin t) (fin q) beta gB' gb' (fin gf) (fin gv) (fin gs)
      B db cot cd cu (fin c1) (fin c2) (fin c3) (fin c4) bf (fin g)).res = .ok (fin R, m)) :
    q / Sc g h ≤ A1 h t c gb k4 ∧ q / Sc g h ≤ k2 := by
  unfold calculate_crest_freeboard_Rc at hr
  rw [R_split, bind_assoc, PyM.bind_res_of_ok hp, bind_assoc, PyM.bind_res_of_ok hb, X.hK] at hr
  dsimp only at hr
  rw [pure_bind, R510_eval X.h0 X.t0 X.hc X.hb X.hb1 X.hf X.hf1 X.hB X.hv X.h1 X.h4 hg hq,
    VdMProof.xi_eval X.h0 X.t0 X.hc, rough_eval, Rmax_eval X.h0 X.r X.hB X.hs X.h3 X.h2 hq hg] at hr
  by_contra hc
  rw [not_and_or] at hc
  rcases hc with hc | hc
  · rw [if_neg hc] at hr
    simp [PF.min, nan_mul] at hr
  · rw [if_neg hc] at hr
    split_ifs at hr <;> simp [PF.min, nan_mul] at hr

end Ctx

theorem q_inv {h t gf gv gs g c1 c2 c3 c4 R : ℝ} {cot cd cu beta B db gB' gb' : PF} {bf : Bool} {v : ℝ}
    {m : Bool} (h0 : 0 < h) (t0 : 0 < t) (hf : 0 < gf) (hf1 : gf ≤ 1) (hv : 0 < gv) (hs : 0 < gs)
    (h1 : 0 < c1) (h2 : 0 < c2) (h3 : 0 < c3) (h4 : 0 < c4) (hgB : OmittedOr (0 < ·) gB')
    (hr : (calculate_overtopping_discharge_q (fin h) (fin t) (fin R) beta gB' gb' (fin gf) (fin gv)
      (fin gs) B db cot cd cu (fin c1) (fin c2) (fin c3) (fin c4) bf (fin g)).res = .ok (fin v, m)) :
    0 ≤ R ∧ ∃ gB c gb k1 k2 k3 k4 : ℝ, Ctx h t gf gv gs gB c gb k1 k2 k3 k4 c1 c2 c3 c4 bf ∧
      (pre (fin h) (fin t) cot cd cu beta B db gB' (fin gf) bf).res = .ok (fin gB, fin c) ∧
      (berm (fin h) (fin t) cd cu B db (fin gf) (fin gB, fin c)).res = .ok (fin gb) := by
  have hr' := hr
  unfold calculate_overtopping_discharge_q at hr
  rw [q_split, bind_assoc] at hr
  obtain ⟨⟨p1, p2⟩, hp, hr, -⟩ := PyM.bind_inv hr
  obtain ⟨b, hb, hr, -⟩ := PyM.bind_inv (by rwa [bind_assoc] at hr)
  obtain ⟨k1, k2, k3, k4, g1, g2, g3, g4, hK⟩ := best_ok bf h1 h2 h3 h4
  obtain ⟨gB, e1, hB⟩ := pre_inv hgB hp
  dsimp only at e1
  rw [hK] at hr
  have hq : q510 (fin h) (fin t) (fin R) (fin gf) (fin gv) (fin k1) (fin k4) (p1, p2) b ≠ nan := by
    intro hc
    rw [pure_bind, hc] at hr
    simp [PF.min, nan_mul] at hr
  obtain ⟨⟨c, e2, hc⟩, gb, e3, hb0, hb1⟩ := q510_inv h0 g4 t0 (berm_inv hb) hq
  subst e1 e2 e3
  have X : Ctx h t gf gv gs gB c gb k1 k2 k3 k4 c1 c2 c3 c4 bf :=
    ⟨h0, t0, hf, hf1, hv, hs, hB, hc, hb0, hb1, g1, g2, g3, g4, hK⟩
  refine ⟨?_, gB, c, gb, k1, k2, k3, k4, X, hp, hb⟩
  by_contra hR
  rw [X.q_neg (not_le.mp hR) hp hb] at hr'
  cases hr'

theorem R_inv {h t gf gv gs g c1 c2 c3 c4 q : ℝ} {cot cd cu beta B db gB' gb' : PF} {bf : Bool} {v : ℝ}
    {m : Bool} (h0 : 0 < h) (t0 : 0 < t) (hf : 0 < gf) (hf1 : gf ≤ 1) (hv : 0 < gv) (hs : 0 < gs)
    (h1 : 0 < c1) (h2 : 0 < c2) (h3 : 0 < c3) (h4 : 0 < c4) (hgB : OmittedOr (0 < ·) gB') (hg : 0 < g)
    (hr : (calculate_crest_freeboard_Rc (fin h) (fin t) (fin q) beta gB' gb' (fin gf) (fin gv)
      (fin gs) B db cot cd cu (fin c1) (fin c2) (fin c3) (fin c4) bf (fin g)).res = .ok (fin v, m)) :
    ∃ gB c gb k1 k2 k3 k4 : ℝ, Ctx h t gf gv gs gB c gb k1 k2 k3 k4 c1 c2 c3 c4 bf ∧
      (pre (fin h) (fin t) cot cd cu beta B db gB' (fin gf) false).res = .ok (fin gB, fin c) ∧
      (berm (fin h) (fin t) cd cu B db (fin gf) (fin gB, fin c)).res = .ok (fin gb) := by
  unfold calculate_crest_freeboard_Rc at hr
  rw [R_split, bind_assoc] at hr
  obtain ⟨⟨p1, p2⟩, hp, hr, -⟩ := PyM.bind_inv hr
  obtain ⟨b, hb, hr, -⟩ := PyM.bind_inv (by rwa [bind_assoc] at hr)
  obtain ⟨k1, k2, k3, k4, g1, g2, g3, g4, hK⟩ := best_ok bf h1 h2 h3 h4
  obtain ⟨gB, e1, hB⟩ := pre_inv hgB hp
  dsimp only at e1
  rw [hK] at hr
  have hq : R510 (fin h) (fin t) (fin q) (fin gf) (fin gv) (fin g) (fin k1) (fin k4) (p1, p2) b ≠ nan := by
    intro hc
    rw [pure_bind, hc] at hr
    simp [PF.min, nan_mul] at hr
  obtain ⟨⟨c, e2, hc⟩, gb, e3, hb0, hb1⟩ := R510_inv h0 g4 t0 hg (berm_inv hb) hq
  subst e1 e2 e3
  exact ⟨gB, c, gb, k1, k2, k3, k4,
    ⟨h0, t0, hf, hf1, hv, hs, hB, hc, hb0, hb1, g1, g2, g3, g4, hK⟩, hp, hb⟩

/-! ### straight slopes -/

theorem pre_straight {h t c gf B db : ℝ} {beta gB' : PF} (bf : Bool) (h0 : 0 < h) (t0 : 0 < t)
    (hc : 0 < c) (hB : 0 ≤ B)
    (hgB : OmittedOr (0 < ·) gB') (hg : ¬ gB'.isnan ∨ ¬ beta.isnan) : ∃ gB gb : ℝ, 0 < gB ∧ 0.6 ≤ gb ∧
      gb ≤ 1 ∧ (B = 0 → gb = 1) ∧
    (pre (fin h) (fin t) (fin c) nan nan beta (fin B) (fin db) gB' (fin gf) bf).res =
      .ok (fin gB, fin c) ∧
    (berm (fin h) (fin t) nan nan (fin B) (fin db) (fin gf) (fin gB, fin c)).res = .ok (fin gb) := by
  obtain ⟨cl, gB, hB0, e1, e2⟩ : ∃ (calculate : Bool) (gB : ℝ), 0 < gB ∧
    RunupTaw2002.check_calculate_gamma_beta beta gB' = pure calculate ∧
    (if calculate then calculate_influence_oblique_waves_gamma_beta beta (fin gf) else gB') =
      fin gB := by
    unfold RunupTaw2002.check_calculate_gamma_beta
    rcases hgB with rfl | ⟨r, rfl, hr⟩
    · have hb : ¬ beta.isnan := hg.resolve_left (by simp)
      obtain ⟨r, hr, h0, -⟩ := oblique_pos hb (fin gf)
      exact ⟨true, r, h0, by simp [hb], hr⟩
    · exact ⟨false, r, hr, by simp, by simp⟩
  have hs : RunupTaw2002.check_composite_slope (fin c) nan nan = pure false := by
    unfold RunupTaw2002.check_composite_slope; simp
  obtain ⟨L, hL0, hL⟩ : ∃ L : ℝ, 0 < L ∧
      (1.0 * fin h * fin c + fin B + 1.0 * fin h * fin c : PF) = fin L := by
    refine ⟨1.0 * h * c + B + 1.0 * h * c, by positivity, ?_⟩
    simp only [sci_eq, mul_fin, add_fin]
  have hl : RunupTaw2002.calculate_berm_length (fin h) (fin B) (fin c) nan nan = pure (fin L) := by
    unfold RunupTaw2002.calculate_berm_length
    rw [hs, pure_bind]
    simp [hL]
  obtain ⟨gb, g1, g2, g3, g4⟩ := RunupTaw2002.gamma_b_real gf gB B db 1.75 4.3 1.5 1.07 false h0 t0 hc hL0
  refine ⟨gB, gb, hB0, g2, g3, g4, ?_, ?_⟩
  · unfold pre
    rw [e1, pure_bind]
    dsimp only
    rw [e2, hs, pure_bind]
    simp
  · unfold berm
    dsimp only
    rw [hl, pure_bind]
    exact g1

end OvertoppingEurOtop2018
end
