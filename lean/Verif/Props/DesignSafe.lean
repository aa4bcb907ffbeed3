import Verif.Props.OvertoppingTaw
import Verif.Props.OvertoppingEur
import Verif.Lemmas.OvertoppingMore
import Verif.Props.RunupTaw

/-!
# C94: design values are on the safe side of best-fit values

The documentation calls the best-fit coefficients the alternative to "the more conservative design
variant".  Where that is true, where it is the other way round, and what the number of standard
deviations does.
-/

open Classical
open PF CorePhysics CoreUtility
noncomputable section

namespace DesignSafe
open TwoFormulas

/-! ## what the coefficients do -/

theorem E_coef {A A' k k' R : ℝ} (hA : 0 < A) (hAA : A ≤ A') (hk : k' ≤ k) (hR : 0 ≤ R) :
    E A k R ≤ E A' k' R := by
  unfold E
  refine mul_le_mul hAA (Real.exp_le_exp.mpr ?_) (Real.exp_pos _).le (hA.le.trans hAA)
  have := mul_le_mul_of_nonneg_right hk hR
  linarith

theorem E_coef_lt {A A' k k' R : ℝ} (hA : 0 < A) (hAA : A ≤ A') (hk : k' < k) (hR : 0 < R) :
    E A k R < E A' k' R := by
  unfold E
  refine mul_lt_mul' hAA (Real.exp_lt_exp.mpr ?_) (Real.exp_pos _).le (hA.trans_le hAA)
  have := mul_lt_mul_of_pos_right hk hR
  linarith

theorem E_coef_neg {A k k' R : ℝ} (hA : 0 < A) (hk : k' < k) (hR : R < 0) : E A k' R < E A k R := by
  unfold E
  refine mul_lt_mul_of_pos_left (Real.exp_lt_exp.mpr ?_) hA
  have := mul_lt_mul_of_neg_right hk hR
  linarith

theorem L_coef {A A' k k' y : ℝ} (hA : 0 < A) (hAA : A ≤ A') (hk0 : 0 < k') (hk : k' ≤ k) (hy : 0 < y)
    (h : 0 ≤ L A k y) : L A k y ≤ L A' k' y := by
  have hk1 := hk0.trans_le hk
  have h1 : 0 ≤ -Real.log (y / A) := by
    unfold L at h
    by_contra hc
    exact absurd h (not_le.mpr (div_neg_of_neg_of_pos (not_le.mp hc) hk1))
  have h2 : -Real.log (y / A) ≤ -Real.log (y / A') := by
    refine neg_le_neg (Real.log_le_log (by have := hA.trans_le hAA; positivity) ?_)
    exact div_le_div_of_nonneg_left hy.le hA hAA
  unfold L
  exact div_le_div₀ (h1.trans h2) h2 hk0 hk

theorem L_coef_lt {A A' k k' y : ℝ} (hA : 0 < A) (hAA : A ≤ A') (hk0 : 0 < k') (hk : k' < k) (hy : 0 < y)
    (h : 0 < L A k y) : L A k y < L A' k' y := by
  have hk1 := hk0.trans hk
  have h1 : 0 < -Real.log (y / A) := by
    unfold L at h
    by_contra hc
    exact absurd h (not_lt.mpr (div_nonpos_of_nonpos_of_nonneg (not_lt.mp hc) hk1.le))
  have h2 : -Real.log (y / A) ≤ -Real.log (y / A') := by
    refine neg_le_neg (Real.log_le_log (by have := hA.trans_le hAA; positivity) ?_)
    exact div_le_div_of_nonneg_left hy.le hA hAA
  unfold L
  exact (div_lt_div_of_pos_left h1 hk0 hk).trans_le (div_le_div_of_nonneg_right h2 hk0.le)

theorem L_coef_neg {A k k' y : ℝ} (hk0 : 0 < k') (hk : k' < k) (h : L A k y < 0) : L A k' y < L A k y := by
  have hk1 := hk0.trans hk
  have h1 : -Real.log (y / A) < 0 := by
    unfold L at h
    by_contra hc
    exact absurd h (not_lt.mpr (div_nonneg (not_lt.mp hc) hk1.le))
  unfold L
  rw [div_lt_div_iff₀ hk0 hk1]
  nlinarith

theorem F_coef {A A' k k' R : ℝ} (hA : 0 < A) (hAA : A ≤ A') (hk0 : 0 < k') (hk : k' ≤ k) (hR : 0 ≤ R) :
    F A k R ≤ F A' k' R := by
  unfold F
  refine mul_le_mul hAA (Real.exp_le_exp.mpr (neg_le_neg ?_)) (Real.exp_pos _).le (hA.le.trans hAA)
  exact Real.rpow_le_rpow (by positivity) (mul_le_mul_of_nonneg_right hk hR) (by norm_num)

theorem F_coef_lt {A A' k k' R : ℝ} (hA : 0 < A) (hAA : A < A') (hk0 : 0 < k') (hk : k' ≤ k) (hR : 0 ≤ R) :
    F A k R < F A' k' R := by
  unfold F
  refine mul_lt_mul hAA (Real.exp_le_exp.mpr (neg_le_neg ?_)) (Real.exp_pos _) (hA.trans hAA).le
  exact Real.rpow_le_rpow (by positivity) (mul_le_mul_of_nonneg_right hk hR) (by norm_num)

theorem G_coef {A A' k k' y : ℝ} (hA : 0 < A) (hAA : A ≤ A') (hk0 : 0 < k') (hk : k' ≤ k) (hy : 0 < y)
    (h : y ≤ A) : G A k y ≤ G A' k' y := by
  have h1 := log_nonneg_of hA hy h
  have h2 : -Real.log (y / A) ≤ -Real.log (y / A') := by
    refine neg_le_neg (Real.log_le_log (by have := hA.trans_le hAA; positivity) ?_)
    exact div_le_div_of_nonneg_left hy.le hA hAA
  unfold G
  exact div_le_div₀ (Real.rpow_nonneg (h1.trans h2) _) (Real.rpow_le_rpow h1 h2 (by norm_num)) hk0 hk

theorem G_coef_lt {A A' k k' y : ℝ} (hA : 0 < A) (hAA : A < A') (hk0 : 0 < k') (hk : k' ≤ k) (hy : 0 < y)
    (h : y ≤ A) : G A k y < G A' k' y := by
  have h1 := log_nonneg_of hA hy h
  have h2 : -Real.log (y / A) < -Real.log (y / A') := by
    refine neg_lt_neg (Real.log_lt_log (by have := hA.trans hAA; positivity) ?_)
    exact div_lt_div_of_pos_left hy hA hAA
  unfold G
  have h3 := Real.rpow_lt_rpow h1 h2 (show (0 : ℝ) < 1 / 1.3 by norm_num)
  have h4 := Real.rpow_nonneg h1 (1 / 1.3 : ℝ)
  exact (div_le_div_of_nonneg_left h4 hk0 hk).trans_lt (div_lt_div_of_pos_right h3 hk0)

/-! ## TAW (2002) overtopping -/
section taw
open OvertoppingTaw2002

theorem q_taw {h t gf gv s gB c gb g R : ℝ} {bf : Bool} {cot cd cu beta B db gB' gb' : PF} (h0 : 0 < h)
    (t0 : 0 < t) (hs : s = 0 ∨ bf = true) (hf : 0 < gf) (hf1 : gf ≤ 1) (hv : 0 < gv)
    (hB : 0 < gB) (hc : 0 < c) (hb : 0 < gb) (hb1 : gb ≤ 1) (hg : 0 < g)
    (hp : (pre (fin h) (fin t) cot cd cu beta B db gB' gb' (fin gf)).res =
      .ok (fin gB, fin c, fin gb)) :
    (calculate_overtopping_discharge_q (fin h) (fin t) (fin R) cot cd cu beta B
        db gB' gb' (fin gf) (fin gv) (fin s) (fin g) bf).res =
      .ok (fin ((E (A1 h t c gb) (d1 h t c gb gf gB gv (k1 s bf)) R ⊓
          E 0.2 (d3 h t c gb gf gB (k3 s bf)) R) * Sc g h),
        decide (E 0.2 (d3 h t c gb gf gB (k3 s bf)) R ≤
          E (A1 h t c gb) (d1 h t c gb gf gB gv (k1 s bf)) R)) := by
  unfold calculate_overtopping_discharge_q
  rw [PyM.bind_res_of_ok (q_res h0 t0 hs hf hf1 hv hB hc hb hb1 hp), Sc_eval hg h0, mul_fin]
  rfl

theorem k1_true (s : ℝ) : k1 s true = 4.75 + 0.5 * s := by
  unfold k1; split_ifs with h <;> simp_all
theorem k3_true (s : ℝ) : k3 s true = 2.6 + 0.35 * s := by
  unfold k3; split_ifs with h <;> simp_all
theorem k1_false : k1 0 false = 4.3 := by unfold k1; simp
theorem k3_false : k3 0 false = 2.3 := by unfold k3; simp

theorem d1_lt {H T c gb gf gB gv k k' : ℝ} (hH : 0 < H) (hT : 0 < T) (hc : 0 < c) (hb : 0 < gb)
    (hb1 : gb ≤ 1) (hf : 0 < gf) (hf1 : gf ≤ 1) (hB : 0 < gB) (hv : 0 < gv) (hk : k < k') :
    d1 H T c gb gf gB gv k < d1 H T c gb gf gB gv k' := by
  have hx := VdMProof.xi_pos hH hT hc
  have := RunupTaw2002.rough_pos (gb := gb) hf hf1 hb1 hx
  unfold d1
  exact div_lt_div_of_pos_right hk (by positivity)
theorem d3_lt {H T c gb gf gB k k' : ℝ} (hH : 0 < H) (hT : 0 < T) (hc : 0 < c)
    (hb1 : gb ≤ 1) (hf : 0 < gf) (hf1 : gf ≤ 1) (hB : 0 < gB) (hk : k < k') :
    d3 H T c gb gf gB k < d3 H T c gb gf gB k' := by
  have hx := VdMProof.xi_pos hH hT hc
  have := RunupTaw2002.rough_pos (gb := gb) hf hf1 hb1 hx
  unfold d3
  exact div_lt_div_of_pos_right hk (by positivity)

/-- the same call with two sets of coefficients, the second with smaller decay -/
theorem taw_two {H T R gf gv s s' g : ℝ} {cot cd cu beta B db gB gb : PF} {bf bf' : Bool}
    (hH : 0 < H) (hT : 0 < T) (hf : 0 < gf) (hf1 : gf ≤ 1) (hv : 0 < gv)
    (hgB : OmittedOr (0 < ·) gB) (hgb : OmittedOr (fun r => 0 < r ∧ r ≤ 1) gb) (hg : 0 < g)
    (hs' : s' = 0 ∨ bf' = true) (h1 : k1 s' bf' < k1 s bf) (h3 : k3 s' bf' < k3 s bf) {q : ℝ} {m : Bool}
    (h : (calculate_overtopping_discharge_q (fin H) (fin T) (fin R) cot cd cu beta B db gB gb
      (fin gf) (fin gv) (fin s) (fin g) bf).res = .ok (fin q, m)) :
    ∃ (q' : ℝ) (m' : Bool), 0 < q' ∧ (calculate_overtopping_discharge_q (fin H) (fin T) (fin R) cot cd cu
      beta B db gB gb (fin gf) (fin gv) (fin s') (fin g) bf').res = .ok (fin q', m') ∧
      (0 ≤ R → q ≤ q') ∧ (0 < R → q < q') ∧ (R < 0 → q' < q) := by
  obtain ⟨hs0, gB', c, gb', hB, hc, hb, hb1, hp⟩ := q_inv hH hT hgB hgb h
  have hS := Sc_pos hg hH
  have hA := A1_pos hH hT hc hb
  rw [q_taw hH hT hs0 hf hf1 hv hB hc hb hb1 hg hp] at h
  simp only [Except.ok.injEq, Prod.mk.injEq, fin_inj] at h
  obtain ⟨rfl, -⟩ := h
  have e1 := d1_lt hH hT hc hb hb1 hf hf1 hB hv h1
  have e3 := d3_lt hH hT hc hb1 hf hf1 hB h3
  have h2 : (0 : ℝ) < 0.2 := by norm_num
  refine ⟨_, _, mul_pos (lt_min (E_pos hA _ _) (E_pos h2 _ _)) hS,
    q_taw hH hT hs' hf hf1 hv hB hc hb hb1 hg hp, fun hR => ?_, fun hR => ?_, fun hR => ?_⟩
  · exact mul_le_mul_of_nonneg_right
      (min_le_min (E_coef hA le_rfl e1.le hR) (E_coef h2 le_rfl e3.le hR)) hS.le
  · exact mul_lt_mul_of_pos_right
      (min_lt_min (E_coef_lt hA le_rfl e1 hR) (E_coef_lt h2 le_rfl e3 hR)) hS
  · exact mul_lt_mul_of_pos_right
      (min_lt_min (E_coef_neg hA e1 hR) (E_coef_neg h2 e3 hR)) hS

/-- TAW (2002), overtopping discharge, crests at or above the water level: the design call returns at
least the discharge of the best-fit call, strictly more when the crest is above the water level.  For
every combination of options (single or composite slope, berm, factors given or computed, gravity), and
also when up to 6/7 of a standard deviation is taken off the best-fit coefficients or any number added. -/
theorem C94_taw_discharge_partial (H T R gf gv s g : ℝ) (cot cd cu beta B db gB gb : PF)
    (hH : 0 < H) (hT : 0 < T) (hf : 0 < gf) (hf1 : gf ≤ 1) (hv : 0 < gv) (hs : -(6 / 7) < s)
    (hgB : OmittedOr (0 < ·) gB) (hgb : OmittedOr (fun r => 0 < r ∧ r ≤ 1) gb) (hg : 0 < g)
    (hR : 0 ≤ R) (q : ℝ) (m : Bool)
    (h : (calculate_overtopping_discharge_q (fin H) (fin T) (fin R) cot cd cu beta B db gB gb
      (fin gf) (fin gv) (fin s) (fin g) (use_best_fit := true)).res = .ok (fin q, m)) :
    ∃ (q' : ℝ) (m' : Bool), (calculate_overtopping_discharge_q (fin H) (fin T) (fin R) cot cd cu beta B db
        gB gb (fin gf) (fin gv) (fin 0) (fin g) (use_best_fit := false)).res = .ok (fin q', m') ∧
      q ≤ q' ∧ (0 < R → q < q') := by
  obtain ⟨q', m', -, e, h1, h2, -⟩ := taw_two (s' := 0) (bf' := false) hH hT hf hf1 hv hgB hgb hg (Or.inl rfl)
    (by rw [k1_false, k1_true]; norm_num; linarith) (by rw [k3_false, k3_true]; norm_num; linarith) h
  exact ⟨q', m', e, h1 hR, h2⟩

/-- Below the water level it is the other way round, for every combination of options: the best-fit
call returns strictly more than the design call. -/
theorem C94_taw_submerged_refuted (H T R gf gv g : ℝ) (cot cd cu beta B db gB gb : PF)
    (hH : 0 < H) (hT : 0 < T) (hf : 0 < gf) (hf1 : gf ≤ 1) (hv : 0 < gv)
    (hgB : OmittedOr (0 < ·) gB) (hgb : OmittedOr (fun r => 0 < r ∧ r ≤ 1) gb) (hg : 0 < g)
    (hR : R < 0) (q : ℝ) (m : Bool)
    (h : (calculate_overtopping_discharge_q (fin H) (fin T) (fin R) cot cd cu beta B db gB gb
      (fin gf) (fin gv) (fin 0) (fin g) (use_best_fit := true)).res = .ok (fin q, m)) :
    ∃ (q' : ℝ) (m' : Bool), (calculate_overtopping_discharge_q (fin H) (fin T) (fin R) cot cd cu beta B db
        gB gb (fin gf) (fin gv) (fin 0) (fin g) (use_best_fit := false)).res = .ok (fin q', m') ∧
      q' < q := by
  obtain ⟨q', m', -, e, -, -, h1⟩ := taw_two (s' := 0) (bf' := false) hH hT hf hf1 hv hgB hgb hg (Or.inl rfl)
    (by rw [k1_false, k1_true]; norm_num) (by rw [k3_false, k3_true]; norm_num) h
  exact ⟨q', m', e, h1 hR⟩

/-- The number of standard deviations is added to the coefficients, so that *more* standard deviations
give *less* overtopping over a crest above the water level: `sigma = 1` is the unsafe side. -/
theorem C94_taw_sigma (H T R gf gv s s' g : ℝ) (cot cd cu beta B db gB gb : PF)
    (hH : 0 < H) (hT : 0 < T) (hf : 0 < gf) (hf1 : gf ≤ 1) (hv : 0 < gv) (hss : s < s')
    (hgB : OmittedOr (0 < ·) gB) (hgb : OmittedOr (fun r => 0 < r ∧ r ≤ 1) gb) (hg : 0 < g)
    (hR : 0 < R) (q : ℝ) (m : Bool)
    (h : (calculate_overtopping_discharge_q (fin H) (fin T) (fin R) cot cd cu beta B db gB gb
      (fin gf) (fin gv) (fin s') (fin g) (use_best_fit := true)).res = .ok (fin q, m)) :
    ∃ (q' : ℝ) (m' : Bool), (calculate_overtopping_discharge_q (fin H) (fin T) (fin R) cot cd cu beta B db
        gB gb (fin gf) (fin gv) (fin s) (fin g) (use_best_fit := true)).res = .ok (fin q', m') ∧
      q < q' := by
  obtain ⟨q', m', -, e, -, h1, -⟩ := taw_two (s := s') (s' := s) (bf := true) (bf' := true) hH hT hf hf1 hv
    hgB hgb hg (Or.inr rfl)
    (by rw [k1_true, k1_true]; norm_num; linarith) (by rw [k3_true, k3_true]; norm_num; linarith) h
  exact ⟨q', m', e, h1 hR⟩

/-- What is needed to be at least as safe as the design values: one standard deviation taken off. -/
theorem C94_taw_sigma_minus_one (H T R gf gv g : ℝ) (cot cd cu beta B db gB gb : PF)
    (hH : 0 < H) (hT : 0 < T) (hf : 0 < gf) (hf1 : gf ≤ 1) (hv : 0 < gv)
    (hgB : OmittedOr (0 < ·) gB) (hgb : OmittedOr (fun r => 0 < r ∧ r ≤ 1) gb) (hg : 0 < g)
    (hR : 0 < R) (q : ℝ) (m : Bool)
    (h : (calculate_overtopping_discharge_q (fin H) (fin T) (fin R) cot cd cu beta B db gB gb
      (fin gf) (fin gv) (fin 0) (fin g) (use_best_fit := false)).res = .ok (fin q, m)) :
    ∃ (q' : ℝ) (m' : Bool), (calculate_overtopping_discharge_q (fin H) (fin T) (fin R) cot cd cu beta B db
        gB gb (fin gf) (fin gv) (fin (-1)) (fin g) (use_best_fit := true)).res = .ok (fin q', m') ∧
      q < q' := by
  obtain ⟨q', m', -, e, -, h1, -⟩ := taw_two (s' := -1) (bf' := true) hH hT hf hf1 hv hgB hgb hg (Or.inr rfl)
    (by rw [k1_true, k1_false]; norm_num) (by rw [k3_true, k3_false]; norm_num) h
  exact ⟨q', m', e, h1 hR⟩

/-- an oblique attack on a rough 1:3 slope with a berm: more with design values than with best fit,
less with best fit plus one standard deviation, most with one standard deviation taken off -/
example : ∃ (q0 q1 q2 q3 : ℝ) (m0 m1 m2 m3 : Bool),
    (calculate_overtopping_discharge_q (fin 2) (fin 6) (fin 3) (fin 3) nan nan (fin 30) (fin 4)
      (fin 0.5) nan nan (fin 0.8) (fin 1) (fin 1) (fin 9.81) true).res = .ok (fin q0, m0) ∧
    (calculate_overtopping_discharge_q (fin 2) (fin 6) (fin 3) (fin 3) nan nan (fin 30) (fin 4)
      (fin 0.5) nan nan (fin 0.8) (fin 1) (fin 0) (fin 9.81) true).res = .ok (fin q1, m1) ∧
    (calculate_overtopping_discharge_q (fin 2) (fin 6) (fin 3) (fin 3) nan nan (fin 30) (fin 4)
      (fin 0.5) nan nan (fin 0.8) (fin 1) (fin 0) (fin 9.81) false).res = .ok (fin q2, m2) ∧
    (calculate_overtopping_discharge_q (fin 2) (fin 6) (fin 3) (fin 3) nan nan (fin 30) (fin 4)
      (fin 0.5) nan nan (fin 0.8) (fin 1) (fin (-1)) (fin 9.81) true).res = .ok (fin q3, m3) ∧
    0 < q0 ∧ q0 < q1 ∧ q1 < q2 ∧ q2 < q3 := by
  obtain ⟨q0, m0, p0, e0⟩ := (OvertoppingTawProofs.C49_straight_slope_returns 2 6 3 0.8 1 4 0.5 1 9.81
    (fin 30) nan nan true (by norm_num) (by norm_num) (by norm_num) (by norm_num) (by norm_num)
    (by norm_num) (by norm_num) (by norm_num) (Or.inr rfl) (by norm_num) (Or.inl rfl) (Or.inl rfl)
    (Or.inr (by simp))).1 3
  obtain ⟨q1, m1, e1, l1⟩ := C94_taw_sigma 2 6 3 0.8 1 0 1 9.81 _ _ _ _ _ _ _ _ (by norm_num)
    (by norm_num) (by norm_num) (by norm_num) (by norm_num) (by norm_num) (Or.inl rfl) (Or.inl rfl)
    (by norm_num) (by norm_num) _ _ e0
  obtain ⟨q2, m2, e2, -, l2⟩ := C94_taw_discharge_partial 2 6 3 0.8 1 0 9.81 _ _ _ _ _ _ _ _ (by norm_num)
    (by norm_num) (by norm_num) (by norm_num) (by norm_num) (by norm_num) (Or.inl rfl) (Or.inl rfl)
    (by norm_num) (by norm_num) _ _ e1
  obtain ⟨q3, m3, e3, l3⟩ := C94_taw_sigma_minus_one 2 6 3 0.8 1 9.81 _ _ _ _ _ _ _ _ (by norm_num)
    (by norm_num) (by norm_num) (by norm_num) (by norm_num) (Or.inl rfl) (Or.inl rfl)
    (by norm_num) (by norm_num) _ _ e2
  exact ⟨q0, q1, q2, q3, m0, m1, m2, m3, e0, e1, e2, e3, p0, l1, l2 (by norm_num), l3⟩

/-- TAW (2002), required crest: where the best-fit call gives a level at or above the water level, the
design call gives at least that level, strictly higher when it is above the water level; where the
best-fit call gives a level below the water level, the design call gives a strictly lower one (the
claim is then false).  For every combination of options. -/
theorem C94_taw_freeboard_partial (H T q gf gv g : ℝ) (cot cd cu beta B db gB gb : PF)
    (hH : 0 < H) (hT : 0 < T) (hf : 0 < gf) (hf1 : gf ≤ 1) (hv : 0 < gv)
    (hgB : OmittedOr (0 < ·) gB) (hgb : OmittedOr (fun r => 0 < r ∧ r ≤ 1) gb) (hg : 0 < g)
    (hq : 0 < q) (R : ℝ) (m : Bool)
    (h : (calculate_crest_freeboard_Rc (fin H) (fin T) (fin q) cot cd cu beta B db gB gb
      (fin gf) (fin gv) (fin 0) (fin g) (use_best_fit := true)).res = .ok (fin R, m)) :
    ∃ (R' : ℝ) (m' : Bool), (calculate_crest_freeboard_Rc (fin H) (fin T) (fin q) cot cd cu beta B db
        gB gb (fin gf) (fin gv) (fin 0) (fin g) (use_best_fit := false)).res = .ok (fin R', m') ∧
      (0 ≤ R → R ≤ R') ∧ (0 < R → R < R') ∧ (R < 0 → R' < R) := by
  obtain ⟨hs0, gB', c, gb', hB, hc, hb, hb1, hp⟩ := R_inv hH hT hgB hgb h
  have hS := Sc_pos hg hH
  have hS9 : 0 < Sc 9.81 H := Sc_pos (by norm_num) hH
  have hA := A1_pos hH hT hc hb
  have h2 : (0 : ℝ) < 0.2 := by norm_num
  have e1 : d1 H T c gb' gf gB' gv (k1 0 false) < d1 H T c gb' gf gB' gv (k1 0 true) :=
    d1_lt hH hT hc hb hb1 hf hf1 hB hv (by rw [k1_false, k1_true]; norm_num)
  have e3 : d3 H T c gb' gf gB' (k3 0 false) < d3 H T c gb' gf gB' (k3 0 true) :=
    d3_lt hH hT hc hb1 hf hf1 hB (by rw [k3_false, k3_true]; norm_num)
  have p1 : 0 < d1 H T c gb' gf gB' gv (k1 0 false) :=
    d1_pos hH hT hc hb hb1 hf hf1 hB hv (by rw [k1_false]; norm_num)
  have p3 : 0 < d3 H T c gb' gf gB' (k3 0 false) :=
    d3_pos hH hT hc hb1 hf hf1 hB (by rw [k3_false]; norm_num)
  rw [R_res hH hT hs0 (by norm_num) hf hf1 hv hB hc hb hb1 hg hq hp] at h
  simp only [Except.ok.injEq, Prod.mk.injEq, fin_inj] at h
  obtain ⟨rfl, -⟩ := h
  refine ⟨_, _, R_res hH hT (Or.inl rfl) (by norm_num) hf hf1 hv hB hc hb hb1 hg hq hp,
    fun hR => ?_, fun hR => ?_, fun hR => ?_⟩
  · rw [le_inf_iff] at hR
    exact min_le_min (L_coef hA le_rfl p1 e1.le (by positivity) hR.1)
      (L_coef h2 le_rfl p3 e3.le (by positivity) hR.2)
  · rw [lt_inf_iff] at hR
    exact min_lt_min (L_coef_lt hA le_rfl p1 e1 (by positivity) hR.1)
      (L_coef_lt h2 le_rfl p3 e3 (by positivity) hR.2)
  · rcases le_total (L (A1 H T c gb') (d1 H T c gb' gf gB' gv (k1 0 true)) (q / Sc g H))
      (L 0.2 (d3 H T c gb' gf gB' (k3 0 true)) (q / Sc 9.81 H)) with hl | hl
    · rw [inf_eq_left.mpr hl] at hR ⊢
      exact inf_le_left.trans_lt (L_coef_neg p1 e1 hR)
    · rw [inf_eq_right.mpr hl] at hR ⊢
      exact inf_le_right.trans_lt (L_coef_neg p3 e3 hR)

example : ∃ (R R' : ℝ) (m m' : Bool),
    (calculate_crest_freeboard_Rc (fin 2) (fin 6) (fin 0.001) (fin 3) nan nan (fin 30) (fin 4)
      (fin 0.5) nan nan (fin 0.8) (fin 1) (fin 0) (fin 9.81) true).res = .ok (fin R, m) ∧
    (calculate_crest_freeboard_Rc (fin 2) (fin 6) (fin 0.001) (fin 3) nan nan (fin 30) (fin 4)
      (fin 0.5) nan nan (fin 0.8) (fin 1) (fin 0) (fin 9.81) false).res = .ok (fin R', m') := by
  obtain ⟨R, m, h⟩ := (OvertoppingTawProofs.C49_straight_slope_returns 2 6 3 0.8 1 4 0.5 0 9.81
    (fin 30) nan nan true (by norm_num) (by norm_num) (by norm_num) (by norm_num) (by norm_num)
    (by norm_num) (by norm_num) (by norm_num) (Or.inr rfl) (by norm_num) (Or.inl rfl) (Or.inl rfl)
    (Or.inr (by simp))).2 0.001 (by norm_num)
  obtain ⟨R', m', e, -⟩ := C94_taw_freeboard_partial 2 6 0.001 0.8 1 9.81 _ _ _ _ _ _ _ _ (by norm_num)
    (by norm_num) (by norm_num) (by norm_num) (by norm_num) (Or.inl rfl) (Or.inl rfl)
    (by norm_num) (by norm_num) _ _ h
  exact ⟨R, R', m, m', h, e⟩
end taw

/-! ## EurOtop (2007), rubble mounds -/
section eurotop2007
open OvertoppingEurOtop2007
open OvertoppingTaw2002 (Sc Sc_pos Sc_eval)

/-- both functions with either set of coefficients -/
theorem both2007 {H gf c2 c3 : ℝ} {T beta gB' cot : PF} (hH : 0 < H) (hf : 0 < gf)
    (hf1 : gf ≤ 1) (h2 : 0 < c2) (h3 : 0 < c3) (hgB : OmittedOr (0 < ·) gB')
    (hg : ¬ gB'.isnan ∨ ¬ beta.isnan) : ∃ d : ℝ, 0 < d ∧ ∀ bf : Bool,
    (∀ R g : ℝ, 0 < g → (calculate_overtopping_discharge_q_rubble_mound (fin H) T (fin R) beta gB'
      (fin gf) cot (fin c2) (fin c3) bf (fin g)).res =
        .ok (fin (E (if bf then 0.2 else c2) ((if bf then 2.6 else c3) * d) R * Sc g H))) ∧
    (∀ q : ℝ, 0 < q → (calculate_crest_freeboard_Rc_rubble_mound (fin H) T (fin q) beta gB'
      (fin gf) cot (fin c2) (fin c3) bf).res =
        .ok (fin (L (if bf then 0.2 else c2) ((if bf then 2.6 else c3) * d) (q / Sc 9.81 H)))) := by
  obtain ⟨cl, gB, hB, e1, e2⟩ := oblique_ok hgB hg
  obtain ⟨r, hr, e4, -⟩ := RunupTaw2002.rough_any hf hf1
    (calculate_Iribarren_number_ksi (fin H) T cot)
  refine ⟨1 / (H * (r * gB)), by positivity, fun bf => ?_⟩
  have e3 : check_best_fit (fin c2) (fin c3) bf =
      (fin (if bf then 0.2 else c2), fin (if bf then 2.6 else c3)) := by cases bf <;> rfl
  have ha : 0 < if bf then 0.2 else c2 := by cases bf <;> norm_num [h2]
  have hk : 0 < if bf then 2.6 else c3 := by cases bf <;> norm_num [h3]
  generalize (if bf then 0.2 else c2) = a at *
  generalize (if bf then 2.6 else c3) = k at *
  rw [mul_one_div]
  refine ⟨fun R g hg => ?_, fun q hq => ?_⟩
  · unfold calculate_overtopping_discharge_q_rubble_mound
      calculate_dimensionless_overtopping_discharge_q_rubble_mound
    rw [e1, e3, pure_bind]
    dsimp only
    rw [e2, e4, pure_bind, OvertoppingTaw2002.qmax_eval hH hr hB, Sc_eval hg hH, mul_fin]
    rfl
  · unfold calculate_crest_freeboard_Rc_rubble_mound
      calculate_dimensionless_crest_freeboard_rubble_mound
    rw [e1, e3, pure_bind]
    dsimp only
    rw [e2, e4, pure_bind, OvertoppingTaw2002.Rmax_eval hH hr hB hk ha hq, mul_fin,
      div_mul_cancel₀ _ hH.ne']
    rfl

/-- EurOtop (2007), discharge over rubble mounds with a crest at or above the water level: design values
(the default 0.2 and 2.3, or any the user supplies that are at least as cautious as 0.2 and 2.6) give at
least the discharge of the best fit. -/
theorem C94_eurotop2007_discharge_partial (H R gf c2 c3 g : ℝ) (T beta gB cot : PF)
    (hH : 0 < H) (hf : 0 < gf) (hf1 : gf ≤ 1) (h2 : 0.2 ≤ c2) (h3 : 0 < c3) (h3' : c3 ≤ 2.6)
    (hgB : OmittedOr (0 < ·) gB) (hgv : ¬ gB.isnan ∨ ¬ beta.isnan) (hg : 0 < g) (hR : 0 ≤ R) :
    ∃ q q' : ℝ,
      (calculate_overtopping_discharge_q_rubble_mound (fin H) T (fin R) beta gB (fin gf) cot (fin c2)
        (fin c3) (use_best_fit := true) (fin g)).res = .ok (fin q) ∧
      (calculate_overtopping_discharge_q_rubble_mound (fin H) T (fin R) beta gB (fin gf) cot (fin c2)
        (fin c3) (use_best_fit := false) (fin g)).res = .ok (fin q') ∧
      0 < q ∧ q ≤ q' ∧ (0 < R → c3 < 2.6 → q < q') := by
  obtain ⟨d, hd, h⟩ := both2007 (T := T) (cot := cot) (c2 := c2) hH hf hf1
    (lt_of_lt_of_le (by norm_num) h2) h3 hgB hgv
  have hS := Sc_pos hg hH
  have p2 : (0 : ℝ) < 0.2 := by norm_num
  refine ⟨_, _, (h true).1 R g hg, (h false).1 R g hg, ?_, ?_, ?_⟩ <;>
    simp only [if_true, Bool.false_eq_true, if_false]
  · exact mul_pos (E_pos p2 _ _) hS
  · exact mul_le_mul_of_nonneg_right (E_coef p2 h2 (mul_le_mul_of_nonneg_right h3' hd.le) hR) hS.le
  · intro hR hc
    exact mul_lt_mul_of_pos_right (E_coef_lt p2 h2 (mul_lt_mul_of_pos_right hc hd) hR) hS

/-- With the default values and a crest below the water level it is the other way round, for every
input. -/
theorem C94_eurotop2007_submerged_refuted (H R gf g : ℝ) (T beta gB cot : PF)
    (hH : 0 < H) (hf : 0 < gf) (hf1 : gf ≤ 1)
    (hgB : OmittedOr (0 < ·) gB) (hgv : ¬ gB.isnan ∨ ¬ beta.isnan) (hg : 0 < g) (hR : R < 0) :
    ∃ q q' : ℝ,
      (calculate_overtopping_discharge_q_rubble_mound (fin H) T (fin R) beta gB (fin gf) cot
        (use_best_fit := true) (g := fin g)).res = .ok (fin q) ∧
      (calculate_overtopping_discharge_q_rubble_mound (fin H) T (fin R) beta gB (fin gf) cot
        (use_best_fit := false) (g := fin g)).res = .ok (fin q') ∧ q' < q := by
  obtain ⟨d, hd, h⟩ := both2007 (T := T) (cot := cot) (c2 := 0.2) (c3 := 2.3) hH hf hf1 (by norm_num)
    (by norm_num) hgB hgv
  have hS := Sc_pos hg hH
  refine ⟨_, _, (h true).1 R g hg, (h false).1 R g hg, ?_⟩
  simp only [if_true, Bool.false_eq_true, if_false]
  exact mul_lt_mul_of_pos_right (E_coef_neg (by norm_num)
    (mul_lt_mul_of_pos_right (by norm_num) hd) hR) hS

/-- EurOtop (2007), required crest of rubble mounds: where the best fit gives a level at or above the
water level, design values give at least that level; with the default values a best-fit level below
the water level comes with a strictly lower design level (the claim is then false). -/
theorem C94_eurotop2007_freeboard_partial (H q gf c2 c3 : ℝ) (T beta gB cot : PF)
    (hH : 0 < H) (hf : 0 < gf) (hf1 : gf ≤ 1) (h2 : 0.2 ≤ c2) (h3 : 0 < c3) (h3' : c3 ≤ 2.6)
    (hgB : OmittedOr (0 < ·) gB) (hgv : ¬ gB.isnan ∨ ¬ beta.isnan) (hq : 0 < q) :
    ∃ R R' : ℝ,
      (calculate_crest_freeboard_Rc_rubble_mound (fin H) T (fin q) beta gB (fin gf) cot (fin c2)
        (fin c3) (use_best_fit := true)).res = .ok (fin R) ∧
      (calculate_crest_freeboard_Rc_rubble_mound (fin H) T (fin q) beta gB (fin gf) cot (fin c2)
        (fin c3) (use_best_fit := false)).res = .ok (fin R') ∧
      (0 ≤ R → R ≤ R') ∧ (0 < R → c3 < 2.6 → R < R') ∧ (R < 0 → c2 = 0.2 → c3 < 2.6 → R' < R) := by
  obtain ⟨d, hd, h⟩ := both2007 (T := T) (cot := cot) (c2 := c2) hH hf hf1
    (lt_of_lt_of_le (by norm_num) h2) h3 hgB hgv
  have hS : 0 < Sc 9.81 H := Sc_pos (by norm_num) hH
  have p2 : (0 : ℝ) < 0.2 := by norm_num
  have pd : 0 < c3 * d := by positivity
  refine ⟨_, _, (h true).2 q hq, (h false).2 q hq, ?_, ?_, ?_⟩ <;>
    simp only [if_true, Bool.false_eq_true, if_false]
  · exact L_coef p2 h2 pd (mul_le_mul_of_nonneg_right h3' hd.le) (by positivity)
  · intro hR hc
    exact L_coef_lt p2 h2 pd (mul_lt_mul_of_pos_right hc hd) (by positivity) hR
  · rintro hR rfl hc
    exact L_coef_neg pd (mul_lt_mul_of_pos_right hc hd) hR

/-- an ordinary rubble mound with the default values -/
example : ∃ q q' : ℝ,
    (calculate_overtopping_discharge_q_rubble_mound (fin 2) (fin 6) (fin 3) (fin 30) nan (fin 0.5)
      (fin 1.5) (use_best_fit := true)).res = .ok (fin q) ∧
    (calculate_overtopping_discharge_q_rubble_mound (fin 2) (fin 6) (fin 3) (fin 30) nan (fin 0.5)
      (fin 1.5)).res = .ok (fin q') ∧ 0 < q ∧ q < q' := by
  obtain ⟨q, q', e, e', h0, -, h⟩ := C94_eurotop2007_discharge_partial 2 3 0.5 0.2 2.3 9.81 (fin 6) (fin 30)
    nan (fin 1.5) (by norm_num) (by norm_num) (by norm_num) le_rfl (by norm_num) (by norm_num)
    (Or.inl rfl) (Or.inr (by simp)) (by norm_num) (by norm_num)
  exact ⟨q, q', e, e', h0, h (by norm_num) (by norm_num)⟩

example := C94_eurotop2007_freeboard_partial 2 0.001 0.5 0.2 2.3 (fin 6) (fin 30) nan (fin 1.5)
  (by norm_num) (by norm_num) (by norm_num) le_rfl (by norm_num) (by norm_num) (Or.inl rfl)
  (Or.inr (by simp)) (by norm_num)
example := C94_eurotop2007_submerged_refuted 2 (-1) 0.5 9.81 (fin 6) (fin 30) nan (fin 1.5)
  (by norm_num) (by norm_num) (by norm_num) (Or.inl rfl) (Or.inr (by simp)) (by norm_num) (by norm_num)
end eurotop2007

/-! ## EurOtop (2018) -/
section eurotop2018
open OvertoppingEurOtop2018
open OvertoppingTaw2002 (Sc Sc_pos Sc_eval)
open OvertoppingEurProofs (pre_of_q pre_of_R)

theorem coefs {h t gf gv gs gB c gb k1 k2 k3 k4 c1 c2 c3 c4 : ℝ}
    (X : Ctx h t gf gv gs gB c gb k1 k2 k3 k4 c1 c2 c3 c4 true) :
    k1 = 2.7 ∧ k2 = 0.09 ∧ k3 = 1.5 ∧ k4 = 0.023 := by
  have := X.hK
  unfold check_best_fit at this
  simp only [if_true, sci_eq, Prod.mk.injEq, fin_inj] at this
  obtain ⟨rfl, rfl, rfl, rfl⟩ := this
  exact ⟨rfl, rfl, rfl, rfl⟩

theorem A1_le {H T c gb k k' : ℝ} (hH : 0 < H) (hT : 0 < T) (hc : 0 < c) (hb : 0 < gb) (h : k ≤ k') :
    A1 H T c gb k ≤ A1 H T c gb k' := by
  have := VdMProof.xi_pos hH hT hc
  unfold A1
  gcongr
theorem A1_lt {H T c gb k k' : ℝ} (hH : 0 < H) (hT : 0 < T) (hc : 0 < c) (hb : 0 < gb) (h : k < k') :
    A1 H T c gb k < A1 H T c gb k' := by
  have := VdMProof.xi_pos hH hT hc
  unfold A1
  gcongr
theorem d1_le {H T c gb gf gB gv k k' : ℝ} (hH : 0 < H) (hT : 0 < T) (hc : 0 < c) (hb : 0 < gb)
    (hb1 : gb ≤ 1) (hf : 0 < gf) (hf1 : gf ≤ 1) (hB : 0 < gB) (hv : 0 < gv) (hk : k ≤ k') :
    d1 H T c gb gf gB gv k ≤ d1 H T c gb gf gB gv k' := by
  have hx := VdMProof.xi_pos hH hT hc
  have := RunupTaw2002.rough_pos (gb := gb) hf hf1 hb1 hx
  unfold d1
  exact div_le_div_of_nonneg_right hk (by positivity)
theorem d3_le {H r gB gs k k' : ℝ} (hH : 0 < H) (hr : 0 < r) (hB : 0 < gB) (hs : 0 < gs) (hk : k ≤ k') :
    d3 H r gB gs k ≤ d3 H r gB gs k' := by
  unfold d3
  exact div_le_div_of_nonneg_right hk (by positivity)

/-- EurOtop (2018), overtopping discharge on a single slope, with or without a berm: design values (the
defaults 2.5, 0.1035, 1.35 and 0.026, or any the user supplies that are at least as cautious as the best
fit) give at least the discharge of the best fit; strictly more with the defaults.  (Missing: two slopes,
where the best-fit run-up level also gives another average slope.) -/
theorem C94_eurotop2018_discharge_partial (H T R gf gv gs c1 c2 c3 c4 g : ℝ)
    (cot cu beta B db gB gb : PF) (hH : 0 < H) (hT : 0 < T) (hf : 0 < gf) (hf1 : gf ≤ 1)
    (hv : 0 < gv) (hs : 0 < gs) (h1 : 0 < c1) (h1' : c1 ≤ 2.7) (h2 : 0.09 ≤ c2) (h3 : 0 < c3)
    (h3' : c3 ≤ 1.5) (h4 : 0.023 ≤ c4) (hgB : OmittedOr (0 < ·) gB) (hg : 0 < g) (q : ℝ) (m : Bool)
    (h : (calculate_overtopping_discharge_q (fin H) (fin T) (fin R) beta gB gb (fin gf) (fin gv)
      (fin gs) B db cot nan cu (fin c1) (fin c2) (fin c3) (fin c4) (use_best_fit := true) (fin g)).res =
        .ok (fin q, m)) :
    ∃ (q' : ℝ) (m' : Bool),
      (calculate_overtopping_discharge_q (fin H) (fin T) (fin R) beta gB gb (fin gf) (fin gv)
        (fin gs) B db cot nan cu (fin c1) (fin c2) (fin c3) (fin c4) (use_best_fit := false)
        (fin g)).res = .ok (fin q', m') ∧
      q ≤ q' ∧ (0.09 < c2 → 0.023 < c4 → q < q') := by
  have p2 : 0 < c2 := lt_of_lt_of_le (by norm_num) h2
  have p4 : 0 < c4 := lt_of_lt_of_le (by norm_num) h4
  obtain ⟨hR0, gB', c, gb', k1, k2, k3, k4, X, hp, hb⟩ :=
    q_inv hH hT hf hf1 hv hs h1 p2 h3 p4 hgB h
  obtain ⟨rfl, rfl, rfl, rfl⟩ := coefs X
  have X' : Ctx H T gf gv gs gB' c gb' c1 c2 c3 c4 c1 c2 c3 c4 false :=
    ⟨hH, hT, hf, hf1, hv, hs, X.hB, X.hc, X.hb, X.hb1, h1, p2, h3, p4, rfl⟩
  have hS := Sc_pos hg hH
  rw [X.q_res hg hR0 hp hb] at h
  simp only [Except.ok.injEq, Prod.mk.injEq, fin_inj] at h
  obtain ⟨rfl, -⟩ := h
  have hp' := hp
  rw [pre_single] at hp'
  have e1 := d1_le hH hT X.hc X.hb X.hb1 hf hf1 X.hB hv h1'
  have e3 := d3_le hH hf X.hB hs h3'
  have q3 := d3_pos hH hf X.hB hs h3
  refine ⟨_, _, X'.q_res hg hR0 hp' hb, ?_, fun g2 g4 => ?_⟩
  · exact mul_le_mul_of_nonneg_right (min_le_min (F_coef X.A (A1_le hH hT X.hc X.hb h4) X'.d e1 hR0)
      (F_coef X.h2 h2 q3 e3 hR0)) hS.le
  · exact mul_lt_mul_of_pos_right (min_lt_min (F_coef_lt X.A (A1_lt hH hT X.hc X.hb g4) X'.d e1 hR0)
      (F_coef_lt X.h2 g2 q3 e3 hR0)) hS

/-- EurOtop (2018), required crest, any slope description: where the best fit gives a level, design
values give at least that level, strictly higher with the defaults. -/
theorem C94_eurotop2018_freeboard (H T q gf gv gs c1 c2 c3 c4 g : ℝ)
    (cot cd cu beta B db gB gb : PF) (hH : 0 < H) (hT : 0 < T) (hf : 0 < gf) (hf1 : gf ≤ 1)
    (hv : 0 < gv) (hs : 0 < gs) (h1 : 0 < c1) (h1' : c1 ≤ 2.7) (h2 : 0.09 ≤ c2) (h3 : 0 < c3)
    (h3' : c3 ≤ 1.5) (h4 : 0.023 ≤ c4) (hgB : OmittedOr (0 < ·) gB) (hg : 0 < g) (hq : 0 < q)
    (R : ℝ) (m : Bool)
    (h : (calculate_crest_freeboard_Rc (fin H) (fin T) (fin q) beta gB gb (fin gf) (fin gv)
      (fin gs) B db cot cd cu (fin c1) (fin c2) (fin c3) (fin c4) (use_best_fit := true) (fin g)).res =
        .ok (fin R, m)) :
    ∃ (R' : ℝ) (m' : Bool),
      (calculate_crest_freeboard_Rc (fin H) (fin T) (fin q) beta gB gb (fin gf) (fin gv)
        (fin gs) B db cot cd cu (fin c1) (fin c2) (fin c3) (fin c4) (use_best_fit := false)
        (fin g)).res = .ok (fin R', m') ∧
      R ≤ R' ∧ (0.09 < c2 → 0.023 < c4 → R < R') := by
  have p2 : 0 < c2 := lt_of_lt_of_le (by norm_num) h2
  have p4 : 0 < c4 := lt_of_lt_of_le (by norm_num) h4
  obtain ⟨gB', c, gb', k1, k2, k3, k4, X, hp, hb⟩ :=
    R_inv hH hT hf hf1 hv hs h1 p2 h3 p4 hgB hg h
  obtain ⟨rfl, rfl, rfl, rfl⟩ := coefs X
  have X' : Ctx H T gf gv gs gB' c gb' c1 c2 c3 c4 c1 c2 c3 c4 false :=
    ⟨hH, hT, hf, hf1, hv, hs, X.hB, X.hc, X.hb, X.hb1, h1, p2, h3, p4, rfl⟩
  have hS := Sc_pos hg hH
  obtain ⟨r1, r2⟩ := X.R_range hg hq hp hb h
  rw [X.R_res hg hq r1 r2 hp hb] at h
  simp only [Except.ok.injEq, Prod.mk.injEq, fin_inj] at h
  obtain ⟨rfl, -⟩ := h
  have a1 := A1_le hH hT X.hc X.hb h4
  have e1 := d1_le hH hT X.hc X.hb X.hb1 hf hf1 X.hB hv h1'
  have e3 := d3_le hH X.r X.hB hs h3'
  have q3 := d3_pos hH X.r X.hB hs h3
  have hy : 0 < q / Sc g H := by positivity
  refine ⟨_, _, X'.R_res hg hq (r1.trans a1) (r2.trans h2) hp hb, ?_, fun g2 g4 => ?_⟩
  · exact min_le_min (G_coef X.A a1 X'.d e1 hy r1) (G_coef X.h2 h2 q3 e3 hy r2)
  · exact min_lt_min (G_coef_lt X.A (A1_lt hH hT X.hc X.hb g4) X'.d e1 hy r1)
      (G_coef_lt X.h2 g2 q3 e3 hy r2)

/-- rubble mounds with either set of coefficients -/
theorem rubble2018 {h t gf c2 c3 : ℝ} {cot cd cu beta B db gB' : PF} {p : PF × PF}
    (h0 : 0 < h) (hf : 0 < gf) (hf1 : gf ≤ 1) (h2 : 0 < c2) (h3 : 0 < c3)
    (hgB : OmittedOr (0 < ·) gB')
    (hp' : (pre (fin h) (fin t) cot cd cu beta B db gB' (fin gf) false).res = .ok p) :
    ∃ d : ℝ, 0 < d ∧ ∀ bf : Bool,
    (∀ R g : ℝ, 0 < g → (pre (fin h) (fin t) cot cd cu beta B db gB' (fin gf) bf).res = .ok p →
      (calculate_overtopping_discharge_q_rubble_mound (fin h) (fin t) (fin R) beta
      gB' (fin gf) B db cot cd cu (fin c2) (fin c3) bf (fin g)).res =
        .ok (if 0 ≤ R then fin (F (if bf then 0.09 else c2) ((if bf then 1.5 else c3) * d) R * Sc g h)
          else nan)) ∧
    (∀ q g : ℝ, 0 < q → 0 < g → (calculate_crest_freeboard_Rc_rubble_mound (fin h) (fin t) (fin q) beta
      gB' (fin gf) B db cot cd cu (fin c2) (fin c3) bf (fin g)).res =
        .ok (if q / Sc g h ≤ (if bf then 0.09 else c2) then
          fin (G (if bf then 0.09 else c2) ((if bf then 1.5 else c3) * d) (q / Sc g h)) else nan)) := by
  obtain ⟨gB, e1, hB⟩ := pre_inv hgB hp'
  obtain ⟨p1, ca⟩ := p
  dsimp only at e1
  subst e1
  obtain ⟨r, hr, e4, -⟩ := RunupTaw2002.rough_any hf hf1
    (calculate_Iribarren_number_ksi (fin h) (fin t) ca)
  refine ⟨1 / (h * (r * gB * 1)), by positivity, fun bf => ?_⟩
  have hK : (check_best_fit nan (fin c2) (fin c3) nan bf).2.1 = fin (if bf then 0.09 else c2) ∧
      (check_best_fit nan (fin c2) (fin c3) nan bf).2.2.1 = fin (if bf then 1.5 else c3) := by
    cases bf <;> exact ⟨rfl, rfl⟩
  have ha : 0 < if bf then 0.09 else c2 := by cases bf <;> norm_num [h2]
  have hk : 0 < if bf then 1.5 else c3 := by cases bf <;> norm_num [h3]
  generalize (if bf then 0.09 else c2) = a at *
  generalize (if bf then 1.5 else c3) = k at *
  have e1 : (1.0 : PF) = fin 1 := by rw [sci_eq]; norm_num
  have hv : ∀ {α : Type} (m : PyM α), (check_validity_range_rubble_mound ca >>= fun _ => m).res =
      m.res := by
    intro α m
    unfold check_validity_range_rubble_mound
    simp
  rw [mul_one_div]
  refine ⟨fun R g hg hp => ?_, fun q g hq hg => ?_⟩
  · rw [qr_split, PyM.bind_res_of_ok hp]
    dsimp only
    rw [hK.1, hK.2, hv, e4, e1, qmax_eval h0 hr hB one_pos hk, Sc_eval hg h0]
    split_ifs
    · rw [mul_fin]; rfl
    · rw [nan_mul]; rfl
  · rw [Rr_split, PyM.bind_res_of_ok hp']
    dsimp only
    rw [hK.1, hK.2, hv, e4, e1, Rmax_eval h0 hr hB one_pos hk ha hq hg]
    split_ifs
    · rw [mul_fin, div_mul_cancel₀ _ h0.ne']; rfl
    · rw [nan_mul]; rfl

/-- EurOtop (2018), discharge over rubble mounds on a single slope (missing: two slopes): as above. -/
theorem C94_eurotop2018_rubble_discharge_partial (H T R gf c2 c3 g : ℝ)
    (cot cu beta B db gB : PF) (hH : 0 < H) (hf : 0 < gf) (hf1 : gf ≤ 1) (h2 : 0.09 ≤ c2)
    (h3 : 0 < c3) (h3' : c3 ≤ 1.5) (hgB : OmittedOr (0 < ·) gB) (hg : 0 < g) (q : ℝ)
    (h : (calculate_overtopping_discharge_q_rubble_mound (fin H) (fin T) (fin R) beta gB (fin gf) B db
      cot nan cu (fin c2) (fin c3) (use_best_fit := true) (fin g)).res = .ok (fin q)) :
    ∃ q' : ℝ,
      (calculate_overtopping_discharge_q_rubble_mound (fin H) (fin T) (fin R) beta gB (fin gf) B db
        cot nan cu (fin c2) (fin c3) (use_best_fit := false) (fin g)).res = .ok (fin q') ∧
      q ≤ q' ∧ (0.09 < c2 → q < q') := by
  obtain ⟨p, hp⟩ := pre_of_q h
  have hp' := hp
  rw [pre_single] at hp'
  obtain ⟨d, hd, key⟩ := rubble2018 hH hf hf1 (lt_of_lt_of_le (by norm_num) h2) h3 hgB hp'
  have hS := Sc_pos hg hH
  rw [(key true).1 R g hg hp] at h
  simp only [if_true] at h
  split_ifs at h with hR
  · simp only [Except.ok.injEq, fin_inj] at h
    subst h
    have e := (key false).1 R g hg hp'
    rw [if_pos hR] at e
    simp only [Bool.false_eq_true, if_false] at e
    have h9 : (0 : ℝ) < 0.09 := by norm_num
    refine ⟨_, e, ?_, fun g2 => ?_⟩
    · exact mul_le_mul_of_nonneg_right (F_coef h9 h2 (by positivity)
        (mul_le_mul_of_nonneg_right h3' hd.le) hR) hS.le
    · exact mul_lt_mul_of_pos_right (F_coef_lt h9 g2 (by positivity)
        (mul_le_mul_of_nonneg_right h3' hd.le) hR) hS
  · simp at h

/-- EurOtop (2018), required crest of rubble mounds, any slope description: as above. -/
theorem C94_eurotop2018_rubble_freeboard (H T q gf c2 c3 g : ℝ)
    (cot cd cu beta B db gB : PF) (hH : 0 < H) (hf : 0 < gf) (hf1 : gf ≤ 1) (h2 : 0.09 ≤ c2)
    (h3 : 0 < c3) (h3' : c3 ≤ 1.5) (hgB : OmittedOr (0 < ·) gB) (hg : 0 < g) (hq : 0 < q) (R : ℝ)
    (h : (calculate_crest_freeboard_Rc_rubble_mound (fin H) (fin T) (fin q) beta gB (fin gf) B db
      cot cd cu (fin c2) (fin c3) (use_best_fit := true) (fin g)).res = .ok (fin R)) :
    ∃ R' : ℝ,
      (calculate_crest_freeboard_Rc_rubble_mound (fin H) (fin T) (fin q) beta gB (fin gf) B db
        cot cd cu (fin c2) (fin c3) (use_best_fit := false) (fin g)).res = .ok (fin R') ∧
      R ≤ R' ∧ (0.09 < c2 → R < R') := by
  obtain ⟨p, hp'⟩ := pre_of_R h
  obtain ⟨d, hd, key⟩ := rubble2018 hH hf hf1 (lt_of_lt_of_le (by norm_num) h2) h3 hgB hp'
  have hS := Sc_pos hg hH
  rw [(key true).2 q g hq hg] at h
  simp only [if_true] at h
  split_ifs at h with hR
  · simp only [Except.ok.injEq, fin_inj] at h
    subst h
    have e := (key false).2 q g hq hg
    simp only [Bool.false_eq_true, if_false] at e
    rw [if_pos (hR.trans h2)] at e
    have h9 : (0 : ℝ) < 0.09 := by norm_num
    have hy : 0 < q / Sc g H := by positivity
    refine ⟨_, e, ?_, fun g2 => ?_⟩
    · exact G_coef h9 h2 (by positivity) (mul_le_mul_of_nonneg_right h3' hd.le) hy hR
    · exact G_coef_lt h9 g2 (by positivity) (mul_le_mul_of_nonneg_right h3' hd.le) hy hR
  · simp at h

/-- a rough 1:3 slope with a berm and the default values: there is a best-fit discharge, and the design
discharge is larger -/
example : ∃ (q q' : ℝ) (m m' : Bool),
    (calculate_overtopping_discharge_q (fin 2) (fin 6) (fin 3) (fin 30) nan nan (fin 0.8) (fin 1)
      (fin 1) (fin 4) (fin 0.5) (fin 3) nan nan (use_best_fit := true)).res = .ok (fin q, m) ∧
    (calculate_overtopping_discharge_q (fin 2) (fin 6) (fin 3) (fin 30) nan nan (fin 0.8) (fin 1)
      (fin 1) (fin 4) (fin 0.5) (fin 3) nan nan).res = .ok (fin q', m') ∧ q < q' := by
  obtain ⟨gB', gb', hB0, hb6, hb1, -, hp, hb⟩ := pre_straight (h := 2) (t := 6) (c := 3) (B := 4)
    (gf := 0.8) (db := 0.5) (beta := fin 30) (gB' := nan) true (by norm_num) (by norm_num) (by norm_num)
    (by norm_num) (Or.inl rfl) (Or.inr (by simp))
  have X : Ctx 2 6 0.8 1 1 gB' 3 gb' 2.7 0.09 1.5 0.023 2.5 0.1035 1.35 0.026 true :=
    ⟨by norm_num, by norm_num, by norm_num, by norm_num, one_pos, one_pos, hB0, by norm_num,
      by norm_num at hb6; linarith, hb1, by norm_num, by norm_num, by norm_num, by norm_num, rfl⟩
  have h := X.q_res (gb' := nan) (R := 3) (g := 9.81) (by norm_num) (by norm_num) hp hb
  obtain ⟨q', m', e, -, l⟩ := C94_eurotop2018_discharge_partial 2 6 3 0.8 1 1 2.5 0.1035 1.35 0.026 9.81
    (fin 3) nan (fin 30) (fin 4) (fin 0.5) nan nan (by norm_num) (by norm_num) (by norm_num)
    (by norm_num) (by norm_num) (by norm_num) (by norm_num) (by norm_num) (by norm_num) (by norm_num)
    (by norm_num) (by norm_num) (Or.inl rfl) (by norm_num) _ _ h
  exact ⟨_, q', _, m', h, e, l (by norm_num) (by norm_num)⟩
end eurotop2018

/-! ## Run-up -/
section runup
open RunupTaw2002

/-- TAW (2002), 2% run-up of a single slope: from breaker parameter 1/9 on, design values give at least
the best-fit level; below 1/9 (where both levels are negative) they give a strictly lower one, so that
the claim is false there. -/
theorem C94_runup_taw_partial (H T c gf gb gB : ℝ) (hH : 0 < H) (hT : 0 < T) (hc : 0 < c) (hf : 0 < gf)
    (hf1 : gf ≤ 1) (hb : 0 < gb) (hb1 : gb ≤ 1) (hB : 0 < gB) (x : ℝ)
    (hx : calculate_Iribarren_number_ksi (fin H) (fin T) (fin c) = fin x) :
    ∃ (z z' : ℝ) (f f' : Bool),
    (calculate_wave_runup_height_z2p { Hm0 := fin H, Tmm10 := fin T, cot_alpha := fin c, gamma_f := fin gf, gamma_b := fin gb, gamma_beta := fin gB, use_best_fit := true }).res =
        .ok (fin z, f) ∧
    (calculate_wave_runup_height_z2p { Hm0 := fin H, Tmm10 := fin T, cot_alpha := fin c, gamma_f := fin gf, gamma_b := fin gb, gamma_beta := fin gB, use_best_fit := false }).res =
        .ok (fin z', f') ∧
    (1 / 9 ≤ x → z ≤ z') ∧ (1 / 9 < x → z < z') ∧ (x < 1 / 9 → z' < z ∧ z < 0) := by
  obtain ⟨x1, r, z, f, e1, hx0, er, hz, rfl, -⟩ :=
    RunupTawProofs.C46_smaller_of_two H T c gf gb gB true hH hT hc
  obtain ⟨x2, r', z', f', e1', -, er', hz', rfl, -⟩ :=
    RunupTawProofs.C46_smaller_of_two H T c gf gb gB false hH hT hc
  rw [e1] at e1' hx
  cases e1'
  cases hx
  rw [er] at er'
  cases er'
  have hr : 0 < r := by
    rw [rough_eval] at er
    cases er
    exact rough_pos hf hf1 hb1 hx0
  refine ⟨_, _, f, f', hz, hz', ?_⟩
  simp only [if_true, Bool.false_eq_true, if_false]
  obtain ⟨y, hy, hxy⟩ : ∃ y : ℝ, 0 < y ∧ √x = y := ⟨_, Real.sqrt_pos.mpr hx0, rfl⟩
  have hx2 : x = y ^ 2 := by rw [← hxy, Real.sq_sqrt hx0.le]
  rw [hxy]
  subst hx2
  have hp : 0 < r * gB := by positivity
  have ea : 1.65 * gb * r * gB * y ^ 2 < 1.75 * gb * r * gB * y ^ 2 := by gcongr; norm_num
  have hy1 : 0.1 / y = 1.6 / y - 1.5 / y := by rw [← sub_div]; norm_num
  refine ⟨fun h => ?_, fun h => ?_, fun h => ?_⟩
  · have h3 : 1 / 3 ≤ y := by nlinarith
    have h4 : 0.1 / y ≤ 0.3 := by rw [div_le_iff₀ hy]; norm_num at h3 ⊢; linarith
    refine mul_le_mul_of_nonneg_left (min_le_min ea.le (mul_le_mul_of_nonneg_left ?_ hp.le)) hH.le
    norm_num at h4 hy1 ⊢; linarith
  · have h3 : 1 / 3 < y := by nlinarith
    have h4 : 0.1 / y < 0.3 := by rw [div_lt_iff₀ hy]; norm_num at h3 ⊢; linarith
    refine mul_lt_mul_of_pos_left (min_lt_min ea (mul_lt_mul_of_pos_left ?_ hp)) hH
    norm_num at h4 hy1 ⊢; linarith
  · have h3 : y < 1 / 3 := by nlinarith
    have h4 : 0.3 < 0.1 / y := by rw [lt_div_iff₀ hy]; norm_num at h3 ⊢; linarith
    have h5 : 4.0 - 1.5 / y < (0 : ℝ) := by
      have : 4.0 < (1.5 : ℝ) / y := by rw [lt_div_iff₀ hy]; norm_num at h3 ⊢; linarith
      linarith
    have h6 : r * gB * (4.0 - 1.5 / y) < 0 := mul_neg_of_pos_of_neg hp h5
    have h7 : r * gB * (4.0 - 1.5 / y) ≤ 1.65 * gb * r * gB * y ^ 2 := h6.le.trans (by positivity)
    rw [min_eq_right h7]
    refine ⟨mul_lt_mul_of_pos_left (inf_le_right.trans_lt (mul_lt_mul_of_pos_left ?_ hp)) hH,
      mul_neg_of_pos_of_neg hH h6⟩
    norm_num at h4 hy1 ⊢; linarith

/-- a rough 1:3 slope -/
example : ∃ x : ℝ, calculate_Iribarren_number_ksi (fin 2) (fin 6) (fin 3) = fin x ∧ 1 / 9 < x := by
  refine ⟨_, VdMProof.xi_eval (by norm_num) (by norm_num) (by norm_num), ?_⟩
  have hp := Real.pi_pos
  have h4 := Real.pi_le_four
  have hs : √(2 * Real.pi / 9.81 * 2 / 6 ^ 2) ≤ 1 := by
    rw [Real.sqrt_le_one]
    norm_num
    linarith
  have h0 : 0 < √(2 * Real.pi / 9.81 * 2 / 6 ^ 2) := Real.sqrt_pos.mpr (by positivity)
  unfold VdMProof.xi
  rw [lt_div_iff₀ h0]
  norm_num at hs ⊢
  linarith

/-- EurOtop (2018), 2% run-up of a single slope with the default design coefficients: at least the
best-fit level when 0.105 ≤ 0.601 √ξ (ξ from about 0.031), and strictly lower, with both levels negative,
when it is not. -/
theorem C94_runup_eurotop2018_partial (H T c gf gb b : ℝ) (gB : PF) (hH : 0 < H) (hT : 0 < T)
    (hc : 0 < c) (hf : 0 < gf) (hf1 : gf ≤ 1) (hb : 0 < gb) (hb1 : gb ≤ 1) (x : ℝ)
    (hx : calculate_Iribarren_number_ksi (fin H) (fin T) (fin c) = fin x) :
    ∃ (z z' : ℝ) (f f' : Bool),
    (RunupEurOtop2018.calculate_wave_runup_height_z2p (fin H) (fin T) (fin b) gB (fin gb) (fin gf)
      (cot_alpha := fin c) (use_best_fit := true)).res = .ok (fin z, f) ∧
    (RunupEurOtop2018.calculate_wave_runup_height_z2p (fin H) (fin T) (fin b) gB (fin gb) (fin gf)
      (cot_alpha := fin c) (use_best_fit := false)).res = .ok (fin z', f') ∧
    (0.105 ≤ 0.601 * √x → z ≤ z') ∧ (0.105 < 0.601 * √x → z < z') ∧
    (0.601 * √x < 0.105 → z' < z ∧ z < 0) := by
  obtain ⟨r0, hr0, p0⟩ : ∃ r : ℝ, RunupEurOtop2018.calculate_influence_oblique_waves_gamma_beta (fin b)
      (fin gf) = fin r ∧ 0 < r := by
    unfold RunupEurOtop2018.calculate_influence_oblique_waves_gamma_beta
    dsimp only
    split_ifs
    · obtain ⟨r, hr, h0, -⟩ := obl_any (fin b) (by simp) (c := 0.0022) (by norm_num) (by norm_num)
      exact ⟨r, hr, by linarith⟩
    · obtain ⟨r, hr, h0, -⟩ := obl_any (fin b) (by simp) (c := 0.0063) (by norm_num) (by norm_num)
      exact ⟨r, hr, by linarith⟩
  have hx0 := VdMProof.xi_pos hH hT hc
  have hrr := rough_pos (gb := gb) hf hf1 hb1 hx0
  have key : ∀ (bf : Bool) (k1 k2 k3 k4 : ℝ), RunupEurOtop2018.check_best_fit (1.75 : PF) 4.3 1.5 1.07 bf =
      (fin k1, fin k2, fin k3, fin k4) →
      ∃ f : Bool, (RunupEurOtop2018.calculate_wave_runup_height_z2p (fin H) (fin T) (fin b) gB (fin gb)
        (fin gf) (cot_alpha := fin c) (use_best_fit := bf)).res =
        .ok (fin ((ra k1 gf gb r0 (VdMProof.xi H T c) ⊓ rb k2 k3 k4 gf gb r0 (VdMProof.xi H T c)) * H),
          f) := by
    intro bf k1 k2 k3 k4 hk
    unfold RunupEurOtop2018.calculate_wave_runup_height_z2p
      RunupEurOtop2018.calculate_dimensionless_wave_runup_height_z2p
    dsimp only
    rw [hr0, hk]
    rw [PyM.bind_res_of_ok (RunupTaw2002.single_res (a := { Hm0 := fin H, Tmm10 := fin T, gamma_beta := fin r0, gamma_b := fin gb, gamma_f := fin gf, B_berm := 0.0, db := 0.0, cot_alpha := fin c, cot_alpha_down := nan, cot_alpha_up := nan, c1 := fin k1, c2 := fin k2, c3 := fin k3, c4 := fin k4 })
      (c1 := k1) (c2 := k2) (c3 := k3) (c4 := k4) (gf := gf) (gb := gb) (gB := r0) hH hT hc rfl rfl rfl (Or.inl rfl) rfl rfl rfl rfl rfl rfl rfl)]
    exact ⟨_, rfl⟩
  obtain ⟨f, hz⟩ := key true 1.65 4.0 1.5 1.0 rfl
  obtain ⟨f', hz'⟩ := key false 1.75 4.3 1.5 1.07 rfl
  rw [VdMProof.xi_eval hH hT hc, fin_inj] at hx
  rw [hx] at *
  refine ⟨_, _, f, f', hz, hz', ?_⟩
  unfold ra rb
  generalize rough gf gb x = r at *
  obtain ⟨y, hy, hxy⟩ : ∃ y : ℝ, 0 < y ∧ √x = y := ⟨_, Real.sqrt_pos.mpr hx0, rfl⟩
  rw [hxy]
  have hp : 0 < r * r0 := by positivity
  have ea : 1.65 * gb * r * r0 * x < 1.75 * gb * r * r0 * x := by gcongr; norm_num
  have e1 : 1.0 * r * r0 * (4.0 - 1.5 / y) = r * r0 * (4 - 1.5 / y) := by norm_num
  have e2 : 1.07 * r * r0 * (4.3 - 1.5 / y) = r * r0 * (4 - 1.5 / y + (0.601 - 0.105 / y)) := by
    have : (0.105 : ℝ) / y = 1.07 * (1.5 / y) - 1.5 / y := by rw [← mul_div_assoc, ← sub_div]; norm_num
    rw [this]; norm_num; ring
  rw [e1, e2]
  refine ⟨fun h => ?_, fun h => ?_, fun h => ?_⟩
  · have h4 : 0.105 / y ≤ 0.601 := by rw [div_le_iff₀ hy]; exact h
    exact mul_le_mul_of_nonneg_right
      (min_le_min ea.le (mul_le_mul_of_nonneg_left (by linarith) hp.le)) hH.le
  · have h4 : 0.105 / y < 0.601 := by rw [div_lt_iff₀ hy]; exact h
    exact mul_lt_mul_of_pos_right (min_lt_min ea (mul_lt_mul_of_pos_left (by linarith) hp)) hH
  · have h4 : 0.601 < 0.105 / y := by rw [lt_div_iff₀ hy]; exact h
    have h5 : 4 - 1.5 / y < (0 : ℝ) := by
      have : 4 < (1.5 : ℝ) / y := by rw [lt_div_iff₀ hy]; norm_num at h ⊢; linarith
      linarith
    have h6 : r * r0 * (4 - 1.5 / y) < 0 := mul_neg_of_pos_of_neg hp h5
    rw [inf_eq_right.mpr (h6.le.trans (by positivity : 0 ≤ 1.65 * gb * r * r0 * x))]
    exact ⟨mul_lt_mul_of_pos_right (inf_le_right.trans_lt (mul_lt_mul_of_pos_left (by linarith) hp)) hH,
      mul_neg_of_neg_of_pos h6 hH⟩

example := C94_runup_taw_partial 2 6 3 0.7 0.8 0.9 (by norm_num) (by norm_num) (by norm_num)
  (by norm_num) (by norm_num) (by norm_num) (by norm_num) (by norm_num) _
  (VdMProof.xi_eval (by norm_num) (by norm_num) (by norm_num))
example := C94_runup_eurotop2018_partial 2 6 3 0.7 0.8 20 nan (by norm_num) (by norm_num) (by norm_num)
  (by norm_num) (by norm_num) (by norm_num) (by norm_num) _
  (VdMProof.xi_eval (by norm_num) (by norm_num) (by norm_num))

end runup

/-! ## Van Gent et al. (2025) -/
section vangent
open VanGent2025
open OvertoppingTaw2002 (Sc Sc_pos Sc_eval)

theorem design_last (Hm0 Hm0_swell Tmm10 Rc Ac cot_alpha beta B_berm db Dn50 gamma_f gamma_b gamma_v
    gamma_beta : PF) (wind : Bool) :
    calculate_dimensionless_overtopping_discharge_q Hm0 Hm0_swell Tmm10 Rc Ac cot_alpha beta B_berm db
      Dn50 gamma_f gamma_b gamma_v gamma_beta true wind =
    calculate_dimensionless_overtopping_discharge_q Hm0 Hm0_swell Tmm10 Rc Ac cot_alpha beta B_berm db
      Dn50 gamma_f gamma_b gamma_v gamma_beta false wind >>= fun r => pure (npow r.1 0.857, r.2) := by
  unfold calculate_dimensionless_overtopping_discharge_q
  simp only [bind_assoc, pure_bind, if_true, Bool.false_eq_true, if_false]

/-- Van Gent et al. (2025), overtopping discharge, for every combination of arguments, with or without
wind, for which the mean value is a positive number: the design value is at least the mean value as long
as the mean value is at most `√(g Hm0³)`, and strictly more below that; above it the design value is
strictly less (the claim is then false). -/
theorem C94_vangent2025_discharge_partial (H g : ℝ) (w T R Ac cot beta B db D gf gb gv gB : PF)
    (wind : Bool) (hH : 0 < H) (hg : 0 < g) (q : ℝ) (m : Bool) (hq : 0 < q)
    (h : (calculate_overtopping_discharge_q (fin H) w T R Ac cot beta B db D gf gb gv gB (fin g)
      (design_calculation := false) wind).res = .ok (fin q, m)) :
    ∃ q' : ℝ, (calculate_overtopping_discharge_q (fin H) w T R Ac cot beta B db D gf gb gv gB (fin g)
      (design_calculation := true) wind).res = .ok (fin q', m) ∧
      (q ≤ √(g * H ^ 3) → q ≤ q') ∧ (q < √(g * H ^ 3) → q < q') ∧ (√(g * H ^ 3) < q → q' < q) := by
  have hS := Sc_pos hg hH
  unfold calculate_overtopping_discharge_q at h ⊢
  rw [design_last, bind_assoc]
  obtain ⟨⟨y, f⟩, h1, h2, -⟩ := PyM.bind_inv h
  dsimp only at h2
  rw [Sc_eval hg hH] at h2
  simp only [PyM.pure_def, Except.ok.injEq, Prod.mk.injEq] at h2
  obtain ⟨h2, rfl⟩ := h2
  obtain ⟨y, rfl⟩ : ∃ y' : ℝ, y = fin y' := by
    have mp : mulInf (Sc g H) = pinf := by unfold mulInf; simp [hS]
    cases y with
    | fin y => exact ⟨y, rfl⟩
    | nan => simp [nan_mul] at h2
    | pinf =>
      rw [show pinf * fin (Sc g H) = mulInf (Sc g H) from rfl, mp] at h2; cases h2
    | ninf =>
      rw [show ninf * fin (Sc g H) = neg (mulInf (Sc g H)) from rfl, mp] at h2; cases h2
  rw [mul_fin, fin_inj] at h2
  have hy : 0 < y := by
    rw [← h2] at hq
    exact (mul_pos_iff_of_pos_right hS).mp hq
  rw [PyM.bind_res_of_ok h1]
  dsimp only
  rw [pure_bind]
  dsimp only
  rw [sci_eq, npow_fin hy, Sc_eval hg hH, mul_fin]
  refine ⟨_, rfl, ?_⟩
  have e : √(g * H ^ 3) = Sc g H := rfl
  rw [e]
  subst h2
  refine ⟨fun hl => ?_, fun hl => ?_, fun hl => ?_⟩
  · have h1 : y ≤ 1 := by
      by_contra hc
      exact absurd hl (not_le.mpr (lt_mul_of_one_lt_left hS (not_le.mp hc)))
    refine mul_le_mul_of_nonneg_right ?_ hS.le
    exact Real.self_le_rpow_of_le_one hy.le h1 (by norm_num)
  · have h1 : y < 1 := by
      by_contra hc
      exact absurd hl (not_lt.mpr (le_mul_of_one_le_left hS.le (not_lt.mp hc)))
    refine mul_lt_mul_of_pos_right ?_ hS
    exact Real.self_lt_rpow_of_lt_one hy h1 (by norm_num)
  · have h1 : 1 < y := by
      by_contra hc
      exact absurd hl (not_lt.mpr (mul_le_of_le_one_left hS.le (not_lt.mp hc)))
    refine mul_lt_mul_of_pos_right ?_ hS
    exact Real.rpow_lt_self_of_one_lt h1 (by norm_num)

/-- Van Gent et al. (2025), required crest without wind: for a discharge of at most `√(9.81 Hm0³)` design
values give at least the mean level.  Where the maximum formula governs the mean level, though, they
give exactly the same level (the maximum formula is asked for the discharge as given), so that the
design discharge over the crest so found is more than the discharge asked for. -/
theorem C94_vangent2025_freeboard_partial (H T c gf gb gv gB q w : ℝ) (Ac beta B db D : PF) (hH : 0 < H)
    (hT : 0 < T) (hc : 0 < c) (hf : 0 < gf) (hb : 0 < gb) (hv : 0 < gv) (hB : 0 < gB) (hq : 0 < q)
    (hq1 : q ≤ √(9.81 * H ^ 3)) : ∃ (R R' : ℝ) (m m' : Bool),
    (calculate_crest_freeboard_Rc (fin H) (fin w) (fin T) (fin q) Ac (fin c) beta B db D (fin gf)
      (fin gb) (fin gv) (fin gB) (design_calculation := false)).res = .ok (fin R, m) ∧
    (calculate_crest_freeboard_Rc (fin H) (fin w) (fin T) (fin q) Ac (fin c) beta B db D (fin gf)
      (fin gb) (fin gv) (fin gB) (design_calculation := true)).res = .ok (fin R', m') ∧
    R ≤ R' ∧ (m = true → R' = R ∧ (q < √(9.81 * H ^ 3) → ∃ q' : ℝ, q < q' ∧
      (calculate_overtopping_discharge_q (fin H) (fin w) (fin T) (fin R') Ac (fin c) beta B db D (fin gf)
        (fin gb) (fin gv) (fin gB) (fin 9.81) (design_calculation := true)).res = .ok (fin q', true))) := by
  have h9 : (0 : ℝ) < 9.81 := by norm_num
  have hS := Sc_pos h9 hH
  have e : √(9.81 * H ^ 3) = Sc 9.81 H := rfl
  rw [e] at hq1 ⊢
  have hx := VdMProof.xi_pos hH hT hc
  have hG : 0 < gf * gb * gv * gB := by positivity
  obtain ⟨kq, kR⟩ := both_eval (D := D) (gf' := fin gf) (gb' := fin gb) (gB' := fin gB) (Ac := Ac)
    (beta := beta) (B := B) (db := db) hH hT hc hv hf hb hB (by unfold friction_or_raise; simp) (by simp)
    (by simp)
  have hy : 0 < q / Sc 9.81 H := by positivity
  have hy1 : q / Sc 9.81 H ≤ 1 := by rw [div_le_one hS]; exact hq1
  have hyy : (q / Sc 9.81 H) ^ (1 / 0.857 : ℝ) ≤ q / Sc 9.81 H :=
    Real.rpow_le_self_of_le_one hy.le hy1 (by norm_num)
  have hL := L_le (A1_pos hc) (k1_pos (x := VdMProof.xi H T c) hH hG hx)
    (Real.rpow_pos_of_pos hy (1 / 0.857 : ℝ)) hyy
  refine ⟨_, _, _, _, kR q w false hq, kR q w true hq, ?_, ?_⟩
  · simp only [if_true, Bool.false_eq_true, if_false]
    exact add_le_add_left (min_le_min hL le_rfl) _
  · simp only [if_true, Bool.false_eq_true, if_false, decide_eq_true_eq]
    intro hm
    rw [inf_eq_right.mpr hm, inf_eq_right.mpr (hm.trans hL)]
    refine ⟨rfl, fun hlt => ?_⟩
    have hlt1 : q / Sc 9.81 H < 1 := by rw [div_lt_one hS]; exact hlt
    have k := kq (L (A2 c) (k2 H (gf * gb * gv * gB) (VdMProof.xi H T c)) (q / Sc 9.81 H) + 0.4 * w) w 9.81
      true h9
    rw [add_sub_cancel_right] at k
    have a1 := A1_pos hc
    have a2 := A2_pos hc
    have b1 := k1_pos (x := VdMProof.xi H T c) hH hG hx
    have b2 := k2_pos (x := VdMProof.xi H T c) hH hG hx
    have g2 := E_L a2 b2 hy
    have g1 := E_le a1 b1 hm
    rw [E_L a1 b1 hy] at g1
    have hQ : Q H c (gf * gb * gv * gB) (VdMProof.xi H T c)
        (L (A2 c) (k2 H (gf * gb * gv * gB) (VdMProof.xi H T c)) (q / Sc 9.81 H)) = q / Sc 9.81 H := by
      unfold Q
      rw [g2, inf_eq_right.mpr g1]
    rw [hQ, g2] at k
    simp only [if_true, g1, decide_true] at k
    refine ⟨_, ?_, k⟩
    calc q = q / Sc 9.81 H * Sc 9.81 H := (div_mul_cancel₀ _ hS.ne').symm
      _ < _ := mul_lt_mul_of_pos_right (Real.self_lt_rpow_of_lt_one hy hlt1 (by norm_num)) hS

example := C94_vangent2025_freeboard_partial 2 6 2 0.5 1 1 0.9 0.001 0.5 (fin 1) (fin 20) (fin 4) (fin 1)
  (fin 1) (by norm_num) (by norm_num) (by norm_num) (by norm_num) (by norm_num) (by norm_num)
  (by norm_num) (by norm_num) (Real.le_sqrt_of_sq_le (by norm_num))

/-- a 1:2 slope: the mean discharge is returned, and the design discharge with it -/
example : ∃ (q q' : ℝ) (m : Bool),
    (calculate_overtopping_discharge_q (fin 2) (fin 0.5) (fin 6) (fin 3) (fin 1) (fin 2) (fin 20) (fin 4)
      (fin 1) (fin 1) (fin 0.5) (fin 1) (fin 1) (fin 0.9) (fin 9.81) false).res = .ok (fin q, m) ∧
    (calculate_overtopping_discharge_q (fin 2) (fin 0.5) (fin 6) (fin 3) (fin 1) (fin 2) (fin 20) (fin 4)
      (fin 1) (fin 1) (fin 0.5) (fin 1) (fin 1) (fin 0.9) (fin 9.81) true).res = .ok (fin q', m) := by
  have hk := (both_eval (H := 2) (T := 6) (c := 2) (gv := 1) (gf := 0.5) (gb := 1) (gB := 0.9) (D := fin 1)
    (gf' := fin 0.5) (gb' := fin 1) (gB' := fin 0.9) (Ac := fin 1) (beta := fin 20) (B := fin 4)
    (db := fin 1) (by norm_num) (by norm_num) (by norm_num) (by norm_num) (by norm_num) (by norm_num)
    (by norm_num) (by unfold friction_or_raise; simp) (by simp) (by simp)).1 3 0.5 9.81 false (by norm_num)
  obtain ⟨q', h, -⟩ := C94_vangent2025_discharge_partial 2 9.81 _ _ _ _ _ _ _ _ _ _ _ _ _ false
    (by norm_num) (by norm_num) _ _ (mul_pos (Q_pos (by norm_num) _) (Sc_pos (by norm_num) (by norm_num))) hk
  exact ⟨_, q', _, hk, h⟩
end vangent

end DesignSafe
