import Verif.Props.Composite

/-!
# C52: best-fit coefficients on a structure with two slopes

The discharge is computed with the average slope of a run-up by best-fit coefficients, the crest level with that
of a run-up by design coefficients (`use_best_fit` is not handed on in wave_overtopping/eurotop2018.py, crest
level). The two calculations use different slopes, and do not undo each other.
-/

open Classical
open PF
open CorePhysics CoreUtility WorseProof
open OvertoppingEurOtop2018
open OvertoppingTaw2002 (Sc Sc_pos)
open TwoFormulas (F F_pos F_le_A G_F G_lt)
noncomputable section

namespace CompositeProof

theorem amp (c : ℝ) {k : ℝ} : k / √(1.0 / c) = k * √c := by
  rw [show (1.0 : ℝ) = 1 by norm_num, one_div, Real.sqrt_inv, div_inv_eq_mul]

theorem A1_near {H T c c' k t : ℝ} (hH : 0 < H) (hT : 0 < T) (hc : 0 < c) (ht : 0 < t) (hcc : c ≤ c')
    (hct : c' ≤ t * c) (hk : 0 < k) : A1 H T c 1 k ≤ t * A1 H T c' 1 k := by
  have hc' := hc.trans_le hcc
  have x0 := (irib_sq hH hT hc).1
  have r : Textbook.iribarren H T c ≤ t * Textbook.iribarren H T c' := by
    have h := irib_c hH hT (c := c * t) hc' (by linarith)
    have e := irib_div H T (c * t) t
    rw [mul_div_cancel_right₀ _ ht.ne'] at e
    rw [e]
    gcongr
  unfold A1
  rw [mul_one, mul_one, amp c, amp c', ← RangeProof.irib_eq, ← RangeProof.irib_eq]
  calc k * √c * Textbook.iribarren H T c ≤ k * √c' * (t * Textbook.iribarren H T c') := by gcongr
    _ = _ := by ring

theorem A1_strict {H T c c' k : ℝ} (hH : 0 < H) (hT : 0 < T) (hc : 0 < c) (hcc : c < c') (hk : 0 < k) :
    A1 H T c' 1 k < A1 H T c 1 k := by
  have hc' := hc.trans hcc
  unfold A1
  rw [mul_one, mul_one, amp c, amp c', ← RangeProof.irib_eq, ← RangeProof.irib_eq]
  obtain ⟨t, ht, rfl⟩ : ∃ t : ℝ, 1 < t ∧ c' = c / t⁻¹ :=
    ⟨c' / c, (one_lt_div hc).mpr hcc, by field_simp⟩
  have t0 : 0 < t := by linarith
  rw [irib_div, div_inv_eq_mul, Real.sqrt_mul hc.le]
  have x0 := (irib_sq hH hT hc).1
  have s1 : √t * t⁻¹ < 1 := by
    rw [← div_eq_mul_inv, div_lt_one t0]
    nth_rewrite 2 [← Real.mul_self_sqrt t0.le]
    have : 1 < √t := by rw [Real.lt_sqrt (by norm_num)]; linarith
    nlinarith
  have c0 : 0 < √c := Real.sqrt_pos.mpr hc
  calc k * (√c * √t) * (t⁻¹ * Textbook.iribarren H T c)
      = k * √c * Textbook.iribarren H T c * (√t * t⁻¹) := by ring
    _ < k * √c * Textbook.iribarren H T c * 1 := mul_lt_mul_of_pos_left s1 (by positivity)
    _ = _ := mul_one _

theorem xi_strict {H T c c' : ℝ} (hH : 0 < H) (hT : 0 < T) (hc : 0 < c) (hcc : c < c') :
    VdMProof.xi H T c' < VdMProof.xi H T c := by
  rw [← RangeProof.irib_eq, ← RangeProof.irib_eq]
  have x0 := (irib_sq hH hT hc).1
  obtain ⟨t, ht, rfl⟩ : ∃ t : ℝ, 1 < t ∧ c' = c / t⁻¹ :=
    ⟨c' / c, (one_lt_div hc).mpr hcc, by field_simp⟩
  rw [irib_div]
  have : t⁻¹ < 1 := inv_lt_one_of_one_lt₀ ht
  nlinarith

theorem rough_one (x : ℝ) : RunupTaw2002.rough 1 1 x = 1 := by
  unfold RunupTaw2002.rough
  split_ifs <;> norm_num
end CompositeProof
open CompositeProof

/-- Refuted: with best-fit coefficients the crest level of a smooth structure with a slightly flatter upper slope
(up to 6 %), for breaking waves and a crest at half the wave height or more, is strictly below the one
whose discharge was asked for. -/
theorem C52_composite_best_fit_refuted (H T cd cu gB R g : ℝ) (beta gb : PF) (hH : 0 < H) (hT : 0 < T)
    (hcd : 0 < cd) (hcc : cd < cu) (hcu : cu ≤ 1.06 * cd) (h9 : cu ≤ 9) (hB : 0 < gB) (hB1 : gB ≤ 1)
    (hl : 0.5 ≤ Textbook.iribarren H T cu) (hu : Textbook.iribarren H T cd ≤ 1.3) (hR : 0.5 * H ≤ R) (hg : 0 < g) :
    ∃ (q R' : ℝ) (m' : Bool), 0 < q ∧ R' < R ∧
      (calculate_overtopping_discharge_q (fin H) (fin T) (fin R) beta (fin gB) gb
        (cot_alpha_down := fin cd) (cot_alpha_up := fin cu) (use_best_fit := true) (g := fin g)).res =
          .ok (fin q, false) ∧
      (calculate_crest_freeboard_Rc (fin H) (fin T) (fin q) beta (fin gB) gb
        (cot_alpha_down := fin cd) (cot_alpha_up := fin cu) (use_best_fit := true) (g := fin g)).res =
          .ok (fin R', m') := by
  have hcu0 := hcd.trans hcc
  have hmax : max cd cu = cu := max_eq_right hcc.le
  have hl' : 0.5 ≤ VdMProof.xi H T (max cd cu) := by rwa [hmax, ← RangeProof.irib_eq]
  have d15 : (0 : ℝ) ≤ 1.5 * H := by positivity
  have ratio : Textbook.iribarren H T cd ≤ 1.06 * Textbook.iribarren H T cu := by
    have := irib_c hH hT (c := cd * 1.06) hcu0 (by linarith)
    have e := irib_div H T (cd * 1.06) 1.06
    rw [mul_div_cancel_right₀ _ (by norm_num)] at e
    rw [e]
    gcongr
  rw [RangeProof.irib_eq] at hl hu ratio
  rw [RangeProof.irib_eq] at ratio
  obtain ⟨z, w, hz, hw, ez, hp, hb⟩ := pre_composite (gf := 1) (gB := gB) beta true hH hT hcd hcu0 one_pos le_rfl hB
    le_rfl d15 hl'
  obtain ⟨z', w', hz', hw', ez', hp', hb'⟩ := pre_composite (gf := 1) (gB := gB) beta false hH hT hcd hcu0 one_pos
    le_rfl hB le_rfl d15 hl'
  have bd : ∀ z : ℝ, 0 < z → cd ≤ RunupTaw2002.avg H z cd cu 0 ∧ RunupTaw2002.avg H z cd cu 0 ≤ cu := fun z hz =>
    RunupTaw2002.avg_between hH hz le_rfl d15 le_rfl hcc.le hcc.le le_rfl
  have mono : ∀ {a b : ℝ}, 0 < a → a ≤ b → VdMProof.xi H T b ≤ VdMProof.xi H T a := by
    intro a b ha hab
    rw [← RangeProof.irib_eq, ← RangeProof.irib_eq]
    exact irib_c hH hT ha hab
  have hzz : z < z' := by
    have u1 : VdMProof.xi H T (RunupTaw2002.avg H w cd cu 0) ≤ VdMProof.xi H T cd := mono hcd (bd w hw).1
    have u2 : VdMProof.xi H T cu ≤ VdMProof.xi H T (RunupTaw2002.avg H w' cd cu 0) :=
      mono (hcd.trans_le (bd w' hw').1) (bd w' hw').2
    have u3 : VdMProof.xi H T cu ≤ VdMProof.xi H T cd := mono hcd hcc.le
    simp only [if_true, Bool.false_eq_true, if_false] at ez ez'
    unfold RunupTaw2002.ra RunupTaw2002.rb at ez ez'
    simp only [rough_one] at ez ez'
    generalize VdMProof.xi H T (RunupTaw2002.avg H w cd cu 0) = x at *
    generalize VdMProof.xi H T (RunupTaw2002.avg H w' cd cu 0) = y at *
    generalize VdMProof.xi H T cd = xd at *
    generalize VdMProof.xi H T cu = xu at *
    have s : (0.7 : ℝ) ≤ √y := by
      have : (0.5 : ℝ) ≤ y := hl.trans u2
      exact Real.le_sqrt_of_sq_le (by norm_num at this ⊢; linarith)
    have s2 : 1.5 / √y ≤ 1.5 / 0.7 := by gcongr
    have lo : 1.75 * gB * xu ≤ Min.min (1.75 * 1 * 1 * gB * y) (1.07 * 1 * gB * (4.3 - 1.5 / √y)) := by
      refine le_min ?_ ?_
      · calc 1.75 * gB * xu ≤ 1.75 * gB * y := by gcongr
          _ = _ := by ring
      · have k : 1.75 * xu ≤ 1.07 * (4.3 - 1.5 / √y) := by norm_num at *; linarith
        calc 1.75 * gB * xu = gB * (1.75 * xu) := by ring
          _ ≤ gB * (1.07 * (4.3 - 1.5 / √y)) := mul_le_mul_of_nonneg_left k hB.le
          _ = _ := by ring
    have hi : Min.min (1.65 * 1 * 1 * gB * x) (1 * 1 * gB * (4 - 1.5 / √x)) < 1.75 * gB * xu := by
      refine (min_le_left _ _).trans_lt ?_
      have k : 1.65 * x < 1.75 * xu := by norm_num at *; linarith
      calc 1.65 * 1 * 1 * gB * x = gB * (1.65 * x) := by ring
        _ < gB * (1.75 * xu) := mul_lt_mul_of_pos_left k hB
        _ = _ := by ring
    rw [ez, ez']
    exact mul_lt_mul_of_pos_right (hi.trans_le lo) hH
  have hav := RunupTaw2002.avg_lt hH hz hzz hcc
  obtain ⟨a1, a2⟩ := bd z hz
  obtain ⟨b1, b2⟩ := bd z' hz'
  generalize RunupTaw2002.avg H z cd cu 0 = c at *
  generalize RunupTaw2002.avg H z' cd cu 0 = c' at *
  have hc := hcd.trans_le a1
  have hc' := hcd.trans_le b1
  have X : Ctx H T 1 1 1 gB c 1 2.7 0.09 1.5 0.023 2.5 0.1035 1.35 0.026 true :=
    ⟨hH, hT, one_pos, le_rfl, one_pos, one_pos, hB, hc, one_pos, le_rfl, by norm_num, by norm_num,
      by norm_num, by norm_num, rfl⟩
  have X' : Ctx H T 1 1 1 gB c' 1 2.7 0.09 1.5 0.023 2.5 0.1035 1.35 0.026 true :=
    ⟨hH, hT, one_pos, le_rfl, one_pos, one_pos, hB, hc', one_pos, le_rfl, by norm_num, by norm_num,
      by norm_num, by norm_num, rfl⟩
  have hR0 : 0 ≤ R := le_trans (by positivity) hR
  have hS := Sc_pos hg hH
  have e0 : (0.0 : PF) = fin 0 := by rw [sci_eq]; norm_num
  have e1 : (1.0 : PF) = fin 1 := by rw [sci_eq]; norm_num
  have hq := X.q_res (gb' := gb) hg hR0 hp hb
  set y := F (A1 H T c 1 0.023) (d1 H T c 1 1 gB 1 2.7) R with hy
  set y2 := F 0.09 (d3 H 1 gB 1 1.5) R with hy2
  have hAA := A1_strict (k := 0.023) hH hT hc hav (by norm_num)
  have hxx := xi_strict hH hT hc hav
  have hx0' := VdMProof.xi_pos hH hT hc'
  have hx0 := VdMProof.xi_pos hH hT hc
  have hx13 : VdMProof.xi H T c ≤ 1.3 := (mono hcd a1).trans hu
  have dd : d1 H T c 1 1 gB 1 2.7 < d1 H T c' 1 1 gB 1 2.7 := by
    unfold d1
    rw [rough_one, rough_one]
    have : 0 < VdMProof.xi H T c' * 1 * 1 * gB * 1 := by positivity
    gcongr
  have dR : 1 ≤ d1 H T c 1 1 gB 1 2.7 * R := by
    have e : VdMProof.xi H T c * 1 * 1 * gB * 1 ≤ 1.3 := by
      calc VdMProof.xi H T c * 1 * 1 * gB * 1 = VdMProof.xi H T c * gB := by ring
        _ ≤ 1.3 * 1 := by gcongr
        _ = 1.3 := by norm_num
    unfold d1
    rw [rough_one, div_mul_eq_mul_div, one_le_div (by positivity)]
    have := mul_le_mul_of_nonneg_left e hH.le
    norm_num at this hR ⊢
    linarith
  have d0 := X.d
  have dR' : 1 ≤ (d1 H T c 1 1 gB 1 2.7 * R) ^ (1.3 : ℝ) := Real.one_le_rpow dR (by norm_num)
  have hyA : y ≤ A1 H T c' 1 0.023 := by
    have k := A1_near (k := 0.023) hH hT hc (t := 1.06) (c' := c') (by norm_num) hav.le (by linarith) (by norm_num)
    have e : Real.exp (-(d1 H T c 1 1 gB 1 2.7 * R) ^ (1.3 : ℝ)) ≤ 1 / 1.06 := by
      refine (Real.exp_le_exp.mpr (neg_le_neg dR')).trans ?_
      rw [Real.exp_neg, ← one_div]
      have := Real.add_one_le_exp 1
      gcongr
      norm_num at this ⊢
      linarith
    calc y ≤ 1.06 * A1 H T c' 1 0.023 * (1 / 1.06) := by
          rw [hy, F]
          have := X'.A
          gcongr
      _ = _ := by ring
  have hyy : y < y2 := by
    have k : A1 H T c 1 0.023 < 0.09 := by
      unfold A1
      rw [amp c, mul_one]
      have : √c ≤ 3 := by
        rw [Real.sqrt_le_left (by norm_num)]
        linarith
      calc 0.023 * √c * VdMProof.xi H T c ≤ 0.023 * 3 * 1.3 := by gcongr
        _ < 0.09 := by norm_num
    have l : d3 H 1 gB 1 1.5 ≤ d1 H T c 1 1 gB 1 2.7 := by
      unfold d1 d3
      rw [rough_one, div_le_div_iff₀ (by positivity) (by positivity)]
      have : H * gB * VdMProof.xi H T c ≤ H * gB * 1.3 := by gcongr
      have := mul_pos hH hB
      norm_num at *
      linarith
    have l3 : 0 < d3 H 1 gB 1 1.5 := d3_pos hH one_pos hB one_pos (by norm_num)
    rw [hy, hy2, F, F]
    refine mul_lt_mul k (Real.exp_le_exp.mpr (neg_le_neg ?_)) (Real.exp_pos _) (by norm_num)
    gcongr
  have hF : F (A1 H T c' 1 0.023) (d1 H T c' 1 1 gB 1 2.7) R < y := by
    rw [hy, F, F]
    refine mul_lt_mul hAA (Real.exp_le_exp.mpr (neg_le_neg ?_)) (Real.exp_pos _) X.A.le
    gcongr
  have hy0 : 0 < y := F_pos X.A _ _
  have hmin : y ⊓ y2 = y := inf_eq_left.mpr hyy.le
  have hdiv : y * Sc g H / Sc g H = y := mul_div_cancel_right₀ _ hS.ne'
  have hres := X'.R_res (gb' := gb) (q := y * Sc g H) hg (by positivity) (by rw [hdiv]; exact hyA)
    (by rw [hdiv]; exact hyy.le.trans (F_le_A (by norm_num) (d3_pos hH one_pos hB one_pos (by norm_num)) hR0)) hp' hb'
  rw [hmin, decide_eq_false (not_le.mpr hyy)] at hq
  rw [hdiv] at hres
  rw [e0, e1]
  refine ⟨y * Sc g H, _, _, ?_, ?_, hq, hres⟩
  · positivity
  · refine lt_of_le_of_lt inf_le_left ?_
    calc _ < TwoFormulas.G (A1 H T c' 1 0.023) (d1 H T c' 1 1 gB 1 2.7) (F (A1 H T c' 1 0.023) (d1 H T c' 1 1 gB 1 2.7) R) :=
        G_lt X'.A X'.d (F_pos X'.A _ _) hF hyA
      _ = R := G_F X'.A X'.d hR0

/-- waves of 2 m and 6 s on a slope 1:5 with 1:5.2 above the water line, crest at 3 m -/
example := C52_composite_best_fit_refuted 2 6 5 5.2 0.9 3 9.81 nan nan (by norm_num) (by norm_num) (by norm_num)
  (by norm_num) (by norm_num) (by norm_num) (by norm_num) (by norm_num)
  (between (a := 0.5) (b := 10) (by norm_num) (by norm_num) (by norm_num) (by norm_num) (by norm_num)
    (by norm_num)).1
  (between (a := 0.5) (b := 1.3) (by norm_num) (by norm_num) (by norm_num) (by norm_num) (by norm_num)
    (by norm_num)).2 (by norm_num) (by norm_num)
end
