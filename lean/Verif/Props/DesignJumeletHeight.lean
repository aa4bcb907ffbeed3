import Verif.Props.FormulasJumeletHeight
import Mathlib.Analysis.Real.Pi.Bounds

/-! # C96: the wave height returned by Jumelet et al. (2024) -/

open Classical
open PF CorePhysics
noncomputable section

/-- C96, Jumelet et al. (2024): the damage at the wave height returned is the allowed damage times the root of the
ratio of two numbers of plunging waves: that of the wave height returned and that of the wave height before the last
pass (which differs by at most the tolerance unless all passes are used up), both rounded.  The damage is the allowed
one exactly when the two numbers are the same, and more than allowed exactly when the first is the larger.
Missing: how far the two numbers may differ in terms of the tolerance. -/
theorem C96_jumelet_height_partial (T N c ra S D cp si t H : ℝ) (M : PF) (k : ℕ) (hT : 0 < T) (hN : 0 < N) (hc : 0 < c)
    (hr : 1025 < ra) (hS : 0 < S) (hD : 0 < D) (hcp : 0 < cp) (hsi : 0 < si)
    (hres : (Jumelet2024.calculate_significant_wave_height_Hs (fin T) (fin N) (fin c) (fin ra) (fin S) (fin D) M
      (fin cp) 9.81 (fin si) k (fin t)).res = .ok (fin H))
    (hp : 1 / 2 < Published.plungingPart (Textbook.iribarren H T c) * N) :
    ∃ (P : ℝ) (n m : ℕ) (R : ℝ), 0 < P ∧ 0 < n ∧ 0 < m ∧
      (|H - P| ≤ t ∨ (Jumelet2024.calculate_significant_wave_height_Hs (fin T) (fin N) (fin c) (fin ra) (fin S)
        (fin D) M (fin cp) 9.81 (fin si) k (-1.0)).res = .ok (fin H)) ∧
      |n - Published.plungingPart (Textbook.iribarren P T c) * N| ≤ 1 / 2 ∧
      |m - Published.plungingPart (Textbook.iribarren H T c) * N| ≤ 1 / 2 ∧
      (Jumelet2024.calculate_damage_number_S (fin H) (fin T) (fin N) (fin c) (fin ra) (fin D) M (fin cp)
        (fin 1025)).res = .ok (fin R) ∧
      R = S * √(m / n) ∧ (R = S ↔ m = n) ∧ (S < R ↔ n < m) := by
  have hH : 0 < H := by
    by_contra hn
    have h0 : Textbook.iribarren H T c = 0 := by
      unfold Textbook.iribarren Textbook.steepness
      rw [Real.sqrt_eq_zero_of_nonpos, mul_zero, div_zero]
      have hpi := Real.pi_pos
      push Not at hn
      exact div_nonpos_of_nonpos_of_nonneg hn (by positivity)
    rw [h0] at hp
    unfold Published.plungingPart at hp
    norm_num at hp
    linarith
  obtain ⟨P, n, hP, hn, h1, h2, h3⟩ := C78_jumelet_height T N c ra S D cp si t H M k hT hN hc hr hS hD hcp hsi hres
  obtain ⟨m, hm, g1, R, hR, g2, g3⟩ := C78_jumelet_damage H T N c ra 1025 D cp M hH hT hc (by norm_num) hr hD hcp hp
  have hx : 0 < Textbook.iribarren H T c := by
    rw [RangeProof.irib_eq]; exact VdMProof.xi_pos hH hT hc
  unfold Published.Jumelet at h2 g3
  rw [h2] at g3
  have hx1 : 0 < Textbook.iribarren H T c ^ (-1 : ℝ) := by positivity
  have hn0 : (0 : ℝ) < n := by exact_mod_cast hn
  have hm0 : (0 : ℝ) < m := by exact_mod_cast hm
  have hsn := Real.sqrt_pos.mpr hn0
  have hsm := Real.sqrt_pos.mpr hm0
  have e : S / √n = R / √m := by
    have e1 := mul_left_cancel₀ hcp.ne' (mul_right_cancel₀ hx1.ne' g3)
    exact Real.rpow_left_injOn (by norm_num : (0.2 : ℝ) ≠ 0) (Set.mem_ofPred.mpr (by positivity))
      (Set.mem_ofPred.mpr (by positivity)) e1
  have eR : R = S * √(m / n) := by
    rw [Real.sqrt_div hm0.le]
    field_simp at e ⊢
    linarith
  have hq : ∀ a : ℝ, 0 < a → (1 < √a ↔ 1 < a) := fun a ha => by
    rw [Real.lt_sqrt (by norm_num)]; norm_num
  refine ⟨P, n, m, R, hP, hn, hm, h3, h1, g1, g2, eR, ?_, ?_⟩
  · rw [eR]
    constructor
    · intro k
      have : √((m : ℝ) / n) = 1 := by
        have : S * √((m : ℝ) / n) = S * 1 := by rw [k, mul_one]
        exact mul_left_cancel₀ hS.ne' this
      rw [Real.sqrt_eq_one, div_eq_one_iff_eq hn0.ne'] at this
      exact_mod_cast this
    · rintro rfl
      rw [div_self hn0.ne', Real.sqrt_one, mul_one]
  · rw [eR, lt_mul_iff_one_lt_right hS, hq _ (by positivity), one_lt_div hn0, Nat.cast_lt]

/-- the case of C78 with its value: a single pass from an Iribarren number of 1 -/
theorem JumHeightProof.case_value {D : ℝ} (hD : 0 < D) : (Jumelet2024.calculate_significant_wave_height_Hs (fin 1)
    (fin 1000) (fin 1) (fin 2050) (fin 2) (fin D) nan (fin 4) 9.81 (fin 1) 1 (fin 0.001)).res = .ok (fin
    (((4 : ℝ) * 2 ^ (0.2 : ℝ) * 1000 ^ (-0.1 : ℝ) * 1 * √(2 * Real.pi / 9.81 * 1 ^ (-2 : ℝ)) * 1 * D) ^
    (2.0 : ℝ))) := by
  have hpi := Real.pi_pos
  have eI : fin 1 * npow (fin 1) 2 * 9.81 / (2 * PF.pi) = fin (9.81 / (2 * Real.pi)) := by
    pf_eval []
    norm_num
  have hI : 0 < 9.81 / (2 * Real.pi) := by positivity
  have eD : calculate_buoyant_density_Delta (fin 2050) (fin 1025) = fin 1 := by
    unfold calculate_buoyant_density_Delta
    pf_eval []
    norm_num
  have hx : VdMProof.xi (9.81 / (2 * Real.pi)) 1 1 = 1 := by
    unfold VdMProof.xi
    have : 2 * Real.pi / 9.81 * (9.81 / (2 * Real.pi)) / 1 ^ 2 = 1 := by field_simp
    rw [this]; norm_num
  have hn : JumScaProof.Np (9.81 / (2 * Real.pi)) 1 1000 1 = 1000 := by
    unfold JumScaProof.Np
    rw [hx]
    have : ((-1.7 : ℝ) * 1 ^ 2 + 3.2 * 1 - 0.5) * 1000 = ((1000 : ℤ) : ℝ) := by norm_num
    rw [this]
    unfold roundEven
    rw [Int.floor_intCast, sub_self, if_pos (by norm_num)]
    norm_num
  unfold Jumelet2024.calculate_significant_wave_height_Hs
  rw [VdMProof.use_Dn50]
  simp only [PyM.bind_ok, JumScaProof.rho_int, eD, eI]
  rw [whileIter, if_pos (show pinf > fin 0.001 from trivial)]
  unfold whileIter Jumelet2024.height_step
  dsimp only
  rw [JumScaProof.Np_eval hI (by norm_num) (by norm_num), hn,
    PyM.bind_res_of_ok (JumScaProof.check_res_j ..)]
  have hp : 0 < (4 : ℝ) * 2 ^ (0.2 : ℝ) * 1000 ^ (-0.1 : ℝ) * 1 * √(2 * Real.pi / 9.81 * 1 ^ (-2 : ℝ)) * 1 * D := by
    positivity
  refine congrArg Except.ok ?_
  have e1 : PF.sqrt ((2 * PF.pi / 9.81) * npow (fin 1) (-2)) = fin √(2 * Real.pi / 9.81 * 1 ^ (-2 : ℝ)) := by
    pf_eval []
  rw [e1]
  pf_eval []

/-- a case meeting the hypotheses -/
example := C96_jumelet_height_partial 1 1000 1 2050 2 1 4 1 0.001 _ nan 1 one_pos (by norm_num) one_pos (by norm_num)
  (by norm_num) one_pos (by norm_num) one_pos (JumHeightProof.case_value one_pos) (by
    have hpi := Real.pi_gt_three
    have hpi' := Real.pi_lt_d2
    have e20 : (2.0 : ℝ) = 2 := by norm_num
    have e1 : (1 : ℝ) ^ (-2 : ℝ) = 1 := Real.one_rpow _
    rw [e20, Real.rpow_ofNat, e1, mul_one, mul_one, mul_one, mul_one]
    set b : ℝ := 2 ^ (0.2 : ℝ) * 1000 ^ (-0.1 : ℝ) with hb
    have hbe : b = (4 / 1000 : ℝ) ^ (0.1 : ℝ) := by
      rw [hb, Real.div_rpow (by norm_num) (by norm_num), div_eq_mul_inv, ← Real.rpow_neg (by norm_num),
        show (4 : ℝ) = 2 ^ (2 : ℝ) by norm_num, ← Real.rpow_mul (by norm_num)]
      norm_num
    have hb1 : b ≤ 1 := by
      rw [hbe]; exact Real.rpow_le_one (by norm_num) (by norm_num) (by norm_num)
    have hb2 : 0.3 ≤ b := by
      rw [hbe]
      have : (0.3 : ℝ) = ((0.3 : ℝ) ^ (10 : ℝ)) ^ (0.1 : ℝ) := by
        rw [← Real.rpow_mul (by norm_num)]; norm_num
      rw [this]
      refine Real.rpow_le_rpow (by positivity) ?_ (by norm_num)
      norm_num
    have hw1 : (0.6 : ℝ) ≤ 2 * Real.pi / 9.81 := by rw [le_div_iff₀ (by norm_num)]; linarith
    have hw2 : 2 * Real.pi / 9.81 ≤ (0.7 : ℝ) := by rw [div_le_iff₀ (by norm_num)]; linarith
    have hX : Textbook.iribarren ((4 * 2 ^ (0.2 : ℝ) * 1000 ^ (-0.1 : ℝ) * √(2 * Real.pi / 9.81)) ^ 2) 1 1
        = 1 / (4 * b * (2 * Real.pi / 9.81)) := by
      rw [RangeProof.irib_eq]
      unfold VdMProof.xi
      have hw0 : 0 < 2 * Real.pi / 9.81 := by positivity
      have e2 : 4 * 2 ^ (0.2 : ℝ) * 1000 ^ (-0.1 : ℝ) * √(2 * Real.pi / 9.81) = 4 * b * √(2 * Real.pi / 9.81) := by
        rw [hb]; ring
      rw [e2]
      generalize 2 * Real.pi / 9.81 = w at *
      have e3 : w * (4 * b * √w) ^ 2 / 1 ^ 2 = (4 * b * w) ^ 2 := by
        rw [mul_pow, Real.sq_sqrt hw0.le]; ring
      rw [e3, Real.sqrt_sq (by positivity), show (1.0 : ℝ) = 1 by norm_num]
      field_simp
    rw [hX]
    generalize 2 * Real.pi / 9.81 = w at *
    have hy1 : 0.72 ≤ 4 * b * w := by nlinarith
    have hy2 : 4 * b * w ≤ 2.8 := by nlinarith
    generalize 4 * b * w = y at *
    have hy0 : 0 < y := by linarith
    unfold Published.plungingPart
    have hx1 : 1 / y ≤ 1.4 := by rw [div_le_iff₀ hy0]; linarith
    have hx2 : 0.35 ≤ 1 / y := by rw [le_div_iff₀ hy0]; linarith
    generalize 1 / y = x at *
    nlinarith)
end
