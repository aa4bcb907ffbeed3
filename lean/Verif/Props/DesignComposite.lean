import Verif.Props.CompositeBerm

/-!
# C94 for run-up on composite slopes with berms at or below the water line

The coefficients reach the iteration for the average slope, so that the two variants compute with different average
slopes; the design value is the higher level all the same.
-/

open Classical
open PF
open CorePhysics CoreUtility WorseProof
noncomputable section

namespace RunupTaw2002
/-- the level with coefficients that give 6 % more is at least 4 % higher -/
theorem coef_order {H T cd cu gf gB db b k1 k2 k3 k4 m1 m2 m3 m4 p p' : ℝ} (hH : 0 < H) (hT : 0 < T)
    (hcd : 0 < cd) (hcu : 0 < cu) (h1 : cu ≤ 4 * cd) (h2 : cd ≤ 4 * cu) (hf : 0.18 ≤ gf) (hf1 : gf ≤ 1)
    (hB : 0 < gB) (hd0 : 0 ≤ db) (hd : db ≤ 1.5 * H) (hl : 0.5 ≤ Textbook.iribarren H T (Max.max cd cu))
    (hs : gf = 1 ∨ Textbook.iribarren H T (Min.min cd cu) < 1.8)
    (p1 : 0 < k1) (p2 : 0 < k2) (p3 : 0 ≤ k3) (p4 : 0 < k4) (h23 : 15 / 7 * k3 ≤ k2)
    (q1 : 0 < m1) (q2 : 0 < m2) (q3 : 0 ≤ m3) (q4 : 0 < m4) (q23 : 15 / 7 * m3 ≤ m2)
    (hb : 0 < b) (hb1 : b ≤ 1) (hk : 1.06 * k1 ≤ m1)
    (hm : ∀ u : ℝ, 0 ≤ u → u ≤ 1.5 → 1.06 * (k4 * (k2 - k3 * u)) ≤ m4 * (m2 - m3 * u))
    (hp : 0 < p) (hp' : 0 < p') (e : level H T gf b gB k1 k2 k3 k4 (avg H p cd cu db) = p)
    (e' : level H T gf b gB m1 m2 m3 m4 (avg H p' cd cu db) = p') : 1.04 * p ≤ p' := by
  have f0 : 0 < gf := lt_of_lt_of_le (by norm_num) hf
  have hr : gf = 1 ∨ Textbook.iribarren H T (Min.min cd cu) ≤ 10 := hs.imp_right (fun h => h.le.trans (by norm_num))
  obtain ⟨a0, a1, a2⟩ := xi_avg hf hf1 hB p1 p2 p3 p4 h23 hH hT hcd hcu hd0 hd hl hp
  obtain ⟨c0, c1, c2⟩ := xi_avg hf hf1 hB p1 p2 p3 p4 h23 hH hT hcd hcu hd0 hd hl hp'
  have hx := VdMProof.xi_pos hH hT a0
  have hx' := VdMProof.xi_pos hH hT c0
  rw [level_smooth hb hb1 hx (hs.imp_right a2.trans_lt)] at e
  rw [level_smooth hb hb1 hx' (hs.imp_right c2.trans_lt)] at e'
  have le : 1.06 * p ≤ next H T cd cu gf gB db (m1 * b) m2 m3 m4 p := by
    have r0 := rough_pos (gb := 1) f0 hf1 le_rfl hx
    rw [← e]
    conv_rhs => rw [e]
    unfold next rel ra rb
    generalize VdMProof.xi H T (avg H p cd cu db) = x at *
    generalize rough gf 1 x = r at *
    rw [← mul_assoc, mul_min_of_nonneg _ _ (by norm_num : (0 : ℝ) ≤ 1.06)]
    refine mul_le_mul_of_nonneg_right (min_le_min ?_ ?_) hH.le
    · calc 1.06 * (k1 * b * 1 * r * gB * x) = (1.06 * k1) * (b * r * gB * x) := by ring
        _ ≤ m1 * (b * r * gB * x) := mul_le_mul_of_nonneg_right hk (by positivity)
        _ = _ := by ring
    · have s0 : 2 / 3 ≤ √x := by
        apply Real.le_sqrt_of_sq_le
        norm_num at a1 ⊢
        linarith
      have hu : 1 / √x ≤ 1.5 := by
        rw [div_le_iff₀ (by linarith)]
        norm_num
        linarith
      have := hm (1 / √x) (by positivity) hu
      calc 1.06 * (k4 * r * gB * (k2 - k3 / √x)) = (1.06 * (k4 * (k2 - k3 * (1 / √x)))) * (r * gB) := by ring
        _ ≤ (m4 * (m2 - m3 * (1 / √x))) * (r * gB) := mul_le_mul_of_nonneg_right this (by positivity)
        _ = _ := by ring
  have L := next_log hf hf1 hB (by positivity) q2 q3 q4 q23 hH hT hcd hcu hd0 hd hl 1 h1 h2 hr
      (fun x y hx hxy hy => rel_const hf hf1 hB (k1 := m1 * b) (by positivity) q2 q3 q4 q23 hx hxy
        (hs.imp_right hy.trans_lt)) hp hp'
  rw [e'] at L
  have l1 := Real.log_le_log (by positivity) le
  rw [Real.log_mul (by norm_num) hp.ne'] at l1
  have l4 : 4 * Real.log 1.04 ≤ 3 * Real.log 1.06 := by
    rw [show (4 : ℝ) = ((4 : ℕ) : ℝ) by norm_num, show (3 : ℝ) = ((3 : ℕ) : ℝ) by norm_num, ← Real.log_pow,
      ← Real.log_pow]
    exact Real.log_le_log (by norm_num) (by norm_num)
  have l5 : 0 < Real.log 1.06 := Real.log_pos (by norm_num)
  have l3 := (abs_le.mp L).2
  norm_num at l3
  rw [← Real.log_le_log_iff (by positivity) hp', Real.log_mul (by norm_num) hp.ne']
  rcases le_total (Real.log p) (Real.log p') with h | h
  · rw [abs_of_nonpos (by linarith)] at l3
    linarith
  · rw [abs_of_nonneg (by linarith)] at l3
    linarith
end RunupTaw2002

section
variable (H T cd cu gf db B : ℝ) (hH : 0 < H) (hT : 0 < T) (hcd : 0 < cd) (hcu : 0 < cu) (hcc : cu ≤ 4 * cd)
  (hcc' : cd ≤ 4 * cu) (hf : 0.18 ≤ gf) (hf1 : gf ≤ 1) (hd0 : 0 ≤ db) (hd : db ≤ 1.5 * H) (hB0 : 0 ≤ B)
  (hl : 0.5 ≤ Textbook.iribarren H T (max cd cu)) (hs : gf = 1 ∨ Textbook.iribarren H T (min cd cu) < 1.8)
  (hH6 : H ≤ 1e6)
include hH hT hcd hcu hcc hcc' hf hf1 hd0 hd hB0 hl hs hH6

/-- C94 for run-up by TAW (2002) on composite slopes with a berm at or below the water line: the design value is not
lower than the best fit up to the 0.2 mm of the iteration, and higher from run-up of 6 mm on (missing: berms above the
water line, rough slopes with Iribarren numbers from 1.8 on, slopes more than a factor four apart, Iribarren numbers
below 0.5) -/
theorem C94_taw_runup_composite_partial (gB : ℝ) (hB : 0 < gB) (hB1 : gB ≤ 1) (hlo : 4e-3 ≤ gf * gB * H) :
    ∃ (z z' : ℝ) (f f' : Bool), z ≤ z' + 2e-4 ∧ (6e-3 ≤ z → z < z') ∧
      (RunupTaw2002.calculate_wave_runup_height_z2p
        { Hm0 := fin H, Tmm10 := fin T, cot_alpha_down := fin cd, cot_alpha_up := fin cu, gamma_f := fin gf,
          gamma_beta := fin gB, B_berm := fin B, db := fin db, use_best_fit := true }).res = .ok (fin z, f) ∧
      (RunupTaw2002.calculate_wave_runup_height_z2p
        { Hm0 := fin H, Tmm10 := fin T, cot_alpha_down := fin cd, cot_alpha_up := fin cu, gamma_f := fin gf,
          gamma_beta := fin gB, B_berm := fin B, db := fin db, use_best_fit := false }).res = .ok (fin z', f') := by
  obtain ⟨p, hp, hfp, -, z, f, hz, ha⟩ := RunupTaw2002.berm_settles (gB := gB) (db := db) (k1 := 1.65) (k2 := 4.0)
    (k3 := 1.5) (k4 := 1.0) (c1 := 1.75) (c2 := 4.3) (c3 := 1.6) (c4 := 1.0) hH hT hcd hcu hcc hcc' hf hf1 hB hB1 hd0
    hd hl hs hH6 hlo (by norm_num) (by norm_num) (by norm_num) (by norm_num) (by norm_num) (by norm_num) true hB0 rfl
    rfl rfl rfl
  obtain ⟨p', hp', hfp', -, z', f', hz', ha'⟩ := RunupTaw2002.berm_settles (gB := gB) (db := db) (k1 := 1.75)
    (k2 := 4.3) (k3 := 1.6) (k4 := 1.0) hH hT hcd hcu hcc hcc' hf hf1 hB hB1 hd0
    hd hl hs hH6 hlo (by norm_num) (by norm_num) (by norm_num) (by norm_num) (by norm_num) (by norm_num) false hB0 rfl
    rfl rfl rfl
  obtain ⟨b0, b1⟩ := Published.bermFactor_bounds H cd cu B db
  have o := RunupTaw2002.coef_order hH hT hcd hcu hcc hcc' hf hf1 hB hd0 hd hl hs (by norm_num) (by norm_num)
    (by norm_num) (by norm_num) (by norm_num) (by norm_num) (by norm_num) (by norm_num) (by norm_num) (by norm_num)
    (lt_of_lt_of_le (by norm_num) b0) b1 (by norm_num) (fun u h0 h1 => by norm_num at h1 ⊢; linarith) hp hp' hfp hfp'
  have a1 := abs_le.mp ha
  have a2 := abs_le.mp ha'
  refine ⟨z, z', f, f', ?_, fun h => ?_, hz, hz'⟩
  · norm_num at *
    linarith
  · norm_num at *
    linarith

/-- C94 for run-up by EurOtop (2018) on composite slopes with a berm at or below the water line (missing: as for TAW
(2002)) -/
theorem C94_eurotop2018_runup_composite_partial (b : ℝ) (gB : PF) (hlo : 1e-2 ≤ gf * H) :
    ∃ (z z' : ℝ) (f f' : Bool), z ≤ z' + 2e-4 ∧ (6e-3 ≤ z → z < z') ∧
      (RunupEurOtop2018.calculate_wave_runup_height_z2p (fin H) (fin T) (fin b) gB
        (gamma_f := fin gf) (B_berm := fin B) (db := fin db) (cot_alpha_down := fin cd) (cot_alpha_up := fin cu)
        (use_best_fit := true)).res = .ok (fin z, f) ∧
      (RunupEurOtop2018.calculate_wave_runup_height_z2p (fin H) (fin T) (fin b) gB
        (gamma_f := fin gf) (B_berm := fin B) (db := fin db) (cot_alpha_down := fin cd) (cot_alpha_up := fin cu)
        (use_best_fit := false)).res = .ok (fin z', f') := by
  have f0 : 0 < gf := lt_of_lt_of_le (by norm_num) hf
  have ho := (C78_obliqueness_eurotop2018 b gf).1
  have hB : 0.4 ≤ Published.obliqueness (if 0.6 < gf then 0.0022 else 0.0063) b ∧
      Published.obliqueness (if 0.6 < gf then 0.0022 else 0.0063) b ≤ 1 := by
    unfold Published.obliqueness
    have m80 : min |b| 80 ≤ 80 := min_le_right _ _
    have m0 : 0 ≤ min |b| 80 := le_min (abs_nonneg b) (by norm_num)
    generalize min |b| 80 = m at *
    split_ifs <;> norm_num <;> constructor <;> linarith
  generalize Published.obliqueness (if 0.6 < gf then 0.0022 else 0.0063) b = gB' at *
  obtain ⟨hBlo, hB1⟩ := hB
  have hB : 0 < gB' := lt_of_lt_of_le (by norm_num) hBlo
  have hlo' : 4e-3 ≤ gf * gB' * H := by
    have : gf * H * 0.4 ≤ gf * H * gB' := mul_le_mul_of_nonneg_left hBlo (by positivity)
    norm_num at this hlo ⊢
    linarith
  have hk : RunupEurOtop2018.check_best_fit 1.75 4.3 1.5 1.07 true =
      (fin 1.65, fin 4.0, fin 1.5, fin 1.0) := rfl
  have hk' : RunupEurOtop2018.check_best_fit 1.75 4.3 1.5 1.07 false =
      (fin 1.75, fin 4.3, fin 1.5, fin 1.07) := rfl
  obtain ⟨p, hp, hfp, -, z, f, hz, ha⟩ := RunupTaw2002.berm_settles (gB := gB') (db := db) (k1 := 1.65) (k2 := 4.0)
    (k3 := 1.5) (k4 := 1.0) hH hT hcd hcu hcc hcc' hf hf1 hB hB1 hd0
    hd hl hs hH6 hlo' (by norm_num) (by norm_num) (by norm_num) (by norm_num) (by norm_num) (by norm_num) false hB0 rfl
    rfl rfl rfl
  obtain ⟨p', hp', hfp', -, z', f', hz', ha'⟩ := RunupTaw2002.berm_settles (gB := gB') (db := db) (k1 := 1.75)
    (k2 := 4.3) (k3 := 1.5) (k4 := 1.07) hH hT hcd hcu hcc hcc' hf hf1 hB hB1 hd0
    hd hl hs hH6 hlo' (by norm_num) (by norm_num) (by norm_num) (by norm_num) (by norm_num) (by norm_num) false hB0 rfl
    rfl rfl rfl
  obtain ⟨b0, b1⟩ := Published.bermFactor_bounds H cd cu B db
  have o := RunupTaw2002.coef_order hH hT hcd hcu hcc hcc' hf hf1 hB hd0 hd hl hs (by norm_num) (by norm_num)
    (by norm_num) (by norm_num) (by norm_num) (by norm_num) (by norm_num) (by norm_num) (by norm_num) (by norm_num)
    (lt_of_lt_of_le (by norm_num) b0) b1 (by norm_num) (fun u h0 h1 => by norm_num at h1 ⊢; linarith) hp hp' hfp hfp'
  have a1 := abs_le.mp ha
  have a2 := abs_le.mp ha'
  refine ⟨z, z', f, f', ?_, fun h => ?_, ?_, ?_⟩
  · norm_num at *
    linarith
  · norm_num at *
    linarith
  · rw [← hz]
    unfold RunupEurOtop2018.calculate_wave_runup_height_z2p
      RunupEurOtop2018.calculate_dimensionless_wave_runup_height_z2p
    dsimp only
    rw [ho, hk]
    rfl
  · rw [← hz']
    unfold RunupEurOtop2018.calculate_wave_runup_height_z2p
      RunupEurOtop2018.calculate_dimensionless_wave_runup_height_z2p
    dsimp only
    rw [ho, hk']
    rfl
end

open CompositeCase
example := C94_taw_runup_composite_partial 2 6 3 4 1 1 5 (by norm_num) (by norm_num) (by norm_num) (by norm_num)
  (by norm_num) (by norm_num) (by norm_num) (by norm_num) (by norm_num) (by norm_num) (by norm_num) flat (Or.inl rfl)
  (by norm_num) 0.9 (by norm_num) (by norm_num) (by norm_num)
example := C94_eurotop2018_runup_composite_partial 2 6 3 4 1 1 5 (by norm_num) (by norm_num) (by norm_num)
  (by norm_num) (by norm_num) (by norm_num) (by norm_num) (by norm_num) (by norm_num) (by norm_num) (by norm_num) flat
  (Or.inl rfl) (by norm_num) 20 nan (by norm_num)
end
