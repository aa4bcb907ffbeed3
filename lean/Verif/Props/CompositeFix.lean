import Verif.Lemmas.CompositeFix
import Verif.Props.Composite

/-!
# C89: run-up on two slopes settles on the one level that agrees with itself

The average slope runs from 1.5 wave heights below the water line to the run-up level, so that the run-up is
defined in terms of itself. There is exactly one level `p` for which a straight slope with the average cotangent for
`p` has run-up `p`; what the code returns lies within 0.3 mm of it.
-/

open Classical
open PF
open CorePhysics CoreUtility WorseProof
noncomputable section

section
variable (H T cd cu gf db : ℝ) (hH : 0 < H) (hT : 0 < T) (hcd : 0 < cd) (hcu : 0 < cu) (hcc : cu ≤ 4 * cd)
  (hcc' : cd ≤ 4 * cu) (hf : 0.18 ≤ gf) (hf1 : gf ≤ 1) (hd0 : 0 ≤ db) (hd : db ≤ 1.5 * H)
  (hl : 0.5 ≤ Textbook.iribarren H T (max cd cu)) (hr : gf = 1 ∨ Textbook.iribarren H T (min cd cu) ≤ 10)
  (hH6 : H ≤ 1e6)
include hH hT hcd hcu hcc hcc' hf hf1 hd0 hd hl hr hH6

/-- C89 for TAW (2002): to 0.3 mm, and to 0.1 mm where the roughness does not depend on the waves (missing: berms,
slopes more than a factor four apart, Iribarren numbers below 0.5, rough slopes with Iribarren numbers above
10) -/
theorem C89_taw_runup_partial (gB : ℝ) (bf : Bool) (hB : 0 < gB) (hB1 : gB ≤ 1) (hlo : 2e-3 ≤ gf * gB * H) :
    ∃ p, 0 < p ∧
      (∀ y, 0 < y → ((∃ f, (RunupTaw2002.calculate_wave_runup_height_z2p
        { Hm0 := fin H, Tmm10 := fin T, gamma_f := fin gf, gamma_b := fin 1, gamma_beta := fin gB,
          cot_alpha := fin (((1.5 * H - db) * cd + (y + db) * cu) / (1.5 * H + y)),
          use_best_fit := bf }).res = .ok (fin y, f)) ↔ y = p)) ∧
      ∃ (z : ℝ) (f : Bool), (RunupTaw2002.calculate_wave_runup_height_z2p
        { Hm0 := fin H, Tmm10 := fin T, cot_alpha_down := fin cd, cot_alpha_up := fin cu, gamma_f := fin gf,
          gamma_beta := fin gB, db := fin db, use_best_fit := bf }).res = .ok (fin z, f) ∧
        |z - p| ≤ 3e-4 ∧ ((gf = 1 ∨ Textbook.iribarren H T (min cd cu) < 1.8) → |z - p| ≤ 1e-4) := by
  have c1 : (1 : ℝ) ≤ if bf then 1.65 else 1.75 := by split_ifs <;> norm_num
  have c2 : (3 : ℝ) ≤ if bf then 4.0 else 4.3 := by split_ifs <;> norm_num
  have c3 : (0 : ℝ) ≤ if bf then 1.5 else 1.6 := by split_ifs <;> norm_num
  have c4 : (1 : ℝ) ≤ if bf then 1.0 else 1.0 := by split_ifs <;> norm_num
  have c23 : 15 / 7 * (if bf then 1.5 else 1.6) ≤ (if bf then 4.0 else 4.3 : ℝ) := by split_ifs <;> norm_num
  have c24 : (if bf then 4.0 else 4.3) * (if bf then 1.0 else 1.0) ≤ (10 : ℝ) := by split_ifs <;> norm_num
  have e1 : (if bf then 1.65 else fin 1.75) = fin (if bf then 1.65 else 1.75) := by cases bf <;> rfl
  have e2 : (if bf then 4.0 else fin 4.3) = fin (if bf then 4.0 else 4.3) := by cases bf <;> rfl
  have e3 : (if bf then 1.5 else fin 1.6) = fin (if bf then 1.5 else 1.6) := by cases bf <;> rfl
  have e4 : (if bf then 1.0 else fin 1.0) = fin (if bf then 1.0 else 1.0) := by cases bf <;> rfl
  obtain ⟨p, hp, hfp, hu, z, f, hz, ha⟩ := RunupTaw2002.composite_settles (gB := gB) (db := db) bf hH hT hcd hcu hcc
    hcc' hf hf1 hB hd0 hd e1 e2 e3 e4 c3 c23 hl hr c1 c2 c4 c24 hB1 hH6 hlo
  refine ⟨p, hp, fun y hy => ?_, z, f, hz, ha⟩
  have hb := RunupTaw2002.avg_between hH hy hd0 hd (min_le_left cd cu) (min_le_right cd cu) (le_max_left cd cu)
    (le_max_right cd cu)
  have hc : 0 < RunupTaw2002.avg H y cd cu db := lt_of_lt_of_le (lt_min hcd hcu) hb.1
  obtain ⟨f', hs⟩ := RunupTaw2002.height_straight (gf := gf) (gB := gB) bf hH hT hc e1 e2 e3 e4
  constructor
  · rintro ⟨g, hg⟩
    obtain ⟨h, -⟩ := Prod.mk.inj (Except.ok.inj (hs.symm.trans hg))
    rw [fin_inj] at h
    exact hu y hy h
  · rintro rfl
    refine ⟨f', hs.trans ?_⟩
    rw [show RunupTaw2002.rel _ _ _ _ gf gB (VdMProof.xi H T (RunupTaw2002.avg H y cd cu db)) * H = y from hfp]

/-- C89 for EurOtop (2018) (missing: as for TAW (2002)), with obliqueness given by the angle and coefficients near
the published ones -/
theorem C89_eurotop2018_runup_partial (b c1 c2 c3 c4 : ℝ) (gB : PF) (bf : Bool) (h1 : 1 ≤ c1) (h2 : 3 ≤ c2)
    (h3 : 0 ≤ c3) (h4 : 1 ≤ c4) (h23 : 15 / 7 * c3 ≤ c2) (h24 : c2 * c4 ≤ 10) (hlo : 5e-3 ≤ gf * H) :
    ∃ p, 0 < p ∧
      (∀ y, 0 < y → ((∃ f, (RunupEurOtop2018.calculate_wave_runup_height_z2p (fin H) (fin T) (fin b) gB (fin 1)
        (fin gf) (cot_alpha := fin (((1.5 * H - db) * cd + (y + db) * cu) / (1.5 * H + y))) (c1 := fin c1)
        (c2 := fin c2) (c3 := fin c3) (c4 := fin c4) (use_best_fit := bf)).res = .ok (fin y, f)) ↔ y = p)) ∧
      ∃ (z : ℝ) (f : Bool), (RunupEurOtop2018.calculate_wave_runup_height_z2p (fin H) (fin T) (fin b) gB
        (gamma_f := fin gf) (db := fin db) (cot_alpha_down := fin cd) (cot_alpha_up := fin cu) (c1 := fin c1)
        (c2 := fin c2) (c3 := fin c3) (c4 := fin c4) (use_best_fit := bf)).res = .ok (fin z, f) ∧
        |z - p| ≤ 3e-4 ∧ ((gf = 1 ∨ Textbook.iribarren H T (min cd cu) < 1.8) → |z - p| ≤ 1e-4) := by
  have f0 : 0 < gf := lt_of_lt_of_le (by norm_num) hf
  have ho := (C78_obliqueness_eurotop2018 b gf).1
  have hB : 0.4 ≤ Published.obliqueness (if 0.6 < gf then 0.0022 else 0.0063) b ∧
      Published.obliqueness (if 0.6 < gf then 0.0022 else 0.0063) b ≤ 1 := by
    unfold Published.obliqueness
    have m80 : min |b| 80 ≤ 80 := min_le_right _ _
    have m0 : 0 ≤ min |b| 80 := le_min (abs_nonneg b) (by norm_num)
    generalize min |b| 80 = m at *
    split_ifs <;> norm_num <;> constructor <;> linarith
  generalize Published.obliqueness (if 0.6 < gf then 0.0022 else 0.0063) b = gB' at *
  obtain ⟨hB0, hB1⟩ := hB
  have hB : 0 < gB' := lt_of_lt_of_le (by norm_num) hB0
  have hlo' : 2e-3 ≤ gf * gB' * H := by
    have : gf * H * 0.4 ≤ gf * H * gB' := mul_le_mul_of_nonneg_left hB0 (by positivity)
    norm_num at this hlo ⊢
    linarith
  have c1' : (1 : ℝ) ≤ if bf then 1.65 else c1 := by split_ifs; norm_num; exact h1
  have c2' : (3 : ℝ) ≤ if bf then 4.0 else c2 := by split_ifs; norm_num; exact h2
  have c3' : (0 : ℝ) ≤ if bf then 1.5 else c3 := by split_ifs; norm_num; exact h3
  have c4' : (1 : ℝ) ≤ if bf then 1.0 else c4 := by split_ifs; norm_num; exact h4
  have c23 : 15 / 7 * (if bf then 1.5 else c3) ≤ (if bf then 4.0 else c2 : ℝ) := by
    split_ifs; norm_num; exact h23
  have c24 : (if bf then 4.0 else c2) * (if bf then 1.0 else c4) ≤ (10 : ℝ) := by
    split_ifs; norm_num; exact h24
  have hk : RunupEurOtop2018.check_best_fit (fin c1) (fin c2) (fin c3) (fin c4) bf =
      (fin (if bf then 1.65 else c1), fin (if bf then 4.0 else c2), fin (if bf then 1.5 else c3),
        fin (if bf then 1.0 else c4)) := by
    unfold RunupEurOtop2018.check_best_fit
    cases bf <;> rfl
  generalize (if bf then (1.65 : ℝ) else c1) = k1 at *
  generalize (if bf then (4.0 : ℝ) else c2) = k2 at *
  generalize (if bf then (1.5 : ℝ) else c3) = k3 at *
  generalize (if bf then (1.0 : ℝ) else c4) = k4 at *
  obtain ⟨p, hp, hfp, hu, z, f, hz, ha⟩ := RunupTaw2002.composite_settles (gB := gB') (db := db) false hH hT hcd hcu
    hcc hcc' hf hf1 hB hd0 hd rfl rfl rfl rfl c3' c23 hl hr c1' c2' c4' c24 hB1 hH6 hlo'
  refine ⟨p, hp, fun y hy => ?_, z, f, ?_, ha⟩
  · have hb := RunupTaw2002.avg_between hH hy hd0 hd (min_le_left cd cu) (min_le_right cd cu) (le_max_left cd cu)
      (le_max_right cd cu)
    have hc : 0 < RunupTaw2002.avg H y cd cu db := lt_of_lt_of_le (lt_min hcd hcu) hb.1
    obtain ⟨f', hs⟩ := RunupTaw2002.height_straight (gf := gf) (gB := gB') (c1 := k1) (c2 := k2) (c3 := k3)
      (c4 := k4) false hH hT hc rfl rfl rfl rfl
    have e : (RunupEurOtop2018.calculate_wave_runup_height_z2p (fin H) (fin T) (fin b) gB (fin 1)
        (fin gf) (cot_alpha := fin (((1.5 * H - db) * cd + (y + db) * cu) / (1.5 * H + y))) (c1 := fin c1)
        (c2 := fin c2) (c3 := fin c3) (c4 := fin c4) (use_best_fit := bf)).res =
        .ok (fin (RunupTaw2002.rel k1 k2 k3 k4 gf gB' (VdMProof.xi H T (RunupTaw2002.avg H y cd cu db)) * H), f') := by
      rw [← hs]
      unfold RunupEurOtop2018.calculate_wave_runup_height_z2p
        RunupEurOtop2018.calculate_dimensionless_wave_runup_height_z2p
      dsimp only
      rw [ho, hk]
      rfl
    constructor
    · rintro ⟨g, hg⟩
      obtain ⟨h, -⟩ := Prod.mk.inj (Except.ok.inj (e.symm.trans hg))
      rw [fin_inj] at h
      exact hu y hy h
    · rintro rfl
      refine ⟨f', e.trans ?_⟩
      rw [show RunupTaw2002.rel _ _ _ _ gf gB' (VdMProof.xi H T (RunupTaw2002.avg H y cd cu db)) * H = y from hfp]
  · rw [← hz]
    unfold RunupEurOtop2018.calculate_wave_runup_height_z2p
      RunupEurOtop2018.calculate_dimensionless_wave_runup_height_z2p
    dsimp only
    rw [ho, hk]
    rfl
end

/-! ## Cases: 1:3 below and 1:4 above, the transition 1 m below the water line -/

open CompositeCase
example := C89_taw_runup_partial 2 6 3 4 0.6 1 (by norm_num) (by norm_num) (by norm_num) (by norm_num)
  (by norm_num) (by norm_num) (by norm_num) (by norm_num) (by norm_num) (by norm_num) flat (Or.inr steep)
  (by norm_num) 0.9 true (by norm_num) (by norm_num) (by norm_num)
example := C89_eurotop2018_runup_partial 2 6 3 4 0.6 1 (by norm_num) (by norm_num) (by norm_num) (by norm_num)
  (by norm_num) (by norm_num) (by norm_num) (by norm_num) (by norm_num) (by norm_num) flat (Or.inr steep)
  (by norm_num) 20 1.75 4.3 1.5 1.07 nan false (by norm_num) (by norm_num) (by norm_num) (by norm_num) (by norm_num)
  (by norm_num) (by norm_num)
end
