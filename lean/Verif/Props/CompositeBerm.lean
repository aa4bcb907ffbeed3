import Verif.Lemmas.CompositeBerm
import Verif.Props.CompositeFix

/-!
# C89 with berms, C105: berms at or below the water line

A berm between the lower and the upper slope, at the water line or at most 1.5 wave heights below it. Its published
reduction does not depend on the run-up level, so that the run-up is again the one level that agrees with its own
average slope; the average slope leaves the berm out. On slopes where the roughness does not depend on the waves.
-/

open Classical
open PF
open CorePhysics CoreUtility WorseProof
noncomputable section

section
variable (H T cd cu gf db : ℝ) (hH : 0 < H) (hT : 0 < T) (hcd : 0 < cd) (hcu : 0 < cu) (hcc : cu ≤ 4 * cd)
  (hcc' : cd ≤ 4 * cu) (hf : 0.18 ≤ gf) (hf1 : gf ≤ 1) (hd0 : 0 ≤ db) (hd : db ≤ 1.5 * H)
  (hl : 0.5 ≤ Textbook.iribarren H T (max cd cu)) (hs : gf = 1 ∨ Textbook.iribarren H T (min cd cu) < 1.8)
  (hH6 : H ≤ 1e6)
include hH hT hcd hcu hcc hcc' hf hf1 hd0 hd hl hs hH6

/-- C89 for TAW (2002) with a berm at or below the water line, to 0.1 mm (missing: berms above the water line, rough
slopes with Iribarren numbers from 1.8 on, slopes more than a factor four apart, Iribarren numbers below 0.5) -/
theorem C89_taw_runup_berm_partial (gB B : ℝ) (bf : Bool) (hB : 0 < gB) (hB1 : gB ≤ 1) (hB0 : 0 ≤ B)
    (hlo : 4e-3 ≤ gf * gB * H) :
    ∃ p, 0 < p ∧
      (∀ y, 0 < y → ((∃ f, (RunupTaw2002.calculate_wave_runup_height_z2p
        { Hm0 := fin H, Tmm10 := fin T, gamma_f := fin gf, gamma_b := fin (Published.bermFactor H cd cu B db),
          gamma_beta := fin gB, cot_alpha := fin (((1.5 * H - db) * cd + (y + db) * cu) / (1.5 * H + y)),
          use_best_fit := bf }).res = .ok (fin y, f)) ↔ y = p)) ∧
      ∃ (z : ℝ) (f : Bool), (RunupTaw2002.calculate_wave_runup_height_z2p
        { Hm0 := fin H, Tmm10 := fin T, cot_alpha_down := fin cd, cot_alpha_up := fin cu, gamma_f := fin gf,
          gamma_beta := fin gB, B_berm := fin B, db := fin db, use_best_fit := bf }).res = .ok (fin z, f) ∧
        |z - p| ≤ 1e-4 := by
  have c1 : (1 : ℝ) ≤ if bf then 1.65 else 1.75 := by split_ifs <;> norm_num
  have c2 : (3 : ℝ) ≤ if bf then 4.0 else 4.3 := by split_ifs <;> norm_num
  have c3 : (0 : ℝ) ≤ if bf then 1.5 else 1.6 := by split_ifs <;> norm_num
  have c4 : (1 : ℝ) ≤ if bf then 1.0 else 1.0 := by split_ifs <;> norm_num
  have c23 : 15 / 7 * (if bf then 1.5 else 1.6) ≤ (if bf then 4.0 else 4.3 : ℝ) := by split_ifs <;> norm_num
  have c24 : (if bf then 4.0 else 4.3) * (if bf then 1.0 else 1.0) ≤ (10 : ℝ) := by split_ifs <;> norm_num
  have e1 : (if bf then 1.65 else fin 1.75) = fin (if bf then 1.65 else 1.75) := by cases bf <;> rfl
  have e2 : (if bf then 4.0 else fin 4.3) = fin (if bf then 4.0 else 4.3) := by cases bf <;> rfl
  have e3 : (if bf then 1.5 else fin 1.6) = fin (if bf then 1.5 else 1.6) := by cases bf <;> rfl
  have e4 : (if bf then 1.0 else fin 1.0) = fin (if bf then 1.0 else 1.0) := by cases bf <;> rfl
  obtain ⟨p, hp, hfp, hu, z, f, hz, ha⟩ := RunupTaw2002.berm_settles (gB := gB) (db := db) hH hT hcd hcu hcc
    hcc' hf hf1 hB hB1 hd0 hd hl hs hH6 hlo c3 c23 c1 c2 c4 c24 bf hB0 e1 e2 e3 e4
  refine ⟨p, hp, fun y hy => ?_, z, f, hz, ha⟩
  have hb := RunupTaw2002.avg_between hH hy hd0 hd (min_le_left cd cu) (min_le_right cd cu) (le_max_left cd cu)
    (le_max_right cd cu)
  have hc : 0 < RunupTaw2002.avg H y cd cu db := lt_of_lt_of_le (lt_min hcd hcu) hb.1
  obtain ⟨f', hs'⟩ := RunupTaw2002.height_level (gf := gf) (gb := Published.bermFactor H cd cu B db) (gB := gB) bf hH
    hT hc e1 e2 e3 e4
  constructor
  · rintro ⟨g, hg⟩
    obtain ⟨h, -⟩ := Prod.mk.inj (Except.ok.inj (hs'.symm.trans hg))
    rw [fin_inj] at h
    exact hu y hy h
  · rintro rfl
    exact ⟨f', hs'.trans (by rw [hfp])⟩

/-- C105 for TAW (2002): a wider berm at or below the water line never gives more run-up, up to the 0.2 mm of the
iteration -/
theorem C105_taw_runup_partial (gB B B' : ℝ) (bf : Bool) (hB : 0 < gB) (hB1 : gB ≤ 1) (hB0 : 0 ≤ B) (hBB : B ≤ B')
    (hlo : 4e-3 ≤ gf * gB * H) :
    ∃ (z z' : ℝ) (f f' : Bool), z' ≤ z + 2e-4 ∧
      (RunupTaw2002.calculate_wave_runup_height_z2p
        { Hm0 := fin H, Tmm10 := fin T, cot_alpha_down := fin cd, cot_alpha_up := fin cu, gamma_f := fin gf,
          gamma_beta := fin gB, B_berm := fin B, db := fin db, use_best_fit := bf }).res = .ok (fin z, f) ∧
      (RunupTaw2002.calculate_wave_runup_height_z2p
        { Hm0 := fin H, Tmm10 := fin T, cot_alpha_down := fin cd, cot_alpha_up := fin cu, gamma_f := fin gf,
          gamma_beta := fin gB, B_berm := fin B', db := fin db, use_best_fit := bf }).res = .ok (fin z', f') := by
  have c1 : (1 : ℝ) ≤ if bf then 1.65 else 1.75 := by split_ifs <;> norm_num
  have c2 : (3 : ℝ) ≤ if bf then 4.0 else 4.3 := by split_ifs <;> norm_num
  have c3 : (0 : ℝ) ≤ if bf then 1.5 else 1.6 := by split_ifs <;> norm_num
  have c4 : (1 : ℝ) ≤ if bf then 1.0 else 1.0 := by split_ifs <;> norm_num
  have c23 : 15 / 7 * (if bf then 1.5 else 1.6) ≤ (if bf then 4.0 else 4.3 : ℝ) := by split_ifs <;> norm_num
  have c24 : (if bf then 4.0 else 4.3) * (if bf then 1.0 else 1.0) ≤ (10 : ℝ) := by split_ifs <;> norm_num
  have e1 : (if bf then 1.65 else fin 1.75) = fin (if bf then 1.65 else 1.75) := by cases bf <;> rfl
  have e2 : (if bf then 4.0 else fin 4.3) = fin (if bf then 4.0 else 4.3) := by cases bf <;> rfl
  have e3 : (if bf then 1.5 else fin 1.6) = fin (if bf then 1.5 else 1.6) := by cases bf <;> rfl
  have e4 : (if bf then 1.0 else fin 1.0) = fin (if bf then 1.0 else 1.0) := by cases bf <;> rfl
  obtain ⟨p, hp, hfp, -, z, f, hz, ha⟩ := RunupTaw2002.berm_settles (gB := gB) (db := db) hH hT hcd hcu hcc
    hcc' hf hf1 hB hB1 hd0 hd hl hs hH6 hlo c3 c23 c1 c2 c4 c24 bf hB0 e1 e2 e3 e4
  obtain ⟨p', hp', hfp', -, z', f', hz', ha'⟩ := RunupTaw2002.berm_settles (gB := gB) (db := db) hH hT hcd hcu hcc
    hcc' hf hf1 hB hB1 hd0 hd hl hs hH6 hlo c3 c23 c1 c2 c4 c24 bf (hB0.trans hBB) e1 e2 e3 e4
  have o := RunupTaw2002.berm_order hH hT hcd hcu hcc hcc' hf hf1 hB hd0 hd hl hs c3 c23 (by linarith) (by linarith)
    (by linarith) (lt_of_lt_of_le (by norm_num) (Published.bermFactor_bounds H cd cu B' db).1)
    (Published.bermFactor_anti (d := db) hH hcd hcu hB0 hBB) (Published.bermFactor_bounds H cd cu B db).2 hp hp' hfp
    hfp'
  refine ⟨z, z', f, f', ?_, hz, hz'⟩
  have := (abs_le.mp ha).1
  have := (abs_le.mp ha').2
  norm_num at *
  linarith

/-- C89 for EurOtop (2018) with a berm at or below the water line, to 0.1 mm (missing: as for TAW (2002)) -/
theorem C89_eurotop2018_runup_berm_partial (b c1 c2 c3 c4 B : ℝ) (gB : PF) (bf : Bool) (h1 : 1 ≤ c1) (h2 : 3 ≤ c2)
    (h3 : 0 ≤ c3) (h4 : 1 ≤ c4) (h23 : 15 / 7 * c3 ≤ c2) (h24 : c2 * c4 ≤ 10) (hB0 : 0 ≤ B) (hlo : 1e-2 ≤ gf * H) :
    ∃ p, 0 < p ∧
      (∀ y, 0 < y → ((∃ f, (RunupEurOtop2018.calculate_wave_runup_height_z2p (fin H) (fin T) (fin b) gB
        (fin (Published.bermFactor H cd cu B db)) (fin gf)
        (cot_alpha := fin (((1.5 * H - db) * cd + (y + db) * cu) / (1.5 * H + y))) (c1 := fin c1)
        (c2 := fin c2) (c3 := fin c3) (c4 := fin c4) (use_best_fit := bf)).res = .ok (fin y, f)) ↔ y = p)) ∧
      ∃ (z : ℝ) (f : Bool), (RunupEurOtop2018.calculate_wave_runup_height_z2p (fin H) (fin T) (fin b) gB
        (gamma_f := fin gf) (B_berm := fin B) (db := fin db) (cot_alpha_down := fin cd) (cot_alpha_up := fin cu)
        (c1 := fin c1) (c2 := fin c2) (c3 := fin c3) (c4 := fin c4) (use_best_fit := bf)).res = .ok (fin z, f) ∧
        |z - p| ≤ 1e-4 := by
  have f0 : 0 < gf := lt_of_lt_of_le (by norm_num) hf
  have ho := (C78_obliqueness_eurotop2018 b gf).1
  have hB : 0.4 ≤ Published.obliqueness (if 0.6 < gf then 0.0022 else 0.0063) b ∧
      Published.obliqueness (if 0.6 < gf then 0.0022 else 0.0063) b ≤ 1 := by
    unfold Published.obliqueness
    have m80 : min |b| 80 ≤ 80 := min_le_right _ _
    have m0 : 0 ≤ min |b| 80 := le_min (abs_nonneg b) (by norm_num)
    generalize min |b| 80 = m at *
    split_ifs <;> norm_num <;> constructor <;> linarith
  generalize Published.obliqueness (if 0.6 < gf then 0.0022 else 0.0063) b = gB' at *
  obtain ⟨hBlo, hB1⟩ := hB
  have hB : 0 < gB' := lt_of_lt_of_le (by norm_num) hBlo
  have hlo' : 4e-3 ≤ gf * gB' * H := by
    have : gf * H * 0.4 ≤ gf * H * gB' := mul_le_mul_of_nonneg_left hBlo (by positivity)
    norm_num at this hlo ⊢
    linarith
  have c1' : (1 : ℝ) ≤ if bf then 1.65 else c1 := by split_ifs; norm_num; exact h1
  have c2' : (3 : ℝ) ≤ if bf then 4.0 else c2 := by split_ifs; norm_num; exact h2
  have c3' : (0 : ℝ) ≤ if bf then 1.5 else c3 := by split_ifs; norm_num; exact h3
  have c4' : (1 : ℝ) ≤ if bf then 1.0 else c4 := by split_ifs; norm_num; exact h4
  have c23 : 15 / 7 * (if bf then 1.5 else c3) ≤ (if bf then 4.0 else c2 : ℝ) := by
    split_ifs; norm_num; exact h23
  have c24 : (if bf then 4.0 else c2) * (if bf then 1.0 else c4) ≤ (10 : ℝ) := by
    split_ifs; norm_num; exact h24
  have hk : RunupEurOtop2018.check_best_fit (fin c1) (fin c2) (fin c3) (fin c4) bf =
      (fin (if bf then 1.65 else c1), fin (if bf then 4.0 else c2), fin (if bf then 1.5 else c3),
        fin (if bf then 1.0 else c4)) := by
    unfold RunupEurOtop2018.check_best_fit
    cases bf <;> rfl
  generalize (if bf then (1.65 : ℝ) else c1) = k1 at *
  generalize (if bf then (4.0 : ℝ) else c2) = k2 at *
  generalize (if bf then (1.5 : ℝ) else c3) = k3 at *
  generalize (if bf then (1.0 : ℝ) else c4) = k4 at *
  obtain ⟨p, hp, hfp, hu, z, f, hz, ha⟩ := RunupTaw2002.berm_settles (gB := gB') (db := db) hH hT hcd hcu hcc
    hcc' hf hf1 hB hB1 hd0 hd hl hs hH6 hlo' c3' c23 c1' c2' c4' c24 false hB0 rfl rfl rfl rfl
  refine ⟨p, hp, fun y hy => ?_, z, f, ?_, ha⟩
  · have hb := RunupTaw2002.avg_between hH hy hd0 hd (min_le_left cd cu) (min_le_right cd cu) (le_max_left cd cu)
      (le_max_right cd cu)
    have hc : 0 < RunupTaw2002.avg H y cd cu db := lt_of_lt_of_le (lt_min hcd hcu) hb.1
    obtain ⟨f', hs'⟩ := RunupTaw2002.height_level (gf := gf) (gb := Published.bermFactor H cd cu B db) (gB := gB')
      (c1 := k1) (c2 := k2) (c3 := k3) (c4 := k4) false hH hT hc rfl rfl rfl rfl
    have e : (RunupEurOtop2018.calculate_wave_runup_height_z2p (fin H) (fin T) (fin b) gB
        (fin (Published.bermFactor H cd cu B db)) (fin gf)
        (cot_alpha := fin (((1.5 * H - db) * cd + (y + db) * cu) / (1.5 * H + y))) (c1 := fin c1)
        (c2 := fin c2) (c3 := fin c3) (c4 := fin c4) (use_best_fit := bf)).res =
        .ok (fin (RunupTaw2002.level H T gf (Published.bermFactor H cd cu B db) gB' k1 k2 k3 k4
          (RunupTaw2002.avg H y cd cu db)), f') := by
      rw [← hs']
      unfold RunupEurOtop2018.calculate_wave_runup_height_z2p
        RunupEurOtop2018.calculate_dimensionless_wave_runup_height_z2p
      dsimp only
      rw [ho, hk]
      rfl
    constructor
    · rintro ⟨g, hg⟩
      obtain ⟨h, -⟩ := Prod.mk.inj (Except.ok.inj (e.symm.trans hg))
      rw [fin_inj] at h
      exact hu y hy h
    · rintro rfl
      exact ⟨f', e.trans (by rw [hfp])⟩
  · rw [← hz]
    unfold RunupEurOtop2018.calculate_wave_runup_height_z2p
      RunupEurOtop2018.calculate_dimensionless_wave_runup_height_z2p
    dsimp only
    rw [ho, hk]
    rfl

/-- C105 for EurOtop (2018), with obliqueness given by the angle and coefficients near the published ones -/
theorem C105_eurotop2018_runup_partial (b c1 c2 c3 c4 B B' : ℝ) (gB : PF) (bf : Bool) (h1 : 1 ≤ c1) (h2 : 3 ≤ c2)
    (h3 : 0 ≤ c3) (h4 : 1 ≤ c4) (h23 : 15 / 7 * c3 ≤ c2) (h24 : c2 * c4 ≤ 10) (hB0 : 0 ≤ B) (hBB : B ≤ B')
    (hlo : 1e-2 ≤ gf * H) :
    ∃ (z z' : ℝ) (f f' : Bool), z' ≤ z + 2e-4 ∧
      (RunupEurOtop2018.calculate_wave_runup_height_z2p (fin H) (fin T) (fin b) gB
        (gamma_f := fin gf) (B_berm := fin B) (db := fin db) (cot_alpha_down := fin cd) (cot_alpha_up := fin cu)
        (c1 := fin c1) (c2 := fin c2) (c3 := fin c3) (c4 := fin c4) (use_best_fit := bf)).res = .ok (fin z, f) ∧
      (RunupEurOtop2018.calculate_wave_runup_height_z2p (fin H) (fin T) (fin b) gB
        (gamma_f := fin gf) (B_berm := fin B') (db := fin db) (cot_alpha_down := fin cd) (cot_alpha_up := fin cu)
        (c1 := fin c1) (c2 := fin c2) (c3 := fin c3) (c4 := fin c4) (use_best_fit := bf)).res = .ok (fin z', f') := by
  have f0 : 0 < gf := lt_of_lt_of_le (by norm_num) hf
  have ho := (C78_obliqueness_eurotop2018 b gf).1
  have hB : 0.4 ≤ Published.obliqueness (if 0.6 < gf then 0.0022 else 0.0063) b ∧
      Published.obliqueness (if 0.6 < gf then 0.0022 else 0.0063) b ≤ 1 := by
    unfold Published.obliqueness
    have m80 : min |b| 80 ≤ 80 := min_le_right _ _
    have m0 : 0 ≤ min |b| 80 := le_min (abs_nonneg b) (by norm_num)
    generalize min |b| 80 = m at *
    split_ifs <;> norm_num <;> constructor <;> linarith
  generalize Published.obliqueness (if 0.6 < gf then 0.0022 else 0.0063) b = gB' at *
  obtain ⟨hBlo, hB1⟩ := hB
  have hB : 0 < gB' := lt_of_lt_of_le (by norm_num) hBlo
  have hlo' : 4e-3 ≤ gf * gB' * H := by
    have : gf * H * 0.4 ≤ gf * H * gB' := mul_le_mul_of_nonneg_left hBlo (by positivity)
    norm_num at this hlo ⊢
    linarith
  have c1' : (1 : ℝ) ≤ if bf then 1.65 else c1 := by split_ifs; norm_num; exact h1
  have c2' : (3 : ℝ) ≤ if bf then 4.0 else c2 := by split_ifs; norm_num; exact h2
  have c3' : (0 : ℝ) ≤ if bf then 1.5 else c3 := by split_ifs; norm_num; exact h3
  have c4' : (1 : ℝ) ≤ if bf then 1.0 else c4 := by split_ifs; norm_num; exact h4
  have c23 : 15 / 7 * (if bf then 1.5 else c3) ≤ (if bf then 4.0 else c2 : ℝ) := by
    split_ifs; norm_num; exact h23
  have c24 : (if bf then 4.0 else c2) * (if bf then 1.0 else c4) ≤ (10 : ℝ) := by
    split_ifs; norm_num; exact h24
  have hk : RunupEurOtop2018.check_best_fit (fin c1) (fin c2) (fin c3) (fin c4) bf =
      (fin (if bf then 1.65 else c1), fin (if bf then 4.0 else c2), fin (if bf then 1.5 else c3),
        fin (if bf then 1.0 else c4)) := by
    unfold RunupEurOtop2018.check_best_fit
    cases bf <;> rfl
  generalize (if bf then (1.65 : ℝ) else c1) = k1 at *
  generalize (if bf then (4.0 : ℝ) else c2) = k2 at *
  generalize (if bf then (1.5 : ℝ) else c3) = k3 at *
  generalize (if bf then (1.0 : ℝ) else c4) = k4 at *
  obtain ⟨p, hp, hfp, -, z, f, hz, ha⟩ := RunupTaw2002.berm_settles (gB := gB') (db := db) hH hT hcd hcu hcc
    hcc' hf hf1 hB hB1 hd0 hd hl hs hH6 hlo' c3' c23 c1' c2' c4' c24 false hB0 rfl rfl rfl rfl
  obtain ⟨p', hp', hfp', -, z', f', hz', ha'⟩ := RunupTaw2002.berm_settles (gB := gB') (db := db) hH hT hcd hcu hcc
    hcc' hf hf1 hB hB1 hd0 hd hl hs hH6 hlo' c3' c23 c1' c2' c4' c24 false (hB0.trans hBB) rfl rfl rfl rfl
  have o := RunupTaw2002.berm_order hH hT hcd hcu hcc hcc' hf hf1 hB hd0 hd hl hs c3' c23 (by linarith) (by linarith)
    (by linarith) (lt_of_lt_of_le (by norm_num) (Published.bermFactor_bounds H cd cu B' db).1)
    (Published.bermFactor_anti (d := db) hH hcd hcu hB0 hBB) (Published.bermFactor_bounds H cd cu B db).2 hp hp' hfp
    hfp'
  refine ⟨z, z', f, f', ?_, ?_, ?_⟩
  · have := (abs_le.mp ha).1
    have := (abs_le.mp ha').2
    norm_num at *
    linarith
  · rw [← hz]
    unfold RunupEurOtop2018.calculate_wave_runup_height_z2p
      RunupEurOtop2018.calculate_dimensionless_wave_runup_height_z2p
    dsimp only
    rw [ho, hk]
    rfl
  · rw [← hz']
    unfold RunupEurOtop2018.calculate_wave_runup_height_z2p
      RunupEurOtop2018.calculate_dimensionless_wave_runup_height_z2p
    dsimp only
    rw [ho, hk]
    rfl
end

section
variable (H T cd cu gf gB B db : ℝ) (hH : 0 < H) (hT : 0 < T) (hcd : 0 < cd) (hcu : 0 < cu) (hf : 0.18 ≤ gf)
  (hf1 : gf ≤ 1) (hB : 0 < gB) (hB0 : 0 ≤ B) (hd0 : 0 ≤ db) (hd : db ≤ 1.5 * H)
  (hl : 0.5 ≤ Textbook.iribarren H T (max cd cu))
  (hr : gf = 1 ∨ Published.bermFactor H cd cu B db * Textbook.iribarren H T (min cd cu) < 1.8)
include hH hT hcd hcu hf hf1 hB hB0 hd0 hd hl hr

/-- C88 with a berm at or below the water line, for run-up by TAW (2002): between the straight slopes with the
published reduction by the berm (missing: rough slopes with breaker parameters from 1.8 on, Iribarren numbers below
0.5, berms above the water line) -/
theorem C88_taw_runup_berm_partial (bf : Bool) : ∃ (z z1 z2 : ℝ) (f f1 f2 : Bool), 0 < z1 ∧ z1 ≤ z ∧ z ≤ z2 ∧
    (RunupTaw2002.calculate_wave_runup_height_z2p
      { Hm0 := fin H, Tmm10 := fin T, cot_alpha_down := fin cd, cot_alpha_up := fin cu, gamma_f := fin gf,
        gamma_beta := fin gB, B_berm := fin B, db := fin db, use_best_fit := bf }).res = .ok (fin z, f) ∧
    (RunupTaw2002.calculate_wave_runup_height_z2p
      { Hm0 := fin H, Tmm10 := fin T, cot_alpha := fin (max cd cu), gamma_f := fin gf,
        gamma_b := fin (Published.bermFactor H cd cu B db), gamma_beta := fin gB,
        use_best_fit := bf }).res = .ok (fin z1, f1) ∧
    (RunupTaw2002.calculate_wave_runup_height_z2p
      { Hm0 := fin H, Tmm10 := fin T, cot_alpha := fin (min cd cu), gamma_f := fin gf,
        gamma_b := fin (Published.bermFactor H cd cu B db), gamma_beta := fin gB,
        use_best_fit := bf }).res = .ok (fin z2, f2) := by
  have f0 : 0 < gf := lt_of_lt_of_le (by norm_num) hf
  have lo : 0 < min cd cu := lt_min hcd hcu
  have c1 : (0 : ℝ) < if bf then 1.65 else 1.75 := by split_ifs <;> norm_num
  have c2 : (0 : ℝ) < if bf then 4.0 else 4.3 := by split_ifs <;> norm_num
  have c3 : (0 : ℝ) ≤ if bf then 1.5 else 1.6 := by split_ifs <;> norm_num
  have c4 : (0 : ℝ) < if bf then 1.0 else 1.0 := by split_ifs <;> norm_num
  have c23 : 15 / 7 * (if bf then 1.5 else 1.6) ≤ (if bf then 4.0 else 4.3 : ℝ) := by split_ifs <;> norm_num
  have e1 : (if bf then 1.65 else fin 1.75) = fin (if bf then 1.65 else 1.75) := by cases bf <;> rfl
  have e2 : (if bf then 4.0 else fin 4.3) = fin (if bf then 4.0 else 4.3) := by cases bf <;> rfl
  have e3 : (if bf then 1.5 else fin 1.6) = fin (if bf then 1.5 else 1.6) := by cases bf <;> rfl
  have e4 : (if bf then 1.0 else fin 1.0) = fin (if bf then 1.0 else 1.0) := by cases bf <;> rfl
  obtain ⟨y, hy, -, he⟩ := RunupTaw2002.composite_berm (db := db) (gB := gB) bf hH hT hcd hcu f0 hf1 hB hB0 hd0 hd e1
    e2 e3 e4 c1 c2 c3 c4 c23 (by rwa [RangeProof.irib_eq] at hl)
  obtain ⟨h1, h2⟩ := RunupTaw2002.avg_between hH hy hd0 hd (min_le_left cd cu) (min_le_right cd cu) (le_max_left cd cu)
    (le_max_right cd cu)
  obtain ⟨b0, b1⟩ := Published.bermFactor_bounds H cd cu B db
  generalize Published.bermFactor H cd cu B db = gb at *
  generalize RunupTaw2002.avg H y cd cu db = c at *
  have b00 : 0 < gb := lt_of_lt_of_le (by norm_num) b0
  have x2 := irib_c hH hT lo h1
  have x1 := irib_c hH hT (lo.trans_le h1) h2
  have r2 : gf = 1 ∨ gb * Textbook.iribarren H T (min cd cu) < 1.8 ∨
      (gb = 1 ∧ Textbook.iribarren H T (min cd cu) ≤ 10) := hr.imp_right Or.inl
  have rc : gf = 1 ∨ gb * Textbook.iribarren H T c < 1.8 ∨ (gb = 1 ∧ Textbook.iribarren H T c ≤ 10) :=
    hr.imp_right fun h => Or.inl ((mul_le_mul_of_nonneg_left x2 b00.le).trans_lt h)
  have r1 : gf = 1 ∨ gb * Textbook.iribarren H T (max cd cu) < 1.8 ∨
      (gb = 1 ∧ Textbook.iribarren H T (max cd cu) ≤ 10) :=
    hr.imp_right fun h => Or.inl ((mul_le_mul_of_nonneg_left (x1.trans x2) b00.le).trans_lt h)
  obtain ⟨z1, z, f1, f, p, h, g1, g⟩ := C80_taw_runup_berm_partial H H T T (max cd cu) c gf gf gB gB gb gb hH le_rfl
    hT le_rfl (lo.trans_le h1) h2 hf le_rfl hf1 hB le_rfl b00 le_rfl r1 rc bf hl (hl.trans x1)
  obtain ⟨z', z2, f', f2, -, h', g', g2⟩ := C80_taw_runup_berm_partial H H T T c (min cd cu) gf gf gB gB gb gb hH
    le_rfl hT le_rfl lo h1 hf le_rfl hf1 hB le_rfl b00 le_rfl rc r2 bf (hl.trans x1) (hl.trans (x1.trans x2))
  obtain ⟨h0, -⟩ := Prod.mk.inj (Except.ok.inj (g.symm.trans g'))
  rw [fin_inj] at h0
  subst h0
  refine ⟨z, z1, z2, f, f1, f2, p, h, h', ?_, g1, g2⟩
  rw [← g]
  unfold RunupTaw2002.calculate_wave_runup_height_z2p RunupTaw2002.height_of
  exact PyM.bind_res_congr he _

/-- C88 with a berm at or below the water line, for overtopping by TAW (2002) (missing: as for run-up) -/
theorem C88_taw_overtopping_berm_partial (gv R s g : ℝ) (beta : PF) (bf : Bool) (hv : 0 < gv) (hR : 0 ≤ R)
    (hs : s = 0 ∨ bf = true) (hs7 : -7 ≤ s) (hg : 0 < g) :
    ∃ (q q1 q2 : ℝ) (f f1 f2 : Bool), 0 < q1 ∧ q1 ≤ q ∧ q ≤ q2 ∧
      (OvertoppingTaw2002.calculate_overtopping_discharge_q (fin H) (fin T) (fin R) nan (fin cd) (fin cu) beta
        (fin B) (fin db) (fin gB) nan (fin gf) (fin gv) (fin s) (fin g) bf).res = .ok (fin q, f) ∧
      (OvertoppingTaw2002.calculate_overtopping_discharge_q (fin H) (fin T) (fin R) (fin (max cd cu)) nan nan beta
        (fin B) (fin db) (fin gB) (fin (Published.bermFactor H cd cu B db)) (fin gf) (fin gv) (fin s) (fin g)
        bf).res = .ok (fin q1, f1) ∧
      (OvertoppingTaw2002.calculate_overtopping_discharge_q (fin H) (fin T) (fin R) (fin (min cd cu)) nan nan beta
        (fin B) (fin db) (fin gB) (fin (Published.bermFactor H cd cu B db)) (fin gf) (fin gv) (fin s) (fin g)
        bf).res = .ok (fin q2, f2) := by
  have f0 : 0 < gf := lt_of_lt_of_le (by norm_num) hf
  have lo : 0 < min cd cu := lt_min hcd hcu
  obtain ⟨c, hc, h1, h2, hp⟩ := OvertoppingTaw2002.pre_berm (gf := gf) (gB := gB) (B := B) (db := db) beta hH hT hcd
    hcu f0 hf1 hB hB0 hd0 hd (by rwa [RangeProof.irib_eq] at hl)
  obtain ⟨b0, b1⟩ := Published.bermFactor_bounds H cd cu B db
  generalize Published.bermFactor H cd cu B db = gb at *
  have b00 : 0 < gb := lt_of_lt_of_le (by norm_num) b0
  have x2 := irib_c hH hT lo h1
  have x1 := irib_c hH hT hc h2
  have r2 : gf = 1 ∨ gb * Textbook.iribarren H T (min cd cu) < 1.8 ∨
      (gb = 1 ∧ Textbook.iribarren H T (min cd cu) ≤ 10) := hr.imp_right Or.inl
  have rc : gf = 1 ∨ gb * Textbook.iribarren H T c < 1.8 ∨ (gb = 1 ∧ Textbook.iribarren H T c ≤ 10) :=
    hr.imp_right fun h => Or.inl ((mul_le_mul_of_nonneg_left x2 b00.le).trans_lt h)
  have r1 : gf = 1 ∨ gb * Textbook.iribarren H T (max cd cu) < 1.8 ∨
      (gb = 1 ∧ Textbook.iribarren H T (max cd cu) ≤ 10) :=
    hr.imp_right fun h => Or.inl ((mul_le_mul_of_nonneg_left (x1.trans x2) b00.le).trans_lt h)
  obtain ⟨q1, q, f1, f, p, h, e1, e⟩ := C80_taw_overtopping_berm_partial H H T T (max cd cu) c gf gf gB gB gb gb hH
    le_rfl hT le_rfl hc h2 hf le_rfl hf1 hB le_rfl b00 le_rfl b1 r1 rc gv gv R R s g beta (fin B) (fin db) bf
    hv le_rfl hR le_rfl hs hs7 hg
  obtain ⟨q', q2, f', f2, -, h', e', e2⟩ := C80_taw_overtopping_berm_partial H H T T c (min cd cu) gf gf gB gB gb gb
    hH le_rfl hT le_rfl lo h1 hf le_rfl hf1 hB le_rfl b00 le_rfl b1 rc r2 gv gv R R s g beta (fin B) (fin db) bf
    hv le_rfl hR le_rfl hs hs7 hg
  obtain ⟨h0, -⟩ := Prod.mk.inj (Except.ok.inj (e.symm.trans e'))
  rw [fin_inj] at h0
  subst h0
  refine ⟨q, q1, q2, f, f1, f2, p, h, h', ?_, e1, e2⟩
  rw [← e]
  unfold OvertoppingTaw2002.calculate_overtopping_discharge_q
  refine PyM.bind_res_congr ?_ _
  rw [OvertoppingTaw2002.q_res hH hT hs f0 hf1 hv hB hc b00 b1 hp,
    OvertoppingTaw2002.q_res hH hT hs f0 hf1 hv hB hc b00 b1
      (OvertoppingTaw2002.pre_given H T c gf gB gb beta (fin B) (fin db))]
end

/-- C88 with a berm at or below the water line, for run-up by EurOtop (2018) (missing: as for TAW (2002)); obliqueness
is given by the angle -/
theorem C88_eurotop2018_runup_berm_partial (H T cd cu gf B db b c1 c2 c3 c4 : ℝ) (gB : PF) (bf : Bool) (hH : 0 < H)
    (hT : 0 < T) (hcd : 0 < cd) (hcu : 0 < cu) (hf : 0.18 ≤ gf) (hf1 : gf ≤ 1) (hB0 : 0 ≤ B) (hd0 : 0 ≤ db)
    (hd : db ≤ 1.5 * H) (hl : 0.5 ≤ Textbook.iribarren H T (max cd cu))
    (hr : gf = 1 ∨ Published.bermFactor H cd cu B db * Textbook.iribarren H T (min cd cu) < 1.8)
    (h1 : 0 < c1) (h2 : 0 < c2) (h3 : 0 ≤ c3) (h4 : 0 < c4) (h23 : 15 / 7 * c3 ≤ c2) :
    ∃ (z z1 z2 : ℝ) (f f1 f2 : Bool), 0 < z1 ∧ z1 ≤ z ∧ z ≤ z2 ∧
      (RunupEurOtop2018.calculate_wave_runup_height_z2p (fin H) (fin T) (fin b) gB (gamma_f := fin gf)
        (B_berm := fin B) (db := fin db) (cot_alpha_down := fin cd) (cot_alpha_up := fin cu) (c1 := fin c1)
        (c2 := fin c2) (c3 := fin c3) (c4 := fin c4) (use_best_fit := bf)).res = .ok (fin z, f) ∧
      (RunupEurOtop2018.calculate_wave_runup_height_z2p (fin H) (fin T) (fin b) gB
        (fin (Published.bermFactor H cd cu B db)) (fin gf) (cot_alpha := fin (max cd cu)) (c1 := fin c1)
        (c2 := fin c2) (c3 := fin c3) (c4 := fin c4) (use_best_fit := bf)).res = .ok (fin z1, f1) ∧
      (RunupEurOtop2018.calculate_wave_runup_height_z2p (fin H) (fin T) (fin b) gB
        (fin (Published.bermFactor H cd cu B db)) (fin gf) (cot_alpha := fin (min cd cu)) (c1 := fin c1)
        (c2 := fin c2) (c3 := fin c3) (c4 := fin c4) (use_best_fit := bf)).res = .ok (fin z2, f2) := by
  have f0 : 0 < gf := lt_of_lt_of_le (by norm_num) hf
  have lo : 0 < min cd cu := lt_min hcd hcu
  have ho := (C78_obliqueness_eurotop2018 b gf).1
  have hB : 0 < Published.obliqueness (if 0.6 < gf then 0.0022 else 0.0063) b := by
    unfold Published.obliqueness
    have m80 : min |b| 80 ≤ 80 := min_le_right _ _
    generalize min |b| 80 = m at *
    split_ifs <;> norm_num <;> linarith
  have k1 : (0 : ℝ) < if bf then 1.65 else c1 := by split_ifs; norm_num; exact h1
  have k2 : (0 : ℝ) < if bf then 4.0 else c2 := by split_ifs; norm_num; exact h2
  have k3 : (0 : ℝ) ≤ if bf then 1.5 else c3 := by split_ifs; norm_num; exact h3
  have k4 : (0 : ℝ) < if bf then 1.0 else c4 := by split_ifs; norm_num; exact h4
  have k23 : 15 / 7 * (if bf then 1.5 else c3) ≤ (if bf then 4.0 else c2 : ℝ) := by
    split_ifs; norm_num; exact h23
  have hk : RunupEurOtop2018.check_best_fit (fin c1) (fin c2) (fin c3) (fin c4) bf =
      (fin (if bf then 1.65 else c1), fin (if bf then 4.0 else c2), fin (if bf then 1.5 else c3),
        fin (if bf then 1.0 else c4)) := by
    unfold RunupEurOtop2018.check_best_fit
    cases bf <;> rfl
  obtain ⟨y, hy, -, he⟩ := RunupTaw2002.composite_berm (db := db) (B := B) (gf := gf)
    (gB := Published.obliqueness (if 0.6 < gf then 0.0022 else 0.0063) b) (c1 := if bf then 1.65 else c1)
    (c2 := if bf then 4.0 else c2) (c3 := if bf then 1.5 else c3) (c4 := if bf then 1.0 else c4) false hH hT hcd hcu
    f0 hf1 hB hB0 hd0 hd rfl rfl rfl rfl k1 k2 k3 k4 k23 (by rwa [RangeProof.irib_eq] at hl)
  obtain ⟨l1, l2⟩ := RunupTaw2002.avg_between hH hy hd0 hd (min_le_left cd cu) (min_le_right cd cu) (le_max_left cd cu)
    (le_max_right cd cu)
  obtain ⟨b0, b1⟩ := Published.bermFactor_bounds H cd cu B db
  generalize Published.bermFactor H cd cu B db = gb at *
  generalize RunupTaw2002.avg H y cd cu db = c at *
  have b00 : 0 < gb := lt_of_lt_of_le (by norm_num) b0
  have x2 := irib_c hH hT lo l1
  have x1 := irib_c hH hT (lo.trans_le l1) l2
  have r2 : gf = 1 ∨ gb * Textbook.iribarren H T (min cd cu) < 1.8 ∨
      (gb = 1 ∧ Textbook.iribarren H T (min cd cu) ≤ 10) := hr.imp_right Or.inl
  have rc : gf = 1 ∨ gb * Textbook.iribarren H T c < 1.8 ∨ (gb = 1 ∧ Textbook.iribarren H T c ≤ 10) :=
    hr.imp_right fun h => Or.inl ((mul_le_mul_of_nonneg_left x2 b00.le).trans_lt h)
  have r1 : gf = 1 ∨ gb * Textbook.iribarren H T (max cd cu) < 1.8 ∨
      (gb = 1 ∧ Textbook.iribarren H T (max cd cu) ≤ 10) :=
    hr.imp_right fun h => Or.inl ((mul_le_mul_of_nonneg_left (x1.trans x2) b00.le).trans_lt h)
  obtain ⟨z1, z, f1, f, p, h, e1, e⟩ := C80_eurotop2018_runup_berm_partial H H T T (max cd cu) c gf gf gb gb b b c1 c2
    c3 c4 gB bf hH le_rfl hT le_rfl (lo.trans_le l1) l2 hf le_rfl hf1 b00 le_rfl le_rfl
    r1 rc hl (hl.trans x1) h1 h2 h3 h4 h23
  obtain ⟨z', z2, f', f2, -, h', e', e2⟩ := C80_eurotop2018_runup_berm_partial H H T T c (min cd cu) gf gf gb gb b b
    c1 c2 c3 c4 gB bf hH le_rfl hT le_rfl lo l1 hf le_rfl hf1 b00 le_rfl le_rfl
    rc r2 (hl.trans x1) (hl.trans (x1.trans x2)) h1 h2 h3 h4 h23
  obtain ⟨h0, -⟩ := Prod.mk.inj (Except.ok.inj (e.symm.trans e'))
  rw [fin_inj] at h0
  subst h0
  refine ⟨z, z1, z2, f, f1, f2, p, h, h', ?_, e1, e2⟩
  rw [← e]
  unfold RunupEurOtop2018.calculate_wave_runup_height_z2p
    RunupEurOtop2018.calculate_dimensionless_wave_runup_height_z2p
  dsimp only
  rw [ho, hk]
  exact PyM.bind_res_congr he _

/-! ## Cases: 1:3 below and 1:4 above, berms 1 m below the water line -/

open CompositeCase
example := C89_taw_runup_berm_partial 2 6 3 4 1 1 (by norm_num) (by norm_num) (by norm_num) (by norm_num)
  (by norm_num) (by norm_num) (by norm_num) (by norm_num) (by norm_num) (by norm_num) flat (Or.inl rfl)
  (by norm_num) 0.9 5 true (by norm_num) (by norm_num) (by norm_num) (by norm_num)
example := C105_taw_runup_partial 2 6 3 4 1 1 (by norm_num) (by norm_num) (by norm_num) (by norm_num)
  (by norm_num) (by norm_num) (by norm_num) (by norm_num) (by norm_num) (by norm_num) flat (Or.inl rfl)
  (by norm_num) 0.9 5 8 true (by norm_num) (by norm_num) (by norm_num) (by norm_num) (by norm_num)
example := C105_eurotop2018_runup_partial 2 6 3 4 1 1 (by norm_num) (by norm_num) (by norm_num) (by norm_num)
  (by norm_num) (by norm_num) (by norm_num) (by norm_num) (by norm_num) (by norm_num) flat (Or.inl rfl)
  (by norm_num) 20 1.75 4.3 1.5 1.07 5 8 nan false (by norm_num) (by norm_num) (by norm_num) (by norm_num)
  (by norm_num) (by norm_num) (by norm_num) (by norm_num) (by norm_num)
example := C88_taw_runup_berm_partial 2 6 3 4 1 0.9 5 1 (by norm_num) (by norm_num) (by norm_num) (by norm_num)
  (by norm_num) (by norm_num) (by norm_num) (by norm_num) (by norm_num) (by norm_num) flat (Or.inl rfl) true
example := C88_taw_overtopping_berm_partial 2 6 3 4 1 0.9 5 1 (by norm_num) (by norm_num) (by norm_num)
  (by norm_num) (by norm_num) (by norm_num) (by norm_num) (by norm_num) (by norm_num) (by norm_num) flat (Or.inl rfl)
  0.9 3 0 9.81 nan false (by norm_num) (by norm_num) (Or.inl rfl) (by norm_num) (by norm_num)
example := C89_eurotop2018_runup_berm_partial 2 6 3 4 1 1 (by norm_num) (by norm_num) (by norm_num) (by norm_num)
  (by norm_num) (by norm_num) (by norm_num) (by norm_num) (by norm_num) (by norm_num) flat (Or.inl rfl)
  (by norm_num) 20 1.75 4.3 1.5 1.07 5 nan false (by norm_num) (by norm_num) (by norm_num) (by norm_num)
  (by norm_num) (by norm_num) (by norm_num) (by norm_num)
example := C88_eurotop2018_runup_berm_partial 2 6 3 4 1 5 1 20 1.75 4.3 1.5 1.07 nan false (by norm_num) (by norm_num)
  (by norm_num) (by norm_num) (by norm_num) (by norm_num) (by norm_num) (by norm_num) (by norm_num) flat (Or.inl rfl)
  (by norm_num) (by norm_num) (by norm_num) (by norm_num) (by norm_num)
end
