import Verif.Lemmas.CompositeOutside
import Verif.Props.CompositeBerm

/-!
# C106: only the slope within reach of the waves counts

Two slopes without a berm. The run-up follows from the average slope between 1.5 Hm0 below the water line and the
run-up level. So where the two slopes meet below that zone, the run-up should be that of the upper slope, and where
they meet above it, that of the lower slope. This holds when they meet exactly at 1.5 Hm0 below the water line. Anywhere
outside the zone the code extrapolates: the slope that the waves never reach still counts, with a negative length.
-/

open Classical
open PF
open CorePhysics CoreUtility WorseProof
noncomputable section

section
variable (H T cd cu gf gB : ℝ) (hH : 0 < H) (hT : 0 < T) (hcd : 0 < cd) (hcu : 0 < cu) (hf : 0 < gf) (hf1 : gf ≤ 1)
  (hB : 0 < gB) (bf : Bool)
include hH hT hcd hcu hf hf1 hB

/-- slopes that meet at 1.5 Hm0 below the water line: the run-up of the upper slope, any roughness -/
theorem C106_taw_runup_at_limit (hl : 0.5 ≤ Textbook.iribarren H T cu) :
    (RunupTaw2002.calculate_wave_runup_height_z2p
      { Hm0 := fin H, Tmm10 := fin T, cot_alpha_down := fin cd, cot_alpha_up := fin cu, gamma_f := fin gf,
        gamma_beta := fin gB, db := fin (1.5 * H), use_best_fit := bf }).res =
    (RunupTaw2002.calculate_wave_runup_height_z2p
      { Hm0 := fin H, Tmm10 := fin T, cot_alpha := fin cu, gamma_f := fin gf, gamma_b := fin 1,
        gamma_beta := fin gB, use_best_fit := bf }).res := by
  rw [RangeProof.irib_eq] at hl
  have ha : ∀ z, 0 < z → RunupTaw2002.avg H z cd cu (1.5 * H) = cu := by
    intro z hz
    rw [RunupTaw2002.avg_from_up (by positivity), sub_self, zero_mul, zero_div, add_zero]
  obtain ⟨z, z0, hz, -, -, he⟩ := RunupTaw2002.composite_wide (db := 1.5 * H) (gf := gf) (gB := gB) (m := cu)
    (c1 := 1.75) (c2 := 4.3) (c3 := 1.6) (c4 := 1.0) (k1 := if bf then 1.65 else 1.75)
    (k2 := if bf then 4.0 else 4.3) (k3 := if bf then 1.5 else 1.6) (k4 := if bf then 1.0 else 1.0)
    bf hH hT hcd hcu hf hf1 hB (by cases bf <;> rfl) (by cases bf <;> rfl) (by cases bf <;> rfl) (by cases bf <;> rfl)
    (by split_ifs <;> norm_num) (by split_ifs <;> norm_num) (by split_ifs <;> norm_num) (by split_ifs <;> norm_num)
    (by split_ifs <;> norm_num) hl (fun z hz => by rw [ha z hz]; exact ⟨hcu, le_rfl⟩)
  rw [ha z hz] at he
  unfold RunupTaw2002.calculate_wave_runup_height_z2p RunupTaw2002.height_of
  exact PyM.bind_res_congr he _

/-- slopes that meet deeper than 1.5 Hm0, a gentle lower slope: higher run-up than on the upper slope alone, though
only the upper slope is within reach of the waves -/
theorem C106_taw_runup_deep_gentle_below_refuted (db : ℝ) (hd : 1.5 * H < db) (hc : cu < cd)
    (hlo : 0 < cu - (db - 1.5 * H) * (cd - cu) / (1.5 * H)) (hl : 0.5 ≤ Textbook.iribarren H T cu)
    (hs : gf = 1 ∨ Textbook.iribarren H T (cu - (db - 1.5 * H) * (cd - cu) / (1.5 * H)) < 1.8) :
    ∃ (z z' : ℝ) (f f' : Bool), z' < z ∧
      (RunupTaw2002.calculate_wave_runup_height_z2p
        { Hm0 := fin H, Tmm10 := fin T, cot_alpha_down := fin cd, cot_alpha_up := fin cu, gamma_f := fin gf,
          gamma_beta := fin gB, db := fin db, use_best_fit := bf }).res = .ok (fin z, f) ∧
      (RunupTaw2002.calculate_wave_runup_height_z2p
        { Hm0 := fin H, Tmm10 := fin T, cot_alpha := fin cu, gamma_f := fin gf, gamma_b := fin 1,
          gamma_beta := fin gB, use_best_fit := bf }).res = .ok (fin z', f') := by
  have hb := fun z (hz : 0 < z) => RunupTaw2002.avg_deep_steep (z := z) hH hz hd hc
  rw [RangeProof.irib_eq] at hl
  have e1 : (if bf then 1.65 else fin 1.75) = fin (if bf then 1.65 else 1.75) := by cases bf <;> rfl
  have e2 : (if bf then 4.0 else fin 4.3) = fin (if bf then 4.0 else 4.3) := by cases bf <;> rfl
  have e3 : (if bf then 1.5 else fin 1.6) = fin (if bf then 1.5 else 1.6) := by cases bf <;> rfl
  have e4 : (if bf then 1.0 else fin 1.0) = fin (if bf then 1.0 else 1.0) := by cases bf <;> rfl
  obtain ⟨z, z0, f, hz, -, -, he⟩ := RunupTaw2002.height_wide (db := db) (gf := gf) (gB := gB) (m := cu)
    bf hH hT hcd hcu hf hf1 hB e1 e2 e3 e4
    (by split_ifs <;> norm_num) (by split_ifs <;> norm_num) (by split_ifs <;> norm_num) (by split_ifs <;> norm_num)
    (by split_ifs <;> norm_num) hl (fun z hz => ⟨hlo.trans_le (hb z hz).1, (hb z hz).2.le⟩)
  obtain ⟨f', he'⟩ := RunupTaw2002.height_level (gf := gf) (gb := 1) (gB := gB) bf hH hT hcu e1 e2 e3 e4
  refine ⟨_, _, f, f', RunupTaw2002.level_lt hH hT (hlo.trans_le (hb z hz).1) (hb z hz).2 hf hB
    (by split_ifs <;> norm_num) (by split_ifs <;> norm_num) (by split_ifs <;> norm_num) ?_, he, he'⟩
  rw [← RangeProof.irib_eq]
  exact hs.imp_right (irib_c hH hT hlo (hb z hz).1).trans_lt

/-- slopes that meet deeper than 1.5 Hm0, a steep lower slope: lower run-up than on the upper slope alone -/
theorem C106_taw_runup_deep_steep_below_refuted (db : ℝ) (hd : 1.5 * H < db) (hc : cd < cu)
    (hl : 0.5 ≤ Textbook.iribarren H T (cu + (db - 1.5 * H) * (cu - cd) / (1.5 * H)))
    (hs : gf = 1 ∨ Textbook.iribarren H T cu < 1.8) :
    ∃ (z z' : ℝ) (f f' : Bool), 0 < z ∧ z < z' ∧
      (RunupTaw2002.calculate_wave_runup_height_z2p
        { Hm0 := fin H, Tmm10 := fin T, cot_alpha_down := fin cd, cot_alpha_up := fin cu, gamma_f := fin gf,
          gamma_beta := fin gB, db := fin db, use_best_fit := bf }).res = .ok (fin z, f) ∧
      (RunupTaw2002.calculate_wave_runup_height_z2p
        { Hm0 := fin H, Tmm10 := fin T, cot_alpha := fin cu, gamma_f := fin gf, gamma_b := fin 1,
          gamma_beta := fin gB, use_best_fit := bf }).res = .ok (fin z', f') := by
  have hb := fun z (hz : 0 < z) => RunupTaw2002.avg_deep_gentle (z := z) hH hz hd hc
  rw [RangeProof.irib_eq] at hl
  have e1 : (if bf then 1.65 else fin 1.75) = fin (if bf then 1.65 else 1.75) := by cases bf <;> rfl
  have e2 : (if bf then 4.0 else fin 4.3) = fin (if bf then 4.0 else 4.3) := by cases bf <;> rfl
  have e3 : (if bf then 1.5 else fin 1.6) = fin (if bf then 1.5 else 1.6) := by cases bf <;> rfl
  have e4 : (if bf then 1.0 else fin 1.0) = fin (if bf then 1.0 else 1.0) := by cases bf <;> rfl
  obtain ⟨z, z0, f, hz, -, -, he⟩ := RunupTaw2002.height_wide (db := db) (gf := gf) (gB := gB)
    bf hH hT hcd hcu hf hf1 hB e1 e2 e3 e4
    (by split_ifs <;> norm_num) (by split_ifs <;> norm_num) (by split_ifs <;> norm_num) (by split_ifs <;> norm_num)
    (by split_ifs <;> norm_num) hl (fun z hz => ⟨hcu.trans (hb z hz).1, (hb z hz).2⟩)
  obtain ⟨f', he'⟩ := RunupTaw2002.height_level (gf := gf) (gb := 1) (gB := gB) bf hH hT hcu e1 e2 e3 e4
  have hp := hcu.trans (hb z hz).1
  refine ⟨_, _, f, f', ?_, RunupTaw2002.level_lt hH hT hcu (hb z hz).1 hf hB
    (by split_ifs <;> norm_num) (by split_ifs <;> norm_num) (by split_ifs <;> norm_num) ?_, he, he'⟩
  · have hx := VdMProof.xi_pos hH hT hp
    have hr := RunupTaw2002.rough_pos (gb := 1) hf hf1 le_rfl hx
    have hq := RunupTaw2002.level_ok (k2 := if bf then 4.0 else 4.3) (k3 := if bf then 1.5 else 1.6) hH hT hp
      (hb z hz).2 (by split_ifs <;> norm_num) (by split_ifs <;> norm_num) (by split_ifs <;> norm_num) hl
    unfold RunupTaw2002.level RunupTaw2002.ra RunupTaw2002.rb
    refine mul_pos (lt_min ?_ (mul_pos ?_ (by linarith))) hH <;> split_ifs <;> positivity
  · rw [← RangeProof.irib_eq]
    exact hs

/-- slopes that meet at height `d` above every run-up level, a gentle upper slope: higher run-up than on the lower
slope alone, though the waves never reach the upper slope -/
theorem C106_taw_runup_high_gentle_above_refuted (d w : ℝ) (fw : Bool) (hd : 0 < d) (hc : cd < cu)
    (hlo : 0 < cd - d * (cu - cd) / (1.5 * H)) (hl : 0.5 ≤ Textbook.iribarren H T cu)
    (hs : gf = 1 ∨ Textbook.iribarren H T (cd - d * (cu - cd) / (1.5 * H)) < 1.8) (hw : w < d)
    (reach : (RunupTaw2002.calculate_wave_runup_height_z2p
      { Hm0 := fin H, Tmm10 := fin T, cot_alpha := fin (cd - d * (cu - cd) / (1.5 * H)), gamma_f := fin gf,
        gamma_b := fin 1, gamma_beta := fin gB, use_best_fit := bf }).res = .ok (fin w, fw)) :
    ∃ (z z' : ℝ) (f f' : Bool), z' < z ∧ z < d ∧
      (RunupTaw2002.calculate_wave_runup_height_z2p
        { Hm0 := fin H, Tmm10 := fin T, cot_alpha_down := fin cd, cot_alpha_up := fin cu, gamma_f := fin gf,
          gamma_beta := fin gB, db := fin (-d), use_best_fit := bf }).res = .ok (fin z, f) ∧
      (RunupTaw2002.calculate_wave_runup_height_z2p
        { Hm0 := fin H, Tmm10 := fin T, cot_alpha := fin cd, gamma_f := fin gf, gamma_b := fin 1,
          gamma_beta := fin gB, use_best_fit := bf }).res = .ok (fin z', f') := by
  have hb := fun z (hz : 0 < z) => RunupTaw2002.avg_high_gentle (z := z) hH hz hd hc
  rw [RangeProof.irib_eq] at hl hs
  have e1 : (if bf then 1.65 else fin 1.75) = fin (if bf then 1.65 else 1.75) := by cases bf <;> rfl
  have e2 : (if bf then 4.0 else fin 4.3) = fin (if bf then 4.0 else 4.3) := by cases bf <;> rfl
  have e3 : (if bf then 1.5 else fin 1.6) = fin (if bf then 1.5 else 1.6) := by cases bf <;> rfl
  have e4 : (if bf then 1.0 else fin 1.0) = fin (if bf then 1.0 else 1.0) := by cases bf <;> rfl
  have i1 : (0 : ℝ) < if bf then 1.65 else 1.75 := by split_ifs <;> norm_num
  have i3 : (0 : ℝ) < if bf then 1.5 else 1.6 := by split_ifs <;> norm_num
  have i4 : (0 : ℝ) < if bf then 1.0 else 1.0 := by split_ifs <;> norm_num
  obtain ⟨z, z0, f, hz, h0, hzz, he⟩ := RunupTaw2002.height_wide (db := -d) (gf := gf) (gB := gB)
    bf hH hT hcd hcu hf hf1 hB e1 e2 e3 e4 i1 (by split_ifs <;> norm_num) i3.le i4
    (by split_ifs <;> norm_num) hl (fun z hz => ⟨hlo.trans_le (hb z hz).1, (hb z hz).2.1⟩)
  obtain ⟨f', he'⟩ := RunupTaw2002.height_level (gf := gf) (gb := 1) (gB := gB) bf hH hT hcd e1 e2 e3 e4
  obtain ⟨f'', he''⟩ := RunupTaw2002.height_level (gf := gf) (gb := 1) (gB := gB) bf hH hT hlo e1 e2 e3 e4
  obtain ⟨hw', -⟩ := Prod.mk.inj (Except.ok.inj (he''.symm.trans reach))
  rw [fin_inj] at hw'
  have below : ∀ y, 0 < y → RunupTaw2002.level H T gf 1 gB (if bf then 1.65 else 1.75) (if bf then 4.0 else 4.3)
      (if bf then 1.5 else 1.6) (if bf then 1.0 else 1.0) (RunupTaw2002.avg H y cd cu (-d)) < d := by
    intro y hy
    rcases (hb y hy).1.eq_or_lt with h | h
    · rw [← h, hw']; exact hw
    · refine lt_trans (RunupTaw2002.level_lt hH hT hlo h hf hB i1 i3 i4 hs) ?_
      rw [hw']; exact hw
  have hzd : z < d := by rw [hzz]; exact below z0 h0
  refine ⟨_, _, f, f', RunupTaw2002.level_lt hH hT (hlo.trans_le (hb z hz).1) ((hb z hz).2.2 hzd) hf hB i1 i3 i4 ?_,
    below z hz, he, he'⟩
  rw [← RangeProof.irib_eq] at hs ⊢
  exact hs.imp_right (irib_c hH hT hlo (hb z hz).1).trans_lt

/-- slopes that meet at height `d` above every run-up level, a steep upper slope: lower run-up than on the lower slope
alone -/
theorem C106_taw_runup_high_steep_above_refuted (d w : ℝ) (fw : Bool) (hd : 0 < d) (hc : cu < cd)
    (hl : 0.5 ≤ Textbook.iribarren H T (cd + d * (cd - cu) / (1.5 * H)))
    (hs : gf = 1 ∨ Textbook.iribarren H T cu < 1.8) (hw : w < d)
    (reach : (RunupTaw2002.calculate_wave_runup_height_z2p
      { Hm0 := fin H, Tmm10 := fin T, cot_alpha := fin cu, gamma_f := fin gf, gamma_b := fin 1,
        gamma_beta := fin gB, use_best_fit := bf }).res = .ok (fin w, fw)) :
    ∃ (z z' : ℝ) (f f' : Bool), z < z' ∧ z' < d ∧
      (RunupTaw2002.calculate_wave_runup_height_z2p
        { Hm0 := fin H, Tmm10 := fin T, cot_alpha_down := fin cd, cot_alpha_up := fin cu, gamma_f := fin gf,
          gamma_beta := fin gB, db := fin (-d), use_best_fit := bf }).res = .ok (fin z, f) ∧
      (RunupTaw2002.calculate_wave_runup_height_z2p
        { Hm0 := fin H, Tmm10 := fin T, cot_alpha := fin cd, gamma_f := fin gf, gamma_b := fin 1,
          gamma_beta := fin gB, use_best_fit := bf }).res = .ok (fin z', f') := by
  have hb := fun z (hz : 0 < z) => RunupTaw2002.avg_high_steep (z := z) hH hz hd hc
  rw [RangeProof.irib_eq] at hl hs
  have e1 : (if bf then 1.65 else fin 1.75) = fin (if bf then 1.65 else 1.75) := by cases bf <;> rfl
  have e2 : (if bf then 4.0 else fin 4.3) = fin (if bf then 4.0 else 4.3) := by cases bf <;> rfl
  have e3 : (if bf then 1.5 else fin 1.6) = fin (if bf then 1.5 else 1.6) := by cases bf <;> rfl
  have e4 : (if bf then 1.0 else fin 1.0) = fin (if bf then 1.0 else 1.0) := by cases bf <;> rfl
  have i1 : (0 : ℝ) < if bf then 1.65 else 1.75 := by split_ifs <;> norm_num
  have i3 : (0 : ℝ) < if bf then 1.5 else 1.6 := by split_ifs <;> norm_num
  have i4 : (0 : ℝ) < if bf then 1.0 else 1.0 := by split_ifs <;> norm_num
  obtain ⟨z, z0, f, hz, h0, hzz, he⟩ := RunupTaw2002.height_wide (db := -d) (gf := gf) (gB := gB)
    bf hH hT hcd hcu hf hf1 hB e1 e2 e3 e4 i1 (by split_ifs <;> norm_num) i3.le i4
    (by split_ifs <;> norm_num) hl (fun z hz => ⟨hcu.trans_le (hb z hz).1, (hb z hz).2.1⟩)
  obtain ⟨f', he'⟩ := RunupTaw2002.height_level (gf := gf) (gb := 1) (gB := gB) bf hH hT hcd e1 e2 e3 e4
  obtain ⟨f'', he''⟩ := RunupTaw2002.height_level (gf := gf) (gb := 1) (gB := gB) bf hH hT hcu e1 e2 e3 e4
  obtain ⟨hw', -⟩ := Prod.mk.inj (Except.ok.inj (he''.symm.trans reach))
  rw [fin_inj] at hw'
  have below : ∀ c, cu ≤ c → RunupTaw2002.level H T gf 1 gB (if bf then 1.65 else 1.75) (if bf then 4.0 else 4.3)
      (if bf then 1.5 else 1.6) (if bf then 1.0 else 1.0) c < d := by
    intro c hcc
    rcases hcc.eq_or_lt with h | h
    · rw [← h, hw']; exact hw
    · refine lt_trans (RunupTaw2002.level_lt hH hT hcu h hf hB i1 i3 i4 hs) ?_
      rw [hw']; exact hw
  have hzd : z < d := by rw [hzz]; exact below _ (hb z0 h0).1
  refine ⟨_, _, f, f', RunupTaw2002.level_lt hH hT hcd ((hb z hz).2.2 hzd) hf hB i1 i3 i4 ?_,
    below cd hc.le, he, he'⟩
  rw [← RangeProof.irib_eq] at hs ⊢
  exact hs.imp_right (irib_c hH hT hcu hc.le).trans_lt
end

/-! EurOtop (2018): the same iteration, obliqueness from the angle -/
section
variable (H T cd cu gf b c1 c2 c3 c4 : ℝ) (gB : PF) (bf : Bool) (hH : 0 < H) (hT : 0 < T) (hcd : 0 < cd) (hcu : 0 < cu)
  (hf : 0 < gf) (hf1 : gf ≤ 1) (h1 : 0 < c1) (h2 : 0 < c2) (h3 : 0 < c3) (h4 : 0 < c4) (h23 : 15 / 7 * c3 ≤ c2)
include hH hT hcd hcu hf hf1 h1 h2 h3 h4 h23

/-- slopes that meet at 1.5 Hm0 below the water line, by EurOtop (2018) -/
theorem C106_eurotop2018_runup_at_limit (hl : 0.5 ≤ Textbook.iribarren H T cu) :
    (RunupEurOtop2018.calculate_wave_runup_height_z2p (fin H) (fin T) (fin b) gB (gamma_f := fin gf)
        (db := fin (1.5 * H)) (cot_alpha_down := fin cd) (cot_alpha_up := fin cu)
        (c1 := fin c1) (c2 := fin c2) (c3 := fin c3) (c4 := fin c4) (use_best_fit := bf)).res =
    (RunupEurOtop2018.calculate_wave_runup_height_z2p (fin H) (fin T) (fin b) gB (fin 1) (fin gf)
        (cot_alpha := fin cu) (c1 := fin c1) (c2 := fin c2) (c3 := fin c3) (c4 := fin c4) (use_best_fit := bf)).res := by
  have ho := (C78_obliqueness_eurotop2018 b gf).1
  have hB : 0 < Published.obliqueness (if 0.6 < gf then 0.0022 else 0.0063) b := by
    unfold Published.obliqueness
    have m80 : min |b| 80 ≤ 80 := min_le_right _ _
    generalize min |b| 80 = m at *
    split_ifs <;> norm_num <;> linarith
  have hk : RunupEurOtop2018.check_best_fit (fin c1) (fin c2) (fin c3) (fin c4) bf =
      (fin (if bf then 1.65 else c1), fin (if bf then 4.0 else c2), fin (if bf then 1.5 else c3),
        fin (if bf then 1.0 else c4)) := by
    unfold RunupEurOtop2018.check_best_fit
    cases bf <;> rfl
  have k1 : (0 : ℝ) < if bf then 1.65 else c1 := by split_ifs; norm_num; exact h1
  have k2 : (0 : ℝ) < if bf then 4.0 else c2 := by split_ifs; norm_num; exact h2
  have k3 : (0 : ℝ) < if bf then 1.5 else c3 := by split_ifs; norm_num; exact h3
  have k4 : (0 : ℝ) < if bf then 1.0 else c4 := by split_ifs; norm_num; exact h4
  have k23 : 15 / 7 * (if bf then 1.5 else c3) ≤ (if bf then 4.0 else c2 : ℝ) := by
    split_ifs; norm_num; exact h23
  rw [RangeProof.irib_eq] at hl
  have ha : ∀ z, 0 < z → RunupTaw2002.avg H z cd cu (1.5 * H) = cu := by
    intro z hz
    rw [RunupTaw2002.avg_from_up (by positivity), sub_self, zero_mul, zero_div, add_zero]
  obtain ⟨z, z0, hz, -, -, he⟩ := RunupTaw2002.composite_wide (db := 1.5 * H) (gf := gf) (m := cu)
    (c1 := if bf then 1.65 else c1) (c2 := if bf then 4.0 else c2) (c3 := if bf then 1.5 else c3)
    (c4 := if bf then 1.0 else c4) false hH hT hcd hcu hf hf1 hB rfl rfl rfl rfl k1 k2 k3.le k4 k23 hl
    (fun z hz => by rw [ha z hz]; exact ⟨hcu, le_rfl⟩)
  rw [ha z hz] at he
  unfold RunupEurOtop2018.calculate_wave_runup_height_z2p
    RunupEurOtop2018.calculate_dimensionless_wave_runup_height_z2p
  dsimp only
  rw [ho, hk]
  exact PyM.bind_res_congr he _

/-- slopes that meet deeper than 1.5 Hm0, a steep lower slope, by EurOtop (2018) -/
theorem C106_eurotop2018_runup_deep_steep_below_refuted (db : ℝ) (hd : 1.5 * H < db) (hc : cd < cu)
    (hl : 0.5 ≤ Textbook.iribarren H T (cu + (db - 1.5 * H) * (cu - cd) / (1.5 * H)))
    (hs : gf = 1 ∨ Textbook.iribarren H T cu < 1.8) :
    ∃ (z z' : ℝ) (f f' : Bool), z < z' ∧
      (RunupEurOtop2018.calculate_wave_runup_height_z2p (fin H) (fin T) (fin b) gB (gamma_f := fin gf)
        (db := fin db) (cot_alpha_down := fin cd) (cot_alpha_up := fin cu) (c1 := fin c1) (c2 := fin c2)
        (c3 := fin c3) (c4 := fin c4) (use_best_fit := bf)).res = .ok (fin z, f) ∧
      (RunupEurOtop2018.calculate_wave_runup_height_z2p (fin H) (fin T) (fin b) gB (fin 1) (fin gf)
        (cot_alpha := fin cu) (c1 := fin c1) (c2 := fin c2) (c3 := fin c3) (c4 := fin c4)
        (use_best_fit := bf)).res = .ok (fin z', f') := by
  have ho := (C78_obliqueness_eurotop2018 b gf).1
  have hB : 0 < Published.obliqueness (if 0.6 < gf then 0.0022 else 0.0063) b := by
    unfold Published.obliqueness
    have m80 : min |b| 80 ≤ 80 := min_le_right _ _
    generalize min |b| 80 = m at *
    split_ifs <;> norm_num <;> linarith
  have hk : RunupEurOtop2018.check_best_fit (fin c1) (fin c2) (fin c3) (fin c4) bf =
      (fin (if bf then 1.65 else c1), fin (if bf then 4.0 else c2), fin (if bf then 1.5 else c3),
        fin (if bf then 1.0 else c4)) := by
    unfold RunupEurOtop2018.check_best_fit
    cases bf <;> rfl
  have k1 : (0 : ℝ) < if bf then 1.65 else c1 := by split_ifs; norm_num; exact h1
  have k2 : (0 : ℝ) < if bf then 4.0 else c2 := by split_ifs; norm_num; exact h2
  have k3 : (0 : ℝ) < if bf then 1.5 else c3 := by split_ifs; norm_num; exact h3
  have k4 : (0 : ℝ) < if bf then 1.0 else c4 := by split_ifs; norm_num; exact h4
  have k23 : 15 / 7 * (if bf then 1.5 else c3) ≤ (if bf then 4.0 else c2 : ℝ) := by
    split_ifs; norm_num; exact h23
  have hb := fun z (hz : 0 < z) => RunupTaw2002.avg_deep_gentle (z := z) hH hz hd hc
  rw [RangeProof.irib_eq] at hl hs
  obtain ⟨z, z0, f, hz, -, -, he⟩ := RunupTaw2002.height_wide (db := db) (gf := gf)
    (c1 := if bf then 1.65 else c1) (c2 := if bf then 4.0 else c2) (c3 := if bf then 1.5 else c3)
    (c4 := if bf then 1.0 else c4) false hH hT hcd hcu hf hf1 hB rfl rfl rfl rfl k1 k2 k3.le k4 k23 hl
    (fun z hz => ⟨hcu.trans (hb z hz).1, (hb z hz).2⟩)
  obtain ⟨f', he'⟩ := RunupTaw2002.height_level (gf := gf) (gb := 1)
    (gB := Published.obliqueness (if 0.6 < gf then 0.0022 else 0.0063) b) (c1 := if bf then 1.65 else c1)
    (c2 := if bf then 4.0 else c2) (c3 := if bf then 1.5 else c3) (c4 := if bf then 1.0 else c4) false hH hT hcu
    rfl rfl rfl rfl
  refine ⟨_, _, f, f', RunupTaw2002.level_lt (k2 := if bf then 4.0 else c2) hH hT hcu (hb z hz).1 hf hB k1 k3 k4 hs, ?_, ?_⟩
  · rw [← he]
    unfold RunupEurOtop2018.calculate_wave_runup_height_z2p
      RunupEurOtop2018.calculate_dimensionless_wave_runup_height_z2p
    dsimp only
    rw [ho, hk]
    rfl
  · rw [← he']
    unfold RunupEurOtop2018.calculate_wave_runup_height_z2p
      RunupEurOtop2018.calculate_dimensionless_wave_runup_height_z2p
    dsimp only
    rw [ho, hk]
    rfl
end

/-! ## Cases -/

namespace OutsideCase
open CompositeCase
theorem flat {c : ℝ} (h0 : 0 < c) (h : c ≤ 4) : 0.5 ≤ Textbook.iribarren 2 6 c := by
  have := CompositeCase.flat
  rw [max_eq_right (by norm_num)] at this
  exact this.trans (irib_c (by norm_num) (by norm_num) h0 h)
end OutsideCase
open OutsideCase

example := C106_taw_runup_at_limit 2 6 3 4 0.6 0.9 (by norm_num) (by norm_num) (by norm_num) (by norm_num)
  (by norm_num) (by norm_num) (by norm_num) true (flat (by norm_num) (by norm_num))
example := C106_taw_runup_deep_gentle_below_refuted 2 6 4 3 1 0.9 (by norm_num) (by norm_num) (by norm_num)
  (by norm_num) (by norm_num) (by norm_num) (by norm_num) false 4 (by norm_num) (by norm_num) (by norm_num)
  (flat (by norm_num) (by norm_num)) (Or.inl rfl)
example := C106_taw_runup_deep_steep_below_refuted 2 6 3 3.5 1 0.9 (by norm_num) (by norm_num) (by norm_num)
  (by norm_num) (by norm_num) (by norm_num) (by norm_num) false 4 (by norm_num) (by norm_num)
  (flat (by norm_num) (by norm_num)) (Or.inl rfl)

/-- run-up on a smooth slope under waves of 2 m stays below 10 m -/
theorem OutsideCase.below {c : ℝ} (hc : 0 < c) : ∃ (w : ℝ) (f : Bool), w < 10 ∧
    (RunupTaw2002.calculate_wave_runup_height_z2p
      { Hm0 := fin 2, Tmm10 := fin 6, cot_alpha := fin c, gamma_f := fin 1, gamma_b := fin 1,
        gamma_beta := fin 0.9, use_best_fit := false }).res = .ok (fin w, f) := by
  obtain ⟨f, h⟩ := RunupTaw2002.height_level (H := 2) (T := 6) (gf := 1) (gb := 1) (gB := 0.9) (c1 := 1.75) (c2 := 4.3)
    (c3 := 1.6) (c4 := 1.0) false (by norm_num) (by norm_num) hc rfl rfl rfl rfl
  refine ⟨_, f, ?_, h⟩
  have hx := VdMProof.xi_pos (H := 2) (T := 6) (by norm_num) (by norm_num) hc
  have hr : RunupTaw2002.rough 1 1 (VdMProof.xi 2 6 c) = 1 := by
    unfold RunupTaw2002.rough; split_ifs <;> norm_num
  have hq : 0 ≤ 1.6 / √(VdMProof.xi 2 6 c) := by positivity
  unfold RunupTaw2002.level
  have : RunupTaw2002.rb 4.3 1.6 1.0 1 1 0.9 (VdMProof.xi 2 6 c) < 5 := by
    unfold RunupTaw2002.rb
    rw [hr]
    norm_num at hq ⊢
    linarith
  have := (min_le_right (RunupTaw2002.ra 1.75 1 1 0.9 (VdMProof.xi 2 6 c)) _).trans_lt this
  linarith

example :=
  let h := OutsideCase.below (c := 3 - 10 * (3.5 - 3) / (1.5 * 2)) (by norm_num)
  C106_taw_runup_high_gentle_above_refuted 2 6 3 3.5 1 0.9 (by norm_num) (by norm_num) (by norm_num)
    (by norm_num) (by norm_num) (by norm_num) (by norm_num) false 10 h.choose h.choose_spec.choose (by norm_num)
    (by norm_num) (by norm_num) (flat (by norm_num) (by norm_num)) (Or.inl rfl) h.choose_spec.choose_spec.1
    h.choose_spec.choose_spec.2
example :=
  let h := OutsideCase.below (c := 3) (by norm_num)
  C106_taw_runup_high_steep_above_refuted 2 6 3.2 3 1 0.9 (by norm_num) (by norm_num) (by norm_num)
    (by norm_num) (by norm_num) (by norm_num) (by norm_num) false 10 h.choose h.choose_spec.choose (by norm_num)
    (by norm_num) (flat (by norm_num) (by norm_num)) (Or.inl rfl) h.choose_spec.choose_spec.1
    h.choose_spec.choose_spec.2
example := C106_eurotop2018_runup_at_limit 2 6 3 4 0.6 20 1.75 4.3 1.5 1.07 nan false (by norm_num) (by norm_num)
  (by norm_num) (by norm_num) (by norm_num) (by norm_num) (by norm_num) (by norm_num) (by norm_num) (by norm_num)
  (by norm_num) (flat (by norm_num) (by norm_num))
example := C106_eurotop2018_runup_deep_steep_below_refuted 2 6 3 3.5 1 20 1.75 4.3 1.5 1.07 nan true (by norm_num)
  (by norm_num) (by norm_num) (by norm_num) (by norm_num) (by norm_num) (by norm_num) (by norm_num) (by norm_num)
  (by norm_num) (by norm_num) 4 (by norm_num) (by norm_num) (flat (by norm_num) (by norm_num)) (Or.inl rfl)
end
