import Verif.Lemmas.BermReach
import Verif.Props.CompositeOutside

/-!
# C107: a berm that the waves do not reach changes nothing; C100: a berm never does harm (TAW 2002, EurOtop 2018)

A berm in a straight slope, at any level. The berm factor is computed from the geometry; for berms above the water line
it depends on the run-up level, which depends on the berm factor.
-/

open Classical
open PF
open CorePhysics CoreUtility WorseProof
noncomputable section

section
variable (H T c gf gB B db : ℝ) (hH : 0 < H) (hT : 0 < T) (hc : 0 < c) (hf : 0 < gf) (hf1 : gf ≤ 1)
  (hB : 0 < gB) (hB0 : 0 ≤ B) (hl : 0.5 ≤ Textbook.iribarren H T c) (bf : Bool)
include hH hT hc hf hf1 hB hB0 hl

/-- C107 for run-up by TAW (2002): berms deeper than 2 Hm0, or at or above the run-up level without a berm -/
theorem C107_taw_runup (z : ℝ) (f : Bool)
    (free : (RunupTaw2002.calculate_wave_runup_height_z2p
      { Hm0 := fin H, Tmm10 := fin T, cot_alpha_down := fin c, cot_alpha_up := fin c, gamma_f := fin gf,
        gamma_beta := fin gB, use_best_fit := bf }).res = .ok (fin z, f))
    (out : 2 * H ≤ db ∨ z ≤ -db) :
    (RunupTaw2002.calculate_wave_runup_height_z2p
      { Hm0 := fin H, Tmm10 := fin T, cot_alpha_down := fin c, cot_alpha_up := fin c, gamma_f := fin gf,
        gamma_beta := fin gB, B_berm := fin B, db := fin db, use_best_fit := bf }).res = .ok (fin z, f) := by
  have e1 : (if bf then 1.65 else fin 1.75) = fin (if bf then 1.65 else 1.75) := by cases bf <;> rfl
  have e2 : (if bf then 4.0 else fin 4.3) = fin (if bf then 4.0 else 4.3) := by cases bf <;> rfl
  have e3 : (if bf then 1.5 else fin 1.6) = fin (if bf then 1.5 else 1.6) := by cases bf <;> rfl
  have e4 : (if bf then 1.0 else fin 1.0) = fin (if bf then 1.0 else 1.0) := by cases bf <;> rfl
  rw [RangeProof.irib_eq] at hl
  have S := fun B (hB0 : 0 ≤ B) db => RunupTaw2002.straight_berm (c1 := 1.75) (c2 := 4.3) (c3 := 1.6) (c4 := 1.0)
    (B := B) (db := db) (gf := gf) (gB := gB) bf hH hT hf hf1 hB (by split_ifs <;> norm_num) (by split_ifs <;> norm_num)
    (by split_ifs <;> norm_num) (by split_ifs <;> norm_num) (by split_ifs <;> norm_num) hl e1 e2 e3 e4 hc le_rfl hB0
  have q0 : (0.0 : PF) = fin 0 := by rw [sci_eq]; norm_num
  obtain ⟨g0, -, -, h0, -, r0⟩ := S 0 le_rfl 0
  obtain ⟨g, -, -, -, h1, r⟩ := S B hB0 db
  rw [h0 rfl, ← q0] at r0
  obtain ⟨f', hz⟩ := RunupTaw2002.height_level (gf := gf) (gb := 1) (gB := gB) bf hH hT hc e1 e2 e3 e4
  have r0' : (RunupTaw2002.calculate_wave_runup_height_z2p
      { Hm0 := fin H, Tmm10 := fin T, cot_alpha_down := fin c, cot_alpha_up := fin c, gamma_f := fin gf,
        gamma_beta := fin gB, use_best_fit := bf }).res =
      (RunupTaw2002.calculate_wave_runup_height_z2p
        { Hm0 := fin H, Tmm10 := fin T, cot_alpha := fin c, gamma_b := fin 1, gamma_f := fin gf,
          gamma_beta := fin gB, use_best_fit := bf }).res := by
    unfold RunupTaw2002.calculate_wave_runup_height_z2p RunupTaw2002.height_of
    exact PyM.bind_res_congr r0 _
  obtain ⟨hz', hf'⟩ := Prod.mk.inj (Except.ok.inj ((r0'.trans hz).symm.trans free))
  rw [fin_inj] at hz'
  rw [hz'] at h1
  rw [h1 out] at r
  rw [← free, r0']
  unfold RunupTaw2002.calculate_wave_runup_height_z2p RunupTaw2002.height_of
  exact PyM.bind_res_congr r _

/-- C107 for overtopping by TAW (2002) -/
theorem C107_taw_overtopping (z gv R s g : ℝ) (f : Bool) (beta : PF) (hv : 0 < gv) (hs : s = 0 ∨ bf = true)
    (free : (RunupTaw2002.calculate_wave_runup_height_z2p
      { Hm0 := fin H, Tmm10 := fin T, cot_alpha := fin c, gamma_f := fin gf, gamma_b := fin 1,
        gamma_beta := fin gB }).res = .ok (fin z, f))
    (out : 2 * H ≤ db ∨ z ≤ -db) :
    (OvertoppingTaw2002.calculate_overtopping_discharge_q (fin H) (fin T) (fin R) (fin c) nan nan beta
        (fin B) (fin db) (fin gB) nan (fin gf) (fin gv) (fin s) (fin g) bf).res =
    (OvertoppingTaw2002.calculate_overtopping_discharge_q (fin H) (fin T) (fin R) (fin c) nan nan beta
        (gamma_beta := fin gB) (gamma_f := fin gf) (gamma_v := fin gv) (sigma := fin s) (g := fin g)
        (use_best_fit := bf)).res := by
  rw [RangeProof.irib_eq] at hl
  obtain ⟨f', hz⟩ := RunupTaw2002.height_level (gf := gf) (gb := 1) (gB := gB) (c1 := 1.75) (c2 := 4.3) (c3 := 1.6)
    (c4 := 1.0) false hH hT hc rfl rfl rfl rfl
  obtain ⟨hz', hf'⟩ := Prod.mk.inj (Except.ok.inj (hz.symm.trans free))
  rw [fin_inj] at hz'
  have q0 : (0.0 : PF) = fin 0 := by rw [sci_eq]; norm_num
  obtain ⟨g0, -, -, h0, -, r0⟩ := OvertoppingTaw2002.pre_straight_berm (B := 0) (db := 0) beta hH hT hc hf hf1 hB
    le_rfl hl
  obtain ⟨g1, -, -, -, h1, r1⟩ := OvertoppingTaw2002.pre_straight_berm (B := B) (db := db) beta hH hT hc hf hf1 hB
    hB0 hl
  rw [h0 rfl] at r0
  rw [hz'] at h1
  rw [h1 out] at r1
  unfold OvertoppingTaw2002.calculate_overtopping_discharge_q
  refine PyM.bind_res_congr ?_ _
  rw [q0, OvertoppingTaw2002.q_res hH hT hs hf hf1 hv hB hc one_pos le_rfl r1,
    OvertoppingTaw2002.q_res hH hT hs hf hf1 hv hB hc one_pos le_rfl r0]

/-- C100 (missing: rough slopes with Iribarren numbers from 1.8 on, where the roughness correction jumps, see C80):
a berm of any width at any level gives no more run-up than the same slope without a berm, TAW (2002) -/
theorem C100_taw_runup_any_berm_partial (hf2 : 0.18 ≤ gf) (hr : gf = 1 ∨ Textbook.iribarren H T c < 1.8) :
    ∃ (z z' : ℝ) (f f' : Bool), 0 < z ∧ z ≤ z' ∧
    (RunupTaw2002.calculate_wave_runup_height_z2p
      { Hm0 := fin H, Tmm10 := fin T, cot_alpha_down := fin c, cot_alpha_up := fin c, gamma_f := fin gf,
        gamma_beta := fin gB, B_berm := fin B, db := fin db, use_best_fit := bf }).res = .ok (fin z, f) ∧
    (RunupTaw2002.calculate_wave_runup_height_z2p
      { Hm0 := fin H, Tmm10 := fin T, cot_alpha_down := fin c, cot_alpha_up := fin c, gamma_f := fin gf,
        gamma_beta := fin gB, use_best_fit := bf }).res = .ok (fin z', f') := by
  have e1 : (if bf then 1.65 else fin 1.75) = fin (if bf then 1.65 else 1.75) := by cases bf <;> rfl
  have e2 : (if bf then 4.0 else fin 4.3) = fin (if bf then 4.0 else 4.3) := by cases bf <;> rfl
  have e3 : (if bf then 1.5 else fin 1.6) = fin (if bf then 1.5 else 1.6) := by cases bf <;> rfl
  have e4 : (if bf then 1.0 else fin 1.0) = fin (if bf then 1.0 else 1.0) := by cases bf <;> rfl
  have hl0 := hl
  rw [RangeProof.irib_eq] at hl
  have S := fun B (hB0 : 0 ≤ B) db => RunupTaw2002.straight_berm (c1 := 1.75) (c2 := 4.3) (c3 := 1.6) (c4 := 1.0)
    (B := B) (db := db) (gf := gf) (gB := gB) bf hH hT hf hf1 hB (by split_ifs <;> norm_num) (by split_ifs <;> norm_num)
    (by split_ifs <;> norm_num) (by split_ifs <;> norm_num) (by split_ifs <;> norm_num) hl e1 e2 e3 e4 hc le_rfl hB0
  have q0 : (0.0 : PF) = fin 0 := by rw [sci_eq]; norm_num
  obtain ⟨g0, -, -, h0, -, r0⟩ := S 0 le_rfl 0
  obtain ⟨g, u, v, -, -, r⟩ := S B hB0 db
  rw [h0 rfl, ← q0] at r0
  have g00 : 0 < g := lt_of_lt_of_le (by norm_num) u
  have hx := (irib_sq hH hT hc).1
  obtain ⟨z, z', f, f', hz, hzz, a, b⟩ := C80_taw_runup_berm_partial H H T T c c gf gf gB gB g 1 hH le_rfl hT le_rfl hc
    le_rfl hf2 le_rfl hf1 hB le_rfl g00 v (hr.imp_right fun h => Or.inl (by nlinarith))
    (hr.imp_right fun h => Or.inl (by rwa [one_mul])) bf hl0 hl0
  refine ⟨z, z', f, f', hz, hzz, ?_, ?_⟩
  · rw [← a]
    unfold RunupTaw2002.calculate_wave_runup_height_z2p RunupTaw2002.height_of
    exact PyM.bind_res_congr r _
  · rw [← b]
    unfold RunupTaw2002.calculate_wave_runup_height_z2p RunupTaw2002.height_of
    exact PyM.bind_res_congr r0 _

/-- C100 (missing: as for run-up): a berm of any width at any level gives no more overtopping, TAW (2002) -/
theorem C100_taw_overtopping_any_berm_partial (hf2 : 0.18 ≤ gf) (hr : gf = 1 ∨ Textbook.iribarren H T c < 1.8)
    (gv R s g : ℝ) (beta : PF) (hv : 0 < gv) (hR : 0 ≤ R) (hs : s = 0 ∨ bf = true) (hs7 : -7 ≤ s) (hg : 0 < g) :
    ∃ (q q' : ℝ) (f f' : Bool), 0 < q ∧ q ≤ q' ∧
      (OvertoppingTaw2002.calculate_overtopping_discharge_q (fin H) (fin T) (fin R) (fin c) nan nan beta
        (fin B) (fin db) (fin gB) nan (fin gf) (fin gv) (fin s) (fin g) bf).res = .ok (fin q, f) ∧
      (OvertoppingTaw2002.calculate_overtopping_discharge_q (fin H) (fin T) (fin R) (fin c) nan nan beta
        (gamma_beta := fin gB) (gamma_f := fin gf) (gamma_v := fin gv) (sigma := fin s) (g := fin g)
        (use_best_fit := bf)).res = .ok (fin q', f') := by
  have hl0 := hl
  rw [RangeProof.irib_eq] at hl
  have q0 : (0.0 : PF) = fin 0 := by rw [sci_eq]; norm_num
  obtain ⟨g0, -, -, h0, -, r0⟩ := OvertoppingTaw2002.pre_straight_berm (B := 0) (db := 0) beta hH hT hc hf hf1 hB
    le_rfl hl
  obtain ⟨g1, u, v, -, -, r1⟩ := OvertoppingTaw2002.pre_straight_berm (B := B) (db := db) beta hH hT hc hf hf1 hB
    hB0 hl
  rw [h0 rfl] at r0
  have g00 : 0 < g1 := lt_of_lt_of_le (by norm_num) u
  have hx := (irib_sq hH hT hc).1
  obtain ⟨q, q', f, f', p, h, e, e'⟩ := C80_taw_overtopping_berm_partial H H T T c c gf gf gB gB g1 1 hH
    le_rfl hT le_rfl hc le_rfl hf2 le_rfl hf1 hB le_rfl g00 v le_rfl (hr.imp_right fun h => Or.inl (by nlinarith))
    (hr.imp_right fun h => Or.inl (by rwa [one_mul])) gv gv R R s g beta (fin B) (fin db) bf
    hv le_rfl hR le_rfl hs hs7 hg
  refine ⟨q, q', f, f', p, h, ?_, ?_⟩
  · rw [← e]
    unfold OvertoppingTaw2002.calculate_overtopping_discharge_q
    refine PyM.bind_res_congr ?_ _
    rw [OvertoppingTaw2002.q_res hH hT hs hf hf1 hv hB hc g00 v r1,
      OvertoppingTaw2002.q_res hH hT hs hf hf1 hv hB hc g00 v
        (OvertoppingTaw2002.pre_given H T c gf gB g1 beta (fin B) (fin db))]
  · rw [← e']
    unfold OvertoppingTaw2002.calculate_overtopping_discharge_q
    refine PyM.bind_res_congr ?_ _
    rw [q0, OvertoppingTaw2002.q_res hH hT hs hf hf1 hv hB hc one_pos le_rfl r0,
      OvertoppingTaw2002.q_res hH hT hs hf hf1 hv hB hc one_pos le_rfl
        (OvertoppingTaw2002.pre_given H T c gf gB 1 beta (fin B) (fin db))]
end

/-! EurOtop (2018), run-up: obliqueness from the angle -/
section
variable (H T c gf b B db c1 c2 c3 c4 : ℝ) (gB : PF) (bf : Bool) (hH : 0 < H) (hT : 0 < T) (hc : 0 < c)
  (hf : 0 < gf) (hf1 : gf ≤ 1) (hB0 : 0 ≤ B) (hl : 0.5 ≤ Textbook.iribarren H T c)
  (h1 : 0 < c1) (h2 : 0 < c2) (h3 : 0 ≤ c3) (h4 : 0 < c4) (h23 : 15 / 7 * c3 ≤ c2)
include hH hT hc hf hf1 hB0 hl h1 h2 h3 h4 h23

/-- C107 for run-up by EurOtop (2018) -/
theorem C107_eurotop2018_runup (z : ℝ) (f : Bool)
    (free : (RunupEurOtop2018.calculate_wave_runup_height_z2p (fin H) (fin T) (fin b) gB (gamma_f := fin gf)
        (cot_alpha_down := fin c) (cot_alpha_up := fin c) (c1 := fin c1) (c2 := fin c2) (c3 := fin c3)
        (c4 := fin c4) (use_best_fit := bf)).res = .ok (fin z, f))
    (out : 2 * H ≤ db ∨ z ≤ -db) :
    (RunupEurOtop2018.calculate_wave_runup_height_z2p (fin H) (fin T) (fin b) gB (gamma_f := fin gf)
        (B_berm := fin B) (db := fin db) (cot_alpha_down := fin c) (cot_alpha_up := fin c) (c1 := fin c1)
        (c2 := fin c2) (c3 := fin c3) (c4 := fin c4) (use_best_fit := bf)).res = .ok (fin z, f) := by
  have ho := (C78_obliqueness_eurotop2018 b gf).1
  have hB : 0 < Published.obliqueness (if 0.6 < gf then 0.0022 else 0.0063) b := by
    unfold Published.obliqueness
    have m80 : min |b| 80 ≤ 80 := min_le_right _ _
    generalize min |b| 80 = m at *
    split_ifs <;> norm_num <;> linarith
  have hk : RunupEurOtop2018.check_best_fit (fin c1) (fin c2) (fin c3) (fin c4) bf =
      (fin (if bf then 1.65 else c1), fin (if bf then 4.0 else c2), fin (if bf then 1.5 else c3),
        fin (if bf then 1.0 else c4)) := by
    unfold RunupEurOtop2018.check_best_fit
    cases bf <;> rfl
  have k1 : (0 : ℝ) < if bf then 1.65 else c1 := by split_ifs; norm_num; exact h1
  have k2 : (0 : ℝ) < if bf then 4.0 else c2 := by split_ifs; norm_num; exact h2
  have k3 : (0 : ℝ) ≤ if bf then 1.5 else c3 := by split_ifs; norm_num; exact h3
  have k4 : (0 : ℝ) < if bf then 1.0 else c4 := by split_ifs; norm_num; exact h4
  have k23 : 15 / 7 * (if bf then 1.5 else c3) ≤ (if bf then 4.0 else c2 : ℝ) := by
    split_ifs; norm_num; exact h23
  rw [RangeProof.irib_eq] at hl
  have S := fun B (hB0 : 0 ≤ B) db => RunupTaw2002.straight_berm (B := B) (db := db) (gf := gf)
    (c1 := if bf then 1.65 else c1) (c2 := if bf then 4.0 else c2) (c3 := if bf then 1.5 else c3)
    (c4 := if bf then 1.0 else c4) false hH hT hf hf1 hB k1 k2 k3 k4 k23 hl rfl rfl rfl rfl hc le_rfl hB0
  have q0 : (0.0 : PF) = fin 0 := by rw [sci_eq]; norm_num
  obtain ⟨g0, -, -, h0, -, r0⟩ := S 0 le_rfl 0
  obtain ⟨g, -, -, -, g1, r⟩ := S B hB0 db
  rw [h0 rfl, ← q0] at r0
  obtain ⟨f', hz⟩ := RunupTaw2002.height_level (gf := gf) (gb := 1)
    (gB := Published.obliqueness (if 0.6 < gf then 0.0022 else 0.0063) b) (c1 := if bf then 1.65 else c1)
    (c2 := if bf then 4.0 else c2) (c3 := if bf then 1.5 else c3) (c4 := if bf then 1.0 else c4) false hH hT hc
    rfl rfl rfl rfl
  have r0' : (RunupEurOtop2018.calculate_wave_runup_height_z2p (fin H) (fin T) (fin b) gB (gamma_f := fin gf)
        (cot_alpha_down := fin c) (cot_alpha_up := fin c) (c1 := fin c1) (c2 := fin c2) (c3 := fin c3)
        (c4 := fin c4) (use_best_fit := bf)).res =
      (RunupTaw2002.calculate_wave_runup_height_z2p
        { Hm0 := fin H, Tmm10 := fin T, cot_alpha := fin c, gamma_b := fin 1, gamma_f := fin gf,
          gamma_beta := fin (Published.obliqueness (if 0.6 < gf then 0.0022 else 0.0063) b),
          c1 := fin (if bf then 1.65 else c1), c2 := fin (if bf then 4.0 else c2),
          c3 := fin (if bf then 1.5 else c3), c4 := fin (if bf then 1.0 else c4) }).res := by
    unfold RunupEurOtop2018.calculate_wave_runup_height_z2p
      RunupEurOtop2018.calculate_dimensionless_wave_runup_height_z2p
    dsimp only
    rw [ho, hk]
    exact PyM.bind_res_congr r0 _
  obtain ⟨hz', hf'⟩ := Prod.mk.inj (Except.ok.inj ((r0'.trans hz).symm.trans free))
  rw [fin_inj] at hz'
  rw [hz'] at g1
  rw [g1 out] at r
  rw [← free, r0']
  unfold RunupEurOtop2018.calculate_wave_runup_height_z2p
    RunupEurOtop2018.calculate_dimensionless_wave_runup_height_z2p
  dsimp only
  rw [ho, hk]
  exact PyM.bind_res_congr r _

/-- C100 (missing: as for TAW (2002)): a berm of any width at any level gives no more run-up, EurOtop (2018) -/
theorem C100_eurotop2018_runup_any_berm_partial (hf2 : 0.18 ≤ gf) (hr : gf = 1 ∨ Textbook.iribarren H T c < 1.8) :
    ∃ (z z' : ℝ) (f f' : Bool), 0 < z ∧ z ≤ z' ∧
    (RunupEurOtop2018.calculate_wave_runup_height_z2p (fin H) (fin T) (fin b) gB (gamma_f := fin gf)
        (B_berm := fin B) (db := fin db) (cot_alpha_down := fin c) (cot_alpha_up := fin c) (c1 := fin c1)
        (c2 := fin c2) (c3 := fin c3) (c4 := fin c4) (use_best_fit := bf)).res = .ok (fin z, f) ∧
    (RunupEurOtop2018.calculate_wave_runup_height_z2p (fin H) (fin T) (fin b) gB (gamma_f := fin gf)
        (cot_alpha_down := fin c) (cot_alpha_up := fin c) (c1 := fin c1) (c2 := fin c2) (c3 := fin c3)
        (c4 := fin c4) (use_best_fit := bf)).res = .ok (fin z', f') := by
  have ho := (C78_obliqueness_eurotop2018 b gf).1
  have hB : 0 < Published.obliqueness (if 0.6 < gf then 0.0022 else 0.0063) b := by
    unfold Published.obliqueness
    have m80 : min |b| 80 ≤ 80 := min_le_right _ _
    generalize min |b| 80 = m at *
    split_ifs <;> norm_num <;> linarith
  have hk : RunupEurOtop2018.check_best_fit (fin c1) (fin c2) (fin c3) (fin c4) bf =
      (fin (if bf then 1.65 else c1), fin (if bf then 4.0 else c2), fin (if bf then 1.5 else c3),
        fin (if bf then 1.0 else c4)) := by
    unfold RunupEurOtop2018.check_best_fit
    cases bf <;> rfl
  have k1 : (0 : ℝ) < if bf then 1.65 else c1 := by split_ifs; norm_num; exact h1
  have k2 : (0 : ℝ) < if bf then 4.0 else c2 := by split_ifs; norm_num; exact h2
  have k3 : (0 : ℝ) ≤ if bf then 1.5 else c3 := by split_ifs; norm_num; exact h3
  have k4 : (0 : ℝ) < if bf then 1.0 else c4 := by split_ifs; norm_num; exact h4
  have k23 : 15 / 7 * (if bf then 1.5 else c3) ≤ (if bf then 4.0 else c2 : ℝ) := by
    split_ifs; norm_num; exact h23
  have hl0 := hl
  rw [RangeProof.irib_eq] at hl
  have S := fun B (hB0 : 0 ≤ B) db => RunupTaw2002.straight_berm (B := B) (db := db) (gf := gf)
    (c1 := if bf then 1.65 else c1) (c2 := if bf then 4.0 else c2) (c3 := if bf then 1.5 else c3)
    (c4 := if bf then 1.0 else c4) false hH hT hf hf1 hB k1 k2 k3 k4 k23 hl rfl rfl rfl rfl hc le_rfl hB0
  have q0 : (0.0 : PF) = fin 0 := by rw [sci_eq]; norm_num
  obtain ⟨g0, -, -, h0, -, r0⟩ := S 0 le_rfl 0
  obtain ⟨g, u, v, -, -, r⟩ := S B hB0 db
  rw [h0 rfl, ← q0] at r0
  have g00 : 0 < g := lt_of_lt_of_le (by norm_num) u
  have hx := (irib_sq hH hT hc).1
  obtain ⟨z, z', f, f', hz, hzz, a, d⟩ := C80_eurotop2018_runup_berm_partial H H T T c c gf gf g 1 b b c1 c2 c3 c4 gB bf
    hH le_rfl hT le_rfl hc le_rfl hf2 le_rfl hf1 g00 v le_rfl (hr.imp_right fun h => Or.inl (by nlinarith))
    (hr.imp_right fun h => Or.inl (by rwa [one_mul])) hl0 hl0 h1 h2 h3 h4 h23
  refine ⟨z, z', f, f', hz, hzz, ?_, ?_⟩
  · rw [← a]
    unfold RunupEurOtop2018.calculate_wave_runup_height_z2p
      RunupEurOtop2018.calculate_dimensionless_wave_runup_height_z2p
    dsimp only
    rw [ho, hk]
    exact PyM.bind_res_congr r _
  · rw [← d]
    unfold RunupEurOtop2018.calculate_wave_runup_height_z2p
      RunupEurOtop2018.calculate_dimensionless_wave_runup_height_z2p
    dsimp only
    rw [ho, hk]
    exact PyM.bind_res_congr r0 _
end

/-! ## Cases -/
open OutsideCase

example := C100_taw_runup_any_berm_partial 2 6 3 1 0.9 5 (-2) (by norm_num) (by norm_num) (by norm_num) (by norm_num)
  (by norm_num) (by norm_num) (by norm_num) (flat (by norm_num) (by norm_num)) true (by norm_num) (Or.inl rfl)
example := C100_taw_overtopping_any_berm_partial 2 6 3 1 0.9 5 (-2) (by norm_num) (by norm_num) (by norm_num)
  (by norm_num) (by norm_num) (by norm_num) (by norm_num) (flat (by norm_num) (by norm_num)) false (by norm_num)
  (Or.inl rfl) 0.8 3 0 9.81 nan (by norm_num) (by norm_num) (Or.inl rfl) (by norm_num) (by norm_num)
example := C100_eurotop2018_runup_any_berm_partial 2 6 3 1 20 5 (-2) 1.75 4.3 1.5 1.07 nan false (by norm_num)
  (by norm_num) (by norm_num) (by norm_num) (by norm_num) (by norm_num) (flat (by norm_num) (by norm_num))
  (by norm_num) (by norm_num) (by norm_num) (by norm_num) (by norm_num) (by norm_num) (Or.inl rfl)
/-- a berm 5 m below the water line -/
example : ∃ (z : ℝ) (f : Bool), (RunupTaw2002.calculate_wave_runup_height_z2p
      { Hm0 := fin 2, Tmm10 := fin 6, cot_alpha_down := fin 3, cot_alpha_up := fin 3, gamma_f := fin 1,
        gamma_beta := fin 0.9, B_berm := fin 5, db := fin 5, use_best_fit := true }).res = .ok (fin z, f) := by
  obtain ⟨-, z, -, f, -, -, -, h⟩ := C100_taw_runup_any_berm_partial 2 6 3 1 0.9 5 5 (by norm_num) (by norm_num)
    (by norm_num) (by norm_num) (by norm_num) (by norm_num) (by norm_num) (flat (by norm_num) (by norm_num)) true
    (by norm_num) (Or.inl rfl)
  exact ⟨z, f, C107_taw_runup 2 6 3 1 0.9 5 5 (by norm_num) (by norm_num) (by norm_num) (by norm_num) (by norm_num)
    (by norm_num) (by norm_num) (flat (by norm_num) (by norm_num)) true z f h (Or.inl (by norm_num))⟩
/-- a berm 10 m above the water line, out of reach of waves of 2 m -/
example :=
  let h := OutsideCase.below (c := 3) (by norm_num)
  C107_taw_overtopping 2 6 3 1 0.9 5 (-10) (by norm_num) (by norm_num) (by norm_num) (by norm_num) (by norm_num)
    (by norm_num) (by norm_num) (flat (by norm_num) (by norm_num)) true h.choose 0.8 3 0 9.81 h.choose_spec.choose nan
    (by norm_num) (Or.inl rfl) h.choose_spec.choose_spec.2 (Or.inr (by linarith [h.choose_spec.choose_spec.1]))
example : ∃ (z : ℝ) (f : Bool), (RunupEurOtop2018.calculate_wave_runup_height_z2p (fin 2) (fin 6) (fin 20) nan
    (gamma_f := fin 1) (B_berm := fin 5) (db := fin 5) (cot_alpha_down := fin 3) (cot_alpha_up := fin 3)
    (c1 := fin 1.75) (c2 := fin 4.3) (c3 := fin 1.5) (c4 := fin 1.07) (use_best_fit := false)).res =
      .ok (fin z, f) := by
  obtain ⟨-, z, -, f, -, -, -, h⟩ := C100_eurotop2018_runup_any_berm_partial 2 6 3 1 20 5 5 1.75 4.3 1.5 1.07 nan false
    (by norm_num) (by norm_num) (by norm_num) (by norm_num) (by norm_num) (by norm_num)
    (flat (by norm_num) (by norm_num)) (by norm_num) (by norm_num) (by norm_num) (by norm_num) (by norm_num)
    (by norm_num) (Or.inl rfl)
  exact ⟨z, f, C107_eurotop2018_runup 2 6 3 1 20 5 5 1.75 4.3 1.5 1.07 nan false (by norm_num) (by norm_num)
    (by norm_num) (by norm_num) (by norm_num) (by norm_num) (flat (by norm_num) (by norm_num)) (by norm_num)
    (by norm_num) (by norm_num) (by norm_num) (by norm_num) z f h (Or.inl (by norm_num))⟩
end
