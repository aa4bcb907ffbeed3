import Mathlib.Analysis.Real.Pi.Bounds
import Verif.Lemmas.Worse
import Verif.Props.FormulasOvertopping
import Verif.Props.FormulasOvertoppingMore

/-!
# C80: worse conditions never give less run-up or overtopping

Worse: higher waves, longer waves, a steeper slope, a smoother slope, less reduction by obliqueness or by a
wall, a lower crest.
-/

open Classical
open PF
open CorePhysics CoreUtility WorseProof
noncomputable section

namespace WorseProof
theorem alt {gf x : ℝ} (h : gf = 1 ∨ x ≤ 10) : gf = 1 ∨ 1 * x < 1.8 ∨ ((1 : ℝ) = 1 ∧ x ≤ 10) :=
  h.imp_right fun h => Or.inr ⟨rfl, h⟩
end WorseProof

section
variable (H H' T T' c c' gf gf' gB gB' : ℝ) (hH : 0 < H) (hHH : H ≤ H') (hT : 0 < T) (hTT : T ≤ T')
  (hc' : 0 < c') (hcc : c' ≤ c) (hf : 0.18 ≤ gf) (hff : gf ≤ gf') (hf1 : gf' ≤ 1) (hB : 0 < gB)
  (hBB : gB ≤ gB')
  (hr : gf = 1 ∨ Textbook.iribarren H T c ≤ 10) (hr' : gf' = 1 ∨ Textbook.iribarren H' T' c' ≤ 10)
include hH hHH hT hTT hc' hcc hf hff hf1 hB hBB hr hr'

/-- C80 (missing: berms, and rough slopes with Iribarren numbers above 10, where it is false, see
`C80_longer_waves_refuted`): overtopping by TAW (2002) -/
theorem C80_taw_overtopping_partial (gv gv' R R' s g : ℝ) (beta B db : PF) (bf : Bool) (hv : 0 < gv)
    (hvv : gv ≤ gv') (hR : 0 ≤ R') (hRR : R' ≤ R) (hs : s = 0 ∨ bf = true) (hs7 : -7 ≤ s) (hg : 0 < g) :
    ∃ (q q' : ℝ) (f f' : Bool), 0 < q ∧ q ≤ q' ∧
      (OvertoppingTaw2002.calculate_overtopping_discharge_q (fin H) (fin T) (fin R) (fin c) nan nan beta B db
        (fin gB) (fin 1) (fin gf) (fin gv) (fin s) (fin g) bf).res = .ok (fin q, f) ∧
      (OvertoppingTaw2002.calculate_overtopping_discharge_q (fin H') (fin T') (fin R') (fin c') nan nan beta B
        db (fin gB') (fin 1) (fin gf') (fin gv') (fin s) (fin g) bf).res = .ok (fin q', f') := by
  have hc := hc'.trans_le hcc
  have hH' := hH.trans_le hHH
  have hT' := hT.trans_le hTT
  have f0 : 0 < gf := lt_of_lt_of_le (by norm_num) hf
  have f0' := f0.trans_le hff
  have B0 := hB.trans_le hBB
  have v0 := hv.trans_le hvv
  obtain ⟨q, f, h1, x, r, a, b, hx, hrr, ha, hb, h2, -⟩ := C78_taw_discharge_partial H T c gf gv gB 1 s beta
    B db bf hH hT hc f0 (hff.trans hf1) hv hB one_pos le_rfl hs (alt hr) R g hg
  obtain ⟨q', f', h1', x', r', a', b', hx', hrr', ha', hb', h2', -⟩ := C78_taw_discharge_partial H' T' c' gf'
    gv' gB' 1 s beta B db bf hH' hT' hc' f0' hf1 v0 B0 one_pos le_rfl hs (alt hr') R' g hg
  rw [one_mul] at hrr hrr'
  have S : 0 < √(g * H ^ 3) := by positivity
  have S' : 0 < √(g * H' ^ 3) := by positivity
  rw [div_eq_iff S.ne', min_mul_of_nonneg _ _ S.le] at h2
  rw [div_eq_iff S'.ne', min_mul_of_nonneg _ _ S'.le] at h2'
  obtain ⟨m1, m2⟩ := rough_conditions hH hHH hT hTT hc' hcc hf hff hf1
  have x0 := (irib_sq hH hT hc).1
  have fr := front hH hHH hT hTT hc' hcc hg
  rw [← hx, ← hrr, ← hx', ← hrr'] at m1 m2
  rw [← hx, ← hx'] at fr
  have r0 : 0 < r := hrr ▸ rough_pos f0 (hff.trans hf1)
  rw [← hx] at x0
  have k1 : (0 : ℝ) < (if bf then 4.75 else 4.3) + 0.5 * s := by split_ifs <;> norm_num <;> linarith
  have k2 : (0 : ℝ) < (if bf then 2.6 else 2.3) + 0.35 * s := by
    rcases hs with rfl | rfl
    · split_ifs <;> norm_num
    · norm_num; linarith
  refine ⟨q, q', f, f', ?_, ?_, h1, h1'⟩
  · rw [h2, ha, hb, breaking_scaled, maximum_scaled]
    have : 0 < √(1 / c) := Real.sqrt_pos.mpr (by positivity)
    exact lt_min (by positivity) (by positivity)
  · rw [h2, h2', ha, hb, ha', hb', breaking_scaled, maximum_scaled, breaking_scaled, maximum_scaled]
    refine min_le_min (damp (by positivity) (by gcongr) k1.le hR hRR (by positivity) ?_ zero_le_one)
      (damp (by positivity) ?_ k2.le hR hRR (by positivity) ?_ zero_le_one)
    · have : 0 ≤ H' * x' * r' := le_trans (by positivity) m2
      gcongr
    · have := front_max hH hHH hg
      gcongr
    · have : 0 ≤ H' * r' := le_trans (by positivity) m1
      gcongr

/-- C80 (missing: as for the discharge, negative crest levels): the crest level by TAW (2002) for the same
discharge -/
theorem C80_taw_freeboard_partial (gv gv' q s : ℝ) (beta B db : PF) (bf : Bool) (hv : 0 < gv)
    (hvv : gv ≤ gv') (hq : 0 < q) (hs : s = 0 ∨ bf = true) (hs7 : -7 ≤ s) :
    ∃ (R R' : ℝ) (f f' : Bool), (0 ≤ R' → R ≤ R') ∧
      (OvertoppingTaw2002.calculate_crest_freeboard_Rc (fin H) (fin T) (fin q) (fin c) nan nan beta B db
        (fin gB) (fin 1) (fin gf) (fin gv) (fin s) (use_best_fit := bf)).res = .ok (fin R, f) ∧
      (OvertoppingTaw2002.calculate_crest_freeboard_Rc (fin H') (fin T') (fin q) (fin c') nan nan beta B
        db (fin gB') (fin 1) (fin gf') (fin gv') (fin s) (use_best_fit := bf)).res = .ok (fin R', f') := by
  have hc := hc'.trans_le hcc
  have hH' := hH.trans_le hHH
  have hT' := hT.trans_le hTT
  have f0 : 0 < gf := lt_of_lt_of_le (by norm_num) hf
  have f0' := f0.trans_le hff
  have B0 := hB.trans_le hBB
  have v0 := hv.trans_le hvv
  obtain ⟨R, f, h1, -⟩ := C78_taw_freeboard_partial H T c gf gv gB 1 s beta
    B db bf hH hT hc f0 (hff.trans hf1) hv hB one_pos le_rfl hs (alt hr) q hq hs7
  obtain ⟨R', f', h1', -⟩ := C78_taw_freeboard_partial H' T' c' gf' gv' gB' 1 s beta
    B db bf hH' hT' hc' f0' hf1 v0 B0 one_pos le_rfl hs (alt hr') q hq hs7
  refine ⟨R, R', f, f', fun hR => ?_, h1, h1'⟩
  by_contra hlt
  have hlt := not_le.mp hlt
  have d := OvertoppingTawProofs.C49_discharge_of_freeboard_partial H T q gf gv s (fin c) nan nan beta
    B db (fin gB) (fin 1) bf hH hT f0 (hff.trans hf1) hv hs7 (Or.inr ⟨_, rfl, hB⟩)
    (Or.inr ⟨_, rfl, one_pos, le_rfl⟩) _ _ hq h1
  have d' := OvertoppingTawProofs.C49_discharge_of_freeboard_partial H' T' q gf' gv' s (fin c') nan nan beta
    B db (fin gB') (fin 1) bf hH' hT' f0' hf1 v0 hs7 (Or.inr ⟨_, rfl, B0⟩)
    (Or.inr ⟨_, rfl, one_pos, le_rfl⟩) _ _ hq h1'
  obtain ⟨a, a', fa, fa', -, h, ea, ea'⟩ := C80_taw_overtopping_partial H H' T T' c c' gf gf' gB gB' hH hHH hT
    hTT hc' hcc hf hff hf1 hB hBB hr hr' gv gv' R' R' s 9.81 beta B db bf hv hvv hR le_rfl hs hs7 (by norm_num)
  obtain ⟨b, fb, -, hb, eb⟩ := OvertoppingTawProofs.C50_decreasing H T R' R gf gv s 9.81 (fin c) nan nan beta B
    db (fin gB) (fin 1) bf hH hT f0 (hff.trans hf1) hv hs7 (Or.inr ⟨_, rfl, hB⟩)
    (Or.inr ⟨_, rfl, one_pos, le_rfl⟩) (by norm_num) a fa hlt ea
  have e1 : b = q := by
    have := eb.symm.trans d
    simpa using (congrArg (fun x => x) (Prod.mk.inj (Except.ok.inj this)).1)
  have e2 : a' = q := by
    have := ea'.symm.trans d'
    simpa using (congrArg (fun x => x) (Prod.mk.inj (Except.ok.inj this)).1)
  linarith

/-- C80 (missing: as for overtopping, Iribarren numbers below 0.5): run-up by TAW (2002) -/
theorem C80_taw_runup_partial (bf : Bool) (hl : 0.5 ≤ Textbook.iribarren H T c)
    (hl' : 0.5 ≤ Textbook.iribarren H' T' c') : ∃ (z z' : ℝ) (f f' : Bool), 0 < z ∧ z ≤ z' ∧
    (RunupTaw2002.calculate_wave_runup_height_z2p { Hm0 := fin H, Tmm10 := fin T, cot_alpha := fin c, gamma_f := fin gf, gamma_b := fin 1, gamma_beta := fin gB, use_best_fit := bf }).res =
      .ok (fin z, f) ∧
    (RunupTaw2002.calculate_wave_runup_height_z2p { Hm0 := fin H', Tmm10 := fin T', cot_alpha := fin c', gamma_f := fin gf', gamma_b := fin 1, gamma_beta := fin gB', use_best_fit := bf }).res =
      .ok (fin z', f') := by
  have hc := hc'.trans_le hcc
  have hH' := hH.trans_le hHH
  have hT' := hT.trans_le hTT
  obtain ⟨z, f, h1, h2⟩ := C78_runup_taw_partial H T c gf 1 gB bf hH hT hc (hff.trans hf1) (alt hr)
  obtain ⟨z', f', h1', h2'⟩ := C78_runup_taw_partial H' T' c' gf' 1 gB' bf hH' hT' hc' hf1 (alt hr')
  rw [div_eq_iff hH.ne', one_mul, mul_comm] at h2
  rw [div_eq_iff hH'.ne', one_mul, mul_comm] at h2'
  have c1 : (0 : ℝ) < if bf then 1.65 else 1.75 := by split_ifs <;> norm_num
  have c2 : (0 : ℝ) < if bf then 4 else 4.3 := by split_ifs <;> norm_num
  have c3 : (0 : ℝ) ≤ if bf then 1.5 else 1.6 := by split_ifs <;> norm_num
  have c23 : 15 / 7 * (if bf then 1.5 else 1.6) ≤ (if bf then 4 else 4.3 : ℝ) := by split_ifs <;> norm_num
  have s := runup_conditions hH hHH hT hTT hc' hcc hf hff hf1 hB hBB c1 c2 c3 one_pos c23 hl hl'
  exact ⟨z, z', f, f', h2 ▸ s.1, by rw [h2, h2']; exact s.2, h1, h1'⟩

/-- C80 (missing: as for TAW (2002)): overtopping by EurOtop (2018) -/
theorem C80_eurotop2018_overtopping_partial (gv gv' gs gs' R R' c1 c2 c3 c4 g : ℝ) (beta gb : PF) (bf : Bool)
    (hv : 0 < gv) (hvv : gv ≤ gv') (hs : 0 < gs) (hss : gs ≤ gs') (hR : 0 ≤ R') (hRR : R' ≤ R) (h1 : 0 < c1)
    (h2 : 0 < c2) (h3 : 0 < c3) (h4 : 0 < c4) (hg : 0 < g) :
    ∃ (q q' : ℝ) (f f' : Bool), 0 < q ∧ q ≤ q' ∧
      (OvertoppingEurOtop2018.calculate_overtopping_discharge_q (fin H) (fin T) (fin R) beta (fin gB) gb
        (fin gf) (fin gv) (fin gs) (cot_alpha := fin c) (c1 := fin c1) (c2 := fin c2) (c3 := fin c3)
        (c4 := fin c4) (use_best_fit := bf) (g := fin g)).res = .ok (fin q, f) ∧
      (OvertoppingEurOtop2018.calculate_overtopping_discharge_q (fin H') (fin T') (fin R') beta (fin gB') gb
        (fin gf') (fin gv') (fin gs') (cot_alpha := fin c') (c1 := fin c1) (c2 := fin c2) (c3 := fin c3)
        (c4 := fin c4) (use_best_fit := bf) (g := fin g)).res = .ok (fin q', f') := by
  have hc := hc'.trans_le hcc
  have hH' := hH.trans_le hHH
  have hT' := hT.trans_le hTT
  have f0 : 0 < gf := lt_of_lt_of_le (by norm_num) hf
  have f0' := f0.trans_le hff
  have B0 := hB.trans_le hBB
  have v0 := hv.trans_le hvv
  have s0 := hs.trans_le hss
  obtain ⟨q, f, e1, x, r, a, b, hx, hrr, ha, hb, e2, -⟩ := C78_eurotop2018_discharge_partial H T c gf gv gs
    gB c1 c2 c3 c4 beta gb bf hH hT hc f0 (hff.trans hf1) hv hs hB h1 h2 h3 h4 hr R g (hR.trans hRR) hg
  obtain ⟨q', f', e1', x', r', a', b', hx', hrr', ha', hb', e2', -⟩ := C78_eurotop2018_discharge_partial H' T'
    c' gf' gv' gs' gB' c1 c2 c3 c4 beta gb bf hH' hT' hc' f0' hf1 v0 s0 B0 h1 h2 h3 h4 hr' R' g hR hg
  have S : 0 < √(g * H ^ 3) := by positivity
  have S' : 0 < √(g * H' ^ 3) := by positivity
  rw [div_eq_iff S.ne', min_mul_of_nonneg _ _ S.le] at e2
  rw [div_eq_iff S'.ne', min_mul_of_nonneg _ _ S'.le] at e2'
  obtain ⟨-, m2⟩ := rough_conditions hH hHH hT hTT hc' hcc hf hff hf1
  have x0 := (irib_sq hH hT hc).1
  have fr := front hH hHH hT hTT hc' hcc hg
  rw [← hx, ← hrr, ← hx', ← hrr'] at m2
  rw [← hx, ← hx'] at fr
  have r0 : 0 < r := hrr ▸ rough_pos f0 (hff.trans hf1)
  rw [← hx] at x0
  have k1 : (0 : ℝ) < if bf then 2.7 else c1 := by split_ifs; norm_num; exact h1
  have k2 : (0 : ℝ) < if bf then 0.09 else c2 := by split_ifs; norm_num; exact h2
  have k3 : (0 : ℝ) < if bf then 1.5 else c3 := by split_ifs; norm_num; exact h3
  have k4 : (0 : ℝ) < if bf then 0.023 else c4 := by split_ifs; norm_num; exact h4
  refine ⟨q, q', f, f', ?_, ?_, e1, e1'⟩
  · rw [e2, ha, hb, breaking2018_scaled, maximum2018_scaled]
    have : 0 < √(1 / c) := Real.sqrt_pos.mpr (by positivity)
    exact lt_min (by positivity) (by positivity)
  · rw [e2, e2', ha, hb, ha', hb', breaking2018_scaled, maximum2018_scaled, breaking2018_scaled,
      maximum2018_scaled]
    refine min_le_min (damp (by positivity) (by gcongr) k1.le hR hRR (by positivity) ?_ (by norm_num))
      (damp (by positivity) ?_ k3.le hR hRR (by positivity) ?_ (by norm_num))
    · have : 0 ≤ H' * x' * r' := le_trans (by positivity) m2
      gcongr
    · have := front_max hH hHH hg
      gcongr
    · gcongr

/-- C80 (missing: as for TAW (2002)): overtopping of rubble mounds by EurOtop (2007) and (2018) -/
theorem C80_rubble_overtopping_partial (R R' c2 c3 g : ℝ) (beta B db : PF) (bf : Bool) (hR : 0 ≤ R')
    (hRR : R' ≤ R) (h2 : 0 < c2) (h3 : 0 < c3) (hg : 0 < g) :
    (∃ q q' : ℝ, 0 < q ∧ q ≤ q' ∧
      (OvertoppingEurOtop2007.calculate_overtopping_discharge_q_rubble_mound (fin H) (fin T) (fin R) beta
        (fin gB) (fin gf) (fin c) (fin c2) (fin c3) bf (fin g)).res = .ok (fin q) ∧
      (OvertoppingEurOtop2007.calculate_overtopping_discharge_q_rubble_mound (fin H') (fin T') (fin R') beta
        (fin gB') (fin gf') (fin c') (fin c2) (fin c3) bf (fin g)).res = .ok (fin q')) ∧
    (∃ q q' : ℝ, 0 < q ∧ q ≤ q' ∧
      (OvertoppingEurOtop2018.calculate_overtopping_discharge_q_rubble_mound (fin H) (fin T) (fin R) beta
        (fin gB) (fin gf) B db (fin c) nan nan (fin c2) (fin c3) bf (fin g)).res = .ok (fin q) ∧
      (OvertoppingEurOtop2018.calculate_overtopping_discharge_q_rubble_mound (fin H') (fin T') (fin R') beta
        (fin gB') (fin gf') B db (fin c') nan nan (fin c2) (fin c3) bf (fin g)).res = .ok (fin q')) := by
  have hc := hc'.trans_le hcc
  have hH' := hH.trans_le hHH
  have hT' := hT.trans_le hTT
  have f0 : 0 < gf := lt_of_lt_of_le (by norm_num) hf
  have f0' := f0.trans_le hff
  have B0 := hB.trans_le hBB
  have S : 0 < √(g * H ^ 3) := by positivity
  have S' : 0 < √(g * H' ^ 3) := by positivity
  obtain ⟨m1, -⟩ := rough_conditions hH hHH hT hTT hc' hcc hf hff hf1
  have r0 := rough_pos (p := Textbook.iribarren H T c) f0 (hff.trans hf1)
  have fm := front_max hH hHH hg
  constructor
  · obtain ⟨q, q0, e1, e2⟩ := C78_eurotop2007_discharge_partial H T c gf gB c2 c3 beta bf hH hT hc f0
      (hff.trans hf1) hB h2 hr R g hg
    obtain ⟨q', -, e1', e2'⟩ := C78_eurotop2007_discharge_partial H' T' c' gf' gB' c2 c3 beta bf hH' hT' hc'
      f0' hf1 B0 h2 hr' R' g hg
    rw [div_eq_iff S.ne', maximum_scaled] at e2
    rw [div_eq_iff S'.ne', maximum_scaled] at e2'
    have k2 : (0 : ℝ) < if bf then 0.2 else c2 := by split_ifs; norm_num; exact h2
    have k3 : (0 : ℝ) < if bf then 2.6 else c3 := by split_ifs; norm_num; exact h3
    refine ⟨q, q', q0, ?_, e1, e1'⟩
    rw [e2, e2']
    refine damp (by positivity) (by gcongr) k3.le hR hRR (by positivity) ?_ zero_le_one
    have : 0 ≤ H' * Published.roughness gf' (Textbook.iribarren H' T' c') := le_trans (by positivity) m1
    gcongr
  · obtain ⟨q, q0, e1, e2⟩ := C78_eurotop2018_rubble_discharge_partial H T c gf gB c2 c3 beta B db bf hH hT
      hc f0 (hff.trans hf1) hB h2 h3 hr R g (hR.trans hRR) hg
    obtain ⟨q', -, e1', e2'⟩ := C78_eurotop2018_rubble_discharge_partial H' T' c' gf' gB' c2 c3 beta B db bf
      hH' hT' hc' f0' hf1 B0 h2 h3 hr' R' g hR hg
    rw [div_eq_iff S.ne', maximum2018_scaled] at e2
    rw [div_eq_iff S'.ne', maximum2018_scaled] at e2'
    have k2 : (0 : ℝ) < if bf then 0.09 else c2 := by split_ifs; norm_num; exact h2
    have k3 : (0 : ℝ) < if bf then 1.5 else c3 := by split_ifs; norm_num; exact h3
    refine ⟨q, q', q0, ?_, e1, e1'⟩
    rw [e2, e2']
    refine damp (by positivity) (by gcongr) k3.le hR hRR (by positivity) ?_ (by norm_num)
    have : 0 ≤ H' * Published.roughness gf' (Textbook.iribarren H' T' c') := le_trans (by positivity) m1
    gcongr
end

/-- C80 (missing: as for TAW (2002)): run-up by EurOtop (2018); here obliqueness is given by the angle -/
theorem C80_eurotop2018_runup_partial (H H' T T' c c' gf gf' b b' c1 c2 c3 c4 : ℝ) (gB : PF) (bf : Bool)
    (hH : 0 < H) (hHH : H ≤ H') (hT : 0 < T) (hTT : T ≤ T') (hc' : 0 < c') (hcc : c' ≤ c) (hf : 0.18 ≤ gf)
    (hff : gf ≤ gf') (hf1 : gf' ≤ 1) (hb : |b'| ≤ |b|)
    (hr : gf = 1 ∨ Textbook.iribarren H T c ≤ 10) (hr' : gf' = 1 ∨ Textbook.iribarren H' T' c' ≤ 10)
    (hl : 0.5 ≤ Textbook.iribarren H T c) (hl' : 0.5 ≤ Textbook.iribarren H' T' c') (h1 : 0 < c1)
    (h2 : 0 < c2) (h3 : 0 ≤ c3) (h4 : 0 < c4) (h23 : 15 / 7 * c3 ≤ c2) :
    ∃ (z z' : ℝ) (f f' : Bool), 0 < z ∧ z ≤ z' ∧
      (RunupEurOtop2018.calculate_wave_runup_height_z2p (fin H) (fin T) (fin b) gB (fin 1) (fin gf)
        (cot_alpha := fin c) (c1 := fin c1) (c2 := fin c2) (c3 := fin c3) (c4 := fin c4)
        (use_best_fit := bf)).res = .ok (fin z, f) ∧
      (RunupEurOtop2018.calculate_wave_runup_height_z2p (fin H') (fin T') (fin b') gB (fin 1) (fin gf')
        (cot_alpha := fin c') (c1 := fin c1) (c2 := fin c2) (c3 := fin c3) (c4 := fin c4)
        (use_best_fit := bf)).res = .ok (fin z', f') := by
  have hc := hc'.trans_le hcc
  have hH' := hH.trans_le hHH
  have hT' := hT.trans_le hTT
  obtain ⟨z, f, e1, e2⟩ := C78_runup_eurotop2018_partial H T c gf 1 b c1 c2 c3 c4 gB bf hH hT hc
    (hff.trans hf1) (alt hr)
  obtain ⟨z', f', e1', e2'⟩ := C78_runup_eurotop2018_partial H' T' c' gf' 1 b' c1 c2 c3 c4 gB bf hH' hT' hc'
    hf1 (alt hr')
  rw [div_eq_iff hH.ne', one_mul, mul_comm] at e2
  rw [div_eq_iff hH'.ne', one_mul, mul_comm] at e2'
  have k1 : (0 : ℝ) < if bf then 1.65 else c1 := by split_ifs; norm_num; exact h1
  have k2 : (0 : ℝ) < if bf then 4 else c2 := by split_ifs; norm_num; exact h2
  have k3 : (0 : ℝ) ≤ if bf then 1.5 else c3 := by split_ifs; norm_num; exact h3
  have k4 : (0 : ℝ) < if bf then 1 else c4 := by split_ifs; norm_num; exact h4
  have k23 : 15 / 7 * (if bf then 1.5 else c3) ≤ (if bf then 4 else c2 : ℝ) := by
    split_ifs; norm_num; exact h23
  have m80 : min |b| 80 ≤ 80 := min_le_right _ _
  have mb : min |b'| 80 ≤ min |b| 80 := min_le_min_right _ hb
  have m0 : 0 ≤ min |b'| 80 := le_min (abs_nonneg _) (by norm_num)
  have hB : 0 < Published.obliqueness (if 0.6 < gf then 0.0022 else 0.0063) b := by
    unfold Published.obliqueness
    generalize min |b| 80 = m at *
    split_ifs <;> norm_num <;> linarith
  have hBB : Published.obliqueness (if 0.6 < gf then 0.0022 else 0.0063) b ≤
      Published.obliqueness (if 0.6 < gf' then 0.0022 else 0.0063) b' := by
    unfold Published.obliqueness
    generalize min |b| 80 = m at *
    generalize min |b'| 80 = m' at *
    split_ifs <;> norm_num <;> linarith
  have s := runup_conditions hH hHH hT hTT hc' hcc hf hff hf1 hB hBB k1 k2 k3 k4 k23 hl hl'
  exact ⟨z, z', f, f', e2 ▸ s.1, by rw [e2, e2']; exact s.2, e1, e1'⟩

/-! ## Newer overtopping formulas -/

/-- C80: overtopping of slopes by Van Gent et al. (2025); `w` is the height of the swell -/
theorem C80_vangent2025_overtopping (H H' T T' c c' gf gf' gb gb' gv gv' gB gB' R R' w w' g : ℝ)
    (Ac beta B db D : PF) (dc : Bool) (hH : 0 < H) (hHH : H ≤ H') (hT : 0 < T) (hTT : T ≤ T') (hc' : 0 < c')
    (hcc : c' ≤ c) (hf : 0 < gf) (hff : gf ≤ gf') (hb : 0 < gb) (hbb : gb ≤ gb') (hv : 0 < gv)
    (hvv : gv ≤ gv') (hB : 0 < gB) (hBB : gB ≤ gB') (hR : 0.4 * w' ≤ R') (hRR : R' ≤ R) (hw : w ≤ w')
    (hg : 0 < g) :
    ∃ (q q' : ℝ) (f f' : Bool), 0 < q ∧ q ≤ q' ∧
      (VanGent2025.calculate_overtopping_discharge_q (fin H) (fin w) (fin T) (fin R) Ac (fin c) beta B db D
        (fin gf) (fin gb) (fin gv) (fin gB) (fin g) dc false).res = .ok (fin q, f) ∧
      (VanGent2025.calculate_overtopping_discharge_q (fin H') (fin w') (fin T') (fin R') Ac (fin c') beta B db
        D (fin gf') (fin gb') (fin gv') (fin gB') (fin g) dc false).res = .ok (fin q', f') := by
  have hc := hc'.trans_le hcc
  have hH' := hH.trans_le hHH
  have hT' := hT.trans_le hTT
  have f0 := hf.trans_le hff
  have b0 := hb.trans_le hbb
  have v0 := hv.trans_le hvv
  have B0 := hB.trans_le hBB
  obtain ⟨q, f, q0, e1, a, b, ha, hab, e2, -⟩ := C78_vangent2025_discharge H T c gf gb gv gB Ac beta B db D hH
    hT hc hf hb hv hB R w g dc hg
  obtain ⟨q', f', -, e1', a', b', ha', hab', e2', -⟩ := C78_vangent2025_discharge H' T' c' gf' gb' gv' gB' Ac
    beta B db D hH' hT' hc' f0 b0 v0 B0 R' w' g dc hg
  have S : 0 < √(g * H ^ 3) := by positivity
  have S' : 0 < √(g * H' ^ 3) := by positivity
  rw [div_eq_iff S.ne'] at e2
  rw [div_eq_iff S'.ne'] at e2'
  refine ⟨q, q', f, f', q0, ?_, e1, e1'⟩
  have fm := front_max hH hHH hg
  obtain ⟨m1, m2⟩ := irib_conditions hH hHH hT hTT hc' hcc
  have x0 := (irib_sq hH hT hc).1
  have x0' := (irib_sq hH' hT' hc').1
  have hG : gf * gb * gv * gB ≤ gf' * gb' * gv' * gB' := by gcongr
  have G0 : 0 < gf * gb * gv * gB := by positivity
  have G0' : 0 < gf' * gb' * gv' * gB' := by positivity
  have d0 : 0 ≤ R' - 0.4 * w' := by linarith
  have dd : R' - 0.4 * w' ≤ R - 0.4 * w := by linarith
  have h1 : a ≤ a' := by
    rw [ha, ha', slopeBreaking_damp, slopeBreaking_damp]
    exact damp (by positivity) (by gcongr) (by norm_num) d0 dd (by positivity) (by gcongr) zero_le_one
  have h2 : b ≤ b' := by
    rw [hab, hab', slopeMaximum_damp, slopeMaximum_damp]
    exact damp (by positivity) (by gcongr) (by norm_num) d0 dd (by positivity) (by gcongr) zero_le_one
  have a0 : 0 < a := by rw [ha]; unfold Published.slopeBreaking2025; positivity
  have b0 : 0 < b := by rw [hab]; unfold Published.slopeMaximum2025; positivity
  have h3 : min a b ≤ min a' b' := min_le_min h1 h2
  have h0 : 0 < min a b := lt_min a0 b0
  have h4 : (if dc then min a b ^ (0.857 : ℝ) else min a b) ≤
      (if dc then min a' b' ^ (0.857 : ℝ) else min a' b') := by
    split_ifs
    · exact Real.rpow_le_rpow h0.le h3 (by norm_num)
    · exact h3
  rw [e2, e2']
  refine mul_le_mul h4 fm S.le (le_trans ?_ h4)
  split_ifs
  · exact (Real.rpow_pos_of_pos h0 _).le
  · exact h0.le

/-- C80: overtopping of caissons by Van Gent (2021) with any published coefficients -/
theorem C80_caisson_overtopping (H H' g w w' cw c a b cb gp r r' R R' : ℝ) (k sc cs pp : Bool) (beta : PF)
    (hH : 0 < H) (hHH : H ≤ H') (hg : 0 < g) (ht : (c, k, pp, a, b, cb, gp) ∈ Published.caissonTable)
    (hk : (sc || cs) = k) (hr : 0 < r) (hrr : r ≤ r') (hcw : 0 ≤ cw) (hw : w ≤ w')
    (hR : (if cs then cw else 0) * w' ≤ R') (hRR : R' ≤ R) :
    ∃ q q' : ℝ, 0 < q ∧ q ≤ q' ∧
      (VanGent2021Caisson.calculate_overtopping_discharge_q (fin H) (fin R) beta (fin r) (fin w) (fin c)
        (fin cw) sc cs pp (fin g)).res = .ok (fin q) ∧
      (VanGent2021Caisson.calculate_overtopping_discharge_q (fin H') (fin R') beta (fin r') (fin w') (fin c)
        (fin cw) sc cs pp (fin g)).res = .ok (fin q') := by
  obtain ⟨-, ha, hb, hcb, hlt, hc1⟩ := FormulaProof.caisson_coefficients ht sc cs hk
  have hgp : 0 < gp := hcb.trans hlt
  have hH' := hH.trans_le hHH
  have r0 := hr.trans_le hrr
  have hm0 : 0 ≤ (if cs then cw else 0) := by split_ifs <;> [exact hcw; exact le_rfl]
  have hmw : (if cs then cw else 0) * w ≤ (if cs then cw else 0) * w' := mul_le_mul_of_nonneg_left hw hm0
  obtain ⟨q, q0, e1, e2⟩ := C78_caisson_discharge_partial H g w cw c a b cb gp k sc cs pp hH hg ht hk R r beta
    (fin r) hr (Or.inl rfl) (Or.inr (by linarith))
  obtain ⟨q', -, e1', e2'⟩ := C78_caisson_discharge_partial H' g w' cw c a b cb gp k sc cs pp hH' hg ht hk R'
    r' beta (fin r') r0 (Or.inl rfl) (Or.inr hR)
  have S : 0 < √(g * H ^ 3) := by positivity
  have S' : 0 < √(g * H' ^ 3) := by positivity
  rw [div_eq_iff S.ne'] at e2
  rw [div_eq_iff S'.ne'] at e2'
  refine ⟨q, q', q0, ?_, e1, e1'⟩
  generalize (if cs then cw else 0) = m at *
  have c0 : 0 ≤ c := by rcases hc1 with h | h <;> rw [h] <;> norm_num
  have fm := front_max hH hHH hg
  rw [e2, e2']
  refine mul_le_mul ?_ fm S.le (by unfold Published.caisson; positivity)
  unfold Published.caisson
  refine mul_le_mul_of_nonneg_left (Real.exp_le_exp.mpr ?_) ha.le
  rw [neg_mul, neg_mul, neg_le_neg_iff]
  have e : ∀ R w H : ℝ, R / H - m * (w / H) = (R - m * w) / H := fun R w H => by ring
  rw [e, e]
  have d0 : 0 ≤ R' - m * w' := by linarith
  have dd : R' - m * w' ≤ R - m * w := by linarith
  have d1 : (R' - m * w') / H' ≤ (R - m * w) / H := by
    have := d0.trans dd
    gcongr
  have d2 : ((R' - m * w') / H') ^ c ≤ ((R - m * w) / H) ^ c :=
    Real.rpow_le_rpow (by positivity) d1 c0
  have d3 : 0 ≤ ((R' - m * w') / H') ^ c := Real.rpow_nonneg (by positivity) _
  gcongr

/-- C80: overtopping by De Ridder et al. (2024) and (2026); `s` is the steepness of the short waves, `w` the
height of the long waves -/
theorem C80_deridder_overtopping (H H' s s' gf gf' R R' w w' g t : ℝ) (hH : 0 < H) (hHH : H ≤ H') (hs' : 0 < s')
    (hss : s' ≤ s) (hf : 0 < gf) (hff : gf ≤ gf') (hR : 0 ≤ R' - 0.97 * w') (hRR : R' ≤ R) (hw' : 0 ≤ w)
    (hw : w ≤ w') (hg : 0 < g) :
    (∃ q q' : ℝ, 0 < q ∧ q ≤ q' ∧
      (DeRidder2024.calculate_overtopping_discharge_q_eq24 (fin H) (fin s) (fin gf) (fin R) (fin g)).res =
        .ok (fin q) ∧
      (DeRidder2024.calculate_overtopping_discharge_q_eq24 (fin H') (fin s') (fin gf') (fin R')
        (fin g)).res = .ok (fin q')) ∧
    (∃ q q' : ℝ, 0 < q ∧ q ≤ q' ∧
      (DeRidder2024.calculate_overtopping_discharge_q_eq26 (fin H) (fin s) (fin w) (fin gf) (fin R)
        (fin g)).res = .ok (fin q) ∧
      (DeRidder2024.calculate_overtopping_discharge_q_eq26 (fin H') (fin s') (fin w') (fin gf') (fin R')
        (fin g)).res = .ok (fin q')) ∧
    (∃ q q' : ℝ, 0 < q ∧ q ≤ q' ∧
      (DeRidder2026.calculate_overtopping_discharge_q_eq28 (fin H) (fin s) (fin gf) (fin R) (fin g)
        (fin t)).res = .ok (fin q) ∧
      (DeRidder2026.calculate_overtopping_discharge_q_eq28 (fin H') (fin s') (fin gf') (fin R') (fin g)
        (fin t)).res = .ok (fin q')) ∧
    (∃ q q' : ℝ, 0 < q ∧ q ≤ q' ∧
      (DeRidder2026.calculate_overtopping_discharge_q_eq32 (fin H) (fin s) (fin w) (fin gf) (fin R) (fin g)
        (fin t)).res = .ok (fin q) ∧
      (DeRidder2026.calculate_overtopping_discharge_q_eq32 (fin H') (fin s') (fin w') (fin gf') (fin R') (fin g)
        (fin t)).res = .ok (fin q')) := by
  have hs := hs'.trans_le hss
  have hH' := hH.trans_le hHH
  have f0 := hf.trans_le hff
  have S : 0 < √(g * H ^ 3) := by positivity
  have S' : 0 < √(g * H' ^ 3) := by positivity
  have fm := front_max hH hHH hg
  have key : ∀ {m a b e f f' : ℝ}, 0 ≤ m → m ≤ 0.97 → 0 < a → 0 < b → 0 ≤ e → 0 < f → f ≤ f' →
      Published.deRidder a b e f (R / H - m * (w / H)) s * √(g * H ^ 3) ≤
      Published.deRidder a b e f' (R' / H' - m * (w' / H')) s' * √(g * H' ^ 3) := by
    intro m a b e f f' m0 m1 ha hb he hf hff
    have w0 := hw'.trans hw
    have hmw : m * w' ≤ 0.97 * w' := mul_le_mul_of_nonneg_right m1 w0
    have hmm : m * w ≤ m * w' := mul_le_mul_of_nonneg_left hw m0
    refine mul_le_mul ?_ fm S.le (by unfold Published.deRidder; positivity)
    unfold Published.deRidder
    refine mul_le_mul_of_nonneg_left (Real.exp_le_exp.mpr ?_) ha.le
    rw [neg_mul, neg_mul, neg_mul, neg_mul, neg_le_neg_iff]
    have e' : ∀ R w H : ℝ, R / H - m * (w / H) = (R - m * w) / H := fun R w H => by ring
    rw [e', e']
    have d0 : 0 ≤ R' - m * w' := by linarith
    have dd : R' - m * w' ≤ R - m * w := by linarith
    have := d0.trans dd
    have := Real.rpow_nonneg hs'.le e
    have := hf.trans_le hff
    have : 0 ≤ (R' - m * w') / H' / f' := by positivity
    gcongr
  have key0 : ∀ {a b e f f' : ℝ}, 0 < a → 0 < b → 0 ≤ e → 0 < f → f ≤ f' →
      Published.deRidder a b e f (R / H) s * √(g * H ^ 3) ≤
      Published.deRidder a b e f' (R' / H') s' * √(g * H' ^ 3) := by
    intro a b e f f' ha hb he hf hff
    have := key (m := 0) le_rfl (by norm_num) ha hb he hf hff
    simpa using this
  have o0 : 0 < Published.obliqueCos 0.35 t := (FormulaProof.oblique2026 t).2
  obtain ⟨⟨q1, p1, a1, b1⟩, q2, p2, a2, b2⟩ := C78_deridder2024_discharge H s gf g hH hs hf hg R w
  obtain ⟨⟨q1', -, a1', b1'⟩, q2', -, a2', b2'⟩ := C78_deridder2024_discharge H' s' gf' g hH' hs' f0 hg R' w'
  obtain ⟨⟨q3, p3, a3, b3⟩, q4, p4, a4, b4⟩ := C78_deridder2026_discharge H s gf g t hH hs hf hg R w
  obtain ⟨⟨q3', -, a3', b3'⟩, q4', -, a4', b4'⟩ := C78_deridder2026_discharge H' s' gf' g t hH' hs' f0 hg R' w'
  have ho : gf * Published.obliqueCos 0.35 t ≤ gf' * Published.obliqueCos 0.35 t := by gcongr
  rw [div_eq_iff S.ne'] at b1 b2 b3 b4
  rw [div_eq_iff S'.ne'] at b1' b2' b3' b4'
  refine ⟨⟨q1, q1', p1, ?_, a1, a1'⟩, ⟨q2, q2', p2, ?_, a2, a2'⟩, ⟨q3, q3', p3, ?_, a3, a3'⟩,
    ⟨q4, q4', p4, ?_, a4, a4'⟩⟩
  · rw [b1, b1']; exact key0 (by norm_num) (by norm_num) (by norm_num) hf hff
  · rw [b2, b2']; exact key (by norm_num) (by norm_num) (by norm_num) (by norm_num) (by norm_num) hf hff
  · rw [b3, b3']; exact key0 (by norm_num) (by norm_num) (by norm_num) (by positivity) ho
  · rw [b4, b4']
    exact key (by norm_num) (by norm_num) (by norm_num) (by norm_num) (by norm_num) (by positivity) ho

/-! ## Where it is false -/

/-- Refuted: on rough slopes TAW (2002) gives less overtopping for longer waves. At Iribarren number 10 the
slope counts as smooth, above it the full roughness is applied again. Whatever the wave height, the slope (not
steeper than 10:1), the roughness and the crest level, waves longer than that overtop less -/
theorem C80_longer_waves_refuted (H T T' c gf gB gv R g : ℝ) (beta B db : PF) (bf : Bool) (hH : 0 < H)
    (hT : 0 < T) (hTT : T < T') (hc : 0.1 ≤ c) (hx : Textbook.iribarren H T c = 10) (hf : 0 < gf) (hf1 : gf < 1)
    (hB : 0 < gB) (hv : 0.19 ≤ gv) (hR : 0 < R) (hg : 0 < g) :
    ∃ (q q' : ℝ) (f f' : Bool), q' < q ∧
      (OvertoppingTaw2002.calculate_overtopping_discharge_q (fin H) (fin T) (fin R) (fin c) nan nan beta B db
        (fin gB) (fin 1) (fin gf) (fin gv) (fin 0) (fin g) bf).res = .ok (fin q, f) ∧
      (OvertoppingTaw2002.calculate_overtopping_discharge_q (fin H) (fin T') (fin R) (fin c) nan nan beta B
        db (fin gB) (fin 1) (fin gf) (fin gv) (fin 0) (fin g) bf).res = .ok (fin q', f') := by
  have c0 : 0 < c := lt_of_lt_of_le (by norm_num) hc
  have v0 : 0 < gv := lt_of_lt_of_le (by norm_num) hv
  have S : 0 < √(g * H ^ 3) := by positivity
  have hT' := hT.trans hTT
  obtain ⟨q, f, h1, x, r, a, b, hx', hrr, ha, hb, h2, -⟩ := C78_taw_discharge_partial H T c gf gv gB 1 0 beta
    B db bf hH hT c0 hf hf1.le v0 hB one_pos le_rfl (Or.inl rfl) (alt (Or.inr hx.le)) R g hg
  rw [hx] at hx'
  subst hx'
  have r1 : r = 1 := by
    rw [hrr, Published.roughness, if_neg (by norm_num)]
    refine min_eq_left ?_
    have : (1 * 10 - 1.8) * (1 - gf) / (10 - 1.8) = 1 - gf := by field_simp
    linarith
  subst r1
  have big : 10 < Textbook.iribarren H T' c := by
    rw [← hx]
    obtain ⟨p, e⟩ := irib_sq hH hT c0
    obtain ⟨p', e'⟩ := irib_sq hH hT' c0
    have hp := Real.pi_pos
    have h : 9.81 * T ^ 2 / (2 * Real.pi) / c ^ 2 < 9.81 * T' ^ 2 / (2 * Real.pi) / c ^ 2 := by gcongr
    rw [← e, ← e'] at h
    exact lt_of_pow_lt_pow_left₀ 2 p'.le (lt_of_mul_lt_mul_right h hH.le)
  have hp : (OvertoppingTaw2002.pre (fin H) (fin T') (fin c) nan nan beta B db (fin gB) (fin 1) (fin gf)).res =
      .ok (fin gB, fin c, fin 1) := by
    have e1 : RunupTaw2002.check_calculate_gamma_beta beta (fin gB) = pure false := by
      unfold RunupTaw2002.check_calculate_gamma_beta; simp
    have e2 : RunupTaw2002.check_composite_slope (fin c) nan nan = pure false := by
      unfold RunupTaw2002.check_composite_slope; simp
    unfold OvertoppingTaw2002.pre
    rw [e1, pure_bind, e2]
    simp
  have R' := OvertoppingTaw2002.q_res (R := R) hH hT' (s := 0) (bf := bf) (Or.inl rfl) hf hf1.le v0 hB c0 one_pos le_rfl hp
  have k0 : (0 : ℝ) < if bf then 2.6 else 2.3 := by split_ifs <;> norm_num
  have kk : (if bf then (4.75 : ℝ) else 4.3) ≤ 1.9 * (if bf then 2.6 else 2.3) := by split_ifs <;> norm_num
  have kp : (0 : ℝ) < if bf then 4.75 else 4.3 := by split_ifs <;> norm_num
  have hk3 : OvertoppingTaw2002.k3 0 bf = if bf then 2.6 else 2.3 := by rw [FormulaProof.taw_k3]; ring
  rw [mul_zero, add_zero] at ha hb
  generalize (if bf then (4.75 : ℝ) else 4.3) = k at *
  generalize (if bf then (2.6 : ℝ) else 2.3) = m at *
  have hab : b ≤ a := by
    rw [ha, hb]
    unfold Published.breakingDischarge Published.maximumDischarge
    have s1 : √(1 / c) ≤ 3.35 := by
      rw [Real.sqrt_le_left (by norm_num), div_le_iff₀ c0]
      linarith
    have s0 : 0 < √(1 / c) := Real.sqrt_pos.mpr (by positivity)
    have h1 : 0.2 ≤ 0.067 / √(1 / c) * 1 * 10 := by
      rw [mul_one, div_mul_eq_mul_div, le_div_iff₀ s0]
      linarith
    refine mul_le_mul h1 (Real.exp_le_exp.mpr ?_) (Real.exp_pos _).le (le_trans (by norm_num) h1)
    rw [neg_mul, neg_mul, neg_div, neg_div, neg_le_neg_iff]
    rw [div_le_div_iff₀ (by positivity) (by positivity)]
    have h3 : k ≤ m * (10 * gv) := kk.trans (by nlinarith)
    have h4 : k * (R / H * gB) ≤ m * (10 * gv) * (R / H * gB) := by gcongr
    calc k * (R / H) * (1 * gB) = k * (R / H * gB) := by ring
      _ ≤ m * (10 * gv) * (R / H * gB) := h4
      _ = _ := by ring
  rw [min_eq_right hab, div_eq_iff S.ne'] at h2
  refine ⟨q, _, f, _, ?_, h1, by
    unfold OvertoppingTaw2002.calculate_overtopping_discharge_q
    rw [PyM.bind_res_of_ok R']
    dsimp only
    rw [OvertoppingTaw2002.Sc_eval hg hH, mul_fin]
    rfl⟩
  have hS : OvertoppingTaw2002.Sc g H = √(g * H ^ 3) := by unfold OvertoppingTaw2002.Sc; norm_num
  rw [hS, h2]
  refine mul_lt_mul_of_pos_right (lt_of_le_of_lt (min_le_right _ _) ?_) S
  have hro : RunupTaw2002.rough gf 1 (VdMProof.xi H T' c) = gf := by
    rw [RangeProof.irib_eq] at big
    unfold RunupTaw2002.rough
    rw [if_neg (by intro h; linarith [h.2])]
  rw [hb]
  unfold TwoFormulas.E OvertoppingTaw2002.d3 Published.maximumDischarge
  rw [hk3, hro]
  refine mul_lt_mul_of_pos_left (Real.exp_lt_exp.mpr ?_) (by norm_num)
  rw [neg_mul, neg_div, neg_lt_neg_iff, div_mul_eq_mul_div, mul_div_assoc', div_div,
    div_lt_div_iff₀ (by positivity) (by positivity)]
  have : m * R * (H * (gf * gB)) < m * R * (H * (1 * gB)) := by gcongr
  exact this

/-! ## Cases -/

namespace WorseProof
theorem between {H T c a b : ℝ} (hH : 0 < H) (hT : 0 < T) (hc : 0 < c) (hb : 0 ≤ b)
    (h1 : a ^ 2 * H ≤ 9.81 * T ^ 2 / 8 / c ^ 2) (h2 : 9.81 * T ^ 2 / 6 / c ^ 2 ≤ b ^ 2 * H) :
    a ≤ Textbook.iribarren H T c ∧ Textbook.iribarren H T c ≤ b := by
  obtain ⟨p, e⟩ := irib_sq hH hT hc
  have p3 := Real.pi_gt_three
  have p4 := Real.pi_le_four
  have h3 : 9.81 * T ^ 2 / 8 / c ^ 2 ≤ 9.81 * T ^ 2 / (2 * Real.pi) / c ^ 2 := by gcongr; linarith
  have h4 : 9.81 * T ^ 2 / (2 * Real.pi) / c ^ 2 ≤ 9.81 * T ^ 2 / 6 / c ^ 2 := by gcongr; linarith
  constructor
  · exact le_of_sq_le_sq (le_of_mul_le_mul_right (by rw [e]; linarith) hH) p.le
  · exact le_of_sq_le_sq (le_of_mul_le_mul_right (by rw [e]; linarith) hH) hb

/-- waves of 2 m and 6 s on 1:3, of 3 m and 9 s on 1:2.5 -/
theorem mild : 0.5 ≤ Textbook.iribarren 2 6 3 ∧ Textbook.iribarren 2 6 3 ≤ 10 := by
  apply between <;> norm_num
theorem severe : 0.5 ≤ Textbook.iribarren 3 9 2.5 ∧ Textbook.iribarren 3 9 2.5 ≤ 10 := by
  apply between <;> norm_num
end WorseProof

example : ∃ (q q' : ℝ) (f f' : Bool), 0 < q ∧ q ≤ q' ∧
    (OvertoppingTaw2002.calculate_overtopping_discharge_q (fin 2) (fin 6) (fin 5) (fin 3) nan nan nan 0 0
      (fin 0.9) (fin 1) (fin 0.6) (fin 0.8) (fin 1) (fin 9.81) true).res = .ok (fin q, f) ∧
    (OvertoppingTaw2002.calculate_overtopping_discharge_q (fin 3) (fin 9) (fin 4) (fin 2.5) nan nan nan 0 0
      (fin 0.95) (fin 1) (fin 0.7) (fin 1) (fin 1) (fin 9.81) true).res = .ok (fin q', f') :=
  C80_taw_overtopping_partial 2 3 6 9 3 2.5 0.6 0.7 0.9 0.95 (by norm_num) (by norm_num) (by norm_num)
    (by norm_num) (by norm_num) (by norm_num) (by norm_num) (by norm_num) (by norm_num) (by norm_num)
    (by norm_num)
    (Or.inr mild.2) (Or.inr severe.2) 0.8 1 5 4 1 9.81 nan 0 0 true (by norm_num) (by norm_num)
    (by norm_num) (by norm_num) (Or.inr rfl) (by norm_num) (by norm_num)

example : ∃ (R R' : ℝ) (f f' : Bool), (0 ≤ R' → R ≤ R') ∧
    (OvertoppingTaw2002.calculate_crest_freeboard_Rc (fin 2) (fin 6) (fin 0.01) (fin 3) nan nan nan 0 0
      (fin 0.9) (fin 1) (fin 0.6) (fin 0.8) (fin 0) (use_best_fit := false)).res = .ok (fin R, f) ∧
    (OvertoppingTaw2002.calculate_crest_freeboard_Rc (fin 3) (fin 9) (fin 0.01) (fin 2.5) nan nan nan 0 0
      (fin 0.95) (fin 1) (fin 0.7) (fin 1) (fin 0) (use_best_fit := false)).res = .ok (fin R', f') :=
  C80_taw_freeboard_partial 2 3 6 9 3 2.5 0.6 0.7 0.9 0.95 (by norm_num) (by norm_num) (by norm_num)
    (by norm_num) (by norm_num) (by norm_num) (by norm_num) (by norm_num) (by norm_num) (by norm_num)
    (by norm_num)
    (Or.inr mild.2) (Or.inr severe.2) 0.8 1 0.01 0 nan 0 0 false (by norm_num) (by norm_num) (by norm_num)
    (Or.inl rfl) (by norm_num)

example : ∃ (z z' : ℝ) (f f' : Bool), 0 < z ∧ z ≤ z' ∧
    (RunupTaw2002.calculate_wave_runup_height_z2p { Hm0 := fin 2, Tmm10 := fin 6, cot_alpha := fin 3, gamma_f := fin 0.6, gamma_b := fin 1, gamma_beta := fin 0.9, use_best_fit := true }).res =
      .ok (fin z, f) ∧
    (RunupTaw2002.calculate_wave_runup_height_z2p { Hm0 := fin 3, Tmm10 := fin 9, cot_alpha := fin 2.5, gamma_f := fin 0.7, gamma_b := fin 1, gamma_beta := fin 0.95, use_best_fit := true }).res =
      .ok (fin z', f') :=
  C80_taw_runup_partial 2 3 6 9 3 2.5 0.6 0.7 0.9 0.95 (by norm_num) (by norm_num) (by norm_num)
    (by norm_num) (by norm_num) (by norm_num) (by norm_num) (by norm_num) (by norm_num) (by norm_num)
    (by norm_num)
    (Or.inr mild.2) (Or.inr severe.2) true mild.1 severe.1

example : ∃ (q q' : ℝ) (f f' : Bool), 0 < q ∧ q ≤ q' ∧
    (OvertoppingEurOtop2018.calculate_overtopping_discharge_q (fin 2) (fin 6) (fin 5) nan (fin 0.9) nan
      (fin 0.6) (fin 0.8) (fin 0.9) (cot_alpha := fin 3) (c1 := fin 2.5) (c2 := fin 0.1035) (c3 := fin 1.35)
      (c4 := fin 0.026) (use_best_fit := true) (g := fin 9.81)).res = .ok (fin q, f) ∧
    (OvertoppingEurOtop2018.calculate_overtopping_discharge_q (fin 3) (fin 9) (fin 4) nan (fin 0.95) nan
      (fin 0.7) (fin 1) (fin 1) (cot_alpha := fin 2.5) (c1 := fin 2.5) (c2 := fin 0.1035) (c3 := fin 1.35)
      (c4 := fin 0.026) (use_best_fit := true) (g := fin 9.81)).res = .ok (fin q', f') :=
  C80_eurotop2018_overtopping_partial 2 3 6 9 3 2.5 0.6 0.7 0.9 0.95 (by norm_num) (by norm_num)
    (by norm_num) (by norm_num) (by norm_num) (by norm_num) (by norm_num) (by norm_num) (by norm_num)
    (by norm_num) (by norm_num)
    (Or.inr mild.2) (Or.inr severe.2) 0.8 1 0.9 1 5 4 2.5 0.1035 1.35 0.026 9.81 nan nan true (by norm_num)
    (by norm_num) (by norm_num) (by norm_num) (by norm_num) (by norm_num) (by norm_num) (by norm_num)
    (by norm_num) (by norm_num) (by norm_num)

example : ∃ q q' : ℝ, 0 < q ∧ q ≤ q' ∧
    (OvertoppingEurOtop2018.calculate_overtopping_discharge_q_rubble_mound (fin 2) (fin 6) (fin 5) nan
      (fin 0.9) (fin 0.5) 0 0 (fin 3) nan nan (fin 0.1035) (fin 1.35) true (fin 9.81)).res = .ok (fin q) ∧
    (OvertoppingEurOtop2018.calculate_overtopping_discharge_q_rubble_mound (fin 3) (fin 9) (fin 4) nan
      (fin 1) (fin 0.55) 0 0 (fin 2.5) nan nan (fin 0.1035) (fin 1.35) true (fin 9.81)).res = .ok (fin q') :=
  (C80_rubble_overtopping_partial 2 3 6 9 3 2.5 0.5 0.55 0.9 1 (by norm_num) (by norm_num) (by norm_num)
    (by norm_num) (by norm_num) (by norm_num) (by norm_num) (by norm_num) (by norm_num) (by norm_num)
    (by norm_num)
    (Or.inr mild.2) (Or.inr severe.2) 5 4 0.1035 1.35 9.81 nan 0 0 true (by norm_num) (by norm_num)
    (by norm_num) (by norm_num) (by norm_num)).2

example : ∃ (z z' : ℝ) (f f' : Bool), 0 < z ∧ z ≤ z' ∧
    (RunupEurOtop2018.calculate_wave_runup_height_z2p (fin 2) (fin 6) (fin 40) nan (fin 1) (fin 0.6)
      (cot_alpha := fin 3) (c1 := fin 1.65) (c2 := fin 4) (c3 := fin 1.5) (c4 := fin 1)
      (use_best_fit := false)).res = .ok (fin z, f) ∧
    (RunupEurOtop2018.calculate_wave_runup_height_z2p (fin 3) (fin 9) (fin (-10)) nan (fin 1) (fin 0.7)
      (cot_alpha := fin 2.5) (c1 := fin 1.65) (c2 := fin 4) (c3 := fin 1.5) (c4 := fin 1)
      (use_best_fit := false)).res = .ok (fin z', f') :=
  C80_eurotop2018_runup_partial 2 3 6 9 3 2.5 0.6 0.7 40 (-10) 1.65 4 1.5 1 nan false (by norm_num)
    (by norm_num) (by norm_num) (by norm_num) (by norm_num) (by norm_num) (by norm_num) (by norm_num)
    (by norm_num)
    (by norm_num [abs_of_nonneg]) (Or.inr mild.2) (Or.inr severe.2) mild.1 severe.1 (by norm_num)
    (by norm_num) (by norm_num) (by norm_num) (by norm_num)

example : ∃ (q q' : ℝ) (f f' : Bool), 0 < q ∧ q ≤ q' ∧
    (VanGent2025.calculate_overtopping_discharge_q (fin 2) (fin 0.2) (fin 6) (fin 5) nan (fin 3) nan 0 0 nan
      (fin 0.5) (fin 0.8) (fin 0.9) (fin 0.9) (fin 9.81) true false).res = .ok (fin q, f) ∧
    (VanGent2025.calculate_overtopping_discharge_q (fin 3) (fin 0.5) (fin 9) (fin 4) nan (fin 2.5) nan 0 0 nan
      (fin 0.6) (fin 0.9) (fin 1) (fin 1) (fin 9.81) true false).res = .ok (fin q', f') :=
  C80_vangent2025_overtopping 2 3 6 9 3 2.5 0.5 0.6 0.8 0.9 0.9 1 0.9 1 5 4 0.2 0.5 9.81 nan nan 0 0 nan true
    (by norm_num) (by norm_num) (by norm_num) (by norm_num) (by norm_num) (by norm_num) (by norm_num)
    (by norm_num) (by norm_num) (by norm_num) (by norm_num) (by norm_num) (by norm_num) (by norm_num)
    (by norm_num) (by norm_num) (by norm_num) (by norm_num)

example : ∃ q q' : ℝ, 0 < q ∧ q ≤ q' ∧
    (VanGent2021Caisson.calculate_overtopping_discharge_q (fin 2) (fin 5) nan (fin 0.8) (fin 0.5) (fin 1.3)
      (fin 0.4) false true true (fin 9.81)).res = .ok (fin q) ∧
    (VanGent2021Caisson.calculate_overtopping_discharge_q (fin 3) (fin 4) nan (fin 0.9) (fin 1) (fin 1.3)
      (fin 0.4) false true true (fin 9.81)).res = .ok (fin q') :=
  C80_caisson_overtopping 2 3 9.81 0.5 1 0.4 1.3 0.047 2.57 0.70 0.85 0.8 0.9 5 4 true false true true nan
    (by norm_num) (by norm_num) (by norm_num) (by unfold Published.caissonTable; simp) rfl (by norm_num)
    (by norm_num) (by norm_num) (by norm_num) (by norm_num) (by norm_num)

example : ∃ q q' : ℝ, 0 < q ∧ q ≤ q' ∧
    (DeRidder2026.calculate_overtopping_discharge_q_eq32 (fin 2) (fin 0.02) (fin 0.3) (fin 0.5) (fin 3)
      (fin 9.81) (fin 30)).res = .ok (fin q) ∧
    (DeRidder2026.calculate_overtopping_discharge_q_eq32 (fin 2.5) (fin 0.01) (fin 0.5) (fin 0.6) (fin 2)
      (fin 9.81) (fin 30)).res = .ok (fin q') :=
  (C80_deridder_overtopping 2 2.5 0.02 0.01 0.5 0.6 3 2 0.3 0.5 9.81 30 (by norm_num) (by norm_num)
    (by norm_num) (by norm_num) (by norm_num) (by norm_num) (by norm_num) (by norm_num) (by norm_num)
    (by norm_num) (by norm_num)).2.2.2

/-- 1 m waves on a slope of 1:2 with roughness 0.5, 1 m below the crest: 17 s waves overtop less than 16 s
waves (the period of Iribarren number 10 is 16.006 s) -/
example : ∃ (q q' : ℝ) (f f' : Bool), q' < q ∧
    (OvertoppingTaw2002.calculate_overtopping_discharge_q (fin 1) (fin (20 * √(2 * Real.pi / 9.81))) (fin 1)
      (fin 2) nan nan nan 0 0 (fin 1) (fin 1) (fin 0.5) (fin 1) (fin 0) (fin 9.81) false).res = .ok (fin q, f) ∧
    (OvertoppingTaw2002.calculate_overtopping_discharge_q (fin 1) (fin 17) (fin 1)
      (fin 2) nan nan nan 0 0 (fin 1) (fin 1) (fin 0.5) (fin 1) (fin 0) (fin 9.81) false).res =
        .ok (fin q', f') := by
  have hp := Real.pi_pos
  have h0 : 0 < 20 * √(2 * Real.pi / 9.81) := by positivity
  have h1 : 20 * √(2 * Real.pi / 9.81) < 17 := by
    have : √(2 * Real.pi / 9.81) < 0.85 := by
      rw [Real.sqrt_lt' (by norm_num), div_lt_iff₀ (by norm_num)]
      linarith [Real.pi_lt_d2]
    linarith
  refine C80_longer_waves_refuted 1 _ 17 2 0.5 1 1 1 9.81 nan 0 0 false one_pos h0 h1 (by norm_num) ?_
    (by norm_num) (by norm_num) (by norm_num) (by norm_num) (by norm_num) (by norm_num)
  obtain ⟨p, e⟩ := irib_sq one_pos h0 (c := 2) two_pos
  rw [mul_pow, Real.sq_sqrt (by positivity)] at e
  have e' : Textbook.iribarren 1 (20 * √(2 * Real.pi / 9.81)) 2 ^ 2 = 10 ^ 2 := by
    rw [mul_one] at e
    rw [e]
    field_simp
    norm_num
  exact (sq_eq_sq₀ p.le (by norm_num)).mp e'

end
