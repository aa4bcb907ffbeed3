import Verif.Lemmas.Composite
import Verif.Props.WorseBerm

/-!
# C88: a structure with two slopes behaves like a straight slope in between

A lower slope `cot_alpha_down` and an upper slope `cot_alpha_up`, no berm width (the transition may lie at depth
`db` below the water line): run-up and overtopping are at least those of a straight slope as flat as the flatter
one, and at most those of a straight slope as steep as the steeper one.
-/

open Classical
open PF
open CorePhysics CoreUtility WorseProof
noncomputable section

section
variable (H T cd cu gf gB db : ℝ) (hH : 0 < H) (hT : 0 < T) (hcd : 0 < cd) (hcu : 0 < cu) (hf : 0.18 ≤ gf)
  (hf1 : gf ≤ 1) (hB : 0 < gB) (hd0 : 0 ≤ db) (hd : db ≤ 1.5 * H)
  (hl : 0.5 ≤ Textbook.iribarren H T (max cd cu))
  (hr : gf = 1 ∨ Textbook.iribarren H T (min cd cu) ≤ 10)
include hH hT hcd hcu hf hf1 hB hd0 hd hl hr

/-- C88 for run-up by TAW (2002) (missing: berms, Iribarren numbers below 0.5, and rough slopes with Iribarren
numbers above 10) -/
theorem C88_taw_runup_partial (bf : Bool) : ∃ (z z1 z2 : ℝ) (f f1 f2 : Bool), 0 < z1 ∧ z1 ≤ z ∧ z ≤ z2 ∧
    (RunupTaw2002.calculate_wave_runup_height_z2p
      { Hm0 := fin H, Tmm10 := fin T, cot_alpha_down := fin cd, cot_alpha_up := fin cu, gamma_f := fin gf,
        gamma_beta := fin gB, db := fin db, use_best_fit := bf }).res = .ok (fin z, f) ∧
    (RunupTaw2002.calculate_wave_runup_height_z2p
      { Hm0 := fin H, Tmm10 := fin T, cot_alpha := fin (max cd cu), gamma_f := fin gf, gamma_b := fin 1,
        gamma_beta := fin gB, use_best_fit := bf }).res = .ok (fin z1, f1) ∧
    (RunupTaw2002.calculate_wave_runup_height_z2p
      { Hm0 := fin H, Tmm10 := fin T, cot_alpha := fin (min cd cu), gamma_f := fin gf, gamma_b := fin 1,
        gamma_beta := fin gB, use_best_fit := bf }).res = .ok (fin z2, f2) := by
  have f0 : 0 < gf := lt_of_lt_of_le (by norm_num) hf
  have lo : 0 < min cd cu := lt_min hcd hcu
  have c1 : (0 : ℝ) < if bf then 1.65 else 1.75 := by split_ifs <;> norm_num
  have c2 : (0 : ℝ) < if bf then 4.0 else 4.3 := by split_ifs <;> norm_num
  have c3 : (0 : ℝ) ≤ if bf then 1.5 else 1.6 := by split_ifs <;> norm_num
  have c4 : (0 : ℝ) < if bf then 1.0 else 1.0 := by split_ifs <;> norm_num
  have c23 : 15 / 7 * (if bf then 1.5 else 1.6) ≤ (if bf then 4.0 else 4.3 : ℝ) := by split_ifs <;> norm_num
  obtain ⟨c, h1, h2, he⟩ := RunupTaw2002.composite_eq (a := { Hm0 := fin H, Tmm10 := fin T, cot_alpha_down := fin cd, cot_alpha_up := fin cu, gamma_f := fin gf, gamma_beta := fin gB, db := fin db, use_best_fit := bf })
    (c1 := 1.75) (c2 := 4.3) (c3 := 1.6) (c4 := 1.0) (k1 := if bf then 1.65 else 1.75)
    (k2 := if bf then 4.0 else 4.3) (k3 := if bf then 1.5 else 1.6) (k4 := if bf then 1.0 else 1.0)
    hH hT hcd hcu f0 hf1 hB hd0 hd rfl (by cases bf <;> rfl) (by cases bf <;> rfl) (by cases bf <;> rfl)
    (by cases bf <;> rfl) c1 c2 c3 c4 c23 (by rwa [RangeProof.irib_eq] at hl)
  have x2 := irib_c hH hT lo h1
  have x1 := irib_c hH hT (lo.trans_le h1) h2
  have hrc : gf = 1 ∨ Textbook.iribarren H T c ≤ 10 := hr.imp_right x2.trans
  obtain ⟨z1, z, f1, f, p, h, e1, e⟩ := C80_taw_runup_berm_partial H H T T (max cd cu) c gf gf gB gB 1 1 hH le_rfl
    hT le_rfl (lo.trans_le h1) h2 hf le_rfl hf1 hB le_rfl one_pos le_rfl (alt (hrc.imp_right x1.trans)) (alt hrc) bf
    hl (hl.trans x1)
  obtain ⟨z', z2, f', f2, -, h', e', e2⟩ := C80_taw_runup_berm_partial H H T T c (min cd cu) gf gf gB gB 1 1 hH
    le_rfl hT le_rfl lo h1 hf le_rfl hf1 hB le_rfl one_pos le_rfl (alt hrc) (alt hr) bf (hl.trans x1)
    (hl.trans (x1.trans x2))
  obtain ⟨h0, -⟩ := Prod.mk.inj (Except.ok.inj (e.symm.trans e'))
  rw [fin_inj] at h0
  subst h0
  refine ⟨z, z1, z2, f, f1, f2, p, h, h', ?_, e1, e2⟩
  rw [← e]
  unfold RunupTaw2002.calculate_wave_runup_height_z2p RunupTaw2002.height_of
  exact PyM.bind_res_congr he _

/-- C88 for overtopping by TAW (2002) (missing: as for run-up) -/
theorem C88_taw_overtopping_partial (gv R s g : ℝ) (beta : PF) (bf : Bool) (hv : 0 < gv) (hR : 0 ≤ R)
    (hs : s = 0 ∨ bf = true) (hs7 : -7 ≤ s) (hg : 0 < g) :
    ∃ (q q1 q2 : ℝ) (f f1 f2 : Bool), 0 < q1 ∧ q1 ≤ q ∧ q ≤ q2 ∧
      (OvertoppingTaw2002.calculate_overtopping_discharge_q (fin H) (fin T) (fin R) nan (fin cd) (fin cu) beta
        (fin 0) (fin db) (fin gB) nan (fin gf) (fin gv) (fin s) (fin g) bf).res = .ok (fin q, f) ∧
      (OvertoppingTaw2002.calculate_overtopping_discharge_q (fin H) (fin T) (fin R) (fin (max cd cu)) nan nan beta
        (fin 0) (fin db) (fin gB) nan (fin gf) (fin gv) (fin s) (fin g) bf).res = .ok (fin q1, f1) ∧
      (OvertoppingTaw2002.calculate_overtopping_discharge_q (fin H) (fin T) (fin R) (fin (min cd cu)) nan nan beta
        (fin 0) (fin db) (fin gB) nan (fin gf) (fin gv) (fin s) (fin g) bf).res = .ok (fin q2, f2) := by
  have f0 : 0 < gf := lt_of_lt_of_le (by norm_num) hf
  have lo : 0 < min cd cu := lt_min hcd hcu
  obtain ⟨c, hc, h1, h2, hp⟩ := OvertoppingTaw2002.pre_composite (gf := gf) (gB := gB) beta hH hT hcd hcu f0 hf1 hB
    hd0 hd (by rwa [RangeProof.irib_eq] at hl)
  have x2 := irib_c hH hT lo h1
  have x1 := irib_c hH hT hc h2
  have hrc : gf = 1 ∨ Textbook.iribarren H T c ≤ 10 := hr.imp_right x2.trans
  have st : ∀ c : ℝ, 0 < c → (OvertoppingTaw2002.calculate_overtopping_discharge_q (fin H) (fin T) (fin R)
      (fin c) nan nan beta (fin 0) (fin db) (fin gB) nan (fin gf) (fin gv) (fin s) (fin g) bf).res =
      (OvertoppingTaw2002.calculate_overtopping_discharge_q (fin H) (fin T) (fin R) (fin c) nan nan beta (fin 0)
        (fin db) (fin gB) (fin 1) (fin gf) (fin gv) (fin s) (fin g) bf).res := by
    intro c hc
    unfold OvertoppingTaw2002.calculate_overtopping_discharge_q
    refine PyM.bind_res_congr ?_ _
    rw [OvertoppingTaw2002.q_res hH hT hs f0 hf1 hv hB hc one_pos le_rfl
        (OvertoppingTaw2002.pre_plain H T c gf gB db beta (Or.inl rfl)),
      OvertoppingTaw2002.q_res hH hT hs f0 hf1 hv hB hc one_pos le_rfl
        (OvertoppingTaw2002.pre_plain H T c gf gB db beta (Or.inr rfl))]
  obtain ⟨q1, q, f1, f, p, h, e1, e⟩ := C80_taw_overtopping_partial H H T T (max cd cu) c gf gf gB gB hH le_rfl
    hT le_rfl hc h2 hf le_rfl hf1 hB le_rfl (hrc.imp_right x1.trans) hrc gv gv R R s g beta (fin 0) (fin db) bf
    hv le_rfl hR le_rfl hs hs7 hg
  obtain ⟨q', q2, f', f2, -, h', e', e2⟩ := C80_taw_overtopping_partial H H T T c (min cd cu) gf gf gB gB hH le_rfl
    hT le_rfl lo h1 hf le_rfl hf1 hB le_rfl hrc hr gv gv R R s g beta (fin 0) (fin db) bf hv le_rfl hR le_rfl hs
    hs7 hg
  obtain ⟨h0, -⟩ := Prod.mk.inj (Except.ok.inj (e.symm.trans e'))
  rw [fin_inj] at h0
  subst h0
  refine ⟨q, q1, q2, f, f1, f2, p, h, h', ?_, (st _ (hc.trans_le h2)).trans e1, (st _ lo).trans e2⟩
  rw [← e]
  unfold OvertoppingTaw2002.calculate_overtopping_discharge_q
  refine PyM.bind_res_congr ?_ _
  rw [OvertoppingTaw2002.q_res hH hT hs f0 hf1 hv hB hc one_pos le_rfl hp,
    OvertoppingTaw2002.q_res hH hT hs f0 hf1 hv hB hc one_pos le_rfl
      (OvertoppingTaw2002.pre_plain H T c gf gB db beta (Or.inr rfl))]

/-- C88 for overtopping by EurOtop (2018) (missing: as for run-up) -/
theorem C88_eurotop2018_overtopping_partial (gv gs R c1 c2 c3 c4 g : ℝ) (beta gb : PF) (bf : Bool)
    (hv : 0 < gv) (hs : 0 < gs) (hR : 0 ≤ R) (h1 : 0 < c1) (h2 : 0 < c2) (h3 : 0 < c3) (h4 : 0 < c4) (hg : 0 < g) :
    ∃ (q q1 q2 : ℝ) (f f1 f2 : Bool), 0 < q1 ∧ q1 ≤ q ∧ q ≤ q2 ∧
      (OvertoppingEurOtop2018.calculate_overtopping_discharge_q (fin H) (fin T) (fin R) beta (fin gB) gb
        (fin gf) (fin gv) (fin gs) (db := fin db) (cot_alpha_down := fin cd) (cot_alpha_up := fin cu) (c1 := fin c1)
        (c2 := fin c2) (c3 := fin c3) (c4 := fin c4) (use_best_fit := bf) (g := fin g)).res = .ok (fin q, f) ∧
      (OvertoppingEurOtop2018.calculate_overtopping_discharge_q (fin H) (fin T) (fin R) beta (fin gB) gb
        (fin gf) (fin gv) (fin gs) (cot_alpha := fin (max cd cu)) (c1 := fin c1) (c2 := fin c2) (c3 := fin c3)
        (c4 := fin c4) (use_best_fit := bf) (g := fin g)).res = .ok (fin q1, f1) ∧
      (OvertoppingEurOtop2018.calculate_overtopping_discharge_q (fin H) (fin T) (fin R) beta (fin gB) gb
        (fin gf) (fin gv) (fin gs) (cot_alpha := fin (min cd cu)) (c1 := fin c1) (c2 := fin c2) (c3 := fin c3)
        (c4 := fin c4) (use_best_fit := bf) (g := fin g)).res = .ok (fin q2, f2) := by
  have f0 : 0 < gf := lt_of_lt_of_le (by norm_num) hf
  have lo : 0 < min cd cu := lt_min hcd hcu
  obtain ⟨z, -, hz, -, -, hp, hb⟩ := OvertoppingEurOtop2018.pre_composite (gf := gf) (gB := gB) beta bf hH hT hcd
    hcu f0 hf1 hB hd0 hd (by rwa [RangeProof.irib_eq] at hl)
  have btw := RunupTaw2002.avg_between hH hz hd0 hd (min_le_left cd cu) (min_le_right cd cu) (le_max_left cd cu)
    (le_max_right cd cu)
  obtain ⟨l1, l2⟩ := btw
  generalize RunupTaw2002.avg H z cd cu db = c at *
  have hc : 0 < c := lo.trans_le l1
  have x2 := irib_c hH hT lo l1
  have x1 := irib_c hH hT hc l2
  have hrc : gf = 1 ∨ Textbook.iribarren H T c ≤ 10 := hr.imp_right x2.trans
  obtain ⟨q1, q, f1, f, p, h, e1, e⟩ := C80_eurotop2018_overtopping_partial H H T T (max cd cu) c gf gf gB gB hH
    le_rfl hT le_rfl hc l2 hf le_rfl hf1 hB le_rfl (hrc.imp_right x1.trans) hrc gv gv gs gs R R c1 c2 c3 c4 g beta
    gb bf hv le_rfl hs le_rfl hR le_rfl h1 h2 h3 h4 hg
  obtain ⟨q', q2, f', f2, -, h', e', e2⟩ := C80_eurotop2018_overtopping_partial H H T T c (min cd cu) gf gf gB gB hH
    le_rfl hT le_rfl lo l1 hf le_rfl hf1 hB le_rfl hrc hr gv gv gs gs R R c1 c2 c3 c4 g beta
    gb bf hv le_rfl hs le_rfl hR le_rfl h1 h2 h3 h4 hg
  obtain ⟨h0, -⟩ := Prod.mk.inj (Except.ok.inj (e.symm.trans e'))
  rw [fin_inj] at h0
  subst h0
  refine ⟨q, q1, q2, f, f1, f2, p, h, h', ?_, e1, e2⟩
  rw [← e]
  obtain ⟨k1, k2, k3, k4, g1, g2, g3, g4, hK⟩ := OvertoppingEurOtop2018.best_ok bf h1 h2 h3 h4
  have X : OvertoppingEurOtop2018.Ctx H T gf gv gs gB c 1 k1 k2 k3 k4 c1 c2 c3 c4 bf :=
    ⟨hH, hT, f0, hf1, hv, hs, hB, hc, one_pos, le_rfl, g1, g2, g3, g4, hK⟩
  have e0 : (0.0 : PF) = fin 0 := by rw [sci_eq]; norm_num
  obtain ⟨gB', gb', -, -, -, hz1, hp', hb'⟩ := OvertoppingEurOtop2018.pre_straight (gf := gf) (db := 0) (B := 0)
    (beta := beta) (gB' := fin gB) bf hH hT hc le_rfl (Or.inr ⟨_, rfl, hB⟩) (Or.inl (by simp))
  obtain rfl := hz1 rfl
  obtain rfl : gB = gB' := by
    unfold OvertoppingEurOtop2018.pre RunupTaw2002.check_calculate_gamma_beta RunupTaw2002.check_composite_slope at hp'
    simpa using hp'
  rw [e0, X.q_res hg hR hp hb, X.q_res hg hR hp' hb']
end

/-- C88 for run-up by EurOtop (2018) (missing: as for TAW (2002)); obliqueness is given by the angle -/
theorem C88_eurotop2018_runup_partial (H T cd cu gf db b c1 c2 c3 c4 : ℝ) (gB : PF) (bf : Bool) (hH : 0 < H)
    (hT : 0 < T) (hcd : 0 < cd) (hcu : 0 < cu) (hf : 0.18 ≤ gf) (hf1 : gf ≤ 1) (hd0 : 0 ≤ db) (hd : db ≤ 1.5 * H)
    (hl : 0.5 ≤ Textbook.iribarren H T (max cd cu)) (hr : gf = 1 ∨ Textbook.iribarren H T (min cd cu) ≤ 10)
    (h1 : 0 < c1) (h2 : 0 < c2) (h3 : 0 ≤ c3) (h4 : 0 < c4) (h23 : 15 / 7 * c3 ≤ c2) :
    ∃ (z z1 z2 : ℝ) (f f1 f2 : Bool), 0 < z1 ∧ z1 ≤ z ∧ z ≤ z2 ∧
      (RunupEurOtop2018.calculate_wave_runup_height_z2p (fin H) (fin T) (fin b) gB (gamma_f := fin gf)
        (db := fin db) (cot_alpha_down := fin cd) (cot_alpha_up := fin cu) (c1 := fin c1) (c2 := fin c2)
        (c3 := fin c3) (c4 := fin c4) (use_best_fit := bf)).res = .ok (fin z, f) ∧
      (RunupEurOtop2018.calculate_wave_runup_height_z2p (fin H) (fin T) (fin b) gB (fin 1) (fin gf)
        (cot_alpha := fin (max cd cu)) (c1 := fin c1) (c2 := fin c2) (c3 := fin c3) (c4 := fin c4)
        (use_best_fit := bf)).res = .ok (fin z1, f1) ∧
      (RunupEurOtop2018.calculate_wave_runup_height_z2p (fin H) (fin T) (fin b) gB (fin 1) (fin gf)
        (cot_alpha := fin (min cd cu)) (c1 := fin c1) (c2 := fin c2) (c3 := fin c3) (c4 := fin c4)
        (use_best_fit := bf)).res = .ok (fin z2, f2) := by
  have f0 : 0 < gf := lt_of_lt_of_le (by norm_num) hf
  have lo : 0 < min cd cu := lt_min hcd hcu
  have ho := (C78_obliqueness_eurotop2018 b gf).1
  have hB : 0 < Published.obliqueness (if 0.6 < gf then 0.0022 else 0.0063) b := by
    unfold Published.obliqueness
    have m80 : min |b| 80 ≤ 80 := min_le_right _ _
    generalize min |b| 80 = m at *
    split_ifs <;> norm_num <;> linarith
  have k1 : (0 : ℝ) < if bf then 1.65 else c1 := by split_ifs; norm_num; exact h1
  have k2 : (0 : ℝ) < if bf then 4.0 else c2 := by split_ifs; norm_num; exact h2
  have k3 : (0 : ℝ) ≤ if bf then 1.5 else c3 := by split_ifs; norm_num; exact h3
  have k4 : (0 : ℝ) < if bf then 1.0 else c4 := by split_ifs; norm_num; exact h4
  have k23 : 15 / 7 * (if bf then 1.5 else c3) ≤ (if bf then 4.0 else c2 : ℝ) := by
    split_ifs; norm_num; exact h23
  have hk : RunupEurOtop2018.check_best_fit (fin c1) (fin c2) (fin c3) (fin c4) bf =
      (fin (if bf then 1.65 else c1), fin (if bf then 4.0 else c2), fin (if bf then 1.5 else c3),
        fin (if bf then 1.0 else c4)) := by
    unfold RunupEurOtop2018.check_best_fit
    cases bf <;> rfl
  obtain ⟨c, l1, l2, he⟩ := RunupTaw2002.composite_eq (a := { Hm0 := fin H, Tmm10 := fin T, cot_alpha_down := fin cd, cot_alpha_up := fin cu, gamma_f := fin gf, gamma_beta := fin (Published.obliqueness (if 0.6 < gf then 0.0022 else 0.0063) b), db := fin db, c1 := fin (if bf then 1.65 else c1), c2 := fin (if bf then 4.0 else c2), c3 := fin (if bf then 1.5 else c3), c4 := fin (if bf then 1.0 else c4) })
    hH hT hcd hcu f0 hf1 hB hd0 hd rfl rfl rfl rfl rfl k1 k2 k3 k4 k23 (by rwa [RangeProof.irib_eq] at hl)
  have x2 := irib_c hH hT lo l1
  have x1 := irib_c hH hT (lo.trans_le l1) l2
  have hrc : gf = 1 ∨ Textbook.iribarren H T c ≤ 10 := hr.imp_right x2.trans
  obtain ⟨z1, z, f1, f, p, h, e1, e⟩ := C80_eurotop2018_runup_berm_partial H H T T (max cd cu) c gf gf 1 1 b b c1 c2
    c3 c4 gB bf hH le_rfl hT le_rfl (lo.trans_le l1) l2 hf le_rfl hf1 one_pos le_rfl le_rfl
    (alt (hrc.imp_right x1.trans)) (alt hrc) hl (hl.trans x1) h1 h2 h3 h4 h23
  obtain ⟨z', z2, f', f2, -, h', e', e2⟩ := C80_eurotop2018_runup_berm_partial H H T T c (min cd cu) gf gf 1 1 b b
    c1 c2 c3 c4 gB bf hH le_rfl hT le_rfl lo l1 hf le_rfl hf1 one_pos le_rfl le_rfl
    (alt hrc) (alt hr) (hl.trans x1) (hl.trans (x1.trans x2)) h1 h2 h3 h4 h23
  obtain ⟨h0, -⟩ := Prod.mk.inj (Except.ok.inj (e.symm.trans e'))
  rw [fin_inj] at h0
  subst h0
  refine ⟨z, z1, z2, f, f1, f2, p, h, h', ?_, e1, e2⟩
  rw [← e]
  unfold RunupEurOtop2018.calculate_wave_runup_height_z2p
    RunupEurOtop2018.calculate_dimensionless_wave_runup_height_z2p
  dsimp only
  rw [ho, hk]
  exact PyM.bind_res_congr he _

/-! ## Cases: 1:3 below and 1:4 above, the transition 1 m below the water line -/

namespace CompositeCase
theorem flat : 0.5 ≤ Textbook.iribarren 2 6 (max 3 4) := by
  rw [max_eq_right (by norm_num)]
  exact (between (a := 0.5) (b := 10) (by norm_num) (by norm_num) (by norm_num) (by norm_num) (by norm_num)
    (by norm_num)).1
theorem steep : Textbook.iribarren 2 6 (min 3 4) ≤ 10 := by
  rw [min_eq_left (by norm_num)]
  exact (between (a := 0.5) (b := 10) (by norm_num) (by norm_num) (by norm_num) (by norm_num) (by norm_num)
    (by norm_num)).2
end CompositeCase
open CompositeCase

example := C88_taw_runup_partial 2 6 3 4 0.6 0.9 1 (by norm_num) (by norm_num) (by norm_num) (by norm_num)
  (by norm_num) (by norm_num) (by norm_num) (by norm_num) (by norm_num) flat (Or.inr steep) true
example := C88_taw_overtopping_partial 2 6 3 4 0.6 0.9 1 (by norm_num) (by norm_num) (by norm_num) (by norm_num)
  (by norm_num) (by norm_num) (by norm_num) (by norm_num) (by norm_num) flat (Or.inr steep) 0.9 3 0 9.81 nan false
  (by norm_num) (by norm_num) (Or.inl rfl) (by norm_num) (by norm_num)
example := C88_eurotop2018_overtopping_partial 2 6 3 4 0.6 0.9 1 (by norm_num) (by norm_num) (by norm_num)
  (by norm_num) (by norm_num) (by norm_num) (by norm_num) (by norm_num) (by norm_num) flat (Or.inr steep) 0.9 0.8 3
  2.5 0.1035 1.35 0.026 9.81 nan nan false (by norm_num) (by norm_num) (by norm_num) (by norm_num) (by norm_num)
  (by norm_num) (by norm_num) (by norm_num)
example := C88_eurotop2018_runup_partial 2 6 3 4 0.6 1 20 1.75 4.3 1.5 1.07 nan false (by norm_num) (by norm_num)
  (by norm_num) (by norm_num) (by norm_num) (by norm_num) (by norm_num) (by norm_num) flat (Or.inr steep)
  (by norm_num) (by norm_num) (by norm_num) (by norm_num) (by norm_num)
end
