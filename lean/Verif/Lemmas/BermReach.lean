import Verif.Lemmas.CompositeOutside

/-!
# Proof support: berms at any level, also above the water line
-/

open Classical
open PF CorePhysics CoreUtility
noncomputable section

namespace RunupTaw2002

/-- a berm deeper than 2 Hm0, or above the run-up level, gives no reduction -/
theorem berm_out {H L z db : ℝ} (B : ℝ) (hH : 0 < H) (hL : L ≠ 0) (hz : 0 < z) (h : 2 * H ≤ db ∨ z ≤ -db) :
    calculate_influence_berm_gamma_b (fin H) (fin z) (fin db) (fin B) (fin L) = fin 1 := by
  have e1 : (1.0 : PF) = fin 1 := by rw [sci_eq]; norm_num
  have key : whr (fin db > 2 * fin H ∨ fin db < -fin z) 1.0
      (0.5 - 0.5 * PF.cos (PF.pi * fin db / whr (fin db < 0) (fin z) (2 * fin H))) = fin 1 := by
    rw [zero_eq, ofNat_eq, mul_fin, neg_fin, gt_fin, lt_fin, lt_fin, pi_eq, mul_fin, whr_fin, e1]
    by_cases h' : 2 * H < db ∨ db < -z
    · exact whr_true h' _ _
    · rw [whr_false h']
      push Not at h'
      rcases h with h | h
      · have : db = 2 * H := le_antisymm h'.1 h
        subst this
        rw [if_neg (by linarith), div_fin (by positivity), cos_fin, mul_div_assoc,
          div_self (by positivity), mul_one, Real.cos_pi]
        simp only [sci_eq, mul_fin, sub_fin]
        norm_num
      · have : db = -z := le_antisymm (by linarith) h'.2
        subst this
        rw [if_pos (by linarith), div_fin hz.ne', cos_fin, mul_neg, neg_div, mul_div_assoc, div_self hz.ne', mul_one,
          Real.cos_neg, Real.cos_pi]
        simp only [sci_eq, mul_fin, sub_fin]
        norm_num
  unfold calculate_influence_berm_gamma_b
  dsimp only
  rw [key, e1, div_fin hL, sub_fin, mul_fin, sub_fin, min_fin, sci_eq, max_fin, sub_self, mul_zero, sub_zero]
  norm_num

section
variable {H T gf gB c1 c2 c3 c4 k1 k2 k3 k4 m : ℝ} (bf : Bool) (hH : 0 < H) (hT : 0 < T)
  (hgf : 0 < gf) (hgf1 : gf ≤ 1) (hgB : 0 < gB)
  (p1 : 0 < k1) (p2 : 0 < k2) (p3 : 0 ≤ k3) (p4 : 0 < k4) (h23 : 15 / 7 * k3 ≤ k2)
  (hl : 0.5 ≤ VdMProof.xi H T m)
include hH hT hgf hgf1 hgB p1 p2 p3 p4 h23 hl

theorem level_pos' {gb c : ℝ} (hb : 0 < gb) (hb1 : gb ≤ 1) (hc : 0 < c) (hcm : c ≤ m) :
    0 < level H T gf gb gB k1 k2 k3 k4 c := by
  have hx := VdMProof.xi_pos hH hT hc
  have hr := rough_pos (gb := gb) hgf hgf1 hb1 hx
  have hq := level_ok hH hT hc hcm p3 h23 p2 hl
  unfold level ra rb
  exact mul_pos (lt_min (by positivity) (mul_pos (by positivity) (by linarith))) hH

variable (e1 : (if bf then 1.65 else fin c1) = fin k1) (e2 : (if bf then 4.0 else fin c2) = fin k2)
  (e3 : (if bf then 1.5 else fin c3) = fin k3) (e4 : (if bf then 1.0 else fin c4) = fin k4)
include e1 e2 e3 e4

/-- the computed berm factor, for a berm of any width at any level -/
theorem factor_any {c L B db : ℝ} (hc : 0 < c) (hcm : c ≤ m) (hL : 0 < L) :
    ∃ gb : ℝ, 0.6 ≤ gb ∧ gb ≤ 1 ∧ (B = 0 → gb = 1) ∧
      (2 * H ≤ db ∨ level H T gf 1 gB k1 k2 k3 k4 c ≤ -db → gb = 1) ∧
    (iteration_procedure_gamma_b (fin H) (fin T) (fin c) (fin B) (fin L)
      (fin db) (fin gB) (fin c1) (fin c2) (fin c3) (fin c4) bf (fin gf)).res = .ok (fin gb) := by
  have q0 : (0.0 : PF) = fin 0 := by rw [sci_eq]; norm_num
  have q1 : (1.0 : PF) = fin 1 := by rw [sci_eq]; norm_num
  unfold iteration_procedure_gamma_b iteration_procedure_gamma_b_rec
  by_cases hB : B = 0
  · subst hB
    rw [if_pos (Or.inl (by rw [q0, eqF_fin]))]
    exact ⟨1, by norm_num, le_rfl, fun _ => rfl, fun _ => rfl, by rw [q1]; rfl⟩
  · rw [if_neg (by rw [q0, eqF_fin, eqF_fin]; push Not; exact ⟨hB, hL.ne'⟩)]
    have a1 := level_pos' hH hT hgf hgf1 hgB p1 p2 p3 p4 h23 hl one_pos le_rfl hc hcm
    obtain ⟨f1, r1⟩ := height_level (gf := gf) (gb := 1) (gB := gB) bf hH hT hc e1 e2 e3 e4
    obtain ⟨g1, hg1, u1, v1⟩ := berm_real hH hL.ne' (level H T gf 1 gB k1 k2 k3 k4 c) db B
    have g0 : 0 < g1 := lt_of_lt_of_le (by norm_num) u1
    obtain ⟨f2, r2⟩ := height_level (gf := gf) (gb := g1) (gB := gB) bf hH hT hc e1 e2 e3 e4
    obtain ⟨g2, hg2, u2, v2⟩ := berm_real hH hL.ne' (level H T gf g1 gB k1 k2 k3 k4 c) db B
    have a2 := level_pos' hH hT hgf hgf1 hgB p1 p2 p3 p4 h23 hl g0 v1 hc hcm
    refine ⟨g2, u2, v2, fun h => absurd h hB, fun h => ?_, ?_⟩
    · rw [berm_out B hH hL.ne' a1 h, fin_inj] at hg1
      subst hg1
      rw [berm_out B hH hL.ne' a1 h, fin_inj] at hg2
      exact hg2.symm
    · rw [q1, PyM.bind_res_of_ok r1]
      dsimp only
      rw [hg1, PyM.bind_res_of_ok r2]
      dsimp only
      rw [hg2]
      rfl

/-- equal slopes above and below the berm: the run-up of the straight slope with the computed berm factor -/
theorem straight_berm {c B db : ℝ} (hc : 0 < c) (hcm : c ≤ m) (hB : 0 ≤ B) :
    ∃ gb : ℝ, 0.6 ≤ gb ∧ gb ≤ 1 ∧ (B = 0 → gb = 1) ∧
      (2 * H ≤ db ∨ level H T gf 1 gB k1 k2 k3 k4 c ≤ -db → gb = 1) ∧
      (calculate_dimensionless_wave_runup_height_z2p
        { Hm0 := fin H, Tmm10 := fin T, cot_alpha_down := fin c, cot_alpha_up := fin c, gamma_beta := fin gB,
          gamma_f := fin gf, B_berm := fin B, db := fin db, c1 := fin c1, c2 := fin c2, c3 := fin c3, c4 := fin c4,
          use_best_fit := bf }).res =
        (calculate_dimensionless_wave_runup_height_z2p
          { Hm0 := fin H, Tmm10 := fin T, cot_alpha := fin c, gamma_beta := fin gB,
            gamma_b := fin gb, gamma_f := fin gf, c1 := fin c1, c2 := fin c2, c3 := fin c3, c4 := fin c4,
            use_best_fit := bf }).res := by
  have again : ∀ {x y : PF} {k : ℝ}, (if bf then x else y) = fin k → (if bf then x else fin k) = fin k := by
    intro x y k h
    cases bf
    · rfl
    · exact h
  have q1 : (1.0 : PF) = fin 1 := by rw [sci_eq]; norm_num
  have hfin : ∀ x : ℝ, ¬ (fin x).isnan := fun x => by simp
  have hL0 : 0 < H * c + B + H * c := by positivity
  have hL : (1.0 * fin H * fin c + fin B + 1.0 * fin H * fin c : PF) = fin (H * c + B + H * c) := by
    rw [q1]; simp only [mul_fin, add_fin, one_mul]
  have hav : ∀ z, 0 < z → avg H z c c db = c := fun z hz => by
    rw [avg_from_up (by positivity), sub_self, mul_zero, zero_div, add_zero]
  have body : ∀ z, 0 < z → ∃ y, 0 < y ∧ ∀ s2, (pass H T c c gf gB B db k1 k2 k3 k4 bf (fin z, s2)).res =
      .ok (fin y, fin z) := by
    intro z hz
    have a : 0 < avg H z c c db := by rw [hav z hz]; exact hc
    obtain ⟨g, hg, u, v⟩ := berm_real hH hL0.ne' z db B
    refine ⟨level H T gf g gB k1 k2 k3 k4 c, level_pos' hH hT hgf hgf1 hgB p1 p2 p3 p4 h23 hl
      (lt_of_lt_of_le (by norm_num) u) v hc hcm, fun s2 => ?_⟩
    unfold pass
    dsimp only
    rw [berm_length_composite (hfin c) (hfin c), pure_bind, hL, average_pos B (by positivity) a, hg, hav z hz]
    unfold calculate_wave_runup_height_z2p height_of
    rw [bind_assoc, PyM.bind_res_of_ok (single_res hH hT hc rfl rfl rfl (Or.inl rfl) rfl rfl rfl (again e1) (again e2)
      (again e3) (again e4))]
    rfl
  obtain ⟨r, hr, z, hz, hrz⟩ := whileIterM_ok (bodyM := pass H T c c gf gB B db k1 k2 k3 k4 bf)
    (cond := fun s : PF × PF => PF.abs (s.1 - s.2) > fin 1e-4)
    (I := fun s : PF × PF => ∃ z : ℝ, 0 < z ∧ s.1 = fin z)
    (fun s hs => by
      obtain ⟨s1, s2⟩ := s
      obtain ⟨z, hz, h⟩ := hs
      subst h
      obtain ⟨y, hy, hp⟩ := body z hz
      exact ⟨_, hp s2, y, hy, rfl⟩) 1001 (1.5 * fin H, 1.5 * fin H + 2 * 1e-4)
    ⟨1.5 * H, by positivity, rfl⟩
  have hit : (iteration_procedure_z2p_rec calculate_wave_runup_height_z2p (fin H) (fin T) (fin c) (fin c)
        (fin B) (fin db) (fin gf) (fin gB) (fin k1) (fin k2) (fin k3) (fin k4) bf).res = .ok (fin z) := by
    unfold iteration_procedure_z2p_rec
    dsimp only
    change (whileIterM 1001 (fun s : PF × PF => PF.abs (s.1 - s.2) > fin 1e-4)
      (pass H T c c gf gB B db k1 k2 k3 k4 bf) _ >>= _).res = _
    rw [PyM.bind_res_of_ok hr, ← hrz]
    rfl
  obtain ⟨gb, u, v, h0, h1, hg⟩ := factor_any (B := B) (db := db) bf hH hT hgf hgf1 hgB p1 p2 p3 p4 h23 hl (again e1)
    (again e2) (again e3) (again e4) hc hcm hL0
  refine ⟨gb, u, v, h0, h1, ?_⟩
  refine Eq.trans (diml_res hH hT hc rfl rfl rfl rfl e1 e2 e3 e4 ?_ ?_)
    (single_res hH hT hc rfl rfl rfl (Or.inl rfl) rfl rfl rfl e1 e2 e3 e4).symm
  · have : check_composite_slope nan (fin c) (fin c) = pure true := by
      unfold check_composite_slope; simp
    have a : 0 < avg H z c c db := by rw [hav z hz]; exact hc
    unfold slope_rec
    dsimp only
    rw [this, pure_bind, if_pos rfl, PyM.bind_res_of_ok hit, average_pos B (by positivity) a, hav z hz]
    rfl
  · unfold berm_rec
    dsimp only
    rw [if_pos (isnan_nan.mpr trivial), berm_length_composite (hfin c) (hfin c), pure_bind, hL]
    exact hg
end
end RunupTaw2002

namespace OvertoppingTaw2002

/-- overtopping of a straight slope with a berm at any level -/
theorem pre_straight_berm {H T c gf gB B db : ℝ} (beta : PF) (hH : 0 < H) (hT : 0 < T)
    (hc : 0 < c) (hgf : 0 < gf) (hgf1 : gf ≤ 1) (hgB : 0 < gB) (hB : 0 ≤ B)
    (hl : 0.5 ≤ VdMProof.xi H T c) :
    ∃ gb : ℝ, 0.6 ≤ gb ∧ gb ≤ 1 ∧ (B = 0 → gb = 1) ∧
      (2 * H ≤ db ∨ RunupTaw2002.level H T gf 1 gB 1.75 4.3 1.6 1.0 c ≤ -db → gb = 1) ∧
      (pre (fin H) (fin T) (fin c) nan nan beta (fin B) (fin db) (fin gB) nan (fin gf)).res =
        .ok (fin gB, fin c, fin gb) := by
  have q1 : (1.0 : PF) = fin 1 := by rw [sci_eq]; norm_num
  have hL0 : 0 < H * c + B + H * c := by positivity
  have hL : (1.0 * fin H * fin c + fin B + 1.0 * fin H * fin c : PF) = fin (H * c + B + H * c) := by
    rw [q1]; simp only [mul_fin, add_fin, one_mul]
  obtain ⟨gb, u, v, h0, h1, hg⟩ := RunupTaw2002.factor_any (c1 := 1.75) (c2 := 4.3) (c3 := 1.6) (c4 := 1.0) (B := B)
    (db := db) (gB := gB) (gf := gf) (m := c) false hH hT hgf hgf1 hgB (by norm_num)
    (by norm_num) (by norm_num) (by norm_num) (by norm_num) hl rfl rfl rfl rfl hc le_rfl hL0
  refine ⟨gb, u, v, h0, h1, ?_⟩
  replace hg : (RunupTaw2002.iteration_procedure_gamma_b (fin H) (fin T) (fin c) (fin B)
      (1.0 * fin H * fin c + fin B + 1.0 * fin H * fin c) (fin db) (fin gB) (gamma_f := fin gf)).res =
      .ok (fin gb) := by rw [hL]; exact hg
  have h1 : RunupTaw2002.check_calculate_gamma_beta beta (fin gB) = pure false := by
    unfold RunupTaw2002.check_calculate_gamma_beta; simp
  have h2 : RunupTaw2002.check_composite_slope (fin c) nan nan = pure false := by
    unfold RunupTaw2002.check_composite_slope; simp
  have h3 : RunupTaw2002.calculate_berm_length (fin H) (fin B) (fin c) nan nan =
      pure (1.0 * fin H * fin c + fin B + 1.0 * fin H * fin c) := by
    unfold RunupTaw2002.calculate_berm_length
    rw [h2, pure_bind]
    rfl
  unfold pre
  rw [h1, pure_bind]
  dsimp only
  rw [if_neg Bool.false_ne_true, h2, pure_bind, if_neg Bool.false_ne_true, pure_bind, if_pos (isnan_nan.mpr trivial),
    h3, pure_bind, PyM.bind_res_of_ok hg]
  rfl
end OvertoppingTaw2002
end
