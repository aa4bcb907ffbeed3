import Verif.Lemmas.CompositeFix
import Verif.SpecBerm

/-!
# Proof support: two slopes with a berm at or below the water line
-/

open Classical
open PF CorePhysics CoreUtility
noncomputable section

theorem Published.bermFactor_bounds (H cd cu B d : ℝ) :
    0.6 ≤ Published.bermFactor H cd cu B d ∧ Published.bermFactor H cd cu B d ≤ 1 := by
  unfold Published.bermFactor
  exact ⟨le_max_right _ _, max_le (min_le_right _ _) (by norm_num)⟩

/-- a wider berm reduces more -/
theorem Published.bermFactor_anti {H cd cu B B' d : ℝ} (hH : 0 < H) (hcd : 0 < cd) (hcu : 0 < cu) (hB : 0 ≤ B)
    (hBB : B ≤ B') : Published.bermFactor H cd cu B' d ≤ Published.bermFactor H cd cu B d := by
  unfold Published.bermFactor
  refine max_le_max (min_le_min (sub_le_sub_left (mul_le_mul_of_nonneg_right ?_ ?_) _) le_rfl) le_rfl
  · have a : 0 < H * cd := by positivity
    have b : 0 < H * cu := by positivity
    rw [div_le_div_iff₀ (by linarith) (by linarith)]
    nlinarith
  · have := Real.neg_one_le_cos (Real.pi * d / (2 * H))
    norm_num
    linarith

theorem Published.bermFactor_none (H cd cu d : ℝ) : Published.bermFactor H cd cu 0 d = 1 := by
  unfold Published.bermFactor
  rw [zero_div, zero_mul, sub_zero, min_self]
  norm_num

namespace RunupTaw2002

/-- a berm at or below the water line: the reduction does not depend on the run-up level -/
theorem berm_below {H cd cu B db z : ℝ} (hH : 0 < H) (hcd : 0 < cd) (hcu : 0 < cu) (hB : 0 ≤ B) (hd0 : 0 ≤ db)
    (hd : db ≤ 1.5 * H) (hz : 0 < z) :
    calculate_influence_berm_gamma_b (fin H) (fin z) (fin db) (fin B) (1.0 * fin H * fin cd + fin B + 1.0 * fin H * fin cu) =
      fin (Published.bermFactor H cd cu B db) := by
  have e1 : (1.0 : PF) = fin 1 := by rw [sci_eq]; norm_num
  have hL : 0 < H * cd + B + H * cu := by positivity
  have h : ¬ (2 * H < db ∨ db < -z) := by
    push Not
    norm_num at hd
    constructor <;> linarith
  unfold calculate_influence_berm_gamma_b Published.bermFactor
  dsimp only
  rw [zero_eq, ofNat_eq, mul_fin, neg_fin, gt_fin, lt_fin, lt_fin, pi_eq, mul_fin, whr_fin, e1, whr_false h,
    if_neg (by linarith), div_fin (by positivity), cos_fin]
  simp only [sci_eq, mul_fin, add_fin, one_mul]
  rw [div_fin hL.ne']
  simp only [sub_fin, mul_fin, min_fin, max_fin]

/-- what the iteration returns, for any function that gives the level of the next pass -/
theorem iteration_chain_of {H T cd cu gf gB B db c1 c2 c3 c4 z : ℝ} {F : ℝ → ℝ} (bf : Bool) (hH : 0 < H)
    (hp : ∀ z, 0 < z → 0 < F z)
    (hpass : ∀ z, 0 < z → ∀ s2, (pass H T cd cu gf gB B db c1 c2 c3 c4 bf (fin z, s2)).res = .ok (fin (F z), fin z))
    (hit : (iteration_procedure_z2p (fin H) (fin T) (fin cd) (fin cu) (fin B) (fin db)
      (fin gf) (fin gB) (fin c1) (fin c2) (fin c3) (fin c4) bf).res = .ok (fin z)) :
    ∃ k : ℕ, z = F^[k + 1] (1.5 * H) ∧ (k + 1 = 1001 ∨ |F^[k + 1] (1.5 * H) - F^[k] (1.5 * H)| ≤ 1e-4) := by
  unfold iteration_procedure_z2p iteration_procedure_z2p_rec at hit
  dsimp only at hit
  obtain ⟨r, hw, hr, -⟩ := PyM.bind_inv hit
  change (whileIterM 1001 (fun s : PF × PF => PF.abs (s.1 - s.2) > fin 1e-4) (pass H T cd cu gf gB B db c1 c2 c3 c4 bf) (fin (1.5 * H), _)).res = _ at hw
  obtain ⟨k, t, hk, h0, hkr, hj, hx⟩ := whileIterM_spec _ _ _ hw
  have q0 : 0 < 1.5 * H := by positivity
  have ps : ∀ j, 0 < F^[j] (1.5 * H) := by
    intro j
    induction j with
    | zero => exact q0
    | succ j ih => rw [Function.iterate_succ_apply']; exact hp _ ih
  have st : ∀ j, j ≤ k → (t j).1 = fin (F^[j] (1.5 * H)) := by
    intro j
    induction j with
    | zero => intro _; rw [h0]; rfl
    | succ j ih =>
      intro hjk
      have h := (hj j (by omega)).2
      have e : t j = (fin (F^[j] (1.5 * H)), (t j).2) := by rw [← ih (by omega)]
      rw [e, hpass _ (ps j)] at h
      rw [← Except.ok.inj h, Function.iterate_succ_apply']
  have st2 : ∀ j, j < k → (t (j + 1)).2 = fin (F^[j] (1.5 * H)) := by
    intro j hjk
    have h := (hj j hjk).2
    have e : t j = (fin (F^[j] (1.5 * H)), (t j).2) := by rw [← st j (by omega)]
    rw [e, hpass _ (ps j)] at h
    rw [← Except.ok.inj h]
  have hz : r.1 = fin z := Except.ok.inj hr
  cases k with
  | zero =>
    exfalso
    rcases hx with hx | hx
    · omega
    · apply hx
      rw [← hkr, h0]
      have : PF.abs (fin (1.5 * H) - (fin (1.5 * H) + 2 * fin 1e-4)) > fin 1e-4 := by
        simp only [ofNat_eq, mul_fin, add_fin, sub_fin, abs_fin, gt_fin]
        rw [show (1.5 * H - (1.5 * H + 2 * 1e-4) : ℝ) = -(2 * 1e-4) by ring, abs_neg,
          abs_of_pos (by norm_num)]
        norm_num
      exact this
  | succ k =>
    have a := st (k + 1) le_rfl
    have b := st2 k (by omega)
    refine ⟨k, ?_, ?_⟩
    · rw [hkr, hz, fin_inj] at a
      exact a
    · rcases hx with hx | hx
      · exact Or.inl hx
      · right
        rw [← hkr, a, b, sub_fin, abs_fin, gt_fin, not_lt] at hx
        exact hx

/-- level reached for given average slope and berm factor -/
def level (H T gf gb gB k1 k2 k3 k4 c : ℝ) : ℝ :=
  (ra k1 gf gb gB (VdMProof.xi H T c) ⊓ rb k2 k3 k4 gf gb gB (VdMProof.xi H T c)) * H

theorem height_level {H T c gf gb gB c1 c2 c3 c4 k1 k2 k3 k4 : ℝ} (bf : Bool) (hH : 0 < H) (hT : 0 < T) (hc : 0 < c)
    (e1 : (if bf then 1.65 else fin c1) = fin k1) (e2 : (if bf then 4.0 else fin c2) = fin k2)
    (e3 : (if bf then 1.5 else fin c3) = fin k3) (e4 : (if bf then 1.0 else fin c4) = fin k4) :
    ∃ f : Bool, (calculate_wave_runup_height_z2p
          { Hm0 := fin H, Tmm10 := fin T, cot_alpha := fin c, gamma_b := fin gb, gamma_f := fin gf,
            gamma_beta := fin gB, c1 := fin c1, c2 := fin c2, c3 := fin c3, c4 := fin c4,
            use_best_fit := bf }).res = .ok (fin (level H T gf gb gB k1 k2 k3 k4 c), f) := by
  unfold calculate_wave_runup_height_z2p height_of
  rw [PyM.bind_res_of_ok (single_res hH hT hc rfl rfl rfl (Or.inl rfl) rfl rfl rfl e1 e2 e3 e4)]
  exact ⟨_, rfl⟩

section
variable {H T cd cu gf gB B db c1 c2 c3 c4 k1 k2 k3 k4 : ℝ} (bf : Bool) (hH : 0 < H) (hT : 0 < T) (hcd : 0 < cd)
  (hcu : 0 < cu) (hgf : 0 < gf) (hgf1 : gf ≤ 1) (hgB : 0 < gB) (hB : 0 ≤ B) (hd0 : 0 ≤ db) (hd : db ≤ 1.5 * H)
  (e1 : (if bf then 1.65 else fin c1) = fin k1) (e2 : (if bf then 4.0 else fin c2) = fin k2)
  (e3 : (if bf then 1.5 else fin c3) = fin k3) (e4 : (if bf then 1.0 else fin c4) = fin k4)
  (p1 : 0 < k1) (p2 : 0 < k2) (p3 : 0 ≤ k3) (p4 : 0 < k4) (h23 : 15 / 7 * k3 ≤ k2)
  (hl : 0.5 ≤ VdMProof.xi H T (Max.max cd cu))
include hH hT hgf hgf1 hgB p1 p2 p3 p4 h23 hl

theorem level_pos {gb c : ℝ} (hb : 0 < gb) (hb1 : gb ≤ 1) (hc : 0 < c) (hcm : c ≤ Max.max cd cu) :
    0 < level H T gf gb gB k1 k2 k3 k4 c := by
  have hx := VdMProof.xi_pos hH hT hc
  have hr := rough_pos (gb := gb) hgf hgf1 hb1 hx
  have hq := level_ok hH hT hc hcm p3 h23 p2 hl
  unfold level ra rb
  exact mul_pos (lt_min (by positivity) (mul_pos (by positivity) (by linarith))) hH

include hcd hcu e1 e2 e3 e4

omit hgf hgf1 hgB p1 p2 p3 p4 h23 hl in
include hB hd0 hd in
theorem pass_berm {z : ℝ} (hz : 0 < z) (s2 : PF) : (pass H T cd cu gf gB B db c1 c2 c3 c4 bf (fin z, s2)).res =
      .ok (fin (level H T gf (Published.bermFactor H cd cu B db) gB k1 k2 k3 k4 (avg H z cd cu db)), fin z) := by
  have hfin : ∀ x : ℝ, ¬ (fin x).isnan := fun x => by simp
  have hb := avg_between hH hz hd0 hd (min_le_left cd cu) (min_le_right cd cu) (le_max_left cd cu)
    (le_max_right cd cu)
  have hc : 0 < avg H z cd cu db := lt_of_lt_of_le (lt_min hcd hcu) hb.1
  unfold pass
  dsimp only
  rw [berm_length_composite (hfin cd) (hfin cu), pure_bind, average_eval B hH hz hcd hcu hd0 hd,
    berm_below hH hcd hcu hB hd0 hd hz]
  unfold calculate_wave_runup_height_z2p height_of
  rw [bind_assoc, PyM.bind_res_of_ok (single_res hH hT hc rfl rfl rfl (Or.inl rfl) rfl rfl rfl e1 e2 e3 e4)]
  rfl

include hB hd0 hd in
theorem iteration_berm : ∃ z : ℝ, 0 < z ∧
    (iteration_procedure_z2p (fin H) (fin T) (fin cd) (fin cu) (fin B) (fin db)
        (fin gf) (fin gB) (fin c1) (fin c2) (fin c3) (fin c4) bf).res = .ok (fin z) := by
  obtain ⟨z, z0, gb, hz, h0, -, -, -, -, hr⟩ := iteration_composite (B := B) (db := db) (tol := 1e-4) bf 1000
    hH hT hcd hcu hgf hgf1 hgB hB hd0 hd (by norm_num) e1 e2 e3 e4 p1 p4 (fun c hc hc' =>
      level_ok hH hT ((lt_min hcd hcu).trans_le hc) hc' p3 h23 p2 hl)
  exact ⟨z, hz, hr⟩

include hB hd0 hd in
theorem factor_berm {c : ℝ} (hc : 0 < c) (hcm : c ≤ Max.max cd cu) :
    (iteration_procedure_gamma_b (fin H) (fin T) (fin c) (fin B) (1.0 * fin H * fin cd + fin B + 1.0 * fin H * fin cu)
      (fin db) (fin gB) (fin c1) (fin c2) (fin c3) (fin c4) bf (fin gf)).res =
      .ok (fin (Published.bermFactor H cd cu B db)) := by
  have q0 : (0.0 : PF) = fin 0 := by rw [sci_eq]; norm_num
  have q1 : (1.0 : PF) = fin 1 := by rw [sci_eq]; norm_num
  have run : ∀ gb : ℝ, 0 < gb → gb ≤ 1 → ∃ (z : ℝ) (f : Bool), 0 < z ∧ (calculate_wave_runup_height_z2p
      { Hm0 := fin H, Tmm10 := fin T, cot_alpha := fin c, gamma_b := fin gb, gamma_f := fin gf,
        gamma_beta := fin gB, c1 := fin c1, c2 := fin c2, c3 := fin c3, c4 := fin c4,
        use_best_fit := bf }).res = .ok (fin z, f) := by
    intro gb hb hb1
    obtain ⟨f, hf⟩ := height_level (gf := gf) (gb := gb) (gB := gB) bf hH hT hc e1 e2 e3 e4
    exact ⟨_, f, level_pos hH hT hgf hgf1 hgB p1 p2 p3 p4 h23 hl hb hb1 hc hcm, hf⟩
  unfold iteration_procedure_gamma_b iteration_procedure_gamma_b_rec
  rcases hB.eq_or_lt with rfl | hB'
  · rw [if_pos (Or.inl (by rw [q0, eqF_fin])), Published.bermFactor_none, q1]
    rfl
  · have hL : 0 < H * cd + B + H * cu := by positivity
    have eL : (1.0 * fin H * fin cd + fin B + 1.0 * fin H * fin cu : PF) = fin (H * cd + B + H * cu) := by
      rw [q1]; simp only [mul_fin, add_fin, one_mul]
    rw [if_neg (by rw [eL, q0, eqF_fin, eqF_fin]; push Not; exact ⟨hB'.ne', hL.ne'⟩)]
    obtain ⟨z1, f1, hz1, hr1⟩ := run 1 one_pos le_rfl
    obtain ⟨b0, b1⟩ := Published.bermFactor_bounds H cd cu B db
    obtain ⟨z2, f2, hz2, hr2⟩ := run _ (lt_of_lt_of_le (by norm_num) b0) b1
    rw [q1, PyM.bind_res_of_ok hr1, ← q1]
    dsimp only
    rw [berm_below hH hcd hcu hB hd0 hd hz1, PyM.bind_res_of_ok hr2]
    dsimp only
    rw [berm_below hH hcd hcu hB hd0 hd hz2]
    rfl

include hB hd0 hd in
/-- run-up on a composite slope with a berm is that on a straight slope with the berm factor -/
theorem composite_berm : ∃ z : ℝ, 0 < z ∧
    (iteration_procedure_z2p (fin H) (fin T) (fin cd) (fin cu) (fin B) (fin db)
        (fin gf) (fin gB) (fin k1) (fin k2) (fin k3) (fin k4) bf).res = .ok (fin z) ∧
      (calculate_dimensionless_wave_runup_height_z2p
        { Hm0 := fin H, Tmm10 := fin T, cot_alpha_down := fin cd, cot_alpha_up := fin cu, gamma_beta := fin gB,
          gamma_f := fin gf, B_berm := fin B, db := fin db, c1 := fin c1, c2 := fin c2, c3 := fin c3, c4 := fin c4,
          use_best_fit := bf }).res =
        (calculate_dimensionless_wave_runup_height_z2p
          { Hm0 := fin H, Tmm10 := fin T, cot_alpha := fin (avg H z cd cu db), gamma_beta := fin gB,
            gamma_b := fin (Published.bermFactor H cd cu B db),
            gamma_f := fin gf, c1 := fin c1, c2 := fin c2, c3 := fin c3, c4 := fin c4,
            use_best_fit := bf }).res := by
  have again : ∀ {x y : PF} {k : ℝ}, (if bf then x else y) = fin k → (if bf then x else fin k) = fin k := by
    intro x y k h
    cases bf
    · rfl
    · exact h
  obtain ⟨z, hz, hit⟩ := iteration_berm bf hH hT hcd hcu hgf hgf1 hgB hB hd0 hd (again e1) (again e2) (again e3)
    (again e4) p1 p2 p3 p4 h23 hl
  have hb := avg_between hH hz hd0 hd (min_le_left cd cu) (min_le_right cd cu) (le_max_left cd cu)
    (le_max_right cd cu)
  have hc : 0 < avg H z cd cu db := lt_of_lt_of_le (lt_min hcd hcu) hb.1
  have hfin : ∀ x : ℝ, ¬ (fin x).isnan := fun x => by simp
  refine ⟨z, hz, hit, ?_⟩
  refine Eq.trans (diml_res hH hT hc rfl rfl rfl rfl e1 e2 e3 e4 ?_ ?_)
    (single_res hH hT hc rfl rfl rfl (Or.inl rfl) rfl rfl rfl e1 e2 e3 e4).symm
  · have : check_composite_slope nan (fin cd) (fin cu) = pure true := by
      unfold check_composite_slope; simp
    have hx : (iteration_procedure_z2p_rec calculate_wave_runup_height_z2p (fin H) (fin T) (fin cd) (fin cu)
        (fin B) (fin db) (fin gf) (fin gB) (fin k1) (fin k2) (fin k3) (fin k4) bf).res = .ok (fin z) := hit
    unfold slope_rec
    dsimp only
    rw [this, pure_bind, if_pos rfl, PyM.bind_res_of_ok hx, average_eval B hH hz hcd hcu hd0 hd]
    rfl
  · unfold berm_rec
    dsimp only
    rw [if_pos (isnan_nan.mpr trivial), berm_length_composite (hfin cd) (hfin cu), pure_bind]
    exact factor_berm bf hH hT hcd hcu hgf hgf1 hgB hB hd0 hd (again e1) (again e2) (again e3)
      (again e4) p1 p2 p3 p4 h23 hl hc hb.2
end

/-- roughness that does not depend on the Iribarren number: the berm factor acts on the first formula only -/
theorem level_smooth {H T cd cu gf gb gB db k1 k2 k3 k4 z : ℝ} (hb : 0 < gb) (hb1 : gb ≤ 1)
    (hx : 0 < VdMProof.xi H T (avg H z cd cu db)) (hs : gf = 1 ∨ VdMProof.xi H T (avg H z cd cu db) < 1.8) :
    level H T gf gb gB k1 k2 k3 k4 (avg H z cd cu db) = next H T cd cu gf gB db (k1 * gb) k2 k3 k4 z := by
  have c : ∀ b : ℝ, 0 < b → b ≤ 1 → rough gf b (VdMProof.xi H T (avg H z cd cu db)) = gf := by
    intro b h0 h1
    unfold rough
    rcases hs with rfl | h
    · split_ifs <;> norm_num
    · rw [if_neg]
      rintro ⟨h', -⟩
      nlinarith
  unfold level next rel ra rb
  rw [c gb hb hb1, c 1 one_pos le_rfl, mul_one]

section
variable {H T cd cu gf gB db : ℝ} (hH : 0 < H) (hT : 0 < T)
  (hcd : 0 < cd) (hcu : 0 < cu) (h1 : cu ≤ 4 * cd) (h2 : cd ≤ 4 * cu) (hf : 0.18 ≤ gf) (hf1 : gf ≤ 1)
  (hB : 0 < gB) (hB1 : gB ≤ 1) (hd0 : 0 ≤ db) (hd : db ≤ 1.5 * H)
  (hl : 0.5 ≤ Textbook.iribarren H T (Max.max cd cu))
  (hs : gf = 1 ∨ Textbook.iribarren H T (Min.min cd cu) < 1.8) (hH6 : H ≤ 1e6) (hlo : 4e-3 ≤ gf * gB * H)
  {k1 k2 k3 k4 : ℝ} (p3 : 0 ≤ k3) (h23 : 15 / 7 * k3 ≤ k2) (q1 : 1 ≤ k1) (q2 : 3 ≤ k2) (q4 : 1 ≤ k4)
  (q24 : k2 * k4 ≤ 10)
include hH hT hcd hcu h1 h2 hf hf1 hB hB1 hd0 hd hl hs hH6 hlo p3 h23 q1 q2 q4 q24

/-- with a berm at or below the water line the run-up settles on one level -/
theorem berm_settles {B c1 c2 c3 c4 : ℝ} (bf : Bool) (hB0 : 0 ≤ B)
    (e1 : (if bf then 1.65 else fin c1) = fin k1) (e2 : (if bf then 4.0 else fin c2) = fin k2)
    (e3 : (if bf then 1.5 else fin c3) = fin k3) (e4 : (if bf then 1.0 else fin c4) = fin k4) :
    ∃ p, 0 < p ∧ level H T gf (Published.bermFactor H cd cu B db) gB k1 k2 k3 k4 (avg H p cd cu db) = p ∧
      (∀ x, 0 < x → level H T gf (Published.bermFactor H cd cu B db) gB k1 k2 k3 k4 (avg H x cd cu db) = x → x = p) ∧
      ∃ (z : ℝ) (f : Bool), (calculate_wave_runup_height_z2p
        { Hm0 := fin H, Tmm10 := fin T, cot_alpha_down := fin cd, cot_alpha_up := fin cu,
          gamma_beta := fin gB, gamma_f := fin gf, B_berm := fin B, db := fin db, c1 := fin c1, c2 := fin c2,
          c3 := fin c3, c4 := fin c4, use_best_fit := bf }).res = .ok (fin z, f) ∧ |z - p| ≤ 1e-4 := by
  have f0 : 0 < gf := lt_of_lt_of_le (by norm_num) hf
  have p1 : 0 < k1 := by linarith
  have p2 : 0 < k2 := by linarith
  have p4 : 0 < k4 := by linarith
  have again : ∀ {x y : PF} {k : ℝ}, (if bf then x else y) = fin k → (if bf then x else fin k) = fin k := by
    intro x y k h
    cases bf
    · rfl
    · exact h
  have hl' := hl
  rw [RangeProof.irib_eq] at hl'
  obtain ⟨b0, b1⟩ := Published.bermFactor_bounds H cd cu B db
  have b00 : 0 < Published.bermFactor H cd cu B db := lt_of_lt_of_le (by norm_num) b0
  obtain ⟨z, hz, hit, he⟩ := composite_berm (db := db) bf hH hT hcd hcu f0 hf1 hB hB0 hd0 hd e1 e2 e3 e4 p1 p2 p3 p4 h23 hl'
  have hpass := fun z (hz : 0 < z) s2 => pass_berm (gf := gf) (gB := gB) bf hH hT hcd hcu hB0 hd0 hd (again e1) (again e2) (again e3)
    (again e4) hz s2
  generalize Published.bermFactor H cd cu B db = gb at *
  have p1' : 0 < k1 * gb := by positivity
  have hr : gf = 1 ∨ Textbook.iribarren H T (Min.min cd cu) ≤ 10 := hs.imp_right (fun h => h.le.trans (by norm_num))
  have eq : ∀ z, 0 < z → level H T gf gb gB k1 k2 k3 k4 (avg H z cd cu db) =
      next H T cd cu gf gB db (k1 * gb) k2 k3 k4 z := by
    intro z hz
    obtain ⟨a0, a1, a2⟩ := xi_avg hf hf1 hB p1 p2 p3 p4 h23 hH hT hcd hcu hd0 hd hl hz
    exact level_smooth b00 b1 (VdMProof.xi_pos hH hT a0) (hs.imp_right a2.trans_lt)
  have bounds := fun z (hz : 0 < z) => next_bounds (k1 := k1 * gb) hf hf1 hB p1' p2 p3 p4 h23 hH hT hcd hcu hd0 hd hl hr
    (by
      have : 1 * 0.6 * 4e-3 ≤ k1 * gb * (gf * gB * H) := by gcongr
      refine le_trans ?_ this
      norm_num) q2 q4 q24 hB1 hH6 (le_trans (by norm_num) hlo) hz
  obtain ⟨k, hk, hx⟩ := iteration_chain_of (F := next H T cd cu gf gB db (k1 * gb) k2 k3 k4) bf hH
    (fun z hz => lt_of_lt_of_le (by norm_num) (bounds z hz).1)
    (fun z hz s2 => by rw [hpass z hz s2, eq z hz]) hit
  have gfB : gf * gB ≤ 1 := mul_le_one₀ hf1 hB.le hB1
  have hH3 : 4e-3 ≤ H := hlo.trans (by nlinarith)
  have s0 : 1e-3 ≤ 1.5 * H := by norm_num at hH3 ⊢; linarith
  have s1 : 1.5 * H ≤ 1e7 := by norm_num at hH6 ⊢; linarith
  have L1 := fun x y (hx : 0 < x) (hy : 0 < y) => next_log hf hf1 hB p1' p2 p3 p4 h23 hH hT hcd hcu hd0 hd hl 1 h1 h2 hr
      (fun x y hx hxy hy => rel_const hf hf1 hB p1' p2 p3 p4 h23 hx hxy (hs.imp_right hy.trans_lt)) hx hy
  obtain ⟨p, hp, hfp, hu, ha⟩ := settle _ ((1 : ℕ) * (1 / 3)) (by norm_num) (by norm_num) bounds L1 s0 s1 hx
  refine ⟨p, hp, (eq p hp).trans hfp, fun x hx h => hu x hx ((eq x hx).symm.trans h), ?_⟩
  have hc := (xi_avg hf hf1 hB p1 p2 p3 p4 h23 hH hT hcd hcu hd0 hd hl hz).1
  obtain ⟨f, hv⟩ := height_level (gf := gf) (gb := gb) (gB := gB) bf hH hT hc e1 e2 e3 e4
  refine ⟨level H T gf gb gB k1 k2 k3 k4 (avg H z cd cu db), f, ?_, ?_⟩
  · rw [← hv]
    unfold calculate_wave_runup_height_z2p height_of
    exact PyM.bind_res_congr he _
  · rw [eq z hz, hk]
    refine ha.trans ?_
    norm_num

omit hB1 hH6 hlo q1 q2 q4 q24 in
/-- the level with the stronger reduction is not the higher one -/
theorem berm_order {b b' p p' : ℝ} (p1 : 0 < k1) (p2 : 0 < k2) (p4 : 0 < k4) (hb : 0 < b') (hbb : b' ≤ b) (hb1 : b ≤ 1)
    (hp : 0 < p) (hp' : 0 < p') (e : level H T gf b gB k1 k2 k3 k4 (avg H p cd cu db) = p)
    (e' : level H T gf b' gB k1 k2 k3 k4 (avg H p' cd cu db) = p') : p' ≤ p := by
  have f0 : 0 < gf := lt_of_lt_of_le (by norm_num) hf
  have hr : gf = 1 ∨ Textbook.iribarren H T (Min.min cd cu) ≤ 10 := hs.imp_right (fun h => h.le.trans (by norm_num))
  have b0 := hb.trans_le hbb
  obtain ⟨a0, a1, a2⟩ := xi_avg hf hf1 hB p1 p2 p3 p4 h23 hH hT hcd hcu hd0 hd hl hp
  obtain ⟨c0, c1, c2⟩ := xi_avg hf hf1 hB p1 p2 p3 p4 h23 hH hT hcd hcu hd0 hd hl hp'
  have hx := VdMProof.xi_pos hH hT a0
  have hx' := VdMProof.xi_pos hH hT c0
  rw [level_smooth b0 hb1 hx (hs.imp_right a2.trans_lt)] at e
  rw [level_smooth hb (hbb.trans hb1) hx' (hs.imp_right c2.trans_lt)] at e'
  by_contra hlt
  push Not at hlt
  have le : next H T cd cu gf gB db (k1 * b') k2 k3 k4 p' ≤ next H T cd cu gf gB db (k1 * b) k2 k3 k4 p' := by
    have r0 := rough_pos (gb := 1) f0 hf1 le_rfl hx'
    unfold next rel ra
    exact mul_le_mul_of_nonneg_right (min_le_min (by gcongr) le_rfl) hH.le
  have L := next_log hf hf1 hB (by positivity) p2 p3 p4 h23 hH hT hcd hcu hd0 hd hl 1 h1 h2 hr
      (fun x y hx hxy hy => rel_const hf hf1 hB (k1 := k1 * b) (by positivity) p2 p3 p4 h23 hx hxy (hs.imp_right hy.trans_lt)) hp' hp
  rw [e'] at le
  rw [e] at L
  have l1 := Real.log_le_log hp' le
  have l2 := Real.log_lt_log hp hlt
  have l3 := (abs_le.mp L).2
  rw [abs_of_pos (sub_pos.mpr l2)] at l3
  norm_num at l3
  linarith
end

end RunupTaw2002

namespace OvertoppingTaw2002

theorem pre_berm {H T cd cu gf gB B db : ℝ} (beta : PF) (hH : 0 < H) (hT : 0 < T)
    (hcd : 0 < cd) (hcu : 0 < cu) (hgf : 0 < gf) (hgf1 : gf ≤ 1) (hgB : 0 < gB) (hB : 0 ≤ B) (hd0 : 0 ≤ db)
    (hd : db ≤ 1.5 * H) (hl : 0.5 ≤ VdMProof.xi H T (Max.max cd cu)) :
    ∃ c : ℝ, 0 < c ∧ Min.min cd cu ≤ c ∧ c ≤ Max.max cd cu ∧
      (pre (fin H) (fin T) nan (fin cd) (fin cu) beta (fin B) (fin db) (fin gB) nan (fin gf)).res =
        .ok (fin gB, fin c, fin (Published.bermFactor H cd cu B db)) := by
  obtain ⟨z, hz, hit⟩ := RunupTaw2002.iteration_berm (c1 := 1.75) (c2 := 4.3) (c3 := 1.6) (c4 := 1.0) (B := B)
    (db := db) (gB := gB) false hH hT hcd hcu hgf hgf1 hgB hB hd0 hd rfl rfl rfl rfl (by norm_num) (by norm_num)
    (by norm_num) (by norm_num) (by norm_num) hl
  replace hit : (RunupTaw2002.iteration_procedure_z2p (fin H) (fin T) (fin cd) (fin cu) (fin B) (fin db) (fin gf)
      (fin gB)).res = .ok (fin z) := hit
  have hb := RunupTaw2002.avg_between hH hz hd0 hd (min_le_left cd cu) (min_le_right cd cu) (le_max_left cd cu)
    (le_max_right cd cu)
  have hc : 0 < RunupTaw2002.avg H z cd cu db := lt_of_lt_of_le (lt_min hcd hcu) hb.1
  have hg := RunupTaw2002.factor_berm (c1 := 1.75) (c2 := 4.3) (c3 := 1.6) (c4 := 1.0) (B := B)
    (db := db) (gB := gB) (gf := gf) false hH hT hcd hcu hgf hgf1 hgB hB hd0 hd rfl rfl rfl rfl (by norm_num)
    (by norm_num) (by norm_num) (by norm_num) (by norm_num) hl hc hb.2
  replace hg : (RunupTaw2002.iteration_procedure_gamma_b (fin H) (fin T) (fin (RunupTaw2002.avg H z cd cu db)) (fin B)
      (1.0 * fin H * fin cd + fin B + 1.0 * fin H * fin cu) (fin db) (fin gB) (gamma_f := fin gf)).res =
      .ok (fin (Published.bermFactor H cd cu B db)) := hg
  have hfin : ∀ x : ℝ, ¬ (fin x).isnan := fun x => by simp
  refine ⟨_, hc, hb.1, hb.2, ?_⟩
  have h1 : RunupTaw2002.check_calculate_gamma_beta beta (fin gB) = pure false := by
    unfold RunupTaw2002.check_calculate_gamma_beta; simp
  have h2 : RunupTaw2002.check_composite_slope nan (fin cd) (fin cu) = pure true := by
    unfold RunupTaw2002.check_composite_slope; simp
  unfold pre
  rw [h1, pure_bind]
  dsimp only
  rw [if_neg Bool.false_ne_true, h2, pure_bind, if_pos rfl, bind_assoc, PyM.bind_res_of_ok hit, pure_bind,
    RunupTaw2002.average_eval B hH hz hcd hcu hd0 hd, if_pos (isnan_nan.mpr trivial),
    RunupTaw2002.berm_length_composite (hfin cd) (hfin cu), pure_bind, PyM.bind_res_of_ok hg]
  rfl

theorem pre_given (H T c gf gB gb : ℝ) (beta B db : PF) :
    (pre (fin H) (fin T) (fin c) nan nan beta B db (fin gB) (fin gb) (fin gf)).res =
      .ok (fin gB, fin c, fin gb) := by
  have h1 : RunupTaw2002.check_calculate_gamma_beta beta (fin gB) = pure false := by
    unfold RunupTaw2002.check_calculate_gamma_beta; simp
  have h2 : RunupTaw2002.check_composite_slope (fin c) nan nan = pure false := by
    unfold RunupTaw2002.check_composite_slope; simp
  unfold pre
  rw [h1, pure_bind]
  dsimp only
  rw [if_neg Bool.false_ne_true, h2, pure_bind, if_neg Bool.false_ne_true, pure_bind, if_neg (by simp), pure_bind]
  rfl

end OvertoppingTaw2002
end
