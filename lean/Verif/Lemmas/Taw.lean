import Verif.Model.Taw2002
import Verif.Lemmas.Check
import Verif.Lemmas.VdM

/-! # Proof support for TAW 2002 -/

open Classical
open PF CorePhysics CoreUtility
noncomputable section

namespace RunupTaw2002

theorem validity_res (a b c d e f : PF) : (check_validity_range a b c d e f).res = .ok () := by
  unfold check_validity_range
  simp

@[simp] theorem validity_bind_res {β} (a b c d e f : PF) (k : Unit → PyM β) :
    (check_validity_range a b c d e f >>= k).res = (k ()).res :=
  PyM.bind_res_of_ok (validity_res ..) k

/-- with a single slope the recursive callee is never used -/
theorem diml_rec_single (rec rec' : Args → PyM (PF × Bool)) (a : Args)
    (h : a.cot_alpha_down = nan) : diml_rec rec a = diml_rec rec' a := by
  have hs : ∀ gb c1 c2 c3 c4, slope_rec rec a gb c1 c2 c3 c4 = slope_rec rec' a gb c1 c2 c3 c4 := by
    intro gb c1 c2 c3 c4
    unfold slope_rec check_composite_slope
    rw [h]
    by_cases hc : a.cot_alpha.isnan <;> simp [hc]
  have hb : ∀ ca gb c1 c2 c3 c4, berm_rec rec a ca gb c1 c2 c3 c4 =
      berm_rec rec' a ca gb c1 c2 c3 c4 := by
    intro ca gb c1 c2 c3 c4
    unfold berm_rec calculate_berm_length check_composite_slope
    rw [h]
    by_cases hc : a.gamma_b.isnan <;> simp [hc]
  unfold diml_rec
  simp only [hs, hb]

/-- the iteration procedures only call back with a single slope -/
theorem iteration_z2p_congr {rec rec' : Args → PyM (PF × Bool)}
    (h : ∀ a : Args, a.cot_alpha_down = nan → rec a = rec' a) (H T cd cu B db gf gb c1 c2 c3 c4 : PF)
    (bf : Bool) (tol : PF) (m : ℤ) :
    iteration_procedure_z2p_rec rec H T cd cu B db gf gb c1 c2 c3 c4 bf tol m =
      iteration_procedure_z2p_rec rec' H T cd cu B db gf gb c1 c2 c3 c4 bf tol m := by
  unfold iteration_procedure_z2p_rec
  have : ∀ x y ga,
      rec { Hm0 := H, Tmm10 := T, cot_alpha := x, gamma_b := y, gamma_f := gf, gamma_beta := ga,
            c1 := c1, c2 := c2, c3 := c3, c4 := c4, use_best_fit := bf } =
      rec' { Hm0 := H, Tmm10 := T, cot_alpha := x, gamma_b := y, gamma_f := gf, gamma_beta := ga,
             c1 := c1, c2 := c2, c3 := c3, c4 := c4, use_best_fit := bf } :=
    fun x y ga => h _ rfl
  simp only [this]

theorem iteration_gamma_b_congr {rec rec' : Args → PyM (PF × Bool)}
    (h : ∀ a : Args, a.cot_alpha_down = nan → rec a = rec' a) (H T ca B L db gb c1 c2 c3 c4 : PF)
    (bf : Bool) (gf : PF) :
    iteration_procedure_gamma_b_rec rec H T ca B L db gb c1 c2 c3 c4 bf gf =
      iteration_procedure_gamma_b_rec rec' H T ca B L db gb c1 c2 c3 c4 bf gf := by
  unfold iteration_procedure_gamma_b_rec
  have : ∀ x y ga,
      rec { Hm0 := H, Tmm10 := T, cot_alpha := x, gamma_b := y, gamma_f := gf, gamma_beta := ga,
            c1 := c1, c2 := c2, c3 := c3, c4 := c4, use_best_fit := bf } =
      rec' { Hm0 := H, Tmm10 := T, cot_alpha := x, gamma_b := y, gamma_f := gf, gamma_beta := ga,
             c1 := c1, c2 := c2, c3 := c3, c4 := c4, use_best_fit := bf } :=
    fun x y ga => h _ rfl
  simp only [this]

theorem diml_rec_congr {rec rec' : Args → PyM (PF × Bool)}
    (h : ∀ a : Args, a.cot_alpha_down = nan → rec a = rec' a) : diml_rec rec = diml_rec rec' := by
  funext a
  unfold diml_rec slope_rec berm_rec
  simp only [iteration_z2p_congr h, iteration_gamma_b_congr h]

/-- two nested calls are enough: greater recursion depths give the same function -/
theorem runup_depth_stable (n : ℕ) :
    diml_depth (n + 2) = calculate_dimensionless_wave_runup_height_z2p := by
  show diml_rec (height_of (diml_rec _)) = diml_rec (height_of (diml_rec _))
  refine diml_rec_congr fun a ha => ?_
  unfold height_of
  rw [diml_rec_single _ _ a ha]

/-- the function satisfies its own recursive equation (the code as written) -/
theorem runup_unfold (a : Args) : calculate_dimensionless_wave_runup_height_z2p a =
    diml_rec calculate_wave_runup_height_z2p a := by
  rw [← runup_depth_stable 1]
  rfl

/-! ### the influence factors as real functions -/

/-- the berm factor is NaN or between 0.6 and 1, whatever the arguments -/
theorem berm_cases (H z db B L : PF) : calculate_influence_berm_gamma_b H z db B L = nan ∨
    ∃ r : ℝ, calculate_influence_berm_gamma_b H z db B L = fin r ∧ 0.6 ≤ r ∧ r ≤ 1 := by
  unfold calculate_influence_berm_gamma_b
  dsimp only
  generalize (1.0 - B / L * (1.0 - whr (db > 2 * H ∨ db < -z) 1.0
    (0.5 - 0.5 * PF.cos (PF.pi * db / whr (db < 0) z (2 * H))))) = v
  have e1 : (1.0 : PF) = fin 1 := by rw [sci_eq]; norm_num
  rw [e1, sci_eq]
  cases v with
  | nan => left; simp [PF.min, PF.max]
  | ninf => right; refine ⟨0.6, ?_, le_rfl, by norm_num⟩
            have : PF.min ninf (fin 1) = ninf := by
              simp [PF.min]
              exact trivial
            rw [this]
            simp [PF.max]
            intro h; exact absurd h (by exact id)
  | pinf => right; refine ⟨1, ?_, by norm_num, le_rfl⟩
            have : PF.min pinf (fin 1) = fin 1 := by
              simp [PF.min]
              intro h; exact absurd h (by exact id)
            rw [this, max_fin]
            norm_num
  | fin x =>
    right
    rw [min_fin, max_fin]
    exact ⟨_, rfl, le_sup_right, sup_le inf_le_right (by norm_num)⟩

theorem berm_fin {H : ℝ} (hH : 0 < H) (z db : ℝ) : ∃ d : ℝ,
    whr (fin db > 2 * fin H ∨ fin db < -fin z) 1.0
      (0.5 - 0.5 * PF.cos (PF.pi * fin db / whr (fin db < 0) (fin z) (2 * fin H))) = fin d := by
  have e1 : (1.0 : PF) = fin 1 := by rw [sci_eq]; norm_num
  rw [zero_eq, ofNat_eq, mul_fin, neg_fin, gt_fin, lt_fin, lt_fin, pi_eq, mul_fin, whr_fin, e1]
  by_cases h : 2 * H < db ∨ db < -z
  · exact ⟨1, whr_true h _ _⟩
  · rw [whr_false h]
    push Not at h
    have hx : (if db < 0 then z else 2 * H) ≠ 0 := by
      split_ifs with h0
      · intro hz; linarith [h.2]
      · positivity
    rw [div_fin hx, cos_fin, sci_eq, mul_fin, sub_fin]
    exact ⟨_, rfl⟩

/-- the obliqueness factor of an angle -/
def obl (c b : ℝ) : ℝ := 1 - c * (|b| ⊓ 80)

theorem obl_eval (c b : ℝ) :
    calculate_influence_oblique_waves_gamma_beta (fin b) (fin c) = fin (obl c b) := by
  unfold calculate_influence_oblique_waves_gamma_beta obl
  dsimp only
  have e80 : (80.0 : PF) = fin 80 := by rw [sci_eq]; norm_num
  have h1 : whr (fin b < 0) (PF.abs (fin b)) (fin b) = fin |b| := by
    rw [zero_eq, lt_fin, abs_fin, whr_fin]
    split_ifs with h
    · rfl
    · rw [abs_of_nonneg (not_lt.mp h)]
  rw [h1, e80, gt_fin, whr_fin, one_eq, mul_fin, sub_fin]
  congr 3
  split_ifs with h
  · exact (inf_eq_right.mpr (le_of_lt h)).symm
  · exact (inf_eq_left.mpr (not_lt.mp h)).symm

/-- the adjusted roughness factor -/
def rough (gf gb x : ℝ) : ℝ :=
  if gb * x ≥ 1.8 ∧ gb * x ≤ 10 then (x - 1.8) * (1 - gf) / 8.2 + gf else gf

theorem rough_eval (gf gb x : ℝ) : calculate_adjusted_influence_roughness_gamma_f (fin gf) (fin gb)
    (fin x) = fin (rough gf gb x) := by
  unfold calculate_adjusted_influence_roughness_gamma_f rough
  have e10 : (10.0 : PF) = fin 10 := by rw [sci_eq]; norm_num
  simp only [e10, sci_eq, one_eq, mul_fin, sub_fin, ge_fin, le_fin]
  rw [div_fin (by norm_num), add_fin, whr_fin]
  norm_num

theorem rough_pos {gf gb x : ℝ} (hgf : 0 < gf) (h1 : gf ≤ 1) (hb : gb ≤ 1) (hx : 0 < x) :
    0 < rough gf gb x := by
  unfold rough
  split_ifs with h
  · have : (1.8 : ℝ) ≤ x := by nlinarith [h.1]
    have : 0 ≤ (x - 1.8) * (1 - gf) / 8.2 :=
      div_nonneg (mul_nonneg (by linarith) (by linarith)) (by norm_num)
    linarith
  · exact hgf

/-! ### run-up on a single slope -/

/-- the two run-up formulas -/
def ra (c1 gf gb gB x : ℝ) : ℝ := c1 * gb * rough gf gb x * gB * x
def rb (c2 c3 c4 gf gb gB x : ℝ) : ℝ := c4 * rough gf gb x * gB * (c2 - c3 / √x)

theorem diml_res {a : Args} {H T c gf gb gB c1 c2 c3 c4 : ℝ} (hH : 0 < H) (hT : 0 < T) (hc : 0 < c)
    (h1 : a.Hm0 = fin H) (h2 : a.Tmm10 = fin T) (h5 : a.gamma_f = fin gf)
    (h7 : a.gamma_beta = fin gB)
    (e1 : (if a.use_best_fit then 1.65 else a.c1) = fin c1)
    (e2 : (if a.use_best_fit then 4.0 else a.c2) = fin c2)
    (e3 : (if a.use_best_fit then 1.5 else a.c3) = fin c3)
    (e4 : (if a.use_best_fit then 1.0 else a.c4) = fin c4)
    (hs : (slope_rec calculate_wave_runup_height_z2p a (fin gB) (fin c1) (fin c2) (fin c3)
      (fin c4)).res = .ok (fin c))
    (hb : (berm_rec calculate_wave_runup_height_z2p a (fin c) (fin gB) (fin c1) (fin c2) (fin c3)
      (fin c4)).res = .ok (fin gb)) :
    (calculate_dimensionless_wave_runup_height_z2p a).res = .ok
      (fin (ra c1 gf gb gB (VdMProof.xi H T c) ⊓ rb c2 c3 c4 gf gb gB (VdMProof.xi H T c)),
       decide (rb c2 c3 c4 gf gb gB (VdMProof.xi H T c) ≤ ra c1 gf gb gB (VdMProof.xi H T c))) := by
  have hx := VdMProof.xi_pos hH hT hc
  rw [runup_unfold]
  unfold diml_rec
  have hcb : check_calculate_gamma_beta a.beta a.gamma_beta = pure false := by
    unfold check_calculate_gamma_beta; simp [h7]
  dsimp only
  rw [hcb, pure_bind]
  simp only [Bool.false_eq_true, if_false, h1, h2, h5, h7, e1, e2, e3, e4]
  rw [PyM.bind_res_of_ok hs, PyM.bind_res_of_ok hb]
  rw [VdMProof.xi_eval hH hT hc, rough_eval]
  rw [validity_bind_res]
  rw [sqrt_fin hx.le, div_fin (Real.sqrt_pos.mpr hx).ne']
  simp only [mul_fin, sub_fin, min_fin, eqF_fin, PyM.pure_def]
  unfold ra rb
  simp only [inf_eq_right]

theorem single_res {a : Args} {H T c gf gb gB c1 c2 c3 c4 : ℝ} (hH : 0 < H) (hT : 0 < T) (hc : 0 < c)
    (h1 : a.Hm0 = fin H) (h2 : a.Tmm10 = fin T) (h3 : a.cot_alpha = fin c)
    (h4 : a.cot_alpha_down = nan ∨ a.cot_alpha_up = nan)
    (h5 : a.gamma_f = fin gf) (h6 : a.gamma_b = fin gb)
    (h7 : a.gamma_beta = fin gB)
    (e1 : (if a.use_best_fit then 1.65 else a.c1) = fin c1)
    (e2 : (if a.use_best_fit then 4.0 else a.c2) = fin c2)
    (e3 : (if a.use_best_fit then 1.5 else a.c3) = fin c3)
    (e4 : (if a.use_best_fit then 1.0 else a.c4) = fin c4) :
    (calculate_dimensionless_wave_runup_height_z2p a).res = .ok
      (fin (ra c1 gf gb gB (VdMProof.xi H T c) ⊓ rb c2 c3 c4 gf gb gB (VdMProof.xi H T c)),
       decide (rb c2 c3 c4 gf gb gB (VdMProof.xi H T c) ≤ ra c1 gf gb gB (VdMProof.xi H T c))) := by
  refine diml_res hH hT hc h1 h2 h5 h7 e1 e2 e3 e4 ?_ ?_
  · have : check_composite_slope a.cot_alpha a.cot_alpha_down a.cot_alpha_up = pure false := by
      unfold check_composite_slope
      rcases h4 with h4 | h4 <;> simp [h3, h4]
    unfold slope_rec
    rw [this, pure_bind, h3]
    simp
  · unfold berm_rec
    simp [h6]

/-- average of two equal slopes -/
theorem average_equal {H z c : ℝ} (B db : ℝ) (hc : c ≠ 0) (hz : 1.5 * H + z ≠ 0) :
    determine_average_slope (fin H) (fin z) (fin c) (fin c) (fin B) (fin db) = fin c := by
  have e1 : (1.0 : PF) = fin 1 := by rw [sci_eq]; norm_num
  unfold determine_average_slope
  dsimp only
  rw [e1, sci_eq]
  simp only [mul_fin, sub_fin, add_fin]
  have hL : (1.5 * H - db) * c + B + (z + db) * c - B = (1.5 * H + z) * c := by ring
  rw [hL, div_fin (mul_ne_zero hz hc)]
  have : (1.5 * H + z) / ((1.5 * H + z) * c) = 1 / c := by field_simp
  rw [this, div_fin (one_div_ne_zero hc), one_div_one_div]

theorem berm_length_composite {H B cd cu : PF} (hcd : ¬ cd.isnan) (hcu : ¬ cu.isnan) (ca : PF) :
    calculate_berm_length H B ca cd cu = pure (1.0 * H * cd + B + 1.0 * H * cu) := by
  unfold calculate_berm_length check_composite_slope
  simp [hcd, hcu]

/-- run-up for given factors is positive from Iribarren number 0.4 on (or whenever the second formula
is positive) -/
theorem runup_pos {H T c gf gb gB c1 c2 c3 c4 : ℝ} (bf : Bool) (hH : 0 < H) (hT : 0 < T) (hc : 0 < c)
    (hgf : 0 < gf) (hgf1 : gf ≤ 1) (hgb : 0 < gb) (hgb1 : gb ≤ 1) (hgB : 0 < gB)
    (hc1 : 0 < c1) (hc4 : 0 < c4) (h23 : c3 / √(VdMProof.xi H T c) < c2)
    (h23' : 0.15 < VdMProof.xi H T c) :
    ∃ (z : ℝ) (f : Bool), 0 < z ∧ (calculate_wave_runup_height_z2p
      { Hm0 := fin H, Tmm10 := fin T, cot_alpha := fin c, gamma_b := fin gb, gamma_f := fin gf,
        gamma_beta := fin gB, c1 := fin c1, c2 := fin c2, c3 := fin c3, c4 := fin c4,
        use_best_fit := bf }).res = .ok (fin z, f) := by
  have hx := VdMProof.xi_pos hH hT hc
  have hr := rough_pos (gb := gb) hgf hgf1 hgb1 hx
  have hs : 0.38 < √(VdMProof.xi H T c) := by
    rw [Real.lt_sqrt (by norm_num)]; norm_num; norm_num at h23'; linarith
  have hbf : (1.5 : ℝ) / √(VdMProof.xi H T c) < 4.0 := by
    rw [div_lt_iff₀ (by linarith)]; linarith
  obtain ⟨k1, k2, k3, k4, e1, e2, e3, e4, p1, p2, p3⟩ : ∃ k1 k2 k3 k4 : ℝ,
      (if bf then 1.65 else fin c1) = fin k1 ∧ (if bf then 4.0 else fin c2) = fin k2 ∧
      (if bf then 1.5 else fin c3) = fin k3 ∧ (if bf then 1.0 else fin c4) = fin k4 ∧
      0 < k1 ∧ 0 < k4 ∧ k3 / √(VdMProof.xi H T c) < k2 := by
    cases bf
    · exact ⟨c1, c2, c3, c4, rfl, rfl, rfl, rfl, hc1, hc4, h23⟩
    · exact ⟨1.65, 4.0, 1.5, 1.0, rfl, rfl, rfl, rfl, by norm_num, by norm_num, hbf⟩
  unfold calculate_wave_runup_height_z2p height_of
  refine ⟨_, _, ?_, PyM.bind_res_of_ok (single_res hH hT hc rfl rfl rfl (Or.inl rfl) rfl rfl rfl
    e1 e2 e3 e4) _⟩
  refine mul_pos (lt_min ?_ ?_) hH
  · unfold ra; positivity
  · unfold rb
    exact mul_pos (by positivity) (by linarith)

/-- the berm factor of real numbers is a number -/
theorem berm_real {H L : ℝ} (hH : 0 < H) (hL : L ≠ 0) (z db B : ℝ) :
    ∃ gb : ℝ, calculate_influence_berm_gamma_b (fin H) (fin z) (fin db) (fin B) (fin L) = fin gb ∧
      0.6 ≤ gb ∧ gb ≤ 1 := by
  rcases berm_cases (fin H) (fin z) (fin db) (fin B) (fin L) with h | h
  · exfalso
    obtain ⟨d, hd⟩ := berm_fin hH z db
    unfold calculate_influence_berm_gamma_b at h
    dsimp only at h
    have e1 : (1.0 : PF) = fin 1 := by rw [sci_eq]; norm_num
    rw [hd, e1, div_fin hL, sub_fin, mul_fin, sub_fin, min_fin, sci_eq, max_fin] at h
    cases h
  · exact h

/-- run-up on a single slope with all factors given is a number -/
theorem runup_real {H T c : ℝ} (gf gb gB c1 c2 c3 c4 : ℝ) (bf : Bool) (hH : 0 < H) (hT : 0 < T)
    (hc : 0 < c) : ∃ (z : ℝ) (f : Bool), (calculate_wave_runup_height_z2p
      { Hm0 := fin H, Tmm10 := fin T, cot_alpha := fin c, gamma_b := fin gb, gamma_f := fin gf,
        gamma_beta := fin gB, c1 := fin c1, c2 := fin c2, c3 := fin c3, c4 := fin c4,
        use_best_fit := bf }).res = .ok (fin z, f) := by
  obtain ⟨k1, k2, k3, k4, e1, e2, e3, e4⟩ : ∃ k1 k2 k3 k4 : ℝ,
      (if bf then 1.65 else fin c1) = fin k1 ∧ (if bf then 4.0 else fin c2) = fin k2 ∧
      (if bf then 1.5 else fin c3) = fin k3 ∧ (if bf then 1.0 else fin c4) = fin k4 := by
    cases bf
    · exact ⟨c1, c2, c3, c4, rfl, rfl, rfl, rfl⟩
    · exact ⟨1.65, 4.0, 1.5, 1.0, rfl, rfl, rfl, rfl⟩
  unfold calculate_wave_runup_height_z2p height_of
  exact ⟨_, _, PyM.bind_res_of_ok (single_res hH hT hc rfl rfl rfl (Or.inl rfl) rfl rfl rfl
    e1 e2 e3 e4) _⟩

/-- the berm iteration on a single slope returns a factor -/
theorem gamma_b_real {H T c L : ℝ} (gf gB B db c1 c2 c3 c4 : ℝ) (bf : Bool) (hH : 0 < H)
    (hT : 0 < T) (hc : 0 < c) (hL : 0 < L) : ∃ gb : ℝ,
    (iteration_procedure_gamma_b (fin H) (fin T) (fin c) (fin B) (fin L) (fin db) (fin gB) (fin c1)
      (fin c2) (fin c3) (fin c4) bf (fin gf)).res = .ok (fin gb) ∧ 0.6 ≤ gb ∧ gb ≤ 1 ∧
      (B = 0 → gb = 1) := by
  have e1 : (1.0 : PF) = fin 1 := by rw [sci_eq]; norm_num
  have e0 : (0.0 : PF) = fin 0 := by rw [sci_eq]; norm_num
  unfold iteration_procedure_gamma_b iteration_procedure_gamma_b_rec
  have hi : (PF.eqF (fin B) 0.0 ∨ PF.eqF (fin L) 0.0) ↔ (B = 0 ∨ L = 0) := by
    rw [e0, eqF_fin, eqF_fin]
  by_cases h : B = 0 ∨ L = 0
  · rw [if_pos (hi.mpr h), e1]
    exact ⟨1, rfl, by norm_num, le_rfl, fun _ => rfl⟩
  · rw [if_neg (fun h' => h (hi.mp h')), e1]
    push Not at h
    obtain ⟨z1, f1, h1⟩ := runup_real gf 1 gB c1 c2 c3 c4 bf hH hT hc
    obtain ⟨b1, h2, -⟩ := berm_real hH hL.ne' z1 db B
    obtain ⟨z2, f2, h3⟩ := runup_real gf b1 gB c1 c2 c3 c4 bf hH hT hc
    obtain ⟨b2, h4, h5, h6⟩ := berm_real hH hL.ne' z2 db B
    refine ⟨b2, ?_, h5, h6, fun h0 => absurd h0 h.1⟩
    rw [PyM.bind_res_of_ok h1]
    dsimp only
    rw [h2, PyM.bind_res_of_ok h3]
    dsimp only
    rw [h4]
    rfl

/-- the iteration on a composite slope with two equal parts succeeds with a positive level -/
theorem iteration_equal {H T c gf gB B c1 c2 c3 c4 : ℝ} (db tol : ℝ) (bf : Bool) (m : ℤ) (hH : 0 < H)
    (hT : 0 < T) (hc : 0 < c) (hgf : 0 < gf) (hgf1 : gf ≤ 1) (hgB : 0 < gB) (hB : 0 ≤ B)
    (hc1 : 0 < c1) (hc4 : 0 < c4) (h23 : c3 / √(VdMProof.xi H T c) < c2)
    (h23' : 0.15 < VdMProof.xi H T c) :
    ∃ z : ℝ, 0 < z ∧ (iteration_procedure_z2p (fin H) (fin T) (fin c) (fin c) (fin B) (fin db)
      (fin gf) (fin gB) (fin c1) (fin c2) (fin c3) (fin c4) bf (fin tol) m).res = .ok (fin z) := by
  unfold iteration_procedure_z2p iteration_procedure_z2p_rec
  dsimp only
  have hLr : ∃ L : ℝ, 0 < L ∧ (1.0 * fin H * fin c + fin B + 1.0 * fin H * fin c : PF) = fin L := by
    refine ⟨1.0 * H * c + B + 1.0 * H * c, by positivity, ?_⟩
    simp only [sci_eq, mul_fin, add_fin]
  obtain ⟨L, hL0, hL⟩ := hLr
  have hfin : ∀ x : ℝ, ¬ (fin x).isnan := fun x => by simp
  have hi : ∃ z0 : ℝ, 0 < z0 ∧ (1.5 * fin H : PF) = fin z0 := ⟨1.5 * H, by positivity, rfl⟩
  obtain ⟨z0, hz0, ez0⟩ := hi
  obtain ⟨r, hr, z, hz, hrz⟩ := whileIterM_ok
    (cond := fun s : PF × PF => PF.abs (s.1 - s.2) > fin tol)
    (I := fun s : PF × PF => ∃ z : ℝ, 0 < z ∧ s.1 = fin z)
    (bodyM := fun s => do
      let z2p_estimate_i0 := s.1
      let L_berm ← calculate_berm_length (fin H) (fin B) (cot_alpha_down := fin c)
        (cot_alpha_up := fin c)
      let gamma_b := calculate_influence_berm_gamma_b (fin H) z2p_estimate_i0 (fin db) (fin B) L_berm
      let cot_alpha_average := determine_average_slope (fin H) z2p_estimate_i0 (fin c)
        (fin c) (fin B) (fin db)
      let r ← calculate_wave_runup_height_z2p
                  { Hm0 := fin H, Tmm10 := fin T, cot_alpha := cot_alpha_average, gamma_b := gamma_b,
                    gamma_f := fin gf, gamma_beta := fin gB, c1 := fin c1, c2 := fin c2,
                    c3 := fin c3, c4 := fin c4, use_best_fit := bf }
      pure (r.1, z2p_estimate_i0))
    (by
      rintro ⟨s1, s2⟩ ⟨z, hz, rfl⟩
      dsimp only
      rw [berm_length_composite (hfin c) (hfin c), pure_bind, hL,
        average_equal B db hc.ne' (by positivity)]
      obtain ⟨gb, hgb, hb0, hb1⟩ := berm_real hH hL0.ne' z db B
      rw [hgb]
      obtain ⟨y, f, hy, he⟩ := runup_pos bf hH hT hc hgf hgf1 (by linarith : 0 < gb) hb1 hgB hc1 hc4
        h23 h23'
      exact ⟨(fin y, fin z), PyM.bind_res_of_ok he _, y, hy, rfl⟩)
    (m + 1).toNat (1.5 * fin H, 1.5 * fin H + 2 * fin tol) ⟨z0, hz0, ez0⟩
  refine ⟨z, hz, ?_⟩
  rw [PyM.bind_res_of_ok hr, ← hrz]
  rfl

end RunupTaw2002
end
