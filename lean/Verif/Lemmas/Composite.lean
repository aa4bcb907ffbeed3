import Verif.Lemmas.OvertoppingEur
import Verif.Lemmas.Worse

/-!
# Proof support: structures with a lower and an upper slope
-/

open Classical
open PF CorePhysics CoreUtility
noncomputable section

/-- two calls with the same outcome go on the same way -/
theorem PyM.bind_res_congr {α β} {x y : PyM α} (h : x.res = y.res) (f : α → PyM β) :
    (x >>= f).res = (y >>= f).res := by
  cases hy : y.res with
  | ok a => rw [bind_res_of_ok hy, bind_res_of_ok (h.trans hy)]
  | error e => rw [bind_res_of_error hy, bind_res_of_error (h.trans hy)]

namespace RunupTaw2002

/-- the average cotangent for run-up level `z` -/
def avg (H z cd cu db : ℝ) : ℝ := ((1.5 * H - db) * cd + (z + db) * cu) / (1.5 * H + z)

theorem avg_between {H z cd cu db lo hi : ℝ} (hH : 0 < H) (hz : 0 < z) (hd0 : 0 ≤ db) (hd : db ≤ 1.5 * H)
    (h1 : lo ≤ cd) (h2 : lo ≤ cu) (h3 : cd ≤ hi) (h4 : cu ≤ hi) :
    lo ≤ avg H z cd cu db ∧ avg H z cd cu db ≤ hi := by
  have hs : 0 < 1.5 * H + z := by positivity
  have a0 : 0 ≤ 1.5 * H - db := by linarith
  have b0 : 0 ≤ z + db := by linarith
  have e : 1.5 * H + z = (1.5 * H - db) + (z + db) := by ring
  unfold avg
  rw [le_div_iff₀ hs, div_le_iff₀ hs, e]
  generalize 1.5 * H - db = a at *
  generalize z + db = b at *
  constructor
  · nlinarith [mul_le_mul_of_nonneg_left h1 a0, mul_le_mul_of_nonneg_left h2 b0]
  · nlinarith [mul_le_mul_of_nonneg_left h3 a0, mul_le_mul_of_nonneg_left h4 b0]

theorem average_eval {H z cd cu db : ℝ} (B : ℝ) (hH : 0 < H) (hz : 0 < z) (hcd : 0 < cd) (hcu : 0 < cu)
    (hd0 : 0 ≤ db) (hd : db ≤ 1.5 * H) :
    determine_average_slope (fin H) (fin z) (fin cd) (fin cu) (fin B) (fin db) = fin (avg H z cd cu db) := by
  have e1 : (1.0 : PF) = fin 1 := by rw [sci_eq]; norm_num
  have hs : 0 < 1.5 * H + z := by positivity
  have p : 0 < avg H z cd cu db := by
    rcases le_total cd cu with h | h
    · exact hcd.trans_le (avg_between hH hz hd0 hd le_rfl h h le_rfl).1
    · exact hcu.trans_le (avg_between hH hz hd0 hd h le_rfl le_rfl h).1
  have hL : (1.5 * H - db) * cd + B + (z + db) * cu - B = avg H z cd cu db * (1.5 * H + z) := by
    unfold avg
    rw [div_mul_cancel₀ _ hs.ne']
    ring
  unfold determine_average_slope
  dsimp only
  rw [e1, sci_eq]
  simp only [mul_fin, sub_fin, add_fin]
  rw [hL, div_fin (by positivity)]
  have : (1.5 * H + z) / (avg H z cd cu db * (1.5 * H + z)) = 1 / avg H z cd cu db := by
    field_simp
  rw [this, div_fin (one_div_ne_zero p.ne'), one_div_one_div]

/-- more of the upper slope counts when the waves run up higher -/
theorem avg_lt {H z z' cd cu : ℝ} (hH : 0 < H) (hz : 0 < z) (hzz : z < z') (hcc : cd < cu) :
    avg H z cd cu 0 < avg H z' cd cu 0 := by
  have hs : 0 < 1.5 * H + z := by positivity
  have hs' : 0 < 1.5 * H + z' := by linarith
  unfold avg
  rw [div_lt_div_iff₀ hs hs']
  have k : 0 < 1.5 * H * ((z' - z) * (cu - cd)) :=
    mul_pos (by positivity) (mul_pos (by linarith) (by linarith))
  nlinarith

/-- no berm, no reduction -/
theorem berm_none {H L : ℝ} (hH : 0 < H) (hL : L ≠ 0) (z db : ℝ) :
    calculate_influence_berm_gamma_b (fin H) (fin z) (fin db) (fin 0) (fin L) = fin 1 := by
  obtain ⟨d, hd⟩ := berm_fin hH z db
  unfold calculate_influence_berm_gamma_b
  dsimp only
  have e1 : (1.0 : PF) = fin 1 := by rw [sci_eq]; norm_num
  rw [hd, e1, div_fin hL, sub_fin, mul_fin, sub_fin, min_fin, sci_eq, max_fin, zero_div, zero_mul, sub_zero]
  norm_num

/-- one pass of the loop of `iteration_procedure_z2p` -/
def pass (H T cd cu gf gB B db c1 c2 c3 c4 : ℝ) (bf : Bool) : PF × PF → PyM (PF × PF) :=
  fun s : PF × PF => (do
      let z2p_estimate_i0 := s.1
      let L_berm ← calculate_berm_length (fin H) (fin B) (cot_alpha_down := fin cd)
        (cot_alpha_up := fin cu)
      let gamma_b := calculate_influence_berm_gamma_b (fin H) z2p_estimate_i0 (fin db) (fin B) L_berm
      let cot_alpha_average := determine_average_slope (fin H) z2p_estimate_i0 (fin cd)
        (fin cu) (fin B) (fin db)
      let r ← calculate_wave_runup_height_z2p
                  { Hm0 := fin H, Tmm10 := fin T, cot_alpha := cot_alpha_average, gamma_b := gamma_b,
                    gamma_f := fin gf, gamma_beta := fin gB, c1 := fin c1, c2 := fin c2,
                    c3 := fin c3, c4 := fin c4, use_best_fit := bf }
      pure (r.1, z2p_estimate_i0))

/-- the iteration on a composite slope returns a positive level, which is the run-up on the average slope
of some level -/
theorem iteration_composite {H T cd cu gf gB B db c1 c2 c3 c4 k1 k2 k3 k4 tol : ℝ} (bf : Bool) (m : ℕ)
    (hH : 0 < H) (hT : 0 < T) (hcd : 0 < cd) (hcu : 0 < cu) (hgf : 0 < gf) (hgf1 : gf ≤ 1) (hgB : 0 < gB)
    (hB : 0 ≤ B) (hd0 : 0 ≤ db) (hd : db ≤ 1.5 * H) (htol : 0 < tol)
    (e1 : (if bf then 1.65 else fin c1) = fin k1) (e2 : (if bf then 4.0 else fin c2) = fin k2)
    (e3 : (if bf then 1.5 else fin c3) = fin k3) (e4 : (if bf then 1.0 else fin c4) = fin k4)
    (p1 : 0 < k1) (p4 : 0 < k4)
    (hp : ∀ c : ℝ, Min.min cd cu ≤ c → c ≤ Max.max cd cu → k3 / √(VdMProof.xi H T c) < k2) :
    ∃ z z0 gb : ℝ, 0 < z ∧ 0 < z0 ∧ 0.6 ≤ gb ∧ gb ≤ 1 ∧ (B = 0 → gb = 1) ∧
      z = (ra k1 gf gb gB (VdMProof.xi H T (avg H z0 cd cu db)) ⊓
        rb k2 k3 k4 gf gb gB (VdMProof.xi H T (avg H z0 cd cu db))) * H ∧
      (iteration_procedure_z2p (fin H) (fin T) (fin cd) (fin cu) (fin B) (fin db)
        (fin gf) (fin gB) (fin c1) (fin c2) (fin c3) (fin c4) bf (fin tol) m).res = .ok (fin z) := by
  unfold iteration_procedure_z2p iteration_procedure_z2p_rec
  dsimp only
  obtain ⟨L, hL0, hL⟩ : ∃ L : ℝ, 0 < L ∧ (1.0 * fin H * fin cd + fin B + 1.0 * fin H * fin cu : PF) = fin L := by
    refine ⟨1.0 * H * cd + B + 1.0 * H * cu, by positivity, ?_⟩
    simp only [sci_eq, mul_fin, add_fin]
  have hfin : ∀ x : ℝ, ¬ (fin x).isnan := fun x => by simp
  let J : PF → Prop := fun s => ∃ z z0 gb : ℝ, 0 < z ∧ 0 < z0 ∧ 0.6 ≤ gb ∧ gb ≤ 1 ∧ (B = 0 → gb = 1) ∧
      z = (ra k1 gf gb gB (VdMProof.xi H T (avg H z0 cd cu db)) ⊓
        rb k2 k3 k4 gf gb gB (VdMProof.xi H T (avg H z0 cd cu db))) * H ∧ s = fin z
  have body : ∀ (z : ℝ), 0 < z → ∃ y : PF, J y ∧ ∀ s2 : PF, (pass H T cd cu gf gB B db c1 c2 c3 c4 bf (fin z, s2)).res = .ok (y, fin z) := by
    intro z hz
    have hb := avg_between hH hz hd0 hd (min_le_left cd cu) (min_le_right cd cu) (le_max_left cd cu)
      (le_max_right cd cu)
    have hc : 0 < avg H z cd cu db := lt_of_lt_of_le (lt_min hcd hcu) hb.1
    obtain ⟨gb, hgb, hb0, hb1⟩ := berm_real hH hL0.ne' z db B
    have hB1 : B = 0 → gb = 1 := by
      rintro rfl
      rw [berm_none hH hL0.ne', fin_inj] at hgb
      exact hgb.symm
    have hx := VdMProof.xi_pos hH hT hc
    have b0 : 0 < gb := lt_of_lt_of_le (by norm_num) hb0
    have hr := rough_pos (gb := gb) hgf hgf1 hb1 hx
    have hq := hp _ hb.1 hb.2
    refine ⟨fin ((ra k1 gf gb gB (VdMProof.xi H T (avg H z cd cu db)) ⊓
        rb k2 k3 k4 gf gb gB (VdMProof.xi H T (avg H z cd cu db))) * H),
      ⟨_, z, gb, mul_pos (lt_min ?_ ?_) hH, hz, hb0, hb1, hB1, rfl, rfl⟩, fun s2 => ?_⟩
    · unfold ra; positivity
    · unfold rb
      exact mul_pos (by positivity) (by linarith)
    · unfold pass
      dsimp only
      rw [berm_length_composite (hfin cd) (hfin cu), pure_bind, hL, average_eval B hH hz hcd hcu hd0 hd, hgb]
      unfold calculate_wave_runup_height_z2p height_of
      rw [bind_assoc, PyM.bind_res_of_ok (single_res hH hT hc rfl rfl rfl (Or.inl rfl) rfl rfl rfl e1 e2 e3 e4)]
      rfl
  have hn : ((m : ℤ) + 1).toNat = m + 1 := by omega
  have hc : PF.abs (1.5 * fin H - (1.5 * fin H + 2 * fin tol)) > fin tol := by
    simp only [sci_eq, ofNat_eq, mul_fin, add_fin, sub_fin, abs_fin, gt_fin]
    rw [show (1.5 * H - (1.5 * H + 2 * tol) : ℝ) = -(2 * tol) by ring, abs_neg,
      abs_of_pos (by linarith)]
    linarith
  have ez0 : (1.5 * fin H : PF) = fin (1.5 * H) := rfl
  obtain ⟨y, hJ, hy⟩ := body (1.5 * H) (by positivity)
  obtain ⟨r, hr, hJr⟩ := whileIterM_ok (bodyM := pass H T cd cu gf gB B db c1 c2 c3 c4 bf)
    (cond := fun s : PF × PF => PF.abs (s.1 - s.2) > fin tol)
    (I := fun s : PF × PF => J s.1)
    (fun s hs => by
      obtain ⟨s1, s2⟩ := s
      obtain ⟨z, z0, gb, hz, h0, a, b, c, d, rfl⟩ := hs
      obtain ⟨y, hJ, hy⟩ := body z hz
      exact ⟨(y, fin z), hy s2, hJ⟩) m (y, fin (1.5 * H)) hJ
  obtain ⟨z, z0, gb, hz, h0, a, b, c, d, hrz⟩ := hJr
  refine ⟨z, z0, gb, hz, h0, a, b, c, d, ?_⟩
  rw [hn]
  change (whileIterM (m + 1) (fun s : PF × PF => PF.abs (s.1 - s.2) > fin tol) (pass H T cd cu gf gB B db c1 c2 c3 c4 bf) _ >>= _).res = _
  unfold whileIterM
  rw [if_pos hc, bind_assoc]
  rw [ez0] at *
  rw [PyM.bind_res_of_ok (hy _), PyM.bind_res_of_ok hr, ← hrz]
  rfl

/-- what is needed of the run-up coefficients for levels to stay positive -/
theorem level_ok {H T c m k2 k3 : ℝ} (hH : 0 < H) (hT : 0 < T) (hc : 0 < c) (hcm : c ≤ m) (p3 : 0 ≤ k3)
    (h23 : 15 / 7 * k3 ≤ k2) (p2 : 0 < k2) (hl : 0.5 ≤ VdMProof.xi H T m) :
    k3 / √(VdMProof.xi H T c) < k2 := by
  have h1 : VdMProof.xi H T m ≤ VdMProof.xi H T c := by
    rw [← RangeProof.irib_eq, ← RangeProof.irib_eq]
    exact WorseProof.irib_c hH hT hc hcm
  have h2 : (0.7 : ℝ) < √(VdMProof.xi H T c) := by
    rw [Real.lt_sqrt (by norm_num)]
    have := hl.trans h1
    norm_num at this ⊢
    linarith
  have : 0 < √(VdMProof.xi H T c) := by linarith
  rw [div_lt_iff₀ this]
  nlinarith

theorem pre_pass {H T cd cu gf gB db c1 c2 c3 c4 k1 k2 k3 k4 : ℝ} (bf : Bool) (hH : 0 < H) (hT : 0 < T)
    (hcd : 0 < cd) (hcu : 0 < cu) (hgf : 0 < gf) (hgf1 : gf ≤ 1) (hgB : 0 < gB) (hd0 : 0 ≤ db) (hd : db ≤ 1.5 * H)
    (e1 : (if bf then 1.65 else fin c1) = fin k1) (e2 : (if bf then 4.0 else fin c2) = fin k2)
    (e3 : (if bf then 1.5 else fin c3) = fin k3) (e4 : (if bf then 1.0 else fin c4) = fin k4)
    (p1 : 0 < k1) (p2 : 0 < k2) (p3 : 0 ≤ k3) (p4 : 0 < k4) (h23 : 15 / 7 * k3 ≤ k2)
    (hl : 0.5 ≤ VdMProof.xi H T (Max.max cd cu)) :
    ∃ z z0 : ℝ, 0 < z ∧ 0 < z0 ∧
      z = (ra k1 gf 1 gB (VdMProof.xi H T (avg H z0 cd cu db)) ⊓
        rb k2 k3 k4 gf 1 gB (VdMProof.xi H T (avg H z0 cd cu db))) * H ∧
      (iteration_procedure_z2p (fin H) (fin T) (fin cd) (fin cu) (fin 0) (fin db)
        (fin gf) (fin gB) (fin c1) (fin c2) (fin c3) (fin c4) bf).res = .ok (fin z) := by
  obtain ⟨z, z0, gb, hz, h0, -, -, hb, hv, hr⟩ := iteration_composite (B := 0) (db := db) (tol := 1e-4) bf 1000
    hH hT hcd hcu hgf hgf1 hgB le_rfl hd0 hd (by norm_num) e1 e2 e3 e4 p1 p4 (fun c hc hc' =>
      level_ok hH hT ((lt_min hcd hcu).trans_le hc) hc' p3 h23 p2 hl)
  obtain rfl := hb rfl
  exact ⟨z, z0, hz, h0, hv, hr⟩

/-- run-up on a composite slope without a berm is that on a straight slope in between -/
theorem composite_eq {a : Args} {H T cd cu gf gB db c1 c2 c3 c4 k1 k2 k3 k4 : ℝ} (hH : 0 < H) (hT : 0 < T)
    (hcd : 0 < cd) (hcu : 0 < cu) (hgf : 0 < gf) (hgf1 : gf ≤ 1) (hgB : 0 < gB) (hd0 : 0 ≤ db) (hd : db ≤ 1.5 * H)
    (ha : a = { Hm0 := fin H, Tmm10 := fin T, cot_alpha_down := fin cd, cot_alpha_up := fin cu,
                gamma_beta := fin gB, gamma_f := fin gf, db := fin db, c1 := fin c1, c2 := fin c2, c3 := fin c3,
                c4 := fin c4, use_best_fit := a.use_best_fit })
    (e1 : (if a.use_best_fit then 1.65 else fin c1) = fin k1) (e2 : (if a.use_best_fit then 4.0 else fin c2) = fin k2)
    (e3 : (if a.use_best_fit then 1.5 else fin c3) = fin k3) (e4 : (if a.use_best_fit then 1.0 else fin c4) = fin k4)
    (p1 : 0 < k1) (p2 : 0 < k2) (p3 : 0 ≤ k3) (p4 : 0 < k4) (h23 : 15 / 7 * k3 ≤ k2)
    (hl : 0.5 ≤ VdMProof.xi H T (Max.max cd cu)) :
    ∃ c : ℝ, Min.min cd cu ≤ c ∧ c ≤ Max.max cd cu ∧
      (calculate_dimensionless_wave_runup_height_z2p a).res =
        (calculate_dimensionless_wave_runup_height_z2p
          { Hm0 := fin H, Tmm10 := fin T, cot_alpha := fin c, gamma_beta := fin gB, gamma_b := fin 1,
            gamma_f := fin gf, c1 := fin c1, c2 := fin c2, c3 := fin c3, c4 := fin c4,
            use_best_fit := a.use_best_fit }).res := by
  generalize a.use_best_fit = bf at *
  subst ha
  have e0 : (0.0 : PF) = fin 0 := by rw [sci_eq]; norm_num
  have again : ∀ {x y : PF} {k : ℝ}, (if bf then x else y) = fin k → (if bf then x else fin k) = fin k := by
    intro x y k h
    cases bf
    · rfl
    · exact h
  obtain ⟨z, z0, hz, -, -, hit⟩ := pre_pass bf hH hT hcd hcu hgf hgf1 hgB hd0 hd (again e1) (again e2) (again e3)
    (again e4) p1 p2 p3 p4 h23 hl
  have hb := avg_between hH hz hd0 hd (min_le_left cd cu) (min_le_right cd cu) (le_max_left cd cu)
    (le_max_right cd cu)
  have hc : 0 < avg H z cd cu db := lt_of_lt_of_le (lt_min hcd hcu) hb.1
  have hfin : ∀ x : ℝ, ¬ (fin x).isnan := fun x => by simp
  refine ⟨_, hb.1, hb.2, ?_⟩
  refine Eq.trans (diml_res hH hT hc rfl rfl rfl rfl e1 e2 e3 e4 ?_ ?_)
    (single_res hH hT hc rfl rfl rfl (Or.inl rfl) rfl rfl rfl e1 e2 e3 e4).symm
  · have : check_composite_slope nan (fin cd) (fin cu) = pure true := by
      unfold check_composite_slope; simp
    have hx : (iteration_procedure_z2p_rec calculate_wave_runup_height_z2p (fin H) (fin T) (fin cd) (fin cu)
        (fin 0) (fin db) (fin gf) (fin gB) (fin k1) (fin k2) (fin k3) (fin k4) bf).res = .ok (fin z) := hit
    unfold slope_rec
    dsimp only
    rw [this, pure_bind, if_pos rfl, e0, PyM.bind_res_of_ok hx, average_eval 0 hH hz hcd hcu hd0 hd]
    rfl
  · unfold berm_rec iteration_procedure_gamma_b_rec
    dsimp only
    rw [if_pos (isnan_nan.mpr trivial), berm_length_composite (hfin cd) (hfin cu), pure_bind, if_pos]
    · rw [sci_eq]; norm_num
    · left; rw [e0, eqF_fin]

end RunupTaw2002

namespace OvertoppingTaw2002

theorem pre_composite {H T cd cu gf gB db : ℝ} (beta : PF) (hH : 0 < H) (hT : 0 < T)
    (hcd : 0 < cd) (hcu : 0 < cu) (hgf : 0 < gf) (hgf1 : gf ≤ 1) (hgB : 0 < gB) (hd0 : 0 ≤ db) (hd : db ≤ 1.5 * H)
    (hl : 0.5 ≤ VdMProof.xi H T (Max.max cd cu)) :
    ∃ c : ℝ, 0 < c ∧ Min.min cd cu ≤ c ∧ c ≤ Max.max cd cu ∧
      (pre (fin H) (fin T) nan (fin cd) (fin cu) beta (fin 0) (fin db) (fin gB) nan (fin gf)).res =
        .ok (fin gB, fin c, fin 1) := by
  obtain ⟨z, z0, hz, -, -, hit⟩ := RunupTaw2002.pre_pass (c1 := 1.75) (c2 := 4.3) (c3 := 1.6) (c4 := 1.0) false
    hH hT hcd hcu hgf hgf1 hgB hd0 hd rfl rfl rfl rfl (by norm_num) (by norm_num) (by norm_num) (by norm_num)
    (by norm_num) hl
  replace hit : (RunupTaw2002.iteration_procedure_z2p (fin H) (fin T) (fin cd) (fin cu) (fin 0) (fin db) (fin gf)
      (fin gB)).res = .ok (fin z) := hit
  have hb := RunupTaw2002.avg_between hH hz hd0 hd (min_le_left cd cu) (min_le_right cd cu) (le_max_left cd cu)
    (le_max_right cd cu)
  have hc : 0 < RunupTaw2002.avg H z cd cu db := lt_of_lt_of_le (lt_min hcd hcu) hb.1
  have hfin : ∀ x : ℝ, ¬ (fin x).isnan := fun x => by simp
  refine ⟨_, hc, hb.1, hb.2, ?_⟩
  have h1 : RunupTaw2002.check_calculate_gamma_beta beta (fin gB) = pure false := by
    unfold RunupTaw2002.check_calculate_gamma_beta; simp
  have h2 : RunupTaw2002.check_composite_slope nan (fin cd) (fin cu) = pure true := by
    unfold RunupTaw2002.check_composite_slope; simp
  have e0 : (0.0 : PF) = fin 0 := by rw [sci_eq]; norm_num
  have e1 : (1.0 : PF) = fin 1 := by rw [sci_eq]; norm_num
  unfold pre
  rw [h1, pure_bind]
  dsimp only
  rw [if_neg Bool.false_ne_true, h2, pure_bind, if_pos rfl, bind_assoc, PyM.bind_res_of_ok hit, pure_bind,
    RunupTaw2002.average_eval 0 hH hz hcd hcu hd0 hd, if_pos (isnan_nan.mpr trivial),
    RunupTaw2002.berm_length_composite (hfin cd) (hfin cu), pure_bind]
  unfold RunupTaw2002.iteration_procedure_gamma_b RunupTaw2002.iteration_procedure_gamma_b_rec
  rw [if_pos (Or.inl (by rw [e0, eqF_fin])), pure_bind, e1]
  rfl

theorem pre_plain (H T c gf gB db : ℝ) (beta : PF) {gb : PF} (hb : gb = nan ∨ gb = fin 1) :
    (pre (fin H) (fin T) (fin c) nan nan beta (fin 0) (fin db) (fin gB) gb (fin gf)).res =
      .ok (fin gB, fin c, fin 1) := by
  have h1 : RunupTaw2002.check_calculate_gamma_beta beta (fin gB) = pure false := by
    unfold RunupTaw2002.check_calculate_gamma_beta; simp
  have h2 : RunupTaw2002.check_composite_slope (fin c) nan nan = pure false := by
    unfold RunupTaw2002.check_composite_slope; simp
  have e0 : (0.0 : PF) = fin 0 := by rw [sci_eq]; norm_num
  have e1 : (1.0 : PF) = fin 1 := by rw [sci_eq]; norm_num
  unfold pre
  rw [h1, pure_bind]
  dsimp only
  rw [if_neg Bool.false_ne_true, h2, pure_bind, if_neg Bool.false_ne_true, pure_bind]
  rcases hb with rfl | rfl
  · rw [if_pos (isnan_nan.mpr trivial)]
    unfold RunupTaw2002.calculate_berm_length
    rw [h2]
    simp only [pure_bind, Bool.false_eq_true, if_false, isnan_fin]
    unfold RunupTaw2002.iteration_procedure_gamma_b RunupTaw2002.iteration_procedure_gamma_b_rec
    rw [if_pos (Or.inl (by rw [e0, eqF_fin])), pure_bind, e1]
    rfl
  · rw [if_neg (by simp), pure_bind]
    rfl

end OvertoppingTaw2002

namespace OvertoppingEurOtop2018

theorem pre_composite {H T cd cu gf gB db : ℝ} (beta : PF) (bf : Bool) (hH : 0 < H) (hT : 0 < T)
    (hcd : 0 < cd) (hcu : 0 < cu) (hgf : 0 < gf) (hgf1 : gf ≤ 1) (hgB : 0 < gB) (hd0 : 0 ≤ db) (hd : db ≤ 1.5 * H)
    (hl : 0.5 ≤ VdMProof.xi H T (Max.max cd cu)) :
    ∃ z z0 : ℝ, 0 < z ∧ 0 < z0 ∧
      z = (RunupTaw2002.ra (if bf then 1.65 else 1.75) gf 1 gB
          (VdMProof.xi H T (RunupTaw2002.avg H z0 cd cu db)) ⊓
        RunupTaw2002.rb (if bf then 4 else 4.3) 1.5 (if bf then 1 else 1.07) gf 1 gB
          (VdMProof.xi H T (RunupTaw2002.avg H z0 cd cu db))) * H ∧
      (pre (fin H) (fin T) nan (fin cd) (fin cu) beta (fin 0) (fin db) (fin gB) (fin gf) bf).res =
        .ok (fin gB, fin (RunupTaw2002.avg H z cd cu db)) ∧
      (berm (fin H) (fin T) (fin cd) (fin cu) (fin 0) (fin db) (fin gf)
        (fin gB, fin (RunupTaw2002.avg H z cd cu db))).res = .ok (fin 1) := by
  have c1 : (0 : ℝ) < if bf then 1.65 else 1.75 := by split_ifs <;> norm_num
  have c2 : (0 : ℝ) < if bf then 4 else 4.3 := by split_ifs <;> norm_num
  have c4 : (0 : ℝ) < if bf then 1 else 1.07 := by split_ifs <;> norm_num
  have c23 : 15 / 7 * (1.5 : ℝ) ≤ (if bf then 4 else 4.3 : ℝ) := by split_ifs <;> norm_num
  have k : RunupEurOtop2018.check_best_fit 1.75 4.3 1.5 1.07 bf =
      (fin (if bf then 1.65 else 1.75), fin (if bf then 4 else 4.3), fin 1.5, fin (if bf then 1 else 1.07)) := by
    unfold RunupEurOtop2018.check_best_fit
    cases bf
    · rfl
    · have e1 : (1.0 : PF) = fin 1 := by rw [sci_eq]; norm_num
      have e4 : (4.0 : PF) = fin 4 := by rw [sci_eq]; norm_num
      simp only [if_true, e1, e4]
      rfl
  obtain ⟨z, z0, hz, h0, hv, hit⟩ := RunupTaw2002.pre_pass (c1 := if bf then 1.65 else 1.75)
    (c2 := if bf then 4 else 4.3) (c3 := 1.5) (c4 := if bf then 1 else 1.07) bf
    (k1 := if bf then 1.65 else 1.75) (k2 := if bf then 4 else 4.3) (k3 := 1.5) (k4 := if bf then 1 else 1.07)
    hH hT hcd hcu hgf hgf1 hgB hd0 hd (by cases bf <;> rfl) (by cases bf; rfl; simp [sci_eq]; norm_num)
    (by cases bf <;> rfl) (by cases bf; rfl; simp [sci_eq]; norm_num) c1 c2 (by norm_num) c4 c23 hl
  refine ⟨z, z0, hz, h0, hv, ?_, ?_⟩
  · have hit' : (RunupEurOtop2018.iteration_procedure_z2p (fin H) (fin T) (fin cd) (fin cu) (fin 0) (fin db)
        (fin gf) (fin gB) (use_best_fit := bf)).res = .ok (fin z) := by
      unfold RunupEurOtop2018.iteration_procedure_z2p
      rw [k]
      exact hit
    have h1 : RunupTaw2002.check_calculate_gamma_beta beta (fin gB) = pure false := by
      unfold RunupTaw2002.check_calculate_gamma_beta; simp
    have h2 : RunupTaw2002.check_composite_slope nan (fin cd) (fin cu) = pure true := by
      unfold RunupTaw2002.check_composite_slope; simp
    unfold pre
    rw [h1, pure_bind]
    dsimp only
    rw [if_neg Bool.false_ne_true, h2, pure_bind, if_pos rfl, bind_assoc, PyM.bind_res_of_ok hit', pure_bind,
      RunupTaw2002.average_eval 0 hH hz hcd hcu hd0 hd]
    rfl
  · have e0 : (0.0 : PF) = fin 0 := by rw [sci_eq]; norm_num
    have e1 : (1.0 : PF) = fin 1 := by rw [sci_eq]; norm_num
    unfold berm
    rw [RunupTaw2002.berm_length_composite (by simp) (by simp), pure_bind]
    unfold RunupEurOtop2018.iteration_procedure_gamma_b RunupTaw2002.iteration_procedure_gamma_b
      RunupTaw2002.iteration_procedure_gamma_b_rec
    dsimp only
    rw [if_pos (Or.inl (by rw [e0, eqF_fin])), e1]
    rfl

end OvertoppingEurOtop2018
end
