import Verif.Lemmas.CompositeBerm

/-!
# Proof support: two slopes that meet outside the reach of the waves
-/

open Classical
open PF CorePhysics CoreUtility
noncomputable section

namespace RunupTaw2002

theorem avg_from_up {H z cd cu db : ℝ} (hs : 0 < 1.5 * H + z) :
    avg H z cd cu db = cu + (1.5 * H - db) * (cd - cu) / (1.5 * H + z) := by
  unfold avg
  field_simp
  ring

theorem avg_from_down {H z cd cu db : ℝ} (hs : 0 < 1.5 * H + z) :
    avg H z cd cu db = cd + (z + db) * (cu - cd) / (1.5 * H + z) := by
  unfold avg
  field_simp
  ring

theorem average_pos {H z cd cu db : ℝ} (B : ℝ) (hs : 0 < 1.5 * H + z) (p : 0 < avg H z cd cu db) :
    determine_average_slope (fin H) (fin z) (fin cd) (fin cu) (fin B) (fin db) = fin (avg H z cd cu db) := by
  have e1 : (1.0 : PF) = fin 1 := by rw [sci_eq]; norm_num
  have hL : (1.5 * H - db) * cd + B + (z + db) * cu - B = avg H z cd cu db * (1.5 * H + z) := by
    unfold avg
    rw [div_mul_cancel₀ _ hs.ne']
    ring
  unfold determine_average_slope
  dsimp only
  rw [e1, sci_eq]
  simp only [mul_fin, sub_fin, add_fin]
  rw [hL, div_fin (by positivity)]
  have : (1.5 * H + z) / (avg H z cd cu db * (1.5 * H + z)) = 1 / avg H z cd cu db := by
    field_simp
  rw [this, div_fin (one_div_ne_zero p.ne'), one_div_one_div]

/-- a gentler slope is run up strictly less -/
theorem level_lt {H T gf gB k1 k2 k3 k4 c c' : ℝ} (hH : 0 < H) (hT : 0 < T) (hc : 0 < c) (hcc : c < c')
    (hgf : 0 < gf) (hgB : 0 < gB) (p1 : 0 < k1) (p3 : 0 < k3) (p4 : 0 < k4)
    (hs : gf = 1 ∨ VdMProof.xi H T c < 1.8) :
    level H T gf 1 gB k1 k2 k3 k4 c' < level H T gf 1 gB k1 k2 k3 k4 c := by
  have hx' := VdMProof.xi_pos hH hT (hc.trans hcc)
  have hx : VdMProof.xi H T c' < VdMProof.xi H T c := by
    unfold VdMProof.xi
    refine div_lt_div_of_pos_right (div_lt_div_of_pos_left (by norm_num) hc hcc) (Real.sqrt_pos.mpr ?_)
    positivity
  have r : ∀ x : ℝ, (gf = 1 ∨ x < 1.8) → rough gf 1 x = gf := by
    intro x h
    unfold rough
    rcases h with rfl | h
    · split_ifs <;> norm_num
    · rw [if_neg]
      rintro ⟨h', -⟩
      linarith
  unfold level ra rb
  rw [r _ hs, r _ (hs.imp_right hx.trans)]
  have hq : √(VdMProof.xi H T c') < √(VdMProof.xi H T c) := Real.sqrt_lt_sqrt hx'.le hx
  have hq0 : 0 < √(VdMProof.xi H T c') := Real.sqrt_pos.mpr hx'
  refine mul_lt_mul_of_pos_right (min_lt_min ?_ ?_) hH
  · exact mul_lt_mul_of_pos_left hx (by positivity)
  · refine mul_lt_mul_of_pos_left ?_ (by positivity)
    have := div_lt_div_of_pos_left p3 hq0 hq
    linarith

section
variable {H T cd cu gf gB db c1 c2 c3 c4 k1 k2 k3 k4 m : ℝ} (bf : Bool) (hH : 0 < H) (hT : 0 < T) (hcd : 0 < cd)
  (hcu : 0 < cu) (hgf : 0 < gf) (hgf1 : gf ≤ 1) (hgB : 0 < gB)
  (e1 : (if bf then 1.65 else fin c1) = fin k1) (e2 : (if bf then 4.0 else fin c2) = fin k2)
  (e3 : (if bf then 1.5 else fin c3) = fin k3) (e4 : (if bf then 1.0 else fin c4) = fin k4)
  (p1 : 0 < k1) (p2 : 0 < k2) (p3 : 0 ≤ k3) (p4 : 0 < k4) (h23 : 15 / 7 * k3 ≤ k2)
  (hl : 0.5 ≤ VdMProof.xi H T m) (hav : ∀ z, 0 < z → 0 < avg H z cd cu db ∧ avg H z cd cu db ≤ m)
include hH hT hcd hcu hgf hgf1 hgB p1 p2 p3 p4 h23 hl hav e1 e2 e3 e4

/-- without a berm, as long as the average slope stays positive, wherever the two slopes meet -/
theorem composite_wide : ∃ z z0 : ℝ, 0 < z ∧ 0 < z0 ∧
    z = level H T gf 1 gB k1 k2 k3 k4 (avg H z0 cd cu db) ∧
    (calculate_dimensionless_wave_runup_height_z2p
        { Hm0 := fin H, Tmm10 := fin T, cot_alpha_down := fin cd, cot_alpha_up := fin cu, gamma_beta := fin gB,
          gamma_f := fin gf, db := fin db, c1 := fin c1, c2 := fin c2, c3 := fin c3, c4 := fin c4,
          use_best_fit := bf }).res =
        (calculate_dimensionless_wave_runup_height_z2p
          { Hm0 := fin H, Tmm10 := fin T, cot_alpha := fin (avg H z cd cu db), gamma_beta := fin gB,
            gamma_b := fin 1, gamma_f := fin gf, c1 := fin c1, c2 := fin c2, c3 := fin c3, c4 := fin c4,
            use_best_fit := bf }).res := by
  have again : ∀ {x y : PF} {k : ℝ}, (if bf then x else y) = fin k → (if bf then x else fin k) = fin k := by
    intro x y k h
    cases bf
    · rfl
    · exact h
  have q0 : (0.0 : PF) = fin 0 := by rw [sci_eq]; norm_num
  have q1 : (1.0 : PF) = fin 1 := by rw [sci_eq]; norm_num
  have hfin : ∀ x : ℝ, ¬ (fin x).isnan := fun x => by simp
  have hL0 : 0 < H * cd + 0 + H * cu := by positivity
  have hL : (1.0 * fin H * fin cd + fin 0 + 1.0 * fin H * fin cu : PF) = fin (H * cd + 0 + H * cu) := by
    rw [q1]; simp only [mul_fin, add_fin, one_mul]
  have hpos : ∀ z, 0 < z → 0 < level H T gf 1 gB k1 k2 k3 k4 (avg H z cd cu db) := by
    intro z hz
    obtain ⟨a, b⟩ := hav z hz
    have hx := VdMProof.xi_pos hH hT a
    have hr := rough_pos (gb := 1) hgf hgf1 le_rfl hx
    have hq := level_ok hH hT a b p3 h23 p2 hl
    unfold level ra rb
    exact mul_pos (lt_min (by positivity) (mul_pos (by positivity) (by linarith))) hH
  have body : ∀ z, 0 < z → ∀ s2, (pass H T cd cu gf gB 0 db k1 k2 k3 k4 bf (fin z, s2)).res =
      .ok (fin (level H T gf 1 gB k1 k2 k3 k4 (avg H z cd cu db)), fin z) := by
    intro z hz s2
    obtain ⟨a, b⟩ := hav z hz
    unfold pass
    dsimp only
    rw [berm_length_composite (hfin cd) (hfin cu), pure_bind, hL, average_pos 0 (by positivity) a,
      berm_none hH hL0.ne']
    unfold calculate_wave_runup_height_z2p height_of
    rw [bind_assoc, PyM.bind_res_of_ok (single_res hH hT a rfl rfl rfl (Or.inl rfl) rfl rfl rfl (again e1) (again e2)
      (again e3) (again e4))]
    rfl
  have hc : PF.abs (1.5 * fin H - (1.5 * fin H + 2 * fin 1e-4)) > fin 1e-4 := by
    simp only [sci_eq, ofNat_eq, mul_fin, add_fin, sub_fin, abs_fin, gt_fin]
    rw [show (1.5 * H - (1.5 * H + 2 * 1e-4) : ℝ) = -(2 * 1e-4) by ring, abs_neg,
      abs_of_pos (by norm_num)]
    norm_num
  have ez0 : (1.5 * fin H : PF) = fin (1.5 * H) := rfl
  obtain ⟨r, hr, z, z0, hz, h0, hzz, hrz⟩ := whileIterM_ok (bodyM := pass H T cd cu gf gB 0 db k1 k2 k3 k4 bf)
    (cond := fun s : PF × PF => PF.abs (s.1 - s.2) > fin 1e-4)
    (I := fun s : PF × PF => ∃ z z0 : ℝ, 0 < z ∧ 0 < z0 ∧
      z = level H T gf 1 gB k1 k2 k3 k4 (avg H z0 cd cu db) ∧ s.1 = fin z)
    (fun s hs => by
      obtain ⟨s1, s2⟩ := s
      obtain ⟨z, z0, hz, h0, -, h⟩ := hs
      subst h
      exact ⟨_, body z hz s2, _, z, hpos z hz, hz, rfl, rfl⟩) 1000 (_, fin (1.5 * H))
    ⟨_, 1.5 * H, hpos _ (by positivity), by positivity, rfl, rfl⟩
  have hit : (iteration_procedure_z2p_rec calculate_wave_runup_height_z2p (fin H) (fin T) (fin cd) (fin cu)
        (fin 0) (fin db) (fin gf) (fin gB) (fin k1) (fin k2) (fin k3) (fin k4) bf).res = .ok (fin z) := by
    unfold iteration_procedure_z2p_rec
    dsimp only
    change (whileIterM (1000 + 1) (fun s : PF × PF => PF.abs (s.1 - s.2) > fin 1e-4)
      (pass H T cd cu gf gB 0 db k1 k2 k3 k4 bf) _ >>= _).res = _
    unfold whileIterM
    have hc' : (fun s : PF × PF => PF.abs (s.1 - s.2) > fin 1e-4) (1.5 * fin H, 1.5 * fin H + 2 * 1e-4) := hc
    rw [if_pos hc', bind_assoc]
    rw [ez0] at *
    rw [PyM.bind_res_of_ok (body _ (by positivity) _), PyM.bind_res_of_ok hr, ← hrz]
    rfl
  refine ⟨z, z0, hz, h0, hzz, ?_⟩
  obtain ⟨a, b⟩ := hav z hz
  refine Eq.trans (diml_res hH hT a rfl rfl rfl rfl e1 e2 e3 e4 ?_ ?_)
    (single_res hH hT a rfl rfl rfl (Or.inl rfl) rfl rfl rfl e1 e2 e3 e4).symm
  · have : check_composite_slope nan (fin cd) (fin cu) = pure true := by
      unfold check_composite_slope; simp
    unfold slope_rec
    dsimp only
    rw [q0, this, pure_bind, if_pos rfl, PyM.bind_res_of_ok hit, average_pos 0 (by positivity) a]
    rfl
  · unfold berm_rec
    dsimp only
    rw [if_pos (isnan_nan.mpr trivial), berm_length_composite (hfin cd) (hfin cu), pure_bind]
    unfold iteration_procedure_gamma_b_rec
    rw [if_pos (Or.inl (by rw [q0, eqF_fin])), q1]
    rfl

theorem height_wide : ∃ (z z0 : ℝ) (f : Bool), 0 < z ∧ 0 < z0 ∧
    z = level H T gf 1 gB k1 k2 k3 k4 (avg H z0 cd cu db) ∧
    (calculate_wave_runup_height_z2p
        { Hm0 := fin H, Tmm10 := fin T, cot_alpha_down := fin cd, cot_alpha_up := fin cu, gamma_beta := fin gB,
          gamma_f := fin gf, db := fin db, c1 := fin c1, c2 := fin c2, c3 := fin c3, c4 := fin c4,
          use_best_fit := bf }).res = .ok (fin (level H T gf 1 gB k1 k2 k3 k4 (avg H z cd cu db)), f) := by
  obtain ⟨z, z0, hz, h0, he, h⟩ := composite_wide bf hH hT hcd hcu hgf hgf1 hgB e1 e2 e3 e4 p1 p2 p3 p4 h23 hl hav
  obtain ⟨f, hf⟩ := height_level (gf := gf) (gb := 1) (gB := gB) bf hH hT (hav z hz).1 e1 e2 e3 e4
  refine ⟨z, z0, f, hz, h0, he, ?_⟩
  rw [← hf]
  unfold calculate_wave_runup_height_z2p height_of
  exact PyM.bind_res_congr h _
end

/-! average slopes beyond both slopes -/
section
variable {H cd cu db z : ℝ} (hH : 0 < H) (hz : 0 < z)
include hH hz

theorem avg_deep_steep (hd : 1.5 * H < db) (hc : cu < cd) :
    cu - (db - 1.5 * H) * (cd - cu) / (1.5 * H) ≤ avg H z cd cu db ∧ avg H z cd cu db < cu := by
  have hs : 0 < 1.5 * H := by positivity
  have hs' : 0 < 1.5 * H + z := by positivity
  have hp : 0 < (db - 1.5 * H) * (cd - cu) := mul_pos (by linarith) (by linarith)
  have e : (1.5 * H - db) * (cd - cu) / (1.5 * H + z) = -((db - 1.5 * H) * (cd - cu) / (1.5 * H + z)) := by ring
  rw [avg_from_up hs', e]
  have h1 := div_pos hp hs'
  have h2 := div_le_div_of_nonneg_left hp.le hs (show 1.5 * H ≤ 1.5 * H + z by linarith)
  constructor <;> linarith

theorem avg_deep_gentle (hd : 1.5 * H < db) (hc : cd < cu) :
    cu < avg H z cd cu db ∧ avg H z cd cu db ≤ cu + (db - 1.5 * H) * (cu - cd) / (1.5 * H) := by
  have hs : 0 < 1.5 * H := by positivity
  have hs' : 0 < 1.5 * H + z := by positivity
  have hp : 0 < (db - 1.5 * H) * (cu - cd) := mul_pos (by linarith) (by linarith)
  have e : (1.5 * H - db) * (cd - cu) / (1.5 * H + z) = (db - 1.5 * H) * (cu - cd) / (1.5 * H + z) := by ring
  rw [avg_from_up hs', e]
  have h1 := div_pos hp hs'
  have h2 := div_le_div_of_nonneg_left hp.le hs (show 1.5 * H ≤ 1.5 * H + z by linarith)
  constructor <;> linarith

/-- slopes that meet at height `d` above the water line -/
theorem avg_high_gentle {d : ℝ} (hd : 0 < d) (hc : cd < cu) :
    cd - d * (cu - cd) / (1.5 * H) ≤ avg H z cd cu (-d) ∧ avg H z cd cu (-d) ≤ cu ∧
      (z < d → avg H z cd cu (-d) < cd) := by
  have hs : 0 < 1.5 * H := by positivity
  have hs' : 0 < 1.5 * H + z := by positivity
  have hp : 0 < d * (cu - cd) := mul_pos hd (by linarith)
  have h2 := div_le_div_of_nonneg_left hp.le hs (show 1.5 * H ≤ 1.5 * H + z by linarith)
  have h3 : 0 < z * (cu - cd) / (1.5 * H + z) := div_pos (mul_pos hz (by linarith)) hs'
  have e : (z + -d) * (cu - cd) / (1.5 * H + z) = z * (cu - cd) / (1.5 * H + z) - d * (cu - cd) / (1.5 * H + z) := by
    ring
  rw [avg_from_down hs', e]
  refine ⟨by linarith, ?_, fun h => ?_⟩
  · have h4 := div_pos hp hs'
    have h5 : z * (cu - cd) / (1.5 * H + z) ≤ cu - cd := by
      rw [div_le_iff₀ hs']
      nlinarith
    linarith
  · have h4 : z * (cu - cd) / (1.5 * H + z) < d * (cu - cd) / (1.5 * H + z) :=
      div_lt_div_of_pos_right (mul_lt_mul_of_pos_right h (by linarith)) hs'
    linarith

theorem avg_high_steep {d : ℝ} (hd : 0 < d) (hc : cu < cd) :
    cu ≤ avg H z cd cu (-d) ∧ avg H z cd cu (-d) ≤ cd + d * (cd - cu) / (1.5 * H) ∧
      (z < d → cd < avg H z cd cu (-d)) := by
  have hs : 0 < 1.5 * H := by positivity
  have hs' : 0 < 1.5 * H + z := by positivity
  have hp : 0 < d * (cd - cu) := mul_pos hd (by linarith)
  have h2 := div_le_div_of_nonneg_left hp.le hs (show 1.5 * H ≤ 1.5 * H + z by linarith)
  have h3 : 0 < z * (cd - cu) / (1.5 * H + z) := div_pos (mul_pos hz (by linarith)) hs'
  have e : (z + -d) * (cu - cd) / (1.5 * H + z) = d * (cd - cu) / (1.5 * H + z) - z * (cd - cu) / (1.5 * H + z) := by
    ring
  rw [avg_from_down hs', e]
  refine ⟨?_, by linarith, fun h => ?_⟩
  · have h4 := div_pos hp hs'
    have h5 : z * (cd - cu) / (1.5 * H + z) ≤ cd - cu := by
      rw [div_le_iff₀ hs']
      nlinarith
    linarith
  · have h4 : z * (cd - cu) / (1.5 * H + z) < d * (cd - cu) / (1.5 * H + z) :=
      div_lt_div_of_pos_right (mul_lt_mul_of_pos_right h (by linarith)) hs'
    linarith
end
end RunupTaw2002
