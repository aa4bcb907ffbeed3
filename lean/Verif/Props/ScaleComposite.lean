import Verif.Props.CompositeBerm
import Verif.Props.ScaleHydraulic

/-!
# C82: run-up on two slopes

The iteration over the average slope stops at a fixed 0.1 mm, so that model and prototype cannot agree exactly. The
level that agrees with its own average slope follows the scale, and both results lie close to it.
-/

open Classical
open PF
open CorePhysics CoreUtility WorseProof
noncomputable section

namespace ScaleProof
theorem iribarren_scale {lam : ℝ} (hl : 0 < lam) (H T c : ℝ) :
    Textbook.iribarren (lam * H) (√lam * T) c = Textbook.iribarren H T c := by
  unfold Textbook.iribarren Textbook.steepness
  rw [mul_pow, Real.sq_sqrt hl.le]
  congr 3
  rcases eq_or_ne T 0 with rfl | hT
  · simp
  · field_simp

theorem bermFactor_scale {lam : ℝ} (hl : 0 < lam) (H cd cu B d : ℝ) :
    Published.bermFactor (lam * H) cd cu (lam * B) (lam * d) = Published.bermFactor H cd cu B d := by
  unfold Published.bermFactor
  rw [show lam * H * cd + lam * B + lam * H * cu = lam * (H * cd + B + H * cu) by ring, mul_div_mul_left _ _ hl.ne',
    show Real.pi * (lam * d) = lam * (Real.pi * d) by ring, show 2 * (lam * H) = lam * (2 * H) by ring,
    mul_div_mul_left _ _ hl.ne']

theorem avg_scale {lam : ℝ} (hl : 0 < lam) (H y cd cu d : ℝ) :
    ((1.5 * (lam * H) - lam * d) * cd + (lam * y + lam * d) * cu) / (1.5 * (lam * H) + lam * y) =
      ((1.5 * H - d) * cd + (y + d) * cu) / (1.5 * H + y) := by
  rw [show (1.5 * (lam * H) - lam * d) * cd + (lam * y + lam * d) * cu =
    lam * ((1.5 * H - d) * cd + (y + d) * cu) by ring, show 1.5 * (lam * H) + lam * y = lam * (1.5 * H + y) by ring,
    mul_div_mul_left _ _ hl.ne']

theorem near_scale {lam : ℝ} (hl : 0 < lam) {p z z' e : ℝ} (h : |z - p| ≤ e) (h' : |z' - lam * p| ≤ e) :
    |z' - lam * z| ≤ e * (1 + lam) := by
  rw [show z' - lam * z = (z' - lam * p) - lam * (z - p) by ring]
  refine (abs_sub _ _).trans ?_
  rw [abs_mul, abs_of_pos hl]
  nlinarith [mul_le_mul_of_nonneg_left h hl.le]

theorem len_zero (lam : ℝ) : Scale.len lam (0.0 : PF) = 0.0 := by
  unfold Scale.len Scale.times
  rw [sci_eq, mul_fin, fin_inj]
  norm_num

theorem scaled_res {lam : ℝ} {m : PyM (PF × Bool)} {x y : PF} {g : Bool} (e : Scale.len lam x = y)
    (h : m.res = .ok (x, g)) : ((fun r : PF × Bool => (Scale.len lam r.1, r.2)) <$> m).res = .ok (y, g) := by
  rw [← e]
  exact PyM.bind_res_of_ok h _
end ScaleProof
open ScaleProof

section
variable {lam : ℝ} (hl : 0 < lam) (H T cd cu gf db : ℝ) (hH : 0 < H) (hT : 0 < T) (hcd : 0 < cd) (hcu : 0 < cu)
  (hcc : cu ≤ 4 * cd) (hcc' : cd ≤ 4 * cu) (hf : 0.18 ≤ gf) (hf1 : gf ≤ 1) (hd0 : 0 ≤ db) (hd : db ≤ 1.5 * H)
  (hx : 0.5 ≤ Textbook.iribarren H T (max cd cu)) (hH6 : H ≤ 1e6) (hH6' : lam * H ≤ 1e6)
include hl hH hT hcd hcu hcc hcc' hf hf1 hd0 hd hx hH6 hH6'

/-- C82, run-up on two slopes without berm by TAW (2002): model and prototype follow the scale up to 0.3 mm in either,
0.1 mm where the roughness does not depend on the waves (missing: as in C89, and equality, which the fixed tolerance of
the iteration rules out) -/
theorem C82_composite_taw2002_partial (hr : gf = 1 ∨ Textbook.iribarren H T (min cd cu) ≤ 10) (gB : ℝ) (bf : Bool)
    (hB : 0 < gB) (hB1 : gB ≤ 1) (hlo : 2e-3 ≤ gf * gB * H) (hlo' : 2e-3 ≤ gf * gB * (lam * H)) :
    ∃ (z z' : ℝ) (f f' : Bool), (RunupTaw2002.calculate_wave_runup_height_z2p
        { Hm0 := fin H, Tmm10 := fin T, cot_alpha_down := fin cd, cot_alpha_up := fin cu, gamma_f := fin gf,
          gamma_beta := fin gB, db := fin db, use_best_fit := bf }).res = .ok (fin z, f) ∧
      (RunupTaw2002.calculate_wave_runup_height_z2p
        { Hm0 := Scale.len lam (fin H), Tmm10 := Scale.time lam (fin T), cot_alpha_down := fin cd,
          cot_alpha_up := fin cu, gamma_f := fin gf, gamma_beta := fin gB, db := Scale.len lam (fin db),
          use_best_fit := bf }).res = .ok (fin z', f') ∧
      |z' - lam * z| ≤ 3e-4 * (1 + lam) ∧
      ((gf = 1 ∨ Textbook.iribarren H T (min cd cu) < 1.8) → |z' - lam * z| ≤ 1e-4 * (1 + lam)) := by
  have hs := Real.sqrt_pos.mpr hl
  have el : ∀ x : ℝ, Scale.len lam (fin x) = fin (lam * x) := fun x => by
    unfold Scale.len Scale.times; rw [mul_fin]
  have et : ∀ x : ℝ, Scale.time lam (fin x) = fin (√lam * x) := fun x => by
    unfold Scale.time Scale.times; rw [mul_fin]
  obtain ⟨p, hp, u, z, f, r, a, b⟩ := C89_taw_runup_partial H T cd cu gf db hH hT hcd hcu hcc hcc' hf hf1 hd0 hd hx hr hH6
    gB bf hB hB1 hlo
  obtain ⟨p', hp', u', z', f', r', a', b'⟩ := C89_taw_runup_partial (lam * H) (√lam * T) cd cu gf (lam * db)
    (by positivity) (by positivity) hcd hcu hcc hcc' hf hf1 (by positivity) (by nlinarith)
    (by rw [iribarren_scale hl]; exact hx) (by rw [iribarren_scale hl]; exact hr) hH6' gB bf hB hB1 hlo'
  have e : p' = lam * p := by
    refine ((u' (lam * p) (by positivity)).mp ?_).symm
    obtain ⟨g, k⟩ := (u p hp).mpr rfl
    refine ⟨g, ?_⟩
    have s := (C82_runup_taw2002_partial hl
      { Hm0 := fin H, Tmm10 := fin T, gamma_f := fin gf, gamma_b := fin 1, gamma_beta := fin gB,
        cot_alpha := fin (((1.5 * H - db) * cd + (p + db) * cu) / (1.5 * H + p)), use_best_fit := bf } (Or.inl trivial)).2
    simp only [el, et, len_zero] at s
    rw [avg_scale hl, s]
    exact scaled_res (el p) k
  rw [e] at a' b'
  simp only [el, et]
  refine ⟨z, z', f, f', r, r', near_scale hl a a', fun h => near_scale hl (b h) (b' ?_)⟩
  rw [iribarren_scale hl]; exact h

/-- C82, run-up on two slopes with a berm at or below the water line by TAW (2002): up to 0.1 mm in either (missing: as
in C89, and equality) -/
theorem C82_composite_taw2002_berm_partial (hr : gf = 1 ∨ Textbook.iribarren H T (min cd cu) < 1.8) (gB B : ℝ)
    (bf : Bool) (hB : 0 < gB) (hB1 : gB ≤ 1) (hB0 : 0 ≤ B) (hlo : 4e-3 ≤ gf * gB * H)
    (hlo' : 4e-3 ≤ gf * gB * (lam * H)) :
    ∃ (z z' : ℝ) (f f' : Bool), (RunupTaw2002.calculate_wave_runup_height_z2p
        { Hm0 := fin H, Tmm10 := fin T, cot_alpha_down := fin cd, cot_alpha_up := fin cu, gamma_f := fin gf,
          gamma_beta := fin gB, B_berm := fin B, db := fin db, use_best_fit := bf }).res = .ok (fin z, f) ∧
      (RunupTaw2002.calculate_wave_runup_height_z2p
        { Hm0 := Scale.len lam (fin H), Tmm10 := Scale.time lam (fin T), cot_alpha_down := fin cd,
          cot_alpha_up := fin cu, gamma_f := fin gf, gamma_beta := fin gB, B_berm := Scale.len lam (fin B),
          db := Scale.len lam (fin db), use_best_fit := bf }).res = .ok (fin z', f') ∧
      |z' - lam * z| ≤ 1e-4 * (1 + lam) := by
  have hs := Real.sqrt_pos.mpr hl
  have el : ∀ x : ℝ, Scale.len lam (fin x) = fin (lam * x) := fun x => by
    unfold Scale.len Scale.times; rw [mul_fin]
  have et : ∀ x : ℝ, Scale.time lam (fin x) = fin (√lam * x) := fun x => by
    unfold Scale.time Scale.times; rw [mul_fin]
  obtain ⟨p, hp, u, z, f, r, a⟩ := C89_taw_runup_berm_partial H T cd cu gf db hH hT hcd hcu hcc hcc' hf hf1 hd0 hd hx hr
    hH6 gB B bf hB hB1 hB0 hlo
  obtain ⟨p', hp', u', z', f', r', a'⟩ := C89_taw_runup_berm_partial (lam * H) (√lam * T) cd cu gf (lam * db)
    (by positivity) (by positivity) hcd hcu hcc hcc' hf hf1 (by positivity) (by nlinarith)
    (by rw [iribarren_scale hl]; exact hx) (by rw [iribarren_scale hl]; exact hr) hH6' gB (lam * B) bf hB hB1
    (by positivity) hlo'
  have e : p' = lam * p := by
    refine ((u' (lam * p) (by positivity)).mp ?_).symm
    obtain ⟨g, k⟩ := (u p hp).mpr rfl
    refine ⟨g, ?_⟩
    have s := (C82_runup_taw2002_partial hl
      { Hm0 := fin H, Tmm10 := fin T, gamma_f := fin gf, gamma_b := fin (Published.bermFactor H cd cu B db),
        gamma_beta := fin gB, cot_alpha := fin (((1.5 * H - db) * cd + (p + db) * cu) / (1.5 * H + p)),
        use_best_fit := bf } (Or.inl trivial)).2
    simp only [el, et, len_zero] at s
    rw [avg_scale hl, bermFactor_scale hl, s]
    exact scaled_res (el p) k
  rw [e] at a'
  simp only [el, et]
  exact ⟨z, z', f, f', r, r', near_scale hl a a'⟩

/-- C82, run-up on two slopes without berm by EurOtop (2018) (missing: as for TAW (2002)) -/
theorem C82_composite_eurotop2018_partial (hr : gf = 1 ∨ Textbook.iribarren H T (min cd cu) ≤ 10)
    (b c1 c2 c3 c4 : ℝ) (gB : PF) (bf : Bool) (h1 : 1 ≤ c1) (h2 : 3 ≤ c2)
    (h3 : 0 ≤ c3) (h4 : 1 ≤ c4) (h23 : 15 / 7 * c3 ≤ c2) (h24 : c2 * c4 ≤ 10) (hlo : 5e-3 ≤ gf * H)
    (hlo' : 5e-3 ≤ gf * (lam * H)) :
    ∃ (z z' : ℝ) (f f' : Bool), (RunupEurOtop2018.calculate_wave_runup_height_z2p (fin H) (fin T) (fin b) gB
        (gamma_f := fin gf) (db := fin db) (cot_alpha_down := fin cd) (cot_alpha_up := fin cu) (c1 := fin c1)
        (c2 := fin c2) (c3 := fin c3) (c4 := fin c4) (use_best_fit := bf)).res = .ok (fin z, f) ∧
      (RunupEurOtop2018.calculate_wave_runup_height_z2p (Scale.len lam (fin H)) (Scale.time lam (fin T)) (fin b) gB
        (gamma_f := fin gf) (db := Scale.len lam (fin db)) (cot_alpha_down := fin cd) (cot_alpha_up := fin cu)
        (c1 := fin c1) (c2 := fin c2) (c3 := fin c3) (c4 := fin c4) (use_best_fit := bf)).res = .ok (fin z', f') ∧
      |z' - lam * z| ≤ 3e-4 * (1 + lam) ∧
      ((gf = 1 ∨ Textbook.iribarren H T (min cd cu) < 1.8) → |z' - lam * z| ≤ 1e-4 * (1 + lam)) := by
  have hs := Real.sqrt_pos.mpr hl
  have el : ∀ x : ℝ, Scale.len lam (fin x) = fin (lam * x) := fun x => by
    unfold Scale.len Scale.times; rw [mul_fin]
  have et : ∀ x : ℝ, Scale.time lam (fin x) = fin (√lam * x) := fun x => by
    unfold Scale.time Scale.times; rw [mul_fin]
  obtain ⟨p, hp, u, z, f, r, a, k'⟩ := C89_eurotop2018_runup_partial H T cd cu gf db hH hT hcd hcu hcc hcc' hf hf1 hd0 hd
    hx hr hH6 b c1 c2 c3 c4 gB bf h1 h2 h3 h4 h23 h24 hlo
  obtain ⟨p', hp', u', z', f', r', a', k''⟩ := C89_eurotop2018_runup_partial (lam * H) (√lam * T) cd cu gf (lam * db)
    (by positivity) (by positivity) hcd hcu hcc hcc' hf hf1 (by positivity) (by nlinarith)
    (by rw [iribarren_scale hl]; exact hx) (by rw [iribarren_scale hl]; exact hr) hH6' b c1 c2 c3 c4 gB bf h1 h2 h3 h4
    h23 h24 hlo'
  have e : p' = lam * p := by
    refine ((u' (lam * p) (by positivity)).mp ?_).symm
    obtain ⟨g, k⟩ := (u p hp).mpr rfl
    refine ⟨g, ?_⟩
    have s := (C82_runup_eurotop2018_partial hl (fin H) (fin T) (fin b) gB (fin 1) (fin gf) 0.0 0.0
      (fin (((1.5 * H - db) * cd + (p + db) * cu) / (1.5 * H + p))) nan nan (fin c1) (fin c2) (fin c3) (fin c4) bf
      (Or.inl trivial)).2
    simp only [el, et, len_zero] at s
    rw [avg_scale hl, s]
    exact scaled_res (el p) k
  rw [e] at a' k''
  simp only [el, et]
  refine ⟨z, z', f, f', r, r', near_scale hl a a', fun h => near_scale hl (k' h) (k'' ?_)⟩
  rw [iribarren_scale hl]; exact h

/-- C82, run-up on two slopes with a berm at or below the water line by EurOtop (2018) (missing: as for TAW (2002)) -/
theorem C82_composite_eurotop2018_berm_partial (hr : gf = 1 ∨ Textbook.iribarren H T (min cd cu) < 1.8)
    (b c1 c2 c3 c4 B : ℝ) (gB : PF) (bf : Bool) (h1 : 1 ≤ c1) (h2 : 3 ≤ c2)
    (h3 : 0 ≤ c3) (h4 : 1 ≤ c4) (h23 : 15 / 7 * c3 ≤ c2) (h24 : c2 * c4 ≤ 10) (hB0 : 0 ≤ B) (hlo : 1e-2 ≤ gf * H)
    (hlo' : 1e-2 ≤ gf * (lam * H)) :
    ∃ (z z' : ℝ) (f f' : Bool), (RunupEurOtop2018.calculate_wave_runup_height_z2p (fin H) (fin T) (fin b) gB
        (gamma_f := fin gf) (B_berm := fin B) (db := fin db) (cot_alpha_down := fin cd) (cot_alpha_up := fin cu)
        (c1 := fin c1) (c2 := fin c2) (c3 := fin c3) (c4 := fin c4) (use_best_fit := bf)).res = .ok (fin z, f) ∧
      (RunupEurOtop2018.calculate_wave_runup_height_z2p (Scale.len lam (fin H)) (Scale.time lam (fin T)) (fin b) gB
        (gamma_f := fin gf) (B_berm := Scale.len lam (fin B)) (db := Scale.len lam (fin db)) (cot_alpha_down := fin cd)
        (cot_alpha_up := fin cu) (c1 := fin c1) (c2 := fin c2) (c3 := fin c3) (c4 := fin c4)
        (use_best_fit := bf)).res = .ok (fin z', f') ∧
      |z' - lam * z| ≤ 1e-4 * (1 + lam) := by
  have hs := Real.sqrt_pos.mpr hl
  have el : ∀ x : ℝ, Scale.len lam (fin x) = fin (lam * x) := fun x => by
    unfold Scale.len Scale.times; rw [mul_fin]
  have et : ∀ x : ℝ, Scale.time lam (fin x) = fin (√lam * x) := fun x => by
    unfold Scale.time Scale.times; rw [mul_fin]
  obtain ⟨p, hp, u, z, f, r, a⟩ := C89_eurotop2018_runup_berm_partial H T cd cu gf db hH hT hcd hcu hcc hcc' hf hf1 hd0
    hd hx hr hH6 b c1 c2 c3 c4 B gB bf h1 h2 h3 h4 h23 h24 hB0 hlo
  obtain ⟨p', hp', u', z', f', r', a'⟩ := C89_eurotop2018_runup_berm_partial (lam * H) (√lam * T) cd cu gf (lam * db)
    (by positivity) (by positivity) hcd hcu hcc hcc' hf hf1 (by positivity) (by nlinarith)
    (by rw [iribarren_scale hl]; exact hx) (by rw [iribarren_scale hl]; exact hr) hH6' b c1 c2 c3 c4 (lam * B) gB bf
    h1 h2 h3 h4 h23 h24 (by positivity) hlo'
  have e : p' = lam * p := by
    refine ((u' (lam * p) (by positivity)).mp ?_).symm
    obtain ⟨g, k⟩ := (u p hp).mpr rfl
    refine ⟨g, ?_⟩
    have s := (C82_runup_eurotop2018_partial hl (fin H) (fin T) (fin b) gB (fin (Published.bermFactor H cd cu B db))
      (fin gf) 0.0 0.0 (fin (((1.5 * H - db) * cd + (p + db) * cu) / (1.5 * H + p))) nan nan (fin c1) (fin c2) (fin c3)
      (fin c4) bf (Or.inl trivial)).2
    simp only [el, et, len_zero] at s
    rw [avg_scale hl, bermFactor_scale hl, s]
    exact scaled_res (el p) k
  rw [e] at a'
  simp only [el, et]
  exact ⟨z, z', f, f', r, r', near_scale hl a a'⟩
end

/-! ## Cases: 1:3 below and 1:4 above, at a scale of 1 to 20 -/

open CompositeCase
example := C82_composite_taw2002_partial (lam := 1 / 20) (by norm_num) 2 6 3 4 0.6 1 (by norm_num) (by norm_num)
  (by norm_num) (by norm_num) (by norm_num) (by norm_num) (by norm_num) (by norm_num) (by norm_num) (by norm_num) flat
  (by norm_num) (by norm_num) (Or.inr steep) 0.9 true (by norm_num) (by norm_num) (by norm_num) (by norm_num)
example := C82_composite_taw2002_berm_partial (lam := 1 / 20) (by norm_num) 2 6 3 4 1 1 (by norm_num) (by norm_num)
  (by norm_num) (by norm_num) (by norm_num) (by norm_num) (by norm_num) (by norm_num) (by norm_num) (by norm_num) flat
  (by norm_num) (by norm_num) (Or.inl rfl) 0.9 5 true (by norm_num) (by norm_num) (by norm_num) (by norm_num)
  (by norm_num)
example := C82_composite_eurotop2018_partial (lam := 1 / 20) (by norm_num) 2 6 3 4 0.6 1 (by norm_num) (by norm_num)
  (by norm_num) (by norm_num) (by norm_num) (by norm_num) (by norm_num) (by norm_num) (by norm_num) (by norm_num) flat
  (by norm_num) (by norm_num) (Or.inr steep) 20 1.75 4.3 1.5 1.07 nan false (by norm_num) (by norm_num) (by norm_num)
  (by norm_num) (by norm_num) (by norm_num) (by norm_num) (by norm_num)
example := C82_composite_eurotop2018_berm_partial (lam := 1 / 20) (by norm_num) 2 6 3 4 1 1 (by norm_num) (by norm_num)
  (by norm_num) (by norm_num) (by norm_num) (by norm_num) (by norm_num) (by norm_num) (by norm_num) (by norm_num) flat
  (by norm_num) (by norm_num) (Or.inl rfl) 20 1.75 4.3 1.5 1.07 5 nan false (by norm_num) (by norm_num) (by norm_num)
  (by norm_num) (by norm_num) (by norm_num) (by norm_num) (by norm_num) (by norm_num)
end
