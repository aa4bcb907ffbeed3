import Verif.Lemmas.Taw

/-! # TAW 2002 and EurOtop 2018 run-up (C45-C48, C58, C74) -/

open Classical
open PF CorePhysics
noncomputable section

namespace RunupTawProofs
open RunupTaw2002

/-! ## C45 influence factors -/

/-- the berm reduction `1 - rB (1 - rdh)` before clipping, as a real number -/
theorem berm_eval {H L : ℝ} (hH : 0 < H) (hL : L ≠ 0) (z db B : ℝ) : ∃ d : ℝ, 0 ≤ d ∧ d ≤ 1 ∧
    (db = 0 → 0 ≤ z → d = 0) ∧ (2 * H < db ∨ db < -z → d = 1) ∧
    ∀ B' : ℝ, ∀ L' : ℝ, L' ≠ 0 →
      calculate_influence_berm_gamma_b (fin H) (fin z) (fin db) (fin B') (fin L') =
        fin (((1 - B' / L' * (1 - d)) ⊓ 1) ⊔ 0.6) := by
  have key : ∃ d : ℝ, 0 ≤ d ∧ d ≤ 1 ∧ (db = 0 → 0 ≤ z → d = 0) ∧ (2 * H < db ∨ db < -z → d = 1) ∧
      whr (fin db > 2 * fin H ∨ fin db < -fin z) 1.0
        (0.5 - 0.5 * PF.cos (PF.pi * fin db / whr (fin db < 0) (fin z) (2 * fin H))) = fin d := by
    have e1 : (1.0 : PF) = fin 1 := by rw [sci_eq]; norm_num
    rw [zero_eq, ofNat_eq, mul_fin, neg_fin, gt_fin, lt_fin, lt_fin, pi_eq, mul_fin, whr_fin, e1]
    by_cases h : 2 * H < db ∨ db < -z
    · exact ⟨1, by norm_num, le_rfl, fun h0 hz => by rcases h with h | h <;> linarith,
        fun _ => rfl, whr_true h _ _⟩
    · rw [whr_false h]
      push Not at h
      have hx : (if db < 0 then z else 2 * H) ≠ 0 := by
        split_ifs with h0
        · intro hz; linarith [h.2]
        · positivity
      rw [div_fin hx, cos_fin, sci_eq, mul_fin, sub_fin]
      have hc := Real.cos_le_one (Real.pi * db / if db < 0 then z else 2 * H)
      have hc2 := Real.neg_one_le_cos (Real.pi * db / if db < 0 then z else 2 * H)
      refine ⟨_, ?_, ?_, ?_, ?_, rfl⟩
      · norm_num; linarith
      · norm_num; linarith
      · rintro rfl _; simp
      · rintro (h2 | h2) <;> linarith [h.1, h.2]
  obtain ⟨d, h0, h1, h2, h3, h4⟩ := key
  refine ⟨d, h0, h1, h2, h3, fun B' L' hL' => ?_⟩
  unfold calculate_influence_berm_gamma_b
  dsimp only
  have e1 : (1.0 : PF) = fin 1 := by rw [sci_eq]; norm_num
  rw [h4, e1, div_fin hL', sub_fin, mul_fin, sub_fin, min_fin, sci_eq, max_fin]

/-- For every wave height, run-up, berm level, width and (nonzero) berm length the berm factor is a
number between 0.6 and 1. -/
theorem C45_berm_range (H z db B L : ℝ) (hH : 0 < H) (hL : L ≠ 0) : ∃ r : ℝ, 0.6 ≤ r ∧ r ≤ 1 ∧
    calculate_influence_berm_gamma_b (fin H) (fin z) (fin db) (fin B) (fin L) = fin r := by
  obtain ⟨d, -, -, -, -, h⟩ := berm_eval hH hL z db B
  exact ⟨_, le_sup_right, sup_le inf_le_right (by norm_num), h B L hL⟩

example : ∃ r : ℝ, 0.6 ≤ r ∧ r ≤ 1 ∧
    calculate_influence_berm_gamma_b (fin 2) (fin 3) (fin 0.5) (fin 4) (fin 20) = fin r :=
  C45_berm_range _ _ _ _ _ (by norm_num) (by norm_num)

/-- Whatever the arguments, infinities and NaN included, the berm factor is never a number outside
[0.6, 1]. -/
theorem C45_berm_never_outside (H z db B L : PF) (r : ℝ)
    (h : calculate_influence_berm_gamma_b H z db B L = fin r) : 0.6 ≤ r ∧ r ≤ 1 := by
  rcases berm_cases H z db B L with h2 | ⟨x, h2, h3⟩
  · rw [h] at h2; cases h2
  · rw [h] at h2; cases h2; exact h3

/-- A wider berm (in proportion to the berm length) never gives a larger factor; a berm at still
water reduces at least as much as one at any other level; a berm outside the zone from `-z2p` to
`2 Hm0` has no influence. -/
theorem C45_berm_influence (H z db B B' L : ℝ) (hH : 0 < H) (hz : 0 ≤ z) (hL : 0 < L) (hB : 0 ≤ B)
    (hBB : B ≤ B') : ∃ r r' r0 : ℝ,
    calculate_influence_berm_gamma_b (fin H) (fin z) (fin db) (fin B) (fin L) = fin r ∧
    calculate_influence_berm_gamma_b (fin H) (fin z) (fin db) (fin B') (fin L) = fin r' ∧
    calculate_influence_berm_gamma_b (fin H) (fin z) (fin 0) (fin B) (fin L) = fin r0 ∧
    r' ≤ r ∧ r0 ≤ r ∧ r0 = Max.max (1 - B / L) 0.6 ∧ (2 * H < db ∨ db < -z → r = 1) := by
  obtain ⟨d, hd0, hd1, -, h1, h⟩ := berm_eval hH hL.ne' z db B
  obtain ⟨d0, hd00, -, h20, -, h0⟩ := berm_eval hH hL.ne' z 0 B
  obtain rfl := h20 rfl hz
  have hq : 0 ≤ B / L := div_nonneg hB hL.le
  refine ⟨_, _, _, h B L hL.ne', h B' L hL.ne', h0 B L hL.ne', ?_, ?_, ?_, ?_⟩
  · refine sup_le_sup_right (inf_le_inf_right _ ?_) _
    have := mul_le_mul_of_nonneg_right (div_le_div_of_nonneg_right hBB hL.le) (by linarith : 0 ≤ 1 - d)
    linarith
  · refine sup_le_sup_right (inf_le_inf_right _ ?_) _
    have := mul_le_mul_of_nonneg_left (by linarith : 1 - d ≤ 1 - 0) hq
    linarith
  · rw [inf_eq_left.mpr (by linarith), sub_zero, mul_one]
  · intro h3
    rw [h1 h3]
    norm_num

example : ∃ r r' r0 : ℝ,
    calculate_influence_berm_gamma_b (fin 2) (fin 3) (fin (-1)) (fin 4) (fin 20) = fin r ∧
    calculate_influence_berm_gamma_b (fin 2) (fin 3) (fin (-1)) (fin 6) (fin 20) = fin r' ∧
    calculate_influence_berm_gamma_b (fin 2) (fin 3) (fin 0) (fin 4) (fin 20) = fin r0 ∧
    r' ≤ r ∧ r0 ≤ r ∧ r0 = Max.max (1 - 4 / 20) 0.6 ∧ ((2 : ℝ) * 2 < -1 ∨ (-1 : ℝ) < -3 → r = 1) :=
  C45_berm_influence 2 3 (-1) 4 6 20 (by norm_num) (by norm_num) (by norm_num) (by norm_num)
    (by norm_num)

/-- The obliqueness factor: symmetric in the angle, non-increasing in its size, constant from 80
degrees, 1 for perpendicular waves; it stays above 1 - 80 c.  For every non-negative coefficient, in
particular the published ones. -/
theorem C45_oblique (c b b' : ℝ) (hc : 0 ≤ c) (hb : |b| ≤ |b'|) : ∃ r r' : ℝ,
    calculate_influence_oblique_waves_gamma_beta (fin b) (fin c) = fin r ∧
    calculate_influence_oblique_waves_gamma_beta (fin (-b)) (fin c) = fin r ∧
    calculate_influence_oblique_waves_gamma_beta (fin b') (fin c) = fin r' ∧
    r' ≤ r ∧ 1 - 80 * c ≤ r ∧ r ≤ 1 ∧ (80 ≤ |b| → r = 1 - 80 * c) ∧ (b = 0 → r = 1) := by
  refine ⟨obl c b, obl c b', obl_eval _ _, ?_, obl_eval _ _, ?_, ?_, ?_, ?_, ?_⟩
  · rw [obl_eval]; unfold obl; rw [abs_neg]
  · have := mul_le_mul_of_nonneg_left (inf_le_inf_right 80 hb) hc
    unfold obl; linarith
  · have := mul_le_mul_of_nonneg_left (inf_le_right : |b| ⊓ 80 ≤ 80) hc
    unfold obl; linarith
  · have : 0 ≤ |b| ⊓ 80 := le_inf (abs_nonneg b) (by norm_num)
    have := mul_nonneg hc this
    unfold obl; linarith
  · intro h; unfold obl; rw [inf_eq_right.mpr h]; ring
  · rintro rfl; unfold obl; simp

/-- the published coefficients: run-up 0.0022 (at least 0.824 left); EurOtop 2018 run-up the same for
smooth slopes and 0.0063 for rough ones (roughness factor up to 0.6). -/
theorem C45_oblique_published (b gf : ℝ) : ∃ r s : ℝ,
    calculate_influence_oblique_waves_gamma_beta (fin b) = fin r ∧ 0.824 ≤ r ∧ r ≤ 1 ∧
    RunupEurOtop2018.calculate_influence_oblique_waves_gamma_beta (fin b) (fin gf) = fin s ∧
    0.496 ≤ s ∧ s ≤ 1 ∧ (0.6 < gf → s = r) ∧ (gf ≤ 0.6 → s ≤ r) := by
  obtain ⟨r, -, h1, -, -, -, h2, h3, -⟩ := C45_oblique 0.0022 b b (by norm_num) le_rfl
  obtain ⟨s, -, g1, -, -, -, g2, g3, -⟩ := C45_oblique 0.0063 b b (by norm_num) le_rfl
  unfold RunupEurOtop2018.calculate_influence_oblique_waves_gamma_beta
  dsimp only
  rw [sci_eq 6 true 1, gt_fin]
  by_cases h : gf > 0.6
  · rw [if_pos h]
    refine ⟨r, r, h1, by norm_num at h2; linarith, h3, h1, by norm_num at h2; linarith, h3,
      fun _ => rfl, fun h4 => absurd h (not_lt.mpr h4)⟩
  · rw [if_neg h]
    refine ⟨r, s, h1, by norm_num at h2; linarith, h3, g1, by norm_num at g2; linarith, g3,
      fun h4 => absurd h4 h, fun _ => ?_⟩
    rw [obl_eval] at h1 g1
    cases h1; cases g1
    unfold obl
    have : 0 ≤ |b| ⊓ 80 := le_inf (abs_nonneg b) (by norm_num)
    linarith

example : ∃ r r' : ℝ,
    calculate_influence_oblique_waves_gamma_beta (fin 30) (fin 0.0033) = fin r ∧
    calculate_influence_oblique_waves_gamma_beta (fin (-30)) (fin 0.0033) = fin r ∧
    calculate_influence_oblique_waves_gamma_beta (fin (-95)) (fin 0.0033) = fin r' ∧
    r' ≤ r ∧ 1 - 80 * 0.0033 ≤ r ∧ r ≤ 1 ∧ ((80:ℝ) ≤ |30| → r = 1 - 80 * 0.0033) ∧
    ((30 : ℝ) = 0 → r = 1) :=
  C45_oblique 0.0033 30 (-95) (by norm_num) (by norm_num [abs_of_nonneg, abs_neg])

/-! ## C58 adjusted roughness factor -/

/-- Between the roughness factor and 1, and non-decreasing in the Iribarren number, as long as the
Iribarren number (not only its product with the berm factor) is at most 10.  Missing from the claim:
larger Iribarren numbers, see the two refutations. -/
theorem C58_between_partial (gf gb x y : ℝ) (hf0 : 0 < gf) (hf1 : gf ≤ 1) (hb0 : 0 < gb)
    (hb1 : gb ≤ 1) (hx : 0 < x) (hxy : x ≤ y) (hy : y ≤ 10) : ∃ r s : ℝ,
    calculate_adjusted_influence_roughness_gamma_f (fin gf) (fin gb) (fin x) = fin r ∧
    calculate_adjusted_influence_roughness_gamma_f (fin gf) (fin gb) (fin y) = fin s ∧
    gf ≤ r ∧ r ≤ s ∧ s ≤ 1 := by
  have low : ∀ v : ℝ, 0 < v → v ≤ 10 → gf ≤ rough gf gb v ∧ rough gf gb v ≤ 1 := by
    intro v hv hv10
    unfold rough
    split_ifs with h
    · have h18 : (1.8 : ℝ) ≤ v := by nlinarith [h.1]
      have e : 0 ≤ (v - 1.8) * (1 - gf) := mul_nonneg (by linarith) (by linarith)
      constructor
      · have : 0 ≤ (v - 1.8) * (1 - gf) / 8.2 := div_nonneg e (by norm_num)
        linarith
      · have : (v - 1.8) * (1 - gf) / 8.2 ≤ 1 - gf := by
          rw [div_le_iff₀ (by norm_num)]
          nlinarith
        linarith
    · exact ⟨le_rfl, hf1⟩
  refine ⟨_, _, rough_eval _ _ _, rough_eval _ _ _, (low x hx (hxy.trans hy)).1, ?_,
    (low y (hx.trans_le hxy) hy).2⟩
  by_cases h : gb * x ≥ 1.8 ∧ gb * x ≤ 10
  · have h2 : gb * y ≥ 1.8 ∧ gb * y ≤ 10 :=
      ⟨h.1.trans (mul_le_mul_of_nonneg_left hxy hb0.le), by nlinarith⟩
    unfold rough
    rw [if_pos h, if_pos h2]
    have := div_le_div_of_nonneg_right (mul_le_mul_of_nonneg_right
      (by linarith : x - 1.8 ≤ y - 1.8) (by linarith : (0:ℝ) ≤ 1 - gf)) (by norm_num : (0:ℝ) ≤ 8.2)
    linarith
  · have : rough gf gb x = gf := by unfold rough; rw [if_neg h]
    rw [this]
    exact (low y (hx.trans_le hxy) hy).1

example : ∃ r s : ℝ,
    calculate_adjusted_influence_roughness_gamma_f (fin 0.5) (fin 0.8) (fin 1.5) = fin r ∧
    calculate_adjusted_influence_roughness_gamma_f (fin 0.5) (fin 0.8) (fin 4) = fin s ∧
    0.5 ≤ r ∧ r ≤ s ∧ s ≤ 1 :=
  C58_between_partial 0.5 0.8 1.5 4 (by norm_num) (by norm_num) (by norm_num) (by norm_num)
    (by norm_num) (by norm_num) (by norm_num)

/-- A rough slope with a berm can be made smoother than smooth: the adjusted factor exceeds 1 as soon
as the Iribarren number exceeds 10 while its product with the berm factor does not. -/
theorem C58_exceeds_one_refuted (gf gb x : ℝ) (hf : gf < 1) (hb : 0 < gb) (hx : 10 < x)
    (hbx : gb * x ≤ 10) (hbx2 : 1.8 ≤ gb * x) : ∃ r : ℝ, 1 < r ∧
    calculate_adjusted_influence_roughness_gamma_f (fin gf) (fin gb) (fin x) = fin r := by
  refine ⟨_, ?_, rough_eval _ _ _⟩
  unfold rough
  rw [if_pos ⟨hbx2, hbx⟩]
  have : 1 - gf < (x - 1.8) * (1 - gf) / 8.2 := by
    rw [lt_div_iff₀ (by norm_num)]
    nlinarith
  linarith

example : ∃ r : ℝ, 1 < r ∧
    calculate_adjusted_influence_roughness_gamma_f (fin 0.5) (fin 0.6) (fin 15) = fin r :=
  C58_exceeds_one_refuted _ _ _ (by norm_num) (by norm_num) (by norm_num) (by norm_num)
    (by norm_num)

/-- Without a berm the factor rises to 1 at Iribarren number 10 and falls back to the roughness
factor just above it. -/
theorem C58_drops_refuted (gf x : ℝ) (hf : gf < 1) (hx : 10 < x) : ∃ r : ℝ, r < 1 ∧
    calculate_adjusted_influence_roughness_gamma_f (fin gf) (fin 1) (fin 10) = fin 1 ∧
    calculate_adjusted_influence_roughness_gamma_f (fin gf) (fin 1) (fin x) = fin r := by
  refine ⟨gf, hf, ?_, ?_⟩
  · rw [rough_eval]; unfold rough
    rw [if_pos (by norm_num)]
    norm_num
  · rw [rough_eval]; unfold rough
    rw [if_neg (by rintro ⟨-, h⟩; linarith)]

example := RunupTawProofs.C58_drops_refuted (gf := 0.5) (x := 11) (by norm_num) (by norm_num)

/-! ## C46 the run-up formulas and the flag -/

/-- the wave-run-up call on a single slope with all factors given -/
def single (H T c gf gb gB : ℝ) (bf : Bool) : PyM (PF × Bool) :=
  calculate_wave_runup_height_z2p { Hm0 := fin H, Tmm10 := fin T, cot_alpha := fin c,
                                    gamma_f := fin gf, gamma_b := fin gb, gamma_beta := fin gB, use_best_fit := bf }

/-- coefficient sets: design values, best fit -/
def k1 (bf : Bool) : ℝ := if bf then 1.65 else 1.75
def k2 (bf : Bool) : ℝ := if bf then 4.0 else 4.3
def k3 (bf : Bool) : ℝ := if bf then 1.5 else 1.6

theorem single_eval {H T c gf gb gB : ℝ} (bf : Bool) (hH : 0 < H) (hT : 0 < T) (hc : 0 < c) :
    (single H T c gf gb gB bf).res = .ok
      (fin ((ra (k1 bf) gf gb gB (VdMProof.xi H T c) ⊓ rb (k2 bf) (k3 bf) 1.0 gf gb gB (VdMProof.xi H T c)) * H),
       decide (rb (k2 bf) (k3 bf) 1.0 gf gb gB (VdMProof.xi H T c) ≤ ra (k1 bf) gf gb gB (VdMProof.xi H T c))) := by
  unfold single calculate_wave_runup_height_z2p height_of
  rw [PyM.bind_res_of_ok (single_res (c1 := k1 bf) (c2 := k2 bf) (c3 := k3 bf) (c4 := 1.0)
    (gf := gf) (gb := gb) (gB := gB) hH hT hc rfl rfl rfl
    (Or.inl rfl) rfl rfl rfl (by cases bf <;> rfl) (by cases bf <;> rfl) (by cases bf <;> rfl)
    (by cases bf <;> rfl))]
  rfl

/-- Run-up is wave height times the smaller of the two formulas, with the coefficients of the chosen
set, and the flag is true exactly when the second governs.  `x` is the Iribarren number and `r` the
adjusted roughness factor. -/
theorem C46_smaller_of_two (H T c gf gb gB : ℝ) (bf : Bool) (hH : 0 < H) (hT : 0 < T) (hc : 0 < c) :
    ∃ x r z : ℝ, ∃ flag : Bool,
    calculate_Iribarren_number_ksi (fin H) (fin T) (fin c) = fin x ∧ 0 < x ∧
    calculate_adjusted_influence_roughness_gamma_f (fin gf) (fin gb) (fin x) = fin r ∧
    (calculate_wave_runup_height_z2p { Hm0 := fin H, Tmm10 := fin T, cot_alpha := fin c,
                                       gamma_f := fin gf, gamma_b := fin gb, gamma_beta := fin gB, use_best_fit := bf }).res
        = .ok (fin z, flag) ∧
    z = H * Min.min ((if bf then 1.65 else 1.75) * gb * r * gB * x)
      (r * gB * ((if bf then 4.0 else 4.3) - (if bf then 1.5 else 1.6) / √x)) ∧
    (flag = true ↔ r * gB * ((if bf then 4.0 else 4.3) - (if bf then 1.5 else 1.6) / √x) ≤
      (if bf then 1.65 else 1.75) * gb * r * gB * x) := by
  refine ⟨VdMProof.xi H T c, rough gf gb (VdMProof.xi H T c), _, _, VdMProof.xi_eval hH hT hc,
    VdMProof.xi_pos hH hT hc, rough_eval _ _ _, single_eval bf hH hT hc, ?_, ?_⟩
  · unfold ra rb k1 k2 k3
    rw [VdMProof.one_sci, one_mul, mul_comm]
  · unfold ra rb k1 k2 k3
    rw [VdMProof.one_sci, one_mul, decide_eq_true_iff]

example : ∃ x r z : ℝ, ∃ flag : Bool,
    calculate_Iribarren_number_ksi (fin 2) (fin 6) (fin 3) = fin x ∧ 0 < x ∧
    calculate_adjusted_influence_roughness_gamma_f (fin 0.7) (fin 0.8) (fin x) = fin r ∧
    (calculate_wave_runup_height_z2p { Hm0 := fin 2, Tmm10 := fin 6, cot_alpha := fin 3,
                                       gamma_f := fin 0.7, gamma_b := fin 0.8, gamma_beta := fin 0.9, use_best_fit := true }).res
        = .ok (fin z, flag) ∧
    z = 2 * Min.min (1.65 * 0.8 * r * 0.9 * x) (r * 0.9 * (4.0 - 1.5 / √x)) ∧
    (flag = true ↔ r * 0.9 * (4.0 - 1.5 / √x) ≤ 1.65 * 0.8 * r * 0.9 * x) := by
  simpa using C46_smaller_of_two 2 6 3 0.7 0.8 0.9 true (by norm_num) (by norm_num) (by norm_num)

theorem rough_smooth (gb x : ℝ) : rough 1 gb x = 1 := by
  unfold rough; split_ifs <;> norm_num

/-- On a smooth slope longer waves run up higher, steeper slopes too, and once the maximum governs it
keeps governing (from the smallest Iribarren number in the published range on). -/
theorem C46_longer_waves (H T T' c c' gb gB : ℝ) (bf : Bool) (hH : 0 < H) (hT : 0 < T) (hT' : T ≤ T')
    (hc' : 0 < c') (hc : c' ≤ c) (hne : T < T' ∨ c' < c) (hb : 0 < gb) (hB : 0 < gB) (x : ℝ)
    (hxi : calculate_Iribarren_number_ksi (fin H) (fin T) (fin c) = fin x) :
    ∃ z z' : ℝ, ∃ f f' : Bool,
    (calculate_wave_runup_height_z2p { Hm0 := fin H, Tmm10 := fin T, cot_alpha := fin c,
                                       gamma_b := fin gb, gamma_beta := fin gB, use_best_fit := bf }).res = .ok (fin z, f) ∧
    (calculate_wave_runup_height_z2p { Hm0 := fin H, Tmm10 := fin T', cot_alpha := fin c',
                                       gamma_b := fin gb, gamma_beta := fin gB, use_best_fit := bf }).res = .ok (fin z', f') ∧
    z < z' ∧ (0.4 ≤ x → f = true → f' = true) := by
  have e1 : (1.0 : PF) = fin 1 := by rw [sci_eq]; norm_num
  have hcc : 0 < c := hc'.trans_le hc
  have hTT : 0 < T' := hT.trans_le hT'
  have x0 := VdMProof.xi_pos hH hT hcc
  have x0' := VdMProof.xi_pos hH hTT hc'
  have hx : VdMProof.xi H T c < VdMProof.xi H T' c' := by
    unfold VdMProof.xi
    have hp := Real.pi_pos
    have p1 : 0 < √(2 * Real.pi / 9.81 * H / T ^ 2) := by positivity
    have p2 : 0 < √(2 * Real.pi / 9.81 * H / T' ^ 2) := by positivity
    have hs : √(2 * Real.pi / 9.81 * H / T' ^ 2) ≤ √(2 * Real.pi / 9.81 * H / T ^ 2) :=
      Real.sqrt_le_sqrt (div_le_div_of_nonneg_left (by positivity) (by positivity) (by gcongr))
    rw [div_lt_div_iff₀ p1 p2, VdMProof.one_sci]
    rcases hne with h | h
    · have hs' : √(2 * Real.pi / 9.81 * H / T' ^ 2) < √(2 * Real.pi / 9.81 * H / T ^ 2) :=
        Real.sqrt_lt_sqrt (by positivity)
          (div_lt_div_of_pos_left (by positivity) (by positivity) (by gcongr))
      have := one_div_le_one_div_of_le hc' hc
      calc 1 / c * √(2 * Real.pi / 9.81 * H / T' ^ 2)
          < 1 / c * √(2 * Real.pi / 9.81 * H / T ^ 2) := mul_lt_mul_of_pos_left hs' (by positivity)
        _ ≤ _ := mul_le_mul_of_nonneg_right this p1.le
    · have := one_div_lt_one_div_of_lt hc' h
      calc 1 / c * √(2 * Real.pi / 9.81 * H / T' ^ 2)
          ≤ 1 / c * √(2 * Real.pi / 9.81 * H / T ^ 2) := mul_le_mul_of_nonneg_left hs (by positivity)
        _ < _ := mul_lt_mul_of_pos_right this p1
  have hsq : √(VdMProof.xi H T c) < √(VdMProof.xi H T' c') := Real.sqrt_lt_sqrt x0.le hx
  have s0 : 0 < √(VdMProof.xi H T c) := Real.sqrt_pos.mpr x0
  have hk1 : 0 < k1 bf := by cases bf <;> norm_num [k1]
  have hk3 : 0 < k3 bf := by cases bf <;> norm_num [k3]
  have ea := single_eval (gf := 1) (gb := gb) (gB := gB) bf hH hT hcc
  have ea' := single_eval (gf := 1) (gb := gb) (gB := gB) bf hH hTT hc'
  unfold single at ea ea'
  rw [← e1] at ea ea'
  have hd : k3 bf / √(VdMProof.xi H T' c') < k3 bf / √(VdMProof.xi H T c) :=
    div_lt_div_of_pos_left hk3 s0 hsq
  have la : ra (k1 bf) 1 gb gB (VdMProof.xi H T c) < ra (k1 bf) 1 gb gB (VdMProof.xi H T' c') := by
    unfold ra; rw [rough_smooth, rough_smooth]
    exact mul_lt_mul_of_pos_left hx (by positivity)
  have lb : rb (k2 bf) (k3 bf) 1.0 1 gb gB (VdMProof.xi H T c) <
      rb (k2 bf) (k3 bf) 1.0 1 gb gB (VdMProof.xi H T' c') := by
    unfold rb; rw [rough_smooth, rough_smooth, VdMProof.one_sci]
    exact mul_lt_mul_of_pos_left (by linarith) (by positivity)
  refine ⟨_, _, _, _, ea, ea', mul_lt_mul_of_pos_right (min_lt_min la lb) hH, ?_⟩
  rw [decide_eq_true_iff, decide_eq_true_iff]
  rw [VdMProof.xi_eval hH hT hcc] at hxi
  cases hxi
  unfold ra rb
  simp only [rough_smooth, VdMProof.one_sci, one_mul, mul_one]
  intro h4 hf
  rw [show √(VdMProof.xi H T c) = √(VdMProof.xi H T c) from rfl] at hf
  generalize hs' : √(VdMProof.xi H T' c') = s' at hsq ⊢
  generalize hs : √(VdMProof.xi H T c) = s at hsq hf s0
  have e : VdMProof.xi H T c = s ^ 2 := by rw [← hs, Real.sq_sqrt x0.le]
  have e' : VdMProof.xi H T' c' = s' ^ 2 := by rw [← hs', Real.sq_sqrt x0'.le]
  rw [e] at hf h4
  rw [e']
  have s4 : 0.63 ≤ s := by
    by_contra hlt
    push Not at hlt
    nlinarith
  have hf2 : k2 bf * s - k3 bf ≤ k1 bf * gb * s ^ 3 := by
    have h1 : gB * (k2 bf - k3 bf / s) * s ≤ k1 bf * gb * gB * s ^ 2 * s :=
      mul_le_mul_of_nonneg_right hf s0.le
    have h2 : gB * (k2 bf - k3 bf / s) * s = gB * (k2 bf * s - k3 bf) := by field_simp
    have h3 : k1 bf * gb * gB * s ^ 2 * s = gB * (k1 bf * gb * s ^ 3) := by ring
    rw [h2, h3] at h1
    exact le_of_mul_le_mul_left h1 hB
  have hk : k2 bf ≤ 3 * (k1 bf * gb * s ^ 2) := by
    have h1 : k2 bf * s ≤ 3 * (k2 bf * s - k3 bf) := by
      cases bf
      · simp only [k2, k3, Bool.false_eq_true, if_false]; linarith
      · simp only [k2, k3, if_true]; linarith
    have h2 : k2 bf * s ≤ (3 * (k1 bf * gb * s ^ 2)) * s := by
      calc _ ≤ _ := h1
        _ ≤ 3 * (k1 bf * gb * s ^ 3) := by linarith
        _ = _ := by ring
    exact le_of_mul_le_mul_right h2 s0
  have hA : 0 < k1 bf * gb := by positivity
  have s0' : 0 < s' := s0.trans hsq
  have main : k2 bf * s' - k3 bf ≤ k1 bf * gb * s' ^ 3 := by
    have h1 : 0 ≤ (s' - s) * (k1 bf * gb * (s' ^ 2 + s' * s + s ^ 2) - k2 bf) := by
      refine mul_nonneg (by linarith) ?_
      have : k1 bf * gb * (3 * s ^ 2) ≤ k1 bf * gb * (s' ^ 2 + s' * s + s ^ 2) :=
        mul_le_mul_of_nonneg_left (by nlinarith) hA.le
      linarith
    nlinarith
  have h2 : gB * (k2 bf - k3 bf / s') * s' = gB * (k2 bf * s' - k3 bf) := by field_simp
  have h3 : k1 bf * gb * gB * s' ^ 2 * s' = gB * (k1 bf * gb * s' ^ 3) := by ring
  refine le_of_mul_le_mul_right ?_ s0'
  rw [h2, h3]
  exact mul_le_mul_of_nonneg_left main hB.le

example : ∃ z z' : ℝ, ∃ f f' : Bool,
    (calculate_wave_runup_height_z2p { Hm0 := fin 2, Tmm10 := fin 6, cot_alpha := fin 3,
                                       gamma_b := fin 0.8, gamma_beta := fin 0.9,
                                       use_best_fit := false }).res = .ok (fin z, f) ∧
    (calculate_wave_runup_height_z2p { Hm0 := fin 2, Tmm10 := fin 8, cot_alpha := fin 2,
                                       gamma_b := fin 0.8, gamma_beta := fin 0.9,
                                       use_best_fit := false }).res = .ok (fin z', f') ∧
    z < z' ∧ (0.4 ≤ VdMProof.xi 2 6 3 → f = true → f' = true) :=
  C46_longer_waves 2 6 8 3 2 0.8 0.9 false (by norm_num) (by norm_num) (by norm_num) (by norm_num)
    (by norm_num) (by norm_num) (by norm_num) (by norm_num) _
    (VdMProof.xi_eval (by norm_num) (by norm_num) (by norm_num))

/-- the best-fit flag makes the coefficients passed along irrelevant -/
theorem bf_runup {a b : Args} (ha : a.use_best_fit = true)
    (hb : b = { a with c1 := 1.65, c2 := 4.0, c3 := 1.5, c4 := 1.0 }) :
    calculate_wave_runup_height_z2p a = calculate_wave_runup_height_z2p b := by
  subst hb
  unfold calculate_wave_runup_height_z2p height_of
  rw [runup_unfold, runup_unfold]
  unfold diml_rec slope_rec berm_rec
  simp only [ha, if_true]

theorem bf_z2p (H T cd cu B db gf gB c1 c2 c3 c4 tol : PF) (m : ℤ) :
    iteration_procedure_z2p_rec calculate_wave_runup_height_z2p H T cd cu B db gf gB c1 c2 c3 c4 true
      tol m = iteration_procedure_z2p_rec calculate_wave_runup_height_z2p H T cd cu B db gf gB
        1.65 4.0 1.5 1.0 true tol m := by
  unfold iteration_procedure_z2p_rec
  have := fun x y => bf_runup (a := { Hm0 := H, Tmm10 := T, cot_alpha := x, gamma_b := y,
                                      gamma_f := gf, gamma_beta := gB, c1 := c1, c2 := c2, c3 := c3,
                                      c4 := c4, use_best_fit := true }) rfl rfl
  simp only [this]

theorem bf_gamma_b (H T ca B L db gB c1 c2 c3 c4 gf : PF) :
    iteration_procedure_gamma_b_rec calculate_wave_runup_height_z2p H T ca B L db gB c1 c2 c3 c4 true
      gf = iteration_procedure_gamma_b_rec calculate_wave_runup_height_z2p H T ca B L db gB
        1.65 4.0 1.5 1.0 true gf := by
  unfold iteration_procedure_gamma_b_rec
  have := fun y => bf_runup (a := { Hm0 := H, Tmm10 := T, cot_alpha := ca, gamma_b := y,
                                    gamma_f := gf, gamma_beta := gB, c1 := c1, c2 := c2, c3 := c3,
                                    c4 := c4, use_best_fit := true }) rfl rfl
  simp only [this]

/-- A composite slope is replaced by an equivalent single one: whenever the call returns, it returns
what the single-slope call with the average slope at some run-up level `z` (the outcome of
`iteration_procedure_z2p`) and the berm factor of `iteration_procedure_gamma_b` returns. -/
theorem C46_composite_equivalent (H T gB gf B db cd cu : PF) (bf : Bool) (v : PF × Bool)
    (hB : ¬ gB.isnan) (hcd : ¬ cd.isnan) (hcu : ¬ cu.isnan)
    (h : (calculate_wave_runup_height_z2p { Hm0 := H, Tmm10 := T, gamma_beta := gB, gamma_f := gf,
                                            B_berm := B, db := db, cot_alpha_down := cd,
                                            cot_alpha_up := cu, use_best_fit := bf }).res = .ok v) :
    ∃ z gb : PF, (iteration_procedure_z2p H T cd cu B db gf gB (use_best_fit := bf)).res = .ok z ∧
      (iteration_procedure_gamma_b H T (determine_average_slope H z cd cu B db) B
        (1.0 * H * cd + B + 1.0 * H * cu) db gB (use_best_fit := bf) (gamma_f := gf)).res = .ok gb ∧
      (¬ (determine_average_slope H z cd cu B db).isnan → ¬ gb.isnan →
        (calculate_wave_runup_height_z2p { Hm0 := H, Tmm10 := T, gamma_beta := gB, gamma_f := gf,
                                           gamma_b := gb, use_best_fit := bf,
                                           cot_alpha := determine_average_slope H z cd cu B db }).res
          = .ok v) := by
  unfold calculate_wave_runup_height_z2p height_of at h
  obtain ⟨w, hw, hv, -⟩ := PyM.bind_inv h
  rw [runup_unfold] at hw
  unfold diml_rec at hw
  have hcb : check_calculate_gamma_beta nan gB = pure false := by
    unfold check_calculate_gamma_beta; simp [hB]
  have hcs : check_composite_slope nan cd cu = pure true := by
    unfold check_composite_slope; simp [hcd, hcu]
  dsimp only at hw
  rw [hcb, pure_bind] at hw
  obtain ⟨ca, h1, hw, -⟩ := PyM.bind_inv hw
  obtain ⟨gb, h2, hw, -⟩ := PyM.bind_inv hw
  rw [validity_bind_res] at hw
  unfold slope_rec at h1
  rw [hcs, pure_bind, if_pos rfl] at h1
  obtain ⟨z, h3, h1, -⟩ := PyM.bind_inv h1
  obtain rfl : determine_average_slope H z cd cu B db = ca := by simpa using h1
  have hL : calculate_berm_length H B (cot_alpha_down := cd) (cot_alpha_up := cu) =
      pure (1.0 * H * cd + B + 1.0 * H * cu) := by
    unfold calculate_berm_length check_composite_slope
    simp [hcd, hcu]
  unfold berm_rec at h2
  dsimp only at h2
  rw [if_pos (isnan_nan.mpr trivial), hL, pure_bind] at h2
  refine ⟨z, gb, ?_, ?_, ?_⟩
  · unfold iteration_procedure_z2p
    cases bf
    · exact h3
    · rw [← h3]
      exact congrArg PyM.res (bf_z2p ..)
  · unfold iteration_procedure_gamma_b
    cases bf
    · exact h2
    · rw [← h2]
      exact congrArg PyM.res (bf_gamma_b ..)
  · intro hca hgb
    have hcs2 : check_composite_slope (determine_average_slope H z cd cu B db) nan nan =
        pure false := by
      unfold check_composite_slope; simp [hca]
    unfold calculate_wave_runup_height_z2p height_of
    refine (PyM.bind_res_of_ok (a := w) ?_ _).trans hv
    rw [runup_unfold]
    unfold diml_rec slope_rec berm_rec
    dsimp only
    rw [hcb, pure_bind, hcs2]
    simp only [pure_bind, Bool.false_eq_true, if_false, if_neg hgb]
    rw [validity_bind_res]
    exact hw

/-! ## C47 the iteration on a composite slope -/

/-- What the iteration returns, for every limit and tolerance: the last of a chain of levels starting
at `1.5 Hm0`, each the run-up for the average slope and berm factor belonging to the one before; at
most `max_iter + 1` passes are made, and if fewer, the last two levels do not differ by more than the
tolerance.  (The claim says at most `max_iter`, see `C47_one_too_many_refuted`.) -/
theorem C47_levels_partial (H T cd cu B db gf gB c1 c2 c3 c4 tol z : PF) (bf : Bool) (n : ℕ)
    (h : (iteration_procedure_z2p H T cd cu B db gf gB c1 c2 c3 c4 bf tol n).res = .ok z) :
    ∃ (k : ℕ) (t : ℕ → PF), k ≤ n + 1 ∧ t 0 = 1.5 * H ∧ t k = z ∧
      (∀ j < k, ∃ L f, (calculate_berm_length H B (cot_alpha_down := cd) (cot_alpha_up := cu)).res
          = .ok L ∧
        (calculate_wave_runup_height_z2p
          { Hm0 := H, Tmm10 := T, cot_alpha := determine_average_slope H (t j) cd cu B db,
            gamma_b := calculate_influence_berm_gamma_b H (t j) db B L, gamma_f := gf,
            gamma_beta := gB, c1 := c1, c2 := c2, c3 := c3, c4 := c4, use_best_fit := bf }).res =
          .ok (t (j + 1), f)) ∧
      (∀ j, 0 < j → j < k → PF.abs (t j - t (j - 1)) > tol) ∧
      (k < n + 1 → 0 < k → ¬ PF.abs (t k - t (k - 1)) > tol) := by
  unfold iteration_procedure_z2p iteration_procedure_z2p_rec at h
  dsimp only at h
  obtain ⟨s, hs, hz, -⟩ := PyM.bind_inv h
  obtain rfl : s.1 = z := by simpa using hz
  have hn : ((n : ℤ) + 1).toNat = n + 1 := by omega
  rw [hn] at hs
  obtain ⟨k, u, hk, h0, hkr, hj, hx⟩ := whileIterM_spec _ _ _ hs
  have step : ∀ j < k, (u (j + 1)).2 = (u j).1 ∧ ∃ L f,
      (calculate_berm_length H B (cot_alpha_down := cd) (cot_alpha_up := cu)).res = .ok L ∧
        (calculate_wave_runup_height_z2p
          { Hm0 := H, Tmm10 := T, cot_alpha := determine_average_slope H (u j).1 cd cu B db,
            gamma_b := calculate_influence_berm_gamma_b H (u j).1 db B L, gamma_f := gf,
            gamma_beta := gB, c1 := c1, c2 := c2, c3 := c3, c4 := c4, use_best_fit := bf }).res =
          .ok ((u (j + 1)).1, f) := by
    intro j hjk
    have hb := (hj j hjk).2
    obtain ⟨L, hL, hb, -⟩ := PyM.bind_inv hb
    obtain ⟨r, hr, hb, -⟩ := PyM.bind_inv hb
    have e : (r.1, (u j).1) = u (j + 1) := by simpa using hb
    rw [← e]
    exact ⟨rfl, L, r.2, hL, hr⟩
  refine ⟨k, fun j => (u j).1, hk, by simp [h0], by simp [hkr], fun j hjk => (step j hjk).2, ?_, ?_⟩
  · intro j hj0 hjk
    have hc := (hj j hjk).1
    obtain ⟨i, rfl⟩ : ∃ i, j = i + 1 := ⟨j - 1, by omega⟩
    rw [(step i (by omega)).1] at hc
    exact hc
  · intro hkn hk0
    rcases hx with hx | hx
    · omega
    · obtain ⟨i, rfl⟩ : ∃ i, k = i + 1 := ⟨k - 1, by omega⟩
      rw [← hkr, (step i (by omega)).1] at hx
      exact hx

/-- With `max_iter = 0` one pass is still made: the result is the run-up at the first estimate, not
the estimate itself. -/
theorem C47_one_too_many_refuted (H T cd cu B db gf gB : PF) (tol h : ℝ) (hH : H = fin h)
    (ht : 0 < tol) (hcd : ¬ cd.isnan) (hcu : ¬ cu.isnan) :
    (iteration_procedure_z2p H T cd cu B db gf gB (tolerance := fin tol) (max_iter := 0)).res =
      (calculate_wave_runup_height_z2p
        { Hm0 := H, Tmm10 := T, cot_alpha := determine_average_slope H (1.5 * H) cd cu B db,
          gamma_b := calculate_influence_berm_gamma_b H (1.5 * H) db B
            (1.0 * H * cd + B + 1.0 * H * cu),
          gamma_f := gf, gamma_beta := gB } >>= fun r => pure r.1).res := by
  subst hH
  unfold iteration_procedure_z2p iteration_procedure_z2p_rec
  dsimp only
  have hL : calculate_berm_length (fin h) B (cot_alpha_down := cd) (cot_alpha_up := cu) =
      pure (1.0 * fin h * cd + B + 1.0 * fin h * cu) := by
    unfold calculate_berm_length check_composite_slope
    simp [hcd, hcu]
  have hc : PF.abs (1.5 * fin h - (1.5 * fin h + 2 * fin tol)) > fin tol := by
    simp only [sci_eq, ofNat_eq, mul_fin, add_fin, sub_fin, abs_fin, gt_fin]
    rw [show (1.5 * h - (1.5 * h + 2 * tol) : ℝ) = -(2 * tol) by ring, abs_neg,
      abs_of_pos (by linarith)]
    linarith
  have hn : ((0 : ℤ) + 1).toNat = 1 := rfl
  rw [hn]
  unfold whileIterM
  rw [if_pos hc, hL]
  simp only [pure_bind, bind_assoc, whileIterM]

/-! ## C48 EurOtop 2018 run-up and a user-supplied obliqueness factor -/

/-- Supplying the factor instead of the angle raises ValueError. -/
theorem C48_factor_without_angle_refuted (H T gB gb gf B db c cd cu c1 c2 c3 c4 : PF) (bf : Bool) :
    (RunupEurOtop2018.calculate_wave_runup_height_z2p H T (gamma_beta := gB) (gamma_b := gb)
      (gamma_f := gf) (B_berm := B) (db := db) (cot_alpha := c) (cot_alpha_down := cd)
      (cot_alpha_up := cu) (c1 := c1) (c2 := c2) (c3 := c3) (c4 := c4) (use_best_fit := bf)).res
      = .error .valueError := by
  have hnan : ∀ a b, RunupTaw2002.calculate_influence_oblique_waves_gamma_beta nan a b = nan ∨
      ∃ x, RunupTaw2002.calculate_influence_oblique_waves_gamma_beta nan a b = 1 - a * x ∧
        x = nan := by
    intro a b
    right
    refine ⟨_, rfl, ?_⟩
    have e1 : whr (nan < 0) (PF.abs nan) nan = nan := by unfold whr; split <;> rfl
    rw [e1]
    exact whr_false (lt_nan _) _ _
  have hg : RunupEurOtop2018.calculate_influence_oblique_waves_gamma_beta nan gf = nan := by
    unfold RunupEurOtop2018.calculate_influence_oblique_waves_gamma_beta
    dsimp only
    rcases hnan (if gf > 0.6 then 0.0022 else 0.0063) 80.0 with h | ⟨x, h, rfl⟩
    · exact h
    · rw [h, mul_nan, sub_nan]
  unfold RunupEurOtop2018.calculate_wave_runup_height_z2p
    RunupEurOtop2018.calculate_dimensionless_wave_runup_height_z2p
  refine PyM.bind_res_of_error ?_ _
  dsimp only
  rw [hg, runup_unfold]
  unfold diml_rec check_calculate_gamma_beta
  simp

/-- With an angle, a factor supplied as well changes nothing. -/
theorem C48_factor_ignored_refuted (H T b gB gB' gb gf B db c cd cu c1 c2 c3 c4 : PF) (bf : Bool) :
    RunupEurOtop2018.calculate_wave_runup_height_z2p H T b gB gb gf B db c cd cu c1 c2 c3 c4 bf =
    RunupEurOtop2018.calculate_wave_runup_height_z2p H T b gB' gb gf B db c cd cu c1 c2 c3 c4 bf :=
  rfl

/-- What is true: the factor of the angle is used, as TAW 2002 would use it. -/
theorem C48_angle_partial (H T b gf gb c : ℝ) (hH : 0 < H) (hT : 0 < T) (hc : 0 < c) : ∃ r : ℝ,
    RunupEurOtop2018.calculate_influence_oblique_waves_gamma_beta (fin b) (fin gf) = fin r ∧
    (RunupEurOtop2018.calculate_wave_runup_height_z2p (fin H) (fin T) (beta := fin b)
      (gamma_f := fin gf) (gamma_b := fin gb) (cot_alpha := fin c)).res =
    (RunupTaw2002.calculate_wave_runup_height_z2p
      { Hm0 := fin H, Tmm10 := fin T, gamma_beta := fin r, gamma_f := fin gf, gamma_b := fin gb,
        cot_alpha := fin c, c3 := 1.5, c4 := 1.07 }).res := by
  obtain ⟨r, s, -, -, -, h, -⟩ := C45_oblique_published b gf
  refine ⟨s, h, ?_⟩
  unfold RunupEurOtop2018.calculate_wave_runup_height_z2p
    RunupEurOtop2018.calculate_dimensionless_wave_runup_height_z2p
  dsimp only
  rw [h]
  rfl

example := RunupTawProofs.C48_angle_partial (H := 2) (T := 8) (b := 20) (gf := 0.5) (gb := 1) (c := 2)
  (by norm_num) (by norm_num) (by norm_num)

/-! ## C74 a single slope without a berm -/

/-- TAW 2002 and EurOtop 2018 run-up on a single slope: unless a berm factor is given the call raises
ValueError, whatever the other arguments (also for the default "no berm"). -/
theorem C74_runup_needs_berm_factor_refuted (H T b gB gf B db c cu c1 c2 c3 c4 : PF) (bf : Bool) :
    (RunupTaw2002.calculate_wave_runup_height_z2p
      { Hm0 := H, Tmm10 := T, beta := b, gamma_beta := gB, gamma_f := gf, B_berm := B, db := db,
        cot_alpha := c, cot_alpha_up := cu, c1 := c1, c2 := c2, c3 := c3, c4 := c4,
        use_best_fit := bf }).res = .error .valueError ∧
    (RunupEurOtop2018.calculate_wave_runup_height_z2p H T (beta := b) (gamma_beta := gB)
      (gamma_f := gf) (B_berm := B) (db := db) (cot_alpha := c) (cot_alpha_up := cu) (c1 := c1)
      (c2 := c2) (c3 := c3) (c4 := c4) (use_best_fit := bf)).res = .error .valueError := by
  have key : ∀ a : Args, a.gamma_b = nan → a.cot_alpha_down = nan →
      (calculate_dimensionless_wave_runup_height_z2p a).res = .error .valueError := by
    intro a h1 h2
    rw [runup_unfold]
    unfold diml_rec
    dsimp only
    have hb : ∀ ca gb' c1 c2 c3 c4,
        berm_rec calculate_wave_runup_height_z2p a ca gb' c1 c2 c3 c4 =
        PyM.raise .valueError := by
      intro ca gb' c1 c2 c3 c4
      unfold berm_rec calculate_berm_length check_composite_slope
      simp [h1, h2]
    have hs : ∀ gb c1 c2 c3 c4,
        slope_rec calculate_wave_runup_height_z2p a gb c1 c2 c3 c4 = PyM.raise .valueError ∨
        slope_rec calculate_wave_runup_height_z2p a gb c1 c2 c3 c4 = pure a.cot_alpha := by
      intro gb c1 c2 c3 c4
      unfold slope_rec check_composite_slope
      by_cases hc : a.cot_alpha.isnan
      · left; simp [hc, h2]
      · right; simp [hc, h2]
    have hg : check_calculate_gamma_beta a.beta a.gamma_beta = PyM.raise .valueError ∨
        ∃ t, check_calculate_gamma_beta a.beta a.gamma_beta = pure t := by
      unfold check_calculate_gamma_beta
      split_ifs
      · exact Or.inl rfl
      · exact Or.inr ⟨_, rfl⟩
      · exact Or.inr ⟨_, rfl⟩
    rcases hg with hg | ⟨t, hg⟩
    · rw [hg]; rfl
    · rw [hg, pure_bind]
      rcases hs (if t = true then calculate_influence_oblique_waves_gamma_beta a.beta
        else a.gamma_beta) (if a.use_best_fit = true then 1.65 else a.c1)
        (if a.use_best_fit = true then 4.0 else a.c2) (if a.use_best_fit = true then 1.5 else a.c3)
        (if a.use_best_fit = true then 1.0 else a.c4) with h | h
      · rw [h]; rfl
      · rw [h, pure_bind]
        simp only [hb]
        rfl
  constructor
  · exact PyM.bind_res_of_error (key _ rfl rfl) _
  · exact PyM.bind_res_of_error (key _ rfl rfl) _

/-- With the berm factor 1 given the same call returns a number. -/
theorem C74_runup_with_berm_factor (H T gB gf c : ℝ) (hH : 0 < H) (hT : 0 < T) (hc : 0 < c) :
    ∃ (z : ℝ) (f : Bool), (RunupTaw2002.calculate_wave_runup_height_z2p
      { Hm0 := fin H, Tmm10 := fin T, gamma_beta := fin gB, gamma_f := fin gf, gamma_b := fin 1,
        cot_alpha := fin c }).res = .ok (fin z, f) := by
  obtain ⟨x, r, z, f, -, -, -, h, -⟩ := C46_smaller_of_two H T c gf 1 gB false hH hT hc
  exact ⟨z, f, h⟩

example := RunupTawProofs.C74_runup_with_berm_factor (H := 2) (T := 8) (gB := 0.9) (gf := 0.5) (c := 2)
  (by norm_num) (by norm_num) (by norm_num)

/-! ## C75 two equal slopes are one slope -/

/-- Run-up on a composite slope whose lower and upper parts are equally steep is the run-up on the
straight slope: with the berm factor given, whatever the berm, and without berm and without berm
factor as for the factor 1. -/
theorem C75_runup_equal_slopes (H T c gf gB gb B db x : ℝ) (bf : Bool) (hH : 0 < H) (hT : 0 < T)
    (hc : 0 < c) (hf : 0 < gf) (hf1 : gf ≤ 1) (hB : 0 < gB) (hB0 : 0 ≤ B)
    (hx : calculate_Iribarren_number_ksi (fin H) (fin T) (fin c) = fin x) (hx0 : 0.15 < x) :
    (calculate_wave_runup_height_z2p
      { Hm0 := fin H, Tmm10 := fin T, gamma_beta := fin gB, gamma_f := fin gf, gamma_b := fin gb,
        B_berm := fin B, db := fin db, cot_alpha_down := fin c, cot_alpha_up := fin c,
        use_best_fit := bf }).res =
    (calculate_wave_runup_height_z2p
      { Hm0 := fin H, Tmm10 := fin T, gamma_beta := fin gB, gamma_f := fin gf, gamma_b := fin gb,
        cot_alpha := fin c, use_best_fit := bf }).res ∧
    (calculate_wave_runup_height_z2p
      { Hm0 := fin H, Tmm10 := fin T, gamma_beta := fin gB, gamma_f := fin gf, db := fin db,
        cot_alpha_down := fin c, cot_alpha_up := fin c, use_best_fit := bf }).res =
    (calculate_wave_runup_height_z2p
      { Hm0 := fin H, Tmm10 := fin T, gamma_beta := fin gB, gamma_f := fin gf, gamma_b := fin 1,
        cot_alpha := fin c, use_best_fit := bf }).res := by
  rw [VdMProof.xi_eval hH hT hc] at hx
  simp only [fin_inj] at hx
  subst hx
  have hsq : 0.38 < √(VdMProof.xi H T c) := by
    rw [Real.lt_sqrt (by norm_num)]; norm_num; norm_num at hx0; linarith
  have e0 : (0.0 : PF) = fin 0 := by rw [sci_eq]; norm_num
  obtain ⟨c1, c2, c3, c4, e1, e2, e3, e4, p1, p4, p23⟩ : ∃ c1 c2 c3 c4 : ℝ,
      (if bf then 1.65 else 1.75 : PF) = fin c1 ∧ (if bf then 4.0 else 4.3 : PF) = fin c2 ∧
      (if bf then 1.5 else 1.6 : PF) = fin c3 ∧ (if bf then 1.0 else 1.0 : PF) = fin c4 ∧
      0 < c1 ∧ 0 < c4 ∧ c3 / √(VdMProof.xi H T c) < c2 := by
    cases bf
    · exact ⟨1.75, 4.3, 1.6, 1.0, rfl, rfl, rfl, rfl, by norm_num, by norm_num,
        by rw [div_lt_iff₀ (by linarith)]; linarith⟩
    · exact ⟨1.65, 4.0, 1.5, 1.0, rfl, rfl, rfl, rfl, by norm_num, by norm_num,
        by rw [div_lt_iff₀ (by linarith)]; linarith⟩
  have hs : check_composite_slope nan (fin c) (fin c) = pure true := by
    unfold check_composite_slope; simp
  have slope : ∀ B' : ℝ, 0 ≤ B' → ∀ gb' : PF, (slope_rec calculate_wave_runup_height_z2p
      { Hm0 := fin H, Tmm10 := fin T, gamma_beta := fin gB, gamma_f := fin gf, gamma_b := gb',
        B_berm := fin B', db := fin db, cot_alpha_down := fin c, cot_alpha_up := fin c,
        use_best_fit := bf } (fin gB) (fin c1) (fin c2) (fin c3) (fin c4)).res = .ok (fin c) := by
    intro B' hB' gb'
    obtain ⟨z, z0, hz⟩ := iteration_equal (B := B') db 1e-4 bf 1000 hH hT hc hf hf1 hB hB' p1 p4 p23 hx0
    unfold slope_rec
    dsimp only
    rw [hs, pure_bind, if_pos rfl]
    refine (PyM.bind_res_of_ok hz _).trans ?_
    rw [average_equal B' db hc.ne' (by positivity)]
    rfl
  have comp : ∀ B' : ℝ, 0 ≤ B' → ∀ (gb' : PF) (g : ℝ), gb' = fin g ∨ (gb' = nan ∧ B' = 0 ∧ g = 1) →
      (calculate_wave_runup_height_z2p
      { Hm0 := fin H, Tmm10 := fin T, gamma_beta := fin gB, gamma_f := fin gf, gamma_b := gb',
        B_berm := fin B', db := fin db, cot_alpha_down := fin c, cot_alpha_up := fin c,
        use_best_fit := bf }).res =
      (calculate_wave_runup_height_z2p
      { Hm0 := fin H, Tmm10 := fin T, gamma_beta := fin gB, gamma_f := fin gf, gamma_b := fin g,
        cot_alpha := fin c, use_best_fit := bf }).res := by
    intro B' hB' gb' g hg
    unfold calculate_wave_runup_height_z2p height_of
    have hd : (calculate_dimensionless_wave_runup_height_z2p
        { Hm0 := fin H, Tmm10 := fin T, gamma_beta := fin gB, gamma_f := fin gf, gamma_b := fin g,
          cot_alpha := fin c, use_best_fit := bf }).res = _ :=
      single_res hH hT hc rfl rfl rfl (Or.inl rfl) rfl rfl rfl e1 e2 e3 e4
    rw [PyM.bind_res_of_ok hd]
    refine PyM.bind_res_of_ok (diml_res hH hT hc rfl rfl rfl rfl e1 e2 e3 e4 (slope B' hB' gb') ?_) _
    unfold berm_rec
    dsimp only
    rcases hg with rfl | ⟨rfl, rfl, rfl⟩
    · simp
    · rw [if_pos (isnan_nan.mpr trivial), berm_length_composite (by simp) (by simp), pure_bind]
      unfold iteration_procedure_gamma_b_rec
      rw [if_pos (Or.inl (by rw [e0]; rfl)), show (1.0 : PF) = fin 1 by rw [sci_eq]; norm_num]
      rfl
  refine ⟨comp B hB0 _ gb (Or.inl rfl), ?_⟩
  have := comp 0 le_rfl nan 1 (Or.inr ⟨rfl, rfl, rfl⟩)
  rw [← e0] at this
  exact this

/-- a 1:3 slope written as two 1:3 slopes, 2 m waves of 6 s -/
theorem xi_example : 0.15 < VdMProof.xi 2 6 3 := by
  have hy : √(2 * Real.pi / 9.81 * 2 / 6 ^ 2) < 1 := by
    rw [Real.sqrt_lt' one_pos]
    have := Real.pi_le_four
    have h2 : 2 * Real.pi / 9.81 < 1 := by rw [div_lt_one (by norm_num)]; linarith
    have : 2 * Real.pi / 9.81 * 2 / 6 ^ 2 = (2 * Real.pi / 9.81) / 18 := by ring
    rw [this]; linarith
  have hy0 : 0 < √(2 * Real.pi / 9.81 * 2 / 6 ^ 2) := by
    have := Real.pi_pos
    positivity
  unfold VdMProof.xi
  generalize √(2 * Real.pi / 9.81 * 2 / 6 ^ 2) = y at *
  rw [lt_div_iff₀ hy0]
  norm_num
  linarith

example : (calculate_wave_runup_height_z2p
      { Hm0 := fin 2, Tmm10 := fin 6, gamma_beta := fin 0.9, gamma_f := fin 0.8, gamma_b := fin 0.8,
        B_berm := fin 4, db := fin 0.5, cot_alpha_down := fin 3, cot_alpha_up := fin 3,
        use_best_fit := true }).res =
    (calculate_wave_runup_height_z2p
      { Hm0 := fin 2, Tmm10 := fin 6, gamma_beta := fin 0.9, gamma_f := fin 0.8, gamma_b := fin 0.8,
        cot_alpha := fin 3, use_best_fit := true }).res :=
  (C75_runup_equal_slopes 2 6 3 0.8 0.9 0.8 4 0.5 _ true (by norm_num) (by norm_num) (by norm_num)
    (by norm_num) (by norm_num) (by norm_num) (by norm_num)
    (VdMProof.xi_eval (by norm_num) (by norm_num) (by norm_num)) xi_example).1

/-- the composite-slope call of the tests' first kind does return: hypotheses of
`C46_composite_equivalent` and `C47_levels_partial` are met -/
example : ∃ v, (calculate_wave_runup_height_z2p
      { Hm0 := fin 2, Tmm10 := fin 6, gamma_beta := fin 0.9, gamma_f := fin 0.8, db := fin 0.5,
        cot_alpha_down := fin 3, cot_alpha_up := fin 3 }).res = .ok v ∧
    ∃ z : ℝ, (iteration_procedure_z2p (fin 2) (fin 6) (fin 3) (fin 3) (fin 4) (fin 0.5) (fin 0.8)
      (fin 0.9)).res = .ok (fin z) := by
  obtain ⟨-, h⟩ := C75_runup_equal_slopes 2 6 3 0.8 0.9 1 0 0.5 _ false (by norm_num) (by norm_num)
    (by norm_num) (by norm_num) (by norm_num) (by norm_num) (by norm_num)
    (VdMProof.xi_eval (by norm_num) (by norm_num) (by norm_num)) xi_example
  obtain ⟨x, r, z, f, -, -, -, h2, -⟩ := C46_smaller_of_two 2 6 3 0.8 1 0.9 false (by norm_num)
    (by norm_num) (by norm_num)
  have hsq : 0.38 < √(VdMProof.xi 2 6 3) := by
    have := xi_example
    rw [Real.lt_sqrt (by norm_num)]; norm_num; norm_num at this; linarith
  obtain ⟨z', -, hz⟩ := iteration_equal (H := 2) (T := 6) (c := 3) (gf := 0.8) (gB := 0.9) (B := 4)
    (c1 := 1.75) (c2 := 4.3) (c3 := 1.6) (c4 := 1.0) 0.5 1e-4 false 1000 (by norm_num) (by norm_num)
    (by norm_num) (by norm_num) (by norm_num) (by norm_num) (by norm_num) (by norm_num) (by norm_num)
    (by rw [div_lt_iff₀ (by linarith)]; linarith) xi_example
  exact ⟨_, h.trans h2, z', hz⟩

end RunupTawProofs
end
