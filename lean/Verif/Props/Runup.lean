import Verif.Lemmas.Runup
import Verif.Spec

/-! # Van Gent (2001) run-up and Van Gent (2002) crest velocity (C44, C57) -/

open Classical
open PF
open RunupProof
noncomputable section

section
open VanGent2001
variable (T gam c c0 c1 : ℝ) (hT : 0 < T) (hg : 0 < gam) (hc : 0 < c) (h0 : 0 < c0) (h1 : 0 < c1)
include hT hg hc h0 h1

/-- C44: run-up is a continuous function of the wave height, across the transition between the two
formulas included -/
theorem C44_continuous : ∃ r : ℝ → ℝ, ContinuousOn r (Set.Ioi 0) ∧ ∀ H : ℝ, 0 < H →
    calculate_wave_runup_height_zXp (fin H) (fin T) (fin gam) (fin c) (fin c0) (fin c1) =
      fin (r H) :=
  ⟨_, runup_continuousOn hT hc h0 h1 gam, fun _ hH => zX_eval hT hc h0 h1 hH⟩

example := C44_continuous (T := 8) (gam := 1) (c := 2) (c0 := 1.5) (c1 := 1.5) (by norm_num) (by norm_num)
  (by norm_num) (by norm_num) (by norm_num)

/-- C44: run-up is positive and strictly increases with the wave height -/
theorem C44_increasing (x y : ℝ) (hx : 0 < x) (hxy : x < y) : ∃ a b : ℝ, 0 < a ∧ a < b ∧
    calculate_wave_runup_height_zXp (fin x) (fin T) (fin gam) (fin c) (fin c0) (fin c1) = fin a ∧
    calculate_wave_runup_height_zXp (fin y) (fin T) (fin gam) (fin c) (fin c0) (fin c1) = fin b := by
  refine ⟨_, _, ?_, runup_strictMono hT hc h0 h1 hg hx hxy, zX_eval hT hc h0 h1 hx,
    zX_eval hT hc h0 h1 (hx.trans hxy)⟩
  have := rfxi_pos hT hc h0 h1 hx
  positivity

/-- C44: a wave height is left unchanged by a step of the wave-height solver exactly when it has the
run-up level asked for -/
theorem C44_solver_fixed_points (H z : ℝ) (hH : 0 < H) :
    _invert_for_Hs (fin H) (fin z) (fin T) (fin gam) (fin c) (fin c0) (fin c1) = fin H ↔
    calculate_wave_runup_height_zXp (fin H) (fin T) (fin gam) (fin c) (fin c0) (fin c1) = fin z := by
  have hp := rfxi_pos hT hc h0 h1 hH
  rw [invH_eval hT hc h0 h1 hH hg, zX_eval hT hc h0 h1 hH, fin_inj, fin_inj,
    div_eq_iff (mul_pos hp hg).ne', mul_comm H, eq_comm]

example := C44_solver_fixed_points (T := 8) (gam := 1) (c := 2) (c0 := 1.5) (c1 := 1.5) (H := 2) (z := 5)
  (by norm_num) (by norm_num) (by norm_num) (by norm_num) (by norm_num) (by norm_num)

/-- C44: solver steps from any starting wave height close in on the one wave height with the run-up
level asked for; the distance in logarithms halves at every step -/
theorem C44_solver_converges (z : ℝ) (hz : 0 < z) : ∃ H : ℝ, 0 < H ∧
    calculate_wave_runup_height_zXp (fin H) (fin T) (fin gam) (fin c) (fin c0) (fin c1) = fin z ∧
    ∀ x : ℝ, 0 < x → ∃ y : ℝ, 0 < y ∧
      _invert_for_Hs (fin x) (fin z) (fin T) (fin gam) (fin c) (fin c0) (fin c1) = fin y ∧
      |Real.log y - Real.log H| ≤ 1 / 2 * |Real.log x - Real.log H| := by
  let F : ℝ → ℝ := fun x => z / (rf c0 c1 (VdMProof.xi x T c) * gam)
  have hF : ∀ x, 0 < x → 0 < F x := fun x hx =>
    div_pos hz (mul_pos (rfxi_pos hT hc h0 h1 hx) hg)
  have hL := log_half_lipschitz hF (fun x y hx hxy => by
      have a := rfxi_anti hT hc h0 h1 hx hxy
      have p1 := rfxi_pos hT hc h0 h1 hx
      have p2 := rfxi_pos hT hc h0 h1 (lt_of_lt_of_le hx hxy)
      have := Real.sqrt_le_sqrt hxy
      simp only [F]
      gcongr) (fun x y hx hxy => by
      have a := rfxi_sqrt hT hc h0 h1 hx hxy
      have p1 := rfxi_pos hT hc h0 h1 hx
      have p2 := rfxi_pos hT hc h0 h1 (lt_of_lt_of_le hx hxy)
      simp only [F]
      rw [div_mul_eq_mul_div, div_mul_eq_mul_div, div_le_div_iff₀ (by positivity) (by positivity)]
      nlinarith [mul_le_mul_of_nonneg_left a (mul_pos hz hg).le])
  obtain ⟨p, hp, hfp, -, h3⟩ := log_contraction F (1 / 2) (by norm_num) (by norm_num) hF hL
  refine ⟨p, hp, ?_, fun x hx => ⟨F x, hF x hx, invH_eval hT hc h0 h1 hx hg, ?_⟩⟩
  · rw [← C44_solver_fixed_points T gam c c0 c1 hT hg hc h0 h1 p z hp, invH_eval hT hc h0 h1 hp hg,
      fin_inj]
    exact hfp
  · have := hL x p hx hp
    rwa [hfp] at this

example := C44_solver_converges (T := 8) (gam := 1) (c := 2) (c0 := 1.5) (c1 := 1.5) (z := 5) (by norm_num)
  (by norm_num) (by norm_num) (by norm_num) (by norm_num) (by norm_num)
end

/-- the three exceedance levels are this formula with the published coefficients -/
theorem C44_levels (H T gam c : PF) :
    VanGent2001.calculate_wave_runup_height_z1p H T gam c =
      VanGent2001.calculate_wave_runup_height_zXp H T gam c 1.45 5.1 ∧
    VanGent2001.calculate_wave_runup_height_z10p H T gam c =
      VanGent2001.calculate_wave_runup_height_zXp H T gam c 1.1 4.0 ∧
    (∀ h : ℝ, VanGent2001.calculate_wave_runup_height_z2p T gam c (Hs := fin h) =
      pure (VanGent2001.calculate_wave_runup_height_zXp (fin h) T gam c 1.35 4.7)) ∧
    (∀ h : ℝ, VanGent2001.calculate_wave_runup_height_z2p T gam c (Hm0 := fin h) =
      pure (VanGent2001.calculate_wave_runup_height_zXp (fin h) T gam c 1.45 3.8)) := by
  refine ⟨rfl, rfl, fun h => ?_, fun h => ?_⟩ <;>
    simp [VanGent2001.calculate_wave_runup_height_z2p]

/-- C44: the 2 % run-up level needs exactly one of the two wave heights -/
theorem C44_exactly_one (T gam c Hm0 Hs c0 c1 : PF) :
    (VanGent2001.calculate_wave_runup_height_z2p T gam c Hm0 Hs c0 c1).res = .error .valueError ↔
      (Hm0.isnan ↔ Hs.isnan) := by
  unfold VanGent2001.calculate_wave_runup_height_z2p
  by_cases h1 : Hm0.isnan <;> by_cases h2 : Hs.isnan <;> simp [h1, h2, PyM.raise]

/-- C64: with the spectral wave height the coefficients supplied by the user have no effect -/
theorem C64_coefficients_ignored_refuted (T gam c : PF) (H : ℝ) (c0 c1 c0' c1' : PF) :
    VanGent2001.calculate_wave_runup_height_z2p T gam c (Hm0 := fin H) (c0 := c0) (c1 := c1) =
    VanGent2001.calculate_wave_runup_height_z2p T gam c (Hm0 := fin H) (c0 := c0') (c1 := c1') := by
  simp [VanGent2001.calculate_wave_runup_height_z2p]

/-- C64: with the significant wave height they are used -/
theorem C64_coefficients_used_partial (T gam c : PF) (H : ℝ) (c0 c1 : PF) :
    (VanGent2001.calculate_wave_runup_height_z2p T gam c (Hs := fin H) (c0 := c0) (c1 := c1)).res =
      .ok (VanGent2001.calculate_wave_runup_height_zXp (fin H) T gam c c0 c1) := by
  simp [VanGent2001.calculate_wave_runup_height_z2p]

namespace RunupProof
open VanGent2002Velocity
variable {H R B gf gc cu1 cu2 g : ℝ} (hH : 0 < H) (hB : 0 ≤ B) (hgf : 0 < gf) (hgc : 0 < gc)
  (h1 : 0 < cu1) (h2 : 0 ≤ cu2) (hg : 0 < g)
include hH hB hgf hgc h1 h2 hg

theorem u_eval {z : ℝ} (hz : R ≤ z) :
    calculate_maximum_wave_overtopping_velocity_uXp (fin H) (fin z) (fin R) (fin B) (fin gf)
      (fin gc) (fin cu1) (fin cu2) (fin g) =
      fin (√(g * H) * cu1 * √gc * √((z - R) / (gf * H)) / (1 + cu2 * B / H)) := by
  have : 0 ≤ z - R := sub_nonneg.mpr hz
  have h3 : 0 < 1 + cu2 * B / H := by positivity
  unfold calculate_maximum_wave_overtopping_velocity_uXp
  pf_eval []

theorem z_eval {u : ℝ} :
    _invert_for_zXp (fin H) (fin u) (fin R) (fin B) (fin gf) (fin gc) (fin cu1) (fin cu2)
      (fin g) = fin ((u / √(g * H) * (1 / (cu1 * √gc)) * (1 + cu2 * B / H)) ^ 2 * H * gf + R) := by
  have h3 : 0 < 1 + cu2 * B / H := by positivity
  unfold _invert_for_zXp
  rw [show (2.0 : PF) = fin 2 by rw [sci_eq]; norm_num]
  have e : (1.0 : PF) = fin 1 := by rw [sci_eq]; norm_num
  rw [e]
  pf_eval []

theorem z_of_u {z : ℝ} (hz : R ≤ z) :
    (√(g * H) * cu1 * √gc * √((z - R) / (gf * H)) / (1 + cu2 * B / H) / √(g * H) *
      (1 / (cu1 * √gc)) * (1 + cu2 * B / H)) ^ 2 * H * gf + R = z := by
  have h3 : 0 < 1 + cu2 * B / H := by positivity
  have h4 : 0 < √(g * H) := Real.sqrt_pos.mpr (by positivity)
  have h5 : 0 < √gc := Real.sqrt_pos.mpr hgc
  have h6 : 0 ≤ (z - R) / (gf * H) := div_nonneg (sub_nonneg.mpr hz) (by positivity)
  have h7 := Real.sq_sqrt h6
  generalize √((z - R) / (gf * H)) = s at *
  generalize 1 + cu2 * B / H = b at *
  have : √(g * H) * cu1 * √gc * s / b / √(g * H) * (1 / (cu1 * √gc)) * b = s := by field_simp
  rw [this, h7]
  field_simp; ring

theorem u_of_z {u : ℝ} (hu : 0 ≤ u) :
    √(g * H) * cu1 * √gc * √(((u / √(g * H) * (1 / (cu1 * √gc)) * (1 + cu2 * B / H)) ^ 2 * H * gf
      + R - R) / (gf * H)) / (1 + cu2 * B / H) = u := by
  have h3 : 0 < 1 + cu2 * B / H := by positivity
  have h4 : 0 < √(g * H) := Real.sqrt_pos.mpr (by positivity)
  have h5 : 0 < √gc := Real.sqrt_pos.mpr hgc
  generalize 1 + cu2 * B / H = b at *
  generalize √(g * H) = a at *
  generalize √gc = s at *
  have e : ((u / a * (1 / (cu1 * s)) * b) ^ 2 * H * gf + R - R) / (gf * H) =
      (u / a * (1 / (cu1 * s)) * b) ^ 2 := by
    generalize (u / a * (1 / (cu1 * s)) * b) = w
    field_simp; ring
  rw [e, Real.sqrt_sq (by positivity)]
  field_simp
end RunupProof

section
open VanGent2002Velocity
variable (H R B gf gc cu1 cu2 g : ℝ) (hH : 0 < H) (hB : 0 ≤ B) (hgf : 0 < gf) (hgc : 0 < gc)
  (h1 : 0 < cu1) (h2 : 0 ≤ cu2) (hg : 0 < g)
include hH hB hgf hgc h1 h2 hg

/-- C57: for any run-up level at or above the crest, the level recovered from the crest velocity is
that level -/
theorem C57_level_of_velocity (z : ℝ) (hz : R ≤ z) : ∃ u : ℝ, 0 ≤ u ∧ (R < z → 0 < u) ∧
    calculate_maximum_wave_overtopping_velocity_uXp (fin H) (fin z) (fin R) (fin B) (fin gf)
      (fin gc) (fin cu1) (fin cu2) (fin g) = fin u ∧
    _invert_for_zXp (fin H) (fin u) (fin R) (fin B) (fin gf) (fin gc) (fin cu1) (fin cu2)
      (fin g) = fin z := by
  have h3 : 0 < 1 + cu2 * B / H := by positivity
  have h4 : 0 < √(g * H) := Real.sqrt_pos.mpr (by positivity)
  have h5 : 0 < √gc := Real.sqrt_pos.mpr hgc
  refine ⟨_, by positivity, fun hz => ?_, u_eval hH hB hgf hgc h1 h2 hg hz, ?_⟩
  · have h6 : 0 < √((z - R) / (gf * H)) :=
      Real.sqrt_pos.mpr (div_pos (sub_pos.mpr hz) (by positivity))
    positivity
  · rw [z_eval hH hB hgf hgc h1 h2 hg, z_of_u hH hB hgf hgc h1 h2 hg hz]

example := C57_level_of_velocity (H := 2) (R := 1) (B := 4) (gf := 0.5) (gc := 1) (cu1 := 1) (cu2 := 1)
  (g := 9.81) (z := 5) (by norm_num) (by norm_num) (by norm_num) (by norm_num) (by norm_num) (by norm_num)
  (by norm_num) (by norm_num)

/-- C57: for any velocity, the velocity at the recovered run-up level is that velocity, and the level
is at or above the crest -/
theorem C57_velocity_of_level (u : ℝ) (hu : 0 ≤ u) : ∃ z : ℝ, R ≤ z ∧
    _invert_for_zXp (fin H) (fin u) (fin R) (fin B) (fin gf) (fin gc) (fin cu1) (fin cu2)
      (fin g) = fin z ∧
    calculate_maximum_wave_overtopping_velocity_uXp (fin H) (fin z) (fin R) (fin B) (fin gf)
      (fin gc) (fin cu1) (fin cu2) (fin g) = fin u := by
  have h3 : R ≤ (u / √(g * H) * (1 / (cu1 * √gc)) * (1 + cu2 * B / H)) ^ 2 * H * gf + R := by
    have : 0 ≤ (u / √(g * H) * (1 / (cu1 * √gc)) * (1 + cu2 * B / H)) ^ 2 * H * gf := by positivity
    linarith
  refine ⟨_, h3, z_eval hH hB hgf hgc h1 h2 hg, ?_⟩
  rw [u_eval hH hB hgf hgc h1 h2 hg h3, u_of_z hH hB hgf hgc h1 h2 hg hu]

example := C57_velocity_of_level (H := 2) (R := 1) (B := 4) (gf := 0.5) (gc := 1) (cu1 := 1) (cu2 := 1)
  (g := 9.81) (u := 1) (by norm_num) (by norm_num) (by norm_num) (by norm_num) (by norm_num) (by norm_num)
  (by norm_num) (by norm_num)
end

/-- C57: with the default coefficients, which are the same in both functions -/
theorem C57_defaults (H R B gf gc z : ℝ) (hH : 0 < H) (hB : 0 ≤ B) (hgf : 0 < gf) (hgc : 0 < gc)
    (hz : R ≤ z) : VanGent2002Velocity._invert_for_zXp (fin H)
      (VanGent2002Velocity.calculate_maximum_wave_overtopping_velocity_uXp (fin H) (fin z) (fin R)
        (fin B) (fin gf) (fin gc)) (fin R) (fin B) (fin gf) (fin gc) = fin z := by
  obtain ⟨u, -, -, e1, e2⟩ := C57_level_of_velocity H R B gf gc 1.7 0.1 9.81 hH hB hgf hgc
    (by norm_num) (by norm_num) (by norm_num) z hz
  simp only [sci_eq]
  rw [e1, e2]

/-- C57 limit: below the crest level the velocity is NaN -/
theorem C57_below_crest_is_nan (H R B gf gc z : ℝ) (hH : 0 < H) (hB : 0 ≤ B) (hgf : 0 < gf)
    (hgc : 0 < gc) (hz : z < R) :
    VanGent2002Velocity.calculate_maximum_wave_overtopping_velocity_uXp (fin H) (fin z) (fin R)
        (fin B) (fin gf) (fin gc) = nan := by
  unfold VanGent2002Velocity.calculate_maximum_wave_overtopping_velocity_uXp
  have h : (z - R) / (gf * H) < 0 := div_neg_of_neg_of_pos (sub_neg.mpr hz) (by positivity)
  have h2 : PF.sqrt ((fin z - fin R) / (fin gf * fin H)) = nan := by
    rw [sub_fin, mul_fin, div_fin (by positivity), show PF.sqrt (fin _) = nan from if_pos h]
  rw [h2, mul_nan, nan_div]

-- the hypotheses are satisfiable on both sides of the transition
example : ∃ a b : ℝ, 0 < a ∧ a < b ∧
    VanGent2001.calculate_wave_runup_height_zXp (fin 2) (fin 8) (fin 0.5) (fin 2) (fin 1.45)
      (fin 5.1) = fin a ∧
    VanGent2001.calculate_wave_runup_height_zXp (fin 3) (fin 8) (fin 0.5) (fin 2) (fin 1.45)
      (fin 5.1) = fin b :=
  C44_increasing 8 0.5 2 1.45 5.1 (by norm_num) (by norm_num) (by norm_num) (by norm_num)
    (by norm_num) 2 3 (by norm_num) (by norm_num)
example : VanGent2002Velocity._invert_for_zXp (fin 2)
      (VanGent2002Velocity.calculate_maximum_wave_overtopping_velocity_uXp (fin 2) (fin 5) (fin 3)
        (fin 4) (fin 0.5) (fin 0.6)) (fin 3) (fin 4) (fin 0.5) (fin 0.6) = fin 5 :=
  C57_defaults 2 3 4 0.5 0.6 5 (by norm_num) (by norm_num) (by norm_num) (by norm_num)
    (by norm_num)

end
