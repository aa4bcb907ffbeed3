import Verif.Props.OvertoppingMore

/-!
# C76, C77 and the rest of C54: influence factors of the newer overtopping formulas, and wind
-/

open Classical
open PF CorePhysics CoreUtility
noncomputable section

namespace OvertoppingMoreProofs
open TwoFormulas MoreOvertopping
open OvertoppingTaw2002 (Sc Sc_pos Sc_eval)

/-! ## C76 obliqueness factors -/
section

private theorem cos_sq_lt {a b : ℝ} (ha : 0 ≤ a) (hab : a < b) (hb : b ≤ 90) :
    Real.cos (b * (Real.pi / 180)) ^ 2 < Real.cos (a * (Real.pi / 180)) ^ 2 := by
  have hpi := Real.pi_pos
  have h1 : Real.cos (b * (Real.pi / 180)) < Real.cos (a * (Real.pi / 180)) := by
    refine Real.cos_lt_cos_of_nonneg_of_le_pi_div_two (by positivity) ?_ ?_
    · nlinarith
    · exact mul_lt_mul_of_pos_right hab (by positivity)
  have h0 : 0 ≤ Real.cos (b * (Real.pi / 180)) := by
    refine Real.cos_nonneg_of_neg_pi_div_two_le_of_le ?_ ?_
    · nlinarith
    · nlinarith
  exact pow_lt_pow_left₀ h1 h0 two_ne_zero

/-- Van Gent 2021 (for the coefficients of every supported option), Van Gent 2025 and De Ridder 2026:
the obliqueness factor is 1 for perpendicular waves, the same on both sides of the normal, at least
its limit value and at most 1, and it strictly decreases from 0 to 90 degrees. -/
theorem C76_caisson (cb gp : ℝ) (h0 : 0 < cb) (h1 : cb < gp) :
    VanGent2021Caisson.calculate_influence_oblique_waves_gamma_beta (fin 0) (fin gp) (fin cb) = fin 1 ∧
    (∀ b : ℝ, ∃ r : ℝ, VanGent2021Caisson.calculate_influence_oblique_waves_gamma_beta (fin b) (fin gp)
        (fin cb) = fin r ∧ cb / gp ≤ r ∧ r ≤ 1 ∧
      VanGent2021Caisson.calculate_influence_oblique_waves_gamma_beta (fin (-b)) (fin gp) (fin cb)
        = fin r) ∧
    (∀ a b : ℝ, 0 ≤ a → a < b → b ≤ 90 → ∃ r s : ℝ, s < r ∧
      VanGent2021Caisson.calculate_influence_oblique_waves_gamma_beta (fin a) (fin gp) (fin cb) = fin r ∧
      VanGent2021Caisson.calculate_influence_oblique_waves_gamma_beta (fin b) (fin gp) (fin cb)
        = fin s) := by
  have hg : gp ≠ 0 := (h0.trans h1).ne'
  refine ⟨?_, fun b => ⟨_, VanGent2021Caisson.oblique_eval hg, ?_⟩, fun a b ha hab hb =>
    ⟨_, _, ?_, VanGent2021Caisson.oblique_eval hg, VanGent2021Caisson.oblique_eval hg⟩⟩
  · rw [VanGent2021Caisson.oblique_eval hg]; simp
  · have := VanGent2021Caisson.oblique_bounds (b := b) h0 h1
    refine ⟨this.1, this.2.1, ?_⟩
    rw [VanGent2021Caisson.oblique_eval hg, neg_mul, Real.cos_neg]
  · have h2 := cos_sq_lt ha hab hb
    have h3 : cb / gp < 1 := (div_lt_one (h0.trans h1)).mpr h1
    nlinarith

example : ∃ r s : ℝ, s < r ∧
    VanGent2021Caisson.calculate_influence_oblique_waves_gamma_beta (fin 10) (fin 0.89) (fin 0.75)
      = fin r ∧
    VanGent2021Caisson.calculate_influence_oblique_waves_gamma_beta (fin 50) (fin 0.89) (fin 0.75)
      = fin s :=
  (C76_caisson 0.75 0.89 (by norm_num) (by norm_num)).2.2 10 50 (by norm_num) (by norm_num) (by norm_num)

/-- The same for Van Gent 2025 with any limit value below 1 (0.35 by default). -/
theorem C76_vangent2025 (c : ℝ) (h0 : 0 < c) (h1 : c < 1) :
    VanGent2025.calculate_influence_oblique_waves_gamma_beta (fin 0) (fin c) = fin 1 ∧
    VanGent2025.calculate_influence_oblique_waves_gamma_beta (fin 90) (fin c) = fin c ∧
    (∀ b : ℝ, ∃ r : ℝ, VanGent2025.calculate_influence_oblique_waves_gamma_beta (fin b) (fin c) = fin r ∧
      c ≤ r ∧ r ≤ 1 ∧
      VanGent2025.calculate_influence_oblique_waves_gamma_beta (fin (-b)) (fin c) = fin r) ∧
    (∀ a b : ℝ, 0 ≤ a → a < b → b ≤ 90 → ∃ r s : ℝ, s < r ∧
      VanGent2025.calculate_influence_oblique_waves_gamma_beta (fin a) (fin c) = fin r ∧
      VanGent2025.calculate_influence_oblique_waves_gamma_beta (fin b) (fin c) = fin s) := by
  refine ⟨?_, ?_, fun b => ⟨_, VanGent2025.oblique_eval b c, ?_⟩, fun a b ha hab hb =>
    ⟨_, _, ?_, VanGent2025.oblique_eval a c, VanGent2025.oblique_eval b c⟩⟩
  · rw [VanGent2025.oblique_eval]; simp
  · rw [VanGent2025.oblique_eval, show (90 : ℝ) * (Real.pi / 180) = Real.pi / 2 by ring,
      Real.cos_pi_div_two]
    simp
  · have h2 := sq_nonneg (Real.cos (b * (Real.pi / 180)))
    have h3 := Real.cos_sq_le_one (b * (Real.pi / 180))
    refine ⟨by nlinarith, by nlinarith, ?_⟩
    rw [VanGent2025.oblique_eval, neg_mul, Real.cos_neg]
  · have h2 := cos_sq_lt ha hab hb
    nlinarith

example : ∃ r : ℝ, VanGent2025.calculate_influence_oblique_waves_gamma_beta (fin 40) = fin r ∧
    0.35 ≤ r ∧ r ≤ 1 := by
  obtain ⟨r, h1, h2, h3, -⟩ := (C76_vangent2025 0.35 (by norm_num) (by norm_num)).2.2.1 40
  exact ⟨r, h1, h2, h3⟩

/-- De Ridder 2026 uses the factor of Van Gent 2025 with its default limit, for every angle. -/
theorem C76_deridder2026 (t : ℝ) : DeRidder2026.calculate_gamma_beta (fin t) =
    VanGent2025.calculate_influence_oblique_waves_gamma_beta (fin t) := by
  unfold DeRidder2026.calculate_gamma_beta
  simp only [sci_eq]
  rw [VanGent2025.oblique_eval]
  pf_eval [PF.abs, PF.deg2rad, PF.cos, npow_two]
  have e : (0.65 : ℝ) = 1 - 0.35 := by norm_num
  rw [e]
  rcases abs_cases t with ⟨h, -⟩ | ⟨h, -⟩ <;> rw [h]
  rw [neg_mul, Real.cos_neg]

example : DeRidder2026.calculate_gamma_beta (fin (-30)) =
    VanGent2025.calculate_influence_oblique_waves_gamma_beta (fin (-30)) := C76_deridder2026 (-30)
end

/-! ## C77 Van Gent 2025: friction, crest wall and wind factors -/
section
open VanGent2025

private theorem friction_eval {d H s : ℝ} (hd : 0 < d) (hH : 0 < H) :
    calculate_influence_friction_gamma_f (fin d) (fin H) (fin s) =
      fin (1 - 0.70 * (d / H) ^ (0.05 : ℝ) * (1 - 12 * ((0.012 - s) ⊔ 0))) := by
  unfold calculate_influence_friction_gamma_f
  have hx : 0 < d / H := by positivity
  have e : (1.0 : PF) - 0.70 * npow (fin d / fin H) 0.05 = fin (1 - 0.70 * (d / H) ^ (0.05 : ℝ)) := by
    rw [VanGent2021Caisson.e1, div_fin hH.ne']
    simp only [sci_eq]
    rw [npow_fin_nonneg hx.le (by norm_num), mul_fin, sub_fin]
  have e12 : (12.0 : PF) = fin 12 := by rw [sci_eq]; norm_num
  dsimp only
  rw [e, VanGent2021Caisson.e1, e12]
  simp only [sci_eq, mul_fin, sub_fin, add_fin]
  generalize (0.70 : ℝ) * (d / H) ^ (0.05 : ℝ) = y
  by_cases hc : fin s ≥ fin 0.012
  · rw [whr_true hc]
    rw [ge_iff_le, le_fin] at hc
    rw [max_eq_right (by linarith)]
    congr 1; ring
  · rw [whr_false hc]
    rw [ge_iff_le, le_fin, not_le] at hc
    rw [max_eq_left (by linarith)]
    congr 1; ring

/-- For positive stones, waves and steepness the friction factor is below 1; larger stones give a smaller
factor, steeper waves never a larger one, and the two steepness regimes join without a jump. -/
theorem C77_friction (H s d : ℝ) (hH : 0 < H) (hs : 0 < s) (hd : 0 < d) :
    (∃ r : ℝ, calculate_influence_friction_gamma_f (fin d) (fin H) (fin s) = fin r ∧ r < 1) ∧
    (∀ d' : ℝ, d < d' → ∃ r r' : ℝ, r' < r ∧
      calculate_influence_friction_gamma_f (fin d) (fin H) (fin s) = fin r ∧
      calculate_influence_friction_gamma_f (fin d') (fin H) (fin s) = fin r') ∧
    (∀ s' : ℝ, s < s' → ∃ r r' : ℝ, r' ≤ r ∧ r - r' ≤ 12 * (d / H) ^ (0.05 : ℝ) * (s' - s) ∧
      calculate_influence_friction_gamma_f (fin d) (fin H) (fin s) = fin r ∧
      calculate_influence_friction_gamma_f (fin d) (fin H) (fin s') = fin r') := by
  have h7 : (0 : ℝ) < 0.70 := by norm_num
  have hm : ∀ s : ℝ, 0 < s → 0 < 1 - 12 * ((0.012 - s) ⊔ 0) := by
    intro s hs
    rcases max_cases (0.012 - s) 0 with ⟨h, -⟩ | ⟨h, -⟩ <;> rw [h]
    · have : 12 * ((0.012 : ℝ) - s) < 12 * 0.012 := by linarith
      norm_num at this ⊢
      linarith
    · norm_num
  have hp : ∀ d : ℝ, 0 < d → 0 < 0.70 * (d / H) ^ (0.05 : ℝ) := fun d hd =>
    mul_pos h7 (rpow_pos' (by positivity))
  refine ⟨⟨_, friction_eval hd hH, ?_⟩, fun d' hd' => ⟨_, _, ?_, friction_eval hd hH,
    friction_eval (hd.trans hd') hH⟩, fun s' hs' => ⟨_, _, ?_, ?_, friction_eval hd hH,
    friction_eval hd hH⟩⟩
  · have := mul_pos (hp d hd) (hm s hs)
    linarith
  · have h1 : 0.70 * (d / H) ^ (0.05 : ℝ) < 0.70 * (d' / H) ^ (0.05 : ℝ) := by
      refine mul_lt_mul_of_pos_left (Real.rpow_lt_rpow (by positivity) ?_ (by norm_num)) h7
      exact div_lt_div_of_pos_right hd' hH
    have := mul_lt_mul_of_pos_right h1 (hm s hs)
    linarith
  all_goals
    have h1 := rpow_pos' (y := (0.05 : ℝ)) (show 0 < d / H by positivity)
    generalize (d / H) ^ (0.05 : ℝ) = y at *
    have hmm : (0.012 - s') ⊔ 0 ≤ (0.012 - s) ⊔ 0 := max_le_max (by linarith) le_rfl
    have h2 : (0.012 - s) ⊔ 0 - (0.012 - s') ⊔ 0 ≤ s' - s := by
      rcases max_cases (0.012 - s) 0 with ⟨h, -⟩ | ⟨h, -⟩ <;>
        rcases max_cases (0.012 - s') 0 with ⟨h', h''⟩ | ⟨h', h''⟩ <;> rw [h, h'] <;> linarith
    generalize (0.012 - s) ⊔ 0 = m at *
    generalize (0.012 - s') ⊔ 0 = m' at *
  · have : 0 < 0.70 * y := by positivity
    nlinarith
  · have h4 : 0 ≤ y * (m - m') := mul_nonneg h1.le (by linarith)
    have h5 : y * (m - m') ≤ y * (s' - s) := mul_le_mul_of_nonneg_left h2 h1.le
    have h6 : (0.70 : ℝ) * (y * (m - m')) ≤ 1 * (y * (m - m')) :=
      mul_le_mul_of_nonneg_right (by norm_num) h4
    generalize (0.70 : ℝ) = z at *
    linarith

example : ∃ r : ℝ, calculate_influence_friction_gamma_f (fin 0.8) (fin 2) (fin 0.01) = fin r ∧ r < 1 :=
  (C77_friction 2 0.01 0.8 (by norm_num) (by norm_num) (by norm_num)).1

private theorem wall_eval {c R a v : ℝ} (hR : 0 < R) :
    calculate_influence_crest_wall_gamma_v (fin c) (fin R) (fin a) (fin v) =
      fin (1 + (if c ≤ 4 then v else 0.1125 * c) * (R - a) / R) := by
  unfold calculate_influence_crest_wall_gamma_v
  have e4 : (4.0 : PF) = fin 4 := by rw [sci_eq]; norm_num
  rw [e4, VanGent2021Caisson.e1]
  simp only [sci_eq]
  simp only [mul_fin, sub_fin, add_fin, div_fin hR.ne']
  by_cases hc : c ≤ 4
  · rw [whr_true (by rwa [le_fin]), if_pos hc]
  · rw [whr_false (by rwa [le_fin]), if_neg hc]

/-- The crest-wall factor is 1 without a protruding wall (any slope), grows with the part of the wall that
protrudes, and the two slope regimes meet at 1:4. -/
theorem C77_crest_wall (c R : ℝ) (hc : 0 < c) (hR : 0 < R) :
    calculate_influence_crest_wall_gamma_v (fin c) (fin R) (fin R) = fin 1 ∧
    (∀ a a' : ℝ, a < a' → ∃ r r' : ℝ, r' < r ∧
      calculate_influence_crest_wall_gamma_v (fin c) (fin R) (fin a) = fin r ∧
      calculate_influence_crest_wall_gamma_v (fin c) (fin R) (fin a') = fin r') ∧
    (∀ c' a : ℝ, c < c' → a ≤ R → ∃ r r' : ℝ, r ≤ r' ∧ r' - r ≤ 0.1125 * (c' - c) * ((R - a) / R) ∧
      calculate_influence_crest_wall_gamma_v (fin c) (fin R) (fin a) = fin r ∧
      calculate_influence_crest_wall_gamma_v (fin c') (fin R) (fin a) = fin r') := by
  have hE : ∀ c a : ℝ, calculate_influence_crest_wall_gamma_v (fin c) (fin R) (fin a) =
      fin (1 + (if c ≤ 4 then 0.45 else 0.1125 * c) * (R - a) / R) := fun c a => wall_eval hR
  have hk : ∀ c : ℝ, 0 < c → (0 : ℝ) < if c ≤ 4 then 0.45 else 0.1125 * c := by
    intro c h; split_ifs
    · norm_num
    · exact mul_pos (by norm_num) h
  refine ⟨?_, fun a a' h => ⟨_, _, ?_, hE c a, hE c a'⟩, fun c' a h ha => ⟨_, _, ?_, ?_, hE c a, hE c' a⟩⟩
  · rw [hE, sub_self]; simp
  · have := hk c hc
    generalize (if c ≤ 4 then (0.45 : ℝ) else 0.1125 * c) = k at *
    have : k * (R - a') / R < k * (R - a) / R :=
      div_lt_div_of_pos_right (mul_lt_mul_of_pos_left (by linarith) this) hR
    linarith
  all_goals
    have hx : 0 ≤ (R - a) / R := div_nonneg (by linarith) hR.le
    rw [mul_div_assoc, mul_div_assoc]
    generalize (R - a) / R = x at *
    have h1 : (if c ≤ 4 then (0.45 : ℝ) else 0.1125 * c) ≤ if c' ≤ 4 then 0.45 else 0.1125 * c' := by
      split_ifs <;> norm_num <;> linarith
    have h2 : (if c' ≤ 4 then (0.45 : ℝ) else 0.1125 * c') - (if c ≤ 4 then (0.45 : ℝ) else 0.1125 * c) ≤
        0.1125 * (c' - c) := by
      split_ifs <;> norm_num <;> linarith
    generalize (if c ≤ 4 then (0.45 : ℝ) else 0.1125 * c) = k at *
    generalize (if c' ≤ 4 then (0.45 : ℝ) else 0.1125 * c') = k' at *
  · nlinarith
  · have := mul_le_mul_of_nonneg_right h2 hx
    linarith

example : ∃ r r' : ℝ, r' < r ∧
    calculate_influence_crest_wall_gamma_v (fin 3) (fin 5) (fin 4) = fin r ∧
    calculate_influence_crest_wall_gamma_v (fin 3) (fin 5) (fin 4.5) = fin r' :=
  (C77_crest_wall 3 5 (by norm_num) (by norm_num)).2.1 4 4.5 (by norm_num)

private theorem wind_eval {R a H q : ℝ} (hH : 0 < H) (hq : 0 < q) :
    calculate_influence_wind_gamma_w (fin R) (fin a) (fin H) (fin q) =
      fin (1 + 0.075 * ((R - a) / H) * q ^ (-0.3 : ℝ)) := by
  unfold calculate_influence_wind_gamma_w
  dsimp only
  rw [VanGent2021Caisson.e1]
  simp only [sci_eq]
  rw [neg_fin, npow_fin hq, sub_fin, div_fin hH.ne', mul_fin, mul_fin, add_fin]

/-- The wind factor is 1 without a protruding wall, at least 1 with one, grows with the wall and with
smaller discharges. -/
theorem C77_wind_factor (R a H q : ℝ) (hH : 0 < H) (hq : 0 < q) (ha : a < R) :
    calculate_influence_wind_gamma_w (fin R) (fin R) (fin H) (fin q) = fin 1 ∧
    (∃ r : ℝ, calculate_influence_wind_gamma_w (fin R) (fin a) (fin H) (fin q) = fin r ∧ 1 < r) ∧
    (∀ R' : ℝ, R < R' → ∃ r r' : ℝ, r < r' ∧
      calculate_influence_wind_gamma_w (fin R) (fin a) (fin H) (fin q) = fin r ∧
      calculate_influence_wind_gamma_w (fin R') (fin a) (fin H) (fin q) = fin r') ∧
    (∀ q' : ℝ, q < q' → ∃ r r' : ℝ, r' < r ∧
      calculate_influence_wind_gamma_w (fin R) (fin a) (fin H) (fin q) = fin r ∧
      calculate_influence_wind_gamma_w (fin R) (fin a) (fin H) (fin q') = fin r') := by
  have hp := rpow_pos' (y := (-0.3 : ℝ)) hq
  have h7 : (0 : ℝ) < 0.075 := by norm_num
  have hx : 0 < (R - a) / H := div_pos (by linarith) hH
  refine ⟨?_, ⟨_, wind_eval hH hq, ?_⟩, fun R' h => ⟨_, _, ?_, wind_eval hH hq, wind_eval hH hq⟩,
    fun q' h => ⟨_, _, ?_, wind_eval hH hq, wind_eval hH (hq.trans h)⟩⟩
  · rw [wind_eval hH hq]; simp
  · have : 0 < 0.075 * ((R - a) / H) * q ^ (-0.3 : ℝ) := by positivity
    linarith
  · have h1 : (R - a) / H < (R' - a) / H := div_lt_div_of_pos_right (by linarith) hH
    have := mul_lt_mul_of_pos_right (mul_lt_mul_of_pos_left h1 h7) hp
    linarith
  · have h1 : q' ^ (-0.3 : ℝ) < q ^ (-0.3 : ℝ) := Real.rpow_lt_rpow_of_neg hq h (by norm_num)
    have := mul_lt_mul_of_pos_left h1 (mul_pos h7 hx)
    linarith

example : ∃ r : ℝ, calculate_influence_wind_gamma_w (fin 5) (fin 4) (fin 2) (fin 0.001) = fin r ∧ 1 < r :=
  (C77_wind_factor 5 4 2 0.001 (by norm_num) (by norm_num) (by norm_num)).2.1

/-- the calls with wind -/
private theorem both_wind {H T c gv a : ℝ} {beta B db D gf' gb' gB' : PF}
    (X : Ok H T c gv (fin a) beta B db D gf' gb' gB') : ∃ G x : ℝ, 0 < G ∧ 0 < x ∧
    (∀ (R w g : ℝ) (dc : Bool), 0 < g →
      (calculate_overtopping_discharge_q (fin H) (fin w) (fin T) (fin R) (fin a) (fin c) beta B db D gf'
        gb' (fin gv) gB' (fin g) dc false).res =
      .ok (fin ((if dc then Q H c G x (R - 0.4 * w) ^ (0.857 : ℝ) else Q H c G x (R - 0.4 * w)) *
          Sc g H),
        decide (E (A2 c) (k2 H G x) (R - 0.4 * w) ≤ E (A1 c) (k1 H G x) (R - 0.4 * w)))) ∧
    (∀ (q w r : ℝ) (dc m : Bool), 0 < q →
      (calculate_crest_freeboard_Rc (fin H) (fin w) (fin T) (fin q) (fin a) (fin c) beta B db D gf' gb'
        (fin gv) gB' dc false).res = .ok (fin r, m) → a ≤ r →
      ∃ (r' : ℝ) (m' : Bool), r ≤ r' ∧
      (calculate_crest_freeboard_Rc (fin H) (fin w) (fin T) (fin q) (fin a) (fin c) beta B db D gf' gb'
        (fin gv) gB' dc true).res = .ok (fin r', m')) ∧
    (∀ (R w g : ℝ) (dc : Bool), 0 < g → a ≤ R →
      (calculate_overtopping_discharge_q (fin H) (fin w) (fin T) (fin R) (fin a) (fin c) beta B db D gf'
        gb' (fin gv) gB' (fin g) dc true).res =
      .ok (fin ((if dc then (Q H c G x (R - 0.4 * w) * (1 + 0.075 * ((R - a) / H) *
            Q H c G x (R - 0.4 * w) ^ (-0.3 : ℝ))) ^ (0.857 : ℝ)
          else Q H c G x (R - 0.4 * w) * (1 + 0.075 * ((R - a) / H) *
            Q H c G x (R - 0.4 * w) ^ (-0.3 : ℝ))) * Sc g H),
        decide (E (A2 c) (k2 H G x) (R - 0.4 * w) ≤ E (A1 c) (k1 H G x) (R - 0.4 * w)))) := by
  obtain ⟨hH, hT, hc, hv, f, b, o⟩ := X
  obtain ⟨gf, hf, ef⟩ := friction_ok hH hT f
  obtain ⟨gb, hb, eb⟩ := berm_ok hH hT b
  obtain ⟨gB, hB, eB⟩ := oblique_ok o
  have hx := VdMProof.xi_pos hH hT hc
  have ex := VdMProof.xi_eval hH hT hc
  have eS : PF.sqrt (9.81 * npow (fin H) 3) = fin (Sc 9.81 H) := Sc_eval (by norm_num) hH
  have hS : 0 < Sc 9.81 H := Sc_pos (by norm_num) hH
  have hG : 0 < gf * gb * gv * gB := by positivity
  have h7 : (0 : ℝ) < 0.075 := by norm_num
  refine ⟨gf * gb * gv * gB, VdMProof.xi H T c, hG, hx, ?_, ?_, ?_⟩
  · intro R w g dc hg
    unfold calculate_overtopping_discharge_q calculate_dimensionless_overtopping_discharge_q
    dsimp only
    rw [eB, eb, ex, ef, pure_bind, bind_assoc, PyM.bind_res_of_ok (check_res ..), pure_bind,
      q1_eval hH hc hx hf hb hv hB, q2_eval hH hc hx hf hb hv hB, flag_eval, min_fin, Sc_eval hg hH]
    simp only [Bool.false_eq_true, if_false]
    rw [PyM.pure_def]
    have hQ := Q_pos (H := H) (G := gf * gb * gv * gB) (x := VdMProof.xi H T c) hc (R - 0.4 * w)
    cases dc
    · simp only [Bool.false_eq_true, if_false, mul_fin]; rfl
    · simp only [if_true, sci_eq]
      rw [npow_fin (by exact hQ), mul_fin]; rfl
  · intro q w r dc m hq h hr
    unfold calculate_crest_freeboard_Rc calculate_dimensionless_crest_freeboard at h ⊢
    dsimp only at h ⊢
    rw [eB, eb, ex, ef, pure_bind, bind_assoc, PyM.bind_res_of_ok (check_res ..), pure_bind, eS,
      div_fin hS.ne', R2_eval hH hc hx hf hb hv hB hq] at h ⊢
    have hy : 0 < q / Sc 9.81 H := by positivity
    have ey : (if dc = true then npow (fin (q / Sc 9.81 H)) (1.0 / 0.857) else fin (q / Sc 9.81 H)) =
        fin (if dc then (q / Sc 9.81 H) ^ (1 / 0.857 : ℝ) else q / Sc 9.81 H) := by
      cases dc
      · simp
      · have e8 : (1.0 / 0.857 : PF) = fin (1 / 0.857) := by
          rw [VanGent2021Caisson.e1, sci_eq, div_fin (by norm_num)]
        simp only [if_true, e8]
        rw [npow_fin hy]
    have hy' : 0 < (if dc then (q / Sc 9.81 H) ^ (1 / 0.857 : ℝ) else q / Sc 9.81 H) := by
      split_ifs
      · exact Real.rpow_pos_of_pos hy _
      · exact hy
    rw [ey] at h ⊢
    generalize (if dc then (q / Sc 9.81 H) ^ (1 / 0.857 : ℝ) else q / Sc 9.81 H) = y at *
    have a1 := A1_pos hc
    have p1 := k1_pos hH hG hx
    have eR : ∀ z : ℝ, 0 < z → Rc_diml_eqB1 (fin H) (fin w) (fin z) (fin c) (fin (VdMProof.xi H T c))
        (fin gf) (fin gb) (fin gv) (fin gB) = fin ((L (A1 c) (k1 H (gf * gb * gv * gB)
          (VdMProof.xi H T c)) z + 0.4 * w) / H) := fun z hz => R1_eval hH hc hx hf hb hv hB hz
    rw [eR y hy'] at h ⊢
    simp only [Bool.false_eq_true, if_false, if_true] at h ⊢
    rw [min_fin, flag_eval, PyM.pure_def] at h
    dsimp only at h
    rw [mul_fin, Except.ok.injEq, Prod.mk.injEq, fin.injEq] at h
    -- the iteration stays at or above the start
    set r0 := (L (A1 c) (k1 H (gf * gb * gv * gB) (VdMProof.xi H T c)) y + 0.4 * w) / H with hr0
    set rm := (L (A2 c) (k2 H (gf * gb * gv * gB) (VdMProof.xi H T c)) (q / Sc 9.81 H) + 0.4 * w) / H
      with hrm
    have har : a ≤ r0 * H := by
      have h1 : (r0 ⊓ rm) * H ≤ r0 * H := mul_le_mul_of_nonneg_right inf_le_left hH.le
      linarith [h.1]
    have key : ∀ n : ℕ, ∃ t : ℝ, r0 ≤ t ∧ (whileIter n (fun s : WindState => s.diff > (1e-5 : PF))
        (fun s : WindState =>
          { Rc_diml := Rc_diml_eqB1 (fin H) (fin w) (fin y / calculate_influence_wind_gamma_w
              (s.Rc_diml * fin H) (fin a) (fin H) (fin y)) (fin c) (fin (VdMProof.xi H T c)) (fin gf)
              (fin gb) (fin gv) (fin gB),
            diff := PF.abs (Rc_diml_eqB1 (fin H) (fin w) (fin y / calculate_influence_wind_gamma_w
              (s.Rc_diml * fin H) (fin a) (fin H) (fin y)) (fin c) (fin (VdMProof.xi H T c)) (fin gf)
              (fin gb) (fin gv) (fin gB) - s.Rc_diml) })
        { Rc_diml := fin r0, diff := pinf }).Rc_diml = fin t := by
      intro n
      refine whileIter_inv _ _ (fun s : WindState => ∃ t : ℝ, r0 ≤ t ∧ s.Rc_diml = fin t) ?_ n
        ⟨r0, le_rfl, rfl⟩
      rintro s ⟨t, ht, es⟩
      simp only [es]
      have hw : (0 : ℝ) ≤ (t * H - a) / H :=
        div_nonneg (by have := mul_le_mul_of_nonneg_right ht hH.le; linarith) hH.le
      have hp := rpow_pos' (y := (-0.3 : ℝ)) hy'
      have h1 : 1 ≤ 1 + 0.075 * ((t * H - a) / H) * y ^ (-0.3 : ℝ) := by
        have : 0 ≤ 0.075 * ((t * H - a) / H) * y ^ (-0.3 : ℝ) := by positivity
        linarith
      rw [mul_fin, wind_eval hH hy', div_fin (by linarith), eR _ (by positivity)]
      refine ⟨_, ?_, rfl⟩
      rw [hr0]
      refine div_le_div_of_nonneg_right ?_ hH.le
      have := L_le a1 p1 (y := y / (1 + 0.075 * ((t * H - a) / H) * y ^ (-0.3 : ℝ))) (y' := y)
        (by positivity) (div_le_self hy'.le h1)
      linarith
    obtain ⟨t, ht, et⟩ := key 1000
    rw [et, min_fin, PyM.pure_def]
    refine ⟨(t ⊓ rm) * H, _, ?_, by rw [← mul_fin]⟩
    rw [← h.1]
    exact mul_le_mul_of_nonneg_right (inf_le_inf_right _ ht) hH.le
  · intro R w g dc hg ha
    unfold calculate_overtopping_discharge_q calculate_dimensionless_overtopping_discharge_q
    dsimp only
    rw [eB, eb, ex, ef, pure_bind, bind_assoc, PyM.bind_res_of_ok (check_res ..), pure_bind,
      q1_eval hH hc hx hf hb hv hB, q2_eval hH hc hx hf hb hv hB, flag_eval, min_fin, Sc_eval hg hH]
    have hQ := Q_pos (H := H) (G := gf * gb * gv * gB) (x := VdMProof.xi H T c) hc (R - 0.4 * w)
    change 0 < E _ _ _ ⊓ E _ _ _ at hQ
    simp only [if_true]
    rw [wind_eval hH hQ, mul_fin, PyM.pure_def]
    have hp := rpow_pos' (y := (-0.3 : ℝ)) hQ
    have hw : 0 ≤ (R - a) / H := div_nonneg (by linarith) hH.le
    cases dc
    · simp only [Bool.false_eq_true, if_false, mul_fin]; rfl
    · simp only [if_true, sci_eq]
      rw [npow_fin (by positivity), mul_fin]; rfl

/-- Wind in the discharge: with the crest at or above the armour crest, wind never reduces the discharge;
it increases it when the wall protrudes and changes nothing when it does not.  The report on the maximum
formula is the same. -/
theorem C77_wind_discharge (H T c gv w R a g : ℝ) (beta B db D gf gb gB : PF) (dc : Bool)
    (X : Ok H T c gv (fin a) beta B db D gf gb gB) (hg : 0 < g) (ha : a ≤ R) :
    ∃ (q q' : ℝ) (m : Bool), q ≤ q' ∧ (a = R → q' = q) ∧ (a < R → q < q') ∧
      (calculate_overtopping_discharge_q (fin H) (fin w) (fin T) (fin R) (fin a) (fin c) beta B db D gf gb
        (fin gv) gB (fin g) dc false).res = .ok (fin q, m) ∧
      (calculate_overtopping_discharge_q (fin H) (fin w) (fin T) (fin R) (fin a) (fin c) beta B db D gf gb
        (fin gv) gB (fin g) dc true).res = .ok (fin q', m) := by
  obtain ⟨G, x, hG, hx, hq, -, hw⟩ := both_wind X
  have h0 := Q_pos (H := H) (G := G) (x := x) X.hc (R - 0.4 * w)
  have hS := Sc_pos hg X.hH
  have hp := rpow_pos' (y := (-0.3 : ℝ)) h0
  have h7 : (0 : ℝ) < 0.075 := by norm_num
  have hH := X.hH
  have hR : 0 ≤ (R - a) / H := div_nonneg (by linarith) hH.le
  have hm : ∀ y z : ℝ, 0 < y → y < z →
      (if dc then y ^ (0.857 : ℝ) else y) * Sc g H < (if dc then z ^ (0.857 : ℝ) else z) * Sc g H := by
    intro y z hy hyz
    refine mul_lt_mul_of_pos_right ?_ hS
    cases dc
    · simpa using hyz
    · simpa using Real.rpow_lt_rpow hy.le hyz (by norm_num)
  have hlt : a < R → Q H c G x (R - 0.4 * w) <
      Q H c G x (R - 0.4 * w) * (1 + 0.075 * ((R - a) / H) * Q H c G x (R - 0.4 * w) ^ (-0.3 : ℝ)) := by
    intro h
    have : 0 < (R - a) / H := div_pos (by linarith) hH
    refine lt_mul_of_one_lt_right h0 ?_
    have : 0 < 0.075 * ((R - a) / H) * Q H c G x (R - 0.4 * w) ^ (-0.3 : ℝ) := by positivity
    linarith
  have heq : a = R → Q H c G x (R - 0.4 * w) *
      (1 + 0.075 * ((R - a) / H) * Q H c G x (R - 0.4 * w) ^ (-0.3 : ℝ)) = Q H c G x (R - 0.4 * w) := by
    rintro rfl; simp
  refine ⟨_, _, _, ?_, ?_, ?_, hq R w g dc hg, hw R w g dc hg ha⟩
  · rcases ha.eq_or_lt with h | h
    · rw [heq h]
    · exact (hm _ _ h0 (hlt h)).le
  · intro h; rw [heq h]
  · intro h; exact hm _ _ h0 (hlt h)

example : ∃ (q q' : ℝ) (m : Bool), q ≤ q' ∧ ((3.5 : ℝ) = 4 → q' = q) ∧ ((3.5 : ℝ) < 4 → q < q') ∧
    (calculate_overtopping_discharge_q (fin 2) (fin 0.3) (fin 7) (fin 4) (fin 3.5) (fin 2) (fin 25)
      0.0 (fin 0) (fin 0.8) nan nan (fin 1.05) nan (fin 9.81) true false).res = .ok (fin q, m) ∧
    (calculate_overtopping_discharge_q (fin 2) (fin 0.3) (fin 7) (fin 4) (fin 3.5) (fin 2) (fin 25)
      0.0 (fin 0) (fin 0.8) nan nan (fin 1.05) nan (fin 9.81) true true).res = .ok (fin q', m) :=
  C77_wind_discharge 2 7 2 1.05 0.3 4 3.5 9.81 (fin 25) 0.0 (fin 0) (fin 0.8) nan nan nan true
    ⟨by norm_num, by norm_num, by norm_num, by norm_num,
      Or.inr ⟨rfl, 0.8, rfl, by norm_num, by norm_num⟩,
      Or.inr ⟨rfl, rfl, 3.5, 0, rfl, rfl, by norm_num, by norm_num⟩, Or.inr ⟨rfl, 25, rfl⟩⟩
    (by norm_num) (by norm_num)

/-- Wind in the freeboard: if the crest found without wind is at or above the armour crest, the iteration
with wind returns a number, and never a lower crest. -/
theorem C77_wind_freeboard (H T c gv w q r a : ℝ) (m : Bool) (beta B db D gf gb gB : PF) (dc : Bool)
    (X : Ok H T c gv (fin a) beta B db D gf gb gB) (hq : 0 < q)
    (h : (calculate_crest_freeboard_Rc (fin H) (fin w) (fin T) (fin q) (fin a) (fin c) beta B db D gf gb
        (fin gv) gB dc false).res = .ok (fin r, m)) (hr : a ≤ r) :
    ∃ (r' : ℝ) (m' : Bool), r ≤ r' ∧
      (calculate_crest_freeboard_Rc (fin H) (fin w) (fin T) (fin q) (fin a) (fin c) beta B db D gf gb
        (fin gv) gB dc true).res = .ok (fin r', m') := by
  obtain ⟨-, -, -, -, -, hR, -⟩ := both_wind X
  exact hR q w r dc m hq h hr

example : ∃ (q r' : ℝ) (m' : Bool), 4 ≤ r' ∧
    (calculate_overtopping_discharge_q (fin 2) (fin 0.3) (fin 7) (fin 4) (fin 3.5) (fin 2) (fin 25)
      0.0 (fin 0) (fin 0.8) nan nan (fin 1.05) nan (design_calculation := false)).res = .ok (fin q, m') ∧
    ∃ m'', (calculate_crest_freeboard_Rc (fin 2) (fin 0.3) (fin 7) (fin q) (fin 3.5) (fin 2) (fin 25)
      0.0 (fin 0) (fin 0.8) nan nan (fin 1.05) nan false true).res = .ok (fin r', m'') := by
  have X : Ok 2 7 2 1.05 (fin 3.5) (fin 25) 0.0 (fin 0) (fin 0.8) nan nan nan :=
    ⟨by norm_num, by norm_num, by norm_num, by norm_num,
      Or.inr ⟨rfl, 0.8, rfl, by norm_num, by norm_num⟩,
      Or.inr ⟨rfl, rfl, 3.5, 0, rfl, rfl, by norm_num, by norm_num⟩, Or.inr ⟨rfl, 25, rfl⟩⟩
  obtain ⟨q, m, h0, h1, h2⟩ := (C54_mean_value_partial 2 7 2 1.05 0.3 _ _ _ _ _ _ _ _ X).1 4
  obtain ⟨r', m', h3, h4⟩ := C77_wind_freeboard 2 7 2 1.05 0.3 q 4 3.5 m _ _ _ _ _ _ _ false X h0 h2
    (by norm_num)
  exact ⟨q, r', m, h3, h1, m', h4⟩

/-- Mean-value calculation at any gravity other than 9.81: the discharge function has a gravity argument
and the freeboard function has none, so for every input the freeboard returned is not the one the
discharge was computed for. -/
theorem C54_other_gravity_refuted (H T c gv w R g : ℝ) (Ac beta B db D gf gb gB : PF)
    (X : Ok H T c gv Ac beta B db D gf gb gB) (hg : 0 < g) (hne : g ≠ 9.81) :
    ∃ (q R' : ℝ) (m m' : Bool), R' ≠ R ∧
      (calculate_overtopping_discharge_q (fin H) (fin w) (fin T) (fin R) Ac (fin c) beta B db D gf gb
        (fin gv) gB (fin g) (design_calculation := false)).res = .ok (fin q, m) ∧
      (calculate_crest_freeboard_Rc (fin H) (fin w) (fin T) (fin q) Ac (fin c) beta B db D gf gb
        (fin gv) gB (design_calculation := false)).res = .ok (fin R', m') := by
  obtain ⟨G, x, hG, hx, hq, hR⟩ := both X
  have hS := Sc_pos (g := 9.81) (by norm_num) X.hH
  have hS' := Sc_pos hg X.hH
  have h0 := Q_pos (H := H) (G := G) (x := x) X.hc (R - 0.4 * w)
  refine ⟨_, _, _, _, ?_, hq R w g false hg, hR _ w false (mul_pos h0 hS')⟩
  simp only [Bool.false_eq_true, if_false]
  intro he
  have hy : 0 < Q H c G x (R - 0.4 * w) * Sc g H / Sc 9.81 H := by positivity
  have t := (two_L (A1_pos X.hc) (A2_pos X.hc) (k1_pos X.hH hG hx) (k2_pos X.hH hG hx) hy).1
  rw [eq_sub_of_add_eq he] at t
  change Q H c G x (R - 0.4 * w) = _ at t
  rw [eq_div_iff hS.ne'] at t
  have h2 := mul_left_cancel₀ h0.ne' t
  have hH := X.hH
  unfold OvertoppingTaw2002.Sc at h2
  rw [Real.sqrt_inj (by positivity) (by positivity)] at h2
  exact hne (mul_right_cancel₀ (by positivity) h2).symm

example : ∃ (q R' : ℝ) (m m' : Bool), R' ≠ 4 ∧
    (calculate_overtopping_discharge_q (fin 2) (fin 0.3) (fin 7) (fin 4) (fin 3.5) (fin 2) (fin 25)
      0.0 (fin 0) (fin 0.8) nan nan (fin 1.05) nan (fin 9.8) (design_calculation := false)).res
      = .ok (fin q, m) ∧
    (calculate_crest_freeboard_Rc (fin 2) (fin 0.3) (fin 7) (fin q) (fin 3.5) (fin 2) (fin 25)
      0.0 (fin 0) (fin 0.8) nan nan (fin 1.05) nan (design_calculation := false)).res
      = .ok (fin R', m') :=
  C54_other_gravity_refuted 2 7 2 1.05 0.3 4 9.8 (fin 3.5) (fin 25) 0.0 (fin 0) (fin 0.8) nan nan nan
    ⟨by norm_num, by norm_num, by norm_num, by norm_num,
      Or.inr ⟨rfl, 0.8, rfl, by norm_num, by norm_num⟩,
      Or.inr ⟨rfl, rfl, 3.5, 0, rfl, rfl, by norm_num, by norm_num⟩, Or.inr ⟨rfl, 25, rfl⟩⟩
    (by norm_num) (by norm_num)

end
end OvertoppingMoreProofs
end
