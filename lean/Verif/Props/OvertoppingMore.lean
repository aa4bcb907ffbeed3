import Verif.Lemmas.OvertoppingMore

/-!
# C53-C56: overtopping formulas of Van Gent (2021 caissons, 2025 slopes) and De Ridder (2024, 2026)
-/

open Classical
open PF CorePhysics CoreUtility
noncomputable section

namespace OvertoppingMoreProofs
open TwoFormulas MoreOvertopping
open OvertoppingTaw2002 (Sc Sc_pos Sc_eval)

/-! ## C55 De Ridder 2024 -/
section
open DeRidder2024

/-- Equation 24 at gravity 9.81: discharge and freeboard undo each other for every freeboard and every
positive discharge, and a higher crest means less overtopping. -/
theorem C55_eq24_partial (H s gf : ℝ) (hH : 0 < H) (hs : 0 < s) (hf : 0 < gf) :
    InverseOnReals
      (fun R => calculate_overtopping_discharge_q_eq24 (fin H) (fin s) (fin gf) R)
      (fun q => calculate_crest_freeboard_discharge_q_eq24 (fin H) (fin s) (fin gf) q) ∧
    StrictlyDecreasingOnReals
      (fun R => calculate_overtopping_discharge_q_eq24 (fin H) (fin s) (fin gf) R) := by
  have hp := rpow_pos' (y := 0.32) hs
  have h8 : (0 : ℝ) < 8.51 := by norm_num
  exact pair (A := 0.74) (by norm_num) (by positivity) (Sc_pos (g := 9.81) (by norm_num) hH)
    (fun R => q24_res hH hs hf (by norm_num)) (fun q hq => R24_res (g := 9.81) hH hs hf hq)

example : ∃ q : ℝ, 0 < q ∧
    (calculate_overtopping_discharge_q_eq24 (fin 2) (fin 0.02) (fin 0.5) (fin 3)).res = .ok (fin q) ∧
    (calculate_crest_freeboard_discharge_q_eq24 (fin 2) (fin 0.02) (fin 0.5) (fin q)).res
      = .ok (fin 3) :=
  (C55_eq24_partial 2 0.02 0.5 (by norm_num) (by norm_num) (by norm_num)).1.1 3

/-- Equation 24 at any other gravity: the freeboard function accepts `g` but computes with 9.81, so for
every input it does not give back the freeboard of the discharge. -/
theorem C55_eq24_gravity_refuted (H s gf g R : ℝ) (hH : 0 < H) (hs : 0 < s) (hf : 0 < gf) (hg : 0 < g)
    (hne : g ≠ 9.81) : ∃ q R' : ℝ, R' ≠ R ∧
    (calculate_overtopping_discharge_q_eq24 (fin H) (fin s) (fin gf) (fin R) (fin g)).res
      = .ok (fin q) ∧
    (calculate_crest_freeboard_discharge_q_eq24 (fin H) (fin s) (fin gf) (fin q) (fin g)).res
      = .ok (fin R') := by
  have hp := rpow_pos' (y := 0.32) hs
  have h8 : (0 : ℝ) < 8.51 := by norm_num
  have h7 : (0 : ℝ) < 0.74 := by norm_num
  have hS' := Sc_pos hg hH
  have hS := Sc_pos (g := 9.81) (by norm_num) hH
  have hk : 0 < 8.51 * s ^ (0.32 : ℝ) / (H * gf) := by positivity
  have h0 := mul_pos (E_pos h7 (8.51 * s ^ (0.32 : ℝ) / (H * gf)) (R - 0)) hS'
  refine ⟨_, _, ?_, q24_res hH hs hf hg, R24_res hH hs hf h0⟩
  generalize 8.51 * s ^ (0.32 : ℝ) / (H * gf) = k at *
  rw [sub_zero, add_zero] at *
  intro he
  have h1 : E 0.74 k (L 0.74 k (E 0.74 k R * Sc g H / Sc 9.81 H)) = E 0.74 k R := by rw [he]
  rw [E_L h7 hk (by positivity), div_eq_iff hS.ne'] at h1
  have h2 := mul_left_cancel₀ (E_pos h7 k R).ne' h1
  unfold OvertoppingTaw2002.Sc at h2
  rw [Real.sqrt_inj (by positivity) (by positivity)] at h2
  exact hne (mul_right_cancel₀ (by positivity) h2)

example : ∃ q R' : ℝ, R' ≠ 3 ∧
    (calculate_overtopping_discharge_q_eq24 (fin 2) (fin 0.02) (fin 0.5) (fin 3) (fin 9.8)).res
      = .ok (fin q) ∧
    (calculate_crest_freeboard_discharge_q_eq24 (fin 2) (fin 0.02) (fin 0.5) (fin q) (fin 9.8)).res
      = .ok (fin R') :=
  C55_eq24_gravity_refuted 2 0.02 0.5 9.8 3 (by norm_num) (by norm_num) (by norm_num) (by norm_num)
    (by norm_num)

/-- Equation 26: discharge and freeboard undo each other for any gravity and any infragravity wave
height, and a higher crest means less overtopping. -/
theorem C55_eq26 (H s w gf g : ℝ) (hH : 0 < H) (hs : 0 < s) (hf : 0 < gf) (hg : 0 < g) :
    InverseOnReals
      (fun R => calculate_overtopping_discharge_q_eq26 (fin H) (fin s) (fin w) (fin gf) R (fin g))
      (fun q => calculate_crest_freeboard_discharge_q_eq26 (fin H) (fin s) (fin w) (fin gf) q (fin g)) ∧
    StrictlyDecreasingOnReals
      (fun R => calculate_overtopping_discharge_q_eq26 (fin H) (fin s) (fin w) (fin gf) R (fin g)) := by
  have hp := rpow_pos' (y := 0.30) hs
  have h8 : (0 : ℝ) < 7.91 := by norm_num
  exact pair (A := 0.50) (by norm_num) (by positivity) (Sc_pos hg hH)
    (fun R => q26_res hH hs hf hg) (fun q hq => R26_res hH hs hf hg hq)

example : ∃ q : ℝ, 0 < q ∧
    (calculate_overtopping_discharge_q_eq26 (fin 2) (fin 0.02) (fin 0.6) (fin 0.5) (fin 3)
      (fin 9.8)).res = .ok (fin q) ∧
    (calculate_crest_freeboard_discharge_q_eq26 (fin 2) (fin 0.02) (fin 0.6) (fin 0.5) (fin q)
      (fin 9.8)).res = .ok (fin 3) :=
  (C55_eq26 2 0.02 0.6 0.5 9.8 (by norm_num) (by norm_num) (by norm_num) (by norm_num)).1.1 3

/-- Equation 26 with the default gravity on both sides. -/
theorem C55_eq26_default (H s w gf : ℝ) (hH : 0 < H) (hs : 0 < s) (hf : 0 < gf) :
    InverseOnReals
      (fun R => calculate_overtopping_discharge_q_eq26 (fin H) (fin s) (fin w) (fin gf) R)
      (fun q => calculate_crest_freeboard_discharge_q_eq26 (fin H) (fin s) (fin w) (fin gf) q) :=
  (C55_eq26 H s w gf 9.81 hH hs hf (by norm_num)).1

example : ∃ q : ℝ, 0 < q ∧
    (calculate_overtopping_discharge_q_eq26 (fin 2) (fin 0.02) (fin 0.6) (fin 0.5) (fin 3)).res
      = .ok (fin q) ∧
    (calculate_crest_freeboard_discharge_q_eq26 (fin 2) (fin 0.02) (fin 0.6) (fin 0.5) (fin q)).res
      = .ok (fin 3) :=
  (C55_eq26_default 2 0.02 0.6 0.5 (by norm_num) (by norm_num) (by norm_num)).1 3

/-- Without infragravity waves the two equations stay different formulas, but in both the
infragravity waves of equation 26 act exactly as a crest lowered by 0.21 of their height. -/
theorem C55_eq26_infragravity_lowers_crest (H s w gf g R : ℝ) (hH : 0 < H) (hs : 0 < s) (hf : 0 < gf)
    (hg : 0 < g) :
    (calculate_overtopping_discharge_q_eq26 (fin H) (fin s) (fin w) (fin gf) (fin R) (fin g)).res =
    (calculate_overtopping_discharge_q_eq26 (fin H) (fin s) (fin 0) (fin gf) (fin (R - 0.21 * w))
      (fin g)).res := by
  rw [q26_res hH hs hf hg, q26_res hH hs hf hg, mul_zero, sub_zero]

example : (calculate_overtopping_discharge_q_eq26 (fin 2) (fin 0.02) (fin 0.6) (fin 0.5) (fin 3)
      (fin 9.81)).res =
    (calculate_overtopping_discharge_q_eq26 (fin 2) (fin 0.02) (fin 0) (fin 0.5)
      (fin (3 - 0.21 * 0.6)) (fin 9.81)).res :=
  C55_eq26_infragravity_lowers_crest 2 0.02 0.6 0.5 9.81 3 (by norm_num) (by norm_num) (by norm_num)
    (by norm_num)
end

/-! ## C56 De Ridder 2026 -/
section
open DeRidder2026

/-- Equation 28: inverse for any gravity and any wave direction; a higher crest means less
overtopping. -/
theorem C56_eq28 (H s gf g t : ℝ) (hH : 0 < H) (hs : 0 < s) (hf : 0 < gf) (hg : 0 < g) :
    InverseOnReals
      (fun R => calculate_overtopping_discharge_q_eq28 (fin H) (fin s) (fin gf) R (fin g) (fin t))
      (fun q => calculate_crest_freeboard_discharge_q_eq28 (fin H) (fin s) (fin gf) q (fin g) (fin t)) ∧
    StrictlyDecreasingOnReals
      (fun R => calculate_overtopping_discharge_q_eq28 (fin H) (fin s) (fin gf) R (fin g) (fin t)) := by
  obtain ⟨r, e, h35, -, -⟩ := gamma_eval t
  have hr : 0 < r := lt_of_lt_of_le (by norm_num) h35
  have hp := rpow_pos' (y := 0.36) hs
  have h8 : (0 : ℝ) < 6.93 := by norm_num
  exact pair (A := 0.16) (by norm_num) (by positivity) (Sc_pos hg hH)
    (fun R => q28_res hH hs hf hg hr e) (fun q hq => R28_res hH hs hf hg hr e hq)

example : ∃ q : ℝ, 0 < q ∧
    (calculate_overtopping_discharge_q_eq28 (fin 2) (fin 0.02) (fin 0.5) (fin 3) (fin 9.8)
      (fin 30)).res = .ok (fin q) ∧
    (calculate_crest_freeboard_discharge_q_eq28 (fin 2) (fin 0.02) (fin 0.5) (fin q) (fin 9.8)
      (fin 30)).res = .ok (fin 3) :=
  (C56_eq28 2 0.02 0.5 9.8 30 (by norm_num) (by norm_num) (by norm_num) (by norm_num)).1.1 3

/-- Equation 32: the same. -/
theorem C56_eq32 (H s w gf g t : ℝ) (hH : 0 < H) (hs : 0 < s) (hf : 0 < gf) (hg : 0 < g) :
    InverseOnReals
      (fun R => calculate_overtopping_discharge_q_eq32 (fin H) (fin s) (fin w) (fin gf) R (fin g)
        (fin t))
      (fun q => calculate_crest_freeboard_discharge_q_eq32 (fin H) (fin s) (fin w) (fin gf) q (fin g)
        (fin t)) ∧
    StrictlyDecreasingOnReals
      (fun R => calculate_overtopping_discharge_q_eq32 (fin H) (fin s) (fin w) (fin gf) R (fin g)
        (fin t)) := by
  obtain ⟨r, e, h35, -, -⟩ := gamma_eval t
  have hr : 0 < r := lt_of_lt_of_le (by norm_num) h35
  have hp := rpow_pos' (y := 0.50) hs
  have h8 : (0 : ℝ) < 10.40 := by norm_num
  exact pair (A := 0.05) (by norm_num) (by positivity) (Sc_pos hg hH)
    (fun R => q32_res hH hs hf hg hr e) (fun q hq => R32_res hH hs hf hg hr e hq)

example : ∃ q : ℝ, 0 < q ∧
    (calculate_overtopping_discharge_q_eq32 (fin 2) (fin 0.02) (fin 0.6) (fin 0.5) (fin 3) (fin 9.8)
      (fin 30)).res = .ok (fin q) ∧
    (calculate_crest_freeboard_discharge_q_eq32 (fin 2) (fin 0.02) (fin 0.6) (fin 0.5) (fin q)
      (fin 9.8) (fin 30)).res = .ok (fin 3) :=
  (C56_eq32 2 0.02 0.6 0.5 9.8 30 (by norm_num) (by norm_num) (by norm_num) (by norm_num)).1.1 3

/-- Both equations with the default gravity and direction. -/
theorem C56_defaults (H s w gf : ℝ) (hH : 0 < H) (hs : 0 < s) (hf : 0 < gf) :
    InverseOnReals
      (fun R => calculate_overtopping_discharge_q_eq28 (fin H) (fin s) (fin gf) R)
      (fun q => calculate_crest_freeboard_discharge_q_eq28 (fin H) (fin s) (fin gf) q) ∧
    InverseOnReals
      (fun R => calculate_overtopping_discharge_q_eq32 (fin H) (fin s) (fin w) (fin gf) R)
      (fun q => calculate_crest_freeboard_discharge_q_eq32 (fin H) (fin s) (fin w) (fin gf) q) :=
  ⟨(C56_eq28 H s gf 9.81 0.0 hH hs hf (by norm_num)).1,
   (C56_eq32 H s w gf 9.81 0.0 hH hs hf (by norm_num)).1⟩

example : ∃ q : ℝ, 0 < q ∧
    (calculate_overtopping_discharge_q_eq32 (fin 2) (fin 0.02) (fin 0.6) (fin 0.5) (fin 3)).res
      = .ok (fin q) ∧
    (calculate_crest_freeboard_discharge_q_eq32 (fin 2) (fin 0.02) (fin 0.6) (fin 0.5) (fin q)).res
      = .ok (fin 3) :=
  (C56_defaults 2 0.02 0.6 0.5 (by norm_num) (by norm_num) (by norm_num)).2.1 3

/-- The obliqueness factor is symmetric, between 0.35 and 1, and 1 for perpendicular waves. -/
theorem C56_oblique (t : ℝ) : (∃ r : ℝ, calculate_gamma_beta (fin t) = fin r ∧ 0.35 ≤ r ∧ r ≤ 1) ∧
    calculate_gamma_beta (fin (-t)) = calculate_gamma_beta (fin t) ∧
    calculate_gamma_beta (fin 0) = fin 1 := by
  obtain ⟨r, e, h1, h2, h3⟩ := gamma_eval t
  refine ⟨⟨r, e, h1, h2⟩, by rw [e, h3], ?_⟩
  unfold calculate_gamma_beta
  simp only [sci_eq]
  pf_eval [PF.abs, PF.deg2rad, PF.cos, npow_two]
  norm_num

example : ∃ r : ℝ, calculate_gamma_beta (fin (-40)) = fin r ∧ 0.35 ≤ r ∧ r ≤ 1 := (C56_oblique (-40)).1
end

/-! ## C53 Van Gent 2021, caissons -/
section
open VanGent2021Caisson

/-- Exponent 1 with every option combination the formula supports (any crest wall, short-crested, long-
crested or crossing seas), any gravity, given or computed obliqueness: discharge and freeboard undo each
other for every freeboard, and a higher crest means less overtopping.  A swell height has to be given. -/
theorem C53_exponent_one_partial (H g w cw : ℝ) (beta gB : PF) (sc cs pp : Bool) (hH : 0 < H)
    (hg : 0 < g) (hopt : sc = true ∨ cs = true ∨ pp = false)
    (hB : (∃ r : ℝ, gB = fin r ∧ 0 < r) ∨ (gB = nan ∧ ∃ b : ℝ, beta = fin b)) :
    InverseOnReals
      (fun R => calculate_overtopping_discharge_q (fin H) R beta gB (fin w) 1.0 (fin cw) sc cs pp (fin g))
      (fun q => calculate_crest_freeboard_Rc (fin H) q beta gB (fin w) 1.0 (fin cw) sc cs pp (fin g)) ∧
    StrictlyDecreasingOnReals
      (fun R => calculate_overtopping_discharge_q (fin H) R beta gB (fin w) 1.0 (fin cw) sc cs pp
        (fin g)) := by
  obtain ⟨b, cb, gp, hb, hcb, hlt, hc⟩ := coeff_one hopt
  obtain ⟨r, hr, er⟩ := factor_pos hB hcb hlt
  have hgp : 0 < gp := hcb.trans hlt
  have h2 : (0 : ℝ) < 0.2 := by norm_num
  have hS := Sc_pos hg hH
  refine pair (A := 0.2) (k := b / (r * gp) / H) (sh := (if cs then cw else 0) * w) h2 (by positivity)
    (Sc_pos hg hH) (fun R => ?_) (fun q hq => ?_)
  · refine (q_gen hH hg hc er hr hgp).trans ?_
    rw [pow_one, neg_fin, mul_fin, exp_fin, mul_fin, mul_fin]
    unfold E
    congr 5
    field_simp
  · refine (R_gen hH hg hq hc er h2 hb).trans ?_
    rw [inv_one, pow_one, add_fin, mul_fin]
    unfold L
    rw [one_div, ← div_eq_mul_inv]
    generalize Real.log (q / Sc g H / 0.2) = l
    congr 2
    field_simp

example : ∃ q : ℝ, 0 < q ∧
    (calculate_overtopping_discharge_q (fin 2) (fin 4) (fin 20) nan (fin 0.5) 1.0 (fin 0.4) true true
      true (fin 9.8)).res = .ok (fin q) ∧
    (calculate_crest_freeboard_Rc (fin 2) (fin q) (fin 20) nan (fin 0.5) 1.0 (fin 0.4) true true
      true (fin 9.8)).res = .ok (fin 4) :=
  (C53_exponent_one_partial 2 9.8 0.5 0.4 (fin 20) nan true true true (by norm_num) (by norm_num)
    (Or.inl rfl) (Or.inr ⟨rfl, 20, rfl⟩)).1.1 4

/-- Exponent 1.3: the same for crests at or above the swell correction and for discharges up to the
value the formula has there. -/
theorem C53_exponent_13_partial (H g w cw : ℝ) (beta gB : PF) (sc cs pp : Bool) (hH : 0 < H)
    (hg : 0 < g) (hopt : sc = true ∨ cs = true ∨ pp = false)
    (hB : (∃ r : ℝ, gB = fin r ∧ 0 < r) ∨ (gB = nan ∧ ∃ b : ℝ, beta = fin b)) :
    (∀ R : ℝ, (if cs then cw * w else 0) ≤ R → ∃ q : ℝ, 0 < q ∧
      (calculate_overtopping_discharge_q (fin H) (fin R) beta gB (fin w) 1.3 (fin cw) sc cs pp
        (fin g)).res = .ok (fin q) ∧
      (calculate_crest_freeboard_Rc (fin H) (fin q) beta gB (fin w) 1.3 (fin cw) sc cs pp
        (fin g)).res = .ok (fin R)) ∧
    (∀ q : ℝ, 0 < q → q ≤ 0.047 * √(g * H ^ 3) → ∃ R : ℝ, (if cs then cw * w else 0) ≤ R ∧
      (calculate_crest_freeboard_Rc (fin H) (fin q) beta gB (fin w) 1.3 (fin cw) sc cs pp
        (fin g)).res = .ok (fin R) ∧
      (calculate_overtopping_discharge_q (fin H) (fin R) beta gB (fin w) 1.3 (fin cw) sc cs pp
        (fin g)).res = .ok (fin q)) ∧
    (∀ R R' : ℝ, (if cs then cw * w else 0) ≤ R → R < R' → ∃ q q' : ℝ, q' < q ∧
      (calculate_overtopping_discharge_q (fin H) (fin R) beta gB (fin w) 1.3 (fin cw) sc cs pp
        (fin g)).res = .ok (fin q) ∧
      (calculate_overtopping_discharge_q (fin H) (fin R') beta gB (fin w) 1.3 (fin cw) sc cs pp
        (fin g)).res = .ok (fin q')) := by
  obtain ⟨b, cb, gp, hb, hcb, hlt, hc⟩ := coeff_13 hopt
  obtain ⟨r, hr, er⟩ := factor_pos hB hcb hlt
  have hgp : 0 < gp := hcb.trans hlt
  have ha : (0 : ℝ) < 0.047 := by norm_num
  have hS := Sc_pos hg hH
  have es : (if cs then cw * w else 0) = (if cs then cw else 0) * w := by
    cases cs <;> simp
  rw [es]
  have hB0 : 0 < b / (r * gp) := by positivity
  have eB : -r * gp / b = -(1 / (b / (r * gp))) := by field_simp
  have e13 : (13 / 10 : ℝ) ≠ 0 := by norm_num
  -- the two formulas
  have hq : ∀ R : ℝ, (if cs then cw else 0) * w ≤ R →
      (calculate_overtopping_discharge_q (fin H) (fin R) beta gB (fin w) 1.3 (fin cw) sc cs pp
        (fin g)).res = .ok (fin (0.047 * Real.exp (-(b / (r * gp) *
          ((R - (if cs then cw else 0) * w) / H) ^ (1.3 : ℝ))) * Sc g H)) := by
    intro R hR
    refine (q_gen hH hg hc er hr hgp).trans ?_
    have h0 : 0 ≤ (R - (if cs then cw else 0) * w) / H := div_nonneg (by linarith) hH.le
    rw [OvertoppingEurOtop2018.pow_13 h0, neg_fin, mul_fin, exp_fin, mul_fin, mul_fin, neg_mul]
  have hR : ∀ q : ℝ, 0 < q → q ≤ 0.047 * Sc g H →
      (calculate_crest_freeboard_Rc (fin H) (fin q) beta gB (fin w) 1.3 (fin cw) sc cs pp
        (fin g)).res = .ok (fin ((-Real.log (q / Sc g H / 0.047) / (b / (r * gp))) ^ (1 / 1.3 : ℝ) * H +
          (if cs then cw else 0) * w)) ∧ 0 ≤ -Real.log (q / Sc g H / 0.047) / (b / (r * gp)) := by
    intro q hq hle
    have h0 : 0 ≤ -Real.log (q / Sc g H / 0.047) / (b / (r * gp)) := by
      refine div_nonneg (neg_nonneg.mpr (Real.log_nonpos (by positivity) ?_)) hB0.le
      rw [div_div, div_le_one (by positivity), mul_comm]
      exact hle
    refine ⟨(R_gen hH hg hq hc er ha hb).trans ?_, h0⟩
    have e : Real.log (q / Sc g H * (1 / 0.047)) * (-r * gp / b) =
        -Real.log (q / Sc g H / 0.047) / (b / (r * gp)) := by
      rw [one_div, ← div_eq_mul_inv, eB]
      generalize Real.log (q / Sc g H / 0.047) = l
      field_simp
    rw [e, OvertoppingEurOtop2018.pow_inv h0, add_fin, mul_fin]
    congr 2
    generalize (-Real.log (q / Sc g H / 0.047) / (b / (r * gp))) ^ (1 / 1.3 : ℝ) = y
    field_simp
  refine ⟨fun R h => ?_, fun q h0 hle => ?_, fun R R' h hlt => ?_⟩
  · have h0 : 0 ≤ (R - (if cs then cw else 0) * w) / H := div_nonneg (by linarith) hH.le
    have hx : 0 ≤ b / (r * gp) * ((R - (if cs then cw else 0) * w) / H) ^ (1.3 : ℝ) := by positivity
    have hpos : 0 < 0.047 * Real.exp (-(b / (r * gp) *
          ((R - (if cs then cw else 0) * w) / H) ^ (1.3 : ℝ))) * Sc g H :=
      mul_pos (mul_pos ha (Real.exp_pos _)) hS
    refine ⟨_, hpos, hq R h, ?_⟩
    have hle : 0.047 * Real.exp (-(b / (r * gp) *
          ((R - (if cs then cw else 0) * w) / H) ^ (1.3 : ℝ))) * Sc g H ≤ 0.047 * Sc g H := by
      refine mul_le_mul_of_nonneg_right ?_ hS.le
      exact mul_le_of_le_one_right ha.le (Real.exp_le_one_iff.mpr (by linarith))
    rw [(hR _ hpos hle).1, mul_div_cancel_right₀ _ hS.ne', mul_div_cancel_left₀ _ ha.ne', Real.log_exp,
      neg_neg, mul_div_cancel_left₀ _ hB0.ne', ← Real.rpow_mul h0, mul_one_div_cancel (by norm_num),
      Real.rpow_one, div_mul_cancel₀ _ hH.ne']
    congr 2
    ring
  · obtain ⟨h1, h2⟩ := hR q h0 hle
    have h3 : 0 ≤ (-Real.log (q / Sc g H / 0.047) / (b / (r * gp))) ^ (1 / 1.3 : ℝ) :=
      Real.rpow_nonneg h2 _
    refine ⟨_, le_add_of_nonneg_left (mul_nonneg h3 hH.le), h1, ?_⟩
    rw [hq _ (le_add_of_nonneg_left (mul_nonneg h3 hH.le)), add_sub_cancel_right,
      mul_div_cancel_right₀ _ hH.ne', ← Real.rpow_mul h2, one_div_mul_cancel (by norm_num), Real.rpow_one,
      mul_div_cancel₀ _ hB0.ne', neg_neg, Real.exp_log (by positivity), mul_div_cancel₀ _ ha.ne',
      div_mul_cancel₀ _ hS.ne']
  · refine ⟨_, _, ?_, hq R h, hq R' (h.trans hlt.le)⟩
    refine mul_lt_mul_of_pos_right (mul_lt_mul_of_pos_left (Real.exp_lt_exp.mpr (neg_lt_neg ?_)) ha) hS
    refine mul_lt_mul_of_pos_left (Real.rpow_lt_rpow (div_nonneg (by linarith) hH.le) ?_ (by norm_num))
      hB0
    exact div_lt_div_of_pos_right (by linarith) hH

example : ∃ q : ℝ, 0 < q ∧
    (calculate_overtopping_discharge_q (fin 2) (fin 4) (fin 20) nan (fin 0.5) 1.3 (fin 0.4) false true
      true (fin 9.8)).res = .ok (fin q) ∧
    (calculate_crest_freeboard_Rc (fin 2) (fin q) (fin 20) nan (fin 0.5) 1.3 (fin 0.4) false true
      true (fin 9.8)).res = .ok (fin 4) :=
  (C53_exponent_13_partial 2 9.8 0.5 0.4 (fin 20) nan false true true (by norm_num) (by norm_num)
    (Or.inr (Or.inl rfl)) (Or.inr ⟨rfl, 20, rfl⟩)).1 4 (by norm_num)

/-- Exponent 1.3 with a crest below the swell correction: the discharge is NaN. -/
theorem C53_exponent_13_low_crest_refuted (H g w cw R : ℝ) (beta gB : PF) (sc cs pp : Bool) (hH : 0 < H)
    (hg : 0 < g) (hopt : sc = true ∨ cs = true ∨ pp = false)
    (hB : (∃ r : ℝ, gB = fin r ∧ 0 < r) ∨ (gB = nan ∧ ∃ b : ℝ, beta = fin b))
    (hR : R < (if cs then cw * w else 0)) :
    (calculate_overtopping_discharge_q (fin H) (fin R) beta gB (fin w) 1.3 (fin cw) sc cs pp
        (fin g)).res = .ok nan := by
  obtain ⟨b, cb, gp, hb, hcb, hlt, hc⟩ := coeff_13 hopt
  obtain ⟨r, hr, er⟩ := factor_pos hB hcb hlt
  refine (q_gen hH hg hc er hr (hcb.trans hlt)).trans ?_
  have es : (if cs then cw * w else 0) = (if cs then cw else 0) * w := by
    cases cs <;> simp
  rw [OvertoppingEurOtop2018.pow_13_neg (div_neg_of_neg_of_pos (by rw [es] at hR; linarith) hH), mul_nan]
  rfl

example : (calculate_overtopping_discharge_q (fin 2) (fin (-1)) (fin 20) nan (fin 0.5) 1.3 (fin 0.4)
    false false false (fin 9.8)).res = .ok nan :=
  C53_exponent_13_low_crest_refuted 2 9.8 0.5 0.4 (-1) (fin 20) nan false false false (by norm_num)
    (by norm_num) (by simp) (Or.inr ⟨rfl, 20, rfl⟩) (by norm_num)

/-- Without crossing seas the swell height is multiplied by zero but still used: leaving it out (the
default) makes both results NaN, whatever the other arguments are. -/
theorem C53_swell_default_refuted (H x beta gB c cw g : PF) (sc pp : Bool) :
    (∀ v, (calculate_overtopping_discharge_q H x beta gB nan c cw sc false pp g).res = .ok v → v = nan) ∧
    (∀ v, (calculate_crest_freeboard_Rc H x beta gB nan c cw sc false pp g).res = .ok v → v = nan) := by
  constructor <;> intro v h
  · unfold calculate_overtopping_discharge_q calculate_dimensionless_overtopping_discharge_q
      swell_coefficient at h
    simp only [bind_assoc] at h
    obtain ⟨k, hk, h, -⟩ := PyM.bind_inv h
    have hc : c ≠ fin 0 := by
      rintro rfl
      unfold determine_coefficients at hk
      rw [sci_eq, sci_eq, if_neg (by show ¬ (0 : ℝ) = 1.0; norm_num),
        if_neg (by show ¬ (0 : ℝ) = 1.3; norm_num)] at hk
      cases hk
    simp only [Bool.not_false, if_true, pure_bind, mul_nan, sub_nan, nan_div, npow_nan_left hc] at h
    rw [PyM.bind_res_of_ok (check_res ..)] at h
    have e : ∀ x z : PF, x * PF.exp nan * z = nan := by
      intro x z
      show x * nan * z = nan
      rw [mul_nan, nan_mul]
    rw [e] at h
    cases h; rfl
  · unfold calculate_crest_freeboard_Rc calculate_dimensionless_crest_freeboard
      swell_coefficient at h
    simp only [bind_assoc] at h
    obtain ⟨k, -, h, -⟩ := PyM.bind_inv h
    simp only [Bool.not_false, if_true, pure_bind, mul_nan, nan_div, add_nan, nan_mul] at h
    rw [PyM.bind_res_of_ok (check_res ..)] at h
    cases h; rfl

example : (calculate_overtopping_discharge_q (fin 2) (fin 4) (fin 20)).res = .ok nan := by
  have h : ∃ v, (calculate_overtopping_discharge_q (fin 2) (fin 4) (fin 20)).res = .ok v := by
    obtain ⟨b, cb, gp, -, -, -, hc⟩ := coeff_one (sc := true) (cs := false) (pp := false) (Or.inl rfl)
    unfold calculate_overtopping_discharge_q calculate_dimensionless_overtopping_discharge_q
      swell_coefficient
    simp only [bind_assoc, hc, pure_bind, Bool.not_false, if_true]
    rw [PyM.bind_res_of_ok (check_res ..)]
    exact ⟨_, rfl⟩
  obtain ⟨v, h⟩ := h
  rw [h, (C53_swell_default_refuted _ _ _ _ _ _ _ _ _).1 v h]

/-- Combinations without published coefficients are refused: a parapet in long-crested seas, an exponent
other than 1 and 1.3, and crossing seas without a swell height.  Nothing is returned for them. -/
theorem C53_refused (H x beta gB w c cw g : PF) (sc cs pp : Bool) :
    ((sc = false ∧ cs = false ∧ pp = true) ∨ (¬ PF.eqF c 1.0 ∧ ¬ PF.eqF c 1.3) ∨
      (cs = true ∧ w.isnan) →
    (calculate_overtopping_discharge_q H x beta gB w c cw sc cs pp g).res = .error .valueError ∧
    (calculate_crest_freeboard_Rc H x beta gB w c cw sc cs pp g).res = .error .valueError) := by
  intro h
  have hk : determine_coefficients c sc cs pp = PyM.raise .valueError ∨
      ((∃ k, determine_coefficients c sc cs pp = pure k) ∧
        swell_coefficient cw w cs = PyM.raise .valueError) := by
    rcases h with ⟨rfl, rfl, rfl⟩ | ⟨h1, h2⟩ | ⟨rfl, h1⟩
    · left
      unfold determine_coefficients
      split_ifs <;> simp_all
    · left
      unfold determine_coefficients
      rw [if_neg h1, if_neg h2]
    · have hs : swell_coefficient cw w true = PyM.raise .valueError := by
        unfold swell_coefficient
        simp [h1]
      by_cases h2 : PF.eqF c 1.0
      · right
        refine ⟨⟨(0.2, 3.9, 0.75, if pp then 0.89 else 1.0), ?_⟩, hs⟩
        unfold determine_coefficients
        rw [if_pos h2, if_pos (by simp)]
      · by_cases h3 : PF.eqF c 1.3
        · right
          refine ⟨⟨(0.047, 2.57, 0.70, if pp then 0.85 else 1.0), ?_⟩, hs⟩
          unfold determine_coefficients
          rw [if_neg h2, if_pos h3, if_pos (by simp)]
        · left
          unfold determine_coefficients
          rw [if_neg h2, if_neg h3]
  constructor
  · unfold calculate_overtopping_discharge_q calculate_dimensionless_overtopping_discharge_q
    rcases hk with hk | ⟨⟨k, hk⟩, hs⟩
    · rw [hk]; rfl
    · rw [hk]; simp only [pure_bind, hs]; rfl
  · unfold calculate_crest_freeboard_Rc calculate_dimensionless_crest_freeboard
    rcases hk with hk | ⟨⟨k, hk⟩, hs⟩
    · rw [hk]; rfl
    · rw [hk]; simp only [pure_bind, hs]; rfl

example : (calculate_crest_freeboard_Rc (fin 2) (fin 0.001) (fin 20) nan (fin 0.5) 1.0 0.4 false false
    true).res = .error .valueError :=
  (C53_refused _ _ _ _ _ _ _ _ _ _ _ (Or.inl ⟨rfl, rfl, rfl⟩)).2
end

/-! ## C54 Van Gent 2025 -/
section
open VanGent2025

/-- Mean-value calculation without wind at gravity 9.81: discharge and freeboard undo each other for
every freeboard and every positive discharge, and both calls agree on whether the maximum formula
governs.  The crest-wall factor has to be given; the other factors may be given or computed. -/
theorem C54_mean_value_partial (H T c gv w : ℝ) (Ac beta B db D gf gb gB : PF)
    (X : Ok H T c gv Ac beta B db D gf gb gB) :
    (∀ R : ℝ, ∃ (q : ℝ) (m : Bool), 0 < q ∧
      (calculate_overtopping_discharge_q (fin H) (fin w) (fin T) (fin R) Ac (fin c) beta B db D gf gb
        (fin gv) gB (design_calculation := false)).res = .ok (fin q, m) ∧
      (calculate_crest_freeboard_Rc (fin H) (fin w) (fin T) (fin q) Ac (fin c) beta B db D gf gb
        (fin gv) gB (design_calculation := false)).res = .ok (fin R, m)) ∧
    (∀ q : ℝ, 0 < q → ∃ (R : ℝ) (m : Bool),
      (calculate_crest_freeboard_Rc (fin H) (fin w) (fin T) (fin q) Ac (fin c) beta B db D gf gb
        (fin gv) gB (design_calculation := false)).res = .ok (fin R, m) ∧
      (calculate_overtopping_discharge_q (fin H) (fin w) (fin T) (fin R) Ac (fin c) beta B db D gf gb
        (fin gv) gB (design_calculation := false)).res = .ok (fin q, m)) := by
  obtain ⟨G, x, hG, hx, hq, hR⟩ := both X
  have hS := Sc_pos (g := 9.81) (by norm_num) X.hH
  have a1 := A1_pos X.hc
  have a2 := A2_pos X.hc
  have p1 := k1_pos X.hH hG hx
  have p2 := k2_pos X.hH hG hx
  constructor
  · intro R
    have h0 := Q_pos (H := H) (G := G) (x := x) X.hc (R - 0.4 * w)
    obtain ⟨t1, t2⟩ := two_E a1 a2 p1 p2 (R - 0.4 * w)
    refine ⟨_, _, mul_pos h0 hS, hq R w 9.81 false (by norm_num), ?_⟩
    refine (hR _ w false (mul_pos h0 hS)).trans ?_
    simp only [Bool.false_eq_true, if_false]
    rw [mul_div_cancel_right₀ _ hS.ne']
    unfold Q
    rw [t1, sub_add_cancel]
    exact congrArg (fun b => Except.ok (fin R, b)) (decide_eq_decide.mpr t2)
  · intro q h0
    have h1 : 0 < q / Sc 9.81 H := by positivity
    obtain ⟨t1, t2⟩ := two_L a1 a2 p1 p2 h1
    refine ⟨_, _, hR q w false h0, ?_⟩
    refine (hq _ w 9.81 false (by norm_num)).trans ?_
    simp only [Bool.false_eq_true, if_false]
    rw [add_sub_cancel_right]
    unfold Q
    rw [t1, div_mul_cancel₀ _ hS.ne']
    exact congrArg (fun b => Except.ok (fin q, b)) (decide_eq_decide.mpr t2)

example : ∃ (q : ℝ) (m : Bool), 0 < q ∧
    (calculate_overtopping_discharge_q (fin 2) (fin 0.3) (fin 7) (fin 4) (fin 3.5) (fin 2) (fin 25)
      0.0 (fin 0) (fin 0.8) nan nan (fin 1.05) nan (design_calculation := false)).res = .ok (fin q, m) ∧
    (calculate_crest_freeboard_Rc (fin 2) (fin 0.3) (fin 7) (fin q) (fin 3.5) (fin 2) (fin 25)
      0.0 (fin 0) (fin 0.8) nan nan (fin 1.05) nan (design_calculation := false)).res
      = .ok (fin 4, m) :=
  (C54_mean_value_partial 2 7 2 1.05 0.3 (fin 3.5) (fin 25) 0.0 (fin 0) (fin 0.8) nan nan nan
    ⟨by norm_num, by norm_num, by norm_num, by norm_num,
      Or.inr ⟨rfl, 0.8, rfl, by norm_num, by norm_num⟩,
      Or.inr ⟨rfl, rfl, 3.5, 0, rfl, rfl, by norm_num, by norm_num⟩, Or.inr ⟨rfl, 25, rfl⟩⟩).1 4

/-- the dimensionless discharge is below one for a crest above the swell correction on a slope that is
not steeper than 1:0.8 -/
private theorem Q_lt_one {H c G x r : ℝ} (hH : 0 < H) (hG : 0 < G) (hx : 0 < x) (hc : 0.8 < c)
    (hr : 0 ≤ r) : Q H c G x r < 1 := by
  have h0 : (0 : ℝ) < 0.8 := by norm_num
  have hp := k2_pos hH hG hx
  refine lt_of_le_of_lt inf_le_right ?_
  unfold E A2
  refine lt_of_le_of_lt (mul_le_of_le_one_right (by positivity)
    (Real.exp_le_one_iff.mpr (by nlinarith))) ?_
  rw [div_lt_one (by linarith)]
  exact hc

/-- Design calculation (the default), gravity 9.81, crest above the swell correction, slope not steeper
than 1:0.8: the freeboard found for the discharge of a crest is never higher than that crest; it is that
crest when the freeboard call reports that the maximum formula does not govern. -/
theorem C54_design_partial (H T c gv w R : ℝ) (Ac beta B db D gf gb gB : PF)
    (X : Ok H T c gv Ac beta B db D gf gb gB) (hc : 0.8 < c) (hr : 0.4 * w ≤ R) :
    ∃ (q R' : ℝ) (m m' : Bool), 0 < q ∧ R' ≤ R ∧ (m' = false → R' = R) ∧
      (calculate_overtopping_discharge_q (fin H) (fin w) (fin T) (fin R) Ac (fin c) beta B db D gf gb
        (fin gv) gB).res = .ok (fin q, m) ∧
      (calculate_crest_freeboard_Rc (fin H) (fin w) (fin T) (fin q) Ac (fin c) beta B db D gf gb
        (fin gv) gB).res = .ok (fin R', m') := by
  obtain ⟨G, x, hG, hx, hq, hR⟩ := both X
  have hS := Sc_pos (g := 9.81) (by norm_num) X.hH
  have a1 := A1_pos X.hc
  have a2 := A2_pos X.hc
  have p1 := k1_pos X.hH hG hx
  have p2 := k2_pos X.hH hG hx
  have h0 := Q_pos (H := H) (G := G) (x := x) X.hc (R - 0.4 * w)
  have hlt := Q_lt_one (r := R - 0.4 * w) X.hH hG hx hc (by linarith)
  obtain ⟨t1, t2⟩ := two_E a1 a2 p1 p2 (R - 0.4 * w)
  have hd : 0 < Q H c G x (R - 0.4 * w) ^ (0.857 : ℝ) := Real.rpow_pos_of_pos h0 _
  have hgt : Q H c G x (R - 0.4 * w) < Q H c G x (R - 0.4 * w) ^ (0.857 : ℝ) := by
    conv_lhs => rw [← Real.rpow_one (Q H c G x (R - 0.4 * w))]
    exact Real.rpow_lt_rpow_of_exponent_gt h0 hlt (by norm_num)
  have hq0 := mul_pos hd hS
  refine ⟨_, _, _, _, hq0, ?_, ?_, hq R w 9.81 true (by norm_num), hR _ w true hq0⟩
  all_goals
    simp only [if_true]
    rw [mul_div_cancel_right₀ _ hS.ne', ← Real.rpow_mul h0.le, mul_one_div_cancel (by norm_num),
      Real.rpow_one]
    have hl : L (A2 c) (k2 H G x) (Q H c G x (R - 0.4 * w) ^ (0.857 : ℝ)) <
        L (A2 c) (k2 H G x) (Q H c G x (R - 0.4 * w)) := L_lt a2 p2 h0 hgt
    have t1' : L (A1 c) (k1 H G x) (Q H c G x (R - 0.4 * w)) ⊓
      L (A2 c) (k2 H G x) (Q H c G x (R - 0.4 * w)) = R - 0.4 * w := t1
    generalize L (A2 c) (k2 H G x) (Q H c G x (R - 0.4 * w) ^ (0.857 : ℝ)) = l2' at *
    generalize L (A2 c) (k2 H G x) (Q H c G x (R - 0.4 * w)) = l2 at *
    generalize L (A1 c) (k1 H G x) (Q H c G x (R - 0.4 * w)) = l1 at *
  · have := inf_le_inf_left l1 hl.le
    rw [t1'] at this
    linarith
  · intro h
    have h' := of_decide_eq_false h
    rw [not_le] at h'
    rw [inf_eq_left.mpr (h'.trans hl).le] at t1'
    rw [inf_eq_left.mpr h'.le]
    linarith

example : ∃ (q R' : ℝ) (m m' : Bool), 0 < q ∧ R' ≤ 4 ∧ (m' = false → R' = 4) ∧
    (calculate_overtopping_discharge_q (fin 2) (fin 0.3) (fin 7) (fin 4) (fin 3.5) (fin 2) (fin 25)
      0.0 (fin 0) (fin 0.8) nan nan (fin 1.05) nan).res = .ok (fin q, m) ∧
    (calculate_crest_freeboard_Rc (fin 2) (fin 0.3) (fin 7) (fin q) (fin 3.5) (fin 2) (fin 25)
      0.0 (fin 0) (fin 0.8) nan nan (fin 1.05) nan).res = .ok (fin R', m') :=
  C54_design_partial 2 7 2 1.05 0.3 4 (fin 3.5) (fin 25) 0.0 (fin 0) (fin 0.8) nan nan nan
    ⟨by norm_num, by norm_num, by norm_num, by norm_num,
      Or.inr ⟨rfl, 0.8, rfl, by norm_num, by norm_num⟩,
      Or.inr ⟨rfl, rfl, 3.5, 0, rfl, rfl, by norm_num, by norm_num⟩, Or.inr ⟨rfl, 25, rfl⟩⟩
    (by norm_num) (by norm_num)

/-- Design calculation (the default) where the maximum formula governs the discharge: the freeboard
returned for that discharge is strictly lower than the crest it was computed for (the maximum formula is
evaluated with the design discharge instead of the mean value), for every input. -/
theorem C54_design_maximum_refuted (H T c gv w R q : ℝ) (Ac beta B db D gf gb gB : PF)
    (X : Ok H T c gv Ac beta B db D gf gb gB) (hc : 0.8 < c) (hr : 0.4 * w ≤ R)
    (h : (calculate_overtopping_discharge_q (fin H) (fin w) (fin T) (fin R) Ac (fin c) beta B db D gf gb
        (fin gv) gB).res = .ok (fin q, true)) :
    ∃ (R' : ℝ) (m : Bool), R' < R ∧
      (calculate_crest_freeboard_Rc (fin H) (fin w) (fin T) (fin q) Ac (fin c) beta B db D gf gb
        (fin gv) gB).res = .ok (fin R', m) := by
  obtain ⟨G, x, hG, hx, hq, hR⟩ := both X
  have hS := Sc_pos (g := 9.81) (by norm_num) X.hH
  have a2 := A2_pos X.hc
  have p2 := k2_pos X.hH hG hx
  have h0 := Q_pos (H := H) (G := G) (x := x) X.hc (R - 0.4 * w)
  have hlt := Q_lt_one (r := R - 0.4 * w) X.hH hG hx hc (by linarith)
  have h1 := (hq R w 9.81 true (by norm_num)).symm.trans h
  rw [Except.ok.injEq, Prod.mk.injEq, fin.injEq, decide_eq_true_iff] at h1
  obtain ⟨rfl, hmax⟩ := h1
  have hd : 0 < Q H c G x (R - 0.4 * w) ^ (0.857 : ℝ) := Real.rpow_pos_of_pos h0 _
  have hgt : Q H c G x (R - 0.4 * w) < Q H c G x (R - 0.4 * w) ^ (0.857 : ℝ) := by
    conv_lhs => rw [← Real.rpow_one (Q H c G x (R - 0.4 * w))]
    exact Real.rpow_lt_rpow_of_exponent_gt h0 hlt (by norm_num)
  simp only [if_true]
  refine ⟨_, _, ?_, hR _ w true (mul_pos hd hS)⟩
  have hl := L_lt a2 p2 h0 hgt
  have e : Q H c G x (R - 0.4 * w) = E (A2 c) (k2 H G x) (R - 0.4 * w) := inf_eq_right.mpr hmax
  have e2 : L (A2 c) (k2 H G x) (Q H c G x (R - 0.4 * w)) = R - 0.4 * w := by rw [e, L_E a2 p2]
  rw [e2] at hl
  rw [mul_div_cancel_right₀ _ hS.ne']
  have := inf_le_right (a := L (A1 c) (k1 H G x) (if true then (Q H c G x (R - 0.4 * w) ^ (0.857 : ℝ)) ^
    (1 / 0.857 : ℝ) else Q H c G x (R - 0.4 * w) ^ (0.857 : ℝ)))
    (b := L (A2 c) (k2 H G x) (Q H c G x (R - 0.4 * w) ^ (0.857 : ℝ)))
  linarith

example : ∃ (q R' : ℝ) (m : Bool), R' < 0.12 ∧
    (calculate_overtopping_discharge_q (fin 2) (fin 0.3) (fin 7) (fin 0.12) (fin 0.1) (fin 2) (fin 25)
      0.0 (fin 0) (fin 0.8) nan nan (fin 1.05) nan).res = .ok (fin q, true) ∧
    (calculate_crest_freeboard_Rc (fin 2) (fin 0.3) (fin 7) (fin q) (fin 0.1) (fin 2) (fin 25)
      0.0 (fin 0) (fin 0.8) nan nan (fin 1.05) nan).res = .ok (fin R', m) := by
  have X : Ok 2 7 2 1.05 (fin 0.1) (fin 25) 0.0 (fin 0) (fin 0.8) nan nan nan :=
    ⟨by norm_num, by norm_num, by norm_num, by norm_num,
      Or.inr ⟨rfl, 0.8, rfl, by norm_num, by norm_num⟩,
      Or.inr ⟨rfl, rfl, 0.1, 0, rfl, rfl, by norm_num, by norm_num⟩, Or.inr ⟨rfl, 25, rfl⟩⟩
  obtain ⟨G, x, hG, hx, hq, -⟩ := both X
  have h := hq 0.12 0.3 9.81 true (by norm_num)
  have e : (0.12 : ℝ) - 0.4 * 0.3 = 0 := by norm_num
  have hm : E (A2 2) (k2 2 G x) (0.12 - 0.4 * 0.3) ≤ E (A1 2) (k1 2 G x) (0.12 - 0.4 * 0.3) := by
    rw [e]
    unfold E A1 A2
    simp
    norm_num
  rw [decide_eq_true hm] at h
  obtain ⟨R', m, h1, h2⟩ := C54_design_maximum_refuted 2 7 2 1.05 0.3 0.12 _ (fin 0.1) (fin 25) 0.0
    (fin 0) (fin 0.8) nan nan nan X (by norm_num) (by norm_num) h
  exact ⟨_, R', m, h1, h, h2⟩

/-- The crest-wall factor left out (the default): both results are NaN, whatever the other arguments are,
also when there is no crest wall. -/
theorem C54_crest_wall_default_refuted (H w T x Ac c beta B db D gf gb gB g : PF) (dc wind : Bool) :
    (∀ v, (calculate_overtopping_discharge_q H w T x Ac c beta B db D gf gb nan gB g dc wind).res = .ok v →
      v.1 = nan) ∧
    (∀ v, (calculate_crest_freeboard_Rc H w T x Ac c beta B db D gf gb nan gB dc wind).res = .ok v →
      v.1 = nan) := by
  have ee : PF.exp nan = nan := rfl
  constructor <;> intro v h
  · unfold calculate_overtopping_discharge_q calculate_dimensionless_overtopping_discharge_q
      q_diml_max_equation at h
    simp only [bind_assoc] at h
    obtain ⟨gf', -, h, -⟩ := PyM.bind_inv h
    rw [PyM.bind_res_of_ok (check_res ..)] at h
    simp only [pure_bind, mul_nan, nan_mul, div_nan, ee] at h
    cases h
    have e : PF.min nan nan = nan := by simp [PF.min]
    have e2 : (if wind = true then nan * calculate_influence_wind_gamma_w x Ac H nan else nan) = nan := by
      split_ifs
      · rw [nan_mul]
      · rfl
    have e3 : npow nan (1.0 / 0.857) = nan := npow_nan_left (by
      rw [sci_eq, sci_eq, div_fin (by norm_num), Ne, fin_inj]; norm_num)
    have e4 : npow nan 0.857 = nan := npow_nan_sci (by norm_num)
    simp only [e, e2, e3, e4, ite_self, nan_mul]
  · unfold calculate_crest_freeboard_Rc calculate_dimensionless_crest_freeboard at h
    simp only [bind_assoc] at h
    obtain ⟨gf', -, h, -⟩ := PyM.bind_inv h
    rw [PyM.bind_res_of_ok (check_res ..)] at h
    have eR : ∀ a b y d e f g i : PF, Rc_diml_max_equation a b y d e f g nan i = nan := by
      intro a b y d e f g i
      unfold Rc_diml_max_equation
      simp only [mul_nan, nan_mul, nan_add]
    rw [eR] at h
    have em : ∀ y : PF, PF.min y nan = nan := by intro y; cases y <;> simp [PF.min]
    simp only [em, pure_bind, nan_mul] at h
    cases h; rfl

example : ∃ m, (calculate_overtopping_discharge_q (fin 2) (fin 0.3) (fin 7) (fin 4) (fin 4) (fin 2)
    (fin 25) (gamma_f := fin 0.5)).res = .ok (nan, m) := by
  have h : ∃ v, (calculate_overtopping_discharge_q (fin 2) (fin 0.3) (fin 7) (fin 4) (fin 4) (fin 2)
      (fin 25) (gamma_f := fin 0.5)).res = .ok v := by
    unfold calculate_overtopping_discharge_q calculate_dimensionless_overtopping_discharge_q
      friction_or_raise
    simp only [isnan_fin, if_false, pure_bind, bind_assoc]
    rw [PyM.bind_res_of_ok (check_res ..)]
    exact ⟨_, rfl⟩
  obtain ⟨v, h⟩ := h
  have := (C54_crest_wall_default_refuted (fin 2) (fin 0.3) (fin 7) (fin 4) (fin 4) (fin 2) (fin 25) 0.0
    0.0 nan (fin 0.5) nan nan 9.81 true false).1 _ h
  exact ⟨v.2, by rw [h, ← this]⟩

/-- Neither a friction factor nor a stone size: refused. -/
theorem C54_friction_refused (H w T x Ac c beta B db gb gv gB g : PF) (dc wind : Bool) :
    (calculate_overtopping_discharge_q H w T x Ac c beta B db nan nan gb gv gB g dc wind).res
      = .error .valueError ∧
    (calculate_crest_freeboard_Rc H w T x Ac c beta B db nan nan gb gv gB dc wind).res
      = .error .valueError := ⟨by
    unfold calculate_overtopping_discharge_q calculate_dimensionless_overtopping_discharge_q
      friction_or_raise
    simp only [isnan_nan, if_true]; rfl, by
    unfold calculate_crest_freeboard_Rc calculate_dimensionless_crest_freeboard friction_or_raise
    simp only [isnan_nan, if_true]; rfl⟩

example : (calculate_overtopping_discharge_q (fin 2) (fin 0.3) (fin 7) (fin 4) (fin 4) (fin 2)
    (fin 25)).res = .error .valueError :=
  (C54_friction_refused _ _ _ _ _ _ _ _ _ _ _ _ _ _ _).1
end

end OvertoppingMoreProofs
end
