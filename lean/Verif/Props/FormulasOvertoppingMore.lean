import Verif.Props.OvertoppingMore
import Verif.Lemmas.Range
import Verif.SpecFormula

/-!
# C78: the published overtopping formulas of Van Gent (2021, 2025) and De Ridder (2024, 2026)
-/

open Classical
open PF CorePhysics CoreUtility
noncomputable section

namespace FormulaProof
open TwoFormulas
open OvertoppingTaw2002 (Sc Sc_pos Sc_eval)

/-- the exponential decay in the freeboard is the published formula -/
theorem decay {a b e f g R s sh H : ℝ} (hH : 0 < H) :
    TwoFormulas.E a (b * s ^ e / (H * f)) (R - sh * g) = Published.deRidder a b e f (R / H - sh * (g / H)) s := by
  unfold TwoFormulas.E Published.deRidder
  congr 2
  field_simp

theorem decay0 {a b e f R s H : ℝ} (hH : 0 < H) :
    TwoFormulas.E a (b * s ^ e / (H * f)) (R - 0) = Published.deRidder a b e f (R / H) s := by
  have := decay (a := a) (b := b) (e := e) (f := f) (g := 0) (R := R) (s := s) (sh := 0) hH
  simpa using this

theorem deRidder_pos {a b e f r s : ℝ} (ha : 0 < a) : 0 < Published.deRidder a b e f r s :=
  mul_pos ha (Real.exp_pos _)
end FormulaProof

open FormulaProof
open OvertoppingTaw2002 (Sc Sc_pos Sc_eval)

section
variable (H s gf g : ℝ) (hH : 0 < H) (hs : 0 < s) (hf : 0 < gf) (hg : 0 < g)
include hH hs hf hg

/-- C78: De Ridder et al. (2024), discharge by equations 24 and 26 -/
theorem C78_deridder2024_discharge (R w : ℝ) :
    Returns (DeRidder2024.calculate_overtopping_discharge_q_eq24 (fin H) (fin s) (fin gf) (fin R) (fin g))
      (fun q => q / √(g * H ^ 3) = Published.deRidder 0.74 8.51 0.32 gf (R / H) s) ∧
    Returns (DeRidder2024.calculate_overtopping_discharge_q_eq26 (fin H) (fin s) (fin w) (fin gf) (fin R)
      (fin g))
      (fun q => q / √(g * H ^ 3) =
        Published.deRidder 0.50 7.91 0.30 gf (R / H - 0.21 * (w / H)) s) := by
  have hS := Sc_pos hg hH
  refine ⟨⟨Published.deRidder 0.74 8.51 0.32 gf (R / H) s * Sc g H,
      mul_pos (deRidder_pos (by norm_num)) hS, ?_, mul_div_cancel_right₀ _ hS.ne'⟩,
    ⟨Published.deRidder 0.50 7.91 0.30 gf (R / H - 0.21 * (w / H)) s * Sc g H,
      mul_pos (deRidder_pos (by norm_num)) hS, ?_, mul_div_cancel_right₀ _ hS.ne'⟩⟩
  · rw [DeRidder2024.q24_res hH hs hf hg, decay0 hH]
  · rw [DeRidder2024.q26_res hH hs hf hg, decay hH]

/-- C78 (missing for equation 24: other gravity, see C55): De Ridder et al. (2024), the crest level for a
required discharge -/
theorem C78_deridder2024_freeboard_partial (q w : ℝ) (hq : 0 < q) :
    (∃ R : ℝ, (DeRidder2024.calculate_crest_freeboard_discharge_q_eq24 (fin H) (fin s) (fin gf)
        (fin q)).res = .ok (fin R) ∧
      q / √(9.81 * H ^ 3) = Published.deRidder 0.74 8.51 0.32 gf (R / H) s) ∧
    (∃ R : ℝ, (DeRidder2024.calculate_crest_freeboard_discharge_q_eq26 (fin H) (fin s) (fin w) (fin gf)
        (fin q) (fin g)).res = .ok (fin R) ∧
      q / √(g * H ^ 3) = Published.deRidder 0.50 7.91 0.30 gf (R / H - 0.21 * (w / H)) s) := by
  have h9 := Sc_pos (g := 9.81) (by norm_num) hH
  have hS := Sc_pos hg hH
  have p1 := MoreOvertopping.rpow_pos' (y := 0.32) hs
  have p2 := MoreOvertopping.rpow_pos' (y := 0.30) hs
  have c1 : (0 : ℝ) < 8.51 := by norm_num
  have c2 : (0 : ℝ) < 7.91 := by norm_num
  refine ⟨⟨_, DeRidder2024.R24_res (g := 9.81) hH hs hf hq, ?_⟩,
    ⟨_, DeRidder2024.R26_res hH hs hf hg hq, ?_⟩⟩
  · rw [← decay0 hH, add_sub_cancel_right, TwoFormulas.E_L (by norm_num) (by positivity) (by positivity)]
    rfl
  · rw [← decay hH, add_sub_cancel_right, TwoFormulas.E_L (by norm_num) (by positivity) (by positivity)]
    rfl

example := C78_deridder2024_freeboard_partial (H := 2) (s := 1) (gf := 0.5) (g := 9.81) (q := 0.01) (w := 1)
  (by norm_num) (by norm_num) (by norm_num) (by norm_num) (by norm_num)

end

namespace FormulaProof
theorem oblique2026 (t : ℝ) : DeRidder2026.calculate_gamma_beta (fin t) =
    fin (Published.obliqueCos 0.35 t) ∧ 0 < Published.obliqueCos 0.35 t := by
  unfold DeRidder2026.calculate_gamma_beta Published.obliqueCos
  constructor
  · simp only [sci_eq]
    pf_eval [PF.abs, PF.deg2rad, PF.cos, npow_two]
    have e : (0.65 : ℝ) = 1 - 0.35 := by norm_num
    rw [e]
    rcases abs_cases t with ⟨h, -⟩ | ⟨h, -⟩ <;> rw [h]
    rw [neg_mul, Real.cos_neg]
  · have := sq_nonneg (Real.cos (t * (Real.pi / 180)))
    norm_num
    linarith
end FormulaProof

section
variable (H s gf g t : ℝ) (hH : 0 < H) (hs : 0 < s) (hf : 0 < gf) (hg : 0 < g)
include hH hs hf hg

/-- C78: De Ridder et al. (2026), discharge by equations 28 and 32 -/
theorem C78_deridder2026_discharge (R w : ℝ) :
    Returns (DeRidder2026.calculate_overtopping_discharge_q_eq28 (fin H) (fin s) (fin gf) (fin R) (fin g)
      (fin t))
      (fun q => q / √(g * H ^ 3) =
        Published.deRidder 0.16 6.93 0.36 (gf * Published.obliqueCos 0.35 t) (R / H) s) ∧
    Returns (DeRidder2026.calculate_overtopping_discharge_q_eq32 (fin H) (fin s) (fin w) (fin gf) (fin R)
      (fin g) (fin t))
      (fun q => q / √(g * H ^ 3) =
        Published.deRidder 0.05 10.40 0.50 (gf * Published.obliqueCos 0.35 t)
          (R / H - 0.97 * (w / H)) s) := by
  have hS := Sc_pos hg hH
  obtain ⟨e, hr⟩ := oblique2026 t
  refine ⟨⟨Published.deRidder 0.16 6.93 0.36 (gf * Published.obliqueCos 0.35 t) (R / H) s * Sc g H,
      mul_pos (deRidder_pos (by norm_num)) hS, ?_, mul_div_cancel_right₀ _ hS.ne'⟩,
    ⟨Published.deRidder 0.05 10.40 0.50 (gf * Published.obliqueCos 0.35 t)
          (R / H - 0.97 * (w / H)) s * Sc g H,
      mul_pos (deRidder_pos (by norm_num)) hS, ?_, mul_div_cancel_right₀ _ hS.ne'⟩⟩
  · rw [DeRidder2026.q28_res hH hs hf hg hr e, mul_assoc H, decay0 hH]
  · rw [DeRidder2026.q32_res hH hs hf hg hr e, mul_assoc H, decay hH]

example := C78_deridder2026_discharge (H := 2) (s := 1) (gf := 0.5) (g := 9.81) (t := 1) (R := 1) (w := 1)
  (by norm_num) (by norm_num) (by norm_num) (by norm_num)

/-- C78: De Ridder et al. (2026), the crest level for a required discharge -/
theorem C78_deridder2026_freeboard (q w : ℝ) (hq : 0 < q) :
    (∃ R : ℝ, (DeRidder2026.calculate_crest_freeboard_discharge_q_eq28 (fin H) (fin s) (fin gf)
        (fin q) (fin g) (fin t)).res = .ok (fin R) ∧
      q / √(g * H ^ 3) =
        Published.deRidder 0.16 6.93 0.36 (gf * Published.obliqueCos 0.35 t) (R / H) s) ∧
    (∃ R : ℝ, (DeRidder2026.calculate_crest_freeboard_discharge_q_eq32 (fin H) (fin s) (fin w) (fin gf)
        (fin q) (fin g) (fin t)).res = .ok (fin R) ∧
      q / √(g * H ^ 3) = Published.deRidder 0.05 10.40 0.50 (gf * Published.obliqueCos 0.35 t)
          (R / H - 0.97 * (w / H)) s) := by
  have hS := Sc_pos hg hH
  obtain ⟨e, hr⟩ := oblique2026 t
  have p1 := MoreOvertopping.rpow_pos' (y := 0.36) hs
  have p2 := MoreOvertopping.rpow_pos' (y := 0.50) hs
  have c1 : (0 : ℝ) < 6.93 := by norm_num
  have c2 : (0 : ℝ) < 10.40 := by norm_num
  refine ⟨⟨_, DeRidder2026.R28_res hH hs hf hg hr e hq, ?_⟩,
    ⟨_, DeRidder2026.R32_res hH hs hf hg hr e hq, ?_⟩⟩
  · rw [← decay0 hH, ← mul_assoc H, add_sub_cancel_right,
      TwoFormulas.E_L (by norm_num) (by positivity) (by positivity)]
    rfl
  · rw [← decay hH, ← mul_assoc H, add_sub_cancel_right,
      TwoFormulas.E_L (by norm_num) (by positivity) (by positivity)]
    rfl
end

/-- C78: the default gravity and direction of the four equations -/
theorem C78_deridder_defaults (H s gf x w : PF) :
    DeRidder2024.calculate_overtopping_discharge_q_eq24 H s gf x =
      DeRidder2024.calculate_overtopping_discharge_q_eq24 H s gf x (fin 9.81) ∧
    DeRidder2024.calculate_overtopping_discharge_q_eq26 H s w gf x =
      DeRidder2024.calculate_overtopping_discharge_q_eq26 H s w gf x (fin 9.81) ∧
    DeRidder2024.calculate_crest_freeboard_discharge_q_eq26 H s w gf x =
      DeRidder2024.calculate_crest_freeboard_discharge_q_eq26 H s w gf x (fin 9.81) ∧
    DeRidder2026.calculate_overtopping_discharge_q_eq28 H s gf x =
      DeRidder2026.calculate_overtopping_discharge_q_eq28 H s gf x (fin 9.81) (fin 0) ∧
    DeRidder2026.calculate_overtopping_discharge_q_eq32 H s w gf x =
      DeRidder2026.calculate_overtopping_discharge_q_eq32 H s w gf x (fin 9.81) (fin 0) ∧
    DeRidder2026.calculate_crest_freeboard_discharge_q_eq28 H s gf x =
      DeRidder2026.calculate_crest_freeboard_discharge_q_eq28 H s gf x (fin 9.81) (fin 0) ∧
    DeRidder2026.calculate_crest_freeboard_discharge_q_eq32 H s w gf x =
      DeRidder2026.calculate_crest_freeboard_discharge_q_eq32 H s w gf x (fin 9.81) (fin 0) := by
  have o : (0.0 : PF) = fin 0 := by rw [sci_eq]; norm_num
  rw [← o]
  exact ⟨rfl, rfl, rfl, rfl, rfl, rfl, rfl⟩

/-! ## Van Gent (2021), caissons -/

namespace FormulaProof
open VanGent2021Caisson

/-- the coefficients of the code are those of the published table -/
theorem caisson_coefficients {c a b cb gp : ℝ} {k pp : Bool}
    (h : (c, k, pp, a, b, cb, gp) ∈ Published.caissonTable) (sc cs : Bool) (hk : (sc || cs) = k) :
    determine_coefficients (fin c) sc cs pp = pure (fin a, fin b, fin cb, fin gp) ∧
      0 < a ∧ 0 < b ∧ 0 < cb ∧ cb < gp ∧ (c = 1 ∨ c = 1.3) := by
  have o : (1.0 : PF) = fin 1 := by rw [sci_eq]; norm_num
  have o4 : (4.0 : PF) = fin 4 := by rw [sci_eq]; norm_num
  have n1 : ¬ PF.eqF (fin 1.3) 1.0 := by rw [o, eqF_fin]; norm_num
  have n2 : PF.eqF (fin 1.3) 1.3 := by rw [sci_eq, eqF_fin]
  have n3 : PF.eqF (fin 1) 1.0 := by rw [o, eqF_fin]
  unfold Published.caissonTable at h
  simp only [List.mem_cons, Prod.mk.injEq, List.not_mem_nil, or_false] at h
  rcases h with h | h | h | h | h | h <;> obtain ⟨rfl, rfl, rfl, rfl, rfl, rfl, rfl⟩ := h <;>
    refine ⟨?_, by norm_num, by norm_num, by norm_num, by norm_num, by norm_num⟩ <;>
    unfold determine_coefficients
  · rw [if_pos n3, if_pos hk, if_neg (by simp), o]; simp only [sci_eq]
  · rw [if_pos n3, if_pos hk, if_pos rfl]; simp only [sci_eq]
  · rw [if_pos n3, if_neg (by simp [hk]), if_neg (by simp), o, o4]; simp only [sci_eq]
  · rw [if_neg n1, if_pos n2, if_pos hk, if_neg (by simp), o]; simp only [sci_eq]
  · rw [if_neg n1, if_pos n2, if_pos hk, if_pos rfl]; simp only [sci_eq]
  · rw [if_neg n1, if_pos n2, if_neg (by simp [hk]), if_neg (by simp), o]; simp only [sci_eq]
end FormulaProof

section
open VanGent2021Caisson
variable (H g w cw c a b cb gp : ℝ) (k sc cs pp : Bool) (hH : 0 < H) (hg : 0 < g)
  (ht : (c, k, pp, a, b, cb, gp) ∈ Published.caissonTable) (hk : (sc || cs) = k)
include hH hg ht hk

/-- C78 (missing: exponent 1.3 with the crest below the swell correction, see C53): overtopping of caissons
by Van Gent (2021) with every published combination of coefficients; the swell correction counts in
crossing seas only -/
theorem C78_caisson_discharge_partial (R r : ℝ) (beta gB : PF) (hr : 0 < r)
    (her : gB = fin r ∨ gB = nan ∧ ∃ β : ℝ, beta = fin β ∧ r = Published.obliqueCos (cb / gp) β)
    (hR : c = 1 ∨ (if cs then cw else 0) * w ≤ R) :
    Returns (calculate_overtopping_discharge_q (fin H) (fin R) beta gB (fin w) (fin c) (fin cw) sc cs pp
      (fin g))
      fun q => q / √(g * H ^ 3) =
        Published.caisson a b c r gp (if cs then cw else 0) (R / H) (w / H) := by
  obtain ⟨hc, ha, hb, hcb, hlt, hc1⟩ := caisson_coefficients ht sc cs hk
  have hgp : 0 < gp := hcb.trans hlt
  have hS := Sc_pos hg hH
  have er : (if gB.isnan then calculate_influence_oblique_waves_gamma_beta beta (fin gp) (fin cb)
      else gB) = fin r := by
    rcases her with rfl | ⟨rfl, β, rfl, rfl⟩
    · simp
    · rw [if_pos (show nan.isnan from trivial), oblique_eval hgp.ne']; rfl
  refine ⟨Published.caisson a b c r gp (if cs then cw else 0) (R / H) (w / H) * Sc g H,
    mul_pos (mul_pos ha (Real.exp_pos _)) hS, ?_, mul_div_cancel_right₀ _ hS.ne'⟩
  rw [q_gen hH hg hc er hr hgp]
  have ex : (R - (if cs then cw else 0) * w) / H = R / H - (if cs then cw else 0) * (w / H) := by
    field_simp
  have en : npow (fin ((R - (if cs then cw else 0) * w) / H)) (fin c) =
      fin ((R / H - (if cs then cw else 0) * (w / H)) ^ c) := by
    rw [← ex]
    rcases hc1 with rfl | rfl
    · have o : (1.0 : PF) = fin 1 := by rw [sci_eq]; norm_num
      rw [← o, VanGent2021Caisson.pow_one, Real.rpow_one]
    · have h0 : 0 ≤ (R - (if cs then cw else 0) * w) / H := by
        rcases hR with h | h
        · norm_num at h
        · exact div_nonneg (by linarith) hH.le
      have := OvertoppingEurOtop2018.pow_13 h0
      rwa [sci_eq] at this
  rw [en, neg_fin, mul_fin, exp_fin, mul_fin, mul_fin]
  rfl

/-- C78 (missing: exponent 1.3 with discharges above `a √(g H³)`): the crest level of a caisson for a
required discharge -/
theorem C78_caisson_freeboard_partial (q r : ℝ) (beta gB : PF) (hq : 0 < q) (hr : 0 < r)
    (her : gB = fin r ∨ gB = nan ∧ ∃ β : ℝ, beta = fin β ∧ r = Published.obliqueCos (cb / gp) β)
    (hR : c = 1 ∨ q / √(g * H ^ 3) ≤ a) : ∃ R : ℝ,
    (calculate_crest_freeboard_Rc (fin H) (fin q) beta gB (fin w) (fin c) (fin cw) sc cs pp
      (fin g)).res = .ok (fin R) ∧
    q / √(g * H ^ 3) = Published.caisson a b c r gp (if cs then cw else 0) (R / H) (w / H) := by
  obtain ⟨hc, ha, hb, hcb, hlt, hc1⟩ := caisson_coefficients ht sc cs hk
  have hgp : 0 < gp := hcb.trans hlt
  have hS := Sc_pos hg hH
  have er : (if gB.isnan then calculate_influence_oblique_waves_gamma_beta beta (fin gp) (fin cb)
      else gB) = fin r := by
    rcases her with rfl | ⟨rfl, β, rfl, rfl⟩
    · simp
    · rw [if_pos (show nan.isnan from trivial), oblique_eval hgp.ne']; rfl
  have hy : 0 < q / Sc g H := by positivity
  have hB0 : 0 < b / (r * gp) := by positivity
  have el : Real.log (q / Sc g H * (1 / a)) * (-r * gp / b) =
      -Real.log (q / Sc g H / a) / (b / (r * gp)) := by
    rw [one_div, ← div_eq_mul_inv]
    generalize Real.log (q / Sc g H / a) = l
    field_simp
  have hl0 : c = 1 ∨ 0 ≤ -Real.log (q / Sc g H / a) / (b / (r * gp)) := by
    refine hR.imp id fun h => div_nonneg (neg_nonneg.mpr (Real.log_nonpos (by positivity) ?_)) hB0.le
    exact (div_le_one ha).mpr h
  have en : npow (fin (Real.log (q / Sc g H * (1 / a)) * (-r * gp / b))) (1.0 / fin c) =
      fin ((-Real.log (q / Sc g H / a) / (b / (r * gp))) ^ (1 / c)) := by
    rw [el]
    have o : (1.0 : PF) = fin 1 := by rw [sci_eq]; norm_num
    rcases hc1 with rfl | rfl
    · rw [← o, inv_one, VanGent2021Caisson.pow_one, div_one, Real.rpow_one]
    · have h0 := hl0.resolve_left (by norm_num)
      have := OvertoppingEurOtop2018.pow_inv h0
      rwa [sci_eq 13] at this
  refine ⟨(-Real.log (q / Sc g H / a) / (b / (r * gp))) ^ (1 / c) * H + (if cs then cw else 0) * w,
    ?_, ?_⟩
  · rw [R_gen hH hg hq hc er ha hb, en, add_fin, mul_fin]
    congr 2
    field_simp
  · unfold Published.caisson
    have e1 : ((-Real.log (q / Sc g H / a) / (b / (r * gp))) ^ (1 / c) * H +
        (if cs then cw else 0) * w) / H - (if cs then cw else 0) * (w / H) =
        (-Real.log (q / Sc g H / a) / (b / (r * gp))) ^ (1 / c) := by
      field_simp
      ring
    have e2 : ((-Real.log (q / Sc g H / a) / (b / (r * gp))) ^ (1 / c)) ^ c =
        -Real.log (q / Sc g H / a) / (b / (r * gp)) := by
      rcases hl0 with rfl | h0
      · simp
      · have hc0 : c ≠ 0 := by rcases hc1 with rfl | rfl <;> norm_num
        rw [← Real.rpow_mul h0, one_div_mul_cancel hc0, Real.rpow_one]
    rw [e1, e2]
    have e3 : -(b / (r * gp)) * (-Real.log (q / Sc g H / a) / (b / (r * gp))) =
        Real.log (q / Sc g H / a) := by field_simp
    rw [e3, Real.exp_log (by positivity), mul_div_cancel₀ _ ha.ne']
    rfl
end

/-- C78: the default exponent, swell coefficient, short-crested waves without crossing seas or parapet -/
theorem C78_caisson_defaults (H x beta gB w : PF) :
    VanGent2021Caisson.calculate_overtopping_discharge_q H x beta gB w =
      VanGent2021Caisson.calculate_overtopping_discharge_q H x beta gB w (fin 1) (fin 0.4) true false false
        (fin 9.81) ∧
    VanGent2021Caisson.calculate_crest_freeboard_Rc H x beta gB w =
      VanGent2021Caisson.calculate_crest_freeboard_Rc H x beta gB w (fin 1) (fin 0.4) true false false
        (fin 9.81) := by
  have o : (1.0 : PF) = fin 1 := by rw [sci_eq]; norm_num
  rw [← o]
  exact ⟨rfl, rfl⟩

/-! ## Van Gent et al. (2025), slopes -/

namespace FormulaProof
open VanGent2025

theorem breaking2025 {H c G x R w : ℝ} (hH : 0 < H) (hG : 0 < G) (hx : 0 < x) :
    TwoFormulas.E (A1 c) (k1 H G x) (R - 0.4 * w) = Published.slopeBreaking2025 c G x (R / H) (w / H) := by
  unfold TwoFormulas.E A1 k1 Published.slopeBreaking2025
  congr 2
  field_simp

theorem maximum2025 {H c G x R w : ℝ} (hH : 0 < H) (hG : 0 < G) (hx : 0 < x) :
    TwoFormulas.E (A2 c) (k2 H G x) (R - 0.4 * w) = Published.slopeMaximum2025 c G x (R / H) (w / H) := by
  have := MoreOvertopping.rpow_pos' (y := 0.24) hx
  unfold TwoFormulas.E A2 k2 Published.slopeMaximum2025
  generalize x ^ (0.24 : ℝ) = p at *
  congr 2
  generalize (2.5 : ℝ) = z
  field_simp
end FormulaProof

section
open VanGent2025
variable (H T c gf gb gv gB : ℝ) (Ac beta B db D : PF) (hH : 0 < H) (hT : 0 < T) (hc : 0 < c)
  (hf : 0 < gf) (hb : 0 < gb) (hv : 0 < gv) (hB : 0 < gB)
include hH hT hc hf hb hv hB

/-- C78: overtopping of slopes by Van Gent et al. (2025) without wind: the smaller of the two formulas, to
the power 0.857 for a design calculation, and the flag says that the maximum governs -/
theorem C78_vangent2025_discharge (R w g : ℝ) (dc : Bool) (hg : 0 < g) : ∃ (q : ℝ) (f : Bool), 0 < q ∧
    (calculate_overtopping_discharge_q (fin H) (fin w) (fin T) (fin R) Ac (fin c) beta B db D (fin gf)
      (fin gb) (fin gv) (fin gB) (fin g) dc false).res = .ok (fin q, f) ∧
    ∃ a b : ℝ,
      a = Published.slopeBreaking2025 c (gf * gb * gv * gB) (Textbook.iribarren H T c) (R / H) (w / H) ∧
      b = Published.slopeMaximum2025 c (gf * gb * gv * gB) (Textbook.iribarren H T c) (R / H) (w / H) ∧
      q / √(g * H ^ 3) = (if dc then min a b ^ (0.857 : ℝ) else min a b) ∧ (f = true ↔ b ≤ a) := by
  have hS := Sc_pos hg hH
  have hx := VdMProof.xi_pos hH hT hc
  have hG : 0 < gf * gb * gv * gB := by positivity
  have key := (both_eval (D := D) (gf' := fin gf) (gb' := fin gb) (gB' := fin gB) (Ac := Ac) (beta := beta)
    (B := B) (db := db) hH hT hc hv hf hb hB (by unfold friction_or_raise; simp) (by simp)
    (by simp)).1 R w g dc hg
  have hQ := Q_pos (H := H) (G := gf * gb * gv * gB) (x := VdMProof.xi H T c) hc (R - 0.4 * w)
  refine ⟨_, _, ?_, key, _, _, rfl, rfl, ?_, ?_⟩
  · refine mul_pos ?_ hS
    split_ifs
    · exact Real.rpow_pos_of_pos hQ _
    · exact hQ
  · rw [RangeProof.irib_eq, ← breaking2025 hH hG hx, ← maximum2025 hH hG hx]
    exact mul_div_cancel_right₀ _ hS.ne'
  · rw [RangeProof.irib_eq, ← breaking2025 hH hG hx, ← maximum2025 hH hG hx, decide_eq_true_iff]

/-- C78: the crest level of slopes by Van Gent et al. (2025) for a required discharge, mean values (no design
calculation) at gravity 9.81 -/
theorem C78_vangent2025_freeboard_partial (q w : ℝ) (hq : 0 < q) : ∃ (R : ℝ) (f : Bool),
    (calculate_crest_freeboard_Rc (fin H) (fin w) (fin T) (fin q) Ac (fin c) beta B db D (fin gf)
      (fin gb) (fin gv) (fin gB) false false).res = .ok (fin R, f) ∧
    ∃ a b : ℝ,
      a = Published.slopeBreaking2025 c (gf * gb * gv * gB) (Textbook.iribarren H T c) (R / H) (w / H) ∧
      b = Published.slopeMaximum2025 c (gf * gb * gv * gB) (Textbook.iribarren H T c) (R / H) (w / H) ∧
      q / √(9.81 * H ^ 3) = min a b ∧ (f = true ↔ b ≤ a) := by
  have hS := Sc_pos (g := 9.81) (by norm_num) hH
  have hx := VdMProof.xi_pos hH hT hc
  have hG : 0 < gf * gb * gv * gB := by positivity
  have key := (both_eval (D := D) (gf' := fin gf) (gb' := fin gb) (gB' := fin gB) (Ac := Ac) (beta := beta)
    (B := B) (db := db) hH hT hc hv hf hb hB (by unfold friction_or_raise; simp) (by simp)
    (by simp)).2 q w false hq
  simp only [Bool.false_eq_true, if_false] at key
  have h1 : 0 < q / Sc 9.81 H := by positivity
  obtain ⟨t1, t2⟩ := TwoFormulas.two_L (A1_pos hc) (A2_pos hc) (k1_pos hH hG hx) (k2_pos hH hG hx) h1
  refine ⟨_, _, key, _, _, rfl, rfl, ?_, ?_⟩
  · rw [RangeProof.irib_eq, ← breaking2025 hH hG hx, ← maximum2025 hH hG hx, add_sub_cancel_right]
    exact t1.symm
  · rw [RangeProof.irib_eq, ← breaking2025 hH hG hx, ← maximum2025 hH hG hx, add_sub_cancel_right,
      decide_eq_true_iff]
    exact t2.symm

example := C78_vangent2025_freeboard_partial (H := 2) (T := 8) (c := 2) (gf := 0.5) (gb := 1) (gv := 1)
  (gB := 0.9) (Ac := .fin 1) (beta := .fin 20) (B := .fin 4) (db := .fin 1) (D := .fin 1) (q := 0.01)
  (w := 1) (by norm_num) (by norm_num) (by norm_num) (by norm_num) (by norm_num) (by norm_num) (by norm_num)
  (by norm_num)
end

namespace FormulaProof
open VanGent2025

theorem friction2025 {d H s : ℝ} (hd : 0 < d) (hH : 0 < H) :
    calculate_influence_friction_gamma_f (fin d) (fin H) (fin s) = fin (Published.friction2025 (d / H) s) := by
  unfold calculate_influence_friction_gamma_f Published.friction2025
  have hx : 0 < d / H := by positivity
  have o : (1.0 : PF) = fin 1 := by rw [sci_eq]; norm_num
  have o12 : (12.0 : PF) = fin 12 := by rw [sci_eq]; norm_num
  have e : (1.0 : PF) - 0.70 * npow (fin d / fin H) 0.05 = fin (1 - 0.70 * (d / H) ^ (0.05 : ℝ)) := by
    rw [o, div_fin hH.ne']
    simp only [sci_eq]
    rw [npow_fin_nonneg hx.le (by norm_num), mul_fin, sub_fin]
  have e7 : (0.70 : ℝ) = 0.7 := by norm_num
  dsimp only
  rw [e, o, o12, e7]
  simp only [sci_eq, mul_fin, sub_fin, add_fin]
  generalize (0.7 : ℝ) * (d / H) ^ (0.05 : ℝ) = y
  by_cases hc : fin s ≥ fin 0.012
  · rw [whr_true hc, if_pos (by rwa [ge_iff_le, le_fin] at hc)]
  · rw [whr_false hc, if_neg (by rwa [ge_iff_le, le_fin] at hc)]
    congr 1; ring

theorem berm2025 {H s a B db : ℝ} (hH : 0 < H) (hs : 0 < s) (ha : 0 < a) (hB : 0 ≤ B) (hd : db ≤ a) :
    calculate_influence_berm_gamma_b (fin H) (fin s) (fin a) (fin B) (fin (a - db)) =
      fin (Published.berm2025 s (B / H) ((a - db) / a)) := by
  unfold calculate_influence_berm_gamma_b Published.berm2025
  have o : (1.0 : PF) = fin 1 := by rw [sci_eq]; norm_num
  have o18 : (18.0 : PF) = fin 18 := by rw [sci_eq]; norm_num
  have h1 : 0 ≤ s * B / H := by positivity
  have h2 : 0 ≤ (a - db) / (s * a) := div_nonneg (by linarith) (by positivity)
  have h3 : s * a ≠ 0 := by positivity
  rw [o, o18, mul_fin, mul_fin, div_fin hH.ne', div_fin h3]
  simp only [sci_eq]
  rw [npow_fin_nonneg h1 (by norm_num), npow_fin_nonneg h2 (by norm_num)]
  simp only [mul_fin, sub_fin]
  have e1 : s * B / H = s * (B / H) := by ring
  have e2 : (a - db) / (s * a) = (a - db) / a / s := by field_simp
  rw [e1, e2]
end FormulaProof

section
open VanGent2025

/-- C78: factors that are left out are computed by the published formulas: friction from the stone size,
berm from its width and level, obliqueness from the angle -/
theorem C78_vangent2025_factors (H T d a B db β : ℝ) (w x gv c g : PF) (dc wd : Bool) (hH : 0 < H) (hT : 0 < T)
    (hd : 0 < d) (ha : 0 < a) (hB : 0 ≤ B) (hdb : db ≤ a) :
    calculate_overtopping_discharge_q (fin H) w (fin T) x (fin a) c (fin β) (fin B) (fin db) (fin d) nan nan
      gv nan g dc wd =
    calculate_overtopping_discharge_q (fin H) w (fin T) x (fin a) c (fin β) (fin B) (fin db) (fin d)
      (fin (Published.friction2025 (d / H) (Textbook.steepness H T)))
      (fin (Published.berm2025 (Textbook.steepness H T) (B / H) ((a - db) / a))) gv
      (fin (Published.obliqueCos 0.35 β)) g dc wd ∧
    calculate_crest_freeboard_Rc (fin H) w (fin T) x (fin a) c (fin β) (fin B) (fin db) (fin d) nan nan
      gv nan dc wd =
    calculate_crest_freeboard_Rc (fin H) w (fin T) x (fin a) c (fin β) (fin B) (fin db) (fin d)
      (fin (Published.friction2025 (d / H) (Textbook.steepness H T)))
      (fin (Published.berm2025 (Textbook.steepness H T) (B / H) ((a - db) / a))) gv
      (fin (Published.obliqueCos 0.35 β)) dc wd := by
  have hs : 0 < Textbook.steepness H T := by
    have := Real.pi_pos
    unfold Textbook.steepness; positivity
  have eo : calculate_influence_oblique_waves_gamma_beta (fin β) = fin (Published.obliqueCos 0.35 β) := by
    rw [sci_eq, oblique_eval]; rfl
  have ef := FormulaProof.friction2025 (s := Textbook.steepness H T) hd hH
  have eb := FormulaProof.berm2025 (s := Textbook.steepness H T) (B := B) (db := db) hH hs ha hB hdb
  have es := RangeProof.steep_eval (H := H) hT
  constructor
  · unfold calculate_overtopping_discharge_q calculate_dimensionless_overtopping_discharge_q
      friction_or_raise
    simp only [isnan_nan, isnan_fin, if_true, if_false, es, sub_fin, eo, ef, eb]
  · unfold calculate_crest_freeboard_Rc calculate_dimensionless_crest_freeboard friction_or_raise
    simp only [isnan_nan, isnan_fin, if_true, if_false, es, sub_fin, eo, ef, eb]

example := C78_vangent2025_factors (H := 2) (T := 8) (d := 5) (a := 1) (B := 4) (db := 1) (β := 20)
  (w := .fin 1) (x := .fin 1) (gv := .fin 1) (c := .fin 2) (g := .fin 9.81) (dc := true) (wd := true)
  (by norm_num) (by norm_num) (by norm_num) (by norm_num) (by norm_num) (by norm_num)

/-- C78: the crest wall factor of Van Gent et al. (2025): 0.45 on slopes up to 1:4, proportional to the
cotangent on gentler slopes -/
theorem C78_vangent2025_crest_wall (c R a : ℝ) (hR : 0 < R) :
    calculate_influence_crest_wall_gamma_v (fin c) (fin R) (fin a) =
      fin (1 + (if c ≤ 4 then 0.45 else 0.1125 * c) * ((R - a) / R)) := by
  unfold calculate_influence_crest_wall_gamma_v
  have o : (1.0 : PF) = fin 1 := by rw [sci_eq]; norm_num
  have o4 : (4.0 : PF) = fin 4 := by rw [sci_eq]; norm_num
  rw [o, o4, sub_fin]
  simp only [sci_eq, mul_fin, div_fin hR.ne', add_fin]
  by_cases h : c ≤ 4
  · rw [whr_true ((le_fin _ _).mpr h), if_pos h, mul_div_assoc]
  · rw [whr_false (by rwa [le_fin]), if_neg h, mul_div_assoc]

/-- C78: the wind factor of Van Gent et al. (2025) for the protruding part of the crest wall and the
dimensionless discharge -/
theorem C78_vangent2025_wind (R a H y : ℝ) (hH : 0 < H) (hy : 0 < y) :
    calculate_influence_wind_gamma_w (fin R) (fin a) (fin H) (fin y) =
      fin (1 + 0.075 * ((R - a) / H) * y ^ (-0.3 : ℝ)) := by
  unfold calculate_influence_wind_gamma_w
  have o : (1.0 : PF) = fin 1 := by rw [sci_eq]; norm_num
  dsimp only
  rw [o, sub_fin, div_fin hH.ne']
  simp only [sci_eq, neg_fin]
  rw [npow_fin hy]
  simp only [mul_fin, add_fin]
end

/-! ## Ordinary inputs -/

example : Returns (DeRidder2024.calculate_overtopping_discharge_q_eq26 (fin 2) (fin 0.02) (fin 0.6) (fin 0.5)
    (fin 3) (fin 9.8))
    fun q => q / √(9.8 * 2 ^ 3) = Published.deRidder 0.50 7.91 0.30 0.5 (3 / 2 - 0.21 * (0.6 / 2)) 0.02 :=
  (C78_deridder2024_discharge 2 0.02 0.5 9.8 (by norm_num) (by norm_num) (by norm_num) (by norm_num) 3 0.6).2

example : ∃ R : ℝ, (DeRidder2026.calculate_crest_freeboard_discharge_q_eq28 (fin 2) (fin 0.02) (fin 0.5)
      (fin 0.001) (fin 9.81) (fin 30)).res = .ok (fin R) ∧
    0.001 / √(9.81 * 2 ^ 3) =
      Published.deRidder 0.16 6.93 0.36 (0.5 * Published.obliqueCos 0.35 30) (R / 2) 0.02 :=
  (C78_deridder2026_freeboard 2 0.02 0.5 9.81 30 (by norm_num) (by norm_num) (by norm_num) (by norm_num)
    0.001 0.6 (by norm_num)).1

example : Returns (VanGent2021Caisson.calculate_overtopping_discharge_q (fin 2) (fin 4) nan (fin 0.9) (fin 0.5)
      (fin 1.3) (fin 0.4) false true true (fin 9.81))
      fun q => q / √(9.81 * 2 ^ 3) = Published.caisson 0.047 2.57 1.3 0.9 0.85 0.4 (4 / 2) (0.5 / 2) :=
  C78_caisson_discharge_partial 2 9.81 0.5 0.4 1.3 0.047 2.57 0.70 0.85 true false true true (by norm_num)
    (by norm_num) (by unfold Published.caissonTable; simp) rfl 4 0.9 nan (fin 0.9) (by norm_num) (Or.inl rfl)
    (Or.inr (by norm_num))

example : ∃ R : ℝ,
    (VanGent2021Caisson.calculate_crest_freeboard_Rc (fin 2) (fin 0.01) (fin 20) nan (fin 0) (fin 1) (fin 0.4)
      true false false (fin 9.81)).res = .ok (fin R) ∧
    0.01 / √(9.81 * 2 ^ 3) =
      Published.caisson 0.2 3.9 1 (Published.obliqueCos (0.75 / 1) 20) 1 0 (R / 2) (0 / 2) :=
  C78_caisson_freeboard_partial 2 9.81 0 0.4 1 0.2 3.9 0.75 1 true true false false (by norm_num)
    (by norm_num) (by unfold Published.caissonTable; simp) rfl 0.01 _ (fin 20) nan (by norm_num)
    (by unfold Published.obliqueCos
        have := sq_nonneg (Real.cos (20 * (Real.pi / 180)))
        norm_num
        linarith)
    (Or.inr ⟨rfl, 20, rfl, rfl⟩) (Or.inl rfl)

example : ∃ (q : ℝ) (f : Bool), 0 < q ∧
    (VanGent2025.calculate_overtopping_discharge_q (fin 2) (fin 0.3) (fin 7) (fin 4) (fin 3.5) (fin 2) (fin 25)
      0.0 0.0 (fin 0.8) (fin 0.5) (fin 0.9) (fin 1.05) (fin 0.8) (fin 9.81) true false).res =
        .ok (fin q, f) ∧
    ∃ a b : ℝ,
      a = Published.slopeBreaking2025 2 (0.5 * 0.9 * 1.05 * 0.8) (Textbook.iribarren 2 7 2) (4 / 2) (0.3 / 2) ∧
      b = Published.slopeMaximum2025 2 (0.5 * 0.9 * 1.05 * 0.8) (Textbook.iribarren 2 7 2) (4 / 2) (0.3 / 2) ∧
      q / √(9.81 * 2 ^ 3) = min a b ^ (0.857 : ℝ) ∧ (f = true ↔ b ≤ a) :=
  C78_vangent2025_discharge 2 7 2 0.5 0.9 1.05 0.8 (fin 3.5) (fin 25) 0.0 0.0 (fin 0.8) (by norm_num)
    (by norm_num) (by norm_num) (by norm_num) (by norm_num) (by norm_num) (by norm_num) 4 0.3 9.81 true
    (by norm_num)

example : VanGent2025.calculate_influence_crest_wall_gamma_v (fin 2) (fin 4) (fin 3.5) =
    fin (1 + (if (2 : ℝ) ≤ 4 then 0.45 else 0.1125 * 2) * ((4 - 3.5) / 4)) :=
  C78_vangent2025_crest_wall 2 4 3.5 (by norm_num)

end
