import Verif.SpecFormula
import Verif.Lemmas.Range

/-! # Inequalities for the comparison of conditions (proof helpers of C80) -/

open Classical
noncomputable section

namespace WorseProof

/-- the Iribarren number against wave height, period and slope -/
theorem irib_sq {H T c : ℝ} (hH : 0 < H) (hT : 0 < T) (hc : 0 < c) : 0 < Textbook.iribarren H T c ∧
    Textbook.iribarren H T c ^ 2 * H = 9.81 * T ^ 2 / (2 * Real.pi) / c ^ 2 := by
  have hp := Real.pi_pos
  have e : (0 : ℝ) < 9.81 := by norm_num
  unfold Textbook.iribarren Textbook.steepness
  have hs : 0 < H / (9.81 * T ^ 2 / (2 * Real.pi)) := by positivity
  refine ⟨by positivity, ?_⟩
  rw [div_pow, mul_pow, Real.sq_sqrt hs.le]
  generalize (9.81 : ℝ) = g at *
  field_simp

theorem irib_T {H T T' c : ℝ} (hH : 0 < H) (hT : 0 < T) (hTT : T ≤ T') (hc : 0 < c) :
    Textbook.iribarren H T c ≤ Textbook.iribarren H T' c := by
  obtain ⟨a, b⟩ := irib_sq hH hT hc
  obtain ⟨a', b'⟩ := irib_sq hH (hT.trans_le hTT) hc
  refine le_of_sq_le_sq ?_ a'.le
  have hp := Real.pi_pos
  have : 9.81 * T ^ 2 / (2 * Real.pi) / c ^ 2 ≤ 9.81 * T' ^ 2 / (2 * Real.pi) / c ^ 2 := by gcongr
  rw [← b, ← b'] at this
  exact le_of_mul_le_mul_right this hH

theorem irib_c {H T c c' : ℝ} (hH : 0 < H) (hT : 0 < T) (hc' : 0 < c') (hcc : c' ≤ c) :
    Textbook.iribarren H T c ≤ Textbook.iribarren H T c' := by
  obtain ⟨a, b⟩ := irib_sq hH hT (hc'.trans_le hcc)
  obtain ⟨a', b'⟩ := irib_sq hH hT hc'
  refine le_of_sq_le_sq ?_ a'.le
  have hp := Real.pi_pos
  have : 9.81 * T ^ 2 / (2 * Real.pi) / c ^ 2 ≤ 9.81 * T ^ 2 / (2 * Real.pi) / c' ^ 2 := by gcongr
  rw [← b, ← b'] at this
  exact le_of_mul_le_mul_right this hH

/-- a higher wave: the Iribarren number falls, its product with the wave height rises -/
theorem irib_H {H H' T c : ℝ} (hH : 0 < H) (hHH : H ≤ H') (hT : 0 < T) (hc : 0 < c) :
    Textbook.iribarren H' T c ≤ Textbook.iribarren H T c ∧
    H * Textbook.iribarren H T c ≤ H' * Textbook.iribarren H' T c := by
  have hH' := hH.trans_le hHH
  obtain ⟨a, b⟩ := irib_sq hH hT hc
  obtain ⟨a', b'⟩ := irib_sq hH' hT hc
  generalize Textbook.iribarren H T c = x at *
  generalize Textbook.iribarren H' T c = x' at *
  rw [← b'] at b
  have h1 : x' ≤ x := by
    refine le_of_sq_le_sq ?_ a.le
    have : x' ^ 2 * H' ≤ x ^ 2 * H' := by
      rw [← b]; exact mul_le_mul_of_nonneg_left hHH (sq_nonneg x)
    exact le_of_mul_le_mul_right this hH'
  refine ⟨h1, ?_⟩
  have h2 : H * x * x ≤ H' * x' * x := by
    calc H * x * x = x' ^ 2 * H' := by rw [← b]; ring
      _ = H' * x' * x' := by ring
      _ ≤ H' * x' * x := mul_le_mul_of_nonneg_left h1 (by positivity)
  exact le_of_mul_le_mul_right h2 a

/-! ### roughness -/

open Published (roughness)

theorem rough_pos {f p : ℝ} (h0 : 0 < f) (h1 : f ≤ 1) : 0 < roughness f p := by
  unfold roughness
  split_ifs with h
  · exact h0
  · have : 0 ≤ (p - 1.8) * (1 - f) / (10 - 1.8) :=
      div_nonneg (mul_nonneg (by linarith) (by linarith)) (by norm_num)
    exact lt_min one_pos (by linarith)

/-- longer waves see less of the roughness -/
theorem rough_p {f p p' : ℝ} (h1 : f ≤ 1) (h : p ≤ p') : roughness f p ≤ roughness f p' := by
  unfold roughness
  have e : (0 : ℝ) < 10 - 1.8 := by norm_num
  split_ifs with a b b
  · exact le_rfl
  · have : 0 ≤ (p' - 1.8) * (1 - f) / (10 - 1.8) :=
      div_nonneg (mul_nonneg (by linarith) (by linarith)) e.le
    exact le_min h1 (by linarith)
  · exact absurd (h.trans_lt b) a
  · refine min_le_min_left _ ?_
    have : (p - 1.8) * (1 - f) ≤ (p' - 1.8) * (1 - f) :=
      mul_le_mul_of_nonneg_right (by linarith) (by linarith)
    have := div_le_div_of_nonneg_right this e.le
    linarith

theorem rough_f {f f' p : ℝ} (h : f ≤ f') (h1 : f' ≤ 1) : roughness f p ≤ roughness f' p := by
  unfold roughness
  split_ifs with a
  · exact h
  · by_cases b : p ≤ 10
    · refine min_le_min_left _ ?_
      have e : f + (p - 1.8) * (1 - f) / (10 - 1.8) = f * ((10 - p) / 8.2) + (p - 1.8) / 8.2 := by
        norm_num; ring
      have e' : f' + (p - 1.8) * (1 - f') / (10 - 1.8) = f' * ((10 - p) / 8.2) + (p - 1.8) / 8.2 := by
        norm_num; ring
      rw [e, e']
      have : f * ((10 - p) / 8.2) ≤ f' * ((10 - p) / 8.2) :=
        mul_le_mul_of_nonneg_right h (div_nonneg (by linarith) (by norm_num))
      linarith
    · have hb := not_le.mp b
      have : 1 ≤ f' + (p - 1.8) * (1 - f') / (10 - 1.8) := by
        have : (1 - f') ≤ (p - 1.8) * (1 - f') / (10 - 1.8) := by
          rw [le_div_iff₀ (by norm_num), mul_comm]
          exact mul_le_mul_of_nonneg_right (by linarith) (by linarith)
        linarith
      rw [min_eq_left this]
      exact min_le_left _ _

/-- the roughness grows at most in proportion to the Iribarren number -/
theorem rough_ratio {f p p' : ℝ} (h0 : 0.18 ≤ f) (h1 : f ≤ 1) (hp' : 0 < p') (h : p' ≤ p) :
    roughness f p * p' ≤ roughness f p' * p := by
  have f0 : 0 < f := lt_of_lt_of_le (by norm_num) h0
  have hp := hp'.trans_le h
  unfold roughness
  split_ifs with a b b
  · exact mul_le_mul_of_nonneg_left h f0.le
  · exact absurd (h.trans_lt a) b
  · have h2 : min 1 (f + (p - 1.8) * (1 - f) / (10 - 1.8)) ≤ f + (p - 1.8) * (1 - f) / (10 - 1.8) :=
      min_le_right _ _
    refine (mul_le_mul_of_nonneg_right h2 hp'.le).trans ?_
    have e : f + (p - 1.8) * (1 - f) / (10 - 1.8) = (10 * f - 1.8) / 8.2 + (1 - f) / 8.2 * p := by
      norm_num; ring
    rw [e]
    have k : (0 : ℝ) ≤ (10 * f - 1.8) / 8.2 := div_nonneg (by norm_num at h0 ⊢; linarith) (by norm_num)
    have k2 : (10 * f - 1.8) / 8.2 + (1 - f) / 8.2 * 1.8 = f := by norm_num; ring
    have k3 : (0 : ℝ) ≤ (1 - f) / 8.2 := div_nonneg (by linarith) (by norm_num)
    have a' : (1.8 : ℝ) ≤ p := not_lt.mp a
    calc ((10 * f - 1.8) / 8.2 + (1 - f) / 8.2 * p) * p'
        = (10 * f - 1.8) / 8.2 * p' + (1 - f) / 8.2 * p' * p := by ring
      _ ≤ (10 * f - 1.8) / 8.2 * p + (1 - f) / 8.2 * 1.8 * p := by
          gcongr
      _ = f * p := by rw [← add_mul, k2]
  · rcases le_total 1 (f + (p' - 1.8) * (1 - f) / (10 - 1.8)) with g | g
    · rw [min_eq_left g]
      exact (mul_le_mul_of_nonneg_right (min_le_left _ _) hp'.le).trans (by linarith)
    · rw [min_eq_right g]
      refine (mul_le_mul_of_nonneg_right (min_le_right _ _) hp'.le).trans ?_
      have e : ∀ p : ℝ, f + (p - 1.8) * (1 - f) / (10 - 1.8) = (10 * f - 1.8) / 8.2 + (1 - f) / 8.2 * p := by
        intro p; norm_num; ring
      rw [e, e]
      have k : (0 : ℝ) ≤ (10 * f - 1.8) / 8.2 := div_nonneg (by norm_num at h0 ⊢; linarith) (by norm_num)
      have : (10 * f - 1.8) / 8.2 * p' ≤ (10 * f - 1.8) / 8.2 * p := mul_le_mul_of_nonneg_left h k
      linarith

/-- wave height times roughness, and times the Iribarren number, rise with wave height, period, steepness
of the slope and smoothness of the slope -/
theorem rough_conditions {H H' T T' c c' f f' : ℝ} (hH : 0 < H) (hHH : H ≤ H') (hT : 0 < T) (hTT : T ≤ T')
    (hc' : 0 < c') (hcc : c' ≤ c) (hf : 0.18 ≤ f) (hff : f ≤ f') (hf1 : f' ≤ 1) :
    H * roughness f (Textbook.iribarren H T c) ≤ H' * roughness f' (Textbook.iribarren H' T' c') ∧
    H * Textbook.iribarren H T c * roughness f (Textbook.iribarren H T c) ≤
      H' * Textbook.iribarren H' T' c' * roughness f' (Textbook.iribarren H' T' c') := by
  have hc := hc'.trans_le hcc
  have hH' := hH.trans_le hHH
  obtain ⟨a, b⟩ := irib_H hH hHH hT hc
  have m : Textbook.iribarren H' T c ≤ Textbook.iribarren H' T' c' :=
    (irib_T hH' hT hTT hc).trans (irib_c hH' (hT.trans_le hTT) hc' hcc)
  have x0 := (irib_sq hH hT hc).1
  have y0 := (irib_sq hH' hT hc).1
  have f0 : 0 < f := lt_of_lt_of_le (by norm_num) hf
  have f1 := hff.trans hf1
  have hr := rough_ratio hf f1 y0 a
  have key : H * Textbook.iribarren H T c ^ 2 = H' * Textbook.iribarren H' T c ^ 2 := by
    rw [mul_comm H, (irib_sq hH hT hc).2, mul_comm H', (irib_sq hH' hT hc).2]
  generalize Textbook.iribarren H T c = x at *
  generalize Textbook.iribarren H' T c = y at *
  generalize Textbook.iribarren H' T' c' = z at *
  have r0 := rough_pos (p := x) f0 f1
  have q0 := rough_pos (p := y) f0 f1
  have up : roughness f y ≤ roughness f' z := (rough_p f1 m).trans (rough_f hff hf1)
  generalize roughness f x = r at *
  generalize roughness f y = q at *
  have s1 : H * r ≤ H' * q := by
    have : H * r * x ≤ H' * q * x := by
      calc H * r * x = H * x * r := by ring
        _ ≤ H' * y * r := mul_le_mul_of_nonneg_right b r0.le
        _ = H' * (r * y) := by ring
        _ ≤ H' * (q * x) := mul_le_mul_of_nonneg_left hr hH'.le
        _ = H' * q * x := by ring
    exact le_of_mul_le_mul_right this x0
  have s2 : H * x * r ≤ H' * y * q := by
    have : H * x * r * x ≤ H' * y * q * x := by
      calc H * x * r * x = H * x ^ 2 * r := by ring
        _ = H' * y ^ 2 * r := by rw [key]
        _ = H' * y * (r * y) := by ring
        _ ≤ H' * y * (q * x) := mul_le_mul_of_nonneg_left hr (by positivity)
        _ = H' * y * q * x := by ring
    exact le_of_mul_le_mul_right this x0
  refine ⟨s1.trans (mul_le_mul_of_nonneg_left up hH'.le), s2.trans ?_⟩
  have z0 := y0.trans_le m
  have := (q0.le).trans up
  gcongr

/-! ### discharges -/

/-- the factor in front of the exponential for breaking waves -/
theorem front {H H' T T' c c' g : ℝ} (hH : 0 < H) (hHH : H ≤ H') (hT : 0 < T) (hTT : T ≤ T')
    (hc' : 0 < c') (hcc : c' ≤ c) (hg : 0 < g) :
    √(g * H ^ 3) * (1 / √(1 / c) * Textbook.iribarren H T c) ≤
      √(g * H' ^ 3) * (1 / √(1 / c') * Textbook.iribarren H' T' c') := by
  have key : ∀ {H T c : ℝ}, 0 < H → 0 < T → 0 < c →
      0 ≤ √(g * H ^ 3) * (1 / √(1 / c) * Textbook.iribarren H T c) ∧
      (√(g * H ^ 3) * (1 / √(1 / c) * Textbook.iribarren H T c)) ^ 2 =
        g * H ^ 2 * (9.81 * T ^ 2 / (2 * Real.pi) / c) := by
    intro H T c hH hT hc
    obtain ⟨a, b⟩ := irib_sq hH hT hc
    refine ⟨by positivity, ?_⟩
    rw [mul_pow, mul_pow, div_pow, Real.sq_sqrt (by positivity), Real.sq_sqrt (by positivity)]
    calc g * H ^ 3 * (1 ^ 2 / (1 / c) * Textbook.iribarren H T c ^ 2)
        = g * H ^ 2 * c * (Textbook.iribarren H T c ^ 2 * H) := by field_simp
      _ = _ := by
        rw [b]
        generalize (9.81 : ℝ) = g'
        have := Real.pi_pos
        field_simp
  obtain ⟨a, b⟩ := key hH hT (hc'.trans_le hcc)
  obtain ⟨a', b'⟩ := key (hH.trans_le hHH) (hT.trans_le hTT) hc'
  refine le_of_sq_le_sq ?_ a'
  rw [b, b']
  have := Real.pi_pos
  have := hc'.trans_le hcc
  gcongr

theorem front_max {H H' g : ℝ} (hH : 0 < H) (hHH : H ≤ H') (hg : 0 < g) :
    √(g * H ^ 3) ≤ √(g * H' ^ 3) := by
  refine Real.sqrt_le_sqrt ?_
  gcongr

/-- exponential damping -/
theorem damp {P P' k R R' u u' e : ℝ} (hP : 0 ≤ P) (hPP : P ≤ P') (hk : 0 ≤ k) (hR : 0 ≤ R') (hRR : R' ≤ R)
    (hu : 0 < u) (huu : u ≤ u') (he : 0 ≤ e) :
    P * Real.exp (-(k * R / u) ^ e) ≤ P' * Real.exp (-(k * R' / u') ^ e) := by
  have h1 : k * R' / u' ≤ k * R / u := by
    have := hu.trans_le huu
    have := hR.trans hRR
    gcongr
  have h0 : 0 ≤ k * R' / u' := div_nonneg (mul_nonneg hk hR) (hu.le.trans huu)
  have h2 : (k * R' / u') ^ e ≤ (k * R / u) ^ e := Real.rpow_le_rpow h0 h1 he
  exact mul_le_mul hPP (Real.exp_le_exp.mpr (by linarith)) (Real.exp_pos _).le (hP.trans hPP)

theorem div_scale (k R H d : ℝ) : k * (R / H) / d = k * R / (H * d) := by
  rw [← mul_div_assoc, div_div]

theorem breaking_scaled {k c r gB gv x R H g : ℝ} :
    Published.breakingDischarge k c 1 r gB gv x (R / H) * √(g * H ^ 3) =
      0.067 * (√(g * H ^ 3) * (1 / √(1 / c) * x)) * Real.exp (-(k * R / (H * x * r * (gB * gv))) ^ (1 : ℝ)) := by
  unfold Published.breakingDischarge
  rw [Real.rpow_one]
  have e : -k * (R / H) / (x * 1 * r * gB * gv) = -(k * R / (H * x * r * (gB * gv))) := by
    have : H * x * r * (gB * gv) = H * (x * 1 * r * gB * gv) := by ring
    rw [this, neg_mul, neg_div, div_scale]
  rw [e]
  generalize (0.067 : ℝ) = a
  ring

theorem maximum_scaled {a k r gB R H g : ℝ} :
    Published.maximumDischarge a k r gB (R / H) * √(g * H ^ 3) =
      a * √(g * H ^ 3) * Real.exp (-(k * R / (H * r * gB)) ^ (1 : ℝ)) := by
  unfold Published.maximumDischarge
  rw [Real.rpow_one]
  have e : -k * (R / H) / (r * gB) = -(k * R / (H * r * gB)) := by
    rw [mul_assoc H, neg_mul, neg_div, div_scale]
  rw [e]
  ring

theorem breaking2018_scaled {k a c r gB gv x R H g : ℝ} :
    Published.breakingDischarge2018 k a c 1 r gB gv x (R / H) * √(g * H ^ 3) =
      a * (√(g * H ^ 3) * (1 / √(1 / c) * x)) * Real.exp (-(k * R / (H * x * r * (gB * gv))) ^ (1.3 : ℝ)) := by
  unfold Published.breakingDischarge2018
  have e : k * (R / H) / (x * 1 * r * gB * gv) = k * R / (H * x * r * (gB * gv)) := by
    have : H * x * r * (gB * gv) = H * (x * 1 * r * gB * gv) := by ring
    rw [this, div_scale]
  rw [e]
  ring

theorem maximum2018_scaled {a k r gB gs R H g : ℝ} :
    Published.maximumDischarge2018 a k r gB gs (R / H) * √(g * H ^ 3) =
      a * √(g * H ^ 3) * Real.exp (-(k * R / (H * r * (gB * gs))) ^ (1.3 : ℝ)) := by
  unfold Published.maximumDischarge2018
  have e : k * (R / H) / (r * gB * gs) = k * R / (H * r * (gB * gs)) := by
    have : H * r * (gB * gs) = H * (r * gB * gs) := by ring
    rw [this, div_scale]
  rw [e]
  ring

/-! ### Van Gent et al. (2025) -/

theorem irib_conditions {H H' T T' c c' : ℝ} (hH : 0 < H) (hHH : H ≤ H') (hT : 0 < T) (hTT : T ≤ T')
    (hc' : 0 < c') (hcc : c' ≤ c) :
    H * Textbook.iribarren H T c ≤ H' * Textbook.iribarren H' T' c' ∧
    H * Textbook.iribarren H T c ^ (0.24 : ℝ) ≤ H' * Textbook.iribarren H' T' c' ^ (0.24 : ℝ) := by
  have hc := hc'.trans_le hcc
  have hH' := hH.trans_le hHH
  obtain ⟨a, b⟩ := irib_H hH hHH hT hc
  have m : Textbook.iribarren H' T c ≤ Textbook.iribarren H' T' c' :=
    (irib_T hH' hT hTT hc).trans (irib_c hH' (hT.trans_le hTT) hc' hcc)
  have x0 := (irib_sq hH hT hc).1
  have y0 := (irib_sq hH' hT hc).1
  generalize Textbook.iribarren H T c = x at *
  generalize Textbook.iribarren H' T c = y at *
  generalize Textbook.iribarren H' T' c' = z at *
  refine ⟨b.trans (by gcongr), ?_⟩
  have e : ∀ x : ℝ, 0 < x → x ^ (0.24 : ℝ) = x * x ^ (-0.76 : ℝ) := by
    intro x hx
    nth_rewrite 2 [← Real.rpow_one x]
    rw [← Real.rpow_add hx]
    norm_num
  have h1 : x ^ (-0.76 : ℝ) ≤ y ^ (-0.76 : ℝ) := Real.rpow_le_rpow_of_nonpos y0 a (by norm_num)
  have h2 : 0 ≤ x ^ (-0.76 : ℝ) := (Real.rpow_pos_of_pos x0 _).le
  calc H * x ^ (0.24 : ℝ) = H * x * x ^ (-0.76 : ℝ) := by rw [e x x0]; ring
    _ ≤ H' * y * y ^ (-0.76 : ℝ) := by gcongr
    _ = H' * y ^ (0.24 : ℝ) := by rw [e y y0]; ring
    _ ≤ H' * z ^ (0.24 : ℝ) :=
      mul_le_mul_of_nonneg_left (Real.rpow_le_rpow y0.le m (by norm_num)) hH'.le

theorem slopeBreaking_damp {c G x R w H : ℝ} :
    Published.slopeBreaking2025 c G x (R / H) (w / H) =
      6.8 / c * Real.exp (-(5 * (R - 0.4 * w) / (H * x * G)) ^ (1 : ℝ)) := by
  unfold Published.slopeBreaking2025
  rw [Real.rpow_one]
  have e : -5 * (R / H - 0.4 * (w / H)) / (G * x) = -(5 * (R - 0.4 * w) / (H * x * G)) := by
    have h1 : R / H - 0.4 * (w / H) = (R - 0.4 * w) / H := by ring
    have h2 : H * x * G = H * (G * x) := by ring
    rw [h1, h2, neg_mul, neg_div, div_scale]
  rw [e]

theorem slopeMaximum_damp {c G x R w H : ℝ} :
    Published.slopeMaximum2025 c G x (R / H) (w / H) =
      0.8 / c * Real.exp (-(2.5 * (R - 0.4 * w) / (H * x ^ (0.24 : ℝ) * G)) ^ (1 : ℝ)) := by
  unfold Published.slopeMaximum2025
  rw [Real.rpow_one]
  have e : -2.5 * (R / H - 0.4 * (w / H)) / (G * x ^ (0.24 : ℝ)) =
      -(2.5 * (R - 0.4 * w) / (H * x ^ (0.24 : ℝ) * G)) := by
    have h1 : R / H - 0.4 * (w / H) = (R - 0.4 * w) / H := by ring
    have h2 : H * x ^ (0.24 : ℝ) * G = H * (G * x ^ (0.24 : ℝ)) := by ring
    rw [h1, h2, neg_mul, neg_div, div_scale]
  rw [e]

/-! ### run-up -/

/-- the bracket of the maximum run-up -/
def G (c2 c3 x : ℝ) : ℝ := c2 - c3 / √x

theorem G_mono {c2 c3 x y : ℝ} (h3 : 0 ≤ c3) (hy : 0 < y) (h : y ≤ x) : G c2 c3 y ≤ G c2 c3 x := by
  unfold G
  have := Real.sqrt_pos.mpr hy
  gcongr

theorem G_pos {c2 c3 y : ℝ} (h3 : 0 ≤ c3) (h23 : 15 / 7 * c3 ≤ c2) (h2 : 0 < c2) (hy : 0.5 ≤ y) :
    0 < G c2 c3 y := by
  have hb : (0.7 : ℝ) ≤ √y := Real.le_sqrt_of_sq_le (by norm_num at hy ⊢; linarith)
  have hb0 : 0 < √y := lt_of_lt_of_le (by norm_num) hb
  unfold G
  rw [sub_pos, div_lt_iff₀ hb0]
  have : c2 * 0.7 ≤ c2 * √y := mul_le_mul_of_nonneg_left hb h2.le
  norm_num at this
  linarith

theorem G_ratio {c2 c3 x y : ℝ} (h3 : 0 ≤ c3) (h23 : 15 / 7 * c3 ≤ c2) (hy : 0.5 ≤ y) (h : y ≤ x) :
    y * G c2 c3 x ≤ x * G c2 c3 y := by
  have hy0 : 0 < y := lt_of_lt_of_le (by norm_num) hy
  have hb : (0.7 : ℝ) ≤ √y := Real.le_sqrt_of_sq_le (by norm_num at hy ⊢; linarith)
  have hb0 : 0 < √y := lt_of_lt_of_le (by norm_num) hb
  have hab : √y ≤ √x := Real.sqrt_le_sqrt h
  have ha0 := hb0.trans_le hab
  have ex : x = √x ^ 2 := (Real.sq_sqrt (hy0.trans_le h).le).symm
  have ey : y = √y ^ 2 := (Real.sq_sqrt hy0.le).symm
  unfold G
  generalize √x = a at *
  generalize √y = b at *
  subst ex ey
  have e : a ^ 2 * (c2 - c3 / b) - b ^ 2 * (c2 - c3 / a) =
      (a - b) * (c2 * (a * b * (a + b)) - c3 * (a ^ 2 + a * b + b ^ 2)) / (a * b) := by
    field_simp
    ring
  have k : c3 * (a ^ 2 + a * b + b ^ 2) ≤ c2 * (a * b * (a + b)) := by
    have h1 : 7 * (a ^ 2 + a * b + b ^ 2) ≤ 15 * (a * b * (a + b)) := by
      have : 0 ≤ (b - 0.7) * (a * (a + b)) := mul_nonneg (by linarith) (by positivity)
      have h2 : b * b ≤ a * b := mul_le_mul_of_nonneg_right hab hb0.le
      have h3 : a * b ≤ a * a := mul_le_mul_of_nonneg_left hab ha0.le
      nlinarith
    have h2 : 15 / 7 * c3 * (a * b * (a + b)) ≤ c2 * (a * b * (a + b)) :=
      mul_le_mul_of_nonneg_right h23 (by positivity)
    have h4 : c3 * (7 * (a ^ 2 + a * b + b ^ 2)) ≤ c3 * (15 * (a * b * (a + b))) :=
      mul_le_mul_of_nonneg_left h1 h3
    linarith
  have : 0 ≤ a ^ 2 * (c2 - c3 / b) - b ^ 2 * (c2 - c3 / a) := by
    rw [e]
    exact div_nonneg (mul_nonneg (by linarith) (by linarith)) (by positivity)
  linarith

/-- run-up over both formulas -/
theorem runup_step {H H' T T' c c' f f' gB gB' c1 c2 c3 c4 : ℝ} (hH : 0 < H) (hHH : H ≤ H')
    (hT : 0 < T) (hTT : T ≤ T') (hc' : 0 < c') (hcc : c' ≤ c) (hf : 0.18 ≤ f) (hff : f ≤ f') (hf1 : f' ≤ 1)
    (hB : 0 < gB) (hBB : gB ≤ gB') (h1 : 0 < c1) (h2 : 0 < c2) (h3 : 0 ≤ c3) (h4 : 0 < c4)
    (h23 : 15 / 7 * c3 ≤ c2) (hlow : 0.5 ≤ Textbook.iribarren H' T c) :
    0 < H * Published.runup c1 c2 c3 c4 1 (roughness f (Textbook.iribarren H T c)) gB
      (Textbook.iribarren H T c) ∧
    H * Published.runup c1 c2 c3 c4 1 (roughness f (Textbook.iribarren H T c)) gB
      (Textbook.iribarren H T c) ≤
    H' * Published.runup c1 c2 c3 c4 1 (roughness f' (Textbook.iribarren H' T' c')) gB'
      (Textbook.iribarren H' T' c') := by
  have hc := hc'.trans_le hcc
  have hH' := hH.trans_le hHH
  have f0 : 0 < f := lt_of_lt_of_le (by norm_num) hf
  have f1 := hff.trans hf1
  obtain ⟨-, m2⟩ := rough_conditions hH hHH hT hTT hc' hcc hf hff hf1
  obtain ⟨a, b⟩ := irib_H hH hHH hT hc
  have m : Textbook.iribarren H' T c ≤ Textbook.iribarren H' T' c' :=
    (irib_T hH' hT hTT hc).trans (irib_c hH' (hT.trans_le hTT) hc' hcc)
  have key : H * Textbook.iribarren H T c ^ 2 = H' * Textbook.iribarren H' T c ^ 2 := by
    rw [mul_comm H, (irib_sq hH hT hc).2, mul_comm H', (irib_sq hH' hT hc).2]
  have x0 := (irib_sq hH hT hc).1
  have y0 := (irib_sq hH' hT hc).1
  have hr := rough_ratio hf f1 y0 a
  generalize Textbook.iribarren H T c = x at *
  generalize Textbook.iribarren H' T c = y at *
  generalize Textbook.iribarren H' T' c' = z at *
  have r0 := rough_pos (p := x) f0 f1
  have q0 := rough_pos (p := y) f0 f1
  have up : roughness f y ≤ roughness f' z := (rough_p f1 m).trans (rough_f hff hf1)
  generalize roughness f x = r at *
  generalize roughness f y = q at *
  generalize roughness f' z = p at *
  have g0 := G_pos h3 h23 h2 hlow
  have gx := G_pos h3 h23 h2 (hlow.trans a)
  have gr := G_ratio h3 h23 hlow a
  have gm := G_mono (c2 := c2) h3 y0 m
  have s : H * r * G c2 c3 x ≤ H' * q * G c2 c3 y := by
    have : H * r * G c2 c3 x * x ^ 2 * y ^ 2 ≤ H' * q * G c2 c3 y * x ^ 2 * y ^ 2 := by
      calc H * r * G c2 c3 x * x ^ 2 * y ^ 2 = (H * x ^ 2) * ((r * y) * (y * G c2 c3 x)) := by ring
        _ ≤ (H * x ^ 2) * ((q * x) * (x * G c2 c3 y)) := by gcongr
        _ = H' * q * G c2 c3 y * x ^ 2 * y ^ 2 := by rw [key]; ring
    exact le_of_mul_le_mul_right (by rwa [mul_assoc, mul_assoc (H' * q * _)] at this) (by positivity)
  have p0 := q0.trans_le up
  have B0 := hB.trans_le hBB
  have s' : H * r * G c2 c3 x ≤ H' * p * G c2 c3 z := s.trans (by gcongr)
  unfold Published.runup
  have e : ∀ x, c2 - c3 / √x = G c2 c3 x := fun _ => rfl
  rw [e, e, mul_min_of_nonneg _ _ hH.le, mul_min_of_nonneg _ _ hH'.le]
  refine ⟨lt_min (by positivity) (by positivity), min_le_min ?_ ?_⟩
  · calc H * (c1 * 1 * r * gB * x) = c1 * gB * (H * x * r) := by ring
      _ ≤ c1 * gB' * (H' * z * p) := by
        have : 0 ≤ H * x * r := by positivity
        gcongr
      _ = _ := by ring
  · calc H * (c4 * r * gB * G c2 c3 x) = c4 * gB * (H * r * G c2 c3 x) := by ring
      _ ≤ c4 * gB' * (H' * p * G c2 c3 z) := by
        have : 0 ≤ H * r * G c2 c3 x := by positivity
        gcongr
      _ = _ := by ring

/-- the same, first period and slope, then the wave height -/
theorem runup_conditions {H H' T T' c c' f f' gB gB' c1 c2 c3 c4 : ℝ} (hH : 0 < H) (hHH : H ≤ H')
    (hT : 0 < T) (hTT : T ≤ T') (hc' : 0 < c') (hcc : c' ≤ c) (hf : 0.18 ≤ f) (hff : f ≤ f') (hf1 : f' ≤ 1)
    (hB : 0 < gB) (hBB : gB ≤ gB') (h1 : 0 < c1) (h2 : 0 < c2) (h3 : 0 ≤ c3) (h4 : 0 < c4)
    (h23 : 15 / 7 * c3 ≤ c2) (hl : 0.5 ≤ Textbook.iribarren H T c)
    (hl' : 0.5 ≤ Textbook.iribarren H' T' c') :
    0 < H * Published.runup c1 c2 c3 c4 1 (roughness f (Textbook.iribarren H T c)) gB
      (Textbook.iribarren H T c) ∧
    H * Published.runup c1 c2 c3 c4 1 (roughness f (Textbook.iribarren H T c)) gB
      (Textbook.iribarren H T c) ≤
    H' * Published.runup c1 c2 c3 c4 1 (roughness f' (Textbook.iribarren H' T' c')) gB'
      (Textbook.iribarren H' T' c') := by
  have a := runup_step hH le_rfl hT hTT hc' hcc hf hff hf1 hB hBB h1 h2 h3 h4 h23 hl
  have b := runup_step hH hHH (hT.trans_le hTT) le_rfl hc' le_rfl (hf.trans hff) le_rfl hf1
    (hB.trans_le hBB) le_rfl h1 h2 h3 h4 h23 hl'
  exact ⟨a.1, a.2.trans b.2⟩

end WorseProof
end
