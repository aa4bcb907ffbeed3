import Verif.Lemmas.WorseStructural
import Verif.Props.FormulasToe

/-! # C92: worse conditions never make a rear slope look safer -/

open Classical
open PF WorseStrProof
noncomputable section

namespace WorseStrProof
open RunupProof

theorem rf_strict {c0 c1 u v : ℝ} (h0 : 0 < c0) (h1 : 0 < c1) (hu : 0 < u) (huv : u < v) :
    rf c0 c1 u < rf c0 c1 v := by
  have hv : 0 < v := hu.trans huv
  rw [rf_eq, rf_eq]
  split_ifs with a b b
  · gcongr
  · have b := not_lt.mp b
    rw [div_le_iff₀ (by positivity)] at b
    rw [lt_div_iff₀ (by positivity)] at a
    have : c1 ^ 2 / (4 * c0 * v) ≤ c1 / 2 := by
      rw [div_le_div_iff₀ (by positivity) (by norm_num)]; nlinarith
    nlinarith
  · exact absurd (huv.trans b) a
  · gcongr

theorem runup_eq {c0 c1 H T c f z : ℝ} (hH : 0 < H) (hT : 0 < T) (hc : 0 < c) (hf : 0 < f) (h : Published.VanGentRunup c0 c1 (Textbook.iribarren H T c) f H z) :
    z = rf c0 c1 (VdMProof.xi H T c) * f * H := by
  have hx := VdMProof.xi_pos hH hT hc
  rw [RangeProof.irib_eq] at h
  rw [rf_eq]
  generalize VdMProof.xi H T c = x at *
  unfold Published.VanGentRunup at h
  split_ifs with g
  · have := h.1 g.le
    rw [div_eq_iff (by positivity)] at this
    rw [this]; ring
  · have := h.2 (not_lt.mp g)
    rw [div_eq_iff (by positivity), div_div] at this
    rw [this]; ring

/-- run-up per reduction factor, jointly in all conditions -/
theorem rfH_le {c0 c1 H H' T T' c c' : ℝ} (hH : 0 < H) (hHH : H ≤ H') (hT : 0 < T) (hTT : T ≤ T') (hc : 0 < c')
    (hcc : c' ≤ c) (h0 : 0 < c0) (h1 : 0 < c1) :
    0 < rf c0 c1 (VdMProof.xi H T c) * H ∧
    rf c0 c1 (VdMProof.xi H T c) * H ≤ rf c0 c1 (VdMProof.xi H' T' c') * H' ∧
    (H < H' ∨ T < T' ∨ c' < c →
      rf c0 c1 (VdMProof.xi H T c) * H < rf c0 c1 (VdMProof.xi H' T' c') * H') := by
  have hH' := hH.trans_le hHH
  have hT' := hT.trans_le hTT
  have hc0 := hc.trans_le hcc
  have s2 : H < H' → rf c0 c1 (VdMProof.xi H T c) * H < rf c0 c1 (VdMProof.xi H' T c) * H' := fun h => by
    have := runup_strictMono hT hc0 h0 h1 one_pos hH h
    simpa using this
  have s1 : rf c0 c1 (VdMProof.xi H T c) * H ≤ rf c0 c1 (VdMProof.xi H' T c) * H' := by
    rcases hHH.lt_or_eq with h | h
    · exact (s2 h).le
    · rw [h]
  have hpi := Real.pi_pos
  have key : ∀ t d : ℝ, 0 < t → 0 < d → VdMProof.xi H' t d = t / d * (1 / √(2 * Real.pi / 9.81 * H')) := by
    intro t d ht hd
    unfold VdMProof.xi
    rw [Real.sqrt_div (by positivity), Real.sqrt_sq ht.le]
    have : (1.0 : ℝ) = 1 := by norm_num
    rw [this]; field_simp
  have hq : 0 < 1 / √(2 * Real.pi / 9.81 * H') := by
    have : 0 < √(2 * Real.pi / 9.81 * H') := Real.sqrt_pos.mpr (by positivity)
    positivity
  have x1 : VdMProof.xi H' T c ≤ VdMProof.xi H' T' c' := by
    rw [key T c hT hc0, key T' c' hT' hc]; gcongr
  have x2 : T < T' ∨ c' < c → VdMProof.xi H' T c < VdMProof.xi H' T' c' := by
    rw [key T c hT hc0, key T' c' hT' hc]
    rintro (h | h)
    · calc _ < T' / c * (1 / √(2 * Real.pi / 9.81 * H')) := by gcongr
        _ ≤ _ := by gcongr
    · calc _ < T / c' * (1 / √(2 * Real.pi / 9.81 * H')) := by gcongr
        _ ≤ _ := by gcongr
  have x0 := VdMProof.xi_pos hH' hT hc0
  have t1 : rf c0 c1 (VdMProof.xi H' T c) * H' ≤ rf c0 c1 (VdMProof.xi H' T' c') * H' :=
    mul_le_mul_of_nonneg_right (rf_mono h0 h1 x0 x1) hH'.le
  have t2 : T < T' ∨ c' < c → rf c0 c1 (VdMProof.xi H' T c) * H' < rf c0 c1 (VdMProof.xi H' T' c') * H' :=
    fun h => mul_lt_mul_of_pos_right (rf_strict h0 h1 x0 (x2 h)) hH'
  refine ⟨mul_pos (rf_pos h0 h1 (VdMProof.xi_pos hH hT hc0)) hH, s1.trans t1, ?_⟩
  rintro (h | h)
  · exact (s2 h).trans_le t1
  · exact s1.trans_lt (t2 h)

theorem runup_le {c0 c1 H H' T T' c c' f f' z z' : ℝ} (hH : 0 < H) (hHH : H ≤ H') (hT : 0 < T) (hTT : T ≤ T')
    (hc : 0 < c') (hcc : c' ≤ c) (h0 : 0 < c0) (h1 : 0 < c1) (hf : 0 < f) (hff : f ≤ f')
    (hz : Published.VanGentRunup c0 c1 (Textbook.iribarren H T c) f H z)
    (hz' : Published.VanGentRunup c0 c1 (Textbook.iribarren H' T' c') f' H' z') :
    0 < z ∧ z ≤ z' ∧ (H < H' ∨ T < T' ∨ c' < c ∨ f < f' → z < z') := by
  obtain ⟨r0, r1, r2⟩ := rfH_le hH hHH hT hTT hc hcc h0 h1
  rw [runup_eq hH hT (hc.trans_le hcc) hf hz,
    runup_eq (hH.trans_le hHH) (hT.trans_le hTT) hc (hf.trans_le hff) hz', mul_right_comm,
    mul_right_comm (rf c0 c1 (VdMProof.xi H' T' c'))]
  generalize rf c0 c1 (VdMProof.xi H T c) * H = y at *
  generalize rf c0 c1 (VdMProof.xi H' T' c') * H' = y' at *
  have r3 := r0.trans_le r1
  have hf' := hf.trans_le hff
  refine ⟨by positivity, by gcongr, ?_⟩
  have s : y < y' → y * f < y' * f' := fun h => by
    calc _ < y' * f := by gcongr
      _ ≤ _ := by gcongr
  rintro (h | h | h | h)
  · exact s (r2 (Or.inl h))
  · exact s (r2 (Or.inr (Or.inl h)))
  · exact s (r2 (Or.inr (Or.inr h)))
  · calc _ < y * f' := by gcongr
      _ ≤ _ := by gcongr

/-! ## the crest in Van Gent (2007) -/

theorem pow4_lt {v : ℝ} (h0 : 0 < v) (h1 : v < 1) : (1 + 4 * v) * (1 - v) ^ 4 < 1 := by
  have e : (1 + 4 * v) * (1 - v) ^ 4 = 1 - v ^ 2 * (10 - 20 * v + 15 * v ^ 2 - 4 * v ^ 3) := by ring
  rw [e]
  have : 0 < 10 - 20 * v + 15 * v ^ 2 - 4 * v ^ 3 := by
    nlinarith [sq_nonneg (v - 1), mul_pos h0 (sub_pos.mpr h1), sq_nonneg v, mul_pos h0 h0]
  have := mul_pos (pow_pos h0 2) this
  linarith

theorem pow4_lt' {u : ℝ} (h0 : 0 < u) : (1 + u / 4) ^ 4 * (1 - u) < 1 := by
  have e : (1 + u / 4) ^ 4 * (1 - u) = 1 - u ^ 2 * (5 / 8 + 5 / 16 * u + 15 / 256 * u ^ 2 + u ^ 3 / 256) := by ring
  rw [e]
  have : 0 < u ^ 2 * (5 / 8 + 5 / 16 * u + 15 / 256 * u ^ 2 + u ^ 3 / 256) := by positivity
  linarith

/-- a lower crest, not lower than a fifth of the run-up level -/
theorem lower_crest {x y z : ℝ} (hx : 0 < x) (hxy : x < y) (hz : y < z) (hl : z ≤ 5 * x) :
    (z - y) ^ 2 * √y < (z - x) ^ 2 * √x := by
  have ha : 0 < z - x := by linarith
  have hb : 0 < z - y := by linarith
  have hy := hx.trans hxy
  have h := pow4_lt (v := (y - x) / (z - x)) (by apply div_pos <;> linarith) (by rw [div_lt_one ha]; linarith)
  have e1 : 1 - (y - x) / (z - x) = (z - y) / (z - x) := by field_simp; ring
  have e2 : y / x ≤ 1 + 4 * ((y - x) / (z - x)) := by
    have : (y - x) / x ≤ 4 * ((y - x) / (z - x)) := by
      rw [← mul_div_assoc, div_le_div_iff₀ hx ha]; nlinarith
    have e : y / x = 1 + (y - x) / x := by field_simp; ring
    linarith
  rw [e1, div_pow] at h
  have h3 : y / x * ((z - y) ^ 4 / (z - x) ^ 4) < 1 :=
    lt_of_le_of_lt (mul_le_mul_of_nonneg_right e2 (by positivity)) h
  have h4 : y * (z - y) ^ 4 < x * (z - x) ^ 4 := by
    rw [div_mul_div_comm, div_lt_one (by positivity)] at h3; exact h3
  have p1 : 0 ≤ (z - y) ^ 2 * √y := by positivity
  have p2 : 0 ≤ (z - x) ^ 2 * √x := by positivity
  refine lt_of_pow_lt_pow_left₀ 2 p2 ?_
  rw [mul_pow, mul_pow, Real.sq_sqrt hx.le, Real.sq_sqrt hy.le]
  nlinarith

/-- a higher crest, not higher than a fifth of the run-up level -/
theorem higher_crest {x y z : ℝ} (hx : 0 < x) (hxy : x < y) (hl : 5 * y ≤ z) :
    (z - x) ^ 2 * √x < (z - y) ^ 2 * √y := by
  have hy := hx.trans hxy
  have ha : 0 < z - x := by linarith
  have hb : 0 < z - y := by linarith
  have h := pow4_lt' (u := (y - x) / y) (by apply div_pos <;> linarith)
  have e1 : 1 - (y - x) / y = x / y := by field_simp; ring
  have e2 : (z - x) / (z - y) ≤ 1 + (y - x) / y / 4 := by
    have : (y - x) / (z - y) ≤ (y - x) / y / 4 := by
      rw [div_div, div_le_div_iff₀ hb (by positivity)]; nlinarith
    have e : (z - x) / (z - y) = 1 + (y - x) / (z - y) := by field_simp; ring
    linarith
  have e3 : ((z - x) / (z - y)) ^ 4 ≤ (1 + (y - x) / y / 4) ^ 4 := by gcongr
  rw [e1] at h
  have h3 : ((z - x) / (z - y)) ^ 4 * (x / y) < 1 :=
    lt_of_le_of_lt (mul_le_mul_of_nonneg_right e3 (by positivity)) h
  have h4 : (z - x) ^ 4 * x < (z - y) ^ 4 * y := by
    rw [div_pow, div_mul_div_comm, div_lt_one (by positivity)] at h3; exact h3
  have p1 : 0 ≤ (z - y) ^ 2 * √y := by positivity
  have p2 : 0 ≤ (z - x) ^ 2 * √x := by positivity
  refine lt_of_pow_lt_pow_left₀ 2 p1 ?_
  rw [mul_pow, mul_pow, Real.sq_sqrt hx.le, Real.sq_sqrt hy.le]
  nlinarith

/-- everything but the size of the stone and the damage, in Van Gent (2007) -/
theorem rear_load {z z' Rc Rc' Rr Rr' Rf Rf' H H' N N' : ℝ} (hz : Rc < z) (hzz : z ≤ z') (hRc : 0 < Rc')
    (hRR : Rc' ≤ Rc) (hl : Rc' < Rc → z' ≤ 5 * Rc') (hRr : 0 ≤ Rr) (hrr : Rr ≤ Rr') (hR' : Rr' < Rc')
    (hRf : 0 ≤ Rf') (hff : Rf' ≤ Rf) (hH : 0 < H) (hHH : H ≤ H') (hN : 0 < N) (hNN : N ≤ N') :
    0 < (z - Rc) ^ 2 * √Rc * (1 + 5 * Rr / (Rc - Rr)) / (1 + Rf / H) * √N ∧
    (z - Rc) ^ 2 * √Rc * (1 + 5 * Rr / (Rc - Rr)) / (1 + Rf / H) * √N ≤
      (z' - Rc') ^ 2 * √Rc' * (1 + 5 * Rr' / (Rc' - Rr')) / (1 + Rf' / H') * √N' ∧
    (z < z' ∨ Rc' < Rc ∨ Rr < Rr' ∨ Rf' < Rf ∨ N < N' →
      (z - Rc) ^ 2 * √Rc * (1 + 5 * Rr / (Rc - Rr)) / (1 + Rf / H) * √N <
      (z' - Rc') ^ 2 * √Rc' * (1 + 5 * Rr' / (Rc' - Rr')) / (1 + Rf' / H') * √N') := by
  have hRc0 := hRc.trans_le hRR
  have hH' := hH.trans_le hHH
  have hw := sub_pos.mpr hz
  have hw1 : z - Rc ≤ z' - Rc := by linarith
  have hs := Real.sqrt_pos.mpr hRc0
  have q1 : (z' - Rc) ^ 2 * √Rc ≤ (z' - Rc') ^ 2 * √Rc' := by
    rcases hRR.lt_or_eq with h | h
    · exact (lower_crest hRc h (by linarith) (hl h)).le
    · rw [h]
  have p1 : (z - Rc) ^ 2 * √Rc ≤ (z' - Rc') ^ 2 * √Rc' := le_trans (by gcongr) q1
  have p2 : z < z' ∨ Rc' < Rc → (z - Rc) ^ 2 * √Rc < (z' - Rc') ^ 2 * √Rc' := by
    rintro (h | h)
    · have : z - Rc < z' - Rc := by linarith
      exact lt_of_lt_of_le (by gcongr) q1
    · exact lt_of_le_of_lt (by gcongr) (lower_crest hRc h (by linarith) (hl h))
  have p0 : 0 < (z - Rc) ^ 2 * √Rc := by positivity
  have d1 : 0 < Rc - Rr := by linarith
  have d2 : 0 < Rc' - Rr' := by linarith
  obtain ⟨e1, e2⟩ : 5 * Rr / (Rc - Rr) ≤ 5 * Rr' / (Rc' - Rr') ∧
      (Rr < Rr' → 5 * Rr / (Rc - Rr) < 5 * Rr' / (Rc' - Rr')) := by
    have : Rc' - Rr' ≤ Rc - Rr := by linarith
    have hR0 := hRr.trans hrr
    refine ⟨by gcongr, fun h => ?_⟩
    calc _ < 5 * Rr' / (Rc - Rr) := by gcongr
      _ ≤ _ := by gcongr
  have e0 : 0 < 1 + 5 * Rr / (Rc - Rr) := by positivity
  have hRf0 := hRf.trans hff
  obtain ⟨g1, g2⟩ : Rf' / H' ≤ Rf / H ∧ (Rf' < Rf → Rf' / H' < Rf / H) := by
    refine ⟨by gcongr, fun h => ?_⟩
    calc _ ≤ Rf' / H := by gcongr
      _ < _ := by gcongr
  have g0 : 0 < 1 + Rf' / H' := by positivity
  have n0 := Real.sqrt_pos.mpr hN
  have n1 : √N ≤ √N' := by gcongr
  have n2 : N < N' → √N < √N' := fun h => Real.sqrt_lt_sqrt hN.le h
  generalize (z - Rc) ^ 2 * √Rc = P at *
  generalize (z' - Rc') ^ 2 * √Rc' = P' at *
  generalize 5 * Rr / (Rc - Rr) = E at *
  generalize 5 * Rr' / (Rc' - Rr') = E' at *
  generalize Rf / H = G at *
  generalize Rf' / H' = G' at *
  generalize √N = n at *
  generalize √N' = n' at *
  have p3 := p0.trans_le p1
  have n3 := n0.trans_le n1
  have e3 : 0 < 1 + E' := by linarith
  have g3 : 0 < 1 + G := by linarith
  refine ⟨by positivity, by gcongr, ?_⟩
  have sp : P < P' → P * (1 + E) / (1 + G) * n < P' * (1 + E') / (1 + G') * n' := fun h => by
    calc _ < P' * (1 + E) / (1 + G) * n := by gcongr
      _ ≤ _ := by gcongr
  rintro (h | h | h | h | h)
  · exact sp (p2 (Or.inl h))
  · exact sp (p2 (Or.inr h))
  · have := e2 h
    calc _ < P * (1 + E') / (1 + G) * n := by gcongr
      _ ≤ _ := by gcongr
  · have := g2 h
    calc _ < P * (1 + E) / (1 + G') * n := by gcongr
      _ ≤ _ := by gcongr
  · have := n2 h
    calc _ < P * (1 + E) / (1 + G) * n' := by gcongr
      _ ≤ _ := by gcongr

theorem z1p_of_runup {H T ca f z : ℝ} (hH : 0 < H) (hT : 0 < T) (hc : 0 < ca) (hf : 0 < f)
    (hz : Published.VanGentRunup 1.45 5.1 (Textbook.iribarren H T ca) f H z) :
    VanGent2001.calculate_wave_runup_height_z1p (fin H) (fin T) (fin f) (fin ca) = fin z := by
  obtain ⟨y, -, e, h⟩ := (C78_vangent_runup_defaults H T ca f hH hT hc hf).1
  rw [runup_eq hH hT hc hf hz, ← runup_eq hH hT hc hf h]
  simpa using e

end WorseStrProof

section
variable {ca ca' f f' H H' T T' Rc Rc' Rf Rf' Rr Rr' N N' z z' : ℝ} (cp : ℝ) (M M' rho rho' : PF)
  (hcp : 0 < cp) (hca : 0 < ca') (haa : ca' ≤ ca) (hf : 0 < f) (hff : f ≤ f') (hH : 0 < H) (hHH : H ≤ H')
  (hT : 0 < T) (hTT : T ≤ T') (hRc : 0 < Rc') (hRR : Rc' ≤ Rc) (hRr : 0 ≤ Rr) (hrr : Rr ≤ Rr') (hR' : Rr' < Rc')
  (hRf : 0 ≤ Rf') (hee : Rf' ≤ Rf) (hN : 0 < N) (hNN : N ≤ N')
  (hz : Published.VanGentRunup 1.45 5.1 (Textbook.iribarren H T ca) f H z)
  (hz' : Published.VanGentRunup 1.45 5.1 (Textbook.iribarren H' T' ca') f' H' z')
  (hover : Rc < z) (hl : Rc' < Rc → z' ≤ 5 * Rc')
include hcp hca haa hf hff hH hHH hT hTT hRc hRR hRr hrr hR' hRf hee hN hNN hz hz' hover hl

/-- C92: higher or longer waves, a longer storm, a smoother or steeper front slope, a lower crest or crest element and
smaller stones never give less damage to the rear slope (Van Gent 2007), once the run-up passes the crest and if a
crest that is lowered stays above a fifth of the run-up level. Missing: both conditions are needed, see
`C92_rear2007_dry_refuted` and `C92_rear2007_crest_refuted`; for the slope of the rear side the claim is false, see
`C92_rear2007_slope_refuted` -/
theorem C92_rear2007_damage_partial (D D' : ℝ) (hD : 0 < D') (hDD : D' ≤ D) :
    NotLess (VanGent2007Rear.calculate_damage_number_S (fin ca) (fin cp) (fin f) (fin H) (fin T) (fin Rc) (fin Rf)
        (fin Rr) (fin N) (fin D) M rho)
      (VanGent2007Rear.calculate_damage_number_S (fin ca') (fin cp) (fin f') (fin H') (fin T') (fin Rc') (fin Rf')
        (fin Rr') (fin N') (fin D') M' rho')
      (H < H' ∨ T < T' ∨ ca' < ca ∨ f < f' ∨ Rc' < Rc ∨ Rr < Rr' ∨ Rf' < Rf ∨ N < N' ∨ D' < D) := by
  obtain ⟨y0, y1, y2⟩ := runup_le hH hHH hT hTT hca haa (by norm_num) (by norm_num) hf hff hz hz'
  have hD0 := hD.trans_le hDD
  refine ⟨_, _, RearProof.S07_eval M rho hcp hH (hRc.trans_le hRR) (hRf.trans hee) hRr (by linarith) hN hD0
      (z1p_of_runup hH hT (hca.trans_le haa) hf hz),
    RearProof.S07_eval M' rho' hcp (hH.trans_le hHH) hRc hRf (hRr.trans hrr) hR' (hN.trans_le hNN) hD
      (z1p_of_runup (hH.trans_le hHH) (hT.trans_le hTT) hca (hf.trans_le hff) hz'), ?_⟩
  have re : ∀ w R E G n D : ℝ, 0 < R → 0 < D → RearProof.S07 0.00025 cp w R E G n D =
      0.00025 * cp ^ (1.25 : ℝ) * (w ^ 2 * √R * E / G * n) / (D ^ 2 * √D) := by
    intro w R E G n D hR hD
    unfold RearProof.S07
    have : (0.5 : ℝ) = 1 / 2 := by norm_num
    rw [Real.rpow_neg_one, this, ← Real.sqrt_eq_rpow, Real.sqrt_div hR.le]
    have := Real.sqrt_pos.mpr hD
    field_simp
  rw [re _ _ _ _ _ _ (hRc.trans_le hRR) hD0, re _ _ _ _ _ _ hRc hD]
  obtain ⟨l0, l1, l2⟩ := rear_load hover y1 hRc hRR hl hRr hrr hR' hRf hee hH hHH hN hNN
  generalize (z - Rc) ^ 2 * √Rc * (1 + 5 * Rr / (Rc - Rr)) / (1 + Rf / H) * √N = L at *
  generalize (z' - Rc') ^ 2 * √Rc' * (1 + 5 * Rr' / (Rc' - Rr')) / (1 + Rf' / H') * √N' = L' at *
  have hk : 0 < 0.00025 * cp ^ (1.25 : ℝ) := by positivity
  generalize 0.00025 * cp ^ (1.25 : ℝ) = k at *
  have d0 : 0 < D' ^ 2 * √D' := by have := Real.sqrt_pos.mpr hD; positivity
  have d1 : D' ^ 2 * √D' ≤ D ^ 2 * √D := by gcongr
  have d2 : D' < D → D' ^ 2 * √D' < D ^ 2 * √D := fun h => by
    have h1 := Real.sqrt_lt_sqrt hD.le h
    have h2 := Real.sqrt_pos.mpr hD
    calc _ < D ^ 2 * √D' := by gcongr
      _ ≤ _ := by gcongr
  obtain ⟨q1, q2⟩ := quot (by positivity : 0 < k * L) (by gcongr : k * L ≤ k * L') d0 d1
  refine ⟨q1, fun hs => q2 ?_⟩
  have s : L < L' → k * L < k * L' := fun h => by gcongr
  rcases hs with h | h | h | h | h | h | h | h | h
  · exact Or.inl (s (l2 (Or.inl (y2 (Or.inl h)))))
  · exact Or.inl (s (l2 (Or.inl (y2 (Or.inr (Or.inl h))))))
  · exact Or.inl (s (l2 (Or.inl (y2 (Or.inr (Or.inr (Or.inl h)))))))
  · exact Or.inl (s (l2 (Or.inl (y2 (Or.inr (Or.inr (Or.inr h)))))))
  · exact Or.inl (s (l2 (Or.inr (Or.inl h))))
  · exact Or.inl (s (l2 (Or.inr (Or.inr (Or.inl h)))))
  · exact Or.inl (s (l2 (Or.inr (Or.inr (Or.inr (Or.inl h))))))
  · exact Or.inl (s (l2 (Or.inr (Or.inr (Or.inr (Or.inr h))))))
  · exact Or.inr (d2 h)

/-- C92: the same for the required size, with a stricter damage limit -/
theorem C92_rear2007_size_partial (S S' : ℝ) (hS : 0 < S') (hSS : S' ≤ S) :
    NotLess (VanGent2007Rear.calculate_nominal_rock_diameter_Dn50 (fin ca) (fin cp) (fin f) (fin S) (fin H) (fin T)
        (fin Rc) (fin Rf) (fin Rr) (fin N))
      (VanGent2007Rear.calculate_nominal_rock_diameter_Dn50 (fin ca') (fin cp) (fin f') (fin S') (fin H') (fin T')
        (fin Rc') (fin Rf') (fin Rr') (fin N'))
      (H < H' ∨ T < T' ∨ ca' < ca ∨ f < f' ∨ Rc' < Rc ∨ Rr < Rr' ∨ Rf' < Rf ∨ N < N' ∨ S' < S) := by
  obtain ⟨y0, y1, y2⟩ := runup_le hH hHH hT hTT hca haa (by norm_num) (by norm_num) hf hff hz hz'
  have hS0 := hS.trans_le hSS
  have hRc0 := hRc.trans_le hRR
  have hR : Rr < Rc := by linarith
  have hover' : Rc' < z' := by linarith
  have hE := RearProof.E_pos hRc0 hRr hR
  have hE' := RearProof.E_pos hRc (hRr.trans hrr) hR'
  have hH' := hH.trans_le hHH
  have hRf0 := hRf.trans hee
  have hG : 0 < 1 + Rf / H := by positivity
  have hG' : 0 < 1 + Rf' / H' := by positivity
  have hn := Real.sqrt_pos.mpr hN
  have hn' := Real.sqrt_pos.mpr (hN.trans_le hNN)
  refine ⟨_, _, RearProof.D07_eval hcp hH hRc0 hRf0 hRr hR hN hS0
      (z1p_of_runup hH hT (hca.trans_le haa) hf hz) hover,
    RearProof.D07_eval hcp hH' hRc hRf (hRr.trans hrr) hR' (hN.trans_le hNN) hS
      (z1p_of_runup hH' (hT.trans_le hTT) hca (hf.trans_le hff) hz') hover', ?_⟩
  have re : ∀ w R E G n S : ℝ, 0 < w → 0 < R → 0 < E → 0 < G → 0 < n → 0 < S →
      RearProof.D07 0.036 cp w R E G n S =
      0.036 * cp ^ (0.5 : ℝ) * ((w ^ 2 * √R * E / G * n) / S) ^ (0.4 : ℝ) := by
    intro w R E G n S h1 h2 h3 h4 h5 h6
    unfold RearProof.D07
    rw [mul_assoc (0.036 * cp ^ (0.5 : ℝ)), mul_assoc (0.036 * cp ^ (0.5 : ℝ)), mul_assoc (0.036 * cp ^ (0.5 : ℝ)),
      mul_assoc (0.036 * cp ^ (0.5 : ℝ)), Real.sqrt_eq_rpow]
    congr 1
    obtain ⟨w, rfl⟩ := exists_exp h1
    obtain ⟨R, rfl⟩ := exists_exp h2
    obtain ⟨E, rfl⟩ := exists_exp h3
    obtain ⟨G, rfl⟩ := exists_exp h4
    obtain ⟨n, rfl⟩ := exists_exp h5
    obtain ⟨S, rfl⟩ := exists_exp h6
    exp_norm
    push_cast
    norm_num
    ring
  rw [re _ _ _ _ _ _ (sub_pos.mpr hover) hRc0 hE hG hn hS0,
    re _ _ _ _ _ _ (sub_pos.mpr hover') hRc hE' hG' hn' hS]
  obtain ⟨l0, l1, l2⟩ := rear_load hover y1 hRc hRR hl hRr hrr hR' hRf hee hH hHH hN hNN
  generalize (z - Rc) ^ 2 * √Rc * (1 + 5 * Rr / (Rc - Rr)) / (1 + Rf / H) * √N = L at *
  generalize (z' - Rc') ^ 2 * √Rc' * (1 + 5 * Rr' / (Rc' - Rr')) / (1 + Rf' / H') * √N' = L' at *
  have hk : 0 < 0.036 * cp ^ (0.5 : ℝ) := by positivity
  generalize 0.036 * cp ^ (0.5 : ℝ) = k at *
  obtain ⟨q1, q2⟩ := quot l0 l1 hS hSS
  have q0 : 0 < L / S := by positivity
  refine ⟨by gcongr, fun hs => ?_⟩
  have : L / S < L' / S' := by
    apply q2
    rcases hs with h | h | h | h | h | h | h | h | h
    · exact Or.inl (l2 (Or.inl (y2 (Or.inl h))))
    · exact Or.inl (l2 (Or.inl (y2 (Or.inr (Or.inl h)))))
    · exact Or.inl (l2 (Or.inl (y2 (Or.inr (Or.inr (Or.inl h))))))
    · exact Or.inl (l2 (Or.inl (y2 (Or.inr (Or.inr (Or.inr h))))))
    · exact Or.inl (l2 (Or.inr (Or.inl h)))
    · exact Or.inl (l2 (Or.inr (Or.inr (Or.inl h))))
    · exact Or.inl (l2 (Or.inr (Or.inr (Or.inr (Or.inl h)))))
    · exact Or.inl (l2 (Or.inr (Or.inr (Or.inr (Or.inr h)))))
    · exact Or.inr h
  gcongr

end

/-- the hypotheses are satisfiable: waves with ξ = 1, a smoother slope, a lower crest, a crest element nearer to the
water at the rear, a longer storm -/
example : ∃ ca ca' f f' H H' T T' Rc Rc' Rf Rf' Rr Rr' N N' z z' : ℝ, 0 < ca' ∧ ca' ≤ ca ∧ 0 < f ∧ f < f' ∧ 0 < H ∧
    H ≤ H' ∧ 0 < T ∧ T ≤ T' ∧ 0 < Rc' ∧ Rc' < Rc ∧ 0 ≤ Rr ∧ Rr < Rr' ∧ Rr' < Rc' ∧ 0 ≤ Rf' ∧ Rf' < Rf ∧ 0 < N ∧
    N < N' ∧ Published.VanGentRunup 1.45 5.1 (Textbook.iribarren H T ca) f H z ∧
    Published.VanGentRunup 1.45 5.1 (Textbook.iribarren H' T' ca') f' H' z' ∧ Rc < z ∧ z' ≤ 5 * Rc' := by
  have hpi := Real.pi_pos
  have e : Textbook.iribarren (9.81 / (2 * Real.pi)) 1 1 = 1 := by
    unfold Textbook.iribarren Textbook.steepness
    have : 9.81 / (2 * Real.pi) / (9.81 * 1 ^ 2 / (2 * Real.pi)) = 1 := by field_simp
    rw [this]; norm_num
  have hH : 0 < 9.81 / (2 * Real.pi) := by positivity
  generalize 9.81 / (2 * Real.pi) = H at *
  refine ⟨1, 1, 0.9, 1, H, H, 1, 1, 1.2 * H, 1.1 * H, 0.2 * H, 0.1 * H, 0, 0.1 * H, 2000, 3000, 1.45 * (0.9 * H),
    1.45 * (1 * H), by norm_num, le_rfl, by norm_num, by norm_num, hH, le_rfl, by norm_num, le_rfl, by positivity,
    by linarith, le_rfl, by positivity, by linarith, by positivity, by linarith, by norm_num, by norm_num, ?_, ?_,
    by linarith, by linarith⟩ <;> rw [e] <;> refine ⟨fun _ => by field_simp, fun h => by norm_num at h⟩

/-- C92 is false below the crest: for every structure without crest element in front there are two waves that do not
reach the crest, of which the higher gives less damage to the rear slope (the distance to the crest is squared) -/
theorem C92_rear2007_dry_refuted (ca cp f T Rc Rr N D : ℝ) (M rho : PF) (hca : 0 < ca) (hcp : 0 < cp) (hf : 0 < f)
    (hT : 0 < T) (hRr : 0 ≤ Rr) (hR : Rr < Rc) (hN : 0 < N) (hD : 0 < D) : ∃ H H' z z' S S' : ℝ, 0 < H ∧ H < H' ∧
    VanGent2001.calculate_wave_runup_height_z1p (fin H) (fin T) (fin f) (fin ca) = fin z ∧
    VanGent2001.calculate_wave_runup_height_z1p (fin H') (fin T) (fin f) (fin ca) = fin z' ∧
    z < z' ∧ z' < Rc ∧ S' < S ∧
    (VanGent2007Rear.calculate_damage_number_S (fin ca) (fin cp) (fin f) (fin H) (fin T) (fin Rc) (fin 0)
        (fin Rr) (fin N) (fin D) M rho).res = .ok (fin S) ∧
    (VanGent2007Rear.calculate_damage_number_S (fin ca) (fin cp) (fin f) (fin H') (fin T) (fin Rc) (fin 0)
        (fin Rr) (fin N) (fin D) M rho).res = .ok (fin S') := by
  have hRc := hRr.trans_lt hR
  have hH' : 0 < Rc / (6 * f) := by positivity
  have hH : 0 < Rc / (12 * f) := by positivity
  have hHH : Rc / (12 * f) < Rc / (6 * f) := by gcongr; norm_num
  obtain ⟨z, hz0, e, h⟩ := (C78_vangent_runup_defaults (Rc / (12 * f)) T ca f hH hT hca hf).1
  obtain ⟨z', hz0', e', h'⟩ := (C78_vangent_runup_defaults (Rc / (6 * f)) T ca f hH' hT hca hf).1
  have hzz := (runup_le hH hHH.le hT le_rfl hca le_rfl (by norm_num) (by norm_num) hf le_rfl h h').2.2 (Or.inl hHH)
  have hzR : z' < Rc := by
    rw [runup_eq hH' hT hca hf h']
    have := RunupProof.rf_le (by norm_num : (0 : ℝ) < 1.45) (by norm_num : (0 : ℝ) < 5.1)
      (VdMProof.xi_pos hH' hT hca)
    calc _ ≤ 5.1 * f * (Rc / (6 * f)) := by gcongr
      _ = 5.1 / 6 * Rc := by field_simp
      _ < _ := by linarith
  have hE := RearProof.E_pos hRc hRr hR
  refine ⟨_, _, z, z', _, _, hH, hHH, z1p_of_runup hH hT hca hf h, z1p_of_runup hH' hT hca hf h', hzz, hzR, ?_,
    RearProof.S07_eval M rho hcp hH hRc le_rfl hRr hR hN hD (z1p_of_runup hH hT hca hf h),
    RearProof.S07_eval M rho hcp hH' hRc le_rfl hRr hR hN hD (z1p_of_runup hH' hT hca hf h')⟩
  unfold RearProof.S07
  rw [zero_div, zero_div, add_zero, Real.one_rpow]
  have hn := Real.sqrt_pos.mpr hN
  have : ((z' - Rc) / D) ^ 2 < ((z - Rc) / D) ^ 2 := by
    rw [div_pow, div_pow]
    gcongr 1
    nlinarith
  gcongr

example := C92_rear2007_dry_refuted 2 1.5 0.5 8 3 0.5 3000 1 nan nan (by norm_num) (by norm_num) (by norm_num)
  (by norm_num) (by norm_num) (by norm_num) (by norm_num) (by norm_num)

section
variable (ca f H T Rc Rf Rr N D z : ℝ) (M rho : PF) (hca : 0 < ca) (hf : 0 < f) (hH : 0 < H) (hT : 0 < T)
  (hRf : 0 ≤ Rf) (hN : 0 < N) (hD : 0 < D)
  (hz : Published.VanGentRunup 1.45 5.1 (Textbook.iribarren H T ca) f H z)
include hca hf hH hT hRf hN hD hz

/-- C92 is false for the slope of the rear side in Van Gent (2007): a gentler rear slope gives more damage, for every
structure that is overtopped (in Van Gent & Pozueta, 2004, less: `C92_pozueta_damage`) -/
theorem C92_rear2007_slope_refuted (cp cp' : ℝ) (hcp : 0 < cp) (hcc : cp < cp') (hRr : 0 ≤ Rr) (hR : Rr < Rc)
    (hover : Rc < z) : ∃ S S' : ℝ, S < S' ∧
    (VanGent2007Rear.calculate_damage_number_S (fin ca) (fin cp) (fin f) (fin H) (fin T) (fin Rc) (fin Rf)
        (fin Rr) (fin N) (fin D) M rho).res = .ok (fin S) ∧
    (VanGent2007Rear.calculate_damage_number_S (fin ca) (fin cp') (fin f) (fin H) (fin T) (fin Rc) (fin Rf)
        (fin Rr) (fin N) (fin D) M rho).res = .ok (fin S') := by
  have hRc := hRr.trans_lt hR
  have e := z1p_of_runup hH hT hca hf hz
  refine ⟨_, _, ?_, RearProof.S07_eval M rho hcp hH hRc hRf hRr hR hN hD e,
    RearProof.S07_eval M rho (hcp.trans hcc) hH hRc hRf hRr hR hN hD e⟩
  unfold RearProof.S07
  have hE := RearProof.E_pos hRc hRr hR
  have hw := sub_pos.mpr hover
  have hn := Real.sqrt_pos.mpr hN
  gcongr

/-- C92 is false for the crest level in Van Gent (2007) when the crest is low: below a fifth of the run-up level a
higher crest gives more damage -/
theorem C92_rear2007_crest_refuted (cp Rc' : ℝ) (hcp : 0 < cp) (hRc : 0 < Rc) (hRR : Rc < Rc') (hl : 5 * Rc' ≤ z) :
    ∃ S S' : ℝ, S < S' ∧
    (VanGent2007Rear.calculate_damage_number_S (fin ca) (fin cp) (fin f) (fin H) (fin T) (fin Rc) (fin Rf)
        (fin 0) (fin N) (fin D) M rho).res = .ok (fin S) ∧
    (VanGent2007Rear.calculate_damage_number_S (fin ca) (fin cp) (fin f) (fin H) (fin T) (fin Rc') (fin Rf)
        (fin 0) (fin N) (fin D) M rho).res = .ok (fin S') := by
  have hRc' := hRc.trans hRR
  have e := z1p_of_runup hH hT hca hf hz
  refine ⟨_, _, ?_, RearProof.S07_eval M rho hcp hH hRc hRf le_rfl hRc hN hD e,
    RearProof.S07_eval M rho hcp hH hRc' hRf le_rfl hRc' hN hD e⟩
  have h := higher_crest hRc hRR hl
  unfold RearProof.S07
  have h5 : (0.5 : ℝ) = 1 / 2 := by norm_num
  rw [h5, ← Real.sqrt_eq_rpow, ← Real.sqrt_eq_rpow, Real.sqrt_div hRc.le, Real.sqrt_div hRc'.le, mul_zero, zero_div,
    zero_div, Real.rpow_neg_one]
  have hd := Real.sqrt_pos.mpr hD
  have hn := Real.sqrt_pos.mpr hN
  have hk : 0 < 0.00025 * cp ^ (1.25 : ℝ) / (D ^ 2 * √D) * (1 + Rf / H)⁻¹ * √N := by positivity
  have := mul_lt_mul_of_pos_left h hk
  calc _ = 0.00025 * cp ^ (1.25 : ℝ) / (D ^ 2 * √D) * (1 + Rf / H)⁻¹ * √N * ((z - Rc) ^ 2 * √Rc) := by
        generalize (1 + Rf / H)⁻¹ = G; field_simp; ring
    _ < _ := this
    _ = _ := by generalize (1 + Rf / H)⁻¹ = G; field_simp; ring

end

/-- the hypotheses of the last two are satisfiable -/
example : ∃ ca f H T Rc Rc' Rr z : ℝ, 0 < ca ∧ 0 < f ∧ 0 < H ∧ 0 < T ∧ 0 ≤ Rr ∧ Rr < Rc ∧ Rc < z ∧ Rc < Rc' ∧
    5 * Rc' ≤ z ∧ Published.VanGentRunup 1.45 5.1 (Textbook.iribarren H T ca) f H z := by
  obtain ⟨z, hz, -, h⟩ := (C78_vangent_runup_defaults 2 8 2 1 (by norm_num) (by norm_num) (by norm_num) (by norm_num)).1
  exact ⟨2, 1, 2, 8, z / 10, z / 5, 0, z, by norm_num, by norm_num, by norm_num, by norm_num, le_rfl, by positivity,
    by linarith, by linarith, by linarith, h⟩

/-! ## Van Gent & Pozueta (2004) -/

namespace WorseStrProof

/-- everything but stone size and damage -/
theorem pozueta_load {ca ca' cp cp' gf gf' gc gc' H H' T T' Rc Rc' Rr Rr' B B' N N' De De' z z' : ℝ} (hca : 0 < ca')
    (haa : ca' ≤ ca) (hcp : 0 < cp') (hpp : cp' ≤ cp) (hgf : 0 < gf) (hff : gf ≤ gf') (hgc : 0 < gc) (hcc : gc ≤ gc')
    (hH : 0 < H) (hHH : H ≤ H') (hT : 0 < T) (hTT : T ≤ T') (hRc : 0 ≤ Rc) (hRR : Rc' ≤ Rc) (hRr : 0 ≤ Rr)
    (hrr : Rr' ≤ Rr) (hB : 0 ≤ B') (hBB : B' ≤ B) (hN : 0 < N) (hNN : N ≤ N') (hDe' : 0 < De') (hDe : De' ≤ De)
    (hz : Published.VanGentRunup 1.45 5.1 (Textbook.iribarren H T ca) gf H z)
    (hz' : Published.VanGentRunup 1.45 5.1 (Textbook.iribarren H' T' ca') gf' H' z') (hover : Rc < z) :
    Rc' < z' ∧
    0 < N ^ (1 / 12 : ℝ) * (Published.crestVelocity z Rc B H gf gc 9.81 * T / √De) * cp ^ (-(2.5 : ℝ) / 6) *
      (1 + 10 * Real.exp (-Rr / H)) ^ ((1 : ℝ) / 6) ∧
    N ^ (1 / 12 : ℝ) * (Published.crestVelocity z Rc B H gf gc 9.81 * T / √De) * cp ^ (-(2.5 : ℝ) / 6) *
      (1 + 10 * Real.exp (-Rr / H)) ^ ((1 : ℝ) / 6) ≤
    N' ^ (1 / 12 : ℝ) * (Published.crestVelocity z' Rc' B' H' gf' gc' 9.81 * T' / √De') * cp' ^ (-(2.5 : ℝ) / 6) *
      (1 + 10 * Real.exp (-Rr' / H')) ^ ((1 : ℝ) / 6) ∧
    (H < H' ∨ T < T' ∨ ca' < ca ∨ cp' < cp ∨ gc < gc' ∨ Rc' < Rc ∨ Rr' < Rr ∨ B' < B ∨ N < N' ∨ De' < De →
    N ^ (1 / 12 : ℝ) * (Published.crestVelocity z Rc B H gf gc 9.81 * T / √De) * cp ^ (-(2.5 : ℝ) / 6) *
      (1 + 10 * Real.exp (-Rr / H)) ^ ((1 : ℝ) / 6) <
    N' ^ (1 / 12 : ℝ) * (Published.crestVelocity z' Rc' B' H' gf' gc' 9.81 * T' / √De') * cp' ^ (-(2.5 : ℝ) / 6) *
      (1 + 10 * Real.exp (-Rr' / H')) ^ ((1 : ℝ) / 6)) := by
  have hH' := hH.trans_le hHH
  have hT' := hT.trans_le hTT
  have hgf' := hgf.trans_le hff
  have hgc' := hgc.trans_le hcc
  have hN' := hN.trans_le hNN
  have hDe0 := hDe'.trans_le hDe
  have hcp0 := hcp.trans_le hpp
  have hB0 := hB.trans hBB
  obtain ⟨r0, r1, r2⟩ := rfH_le (c0 := 1.45) (c1 := 5.1) hH hHH hT hTT hca haa (by norm_num) (by norm_num)
  have e1 := runup_eq hH hT (hca.trans_le haa) hgf hz
  have e2 := runup_eq hH' hT' hca hgf' hz'
  rw [mul_right_comm] at e1 e2
  generalize RunupProof.rf 1.45 5.1 (VdMProof.xi H T ca) * H = y at *
  generalize RunupProof.rf 1.45 5.1 (VdMProof.xi H' T' ca') * H' = y' at *
  have w0 : 0 < (z - Rc) / gf := div_pos (sub_pos.mpr hover) hgf
  have w : ∀ y f R : ℝ, 0 < f → (y * f - R) / f = y - R / f := by intro y f R hf; field_simp
  have s1 : Rc' / gf' ≤ Rc / gf := by
    calc _ ≤ Rc / gf' := by gcongr
      _ ≤ _ := by gcongr
  have s2 : Rc' < Rc → Rc' / gf' < Rc / gf := fun h => by
    calc _ < Rc / gf' := by gcongr
      _ ≤ _ := by gcongr
  have w1 : (z - Rc) / gf ≤ (z' - Rc') / gf' := by
    rw [e1, e2, w _ _ _ hgf, w _ _ _ hgf']; linarith
  have w2 : H < H' ∨ T < T' ∨ ca' < ca ∨ Rc' < Rc → (z - Rc) / gf < (z' - Rc') / gf' := by
    rw [e1, e2, w _ _ _ hgf, w _ _ _ hgf']
    rintro (h | h | h | h)
    · have := r2 (Or.inl h); linarith
    · have := r2 (Or.inr (Or.inl h)); linarith
    · have := r2 (Or.inr (Or.inr h)); linarith
    · have := s2 h; linarith
  have w3 := w0.trans_le w1
  have hover' : Rc' < z' := by
    have := (div_pos_iff_of_pos_right hgf').mp w3; linarith
  refine ⟨hover', ?_⟩
  -- velocity
  have b1 : B' / H' ≤ B / H := by gcongr
  have b2 : B' < B → B' / H' < B / H := fun h => by
    calc _ ≤ B' / H := by gcongr
      _ < _ := by gcongr
  have b0 : 0 < 1 + 0.1 * (B' / H') := by positivity
  have b3 : 0 < 1 + 0.1 * (B / H) := by positivity
  have x1 : -Rr / H ≤ -Rr' / H' := by
    rw [neg_div, neg_div, neg_le_neg_iff]
    calc _ ≤ Rr / H' := by gcongr
      _ ≤ _ := by gcongr
  have x2 : Rr' < Rr → -Rr / H < -Rr' / H' := fun h => by
    rw [neg_div, neg_div, neg_lt_neg_iff]
    calc _ < Rr / H' := by gcongr
      _ ≤ _ := by gcongr
  unfold Published.crestVelocity
  have g1 : √(9.81 * gc) ≤ √(9.81 * gc') := by gcongr
  have g2 : gc < gc' → √(9.81 * gc) < √(9.81 * gc') := fun h => Real.sqrt_lt_sqrt (by positivity) (by gcongr)
  have g0 : 0 < √(9.81 * gc) := Real.sqrt_pos.mpr (by positivity)
  have v1 : √((z - Rc) / gf) ≤ √((z' - Rc') / gf') := by gcongr
  have v2 : (z - Rc) / gf < (z' - Rc') / gf' → √((z - Rc) / gf) < √((z' - Rc') / gf') :=
    fun h => Real.sqrt_lt_sqrt w0.le h
  have v0 : 0 < √((z - Rc) / gf) := Real.sqrt_pos.mpr w0
  have d1 : √De' ≤ √De := by gcongr
  have d2 : De' < De → √De' < √De := fun h => Real.sqrt_lt_sqrt hDe'.le h
  have d0 : 0 < √De' := Real.sqrt_pos.mpr hDe'
  have c1 : cp ^ (-(2.5 : ℝ) / 6) ≤ cp' ^ (-(2.5 : ℝ) / 6) := Real.rpow_le_rpow_of_nonpos hcp hpp (by norm_num)
  have c2 : cp' < cp → cp ^ (-(2.5 : ℝ) / 6) < cp' ^ (-(2.5 : ℝ) / 6) :=
    fun h => Real.rpow_lt_rpow_of_neg hcp h (by norm_num)
  have c0 : 0 < cp ^ (-(2.5 : ℝ) / 6) := by positivity
  have n1 : N ^ (1 / 12 : ℝ) ≤ N' ^ (1 / 12 : ℝ) := by gcongr
  have n2 : N < N' → N ^ (1 / 12 : ℝ) < N' ^ (1 / 12 : ℝ) := fun h => by gcongr
  have n0 : 0 < N ^ (1 / 12 : ℝ) := by positivity
  have y1 : (1 + 10 * Real.exp (-Rr / H)) ^ ((1 : ℝ) / 6) ≤ (1 + 10 * Real.exp (-Rr' / H')) ^ ((1 : ℝ) / 6) := by gcongr
  have y2 : -Rr / H < -Rr' / H' →
      (1 + 10 * Real.exp (-Rr / H)) ^ ((1 : ℝ) / 6) < (1 + 10 * Real.exp (-Rr' / H')) ^ ((1 : ℝ) / 6) := fun h => by
    gcongr
  have y0 : 0 < (1 + 10 * Real.exp (-Rr / H)) ^ ((1 : ℝ) / 6) := by positivity
  generalize (1 + 10 * Real.exp (-Rr / H)) ^ ((1 : ℝ) / 6) = X at *
  generalize (1 + 10 * Real.exp (-Rr' / H')) ^ ((1 : ℝ) / 6) = X' at *
  generalize N ^ (1 / 12 : ℝ) = n at *
  generalize N' ^ (1 / 12 : ℝ) = n' at *
  generalize cp ^ (-(2.5 : ℝ) / 6) = c at *
  generalize cp' ^ (-(2.5 : ℝ) / 6) = c' at *
  generalize √De = d at *
  generalize √De' = d' at *
  generalize √((z - Rc) / gf) = v at *
  generalize √((z' - Rc') / gf') = v' at *
  generalize √(9.81 * gc) = g at *
  generalize √(9.81 * gc') = g' at *
  have g3 := g0.trans_le g1
  have v3 := v0.trans_le v1
  have d3 := d0.trans_le d1
  have c3 := c0.trans_le c1
  have n3 := n0.trans_le n1
  have y3 := y0.trans_le y1
  generalize B / H = b at *
  generalize B' / H' = b' at *
  have bb : 1 + 0.1 * b' ≤ 1 + 0.1 * b := by linarith
  have bs : b' < b → 1 + 0.1 * b' < 1 + 0.1 * b := fun h => by linarith
  generalize 1 + 0.1 * b = k at *
  generalize 1 + 0.1 * b' = k' at *
  refine ⟨by positivity, by gcongr, ?_⟩
  have sv : v < v' → n * (1.7 * g * v / k * T / d) * c * X < n' * (1.7 * g' * v' / k' * T' / d') * c' * X' :=
    fun h => by
      calc _ < n * (1.7 * g * v' / k * T / d) * c * X := by gcongr
        _ ≤ _ := by gcongr
  rintro (h | h | h | h | h | h | h | h | h | h)
  · exact sv (v2 (w2 (Or.inl h)))
  · exact sv (v2 (w2 (Or.inr (Or.inl h))))
  · exact sv (v2 (w2 (Or.inr (Or.inr (Or.inl h)))))
  · have := c2 h
    calc _ < n * (1.7 * g * v / k * T / d) * c' * X := by gcongr
      _ ≤ _ := by gcongr
  · have := g2 h
    calc _ < n * (1.7 * g' * v / k * T / d) * c * X := by gcongr
      _ ≤ _ := by gcongr
  · exact sv (v2 (w2 (Or.inr (Or.inr (Or.inr h)))))
  · have := y2 (x2 h)
    calc _ < n * (1.7 * g * v / k * T / d) * c * X' := by gcongr
      _ ≤ _ := by gcongr
  · have := bs (b2 h)
    calc _ < n * (1.7 * g * v / k' * T / d) * c * X := by gcongr
      _ ≤ _ := by gcongr
  · have := n2 h
    calc _ < n' * (1.7 * g * v / k * T / d) * c * X := by gcongr
      _ ≤ _ := by gcongr
  · have := d2 h
    calc _ < n * (1.7 * g * v / k * T / d') * c * X := by gcongr
      _ ≤ _ := by gcongr

theorem pozueta_rel {S N cp u T De Rr H D : ℝ} (hS : 0 < S) (hN : 0 < N)
    (h : Published.VanGentPozueta 0.008 S N cp u T De Rr H D) :
    D * S ^ ((1 : ℝ) / 6) = 0.008 * (N ^ (1 / 12 : ℝ) * (u * T / √De) * cp ^ (-(2.5 : ℝ) / 6) *
      (1 + 10 * Real.exp (-Rr / H)) ^ ((1 : ℝ) / 6)) := by
  unfold Published.VanGentPozueta at h
  have e : (S / √N) ^ (-(1 : ℝ) / 6) * S ^ ((1 : ℝ) / 6) = N ^ (1 / 12 : ℝ) := by
    rw [Real.sqrt_eq_rpow, Real.div_rpow hS.le (by positivity), ← Real.rpow_mul hN.le, div_mul_eq_mul_div,
      ← Real.rpow_add hS]
    norm_num
    rw [Real.rpow_neg hN.le, inv_inv]
  rw [h, ← e]; ring

end WorseStrProof

section
variable {ca ca' cp cp' gf gf' gc gc' H H' T T' Rc Rc' Rr Rr' B B' N N' rr rr' rw rw' z z' : ℝ} (M M' : PF)
  (hca : 0 < ca')
  (haa : ca' ≤ ca) (hcp : 0 < cp') (hpp : cp' ≤ cp) (hgf : 0 < gf) (hff : gf ≤ gf') (hgc : 0 < gc) (hcc : gc ≤ gc')
  (hH : 0 < H) (hHH : H ≤ H') (hT : 0 < T) (hTT : T ≤ T') (hRc : 0 ≤ Rc) (hRR : Rc' ≤ Rc) (hRr : 0 ≤ Rr)
  (hrr : Rr' ≤ Rr) (hB : 0 ≤ B') (hBB : B' ≤ B) (hN : 0 < N) (hNN : N ≤ N') (hw : 0 < rw) (hww : rw ≤ rw')
  (hr' : rw' < rr') (hrho : rr' ≤ rr)
  (hz : Published.VanGentRunup 1.45 5.1 (Textbook.iribarren H T ca) gf H z) (hover : Rc < z)
include hca haa hcp hpp hgf hff hgc hcc hH hHH hT hTT hRc hRR hRr hrr hB hBB hN hNN hw hww hr' hrho hz hover

/-- C92: higher or longer waves, a longer storm, smoother slopes, steeper slopes at either side, a lower or narrower
crest, a lower rear side and smaller or lighter stones never give less damage to the rear slope (Van Gent & Pozueta
2004), once the run-up passes the crest -/
theorem C92_pozueta_damage (D D' : ℝ) (hD : 0 < D') (hDD : D' ≤ D) :
    NotLess (VanGentPozueta2004.calculate_damage_number_S (fin ca) (fin cp) (fin gf) (fin gc) (fin H) (fin T) (fin Rc)
        (fin Rr) (fin B) (fin N) (fin D) M (fin rr) (fin rw))
      (VanGentPozueta2004.calculate_damage_number_S (fin ca') (fin cp') (fin gf') (fin gc') (fin H') (fin T') (fin Rc')
        (fin Rr') (fin B') (fin N') (fin D') M' (fin rr') (fin rw'))
      (H < H' ∨ T < T' ∨ ca' < ca ∨ cp' < cp ∨ gc < gc' ∨ Rc' < Rc ∨ Rr' < Rr ∨ B' < B ∨ N < N' ∨ D' < D) := by
  have hw' := hw.trans_le hww
  have hr : rw < rr := by linarith
  have hDe' := delta_pos hw' hr'
  have hDe := delta_le hw hww hr' hrho
  have hD0 := hD.trans_le hDD
  have hH' := hH.trans_le hHH
  have hT' := hT.trans_le hTT
  have hgf' := hgf.trans_le hff
  have hgc' := hgc.trans_le hcc
  have hN' := hN.trans_le hNN
  have hcp0 := hcp.trans_le hpp
  have hca0 := hca.trans_le haa
  obtain ⟨y, hy, h1⟩ := C78_pozueta_damage ca cp gf gc H T Rc Rr B N rr rw M hca0 hcp0 hgf hgc hH hT (hB.trans hBB) hN
    hw hr D hD0
  obtain ⟨y', hy', h2⟩ := C78_pozueta_damage ca' cp' gf' gc' H' T' Rc' Rr' B' N' rr' rw' M' hca hcp hgf' hgc' hH' hT'
    hB hN' hw' hr' D' hD
  obtain rfl : y = z := by rw [runup_eq hH hT hca0 hgf hy, runup_eq hH hT hca0 hgf hz]
  obtain ⟨o, l0, l1, l2⟩ := pozueta_load hca haa hcp hpp hgf hff hgc hcc hH hHH hT hTT hRc hRR hRr hrr hB hBB hN hNN hDe'
    hDe hz hy' hover
  refine ofReturns (h1 hover) (h2 o) ?_
  intro S S' hS hS' e e'
  have k := pozueta_rel hS hN e
  have k' := pozueta_rel hS' hN' e'
  obtain ⟨r1, r2⟩ := solve (by norm_num) hD hDD (by gcongr) hS hS' k k'
  refine ⟨r1, fun hs => r2 ?_⟩
  rcases hs with h | h | h | h | h | h | h | h | h | h
  · exact Or.inr (mul_lt_mul_of_pos_left (l2 (Or.inl h)) (by norm_num))
  · exact Or.inr (mul_lt_mul_of_pos_left (l2 (Or.inr (Or.inl h))) (by norm_num))
  · exact Or.inr (mul_lt_mul_of_pos_left (l2 (Or.inr (Or.inr (Or.inl h)))) (by norm_num))
  · exact Or.inr (mul_lt_mul_of_pos_left (l2 (Or.inr (Or.inr (Or.inr (Or.inl h))))) (by norm_num))
  · exact Or.inr (mul_lt_mul_of_pos_left (l2 (Or.inr (Or.inr (Or.inr (Or.inr (Or.inl h)))))) (by norm_num))
  · exact Or.inr (mul_lt_mul_of_pos_left (l2 (Or.inr (Or.inr (Or.inr (Or.inr (Or.inr (Or.inl h))))))) (by norm_num))
  · exact Or.inr (mul_lt_mul_of_pos_left (l2 (Or.inr (Or.inr (Or.inr (Or.inr (Or.inr (Or.inr (Or.inl h))))))))
      (by norm_num))
  · exact Or.inr (mul_lt_mul_of_pos_left (l2 (Or.inr (Or.inr (Or.inr (Or.inr (Or.inr (Or.inr (Or.inr (Or.inl h)))))))))
      (by norm_num))
  · exact Or.inr (mul_lt_mul_of_pos_left (l2 (Or.inr (Or.inr (Or.inr (Or.inr (Or.inr (Or.inr (Or.inr (Or.inr
      (Or.inl h)))))))))) (by norm_num))
  · exact Or.inl h

/-- C92: the same for the required size, with a stricter damage limit -/
theorem C92_pozueta_size (S S' : ℝ) (hS : 0 < S') (hSS : S' ≤ S) :
    NotLess (VanGentPozueta2004.calculate_nominal_rock_diameter_Dn50 (fin ca) (fin cp) (fin gf) (fin gc) (fin S) (fin H)
        (fin T) (fin Rc) (fin Rr) (fin B) (fin rr) (fin N) (fin rw))
      (VanGentPozueta2004.calculate_nominal_rock_diameter_Dn50 (fin ca') (fin cp') (fin gf') (fin gc') (fin S') (fin H')
        (fin T') (fin Rc') (fin Rr') (fin B') (fin rr') (fin N') (fin rw'))
      (H < H' ∨ T < T' ∨ ca' < ca ∨ cp' < cp ∨ gc < gc' ∨ Rc' < Rc ∨ Rr' < Rr ∨ B' < B ∨ N < N' ∨ S' < S) := by
  have hw' := hw.trans_le hww
  have hr : rw < rr := by linarith
  have hDe' := delta_pos hw' hr'
  have hDe := delta_le hw hww hr' hrho
  have hS0 := hS.trans_le hSS
  have hH' := hH.trans_le hHH
  have hT' := hT.trans_le hTT
  have hgf' := hgf.trans_le hff
  have hgc' := hgc.trans_le hcc
  have hN' := hN.trans_le hNN
  have hcp0 := hcp.trans_le hpp
  have hca0 := hca.trans_le haa
  obtain ⟨y, hy, h1⟩ := C78_pozueta_size ca cp gf gc H T Rc Rr B N rr rw hca0 hcp0 hgf hgc hH hT (hB.trans hBB) hN
    hw hr S hS0
  obtain ⟨y', hy', h2⟩ := C78_pozueta_size ca' cp' gf' gc' H' T' Rc' Rr' B' N' rr' rw' hca hcp hgf' hgc' hH' hT'
    hB hN' hw' hr' S' hS
  obtain rfl : y = z := by rw [runup_eq hH hT hca0 hgf hy, runup_eq hH hT hca0 hgf hz]
  obtain ⟨o, l0, l1, l2⟩ := pozueta_load hca haa hcp hpp hgf hff hgc hcc hH hHH hT hTT hRc hRR hRr hrr hB hBB hN hNN hDe'
    hDe hz hy' hover
  refine ofReturns (h1 hover) (h2 o) ?_
  intro D D' hD hD' e e'
  have k := pozueta_rel hS0 hN e
  have k' := pozueta_rel hS hN' e'
  rw [mul_comm] at k k'
  obtain ⟨r1, r2⟩ := solve1 (by positivity) (by gcongr) (by gcongr) hD hD' k k'
  refine ⟨r1, fun hs => r2 ?_⟩
  rcases hs with h | h | h | h | h | h | h | h | h | h
  · exact Or.inr (mul_lt_mul_of_pos_left (l2 (Or.inl h)) (by norm_num))
  · exact Or.inr (mul_lt_mul_of_pos_left (l2 (Or.inr (Or.inl h))) (by norm_num))
  · exact Or.inr (mul_lt_mul_of_pos_left (l2 (Or.inr (Or.inr (Or.inl h)))) (by norm_num))
  · exact Or.inr (mul_lt_mul_of_pos_left (l2 (Or.inr (Or.inr (Or.inr (Or.inl h))))) (by norm_num))
  · exact Or.inr (mul_lt_mul_of_pos_left (l2 (Or.inr (Or.inr (Or.inr (Or.inr (Or.inl h)))))) (by norm_num))
  · exact Or.inr (mul_lt_mul_of_pos_left (l2 (Or.inr (Or.inr (Or.inr (Or.inr (Or.inr (Or.inl h))))))) (by norm_num))
  · exact Or.inr (mul_lt_mul_of_pos_left (l2 (Or.inr (Or.inr (Or.inr (Or.inr (Or.inr (Or.inr (Or.inl h))))))))
      (by norm_num))
  · exact Or.inr (mul_lt_mul_of_pos_left (l2 (Or.inr (Or.inr (Or.inr (Or.inr (Or.inr (Or.inr (Or.inr (Or.inl h)))))))))
      (by norm_num))
  · exact Or.inr (mul_lt_mul_of_pos_left (l2 (Or.inr (Or.inr (Or.inr (Or.inr (Or.inr (Or.inr (Or.inr (Or.inr
      (Or.inl h)))))))))) (by norm_num))
  · exact Or.inl (by gcongr)

end

/-- the conditions on the run-up are satisfiable -/
example : ∃ ca gf H T Rc z : ℝ, 0 < ca ∧ 0 < gf ∧ 0 < H ∧ 0 < T ∧ 0 < Rc ∧ Rc < z ∧
    Published.VanGentRunup 1.45 5.1 (Textbook.iribarren H T ca) gf H z := by
  obtain ⟨z, hz, -, h⟩ := (C78_vangent_runup_defaults 2 8 2 1 (by norm_num) (by norm_num) (by norm_num) (by norm_num)).1
  exact ⟨2, 1, 2, 8, z / 2, z, by norm_num, by norm_num, by norm_num, by norm_num, by positivity, by linarith, h⟩

end
