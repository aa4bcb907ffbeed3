import Verif.Props.OneAnswerIter
import Verif.Props.DesignTakahashiDepth

/-! # C98: depths above a caisson toe (Takahashi et al. 1990) -/

open Classical
open PF Takahashi1990 CorePhysics TakahashiProof
noncomputable section

namespace TakahashiProof

/-- the floor of the stability number governs in shallow water above the toe -/
theorem floor_governs {κ r : ℝ} (h0 : 0 < κ) (h1 : κ ≤ 1 / 4) (hr : 0 ≤ r)
    (hs : (1 - κ) / κ ^ ((1 : ℝ) / 3) * r ≤ 0.4) : Published.toeStability κ r = 1.8 := by
  have hc : 0 < κ ^ ((1 : ℝ) / 3) := by positivity
  have ha : 0 ≤ (1 - κ) / κ ^ ((1 : ℝ) / 3) := div_nonneg (by linarith) hc.le
  unfold Published.toeStability
  refine max_eq_left ?_
  have e : -1.5 * ((1 - κ) ^ 2 / κ ^ ((1 : ℝ) / 3)) * r = -(1.5 * (1 - κ) * ((1 - κ) / κ ^ ((1 : ℝ) / 3) * r)) := by
    ring
  rw [e, mul_assoc 1.3]
  have hu : 0 ≤ (1 - κ) / κ ^ ((1 : ℝ) / 3) * r := mul_nonneg ha hr
  generalize (1 - κ) / κ ^ ((1 : ℝ) / 3) * r = u at *
  set x := 1.5 * (1 - κ) * u with hx
  have hx1 : 1.125 * u ≤ x := by
    rw [hx]
    have : 1.125 ≤ 1.5 * (1 - κ) := by linarith
    exact mul_le_mul_of_nonneg_right this hu
  have hx0 : 0 ≤ x := le_trans (by positivity) hx1
  have h2 := Real.add_one_le_exp x
  have h3 : Real.exp (-x) ≤ 1 / (x + 1) := by
    rw [Real.exp_neg, ← one_div]
    exact one_div_le_one_div_of_le (by linarith) h2
  have h4 : 1.8 * (1 / (x + 1)) ≤ 1.8 - 1.3 * u := by
    rw [mul_one_div, div_le_iff₀ (by linarith)]
    nlinarith [mul_le_mul_of_nonneg_right hs hu, mul_le_mul_of_nonneg_left hx1 (by linarith : 0 ≤ 1.8 - 1.3 * u)]
  linarith

end TakahashiProof

/-- C98 (the answer to which depth is needed is not unique): in shallow water above the toe the designed size does not
depend on the depth, nor on the wave length or the width of the toe; it is Hs/(1.8 Delta) -/
theorem C98_takahashi_depth_flat (disper : PF → PF → PF → PF) (T : PF) {H h B ρr ρw β g L : ℝ} (hH : 0 < H)
    (hh : 0 < h) (hL : 0 < L) (hw : calculate_local_wavelength disper T (fin h) (fin g) = fin L)
    (hk : 0 < Published.toeKappa (2 * Real.pi / L) h B (β * (Real.pi / 180)))
    (hk1 : Published.toeKappa (2 * Real.pi / L) h B (β * (Real.pi / 180)) ≤ 1 / 4)
    (hs : (1 - Published.toeKappa (2 * Real.pi / L) h B (β * (Real.pi / 180))) /
      Published.toeKappa (2 * Real.pi / L) h B (β * (Real.pi / 180)) ^ ((1 : ℝ) / 3) * (h / H) ≤ 0.4)
    (hr0 : 0 < ρw) (hr : ρw < ρr) :
    (calculate_nominal_diameter_Dn50 disper (fin H) T (fin h) (fin B) (fin ρr) (fin ρw) (fin β) (fin g)).res
      = .ok (fin (H / (1.8 * Textbook.Delta ρr ρw))) := by
  have hDe : 0 < Textbook.Delta ρr ρw := div_pos (sub_pos.mpr hr) hr0
  refine (size_iff disper T hh hL hw hk hr0 hr (by positivity) hH).mpr ?_
  rw [floor_governs hk hk1 (by positivity) hs]
  field_simp

namespace TakahashiProof

/-- waves 6.3 m long over a toe of a twelfth of that: the hypotheses, for depths up to 2 % of a wave height of 2 m -/
theorem flat_case (disper : PF → PF → PF → PF) (hdis : ∀ w h g, disper w h g = fin 1) {h : ℝ} (hh : 0 < h)
    (h4 : h ≤ 0.04) :
    calculate_local_wavelength disper (fin 8) (fin h) (fin 9.81) = fin (2 * Real.pi) ∧
    0 < Published.toeKappa (2 * Real.pi / (2 * Real.pi)) h (Real.pi / 6) (0 * (Real.pi / 180)) ∧
    Published.toeKappa (2 * Real.pi / (2 * Real.pi)) h (Real.pi / 6) (0 * (Real.pi / 180)) ≤ 1 / 4 ∧
    (1 - Published.toeKappa (2 * Real.pi / (2 * Real.pi)) h (Real.pi / 6) (0 * (Real.pi / 180))) /
      Published.toeKappa (2 * Real.pi / (2 * Real.pi)) h (Real.pi / 6) (0 * (Real.pi / 180)) ^ ((1 : ℝ) / 3)
        * (h / 2) ≤ 0.4 := by
  have hpi := Real.pi_pos
  have e : Published.toeKappa (2 * Real.pi / (2 * Real.pi)) h (Real.pi / 6) (0 * (Real.pi / 180)) =
      kap 1 h (Real.pi / 6) := by
    unfold Published.toeKappa kap
    rw [div_self (by positivity), zero_mul, Real.sin_zero, Real.cos_zero]
    norm_num
  have hs : 0 < Real.sin (1 * (Real.pi / 6)) ^ 2 := by rw [one_mul, Real.sin_pi_div_six]; norm_num
  obtain ⟨b1, b2⟩ := kap_bounds (k := 1) (h := h) (B := Real.pi / 6) one_pos hh hs
  rw [one_mul, Real.sin_pi_div_six] at b2
  rw [e]
  have hK : 1 / 20 ≤ kap 1 h (Real.pi / 6) := by
    unfold kap
    rw [one_mul, Real.sin_pi_div_six, show (2 * 1 * h : ℝ) = 2 * h by ring]
    have h1 : 0 < Real.sinh (2 * h) := Real.sinh_pos_iff.mpr (by positivity)
    have h3 := Real.add_one_le_exp (-(2 * h) : ℝ)
    have h5 := Real.exp_pos (2 * h)
    have h6 : (1 - 2 * h) * Real.exp (2 * h) ≤ 1 := by
      rw [Real.exp_neg] at h3
      have := mul_le_mul_of_nonneg_right h3 h5.le
      rw [inv_mul_cancel₀ h5.ne'] at this
      linarith
    have h7 : (1 / 5 : ℝ) * Real.sinh (2 * h) ≤ 2 * h := by
      rw [Real.sinh_eq]
      have h8 : Real.exp (2 * h) ≤ 1 + 2 * (2 * h) := by
        by_contra hn
        push Not at hn
        nlinarith
      linarith
    have h9 : (1 : ℝ) / 5 ≤ 2 * h / Real.sinh (2 * h) := by rw [le_div_iff₀ h1]; linarith
    nlinarith
  refine ⟨?_, b1, by linarith, ?_⟩
  · unfold calculate_local_wavelength
    simp only [hdis]
    pf_eval []
    norm_num
  generalize kap 1 h (Real.pi / 6) = K at *
  have hc : K ≤ K ^ ((1 : ℝ) / 3) := by
    conv_lhs => rw [← Real.rpow_one K]
    exact Real.rpow_le_rpow_of_exponent_ge b1 (by linarith) (by norm_num)
  have hc0 : 0 < K ^ ((1 : ℝ) / 3) := by positivity
  have hq : (1 - K) / K ^ ((1 : ℝ) / 3) ≤ 20 := by rw [div_le_iff₀ hc0]; linarith
  calc _ ≤ 20 * (h / 2) := by gcongr
    _ ≤ _ := by linarith

end TakahashiProof

/-- C98 refuted: a stone size does not belong to one depth above a caisson toe -/
theorem C98_takahashi_depth_refuted : ∃ (disper : PF → PF → PF → PF) (D : ℝ), 0 < D ∧ ¬ ∃! h : ℝ, 0 < h ∧
    (calculate_nominal_diameter_Dn50 disper (fin 2) (fin 8) (fin h) (fin (Real.pi / 6)) (fin 2650) (fin 1025) (fin 0)
      (fin 9.81)).res = .ok (fin D) := by
  have hpi := Real.pi_pos
  have key : ∀ h : ℝ, 0 < h → h ≤ 0.04 → (calculate_nominal_diameter_Dn50 (fun _ _ _ => fin 1) (fin 2) (fin 8) (fin h)
      (fin (Real.pi / 6)) (fin 2650) (fin 1025) (fin 0) (fin 9.81)).res =
      .ok (fin (2 / (1.8 * Textbook.Delta 2650 1025))) := by
    intro h hh h4
    obtain ⟨k1, k2, k3, k4⟩ := flat_case (fun _ _ _ => fin 1) (fun _ _ _ => rfl) hh h4
    exact C98_takahashi_depth_flat _ _ (by norm_num) hh (by positivity) k1 k2 k3 k4 (by norm_num) (by norm_num)
  refine ⟨fun _ _ _ => fin 1, 2 / (1.8 * Textbook.Delta 2650 1025), by unfold Textbook.Delta; norm_num, ?_⟩
  rintro ⟨y, -, hy⟩
  have a := hy 0.02 ⟨by norm_num, key 0.02 (by norm_num) (by norm_num)⟩
  have b := hy 0.04 ⟨by norm_num, key 0.04 (by norm_num) (by norm_num)⟩
  rw [← b] at a
  norm_num at a

/-- a case meeting the hypotheses of `C98_takahashi_depth_flat` -/
example := flat_case (fun _ _ _ => fin 1) (fun _ _ _ => rfl) (h := 0.03) (by norm_num) (by norm_num)
end
