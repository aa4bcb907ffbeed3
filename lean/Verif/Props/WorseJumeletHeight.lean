import Verif.Props.DesignJumeletHeight
import Verif.Lemmas.WorseStructural

/-! # C92: the wave height returned by Jumelet et al. (2024) -/

open Classical
open PF CorePhysics
noncomputable section

namespace JumHeightProof

/-- the published relation solved for the wave height -/
theorem root_eq {H T c ra D cp S n : ℝ} (hH : 0 < H) (hT : 0 < T) (hc : 0 < c) (hr : 1025 < ra) (hD : 0 < D)
    (h : Published.Jumelet (Textbook.Ns H D ra 1025) cp S n (Textbook.iribarren H T c)) :
    √H * T = Textbook.Delta ra 1025 * D * cp * (S / √n) ^ (0.2 : ℝ) * c * √(2 * Real.pi / 9.81) := by
  have hpi := Real.pi_pos
  have hDe : 0 < Textbook.Delta ra 1025 := div_pos (sub_pos.mpr hr) (by norm_num)
  unfold Published.Jumelet Textbook.Ns at h
  rw [RangeProof.irib_eq] at h
  have e : VdMProof.xi H T c ^ (-1 : ℝ) = c * (√(2 * Real.pi / 9.81) * √H / T) := by
    unfold VdMProof.xi
    rw [Real.sqrt_div (by positivity), Real.sqrt_sq hT.le, Real.sqrt_mul (by positivity), Real.rpow_neg_one,
      show (1.0 : ℝ) = 1 by norm_num]
    have h2 : 0 < √(2 * Real.pi / 9.81) := Real.sqrt_pos.mpr (by positivity)
    have h3 : 0 < √H := Real.sqrt_pos.mpr hH
    field_simp
  rw [e] at h
  have h3 : 0 < √H := Real.sqrt_pos.mpr hH
  generalize √(2 * Real.pi / 9.81) = w at *
  generalize (S / √n) ^ (0.2 : ℝ) = q at *
  have hh : H = √H * √H := (Real.mul_self_sqrt hH.le).symm
  generalize √H = x at *
  subst hh
  field_simp at h
  linarith

end JumHeightProof

/-- C92: longer waves, a steeper slope, smaller or lighter armour and a stricter damage limit never allow higher waves
(Jumelet et al. 2024), as long as the number of plunging waves with which the last pass was made does not go down; each
is that of a wave height within the tolerance of the one returned, unless all passes are used up.
Missing: without that condition a smaller rounded number of waves can allow a higher wave, as for the damage
(`C92_jumelet_damage_refuted`). -/
theorem C92_jumelet_height_partial (T T' N N' c c' ra ra' S S' D D' cp si t H H' : ℝ) (M M' : PF) (k : ℕ) (hT : 0 < T)
    (hTT : T ≤ T') (hN : 0 < N) (hN' : 0 < N') (hc : 0 < c') (hcc : c' ≤ c) (hr : 1025 < ra') (hrr : ra' ≤ ra)
    (hS : 0 < S') (hSS : S' ≤ S) (hD : 0 < D') (hDD : D' ≤ D) (hcp : 0 < cp) (hsi : 0 < si) (hH : 0 < H) (hH' : 0 < H')
    (h : (Jumelet2024.calculate_significant_wave_height_Hs (fin T) (fin N) (fin c) (fin ra) (fin S) (fin D) M
      (fin cp) 9.81 (fin si) k (fin t)).res = .ok (fin H))
    (h' : (Jumelet2024.calculate_significant_wave_height_Hs (fin T') (fin N') (fin c') (fin ra') (fin S') (fin D') M'
      (fin cp) 9.81 (fin si) k (fin t)).res = .ok (fin H')) :
    ∃ (P P' : ℝ) (n n' : ℕ), 0 < P ∧ 0 < P' ∧
      |n - Published.plungingPart (Textbook.iribarren P T c) * N| ≤ 1 / 2 ∧
      |n' - Published.plungingPart (Textbook.iribarren P' T' c') * N'| ≤ 1 / 2 ∧
      (|H - P| ≤ t ∨ (Jumelet2024.calculate_significant_wave_height_Hs (fin T) (fin N) (fin c) (fin ra) (fin S)
        (fin D) M (fin cp) 9.81 (fin si) k (-1.0)).res = .ok (fin H)) ∧
      (|H' - P'| ≤ t ∨ (Jumelet2024.calculate_significant_wave_height_Hs (fin T') (fin N') (fin c') (fin ra') (fin S')
        (fin D') M' (fin cp) 9.81 (fin si) k (-1.0)).res = .ok (fin H')) ∧
      (n ≤ n' → H' ≤ H ∧ (T < T' ∨ c' < c ∨ D' < D ∨ n < n' → H' < H)) := by
  have hT' := hT.trans_le hTT
  have hc0 := hc.trans_le hcc
  have hr0 := hr.trans_le hrr
  have hS0 := hS.trans_le hSS
  have hD0 := hD.trans_le hDD
  obtain ⟨P, n, p1, p2, p3, p4, p5⟩ := C78_jumelet_height T N c ra S D cp si t H M k hT hN hc0 hr0 hS0 hD0 hcp hsi h
  obtain ⟨P', n', q1, q2, q3, q4, q5⟩ := C78_jumelet_height T' N' c' ra' S' D' cp si t H' M' k hT' hN' hc hr hS hD hcp
    hsi h'
  refine ⟨P, P', n, n', p1, q1, p3, q3, p5, q5, fun hn => ?_⟩
  have e := JumHeightProof.root_eq hH hT hc0 hr0 hD0 p4
  have e' := JumHeightProof.root_eq hH' hT' hc hr hD q4
  have hpi := Real.pi_pos
  have hw : 0 < √(2 * Real.pi / 9.81) := Real.sqrt_pos.mpr (by positivity)
  have hn0 : (0 : ℝ) < n := by exact_mod_cast p2
  have hn0' : (0 : ℝ) < n' := by exact_mod_cast q2
  have hnn : (n : ℝ) ≤ n' := by exact_mod_cast hn
  have hsn := Real.sqrt_pos.mpr hn0
  have hsn' := Real.sqrt_pos.mpr hn0'
  have hss := Real.sqrt_le_sqrt hnn
  have hDe' : 0 < Textbook.Delta ra' 1025 := div_pos (sub_pos.mpr hr) (by norm_num)
  have hDe : Textbook.Delta ra' 1025 ≤ Textbook.Delta ra 1025 := by unfold Textbook.Delta; gcongr
  have hx : 0 < √H := Real.sqrt_pos.mpr hH
  have hx' : 0 < √H' := Real.sqrt_pos.mpr hH'
  have hq' : 0 < (S' / √n') ^ (0.2 : ℝ) := by positivity
  have hq : (S' / √n') ^ (0.2 : ℝ) ≤ (S / √n) ^ (0.2 : ℝ) := by gcongr
  have hqs : n < n' → (S' / √n') ^ (0.2 : ℝ) < (S / √n) ^ (0.2 : ℝ) := by
    intro hlt
    have h1 : √(n : ℝ) < √n' := Real.sqrt_lt_sqrt hn0.le (by exact_mod_cast hlt)
    refine Real.rpow_lt_rpow (by positivity) ?_ (by norm_num)
    calc S' / √n' < S' / √n := by gcongr
      _ ≤ S / √n := by gcongr
  generalize (S' / √(n' : ℝ)) ^ (0.2 : ℝ) = q' at *
  generalize (S / √(n : ℝ)) ^ (0.2 : ℝ) = q at *
  generalize Textbook.Delta ra 1025 = E at *
  generalize Textbook.Delta ra' 1025 = E' at *
  generalize √(2 * Real.pi / 9.81) = w at *
  have hE := hDe'.trans_le hDe
  have hq0 := hq'.trans_le hq
  have hle : √H' * T' ≤ √H * T := by
    rw [e, e']
    gcongr
  constructor
  · refine (Real.sqrt_le_sqrt_iff hH.le).mp ?_
    by_contra hlt
    push Not at hlt
    have : √H * T < √H' * T' := by
      calc _ < √H' * T := by gcongr
        _ ≤ _ := by gcongr
    linarith
  · intro hs
    refine (Real.sqrt_lt_sqrt_iff hH'.le).mp ?_
    by_contra hge
    push Not at hge
    have h2 : √H * T ≤ √H' * T' := by gcongr
    rcases hs with hs | hs
    · have : √H * T < √H' * T' := by
        calc _ ≤ √H' * T := by gcongr
          _ < _ := by gcongr
      linarith
    · have : √H' * T' < √H * T := by
        rw [e, e']
        rcases hs with hs | hs | hs
        · calc _ < E' * D' * cp * q' * c * w := by gcongr
            _ ≤ _ := by gcongr
        · calc _ < E' * D * cp * q' * c' * w := by gcongr
            _ ≤ _ := by gcongr
        · have := hqs hs
          calc _ < E' * D' * cp * q * c' * w := by gcongr
            _ ≤ _ := by gcongr
      linarith

/-- a case meeting the hypotheses: stones of 1 m and of 0.9 m -/
example := C92_jumelet_height_partial 1 1 1000 1000 1 1 2050 2050 2 2 1 0.9 4 1 0.001 _ _ nan nan 1 one_pos le_rfl
  (by norm_num) (by norm_num) one_pos le_rfl (by norm_num) le_rfl (by norm_num) le_rfl (by norm_num) (by norm_num)
  (by norm_num) one_pos (by positivity) (by positivity) (JumHeightProof.case_value one_pos)
  (JumHeightProof.case_value (by norm_num))
end
