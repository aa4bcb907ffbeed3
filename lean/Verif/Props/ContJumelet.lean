import Verif.Props.ContinuousRock
import Verif.Props.FormulasRock

/-! # C95: Jumelet et al. (2024) -/

open Classical
open PF ContProof
noncomputable section

namespace ContProof
theorem round_eq {y : ℝ} {n : ℕ} (h : |n - y| < 1 / 2) : roundEven y = n := by
  have a := abs_le.mp (FormulaProof.roundEven_near y)
  have b := abs_lt.mp h
  have h1 : (roundEven y : ℝ) < ((n + 1 : ℤ) : ℝ) := by push_cast; linarith
  have h2 : ((n - 1 : ℤ) : ℝ) < (roundEven y : ℝ) := by push_cast; linarith
  rw [Int.cast_lt] at h1 h2
  omega
end ContProof

/-- C95: the rock size by Jumelet et al. (2024) jumps with the number of waves, since the number of plunging waves is
rounded; whatever the other inputs are, as long as some waves are plunging -/
theorem C95_jumelet_size_refuted {H T c ra S cp : ℝ} (hH : 0 < H) (hT : 0 < T) (hc : 0 < c) (hr : 1025 < ra)
    (hS : 0 < S) (hcp : 0 < cp) (hF : 0 < Published.plungingPart (Textbook.iribarren H T c)) :
    Jumps fun N : {N : ℝ | 1 / 2 < Published.plungingPart (Textbook.iribarren H T c) * N} =>
      Jumelet2024.calculate_nominal_rock_diameter_Dn50 (fin H) (fin T) (fin N) (fin c) (fin ra) (fin S) (fin cp) := by
  have hx := VdMProof.xi_pos hH hT hc
  have hDe : 0 < (ra - 1025) / 1025 := div_pos (sub_pos.mpr hr) (by norm_num)
  have eN : ∀ N, JumScaProof.Np H T N c = (roundEven (Published.plungingPart (Textbook.iribarren H T c) * N) : ℝ) := by
    intro N
    rw [RangeProof.irib_eq]; rfl
  have hp : ∀ N : {N : ℝ | 1 / 2 < Published.plungingPart (Textbook.iribarren H T c) * N},
      0 < JumScaProof.Np H T N c := by
    rintro ⟨N, hN⟩
    have hN' : 1 / 2 < Published.plungingPart (Textbook.iribarren H T c) * N := hN
    exact JumScaProof.np_pos hH hT hc ⟨_, VdMProof.xi_eval hH hT hc, by rw [RangeProof.irib_eq] at hN'; exact hN'⟩
  refine ⟨_, ?_, fun N => JumScaProof.jumD_eval hH hT hc hr hS hcp (hp N)⟩
  simp only [eN]
  generalize Published.plungingPart (Textbook.iribarren H T c) = F at *
  have e32 : F * (3 / 2 / F) = 3 / 2 := by field_simp
  refine jump_on (a := 3 / 2 / F) (g := fun _ => H / ((ra - 1025) / 1025) * VdMProof.xi H T c * (1 : ℝ) ^ (0.1 : ℝ) *
    (1.0 / cp) * S ^ (-0.2 : ℝ)) ?_ ?_ continuousAt_const (Set.Iio (3 / 2 / F)) ?_ ?_
  · show 1 / 2 < F * (3 / 2 / F)
    rw [e32]; norm_num
  · have : IsOpen {N : ℝ | 1 / 2 < F * N} := isOpen_lt continuous_const (by fun_prop)
    apply this.mem_nhds
    show 1 / 2 < F * (3 / 2 / F)
    rw [e32]; norm_num
  · intro y hy h
    have h' : y < 3 / 2 / F := h
    rw [lt_div_iff₀ hF] at h'
    have hy' : 1 / 2 < F * y := hy
    simp only
    rw [round_one hy' (by linarith)]
    norm_num
  · simp only
    rw [e32, round_three_halves]
    have h1 : (1 : ℝ) ^ (0.1 : ℝ) < (2 : ℝ) ^ (0.1 : ℝ) := by
      apply Real.rpow_lt_rpow <;> norm_num
    have : (((2 : ℤ) : ℝ)) = 2 := by norm_num
    rw [this]
    apply ne_of_gt
    have := Real.rpow_pos_of_pos hS (-0.2)
    gcongr

/-- the hypotheses are satisfiable -/
example : ∃ H T c ra S cp : ℝ, 0 < H ∧ 0 < T ∧ 0 < c ∧ 1025 < ra ∧ 0 < S ∧ 0 < cp ∧
    0 < Published.plungingPart (Textbook.iribarren H T c) := by
  have hpi := Real.pi_pos
  refine ⟨9.81 / (2 * Real.pi), 1, 1, 2650, 2, 4, by positivity, by norm_num, by norm_num, by norm_num,
    by norm_num, by norm_num, ?_⟩
  have : Textbook.iribarren (9.81 / (2 * Real.pi)) 1 1 = 1 := by
    unfold Textbook.iribarren Textbook.steepness
    have : 9.81 / (2 * Real.pi) / (9.81 * 1 ^ 2 / (2 * Real.pi)) = 1 := by field_simp
    rw [this]; norm_num
  rw [this]
  unfold Published.plungingPart; norm_num

section
variable {X : Type} [TopologicalSpace X] {H T N c ra rw D S cp : X → ℝ} {n : ℕ}
  (kH : PositiveInput H) (kT : PositiveInput T) (kc : PositiveInput c) (ka : Continuous ra) (kcp : PositiveInput cp)
  (hn : 0 < n) (h : ∀ x, |n - Published.plungingPart (Textbook.iribarren (H x) (T x) (c x)) * N x| < 1 / 2)
include kH kT kc ka kcp hn h

/-- C95: as long as the number of plunging waves is rounded to the same positive number, the damage by Jumelet et al.
(2024) changes continuously with all inputs together -/
theorem C95_jumelet_damage_partial (M : X → PF) (kw : PositiveInput rw) (hr : ∀ x, rw x < ra x) (kD : PositiveInput D) :
    VariesContinuously fun x => Jumelet2024.calculate_damage_number_S (fin (H x)) (fin (T x)) (fin (N x)) (fin (c x))
      (fin (ra x)) (fin (D x)) (M x) (fin (cp x)) (fin (rw x)) := by
  have eN : ∀ x, JumScaProof.Np (H x) (T x) (N x) (c x) = (n : ℝ) := fun x => by
    have := round_eq (h x)
    rw [RangeProof.irib_eq] at this
    exact (congrArg (fun k : ℤ => (k : ℝ)) this).trans (by simp)
  have n0 : (0 : ℝ) < n := Nat.cast_pos.mpr hn
  refine of _ (fun x => JumScaProof.jumS_eval (M x) (kH.2 x) (kT.2 x) (kc.2 x) (kw.2 x) (hr x) (kD.2 x) (kcp.2 x)
    ((eN x).symm ▸ n0)) fun x => ?_
  simp only [eN]
  have hxi := VdMProof.xi_pos (kH.2 x) (kT.2 x) (kc.2 x)
  have kx := xi_cont (x := x) kH.1.continuousAt kT.1.continuousAt kc.1.continuousAt (kH.2 x) (kT.2 x) (kc.2 x)
  inputs [kH, kT, kc, kw, kD, kcp] x
  have := sub_pos.mpr (hr x)
  cont

/-- C95: and so does the rock size -/
theorem C95_jumelet_size_partial (hr : ∀ x, 1025 < ra x) (kS : PositiveInput S) :
    VariesContinuously fun x => Jumelet2024.calculate_nominal_rock_diameter_Dn50 (fin (H x)) (fin (T x)) (fin (N x))
      (fin (c x)) (fin (ra x)) (fin (S x)) (fin (cp x)) := by
  have eN : ∀ x, JumScaProof.Np (H x) (T x) (N x) (c x) = (n : ℝ) := fun x => by
    have := round_eq (h x)
    rw [RangeProof.irib_eq] at this
    exact (congrArg (fun k : ℤ => (k : ℝ)) this).trans (by simp)
  have n0 : (0 : ℝ) < n := Nat.cast_pos.mpr hn
  refine of _ (fun x => JumScaProof.jumD_eval (kH.2 x) (kT.2 x) (kc.2 x) (hr x) (kS.2 x) (kcp.2 x)
    ((eN x).symm ▸ n0)) fun x => ?_
  simp only [eN]
  have hxi := VdMProof.xi_pos (kH.2 x) (kT.2 x) (kc.2 x)
  have kx := xi_cont (x := x) kH.1.continuousAt kT.1.continuousAt kc.1.continuousAt (kH.2 x) (kT.2 x) (kc.2 x)
  inputs [kH, kT, kc, kS, kcp] x
  have := sub_pos.mpr (hr x)
  cont
end

/-- a case meeting the hypotheses: 700 plunging waves, every stone size, density and allowed damage -/
example : ∃ H T N c : ℝ, (VariesContinuously fun D : Set.Ioi (0 : ℝ) => Jumelet2024.calculate_damage_number_S (fin H)
      (fin T) (fin N) (fin c) (fin (1025 + D)) (fin D) nan (fin 4.3) (fin 1025)) ∧
    VariesContinuously fun S : Set.Ioi (0 : ℝ) => Jumelet2024.calculate_nominal_rock_diameter_Dn50 (fin H)
      (fin T) (fin N) (fin c) (fin (1025 + S)) (fin S) (fin 4.3) := by
  have hpi := Real.pi_pos
  have e : Textbook.iribarren (9.81 / (2 * Real.pi)) 1 1 = 1 := by
    unfold Textbook.iribarren Textbook.steepness
    have : 9.81 / (2 * Real.pi) / (9.81 * 1 ^ 2 / (2 * Real.pi)) = 1 := by field_simp
    rw [this]; norm_num
  have hF : 0 < Published.plungingPart 1 := by unfold Published.plungingPart; norm_num
  have h : |((700 : ℕ) : ℝ) - Published.plungingPart 1 * (700 / Published.plungingPart 1)| < 1 / 2 := by
    rw [mul_div_cancel₀ _ hF.ne']; norm_num
  refine ⟨9.81 / (2 * Real.pi), 1, 700 / Published.plungingPart 1, 1,
    C95_jumelet_damage_partial (n := 700) (const_input (by positivity)) (const_input one_pos) (const_input one_pos)
      (by fun_prop) (const_input (by norm_num)) (by norm_num) (fun _ => by rw [e]; exact h) (fun _ => nan)
      (const_input (by norm_num)) (fun D => ?_) id_input,
    C95_jumelet_size_partial (n := 700) (const_input (by positivity)) (const_input one_pos) (const_input one_pos)
      (by fun_prop) (const_input (by norm_num)) (by norm_num) (fun _ => by rw [e]; exact h) (fun D => ?_) id_input⟩
  all_goals
    have := D.2
    rw [Set.mem_Ioi] at this
    linarith
end
