import Verif.Props.ContinuousRock
import Verif.Props.FormulasRock

/-! # C95: the wave height by Etemad-Shahidi et al. (2020) -/

open Classical
open PF ContProof
noncomputable section

namespace EtemadProof
section
variable {T N c De D C I S Hc : ℝ} (hT : 0 < T) (hN : 0 < N) (hc : 0 < c) (hDe : 0 < De) (hD : 0 < D) (hC : 0 < C)
  (hI : 0 < I) (hS : 0 < S) (hHc : 0 < Hc) (hx : VdMProof.xi Hc T c = 1.8)
include hT hN hc hDe hD hC hI hS hHc hx

theorem Hd_surging (h : S ≤ Spl Hc T N c De D C I) : Hd T N c De D C I S = Hsu T N c De D C I S := by
  obtain ⟨a, b⟩ := Spl_Hpl hT hN hc hDe hD hC hI hS
  unfold Hd
  rw [if_neg]
  rintro ⟨h1, -⟩
  rw [← hx, xi_lt_iff hT hN hc hDe hD hC hI a hHc] at h1
  have := Spl_lt hT hN hc hDe hD hC hI hHc h1
  linarith

theorem Hd_plunging (h : Spl Hc T N c De D C I < S) : Hd T N c De D C I S = Hpl T N c De D C I S := by
  obtain ⟨a, b⟩ := Spl_Hpl hT hN hc hDe hD hC hI hS
  obtain ⟨a', b'⟩ := Ssu_Hsu hT hN hc hDe hD hC hI hS
  have lt := ContProof.et_lt hHc hN hDe hD hC hI hx
  unfold Hd
  rw [if_pos]
  rw [← hx, xi_lt_iff hT hN hc hDe hD hC hI a hHc, xi_lt_iff hT hN hc hDe hD hC hI a' hHc]
  constructor
  · by_contra h1
    rcases (not_lt.mp h1).lt_or_eq with h2 | h2
    · have := Spl_lt hT hN hc hDe hD hC hI a h2
      linarith
    · rw [h2] at b; linarith
  · by_contra h1
    rcases (not_lt.mp h1).lt_or_eq with h2 | h2
    · have := Ssu_lt hT hN hc hDe hD hC hI a' h2
      linarith
    · rw [h2] at b'; linarith
end
end EtemadProof
open EtemadProof

/-- C95: the wave height by Etemad-Shahidi et al. (2020) jumps as the damage level changes, whatever the other inputs
are -/
theorem C95_etemad2020_height_refuted {T N c ra D Dc : ℝ} (M Mc rc : PF) (hT : 0 < T) (hN : 0 < N) (hc : 0 < c)
    (hr : 1025 < ra) (hD : 0 < D) (hDc : 0 < Dc) :
    Jumps fun S : Set.Ioi (0 : ℝ) => Etemad2020.calculate_significant_wave_height_Hs (fin T) (fin N) (fin c) (fin ra)
      (fin S) (fin D) M (fin Dc) Mc rc := by
  have hm : Etemad2020.depth_limitation nan false = ⟨[], .ok (fin 1)⟩ := by
    simp [Etemad2020.depth_limitation, PyM.pure_def, sci_eq]; norm_num
  refine ⟨_, ?_, fun S => H_eval M Mc rc hT hN hc hr hD hDc.le one_pos hm S.2⟩
  have hDe : 0 < (ra - 1025) / 1025 := div_pos (sub_pos.mpr hr) (by norm_num)
  have hC := cp_pos hD hDc.le
  obtain ⟨Hc, hHc, hx⟩ := exists_crit (T := T) (c := c) hT hN hc hDe hD hC one_pos
  have hS := Spl_pos hT hN hc hDe hD hC one_pos hHc
  have lt := ContProof.et_lt hHc hN hDe hD hC one_pos hx
  refine jump_on (s := Set.Ioi 0) (a := Spl Hc T N c ((ra - 1025) / 1025) D (cp D Dc) 1)
    (g := fun S => Hpl T N c ((ra - 1025) / 1025) D (cp D Dc) 1 S) hS (Ioi_mem_nhds hS) ?_
    (Set.Ioi (Spl Hc T N c ((ra - 1025) / 1025) D (cp D Dc) 1)) ?_ ?_
  · unfold Hpl
    exact ContinuousAt.rpow_const (by fun_prop) (Or.inr (by norm_num))
  · intro S h0 h
    exact Hd_plunging hT hN hc hDe hD hC one_pos h0 hHc hx h
  · simp only
    rw [Hd_surging hT hN hc hDe hD hC one_pos hS hHc hx le_rfl, Hpl_Spl hT hN hc hDe hD hC one_pos hHc]
    intro h
    have := (Ssu_Hsu hT hN hc hDe hD hC one_pos hS).2
    rw [h] at this
    linarith

example := C95_etemad2020_height_refuted (T := 8) (N := 3000) (c := 2) (ra := 2650) (D := 1) (Dc := 0.3) nan nan nan
  (by norm_num) (by norm_num) (by norm_num) (by norm_num) (by norm_num) (by norm_num)

/-- C95: as long as the damage level stays on one side of `L`, that of plunging waves at Iribarren number 1.8, the wave
height changes continuously with all inputs together -/
theorem C95_etemad2020_height_partial {X : Type} [TopologicalSpace X] {T N c ra D Dc S L Hc : X → ℝ} (M Mc rc : X → PF)
    (kT : PositiveInput T) (kN : PositiveInput N) (kc : PositiveInput c) (ka : Continuous ra) (hr : ∀ x, 1025 < ra x)
    (kD : PositiveInput D) (kDc : PositiveInput Dc) (kS : PositiveInput S) (hHc : ∀ x, 0 < Hc x)
    (hx : ∀ x, Textbook.iribarren (Hc x) (T x) (c x) = 1.8) (hL0 : ∀ x, 0 < L x)
    (hL : ∀ x, Published.EtemadPlunging (Textbook.Ns (Hc x) (D x) (ra x) 1025)
      (Published.corePermeability (D x) (Dc x)) (N x) (L x) 1.8 1)
    (h : (∀ x, S x ≤ L x) ∨ ∀ x, L x < S x) :
    VariesContinuously fun x => Etemad2020.calculate_significant_wave_height_Hs (fin (T x)) (fin (N x)) (fin (c x))
      (fin (ra x)) (fin (S x)) (fin (D x)) (M x) (fin (Dc x)) (Mc x) (rc x) := by
  have hm : Etemad2020.depth_limitation nan false = ⟨[], .ok (fin 1)⟩ := by
    simp [Etemad2020.depth_limitation, PyM.pure_def, sci_eq]; norm_num
  have hDe : ∀ x, 0 < (ra x - 1025) / 1025 := fun x => div_pos (sub_pos.mpr (hr x)) (by norm_num)
  have kC := cp_input kD kDc
  have eL : ∀ x, Spl (Hc x) (T x) (N x) (c x) ((ra x - 1025) / 1025) (D x) (cp (D x) (Dc x)) 1 = L x := by
    intro x
    have e := FormulaProof.et_pl (T x) (N x) (c x) (D x) (kT.2 x) (kN.2 x) (kc.2 x) (kD.2 x) (hHc x) (kC.2 x) one_pos (hDe x)
    have hp := Spl_pos (kT.2 x) (kN.2 x) (kc.2 x) (hDe x) (kD.2 x) (kC.2 x) one_pos (hHc x)
    have e' := hL x
    rw [← FormulaProof.core_eq] at e'
    rw [hx] at e
    unfold Published.EtemadPlunging at e e'
    have k := e.symm.trans e'
    have n0 : 0 < N x ^ (-(1 : ℝ) / 10) := Real.rpow_pos_of_pos (kN.2 x) _
    have x0 : (0 : ℝ) < 1.8 ^ (-(7 : ℝ) / 12) := by positivity
    have c0 := kC.2 x
    rw [mul_one, mul_one] at k
    have k2 := mul_right_cancel₀ x0.ne' k
    have k3 := mul_left_cancel₀ (by positivity) k2
    exact (Real.rpow_left_inj hp.le (hL0 x).le (by norm_num)).mp k3
  simp only [RangeProof.irib_eq] at hx
  refine of _ (fun x => H_eval (M x) (Mc x) (rc x) (kT.2 x) (kN.2 x) (kc.2 x) (hr x) (kD.2 x) (kDc.2 x).le one_pos hm
    (kS.2 x)) fun x => ?_
  have kC' := kC.1.continuousAt (x := x)
  rcases h with h | h
  · simp only [fun x => Hd_surging (kT.2 x) (kN.2 x) (kc.2 x) (hDe x) (kD.2 x) (kC.2 x) one_pos (kS.2 x) (hHc x) (hx x)
      ((h x).trans_eq (eL x).symm)]
    inputs [kT, kN, kc, kD, kS, kC] x
    have := hDe x
    have := Real.pi_pos
    unfold Hsu
    cont
  · simp only [fun x => Hd_plunging (kT.2 x) (kN.2 x) (kc.2 x) (hDe x) (kD.2 x) (kC.2 x) one_pos (kS.2 x) (hHc x) (hx x)
      ((eL x).trans_lt (h x))]
    inputs [kT, kN, kc, kD, kS, kC] x
    have := hDe x
    have := Real.pi_pos
    unfold Hpl
    cont

/-- the hypotheses are met by the damage levels above that of plunging waves at Iribarren number 1.8 -/
example : ∃ L > 0, VariesContinuously fun S : Set.Ioi (L : ℝ) => Etemad2020.calculate_significant_wave_height_Hs (fin 8)
    (fin 3000) (fin 2) (fin 2650) (fin S) (fin 1) nan (fin 0.3) nan nan := by
  have hC : 0 < cp (1 : ℝ) 0.3 := cp_pos one_pos (by norm_num)
  have hDe : (0 : ℝ) < (2650 - 1025) / 1025 := by norm_num
  obtain ⟨Hc, hHc, hx⟩ := exists_crit (T := 8) (N := 3000) (c := 2) (by norm_num) (by norm_num) (by norm_num) hDe one_pos
    hC one_pos
  have hL := Spl_pos (T := 8) (N := 3000) (c := 2) (by norm_num) (by norm_num) (by norm_num) hDe one_pos hC one_pos hHc
  have e := FormulaProof.et_pl 8 3000 2 1 (by norm_num) (by norm_num) (by norm_num) one_pos hHc hC one_pos hDe
  rw [← RangeProof.irib_eq] at hx
  rw [hx] at e
  refine ⟨_, hL, C95_etemad2020_height_partial (fun _ => nan) (fun _ => nan) (fun _ => nan)
    (const_input (by norm_num)) (const_input (by norm_num)) (const_input (by norm_num)) continuous_const
    (fun _ => by norm_num) (const_input one_pos) (const_input (by norm_num))
    ⟨continuous_subtype_val, fun S => hL.trans S.2⟩ (fun _ => hHc) (fun _ => hx) (fun _ => hL) (fun _ => ?_)
    (Or.inr fun S => S.2)⟩
  rw [← FormulaProof.core_eq]
  exact e
end
