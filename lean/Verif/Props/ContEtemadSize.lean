import Verif.Props.ContinuousRock
import Verif.Props.ContComposite
import Verif.Props.WorseSolved

/-! # C95: the stone size by Etemad-Shahidi et al. (2020), up to the tolerance -/

open Classical
open PF ContProof EtemadProof
noncomputable section

/-- C95, stone size by Etemad-Shahidi et al. (2020), away from Iribarren number 1.8: the returned size stays within what
the tolerance leaves of a size that changes continuously with all inputs together, whatever the start of the iteration,
once the limit of passes is large enough.
Missing: Iribarren number 1.8; continuity itself, which the tolerance rules out. -/
theorem C95_etemad2020_size_partial {X : Type} [TopologicalSpace X] {H T N c ra S Dc C0 t : X → ℝ} (Mc rc : X → PF)
    (kH : PositiveInput H) (kT : PositiveInput T) (kN : PositiveInput N) (kc : PositiveInput c) (ka : Continuous ra)
    (hr : ∀ x, 1025 < ra x) (kS : PositiveInput S) (kDc : PositiveInput Dc)
    (hx : (∀ x, Textbook.iribarren (H x) (T x) (c x) < 1.8) ∨ ∀ x, 1.8 ≤ Textbook.iribarren (H x) (T x) (c x))
    (hC0 : ∀ x, 0 < C0 x) (ht : ∀ x, 0 < t x) :
    ∃ p : X → ℝ, Continuous p ∧ ∀ x, 0 < p x ∧ ∃ (n0 : ℕ) (D : ℝ), 0 < D ∧
      (∀ n ≥ n0, (Etemad2020.calculate_nominal_rock_diameter_Dn50 (fin (H x)) (fin (T x)) (fin (N x)) (fin (c x))
        (fin (ra x)) (fin (S x)) (fin (Dc x)) (Mc x) (rc x) nan false (fin (C0 x)) n (fin (t x))).res = .ok (fin D)) ∧
      (t x < D → |Real.log D - Real.log (p x)| ≤ 0.22 * (t x / (D - t x))) := by
  have hm : Etemad2020.depth_limitation nan false = ⟨[], .ok (fin 1)⟩ := by
    simp [Etemad2020.depth_limitation, PyM.pure_def, sci_eq]; norm_num
  choose n0 D p hD hp hres e hcl using fun x => size_near nan nan (Mc x) (rc x) false (kH.2 x) (kT.2 x) (kN.2 x) (kc.2 x)
    (hr x) (kS.2 x) (kDc.2 x).le (by simp) (C0 x) (t x) (hC0 x) (ht x)
  refine ⟨p, ?_, fun x => ⟨hp x, n0 x, D x, hD x, hres x, hcl x⟩⟩
  simp only [RangeProof.irib_eq] at hx
  have hDe : ∀ x, 0 < (ra x - 1025) / 1025 := fun x => div_pos (sub_pos.mpr (hr x)) (by norm_num)
  have eS : ∀ x, Sd (H x) (T x) (N x) (c x) ((ra x - 1025) / 1025) (p x) (cp (p x) (Dc x)) 1 = S x := fun x => by
    have := e x
    rw [S_eval nan (Mc x) (rc x) (kT.2 x) (kN.2 x) (kc.2 x) (by norm_num) (hr x) (hp x) (kDc.2 x).le one_pos hm (kH.2 x)]
      at this
    exact PF.fin.inj (Except.ok.inj this)
  have main : ∀ cc ex : ℝ, 0 < cc → (∀ x, (Kc cc ex (H x) (T x) (N x) (c x) ((ra x - 1025) / 1025) 1 (S x)
      / cp (p x) (Dc x) / p x) ^ (6 : ℝ) * S x = S x) → Continuous p := by
    intro cc ex hcc h
    have hK := fun x => Kc_pos (kH.2 x) (kT.2 x) (kN.2 x) (kc.2 x) (hDe x) one_pos (kS.2 x) (e := ex) hcc
    refine fixed_cont (q := 0.18) (f := fun x => Fit (Kc cc ex (H x) (T x) (N x) (c x) ((ra x - 1025) / 1025) 1 (S x))
      (Dc x)) (by norm_num) hp (fun x => ?_) (fun x y z hy hz => Fit_log (hK x) (kDc.2 x).le hy hz) (fun x => ?_)
    · exact (fixed_iff (hK x) (kDc.2 x).le (hp x) (kS.2 x)).mp (h x)
    · have kC := cp_input (const_input (X := X) (hp x)) kDc
      have hxi := VdMProof.xi_pos (kH.2 x) (kT.2 x) (kc.2 x)
      have kx := xi_cont (x := x) kH.1.continuousAt kT.1.continuousAt kc.1.continuousAt (kH.2 x) (kT.2 x) (kc.2 x)
      have kC' := kC.1.continuousAt (x := x)
      generalize p x = y at *
      inputs [kH, kT, kN, kc, kS, kC] x
      have := hDe x
      have := sub_pos.mpr (hr x)
      unfold Fit Kc
      cont
  rcases hx with h | h
  · refine main 4.5 (7.0 / 12.0) (by norm_num) fun x => ?_
    rw [← Spl_K (kH.2 x) (kT.2 x) (kN.2 x) (kc.2 x) (hDe x) one_pos (kS.2 x) (hp x) (cp_pos (hp x) (kDc.2 x).le)]
    have := eS x
    unfold Sd at this
    rwa [if_neg (not_le.mpr (h x))] at this
  · refine main 3.9 (1.0 / 3.0) (by norm_num) fun x => ?_
    rw [← Ssu_K (kH.2 x) (kT.2 x) (kN.2 x) (kc.2 x) (hDe x) one_pos (kS.2 x) (hp x) (cp_pos (hp x) (kDc.2 x).le)]
    have := eS x
    unfold Sd at this
    rwa [if_pos (h x)] at this

/-- a case meeting the hypotheses: all damage levels and core sizes -/
example := C95_etemad2020_size_partial (X := Set.Ioi (0 : ℝ)) (H := fun _ => 1) (T := fun _ => 8) (N := fun _ => 3000)
  (c := fun _ => 2) (ra := fun _ => 2650) (S := fun s => s) (Dc := fun s => s) (C0 := fun _ => 0.5)
  (t := fun _ => 1e-5) (fun _ => nan) (fun _ => nan) (const_input (by norm_num)) (const_input (by norm_num))
  (const_input (by norm_num)) (const_input (by norm_num)) continuous_const (fun _ => by norm_num) id_input id_input
  ((lt_or_ge _ _).imp (fun h _ => h) fun h _ => h)
  (fun _ => by norm_num) (fun _ => by norm_num)
end
