import Verif.Props.FormulasArmour
import Verif.Props.FormulasRock
import Verif.Props.FormulasToe
import Verif.Props.FormulasStructures
import Verif.Props.FormulasOvertoppingMore
import Verif.Props.FormulasJumeletHeight
import Verif.Props.RangeArmour
import Verif.Props.RangeStructures
import Verif.Props.RangeHydraulics
import Verif.Props.RangeMore
import Verif.Props.RangeOvertoppingMore
import Verif.Props.ToeEtemad
import Verif.Props.KramerBurcharth
import Verif.Props.RearSlope
import Verif.Props.RearPozueta
import Verif.Props.JumeletScaravaglione
import Verif.Props.Etemad2020
import Verif.Props.TakahashiSearch

/-! # Concrete cases for theorems that assume a call to return a number

The theorems on warnings (C60) of functions whose checks look at the result assume that the call returns a
number.  Here are cases with ordinary input where it does; each theorem is applied to its case. -/

open Classical
open PF
noncomputable section

namespace CasesMet

example : ∃ r : ℝ, 0 < r ∧ (VdMModified.calculate_nominal_rock_diameter_Dn50 (fin 2) (fin 2.8) (fin 8) (fin 3000)
    (fin 3) (fin 0.4) (fin 2650) (fin 2) (fin 8.4) (fin 1.3) (fin 1025)).res = .ok (fin r) := by
  obtain ⟨r, h0, hr, -⟩ := C78_modified_size (T := 8) (N := 3000) (c := 3) (P := 0.4) (ra := 2650) (rw := 1025)
    (cpl := 8.4) (cs := 1.3) (H := 2) (H2 := 2.8) (S := 2) (by norm_num) (by norm_num) (by norm_num)
    (by norm_num) (by norm_num) (by norm_num) (by norm_num) (by norm_num) (by norm_num) (by norm_num)
    (by norm_num)
  have := RangeArmour.C60_modified_size_partial _ _ _ _ (by norm_num) (by norm_num) (by norm_num) (by norm_num)
    h0 hr
  exact ⟨r, h0, hr⟩

example : ∃ r : ℝ, 0 < r ∧ (VdMModified.calculate_significant_wave_height_Hs (fin 1.4) (fin 8) (fin 3000)
    (fin 3) (fin 0.4) (fin 2650) (fin 2) (fin 1) nan (fin 8.4) (fin 1.3) (fin 9.81) (fin 1025)).res =
      .ok (fin r) := by
  obtain ⟨r, h0, hr, -⟩ := C78_modified_height (T := 8) (N := 3000) (c := 3) (P := 0.4) (ra := 2650)
    (rw := 1025) (cpl := 8.4) (cs := 1.3) (r := 1.4) (D := 1) (S := 2) (M := nan) (by norm_num) (by norm_num)
    (by norm_num) (by norm_num) (by norm_num) (by norm_num) (by norm_num) (by norm_num) (by norm_num)
    (by norm_num) (by norm_num)
  have := RangeArmour.C60_modified_height_partial _ _ _ _ _ _ _ (by norm_num) (by norm_num) (by norm_num)
    (by norm_num) h0 hr
  exact ⟨r, h0, hr⟩

example : ∃ r : ℝ, 0 < r ∧ (Etemad2020.calculate_damage_number_S (fin 2) (fin 8) (fin 3000) (fin 2) (fin 2650)
    (fin 1) nan (fin 0.3) nan nan (fin 1025) nan false).res = .ok (fin r) := by
  obtain ⟨r, h0, hr, -⟩ := C78_etemad2020_damage (T := 8) (N := 3000) (c := 2) (ra := 2650) (D := 1)
    (Dc := 0.3) (x := 0) (m := nan) (M := nan) (Mc := nan) (rc := nan) (b := false) (H := 2) (rw := 1025)
    (by norm_num) (by norm_num) (by norm_num) (by norm_num) (by norm_num) (by simp) (by norm_num) (by norm_num)
    (by norm_num)
  have := RangeArmour.C60_etemad2020_damage _ _ _ _ _ (by norm_num) (by norm_num) (by norm_num) (by norm_num)
    (by norm_num) (by norm_num) hr
  exact ⟨r, h0, hr⟩

example : ∃ r : ℝ, 0 < r ∧ (Scaravaglione2025.calculate_significant_wave_height_Hm0 (fin 8) (fin 3000) (fin 2)
    (fin 2650) nan (fin 2) (fin 1) (fin 0.3) nan nan (fin 3.3) (fin 9.81) (fin 1025)).res = .ok (fin r) := by
  obtain ⟨r, h0, hr, -⟩ := C78_scaravaglione_height (T := 8) (N := 3000) (c := 2) (ra := 2650) (rw := 1025)
    (cv := 3.3) (D := 1) (Dc := 0.3) (S := 2) (M := nan) (Mc := nan) (rc := nan) (by norm_num) (by norm_num)
    (by norm_num) (by norm_num) (by norm_num) (by norm_num) (by norm_num) (by norm_num) (by norm_num)
  have := RangeArmour.C60_scaravaglione_height_partial _ _ _ _ _ _ _ (by norm_num) (by norm_num) (by norm_num)
    (by norm_num) h0 hr
  exact ⟨r, h0, hr⟩

example (w : Warn) : ∃ r : ℝ, 0 < r ∧ (VdM2021.calculate_significant_wave_height_Hs (fin 8) (fin 3000) (fin 3)
    (fin 0.4) (fin 2650) (fin 2) (fin 1) nan (fin 6.2) (fin 1) (fin 1) (fin 1) (fin 9.81)).res =
      .ok (fin r) := by
  obtain ⟨r, h0, hr, -⟩ := C78_vdm2021_height (T := 8) (N := 3000) (c := 3) (P := 0.4) (ra := 2650)
    (cpl := 6.2) (cs := 1) (ml := 1) (ms := 1) (M := nan) (D := 1) (S := 2) (by norm_num) (by norm_num)
    (by norm_num) (by norm_num) (by norm_num) (by norm_num) (by norm_num) (by norm_num) (by norm_num)
    (by norm_num) (by norm_num)
  have := RangeMore.C60_vandermeer2021_height _ _ _ _ _ _ _ (by norm_num) (by norm_num) (by norm_num)
    (by norm_num) h0 hr (w := w)
  exact ⟨r, h0, hr⟩

example : ∃ r : ℝ, 0 < r ∧ (VanDerMeer1998.calculate_wave_height_Hs (fin 0.5) (fin 5) (fin 8) (fin 0.5)
    (fin 2650) (fin 1025)).res = .ok (fin r) := by
  obtain ⟨r, h0, hr, -⟩ := C78_vdm1998_height (ra := 2650) (rw := 1025) (D := 0.5) (N := 0.5) (ht := 5) (h := 8)
    (by norm_num) (by norm_num) (by norm_num) (by norm_num) (by norm_num) (by norm_num)
  have := RangeMore.C60_toe_vandermeer1998_height_partial (by norm_num) (by norm_num) (by norm_num) (by norm_num)
    (by norm_num) hr
  exact ⟨r, h0, hr⟩

example : ∃ r : ℝ, 0 < r ∧ (VanDerMeer1998.calculate_damage_Nod (fin 2) (fin 5) (fin 8) (fin 0.5)
    (fin 2650) (fin 1025)).res = .ok (fin r) := by
  obtain ⟨r, h0, hr, -⟩ := C78_vdm1998_damage (ra := 2650) (rw := 1025) (H := 2) (D := 0.5) (ht := 5) (h := 8)
    (by norm_num) (by norm_num) (by norm_num) (by norm_num) (by norm_num) (by norm_num)
  have := RangeMore.C60_toe_vandermeer1998_damage_partial (by norm_num) (by norm_num) (by norm_num) (by norm_num)
    h0 hr
  exact ⟨r, h0, hr⟩

example : ∃ r : ℝ, 0 < r ∧ (CubesVdM.calculate_wave_height_Hs_vanDerMeer1988 (fin 1) (fin 0.03) (fin 1025)
    (fin 2400) (fin 3000) (fin 1.5) (fin 0.5)).res = .ok (fin r) := by
  obtain ⟨r, h0, hr, -⟩ := C78_cubes_double_height (rw := 1025) (ra := 2400) (N := 3000) (c := 1.5) (s := 0.03)
    (D := 1) (Nod := 0.5) (by norm_num) (by norm_num) (by norm_num) (by norm_num) (by norm_num) (by norm_num)
  have := RangeStructures.C60_cubes_height _ _ (by norm_num) h0 hr
  exact ⟨r, h0, hr⟩

example : ∃ r : ℝ, (Gerding1993.calculate_nominal_diameter_Dn50 (fin 2) (fin 5) (fin 8) (fin 0.5)
    (fin 2650) (fin 1025)).res = .ok (fin r) := by
  obtain ⟨r, hr, -⟩ := C78_gerding_size (ra := 2650) (rw := 1025) (h := fin 8) (H := 2) (N := 0.5) (ht := 5)
    (by norm_num) (by norm_num) (by norm_num)
  exact ⟨r, hr⟩

example : ∃ r : ℝ, (DeRidder2024.calculate_crest_freeboard_discharge_q_eq26 (fin 2) (fin 0.02) (fin 0.6)
    (fin 0.5) (fin 0.001) (fin 9.81)).res = .ok (fin r) := by
  obtain ⟨-, r, hr, -⟩ := C78_deridder2024_freeboard_partial (H := 2) (s := 0.02) (gf := 0.5) (g := 9.81)
    (by norm_num) (by norm_num) (by norm_num) (by norm_num) 0.001 0.6 (by norm_num)
  have := RangeHydraulics.C60_deridder2024_freeboard_eq26_partial _ _ _ _ (by norm_num) hr
  exact ⟨r, hr⟩

example (T : PF) : ∃ r : ℝ, (Takahashi1990.calculate_stability_number_Ns (fun _ _ _ => fin 0.05) (fin 2) T
    (fin 10) (fin (10 * Real.pi / 3)) (fin 0) (fin 9.81)).res = .ok (fin r) := by
  obtain ⟨κ, H, hκ, eκ, -⟩ := TakahashiProof.toe_example
  have hpi := Real.pi_pos
  have := C78_takahashi (fun _ _ _ => fin 0.05) 2 10 (10 * Real.pi / 3) 0 9.81 _ T (by norm_num) (by norm_num)
    (by positivity) (TakahashiProof.toe_wavelength T) (eκ ▸ hκ)
  have h2 := RangeStructures.C60_takahashi _ _ _ _ _ _ this
  exact ⟨_, this⟩

example : ∃ (r : PyM PF), EtemadShahidi2021.calculate_significant_wave_height_Hs (fin 8) (fin 8) (fin 5) (fin 4)
    (fin 0.5) (fin 0.02) (fin 0.5) (fin 2650) (fin 1025) (fin 9.81) (fin 1) (fin 0.1) (fin 0.4) (fin 0.6)
    (fin 0.7) (fin 0.4) (fin 0.5) (fin 0.03) 10 = some r := by
  obtain ⟨r, H, p, hr, -⟩ := C31_terminates_partial (D := 0.5) (T := 8) (h := 8) (ht := 5) (Bt := 4) (N := 0.5)
    (m := 0.02) (ra := 2650) (rw := 1025) (g := 9.81) (c1 := 1) (c2 := 0.1) (c3 := 0.4) (c4 := 0.6) (c5 := 0.7)
    (c6 := 0.4) (c7 := 0.5) (s0 := 0.03) (by norm_num) (by norm_num) (by norm_num) (by norm_num) (by norm_num)
    (by norm_num) (by norm_num) (by norm_num) (by norm_num) (by norm_num) (by norm_num) (by norm_num)
    (by norm_num) (by norm_num [abs_lt]) (by norm_num) 10 (by norm_num)
  have := RangeMore.C60_toe_etemad_height_refuted _ _ _ _ _ _ _ _ _ _ _ _ _ _ _ _ _ _ _ _ hr
  exact ⟨r, hr⟩

example : ∃ r : ℝ, 0 < r ∧ (Etemad2020.calculate_nominal_rock_diameter_Dn50 (fin 2) (fin 8) (fin 3000) (fin 2)
    (fin 2650) (fin 2) (fin 0.3) nan nan nan false (fin 0.6) 1 (fin 0)).res = .ok (fin r) := by
  obtain ⟨p, -, -, h⟩ := C22_unique_and_geometric 2 8 3000 2 2650 2 0.3 nan false nan nan nan (by norm_num)
    (by norm_num) (by norm_num) (by norm_num) (by norm_num) (by norm_num) (by norm_num) (by simp)
  obtain ⟨r, h0, hr, -⟩ := h 0.6 0 (by norm_num) (by norm_num)
  have := RangeArmour.C60_etemad2020_size _ _ _ _ _ _ _ (by norm_num) (by norm_num) (by norm_num) (by norm_num)
    h0 hr
  exact ⟨r, h0, hr⟩

example : ∃ r : ℝ, 0 < r ∧ (Etemad2020.calculate_significant_wave_height_Hs (fin 8) (fin 3000) (fin 2)
    (fin 2650) (fin 2) (fin 1) nan (fin 0.3) nan nan nan false).res = .ok (fin r) := by
  obtain ⟨r, h0, hr, -⟩ := C78_etemad2020_height_partial (T := 8) (N := 3000) (c := 2) (ra := 2650) (D := 1)
    (Dc := 0.3) (x := 0) (m := nan) (M := nan) (Mc := nan) (rc := nan) (b := false) (S := 2)
    (by norm_num) (by norm_num) (by norm_num) (by norm_num) (by norm_num) (by simp) (by norm_num) (by norm_num)
  have := RangeArmour.C60_etemad2020_height _ _ _ _ _ _ (by norm_num) (by norm_num) (by norm_num) (by norm_num)
    h0 hr
  exact ⟨r, h0, hr⟩

example : ∃ S : ℝ, 0 < S ∧ (Scaravaglione2025.calculate_nominal_rock_diameter_Dn50 (fin 2) (fin 8) (fin 3000)
    (fin 2) (fin 2650) nan (fin S) (fin 0.3) nan (fin 3.3) (fin 1025)).res = .ok (fin 1) := by
  obtain ⟨S, h0, -, hr⟩ := C24_size_of_damage (T := 8) (N := 3000) (c := 2) (ra := 2650) (rw := 1025)
    (cv := 3.3) (rc := nan) (M := nan) (Mc := nan) (H := 2) (D := 1) (Dc := 0.3) (by norm_num) (by norm_num)
    (by norm_num) (by norm_num) (by norm_num) (by norm_num) (by norm_num) (by norm_num) (by norm_num)
  have := RangeArmour.C60_scaravaglione_size_partial _ _ _ _ _ (by norm_num) (by norm_num) (by norm_num)
    (by norm_num) (by norm_num) hr
  exact ⟨S, h0, hr⟩

example : ∃ r : ℝ, 0 < r ∧ (KramerBurcharth.calculate_nominal_rock_diameter_Dn50 (fin 2) (fin 0) (fin 2650)
    (fin 2) 5 (fin 0.001)).res = .ok (fin r) := by
  obtain ⟨r, h0, hr, -⟩ := C25_zero_freeboard 2 2650 2 0.001 nan 4 (by norm_num) (by norm_num) (by norm_num)
  have := RangeArmour.C60_kramer_size _ _ _ _ _ h0 hr
  exact ⟨r, h0, hr⟩

example : ∃ r : ℝ, 0 < r ∧ (VanDerMeer1998.calculate_depth_above_toe_ht (fin 2) (fin 0.4) (fin 8) (fin 1)
    (fin 2650) (fin 1025)).res = .ok (fin r) := by
  obtain ⟨r, h0, hr, -⟩ := C78_vdm1998_depth (ra := 2650) (rw := 1025) (H := 2) (D := 0.4) (N := 1) (h := 8)
    (by norm_num) (by norm_num) (by norm_num) (by norm_num) (by norm_num)
    (by norm_num [Textbook.Ns, Textbook.Delta])
  have := RangeMore.C60_toe_vandermeer1998_depth_partial (by norm_num) (by norm_num) (by norm_num) (by norm_num)
    (by norm_num) hr
  exact ⟨r, h0, hr⟩

example : ∃ S D : ℝ, 0 < S ∧ 0 < D ∧
    (VanGent2007Rear.calculate_damage_number_S (fin 2) (fin 2) (fin 0.5) (fin 4) (fin 10) (fin 2)
      (fin 0.5) (fin 0.5) (fin 3000) (fin 0.7)).res = .ok (fin S) ∧
    (VanGent2007Rear.calculate_nominal_rock_diameter_Dn50 (fin 2) (fin 2) (fin 0.5) (fin S) (fin 4)
      (fin 10) (fin 2) (fin 0.5) (fin 0.5) (fin 3000)).res = .ok (fin D) := by
  obtain ⟨z, hz, e⟩ := RearProof.sample_runup
  obtain ⟨k, h1, h2, h3, h4⟩ := C33_size_damage_partial 2 2 0.5 4 10 2 0.5 0.5 3000 z nan nan
    (by norm_num) (by norm_num) (by norm_num) (by norm_num) (by norm_num) (by norm_num)
    (by norm_num) e hz
  obtain ⟨S, hS, hs, hd⟩ := h4 0.7 (by norm_num)
  have hD : 0 < k ^ (-0.4 : ℝ) * 0.7 := by
    have : 0 < k := by linarith
    positivity
  have := RangeStructures.C60_rear_vangent_damage_partial _ _ (by norm_num) (by norm_num) e hs
  have := RangeStructures.C60_rear_vangent_size_partial (by norm_num) hD e hd
  exact ⟨S, _, hS, hD, hs, hd⟩

example : ∃ S : ℝ, 0 < S ∧
    (VanGentPozueta2004.calculate_damage_number_S (fin 2) (fin 2) (fin 0.5) (fin 0.6) (fin 4) (fin 10)
      (fin 2) (fin 3) (fin 4) (fin 2000) (fin 0.7) nan (fin 2650) (fin 1025) (fin 1)).res = .ok (fin S) ∧
    (VanGentPozueta2004.calculate_nominal_rock_diameter_Dn50 (fin 2) (fin 2) (fin 0.5) (fin 0.6)
      (fin S) (fin 4) (fin 10) (fin 2) (fin 3) (fin 4) (fin 2650) (fin 2000) (fin 1025) (fin 1)).res =
        .ok (fin 0.7) := by
  obtain ⟨z, hz, e⟩ := RearProof.sample_runup
  obtain ⟨S, hS, hs, hd⟩ := (C34_damage_size_inverse 2 2 0.5 0.6 4 10 2 3 4 2000 z 2650 1025 1 nan (by norm_num)
    (by norm_num) (by norm_num) (by norm_num) (by norm_num) (by norm_num) (by norm_num) (by norm_num)
    (by norm_num) (by norm_num) e hz).1 0.7 (by norm_num)
  have := RangeStructures.C60_rear_pozueta_damage _ _ (by norm_num) (by norm_num) (by norm_num) (by norm_num)
    (by norm_num) (by norm_num) e hs
  have := RangeStructures.C60_rear_pozueta_size _ (by norm_num) (by norm_num) (by norm_num) (by norm_num)
    (by norm_num) (by norm_num) e hd
  exact ⟨S, hS, hs, hd⟩

end CasesMet
