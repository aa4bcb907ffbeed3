import Verif.Props.RangeHydraulics
import Verif.SpecFormula

/-! # Validity warnings of the EurOtop (2018) run-up formula (C60)

The calculation is handed on to the TAW (2002) functions, so the warnings carry the ranges and the name of TAW
(2002). The obliqueness factor looked at is the one computed from the angle; an explicit one is ignored. -/

open Classical
open PF
open CorePhysics CoreUtility RangeProof Textbook
noncomputable section

theorem C60_runup_eurotop2018 {H T c gb gf b : ℝ} (given B db k1 k2 k3 k4 : PF) (best : Bool) (hH : 0 < H)
    (hT : 0 < T) (hc : 0 < c) :
    WarnsExactly (RunupEurOtop2018.calculate_wave_runup_height_z2p (fin H) (fin T) (fin b) given (fin gb)
        (fin gf) B db (fin c) nan nan k1 k2 k3 k4 best) "TAW (2002)"
      [⟨"Influence factor for a berm gamma_b", fin gb, 0.6, 1.0⟩,
       ⟨"Influence factor for oblique wave incidence gamma_beta",
        fin (Published.obliqueness (if 0.6 < gf then 0.0022 else 0.0063) b), 0.7, 1.0⟩,
       ⟨"Influence factor for surface roughness gamma_f", fin gf, 0.5, 1.0⟩,
       ⟨"Wave steepness smm10", fin (steepness H T), 0.001, 0.07⟩,
       ⟨"Iribarren number ksi_mm10", fin (iribarren H T c), 0.4, 20.0⟩] := by
  unfold RunupEurOtop2018.calculate_wave_runup_height_z2p
    RunupEurOtop2018.calculate_dimensionless_wave_runup_height_z2p
    RunupTaw2002.calculate_dimensionless_wave_runup_height_z2p RunupTaw2002.diml_depth
    RunupTaw2002.diml_rec
  refine ret _ ?_
  have e3 : RunupEurOtop2018.calculate_influence_oblique_waves_gamma_beta (fin b) (fin gf) =
      fin (Published.obliqueness (if 0.6 < gf then 0.0022 else 0.0063) b) := by
    unfold RunupEurOtop2018.calculate_influence_oblique_waves_gamma_beta
    simp only [sci_eq, gt_iff_lt, lt_fin]
    have hk : ∀ k : ℝ, RunupTaw2002.calculate_influence_oblique_waves_gamma_beta (fin b) (fin k) (fin 80.0) =
        fin (Published.obliqueness k b) := by
      intro k
      have := RunupTaw2002.obl_eval k b
      unfold RunupTaw2002.obl at this
      unfold Published.obliqueness
      rw [← this, sci_eq]
    split_ifs
    · exact hk _
    · exact hk _
  rw [e3]
  generalize Published.obliqueness (if 0.6 < gf then 0.0022 else 0.0063) b = y
  have e1 : RunupTaw2002.check_calculate_gamma_beta nan (fin y) = pure false := by
    simp [RunupTaw2002.check_calculate_gamma_beta]
  have e2 : RunupTaw2002.check_composite_slope (fin c) nan nan = pure false := by
    simp [RunupTaw2002.check_composite_slope]
  simp only [RunupTaw2002.slope_rec, RunupTaw2002.berm_rec, e1, e2, pure_bind, isnan_fin, if_false,
    Bool.false_eq_true]
  exact ret _ (RangeHydraulics.runup_check hH hT hc)

-- a rough slope at 60 degrees: the computed factor 0.622 is reported, whatever factor is given
example (given : PF) : Warn.range "Influence factor for oblique wave incidence gamma_beta" "TAW (2002)"
      (fin 0.622) 0.7 1.0 ∈ (RunupEurOtop2018.calculate_wave_runup_height_z2p (fin 2) (fin 6) (fin 60) given
        (fin 0.8) (fin 0.55) 0 0 (fin 3) nan nan).warns := by
  have h := C60_runup_eurotop2018 (H := 2) (T := 6) (c := 3) (gb := 0.8) (gf := 0.55) (b := 60) given 0 0
    1.75 4.3 1.5 1.07 false (by norm_num) (by norm_num) (by norm_num)
  have e : Published.obliqueness (if (0.6 : ℝ) < 0.55 then 0.0022 else 0.0063) 60 = 0.622 := by
    rw [if_neg (by norm_num)]
    unfold Published.obliqueness
    rw [abs_of_pos (by norm_num), min_eq_left (by norm_num)]
    norm_num
  rw [e] at h
  refine (h.2 _).mpr ⟨_, List.mem_cons_of_mem _ List.mem_cons_self, Or.inl ?_, rfl⟩
  simp only [sci_eq, lt_fin]
  norm_num

end
