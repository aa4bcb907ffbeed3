import Verif.Lemmas.Range
import Verif.Lemmas.Taw
import Verif.Model.Transmission
import Verif.Model.Overtopping
import Verif.Model.OvertoppingMore
import Verif.Props.Goda1985

/-! # Validity warnings of the run-up, overtopping, transmission and caisson formulas (C60)

See `RangeArmour` for the reading of `WarnsExactly`; `r` is the result of the call. -/

open Classical
open PF
open CorePhysics CoreUtility RangeProof Textbook
noncomputable section

namespace RangeHydraulics

/-! ### Transmission: D'Angremond et al. (1996)

The coefficient is checked before it is limited to 0.075–0.8. -/

theorem C60_dangremond {H T h Rc B c C : ℝ} (hH : 0 < H) (hT : 0 < T) (hh : 0 < h) (hc : 0 < c)
    (hB : 0 < B) :
    WarnsExactly (DAngremond1996.calculate_wave_transmission_Kt_permeable (fin H) (fin T) (fin h) (fin Rc)
        (fin B) (fin c) (fin C)) "D'Angremond et al. (1996)"
      [⟨"Transmission coefficient Kt", fin (-0.4 * (Rc / H) +
          (B / H) ^ (-0.31 : ℝ) * (1 - Real.exp (-0.5 * iribarren H T c)) * C), 0.075, 0.8⟩,
       ⟨"Wave steepness s0p (dataset limit)", fin (steepness H T), 0, 0.06⟩,
       ⟨"Relative water depth Hsi/h (dataset limit)", fin (H / h), 0, 0.54⟩,
       ⟨"Relative crest level Rc/Hsi (dataset limit)", fin (Rc / H), -2.5, 2.5⟩] := by
  unfold DAngremond1996.calculate_wave_transmission_Kt_permeable DAngremond1996.check_validity
  dsimp only
  rw [irib_eval hH hT hc, steep_eval hT, if_pos rfl, ratio_eval hH, ratio_eval hh, ratio_eval hH]
  have e : -0.4 * fin (Rc / H) + npow (fin (B / H)) (-0.31) *
      (1 - PF.exp (-0.5 * fin (iribarren H T c))) * fin C = fin (-0.4 * (Rc / H) +
        (B / H) ^ (-0.31 : ℝ) * (1 - Real.exp (-0.5 * iribarren H T c)) * C) := by
    generalize iribarren H T c = x
    pf_eval []
  rw [e]
  exact ret _ <| check (by simp) rfl <| check (by simp) rfl <| check (by simp) rfl <|
    last (by simp) rfl

example := RangeHydraulics.C60_dangremond (H := 2) (T := 8) (h := 8) (Rc := 3) (B := 4) (c := 2) (C := 0.64)
  (by norm_num) (by norm_num) (by norm_num) (by norm_num) (by norm_num)

theorem C60_dangremond_impermeable {H T h Rc B c C : ℝ} (hH : 0 < H) (hT : 0 < T) (hh : 0 < h)
    (hc : 0 < c) (hB : 0 < B) :
    WarnsExactly (DAngremond1996.calculate_wave_transmission_Kt_impermeable (fin H) (fin T) (fin h)
        (fin Rc) (fin B) (fin c) (fin C)) "D'Angremond et al. (1996)"
      [⟨"Transmission coefficient Kt", fin (-0.4 * (Rc / H) +
          (B / H) ^ (-0.31 : ℝ) * (1 - Real.exp (-0.5 * iribarren H T c)) * C), 0.075, 0.8⟩,
       ⟨"Wave steepness s0p (dataset limit)", fin (steepness H T), 0, 0.06⟩,
       ⟨"Relative water depth Hsi/h (dataset limit)", fin (H / h), 0, 0.54⟩,
       ⟨"Relative crest level Rc/Hsi (dataset limit)", fin (Rc / H), -2.5, 2.5⟩] :=
  C60_dangremond hH hT hh hc hB

example := RangeHydraulics.C60_dangremond_impermeable (H := 2) (T := 8) (h := 8) (Rc := 3) (B := 4) (c := 2)
  (C := 0.64) (by norm_num) (by norm_num) (by norm_num) (by norm_num) (by norm_num)

/-! ### Transmission: Briganti (2003) -/

theorem C60_briganti {H T c : ℝ} (Rc B : PF) (hH : 0 < H) (hT : 0 < T) (hc : 0 < c) :
    WarnsExactly (Briganti2003.calculate_wave_transmission_Kt (fin H) (fin T) Rc B (fin c))
      "Briganti (2003)"
      [⟨"Wave steepness s0p", fin (steepness H T), 0.005, 0.07⟩,
       ⟨"Surf similarity parameter ksi_0p", fin (iribarren H T c), 0.5, 10.0⟩] := by
  unfold Briganti2003.calculate_wave_transmission_Kt
  dsimp only
  rw [irib_eval hH hT hc, steep_eval hT]
  have h0 : ∃ x, Briganti2003.Kt_unlimited (fin H) (fin T) Rc B (fin c) (fin (iribarren H T c)) =
      pure x := by
    unfold Briganti2003.Kt_unlimited DAngremond1996.calculate_wave_transmission_Kt_permeable
    split
    · exact ⟨_, by simp only [Bool.false_eq_true, if_false, pure_bind]; rfl⟩
    · exact ⟨_, rfl⟩
  obtain ⟨x, hx⟩ := h0
  rw [hx, pure_bind]
  refine ret _ ?_
  unfold Briganti2003.check_validity
  exact check (by simp) rfl <| last (by simp) rfl

example := RangeHydraulics.C60_briganti (H := 2) (T := 8) (c := 2) (Rc := .fin 3) (B := .fin 4)
  (by norm_num) (by norm_num) (by norm_num)

/-! ### Transmission: Van Gent et al. (2023)

The module has a validity check which the function never calls: not a word, whatever the input. -/

theorem C60_vangent2023_refuted (disper : PF → PF → PF → PF) (H T Rc B : PF) (s : String) :
    (VanGent2023.calculate_wave_transmission_Kt disper H T Rc B s).warns = [] := by
  unfold VanGent2023.calculate_wave_transmission_Kt VanGent2023.coefficients
  split <;> rfl

/-- a crest ten wave heights above the water: the module's own check would object, the function does
not -/
example (disper : PF → PF → PF → PF) :
    (VanGent2023.check_validity_range disper (fin 1) (fin 8) (fin 10) (fin 3) (some "permeable")).warns
      ≠ [] ∧
    (VanGent2023.calculate_wave_transmission_Kt disper (fin 1) (fin 8) (fin 10) (fin 3)
      "permeable").warns = [] := by
  refine ⟨fun e => ?_, C60_vangent2023_refuted ..⟩
  unfold VanGent2023.check_validity_range at e
  rw [check_bind_warns, List.append_eq_nil_iff, check_if_given_warns, if_pos] at e
  · simp at e
  · refine ⟨by simp, Or.inr ?_⟩
    rw [if_pos rfl, ratio_eval one_pos, sci_eq, lt_fin]; norm_num

/-! ### Set-up: Van Gent (2024)

The permeable formula is also limited to certain crest widths and stone sizes, which are not arguments
of the function. -/

theorem C60_setup_impermeable {H T Rc : ℝ} (hH : 0 < H) (hT : 0 < T) :
    WarnsExactly (VanGent2024.calculate_structure_induced_setup_delta_impermeable (fin H) (fin T) (fin Rc))
      "Van Gent (2024)"
      [⟨"Wave steepness sm-1,0", fin (steepness H T), 0.01, 0.04⟩,
       ⟨"Dimensionless freeboard Rc/Hm0", fin (Rc / H), -1.0, 0.0⟩] := by
  unfold VanGent2024.calculate_structure_induced_setup_delta_impermeable
    VanGent2024.calculate_dimensionless_structure_induced_setup_impermeable
    VanGent2024.check_validity_range
  dsimp only
  rw [if_pos rfl, if_pos rfl, if_neg (by decide)]
  refine ret _ (ret _ ?_)
  exact check (by simp) (steep_eval hT) <| perm (both (last (by simp) (ratio_eval hH))
    fun _ => done _) (by simp)

example := RangeHydraulics.C60_setup_impermeable (H := 2) (T := 8) (Rc := 3) (by norm_num) (by norm_num)

theorem C60_setup_permeable_partial {H T Rc hc : ℝ} (hH : 0 < H) (hT : 0 < T) :
    WarnsExactly (VanGent2024.calculate_structure_induced_setup_delta_permeable (fin H) (fin T) (fin Rc)
        (fin hc)) "Van Gent (2024)"
      [⟨"Wave steepness sm-1,0", fin (steepness H T), 0.008, 0.04⟩,
       ⟨"Dimensionless freeboard Rc/Hm0", fin (Rc / H), -0.8, 0.0⟩,
       ⟨"Dimensionless submerged structure height hc/Hm0", fin (hc / H), 1.5, 3.0⟩] := by
  unfold VanGent2024.calculate_structure_induced_setup_delta_permeable
    VanGent2024.calculate_dimensionless_structure_induced_setup_permeable
    VanGent2024.check_validity_range
  dsimp only
  rw [if_neg (by decide), if_pos rfl, if_neg (by decide), if_pos rfl, if_pos rfl]
  refine ret _ (ret _ ?_)
  exact check (by simp) (steep_eval hT) <| check (by simp) (ratio_eval hH) <|
    check (by simp) (ratio_eval hH) <| check_nan rfl <| skip_last (by simp)

example := RangeHydraulics.C60_setup_permeable_partial (H := 2) (T := 8) (Rc := 3) (hc := 1) (by norm_num)
  (by norm_num)

/-! ### Run-up: TAW (2002), straight slope with a known berm factor -/

theorem runup_check {H T c gb gf gbeta : ℝ} (hH : 0 < H) (hT : 0 < T) (hc : 0 < c) :
    WarnsExactly (RunupTaw2002.check_validity_range (fin H) (fin T) (fin gf) (fin gb) (fin gbeta) (fin c))
      "TAW (2002)"
      [⟨"Influence factor for a berm gamma_b", fin gb, 0.6, 1.0⟩,
       ⟨"Influence factor for oblique wave incidence gamma_beta", fin gbeta, 0.7, 1.0⟩,
       ⟨"Influence factor for surface roughness gamma_f", fin gf, 0.5, 1.0⟩,
       ⟨"Wave steepness smm10", fin (steepness H T), 0.001, 0.07⟩,
       ⟨"Iribarren number ksi_mm10", fin (iribarren H T c), 0.4, 20.0⟩] := by
  unfold RunupTaw2002.check_validity_range
  exact check (by simp) rfl <| check (by simp) rfl <| check (by simp) rfl <|
    check (by simp) (steep_eval hT) <| last (by simp) (irib_eval hH hT hc)

theorem C60_runup_taw {H T c gb gf gbeta : ℝ} (beta B db k1 k2 k3 k4 : PF) (best : Bool) (hH : 0 < H)
    (hT : 0 < T) (hc : 0 < c) :
    WarnsExactly (RunupTaw2002.calculate_wave_runup_height_z2p
        { Hm0 := fin H, Tmm10 := fin T, beta := beta, gamma_beta := fin gbeta, gamma_b := fin gb,
          gamma_f := fin gf, B_berm := B, db := db, cot_alpha := fin c, c1 := k1, c2 := k2, c3 := k3,
          c4 := k4, use_best_fit := best }) "TAW (2002)"
      [⟨"Influence factor for a berm gamma_b", fin gb, 0.6, 1.0⟩,
       ⟨"Influence factor for oblique wave incidence gamma_beta", fin gbeta, 0.7, 1.0⟩,
       ⟨"Influence factor for surface roughness gamma_f", fin gf, 0.5, 1.0⟩,
       ⟨"Wave steepness smm10", fin (steepness H T), 0.001, 0.07⟩,
       ⟨"Iribarren number ksi_mm10", fin (iribarren H T c), 0.4, 20.0⟩] := by
  unfold RunupTaw2002.calculate_wave_runup_height_z2p RunupTaw2002.height_of
    RunupTaw2002.calculate_dimensionless_wave_runup_height_z2p RunupTaw2002.diml_depth
    RunupTaw2002.diml_rec
  refine ret _ ?_
  have e1 : RunupTaw2002.check_calculate_gamma_beta beta (fin gbeta) = pure false := by
    simp [RunupTaw2002.check_calculate_gamma_beta]
  have e2 : RunupTaw2002.check_composite_slope (fin c) nan nan = pure false := by
    simp [RunupTaw2002.check_composite_slope]
  simp only [RunupTaw2002.slope_rec, RunupTaw2002.berm_rec, e1, e2, pure_bind, isnan_fin, if_false,
    Bool.false_eq_true]
  exact ret _ (runup_check hH hT hc)

example := RangeHydraulics.C60_runup_taw (H := 2) (T := 8) (c := 2) (gb := 1) (gf := 0.5) (gbeta := 1)
  (beta := .fin 20) (B := .fin 4) (db := .fin 1) (k1 := .fin 1) (k2 := .fin 1) (k3 := .fin 1) (k4 := .fin 1)
  (best := true) (by norm_num) (by norm_num) (by norm_num)

/-- with the angle instead of the factor: the factor computed from it is checked -/
theorem C60_runup_taw_angle {H T c gb gf b : ℝ} (B db k1 k2 k3 k4 : PF) (best : Bool) (hH : 0 < H)
    (hT : 0 < T) (hc : 0 < c) :
    WarnsExactly (RunupTaw2002.calculate_wave_runup_height_z2p
        { Hm0 := fin H, Tmm10 := fin T, beta := fin b, gamma_b := fin gb,
          gamma_f := fin gf, B_berm := B, db := db, cot_alpha := fin c, c1 := k1, c2 := k2, c3 := k3,
          c4 := k4, use_best_fit := best }) "TAW (2002)"
      [⟨"Influence factor for a berm gamma_b", fin gb, 0.6, 1.0⟩,
       ⟨"Influence factor for surface roughness gamma_f", fin gf, 0.5, 1.0⟩,
       ⟨"Wave steepness smm10", fin (steepness H T), 0.001, 0.07⟩,
       ⟨"Iribarren number ksi_mm10", fin (iribarren H T c), 0.4, 20.0⟩] := by
  unfold RunupTaw2002.calculate_wave_runup_height_z2p RunupTaw2002.height_of
    RunupTaw2002.calculate_dimensionless_wave_runup_height_z2p RunupTaw2002.diml_depth
    RunupTaw2002.diml_rec
  refine ret _ ?_
  have e1 : RunupTaw2002.check_calculate_gamma_beta (fin b) nan = pure true := by
    simp [RunupTaw2002.check_calculate_gamma_beta]
  have e2 : RunupTaw2002.check_composite_slope (fin c) nan nan = pure false := by
    simp [RunupTaw2002.check_composite_slope]
  have e3 : RunupTaw2002.calculate_influence_oblique_waves_gamma_beta (fin b) =
    fin (RunupTaw2002.obl 0.0022 b) := RunupTaw2002.obl_eval 0.0022 b
  simp only [RunupTaw2002.slope_rec, RunupTaw2002.berm_rec, e1, e2, e3, pure_bind, isnan_fin, if_false,
    Bool.false_eq_true, if_true]
  refine ret _ ?_
  have := runup_check (gb := gb) (gf := gf) (gbeta := RunupTaw2002.obl 0.0022 b) hH hT hc
  refine ⟨this.1, fun w => ?_⟩
  rw [this.2]
  have hx : ¬ (Limit.Violated ⟨"Influence factor for oblique wave incidence gamma_beta",
      fin (RunupTaw2002.obl 0.0022 b), 0.7, 1.0⟩) := by
    unfold Limit.Violated
    simp only [sci_eq, lt_fin]
    have h1 : |b| ⊓ 80 ≤ 80 := inf_le_right
    have h2 : 0 ≤ |b| ⊓ 80 := le_inf (abs_nonneg b) (by norm_num)
    unfold RunupTaw2002.obl
    norm_num
    linarith
  simp only [List.mem_cons, List.not_mem_nil, or_false, exists_eq_or_imp, exists_eq_left, hx, false_and,
    false_or]

example := RangeHydraulics.C60_runup_taw_angle (H := 2) (T := 8) (c := 2) (gb := 1) (gf := 0.5) (b := 20)
  (B := .fin 4) (db := .fin 1) (k1 := .fin 1) (k2 := .fin 1) (k3 := .fin 1) (k4 := .fin 1) (best := true)
  (by norm_num) (by norm_num) (by norm_num)

/-! ### Overtopping: TAW (2002), straight slope with known berm and obliqueness factors -/

theorem overtopping_check {H T c b gb gf gbeta gv : ℝ} (hH : 0 < H) (hT : 0 < T) (hc : 0 < c) :
    WarnsExactly (OvertoppingTaw2002.check_validity_range (Hm0 := fin H) (Tmm10 := fin T) (beta := fin b)
        (cot_alpha := fin c) (gamma_f := fin gf) (gamma_b := fin gb) (gamma_beta := fin gbeta)
        (gamma_v := fin gv)) "TAW (2002)"
      [⟨"Wave steepness sm-1,0", fin (steepness H T), 0.0, 0.07⟩,
       ⟨"Iribarren number ksi_m-1,0", fin (iribarren H T c), 0.0, 7.0⟩,
       ⟨"gamma_b * ksi_m-1,0", fin (gb * iribarren H T c), 0.5, 10.0⟩,
       ⟨"Incident wave angle beta", fin b, 0.0, 90.0⟩,
       ⟨"Influence factor berm gamma_b", fin gb, 0.4, 1.0⟩,
       ⟨"Influence factor roughness gamma_f", fin gf, 0.4, 1.0⟩,
       ⟨"Influence factor oblique waves gamma_beta", fin gbeta, 0.4, 1.0⟩,
       ⟨"Influence factor vertical wall gamma_v", fin gv, 0.4, 1.0⟩] := by
  unfold OvertoppingTaw2002.check_validity_range
  refine check (by simp) (steep_eval hT) <| check (by simp) (irib_eval hH hT hc) <| check (by simp) ?_ <|
    skip (by simp) <| skip (by simp) <| check (by simp) rfl <| check (by simp) rfl <|
    check (by simp) rfl <| check (by simp) rfl <| last (by simp) rfl
  rw [irib_eval hH hT hc, mul_fin]

theorem C60_overtopping_taw {H T c b gb gf gbeta gv : ℝ} (Rc B db g : PF) (best : Bool) (hH : 0 < H)
    (hT : 0 < T) (hc : 0 < c) :
    WarnsExactly (OvertoppingTaw2002.calculate_overtopping_discharge_q (fin H) (fin T) Rc (fin c)
        (beta := fin b) (B_berm := B) (db := db) (gamma_beta := fin gbeta) (gamma_b := fin gb)
        (gamma_f := fin gf) (gamma_v := fin gv) (g := g) (use_best_fit := best)) "TAW (2002)"
      [⟨"Wave steepness sm-1,0", fin (steepness H T), 0.0, 0.07⟩,
       ⟨"Iribarren number ksi_m-1,0", fin (iribarren H T c), 0.0, 7.0⟩,
       ⟨"gamma_b * ksi_m-1,0", fin (gb * iribarren H T c), 0.5, 10.0⟩,
       ⟨"Incident wave angle beta", fin b, 0.0, 90.0⟩,
       ⟨"Influence factor berm gamma_b", fin gb, 0.4, 1.0⟩,
       ⟨"Influence factor roughness gamma_f", fin gf, 0.4, 1.0⟩,
       ⟨"Influence factor oblique waves gamma_beta", fin gbeta, 0.4, 1.0⟩,
       ⟨"Influence factor vertical wall gamma_v", fin gv, 0.4, 1.0⟩] := by
  unfold OvertoppingTaw2002.calculate_overtopping_discharge_q
    OvertoppingTaw2002.calculate_dimensionless_overtopping_discharge_q
  refine ret _ ?_
  have e0 : OvertoppingTaw2002.sigma_correction 0 best = pure (some (0, 0)) := by
    simp [OvertoppingTaw2002.sigma_correction, zero_eq, eqF_fin]
  have e1 : RunupTaw2002.check_calculate_gamma_beta (fin b) (fin gbeta) = pure false := by
    simp [RunupTaw2002.check_calculate_gamma_beta]
  have e2 : RunupTaw2002.check_composite_slope (fin c) nan nan = pure false := by
    simp [RunupTaw2002.check_composite_slope]
  simp only [e0, e1, e2, pure_bind, isnan_fin, if_false, Bool.false_eq_true,
    OvertoppingTaw2002.read_correction]
  exact ret _ (overtopping_check hH hT hc)

example := RangeHydraulics.C60_overtopping_taw (H := 2) (T := 8) (c := 2) (b := 20) (gb := 1) (gf := 0.5)
  (gbeta := 1) (gv := 1) (Rc := .fin 3) (B := .fin 4) (db := .fin 1) (g := .fin 9.81) (best := true)
  (by norm_num) (by norm_num) (by norm_num)

theorem C60_freeboard_taw {H T c b gb gf gbeta gv : ℝ} (q B db g : PF) (best : Bool) (hH : 0 < H)
    (hT : 0 < T) (hc : 0 < c) :
    WarnsExactly (OvertoppingTaw2002.calculate_crest_freeboard_Rc (fin H) (fin T) q (fin c)
        (beta := fin b) (B_berm := B) (db := db) (gamma_beta := fin gbeta) (gamma_b := fin gb)
        (gamma_f := fin gf) (gamma_v := fin gv) (g := g) (use_best_fit := best)) "TAW (2002)"
      [⟨"Wave steepness sm-1,0", fin (steepness H T), 0.0, 0.07⟩,
       ⟨"Iribarren number ksi_m-1,0", fin (iribarren H T c), 0.0, 7.0⟩,
       ⟨"gamma_b * ksi_m-1,0", fin (gb * iribarren H T c), 0.5, 10.0⟩,
       ⟨"Incident wave angle beta", fin b, 0.0, 90.0⟩,
       ⟨"Influence factor berm gamma_b", fin gb, 0.4, 1.0⟩,
       ⟨"Influence factor roughness gamma_f", fin gf, 0.4, 1.0⟩,
       ⟨"Influence factor oblique waves gamma_beta", fin gbeta, 0.4, 1.0⟩,
       ⟨"Influence factor vertical wall gamma_v", fin gv, 0.4, 1.0⟩] := by
  unfold OvertoppingTaw2002.calculate_crest_freeboard_Rc
    OvertoppingTaw2002.calculate_dimensionless_crest_freeboard
  refine ret _ ?_
  have e0 : OvertoppingTaw2002.sigma_correction 0 best = pure (some (0, 0)) := by
    simp [OvertoppingTaw2002.sigma_correction, zero_eq, eqF_fin]
  have e1 : RunupTaw2002.check_calculate_gamma_beta (fin b) (fin gbeta) = pure false := by
    simp [RunupTaw2002.check_calculate_gamma_beta]
  have e2 : RunupTaw2002.check_composite_slope (fin c) nan nan = pure false := by
    simp [RunupTaw2002.check_composite_slope]
  simp only [e0, e1, e2, pure_bind, isnan_fin, if_false, Bool.false_eq_true,
    OvertoppingTaw2002.read_correction]
  exact ret _ (overtopping_check hH hT hc)

example := RangeHydraulics.C60_freeboard_taw (H := 2) (T := 8) (c := 2) (b := 20) (gb := 1) (gf := 0.5)
  (gbeta := 1) (gv := 1) (q := .fin 0.01) (B := .fin 4) (db := .fin 1) (g := .fin 9.81) (best := true)
  (by norm_num) (by norm_num) (by norm_num)

/-! ### Overtopping: EurOtop (2018), rubble mounds with a straight slope

(The functions for smooth slopes have no check.) -/

theorem C60_eurotop2018_rubble {H c : ℝ} (T Rc b gf B db k2 k3 g : PF) (best : Bool)
    (hb : ¬ b.isnan) :
    WarnsExactly (OvertoppingEurOtop2018.calculate_overtopping_discharge_q_rubble_mound (fin H) T Rc
        (beta := b) (gamma_f := gf) (B_berm := B) (db := db) (cot_alpha := fin c) (c2 := k2) (c3 := k3)
        (use_best_fit := best) (g := g)) "EurOtop (2018) - rubble mound"
      [⟨"Cotangent alpha", fin c, 4.0 / 3.0, 2.0⟩] := by
  unfold OvertoppingEurOtop2018.calculate_overtopping_discharge_q_rubble_mound
    OvertoppingEurOtop2018.calculate_dimensionless_overtopping_discharge_q_rubble_mound
  refine ret _ ?_
  have e1 : RunupTaw2002.check_calculate_gamma_beta b nan = pure true := by
    simp [RunupTaw2002.check_calculate_gamma_beta, hb]
  have e2 : RunupTaw2002.check_composite_slope (fin c) nan nan = pure false := by
    simp [RunupTaw2002.check_composite_slope]
  simp only [e1, e2, pure_bind, if_false, Bool.false_eq_true, if_true]
  exact ret _ (last (by simp) rfl)

example := RangeHydraulics.C60_eurotop2018_rubble (H := 2) (c := 2) (T := .fin 8) (Rc := .fin 3)
  (b := .fin 20) (gf := .fin 0.5) (B := .fin 4) (db := .fin 1) (k2 := .fin 1) (k3 := .fin 1)
  (g := .fin 9.81) (best := true) (by norm_num)

theorem C60_eurotop2018_rubble_freeboard {H c : ℝ} (T q b gf B db k2 k3 g : PF) (best : Bool)
    (hb : ¬ b.isnan) :
    WarnsExactly (OvertoppingEurOtop2018.calculate_crest_freeboard_Rc_rubble_mound (fin H) T q
        (beta := b) (gamma_f := gf) (B_berm := B) (db := db) (cot_alpha := fin c) (c2 := k2) (c3 := k3)
        (use_best_fit := best) (g := g)) "EurOtop (2018) - rubble mound"
      [⟨"Cotangent alpha", fin c, 4.0 / 3.0, 2.0⟩] := by
  unfold OvertoppingEurOtop2018.calculate_crest_freeboard_Rc_rubble_mound
    OvertoppingEurOtop2018.calculate_dimensionless_crest_freeboard_rubble_mound
  refine ret _ ?_
  have e1 : RunupTaw2002.check_calculate_gamma_beta b nan = pure true := by
    simp [RunupTaw2002.check_calculate_gamma_beta, hb]
  have e2 : RunupTaw2002.check_composite_slope (fin c) nan nan = pure false := by
    simp [RunupTaw2002.check_composite_slope]
  simp only [e1, e2, pure_bind, if_false, Bool.false_eq_true, if_true]
  exact ret _ (last (by simp) rfl)

example := RangeHydraulics.C60_eurotop2018_rubble_freeboard (H := 2) (c := 2) (T := .fin 8) (q := .fin 0.01)
  (b := .fin 20) (gf := .fin 0.5) (B := .fin 4) (db := .fin 1) (k2 := .fin 1) (k3 := .fin 1)
  (g := .fin 9.81) (best := true) (by norm_num)

/-! ### Overtopping: Van Gent (2021), vertical caissons

The steepness range cannot be checked: the functions do not ask for a period.  The freeboard function
does not check the discharge. -/

theorem C60_caisson_discharge_partial {H Rc b r : ℝ} (gbeta sw c cs : PF) (short crossing parapet : Bool)
    (hH : 0 < H)
    (hres : (VanGent2021Caisson.calculate_dimensionless_overtopping_discharge_q (fin H) (fin Rc) (fin b)
      gbeta sw c cs short crossing parapet).res = .ok (fin r)) :
    WarnsExactly (VanGent2021Caisson.calculate_dimensionless_overtopping_discharge_q (fin H) (fin Rc)
        (fin b) gbeta sw c cs short crossing parapet) "Van Gent (2021)"
      [⟨"Dimensionless freeboard Rc/Hm0", fin (Rc / H), 1.2, 2.9⟩,
       ⟨"Dimensionless overtopping discharge q", fin r, 0.0, 0.0012⟩,
       ⟨"Incident wave angle beta", fin b, 0.0, 75.0⟩] := by
  unfold VanGent2021Caisson.calculate_dimensionless_overtopping_discharge_q at hres ⊢
  refine step ?_ hres fun k _ hres => step ?_ hres fun k' _ hres => ?_
  · unfold VanGent2021Caisson.determine_coefficients
    split_ifs <;> rfl
  · unfold VanGent2021Caisson.swell_coefficient
    split_ifs <;> rfl
  dsimp only at hres ⊢
  refine with_result (m := fun x => VanGent2021Caisson.check_validity_range (Hm0 := fin H) (beta := fin b)
    (Rc := fin Rc) (q_diml := x)) (by simp [VanGent2021Caisson.check_validity_range]) ?_ hres
  unfold VanGent2021Caisson.check_validity_range
  exact skip (by simp) <| check (by simp) (ratio_eval hH) <| check (by simp) rfl <| last (by simp) rfl

theorem C60_caisson_freeboard_partial {H b r : ℝ} (q gbeta sw c cs g : PF)
    (short crossing parapet : Bool) (hH : 0 < H)
    (hres : (VanGent2021Caisson.calculate_dimensionless_crest_freeboard (fin H) q (fin b)
      gbeta sw c cs short crossing parapet g).res = .ok (fin r)) :
    WarnsExactly (VanGent2021Caisson.calculate_dimensionless_crest_freeboard (fin H) q
        (fin b) gbeta sw c cs short crossing parapet g) "Van Gent (2021)"
      [⟨"Dimensionless freeboard Rc/Hm0", fin r, 1.2, 2.9⟩,
       ⟨"Incident wave angle beta", fin b, 0.0, 75.0⟩] := by
  unfold VanGent2021Caisson.calculate_dimensionless_crest_freeboard at hres ⊢
  refine step ?_ hres fun k _ hres => step ?_ hres fun k' _ hres => ?_
  · unfold VanGent2021Caisson.determine_coefficients
    split_ifs <;> rfl
  · unfold VanGent2021Caisson.swell_coefficient
    split_ifs <;> rfl
  dsimp only at hres ⊢
  refine with_result (m := fun x => VanGent2021Caisson.check_validity_range (Hm0 := fin H) (beta := fin b)
    (Rc := x * fin H)) (by simp [VanGent2021Caisson.check_validity_range]) ?_ hres
  unfold VanGent2021Caisson.check_validity_range
  refine skip (by simp) <| check (by simp [mul_fin]) ?_ <| skip (by simp) <| last (by simp) rfl
  rw [mul_fin, div_fin hH.ne', mul_div_cancel_right₀ _ hH.ne']

/-! ### Overtopping: Van Gent et al. (2025)

A structure without a berm — the default — is reported as having a berm outside the tested widths. -/

theorem C60_vangent2025_without_berm_refuted {H Rc : ℝ} (sw T Ac c b db D gf gb gv gbeta : PF)
    (design wind : Bool) (hH : 0 < H) (hf : ¬ gf.isnan) :
    Warn.range "Non-dimensional Berm width B / Hm0" "Van Gent et al. (2025)" (fin 0) 0.6 5.0 ∈
      (VanGent2025.calculate_dimensionless_overtopping_discharge_q (fin H) sw T (fin Rc) Ac c b
        (db := db) (Dn50 := D) (gamma_f := gf) (gamma_b := gb) (gamma_v := gv) (gamma_beta := gbeta)
        (design_calculation := design) (include_influence_wind := wind)).warns := by
  unfold VanGent2025.calculate_dimensionless_overtopping_discharge_q VanGent2025.friction_or_raise
    VanGent2025.check_validity_range
  dsimp only
  rw [if_neg hf, pure_bind]
  simp only [bind_assoc, check_bind_warns, List.mem_append]
  iterate 9 right
  left
  have e : (0.0 : PF) / fin H = fin 0 := by rw [sci_eq, div_fin hH.ne']; norm_num
  rw [e, check_if_given_warns, if_pos]
  · simp
  · refine ⟨by simp, Or.inl ?_⟩
    rw [sci_eq, lt_fin]; norm_num

example := RangeHydraulics.C60_vangent2025_without_berm_refuted (H := 2) (Rc := 3) (sw := .fin 1)
  (T := .fin 8) (Ac := .fin 1) (c := .fin 2) (b := .fin 20) (db := .fin 1) (D := .fin 1) (gf := .fin 0.5)
  (gb := .fin 1) (gv := .fin 1) (gbeta := .fin 1) (design := true) (wind := true) (by norm_num)
  (by norm_num)

/-- the limits on the water depth, the deep-water wave height and the width of the armour in front of
the crest wall are never looked at -/
theorem C60_vangent2025_never_checked_refuted (H sw T Rc Ac c b B db D gf gb gv gbeta : PF)
    (design wind : Bool) :
    NeverWarnsAbout (VanGent2025.calculate_dimensionless_overtopping_discharge_q H sw T Rc Ac c b B db D
      gf gb gv gbeta design wind) "Relative water depth h / Hm0" ∧
    NeverWarnsAbout (VanGent2025.calculate_dimensionless_overtopping_discharge_q H sw T Rc Ac c b B db D
      gf gb gv gbeta design wind) "Ratio Hm0_deep / h" ∧
    NeverWarnsAbout (VanGent2025.calculate_dimensionless_overtopping_discharge_q H sw T Rc Ac c b B db D
      gf gb gv gbeta design wind) "Non-dimensional armour width in front of crest wall Gc / Hm0" := by
  have hf : ∀ n, NeverWarnsAbout (VanGent2025.friction_or_raise H T D gf) n := by
    intro n f v lo hi
    unfold VanGent2025.friction_or_raise
    split_ifs <;> exact List.not_mem_nil
  unfold VanGent2025.calculate_dimensionless_overtopping_discharge_q VanGent2025.check_validity_range
  refine ⟨never_bind (hf _) fun _ => ?_, never_bind (hf _) fun _ => ?_, never_bind (hf _) fun _ => ?_⟩
  all_goals
    refine never_bind ?_ fun _ => never_pure
    repeat' (first
      | (refine never_missing ?_; simp; done)
      | (refine never_other ?_; decide)
      | refine never_bind ?_ fun _ => ?_)

/-! ### Overtopping: De Ridder et al. (2024, 2026)

The steepness of the short waves, the variable of these formulas, is never checked: the check needs the
short-wave height, which is not handed over. -/

theorem C60_deridder2024_eq24_partial {H Rc : ℝ} (s gf : PF) (hH : 0 < H) :
    WarnsExactly (DeRidder2024.calculate_dimensionless_overtopping_discharge_eq24 (fin H) s gf (fin Rc))
      "De Ridder et al. (2024)" [⟨"Rc/Hm0", fin (Rc / H), 0.80, 3.72⟩] := by
  unfold DeRidder2024.calculate_dimensionless_overtopping_discharge_eq24 DeRidder2024.check_validity_range
  exact ret _ <| skip (by simp) <| skip (by simp) <| skip (by simp) <| skip (by simp) <|
    check (by simp) (ratio_eval hH) <| skip (by simp) <| skip (by simp) <| skip_last (by simp)

example := RangeHydraulics.C60_deridder2024_eq24_partial (H := 2) (Rc := 3) (s := .fin 1) (gf := .fin 0.5)
  (by norm_num)

theorem C60_deridder2024_eq26_partial {H Rc L : ℝ} (s gf : PF) (hH : 0 < H) :
    WarnsExactly (DeRidder2024.calculate_dimensionless_overtopping_discharge_eq26 (fin H) s (fin L) gf
        (fin Rc)) "De Ridder et al. (2024)"
      [⟨"Rc/Hm0", fin (Rc / H), 0.80, 3.72⟩, ⟨"Hm0_LF/Hm0", fin (L / H), 0.10, 0.81⟩] := by
  unfold DeRidder2024.calculate_dimensionless_overtopping_discharge_eq26 DeRidder2024.check_validity_range
  exact ret _ <| skip (by simp) <| skip (by simp) <| skip (by simp) <| skip (by simp) <|
    check (by simp) (ratio_eval hH) <| skip (by simp) <| check (by simp) (ratio_eval hH) <|
    skip_last (by simp)

example := RangeHydraulics.C60_deridder2024_eq26_partial (H := 2) (Rc := 3) (L := 60) (s := .fin 1)
  (gf := .fin 0.5) (by norm_num)

theorem C60_deridder2024_freeboard_eq26_partial {H L r : ℝ} (s gf q g : PF) (hH : 0 < H)
    (hres : (DeRidder2024.calculate_crest_freeboard_discharge_q_eq26 (fin H) s (fin L) gf q g).res =
      .ok (fin r)) :
    WarnsExactly (DeRidder2024.calculate_crest_freeboard_discharge_q_eq26 (fin H) s (fin L) gf q g)
      "De Ridder et al. (2024)"
      [⟨"Rc/Hm0", fin (r / H), 0.80, 3.72⟩, ⟨"Hm0_LF/Hm0", fin (L / H), 0.10, 0.81⟩] := by
  unfold DeRidder2024.calculate_crest_freeboard_discharge_q_eq26 at hres ⊢
  dsimp only at hres ⊢
  refine with_result (m := fun x => DeRidder2024.check_validity_range (Hm0 := fin H)
    (Tmm10_HF := DeRidder2024.period_HF (fin H) s) (Rc := x) (Hm0_LF := fin L))
    (by simp [DeRidder2024.check_validity_range]) ?_ hres
  unfold DeRidder2024.check_validity_range
  exact skip (by simp) <| skip (by simp) <| skip (by simp) <| skip (by simp) <|
    check (by simp) (ratio_eval hH) <| skip (by simp) <| check (by simp) (ratio_eval hH) <|
    skip_last (by simp)

theorem C60_deridder2026_eq28_partial {H Rc th : ℝ} (s gf : PF) (hH : 0 < H) :
    WarnsExactly (DeRidder2026.calculate_dimensionless_overtopping_discharge_eq28 (fin H) s gf (fin Rc)
        (fin th)) "De Ridder et al. (2026)"
      [⟨"Rc/Hm0", fin (Rc / H), 0.98, 1.94⟩, ⟨"theta", fin th, 0.0, 56⟩] := by
  unfold DeRidder2026.calculate_dimensionless_overtopping_discharge_eq28 DeRidder2026.check_validity_range
  exact ret _ <| skip (by simp) <| skip (by simp) <| check (by simp) (ratio_eval hH) <| skip (by simp) <|
    skip (by simp) <| skip (by simp) <| last (by simp) rfl

example := RangeHydraulics.C60_deridder2026_eq28_partial (H := 2) (Rc := 3) (th := 1) (s := .fin 1)
  (gf := .fin 0.5) (by norm_num)

/-- equation 32 takes the height of the short waves, and compares the freeboard and the long waves with
it instead of with the total wave height the ranges are about -/
theorem C60_deridder2026_eq32_partial {H Rc L th : ℝ} (s gf : PF) (hH : 0 < H) :
    WarnsExactly (DeRidder2026.calculate_dimensionless_overtopping_discharge_eq32 (fin H) s (fin L) gf
        (fin Rc) (fin th)) "De Ridder et al. (2026)"
      [⟨"Rc/Hm0", fin (Rc / H), 0.98, 1.94⟩, ⟨"Hm0_LF/Hm0", fin (L / H), 0.15, 0.55⟩,
       ⟨"theta", fin th, 0.0, 56⟩] := by
  unfold DeRidder2026.calculate_dimensionless_overtopping_discharge_eq32 DeRidder2026.check_validity_range
  exact ret _ <| skip (by simp) <| skip (by simp) <| check (by simp) (ratio_eval hH) <| skip (by simp) <|
    check (by simp) (ratio_eval hH) <| skip (by simp) <| last (by simp) rfl

example := RangeHydraulics.C60_deridder2026_eq32_partial (H := 2) (Rc := 3) (L := 60) (th := 1)
  (s := .fin 1) (gf := .fin 0.5) (by norm_num)

/-- the short-wave steepness is never reported -/
theorem C60_deridder_steepness_refuted (H s gf Rc L th : PF) :
    NeverWarnsAbout (DeRidder2024.calculate_dimensionless_overtopping_discharge_eq24 H s gf Rc)
      "Short wave steepness sm-1,0_HF" ∧
    NeverWarnsAbout (DeRidder2024.calculate_dimensionless_overtopping_discharge_eq26 H s L gf Rc)
      "Short wave steepness sm-1,0_HF" ∧
    NeverWarnsAbout (DeRidder2026.calculate_dimensionless_overtopping_discharge_eq28 H s gf Rc th)
      "Short wave steepness sm-1,0_HF" ∧
    NeverWarnsAbout (DeRidder2026.calculate_dimensionless_overtopping_discharge_eq32 H s L gf Rc th)
      "Short wave steepness sm-1,0_HF" := by
  unfold DeRidder2024.calculate_dimensionless_overtopping_discharge_eq24
    DeRidder2024.calculate_dimensionless_overtopping_discharge_eq26
    DeRidder2026.calculate_dimensionless_overtopping_discharge_eq28
    DeRidder2026.calculate_dimensionless_overtopping_discharge_eq32
    DeRidder2024.check_validity_range DeRidder2026.check_validity_range
  refine ⟨?_, ?_, ?_, ?_⟩
  all_goals
    refine never_bind ?_ fun _ => never_pure
    repeat' (first
      | (refine never_missing ?_; simp; done)
      | (refine never_other ?_; decide)
      | refine never_bind ?_ fun _ => ?_)

/-! ### Caisson stability: Goda

The width of the toe berm is not handed to the check.  Impulsive conditions are reported on top. -/

theorem silent_unless_impulsive (disper : PF → PF → PF → PF)
    (HD Hsi T beta h d B1 cot rw hacc Rc B s0 g : PF) {l : Goda1985.Loads}
    (h1 : (Goda1985.calculate_pressures_and_forces disper HD Hsi T beta h d B1 cot rw hacc Rc B s0
      g).res = .ok l) (h2 : l.impulsive_breaking = false) :
    (Goda1985.calculate_pressures_and_forces disper HD Hsi T beta h d B1 cot rw hacc Rc B s0 g).warns =
      [] := by
  unfold Goda1985.calculate_pressures_and_forces at h1 ⊢
  dsimp only at h1 ⊢
  obtain ⟨b, hb, h1', -⟩ := PyM.bind_inv h1
  have hw : (Goda1985.rotate_angle (PF.abs beta)).warns = [] := by
    unfold Goda1985.rotate_angle
    split_ifs <;> rfl
  rw [PyM.bind_warns_of_ok hb, hw, List.nil_append]
  obtain ⟨i, hi, h1'', -⟩ := PyM.bind_inv h1'
  rw [PyM.bind_warns_of_ok hi, PyM.pure_def, List.append_nil]
  cases h1''
  obtain ⟨i', hi', hlen⟩ := C71_flag_iff_warning (PF.abs beta) B1
    (calculate_local_wavelength disper T h g) cot s0 Rc Hsi d h
  rw [hi] at hi'
  cases hi'
  dsimp only at h2
  rw [h2] at hlen
  exact List.eq_nil_of_length_eq_zero hlen

theorem C60_goda_partial {beta cot T h k B : ℝ} (disper : PF → PF → PF → PF)
    (HD Hsi d B1 rw hacc Rc ra rb s0 mu g : PF) (hB : 0 < B) {r : Goda1985.Reactions}
    (hres : (Goda1985.calculate_forces_and_reactions disper HD Hsi (fin T) (fin beta) (fin h) d B1
        (fin cot) rw hacc Rc (fin B) ra rb s0 mu (fin k) g).res = .ok r)
    (himp : r.loads.impulsive_breaking = false) :
    WarnsExactly (Goda1985.calculate_forces_and_reactions disper HD Hsi (fin T) (fin beta) (fin h) d B1
        (fin cot) rw hacc Rc (fin B) ra rb s0 mu (fin k) g) "Goda (2000)"
      [⟨"Angle of wave incidence", fin beta, 0.0, 90.0⟩,
       ⟨"Seabed slope", fin cot, 10.0, 100.0⟩,
       ⟨"Wave period", fin T, 0.0, 30.0⟩,
       ⟨"Centre of gravity inside of caisson", fin k, 0.0, 1.0⟩,
       ⟨"Water depth at site", fin h, 0.0, pinf⟩,
       ⟨"Width of caisson upright section", fin B, 0.0, pinf⟩] := by
  unfold Goda1985.calculate_forces_and_reactions at hres ⊢
  obtain ⟨l, hl, hres', -⟩ := PyM.bind_inv hres
  have hw : l.impulsive_breaking = false := by
    dsimp only at hres'
    obtain ⟨u, -, hr, -⟩ := PyM.bind_inv hres'
    cases hr
    exact himp
  have hs := silent_unless_impulsive disper _ _ _ _ _ _ _ _ _ _ _ _ _ _ hl hw
  rw [PyM.bind_of_res_ok hl, hs, List.nil_append]
  unfold Goda1985.check_validity_range
  dsimp only
  refine ret _ <| check (by simp) rfl <| check (by simp) rfl <| check (by simp) rfl <|
    check (by simp [mul_fin]) ?_ <| check (by simp) rfl <| skip (by simp) <| last (by simp) rfl
  rw [mul_fin, div_fin hB.ne', mul_div_cancel_right₀ _ hB.ne']

end RangeHydraulics
end
