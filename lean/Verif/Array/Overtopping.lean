import Verif.Array.Taw2002

/-! # Models of `functions/hydraulic/wave_overtopping/taw2002.py`, `eurotop2007.py`, `eurotop2018.py`

The same functions called with arrays. -/

open Classical
open Val (nan npow whr pinf)
open Arr.CorePhysics Arr.CoreUtility
noncomputable section
namespace Arr
variable {n : ℕ}

namespace OvertoppingTaw2002

/-- wave_overtopping/taw2002.py 12-130 -/
def check_validity_range (Hm0 Tmm10 beta cot_alpha cot_alpha_down cot_alpha_up gamma_f gamma_b
    gamma_beta gamma_v : Val n := nan) : PyM Unit := do
  check_if_given [Hm0, Tmm10] "Wave steepness sm-1,0" "TAW (2002)"
    (calculate_wave_steepness_s Hm0 Tmm10) 0.0 0.07
  check_if_given [Hm0, Tmm10, cot_alpha] "Iribarren number ksi_m-1,0" "TAW (2002)"
    (calculate_Iribarren_number_ksi Hm0 Tmm10 cot_alpha) 0.0 7.0
  check_if_given [Hm0, Tmm10, cot_alpha, gamma_b] "gamma_b * ksi_m-1,0" "TAW (2002)"
    (gamma_b * calculate_Iribarren_number_ksi Hm0 Tmm10 cot_alpha) 0.5 10.0
  check_if_given [cot_alpha_down] "Cotangent alpha lower slope" "TAW (2002)" cot_alpha_down 1.0 7.0
  check_if_given [cot_alpha_up] "Cotangent alpha upper slope" "TAW (2002)" cot_alpha_up 1.0 7.0
  check_if_given [beta] "Incident wave angle beta" "TAW (2002)" beta 0.0 90.0
  check_if_given [gamma_b] "Influence factor berm gamma_b" "TAW (2002)" gamma_b 0.4 1.0
  check_if_given [gamma_f] "Influence factor roughness gamma_f" "TAW (2002)" gamma_f 0.4 1.0
  check_if_given [gamma_beta] "Influence factor oblique waves gamma_beta" "TAW (2002)"
    gamma_beta 0.4 1.0
  check_if_given [gamma_v] "Influence factor vertical wall gamma_v" "TAW (2002)" gamma_v 0.4 1.0

/-- wave_overtopping/taw2002.py 400-444 -/
def q_diml_max_equation (Hm0 Rc gamma_beta gamma_f : Val n) (c3 : PF) (cor3 : Val n := 0.0) (c2 : PF := 0.2) :
    (Val n) :=
  .num c2 * Val.exp (-1.0 * (.num c3 + cor3) * (Rc / Hm0) * (1.0 / (gamma_f * gamma_beta)))

/-- wave_overtopping/taw2002.py 447-476 -/
def calculate_influence_oblique_waves_gamma_beta (beta : Val n) (c_gamma_beta : PF := 0.0033)
    (max_angle : PF := 80.0) : Val n :=
  RunupTaw2002.calculate_influence_oblique_waves_gamma_beta beta c_gamma_beta max_angle

/-- wave_overtopping/taw2002.py 479-499 -/
def calculate_influence_crest_wall_gamma_v (alpha_wall_deg : Val n) : Val n :=
  whr (alpha_wall_deg ≤. 45) 1.0 (1.35 - 0.0078 * alpha_wall_deg)

/-- the correction for a number of standard deviations, wave_overtopping/taw2002.py 297-310 (and
669-682): `none` when the variables stay unassigned -/
def sigma_correction (sigma : Val n) (use_best_fit : Bool) : PyM (Option (Val n × Val n)) :=
  PyM.cond (sigma ==. 0).truth (pure (some (0, 0))) <|
  if use_best_fit then pure (some (0.5 * sigma, 0.35 * sigma))
  else do
    PyM.warn (.text "Sigma is only applicable to the best fit coefficients!")
    pure none

/-- reading `cor1`/`cor3` when unassigned raises UnboundLocalError -/
def read_correction : Option (Val n × Val n) → PyM (Val n × Val n)
  | some c => pure c
  | none => PyM.raise .unboundLocal

/-- wave_overtopping/taw2002.py 224-397 -/
def calculate_dimensionless_overtopping_discharge_q (Hm0 Tmm10 Rc : Val n)
    (cot_alpha cot_alpha_down cot_alpha_up beta : Val n := nan) (B_berm db : Val n := 0.0)
    (gamma_beta gamma_b : Val n := nan) (gamma_f gamma_v : Val n := 1.0) (sigma : Val n := 0)
    (use_best_fit : Bool := false) : PyM (Val n × BVal n) := do
  let c1 : PF := if use_best_fit then 4.75 else 4.3
  let c3 : PF := if use_best_fit then 2.6 else 2.3
  let cor ← sigma_correction sigma use_best_fit
  let calculate ← RunupTaw2002.check_calculate_gamma_beta beta gamma_beta
  let gamma_beta := if calculate then calculate_influence_oblique_waves_gamma_beta beta else gamma_beta
  let composite ← RunupTaw2002.check_composite_slope cot_alpha cot_alpha_down cot_alpha_up
  let cot_alpha ← (if composite then do
      let z2p_for_slope ← RunupTaw2002.iteration_procedure_z2p Hm0 Tmm10 cot_alpha_down cot_alpha_up
        B_berm db gamma_f gamma_beta
      pure (RunupTaw2002.determine_average_slope Hm0 z2p_for_slope cot_alpha_down cot_alpha_up
        B_berm db)
    else pure cot_alpha : PyM (Val n))
  let ksi_mm10 := calculate_Iribarren_number_ksi Hm0 Tmm10 cot_alpha
  let gamma_b ← PyM.cond gamma_b.isnan.truth (do
      let L_berm ← RunupTaw2002.calculate_berm_length Hm0 B_berm cot_alpha cot_alpha_down
        cot_alpha_up
      RunupTaw2002.iteration_procedure_gamma_b Hm0 Tmm10 cot_alpha B_berm L_berm db gamma_beta
        (gamma_f := gamma_f)) (pure gamma_b)
  let gamma_f_adj :=
    RunupTaw2002.calculate_adjusted_influence_roughness_gamma_f gamma_f gamma_b ksi_mm10
  let cor ← read_correction cor
  let q_diml_eq24 := (0.067 / Val.sqrt (1.0 / cot_alpha)) * ksi_mm10 * gamma_b
    * Val.exp (-1.0 * (.num c1 + cor.1) * (Rc / Hm0)
        * (1.0 / (ksi_mm10 * gamma_b * gamma_f_adj * gamma_beta * gamma_v)))
  let q_diml_max := q_diml_max_equation Hm0 Rc gamma_beta gamma_f_adj c3 (cor3 := cor.2)
  let q_diml ← Val.stackMin q_diml_eq24 q_diml_max
  let max_reached := q_diml ==. q_diml_max
  check_validity_range (Hm0 := Hm0) (Tmm10 := Tmm10) (beta := beta) (cot_alpha := cot_alpha)
    (cot_alpha_down := cot_alpha_down) (cot_alpha_up := cot_alpha_up) (gamma_f := gamma_f)
    (gamma_b := gamma_b) (gamma_beta := gamma_beta) (gamma_v := gamma_v)
  pure (q_diml, max_reached)

/-- wave_overtopping/taw2002.py 133-221 -/
def calculate_overtopping_discharge_q (Hm0 Tmm10 Rc : Val n)
    (cot_alpha cot_alpha_down cot_alpha_up beta : Val n := nan) (B_berm db : Val n := 0.0)
    (gamma_beta gamma_b : Val n := nan) (gamma_f gamma_v : Val n := 1.0) (sigma : Val n := 0)
    (g : Val n := 9.81) (use_best_fit : Bool := false) : PyM (Val n × BVal n) := do
  let r ← calculate_dimensionless_overtopping_discharge_q Hm0 Tmm10 Rc cot_alpha cot_alpha_down
    cot_alpha_up beta B_berm db gamma_beta gamma_b gamma_f gamma_v sigma use_best_fit
  pure (r.1 * Val.sqrt (g * npow Hm0 3), r.2)

/-- wave_overtopping/taw2002.py 778-828 -/
def Rc_diml_max_equation (Hm0 q gamma_beta gamma_f : Val n) (c3 : PF) (cor3 : Val n := 0.0) (c2 : PF := 0.2)
    (g : Val n := 9.81) : Val n :=
  Val.log ((1.0 / .num c2) * q / Val.sqrt (g * npow Hm0 3)) * (-1.0 / (.num c3 + cor3)) * gamma_f * gamma_beta

/-- wave_overtopping/taw2002.py 594-775 (`Rc_diml_max_equation` is called without `g`, 755-757) -/
def calculate_dimensionless_crest_freeboard (Hm0 Tmm10 q : Val n)
    (cot_alpha cot_alpha_down cot_alpha_up beta : Val n := nan) (B_berm db : Val n := 0.0)
    (gamma_beta gamma_b : Val n := nan) (gamma_f gamma_v : Val n := 1.0) (sigma : Val n := 0)
    (g : Val n := 9.81) (use_best_fit : Bool := false) : PyM (Val n × BVal n) := do
  let c1 : PF := if use_best_fit then 4.75 else 4.3
  let c3 : PF := if use_best_fit then 2.6 else 2.3
  let cor ← sigma_correction sigma use_best_fit
  let calculate ← RunupTaw2002.check_calculate_gamma_beta beta gamma_beta
  let gamma_beta := if calculate then calculate_influence_oblique_waves_gamma_beta beta else gamma_beta
  let composite ← RunupTaw2002.check_composite_slope cot_alpha cot_alpha_down cot_alpha_up
  let cot_alpha ← (if composite then do
      let z2p_for_slope ← RunupTaw2002.iteration_procedure_z2p Hm0 Tmm10 cot_alpha_down cot_alpha_up
        B_berm db gamma_f gamma_beta
      pure (RunupTaw2002.determine_average_slope Hm0 z2p_for_slope cot_alpha_down cot_alpha_up
        B_berm db)
    else pure cot_alpha : PyM (Val n))
  let ksi_mm10 := calculate_Iribarren_number_ksi Hm0 Tmm10 cot_alpha
  let gamma_b ← PyM.cond gamma_b.isnan.truth (do
      let L_berm ← RunupTaw2002.calculate_berm_length Hm0 B_berm cot_alpha cot_alpha_down
        cot_alpha_up
      RunupTaw2002.iteration_procedure_gamma_b Hm0 Tmm10 cot_alpha B_berm L_berm db gamma_beta
        (gamma_f := gamma_f)) (pure gamma_b)
  let gamma_f_adj :=
    RunupTaw2002.calculate_adjusted_influence_roughness_gamma_f gamma_f gamma_b ksi_mm10
  let cor ← read_correction cor
  let Rc_diml_eq24 := Val.log ((1.0 / 0.067) * Val.sqrt (1.0 / cot_alpha) * (1.0 / gamma_b)
      * (1.0 / ksi_mm10) * q / Val.sqrt (g * npow Hm0 3))
    * (-1.0 / (.num c1 + cor.1)) * ksi_mm10 * gamma_b * gamma_f_adj * gamma_beta * gamma_v
  let Rc_diml_max := Rc_diml_max_equation Hm0 q gamma_beta gamma_f_adj c3 (cor3 := cor.2)
  let Rc_diml ← Val.stackMin Rc_diml_eq24 Rc_diml_max
  let max_reached := Rc_diml ==. Rc_diml_max
  check_validity_range (Hm0 := Hm0) (Tmm10 := Tmm10) (beta := beta) (cot_alpha := cot_alpha)
    (cot_alpha_down := cot_alpha_down) (cot_alpha_up := cot_alpha_up) (gamma_f := gamma_f)
    (gamma_b := gamma_b) (gamma_beta := gamma_beta) (gamma_v := gamma_v)
  pure (Rc_diml, max_reached)

/-- wave_overtopping/taw2002.py 502-591 -/
def calculate_crest_freeboard_Rc (Hm0 Tmm10 q : Val n)
    (cot_alpha cot_alpha_down cot_alpha_up beta : Val n := nan) (B_berm db : Val n := 0.0)
    (gamma_beta gamma_b : Val n := nan) (gamma_f gamma_v : Val n := 1.0) (sigma : Val n := 0)
    (g : Val n := 9.81) (use_best_fit : Bool := false) : PyM (Val n × BVal n) := do
  let r ← calculate_dimensionless_crest_freeboard Hm0 Tmm10 q cot_alpha cot_alpha_down cot_alpha_up
    beta B_berm db gamma_beta gamma_b gamma_f gamma_v sigma g use_best_fit
  pure (r.1 * Hm0, r.2)

end OvertoppingTaw2002

namespace OvertoppingEurOtop2007

/-- wave_overtopping/eurotop2007.py 157-180 -/
def check_best_fit (c2 c3 : PF) (use_best_fit : Bool) : PF × PF :=
  if use_best_fit then (0.2, 2.6) else (c2, c3)

/-- wave_overtopping/eurotop2007.py 80-154 -/
def calculate_dimensionless_overtopping_discharge_q_rubble_mound (Hm0 Tmm10 Rc : Val n)
    (beta gamma_beta : Val n := nan) (gamma_f : Val n := 1.0) (cot_alpha : Val n := nan) (c2 : PF := 0.2)
    (c3 : PF := 2.3) (use_best_fit : Bool := false) : PyM (Val n) := do
  let c := check_best_fit c2 c3 use_best_fit
  let calculate ← RunupTaw2002.check_calculate_gamma_beta beta gamma_beta
  let gamma_beta := if calculate then RunupTaw2002.calculate_influence_oblique_waves_gamma_beta beta
    else gamma_beta
  let ksi_mm10 := calculate_Iribarren_number_ksi Hm0 Tmm10 cot_alpha
  let gamma_f_adj :=
    RunupTaw2002.calculate_adjusted_influence_roughness_gamma_f gamma_f 1.0 ksi_mm10
  pure (OvertoppingTaw2002.q_diml_max_equation Hm0 Rc gamma_beta gamma_f_adj c.2 (c2 := c.1))

/-- wave_overtopping/eurotop2007.py 10-77 -/
def calculate_overtopping_discharge_q_rubble_mound (Hm0 Tmm10 Rc : Val n)
    (beta gamma_beta : Val n := nan) (gamma_f : Val n := 1.0) (cot_alpha : Val n := nan) (c2 : PF := 0.2)
    (c3 : PF := 2.3) (use_best_fit : Bool := false) (g : Val n := 9.81) : PyM (Val n) := do
  let q_diml ← calculate_dimensionless_overtopping_discharge_q_rubble_mound Hm0 Tmm10 Rc beta
    gamma_beta gamma_f cot_alpha c2 c3 use_best_fit
  pure (q_diml * Val.sqrt (g * npow Hm0 3))

/-- wave_overtopping/eurotop2007.py 251-325 -/
def calculate_dimensionless_crest_freeboard_rubble_mound (Hm0 Tmm10 q : Val n)
    (beta gamma_beta : Val n := nan) (gamma_f : Val n := 1.0) (cot_alpha : Val n := nan) (c2 : PF := 0.2)
    (c3 : PF := 2.3) (use_best_fit : Bool := false) : PyM (Val n) := do
  let c := check_best_fit c2 c3 use_best_fit
  let calculate ← RunupTaw2002.check_calculate_gamma_beta beta gamma_beta
  let gamma_beta := if calculate then RunupTaw2002.calculate_influence_oblique_waves_gamma_beta beta
    else gamma_beta
  let ksi_mm10 := calculate_Iribarren_number_ksi Hm0 Tmm10 cot_alpha
  let gamma_f_adj :=
    RunupTaw2002.calculate_adjusted_influence_roughness_gamma_f gamma_f 1.0 ksi_mm10
  pure (OvertoppingTaw2002.Rc_diml_max_equation Hm0 q gamma_beta gamma_f_adj c.2 (c2 := c.1))

/-- wave_overtopping/eurotop2007.py 183-248 (there is no argument `g`) -/
def calculate_crest_freeboard_Rc_rubble_mound (Hm0 Tmm10 q : Val n)
    (beta gamma_beta : Val n := nan) (gamma_f : Val n := 1.0) (cot_alpha : Val n := nan) (c2 : PF := 0.2)
    (c3 : PF := 2.3) (use_best_fit : Bool := false) : PyM (Val n) := do
  let Rc_diml ← calculate_dimensionless_crest_freeboard_rubble_mound Hm0 Tmm10 q beta gamma_beta
    gamma_f cot_alpha c2 c3 use_best_fit
  pure (Rc_diml * Hm0)

end OvertoppingEurOtop2007

namespace OvertoppingEurOtop2018

/-- wave_overtopping/eurotop2018.py 11-39 -/
def check_validity_range_rubble_mound (cot_alpha : Val n := nan) : PyM Unit :=
  check_if_given [cot_alpha] "Cotangent alpha" "EurOtop (2018) - rubble mound" cot_alpha
    (4.0 / 3.0) 2.0

/-- wave_overtopping/eurotop2018.py 321-368 -/
def q_diml_max_equation (Hm0 Rc : Val n) (gamma_beta : Val n := nan) (gamma_f gamma_star : Val n := 1.0)
    (c2 : PF := 0.1035) (c3 : PF := 1.35) : Val n :=
  .num c2 * Val.exp (-1.0 * npow (.num c3 * (Rc / Hm0) * (1.0 / (gamma_f * gamma_beta * gamma_star))) 1.3)

/-- wave_overtopping/eurotop2018.py 371-402 -/
def check_best_fit (c1 c2 c3 c4 : PF) (use_best_fit : Bool) : PF × PF × PF × PF :=
  if use_best_fit then (2.7, 0.09, 1.5, 0.023) else (c1, c2, c3, c4)

/-- wave_overtopping/eurotop2018.py 405-448 -/
def calculate_influence_oblique_waves_gamma_beta (beta gamma_f : Val n) (gamma_f_crit : PF := 0.6)
    (c_gamma_beta_smooth : PF := 0.0033) (c_gamma_beta_rough : PF := 0.0063)
    (max_angle : PF := 80.0) : PyM (Val n) :=
  RunupEurOtop2018.calculate_influence_oblique_waves_gamma_beta beta gamma_f gamma_f_crit
    c_gamma_beta_smooth c_gamma_beta_rough max_angle

/-- wave_overtopping/eurotop2018.py 151-318 (the argument `gamma_b` is overwritten, line 276) -/
def calculate_dimensionless_overtopping_discharge_q (Hm0 Tmm10 Rc : Val n)
    (beta gamma_beta _gamma_b : Val n := nan) (gamma_f gamma_v gamma_star : Val n := 1.0)
    (B_berm db : Val n := 0.0) (cot_alpha cot_alpha_down cot_alpha_up : Val n := nan)
    (c1 : PF := 2.5) (c2 : PF := 0.1035) (c3 : PF := 1.35) (c4 : PF := 0.026)
    (use_best_fit : Bool := false) : PyM (Val n × BVal n) := do
  let c := check_best_fit c1 c2 c3 c4 use_best_fit
  let calculate ← RunupTaw2002.check_calculate_gamma_beta beta gamma_beta
  let gamma_beta ← (if calculate then calculate_influence_oblique_waves_gamma_beta beta gamma_f
    else pure gamma_beta : PyM (Val n))
  let composite ← RunupTaw2002.check_composite_slope cot_alpha cot_alpha_down cot_alpha_up
  let cot_alpha ← (if composite then do
      let z2p_for_slope ← RunupEurOtop2018.iteration_procedure_z2p Hm0 Tmm10 cot_alpha_down
        cot_alpha_up B_berm db gamma_f gamma_beta (use_best_fit := use_best_fit)
      pure (RunupTaw2002.determine_average_slope Hm0 z2p_for_slope cot_alpha_down cot_alpha_up
        B_berm db)
    else pure cot_alpha : PyM (Val n))
  let ksi_mm10 := calculate_Iribarren_number_ksi Hm0 Tmm10 cot_alpha
  let L_berm ← RunupTaw2002.calculate_berm_length Hm0 B_berm cot_alpha cot_alpha_down cot_alpha_up
  let gamma_b ← RunupEurOtop2018.iteration_procedure_gamma_b Hm0 Tmm10 cot_alpha B_berm L_berm db
    gamma_beta (gamma_f := gamma_f)
  let gamma_f_adj :=
    RunupTaw2002.calculate_adjusted_influence_roughness_gamma_f gamma_f gamma_b ksi_mm10
  let q_diml_eq510 := (.num c.2.2.2 / Val.sqrt (1.0 / cot_alpha)) * ksi_mm10 * gamma_b
    * Val.exp (-1.0 * npow (.num c.1 * (Rc / Hm0)
        * (1.0 / (ksi_mm10 * gamma_b * gamma_f_adj * gamma_beta * gamma_v))) 1.3)
  let q_diml_max := q_diml_max_equation Hm0 Rc gamma_beta gamma_f gamma_star (c2 := c.2.1)
    (c3 := c.2.2.1)
  let q_diml ← Val.stackMin q_diml_eq510 q_diml_max
  let max_reached := q_diml ==. q_diml_max
  pure (q_diml, max_reached)

/-- wave_overtopping/eurotop2018.py 42-148 -/
def calculate_overtopping_discharge_q (Hm0 Tmm10 Rc : Val n)
    (beta gamma_beta gamma_b : Val n := nan) (gamma_f gamma_v gamma_star : Val n := 1.0)
    (B_berm db : Val n := 0.0) (cot_alpha cot_alpha_down cot_alpha_up : Val n := nan)
    (c1 : PF := 2.5) (c2 : PF := 0.1035) (c3 : PF := 1.35) (c4 : PF := 0.026)
    (use_best_fit : Bool := false) (g : Val n := 9.81) : PyM (Val n × BVal n) := do
  let r ← calculate_dimensionless_overtopping_discharge_q Hm0 Tmm10 Rc beta gamma_beta gamma_b
    gamma_f gamma_v gamma_star B_berm db cot_alpha cot_alpha_down cot_alpha_up c1 c2 c3 c4
    use_best_fit
  pure (r.1 * Val.sqrt (g * npow Hm0 3), r.2)

/-- wave_overtopping/eurotop2018.py 739-792 -/
def Rc_diml_max_equation (Hm0 q : Val n) (gamma_beta : Val n := nan) (gamma_f gamma_star : Val n := 1.0)
    (c2 : PF := 0.1035) (c3 : PF := 1.35) (g : Val n := 9.81) : Val n :=
  npow (-(Val.log ((q / Val.sqrt (g * npow Hm0 3)) * (1.0 / .num c2)))) (1.0 / 1.3) * (1.0 / .num c3) * gamma_f
    * gamma_beta * gamma_star

/-- wave_overtopping/eurotop2018.py 562-736 (the argument `gamma_b` is overwritten, line 689;
`use_best_fit` does not reach the run-up iteration, 657-666) -/
def calculate_dimensionless_crest_freeboard (Hm0 Tmm10 q : Val n)
    (beta gamma_beta _gamma_b : Val n := nan) (gamma_f gamma_v gamma_star : Val n := 1.0)
    (B_berm db : Val n := 0.0) (cot_alpha cot_alpha_down cot_alpha_up : Val n := nan)
    (c1 : PF := 2.5) (c2 : PF := 0.1035) (c3 : PF := 1.35) (c4 : PF := 0.026)
    (use_best_fit : Bool := false) (g : Val n := 9.81) : PyM (Val n × BVal n) := do
  let c := check_best_fit c1 c2 c3 c4 use_best_fit
  let calculate ← RunupTaw2002.check_calculate_gamma_beta beta gamma_beta
  let gamma_beta ← (if calculate then calculate_influence_oblique_waves_gamma_beta beta gamma_f
    else pure gamma_beta : PyM (Val n))
  let composite ← RunupTaw2002.check_composite_slope cot_alpha cot_alpha_down cot_alpha_up
  let cot_alpha ← (if composite then do
      let z2p_for_slope ← RunupEurOtop2018.iteration_procedure_z2p Hm0 Tmm10 cot_alpha_down
        cot_alpha_up B_berm db gamma_f gamma_beta
      pure (RunupTaw2002.determine_average_slope Hm0 z2p_for_slope cot_alpha_down cot_alpha_up
        B_berm db)
    else pure cot_alpha : PyM (Val n))
  let ksi_mm10 := calculate_Iribarren_number_ksi Hm0 Tmm10 cot_alpha
  let L_berm ← RunupTaw2002.calculate_berm_length Hm0 B_berm cot_alpha cot_alpha_down cot_alpha_up
  let gamma_b ← RunupEurOtop2018.iteration_procedure_gamma_b Hm0 Tmm10 cot_alpha B_berm L_berm db
    gamma_beta (gamma_f := gamma_f)
  let gamma_f_adj :=
    RunupTaw2002.calculate_adjusted_influence_roughness_gamma_f gamma_f gamma_b ksi_mm10
  let Rc_diml_eq510 := npow (-(Val.log ((q / Val.sqrt (g * npow Hm0 3)) * Val.sqrt (1.0 / cot_alpha)
      * (1.0 / .num c.2.2.2) * (1.0 / (gamma_b * ksi_mm10))))) (1.0 / 1.3)
    * (1.0 / .num c.1) * ksi_mm10 * gamma_b * gamma_f_adj * gamma_beta * gamma_v
  let Rc_diml_max := Rc_diml_max_equation Hm0 q gamma_beta gamma_f_adj gamma_star (c2 := c.2.1)
    (c3 := c.2.2.1) (g := g)
  let Rc_diml ← Val.stackMin Rc_diml_eq510 Rc_diml_max
  let max_reached := Rc_diml ==. Rc_diml_max
  pure (Rc_diml, max_reached)

/-- wave_overtopping/eurotop2018.py 451-559 -/
def calculate_crest_freeboard_Rc (Hm0 Tmm10 q : Val n)
    (beta gamma_beta gamma_b : Val n := nan) (gamma_f gamma_v gamma_star : Val n := 1.0)
    (B_berm db : Val n := 0.0) (cot_alpha cot_alpha_down cot_alpha_up : Val n := nan)
    (c1 : PF := 2.5) (c2 : PF := 0.1035) (c3 : PF := 1.35) (c4 : PF := 0.026)
    (use_best_fit : Bool := false) (g : Val n := 9.81) : PyM (Val n × BVal n) := do
  let r ← calculate_dimensionless_crest_freeboard Hm0 Tmm10 q beta gamma_beta gamma_b
    gamma_f gamma_v gamma_star B_berm db cot_alpha cot_alpha_down cot_alpha_up c1 c2 c3 c4
    use_best_fit g
  pure (r.1 * Hm0, r.2)

/-- wave_overtopping/eurotop2018.py 883-1001 -/
def calculate_dimensionless_overtopping_discharge_q_rubble_mound (Hm0 Tmm10 Rc : Val n)
    (beta gamma_beta : Val n := nan) (gamma_f : Val n := 1.0) (B_berm db : Val n := 0.0)
    (cot_alpha cot_alpha_down cot_alpha_up : Val n := nan) (c2 : PF := 0.1035) (c3 : PF := 1.35)
    (use_best_fit : Bool := false) : PyM (Val n) := do
  let c := check_best_fit PF.nan c2 c3 PF.nan use_best_fit
  let calculate ← RunupTaw2002.check_calculate_gamma_beta beta gamma_beta
  let gamma_beta ← (if calculate then calculate_influence_oblique_waves_gamma_beta beta gamma_f
    else pure gamma_beta : PyM (Val n))
  let composite ← RunupTaw2002.check_composite_slope cot_alpha cot_alpha_down cot_alpha_up
  let cot_alpha ← (if composite then do
      let z2p_for_slope ← RunupEurOtop2018.iteration_procedure_z2p Hm0 Tmm10 cot_alpha_down
        cot_alpha_up B_berm db gamma_f gamma_beta (use_best_fit := use_best_fit)
      pure (RunupTaw2002.determine_average_slope Hm0 z2p_for_slope cot_alpha_down cot_alpha_up
        B_berm db)
    else pure cot_alpha : PyM (Val n))
  let ksi_mm10 := calculate_Iribarren_number_ksi Hm0 Tmm10 cot_alpha
  let gamma_f_adj :=
    RunupTaw2002.calculate_adjusted_influence_roughness_gamma_f gamma_f 1.0 ksi_mm10
  let q_diml := q_diml_max_equation Hm0 Rc gamma_beta gamma_f_adj (c2 := c.2.1) (c3 := c.2.2.1)
  check_validity_range_rubble_mound (cot_alpha := cot_alpha)
  pure q_diml

/-- wave_overtopping/eurotop2018.py 795-880 -/
def calculate_overtopping_discharge_q_rubble_mound (Hm0 Tmm10 Rc : Val n)
    (beta gamma_beta : Val n := nan) (gamma_f : Val n := 1.0) (B_berm db : Val n := 0.0)
    (cot_alpha cot_alpha_down cot_alpha_up : Val n := nan) (c2 : PF := 0.1035) (c3 : PF := 1.35)
    (use_best_fit : Bool := false) (g : Val n := 9.81) : PyM (Val n) := do
  let q_diml ← calculate_dimensionless_overtopping_discharge_q_rubble_mound Hm0 Tmm10 Rc beta
    gamma_beta gamma_f B_berm db cot_alpha cot_alpha_down cot_alpha_up c2 c3 use_best_fit
  pure (q_diml * Val.sqrt (g * npow Hm0 3))

/-- wave_overtopping/eurotop2018.py 1094-1215 (`use_best_fit` does not reach the run-up iteration,
1173-1182) -/
def calculate_dimensionless_crest_freeboard_rubble_mound (Hm0 Tmm10 q : Val n)
    (beta gamma_beta : Val n := nan) (gamma_f : Val n := 1.0) (B_berm db : Val n := 0.0)
    (cot_alpha cot_alpha_down cot_alpha_up : Val n := nan) (c2 : PF := 0.1035) (c3 : PF := 1.35)
    (use_best_fit : Bool := false) (g : Val n := 9.81) : PyM (Val n) := do
  let c := check_best_fit PF.nan c2 c3 PF.nan use_best_fit
  let calculate ← RunupTaw2002.check_calculate_gamma_beta beta gamma_beta
  let gamma_beta ← (if calculate then calculate_influence_oblique_waves_gamma_beta beta gamma_f
    else pure gamma_beta : PyM (Val n))
  let composite ← RunupTaw2002.check_composite_slope cot_alpha cot_alpha_down cot_alpha_up
  let cot_alpha ← (if composite then do
      let z2p_for_slope ← RunupEurOtop2018.iteration_procedure_z2p Hm0 Tmm10 cot_alpha_down
        cot_alpha_up B_berm db gamma_f gamma_beta
      pure (RunupTaw2002.determine_average_slope Hm0 z2p_for_slope cot_alpha_down cot_alpha_up
        B_berm db)
    else pure cot_alpha : PyM (Val n))
  let ksi_mm10 := calculate_Iribarren_number_ksi Hm0 Tmm10 cot_alpha
  let gamma_f_adj :=
    RunupTaw2002.calculate_adjusted_influence_roughness_gamma_f gamma_f 1.0 ksi_mm10
  let Rc_diml := Rc_diml_max_equation Hm0 q gamma_beta gamma_f_adj (c2 := c.2.1) (c3 := c.2.2.1)
    (g := g)
  check_validity_range_rubble_mound (cot_alpha := cot_alpha)
  pure Rc_diml

/-- wave_overtopping/eurotop2018.py 1004-1091 -/
def calculate_crest_freeboard_Rc_rubble_mound (Hm0 Tmm10 q : Val n)
    (beta gamma_beta : Val n := nan) (gamma_f : Val n := 1.0) (B_berm db : Val n := 0.0)
    (cot_alpha cot_alpha_down cot_alpha_up : Val n := nan) (c2 : PF := 0.1035) (c3 : PF := 1.35)
    (use_best_fit : Bool := false) (g : Val n := 9.81) : PyM (Val n) := do
  let Rc_diml ← calculate_dimensionless_crest_freeboard_rubble_mound Hm0 Tmm10 q beta gamma_beta
    gamma_f B_berm db cot_alpha cot_alpha_down cot_alpha_up c2 c3 use_best_fit g
  pure (Rc_diml * Hm0)

end OvertoppingEurOtop2018
end Arr
end
