import Verif.Array.Core

/-! # Models of `functions/hydraulic/wave_runup/taw2002.py` and `wave_runup/eurotop2018.py`

The run-up function and its two iteration procedures call each other.  The model gives the body of
the run-up function the callee as a parameter `rec` and unrolls the recursion to a given depth;
`runup_depth_stable` (Lemmas/Taw.lean) shows depth two already gives the answer of every greater
depth.

The same functions called with arrays. -/

open Classical
open Val (nan npow whr pinf)
open Arr.CorePhysics Arr.CoreUtility
noncomputable section
namespace Arr
variable {n : ℕ}

namespace RunupTaw2002

/-- wave_runup/taw2002.py 9-87 -/
def check_validity_range (Hm0 Tmm10 gamma_f gamma_b gamma_beta cot_alpha : Val n := nan) :
    PyM Unit := do
  check_if_given [gamma_b] "Influence factor for a berm gamma_b" "TAW (2002)" gamma_b 0.6 1.0
  check_if_given [gamma_beta] "Influence factor for oblique wave incidence gamma_beta" "TAW (2002)"
    gamma_beta 0.7 1.0
  check_if_given [gamma_f] "Influence factor for surface roughness gamma_f" "TAW (2002)"
    gamma_f 0.5 1.0
  check_if_given [Hm0, Tmm10] "Wave steepness smm10" "TAW (2002)"
    (calculate_wave_steepness_s Hm0 Tmm10) 0.001 0.07
  check_if_given [Hm0, Tmm10, cot_alpha] "Iribarren number ksi_mm10" "TAW (2002)"
    (calculate_Iribarren_number_ksi Hm0 Tmm10 cot_alpha) 0.4 20.0

/-- wave_runup/taw2002.py 346-386 -/
def determine_average_slope (Hm0 z2p cot_alpha_down cot_alpha_up B_berm db : Val n) : Val n :=
  let L_slope := (1.5 * Hm0 - db) * cot_alpha_down + B_berm + (z2p + db) * cot_alpha_up
  let tan_alpha_average := (1.5 * Hm0 + z2p) / (L_slope - B_berm)
  1.0 / tan_alpha_average

/-- wave_runup/taw2002.py 543-583 -/
def check_composite_slope (cot_alpha cot_alpha_down cot_alpha_up : Val n := nan) : PyM Bool :=
  if cot_alpha.isnan.all ∧ cot_alpha_down.isnan.all then PyM.raise .valueError
  else if ¬ cot_alpha_down.isnan.all ∧ ¬ cot_alpha_up.isnan.all then pure true
  else pure false

/-- wave_runup/taw2002.py 501-540 -/
def calculate_berm_length (Hm0 B_berm : Val n) (cot_alpha cot_alpha_down cot_alpha_up : Val n := nan) :
    PyM (Val n) := do
  let composite ← check_composite_slope cot_alpha cot_alpha_down cot_alpha_up
  let down := if composite then cot_alpha_down else cot_alpha
  let up := if composite then cot_alpha_up else cot_alpha
  pure (1.0 * Hm0 * down + B_berm + 1.0 * Hm0 * up)

/-- wave_runup/taw2002.py 586-625 -/
def check_calculate_gamma_beta (beta gamma_beta : Val n) : PyM Bool :=
  if beta.isnan.all ∧ gamma_beta.isnan.all then PyM.raise .valueError
  else if gamma_beta.isnan.all then pure true
  else pure false

/-- wave_runup/taw2002.py 724-765 (line 764 works for numbers only: `np.min([…, 1.0])`) -/
def calculate_influence_berm_gamma_b (Hm0 z2p db B_berm L_berm : Val n) : PyM (Val n) := do
  let x := whr (db <. 0) z2p (2 * Hm0)
  let rdh := whr (db >. 2 * Hm0 |. db <. -z2p) 1.0 (0.5 - 0.5 * Val.cos (Val.pi * db / x))
  let rB := B_berm / L_berm
  let m ← Val.listMin (1.0 - rB * (1.0 - rdh)) 1.0
  Val.listMax m 0.6

/-- wave_runup/taw2002.py 768-799 -/
def calculate_influence_oblique_waves_gamma_beta (beta : Val n) (c_gamma_beta : PF := 0.0022)
    (max_angle : PF := 80.0) : Val n :=
  let beta_calc := whr (beta <. 0) (Val.abs beta) beta
  let beta_calc := whr (beta_calc >. max_angle) max_angle beta_calc
  1 - c_gamma_beta * beta_calc

/-- wave_runup/taw2002.py 802-833 -/
def calculate_adjusted_influence_roughness_gamma_f (gamma_f gamma_b ksi_mm10 : Val n) : Val n :=
  whr (gamma_b * ksi_mm10 ≥. 1.8 &. gamma_b * ksi_mm10 ≤. 10.0)
    (((ksi_mm10 - 1.8) * (1 - gamma_f) / (10.0 - 1.8)) + gamma_f) gamma_f

/-- the keyword arguments of `calculate_wave_runup_height_z2p` and of
`calculate_dimensionless_wave_runup_height_z2p` (the same list, same defaults),
wave_runup/taw2002.py 91-106 and 187-202 -/
structure Args (n : ℕ) where
  Hm0 : Val n
  Tmm10 : Val n
  beta : Val n := nan
  gamma_beta : Val n := nan
  gamma_b : Val n := nan
  gamma_f : Val n := 1.0
  B_berm : Val n := 0.0
  db : Val n := 0.0
  cot_alpha : Val n := nan
  cot_alpha_down : Val n := nan
  cot_alpha_up : Val n := nan
  c1 : PF := 1.75
  c2 : PF := 4.3
  c3 : PF := 1.6
  c4 : PF := 1.0
  use_best_fit : Bool := false

/-- wave_runup/taw2002.py 389-498; `rec` is `calculate_wave_runup_height_z2p`.  The loop condition
`n_iter <= max_iter` with `n_iter = 0` at the start allows `max_iter + 1` passes.  State of the loop:
`(z2p_estimate_i1, z2p_estimate_i0)`. -/
def iteration_procedure_z2p_rec (rec : Args n → PyM (Val n × BVal n))
    (Hm0 Tmm10 cot_alpha_down cot_alpha_up B_berm db gamma_f gamma_beta : Val n)
    (c1 : PF := 1.75) (c2 : PF := 4.3) (c3 : PF := 1.6) (c4 : PF := 1.0)
    (use_best_fit : Bool := false) (tolerance : PF := 1e-4) (max_iter : ℤ := 1000) : PyM (Val n) := do
  let z2p_estimate_i1 := 1.5 * Hm0
  let z2p_estimate_i0 := z2p_estimate_i1 + .num (2 * tolerance)
  let s ← whileIterM (max_iter + 1).toNat
    (fun s : Val n × Val n => (Val.abs (s.1 - s.2)).amax > tolerance)
    (fun s => do
      let z2p_estimate_i0 := s.1
      let L_berm ← calculate_berm_length Hm0 B_berm (cot_alpha_down := cot_alpha_down)
        (cot_alpha_up := cot_alpha_up)
      let gamma_b ← calculate_influence_berm_gamma_b Hm0 z2p_estimate_i0 db B_berm L_berm
      let cot_alpha_average := determine_average_slope Hm0 z2p_estimate_i0 cot_alpha_down
        cot_alpha_up B_berm db
      let r ← rec { Hm0 := Hm0, Tmm10 := Tmm10, cot_alpha := cot_alpha_average, gamma_b := gamma_b,
                    gamma_f := gamma_f, gamma_beta := gamma_beta, c1 := c1, c2 := c2, c3 := c3,
                    c4 := c4, use_best_fit := use_best_fit }
      pure (r.1, z2p_estimate_i0))
    (z2p_estimate_i1, z2p_estimate_i0)
  pure s.1

/-- wave_runup/taw2002.py 628-721; `rec` is `calculate_wave_runup_height_z2p` -/
def iteration_procedure_gamma_b_rec (rec : Args n → PyM (Val n × BVal n))
    (Hm0 Tmm10 cot_alpha_average B_berm L_berm db gamma_beta : Val n)
    (c1 : PF := 1.75) (c2 : PF := 4.3) (c3 : PF := 1.6) (c4 : PF := 1.0)
    (use_best_fit : Bool := false) (gamma_f : Val n := 1.0) : PyM (Val n) :=
  PyM.cond (PyM.or (B_berm ==. 0.0).truth (L_berm ==. 0.0).truth) (pure 1.0) do
    let z2p_i1 ← rec { Hm0 := Hm0, Tmm10 := Tmm10, cot_alpha := cot_alpha_average, gamma_b := 1.0,
                       gamma_f := gamma_f, gamma_beta := gamma_beta, c1 := c1, c2 := c2, c3 := c3,
                       c4 := c4, use_best_fit := use_best_fit }
    let gamma_b_runup ← calculate_influence_berm_gamma_b Hm0 z2p_i1.1 db B_berm L_berm
    let z2p_i2 ← rec { Hm0 := Hm0, Tmm10 := Tmm10, cot_alpha := cot_alpha_average,
                       gamma_b := gamma_b_runup, gamma_f := gamma_f, gamma_beta := gamma_beta,
                       c1 := c1, c2 := c2, c3 := c3, c4 := c4, use_best_fit := use_best_fit }
    calculate_influence_berm_gamma_b Hm0 z2p_i2.1 db B_berm L_berm

/-- the slope used for the Iribarren number, wave_runup/taw2002.py 268-294 -/
def slope_rec (rec : Args n → PyM (Val n × BVal n)) (a : Args n) (gamma_beta : Val n) (c1 c2 c3 c4 : PF) :
    PyM (Val n) := do
  let composite ← check_composite_slope a.cot_alpha a.cot_alpha_down a.cot_alpha_up
  (if composite then do
    let z2p_for_slope ← iteration_procedure_z2p_rec rec a.Hm0 a.Tmm10 a.cot_alpha_down
      a.cot_alpha_up a.B_berm a.db a.gamma_f gamma_beta c1 c2 c3 c4 a.use_best_fit
    pure (determine_average_slope a.Hm0 z2p_for_slope a.cot_alpha_down a.cot_alpha_up a.B_berm a.db)
  else pure a.cot_alpha : PyM (Val n))

/-- the berm factor, wave_runup/taw2002.py 300-322 (the berm length is asked for without
`cot_alpha`) -/
def berm_rec (rec : Args n → PyM (Val n × BVal n)) (a : Args n) (cot_alpha gamma_beta : Val n) (c1 c2 c3 c4 : PF) :
    PyM (Val n) :=
  PyM.cond a.gamma_b.isnan.truth (do
    let L_berm ← calculate_berm_length a.Hm0 a.B_berm (cot_alpha_down := a.cot_alpha_down)
      (cot_alpha_up := a.cot_alpha_up)
    iteration_procedure_gamma_b_rec rec a.Hm0 a.Tmm10 cot_alpha a.B_berm L_berm a.db gamma_beta
      c1 c2 c3 c4 a.use_best_fit a.gamma_f)
    (pure a.gamma_b)

/-- wave_runup/taw2002.py 186-343 with the recursive callee as a parameter -/
def diml_rec (rec : Args n → PyM (Val n × BVal n)) (a : Args n) : PyM (Val n × BVal n) := do
  let c1 := if a.use_best_fit then 1.65 else a.c1
  let c2 := if a.use_best_fit then 4.0 else a.c2
  let c3 := if a.use_best_fit then 1.5 else a.c3
  let c4 := if a.use_best_fit then 1.0 else a.c4
  let calculate ← check_calculate_gamma_beta a.beta a.gamma_beta
  let gamma_beta :=
    if calculate then calculate_influence_oblique_waves_gamma_beta a.beta else a.gamma_beta
  let cot_alpha ← slope_rec rec a gamma_beta c1 c2 c3 c4
  let ksi_mm10 := calculate_Iribarren_number_ksi a.Hm0 a.Tmm10 cot_alpha
  let gamma_b ← berm_rec rec a cot_alpha gamma_beta c1 c2 c3 c4
  let gamma_f_adj := calculate_adjusted_influence_roughness_gamma_f a.gamma_f gamma_b ksi_mm10
  let z2p_diml_eq3a := c1 * gamma_b * gamma_f_adj * gamma_beta * ksi_mm10
  let z2p_diml_eq3b := c4 * gamma_f_adj * gamma_beta * (c2 - c3 / Val.sqrt ksi_mm10)
  let z2p_diml ← Val.stackMin z2p_diml_eq3a z2p_diml_eq3b
  let max_reached := z2p_diml ==. z2p_diml_eq3b
  check_validity_range (Hm0 := a.Hm0) (Tmm10 := a.Tmm10) (gamma_f := a.gamma_f)
    (gamma_b := gamma_b) (gamma_beta := gamma_beta) (cot_alpha := cot_alpha)
  pure (z2p_diml, max_reached)

/-- wave_runup/taw2002.py 90-183 with the dimensionless function as a parameter -/
def height_of (diml : Args n → PyM (Val n × BVal n)) (a : Args n) : PyM (Val n × BVal n) := do
  let r ← diml a
  pure (r.1 * a.Hm0, r.2)

/-- the mutual recursion cut off after `n` nested calls (Python raises RecursionError long after the
depth needed here, see `runup_depth_stable`; the exception chosen for depth 0 is immaterial) -/
def diml_depth : ℕ → Args n → PyM (Val n × BVal n)
  | 0 => fun _ => PyM.raise .valueError
  | n + 1 => diml_rec (height_of (diml_depth n))

/-- wave_runup/taw2002.py 186-343 -/
def calculate_dimensionless_wave_runup_height_z2p : Args n → PyM (Val n × BVal n) := diml_depth 2

/-- wave_runup/taw2002.py 90-183 -/
def calculate_wave_runup_height_z2p (a : Args n) : PyM (Val n × BVal n) :=
  height_of calculate_dimensionless_wave_runup_height_z2p a

/-- wave_runup/taw2002.py 389-498 -/
def iteration_procedure_z2p
    (Hm0 Tmm10 cot_alpha_down cot_alpha_up B_berm db gamma_f gamma_beta : Val n)
    (c1 : PF := 1.75) (c2 : PF := 4.3) (c3 : PF := 1.6) (c4 : PF := 1.0)
    (use_best_fit : Bool := false) (tolerance : PF := 1e-4) (max_iter : ℤ := 1000) : PyM (Val n) :=
  iteration_procedure_z2p_rec calculate_wave_runup_height_z2p Hm0 Tmm10 cot_alpha_down cot_alpha_up
    B_berm db gamma_f gamma_beta c1 c2 c3 c4 use_best_fit tolerance max_iter

/-- wave_runup/taw2002.py 628-721 -/
def iteration_procedure_gamma_b
    (Hm0 Tmm10 cot_alpha_average B_berm L_berm db gamma_beta : Val n)
    (c1 : PF := 1.75) (c2 : PF := 4.3) (c3 : PF := 1.6) (c4 : PF := 1.0)
    (use_best_fit : Bool := false) (gamma_f : Val n := 1.0) : PyM (Val n) :=
  iteration_procedure_gamma_b_rec calculate_wave_runup_height_z2p Hm0 Tmm10 cot_alpha_average B_berm
    L_berm db gamma_beta c1 c2 c3 c4 use_best_fit gamma_f

end RunupTaw2002

namespace RunupEurOtop2018

/-- wave_runup/eurotop2018.py 209-240 -/
def check_best_fit (c1 c2 c3 c4 : PF) (use_best_fit : Bool) : PF × PF × PF × PF :=
  if use_best_fit then (1.65, 4.0, 1.5, 1.0) else (c1, c2, c3, c4)

/-- wave_runup/eurotop2018.py 243-290 -/
def calculate_influence_oblique_waves_gamma_beta (beta gamma_f : Val n) (gamma_f_crit : PF := 0.6)
    (c_gamma_beta_smooth : PF := 0.0022) (c_gamma_beta_rough : PF := 0.0063)
    (max_angle : PF := 80.0) : PyM (Val n) := do
  let c_gamma_beta ← PyM.cond (gamma_f >. gamma_f_crit).truth (pure c_gamma_beta_smooth)
    (pure c_gamma_beta_rough)
  pure (RunupTaw2002.calculate_influence_oblique_waves_gamma_beta beta c_gamma_beta max_angle)

/-- wave_runup/eurotop2018.py 104-206 (the argument `gamma_beta` is overwritten, line 182;
`use_best_fit` is not handed on) -/
def calculate_dimensionless_wave_runup_height_z2p (Hm0 Tmm10 : Val n)
    (beta gamma_beta gamma_b : Val n := nan) (gamma_f : Val n := 1.0) (B_berm db : Val n := 0.0)
    (cot_alpha cot_alpha_down cot_alpha_up : Val n := nan)
    (c1 : PF := 1.75) (c2 : PF := 4.3) (c3 : PF := 1.5) (c4 : PF := 1.07)
    (use_best_fit : Bool := false) : PyM (Val n × BVal n) := do
  let c := check_best_fit c1 c2 c3 c4 use_best_fit
  let gamma_beta ← calculate_influence_oblique_waves_gamma_beta beta gamma_f
  RunupTaw2002.calculate_dimensionless_wave_runup_height_z2p
    { Hm0 := Hm0, Tmm10 := Tmm10, gamma_beta := gamma_beta, gamma_b := gamma_b, gamma_f := gamma_f,
      B_berm := B_berm, db := db, cot_alpha := cot_alpha, cot_alpha_down := cot_alpha_down,
      cot_alpha_up := cot_alpha_up, c1 := c.1, c2 := c.2.1, c3 := c.2.2.1, c4 := c.2.2.2 }

/-- wave_runup/eurotop2018.py 8-101 -/
def calculate_wave_runup_height_z2p (Hm0 Tmm10 : Val n)
    (beta gamma_beta gamma_b : Val n := nan) (gamma_f : Val n := 1.0) (B_berm db : Val n := 0.0)
    (cot_alpha cot_alpha_down cot_alpha_up : Val n := nan)
    (c1 : PF := 1.75) (c2 : PF := 4.3) (c3 : PF := 1.5) (c4 : PF := 1.07)
    (use_best_fit : Bool := false) : PyM (Val n × BVal n) := do
  let r ← calculate_dimensionless_wave_runup_height_z2p Hm0 Tmm10 beta gamma_beta gamma_b gamma_f
    B_berm db cot_alpha cot_alpha_down cot_alpha_up c1 c2 c3 c4 use_best_fit
  pure (r.1 * Hm0, r.2)

/-- wave_runup/eurotop2018.py 293-377 -/
def iteration_procedure_z2p
    (Hm0 Tmm10 cot_alpha_down cot_alpha_up B_berm db gamma_f gamma_beta : Val n)
    (c1 : PF := 1.75) (c2 : PF := 4.3) (c3 : PF := 1.5) (c4 : PF := 1.07)
    (use_best_fit : Bool := false) (tolerance : PF := 1e-4) (max_iter : ℤ := 1000) : PyM (Val n) :=
  let c := check_best_fit c1 c2 c3 c4 use_best_fit
  RunupTaw2002.iteration_procedure_z2p Hm0 Tmm10 cot_alpha_down cot_alpha_up B_berm db gamma_f
    gamma_beta c.1 c.2.1 c.2.2.1 c.2.2.2 use_best_fit tolerance max_iter

/-- wave_runup/eurotop2018.py 380-456 -/
def iteration_procedure_gamma_b
    (Hm0 Tmm10 cot_alpha_average B_berm L_berm db gamma_beta : Val n)
    (c1 : PF := 1.75) (c2 : PF := 4.3) (c3 : PF := 1.5) (c4 : PF := 1.07)
    (use_best_fit : Bool := false) (gamma_f : Val n := 1.0) : PyM (Val n) :=
  let c := check_best_fit c1 c2 c3 c4 use_best_fit
  RunupTaw2002.iteration_procedure_gamma_b Hm0 Tmm10 cot_alpha_average B_berm L_berm db gamma_beta
    c.1 c.2.1 c.2.2.1 c.2.2.2 use_best_fit gamma_f

end RunupEurOtop2018
end Arr
end
