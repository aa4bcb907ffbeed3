import Verif.Array.RearSlope

/-! # Model of `structural/forces_crestwall/vangentvanderwerf2019.py`

The same functions called with arrays. -/

open Classical
open Val (nan npow whr pinf)
open Arr.CorePhysics Arr.CoreUtility
noncomputable section
namespace Arr
variable {n : ℕ}

namespace CrestWall

/-- vangentvanderwerf2019.py 8-70 -/
def check_validity (Rc Ac Hm0 Fb beta : Val n := nan) : PyM Unit := do
  let f := "Van Gent and Van der Werf 2019"
  check_if_given [Hm0, Rc, Ac] "(Rc-Ac)/Hm0" f ((Rc - Ac) / Hm0) 0.26 0.77
  check_if_given [Rc, Ac] "Rc/Ac" f (Rc / Ac) 1.27 1.55
  check_if_given [Hm0, Rc] "Rc/Hm0" f (Rc / Hm0) 0.79 2.18
  check_if_given [Hm0, Fb] "Fb/Hm0" f (Fb / Hm0) 0.0 0.62
  check_if_given [beta] "beta" f beta 0.0 75.0

/-- vangentvanderwerf2019.py 73-109 -/
def calculate_influence_oblique_waves_force_gamma_F_beta (z2p Ac beta gamma_A : Val n) : Val n :=
  ((0.5 * npow (Val.cos (Val.deg2rad beta)) 2.0 + 0.5) * z2p - gamma_A * Ac) / (z2p - gamma_A * Ac)

/-- vangentvanderwerf2019.py 112-148 -/
def calculate_influence_oblique_waves_horizontal_force_gamma_FH_beta (z2p Ac beta : Val n)
    (gamma_A : Val n := 1.0) : Val n :=
  calculate_influence_oblique_waves_force_gamma_F_beta (z2p := z2p) (Ac := Ac) (beta := beta)
    (gamma_A := gamma_A)

/-- vangentvanderwerf2019.py 151-187 -/
def calculate_influence_oblique_waves_vertical_force_gamma_FV_beta (z2p Ac beta : Val n)
    (gamma_A : Val n := 0.75) : Val n :=
  calculate_influence_oblique_waves_force_gamma_F_beta (z2p := z2p) (Ac := Ac) (beta := beta)
    (gamma_A := gamma_A)

/-- vangentvanderwerf2019.py 190-211 -/
def calculate_influence_oblique_waves_gamma_beta (beta : Val n) (c_beta : Val n := 0.5) : Val n :=
  (1 - c_beta) * npow (Val.cos (Val.deg2rad beta)) 2 + c_beta

/-- vangentvanderwerf2019.py 289-341 (`np.max([F, zeros_like(F)*0], axis=0)`: both items have
the shape of `F`; the check runs twice) -/
def calculate_FH2p_perpendicular_from_z2p (Hm0 z2p Ac Rc Hwall : Val n) (rho_water : Val n := 1025.0)
    (g : Val n := 9.81) (cFH : Val n := 1.0) : PyM (Val n) := do
  check_validity (Hm0 := Hm0) (Ac := Ac) (Rc := Rc)
  let FH2p := cFH * rho_water * g * Hwall * (z2p - Ac)
  let FH2p := Val.max FH2p 0
  check_validity (Hm0 := Hm0) (Ac := Ac) (Rc := Rc)
  pure FH2p

/-- vangentvanderwerf2019.py 214-286 -/
def calculate_FH2p_perpendicular (Hm0 Tmm10 cot_alpha Ac Rc Hwall : Val n) (gamma_beta : Val n := 1.0)
    (gamma_f : Val n := 0.45) (c0 : Val n := 1.45) (c1 : Val n := 5.0) (rho_water : Val n := 1025.0)
    (g : Val n := 9.81) (cFH : Val n := 1.0) : PyM (Val n) := do
  let gamma := gamma_f * gamma_beta
  let z2p := VanGent2001.calculate_wave_runup_height_zXp (H := Hm0) (Tmm10 := Tmm10)
    (cot_alpha := cot_alpha) (gamma := gamma) (c0 := c0) (c1 := c1)
  let FH2p ← calculate_FH2p_perpendicular_from_z2p (Hm0 := Hm0) (z2p := z2p)
    (rho_water := rho_water) (Ac := Ac) (Rc := Rc) (Hwall := Hwall) (g := g) (cFH := cFH)
  check_validity (Hm0 := Hm0) (Ac := Ac) (Rc := Rc)
  pure FH2p

/-- vangentvanderwerf2019.py 344-425 -/
def calculate_FH2p_oblique (Hm0 Tmm10 beta cot_alpha Ac Rc Hwall : Val n) (gamma_beta : Val n := 1.0)
    (gamma_f : Val n := 0.45) (c0 : Val n := 1.45) (c1 : Val n := 5.0) (cFH : Val n := 1.0)
    (rho_water : Val n := 1025.0) (g : Val n := 9.81) : PyM (Val n) := do
  let gamma := gamma_f * gamma_beta
  let z2p := VanGent2001.calculate_wave_runup_height_zXp (H := Hm0) (Tmm10 := Tmm10)
    (cot_alpha := cot_alpha) (gamma := gamma) (c0 := c0) (c1 := c1)
  let FH2p_perpendicular ← calculate_FH2p_perpendicular_from_z2p (Hm0 := Hm0) (z2p := z2p)
    (rho_water := rho_water) (Ac := Ac) (Rc := Rc) (Hwall := Hwall) (g := g) (cFH := cFH)
  let gamma_FH_beta := calculate_influence_oblique_waves_horizontal_force_gamma_FH_beta
    (z2p := z2p) (Ac := Ac) (beta := beta)
  let FH2p_oblique := gamma_FH_beta * FH2p_perpendicular
  check_validity (Hm0 := Hm0) (Ac := Ac) (Rc := Rc) (beta := beta)
  pure FH2p_oblique

/-- vangentvanderwerf2019.py 506-556 -/
def calculate_FV2p_perpendicular_from_z2p (z2p Ac Bwall Fb : Val n) (cFV : Val n := 0.4)
    (cFb : Val n := 0.5) (rho_water : Val n := 1025.0) (g : Val n := 9.81) : Val n :=
  let FV2p := cFV * rho_water * g * Bwall * (z2p - 0.75 * Ac) * (1 - npow (Fb / Ac) cFb)
  Val.max FV2p 0

/-- vangentvanderwerf2019.py 428-503 -/
def calculate_FV2p_perpendicular (Hm0 Tmm10 cot_alpha Ac Bwall Fb : Val n) (gamma_beta : Val n := 1.0)
    (gamma_f : Val n := 0.45) (c0 : Val n := 1.45) (c1 : Val n := 5.0) (cFV : Val n := 0.4) (cFb : Val n := 0.5)
    (rho_water : Val n := 1025.0) (g : Val n := 9.81) : PyM (Val n) := do
  let gamma := gamma_f * gamma_beta
  let z2p := VanGent2001.calculate_wave_runup_height_zXp (H := Hm0) (Tmm10 := Tmm10)
    (cot_alpha := cot_alpha) (gamma := gamma) (c0 := c0) (c1 := c1)
  let FV2p_perpendicular := calculate_FV2p_perpendicular_from_z2p (z2p := z2p)
    (rho_water := rho_water) (Ac := Ac) (Bwall := Bwall) (cFV := cFV) (cFb := cFb) (Fb := Fb)
    (g := g)
  check_validity (Hm0 := Hm0) (Ac := Ac) (Fb := Fb)
  pure FV2p_perpendicular

/-- vangentvanderwerf2019.py 559-643 -/
def calculate_FV2p_oblique (Hm0 Tmm10 beta cot_alpha Ac Bwall Fb : Val n) (gamma_beta : Val n := 1.0)
    (gamma_f : Val n := 0.45) (c0 : Val n := 1.45) (c1 : Val n := 5.0) (cFV : Val n := 0.4) (cFb : Val n := 0.5)
    (rho_water : Val n := 1025.0) (g : Val n := 9.81) : PyM (Val n) := do
  let gamma := gamma_f * gamma_beta
  let z2p := VanGent2001.calculate_wave_runup_height_zXp (H := Hm0) (Tmm10 := Tmm10)
    (cot_alpha := cot_alpha) (gamma := gamma) (c0 := c0) (c1 := c1)
  let FV2p_perpendicular := calculate_FV2p_perpendicular_from_z2p (z2p := z2p)
    (rho_water := rho_water) (Ac := Ac) (Bwall := Bwall) (cFV := cFV) (cFb := cFb) (Fb := Fb)
    (g := g)
  let gamma_FV_beta := calculate_influence_oblique_waves_vertical_force_gamma_FV_beta
    (z2p := z2p) (Ac := Ac) (beta := beta)
  let FV2p_oblique := gamma_FV_beta * FV2p_perpendicular
  check_validity (Hm0 := Hm0) (Ac := Ac) (beta := beta) (Fb := Fb)
  pure FV2p_oblique

/-- vangentvanderwerf2019.py 646-670 -/
def calculate_FH01p_perpendicular (FH2p : Val n) : Val n := 1.6 * FH2p

/-- vangentvanderwerf2019.py 673-700 -/
def calculate_FV01p_perpendicular (FV2p s0p : Val n) : Val n := (2.88 - 32 * s0p) * FV2p

end CrestWall
end Arr
end
