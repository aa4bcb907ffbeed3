import Verif.Model.CoreUtility
import Verif.Model.CorePhysics

/-! # Models of `cubes_double_layer_vandermeer1988.py` and `cubes_single_layer_vangent2002.py` -/

open Classical
open PF (nan npow)
open CorePhysics CoreUtility
noncomputable section

namespace CubesVdM

/-- cubes_double_layer_vandermeer1988.py 17-103 -/
def check_validity_range (Hs Tm rho_armour N_waves cot_alpha : PF := nan) : PyM Unit := do
  let f := "Double layer cubes vander Meer 1988"
  check_if_given [Hs] "Significant wave height Hs" f Hs 0.01 20
  check_if_given [N_waves] "Number of waves N_waves" f N_waves 0 7500
  check_if_given [Tm] "Wave period Tm" f Tm 0.5 30
  check_if_given [rho_armour] "Armour density rho_armour" f rho_armour 2000 3100
  check_if_given [cot_alpha] "Cotangent of outer structure slope cot_alpha" f cot_alpha 1.5 1.5
  check_if_given [Hs, Tm] "Wave steepness using Tm and Hs" f
    (calculate_wave_steepness_s (H := Hs) (T := Tm)) 0.005 0.07

/-- cubes_double_layer_vandermeer1988.py 106-166 -/
def calculate_nominal_diameter_Dn_vanDerMeer1988
    (Hs Tm rho_water rho_armour N_waves cot_alpha Nod : PF) : PyM PF := do
  check_validity_range (Hs := Hs) (Tm := Tm) (rho_armour := rho_armour) (N_waves := N_waves)
    (cot_alpha := cot_alpha)
  let Delta := calculate_buoyant_density_Delta (rho_rock := rho_armour) (rho_water := rho_water)
  let s0m := calculate_wave_steepness_s (H := Hs) (T := Tm)
  let Ns := ((6.7 * ((npow Nod 0.4) / (npow N_waves 0.3))) + 1.0) * npow s0m (-0.1)
  let Dn ← check_usage_stabilitynumber (Ns := some Ns) (Hs := some Hs) (Delta := some Delta)
  pure Dn.1

/-- cubes_double_layer_vandermeer1988.py 169-227 -/
def calculate_wave_height_Hs_vanDerMeer1988
    (Dn s0m rho_water rho_armour N_waves cot_alpha Nod : PF) : PyM PF := do
  let Delta := calculate_buoyant_density_Delta (rho_rock := rho_armour) (rho_water := rho_water)
  let Ns := ((6.7 * ((npow Nod 0.4) / (npow N_waves 0.3))) + 1.0) * npow s0m (-0.1)
  let Hs ← check_usage_stabilitynumber (Ns := some Ns) (Dn := some Dn) (Delta := some Delta)
  let Hs := Hs.1
  let Tm := npow ((Hs / s0m) / (9.81 / (2 * PF.pi))) 0.5
  check_validity_range (Hs := Hs) (Tm := Tm) (rho_armour := rho_armour) (N_waves := N_waves)
    (cot_alpha := cot_alpha)
  pure Hs

/-- cubes_double_layer_vandermeer1988.py 230-290 -/
def calculate_damage_Nod_vanDerMeer1988
    (Hs Dn s0m rho_water rho_armour N_waves cot_alpha : PF) : PyM PF := do
  let Delta := calculate_buoyant_density_Delta (rho_rock := rho_armour) (rho_water := rho_water)
  let Ns ← check_usage_stabilitynumber (Dn := some Dn) (Hs := some Hs) (Delta := some Delta)
  let Ns := Ns.1
  let Nod := npow ((((Ns / npow s0m (-0.1)) - 1) / 6.7) * npow N_waves 0.3) (1 / 0.4)
  let Tm := npow ((Hs / s0m) / (9.81 / (2 * PF.pi))) 0.5
  check_validity_range (Hs := Hs) (Tm := Tm) (rho_armour := rho_armour) (N_waves := N_waves)
    (cot_alpha := cot_alpha)
  pure Nod

end CubesVdM

namespace CubesSingle

/-- cubes_single_layer_vangent2002.py 18-61 -/
def calculate_unit_mass_M_start_of_damage (Hs rho_water rho_armour : PF) (Ns : PF := 2.9) :
    PyM PF := do
  let Delta := calculate_buoyant_density_Delta (rho_rock := rho_armour) (rho_water := rho_water)
  let Dn ← check_usage_stabilitynumber (Hs := some Hs) (Delta := some Delta) (Ns := some Ns)
  pure (calculate_M50_from_Dn50 (Dn50 := Dn.1) (rho_rock := rho_armour))

/-- cubes_single_layer_vangent2002.py 64-103 -/
def calculate_unit_mass_M_failure (Hs rho_water rho_armour : PF) (Ns : PF := 3.5) : PyM PF :=
  calculate_unit_mass_M_start_of_damage (Hs := Hs) (rho_water := rho_water)
    (rho_armour := rho_armour) (Ns := Ns)

/-- cubes_single_layer_vangent2002.py 106-148 -/
def calculate_significant_wave_height_Hs_start_of_damage (M rho_water rho_armour : PF)
    (Ns : PF := 2.9) : PyM PF := do
  let Delta := calculate_buoyant_density_Delta (rho_rock := rho_armour) (rho_water := rho_water)
  let Dn := calculate_Dn50_from_M50 (M50 := M) (rho_rock := rho_armour)
  let Hs ← check_usage_stabilitynumber (Ns := some Ns) (Delta := some Delta) (Dn := some Dn)
  pure Hs.1

/-- cubes_single_layer_vangent2002.py 151-191 -/
def calculate_significant_wave_height_Hs_failure (M rho_water rho_armour : PF) (Ns : PF := 3.5) :
    PyM PF :=
  calculate_significant_wave_height_Hs_start_of_damage (M := M) (rho_water := rho_water)
    (rho_armour := rho_armour) (Ns := Ns)

end CubesSingle
end
