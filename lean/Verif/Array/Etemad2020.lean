import Verif.Array.Core

/-! # Model of `functions/structural/stability_rock_armour/etemadshahidi2020.py`

The same functions called with arrays; the loops go on until the largest difference is within the
tolerance (`np.max`). -/

open Classical
open Val (nan npow whr pinf)
open Arr.CorePhysics Arr.CoreUtility
noncomputable section
namespace Arr
variable {n : ℕ}

namespace Etemad2020

/-- etemadshahidi2020.py 9-155 (the `Delta` computed at 110-112 is unused) -/
def check_validity_range (Hs Tmm10 N_waves cot_alpha P S Dn50 Dn50_core rho_armour : Val n := nan)
    (rho_water : Val n := 1025.0) : PyM Unit := do
  let f := "Etemad-Shahidi et al., 2020"
  check_if_given [Hs, Tmm10] "Wave steepness sm-1,0" f
    (calculate_wave_steepness_s (H := Hs) (T := Tmm10)) 0.003 0.088
  check_if_given [Hs, Tmm10, cot_alpha] "Iribarren number ksi_m-1,0" f
    (calculate_Iribarren_number_ksi (H := Hs) (T := Tmm10) (cot_alpha := cot_alpha)) 0.65 8.18
  check_if_given [cot_alpha] "Cotangent of outer structure slope cot_alpha" f cot_alpha 1.5 6.0
  check_if_given [N_waves] "Number of waves N_waves" f N_waves 500 5000
  check_if_given [rho_armour] "Buoyant density Delta" f
    (calculate_buoyant_density_Delta (rho_rock := rho_armour) (rho_water := rho_water)) 0.92 2.05
  check_if_given [P] "Permeability P" f P 0.1 0.6
  check_if_given [Dn50, Dn50_core] "Relative core diameter Dn50_core / Dn50" f (Dn50_core / Dn50)
    0.0 1.0
  check_if_given [Hs, Dn50, rho_armour] "Stability number Ns" f
    (calculate_stability_number_Ns (H := Hs) (D := Dn50) (rho_rock := rho_armour)
      (rho_water := rho_water)) 1.0 4.3
  check_if_given [S] "Damage number S" f S 2.0 12.0

/-- etemadshahidi2020.py 576-602 -/
def calculate_permeability_coefficient_Cp (Dn50 Dn50_core : Val n) : Val n :=
  npow (1 + npow (Dn50_core / Dn50) (3.0 / 10.0)) (3.0 / 5.0)

/-- etemadshahidi2020.py 222-228, 353-359 and 503-509: the depth-limitation factor -/
def depth_limitation (m : Val n) (use_depth_limited_version : Bool) : PyM (Val n) :=
  if use_depth_limited_version then
    if m.isnan.any then PyM.raise .valueError else pure (1.0 - 3.0 * m)
  else pure 1.0

/-- etemadshahidi2020.py 158-281 -/
def calculate_damage_number_S (Hs Tmm10 N_waves cot_alpha rho_armour : Val n)
    (Dn50 M50 Dn50_core M50_core rho_core : Val n := nan) (rho_water : Val n := 1025.0) (m : Val n := nan)
    (use_depth_limited_version : Bool := false) : PyM (Val n) := do
  let influence_depth_limitation ← depth_limitation m use_depth_limited_version
  let Dn50 ← check_usage_Dn50_or_M50 (Dn50 := Dn50) (M50 := M50) (rho_rock := rho_armour)
  let Dn50_core ← check_usage_Dn50_or_M50 (Dn50 := Dn50_core) (M50 := M50_core)
    (rho_rock := rho_core)
  let ksi_mm10 := calculate_Iribarren_number_ksi (H := Hs) (T := Tmm10) (cot_alpha := cot_alpha)
  let Ns := calculate_stability_number_Ns (H := Hs) (D := Dn50) (rho_rock := rho_armour)
    (rho_water := rho_water)
  let Cp := calculate_permeability_coefficient_Cp (Dn50 := Dn50) (Dn50_core := Dn50_core)
  let S_s := npow (1.0 / 3.9) 6.0 * npow Ns 6.0 * npow Cp (-6.0) * npow N_waves 0.6
    * npow ksi_mm10 2.0 * npow influence_depth_limitation (-6.0)
  let S_pl := npow (1.0 / 4.5) 6.0 * npow Ns 6.0 * npow Cp (-6.0) * npow N_waves 0.6
    * npow ksi_mm10 (7.0 / 2.0) * npow influence_depth_limitation (-6.0)
  let S := whr (ksi_mm10 ≥. 1.8) S_s S_pl
  check_validity_range (Hs := Hs) (Tmm10 := Tmm10) (N_waves := N_waves) (cot_alpha := cot_alpha)
    (Dn50 := Dn50) (Dn50_core := Dn50_core) (S := S) (rho_armour := rho_armour)
    (rho_water := rho_water)
  pure S

/-- variables of the loops at 373-394 and 396-417; `Dn50` is unbound before the first pass -/
structure LoopState (n : ℕ) where
  diff : Val n
  prev : Val n
  Cp : Val n
  Dn50 : Option (Val n)

/-- one pass of the loop at 379-394 (`c` = 3.9, `e` = 1.0/3.0) resp. 402-417 (`c` = 4.5,
`e` = 7.0/12.0) -/
def size_step (c e Hs Delta N_waves S ksi_mm10 influence_depth_limitation Dn50_core : Val n)
    (s : LoopState n) : LoopState n :=
  let Dn50 := (Hs / Delta) * (1.0 / c) * (1.0 / s.Cp) * npow N_waves (1.0 / 10.0)
    * npow S (-1.0 / 6.0) * npow ksi_mm10 e * npow influence_depth_limitation (-1.0)
  { Cp := calculate_permeability_coefficient_Cp (Dn50 := Dn50) (Dn50_core := Dn50_core)
    diff := Val.abs (Dn50 - s.prev)
    prev := Dn50
    Dn50 := some Dn50 }

/-- the whole loop; reading `Dn50` after a loop that was never entered raises UnboundLocalError -/
def size_loop (c e Hs Delta N_waves S ksi_mm10 influence_depth_limitation Dn50_core : Val n)
    (Cp_init : Val n) (max_iter : ℕ) (tolerance : PF) : LoopState n :=
  whileIter max_iter (fun s => s.diff.amax > tolerance)
    (size_step c e Hs Delta N_waves S ksi_mm10 influence_depth_limitation Dn50_core)
    { diff := pinf, prev := pinf, Cp := Cp_init, Dn50 := none }

/-- a local variable that may be unbound -/
def bound : Option (Val n) → PyM (Val n)
  | some x => pure x
  | none => PyM.raise .unboundLocal

/-- etemadshahidi2020.py 284-435 -/
def calculate_nominal_rock_diameter_Dn50 (Hs Tmm10 N_waves cot_alpha rho_armour S : Val n)
    (Dn50_core M50_core rho_core m : Val n := nan) (use_depth_limited_version : Bool := false)
    (Cp_init : Val n := 0.5) (max_iter : ℕ := 1000) (tolerance : PF := 1e-5) : PyM (Val n) := do
  let influence_depth_limitation ← depth_limitation m use_depth_limited_version
  let Dn50_core ← check_usage_Dn50_or_M50 (Dn50 := Dn50_core) (M50 := M50_core)
    (rho_rock := rho_core)
  let ksi_mm10 := calculate_Iribarren_number_ksi (H := Hs) (T := Tmm10) (cot_alpha := cot_alpha)
  let Delta := calculate_buoyant_density_Delta (rho_rock := rho_armour) (rho_water := 1025)
  let Dn50_s ← bound (size_loop 3.9 (1.0 / 3.0) Hs Delta N_waves S ksi_mm10
    influence_depth_limitation Dn50_core Cp_init max_iter tolerance).Dn50
  let Dn50_pl ← bound (size_loop 4.5 (7.0 / 12.0) Hs Delta N_waves S ksi_mm10
    influence_depth_limitation Dn50_core Cp_init max_iter tolerance).Dn50
  let Dn50 := whr (ksi_mm10 ≥. 1.8) Dn50_s Dn50_pl
  check_validity_range (Hs := Hs) (Tmm10 := Tmm10) (N_waves := N_waves) (cot_alpha := cot_alpha)
    (Dn50 := Dn50) (Dn50_core := Dn50_core) (S := S) (rho_armour := rho_armour)
  pure Dn50

/-- etemadshahidi2020.py 438-573 -/
def calculate_significant_wave_height_Hs (Tmm10 N_waves cot_alpha rho_armour S : Val n)
    (Dn50 M50 Dn50_core M50_core rho_core m : Val n := nan) (use_depth_limited_version : Bool := false)
    (g : Val n := 9.81) : PyM (Val n) := do
  let influence_depth_limitation ← depth_limitation m use_depth_limited_version
  let Dn50 ← check_usage_Dn50_or_M50 (Dn50 := Dn50) (M50 := M50) (rho_rock := rho_armour)
  let Dn50_core ← check_usage_Dn50_or_M50 (Dn50 := Dn50_core) (M50 := M50_core)
    (rho_rock := rho_core)
  let Delta := calculate_buoyant_density_Delta (rho_rock := rho_armour) (rho_water := 1025)
  let Cp := calculate_permeability_coefficient_Cp (Dn50 := Dn50) (Dn50_core := Dn50_core)
  let Hs_s := npow (S * npow (1.0 / 3.9) (-6.0) * (2 * Val.pi / g) * npow Cp 6.0
    * npow (Delta * Dn50) 6.0 * npow Tmm10 (-2.0) * npow cot_alpha 2.0 * npow N_waves (-0.6)
    * npow influence_depth_limitation 6.0) (1.0 / 5.0)
  let Hs_pl := npow (S * npow (1.0 / 4.5) (-6.0) * npow (2 * Val.pi / g) (7.0 / 4.0) * npow Cp 6.0
    * npow (Delta * Dn50) 6.0 * npow Tmm10 (-7.0 / 2.0) * npow cot_alpha (7.0 / 2.0)
    * npow N_waves (-0.6) * npow influence_depth_limitation 6.0) (4.0 / 17.0)
  let ksi_mm10_s := calculate_Iribarren_number_ksi (H := Hs_s) (T := Tmm10) (cot_alpha := cot_alpha)
  let ksi_mm10_pl := calculate_Iribarren_number_ksi (H := Hs_pl) (T := Tmm10)
    (cot_alpha := cot_alpha)
  let Hs := whr (ksi_mm10_pl <. 1.8 &. ksi_mm10_s <. 1.8) Hs_pl Hs_s
  check_validity_range (Hs := Hs) (Tmm10 := Tmm10) (N_waves := N_waves) (cot_alpha := cot_alpha)
    (Dn50 := Dn50) (Dn50_core := Dn50_core) (S := S) (rho_armour := rho_armour)
  pure Hs

end Etemad2020
end Arr
end
