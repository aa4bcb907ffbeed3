import Verif.Model.CoreUtility
import Verif.Model.CorePhysics
import Verif.Py.Loop

/-! # Models of `jumelet2024.py`, `scaravaglione2025.py` and `kramerburcharth2004_lowcrested.py` in
`functions/structural/stability_rock_armour/` (scalar arguments) -/

open Classical
open PF (nan npow whr pinf)
open CorePhysics CoreUtility
noncomputable section

namespace Jumelet2024

/-- jumelet2024.py 9-77 -/
def check_validity_range (Hs Tmm10 N_waves cot_alpha : PF := nan) : PyM Unit := do
  let f := "Jumelet et al., 2024"
  check_if_given [Hs, Tmm10] "Wave steepness sm-1,0" f
    (calculate_wave_steepness_s (H := Hs) (T := Tmm10)) 0.009 0.057
  check_if_given [Hs, Tmm10, cot_alpha] "Iribarren number ksi_m-1,0" f
    (calculate_Iribarren_number_ksi (H := Hs) (T := Tmm10) (cot_alpha := cot_alpha)) 0.42 1.66
  check_if_given [cot_alpha] "Cotangent of outer structure slope cot_alpha" f cot_alpha 6.0 10.0
  check_if_given [N_waves] "Number of waves N_waves" f N_waves 250 20000

/-- jumelet2024.py 319-341 -/
def calculate_fraction_plunging_waves_Fp (ksi_mm10 : PF) : PF :=
  -1.7 * npow ksi_mm10 2 + 3.2 * ksi_mm10 - 0.5

/-- jumelet2024.py 80-147 -/
def calculate_damage_number_S (Hs Tmm10 N_waves cot_alpha rho_armour : PF)
    (Dn50 M50 : PF := nan) (c_pl : PF := 4.3) (rho_water : PF := 1025.0) : PyM PF := do
  let Dn50 ← check_usage_Dn50_or_M50 (Dn50 := Dn50) (M50 := M50) (rho_rock := rho_armour)
  let ksi_mm10 := calculate_Iribarren_number_ksi (H := Hs) (T := Tmm10) (cot_alpha := cot_alpha)
  let Ns := calculate_stability_number_Ns (H := Hs) (D := Dn50) (rho_rock := rho_armour)
    (rho_water := rho_water)
  let Fp := calculate_fraction_plunging_waves_Fp (ksi_mm10 := ksi_mm10)
  let N_plunging := PF.round (Fp * N_waves)
  let S := npow (Ns * ksi_mm10 * npow N_plunging 0.1 * (1.0 / c_pl)) 5.0
  check_validity_range (Hs := Hs) (Tmm10 := Tmm10) (N_waves := N_waves) (cot_alpha := cot_alpha)
  pure S

/-- jumelet2024.py 150-214 -/
def calculate_nominal_rock_diameter_Dn50 (Hs Tmm10 N_waves cot_alpha rho_armour S : PF)
    (c_pl : PF := 4.3) : PyM PF := do
  let ksi_mm10 := calculate_Iribarren_number_ksi (H := Hs) (T := Tmm10) (cot_alpha := cot_alpha)
  let Delta := calculate_buoyant_density_Delta (rho_rock := rho_armour) (rho_water := 1025)
  let Fp := calculate_fraction_plunging_waves_Fp (ksi_mm10 := ksi_mm10)
  let N_plunging := PF.round (Fp * N_waves)
  let Dn50 := (Hs / Delta) * ksi_mm10 * npow N_plunging 0.1 * (1.0 / c_pl) * npow S (-0.2)
  check_validity_range (Hs := Hs) (Tmm10 := Tmm10) (N_waves := N_waves) (cot_alpha := cot_alpha)
  pure Dn50

/-- variables of the loop at 282-308; `Hs` is unbound before the first pass -/
structure LoopState where
  diff : PF
  prev : PF
  ksi : PF
  Hs : Option PF

/-- one pass of the loop at 285-308 -/
def height_step (Tmm10 N_waves cot_alpha S Dn50 c_pl g Delta : PF) (s : LoopState) : LoopState :=
  let Fp := calculate_fraction_plunging_waves_Fp (ksi_mm10 := s.ksi)
  let N_plunging := PF.round (Fp * N_waves)
  let Hs := npow (c_pl * npow S 0.2 * npow N_plunging (-0.1) * cot_alpha
    * PF.sqrt ((2 * PF.pi / g) * npow Tmm10 (-2)) * Delta * Dn50) 2.0
  { diff := PF.abs (Hs - s.prev)
    prev := Hs
    ksi := calculate_Iribarren_number_ksi (H := Hs) (T := Tmm10) (cot_alpha := cot_alpha)
    Hs := some Hs }

/-- jumelet2024.py 217-316 (reading `Hs` after a loop that was never entered raises
UnboundLocalError) -/
def calculate_significant_wave_height_Hs (Tmm10 N_waves cot_alpha rho_armour S : PF)
    (Dn50 M50 : PF := nan) (c_pl : PF := 4.3) (g : PF := 9.81) (smm10_init : PF := 0.03)
    (max_iter : ℕ := 1000) (tolerance : PF := 1e-3) : PyM PF := do
  let Dn50 ← check_usage_Dn50_or_M50 (Dn50 := Dn50) (M50 := M50) (rho_rock := rho_armour)
  let Hs_init := smm10_init * npow Tmm10 2 * g / (2 * PF.pi)
  let ksi_mm10 := calculate_Iribarren_number_ksi (H := Hs_init) (T := Tmm10) (cot_alpha := cot_alpha)
  let Delta := calculate_buoyant_density_Delta (rho_rock := rho_armour) (rho_water := 1025)
  let s := whileIter max_iter (fun s => s.diff > tolerance)
    (height_step Tmm10 N_waves cot_alpha S Dn50 c_pl g Delta)
    { diff := pinf, prev := Hs_init, ksi := ksi_mm10, Hs := none }
  match s.Hs with
  | none => PyM.raise .unboundLocal
  | some Hs => do
    check_validity_range (Hs := Hs) (Tmm10 := Tmm10) (N_waves := N_waves) (cot_alpha := cot_alpha)
    pure Hs

end Jumelet2024

namespace Scaravaglione2025

/-- scaravaglione2025.py 9-124 -/
def check_validity_range (Hm0 Tmm10 N_waves cot_alpha P Dn50 Dn50_core rho_armour : PF := nan)
    (rho_water : PF := 1025.0) : PyM Unit := do
  let f := "Scaravaglione et al. (2025)"
  check_if_given [P] "Notional permeability P" f P 0.37 0.55
  check_if_given [Hm0, Dn50] "Stability number Ns" f
    (calculate_stability_number_Ns (H := Hm0) (D := Dn50) (rho_rock := rho_armour)
      (rho_water := rho_water)) 1.47 3.44
  check_if_given [Hm0, Tmm10] "Wave steepness s_m-1,0" f
    (calculate_wave_steepness_s (H := Hm0) (T := Tmm10)) 0.020 0.049
  check_if_given [Hm0, Tmm10, cot_alpha] "Iribarren number ksi_m-1,0" f
    (calculate_Iribarren_number_ksi (H := Hm0) (T := Tmm10) (cot_alpha := cot_alpha)) 1.3 15.0
  check_if_given [cot_alpha] "Cotangent of outer structure slope cot_alpha" f cot_alpha 2.0 2.0
  check_if_given [N_waves] "Number of waves N_waves" f N_waves 652 4064
  check_if_given [Dn50, Dn50_core] "Ratio core to armour Dn50_core / Dn50" f (Dn50_core / Dn50)
    0.21 0.71

/-- scaravaglione2025.py 127-209 -/
def calculate_damage_number_S (Hm0 Tmm10 N_waves cot_alpha rho_armour rho_core : PF)
    (Dn50 Dn50_core M50 M50_core : PF := nan) (c_VGnew : PF := 3.3) (rho_water : PF := 1025.0) :
    PyM PF := do
  let Dn50 ← check_usage_Dn50_or_M50 (Dn50 := Dn50) (M50 := M50) (rho_rock := rho_armour)
  let Dn50_core ← check_usage_Dn50_or_M50 (Dn50 := Dn50_core) (M50 := M50_core)
    (rho_rock := rho_core)
  let s_mm10 := calculate_wave_steepness_s (H := Hm0) (T := Tmm10)
  let Ns := calculate_stability_number_Ns (H := Hm0) (D := Dn50) (rho_rock := rho_armour)
    (rho_water := rho_water)
  let S := npow ((1 / c_VGnew) * npow s_mm10 (-0.1) * PF.sqrt (1 / cot_alpha) * Ns
    * (1.0 / (1 + Dn50_core / Dn50))) 5 * PF.sqrt N_waves
  check_validity_range (Hm0 := Hm0) (Tmm10 := Tmm10) (N_waves := N_waves) (cot_alpha := cot_alpha)
    (Dn50 := Dn50) (Dn50_core := Dn50_core) (rho_armour := rho_armour)
  pure S

/-- scaravaglione2025.py 212-284 -/
def calculate_nominal_rock_diameter_Dn50 (Hm0 Tmm10 N_waves cot_alpha rho_armour rho_core S : PF)
    (Dn50_core M50_core : PF := nan) (c_VGnew : PF := 3.3) (rho_water : PF := 1025.0) :
    PyM PF := do
  let Dn50_core ← check_usage_Dn50_or_M50 (Dn50 := Dn50_core) (M50 := M50_core)
    (rho_rock := rho_core)
  let s_mm10 := calculate_wave_steepness_s (H := Hm0) (T := Tmm10)
  let Delta := calculate_buoyant_density_Delta (rho_rock := rho_armour) (rho_water := rho_water)
  let Dn50 := (Hm0 / Delta) * (1 / c_VGnew) * npow (S / PF.sqrt N_waves) (-0.2)
    * (1 / PF.sqrt cot_alpha) * npow s_mm10 (-0.1) - Dn50_core
  check_validity_range (Hm0 := Hm0) (Tmm10 := Tmm10) (N_waves := N_waves) (cot_alpha := cot_alpha)
    (Dn50 := Dn50) (Dn50_core := Dn50_core) (rho_armour := rho_armour)
  pure Dn50

/-- scaravaglione2025.py 287-372 -/
def calculate_significant_wave_height_Hm0 (Tmm10 N_waves cot_alpha rho_armour rho_core S : PF)
    (Dn50 Dn50_core M50 M50_core : PF := nan) (c_VGnew : PF := 3.3) (g : PF := 9.81)
    (rho_water : PF := 1025.0) : PyM PF := do
  let Dn50 ← check_usage_Dn50_or_M50 Dn50 M50 rho_armour
  let Dn50_core ← check_usage_Dn50_or_M50 (Dn50 := Dn50_core) (M50 := M50_core)
    (rho_rock := rho_core)
  let Delta := calculate_buoyant_density_Delta (rho_rock := rho_armour) (rho_water := rho_water)
  let Hm0 := npow (Delta * Dn50 * c_VGnew * PF.sqrt cot_alpha * (1 + Dn50_core / Dn50)
    * npow (2 * PF.pi / (g * npow Tmm10 2)) 0.1 * npow (S / PF.sqrt N_waves) 0.2) (1.0 / 0.9)
  check_validity_range (Hm0 := Hm0) (Tmm10 := Tmm10) (N_waves := N_waves) (cot_alpha := cot_alpha)
    (Dn50 := Dn50) (Dn50_core := Dn50_core) (rho_armour := rho_armour)
  pure Hm0

end Scaravaglione2025

namespace KramerBurcharth

/-- kramerburcharth2004_lowcrested.py 9-37 -/
def check_validity_range (Rc Dn50 : PF := nan) : PyM Unit :=
  check_if_given [Rc, Dn50] "Relative crest height Rc / Dn50" "Kramer & Burcharth, 2004"
    (Rc / Dn50) (-3.1) 1.5

/-- variables of the loops at 79-91 and 189-201 -/
structure LoopState where
  diff : PF
  prev : PF
  cur : PF

/-- one pass of the loop at 85-91 -/
def size_step (Hs Rc Delta : PF) (s : LoopState) : LoopState :=
  let Dn50 := (1.0 / 1.36) * ((Hs / Delta) - Rc * (0.06 * (Rc / s.cur) - 0.23))
  { diff := PF.abs (Dn50 - s.prev), prev := Dn50, cur := Dn50 }

/-- kramerburcharth2004_lowcrested.py 40-97 -/
def calculate_nominal_rock_diameter_Dn50 (Hs Rc rho_armour : PF) (Ns_init : PF := 2.0)
    (max_iter : ℕ := 1000) (tolerance : PF := 1e-5) : PyM PF := do
  let Delta := calculate_buoyant_density_Delta (rho_rock := rho_armour) (rho_water := 1025)
  let s := whileIter max_iter (fun s => s.diff > tolerance) (size_step Hs Rc Delta)
    { diff := pinf, prev := pinf, cur := Hs / (Delta * Ns_init) }
  check_validity_range (Rc := Rc) (Dn50 := s.cur)
  pure s.cur

/-- kramerburcharth2004_lowcrested.py 100-142 -/
def calculate_significant_wave_height_Hs (Rc rho_armour : PF) (Dn50 M50 : PF := nan) : PyM PF := do
  let Dn50 ← check_usage_Dn50_or_M50 (Dn50 := Dn50) (M50 := M50) (rho_rock := rho_armour)
  let Delta := calculate_buoyant_density_Delta (rho_rock := rho_armour) (rho_water := 1025)
  let Hs := (0.06 * npow (Rc / Dn50) 2.0 - 0.23 * Rc / Dn50 + 1.36) * Delta * Dn50
  check_validity_range (Rc := Rc) (Dn50 := Dn50)
  pure Hs

/-- one pass of the loop at 195-201 -/
def freeboard_step (Hs Dn50 Delta : PF) (s : LoopState) : LoopState :=
  let Rc := ((Hs / Delta) - 1.36 * Dn50) / (0.06 * (s.cur / Dn50) - 0.23)
  { diff := PF.abs (Rc - s.prev), prev := Rc, cur := Rc }

/-- kramerburcharth2004_lowcrested.py 145-207 -/
def calculate_crest_freeboard_Rc (Hs rho_armour : PF) (Dn50 M50 : PF := nan)
    (Rc_Dn50_init : PF := -1.0) (max_iter : ℕ := 1000) (tolerance : PF := 1e-5) : PyM PF := do
  let Dn50 ← check_usage_Dn50_or_M50 (Dn50 := Dn50) (M50 := M50) (rho_rock := rho_armour)
  let Delta := calculate_buoyant_density_Delta (rho_rock := rho_armour) (rho_water := 1025)
  let s := whileIter max_iter (fun s => s.diff > tolerance) (freeboard_step Hs Dn50 Delta)
    { diff := pinf, prev := pinf, cur := Rc_Dn50_init * Dn50 }
  check_validity_range (Rc := s.cur) (Dn50 := Dn50)
  pure s.cur

end KramerBurcharth
end
