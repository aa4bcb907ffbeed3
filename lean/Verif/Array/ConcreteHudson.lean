import Verif.Array.Hudson1959
import Verif.Model.ConcreteHudson

/-! # Models of the Hudson-type concrete armour wrappers in
`functions/structural/stability_concrete_armour/`

The same functions called with arrays. -/

open Classical
open Val (nan npow whr pinf)
open Arr.CorePhysics Arr.CoreUtility
noncomputable section
namespace Arr
variable {n : ℕ}

/-- `np.interp(x, xp, fp)`: entry by entry -/
def np_interp (x : Val n) (table : List (ℝ × ℝ)) : Val n :=
  x.lift1 fun x => _root_.np_interp x table

namespace Accropode

/-- accropode_hudson1959.py 21-63 -/
def check_validity_range (cot_alpha seabed_slope_perc : Val n := nan) : PyM Unit := do
  check_if_given [cot_alpha] "Cotangent of the front-side slope of the structure"
    "Accropodes Hudson 1959" cot_alpha 1.33 1.5
  check_if_given [seabed_slope_perc] "Seabed slope in percentage" "Accropode documentation"
    seabed_slope_perc 0 10

/-- accropode_hudson1959.py 66-127 -/
def calculate_unit_mass_M (Hs rho_water rho_armour KD : Val n) (cot_alpha : Val n := 1.33)
    (alpha_Hs : Val n := 1.0) : PyM (Val n) := do
  let r := Hudson1959.calculate_median_rock_mass_M50_no_damage (Hs := Hs)
    (rho_water := rho_water) (rho_armour := rho_armour) (KD := KD) (cot_alpha := cot_alpha)
    (alpha_Hs := alpha_Hs)
  check_validity_range (cot_alpha := cot_alpha)
  pure r

/-- accropode_hudson1959.py 130-191 -/
def calculate_significant_wave_height_Hs (M rho_water rho_armour KD : Val n) (cot_alpha : Val n := 1.33)
    (alpha_Hs : Val n := 1.0) : PyM (Val n) := do
  let r := Hudson1959.calculate_significant_wave_height_Hs_no_damage (M50 := M)
    (rho_water := rho_water) (rho_armour := rho_armour) (KD := KD) (cot_alpha := cot_alpha)
    (alpha_Hs := alpha_Hs)
  check_validity_range (cot_alpha := cot_alpha)
  pure r

/-- accropode_hudson1959.py 194-224 -/
def calculate_KD_breaking_trunk_from_seabed_slope (seabed_slope_perc : Val n) : PyM (Val n) := do
  let seabed_slope_KD := np_interp seabed_slope_perc [(0, 15), (1, 15), (5, 9.7), (10, 8)]
  let seabed_slope_KD := Val.floor (seabed_slope_KD / 0.1) * 0.1
  check_validity_range (seabed_slope_perc := seabed_slope_perc)
  pure seabed_slope_KD

/-- accropode_hudson1959.py 227-245 -/
def calculate_KD_nonbreaking_trunk_from_seabed_slope : Val n := 15.0

end Accropode

namespace Accropode2

/-- accropode2_hudson1959.py 20-69 -/
def check_validity_range (cot_alpha seabed_slope_perc : Val n := nan) : PyM Unit := do
  check_if_given [cot_alpha] "Cotangent of the front-side slope of the structure"
    "Accropode II Hudson 1959" cot_alpha 1.33 1.5
  check_if_given [seabed_slope_perc] "Seabed slope in percentage" "Accropode II documentation"
    seabed_slope_perc 0 10

/-- accropode2_hudson1959.py 72-130 -/
def calculate_unit_mass_M (Hs rho_water rho_armour KD : Val n) (cot_alpha : Val n := 1.33)
    (alpha_Hs : Val n := 1.0) : PyM (Val n) := do
  let r := Hudson1959.calculate_median_rock_mass_M50_no_damage (Hs := Hs)
    (rho_water := rho_water) (rho_armour := rho_armour) (KD := KD) (cot_alpha := cot_alpha)
    (alpha_Hs := alpha_Hs)
  check_validity_range (cot_alpha := cot_alpha)
  pure r

/-- accropode2_hudson1959.py 133-191 -/
def calculate_significant_wave_height_Hs (M rho_water rho_armour KD : Val n) (cot_alpha : Val n := 1.33)
    (alpha_Hs : Val n := 1.0) : PyM (Val n) := do
  let r := Hudson1959.calculate_significant_wave_height_Hs_no_damage (M50 := M)
    (rho_water := rho_water) (rho_armour := rho_armour) (KD := KD) (cot_alpha := cot_alpha)
    (alpha_Hs := alpha_Hs)
  check_validity_range (cot_alpha := cot_alpha)
  pure r

/-- accropode2_hudson1959.py 194-224 -/
def calculate_KD_breaking_trunk_from_seabed_slope (seabed_slope_perc : Val n) : PyM (Val n) := do
  let seabed_slope_KD := np_interp seabed_slope_perc [(0, 16), (1, 16), (5, 10.66), (10, 9)]
  let seabed_slope_KD := Val.floor (seabed_slope_KD / 0.1) * 0.1
  check_validity_range (seabed_slope_perc := seabed_slope_perc)
  pure seabed_slope_KD

/-- accropode2_hudson1959.py 227-245 -/
def calculate_KD_nonbreaking_trunk_from_seabed_slope : Val n := 16.0

end Accropode2

namespace CoreLoc

/-- core_loc_hudson1959.py 19-61 -/
def check_validity_range (cot_alpha seabed_slope_perc : Val n := nan) : PyM Unit := do
  check_if_given [cot_alpha] "Cotangent of the front-side slope of the structure"
    "Core Loc Hudson 1959" cot_alpha 1.33 1.5
  check_if_given [seabed_slope_perc] "Seabed slope in percentage" "Core Loc documentation"
    seabed_slope_perc 0 10

/-- core_loc_hudson1959.py 64-121 (no validity check) -/
def calculate_unit_mass_M (Hs rho_water rho_armour KD : Val n) (cot_alpha : Val n := 1.33)
    (alpha_Hs : Val n := 1.0) : Val n :=
  Hudson1959.calculate_median_rock_mass_M50_no_damage (Hs := Hs)
    (rho_water := rho_water) (rho_armour := rho_armour) (KD := KD) (cot_alpha := cot_alpha)
    (alpha_Hs := alpha_Hs)

/-- core_loc_hudson1959.py 124-181 (no validity check) -/
def calculate_significant_wave_height_Hs (M rho_water rho_armour KD : Val n) (cot_alpha : Val n := 1.33)
    (alpha_Hs : Val n := 1.0) : Val n :=
  Hudson1959.calculate_significant_wave_height_Hs_no_damage (M50 := M)
    (rho_water := rho_water) (rho_armour := rho_armour) (KD := KD) (cot_alpha := cot_alpha)
    (alpha_Hs := alpha_Hs)

/-- core_loc_hudson1959.py 184-214 -/
def calculate_KD_breaking_trunk_from_seabed_slope (seabed_slope_perc : Val n) : PyM (Val n) := do
  let seabed_slope_KD := np_interp seabed_slope_perc [(0, 16), (1, 16), (5, 10.66), (10, 9)]
  let seabed_slope_KD := Val.floor (seabed_slope_KD / 0.1) * 0.1
  check_validity_range (seabed_slope_perc := seabed_slope_perc)
  pure seabed_slope_KD

/-- core_loc_hudson1959.py 217-235 -/
def calculate_KD_nonbreaking_trunk_from_seabed_slope : Val n := 16.0

end CoreLoc

namespace CubesHudson

/-- cubes_double_layer_hudson1959.py 22-24 (`pass`) -/
def check_validity_range : PyM Unit := pure ()

/-- cubes_double_layer_hudson1959.py 27-76 -/
def calculate_unit_mass_M (Hs rho_water rho_armour KD : Val n) (cot_alpha : Val n)
    (alpha_Hs : Val n := 1.0) : Val n :=
  Hudson1959.calculate_median_rock_mass_M50_no_damage (Hs := Hs)
    (rho_water := rho_water) (rho_armour := rho_armour) (KD := KD) (cot_alpha := cot_alpha)
    (alpha_Hs := alpha_Hs)

/-- cubes_double_layer_hudson1959.py 79-128 -/
def calculate_significant_wave_height_Hs (M rho_water rho_armour KD : Val n) (cot_alpha : Val n)
    (alpha_Hs : Val n := 1.0) : Val n :=
  Hudson1959.calculate_significant_wave_height_Hs_no_damage (M50 := M)
    (rho_water := rho_water) (rho_armour := rho_armour) (KD := KD) (cot_alpha := cot_alpha)
    (alpha_Hs := alpha_Hs)

end CubesHudson

namespace Cubipod

/-- cubipod_hudson1959.py 19-21 (`pass`) -/
def check_validity_range : PyM Unit := pure ()

/-- cubipod_hudson1959.py 24-73 -/
def calculate_unit_mass_M (Hs rho_water rho_armour KD : Val n) (cot_alpha : Val n := 1.33)
    (alpha_Hs : Val n := 1.0) : Val n :=
  Hudson1959.calculate_median_rock_mass_M50_no_damage (Hs := Hs)
    (rho_water := rho_water) (rho_armour := rho_armour) (KD := KD) (cot_alpha := cot_alpha)
    (alpha_Hs := alpha_Hs)

/-- cubipod_hudson1959.py 76-126 -/
def calculate_significant_wave_height_Hs (M rho_water rho_armour KD : Val n) (cot_alpha : Val n := 1.33)
    (alpha_Hs : Val n := 1.0) : Val n :=
  Hudson1959.calculate_significant_wave_height_Hs_no_damage (M50 := M)
    (rho_water := rho_water) (rho_armour := rho_armour) (KD := KD) (cot_alpha := cot_alpha)
    (alpha_Hs := alpha_Hs)

end Cubipod

namespace Tetrapod

/-- tetrapod_hudson1959.py 20-22 (`pass`) -/
def check_validity_range : PyM Unit := pure ()

/-- tetrapod_hudson1959.py 25-75 -/
def calculate_unit_mass_M (Hs rho_water rho_armour KD : Val n) (cot_alpha : Val n)
    (alpha_Hs : Val n := 1.0) : Val n :=
  Hudson1959.calculate_median_rock_mass_M50_no_damage (Hs := Hs)
    (rho_water := rho_water) (rho_armour := rho_armour) (KD := KD) (cot_alpha := cot_alpha)
    (alpha_Hs := alpha_Hs)

/-- tetrapod_hudson1959.py 78-128 -/
def calculate_significant_wave_height_Hs (M rho_water rho_armour KD : Val n) (cot_alpha : Val n)
    (alpha_Hs : Val n := 1.0) : Val n :=
  Hudson1959.calculate_significant_wave_height_Hs_no_damage (M50 := M)
    (rho_water := rho_water) (rho_armour := rho_armour) (KD := KD) (cot_alpha := cot_alpha)
    (alpha_Hs := alpha_Hs)

end Tetrapod

end Arr
end
