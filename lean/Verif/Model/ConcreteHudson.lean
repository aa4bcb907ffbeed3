import Verif.Model.CoreUtility
import Verif.Model.Hudson1959

/-! # Models of the Hudson-type concrete armour wrappers in
`functions/structural/stability_concrete_armour/` -/

open Classical
open PF (nan npow)
open CorePhysics CoreUtility
noncomputable section

/-- One row-by-row step of `np.interp` for a finite abscissa and an increasing table: constant before
the first and after the last point, linear in between (`slope*(x - xj) + yj`). -/
def interpR (x : ℝ) : List (ℝ × ℝ) → ℝ
  | [] => 0
  | [(_, y)] => y
  | (x0, y0) :: (x1, y1) :: r =>
    if x ≤ x0 then y0
    else if x < x1 then (y1 - y0) / (x1 - x0) * (x - x0) + y0
    else interpR x ((x1, y1) :: r)

/-- `np.interp(x, xp, fp)` for a scalar `x`; the table is a list of points.  NaN gives NaN. -/
def np_interp (x : PF) (table : List (ℝ × ℝ)) : PF :=
  match x with
  | .nan => .nan
  | .ninf => .fin (table.head?.map Prod.snd |>.getD 0)
  | .pinf => .fin (table.getLast?.map Prod.snd |>.getD 0)
  | .fin x => .fin (interpR x table)

namespace Accropode

/-- accropode_hudson1959.py 21-63 -/
def check_validity_range (cot_alpha seabed_slope_perc : PF := nan) : PyM Unit := do
  check_if_given [cot_alpha] "Cotangent of the front-side slope of the structure"
    "Accropodes Hudson 1959" cot_alpha 1.33 1.5
  check_if_given [seabed_slope_perc] "Seabed slope in percentage" "Accropode documentation"
    seabed_slope_perc 0 10

/-- accropode_hudson1959.py 66-127 -/
def calculate_unit_mass_M (Hs rho_water rho_armour KD : PF) (cot_alpha : PF := 1.33)
    (alpha_Hs : PF := 1.0) : PyM PF := do
  let r := Hudson1959.calculate_median_rock_mass_M50_no_damage (Hs := Hs)
    (rho_water := rho_water) (rho_armour := rho_armour) (KD := KD) (cot_alpha := cot_alpha)
    (alpha_Hs := alpha_Hs)
  check_validity_range (cot_alpha := cot_alpha)
  pure r

/-- accropode_hudson1959.py 130-191 -/
def calculate_significant_wave_height_Hs (M rho_water rho_armour KD : PF) (cot_alpha : PF := 1.33)
    (alpha_Hs : PF := 1.0) : PyM PF := do
  let r := Hudson1959.calculate_significant_wave_height_Hs_no_damage (M50 := M)
    (rho_water := rho_water) (rho_armour := rho_armour) (KD := KD) (cot_alpha := cot_alpha)
    (alpha_Hs := alpha_Hs)
  check_validity_range (cot_alpha := cot_alpha)
  pure r

/-- accropode_hudson1959.py 194-224 -/
def calculate_KD_breaking_trunk_from_seabed_slope (seabed_slope_perc : PF) : PyM PF := do
  let seabed_slope_KD := np_interp seabed_slope_perc [(0, 15), (1, 15), (5, 9.7), (10, 8)]
  let seabed_slope_KD := PF.floor (seabed_slope_KD / 0.1) * 0.1
  check_validity_range (seabed_slope_perc := seabed_slope_perc)
  pure seabed_slope_KD

/-- accropode_hudson1959.py 227-245 -/
def calculate_KD_nonbreaking_trunk_from_seabed_slope : PF := 15.0

end Accropode

namespace Accropode2

/-- accropode2_hudson1959.py 20-69 -/
def check_validity_range (cot_alpha seabed_slope_perc : PF := nan) : PyM Unit := do
  check_if_given [cot_alpha] "Cotangent of the front-side slope of the structure"
    "Accropode II Hudson 1959" cot_alpha 1.33 1.5
  check_if_given [seabed_slope_perc] "Seabed slope in percentage" "Accropode II documentation"
    seabed_slope_perc 0 10

/-- accropode2_hudson1959.py 72-130 -/
def calculate_unit_mass_M (Hs rho_water rho_armour KD : PF) (cot_alpha : PF := 1.33)
    (alpha_Hs : PF := 1.0) : PyM PF := do
  let r := Hudson1959.calculate_median_rock_mass_M50_no_damage (Hs := Hs)
    (rho_water := rho_water) (rho_armour := rho_armour) (KD := KD) (cot_alpha := cot_alpha)
    (alpha_Hs := alpha_Hs)
  check_validity_range (cot_alpha := cot_alpha)
  pure r

/-- accropode2_hudson1959.py 133-191 -/
def calculate_significant_wave_height_Hs (M rho_water rho_armour KD : PF) (cot_alpha : PF := 1.33)
    (alpha_Hs : PF := 1.0) : PyM PF := do
  let r := Hudson1959.calculate_significant_wave_height_Hs_no_damage (M50 := M)
    (rho_water := rho_water) (rho_armour := rho_armour) (KD := KD) (cot_alpha := cot_alpha)
    (alpha_Hs := alpha_Hs)
  check_validity_range (cot_alpha := cot_alpha)
  pure r

/-- accropode2_hudson1959.py 194-224 -/
def calculate_KD_breaking_trunk_from_seabed_slope (seabed_slope_perc : PF) : PyM PF := do
  let seabed_slope_KD := np_interp seabed_slope_perc [(0, 16), (1, 16), (5, 10.66), (10, 9)]
  let seabed_slope_KD := PF.floor (seabed_slope_KD / 0.1) * 0.1
  check_validity_range (seabed_slope_perc := seabed_slope_perc)
  pure seabed_slope_KD

/-- accropode2_hudson1959.py 227-245 -/
def calculate_KD_nonbreaking_trunk_from_seabed_slope : PF := 16.0

end Accropode2

namespace CoreLoc

/-- core_loc_hudson1959.py 19-61 -/
def check_validity_range (cot_alpha seabed_slope_perc : PF := nan) : PyM Unit := do
  check_if_given [cot_alpha] "Cotangent of the front-side slope of the structure"
    "Core Loc Hudson 1959" cot_alpha 1.33 1.5
  check_if_given [seabed_slope_perc] "Seabed slope in percentage" "Core Loc documentation"
    seabed_slope_perc 0 10

/-- core_loc_hudson1959.py 64-121 (no validity check) -/
def calculate_unit_mass_M (Hs rho_water rho_armour KD : PF) (cot_alpha : PF := 1.33)
    (alpha_Hs : PF := 1.0) : PF :=
  Hudson1959.calculate_median_rock_mass_M50_no_damage (Hs := Hs)
    (rho_water := rho_water) (rho_armour := rho_armour) (KD := KD) (cot_alpha := cot_alpha)
    (alpha_Hs := alpha_Hs)

/-- core_loc_hudson1959.py 124-181 (no validity check) -/
def calculate_significant_wave_height_Hs (M rho_water rho_armour KD : PF) (cot_alpha : PF := 1.33)
    (alpha_Hs : PF := 1.0) : PF :=
  Hudson1959.calculate_significant_wave_height_Hs_no_damage (M50 := M)
    (rho_water := rho_water) (rho_armour := rho_armour) (KD := KD) (cot_alpha := cot_alpha)
    (alpha_Hs := alpha_Hs)

/-- core_loc_hudson1959.py 184-214 -/
def calculate_KD_breaking_trunk_from_seabed_slope (seabed_slope_perc : PF) : PyM PF := do
  let seabed_slope_KD := np_interp seabed_slope_perc [(0, 16), (1, 16), (5, 10.66), (10, 9)]
  let seabed_slope_KD := PF.floor (seabed_slope_KD / 0.1) * 0.1
  check_validity_range (seabed_slope_perc := seabed_slope_perc)
  pure seabed_slope_KD

/-- core_loc_hudson1959.py 217-235 -/
def calculate_KD_nonbreaking_trunk_from_seabed_slope : PF := 16.0

end CoreLoc

namespace CubesHudson

/-- cubes_double_layer_hudson1959.py 22-24 (`pass`) -/
def check_validity_range : PyM Unit := pure ()

/-- cubes_double_layer_hudson1959.py 27-76 -/
def calculate_unit_mass_M (Hs rho_water rho_armour KD : PF) (cot_alpha : PF)
    (alpha_Hs : PF := 1.0) : PF :=
  Hudson1959.calculate_median_rock_mass_M50_no_damage (Hs := Hs)
    (rho_water := rho_water) (rho_armour := rho_armour) (KD := KD) (cot_alpha := cot_alpha)
    (alpha_Hs := alpha_Hs)

/-- cubes_double_layer_hudson1959.py 79-128 -/
def calculate_significant_wave_height_Hs (M rho_water rho_armour KD : PF) (cot_alpha : PF)
    (alpha_Hs : PF := 1.0) : PF :=
  Hudson1959.calculate_significant_wave_height_Hs_no_damage (M50 := M)
    (rho_water := rho_water) (rho_armour := rho_armour) (KD := KD) (cot_alpha := cot_alpha)
    (alpha_Hs := alpha_Hs)

end CubesHudson

namespace Cubipod

/-- cubipod_hudson1959.py 19-21 (`pass`) -/
def check_validity_range : PyM Unit := pure ()

/-- cubipod_hudson1959.py 24-73 -/
def calculate_unit_mass_M (Hs rho_water rho_armour KD : PF) (cot_alpha : PF := 1.33)
    (alpha_Hs : PF := 1.0) : PF :=
  Hudson1959.calculate_median_rock_mass_M50_no_damage (Hs := Hs)
    (rho_water := rho_water) (rho_armour := rho_armour) (KD := KD) (cot_alpha := cot_alpha)
    (alpha_Hs := alpha_Hs)

/-- cubipod_hudson1959.py 76-126 -/
def calculate_significant_wave_height_Hs (M rho_water rho_armour KD : PF) (cot_alpha : PF := 1.33)
    (alpha_Hs : PF := 1.0) : PF :=
  Hudson1959.calculate_significant_wave_height_Hs_no_damage (M50 := M)
    (rho_water := rho_water) (rho_armour := rho_armour) (KD := KD) (cot_alpha := cot_alpha)
    (alpha_Hs := alpha_Hs)

end Cubipod

namespace Tetrapod

/-- tetrapod_hudson1959.py 20-22 (`pass`) -/
def check_validity_range : PyM Unit := pure ()

/-- tetrapod_hudson1959.py 25-75 -/
def calculate_unit_mass_M (Hs rho_water rho_armour KD : PF) (cot_alpha : PF)
    (alpha_Hs : PF := 1.0) : PF :=
  Hudson1959.calculate_median_rock_mass_M50_no_damage (Hs := Hs)
    (rho_water := rho_water) (rho_armour := rho_armour) (KD := KD) (cot_alpha := cot_alpha)
    (alpha_Hs := alpha_Hs)

/-- tetrapod_hudson1959.py 78-128 -/
def calculate_significant_wave_height_Hs (M rho_water rho_armour KD : PF) (cot_alpha : PF)
    (alpha_Hs : PF := 1.0) : PF :=
  Hudson1959.calculate_significant_wave_height_Hs_no_damage (M50 := M)
    (rho_water := rho_water) (rho_armour := rho_armour) (KD := KD) (cot_alpha := cot_alpha)
    (alpha_Hs := alpha_Hs)

end Tetrapod

end
