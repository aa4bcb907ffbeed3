import Verif.Array.Core
import Verif.Model.Hudson1959

/-! # Model of `functions/structural/stability_rock_armour/hudson1959.py`

The same functions called with arrays. -/

open Classical
open Val (nan npow whr pinf)
open Arr.CorePhysics Arr.CoreUtility
noncomputable section
namespace Arr
variable {n : ℕ}

namespace Hudson1959

/-- hudson1959.py 13-60 -/
def calculate_median_rock_mass_M50_no_damage (Hs rho_water rho_armour KD cot_alpha : Val n)
    (alpha_Hs : Val n := 1.27) : Val n :=
  let H_use := Hs * alpha_Hs
  let Delta := calculate_buoyant_density_Delta rho_armour rho_water
  (rho_armour * npow H_use 3) / (KD * npow Delta 3 * cot_alpha)

/-- hudson1959.py 63-109 -/
def calculate_significant_wave_height_Hs_no_damage (M50 rho_water rho_armour KD cot_alpha : Val n)
    (alpha_Hs : Val n := 1.27) : Val n :=
  let Delta := calculate_buoyant_density_Delta rho_armour rho_water
  (Delta / alpha_Hs) * npow ((M50 * KD * cot_alpha) / rho_armour) (1 / 3)

/-- hudson1959.py 140-144: `np.searchsorted` finds the index of every entry, and taking the table
values at an array of indices raises `IndexError` if one of them is beyond the end.  The table and the
search are those of `Hudson1959`. -/
def take (factors : List PF) : Val n → PyM (Val n)
  | .num p => do
    let x ← _root_.Hudson1959.index factors
      (_root_.Hudson1959.searchsorted_right _root_.Hudson1959.percentages p)
    pure (.num x)
  | .arr p =>
    let ind i := _root_.Hudson1959.searchsorted_right _root_.Hudson1959.percentages (p i)
    if ∀ i, ind i < factors.length then pure (.arr fun i => factors.getD (ind i) PF.nan)
    else PyM.raise .indexError

/-- hudson1959.py 112-148 -/
def lookup_table_damage_factors (damage_percentage : Val n) (rock_type : String := "rough") :
    PyM (Val n) :=
  if _root_.Hudson1959.norm rock_type = "rough" then
    take _root_.Hudson1959.mult_factors_rough damage_percentage
  else if _root_.Hudson1959.norm rock_type = "smooth" then
    take _root_.Hudson1959.mult_factors_smooth damage_percentage
  else PyM.raise .valueError

/-- hudson1959.py 151-212 -/
def calculate_median_rock_mass_M50 (Hs rho_water rho_armour KD cot_alpha damage_percentage : Val n)
    (rock_type : String := "rough") (alpha_Hs : Val n := 1.27) : PyM (Val n) := do
  let mult_factor ← lookup_table_damage_factors damage_percentage rock_type
  let M50 := calculate_median_rock_mass_M50_no_damage Hs rho_water rho_armour KD cot_alpha alpha_Hs
  pure (M50 / npow mult_factor 3)

/-- hudson1959.py 215-276 -/
def calculate_significant_wave_height_Hs (M50 rho_water rho_armour KD cot_alpha
    damage_percentage : Val n) (rock_type : String := "rough") (alpha_Hs : Val n := 1.27) : PyM (Val n) := do
  let mult_factor ← lookup_table_damage_factors damage_percentage rock_type
  let Hs := calculate_significant_wave_height_Hs_no_damage M50 rho_water rho_armour KD cot_alpha
    alpha_Hs
  pure (Hs * mult_factor)

end Hudson1959
end Arr
end
