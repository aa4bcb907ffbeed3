import Verif.Model.CorePhysics

/-! # Model of `functions/structural/stability_rock_armour/hudson1959.py` -/

open Classical
open PF (nan npow)
open CorePhysics
noncomputable section
namespace Hudson1959

/-- hudson1959.py 13-60 -/
def calculate_median_rock_mass_M50_no_damage (Hs rho_water rho_armour KD cot_alpha : PF)
    (alpha_Hs : PF := 1.27) : PF :=
  let H_use := Hs * alpha_Hs
  let Delta := calculate_buoyant_density_Delta rho_armour rho_water
  (rho_armour * npow H_use 3) / (KD * npow Delta 3 * cot_alpha)

/-- hudson1959.py 63-109 -/
def calculate_significant_wave_height_Hs_no_damage (M50 rho_water rho_armour KD cot_alpha : PF)
    (alpha_Hs : PF := 1.27) : PF :=
  let Delta := calculate_buoyant_density_Delta rho_armour rho_water
  (Delta / alpha_Hs) * npow ((M50 * KD * cot_alpha) / rho_armour) (1 / 3)

/-- hudson1959.py 136 -/
def percentages : List PF := [0, 5, 10, 15, 20, 30, 40, 50, 100]
/-- hudson1959.py 137 -/
def mult_factors_rough : List PF := [1.0, 1.0, 1.08, 1.14, 1.20, 1.29, 1.41, 1.54, 1.54]
/-- hudson1959.py 138 -/
def mult_factors_smooth : List PF := [1.0, 1.0, 1.08, 1.19, 1.27, 1.37, 1.47, 1.56, 1.56]

/-- `np.searchsorted(a, v, "right")` for sorted `a`: the number of leading entries `≤ v` (NumPy sorts
NaN last, so a NaN `v` yields the length). -/
def searchsorted_right (a : List PF) (v : PF) : ℕ :=
  if v.isnan then a.length else (a.takeWhile fun x => decide (x ≤ v)).length

/-- `arr[ind]` for a non-negative index: IndexError beyond the end -/
def index (arr : List PF) (ind : ℕ) : PyM PF :=
  match arr[ind]? with
  | some x => pure x
  | none => PyM.raise .indexError

/-- `str.lower().strip()` (ASCII lower-casing and trimming of white space; Python also folds
non-ASCII letters, which no accepted value contains). -/
def norm (s : String) : String :=
  String.ofList ((((s.toList.map Char.toLower).dropWhile Char.isWhitespace).reverse.dropWhile
    Char.isWhitespace).reverse)

/-- hudson1959.py 112-148 -/
def lookup_table_damage_factors (damage_percentage : PF) (rock_type : String := "rough") : PyM PF :=
  let ind := searchsorted_right percentages damage_percentage
  if norm rock_type = "rough" then index mult_factors_rough ind
  else if norm rock_type = "smooth" then index mult_factors_smooth ind
  else PyM.raise .valueError

/-- hudson1959.py 151-212 -/
def calculate_median_rock_mass_M50 (Hs rho_water rho_armour KD cot_alpha damage_percentage : PF)
    (rock_type : String := "rough") (alpha_Hs : PF := 1.27) : PyM PF := do
  let mult_factor ← lookup_table_damage_factors damage_percentage rock_type
  let M50 := calculate_median_rock_mass_M50_no_damage Hs rho_water rho_armour KD cot_alpha alpha_Hs
  pure (M50 / npow mult_factor 3)

/-- hudson1959.py 215-276 -/
def calculate_significant_wave_height_Hs (M50 rho_water rho_armour KD cot_alpha
    damage_percentage : PF) (rock_type : String := "rough") (alpha_Hs : PF := 1.27) : PyM PF := do
  let mult_factor ← lookup_table_damage_factors damage_percentage rock_type
  let Hs := calculate_significant_wave_height_Hs_no_damage M50 rho_water rho_armour KD cot_alpha
    alpha_Hs
  pure (Hs * mult_factor)

end Hudson1959
end
