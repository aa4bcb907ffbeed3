import Verif.Model.CorePhysics

/-! # Models of `xbloc.py` and `xblocplus.py` in `functions/structural/stability_concrete_armour/` -/

open Classical
open PF (nan npow)
open CorePhysics
noncomputable section

namespace Xbloc

/-- xbloc.py 22-55 -/
def calculate_wave_height_Hs_from_V (V rho_water rho_armour : PF)
    (total_correction_factor : PF := 1.0) : PF :=
  let Delta := calculate_buoyant_density_Delta (rho_rock := rho_armour) (rho_water := rho_water)
  let V := V / total_correction_factor
  (npow V (1 / 3)) * 2.77 * Delta

/-- xbloc.py 58-98 -/
def calculate_wave_height_Hs_from_M (M rho_water rho_armour : PF)
    (total_correction_factor : PF := 1.0) : PF :=
  let V := M / rho_armour
  calculate_wave_height_Hs_from_V (V := V) (rho_armour := rho_armour) (rho_water := rho_water)
    (total_correction_factor := total_correction_factor)

/-- xbloc.py 101-143 -/
def calculate_unit_volume_V (Hs rho_water rho_armour : PF)
    (total_correction_factor : PF := 1.0) : PF :=
  let Delta := calculate_buoyant_density_Delta (rho_rock := rho_armour) (rho_water := rho_water)
  total_correction_factor * npow (Hs / (2.77 * Delta)) 3

/-- xbloc.py 146-186 -/
def calculate_unit_mass_M (Hs rho_water rho_armour : PF)
    (total_correction_factor : PF := 1.0) : PF :=
  let V := calculate_unit_volume_V (Hs := Hs) (rho_water := rho_water) (rho_armour := rho_armour)
    (total_correction_factor := total_correction_factor)
  V * rho_armour

/-- xbloc.py 189-223 -/
def calculate_correctionfactor_unit_mass_M_by_cotalpha_seabed (cot_alpha : PF) : PF :=
  if cot_alpha ≤ 30 ∧ cot_alpha > 20 then 1.1
  else if cot_alpha ≤ 20 ∧ cot_alpha > 15 then 1.25
  else if cot_alpha ≤ 15 ∧ cot_alpha > 10 then 1.5
  else if cot_alpha ≤ 10 then 2.0
  else 1.0

/-- xbloc.py 226-256 -/
def calculate_correctionfactor_unit_mass_M_by_percslope_seabed (perc_slope : PF) : PF :=
  let cot_alpha := 100 / perc_slope
  calculate_correctionfactor_unit_mass_M_by_cotalpha_seabed cot_alpha

/-- xbloc.py 259-281 -/
def calculate_correctionfactor_unit_mass_M_by_relative_freeboard (rel_freeboard : PF) : PF :=
  if rel_freeboard < 0.5 then 2.0
  else if rel_freeboard < 1.0 then 1.5
  else 1.0

/-- xbloc.py 284-307 (two consecutive `if`s: the second overrides the first) -/
def calculate_correctionfactor_unit_mass_M_by_rel_depth (rel_depth : PF) : PF :=
  let correction_factor : PF := 1.0
  let correction_factor := if rel_depth > 2.5 then (1.5 : PF) else correction_factor
  let correction_factor := if rel_depth > 3.5 then (2.0 : PF) else correction_factor
  correction_factor

/-- xbloc.py 310-331 -/
def switch_correction_factor_unit_mass_M_near_design_event_frequency
    (design_event_occurs_frequently : Bool := false) : PF :=
  if design_event_occurs_frequently then 1.25 else 1.0

/-- xbloc.py 334-360 -/
def switch_correctionfactor_unit_mass_M_by_core_permeability (low_core_permeability : Bool := false)
    (core_impermeable : Bool := false) : PF :=
  let correction_factor : PF := 1.0
  let correction_factor := if low_core_permeability then (1.5 : PF) else correction_factor
  let correction_factor := if core_impermeable then (2.0 : PF) else correction_factor
  correction_factor

/-- xbloc.py 363-385 -/
def calculate_correctionfactor_unit_mass_M_by_structure_slope (cot_alpha : PF) : PF :=
  if cot_alpha > 2 / 3 then 1.25
  else if cot_alpha > 1 / 2 then 1.5
  else 1.0

end Xbloc

namespace XblocPlus

/-- xblocplus.py 21-54 -/
def calculate_wave_height_Hs_from_V (V rho_water rho_armour : PF)
    (total_correction_factor : PF := 1.0) : PF :=
  let Delta := calculate_buoyant_density_Delta (rho_rock := rho_armour) (rho_water := rho_water)
  let V := V / total_correction_factor
  (npow V (1 / 3)) * 2.5 * Delta

/-- xblocplus.py 57-97 -/
def calculate_wave_height_Hs_from_M (M rho_water rho_armour : PF)
    (total_correction_factor : PF := 1.0) : PF :=
  let V := M / rho_armour
  calculate_wave_height_Hs_from_V (V := V) (rho_armour := rho_armour) (rho_water := rho_water)
    (total_correction_factor := total_correction_factor)

/-- xblocplus.py 100-142 -/
def calculate_unit_volume_V (Hs rho_water rho_armour : PF)
    (total_correction_factor : PF := 1.0) : PF :=
  let Delta := calculate_buoyant_density_Delta (rho_rock := rho_armour) (rho_water := rho_water)
  total_correction_factor * npow (Hs / (2.5 * Delta)) 3

/-- xblocplus.py 145-185 -/
def calculate_unit_mass_M (Hs rho_water rho_armour : PF)
    (total_correction_factor : PF := 1.0) : PF :=
  let V := calculate_unit_volume_V (Hs := Hs) (rho_water := rho_water) (rho_armour := rho_armour)
    (total_correction_factor := total_correction_factor)
  V * rho_armour

/-- xblocplus.py 188-222 -/
def calculate_correctionfactor_unit_mass_M_by_cotalpha_seabed (cot_alpha : PF) : PF :=
  if cot_alpha ≤ 30 ∧ cot_alpha > 20 then 1.1
  else if cot_alpha ≤ 20 ∧ cot_alpha > 15 then 1.25
  else if cot_alpha ≤ 15 ∧ cot_alpha > 10 then 1.5
  else if cot_alpha ≤ 10 then 2.0
  else 1.0

/-- xblocplus.py 225-255 -/
def calculate_correctionfactor_unit_mass_M_by_percslope_seabed (perc_slope : PF) : PF :=
  let cot_alpha := 100 / perc_slope
  calculate_correctionfactor_unit_mass_M_by_cotalpha_seabed cot_alpha

/-- xblocplus.py 258-280 -/
def calculate_correctionfactor_unit_mass_M_by_relative_freeboard (rel_freeboard : PF) : PF :=
  if rel_freeboard < 0.5 then 1.5
  else if rel_freeboard < 1.0 then 1.25
  else 1.0

/-- xblocplus.py 283-309 -/
def switch_correctionfactor_unit_mass_M_by_core_permeability (low_core_permeability : Bool := false)
    (core_impermeable : Bool := false) : PF :=
  let correction_factor : PF := 1.0
  let correction_factor := if low_core_permeability then (1.25 : PF) else correction_factor
  let correction_factor := if core_impermeable then (1.5 : PF) else correction_factor
  correction_factor

end XblocPlus

end
