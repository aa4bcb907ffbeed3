import Verif.Model.CorePhysics
import Verif.Model.CoreUtility

/-! # Model of `structural/forces_caisson/goda1985.py` (scalar arguments)

Both return styles (`return_dict=False`: tuple, `return_dict=True`: dictionary) carry the same local
variables; they are modelled as one record per function.  `disper` is the external dispersion solver,
see `CorePhysics.calculate_local_wavelength`. -/

open Classical
open PF (nan npow whr pinf)
open CorePhysics CoreUtility
noncomputable section
namespace Goda1985

/-- goda1985.py 9-80 (returns `None` on line 80) -/
def check_validity_range (beta cota_seabed Tmax tup Bup h_s B1 : PF := nan) : PyM Unit := do
  let f := "Goda (2000)"
  check_if_given [beta] "Angle of wave incidence" f beta 0.0 90.0
  check_if_given [cota_seabed] "Seabed slope" f cota_seabed 10.0 100.0
  check_if_given [Tmax] "Wave period" f Tmax 0.0 30.0
  check_if_given [tup, Bup] "Centre of gravity inside of caisson" f (tup / Bup) 0.0 1.0
  check_if_given [h_s] "Water depth at site" f h_s 0.0 pinf
  check_if_given [B1] "Width of toe berm" f B1 0.0 pinf
  check_if_given [Bup] "Width of caisson upright section" f Bup 0.0 pinf

/-- goda1985.py 83-170; the booleans `True, False, False` handed to the range check count as
`1, 0, 0` -/
def check_impulsive_breaking
    (beta B1 L cota_seabed offshore_wave_steepness Rc Hsi d h_s : PF := nan) : PyM Bool :=
  if (∀ x ∈ [beta, B1, L, cota_seabed, offshore_wave_steepness, Rc, Hsi], ¬ x.isnan) ∧
      (beta < 20 ∧ B1 / L < 0.02 ∧ cota_seabed < 50 ∧ offshore_wave_steepness < 0.03
        ∧ Rc / Hsi > 0.3) then do
    let _ ← check_variable_validity_range "Impulsive breaking condition 1" "Goda (2000)" 1 0 0
    pure true
  else if (∀ x ∈ [beta, B1, L, d, h_s, Rc, Hsi], ¬ x.isnan) ∧
      (beta < 20 ∧ 0.02 < B1 / L ∧ B1 / L < 0.3 ∧ d / h_s < 0.6 ∧ Rc / Hsi > 0.3) then do
    let _ ← check_variable_validity_range "Impulsive breaking condition 2" "Goda (2000)" 1 0 0
    pure true
  else pure false

/-- the values returned by `calculate_pressures_and_forces`, goda1985.py 603-655 -/
structure Loads where
  FH : PF
  FU : PF
  MH : PF
  MU : PF
  p1 : PF
  p2 : PF
  p3 : PF
  p4 : PF
  hstar_c : PF
  pu : PF
  h_5Hs : PF
  etastar : PF
  L : PF
  alpha_1 : PF
  alpha_2 : PF
  alpha_3 : PF
  impulsive_breaking : Bool

/-- goda1985.py 541-544 (part of `calculate_pressures_and_forces`): the angle used in the formulas;
`beta_use` stays unbound when the angle is NaN. -/
def rotate_angle (beta : PF) : PyM PF :=
  if beta ≥ 15 then pure (beta - 15) else if beta < 15 then pure 0 else PyM.raise .unboundLocal

/-- goda1985.py 412-657 -/
def calculate_pressures_and_forces (disper : PF → PF → PF → PF)
    (HD Hsi Tmax beta h_s d B1 cota_seabed rho_water hacc Rc Bup : PF)
    (offshore_wave_steepness : PF := nan) (g : PF := 9.81) : PyM Loads := do
  let beta := PF.abs beta
  let beta_use ← rotate_angle beta
  let cos_beta := PF.cos (PF.deg2rad beta_use)
  let h_5Hs := h_s + (Hsi * 5) / cota_seabed
  let etastar := 0.75 * (1 + cos_beta) * HD
  let L := calculate_local_wavelength disper (T := Tmax) (h := h_s) (g := g)
  let alpha_1 := 0.6 + 0.5 * npow ((4 * PF.pi * h_s / L) / PF.sinh (4 * PF.pi * h_s / L)) 2
  let alpha_21 := ((h_5Hs - d) / (3 * h_5Hs)) * npow (HD / d) 2
  let alpha_22 := (2 * d) / HD
  let alpha_2 := PF.min alpha_21 alpha_22
  let alpha_3 := 1 - (hacc / h_s) * (1 - (1 / PF.cosh (2 * PF.pi * h_s / L)))
  let p1 := 0.5 * (1 + cos_beta) * (alpha_1 + alpha_2 * npow cos_beta 2) * rho_water * g * HD
  let p2 := p1 / PF.cosh (2 * PF.pi * h_s / L)
  let p3 := alpha_3 * p1
  let p4 := if etastar > Rc then p1 * (1 - (Rc / etastar)) else 0
  let hstar_c := PF.min etastar Rc
  let pu := 0.5 * (1 + cos_beta) * alpha_1 * alpha_3 * rho_water * g * HD
  let FH := 0.5 * (p1 + p3) * hacc + 0.5 * (p1 + p4) * hstar_c
  let MH := (1 / 6) * (2 * p1 + p3) * npow hacc 2 + 0.5 * (p1 + p4) * hacc * hstar_c
    + (1 / 6) * (p1 + 2 * p4) * npow hstar_c 2
  let FU := 0.5 * pu * Bup
  let MU := (2 / 3) * FU * Bup
  let impulsive ← check_impulsive_breaking (beta := beta) (B1 := B1) (cota_seabed := cota_seabed)
    (d := d) (h_s := h_s) (Hsi := Hsi) (L := L)
    (offshore_wave_steepness := offshore_wave_steepness) (Rc := Rc)
  pure { FH, FU, MH, MU, p1, p2, p3, p4, hstar_c, pu, h_5Hs, etastar, L, alpha_1, alpha_2, alpha_3,
         impulsive_breaking := impulsive }

/-- goda1985.py 660-696 -/
def calculate_Wup (hacc Rc Bup rho_fill_below_SWL rho_water rho_fill_above_SWL : PF)
    (g : PF := 9.81) : PF :=
  (hacc * (rho_fill_below_SWL - rho_water) + Rc * rho_fill_above_SWL) * Bup * g

/-- goda1985.py 699-750 -/
def calculate_safety_factors (FU FH Wup muf tup MH MU : PF) : PF × PF :=
  let SF_sliding := muf * (Wup - FU) / FH
  let SF_overturning := ((Wup * tup) - MU) / MH
  (SF_sliding, SF_overturning)

/-- the values returned by `calculate_bearing_pressures`, goda1985.py 815 -/
structure Bearing where
  pe : PF
  Me : PF
  We : PF
  te : PF

/-- goda1985.py 753-815 -/
def calculate_bearing_pressures (Wup tup MH MU FU Bup : PF) : Bearing :=
  let Me := Wup * tup - MU - MH
  let We := Wup - FU
  let te := Me / We
  let pe := if te ≤ 1 / 3 * Bup then (2 * We) / (3 * te)
    else (2 * We / Bup) * (2 - 3 * (te / Bup))
  { pe, Me, We, te }

/-- the values returned by `calculate_forces_and_reactions`, goda1985.py 354-407 (the entry
`is_valid` of the dictionary is the `None` returned by `check_validity_range`) -/
structure Reactions where
  loads : Loads
  bearing : Bearing
  tup : PF
  Wup : PF
  SF_sliding : PF
  SF_overturning : PF
  is_valid : Unit

/-- goda1985.py 173-409 -/
def calculate_forces_and_reactions (disper : PF → PF → PF → PF)
    (HD Hsi Tmax beta h_s d B1 cota_seabed rho_water hacc Rc Bup : PF)
    (rho_fill_above_SWL : PF := 2400) (rho_fill_below_SWL : PF := 2100)
    (offshore_wave_steepness : PF := nan) (muf : PF := 0.6) (tup_over_Bup : PF := 0.5)
    (g : PF := 9.81) : PyM Reactions := do
  let loads ← calculate_pressures_and_forces disper (HD := HD) (Hsi := Hsi) (Tmax := Tmax)
    (beta := beta) (h_s := h_s) (d := d) (cota_seabed := cota_seabed) (rho_water := rho_water)
    (hacc := hacc) (Rc := Rc) (Bup := Bup) (B1 := B1) (g := g)
    (offshore_wave_steepness := offshore_wave_steepness)
  let tup := tup_over_Bup * Bup
  let Wup := calculate_Wup (hacc := hacc) (Rc := Rc) (Bup := Bup)
    (rho_fill_below_SWL := rho_fill_below_SWL) (rho_water := rho_water)
    (rho_fill_above_SWL := rho_fill_above_SWL) (g := g)
  let bearing := calculate_bearing_pressures (Wup := Wup) (tup := tup) (MH := loads.MH)
    (MU := loads.MU) (FU := loads.FU) (Bup := Bup)
  let sf := calculate_safety_factors (FU := loads.FU) (FH := loads.FH) (Wup := Wup) (muf := muf)
    (tup := tup) (MH := loads.MH) (MU := loads.MU)
  let is_valid ← check_validity_range (beta := beta) (cota_seabed := cota_seabed) (Tmax := Tmax)
    (tup := tup) (Bup := Bup) (h_s := h_s)
  pure { loads, bearing, tup, Wup, SF_sliding := sf.1, SF_overturning := sf.2, is_valid }

end Goda1985
end
