import Verif.Array.Core
import Verif.Model.Goda1985

/-! # Model of `structural/forces_caisson/goda1985.py` 

Both return styles (`return_dict=False`: tuple, `return_dict=True`: dictionary) carry the same local
variables; they are modelled as one record per function.  `disper` is the external dispersion solver,
see `CorePhysics.calculate_local_wavelength`.

The same functions called with arrays. -/

open Classical
open Val (nan npow whr pinf)
open Arr.CorePhysics Arr.CoreUtility
noncomputable section
namespace Arr
variable {n : ℕ}

namespace Goda1985

/-- goda1985.py 9-80 (returns `None` on line 80) -/
def check_validity_range (beta cota_seabed Tmax tup Bup h_s B1 : Val n := nan) : PyM Unit := do
  let f := "Goda (2000)"
  check_if_given [beta] "Angle of wave incidence" f beta 0.0 90.0
  check_if_given [cota_seabed] "Seabed slope" f cota_seabed 10.0 100.0
  check_if_given [Tmax] "Wave period" f Tmax 0.0 30.0
  check_if_given [tup, Bup] "Centre of gravity inside of caisson" f (tup / Bup) 0.0 1.0
  check_if_given [h_s] "Water depth at site" f h_s 0.0 PF.pinf
  check_if_given [B1] "Width of toe berm" f B1 0.0 PF.pinf
  check_if_given [Bup] "Width of caisson upright section" f Bup 0.0 PF.pinf

/-- `any([np.isnan(x), …])`, lines 123-133 and 149-157: the built-in `any` takes the truth value of
every item until one is true -/
def anyOf : List (Val n) → PyM Bool
  | [] => pure false
  | x :: xs => PyM.or x.isnan.truth (anyOf xs)

/-- goda1985.py 83-170; the booleans `True, False, False` handed to the range check count as
`1, 0, 0` -/
def check_impulsive_breaking
    (beta B1 L cota_seabed offshore_wave_steepness Rc Hsi d h_s : Val n := nan) : PyM Bool :=
  PyM.cond (PyM.and
      (PyM.not (anyOf [beta, B1, L, cota_seabed, offshore_wave_steepness, Rc, Hsi]))
      (PyM.and (beta <. 20).truth <| PyM.and (B1 / L <. 0.02).truth <|
        PyM.and (cota_seabed <. 50).truth <| PyM.and (offshore_wave_steepness <. 0.03).truth
          (Rc / Hsi >. 0.3).truth))
    (do
      let _ ← check_variable_validity_range (n := n) "Impulsive breaking condition 1" "Goda (2000)"
        1 0 0
      pure true) <|
  PyM.cond (PyM.and
      (PyM.not (anyOf [beta, B1, L, d, h_s, Rc, Hsi]))
      (PyM.and (beta <. 20).truth <| PyM.and (0.02 <. B1 / L).truth <|
        PyM.and (B1 / L <. 0.3).truth <| PyM.and (d / h_s <. 0.6).truth (Rc / Hsi >. 0.3).truth))
    (do
      let _ ← check_variable_validity_range (n := n) "Impulsive breaking condition 2" "Goda (2000)"
        1 0 0
      pure true) <|
  pure false

/-- the values returned by `calculate_pressures_and_forces`, goda1985.py 603-655 -/
structure Loads (n : ℕ) where
  FH : Val n
  FU : Val n
  MH : Val n
  MU : Val n
  p1 : Val n
  p2 : Val n
  p3 : Val n
  p4 : Val n
  hstar_c : Val n
  pu : Val n
  h_5Hs : Val n
  etastar : Val n
  L : Val n
  alpha_1 : Val n
  alpha_2 : Val n
  alpha_3 : Val n
  impulsive_breaking : Bool

/-- goda1985.py 541-544 (part of `calculate_pressures_and_forces`): the angle used in the formulas;
`beta_use` stays unbound when the angle is NaN. -/
def rotate_angle (beta : Val n) : PyM (Val n) :=
  PyM.cond (beta ≥. 15).truth (pure (beta - 15)) <|
  PyM.cond (beta <. 15).truth (pure 0) (PyM.raise .unboundLocal)

/-- goda1985.py 412-657 -/
def calculate_pressures_and_forces [NeZero n] (disper : PF → PF → PF → PF)
    (HD Hsi Tmax beta h_s d B1 cota_seabed rho_water hacc Rc Bup : Val n)
    (offshore_wave_steepness : Val n := nan) (g : PF := 9.81) : PyM (Loads n) := do
  let beta := Val.abs beta
  let beta_use ← rotate_angle beta
  let cos_beta := Val.cos (Val.deg2rad beta_use)
  let h_5Hs := h_s + (Hsi * 5) / cota_seabed
  let etastar := 0.75 * (1 + cos_beta) * HD
  let L ← calculate_local_wavelength disper (T := Tmax) (h := h_s) (g := g)
  let alpha_1 := 0.6 + 0.5 * npow ((4 * Val.pi * h_s / L) / Val.sinh (4 * Val.pi * h_s / L)) 2
  let alpha_21 := ((h_5Hs - d) / (3 * h_5Hs)) * npow (HD / d) 2
  let alpha_22 := (2 * d) / HD
  let alpha_2 := Val.min alpha_21 alpha_22
  let alpha_3 := 1 - (hacc / h_s) * (1 - (1 / Val.cosh (2 * Val.pi * h_s / L)))
  let p1 := 0.5 * (1 + cos_beta) * (alpha_1 + alpha_2 * npow cos_beta 2) * rho_water * .num g * HD
  let p2 := p1 / Val.cosh (2 * Val.pi * h_s / L)
  let p3 := alpha_3 * p1
  let p4 ← PyM.cond (etastar >. Rc).truth (pure (p1 * (1 - (Rc / etastar)))) (pure 0)
  let hstar_c := Val.min etastar Rc
  let pu := 0.5 * (1 + cos_beta) * alpha_1 * alpha_3 * rho_water * .num g * HD
  let FH := 0.5 * (p1 + p3) * hacc + 0.5 * (p1 + p4) * hstar_c
  let MH := (1 / 6) * (2 * p1 + p3) * npow hacc 2 + 0.5 * (p1 + p4) * hacc * hstar_c
    + (1 / 6) * (p1 + 2 * p4) * npow hstar_c 2
  let FU := 0.5 * pu * Bup
  let MU := (2 / 3) * FU * Bup
  let impulsive ← check_impulsive_breaking (beta := beta) (B1 := B1) (cota_seabed := cota_seabed)
    (d := d) (h_s := h_s) (Hsi := Hsi) (L := L)
    (offshore_wave_steepness := offshore_wave_steepness) (Rc := Rc)
  pure { FH, FU, MH, MU, p1, p2, p3, p4, hstar_c, pu, h_5Hs, etastar, L, alpha_1, alpha_2, alpha_3,
         impulsive_breaking := impulsive }

/-- goda1985.py 660-696 -/
def calculate_Wup (hacc Rc Bup rho_fill_below_SWL rho_water rho_fill_above_SWL : Val n)
    (g : PF := 9.81) : Val n :=
  (hacc * (rho_fill_below_SWL - rho_water) + Rc * rho_fill_above_SWL) * Bup * .num g

/-- goda1985.py 699-750 -/
def calculate_safety_factors (FU FH Wup muf tup MH MU : Val n) : Val n × Val n :=
  let SF_sliding := muf * (Wup - FU) / FH
  let SF_overturning := ((Wup * tup) - MU) / MH
  (SF_sliding, SF_overturning)

/-- the values returned by `calculate_bearing_pressures`, goda1985.py 815 -/
structure Bearing (n : ℕ) where
  pe : Val n
  Me : Val n
  We : Val n
  te : Val n

/-- goda1985.py 753-815 -/
def calculate_bearing_pressures (Wup tup MH MU FU Bup : Val n) : PyM (Bearing n) := do
  let Me := Wup * tup - MU - MH
  let We := Wup - FU
  let te := Me / We
  let pe ← PyM.cond (te ≤. 1 / 3 * Bup).truth (pure ((2 * We) / (3 * te)))
    (pure ((2 * We / Bup) * (2 - 3 * (te / Bup))))
  pure { pe, Me, We, te }

/-- the values returned by `calculate_forces_and_reactions`, goda1985.py 354-407 (the entry
`is_valid` of the dictionary is the `None` returned by `check_validity_range`) -/
structure Reactions (n : ℕ) where
  loads : Loads n
  bearing : Bearing n
  tup : Val n
  Wup : Val n
  SF_sliding : Val n
  SF_overturning : Val n
  is_valid : Unit

/-- goda1985.py 173-409 -/
def calculate_forces_and_reactions [NeZero n] (disper : PF → PF → PF → PF)
    (HD Hsi Tmax beta h_s d B1 cota_seabed rho_water hacc Rc Bup : Val n)
    (rho_fill_above_SWL : Val n := 2400) (rho_fill_below_SWL : Val n := 2100)
    (offshore_wave_steepness : Val n := nan) (muf : Val n := 0.6) (tup_over_Bup : Val n := 0.5)
    (g : PF := 9.81) : PyM (Reactions n) := do
  let loads ← calculate_pressures_and_forces disper (HD := HD) (Hsi := Hsi) (Tmax := Tmax)
    (beta := beta) (h_s := h_s) (d := d) (cota_seabed := cota_seabed) (rho_water := rho_water)
    (hacc := hacc) (Rc := Rc) (Bup := Bup) (B1 := B1) (g := g)
    (offshore_wave_steepness := offshore_wave_steepness)
  let tup := tup_over_Bup * Bup
  let Wup := calculate_Wup (hacc := hacc) (Rc := Rc) (Bup := Bup)
    (rho_fill_below_SWL := rho_fill_below_SWL) (rho_water := rho_water)
    (rho_fill_above_SWL := rho_fill_above_SWL) (g := g)
  let bearing ← calculate_bearing_pressures (Wup := Wup) (tup := tup) (MH := loads.MH)
    (MU := loads.MU) (FU := loads.FU) (Bup := Bup)
  let sf := calculate_safety_factors (FU := loads.FU) (FH := loads.FH) (Wup := Wup) (muf := muf)
    (tup := tup) (MH := loads.MH) (MU := loads.MU)
  let is_valid ← check_validity_range (beta := beta) (cota_seabed := cota_seabed) (Tmax := Tmax)
    (tup := tup) (Bup := Bup) (h_s := h_s)
  pure { loads, bearing, tup, Wup, SF_sliding := sf.1, SF_overturning := sf.2, is_valid }

/-- the forces of one case -/
instance : Cases n (Loads n) _root_.Goda1985.Loads := ⟨fun l i =>
  { FH := l.FH.get i, FU := l.FU.get i, MH := l.MH.get i, MU := l.MU.get i, p1 := l.p1.get i,
    p2 := l.p2.get i, p3 := l.p3.get i, p4 := l.p4.get i, hstar_c := l.hstar_c.get i,
    pu := l.pu.get i, h_5Hs := l.h_5Hs.get i, etastar := l.etastar.get i, L := l.L.get i,
    alpha_1 := l.alpha_1.get i, alpha_2 := l.alpha_2.get i, alpha_3 := l.alpha_3.get i,
    impulsive_breaking := l.impulsive_breaking }⟩

/-- the bearing pressures of one case -/
instance : Cases n (Bearing n) _root_.Goda1985.Bearing := ⟨fun b i =>
  { pe := b.pe.get i, Me := b.Me.get i, We := b.We.get i, te := b.te.get i }⟩

/-- the outcome of one case -/
instance : Cases n (Reactions n) _root_.Goda1985.Reactions := ⟨fun r i =>
  { loads := Cases.case r.loads i, bearing := Cases.case r.bearing i, tup := r.tup.get i,
    Wup := r.Wup.get i, SF_sliding := r.SF_sliding.get i, SF_overturning := r.SF_overturning.get i,
    is_valid := r.is_valid }⟩

end Goda1985
end Arr
end
