import Verif.Py.Monad

/-! # Model of `functions/core_physics.py` -/

open Classical
open PF (nan npow)
noncomputable section
namespace CorePhysics

/-- core_physics.py 10-35 -/
def calculate_wave_steepness_s (H T : PF) (g : PF := 9.81) : PF :=
  (2 * PF.pi / g) * H / npow T 2

/-- core_physics.py 38-65 (note: always the default g = 9.81) -/
def calculate_Iribarren_number_ksi (H T cot_alpha : PF) : PF :=
  let s := calculate_wave_steepness_s H T
  (1.0 / cot_alpha) / PF.sqrt s

/-- core_physics.py 68-99 -/
def calculate_critical_Iribarren_number_ksi_mc (c_pl c_s P cot_alpha : PF) : PF :=
  npow ((c_pl / c_s) * npow P 0.31 * PF.sqrt (1.0 / cot_alpha)) (1.0 / (P + 0.5))

/-- core_physics.py 134-156 -/
def calculate_buoyant_density_Delta (rho_rock rho_water : PF) : PF :=
  (rho_rock - rho_water) / rho_water

/-- core_physics.py 102-131 -/
def calculate_stability_number_Ns (H D rho_rock rho_water : PF) : PF :=
  let Delta := calculate_buoyant_density_Delta rho_rock rho_water
  H / (Delta * D)

/-- core_physics.py 159-180 -/
def calculate_M50_from_Dn50 (Dn50 : PF) (rho_rock : PF := 2650) : PF :=
  rho_rock * npow Dn50 3

/-- core_physics.py 183-202 -/
def calculate_Dn50_from_M50 (M50 : PF) (rho_rock : PF := 2650) : PF :=
  npow (M50 / rho_rock) (1 / 3)

/-- core_physics.py 205-245 (`np.all(np.isnan(·))` on a scalar is `isnan`) -/
def check_usage_Dn50_or_M50 (Dn50 M50 rho_rock : PF) : PyM PF :=
  if Dn50.isnan ∧ M50.isnan then
    PyM.raise .valueError
  else if Dn50.isnan ∧ ¬ M50.isnan then
    if rho_rock.isnan then do
      PyM.warn (.text "rho_armour is not provided, the default value of 2650 kg/m3 is used.")
      pure (calculate_Dn50_from_M50 M50)
    else
      pure (calculate_Dn50_from_M50 M50 (rho_rock := rho_rock))
  else
    pure Dn50

/-- core_physics.py 248-279 -/
def calculate_S_from_Nod (Nod G nv : PF) : PF :=
  let factor := G * (1 - nv)
  Nod / factor

/-- core_physics.py 282-312 -/
def calculate_Nod_from_S (S G nv : PF) : PF :=
  let factor := G * (1 - nv)
  S * factor

/-- core_physics.py 315-371; an argument that is `None` is `none`.  `sum(allchecks)` counts the
omitted arguments. -/
def check_usage_stabilitynumber (Hs Dn Delta Ns : Option PF := none) : PyM (PF × String) :=
  let n := (if Hs.isNone then 1 else 0) + (if Dn.isNone then 1 else 0) +
    (if Delta.isNone then 1 else 0) + (if Ns.isNone then 1 else 0)
  if n > 1 then PyM.raise .valueError
  else if n = 0 then PyM.raise .valueError
  else match Hs, Dn, Delta, Ns with
    | none, some Dn, some Delta, some Ns => pure (Dn * Delta * Ns, "Hs")
    | some Hs, none, some Delta, some Ns => pure (Hs / Ns / Delta, "Dn")
    | some Hs, some Dn, none, some Ns => pure (Hs / Ns / Dn, "Delta")
    | some Hs, some Dn, some Delta, none => pure (Hs / (Delta * Dn), "Ns")
    | _, _, _, _ => PyM.raise .unboundLocal

/-- core_physics.py 374-410 for scalar float `h` (line 397-398, 408).  `disper w h g` stands for the
first wave number returned by the external solver `dispersion.disper(w=…, h=…, g=…)[0]`. -/
def calculate_local_wavelength (disper : PF → PF → PF → PF) (T h : PF) (g : PF := 9.81) : PF :=
  let k := disper ((2 * PF.pi) / T) h g
  (2 * PF.pi) / k

end CorePhysics
end
