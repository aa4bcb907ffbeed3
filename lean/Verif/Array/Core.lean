import Verif.Py.Array
import Verif.Model.CoreUtility

/-! # `functions/core_utility.py` and `functions/core_physics.py` called with arrays -/

open Classical
open Val (nan npow)
noncomputable section
namespace Arr
variable {n : ℕ}

namespace CoreUtility

/-- core_utility.py 7-54: an array is turned into a list (lines 35-36), a number into a one-element list
(lines 38-39), then the loop of lines 42-52 runs over the values (`CoreUtility.check_list` is that
loop).  The bounds are numbers in all calls. -/
def check_variable_validity_range (variable_name formula_name : String) (values : Val n)
    (min_value max_value : PF) : PyM (List Bool) :=
  _root_.CoreUtility.check_list variable_name formula_name min_value max_value values.toList

/-- The idiom `if not np.any(np.isnan(a)) and not np.any(np.isnan(b)) …: check_variable_validity_range(…)`
used by every `check_validity_range` of the package: one NaN entry of a tested argument switches the
check off for all entries. -/
def check_if_given (given : List (Val n)) (variable_name formula_name : String) (value : Val n)
    (min_value max_value : PF) : PyM Unit :=
  if ∀ x ∈ given, ¬ x.isnan.any then do
    let _ ← check_variable_validity_range variable_name formula_name value min_value max_value
    pure ()
  else pure ()

end CoreUtility

namespace CorePhysics

/-- core_physics.py 10-35 -/
def calculate_wave_steepness_s (H T : Val n) (g : Val n := 9.81) : Val n :=
  (2 * Val.pi / g) * H / npow T 2

/-- core_physics.py 38-65 -/
def calculate_Iribarren_number_ksi (H T cot_alpha : Val n) : Val n :=
  let s := calculate_wave_steepness_s H T
  (1.0 / cot_alpha) / Val.sqrt s

/-- core_physics.py 68-99 -/
def calculate_critical_Iribarren_number_ksi_mc (c_pl c_s P cot_alpha : Val n) : Val n :=
  npow ((c_pl / c_s) * npow P 0.31 * Val.sqrt (1.0 / cot_alpha)) (1.0 / (P + 0.5))

/-- core_physics.py 134-156 -/
def calculate_buoyant_density_Delta (rho_rock rho_water : Val n) : Val n :=
  (rho_rock - rho_water) / rho_water

/-- core_physics.py 102-131 -/
def calculate_stability_number_Ns (H D rho_rock rho_water : Val n) : Val n :=
  let Delta := calculate_buoyant_density_Delta rho_rock rho_water
  H / (Delta * D)

/-- core_physics.py 159-180 -/
def calculate_M50_from_Dn50 (Dn50 : Val n) (rho_rock : Val n := 2650) : Val n :=
  rho_rock * npow Dn50 3

/-- core_physics.py 183-202 -/
def calculate_Dn50_from_M50 (M50 : Val n) (rho_rock : Val n := 2650) : Val n :=
  npow (M50 / rho_rock) (1 / 3)

/-- core_physics.py 205-245 -/
def check_usage_Dn50_or_M50 (Dn50 M50 rho_rock : Val n) : PyM (Val n) :=
  if Dn50.isnan.all ∧ M50.isnan.all then
    PyM.raise .valueError
  else if Dn50.isnan.all ∧ ¬ M50.isnan.all then
    if rho_rock.isnan.all then do
      PyM.warn (.text "rho_armour is not provided, the default value of 2650 kg/m3 is used.")
      pure (calculate_Dn50_from_M50 M50)
    else
      pure (calculate_Dn50_from_M50 M50 (rho_rock := rho_rock))
  else
    pure Dn50

/-- core_physics.py 248-279 -/
def calculate_S_from_Nod (Nod G nv : Val n) : Val n :=
  let factor := G * (1 - nv)
  Nod / factor

/-- core_physics.py 282-312 -/
def calculate_Nod_from_S (S G nv : Val n) : Val n :=
  let factor := G * (1 - nv)
  S * factor

/-- core_physics.py 315-371 -/
def check_usage_stabilitynumber (Hs Dn Delta Ns : Option (Val n) := none) : PyM (Val n × String) :=
  let k := (if Hs.isNone then 1 else 0) + (if Dn.isNone then 1 else 0) +
    (if Delta.isNone then 1 else 0) + (if Ns.isNone then 1 else 0)
  if k > 1 then PyM.raise .valueError
  else if k = 0 then PyM.raise .valueError
  else match Hs, Dn, Delta, Ns with
    | none, some Dn, some Delta, some Ns => pure (Dn * Delta * Ns, "Hs")
    | some Hs, none, some Delta, some Ns => pure (Hs / Ns / Delta, "Dn")
    | some Hs, some Dn, none, some Ns => pure (Hs / Ns / Dn, "Delta")
    | some Hs, some Dn, some Delta, none => pure (Hs / (Delta * Dn), "Ns")
    | _, _, _, _ => PyM.raise .unboundLocal

/-- core_physics.py 374-410.  `disper w h g` stands for the wave number the external solver
`dispersion.disper` returns for numbers; given an array of frequencies the solver returns the array of
their wave numbers, of which line 398 takes the first.  `g` is a number in all calls.  In line 399
`isinstance(T, float)` is taken to hold for every number `T` (a Python `int` would go on to line 403 and
raise `TypeError`); an array `h` with a single entry meets neither test and leaves `k` unassigned. -/
def calculate_local_wavelength [NeZero n] (disper : PF → PF → PF → PF) (T h : Val n) (g : PF := 9.81) :
    PyM (Val n) :=
  let w := (2 * Val.pi) / T
  match h with
  | .num h => pure ((2 * Val.pi) / .num (disper (w.get 0) h g))
  | .arr h =>
    if n > 1 then pure ((2 * Val.pi) / .arr fun i => disper (w.get i) (h i) g)
    else PyM.raise .unboundLocal

end CorePhysics
end Arr
end
