import Verif.Model.RockArmourOther
import Verif.Py.Array

/-! # Arguments given as Python integers

In all other model files a number is a `float`.  Python tells `8` (an `int`) from `8.0`, and so do NumPy's
`power` and the `isinstance` tests of the package.  This file models the places where the package's
outcome depends on it: all other operations on an `int` (sums, products, true division, roots, powers
with exponents that are positive or fractions, comparisons) give the number the operation on the `float`
of the same value gives, apart from the overflow of 64-bit integers, which is not modelled. -/

open Classical
open PF (nan npow pinf)
noncomputable section

/-- `np.power` on Python numbers: NumPy refuses a negative whole exponent for a whole base -/
def PyNum.power : PyNum → PyNum → PyM PyNum
  | .int a, .int b => if b < 0 then PyM.raise .valueError else pure (.int (a ^ b.toNat))
  | a, b => pure (.float (npow a.toFloat b.toFloat))

namespace WholeNumbers
open CorePhysics Jumelet2024

/-- one pass of the loop at jumelet2024.py 285-308 with `Tmm10` an `int` or a `float` -/
def height_step (Tmm10 : PyNum) (N_waves cot_alpha S Dn50 c_pl g Delta : PF) (s : LoopState) :
    PyM LoopState := do
  let Fp := calculate_fraction_plunging_waves_Fp (ksi_mm10 := s.ksi)
  let N_plunging := PF.round (Fp * N_waves)
  let p ← Tmm10.power (.int (-2))
  let Hs := npow (c_pl * npow S 0.2 * npow N_plunging (-0.1) * cot_alpha
    * PF.sqrt ((2 * PF.pi / g) * p.toFloat) * Delta * Dn50) 2.0
  pure { diff := PF.abs (Hs - s.prev)
         prev := Hs
         ksi := calculate_Iribarren_number_ksi (H := Hs) (T := Tmm10.toFloat) (cot_alpha := cot_alpha)
         Hs := some Hs }

/-- jumelet2024.py 217-316 with `Tmm10` an `int` or a `float` -/
def calculate_significant_wave_height_Hs (Tmm10 : PyNum) (N_waves cot_alpha rho_armour S : PF)
    (Dn50 M50 : PF := nan) (c_pl : PF := 4.3) (g : PF := 9.81) (smm10_init : PF := 0.03)
    (max_iter : ℕ := 1000) (tolerance : PF := 1e-3) : PyM PF := do
  let Dn50 ← check_usage_Dn50_or_M50 (Dn50 := Dn50) (M50 := M50) (rho_rock := rho_armour)
  let T2 ← Tmm10.power (.int 2)
  let Hs_init := smm10_init * T2.toFloat * g / (2 * PF.pi)
  let ksi_mm10 := calculate_Iribarren_number_ksi (H := Hs_init) (T := Tmm10.toFloat)
    (cot_alpha := cot_alpha)
  let Delta := calculate_buoyant_density_Delta (rho_rock := rho_armour) (rho_water := 1025)
  let s ← whileIterM max_iter (fun s => s.diff > tolerance)
    (height_step Tmm10 N_waves cot_alpha S Dn50 c_pl g Delta)
    { diff := pinf, prev := Hs_init, ksi := ksi_mm10, Hs := none }
  match s.Hs with
  | none => PyM.raise .unboundLocal
  | some Hs => do
    check_validity_range (Hs := Hs) (Tmm10 := Tmm10.toFloat) (N_waves := N_waves) (cot_alpha := cot_alpha)
    pure Hs

/-- core_physics.py 374-407 with a period that is an `int` or a `float` and depths `h` in an array of `n`
entries: line 399 asks for a `float`; an `int` goes on to `len(T)` in line 403, which raises `TypeError`;
a single depth meets neither test and leaves `k` unassigned -/
def calculate_local_wavelength {n : ℕ} (disper : PF → PF → PF → PF) (T : PyNum) (h : Fin n → PF)
    (g : PF := 9.81) : PyM (Val n) :=
  if n > 1 then
    match T with
    | .float T => pure ((2 * Val.pi) / .arr fun i => disper ((2 * PF.pi) / T) (h i) g)
    | .int _ => PyM.raise .typeError
  else PyM.raise .unboundLocal

end WholeNumbers
end
