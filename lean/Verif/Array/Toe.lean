import Verif.Array.Core

/-! # Models of `functions/structural/stability_toe_berm/`

The same functions called with arrays. -/

open Classical
open Val (nan npow whr pinf)
open Arr.CorePhysics Arr.CoreUtility
noncomputable section
namespace Arr
variable {n : ℕ}

namespace Gerding1993

/-- gerding1993.py 9-52 -/
def check_validity (ht h Dn50 : Val n := nan) : PyM Unit := do
  let f := "Gerding (1993)"
  check_if_given [ht, h] "Relative toe height (h)" f (ht / h) 0.4 0.9
  check_if_given [ht, Dn50] "Relative toe height (Dn50)" f (ht / Dn50) 3 25

/-- gerding1993.py 55-99 -/
def calculate_damage_Nod (Hs ht h Dn50 rho_rock rho_water : Val n) : PyM (Val n) := do
  let Delta := calculate_buoyant_density_Delta (rho_rock := rho_rock) (rho_water := rho_water)
  let Nod := npow ((Hs / (Delta * Dn50)) / (1.6 + 0.24 * (ht / Dn50))) (1 / 0.15)
  check_validity (ht := ht) (h := h) (Dn50 := Dn50)
  pure Nod

/-- gerding1993.py 102-148 -/
def calculate_nominal_diameter_Dn50 (Hs ht h Nod rho_rock rho_water : Val n) : PyM (Val n) := do
  let Delta := calculate_buoyant_density_Delta (rho_rock := rho_rock) (rho_water := rho_water)
  let Dn50 := ((Hs / Delta) - (npow Nod 0.15) * 0.24 * ht) / (npow Nod 0.15 * 1.6)
  check_validity (ht := ht) (h := h) (Dn50 := Dn50)
  pure Dn50

/-- gerding1993.py 151-197 -/
def calculate_wave_height_Hs (Dn50 ht h Nod rho_rock rho_water : Val n) : PyM (Val n) := do
  let Delta := calculate_buoyant_density_Delta (rho_rock := rho_rock) (rho_water := rho_water)
  let Hs := (npow Nod 0.15) * Delta * Dn50 * (1.6 + 0.24 * (ht / Dn50))
  check_validity (ht := ht) (h := h) (Dn50 := Dn50)
  pure Hs

/-- gerding1993.py 200-246 -/
def calculate_depth_above_toe_ht (Hs Dn50 h Nod rho_rock rho_water : Val n) : PyM (Val n) := do
  let Delta := calculate_buoyant_density_Delta (rho_rock := rho_rock) (rho_water := rho_water)
  let ht := (Dn50 * ((Hs / (Delta * Dn50 * (npow Nod 0.15))) - 1.6)) / 0.24
  check_validity (ht := ht) (h := h) (Dn50 := Dn50)
  pure ht

end Gerding1993

namespace VanDerMeer1998

/-- vandermeer1998.py 9-84 -/
def check_validity (Hs ht h Dn50 Nod Delta : Val n := nan) : PyM Unit := do
  let f := "van der Meer (1998)"
  check_if_given [Hs] "Relative toe height (h)" f Hs 0.01 20
  check_if_given [ht, h] "Relative toe height (Dn50)" f (ht / h) 0.4 0.9
  check_if_given [ht, Dn50] "Relative toe height (Dn50)" f (ht / Dn50) 3 25
  check_if_given [Nod, Dn50, Hs, Delta] "Nod vs Ns" f (npow Nod (-0.15) * (Hs / Delta * Dn50)) 2 PF.pinf

/-- vandermeer1998.py 87-131 -/
def calculate_damage_Nod (Hs ht h Dn50 rho_rock rho_water : Val n) : PyM (Val n) := do
  let Delta := calculate_buoyant_density_Delta (rho_rock := rho_rock) (rho_water := rho_water)
  let Ns := Hs / (Delta * Dn50)
  let Nod := npow (Ns / (2 + 6.2 * npow (ht / h) 2.7)) (1 / 0.15)
  check_validity (Hs := Hs) (ht := ht) (h := h) (Dn50 := Dn50) (Nod := Nod) (Delta := Delta)
  pure Nod

/-- vandermeer1998.py 134-180 -/
def calculate_nominal_diameter_Dn50 (Hs ht h Nod rho_rock rho_water : Val n) : PyM (Val n) := do
  let Delta := calculate_buoyant_density_Delta (rho_rock := rho_rock) (rho_water := rho_water)
  let Dn50 := Hs / ((2 + 6.2 * npow (ht / h) 2.7) * npow Nod 0.15 * Delta)
  check_validity (Hs := Hs) (ht := ht) (h := h) (Dn50 := Dn50) (Nod := Nod) (Delta := Delta)
  pure Dn50

/-- vandermeer1998.py 183-229 -/
def calculate_wave_height_Hs (Dn50 ht h Nod rho_rock rho_water : Val n) : PyM (Val n) := do
  let Delta := calculate_buoyant_density_Delta (rho_rock := rho_rock) (rho_water := rho_water)
  let Hs := ((2 + 6.2 * npow (ht / h) 2.7) * Delta * Dn50) / npow Nod (-0.15)
  check_validity (Hs := Hs) (ht := ht) (h := h) (Dn50 := Dn50) (Nod := Nod) (Delta := Delta)
  pure Hs

/-- vandermeer1998.py 232-282 -/
def calculate_depth_above_toe_ht (Hs Dn50 h Nod rho_rock rho_water : Val n) : PyM (Val n) := do
  let Delta := calculate_buoyant_density_Delta (rho_rock := rho_rock) (rho_water := rho_water)
  let ht := (((Hs * npow Nod (-0.15)) / (Delta * Dn50)) - 2) / 6.2
  let ht ← PyM.cond (ht >. 0).truth (pure (npow ht (1 / 2.7) * h)) (pure nan)
  check_validity (Hs := Hs) (ht := ht) (h := h) (Dn50 := Dn50) (Nod := Nod) (Delta := Delta)
  pure ht

end VanDerMeer1998

namespace VanGentVanDerWerf2014

/-- vangentvanderwerf2014.py 9-79 -/
def check_validity (Hs tt ht cot_alpha_armour_slope : Val n := nan) : PyM Unit := do
  let f := "van Gent & van der Werf (2014)"
  check_if_given [cot_alpha_armour_slope] "Armour slope cot_alpha_armour_slope" f
    cot_alpha_armour_slope 1.5 4
  check_if_given [cot_alpha_armour_slope]
    "Armour slope cot_alpha_armour_slope, closer to 1:4 more inaccuracies are found" f
    cot_alpha_armour_slope 1.5 2
  check_if_given [ht, tt] "Relative toe height tt/h" f (tt / (ht + tt)) 0.1 0.3
  check_if_given [ht, tt, Hs] "Relative water depth h/Hs" f ((ht + tt) / Hs) 1.2 4.5

/-- vangentvanderwerf2014.py 227-255 -/
def calculate_velocity_u_delta (Hs Tmm10 ht : Val n) (g : Val n := 9.81) : Val n :=
  let Lmm10 := (g / (2 * Val.pi)) * npow Tmm10 2
  let k := (2 * Val.pi) / Lmm10
  ((Val.pi * Hs) / Tmm10) * (1 / Val.sinh (k * ht))

/-- vangentvanderwerf2014.py 82-158 -/
def calculate_damage_Nod (Hm0 Tmm10 ht Bt tt Dn50 rho_rock rho_water cot_alpha_armour_slope : Val n)
    (g : Val n := 9.81) (c1 : Val n := 0.032) (c2 : Val n := 0.3) (c3 : Val n := 1.0) (c4 : Val n := 3.0)
    (c5 : Val n := 1.0) : PyM (Val n) := do
  let u_delta := calculate_velocity_u_delta (Hs := Hm0) (Tmm10 := Tmm10) (ht := ht) (g := g)
  let Delta := calculate_buoyant_density_Delta (rho_rock := rho_rock) (rho_water := rho_water)
  let Nod := (c1 * npow (Bt / Hm0) c2) * (npow (tt / Hm0) c3) * (npow (Hm0 / (Delta * Dn50)) c4)
    * (npow (u_delta / Val.sqrt (g * Hm0)) c5)
  check_validity (Hs := Hm0) (tt := tt) (ht := ht)
    (cot_alpha_armour_slope := cot_alpha_armour_slope)
  pure Nod

/-- vangentvanderwerf2014.py 161-224 -/
def calculate_nominal_diameter_Dn50
    (Hm0 Tmm10 ht Bt tt Nod rho_rock rho_water cot_alpha_armour_slope : Val n) (g : Val n := 9.81) :
    PyM (Val n) := do
  let u_delta := calculate_velocity_u_delta (Hs := Hm0) (Tmm10 := Tmm10) (ht := ht) (g := g)
  let Delta := calculate_buoyant_density_Delta (rho_rock := rho_rock) (rho_water := rho_water)
  let Dn50 := 0.32 * (Hm0 / (Delta * npow Nod (1 / 3))) * npow (Bt / Hm0) 0.1
    * npow (tt / Hm0) (1 / 3) * npow (u_delta / Val.sqrt (g * Hm0)) (1 / 3)
  check_validity (Hs := Hm0) (tt := tt) (ht := ht)
    (cot_alpha_armour_slope := cot_alpha_armour_slope)
  pure Dn50

end VanGentVanDerWerf2014

namespace EtemadShahidi2021

/-- etemadshahidi2021.py 9-161.  Line 65 calls `calculate_wave_steepness_s(H=…, Tmm10=…)`, whose
parameter is called `T`: a TypeError. -/
def check_validity
    (Hs Tmm10 h ht Bt Dn50 m Nod cot_alpha_armour_slope rho_armour : Val n := nan)
    (rho_water : Val n := 1025.0) : PyM Unit := do
  let f := "Etemad-Shahidi et al. (2021)"
  check_if_given [cot_alpha_armour_slope] "Armour slope cot_alpha_armour_slope" f
    cot_alpha_armour_slope 1.5 2.0
  if ¬ Hs.isnan.any ∧ ¬ Tmm10.isnan.any then PyM.raise .typeError
  check_if_given [h, ht] "Relative water depth above the toe ht/h" f (ht / h) 0.39 0.88
  check_if_given [Hs, ht] "Relative water depth above the toe ht/Hs" f (ht / Hs) 0.48 2.58
  check_if_given [Dn50, ht] "Relative water depth above the toe ht/Dn50" f (ht / Dn50) 1.97 23.40
  check_if_given [Hs, ht] "Relative toe width Bt/Hs" f (Bt / Hs) 0.17 1.92
  check_if_given [h, Hs] "Relative water depth h/Hs" f (h / Hs) 1.22 3.0
  check_if_given [Hs, Dn50] "Stability number Ns" f
    (calculate_stability_number_Ns (H := Hs) (D := Dn50) (rho_rock := rho_armour)
      (rho_water := rho_water)) 1.58 10.0
  check_if_given [rho_armour] "Buoyant density Delta" f
    (calculate_buoyant_density_Delta (rho_rock := rho_armour) (rho_water := rho_water)) 1.65 1.75
  check_if_given [m] "Foreshore slope m" f m 0.02 0.10
  check_if_given [Nod] "Damage parameter Nod" f Nod 0.5 3.79

/-- etemadshahidi2021.py 164-253 -/
def calculate_damage_Nod (Hs Tmm10 h ht Bt m Dn50 rho_rock : Val n) (rho_water : Val n := 1025.0)
    (g : Val n := 9.81) (c1 : Val n := 1.2) (c2 : Val n := 11.2) (c3 : Val n := 7.0 / 4.0)
    (c4 : Val n := 1.0 / 6.0) (c5 : Val n := 2.0 / 5.0) (c6 : Val n := -1.0 / 10.0) (c7 : Val n := 3.7) :
    PyM (Val n) := do
  let smm10 := calculate_wave_steepness_s (H := Hs) (T := Tmm10) (g := g)
  let Ns := calculate_stability_number_Ns (H := Hs) (D := Dn50) (rho_rock := rho_rock)
    (rho_water := rho_water)
  let Nod := npow ((Ns - c1) * (1.0 / c2) * npow (ht / h) (-c3) * npow smm10 (-c4)
    * npow (Bt / Hs) (-c6) * (1.0 / (1.0 - c7 * m))) (1.0 / c5)
  check_validity (Hs := Hs) (ht := ht)
  pure Nod

/-- etemadshahidi2021.py 256-343 -/
def calculate_nominal_diameter_Dn50 (Hs Tmm10 h ht Bt Nod m rho_rock : Val n)
    (rho_water : Val n := 1025.0) (g : Val n := 9.81) (c1 : Val n := 1.2) (c2 : Val n := 11.2)
    (c3 : Val n := 7.0 / 4.0) (c4 : Val n := 1.0 / 6.0) (c5 : Val n := 2.0 / 5.0) (c6 : Val n := -1.0 / 10.0)
    (c7 : Val n := 3.7) : PyM (Val n) := do
  let Delta := calculate_buoyant_density_Delta (rho_rock := rho_rock) (rho_water := rho_water)
  let smm10 := calculate_wave_steepness_s (H := Hs) (T := Tmm10) (g := g)
  let Dn50 := (Hs / Delta) * npow (c1 + c2 * npow (ht / h) c3 * npow smm10 c4 * npow Nod c5
    * npow (Bt / Hs) c6 * (1.0 - c7 * m)) (-1.0)
  check_validity (Hs := Hs) (ht := ht)
  pure Dn50

/-- variables of the loop at 433-452 -/
structure LoopState (n : ℕ) where
  Hs : Val n
  diff : Val n
  prev : Val n
  smm10 : Val n

/-- one pass of the loop, 435-452; `n_iter` is never changed -/
def height_step (Delta Dn50 Tmm10 h ht Bt Nod m g c1 c2 c3 c4 c5 c6 c7 : Val n) (s : LoopState n) :
    LoopState n :=
  let Hs := Delta * Dn50 * (c1 + c2 * npow (ht / h) c3 * npow s.smm10 c4 * npow Nod c5
    * npow (Bt / s.Hs) c6 * (1.0 - c7 * m))
  { Hs := Hs
    diff := Val.abs (Hs - s.prev)
    prev := Hs
    smm10 := calculate_wave_steepness_s (H := Hs) (T := Tmm10) (g := g) }

/-- etemadshahidi2021.py 346-454.  The loop condition at 433 compares the never incremented
`n_iter = 0` with `max_iter`, so this is an unbounded loop; `none` means that it does not end. -/
def calculate_significant_wave_height_Hs (Tmm10 h ht Bt Nod m Dn50 rho_rock : Val n)
    (rho_water : Val n := 1025.0) (g : Val n := 9.81) (c1 : Val n := 1.2) (c2 : Val n := 11.2)
    (c3 : Val n := 7.0 / 4.0) (c4 : Val n := 1.0 / 6.0) (c5 : Val n := 2.0 / 5.0) (c6 : Val n := -1.0 / 10.0)
    (c7 : Val n := 3.7) (smm10_init : Val n := 0.03) (max_iter : ℕ := 1000) : Option (PyM (Val n)) :=
  let Delta := calculate_buoyant_density_Delta (rho_rock := rho_rock) (rho_water := rho_water)
  let n_iter := 0
  let Hs_init := smm10_init * npow Tmm10 2 * g / (2 * Val.pi)
  (whileUnb (fun s : LoopState n => s.diff.amax > 1e-3 ∧ n_iter < max_iter)
    (height_step Delta Dn50 Tmm10 h ht Bt Nod m g c1 c2 c3 c4 c5 c6 c7)
    { Hs := Hs_init, diff := pinf, prev := Hs_init, smm10 := smm10_init }).map
      fun s => pure s.Hs

end EtemadShahidi2021

variable [NeZero n]
namespace Takahashi1990

/-- takahashi1990_caisson.py 10-56 -/
def check_validity (Ns Bt : Val n := nan) : PyM Unit := do
  let f := "Takahashi et al (1990)"
  check_if_given [Ns] "Stability number Ns" f Ns 0 PF.pinf
  check_if_given [Bt] "Toe width Bt" f Bt 0 PF.pinf

/-- takahashi1990_caisson.py 371-389: the value of the stability number.  `disper` is the external
dispersion solver, see `calculate_local_wavelength`.  (The two functions of this file that search,
118-327, are in Array/ToeSearch.lean.) -/
def ns_value (disper : PF → PF → PF → PF) (Hs Tp hacc Bt beta : Val n) (g : PF := 9.81) :
    PyM (Val n) := do
  let beta := Val.deg2rad beta
  let Lp ← calculate_local_wavelength disper (T := Tp) (h := hacc) (g := g)
  let k := (2 * Val.pi) / Lp
  let hacck2 := 2 * k * hacc
  let kappa_1 := hacck2 / Val.sinh hacck2
  let kappa_2a := 0.45 * npow (Val.sin beta) 2 * npow (Val.cos (k * Bt * Val.cos beta)) 2
  let kappa_2b := npow (Val.cos beta) 2 * npow (Val.sin (k * Bt * Val.cos beta)) 2
  let kappa_2 := Val.max kappa_2a kappa_2b
  let kappa := kappa_1 * kappa_2
  let a := (1 - kappa) / npow kappa (1 / 3)
  let b := npow (1 - kappa) 2 / npow kappa (1 / 3)
  pure (Val.max 1.8 (1.3 * a * hacc / Hs + 1.8 * Val.exp (-1.5 * b * (hacc / Hs))))

/-- takahashi1990_caisson.py 330-393 -/
def calculate_stability_number_Ns (disper : PF → PF → PF → PF) (Hs Tp hacc Bt beta : Val n)
    (g : PF := 9.81) : PyM (Val n) := do
  let Ns ← ns_value disper Hs Tp hacc Bt beta g
  check_validity (Ns := Ns) (Bt := Bt)
  pure Ns

/-- takahashi1990_caisson.py 59-115 -/
def calculate_nominal_diameter_Dn50 (disper : PF → PF → PF → PF)
    (Hs Tp hacc Bt rho_rock rho_water beta : Val n) (g : PF := 9.81) : PyM (Val n) := do
  let Delta := calculate_buoyant_density_Delta (rho_rock := rho_rock) (rho_water := rho_water)
  let Ns ← calculate_stability_number_Ns disper Hs Tp hacc Bt beta g
  let Dn50 ← check_usage_stabilitynumber (Hs := Hs) (Ns := Ns) (Delta := Delta)
  pure Dn50.1

end Takahashi1990
end Arr
end
