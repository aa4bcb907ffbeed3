import Verif.Array.Core

/-! # Models of `hydraulic/wave_runup/vangent2001.py`,
`hydraulic/wave_overtopping/vangent2002_velocity.py`,
`structural/stability_rock_rear/vangent2007.py` and
`structural/stability_rock_rear/vangentpozueta2004.py`

The same functions called with arrays. -/

open Classical
open Val (nan npow whr pinf)
open Arr.CorePhysics Arr.CoreUtility
noncomputable section
namespace Arr
variable {n : ℕ}

namespace VanGent2001

/-- vangent2001.py 173-226 -/
def calculate_wave_runup_height_zXp (H Tmm10 gamma cot_alpha c0 c1 : Val n) : Val n :=
  let ksi_mm10 := calculate_Iribarren_number_ksi (H := H) (T := Tmm10) (cot_alpha := cot_alpha)
  let p := 0.5 * c1 / c0
  let zXp_a := c0 * ksi_mm10 * gamma * H
  let c2 := 0.25 * npow c1 2 / c0
  let zXp_b := (c1 - c2 / ksi_mm10) * gamma * H
  whr (ksi_mm10 <. p) zXp_a zXp_b

/-- vangent2001.py 8-52 -/
def calculate_wave_runup_height_z1p (Hs Tmm10 gamma cot_alpha : Val n) (c0 : Val n := 1.45)
    (c1 : Val n := 5.1) : Val n :=
  calculate_wave_runup_height_zXp (H := Hs) (Tmm10 := Tmm10) (gamma := gamma)
    (cot_alpha := cot_alpha) (c0 := c0) (c1 := c1)

/-- vangent2001.py 55-123 -/
def calculate_wave_runup_height_z2p (Tmm10 gamma cot_alpha : Val n) (Hm0 Hs : Val n := nan)
    (c0 : Val n := 1.35) (c1 : Val n := 4.7) : PyM (Val n) :=
  PyM.cond (PyM.or (PyM.and Hm0.isnan.truth Hs.isnan.truth)
      (PyM.and (PyM.not Hs.isnan.truth) (PyM.not Hm0.isnan.truth)))
    (PyM.raise .valueError) do
  let k ← PyM.cond (PyM.and Hs.isnan.truth (PyM.not Hm0.isnan.truth))
    (pure (1.45, 3.8, Hm0)) (pure (c0, c1, Hs))
  pure (calculate_wave_runup_height_zXp (H := k.2.2) (Tmm10 := Tmm10) (gamma := gamma)
    (cot_alpha := cot_alpha) (c0 := k.1) (c1 := k.2.1))

/-- vangent2001.py 126-170 -/
def calculate_wave_runup_height_z10p (Hs Tmm10 gamma cot_alpha : Val n) (c0 : Val n := 1.1)
    (c1 : Val n := 4.0) : Val n :=
  calculate_wave_runup_height_zXp (H := Hs) (Tmm10 := Tmm10) (gamma := gamma)
    (cot_alpha := cot_alpha) (c0 := c0) (c1 := c1)

/-- vangent2001.py 229-252 -/
def _invert_for_Hs (Hs_i0 z1p Tmm10 gamma cot_alpha : Val n) (c0 : Val n := 1.45) (c1 : Val n := 5.1) : Val n :=
  let ksi_mm10 := calculate_Iribarren_number_ksi (H := Hs_i0) (T := Tmm10) (cot_alpha := cot_alpha)
  let p := 0.5 * c1 / c0
  let H_a := z1p / (c0 * ksi_mm10 * gamma)
  let c2 := 0.25 * npow c1 2 / c0
  let H_b := z1p / ((c1 - c2 / ksi_mm10) * gamma)
  whr (ksi_mm10 <. p) H_a H_b

end VanGent2001

namespace VanGent2002Velocity

/-- vangent2002_velocity.py 6-60 -/
def calculate_maximum_wave_overtopping_velocity_uXp (Hs zXp Rc Bc gamma_f gamma_f_Crest : Val n)
    (cu1 : Val n := 1.7) (cu2 : Val n := 0.1) (g : Val n := 9.81) : Val n :=
  Val.sqrt (g * Hs) * cu1 * Val.sqrt gamma_f_Crest * Val.sqrt ((zXp - Rc) / (gamma_f * Hs))
    / (1 + cu2 * Bc / Hs)

/-- vangent2002_velocity.py 63-87 -/
def _invert_for_zXp (Hs uXp Rc Bc gamma_f gamma_f_Crest : Val n)
    (cu1 : Val n := 1.7) (cu2 : Val n := 0.1) (g : Val n := 9.81) : Val n :=
  npow ((uXp / Val.sqrt (g * Hs)) * (1.0 / (cu1 * Val.sqrt gamma_f_Crest)) * (1.0 + cu2 * Bc / Hs)) 2.0
    * Hs * gamma_f + Rc

end VanGent2002Velocity

/-- variables of the loops in the two rear-slope wave height solvers; `z1p` is unbound before the
first pass -/
structure RearState (n : ℕ) where
  iteration : ℕ
  Hs_i1 : Val n
  Hs_i0 : Val n
  z1p : Option (Val n)

/-- `iteration < max_iterations and np.max(np.abs(Hs_i1 - Hs_i0)) > tolerance`; the first conjunct is
the loop limit of `whileIter` -/
def RearState.go (tolerance : PF) (s : RearState n) : Prop :=
  (Val.abs (s.Hs_i1 - s.Hs_i0)).amax > tolerance

namespace VanGent2007Rear

/-- vangent2007.py 12-136 -/
def check_validity_range
    (Rc Rc2_front Rc2_rear Gc Dn50 B_element h Hs Tmm10 z1p S N_waves : Val n := nan) : PyM Unit := do
  let f := "Van Gent (2007)"
  check_if_given [Hs, Tmm10] "sm-1,0" f (calculate_wave_steepness_s Hs Tmm10) 0.023 0.054
  check_if_given [h, Hs] "h/Hs" f (h / Hs) 3.3 11.0
  check_if_given [N_waves] "N_waves" f N_waves 1000 10000
  check_if_given [Rc, Hs] "Rc/Hs" f (Rc / Hs) 0.5 1.9
  check_if_given [Rc, Dn50] "Rc/Dn50" f (Rc / Dn50) 7.0 22.0
  check_if_given [Rc, Hs, z1p] "(z1% - Rc)/Hs" f ((z1p - Rc) / Hs) 0.2 1.3
  check_if_given [Rc2_front, Hs] "Rc2,front/Hs" f (Rc2_front / Hs) 0.0 0.5
  check_if_given [B_element, Hs] "B_element/Hs" f (B_element / Hs) 0.5 1.5
  check_if_given [Gc, Hs] "Gc/Hs" f (Gc / Hs) 0.5 1.1
  check_if_given [Dn50, Hs] "Stability number Ns" f
    (calculate_stability_number_Ns Hs Dn50 (rho_rock := 2650) (rho_water := 1025)) 4.0 12.0
  check_if_given [Rc2_rear, Hs] "Rc2,rear/Hs" f (Rc2_rear / Hs) 0.0 1.3
  check_if_given [S] "S" f S 2.0 100.0

/-- vangent2007.py 139-226 -/
def calculate_damage_number_S (cot_alpha cot_phi gamma Hs Tmm10 Rc Rc2_front Rc2_rear N_waves : Val n)
    (Dn50 M50 rho_rock : Val n := nan) : PyM (Val n) := do
  let z1p := VanGent2001.calculate_wave_runup_height_z1p (Hs := Hs) (Tmm10 := Tmm10)
    (gamma := gamma) (cot_alpha := cot_alpha)
  let Dn50 ← check_usage_Dn50_or_M50 Dn50 M50 rho_rock
  let S := 0.00025 * npow cot_phi 1.25 * npow ((z1p - Rc) / Dn50) 2 * npow (Rc / Dn50) 0.5
    * (1 + 5 * Rc2_rear / (Rc - Rc2_rear)) * npow (1 + Rc2_front / Hs) (-1) * Val.sqrt N_waves
  check_validity_range (Dn50 := Dn50) (Hs := Hs) (Rc := Rc) (z1p := z1p) (Rc2_front := Rc2_front)
    (Rc2_rear := Rc2_rear) (N_waves := N_waves) (S := S)
  pure S

/-- vangent2007.py 229-303 -/
def calculate_nominal_rock_diameter_Dn50
    (cot_alpha cot_phi gamma S Hs Tmm10 Rc Rc2_front Rc2_rear N_waves : Val n) : PyM (Val n) := do
  let z1p := VanGent2001.calculate_wave_runup_height_z1p (Hs := Hs) (Tmm10 := Tmm10)
    (gamma := gamma) (cot_alpha := cot_alpha)
  let Dn50 := 0.036 * npow cot_phi 0.5 * npow (z1p - Rc) 0.8 * npow Rc 0.2
    * npow (1 + 5 * Rc2_rear / (Rc - Rc2_rear)) 0.4 * npow (1 + Rc2_front / Hs) (-0.4)
    * npow (S / Val.sqrt N_waves) (-0.4)
  check_validity_range (S := S) (Hs := Hs) (Rc := Rc) (z1p := z1p) (Rc2_front := Rc2_front)
    (Rc2_rear := Rc2_rear) (N_waves := N_waves) (Dn50 := Dn50)
  pure Dn50

/-- vangent2007.py 413-437 -/
def _invert_for_z1p (cot_phi S Dn50 Hs Rc Rc2_front Rc2_rear N_waves : Val n) : Val n :=
  Dn50 * npow ((S / Val.sqrt N_waves) * (1.0 / 0.00025) * npow cot_phi (-1.25)
    * npow (Rc / Dn50) (-0.5) * npow (1 + 5 * Rc2_rear / (Rc - Rc2_rear)) (-1.0)
    * (1 + Rc2_front / Hs)) 0.5 + Rc

/-- one pass of the loop, 374-392 -/
def height_step (cot_alpha cot_phi gamma S Tmm10 Rc Rc2_front Rc2_rear N_waves Dn50 : Val n)
    (s : RearState n) : RearState n :=
  let Hs_i0 := s.Hs_i1
  let z1p := _invert_for_z1p (cot_phi := cot_phi) (S := S) (Dn50 := Dn50) (Hs := Hs_i0) (Rc := Rc)
    (Rc2_front := Rc2_front) (Rc2_rear := Rc2_rear) (N_waves := N_waves)
  { iteration := s.iteration + 1
    Hs_i0 := Hs_i0
    Hs_i1 := VanGent2001._invert_for_Hs (Hs_i0 := Hs_i0) (z1p := z1p) (Tmm10 := Tmm10)
      (gamma := gamma) (cot_alpha := cot_alpha)
    z1p := some z1p }

/-- vangent2007.py 306-410 (reading `z1p` after a loop that was never entered raises
UnboundLocalError) -/
def calculate_maximum_significant_wave_height_Hs
    (cot_alpha cot_phi gamma S Tmm10 Rc Rc2_front Rc2_rear N_waves : Val n)
    (Dn50 M50 rho_rock : Val n := nan) (tolerance : PF := 1e-4) (max_iterations : ℕ := 10000) :
    PyM (Val n) := do
  let Dn50 ← check_usage_Dn50_or_M50 Dn50 M50 rho_rock
  let s := whileIter max_iterations (RearState.go tolerance)
    (height_step cot_alpha cot_phi gamma S Tmm10 Rc Rc2_front Rc2_rear N_waves Dn50)
    { iteration := 0, Hs_i1 := Rc2_front, Hs_i0 := Rc2_front + pinf, z1p := none }
  if s.iteration ≥ max_iterations then
    PyM.warn (.text "Maximum number of iterations reached, convergence not achieved")
  let Hs := s.Hs_i1
  match s.z1p with
  | none => PyM.raise .unboundLocal
  | some z1p => do
    check_validity_range (S := S) (Hs := Hs) (Rc := Rc) (z1p := z1p) (Rc2_front := Rc2_front)
      (Rc2_rear := Rc2_rear) (N_waves := N_waves) (Dn50 := Dn50)
    pure Hs

end VanGent2007Rear

namespace VanGentPozueta2004

/-- vangentpozueta2004.py 13-134 -/
def check_validity_range
    (Rc Rc_rear cot_phi gamma_f Dn50 rho_rock rho_water Bc Hs Tmm10 z1p S N_waves : Val n := nan) :
    PyM Unit := do
  let f := "Van Gent & Pozueta (2004)"
  check_if_given [Hs, Tmm10] "sm-1,0" f (calculate_wave_steepness_s Hs Tmm10) 0.019 0.036
  check_if_given [N_waves] "N_waves" f N_waves 0 4000
  check_if_given [Rc, Hs] "Rc/Hs" f (Rc / Hs) 0.3 2.0
  check_if_given [Rc_rear, Hs] "Rc_rear/Hs" f (Rc_rear / Hs) 0.3 6.0
  check_if_given [Bc, Hs] "B_c/Hs" f (Bc / Hs) 1.3 1.6
  check_if_given [Rc, Hs, z1p, gamma_f] "(z1% - Rc)/(gamma_f*Hs)" f ((z1p - Rc) / (gamma_f * Hs))
    0.0 1.4
  check_if_given [Hs, Dn50, rho_rock, rho_water] "Hs/(Delta*Dn50_rear)" f
    (calculate_stability_number_Ns (H := Hs) (D := Dn50) (rho_rock := rho_rock)
      (rho_water := rho_water)) 5.5 8.5
  check_if_given [cot_phi] "cot phi" f cot_phi 2.0 4.0
  check_if_given [S] "S" f S 2.0 50.0

/-- vangentpozueta2004.py 137-237 -/
def calculate_damage_number_S
    (cot_alpha cot_phi gamma_f gamma_f_Crest Hs Tmm10 Rc Rc_rear Bc N_waves : Val n)
    (Dn50 M50 rho_rock : Val n := nan) (rho_water : Val n := 1025.0) (cs : Val n := npow 0.008 6.0) :
    PyM (Val n) := do
  let z1p := VanGent2001.calculate_wave_runup_height_z1p (Hs := Hs) (Tmm10 := Tmm10)
    (gamma := gamma_f) (cot_alpha := cot_alpha)
  let u1p := VanGent2002Velocity.calculate_maximum_wave_overtopping_velocity_uXp (Hs := Hs)
    (zXp := z1p) (Rc := Rc) (Bc := Bc) (gamma_f := gamma_f) (gamma_f_Crest := gamma_f_Crest)
  let Delta := calculate_buoyant_density_Delta (rho_rock := rho_rock) (rho_water := rho_water)
  let Dn50 ← check_usage_Dn50_or_M50 Dn50 M50 rho_rock
  let S := cs * npow (u1p * Tmm10 / (Val.sqrt Delta * Dn50)) 6.0 * npow cot_phi (-2.5)
    * (1 + 10 * Val.exp (-Rc_rear / Hs)) * Val.sqrt N_waves
  check_validity_range (Rc := Rc) (Rc_rear := Rc_rear) (cot_phi := cot_phi) (gamma_f := gamma_f)
    (Dn50 := Dn50) (rho_rock := rho_rock) (rho_water := rho_water) (Bc := Bc) (Hs := Hs)
    (Tmm10 := Tmm10) (z1p := z1p) (S := S) (N_waves := N_waves)
  pure S

/-- vangentpozueta2004.py 240-335 -/
def calculate_nominal_rock_diameter_Dn50
    (cot_alpha cot_phi gamma_f gamma_f_Crest S Hs Tmm10 Rc Rc_rear Bc rho_rock N_waves : Val n)
    (rho_water : Val n := 1025.0) (cs : Val n := npow 0.008 6.0) : PyM (Val n) := do
  let z1p := VanGent2001.calculate_wave_runup_height_z1p (Hs := Hs) (Tmm10 := Tmm10)
    (gamma := gamma_f) (cot_alpha := cot_alpha)
  let u1p := VanGent2002Velocity.calculate_maximum_wave_overtopping_velocity_uXp (Hs := Hs)
    (zXp := z1p) (Rc := Rc) (Bc := Bc) (gamma_f := gamma_f) (gamma_f_Crest := gamma_f_Crest)
  let Delta := calculate_buoyant_density_Delta (rho_rock := rho_rock) (rho_water := rho_water)
  let Dn50 := npow cs (1.0 / 6.0) * npow (S / Val.sqrt N_waves) (-(1.0 / 6.0))
    * (u1p * Tmm10 / Val.sqrt Delta) * npow cot_phi (-(2.5 / 6.0))
    * npow (1 + 10 * Val.exp (-Rc_rear / Hs)) (1.0 / 6.0)
  check_validity_range (Rc := Rc) (Rc_rear := Rc_rear) (cot_phi := cot_phi) (gamma_f := gamma_f)
    (Dn50 := Dn50) (rho_rock := rho_rock) (rho_water := rho_water) (Bc := Bc) (Hs := Hs)
    (Tmm10 := Tmm10) (z1p := z1p) (S := S) (N_waves := N_waves)
  pure Dn50

/-- vangentpozueta2004.py 477-502 -/
def _invert_for_u1p (cot_phi S Hs Tmm10 Rc_rear N_waves : Val n) (Dn50 Delta : Val n := nan)
    (cs : Val n := npow 0.008 6.0) : Val n :=
  npow ((1.0 / cs) * (S / Val.sqrt N_waves) * npow cot_phi 2.5
    * (1.0 / (1 + 10 * Val.exp (-Rc_rear / Hs)))) (1.0 / 6.0) * Val.sqrt Delta * Dn50 / Tmm10

/-- one pass of the loop, 418-451 -/
def height_step (cot_alpha cot_phi gamma_f gamma_f_Crest S Tmm10 Rc Rc_rear Bc N_waves Dn50 Delta
    cs : Val n) (s : RearState n) : RearState n :=
  let Hs_i0 := s.Hs_i1
  let u1p := _invert_for_u1p (cot_phi := cot_phi) (S := S) (Hs := Hs_i0) (Tmm10 := Tmm10)
    (Rc_rear := Rc_rear) (N_waves := N_waves) (Dn50 := Dn50) (Delta := Delta) (cs := cs)
  let z1p := VanGent2002Velocity._invert_for_zXp (Hs := Hs_i0) (uXp := u1p) (Rc := Rc) (Bc := Bc)
    (gamma_f := gamma_f) (gamma_f_Crest := gamma_f_Crest)
  { iteration := s.iteration + 1
    Hs_i0 := Hs_i0
    Hs_i1 := VanGent2001._invert_for_Hs (Hs_i0 := Hs_i0) (z1p := z1p) (Tmm10 := Tmm10)
      (gamma := gamma_f) (cot_alpha := cot_alpha)
    z1p := some z1p }

/-- vangentpozueta2004.py 338-474 -/
def calculate_maximum_significant_wave_height_Hs
    (cot_alpha cot_phi gamma_f gamma_f_Crest S Tmm10 Rc Rc_rear Bc N_waves : Val n)
    (Dn50 M50 rho_rock : Val n := nan) (rho_water : Val n := 1025.0) (cs : Val n := npow 0.008 6.0)
    (tolerance : PF := 1e-4) (max_iterations : ℕ := 10000) : PyM (Val n) := do
  let Delta := calculate_buoyant_density_Delta (rho_rock := rho_rock) (rho_water := rho_water)
  let Dn50 ← check_usage_Dn50_or_M50 Dn50 M50 rho_rock
  let Hs_i1 := (Rc + 0.5) / (2.552 * gamma_f)
  let s := whileIter max_iterations (RearState.go tolerance)
    (height_step cot_alpha cot_phi gamma_f gamma_f_Crest S Tmm10 Rc Rc_rear Bc N_waves Dn50 Delta cs)
    { iteration := 0, Hs_i1 := Hs_i1, Hs_i0 := Hs_i1 + pinf, z1p := none }
  if s.iteration ≥ max_iterations then
    PyM.warn (.text "Maximum number of iterations reached, convergence not achieved")
  let Hs := s.Hs_i1
  match s.z1p with
  | none => PyM.raise .unboundLocal
  | some z1p => do
    check_validity_range (Rc := Rc) (Rc_rear := Rc_rear) (cot_phi := cot_phi) (gamma_f := gamma_f)
      (Dn50 := Dn50) (rho_rock := rho_rock) (rho_water := rho_water) (Bc := Bc) (Hs := Hs)
      (Tmm10 := Tmm10) (z1p := z1p) (S := S) (N_waves := N_waves)
    pure Hs

end VanGentPozueta2004
end Arr
end
