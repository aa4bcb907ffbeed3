import Verif.Model.CoreUtility
import Verif.Model.CorePhysics

/-! # Models of `vandermeer1988.py`, `vandermeer1988_modified.py` and `vandermeer2021.py` in
`functions/structural/stability_rock_armour/` -/

open Classical
open PF (nan npow whr)
open CorePhysics CoreUtility
noncomputable section

namespace VdM1988

/-- vandermeer1988.py 9-84 -/
def check_validity_range (Hs H2p Tp N_waves cot_alpha P rho_armour : PF := nan) : PyM Unit := do
  let f := "Van der Meer (1988)"
  check_if_given [P] "Notional permeability P" f P 0.1 0.6
  check_if_given [cot_alpha] "Cotangent of outer structure slope cot_alpha" f cot_alpha 1.1 7.0
  check_if_given [Hs, Tp] "Wave steepness s0p" f (calculate_wave_steepness_s (H := Hs) (T := Tp))
    0.005 0.06
  check_if_given [N_waves] "Number of waves N_waves" f N_waves 0 7500
  check_if_given [Hs, H2p] "Ratio H2%/Hs" f (H2p / Hs) 1.10 1.40
  check_if_given [rho_armour] "Density of armour layer rock rho_armour" f rho_armour 2000 3100

/-- vandermeer1988.py 418-447 -/
def calculate_correction_term_gamma_N (N_waves : PF) : PF :=
  let gamma_N_few := PF.sqrt (1000 / N_waves)
  let gamma_N_many := PF.sqrt N_waves /
    (PF.sqrt 5000 * (1.3 * (1 - PF.exp (-0.00031 * N_waves))))
  let gamma_N_tmp := whr (N_waves < 1000) gamma_N_few 1.0
  whr (N_waves > 5000) gamma_N_many gamma_N_tmp

/-- vandermeer1988.py 87-194 -/
def calculate_damage_number_S (Hs H2p Tm N_waves cot_alpha P rho_armour : PF)
    (Dn50 M50 : PF := nan) (c_pl : PF := 8.7) (c_s : PF := 1.4) (rho_water : PF := 1025.0) :
    PyM PF := do
  let Dn50 ← check_usage_Dn50_or_M50 (Dn50 := Dn50) (M50 := M50) (rho_rock := rho_armour)
  let ksi_0m := calculate_Iribarren_number_ksi (H := Hs) (T := Tm) (cot_alpha := cot_alpha)
  let ksi_mc := calculate_critical_Iribarren_number_ksi_mc (c_pl := c_pl) (c_s := c_s) (P := P)
    (cot_alpha := cot_alpha)
  let gamma_N := calculate_correction_term_gamma_N (N_waves := N_waves)
  let Ns := calculate_stability_number_Ns (H := Hs) (D := Dn50) (rho_rock := rho_armour)
    (rho_water := rho_water)
  let S_pl := npow (Ns * (H2p / Hs) * (1 / c_pl) * npow P (-0.18) * npow ksi_0m 0.5) 5
    * (1 / gamma_N) * PF.sqrt N_waves
  let S_s := npow (Ns * (H2p / Hs) * (1 / c_s) * npow P 0.13 * (1 / PF.sqrt cot_alpha)
    * npow ksi_0m (-P)) 5 * (1 / gamma_N) * PF.sqrt N_waves
  let S := whr (ksi_0m < ksi_mc ∨ cot_alpha ≥ 4.0) S_pl S_s
  check_validity_range (P := P) (Hs := Hs) (cot_alpha := cot_alpha) (H2p := H2p)
    (rho_armour := rho_armour) (N_waves := N_waves)
  pure S

/-- vandermeer1988.py 197-295 -/
def calculate_nominal_rock_diameter_Dn50 (Hs H2p Tm N_waves cot_alpha P rho_armour S : PF)
    (c_pl : PF := 8.7) (c_s : PF := 1.4) (rho_water : PF := 1025.0) : PyM PF := do
  let ksi_0m := calculate_Iribarren_number_ksi (H := Hs) (T := Tm) (cot_alpha := cot_alpha)
  let ksi_mc := calculate_critical_Iribarren_number_ksi_mc (c_pl := c_pl) (c_s := c_s) (P := P)
    (cot_alpha := cot_alpha)
  let gamma_N := calculate_correction_term_gamma_N (N_waves := N_waves)
  let Delta := calculate_buoyant_density_Delta (rho_rock := rho_armour) (rho_water := rho_water)
  let Dn50_pl := (Hs / Delta) * (H2p / Hs) * (1 / c_pl) * npow P (-0.18)
    * npow (gamma_N * S / PF.sqrt N_waves) (-0.2) * npow ksi_0m 0.5
  let Dn50_s := (Hs / Delta) * (H2p / Hs) * (1 / c_s) * npow P 0.13
    * npow (gamma_N * S / PF.sqrt N_waves) (-0.2) * (1 / PF.sqrt cot_alpha) * npow ksi_0m (-P)
  let Dn50 := whr (ksi_0m < ksi_mc ∨ cot_alpha ≥ 4.0) Dn50_pl Dn50_s
  check_validity_range (P := P) (Hs := Hs) (cot_alpha := cot_alpha) (H2p := H2p)
    (rho_armour := rho_armour) (N_waves := N_waves)
  pure Dn50

/-- vandermeer1988.py 298-415 -/
def calculate_significant_wave_height_Hs (ratio_H2p_Hs Tm N_waves cot_alpha P rho_armour S : PF)
    (Dn50 M50 : PF := nan) (c_pl : PF := 8.7) (c_s : PF := 1.4) (g : PF := 9.81)
    (rho_water : PF := 1025.0) : PyM PF := do
  let Dn50 ← check_usage_Dn50_or_M50 (Dn50 := Dn50) (M50 := M50) (rho_rock := rho_armour)
  let ksi_mc := calculate_critical_Iribarren_number_ksi_mc (c_pl := c_pl) (c_s := c_s) (P := P)
    (cot_alpha := cot_alpha)
  let gamma_N := calculate_correction_term_gamma_N (N_waves := N_waves)
  let Delta := calculate_buoyant_density_Delta (rho_rock := rho_armour) (rho_water := rho_water)
  let Hs_pl := npow (c_pl * npow P 0.18 * npow (gamma_N * S / PF.sqrt N_waves) 0.2
    * npow (1.0 / cot_alpha) (-0.5) * npow ((2 * PF.pi / g) * (1.0 / npow Tm 2)) 0.25
    * Delta * Dn50 * (1 / ratio_H2p_Hs)) (1.0 / 0.75)
  let Hs_s := npow (c_s * npow P (-0.13) * npow (gamma_N * S / PF.sqrt N_waves) 0.2
    * npow (1.0 / cot_alpha) P * npow ((2 * PF.pi / g) * (1.0 / npow Tm 2)) (-0.5 * P)
    * npow (1.0 / cot_alpha) (-0.5) * Delta * Dn50 * (1 / ratio_H2p_Hs)) (1.0 / (1.0 + 0.5 * P))
  let ksi_0m_pl := calculate_Iribarren_number_ksi (H := Hs_pl) (T := Tm) (cot_alpha := cot_alpha)
  let ksi_0m_s := calculate_Iribarren_number_ksi (H := Hs_s) (T := Tm) (cot_alpha := cot_alpha)
  let Hs := whr ((ksi_0m_pl < ksi_mc ∧ ksi_0m_s < ksi_mc) ∨ cot_alpha ≥ 4.0) Hs_pl Hs_s
  check_validity_range (Hs := Hs) (N_waves := N_waves) (cot_alpha := cot_alpha) (P := P)
    (rho_armour := rho_armour)
  pure Hs

end VdM1988

namespace VdMModified

/-- vandermeer1988_modified.py 9-119 -/
def check_validity_range (Hs H2p Tmm10 N_waves cot_alpha P Dn50 rho_armour : PF := nan)
    (rho_water : PF := 1025.0) : PyM Unit := do
  let f := "Modified Van der Meer (Van Gent et al., 2003)"
  check_if_given [P] "Notional permeability P" f P 0.1 0.6
  check_if_given [Hs, Dn50, rho_armour] "Stability number Ns" f
    (calculate_stability_number_Ns (H := Hs) (D := Dn50) (rho_rock := rho_armour)
      (rho_water := rho_water)) 0.5 4.5
  check_if_given [Hs, Tmm10, cot_alpha] "Iribarren number ksi_m-1,0" f
    (calculate_Iribarren_number_ksi (H := Hs) (T := Tmm10) (cot_alpha := cot_alpha)) 1.3 15.0
  check_if_given [cot_alpha] "Cotangent of outer structure slope cot_alpha" f cot_alpha 2.0 4.0
  check_if_given [N_waves] "Number of waves N_waves" f N_waves 0 3000
  check_if_given [Hs, H2p] "Ratio H2%/Hs" f (H2p / Hs) 1.20 1.40

/-- vandermeer1988_modified.py 122-223 -/
def calculate_damage_number_S (Hs H2p Tmm10 N_waves cot_alpha P rho_armour : PF)
    (Dn50 M50 : PF := nan) (c_pl : PF := 8.4) (c_s : PF := 1.3) (rho_water : PF := 1025.0) :
    PyM PF := do
  let Dn50 ← check_usage_Dn50_or_M50 (Dn50 := Dn50) (M50 := M50) (rho_rock := rho_armour)
  let ksi_mm10 := calculate_Iribarren_number_ksi (H := Hs) (T := Tmm10) (cot_alpha := cot_alpha)
  let ksi_mc := calculate_critical_Iribarren_number_ksi_mc (c_pl := c_pl) (c_s := c_s) (P := P)
    (cot_alpha := cot_alpha)
  let Ns := calculate_stability_number_Ns (H := Hs) (D := Dn50) (rho_rock := rho_armour)
    (rho_water := rho_water)
  let S_pl := npow ((1 / c_pl) * npow P (-0.18) * npow ksi_mm10 0.5 * Ns * (H2p / Hs)) 5
    * PF.sqrt N_waves
  let S_s := npow ((1 / c_s) * npow P 0.13 * npow ksi_mm10 (-P) * PF.sqrt (1 / cot_alpha)
    * Ns * (H2p / Hs)) 5 * PF.sqrt N_waves
  let S := whr (ksi_mm10 < ksi_mc ∨ cot_alpha ≥ 4.0) S_pl S_s
  check_validity_range (Hs := Hs) (H2p := H2p) (Tmm10 := Tmm10) (N_waves := N_waves)
    (cot_alpha := cot_alpha) (P := P) (Dn50 := Dn50) (rho_armour := rho_armour)
  pure S

/-- vandermeer1988_modified.py 226-324 -/
def calculate_nominal_rock_diameter_Dn50 (Hs H2p Tmm10 N_waves cot_alpha P rho_armour S : PF)
    (c_pl : PF := 8.4) (c_s : PF := 1.3) (rho_water : PF := 1025.0) : PyM PF := do
  let ksi_mm10 := calculate_Iribarren_number_ksi (H := Hs) (T := Tmm10) (cot_alpha := cot_alpha)
  let ksi_mc := calculate_critical_Iribarren_number_ksi_mc (c_pl := c_pl) (c_s := c_s) (P := P)
    (cot_alpha := cot_alpha)
  let Delta := calculate_buoyant_density_Delta (rho_rock := rho_armour) (rho_water := rho_water)
  let Dn50_pl := (Hs / Delta) * (H2p / Hs) * (1 / c_pl) * npow P (-0.18)
    * npow (S / PF.sqrt N_waves) (-0.2) * npow ksi_mm10 0.5
  let Dn50_s := (Hs / Delta) * (H2p / Hs) * (1 / c_s) * npow P 0.13
    * npow (S / PF.sqrt N_waves) (-0.2) * (1 / PF.sqrt cot_alpha) * npow ksi_mm10 (-P)
  let Dn50 := whr (ksi_mm10 < ksi_mc ∨ cot_alpha ≥ 4.0) Dn50_pl Dn50_s
  check_validity_range (Hs := Hs) (H2p := H2p) (Tmm10 := Tmm10) (N_waves := N_waves)
    (cot_alpha := cot_alpha) (P := P) (Dn50 := Dn50) (rho_armour := rho_armour)
  pure Dn50

/-- vandermeer1988_modified.py 327-447 -/
def calculate_significant_wave_height_Hs (ratio_H2p_Hs Tmm10 N_waves cot_alpha P rho_armour S : PF)
    (Dn50 M50 : PF := nan) (c_pl : PF := 8.4) (c_s : PF := 1.3) (g : PF := 9.81)
    (rho_water : PF := 1025.0) : PyM PF := do
  let Dn50 ← check_usage_Dn50_or_M50 (Dn50 := Dn50) (M50 := M50) (rho_rock := rho_armour)
  let ksi_mc := calculate_critical_Iribarren_number_ksi_mc (c_pl := c_pl) (c_s := c_s) (P := P)
    (cot_alpha := cot_alpha)
  let Delta := calculate_buoyant_density_Delta (rho_rock := rho_armour) (rho_water := rho_water)
  let Hs_pl := npow (c_pl * npow P 0.18 * npow (S / PF.sqrt N_waves) 0.2
    * npow (1.0 / cot_alpha) (-0.5) * npow ((2 * PF.pi / g) * (1.0 / npow Tmm10 2)) 0.25
    * Delta * Dn50 * (1 / ratio_H2p_Hs)) (1.0 / 0.75)
  let Hs_s := npow (c_s * npow P (-0.13) * npow (S / PF.sqrt N_waves) 0.2
    * npow (1.0 / cot_alpha) P * npow ((2 * PF.pi / g) * (1.0 / npow Tmm10 2)) (-0.5 * P)
    * npow (1.0 / cot_alpha) (-0.5) * Delta * Dn50 * (1 / ratio_H2p_Hs)) (1.0 / (1.0 + 0.5 * P))
  let ksi_mm10_pl := calculate_Iribarren_number_ksi (H := Hs_pl) (T := Tmm10)
    (cot_alpha := cot_alpha)
  let ksi_mm10_s := calculate_Iribarren_number_ksi (H := Hs_s) (T := Tmm10) (cot_alpha := cot_alpha)
  let Hs := whr ((ksi_mm10_pl < ksi_mc ∧ ksi_mm10_s < ksi_mc) ∨ cot_alpha ≥ 4.0) Hs_pl Hs_s
  check_validity_range (Hs := Hs) (Tmm10 := Tmm10) (N_waves := N_waves) (cot_alpha := cot_alpha)
    (P := P) (Dn50 := Dn50) (rho_armour := rho_armour)
  pure Hs

end VdMModified

namespace VdM2021

/-- vandermeer2021.py 9-85 (no `rho_water` argument: the callee's default 1025.0 is used) -/
def calculate_damage_number_S (Hs Tmm10 N_waves cot_alpha P rho_armour : PF)
    (Dn50 M50 : PF := nan) (c_pl : PF := 6.49) (c_s : PF := 0.97) (c_pl_mult : PF := 1.0)
    (c_s_mult : PF := 1.0) : PyM PF := do
  let S ← VdMModified.calculate_damage_number_S (Hs := Hs) (H2p := Hs) (Tmm10 := Tmm10)
    (N_waves := N_waves) (cot_alpha := cot_alpha) (P := P) (rho_armour := rho_armour)
    (Dn50 := Dn50) (M50 := M50) (c_pl := c_pl * c_pl_mult) (c_s := c_s * c_s_mult)
  VdM1988.check_validity_range (P := P) (Hs := Hs) (cot_alpha := cot_alpha)
    (rho_armour := rho_armour) (N_waves := N_waves)
  pure S

/-- vandermeer2021.py 88-159 -/
def calculate_nominal_rock_diameter_Dn50 (Hs Tmm10 N_waves cot_alpha P rho_armour S : PF)
    (c_pl : PF := 6.49) (c_s : PF := 0.97) (c_pl_mult : PF := 1.0) (c_s_mult : PF := 1.0) :
    PyM PF := do
  let Dn50 ← VdMModified.calculate_nominal_rock_diameter_Dn50 (Hs := Hs) (H2p := Hs)
    (Tmm10 := Tmm10) (N_waves := N_waves) (cot_alpha := cot_alpha) (P := P)
    (rho_armour := rho_armour) (S := S) (c_pl := c_pl * c_pl_mult) (c_s := c_s * c_s_mult)
  VdM1988.check_validity_range (P := P) (Hs := Hs) (cot_alpha := cot_alpha)
    (rho_armour := rho_armour) (N_waves := N_waves)
  pure Dn50

/-- vandermeer2021.py 162-241 -/
def calculate_significant_wave_height_Hs (Tmm10 N_waves cot_alpha P rho_armour S : PF)
    (Dn50 M50 : PF := nan) (c_pl : PF := 6.49) (c_s : PF := 0.97) (c_pl_mult : PF := 1.0)
    (c_s_mult : PF := 1.0) (g : PF := 9.81) : PyM PF := do
  let Hs ← VdMModified.calculate_significant_wave_height_Hs (ratio_H2p_Hs := 1.0) (Tmm10 := Tmm10)
    (N_waves := N_waves) (cot_alpha := cot_alpha) (P := P) (rho_armour := rho_armour) (S := S)
    (Dn50 := Dn50) (M50 := M50) (c_pl := c_pl * c_pl_mult) (c_s := c_s * c_s_mult) (g := g)
  VdM1988.check_validity_range (P := P) (Hs := Hs) (cot_alpha := cot_alpha)
    (rho_armour := rho_armour) (N_waves := N_waves)
  pure Hs

end VdM2021
end
