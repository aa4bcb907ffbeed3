import Verif.Model.CorePhysics
import Verif.Model.CoreUtility
import Verif.Py.Loop

/-!
# Models of `functions/hydraulic/wave_overtopping/vangent2021_caisson.py`, `vangent2025.py`,
`deridder2024.py`, `deridder2026.py`
-/

open Classical
open PF (nan npow whr pinf)
open CorePhysics CoreUtility
noncomputable section

namespace VanGent2021Caisson

/-- wave_overtopping/vangent2021_caisson.py 9-66 -/
def check_validity_range (Hm0 Tmm10 beta Rc q_diml : PF := nan) : PyM Unit := do
  check_if_given [Hm0, Tmm10] "Wave steepness sm-1,0" "Van Gent (2021)"
    (calculate_wave_steepness_s Hm0 Tmm10) 0.015 0.041
  check_if_given [Hm0, Rc] "Dimensionless freeboard Rc/Hm0" "Van Gent (2021)" (Rc / Hm0) 1.2 2.9
  check_if_given [q_diml] "Dimensionless overtopping discharge q" "Van Gent (2021)" q_diml 0.0 0.0012
  check_if_given [beta] "Incident wave angle beta" "Van Gent (2021)" beta 0.0 75.0

/-- wave_overtopping/vangent2021_caisson.py 434-491: `(a, b, c_beta, gamma_p)` -/
def determine_coefficients (c : PF) (short_crested_waves crossing_seas parapet : Bool) :
    PyM (PF × PF × PF × PF) :=
  if PF.eqF c 1.0 then
    if short_crested_waves || crossing_seas then
      pure (0.2, 3.9, 0.75, if parapet then 0.89 else 1.0)
    else if parapet then PyM.raise .valueError
    else pure (0.2, 4.0, 0.8, 1.0)
  else if PF.eqF c 1.3 then
    if short_crested_waves || crossing_seas then
      pure (0.047, 2.57, 0.70, if parapet then 0.85 else 1.0)
    else if parapet then PyM.raise .valueError
    else pure (0.047, 2.7, 0.8, 1.0)
  else PyM.raise .valueError

/-- wave_overtopping/vangent2021_caisson.py 231-261 -/
def calculate_influence_oblique_waves_gamma_beta (beta gamma_p c_beta : PF) : PF :=
  (1 - c_beta / gamma_p) * npow (PF.cos (PF.deg2rad beta)) 2 + c_beta / gamma_p

/-- the treatment of the swell coefficient, lines 202-208 (and 401-407) -/
def swell_coefficient (c_swell Hm0_swell : PF) (crossing_seas : Bool) : PyM PF :=
  if !crossing_seas then pure 0.0
  else if Hm0_swell.isnan then PyM.raise .valueError
  else pure c_swell

/-- wave_overtopping/vangent2021_caisson.py 139-228 -/
def calculate_dimensionless_overtopping_discharge_q (Hm0 Rc : PF)
    (beta gamma_beta Hm0_swell : PF := nan) (c : PF := 1.0) (c_swell : PF := 0.4)
    (short_crested_waves : Bool := true) (crossing_seas parapet : Bool := false) : PyM PF := do
  let k ← determine_coefficients c short_crested_waves crossing_seas parapet
  let a := k.1
  let b := k.2.1
  let c_beta := k.2.2.1
  let gamma_p := k.2.2.2
  let c_swell ← swell_coefficient c_swell Hm0_swell crossing_seas
  let gamma_beta := if gamma_beta.isnan then
    calculate_influence_oblique_waves_gamma_beta beta gamma_p c_beta else gamma_beta
  let q_diml := a * PF.exp (-(b / (gamma_beta * gamma_p)) * npow ((Rc - c_swell * Hm0_swell) / Hm0) c)
  check_validity_range (Hm0 := Hm0) (beta := beta) (Rc := Rc) (q_diml := q_diml)
  pure q_diml

/-- wave_overtopping/vangent2021_caisson.py 69-136 -/
def calculate_overtopping_discharge_q (Hm0 Rc : PF)
    (beta gamma_beta Hm0_swell : PF := nan) (c : PF := 1.0) (c_swell : PF := 0.4)
    (short_crested_waves : Bool := true) (crossing_seas parapet : Bool := false)
    (g : PF := 9.81) : PyM PF := do
  let q_diml ← calculate_dimensionless_overtopping_discharge_q (Hm0 := Hm0) (Hm0_swell := Hm0_swell)
    (Rc := Rc) (beta := beta) (gamma_beta := gamma_beta) (c := c) (c_swell := c_swell)
    (short_crested_waves := short_crested_waves) (crossing_seas := crossing_seas)
    (parapet := parapet)
  pure (q_diml * PF.sqrt (g * npow Hm0 3))

/-- wave_overtopping/vangent2021_caisson.py 336-431 -/
def calculate_dimensionless_crest_freeboard (Hm0 q : PF)
    (beta gamma_beta Hm0_swell : PF := nan) (c : PF := 1.0) (c_swell : PF := 0.4)
    (short_crested_waves : Bool := true) (crossing_seas parapet : Bool := false)
    (g : PF := 9.81) : PyM PF := do
  let k ← determine_coefficients c short_crested_waves crossing_seas parapet
  let a := k.1
  let b := k.2.1
  let c_beta := k.2.2.1
  let gamma_p := k.2.2.2
  let c_swell ← swell_coefficient c_swell Hm0_swell crossing_seas
  let gamma_beta := if gamma_beta.isnan then
    calculate_influence_oblique_waves_gamma_beta beta gamma_p c_beta else gamma_beta
  let Rc_diml := npow (PF.log ((q / PF.sqrt (g * npow Hm0 3.0)) * (1.0 / a))
      * (-gamma_beta * gamma_p / b)) (1.0 / c)
    + c_swell * Hm0_swell / Hm0
  check_validity_range (Hm0 := Hm0) (beta := beta) (Rc := Rc_diml * Hm0)
  pure Rc_diml

/-- wave_overtopping/vangent2021_caisson.py 264-333 -/
def calculate_crest_freeboard_Rc (Hm0 q : PF)
    (beta gamma_beta Hm0_swell : PF := nan) (c : PF := 1.0) (c_swell : PF := 0.4)
    (short_crested_waves : Bool := true) (crossing_seas parapet : Bool := false)
    (g : PF := 9.81) : PyM PF := do
  let Rc_diml ← calculate_dimensionless_crest_freeboard (Hm0 := Hm0) (q := q) (beta := beta)
    (gamma_beta := gamma_beta) (Hm0_swell := Hm0_swell) (c := c) (c_swell := c_swell)
    (short_crested_waves := short_crested_waves) (crossing_seas := crossing_seas)
    (parapet := parapet) (g := g)
  pure (Rc_diml * Hm0)

end VanGent2021Caisson

namespace VanGent2025

/-- wave_overtopping/vangent2025.py 9-166 (the `Gc` check tests `Rc`, 134-141; the berm checks are
conditional on `Rc`, 143-159) -/
def check_validity_range (Hm0 Hm0_deep Tmm10 beta h cot_alpha Dn50 Rc Ac Gc B_berm db : PF := nan) :
    PyM Unit := do
  check_if_given [cot_alpha] "Cotangent alpha slope" "Van Gent et al. (2025)" cot_alpha 1.5 8.0
  check_if_given [Hm0, Tmm10] "Wave steepness sm-1,0" "Van Gent et al. (2025)"
    (calculate_wave_steepness_s Hm0 Tmm10) 0.001 0.042
  check_if_given [Hm0, Tmm10, cot_alpha] "Iribarren number ksi_m-1,0" "Van Gent et al. (2025)"
    (calculate_Iribarren_number_ksi Hm0 Tmm10 cot_alpha) 0.05 6.0
  check_if_given [Hm0, h] "Relative water depth h / Hm0" "Van Gent et al. (2025)" (h / Hm0) 0.6 5.0
  check_if_given [Hm0_deep, h] "Ratio Hm0_deep / h" "Van Gent et al. (2025)" (Hm0_deep / h) 0.0 1.0
  check_if_given [Hm0, Rc] "Non-dimensional crest freeboard Rc / Hm0" "Van Gent et al. (2025)"
    (Rc / Hm0) 0.6 5.0
  check_if_given [Hm0, Dn50] "Non-dimensional stone diameter Dn50 / Hm0" "Van Gent et al. (2025)"
    (Dn50 / Hm0) 0.12 0.9
  check_if_given [Hm0, Rc, Ac] "Non-dimensional protruding part of crest wall (Rc - Ac) / Hm0"
    "Van Gent et al. (2025)" ((Rc - Ac) / Hm0) 0.0 0.68
  check_if_given [Hm0, Gc] "Non-dimensional armour width in front of crest wall Gc / Hm0"
    "Van Gent et al. (2025)" (Rc / Hm0) 0.6 5.0
  check_if_given [Hm0, Rc] "Non-dimensional Berm width B / Hm0" "Van Gent et al. (2025)"
    (B_berm / Hm0) 0.6 5.0
  check_if_given [Hm0, Rc] "Non-dimensional Berm height db / Hm0" "Van Gent et al. (2025)"
    (db / Hm0) (-1.7) 0.5
  check_if_given [beta] "Incident wave angle beta" "Van Gent et al. (2025)" beta 0.0 75.0

/-- wave_overtopping/vangent2025.py 409-477 -/
def q_diml_max_equation (Hm0 Hm0_swell ksi_mm10 cot_alpha Rc gamma_f gamma_b gamma_v gamma_beta : PF)
    (c2 : PF := 0.8) (c3 : PF := -2.5) : PF :=
  c2 * npow cot_alpha (-1.0)
    * PF.exp (c3 * (Rc - 0.4 * Hm0_swell)
        / (gamma_f * gamma_b * gamma_v * gamma_beta * npow ksi_mm10 0.24 * Hm0))

/-- wave_overtopping/vangent2025.py 480-523 -/
def calculate_influence_friction_gamma_f (Dn50 Hm0 smm10 : PF) (c_f1 : PF := 0.70) (c_f2 : PF := 0.05)
    (smm10_lim : PF := 0.012) : PF :=
  let gamma_f1 := 1.0 - c_f1 * npow (Dn50 / Hm0) c_f2
  whr (smm10 ≥ smm10_lim) gamma_f1 (gamma_f1 + 12.0 * (smm10_lim - smm10) * (1.0 - gamma_f1))

/-- wave_overtopping/vangent2025.py 526-574 -/
def calculate_influence_berm_gamma_b (Hm0 smm10 Ac B_berm BL : PF) (c_b1 : PF := 18.0)
    (c_b2 : PF := 1.3) (c_b3 : PF := 0.34) (c_b4 : PF := 0.2) : PF :=
  1.0 - c_b1 * npow (smm10 * B_berm / Hm0) c_b2 * (1.0 - c_b3 * npow (BL / (smm10 * Ac)) c_b4)

/-- wave_overtopping/vangent2025.py 577-602 -/
def calculate_influence_oblique_waves_gamma_beta (beta : PF) (c_beta : PF := 0.35) : PF :=
  (1 - c_beta) * npow (PF.cos (PF.deg2rad beta)) 2 + c_beta

/-- wave_overtopping/vangent2025.py 605-641 -/
def calculate_influence_crest_wall_gamma_v (cot_alpha Rc Ac : PF) (c_v : PF := 0.45) : PF :=
  whr (cot_alpha ≤ 4.0) (1.0 + c_v * (Rc - Ac) / Rc) (1.0 + 0.1125 * cot_alpha * (Rc - Ac) / Rc)

/-- wave_overtopping/vangent2025.py 644-676 -/
def calculate_influence_wind_gamma_w (Rc Ac Hm0 q_diml : PF) (c_w1 : PF := 0.075)
    (c_w2 : PF := -0.3) : PF :=
  let hc := Rc - Ac
  1.0 + c_w1 * (hc / Hm0) * npow q_diml c_w2

/-- `gamma_f` when not given, lines 351-355 (and 868-872) -/
def friction_or_raise (Hm0 Tmm10 Dn50 gamma_f : PF) : PyM PF :=
  if gamma_f.isnan then
    if Dn50.isnan then PyM.raise .valueError
    else pure (calculate_influence_friction_gamma_f (Dn50 := Dn50) (Hm0 := Hm0)
      (smm10 := calculate_wave_steepness_s Hm0 Tmm10))
  else pure gamma_f

/-- wave_overtopping/vangent2025.py 262-406 -/
def calculate_dimensionless_overtopping_discharge_q (Hm0 Hm0_swell Tmm10 Rc Ac : PF)
    (cot_alpha beta : PF := nan) (B_berm db : PF := 0.0)
    (Dn50 gamma_f gamma_b gamma_v gamma_beta : PF := nan)
    (design_calculation : Bool := true) (include_influence_wind : Bool := false) :
    PyM (PF × Bool) := do
  let gamma_beta := if gamma_beta.isnan then calculate_influence_oblique_waves_gamma_beta beta
    else gamma_beta
  let ksi_mm10 := calculate_Iribarren_number_ksi Hm0 Tmm10 cot_alpha
  let gamma_b := if gamma_b.isnan then
      calculate_influence_berm_gamma_b (Hm0 := Hm0) (smm10 := calculate_wave_steepness_s Hm0 Tmm10)
        (Ac := Ac) (B_berm := B_berm) (BL := Ac - db)
    else gamma_b
  let gamma_f ← friction_or_raise Hm0 Tmm10 Dn50 gamma_f
  let q_diml_eqB1 := 6.8 * npow cot_alpha (-1.0)
    * PF.exp (-5.0 * (Rc - 0.4 * Hm0_swell)
        / (gamma_f * gamma_b * gamma_v * gamma_beta * ksi_mm10 * Hm0))
  let q_diml_max := q_diml_max_equation (Hm0 := Hm0) (Hm0_swell := Hm0_swell) (ksi_mm10 := ksi_mm10)
    (cot_alpha := cot_alpha) (Rc := Rc) (gamma_f := gamma_f) (gamma_b := gamma_b)
    (gamma_v := gamma_v) (gamma_beta := gamma_beta)
  let q_diml := PF.min q_diml_eqB1 q_diml_max
  let max_reached := decide (PF.eqF (PF.min q_diml_eqB1 q_diml_max) q_diml_max)
  let q_diml := if include_influence_wind then
      q_diml * calculate_influence_wind_gamma_w (Rc := Rc) (Ac := Ac) (Hm0 := Hm0) (q_diml := q_diml)
    else q_diml
  let q_diml := if design_calculation then npow q_diml 0.857 else q_diml
  check_validity_range (Hm0 := Hm0) (Tmm10 := Tmm10) (beta := beta) (cot_alpha := cot_alpha)
    (Dn50 := Dn50) (Rc := Rc) (Ac := Ac) (B_berm := B_berm) (db := db)
  pure (q_diml, max_reached)

/-- wave_overtopping/vangent2025.py 169-259 -/
def calculate_overtopping_discharge_q (Hm0 Hm0_swell Tmm10 Rc Ac : PF)
    (cot_alpha beta : PF := nan) (B_berm db : PF := 0.0)
    (Dn50 gamma_f gamma_b gamma_v gamma_beta : PF := nan) (g : PF := 9.81)
    (design_calculation : Bool := true) (include_influence_wind : Bool := false) :
    PyM (PF × Bool) := do
  let r ← calculate_dimensionless_overtopping_discharge_q Hm0 Hm0_swell Tmm10 Rc Ac cot_alpha beta
    B_berm db Dn50 gamma_f gamma_b gamma_v gamma_beta design_calculation include_influence_wind
  pure (r.1 * PF.sqrt (g * npow Hm0 3), r.2)

/-- wave_overtopping/vangent2025.py 949-1014 -/
def Rc_diml_max_equation (Hm0 Hm0_swell q cot_alpha ksi_mm10 gamma_f gamma_b gamma_v gamma_beta : PF)
    (c2 : PF := 0.8) (c3 : PF := -2.5) (g : PF := 9.81) : PF :=
  PF.log ((1.0 / c2) * cot_alpha * q / PF.sqrt (g * npow Hm0 3)) * (1.0 / c3)
      * gamma_f * gamma_b * gamma_v * gamma_beta * npow ksi_mm10 0.24
    + 0.4 * Hm0_swell / Hm0

/-- the first formula of the freeboard, lines 879-888 (and 906-915) -/
def Rc_diml_eqB1 (Hm0 Hm0_swell q_diml cot_alpha ksi_mm10 gamma_f gamma_b gamma_v gamma_beta : PF) : PF :=
  PF.log ((1.0 / 6.8) * cot_alpha * q_diml) * (-1.0 / 5.0)
      * gamma_f * gamma_b * gamma_v * gamma_beta * ksi_mm10
    + 0.4 * Hm0_swell / Hm0

/-- the state of the wind iteration: freeboard and last change -/
structure WindState where
  Rc_diml : PF
  diff : PF

/-- wave_overtopping/vangent2025.py 770-946 (`Rc_diml_max_equation` is called with the discharge as
given and without `g`, 919-929; the flag is computed from the already limited freeboard, 931-932) -/
def calculate_dimensionless_crest_freeboard (Hm0 Hm0_swell Tmm10 q Ac : PF)
    (cot_alpha beta : PF := nan) (B_berm db : PF := 0.0)
    (Dn50 gamma_f gamma_b gamma_v gamma_beta : PF := nan) (g : PF := 9.81)
    (design_calculation : Bool := true) (include_influence_wind : Bool := false)
    (max_iter : ℕ := 1000) (tolerance : PF := 1e-5) : PyM (PF × Bool) := do
  let gamma_beta := if gamma_beta.isnan then calculate_influence_oblique_waves_gamma_beta beta
    else gamma_beta
  let ksi_mm10 := calculate_Iribarren_number_ksi Hm0 Tmm10 cot_alpha
  let gamma_b := if gamma_b.isnan then
      calculate_influence_berm_gamma_b (Hm0 := Hm0) (smm10 := calculate_wave_steepness_s Hm0 Tmm10)
        (Ac := Ac) (B_berm := B_berm) (BL := Ac - db)
    else gamma_b
  let gamma_f ← friction_or_raise Hm0 Tmm10 Dn50 gamma_f
  let q_diml := q / PF.sqrt (g * npow Hm0 3)
  let q_diml := if design_calculation then npow q_diml (1.0 / 0.857) else q_diml
  let Rc_diml := Rc_diml_eqB1 Hm0 Hm0_swell q_diml cot_alpha ksi_mm10 gamma_f gamma_b gamma_v
    gamma_beta
  let Rc_diml := if include_influence_wind then
      (whileIter max_iter (fun s => s.diff > tolerance)
        (fun s : WindState =>
          let gamma_w := calculate_influence_wind_gamma_w (Rc := s.Rc_diml * Hm0) (Ac := Ac)
            (Hm0 := Hm0) (q_diml := q_diml)
          let R := Rc_diml_eqB1 Hm0 Hm0_swell (q_diml / gamma_w) cot_alpha ksi_mm10 gamma_f gamma_b
            gamma_v gamma_beta
          ⟨R, PF.abs (R - s.Rc_diml)⟩)
        ⟨Rc_diml, pinf⟩).Rc_diml
    else Rc_diml
  let Rc_diml_max := Rc_diml_max_equation (Hm0 := Hm0) (Hm0_swell := Hm0_swell) (q := q)
    (cot_alpha := cot_alpha) (ksi_mm10 := ksi_mm10) (gamma_f := gamma_f) (gamma_b := gamma_b)
    (gamma_v := gamma_v) (gamma_beta := gamma_beta)
  let Rc_diml := PF.min Rc_diml Rc_diml_max
  let max_reached := decide (PF.eqF (PF.min Rc_diml Rc_diml_max) Rc_diml_max)
  check_validity_range (Hm0 := Hm0) (Tmm10 := Tmm10) (beta := beta) (cot_alpha := cot_alpha)
    (Dn50 := Dn50) (Rc := Rc_diml * Hm0) (Ac := Ac) (B_berm := B_berm) (db := db)
  pure (Rc_diml, max_reached)

/-- wave_overtopping/vangent2025.py 679-767 (no gravity argument) -/
def calculate_crest_freeboard_Rc (Hm0 Hm0_swell Tmm10 q Ac : PF)
    (cot_alpha beta : PF := nan) (B_berm db : PF := 0.0)
    (Dn50 gamma_f gamma_b gamma_v gamma_beta : PF := nan)
    (design_calculation : Bool := true) (include_influence_wind : Bool := false) :
    PyM (PF × Bool) := do
  let r ← calculate_dimensionless_crest_freeboard (Hm0 := Hm0) (Hm0_swell := Hm0_swell)
    (Tmm10 := Tmm10) (q := q) (Ac := Ac) (cot_alpha := cot_alpha) (beta := beta) (B_berm := B_berm)
    (db := db) (Dn50 := Dn50) (gamma_f := gamma_f) (gamma_b := gamma_b) (gamma_v := gamma_v)
    (gamma_beta := gamma_beta) (design_calculation := design_calculation)
    (include_influence_wind := include_influence_wind)
  pure (r.1 * Hm0, r.2)

end VanGent2025

namespace DeRidder2024

/-- wave_overtopping/deridder2024.py 9-111 -/
def check_validity_range (h Hm0 Hm0_HF Hm0_LF Tmm10 Tmm10_HF Rc cot_alpha m_foreshore_slope
    Dn50 : PF := nan) : PyM Unit := do
  check_if_given [Hm0, Tmm10] "Wave steepness sm-1,0" "De Ridder et al. (2024)"
    (calculate_wave_steepness_s Hm0 Tmm10) 0.001 0.040
  check_if_given [Hm0_HF, Tmm10_HF] "Short wave steepness sm-1,0_HF" "De Ridder et al. (2024)"
    (calculate_wave_steepness_s Hm0_HF Tmm10_HF) 0.004 0.047
  check_if_given [Hm0, Tmm10, cot_alpha] "Iribarren number Ksi_m-1,0" "De Ridder et al. (2024)"
    (calculate_Iribarren_number_ksi Hm0 Tmm10 cot_alpha) 0.05 1.11
  check_if_given [m_foreshore_slope] "Foreshore slope m" "De Ridder et al. (2024)"
    m_foreshore_slope (1.0 / 100.0) (1.0 / 20.0)
  check_if_given [Rc, Hm0] "Rc/Hm0" "De Ridder et al. (2024)" (Rc / Hm0) 0.80 3.72
  check_if_given [Dn50, Hm0] "Dn50/Hm0" "De Ridder et al. (2024)" (Dn50 / Hm0) 0.12 0.89
  check_if_given [Hm0, Hm0_LF] "Hm0_LF/Hm0" "De Ridder et al. (2024)" (Hm0_LF / Hm0) 0.10 0.81
  check_if_given [h, Hm0] "h/Hm0" "De Ridder et al. (2024)" (h / Hm0) 0.57 4.95

/-- the period handed to the check, e.g. deridder2024.py 200 -/
def period_HF (Hm0 smm10_HF : PF) : PF := PF.sqrt ((2 * PF.pi * Hm0) / smm10_HF / 9.81)

/-- wave_overtopping/deridder2024.py 208-252 -/
def calculate_dimensionless_crest_freeboard_discharge_q_eq24 (Hm0 smm10_HF gamma_f q : PF)
    (g : PF := 9.81) : PyM PF := do
  let Rc_diml := -(PF.log (q / PF.sqrt (g * npow Hm0 3)) - PF.log 0.74)
    / (8.51 * npow smm10_HF 0.32) * gamma_f
  check_validity_range (Hm0 := Hm0) (Tmm10_HF := period_HF Hm0 smm10_HF) (Rc := Rc_diml * Hm0)
  pure Rc_diml

/-- wave_overtopping/deridder2024.py 114-154 (`g` is not handed on) -/
def calculate_crest_freeboard_discharge_q_eq24 (Hm0 smm10_HF gamma_f q : PF) (_g : PF := 9.81) :
    PyM PF := do
  let Rc_diml ← calculate_dimensionless_crest_freeboard_discharge_q_eq24 Hm0 smm10_HF gamma_f q
  pure (Rc_diml * Hm0)

/-- wave_overtopping/deridder2024.py 157-205 -/
def calculate_crest_freeboard_discharge_q_eq26 (Hm0 smm10_HF Hm0_LF gamma_f q : PF)
    (g : PF := 9.81) : PyM PF := do
  let Rc := (-(PF.log (q / PF.sqrt (g * npow Hm0 3)) - PF.log 0.50)
      / (7.91 * npow smm10_HF 0.30) * (gamma_f * Hm0)) + 0.21 * Hm0_LF
  check_validity_range (Hm0 := Hm0) (Tmm10_HF := period_HF Hm0 smm10_HF) (Rc := Rc)
    (Hm0_LF := Hm0_LF)
  pure Rc

/-- wave_overtopping/deridder2024.py 336-375 -/
def calculate_dimensionless_overtopping_discharge_eq24 (Hm0 smm10_HF gamma_f Rc : PF) : PyM PF := do
  let q := 0.74 * PF.exp (-8.51 * (Rc / (Hm0 * gamma_f)) * npow smm10_HF 0.32)
  check_validity_range (Hm0 := Hm0) (Tmm10_HF := period_HF Hm0 smm10_HF) (Rc := Rc)
  pure q

/-- wave_overtopping/deridder2024.py 255-291 -/
def calculate_overtopping_discharge_q_eq24 (Hm0 smm10_HF gamma_f Rc : PF) (g : PF := 9.81) :
    PyM PF := do
  let q ← calculate_dimensionless_overtopping_discharge_eq24 Hm0 smm10_HF gamma_f Rc
  pure (q * PF.sqrt (g * npow Hm0 3))

/-- wave_overtopping/deridder2024.py 378-421 -/
def calculate_dimensionless_overtopping_discharge_eq26 (Hm0 smm10_HF Hm0_LF gamma_f Rc : PF) :
    PyM PF := do
  let q := 0.50 * PF.exp (-7.91 * ((Rc - 0.21 * Hm0_LF) / (Hm0 * gamma_f)) * npow smm10_HF 0.30)
  check_validity_range (Hm0 := Hm0) (Tmm10_HF := period_HF Hm0 smm10_HF) (Rc := Rc)
    (Hm0_LF := Hm0_LF)
  pure q

/-- wave_overtopping/deridder2024.py 294-333 -/
def calculate_overtopping_discharge_q_eq26 (Hm0 smm10_HF Hm0_LF gamma_f Rc : PF) (g : PF := 9.81) :
    PyM PF := do
  let q ← calculate_dimensionless_overtopping_discharge_eq26 Hm0 smm10_HF Hm0_LF gamma_f Rc
  pure (q * PF.sqrt (g * npow Hm0 3))

end DeRidder2024

namespace DeRidder2026

/-- wave_overtopping/deridder2026.py 9-90 -/
def check_validity_range (h Hm0 Hm0_HF Hm0_LF Tmm10 Tmm10_HF Rc Dn50 theta : PF := nan) :
    PyM Unit := do
  check_if_given [Hm0, Tmm10] "Wave steepness sm-1,0" "De Ridder et al. (2026)"
    (calculate_wave_steepness_s Hm0 Tmm10) 0.003 0.041
  check_if_given [Hm0_HF, Tmm10_HF] "Short wave steepness sm-1,0_HF" "De Ridder et al. (2026)"
    (calculate_wave_steepness_s Hm0_HF Tmm10_HF) 0.012 0.049
  check_if_given [Rc, Hm0] "Rc/Hm0" "De Ridder et al. (2026)" (Rc / Hm0) 0.98 1.94
  check_if_given [Dn50, Hm0] "Dn50/Hm0" "De Ridder et al. (2026)" (Dn50 / Hm0) 0.18 0.35
  check_if_given [Hm0, Hm0_LF] "Hm0_LF/Hm0" "De Ridder et al. (2026)" (Hm0_LF / Hm0) 0.15 0.55
  check_if_given [h, Hm0] "h/Hm0" "De Ridder et al. (2026)" (h / Hm0) 1.41 2.15
  check_if_given [theta] "theta" "De Ridder et al. (2026)" theta 0.0 56

/-- wave_overtopping/deridder2026.py 361-374 -/
def calculate_gamma_beta (theta : PF) : PF :=
  0.65 * npow (PF.cos (PF.deg2rad (PF.abs theta))) 2 + 0.35

/-- wave_overtopping/deridder2026.py 189-229 -/
def calculate_dimensionless_crest_freeboard_discharge_q_eq28 (Hm0 smm10_HF gamma_f q : PF)
    (g : PF := 9.81) (gamma_beta : PF := 1.0) : PF :=
  -(PF.log (q / PF.sqrt (g * npow Hm0 3)) - PF.log 0.16) / (6.93 * npow smm10_HF 0.36) * gamma_f
    * gamma_beta

/-- wave_overtopping/deridder2026.py 93-139 -/
def calculate_crest_freeboard_discharge_q_eq28 (Hm0 smm10_HF gamma_f q : PF) (g : PF := 9.81)
    (theta : PF := 0.0) : PyM PF :=
  let gamma_beta := calculate_gamma_beta theta
  pure (calculate_dimensionless_crest_freeboard_discharge_q_eq28 Hm0 smm10_HF gamma_f q g gamma_beta
    * Hm0)

/-- wave_overtopping/deridder2026.py 142-186 -/
def calculate_crest_freeboard_discharge_q_eq32 (Hm0_HF smm10_HF Hm0_LF gamma_f q : PF)
    (g : PF := 9.81) (theta : PF := 0.0) : PyM PF :=
  let gamma_beta := calculate_gamma_beta theta
  pure ((-(PF.log (q / PF.sqrt (g * npow Hm0_HF 3)) - PF.log 0.05)
      / (10.40 * npow smm10_HF 0.50 * (1 / (gamma_f * gamma_beta))) * Hm0_HF) + 0.97 * Hm0_LF)

/-- wave_overtopping/deridder2026.py 317-358 -/
def calculate_dimensionless_overtopping_discharge_eq28 (Hm0 smm10_HF gamma_f Rc : PF)
    (theta : PF := 0.0) : PyM PF := do
  let gamma_beta := calculate_gamma_beta theta
  let q := 0.16 * PF.exp (-6.93 * (Rc / (Hm0 * gamma_f * gamma_beta)) * npow smm10_HF 0.36)
  check_validity_range (Hm0 := Hm0) (Tmm10_HF := DeRidder2024.period_HF Hm0 smm10_HF) (Rc := Rc)
    (theta := theta)
  pure q

/-- wave_overtopping/deridder2026.py 232-270 -/
def calculate_overtopping_discharge_q_eq28 (Hm0 smm10_HF gamma_f Rc : PF) (g : PF := 9.81)
    (theta : PF := 0.0) : PyM PF := do
  let q ← calculate_dimensionless_overtopping_discharge_eq28 Hm0 smm10_HF gamma_f Rc theta
  pure (q * PF.sqrt (g * npow Hm0 3))

/-- wave_overtopping/deridder2026.py 377-429 -/
def calculate_dimensionless_overtopping_discharge_eq32 (Hm0_HF smm10_HF Hm0_LF gamma_f Rc : PF)
    (theta : PF := 0.0) : PyM PF := do
  let gamma_beta := calculate_gamma_beta theta
  let q := 0.05 * PF.exp (-10.40 * ((Rc - 0.97 * Hm0_LF) / Hm0_HF)
    * (1 / (gamma_f * gamma_beta)) * npow smm10_HF 0.50)
  check_validity_range (Hm0 := Hm0_HF) (Tmm10_HF := DeRidder2024.period_HF Hm0_HF smm10_HF)
    (Rc := Rc) (Hm0_LF := Hm0_LF) (theta := theta)
  pure q

/-- wave_overtopping/deridder2026.py 273-314 -/
def calculate_overtopping_discharge_q_eq32 (Hm0_HF smm10_HF Hm0_LF gamma_f Rc : PF) (g : PF := 9.81)
    (theta : PF := 0.0) : PyM PF := do
  let q ← calculate_dimensionless_overtopping_discharge_eq32 Hm0_HF smm10_HF Hm0_LF gamma_f Rc theta
  pure (q * PF.sqrt (g * npow Hm0_HF 3))

end DeRidder2026
end
