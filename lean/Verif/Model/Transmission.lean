import Verif.Model.CorePhysics
import Verif.Model.CoreUtility

/-! # Models of the modules in `hydraulic/wave_transmission` (scalar arguments; the `np.vectorize`
branches for arrays apply the scalar function element by element) -/

open Classical
open PF (nan npow whr pinf)
open CorePhysics CoreUtility
noncomputable section

namespace DAngremond1996

/-- dangremond1996.py 9-66 -/
def check_validity (Kt s0p Hsi_over_h Rc_over_Hsi : PF := nan) : PyM Unit := do
  let f := "D'Angremond et al. (1996)"
  check_if_given [Kt] "Transmission coefficient Kt" f Kt 0.075 0.8
  check_if_given [s0p] "Wave steepness s0p (dataset limit)" f s0p 0 0.06
  check_if_given [Hsi_over_h] "Relative water depth Hsi/h (dataset limit)" f Hsi_over_h 0 0.54
  check_if_given [Rc_over_Hsi] "Relative crest level Rc/Hsi (dataset limit)" f Rc_over_Hsi
    (-2.5) 2.5

/-- dangremond1996.py 69-120 -/
def calculate_wave_transmission_Kt_permeable (Hsi Tpi h Rc B cot_alpha : PF) (C1 : PF := 0.64)
    (do_validity_check : Bool := true) : PyM PF := do
  let ksi_0p := calculate_Iribarren_number_ksi Hsi Tpi (cot_alpha := cot_alpha)
  let s0p := calculate_wave_steepness_s (H := Hsi) (T := Tpi)
  let Kt := -0.4 * (Rc / Hsi) + (npow (B / Hsi) (-0.31)) * (1 - PF.exp (-0.5 * ksi_0p)) * C1
  (if do_validity_check then
    check_validity Kt (s0p := s0p) (Hsi_over_h := Hsi / h) (Rc_over_Hsi := Rc / Hsi)
  else pure () : PyM Unit)
  let Kt := PF.min 0.8 Kt
  let Kt := PF.max 0.075 Kt
  pure Kt

/-- dangremond1996.py 123-167 -/
def calculate_wave_transmission_Kt_impermeable (Hsi Tpi h Rc B cot_alpha : PF) (C1 : PF := 0.80) :
    PyM PF :=
  calculate_wave_transmission_Kt_permeable (Rc := Rc) (Hsi := Hsi) (Tpi := Tpi) (h := h) (B := B)
    (cot_alpha := cot_alpha) (C1 := C1)

end DAngremond1996

namespace Briganti2003

/-- briganti2003.py 10-42 -/
def check_validity (s0p ksi_0p : PF := nan) : PyM Unit := do
  let f := "Briganti (2003)"
  check_if_given [s0p] "Wave steepness s0p" f s0p 0.005 0.07
  check_if_given [ksi_0p] "Surf similarity parameter ksi_0p" f ksi_0p 0.5 10.0

/-- briganti2003.py 94-108 (part of `calculate_wave_transmission_Kt`): the two formulas -/
def Kt_unlimited (Hsi Tpi Rc B cot_alpha ksi_0p : PF) : PyM PF :=
  if B / Hsi < 10 then
    DAngremond1996.calculate_wave_transmission_Kt_permeable (Hsi := Hsi) (Tpi := Tpi) (B := B)
      (h := nan) (Rc := Rc) (cot_alpha := cot_alpha) (do_validity_check := false)
  else
    pure (-0.35 * (Rc / Hsi) + (0.51 * npow (B / Hsi) (-0.65)) * (1 - PF.exp (-0.41 * ksi_0p)))

/-- briganti2003.py 45-121 -/
def calculate_wave_transmission_Kt (Hsi Tpi Rc B cot_alpha : PF) : PyM PF := do
  let ksi_0p := calculate_Iribarren_number_ksi (H := Hsi) (T := Tpi) (cot_alpha := cot_alpha)
  let s0p := calculate_wave_steepness_s (H := Hsi) (T := Tpi)
  let Kt ← Kt_unlimited Hsi Tpi Rc B cot_alpha ksi_0p
  let Ktu := -0.006 * (B / Hsi) + 0.93
  let Kt := PF.min Kt Ktu
  let Kt := PF.max 0.05 Kt
  check_validity (s0p := s0p) (ksi_0p := ksi_0p)
  pure Kt

end Briganti2003

namespace Goda1967

/-- goda1967_caisson.py 11-65 -/
def calculate_wave_transmission_Kt (Hsi Rc : PF) (alpha_1 : PF := 2.2) (beta_1 : PF := 0.4) : PF :=
  let Rc_over_Hsi := Rc / Hsi
  if Rc_over_Hsi ≤ -1 * alpha_1 - beta_1 then 1
  else if Rc_over_Hsi ≤ alpha_1 - beta_1 then
    0.5 * (1 - PF.sin ((PF.pi / 2) * ((Rc_over_Hsi + beta_1) / alpha_1)))
  else 0.03

end Goda1967

namespace VanGent2023

/-- vangent2023.py 9-74 (`structure_type` omitted: NaN, not equal to any string, modelled by `none`) -/
def check_validity_range (disper : PF → PF → PF → PF) (Hm0 Tmm10 Rc B : PF := nan)
    (structure_type : Option String := none) : PyM Unit := do
  let f := "Van Gent et al. (2023)"
  check_if_given [Hm0, Rc] "Dimensionless crest height Rc / Hm0" f (Rc / Hm0) (-2.5)
    (if structure_type = some "permeable" then 2.5 else 0.0)
  check_if_given [B, Tmm10] "Dimensionless crest width B / Lm-1,0" f
    (B / calculate_local_wavelength disper (T := Tmm10) (h := 1e100)) 0.017 0.27
  check_if_given [Hm0, B] "Dimensionless crest width B / Hm0" f (B / Hm0) 0.9 10.6

/-- vangent2023.py 121-157 (part of `calculate_wave_transmission_Kt`): `c1, c2, c3, c4, c5` -/
def coefficients (structure_type : String) : PyM (PF × PF × PF × PF × PF) :=
  match structure_type with
  | "impermeable" => pure (0.47, 3.1, 0.75, 0.0, 0.5)
  | "permeable" => pure (0.43, 3.1, 0.75, -0.25, 0.5)
  | "perforated" => pure (0.13, 3.1, 0.75, -0.15, 0.82)
  | "perforated_with_screen" => pure (0.40, 3.1, 0.75, -0.15, 0.5)
  | "perforated_with_perforated_screen" => pure (0.17, 3.1, 0.75, -0.15, 0.76)
  | _ => PyM.raise .valueError

/-- vangent2023.py 77-164; note that `check_validity_range` is not called -/
def calculate_wave_transmission_Kt (disper : PF → PF → PF → PF) (Hm0 Tmm10 Rc B : PF)
    (structure_type : String := "permeable") : PyM PF := do
  let (c1, c2, c3, c4, c5) ← coefficients structure_type
  let Lmm10 := calculate_local_wavelength disper (T := Tmm10) (h := 1e100)
  pure (c1 * PF.tanh (-((Rc / Hm0) + c2 * npow (B / Lmm10) c3 + c4)) + c5)

end VanGent2023

namespace VanGent2024

/-- vangent2024_setup.py 9-110.  The check of `B/Hm0` (lines 88-97) tests `hc` instead of `B` for
NaN.  A structure type other than the two known ones runs no check. -/
def check_validity_range (Hm0 Tmm10 Rc B hc Dn50 : PF := nan)
    (structure_type : String := "impermeable") : PyM Unit := do
  let f := "Van Gent (2024)"
  let smm10 := calculate_wave_steepness_s Hm0 Tmm10
  (if structure_type = "impermeable" then
    check_if_given [Hm0, Tmm10] "Wave steepness sm-1,0" f smm10 0.01 0.04
  else if structure_type = "permeable" then
    check_if_given [Hm0, Tmm10] "Wave steepness sm-1,0" f smm10 0.008 0.04
  else pure () : PyM Unit)
  (if structure_type = "impermeable" then
    check_if_given [Hm0, Rc] "Dimensionless freeboard Rc/Hm0" f (Rc / Hm0) (-1.0) 0.0
  else if structure_type = "permeable" then
    check_if_given [Hm0, Rc] "Dimensionless freeboard Rc/Hm0" f (Rc / Hm0) (-0.8) 0.0
  else pure () : PyM Unit)
  (if structure_type = "permeable" then do
    check_if_given [Hm0, hc] "Dimensionless submerged structure height hc/Hm0" f (hc / Hm0) 1.5 3.0
    check_if_given [Hm0, hc] "Dimensionless submerged structure crest width B/Hm0" f (B / Hm0)
      0.94 2.35
    check_if_given [Hm0, Dn50] "Dimensionless median stone diameter Dn50/Hm0" f (Dn50 / Hm0)
      0.19 0.47
  else pure () : PyM Unit)

/-- vangent2024_setup.py 148-186 -/
def calculate_dimensionless_structure_induced_setup_impermeable (Hm0 Tmm10 Rc : PF) : PyM PF := do
  let smm10 := calculate_wave_steepness_s (H := Hm0) (T := Tmm10)
  let delta_diml := 0.34 * npow smm10 0.4 * npow (Rc / Hm0 + 1.6) 3.5
  check_validity_range (Hm0 := Hm0) (Tmm10 := Tmm10) (Rc := Rc) (structure_type := "impermeable")
  pure delta_diml

/-- vangent2024_setup.py 113-145 -/
def calculate_structure_induced_setup_delta_impermeable (Hm0 Tmm10 Rc : PF) : PyM PF := do
  let delta_diml ← calculate_dimensionless_structure_induced_setup_impermeable (Hm0 := Hm0)
    (Tmm10 := Tmm10) (Rc := Rc)
  pure (delta_diml * Hm0)

/-- vangent2024_setup.py 227-274 -/
def calculate_dimensionless_structure_induced_setup_permeable (Hm0 Tmm10 Rc hc : PF) : PyM PF := do
  let smm10 := calculate_wave_steepness_s (H := Hm0) (T := Tmm10)
  let delta_diml := 0.22 * npow smm10 0.2 * npow (hc / Hm0) (-0.7) * npow (Rc / Hm0 + 1.5) 1.5
  check_validity_range (Hm0 := Hm0) (Tmm10 := Tmm10) (Rc := Rc) (hc := hc)
    (structure_type := "permeable")
  pure delta_diml

/-- vangent2024_setup.py 189-224 -/
def calculate_structure_induced_setup_delta_permeable (Hm0 Tmm10 Rc hc : PF) : PyM PF := do
  let delta_diml ← calculate_dimensionless_structure_induced_setup_permeable (Hm0 := Hm0)
    (Tmm10 := Tmm10) (Rc := Rc) (hc := hc)
  pure (delta_diml * Hm0)

end VanGent2024
end
