import Verif.Props.Hudson
import Verif.Props.Concrete
import Verif.Props.VanDerMeer
import Verif.Props.Etemad2020
import Verif.Props.KramerBurcharth
import Verif.Props.JumeletScaravaglione

/-! # The inverse properties for calls that omit the optional arguments

The theorems of C07-C24 pass every coefficient to both functions. A user who omits them relies in
addition on both functions having the *same* defaults. -/

open Classical
open PF
noncomputable section

/-- C07 with `alpha_Hs` omitted in both calls -/
theorem C07_default_arguments (rw ra KD c : ℝ) (hw : 0 < rw) (hr : rw < ra) (hK : 0 < KD)
    (hc : 0 < c) : MutuallyInverse
    (plain fun H => Hudson1959.calculate_median_rock_mass_M50_no_damage H (fin rw) (fin ra) (fin KD)
      (fin c))
    (plain fun M => Hudson1959.calculate_significant_wave_height_Hs_no_damage M (fin rw) (fin ra)
      (fin KD) (fin c)) := by
  constructor
  · intro H hH
    obtain ⟨M, hM, e1, e2⟩ := C07_Hs_of_M50_of_Hs H rw ra KD c 1.27 hH hw hr hK hc (by norm_num)
    exact ⟨M, hM, congrArg Except.ok e1, congrArg Except.ok e2⟩
  · intro M hM
    obtain ⟨H, hH, e1, e2⟩ := C07_M50_of_Hs_of_M50 M rw ra KD c 1.27 hM hw hr hK hc (by norm_num)
    exact ⟨H, hH, congrArg Except.ok e1, congrArg Except.ok e2⟩

example := C07_default_arguments (rw := 1025) (ra := 2650) (KD := 8) (c := 2) (by norm_num) (by norm_num)
  (by norm_num) (by norm_num)

/-- C08 with rock type and `alpha_Hs` omitted in both calls -/
theorem C08_default_arguments_partial (rw ra KD c d : ℝ) (hd : d < 100) (hw : 0 < rw) (hr : rw < ra)
    (hK : 0 < KD) (hc : 0 < c) : MutuallyInverse
    (fun H => Hudson1959.calculate_median_rock_mass_M50 H (fin rw) (fin ra) (fin KD) (fin c) (fin d))
    (fun M => Hudson1959.calculate_significant_wave_height_Hs M (fin rw) (fin ra) (fin KD) (fin c)
      (fin d)) := by
  constructor
  · intro H hH
    obtain ⟨M, hM, e1, e2⟩ := C08_Hs_of_M50_of_Hs_partial H rw ra KD c 1.27 d "rough" (Or.inl rfl) hd
      hH hw hr hK hc (by norm_num)
    exact ⟨M, hM, congrArg PyM.res e1, congrArg PyM.res e2⟩
  · intro M hM
    obtain ⟨H, hH, e1, e2⟩ := C08_M50_of_Hs_of_M50_partial M rw ra KD c 1.27 d "rough" (Or.inl rfl) hd
      hM hw hr hK hc (by norm_num)
    exact ⟨H, hH, congrArg PyM.res e1, congrArg PyM.res e2⟩

example := C08_default_arguments_partial (rw := 1025) (ra := 2650) (KD := 8) (c := 2) (d := 5) (by norm_num)
  (by norm_num) (by norm_num) (by norm_num) (by norm_num)

section
variable (rw ra KD c : ℝ) (hw : 0 < rw) (hr : rw < ra) (hK : 0 < KD) (hc : 0 < c)
include hw hr hK

/-- C10 with slope and `alpha_Hs` omitted in both calls -/
theorem C10_default_arguments :
    MutuallyInverse
      (fun H => Accropode.calculate_unit_mass_M H (fin rw) (fin ra) (fin KD))
      (fun M => Accropode.calculate_significant_wave_height_Hs M (fin rw) (fin ra) (fin KD)) ∧
    MutuallyInverse
      (fun H => Accropode2.calculate_unit_mass_M H (fin rw) (fin ra) (fin KD))
      (fun M => Accropode2.calculate_significant_wave_height_Hs M (fin rw) (fin ra) (fin KD)) ∧
    MutuallyInverse
      (plain fun H => CoreLoc.calculate_unit_mass_M H (fin rw) (fin ra) (fin KD))
      (plain fun M => CoreLoc.calculate_significant_wave_height_Hs M (fin rw) (fin ra) (fin KD)) ∧
    MutuallyInverse
      (plain fun H => Cubipod.calculate_unit_mass_M H (fin rw) (fin ra) (fin KD))
      (plain fun M => Cubipod.calculate_significant_wave_height_Hs M (fin rw) (fin ra) (fin KD)) :=
  ⟨C10_accropode rw ra KD 1.33 1.0 hw hr hK (by norm_num) (by norm_num),
   C10_accropode2 rw ra KD 1.33 1.0 hw hr hK (by norm_num) (by norm_num),
   (C10_plain_wrappers rw ra KD 1.33 1.0 hw hr hK (by norm_num) (by norm_num)).1,
   (C10_plain_wrappers rw ra KD 1.33 1.0 hw hr hK (by norm_num) (by norm_num)).2.2.1⟩

example := C10_default_arguments (rw := 1025) (ra := 2650) (KD := 8) (by norm_num) (by norm_num)
  (by norm_num)

include hc in
/-- C10 with `alpha_Hs` omitted in both calls -/
theorem C10_default_alpha :
    MutuallyInverse
      (fun H => Accropode.calculate_unit_mass_M H (fin rw) (fin ra) (fin KD) (fin c))
      (fun M => Accropode.calculate_significant_wave_height_Hs M (fin rw) (fin ra) (fin KD)
        (fin c)) ∧
    MutuallyInverse
      (plain fun H => CubesHudson.calculate_unit_mass_M H (fin rw) (fin ra) (fin KD) (fin c))
      (plain fun M => CubesHudson.calculate_significant_wave_height_Hs M (fin rw) (fin ra) (fin KD)
        (fin c)) ∧
    MutuallyInverse
      (plain fun H => Tetrapod.calculate_unit_mass_M H (fin rw) (fin ra) (fin KD) (fin c))
      (plain fun M => Tetrapod.calculate_significant_wave_height_Hs M (fin rw) (fin ra) (fin KD)
        (fin c)) :=
  ⟨C10_accropode rw ra KD c 1.0 hw hr hK hc (by norm_num),
   (C10_plain_wrappers rw ra KD c 1.0 hw hr hK hc (by norm_num)).2.1,
   (C10_plain_wrappers rw ra KD c 1.0 hw hr hK hc (by norm_num)).2.2.2⟩

example := C10_default_alpha (rw := 1025) (ra := 2650) (KD := 8) (c := 2) (by norm_num) (by norm_num)
  (by norm_num) (by norm_num)
end

/-- C12 without a correction factor -/
theorem C12_default_arguments (rw ra : ℝ) (hw : 0 < rw) (hr : rw < ra) :
    MutuallyInverse
      (plain fun H => Xbloc.calculate_unit_mass_M H (fin rw) (fin ra))
      (plain fun M => Xbloc.calculate_wave_height_Hs_from_M M (fin rw) (fin ra)) ∧
    MutuallyInverse
      (plain fun H => XblocPlus.calculate_unit_mass_M H (fin rw) (fin ra))
      (plain fun M => XblocPlus.calculate_wave_height_Hs_from_M M (fin rw) (fin ra)) ∧
    MutuallyInverse
      (plain fun H => Xbloc.calculate_unit_volume_V H (fin rw) (fin ra))
      (plain fun V => Xbloc.calculate_wave_height_Hs_from_V V (fin rw) (fin ra)) ∧
    MutuallyInverse
      (plain fun H => XblocPlus.calculate_unit_volume_V H (fin rw) (fin ra))
      (plain fun V => XblocPlus.calculate_wave_height_Hs_from_V V (fin rw) (fin ra)) :=
  ⟨(C12_mass rw ra 1.0 hw hr (by norm_num)).1, (C12_mass rw ra 1.0 hw hr (by norm_num)).2,
   C12_xbloc_volume rw ra 1.0 hw hr (by norm_num), C12_xblocplus_volume rw ra 1.0 hw hr (by norm_num)⟩

example := C12_default_arguments (rw := 1025) (ra := 2650) (by norm_num) (by norm_num)

/-- C16 with the default stability numbers; the start of damage needs the heavier unit -/
theorem C16_default_arguments (rw ra : ℝ) (hw : 0 < rw) (hr : rw < ra) :
    MutuallyInverse
      (fun H => CubesSingle.calculate_unit_mass_M_start_of_damage H (fin rw) (fin ra))
      (fun M => CubesSingle.calculate_significant_wave_height_Hs_start_of_damage M (fin rw)
        (fin ra)) ∧
    MutuallyInverse
      (fun H => CubesSingle.calculate_unit_mass_M_failure H (fin rw) (fin ra))
      (fun M => CubesSingle.calculate_significant_wave_height_Hs_failure M (fin rw) (fin ra)) :=
  ⟨(C16_single_layer rw ra 2.9 hw hr (by norm_num)).1, (C16_single_layer rw ra 3.5 hw hr
    (by norm_num)).2⟩

example := C16_default_arguments (rw := 1025) (ra := 2650) (by norm_num) (by norm_num)

section
variable (T N c P ra : ℝ) (hT : 0 < T) (hN : 0 < N) (hc : 0 < c) (hP : 0 < P) (hr : 1025 < ra)
include hT hN hc hP hr

/-- C17 with the default coefficients and water density -/
theorem C17_default_arguments (H H2 : ℝ) (hH : 0 < H) (hH2 : 0 < H2) : MutuallyInverse
    (fun S => VdM1988.calculate_nominal_rock_diameter_Dn50 (fin H) (fin H2) (fin T) (fin N) (fin c)
      (fin P) (fin ra) S)
    (fun D => VdM1988.calculate_damage_number_S (fin H) (fin H2) (fin T) (fin N) (fin c) (fin P)
      (fin ra) D) :=
  C17_damage_size_inverse T N c P ra 1025.0 8.7 1.4 nan hT hN hc hP (by norm_num)
    (by norm_num; exact hr) (by norm_num) (by norm_num) H H2 hH hH2

/-- C18 with the default coefficients, gravity and water density -/
theorem C18_default_arguments (r D : ℝ) (hr' : 0 < r) (hD : 0 < D) : MutuallyInverse
    (fun S => VdM1988.calculate_significant_wave_height_Hs (fin r) (fin T) (fin N) (fin c) (fin P)
      (fin ra) S (fin D))
    (fun H => VdM1988.calculate_damage_number_S H (fin r * H) (fin T) (fin N) (fin c) (fin P)
      (fin ra) (fin D)) :=
  C18_damage_height_inverse T N c P ra 1025.0 8.7 1.4 nan hT hN hc hP (by norm_num)
    (by norm_num; exact hr) (by norm_num) (by norm_num) r D hr' hD

example := C18_default_arguments (T := 8) (N := 3000) (c := 2) (P := 0.4) (ra := 2650) (r := 1) (D := 1)
  (by norm_num) (by norm_num) (by norm_num) (by norm_num) (by norm_num) (by norm_num) (by norm_num)

/-- C19 with the default coefficients, gravity and water density -/
theorem C19_default_arguments (r D H H2 : ℝ) (hr' : 0 < r) (hD : 0 < D) (hH : 0 < H) (hH2 : 0 < H2) :
    MutuallyInverse
      (fun S => VdMModified.calculate_nominal_rock_diameter_Dn50 (fin H) (fin H2) (fin T) (fin N)
        (fin c) (fin P) (fin ra) S)
      (fun D => VdMModified.calculate_damage_number_S (fin H) (fin H2) (fin T) (fin N) (fin c)
        (fin P) (fin ra) D) ∧
    MutuallyInverse
      (fun S => VdMModified.calculate_significant_wave_height_Hs (fin r) (fin T) (fin N) (fin c)
        (fin P) (fin ra) S (fin D))
      (fun H => VdMModified.calculate_damage_number_S H (fin r * H) (fin T) (fin N) (fin c) (fin P)
        (fin ra) (fin D)) :=
  ⟨C19_damage_size_inverse T N c P ra 1025.0 8.4 1.3 nan hT hN hc hP (by norm_num)
    (by norm_num; exact hr) (by norm_num) (by norm_num) H H2 hH hH2,
   C19_damage_height_inverse T N c P ra 1025.0 8.4 1.3 nan hT hN hc hP (by norm_num)
    (by norm_num; exact hr) (by norm_num) (by norm_num) r D hr' hD⟩

example := C19_default_arguments (T := 8) (N := 3000) (c := 2) (P := 0.4) (ra := 2650) (r := 1) (D := 1)
  (H := 2) (H2 := 2.8) (by norm_num) (by norm_num) (by norm_num) (by norm_num) (by norm_num) (by norm_num)
  (by norm_num) (by norm_num) (by norm_num)

/-- C20 with the default coefficients and gravity -/
theorem C20_default_arguments (D H : ℝ) (hD : 0 < D) (hH : 0 < H) :
    MutuallyInverse
      (fun S => VdM2021.calculate_nominal_rock_diameter_Dn50 (fin H) (fin T) (fin N)
        (fin c) (fin P) (fin ra) S)
      (fun D => VdM2021.calculate_damage_number_S (fin H) (fin T) (fin N) (fin c) (fin P)
        (fin ra) D) ∧
    MutuallyInverse
      (fun S => VdM2021.calculate_significant_wave_height_Hs (fin T) (fin N) (fin c)
        (fin P) (fin ra) S (fin D))
      (fun H => VdM2021.calculate_damage_number_S H (fin T) (fin N) (fin c) (fin P)
        (fin ra) (fin D)) :=
  ⟨C20_damage_size_inverse T N c P ra 6.49 0.97 1.0 1.0 nan hT hN hc hP hr (by norm_num)
    (by norm_num) (by norm_num) (by norm_num) H hH,
   C20_damage_height_inverse T N c P ra 6.49 0.97 1.0 1.0 nan hT hN hc hP hr (by norm_num)
    (by norm_num) (by norm_num) (by norm_num) D hD⟩

example := C20_default_arguments (T := 8) (N := 3000) (c := 2) (P := 0.4) (ra := 2650) (D := 1) (H := 2)
  (by norm_num) (by norm_num) (by norm_num) (by norm_num) (by norm_num) (by norm_num) (by norm_num)
end

/-- C21 with only the required inputs and the two rock sizes -/
theorem C21_default_arguments (T N c ra D Dc H : ℝ) (hT : 0 < T) (hN : 0 < N) (hc : 0 < c)
    (hr : 1025 < ra) (hD : 0 < D) (hDc : 0 ≤ Dc) (hH : 0 < H) : ∃ S : ℝ, 0 < S ∧
    (Etemad2020.calculate_damage_number_S (fin H) (fin T) (fin N) (fin c) (fin ra) (Dn50 := fin D)
      (Dn50_core := fin Dc)).res = .ok (fin S) ∧
    (Etemad2020.calculate_significant_wave_height_Hs (fin T) (fin N) (fin c) (fin ra) (fin S)
      (Dn50 := fin D) (Dn50_core := fin Dc)).res = .ok (fin H) := by
  have e : (1025.0 : PF) = fin 1025 := by rw [sci_eq]; norm_num
  rw [e]
  exact C21_height_of_damage T N c ra D Dc nan false nan nan nan hT hN hc hr hD hDc
    (fun h => absurd h (by decide)) H hH

example := C21_default_arguments (T := 8) (N := 3000) (c := 2) (ra := 2650) (D := 1) (Dc := 0.3) (H := 2)
  (by norm_num) (by norm_num) (by norm_num) (by norm_num) (by norm_num) (by norm_num) (by norm_num)

/-- C23 with the default coefficient and water density -/
theorem C23_default_arguments (H T N c ra : ℝ) (hH : 0 < H) (hT : 0 < T)
    (hc : 0 < c) (hr : 1025 < ra) (hN : SomePlungingWaves H T N c) : MutuallyInverse
    (fun S => Jumelet2024.calculate_nominal_rock_diameter_Dn50 (fin H) (fin T) (fin N) (fin c)
      (fin ra) S)
    (fun D => Jumelet2024.calculate_damage_number_S (fin H) (fin T) (fin N) (fin c) (fin ra) D) := by
  have e : (1025.0 : PF) = fin 1025 := by rw [sci_eq]; norm_num
  rw [e]
  exact C23_damage_size_inverse H T N c ra 4.3 nan hH hT hc hr (by norm_num) hN

/-- C24 with the default coefficient, gravity and water density -/
theorem C24_default_arguments (T N c ra H D Dc : ℝ) (rc : PF) (hT : 0 < T) (hN : 0 < N) (hc : 0 < c)
    (hr : 1025 < ra) (hH : 0 < H) (hD : 0 < D) (hDc : 0 ≤ Dc) :
    (∃ S : ℝ, 0 < S ∧
      (Scaravaglione2025.calculate_damage_number_S (fin H) (fin T) (fin N) (fin c) (fin ra) rc
        (Dn50 := fin D) (Dn50_core := fin Dc)).res = .ok (fin S) ∧
      (Scaravaglione2025.calculate_nominal_rock_diameter_Dn50 (fin H) (fin T) (fin N) (fin c) (fin ra)
        rc (fin S) (Dn50_core := fin Dc)).res = .ok (fin D)) ∧
    MutuallyInverse
      (fun S => Scaravaglione2025.calculate_significant_wave_height_Hm0 (fin T) (fin N) (fin c)
        (fin ra) rc S (Dn50 := fin D) (Dn50_core := fin Dc))
      (fun H => Scaravaglione2025.calculate_damage_number_S H (fin T) (fin N) (fin c) (fin ra) rc
        (Dn50 := fin D) (Dn50_core := fin Dc)) :=
  ⟨C24_size_of_damage T N c ra 1025.0 3.3 rc nan nan hT hN hc (by norm_num) (by norm_num; exact hr)
    (by norm_num) H D Dc hH hD hDc,
   C24_damage_height_inverse T N c ra 1025.0 3.3 rc nan nan hT hN hc (by norm_num)
    (by norm_num; exact hr) (by norm_num) D Dc hD hDc⟩

-- the hypotheses are those of ordinary design inputs
example : MutuallyInverse
    (fun S => VdM1988.calculate_nominal_rock_diameter_Dn50 (fin 2) (fin 2.8) (fin 6) (fin 3000)
      (fin 3) (fin 0.4) (fin 2650) S)
    (fun D => VdM1988.calculate_damage_number_S (fin 2) (fin 2.8) (fin 6) (fin 3000) (fin 3)
      (fin 0.4) (fin 2650) D) :=
  C17_default_arguments 6 3000 3 0.4 2650 (by norm_num) (by norm_num) (by norm_num) (by norm_num)
    (by norm_num) 2 2.8 (by norm_num) (by norm_num)

end
