import Verif.SpecFormula
import Verif.Lemmas.Range
import Verif.Props.VanDerMeer
import Verif.Props.Hudson
import Verif.Props.Concrete

/-! # Property C78: the armour formulas are the published ones -/

open Classical
open PF
open CorePhysics RangeProof
noncomputable section

namespace FormulaProof

theorem Delta_pos {ra rw : ℝ} (hw : 0 < rw) (hr : rw < ra) : 0 < Textbook.Delta ra rw :=
  div_pos (sub_pos.mpr hr) hw

theorem crit_eq (cpl cs P c : ℝ) :
    VdMProof.xmc cpl cs P c = Published.criticalIribarren cpl cs P c := by
  unfold VdMProof.xmc Published.criticalIribarren
  simp only [VdMProof.one_sci]

theorem storm_eq {N : ℝ} (h : 0 < N) : √N / VdMProof.gam N = Published.stormDuration N := by
  rw [VdMProof.weight_eq h]
  unfold Published.stormDuration
  have e : (3.1e-4 : ℝ) = 0.00031 := by norm_num
  rw [e]
  split_ifs with a b c d e e
  all_goals first | rfl | (exfalso; linarith) | skip
  have : N = 1000 := by linarith
  subst this
  rw [eq_div_iff (by positivity), Real.mul_self_sqrt (by norm_num)]

/-- the damage function solved for the stability number -/
theorem vdm_of_dmg {r H T c P cpl cs ra rw D w : ℝ} (hr : 0 < r) (hT : 0 < T) (hc : 0 < c)
    (hP : 0 < P) (h1 : 0 < cpl) (h2 : 0 < cs) (hw : 0 < rw) (hra : rw < ra) (hww : 0 < w)
    (hH : 0 < H) (hD : 0 < D) :
    Published.VanDerMeer cpl cs P c (Textbook.iribarren H T c)
      (VdMProof.dmg r H T c P cpl cs ((ra - rw) / rw) D w / w) (Textbook.Ns (r * H) D ra rw) := by
  have hDe : 0 < (ra - rw) / rw := Delta_pos hw hra
  have hx := VdMProof.xi_pos hH hT hc
  have hk := VdMProof.kf_pos h1 h2 hP hc hx
  have e5 : (VdMProof.dmg r H T c P cpl cs ((ra - rw) / rw) D w / w) ^ (0.2 : ℝ) =
      H / ((ra - rw) / rw * D) * r * VdMProof.kf cpl cs P c (VdMProof.xi H T c) := by
    unfold VdMProof.dmg
    rw [mul_div_assoc, div_self hww.ne', mul_one, ← Real.rpow_natCast, ← Real.rpow_mul (by positivity)]
    norm_num
  have eN : Textbook.Ns (r * H) D ra rw = H / ((ra - rw) / rw * D) * r := by
    unfold Textbook.Ns Textbook.Delta; ring
  rw [irib_eq]
  unfold Published.VanDerMeer
  rw [e5, eN, ← crit_eq]
  generalize H / ((ra - rw) / rw * D) * r = n
  generalize VdMProof.xi H T c = x at *
  constructor
  · intro h
    have h' : x < VdMProof.xmc cpl cs P c ∨ 4.0 ≤ c := by norm_num; exact h
    unfold VdMProof.kf VdMProof.kpl
    rw [if_pos h', Real.rpow_neg hP.le, Real.rpow_neg hx.le]
    field_simp
  · rintro ⟨h3, h4⟩
    have h' : ¬ (x < VdMProof.xmc cpl cs P c ∨ 4.0 ≤ c) := by
      rintro (h | h)
      · linarith
      · norm_num at h; linarith
    unfold VdMProof.kf VdMProof.ksu
    rw [if_neg h', Real.rpow_neg hP.le, Real.rpow_neg hx.le]
    field_simp

end FormulaProof
open FormulaProof

/-! ## Van der Meer -/

section
variable (T N c P ra rw cpl cs : ℝ) (M : PF) (hT : 0 < T) (hN : 0 < N) (hc : 0 < c) (hP : 0 < P)
  (hw : 0 < rw) (hr : rw < ra) (h1 : 0 < cpl) (h2 : 0 < cs)
include hT hN hc hP hw hr h1 h2

/-- C78: damage by Van der Meer (1988) -/
theorem C78_vdm1988_damage (H H2 D : ℝ) (hH : 0 < H) (hH2 : 0 < H2) (hD : 0 < D) :
    Returns (VdM1988.calculate_damage_number_S (fin H) (fin H2) (fin T) (fin N) (fin c) (fin P)
      (fin ra) (fin D) M (fin cpl) (fin cs) (fin rw))
      fun S => Published.VanDerMeer cpl cs P c (Textbook.iribarren H T c)
        (S / Published.stormDuration N) (Textbook.Ns H2 D ra rw) := by
  obtain ⟨r, hr', rfl⟩ : ∃ r, 0 < r ∧ H2 = r * H := ⟨H2 / H, by positivity, by field_simp⟩
  have hwt : 0 < √N / VdMProof.gam N := div_pos (Real.sqrt_pos.mpr hN) (VdMProof.gam_pos hN)
  refine ⟨_, VdMProof.dmg_pos hr' hT hc hP h1 h2 (Delta_pos hw hr) hwt hH hD,
    VdMProof.S1988_eval M hH hr' hT hN hc hP hw hr hD h1 h2, ?_⟩
  rw [← storm_eq hN]
  exact vdm_of_dmg hr' hT hc hP h1 h2 hw hr hwt hH hD

example := C78_vdm1988_damage (T := 8) (N := 3000) (c := 2) (P := 0.4) (ra := 2650) (rw := 1025)
  (cpl := 6.2) (cs := 1) (M := .fin 5000) (H := 2) (H2 := 2.8) (D := 1) (by norm_num) (by norm_num)
  (by norm_num) (by norm_num) (by norm_num) (by norm_num) (by norm_num) (by norm_num) (by norm_num)
  (by norm_num) (by norm_num)

/-- C78: rock size by Van der Meer (1988) -/
theorem C78_vdm1988_size (H H2 S : ℝ) (hH : 0 < H) (hH2 : 0 < H2) (hS : 0 < S) :
    Returns (VdM1988.calculate_nominal_rock_diameter_Dn50 (fin H) (fin H2) (fin T) (fin N) (fin c)
      (fin P) (fin ra) (fin S) (fin cpl) (fin cs) (fin rw))
      fun D => Published.VanDerMeer cpl cs P c (Textbook.iribarren H T c)
        (S / Published.stormDuration N) (Textbook.Ns H2 D ra rw) := by
  obtain ⟨D, hD, e1, e2⟩ := (C17_damage_size_inverse T N c P ra rw cpl cs nan hT hN hc hP hw hr h1 h2
    H H2 hH hH2).1 S hS
  obtain ⟨S', -, e3, h⟩ := C78_vdm1988_damage T N c P ra rw cpl cs nan hT hN hc hP hw hr h1 h2 H H2 D hH
    hH2 hD
  obtain rfl : S = S' := by rw [e2] at e3; simpa using e3
  exact ⟨D, hD, e1, h⟩

example := C78_vdm1988_size (T := 8) (N := 3000) (c := 2) (P := 0.4) (ra := 2650) (rw := 1025) (cpl := 6.2)
  (cs := 1) (H := 2) (H2 := 2.8) (S := 2) (by norm_num) (by norm_num) (by norm_num) (by norm_num)
  (by norm_num) (by norm_num) (by norm_num) (by norm_num) (by norm_num) (by norm_num) (by norm_num)

/-- C78: wave height by Van der Meer (1988); `r` is the ratio H2%/Hs -/
theorem C78_vdm1988_height (r D S : ℝ) (hr' : 0 < r) (hD : 0 < D) (hS : 0 < S) :
    Returns (VdM1988.calculate_significant_wave_height_Hs (fin r) (fin T) (fin N) (fin c) (fin P)
      (fin ra) (fin S) (fin D) M (fin cpl) (fin cs) (fin 9.81) (fin rw))
      fun H => Published.VanDerMeer cpl cs P c (Textbook.iribarren H T c)
        (S / Published.stormDuration N) (Textbook.Ns (r * H) D ra rw) := by
  obtain ⟨H, hH, e1, e2⟩ := (C18_damage_height_inverse T N c P ra rw cpl cs M hT hN hc hP hw hr h1 h2
    r D hr' hD).1 S hS
  obtain ⟨S', -, e3, h⟩ := C78_vdm1988_damage T N c P ra rw cpl cs M hT hN hc hP hw hr h1 h2 H (r * H) D
    hH (by positivity) hD
  obtain rfl : S = S' := by simp only [mul_fin] at e2; rw [e2] at e3; simpa using e3
  exact ⟨H, hH, e1, h⟩

example := C78_vdm1988_height (T := 8) (N := 3000) (c := 2) (P := 0.4) (ra := 2650) (rw := 1025)
  (cpl := 6.2) (cs := 1) (M := .fin 5000) (r := 1) (D := 1) (S := 2) (by norm_num) (by norm_num)
  (by norm_num) (by norm_num) (by norm_num) (by norm_num) (by norm_num) (by norm_num) (by norm_num)
  (by norm_num) (by norm_num)

/-- C78: damage by the modified Van der Meer formula (Van Gent et al. 2003) -/
theorem C78_modified_damage (H H2 D : ℝ) (hH : 0 < H) (hH2 : 0 < H2) (hD : 0 < D) :
    Returns (VdMModified.calculate_damage_number_S (fin H) (fin H2) (fin T) (fin N) (fin c) (fin P)
      (fin ra) (fin D) M (fin cpl) (fin cs) (fin rw))
      fun S => Published.VanDerMeer cpl cs P c (Textbook.iribarren H T c) (S / √N)
        (Textbook.Ns H2 D ra rw) := by
  obtain ⟨r, hr', rfl⟩ : ∃ r, 0 < r ∧ H2 = r * H := ⟨H2 / H, by positivity, by field_simp⟩
  have hwt : 0 < √N := Real.sqrt_pos.mpr hN
  exact ⟨_, VdMProof.dmg_pos hr' hT hc hP h1 h2 (Delta_pos hw hr) hwt hH hD,
    VdMProof.Smod_eval M hH hr' hT hN hc hP hw hr hD h1 h2,
    vdm_of_dmg hr' hT hc hP h1 h2 hw hr hwt hH hD⟩

example := C78_modified_damage (T := 8) (N := 3000) (c := 2) (P := 0.4) (ra := 2650) (rw := 1025)
  (cpl := 6.2) (cs := 1) (M := .fin 5000) (H := 2) (H2 := 2.8) (D := 1) (by norm_num) (by norm_num)
  (by norm_num) (by norm_num) (by norm_num) (by norm_num) (by norm_num) (by norm_num) (by norm_num)
  (by norm_num) (by norm_num)

/-- C78: rock size by the modified formula -/
theorem C78_modified_size (H H2 S : ℝ) (hH : 0 < H) (hH2 : 0 < H2) (hS : 0 < S) :
    Returns (VdMModified.calculate_nominal_rock_diameter_Dn50 (fin H) (fin H2) (fin T) (fin N) (fin c)
      (fin P) (fin ra) (fin S) (fin cpl) (fin cs) (fin rw))
      fun D => Published.VanDerMeer cpl cs P c (Textbook.iribarren H T c) (S / √N)
        (Textbook.Ns H2 D ra rw) := by
  obtain ⟨D, hD, e1, e2⟩ := (C19_damage_size_inverse T N c P ra rw cpl cs nan hT hN hc hP hw hr h1 h2
    H H2 hH hH2).1 S hS
  obtain ⟨S', -, e3, h⟩ := C78_modified_damage T N c P ra rw cpl cs nan hT hN hc hP hw hr h1 h2 H H2 D hH
    hH2 hD
  obtain rfl : S = S' := by rw [e2] at e3; simpa using e3
  exact ⟨D, hD, e1, h⟩

example := C78_modified_size (T := 8) (N := 3000) (c := 2) (P := 0.4) (ra := 2650) (rw := 1025) (cpl := 6.2)
  (cs := 1) (H := 2) (H2 := 2.8) (S := 2) (by norm_num) (by norm_num) (by norm_num) (by norm_num)
  (by norm_num) (by norm_num) (by norm_num) (by norm_num) (by norm_num) (by norm_num) (by norm_num)

/-- C78: wave height by the modified formula -/
theorem C78_modified_height (r D S : ℝ) (hr' : 0 < r) (hD : 0 < D) (hS : 0 < S) :
    Returns (VdMModified.calculate_significant_wave_height_Hs (fin r) (fin T) (fin N) (fin c) (fin P)
      (fin ra) (fin S) (fin D) M (fin cpl) (fin cs) (fin 9.81) (fin rw))
      fun H => Published.VanDerMeer cpl cs P c (Textbook.iribarren H T c) (S / √N)
        (Textbook.Ns (r * H) D ra rw) := by
  obtain ⟨H, hH, e1, e2⟩ := (C19_damage_height_inverse T N c P ra rw cpl cs M hT hN hc hP hw hr h1 h2
    r D hr' hD).1 S hS
  obtain ⟨S', -, e3, h⟩ := C78_modified_damage T N c P ra rw cpl cs M hT hN hc hP hw hr h1 h2 H (r * H)
    D hH (by positivity) hD
  obtain rfl : S = S' := by simp only [mul_fin] at e2; rw [e2] at e3; simpa using e3
  exact ⟨H, hH, e1, h⟩

example := C78_modified_height (T := 8) (N := 3000) (c := 2) (P := 0.4) (ra := 2650) (rw := 1025)
  (cpl := 6.2) (cs := 1) (M := .fin 5000) (r := 1) (D := 1) (S := 2) (by norm_num) (by norm_num)
  (by norm_num) (by norm_num) (by norm_num) (by norm_num) (by norm_num) (by norm_num) (by norm_num)
  (by norm_num) (by norm_num)

end

section
variable (T N c P ra cpl cs ml ms : ℝ) (M : PF) (hT : 0 < T) (hN : 0 < N) (hc : 0 < c) (hP : 0 < P)
  (hr : 1025 < ra) (h1 : 0 < cpl) (h2 : 0 < cs) (h3 : 0 < ml) (h4 : 0 < ms)
include hT hN hc hP hr h1 h2 h3 h4

/-- C78: damage by the rewritten Van der Meer formula (2021), based on Hs and Tm-1,0 -/
theorem C78_vdm2021_damage (H D : ℝ) (hH : 0 < H) (hD : 0 < D) :
    Returns (VdM2021.calculate_damage_number_S (fin H) (fin T) (fin N) (fin c) (fin P) (fin ra) (fin D)
      M (fin cpl) (fin cs) (fin ml) (fin ms))
      fun S => Published.VanDerMeer (cpl * ml) (cs * ms) P c (Textbook.iribarren H T c) (S / √N)
        (Textbook.Ns H D ra 1025) := by
  have hwt : 0 < √N := Real.sqrt_pos.mpr hN
  have h := vdm_of_dmg one_pos hT hc hP (mul_pos h1 h3) (mul_pos h2 h4) (by norm_num) hr hwt hH hD
  rw [one_mul] at h
  exact ⟨_, VdMProof.dmg_pos one_pos hT hc hP (mul_pos h1 h3) (mul_pos h2 h4)
    (Delta_pos (by norm_num) hr) hwt hH hD,
    VdMProof.S2021_eval T N c P ra cpl cs ml ms M hT hN hc hP hr h1 h2 h3 h4 hH hD, h⟩

example := C78_vdm2021_damage (T := 8) (N := 3000) (c := 2) (P := 0.4) (ra := 2650) (cpl := 6.2) (cs := 1)
  (ml := 8.5) (ms := 1) (M := .fin 5000) (H := 2) (D := 1) (by norm_num) (by norm_num) (by norm_num)
  (by norm_num) (by norm_num) (by norm_num) (by norm_num) (by norm_num) (by norm_num) (by norm_num)
  (by norm_num)

/-- C78: rock size by the rewritten formula -/
theorem C78_vdm2021_size (H S : ℝ) (hH : 0 < H) (hS : 0 < S) :
    Returns (VdM2021.calculate_nominal_rock_diameter_Dn50 (fin H) (fin T) (fin N) (fin c) (fin P)
      (fin ra) (fin S) (fin cpl) (fin cs) (fin ml) (fin ms))
      fun D => Published.VanDerMeer (cpl * ml) (cs * ms) P c (Textbook.iribarren H T c) (S / √N)
        (Textbook.Ns H D ra 1025) := by
  obtain ⟨D, hD, e1, e2⟩ := (C20_damage_size_inverse T N c P ra cpl cs ml ms nan hT hN hc hP hr h1 h2 h3
    h4 H hH).1 S hS
  obtain ⟨S', -, e3, h⟩ := C78_vdm2021_damage T N c P ra cpl cs ml ms nan hT hN hc hP hr h1 h2 h3 h4 H D
    hH hD
  obtain rfl : S = S' := by rw [e2] at e3; simpa using e3
  exact ⟨D, hD, e1, h⟩

example := C78_vdm2021_size (T := 8) (N := 3000) (c := 2) (P := 0.4) (ra := 2650) (cpl := 6.2) (cs := 1)
  (ml := 8.5) (ms := 1) (H := 2) (S := 2) (by norm_num) (by norm_num) (by norm_num) (by norm_num)
  (by norm_num) (by norm_num) (by norm_num) (by norm_num) (by norm_num) (by norm_num) (by norm_num)

/-- C78: wave height by the rewritten formula -/
theorem C78_vdm2021_height (D S : ℝ) (hD : 0 < D) (hS : 0 < S) :
    Returns (VdM2021.calculate_significant_wave_height_Hs (fin T) (fin N) (fin c) (fin P) (fin ra)
      (fin S) (fin D) M (fin cpl) (fin cs) (fin ml) (fin ms) (fin 9.81))
      fun H => Published.VanDerMeer (cpl * ml) (cs * ms) P c (Textbook.iribarren H T c) (S / √N)
        (Textbook.Ns H D ra 1025) := by
  obtain ⟨H, hH, e1, e2⟩ := (C20_damage_height_inverse T N c P ra cpl cs ml ms M hT hN hc hP hr h1 h2 h3
    h4 D hD).1 S hS
  obtain ⟨S', -, e3, h⟩ := C78_vdm2021_damage T N c P ra cpl cs ml ms M hT hN hc hP hr h1 h2 h3 h4 H D
    hH hD
  obtain rfl : S = S' := by rw [e2] at e3; simpa using e3
  exact ⟨H, hH, e1, h⟩

example := C78_vdm2021_height (T := 8) (N := 3000) (c := 2) (P := 0.4) (ra := 2650) (cpl := 6.2) (cs := 1)
  (ml := 8.5) (ms := 1) (M := .fin 5000) (D := 1) (S := 2) (by norm_num) (by norm_num) (by norm_num)
  (by norm_num) (by norm_num) (by norm_num) (by norm_num) (by norm_num) (by norm_num) (by norm_num)
  (by norm_num)

end

/-- C78: the published coefficients are the defaults: 8.7 and 1.4 with H2% (1988), 8.4 and 1.3 with H2%
(Van Gent et al. 2003), 6.49 and 0.97 with Hs (2021) -/
theorem C78_vdm_default_coefficients (H H2 T N c P ra D : ℝ) (hH : 0 < H) (hH2 : 0 < H2) (hT : 0 < T)
    (hN : 0 < N) (hc : 0 < c) (hP : 0 < P) (hr : 1025 < ra) (hD : 0 < D) :
    Returns (VdM1988.calculate_damage_number_S (Hs := fin H) (H2p := fin H2) (Tm := fin T)
      (N_waves := fin N) (cot_alpha := fin c) (P := fin P) (rho_armour := fin ra) (Dn50 := fin D))
      (fun S => Published.VanDerMeer 8.7 1.4 P c (Textbook.iribarren H T c)
        (S / Published.stormDuration N) (Textbook.Ns H2 D ra 1025)) ∧
    Returns (VdMModified.calculate_damage_number_S (Hs := fin H) (H2p := fin H2) (Tmm10 := fin T)
      (N_waves := fin N) (cot_alpha := fin c) (P := fin P) (rho_armour := fin ra) (Dn50 := fin D))
      (fun S => Published.VanDerMeer 8.4 1.3 P c (Textbook.iribarren H T c)
        (S / √N) (Textbook.Ns H2 D ra 1025)) ∧
    Returns (VdM2021.calculate_damage_number_S (Hs := fin H) (Tmm10 := fin T)
      (N_waves := fin N) (cot_alpha := fin c) (P := fin P) (rho_armour := fin ra) (Dn50 := fin D))
      (fun S => Published.VanDerMeer 6.49 0.97 P c (Textbook.iribarren H T c)
        (S / √N) (Textbook.Ns H D ra 1025)) := by
  have w : (1025.0 : ℝ) = 1025 := by norm_num
  refine ⟨?_, ?_, ?_⟩
  · have h := C78_vdm1988_damage T N c P ra 1025.0 8.7 1.4 nan hT hN hc hP (by norm_num)
      (by rw [w]; exact hr) (by norm_num) (by norm_num) H H2 D hH hH2 hD
    rw [w] at h
    rw [water]; exact h
  · have h := C78_modified_damage T N c P ra 1025.0 8.4 1.3 nan hT hN hc hP (by norm_num)
      (by rw [w]; exact hr) (by norm_num) (by norm_num) H H2 D hH hH2 hD
    rw [w] at h
    rw [water]; exact h
  · have h := C78_vdm2021_damage T N c P ra 6.49 0.97 1.0 1.0 nan hT hN hc hP hr (by norm_num)
      (by norm_num) (by norm_num) (by norm_num) H D hH hD
    rw [VdMProof.one_sci, mul_one, mul_one] at h
    have o : (1.0 : PF) = fin 1 := by rw [sci_eq]; norm_num
    rw [o]; exact h

/-- the hypotheses are satisfiable -/
example : ∃ T N c P ra rw cpl cs H H2 r D S : ℝ, 0 < T ∧ 0 < N ∧ 0 < c ∧ 0 < P ∧ 0 < rw ∧
    rw < ra ∧ 1025 < ra ∧ 0 < cpl ∧ 0 < cs ∧ 0 < H ∧ 0 < H2 ∧ 0 < r ∧ 0 < D ∧ 0 < S :=
  ⟨6, 3000, 2, 0.4, 2650, 1025, 8.7, 1.4, 2, 2.8, 1.4, 1, 2, by norm_num⟩

/-! ## Hudson and the concrete units -/

section
variable (rw ra KD c a : ℝ) (hw : 0 < rw) (hr : rw < ra) (hK : 0 < KD) (hc : 0 < c) (ha : 0 < a)
include hw hr hK hc ha

/-- proof helper: mass by Hudson, as a stability number -/
theorem FormulaProof.hudson_mass {H M : ℝ} (hH : 0 < H)
    (hM : M = ra * (H * a) ^ 3 / (KD * ((ra - rw) / rw) ^ 3 * c)) :
    Published.Hudson (Textbook.Ns (a * H) (Published.Dn M ra) ra rw) 1 KD c := by
  have hD : 0 < (ra - rw) / rw := Delta_pos hw hr
  have hra := hw.trans hr
  unfold Published.Hudson Textbook.Ns Textbook.Delta Published.Dn
  rw [hM]
  clear hM
  generalize (ra - rw) / rw = De at *
  have hk : 0 < (KD * c) ^ ((1 : ℝ) / 3) := by positivity
  have e3 := rpow_third_cube (x := KD * c) (by positivity)
  have : ra * (H * a) ^ 3 / (KD * De ^ 3 * c) / ra =
      (H * a / (De * (KD * c) ^ ((1 : ℝ) / 3))) ^ 3 := by
    rw [div_pow, mul_pow De, e3]
    field_simp
  rw [this, cube_rpow_third (by positivity)]
  generalize (KD * c) ^ ((1 : ℝ) / 3) = k at *
  field_simp

/-- C78: rock mass by Hudson; `a` is the ratio of the design wave height to Hs -/
theorem C78_hudson_mass (H : ℝ) (hH : 0 < H) :
    Returns (pure (Hudson1959.calculate_median_rock_mass_M50_no_damage (fin H) (fin rw) (fin ra)
      (fin KD) (fin c) (fin a)))
      fun M => Published.Hudson (Textbook.Ns (a * H) (Published.Dn M ra) ra rw) 1 KD c := by
  have hD : 0 < (ra - rw) / rw := Delta_pos hw hr
  have hra := hw.trans hr
  exact ⟨_, by positivity, congrArg Except.ok (HudsonProof.M50_eval hH hw hr hK hc ha),
    hudson_mass rw ra KD c a hw hr hK hc ha hH rfl⟩

example := C78_hudson_mass (rw := 1025) (ra := 2650) (KD := 8) (c := 2) (a := 1) (H := 2) (by norm_num)
  (by norm_num) (by norm_num) (by norm_num) (by norm_num) (by norm_num)

/-- C78: wave height by Hudson -/
theorem C78_hudson_height (M : ℝ) (hM : 0 < M) :
    Returns (pure (Hudson1959.calculate_significant_wave_height_Hs_no_damage (fin M) (fin rw) (fin ra)
      (fin KD) (fin c) (fin a)))
      fun H => Published.Hudson (Textbook.Ns (a * H) (Published.Dn M ra) ra rw) 1 KD c := by
  obtain ⟨H, hH, e1, e2⟩ := C07_M50_of_Hs_of_M50 M rw ra KD c a hM hw hr hK hc ha
  obtain ⟨M', -, e3, h⟩ := C78_hudson_mass rw ra KD c a hw hr hK hc ha H hH
  obtain rfl : M = M' := by
    simp only [PyM.pure_def, e2] at e3; simpa using e3
  exact ⟨H, hH, congrArg Except.ok e1, h⟩

example := C78_hudson_height (rw := 1025) (ra := 2650) (KD := 8) (c := 2) (a := 1) (M := 5000) (by norm_num)
  (by norm_num) (by norm_num) (by norm_num) (by norm_num) (by norm_num)

/-- C78: the concrete-unit variants are the Hudson formula -/
theorem C78_concrete_units_mass (H : ℝ) (hH : 0 < H) :
    ∀ f ∈ [Accropode.calculate_unit_mass_M (fin H) (fin rw) (fin ra) (fin KD) (fin c) (fin a),
      Accropode2.calculate_unit_mass_M (fin H) (fin rw) (fin ra) (fin KD) (fin c) (fin a),
      pure (CoreLoc.calculate_unit_mass_M (fin H) (fin rw) (fin ra) (fin KD) (fin c) (fin a)),
      pure (CubesHudson.calculate_unit_mass_M (fin H) (fin rw) (fin ra) (fin KD) (fin c) (fin a)),
      pure (Cubipod.calculate_unit_mass_M (fin H) (fin rw) (fin ra) (fin KD) (fin c) (fin a)),
      pure (Tetrapod.calculate_unit_mass_M (fin H) (fin rw) (fin ra) (fin KD) (fin c) (fin a))],
    Returns f fun M =>
      Published.Hudson (Textbook.Ns (a * H) (Published.Dn M ra) ra rw) 1 KD c := by
  obtain ⟨M, hM, e, h⟩ := C78_hudson_mass rw ra KD c a hw hr hK hc ha H hH
  have e' : Hudson1959.calculate_median_rock_mass_M50_no_damage (fin H) (fin rw) (fin ra)
      (fin KD) (fin c) (fin a) = fin M := by simpa using e
  intro f hf
  simp only [List.mem_cons, List.not_mem_nil, or_false] at hf
  rcases hf with rfl | rfl | rfl | rfl | rfl | rfl
  · exact ⟨M, hM, by simp [Accropode.calculate_unit_mass_M, Accropode.check_validity_range, e',
      bind_assoc], h⟩
  · exact ⟨M, hM, by simp [Accropode2.calculate_unit_mass_M, Accropode2.check_validity_range, e',
      bind_assoc], h⟩
  all_goals exact ⟨M, hM, e, h⟩

/-- C78: … and so are their wave heights -/
theorem C78_concrete_units_height (M : ℝ) (hM : 0 < M) :
    ∀ f ∈ [Accropode.calculate_significant_wave_height_Hs (fin M) (fin rw) (fin ra) (fin KD) (fin c)
        (fin a),
      Accropode2.calculate_significant_wave_height_Hs (fin M) (fin rw) (fin ra) (fin KD) (fin c)
        (fin a),
      pure (CoreLoc.calculate_significant_wave_height_Hs (fin M) (fin rw) (fin ra) (fin KD) (fin c)
        (fin a)),
      pure (CubesHudson.calculate_significant_wave_height_Hs (fin M) (fin rw) (fin ra) (fin KD) (fin c)
        (fin a)),
      pure (Cubipod.calculate_significant_wave_height_Hs (fin M) (fin rw) (fin ra) (fin KD) (fin c)
        (fin a)),
      pure (Tetrapod.calculate_significant_wave_height_Hs (fin M) (fin rw) (fin ra) (fin KD) (fin c)
        (fin a))],
    Returns f fun H =>
      Published.Hudson (Textbook.Ns (a * H) (Published.Dn M ra) ra rw) 1 KD c := by
  obtain ⟨H, hH, e, h⟩ := C78_hudson_height rw ra KD c a hw hr hK hc ha M hM
  have e' : Hudson1959.calculate_significant_wave_height_Hs_no_damage (fin M) (fin rw) (fin ra)
      (fin KD) (fin c) (fin a) = fin H := by simpa using e
  intro f hf
  simp only [List.mem_cons, List.not_mem_nil, or_false] at hf
  rcases hf with rfl | rfl | rfl | rfl | rfl | rfl
  · exact ⟨H, hH, by simp [Accropode.calculate_significant_wave_height_Hs,
      Accropode.check_validity_range, e', bind_assoc], h⟩
  · exact ⟨H, hH, by simp [Accropode2.calculate_significant_wave_height_Hs,
      Accropode2.check_validity_range, e', bind_assoc], h⟩
  all_goals exact ⟨H, hH, e, h⟩

end

/-- C78: rock is designed for the mean of the highest tenth of the waves (1.27 Hs), concrete units for
Hs, unless the user says otherwise -/
theorem C78_hudson_default_wave (H rw ra KD c : ℝ) (hH : 0 < H) (hw : 0 < rw) (hr : rw < ra)
    (hK : 0 < KD) (hc : 0 < c) :
    Returns (pure (Hudson1959.calculate_median_rock_mass_M50_no_damage (fin H) (fin rw) (fin ra)
      (fin KD) (fin c)))
      (fun M => Published.Hudson (Textbook.Ns (1.27 * H) (Published.Dn M ra) ra rw) 1 KD c) ∧
    ∀ f ∈ [Accropode.calculate_unit_mass_M (fin H) (fin rw) (fin ra) (fin KD) (fin c),
      Accropode2.calculate_unit_mass_M (fin H) (fin rw) (fin ra) (fin KD) (fin c),
      pure (CoreLoc.calculate_unit_mass_M (fin H) (fin rw) (fin ra) (fin KD) (fin c)),
      pure (CubesHudson.calculate_unit_mass_M (fin H) (fin rw) (fin ra) (fin KD) (fin c)),
      pure (Cubipod.calculate_unit_mass_M (fin H) (fin rw) (fin ra) (fin KD) (fin c)),
      pure (Tetrapod.calculate_unit_mass_M (fin H) (fin rw) (fin ra) (fin KD) (fin c))],
    Returns f fun M => Published.Hudson (Textbook.Ns H (Published.Dn M ra) ra rw) 1 KD c := by
  refine ⟨C78_hudson_mass rw ra KD c 1.27 hw hr hK hc (by norm_num) H hH, ?_⟩
  have h := C78_concrete_units_mass rw ra KD c 1.0 hw hr hK hc (by norm_num) H hH
  rw [VdMProof.one_sci, one_mul] at h
  have o : (1.0 : PF) = fin 1 := by rw [sci_eq]; norm_num
  rw [o]
  exact h

example := C78_hudson_default_wave (H := 2) (rw := 1025) (ra := 2650) (KD := 8) (c := 2) (by norm_num)
  (by norm_num) (by norm_num) (by norm_num) (by norm_num)

/-- C78: with accepted damage the wave height may be larger by the tabulated ratio, for rough and smooth
rock (damage below 100 %). Missing: that the row used for rough rock is the one the manual prints for
rough rock -/
theorem C78_hudson_damage_partial (H rw ra KD c a d : ℝ) (hH : 0 < H) (hw : 0 < rw) (hr : rw < ra)
    (hK : 0 < KD) (hc : 0 < c) (ha : 0 < a) (hd : d < 100) :
    Returns (Hudson1959.calculate_median_rock_mass_M50 (fin H) (fin rw) (fin ra) (fin KD) (fin c)
      (fin d) "rough" (fin a))
      (fun M => Published.Hudson (Textbook.Ns (a * H) (Published.Dn M ra) ra rw)
        (Published.hudsonRatioA d) KD c) ∧
    Returns (Hudson1959.calculate_median_rock_mass_M50 (fin H) (fin rw) (fin ra) (fin KD) (fin c)
      (fin d) "smooth" (fin a))
      (fun M => Published.Hudson (Textbook.Ns (a * H) (Published.Dn M ra) ra rw)
        (Published.hudsonRatioB d) KD c) := by
  change _ ∧ Returns _ (fun M => Published.Hudson _ (HudsonProof.smoothR d) KD c)
  change Returns _ (fun M => Published.Hudson _ (HudsonProof.roughR d) KD c) ∧ _
  have hra := hw.trans hr
  have hDe := Delta_pos hw hr
  have key : ∀ M f : ℝ, 0 < M → 0 < f →
      Published.Hudson (Textbook.Ns (a * H) (Published.Dn M ra) ra rw) 1 KD c →
      Published.Hudson (Textbook.Ns (a * H) (Published.Dn (M / f ^ 3) ra) ra rw) f KD c := by
    intro M f hM hf h
    unfold Published.Hudson at *
    rw [one_mul] at h
    rw [← h]
    unfold Textbook.Ns Published.Dn
    have : (M / f ^ 3 / ra) ^ ((1 : ℝ) / 3) = (M / ra) ^ ((1 : ℝ) / 3) / f := by
      rw [div_right_comm, Real.div_rpow (by positivity) (by positivity), cube_rpow_third hf.le]
    rw [this]
    field_simp
  obtain ⟨M, hM, e, h⟩ := C78_hudson_mass rw ra KD c a hw hr hK hc ha H hH
  have e' : Hudson1959.calculate_median_rock_mass_M50_no_damage (fin H) (fin rw) (fin ra)
      (fin KD) (fin c) (fin a) = fin M := by simpa using e
  have nr : Hudson1959.norm "rough" = "rough" := by decide
  have ns : Hudson1959.norm "smooth" = "smooth" := by decide
  have h1 := (HudsonProof.rough_mono (le_refl d)).1
  have h2 := (HudsonProof.smooth_mono (le_refl d)).1
  have p1 : 0 < HudsonProof.roughR d := by linarith
  have p2 : 0 < HudsonProof.smoothR d := by linarith
  constructor
  · refine ⟨M / HudsonProof.roughR d ^ 3, by positivity, ?_, key _ _ hM p1 h⟩
    simp only [Hudson1959.calculate_median_rock_mass_M50, HudsonProof.rough_eval hd nr, e']
    simp
    pf_eval []
  · refine ⟨M / HudsonProof.smoothR d ^ 3, by positivity, ?_, key _ _ hM p2 h⟩
    simp only [Hudson1959.calculate_median_rock_mass_M50, HudsonProof.smooth_eval hd ns, e']
    simp
    pf_eval []

/-- the hypotheses are satisfiable -/
example : ∃ H M rw ra KD c a d : ℝ, 0 < H ∧ 0 < M ∧ 0 < rw ∧ rw < ra ∧ 0 < KD ∧ 0 < c ∧ 0 < a ∧
    d < 100 := ⟨2, 3000, 1025, 2650, 4, 2, 1.27, 20, by norm_num⟩

end
