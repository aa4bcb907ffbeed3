import Verif.SpecDesign
import Verif.Props.VanDerMeer
import Verif.Props.JumeletScaravaglione
import Verif.Props.Etemad2020

/-! # Property C96: design values are limits: rock armour -/

open Classical
open PF
open CorePhysics VdMProof
noncomputable section

section
variable (T N c P ra rw cpl cs : ℝ) (M : PF) (hT : 0 < T) (hN : 0 < N) (hc : 0 < c) (hP : 0 < P)
  (hw : 0 < rw) (hr : rw < ra) (h1 : 0 < cpl) (h2 : 0 < cs)
include hT hN hc hP hw hr h1 h2

/-- C96, Van der Meer (1988): the damage stays within the limit exactly from the returned rock size on -/
theorem C96_vdm1988_size (H H2 S : ℝ) (hH : 0 < H) (hH2 : 0 < H2) (hS : 0 < S) : SafeFrom
    (fun D => VdM1988.calculate_damage_number_S (fin H) (fin H2) (fin T) (fin N) (fin c) (fin P)
      (fin ra) D M (fin cpl) (fin cs) (fin rw)) S
    (VdM1988.calculate_nominal_rock_diameter_Dn50 (fin H) (fin H2) (fin T) (fin N) (fin c)
      (fin P) (fin ra) (fin S) (fin cpl) (fin cs) (fin rw)) :=
  DesignProof.from_inverse (C17_damage_size_inverse T N c P ra rw cpl cs M hT hN hc hP hw hr h1 h2 H H2 hH hH2)
    (C26_1988_rock_size T N c P ra rw cpl cs M hT hN hc hP hw hr h1 h2 H H2 hH hH2) hS

example := C96_vdm1988_size (T := 6) (N := 3000) (c := 2) (P := 0.4) (ra := 2650) (rw := 1025) (cpl := 8.7)
  (cs := 1.4) (M := nan) (H := 2) (H2 := 2.8) (S := 3)
  (by norm_num) (by norm_num) (by norm_num) (by norm_num) (by norm_num) (by norm_num) (by norm_num)
  (by norm_num) (by norm_num) (by norm_num) (by norm_num)

/-- C96, Van der Meer (1988): the damage stays within the limit exactly up to the returned wave height -/
theorem C96_vdm1988_height (r D S : ℝ) (hr' : 0 < r) (hD : 0 < D) (hS : 0 < S) : SafeUpTo
    (fun H => VdM1988.calculate_damage_number_S H (fin r * H) (fin T) (fin N) (fin c) (fin P)
      (fin ra) (fin D) M (fin cpl) (fin cs) (fin rw)) S
    (VdM1988.calculate_significant_wave_height_Hs (fin r) (fin T) (fin N) (fin c) (fin P)
      (fin ra) (fin S) (fin D) M (fin cpl) (fin cs) (fin 9.81) (fin rw)) :=
  DesignProof.upto_inverse (C18_damage_height_inverse T N c P ra rw cpl cs M hT hN hc hP hw hr h1 h2 r D hr' hD)
    (C26_1988_wave_height T N c P ra rw cpl cs M hT hN hc hP hw hr h1 h2 r D hr' hD) hS

example := C96_vdm1988_height (T := 6) (N := 3000) (c := 2) (P := 0.4) (ra := 2650) (rw := 1025) (cpl := 8.7)
  (cs := 1.4) (M := nan) (r := 1.4) (D := 1) (S := 3)
  (by norm_num) (by norm_num) (by norm_num) (by norm_num) (by norm_num) (by norm_num) (by norm_num)
  (by norm_num) (by norm_num) (by norm_num) (by norm_num)

/-- C96, modified Van der Meer: rock size -/
theorem C96_modified_size (H H2 S : ℝ) (hH : 0 < H) (hH2 : 0 < H2) (hS : 0 < S) : SafeFrom
    (fun D => VdMModified.calculate_damage_number_S (fin H) (fin H2) (fin T) (fin N) (fin c) (fin P)
      (fin ra) D M (fin cpl) (fin cs) (fin rw)) S
    (VdMModified.calculate_nominal_rock_diameter_Dn50 (fin H) (fin H2) (fin T) (fin N) (fin c)
      (fin P) (fin ra) (fin S) (fin cpl) (fin cs) (fin rw)) :=
  DesignProof.from_inverse (C19_damage_size_inverse T N c P ra rw cpl cs M hT hN hc hP hw hr h1 h2 H H2 hH hH2)
    (C26_modified_rock_size T N c P ra rw cpl cs M hT hN hc hP hw hr h1 h2 H H2 hH hH2) hS

example := C96_modified_size (T := 6) (N := 3000) (c := 2) (P := 0.4) (ra := 2650) (rw := 1025) (cpl := 8.7)
  (cs := 1.4) (M := nan) (H := 2) (H2 := 2.8) (S := 3)
  (by norm_num) (by norm_num) (by norm_num) (by norm_num) (by norm_num) (by norm_num) (by norm_num)
  (by norm_num) (by norm_num) (by norm_num) (by norm_num)

/-- C96, modified Van der Meer: wave height -/
theorem C96_modified_height (r D S : ℝ) (hr' : 0 < r) (hD : 0 < D) (hS : 0 < S) : SafeUpTo
    (fun H => VdMModified.calculate_damage_number_S H (fin r * H) (fin T) (fin N) (fin c) (fin P)
      (fin ra) (fin D) M (fin cpl) (fin cs) (fin rw)) S
    (VdMModified.calculate_significant_wave_height_Hs (fin r) (fin T) (fin N) (fin c) (fin P)
      (fin ra) (fin S) (fin D) M (fin cpl) (fin cs) (fin 9.81) (fin rw)) :=
  DesignProof.upto_inverse (C19_damage_height_inverse T N c P ra rw cpl cs M hT hN hc hP hw hr h1 h2 r D hr' hD)
    (C26_modified_wave_height T N c P ra rw cpl cs M hT hN hc hP hw hr h1 h2 r D hr' hD) hS

example := C96_modified_height (T := 6) (N := 3000) (c := 2) (P := 0.4) (ra := 2650) (rw := 1025) (cpl := 8.7)
  (cs := 1.4) (M := nan) (r := 1.4) (D := 1) (S := 3)
  (by norm_num) (by norm_num) (by norm_num) (by norm_num) (by norm_num) (by norm_num) (by norm_num)
  (by norm_num) (by norm_num) (by norm_num) (by norm_num)
end

section
variable (T N c P ra cpl cs ml ms : ℝ) (M : PF) (hT : 0 < T) (hN : 0 < N) (hc : 0 < c) (hP : 0 < P)
  (hr : 1025 < ra) (h1 : 0 < cpl) (h2 : 0 < cs) (h3 : 0 < ml) (h4 : 0 < ms)
include hT hN hc hP hr h1 h2 h3 h4

/-- C96, Van der Meer (2021): rock size -/
theorem C96_vdm2021_size (H S : ℝ) (hH : 0 < H) (hS : 0 < S) : SafeFrom
    (fun D => VdM2021.calculate_damage_number_S (fin H) (fin T) (fin N) (fin c) (fin P)
      (fin ra) D M (fin cpl) (fin cs) (fin ml) (fin ms)) S
    (VdM2021.calculate_nominal_rock_diameter_Dn50 (fin H) (fin T) (fin N)
      (fin c) (fin P) (fin ra) (fin S) (fin cpl) (fin cs) (fin ml) (fin ms)) :=
  DesignProof.from_inverse
    (C20_damage_size_inverse T N c P ra cpl cs ml ms M hT hN hc hP hr h1 h2 h3 h4 H hH)
    (fun _ _ hx hxy => ⟨_, _, S2021_eval T N c P ra cpl cs ml ms M hT hN hc hP hr h1 h2 h3 h4 hH hx,
      S2021_eval T N c P ra cpl cs ml ms M hT hN hc hP hr h1 h2 h3 h4 hH (hx.trans hxy),
      dmg_lt_D one_pos hT hc hP (mul_pos h1 h3) (mul_pos h2 h4) (div_pos (sub_pos.mpr hr) (by norm_num))
        (Real.sqrt_pos.mpr hN) hH hx hxy⟩) hS

example := C96_vdm2021_size (T := 6) (N := 3000) (c := 2) (P := 0.4) (ra := 2650) (cpl := 6.49)
  (cs := 0.97) (ml := 1) (ms := 1) (M := nan) (H := 2) (S := 3)
  (by norm_num) (by norm_num) (by norm_num) (by norm_num) (by norm_num) (by norm_num) (by norm_num)
  (by norm_num) (by norm_num) (by norm_num) (by norm_num)

/-- C96, Van der Meer (2021): wave height -/
theorem C96_vdm2021_height (D S : ℝ) (hD : 0 < D) (hS : 0 < S) : SafeUpTo
    (fun H => VdM2021.calculate_damage_number_S H (fin T) (fin N) (fin c) (fin P)
      (fin ra) (fin D) M (fin cpl) (fin cs) (fin ml) (fin ms)) S
    (VdM2021.calculate_significant_wave_height_Hs (fin T) (fin N) (fin c)
      (fin P) (fin ra) (fin S) (fin D) M (fin cpl) (fin cs) (fin ml) (fin ms) (fin 9.81)) :=
  DesignProof.upto_inverse
    (C20_damage_height_inverse T N c P ra cpl cs ml ms M hT hN hc hP hr h1 h2 h3 h4 D hD)
    (fun _ _ hx hxy => ⟨_, _, S2021_eval T N c P ra cpl cs ml ms M hT hN hc hP hr h1 h2 h3 h4 hx hD,
      S2021_eval T N c P ra cpl cs ml ms M hT hN hc hP hr h1 h2 h3 h4 (hx.trans hxy) hD,
      dmg_lt_H one_pos hT hc hP (mul_pos h1 h3) (mul_pos h2 h4) (div_pos (sub_pos.mpr hr) (by norm_num))
        (Real.sqrt_pos.mpr hN) hx hxy hD⟩) hS

example := C96_vdm2021_height (T := 6) (N := 3000) (c := 2) (P := 0.4) (ra := 2650) (cpl := 6.49)
  (cs := 0.97) (ml := 1) (ms := 1) (M := nan) (D := 1) (S := 3)
  (by norm_num) (by norm_num) (by norm_num) (by norm_num) (by norm_num) (by norm_num) (by norm_num)
  (by norm_num) (by norm_num) (by norm_num) (by norm_num)
end

section
open JumScaProof
variable (T N c ra rw cv : ℝ) (rc M Mc : PF) (hT : 0 < T) (hN : 0 < N) (hc : 0 < c) (hw : 0 < rw)
  (hr : rw < ra) (hcv : 0 < cv)
include hT hN hc hw hr hcv

/-- C96, Scaravaglione et al. (2025): rock size (a returned size of zero or less means that every size
will do) -/
theorem C96_scaravaglione_size (H S Dc : ℝ) (hH : 0 < H) (hS : 0 < S) (hDc : 0 ≤ Dc) : SafeFrom
    (fun D => Scaravaglione2025.calculate_damage_number_S (fin H) (fin T) (fin N) (fin c) (fin ra) rc
      D (fin Dc) M Mc (fin cv) (fin rw)) S
    (Scaravaglione2025.calculate_nominal_rock_diameter_Dn50 (fin H) (fin T) (fin N) (fin c) (fin ra)
      rc (fin S) (fin Dc) Mc (fin cv) (fin rw)) := by
  have hDe : 0 < (ra - rw) / rw := div_pos (sub_pos.mpr hr) hw
  have hs := st_pos hH hT
  have hs1 : 0 < st H T ^ (-0.1 : ℝ) := by positivity
  have hN' : 0 < √N := Real.sqrt_pos.mpr hN
  have hX : 0 < X H T N c ((ra - rw) / rw) S cv := by unfold X; positivity
  refine DesignProof.from_formula (fun D => Sc H T N c ((ra - rw) / rw) D Dc cv)
    (scD_eval rc Mc hT hN hc hw hr hcv hH hS) (fun x hx => scS_eval rc M Mc hT hN hc hw hr hcv hH hx hDc)
    fun x hx => DesignProof.anti_iff (F := fun D => Sc H T N c ((ra - rw) / rw) D Dc cv) (s := {x | 0 < x + Dc})
      ?_ ?_ (Sc_X hH hT hN hc hDe hcv hS) ?_
  · intro x hx y hy hxy
    have hx : 0 < x + Dc := hx
    have hy : 0 < y + Dc := hy
    unfold Sc
    gcongr
  · simpa using hX
  · change 0 < x + Dc; positivity

example := C96_scaravaglione_size (T := 6) (N := 3000) (c := 2) (ra := 2650) (rw := 1025) (cv := 4.3) (rc := nan) (M := nan)
  (Mc := nan) (H := 2) (S := 3) (Dc := 0.3)
  (by norm_num) (by norm_num) (by norm_num) (by norm_num) (by norm_num) (by norm_num) (by norm_num)
  (by norm_num) (by norm_num)

/-- C96, Scaravaglione et al. (2025): wave height -/
theorem C96_scaravaglione_height (D Dc S : ℝ) (hD : 0 < D) (hDc : 0 ≤ Dc) (hS : 0 < S) : SafeUpTo
    (fun H => Scaravaglione2025.calculate_damage_number_S H (fin T) (fin N) (fin c) (fin ra) rc
      (fin D) (fin Dc) M Mc (fin cv) (fin rw)) S
    (Scaravaglione2025.calculate_significant_wave_height_Hm0 (fin T) (fin N) (fin c) (fin ra)
      rc (fin S) (fin D) (fin Dc) M Mc (fin cv) (fin 9.81) (fin rw)) :=
  DesignProof.upto_inverse (C24_damage_height_inverse T N c ra rw cv rc M Mc hT hN hc hw hr hcv D Dc hD hDc)
    (fun _ _ hx hxy => ⟨_, _, scS_eval rc M Mc hT hN hc hw hr hcv hx hD hDc,
      scS_eval rc M Mc hT hN hc hw hr hcv (hx.trans hxy) hD hDc,
      Sc_mono hx hxy hT hN hc (div_pos (sub_pos.mpr hr) hw) hcv (by positivity)⟩) hS

example := C96_scaravaglione_height (T := 6) (N := 3000) (c := 2) (ra := 2650) (rw := 1025) (cv := 4.3) (rc := nan) (M := nan)
  (Mc := nan) (D := 1) (Dc := 0.3) (S := 3)
  (by norm_num) (by norm_num) (by norm_num) (by norm_num) (by norm_num) (by norm_num) (by norm_num)
  (by norm_num) (by norm_num)
end

section
open JumScaProof
/-- C96, Jumelet et al. (2024): rock size, in water of 1025 kg/m³ -/
theorem C96_jumelet_size (H T N c ra cp S : ℝ) (M : PF) (hH : 0 < H) (hT : 0 < T)
    (hc : 0 < c) (hr : 1025 < ra) (hcp : 0 < cp) (hN : SomePlungingWaves H T N c) (hS : 0 < S) : SafeFrom
    (fun D => Jumelet2024.calculate_damage_number_S (fin H) (fin T) (fin N) (fin c) (fin ra) D M
      (fin cp) (fin 1025)) S
    (Jumelet2024.calculate_nominal_rock_diameter_Dn50 (fin H) (fin T) (fin N) (fin c)
      (fin ra) (fin S) (fin cp)) :=
  DesignProof.from_inverse (C23_damage_size_inverse H T N c ra cp M hH hT hc hr hcp hN)
    (fun x y hx hxy => ⟨_, _, jumS_eval M hH hT hc (by norm_num) hr hx hcp (np_pos hH hT hc hN),
      jumS_eval M hH hT hc (by norm_num) hr (hx.trans hxy) hcp (np_pos hH hT hc hN), by
      have hn := np_pos hH hT hc hN
      have hx' := xi_pos hH hT hc
      have hDe : 0 < (ra - 1025) / 1025 := div_pos (sub_pos.mpr hr) (by norm_num)
      have hy := hx.trans hxy
      refine Real.rpow_lt_rpow (by positivity) ?_ (by norm_num)
      gcongr⟩) hS

/-- a case: waves with an Iribarren number of exactly 1 -/
example := C96_jumelet_size 1 √(2 * Real.pi / 9.81) 1000 1 2650 5 2 (.fin 1000) one_pos
  (by have := Real.pi_pos; positivity) one_pos (by norm_num) (by norm_num) (by
    have hpi := Real.pi_pos
    refine ⟨1, ?_, by norm_num⟩
    rw [VdMProof.xi_eval one_pos (by positivity) one_pos, fin_inj]
    unfold VdMProof.xi
    rw [Real.sq_sqrt (by positivity), mul_one, div_self (by positivity)]
    norm_num) (by norm_num)
end

section
open EtemadProof Etemad2020
variable (T N c ra D Dc : ℝ) (m : PF) (b : Bool) (M Mc rc : PF) (hT : 0 < T) (hN : 0 < N)
  (hc : 0 < c) (hr : 1025 < ra) (hD : 0 < D) (hDc : 0 ≤ Dc)
  (hm : b = true → ∃ x : ℝ, x < 1 / 3 ∧ m = fin x)
include hT hN hc hr hD hDc hm

omit hr hDc hm in
theorem DesignProof.Sd_lt {De C I H H' : ℝ} (hDe : 0 < De) (hC : 0 < C) (hI : 0 < I) (hH : 0 < H) (h : H < H') :
    Sd H T N c De D C I < Sd H' T N c De D C I := by
  have hH' := hH.trans h
  have hx := xi_anti hH h hT hc
  unfold Sd
  split_ifs with h1 h2 h2
  · exact Ssu_lt hT hN hc hDe hD hC hI hH h
  · exact (Ssu_lt_Spl hT hN hc hDe hD hC hI hH h1).trans (Spl_lt hT hN hc hDe hD hC hI hH h)
  · exact absurd (h2.trans hx.le) h1
  · exact Spl_lt hT hN hc hDe hD hC hI hH h

/-- C96, Etemad-Shahidi et al. (2020): wave height, in water of 1025 kg/m³.  Full claim: for every damage
level; it holds for the levels that occur (the formula jumps at ξ = 1.8, `C96_etemad2020_height_refuted`). -/
theorem C96_etemad2020_height_partial (H S : ℝ) (hH : 0 < H)
    (hS : (calculate_damage_number_S (fin H) (fin T) (fin N) (fin c) (fin ra) (fin D) M (fin Dc) Mc
      rc (fin 1025) m b).res = .ok (fin S)) : SafeUpTo
    (fun H => calculate_damage_number_S H (fin T) (fin N) (fin c) (fin ra) (fin D) M (fin Dc) Mc
      rc (fin 1025) m b) S
    (calculate_significant_wave_height_Hs (fin T) (fin N) (fin c) (fin ra) (fin S) (fin D) M
      (fin Dc) Mc rc m b) := by
  obtain ⟨I, hI, e⟩ := dep_eval hm
  have hDe : 0 < (ra - 1025) / 1025 := div_pos (sub_pos.mpr hr) (by norm_num)
  have hC := cp_pos hD hDc
  rw [S_eval M Mc rc hT hN hc (by norm_num) hr hD hDc hI e hH, Except.ok.injEq, fin_inj] at hS
  subst hS
  have hp := Sd_pos hT hN hc hDe hD hC hI hH
  refine DesignProof.upto_formula (fun x => Sd x T N c ((ra - 1025) / 1025) D (cp D Dc) I) (d := H) ?_
    (fun x hx => S_eval M Mc rc hT hN hc (by norm_num) hr hD hDc hI e hx) fun x hx =>
      DesignProof.mono_iff (F := fun x => Sd x T N c ((ra - 1025) / 1025) D (cp D Dc) I) (s := {x | 0 < x}) ?_
        hH rfl hx
  · rw [H_eval M Mc rc hT hN hc hr hD hDc hI e hp, Hd_Sd hT hN hc hDe hD hC hI hH]
  · exact fun x hx y _ hxy => DesignProof.Sd_lt T N c D hT hN hc hD hDe hC hI hx hxy

/-- C96 limit: for some damage levels the wave height returned by Etemad-Shahidi et al. (2020) itself
exceeds the level -/
theorem C96_etemad2020_height_refuted : ∃ S : ℝ, 0 < S ∧ ¬ SafeUpTo
    (fun H => calculate_damage_number_S H (fin T) (fin N) (fin c) (fin ra) (fin D) M (fin Dc) Mc
      rc (fin 1025) m b) S
    (calculate_significant_wave_height_Hs (fin T) (fin N) (fin c) (fin ra) (fin S) (fin D) M
      (fin Dc) Mc rc m b) := by
  obtain ⟨S, H, S', hS, hH, e1, e2, h⟩ := C21_gap_refuted T N c ra D Dc m b M Mc rc hT hN hc hr hD hDc hm
  refine ⟨S, hS, ?_⟩
  rintro ⟨d, ed, hd⟩
  rw [e1, Except.ok.injEq, fin_inj] at ed
  subst ed
  obtain ⟨v, ev, hv⟩ := hd H hH
  simp only [e2, Except.ok.injEq, fin_inj] at ev
  subst ev
  exact absurd (hv.mpr le_rfl) (not_le.mpr h)
end

/-- a damage level that occurs -/
example : ∃ S : ℝ, SafeUpTo
    (fun H => Etemad2020.calculate_damage_number_S H (fin 8) (fin 3000) (fin 2) (fin 2650) (fin 1) nan (fin 0.3) nan
      nan (fin 1025) nan false) S
    (Etemad2020.calculate_significant_wave_height_Hs (fin 8) (fin 3000) (fin 2) (fin 2650) (fin S) (fin 1) nan
      (fin 0.3) nan nan nan false) := by
  obtain ⟨I, hI, e⟩ := EtemadProof.dep_eval (m := nan) (b := false) (by simp)
  exact ⟨_, C96_etemad2020_height_partial 8 3000 2 2650 1 0.3 nan false nan nan nan (by norm_num) (by norm_num)
    (by norm_num) (by norm_num) (by norm_num) (by norm_num) (by simp) 2 _ (by norm_num)
    (EtemadProof.S_eval nan nan nan (by norm_num) (by norm_num) (by norm_num) (by norm_num) (by norm_num)
      (by norm_num) (by norm_num) hI e (by norm_num))⟩

example := C96_etemad2020_height_refuted 8 3000 2 2650 1 0.3 (fin 0.02) true nan nan nan (by norm_num) (by norm_num)
  (by norm_num) (by norm_num) (by norm_num) (by norm_num) (fun _ => ⟨0.02, by norm_num, rfl⟩)
end
