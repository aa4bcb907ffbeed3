import Verif.Props.SensitivityRock
import Verif.Props.SensitivityJumps
import Verif.Props.ContEtemadHeight

/-! # Property C97: Etemad-Shahidi et al. (2020) and Jumelet et al. (2024) -/

open Classical
open PF
open CorePhysics VdMProof Sens EtemadProof
noncomputable section

/-- C97: no power bounds the effect of the damage level on the wave height by Etemad-Shahidi et al. (2020), because of
the jump at the Iribarren number 1.8 -/
theorem C97_etemad2020_height_refuted {T N c ra D Dc : ℝ} (M Mc rc : PF) (hT : 0 < T) (hN : 0 < N) (hc : 0 < c)
    (hr : 1025 < ra) (hD : 0 < D) (hDc : 0 < Dc) (a b : ℝ) :
    ¬ ChangesBetween (fun S => Etemad2020.calculate_significant_wave_height_Hs (fin T) (fin N) (fin c) (fin ra) S
      (fin D) M (fin Dc) Mc rc) a b :=
  fun h => Sens.not_jumps h (C95_etemad2020_height_refuted M Mc rc hT hN hc hr hD hDc)

example := C97_etemad2020_height_refuted (T := 8) (N := 3000) (c := 2) (ra := 2650) (D := 1) (Dc := 0.3)
  nan nan nan (by norm_num) (by norm_num) (by norm_num) (by norm_num) (by norm_num) (by norm_num) (-10) 10

namespace Sens
theorem cp_D {Dc : ℝ} (hDc : 0 < Dc) : El (fun D => cp D Dc) (-0.18) 0 := by
  have e : El (fun D : ℝ => 1 + (Dc / D) ^ (3.0 / 10.0 : ℝ)) (-0.3) 0 :=
    ((El.const one_pos).weaken (by norm_num) le_rfl).add
      (((El.id.cdiv hDc).rpow (p := 3.0 / 10.0) (by norm_num)).weaken (by norm_num) (by norm_num))
  exact (e.rpow (p := 3.0 / 5.0) (by norm_num)).of_eq (by norm_num) (by norm_num)

theorem cp_Dc {D : ℝ} (hD : 0 < D) : El (fun Dc => cp D Dc) 0 0.18 := by
  have e : El (fun Dc : ℝ => 1 + (Dc / D) ^ (3.0 / 10.0 : ℝ)) 0 0.3 :=
    ((El.const one_pos).weaken le_rfl (by norm_num)).add
      (((El.id.divc hD).rpow (p := 3.0 / 10.0) (by norm_num)).weaken (by norm_num) (by norm_num))
  exact (e.rpow (p := 3.0 / 5.0) (by norm_num)).of_eq (by norm_num) (by norm_num)
end Sens

/-- C97: damage by Etemad-Shahidi et al. (2020): 1 % longer storms give 0.6 % more damage, 1 % larger armour 4.92 to 6 %
less and a 1 % coarser core up to 1.08 % less -/
theorem C97_etemad2020_damage {H T N c ra rw D Dc : ℝ} {m : PF} {b : Bool} (M Mc rc : PF) (hH : 0 < H) (hT : 0 < T)
    (hN : 0 < N) (hc : 0 < c) (hw : 0 < rw) (hr : rw < ra) (hD : 0 < D) (hDc : 0 < Dc)
    (hm : b = true → ∃ x : ℝ, x < 1 / 3 ∧ m = fin x) :
    ChangesAs (fun N => Etemad2020.calculate_damage_number_S (fin H) (fin T) N (fin c) (fin ra) (fin D) M (fin Dc) Mc rc
      (fin rw) m b) 0.6 ∧
    ChangesBetween (fun D => Etemad2020.calculate_damage_number_S (fin H) (fin T) (fin N) (fin c) (fin ra) D M (fin Dc)
      Mc rc (fin rw) m b) (-6) (-4.92) ∧
    ChangesBetween (fun Dc => Etemad2020.calculate_damage_number_S (fin H) (fin T) (fin N) (fin c) (fin ra) (fin D) M Dc
      Mc rc (fin rw) m b) (-1.08) 0 := by
  obtain ⟨I, hI, e⟩ := dep_eval hm
  have hDe : 0 < (ra - rw) / rw := div_pos (sub_pos.mpr hr) hw
  have hx := xi_pos hH hT hc
  have hC := cp_pos hD hDc.le
  generalize hde : (ra - rw) / rw = De at hDe
  refine ⟨as (fun x hx => hde ▸ S_eval M Mc rc hT hx hc hw hr hD hDc.le hI e hH) ?_,
    between (fun x hx => hde ▸ S_eval M Mc rc hT hN hc hw hr hx hDc.le hI e hH) ?_,
    between (fun x hx => hde ▸ S_eval M Mc rc hT hN hc hw hr hD (le_of_lt hx) hI e hH) ?_⟩
  · have k : ∀ u v w z : ℝ, 0 < u → 0 < v → 0 < w → 0 < z →
        El (fun N : ℝ => u * v * w * N ^ (0.6 : ℝ) * z * I ^ (-6.0 : ℝ)) 0.6 0.6 := fun u v w z hu hv hw hz =>
      ((((El.id.rpow (p := 0.6) (by norm_num)).cmul (v := u * v * w) (by positivity)).mulc hz).mulc
        (Real.rpow_pos_of_pos hI _)).of_eq (by norm_num) (by norm_num)
    unfold Sd Ssu Spl
    exact (k _ _ _ _ (by positivity) (by positivity) (by positivity) (by positivity)).ite
      (k _ _ _ _ (by positivity) (by positivity) (by positivity) (by positivity))
  · have k : ∀ u z : ℝ, 0 < u → 0 < z → El (fun D : ℝ => u * (H / (De * D)) ^ (6.0 : ℝ) * cp D Dc ^ (-6.0 : ℝ) *
        N ^ (0.6 : ℝ) * z * I ^ (-6.0 : ℝ)) (-6) (-4.92) := fun u z hu hz =>
      (((((((El.id.cmul hDe).cdiv hH).rpow (p := 6.0) (by norm_num)).cmul hu).mul
        ((cp_D hDc).rpow_neg (p := -6.0) (by norm_num))).mulc (v := N ^ (0.6 : ℝ)) (by positivity)).mulc hz).mulc
        (Real.rpow_pos_of_pos hI _) |>.of_eq (by norm_num) (by norm_num)
    unfold Sd Ssu Spl
    exact (k _ _ (by positivity) (by positivity)).ite (k _ _ (by positivity) (by positivity))
  · have k : ∀ u z : ℝ, 0 < u → 0 < z → El (fun Dc : ℝ => u * (H / (De * D)) ^ (6.0 : ℝ) * cp D Dc ^ (-6.0 : ℝ) *
        N ^ (0.6 : ℝ) * z * I ^ (-6.0 : ℝ)) (-1.08) 0 := fun u z hu hz =>
      (((((cp_Dc hD).rpow_neg (p := -6.0) (by norm_num)).cmul (v := u * (H / (De * D)) ^ (6.0 : ℝ)) (by positivity)).mulc
        (v := N ^ (0.6 : ℝ)) (by positivity)).mulc hz).mulc (Real.rpow_pos_of_pos hI _)
        |>.of_eq (by norm_num) (by norm_num)
    unfold Sd Ssu Spl
    exact (k _ _ (by positivity) (by positivity)).ite (k _ _ (by positivity) (by positivity))

example := C97_etemad2020_damage (H := 2) (T := 8) (N := 3000) (c := 2) (ra := 2650) (rw := 1025) (D := 1) (Dc := 0.3)
  (m := fin 0.02) (b := true) nan nan nan (by norm_num) (by norm_num) (by norm_num) (by norm_num) (by norm_num)
  (by norm_num) (by norm_num) (by norm_num) (fun _ => ⟨0.02, by norm_num, rfl⟩)

/-- C97: Jumelet et al. (2024), as long as some waves are plunging: 1 % larger stones give 5 % less damage, 1 % more
damage allowed gives 0.2 % smaller stones -/
theorem C97_jumelet {H T N c ra rw cp : ℝ} (M : PF) (hH : 0 < H) (hT : 0 < T) (hc : 0 < c) (hw : 0 < rw) (hr : rw < ra)
    (hr' : 1025 < ra) (hcp : 0 < cp) (hN : 1 / 2 < Published.plungingPart (Textbook.iribarren H T c) * N) :
    ChangesAs (fun D => Jumelet2024.calculate_damage_number_S (fin H) (fin T) (fin N) (fin c) (fin ra) D M (fin cp)
      (fin rw)) (-5) ∧
    ChangesAs (fun S => Jumelet2024.calculate_nominal_rock_diameter_Dn50 (fin H) (fin T) (fin N) (fin c) (fin ra) S
      (fin cp)) (-0.2) := by
  have hp : 0 < JumScaProof.Np H T N c :=
    JumScaProof.np_pos hH hT hc ⟨_, VdMProof.xi_eval hH hT hc, by rw [RangeProof.irib_eq] at hN; exact hN⟩
  have hDe : 0 < (ra - rw) / rw := div_pos (sub_pos.mpr hr) hw
  have hDe' : 0 < (ra - 1025) / 1025 := div_pos (sub_pos.mpr hr') (by norm_num)
  have hx := xi_pos hH hT hc
  refine ⟨as (fun x hx => JumScaProof.jumS_eval M hH hT hc hw hr hx hcp hp) ?_,
    as (fun x hx => JumScaProof.jumD_eval hH hT hc hr' hx hcp hp) ?_⟩
  · exact ((((((El.id.cmul hDe).cdiv hH).mulc hx).mulc (v := JumScaProof.Np H T N c ^ (0.1 : ℝ)) (by positivity)).mulc
      (v := 1.0 / cp) (by positivity)).rpow (p := 5.0) (by norm_num)).of_eq (by norm_num) (by norm_num)
  · exact ((El.id.rpow_neg (p := -0.2) (by norm_num)).cmul (v := H / ((ra - 1025) / 1025) * xi H T c *
      JumScaProof.Np H T N c ^ (0.1 : ℝ) * (1.0 / cp)) (by positivity)).of_eq (by norm_num) (by norm_num)

/-- the hypotheses are satisfiable -/
example : ∃ H T N c ra rw cp : ℝ, 0 < H ∧ 0 < T ∧ 0 < c ∧ 0 < rw ∧ rw < ra ∧ 1025 < ra ∧ 0 < cp ∧
    1 / 2 < Published.plungingPart (Textbook.iribarren H T c) * N := by
  have hpi := Real.pi_pos
  refine ⟨9.81 / (2 * Real.pi), 1, 1000, 1, 2650, 1025, 4, by positivity, by norm_num, by norm_num, by norm_num,
    by norm_num, by norm_num, by norm_num, ?_⟩
  have : Textbook.iribarren (9.81 / (2 * Real.pi)) 1 1 = 1 := by
    unfold Textbook.iribarren Textbook.steepness
    have : 9.81 / (2 * Real.pi) / (9.81 * 1 ^ 2 / (2 * Real.pi)) = 1 := by field_simp
    rw [this]; norm_num
  rw [this]
  unfold Published.plungingPart; norm_num
end
