import Mathlib.Analysis.Complex.ExponentialBounds
import Verif.Lemmas.VdM
import Verif.Spec

/-! # Properties C17–C20 and C26: the Van der Meer family -/

open Classical
open PF
open CorePhysics VdMProof
noncomputable section

section
variable (T N c P ra rw cpl cs : ℝ) (M : PF) (hT : 0 < T) (hN : 0 < N) (hc : 0 < c) (hP : 0 < P)
  (hw : 0 < rw) (hr : rw < ra) (h1 : 0 < cpl) (h2 : 0 < cs)
include hT hN hc hP hw hr h1 h2

/-- C17: rock size for a damage level and damage for a rock size are inverse, in both regimes and
at the transition (the wave height, period, slope, … are arbitrary). -/
theorem C17_damage_size_inverse (H H2 : ℝ) (hH : 0 < H) (hH2 : 0 < H2) : MutuallyInverse
    (fun S => VdM1988.calculate_nominal_rock_diameter_Dn50 (fin H) (fin H2) (fin T) (fin N) (fin c)
      (fin P) (fin ra) S (fin cpl) (fin cs) (fin rw))
    (fun D => VdM1988.calculate_damage_number_S (fin H) (fin H2) (fin T) (fin N) (fin c) (fin P)
      (fin ra) D M (fin cpl) (fin cs) (fin rw)) := by
  obtain ⟨r, hr', rfl⟩ : ∃ r, 0 < r ∧ H2 = r * H := ⟨H2 / H, by positivity, by field_simp⟩
  have hDe : 0 < (ra - rw) / rw := div_pos (sub_pos.mpr hr) hw
  have hwt : 0 < √N / gam N := div_pos (Real.sqrt_pos.mpr hN) (gam_pos hN)
  constructor
  · intro S hS
    have hp := dia_pos hr' hT hc hP h1 h2 hDe hwt hH hS
    refine ⟨_, hp, Dn1988_eval hH hr' hT hN hc hP hw hr hS h1 h2, ?_⟩
    rw [S1988_eval M hH hr' hT hN hc hP hw hr hp h1 h2,
      dmg_dia hr' hT hc hP h1 h2 hDe hwt hH hS]
  · intro D hD
    have hp := dmg_pos hr' hT hc hP h1 h2 hDe hwt hH hD
    refine ⟨_, hp, S1988_eval M hH hr' hT hN hc hP hw hr hD h1 h2, ?_⟩
    rw [Dn1988_eval hH hr' hT hN hc hP hw hr hp h1 h2,
      dia_dmg hr' hT hc hP h1 h2 hDe hwt hH hD]

example := C17_damage_size_inverse (T := 8) (N := 3000) (c := 2) (P := 0.4) (ra := 2650) (rw := 1025)
  (cpl := 6.2) (cs := 1) (M := .fin 5000) (H := 2) (H2 := 2.8) (by norm_num) (by norm_num) (by norm_num)
  (by norm_num) (by norm_num) (by norm_num) (by norm_num) (by norm_num) (by norm_num) (by norm_num)

/-- C18: allowed wave height and damage are inverse (with the default gravity). -/
theorem C18_damage_height_inverse (r D : ℝ) (hr' : 0 < r) (hD : 0 < D) : MutuallyInverse
    (fun S => VdM1988.calculate_significant_wave_height_Hs (fin r) (fin T) (fin N) (fin c) (fin P)
      (fin ra) S (fin D) M (fin cpl) (fin cs) (fin 9.81) (fin rw))
    (fun H => VdM1988.calculate_damage_number_S H (fin r * H) (fin T) (fin N) (fin c) (fin P)
      (fin ra) (fin D) M (fin cpl) (fin cs) (fin rw)) := by
  have hDe : 0 < (ra - rw) / rw := div_pos (sub_pos.mpr hr) hw
  have hwt : 0 < √N / gam N := div_pos (Real.sqrt_pos.mpr hN) (gam_pos hN)
  constructor
  · intro S hS
    have hp := Hsel_pos hr' hT hc hP h1 h2 (g := 9.81) (by norm_num) (div_pos hS hwt) hDe hD
    refine ⟨_, hp, H1988_eval M hr' hT hN hc hP hw hr hS hD h1 h2 (by norm_num), ?_⟩
    simp only [mul_fin]
    rw [S1988_eval M hp hr' hT hN hc hP hw hr hD h1 h2,
      dmg_Hsel hr' hT hc hP h1 h2 hDe hwt hS hD]
  · intro H hH
    have hp := dmg_pos hr' hT hc hP h1 h2 hDe hwt hH hD
    simp only [mul_fin]
    refine ⟨_, hp, S1988_eval M hH hr' hT hN hc hP hw hr hD h1 h2, ?_⟩
    rw [H1988_eval M hr' hT hN hc hP hw hr hp hD h1 h2 (by norm_num),
      Hsel_dmg hr' hT hc hP h1 h2 hDe hwt hH hD]

example := C18_damage_height_inverse (T := 8) (N := 3000) (c := 2) (P := 0.4) (ra := 2650) (rw := 1025)
  (cpl := 6.2) (cs := 1) (M := .fin 5000) (r := 1) (D := 1) (by norm_num) (by norm_num) (by norm_num)
  (by norm_num) (by norm_num) (by norm_num) (by norm_num) (by norm_num) (by norm_num) (by norm_num)

/-- C18, limit of validity: the damage function has no gravity argument (9.81 is fixed inside), so
passing another gravity to the wave-height function breaks the inverse for every input on a slope
of 1:4 or gentler. -/
theorem C18_other_gravity_refuted (r D S g : ℝ) (hr' : 0 < r) (hD : 0 < D) (hS : 0 < S)
    (hg : 0 < g) (hg' : g ≠ 9.81) (h4 : 4 ≤ c) : ∃ H S' : ℝ, 0 < H ∧
      (VdM1988.calculate_significant_wave_height_Hs (fin r) (fin T) (fin N) (fin c) (fin P)
        (fin ra) (fin S) (fin D) M (fin cpl) (fin cs) (fin g) (fin rw)).res = .ok (fin H) ∧
      (VdM1988.calculate_damage_number_S (fin H) (fin (r * H)) (fin T) (fin N) (fin c) (fin P)
        (fin ra) (fin D) M (fin cpl) (fin cs) (fin rw)).res = .ok (fin S') ∧ S' ≠ S := by
  have hDe : 0 < (ra - rw) / rw := div_pos (sub_pos.mpr hr) hw
  have hwt : 0 < √N / gam N := div_pos (Real.sqrt_pos.mpr hN) (gam_pos hN)
  have hA := div_pos hS hwt
  have hp := Hsel_pos hr' hT hc hP h1 h2 hg hA hDe hD
  have hq := Hsel_pos hr' hT hc hP h1 h2 (g := 9.81) (by norm_num) hA hDe hD
  refine ⟨_, _, hp, H1988_eval M hr' hT hN hc hP hw hr hS hD h1 h2 hg,
    S1988_eval M hp hr' hT hN hc hP hw hr hD h1 h2, ?_⟩
  have e := dmg_Hsel hr' hT hc hP h1 h2 hDe hwt hS hD
  have hne : Hsel r T c P cpl cs g (S / (√N / gam N)) ((ra - rw) / rw) D ≠
      Hsel r T c P cpl cs 9.81 (S / (√N / gam N)) ((ra - rw) / rw) D := by
    have h4' : (4.0 : ℝ) ≤ c := by norm_num; exact h4
    have hpi := Real.pi_pos
    unfold Hsel Hpl
    rw [if_pos (Or.inr h4'), if_pos (Or.inr h4')]
    generalize (S / (√N / gam N)) = A at *
    generalize (ra - rw) / rw = De at *
    intro h
    apply hg'
    have h := Real.rpow_left_injOn (x := (1.0 : ℝ) / 0.75) (by norm_num)
      (Set.mem_setOf.mpr (by positivity)) (Set.mem_setOf.mpr (by positivity)) h
    have hk : (2 * Real.pi / g * (1.0 / T ^ 2)) ^ (0.25 : ℝ)
        = (2 * Real.pi / 9.81 * (1.0 / T ^ 2)) ^ (0.25 : ℝ) := by
      have hz : 0 < cpl * P ^ (0.18 : ℝ) * A ^ (0.2 : ℝ) * (1.0 / c) ^ (-0.5 : ℝ) := by positivity
      have hy : 0 < De * D * (1 / r) := by positivity
      have : ∀ x : ℝ, cpl * P ^ (0.18 : ℝ) * A ^ (0.2 : ℝ) * (1.0 / c) ^ (-0.5 : ℝ) * x * De * D
          * (1 / r) = (cpl * P ^ (0.18 : ℝ) * A ^ (0.2 : ℝ) * (1.0 / c) ^ (-0.5 : ℝ)) *
            (De * D * (1 / r)) * x := by intro x; ring
      rw [this, this] at h
      exact mul_left_cancel₀ (by positivity) h
    have h := Real.rpow_left_injOn (x := (0.25 : ℝ)) (by norm_num)
      (Set.mem_setOf.mpr (by positivity)) (Set.mem_setOf.mpr (by positivity)) hk
    have h := mul_right_cancel₀ (b := 1.0 / T ^ 2) (by positivity) h
    field_simp at h
    exact h.symm
  intro hS'
  rcases lt_or_gt_of_ne hne with h | h
  · have := dmg_lt_H hr' hT hc hP h1 h2 hDe hwt hp h hD; linarith
  · have := dmg_lt_H hr' hT hc hP h1 h2 hDe hwt hq h hD; linarith

example := C18_other_gravity_refuted (T := 8) (N := 3000) (c := 4) (P := 0.4) (ra := 2650) (rw := 1025)
  (cpl := 6.2) (cs := 1) (M := .fin 5000) (r := 1) (D := 1) (S := 2) (g := 10) (by norm_num) (by norm_num)
  (by norm_num) (by norm_num) (by norm_num) (by norm_num) (by norm_num) (by norm_num) (by norm_num)
  (by norm_num) (by norm_num) (by norm_num) (by norm_num) (by norm_num)

/-- C19: modified formula, size and damage -/
theorem C19_damage_size_inverse (H H2 : ℝ) (hH : 0 < H) (hH2 : 0 < H2) : MutuallyInverse
    (fun S => VdMModified.calculate_nominal_rock_diameter_Dn50 (fin H) (fin H2) (fin T) (fin N)
      (fin c) (fin P) (fin ra) S (fin cpl) (fin cs) (fin rw))
    (fun D => VdMModified.calculate_damage_number_S (fin H) (fin H2) (fin T) (fin N) (fin c) (fin P)
      (fin ra) D M (fin cpl) (fin cs) (fin rw)) := by
  obtain ⟨r, hr', rfl⟩ : ∃ r, 0 < r ∧ H2 = r * H := ⟨H2 / H, by positivity, by field_simp⟩
  have hDe : 0 < (ra - rw) / rw := div_pos (sub_pos.mpr hr) hw
  have hwt : 0 < √N := Real.sqrt_pos.mpr hN
  constructor
  · intro S hS
    have hp := dia_pos hr' hT hc hP h1 h2 hDe hwt hH hS
    refine ⟨_, hp, Dnmod_eval hH hr' hT hN hc hP hw hr hS h1 h2, ?_⟩
    rw [Smod_eval M hH hr' hT hN hc hP hw hr hp h1 h2,
      dmg_dia hr' hT hc hP h1 h2 hDe hwt hH hS]
  · intro D hD
    have hp := dmg_pos hr' hT hc hP h1 h2 hDe hwt hH hD
    refine ⟨_, hp, Smod_eval M hH hr' hT hN hc hP hw hr hD h1 h2, ?_⟩
    rw [Dnmod_eval hH hr' hT hN hc hP hw hr hp h1 h2,
      dia_dmg hr' hT hc hP h1 h2 hDe hwt hH hD]

example := C19_damage_size_inverse (T := 8) (N := 3000) (c := 2) (P := 0.4) (ra := 2650) (rw := 1025)
  (cpl := 6.2) (cs := 1) (M := .fin 5000) (H := 2) (H2 := 2.8) (by norm_num) (by norm_num) (by norm_num)
  (by norm_num) (by norm_num) (by norm_num) (by norm_num) (by norm_num) (by norm_num) (by norm_num)

/-- C19: modified formula, wave height and damage -/
theorem C19_damage_height_inverse (r D : ℝ) (hr' : 0 < r) (hD : 0 < D) : MutuallyInverse
    (fun S => VdMModified.calculate_significant_wave_height_Hs (fin r) (fin T) (fin N) (fin c)
      (fin P) (fin ra) S (fin D) M (fin cpl) (fin cs) (fin 9.81) (fin rw))
    (fun H => VdMModified.calculate_damage_number_S H (fin r * H) (fin T) (fin N) (fin c) (fin P)
      (fin ra) (fin D) M (fin cpl) (fin cs) (fin rw)) := by
  have hDe : 0 < (ra - rw) / rw := div_pos (sub_pos.mpr hr) hw
  have hwt : 0 < √N := Real.sqrt_pos.mpr hN
  constructor
  · intro S hS
    have hp := Hsel_pos hr' hT hc hP h1 h2 (g := 9.81) (by norm_num) (div_pos hS hwt) hDe hD
    refine ⟨_, hp, Hmod_eval M hr' hT hN hc hP hw hr hS hD h1 h2 (by norm_num), ?_⟩
    simp only [mul_fin]
    rw [Smod_eval M hp hr' hT hN hc hP hw hr hD h1 h2,
      dmg_Hsel hr' hT hc hP h1 h2 hDe hwt hS hD]
  · intro H hH
    have hp := dmg_pos hr' hT hc hP h1 h2 hDe hwt hH hD
    simp only [mul_fin]
    refine ⟨_, hp, Smod_eval M hH hr' hT hN hc hP hw hr hD h1 h2, ?_⟩
    rw [Hmod_eval M hr' hT hN hc hP hw hr hp hD h1 h2 (by norm_num),
      Hsel_dmg hr' hT hc hP h1 h2 hDe hwt hH hD]

example := C19_damage_height_inverse (T := 8) (N := 3000) (c := 2) (P := 0.4) (ra := 2650) (rw := 1025)
  (cpl := 6.2) (cs := 1) (M := .fin 5000) (r := 1) (D := 1) (by norm_num) (by norm_num) (by norm_num)
  (by norm_num) (by norm_num) (by norm_num) (by norm_num) (by norm_num) (by norm_num) (by norm_num)

/-- C26, 1988 formula: damage grows with the wave height (constant H2%/Hs), across the regimes -/
theorem C26_1988_wave_height (r D : ℝ) (hr' : 0 < r) (hD : 0 < D) : StrictlyIncreasing
    (fun H => VdM1988.calculate_damage_number_S H (fin r * H) (fin T) (fin N) (fin c) (fin P)
      (fin ra) (fin D) M (fin cpl) (fin cs) (fin rw)) := by
  intro x y hx hxy
  have hDe : 0 < (ra - rw) / rw := div_pos (sub_pos.mpr hr) hw
  have hwt : 0 < √N / gam N := div_pos (Real.sqrt_pos.mpr hN) (gam_pos hN)
  simp only [mul_fin]
  exact ⟨_, _, S1988_eval M hx hr' hT hN hc hP hw hr hD h1 h2,
    S1988_eval M (hx.trans hxy) hr' hT hN hc hP hw hr hD h1 h2,
    dmg_lt_H hr' hT hc hP h1 h2 hDe hwt hx hxy hD⟩

example := C26_1988_wave_height (T := 8) (N := 3000) (c := 2) (P := 0.4) (ra := 2650) (rw := 1025)
  (cpl := 6.2) (cs := 1) (M := .fin 5000) (r := 1) (D := 1) (by norm_num) (by norm_num) (by norm_num)
  (by norm_num) (by norm_num) (by norm_num) (by norm_num) (by norm_num) (by norm_num) (by norm_num)

/-- C26, 1988 formula: damage shrinks with the rock size -/
theorem C26_1988_rock_size (H H2 : ℝ) (hH : 0 < H) (hH2 : 0 < H2) : StrictlyDecreasing
    (fun D => VdM1988.calculate_damage_number_S (fin H) (fin H2) (fin T) (fin N) (fin c) (fin P)
      (fin ra) D M (fin cpl) (fin cs) (fin rw)) := by
  intro x y hx hxy
  obtain ⟨r, hr', rfl⟩ : ∃ r, 0 < r ∧ H2 = r * H := ⟨H2 / H, by positivity, by field_simp⟩
  have hDe : 0 < (ra - rw) / rw := div_pos (sub_pos.mpr hr) hw
  have hwt : 0 < √N / gam N := div_pos (Real.sqrt_pos.mpr hN) (gam_pos hN)
  exact ⟨_, _, S1988_eval M hH hr' hT hN hc hP hw hr hx h1 h2,
    S1988_eval M hH hr' hT hN hc hP hw hr (hx.trans hxy) h1 h2,
    dmg_lt_D hr' hT hc hP h1 h2 hDe hwt hH hx hxy⟩

example := C26_1988_rock_size (T := 8) (N := 3000) (c := 2) (P := 0.4) (ra := 2650) (rw := 1025)
  (cpl := 6.2) (cs := 1) (M := .fin 5000) (H := 2) (H2 := 2.8) (by norm_num) (by norm_num) (by norm_num)
  (by norm_num) (by norm_num) (by norm_num) (by norm_num) (by norm_num) (by norm_num) (by norm_num)

/-- C26, modified formula: damage grows with the wave height -/
theorem C26_modified_wave_height (r D : ℝ) (hr' : 0 < r) (hD : 0 < D) : StrictlyIncreasing
    (fun H => VdMModified.calculate_damage_number_S H (fin r * H) (fin T) (fin N) (fin c) (fin P)
      (fin ra) (fin D) M (fin cpl) (fin cs) (fin rw)) := by
  intro x y hx hxy
  have hDe : 0 < (ra - rw) / rw := div_pos (sub_pos.mpr hr) hw
  have hwt : 0 < √N := Real.sqrt_pos.mpr hN
  simp only [mul_fin]
  exact ⟨_, _, Smod_eval M hx hr' hT hN hc hP hw hr hD h1 h2,
    Smod_eval M (hx.trans hxy) hr' hT hN hc hP hw hr hD h1 h2,
    dmg_lt_H hr' hT hc hP h1 h2 hDe hwt hx hxy hD⟩

example := C26_modified_wave_height (T := 8) (N := 3000) (c := 2) (P := 0.4) (ra := 2650) (rw := 1025)
  (cpl := 6.2) (cs := 1) (M := .fin 5000) (r := 1) (D := 1) (by norm_num) (by norm_num) (by norm_num)
  (by norm_num) (by norm_num) (by norm_num) (by norm_num) (by norm_num) (by norm_num) (by norm_num)

/-- C26, modified formula: damage shrinks with the rock size -/
theorem C26_modified_rock_size (H H2 : ℝ) (hH : 0 < H) (hH2 : 0 < H2) : StrictlyDecreasing
    (fun D => VdMModified.calculate_damage_number_S (fin H) (fin H2) (fin T) (fin N) (fin c) (fin P)
      (fin ra) D M (fin cpl) (fin cs) (fin rw)) := by
  intro x y hx hxy
  obtain ⟨r, hr', rfl⟩ : ∃ r, 0 < r ∧ H2 = r * H := ⟨H2 / H, by positivity, by field_simp⟩
  have hDe : 0 < (ra - rw) / rw := div_pos (sub_pos.mpr hr) hw
  have hwt : 0 < √N := Real.sqrt_pos.mpr hN
  exact ⟨_, _, Smod_eval M hH hr' hT hN hc hP hw hr hx h1 h2,
    Smod_eval M hH hr' hT hN hc hP hw hr (hx.trans hxy) h1 h2,
    dmg_lt_D hr' hT hc hP h1 h2 hDe hwt hH hx hxy⟩

end

/-- the hypotheses of C17–C19 and C26 are satisfiable -/
example : ∃ T N c P ra rw cpl cs H H2 r D S g : ℝ, 0 < T ∧ 0 < N ∧ 0 < c ∧ 0 < P ∧ 0 < rw ∧
    rw < ra ∧ 0 < cpl ∧ 0 < cs ∧ 0 < H ∧ 0 < H2 ∧ 0 < r ∧ 0 < D ∧ 0 < S ∧ 0 < g ∧ g ≠ 9.81 ∧
    4 ≤ c :=
  ⟨6, 3000, 4, 0.4, 2650, 1025, 8.7, 1.4, 2, 2.8, 1.4, 1, 2, 9.8, by norm_num⟩

/-! ## number of waves -/

namespace VdMProof

theorem exp_155 : Real.exp (-1.55) < 0.23 := by
  have e : Real.exp 1.55 = Real.exp 1 * Real.exp 0.55 := by rw [← Real.exp_add]; norm_num
  have a := Real.exp_one_gt_d9
  have b := Real.quadratic_le_exp_of_nonneg (x := 0.55) (by norm_num)
  have : (4.5 : ℝ) < Real.exp 1.55 := by
    rw [e]
    have : (2.7 : ℝ) * 1.7 < Real.exp 1 * Real.exp 0.55 := by
      apply mul_lt_mul' <;> [linarith; norm_num at b ⊢; norm_num; positivity]
      linarith
    linarith
  have e2 : Real.exp (-1.55) = (Real.exp 1.55)⁻¹ := by rw [← Real.exp_neg]
  rw [e2, inv_lt_comm₀ (Real.exp_pos _) (by norm_num)]
  norm_num at this ⊢
  linarith

/-- weight of the number of waves -/
theorem weight_eq {N : ℝ} (h : 0 < N) : √N / gam N =
    if N > 5000 then √5000 * (1.3 * (1 - Real.exp (-0.00031 * N)))
    else if N < 1000 then N / √1000 else √N := by
  have := one_sub_exp_pos h
  have hs : 0 < √N := Real.sqrt_pos.mpr h
  unfold gam
  split_ifs
  · field_simp
  · rw [Real.sqrt_div' _ h.le]
    field_simp
    rw [Real.sq_sqrt h.le]
  · norm_num

theorem weight_lt {N N' : ℝ} (h : 0 < N) (hh : N < N') : √N / gam N < √N' / gam N' := by
  rw [weight_eq h, weight_eq (h.trans hh)]
  have mid : ∀ x, 0 < x → x < 1000 → x / √1000 < √1000 := by
    intro x hx hx'
    rw [div_lt_iff₀ (by positivity), Real.mul_self_sqrt (by norm_num)]; exact hx'
  have top : ∀ x, 5000 < x → √5000 < √5000 * (1.3 * (1 - Real.exp (-0.00031 * x))) := by
    intro x hx
    have : Real.exp (-0.00031 * x) < 0.23 := by
      refine lt_trans ?_ exp_155
      rw [Real.exp_lt_exp]; linarith
    have h5 : 0 < √5000 := by positivity
    rw [lt_mul_iff_one_lt_right h5]
    linarith
  split_ifs with a b b c d d e f f
  · have : Real.exp (-0.00031 * N') < Real.exp (-0.00031 * N) := by
      rw [Real.exp_lt_exp]; linarith
    gcongr
  all_goals try (exfalso; linarith)
  · have h3 := mid N h ‹_›
    have h4 : √(1000 : ℝ) ≤ √5000 := Real.sqrt_le_sqrt (by norm_num)
    have h5 := top N' ‹_›
    linarith
  · gcongr
  · have h3 := mid N h ‹_›
    have h4 : √(1000 : ℝ) ≤ √N' := Real.sqrt_le_sqrt (by linarith)
    linarith
  · have h5 := top N' ‹_›
    have h4 : √N ≤ √5000 := Real.sqrt_le_sqrt (by linarith)
    linarith
  · exact Real.sqrt_lt_sqrt h.le hh

end VdMProof

section
variable (T c P ra rw cpl cs H H2 D : ℝ) (M : PF) (hT : 0 < T) (hc : 0 < c) (hP : 0 < P)
  (hw : 0 < rw) (hr : rw < ra) (h1 : 0 < cpl) (h2 : 0 < cs) (hH : 0 < H) (hH2 : 0 < H2)
  (hD : 0 < D)
include hT hc hP hw hr h1 h2 hH hH2 hD

/-- C26, 1988 formula: damage grows with the number of waves over the whole range, although the
correction is defined in three pieces -/
theorem C26_1988_number_of_waves : StrictlyIncreasing
    (fun N => VdM1988.calculate_damage_number_S (fin H) (fin H2) (fin T) N (fin c) (fin P)
      (fin ra) (fin D) M (fin cpl) (fin cs) (fin rw)) := by
  intro x y hx hxy
  obtain ⟨r, hr', rfl⟩ : ∃ r, 0 < r ∧ H2 = r * H := ⟨H2 / H, by positivity, by field_simp⟩
  have hDe : 0 < (ra - rw) / rw := div_pos (sub_pos.mpr hr) hw
  have hk := kf_pos h1 h2 hP hc (xi_pos hH hT hc)
  refine ⟨_, _, S1988_eval M hH hr' hT hx hc hP hw hr hD h1 h2,
    S1988_eval M hH hr' hT (hx.trans hxy) hc hP hw hr hD h1 h2, ?_⟩
  have := weight_lt hx hxy
  unfold dmg
  gcongr

example := C26_1988_number_of_waves (T := 8) (c := 2) (P := 0.4) (ra := 2650) (rw := 1025) (cpl := 6.2)
  (cs := 1) (H := 2) (H2 := 2.8) (D := 1) (M := .fin 5000) (by norm_num) (by norm_num) (by norm_num)
  (by norm_num) (by norm_num) (by norm_num) (by norm_num) (by norm_num) (by norm_num) (by norm_num)

theorem C26_modified_number_of_waves : StrictlyIncreasing
    (fun N => VdMModified.calculate_damage_number_S (fin H) (fin H2) (fin T) N (fin c) (fin P)
      (fin ra) (fin D) M (fin cpl) (fin cs) (fin rw)) := by
  intro x y hx hxy
  obtain ⟨r, hr', rfl⟩ : ∃ r, 0 < r ∧ H2 = r * H := ⟨H2 / H, by positivity, by field_simp⟩
  have hDe : 0 < (ra - rw) / rw := div_pos (sub_pos.mpr hr) hw
  have hk := kf_pos h1 h2 hP hc (xi_pos hH hT hc)
  refine ⟨_, _, Smod_eval M hH hr' hT hx hc hP hw hr hD h1 h2,
    Smod_eval M hH hr' hT (hx.trans hxy) hc hP hw hr hD h1 h2, ?_⟩
  unfold dmg
  gcongr

example := C26_modified_number_of_waves (T := 8) (c := 2) (P := 0.4) (ra := 2650) (rw := 1025) (cpl := 6.2)
  (cs := 1) (H := 2) (H2 := 2.8) (D := 1) (M := .fin 5000) (by norm_num) (by norm_num) (by norm_num)
  (by norm_num) (by norm_num) (by norm_num) (by norm_num) (by norm_num) (by norm_num) (by norm_num)

end

/-! ## 2021 formula -/

section
variable (T N c P ra cpl cs ml ms : ℝ) (M : PF) (hT : 0 < T) (hN : 0 < N) (hc : 0 < c) (hP : 0 < P)
  (hr : 1025 < ra) (h1 : 0 < cpl) (h2 : 0 < cs) (h3 : 0 < ml) (h4 : 0 < ms)
include hT hN hc hP hr h1 h2 h3 h4

omit hN h1 h2 h3 h4 hT hc hP hr in
theorem VdMProof.rho_def : (1025.0 : PF) = fin 1025 := by rw [sci_eq]; norm_num

theorem VdMProof.S2021_eval {H D : ℝ} (hH : 0 < H) (hD : 0 < D) :
    (VdM2021.calculate_damage_number_S (fin H) (fin T) (fin N) (fin c) (fin P)
      (fin ra) (fin D) M (fin cpl) (fin cs) (fin ml) (fin ms)).res =
      .ok (fin (dmg 1 H T c P (cpl * ml) (cs * ms) ((ra - 1025) / 1025) D (√N))) := by
  unfold VdM2021.calculate_damage_number_S
  simp only [mul_fin, rho_def]
  have e := Smod_eval M hH one_pos hT hN hc hP (by norm_num : (0 : ℝ) < 1025) hr hD
    (mul_pos h1 h3) (mul_pos h2 h4)
  rw [one_mul] at e
  rw [PyM.bind_res_of_ok e, PyM.bind_res_of_ok (check_res ..)]; rfl

theorem VdMProof.D2021_eval {H S : ℝ} (hH : 0 < H) (hS : 0 < S) :
    (VdM2021.calculate_nominal_rock_diameter_Dn50 (fin H) (fin T) (fin N) (fin c) (fin P)
      (fin ra) (fin S) (fin cpl) (fin cs) (fin ml) (fin ms)).res =
      .ok (fin (dia 1 H T c P (cpl * ml) (cs * ms) ((ra - 1025) / 1025) S (√N))) := by
  unfold VdM2021.calculate_nominal_rock_diameter_Dn50
  simp only [mul_fin, rho_def]
  have e := Dnmod_eval hH one_pos hT hN hc hP (by norm_num : (0 : ℝ) < 1025) hr hS
    (mul_pos h1 h3) (mul_pos h2 h4)
  rw [one_mul] at e
  rw [PyM.bind_res_of_ok e, PyM.bind_res_of_ok (check_res ..)]; rfl

theorem VdMProof.H2021_eval {S D g : ℝ} (hS : 0 < S) (hD : 0 < D) (hg : 0 < g) :
    (VdM2021.calculate_significant_wave_height_Hs (fin T) (fin N) (fin c) (fin P)
      (fin ra) (fin S) (fin D) M (fin cpl) (fin cs) (fin ml) (fin ms) (fin g)).res =
      .ok (fin (Hsel 1 T c P (cpl * ml) (cs * ms) g (S / √N) ((ra - 1025) / 1025) D)) := by
  unfold VdM2021.calculate_significant_wave_height_Hs
  have o : (1.0 : PF) = fin 1 := by rw [sci_eq]; norm_num
  simp only [mul_fin, rho_def, o]
  have e := Hmod_eval M one_pos hT hN hc hP (by norm_num : (0 : ℝ) < 1025) hr hS hD
    (mul_pos h1 h3) (mul_pos h2 h4) hg
  rw [PyM.bind_res_of_ok e, PyM.bind_res_of_ok (check_res ..)]; rfl

/-- C20: 2021 formula, size and damage -/
theorem C20_damage_size_inverse (H : ℝ) (hH : 0 < H) : MutuallyInverse
    (fun S => VdM2021.calculate_nominal_rock_diameter_Dn50 (fin H) (fin T) (fin N)
      (fin c) (fin P) (fin ra) S (fin cpl) (fin cs) (fin ml) (fin ms))
    (fun D => VdM2021.calculate_damage_number_S (fin H) (fin T) (fin N) (fin c) (fin P)
      (fin ra) D M (fin cpl) (fin cs) (fin ml) (fin ms)) := by
  have hDe : 0 < (ra - 1025) / 1025 := div_pos (sub_pos.mpr hr) (by norm_num)
  have hwt : 0 < √N := Real.sqrt_pos.mpr hN
  have p1 := mul_pos h1 h3
  have p2 := mul_pos h2 h4
  constructor
  · intro S hS
    have hp := dia_pos one_pos hT hc hP p1 p2 hDe hwt hH hS
    refine ⟨_, hp, D2021_eval T N c P ra cpl cs ml ms hT hN hc hP hr h1 h2 h3 h4 hH hS, ?_⟩
    rw [S2021_eval T N c P ra cpl cs ml ms M hT hN hc hP hr h1 h2 h3 h4 hH hp,
      dmg_dia one_pos hT hc hP p1 p2 hDe hwt hH hS]
  · intro D hD
    have hp := dmg_pos one_pos hT hc hP p1 p2 hDe hwt hH hD
    refine ⟨_, hp, S2021_eval T N c P ra cpl cs ml ms M hT hN hc hP hr h1 h2 h3 h4 hH hD, ?_⟩
    rw [D2021_eval T N c P ra cpl cs ml ms hT hN hc hP hr h1 h2 h3 h4 hH hp,
      dia_dmg one_pos hT hc hP p1 p2 hDe hwt hH hD]

example := C20_damage_size_inverse (T := 8) (N := 3000) (c := 2) (P := 0.4) (ra := 2650) (cpl := 6.2)
  (cs := 1) (ml := 8.5) (ms := 1) (M := .fin 5000) (H := 2) (by norm_num) (by norm_num) (by norm_num)
  (by norm_num) (by norm_num) (by norm_num) (by norm_num) (by norm_num) (by norm_num) (by norm_num)

/-- C20: 2021 formula, wave height and damage -/
theorem C20_damage_height_inverse (D : ℝ) (hD : 0 < D) : MutuallyInverse
    (fun S => VdM2021.calculate_significant_wave_height_Hs (fin T) (fin N) (fin c)
      (fin P) (fin ra) S (fin D) M (fin cpl) (fin cs) (fin ml) (fin ms) (fin 9.81))
    (fun H => VdM2021.calculate_damage_number_S H (fin T) (fin N) (fin c) (fin P)
      (fin ra) (fin D) M (fin cpl) (fin cs) (fin ml) (fin ms)) := by
  have hDe : 0 < (ra - 1025) / 1025 := div_pos (sub_pos.mpr hr) (by norm_num)
  have hwt : 0 < √N := Real.sqrt_pos.mpr hN
  have p1 := mul_pos h1 h3
  have p2 := mul_pos h2 h4
  constructor
  · intro S hS
    have hp := Hsel_pos one_pos hT hc hP p1 p2 (g := 9.81) (by norm_num) (div_pos hS hwt) hDe hD
    refine ⟨_, hp, H2021_eval T N c P ra cpl cs ml ms M hT hN hc hP hr h1 h2 h3 h4 hS hD
      (by norm_num), ?_⟩
    rw [S2021_eval T N c P ra cpl cs ml ms M hT hN hc hP hr h1 h2 h3 h4 hp hD,
      dmg_Hsel one_pos hT hc hP p1 p2 hDe hwt hS hD]
  · intro H hH
    have hp := dmg_pos one_pos hT hc hP p1 p2 hDe hwt hH hD
    refine ⟨_, hp, S2021_eval T N c P ra cpl cs ml ms M hT hN hc hP hr h1 h2 h3 h4 hH hD, ?_⟩
    rw [H2021_eval T N c P ra cpl cs ml ms M hT hN hc hP hr h1 h2 h3 h4 hp hD (by norm_num),
      Hsel_dmg one_pos hT hc hP p1 p2 hDe hwt hH hD]

example := C20_damage_height_inverse (T := 8) (N := 3000) (c := 2) (P := 0.4) (ra := 2650) (cpl := 6.2)
  (cs := 1) (ml := 8.5) (ms := 1) (M := .fin 5000) (D := 1) (by norm_num) (by norm_num) (by norm_num)
  (by norm_num) (by norm_num) (by norm_num) (by norm_num) (by norm_num) (by norm_num) (by norm_num)

/-- C20: the 2021 formula is the modified formula for a constant ratio `r` = H2%/Hs absorbed into
the coefficients: same damage. -/
theorem C20_agrees_with_modified (r H D : ℝ) (hr' : 0 < r) (hH : 0 < H) (hD : 0 < D) :
    ∃ S : ℝ, (VdM2021.calculate_damage_number_S (fin H) (fin T) (fin N) (fin c) (fin P)
        (fin ra) (fin D) M (fin (cpl / r)) (fin (cs / r)) (fin ml) (fin ms)).res = .ok (fin S) ∧
      (VdMModified.calculate_damage_number_S (fin H) (fin (r * H)) (fin T) (fin N) (fin c) (fin P)
        (fin ra) (fin D) M (fin (cpl * ml)) (fin (cs * ms)) (fin 1025)).res = .ok (fin S) := by
  refine ⟨_, S2021_eval T N c P ra _ _ ml ms M hT hN hc hP hr (by positivity) (by positivity) h3 h4
    hH hD, ?_⟩
  rw [Smod_eval M hH hr' hT hN hc hP (by norm_num) hr hD (by positivity) (by positivity),
    Except.ok.injEq, fin_inj]
  unfold dmg
  have hx : xmc (cpl / r * ml) (cs / r * ms) P c = xmc (cpl * ml) (cs * ms) P c := by
    unfold xmc
    have : cpl / r * ml / (cs / r * ms) = cpl * ml / (cs * ms) := by field_simp
    rw [this]
  unfold kf
  rw [hx]
  split_ifs
  · unfold kpl; field_simp
  · unfold ksu; field_simp

example := C20_agrees_with_modified (T := 8) (N := 3000) (c := 2) (P := 0.4) (ra := 2650) (cpl := 6.2)
  (cs := 1) (ml := 8.5) (ms := 1) (M := .fin 5000) (r := 1) (H := 2) (D := 1) (by norm_num) (by norm_num)
  (by norm_num) (by norm_num) (by norm_num) (by norm_num) (by norm_num) (by norm_num) (by norm_num)
  (by norm_num) (by norm_num) (by norm_num)

end

/-- the published default coefficients 6.49/0.97 and 8.4/1.3 correspond to H2%/Hs ≈ 1.3 and 1.34:
not one common ratio, so the two published formulas are different predictions -/
theorem C20_defaults_differ : ¬ ∃ r : ℝ, 8.4 / r = 6.49 ∧ 1.3 / r = 0.97 := by
  rintro ⟨r, h1, h2⟩
  have h : r ≠ 0 := by rintro rfl; norm_num at h1
  field_simp at h1 h2
  norm_num at h1 h2
  linarith

/-- the hypotheses of C20 are satisfiable with the default coefficients -/
example : ∃ T N c P ra cpl cs ml ms r : ℝ, 0 < T ∧ 0 < N ∧ 0 < c ∧ 0 < P ∧ 1025 < ra ∧
    0 < cpl ∧ 0 < cs ∧ 0 < ml ∧ 0 < ms ∧ 0 < r :=
  ⟨6, 3000, 4, 0.4, 2650, 6.49, 0.97, 1, 1, 1.3, by norm_num⟩

end
