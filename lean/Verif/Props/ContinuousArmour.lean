import Verif.Lemmas.Continuity
import Verif.Props.FormulasArmour

/-! # C95: rock armour, small changes of the inputs -/

open Classical
open PF VdMProof ContProof
noncomputable section

namespace ContProof
variable {X : Type} [TopologicalSpace X] {x : X}

theorem xi_cont {H T c : X → ℝ} (kH : ContinuousAt H x) (kT : ContinuousAt T x) (kc : ContinuousAt c x)
    (hH : 0 < H x) (hT : 0 < T x) (hc : 0 < c x) : ContinuousAt (fun x => xi (H x) (T x) (c x)) x := by
  have := Real.pi_pos
  unfold xi
  cont

theorem kpl_cont {a P y : X → ℝ} (ka : ContinuousAt a x) (kP : ContinuousAt P x) (ky : ContinuousAt y x)
    (ha : 0 < a x) (hP : 0 < P x) (hy : 0 < y x) : ContinuousAt (fun x => kpl (a x) (P x) (y x)) x := by
  unfold kpl
  cont

theorem ksu_cont {a P c y : X → ℝ} (ka : ContinuousAt a x) (kP : ContinuousAt P x) (kc : ContinuousAt c x)
    (ky : ContinuousAt y x) (ha : 0 < a x) (hP : 0 < P x) (hc : 0 < c x) (hy : 0 < y x) :
    ContinuousAt (fun x => ksu (a x) (P x) (c x) (y x)) x := by
  unfold ksu
  cont

theorem kf_cont {a b P c y : X → ℝ} (ka : ContinuousAt a x) (kb : ContinuousAt b x) (kP : ContinuousAt P x)
    (kc : ContinuousAt c x) (ky : ContinuousAt y x) (ha : ∀ x, 0 < a x) (hb : ∀ x, 0 < b x) (hP : ∀ x, 0 < P x)
    (hc : ∀ x, 0 < c x) (hy : ∀ x, 0 < y x) (h4 : SameSlopes c) :
    ContinuousAt (fun x => kf (a x) (b x) (P x) (c x) (y x)) x := by
  have e : ∀ x, kf (a x) (b x) (P x) (c x) (y x) = _ := fun x => kf_min (ha x) (hb x) (hP x) (hc x) (hy x)
  simp only [e]
  have k1 := kpl_cont ka kP ky (ha x) (hP x) (hy x)
  rcases h4 with h | h
  · have : ∀ x, ¬ (4.0 ≤ c x) := fun x => by have := h x; norm_num; linarith
    simp only [this, if_false]
    exact k1.min (ksu_cont kb kP kc ky (hb x) (hP x) (hc x) (hy x))
  · have : ∀ x, 4.0 ≤ c x := fun x => by have := h x; norm_num; linarith
    simpa only [this, if_true] using k1

theorem gam_cont {N : X → ℝ} (kN : ContinuousAt N x) (hN : ∀ x, 0 < N x) (h5 : SameDuration N) :
    ContinuousAt (fun x => gam (N x)) x := by
  have hNx := hN x
  unfold gam
  rcases h5 with h | h
  · have e : ∀ x, (if N x > 5000 then √(N x) / (√5000 * (1.3 * (1 - Real.exp (-0.00031 * N x)))) else
        if N x < 1000 then √(1000 / N x) else 1.0) = max 1 √(1000 / N x) := by
      intro x
      have hx := hN x
      rw [if_neg (not_lt.mpr (h x))]
      split_ifs with h1
      · rw [max_eq_right]
        rw [Real.one_le_sqrt, one_le_div hx]
        exact h1.le
      · rw [max_eq_left, one_sci]
        rw [Real.sqrt_le_one, div_le_one hx]
        exact not_lt.mp h1
    simp only [e]
    cont
  · have e : ∀ x, N x > 5000 := h
    simp only [e, if_true]
    have := one_sub_exp_pos hNx
    cont

theorem Hsel_max {r T c P cpl cs A De D : ℝ} (hr : 0 < r) (hT : 0 < T) (hc : 0 < c) (hP : 0 < P)
    (h1 : 0 < cpl) (h2 : 0 < cs) (hA : 0 < A) (hDe : 0 < De) (hD : 0 < D) (h4 : c < 4) :
    Hsel r T c P cpl cs 9.81 A De D = max (Hpl r T c P cpl 9.81 A De D) (Hsu r T c P cs 9.81 A De D) := by
  have a := Hpl_spec hr hT hc hP h1 hA hDe hD
  have b := Hsu_spec hr hT hc hP h2 hA hDe hD
  have s := Hsel_spec hr hT hc hP h1 h2 hA hDe hD
  have pa := Hpl_pos hr hT hc hP h1 (g := 9.81) (by norm_num) hA hDe hD
  have pb := Hsu_pos hr hT hc hP h2 (g := 9.81) (by norm_num) hA hDe hD
  have ps := Hsel_pos hr hT hc hP h1 h2 (g := 9.81) (by norm_num) hA hDe hD
  rw [kf_min h1 h2 hP hc (xi_pos ps hT hc), if_neg (by norm_num; linarith), mul_min_of_nonneg _ _ ps.le] at s
  have hor : Hsel r T c P cpl cs 9.81 A De D = Hpl r T c P cpl 9.81 A De D ∨
      Hsel r T c P cpl cs 9.81 A De D = Hsu r T c P cs 9.81 A De D := by
    unfold Hsel; split_ifs <;> simp
  generalize Hsel r T c P cpl cs 9.81 A De D = Z at *
  generalize Hpl r T c P cpl 9.81 A De D = X at *
  generalize Hsu r T c P cs 9.81 A De D = Y at *
  apply le_antisymm
  · rcases hor with rfl | rfl
    · exact le_max_left _ _
    · exact le_max_right _ _
  · apply max_le
    · by_contra h
      have := Hkpl_lt ps (not_le.mp h) hT hc hP h1
      have := min_le_left (Z * kpl cpl P (xi Z T c)) (Z * ksu cs P c (xi Z T c))
      linarith
    · by_contra h
      have := Hksu_lt ps (not_le.mp h) hT hc hP h2
      have := min_le_right (Z * kpl cpl P (xi Z T c)) (Z * ksu cs P c (xi Z T c))
      linarith

theorem dmg_cont {r H T c P cpl cs De D w : X → ℝ} (kr : PositiveInput r) (kH : PositiveInput H)
    (kT : PositiveInput T) (kc : PositiveInput c) (kP : PositiveInput P) (k1 : PositiveInput cpl)
    (k2 : PositiveInput cs) (kDe : PositiveInput De) (kD : PositiveInput D) (kw : PositiveInput w) (h4 : SameSlopes c) :
    ContinuousAt (fun x => dmg (r x) (H x) (T x) (c x) (P x) (cpl x) (cs x) (De x) (D x) (w x)) x := by
  have hx := xi_cont (x := x) kH.1.continuousAt kT.1.continuousAt kc.1.continuousAt (kH.2 x) (kT.2 x) (kc.2 x)
  have := kf_cont k1.1.continuousAt k2.1.continuousAt kP.1.continuousAt kc.1.continuousAt hx k1.2 k2.2 kP.2 kc.2
    (fun x => xi_pos (kH.2 x) (kT.2 x) (kc.2 x)) h4
  have a1 := kr.1; have a2 := kH.1; have a3 := kDe.1; have a4 := kD.1; have a5 := kw.1
  have b3 := kDe.2 x; have b4 := kD.2 x
  unfold dmg
  cont

theorem dia_cont {r H T c P cpl cs De S w : X → ℝ} (kr : PositiveInput r) (kH : PositiveInput H)
    (kT : PositiveInput T) (kc : PositiveInput c) (kP : PositiveInput P) (k1 : PositiveInput cpl)
    (k2 : PositiveInput cs) (kDe : PositiveInput De) (kS : PositiveInput S) (kw : PositiveInput w) (h4 : SameSlopes c) :
    ContinuousAt (fun x => dia (r x) (H x) (T x) (c x) (P x) (cpl x) (cs x) (De x) (S x) (w x)) x := by
  have hx := xi_cont (x := x) kH.1.continuousAt kT.1.continuousAt kc.1.continuousAt (kH.2 x) (kT.2 x) (kc.2 x)
  have := kf_cont k1.1.continuousAt k2.1.continuousAt kP.1.continuousAt kc.1.continuousAt hx k1.2 k2.2 kP.2 kc.2
    (fun x => xi_pos (kH.2 x) (kT.2 x) (kc.2 x)) h4
  have a1 := kr.1; have a2 := kH.1; have a3 := kDe.1; have a4 := kS.1; have a5 := kw.1
  have b3 := kDe.2 x; have b4 := kS.2 x; have b5 := kw.2 x
  unfold dia
  cont

theorem Hsel_cont {r T c P cpl cs A De D : X → ℝ} (kr : PositiveInput r)
    (kT : PositiveInput T) (kc : PositiveInput c) (kP : PositiveInput P) (k1 : PositiveInput cpl)
    (k2 : PositiveInput cs) (kA : PositiveInput A) (kDe : PositiveInput De) (kD : PositiveInput D) (h4 : SameSlopes c) :
    ContinuousAt (fun x => Hsel (r x) (T x) (c x) (P x) (cpl x) (cs x) 9.81 (A x) (De x) (D x)) x := by
  have hpi := Real.pi_pos
  have a1 := kr.1; have a2 := kT.1; have a3 := kc.1; have a4 := kP.1; have a5 := k1.1; have a6 := k2.1
  have a7 := kA.1; have a8 := kDe.1; have a9 := kD.1
  have b1 := kr.2 x; have b2 := kT.2 x; have b3 := kc.2 x; have b4 := kP.2 x; have b5 := k1.2 x; have b6 := k2.2 x
  have b7 := kA.2 x; have b8 := kDe.2 x; have b9 := kD.2 x
  have cp : ContinuousAt (fun x => Hpl (r x) (T x) (c x) (P x) (cpl x) 9.81 (A x) (De x) (D x)) x := by
    unfold Hpl
    cont
  have cs : ContinuousAt (fun x => Hsu (r x) (T x) (c x) (P x) (cs x) 9.81 (A x) (De x) (D x)) x := by
    unfold Hsu
    cont
  rcases h4 with h | h
  · have e : ∀ x, Hsel (r x) (T x) (c x) (P x) (cpl x) (_) 9.81 (A x) (De x) (D x) = _ := fun x =>
      Hsel_max (kr.2 x) (kT.2 x) (kc.2 x) (kP.2 x) (k1.2 x) (k2.2 x) (kA.2 x) (kDe.2 x) (kD.2 x) (h x)
    simp only [e]
    exact cp.max cs
  · have : ∀ x, 4.0 ≤ c x := fun x => by have := h x; norm_num; linarith
    unfold Hsel
    simpa only [this, or_true, if_true] using cp

theorem weight_input {N : X → ℝ} (kN : PositiveInput N) (h5 : SameDuration N) :
    PositiveInput fun x => √(N x) / gam (N x) :=
  PositiveInput.div' (PositiveInput.sqrt' kN)
    ⟨continuous_iff_continuousAt.mpr fun _ => gam_cont kN.1.continuousAt kN.2 h5, fun x => gam_pos (kN.2 x)⟩

end ContProof

/-- for the examples: slopes steeper than 1:4 -/
abbrev ContProof.Slope := {c : ℝ // 0 < c ∧ c < 4}
theorem ContProof.id4 : PositiveInput fun x : Slope => (x : ℝ) := ⟨continuous_subtype_val, fun x => x.2.1⟩

section
variable {X : Type} [TopologicalSpace X] {H H2 r T N c P ra rw S D cpl cs ml ms : X → ℝ} (M : X → PF)
  (kT : PositiveInput T) (kN : PositiveInput N) (kc : PositiveInput c) (kP : PositiveInput P) (ka : Continuous ra)
  (kw : PositiveInput rw) (hr : ∀ x, rw x < ra x) (k1 : PositiveInput cpl) (k2 : PositiveInput cs)
  (h4 : SameSlopes c) (h5 : SameDuration N)
include kT kN kc kP ka kw hr k1 k2 h4

section
include h5

/-- C95: damage by Van der Meer (1988), away from 1:4 slopes and from 5000 waves -/
theorem C95_vdm1988_damage_partial (kH : PositiveInput H) (kH2 : PositiveInput H2) (kD : PositiveInput D) :
    VariesContinuously fun x => VdM1988.calculate_damage_number_S (fin (H x)) (fin (H2 x)) (fin (T x)) (fin (N x))
      (fin (c x)) (fin (P x)) (fin (ra x)) (fin (D x)) (M x) (fin (cpl x)) (fin (cs x)) (fin (rw x)) := by
  have kq := PositiveInput.div' kH2 kH
  refine of _ (fun x => ?_) fun x => dmg_cont kq kH kT kc kP k1 k2 (Delta_input ka kw hr) kD (weight_input kN h5) h4
  have := S1988_eval (M x) (kH.2 x) (kq.2 x) (kT.2 x) (kN.2 x) (kc.2 x) (kP.2 x) (kw.2 x) (hr x) (kD.2 x) (k1.2 x)
    (k2.2 x)
  rwa [div_mul_cancel₀ _ (kH.2 x).ne'] at this

example := C95_vdm1988_damage_partial (fun _ => nan) (const_input (a := 8) (by norm_num)) (const_input (a := 3000)
  (by norm_num)) id4 (const_input (a := 0.4) (by norm_num)) continuous_const (const_input (a := 1025) (by norm_num))
  (fun _ => by norm_num : ∀ _ : Slope, (1025 : ℝ) < 2650) (const_input (a := 6.2) (by norm_num)) (const_input (a :=
  1) (by norm_num)) (Or.inl fun x => x.2.2) (Or.inl fun _ => by norm_num) (const_input (a := 2) (by norm_num))
  (const_input (a := 2.8) (by norm_num)) (const_input (a := 1) (by norm_num))

/-- C95: rock size by Van der Meer (1988) -/
theorem C95_vdm1988_size_partial (kH : PositiveInput H) (kH2 : PositiveInput H2) (kS : PositiveInput S) :
    VariesContinuously fun x => VdM1988.calculate_nominal_rock_diameter_Dn50 (fin (H x)) (fin (H2 x)) (fin (T x))
      (fin (N x)) (fin (c x)) (fin (P x)) (fin (ra x)) (fin (S x)) (fin (cpl x)) (fin (cs x)) (fin (rw x)) := by
  have kq := PositiveInput.div' kH2 kH
  refine of _ (fun x => ?_) fun x => dia_cont kq kH kT kc kP k1 k2 (Delta_input ka kw hr) kS (weight_input kN h5) h4
  have := Dn1988_eval (kH.2 x) (kq.2 x) (kT.2 x) (kN.2 x) (kc.2 x) (kP.2 x) (kw.2 x) (hr x) (kS.2 x) (k1.2 x)
    (k2.2 x)
  rwa [div_mul_cancel₀ _ (kH.2 x).ne'] at this

example := C95_vdm1988_size_partial (const_input (a := 8) (by norm_num)) (const_input (a := 3000) (by norm_num)) id4
  (const_input (a := 0.4) (by norm_num)) continuous_const (const_input (a := 1025) (by norm_num)) (fun _ => by
  norm_num : ∀ _ : Slope, (1025 : ℝ) < 2650) (const_input (a := 6.2) (by norm_num)) (const_input (a := 1) (by
  norm_num)) (Or.inl fun x => x.2.2) (Or.inl fun _ => by norm_num) (const_input (a := 2) (by norm_num)) (const_input
  (a := 2.8) (by norm_num)) (const_input (a := 2) (by norm_num))

/-- C95: wave height by Van der Meer (1988), with the acceleration of gravity at its default -/
theorem C95_vdm1988_height_partial (kq : PositiveInput r) (kS : PositiveInput S) (kD : PositiveInput D) :
    VariesContinuously fun x => VdM1988.calculate_significant_wave_height_Hs (fin (r x)) (fin (T x)) (fin (N x))
      (fin (c x)) (fin (P x)) (fin (ra x)) (fin (S x)) (fin (D x)) (M x) (fin (cpl x)) (fin (cs x))
      (rho_water := fin (rw x)) := by
  refine of _ (fun x => ?_) fun x => Hsel_cont kq kT kc kP k1 k2 (PositiveInput.div' kS (weight_input kN h5))
    (Delta_input ka kw hr) kD h4
  have := H1988_eval (g := 9.81) (M x) (kq.2 x) (kT.2 x) (kN.2 x) (kc.2 x) (kP.2 x) (kw.2 x) (hr x) (kS.2 x)
    (kD.2 x) (k1.2 x) (k2.2 x) (by norm_num)
  exact this

example := C95_vdm1988_height_partial (fun _ => nan) (const_input (a := 8) (by norm_num)) (const_input (a := 3000)
  (by norm_num)) id4 (const_input (a := 0.4) (by norm_num)) continuous_const (const_input (a := 1025) (by norm_num))
  (fun _ => by norm_num : ∀ _ : Slope, (1025 : ℝ) < 2650) (const_input (a := 6.2) (by norm_num)) (const_input (a :=
  1) (by norm_num)) (Or.inl fun x => x.2.2) (Or.inl fun _ => by norm_num) (const_input (a := 1.4) (by norm_num))
  (const_input (a := 2) (by norm_num)) (const_input (a := 1) (by norm_num))

end

/-- C95: damage by the modified formula, away from 1:4 slopes -/
theorem C95_modified_damage_partial (kH : PositiveInput H) (kH2 : PositiveInput H2) (kD : PositiveInput D) :
    VariesContinuously fun x => VdMModified.calculate_damage_number_S (fin (H x)) (fin (H2 x)) (fin (T x)) (fin (N x))
      (fin (c x)) (fin (P x)) (fin (ra x)) (fin (D x)) (M x) (fin (cpl x)) (fin (cs x)) (fin (rw x)) := by
  have kq := PositiveInput.div' kH2 kH
  refine of _ (fun x => ?_) fun x => dmg_cont kq kH kT kc kP k1 k2 (Delta_input ka kw hr) kD (PositiveInput.sqrt' kN) h4
  have := Smod_eval (M x) (kH.2 x) (kq.2 x) (kT.2 x) (kN.2 x) (kc.2 x) (kP.2 x) (kw.2 x) (hr x) (kD.2 x) (k1.2 x)
    (k2.2 x)
  rwa [div_mul_cancel₀ _ (kH.2 x).ne'] at this

example := C95_modified_damage_partial (fun _ => nan) (const_input (a := 8) (by norm_num)) (const_input (a := 3000)
  (by norm_num)) id4 (const_input (a := 0.4) (by norm_num)) continuous_const (const_input (a := 1025) (by norm_num))
  (fun _ => by norm_num : ∀ _ : Slope, (1025 : ℝ) < 2650) (const_input (a := 6.2) (by norm_num)) (const_input (a :=
  1) (by norm_num)) (Or.inl fun x => x.2.2) (const_input (a := 2) (by norm_num)) (const_input (a := 2.8) (by
  norm_num)) (const_input (a := 1) (by norm_num))

/-- C95: rock size by the modified formula -/
theorem C95_modified_size_partial (kH : PositiveInput H) (kH2 : PositiveInput H2) (kS : PositiveInput S) :
    VariesContinuously fun x => VdMModified.calculate_nominal_rock_diameter_Dn50 (fin (H x)) (fin (H2 x)) (fin (T x))
      (fin (N x)) (fin (c x)) (fin (P x)) (fin (ra x)) (fin (S x)) (fin (cpl x)) (fin (cs x)) (fin (rw x)) := by
  have kq := PositiveInput.div' kH2 kH
  refine of _ (fun x => ?_) fun x => dia_cont kq kH kT kc kP k1 k2 (Delta_input ka kw hr) kS (PositiveInput.sqrt' kN) h4
  have := Dnmod_eval (kH.2 x) (kq.2 x) (kT.2 x) (kN.2 x) (kc.2 x) (kP.2 x) (kw.2 x) (hr x) (kS.2 x) (k1.2 x)
    (k2.2 x)
  rwa [div_mul_cancel₀ _ (kH.2 x).ne'] at this

example := C95_modified_size_partial (const_input (a := 8) (by norm_num)) (const_input (a := 3000) (by norm_num))
  id4 (const_input (a := 0.4) (by norm_num)) continuous_const (const_input (a := 1025) (by norm_num)) (fun _ => by
  norm_num : ∀ _ : Slope, (1025 : ℝ) < 2650) (const_input (a := 6.2) (by norm_num)) (const_input (a := 1) (by
  norm_num)) (Or.inl fun x => x.2.2) (const_input (a := 2) (by norm_num)) (const_input (a := 2.8) (by norm_num))
  (const_input (a := 2) (by norm_num))

/-- C95: wave height by the modified formula -/
theorem C95_modified_height_partial (kq : PositiveInput r) (kS : PositiveInput S) (kD : PositiveInput D) :
    VariesContinuously fun x => VdMModified.calculate_significant_wave_height_Hs (fin (r x)) (fin (T x)) (fin (N x))
      (fin (c x)) (fin (P x)) (fin (ra x)) (fin (S x)) (fin (D x)) (M x) (fin (cpl x)) (fin (cs x))
      (rho_water := fin (rw x)) := by
  refine of _ (fun x => ?_) fun x => Hsel_cont kq kT kc kP k1 k2 (PositiveInput.div' kS (PositiveInput.sqrt' kN))
    (Delta_input ka kw hr) kD h4
  exact Hmod_eval (g := 9.81) (M x) (kq.2 x) (kT.2 x) (kN.2 x) (kc.2 x) (kP.2 x) (kw.2 x) (hr x) (kS.2 x)
    (kD.2 x) (k1.2 x) (k2.2 x) (by norm_num)

example := C95_modified_height_partial (fun _ => nan) (const_input (a := 8) (by norm_num)) (const_input (a := 3000)
  (by norm_num)) id4 (const_input (a := 0.4) (by norm_num)) continuous_const (const_input (a := 1025) (by norm_num))
  (fun _ => by norm_num : ∀ _ : Slope, (1025 : ℝ) < 2650) (const_input (a := 6.2) (by norm_num)) (const_input (a :=
  1) (by norm_num)) (Or.inl fun x => x.2.2) (const_input (a := 1.4) (by norm_num)) (const_input (a := 2) (by
  norm_num)) (const_input (a := 1) (by norm_num))

end

section
variable {X : Type} [TopologicalSpace X] {H T N c P ra S D cpl cs ml ms : X → ℝ} (M : X → PF)
  (kT : PositiveInput T) (kN : PositiveInput N) (kc : PositiveInput c) (kP : PositiveInput P) (ka : Continuous ra)
  (hr : ∀ x, 1025 < ra x) (k1 : PositiveInput cpl) (k2 : PositiveInput cs) (k3 : PositiveInput ml)
  (k4 : PositiveInput ms) (h4 : SameSlopes c)
include kT kN kc kP ka hr k1 k2 k3 k4 h4

/-- C95: damage by the 2021 formula, away from 1:4 slopes -/
theorem C95_vdm2021_damage_partial (kH : PositiveInput H) (kD : PositiveInput D) :
    VariesContinuously fun x => VdM2021.calculate_damage_number_S (fin (H x)) (fin (T x)) (fin (N x))
      (fin (c x)) (fin (P x)) (fin (ra x)) (fin (D x)) (M x) (fin (cpl x)) (fin (cs x)) (fin (ml x)) (fin (ms x)) :=
  of _ (fun x => S2021_eval _ _ _ _ _ _ _ _ _ (M x) (kT.2 x) (kN.2 x) (kc.2 x) (kP.2 x) (hr x) (k1.2 x) (k2.2 x) (k3.2 x)
      (k4.2 x) (kH.2 x) (kD.2 x))
    fun x => dmg_cont (const_input one_pos) kH kT kc kP (PositiveInput.mul' k1 k3) (PositiveInput.mul' k2 k4)
      (Delta_input ka (const_input (by norm_num)) hr) kD (PositiveInput.sqrt' kN) h4

example := C95_vdm2021_damage_partial (fun _ => nan) (const_input (a := 8) (by norm_num)) (const_input (a := 3000)
  (by norm_num)) id4 (const_input (a := 0.4) (by norm_num)) continuous_const (fun _ => by norm_num : ∀ _ : Slope,
  (1025 : ℝ) < 2650) (const_input (a := 6.2) (by norm_num)) (const_input (a := 1) (by norm_num)) (const_input (a :=
  8.5) (by norm_num)) (const_input (a := 1) (by norm_num)) (Or.inl fun x => x.2.2) (const_input (a := 2) (by
  norm_num)) (const_input (a := 1) (by norm_num))

/-- C95: rock size by the 2021 formula -/
theorem C95_vdm2021_size_partial (kH : PositiveInput H) (kS : PositiveInput S) :
    VariesContinuously fun x => VdM2021.calculate_nominal_rock_diameter_Dn50 (fin (H x)) (fin (T x)) (fin (N x))
      (fin (c x)) (fin (P x)) (fin (ra x)) (fin (S x)) (fin (cpl x)) (fin (cs x)) (fin (ml x)) (fin (ms x)) :=
  of _ (fun x => D2021_eval _ _ _ _ _ _ _ _ _ (kT.2 x) (kN.2 x) (kc.2 x) (kP.2 x) (hr x) (k1.2 x) (k2.2 x) (k3.2 x)
      (k4.2 x) (kH.2 x) (kS.2 x))
    fun x => dia_cont (const_input one_pos) kH kT kc kP (PositiveInput.mul' k1 k3) (PositiveInput.mul' k2 k4)
      (Delta_input ka (const_input (by norm_num)) hr) kS (PositiveInput.sqrt' kN) h4

example := C95_vdm2021_size_partial (const_input (a := 8) (by norm_num)) (const_input (a := 3000) (by norm_num)) id4
  (const_input (a := 0.4) (by norm_num)) continuous_const (fun _ => by norm_num : ∀ _ : Slope, (1025 : ℝ) < 2650)
  (const_input (a := 6.2) (by norm_num)) (const_input (a := 1) (by norm_num)) (const_input (a := 8.5) (by norm_num))
  (const_input (a := 1) (by norm_num)) (Or.inl fun x => x.2.2) (const_input (a := 2) (by norm_num)) (const_input (a
  := 2) (by norm_num))

/-- C95: wave height by the 2021 formula -/
theorem C95_vdm2021_height_partial (kS : PositiveInput S) (kD : PositiveInput D) :
    VariesContinuously fun x => VdM2021.calculate_significant_wave_height_Hs (fin (T x)) (fin (N x)) (fin (c x))
      (fin (P x)) (fin (ra x)) (fin (S x)) (fin (D x)) (M x) (fin (cpl x)) (fin (cs x)) (fin (ml x)) (fin (ms x)) :=
  of _ (fun x => H2021_eval (g := 9.81) _ _ _ _ _ _ _ _ _ (M x) (kT.2 x) (kN.2 x) (kc.2 x) (kP.2 x) (hr x) (k1.2 x) (k2.2 x)
      (k3.2 x) (k4.2 x) (kS.2 x) (kD.2 x) (by norm_num))
    fun x => Hsel_cont (const_input one_pos) kT kc kP (PositiveInput.mul' k1 k3) (PositiveInput.mul' k2 k4)
      (PositiveInput.div' kS (PositiveInput.sqrt' kN)) (Delta_input ka (const_input (by norm_num)) hr) kD h4

example := C95_vdm2021_height_partial (fun _ => nan) (const_input (a := 8) (by norm_num)) (const_input (a := 3000)
  (by norm_num)) id4 (const_input (a := 0.4) (by norm_num)) continuous_const (fun _ => by norm_num : ∀ _ : Slope,
  (1025 : ℝ) < 2650) (const_input (a := 6.2) (by norm_num)) (const_input (a := 1) (by norm_num)) (const_input (a :=
  8.5) (by norm_num)) (const_input (a := 1) (by norm_num)) (Or.inl fun x => x.2.2) (const_input (a := 2) (by
  norm_num)) (const_input (a := 1) (by norm_num))

end

/-! ## where the result jumps -/

namespace ContProof

theorem exp_bound : Real.exp (-1.55) < 3 / 13 := by
  have h : (13 / 3 : ℝ) < Real.exp 1.55 := by
    have h1 := Real.exp_one_gt_d9
    have h2 : Real.exp 1.55 ^ 20 = Real.exp 1 ^ 31 := by
      rw [← Real.exp_nat_mul, ← Real.exp_nat_mul]; norm_num
    have h3 : (13 / 3 : ℝ) ^ 20 < Real.exp 1.55 ^ 20 := by
      rw [h2]
      calc (13 / 3 : ℝ) ^ 20 < 2.7182818283 ^ 31 := by norm_num
        _ ≤ _ := by gcongr
    exact lt_of_pow_lt_pow_left₀ 20 (Real.exp_pos _).le h3
  rw [Real.exp_neg, inv_lt_comm₀ (Real.exp_pos _) (by norm_num)]
  norm_num at h ⊢
  exact h

/-- on the far side of 5000 waves the weight of the storm follows this -/
def long (N : ℝ) : ℝ := √5000 * (1.3 * (1 - Real.exp (-0.00031 * N)))

theorem long_pos {N : ℝ} (h : 0 < N) : 0 < long N := by
  have := one_sub_exp_pos h
  unfold long; positivity

theorem weight_long {N : ℝ} (h : 5000 < N) : √N / gam N = long N := by
  have h0 : 0 < N := by linarith
  have := one_sub_exp_pos h0
  have := Real.sqrt_pos.mpr h0
  unfold gam long
  rw [if_pos h]
  field_simp

theorem weight_5000 : √5000 / gam 5000 = √5000 := by
  unfold gam
  norm_num

theorem long_ne : √5000 < long 5000 := by
  have := exp_bound
  have h : (0 : ℝ) < √5000 := by positivity
  have e : (-0.00031 * 5000 : ℝ) = -1.55 := by norm_num
  unfold long
  rw [e]
  nlinarith

theorem ksu_lt_kpl {cpl cs P c x : ℝ} (h1 : 0 < cpl) (h2 : 0 < cs) (hP : 0 < P) (hc : 0 < c)
    (hx : xmc cpl cs P c < x) : ksu cs P c x < kpl cpl P x := by
  have hm := xmc_pos h1 h2 hP hc
  have h := (k_lt h1 h2 hP hc hm).not.mp (lt_irrefl _)
  push Not at h
  have a : ksu cs P c x < ksu cs P c (xmc cpl cs P c) := by
    unfold ksu
    have := Real.rpow_lt_rpow_of_neg hm hx (neg_lt_zero.mpr hP)
    gcongr
  have b : kpl cpl P (xmc cpl cs P c) < kpl cpl P x := by
    unfold kpl; gcongr
  linarith

theorem dmg_jump {r H T P cpl cs De D w : ℝ} (hr : 0 < r) (hH : 0 < H) (hT : 0 < T) (hP : 0 < P) (h1 : 0 < cpl)
    (h2 : 0 < cs) (hDe : 0 < De) (hD : 0 < D) (hw : 0 < w) (h : xmc cpl cs P 4 < xi H T 4) :
    ¬ Continuous fun c : Set.Ioi (0 : ℝ) => dmg r H T c P cpl cs De D w := by
  have hx := xi_pos hH hT (by norm_num : (0 : ℝ) < 4)
  refine jump_left (a := 4) (g := fun c => (H / (De * D) * r * min (kpl cpl P (xi H T c)) (ksu cs P c (xi H T c))) ^ 5 * w)
    (by norm_num) ?_ ?_ ?_
  · have k := xi_cont (x := (4 : ℝ)) (H := fun _ => H) (T := fun _ => T) (c := fun c => c) continuousAt_const
      continuousAt_const continuousAt_id hH hT (by norm_num)
    have a := kpl_cont (a := fun _ => cpl) (P := fun _ => P) continuousAt_const continuousAt_const k h1 hP hx
    have b := ksu_cont (a := fun _ => cs) (P := fun _ => P) continuousAt_const continuousAt_const continuousAt_id k h2 hP
      (by norm_num : (0 : ℝ) < id 4) hx
    simp only [id] at b
    cont
  · intro y hy h4
    unfold dmg
    simp only
    rw [kf_min h1 h2 hP hy (xi_pos hH hT hy), if_neg (by norm_num; exact h4)]
  · unfold dmg
    simp only
    rw [kf_min h1 h2 hP (by norm_num) hx, if_pos (by norm_num), min_eq_right (ksu_lt_kpl h1 h2 hP (by norm_num) h).le]
    have := ksu_pos h2 hP (by norm_num : (0 : ℝ) < 4) hx
    have := ksu_lt_kpl h1 h2 hP (by norm_num) h
    apply ne_of_gt
    gcongr

theorem dia_jump {r H T P cpl cs De S w : ℝ} (hr : 0 < r) (hH : 0 < H) (hT : 0 < T) (hP : 0 < P) (h1 : 0 < cpl)
    (h2 : 0 < cs) (hDe : 0 < De) (hS : 0 < S) (hw : 0 < w) (h : xmc cpl cs P 4 < xi H T 4) :
    ¬ Continuous fun c : Set.Ioi (0 : ℝ) => dia r H T c P cpl cs De S w := by
  have hx := xi_pos hH hT (by norm_num : (0 : ℝ) < 4)
  refine jump_left (a := 4)
    (g := fun c => H / De * r * min (kpl cpl P (xi H T c)) (ksu cs P c (xi H T c)) * (S / w) ^ (-0.2 : ℝ))
    (by norm_num) ?_ ?_ ?_
  · have k := xi_cont (x := (4 : ℝ)) (H := fun _ => H) (T := fun _ => T) (c := fun c => c) continuousAt_const
      continuousAt_const continuousAt_id hH hT (by norm_num)
    have a := kpl_cont (a := fun _ => cpl) (P := fun _ => P) continuousAt_const continuousAt_const k h1 hP hx
    have b := ksu_cont (a := fun _ => cs) (P := fun _ => P) continuousAt_const continuousAt_const continuousAt_id k h2 hP
      (by norm_num : (0 : ℝ) < id 4) hx
    simp only [id] at b
    cont
  · intro y hy h4
    unfold dia
    simp only
    rw [kf_min h1 h2 hP hy (xi_pos hH hT hy), if_neg (by norm_num; exact h4)]
  · unfold dia
    simp only
    rw [kf_min h1 h2 hP (by norm_num) hx, if_pos (by norm_num), min_eq_right (ksu_lt_kpl h1 h2 hP (by norm_num) h).le]
    have := ksu_lt_kpl h1 h2 hP (by norm_num) h
    apply ne_of_gt
    gcongr

theorem surging_example : Published.criticalIribarren 6.2 1 0.5 4 < Textbook.iribarren 1 14 4 := by
  have h1 : Published.criticalIribarren 6.2 1 0.5 4 ≤ 3.1 := by
    unfold Published.criticalIribarren
    have a : (0.5 : ℝ) ^ (0.31 : ℝ) ≤ 1 := Real.rpow_le_one (by norm_num) (by norm_num) (by norm_num)
    have b : √(1 / 4 : ℝ) = 1 / 2 := by rw [Real.sqrt_eq_iff_mul_self_eq] <;> norm_num
    have c : (1 / (0.5 + 0.5) : ℝ) = 1 := by norm_num
    rw [b, c, Real.rpow_one]
    linarith
  have h2 : √(Textbook.steepness 1 14) < 0.07 := by
    have := Real.pi_le_four
    rw [Real.sqrt_lt' (by norm_num)]
    unfold Textbook.steepness
    rw [one_div_div, div_lt_iff₀ (by norm_num)]
    linarith
  have h3 : 0 < √(Textbook.steepness 1 14) := by
    have := Real.pi_pos
    unfold Textbook.steepness; positivity
  refine h1.trans_lt ?_
  unfold Textbook.iribarren
  rw [lt_div_iff₀ (by positivity)]
  linarith

end ContProof

section
variable {H H2 T N P ra rw cpl cs S D : ℝ} (M : PF) (hH : 0 < H) (hH2 : 0 < H2) (hT : 0 < T) (hP : 0 < P)
  (hw : 0 < rw) (hr : rw < ra) (h1 : 0 < cpl) (h2 : 0 < cs)
include hH hH2 hT hP hw hr h1 h2

/-- C95: the damage by Van der Meer (1988) jumps at 5000 waves, whatever the other inputs are -/
theorem C95_vdm1988_damage_5000_refuted (c : ℝ) (hc : 0 < c) (hD : 0 < D) :
    Jumps fun N : Set.Ioi (0 : ℝ) => VdM1988.calculate_damage_number_S (fin H) (fin H2) (fin T) (fin N) (fin c)
      (fin P) (fin ra) (fin D) M (fin cpl) (fin cs) (fin rw) := by
  have hq : 0 < H2 / H := by positivity
  have e : ∀ N : Set.Ioi (0 : ℝ), _ := fun N => S1988_eval M hH hq hT N.2 hc hP hw hr hD h1 h2
  simp only [div_mul_cancel₀ _ hH.ne'] at e
  refine ⟨_, ?_, e⟩
  have hDe : 0 < (ra - rw) / rw := div_pos (sub_pos.mpr hr) hw
  have hk := kf_pos h1 h2 hP hc (xi_pos hH hT hc)
  refine jump_right (a := 5000) (g := fun N => dmg (H2 / H) H T c P cpl cs ((ra - rw) / rw) D (long N)) (by norm_num)
    ?_ ?_ ?_
  · unfold dmg long
    fun_prop
  · intro y hy h
    simp only
    rw [weight_long h]
  · simp only
    rw [weight_5000]
    unfold dmg
    have := long_ne
    apply ne_of_lt
    gcongr

example := C95_vdm1988_damage_5000_refuted (H := 2) (H2 := 2.8) (T := 8) (P := 0.4) (ra := 2650) (rw := 1025)
  (cpl := 6.2) (cs := 1) (D := 1) nan (by norm_num) (by norm_num) (by norm_num) (by norm_num) (by norm_num)
  (by norm_num) (by norm_num) (by norm_num) 2 (by norm_num) (by norm_num)

/-- C95: the rock size by Van der Meer (1988) jumps at 5000 waves, whatever the other inputs are -/
theorem C95_vdm1988_size_5000_refuted (c : ℝ) (hc : 0 < c) (hS : 0 < S) :
    Jumps fun N : Set.Ioi (0 : ℝ) => VdM1988.calculate_nominal_rock_diameter_Dn50 (fin H) (fin H2) (fin T) (fin N)
      (fin c) (fin P) (fin ra) (fin S) (fin cpl) (fin cs) (fin rw) := by
  have hq : 0 < H2 / H := by positivity
  have e : ∀ N : Set.Ioi (0 : ℝ), _ := fun N => Dn1988_eval hH hq hT N.2 hc hP hw hr hS h1 h2
  simp only [div_mul_cancel₀ _ hH.ne'] at e
  refine ⟨_, ?_, e⟩
  have hDe : 0 < (ra - rw) / rw := div_pos (sub_pos.mpr hr) hw
  have hk := kf_pos h1 h2 hP hc (xi_pos hH hT hc)
  refine jump_right (a := 5000) (g := fun N => dia (H2 / H) H T c P cpl cs ((ra - rw) / rw) S (long N)) (by norm_num)
    ?_ ?_ ?_
  · have := long_pos (by norm_num : (0 : ℝ) < 5000)
    have k : ContinuousAt long 5000 := by unfold long; fun_prop
    unfold dia
    cont
  · intro y hy h
    simp only
    rw [weight_long h]
  · simp only
    rw [weight_5000]
    unfold dia
    have := long_ne
    have p : (0 : ℝ) < √5000 := by positivity
    have p' := p.trans this
    have := Real.rpow_lt_rpow_of_neg (by positivity) (div_lt_div_of_pos_left hS p this) (by norm_num : (-0.2 : ℝ) < 0)
    apply ne_of_lt
    gcongr

example := C95_vdm1988_size_5000_refuted (H := 2) (H2 := 2.8) (T := 8) (P := 0.4) (ra := 2650) (rw := 1025)
  (cpl := 6.2) (cs := 1) (S := 2) (by norm_num) (by norm_num) (by norm_num) (by norm_num) (by norm_num)
  (by norm_num) (by norm_num) (by norm_num) 2 (by norm_num) (by norm_num)

/-- C95: for waves that are surging on a 1:4 slope the damage by Van der Meer (1988) jumps at that slope -/
theorem C95_vdm1988_damage_slope_refuted (hN : 0 < N) (hD : 0 < D)
    (h : Published.criticalIribarren cpl cs P 4 < Textbook.iribarren H T 4) :
    Jumps fun c : Set.Ioi (0 : ℝ) => VdM1988.calculate_damage_number_S (fin H) (fin H2) (fin T) (fin N) (fin c)
      (fin P) (fin ra) (fin D) M (fin cpl) (fin cs) (fin rw) := by
  rw [← FormulaProof.crit_eq, RangeProof.irib_eq] at h
  have hq : 0 < H2 / H := by positivity
  have e : ∀ c : Set.Ioi (0 : ℝ), _ := fun c => S1988_eval M hH hq hT hN c.2 hP hw hr hD h1 h2
  simp only [div_mul_cancel₀ _ hH.ne'] at e
  exact ⟨_, dmg_jump hq hH hT hP h1 h2 (div_pos (sub_pos.mpr hr) hw) hD
    (div_pos (Real.sqrt_pos.mpr hN) (gam_pos hN)) h, e⟩

example := C95_vdm1988_damage_slope_refuted (H := 1) (H2 := 1.4) (T := 14) (N := 3000) (P := 0.5) (ra := 2650)
  (rw := 1025) (cpl := 6.2) (cs := 1) (D := 1) nan (by norm_num) (by norm_num) (by norm_num) (by norm_num) (by norm_num)
  (by norm_num) (by norm_num) (by norm_num) (by norm_num) (by norm_num) surging_example

/-- C95: so does the rock size -/
theorem C95_vdm1988_size_slope_refuted (hN : 0 < N) (hS : 0 < S)
    (h : Published.criticalIribarren cpl cs P 4 < Textbook.iribarren H T 4) :
    Jumps fun c : Set.Ioi (0 : ℝ) => VdM1988.calculate_nominal_rock_diameter_Dn50 (fin H) (fin H2) (fin T) (fin N)
      (fin c) (fin P) (fin ra) (fin S) (fin cpl) (fin cs) (fin rw) := by
  rw [← FormulaProof.crit_eq, RangeProof.irib_eq] at h
  have hq : 0 < H2 / H := by positivity
  have e : ∀ c : Set.Ioi (0 : ℝ), _ := fun c => Dn1988_eval hH hq hT hN c.2 hP hw hr hS h1 h2
  simp only [div_mul_cancel₀ _ hH.ne'] at e
  exact ⟨_, dia_jump hq hH hT hP h1 h2 (div_pos (sub_pos.mpr hr) hw) hS
    (div_pos (Real.sqrt_pos.mpr hN) (gam_pos hN)) h, e⟩

example := C95_vdm1988_size_slope_refuted (H := 1) (H2 := 1.4) (T := 14) (N := 3000) (P := 0.5) (ra := 2650)
  (rw := 1025) (cpl := 6.2) (cs := 1) (S := 2) (by norm_num) (by norm_num) (by norm_num) (by norm_num) (by norm_num)
  (by norm_num) (by norm_num) (by norm_num) (by norm_num) (by norm_num) surging_example

/-- C95: and the damage by the modified formula -/
theorem C95_modified_damage_slope_refuted (hN : 0 < N) (hD : 0 < D)
    (h : Published.criticalIribarren cpl cs P 4 < Textbook.iribarren H T 4) :
    Jumps fun c : Set.Ioi (0 : ℝ) => VdMModified.calculate_damage_number_S (fin H) (fin H2) (fin T) (fin N) (fin c)
      (fin P) (fin ra) (fin D) M (fin cpl) (fin cs) (fin rw) := by
  rw [← FormulaProof.crit_eq, RangeProof.irib_eq] at h
  have hq : 0 < H2 / H := by positivity
  have e : ∀ c : Set.Ioi (0 : ℝ), _ := fun c => Smod_eval M hH hq hT hN c.2 hP hw hr hD h1 h2
  simp only [div_mul_cancel₀ _ hH.ne'] at e
  exact ⟨_, dmg_jump hq hH hT hP h1 h2 (div_pos (sub_pos.mpr hr) hw) hD (Real.sqrt_pos.mpr hN) h, e⟩

example := C95_modified_damage_slope_refuted (H := 1) (H2 := 1.4) (T := 14) (N := 3000) (P := 0.5) (ra := 2650)
  (rw := 1025) (cpl := 6.2) (cs := 1) (D := 1) nan (by norm_num) (by norm_num) (by norm_num) (by norm_num) (by norm_num)
  (by norm_num) (by norm_num) (by norm_num) (by norm_num) (by norm_num) surging_example

/-- C95: and its rock size -/
theorem C95_modified_size_slope_refuted (hN : 0 < N) (hS : 0 < S)
    (h : Published.criticalIribarren cpl cs P 4 < Textbook.iribarren H T 4) :
    Jumps fun c : Set.Ioi (0 : ℝ) => VdMModified.calculate_nominal_rock_diameter_Dn50 (fin H) (fin H2) (fin T) (fin N)
      (fin c) (fin P) (fin ra) (fin S) (fin cpl) (fin cs) (fin rw) := by
  rw [← FormulaProof.crit_eq, RangeProof.irib_eq] at h
  have hq : 0 < H2 / H := by positivity
  have e : ∀ c : Set.Ioi (0 : ℝ), _ := fun c => Dnmod_eval hH hq hT hN c.2 hP hw hr hS h1 h2
  simp only [div_mul_cancel₀ _ hH.ne'] at e
  exact ⟨_, dia_jump hq hH hT hP h1 h2 (div_pos (sub_pos.mpr hr) hw) hS (Real.sqrt_pos.mpr hN) h, e⟩

example := C95_modified_size_slope_refuted (H := 1) (H2 := 1.4) (T := 14) (N := 3000) (P := 0.5) (ra := 2650)
  (rw := 1025) (cpl := 6.2) (cs := 1) (S := 2) (by norm_num) (by norm_num) (by norm_num) (by norm_num) (by norm_num)
  (by norm_num) (by norm_num) (by norm_num) (by norm_num) (by norm_num) surging_example

end
