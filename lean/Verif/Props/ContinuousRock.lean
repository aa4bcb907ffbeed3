import Verif.Props.ContinuousArmour
import Verif.Props.WorseRock
import Verif.Props.Etemad2020

/-! # C95: other armour, small changes of the inputs -/

open Classical
open PF ContProof
noncomputable section

/-! ## Hudson -/

section
variable {X : Type} [TopologicalSpace X] {H M rw ra KD c a : X → ℝ}
  (kw : PositiveInput rw) (ka : Continuous ra) (hr : ∀ x, rw x < ra x) (kK : PositiveInput KD) (kc : PositiveInput c)
  (kf : PositiveInput a)
include kw ka hr kK kc kf

/-- C95: mass by Hudson (1959) -/
theorem C95_hudson_mass (kH : PositiveInput H) :
    VariesContinuously fun x => pure (Hudson1959.calculate_median_rock_mass_M50_no_damage (fin (H x)) (fin (rw x))
      (fin (ra x)) (fin (KD x)) (fin (c x)) (fin (a x))) := by
  refine of _ (fun x => congrArg Except.ok
    (HudsonProof.M50_eval (kH.2 x) (kw.2 x) (hr x) (kK.2 x) (kc.2 x) (kf.2 x))) fun x => ?_
  inputs [kH, kw, kK, kc, kf] x
  have := sub_pos.mpr (hr x)
  cont

example := C95_hudson_mass (const_input (a := 1025) (by norm_num)) continuous_const (fun _ => by norm_num : ∀ _ :
  Set.Ioi (0 : ℝ), (1025 : ℝ) < 2650) (const_input (a := 8) (by norm_num)) (const_input (a := 2) (by norm_num))
  (const_input (a := 1.27) (by norm_num)) id_input

/-- C95: wave height by Hudson (1959) -/
theorem C95_hudson_height (kM : PositiveInput M) :
    VariesContinuously fun x => pure (Hudson1959.calculate_significant_wave_height_Hs_no_damage (fin (M x))
      (fin (rw x)) (fin (ra x)) (fin (KD x)) (fin (c x)) (fin (a x))) := by
  refine of _ (fun x => congrArg Except.ok
    (HudsonProof.Hs_eval (kM.2 x) (kw.2 x) (hr x) (kK.2 x) (kc.2 x) (kf.2 x))) fun x => ?_
  inputs [kM, kw, kK, kc, kf] x
  have := (kw.2 x).trans (hr x)
  cont

example := C95_hudson_height (const_input (a := 1025) (by norm_num)) continuous_const (fun _ => by norm_num : ∀ _ :
  Set.Ioi (0 : ℝ), (1025 : ℝ) < 2650) (const_input (a := 8) (by norm_num)) (const_input (a := 2) (by norm_num))
  (const_input (a := 1.27) (by norm_num)) id_input

end

/-! ## Scaravaglione et al. 2025 -/

section
variable {X : Type} [TopologicalSpace X] {H T N c ra rw S D Dc cv : X → ℝ} (M Mc rc : X → PF)
  (kT : PositiveInput T) (kN : PositiveInput N) (kc : PositiveInput c) (kw : PositiveInput rw) (ka : Continuous ra)
  (hr : ∀ x, rw x < ra x) (kv : PositiveInput cv) (kDc : Continuous Dc) (hDc : ∀ x, 0 ≤ Dc x)
include kT kN kc kw ka hr kv kDc hDc

/-- C95: damage by Scaravaglione et al. (2025) -/
theorem C95_scaravaglione_damage (kH : PositiveInput H) (kD : PositiveInput D) :
    VariesContinuously fun x => Scaravaglione2025.calculate_damage_number_S (fin (H x)) (fin (T x)) (fin (N x))
      (fin (c x)) (fin (ra x)) (rc x) (fin (D x)) (fin (Dc x)) (M x) (Mc x) (fin (cv x)) (fin (rw x)) := by
  refine of _ (fun x => JumScaProof.scS_eval (rc x) (M x) (Mc x) (kT.2 x) (kN.2 x) (kc.2 x) (kw.2 x) (hr x) (kv.2 x)
    (kH.2 x) (kD.2 x) (hDc x)) fun x => ?_
  inputs [kH, kT, kN, kc, kw, kv, kD] x
  have := sub_pos.mpr (hr x)
  have := hDc x
  have := Real.pi_pos
  unfold JumScaProof.Sc JumScaProof.st
  cont

example := C95_scaravaglione_damage (fun _ => nan) (fun _ => nan) (fun _ => nan) (const_input (a := 8) (by
  norm_num)) (const_input (a := 3000) (by norm_num)) (const_input (a := 2) (by norm_num)) (const_input (a := 1025)
  (by norm_num)) continuous_const (fun _ => by norm_num : ∀ _ : Set.Ioi (0 : ℝ), (1025 : ℝ) < 2650) (const_input (a
  := 4.3) (by norm_num)) (continuous_const (y := (0.3 : ℝ))) (fun _ => by norm_num) id_input (const_input (a := 1)
  (by norm_num))

/-- C95: wave height by Scaravaglione et al. (2025) -/
theorem C95_scaravaglione_height (kS : PositiveInput S) (kD : PositiveInput D) {g : X → ℝ} (kg : PositiveInput g) :
    VariesContinuously fun x => Scaravaglione2025.calculate_significant_wave_height_Hm0 (fin (T x)) (fin (N x))
      (fin (c x)) (fin (ra x)) (rc x) (fin (S x)) (fin (D x)) (fin (Dc x)) (M x) (Mc x) (fin (cv x)) (fin (g x))
      (fin (rw x)) := by
  refine of _ (fun x => JumScaProof.scH_eval (rc x) (M x) (Mc x) (kT.2 x) (kN.2 x) (kc.2 x) (kw.2 x) (hr x) (kv.2 x)
    (kD.2 x) (hDc x) (kS.2 x) (kg.2 x)) fun x => ?_
  inputs [kS, kT, kN, kc, kw, kv, kD, kg] x
  have := sub_pos.mpr (hr x)
  have := hDc x
  have := Real.pi_pos
  unfold JumScaProof.Hx
  cont

example := C95_scaravaglione_height (fun _ => nan) (fun _ => nan) (fun _ => nan) (const_input (a := 8) (by
  norm_num)) (const_input (a := 3000) (by norm_num)) (const_input (a := 2) (by norm_num)) (const_input (a := 1025)
  (by norm_num)) continuous_const (fun _ => by norm_num : ∀ _ : Set.Ioi (0 : ℝ), (1025 : ℝ) < 2650) (const_input (a
  := 4.3) (by norm_num)) (continuous_const (y := (0.3 : ℝ))) (fun _ => by norm_num) (const_input (a := 2) (by
  norm_num)) id_input (const_input (a := 9.81) (by norm_num))

end

/-- C95: rock size by Scaravaglione et al. (2025), also where it is not positive -/
theorem C95_scaravaglione_size {X : Type} [TopologicalSpace X] {H T N c ra rw S Dc cv : X → ℝ} (Mc rc : X → PF)
    (kT : PositiveInput T) (kN : PositiveInput N) (kc : PositiveInput c) (kw : PositiveInput rw) (ka : Continuous ra)
    (hr : ∀ x, rw x < ra x) (kv : PositiveInput cv) (kDc : Continuous Dc) (kH : PositiveInput H)
    (kS : PositiveInput S) :
    VariesContinuously fun x => Scaravaglione2025.calculate_nominal_rock_diameter_Dn50 (fin (H x)) (fin (T x))
      (fin (N x)) (fin (c x)) (fin (ra x)) (rc x) (fin (S x)) (fin (Dc x)) (Mc x) (fin (cv x)) (fin (rw x)) := by
  refine of _ (fun x => JumScaProof.scD_eval (rc x) (Mc x) (kT.2 x) (kN.2 x) (kc.2 x) (kw.2 x) (hr x) (kv.2 x)
    (kH.2 x) (kS.2 x)) fun x => ?_
  inputs [kH, kT, kN, kc, kw, kv, kS] x
  have := sub_pos.mpr (hr x)
  have := Real.pi_pos
  unfold JumScaProof.X JumScaProof.st
  cont

example := C95_scaravaglione_size (fun _ => nan) (fun _ => nan) (const_input (a := 8) (by norm_num)) (const_input (a
  := 3000) (by norm_num)) (const_input (a := 2) (by norm_num)) (const_input (a := 1025) (by norm_num))
  continuous_const (fun _ => by norm_num : ∀ _ : Set.Ioi (0 : ℝ), (1025 : ℝ) < 2650) (const_input (a := 4.3) (by
  norm_num)) (continuous_const (y := (0.3 : ℝ))) id_input (const_input (a := 2) (by norm_num))

/-! ## Kramer & Burcharth 2003 -/

/-- C95: wave height by Kramer & Burcharth (2003) -/
theorem C95_kramer_height {X : Type} [TopologicalSpace X] {R ra D : X → ℝ} (M : X → PF) (kR : Continuous R)
    (ka : Continuous ra) (hr : ∀ x, 1025 < ra x) (kD : PositiveInput D) :
    VariesContinuously fun x => KramerBurcharth.calculate_significant_wave_height_Hs (fin (R x)) (fin (ra x))
      (fin (D x)) (M x) := by
  refine of _ (fun x => KBProof.Hs_eval (M x) (hr x) rfl (kD.2 x).ne') fun x => ?_
  inputs [kD] x
  unfold KBProof.HsR
  cont

example := C95_kramer_height (fun _ => nan) (continuous_const (y := (0.5 : ℝ))) continuous_const (fun _ => by
  norm_num : ∀ _ : Set.Ioi (0 : ℝ), (1025 : ℝ) < 2650) id_input

/-! ## Etemad-Shahidi et al. 2020 -/

namespace ContProof
open EtemadProof

theorem cp_input {X : Type} [TopologicalSpace X] {D Dc : X → ℝ} (kD : PositiveInput D) (kDc : PositiveInput Dc) :
    PositiveInput fun x => cp (D x) (Dc x) := by
  refine ⟨continuous_iff_continuousAt.mpr fun x => ?_, fun x => cp_pos (kD.2 x) (kDc.2 x).le⟩
  inputs [kD, kDc] x
  unfold cp
  cont

theorem xi_period {H T c : ℝ} (hH : 0 < H) (hT : 0 < T) (hc : 0 < c) :
    VdMProof.xi H T c = T * VdMProof.xi H 1 c := by
  have := Real.pi_pos
  unfold VdMProof.xi
  rw [one_pow, div_one, Real.sqrt_div (by positivity), Real.sqrt_sq hT.le]
  have : 0 < √(2 * Real.pi / 9.81 * H) := by positivity
  field_simp

theorem et_lt {H T N c De D C I : ℝ} (hH : 0 < H) (hN : 0 < N) (hDe : 0 < De) (hD : 0 < D) (hC : 0 < C) (hI : 0 < I)
    (hx : VdMProof.xi H T c = 1.8) : Ssu H T N c De D C I < Spl H T N c De D C I := by
  have h := WorseStrProof.jump
  have h6 : (1.0 / 3.9 : ℝ) ^ (6.0 : ℝ) * 1.8 ^ (2.0 : ℝ) < (1.0 / 4.5) ^ (6.0 : ℝ) * 1.8 ^ (7.0 / 2.0 : ℝ) := by
    have e : (1.8 : ℝ) ^ (7.0 / 2.0 : ℝ) = 1.8 ^ (2.0 : ℝ) * ((1.8 : ℝ) ^ (1 / 4 : ℝ)) ^ (6 : ℕ) := by
      rw [← Real.rpow_natCast, ← Real.rpow_mul (by norm_num), ← Real.rpow_add (by norm_num)]; norm_num
    have e6 : (6.0 : ℝ) = ((6 : ℕ) : ℝ) := by norm_num
    rw [e, e6, Real.rpow_natCast, Real.rpow_natCast]
    have h7 : (4.5 : ℝ) ^ 6 < (3.9 * 1.8 ^ (1 / 4 : ℝ)) ^ 6 := by gcongr
    rw [mul_pow] at h7
    have p : (0 : ℝ) < 1.8 ^ (2.0 : ℝ) := by positivity
    generalize ((1.8 : ℝ) ^ (1 / 4 : ℝ)) ^ 6 = y at *
    generalize (1.8 : ℝ) ^ (2.0 : ℝ) = z at *
    norm_num at h7 ⊢
    nlinarith
  unfold Ssu Spl
  rw [hx]
  have p : 0 < (H / (De * D)) ^ (6.0 : ℝ) * C ^ (-6.0 : ℝ) * N ^ (0.6 : ℝ) * I ^ (-6.0 : ℝ) := by positivity
  have := mul_lt_mul_of_pos_right h6 p
  calc _ = _ := by ring
    _ < _ := this
    _ = _ := by ring

end ContProof

/-- C95: the damage by Etemad-Shahidi et al. (2020) jumps where the Iribarren number passes 1.8, whatever the other
inputs are -/
theorem C95_etemad2020_damage_refuted {H N c ra rw D Dc : ℝ} (M Mc rc : PF) (hH : 0 < H) (hN : 0 < N) (hc : 0 < c)
    (hw : 0 < rw) (hr : rw < ra) (hD : 0 < D) (hDc : 0 < Dc) :
    Jumps fun T : Set.Ioi (0 : ℝ) => Etemad2020.calculate_damage_number_S (fin H) (fin T) (fin N) (fin c) (fin ra)
      (fin D) M (fin Dc) Mc rc (fin rw) := by
  have hm : Etemad2020.depth_limitation nan false = ⟨[], .ok (fin 1)⟩ := by
    simp [Etemad2020.depth_limitation, PyM.pure_def, sci_eq]; norm_num
  refine ⟨_, ?_, fun T => EtemadProof.S_eval M Mc rc T.2 hN hc hw hr hD hDc.le one_pos hm hH⟩
  have hDe : 0 < (ra - rw) / rw := div_pos (sub_pos.mpr hr) hw
  have hC := EtemadProof.cp_pos hD hDc.le
  have h1 := VdMProof.xi_pos hH one_pos hc
  have ha : 0 < 1.8 / VdMProof.xi H 1 c := by positivity
  have ex : VdMProof.xi H (1.8 / VdMProof.xi H 1 c) c = 1.8 := by
    rw [xi_period hH ha hc]; field_simp
  refine jump_left (a := 1.8 / VdMProof.xi H 1 c)
    (g := fun T => EtemadProof.Spl H T N c ((ra - rw) / rw) D (EtemadProof.cp D Dc) 1) ha ?_ ?_ ?_
  · have hx := VdMProof.xi_pos hH ha hc
    have := xi_cont (x := 1.8 / VdMProof.xi H 1 c) (H := fun _ => H) (T := fun T => T) (c := fun _ => c)
      continuousAt_const continuousAt_id continuousAt_const hH ha hc
    unfold EtemadProof.Spl
    generalize 1.8 / VdMProof.xi H 1 c = y at *
    cont
  · intro T hT h
    simp only
    unfold EtemadProof.Sd
    rw [if_neg]
    rw [xi_period hH hT hc, not_le, ← lt_div_iff₀ h1]
    exact h
  · simp only
    unfold EtemadProof.Sd
    rw [if_pos ex.ge]
    exact (et_lt hH hN hDe hD hC one_pos ex).ne

example := C95_etemad2020_damage_refuted (H := 2) (N := 3000) (c := 2) (ra := 2650) (rw := 1025) (D := 1) (Dc := 0.3)
  nan nan nan (by norm_num) (by norm_num) (by norm_num) (by norm_num) (by norm_num) (by norm_num) (by norm_num)

section
variable {X : Type} [TopologicalSpace X] {H T N c ra rw D Dc : X → ℝ} (M Mc rc : X → PF)
  (kT : PositiveInput T) (kN : PositiveInput N) (kc : PositiveInput c) (kw : PositiveInput rw) (ka : Continuous ra)
  (hr : ∀ x, rw x < ra x) (kD : PositiveInput D) (kDc : PositiveInput Dc)
include kT kN kc kw ka hr kD kDc

/-- C95: away from that Iribarren number the damage changes continuously -/
theorem C95_etemad2020_damage_partial (kH : PositiveInput H)
    (hx : (∀ x, Textbook.iribarren (H x) (T x) (c x) < 1.8) ∨ ∀ x, 1.8 ≤ Textbook.iribarren (H x) (T x) (c x)) :
    VariesContinuously fun x => Etemad2020.calculate_damage_number_S (fin (H x)) (fin (T x)) (fin (N x)) (fin (c x))
      (fin (ra x)) (fin (D x)) (M x) (fin (Dc x)) (Mc x) (rc x) (fin (rw x)) := by
  have hm : Etemad2020.depth_limitation nan false = ⟨[], .ok (fin 1)⟩ := by
    simp [Etemad2020.depth_limitation, PyM.pure_def, sci_eq]; norm_num
  refine of _ (fun x => EtemadProof.S_eval (M x) (Mc x) (rc x) (kT.2 x) (kN.2 x) (kc.2 x) (kw.2 x) (hr x) (kD.2 x)
    (kDc.2 x).le one_pos hm (kH.2 x)) fun x => ?_
  simp only [RangeProof.irib_eq] at hx
  have kC := cp_input kD kDc
  have hxi := VdMProof.xi_pos (kH.2 x) (kT.2 x) (kc.2 x)
  have kx := xi_cont (x := x) kH.1.continuousAt kT.1.continuousAt kc.1.continuousAt (kH.2 x) (kT.2 x) (kc.2 x)
  have kC' := kC.1.continuousAt (x := x)
  inputs [kH, kT, kN, kc, kw, kD, kC] x
  have := sub_pos.mpr (hr x)
  unfold EtemadProof.Sd
  rcases hx with h | h
  · have e : ∀ x, ¬ 1.8 ≤ VdMProof.xi (H x) (T x) (c x) := fun x => not_le.mpr (h x)
    simp only [e, if_false]
    unfold EtemadProof.Spl
    cont
  · simp only [h, if_true]
    unfold EtemadProof.Ssu
    cont

example : VariesContinuously fun N : Set.Ioi (0 : ℝ) => Etemad2020.calculate_damage_number_S (fin 2) (fin 8) (fin N)
    (fin 2) (fin 2650) (fin 1) nan (fin 0.3) nan nan (fin 1025) :=
  C95_etemad2020_damage_partial (fun _ => nan) (fun _ => nan) (fun _ => nan) (const_input (by norm_num)) id_input
    (const_input (by norm_num)) (const_input (by norm_num)) continuous_const (fun _ => by norm_num)
    (const_input (by norm_num)) (const_input (by norm_num)) (const_input (by norm_num))
    ((lt_or_ge _ _).imp (fun h _ => h) fun h _ => h)

end

/-! ## Jumelet et al. 2024 -/

namespace ContProof

theorem round_one {y : ℝ} (h : 1 / 2 < y) (h' : y < 3 / 2) : roundEven y = 1 := by
  unfold roundEven
  rcases lt_or_ge y 1 with h1 | h1
  · have e : ⌊y⌋ = 0 := by rw [Int.floor_eq_iff]; constructor <;> push_cast <;> linarith
    rw [e, if_neg (by push_cast; linarith), if_pos (by push_cast; linarith)]; rfl
  · have e : ⌊y⌋ = 1 := by rw [Int.floor_eq_iff]; constructor <;> push_cast <;> linarith
    rw [e, if_pos (by push_cast; linarith)]

theorem round_three_halves : roundEven (3 / 2) = 2 := by
  have e : ⌊(3 / 2 : ℝ)⌋ = 1 := by rw [Int.floor_eq_iff]; norm_num
  unfold roundEven
  rw [e, if_neg (by norm_num), if_neg (by norm_num), if_neg (by decide)]; rfl

end ContProof

/-- C95: the damage by Jumelet et al. (2024) jumps with the number of waves, since the number of plunging waves is
rounded; whatever the other inputs are, as long as some waves are plunging -/
theorem C95_jumelet_damage_refuted {H T c ra rw D cp : ℝ} (M : PF) (hH : 0 < H) (hT : 0 < T) (hc : 0 < c) (hw : 0 < rw)
    (hr : rw < ra) (hD : 0 < D) (hcp : 0 < cp) (hF : 0 < Published.plungingPart (Textbook.iribarren H T c)) :
    Jumps fun N : {N : ℝ | 1 / 2 < Published.plungingPart (Textbook.iribarren H T c) * N} =>
      Jumelet2024.calculate_damage_number_S (fin H) (fin T) (fin N) (fin c) (fin ra) (fin D) M (fin cp) (fin rw) := by
  have hx := VdMProof.xi_pos hH hT hc
  have hDe : 0 < (ra - rw) / rw := div_pos (sub_pos.mpr hr) hw
  have eN : ∀ N, JumScaProof.Np H T N c = (roundEven (Published.plungingPart (Textbook.iribarren H T c) * N) : ℝ) := by
    intro N
    rw [RangeProof.irib_eq]; rfl
  have hp : ∀ N : {N : ℝ | 1 / 2 < Published.plungingPart (Textbook.iribarren H T c) * N},
      0 < JumScaProof.Np H T N c := by
    rintro ⟨N, hN⟩
    have hN' : 1 / 2 < Published.plungingPart (Textbook.iribarren H T c) * N := hN
    exact JumScaProof.np_pos hH hT hc ⟨_, VdMProof.xi_eval hH hT hc, by rw [RangeProof.irib_eq] at hN'; exact hN'⟩
  refine ⟨_, ?_, fun N => JumScaProof.jumS_eval M hH hT hc hw hr hD hcp (hp N)⟩
  simp only [eN]
  generalize Published.plungingPart (Textbook.iribarren H T c) = F at *
  have e32 : F * (3 / 2 / F) = 3 / 2 := by field_simp
  refine jump_on (a := 3 / 2 / F) (g := fun _ => (H / ((ra - rw) / rw * D) * VdMProof.xi H T c * (1 : ℝ) ^ (0.1 : ℝ) *
    (1.0 / cp)) ^ (5.0 : ℝ)) ?_ ?_ continuousAt_const (Set.Iio (3 / 2 / F)) ?_ ?_
  · show 1 / 2 < F * (3 / 2 / F)
    rw [e32]; norm_num
  · have : IsOpen {N : ℝ | 1 / 2 < F * N} := isOpen_lt continuous_const (by fun_prop)
    apply this.mem_nhds
    show 1 / 2 < F * (3 / 2 / F)
    rw [e32]; norm_num
  · intro y hy h
    have h' : y < 3 / 2 / F := h
    rw [lt_div_iff₀ hF] at h'
    have hy' : 1 / 2 < F * y := hy
    simp only
    rw [round_one hy' (by linarith)]
    norm_num
  · simp only
    rw [e32, round_three_halves]
    have h1 : (1 : ℝ) ^ (0.1 : ℝ) < (2 : ℝ) ^ (0.1 : ℝ) := by
      apply Real.rpow_lt_rpow <;> norm_num
    have : (((2 : ℤ) : ℝ)) = 2 := by norm_num
    rw [this]
    apply ne_of_gt
    apply Real.rpow_lt_rpow _ _ (by norm_num)
    · positivity
    · gcongr

/-- the hypotheses are satisfiable -/
example : ∃ H T c ra rw D cp : ℝ, 0 < H ∧ 0 < T ∧ 0 < c ∧ 0 < rw ∧ rw < ra ∧ 0 < D ∧ 0 < cp ∧
    0 < Published.plungingPart (Textbook.iribarren H T c) := by
  have hpi := Real.pi_pos
  refine ⟨9.81 / (2 * Real.pi), 1, 1, 2650, 1025, 1, 4, by positivity, by norm_num, by norm_num, by norm_num,
    by norm_num, by norm_num, by norm_num, ?_⟩
  have : Textbook.iribarren (9.81 / (2 * Real.pi)) 1 1 = 1 := by
    unfold Textbook.iribarren Textbook.steepness
    have : 9.81 / (2 * Real.pi) / (9.81 * 1 ^ 2 / (2 * Real.pi)) = 1 := by field_simp
    rw [this]; norm_num
  rw [this]
  unfold Published.plungingPart; norm_num
