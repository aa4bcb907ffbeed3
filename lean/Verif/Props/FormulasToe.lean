import Verif.SpecFormula
import Verif.Props.FormulasArmour
import Verif.Props.Toe
import Verif.Props.ToeEtemad
import Verif.Props.RearSlope
import Verif.Props.RearPozueta

/-! # Property C78, continued: toe berms and rear slopes -/

open Classical
open PF
open CorePhysics RangeProof FormulaProof
noncomputable section

/-! ## Gerding 1993 and Van der Meer 1998 -/

section
variable (ra rw : ℝ) (h : PF) (hw : 0 < rw) (hr : rw < ra)
include hw hr

/-- C78: damage of a toe by Gerding (1993) -/
theorem C78_gerding_damage (H D ht : ℝ) (hH : 0 < H) (hD : 0 < D) (hht : 0 < 0.24 * (ht / D) + 1.6) :
    Returns (Gerding1993.calculate_damage_Nod (fin H) (fin ht) h (fin D) (fin ra) (fin rw))
      fun Nod => Published.Gerding (Textbook.Ns H D ra rw) ht D Nod := by
  have hDe : 0 < (ra - rw) / rw := Delta_pos hw hr
  have e : GerdingProof.K D ht = (0.24 * (ht / D) + 1.6) * D := by
    unfold GerdingProof.K; field_simp; ring
  have hK : 0 < GerdingProof.K D ht := by rw [e]; positivity
  have hq : 0 < H / ((ra - rw) / rw * GerdingProof.K D ht) := by positivity
  refine ⟨_, by positivity, GerdingProof.Nod_eval h hw hr hH hD hK, ?_⟩
  unfold Published.Gerding Textbook.Ns Textbook.Delta
  beta_reduce
  rw [GerdingProof.pw1 hq, e]
  generalize (ra - rw) / rw = De at *
  generalize 0.24 * (ht / D) + 1.6 = k at *
  field_simp

example := C78_gerding_damage (ra := 2650) (rw := 1025) (h := .fin 8) (H := 2) (D := 1) (ht := 5)
  (by norm_num) (by norm_num) (by norm_num) (by norm_num) (by norm_num)

/-- C78: size by Gerding (1993), when a size exists at all -/
theorem C78_gerding_size (H N ht : ℝ) (hN : 0 < N) : ∃ D : ℝ,
    (Gerding1993.calculate_nominal_diameter_Dn50 (fin H) (fin ht) h (fin N) (fin ra) (fin rw)).res =
      .ok (fin D) ∧
    (0 < D → Published.Gerding (Textbook.Ns H D ra rw) ht D N) := by
  have hDe : 0 < (ra - rw) / rw := Delta_pos hw hr
  have hn : 0 < N ^ (0.15 : ℝ) := by positivity
  refine ⟨_, GerdingProof.Dn_eval h hw hr hN, fun hD => ?_⟩
  have e : ∀ D, D = (H / ((ra - rw) / rw) - N ^ (0.15 : ℝ) * 0.24 * ht) / (N ^ (0.15 : ℝ) * 1.6) →
      H / ((ra - rw) / rw) = N ^ (0.15 : ℝ) * (1.6 * D + 0.24 * ht) := by
    rintro D rfl; field_simp; ring
  generalize hE : (H / ((ra - rw) / rw) - N ^ (0.15 : ℝ) * 0.24 * ht) / (N ^ (0.15 : ℝ) * 1.6) = D at hD
  have := e D hE.symm
  unfold Published.Gerding Textbook.Ns Textbook.Delta
  rw [← div_div, this]
  field_simp
  ring

example := C78_gerding_size (ra := 2650) (rw := 1025) (h := .fin 8) (H := 2) (N := 0.5) (ht := 5)
  (by norm_num) (by norm_num) (by norm_num)

/-- C78: wave height by Gerding (1993) -/
theorem C78_gerding_height (D N ht : ℝ) (hD : 0 < D) (hN : 0 < N) (hht : 0 < 0.24 * (ht / D) + 1.6) :
    Returns (Gerding1993.calculate_wave_height_Hs (fin D) (fin ht) h (fin N) (fin ra) (fin rw))
      fun H => Published.Gerding (Textbook.Ns H D ra rw) ht D N := by
  have hDe : 0 < (ra - rw) / rw := Delta_pos hw hr
  have e : GerdingProof.K D ht = (0.24 * (ht / D) + 1.6) * D := by
    unfold GerdingProof.K; field_simp; ring
  have hK : 0 < GerdingProof.K D ht := by rw [e]; positivity
  refine ⟨_, by positivity, GerdingProof.Hs_eval h hw hr hD hN, ?_⟩
  unfold Published.Gerding Textbook.Ns Textbook.Delta
  rw [e]
  generalize (ra - rw) / rw = De at *
  field_simp

example := C78_gerding_height (ra := 2650) (rw := 1025) (h := .fin 8) (D := 1) (N := 0.5) (ht := 5)
  (by norm_num) (by norm_num) (by norm_num) (by norm_num) (by norm_num)

/-- C78: toe depth by Gerding (1993); it may be negative, when the toe is stable at any depth -/
theorem C78_gerding_depth (H D N : ℝ) (hD : 0 < D) (hN : 0 < N) : ∃ ht : ℝ,
    (Gerding1993.calculate_depth_above_toe_ht (fin H) (fin D) h (fin N) (fin ra) (fin rw)).res =
      .ok (fin ht) ∧ Published.Gerding (Textbook.Ns H D ra rw) ht D N := by
  have hDe : 0 < (ra - rw) / rw := Delta_pos hw hr
  have hn : 0 < N ^ (0.15 : ℝ) := by positivity
  refine ⟨_, GerdingProof.ht_eval h hw hr hD hN, ?_⟩
  unfold Published.Gerding Textbook.Ns Textbook.Delta
  generalize (ra - rw) / rw = De at *
  generalize N ^ (0.15 : ℝ) = n at *
  field_simp
  ring

example := C78_gerding_depth (ra := 2650) (rw := 1025) (h := .fin 8) (H := 2) (D := 1) (N := 0.5)
  (by norm_num) (by norm_num) (by norm_num) (by norm_num)

/-- C78: damage, size and wave height of a toe by Van der Meer (1998) -/
theorem C78_vdm1998_damage (H D ht h : ℝ) (hH : 0 < H) (hD : 0 < D) (hh : 0 < h) (hht : 0 < ht) :
    Returns (VanDerMeer1998.calculate_damage_Nod (fin H) (fin ht) (fin h) (fin D) (fin ra) (fin rw))
      fun Nod => Published.VanDerMeerToe (Textbook.Ns H D ra rw) ht h Nod := by
  have hDe : 0 < (ra - rw) / rw := Delta_pos hw hr
  have hq := VdM98Proof.q_pos hh hht
  have hp : 0 < H / ((ra - rw) / rw * D) / VdM98Proof.q ht h := by positivity
  refine ⟨_, by positivity, VdM98Proof.Nod_eval hw hr hH hD hh hht, ?_⟩
  unfold Published.VanDerMeerToe Textbook.Ns Textbook.Delta
  beta_reduce
  rw [GerdingProof.pw1 hp]
  have : 6.2 * (ht / h) ^ (2.7 : ℝ) + 2 = VdM98Proof.q ht h := by unfold VdM98Proof.q; ring
  rw [this]
  field_simp

example := C78_vdm1998_damage (ra := 2650) (rw := 1025) (H := 2) (D := 1) (ht := 5) (h := 8) (by norm_num)
  (by norm_num) (by norm_num) (by norm_num) (by norm_num) (by norm_num)

@[inherit_doc C78_vdm1998_damage]
theorem C78_vdm1998_size (H N ht h : ℝ) (hH : 0 < H) (hN : 0 < N) (hh : 0 < h) (hht : 0 < ht) :
    Returns (VanDerMeer1998.calculate_nominal_diameter_Dn50 (fin H) (fin ht) (fin h) (fin N) (fin ra)
      (fin rw))
      fun D => Published.VanDerMeerToe (Textbook.Ns H D ra rw) ht h N := by
  have hDe : 0 < (ra - rw) / rw := Delta_pos hw hr
  have hq := VdM98Proof.q_pos hh hht
  refine ⟨_, by positivity, VdM98Proof.Dn_eval hw hr hN hh hht, ?_⟩
  unfold Published.VanDerMeerToe Textbook.Ns Textbook.Delta
  have : 6.2 * (ht / h) ^ (2.7 : ℝ) + 2 = VdM98Proof.q ht h := by unfold VdM98Proof.q; ring
  rw [this]
  generalize (ra - rw) / rw = De at *
  field_simp

example := C78_vdm1998_size (ra := 2650) (rw := 1025) (H := 2) (N := 0.5) (ht := 5) (h := 8) (by norm_num)
  (by norm_num) (by norm_num) (by norm_num) (by norm_num) (by norm_num)

@[inherit_doc C78_vdm1998_damage]
theorem C78_vdm1998_height (D N ht h : ℝ) (hD : 0 < D) (hN : 0 < N) (hh : 0 < h) (hht : 0 < ht) :
    Returns (VanDerMeer1998.calculate_wave_height_Hs (fin D) (fin ht) (fin h) (fin N) (fin ra) (fin rw))
      fun H => Published.VanDerMeerToe (Textbook.Ns H D ra rw) ht h N := by
  have hDe : 0 < (ra - rw) / rw := Delta_pos hw hr
  have hq := VdM98Proof.q_pos hh hht
  refine ⟨_, by positivity, VdM98Proof.Hs_eval hw hr hN hh hht, ?_⟩
  unfold Published.VanDerMeerToe Textbook.Ns Textbook.Delta
  have : 6.2 * (ht / h) ^ (2.7 : ℝ) + 2 = VdM98Proof.q ht h := by unfold VdM98Proof.q; ring
  rw [this]
  generalize (ra - rw) / rw = De at *
  field_simp

example := C78_vdm1998_height (ra := 2650) (rw := 1025) (D := 1) (N := 0.5) (ht := 5) (h := 8) (by norm_num)
  (by norm_num) (by norm_num) (by norm_num) (by norm_num) (by norm_num)

/-- C78: toe depth by Van der Meer (1998), whenever the stability number is above that of a toe at the
surface -/
theorem C78_vdm1998_depth (H D N h : ℝ) (hD : 0 < D) (hN : 0 < N) (hh : 0 < h)
    (hx : 2 * N ^ (0.15 : ℝ) < Textbook.Ns H D ra rw) :
    Returns (VanDerMeer1998.calculate_depth_above_toe_ht (fin H) (fin D) (fin h) (fin N) (fin ra)
      (fin rw))
      fun ht => Published.VanDerMeerToe (Textbook.Ns H D ra rw) ht h N := by
  have hDe : 0 < (ra - rw) / rw := Delta_pos hw hr
  have hn : 0 < N ^ (0.15 : ℝ) := by positivity
  have e : VdM98Proof.xs H ((ra - rw) / rw) D N =
      (Textbook.Ns H D ra rw / N ^ (0.15 : ℝ) - 2) / 6.2 := by
    unfold VdM98Proof.xs Textbook.Ns Textbook.Delta
    rw [Real.rpow_neg hN.le]
    congr 2
    generalize (ra - rw) / rw = De at *
    field_simp
  have hp : 0 < VdM98Proof.xs H ((ra - rw) / rw) D N := by
    rw [e]
    have : 2 < Textbook.Ns H D ra rw / N ^ (0.15 : ℝ) := by rwa [lt_div_iff₀ hn]
    have := sub_pos.mpr this
    positivity
  refine ⟨VdM98Proof.xs H ((ra - rw) / rw) D N ^ (1 / 2.7 : ℝ) * h, by positivity, ?_, ?_⟩
  · rw [VdM98Proof.ht_eval hw hr hD hN hh, if_pos hp]
  · unfold Published.VanDerMeerToe
    beta_reduce
    rw [mul_div_cancel_right₀ _ hh.ne', ← Real.rpow_mul hp.le]
    have : (1 / 2.7 * 2.7 : ℝ) = 1 := by norm_num
    rw [this, Real.rpow_one, e]
    field_simp
    ring

end

/-- the hypotheses are satisfiable -/
example : ∃ ra rw H D ht h N : ℝ, 0 < rw ∧ rw < ra ∧ 0 < H ∧ 0 < D ∧ 0 < ht ∧ 0 < h ∧ 0 < N ∧
    0 < 0.24 * (ht / D) + 1.6 ∧ 2 * N ^ (0.15 : ℝ) < Textbook.Ns H D ra rw := by
  refine ⟨2000, 1000, 5, 1, 4, 8, 1, by norm_num, by norm_num, by norm_num, by norm_num, by norm_num,
    by norm_num, by norm_num, by norm_num, ?_⟩
  unfold Textbook.Ns Textbook.Delta
  rw [Real.one_rpow]; norm_num

/-! ## Van Gent & Van der Werf 2014 -/

section
variable (H T ht B t g ra rw : ℝ) (cot : PF) (hH : 0 < H) (hT : 0 < T) (hht : 0 < ht) (hB : 0 < B)
  (ht' : 0 < t) (hg : 0 < g) (hw : 0 < rw) (hr : rw < ra)
include hH hT hht hB ht' hg hw hr

omit hH hht hB ht' hw hr in
theorem FormulaProof.vel_eq : VGWProof.U H T ht g = Published.toeVelocity H T ht g / √(g * H) := by
  have := Real.pi_pos
  unfold VGWProof.U Published.toeVelocity Published.deepWavelength
  have e : ∀ a b : ℝ, a = b → Real.pi * H / T * (1 / Real.sinh a) / √(g * H) =
      Real.pi * H / T * (1 / Real.sinh b) / √(g * H) := by rintro a b rfl; rfl
  apply e
  field_simp

/-- C78: damage of a toe by Van Gent & Van der Werf (2014) -/
theorem C78_vangent_toe_damage (D c1 : ℝ) (hD : 0 < D) (hc1 : 0 < c1) :
    Returns (VanGentVanDerWerf2014.calculate_damage_Nod (fin H) (fin T) (fin ht) (fin B) (fin t) (fin D)
      (fin ra) (fin rw) cot (g := fin g) (c1 := fin c1))
      fun Nod => Published.VanGentToe c1 (Textbook.Ns H D ra rw) B t H
        (Published.toeVelocity H T ht g) g Nod := by
  have hDe : 0 < (ra - rw) / rw := Delta_pos hw hr
  have hU := VGWProof.U_pos hH hT hht hg
  refine ⟨_, by positivity, VGWProof.Nod_eval hH hT hht hg hw hr cot hB ht' hD, ?_⟩
  unfold Published.VanGentToe Textbook.Ns Textbook.Delta
  rw [← vel_eq H T ht g hT hg, VGWProof.pow10, VGWProof.pow10, VGWProof.pow30]
  ring

example := C78_vangent_toe_damage (H := 2) (T := 8) (ht := 5) (B := 4) (t := 1) (g := 9.81) (ra := 2650)
  (rw := 1025) (cot := .fin 1.5) (D := 1) (c1 := 1.5) (by norm_num) (by norm_num) (by norm_num)
  (by norm_num) (by norm_num) (by norm_num) (by norm_num) (by norm_num) (by norm_num) (by norm_num)

/-- C78: size by Van Gent & Van der Werf (2014): the published 0.32 is the cube root of 0.032768, not
of the published 0.032 -/
theorem C78_vangent_toe_size (N : ℝ) (hN : 0 < N) :
    Returns (VanGentVanDerWerf2014.calculate_nominal_diameter_Dn50 (fin H) (fin T) (fin ht) (fin B)
      (fin t) (fin N) (fin ra) (fin rw) cot (g := fin g))
      fun D => Published.VanGentToe 0.032768 (Textbook.Ns H D ra rw) B t H
        (Published.toeVelocity H T ht g) g N := by
  have hDe : 0 < (ra - rw) / rw := Delta_pos hw hr
  have hU := VGWProof.U_pos hH hT hht hg
  refine ⟨_, by positivity, VGWProof.Dn_eval hH hT hht hg hw hr cot hB ht' hN, ?_⟩
  unfold Published.VanGentToe Textbook.Ns Textbook.Delta
  rw [← vel_eq H T ht g hT hg, VGWProof.pow03 (by positivity)]
  have hb : 0 < B / H := by positivity
  have htt : 0 < t / H := by positivity
  have h1 := rpow_third_cube hU.le
  have h2 := rpow_third_cube htt.le
  have h3 := rpow_third_cube hN.le
  have p1 : 0 < VGWProof.U H T ht g ^ ((1 : ℝ) / 3) := by positivity
  have p2 : 0 < (t / H) ^ ((1 : ℝ) / 3) := by positivity
  have p3 : 0 < N ^ ((1 : ℝ) / 3) := by positivity
  have p4 : 0 < (B / H) ^ (0.1 : ℝ) := by positivity
  beta_reduce
  generalize (ra - rw) / rw = De at *
  generalize VGWProof.U H T ht g = U at *
  generalize t / H = τ at *
  generalize (B / H) ^ (0.1 : ℝ) = b at *
  generalize U ^ ((1 : ℝ) / 3) = u at *
  generalize τ ^ ((1 : ℝ) / 3) = v at *
  generalize N ^ ((1 : ℝ) / 3) = n at *
  rw [← h1, ← h2, ← h3]
  field_simp
  norm_num

example := C78_vangent_toe_size (H := 2) (T := 8) (ht := 5) (B := 4) (t := 1) (g := 9.81) (ra := 2650)
  (rw := 1025) (cot := .fin 1.5) (N := 0.5) (by norm_num) (by norm_num) (by norm_num) (by norm_num)
  (by norm_num) (by norm_num) (by norm_num) (by norm_num) (by norm_num)

end

/-- C78: 0.032 is the default -/
theorem C78_vangent_toe_default (H T ht B t ra D : ℝ) (hH : 0 < H) (hT : 0 < T) (hht : 0 < ht)
    (hB : 0 < B) (ht' : 0 < t) (hr : 1025 < ra) (hD : 0 < D) :
    Returns (VanGentVanDerWerf2014.calculate_damage_Nod (fin H) (fin T) (fin ht) (fin B) (fin t) (fin D)
      (fin ra) (fin 1025) nan)
      fun Nod => Published.VanGentToe 0.032 (Textbook.Ns H D ra 1025) B t H
        (Published.toeVelocity H T ht 9.81) 9.81 Nod :=
  C78_vangent_toe_damage H T ht B t 9.81 ra 1025 nan hH hT hht hB ht' (by norm_num) (by norm_num) hr D
    0.032 hD (by norm_num)

example := C78_vangent_toe_default (H := 2) (T := 8) (ht := 5) (B := 4) (t := 1) (ra := 2650) (D := 1)
  (by norm_num) (by norm_num) (by norm_num) (by norm_num) (by norm_num) (by norm_num) (by norm_num)

/-! ## Etemad-Shahidi et al. 2021 -/

section
variable (H T h ht B m ra rw g c1 c2 c3 c4 c5 c6 c7 : ℝ)
  (hH : 0 < H) (hT : 0 < T) (hh : 0 < h) (hht : 0 < ht) (hB : 0 < B) (hg : 0 < g)
  (hw : 0 < rw) (hr : rw < ra) (hc2 : 0 < c2) (hc5 : c5 ≠ 0) (hm : 0 < 1 - c7 * m)
include hH hT hh hht hB hg hw hr hc2 hc5 hm

/-- C78: damage of a toe by Etemad-Shahidi et al. (2021), above the stability number without damage -/
theorem C78_etemad_toe_damage (D : ℝ) (hD : 0 < D) (hd : c1 < Textbook.Ns H D ra rw) :
    Returns (EtemadShahidi2021.calculate_damage_Nod (fin H) (fin T) (fin h) (fin ht) (fin B) (fin m)
      (fin D) (fin ra) (fin rw) (fin g) (fin c1) (fin c2) (fin c3) (fin c4) (fin c5) (fin c6) (fin c7))
      fun Nod => Published.EtemadToe c1 c2 c3 c4 c5 c6 c7 (Textbook.Ns H D ra rw) ht h
        (2 * Real.pi * H / (g * T ^ 2)) Nod B H m := by
  have hDe : 0 < (ra - rw) / rw := Delta_pos hw hr
  have hs := Et21Proof.s_pos hH hT hg
  have hS : 0 < Et21Proof.S c2 c3 c4 c7 ht h (2 * Real.pi * H / (g * T ^ 2)) m := by
    unfold Et21Proof.S; positivity
  have hb : 0 < (B / H) ^ c6 := by positivity
  have hX : 0 < (H / ((ra - rw) / rw * D) - c1) /
      (Et21Proof.S c2 c3 c4 c7 ht h (2 * Real.pi * H / (g * T ^ 2)) m * (B / H) ^ c6) :=
    div_pos (sub_pos.mpr hd) (by positivity)
  refine ⟨_, Real.rpow_pos_of_pos hX (1 / c5), ?_, ?_⟩
  · rw [Et21Proof.Nod_eval hH hT hh hht hB hg hw hr hc2 hc5 hm hD, npow_fin hX]
  · unfold Published.EtemadToe Textbook.Ns Textbook.Delta
    beta_reduce
    rw [← Real.rpow_mul hX.le, one_div_mul_cancel hc5, Real.rpow_one]
    have e : ∀ X, c1 + c2 * (ht / h) ^ c3 * (2 * Real.pi * H / (g * T ^ 2)) ^ c4 * X * (B / H) ^ c6 *
        (1 - c7 * m) = c1 + Et21Proof.S c2 c3 c4 c7 ht h (2 * Real.pi * H / (g * T ^ 2)) m *
          (B / H) ^ c6 * X := by
      intro X; unfold Et21Proof.S; ring
    rw [e, mul_div_cancel₀ _ (by positivity)]
    ring

/-- C78: size by Etemad-Shahidi et al. (2021) -/
theorem C78_etemad_toe_size (N : ℝ) (hN : 0 < N) (hc1 : 0 ≤ c1) :
    Returns (EtemadShahidi2021.calculate_nominal_diameter_Dn50 (fin H) (fin T) (fin h) (fin ht) (fin B)
      (fin N) (fin m) (fin ra) (fin rw) (fin g) (fin c1) (fin c2) (fin c3) (fin c4) (fin c5) (fin c6)
      (fin c7))
      fun D => Published.EtemadToe c1 c2 c3 c4 c5 c6 c7 (Textbook.Ns H D ra rw) ht h
        (2 * Real.pi * H / (g * T ^ 2)) N B H m := by
  have hDe : 0 < (ra - rw) / rw := Delta_pos hw hr
  have hs := Et21Proof.s_pos hH hT hg
  have hS : 0 < Et21Proof.S c2 c3 c4 c7 ht h (2 * Real.pi * H / (g * T ^ 2)) m := by
    unfold Et21Proof.S; positivity
  have hb : 0 < (B / H) ^ c6 := by positivity
  have hn : 0 < N ^ c5 := by positivity
  have hp : 0 < c1 + Et21Proof.S c2 c3 c4 c7 ht h (2 * Real.pi * H / (g * T ^ 2)) m * (B / H) ^ c6 *
      N ^ c5 := by positivity
  refine ⟨_, ?_, Et21Proof.Dn_eval hH hT hh hht hB hg hw hr hc2 hc5 hm hN hp, ?_⟩
  · positivity
  · have e : c1 + c2 * (ht / h) ^ c3 * (2 * Real.pi * H / (g * T ^ 2)) ^ c4 * N ^ c5 * (B / H) ^ c6 *
        (1 - c7 * m) = c1 + Et21Proof.S c2 c3 c4 c7 ht h (2 * Real.pi * H / (g * T ^ 2)) m *
          (B / H) ^ c6 * N ^ c5 := by
      unfold Et21Proof.S; ring
    unfold Published.EtemadToe Textbook.Ns Textbook.Delta
    rw [e]
    generalize c1 + Et21Proof.S c2 c3 c4 c7 ht h (2 * Real.pi * H / (g * T ^ 2)) m * (B / H) ^ c6 *
      N ^ c5 = Y at *
    generalize (ra - rw) / rw = De at *
    field_simp

example := C78_etemad_toe_size (H := 2) (T := 8) (h := 8) (ht := 5) (B := 4) (m := 0.02) (ra := 2650)
  (rw := 1025) (g := 9.81) (c1 := 1.5) (c2 := 0.2) (c3 := 0.3) (c4 := 0.3) (c5 := 1) (c6 := 0.7) (c7 := 0.6)
  (N := 0.5) (by norm_num) (by norm_num) (by norm_num) (by norm_num) (by norm_num) (by norm_num)
  (by norm_num) (by norm_num) (by norm_num) (by norm_num) (by norm_num) (by norm_num) (by norm_num)

end

/-- C78: the published coefficients are the defaults -/
theorem C78_etemad_toe_default (H T h ht B m ra N : ℝ) (hH : 0 < H) (hT : 0 < T) (hh : 0 < h)
    (hht : 0 < ht) (hB : 0 < B) (hr : 1025 < ra) (hm : 3.7 * m < 1) (hN : 0 < N) :
    Returns (EtemadShahidi2021.calculate_nominal_diameter_Dn50 (fin H) (fin T) (fin h) (fin ht) (fin B)
      (fin N) (fin m) (fin ra))
      fun D => Published.EtemadToe 1.2 11.2 (7 / 4) (1 / 6) (2 / 5) (-1 / 10) 3.7
        (Textbook.Ns H D ra 1025) ht h (Textbook.steepness H T) N B H m := by
  have h := C78_etemad_toe_size H T h ht B m ra 1025 9.81 1.2 11.2 (7 / 4) (1 / 6) (2 / 5) (-1 / 10) 3.7
    hH hT hh hht hB (by norm_num) (by norm_num) hr (by norm_num) (by norm_num) (by linarith) N hN
    (by norm_num)
  have e1 : (7.0 / 4.0 : PF) = fin (7 / 4) := by pf_eval []; norm_num
  have e2 : (1.0 / 6.0 : PF) = fin (1 / 6) := by pf_eval []; norm_num
  have e3 : (2.0 / 5.0 : PF) = fin (2 / 5) := by pf_eval []; norm_num
  have e4 : (-1.0 / 10.0 : PF) = fin (-1 / 10) := by pf_eval []; norm_num
  have es : Textbook.steepness H T = 2 * Real.pi * H / (9.81 * T ^ 2) := by
    have := Real.pi_pos
    unfold Textbook.steepness; field_simp
  rw [es, e1, e2, e3, e4, water]
  exact h

/-- the hypotheses are satisfiable, with damage -/
example : ∃ H T h ht B t m ra rw g c1 c2 c5 c7 D N : ℝ, 0 < H ∧ 0 < T ∧ 0 < h ∧ 0 < ht ∧ 0 < B ∧ 0 < t ∧
    0 < g ∧ 0 < rw ∧ rw < ra ∧ 1025 < ra ∧ 0 ≤ c1 ∧ 0 < c1 ∧ 0 < c2 ∧ c5 ≠ 0 ∧ 0 < 1 - c7 * m ∧
    3.7 * m < 1 ∧ 0 < D ∧ 0 < N ∧ c1 < Textbook.Ns H D ra rw := by
  refine ⟨5, 8, 8, 4, 3, 1, 0.02, 2000, 1000, 9.81, 1.2, 11.2, 0.4, 3.7, 1, 2, ?_⟩
  unfold Textbook.Ns Textbook.Delta
  norm_num

/-! ## Rear slopes -/

/-- C78: run-up levels by Van Gent (2001) -/
theorem C78_vangent_runup (H T c f c0 c1 : ℝ) (hH : 0 < H) (hT : 0 < T) (hc : 0 < c) (hf : 0 < f)
    (h0 : 0 < c0) (h1 : 0 < c1) :
    Returns (pure (VanGent2001.calculate_wave_runup_height_zXp (fin H) (fin T) (fin f) (fin c) (fin c0)
      (fin c1)))
      fun z => Published.VanGentRunup c0 c1 (Textbook.iribarren H T c) f H z := by
  have hx := VdMProof.xi_pos hH hT hc
  refine ⟨_, ?_, congrArg Except.ok (RunupProof.zX_eval hT hc h0 h1 hH), ?_⟩
  · have := RunupProof.rf_pos h0 h1 hx
    positivity
  · rw [irib_eq]
    unfold Published.VanGentRunup
    beta_reduce
    have e : RunupProof.rf c0 c1 (VdMProof.xi H T c) * f * H / (f * H) =
        RunupProof.rf c0 c1 (VdMProof.xi H T c) := by field_simp
    rw [e, RunupProof.rf_eq]
    generalize VdMProof.xi H T c = x at *
    constructor
    · intro h
      split_ifs with h2
      · rfl
      · obtain rfl : x = c1 / (2 * c0) := le_antisymm h (not_lt.mp h2)
        field_simp
        ring
    · intro h
      rw [if_neg (not_lt.mpr h), div_div]

example := C78_vangent_runup (H := 2) (T := 8) (c := 2) (f := 1) (c0 := 1.5) (c1 := 1.5) (by norm_num)
  (by norm_num) (by norm_num) (by norm_num) (by norm_num) (by norm_num)

/-- C78: the published coefficients of the levels exceeded by 1, 2 and 10 % of the waves -/
theorem C78_vangent_runup_defaults (H T c f : ℝ) (hH : 0 < H) (hT : 0 < T) (hc : 0 < c) (hf : 0 < f) :
    Returns (pure (VanGent2001.calculate_wave_runup_height_z1p (fin H) (fin T) (fin f) (fin c)))
      (fun z => Published.VanGentRunup 1.45 5.1 (Textbook.iribarren H T c) f H z) ∧
    Returns (VanGent2001.calculate_wave_runup_height_z2p (fin T) (fin f) (fin c) (Hs := fin H))
      (fun z => Published.VanGentRunup 1.35 4.7 (Textbook.iribarren H T c) f H z) ∧
    Returns (VanGent2001.calculate_wave_runup_height_z2p (fin T) (fin f) (fin c) (Hm0 := fin H))
      (fun z => Published.VanGentRunup 1.45 3.8 (Textbook.iribarren H T c) f H z) ∧
    Returns (pure (VanGent2001.calculate_wave_runup_height_z10p (fin H) (fin T) (fin f) (fin c)))
      (fun z => Published.VanGentRunup 1.1 4.0 (Textbook.iribarren H T c) f H z) := by
  refine ⟨C78_vangent_runup H T c f 1.45 5.1 hH hT hc hf (by norm_num) (by norm_num), ?_, ?_,
    C78_vangent_runup H T c f 1.1 4.0 hH hT hc hf (by norm_num) (by norm_num)⟩
  · have := C78_vangent_runup H T c f 1.35 4.7 hH hT hc hf (by norm_num) (by norm_num)
    unfold VanGent2001.calculate_wave_runup_height_z2p
    simpa [sci_eq] using this
  · have := C78_vangent_runup H T c f 1.45 3.8 hH hT hc hf (by norm_num) (by norm_num)
    unfold VanGent2001.calculate_wave_runup_height_z2p
    simpa [sci_eq] using this

example := C78_vangent_runup_defaults (H := 2) (T := 8) (c := 2) (f := 1) (by norm_num) (by norm_num)
  (by norm_num) (by norm_num)

section
variable (ca cp f H T Rc Rf Rr N : ℝ) (M rho : PF) (hca : 0 < ca) (hcp : 0 < cp) (hf : 0 < f) (hH : 0 < H)
  (hT : 0 < T) (hRc : 0 < Rc) (hRf : 0 ≤ Rf) (hRr : 0 ≤ Rr) (hR : Rr < Rc) (hN : 0 < N)
include hca hcp hf hH hT hRc hRf hRr hR hN

/-- C78: damage to the rear slope by Van Gent (2007), when the run-up exceeds the crest -/
theorem C78_rear2007_damage (D : ℝ) (hD : 0 < D) : ∃ z : ℝ,
    Published.VanGentRunup 1.45 5.1 (Textbook.iribarren H T ca) f H z ∧
    (Rc < z → Returns (VanGent2007Rear.calculate_damage_number_S (fin ca) (fin cp) (fin f) (fin H) (fin T)
      (fin Rc) (fin Rf) (fin Rr) (fin N) (fin D) M rho)
      fun S => Published.VanGentRear 0.00025 S N cp z Rc Rf Rr H D) := by
  obtain ⟨z, -, e, h⟩ := (C78_vangent_runup_defaults H T ca f hH hT hca hf).1
  refine ⟨z, h, fun hz => ?_⟩
  have hE := RearProof.E_pos hRc hRr hR
  have hG : 0 < 1 + Rf / H := by positivity
  have hn := Real.sqrt_pos.mpr hN
  have hw := sub_pos.mpr hz
  refine ⟨_, RearProof.S07_pos (by norm_num) hcp hw hRc hE hG hn hD,
    RearProof.S07_eval M rho hcp hH hRc hRf hRr hR hN hD (by simpa using e), ?_⟩
  unfold Published.VanGentRear RearProof.S07
  beta_reduce
  rw [mul_div_cancel_right₀ _ hn.ne', Real.rpow_neg_one, ← div_eq_mul_inv, Real.sqrt_eq_rpow]
  norm_num

example := C78_rear2007_damage (ca := 3) (cp := 1) (f := 1) (H := 2) (T := 8) (Rc := 3) (Rf := 1) (Rr := 1)
  (N := 3000) (M := .fin 5000) (rho := .fin 2650) (D := 1) (by norm_num) (by norm_num) (by norm_num)
  (by norm_num) (by norm_num) (by norm_num) (by norm_num) (by norm_num) (by norm_num) (by norm_num)
  (by norm_num)

/-- C78: size of the rear slope by Van Gent (2007). Missing: the published constant 0.00025; the constant
that belongs to the published 0.036 is 1.7 % smaller -/
theorem C78_rear2007_size_partial (S : ℝ) (hS : 0 < S) : ∃ z k : ℝ, 0.00025 / 1.017 < k ∧
    k < 0.00025 / 1.016 ∧
    Published.VanGentRunup 1.45 5.1 (Textbook.iribarren H T ca) f H z ∧
    (Rc < z → Returns (VanGent2007Rear.calculate_nominal_rock_diameter_Dn50 (fin ca) (fin cp) (fin f)
      (fin S) (fin H) (fin T) (fin Rc) (fin Rf) (fin Rr) (fin N))
      fun D => Published.VanGentRear k S N cp z Rc Rf Rr H D) := by
  obtain ⟨z, -, e, h⟩ := (C78_vangent_runup_defaults H T ca f hH hT hca hf).1
  have hp : 0 < (0.036 : ℝ) ^ (-2.5 : ℝ) := by positivity
  obtain ⟨b1, b2⟩ := RearProof.k07_bounds
  have hki : (0.036 : ℝ) ^ (2.5 : ℝ) = 0.00025 / (0.00025 * 0.036 ^ (-2.5 : ℝ)) := by
    rw [Real.rpow_neg (by norm_num)]; field_simp
  refine ⟨z, 0.036 ^ (2.5 : ℝ), ?_, ?_, h, fun hz => ?_⟩
  · rw [hki]; gcongr
  · rw [hki]; gcongr
  have hE := RearProof.E_pos hRc hRr hR
  have hG : 0 < 1 + Rf / H := by positivity
  have hn := Real.sqrt_pos.mpr hN
  have hw := sub_pos.mpr hz
  refine ⟨_, RearProof.D07_pos (by norm_num) hcp hw hRc hE hG hn hS,
    RearProof.D07_eval hcp hH hRc hRf hRr hR hN hS (by simpa using e) hz, ?_⟩
  unfold Published.VanGentRear RearProof.D07
  beta_reduce
  rw [Real.sqrt_eq_rpow (_ / _)]
  generalize 1 + 5 * Rr / (Rc - Rr) = E at *
  generalize 1 + Rf / H = G at *
  generalize √N = n at *
  generalize z - Rc = w at *
  obtain ⟨k, hk⟩ := exists_exp (by norm_num : (0 : ℝ) < 0.036)
  rw [hk]
  clear hki b1 b2 hp h e hz hR hRr hRf
  obtain ⟨a, rfl⟩ := exists_exp hcp
  obtain ⟨w, rfl⟩ := exists_exp hw
  obtain ⟨R, rfl⟩ := exists_exp hRc
  obtain ⟨E, rfl⟩ := exists_exp hE
  obtain ⟨G, rfl⟩ := exists_exp hG
  obtain ⟨n, rfl⟩ := exists_exp hn
  obtain ⟨S, rfl⟩ := exists_exp hS
  exp_norm
  push_cast
  ring

example := C78_rear2007_size_partial (ca := 3) (cp := 1) (f := 1) (H := 2) (T := 8) (Rc := 3) (Rf := 1)
  (Rr := 1) (N := 3000) (S := 2) (by norm_num) (by norm_num) (by norm_num) (by norm_num) (by norm_num)
  (by norm_num) (by norm_num) (by norm_num) (by norm_num) (by norm_num) (by norm_num)

end

section
variable (ca cp gf gc H T Rc Rr B N rr rw : ℝ) (M : PF) (hca : 0 < ca) (hcp : 0 < cp) (hgf : 0 < gf)
  (hgc : 0 < gc) (hH : 0 < H) (hT : 0 < T) (hB : 0 ≤ B) (hN : 0 < N) (hw : 0 < rw) (hr : rw < rr)
include hca hcp hgf hgc hH hT hB hN hw hr

omit hca hcp hT hN hw hr in
theorem FormulaProof.crest_eq {z : ℝ} (hz : Rc < z) :
    RearProof.uX H Rc B gf gc z = Published.crestVelocity z Rc B H gf gc 9.81 := by
  have h1 := sub_pos.mpr hz
  unfold RearProof.uX Published.crestVelocity
  have e : √(9.81 * H) * 1.7 * √gc * √((z - Rc) / (gf * H)) = 1.7 * √(9.81 * gc) * √((z - Rc) / gf) := by
    rw [← div_div, Real.sqrt_div (by positivity), Real.sqrt_mul (by norm_num), Real.sqrt_mul (by norm_num)]
    have := Real.sqrt_pos.mpr hH
    field_simp
  rw [e, mul_div_assoc 0.1]

/-- C78: size of the rear slope by Van Gent & Pozueta (2004), when the run-up exceeds the crest, with the
default damage coefficient -/
theorem C78_pozueta_size (S : ℝ) (hS : 0 < S) : ∃ z : ℝ,
    Published.VanGentRunup 1.45 5.1 (Textbook.iribarren H T ca) gf H z ∧
    (Rc < z → Returns (VanGentPozueta2004.calculate_nominal_rock_diameter_Dn50 (fin ca) (fin cp) (fin gf)
      (fin gc) (fin S) (fin H) (fin T) (fin Rc) (fin Rr) (fin B) (fin rr) (fin N) (fin rw))
      fun D => Published.VanGentPozueta 0.008 S N cp (Published.crestVelocity z Rc B H gf gc 9.81) T
        (Textbook.Delta rr rw) Rr H D) := by
  obtain ⟨z, -, e, h⟩ := (C78_vangent_runup_defaults H T ca gf hH hT hca hgf).1
  refine ⟨z, h, fun hz => ?_⟩
  have hX : 0 < 1 + 10 * Real.exp (-Rr / H) := by positivity
  have hn := Real.sqrt_pos.mpr hN
  have hu := RearProof.uX_pos hgf hgc hH hB hz
  have hd : 0 < √((rr - rw) / rw) := Real.sqrt_pos.mpr (Delta_pos hw hr)
  have hcs : 0 < (0.008 : ℝ) ^ (6.0 : ℝ) := by positivity
  have e8 : npow (0.008 : PF) 6.0 = fin ((0.008 : ℝ) ^ (6.0 : ℝ)) := by pf_eval []
  rw [e8]
  refine ⟨_, RearProof.D04_pos hcs hT hd hcp hX hn hu hS,
    RearProof.D04_eval hcp hgf hgc hH hT hB hN hw hr hcs hS (by simpa using e) hz, ?_⟩
  rw [← crest_eq gf gc H Rc B hgf hgc hH hB hz]
  unfold Published.VanGentPozueta RearProof.D04 Textbook.Delta
  rw [← Real.rpow_mul (by norm_num)]
  norm_num

example := C78_pozueta_size (ca := 3) (cp := 1) (gf := 0.5) (gc := 1) (H := 2) (T := 8) (Rc := 3) (Rr := 1)
  (B := 4) (N := 3000) (rr := 2650) (rw := 1025) (S := 2) (by norm_num) (by norm_num) (by norm_num)
  (by norm_num) (by norm_num) (by norm_num) (by norm_num) (by norm_num) (by norm_num) (by norm_num)
  (by norm_num)

/-- C78: damage to the rear slope by Van Gent & Pozueta (2004) -/
theorem C78_pozueta_damage (D : ℝ) (hD : 0 < D) : ∃ z : ℝ,
    Published.VanGentRunup 1.45 5.1 (Textbook.iribarren H T ca) gf H z ∧
    (Rc < z → Returns (VanGentPozueta2004.calculate_damage_number_S (fin ca) (fin cp) (fin gf)
      (fin gc) (fin H) (fin T) (fin Rc) (fin Rr) (fin B) (fin N) (fin D) M (fin rr) (fin rw))
      fun S => Published.VanGentPozueta 0.008 S N cp (Published.crestVelocity z Rc B H gf gc 9.81) T
        (Textbook.Delta rr rw) Rr H D) := by
  obtain ⟨z, -, e, h⟩ := (C78_vangent_runup_defaults H T ca gf hH hT hca hgf).1
  have hcs : 0 < (0.008 : ℝ) ^ (6.0 : ℝ) := by positivity
  have e8 : npow (0.008 : PF) 6.0 = fin ((0.008 : ℝ) ^ (6.0 : ℝ)) := by pf_eval []
  refine ⟨z, h, fun hz => ?_⟩
  obtain ⟨S, hS, h1, h2⟩ := (C34_damage_size_inverse ca cp gf gc H T Rc Rr B N z rr rw _ M hcp hgf hgc hH
    hT hB hN hw hr hcs (by simpa using e) hz).1 D hD
  obtain ⟨z', hz', h3⟩ := C78_pozueta_size ca cp gf gc H T Rc Rr B N rr rw hca hcp hgf hgc hH hT hB hN hw
    hr S hS
  have hzz : z' = z := by
    have hfH : gf * H ≠ 0 := by positivity
    rcases le_total (Textbook.iribarren H T ca) (5.1 / (2 * 1.45)) with hx | hx
    · have := (hz'.1 hx).trans (h.1 hx).symm
      field_simp at this; exact this
    · have := (hz'.2 hx).trans (h.2 hx).symm
      field_simp at this; exact this
  subst hzz
  obtain ⟨D', -, h4, h5⟩ := h3 hz
  rw [e8] at h4 ⊢
  obtain rfl : D = D' := by rw [h2] at h4; simpa using h4
  exact ⟨S, hS, h1, h5⟩

end

/-- the hypotheses are satisfiable -/
example : ∃ ca cp f H T Rc Rf Rr N D S B rr rw : ℝ, 0 < ca ∧ 0 < cp ∧ 0 < f ∧ 0 < H ∧ 0 < T ∧ 0 < Rc ∧
    0 ≤ Rf ∧ 0 ≤ Rr ∧ Rr < Rc ∧ 0 < N ∧ 0 < D ∧ 0 < S ∧ 0 ≤ B ∧ 0 < rw ∧ rw < rr :=
  ⟨2, 2, 0.5, 4, 10, 2, 0.5, 0.5, 3000, 0.7, 4, 3, 2650, 1025, by norm_num⟩

end
