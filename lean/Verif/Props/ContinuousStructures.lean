import Verif.Props.ContinuousRock
import Verif.Props.FormulasToe
import Verif.Props.FormulasStructures

/-! # C95: toes, run-up, rear slopes and crest walls, small changes of the inputs -/

open Classical
open PF ContProof
noncomputable section

/-! ## toes -/

section
variable {X : Type} [TopologicalSpace X] {H ht h N D ra rw : X → ℝ} (hd : X → PF) (kht : PositiveInput ht)
  (kw : PositiveInput rw) (ka : Continuous ra) (hr : ∀ x, rw x < ra x)
include kht kw ka hr

/-- C95: damage by Gerding (1993) -/
theorem C95_gerding_damage (kH : PositiveInput H) (kD : PositiveInput D) :
    VariesContinuously fun x => Gerding1993.calculate_damage_Nod (fin (H x)) (fin (ht x)) (hd x) (fin (D x))
      (fin (ra x)) (fin (rw x)) := by
  refine of _ (fun x => GerdingProof.Nod_eval (hd x) (kw.2 x) (hr x) (kH.2 x) (kD.2 x) ?_) fun x => ?_
  · inputs [kH, kD, kht] x
    unfold GerdingProof.K; positivity
  · inputs [kH, kD, kht, kw] x
    have := sub_pos.mpr (hr x)
    unfold GerdingProof.K
    cont

example := C95_gerding_damage (fun _ => nan) (const_input (a := 5) (by norm_num)) (const_input (a := 1025) (by
  norm_num)) continuous_const (fun _ => by norm_num : ∀ _ : Set.Ioi (0 : ℝ), (1025 : ℝ) < 2650) id_input
  (const_input (a := 1) (by norm_num))

/-- C95: rock size by Gerding (1993), also where it is not positive -/
theorem C95_gerding_size (kH : Continuous H) (kN : PositiveInput N) :
    VariesContinuously fun x => Gerding1993.calculate_nominal_diameter_Dn50 (fin (H x)) (fin (ht x)) (hd x)
      (fin (N x)) (fin (ra x)) (fin (rw x)) := by
  refine of _ (fun x => GerdingProof.Dn_eval (hd x) (kw.2 x) (hr x) (kN.2 x)) fun x => ?_
  inputs [kN, kht, kw] x
  have := sub_pos.mpr (hr x)
  cont

example := C95_gerding_size (fun _ => nan) (const_input (a := 5) (by norm_num)) (const_input (a := 1025) (by
  norm_num)) continuous_const (fun _ => by norm_num : ∀ _ : Set.Ioi (0 : ℝ), (1025 : ℝ) < 2650) (continuous_const (y
  := (2 : ℝ))) id_input

/-- C95: wave height by Gerding (1993) -/
theorem C95_gerding_height (kD : PositiveInput D) (kN : PositiveInput N) :
    VariesContinuously fun x => Gerding1993.calculate_wave_height_Hs (fin (D x)) (fin (ht x)) (hd x)
      (fin (N x)) (fin (ra x)) (fin (rw x)) := by
  refine of _ (fun x => GerdingProof.Hs_eval (hd x) (kw.2 x) (hr x) (kD.2 x) (kN.2 x)) fun x => ?_
  inputs [kN, kht, kw, kD] x
  have := sub_pos.mpr (hr x)
  unfold GerdingProof.K
  cont

example := C95_gerding_height (fun _ => nan) (const_input (a := 5) (by norm_num)) (const_input (a := 1025) (by
  norm_num)) continuous_const (fun _ => by norm_num : ∀ _ : Set.Ioi (0 : ℝ), (1025 : ℝ) < 2650) id_input
  (const_input (a := 1) (by norm_num))

section
variable (kh : PositiveInput h)
include kh

/-- C95: damage of a toe by Van der Meer (1998) -/
theorem C95_vdm1998_damage (kH : PositiveInput H) (kD : PositiveInput D) :
    VariesContinuously fun x => VanDerMeer1998.calculate_damage_Nod (fin (H x)) (fin (ht x)) (fin (h x)) (fin (D x))
      (fin (ra x)) (fin (rw x)) := by
  refine of _ (fun x => VdM98Proof.Nod_eval (kw.2 x) (hr x) (kH.2 x) (kD.2 x) (kh.2 x) (kht.2 x)) fun x => ?_
  inputs [kH, kD, kht, kw, kh] x
  have := sub_pos.mpr (hr x)
  unfold VdM98Proof.q
  cont

example := C95_vdm1998_damage (const_input (a := 5) (by norm_num)) (const_input (a := 1025) (by norm_num))
  continuous_const (fun _ => by norm_num : ∀ _ : Set.Ioi (0 : ℝ), (1025 : ℝ) < 2650) (const_input (a := 8) (by
  norm_num)) id_input (const_input (a := 1) (by norm_num))

/-- C95: rock size of a toe by Van der Meer (1998) -/
theorem C95_vdm1998_size (kH : PositiveInput H) (kN : PositiveInput N) :
    VariesContinuously fun x => VanDerMeer1998.calculate_nominal_diameter_Dn50 (fin (H x)) (fin (ht x)) (fin (h x))
      (fin (N x)) (fin (ra x)) (fin (rw x)) := by
  refine of _ (fun x => VdM98Proof.Dn_eval (kw.2 x) (hr x) (kN.2 x) (kh.2 x) (kht.2 x)) fun x => ?_
  inputs [kH, kN, kht, kw, kh] x
  have := sub_pos.mpr (hr x)
  unfold VdM98Proof.q
  cont

example := C95_vdm1998_size (const_input (a := 5) (by norm_num)) (const_input (a := 1025) (by norm_num))
  continuous_const (fun _ => by norm_num : ∀ _ : Set.Ioi (0 : ℝ), (1025 : ℝ) < 2650) (const_input (a := 8) (by
  norm_num)) (const_input (a := 2) (by norm_num)) id_input

/-- C95: wave height for a toe by Van der Meer (1998) -/
theorem C95_vdm1998_height (kD : PositiveInput D) (kN : PositiveInput N) :
    VariesContinuously fun x => VanDerMeer1998.calculate_wave_height_Hs (fin (D x)) (fin (ht x)) (fin (h x))
      (fin (N x)) (fin (ra x)) (fin (rw x)) := by
  refine of _ (fun x => VdM98Proof.Hs_eval (kw.2 x) (hr x) (kN.2 x) (kh.2 x) (kht.2 x)) fun x => ?_
  inputs [kD, kN, kht, kw, kh] x
  unfold VdM98Proof.q
  cont

example := C95_vdm1998_height (const_input (a := 5) (by norm_num)) (const_input (a := 1025) (by norm_num))
  continuous_const (fun _ => by norm_num : ∀ _ : Set.Ioi (0 : ℝ), (1025 : ℝ) < 2650) (const_input (a := 8) (by
  norm_num)) id_input (const_input (a := 1) (by norm_num))

end
end

section
variable {X : Type} [TopologicalSpace X] {H T ht B t N D ra rw g c1 : X → ℝ} (cot : X → PF) (kH : PositiveInput H)
  (kT : PositiveInput T) (kht : PositiveInput ht) (kB : PositiveInput B) (kt : PositiveInput t)
  (ka : Continuous ra) (kw : PositiveInput rw) (hr : ∀ x, rw x < ra x) (kg : PositiveInput g)
include kH kT kht kB kt ka kw hr kg

omit kB kt ka kw hr in
theorem ContProof.U_input : PositiveInput fun x => VGWProof.U (H x) (T x) (ht x) (g x) := by
  refine ⟨continuous_iff_continuousAt.mpr fun x => ?_, fun x => VGWProof.U_pos (kH.2 x) (kT.2 x) (kht.2 x) (kg.2 x)⟩
  inputs [kH, kT, kht, kg] x
  have hp := Real.pi_pos
  have hs : 0 < Real.sinh (2 * Real.pi / (g x / (2 * Real.pi) * T x ^ 2) * ht x) :=
    Real.sinh_pos_iff.mpr (by positivity)
  have hs' : 2 * Real.pi * (g x / (2 * Real.pi) * T x ^ 2) ≠ 0 := by positivity
  have k : ContinuousAt (fun x => 2 * Real.pi / (g x / (2 * Real.pi) * T x ^ 2) * ht x) x := by cont
  have k' := Real.continuous_sinh.continuousAt.comp k
  unfold VGWProof.U
  refine ContinuousAt.div (ContinuousAt.mul (by cont) (continuousAt_const.div k' hs.ne')) (by cont) (by positivity)

/-- C95: damage by Van Gent & Van der Werf (2014) -/
theorem C95_vangent_toe_damage (kD : PositiveInput D) (k1 : Continuous c1) :
    VariesContinuously fun x => VanGentVanDerWerf2014.calculate_damage_Nod (fin (H x)) (fin (T x)) (fin (ht x))
      (fin (B x)) (fin (t x)) (fin (D x)) (fin (ra x)) (fin (rw x)) (cot x) (g := fin (g x)) (c1 := fin (c1 x)) := by
  refine of _ (fun x => VGWProof.Nod_eval (kH.2 x) (kT.2 x) (kht.2 x) (kg.2 x) (kw.2 x) (hr x) (cot x) (kB.2 x)
    (kt.2 x) (kD.2 x)) fun x => ?_
  have kU := U_input kH kT kht kg
  have kU' := kU.1.continuousAt (x := x)
  inputs [kH, kB, kt, kw, kD, kU] x
  have := sub_pos.mpr (hr x)
  cont

example := C95_vangent_toe_damage (fun _ => nan) id_input (const_input (a := 8) (by norm_num)) (const_input (a := 5)
  (by norm_num)) (const_input (a := 3) (by norm_num)) (const_input (a := 1) (by norm_num)) continuous_const
  (const_input (a := 1025) (by norm_num)) (fun _ => by norm_num : ∀ _ : Set.Ioi (0 : ℝ), (1025 : ℝ) < 2650)
  (const_input (a := 9.81) (by norm_num)) (const_input (a := 1) (by norm_num)) (continuous_const (y := (0.032 : ℝ)))

/-- C95: rock size by Van Gent & Van der Werf (2014) -/
theorem C95_vangent_toe_size (kN : PositiveInput N) :
    VariesContinuously fun x => VanGentVanDerWerf2014.calculate_nominal_diameter_Dn50 (fin (H x)) (fin (T x))
      (fin (ht x)) (fin (B x)) (fin (t x)) (fin (N x)) (fin (ra x)) (fin (rw x)) (cot x) (g := fin (g x)) := by
  refine of _ (fun x => VGWProof.Dn_eval (kH.2 x) (kT.2 x) (kht.2 x) (kg.2 x) (kw.2 x) (hr x) (cot x) (kB.2 x)
    (kt.2 x) (kN.2 x)) fun x => ?_
  have kU := U_input kH kT kht kg
  have kU' := kU.1.continuousAt (x := x)
  inputs [kH, kB, kt, kw, kN, kU] x
  have := sub_pos.mpr (hr x)
  cont

example := C95_vangent_toe_size (fun _ => nan) id_input (const_input (a := 8) (by norm_num)) (const_input (a := 5)
  (by norm_num)) (const_input (a := 3) (by norm_num)) (const_input (a := 1) (by norm_num)) continuous_const
  (const_input (a := 1025) (by norm_num)) (fun _ => by norm_num : ∀ _ : Set.Ioi (0 : ℝ), (1025 : ℝ) < 2650)
  (const_input (a := 9.81) (by norm_num)) (const_input (a := 1) (by norm_num))

end

/-- C95: rock size of a toe by Etemad-Shahidi et al. (2021) -/
theorem C95_etemad_toe_size {X : Type} [TopologicalSpace X] {H T h ht B N m ra rw g : X → ℝ} (kH : PositiveInput H)
    (kT : PositiveInput T) (kh : PositiveInput h) (kht : PositiveInput ht) (kB : PositiveInput B)
    (kN : PositiveInput N) (km : Continuous m) (hm : ∀ x, 3.7 * m x < 1) (ka : Continuous ra) (kw : PositiveInput rw)
    (hr : ∀ x, rw x < ra x) (kg : PositiveInput g) :
    VariesContinuously fun x => EtemadShahidi2021.calculate_nominal_diameter_Dn50 (fin (H x)) (fin (T x)) (fin (h x))
      (fin (ht x)) (fin (B x)) (fin (N x)) (fin (m x)) (fin (ra x)) (fin (rw x)) (fin (g x)) := by
  have e1 : (7.0 / 4.0 : PF) = fin (7 / 4) := by pf_eval []; norm_num
  have e2 : (1.0 / 6.0 : PF) = fin (1 / 6) := by pf_eval []; norm_num
  have e3 : (2.0 / 5.0 : PF) = fin (2 / 5) := by pf_eval []; norm_num
  have e4 : (-1.0 / 10.0 : PF) = fin (-1 / 10) := by pf_eval []; norm_num
  have kS : ∀ x, 0 < Et21Proof.S 11.2 (7 / 4) (1 / 6) 3.7 (ht x) (h x) (2 * Real.pi * H x / (g x * T x ^ 2)) (m x) := by
    intro x
    inputs [kH, kT, kh, kht, kg] x
    have := Real.pi_pos
    have : 0 < 1 - 3.7 * m x := sub_pos.mpr (hm x)
    unfold Et21Proof.S; positivity
  simp only [e1, e2, e3, e4]
  refine of _ (fun x => Et21Proof.Dn_eval (c1 := 1.2) (c2 := 11.2) (c7 := 3.7) (kH.2 x) (kT.2 x) (kh.2 x) (kht.2 x)
    (kB.2 x) (kg.2 x) (kw.2 x) (hr x) (by norm_num) (by norm_num) (sub_pos.mpr (hm x)) (kN.2 x) ?_) fun x => ?_
  · have := kS x
    inputs [kH, kB, kN] x
    positivity
  · have hS := kS x
    inputs [kH, kT, kh, kht, kB, kN, kw, kg] x
    have := Real.pi_pos
    have := sub_pos.mpr (hr x)
    have k : ContinuousAt (fun x => Et21Proof.S 11.2 (7 / 4) (1 / 6) 3.7 (ht x) (h x)
        (2 * Real.pi * H x / (g x * T x ^ 2)) (m x)) x := by
      unfold Et21Proof.S
      cont
    cont

example := C95_etemad_toe_size id_input (const_input (a := 8) (by norm_num)) (const_input (a := 8) (by norm_num))
  (const_input (a := 5) (by norm_num)) (const_input (a := 3) (by norm_num)) (const_input (a := 1) (by norm_num))
  (continuous_const (y := (0.01 : ℝ))) (fun _ => by norm_num) continuous_const (const_input (a := 1025) (by
  norm_num)) (fun _ => by norm_num : ∀ _ : Set.Ioi (0 : ℝ), (1025 : ℝ) < 2650) (const_input (a := 9.81) (by
  norm_num))

/-! ## run-up by Van Gent (2001) -/

namespace ContProof
open RunupProof

theorem rf_minmax {c0 c1 u : ℝ} (h0 : 0 < c0) (h1 : 0 < c1) : rf c0 c1 u =
    c0 * min u (c1 / (2 * c0)) + (c1 / 2 - c1 ^ 2 / (4 * c0 * max u (c1 / (2 * c0)))) := by
  have e : c1 ^ 2 / (4 * c0 * (c1 / (2 * c0))) = c1 / 2 := by field_simp; ring
  have e' : c0 * (c1 / (2 * c0)) = c1 / 2 := by field_simp
  rw [rf_eq]
  split_ifs with h
  · rw [min_eq_left h.le, max_eq_right h.le, e]; ring
  · rw [min_eq_right (not_lt.mp h), max_eq_left (not_lt.mp h), e']; ring

theorem rf_input {X : Type} [TopologicalSpace X] {H T c c0 c1 : X → ℝ} (kH : PositiveInput H) (kT : PositiveInput T)
    (kc : PositiveInput c) (k0 : PositiveInput c0) (k1 : PositiveInput c1) :
    PositiveInput fun x => rf (c0 x) (c1 x) (VdMProof.xi (H x) (T x) (c x)) := by
  have hx := fun x => VdMProof.xi_pos (kH.2 x) (kT.2 x) (kc.2 x)
  refine ⟨continuous_iff_continuousAt.mpr fun x => ?_, fun x => rf_pos (k0.2 x) (k1.2 x) (hx x)⟩
  have e : ∀ x, rf (c0 x) (c1 x) (VdMProof.xi (H x) (T x) (c x)) = _ := fun x => rf_minmax (k0.2 x) (k1.2 x)
  simp only [e]
  have k := xi_cont (x := x) kH.1.continuousAt kT.1.continuousAt kc.1.continuousAt (kH.2 x) (kT.2 x) (kc.2 x)
  have := hx x
  inputs [k0, k1] x
  have hm : 0 < max (VdMProof.xi (H x) (T x) (c x)) (c1 x / (2 * c0 x)) := lt_max_of_lt_left this
  cont

theorem z1p {H T f c : ℝ} (hH : 0 < H) (hT : 0 < T) (hc : 0 < c) :
    VanGent2001.calculate_wave_runup_height_z1p (fin H) (fin T) (fin f) (fin c) =
      fin (rf 1.45 5.1 (VdMProof.xi H T c) * f * H) := by
  unfold VanGent2001.calculate_wave_runup_height_z1p
  simp only [sci_eq]
  exact zX_eval hT hc (by norm_num) (by norm_num) hH

end ContProof

/-- C95: run-up by Van Gent (2001) -/
theorem C95_vangent_runup {X : Type} [TopologicalSpace X] {H T f c c0 c1 : X → ℝ} (kH : PositiveInput H)
    (kT : PositiveInput T) (kf : Continuous f) (kc : PositiveInput c) (k0 : PositiveInput c0) (k1 : PositiveInput c1) :
    VariesContinuously fun x => pure (VanGent2001.calculate_wave_runup_height_zXp (fin (H x)) (fin (T x)) (fin (f x))
      (fin (c x)) (fin (c0 x)) (fin (c1 x))) := by
  refine of _ (fun x => congrArg Except.ok (RunupProof.zX_eval (kT.2 x) (kc.2 x) (k0.2 x) (k1.2 x) (kH.2 x)))
    fun x => ?_
  have k := (rf_input kH kT kc k0 k1).1
  have := kH.1
  fun_prop

example := C95_vangent_runup id_input (const_input (a := 8) (by norm_num)) (continuous_const (y := (0.45 : ℝ)))
  (const_input (a := 2) (by norm_num)) (const_input (a := 1.45) (by norm_num)) (const_input (a := 5.1) (by
  norm_num))

/-! ## rear slopes -/

section
variable {X : Type} [TopologicalSpace X] {ca cp f H T Rc Rf Rr N D S : X → ℝ} (M rho : X → PF)
  (kca : PositiveInput ca) (kcp : PositiveInput cp) (kf : PositiveInput f) (kH : PositiveInput H) (kT : PositiveInput T)
  (kRc : PositiveInput Rc) (kRf : PositiveInput Rf) (kRr : PositiveInput Rr) (hR : ∀ x, Rr x < Rc x)
  (kN : PositiveInput N)
include kca kcp kf kH kT kRc kRf kRr hR kN

/-- C95: damage of the rear slope by Van Gent (2007) -/
theorem C95_rear2007_damage (kD : PositiveInput D) :
    VariesContinuously fun x => VanGent2007Rear.calculate_damage_number_S (fin (ca x)) (fin (cp x)) (fin (f x))
      (fin (H x)) (fin (T x)) (fin (Rc x)) (fin (Rf x)) (fin (Rr x)) (fin (N x)) (fin (D x)) (M x) (rho x) := by
  refine of _ (fun x => RearProof.S07_eval (M x) (rho x) (kcp.2 x) (kH.2 x) (kRc.2 x) (kRf.2 x).le (kRr.2 x).le (hR x)
    (kN.2 x) (kD.2 x) (z1p (kH.2 x) (kT.2 x) (kca.2 x))) fun x => ?_
  have k := (rf_input kH kT kca (const_input (a := 1.45) (by norm_num)) (const_input (a := 5.1) (by norm_num))).1
  inputs [kcp, kf, kH, kRc, kRf, kRr, kN, kD] x
  have := sub_pos.mpr (hR x)
  unfold RearProof.S07
  cont

example := C95_rear2007_damage (fun _ => nan) (fun _ => nan) (const_input (a := 2) (by norm_num)) (const_input (a :=
  2) (by norm_num)) (const_input (a := 0.45) (by norm_num)) (const_input (a := 2) (by norm_num)) (const_input (a :=
  8) (by norm_num)) (const_input (a := 3) (by norm_num)) (const_input (a := 2) (by norm_num)) (const_input (a := 1)
  (by norm_num)) (fun _ => by norm_num) (const_input (a := 3000) (by norm_num)) id_input

/-- C95: rock size on the rear slope by Van Gent (2007), for run-up above the crest -/
theorem C95_rear2007_size (kS : PositiveInput S) (hz : ∀ x, ∃ z : ℝ, Rc x < z ∧
      VanGent2001.calculate_wave_runup_height_z1p (fin (H x)) (fin (T x)) (fin (f x)) (fin (ca x)) = fin z) :
    VariesContinuously fun x => VanGent2007Rear.calculate_nominal_rock_diameter_Dn50 (fin (ca x)) (fin (cp x))
      (fin (f x)) (fin (S x)) (fin (H x)) (fin (T x)) (fin (Rc x)) (fin (Rf x)) (fin (Rr x)) (fin (N x)) := by
  have hz' : ∀ x, Rc x < RunupProof.rf 1.45 5.1 (VdMProof.xi (H x) (T x) (ca x)) * f x * H x := by
    intro x
    obtain ⟨z, h1, h2⟩ := hz x
    rw [z1p (kH.2 x) (kT.2 x) (kca.2 x), fin_inj] at h2
    rwa [h2]
  refine of _ (fun x => RearProof.D07_eval (kcp.2 x) (kH.2 x) (kRc.2 x) (kRf.2 x).le (kRr.2 x).le (hR x)
    (kN.2 x) (kS.2 x) (z1p (kH.2 x) (kT.2 x) (kca.2 x)) (hz' x)) fun x => ?_
  have k := (rf_input kH kT kca (const_input (a := 1.45) (by norm_num)) (const_input (a := 5.1) (by norm_num))).1
  inputs [kcp, kf, kH, kRc, kRf, kRr, kN, kS] x
  have := sub_pos.mpr (hR x)
  have := sub_pos.mpr (hz' x)
  unfold RearProof.D07
  cont

end

section
variable {X : Type} [TopologicalSpace X] {ca cp gf gc H T Rc Rr B N D S rr rw : X → ℝ} (M : X → PF)
  (kca : PositiveInput ca) (kcp : PositiveInput cp) (kf : PositiveInput gf) (kg : PositiveInput gc)
  (kH : PositiveInput H) (kT : PositiveInput T) (kRc : Continuous Rc) (kRr : Continuous Rr) (kB : PositiveInput B)
  (kN : PositiveInput N) (kr : Continuous rr) (kw : PositiveInput rw) (hr : ∀ x, rw x < rr x)
  (hz : ∀ x, ∃ z : ℝ, Rc x < z ∧
    VanGent2001.calculate_wave_runup_height_z1p (fin (H x)) (fin (T x)) (fin (gf x)) (fin (ca x)) = fin z)
include kca kcp kf kg kH kT kRc kRr kB kN kr kw hr hz

omit kcp kRr kN kr kw hr in
theorem ContProof.uX_input : PositiveInput fun x => RearProof.uX (H x) (Rc x) (B x) (gf x) (gc x)
    (RunupProof.rf 1.45 5.1 (VdMProof.xi (H x) (T x) (ca x)) * gf x * H x) := by
  have hz' : ∀ x, Rc x < RunupProof.rf 1.45 5.1 (VdMProof.xi (H x) (T x) (ca x)) * gf x * H x := by
    intro x
    obtain ⟨z, h1, h2⟩ := hz x
    rw [z1p (kH.2 x) (kT.2 x) (kca.2 x), fin_inj] at h2
    rwa [h2]
  refine ⟨continuous_iff_continuousAt.mpr fun x => ?_, fun x =>
    RearProof.uX_pos (kf.2 x) (kg.2 x) (kH.2 x) (kB.2 x).le (hz' x)⟩
  have k := (rf_input kH kT kca (const_input (a := 1.45) (by norm_num)) (const_input (a := 5.1) (by norm_num))).1
  inputs [kf, kg, kH, kB] x
  unfold RearProof.uX
  cont

/-- C95: damage of the rear slope by Van Gent & Pozueta (2004), for run-up above the crest -/
theorem C95_pozueta_damage (kD : PositiveInput D) {cs : X → ℝ} (kcs : PositiveInput cs) :
    VariesContinuously fun x => VanGentPozueta2004.calculate_damage_number_S (fin (ca x)) (fin (cp x)) (fin (gf x))
      (fin (gc x)) (fin (H x)) (fin (T x)) (fin (Rc x)) (fin (Rr x)) (fin (B x)) (fin (N x)) (fin (D x)) (M x)
      (fin (rr x)) (fin (rw x)) (fin (cs x)) := by
  refine of _ (fun x => RearProof.S04_eval (M x) (kcp.2 x) (kf.2 x) (kg.2 x) (kH.2 x) (kT.2 x) (kB.2 x).le (kN.2 x)
    (kw.2 x) (hr x) (kcs.2 x) (kD.2 x) (z1p (kH.2 x) (kT.2 x) (kca.2 x)) ?_) fun x => ?_
  · obtain ⟨z, h1, h2⟩ := hz x
    rw [z1p (kH.2 x) (kT.2 x) (kca.2 x), fin_inj] at h2
    rwa [h2]
  have ku := uX_input kca kf kg kH kT kRc kB hz
  have ku' := ku.1.continuousAt (x := x)
  inputs [kcp, kH, kT, kN, kw, kcs, kD, ku] x
  have := sub_pos.mpr (hr x)
  unfold RearProof.S04
  cont

/-- C95: rock size on the rear slope by Van Gent & Pozueta (2004), for run-up above the crest -/
theorem C95_pozueta_size (kS : PositiveInput S) {cs : X → ℝ} (kcs : PositiveInput cs) :
    VariesContinuously fun x => VanGentPozueta2004.calculate_nominal_rock_diameter_Dn50 (fin (ca x)) (fin (cp x))
      (fin (gf x)) (fin (gc x)) (fin (S x)) (fin (H x)) (fin (T x)) (fin (Rc x)) (fin (Rr x)) (fin (B x))
      (fin (rr x)) (fin (N x)) (fin (rw x)) (fin (cs x)) := by
  refine of _ (fun x => RearProof.D04_eval (kcp.2 x) (kf.2 x) (kg.2 x) (kH.2 x) (kT.2 x) (kB.2 x).le (kN.2 x)
    (kw.2 x) (hr x) (kcs.2 x) (kS.2 x) (z1p (kH.2 x) (kT.2 x) (kca.2 x)) ?_) fun x => ?_
  · obtain ⟨z, h1, h2⟩ := hz x
    rw [z1p (kH.2 x) (kT.2 x) (kca.2 x), fin_inj] at h2
    rwa [h2]
  have ku := uX_input kca kf kg kH kT kRc kB hz
  have ku' := ku.1.continuousAt (x := x)
  inputs [kcp, kH, kT, kN, kw, kcs, kS, ku] x
  have := sub_pos.mpr (hr x)
  unfold RearProof.D04
  cont

end

/-- the hypotheses on the run-up are satisfiable: any crest level below the run-up -/
example : VariesContinuously fun N : Set.Ioi (0 : ℝ) => VanGent2007Rear.calculate_nominal_rock_diameter_Dn50 (fin 2)
    (fin 2) (fin 1) (fin 2) (fin 2) (fin 8) (fin (RunupProof.rf 1.45 5.1 (VdMProof.xi 2 8 2))) (fin 1)
    (fin (RunupProof.rf 1.45 5.1 (VdMProof.xi 2 8 2) / 2)) (fin N) := by
  have h := RunupProof.rf_pos (c0 := 1.45) (c1 := 5.1) (by norm_num) (by norm_num)
    (VdMProof.xi_pos (H := 2) (T := 8) (c := 2) (by norm_num) (by norm_num) (by norm_num))
  exact C95_rear2007_size (const_input (by norm_num)) (const_input (by norm_num)) (const_input (by norm_num))
    (const_input (by norm_num)) (const_input (by norm_num)) (const_input h) (const_input (by norm_num))
    (const_input (half_pos h)) (fun _ => half_lt_self h) id_input (const_input (by norm_num)) fun _ =>
    ⟨_, by linarith, z1p (by norm_num) (by norm_num) (by norm_num)⟩

example : VariesContinuously fun D : Set.Ioi (0 : ℝ) => VanGentPozueta2004.calculate_damage_number_S (fin 2) (fin 2)
    (fin 1) (fin 1) (fin 2) (fin 8) (fin 0) (fin 1) (fin 3) (fin 3000) (fin D) nan (fin 2650) (fin 1025) (fin 1) := by
  have h := RunupProof.rf_pos (c0 := 1.45) (c1 := 5.1) (by norm_num) (by norm_num)
    (VdMProof.xi_pos (H := 2) (T := 8) (c := 2) (by norm_num) (by norm_num) (by norm_num))
  exact C95_pozueta_damage (fun _ => nan) (const_input (by norm_num)) (const_input (by norm_num))
    (const_input (by norm_num)) (const_input (by norm_num)) (const_input (by norm_num)) (const_input (by norm_num))
    continuous_const continuous_const (const_input (by norm_num)) (const_input (by norm_num)) continuous_const
    (const_input (by norm_num)) (fun _ => by norm_num)
    (fun _ => ⟨_, by linarith, z1p (by norm_num) (by norm_num) (by norm_num)⟩) id_input (const_input (by norm_num))

example : VariesContinuously fun S : Set.Ioi (0 : ℝ) => VanGentPozueta2004.calculate_nominal_rock_diameter_Dn50 (fin 2)
    (fin 2) (fin 1) (fin 1) (fin S) (fin 2) (fin 8) (fin 0) (fin 1) (fin 3) (fin 2650) (fin 3000) (fin 1025)
    (fin 1) := by
  have h := RunupProof.rf_pos (c0 := 1.45) (c1 := 5.1) (by norm_num) (by norm_num)
    (VdMProof.xi_pos (H := 2) (T := 8) (c := 2) (by norm_num) (by norm_num) (by norm_num))
  exact C95_pozueta_size (const_input (by norm_num)) (const_input (by norm_num))
    (const_input (by norm_num)) (const_input (by norm_num)) (const_input (by norm_num)) (const_input (by norm_num))
    continuous_const continuous_const (const_input (by norm_num)) (const_input (by norm_num)) continuous_const
    (const_input (by norm_num)) (fun _ => by norm_num)
    (fun _ => ⟨_, by linarith, z1p (by norm_num) (by norm_num) (by norm_num)⟩) id_input (const_input (by norm_num))

/-! ## crest walls -/

section
variable {X : Type} [TopologicalSpace X] {H T c Ac W Fb gb gf c0 c1 rho g cF cb : X → ℝ} (Rc : X → PF)
  (kH : PositiveInput H) (kT : PositiveInput T) (kc : PositiveInput c) (kA : PositiveInput Ac) (kW : PositiveInput W)
  (kgb : PositiveInput gb) (kgf : PositiveInput gf) (k0 : PositiveInput c0) (k1 : PositiveInput c1)
  (kr : PositiveInput rho) (kg : PositiveInput g) (kF : PositiveInput cF)
include kH kT kc kA kW kgb kgf k0 k1 kr kg kF

/-- C95: horizontal force on a crest wall -/
theorem C95_crest_wall_horizontal :
    VariesContinuously fun x => CrestWall.calculate_FH2p_perpendicular (fin (H x)) (fin (T x)) (fin (c x)) (fin (Ac x))
      (Rc x) (fin (W x)) (fin (gb x)) (fin (gf x)) (fin (c0 x)) (fin (c1 x)) (fin (rho x)) (fin (g x))
      (fin (cF x)) := by
  refine of _ (fun x => CrestProof.FH_perp (H x) (T x) (c x) (Ac x) (W x) (gb x) (gf x) (c0 x) (c1 x) (rho x) (g x)
    (cF x) (Rc x) (kH.2 x) (kT.2 x) (kc.2 x) (kgb.2 x) (kgf.2 x) (k0.2 x) (k1.2 x) (kr.2 x) (kg.2 x) (kF.2 x) (kW.2 x)
    (by rw [mul_fin]; exact RunupProof.zX_eval (kT.2 x) (kc.2 x) (k0.2 x) (k1.2 x) (kH.2 x))) fun x => ?_
  have k := (rf_input kH kT kc k0 k1).1
  inputs [kH, kA, kW, kgb, kgf, kr, kg, kF] x
  cont

example := C95_crest_wall_horizontal (fun _ => nan) id_input (const_input (a := 8) (by norm_num)) (const_input (a :=
  2) (by norm_num)) (const_input (a := 3) (by norm_num)) (const_input (a := 3) (by norm_num)) (const_input (a := 1)
  (by norm_num)) (const_input (a := 0.45) (by norm_num)) (const_input (a := 1.45) (by norm_num)) (const_input (a :=
  5.1) (by norm_num)) (const_input (a := 1025) (by norm_num)) (const_input (a := 9.81) (by norm_num)) (const_input
  (a := 1) (by norm_num))

/-- C95: vertical force on a crest wall -/
theorem C95_crest_wall_vertical (kFb : PositiveInput Fb) (kb : PositiveInput cb) :
    VariesContinuously fun x => CrestWall.calculate_FV2p_perpendicular (fin (H x)) (fin (T x)) (fin (c x)) (fin (Ac x))
      (fin (W x)) (fin (Fb x)) (fin (gb x)) (fin (gf x)) (fin (c0 x)) (fin (c1 x)) (fin (cF x)) (fin (cb x))
      (fin (rho x)) (fin (g x)) := by
  refine of _ (fun x => CrestProof.FV_perp (H x) (T x) (c x) (Ac x) (W x) (Fb x) (gb x) (gf x) (c0 x) (c1 x)
    (rho x) (g x) (cF x) (cb x) (kH.2 x) (kT.2 x) (kc.2 x) (kgb.2 x) (kgf.2 x) (k0.2 x) (k1.2 x) (kr.2 x) (kg.2 x)
    (kF.2 x) (kb.2 x) (kW.2 x) (kA.2 x) (kFb.2 x).le
    (by rw [mul_fin]; exact RunupProof.zX_eval (kT.2 x) (kc.2 x) (k0.2 x) (k1.2 x) (kH.2 x))) fun x => ?_
  have k := (rf_input kH kT kc k0 k1).1
  inputs [kH, kA, kW, kgb, kgf, kr, kg, kF, kFb, kb] x
  cont

example := C95_crest_wall_vertical id_input (const_input (a := 8) (by norm_num)) (const_input (a := 2) (by
  norm_num)) (const_input (a := 3) (by norm_num)) (const_input (a := 3) (by norm_num)) (const_input (a := 1) (by
  norm_num)) (const_input (a := 0.45) (by norm_num)) (const_input (a := 1.45) (by norm_num)) (const_input (a := 5.1)
  (by norm_num)) (const_input (a := 1025) (by norm_num)) (const_input (a := 9.81) (by norm_num)) (const_input (a :=
  1) (by norm_num)) (const_input (a := 1) (by norm_num)) (const_input (a := 1) (by norm_num))

end
