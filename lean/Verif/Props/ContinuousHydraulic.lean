import Verif.Props.ContinuousRock
import Verif.Props.FormulasHydraulic
import Verif.Props.Goda1985

/-! # C95: transmission, set-up and caisson loads, small changes of the inputs -/

open Classical
open PF ContProof
noncomputable section

/-! ## wave transmission -/

theorem ContProof.jump_real {r : ℝ → ℝ} {g : ℝ → ℝ} {a : ℝ} (hg : ContinuousAt g a) (t : Set ℝ)
    [(nhdsWithin a t).NeBot] (e : ∀ y ∈ t, r y = g y) (ne : r a ≠ g a) : ¬ Continuous r := by
  intro h
  refine jump_on (s := Set.univ) (r := fun y => r y) (Set.mem_univ a) Filter.univ_mem hg t (fun y _ hy => e y hy) ne ?_
  exact h.comp continuous_subtype_val

section
variable {X : Type} [TopologicalSpace X] {H T r B c C : X → ℝ} (h : X → PF) (kH : PositiveInput H)
  (kT : PositiveInput T) (kr : Continuous r) (kB : PositiveInput B) (kc : PositiveInput c)
include kH kT kr kB kc

/-- C95: transmission by d'Angremond et al. (1996), either structure type: the two functions differ in the coefficient -/
theorem C95_dangremond (kC : Continuous C) :
    VariesContinuously fun x => DAngremond1996.calculate_wave_transmission_Kt_permeable (fin (H x)) (fin (T x)) (h x)
      (fin (r x)) (fin (B x)) (fin (c x)) (fin (C x)) := by
  refine of _ (fun x => C78_dangremond (H x) (T x) (B x) (c x) (kH.2 x) (kT.2 x) (kB.2 x) (kc.2 x) (h x) (r x) (C x))
    fun x => ?_
  simp only [RangeProof.irib_eq]
  have k := xi_cont (x := x) kH.1.continuousAt kT.1.continuousAt kc.1.continuousAt (kH.2 x) (kT.2 x) (kc.2 x)
  inputs [kH, kB] x
  unfold Published.dAngremond
  cont

example := C95_dangremond (fun _ => nan) id_input (const_input (a := 8) (by norm_num)) (continuous_const (y := (1 :
  ℝ))) (const_input (a := 10) (by norm_num)) (const_input (a := 2) (by norm_num)) (continuous_const (y := (0.64 :
  ℝ)))

/-- C95: transmission by Briganti et al. (2003), as long as the crest width does not pass ten wave heights -/
theorem C95_briganti_partial (hb : (∀ x, B x / H x < 10) ∨ ∀ x, 10 ≤ B x / H x) :
    VariesContinuously fun x => Briganti2003.calculate_wave_transmission_Kt (fin (H x)) (fin (T x)) (fin (r x))
      (fin (B x)) (fin (c x)) := by
  refine of _ (fun x => C78_briganti (H x) (T x) (B x) (c x) (kH.2 x) (kT.2 x) (kB.2 x) (kc.2 x) (r x)) fun x => ?_
  simp only [RangeProof.irib_eq]
  have k := xi_cont (x := x) kH.1.continuousAt kT.1.continuousAt kc.1.continuousAt (kH.2 x) (kT.2 x) (kc.2 x)
  inputs [kH, kB] x
  unfold Published.briganti
  rcases hb with h | h
  · simp only [h, if_true]
    unfold Published.dAngremond
    cont
  · have e : ∀ x, ¬ B x / H x < 10 := fun x => not_lt.mpr (h x)
    simp only [e, if_false]
    cont

end

example : VariesContinuously fun r : ℝ => Briganti2003.calculate_wave_transmission_Kt (fin 2) (fin 8) (fin r) (fin 10)
    (fin 2) :=
  C95_briganti_partial (const_input (by norm_num)) (const_input (by norm_num)) continuous_id (const_input (by norm_num))
    (const_input (by norm_num)) (Or.inl fun _ => by norm_num)

/-- C95: transmission by Briganti et al. (2003) jumps where the crest is ten wave heights wide, here for a crest
submerged 2.5 wave heights -/
theorem C95_briganti_refuted {H T c : ℝ} (hH : 0 < H) (hT : 0 < T) (hc : 0 < c) :
    Jumps fun B : Set.Ioi (0 : ℝ) => Briganti2003.calculate_wave_transmission_Kt (fin H) (fin T) (fin (-2.5 * H))
      (fin B) (fin c) := by
  refine ⟨_, ?_, fun B => TransProof.brig_eval _ hH hT B.2 hc⟩
  have := right_nhdsWithin_Ioo_neBot (show 5 * H < 10 * H by linarith)
  refine jump_on (s := Set.Ioi 0) (a := 10 * H) (g := fun _ => 0.8) (Set.mem_Ioi.mpr (by positivity))
    (Ioi_mem_nhds (by positivity)) continuousAt_const (Set.Ioo (5 * H) (10 * H)) ?_ ?_
  · intro B hB hB'
    have := (C73_width_refuted (H := H) (T := T) (B := B) (c := c) hH hT hc hB'.1.le hB'.2).1
    rw [TransProof.brig_eval _ hH hT hB hc] at this
    exact PF.fin.inj (Except.ok.inj this)
  · have := (C73_width_refuted (H := H) (T := T) (B := 5 * H) (c := c) hH hT hc le_rfl (by linarith)).2
    rw [TransProof.brig_eval _ hH hT (by positivity) hc] at this
    rw [PF.fin.inj (Except.ok.inj this)]
    norm_num

example := C95_briganti_refuted (H := 2) (T := 8) (c := 2) (by norm_num) (by norm_num) (by norm_num)

/-- C95: transmission by Goda (1967) jumps from 0 to 0.03 at the upper end of the transition -/
theorem C95_goda1967_refuted {H a b : ℝ} (hH : 0 < H) (ha : 0 < a) :
    Jumps fun r : ℝ => pure (Goda1967.calculate_wave_transmission_Kt (fin H) (fin r) (fin a) (fin b)) := by
  refine ⟨_, ?_, fun r => congrArg Except.ok (TransProof.goda_eval r hH ha)⟩
  refine jump_real (a := (a - b) * H) (g := fun _ => 0.03) continuousAt_const (Set.Ioi ((a - b) * H)) ?_ ?_
  · intro r hr
    have := (C41_jump_refuted (H := H) (a := a) (b := b) hH ha r hr).2
    rw [TransProof.goda_eval _ hH ha] at this
    exact PF.fin.inj this
  · have := (C41_jump_refuted (H := H) (a := a) (b := b) hH ha _ (lt_add_one ((a - b) * H))).1
    rw [TransProof.goda_eval _ hH ha] at this
    rw [PF.fin.inj this]
    norm_num

example := C95_goda1967_refuted (H := 2) (a := 2.2) (b := 0.4) (by norm_num) (by norm_num)

/-- C95: transmission by Goda (1967) up to the end of the transition, or above it -/
theorem C95_goda1967_partial {X : Type} [TopologicalSpace X] {H r a b : X → ℝ} (kH : PositiveInput H)
    (kr : Continuous r) (ka : PositiveInput a) (kb : Continuous b)
    (h : (∀ x, r x / H x ≤ a x - b x) ∨ ∀ x, a x - b x < r x / H x) :
    VariesContinuously fun x => pure (Goda1967.calculate_wave_transmission_Kt (fin (H x)) (fin (r x)) (fin (a x))
      (fin (b x))) := by
  rcases h with h | h
  · have e : ∀ x, Goda1967.calculate_wave_transmission_Kt (fin (H x)) (fin (r x)) (fin (a x)) (fin (b x)) =
        fin (0.5 * (1 - Real.sin (Real.pi / 2 * max (-1) ((r x / H x + b x) / a x)))) := by
      intro x
      rw [TransProof.goda_eval _ (kH.2 x) (ka.2 x)]
      split_ifs with h1 h2
      · have : (r x / H x + b x) / a x ≤ -1 := by rw [div_le_iff₀ (ka.2 x)]; linarith
        rw [max_eq_left this, mul_neg_one, Real.sin_neg, Real.sin_pi_div_two]; norm_num
      · have : -1 ≤ (r x / H x + b x) / a x := by rw [le_div_iff₀ (ka.2 x)]; linarith
        rw [max_eq_right this]
      · exact absurd (h x) h2
    refine of _ (fun x => congrArg Except.ok (e x)) fun x => ?_
    inputs [kH, ka] x
    cont
  · refine of _ (fun x => congrArg Except.ok ((TransProof.goda_eval _ (kH.2 x) (ka.2 x)).trans ?_))
      fun x => continuousAt_const (y := (0.03 : ℝ))
    have := h x
    have := ka.2 x
    rw [if_neg (by linarith), if_neg (by linarith)]

example : VariesContinuously fun b : ℝ => pure (Goda1967.calculate_wave_transmission_Kt (fin 2) (fin (-2 * b))
    (fin 2.2) (fin b)) :=
  C95_goda1967_partial (const_input (by norm_num)) (by fun_prop) (const_input (by norm_num)) continuous_id
    (Or.inl fun b => by norm_num; linarith)

/-- C95: transmission by Van Gent et al. (2023), where the wavelength changes continuously -/
theorem C95_vangent2023 {X : Type} [TopologicalSpace X] {H r B L : X → ℝ} (T : X → PF) (kH : PositiveInput H)
    (kr : Continuous r) (kB : PositiveInput B) (kL : PositiveInput L) (disper : PF → PF → PF → PF)
    (hw : ∀ x, CorePhysics.calculate_local_wavelength disper (T x) 1e100 = fin (L x)) (s : String) {c1 c4 c5 : ℝ}
    (hs : (s, c1, c4, c5) ∈ Published.transmissionTypes) :
    VariesContinuously fun x => VanGent2023.calculate_wave_transmission_Kt disper (fin (H x)) (T x) (fin (r x))
      (fin (B x)) s := by
  refine of _ (fun x => C78_vangent2023 disper (H x) (B x) (L x) (r x) (T x) (kH.2 x) (kB.2 x) (kL.2 x) (hw x) s c1 c4
    c5 hs) fun x => ?_
  inputs [kH, kB, kL] x
  unfold Published.vanGent2023
  have k : ContinuousAt (fun x => r x / H x + 3.1 * (B x / L x) ^ (0.75 : ℝ) + c4) x := by cont
  have kt : Continuous Real.tanh := by
    simp only [funext Real.tanh_eq_sinh_div_cosh]
    exact Real.continuous_sinh.div Real.continuous_cosh fun y => (Real.cosh_pos y).ne'
  exact continuousAt_const.sub (continuousAt_const.mul (kt.continuousAt.comp k))

example : VariesContinuously fun r : ℝ => VanGent2023.calculate_wave_transmission_Kt (fun _ _ _ => fin (2 * Real.pi))
    (fin 2) (fin 8) (fin r) (fin 10) "permeable" :=
  C95_vangent2023 (fun _ => fin 8) (const_input (by norm_num)) continuous_id (const_input (by norm_num))
    (const_input (a := 1) one_pos) _ (fun _ => by
      unfold CorePhysics.calculate_local_wavelength
      have := Real.pi_pos
      pf_eval []
      rw [div_self (by positivity)]) _
    (by unfold Published.transmissionTypes; exact List.mem_cons_of_mem _ List.mem_cons_self)

/-! ## set-up -/

namespace ContProof

theorem steep_input {X : Type} [TopologicalSpace X] {H T : X → ℝ} (kH : PositiveInput H) (kT : PositiveInput T) :
    PositiveInput fun x => Textbook.steepness (H x) (T x) := by
  have := Real.pi_pos
  refine ⟨continuous_iff_continuousAt.mpr fun x => ?_, fun x => ?_⟩
  · inputs [kH, kT] x
    unfold Textbook.steepness
    cont
  · inputs [kH, kT] x
    unfold Textbook.steepness
    positivity

theorem of_returns {X : Type} [TopologicalSpace X] {call : X → PyM PF} {H F : X → ℝ} (kH : PositiveInput H)
    (h : ∀ x, Returns (call x) fun d => d / H x = F x) (k : ∀ x, ContinuousAt F x) : VariesContinuously call := by
  choose d h1 h2 h3 using h
  have e : ∀ x, d x = F x * H x := fun x => (div_eq_iff (kH.2 x).ne').mp (h3 x)
  refine of _ (fun x => (h2 x).trans (by rw [e x])) fun x => ?_
  exact (k x).mul kH.1.continuousAt

end ContProof

/-- C95: set-up behind impermeable structures by Van Gent (2024) -/
theorem C95_setup_impermeable {X : Type} [TopologicalSpace X] {H T r : X → ℝ} (kH : PositiveInput H)
    (kT : PositiveInput T) (kr : Continuous r) (hr : ∀ x, -1.6 * H x < r x) :
    VariesContinuously fun x => VanGent2024.calculate_structure_induced_setup_delta_impermeable (fin (H x))
      (fin (T x)) (fin (r x)) := by
  refine of_returns kH (fun x => C78_setup_impermeable (H x) (T x) (kH.2 x) (kT.2 x) (r x) (hr x)) fun x => ?_
  have ks := steep_input kH kT
  have ks' := ks.1.continuousAt (x := x)
  have : 0 < r x / H x + 1.6 := by
    have := (lt_div_iff₀ (kH.2 x)).mpr (hr x)
    linarith
  inputs [kH, ks] x
  cont

example := C95_setup_impermeable id_input (const_input (a := 8) (by norm_num)) (continuous_const (y := (1 : ℝ)))
  (fun x => by have := x.2.out; linarith)

/-- C95: set-up behind permeable structures by Van Gent (2024) -/
theorem C95_setup_permeable {X : Type} [TopologicalSpace X] {H T r hc : X → ℝ} (kH : PositiveInput H)
    (kT : PositiveInput T) (kr : Continuous r) (kc : PositiveInput hc) (hr : ∀ x, -1.5 * H x < r x) :
    VariesContinuously fun x => VanGent2024.calculate_structure_induced_setup_delta_permeable (fin (H x))
      (fin (T x)) (fin (r x)) (fin (hc x)) := by
  refine of_returns kH (fun x => C78_setup_permeable (H x) (T x) (kH.2 x) (kT.2 x) (r x) (hc x) (hr x) (kc.2 x))
    fun x => ?_
  have ks := steep_input kH kT
  have ks' := ks.1.continuousAt (x := x)
  have : 0 < r x / H x + 1.5 := by
    have := (lt_div_iff₀ (kH.2 x)).mpr (hr x)
    linarith
  inputs [kH, ks, kc] x
  cont

example := C95_setup_permeable id_input (const_input (a := 8) (by norm_num)) (continuous_const (y := (1 : ℝ)))
  (const_input (a := 2) (by norm_num)) (fun x => by have := x.2.out; linarith)

/-! ## caisson loads by Goda -/

namespace ContProof
open GodaProof

theorem bu_eq (β : ℝ) : bu β = (|β| - 15) ⊔ 0 := by
  unfold bu
  split_ifs with h
  · rw [sup_eq_left.mpr (by linarith)]
  · rw [sup_eq_right.mpr (by linarith)]

theorem P4_eq {p e Rc : ℝ} (he : 0 < e) : P4 p e Rc = p * ((1 - Rc / e) ⊔ 0) := by
  unfold P4
  split_ifs with h
  · rw [sup_eq_left.mpr (by have := (div_lt_one he).mpr h; linarith)]
  · rw [sup_eq_right.mpr (by have := (one_le_div he).mpr (not_lt.mp h); linarith), mul_zero]

end ContProof

section
open GodaProof
variable {X : Type} [TopologicalSpace X] {HD Hs β h d cot ρ hacc Rc Bup g L : X → ℝ} (T B1 sop : X → PF)
  (kD : PositiveInput HD) (kH : PositiveInput Hs) (kβ : Continuous β) (hβ : ∀ x, |β x| < 195) (kh : PositiveInput h)
  (kd : PositiveInput d) (kc : PositiveInput cot) (kρ : Continuous ρ) (ka : Continuous hacc) (kR : PositiveInput Rc)
  (kB : Continuous Bup) (kg : Continuous g) (kL : PositiveInput L) (disper : PF → PF → PF → PF)
  (hw : ∀ x, CorePhysics.calculate_local_wavelength disper (T x) (fin (h x)) (fin (g x)) = fin (L x))
include kD kH kβ hβ kh kd kc kρ ka kR kB kg kL hw

/-- C95: horizontal force and moment, uplift force and moment by Goda (1985), where the wavelength changes
continuously; the wave direction may pass the 15 degrees within which waves count as head-on, and the wave may begin to
overtop the caisson -/
theorem C95_goda1985_loads :
    (VariesContinuously fun x => (·.FH) <$> Goda1985.calculate_pressures_and_forces disper (fin (HD x)) (fin (Hs x))
      (T x) (fin (β x)) (fin (h x)) (fin (d x)) (B1 x) (fin (cot x)) (fin (ρ x)) (fin (hacc x)) (fin (Rc x))
      (fin (Bup x)) (sop x) (fin (g x))) ∧
    (VariesContinuously fun x => (·.MH) <$> Goda1985.calculate_pressures_and_forces disper (fin (HD x)) (fin (Hs x))
      (T x) (fin (β x)) (fin (h x)) (fin (d x)) (B1 x) (fin (cot x)) (fin (ρ x)) (fin (hacc x)) (fin (Rc x))
      (fin (Bup x)) (sop x) (fin (g x))) ∧
    (VariesContinuously fun x => (·.FU) <$> Goda1985.calculate_pressures_and_forces disper (fin (HD x)) (fin (Hs x))
      (T x) (fin (β x)) (fin (h x)) (fin (d x)) (B1 x) (fin (cot x)) (fin (ρ x)) (fin (hacc x)) (fin (Rc x))
      (fin (Bup x)) (sop x) (fin (g x))) ∧
    VariesContinuously fun x => (·.MU) <$> Goda1985.calculate_pressures_and_forces disper (fin (HD x)) (fin (Hs x))
      (T x) (fin (β x)) (fin (h x)) (fin (d x)) (B1 x) (fin (cot x)) (fin (ρ x)) (fin (hacc x)) (fin (Rc x))
      (fin (Bup x)) (sop x) (fin (g x)) := by
  choose b e using fun x => loads_eval (HD := HD x) (Hsi := Hs x) (h := h x) (d := d x) (cot := cot x) (Rc := Rc x)
    (L := L x) (g := g x) (β := β x) (ρ := ρ x) (hacc := hacc x) (Bup := Bup x) (T := T x) (disper := disper)
    (kD.2 x) (kH.2 x).le (kh.2 x) (kd.2 x) (kc.2 x) (kR.2 x).le (kL.2 x) (hw x) (B1 x) (sop x)
  have hp := Real.pi_pos
  have kc' : Continuous fun x => cb (β x) := by unfold cb; simp only [bu_eq]; fun_prop
  have hc1 : ∀ x, 0 < 1 + cb (β x) := by
    intro x
    have h1 : bu (β x) < 180 := by rw [bu_eq]; exact sup_lt_iff.mpr ⟨by linarith [hβ x], by norm_num⟩
    have h0 : 0 ≤ bu (β x) := by rw [bu_eq]; exact le_sup_right
    have : Real.cos Real.pi < cb (β x) := by
      unfold cb
      apply Real.cos_lt_cos_of_nonneg_of_le_pi (by positivity) le_rfl
      nlinarith
    rw [Real.cos_pi] at this
    linarith
  have ke : PositiveInput fun x => eta (cb (β x)) (HD x) := by
    refine ⟨?_, fun x => ?_⟩
    · have := kD.1
      unfold eta; fun_prop
    · have := hc1 x
      have := kD.2 x
      unfold eta; positivity
  have kA1 : Continuous fun x => A1 (h x) (L x) := by
    refine continuous_iff_continuousAt.mpr fun x => ?_
    inputs [kh, kL] x
    have k : ContinuousAt (fun x => 4 * Real.pi * h x / L x) x := by cont
    have k' := Real.continuous_sinh.continuousAt.comp k
    have hs : 0 < Real.sinh (4 * Real.pi * h x / L x) := Real.sinh_pos_iff.mpr (by positivity)
    unfold A1
    exact continuousAt_const.add (continuousAt_const.mul ((k.div k' hs.ne').pow 2))
  have kA2 : Continuous fun x => A2 (HD x) (d x) (h5 (Hs x) (h x) (cot x)) := by
    refine continuous_iff_continuousAt.mpr fun x => ?_
    inputs [kD, kd, kH, kh, kc] x
    unfold A2 h5
    cont
  have kA3 : Continuous fun x => A3 (hacc x) (h x) (L x) := by
    refine continuous_iff_continuousAt.mpr fun x => ?_
    inputs [kh, kL] x
    have k : ContinuousAt (fun x => 2 * Real.pi * h x / L x) x := by cont
    have k' := Real.continuous_cosh.continuousAt.comp k
    have hs := Real.cosh_pos (2 * Real.pi * h x / L x)
    unfold A3
    have k2 : ContinuousAt (fun x => 1 / Real.cosh (2 * Real.pi * h x / L x)) x :=
      continuousAt_const.div k' hs.ne'
    cont
  have kD1 := kD.1
  have kR1 := kR.1
  have kP1 : Continuous fun x => P1 (cb (β x)) (A1 (h x) (L x)) (A2 (HD x) (d x) (h5 (Hs x) (h x) (cot x))) (ρ x)
      (g x) (HD x) := by unfold P1; fun_prop
  have kP4 : Continuous fun x => P4 (P1 (cb (β x)) (A1 (h x) (L x)) (A2 (HD x) (d x) (h5 (Hs x) (h x) (cot x))) (ρ x)
      (g x) (HD x)) (eta (cb (β x)) (HD x)) (Rc x) := by
    refine continuous_iff_continuousAt.mpr fun x => ?_
    simp only [P4_eq (ke.2 _)]
    exact kP1.continuousAt.mul ((continuousAt_const.sub (kR1.continuousAt.div ke.1.continuousAt (ke.2 x).ne')).sup
      continuousAt_const)
  have ke1 := ke.1
  have kPU : Continuous fun x => PU (cb (β x)) (A1 (h x) (L x)) (A3 (hacc x) (h x) (L x)) (ρ x) (g x) (HD x) := by
    unfold PU; fun_prop
  have ex : ∀ {f : Goda1985.Loads → PF} (x : X) (v : Goda1985.Loads) (m : PyM Goda1985.Loads), m.res = .ok v →
      (f <$> m).res = .ok (f v) := by
    intro f x v m hm
    rw [← bind_pure_comp, PyM.bind_res_of_ok hm]; rfl
  have fFH : ∀ {p a q u v : X → ℝ}, Continuous p → Continuous a → Continuous q → Continuous u → Continuous v →
      Continuous fun x => FHr (p x) (a x * p x) (q x) (u x) (v x) := by
    intro p a q u v _ _ _ _ _; unfold FHr; fun_prop
  have fMH : ∀ {p a q u v : X → ℝ}, Continuous p → Continuous a → Continuous q → Continuous u → Continuous v →
      Continuous fun x => MHr (p x) (a x * p x) (q x) (u x) (v x) := by
    intro p a q u v _ _ _ _ _; unfold MHr; fun_prop
  refine ⟨of _ (fun x => ex x _ _ (e x)) fun x => ?_, of _ (fun x => ex x _ _ (e x)) fun x => ?_,
    of _ (fun x => ex x _ _ (e x)) fun x => ?_, of _ (fun x => ex x _ _ (e x)) fun x => ?_⟩
  · exact (fFH kP1 kA3 kP4 ka (ke1.inf kR1)).continuousAt
  · exact (fMH kP1 kA3 kP4 ka (ke1.inf kR1)).continuousAt
  · exact ((continuous_const.mul kPU).mul kB).continuousAt
  · exact ((continuous_const.mul ((continuous_const.mul kPU).mul kB)).mul kB).continuousAt

end

/-- the direction of the waves passes 15 degrees -/
example := C95_goda1985_loads (X := Set.Ioo (-195 : ℝ) 195) (fun _ => fin 8) (fun _ => nan) (fun _ => nan)
  (const_input (a := 5) (by norm_num)) (const_input (a := 3) (by norm_num)) continuous_subtype_val
  (fun x => abs_lt.mpr ⟨by linarith [x.2.1], x.2.2⟩) (const_input (a := 12) (by norm_num))
  (const_input (a := 8) (by norm_num)) (const_input (a := 50) (by norm_num)) (continuous_const (y := (1025 : ℝ)))
  (continuous_const (y := (10 : ℝ))) (const_input (a := 4) (by norm_num)) (continuous_const (y := (15 : ℝ)))
  (continuous_const (y := (9.81 : ℝ))) (const_input (a := 1) one_pos) (fun _ _ _ => fin (2 * Real.pi)) (fun _ => by
    unfold CorePhysics.calculate_local_wavelength
    have := Real.pi_pos
    pf_eval []
    rw [div_self (by positivity)])
