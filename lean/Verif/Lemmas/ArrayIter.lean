import Verif.Lemmas.ArrayLoop
import Verif.Lemmas.ArrayRockArmourOther
import Verif.Lemmas.ArrayRearSlope

/-! # Functions that iterate, called with arrays -/

open Classical
open Arrays
noncomputable section
namespace ArrProof
variable {n : ℕ}

/-! ## Kramer & Burcharth -/

/-- case `i` of the loop variables -/
def kramerCase (s : Arr.KramerBurcharth.LoopState n) (i : Fin n) : KramerBurcharth.LoopState :=
  ⟨s.diff.get i, s.prev.get i, s.cur.get i⟩

theorem res_of_check {α : Type} {u : PyM Unit} {x : α} (hu : u.res = .ok ()) :
    (u >>= fun _ => (pure x : PyM α)).res = .ok x := by
  rw [PyM.bind_res_of_ok hu]; rfl

theorem kramer_check (Rc Dn50 : PF) :
    (KramerBurcharth.check_validity_range (Rc := Rc) (Dn50 := Dn50)).res = .ok () := by
  unfold KramerBurcharth.check_validity_range
  exact check_if_given_res ..

theorem KramerBurcharth_calculate_nominal_rock_diameter_Dn50 [NeZero n]
    (Hs Rc rho_armour Ns_init : Val n) (max_iter : ℕ) (t : ℝ) :
    IteratedTogether
      (Arr.KramerBurcharth.calculate_nominal_rock_diameter_Dn50 Hs Rc rho_armour Ns_init max_iter (.fin t))
      (fun i => KramerBurcharth.calculate_nominal_rock_diameter_Dn50 (Hs.get i) (Rc.get i)
        (rho_armour.get i) (Ns_init.get i) max_iter (.fin t))
      (fun k i => KramerBurcharth.calculate_nominal_rock_diameter_Dn50 (Hs.get i) (Rc.get i)
        (rho_armour.get i) (Ns_init.get i) k (-1.0)) max_iter t := by
  have h := together_of_loop (n := n) (N := max_iter) (t := t) kramerCase
    (Arr.KramerBurcharth.size_step Hs Rc (Arr.CorePhysics.calculate_buoyant_density_Delta rho_armour 1025))
    (fun i => KramerBurcharth.size_step (Hs.get i) (Rc.get i)
      (CorePhysics.calculate_buoyant_density_Delta (rho_armour.get i) 1025))
    (fun s => s.diff) (fun s => s.diff)
    { diff := Val.pinf, prev := Val.pinf, cur := Hs / (Arr.CorePhysics.calculate_buoyant_density_Delta rho_armour 1025 * Ns_init) }
    (fun s => do
      Arr.KramerBurcharth.check_validity_range (Rc := Rc) (Dn50 := s.cur)
      pure s.cur)
    (fun _ i s => do
      KramerBurcharth.check_validity_range (Rc := Rc.get i) (Dn50 := s.cur)
      pure s.cur)
    (fun s i => by
      unfold Arr.KramerBurcharth.size_step KramerBurcharth.size_step kramerCase
      simp only [cases_simp])
    (fun s i => rfl)
    (fun i j hj => by
      cases j with
      | zero => trivial
      | succ j =>
        rw [Function.iterate_succ_apply'] at hj ⊢
        exact abs_gt_neg _ hj)
    (fun K _ => by
      generalize Nat.iterate _ K _ = s
      simp only [kramerCase]
      arr_rel [KramerBurcharth_check_validity_range])
    (fun _ _ _ _ => rfl)
    (fun i j => by
      refine ⟨_, _, res_of_check (kramer_check ..), res_of_check (kramer_check ..), ?_⟩
      rw [Function.iterate_succ_apply', Function.iterate_succ_apply']
      rfl)
    (fun i j hn hm x => by
      rw [res_of_check (kramer_check ..)]
      cases j with
      | zero => exact hn.elim
      | succ j =>
        intro he
        rw [Except.ok.injEq] at he
        rw [Function.iterate_succ_apply'] at hn he
        refine change_nan hn ?_ x he
        cases j with
        | zero => exact fun h => h
        | succ j =>
          have := hm (j + 1) (by omega)
          rw [Function.iterate_succ_apply'] at this ⊢
          exact not_isnan_left this)
  unfold Arr.KramerBurcharth.calculate_nominal_rock_diameter_Dn50
    KramerBurcharth.calculate_nominal_rock_diameter_Dn50
  dsimp only
  simp only [kramerCase, cases_simp] at h
  exact h

theorem KramerBurcharth_calculate_crest_freeboard_Rc [NeZero n]
    (Hs rho_armour Dn50 M50 Rc_Dn50_init : Val n) (max_iter : ℕ) (t : ℝ)
    (h_Dn50 : Dn50.Uniform) (h_M50 : M50.Uniform) (h_rho_armour : rho_armour.Uniform) :
    IteratedTogether
      (Arr.KramerBurcharth.calculate_crest_freeboard_Rc Hs rho_armour Dn50 M50 Rc_Dn50_init max_iter (.fin t))
      (fun i => KramerBurcharth.calculate_crest_freeboard_Rc (Hs.get i) (rho_armour.get i)
        (Dn50.get i) (M50.get i) (Rc_Dn50_init.get i) max_iter (.fin t))
      (fun k i => KramerBurcharth.calculate_crest_freeboard_Rc (Hs.get i) (rho_armour.get i)
        (Dn50.get i) (M50.get i) (Rc_Dn50_init.get i) k (-1.0)) max_iter t := by
  unfold Arr.KramerBurcharth.calculate_crest_freeboard_Rc
    KramerBurcharth.calculate_crest_freeboard_Rc
  refine together_bind (CorePhysics_check_usage_Dn50_or_M50 _ _ _ h_Dn50 h_M50 h_rho_armour) fun D => ?_
  have h := together_of_loop (n := n) (N := max_iter) (t := t) kramerCase
    (Arr.KramerBurcharth.freeboard_step Hs D (Arr.CorePhysics.calculate_buoyant_density_Delta rho_armour 1025))
    (fun i => KramerBurcharth.freeboard_step (Hs.get i) (D.get i)
      (CorePhysics.calculate_buoyant_density_Delta (rho_armour.get i) 1025))
    (fun s => s.diff) (fun s => s.diff)
    { diff := Val.pinf, prev := Val.pinf, cur := Rc_Dn50_init * D }
    (fun s => do
      Arr.KramerBurcharth.check_validity_range (Rc := s.cur) (Dn50 := D)
      pure s.cur)
    (fun _ i s => do
      KramerBurcharth.check_validity_range (Rc := s.cur) (Dn50 := D.get i)
      pure s.cur)
    (fun s i => by
      unfold Arr.KramerBurcharth.freeboard_step KramerBurcharth.freeboard_step kramerCase
      simp only [cases_simp])
    (fun s i => rfl)
    (fun i j hj => by
      cases j with
      | zero => trivial
      | succ j =>
        rw [Function.iterate_succ_apply'] at hj ⊢
        exact abs_gt_neg _ hj)
    (fun K _ => by
      generalize Nat.iterate _ K _ = s
      simp only [kramerCase]
      arr_rel [KramerBurcharth_check_validity_range])
    (fun _ _ _ _ => rfl)
    (fun i j => by
      refine ⟨_, _, res_of_check (kramer_check ..), res_of_check (kramer_check ..), ?_⟩
      rw [Function.iterate_succ_apply', Function.iterate_succ_apply']
      rfl)
    (fun i j hn hm x => by
      rw [res_of_check (kramer_check ..)]
      cases j with
      | zero => exact hn.elim
      | succ j =>
        intro he
        rw [Except.ok.injEq] at he
        rw [Function.iterate_succ_apply'] at hn he
        refine change_nan hn ?_ x he
        cases j with
        | zero => exact fun h => h
        | succ j =>
          have := hm (j + 1) (by omega)
          rw [Function.iterate_succ_apply'] at this ⊢
          exact not_isnan_left this)
  dsimp only
  simp only [kramerCase, cases_simp] at h
  exact h

/-! ## Jumelet -/

/-- case `i` of the loop variables -/
def jumeletCase (s : Arr.Jumelet2024.LoopState n) (i : Fin n) : Jumelet2024.LoopState :=
  ⟨s.diff.get i, s.prev.get i, s.ksi.get i, s.Hs.map fun v => v.get i⟩

theorem jumelet_check (Hs Tmm10 N_waves cot_alpha : PF) :
    (Jumelet2024.check_validity_range (Hs := Hs) (Tmm10 := Tmm10) (N_waves := N_waves)
      (cot_alpha := cot_alpha)).res = .ok () := by
  unfold Jumelet2024.check_validity_range
  dsimp only
  rw [PyM.bind_res_of_ok (check_if_given_res ..), PyM.bind_res_of_ok (check_if_given_res ..),
    PyM.bind_res_of_ok (check_if_given_res ..)]
  exact check_if_given_res ..

/-- what the function does with the loop variables -/
def jumeletEnd (Tmm10 N_waves cot_alpha : PF) (s : Jumelet2024.LoopState) : PyM PF :=
  match s.Hs with
  | none => PyM.raise .unboundLocal
  | some Hs => do
    Jumelet2024.check_validity_range (Hs := Hs) (Tmm10 := Tmm10) (N_waves := N_waves)
      (cot_alpha := cot_alpha)
    pure Hs

/-- without a first guess there is no result -/
theorem jumelet_nan (Tmm10 N_waves cot_alpha S Dn50 c_pl g Delta : PF) (s : Jumelet2024.LoopState)
    (hs : s.ksi = CorePhysics.calculate_Iribarren_number_ksi s.prev Tmm10 cot_alpha)
    (h : s.prev.isnan) :
    (Jumelet2024.height_step Tmm10 N_waves cot_alpha S Dn50 c_pl g Delta s).prev = .nan := by
  have hp : s.prev = .nan := by
    generalize s.prev = x at h
    cases x <;> first | rfl | exact h.elim
  unfold Jumelet2024.height_step Jumelet2024.calculate_fraction_plunging_waves_Fp
  dsimp only
  rw [hs, hp]
  unfold CorePhysics.calculate_Iribarren_number_ksi CorePhysics.calculate_wave_steepness_s
  have sq : PF.sqrt .nan = .nan := rfl
  have dv : ∀ x : PF, .nan / x = .nan := fun x => by cases x <;> rfl
  have vd : ∀ x : PF, x / .nan = .nan := fun x => by cases x <;> rfl
  have ad : ∀ x : PF, .nan + x = .nan := fun x => by cases x <;> rfl
  have sb : ∀ x : PF, .nan - x = .nan := fun x => by cases x <;> rfl
  have rd : PF.round .nan = .nan := rfl
  simp (disch := norm_num) only [PF.nan_mul, PF.mul_nan, sq, dv, vd, ad, sb, rd, PF.sci_eq, PF.neg_fin, PF.npow_nan_fin, PF.npow_nan_two]

theorem Jumelet2024_calculate_significant_wave_height_Hs [NeZero n]
    (Tmm10 N_waves cot_alpha rho_armour S Dn50 M50 c_pl g smm10_init : Val n) (max_iter : ℕ) (t : ℝ)
    (h_Dn50 : Dn50.Uniform) (h_M50 : M50.Uniform) (h_rho_armour : rho_armour.Uniform) :
    IteratedTogether
      (Arr.Jumelet2024.calculate_significant_wave_height_Hs Tmm10 N_waves cot_alpha rho_armour S Dn50
        M50 c_pl g smm10_init max_iter (.fin t))
      (fun i => Jumelet2024.calculate_significant_wave_height_Hs (Tmm10.get i) (N_waves.get i)
        (cot_alpha.get i) (rho_armour.get i) (S.get i) (Dn50.get i) (M50.get i) (c_pl.get i) (g.get i)
        (smm10_init.get i) max_iter (.fin t))
      (fun k i => Jumelet2024.calculate_significant_wave_height_Hs (Tmm10.get i) (N_waves.get i)
        (cot_alpha.get i) (rho_armour.get i) (S.get i) (Dn50.get i) (M50.get i) (c_pl.get i) (g.get i)
        (smm10_init.get i) k (-1.0)) max_iter t := by
  unfold Arr.Jumelet2024.calculate_significant_wave_height_Hs
    Jumelet2024.calculate_significant_wave_height_Hs
  refine together_bind (CorePhysics_check_usage_Dn50_or_M50 _ _ _ h_Dn50 h_M50 h_rho_armour) fun D => ?_
  have h := together_of_loop (n := n) (N := max_iter) (t := t) jumeletCase
    (Arr.Jumelet2024.height_step Tmm10 N_waves cot_alpha S D c_pl g
      (Arr.CorePhysics.calculate_buoyant_density_Delta rho_armour 1025))
    (fun i => Jumelet2024.height_step (Tmm10.get i) (N_waves.get i) (cot_alpha.get i) (S.get i) (D.get i)
      (c_pl.get i) (g.get i) (CorePhysics.calculate_buoyant_density_Delta (rho_armour.get i) 1025))
    (fun s => s.diff) (fun s => s.diff)
    { diff := Val.pinf, prev := smm10_init * Val.npow Tmm10 2 * g / (2 * Val.pi),
      ksi := Arr.CorePhysics.calculate_Iribarren_number_ksi (smm10_init * Val.npow Tmm10 2 * g / (2 * Val.pi)) Tmm10 cot_alpha,
      Hs := none }
    (fun s => match s.Hs with
      | none => PyM.raise .unboundLocal
      | some Hs => do
        Arr.Jumelet2024.check_validity_range (Hs := Hs) (Tmm10 := Tmm10) (N_waves := N_waves)
          (cot_alpha := cot_alpha)
        pure Hs)
    (fun _ i s => jumeletEnd (Tmm10.get i) (N_waves.get i) (cot_alpha.get i) s)
    (fun s i => by
      unfold Arr.Jumelet2024.height_step Jumelet2024.height_step jumeletCase
      simp only [cases_simp, Option.map_some])
    (fun s i => rfl)
    (fun i j hj => by
      cases j with
      | zero => trivial
      | succ j =>
        rw [Function.iterate_succ_apply'] at hj ⊢
        exact abs_gt_neg _ hj)
    (fun K _ => by
      generalize Nat.iterate _ K _ = s
      simp only [jumeletCase, jumeletEnd]
      cases s.Hs with
      | none => exact Rel.raise
      | some H =>
        simp only [Option.map_some]
        arr_rel [Jumelet2024_check_validity_range])
    (fun _ _ _ _ => rfl)
    (fun i j => by
      rw [Function.iterate_succ_apply', Function.iterate_succ_apply']
      exact ⟨_, _, res_of_check (jumelet_check ..), res_of_check (jumelet_check ..), rfl⟩)
    (fun i j hn hm x => by
      cases j with
      | zero => exact hn.elim
      | succ j =>
        rw [Function.iterate_succ_apply'] at hn ⊢
        rw [show (jumeletEnd _ _ _ (Jumelet2024.height_step _ _ _ _ _ _ _ _ _)).res = .ok _ from
          res_of_check (jumelet_check ..)]
        intro he
        rw [Except.ok.injEq] at he
        refine change_nan hn ?_ x he
        cases j with
        | zero =>
          intro hp
          have := jumelet_nan (Tmm10.get i) (N_waves.get i) (cot_alpha.get i) (S.get i) (D.get i)
            (c_pl.get i) (g.get i)
            (CorePhysics.calculate_buoyant_density_Delta (rho_armour.get i) 1025) _
            (by simp only [Function.iterate_zero, id_eq, jumeletCase, cases_simp]) hp
          exact PF.noConfusion (this.symm.trans he)
        | succ j =>
          have := hm (j + 1) (by omega)
          rw [Function.iterate_succ_apply'] at this ⊢
          exact not_isnan_left this)
  dsimp only
  simp only [jumeletCase, jumeletEnd, cases_simp, Option.map_none] at h
  exact h

/-! ## Rear slope -/

/-- case `i` of the loop variables -/
def rearCase (s : Arr.RearState n) (i : Fin n) : RearState :=
  ⟨s.iteration, s.Hs_i1.get i, s.Hs_i0.get i, s.z1p.map fun v => v.get i⟩

/-- what the functions do with the loop variables -/
def rearEndArr (C : Val n → Val n → PyM Unit) (max_iterations : ℕ) (s : Arr.RearState n) :
    PyM (Val n) := do
  if s.iteration ≥ max_iterations then
    PyM.warn (.text "Maximum number of iterations reached, convergence not achieved")
  let Hs := s.Hs_i1
  match s.z1p with
  | none => PyM.raise .unboundLocal
  | some z1p => do
    C Hs z1p
    pure Hs

/-- what the functions do with the loop variables -/
def rearEnd (C : PF → PF → PyM Unit) (max_iterations : ℕ) (s : RearState) : PyM PF := do
  if s.iteration ≥ max_iterations then
    PyM.warn (.text "Maximum number of iterations reached, convergence not achieved")
  let Hs := s.Hs_i1
  match s.z1p with
  | none => PyM.raise .unboundLocal
  | some z1p => do
    C Hs z1p
    pure Hs

theorem rearEnd_res (C : PF → PF → PyM Unit) (hC : ∀ x y, (C x y).res = .ok ()) (N : ℕ) (s : RearState) :
    (rearEnd C N s).res = if s.z1p.isSome then .ok s.Hs_i1 else .error .unboundLocal := by
  unfold rearEnd
  have hw : ∀ u : Warn, (PyM.warn u : PyM Unit).res = .ok () := fun u => rfl
  split_ifs with h1 h2
  all_goals
    cases hz : s.z1p <;> simp only [hz, Option.isSome] at * <;>
    first
    | (rw [PyM.bind_res_of_ok (hw _)]; first | exact res_of_check (hC _ _) | rfl)
    | exact res_of_check (hC _ _)
    | rfl
    | contradiction

theorem rel_more_warnings {w : Warn} {x : PyM (Val n)} {y : Fin n → PyM PF} (h : Rel False x y) :
    Rel False x (fun i => PyM.warn w >>= fun _ => y i) := by
  refine ⟨fun i => ?_, fun u hu => ?_, fun h => h.elim⟩
  · rw [h.vals i]; rfl
  · obtain ⟨i, hi⟩ := h.sub u hu
    exact ⟨i, by
      simp only [PyM.warn_def, PyM.bind_ok]
      exact List.mem_append_right _ hi⟩

theorem rear_together [NeZero n] {N : ℕ} {t : ℝ} (stepA : Arr.RearState n → Arr.RearState n)
    (step : Fin n → RearState → RearState) (CA : Val n → Val n → PyM Unit)
    (C : Fin n → PF → PF → PyM Unit) (x0 : Val n)
    (hcase : ∀ s i, rearCase (stepA s) i = step i (rearCase s i))
    (hit : ∀ s, (stepA s).iteration = s.iteration + 1)
    (h0 : ∀ i s, (step i s).Hs_i0 = s.Hs_i1) (hz : ∀ i s, (step i s).z1p.isSome)
    (hC : ∀ i x y, (C i x y).res = .ok ())
    (hCA : ∀ x y, Rel False (CA x y) (fun i => C i (x.get i) (y.get i))) :
    IteratedTogether
      (rearEndArr CA N (whileIter N (Arr.RearState.go (.fin t)) stepA
        { iteration := 0, Hs_i1 := x0, Hs_i0 := x0 + Val.pinf, z1p := none }))
      (fun i => rearEnd (C i) N (whileIter N (RearState.go (.fin t)) (step i)
        { iteration := 0, Hs_i1 := x0.get i, Hs_i0 := x0.get i + PF.pinf, z1p := none }))
      (fun k i => rearEnd (C i) k (whileIter k (RearState.go (-1.0)) (step i)
        { iteration := 0, Hs_i1 := x0.get i, Hs_i0 := x0.get i + PF.pinf, z1p := none })) N t := by
  have h := together_of_loop (n := n) (N := N) (t := t) rearCase stepA step
    (fun s => Val.abs (s.Hs_i1 - s.Hs_i0)) (fun s => PF.abs (s.Hs_i1 - s.Hs_i0))
    { iteration := 0, Hs_i1 := x0, Hs_i0 := x0 + Val.pinf, z1p := none }
    (rearEndArr CA N) (fun k i => rearEnd (C i) k) hcase
    (fun s i => by simp only [cases_simp, rearCase])
    (fun i j hj => abs_gt_neg _ hj)
    (fun K hK => by
      have hK' : ∀ j, (stepA^[j] { iteration := 0, Hs_i1 := x0, Hs_i0 := x0 + Val.pinf, z1p := none }).iteration = j := by
        intro j
        induction j with
        | zero => rfl
        | succ j ih => rw [Function.iterate_succ_apply', hit, ih]
      have hk := hK' K
      generalize Nat.iterate _ K _ = s at hk ⊢
      unfold rearEndArr rearEnd
      simp only [rearCase, hk]
      have hX : Rel False (match s.z1p with
          | none => PyM.raise PyErr.unboundLocal
          | some z1p => do
            CA s.Hs_i1 z1p
            pure s.Hs_i1 : PyM (Val n)) (fun i => (match s.z1p.map fun v => v.get i with
          | none => PyM.raise PyErr.unboundLocal
          | some z1p => do
            C i (s.Hs_i1.get i) z1p
            pure (s.Hs_i1.get i) : PyM PF)) := by
        cases s.z1p with
        | none => exact Rel.raise
        | some z =>
          simp only [Option.map_some]
          exact Rel.bind (hCA _ _) fun _ => Rel.pure fun i => rfl
      by_cases hKN : K ≥ N
      · rw [if_pos hKN]
        refine (Rel.bind (k := fun i _ => (match s.z1p.map fun v => v.get i with
          | none => PyM.raise PyErr.unboundLocal
          | some z1p => do
            C i (s.Hs_i1.get i) z1p
            pure (s.Hs_i1.get i) : PyM PF)) Rel.warn fun _ => hX).congr fun i => ?_
        rw [if_pos le_rfl]
      · rw [if_neg hKN]
        refine (rel_more_warnings (w := .text "Maximum number of iterations reached, convergence not achieved") hX).congr fun i => ?_
        rw [if_pos le_rfl])
    (fun K N i s => by rw [rearEnd_res _ (hC i), rearEnd_res _ (hC i)])
    (fun i j => by
      rw [rearEnd_res _ (hC i), rearEnd_res _ (hC i), Function.iterate_succ_apply',
        Function.iterate_succ_apply', if_pos (hz i _), if_pos (hz i _)]
      exact ⟨_, _, rfl, rfl, by rw [h0]⟩)
    (fun i j hn hm x => by
      rw [rearEnd_res _ (hC i)]
      cases j with
      | zero =>
        simp only [Function.iterate_zero, id_eq, rearCase, Option.map_none, Option.isSome_none]
        intro h; cases h
      | succ j =>
        have := hm j (by omega)
        rw [Function.iterate_succ_apply'] at hn ⊢
        rw [if_pos (hz i _)]
        intro he
        rw [Except.ok.injEq] at he
        rw [h0] at hn
        exact change_nan hn (not_isnan_left this) x he)
  simp only [rearCase, cases_simp, Option.map_none] at h
  exact h

theorem rear2007_check (Rc Rc2_front Rc2_rear Gc Dn50 B_element h Hs Tmm10 z1p S N_waves : PF) :
    (VanGent2007Rear.check_validity_range Rc Rc2_front Rc2_rear Gc Dn50 B_element h Hs Tmm10 z1p S
      N_waves).res = .ok () := by
  unfold VanGent2007Rear.check_validity_range
  dsimp only
  repeat rw [PyM.bind_res_of_ok (check_if_given_res ..)]
  exact check_if_given_res ..

theorem pozueta_check (Rc Rc_rear cot_phi gamma_f Dn50 rho_rock rho_water Bc Hs Tmm10 z1p S N_waves : PF) :
    (VanGentPozueta2004.check_validity_range Rc Rc_rear cot_phi gamma_f Dn50 rho_rock rho_water Bc Hs
      Tmm10 z1p S N_waves).res = .ok () := by
  unfold VanGentPozueta2004.check_validity_range
  dsimp only
  repeat rw [PyM.bind_res_of_ok (check_if_given_res ..)]
  exact check_if_given_res ..

theorem VanGent2007Rear_calculate_maximum_significant_wave_height_Hs [NeZero n]
    (cot_alpha cot_phi gamma S Tmm10 Rc Rc2_front Rc2_rear N_waves Dn50 M50 rho_rock : Val n) (t : ℝ)
    (max_iterations : ℕ)
    (h_Dn50 : Dn50.Uniform) (h_M50 : M50.Uniform) (h_rho_rock : rho_rock.Uniform) :
    IteratedTogether
      (Arr.VanGent2007Rear.calculate_maximum_significant_wave_height_Hs cot_alpha cot_phi gamma S Tmm10 Rc
        Rc2_front Rc2_rear N_waves Dn50 M50 rho_rock (.fin t) max_iterations)
      (fun i => VanGent2007Rear.calculate_maximum_significant_wave_height_Hs (cot_alpha.get i)
        (cot_phi.get i) (gamma.get i) (S.get i) (Tmm10.get i) (Rc.get i) (Rc2_front.get i)
        (Rc2_rear.get i) (N_waves.get i) (Dn50.get i) (M50.get i) (rho_rock.get i) (.fin t) max_iterations)
      (fun k i => VanGent2007Rear.calculate_maximum_significant_wave_height_Hs (cot_alpha.get i)
        (cot_phi.get i) (gamma.get i) (S.get i) (Tmm10.get i) (Rc.get i) (Rc2_front.get i)
        (Rc2_rear.get i) (N_waves.get i) (Dn50.get i) (M50.get i) (rho_rock.get i) (-1.0) k)
      max_iterations t := by
  unfold Arr.VanGent2007Rear.calculate_maximum_significant_wave_height_Hs
    VanGent2007Rear.calculate_maximum_significant_wave_height_Hs
  refine together_bind (CorePhysics_check_usage_Dn50_or_M50 _ _ _ h_Dn50 h_M50 h_rho_rock) fun D => ?_
  exact rear_together (n := n) (N := max_iterations) (t := t)
    (Arr.VanGent2007Rear.height_step cot_alpha cot_phi gamma S Tmm10 Rc Rc2_front Rc2_rear N_waves D)
    (fun i => VanGent2007Rear.height_step (cot_alpha.get i) (cot_phi.get i) (gamma.get i) (S.get i)
      (Tmm10.get i) (Rc.get i) (Rc2_front.get i) (Rc2_rear.get i) (N_waves.get i) (D.get i))
    (fun Hs z1p => Arr.VanGent2007Rear.check_validity_range (S := S) (Hs := Hs) (Rc := Rc)
      (z1p := z1p) (Rc2_front := Rc2_front) (Rc2_rear := Rc2_rear) (N_waves := N_waves) (Dn50 := D))
    (fun i Hs z1p => VanGent2007Rear.check_validity_range (S := S.get i) (Hs := Hs) (Rc := Rc.get i)
      (z1p := z1p) (Rc2_front := Rc2_front.get i) (Rc2_rear := Rc2_rear.get i)
      (N_waves := N_waves.get i) (Dn50 := D.get i)) Rc2_front
    (fun s i => by
      unfold Arr.VanGent2007Rear.height_step VanGent2007Rear.height_step rearCase
      simp only [cases_simp, Option.map_some])
    (fun s => rfl) (fun i s => rfl) (fun i s => rfl) (fun i x y => rear2007_check ..)
    (fun x y => by arr_rel [VanGent2007Rear_check_validity_range])

theorem VanGentPozueta2004_calculate_maximum_significant_wave_height_Hs [NeZero n]
    (cot_alpha cot_phi gamma_f gamma_f_Crest S Tmm10 Rc Rc_rear Bc N_waves Dn50 M50 rho_rock rho_water
      cs : Val n) (t : ℝ) (max_iterations : ℕ)
    (h_Dn50 : Dn50.Uniform) (h_M50 : M50.Uniform) (h_rho_rock : rho_rock.Uniform) :
    IteratedTogether
      (Arr.VanGentPozueta2004.calculate_maximum_significant_wave_height_Hs cot_alpha cot_phi gamma_f
        gamma_f_Crest S Tmm10 Rc Rc_rear Bc N_waves Dn50 M50 rho_rock rho_water cs (.fin t) max_iterations)
      (fun i => VanGentPozueta2004.calculate_maximum_significant_wave_height_Hs (cot_alpha.get i)
        (cot_phi.get i) (gamma_f.get i) (gamma_f_Crest.get i) (S.get i) (Tmm10.get i) (Rc.get i)
        (Rc_rear.get i) (Bc.get i) (N_waves.get i) (Dn50.get i) (M50.get i) (rho_rock.get i)
        (rho_water.get i) (cs.get i) (.fin t) max_iterations)
      (fun k i => VanGentPozueta2004.calculate_maximum_significant_wave_height_Hs (cot_alpha.get i)
        (cot_phi.get i) (gamma_f.get i) (gamma_f_Crest.get i) (S.get i) (Tmm10.get i) (Rc.get i)
        (Rc_rear.get i) (Bc.get i) (N_waves.get i) (Dn50.get i) (M50.get i) (rho_rock.get i)
        (rho_water.get i) (cs.get i) (-1.0) k) max_iterations t := by
  unfold Arr.VanGentPozueta2004.calculate_maximum_significant_wave_height_Hs
    VanGentPozueta2004.calculate_maximum_significant_wave_height_Hs
  dsimp only
  refine together_bind (CorePhysics_check_usage_Dn50_or_M50 _ _ _ h_Dn50 h_M50 h_rho_rock) fun D => ?_
  have h := rear_together (n := n) (N := max_iterations) (t := t)
    (Arr.VanGentPozueta2004.height_step cot_alpha cot_phi gamma_f gamma_f_Crest S Tmm10 Rc Rc_rear Bc
      N_waves D (Arr.CorePhysics.calculate_buoyant_density_Delta rho_rock rho_water) cs)
    (fun i => VanGentPozueta2004.height_step (cot_alpha.get i) (cot_phi.get i) (gamma_f.get i)
      (gamma_f_Crest.get i) (S.get i) (Tmm10.get i) (Rc.get i) (Rc_rear.get i) (Bc.get i)
      (N_waves.get i) (D.get i)
      (CorePhysics.calculate_buoyant_density_Delta (rho_rock.get i) (rho_water.get i)) (cs.get i))
    (fun Hs z1p => Arr.VanGentPozueta2004.check_validity_range (Rc := Rc) (Rc_rear := Rc_rear)
      (cot_phi := cot_phi) (gamma_f := gamma_f) (Dn50 := D) (rho_rock := rho_rock)
      (rho_water := rho_water) (Bc := Bc) (Hs := Hs) (Tmm10 := Tmm10) (z1p := z1p) (S := S)
      (N_waves := N_waves))
    (fun i Hs z1p => VanGentPozueta2004.check_validity_range (Rc := Rc.get i) (Rc_rear := Rc_rear.get i)
      (cot_phi := cot_phi.get i) (gamma_f := gamma_f.get i) (Dn50 := D.get i)
      (rho_rock := rho_rock.get i) (rho_water := rho_water.get i) (Bc := Bc.get i) (Hs := Hs)
      (Tmm10 := Tmm10.get i) (z1p := z1p) (S := S.get i) (N_waves := N_waves.get i))
    ((Rc + 0.5) / (2.552 * gamma_f))
    (fun s i => by
      unfold Arr.VanGentPozueta2004.height_step VanGentPozueta2004.height_step rearCase
      simp only [cases_simp, Option.map_some])
    (fun s => rfl) (fun i s => rfl) (fun i s => rfl) (fun i x y => pozueta_check ..)
    (fun x y => by arr_rel [VanGentPozueta2004_check_validity_range])
  simp only [cases_simp] at h
  exact h

end ArrProof
end
