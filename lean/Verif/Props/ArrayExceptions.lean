import Verif.Lemmas.ArrayIter
import Verif.Lemmas.ArrayTransmission
import Verif.Lemmas.ArrayTaw2002
import Verif.Lemmas.ArrayTaw
import Verif.Array.Overtopping
import Verif.Lemmas.ArrayXbloc
import Verif.Lemmas.ArrayHudson1959

/-! # Where calls with arrays differ from calls for the single cases (limits of C83, C84 and C85) -/

open Classical
open Arrays
noncomputable section
variable {n : ℕ}

/-! ## Values -/

/-- With an array of periods and a number for the depth, the wave length of the first period is returned
for all of them. -/
theorem C83_first_period_only [NeZero n] (disper : PF → PF → PF → PF) (T : Fin n → PF) (h g : PF) (i : Fin n) :
    (Arr.CorePhysics.calculate_local_wavelength disper (.arr T) (.num h) g).res.map
        (fun v => Cases.case v i) =
      .ok (CorePhysics.calculate_local_wavelength disper (T 0) h g) := by
  unfold Arr.CorePhysics.calculate_local_wavelength CorePhysics.calculate_local_wavelength
  simp only [PyM.pure_def, Except.map, Except.ok.injEq]
  simp only [cases_simp]

theorem C83_refuted_wavelength : ¬ ∀ (disper : PF → PF → PF → PF) (T h : Val 2) (g : PF),
    CaseByCase (Arr.CorePhysics.calculate_local_wavelength disper T h g)
      (fun i => pure (CorePhysics.calculate_local_wavelength disper (T.get i) (h.get i) g)) := by
  intro hall
  have h := hall (fun w _ _ => w) (.arr ![.fin 1, .fin 2]) (.num (.fin 1)) (.fin 1) 1
  rw [C83_first_period_only] at h
  simp only [PyM.pure_def, Except.ok.injEq] at h
  unfold CorePhysics.calculate_local_wavelength at h
  simp only [PF.pi, PF.ofNat_eq, PF.mul_fin, Val.get, Matrix.cons_val_zero, Matrix.cons_val_one,
    Nat.cast_ofNat] at h
  have hp := Real.pi_pos
  rw [PF.div_fin (by norm_num), PF.div_fin (by norm_num), PF.div_fin (by positivity),
    PF.div_fin (by positivity), PF.fin.injEq] at h
  field_simp at h
  norm_num at h

/-- Goda (1967) with arrays: if the first case is submerged so deeply that `Kt` is the whole number 1, the
transmission coefficients of all other cases are cut off to whole numbers: a case whose coefficient is
a number below 1 gets 0. -/
theorem C83_goda_whole_numbers (Hsi Rc : Fin (n + 1) → PF) (alpha_1 beta_1 : PF) (i : Fin (n + 1)) (k : ℝ)
    (h0 : Rc 0 / Hsi 0 ≤ -1 * alpha_1 - beta_1)
    (hall : ∀ j, ∃ r : ℝ, Goda1967.calculate_wave_transmission_Kt (Hsi j) (Rc j) alpha_1 beta_1 = .fin r)
    (hi : Goda1967.calculate_wave_transmission_Kt (Hsi i) (Rc i) alpha_1 beta_1 = .fin k)
    (hk : 0 ≤ k ∧ k < 1) :
    (Arr.Goda1967.calculate_wave_transmission_Kt (.arr Hsi) (.arr Rc) (.num alpha_1) (.num beta_1)).res.map
      (fun v => Cases.case v i) = .ok (.fin 0) := by
  have hfl : ∀ j, (Arr.Goda1967.single_case (Hsi j) (Rc j) alpha_1 beta_1).toFloat =
      Goda1967.calculate_wave_transmission_Kt (Hsi j) (Rc j) alpha_1 beta_1 := by
    intro j
    unfold Arr.Goda1967.single_case Goda1967.calculate_wave_transmission_Kt
    dsimp only
    split_ifs
    · simp only [PyNum.toFloat, Int.cast_one]; exact PF.one_eq.symm
    · rfl
    · rfl
  have hint : ∀ j, ∃ x, (Arr.Goda1967.single_case (Hsi j) (Rc j) alpha_1 beta_1).toInt.res = .ok x ∧
      ∀ r : ℝ, 0 ≤ r → r < 1 →
        Goda1967.calculate_wave_transmission_Kt (Hsi j) (Rc j) alpha_1 beta_1 = .fin r → x = .fin 0 := by
    intro j
    obtain ⟨r, hr⟩ := hall j
    rw [← hfl] at hr ⊢
    generalize Arr.Goda1967.single_case (Hsi j) (Rc j) alpha_1 beta_1 = y at hr
    cases y with
    | int z =>
      refine ⟨_, rfl, fun s h0 h1 hs => ?_⟩
      simp only [PyNum.toFloat, PF.fin.injEq] at hs
      have h2 : (0 : ℤ) ≤ z := by exact_mod_cast hs.symm ▸ h0
      have h3 : z < 1 := by exact_mod_cast hs.symm ▸ h1
      obtain rfl : z = 0 := by omega
      norm_num
    | float y =>
      simp only [PyNum.toFloat] at hr
      subst hr
      refine ⟨_, rfl, fun s h0 h1 hs => ?_⟩
      simp only [PyNum.toFloat, PF.fin.injEq] at hs
      subst hs
      rw [if_pos h0, Int.floor_eq_zero_iff.mpr ⟨h0, h1⟩, Int.cast_zero]
  choose x hx hx' using hint
  have hf := (ArrProof.forEach_ok (n := n + 1)
    (f := fun j => (pure (Arr.Goda1967.single_case (Hsi j) (Rc j) alpha_1 beta_1) : PyM PyNum))
    (v := fun j => Arr.Goda1967.single_case (Hsi j) (Rc j) alpha_1 beta_1) fun j => rfl).1
  have hg := (ArrProof.forEach_ok (n := n + 1)
    (f := fun j => (Arr.Goda1967.single_case (Hsi j) (Rc j) alpha_1 beta_1).toInt) (v := x) hx).1
  have h1 : Arr.Goda1967.single_case (Hsi 0) (Rc 0) alpha_1 beta_1 = .int 1 := by
    unfold Arr.Goda1967.single_case
    exact if_pos h0
  unfold Arr.Goda1967.calculate_wave_transmission_Kt vectorize
  simp only [Val.get]
  rw [h1, PyM.bind_res_of_ok (a := PyNum.int 1) rfl, PyM.bind_res_of_ok hf]
  dsimp only
  rw [PyM.bind_res_of_ok hg]
  show Except.ok (x i) = _
  rw [hx' i k hk.1 hk.2 hi]

/-- two caissons in the same waves, the first submerged by three wave heights, the second with its crest
three wave heights above the water: the second one transmits a fraction 0.03 of the waves, and 0 according
to the call with both -/
theorem C83_refuted_goda : ¬ ∀ Hsi Rc : Val 2, CaseByCase (Arr.Goda1967.calculate_wave_transmission_Kt Hsi Rc)
    (fun i => pure (Goda1967.calculate_wave_transmission_Kt (Hsi.get i) (Rc.get i))) := by
  intro hall
  have e0 : Goda1967.calculate_wave_transmission_Kt (.fin 1) (.fin (-3)) = .fin 1 := by
    unfold Goda1967.calculate_wave_transmission_Kt
    dsimp only
    rw [if_pos]
    · exact PF.one_eq
    · simp only [PF.ofNat_eq, PF.one_eq, PF.sci_eq, PF.neg_fin, PF.mul_fin, PF.sub_fin]
      rw [PF.div_fin (by norm_num), PF.le_fin]; norm_num
  have e1 : Goda1967.calculate_wave_transmission_Kt (.fin 1) (.fin 3) = .fin 0.03 := by
    unfold Goda1967.calculate_wave_transmission_Kt
    dsimp only
    rw [if_neg, if_neg]
    · exact PF.sci_eq ..
    all_goals
      simp only [PF.ofNat_eq, PF.one_eq, PF.sci_eq, PF.neg_fin, PF.mul_fin, PF.sub_fin]
      rw [PF.div_fin (by norm_num), PF.le_fin]; norm_num
  have h := hall (.arr ![.fin 1, .fin 1]) (.arr ![.fin (-3), .fin 3]) 1
  have key := C83_goda_whole_numbers (n := 1) ![.fin 1, .fin 1] ![.fin (-3), .fin 3] 2.2 0.4 1 0.03
    (by
      simp only [Matrix.cons_val_zero, PF.ofNat_eq, PF.one_eq, PF.sci_eq, PF.neg_fin, PF.mul_fin, PF.sub_fin]
      rw [PF.div_fin (by norm_num), PF.le_fin]; norm_num)
    (fun j => by
      refine Fin.cases ⟨1, e0⟩ (fun j => ?_) j
      obtain rfl : j = 0 := Subsingleton.elim _ _
      exact ⟨0.03, e1⟩) e1 (by norm_num)
  have : Except.ok (ε := PyErr) (Goda1967.calculate_wave_transmission_Kt (.fin 1) (.fin 3)) = .ok (.fin 0) :=
    h.symm.trans key
  rw [e1, Except.ok.injEq, PF.fin.injEq] at this
  norm_num at this

/-- The factor for a berm raises an exception whenever the berm width is an array. -/
theorem C83_berm_factor_raises (Hm0 z2p db L_berm : PF) (B_berm : Fin n → PF) :
    (Arr.RunupTaw2002.calculate_influence_berm_gamma_b (.num Hm0) (.num z2p) (.num db) (.arr B_berm)
      (.num L_berm)).res = .error .valueError := rfl

/-- The Xbloc correction factor for the sea bed raises an exception for every array of two or more bed
slopes, whatever they are. -/
theorem C83_xbloc_raises (cot_alpha : Fin n → PF) (hn : n ≠ 1) :
    (Arr.Xbloc.calculate_correctionfactor_unit_mass_M_by_cotalpha_seabed (.arr cot_alpha)).res =
      .error .valueError := by
  unfold Arr.Xbloc.calculate_correctionfactor_unit_mass_M_by_cotalpha_seabed
  have : ∀ y : PF, (Val.le (n := n) (.arr cot_alpha) (.num y)).truth = PyM.raise .valueError := fun y => by
    show BVal.truth (.arr _) = _
    unfold BVal.truth
    exact dif_neg hn
  have h30 := this 30
  show (PyM.cond (PyM.and (Val.le (.arr cot_alpha) (.num 30)).truth _) _ _).res = _
  rw [h30]
  rfl

/-- One case of 100 percent damage or more makes the Hudson formula raise an exception for all cases. -/
theorem C83_hudson_damage_raises (p : Fin n → PF) (i : Fin n) (rock_type : String)
    (hrock : Hudson1959.norm rock_type = "rough" ∨ Hudson1959.norm rock_type = "smooth")
    (hi : (100 : PF) ≤ p i) :
    (Arr.Hudson1959.lookup_table_damage_factors (.arr p) rock_type).res = .error .indexError := by
  have hind : Hudson1959.searchsorted_right Hudson1959.percentages (p i) = 9 := by
    unfold Hudson1959.searchsorted_right
    split_ifs with hn
    · rfl
    · have h1 : ∀ x ∈ Hudson1959.percentages, x ≤ p i := by
        intro x hx
        have h2 : ∃ r : ℝ, x = .fin r ∧ r ≤ 100 := by
          simp only [Hudson1959.percentages, List.mem_cons, List.not_mem_nil, or_false] at hx
          rcases hx with h | h | h | h | h | h | h | h | h <;> subst h <;>
            first
            | exact ⟨0, PF.zero_eq, by norm_num⟩
            | exact ⟨_, PF.ofNat_eq _, by norm_num⟩
        obtain ⟨r, rfl, hr⟩ := h2
        rw [PF.ofNat_eq] at hi
        cases hp : p i with
        | nan => rw [hp] at hi; exact hi.elim
        | ninf => rw [hp] at hi; exact hi.elim
        | pinf => trivial
        | fin q =>
          rw [hp, PF.le_fin] at hi
          rw [PF.le_fin]
          exact hr.trans (le_trans (by norm_num) hi)
      have : ∀ l : List PF, (∀ x ∈ l, x ≤ p i) → l.takeWhile (fun x => decide (x ≤ p i)) = l := by
        intro l hl
        induction l with
        | nil => rfl
        | cons x xs ih =>
          rw [List.takeWhile_cons, if_pos (decide_eq_true (hl x (by simp))),
            ih fun y hy => hl y (List.mem_cons_of_mem _ hy)]
      rw [this _ h1]
      rfl
  have key : ∀ f : List PF, f.length = 9 → (Arr.Hudson1959.take f (.arr p)).res = .error .indexError := by
    intro f hf
    unfold Arr.Hudson1959.take
    dsimp only
    rw [if_neg]
    · rfl
    · intro h
      have := h i
      rw [hind, hf] at this
      exact absurd this (by norm_num)
  unfold Arr.Hudson1959.lookup_table_damage_factors
  rcases hrock with h | h
  · rw [if_pos h]; exact key _ rfl
  · rw [if_neg (by rw [h]; decide), if_pos h]; exact key _ rfl

/-- EurOtop (2018): an array of wave periods together with a single wave height and a single freeboard
raises an exception, whatever the numbers are (slope and obliqueness factor given). -/
theorem C83_eurotop_array_of_periods_raises (Hm0 Rc beta gamma_f gamma_v gamma_star db : PF) (Tmm10 : Fin n → PF)
    (gamma_beta cot_alpha c1 c2 c3 c4 : ℝ) (use_best_fit : Bool) :
    (Arr.OvertoppingEurOtop2018.calculate_dimensionless_overtopping_discharge_q (.num Hm0) (.arr Tmm10) (.num Rc)
      (.num beta) (.num (.fin gamma_beta)) Val.nan (.num gamma_f) (.num gamma_v) (.num gamma_star) (.num 0.0)
      (.num db) (.num (.fin cot_alpha)) Val.nan Val.nan (.fin c1) (.fin c2) (.fin c3) (.fin c4)
      use_best_fit).res = .error .valueError := by
  unfold Arr.OvertoppingEurOtop2018.calculate_dimensionless_overtopping_discharge_q
  have h1 : Arr.RunupTaw2002.check_calculate_gamma_beta (n := n) (.num beta) (.num (.fin gamma_beta)) =
      pure false := by
    unfold Arr.RunupTaw2002.check_calculate_gamma_beta
    rw [if_neg (fun h => h.2), if_neg (fun h : (Val.num (PF.fin gamma_beta) : Val n).isnan.all => h)]
  have h2 : Arr.RunupTaw2002.check_composite_slope (n := n) (.num (.fin cot_alpha)) Val.nan Val.nan =
      pure false := by
    unfold Arr.RunupTaw2002.check_composite_slope
    rw [if_neg (fun h => h.1), if_neg (fun h => h.1 trivial)]
  have h3 : PF.eqF 0.0 0.0 := by rw [PF.sci_eq]; exact rfl
  dsimp only
  unfold Arr.RunupTaw2002.calculate_berm_length Arr.RunupEurOtop2018.iteration_procedure_gamma_b
  simp only [h1, h2, ArrProof.gamma_b_none _ _ _ _ _ _ _ _ _ _ _ _ _ h3, PyM.pure_def, PyM.bind_ok,
    Bool.false_eq_true, if_false, List.nil_append]
  rfl

/-! ## Iterations -/

/-- A single case with a missing wave height ends the iteration for all cases after the first pass. -/
theorem C84_missing_case_stops_all [NeZero n] (Hs Rc rho_armour Ns_init : Val n) (max_iter : ℕ) (t : ℝ) (j : Fin n)
    (hj : (Hs.get j).isnan) (hmax : 0 < max_iter) :
    CaseByCase
      (Arr.KramerBurcharth.calculate_nominal_rock_diameter_Dn50 Hs Rc rho_armour Ns_init max_iter (.fin t))
      (fun i => KramerBurcharth.calculate_nominal_rock_diameter_Dn50 (Hs.get i) (Rc.get i)
        (rho_armour.get i) (Ns_init.get i) 1 (.fin t)) := by
  intro i
  unfold Arr.KramerBurcharth.calculate_nominal_rock_diameter_Dn50
    KramerBurcharth.calculate_nominal_rock_diameter_Dn50
  dsimp only
  have hnan : Hs.get j = .nan := by
    generalize Hs.get j = x at hj
    cases x <;> first | rfl | exact hj.elim
  rw [whileIter_stop _ _ max_iter 1 _ hmax]
  rotate_left
  · intro k hk
    obtain rfl : k = 0 := by omega
    show (PF.pinf > PF.fin t)
    trivial
  · intro h
    rw [ArrProof.amax_gt] at h
    refine h.1 j ?_
    show (Val.get (Arr.KramerBurcharth.size_step _ _ _ _).diff j).isnan
    unfold Arr.KramerBurcharth.size_step
    simp only [cases_simp, hnan]
    have dv : ∀ x : PF, .nan / x = .nan := fun x => by cases x <;> rfl
    have sb : ∀ x : PF, .nan - x = .nan := fun x => by cases x <;> rfl
    rw [dv, sb, PF.mul_nan, sb]
    trivial
  have hw : ∀ (b : KramerBurcharth.LoopState → KramerBurcharth.LoopState) (c : PF),
      whileIter 1 (fun s => s.diff > .fin t) b ⟨.pinf, .pinf, c⟩ = b ⟨.pinf, .pinf, c⟩ := by
    intro b c
    unfold whileIter
    rw [if_pos (show PF.pinf > PF.fin t from trivial)]
    rfl
  rw [hw]
  have hres : ∀ (f : Val n) , (Arr.KramerBurcharth.check_validity_range Rc f >>= fun _ =>
      (pure f : PyM (Val n))).res = .ok f := fun f => by
    have h := (ArrProof.KramerBurcharth_check_validity_range (U := False) Rc f fun h => h.elim).vals j
    rw [ArrProof.kramer_check] at h
    generalize hx : Arr.KramerBurcharth.check_validity_range Rc f = x at h
    rcases x with ⟨w, e | u⟩
    · cases h
    · rfl
  rw [ArrProof.res_of_check (ArrProof.kramer_check ..), hres]
  show Except.ok (Val.get _ i) = _
  unfold Arr.KramerBurcharth.size_step KramerBurcharth.size_step
  simp only [Function.iterate_one, cases_simp]

/-- Of two breakwaters with at most two passes, the first without a wave height: the second one does not get
the rock size it gets alone. -/
theorem C84_refuted_missing_case : ¬ ∀ (Hs Rc rho_armour : Val 2) (i : Fin 2),
    ¬ (Hs.get i).isnan → ¬ (Rc.get i).isnan → ¬ (rho_armour.get i).isnan →
    (Arr.KramerBurcharth.calculate_nominal_rock_diameter_Dn50 Hs Rc rho_armour 2.0 2 1e-5).res.map
        (fun v => Cases.case v i) =
      (KramerBurcharth.calculate_nominal_rock_diameter_Dn50 (Hs.get i) (Rc.get i) (rho_armour.get i) 2.0 2
        1e-5).res := by
  intro hall
  have h := hall (.arr ![.nan, .fin 2]) (.num (.fin 1)) (.num (.fin 2050)) 1 (fun h => h) (fun h => h) (fun h => h)
  have t : (1e-5 : PF) = .fin 1e-5 := PF.sci_eq ..
  rw [t] at h
  have key := C84_missing_case_stops_all (n := 2) (.arr ![.nan, .fin 2]) (.num (.fin 1)) (.num (.fin 2050)) 2.0
    2 1e-5 0 trivial (by norm_num) 1
  rw [key] at h
  dsimp only at h
  have e1 : (Val.arr ![PF.nan, .fin 2]).get (1 : Fin 2) = .fin 2 := rfl
  have e2 : (Val.num (.fin 1)).get (1 : Fin 2) = .fin 1 := rfl
  have e3 : (Val.num (.fin 2050)).get (1 : Fin 2) = .fin 2050 := rfl
  have e4 : (2.0 : Val 2).get 1 = .fin 2 := by
    show (2.0 : PF) = _
    rw [PF.sci_eq]; norm_num
  have e5 : (2.0 : PF) = .fin 2 := by rw [PF.sci_eq]; norm_num
  rw [e1, e2, e3, e4, e5] at h
  unfold KramerBurcharth.calculate_nominal_rock_diameter_Dn50 at h
  dsimp only at h
  have hD : CorePhysics.calculate_buoyant_density_Delta (.fin 2050) 1025 = .fin 1 := by
    unfold CorePhysics.calculate_buoyant_density_Delta
    rw [PF.ofNat_eq, PF.sub_fin, PF.div_fin (by norm_num)]
    norm_num
  rw [hD] at h
  have step : ∀ (d p : PF) (c : ℝ), c ≠ 0 → KramerBurcharth.size_step (.fin 2) (.fin 1) (.fin 1) ⟨d, p, .fin c⟩ =
      ⟨PF.abs (.fin (1 / 1.36 * (2 - (0.06 / c - 0.23))) - p), .fin (1 / 1.36 * (2 - (0.06 / c - 0.23))),
        .fin (1 / 1.36 * (2 - (0.06 / c - 0.23)))⟩ := by
    intro d p c hc
    unfold KramerBurcharth.size_step
    have hv : (1.0 / 1.36 : PF) * ((.fin 2 / .fin 1) - .fin 1 * (0.06 * (.fin 1 / .fin c) - 0.23)) =
        .fin (1 / 1.36 * (2 - (0.06 / c - 0.23))) := by
      rw [PF.sci_eq, PF.sci_eq, PF.sci_eq, PF.sci_eq, PF.div_fin (by norm_num), PF.div_fin one_ne_zero,
        PF.div_fin hc, PF.mul_fin, PF.sub_fin, PF.mul_fin, PF.sub_fin, PF.mul_fin, PF.fin.injEq]
      norm_num
      ring
    dsimp only
    rw [hv]
  have c0 : (.fin 2 / (.fin 1 * .fin 2) : PF) = .fin 1 := by
    rw [PF.mul_fin, PF.div_fin (by norm_num)]; norm_num
  rw [c0] at h
  have w1 : whileIter 1 (fun s : KramerBurcharth.LoopState => s.diff > .fin 1e-5)
      (KramerBurcharth.size_step (.fin 2) (.fin 1) (.fin 1)) ⟨.pinf, .pinf, .fin 1⟩ =
      ⟨.pinf, .fin (1 / 1.36 * (2 - (0.06 / 1 - 0.23))), .fin (1 / 1.36 * (2 - (0.06 / 1 - 0.23)))⟩ := by
    unfold whileIter
    rw [if_pos (show PF.pinf > PF.fin 1e-5 from trivial), step _ _ _ one_ne_zero]
    rfl
  have w2 : ∃ d p, whileIter 2 (fun s : KramerBurcharth.LoopState => s.diff > .fin 1e-5)
      (KramerBurcharth.size_step (.fin 2) (.fin 1) (.fin 1)) ⟨.pinf, .pinf, .fin 1⟩ =
      ⟨d, p, .fin (1 / 1.36 * (2 - (0.06 / (1 / 1.36 * (2 - (0.06 / 1 - 0.23))) - 0.23)))⟩ := by
    unfold whileIter
    rw [if_pos (show PF.pinf > PF.fin 1e-5 from trivial), step _ _ _ one_ne_zero]
    dsimp only
    unfold whileIter
    dsimp only
    rw [if_pos (show PF.abs (.fin (1 / 1.36 * (2 - (0.06 / 1 - 0.23))) - PF.pinf) > PF.fin 1e-5 from trivial), step _ _ _ (by norm_num)]
    exact ⟨_, _, rfl⟩
  obtain ⟨d, p, w2⟩ := w2
  rw [w1, w2, ArrProof.res_of_check (ArrProof.kramer_check ..), ArrProof.res_of_check (ArrProof.kramer_check ..),
    Except.ok.injEq, PF.fin.injEq] at h
  norm_num at h

/-! ## Warnings -/

/-- One case with a missing value silences the check for all cases. -/
theorem C85_missing_case_silences_all (Rc Dn50 : Val n) (j : Fin n) (hj : (Rc.get j).isnan) :
    (Arr.KramerBurcharth.check_validity_range Rc Dn50).warns = [] := by
  have : Rc.isnan.any := by
    cases Rc with
    | num x => exact hj
    | arr v => exact ⟨j, hj⟩
  unfold Arr.KramerBurcharth.check_validity_range Arr.CoreUtility.check_if_given
  rw [if_neg fun h => h Rc (by simp) this]
  rfl

/-- With one missing crest level, a relative crest height of 100 goes unreported. -/
theorem C85_refuted_missing_case : ¬ ∀ Rc Dn50 : Val 2,
    SameWarnings (Arr.KramerBurcharth.check_validity_range Rc Dn50)
      (fun i => KramerBurcharth.check_validity_range (Rc.get i) (Dn50.get i)) := by
  intro hall
  have h := hall (.arr ![.nan, .fin 100]) (.num (.fin 1))
    (.range "Relative crest height Rc / Dn50" "Kramer & Burcharth, 2004" (.fin 100 / .fin 1) (-3.1) 1.5)
  rw [C85_missing_case_silences_all (.arr ![.nan, .fin 100]) (.num (.fin 1)) 0 trivial] at h
  have := h.mpr ⟨1, by
    show _ ∈ (KramerBurcharth.check_validity_range (.fin 100) (.fin 1)).warns
    unfold KramerBurcharth.check_validity_range
    rw [check_if_given_warns]
    rw [if_pos]
    · simp
    · refine ⟨fun x hx => ?_, ?_⟩
      · simp only [List.mem_cons, List.not_mem_nil, or_false] at hx
        rcases hx with rfl | rfl <;> exact fun h => h
      · right
        rw [PF.div_fin one_ne_zero, PF.sci_eq]
        show _ < _
        rw [PF.lt_fin]; norm_num⟩
  simp at this

/-! Concrete cases for the theorems above. -/

example := C83_hudson_damage_raises ![.fin 5, .fin 100] 1 "rough" (Or.inl (by decide))
  (by rw [PF.ofNat_eq]; exact le_refl (100 : ℝ))
example := C84_missing_case_stops_all (n := 2) (.arr ![.nan, .fin 2]) (.num (.fin 1)) (.num (.fin 2050)) 2.0
  1000 1e-5 0 trivial (by norm_num)
example := C85_missing_case_silences_all (n := 2) (.arr ![.nan, .fin 100]) (.num (.fin 1)) 0 trivial

end
