import Verif.Lemmas.ArrayOvertopping

/-! # One case of a call on arrays: run-up and overtopping at dikes with a single slope -/

open Classical
open Arrays
noncomputable section
namespace ArrProof
variable {n : ℕ}

theorem gamma_b_none (Hm0 Tmm10 cot_alpha_average : Val n) (B_berm : PF) (L_berm db gamma_beta : Val n)
    (c1 c2 c3 c4 : PF) (use_best_fit : Bool) (gamma_f : Val n) (hB : PF.eqF B_berm 0.0) :
    Arr.RunupTaw2002.iteration_procedure_gamma_b Hm0 Tmm10 cot_alpha_average (.num B_berm)
      L_berm db gamma_beta c1 c2 c3 c4 use_best_fit gamma_f = pure 1.0 := by
  unfold Arr.RunupTaw2002.iteration_procedure_gamma_b
    Arr.RunupTaw2002.iteration_procedure_gamma_b_rec
  have : (Val.num B_berm ==. (0.0 : Val n)).truth = pure true := by
    show (pure (decide (PF.eqF B_berm 0.0)) : PyM Bool) = _
    rw [decide_eq_true hB]
  rw [this]
  rfl

theorem gamma_b_none_one (Hm0 Tmm10 cot_alpha_average B_berm L_berm db gamma_beta : PF)
    (c1 c2 c3 c4 : PF) (use_best_fit : Bool) (gamma_f : PF) (hB : PF.eqF B_berm 0.0) :
    RunupTaw2002.iteration_procedure_gamma_b Hm0 Tmm10 cot_alpha_average B_berm
      L_berm db gamma_beta c1 c2 c3 c4 use_best_fit gamma_f = pure 1.0 := by
  unfold RunupTaw2002.iteration_procedure_gamma_b RunupTaw2002.iteration_procedure_gamma_b_rec
  rw [if_pos (Or.inl hB)]

theorem raise_bind {α β : Type} (e : PyErr) (g : α → PyM β) : (PyM.raise e >>= g) = PyM.raise e := rfl

/-- the slope of a structure with a single slope -/
theorem RunupTaw2002_slope_rec [NeZero n] {U : Prop}
    (recA : Arr.RunupTaw2002.Args n → PyM (Val n × BVal n))
    (recS : Fin n → RunupTaw2002.Args → PyM (PF × Bool))
    (a : Arr.RunupTaw2002.Args n) (b : Fin n → RunupTaw2002.Args) (gA : Val n) (gS : Fin n → PF)
    (c1 c2 c3 c4 : PF)
    (hd : a.cot_alpha_down = Val.nan) (hu : a.cot_alpha_up = Val.nan)
    (hd' : ∀ i, (b i).cot_alpha_down = PF.nan) (hu' : ∀ i, (b i).cot_alpha_up = PF.nan)
    (hc : ∀ i, (b i).cot_alpha = a.cot_alpha.get i) (h : a.cot_alpha.Uniform) :
    Rel U (Arr.RunupTaw2002.slope_rec recA a gA c1 c2 c3 c4)
      (fun i => RunupTaw2002.slope_rec (recS i) (b i) (gS i) c1 c2 c3 c4) := by
  unfold Arr.RunupTaw2002.slope_rec RunupTaw2002.slope_rec
  simp only [hd, hu, hd', hu', hc, single_slope, single_slope_one]
  by_cases hn : a.cot_alpha.isnan.all
  · have : ∀ i, (a.cot_alpha.get i).isnan := fun i => (h.all_iff i).mp hn
    simp only [if_pos hn, if_pos (this _), raise_bind]
    exact Rel.raise
  · have : ∀ i, ¬ (a.cot_alpha.get i).isnan := fun i => fun hc => hn ((h.all_iff i).mpr hc)
    simp only [if_neg hn, if_neg (this _), Val.pure_bind, Bool.false_eq_true, if_false]
    exact Rel.pure fun i => rfl

/-- the berm factor of a structure with a single slope: as given, or an error -/
theorem RunupTaw2002_berm_rec [NeZero n] {U : Prop}
    (recA : Arr.RunupTaw2002.Args n → PyM (Val n × BVal n))
    (recS : Fin n → RunupTaw2002.Args → PyM (PF × Bool))
    (a : Arr.RunupTaw2002.Args n) (b : Fin n → RunupTaw2002.Args) (cA gA : Val n) (cS gS : Fin n → PF)
    (c1 c2 c3 c4 : PF) (gamma_b : PF) (hb : a.gamma_b = .num gamma_b)
    (hb' : ∀ i, (b i).gamma_b = gamma_b)
    (hd : a.cot_alpha_down = Val.nan) (hu : a.cot_alpha_up = Val.nan)
    (hd' : ∀ i, (b i).cot_alpha_down = PF.nan) (hu' : ∀ i, (b i).cot_alpha_up = PF.nan) :
    Rel U (Arr.RunupTaw2002.berm_rec recA a cA gA c1 c2 c3 c4)
      (fun i => RunupTaw2002.berm_rec (recS i) (b i) (cS i) (gS i) c1 c2 c3 c4) := by
  have hn : (Val.nan : Val n).isnan.all = True := eq_true trivial
  have hn' : PF.nan.isnan = True := eq_true trivial
  unfold Arr.RunupTaw2002.berm_rec RunupTaw2002.berm_rec
  unfold Arr.RunupTaw2002.calculate_berm_length RunupTaw2002.calculate_berm_length
  simp only [hd, hu, hd', hu', hb, hb', single_slope, single_slope_one, hn, hn', if_true, raise_bind,
    Val.num_isnan]
  exact Rel.cond_num (fun i => Iff.rfl) (fun _ => Rel.raise) fun _ => Rel.pure fun i => rfl

theorem RunupTaw2002_diml_rec [NeZero n]
    (recA : Arr.RunupTaw2002.Args n → PyM (Val n × BVal n))
    (recS : Fin n → RunupTaw2002.Args → PyM (PF × Bool))
    (Hm0 Tmm10 beta gamma_beta : Val n) (gamma_b : PF) (gamma_f B_berm db cot_alpha : Val n)
    (c1 c2 c3 c4 : PF) (use_best_fit : Bool)
    (h_beta : beta.Uniform) (h_gamma_beta : gamma_beta.Uniform) (h_cot_alpha : cot_alpha.Uniform) :
    Rel False (Arr.RunupTaw2002.diml_rec recA
        ⟨Hm0, Tmm10, beta, gamma_beta, .num gamma_b, gamma_f, B_berm, db, cot_alpha, Val.nan, Val.nan,
          c1, c2, c3, c4, use_best_fit⟩)
      (fun i => RunupTaw2002.diml_rec (recS i)
        ⟨Hm0.get i, Tmm10.get i, beta.get i, gamma_beta.get i, gamma_b, gamma_f.get i, B_berm.get i,
          db.get i, cot_alpha.get i, PF.nan, PF.nan, c1, c2, c3, c4, use_best_fit⟩) := by
  unfold Arr.RunupTaw2002.diml_rec RunupTaw2002.diml_rec
  dsimp only
  refine Rel.bind (RunupTaw2002_check_calculate_gamma_beta beta gamma_beta h_beta h_gamma_beta)
    fun given => ?_
  have hcalc : ∀ i : Fin n, (Cases.case given i : Bool) = given := fun i => rfl
  have hg : ∀ i, (if given = true then Arr.RunupTaw2002.calculate_influence_oblique_waves_gamma_beta
      beta else gamma_beta).get i = (if (Cases.case given i : Bool) = true then
        RunupTaw2002.calculate_influence_oblique_waves_gamma_beta (beta.get i)
        else gamma_beta.get i) := by
    intro i
    rw [hcalc]
    cases given <;> simp only [if_true, Bool.false_eq_true, if_false, cases_simp]
  generalize (if given = true then Arr.RunupTaw2002.calculate_influence_oblique_waves_gamma_beta
      beta else gamma_beta) = gb at hg ⊢
  simp only [← hg]
  refine Rel.bind (RunupTaw2002_slope_rec _ _ _ _ _ _ _ _ _ _ rfl rfl (fun _ => rfl)
    (fun _ => rfl) (fun _ => rfl) h_cot_alpha) fun cot => ?_
  refine Rel.bind (RunupTaw2002_berm_rec _ _ _ _ _ _ _ _ _ _ _ _ gamma_b rfl (fun _ => rfl) rfl rfl
    (fun _ => rfl) (fun _ => rfl)) fun gam_b => ?_
  arr_rel [RunupTaw2002_check_validity_range]

theorem RunupTaw2002_calculate_dimensionless_wave_runup_height_z2p [NeZero n]
    (Hm0 Tmm10 beta gamma_beta : Val n) (gamma_b : PF) (gamma_f B_berm db cot_alpha : Val n)
    (c1 c2 c3 c4 : PF) (use_best_fit : Bool)
    (h_beta : beta.Uniform) (h_gamma_beta : gamma_beta.Uniform) (h_cot_alpha : cot_alpha.Uniform) :
    Rel False (Arr.RunupTaw2002.calculate_dimensionless_wave_runup_height_z2p
        ⟨Hm0, Tmm10, beta, gamma_beta, .num gamma_b, gamma_f, B_berm, db, cot_alpha, Val.nan, Val.nan,
          c1, c2, c3, c4, use_best_fit⟩)
      (fun i => RunupTaw2002.calculate_dimensionless_wave_runup_height_z2p
        ⟨Hm0.get i, Tmm10.get i, beta.get i, gamma_beta.get i, gamma_b, gamma_f.get i, B_berm.get i,
          db.get i, cot_alpha.get i, PF.nan, PF.nan, c1, c2, c3, c4, use_best_fit⟩) :=
  RunupTaw2002_diml_rec _ _ Hm0 Tmm10 beta gamma_beta gamma_b gamma_f B_berm db cot_alpha c1 c2 c3 c4
    use_best_fit h_beta h_gamma_beta h_cot_alpha

theorem RunupTaw2002_calculate_wave_runup_height_z2p [NeZero n]
    (Hm0 Tmm10 beta gamma_beta : Val n) (gamma_b : PF) (gamma_f B_berm db cot_alpha : Val n)
    (c1 c2 c3 c4 : PF) (use_best_fit : Bool)
    (h_beta : beta.Uniform) (h_gamma_beta : gamma_beta.Uniform) (h_cot_alpha : cot_alpha.Uniform) :
    Rel False (Arr.RunupTaw2002.calculate_wave_runup_height_z2p
        ⟨Hm0, Tmm10, beta, gamma_beta, .num gamma_b, gamma_f, B_berm, db, cot_alpha, Val.nan, Val.nan,
          c1, c2, c3, c4, use_best_fit⟩)
      (fun i => RunupTaw2002.calculate_wave_runup_height_z2p
        ⟨Hm0.get i, Tmm10.get i, beta.get i, gamma_beta.get i, gamma_b, gamma_f.get i, B_berm.get i,
          db.get i, cot_alpha.get i, PF.nan, PF.nan, c1, c2, c3, c4, use_best_fit⟩) := by
  unfold Arr.RunupTaw2002.calculate_wave_runup_height_z2p RunupTaw2002.calculate_wave_runup_height_z2p
    Arr.RunupTaw2002.height_of RunupTaw2002.height_of
  exact Rel.bind (RunupTaw2002_calculate_dimensionless_wave_runup_height_z2p Hm0 Tmm10 beta gamma_beta
    gamma_b gamma_f B_berm db cot_alpha c1 c2 c3 c4 use_best_fit h_beta h_gamma_beta h_cot_alpha)
    fun v => by dsimp only; refine Rel.pure fun i => ?_; arr_eq

/-- the factor for oblique waves is missing exactly where the angle is -/
theorem oblique_isnan (beta : PF) (c m : ℝ) :
    (RunupTaw2002.calculate_influence_oblique_waves_gamma_beta beta (.fin c) (.fin m)).isnan ↔
      beta.isnan := by
  unfold RunupTaw2002.calculate_influence_oblique_waves_gamma_beta
  rw [PF.one_eq]
  dsimp only
  cases beta with
  | nan =>
    refine iff_of_true ?_ trivial
    have h1 : PF.whr (PF.nan < 0) (PF.abs PF.nan) PF.nan = PF.nan := by unfold PF.whr; split <;> rfl
    rw [h1]
    have h2 : PF.whr (PF.nan > PF.fin m) (PF.fin m) PF.nan = PF.nan := by
      unfold PF.whr
      exact if_neg (fun h => h)
    rw [h2]
    trivial
  | ninf =>
    refine iff_of_false ?_ (fun h => h)
    have h1 : PF.whr (PF.ninf < 0) (PF.abs PF.ninf) PF.ninf = PF.pinf := by
      unfold PF.whr
      exact if_pos (by rw [PF.zero_eq]; trivial)
    rw [h1]
    have h2 : PF.whr (PF.pinf > PF.fin m) (PF.fin m) PF.pinf = PF.fin m := by
      unfold PF.whr
      exact if_pos trivial
    rw [h2]
    exact fun h => h
  | pinf =>
    refine iff_of_false ?_ (fun h => h)
    have h1 : PF.whr (PF.pinf < 0) (PF.abs PF.pinf) PF.pinf = PF.pinf := by
      unfold PF.whr; split <;> rfl
    rw [h1]
    have h2 : PF.whr (PF.pinf > PF.fin m) (PF.fin m) PF.pinf = PF.fin m := by
      unfold PF.whr
      exact if_pos trivial
    rw [h2]
    exact fun h => h
  | fin b =>
    refine iff_of_false ?_ (fun h => h)
    have h1 : ∃ d, PF.whr (PF.fin b < 0) (PF.abs (PF.fin b)) (PF.fin b) = PF.fin d := by
      unfold PF.whr; split <;> exact ⟨_, rfl⟩
    obtain ⟨d, hd⟩ := h1
    rw [hd]
    have h2 : ∃ e, PF.whr (PF.fin d > PF.fin m) (PF.fin m) (PF.fin d) = PF.fin e := by
      unfold PF.whr; split <;> exact ⟨_, rfl⟩
    obtain ⟨e, he⟩ := h2
    rw [he]
    exact fun h => h

@[cases_simp] theorem RunupEurOtop2018_check_best_fit (c1 c2 c3 c4 : PF) (b : Bool) :
    Arr.RunupEurOtop2018.check_best_fit c1 c2 c3 c4 b =
      RunupEurOtop2018.check_best_fit c1 c2 c3 c4 b := rfl

theorem RunupEurOtop2018_oblique (beta : Val n) (gamma_f gamma_f_crit smooth rough max_angle : PF) :
    Arr.RunupEurOtop2018.calculate_influence_oblique_waves_gamma_beta beta (.num gamma_f) gamma_f_crit
      smooth rough max_angle = pure (Arr.RunupTaw2002.calculate_influence_oblique_waves_gamma_beta beta
        (if gamma_f > gamma_f_crit then smooth else rough) max_angle) := by
  unfold Arr.RunupEurOtop2018.calculate_influence_oblique_waves_gamma_beta
  simp only [num_simp]

theorem RunupEurOtop2018_calculate_influence_oblique_waves_gamma_beta [NeZero n] {U : Prop}
    (beta : Val n) (gamma_f gamma_f_crit smooth rough max_angle : PF) :
    Rel U (Arr.RunupEurOtop2018.calculate_influence_oblique_waves_gamma_beta beta (.num gamma_f)
        gamma_f_crit smooth rough max_angle)
      (fun i => pure (RunupEurOtop2018.calculate_influence_oblique_waves_gamma_beta (beta.get i) gamma_f
        gamma_f_crit smooth rough max_angle)) := by
  rw [RunupEurOtop2018_oblique]
  unfold RunupEurOtop2018.calculate_influence_oblique_waves_gamma_beta
  exact Rel.pure fun i => by arr_eq

theorem RunupEurOtop2018_calculate_dimensionless_wave_runup_height_z2p [NeZero n]
    (Hm0 Tmm10 beta gamma_beta : Val n) (gamma_b gamma_f : PF) (B_berm db cot_alpha : Val n)
    (c1 c2 c3 c4 : PF) (use_best_fit : Bool)
    (h_beta : beta.Uniform) (h_cot_alpha : cot_alpha.Uniform) :
    Rel False (Arr.RunupEurOtop2018.calculate_dimensionless_wave_runup_height_z2p
        Hm0 Tmm10 beta gamma_beta (.num gamma_b) (.num gamma_f) B_berm db cot_alpha Val.nan Val.nan
          c1 c2 c3 c4 use_best_fit)
      (fun i => RunupEurOtop2018.calculate_dimensionless_wave_runup_height_z2p
        (Hm0.get i) (Tmm10.get i) (beta.get i) (gamma_beta.get i) gamma_b gamma_f (B_berm.get i)
          (db.get i) (cot_alpha.get i) PF.nan PF.nan c1 c2 c3 c4 use_best_fit) := by
  unfold Arr.RunupEurOtop2018.calculate_dimensionless_wave_runup_height_z2p
    RunupEurOtop2018.calculate_dimensionless_wave_runup_height_z2p
  rw [RunupEurOtop2018_oblique]
  unfold RunupEurOtop2018.calculate_influence_oblique_waves_gamma_beta
  dsimp only
  rw [Val.pure_bind]
  have hc : ∃ c : ℝ, (if gamma_f > 0.6 then (0.0022 : PF) else 0.0063) = .fin c := by
    split
    · exact ⟨_, PF.sci_eq ..⟩
    · exact ⟨_, PF.sci_eq ..⟩
  obtain ⟨c, hc⟩ := hc
  have hU : (Arr.RunupTaw2002.calculate_influence_oblique_waves_gamma_beta beta
      (if gamma_f > 0.6 then (0.0022 : PF) else 0.0063) 80.0).Uniform := by
    rw [hc]
    unfold Val.Uniform
    simp only [cases_simp]
    rw [PF.sci_eq]
    simp only [oblique_isnan]
    exact h_beta
  refine Rel.congr (RunupTaw2002_calculate_dimensionless_wave_runup_height_z2p Hm0 Tmm10 Val.nan _
    gamma_b (.num gamma_f) B_berm db cot_alpha _ _ _ _ false uniform_nan hU h_cot_alpha) fun i => ?_
  simp only [cases_simp]

theorem RunupEurOtop2018_calculate_wave_runup_height_z2p [NeZero n]
    (Hm0 Tmm10 beta gamma_beta : Val n) (gamma_b gamma_f : PF) (B_berm db cot_alpha : Val n)
    (c1 c2 c3 c4 : PF) (use_best_fit : Bool)
    (h_beta : beta.Uniform) (h_cot_alpha : cot_alpha.Uniform) :
    Rel False (Arr.RunupEurOtop2018.calculate_wave_runup_height_z2p
        Hm0 Tmm10 beta gamma_beta (.num gamma_b) (.num gamma_f) B_berm db cot_alpha Val.nan Val.nan
          c1 c2 c3 c4 use_best_fit)
      (fun i => RunupEurOtop2018.calculate_wave_runup_height_z2p
        (Hm0.get i) (Tmm10.get i) (beta.get i) (gamma_beta.get i) gamma_b gamma_f (B_berm.get i)
          (db.get i) (cot_alpha.get i) PF.nan PF.nan c1 c2 c3 c4 use_best_fit) := by
  unfold Arr.RunupEurOtop2018.calculate_wave_runup_height_z2p
    RunupEurOtop2018.calculate_wave_runup_height_z2p
  exact Rel.bind (RunupEurOtop2018_calculate_dimensionless_wave_runup_height_z2p Hm0 Tmm10 beta
    gamma_beta gamma_b gamma_f B_berm db cot_alpha c1 c2 c3 c4 use_best_fit h_beta h_cot_alpha)
    fun v => by refine Rel.pure fun i => ?_; arr_eq

/-- what follows the selection of the factor for oblique waves -/
theorem Rel.gamma_beta [NeZero n] {U : Prop} {γ δ : Type} [Cases n γ δ] {beta gamma_beta : Val n}
    (h_beta : beta.Uniform) (h_gamma_beta : gamma_beta.Uniform)
    {kA : Bool → PyM γ} {kS : Fin n → Bool → PyM δ} (hk : ∀ b, Rel U (kA b) (fun i => kS i b)) :
    Rel U (Arr.RunupTaw2002.check_calculate_gamma_beta beta gamma_beta >>= kA)
      (fun i => RunupTaw2002.check_calculate_gamma_beta (beta.get i) (gamma_beta.get i) >>= kS i) :=
  Rel.bind (RunupTaw2002_check_calculate_gamma_beta _ _ h_beta h_gamma_beta) hk

/-- what follows the check of a single slope -/
theorem Rel.single_slope [NeZero n] {U : Prop} {γ δ : Type} [Cases n γ δ] {cot_alpha : Val n}
    (h : cot_alpha.Uniform) {kA : Bool → PyM γ} {kS : Fin n → Bool → PyM δ}
    (hk : ¬ cot_alpha.isnan.all → (∀ i, ¬ (cot_alpha.get i).isnan) →
      Rel U (kA false) (fun i => kS i false)) :
    Rel U (Arr.RunupTaw2002.check_composite_slope cot_alpha Val.nan Val.nan >>= kA)
      (fun i => RunupTaw2002.check_composite_slope (cot_alpha.get i) PF.nan PF.nan >>= kS i) := by
  simp only [ArrProof.single_slope, single_slope_one]
  by_cases hn : cot_alpha.isnan.all
  · have : ∀ i, (cot_alpha.get i).isnan := fun i => (h.all_iff i).mp hn
    simp only [if_pos hn, if_pos (this _), raise_bind]
    exact Rel.raise
  · have : ∀ i, ¬ (cot_alpha.get i).isnan := fun i => fun hc => hn ((h.all_iff i).mpr hc)
    simp only [if_neg hn, if_neg (this _), Val.pure_bind]
    exact hk hn this

theorem berm_length_single {Hm0 B_berm cot_alpha : Val n} (h : ¬ cot_alpha.isnan.all) :
    ∃ L, Arr.RunupTaw2002.calculate_berm_length Hm0 B_berm cot_alpha Val.nan Val.nan = pure L := by
  unfold Arr.RunupTaw2002.calculate_berm_length
  rw [single_slope, if_neg h]
  exact ⟨_, rfl⟩

theorem berm_length_single_one {Hm0 B_berm cot_alpha : PF} (h : ¬ cot_alpha.isnan) :
    ∃ L, RunupTaw2002.calculate_berm_length Hm0 B_berm cot_alpha PF.nan PF.nan = pure L := by
  unfold RunupTaw2002.calculate_berm_length
  rw [single_slope_one, if_neg h]
  exact ⟨_, rfl⟩

/-- the berm factor of a single slope: as given, or 1 when there is no berm -/
theorem berm_single (Hm0 Tmm10 cot_alpha : Val n) (B_berm : PF) (db gb gamma_f : Val n) (gamma_b : PF)
    (hb : ¬ gamma_b.isnan ∨ PF.eqF B_berm 0.0) (h : ¬ cot_alpha.isnan.all) :
    PyM.cond (Val.num gamma_b : Val n).isnan.truth (do
      let L_berm ← Arr.RunupTaw2002.calculate_berm_length Hm0 (.num B_berm) cot_alpha Val.nan Val.nan
      Arr.RunupTaw2002.iteration_procedure_gamma_b Hm0 Tmm10 cot_alpha (.num B_berm) L_berm db gb
        (gamma_f := gamma_f)) (pure (.num gamma_b)) =
      pure (Val.num (if gamma_b.isnan then 1.0 else gamma_b)) := by
  rw [Val.num_isnan]
  by_cases hg : gamma_b.isnan
  · obtain ⟨L, hL⟩ := berm_length_single (Hm0 := Hm0) (B_berm := .num B_berm) h
    have hB := hb.resolve_left (not_not.mpr hg)
    rw [if_pos hg, hL, Val.pure_bind, gamma_b_none _ _ _ _ _ _ _ _ _ _ _ _ _ hB]
    show PyM.cond (pure (decide gamma_b.isnan)) _ _ = _
    rw [decide_eq_true hg]
    rfl
  · rw [if_neg hg]
    show PyM.cond (pure (decide gamma_b.isnan)) _ _ = _
    rw [decide_eq_false hg]
    rfl

theorem berm_single_one (Hm0 Tmm10 cot_alpha B_berm db gb gamma_f gamma_b : PF)
    (hb : ¬ gamma_b.isnan ∨ PF.eqF B_berm 0.0) (h : ¬ cot_alpha.isnan) :
    (if gamma_b.isnan then do
      let L_berm ← RunupTaw2002.calculate_berm_length Hm0 B_berm cot_alpha PF.nan PF.nan
      RunupTaw2002.iteration_procedure_gamma_b Hm0 Tmm10 cot_alpha B_berm L_berm db gb
        (gamma_f := gamma_f) else pure gamma_b : PyM PF) =
      pure (if gamma_b.isnan then 1.0 else gamma_b) := by
  by_cases hg : gamma_b.isnan
  · obtain ⟨L, hL⟩ := berm_length_single_one (Hm0 := Hm0) (B_berm := B_berm) h
    have hB := hb.resolve_left (not_not.mpr hg)
    rw [if_pos hg, if_pos hg, hL, Val.pure_bind, gamma_b_none_one _ _ _ _ _ _ _ _ _ _ _ _ _ hB]
  · rw [if_neg hg, if_neg hg]

/-- what follows the correction for a number of standard deviations -/
theorem Rel.sigma [NeZero n] {U : Prop} {γ δ : Type} [Cases n γ δ] (sigma : PF) (use_best_fit : Bool)
    {kA : Option (Val n × Val n) → PyM γ} {kS : Fin n → Option (PF × PF) → PyM δ}
    (hs : ∀ a b : PF, Rel U (kA (some (.num a, .num b))) (fun i => kS i (some (a, b))))
    (hn : Rel U (kA none) (fun i => kS i none)) :
    Rel U (Arr.OvertoppingTaw2002.sigma_correction (.num sigma) use_best_fit >>= kA)
      (fun i => OvertoppingTaw2002.sigma_correction sigma use_best_fit >>= kS i) := by
  unfold Arr.OvertoppingTaw2002.sigma_correction OvertoppingTaw2002.sigma_correction
  by_cases h0 : PF.eqF sigma 0
  · have hc : (Val.num sigma ==. (0 : Val n)).truth = pure true := by
      show (pure (decide (PF.eqF sigma 0)) : PyM Bool) = _
      rw [decide_eq_true h0]
    simp only [hc, if_pos h0]
    exact hs 0 0
  · have hc : (Val.num sigma ==. (0 : Val n)).truth = pure false := by
      show (pure (decide (PF.eqF sigma 0)) : PyM Bool) = _
      rw [decide_eq_false h0]
    simp only [hc, if_neg h0]
    cases use_best_fit with
    | true => exact hs (0.5 * sigma) (0.35 * sigma)
    | false =>
      have key : ∀ {α β : Type} (k : Option α → PyM β) (t : Warn),
          ((PyM.warn t >>= fun _ => pure none) >>= k) = (PyM.warn t >>= fun _ => k none) :=
        fun k t => rfl
      have hA : (PyM.cond (pure false) (pure (some ((0, 0) : Val n × Val n)))
          (if false = true then pure (some (0.5 * Val.num sigma, 0.35 * Val.num sigma)) else do
            PyM.warn (.text "Sigma is only applicable to the best fit coefficients!")
            pure none)) = (PyM.warn (.text "Sigma is only applicable to the best fit coefficients!")
            >>= fun _ => pure none) := rfl
      rw [hA, key]
      simp only [Bool.false_eq_true, if_false, key]
      exact Rel.bind Rel.warn fun _ => hn

end ArrProof
end
