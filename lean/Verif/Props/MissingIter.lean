import Verif.Model.Etemad2020
import Verif.Model.RockArmourOther
import Verif.Model.RearSlope
import Verif.Model.Toe
import Verif.Lemmas.MissingCore

/-! # C91: missing values are not turned into numbers — the iterations

A pass with a missing value gives NaN; the comparison with the tolerance then stops the loop.  The invariant: the
estimate is unassigned or NaN. -/

open Classical
open PF Missing
noncomputable section

private theorem opt_nan {o : Option PF} (h : o = none ∨ o = some nan) {f : PF → PyM PF} (hf : NoNumber (f nan)) :
    NoNumber (match o with | none => PyM.raise .unboundLocal | some x => f x) := by
  rcases h with rfl | rfl
  · exact .raise _
  · exact hf

/-! ## Etemad-Shahidi et al. (2020), rock size -/

private theorem etemad_loop (c e Hs Delta N_waves S ksi depth Dn50_core Cp_init tolerance : PF) (n : ℕ)
    (he : e ≠ fin 0) (h : nan ∈ [Hs, Delta, N_waves, S, ksi, Cp_init]) :
    (Etemad2020.size_loop c e Hs Delta N_waves S ksi depth Dn50_core Cp_init n tolerance).Dn50 = none ∨
      (Etemad2020.size_loop c e Hs Delta N_waves S ksi depth Dn50_core Cp_init n tolerance).Dn50 = some nan := by
  refine (whileIter_inv _ _ (fun s : Etemad2020.LoopState => (s.Dn50 = none ∧ s.Cp = Cp_init) ∨
    (s.Dn50 = some nan ∧ s.Cp = nan)) ?_ n (.inl ⟨rfl, rfl⟩)).imp (·.1) (·.1)
  intro s hs
  right
  simp only [List.mem_cons, List.not_mem_nil, or_false] at h
  rcases hs with ⟨-, hc⟩ | ⟨-, hc⟩
  · rcases h with rfl | rfl | rfl | rfl | rfl | rfl
    all_goals
      simp only [Etemad2020.size_step, hc]
      nan_simp [Etemad2020.calculate_permeability_coefficient_Cp]
  · simp only [Etemad2020.size_step, hc]
    nan_simp [Etemad2020.calculate_permeability_coefficient_Cp]

theorem C91_Etemad2020_calculate_nominal_rock_diameter_Dn50 (Hs Tmm10 N_waves cot_alpha rho_armour S Dn50_core
    M50_core rho_core m : PF) (limited : Bool) (Cp_init : PF) (max_iter : ℕ) (tolerance : PF)
    (missing : nan ∈ [Hs, Tmm10, N_waves, cot_alpha, rho_armour, S, Cp_init]) :
    NoNumber (Etemad2020.calculate_nominal_rock_diameter_Dn50 Hs Tmm10 N_waves cot_alpha rho_armour S Dn50_core
      M50_core rho_core m limited Cp_init max_iter tolerance) := by
  unfold Etemad2020.calculate_nominal_rock_diameter_Dn50
  refine .bind fun depth => .bind fun core => ?_
  extract_lets ksi Delta
  have h : nan ∈ [Hs, Delta, N_waves, S, ksi, Cp_init] := by
    simp only [List.mem_cons, List.not_mem_nil, or_false] at missing ⊢
    rcases missing with rfl | rfl | rfl | rfl | rfl | rfl | rfl
    · simp
    · right; right; right; right; left
      simp only [ksi]; nan_simp [CorePhysics.calculate_Iribarren_number_ksi, CorePhysics.calculate_wave_steepness_s]
    · simp
    · right; right; right; right; left
      simp only [ksi]; nan_simp [CorePhysics.calculate_Iribarren_number_ksi]
    · right; left
      simp only [Delta]; nan_simp [CorePhysics.calculate_buoyant_density_Delta]
    · simp
    · simp
  have hb : ∀ o : Option PF, o = none ∨ o = some nan → NoNumber (Etemad2020.bound o) := by
    rintro o (rfl | rfl)
    · exact .raise _
    · exact .nan
  refine .bind_nan (hb _ (etemad_loop _ _ _ _ _ _ _ _ _ _ _ _ (by exponent) h)) ?_
  refine .bind_nan (hb _ (etemad_loop _ _ _ _ _ _ _ _ _ _ _ _ (by exponent) h)) ?_
  rw [whr_self]
  exact .bind fun _ => .nan

example := C91_Etemad2020_calculate_nominal_rock_diameter_Dn50 (.fin 2) nan (.fin 3000) (.fin 2) (.fin 2650) (.fin 2)
  (.fin 0.3) nan nan nan false (.fin 0.5) 1000 1e-5 (by simp)

/-! ## Jumelet et al. (2024), wave height -/

theorem C91_Jumelet2024_calculate_significant_wave_height_Hs (Tmm10 N_waves cot_alpha rho_armour S Dn50 M50 c_pl g
    smm10_init : PF) (max_iter : ℕ) (tolerance : PF)
    (missing : nan ∈ [Tmm10, N_waves, cot_alpha, rho_armour, S, c_pl, g, smm10_init]) :
    NoNumber (Jumelet2024.calculate_significant_wave_height_Hs Tmm10 N_waves cot_alpha rho_armour S Dn50 M50 c_pl g
      smm10_init max_iter tolerance) := by
  unfold Jumelet2024.calculate_significant_wave_height_Hs
  refine .bind fun D => ?_
  dsimp only
  refine opt_nan ?_ (.bind fun _ => .nan)
  refine (whileIter_inv _ _ (fun s : Jumelet2024.LoopState => (s.Hs = none ∧ (smm10_init = nan → s.ksi = nan)) ∨
    (s.Hs = some nan ∧ s.ksi = nan)) ?_ max_iter (.inl ⟨rfl, ?_⟩)).imp (·.1) (·.1)
  · intro s hs
    right
    simp only [List.mem_cons, List.not_mem_nil, or_false] at missing
    have hk : ∀ T c : PF, CorePhysics.calculate_Iribarren_number_ksi nan T c = nan := by
      intro T c; nan_simp [CorePhysics.calculate_Iribarren_number_ksi, CorePhysics.calculate_wave_steepness_s]
    rcases missing with rfl | rfl | rfl | rfl | rfl | rfl | rfl | rfl
    case inr.inr.inr.inr.inr.inr.inr =>
      have : s.ksi = nan := by
        rcases hs with ⟨-, h⟩ | ⟨-, h⟩
        · exact h rfl
        · exact h
      simp only [Jumelet2024.height_step, this]
      nan_simp [Jumelet2024.calculate_fraction_plunging_waves_Fp, hk]
    all_goals
      simp only [Jumelet2024.height_step]
      nan_simp [Jumelet2024.calculate_fraction_plunging_waves_Fp, hk, CorePhysics.calculate_buoyant_density_Delta]
  · rintro rfl
    nan_simp [CorePhysics.calculate_Iribarren_number_ksi, CorePhysics.calculate_wave_steepness_s]

example := C91_Jumelet2024_calculate_significant_wave_height_Hs (.fin 8) nan (.fin 8) (.fin 2650) (.fin 2) (.fin 1)
  nan (.fin 4.3) (.fin 9.81) (.fin 0.03) 1000 1e-3 (by simp)

/-! ## Kramer and Burcharth (2004)

With no pass allowed (`max_iter = 0`), or with an infinite or missing tolerance, the initial guess is returned. -/

private theorem kramer (f : KramerBurcharth.LoopState → KramerBurcharth.LoopState) (init : PF) (n : ℕ) (t : ℝ)
    (h : (f ⟨pinf, pinf, init⟩).cur = nan ∧ (f ⟨pinf, pinf, init⟩).diff = nan) :
    (whileIter (n + 1) (fun s => s.diff > fin t) f ⟨pinf, pinf, init⟩).cur = nan := by
  have h1 : (pinf : PF) > fin t := trivial
  rw [whileIter, if_pos h1]
  cases n with
  | zero => exact h.1
  | succ n =>
    rw [whileIter, if_neg]
    · exact h.1
    · rw [h.2]; exact lt_nan _

theorem C91_KramerBurcharth_calculate_nominal_rock_diameter_Dn50 (Hs Rc rho_armour Ns_init : PF) (max_iter : ℕ)
    (tolerance : ℝ) (hn : 1 ≤ max_iter) (missing : nan ∈ [Hs, Rc, rho_armour, Ns_init]) :
    NoNumber (KramerBurcharth.calculate_nominal_rock_diameter_Dn50 Hs Rc rho_armour Ns_init max_iter
      (fin tolerance)) := by
  obtain ⟨n, rfl⟩ : ∃ n, max_iter = n + 1 := ⟨max_iter - 1, by omega⟩
  unfold KramerBurcharth.calculate_nominal_rock_diameter_Dn50
  dsimp only
  rw [kramer]
  · exact .bind fun _ => .nan
  · simp only [List.mem_cons, List.not_mem_nil, or_false] at missing
    rcases missing with rfl | rfl | rfl | rfl
    all_goals
      simp only [KramerBurcharth.size_step]
      nan_simp [CorePhysics.calculate_buoyant_density_Delta]

example := C91_KramerBurcharth_calculate_nominal_rock_diameter_Dn50 (.fin 2) nan (.fin 2650) (.fin 2) 1000 1e-5
  (by norm_num) (by simp)

theorem C91_KramerBurcharth_calculate_crest_freeboard_Rc (Hs rho_armour Dn50 M50 Rc_Dn50_init : PF) (max_iter : ℕ)
    (tolerance : ℝ) (hn : 1 ≤ max_iter) (missing : nan ∈ [Hs, rho_armour, Rc_Dn50_init]) :
    NoNumber (KramerBurcharth.calculate_crest_freeboard_Rc Hs rho_armour Dn50 M50 Rc_Dn50_init max_iter
      (fin tolerance)) := by
  obtain ⟨n, rfl⟩ : ∃ n, max_iter = n + 1 := ⟨max_iter - 1, by omega⟩
  unfold KramerBurcharth.calculate_crest_freeboard_Rc
  refine .bind fun D => ?_
  dsimp only
  rw [kramer]
  · exact .bind fun _ => .nan
  · simp only [List.mem_cons, List.not_mem_nil, or_false] at missing
    rcases missing with rfl | rfl | rfl
    all_goals
      simp only [KramerBurcharth.freeboard_step]
      nan_simp [CorePhysics.calculate_buoyant_density_Delta]

example := C91_KramerBurcharth_calculate_crest_freeboard_Rc nan (.fin 2650) (.fin 1) nan (.fin (-1)) 1000 1e-5
  (by norm_num) (by simp)

/-- A missing tolerance in the size of low-crested armour gives the initial guess `Hs / (Δ · Ns_init)`, a
number that the formula does not give. -/
theorem C91_KramerBurcharth_missing_tolerance (Hs Rc rho_armour Ns_init : PF) (max_iter : ℕ) :
    (KramerBurcharth.calculate_nominal_rock_diameter_Dn50 Hs Rc rho_armour Ns_init max_iter nan).res =
      .ok (Hs / ((rho_armour - 1025) / 1025 * Ns_init)) := by
  unfold KramerBurcharth.calculate_nominal_rock_diameter_Dn50
  have : ∀ f : KramerBurcharth.LoopState → _, ∀ s,
      whileIter max_iter (fun s : KramerBurcharth.LoopState => s.diff > nan) f s = s := by
    intro f s
    cases max_iter with
    | zero => rfl
    | succ n => rw [whileIter, if_neg (nan_lt _)]
  simp only [this, KramerBurcharth.check_validity_range, check_bind_res]
  rfl

/-! ## Wave heights on rear slopes -/

private theorem rear (f : RearState → RearState) (H tolerance : PF) (n : ℕ) (hf : ∀ s, (f s).Hs_i1 = nan) :
    (whileIter n (RearState.go tolerance) f ⟨0, H, H + pinf, none⟩).z1p = none ∨
      (whileIter n (RearState.go tolerance) f ⟨0, H, H + pinf, none⟩).Hs_i1 = nan :=
  whileIter_inv _ _ (fun s : RearState => s.z1p = none ∨ s.Hs_i1 = nan) (fun s _ => .inr (hf s)) n (.inl rfl)

theorem C91_VanGent2007Rear_calculate_maximum_significant_wave_height_Hs (cot_alpha cot_phi gamma S Tmm10 Rc
    Rc2_front Rc2_rear N_waves Dn50 M50 rho_rock tolerance : PF) (max_iterations : ℕ)
    (missing : nan ∈ [cot_alpha, cot_phi, gamma, S, Tmm10, Rc, Rc2_front, Rc2_rear, N_waves]) :
    NoNumber (VanGent2007Rear.calculate_maximum_significant_wave_height_Hs cot_alpha cot_phi gamma S Tmm10 Rc
      Rc2_front Rc2_rear N_waves Dn50 M50 rho_rock tolerance max_iterations) := by
  unfold VanGent2007Rear.calculate_maximum_significant_wave_height_Hs
  refine .bind fun D => ?_
  extract_lets s
  have hs : s.z1p = none ∨ s.Hs_i1 = nan := by
    refine rear _ _ _ _ fun s => ?_
    simp only [List.mem_cons, List.not_mem_nil, or_false] at missing
    rcases missing with rfl | rfl | rfl | rfl | rfl | rfl | rfl | rfl | rfl
    all_goals
      simp only [VanGent2007Rear.height_step]
      nan_simp [VanGent2007Rear._invert_for_z1p, VanGent2001._invert_for_Hs,
        CorePhysics.calculate_Iribarren_number_ksi, CorePhysics.calculate_wave_steepness_s]
  have hm : NoNumber (match s.z1p with
      | none => PyM.raise .unboundLocal
      | some z1p => do
        VanGent2007Rear.check_validity_range (S := S) (Hs := s.Hs_i1) (Rc := Rc) (z1p := z1p)
          (Rc2_front := Rc2_front) (Rc2_rear := Rc2_rear) (N_waves := N_waves) (Dn50 := D)
        pure s.Hs_i1 : PyM PF) := by
    rcases hs with h | h
    · rw [h]; exact .raise _
    · rw [h]; split
      · exact .raise _
      · exact .bind fun _ => .nan
  split_ifs
  · exact .bind fun _ => hm
  · exact hm

example := C91_VanGent2007Rear_calculate_maximum_significant_wave_height_Hs (.fin 2) (.fin 2) nan (.fin 2) (.fin 7)
  (.fin 3) (.fin 3) (.fin 3) (.fin 3000) (.fin 1) nan nan 1e-4 10000 (by simp)

theorem C91_VanGentPozueta2004_calculate_maximum_significant_wave_height_Hs (cot_alpha cot_phi gamma_f gamma_f_Crest
    S Tmm10 Rc Rc_rear Bc N_waves Dn50 M50 rho_rock rho_water cs tolerance : PF) (max_iterations : ℕ)
    (missing : nan ∈ [cot_alpha, cot_phi, gamma_f, gamma_f_Crest, S, Tmm10, Rc, Rc_rear, Bc, N_waves, rho_rock,
      rho_water, cs]) :
    NoNumber (VanGentPozueta2004.calculate_maximum_significant_wave_height_Hs cot_alpha cot_phi gamma_f
      gamma_f_Crest S Tmm10 Rc Rc_rear Bc N_waves Dn50 M50 rho_rock rho_water cs tolerance max_iterations) := by
  unfold VanGentPozueta2004.calculate_maximum_significant_wave_height_Hs
  extract_lets Delta H0
  refine .bind fun D => ?_
  extract_lets s
  have hs : s.z1p = none ∨ s.Hs_i1 = nan := by
    refine rear _ _ _ _ fun s => ?_
    simp only [List.mem_cons, List.not_mem_nil, or_false] at missing
    rcases missing with rfl | rfl | rfl | rfl | rfl | rfl | rfl | rfl | rfl | rfl | rfl | rfl | rfl
    all_goals
      simp only [VanGentPozueta2004.height_step, Delta]
      nan_simp [VanGentPozueta2004._invert_for_u1p, VanGent2002Velocity._invert_for_zXp, VanGent2001._invert_for_Hs,
        CorePhysics.calculate_Iribarren_number_ksi, CorePhysics.calculate_wave_steepness_s,
        CorePhysics.calculate_buoyant_density_Delta]
  have hm : NoNumber (match s.z1p with
      | none => PyM.raise .unboundLocal
      | some z1p => do
        VanGentPozueta2004.check_validity_range (Rc := Rc) (Rc_rear := Rc_rear) (cot_phi := cot_phi)
          (gamma_f := gamma_f) (Dn50 := D) (rho_rock := rho_rock) (rho_water := rho_water) (Bc := Bc)
          (Hs := s.Hs_i1) (Tmm10 := Tmm10) (z1p := z1p) (S := S) (N_waves := N_waves)
        pure s.Hs_i1 : PyM PF) := by
    rcases hs with h | h
    · rw [h]; exact .raise _
    · rw [h]; split
      · exact .raise _
      · exact .bind fun _ => .nan
  split_ifs
  · exact .bind fun _ => hm
  · exact hm

example := C91_VanGentPozueta2004_calculate_maximum_significant_wave_height_Hs (.fin 2) (.fin 2) (.fin 0.5)
  (.fin 0.5) (.fin 2) nan (.fin 3) (.fin 3) (.fin 5) (.fin 3000) (.fin 1) nan (.fin 2650) (.fin 1025) (.fin 1) 1e-4
  10000 (by simp)

/-! ## Wave height at a toe, Etemad-Shahidi et al. (2021) -/

theorem C91_EtemadShahidi2021_calculate_significant_wave_height_Hs (Tmm10 h ht Bt Nod m Dn50 rho_rock rho_water g
    c1 c2 : PF) (c3 c4 c5 c6 : ℝ) (c7 smm10_init : PF) (max_iter : ℕ) (h_c3 : c3 ≠ 0) (h_c4 : c4 ≠ 0)
    (h_c5 : c5 ≠ 0) (h_c6 : c6 ≠ 0) (hn : 1 ≤ max_iter)
    (missing : nan ∈ [Tmm10, h, ht, Bt, Nod, m, Dn50, rho_rock, rho_water, g, c1, c2, c7, smm10_init]) :
    EtemadShahidi2021.calculate_significant_wave_height_Hs Tmm10 h ht Bt Nod m Dn50 rho_rock rho_water g c1 c2
      (fin c3) (fin c4) (fin c5) (fin c6) c7 smm10_init max_iter = some (pure nan) := by
  unfold EtemadShahidi2021.calculate_significant_wave_height_Hs
  extract_lets Delta n_iter H0
  set f := EtemadShahidi2021.height_step Delta Dn50 Tmm10 h ht Bt Nod m g c1 c2 (fin c3) (fin c4) (fin c5) (fin c6)
    c7 with hf
  have h1 : (f ⟨H0, pinf, H0, smm10_init⟩).Hs = nan ∧ (f ⟨H0, pinf, H0, smm10_init⟩).diff = nan := by
    rw [hf]
    simp only [List.mem_cons, List.not_mem_nil, or_false] at missing
    rcases missing with rfl | rfl | rfl | rfl | rfl | rfl | rfl | rfl | rfl | rfl | rfl | rfl | rfl | rfl
    all_goals
      simp only [EtemadShahidi2021.height_step, Delta, H0]
      nan_simp [CorePhysics.calculate_buoyant_density_Delta]
  have h2 : whileUnb (fun s : EtemadShahidi2021.LoopState => s.diff > 1e-3 ∧ n_iter < max_iter) f
      ⟨H0, pinf, H0, smm10_init⟩ = some (f ⟨H0, pinf, H0, smm10_init⟩) := by
    refine whileUnb_some.mpr ⟨1, rfl, ?_, ?_⟩
    · rw [h1.2]; exact fun h => lt_nan _ h.1
    · intro j hj
      obtain rfl : j = 0 := by omega
      refine ⟨?_, hn⟩
      rw [sci_eq]; trivial
  rw [h2, Option.map_some, h1.1]

example := C91_EtemadShahidi2021_calculate_significant_wave_height_Hs (.fin 7) (.fin 8) (.fin 6) (.fin 5) (.fin 0.5)
  nan (.fin 1) (.fin 2650) (.fin 1025) (.fin 9.81) (.fin 1.2) (.fin 11.2) (7 / 4) (1 / 6) (2 / 5) (-1 / 10)
  (.fin 3.7) (.fin 0.03) 1000 (by norm_num) (by norm_num) (by norm_num) (by norm_num) (by norm_num) (by simp)

/-! ## Toes of caissons, Takahashi et al. (1990) -/

private theorem ns_nan {disper : PF → PF → PF → PF} (hd : Passes disper) {Hs Tp hacc Bt beta g : PF}
    (h : nan ∈ [Hs, Tp, hacc, Bt, beta, g]) : Takahashi1990.ns_value disper Hs Tp hacc Bt beta g = nan := by
  simp only [List.mem_cons, List.not_mem_nil, or_false] at h
  rcases h with rfl | rfl | rfl | rfl | rfl | rfl
  all_goals
    nan_simp [Takahashi1990.ns_value, CorePhysics.calculate_local_wavelength, hd.1, hd.2.1, hd.2.2]

theorem C91_Takahashi1990_calculate_significant_wave_height_Hs (disper : PF → PF → PF → PF)
    (Dn50 Tp hacc Bt rho_rock rho_water beta g : PF) (hd : Passes disper)
    (missing : nan ∈ [Dn50, Tp, hacc, Bt, rho_rock, rho_water, beta, g]) :
    NoNumber (Takahashi1990.calculate_significant_wave_height_Hs disper Dn50 Tp hacc Bt rho_rock rho_water beta
      g) := by
  have ha : ∀ y z : PF, PF.arange nan y z = PyM.raise .valueError := fun y z => by cases y <;> cases z <;> rfl
  unfold Takahashi1990.calculate_significant_wave_height_Hs Takahashi1990.calculate_stability_number_Ns
  simp only [List.mem_cons, List.not_mem_nil, or_false] at missing
  rcases missing with rfl | rfl | rfl | rfl | rfl | rfl | rfl | rfl
  case inl | inr.inr.inr.inr.inl | inr.inr.inr.inr.inr.inl =>
    nan_simp [CorePhysics.calculate_buoyant_density_Delta, stab1, ha]
    exact .bind fun _ => .raise_bind _ _
  all_goals
    simp only [stab1, pure_bind, bind_assoc]
    rw [ns_nan hd (by simp)]
    nan_simp [ha]
    exact .bind fun _ => .raise_bind _ _

example := C91_Takahashi1990_calculate_significant_wave_height_Hs (fun w h g => w + h + g) (.fin 1) (.fin 8) nan
  (.fin 5) (.fin 2650) (.fin 1025) (.fin 10) (.fin 9.81) passes_sum (by simp)

/-- With a missing value the search for the depth above the toe never ends: every comparison with NaN is false, so
the comparison never changes. -/
theorem C91_Takahashi1990_depth_search_hangs (disper : PF → PF → PF → PF)
    (Dn50 Tp Hs Bt rho_rock rho_water beta g : PF) (hd : Passes disper)
    (missing : nan ∈ [Dn50, Tp, Hs, Bt, rho_rock, rho_water, beta, g]) :
    Takahashi1990.calculate_significant_depth_above_toe_hacc disper Dn50 Tp Hs Bt rho_rock rho_water beta g =
      none := by
  have hangs : ∀ Ns dht hacc : PF, Ns = nan ∨ (∀ x, Takahashi1990.ns_value disper Hs Tp x Bt beta g = nan) →
      Takahashi1990.depth_search disper Hs Tp Bt beta g Ns dht hacc = none := by
    intro Ns dht hacc h
    unfold Takahashi1990.depth_search
    refine whileUnb_none.mpr fun k => ?_
    rcases h with rfl | h
    · exact iff_of_false (nan_lt _) (nan_lt _)
    · have : ∀ k, ((Takahashi1990.depth_step disper Hs Tp Bt beta g dht)^[k]
          { hacc_in := hacc, Ns_out := Takahashi1990.ns_value disper Hs Tp hacc Bt beta g,
            warns := (Takahashi1990.calculate_stability_number_Ns disper Hs Tp hacc Bt beta g).warns }).Ns_out =
          nan := by
        intro k
        cases k with
        | zero => exact h _
        | succ k => rw [Function.iterate_succ_apply']; exact h _
      rw [this k, h]
  unfold Takahashi1990.calculate_significant_depth_above_toe_hacc
  extract_lets Delta Ns dht
  have h : Ns = nan ∨ (∀ x, Takahashi1990.ns_value disper Hs Tp x Bt beta g = nan) := by
    simp only [List.mem_cons, List.not_mem_nil, or_false] at missing
    rcases missing with rfl | rfl | rfl | rfl | rfl | rfl | rfl | rfl
    case inl | inr.inr.inr.inr.inl | inr.inr.inr.inr.inr.inl =>
      left
      simp only [Ns, Delta]
      nan_simp [CorePhysics.calculate_buoyant_density_Delta]
    all_goals
      right
      exact fun x => ns_nan hd (by simp)
  rw [hangs _ _ _ h]

example := C91_Takahashi1990_depth_search_hangs (fun w h g => w + h + g) (.fin 1) nan (.fin 2) (.fin 5) (.fin 2650)
  (.fin 1025) (.fin 10) (.fin 9.81) passes_sum (by simp)

end
