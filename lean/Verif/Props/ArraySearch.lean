import Verif.Array.ToeSearch
import Verif.Lemmas.ArrayToe

/-! # C83, C84: the searches of Takahashi et al. (1990) with arrays -/

open Classical
open Arrays
noncomputable section
variable {n : ℕ}

namespace SearchProof
open Arr.Takahashi1990

theorem arr1 (f : PF → PF) (a : Val n) : (Val.lift1 f a).isArray = a.isArray := by cases a <;> rfl
theorem arr2 (f : PF → PF → PF) (a b : Val n) : (Val.lift2 f a b).isArray = (a.isArray || b.isArray) := by
  cases a <;> cases b <;> rfl
theorem arr_add (a b : Val n) : (a + b).isArray = (a.isArray || b.isArray) := arr2 _ a b
theorem arr_sub (a b : Val n) : (a - b).isArray = (a.isArray || b.isArray) := arr2 _ a b
theorem arr_mul (a b : Val n) : (a * b).isArray = (a.isArray || b.isArray) := arr2 _ a b
theorem arr_div (a b : Val n) : (a / b).isArray = (a.isArray || b.isArray) := arr2 _ a b
theorem arr_npow (a b : Val n) : (Val.npow a b).isArray = (a.isArray || b.isArray) := arr2 _ a b
theorem arr_max (a b : Val n) : (Val.max a b).isArray = (a.isArray || b.isArray) := arr2 _ a b
theorem arr_min (a b : Val n) : (Val.min a b).isArray = (a.isArray || b.isArray) := arr2 _ a b
theorem arr_exp (a : Val n) : (Val.exp a).isArray = a.isArray := arr1 _ a
theorem arr_cos (a : Val n) : (Val.cos a).isArray = a.isArray := arr1 _ a
theorem arr_sin (a : Val n) : (Val.sin a).isArray = a.isArray := arr1 _ a
theorem arr_sinh (a : Val n) : (Val.sinh a).isArray = a.isArray := arr1 _ a
theorem arr_rad (a : Val n) : (Val.deg2rad a).isArray = a.isArray := arr1 _ a

theorem check_numbers (given : List PF) (nm fm : String) (v lo hi : PF) :
    Arr.CoreUtility.check_if_given (n := n) (given.map Val.num) nm fm (.num v) lo hi =
      CoreUtility.check_if_given given nm fm v lo hi := by
  unfold Arr.CoreUtility.check_if_given CoreUtility.check_if_given
  simp only [List.mem_map, forall_exists_index, and_imp, forall_apply_eq_imp_iff₂, Val.isnan, BVal.any]
  rfl

theorem validity_numbers (Ns Bt : PF) : check_validity (n := n) (.num Ns) (.num Bt) =
    Takahashi1990.check_validity Ns Bt := by
  unfold check_validity Takahashi1990.check_validity
  dsimp only
  have h1 := check_numbers (n := n) [Ns]
  have h2 := check_numbers (n := n) [Bt]
  simp only [List.map_cons, List.map_nil] at h1 h2
  rw [h1, h2]

variable [NeZero n]

theorem validity_ok (Ns Bt : Val n) : (check_validity Ns Bt).res = .ok () := by
  have h := (ArrProof.Takahashi1990_check_validity (U := False) Ns Bt (fun h => h.elim)).1 0
  have e : ∀ a b : PF, (Takahashi1990.check_validity a b).res = .ok () := fun a b => by
    unfold Takahashi1990.check_validity
    simp only [check_bind_res, check_if_given_res]
  rw [e] at h
  cases hc : (check_validity Ns Bt).res with
  | error x => rw [hc] at h; cases h
  | ok u => rfl

/-- the stability number: which exception, and when it is an array -/
theorem ns_arr (hn : n ≠ 1) (disper : PF → PF → PF → PF) (Hs Tp hacc Bt beta : Val n) (g : PF) :
    ∃ w v, calculate_stability_number_Ns disper Hs Tp hacc Bt beta g = ⟨w, .ok v⟩ ∧
      ((Hs.isArray || hacc.isArray || Bt.isArray || beta.isArray) = true → v.isArray = true) := by
  have hn1 : n > 1 := by have := NeZero.ne n; omega
  have hv : ∃ L : Val n, Arr.CorePhysics.calculate_local_wavelength disper Tp hacc g = pure L := by
    unfold Arr.CorePhysics.calculate_local_wavelength
    cases hacc with
    | num h => exact ⟨_, rfl⟩
    | arr h => exact ⟨_, if_pos hn1⟩
  obtain ⟨L, hL⟩ := hv
  unfold calculate_stability_number_Ns ns_value
  dsimp only
  rw [hL, Val.pure_bind, Val.pure_bind]
  have hc : ∀ v, ∃ w, (do check_validity v Bt; pure v : PyM (Val n)) = ⟨w, .ok v⟩ := fun v => by
    refine ⟨_, PyM.ext' rfl ?_⟩
    exact PyM.bind_res_of_ok (validity_ok v Bt) _
  obtain ⟨w, hw⟩ := hc _
  refine ⟨w, _, hw, ?_⟩
  simp only [arr_add, arr_mul, arr_div, arr_npow, arr_max, arr_exp, arr_cos, arr_sin, arr_sinh, arr_rad,
    arr_sub, Bool.or_eq_true]
  tauto

/-- numbers, and any periods: as for the first period -/
theorem ns_first (disper : PF → PF → PF → PF) (Hs hacc Bt beta : PF) (Tp : Val n) (g : PF) :
    calculate_stability_number_Ns disper (.num Hs) Tp (.num hacc) (.num Bt) (.num beta) g =
      ⟨(Takahashi1990.calculate_stability_number_Ns disper Hs (Tp.get 0) hacc Bt beta g).warns,
        .ok (.num (Takahashi1990.ns_value disper Hs (Tp.get 0) hacc Bt beta g))⟩ := by
  have hL : Arr.CorePhysics.calculate_local_wavelength disper Tp (.num hacc) g =
      pure (.num (CorePhysics.calculate_local_wavelength disper (Tp.get 0) hacc g)) := by
    unfold Arr.CorePhysics.calculate_local_wavelength CorePhysics.calculate_local_wavelength
    cases Tp <;> rfl
  unfold calculate_stability_number_Ns ns_value
  dsimp only
  rw [hL, Val.pure_bind, Val.pure_bind]
  change (do check_validity (.num (Takahashi1990.ns_value disper Hs (Tp.get 0) hacc Bt beta g)) (.num Bt)
             pure (.num (Takahashi1990.ns_value disper Hs (Tp.get 0) hacc Bt beta g)) : PyM (Val n)) = _
  have hok := validity_ok (n := n) (.num (Takahashi1990.ns_value disper Hs (Tp.get 0) hacc Bt beta g)) (.num Bt)
  refine PyM.ext' ?_ (PyM.bind_res_of_ok hok _)
  rw [PyM.bind_warns_of_ok hok]
  unfold Takahashi1990.calculate_stability_number_Ns
  rw [validity_numbers] at hok ⊢
  dsimp only
  rw [PyM.bind_warns_of_ok hok]
  rfl

omit [NeZero n] in
theorem whileUnb_map {σ τ : Type} {c : σ → Prop} {c' : τ → Prop} {b : σ → σ} {b' : τ → τ} (φ : σ → τ)
    (h1 : ∀ s, c' (φ s) ↔ c s) (h2 : ∀ s, b' (φ s) = φ (b s)) (s : σ) :
    whileUnb c' b' (φ s) = (whileUnb c b s).map φ := by
  have hit : ∀ k, b'^[k] (φ s) = φ (b^[k] s) := by
    intro k
    induction k with
    | zero => rfl
    | succ k ih => rw [Function.iterate_succ_apply', Function.iterate_succ_apply', ih, h2]
  rcases hc : whileUnb c b s with _ | r
  · refine whileUnb_none.mpr fun k => ?_
    rw [hit, h1]
    exact whileUnb_none.mp hc k
  · obtain ⟨k, hr, hn, hlt⟩ := whileUnb_some.mp hc
    refine whileUnb_some.mpr ⟨k, by rw [hit, hr], by rw [h1]; exact hn, fun j hj => ?_⟩
    rw [hit, h1]
    exact hlt j hj

omit [NeZero n] in
theorem truth_raises (hn : n ≠ 1) {a b c d : Val n} (h : (a.isArray || b.isArray) = true) :
    (same (a <. b) (c <. d)).truth = PyM.raise .valueError := by
  have h1 : ∃ f, (a <. b) = .arr f := by
    cases a <;> cases b <;> first | exact ⟨_, rfl⟩ | cases h
  obtain ⟨f, hf⟩ := h1
  rw [hf]
  have h2 : ∃ f', same (.arr f) (c <. d) = .arr f' := by
    cases c <;> cases d <;> exact ⟨_, rfl⟩
  obtain ⟨f', hf'⟩ := h2
  rw [hf']
  exact dif_neg hn

end SearchProof
open SearchProof

/-- C83: the depth above the toe of a caisson cannot be computed for several cases in one call.  With an
array of two or more wave heights, stone sizes, toe widths, densities or wave directions the call raises
an exception, whatever the numbers are. -/
theorem C83_takahashi_depth_raises [NeZero n] (hn : n ≠ 1) (disper : PF → PF → PF → PF)
    (Dn50 Tp Hs Bt rho_rock rho_water beta : Val n) (g : PF)
    (h : ∃ x ∈ [Dn50, Hs, Bt, rho_rock, rho_water, beta], x.isArray = true) :
    ∃ w, Arr.Takahashi1990.calculate_significant_depth_above_toe_hacc disper Dn50 Tp Hs Bt rho_rock
      rho_water beta g = some ⟨w, .error .valueError⟩ := by
  obtain ⟨w, v, hv, ha⟩ := ns_arr hn disper Hs Tp (Hs / 20) Bt beta g
  have key : ∃ w, Arr.Takahashi1990.depth_start disper Dn50 Tp Hs Bt rho_rock rho_water beta g (Hs / 20) =
      ⟨w, .error .valueError⟩ := by
    unfold Arr.Takahashi1990.depth_start
    dsimp only
    have e : ∀ De : Val n, Arr.CorePhysics.check_usage_stabilitynumber (Dn := Dn50) (Hs := Hs)
      (Delta := De) = pure (Hs / (De * Dn50), "Ns") := fun De => rfl
    rw [e, Val.pure_bind, hv]
    dsimp only
    rw [PyM.bind_ok, truth_raises hn]
    · exact ⟨_, rfl⟩
    · simp only [List.mem_cons, List.not_mem_nil, or_false] at h
      obtain ⟨x, hx, hxa⟩ := h
      unfold Arr.CorePhysics.calculate_buoyant_density_Delta
      simp only [arr_div, arr_mul, arr_sub, Bool.or_eq_true] at ha ⊢
      rcases hx with rfl | rfl | rfl | rfl | rfl | rfl <;> simp only [hxa] at ha ⊢ <;> tauto
  obtain ⟨w, hw⟩ := key
  refine ⟨w, ?_⟩
  unfold Arr.Takahashi1990.calculate_significant_depth_above_toe_hacc
  simp only [hw]

/-- C83: with an array of wave periods and numbers for everything else, the depth for the first period is
returned, as a number. -/
theorem C83_takahashi_depth_first_period [NeZero n] (disper : PF → PF → PF → PF)
    (Dn50 Hs Bt rho_rock rho_water beta : PF) (Tp : Fin n → PF) (g : PF) :
    Arr.Takahashi1990.calculate_significant_depth_above_toe_hacc disper (.num Dn50) (.arr Tp) (.num Hs)
      (.num Bt) (.num rho_rock) (.num rho_water) (.num beta) g =
    (Takahashi1990.calculate_significant_depth_above_toe_hacc disper Dn50 (Tp 0) Hs Bt rho_rock rho_water
      beta g).map fun m => ⟨m.warns, m.res.map Val.num⟩ := by
  have search : ∀ (Ns dht hacc : PF) (w : List Warn),
      Arr.Takahashi1990.depth_search (n := n) disper (.num Hs) (.arr Tp) (.num Bt) (.num beta) g (.num Ns)
        dht hacc (.num (Takahashi1990.ns_value disper Hs (Tp 0) hacc Bt beta g))
        (w ++ (Takahashi1990.calculate_stability_number_Ns disper Hs (Tp 0) hacc Bt beta g).warns) =
      (Takahashi1990.depth_search disper Hs (Tp 0) Bt beta g Ns dht hacc).map
        fun s => ⟨s.hacc_in, .num s.Ns_out, w ++ s.warns⟩ := by
    intro Ns dht hacc w
    unfold Arr.Takahashi1990.depth_search Takahashi1990.depth_search
    dsimp only
    refine whileUnb_map (fun s : Takahashi1990.DepthState =>
      (⟨s.hacc_in, .num s.Ns_out, w ++ s.warns⟩ : Arr.Takahashi1990.DepthState n)) (fun s => ?_)
      (fun s => ?_) ⟨hacc, Takahashi1990.ns_value disper Hs (Tp 0) hacc Bt beta g,
        (Takahashi1990.calculate_stability_number_Ns disper Hs (Tp 0) hacc Bt beta g).warns⟩
    · exact Iff.rfl
    unfold Arr.Takahashi1990.depth_step Takahashi1990.depth_step
    dsimp only
    rw [ns_first]
    simp only [Except.toOption, Option.getD_some, List.append_assoc]
    rfl
  have e : ∀ De : PF, Arr.CorePhysics.check_usage_stabilitynumber (n := n) (Dn := some (.num Dn50))
      (Hs := some (.num Hs)) (Delta := some (.num De)) = pure (.num (Hs / (De * Dn50)), "Ns") := fun De => rfl
  have hs : Arr.Takahashi1990.depth_start (n := n) disper (.num Dn50) (.arr Tp) (.num Hs) (.num Bt)
      (.num rho_rock) (.num rho_water) (.num beta) g (.num Hs / 20) =
      ⟨(Takahashi1990.calculate_stability_number_Ns disper Hs (Tp 0) (Hs / 20) Bt beta g).warns,
        .ok (.num (Hs / (CorePhysics.calculate_buoyant_density_Delta rho_rock rho_water * Dn50)),
          .num (Takahashi1990.ns_value disper Hs (Tp 0) (Hs / 20) Bt beta g))⟩ := by
    unfold Arr.Takahashi1990.depth_start
    have ed : Arr.CorePhysics.calculate_buoyant_density_Delta (n := n) (.num rho_rock) (.num rho_water) =
      .num (CorePhysics.calculate_buoyant_density_Delta rho_rock rho_water) := rfl
    have eh : (.num Hs / 20 : Val n) = .num (Hs / 20) := rfl
    dsimp only
    rw [ed, e, Val.pure_bind, eh, ns_first]
    dsimp only
    rw [PyM.bind_ok]
    have et : ∀ a b : PF, ∃ x, (Arr.Takahashi1990.same ((.num a : Val n) <. .num b)
      (.num a <. .num b)).truth = pure x := fun a b => ⟨_, rfl⟩
    obtain ⟨x, hx⟩ := et (Hs / (CorePhysics.calculate_buoyant_density_Delta rho_rock rho_water * Dn50))
      (Takahashi1990.ns_value disper Hs (Tp 0) (Hs / 20) Bt beta g)
    simp only [Val.get]
    rw [hx, Val.pure_bind]
    simp only [PyM.pure_def, List.append_nil]
  unfold Arr.Takahashi1990.calculate_significant_depth_above_toe_hacc
    Takahashi1990.calculate_significant_depth_above_toe_hacc
  dsimp only
  rw [hs]
  dsimp only
  have h0 := search (Hs / (CorePhysics.calculate_buoyant_density_Delta rho_rock rho_water * Dn50)) (Hs / 20)
    (Hs / 20) []
  simp only [List.nil_append] at h0
  rw [h0]
  cases Takahashi1990.depth_search disper Hs (Tp 0) Bt beta g
    (Hs / (CorePhysics.calculate_buoyant_density_Delta rho_rock rho_water * Dn50)) (Hs / 20) (Hs / 20) with
  | none => rfl
  | some s =>
    simp only [Option.map_some]
    split_ifs
    · rw [ns_first]
      simp only [Except.toOption, Option.getD_some]
      have h1 := search (Hs / (CorePhysics.calculate_buoyant_density_Delta rho_rock rho_water * Dn50)) 0.001
        (s.hacc_in - Hs / 20) s.warns
      simp only [Val.get] at h1 ⊢
      rw [h1]
      cases Takahashi1990.depth_search disper Hs (Tp 0) Bt beta g
        (Hs / (CorePhysics.calculate_buoyant_density_Delta rho_rock rho_water * Dn50)) 0.001
        (s.hacc_in - Hs / 20) <;> rfl
    · rfl

/-- C83: the wave height a toe of a caisson withstands cannot be computed for several cases in one call
either, unless the cases differ in the wave period only. -/
theorem C83_takahashi_height_raises [NeZero n] (hn : n ≠ 1) (disper : PF → PF → PF → PF)
    (Dn50 Tp hacc Bt rho_rock rho_water beta : Val n) (g : PF)
    (h : ∃ x ∈ [Dn50, hacc, Bt, rho_rock, rho_water, beta], x.isArray = true) :
    (Arr.Takahashi1990.calculate_significant_wave_height_Hs disper Dn50 Tp hacc Bt rho_rock
      rho_water beta g).res = .error .typeError := by
  unfold Arr.Takahashi1990.calculate_significant_wave_height_Hs
  dsimp only
  have e : ∀ De N : Val n, Arr.CorePhysics.check_usage_stabilitynumber (Dn := Dn50) (Ns := some N)
    (Delta := De) = pure (Dn50 * De * N, "Hs") := fun De N => rfl
  rw [e, Val.pure_bind]
  dsimp only
  obtain ⟨w, v, hv, ha⟩ := ns_arr hn disper (Dn50 *
    Arr.CorePhysics.calculate_buoyant_density_Delta rho_rock rho_water * 1.8) Tp hacc Bt beta g
  rw [hv, PyM.bind_res_of_ok rfl, e, Val.pure_bind]
  dsimp only
  unfold Arr.Takahashi1990.arange
  rw [if_pos]
  · rfl
  refine ⟨?_, hn⟩
  simp only [List.mem_cons, List.not_mem_nil, or_false] at h
  obtain ⟨x, hx, hxa⟩ := h
  unfold Arr.CorePhysics.calculate_buoyant_density_Delta at ha ⊢
  simp only [arr_div, arr_mul, arr_sub, arr_min, arr_max, Bool.or_eq_true] at ha ⊢
  rcases hx with rfl | rfl | rfl | rfl | rfl | rfl <;> simp only [hxa] at ha ⊢ <;> tauto

/-- C83: with an array of wave periods and numbers for everything else, the wave height for the first
period is returned, as a number. -/
theorem C83_takahashi_height_first_period [NeZero n] (disper : PF → PF → PF → PF)
    (Dn50 hacc Bt rho_rock rho_water beta : PF) (Tp : Fin n → PF) (g : PF) :
    Arr.Takahashi1990.calculate_significant_wave_height_Hs disper (.num Dn50) (.arr Tp) (.num hacc)
      (.num Bt) (.num rho_rock) (.num rho_water) (.num beta) g =
    (Takahashi1990.calculate_significant_wave_height_Hs disper Dn50 (Tp 0) hacc Bt rho_rock rho_water
      beta g >>= fun x => pure (Val.num x)) := by
  unfold Arr.Takahashi1990.calculate_significant_wave_height_Hs
    Takahashi1990.calculate_significant_wave_height_Hs
  have e : ∀ De N : PF, Arr.CorePhysics.check_usage_stabilitynumber (n := n) (Dn := some (.num Dn50))
    (Ns := some (.num N)) (Delta := some (.num De)) = pure (.num (Dn50 * De * N), "Hs") := fun De N => rfl
  have e' : ∀ De N : PF, CorePhysics.check_usage_stabilitynumber (Dn := some Dn50)
    (Ns := some N) (Delta := some De) = pure (Dn50 * De * N, "Hs") := fun De N => rfl
  have ed : Arr.CorePhysics.calculate_buoyant_density_Delta (n := n) (.num rho_rock) (.num rho_water) =
      .num (CorePhysics.calculate_buoyant_density_Delta rho_rock rho_water) := rfl
  have e18 : (1.8 : Val n) = .num 1.8 := rfl
  dsimp only
  rw [ed, e18, e, e', Val.pure_bind, pure_bind]
  dsimp only
  rw [ns_first]
  have es : ∀ H T h B b : PF, Takahashi1990.calculate_stability_number_Ns disper H T h B b g =
      ⟨(Takahashi1990.calculate_stability_number_Ns disper H T h B b g).warns,
        .ok (Takahashi1990.ns_value disper H T h B b g)⟩ := by
    intro H T h B b
    refine PyM.ext' rfl ?_
    unfold Takahashi1990.calculate_stability_number_Ns Takahashi1990.check_validity
    simp only [check_bind_res, bind_assoc, PyM.pure_def]
  have ens : ∀ H T h B b : PF, (⟨(Takahashi1990.calculate_stability_number_Ns disper H T h B b g).warns,
      .ok (.num (Takahashi1990.ns_value disper H T h B b g))⟩ : PyM (Val n)) =
      (Takahashi1990.calculate_stability_number_Ns disper H T h B b g >>= fun x => pure (.num x)) := by
    intro H T h B b
    conv_rhs => rw [es]
    simp only [PyM.bind_ok, PyM.pure_def, List.append_nil]
  have ea : ∀ a b c : PF, Arr.Takahashi1990.arange (n := n) (.num a) (.num b) (.num c) = PF.arange a b c := by
    intro a b c
    unfold Arr.Takahashi1990.arange
    exact if_neg (fun h => by simp [Val.isArray] at h)
  have el : ∀ x : PF, (.num x / 20 : Val n) = .num (x / 20) := fun x => rfl
  have emin : ∀ x y : PF, Val.min (.num x : Val n) (.num y) = .num (PF.min x y) := fun x y => rfl
  have emax : ∀ x y : PF, Val.max (.num x : Val n) (.num y) = .num (PF.max x y) := fun x y => rfl
  have eif : ∀ (p : Prop) [Decidable p] (a b : PyM PF), ((if p then a else b) >>= fun x => (pure (Val.num x) : PyM (Val n))) =
      if p then a >>= fun x => pure (Val.num x) else b >>= fun x => pure (Val.num x) := by
    intro p _ a b; split_ifs <;> rfl
  simp only [ens, Val.get, bind_assoc, pure_bind, e, e', el, emin, emax, ea, eif]

example := C83_takahashi_depth_raises (n := 2) (by norm_num) (fun w h g => w + h + g) (.num (.fin 1))
  (.num (.fin 8)) (.arr ![.fin 2, .fin 3]) (.num (.fin 5)) (.num (.fin 2650)) (.num (.fin 1025))
  (.num (.fin 10)) (.fin 9.81) ⟨.arr ![.fin 2, .fin 3], by simp, rfl⟩
example := C83_takahashi_height_raises (n := 2) (by norm_num) (fun w h g => w + h + g) (.num (.fin 1))
  (.num (.fin 8)) (.arr ![.fin 2, .fin 3]) (.num (.fin 5)) (.num (.fin 2650)) (.num (.fin 1025))
  (.num (.fin 10)) (.fin 9.81) ⟨.arr ![.fin 2, .fin 3], by simp, rfl⟩
example := C83_takahashi_depth_first_period (n := 2) (fun w h g => w + h + g) (.fin 1) (.fin 2) (.fin 5)
  (.fin 2650) (.fin 1025) (.fin 10) ![.fin 8, .fin 9] (.fin 9.81)
example := C83_takahashi_height_first_period (n := 2) (fun w h g => w + h + g) (.fin 1) (.fin 2) (.fin 5)
  (.fin 2650) (.fin 1025) (.fin 10) ![.fin 8, .fin 9] (.fin 9.81)

end
