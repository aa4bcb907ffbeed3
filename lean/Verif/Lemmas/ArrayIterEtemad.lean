import Verif.Lemmas.ArrayLoop
import Verif.Lemmas.ArrayEtemad2020
import Verif.Props.Etemad2020

/-! # The iteration of Etemad-Shahidi et al. 2020, called with arrays -/

open Classical
open Arrays
noncomputable section
namespace ArrProof
variable {n : ℕ}

/-- case `i` of the loop variables -/
def etemadCase (s : Arr.Etemad2020.LoopState n) (i : Fin n) : Etemad2020.LoopState :=
  ⟨s.diff.get i, s.prev.get i, s.Cp.get i, s.Dn50.map fun v => v.get i⟩

/-- one of the two loops -/
theorem etemad_loop [NeZero n] (c e Hs Delta N_waves S ksi I core Cp : Val n) (N : ℕ) (hN : 0 < N)
    (t : ℝ) (hpos : ∀ i, ∃ K Dc C : ℝ, 0 < K ∧ 0 ≤ Dc ∧ 0 < C ∧ Cp.get i = .fin C ∧
      ∀ d pr o (C : ℝ), 0 < C → Etemad2020.size_step (c.get i) (e.get i) (Hs.get i) (Delta.get i)
        (N_waves.get i) (S.get i) (ksi.get i) (I.get i) (core.get i) ⟨d, pr, .fin C, o⟩ =
          ⟨PF.abs (.fin (K / C) - pr), .fin (K / C), .fin (EtemadProof.cp (K / C) Dc),
            some (.fin (K / C))⟩) :
    ∃ K, 0 < K ∧ K ≤ N ∧ ∃ V : Val n,
      (Arr.Etemad2020.size_loop c e Hs Delta N_waves S ksi I core Cp N (.fin t)).Dn50 = some V ∧
      (∀ i, (Etemad2020.size_loop (c.get i) (e.get i) (Hs.get i) (Delta.get i) (N_waves.get i) (S.get i)
        (ksi.get i) (I.get i) (core.get i) (Cp.get i) K (-1.0)).Dn50 = some (V.get i)) ∧
      (∀ i, ∃ k, 0 < k ∧ k ≤ K ∧ (Etemad2020.size_loop (c.get i) (e.get i) (Hs.get i) (Delta.get i)
          (N_waves.get i) (S.get i) (ksi.get i) (I.get i) (core.get i) (Cp.get i) N (.fin t)).Dn50 =
        (Etemad2020.size_loop (c.get i) (e.get i) (Hs.get i) (Delta.get i) (N_waves.get i) (S.get i)
          (ksi.get i) (I.get i) (core.get i) (Cp.get i) k (-1.0)).Dn50) ∧
      (K = N ∨ K ≤ 1 ∨ ∀ i, ∃ y, (Etemad2020.size_loop (c.get i) (e.get i) (Hs.get i) (Delta.get i)
          (N_waves.get i) (S.get i) (ksi.get i) (I.get i) (core.get i) (Cp.get i) (K - 1) (-1.0)).Dn50 =
          some y ∧ PF.abs (V.get i - y) ≤ .fin t) ∧
      ∀ i k, 0 < k → (Etemad2020.size_loop (c.get i) (e.get i) (Hs.get i) (Delta.get i) (N_waves.get i)
        (S.get i) (ksi.get i) (I.get i) (core.get i) (Cp.get i) k (-1.0)).Dn50.isSome := by
  set b := fun i : Fin n => Etemad2020.size_step (c.get i) (e.get i) (Hs.get i) (Delta.get i)
        (N_waves.get i) (S.get i) (ksi.get i) (I.get i) (core.get i) with hb
  set S0 : Arr.Etemad2020.LoopState n := ⟨Val.pinf, Val.pinf, Cp, none⟩ with hS0
  have hC0 : ∀ i, etemadCase S0 i = ⟨PF.pinf, PF.pinf, Cp.get i, none⟩ := fun i => rfl
  have inv : ∀ i j, (∃ C : ℝ, 0 < C ∧ ((b i)^[j] (etemadCase S0 i)).Cp = .fin C) ∧
      (((b i)^[j] (etemadCase S0 i)).prev = .pinf ∨
        ∃ x : ℝ, ((b i)^[j] (etemadCase S0 i)).prev = .fin x) ∧
      ¬ ((b i)^[j] (etemadCase S0 i)).diff.isnan := by
    intro i j
    obtain ⟨K, Dc, C, hK, hDc, hC, hCp, hst⟩ := hpos i
    induction j with
    | zero => exact ⟨⟨C, hC, hCp⟩, Or.inl rfl, fun h => h⟩
    | succ j ih =>
      obtain ⟨⟨C', hC', e1⟩, e2, -⟩ := ih
      rw [Function.iterate_succ_apply']
      generalize (b i)^[j] (etemadCase S0 i) = s at e1 e2 ⊢
      obtain ⟨d, pr, Cs, o⟩ := s
      simp only at e1 e2
      subst e1
      rw [show b i ⟨d, pr, .fin C', o⟩ = _ from hst d pr o C' hC']
      refine ⟨⟨_, EtemadProof.cp_pos (div_pos hK hC') hDc, rfl⟩, Or.inr ⟨_, rfl⟩, ?_⟩
      rcases e2 with e2 | ⟨x, e2⟩ <;> subst e2 <;> exact fun h => h
  have hsome : ∀ i j, ((b i)^[j + 1] (etemadCase S0 i)).Dn50 =
      some ((b i)^[j + 1] (etemadCase S0 i)).prev := by
    intro i j
    rw [Function.iterate_succ_apply']; rfl
  have hchg : ∀ i j, ((b i)^[j + 1] (etemadCase S0 i)).diff =
      PF.abs (((b i)^[j + 1] (etemadCase S0 i)).prev - ((b i)^[j] (etemadCase S0 i)).prev) := by
    intro i j
    rw [Function.iterate_succ_apply']; rfl
  have hgt : ∀ i j, ((b i)^[j] (etemadCase S0 i)).diff > -1.0 := by
    intro i j
    cases j with
    | zero => trivial
    | succ j =>
      have := (inv i (j + 1)).2.2
      rw [hchg] at this ⊢
      exact abs_gt_neg _ this
  obtain ⟨K, hK, hres, hcs, hpass, hlt, hend⟩ := loop_together (n := n) etemadCase
    (Arr.Etemad2020.size_step c e Hs Delta N_waves S ksi I core) b (fun s => s.diff) (fun s => s.diff)
    S0 N t
    (fun s i => by
      simp only [hb]
      unfold Arr.Etemad2020.size_step Etemad2020.size_step etemadCase
      simp only [cases_simp, Option.map_some])
    (fun s i => rfl) (fun i j _ => hgt i j)
  rcases hend with ⟨i, hi⟩ | ⟨h1, h2⟩
  · exact absurd hi (inv i K).2.2
  have hK0 : 0 < K := by
    rcases Nat.eq_zero_or_pos K with h | h
    · subst h
      rcases h1 with h1 | h1
      · omega
      · exact (h1 0).elim
    · exact h
  have hw : ∀ i j, whileIter j (fun s : Etemad2020.LoopState => s.diff > -1.0) (b i) (etemadCase S0 i) =
      (b i)^[j] (etemadCase S0 i) := fun i j => whileIter_all _ _ _ _ fun m _ => hgt i m
  obtain ⟨k, rfl⟩ : ∃ k, K = k + 1 := ⟨K - 1, by omega⟩
  have hV : ∃ V, (Arr.Etemad2020.size_loop c e Hs Delta N_waves S ksi I core Cp N (.fin t)).Dn50 =
      some V := by
    unfold Arr.Etemad2020.size_loop
    rw [show (whileIter N _ _ _ : Arr.Etemad2020.LoopState n) = _ from hres,
      Function.iterate_succ_apply']
    exact ⟨_, rfl⟩
  obtain ⟨V, hV⟩ := hV
  have hVi : ∀ i, ((b i)^[k + 1] (etemadCase S0 i)).Dn50 = some (V.get i) := by
    intro i
    rw [← hcs i]
    show Option.map _ _ = _
    exact (congrArg (Option.map fun v => v.get i) hV)
  refine ⟨k + 1, hK0, hK, V, hV, fun i => ?_, fun i => ?_, ?_, fun i j hj => ?_⟩
  · unfold Etemad2020.size_loop
    exact (congrArg Etemad2020.LoopState.Dn50 (hw i (k + 1))).trans (hVi i)
  · obtain ⟨j, hj, he⟩ := h2 i
    refine ⟨j, ?_, hj, ?_⟩
    · rcases Nat.eq_zero_or_pos j with h | h
      · subst h
        exfalso
        obtain ⟨m, rfl⟩ : ∃ m, N = m + 1 := ⟨N - 1, by omega⟩
        obtain ⟨q, -, hq, -, hx⟩ := whileIter_spec (fun s : Etemad2020.LoopState => s.diff > .fin t) (b i)
          (m + 1) (etemadCase S0 i)
        rw [he] at hq
        have : (etemadCase S0 i).diff = PF.pinf := rfl
        rcases Nat.eq_zero_or_pos q with h | h
        · subst h
          rcases hx with hx | hx
          · omega
          · exact hx trivial
        · obtain ⟨q', rfl⟩ : ∃ q', q = q' + 1 := ⟨q - 1, by omega⟩
          have h3 := hsome i q'
          rw [← hq] at h3
          cases h3
      · exact h
    · unfold Etemad2020.size_loop
      exact (congrArg Etemad2020.LoopState.Dn50 he).trans
        (congrArg Etemad2020.LoopState.Dn50 (hw i j)).symm
  · rcases h1 with h1 | h1
    · exact Or.inl h1
    · cases k with
      | zero => exact Or.inr (Or.inl le_rfl)
      | succ k =>
        refine Or.inr (Or.inr fun i => ⟨((b i)^[k + 1] (etemadCase S0 i)).prev, ?_, ?_⟩)
        · unfold Etemad2020.size_loop
          exact (congrArg Etemad2020.LoopState.Dn50 (hw i (k + 1))).trans (hsome i k)
        · have := h1 i
          rw [hchg] at this
          have e := (hsome i (k + 1)).symm.trans (hVi i)
          rw [Option.some.injEq] at e
          rw [← e]
          exact this
  · obtain ⟨m, rfl⟩ : ∃ m, j = m + 1 := ⟨j - 1, by omega⟩
    unfold Etemad2020.size_loop
    have h3 := (congrArg Etemad2020.LoopState.Dn50 (hw i (m + 1))).trans (hsome i m)
    exact Option.isSome_iff_exists.mpr ⟨_, h3⟩

theorem each_bind [NeZero n] {x : PyM (Val n)} {y : Fin n → PyM PF} {f : Val n → PyM (Val n)}
    {g : Fin n → PF → PyM PF} {p : ℕ → Fin n → PF → PyM PF} {N : ℕ} {t : ℝ} (h : Rel False x y)
    (hk : ∀ v, x.res = .ok v → EachIterated (f v) (fun i => g i (v.get i)) (fun k i => p k i (v.get i)) N t) :
    EachIterated (x >>= f) (fun i => y i >>= g i) (fun k i => y i >>= p k i) N t := by
  obtain ⟨hv, hs, -⟩ := h
  rcases x with ⟨w, e | v⟩
  · have hf : ∀ i, (y i).res = .error e := fun i => (hv i).symm
    refine ⟨fun _ => N, fun _ => le_rfl, ?_, ?_, fun i => ⟨⟨N, le_rfl, ?_⟩, Or.inl rfl⟩⟩
    · intro i
      simp only [PyM.bind_error, Except.map]; rw [PyM.bind_res_of_error (hf i)]
    · intro w hw
      simp only [PyM.bind_error] at hw
      obtain ⟨i, hi⟩ := hs w hw
      refine ⟨i, ?_⟩
      dsimp only
      have := hf i
      generalize y i = fi at this hi ⊢
      rcases fi with ⟨w', r⟩
      simp only at this; subst this
      exact hi
    · rw [PyM.bind_res_of_error (hf i), PyM.bind_res_of_error (hf i)]
  · have hf : ∀ i, (y i).res = .ok (v.get i) := fun i => (hv i).symm
    have hr : ∀ i (q : PF → PyM PF), (y i >>= q).res = (q (v.get i)).res :=
      fun i q => PyM.bind_res_of_ok (hf i) _
    have hw' : ∀ i (q : PF → PyM PF), (y i >>= q).warns = (y i).warns ++ (q (v.get i)).warns :=
      fun i q => PyM.bind_warns_of_ok (hf i) _
    obtain ⟨K, hK, h1, h2, h3⟩ := hk v rfl
    refine ⟨K, hK, ?_, ?_, ?_⟩
    · intro i; rw [hr]; exact h1 i
    · intro u hu
      simp only [PyM.bind_ok, List.mem_append] at hu
      rcases hu with hu | hu
      · obtain ⟨i, hi⟩ := hs u hu
        exact ⟨i, by rw [hw' i]; exact List.mem_append_left _ hi⟩
      · obtain ⟨i, hi⟩ := h2 u hu
        exact ⟨i, by rw [hw' i]; exact List.mem_append_right _ hi⟩
    · simpa only [hr] using h3

theorem Positive.uniform {x : Val n} (h : Positive x) : x.Uniform := by
  right
  intro i hi
  obtain ⟨r, -, hr⟩ := h i
  rw [hr] at hi
  exact hi

/-- what the function does with the outcomes of the loops -/
def etemadEnd (ksi Hs Tmm10 N_waves cot_alpha core S rho : PF) (A B : Option PF) : PyM PF := do
  let Dn50_s ← Etemad2020.bound A
  let Dn50_pl ← Etemad2020.bound B
  let Dn50 := PF.whr (ksi ≥ 1.8) Dn50_s Dn50_pl
  Etemad2020.check_validity_range (Hs := Hs) (Tmm10 := Tmm10) (N_waves := N_waves) (cot_alpha := cot_alpha)
    (Dn50 := Dn50) (Dn50_core := core) (S := S) (rho_armour := rho)
  pure Dn50

theorem etemadEnd_left (ksi Hs Tmm10 N_waves cot_alpha core S rho : PF) (A B : Option PF) (a : PF)
    (hk : ksi ≥ 1.8) (hA : A = some a) (hB : B.isSome) :
    etemadEnd ksi Hs Tmm10 N_waves cot_alpha core S rho A B = (do
      Etemad2020.check_validity_range (Hs := Hs) (Tmm10 := Tmm10) (N_waves := N_waves)
        (cot_alpha := cot_alpha) (Dn50 := a) (Dn50_core := core) (S := S) (rho_armour := rho)
      pure a) := by
  obtain ⟨b, rfl⟩ := Option.isSome_iff_exists.mp hB
  subst hA
  unfold etemadEnd Etemad2020.bound
  simp only [PyM.pure_def, PyM.bind_ok, List.nil_append, PF.whr, if_pos hk]

theorem etemadEnd_right (ksi Hs Tmm10 N_waves cot_alpha core S rho : PF) (A B : Option PF) (b : PF)
    (hk : ¬ ksi ≥ 1.8) (hA : A.isSome) (hB : B = some b) :
    etemadEnd ksi Hs Tmm10 N_waves cot_alpha core S rho A B = (do
      Etemad2020.check_validity_range (Hs := Hs) (Tmm10 := Tmm10) (N_waves := N_waves)
        (cot_alpha := cot_alpha) (Dn50 := b) (Dn50_core := core) (S := S) (rho_armour := rho)
      pure b) := by
  obtain ⟨a, rfl⟩ := Option.isSome_iff_exists.mp hA
  subst hB
  unfold etemadEnd Etemad2020.bound
  simp only [PyM.pure_def, PyM.bind_ok, List.nil_append, PF.whr, if_neg hk]

theorem Etemad2020_calculate_nominal_rock_diameter_Dn50 [NeZero n]
    (Hs Tmm10 N_waves cot_alpha rho_armour S Dn50_core M50_core rho_core m : Val n)
    (use_depth_limited_version : Bool) (Cp_init : Val n) (max_iter : ℕ) (t : ℝ)
    (h_Hs : Positive Hs) (h_Tmm10 : Positive Tmm10) (h_N_waves : Positive N_waves)
    (h_cot_alpha : Positive cot_alpha) (h_rho_armour : ∀ i, ∃ r : ℝ, 1025 < r ∧ rho_armour.get i = .fin r)
    (h_S : Positive S) (h_core : Positive Dn50_core) (h_M50_core : M50_core.Uniform)
    (h_rho_core : rho_core.Uniform)
    (h_m : m.Uniform) (h_m' : use_depth_limited_version = true → ∀ i, ∃ r : ℝ, r < 1 / 3 ∧ m.get i = .fin r)
    (h_Cp : Positive Cp_init) (h_max : 0 < max_iter) :
    EachIterated
      (Arr.Etemad2020.calculate_nominal_rock_diameter_Dn50 Hs Tmm10 N_waves cot_alpha rho_armour S
        Dn50_core M50_core rho_core m use_depth_limited_version Cp_init max_iter (.fin t))
      (fun i => Etemad2020.calculate_nominal_rock_diameter_Dn50 (Hs.get i) (Tmm10.get i) (N_waves.get i)
        (cot_alpha.get i) (rho_armour.get i) (S.get i) (Dn50_core.get i) (M50_core.get i)
        (rho_core.get i) (m.get i) use_depth_limited_version (Cp_init.get i) max_iter (.fin t))
      (fun k i => Etemad2020.calculate_nominal_rock_diameter_Dn50 (Hs.get i) (Tmm10.get i) (N_waves.get i)
        (cot_alpha.get i) (rho_armour.get i) (S.get i) (Dn50_core.get i) (M50_core.get i)
        (rho_core.get i) (m.get i) use_depth_limited_version (Cp_init.get i) k (-1.0)) max_iter t := by
  unfold Arr.Etemad2020.calculate_nominal_rock_diameter_Dn50
    Etemad2020.calculate_nominal_rock_diameter_Dn50
  refine each_bind (Etemad2020_depth_limitation m _ h_m) fun I hI => ?_
  have hIpos : ∀ i, ∃ r : ℝ, 0 < r ∧ I.get i = .fin r := by
    intro i
    have hv := (Etemad2020_depth_limitation (U := False) m use_depth_limited_version h_m).vals i
    rw [hI] at hv
    simp only [Except.map, cases_simp] at hv
    unfold Etemad2020.depth_limitation at hv
    cases use_depth_limited_version with
    | false =>
      simp only [Bool.false_eq_true, if_false, PyM.pure_def, Except.ok.injEq] at hv
      exact ⟨1, one_pos, by rw [hv, PF.sci_eq]; norm_num⟩
    | true =>
      obtain ⟨r, hr, hm⟩ := h_m' rfl i
      rw [hm] at hv
      rw [if_pos rfl, if_neg (fun h : PF.isnan (.fin r) => h)] at hv
      simp only [PyM.pure_def] at hv
      replace hv := Except.ok.inj hv
      refine ⟨1 - 3 * r, by linarith, ?_⟩
      rw [hv, PF.sci_eq, PF.sci_eq, PF.mul_fin, PF.sub_fin]
      norm_num
  refine each_bind (CorePhysics_check_usage_Dn50_or_M50 _ _ _ (Positive.uniform h_core) h_M50_core
    h_rho_core) fun D hD => ?_
  have hDpos : ∀ i, ∃ r : ℝ, 0 ≤ r ∧ D.get i = .fin r := by
    intro i
    have hv := (CorePhysics_check_usage_Dn50_or_M50 (U := False) _ _ _ (Positive.uniform h_core)
      h_M50_core h_rho_core).vals i
    rw [hD] at hv
    obtain ⟨r, hr, he⟩ := h_core i
    rw [he, VdMProof.use_Dn50] at hv
    simp only [Except.map, cases_simp, Except.ok.injEq] at hv
    exact ⟨r, hr.le, hv⟩
  dsimp only
  have hstep : ∀ (c e : Val n) (cc ee : ℝ), 0 < cc → (∀ i, c.get i = .fin cc) → (∀ i, e.get i = .fin ee) →
      ∀ i, ∃ K Dc C : ℝ, 0 < K ∧ 0 ≤ Dc ∧ 0 < C ∧ Cp_init.get i = .fin C ∧
      ∀ d pr o (C : ℝ), 0 < C → Etemad2020.size_step (c.get i) (e.get i) (Hs.get i)
        ((Arr.CorePhysics.calculate_buoyant_density_Delta rho_armour 1025).get i)
        (N_waves.get i) (S.get i)
        ((Arr.CorePhysics.calculate_Iribarren_number_ksi Hs Tmm10 cot_alpha).get i) (I.get i) (D.get i)
          ⟨d, pr, .fin C, o⟩ =
          ⟨PF.abs (.fin (K / C) - pr), .fin (K / C), .fin (EtemadProof.cp (K / C) Dc),
            some (.fin (K / C))⟩ := by
    intro c e cc ee hcc hc he i
    obtain ⟨H, hH, eH⟩ := h_Hs i
    obtain ⟨T, hT, eT⟩ := h_Tmm10 i
    obtain ⟨N, hN, eN⟩ := h_N_waves i
    obtain ⟨ca, hca, eca⟩ := h_cot_alpha i
    obtain ⟨ra, hra, era⟩ := h_rho_armour i
    obtain ⟨s, hs, es⟩ := h_S i
    obtain ⟨Dc, hDc, eDc⟩ := hDpos i
    obtain ⟨I', hI', eI⟩ := hIpos i
    obtain ⟨C0, hC0, eC0⟩ := h_Cp i
    obtain ⟨De, hDe, hDD, eD⟩ := Delta_eval (by norm_num : (0 : ℝ) < 1025) hra
    refine ⟨_, Dc, C0, EtemadProof.Kc_pos hH hT hN hca hDe hI' hs (cc := cc) (e := ee) hcc, hDc, hC0, eC0, ?_⟩
    intro d pr o C hC
    have := EtemadProof.step_eval hH hT hN hca hDe hI' hs hDc (cc := cc) (e := ee) hcc d pr o C hC
    simp only [cases_simp, hc, he, eH, eT, eN, eca, era, es, eDc, eI]
    rw [PF.ofNat_eq, eD, VdMProof.xi_eval hH hT hca]
    exact this
  obtain ⟨Ks, hKs0, hKs, Vs, hVs, rs, as, cs, os⟩ := etemad_loop 3.9 (1.0 / 3.0) Hs
    (Arr.CorePhysics.calculate_buoyant_density_Delta rho_armour 1025) N_waves S
    (Arr.CorePhysics.calculate_Iribarren_number_ksi Hs Tmm10 cot_alpha) I D Cp_init max_iter h_max t
    (hstep _ _ 3.9 (1.0 / 3.0) (by norm_num) (fun i => by simp only [cases_simp]; exact PF.sci_eq ..)
      (fun i => by simp only [cases_simp]; rw [PF.sci_eq, PF.sci_eq, PF.div_fin (by norm_num)]))
  obtain ⟨Kp, hKp0, hKp, Vp, hVp, rp, ap, cp, op⟩ := etemad_loop 4.5 (7.0 / 12.0) Hs
    (Arr.CorePhysics.calculate_buoyant_density_Delta rho_armour 1025) N_waves S
    (Arr.CorePhysics.calculate_Iribarren_number_ksi Hs Tmm10 cot_alpha) I D Cp_init max_iter h_max t
    (hstep _ _ 4.5 (7.0 / 12.0) (by norm_num) (fun i => by simp only [cases_simp]; exact PF.sci_eq ..)
      (fun i => by simp only [cases_simp]; rw [PF.sci_eq, PF.sci_eq, PF.div_fin (by norm_num)]))
  rw [hVs, hVp]
  generalize hksi : Arr.CorePhysics.calculate_Iribarren_number_ksi Hs Tmm10 cot_alpha = ksi at *
  generalize hDel : Arr.CorePhysics.calculate_buoyant_density_Delta rho_armour 1025 = De at *
  have eksi : ∀ i, CorePhysics.calculate_Iribarren_number_ksi (Hs.get i) (Tmm10.get i) (cot_alpha.get i) =
      ksi.get i := fun i => by rw [← hksi]; simp only [cases_simp]
  have eDe : ∀ i, CorePhysics.calculate_buoyant_density_Delta (rho_armour.get i) 1025 = De.get i :=
    fun i => by rw [← hDel]; simp only [cases_simp]
  simp only [eksi, eDe]
  have c1 : ∀ i : Fin n, (3.9 : Val n).get i = 3.9 := fun i => by simp only [cases_simp]
  have c2 : ∀ i : Fin n, (1.0 / 3.0 : Val n).get i = 1.0 / 3.0 := fun i => by simp only [cases_simp]
  have c3 : ∀ i : Fin n, (4.5 : Val n).get i = 4.5 := fun i => by simp only [cases_simp]
  have c4 : ∀ i : Fin n, (7.0 / 12.0 : Val n).get i = 7.0 / 12.0 := fun i => by simp only [cases_simp]
  simp only [c1, c2] at rs as cs os
  simp only [c3, c4] at rp ap cp op
  generalize hLs : (fun (i : Fin n) (k : ℕ) (t : PF) => (Etemad2020.size_loop 3.9 (1.0 / 3.0) (Hs.get i)
    (De.get i) (N_waves.get i) (S.get i) (ksi.get i) (I.get i) (D.get i) (Cp_init.get i) k t).Dn50) = Ls
  generalize hLp : (fun (i : Fin n) (k : ℕ) (t : PF) => (Etemad2020.size_loop 4.5 (7.0 / 12.0) (Hs.get i)
    (De.get i) (N_waves.get i) (S.get i) (ksi.get i) (I.get i) (D.get i) (Cp_init.get i) k t).Dn50) = Lp
  have els : ∀ i k t, (Etemad2020.size_loop 3.9 (1.0 / 3.0) (Hs.get i) (De.get i) (N_waves.get i) (S.get i)
    (ksi.get i) (I.get i) (D.get i) (Cp_init.get i) k t).Dn50 = Ls i k t := fun i k t => by rw [← hLs]
  have elp : ∀ i k t, (Etemad2020.size_loop 4.5 (7.0 / 12.0) (Hs.get i) (De.get i) (N_waves.get i) (S.get i)
    (ksi.get i) (I.get i) (D.get i) (Cp_init.get i) k t).Dn50 = Lp i k t := fun i k t => by rw [← hLp]
  simp only [els] at rs as cs os ⊢
  simp only [elp] at rp ap cp op ⊢
  show EachIterated _ (fun i => etemadEnd (ksi.get i) (Hs.get i) (Tmm10.get i) (N_waves.get i)
    (cot_alpha.get i) (D.get i) (S.get i) (rho_armour.get i) (Ls i max_iter (.fin t)) (Lp i max_iter (.fin t)))
    (fun k i => etemadEnd (ksi.get i) (Hs.get i) (Tmm10.get i) (N_waves.get i)
    (cot_alpha.get i) (D.get i) (S.get i) (rho_armour.get i) (Ls i k (-1.0)) (Lp i k (-1.0))) _ _
  have hres : ∀ k i, 0 < k → (etemadEnd (ksi.get i) (Hs.get i) (Tmm10.get i) (N_waves.get i)
      (cot_alpha.get i) (D.get i) (S.get i) (rho_armour.get i) (Ls i k (-1.0)) (Lp i k (-1.0))).res =
      .ok ((if ksi.get i ≥ 1.8 then Ls i k (-1.0) else Lp i k (-1.0)).getD 0) := by
    intro k i hk
    split_ifs with h
    · obtain ⟨a, ha⟩ := Option.isSome_iff_exists.mp (os i k hk)
      rw [etemadEnd_left _ _ _ _ _ _ _ _ _ _ a h ha (op i k hk), PyM.bind_res_of_ok (EtemadProof.check_res ..), ha]
      rfl
    · obtain ⟨a, ha⟩ := Option.isSome_iff_exists.mp (op i k hk)
      rw [etemadEnd_right _ _ _ _ _ _ _ _ _ _ a h (os i k hk) ha, PyM.bind_res_of_ok (EtemadProof.check_res ..), ha]
      rfl
  have hrel : Rel False (do
      let Dn50_s ← Arr.Etemad2020.bound (some Vs)
      let Dn50_pl ← Arr.Etemad2020.bound (some Vp)
      Arr.Etemad2020.check_validity_range (Hs := Hs) (Tmm10 := Tmm10) (N_waves := N_waves)
        (cot_alpha := cot_alpha) (Dn50 := Val.whr (ksi ≥. 1.8) Dn50_s Dn50_pl) (Dn50_core := D) (S := S)
        (rho_armour := rho_armour)
      pure (Val.whr (ksi ≥. 1.8) Dn50_s Dn50_pl))
      (fun i => etemadEnd (ksi.get i) (Hs.get i) (Tmm10.get i) (N_waves.get i)
      (cot_alpha.get i) (D.get i) (S.get i) (rho_armour.get i)
      (Ls i (if ksi.get i ≥ 1.8 then Ks else Kp) (-1.0)) (Lp i (if ksi.get i ≥ 1.8 then Ks else Kp) (-1.0))) := by
    have h1 : ∀ i, etemadEnd (ksi.get i) (Hs.get i) (Tmm10.get i) (N_waves.get i)
      (cot_alpha.get i) (D.get i) (S.get i) (rho_armour.get i)
      (Ls i (if ksi.get i ≥ 1.8 then Ks else Kp) (-1.0)) (Lp i (if ksi.get i ≥ 1.8 then Ks else Kp) (-1.0)) =
      (do
      Etemad2020.check_validity_range (Hs := Hs.get i) (Tmm10 := Tmm10.get i) (N_waves := N_waves.get i)
        (cot_alpha := cot_alpha.get i) (Dn50 := PF.whr (ksi.get i ≥ 1.8) (Vs.get i) (Vp.get i))
        (Dn50_core := D.get i) (S := S.get i) (rho_armour := rho_armour.get i)
      pure (PF.whr (ksi.get i ≥ 1.8) (Vs.get i) (Vp.get i))) := by
      intro i
      by_cases h : ksi.get i ≥ 1.8
      · simp only [if_pos h, PF.whr]
        exact etemadEnd_left _ _ _ _ _ _ _ _ _ _ _ h (rs i) (op i _ hKs0)
      · simp only [if_neg h, PF.whr]
        exact etemadEnd_right _ _ _ _ _ _ _ _ _ _ _ h (os i _ hKp0) (rp i)
    refine Rel.congr ?_ fun i => (h1 i).symm
    unfold Arr.Etemad2020.bound
    simp only [PyM.pure_def, PyM.bind_ok, List.nil_append]
    simp only [← PyM.pure_def]
    refine Rel.bind (k := fun i _ => pure (PF.whr (ksi.get i ≥ 1.8) (Vs.get i) (Vp.get i)))
      (Rel.congr (Etemad2020_check_validity_range (U := False) Hs Tmm10 N_waves cot_alpha Val.nan S
        (Val.whr (ksi ≥. 1.8) Vs Vp) D rho_armour _ fun h => h.elim) ?_) fun v => Rel.pure fun i => ?_
    · intro i
      simp only [cases_simp]
    · simp only [cases_simp]
  refine ⟨fun i => if ksi.get i ≥ 1.8 then Ks else Kp, fun i => by dsimp only; split_ifs <;> assumption,
    hrel.vals, hrel.sub, ?_⟩
  intro i
  by_cases h : ksi.get i ≥ 1.8
  · dsimp only
    rw [if_pos h]
    refine ⟨?_, ?_⟩
    · obtain ⟨k, hk0, hk, he⟩ := as i
      obtain ⟨k', hk0', hk', he'⟩ := ap i
      refine ⟨k, hk, ?_⟩
      obtain ⟨a, ha⟩ := Option.isSome_iff_exists.mp (os i k hk0)
      rw [etemadEnd_left _ _ _ _ _ _ _ _ _ _ a h (he.trans ha) (by rw [he']; exact op i k' hk0'),
        PyM.bind_res_of_ok (EtemadProof.check_res ..), hres k i hk0, if_pos h, ha]
      rfl
    · rcases cs with h1 | h1 | h1
      · exact Or.inl h1
      · exact Or.inr (Or.inl h1)
      · by_cases hK1 : Ks ≤ 1
        · exact Or.inr (Or.inl hK1)
        · obtain ⟨y, hy, hle⟩ := h1 i
          refine Or.inr (Or.inr ⟨Vs.get i, y, ?_, ?_, hle⟩)
          · rw [hres Ks i hKs0, if_pos h, rs i]; rfl
          · rw [hres (Ks - 1) i (by omega), if_pos h, hy]; rfl
  · dsimp only
    rw [if_neg h]
    refine ⟨?_, ?_⟩
    · obtain ⟨k, hk0, hk, he⟩ := ap i
      obtain ⟨k', hk0', hk', he'⟩ := as i
      refine ⟨k, hk, ?_⟩
      obtain ⟨a, ha⟩ := Option.isSome_iff_exists.mp (op i k hk0)
      rw [etemadEnd_right _ _ _ _ _ _ _ _ _ _ a h (by rw [he']; exact os i k' hk0') (he.trans ha),
        PyM.bind_res_of_ok (EtemadProof.check_res ..), hres k i hk0, if_neg h, ha]
      rfl
    · rcases cp with h1 | h1 | h1
      · exact Or.inl h1
      · exact Or.inr (Or.inl h1)
      · by_cases hK1 : Kp ≤ 1
        · exact Or.inr (Or.inl hK1)
        · obtain ⟨y, hy, hle⟩ := h1 i
          refine Or.inr (Or.inr ⟨Vp.get i, y, ?_, ?_, hle⟩)
          · rw [hres Kp i hKp0, if_neg h, rp i]; rfl
          · rw [hres (Kp - 1) i (by omega), if_neg h, hy]; rfl

end ArrProof
end
