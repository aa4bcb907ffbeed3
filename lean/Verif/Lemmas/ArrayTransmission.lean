import Verif.Lemmas.ArrayTac
import Verif.Array.Transmission
import Verif.Model.Transmission
import Verif.Lemmas.ArrayCore

/-! # One case of a call on arrays: `Array/Transmission.lean` -/

open Classical
open Arrays
noncomputable section
namespace ArrProof
variable {n : ℕ}


theorem forEach_ok {α : Type} {f : Fin n → PyM α} {v : Fin n → α} (h : ∀ i, (f i).res = .ok (v i)) :
    (PyM.forEach n f).res = .ok v ∧ ∀ w, w ∈ (PyM.forEach n f).warns ↔ ∃ i, w ∈ (f i).warns := by
  induction n with
  | zero =>
    refine ⟨?_, ?_⟩
    · simp only [PyM.forEach, PyM.pure_def]
      congr 1; funext i; exact i.elim0
    · intro w
      simp [PyM.forEach, PyM.pure_def]
  | succ n ih =>
    obtain ⟨h1, h2⟩ := ih (f := fun i => f i.succ) (v := fun i => v i.succ) fun i => h i.succ
    unfold PyM.forEach
    rw [PyM.bind_res_of_ok (h 0), PyM.bind_res_of_ok h1, PyM.pure_def]
    refine ⟨?_, ?_⟩
    · dsimp only
      congr 1
      funext i
      refine Fin.cases rfl (fun i => rfl) i
    · intro w
      rw [PyM.bind_warns_of_ok (h 0), PyM.bind_warns_of_ok h1, PyM.pure_def]
      simp only [List.append_nil, List.mem_append, h2]
      constructor
      · rintro (h | ⟨i, h⟩)
        · exact ⟨0, h⟩
        · exact ⟨_, h⟩
      · rintro ⟨i, h⟩
        revert h
        refine Fin.cases (fun h => Or.inl h) (fun i h => Or.inr ⟨i, h⟩) i

theorem Rel_vectorize [NeZero n] {U : Prop} {f : Fin n → PyM PyNum} {v : Fin n → PyNum}
    {one : Fin n → PyM PF} (hok : ∀ i, (f i).res = .ok (v i)) (hfirst : ∃ x, v 0 = .float x)
    (hone : ∀ i, one i = f i >>= fun x => pure x.toFloat) : Rel U (vectorize f) one := by
  cases n with
  | zero => exact absurd rfl (NeZero.ne 0)
  | succ n =>
    obtain ⟨x, hx⟩ := hfirst
    have hx' : (f 0).res = .ok (.float x) := by rw [hok 0, ← hx]
    obtain ⟨h1, h2⟩ := forEach_ok hok
    have hres : (vectorize f).res = .ok (.arr fun i => (v i).toFloat) := by
      unfold vectorize
      rw [PyM.bind_res_of_ok hx', PyM.bind_res_of_ok h1]
      rfl
    have hw : (vectorize f).warns = (f 0).warns ++ (PyM.forEach (n + 1) f).warns := by
      unfold vectorize
      rw [PyM.bind_warns_of_ok hx', PyM.bind_warns_of_ok h1]
      simp [PyM.pure_def]
    have hw1 : ∀ i, (one i).warns = (f i).warns := by
      intro i
      rw [hone, PyM.bind_warns_of_ok (hok i)]
      simp [PyM.pure_def]
    refine ⟨fun i => ?_, fun w h => ?_, fun _ i w h => ?_⟩
    · rw [hres, hone, PyM.bind_res_of_ok (hok i)]
      rfl
    · rw [hw, List.mem_append, h2] at h
      rcases h with h | ⟨i, h⟩
      · exact ⟨0, by rw [hw1]; exact h⟩
      · exact ⟨i, by rw [hw1]; exact h⟩
    · rw [hw, List.mem_append, h2]
      exact Or.inr ⟨i, by rw [← hw1]; exact h⟩

theorem DAngremond1996_check_validity [NeZero n] {U : Prop} (Kt s0p Hsi_over_h Rc_over_Hsi : Val n)
    (hU : U → ∀ x ∈ [Kt, s0p, Hsi_over_h, Rc_over_Hsi], Val.Uniform x) :
    Rel U (Arr.DAngremond1996.check_validity Kt s0p Hsi_over_h Rc_over_Hsi)
      (fun i => DAngremond1996.check_validity (Kt.get i) (s0p.get i) (Hsi_over_h.get i) (Rc_over_Hsi.get i)) := by
  unfold Arr.DAngremond1996.check_validity DAngremond1996.check_validity
  arr_rel [] hU

theorem DAngremond1996_calculate_wave_transmission_Kt_permeable [NeZero n] (Hsi Tpi h Rc B cot_alpha C1 : Val n) (do_validity_check : Bool) :
    Rel False (Arr.DAngremond1996.calculate_wave_transmission_Kt_permeable Hsi Tpi h Rc B cot_alpha C1 do_validity_check)
      (fun i => DAngremond1996.calculate_wave_transmission_Kt_permeable (Hsi.get i) (Tpi.get i) (h.get i) (Rc.get i) (B.get i) (cot_alpha.get i) (C1.get i) do_validity_check) := by
  unfold Arr.DAngremond1996.calculate_wave_transmission_Kt_permeable DAngremond1996.calculate_wave_transmission_Kt_permeable
  arr_rel [DAngremond1996_check_validity]

theorem DAngremond1996_calculate_wave_transmission_Kt_impermeable [NeZero n] (Hsi Tpi h Rc B cot_alpha C1 : Val n) :
    Rel False (Arr.DAngremond1996.calculate_wave_transmission_Kt_impermeable Hsi Tpi h Rc B cot_alpha C1)
      (fun i => DAngremond1996.calculate_wave_transmission_Kt_impermeable (Hsi.get i) (Tpi.get i) (h.get i) (Rc.get i) (B.get i) (cot_alpha.get i) (C1.get i)) := by
  unfold Arr.DAngremond1996.calculate_wave_transmission_Kt_impermeable DAngremond1996.calculate_wave_transmission_Kt_impermeable
  arr_rel [DAngremond1996_calculate_wave_transmission_Kt_permeable]

theorem Briganti2003_check_validity [NeZero n] {U : Prop} (s0p ksi_0p : Val n)
    (hU : U → ∀ x ∈ [s0p, ksi_0p], Val.Uniform x) :
    Rel U (Arr.Briganti2003.check_validity s0p ksi_0p)
      (fun i => Briganti2003.check_validity (s0p.get i) (ksi_0p.get i)) := by
  unfold Arr.Briganti2003.check_validity Briganti2003.check_validity
  arr_rel [] hU

theorem Briganti2003_single_branch [NeZero n] (Hsi B : PF) (Tpi Rc cot_alpha : Val n) :
    Rel False (Arr.Briganti2003.single_branch Hsi B Tpi Rc cot_alpha)
      (fun i => Briganti2003.calculate_wave_transmission_Kt Hsi (Tpi.get i) (Rc.get i) B
        (cot_alpha.get i)) := by
  unfold Arr.Briganti2003.single_branch Briganti2003.calculate_wave_transmission_Kt
    Briganti2003.Kt_unlimited
  arr_rel [DAngremond1996_calculate_wave_transmission_Kt_permeable, Briganti2003_check_validity]

theorem Briganti2003_ok (Hsi Tpi Rc B cot_alpha : PF) :
    ∃ v, (Briganti2003.calculate_wave_transmission_Kt Hsi Tpi Rc B cot_alpha).res = .ok v := by
  have h1 : ∃ v, (Briganti2003.Kt_unlimited Hsi Tpi Rc B cot_alpha
      (CorePhysics.calculate_Iribarren_number_ksi Hsi Tpi cot_alpha)).res = .ok v := by
    unfold Briganti2003.Kt_unlimited DAngremond1996.calculate_wave_transmission_Kt_permeable
    split
    · exact ⟨_, rfl⟩
    · exact ⟨_, rfl⟩
  obtain ⟨v, hv⟩ := h1
  unfold Briganti2003.calculate_wave_transmission_Kt
  dsimp only
  rw [PyM.bind_res_of_ok hv]
  unfold Briganti2003.check_validity
  dsimp only
  rw [PyM.bind_res_of_ok (a := ()) (by
      rw [PyM.bind_res_of_ok (check_if_given_res ..)]
      exact check_if_given_res ..)]
  exact ⟨_, rfl⟩

theorem Briganti2003_calculate_wave_transmission_Kt [NeZero n] (Hsi Tpi Rc B cot_alpha : Val n) :
    Rel False (Arr.Briganti2003.calculate_wave_transmission_Kt Hsi Tpi Rc B cot_alpha)
      (fun i => Briganti2003.calculate_wave_transmission_Kt (Hsi.get i) (Tpi.get i) (Rc.get i)
        (B.get i) (cot_alpha.get i)) := by
  have key : Rel False (vectorize fun i => do
      let Kt ← Briganti2003.calculate_wave_transmission_Kt (Hsi.get i) (Tpi.get i) (Rc.get i)
        (B.get i) (cot_alpha.get i)
      pure (PyNum.float Kt))
      (fun i => Briganti2003.calculate_wave_transmission_Kt (Hsi.get i) (Tpi.get i) (Rc.get i)
        (B.get i) (cot_alpha.get i)) := by
    choose v hv using fun i => Briganti2003_ok (Hsi.get i) (Tpi.get i) (Rc.get i) (B.get i)
      (cot_alpha.get i)
    refine Rel_vectorize (v := fun i => .float (v i)) (fun i => ?_) ⟨_, rfl⟩ fun i => ?_
    · rw [PyM.bind_res_of_ok (hv i)]
      rfl
    · generalize Briganti2003.calculate_wave_transmission_Kt _ _ _ _ _ = m
      obtain ⟨w, r⟩ := m
      cases r <;> simp [Bind.bind, PyM.andThen, PyNum.toFloat, PyM.pure_def]
  unfold Arr.Briganti2003.calculate_wave_transmission_Kt
  cases Hsi with
  | num Hsi =>
    cases B with
    | num B => exact Briganti2003_single_branch Hsi B Tpi Rc cot_alpha
    | arr B => exact key
  | arr Hsi => exact key

/-- the value of one case as a Python number -/
theorem Goda1967_single_case (Hsi Rc alpha_1 beta_1 : PF) :
    (Arr.Goda1967.single_case Hsi Rc alpha_1 beta_1).toFloat =
      Goda1967.calculate_wave_transmission_Kt Hsi Rc alpha_1 beta_1 := by
  unfold Arr.Goda1967.single_case Goda1967.calculate_wave_transmission_Kt
  dsimp only
  split
  · show PF.fin ((1 : ℤ) : ℝ) = 1
    rw [PF.one_eq, Int.cast_one]
  · split <;> rfl

theorem Goda1967_calculate_wave_transmission_Kt [NeZero n] {U : Prop} (Hsi Rc alpha_1 beta_1 : Val n)
    (h_shape : Hsi.isArray = false → Rc.isArray = false →
      alpha_1.isArray = false ∧ beta_1.isArray = false)
    (h_first : ¬ (Rc.get 0 / Hsi.get 0 ≤ -1 * alpha_1.get 0 - beta_1.get 0)) :
    Rel U (Arr.Goda1967.calculate_wave_transmission_Kt Hsi Rc alpha_1 beta_1)
      (fun i => (pure (Goda1967.calculate_wave_transmission_Kt (Hsi.get i) (Rc.get i)
        (alpha_1.get i) (beta_1.get i)) : PyM _)) := by
  have key : Rel U (vectorize fun i => pure (Arr.Goda1967.single_case (Hsi.get i) (Rc.get i)
      (alpha_1.get i) (beta_1.get i)))
      (fun i => (pure (Goda1967.calculate_wave_transmission_Kt (Hsi.get i) (Rc.get i)
        (alpha_1.get i) (beta_1.get i)) : PyM _)) := by
    refine Rel_vectorize (v := fun i => Arr.Goda1967.single_case (Hsi.get i) (Rc.get i)
      (alpha_1.get i) (beta_1.get i)) (fun i => rfl) ?_ fun i => ?_
    · unfold Arr.Goda1967.single_case
      dsimp only
      rw [if_neg h_first]
      split <;> exact ⟨_, rfl⟩
    · rw [← Goda1967_single_case]
      rfl
  unfold Arr.Goda1967.calculate_wave_transmission_Kt
  cases Hsi with
  | num Hsi =>
    cases Rc with
    | num Rc =>
      obtain ⟨h1, h2⟩ := h_shape rfl rfl
      cases alpha_1 with
      | arr a => simp [Val.isArray] at h1
      | num a =>
        cases beta_1 with
        | arr b => simp [Val.isArray] at h2
        | num b =>
          show Rel U _ fun i => (pure (Goda1967.calculate_wave_transmission_Kt Hsi Rc a b) : PyM _)
          dsimp only
          unfold Goda1967.calculate_wave_transmission_Kt
          simp only [num_simp, Val.num_sin]
          exact Rel.pure fun i => rfl
    | arr Rc => exact key
  | arr Hsi => exact key

theorem VanGent2023_check_validity_range [NeZero n] {U : Prop}
    (disper : PF → PF → PF → PF) (Hm0 : Val n) (Tmm10 : PF) (Rc B : Val n)
    (structure_type : Option String)
    (hU : U → ∀ x ∈ [Hm0, Rc, B], Val.Uniform x) :
    Rel U (Arr.VanGent2023.check_validity_range disper Hm0 (.num Tmm10) Rc B structure_type)
      (fun i => VanGent2023.check_validity_range disper (Hm0.get i) Tmm10 (Rc.get i)
        (B.get i) structure_type) := by
  obtain ⟨L, hL, hLi⟩ := local_wavelength disper (.num Tmm10 : Val n) 1e100 9.81
    (by simp [Val.isArray]) (by simp [shape_simp])
  simp only [cases_simp] at hLi
  unfold Arr.VanGent2023.check_validity_range VanGent2023.check_validity_range
  simp only [hL, Val.pure_bind]
  have hB : Rel U (Arr.CoreUtility.check_if_given [B, .num Tmm10] "Dimensionless crest width B / Lm-1,0"
        "Van Gent et al. (2023)" (B / L) 0.017 0.27)
      (fun i => CoreUtility.check_if_given [B.get i, Tmm10] "Dimensionless crest width B / Lm-1,0"
        "Van Gent et al. (2023)"
        (B.get i / CorePhysics.calculate_local_wavelength disper Tmm10 1e100 9.81) 0.017 0.27) := by
    refine Rel.check ?_ (fun i => rfl) (fun i => rfl) (fun i => rfl) ?_
    · intro i; simp only [cases_simp, hLi]
    · arr_unif hU
  have hB' := hB
  unfold Arr.CoreUtility.check_if_given at hB'
  simp only [List.forall_mem_cons, List.not_mem_nil, false_implies, implies_true, and_true] at hB'
  refine Rel.bind ?_ fun _ => Rel.bind hB' fun _ => ?_
  · arr_rel [] hU
  · arr_rel [] hU

theorem VanGent2023_calculate_wave_transmission_Kt [NeZero n] {U : Prop}
    (disper : PF → PF → PF → PF) (Hm0 : Val n) (Tmm10 : PF) (Rc B : Val n) (structure_type : String) :
    Rel U (Arr.VanGent2023.calculate_wave_transmission_Kt disper Hm0 (.num Tmm10) Rc B structure_type)
      (fun i => VanGent2023.calculate_wave_transmission_Kt disper (Hm0.get i) Tmm10 (Rc.get i)
        (B.get i) structure_type) := by
  unfold Arr.VanGent2023.calculate_wave_transmission_Kt VanGent2023.calculate_wave_transmission_Kt
  have hc : Rel (n := n) U (Arr.VanGent2023.coefficients structure_type)
      (fun _ => VanGent2023.coefficients structure_type) := by
    unfold Arr.VanGent2023.coefficients VanGent2023.coefficients
    exact Rel.const fun _ _ => rfl
  refine Rel.bind hc fun c => ?_
  obtain ⟨L, hL, hLi⟩ := local_wavelength disper (.num Tmm10 : Val n) 1e100 9.81
    (by simp [Val.isArray]) (by simp [shape_simp])
  rw [hL, Val.pure_bind]
  refine Rel.pure fun i => ?_
  simp only [cases_simp] at hLi ⊢
  simp only [hLi]

theorem VanGent2024_check_validity_range [NeZero n] {U : Prop} (Hm0 Tmm10 Rc B hc Dn50 : Val n) (structure_type : String)
    (hU : U → ∀ x ∈ [Hm0, Tmm10, Rc, B, hc, Dn50], Val.Uniform x) :
    Rel U (Arr.VanGent2024.check_validity_range Hm0 Tmm10 Rc B hc Dn50 structure_type)
      (fun i => VanGent2024.check_validity_range (Hm0.get i) (Tmm10.get i) (Rc.get i) (B.get i) (hc.get i) (Dn50.get i) structure_type) := by
  unfold Arr.VanGent2024.check_validity_range VanGent2024.check_validity_range
  arr_rel [] hU

theorem VanGent2024_calculate_dimensionless_structure_induced_setup_impermeable [NeZero n] {U : Prop} (Hm0 Tmm10 Rc : Val n)
    (hU : U → ∀ x ∈ [Hm0, Tmm10, Rc], Val.Uniform x) :
    Rel U (Arr.VanGent2024.calculate_dimensionless_structure_induced_setup_impermeable Hm0 Tmm10 Rc)
      (fun i => VanGent2024.calculate_dimensionless_structure_induced_setup_impermeable (Hm0.get i) (Tmm10.get i) (Rc.get i)) := by
  unfold Arr.VanGent2024.calculate_dimensionless_structure_induced_setup_impermeable VanGent2024.calculate_dimensionless_structure_induced_setup_impermeable
  arr_rel [VanGent2024_check_validity_range] hU

theorem VanGent2024_calculate_structure_induced_setup_delta_impermeable [NeZero n] {U : Prop} (Hm0 Tmm10 Rc : Val n)
    (hU : U → ∀ x ∈ [Hm0, Tmm10, Rc], Val.Uniform x) :
    Rel U (Arr.VanGent2024.calculate_structure_induced_setup_delta_impermeable Hm0 Tmm10 Rc)
      (fun i => VanGent2024.calculate_structure_induced_setup_delta_impermeable (Hm0.get i) (Tmm10.get i) (Rc.get i)) := by
  unfold Arr.VanGent2024.calculate_structure_induced_setup_delta_impermeable VanGent2024.calculate_structure_induced_setup_delta_impermeable
  arr_rel [VanGent2024_calculate_dimensionless_structure_induced_setup_impermeable] hU

theorem VanGent2024_calculate_dimensionless_structure_induced_setup_permeable [NeZero n] {U : Prop} (Hm0 Tmm10 Rc hc : Val n)
    (hU : U → ∀ x ∈ [Hm0, Tmm10, Rc, hc], Val.Uniform x) :
    Rel U (Arr.VanGent2024.calculate_dimensionless_structure_induced_setup_permeable Hm0 Tmm10 Rc hc)
      (fun i => VanGent2024.calculate_dimensionless_structure_induced_setup_permeable (Hm0.get i) (Tmm10.get i) (Rc.get i) (hc.get i)) := by
  unfold Arr.VanGent2024.calculate_dimensionless_structure_induced_setup_permeable VanGent2024.calculate_dimensionless_structure_induced_setup_permeable
  arr_rel [VanGent2024_check_validity_range] hU

theorem VanGent2024_calculate_structure_induced_setup_delta_permeable [NeZero n] {U : Prop} (Hm0 Tmm10 Rc hc : Val n)
    (hU : U → ∀ x ∈ [Hm0, Tmm10, Rc, hc], Val.Uniform x) :
    Rel U (Arr.VanGent2024.calculate_structure_induced_setup_delta_permeable Hm0 Tmm10 Rc hc)
      (fun i => VanGent2024.calculate_structure_induced_setup_delta_permeable (Hm0.get i) (Tmm10.get i) (Rc.get i) (hc.get i)) := by
  unfold Arr.VanGent2024.calculate_structure_induced_setup_delta_permeable VanGent2024.calculate_structure_induced_setup_delta_permeable
  arr_rel [VanGent2024_calculate_dimensionless_structure_induced_setup_permeable] hU

end ArrProof
end
