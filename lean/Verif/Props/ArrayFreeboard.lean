import Verif.Lemmas.ArrayVanGent2025
import Verif.Lemmas.ArrayExample
import Verif.Lemmas.OvertoppingMore

/-! # Crest levels by Van Gent et al. (2025) for arrays (C83, C84) -/

open Classical
open Arrays
noncomputable section
variable {n : ℕ}

/-- C83: without wind.  Missing: arrays of sizes or influence factors other than the wall factor, an array of
gravity (`C83_refuted_gravity_levels`). -/
theorem C83_VanGent2025_calculate_dimensionless_crest_freeboard_partial [NeZero n]
    (Hm0 Hm0_swell Tmm10 q Ac cot_alpha beta B_berm db : Val n) (Dn50 gamma_f gamma_b : PF) (gamma_v : Val n)
    (gamma_beta g : PF) (design_calculation : Bool) (max_iter : ℕ) (tolerance : PF) :
    CaseByCase (Arr.VanGent2025.calculate_dimensionless_crest_freeboard Hm0 Hm0_swell Tmm10 q Ac cot_alpha
        beta B_berm db (.num Dn50) (.num gamma_f) (.num gamma_b) gamma_v (.num gamma_beta) (.num g)
        design_calculation false max_iter tolerance)
      (fun i => VanGent2025.calculate_dimensionless_crest_freeboard (Hm0.get i) (Hm0_swell.get i)
        (Tmm10.get i) (q.get i) (Ac.get i) (cot_alpha.get i) (beta.get i) (B_berm.get i) (db.get i) Dn50
        gamma_f gamma_b (gamma_v.get i) gamma_beta g design_calculation false max_iter tolerance) :=
  (ArrProof.VanGent2025_calculate_dimensionless_crest_freeboard Hm0 Hm0_swell Tmm10 q Ac cot_alpha beta B_berm
    db Dn50 gamma_f gamma_b gamma_v gamma_beta g design_calculation max_iter tolerance).vals

example := C83_VanGent2025_calculate_dimensionless_crest_freeboard_partial (n := 2) ArrEx.two ArrEx.two
  ArrEx.two ArrEx.two ArrEx.two ArrEx.two ArrEx.two ArrEx.two ArrEx.two 1 1 1 ArrEx.two 1 9.81 true 1000 1e-5

theorem C83_VanGent2025_calculate_crest_freeboard_Rc_partial [NeZero n]
    (Hm0 Hm0_swell Tmm10 q Ac cot_alpha beta B_berm db : Val n) (Dn50 gamma_f gamma_b : PF) (gamma_v : Val n)
    (gamma_beta : PF) (design_calculation : Bool) :
    CaseByCase (Arr.VanGent2025.calculate_crest_freeboard_Rc Hm0 Hm0_swell Tmm10 q Ac cot_alpha
        beta B_berm db (.num Dn50) (.num gamma_f) (.num gamma_b) gamma_v (.num gamma_beta)
        design_calculation false)
      (fun i => VanGent2025.calculate_crest_freeboard_Rc (Hm0.get i) (Hm0_swell.get i)
        (Tmm10.get i) (q.get i) (Ac.get i) (cot_alpha.get i) (beta.get i) (B_berm.get i) (db.get i) Dn50
        gamma_f gamma_b (gamma_v.get i) gamma_beta design_calculation false) :=
  (ArrProof.VanGent2025_calculate_crest_freeboard_Rc Hm0 Hm0_swell Tmm10 q Ac cot_alpha beta B_berm
    db Dn50 gamma_f gamma_b gamma_v gamma_beta design_calculation).vals

example := C83_VanGent2025_calculate_crest_freeboard_Rc_partial (n := 2) ArrEx.two ArrEx.two
  ArrEx.two ArrEx.two ArrEx.two ArrEx.two ArrEx.two ArrEx.two ArrEx.two 1 1 1 ArrEx.two 1 true

/-- C84: with wind all cases get the same number of passes.  Missing: that no pass is superfluous and no case gets
fewer passes than alone (what is returned is cut off at a maximum, so the change the loop looks at does not show);
an array of armour crests only (`C84_wall_levels_raise`). -/
theorem C84_VanGent2025_freeboard_wind_partial [NeZero n]
    (Hm0 Hm0_swell Tmm10 q Ac cot_alpha beta B_berm db : Val n) (Dn50 gamma_f gamma_b : PF) (gamma_v : Val n)
    (gamma_beta g : PF) (dc : Bool) (N : ℕ) (t : ℝ)
    (hA : Ac.isArray = true → (Hm0.isArray || Hm0_swell.isArray || Tmm10.isArray || q.isArray ||
      cot_alpha.isArray || gamma_v.isArray) = true) :
    ∃ K ≤ N, CaseByCase (Arr.VanGent2025.calculate_dimensionless_crest_freeboard Hm0 Hm0_swell Tmm10 q Ac
        cot_alpha beta B_berm db (.num Dn50) (.num gamma_f) (.num gamma_b) gamma_v (.num gamma_beta) (.num g)
        dc true N (.fin t))
      (fun i => VanGent2025.calculate_dimensionless_crest_freeboard (Hm0.get i) (Hm0_swell.get i)
        (Tmm10.get i) (q.get i) (Ac.get i) (cot_alpha.get i) (beta.get i) (B_berm.get i) (db.get i) Dn50
        gamma_f gamma_b (gamma_v.get i) gamma_beta g dc true K (-1.0)) :=
  have ⟨K, hK, h⟩ := ArrProof.VanGent2025_freeboard_wind Hm0 Hm0_swell Tmm10 q Ac cot_alpha beta B_berm
    db Dn50 gamma_f gamma_b gamma_v gamma_beta g dc N t hA
  ⟨K, hK, h.vals⟩

example := C84_VanGent2025_freeboard_wind_partial (n := 2) ArrEx.two ArrEx.two ArrEx.two ArrEx.two ArrEx.two
  ArrEx.two ArrEx.two ArrEx.two ArrEx.two 1 1 1 ArrEx.two 1 9.81 true 1000 1e-5 (fun _ => rfl)

namespace ArrProof

theorem wind_array (H sw qd c k gf gb gv gB : PF) (a : Fin n → PF) (d : Val n) (R0 : Val n) (K : ℕ) :
    ((windStepA (.num H) (.num sw) (.num qd) (.arr a) (.num c) (.num k) (.num gf) (.num gb) (.num gv)
      (.num gB))^[K + 1] ⟨R0, d⟩).Rc_diml.isArray = true := by
  rw [Function.iterate_succ_apply']
  generalize (windStepA _ _ _ _ _ _ _ _ _ _)^[K] _ = s
  unfold windStepA
  simp only [shape_simp]
  simp [Val.isArray]

theorem windTailA_raise [NeZero n] (Hm0 Hm0_swell Tmm10 q cot_alpha : PF) (beta B_berm db Dn50 : Val n)
    (gb gv gB g : PF) (dc : Bool) (N : ℕ) (t : ℝ) (gf : PF) (Ac : Fin n → PF) :
    (windTailA (.num Hm0) (.num Hm0_swell) (.num Tmm10) (.num q) (.arr Ac) (.num cot_alpha) beta B_berm db Dn50
      (.num gb) (.num gv) (.num gB) (.num g) dc (N + 1) (.fin t) (.num gf)).res = .error .valueError := by
  unfold windTailA
  have e1 : (if dc then Val.npow (.num q / Val.sqrt (.num g * Val.npow (.num Hm0) 3)) (1.0 / 0.857) else
      .num q / Val.sqrt (.num g * Val.npow (.num Hm0) 3) : Val n) =
      .num (if dc then PF.npow (q / PF.sqrt (g * PF.npow Hm0 3)) (1.0 / 0.857) else
        q / PF.sqrt (g * PF.npow Hm0 3)) := by
    cases dc <;> rfl
  have e2 : (Arr.CorePhysics.calculate_Iribarren_number_ksi (.num Hm0) (.num Tmm10) (.num cot_alpha) : Val n) =
      .num (CorePhysics.calculate_Iribarren_number_ksi Hm0 Tmm10 cot_alpha) := rfl
  simp only [e1, e2]
  generalize (if dc then PF.npow (q / PF.sqrt (g * PF.npow Hm0 3)) (1.0 / 0.857) else
        q / PF.sqrt (g * PF.npow Hm0 3)) = qd
  generalize CorePhysics.calculate_Iribarren_number_ksi Hm0 Tmm10 cot_alpha = ksi
  obtain ⟨K, -, hres, -, hend⟩ := whileIter_spec (fun s : Arr.VanGent2025.WindState n => s.diff.amax > .fin t)
    (windStepA (.num Hm0) (.num Hm0_swell) (.num qd) (.arr Ac) (.num cot_alpha) (.num ksi) (.num gf) (.num gb)
      (.num gv) (.num gB)) (N + 1)
    ⟨Arr.VanGent2025.Rc_diml_eqB1 (.num Hm0) (.num Hm0_swell) (.num qd) (.num cot_alpha) (.num ksi) (.num gf)
      (.num gb) (.num gv) (.num gB), Val.pinf⟩
  rw [hres]
  have hK : K ≠ 0 := by
    rintro rfl
    rcases hend with h | h
    · omega
    · exact h trivial
  obtain ⟨K, rfl⟩ := Nat.exists_eq_succ_of_ne_zero hK
  have hsh := wind_array Hm0 Hm0_swell qd cot_alpha ksi gf gb gv gB Ac Val.pinf
    (Arr.VanGent2025.Rc_diml_eqB1 (.num Hm0) (.num Hm0_swell) (.num qd) (.num cot_alpha) (.num ksi) (.num gf)
      (.num gb) (.num gv) (.num gB)) K
  generalize ((windStepA _ _ _ _ _ _ _ _ _ _)^[K.succ] _).Rc_diml = R at hsh
  cases R with
  | num x => simp [Val.isArray] at hsh
  | arr v => exact PyM.bind_res_of_error rfl _

end ArrProof

/-- C84: levels of the armour crest cannot be compared in one call: an array of them, everything else a number, is
an error, whatever the values. -/
theorem C84_wall_levels_raise [NeZero n] (Hm0 Hm0_swell Tmm10 q cot_alpha beta B_berm db Dn50 gamma_f gamma_b
    gamma_v gamma_beta : PF) (Ac : Fin n → PF) (dc : Bool) (hf : ¬ gamma_f.isnan) (hb : ¬ gamma_b.isnan) :
    (Arr.VanGent2025.calculate_crest_freeboard_Rc (.num Hm0) (.num Hm0_swell) (.num Tmm10) (.num q) (.arr Ac)
        (.num cot_alpha) (.num beta) (.num B_berm) (.num db) (.num Dn50) (.num gamma_f) (.num gamma_b)
        (.num gamma_v) (.num gamma_beta) dc true).res = .error .valueError := by
  unfold Arr.VanGent2025.calculate_crest_freeboard_Rc
  refine PyM.bind_res_of_error ?_ _
  have hft : (1e-5 : PF) = .fin 1e-5 := PF.sci_eq ..
  unfold Arr.VanGent2025.calculate_dimensionless_crest_freeboard Arr.VanGent2025.friction_or_raise
  have ct : ∀ (p : Prop) (x y : PyM (Val n)), PyM.cond (BVal.num p : BVal n).truth x y = if p then x else y :=
    fun p x y => by
      show (pure (decide p) >>= fun b : Bool => if b then x else y) = _
      rw [pure_bind]
      by_cases h : p <;> simp [h]
  simp only [num_simp, ct, hf, hb, if_false, pure_bind, hft]
  by_cases h3 : gamma_beta.isnan <;> simp only [h3, if_true, if_false, pure_bind]
  · exact ArrProof.windTailA_raise Hm0 Hm0_swell Tmm10 q cot_alpha (.num beta) (.num B_berm) (.num db) (.num Dn50)
      gamma_b gamma_v (VanGent2025.calculate_influence_oblique_waves_gamma_beta beta) 9.81 dc 999 1e-5 gamma_f Ac
  · exact ArrProof.windTailA_raise Hm0 Hm0_swell Tmm10 q cot_alpha (.num beta) (.num B_berm) (.num db) (.num Dn50)
      gamma_b gamma_v gamma_beta 9.81 dc 999 1e-5 gamma_f Ac

example := C84_wall_levels_raise (n := 2) 1 0 5 (.fin 0.001) 3 0 0 0 1 (.fin 0.5) (.fin 1) 1 1 ![.fin 1, .fin 2] true
  (fun h => h) (fun h => h)

/-- C84 refuted: some level of the armour crest alone is no error. -/
theorem C84_wall_levels_refuted : ¬ ∀ Ac : Val 2, CaseByCase
    (Arr.VanGent2025.calculate_crest_freeboard_Rc (.num 1) (.num 0) (.num 5) (.num 0.001) Ac (.num 3) (.num 0)
      (.num 0) (.num 0) (.num 1) (.num 1) (.num 1) (.num 1) (.num 1) true true)
    (fun i => VanGent2025.calculate_crest_freeboard_Rc 1 0 5 0.001 (Ac.get i) 3 0 0 0 1 1 1 1 1 true true) := by
  intro h
  have h1 := h (.arr ![1, 2]) 0
  rw [C84_wall_levels_raise (n := 2) 1 0 5 0.001 3 0 0 0 1 1 1 1 1 ![1, 2] true (fun h => h) (fun h => h)] at h1
  have h2 : ∀ a : PF, ∃ x, (VanGent2025.calculate_crest_freeboard_Rc 1 0 5 0.001 a 3 0 0 0 1 1 1 1 1 true
      true).res = .ok x := by
    intro a
    unfold VanGent2025.calculate_crest_freeboard_Rc VanGent2025.calculate_dimensionless_crest_freeboard
    have : (VanGent2025.friction_or_raise 1 5 1 1) = pure 1 := if_neg fun h => h
    rw [this, pure_bind]
    dsimp only
    rw [bind_assoc, PyM.bind_res_of_ok (VanGent2025.check_res ..), pure_bind]
    exact ⟨_, rfl⟩
  obtain ⟨x, hx⟩ := h2 ((Val.arr ![1, 2] : Val 2).get 0)
  rw [hx] at h1
  simp [Except.map] at h1

/-- C83 refuted for arrays of gravity: the maximum formula does not look at the gravity given, so an array of
gravities, everything else a number, is an error, whatever the values. -/
theorem C83_refuted_gravity_levels [NeZero n] (Hm0 Hm0_swell Tmm10 q Ac cot_alpha beta B_berm db Dn50 gamma_f
    gamma_b gamma_v gamma_beta : PF) (g : Fin n → PF) (dc : Bool) (N : ℕ) (t : PF) (hf : ¬ gamma_f.isnan) :
    (Arr.VanGent2025.calculate_dimensionless_crest_freeboard (.num Hm0) (.num Hm0_swell) (.num Tmm10) (.num q)
        (.num Ac) (.num cot_alpha) (.num beta) (.num B_berm) (.num db) (.num Dn50) (.num gamma_f) (.num gamma_b)
        (.num gamma_v) (.num gamma_beta) (.arr g) dc false N t).res = .error .valueError := by
  unfold Arr.VanGent2025.calculate_dimensionless_crest_freeboard Arr.VanGent2025.friction_or_raise
  have ct : ∀ (p : Prop) (x y : PyM (Val n)), PyM.cond (BVal.num p : BVal n).truth x y = if p then x else y :=
    fun p x y => by
      show (pure (decide p) >>= fun b : Bool => if b then x else y) = _
      rw [pure_bind]
      by_cases h : p <;> simp [h]
  simp only [num_simp, ct, hf, if_false, pure_bind]
  cases dc <;> by_cases h3 : gamma_beta.isnan <;> by_cases h4 : gamma_b.isnan <;>
    simp only [h3, h4, if_true, if_false, Bool.false_eq_true, pure_bind] <;> exact PyM.bind_res_of_error rfl _

example := C83_refuted_gravity_levels (n := 2) 1 0 5 (.fin 0.001) 1 3 0 0 0 1 (.fin 0.5) 1 1 1
  ![.fin 9.81, .fin 9.82] true 1000 1e-5 (fun h => h)

end
