import Verif.Lemmas.ArrayLoop
import Verif.Lemmas.ArrayOvertoppingMore

/-! # Crest levels by Van Gent et al. (2025), called with arrays -/

open Classical
open Arrays
noncomputable section
namespace ArrProof
variable {n : ℕ}

theorem VanGent2025_calculate_dimensionless_crest_freeboard [NeZero n]
    (Hm0 Hm0_swell Tmm10 q Ac cot_alpha beta B_berm db : Val n) (Dn50 gamma_f gamma_b : PF) (gamma_v : Val n)
    (gamma_beta g : PF) (design_calculation : Bool) (max_iter : ℕ) (tolerance : PF) :
    Rel False (Arr.VanGent2025.calculate_dimensionless_crest_freeboard Hm0 Hm0_swell Tmm10 q Ac cot_alpha
        beta B_berm db (.num Dn50) (.num gamma_f) (.num gamma_b) gamma_v (.num gamma_beta) (.num g)
        design_calculation false max_iter tolerance)
      (fun i => VanGent2025.calculate_dimensionless_crest_freeboard (Hm0.get i) (Hm0_swell.get i)
        (Tmm10.get i) (q.get i) (Ac.get i) (cot_alpha.get i) (beta.get i) (B_berm.get i) (db.get i) Dn50
        gamma_f gamma_b (gamma_v.get i) gamma_beta g design_calculation false max_iter tolerance) := by
  unfold Arr.VanGent2025.calculate_dimensionless_crest_freeboard
    VanGent2025.calculate_dimensionless_crest_freeboard
  simp only [num_simp]
  cases design_calculation <;>
  simp only [if_true, Bool.false_eq_true, if_false]
  all_goals
    arr_rel [VanGent2025_check_validity_range, VanGent2025_friction_or_raise]

theorem VanGent2025_calculate_crest_freeboard_Rc [NeZero n]
    (Hm0 Hm0_swell Tmm10 q Ac cot_alpha beta B_berm db : Val n) (Dn50 gamma_f gamma_b : PF) (gamma_v : Val n)
    (gamma_beta : PF) (design_calculation : Bool) :
    Rel False (Arr.VanGent2025.calculate_crest_freeboard_Rc Hm0 Hm0_swell Tmm10 q Ac cot_alpha
        beta B_berm db (.num Dn50) (.num gamma_f) (.num gamma_b) gamma_v (.num gamma_beta)
        design_calculation false)
      (fun i => VanGent2025.calculate_crest_freeboard_Rc (Hm0.get i) (Hm0_swell.get i)
        (Tmm10.get i) (q.get i) (Ac.get i) (cot_alpha.get i) (beta.get i) (B_berm.get i) (db.get i) Dn50
        gamma_f gamma_b (gamma_v.get i) gamma_beta design_calculation false) := by
  unfold Arr.VanGent2025.calculate_crest_freeboard_Rc VanGent2025.calculate_crest_freeboard_Rc
  have h981 : (9.81 : Val n) = .num 9.81 := rfl
  rw [h981]
  arr_rel [VanGent2025_calculate_dimensionless_crest_freeboard]

/-- one pass of the wind iteration -/
def windStepA (Hm0 Hm0_swell qd Ac cot_alpha ksi gf gb gv gB : Val n) (s : Arr.VanGent2025.WindState n) :
    Arr.VanGent2025.WindState n :=
  let gamma_w := Arr.VanGent2025.calculate_influence_wind_gamma_w (Rc := s.Rc_diml * Hm0) (Ac := Ac)
    (Hm0 := Hm0) (q_diml := qd)
  let R := Arr.VanGent2025.Rc_diml_eqB1 Hm0 Hm0_swell (qd / gamma_w) cot_alpha ksi gf gb gv gB
  ⟨R, Val.abs (R - s.Rc_diml)⟩

/-- one pass of the wind iteration -/
def windStep (Hm0 Hm0_swell qd Ac cot_alpha ksi gf gb gv gB : PF) (s : VanGent2025.WindState) :
    VanGent2025.WindState :=
  let gamma_w := VanGent2025.calculate_influence_wind_gamma_w (Rc := s.Rc_diml * Hm0) (Ac := Ac)
    (Hm0 := Hm0) (q_diml := qd)
  let R := VanGent2025.Rc_diml_eqB1 Hm0 Hm0_swell (qd / gamma_w) cot_alpha ksi gf gb gv gB
  ⟨R, PF.abs (R - s.Rc_diml)⟩

/-- case `i` of the loop variables -/
def windCase (s : Arr.VanGent2025.WindState n) (i : Fin n) : VanGent2025.WindState :=
  ⟨s.Rc_diml.get i, s.diff.get i⟩

theorem windStep_case (Hm0 Hm0_swell qd Ac cot_alpha ksi gf gb gv gB : Val n)
    (s : Arr.VanGent2025.WindState n) (i : Fin n) :
    windCase (windStepA Hm0 Hm0_swell qd Ac cot_alpha ksi gf gb gv gB s) i =
      windStep (Hm0.get i) (Hm0_swell.get i) (qd.get i) (Ac.get i) (cot_alpha.get i) (ksi.get i) (gf.get i)
        (gb.get i) (gv.get i) (gB.get i) (windCase s i) := by
  unfold windCase windStepA windStep
  simp only [cases_simp]

/-- the shape of the freeboard while iterating -/
theorem windStep_shape (Hm0 Hm0_swell qd Ac cot_alpha ksi gf gb gv gB : Val n)
    (hA : Ac.isArray = true → (Hm0.isArray || Hm0_swell.isArray || qd.isArray || cot_alpha.isArray ||
      ksi.isArray || gf.isArray || gb.isArray || gv.isArray || gB.isArray) = true)
    (d : Val n) (K : ℕ) :
    ((windStepA Hm0 Hm0_swell qd Ac cot_alpha ksi gf gb gv gB)^[K]
      ⟨Arr.VanGent2025.Rc_diml_eqB1 Hm0 Hm0_swell qd cot_alpha ksi gf gb gv gB, d⟩).Rc_diml.isArray =
      (Hm0.isArray || Hm0_swell.isArray || qd.isArray || cot_alpha.isArray ||
      ksi.isArray || gf.isArray || gb.isArray || gv.isArray || gB.isArray) := by
  induction K with
  | zero => simp only [Function.iterate_zero, id_eq, shape_simp]
  | succ K ih =>
    rw [Function.iterate_succ_apply']
    generalize (windStepA Hm0 Hm0_swell qd Ac cot_alpha ksi gf gb gv gB)^[K] _ = s at ih
    unfold windStepA
    dsimp only
    simp only [shape_simp, ih]
    grind

theorem wind_loop [NeZero n] (Hm0 Hm0_swell qd Ac cot_alpha ksi gf gb gv gB : Val n) (N : ℕ) (t : ℝ) :
    ∃ K ≤ N, whileIter N (fun s => s.diff.amax > .fin t)
        (windStepA Hm0 Hm0_swell qd Ac cot_alpha ksi gf gb gv gB)
        ⟨Arr.VanGent2025.Rc_diml_eqB1 Hm0 Hm0_swell qd cot_alpha ksi gf gb gv gB, Val.pinf⟩ =
        (windStepA Hm0 Hm0_swell qd Ac cot_alpha ksi gf gb gv gB)^[K]
        ⟨Arr.VanGent2025.Rc_diml_eqB1 Hm0 Hm0_swell qd cot_alpha ksi gf gb gv gB, Val.pinf⟩ ∧
      ∀ i, (whileIter N (fun s => s.diff.amax > .fin t)
        (windStepA Hm0 Hm0_swell qd Ac cot_alpha ksi gf gb gv gB)
        ⟨Arr.VanGent2025.Rc_diml_eqB1 Hm0 Hm0_swell qd cot_alpha ksi gf gb gv gB, Val.pinf⟩).Rc_diml.get i =
        (whileIter K (fun s => s.diff > -1.0)
          (windStep (Hm0.get i) (Hm0_swell.get i) (qd.get i) (Ac.get i) (cot_alpha.get i) (ksi.get i) (gf.get i)
            (gb.get i) (gv.get i) (gB.get i))
          ⟨VanGent2025.Rc_diml_eqB1 (Hm0.get i) (Hm0_swell.get i) (qd.get i) (cot_alpha.get i) (ksi.get i)
            (gf.get i) (gb.get i) (gv.get i) (gB.get i), .pinf⟩).Rc_diml := by
  obtain ⟨K, hK, hres, hcase, hpass, -⟩ := loop_together windCase
    (windStepA Hm0 Hm0_swell qd Ac cot_alpha ksi gf gb gv gB)
    (fun i => windStep (Hm0.get i) (Hm0_swell.get i) (qd.get i) (Ac.get i) (cot_alpha.get i) (ksi.get i)
      (gf.get i) (gb.get i) (gv.get i) (gB.get i)) (fun s => s.diff) (fun s => s.diff)
    ⟨Arr.VanGent2025.Rc_diml_eqB1 Hm0 Hm0_swell qd cot_alpha ksi gf gb gv gB, Val.pinf⟩ N t
    (windStep_case Hm0 Hm0_swell qd Ac cot_alpha ksi gf gb gv gB) (fun _ _ => rfl)
    (fun i j hj => by
      cases j with
      | zero => trivial
      | succ j =>
        rw [Function.iterate_succ_apply'] at hj ⊢
        exact abs_gt_neg _ hj)
  refine ⟨K, hK, hres, fun i => ?_⟩
  have h1 := congrArg VanGent2025.WindState.Rc_diml (hcase i)
  rw [← hpass K le_rfl i] at h1
  simp only [windCase, cases_simp] at h1
  exact h1

/-- what the function does once the influence factors are known -/
def windTailA (Hm0 Hm0_swell Tmm10 q Ac cot_alpha beta B_berm db Dn50 gb gv gB g : Val n) (dc : Bool) (N : ℕ)
    (t : PF) (gf : Val n) : PyM (Val n × BVal n) := do
  let ksi := Arr.CorePhysics.calculate_Iribarren_number_ksi Hm0 Tmm10 cot_alpha
  let qd := q / Val.sqrt (g * Val.npow Hm0 3)
  let qd := if dc then Val.npow qd (1.0 / 0.857) else qd
  let R := (whileIter N (fun s => s.diff.amax > t)
    (windStepA Hm0 Hm0_swell qd Ac cot_alpha ksi gf gb gv gB)
    ⟨Arr.VanGent2025.Rc_diml_eqB1 Hm0 Hm0_swell qd cot_alpha ksi gf gb gv gB, Val.pinf⟩).Rc_diml
  let M := Arr.VanGent2025.Rc_diml_max_equation (Hm0 := Hm0) (Hm0_swell := Hm0_swell) (q := q)
    (cot_alpha := cot_alpha) (ksi_mm10 := ksi) (gamma_f := gf) (gamma_b := gb)
    (gamma_v := gv) (gamma_beta := gB)
  let R ← Val.stackMin R M
  let m ← Val.stackMin R M
  Arr.VanGent2025.check_validity_range (Hm0 := Hm0) (Tmm10 := Tmm10) (beta := beta) (cot_alpha := cot_alpha)
    (Dn50 := Dn50) (Rc := R * Hm0) (Ac := Ac) (B_berm := B_berm) (db := db)
  pure (R, m ==. M)

/-- what the function does once the influence factors are known -/
def windTail (Hm0 Hm0_swell Tmm10 q Ac cot_alpha beta B_berm db Dn50 gb gv gB g : PF) (dc : Bool) (N : ℕ)
    (t : PF) (gf : PF) : PyM (PF × Bool) := do
  let ksi := CorePhysics.calculate_Iribarren_number_ksi Hm0 Tmm10 cot_alpha
  let qd := q / PF.sqrt (g * PF.npow Hm0 3)
  let qd := if dc then PF.npow qd (1.0 / 0.857) else qd
  let R := (whileIter N (fun s => s.diff > t)
    (windStep Hm0 Hm0_swell qd Ac cot_alpha ksi gf gb gv gB)
    ⟨VanGent2025.Rc_diml_eqB1 Hm0 Hm0_swell qd cot_alpha ksi gf gb gv gB, PF.pinf⟩).Rc_diml
  let M := VanGent2025.Rc_diml_max_equation (Hm0 := Hm0) (Hm0_swell := Hm0_swell) (q := q)
    (cot_alpha := cot_alpha) (ksi_mm10 := ksi) (gamma_f := gf) (gamma_b := gb)
    (gamma_v := gv) (gamma_beta := gB)
  let R := PF.min R M
  let m := decide (PF.eqF (PF.min R M) M)
  VanGent2025.check_validity_range (Hm0 := Hm0) (Tmm10 := Tmm10) (beta := beta) (cot_alpha := cot_alpha)
    (Dn50 := Dn50) (Rc := R * Hm0) (Ac := Ac) (B_berm := B_berm) (db := db)
  pure (R, m)

theorem wind_tail [NeZero n]
    (Hm0 Hm0_swell Tmm10 q Ac cot_alpha beta B_berm db Dn50 gb gv gB : Val n) (g : PF) (dc : Bool) (N : ℕ)
    (t : ℝ) (gf : Val n) (hA : Ac.isArray = true → (Hm0.isArray || Hm0_swell.isArray || Tmm10.isArray ||
      q.isArray || cot_alpha.isArray || gv.isArray) = true) :
    ∃ K ≤ N, Rel False (windTailA Hm0 Hm0_swell Tmm10 q Ac cot_alpha beta B_berm db Dn50 gb gv gB (.num g) dc N
        (.fin t) gf)
      (fun i => windTail (Hm0.get i) (Hm0_swell.get i) (Tmm10.get i) (q.get i) (Ac.get i) (cot_alpha.get i)
        (beta.get i) (B_berm.get i) (db.get i) (Dn50.get i) (gb.get i) (gv.get i) (gB.get i) g dc K (-1.0)
        (gf.get i)) := by
  have e1 : ∀ i, (if dc then Val.npow (q / Val.sqrt (.num g * Val.npow Hm0 3)) (1.0 / 0.857) else
      q / Val.sqrt (.num g * Val.npow Hm0 3)).get i =
      if dc then PF.npow (q.get i / PF.sqrt (g * PF.npow (Hm0.get i) 3)) (1.0 / 0.857) else
      q.get i / PF.sqrt (g * PF.npow (Hm0.get i) 3) := fun i => by
    cases dc <;> simp only [if_true, Bool.false_eq_true, if_false, cases_simp]
  have s1 : (if dc then Val.npow (q / Val.sqrt (.num g * Val.npow Hm0 3)) (1.0 / 0.857) else
      q / Val.sqrt (.num g * Val.npow Hm0 3)).isArray = (q.isArray || Hm0.isArray) := by
    cases dc <;> simp only [if_true, Bool.false_eq_true, if_false, shape_simp] <;> simp [Val.isArray]
  unfold windTailA windTail
  simp only [← e1]
  generalize (if dc then Val.npow (q / Val.sqrt (.num g * Val.npow Hm0 3)) (1.0 / 0.857) else
      q / Val.sqrt (.num g * Val.npow Hm0 3)) = qd at s1
  have e2 : ∀ i, CorePhysics.calculate_Iribarren_number_ksi (Hm0.get i) (Tmm10.get i) (cot_alpha.get i) =
      (Arr.CorePhysics.calculate_Iribarren_number_ksi Hm0 Tmm10 cot_alpha).get i := fun i => by
    simp only [cases_simp]
  have s2 : (Arr.CorePhysics.calculate_Iribarren_number_ksi Hm0 Tmm10 cot_alpha).isArray =
      (Hm0.isArray || Tmm10.isArray || cot_alpha.isArray) := by
    simp only [shape_simp] ; try grind
  simp only [e2]
  generalize Arr.CorePhysics.calculate_Iribarren_number_ksi Hm0 Tmm10 cot_alpha = ksi at s2
  obtain ⟨K, hK, hres, hval⟩ := wind_loop Hm0 Hm0_swell qd Ac cot_alpha ksi gf gb gv gB N t
  have hsh := windStep_shape Hm0 Hm0_swell qd Ac cot_alpha ksi gf gb gv gB (by rw [s1, s2]; grind) Val.pinf K
  rw [← hres] at hsh
  refine ⟨K, hK, ?_⟩
  simp only [← hval]
  generalize (whileIter N _ (windStepA Hm0 Hm0_swell qd Ac cot_alpha ksi gf gb gv gB) _).Rc_diml = R at hsh
  rw [s1] at hsh
  refine Rel.stackMin_bind ?_ ?_
  · rw [hsh]; simp only [shape_simp]; grind
  refine Rel.stackMin_bind ?_ ?_
  · simp only [shape_simp, hsh]; grind
  arr_rel [VanGent2025_check_validity_range]

theorem VanGent2025_freeboard_wind [NeZero n]
    (Hm0 Hm0_swell Tmm10 q Ac cot_alpha beta B_berm db : Val n) (Dn50 gamma_f gamma_b : PF) (gamma_v : Val n)
    (gamma_beta g : PF) (dc : Bool) (N : ℕ) (t : ℝ)
    (hA : Ac.isArray = true → (Hm0.isArray || Hm0_swell.isArray || Tmm10.isArray || q.isArray ||
      cot_alpha.isArray || gamma_v.isArray) = true) :
    ∃ K ≤ N, Rel False (Arr.VanGent2025.calculate_dimensionless_crest_freeboard Hm0 Hm0_swell Tmm10 q Ac
        cot_alpha beta B_berm db (.num Dn50) (.num gamma_f) (.num gamma_b) gamma_v (.num gamma_beta) (.num g)
        dc true N (.fin t))
      (fun i => VanGent2025.calculate_dimensionless_crest_freeboard (Hm0.get i) (Hm0_swell.get i)
        (Tmm10.get i) (q.get i) (Ac.get i) (cot_alpha.get i) (beta.get i) (B_berm.get i) (db.get i) Dn50
        gamma_f gamma_b (gamma_v.get i) gamma_beta g dc true K (-1.0)) := by
  unfold Arr.VanGent2025.calculate_dimensionless_crest_freeboard
    VanGent2025.calculate_dimensionless_crest_freeboard Arr.VanGent2025.friction_or_raise
    VanGent2025.friction_or_raise
  have ct : ∀ (p : Prop) (x y : PyM (Val n)), PyM.cond (BVal.num p : BVal n).truth x y = if p then x else y :=
    fun p x y => by
      show (pure (decide p) >>= fun b : Bool => if b then x else y) = _
      rw [pure_bind]
      by_cases h : p <;> simp [h]
  simp only [num_simp, ct]
  by_cases h1 : gamma_f.isnan
  · by_cases h2 : Dn50.isnan
    · refine ⟨0, Nat.zero_le _, ?_⟩
      simp only [h1, h2, if_true]
      by_cases h3 : gamma_beta.isnan <;> by_cases h4 : gamma_b.isnan <;>
        simp only [h3, h4, if_true, if_false, pure_bind] <;> exact Rel.raise
    · simp only [h1, h2, if_true, if_false]
      by_cases h3 : gamma_beta.isnan <;> by_cases h4 : gamma_b.isnan <;>
        simp only [h3, h4, if_true, if_false, pure_bind] 
      all_goals
        obtain ⟨K, hK, h⟩ := wind_tail Hm0 Hm0_swell Tmm10 q Ac cot_alpha beta B_berm db (.num Dn50) _ gamma_v _ g
          dc N t _ hA
        refine ⟨K, hK, ?_⟩
        refine Rel.congr h ?_
        intro i
        simp only [cases_simp]
        rfl
  · simp only [h1, if_false]
    by_cases h3 : gamma_beta.isnan <;> by_cases h4 : gamma_b.isnan <;>
      simp only [h3, h4, if_true, if_false, pure_bind]
    all_goals
      obtain ⟨K, hK, h⟩ := wind_tail Hm0 Hm0_swell Tmm10 q Ac cot_alpha beta B_berm db (.num Dn50) _ gamma_v _ g
        dc N t _ hA
      refine ⟨K, hK, ?_⟩
      refine Rel.congr h ?_
      intro i
      simp only [cases_simp]
      rfl

end ArrProof
end
