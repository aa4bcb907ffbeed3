import Verif.Props.RangeHydraulics

/-! # Validity warnings of the overtopping formulas, continued (C60) -/

open Classical
open PF
open CorePhysics CoreUtility RangeProof Textbook
noncomputable section

namespace RangeOvertoppingMore

/-- C60: overtopping by Van Gent et al. (2025).  Missing: the water depth, the deep-water wave height and
the armour width in front of the crest wall, which are never looked at
(`C60_vangent2025_never_checked_refuted`) -/
theorem C60_vangent2025_partial {H T b c D Rc Ac B db : ℝ} (sw gf gb gv gbeta : PF) (design wind : Bool)
    (hH : 0 < H) (hT : 0 < T) (hc : 0 < c) :
    WarnsExactly (VanGent2025.calculate_dimensionless_overtopping_discharge_q (fin H) sw (fin T) (fin Rc)
        (fin Ac) (fin c) (fin b) (fin B) (fin db) (fin D) gf gb gv gbeta design wind)
      "Van Gent et al. (2025)"
      [⟨"Cotangent alpha slope", fin c, 1.5, 8.0⟩,
       ⟨"Wave steepness sm-1,0", fin (steepness H T), 0.001, 0.042⟩,
       ⟨"Iribarren number ksi_m-1,0", fin (iribarren H T c), 0.05, 6.0⟩,
       ⟨"Non-dimensional crest freeboard Rc / Hm0", fin (Rc / H), 0.6, 5.0⟩,
       ⟨"Non-dimensional stone diameter Dn50 / Hm0", fin (D / H), 0.12, 0.9⟩,
       ⟨"Non-dimensional protruding part of crest wall (Rc - Ac) / Hm0", fin ((Rc - Ac) / H), 0.0, 0.68⟩,
       ⟨"Non-dimensional Berm width B / Hm0", fin (B / H), 0.6, 5.0⟩,
       ⟨"Non-dimensional Berm height db / Hm0", fin (db / H), -1.7, 0.5⟩,
       ⟨"Incident wave angle beta", fin b, 0.0, 75.0⟩] := by
  unfold VanGent2025.calculate_dimensionless_overtopping_discharge_q VanGent2025.friction_or_raise
    VanGent2025.check_validity_range
  dsimp only
  rw [if_neg (show ¬ (fin D).isnan by simp)]
  have e : (fin Rc - fin Ac) / fin H = fin ((Rc - Ac) / H) := by rw [sub_fin, div_fin hH.ne']
  split_ifs <;> simp only [pure_bind] <;>
  exact ret _ <| check (by simp) rfl <| check (by simp) (steep_eval hT) <|
    check (by simp) (irib_eval hH hT hc) <|
    skip (by simp) <| skip (by simp) <|
    check (by simp) (ratio_eval hH) <| check (by simp) (ratio_eval hH) <| check (by simp) e <|
    skip (by simp) <| check (by simp) (ratio_eval hH) <|
    check (by simp) (ratio_eval hH) <| last (by simp) rfl

/-- a slope of 1:1 -/
example : Warn.range "Cotangent alpha slope" "Van Gent et al. (2025)" (fin 1) 1.5 8.0 ∈
      (VanGent2025.calculate_dimensionless_overtopping_discharge_q (fin 2) (fin 0) (fin 8) (fin 3)
      (fin 3) (fin 1) (fin 0) (fin 2) (fin 0) (fin 1)).warns := by
  refine ((C60_vangent2025_partial (fin 0) nan nan nan nan true false (by norm_num) (by norm_num)
    (by norm_num)).2 _).2 ⟨_, List.mem_cons_self, ?_⟩
  refine ⟨Or.inl ?_, rfl⟩
  rw [sci_eq, lt_fin]; norm_num

/-- C60: freeboard by eq. 24 of De Ridder et al. (2024).  Missing: the steepness of the short waves, which
is never looked at -/
theorem C60_deridder2024_freeboard_eq24_partial {H r : ℝ} (s gf q g : PF) (hH : 0 < H)
    (hres : (DeRidder2024.calculate_dimensionless_crest_freeboard_discharge_q_eq24 (fin H) s gf q g).res =
      .ok (fin r)) :
    WarnsExactly (DeRidder2024.calculate_dimensionless_crest_freeboard_discharge_q_eq24 (fin H) s gf q g)
      "De Ridder et al. (2024)" [⟨"Rc/Hm0", fin r, 0.80, 3.72⟩] := by
  unfold DeRidder2024.calculate_dimensionless_crest_freeboard_discharge_q_eq24 at hres ⊢
  dsimp only at hres ⊢
  refine with_result (m := fun x => DeRidder2024.check_validity_range (Hm0 := fin H)
    (Tmm10_HF := DeRidder2024.period_HF (fin H) s) (Rc := x * fin H))
    (by simp [DeRidder2024.check_validity_range]) ?_ hres
  unfold DeRidder2024.check_validity_range
  have e : (fin r * fin H) / fin H = fin r := by
    rw [mul_fin, div_fin hH.ne', mul_div_cancel_right₀ _ hH.ne']
  exact skip (by simp) <| skip (by simp) <| skip (by simp) <| skip (by simp) <|
    check (by simp [mul_fin]) e <| skip (by simp) <| skip (by simp) <|
    skip_last (by simp)

/-- a call that returns a number -/
example : ∃ r, (DeRidder2024.calculate_dimensionless_crest_freeboard_discharge_q_eq24 (fin 2) (fin 0.02)
    (fin 0.5) (fin 1) (fin 9.81)).res = .ok (fin r) := by
  unfold DeRidder2024.calculate_dimensionless_crest_freeboard_discharge_q_eq24
  have h : ∀ x y z, (DeRidder2024.check_validity_range (Hm0 := x) (Tmm10_HF := y) (Rc := z)).res = .ok () := by
    intro x y z
    simp [DeRidder2024.check_validity_range]
  rw [PyM.bind_res_of_ok (h ..)]
  refine ⟨_, congrArg Except.ok (?_ : _ = fin (-(Real.log (1 / √(9.81 * 2 ^ (3 : ℝ))) - Real.log 0.74)
    / (8.51 * 0.02 ^ (0.32 : ℝ)) * 0.5))⟩
  pf_eval []

/-- C60: freeboard by Van Gent et al. (2025); `r` is the result.  Missing: as `C60_vangent2025_partial` -/
theorem C60_vangent2025_freeboard_partial {H T b c D Ac B db r : ℝ} {flag : Bool} (sw q gf gb gv gbeta g : PF)
    (design wind : Bool) (n : ℕ) (tol : PF) (hH : 0 < H) (hT : 0 < T) (hc : 0 < c)
    (hres : (VanGent2025.calculate_dimensionless_crest_freeboard (fin H) sw (fin T) q (fin Ac) (fin c) (fin b)
      (fin B) (fin db) (fin D) gf gb gv gbeta g design wind n tol).res = .ok (fin r, flag)) :
    WarnsExactly (VanGent2025.calculate_dimensionless_crest_freeboard (fin H) sw (fin T) q (fin Ac) (fin c)
        (fin b) (fin B) (fin db) (fin D) gf gb gv gbeta g design wind n tol)
      "Van Gent et al. (2025)"
      [⟨"Cotangent alpha slope", fin c, 1.5, 8.0⟩,
       ⟨"Wave steepness sm-1,0", fin (steepness H T), 0.001, 0.042⟩,
       ⟨"Iribarren number ksi_m-1,0", fin (iribarren H T c), 0.05, 6.0⟩,
       ⟨"Non-dimensional crest freeboard Rc / Hm0", fin r, 0.6, 5.0⟩,
       ⟨"Non-dimensional stone diameter Dn50 / Hm0", fin (D / H), 0.12, 0.9⟩,
       ⟨"Non-dimensional protruding part of crest wall (Rc - Ac) / Hm0", fin (r - Ac / H), 0.0, 0.68⟩,
       ⟨"Non-dimensional Berm width B / Hm0", fin (B / H), 0.6, 5.0⟩,
       ⟨"Non-dimensional Berm height db / Hm0", fin (db / H), -1.7, 0.5⟩,
       ⟨"Incident wave angle beta", fin b, 0.0, 75.0⟩] := by
  have hf : ∃ y, VanGent2025.friction_or_raise (fin H) (fin T) (fin D) gf = pure y := by
    unfold VanGent2025.friction_or_raise
    rw [if_neg (show ¬ (fin D).isnan by simp)]
    split_ifs
    · exact ⟨_, rfl⟩
    · exact ⟨_, rfl⟩
  obtain ⟨y, hy⟩ := hf
  unfold VanGent2025.calculate_dimensionless_crest_freeboard at hres ⊢
  dsimp only at hres ⊢
  rw [hy, pure_bind] at hres ⊢
  rw [PyM.bind_res_of_ok (show (VanGent2025.check_validity_range _ _ _ _ _ _ _ _ _ _ _ _).res = .ok () by
    simp [VanGent2025.check_validity_range])] at hres
  have hr := congrArg Prod.fst (Except.ok.inj hres)
  dsimp only at hr
  rw [hr]
  unfold VanGent2025.check_validity_range
  have e1 : fin r * fin H / fin H = fin r := by
    rw [mul_fin, div_fin hH.ne', mul_div_cancel_right₀ _ hH.ne']
  have e2 : (fin r * fin H - fin Ac) / fin H = fin (r - Ac / H) := by
    rw [mul_fin, sub_fin, div_fin hH.ne']
    congr 1; field_simp
  exact ret _ <| check (by simp) rfl <| check (by simp) (steep_eval hT) <|
    check (by simp) (irib_eval hH hT hc) <|
    skip (by simp) <| skip (by simp) <|
    check (by simp [mul_fin]) e1 <| check (by simp) (ratio_eval hH) <| check (by simp [mul_fin]) e2 <|
    skip (by simp) <| check (by simp [mul_fin]) (ratio_eval hH) <|
    check (by simp [mul_fin]) (ratio_eval hH) <| last (by simp) rfl

/-! ### The functions that return metres or m³/s/m warn like the dimensionless ones -/

/-- same warnings, and the same exception if there is one -/
def SameComplaints {α β : Type} (m : PyM α) (m' : PyM β) : Prop :=
  m.warns = m'.warns ∧ ∀ e, m.res = .error e ↔ m'.res = .error e

theorem same {α β : Type} (m : PyM α) (f : α → β) : SameComplaints (m >>= fun a => pure (f a)) m := by
  obtain ⟨w, e | a⟩ := m
  · exact ⟨rfl, fun e' => ⟨fun h => by cases h; rfl, fun h => by cases h; rfl⟩⟩
  · exact ⟨by rw [PyM.bind_warns_of_ok rfl, PyM.pure_def, List.append_nil],
      fun e' => ⟨fun h => (by cases h), fun h => (by cases h)⟩⟩

theorem C60_with_units (H sw T Rc q Ac c b B db D gf gb gv gbeta g s L th cs : PF)
    (design wind short crossing parapet : Bool) :
    SameComplaints (VanGent2025.calculate_overtopping_discharge_q H sw T Rc Ac c b B db D gf gb gv gbeta g
        design wind)
      (VanGent2025.calculate_dimensionless_overtopping_discharge_q H sw T Rc Ac c b B db D gf gb gv gbeta
        design wind) ∧
    SameComplaints (VanGent2025.calculate_crest_freeboard_Rc H sw T q Ac c b B db D gf gb gv gbeta design wind)
      (VanGent2025.calculate_dimensionless_crest_freeboard H sw T q Ac c b B db D gf gb gv gbeta 9.81 design
        wind) ∧
    SameComplaints (VanGent2021Caisson.calculate_overtopping_discharge_q H Rc b gbeta sw c cs short crossing
        parapet g)
      (VanGent2021Caisson.calculate_dimensionless_overtopping_discharge_q H Rc b gbeta sw c cs short crossing
        parapet) ∧
    SameComplaints (VanGent2021Caisson.calculate_crest_freeboard_Rc H q b gbeta sw c cs short crossing parapet g)
      (VanGent2021Caisson.calculate_dimensionless_crest_freeboard H q b gbeta sw c cs short crossing parapet
        g) ∧
    SameComplaints (DeRidder2024.calculate_overtopping_discharge_q_eq24 H s gf Rc g)
      (DeRidder2024.calculate_dimensionless_overtopping_discharge_eq24 H s gf Rc) ∧
    SameComplaints (DeRidder2024.calculate_overtopping_discharge_q_eq26 H s L gf Rc g)
      (DeRidder2024.calculate_dimensionless_overtopping_discharge_eq26 H s L gf Rc) ∧
    SameComplaints (DeRidder2024.calculate_crest_freeboard_discharge_q_eq24 H s gf q g)
      (DeRidder2024.calculate_dimensionless_crest_freeboard_discharge_q_eq24 H s gf q) ∧
    SameComplaints (DeRidder2026.calculate_overtopping_discharge_q_eq28 H s gf Rc g th)
      (DeRidder2026.calculate_dimensionless_overtopping_discharge_eq28 H s gf Rc th) ∧
    SameComplaints (DeRidder2026.calculate_overtopping_discharge_q_eq32 H s L gf Rc g th)
      (DeRidder2026.calculate_dimensionless_overtopping_discharge_eq32 H s L gf Rc th) :=
  ⟨same .., same .., same .., same .., same .., same .., same .., same .., same ..⟩

/-- the crest freeboards by De Ridder et al. (2026) are never checked: a crest of 3.9 wave heights, twice the
highest tested, is returned without a word -/
theorem C60_deridder2026_freeboard_refuted :
    (∀ H s gf q g th, (DeRidder2026.calculate_crest_freeboard_discharge_q_eq28 H s gf q g th).warns = []) ∧
    (∀ H s L gf q g th,
      (DeRidder2026.calculate_crest_freeboard_discharge_q_eq32 H s L gf q g th).warns = []) ∧
    ∃ r : ℝ, (DeRidder2026.calculate_crest_freeboard_discharge_q_eq32 (fin 1) (fin 0.03) (fin 4) (fin 0.5)
      (fin (0.05 * √9.81))).res = .ok (fin r) ∧ 3.8 < r / 1 := by
  refine ⟨fun _ _ _ _ _ _ => rfl, fun _ _ _ _ _ _ _ => rfl, _,
    congrArg Except.ok (?_ : _ = fin ((-(Real.log (0.05 * √9.81 / √(9.81 * 1 ^ (3 : ℝ))) - Real.log 0.05)
      / (10.40 * 0.03 ^ (0.50 : ℝ) * (1 / (0.5 * (0.65 * Real.cos 0 ^ (2 : ℝ) + 0.35)))) * 1) + 0.97 * 4)), ?_⟩
  · unfold DeRidder2026.calculate_gamma_beta
    have e : (0.65 : PF) * npow (PF.cos (PF.deg2rad (PF.abs 0.0))) 2 + 0.35 =
        fin (0.65 * Real.cos 0 ^ (2 : ℝ) + 0.35) := by
      have h0 : PF.cos (PF.deg2rad (PF.abs 0.0)) = fin (Real.cos 0) := by
        rw [sci_eq, abs_fin, deg2rad_fin, cos_fin]; norm_num
      have h1 := Real.cos_zero
      rw [h0, h1]
      pf_eval []
    rw [e, Real.cos_zero]
    pf_eval []
  · have : √(9.81 * 1 ^ (3 : ℝ)) = √9.81 := by norm_num
    rw [this, mul_div_cancel_right₀ _ (by positivity), sub_self]
    norm_num

end RangeOvertoppingMore
