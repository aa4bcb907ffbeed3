import Verif.Lemmas.Overtopping

/-!
# C49, C50, C74, C75: TAW 2002 wave overtopping
-/

open Classical
open PF CorePhysics CoreUtility
noncomputable section

namespace OvertoppingTawProofs
open OvertoppingTaw2002 TwoFormulas

theorem both_of_pre {h t x gf gv s gB c gb g : ℝ} {bf : Bool} (h0 : 0 < h)
    (t0 : 0 < t) (hs : s = 0 ∨ bf = true) (hs7 : -7 ≤ s) (hf : 0 < gf) (hf1 : gf ≤ 1) (hv : 0 < gv)
    (hB : 0 < gB) (hc : 0 < c) (hb : 0 < gb) (hb1 : gb ≤ 1) (hg : 0 < g) (hx : 0 < x) :
    ∃ (q R : ℝ) (m m' : Bool), ∀ cot cd cu beta B db gB' gb' : PF,
      (pre (fin h) (fin t) cot cd cu beta B db gB' gb' (fin gf)).res = .ok (fin gB, fin c, fin gb) →
      (calculate_overtopping_discharge_q (fin h) (fin t) (fin x) cot cd cu beta B
        db gB' gb' (fin gf) (fin gv) (fin s) (fin g) bf).res = .ok (fin q, m) ∧
      (calculate_crest_freeboard_Rc (fin h) (fin t) (fin x) cot cd cu beta B
        db gB' gb' (fin gf) (fin gv) (fin s) (fin g) bf).res = .ok (fin R, m') := by
  have hq : ∀ cot cd cu beta B db gB' gb' : PF,
      (pre (fin h) (fin t) cot cd cu beta B db gB' gb' (fin gf)).res = .ok (fin gB, fin c, fin gb) →
      (calculate_overtopping_discharge_q (fin h) (fin t) (fin x) cot cd cu beta B
        db gB' gb' (fin gf) (fin gv) (fin s) (fin g) bf).res =
      .ok (fin ((E (A1 h t c gb) (d1 h t c gb gf gB gv (k1 s bf)) x ⊓
          E 0.2 (d3 h t c gb gf gB (k3 s bf)) x) * Sc g h),
        decide (E 0.2 (d3 h t c gb gf gB (k3 s bf)) x ≤
          E (A1 h t c gb) (d1 h t c gb gf gB gv (k1 s bf)) x)) := by
    intro cot cd cu beta B db gB' gb' hp
    unfold calculate_overtopping_discharge_q
    rw [PyM.bind_res_of_ok (q_res h0 t0 hs hf hf1 hv hB hc hb hb1 hp), Sc_eval hg h0, mul_fin]
    rfl
  exact ⟨_, _, _, _, fun cot cd cu beta B db gB' gb' hp =>
    ⟨hq _ _ _ _ _ _ _ _ hp, R_res h0 t0 hs hs7 hf hf1 hv hB hc hb hb1 hg hx hp⟩⟩

/-! ## C49 discharge and freeboard are inverse

The slope may be single or composite, with or without a berm, the obliqueness factor or the angle may
be given, the berm factor given or left out, the coefficients design values or best fit, the latter
with a number of standard deviations: whatever combination, if one function returns a number, the
other one sends it back. -/

/-- Every discharge the discharge function returns is positive, and the freeboard function asked for
that discharge returns the freeboard with the same flag (gravity 9.81). -/
theorem C49_freeboard_of_discharge_partial (H T R gf gv s : ℝ) (cot cd cu beta B db gB gb : PF)
    (bf : Bool) (hH : 0 < H) (hT : 0 < T) (hf : 0 < gf) (hf1 : gf ≤ 1) (hv : 0 < gv) (hs : -7 ≤ s)
    (hgB : OmittedOr (0 < ·) gB) (hgb : OmittedOr (fun r => 0 < r ∧ r ≤ 1) gb) (q : ℝ) (m : Bool)
    (h : (calculate_overtopping_discharge_q (fin H) (fin T) (fin R) cot cd cu beta B db gB gb
      (fin gf) (fin gv) (fin s) (use_best_fit := bf)).res = .ok (fin q, m)) :
    0 < q ∧ (calculate_crest_freeboard_Rc (fin H) (fin T) (fin q) cot cd cu beta B db gB gb
      (fin gf) (fin gv) (fin s) (use_best_fit := bf)).res = .ok (fin R, m) := by
  obtain ⟨hs0, gB', c, gb', hB, hc, hb, hb1, hp⟩ := q_inv hH hT hgB hgb h
  have hg : (0 : ℝ) < 9.81 := by norm_num
  have hS := Sc_pos hg hH
  have hA := A1_pos hH hT hc hb
  have hd1 := d1_pos hH hT hc hb hb1 hf hf1 hB hv (k1_pos hs hs0)
  have hd3 := d3_pos hH hT hc hb1 hf hf1 hB (k3_pos hs hs0)
  unfold calculate_overtopping_discharge_q at h
  rw [PyM.bind_res_of_ok (q_res hH hT hs0 hf hf1 hv hB hc hb hb1 hp)] at h
  dsimp only at h
  rw [show PF.sqrt (9.81 * npow (fin H) 3) = fin (Sc 9.81 H) from Sc_eval hg hH, mul_fin] at h
  simp only [PyM.pure_def, Except.ok.injEq, Prod.mk.injEq, fin_inj] at h
  obtain ⟨rfl, rfl⟩ := h
  have hy : 0 < E (A1 H T c gb') (d1 H T c gb' gf gB' gv (k1 s bf)) R ⊓
      E 0.2 (d3 H T c gb' gf gB' (k3 s bf)) R :=
    lt_min (E_pos hA _ _) (E_pos (by norm_num) _ _)
  refine ⟨mul_pos hy hS, ?_⟩
  refine (R_res hH hT hs0 hs hf hf1 hv hB hc hb hb1 hg (mul_pos hy hS) hp).trans ?_
  rw [mul_div_cancel_right₀ _ hS.ne']
  obtain ⟨h1, h2⟩ := two_E hA (by norm_num : (0 : ℝ) < 0.2) hd1 hd3 R
  rw [h1]
  simp only [h2]

/-- Every freeboard the freeboard function returns for a positive discharge has that discharge, with
the same flag (gravity 9.81). -/
theorem C49_discharge_of_freeboard_partial (H T q gf gv s : ℝ) (cot cd cu beta B db gB gb : PF)
    (bf : Bool) (hH : 0 < H) (hT : 0 < T) (hf : 0 < gf) (hf1 : gf ≤ 1) (hv : 0 < gv) (hs : -7 ≤ s)
    (hgB : OmittedOr (0 < ·) gB) (hgb : OmittedOr (fun r => 0 < r ∧ r ≤ 1) gb) (R : ℝ) (m : Bool)
    (hq : 0 < q)
    (h : (calculate_crest_freeboard_Rc (fin H) (fin T) (fin q) cot cd cu beta B db gB gb
      (fin gf) (fin gv) (fin s) (use_best_fit := bf)).res = .ok (fin R, m)) :
    (calculate_overtopping_discharge_q (fin H) (fin T) (fin R) cot cd cu beta B db gB gb
      (fin gf) (fin gv) (fin s) (use_best_fit := bf)).res = .ok (fin q, m) := by
  have hg : (0 : ℝ) < 9.81 := by norm_num
  obtain ⟨hs0, gB', c, gb', hB, hc, hb, hb1, hp⟩ := R_inv (g := 9.81) hH hT hgB hgb h
  have hS := Sc_pos hg hH
  have hA := A1_pos hH hT hc hb
  have hd1 := d1_pos hH hT hc hb hb1 hf hf1 hB hv (k1_pos hs hs0)
  have hd3 := d3_pos hH hT hc hb1 hf hf1 hB (k3_pos hs hs0)
  have h' := h.symm.trans (R_res hH hT hs0 hs hf hf1 hv hB hc hb hb1 hg hq hp)
  simp only [Except.ok.injEq, Prod.mk.injEq, fin_inj] at h'
  obtain ⟨rfl, rfl⟩ := h'
  unfold calculate_overtopping_discharge_q
  rw [PyM.bind_res_of_ok (q_res hH hT hs0 hf hf1 hv hB hc hb hb1 hp)]
  dsimp only
  rw [show PF.sqrt (9.81 * npow (fin H) 3) = fin (Sc 9.81 H) from Sc_eval hg hH, mul_fin]
  obtain ⟨h1, h2⟩ := two_L hA (by norm_num : (0 : ℝ) < 0.2) hd1 hd3 (div_pos hq hS)
  rw [h1, div_mul_cancel₀ _ hS.ne']
  simp only [h2, PyM.pure_def]

/-- A straight slope, with or without a berm: both functions do return numbers, for every freeboard
and every positive discharge. -/
theorem C49_straight_slope_returns (H T c gf gv B db s g : ℝ) (beta gB gb : PF) (bf : Bool)
    (hH : 0 < H) (hT : 0 < T) (hc : 0 < c) (hf : 0 < gf) (hf1 : gf ≤ 1) (hv : 0 < gv) (hB : 0 ≤ B)
    (hs : -7 ≤ s) (hs0 : s = 0 ∨ bf = true) (hg : 0 < g)
    (hgB : OmittedOr (0 < ·) gB) (hgb : OmittedOr (fun r => 0 < r ∧ r ≤ 1) gb)
    (hgiven : ¬ gB.isnan ∨ ¬ beta.isnan) :
    (∀ R : ℝ, ∃ (q : ℝ) (m : Bool), 0 < q ∧ (calculate_overtopping_discharge_q (fin H) (fin T)
      (fin R) (fin c) nan nan beta (fin B) (fin db) gB gb (fin gf) (fin gv) (fin s) (fin g)
      bf).res = .ok (fin q, m)) ∧
    (∀ q : ℝ, 0 < q → ∃ (R : ℝ) (m : Bool), (calculate_crest_freeboard_Rc (fin H) (fin T)
      (fin q) (fin c) nan nan beta (fin B) (fin db) gB gb (fin gf) (fin gv) (fin s) (fin g)
      bf).res = .ok (fin R, m)) := by
  obtain ⟨gB', gb', hB', hb, hb1, -, -, hp, -⟩ :=
    pre_straight (db := db) hH hT hc hf hf1 hB hgB hgiven hgb
  constructor
  · intro R
    unfold calculate_overtopping_discharge_q
    rw [PyM.bind_res_of_ok (q_res hH hT hs0 hf hf1 hv hB' hc hb hb1 hp)]
    dsimp only
    rw [Sc_eval hg hH, mul_fin]
    exact ⟨_, _, mul_pos (lt_min (E_pos (A1_pos hH hT hc hb) _ _) (E_pos (by norm_num) _ _))
      (Sc_pos hg hH), rfl⟩
  · intro q hq
    exact ⟨_, _, R_res hH hT hs0 hs hf hf1 hv hB' hc hb hb1 hg hq hp⟩

/-- a rough 1:3 slope with a berm, oblique waves: there and back -/
example : ∃ (q : ℝ) (m : Bool), 0 < q ∧
    (calculate_overtopping_discharge_q (fin 2) (fin 6) (fin 3) (fin 3) nan nan (fin 30) (fin 4)
      (fin 0.5) nan nan (fin 0.8) (fin 1) (fin 0)).res = .ok (fin q, m) ∧
    (calculate_crest_freeboard_Rc (fin 2) (fin 6) (fin q) (fin 3) nan nan (fin 30) (fin 4)
      (fin 0.5) nan nan (fin 0.8) (fin 1) (fin 0)).res = .ok (fin 3, m) := by
  obtain ⟨q, m, hq, h⟩ := (C49_straight_slope_returns 2 6 3 0.8 1 4 0.5 0 9.81 (fin 30) nan nan false
    (by norm_num) (by norm_num) (by norm_num) (by norm_num) (by norm_num) (by norm_num) (by norm_num)
    (by norm_num) (Or.inl rfl) (by norm_num) (Or.inl rfl) (Or.inl rfl) (Or.inr (by simp))).1 3
  exact ⟨q, m, hq, h, (C49_freeboard_of_discharge_partial 2 6 3 0.8 1 0 _ _ _ _ _ _ _ _ false
    (by norm_num) (by norm_num) (by norm_num) (by norm_num) (by norm_num) (by norm_num)
    (Or.inl rfl) (Or.inl rfl) q m h).2⟩

/-- With a gravity above 9.81 the claim fails whenever the maximum governs: the freeboard returned is
strictly below the one the discharge was computed for (the maximum formula of the freeboard always
uses 9.81). -/
theorem C49_other_gravity_refuted (H T R gf gv s g : ℝ) (cot cd cu beta B db gB gb : PF)
    (bf : Bool) (hH : 0 < H) (hT : 0 < T) (hf : 0 < gf) (hf1 : gf ≤ 1) (hv : 0 < gv) (hs : -7 ≤ s)
    (hgB : OmittedOr (0 < ·) gB) (hgb : OmittedOr (fun r => 0 < r ∧ r ≤ 1) gb) (hg : 9.81 < g) (q : ℝ)
    (h : (calculate_overtopping_discharge_q (fin H) (fin T) (fin R) cot cd cu beta B db gB gb
      (fin gf) (fin gv) (fin s) (fin g) bf).res = .ok (fin q, true)) :
    ∃ (R' : ℝ) (m : Bool), R' < R ∧
      (calculate_crest_freeboard_Rc (fin H) (fin T) (fin q) cot cd cu beta B db gB gb
        (fin gf) (fin gv) (fin s) (fin g) bf).res = .ok (fin R', m) := by
  obtain ⟨hs0, gB', c, gb', hB, hc, hb, hb1, hp⟩ := q_inv hH hT hgB hgb h
  have hg0 : (0 : ℝ) < g := by linarith
  have hS := Sc_pos hg0 hH
  have hS' := Sc_pos (g := 9.81) (by norm_num) hH
  have hlt : Sc 9.81 H < Sc g H := by
    unfold Sc
    refine Real.sqrt_lt_sqrt (by positivity) ?_
    exact mul_lt_mul_of_pos_right hg (by positivity)
  have hd3 := d3_pos hH hT hc hb1 hf hf1 hB (k3_pos hs hs0)
  unfold calculate_overtopping_discharge_q at h
  rw [PyM.bind_res_of_ok (q_res hH hT hs0 hf hf1 hv hB hc hb hb1 hp)] at h
  dsimp only at h
  rw [Sc_eval hg0 hH, mul_fin] at h
  simp only [PyM.pure_def, Except.ok.injEq, Prod.mk.injEq, fin_inj, decide_eq_true_eq] at h
  obtain ⟨rfl, h⟩ := h
  rw [inf_eq_right.mpr h]
  have hE := E_pos (A := 0.2) (by norm_num) (d3 H T c gb' gf gB' (k3 s bf)) R
  refine ⟨_, _, ?_, R_res hH hT hs0 hs hf hf1 hv hB hc hb hb1 hg0 (mul_pos hE hS) hp⟩
  refine inf_le_right.trans_lt ?_
  have h1 : E 0.2 (d3 H T c gb' gf gB' (k3 s bf)) R <
      E 0.2 (d3 H T c gb' gf gB' (k3 s bf)) R * Sc g H / Sc 9.81 H := by
    rw [lt_div_iff₀ hS']
    exact mul_lt_mul_of_pos_left hlt hE
  have := L_lt (A := 0.2) (by norm_num) hd3 hE h1
  rwa [L_E (by norm_num) hd3] at this

/-! ## C50 a higher crest never overtops more -/

/-- For every combination of options: a higher crest gives a strictly smaller, positive discharge. -/
theorem C50_decreasing (H T R R' gf gv s g : ℝ) (cot cd cu beta B db gB gb : PF)
    (bf : Bool) (hH : 0 < H) (hT : 0 < T) (hf : 0 < gf) (hf1 : gf ≤ 1) (hv : 0 < gv) (hs : -7 ≤ s)
    (hgB : OmittedOr (0 < ·) gB) (hgb : OmittedOr (fun r => 0 < r ∧ r ≤ 1) gb) (hg : 0 < g)
    (q : ℝ) (m : Bool) (hR : R < R')
    (h : (calculate_overtopping_discharge_q (fin H) (fin T) (fin R) cot cd cu beta B db gB gb
      (fin gf) (fin gv) (fin s) (fin g) bf).res = .ok (fin q, m)) :
    ∃ (q' : ℝ) (m' : Bool), 0 < q' ∧ q' < q ∧
      (calculate_overtopping_discharge_q (fin H) (fin T) (fin R') cot cd cu beta B db gB gb
        (fin gf) (fin gv) (fin s) (fin g) bf).res = .ok (fin q', m') := by
  obtain ⟨hs0, gB', c, gb', hB, hc, hb, hb1, hp⟩ := q_inv hH hT hgB hgb h
  have hS := Sc_pos hg hH
  have hA := A1_pos hH hT hc hb
  have hd1 := d1_pos hH hT hc hb hb1 hf hf1 hB hv (k1_pos hs hs0)
  have hd3 := d3_pos hH hT hc hb1 hf hf1 hB (k3_pos hs hs0)
  unfold calculate_overtopping_discharge_q at h ⊢
  rw [PyM.bind_res_of_ok (q_res hH hT hs0 hf hf1 hv hB hc hb hb1 hp)] at h ⊢
  dsimp only at h ⊢
  rw [Sc_eval hg hH, mul_fin] at h ⊢
  simp only [PyM.pure_def, Except.ok.injEq, Prod.mk.injEq, fin_inj] at h
  obtain ⟨rfl, rfl⟩ := h
  refine ⟨_, _, mul_pos (lt_min (E_pos hA _ _) (E_pos (by norm_num) _ _)) hS, ?_, rfl⟩
  exact mul_lt_mul_of_pos_right (min_lt_min (E_lt hA hd1 hR) (E_lt (by norm_num) hd3 hR)) hS

example : ∃ q q' : ℝ, ∃ m m' : Bool, 0 < q' ∧ q' < q ∧
    (calculate_overtopping_discharge_q (fin 2) (fin 6) (fin 3) (fin 3) nan nan (fin 30) (fin 4)
      (fin 0.5) nan nan (fin 0.8) (fin 1) (fin 1) (fin 9.81) true).res = .ok (fin q, m) ∧
    (calculate_overtopping_discharge_q (fin 2) (fin 6) (fin 3.5) (fin 3) nan nan (fin 30) (fin 4)
      (fin 0.5) nan nan (fin 0.8) (fin 1) (fin 1) (fin 9.81) true).res = .ok (fin q', m') := by
  obtain ⟨q, m, hq, h⟩ := (C49_straight_slope_returns 2 6 3 0.8 1 4 0.5 1 9.81 (fin 30) nan nan true
    (by norm_num) (by norm_num) (by norm_num) (by norm_num) (by norm_num) (by norm_num) (by norm_num)
    (by norm_num) (Or.inr rfl) (by norm_num) (Or.inl rfl) (Or.inl rfl) (Or.inr (by simp))).1 3
  obtain ⟨q', m', h1, h2, h3⟩ := C50_decreasing 2 6 3 3.5 0.8 1 1 9.81 _ _ _ _ _ _ _ _ true
    (by norm_num) (by norm_num) (by norm_num) (by norm_num) (by norm_num) (by norm_num)
    (Or.inl rfl) (Or.inl rfl) (by norm_num) q m (by norm_num) h
  exact ⟨q, q', m, m', h1, h2, h, h3⟩

/-! ## C74 no berm, no berm factor -/

/-- On a straight slope without a berm, leaving out the berm factor is the same as giving 1, for the
discharge and for the freeboard. -/
theorem C74_overtopping_without_berm_factor (H T x c gf gv db s g : ℝ) (beta gB : PF) (bf : Bool)
    (hH : 0 < H) (hT : 0 < T) (hc : 0 < c) (hf : 0 < gf) (hf1 : gf ≤ 1) (hv : 0 < gv) (hx : 0 < x)
    (hs : -7 ≤ s) (hs0 : s = 0 ∨ bf = true) (hg : 0 < g) (hgB : OmittedOr (0 < ·) gB)
    (hgiven : ¬ gB.isnan ∨ ¬ beta.isnan) :
    ∃ (q R : ℝ) (m m' : Bool), ∀ gb, gb = nan ∨ gb = fin 1 →
      (calculate_overtopping_discharge_q (fin H) (fin T) (fin x) (fin c) nan nan beta (fin 0)
        (fin db) gB gb (fin gf) (fin gv) (fin s) (fin g) bf).res = .ok (fin q, m) ∧
      (calculate_crest_freeboard_Rc (fin H) (fin T) (fin x) (fin c) nan nan beta (fin 0)
        (fin db) gB gb (fin gf) (fin gv) (fin s) (fin g) bf).res = .ok (fin R, m') := by
  obtain ⟨gB1, gb1, hB1, -, -, h1, -, hp1, -⟩ :=
    pre_straight (B := 0) (gb' := nan) (db := db) hH hT hc hf hf1 le_rfl hgB hgiven (Or.inl rfl)
  obtain rfl := h1 rfl rfl
  obtain ⟨gB2, gb2, hB2, -, -, -, h2, hp2, -⟩ :=
    pre_straight (B := 0) (gb' := fin 1) (db := db) hH hT hc hf hf1 le_rfl hgB hgiven
      (Or.inr ⟨1, rfl, by norm_num, le_rfl⟩)
  have h2 := h2 (by simp)
  simp only [fin_inj] at h2
  subst h2
  have hBB : gB1 = gB2 := by
    have key : ∀ {gb r : PF} {v : PF × PF × PF}, (pre (fin H) (fin T) (fin c) nan nan beta (fin 0) (fin db) gB gb
        (fin gf)).res = .ok v → ∃ cl, (RunupTaw2002.check_calculate_gamma_beta beta gB).res = .ok cl ∧
        v.1 = if cl then calculate_influence_oblique_waves_gamma_beta beta else gB := by
      intro gb r v hv
      unfold pre at hv
      obtain ⟨cl, hcl, hv, -⟩ := PyM.bind_inv hv
      dsimp only at hv
      obtain ⟨_, -, hv, -⟩ := PyM.bind_inv hv
      obtain ⟨_, -, hv, -⟩ := PyM.bind_inv hv
      obtain ⟨_, -, hv, -⟩ := PyM.bind_inv hv
      refine ⟨cl, hcl, ?_⟩
      simp only [PyM.pure_def, Except.ok.injEq] at hv
      rw [← hv]
    obtain ⟨c1, k1, k2⟩ := key (r := nan) hp1
    obtain ⟨c2, k3, k4⟩ := key (r := nan) hp2
    rw [k1] at k3
    cases k3
    rw [← k2] at k4
    simpa using k4.symm
  subst hBB
  obtain ⟨q, R, m, m', hall⟩ := both_of_pre (g := g) hH hT hs0 hs hf hf1 hv hB1 hc one_pos le_rfl hg hx
  refine ⟨q, R, m, m', fun gb hgb => hall _ _ _ _ _ _ _ _ ?_⟩
  rcases hgb with rfl | rfl
  · exact hp1
  · exact hp2

example : ∃ (q R : ℝ) (m m' : Bool), ∀ gb, gb = nan ∨ gb = fin 1 →
    (calculate_overtopping_discharge_q (fin 2) (fin 6) (fin 0.01) (fin 3) nan nan (fin 30) (fin 0)
      (fin 0) nan gb (fin 0.8) (fin 1) (fin 0) (fin 9.81) false).res = .ok (fin q, m) ∧
    (calculate_crest_freeboard_Rc (fin 2) (fin 6) (fin 0.01) (fin 3) nan nan (fin 30) (fin 0)
      (fin 0) nan gb (fin 0.8) (fin 1) (fin 0) (fin 9.81) false).res = .ok (fin R, m') :=
  C74_overtopping_without_berm_factor 2 6 0.01 3 0.8 1 0 0 9.81 _ _ false (by norm_num) (by norm_num)
    (by norm_num) (by norm_num) (by norm_num) (by norm_num) (by norm_num) (by norm_num) (Or.inl rfl)
    (by norm_num) (Or.inl rfl) (Or.inr (by simp))

/-! ## C75 two equal slopes are one slope -/

/-- A composite slope whose lower and upper parts are equally steep gives the same discharge and the
same freeboard as the straight slope, with or without a berm, for every combination of options. -/
theorem C75_overtopping_equal_slopes (H T x c gf gv B db s g k : ℝ) (beta gB gb : PF) (bf : Bool)
    (hH : 0 < H) (hT : 0 < T) (hc : 0 < c) (hf : 0 < gf) (hf1 : gf ≤ 1) (hv : 0 < gv) (hB : 0 ≤ B)
    (hx : 0 < x) (hs : -7 ≤ s) (hs0 : s = 0 ∨ bf = true) (hg : 0 < g)
    (hgB : OmittedOr (0 < ·) gB) (hgb : OmittedOr (fun r => 0 < r ∧ r ≤ 1) gb)
    (hgiven : ¬ gB.isnan ∨ ¬ beta.isnan)
    (hk : calculate_Iribarren_number_ksi (fin H) (fin T) (fin c) = fin k) (hk0 : 0.15 < k) :
    ∃ (q R : ℝ) (m m' : Bool), ∀ a : PF × PF × PF,
      a = (fin c, nan, nan) ∨ a = (nan, fin c, fin c) →
      (calculate_overtopping_discharge_q (fin H) (fin T) (fin x) a.1 a.2.1 a.2.2 beta (fin B)
        (fin db) gB gb (fin gf) (fin gv) (fin s) (fin g) bf).res = .ok (fin q, m) ∧
      (calculate_crest_freeboard_Rc (fin H) (fin T) (fin x) a.1 a.2.1 a.2.2 beta (fin B)
        (fin db) gB gb (fin gf) (fin gv) (fin s) (fin g) bf).res = .ok (fin R, m') := by
  rw [VdMProof.xi_eval hH hT hc] at hk
  simp only [fin_inj] at hk
  subst hk
  obtain ⟨gB', gb', hB', hb, hb1, -, -, hp1, hp2⟩ :=
    pre_straight (db := db) hH hT hc hf hf1 hB hgB hgiven hgb
  have hp2 := hp2 hk0
  obtain ⟨q, R, m, m', hall⟩ := both_of_pre (g := g) hH hT hs0 hs hf hf1 hv hB' hc hb hb1 hg hx
  refine ⟨q, R, m, m', fun a ha => hall _ _ _ _ _ _ _ _ ?_⟩
  rcases ha with rfl | rfl
  · exact hp1
  · exact hp2

end OvertoppingTawProofs
end
