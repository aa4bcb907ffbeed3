import Verif.Lemmas.OvertoppingEur
import Verif.Props.RunupTaw

/-!
# C50-C52: EurOtop 2007 and EurOtop 2018 wave overtopping
-/

open Classical
open PF CorePhysics CoreUtility
noncomputable section

namespace OvertoppingEurProofs
open TwoFormulas
open OvertoppingTaw2002 (Sc Sc_pos)

/-! ## C51 EurOtop 2007 -/
section
open OvertoppingEurOtop2007

/-- Discharge and freeboard undo each other at gravity 9.81, for every freeboard (also a submerged
crest), every wave period argument and every slope argument (also none). -/
theorem C51_inverse_partial (H gf c2 c3 : ℝ) (T beta gB cot : PF) (bf : Bool) (hH : 0 < H)
    (hf : 0 < gf) (hf1 : gf ≤ 1) (h2 : 0 < c2) (h3 : 0 < c3) (hgB : OmittedOr (0 < ·) gB)
    (hg : ¬ gB.isnan ∨ ¬ beta.isnan) :
    (∀ R : ℝ, ∃ q : ℝ, 0 < q ∧
      (calculate_overtopping_discharge_q_rubble_mound (fin H) T (fin R) beta gB (fin gf) cot (fin c2)
        (fin c3) bf).res = .ok (fin q) ∧
      (calculate_crest_freeboard_Rc_rubble_mound (fin H) T (fin q) beta gB (fin gf) cot (fin c2)
        (fin c3) bf).res = .ok (fin R)) ∧
    (∀ q : ℝ, 0 < q → ∃ R : ℝ,
      (calculate_crest_freeboard_Rc_rubble_mound (fin H) T (fin q) beta gB (fin gf) cot (fin c2)
        (fin c3) bf).res = .ok (fin R) ∧
      (calculate_overtopping_discharge_q_rubble_mound (fin H) T (fin R) beta gB (fin gf) cot (fin c2)
        (fin c3) bf).res = .ok (fin q)) := by
  obtain ⟨A, k, hA, hk, hq, hR⟩ := both (T := T) (cot := cot) bf hH hf hf1 h2 h3 hgB hg
  have h9 : (0 : ℝ) < 9.81 := by norm_num
  have hS := Sc_pos h9 hH
  constructor
  · intro R
    have h0 := mul_pos (E_pos hA k R) hS
    refine ⟨_, h0, hq R 9.81 h9, ?_⟩
    rw [hR _ h0, mul_div_cancel_right₀ _ hS.ne', L_E hA hk]
  · intro q h0
    refine ⟨_, hR q h0, ?_⟩
    refine (hq _ 9.81 h9).trans ?_
    rw [E_L hA hk (by positivity), div_mul_cancel₀ _ hS.ne']

example : ∃ q : ℝ, 0 < q ∧
    (OvertoppingEurOtop2007.calculate_overtopping_discharge_q_rubble_mound (fin 2) (fin 6) (fin 3)
      (fin 30) nan (fin 0.5) (fin 1.5) (fin 0.2) (fin 2.3)).res = .ok (fin q) ∧
    (OvertoppingEurOtop2007.calculate_crest_freeboard_Rc_rubble_mound (fin 2) (fin 6) (fin q)
      (fin 30) nan (fin 0.5) (fin 1.5) (fin 0.2) (fin 2.3)).res = .ok (fin 3) :=
  (C51_inverse_partial 2 0.5 0.2 2.3 (fin 6) (fin 30) nan (fin 1.5) false (by norm_num) (by norm_num)
    (by norm_num) (by norm_num) (by norm_num) (Or.inl rfl) (Or.inr (by simp))).1 3

/-- With any other gravity the claim fails for every input: the freeboard function has no gravity
argument, so what it returns is not the freeboard the discharge was computed for. -/
theorem C51_other_gravity_refuted (H R gf c2 c3 g : ℝ) (T beta gB cot : PF) (bf : Bool) (hH : 0 < H)
    (hf : 0 < gf) (hf1 : gf ≤ 1) (h2 : 0 < c2) (h3 : 0 < c3) (hgB : OmittedOr (0 < ·) gB)
    (hgv : ¬ gB.isnan ∨ ¬ beta.isnan) (hg : 0 < g) (hne : g ≠ 9.81) :
    ∃ q R' : ℝ, R' ≠ R ∧
      (calculate_overtopping_discharge_q_rubble_mound (fin H) T (fin R) beta gB (fin gf) cot (fin c2)
        (fin c3) bf (fin g)).res = .ok (fin q) ∧
      (calculate_crest_freeboard_Rc_rubble_mound (fin H) T (fin q) beta gB (fin gf) cot (fin c2)
        (fin c3) bf).res = .ok (fin R') := by
  obtain ⟨A, k, hA, hk, hq, hR⟩ := both (T := T) (cot := cot) bf hH hf hf1 h2 h3 hgB hgv
  have h9 : (0 : ℝ) < 9.81 := by norm_num
  have hS := Sc_pos h9 hH
  have hS' := Sc_pos hg hH
  have h0 := mul_pos (E_pos hA k R) hS'
  refine ⟨_, _, ?_, hq R g hg, hR _ h0⟩
  intro he
  have h1 : E A k (L A k (E A k R * Sc g H / Sc 9.81 H)) = E A k R := by rw [he]
  rw [E_L hA hk (by positivity), div_eq_iff hS.ne'] at h1
  have h2 := mul_left_cancel₀ (E_pos hA k R).ne' h1
  unfold OvertoppingTaw2002.Sc at h2
  rw [Real.sqrt_inj (by positivity) (by positivity)] at h2
  exact hne (mul_right_cancel₀ (by positivity) h2)

example : ∃ q R' : ℝ, R' ≠ 3 ∧
    (calculate_overtopping_discharge_q_rubble_mound (fin 2) (fin 6) (fin 3) (fin 30) nan (fin 0.5)
      (fin 1.5) (fin 0.2) (fin 2.3) false (fin 10)).res = .ok (fin q) ∧
    (calculate_crest_freeboard_Rc_rubble_mound (fin 2) (fin 6) (fin q) (fin 30) nan (fin 0.5)
      (fin 1.5) (fin 0.2) (fin 2.3) false).res = .ok (fin R') :=
  C51_other_gravity_refuted 2 3 0.5 0.2 2.3 10 _ _ _ _ false (by norm_num) (by norm_num)
    (by norm_num) (by norm_num) (by norm_num) (Or.inl rfl) (Or.inr (by simp)) (by norm_num)
    (by norm_num)

/-- EurOtop 2007: a higher crest gives a strictly smaller, positive discharge. -/
theorem C50_eurotop2007_decreasing (H R R' gf c2 c3 g : ℝ) (T beta gB cot : PF) (bf : Bool)
    (hH : 0 < H) (hf : 0 < gf) (hf1 : gf ≤ 1) (h2 : 0 < c2) (h3 : 0 < c3)
    (hgB : OmittedOr (0 < ·) gB) (hgv : ¬ gB.isnan ∨ ¬ beta.isnan) (hg : 0 < g) (hR : R < R') :
    ∃ q q' : ℝ, 0 < q' ∧ q' < q ∧
      (calculate_overtopping_discharge_q_rubble_mound (fin H) T (fin R) beta gB (fin gf) cot (fin c2)
        (fin c3) bf (fin g)).res = .ok (fin q) ∧
      (calculate_overtopping_discharge_q_rubble_mound (fin H) T (fin R') beta gB (fin gf) cot (fin c2)
        (fin c3) bf (fin g)).res = .ok (fin q') := by
  obtain ⟨A, k, hA, hk, hq, -⟩ := both (T := T) (cot := cot) bf hH hf hf1 h2 h3 hgB hgv
  have hS := Sc_pos hg hH
  exact ⟨_, _, mul_pos (E_pos hA k R') hS, mul_lt_mul_of_pos_right (E_lt hA hk hR) hS, hq R g hg,
    hq R' g hg⟩

example : ∃ q q' : ℝ, 0 < q' ∧ q' < q ∧
    (calculate_overtopping_discharge_q_rubble_mound (fin 2) (fin 6) (fin 3) (fin 30) nan (fin 0.5)
      nan (fin 0.2) (fin 2.3) true (fin 10)).res = .ok (fin q) ∧
    (calculate_overtopping_discharge_q_rubble_mound (fin 2) (fin 6) (fin 4) (fin 30) nan (fin 0.5)
      nan (fin 0.2) (fin 2.3) true (fin 10)).res = .ok (fin q') :=
  C50_eurotop2007_decreasing 2 3 4 0.5 0.2 2.3 10 _ _ _ _ true (by norm_num) (by norm_num)
    (by norm_num) (by norm_num) (by norm_num) (Or.inl rfl) (Or.inr (by simp)) (by norm_num)
    (by norm_num)
end

/-! ## C52 EurOtop 2018 -/
section
open OvertoppingEurOtop2018
open RunupTaw2002 (rough)

/-- EurOtop 2018: a higher crest gives a strictly smaller, positive discharge, for every combination
of options for which a number is returned. -/
theorem C50_eurotop2018_decreasing (H T R R' gf gv gs c1 c2 c3 c4 g : ℝ)
    (cot cd cu beta B db gB gb : PF) (bf : Bool) (hH : 0 < H) (hT : 0 < T) (hf : 0 < gf) (hf1 : gf ≤ 1)
    (hv : 0 < gv) (hs : 0 < gs) (h1 : 0 < c1) (h2 : 0 < c2) (h3 : 0 < c3) (h4 : 0 < c4)
    (hgB : OmittedOr (0 < ·) gB) (hg : 0 < g) (q : ℝ) (m : Bool) (hR : R < R')
    (h : (calculate_overtopping_discharge_q (fin H) (fin T) (fin R) beta gB gb (fin gf) (fin gv)
      (fin gs) B db cot cd cu (fin c1) (fin c2) (fin c3) (fin c4) bf (fin g)).res = .ok (fin q, m)) :
    ∃ (q' : ℝ) (m' : Bool), 0 < q' ∧ q' < q ∧
      (calculate_overtopping_discharge_q (fin H) (fin T) (fin R') beta gB gb (fin gf) (fin gv)
        (fin gs) B db cot cd cu (fin c1) (fin c2) (fin c3) (fin c4) bf (fin g)).res =
          .ok (fin q', m') := by
  obtain ⟨hR0, gB', c, gb', k1, k2, k3, k4, X, hp, hb⟩ :=
    q_inv hH hT hf hf1 hv hs h1 h2 h3 h4 hgB h
  have hS := Sc_pos hg hH
  rw [X.q_res hg hR0 hp hb] at h
  simp only [Except.ok.injEq, Prod.mk.injEq, fin_inj] at h
  obtain ⟨rfl, rfl⟩ := h
  refine ⟨_, _, mul_pos (lt_min (F_pos X.A _ _) (F_pos X.h2 _ _)) hS, ?_,
    X.q_res hg (hR0.trans hR.le) hp hb⟩
  exact mul_lt_mul_of_pos_right (min_lt_min (F_lt X.A X.d hR0 hR)
    (F_lt X.h2 (d3_pos hH hf X.hB hs X.h3) hR0 hR)) hS

/-- the internal statement behind the two inverse theorems -/
theorem there_and_back {h t gf gv gs gB c gb k1 k2 k3 k4 c1 c2 c3 c4 : ℝ} {bf : Bool}
    (X : Ctx h t gf gv gs gB c gb k1 k2 k3 k4 c1 c2 c3 c4 bf)
    (hr : rough gf gb (VdMProof.xi h t c) = gf) {cot cd cu beta B db gB' gb' : PF} {g : ℝ}
    (hg : 0 < g)
    (hp : (pre (fin h) (fin t) cot cd cu beta B db gB' (fin gf) bf).res = .ok (fin gB, fin c))
    (hp' : (pre (fin h) (fin t) cot cd cu beta B db gB' (fin gf) false).res = .ok (fin gB, fin c))
    (hb : (berm (fin h) (fin t) cd cu B db (fin gf) (fin gB, fin c)).res = .ok (fin gb)) :
    (∀ (R q : ℝ) (m : Bool), 0 ≤ R →
      (calculate_overtopping_discharge_q (fin h) (fin t) (fin R) beta gB' gb' (fin gf) (fin gv)
        (fin gs) B db cot cd cu (fin c1) (fin c2) (fin c3) (fin c4) bf (fin g)).res = .ok (fin q, m) →
      0 < q ∧ (calculate_crest_freeboard_Rc (fin h) (fin t) (fin q) beta gB' gb' (fin gf) (fin gv)
        (fin gs) B db cot cd cu (fin c1) (fin c2) (fin c3) (fin c4) bf (fin g)).res = .ok (fin R, m)) ∧
    (∀ (q R : ℝ) (m : Bool), 0 < q →
      (calculate_crest_freeboard_Rc (fin h) (fin t) (fin q) beta gB' gb' (fin gf) (fin gv)
        (fin gs) B db cot cd cu (fin c1) (fin c2) (fin c3) (fin c4) bf (fin g)).res = .ok (fin R, m) →
      0 ≤ R ∧ (calculate_overtopping_discharge_q (fin h) (fin t) (fin R) beta gB' gb' (fin gf) (fin gv)
        (fin gs) B db cot cd cu (fin c1) (fin c2) (fin c3) (fin c4) bf (fin g)).res =
          .ok (fin q, m)) := by
  have hS := Sc_pos hg X.h0
  have hd3 := d3_pos X.h0 X.hf X.hB X.hs X.h3
  constructor
  · intro R q m hR hq
    rw [X.q_res hg hR hp hb] at hq
    simp only [Except.ok.injEq, Prod.mk.injEq, fin_inj] at hq
    obtain ⟨rfl, rfl⟩ := hq
    have hy := lt_min (F_pos X.A (d1 h t c gb gf gB gv k1) R) (F_pos X.h2 (d3 h gf gB gs k3) R)
    refine ⟨mul_pos hy hS, ?_⟩
    rw [X.R_res hg (mul_pos hy hS) ?_ ?_ hp' hb, hr, mul_div_cancel_right₀ _ hS.ne']
    · obtain ⟨e1, e2⟩ := two_F X.A X.h2 X.d hd3 hR
      rw [e1]
      simp only [e2]
    · rw [mul_div_cancel_right₀ _ hS.ne']
      exact inf_le_left.trans (F_le_A X.A X.d hR)
    · rw [mul_div_cancel_right₀ _ hS.ne']
      exact inf_le_right.trans (F_le_A X.h2 hd3 hR)
  · intro q R m hq hR
    obtain ⟨r1, r2⟩ := X.R_range hg hq hp' hb hR
    rw [X.R_res hg hq r1 r2 hp' hb, hr] at hR
    simp only [Except.ok.injEq, Prod.mk.injEq, fin_inj] at hR
    obtain ⟨rfl, rfl⟩ := hR
    have hy : 0 < q / Sc g h := by positivity
    have h0 := le_inf (G_nonneg X.A X.d hy r1) (G_nonneg X.h2 hd3 hy r2)
    refine ⟨h0, ?_⟩
    rw [X.q_res hg h0 hp hb]
    obtain ⟨e1, e2⟩ := two_G X.A X.h2 X.d hd3 hy r1 r2
    rw [e1, div_mul_cancel₀ _ hS.ne']
    simp only [e2]

theorem rough_smooth (gb x : ℝ) : rough 1 gb x = 1 := by
  unfold rough
  split_ifs
  · norm_num
  · rfl

/-- Smooth slopes (roughness factor 1), for any gravity, slope description, berm and influence factors,
with design coefficients, user-supplied coefficients or (on a single slope) best-fit coefficients:
every discharge returned is positive and its freeboard is the one it was computed for, with the same
flag. -/
theorem C52_smooth_freeboard_of_discharge_partial (H T R gv gs c1 c2 c3 c4 g : ℝ)
    (cot cd cu beta B db gB gb : PF) (bf : Bool) (hH : 0 < H) (hT : 0 < T)
    (hv : 0 < gv) (hs : 0 < gs) (h1 : 0 < c1) (h2 : 0 < c2) (h3 : 0 < c3) (h4 : 0 < c4)
    (hgB : OmittedOr (0 < ·) gB) (hg : 0 < g) (hbf : bf = false ∨ cd = nan) (q : ℝ) (m : Bool)
    (h : (calculate_overtopping_discharge_q (fin H) (fin T) (fin R) beta gB gb (fin 1) (fin gv)
      (fin gs) B db cot cd cu (fin c1) (fin c2) (fin c3) (fin c4) bf (fin g)).res = .ok (fin q, m)) :
    0 < q ∧ (calculate_crest_freeboard_Rc (fin H) (fin T) (fin q) beta gB gb (fin 1) (fin gv)
      (fin gs) B db cot cd cu (fin c1) (fin c2) (fin c3) (fin c4) bf (fin g)).res =
        .ok (fin R, m) := by
  obtain ⟨hR0, gB', c, gb', k1, k2, k3, k4, X, hp, hb⟩ :=
    q_inv hH hT one_pos le_rfl hv hs h1 h2 h3 h4 hgB h
  have hp' : (pre (fin H) (fin T) cot cd cu beta B db gB (fin 1) false).res =
      .ok (fin gB', fin c) := by
    rcases hbf with rfl | rfl
    · exact hp
    · rw [pre_single] at hp; exact hp
  exact (there_and_back X (rough_smooth _ _) hg hp hp' hb).1 R q m hR0 h

/-- and every freeboard returned for a positive discharge is non-negative and has that discharge -/
theorem C52_smooth_discharge_of_freeboard_partial (H T q gv gs c1 c2 c3 c4 g : ℝ)
    (cot cd cu beta B db gB gb : PF) (bf : Bool) (hH : 0 < H) (hT : 0 < T)
    (hv : 0 < gv) (hs : 0 < gs) (h1 : 0 < c1) (h2 : 0 < c2) (h3 : 0 < c3) (h4 : 0 < c4)
    (hgB : OmittedOr (0 < ·) gB) (hg : 0 < g) (hbf : bf = false ∨ cd = nan) (R : ℝ) (m : Bool)
    (hq : 0 < q)
    (h : (calculate_crest_freeboard_Rc (fin H) (fin T) (fin q) beta gB gb (fin 1) (fin gv)
      (fin gs) B db cot cd cu (fin c1) (fin c2) (fin c3) (fin c4) bf (fin g)).res = .ok (fin R, m)) :
    0 ≤ R ∧ (calculate_overtopping_discharge_q (fin H) (fin T) (fin R) beta gB gb (fin 1) (fin gv)
      (fin gs) B db cot cd cu (fin c1) (fin c2) (fin c3) (fin c4) bf (fin g)).res =
        .ok (fin q, m) := by
  obtain ⟨gB', c, gb', k1, k2, k3, k4, X, hp, hb⟩ :=
    R_inv hH hT one_pos le_rfl hv hs h1 h2 h3 h4 hgB hg h
  have hp' : (pre (fin H) (fin T) cot cd cu beta B db gB (fin 1) bf).res =
      .ok (fin gB', fin c) := by
    rcases hbf with rfl | rfl
    · exact hp
    · rw [pre_single]; exact hp
  exact (there_and_back X (rough_smooth _ _) hg hp' hp hb).2 q R m hq h

/-- Rough straight slopes, when the breaker parameter is below 1.8 (or above 10 without a berm): the
functions return numbers for every non-negative freeboard, and for every positive discharge up to the
one at zero freeboard, and undo each other. -/
theorem C52_rough_straight_partial (H T c gf gv gs B db c1 c2 c3 c4 g k : ℝ) (beta gB gb : PF)
    (bf : Bool) (hH : 0 < H) (hT : 0 < T) (hc : 0 < c) (hf : 0 < gf) (hf1 : gf ≤ 1)
    (hv : 0 < gv) (hs : 0 < gs) (hB : 0 ≤ B) (h1 : 0 < c1) (h2 : 0 < c2) (h3 : 0 < c3) (h4 : 0 < c4)
    (hgB : OmittedOr (0 < ·) gB) (hgiven : ¬ gB.isnan ∨ ¬ beta.isnan) (hg : 0 < g)
    (hk : calculate_Iribarren_number_ksi (fin H) (fin T) (fin c) = fin k)
    (hrange : k < 1.8 ∨ (10 < k ∧ B = 0)) :
    (∀ R : ℝ, 0 ≤ R → ∃ (q : ℝ) (m : Bool), 0 < q ∧
      (calculate_overtopping_discharge_q (fin H) (fin T) (fin R) beta gB gb (fin gf) (fin gv)
        (fin gs) (fin B) (fin db) (fin c) nan nan (fin c1) (fin c2) (fin c3) (fin c4) bf
        (fin g)).res = .ok (fin q, m) ∧
      (calculate_crest_freeboard_Rc (fin H) (fin T) (fin q) beta gB gb (fin gf) (fin gv)
        (fin gs) (fin B) (fin db) (fin c) nan nan (fin c1) (fin c2) (fin c3) (fin c4) bf
        (fin g)).res = .ok (fin R, m)) ∧
    (∀ (q0 : ℝ) (m0 : Bool),
      (calculate_overtopping_discharge_q (fin H) (fin T) (fin 0) beta gB gb (fin gf) (fin gv)
        (fin gs) (fin B) (fin db) (fin c) nan nan (fin c1) (fin c2) (fin c3) (fin c4) bf
        (fin g)).res = .ok (fin q0, m0) →
      ∀ q : ℝ, 0 < q → q ≤ q0 → ∃ (R : ℝ) (m : Bool), 0 ≤ R ∧
      (calculate_crest_freeboard_Rc (fin H) (fin T) (fin q) beta gB gb (fin gf) (fin gv)
        (fin gs) (fin B) (fin db) (fin c) nan nan (fin c1) (fin c2) (fin c3) (fin c4) bf
        (fin g)).res = .ok (fin R, m) ∧
      (calculate_overtopping_discharge_q (fin H) (fin T) (fin R) beta gB gb (fin gf) (fin gv)
        (fin gs) (fin B) (fin db) (fin c) nan nan (fin c1) (fin c2) (fin c3) (fin c4) bf
        (fin g)).res = .ok (fin q, m)) := by
  rw [VdMProof.xi_eval hH hT hc] at hk
  simp only [fin_inj] at hk
  subst hk
  obtain ⟨gB', gb', hB0, hb6, hb1, hbz, hp, hb⟩ :=
    pre_straight (gf := gf) (db := db) bf hH hT hc hB hgB hgiven
  obtain ⟨k1, k2, k3, k4, g1, g2, g3, g4, hK⟩ := best_ok bf h1 h2 h3 h4
  have X : Ctx H T gf gv gs gB' c gb' k1 k2 k3 k4 c1 c2 c3 c4 bf :=
    ⟨hH, hT, hf, hf1, hv, hs, hB0, hc, by norm_num at hb6; linarith, hb1, g1, g2, g3, g4, hK⟩
  have hxi := VdMProof.xi_pos hH hT hc
  have hr : rough gf gb' (VdMProof.xi H T c) = gf := by
    unfold RunupTaw2002.rough
    rw [if_neg]
    rintro ⟨r1, r2⟩
    rcases hrange with hr | ⟨hr, rfl⟩
    · have : gb' * VdMProof.xi H T c ≤ VdMProof.xi H T c := by nlinarith
      linarith
    · rw [hbz rfl] at r2
      linarith
  have hp' := hp
  rw [pre_single] at hp'
  obtain ⟨t1, t2⟩ := there_and_back (gb' := gb) X hr hg hp hp' hb
  constructor
  · intro R hR
    have := X.q_res (gb' := gb) hg hR hp hb
    obtain ⟨q0, h⟩ := t1 _ _ _ hR this
    exact ⟨_, _, q0, this, h⟩
  · intro q0 m0 hq0 q hq hle
    have hS := Sc_pos hg hH
    rw [X.q_res (gb' := gb) hg le_rfl hp hb] at hq0
    simp only [Except.ok.injEq, Prod.mk.injEq, fin_inj] at hq0
    obtain ⟨rfl, -⟩ := hq0
    rw [← div_le_iff₀ hS] at hle
    have r1 := (hle.trans inf_le_left).trans (F_le_A X.A X.d le_rfl)
    have r2 := (hle.trans inf_le_right).trans (F_le_A X.h2 (d3_pos hH hf hB0 hs g3) le_rfl)
    have := X.R_res (gb' := gb) hg hq r1 r2 hp' hb
    obtain ⟨h0, h⟩ := t2 _ _ _ hq this
    exact ⟨_, _, h0, this, h⟩

/-- Where the roughness correction is active the claim fails: on every slope of 1:1 or gentler with
breaker parameter from 4 to 10, roughness factor below 1 and no berm, the freeboard returned for a
discharge is strictly above the one the discharge was computed for (the discharge is limited with the
roughness factor as given, the freeboard with the corrected one). -/
theorem C52_rough_slope_refuted (H T R c gf db g k : ℝ) (beta gB gb : PF)
    (hH : 0 < H) (hT : 0 < T) (hR : 0 < R) (hc : 1 ≤ c) (hf : 0 < gf) (hf1 : gf < 1)
    (hgB : OmittedOr (0 < ·) gB) (hgiven : ¬ gB.isnan ∨ ¬ beta.isnan) (hg : 0 < g)
    (hk : calculate_Iribarren_number_ksi (fin H) (fin T) (fin c) = fin k) (hk4 : 4 ≤ k)
    (hk10 : k ≤ 10) :
    ∃ (q R' : ℝ) (m' : Bool), R < R' ∧
      (calculate_overtopping_discharge_q (fin H) (fin T) (fin R) beta gB gb (fin gf) (fin 1) (fin 1)
        (fin 0) (fin db) (fin c) nan nan (g := fin g)).res = .ok (fin q, true) ∧
      (calculate_crest_freeboard_Rc (fin H) (fin T) (fin q) beta gB gb (fin gf) (fin 1) (fin 1)
        (fin 0) (fin db) (fin c) nan nan (g := fin g)).res = .ok (fin R', m') := by
  have hc0 : 0 < c := by linarith
  rw [VdMProof.xi_eval hH hT hc0] at hk
  simp only [fin_inj] at hk
  subst hk
  obtain ⟨gB', gb', hB0, hb6, hb1, hbz, hp, hb⟩ :=
    pre_straight (gf := gf) (db := db) (B := 0) false hH hT hc0 le_rfl hgB hgiven
  obtain rfl := hbz rfl
  have X : Ctx H T gf 1 1 gB' c 1 2.5 0.1035 1.35 0.026 2.5 0.1035 1.35 0.026 false :=
    ⟨hH, hT, hf, hf1.le, one_pos, one_pos, hB0, hc0, one_pos, le_rfl, by norm_num, by norm_num,
      by norm_num, by norm_num, rfl⟩
  have hS := Sc_pos hg hH
  set x := VdMProof.xi H T c with hx
  have hx0 : 0 < x := VdMProof.xi_pos hH hT hc0
  have hrr : gf < rough gf 1 x := by
    unfold RunupTaw2002.rough
    rw [if_pos ⟨by norm_num; linarith, by linarith⟩]
    have : 0 < (x - 1.8) * (1 - gf) / 8.2 := by
      have : 0 < x - 1.8 := by norm_num; linarith
      have : 0 < 1 - gf := by linarith
      positivity
    linarith
  have hr0 := X.r
  rw [← hx] at hr0
  have hd3 := d3_pos hH hf hB0 (one_pos : (0 : ℝ) < 1) X.h3
  have hd3' := d3_pos hH hr0 hB0 (one_pos : (0 : ℝ) < 1) X.h3
  have hA : 0.1035 < A1 H T c 1 0.026 := by
    unfold A1
    rw [← hx, VdMProof.one_sci]
    have h1 : √(1 / c) ≤ 1 := Real.sqrt_le_one.mpr ((div_le_one hc0).mpr hc)
    have h2 : 0 < √(1 / c) := by positivity
    have h3 : (0.026 : ℝ) ≤ 0.026 / √(1 / c) := by
      rw [le_div_iff₀ h2]
      exact mul_le_of_le_one_right (by norm_num) h1
    have : (0.026 : ℝ) * 4 ≤ 0.026 / √(1 / c) * x := mul_le_mul h3 hk4 (by norm_num) (by positivity)
    rw [mul_one]
    norm_num at this ⊢
    linarith
  have hd : d1 H T c 1 gf gB' 1 2.5 ≤ d3 H gf gB' 1 1.35 := by
    unfold d1 d3
    rw [← hx]
    have : H * (gf * gB' * 1) * 4 ≤ H * (x * 1 * rough gf 1 x * gB' * 1) := by
      have : gf * 4 ≤ x * rough gf 1 x := by nlinarith
      have := mul_le_mul_of_nonneg_left this (show 0 ≤ H * gB' by positivity)
      nlinarith
    rw [div_le_div_iff₀ (by positivity) (by positivity)]
    have h0 : 0 < H * (gf * gB' * 1) := by positivity
    norm_num at this h0 ⊢
    linarith
  have hlt : F 0.1035 (d3 H gf gB' 1 1.35) R < F (A1 H T c 1 0.026) (d1 H T c 1 gf gB' 1 2.5) R := by
    unfold F
    refine mul_lt_mul hA (Real.exp_le_exp.mpr (neg_le_neg ?_)) (Real.exp_pos _) X.A.le
    have h0 := X.d
    exact Real.rpow_le_rpow (by positivity) (mul_le_mul_of_nonneg_right hd hR.le) (by norm_num)
  have hq := X.q_res (gb' := gb) hg hR.le hp hb
  rw [inf_eq_right.mpr hlt.le] at hq
  have hF := F_pos (A := 0.1035) (by norm_num) (d3 H gf gB' 1 1.35) R
  have hFle := F_le_A X.h2 hd3 hR.le
  have hR' := X.R_res (gb' := gb) hg (mul_pos hF hS)
    (by rw [mul_div_cancel_right₀ _ hS.ne']; exact hFle.trans hA.le)
    (by rw [mul_div_cancel_right₀ _ hS.ne']; exact hFle) hp hb
  rw [mul_div_cancel_right₀ _ hS.ne'] at hR'
  rw [decide_eq_true hlt.le] at hq
  refine ⟨_, _, _, ?_, hq, hR'⟩
  refine lt_min ?_ ?_
  · have := G_lt X.A X.d hF hlt (F_le_A X.A X.d hR.le)
    rwa [G_F X.A X.d hR.le] at this
  · have h1 := G_F X.h2 hd3 hR.le
    have h2 : d3 H (rough gf 1 x) gB' 1 1.35 < d3 H gf gB' 1 1.35 := by
      unfold d3
      refine div_lt_div_of_pos_left (by norm_num) (by positivity) ?_
      have : gf * (H * gB') < rough gf 1 x * (H * gB') := mul_lt_mul_of_pos_right hrr (by positivity)
      linarith
    unfold G at h1 ⊢
    rw [div_eq_iff hd3.ne'] at h1
    rw [h1, lt_div_iff₀ hd3']
    exact mul_lt_mul_of_pos_left h2 hR

/-- A berm factor supplied by the user has no effect on either function. -/
theorem C52_berm_factor_ignored_refuted (H T x beta gB gb gb' gf gv gs B db cot cd cu c1 c2 c3 c4 g : PF)
    (bf : Bool) :
    calculate_overtopping_discharge_q H T x beta gB gb gf gv gs B db cot cd cu c1 c2 c3 c4 bf g =
      calculate_overtopping_discharge_q H T x beta gB gb' gf gv gs B db cot cd cu c1 c2 c3 c4 bf g ∧
    calculate_crest_freeboard_Rc H T x beta gB gb gf gv gs B db cot cd cu c1 c2 c3 c4 bf g =
      calculate_crest_freeboard_Rc H T x beta gB gb' gf gv gs B db cot cd cu c1 c2 c3 c4 bf g :=
  ⟨rfl, rfl⟩

/-! ### examples -/

theorem xi_between {H T c lo hi : ℝ} (hH : 0 < H) (hT : 0 < T) (hc : 0 < c) (hlo : 0 < lo)
    (hhi : 0 < hi) (h1 : 2 * 4 / 9.81 * H / T ^ 2 ≤ (1 / c / lo) ^ 2)
    (h2 : (1 / c / hi) ^ 2 ≤ 2 * 2 / 9.81 * H / T ^ 2) :
    lo ≤ VdMProof.xi H T c ∧ VdMProof.xi H T c ≤ hi := by
  have p1 := Real.two_le_pi
  have p2 := Real.pi_le_four
  have e : ∀ x : ℝ, 2 * x / 9.81 * H / T ^ 2 = x * (2 * H / (9.81 * T ^ 2)) := by
    intro x; field_simp
  have hpos : 0 < 2 * H / (9.81 * T ^ 2) := by positivity
  rw [e] at h1 h2
  unfold VdMProof.xi
  rw [e, VdMProof.one_sci]
  have hs : 0 < √(Real.pi * (2 * H / (9.81 * T ^ 2))) := by
    have := Real.pi_pos
    positivity
  constructor
  · rw [le_div_iff₀ hs, mul_comm, ← le_div_iff₀ hlo]
    refine Real.sqrt_le_iff.mpr ⟨by positivity, le_trans ?_ h1⟩
    exact mul_le_mul_of_nonneg_right p2 hpos.le
  · rw [div_le_iff₀ hs, mul_comm, ← div_le_iff₀ hhi]
    refine Real.le_sqrt_of_sq_le (h2.trans ?_)
    exact mul_le_mul_of_nonneg_right p1 hpos.le

/-- a rough 1:4 slope with a berm -/
example : ∃ (q : ℝ) (m : Bool), 0 < q ∧
    (calculate_overtopping_discharge_q (fin 2) (fin 6) (fin 1) (fin 30) nan nan (fin 0.8) (fin 1)
      (fin 1) (fin 4) (fin 0.5) (fin 4) nan nan (fin 2.5) (fin 0.1035) (fin 1.35) (fin 0.026) true
      (fin 9.81)).res = .ok (fin q, m) ∧
    (calculate_crest_freeboard_Rc (fin 2) (fin 6) (fin q) (fin 30) nan nan (fin 0.8) (fin 1)
      (fin 1) (fin 4) (fin 0.5) (fin 4) nan nan (fin 2.5) (fin 0.1035) (fin 1.35) (fin 0.026) true
      (fin 9.81)).res = .ok (fin 1, m) :=
  (C52_rough_straight_partial 2 6 4 0.8 1 1 4 0.5 2.5 0.1035 1.35 0.026 9.81 _ (fin 30) nan nan true
    (by norm_num) (by norm_num) (by norm_num) (by norm_num) (by norm_num) (by norm_num) (by norm_num)
    (by norm_num) (by norm_num) (by norm_num) (by norm_num) (by norm_num) (Or.inl rfl)
    (Or.inr (by simp)) (by norm_num) (VdMProof.xi_eval (by norm_num) (by norm_num) (by norm_num))
    (Or.inl (lt_of_le_of_lt (xi_between (lo := 1) (hi := 1.7) (by norm_num) (by norm_num)
      (by norm_num) (by norm_num) (by norm_num) (by norm_num) (by norm_num)).2 (by norm_num)))).1 1
    (by norm_num)

/-- a smooth 1:4 slope with a berm: the hypotheses of the two smooth theorems and of the monotone
theorem are met -/
example : ∃ (q q' : ℝ) (m m' : Bool), 0 < q' ∧ q' < q ∧
    (calculate_overtopping_discharge_q (fin 2) (fin 6) (fin 1) (fin 30) nan nan (fin 1) (fin 1)
      (fin 1) (fin 4) (fin 0.5) (fin 4) nan nan (fin 2.5) (fin 0.1035) (fin 1.35) (fin 0.026) false
      (fin 9.81)).res = .ok (fin q, m) ∧
    (calculate_overtopping_discharge_q (fin 2) (fin 6) (fin 2) (fin 30) nan nan (fin 1) (fin 1)
      (fin 1) (fin 4) (fin 0.5) (fin 4) nan nan (fin 2.5) (fin 0.1035) (fin 1.35) (fin 0.026) false
      (fin 9.81)).res = .ok (fin q', m') ∧
    (calculate_crest_freeboard_Rc (fin 2) (fin 6) (fin q') (fin 30) nan nan (fin 1) (fin 1)
      (fin 1) (fin 4) (fin 0.5) (fin 4) nan nan (fin 2.5) (fin 0.1035) (fin 1.35) (fin 0.026) false
      (fin 9.81)).res = .ok (fin 2, m') := by
  obtain ⟨q, m, hq, h, -⟩ :=
    (C52_rough_straight_partial 2 6 4 1 1 1 4 0.5 2.5 0.1035 1.35 0.026 9.81 _ (fin 30) nan nan false
    (by norm_num) (by norm_num) (by norm_num) (by norm_num) (by norm_num) (by norm_num) (by norm_num)
    (by norm_num) (by norm_num) (by norm_num) (by norm_num) (by norm_num) (Or.inl rfl)
    (Or.inr (by simp)) (by norm_num) (VdMProof.xi_eval (by norm_num) (by norm_num) (by norm_num))
    (Or.inl (lt_of_le_of_lt (xi_between (lo := 1) (hi := 1.7) (by norm_num) (by norm_num)
      (by norm_num) (by norm_num) (by norm_num) (by norm_num) (by norm_num)).2 (by norm_num)))).1 1
    (by norm_num)
  obtain ⟨q', m', h1, h2, h3⟩ := C50_eurotop2018_decreasing 2 6 1 2 1 1 1 2.5 0.1035 1.35 0.026 9.81
    _ _ _ _ _ _ _ _ false (by norm_num) (by norm_num) (by norm_num) (by norm_num) (by norm_num)
    (by norm_num) (by norm_num) (by norm_num) (by norm_num) (by norm_num) (Or.inl rfl) (by norm_num)
    q m (by norm_num) h
  exact ⟨q, q', m, m', h1, h2, h, h3, (C52_smooth_freeboard_of_discharge_partial 2 6 2 1 1 2.5 0.1035
    1.35 0.026 9.81 _ _ _ _ _ _ _ _ false (by norm_num) (by norm_num) (by norm_num) (by norm_num)
    (by norm_num) (by norm_num) (by norm_num) (by norm_num) (Or.inl rfl) (by norm_num) (Or.inl rfl)
    q' m' h3).2⟩

/-- long waves on a rough 1:2 slope: the freeboard does not come back -/
example : ∃ (q R' : ℝ) (m' : Bool), 3 < R' ∧
    (calculate_overtopping_discharge_q (fin 1) (fin 12) (fin 3) (fin 0) nan nan (fin 0.5) (fin 1)
      (fin 1) (fin 0) (fin 0) (fin 2) nan nan (g := fin 9.81)).res = .ok (fin q, true) ∧
    (calculate_crest_freeboard_Rc (fin 1) (fin 12) (fin q) (fin 0) nan nan (fin 0.5) (fin 1) (fin 1)
      (fin 0) (fin 0) (fin 2) nan nan (g := fin 9.81)).res = .ok (fin R', m') := by
  obtain ⟨x1, x2⟩ := xi_between (H := 1) (T := 12) (c := 2) (lo := 4) (hi := 10) (by norm_num)
    (by norm_num) (by norm_num) (by norm_num) (by norm_num) (by norm_num) (by norm_num)
  exact C52_rough_slope_refuted 1 12 3 2 0.5 0 9.81 _ (fin 0) nan nan (by norm_num) (by norm_num)
    (by norm_num) (by norm_num) (by norm_num) (by norm_num) (Or.inl rfl) (Or.inr (by simp))
    (by norm_num) (VdMProof.xi_eval (by norm_num) (by norm_num) (by norm_num)) x1 x2

/-! ### rubble mound -/

theorem rubble {h t gf c2 c3 : ℝ} {cot cd cu beta B db gB' : PF} {bf : Bool} {p : PF × PF}
    (h0 : 0 < h) (hf : 0 < gf) (hf1 : gf ≤ 1) (h2 : 0 < c2) (h3 : 0 < c3)
    (hgB : OmittedOr (0 < ·) gB')
    (hp : (pre (fin h) (fin t) cot cd cu beta B db gB' (fin gf) bf).res = .ok p)
    (hp' : (pre (fin h) (fin t) cot cd cu beta B db gB' (fin gf) false).res = .ok p) :
    ∃ A k : ℝ, 0 < A ∧ 0 < k ∧
    (∀ R g : ℝ, 0 < g → (calculate_overtopping_discharge_q_rubble_mound (fin h) (fin t) (fin R) beta
      gB' (fin gf) B db cot cd cu (fin c2) (fin c3) bf (fin g)).res =
        .ok (if 0 ≤ R then fin (F A k R * Sc g h) else nan)) ∧
    (∀ q g : ℝ, 0 < q → 0 < g → (calculate_crest_freeboard_Rc_rubble_mound (fin h) (fin t) (fin q) beta
      gB' (fin gf) B db cot cd cu (fin c2) (fin c3) bf (fin g)).res =
        .ok (if q / Sc g h ≤ A then fin (G A k (q / Sc g h)) else nan)) := by
  obtain ⟨gB, e1, hB⟩ := pre_inv hgB hp
  obtain ⟨p1, ca⟩ := p
  dsimp only at e1
  subst e1
  obtain ⟨r, hr, e4, -⟩ := RunupTaw2002.rough_any hf hf1
    (calculate_Iribarren_number_ksi (fin h) (fin t) ca)
  obtain ⟨a, k, ha, hk, hK⟩ : ∃ a k : ℝ, 0 < a ∧ 0 < k ∧
      (check_best_fit nan (fin c2) (fin c3) nan bf).2.1 = fin a ∧
      (check_best_fit nan (fin c2) (fin c3) nan bf).2.2.1 = fin k := by
    cases bf
    · exact ⟨c2, c3, h2, h3, rfl, rfl⟩
    · exact ⟨0.09, 1.5, by norm_num, by norm_num, rfl, rfl⟩
  have e1 : (1.0 : PF) = fin 1 := by rw [sci_eq]; norm_num
  have hv : ∀ {α : Type} (m : PyM α), (check_validity_range_rubble_mound ca >>= fun _ => m).res =
      m.res := by
    intro α m
    unfold check_validity_range_rubble_mound
    simp
  refine ⟨a, k / (h * (r * gB * 1)), ha, by positivity, fun R g hg => ?_, fun q g hq hg => ?_⟩
  · rw [qr_split, PyM.bind_res_of_ok hp]
    dsimp only
    rw [hK.1, hK.2, hv, e4, e1, qmax_eval h0 hr hB one_pos hk, OvertoppingTaw2002.Sc_eval hg h0]
    split_ifs
    · rw [mul_fin]; rfl
    · rw [nan_mul]; rfl
  · rw [Rr_split, PyM.bind_res_of_ok hp']
    dsimp only
    rw [hK.1, hK.2, hv, e4, e1, Rmax_eval h0 hr hB one_pos hk ha hq hg]
    split_ifs
    · rw [mul_fin, div_mul_cancel₀ _ h0.ne']; rfl
    · rw [nan_mul]; rfl

theorem pre_of_q {h t gf c2 c3 g : ℝ} {R cot cd cu beta B db gB' v : PF} {bf : Bool}
    (hr : (calculate_overtopping_discharge_q_rubble_mound (fin h) (fin t) R beta gB' (fin gf) B db
      cot cd cu (fin c2) (fin c3) bf (fin g)).res = .ok v) :
    ∃ p, (pre (fin h) (fin t) cot cd cu beta B db gB' (fin gf) bf).res = .ok p := by
  rw [qr_split] at hr
  obtain ⟨p, hp, -⟩ := PyM.bind_inv hr
  exact ⟨p, hp⟩

theorem pre_of_R {h t gf c2 c3 g : ℝ} {q cot cd cu beta B db gB' v : PF} {bf : Bool}
    (hr : (calculate_crest_freeboard_Rc_rubble_mound (fin h) (fin t) q beta gB' (fin gf) B db
      cot cd cu (fin c2) (fin c3) bf (fin g)).res = .ok v) :
    ∃ p, (pre (fin h) (fin t) cot cd cu beta B db gB' (fin gf) false).res = .ok p := by
  rw [Rr_split] at hr
  obtain ⟨p, hp, -⟩ := PyM.bind_inv hr
  exact ⟨p, hp⟩

/-- Rubble mounds: for any roughness factor, gravity, slope description and berm (best-fit
coefficients only on a single slope), every discharge returned is positive and its freeboard is the
one it was computed for. -/
theorem C52_rubble_freeboard_of_discharge_partial (H T R gf c2 c3 g : ℝ)
    (cot cd cu beta B db gB : PF) (bf : Bool) (hH : 0 < H) (hf : 0 < gf) (hf1 : gf ≤ 1)
    (h2 : 0 < c2) (h3 : 0 < c3) (hgB : OmittedOr (0 < ·) gB) (hg : 0 < g)
    (hbf : bf = false ∨ cd = nan) (q : ℝ)
    (h : (calculate_overtopping_discharge_q_rubble_mound (fin H) (fin T) (fin R) beta gB (fin gf) B
      db cot cd cu (fin c2) (fin c3) bf (fin g)).res = .ok (fin q)) :
    0 < q ∧ (calculate_crest_freeboard_Rc_rubble_mound (fin H) (fin T) (fin q) beta gB (fin gf) B
      db cot cd cu (fin c2) (fin c3) bf (fin g)).res = .ok (fin R) := by
  obtain ⟨p, hp⟩ := pre_of_q h
  have hp' : (pre (fin H) (fin T) cot cd cu beta B db gB (fin gf) false).res = .ok p := by
    rcases hbf with rfl | rfl
    · exact hp
    · rw [pre_single] at hp; exact hp
  obtain ⟨A, k, hA, hk, hq, hR⟩ := rubble hH hf hf1 h2 h3 hgB hp hp'
  have hS := Sc_pos hg hH
  rw [hq R g hg] at h
  split_ifs at h with h0
  · simp only [Except.ok.injEq, fin_inj] at h
    subst h
    have := mul_pos (F_pos hA k R) hS
    refine ⟨this, ?_⟩
    rw [hR _ g this hg, mul_div_cancel_right₀ _ hS.ne', if_pos (F_le_A hA hk h0), G_F hA hk h0]
  · cases h

/-- Rubble mounds, the other way: every freeboard returned for a positive discharge is non-negative
and has that discharge. -/
theorem C52_rubble_discharge_of_freeboard_partial (H T q gf c2 c3 g : ℝ)
    (cot cd cu beta B db gB : PF) (bf : Bool) (hH : 0 < H) (hf : 0 < gf) (hf1 : gf ≤ 1)
    (h2 : 0 < c2) (h3 : 0 < c3) (hgB : OmittedOr (0 < ·) gB) (hg : 0 < g)
    (hbf : bf = false ∨ cd = nan) (R : ℝ) (hq0 : 0 < q)
    (h : (calculate_crest_freeboard_Rc_rubble_mound (fin H) (fin T) (fin q) beta gB (fin gf) B
      db cot cd cu (fin c2) (fin c3) bf (fin g)).res = .ok (fin R)) :
    0 ≤ R ∧ (calculate_overtopping_discharge_q_rubble_mound (fin H) (fin T) (fin R) beta gB (fin gf) B
      db cot cd cu (fin c2) (fin c3) bf (fin g)).res = .ok (fin q) := by
  obtain ⟨p, hp⟩ := pre_of_R h
  have hp' : (pre (fin H) (fin T) cot cd cu beta B db gB (fin gf) bf).res = .ok p := by
    rcases hbf with rfl | rfl
    · exact hp
    · rw [pre_single]; exact hp
  obtain ⟨A, k, hA, hk, hq, hR⟩ := rubble hH hf hf1 h2 h3 hgB hp' hp
  have hS := Sc_pos hg hH
  rw [hR q g hq0 hg] at h
  split_ifs at h with h0
  · simp only [Except.ok.injEq, fin_inj] at h
    subst h
    have hy : 0 < q / Sc g H := by positivity
    have := G_nonneg hA hk hy h0
    refine ⟨this, ?_⟩
    rw [hq _ g hg, if_pos this, F_G hA hk hy h0, div_mul_cancel₀ _ hS.ne']
  · cases h

/-- Rubble mounds: a higher crest gives a strictly smaller, positive discharge. -/
theorem C50_eurotop2018_rubble_decreasing (H T R R' gf c2 c3 g : ℝ)
    (cot cd cu beta B db gB : PF) (bf : Bool) (hH : 0 < H) (hf : 0 < gf) (hf1 : gf ≤ 1)
    (h2 : 0 < c2) (h3 : 0 < c3) (hgB : OmittedOr (0 < ·) gB) (hg : 0 < g)
    (hbf : bf = false ∨ cd = nan) (q : ℝ) (hR : R < R')
    (h : (calculate_overtopping_discharge_q_rubble_mound (fin H) (fin T) (fin R) beta gB (fin gf) B
      db cot cd cu (fin c2) (fin c3) bf (fin g)).res = .ok (fin q)) :
    ∃ q' : ℝ, 0 < q' ∧ q' < q ∧
      (calculate_overtopping_discharge_q_rubble_mound (fin H) (fin T) (fin R') beta gB (fin gf) B
        db cot cd cu (fin c2) (fin c3) bf (fin g)).res = .ok (fin q') := by
  obtain ⟨p, hp⟩ := pre_of_q h
  have hp' : (pre (fin H) (fin T) cot cd cu beta B db gB (fin gf) false).res = .ok p := by
    rcases hbf with rfl | rfl
    · exact hp
    · rw [pre_single] at hp; exact hp
  obtain ⟨A, k, hA, hk, hq, -⟩ := rubble hH hf hf1 h2 h3 hgB hp hp'
  have hS := Sc_pos hg hH
  rw [hq R g hg] at h
  split_ifs at h with h0
  · simp only [Except.ok.injEq, fin_inj] at h
    subst h
    refine ⟨_, mul_pos (F_pos hA k R') hS, mul_lt_mul_of_pos_right (F_lt hA hk h0 hR) hS, ?_⟩
    rw [hq R' g hg, if_pos (h0.trans hR.le)]
  · cases h

/-- A straight slope: the rubble mound discharge is a number for every non-negative freeboard. -/
theorem C52_rubble_returns (H T R c gf c2 c3 g B db : ℝ) (beta gB : PF) (bf : Bool) (hH : 0 < H)
    (hT : 0 < T) (hc : 0 < c) (hf : 0 < gf) (hf1 : gf ≤ 1) (h2 : 0 < c2) (h3 : 0 < c3) (hB : 0 ≤ B)
    (hgB : OmittedOr (0 < ·) gB) (hgiven : ¬ gB.isnan ∨ ¬ beta.isnan) (hg : 0 < g) (hR : 0 ≤ R) :
    ∃ q : ℝ, 0 < q ∧
      (calculate_overtopping_discharge_q_rubble_mound (fin H) (fin T) (fin R) beta gB (fin gf)
        (fin B) (fin db) (fin c) nan nan (fin c2) (fin c3) bf (fin g)).res = .ok (fin q) := by
  obtain ⟨gB', gb', hB0, -, -, -, hp, -⟩ :=
    pre_straight (gf := gf) (db := db) bf hH hT hc hB hgB hgiven
  have hp' := hp
  rw [pre_single] at hp'
  obtain ⟨A, k, hA, hk, hq, -⟩ := rubble hH hf hf1 h2 h3 hgB hp hp'
  refine ⟨_, mul_pos (F_pos hA k R) (Sc_pos hg hH), ?_⟩
  rw [hq R g hg, if_pos hR]

example : ∃ q q' : ℝ, 0 < q' ∧ q' < q ∧
    (calculate_overtopping_discharge_q_rubble_mound (fin 2) (fin 6) (fin 3) (fin 30) nan (fin 0.5)
      (fin 0) (fin 0) (fin 1.5) nan nan (fin 0.1035) (fin 1.35) true (fin 9.81)).res = .ok (fin q) ∧
    (calculate_overtopping_discharge_q_rubble_mound (fin 2) (fin 6) (fin 4) (fin 30) nan (fin 0.5)
      (fin 0) (fin 0) (fin 1.5) nan nan (fin 0.1035) (fin 1.35) true (fin 9.81)).res = .ok (fin q') ∧
    (calculate_crest_freeboard_Rc_rubble_mound (fin 2) (fin 6) (fin q) (fin 30) nan (fin 0.5)
      (fin 0) (fin 0) (fin 1.5) nan nan (fin 0.1035) (fin 1.35) true (fin 9.81)).res =
        .ok (fin 3) := by
  obtain ⟨q, -, h⟩ := C52_rubble_returns 2 6 3 1.5 0.5 0.1035 1.35 9.81 0 0 (fin 30) nan true
    (by norm_num) (by norm_num) (by norm_num) (by norm_num) (by norm_num) (by norm_num) (by norm_num)
    (by norm_num) (Or.inl rfl) (Or.inr (by simp)) (by norm_num) (by norm_num)
  obtain ⟨q', h1, h2, h3⟩ := C50_eurotop2018_rubble_decreasing 2 6 3 4 0.5 0.1035 1.35 9.81 _ _ _ _ _ _ _
    true (by norm_num) (by norm_num) (by norm_num) (by norm_num) (by norm_num) (Or.inl rfl)
    (by norm_num) (Or.inr rfl) q (by norm_num) h
  exact ⟨q, q', h1, h2, h, h3, (C52_rubble_freeboard_of_discharge_partial 2 6 3 0.5 0.1035 1.35 9.81
    _ _ _ _ _ _ _ true (by norm_num) (by norm_num) (by norm_num) (by norm_num) (by norm_num)
    (Or.inl rfl) (by norm_num) (Or.inr rfl) q h).2⟩
end

end OvertoppingEurProofs
end
