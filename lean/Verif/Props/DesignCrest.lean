import Verif.SpecDesign
import Verif.Props.OvertoppingTaw
import Verif.Props.OvertoppingEur
import Verif.Props.OvertoppingMore

/-! # Property C96: design values are limits: crest freeboards -/

open Classical
open PF CorePhysics CoreUtility
noncomputable section

namespace DesignProof

/-! ## TAW (2002) -/
section
open OvertoppingTaw2002 OvertoppingTawProofs TwoFormulas

/-- C96, TAW (2002), every option (gravity 9.81): the discharge meets the limit exactly from the returned crest
freeboard -/
theorem C96_taw2002_crest (H T q gf gv s : ℝ) (cot cd cu beta B db gB gb : PF)
    (bf : Bool) (hH : 0 < H) (hT : 0 < T) (hf : 0 < gf) (hf1 : gf ≤ 1) (hv : 0 < gv) (hs : -7 ≤ s)
    (hgB : OmittedOr (0 < ·) gB) (hgb : OmittedOr (fun r => 0 < r ∧ r ≤ 1) gb) (d : ℝ) (m : Bool)
    (hq : 0 < q)
    (h : (calculate_crest_freeboard_Rc (fin H) (fin T) (fin q) cot cd cu beta B db gB gb
      (fin gf) (fin gv) (fin s) (use_best_fit := bf)).res = .ok (fin d, m)) :
    CrestLimit (fun R => calculate_overtopping_discharge_q (fin H) (fin T) R cot cd cu beta B db gB gb
      (fin gf) (fin gv) (fin s) (use_best_fit := bf)) q d := by
  refine crest_limit (C49_discharge_of_freeboard_partial H T q gf gv s cot cd cu beta B db gB gb bf hH hT hf hf1 hv
    hs hgB hgb d m hq h) fun x y v n hxy e => ?_
  obtain ⟨v', m', -, h1, h2⟩ := C50_decreasing H T x y gf gv s 9.81 cot cd cu beta B db gB gb bf hH hT hf hf1 hv hs
    hgB hgb (by norm_num) v n hxy e
  exact ⟨v', m', h1, h2⟩

/-- … which exists on every straight slope -/
theorem C96_taw2002_crest_straight (H T q c gf gv B db s : ℝ) (beta gB gb : PF) (bf : Bool)
    (hH : 0 < H) (hT : 0 < T) (hc : 0 < c) (hf : 0 < gf) (hf1 : gf ≤ 1) (hv : 0 < gv) (hB : 0 ≤ B)
    (hs : -7 ≤ s) (hs0 : s = 0 ∨ bf = true)
    (hgB : OmittedOr (0 < ·) gB) (hgb : OmittedOr (fun r => 0 < r ∧ r ≤ 1) gb)
    (hgiven : ¬ gB.isnan ∨ ¬ beta.isnan) (hq : 0 < q) : ∃ (d : ℝ) (m : Bool),
    (calculate_crest_freeboard_Rc (fin H) (fin T) (fin q) (fin c) nan nan beta (fin B) (fin db) gB gb
      (fin gf) (fin gv) (fin s) (use_best_fit := bf)).res = .ok (fin d, m) ∧
    ∀ x : ℝ, ∃ (v : ℝ) (n : Bool), (calculate_overtopping_discharge_q (fin H) (fin T) (fin x) (fin c) nan nan beta
      (fin B) (fin db) gB gb (fin gf) (fin gv) (fin s) (use_best_fit := bf)).res = .ok (fin v, n) ∧
      (v ≤ q ↔ d ≤ x) := by
  obtain ⟨h1, h2⟩ := C49_straight_slope_returns H T c gf gv B db s 9.81 beta gB gb bf hH hT hc hf hf1 hv hB hs hs0
    (by norm_num) hgB hgb hgiven
  obtain ⟨d, m, h⟩ := h2 q hq
  refine ⟨d, m, h, fun x => ?_⟩
  obtain ⟨v, n, -, e⟩ := h1 x
  exact ⟨v, n, e, (C96_taw2002_crest H T q gf gv s (fin c) nan nan beta (fin B) (fin db) gB gb bf hH hT hf hf1 hv
    hs hgB hgb d m hq h).2 x v n e⟩

example := C96_taw2002_crest_straight (H := 2) (T := 6) (q := 0.001) (c := 3) (gf := 0.8) (gv := 1) (B := 4)
  (db := 0.5) (s := 1) (beta := fin 30) (gB := nan) (gb := nan) (bf := true) (by norm_num) (by norm_num)
  (by norm_num) (by norm_num) (by norm_num) (by norm_num) (by norm_num) (by norm_num) (Or.inr rfl) (Or.inl rfl)
  (Or.inl rfl) (Or.inr (by simp)) (by norm_num)

/-- C96 refuted for TAW (2002) with more gravity: where the second formula governs, the returned crest overtops
more than asked -/
theorem C96_taw2002_other_gravity_refuted (H T R gf gv s g : ℝ) (cot cd cu beta B db gB gb : PF)
    (bf : Bool) (hH : 0 < H) (hT : 0 < T) (hf : 0 < gf) (hf1 : gf ≤ 1) (hv : 0 < gv) (hs : -7 ≤ s)
    (hgB : OmittedOr (0 < ·) gB) (hgb : OmittedOr (fun r => 0 < r ∧ r ≤ 1) gb) (hg : 9.81 < g) (q : ℝ)
    (h : (calculate_overtopping_discharge_q (fin H) (fin T) (fin R) cot cd cu beta B db gB gb
      (fin gf) (fin gv) (fin s) (fin g) bf).res = .ok (fin q, true)) :
    ∃ (d : ℝ) (m : Bool),
      (calculate_crest_freeboard_Rc (fin H) (fin T) (fin q) cot cd cu beta B db gB gb
        (fin gf) (fin gv) (fin s) (fin g) bf).res = .ok (fin d, m) ∧ d < R ∧
      ∀ (v : ℝ) (n : Bool), (calculate_overtopping_discharge_q (fin H) (fin T) (fin d) cot cd cu beta B db gB gb
      (fin gf) (fin gv) (fin s) (fin g) bf).res = .ok (fin v, n) → q < v := by
  obtain ⟨d, m, hd, e⟩ := C49_other_gravity_refuted H T R gf gv s g cot cd cu beta B db gB gb bf hH hT hf hf1 hv hs
    hgB hgb hg q h
  refine ⟨d, m, e, hd, fun v n ev => ?_⟩
  obtain ⟨v', m', -, h1, h2⟩ := C50_decreasing H T d R gf gv s g cot cd cu beta B db gB gb bf hH hT hf hf1 hv hs
    hgB hgb (by norm_num at hg; linarith) v n hd ev
  rw [h] at h2
  cases h2
  exact h1

/-- a crest at the water level in long waves, gravity 9.83 -/
example : ∃ q d v : ℝ, ∃ m n : Bool, q < v ∧
      (calculate_crest_freeboard_Rc (fin 1) (fin 12) (fin q) (fin 2) nan nan (fin 30) (fin 0) (fin 0) nan nan
        (fin 0.5) (fin 1) (fin 0) (fin 9.83) false).res = .ok (fin d, m) ∧
      (calculate_overtopping_discharge_q (fin 1) (fin 12) (fin d) (fin 2) nan nan (fin 30) (fin 0) (fin 0) nan nan
        (fin 0.5) (fin 1) (fin 0) (fin 9.83) false).res = .ok (fin v, n) := by
  obtain ⟨gB', gb', hB', hb, hb1, hgb, -, hp, -⟩ :=
    pre_straight (h := 1) (t := 12) (c := 2) (gf := 0.5) (B := 0) (db := 0) (beta := fin 30) (gB' := nan) (gb' := nan)
      (by norm_num) (by norm_num) (by norm_num) (by norm_num) (by norm_num) (by norm_num) (Or.inl rfl)
      (Or.inr (by simp)) (Or.inl rfl)
  have hgb := hgb rfl rfl
  subst hgb
  obtain ⟨x1, -⟩ := OvertoppingEurProofs.xi_between (H := 1) (T := 12) (c := 2) (lo := 4) (hi := 10) (by norm_num)
    (by norm_num) (by norm_num) (by norm_num) (by norm_num) (by norm_num) (by norm_num)
  have hq : ∃ q : ℝ, (calculate_overtopping_discharge_q (fin 1) (fin 12) (fin 0) (fin 2) nan nan (fin 30) (fin 0)
      (fin 0) nan nan (fin 0.5) (fin 1) (fin 0) (fin 9.83) false).res = .ok (fin q, true) := by
    unfold calculate_overtopping_discharge_q
    rw [PyM.bind_res_of_ok (q_res (by norm_num) (by norm_num) (Or.inl rfl) (by norm_num) (by norm_num) (by norm_num)
      hB' (by norm_num) hb hb1 hp)]
    dsimp only
    rw [Sc_eval (by norm_num) (by norm_num), mul_fin]
    refine ⟨_, by
      rw [PyM.pure_def]
      simp only [Except.ok.injEq, Prod.mk.injEq, decide_eq_true_eq]
      refine ⟨rfl, ?_⟩
      unfold E A1
      have h1 : √(1.0 / 2 : ℝ) ≤ 1 := Real.sqrt_le_one.mpr (by norm_num)
      have h2 : 0 < √(1.0 / 2 : ℝ) := Real.sqrt_pos.mpr (by norm_num)
      have h3 : (0.067 : ℝ) ≤ 0.067 / √(1.0 / 2 : ℝ) := by
        rw [le_div_iff₀ h2]; nlinarith
      simp only [mul_zero, neg_zero, Real.exp_zero, mul_one]
      nlinarith⟩
  obtain ⟨q, hq⟩ := hq
  obtain ⟨d, m, e, -, h⟩ := C96_taw2002_other_gravity_refuted 1 12 0 0.5 1 0 9.83 (fin 2) nan nan (fin 30) (fin 0)
    (fin 0) nan nan false (by norm_num) (by norm_num) (by norm_num) (by norm_num) (by norm_num) (by norm_num)
    (Or.inl rfl) (Or.inl rfl) (by norm_num) q hq
  obtain ⟨v, n, -, ev⟩ := (C49_straight_slope_returns 1 12 2 0.5 1 0 0 0 9.83 (fin 30) nan nan false (by norm_num)
    (by norm_num) (by norm_num) (by norm_num) (by norm_num) (by norm_num) (by norm_num) (by norm_num) (Or.inl rfl)
    (by norm_num) (Or.inl rfl) (Or.inl rfl) (Or.inr (by simp))).1 d
  exact ⟨q, d, v, m, n, h v n ev, e, ev⟩
end

/-! ## EurOtop (2007) -/
section
open OvertoppingEurOtop2007 OvertoppingEurProofs

/-- C96, EurOtop (2007) rubble mound (gravity 9.81) -/
theorem C96_eurotop2007_crest (H q gf c2 c3 : ℝ) (T beta gB cot : PF) (bf : Bool) (hH : 0 < H)
    (hf : 0 < gf) (hf1 : gf ≤ 1) (h2 : 0 < c2) (h3 : 0 < c3) (hgB : OmittedOr (0 < ·) gB)
    (hg : ¬ gB.isnan ∨ ¬ beta.isnan) (hq : 0 < q) : SafeFromLevel
    (fun R => calculate_overtopping_discharge_q_rubble_mound (fin H) T R beta gB (fin gf) cot (fin c2) (fin c3) bf) q
    (calculate_crest_freeboard_Rc_rubble_mound (fin H) T (fin q) beta gB (fin gf) cot (fin c2) (fin c3) bf) := by
  refine level_inverse (g := fun q => calculate_crest_freeboard_Rc_rubble_mound (fin H) T q beta gB (fin gf) cot
    (fin c2) (fin c3) bf) (C51_inverse_partial H gf c2 c3 T beta gB cot bf hH hf hf1 h2 h3 hgB hg)
    (fun x y hxy => ?_) hq
  obtain ⟨v, v', -, hv, e, e'⟩ := C50_eurotop2007_decreasing H x y gf c2 c3 9.81 T beta gB cot bf hH hf hf1 h2 h3 hgB
    hg (by norm_num) hxy
  exact ⟨v, v', e, e', hv⟩

example := C96_eurotop2007_crest (H := 2) (q := 0.001) (gf := 0.5) (c2 := 0.2) (c3 := 2.3) (T := fin 6)
  (beta := fin 30) (gB := nan) (cot := fin 1.5) (bf := false) (by norm_num) (by norm_num) (by norm_num) (by norm_num)
  (by norm_num) (Or.inl rfl) (Or.inr (by simp)) (by norm_num)
end

/-! ## EurOtop (2018) -/
section
open OvertoppingEurOtop2018 OvertoppingEurProofs

/-- C96, EurOtop (2018), smooth slopes, design values or a straight slope -/
theorem C96_eurotop2018_smooth_crest_partial (H T q gv gs c1 c2 c3 c4 g : ℝ)
    (cot cd cu beta B db gB gb : PF) (bf : Bool) (hH : 0 < H) (hT : 0 < T)
    (hv : 0 < gv) (hs : 0 < gs) (h1 : 0 < c1) (h2 : 0 < c2) (h3 : 0 < c3) (h4 : 0 < c4)
    (hgB : OmittedOr (0 < ·) gB) (hg : 0 < g) (hbf : bf = false ∨ cd = nan) (d : ℝ) (m : Bool)
    (hq : 0 < q)
    (h : (calculate_crest_freeboard_Rc (fin H) (fin T) (fin q) beta gB gb (fin 1) (fin gv)
      (fin gs) B db cot cd cu (fin c1) (fin c2) (fin c3) (fin c4) bf (fin g)).res = .ok (fin d, m)) :
    CrestLimit (fun R => calculate_overtopping_discharge_q (fin H) (fin T) R beta gB gb (fin 1) (fin gv)
      (fin gs) B db cot cd cu (fin c1) (fin c2) (fin c3) (fin c4) bf (fin g)) q d := by
  refine crest_limit (C52_smooth_discharge_of_freeboard_partial H T q gv gs c1 c2 c3 c4 g cot cd cu beta B db gB gb
    bf hH hT hv hs h1 h2 h3 h4 hgB hg hbf d m hq h).2 fun x y v n hxy e => ?_
  obtain ⟨v', m', -, h1', h2'⟩ := C50_eurotop2018_decreasing H T x y 1 gv gs c1 c2 c3 c4 g cot cd cu beta B db gB gb
    bf hH hT one_pos le_rfl hv hs h1 h2 h3 h4 hgB hg v n hxy e
  exact ⟨v', m', h1', h2'⟩

/-- C96, EurOtop (2018), rough straight slopes outside the range of the roughness correction; discharges up to that
of a crest at the water level -/
theorem C96_eurotop2018_rough_crest_partial (H T c gf gv gs B db c1 c2 c3 c4 g k : ℝ) (beta gB gb : PF)
    (bf : Bool) (hH : 0 < H) (hT : 0 < T) (hc : 0 < c) (hf : 0 < gf) (hf1 : gf ≤ 1)
    (hv : 0 < gv) (hs : 0 < gs) (hB : 0 ≤ B) (h1 : 0 < c1) (h2 : 0 < c2) (h3 : 0 < c3) (h4 : 0 < c4)
    (hgB : OmittedOr (0 < ·) gB) (hgiven : ¬ gB.isnan ∨ ¬ beta.isnan) (hg : 0 < g)
    (hk : calculate_Iribarren_number_ksi (fin H) (fin T) (fin c) = fin k)
    (hrange : k < 1.8 ∨ (10 < k ∧ B = 0)) : ∃ (q0 : ℝ) (m0 : Bool), 0 < q0 ∧
      (calculate_overtopping_discharge_q (fin H) (fin T) (fin 0) beta gB gb (fin gf) (fin gv)
        (fin gs) (fin B) (fin db) (fin c) nan nan (fin c1) (fin c2) (fin c3) (fin c4) bf
        (fin g)).res = .ok (fin q0, m0) ∧
      ∀ q : ℝ, 0 < q → q ≤ q0 → ∃ (d : ℝ) (m : Bool), 0 ≤ d ∧
      (calculate_crest_freeboard_Rc (fin H) (fin T) (fin q) beta gB gb (fin gf) (fin gv)
        (fin gs) (fin B) (fin db) (fin c) nan nan (fin c1) (fin c2) (fin c3) (fin c4) bf
        (fin g)).res = .ok (fin d, m) ∧
      CrestLimit (fun R => calculate_overtopping_discharge_q (fin H) (fin T) R beta gB gb (fin gf) (fin gv)
        (fin gs) (fin B) (fin db) (fin c) nan nan (fin c1) (fin c2) (fin c3) (fin c4) bf (fin g)) q d := by
  obtain ⟨t1, t2⟩ := C52_rough_straight_partial H T c gf gv gs B db c1 c2 c3 c4 g k beta gB gb bf hH hT hc hf hf1 hv
    hs hB h1 h2 h3 h4 hgB hgiven hg hk hrange
  obtain ⟨q0, m0, p0, e0, -⟩ := t1 0 le_rfl
  refine ⟨q0, m0, p0, e0, fun q hq hqq => ?_⟩
  obtain ⟨d, m, hd, e, e'⟩ := t2 q0 m0 e0 q hq hqq
  refine ⟨d, m, hd, e, crest_limit e' fun x y v n hxy ev => ?_⟩
  obtain ⟨v', m', -, h1', h2'⟩ := C50_eurotop2018_decreasing H T x y gf gv gs c1 c2 c3 c4 g _ _ _ beta _ _ gB gb
    bf hH hT hf hf1 hv hs h1 h2 h3 h4 hgB hg v n hxy ev
  exact ⟨v', m', h1', h2'⟩

/-- C96 refuted for EurOtop (2018) where the roughness correction works (ξ from 4 to 10, straight rough slope): the
returned crest is higher than one that already meets the limit -/
theorem C96_eurotop2018_rough_crest_refuted (H T R c gf db g k : ℝ) (beta gB gb : PF)
    (hH : 0 < H) (hT : 0 < T) (hR : 0 < R) (hc : 1 ≤ c) (hf : 0 < gf) (hf1 : gf < 1)
    (hgB : OmittedOr (0 < ·) gB) (hgiven : ¬ gB.isnan ∨ ¬ beta.isnan) (hg : 0 < g)
    (hk : calculate_Iribarren_number_ksi (fin H) (fin T) (fin c) = fin k) (hk4 : 4 ≤ k)
    (hk10 : k ≤ 10) : ∃ q : ℝ, ∃ d : ℝ, ∃ m : Bool,
      (calculate_crest_freeboard_Rc (fin H) (fin T) (fin q) beta gB gb (fin gf) (fin 1) (fin 1)
        (fin 0) (fin db) (fin c) nan nan (g := fin g)).res = .ok (fin d, m) ∧
      ¬ CrestLimit (fun R => calculate_overtopping_discharge_q (fin H) (fin T) R beta gB gb (fin gf) (fin 1) (fin 1)
        (fin 0) (fin db) (fin c) nan nan (g := fin g)) q d := by
  obtain ⟨q, d, m, hd, e, e'⟩ := C52_rough_slope_refuted H T R c gf db g k beta gB gb hH hT hR hc hf hf1 hgB hgiven
    hg hk hk4 hk10
  refine ⟨q, d, m, e', fun hl => ?_⟩
  exact absurd ((hl.2 R q true e).mp le_rfl) (not_le.mpr hd)

/-- C96, EurOtop (2018), rubble mound slopes, design values or a straight slope: of two crests for which a discharge
is returned … (crests below the water level give NaN) -/
theorem C96_eurotop2018_rubble_crest_partial (H T q gf c2 c3 g : ℝ)
    (cot cd cu beta B db gB : PF) (bf : Bool) (hH : 0 < H) (hf : 0 < gf) (hf1 : gf ≤ 1)
    (h2 : 0 < c2) (h3 : 0 < c3) (hgB : OmittedOr (0 < ·) gB) (hg : 0 < g)
    (hbf : bf = false ∨ cd = nan) (d : ℝ) (hq : 0 < q)
    (h : (calculate_crest_freeboard_Rc_rubble_mound (fin H) (fin T) (fin q) beta gB (fin gf) B
      db cot cd cu (fin c2) (fin c3) bf (fin g)).res = .ok (fin d)) :
    CrestLimit (fun R => do
      let v ← calculate_overtopping_discharge_q_rubble_mound (fin H) (fin T) R beta gB (fin gf) B
        db cot cd cu (fin c2) (fin c3) bf (fin g)
      pure (v, false)) q d := by
  have e := (C52_rubble_discharge_of_freeboard_partial H T q gf c2 c3 g cot cd cu beta B db gB bf hH hf hf1 h2 h3 hgB
    hg hbf d hq h).2
  refine crest_limit (m := false) (by simp only [PyM.bind_res_of_ok e]; rfl) fun x y v n hxy ev => ?_
  obtain ⟨w, ew, ev', -⟩ := PyM.bind_inv ev
  cases ev'
  obtain ⟨q', -, h1, h2⟩ := C50_eurotop2018_rubble_decreasing H T x y gf c2 c3 g cot cd cu beta B db gB bf hH hf hf1
    h2 h3 hgB hg hbf v hxy ew
  exact ⟨q', false, h1, by simp only [PyM.bind_res_of_ok h2]; rfl⟩

/-- a rubble mound -/
example : ∃ q : ℝ, 0 < q ∧ CrestLimit (fun R => do
      let v ← calculate_overtopping_discharge_q_rubble_mound (fin 2) (fin 6) R (fin 30) nan (fin 0.5)
        (fin 0) (fin 0) (fin 1.5) nan nan (fin 0.1035) (fin 1.35) true (fin 9.81)
      pure (v, false)) q 3 := by
  obtain ⟨q, hq, h⟩ := C52_rubble_returns 2 6 3 1.5 0.5 0.1035 1.35 9.81 0 0 (fin 30) nan true
    (by norm_num) (by norm_num) (by norm_num) (by norm_num) (by norm_num) (by norm_num) (by norm_num)
    (by norm_num) (Or.inl rfl) (Or.inr (by simp)) (by norm_num) (by norm_num)
  exact ⟨q, hq, C96_eurotop2018_rubble_crest_partial 2 6 q 0.5 0.1035 1.35 9.81 _ _ _ _ _ _ _ true (by norm_num)
    (by norm_num) (by norm_num) (by norm_num) (by norm_num) (Or.inl rfl) (by norm_num) (Or.inr rfl) 3 hq
    (C52_rubble_freeboard_of_discharge_partial 2 6 3 0.5 0.1035 1.35 9.81
    _ _ _ _ _ _ _ true (by norm_num) (by norm_num) (by norm_num) (by norm_num) (by norm_num)
    (Or.inl rfl) (by norm_num) (Or.inr rfl) q h).2⟩

/-- a rough 1:4 slope with a berm, and the same slope smooth -/
example := C96_eurotop2018_rough_crest_partial 2 6 4 0.8 1 1 4 0.5 2.5 0.1035 1.35 0.026 9.81 _ (fin 30) nan nan true
    (by norm_num) (by norm_num) (by norm_num) (by norm_num) (by norm_num) (by norm_num) (by norm_num)
    (by norm_num) (by norm_num) (by norm_num) (by norm_num) (by norm_num) (Or.inl rfl)
    (Or.inr (by simp)) (by norm_num) (VdMProof.xi_eval (by norm_num) (by norm_num) (by norm_num))
    (Or.inl (lt_of_le_of_lt (xi_between (lo := 1) (hi := 1.7) (by norm_num) (by norm_num)
      (by norm_num) (by norm_num) (by norm_num) (by norm_num) (by norm_num)).2 (by norm_num)))

example : ∃ q d : ℝ, 0 < q ∧ CrestLimit (fun R => calculate_overtopping_discharge_q (fin 2) (fin 6) R (fin 30) nan nan
      (fin 1) (fin 1) (fin 1) (fin 4) (fin 0.5) (fin 4) nan nan (fin 2.5) (fin 0.1035) (fin 1.35) (fin 0.026) false
      (fin 9.81)) q d := by
  obtain ⟨q, m, hq, h, h'⟩ :=
    (C52_rough_straight_partial 2 6 4 1 1 1 4 0.5 2.5 0.1035 1.35 0.026 9.81 _ (fin 30) nan nan false
    (by norm_num) (by norm_num) (by norm_num) (by norm_num) (by norm_num) (by norm_num) (by norm_num)
    (by norm_num) (by norm_num) (by norm_num) (by norm_num) (by norm_num) (Or.inl rfl)
    (Or.inr (by simp)) (by norm_num) (VdMProof.xi_eval (by norm_num) (by norm_num) (by norm_num))
    (Or.inl (lt_of_le_of_lt (xi_between (lo := 1) (hi := 1.7) (by norm_num) (by norm_num)
      (by norm_num) (by norm_num) (by norm_num) (by norm_num) (by norm_num)).2 (by norm_num)))).1 1
    (by norm_num)
  exact ⟨q, 1, hq, C96_eurotop2018_smooth_crest_partial 2 6 q 1 1 2.5 0.1035 1.35 0.026 9.81 _ _ _ _ _ _ _ _ false
    (by norm_num) (by norm_num) (by norm_num) (by norm_num) (by norm_num) (by norm_num) (by norm_num) (by norm_num)
    (Or.inl rfl) (by norm_num) (Or.inl rfl) 1 m hq h'⟩

/-- a rough slope in long waves -/
example : ∃ q d : ℝ, ∃ m : Bool,
    (calculate_crest_freeboard_Rc (fin 1) (fin 12) (fin q) (fin 0) nan nan (fin 0.5) (fin 1) (fin 1)
      (fin 0) (fin 0) (fin 2) nan nan (g := fin 9.81)).res = .ok (fin d, m) ∧
    ¬ CrestLimit (fun R => calculate_overtopping_discharge_q (fin 1) (fin 12) R (fin 0) nan nan (fin 0.5) (fin 1)
      (fin 1) (fin 0) (fin 0) (fin 2) nan nan (g := fin 9.81)) q d := by
  obtain ⟨x1, x2⟩ := xi_between (H := 1) (T := 12) (c := 2) (lo := 4) (hi := 10) (by norm_num)
    (by norm_num) (by norm_num) (by norm_num) (by norm_num) (by norm_num) (by norm_num)
  exact C96_eurotop2018_rough_crest_refuted 1 12 3 2 0.5 0 9.81 _ (fin 0) nan nan (by norm_num) (by norm_num)
    (by norm_num) (by norm_num) (by norm_num) (by norm_num) (Or.inl rfl) (Or.inr (by simp))
    (by norm_num) (VdMProof.xi_eval (by norm_num) (by norm_num) (by norm_num)) x1 x2
end

/-! ## De Ridder (2024, 2026) -/
section
open DeRidder2024 OvertoppingMoreProofs

/-- C96, De Ridder et al. (2024), equation 24 (gravity 9.81) and equation 26 (any gravity) -/
theorem C96_deridder2024_crest_partial (H s w gf g q : ℝ) (hH : 0 < H) (hs : 0 < s) (hf : 0 < gf) (hg : 0 < g)
    (hq : 0 < q) :
    SafeFromLevel (fun R => calculate_overtopping_discharge_q_eq24 (fin H) (fin s) (fin gf) R) q
      (calculate_crest_freeboard_discharge_q_eq24 (fin H) (fin s) (fin gf) (fin q)) ∧
    SafeFromLevel (fun R => calculate_overtopping_discharge_q_eq26 (fin H) (fin s) (fin w) (fin gf) R (fin g)) q
      (calculate_crest_freeboard_discharge_q_eq26 (fin H) (fin s) (fin w) (fin gf) (fin q) (fin g)) := by
  have h1 := C55_eq24_partial H s gf hH hs hf
  have h2 := C55_eq26 H s w gf g hH hs hf hg
  exact ⟨level_inverse (g := fun q => calculate_crest_freeboard_discharge_q_eq24 (fin H) (fin s) (fin gf) q)
    h1.1 h1.2 hq, level_inverse (g := fun q => calculate_crest_freeboard_discharge_q_eq26 (fin H) (fin s) (fin w)
      (fin gf) q (fin g)) h2.1 h2.2 hq⟩

example := C96_deridder2024_crest_partial (H := 2) (s := 0.02) (w := 0.6) (gf := 0.5) (g := 9.81) (q := 0.001)
  (by norm_num) (by norm_num) (by norm_num) (by norm_num) (by norm_num)
end

section
open DeRidder2026 OvertoppingMoreProofs

/-- C96, De Ridder et al. (2026), equations 28 and 32 -/
theorem C96_deridder2026_crest (H s w gf g t q : ℝ) (hH : 0 < H) (hs : 0 < s) (hf : 0 < gf) (hg : 0 < g)
    (hq : 0 < q) :
    SafeFromLevel (fun R => calculate_overtopping_discharge_q_eq28 (fin H) (fin s) (fin gf) R (fin g) (fin t)) q
      (calculate_crest_freeboard_discharge_q_eq28 (fin H) (fin s) (fin gf) (fin q) (fin g) (fin t)) ∧
    SafeFromLevel (fun R => calculate_overtopping_discharge_q_eq32 (fin H) (fin s) (fin w) (fin gf) R (fin g) (fin t)) q
      (calculate_crest_freeboard_discharge_q_eq32 (fin H) (fin s) (fin w) (fin gf) (fin q) (fin g) (fin t)) := by
  have h1 := C56_eq28 H s gf g t hH hs hf hg
  have h2 := C56_eq32 H s w gf g t hH hs hf hg
  exact ⟨level_inverse (g := fun q => calculate_crest_freeboard_discharge_q_eq28 (fin H) (fin s) (fin gf) q (fin g)
    (fin t)) h1.1 h1.2 hq, level_inverse (g := fun q => calculate_crest_freeboard_discharge_q_eq32 (fin H) (fin s)
      (fin w) (fin gf) q (fin g) (fin t)) h2.1 h2.2 hq⟩

example := C96_deridder2026_crest (H := 2) (s := 0.02) (w := 0.6) (gf := 0.5) (g := 9.81) (t := 20) (q := 0.001)
  (by norm_num) (by norm_num) (by norm_num) (by norm_num) (by norm_num)
end

/-! ## Van Gent (2021): caissons -/
section
open VanGent2021Caisson OvertoppingMoreProofs

/-- C96, caissons, exponent 1 -/
theorem C96_caisson_crest_partial (H g w cw q : ℝ) (beta gB : PF) (sc cs pp : Bool) (hH : 0 < H)
    (hg : 0 < g) (hopt : sc = true ∨ cs = true ∨ pp = false)
    (hB : (∃ r : ℝ, gB = fin r ∧ 0 < r) ∨ (gB = nan ∧ ∃ b : ℝ, beta = fin b)) (hq : 0 < q) : SafeFromLevel
    (fun R => calculate_overtopping_discharge_q (fin H) R beta gB (fin w) 1.0 (fin cw) sc cs pp (fin g)) q
    (calculate_crest_freeboard_Rc (fin H) (fin q) beta gB (fin w) 1.0 (fin cw) sc cs pp (fin g)) := by
  have h := C53_exponent_one_partial H g w cw beta gB sc cs pp hH hg hopt hB
  exact level_inverse (g := fun q => calculate_crest_freeboard_Rc (fin H) q beta gB (fin w) 1.0 (fin cw) sc cs pp
    (fin g)) h.1 h.2 hq

example := C96_caisson_crest_partial (H := 2) (g := 9.81) (w := 0.5) (cw := 0.4) (q := 0.001) (beta := fin 20)
  (gB := nan) (sc := true) (cs := true) (pp := true) (by norm_num) (by norm_num) (Or.inl rfl)
  (Or.inr ⟨rfl, 20, rfl⟩) (by norm_num)

/-- C96, caissons, exponent 1.3: among the crests the formula covers (above the swell correction), for discharges
up to that of the lowest of them; lower crests give NaN -/
theorem C96_caisson_crest_13_partial (H g w cw q : ℝ) (beta gB : PF) (sc cs pp : Bool) (hH : 0 < H)
    (hg : 0 < g) (hopt : sc = true ∨ cs = true ∨ pp = false)
    (hB : (∃ r : ℝ, gB = fin r ∧ 0 < r) ∨ (gB = nan ∧ ∃ b : ℝ, beta = fin b)) (hq : 0 < q)
    (hq0 : q ≤ 0.047 * √(g * H ^ 3)) : ∃ d : ℝ, (if cs then cw * w else 0) ≤ d ∧
    (calculate_crest_freeboard_Rc (fin H) (fin q) beta gB (fin w) 1.3 (fin cw) sc cs pp (fin g)).res = .ok (fin d) ∧
    (∀ x : ℝ, (if cs then cw * w else 0) ≤ x → ∃ v : ℝ, (calculate_overtopping_discharge_q (fin H) (fin x) beta gB
      (fin w) 1.3 (fin cw) sc cs pp (fin g)).res = .ok (fin v) ∧ (v ≤ q ↔ d ≤ x)) ∧
    (∀ x : ℝ, x < (if cs then cw * w else 0) → (calculate_overtopping_discharge_q (fin H) (fin x) beta gB
      (fin w) 1.3 (fin cw) sc cs pp (fin g)).res = .ok nan) := by
  obtain ⟨h1, h2, h3⟩ := C53_exponent_13_partial H g w cw beta gB sc cs pp hH hg hopt hB
  obtain ⟨d, hd, e, e'⟩ := h2 q hq hq0
  refine ⟨d, hd, e, fun x hx => ?_, fun x hx =>
    C53_exponent_13_low_crest_refuted H g w cw x beta gB sc cs pp hH hg hopt hB hx⟩
  rcases lt_trichotomy x d with h | rfl | h
  · obtain ⟨a, b, hab, ha, hb⟩ := h3 x d hx h
    rw [e'] at hb
    cases hb
    exact ⟨a, ha, ⟨fun h' => absurd h' (not_le.mpr hab), fun h' => absurd h' (not_le.mpr h)⟩⟩
  · exact ⟨q, e', by simp⟩
  · obtain ⟨a, b, hab, ha, hb⟩ := h3 d x hd h
    rw [e'] at ha
    cases ha
    exact ⟨b, hb, by simp [hab.le, h.le]⟩

example : (0.001 : ℝ) ≤ 0.047 * √(1 * 1 ^ 3) := by norm_num
end

/-! ## Van Gent (2025) -/
section
open VanGent2025 OvertoppingMoreProofs MoreOvertopping TwoFormulas
open OvertoppingTaw2002 (Sc Sc_pos)

theorem Q_lt {H c G x : ℝ} (hH : 0 < H) (hc : 0 < c) (hG : 0 < G) (hx : 0 < x) {r r' : ℝ} (h : r < r') :
    Q H c G x r' < Q H c G x r :=
  min_lt_min (E_lt (A1_pos hc) (k1_pos hH hG hx) h) (E_lt (A2_pos hc) (k2_pos hH hG hx) h)

/-- the discharge falls with the crest, mean value or design -/
theorem vg2025_falls {H T c gv w : ℝ} {Ac beta B db D gf gb gB : PF} (X : Ok H T c gv Ac beta B db D gf gb gB)
    (dc : Bool) (x y v : ℝ) (m : Bool) (hxy : x < y)
    (h : (calculate_overtopping_discharge_q (fin H) (fin w) (fin T) (fin x) Ac (fin c) beta B db D gf gb
        (fin gv) gB (design_calculation := dc)).res = .ok (fin v, m)) : ∃ (v' : ℝ) (m' : Bool), v' < v ∧
    (calculate_overtopping_discharge_q (fin H) (fin w) (fin T) (fin y) Ac (fin c) beta B db D gf gb
        (fin gv) gB (design_calculation := dc)).res = .ok (fin v', m') := by
  obtain ⟨G, z, hG, hz, hq, -⟩ := both X
  have h1 := (hq x w 9.81 dc (by norm_num)).symm.trans h
  have hS := Sc_pos (g := 9.81) (by norm_num) X.hH
  rw [Except.ok.injEq, Prod.mk.injEq, fin.injEq] at h1
  obtain ⟨rfl, -⟩ := h1
  refine ⟨_, _, ?_, hq y w 9.81 dc (by norm_num)⟩
  have h2 := Q_lt X.hH X.hc hG hz (show x - 0.4 * w < y - 0.4 * w by linarith)
  have h3 := Q_pos (H := H) (G := G) (x := z) X.hc (y - 0.4 * w)
  refine mul_lt_mul_of_pos_right ?_ hS
  cases dc
  · simpa using h2
  · simp only [if_true]
    exact Real.rpow_lt_rpow h3.le h2 (by norm_num)

/-- C96, Van Gent (2025), mean value, no wind (gravity 9.81) -/
theorem C96_vangent2025_mean_crest (H T c gv w q : ℝ) (Ac beta B db D gf gb gB : PF)
    (X : Ok H T c gv Ac beta B db D gf gb gB) (hq : 0 < q) : ∃ (d : ℝ) (m : Bool),
    (calculate_crest_freeboard_Rc (fin H) (fin w) (fin T) (fin q) Ac (fin c) beta B db D gf gb
      (fin gv) gB (design_calculation := false)).res = .ok (fin d, m) ∧
    CrestLimit (fun R => calculate_overtopping_discharge_q (fin H) (fin w) (fin T) R Ac (fin c) beta B db D gf gb
      (fin gv) gB (design_calculation := false)) q d := by
  obtain ⟨d, m, e, e'⟩ := (C54_mean_value_partial H T c gv w Ac beta B db D gf gb gB X).2 q hq
  exact ⟨d, m, e, crest_limit e' fun x y v n hxy h => vg2025_falls X false x y v n hxy h⟩

example := C96_vangent2025_mean_crest 2 7 2 1.05 0.3 0.001 (fin 3.5) (fin 25) 0.0 (fin 0) (fin 0.8) nan nan nan
    ⟨by norm_num, by norm_num, by norm_num, by norm_num,
      Or.inr ⟨rfl, 0.8, rfl, by norm_num, by norm_num⟩,
      Or.inr ⟨rfl, rfl, 3.5, 0, rfl, rfl, by norm_num, by norm_num⟩, Or.inr ⟨rfl, 25, rfl⟩⟩ (by norm_num)

/-- C96, Van Gent (2025), design calculation (the default): where the freeboard function reports that the maximum
formula does not govern, for dimensionless discharges below one -/
theorem C96_vangent2025_design_crest_partial (H T c gv w q d : ℝ) (Ac beta B db D gf gb gB : PF)
    (X : Ok H T c gv Ac beta B db D gf gb gB) (hq : 0 < q) (hq1 : q < √(9.81 * H ^ 3))
    (h : (calculate_crest_freeboard_Rc (fin H) (fin w) (fin T) (fin q) Ac (fin c) beta B db D gf gb
      (fin gv) gB).res = .ok (fin d, false)) :
    CrestLimit (fun R => calculate_overtopping_discharge_q (fin H) (fin w) (fin T) R Ac (fin c) beta B db D gf gb
      (fin gv) gB) q d := by
  obtain ⟨G, x, hG, hx, hQ, hR⟩ := both X
  have hS := Sc_pos (g := 9.81) (by norm_num) X.hH
  have a1 := A1_pos X.hc
  have a2 := A2_pos X.hc
  have p1 := k1_pos X.hH hG hx
  have p2 := k2_pos X.hH hG hx
  have h1 := (hR q w true hq).symm.trans h
  rw [Except.ok.injEq, Prod.mk.injEq, fin.injEq, decide_eq_false_iff_not, not_le] at h1
  simp only [if_true] at h1
  obtain ⟨e, hlt⟩ := h1
  have hy : 0 < q / Sc 9.81 H := by positivity
  have hy1 : q / Sc 9.81 H < 1 := (div_lt_one hS).mpr hq1
  have hyy : (q / Sc 9.81 H) ^ (1 / 0.857 : ℝ) < q / Sc 9.81 H := by
    conv_rhs => rw [← Real.rpow_one (q / Sc 9.81 H)]
    exact Real.rpow_lt_rpow_of_exponent_gt hy hy1 (by norm_num)
  have hp : 0 < (q / Sc 9.81 H) ^ (1 / 0.857 : ℝ) := by positivity
  have hl := L_lt a2 p2 hp hyy
  rw [inf_eq_left.mpr hlt.le] at e
  have ed : d - 0.4 * w = L (A1 c) (k1 H G x) ((q / Sc 9.81 H) ^ (1 / 0.857 : ℝ)) := by linarith
  have eQ : Q H c G x (d - 0.4 * w) = (q / Sc 9.81 H) ^ (1 / 0.857 : ℝ) := by
    unfold Q
    rw [ed, E_L a1 p1 hp]
    refine inf_eq_left.mpr ?_
    have := E_lt a2 p2 (hlt.trans hl)
    rw [E_L a2 p2 hp] at this
    exact this.le
  have hh := hQ d w 9.81 true (by norm_num)
  simp only [if_true] at hh
  rw [eQ, ← Real.rpow_mul hy.le, one_div_mul_cancel (by norm_num), Real.rpow_one, div_mul_cancel₀ _ hS.ne'] at hh
  exact crest_limit hh fun x y v n hxy h => vg2025_falls X true x y v n hxy h

/-- a gentle slope, where the first formula governs -/
example : ∃ q d : ℝ, 0 < q ∧
    (calculate_crest_freeboard_Rc (fin 2) (fin 0.3) (fin 5) (fin q) (fin 3.5) (fin 6) (fin 25)
      0.0 (fin 0) (fin 0.8) (fin 0.5) (fin 1) (fin 1) (fin 1)).res = .ok (fin d, false) ∧
    CrestLimit (fun R => calculate_overtopping_discharge_q (fin 2) (fin 0.3) (fin 5) R (fin 3.5) (fin 6) (fin 25)
      0.0 (fin 0) (fin 0.8) (fin 0.5) (fin 1) (fin 1) (fin 1)) q d := by
  have X : Ok 2 5 6 1 (fin 3.5) (fin 25) 0.0 (fin 0) (fin 0.8) (fin 0.5) (fin 1) (fin 1) :=
    ⟨by norm_num, by norm_num, by norm_num, by norm_num, Or.inl ⟨0.5, rfl, by norm_num⟩,
      Or.inl ⟨1, rfl, by norm_num⟩, Or.inl ⟨1, rfl, by norm_num⟩⟩
  have hS := Sc_pos (g := 9.81) (H := 2) (by norm_num) (by norm_num)
  have hx1 := (OvertoppingEurProofs.xi_between (H := 2) (T := 5) (c := 6) (lo := 0.3) (hi := 1) (by norm_num)
    (by norm_num) (by norm_num) (by norm_num) (by norm_num) (by norm_num) (by norm_num)).2
  have hx := VdMProof.xi_pos (H := 2) (T := 5) (c := 6) (by norm_num) (by norm_num) (by norm_num)
  have hR := (both_eval (H := 2) (T := 5) (c := 6) (gv := 1) (gf := 0.5) (gb := 1) (gB := 1) (Ac := fin 3.5)
    (beta := fin 25) (B := 0.0) (db := fin 0) (D := fin 0.8) (gf' := fin 0.5) (gb' := fin 1) (gB' := fin 1)
    (by norm_num) (by norm_num) (by norm_num) (by norm_num) (by norm_num) (by norm_num) (by norm_num)
    (by unfold friction_or_raise; simp) (by simp) (by simp)).2 (Real.exp (-20) * Sc 9.81 2) 0.3 true (by positivity)
  have hflag : L (A1 6) (k1 2 (0.5 * 1 * 1 * 1) (VdMProof.xi 2 5 6)) (Real.exp (-20) ^ (1 / 0.857 : ℝ)) <
      L (A2 6) (k2 2 (0.5 * 1 * 1 * 1) (VdMProof.xi 2 5 6)) (Real.exp (-20)) := by
    have l1 : Real.log (6.8 / 6) ≤ 6.8 / 6 - 1 := Real.log_le_sub_one_of_pos (by norm_num)
    have l2 : 1 - (0.8 / 6 : ℝ)⁻¹ ≤ Real.log (0.8 / 6) := Real.one_sub_inv_le_log_of_pos (by norm_num)
    have hle : VdMProof.xi 2 5 6 ≤ VdMProof.xi 2 5 6 ^ (0.24 : ℝ) := by
      conv_lhs => rw [← Real.rpow_one (VdMProof.xi 2 5 6)]
      exact Real.rpow_le_rpow_of_exponent_ge hx hx1 (by norm_num)
    unfold L A1 A2 k1 k2
    have e1 : Real.log (Real.exp (-20) ^ (1 / 0.857 : ℝ) / (6.8 / 6)) = 1 / 0.857 * (-20) - Real.log (6.8 / 6) := by
      rw [Real.log_div (by positivity) (by norm_num), Real.log_rpow (by positivity), Real.log_exp]
    have e2 : Real.log (Real.exp (-20) / (0.8 / 6)) = -20 - Real.log (0.8 / 6) := by
      rw [Real.log_div (by positivity) (by norm_num), Real.log_exp]
    rw [e1, e2]
    generalize VdMProof.xi 2 5 6 ^ (0.24 : ℝ) = y at *
    generalize VdMProof.xi 2 5 6 = x at *
    generalize Real.log (6.8 / 6) = a at *
    generalize Real.log (0.8 / 6) = b at *
    have hy := hx.trans_le hle
    have l1' : 1 / 0.857 * 20 + a ≤ (25 : ℝ) := by norm_num at l1 ⊢; linarith
    have l2' : (13.5 : ℝ) ≤ 20 + b := by norm_num at l2 ⊢; linarith
    calc -(1 / 0.857 * (-20) - a) / (5 / (0.5 * 1 * 1 * 1 * x * 2)) = (1 / 0.857 * 20 + a) * x / 5 := by
          field_simp; ring
      _ ≤ 25 * x / 5 := by gcongr
      _ < 13.5 * x / 2.5 := by norm_num; linarith
      _ ≤ (20 + b) * y / 2.5 := by gcongr
      _ = -(-20 - b) / (2.5 / (0.5 * 1 * 1 * 1 * y * 2)) := by field_simp; ring
  simp only [if_true] at hR
  rw [mul_div_cancel_right₀ _ hS.ne', decide_eq_false (not_le.mpr hflag)] at hR
  refine ⟨_, _, by positivity, hR, C96_vangent2025_design_crest_partial 2 5 6 1 0.3 _ _ _ _ _ _ _ _ _ _ X
    (by positivity) ?_ hR⟩
  have : Real.exp (-20) < 1 := by rw [← Real.exp_zero]; exact Real.exp_lt_exp.mpr (by norm_num)
  exact (mul_lt_mul_of_pos_right this hS).trans_eq (one_mul _)

/-- C96 refuted for Van Gent (2025), design calculation: where the maximum formula governs the discharge of a crest,
the crest returned for that discharge overtops more -/
theorem C96_vangent2025_design_crest_refuted (H T c gv w R q : ℝ) (Ac beta B db D gf gb gB : PF)
    (X : Ok H T c gv Ac beta B db D gf gb gB) (hc : 0.8 < c) (hr : 0.4 * w ≤ R)
    (h : (calculate_overtopping_discharge_q (fin H) (fin w) (fin T) (fin R) Ac (fin c) beta B db D gf gb
        (fin gv) gB).res = .ok (fin q, true)) : ∃ (d v : ℝ) (m n : Bool),
    (calculate_crest_freeboard_Rc (fin H) (fin w) (fin T) (fin q) Ac (fin c) beta B db D gf gb
        (fin gv) gB).res = .ok (fin d, m) ∧
    (calculate_overtopping_discharge_q (fin H) (fin w) (fin T) (fin d) Ac (fin c) beta B db D gf gb
        (fin gv) gB).res = .ok (fin v, n) ∧ q < v := by
  obtain ⟨d, m, hd, e⟩ := C54_design_maximum_refuted H T c gv w R q Ac beta B db D gf gb gB X hc hr h
  obtain ⟨G, x, hG, hx, hQ, -⟩ := both X
  refine ⟨d, _, m, _, e, hQ d w 9.81 true (by norm_num), ?_⟩
  obtain ⟨v', m', h1, h2⟩ := vg2025_falls X true d R _ _ hd (hQ d w 9.81 true (by norm_num))
  have h3 := h.symm.trans h2
  cases h3
  exact h1

example : ∃ (q d v : ℝ) (m n : Bool), q < v ∧
    (calculate_crest_freeboard_Rc (fin 2) (fin 0.3) (fin 7) (fin q) (fin 0.1) (fin 2) (fin 25)
      0.0 (fin 0) (fin 0.8) nan nan (fin 1.05) nan).res = .ok (fin d, m) ∧
    (calculate_overtopping_discharge_q (fin 2) (fin 0.3) (fin 7) (fin d) (fin 0.1) (fin 2) (fin 25)
      0.0 (fin 0) (fin 0.8) nan nan (fin 1.05) nan).res = .ok (fin v, n) := by
  have X : Ok 2 7 2 1.05 (fin 0.1) (fin 25) 0.0 (fin 0) (fin 0.8) nan nan nan :=
    ⟨by norm_num, by norm_num, by norm_num, by norm_num,
      Or.inr ⟨rfl, 0.8, rfl, by norm_num, by norm_num⟩,
      Or.inr ⟨rfl, rfl, 0.1, 0, rfl, rfl, by norm_num, by norm_num⟩, Or.inr ⟨rfl, 25, rfl⟩⟩
  obtain ⟨G, x, hG, hx, hq, -⟩ := both X
  have h := hq 0.12 0.3 9.81 true (by norm_num)
  have e : (0.12 : ℝ) - 0.4 * 0.3 = 0 := by norm_num
  have hm : E (A2 2) (k2 2 G x) (0.12 - 0.4 * 0.3) ≤ E (A1 2) (k1 2 G x) (0.12 - 0.4 * 0.3) := by
    rw [e]
    unfold E A1 A2
    simp
    norm_num
  rw [decide_eq_true hm] at h
  obtain ⟨d, v, m, n, e1, e2, e3⟩ := C96_vangent2025_design_crest_refuted 2 7 2 1.05 0.3 0.12 _ (fin 0.1) (fin 25) 0.0
    (fin 0) (fin 0.8) nan nan nan X (by norm_num) (by norm_num) h
  exact ⟨_, d, v, m, n, e3, e1, e2⟩
end
end DesignProof
end
