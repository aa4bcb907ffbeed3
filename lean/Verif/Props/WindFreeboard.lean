import Verif.Props.WindCrest
import Verif.Props.VanGent2025

/-! # Property C54, Van Gent et al. (2025) with wind

The freeboard function takes the wind factor at the required discharge, the discharge function at the discharge
without wind, which is smaller; and the maximum formula of the freeboard function has no wind factor at all.  So the
crest returned for a discharge always overtops more than that discharge, if there is a wall. -/

open Classical
open PF
noncomputable section

namespace WindProof
open TwoFormulas

theorem L_div {A k y t : ℝ} (hA : 0 < A) (hy : 0 < y) (ht : 0 < t) : L A k (y / t) = L A k y + Real.log t / k := by
  unfold L
  rw [div_right_comm, Real.log_div (by positivity) ht.ne']
  ring

/-- between the start and a level the iteration has reached, the exponential is below the wind factor -/
theorem between {k u a s t R : ℝ} (h1 : 1 ≤ 1 + u * (s - a)) (h2 : Real.exp (k * (t - s)) ≤ 1 + u * (t - a))
    (hs : s ≤ R) (ht : R ≤ t) : Real.exp (k * (R - s)) ≤ 1 + u * (R - a) := by
  rcases hs.eq_or_lt with rfl | hs'
  · simpa using h1
  have hst : 0 < t - s := by linarith
  set l := (R - s) / (t - s) with hl
  have l0 : 0 ≤ l := div_nonneg (by linarith) hst.le
  have l1 : l ≤ 1 := (div_le_one hst).mpr (by linarith)
  have el : l * (t - s) = R - s := div_mul_cancel₀ _ hst.ne'
  have c := convexOn_exp.2 (Set.mem_univ (0 : ℝ)) (Set.mem_univ (k * (t - s))) (sub_nonneg.mpr l1) l0 (by ring)
  simp only [smul_eq_mul, mul_zero, zero_add, Real.exp_zero, mul_one] at c
  have e : l * (k * (t - s)) = k * (R - s) := by rw [← el]; ring
  rw [e] at c
  have b : l * Real.exp (k * (t - s)) ≤ l * (1 + u * (t - a)) := mul_le_mul_of_nonneg_left h2 l0
  have b' : (1 - l) * 1 ≤ (1 - l) * (1 + u * (s - a)) := mul_le_mul_of_nonneg_left h1 (sub_nonneg.mpr l1)
  have f : (1 - l) * (1 + u * (s - a)) + l * (1 + u * (t - a)) = 1 + u * (R - a) := by
    have : l * (t - s) = R - s := el
    linear_combination u * this
  linarith

/-- the discharge with wind exceeds `y` when the discharge without wind times the wind factor at `y` reaches `y` -/
theorem exceeds {v q y : ℝ} (hq : 0 < q) (hy : 0 < y) (hv : 0 ≤ v) (h : y ≤ q * (1 + 0.075 * v * y ^ (-0.3 : ℝ))) :
    y ≤ Published.slopeWind2025 v q ∧ (0 < v → y < Published.slopeWind2025 v q) := by
  unfold Published.slopeWind2025
  have p := MoreOvertopping.rpow_pos' (y := (-0.3 : ℝ)) hq
  have p' := MoreOvertopping.rpow_pos' (y := (-0.3 : ℝ)) hy
  rcases lt_or_ge q y with hlt | hge
  · have m : y ^ (-0.3 : ℝ) < q ^ (-0.3 : ℝ) := Real.rpow_lt_rpow_of_neg hq hlt (by norm_num)
    refine ⟨h.trans ?_, fun hv' => h.trans_lt ?_⟩
    · gcongr
    · gcongr
  · have t : 0 ≤ 0.075 * v * q ^ (-0.3 : ℝ) := by positivity
    refine ⟨hge.trans ?_, fun hv' => hge.trans_lt ?_⟩
    · exact le_mul_of_one_le_right hq.le (by linarith)
    · have : 0 < 0.075 * v * q ^ (-0.3 : ℝ) := by positivity
      exact lt_mul_of_one_lt_right hq (by linarith)
end WindProof

section
open VanGent2025 TwoFormulas MoreOvertopping WindProof
open OvertoppingTaw2002 (Sc Sc_pos Sc_eval)

/-- C54 refuted for calculations with wind: let the crest needed without wind be at or above the armour crest `a`.  The
crest `r'` returned with wind overtops at least the required discharge `q`, and more than `q` if it has a wall
(`a < r'`).  Design calculations: for discharges up to `√(9.81·Hm0³)`. -/
theorem C54_wind_refuted (H T c gv w q r a : ℝ) (m : Bool) (beta B db D gf' gb' gB' : PF) (dc : Bool)
    (X : Ok H T c gv (fin a) beta B db D gf' gb' gB') (hq : 0 < q) (hq1 : dc = true → q ≤ √(9.81 * H ^ 3))
    (h : (calculate_crest_freeboard_Rc (fin H) (fin w) (fin T) (fin q) (fin a) (fin c) beta B db D gf' gb'
        (fin gv) gB' dc false).res = .ok (fin r, m)) (hr : a ≤ r) :
    ∃ (r' q' : ℝ) (m' m'' : Bool), r ≤ r' ∧
      (calculate_crest_freeboard_Rc (fin H) (fin w) (fin T) (fin q) (fin a) (fin c) beta B db D gf' gb'
        (fin gv) gB' dc true).res = .ok (fin r', m') ∧
      (calculate_overtopping_discharge_q (fin H) (fin w) (fin T) (fin r') (fin a) (fin c) beta B db D gf' gb'
        (fin gv) gB' (fin 9.81) dc true).res = .ok (fin q', m'') ∧ q ≤ q' ∧ (a < r' → q < q') := by
  obtain ⟨hH, hT, hc, hv, f, b, o⟩ := X
  obtain ⟨gf, hf, ef⟩ := friction_ok hH hT f
  obtain ⟨gb, hb, eb⟩ := berm_ok hH hT b
  obtain ⟨gB, hB, eB⟩ := oblique_ok o
  have hx := VdMProof.xi_pos hH hT hc
  have ex := VdMProof.xi_eval hH hT hc
  have eS : PF.sqrt (9.81 * npow (fin H) 3) = fin (Sc 9.81 H) := Sc_eval (by norm_num) hH
  have hS : 0 < Sc 9.81 H := Sc_pos (by norm_num) hH
  have hG : 0 < gf * gb * gv * gB := by positivity
  -- the discharge with wind at any crest with a wall
  have disch : ∀ R : ℝ, a ≤ R → ∃ m'' : Bool,
      (calculate_overtopping_discharge_q (fin H) (fin w) (fin T) (fin R) (fin a) (fin c) beta B db D gf' gb'
        (fin gv) gB' (fin 9.81) dc true).res = .ok (fin ((if dc then Published.slopeWind2025 ((R - a) / H)
          (Q H c (gf * gb * gv * gB) (VdMProof.xi H T c) (R - 0.4 * w)) ^ (0.857 : ℝ) else
          Published.slopeWind2025 ((R - a) / H) (Q H c (gf * gb * gv * gB) (VdMProof.xi H T c) (R - 0.4 * w))) *
          Sc 9.81 H), m'') := by
    intro R ha
    unfold calculate_overtopping_discharge_q calculate_dimensionless_overtopping_discharge_q
    dsimp only
    rw [eB, eb, ex, ef, pure_bind, bind_assoc, PyM.bind_res_of_ok (check_res ..), pure_bind,
      q1_eval hH hc hx hf hb hv hB, q2_eval hH hc hx hf hb hv hB, flag_eval, min_fin,
      Sc_eval (by norm_num : (0 : ℝ) < 9.81) hH]
    have hQ := Q_pos (H := H) (G := gf * gb * gv * gB) (x := VdMProof.xi H T c) hc (R - 0.4 * w)
    change 0 < E _ _ _ ⊓ E _ _ _ at hQ
    simp only [if_true]
    rw [C78_vangent2025_wind R a H _ hH hQ, mul_fin, PyM.pure_def]
    have hp := rpow_pos' (y := (-0.3 : ℝ)) hQ
    have hw : 0 ≤ (R - a) / H := div_nonneg (by linarith) hH.le
    unfold Published.slopeWind2025
    cases dc
    · simp only [Bool.false_eq_true, if_false, mul_fin]; exact ⟨_, rfl⟩
    · simp only [if_true, sci_eq]
      rw [npow_fin (by positivity), mul_fin]; exact ⟨_, rfl⟩
  unfold calculate_crest_freeboard_Rc calculate_dimensionless_crest_freeboard at h ⊢
  dsimp only at h ⊢
  rw [eB, eb, ex, ef, pure_bind, bind_assoc, PyM.bind_res_of_ok (check_res ..), pure_bind, eS,
    div_fin hS.ne', R2_eval hH hc hx hf hb hv hB hq] at h ⊢
  have hy : 0 < q / Sc 9.81 H := by positivity
  have ey : (if dc = true then npow (fin (q / Sc 9.81 H)) (1.0 / 0.857) else fin (q / Sc 9.81 H)) =
      fin (if dc then (q / Sc 9.81 H) ^ (1 / 0.857 : ℝ) else q / Sc 9.81 H) := by
    cases dc
    · simp
    · have e8 : (1.0 / 0.857 : PF) = fin (1 / 0.857) := by
        rw [VanGent2021Caisson.e1, sci_eq, div_fin (by norm_num)]
      simp only [if_true, e8]
      rw [npow_fin hy]
  have hy' : 0 < (if dc then (q / Sc 9.81 H) ^ (1 / 0.857 : ℝ) else q / Sc 9.81 H) := by
    split_ifs
    · exact Real.rpow_pos_of_pos hy _
    · exact hy
  have hyy : (if dc then (q / Sc 9.81 H) ^ (1 / 0.857 : ℝ) else q / Sc 9.81 H) ≤ q / Sc 9.81 H := by
    split_ifs with hd
    · have h1 : q / Sc 9.81 H ≤ 1 := (div_le_one hS).mpr (hq1 hd)
      have := Real.rpow_le_rpow_of_exponent_ge hy h1 (show (1 : ℝ) ≤ 1 / 0.857 by norm_num)
      rwa [Real.rpow_one] at this
    · exact le_rfl
  have back : ∀ z : ℝ, (if dc then (q / Sc 9.81 H) ^ (1 / 0.857 : ℝ) else q / Sc 9.81 H) ≤ z →
      q ≤ (if dc then z ^ (0.857 : ℝ) else z) * Sc 9.81 H ∧
      ((if dc then (q / Sc 9.81 H) ^ (1 / 0.857 : ℝ) else q / Sc 9.81 H) < z →
        q < (if dc then z ^ (0.857 : ℝ) else z) * Sc 9.81 H) := by
    intro z hz
    rw [← div_le_iff₀ hS, ← div_lt_iff₀ hS]
    cases dc
    · simp only [Bool.false_eq_true, if_false] at hz ⊢
      exact ⟨hz, id⟩
    · simp only [if_true] at hz hy' ⊢
      have e : ((q / Sc 9.81 H) ^ (1 / 0.857 : ℝ)) ^ (0.857 : ℝ) = q / Sc 9.81 H := by
        rw [← Real.rpow_mul hy.le]; norm_num
      refine ⟨?_, fun hz' => ?_⟩
      · rw [← e]; exact Real.rpow_le_rpow hy'.le hz (by norm_num)
      · rw [← e]; exact Real.rpow_lt_rpow hy'.le hz' (by norm_num)
  rw [ey] at h ⊢
  generalize (if dc then (q / Sc 9.81 H) ^ (1 / 0.857 : ℝ) else q / Sc 9.81 H) = y at *
  have a1 := A1_pos hc
  have a2 := A2_pos hc
  have p1 := k1_pos hH hG hx
  have p2 := k2_pos hH hG hx
  have eR : ∀ z : ℝ, 0 < z → Rc_diml_eqB1 (fin H) (fin w) (fin z) (fin c) (fin (VdMProof.xi H T c))
      (fin gf) (fin gb) (fin gv) (fin gB) = fin ((L (A1 c) (k1 H (gf * gb * gv * gB)
        (VdMProof.xi H T c)) z + 0.4 * w) / H) := fun z hz => R1_eval hH hc hx hf hb hv hB hz
  rw [eR y hy'] at h ⊢
  simp only [Bool.false_eq_true, if_false, if_true] at h ⊢
  rw [min_fin, flag_eval, PyM.pure_def] at h
  dsimp only at h
  rw [mul_fin, Except.ok.injEq, Prod.mk.injEq, fin.injEq] at h
  unfold Q at disch
  generalize gf * gb * gv * gB = G at *
  generalize VdMProof.xi H T c = x at *
  set r0 := (L (A1 c) (k1 H G x) y + 0.4 * w) / H with hr0
  set rm := (L (A2 c) (k2 H G x) (q / Sc 9.81 H) + 0.4 * w) / H with hrm
  have har : a ≤ r0 * H := by
    have h1 : (r0 ⊓ rm) * H ≤ r0 * H := mul_le_mul_of_nonneg_right inf_le_left hH.le
    linarith [h.1]
  have er0 : r0 * H = L (A1 c) (k1 H G x) y + 0.4 * w := div_mul_cancel₀ _ hH.ne'
  have erm : rm * H = L (A2 c) (k2 H G x) (q / Sc 9.81 H) + 0.4 * w := div_mul_cancel₀ _ hH.ne'
  have hp := rpow_pos' (y := (-0.3 : ℝ)) hy'
  -- the wind factor as an affine function of the level
  set u := 0.075 * y ^ (-0.3 : ℝ) / H with hu
  have u0 : 0 < u := by positivity
  have ew : ∀ R : ℝ, 1 + 0.075 * ((R - a) / H) * y ^ (-0.3 : ℝ) = 1 + u * (R - a) := by
    intro R; rw [hu]; ring
  have g1 : ∀ R : ℝ, a ≤ R → 1 ≤ 1 + u * (R - a) := fun R hR => by
    have := mul_nonneg u0.le (sub_nonneg.mpr hR)
    linarith
  have key : ∀ n : ℕ, ∃ t : ℝ, r0 ≤ t ∧ Real.exp (k1 H G x * (t * H - r0 * H)) ≤ 1 + u * (t * H - a) ∧
      (whileIter n (fun s : WindState => s.diff > (1e-5 : PF))
        (fun s : WindState =>
          { Rc_diml := Rc_diml_eqB1 (fin H) (fin w) (fin y / calculate_influence_wind_gamma_w
              (s.Rc_diml * fin H) (fin a) (fin H) (fin y)) (fin c) (fin x) (fin gf)
              (fin gb) (fin gv) (fin gB),
            diff := PF.abs (Rc_diml_eqB1 (fin H) (fin w) (fin y / calculate_influence_wind_gamma_w
              (s.Rc_diml * fin H) (fin a) (fin H) (fin y)) (fin c) (fin x) (fin gf)
              (fin gb) (fin gv) (fin gB) - s.Rc_diml) })
        { Rc_diml := fin r0, diff := pinf }).Rc_diml = fin t := by
    intro n
    refine whileIter_inv _ _ (fun s : WindState => ∃ t : ℝ, r0 ≤ t ∧
      Real.exp (k1 H G x * (t * H - r0 * H)) ≤ 1 + u * (t * H - a) ∧ s.Rc_diml = fin t) ?_ n
      ⟨r0, le_rfl, by simpa using mul_nonneg u0.le (sub_nonneg.mpr har), rfl⟩
    rintro s ⟨t, ht, hte, es⟩
    simp only [es]
    have hta : a ≤ t * H := har.trans (mul_le_mul_of_nonneg_right ht hH.le)
    have hg := g1 _ hta
    have hg0 : 0 < 1 + u * (t * H - a) := by linarith
    rw [mul_fin, C78_vangent2025_wind _ _ _ _ hH hy', ew, div_fin hg0.ne', eR _ (by positivity), L_div a1 hy' hg0]
    set t' := (L (A1 c) (k1 H G x) y + Real.log (1 + u * (t * H - a)) / k1 H G x + 0.4 * w) / H with ht'
    have et' : t' * H - r0 * H = Real.log (1 + u * (t * H - a)) / k1 H G x := by
      rw [er0, ht', div_mul_cancel₀ _ hH.ne']; ring
    have hl : k1 H G x * (t * H - r0 * H) ≤ Real.log (1 + u * (t * H - a)) := by
      rwa [Real.le_log_iff_exp_le hg0]
    have htt : t * H ≤ t' * H := by
      have : t * H - r0 * H ≤ Real.log (1 + u * (t * H - a)) / k1 H G x := by
        rw [le_div_iff₀ p1, mul_comm]; exact hl
      linarith
    refine ⟨t', ht.trans (le_of_mul_le_mul_right htt hH), ?_, rfl⟩
    rw [et', mul_div_cancel₀ _ p1.ne', Real.exp_log hg0]
    have := mul_le_mul_of_nonneg_left (sub_le_sub_right htt a) u0.le
    linarith
  obtain ⟨t, ht, hte, et⟩ := key 1000
  rw [et, min_fin, PyM.pure_def]
  have hrr : r ≤ (t ⊓ rm) * H := by
    rw [← h.1]
    exact mul_le_mul_of_nonneg_right (inf_le_inf_right _ ht) hH.le
  set R := (t ⊓ rm) * H with hR
  have haR : a ≤ R := hr.trans hrr
  have hRt : R ≤ t * H := mul_le_mul_of_nonneg_right inf_le_left hH.le
  have hRm : R ≤ rm * H := mul_le_mul_of_nonneg_right inf_le_right hH.le
  obtain ⟨m'', ed⟩ := disch R haR
  have hv' : 0 ≤ (R - a) / H := div_nonneg (by linarith) hH.le
  -- the exponential formula at the returned level
  have q1 : y ≤ E (A1 c) (k1 H G x) (R - 0.4 * w) * (1 + u * (R - a)) := by
    have eE : E (A1 c) (k1 H G x) (R - 0.4 * w) = y * (Real.exp (k1 H G x * (R - r0 * H)))⁻¹ := by
      have e0 : E (A1 c) (k1 H G x) (r0 * H - 0.4 * w) = y := by
        rw [er0, add_sub_cancel_right]; exact E_L a1 p1 hy'
      conv_rhs => rw [← e0]
      unfold E
      rw [← Real.exp_neg, mul_assoc, ← Real.exp_add]
      congr 2
      ring
    have ge : Real.exp (k1 H G x * (R - r0 * H)) ≤ 1 + u * (R - a) := by
      rcases le_total (r0 * H) R with hc' | hc'
      · exact between (g1 _ har) hte hc' hRt
      · refine le_trans ?_ (g1 _ haR)
        rw [← Real.exp_zero]
        exact Real.exp_le_exp.mpr (mul_nonpos_of_nonneg_of_nonpos p1.le (by linarith))
    rw [eE, mul_assoc]
    refine le_mul_of_one_le_right hy'.le ?_
    rw [inv_mul_eq_div, le_div_iff₀ (Real.exp_pos _), one_mul]
    exact ge
  have q2 : y ≤ E (A2 c) (k2 H G x) (R - 0.4 * w) * (1 + u * (R - a)) := by
    have e0 : E (A2 c) (k2 H G x) (rm * H - 0.4 * w) = q / Sc 9.81 H := by
      rw [erm, add_sub_cancel_right]; exact E_L a2 p2 hy
    have := E_le a2 p2 (sub_le_sub_right hRm (0.4 * w))
    rw [e0] at this
    exact (hyy.trans this).trans (le_mul_of_one_le_right (E_pos a2 _ _).le (g1 _ haR))
  have hQ : 0 < E (A1 c) (k1 H G x) (R - 0.4 * w) ⊓ E (A2 c) (k2 H G x) (R - 0.4 * w) :=
    lt_inf_iff.mpr ⟨E_pos a1 _ _, E_pos a2 _ _⟩
  have qq : y ≤ (E (A1 c) (k1 H G x) (R - 0.4 * w) ⊓ E (A2 c) (k2 H G x) (R - 0.4 * w)) *
      (1 + 0.075 * ((R - a) / H) * y ^ (-0.3 : ℝ)) := by
    rw [ew]
    rcases le_total (E (A1 c) (k1 H G x) (R - 0.4 * w)) (E (A2 c) (k2 H G x) (R - 0.4 * w)) with hh | hh
    · rwa [inf_eq_left.mpr hh]
    · rwa [inf_eq_right.mpr hh]
  obtain ⟨b1, b2⟩ := exceeds hQ hy' hv' qq
  refine ⟨R, _, _, m'', hrr, by rw [← mul_fin], ed, (back _ b1).1, fun har' => (back _ b1).2 (b2 ?_)⟩
  exact div_pos (by linarith) hH
end

example : ∃ (q r' q' : ℝ) (m' m'' : Bool), 0 < q ∧ q < q' ∧
    (VanGent2025.calculate_crest_freeboard_Rc (fin 2) (fin 0.3) (fin 7) (fin q) (fin 3.5) (fin 2) (fin 25)
      0.0 (fin 0) (fin 0.8) nan nan (fin 1.05) nan false true).res = .ok (fin r', m') ∧
    (VanGent2025.calculate_overtopping_discharge_q (fin 2) (fin 0.3) (fin 7) (fin r') (fin 3.5) (fin 2) (fin 25)
      0.0 (fin 0) (fin 0.8) nan nan (fin 1.05) nan (fin 9.81) false true).res = .ok (fin q', m'') := by
  have X : VanGent2025.Ok 2 7 2 1.05 (fin 3.5) (fin 25) 0.0 (fin 0) (fin 0.8) nan nan nan :=
    ⟨by norm_num, by norm_num, by norm_num, by norm_num,
      Or.inr ⟨rfl, 0.8, rfl, by norm_num, by norm_num⟩,
      Or.inr ⟨rfl, rfl, 3.5, 0, rfl, rfl, by norm_num, by norm_num⟩, Or.inr ⟨rfl, 25, rfl⟩⟩
  obtain ⟨q, m, h0, h1, h2⟩ := (OvertoppingMoreProofs.C54_mean_value_partial 2 7 2 1.05 0.3 _ _ _ _ _ _ _ _ X).1 4
  obtain ⟨r', q', m', m'', hr, e, e', -, hlt⟩ := C54_wind_refuted 2 7 2 1.05 0.3 q 4 3.5 m _ _ _ _ _ _ _ false X h0
    (by simp) h2 (by norm_num)
  exact ⟨q, r', q', m', m'', h0, hlt (by norm_num at hr ⊢; linarith), e, e'⟩
