import Verif.Props.FormulasOvertoppingMore
import Verif.Props.Raise

/-! # Property C80, Van Gent et al. (2025) with wind: higher walls

With the wind option the discharge without wind `q` becomes `q·(1 + 0.075·(Rc − Ac)/Hm0·q^(−0.3))`.  The wind factor
grows with the wall and with a smaller discharge, so for small discharges a higher wall overtops more. -/

open Classical
open PF
noncomputable section

namespace Published
/-- Van Gent et al. (2025), the smaller of the two formulas -/
def slope2025 (cot G xi r w : ℝ) : ℝ := slopeBreaking2025 cot G xi r w ⊓ slopeMaximum2025 cot G xi r w
/-- with the wind factor; `v` is the height of the wall over the wave height -/
def slopeWind2025 (v q : ℝ) : ℝ := q * (1 + 0.075 * v * q ^ (-0.3 : ℝ))
end Published

section
open VanGent2025 FormulaProof MoreOvertopping
open OvertoppingTaw2002 (Sc Sc_pos Sc_eval)
variable (H T c gf gb gv gB : ℝ) (beta B db D : PF) (hH : 0 < H) (hT : 0 < T) (hc : 0 < c)
  (hf : 0 < gf) (hb : 0 < gb) (hv : 0 < gv) (hB : 0 < gB)
include hH hT hc hf hb hv hB

/-- C78: overtopping of slopes by Van Gent et al. (2025) with wind, crests at or above the armour crest -/
theorem C78_vangent2025_discharge_wind (R a w g : ℝ) (dc : Bool) (hg : 0 < g) (ha : a ≤ R) : ∃ (q : ℝ) (f : Bool),
    0 < q ∧ (calculate_overtopping_discharge_q (fin H) (fin w) (fin T) (fin R) (fin a) (fin c) beta B db D (fin gf)
      (fin gb) (fin gv) (fin gB) (fin g) dc true).res = .ok (fin q, f) ∧
    q / √(g * H ^ 3) = if dc then Published.slopeWind2025 ((R - a) / H) (Published.slope2025 c (gf * gb * gv * gB)
      (Textbook.iribarren H T c) (R / H) (w / H)) ^ (0.857 : ℝ) else Published.slopeWind2025 ((R - a) / H)
      (Published.slope2025 c (gf * gb * gv * gB) (Textbook.iribarren H T c) (R / H) (w / H)) := by
  have hS := Sc_pos hg hH
  have hx := VdMProof.xi_pos hH hT hc
  have ex := VdMProof.xi_eval hH hT hc
  have hG : 0 < gf * gb * gv * gB := by positivity
  have hQ := Q_pos (H := H) (G := gf * gb * gv * gB) (x := VdMProof.xi H T c) hc (R - 0.4 * w)
  change 0 < TwoFormulas.E _ _ _ ⊓ TwoFormulas.E _ _ _ at hQ
  have hp := rpow_pos' (y := (-0.3 : ℝ)) hQ
  have hw : 0 ≤ (R - a) / H := div_nonneg (by linarith) hH.le
  have key : ∃ f, (calculate_overtopping_discharge_q (fin H) (fin w) (fin T) (fin R) (fin a) (fin c) beta B db D
      (fin gf) (fin gb) (fin gv) (fin gB) (fin g) dc true).res = .ok (fin ((if dc then Published.slopeWind2025
        ((R - a) / H) (TwoFormulas.E (A1 c) (k1 H (gf * gb * gv * gB) (VdMProof.xi H T c)) (R - 0.4 * w) ⊓
        TwoFormulas.E (A2 c) (k2 H (gf * gb * gv * gB) (VdMProof.xi H T c)) (R - 0.4 * w)) ^ (0.857 : ℝ) else
        Published.slopeWind2025 ((R - a) / H) (TwoFormulas.E (A1 c) (k1 H (gf * gb * gv * gB) (VdMProof.xi H T c))
        (R - 0.4 * w) ⊓ TwoFormulas.E (A2 c) (k2 H (gf * gb * gv * gB) (VdMProof.xi H T c)) (R - 0.4 * w))) *
        Sc g H), f) := by
    unfold calculate_overtopping_discharge_q calculate_dimensionless_overtopping_discharge_q friction_or_raise
    dsimp only
    simp only [isnan_fin, if_false, Bool.false_eq_true]
    rw [ex, pure_bind, bind_assoc, PyM.bind_res_of_ok (check_res ..), pure_bind,
      q1_eval hH hc hx hf hb hv hB, q2_eval hH hc hx hf hb hv hB, flag_eval, min_fin, Sc_eval hg hH]
    simp only [if_true]
    rw [C78_vangent2025_wind R a H _ hH hQ, mul_fin, PyM.pure_def]
    unfold Published.slopeWind2025
    cases dc
    · simp only [Bool.false_eq_true, if_false, mul_fin]; exact ⟨_, rfl⟩
    · simp only [if_true, sci_eq]
      rw [npow_fin (by positivity), mul_fin]; exact ⟨_, rfl⟩
  obtain ⟨f, key⟩ := key
  have h0 : 0 < Published.slopeWind2025 ((R - a) / H) (TwoFormulas.E (A1 c) (k1 H (gf * gb * gv * gB)
      (VdMProof.xi H T c)) (R - 0.4 * w) ⊓ TwoFormulas.E (A2 c) (k2 H (gf * gb * gv * gB) (VdMProof.xi H T c))
      (R - 0.4 * w)) := by unfold Published.slopeWind2025; positivity
  refine ⟨_, f, ?_, key, ?_⟩
  · refine mul_pos ?_ hS
    split_ifs
    · exact Real.rpow_pos_of_pos h0 _
    · exact h0
  · unfold Published.slope2025
    rw [RangeProof.irib_eq, ← breaking2025 hH hG hx, ← maximum2025 hH hG hx]
    exact mul_div_cancel_right₀ _ hS.ne'
end

namespace WindProof
open Published

theorem wind_split {v q : ℝ} (hq : 0 < q) : slopeWind2025 v q = q + 0.075 * v * q ^ (0.7 : ℝ) := by
  unfold slopeWind2025
  have : q ^ (0.7 : ℝ) = q * q ^ (-0.3 : ℝ) := by
    rw [← Real.rpow_one_add' hq.le (by norm_num)]; norm_num
  rw [this]; ring

theorem slope_pos {c G x r w : ℝ} (hc : 0 < c) : 0 < slope2025 c G x r w := by
  unfold slope2025 slopeBreaking2025 slopeMaximum2025
  exact lt_inf_iff.mpr ⟨by positivity, by positivity⟩

variable {c G x w r r' : ℝ}

theorem breaking_shift : slopeBreaking2025 c G x r w =
    Real.exp (5 / (G * x) * (r' - r)) * slopeBreaking2025 c G x r' w := by
  unfold slopeBreaking2025
  rw [mul_left_comm, ← Real.exp_add]
  congr 2
  ring

theorem maximum_shift : slopeMaximum2025 c G x r w =
    Real.exp (2.5 / (G * x ^ (0.24 : ℝ)) * (r' - r)) * slopeMaximum2025 c G x r' w := by
  unfold slopeMaximum2025
  rw [mul_left_comm, ← Real.exp_add]
  congr 2
  ring

/-- a raise reduces the discharge without wind at least and at most by these factors -/
theorem slope_shift (hc : 0 < c) (hr : r ≤ r') {k K : ℝ} (h1 : k ≤ 5 / (G * x)) (h2 : k ≤ 2.5 / (G * x ^ (0.24 : ℝ)))
    (h3 : 5 / (G * x) ≤ K) (h4 : 2.5 / (G * x ^ (0.24 : ℝ)) ≤ K) :
    Real.exp (k * (r' - r)) * slope2025 c G x r' w ≤ slope2025 c G x r w ∧
    slope2025 c G x r w ≤ Real.exp (K * (r' - r)) * slope2025 c G x r' w := by
  have hd : 0 ≤ r' - r := sub_nonneg.mpr hr
  have p1 : 0 < slopeBreaking2025 c G x r' w := by unfold slopeBreaking2025; positivity
  have p2 : 0 < slopeMaximum2025 c G x r' w := by unfold slopeMaximum2025; positivity
  unfold slope2025
  rw [breaking_shift (r := r) (r' := r'), maximum_shift (r := r) (r' := r')]
  generalize slopeBreaking2025 c G x r' w = a at *
  generalize slopeMaximum2025 c G x r' w = b at *
  have e1 := Real.exp_le_exp.mpr (mul_le_mul_of_nonneg_right h1 hd)
  have e2 := Real.exp_le_exp.mpr (mul_le_mul_of_nonneg_right h2 hd)
  have e3 := Real.exp_le_exp.mpr (mul_le_mul_of_nonneg_right h3 hd)
  have e4 := Real.exp_le_exp.mpr (mul_le_mul_of_nonneg_right h4 hd)
  constructor
  · refine le_inf ?_ ?_
    · exact mul_le_mul e1 inf_le_left (lt_inf_iff.mpr ⟨p1, p2⟩).le (Real.exp_pos _).le
    · exact mul_le_mul e2 inf_le_right (lt_inf_iff.mpr ⟨p1, p2⟩).le (Real.exp_pos _).le
  · rcases le_total a b with h | h
    · rw [inf_eq_left.mpr h]
      exact inf_le_left.trans (mul_le_mul_of_nonneg_right e3 p1.le)
    · rw [inf_eq_right.mpr h]
      exact inf_le_right.trans (mul_le_mul_of_nonneg_right e4 p2.le)

theorem q07 {q : ℝ} (hq : 0 < q) : q ^ (0.3 : ℝ) * q ^ (0.7 : ℝ) = q := by
  rw [← Real.rpow_add hq]; norm_num

theorem higher_less {v k : ℝ} (hc : 0 < c) (hv : 0 ≤ v) (hr : r ≤ r') (h1 : k ≤ 5 / (G * x))
    (h2 : k ≤ 2.5 / (G * x ^ (0.24 : ℝ))) (h : 0.075 ≤ k * slope2025 c G x r' w ^ (0.3 : ℝ)) :
    slopeWind2025 (v + (r' - r)) (slope2025 c G x r' w) ≤ slopeWind2025 v (slope2025 c G x r w) := by
  have hd : 0 ≤ r' - r := sub_nonneg.mpr hr
  have q0 := slope_pos (G := G) (x := x) (r := r) (w := w) hc
  have q0' := slope_pos (G := G) (x := x) (r := r') (w := w) hc
  have s := (slope_shift (w := w) hc hr h1 h2 le_sup_left le_sup_right).1
  rw [wind_split q0, wind_split q0']
  generalize slope2025 c G x r w = q at *
  generalize slope2025 c G x r' w = q' at *
  generalize r' - r = d at *
  have h3 : 0 < q' ^ (0.3 : ℝ) := Real.rpow_pos_of_pos q0' _
  have h7 : 0 < q' ^ (0.7 : ℝ) := Real.rpow_pos_of_pos q0' _
  have hk : 0 < k := by
    by_contra hk
    have := mul_nonpos_of_nonpos_of_nonneg (not_lt.mp hk) h3.le
    linarith
  have e := Real.add_one_le_exp (k * d)
  have hqq : q' + k * d * q' ≤ q := by
    have := mul_le_mul_of_nonneg_right e q0'.le
    linarith
  have hq7 : q' ^ (0.7 : ℝ) ≤ q ^ (0.7 : ℝ) := by
    refine Real.rpow_le_rpow q0'.le ?_ (by norm_num)
    have : 0 ≤ k * d * q' := by positivity
    linarith
  have b1 : 0.075 * d * q' ^ (0.7 : ℝ) ≤ k * d * q' := by
    have := mul_le_mul_of_nonneg_right h (mul_nonneg hd h7.le)
    calc 0.075 * d * q' ^ (0.7 : ℝ) = 0.075 * (d * q' ^ (0.7 : ℝ)) := by ring
      _ ≤ k * q' ^ (0.3 : ℝ) * (d * q' ^ (0.7 : ℝ)) := this
      _ = k * d * (q' ^ (0.3 : ℝ) * q' ^ (0.7 : ℝ)) := by ring
      _ = k * d * q' := by rw [q07 q0']
  have b2 : 0.075 * v * q' ^ (0.7 : ℝ) ≤ 0.075 * v * q ^ (0.7 : ℝ) := by gcongr
  have : 0.075 * (v + d) * q' ^ (0.7 : ℝ) = 0.075 * v * q' ^ (0.7 : ℝ) + 0.075 * d * q' ^ (0.7 : ℝ) := by ring
  linarith

theorem wall_more {K : ℝ} (hc : 0 < c) (hK : 0 < K) (h3 : 5 / (G * x) ≤ K) (h4 : 2.5 / (G * x ^ (0.24 : ℝ)) ≤ K)
    (h : K * slope2025 c G x r w ^ (0.3 : ℝ) < 0.075) : ∃ d0 : ℝ, 0 < d0 ∧ ∀ d, 0 < d → d < d0 →
    slopeWind2025 0 (slope2025 c G x r w) < slopeWind2025 d (slope2025 c G x (r + d) w) := by
  have q0 := slope_pos (G := G) (x := x) (r := r) (w := w) hc
  have h3' : 0 < slope2025 c G x r w ^ (0.3 : ℝ) := Real.rpow_pos_of_pos q0 _
  have h7' : 0 < slope2025 c G x r w ^ (0.7 : ℝ) := Real.rpow_pos_of_pos q0 _
  have e37 := q07 q0
  set q := slope2025 c G x r w with hq
  set p := q ^ (0.3 : ℝ) with hp
  set u := 0.075 / p with hu
  have hu0 : 0 < u := by positivity
  have huK : K < u := by rw [hu, lt_div_iff₀ h3']; exact h
  refine ⟨(u - K) / (u * K), div_pos (by linarith) (by positivity), fun d hd hdd => ?_⟩
  have q1 := slope_pos (G := G) (x := x) (r := r + d) (w := w) hc
  have s := (slope_shift (c := c) (w := w) hc (le_add_of_nonneg_right hd.le : r ≤ r + d) inf_le_left inf_le_right
    h3 h4).2
  rw [add_sub_cancel_left, ← hq] at s
  rw [wind_split q0, wind_split q1, mul_zero, zero_mul, add_zero]
  generalize slope2025 c G x (r + d) w = q' at *
  rw [lt_div_iff₀ (by positivity)] at hdd
  have hE : 0 < Real.exp (K * d) := Real.exp_pos _
  have hE1 : 1 ≤ Real.exp (K * d) := Real.one_le_exp (by positivity)
  -- the factor lost by the raise
  have s' : (Real.exp (K * d))⁻¹ * q ≤ q' := by rwa [inv_mul_le_iff₀ hE]
  have hi : 1 - K * d ≤ (Real.exp (K * d))⁻¹ := by
    rw [← Real.exp_neg]
    have := Real.add_one_le_exp (-(K * d))
    linarith
  set i := (Real.exp (K * d))⁻¹ with hidef
  have i0 : 0 < i := inv_pos.mpr hE
  have i1 : i ≤ 1 := inv_le_one_of_one_le₀ hE1
  have s7 : i * q ^ (0.7 : ℝ) ≤ q' ^ (0.7 : ℝ) := by
    calc i * q ^ (0.7 : ℝ) ≤ i ^ (0.7 : ℝ) * q ^ (0.7 : ℝ) := by
          refine mul_le_mul_of_nonneg_right ?_ h7'.le
          have := Real.rpow_le_rpow_of_exponent_ge i0 i1 (show (0.7 : ℝ) ≤ 1 by norm_num)
          rwa [Real.rpow_one] at this
      _ = (i * q) ^ (0.7 : ℝ) := (Real.mul_rpow i0.le q0.le).symm
      _ ≤ q' ^ (0.7 : ℝ) := Real.rpow_le_rpow (by positivity) s' (by norm_num)
  have t1 : 1 < (1 - K * d) * (1 + u * d) := by
    have : 0 < d * (u - K - d * (u * K)) := mul_pos hd (by linarith)
    nlinarith
  have t2 : 1 < i * (1 + u * d) := t1.trans_le (mul_le_mul_of_nonneg_right hi (by positivity))
  have t3 : q < i * (1 + u * d) * q := lt_mul_of_one_lt_left q0 t2
  have t4 : u * q = 0.075 * q ^ (0.7 : ℝ) := by
    rw [hu, div_mul_eq_mul_div, div_eq_iff h3'.ne']
    conv_lhs => rw [← e37]
    ring
  calc q < i * (1 + u * d) * q := t3
    _ = i * q + d * (i * (u * q)) := by ring
    _ = i * q + 0.075 * d * (i * q ^ (0.7 : ℝ)) := by rw [t4]; ring
    _ ≤ q' + 0.075 * d * q' ^ (0.7 : ℝ) := by gcongr

/-- high crests have a discharge as small as one likes -/
theorem small (hG : 0 < G) (hx : 0 < x) (hc : 0 < c) {e : ℝ} (he : 0 < e) : ∃ r : ℝ, slope2025 c G x r w < e := by
  have hb : 0 < 5 / (G * x) := by positivity
  obtain ⟨t, ht⟩ : ∃ t : ℝ, 6.8 / c * Real.exp t < e := by
    refine ⟨Real.log (e * c / 6.8) - 1, ?_⟩
    rw [Real.exp_sub, Real.exp_log (by positivity), ← mul_div_assoc, div_lt_iff₀ (Real.exp_pos 1)]
    have : 6.8 / c * (e * c / 6.8) = e := by field_simp
    rw [this]
    exact lt_mul_of_one_lt_right he (Real.one_lt_exp_iff.mpr one_pos)
  refine ⟨0.4 * w - t * (G * x) / 5, inf_le_left.trans_lt ?_⟩
  unfold slopeBreaking2025
  have : -5 * (0.4 * w - t * (G * x) / 5 - 0.4 * w) / (G * x) = t := by field_simp; ring
  rwa [this]
end WindProof

section
open VanGent2025 WindProof
variable (H T c gf gb gv gB : ℝ) (beta B db D : PF) (hH : 0 < H) (hT : 0 < T) (hc : 0 < c)
  (hf : 0 < gf) (hb : 0 < gb) (hv : 0 < gv) (hB : 0 < gB)
include hH hT hc hf hb hv hB

/-- C80: with wind, a higher wall overtops at most as much, as long as the (dimensionless) discharge without wind over
the higher wall is at least the given one -/
theorem C80_vangent2025_wind_partial (R R' a w g : ℝ) (dc : Bool) (hg : 0 < g) (ha : a ≤ R) (hR : R ≤ R')
    (h1 : 0.075 * (gf * gb * gv * gB * Textbook.iribarren H T c) ≤
      5 * Published.slope2025 c (gf * gb * gv * gB) (Textbook.iribarren H T c) (R' / H) (w / H) ^ (0.3 : ℝ))
    (h2 : 0.075 * (gf * gb * gv * gB * Textbook.iribarren H T c ^ (0.24 : ℝ)) ≤
      2.5 * Published.slope2025 c (gf * gb * gv * gB) (Textbook.iribarren H T c) (R' / H) (w / H) ^ (0.3 : ℝ)) :
    ∃ (q q' : ℝ) (f f' : Bool), 0 < q' ∧ q' ≤ q ∧
      (calculate_overtopping_discharge_q (fin H) (fin w) (fin T) (fin R) (fin a) (fin c) beta B db D (fin gf)
        (fin gb) (fin gv) (fin gB) (fin g) dc true).res = .ok (fin q, f) ∧
      (calculate_overtopping_discharge_q (fin H) (fin w) (fin T) (fin R') (fin a) (fin c) beta B db D (fin gf)
        (fin gb) (fin gv) (fin gB) (fin g) dc true).res = .ok (fin q', f') := by
  have hS : 0 < √(g * H ^ 3) := by positivity
  have hx : 0 < Textbook.iribarren H T c := by rw [RangeProof.irib_eq]; exact VdMProof.xi_pos hH hT hc
  obtain ⟨q, f, q0, e, hq⟩ := C78_vangent2025_discharge_wind H T c gf gb gv gB beta B db D hH hT hc hf hb hv hB R a w g
    dc hg ha
  obtain ⟨q', f', q0', e', hq'⟩ := C78_vangent2025_discharge_wind H T c gf gb gv gB beta B db D hH hT hc hf hb hv hB R' a
    w g dc hg (ha.trans hR)
  refine ⟨q, q', f, f', q0', ?_, e, e'⟩
  rw [div_eq_iff hS.ne'] at hq hq'
  have hG : 0 < gf * gb * gv * gB := by positivity
  generalize gf * gb * gv * gB = G at *
  generalize Textbook.iribarren H T c = x at *
  have hp := slope_pos (G := G) (x := x) (r := R' / H) (w := w / H) hc
  have hp3 := Real.rpow_pos_of_pos hp 0.3
  have key := higher_less (c := c) (G := G) (x := x) (w := w / H) (r := R / H) (r' := R' / H) (v := (R - a) / H)
    (k := 0.075 / Published.slope2025 c G x (R' / H) (w / H) ^ (0.3 : ℝ)) hc (div_nonneg (by linarith) hH.le)
    (div_le_div_of_nonneg_right hR hH.le)
    (by rw [div_le_div_iff₀ hp3 (by positivity)]; exact h1)
    (by rw [div_le_div_iff₀ hp3 (by positivity)]; exact h2)
    (by rw [div_mul_cancel₀ _ hp3.ne'])
  have ev : (R - a) / H + (R' / H - R / H) = (R' - a) / H := by ring
  rw [ev] at key
  rw [hq, hq']
  refine mul_le_mul_of_nonneg_right ?_ hS.le
  have w0 : 0 ≤ Published.slopeWind2025 ((R' - a) / H) (Published.slope2025 c G x (R' / H) (w / H)) := by
    have : 0 ≤ (R' - a) / H := div_nonneg (by linarith) hH.le
    rw [wind_split hp]; positivity
  split_ifs
  · exact Real.rpow_le_rpow w0 key (by norm_num)
  · exact key

/-- C80 refuted for Van Gent et al. (2025) with wind: where the (dimensionless) discharge `q` without wind is small
(`5·q^0.3 < 0.075·γ·ξ` and `2.5·q^0.3 < 0.075·γ·ξ^0.24`), every wall up to a certain height on the armour crest makes the
discharge larger than without a wall -/
theorem C80_vangent2025_wind_refuted (a w g : ℝ) (dc : Bool) (hg : 0 < g)
    (h1 : 5 * Published.slope2025 c (gf * gb * gv * gB) (Textbook.iribarren H T c) (a / H) (w / H) ^ (0.3 : ℝ) <
      0.075 * (gf * gb * gv * gB * Textbook.iribarren H T c))
    (h2 : 2.5 * Published.slope2025 c (gf * gb * gv * gB) (Textbook.iribarren H T c) (a / H) (w / H) ^ (0.3 : ℝ) <
      0.075 * (gf * gb * gv * gB * Textbook.iribarren H T c ^ (0.24 : ℝ))) :
    ∃ d0 : ℝ, 0 < d0 ∧ ∀ d : ℝ, 0 < d → d < d0 → ∃ (q q' : ℝ) (f f' : Bool), 0 < q ∧ q < q' ∧
      (calculate_overtopping_discharge_q (fin H) (fin w) (fin T) (fin a) (fin a) (fin c) beta B db D (fin gf)
        (fin gb) (fin gv) (fin gB) (fin g) dc true).res = .ok (fin q, f) ∧
      (calculate_overtopping_discharge_q (fin H) (fin w) (fin T) (fin (a + d)) (fin a) (fin c) beta B db D (fin gf)
        (fin gb) (fin gv) (fin gB) (fin g) dc true).res = .ok (fin q', f') := by
  have hS : 0 < √(g * H ^ 3) := by positivity
  have hx : 0 < Textbook.iribarren H T c := by rw [RangeProof.irib_eq]; exact VdMProof.xi_pos hH hT hc
  have D1 := fun R hR => C78_vangent2025_discharge_wind H T c gf gb gv gB beta B db D hH hT hc hf hb hv hB R a w g dc hg
    hR
  have hG : 0 < gf * gb * gv * gB := by positivity
  have hp := slope_pos (G := gf * gb * gv * gB) (x := Textbook.iribarren H T c) (r := a / H) (w := w / H) hc
  have hp3 := Real.rpow_pos_of_pos hp 0.3
  have hb1 : 0 < 5 / (gf * gb * gv * gB * Textbook.iribarren H T c) := by positivity
  obtain ⟨d0, hd0, key⟩ := wall_more (c := c) (G := gf * gb * gv * gB) (x := Textbook.iribarren H T c) (w := w / H)
    (r := a / H) (K := 5 / (gf * gb * gv * gB * Textbook.iribarren H T c) ⊔
      2.5 / (gf * gb * gv * gB * Textbook.iribarren H T c ^ (0.24 : ℝ))) hc (hb1.trans_le le_sup_left) le_sup_left
    le_sup_right (by
      rw [← lt_div_iff₀ hp3]
      refine max_lt ?_ ?_
      · rw [div_lt_div_iff₀ (by positivity) hp3]; exact h1
      · rw [div_lt_div_iff₀ (by positivity) hp3]; exact h2)
  refine ⟨d0 * H, by positivity, fun d hd hdd => ?_⟩
  obtain ⟨q, f, q0, e, hq⟩ := D1 a le_rfl
  obtain ⟨q', f', q0', e', hq'⟩ := D1 (a + d) (by linarith)
  refine ⟨q, q', f, f', q0, ?_, e, e'⟩
  rw [div_eq_iff hS.ne'] at hq hq'
  have k := key (d / H) (by positivity) (by rwa [div_lt_iff₀ hH])
  rw [← add_div] at k
  rw [sub_self, zero_div] at hq
  rw [add_sub_cancel_left] at hq'
  rw [hq, hq']
  refine mul_lt_mul_of_pos_right ?_ hS
  generalize gf * gb * gv * gB = G at *
  generalize Textbook.iribarren H T c = x at *
  have w0 : 0 ≤ Published.slopeWind2025 0 (Published.slope2025 c G x (a / H) (w / H)) := by
    rw [wind_split hp]; simpa using hp.le
  split_ifs
  · exact Real.rpow_lt_rpow w0 k (by norm_num)
  · exact k

/-- the two hypotheses are met by every slope, for armour crests high enough -/
theorem C80_vangent2025_wind_any_slope_refuted (w g : ℝ) (dc : Bool) (hg : 0 < g) :
    ∃ a d : ℝ, 0 < d ∧ ∃ (q q' : ℝ) (f f' : Bool), 0 < q ∧ q < q' ∧
      (calculate_overtopping_discharge_q (fin H) (fin w) (fin T) (fin a) (fin a) (fin c) beta B db D (fin gf)
        (fin gb) (fin gv) (fin gB) (fin g) dc true).res = .ok (fin q, f) ∧
      (calculate_overtopping_discharge_q (fin H) (fin w) (fin T) (fin (a + d)) (fin a) (fin c) beta B db D (fin gf)
        (fin gb) (fin gv) (fin gB) (fin g) dc true).res = .ok (fin q', f') := by
  have hx : 0 < Textbook.iribarren H T c := by rw [RangeProof.irib_eq]; exact VdMProof.xi_pos hH hT hc
  have hG : 0 < gf * gb * gv * gB := by positivity
  set G := gf * gb * gv * gB with hGd
  set x := Textbook.iribarren H T c with hxd
  set m := (0.075 * (G * x)) / 5 ⊓ (0.075 * (G * x ^ (0.24 : ℝ))) / 2.5 with hm
  have m0 : 0 < m := lt_inf_iff.mpr ⟨by positivity, by positivity⟩
  obtain ⟨r, hr⟩ := small (w := w / H) hG hx hc (Real.rpow_pos_of_pos m0 (1 / 0.3))
  have hp := slope_pos (G := G) (x := x) (r := r) (w := w / H) hc
  have h3 : Published.slope2025 c G x r (w / H) ^ (0.3 : ℝ) < m := by
    have := Real.rpow_lt_rpow hp.le hr (show (0 : ℝ) < 0.3 by norm_num)
    rwa [← Real.rpow_mul m0.le, show (1 / 0.3 * 0.3 : ℝ) = 1 by norm_num, Real.rpow_one] at this
  obtain ⟨l1, l2⟩ := lt_inf_iff.mp h3
  rw [lt_div_iff₀ (by norm_num), mul_comm] at l1 l2
  have er : r * H / H = r := mul_div_cancel_right₀ r hH.ne'
  obtain ⟨d0, hd0, key⟩ := C80_vangent2025_wind_refuted H T c gf gb gv gB beta B db D hH hT hc hf hb hv hB (r * H) w g dc
    hg (by rw [er]; exact l1) (by rw [er]; exact l2)
  exact ⟨r * H, d0 / 2, by positivity, key (d0 / 2) (by positivity) (by linarith)⟩
end

example := C80_vangent2025_wind_any_slope_refuted 2 7 2 0.5 0.9 1 0.8 (fin 25) 0.0 0.0 (fin 0.8) (by norm_num)
  (by norm_num) (by norm_num) (by norm_num) (by norm_num) (by norm_num) (by norm_num) 0.3 9.81 true (by norm_num)

example : ∃ (q q' : ℝ) (f f' : Bool), 0 < q' ∧ q' ≤ q ∧
    (VanGent2025.calculate_overtopping_discharge_q (fin 2) (fin 2) (fin 6) (fin 0.7) (fin 0.6) (fin 3) (fin 25) 0.0 0.0
      nan (fin 0.5) (fin 0.9) (fin 1) (fin 0.8) (fin 9.81) true true).res = .ok (fin q, f) ∧
    (VanGent2025.calculate_overtopping_discharge_q (fin 2) (fin 2) (fin 6) (fin 0.8) (fin 0.6) (fin 3) (fin 25) 0.0 0.0
      nan (fin 0.5) (fin 0.9) (fin 1) (fin 0.8) (fin 9.81) true true).res = .ok (fin q', f') := by
  have hx : 0 < Textbook.iribarren 2 6 3 := by
    rw [RangeProof.irib_eq]; exact VdMProof.xi_pos (by norm_num) (by norm_num) (by norm_num)
  have h10 := FormulaProof.ordinary
  have e : Published.slope2025 3 (0.5 * 0.9 * 1 * 0.8) (Textbook.iribarren 2 6 3) (0.8 / 2) (2 / 2) = 0.8 / 3 := by
    unfold Published.slope2025 Published.slopeBreaking2025 Published.slopeMaximum2025
    norm_num
  have p : (0.8 / 3 : ℝ) ≤ (0.8 / 3 : ℝ) ^ (0.3 : ℝ) := by
    have := Real.rpow_le_rpow_of_exponent_ge (show (0 : ℝ) < 0.8 / 3 by norm_num) (by norm_num)
      (show (0.3 : ℝ) ≤ 1 by norm_num)
    rwa [Real.rpow_one] at this
  have x24 : Textbook.iribarren 2 6 3 ^ (0.24 : ℝ) ≤ 10 := by
    refine (Real.rpow_le_rpow hx.le h10 (by norm_num)).trans ?_
    have := Real.rpow_le_rpow_of_exponent_le (show (1 : ℝ) ≤ 10 by norm_num) (show (0.24 : ℝ) ≤ 1 by norm_num)
    rwa [Real.rpow_one] at this
  refine C80_vangent2025_wind_partial 2 6 3 0.5 0.9 1 0.8 _ _ _ _ (by norm_num) (by norm_num) (by norm_num) (by norm_num)
    (by norm_num) (by norm_num) (by norm_num) 0.7 0.8 0.6 2 9.81 true (by norm_num) (by norm_num) (by norm_num) ?_ ?_
  · rw [e]; norm_num at *; linarith
  · rw [e]; norm_num at *; linarith
