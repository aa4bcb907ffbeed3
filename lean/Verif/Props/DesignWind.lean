import Verif.Props.WindLevel
import Mathlib.Topology.Order.IntermediateValue
import Mathlib.Analysis.SpecialFunctions.Pow.Continuity

/-! # C94: design levels with wind by Van Gent et al. (2025) -/

open Classical
open PF
noncomputable section

section
open Published

/-- a smaller allowed discharge asks for a higher self-consistent level -/
theorem WindProof.level_anti {cot G xi w ac y y' r r' : ℝ} (hc : 0 < cot) (hG : 0 < G) (hx : 0 < xi) (hy : 0 < y')
    (hyy : y' ≤ y) (low : y < slopeBreaking2025 cot G xi ac w) (hr : ac ≤ r) (e : WindLevel2025 cot G xi r w ac y)
    (hr' : ac ≤ r') (e' : WindLevel2025 cot G xi r' w ac y') : r ≤ r' := by
  by_contra hlt
  have hlt := not_le.mp hlt
  have hy0 : 0 < y := lt_of_lt_of_le hy hyy
  obtain ⟨t, -, huniq⟩ := C104_wind_one_level hc hG hx hy0 low
  have hS : 0 < slopeBreaking2025 cot G xi r' w := by unfold slopeBreaking2025; positivity
  -- at the lower level `r'` the larger discharge is not reached
  have h1 : slopeBreaking2025 cot G xi r' w * (1 + 0.075 * (r' - ac) * y ^ (-0.3 : ℝ)) ≤ y := by
    have h2 : y ^ (-0.3 : ℝ) ≤ y' ^ (-0.3 : ℝ) := Real.rpow_le_rpow_of_nonpos hy hyy (by norm_num)
    have h3 : 0 ≤ 0.075 * (r' - ac) := mul_nonneg (by norm_num) (by linarith)
    calc _ ≤ slopeBreaking2025 cot G xi r' w * (1 + 0.075 * (r' - ac) * y' ^ (-0.3 : ℝ)) := by gcongr
      _ = y' := e'
      _ ≤ y := hyy
  have hcont : Continuous fun z => slopeBreaking2025 cot G xi z w * (1 + 0.075 * (z - ac) * y ^ (-0.3 : ℝ)) := by
    unfold slopeBreaking2025
    fun_prop
  have h0 : y ≤ slopeBreaking2025 cot G xi ac w * (1 + 0.075 * (ac - ac) * y ^ (-0.3 : ℝ)) := by
    rw [sub_self, mul_zero, zero_mul, add_zero, mul_one]; exact low.le
  obtain ⟨z, hz, ez⟩ := intermediate_value_Icc' hr' hcont.continuousOn ⟨h1, h0⟩
  have a1 := huniq z ⟨hz.1, ez⟩
  have a2 := huniq r ⟨hr, e⟩
  linarith [hz.2]

open VanGent2025

/-- C94: crest levels with wind by Van Gent et al. (2025). The level of the design calculation is at least the level of the
best fit, up to what passes and tolerance leave of the iteration, for every armour crest that alone would let more than the
required discharge pass. (Missing: higher armour crests, where the result may be no number, see
`C103_vangent2025_wind_refuted`.) -/
theorem C94_vangent2025_wind_level_partial (H T c gf gb gv gB w q a : ℝ) (beta B db D : PF) (hH : 0 < H) (hT : 0 < T)
    (hc : 0 < c) (hf : 0 < gf) (hb : 0 < gb) (hv : 0 < gv) (hB : 0 < gB) (hq : 0 < q) (hq1 : q ≤ √(9.81 * H ^ 3))
    (low : q / √(9.81 * H ^ 3) < slopeBreaking2025 c (gf * gb * gv * gB) (Textbook.iribarren H T c) (a / H) (w / H)) :
    ∃ l d : ℝ, 0 ≤ l ∧ l < 1 ∧ ∀ (N : ℕ) (t : ℝ), 0 ≤ t → ∃ (r r' : ℝ) (f f' : Bool),
      (calculate_dimensionless_crest_freeboard (fin H) (fin w) (fin T) (fin q) (fin a) (fin c) beta B db D (fin gf)
        (fin gb) (fin gv) (fin gB) 9.81 false true N (fin t)).res = .ok (fin r, f) ∧
      (calculate_dimensionless_crest_freeboard (fin H) (fin w) (fin T) (fin q) (fin a) (fin c) beta B db D (fin gf)
        (fin gb) (fin gv) (fin gB) 9.81 true true N (fin t)).res = .ok (fin r', f') ∧
      r ≤ r' + (l ^ N * d) ⊔ (l / (1 - l) * t) := by
  have hS : 0 < √(9.81 * H ^ 3) := by positivity
  have hG : 0 < gf * gb * gv * gB := by positivity
  have hx : 0 < Textbook.iribarren H T c := by rw [RangeProof.irib_eq]; exact VdMProof.xi_pos hH hT hc
  have hy : 0 < q / √(9.81 * H ^ 3) := by positivity
  have hy1 : q / √(9.81 * H ^ 3) ≤ 1 := (div_le_one hS).mpr hq1
  have hyd : 0 < (q / √(9.81 * H ^ 3)) ^ (1 / 0.857 : ℝ) := by positivity
  have hle : (q / √(9.81 * H ^ 3)) ^ (1 / 0.857 : ℝ) ≤ q / √(9.81 * H ^ 3) := by
    conv_rhs => rw [← Real.rpow_one (q / √(9.81 * H ^ 3))]
    exact Real.rpow_le_rpow_of_exponent_ge hy hy1 (by norm_num)
  obtain ⟨rb, ⟨h1, h2⟩, -⟩ := C104_wind_one_level hc hG hx hy low
  obtain ⟨rd, ⟨h3, h4⟩, -⟩ := C104_wind_one_level hc hG hx hyd (hle.trans_lt low)
  obtain ⟨rm, hrm⟩ : ∃ rm, slopeMaximum2025 c (gf * gb * gv * gB) (Textbook.iribarren H T c) rm (w / H) =
      q / √(9.81 * H ^ 3) := by
    have a2 := VanGent2025.A2_pos (c := c) hc
    have p2 := VanGent2025.k2_pos (H := H) (G := gf * gb * gv * gB) hH hG hx
    refine ⟨(TwoFormulas.L (VanGent2025.A2 c) (VanGent2025.k2 H (gf * gb * gv * gB) (Textbook.iribarren H T c))
      (q / √(9.81 * H ^ 3)) + 0.4 * w) / H, ?_⟩
    rw [← FormulaProof.maximum2025 hH hG hx, add_sub_cancel_right]
    exact TwoFormulas.E_L a2 p2 hy
  have hrr := WindProof.level_anti hc hG hx hyd hle low h1 h2 h3 h4
  obtain ⟨lb, -, -, kb⟩ := C104_wind_level H T c gf gb gv gB w q a _ rb rm beta B db D false hH hT hc hf hb hv hB hq
    (by simp) low h1 h2 hrm
  obtain ⟨l, l0, l1, kd⟩ := C104_wind_level H T c gf gb gv gB w q a _ rd rm beta B db D true hH hT hc hf hb hv hB hq
    (by simp) (hle.trans_lt low) h3 h4 hrm
  refine ⟨l, rd - a / H, l0, l1, fun N t ht => ?_⟩
  obtain ⟨r, f, e, i1, -⟩ := kb N t ht
  obtain ⟨r', f', e', -, i2⟩ := kd N t ht
  refine ⟨r, r', f, f', e, e', ?_⟩
  have : rb ⊓ rm ≤ rd ⊓ rm := inf_le_inf_right _ hrr
  linarith

/-- an armour crest 0.4 m above the water in 1 m waves with swell of 1 m and a required discharge of 1 m³/s per m -/
example := C94_vangent2025_wind_level_partial 1 6 2 0.5 1 1 1 1 1 0.4 nan 0 0 nan (by norm_num) (by norm_num) (by norm_num)
  (by norm_num) (by norm_num) (by norm_num) (by norm_num) (by norm_num)
  (Real.le_sqrt_of_sq_le (by norm_num)) (by
    unfold slopeBreaking2025
    have hS : 1 ≤ √(9.81 * 1 ^ 3) := by rw [Real.one_le_sqrt]; norm_num
    rw [show -5 * ((0.4 : ℝ) / 1 - 0.4 * (1 / 1)) = 0 by norm_num, zero_div, Real.exp_zero]
    have : 1 / √(9.81 * 1 ^ 3) ≤ 1 := (div_le_one (by positivity)).mpr hS
    norm_num at this ⊢
    linarith)

end

end
