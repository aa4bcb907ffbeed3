import Verif.Props.WindFreeboard
import Verif.Props.NotANumberSilent
import Mathlib.Analysis.Convex.SpecificFunctions.Basic
import Mathlib.Topology.Order.IntermediateValue

/-! # Property C104: the crest level with wind by Van Gent et al. (2025) is the self-consistent one

The wind factor depends on the crest level that is asked for.  The code starts with the level without wind and corrects it
with the factor at the last level.  Each step is a concave increasing function of the last level. -/

open Classical
open PF
noncomputable section

namespace Published
/-- Van Gent et al. (2025): the level `r` (over the wave height) at which the formula for breaking waves, multiplied with
the wind factor of the wall above the armour crest `ac` at the required discharge `y`, gives just that discharge -/
def WindLevel2025 (cot G xi r w ac y : ℝ) : Prop :=
  slopeBreaking2025 cot G xi r w * (1 + 0.075 * (r - ac) * y ^ (-0.3 : ℝ)) = y
end Published

namespace WindProof

/-- one step of the iteration -/
def step (k u a s R : ℝ) : ℝ := s + Real.log (1 + u * (R - a)) / k

section
variable {k u a s : ℝ} (hk : 0 < k) (hu : 0 < u) (ha : a < s)
include hk hu ha

omit hk in
theorem factor_pos {R : ℝ} (hR : s ≤ R) : 1 < 1 + u * (R - a) := by
  have := mul_pos hu (sub_pos.mpr (lt_of_lt_of_le ha hR))
  linarith

/-- there is a level at which exponential and wind factor are equal -/
theorem level_exists : ∃ t : ℝ, s < t ∧ Real.exp (k * (t - s)) = 1 + u * (t - a) := by
  let φ : ℝ → ℝ := fun R => Real.exp (k * (R - s)) - (1 + u * (R - a))
  have c : Continuous φ := by fun_prop
  have h0 : φ s < 0 := by
    have := factor_pos hu ha le_rfl
    simp only [φ, sub_self, mul_zero, Real.exp_zero]
    linarith
  set d := 2 * (u + u * (s - a) + 1) / k ^ 2 + 1 with hd
  have hsa : 0 < u * (s - a) := mul_pos hu (sub_pos.mpr ha)
  have hd1 : 1 ≤ d := by
    have : 0 ≤ 2 * (u + u * (s - a) + 1) / k ^ 2 := by positivity
    linarith
  have h1 : 0 ≤ φ (s + d) := by
    have q := Real.quadratic_le_exp_of_nonneg (x := k * d) (by positivity)
    have e : k ^ 2 * (d - 1) = 2 * (u + u * (s - a) + 1) := by rw [hd]; field_simp; ring
    simp only [φ, add_sub_cancel_left]
    have e2 : (k * d) ^ 2 / 2 = d * (u + u * (s - a) + 1) + k ^ 2 * d / 2 := by
      have : (k * d) ^ 2 = d * (k ^ 2 * (d - 1)) + k ^ 2 * d := by ring
      rw [this, e]; ring
    have kd : 0 < k * d := by positivity
    have kd2 : 0 < k ^ 2 * d := by positivity
    nlinarith [mul_le_mul_of_nonneg_right hd1 hsa.le]
  obtain ⟨t, ⟨ht1, ht2⟩, e⟩ := intermediate_value_Icc (by linarith : s ≤ s + d) c.continuousOn ⟨h0.le, h1⟩
  refine ⟨t, lt_of_le_of_ne ht1 ?_, sub_eq_zero.mp e⟩
  rintro rfl
  exact absurd e h0.ne

/-- and only one at or above the armour crest -/
theorem level_unique {t t' : ℝ} (ht : a ≤ t) (ht' : a ≤ t') (e : Real.exp (k * (t - s)) = 1 + u * (t - a))
    (e' : Real.exp (k * (t' - s)) = 1 + u * (t' - a)) : t = t' := by
  have above : ∀ {t : ℝ}, a ≤ t → Real.exp (k * (t - s)) = 1 + u * (t - a) → s < t := by
    intro t ht e
    by_contra h
    have h1 : Real.exp (k * (t - s)) ≤ 1 := by
      rw [← Real.exp_zero]
      exact Real.exp_le_exp.mpr (mul_nonpos_of_nonneg_of_nonpos hk.le (by linarith))
    have h2 := mul_nonneg hu.le (sub_nonneg.mpr ht)
    have h3 : u * (t - a) = 0 := by linarith
    have h4 : t = a := by
      rcases mul_eq_zero.mp h3 with h | h
      · exact absurd h hu.ne'
      · linarith
    have h5 : Real.exp (k * (t - s)) < 1 := by
      rw [← Real.exp_zero]
      exact Real.exp_lt_exp.mpr (mul_neg_of_pos_of_neg hk (by linarith))
    linarith
  have key : ∀ {t t' : ℝ}, s < t → t < t' → Real.exp (k * (t - s)) = 1 + u * (t - a) →
      Real.exp (k * (t' - s)) = 1 + u * (t' - a) → False := by
    intro t t' h1 h2 e e'
    have hst : 0 < t' - s := by linarith
    have l0 : 0 < (t - s) / (t' - s) := div_pos (by linarith) hst
    have l1 : (t - s) / (t' - s) < 1 := (div_lt_one hst).mpr (by linarith)
    set l := (t - s) / (t' - s)
    have el : l * (t' - s) = t - s := div_mul_cancel₀ _ hst.ne'
    have c := convexOn_exp.2 (Set.mem_univ (0 : ℝ)) (Set.mem_univ (k * (t' - s))) (sub_nonneg.mpr l1.le) l0.le (by ring)
    simp only [smul_eq_mul, mul_zero, zero_add, Real.exp_zero, mul_one] at c
    rw [show l * (k * (t' - s)) = k * (t - s) by rw [← el]; ring, e, e'] at c
    have f := mul_pos (sub_pos.mpr l1) (mul_pos hu (sub_pos.mpr ha))
    nlinarith [congrArg (u * ·) el]
  rcases lt_trichotomy t t' with h | h | h
  · exact (key (above ht e) h e e').elim
  · exact h
  · exact (key (above ht' e') h e' e).elim

omit hu ha in
/-- the level of the equation is the one that a step leaves as it is -/
theorem step_fixed {t : ℝ} (e : Real.exp (k * (t - s)) = 1 + u * (t - a)) : step k u a s t = t := by
  unfold step
  rw [← e, Real.log_exp, mul_div_cancel_left₀ _ hk.ne']
  ring

theorem step_mono {x y : ℝ} (hx : s ≤ x) (h : x ≤ y) : step k u a s x ≤ step k u a s y := by
  unfold step
  have h1 := factor_pos hu ha hx
  have h2 : 1 + u * (x - a) ≤ 1 + u * (y - a) := by gcongr
  have := Real.log_le_log (by linarith) h2
  gcongr

theorem step_start : s < step k u a s s := by
  unfold step
  have := div_pos (Real.log_pos (factor_pos hu ha le_rfl)) hk
  linarith

/-- the distance to the level is reduced by at least the same factor in every step -/
theorem contracts {t : ℝ} (hst : s < t) (e : Real.exp (k * (t - s)) = 1 + u * (t - a)) {x : ℝ} (hx : s ≤ x) (hxt : x ≤ t) :
    t - step k u a s x ≤ (t - step k u a s s) / (t - s) * (t - x) := by
  have ht : 0 < t - s := by linarith
  set l := (x - s) / (t - s) with hl
  have l0 : 0 ≤ l := div_nonneg (by linarith) ht.le
  have l1 : l ≤ 1 := (div_le_one ht).mpr (by linarith)
  have el : l * (t - s) = x - s := div_mul_cancel₀ _ ht.ne'
  have p1 := factor_pos hu ha (le_refl s)
  have p2 := factor_pos hu ha hst.le
  have c := strictConcaveOn_log_Ioi.concaveOn.2 (x := 1 + u * (s - a)) (y := 1 + u * (t - a))
    (by simp only [Set.mem_Ioi]; linarith) (by simp only [Set.mem_Ioi]; linarith) (sub_nonneg.mpr l1) l0 (by ring)
  simp only [smul_eq_mul] at c
  rw [show (1 - l) * (1 + u * (s - a)) + l * (1 + u * (t - a)) = 1 + u * (x - a) by linear_combination u * el] at c
  have c2 := div_le_div_of_nonneg_right c hk.le
  have ft := step_fixed hk e
  have f1 : (1 - l) * step k u a s s + l * t ≤ step k u a s x := by
    unfold step at ft ⊢
    have : (1 - l) * (s + Real.log (1 + u * (s - a)) / k) + l * t =
        s + ((1 - l) * Real.log (1 + u * (s - a)) + l * Real.log (1 + u * (t - a))) / k := by
      linear_combination -l * ft
    linarith
  have g : (t - step k u a s s) / (t - s) * (t - x) = (1 - l) * (t - step k u a s s) := by
    have : t - x = (1 - l) * (t - s) := by linear_combination el
    rw [this]; field_simp
  rw [g]
  linarith

theorem rate {t : ℝ} (hst : s < t) (e : Real.exp (k * (t - s)) = 1 + u * (t - a)) :
    0 ≤ (t - step k u a s s) / (t - s) ∧ (t - step k u a s s) / (t - s) < 1 := by
  have ht : 0 < t - s := by linarith
  have h1 := step_mono hk hu ha le_rfl hst.le
  rw [step_fixed hk e] at h1
  have h2 := step_start hk hu ha
  exact ⟨div_nonneg (by linarith) ht.le, (div_lt_one ht).mpr (by linarith)⟩

/-- the estimates rise towards the level -/
theorem estimates {t : ℝ} (hst : s < t) (e : Real.exp (k * (t - s)) = 1 + u * (t - a)) (n : ℕ) :
    s ≤ (step k u a s)^[n] s ∧ (step k u a s)^[n] s ≤ t ∧
      t - (step k u a s)^[n] s ≤ ((t - step k u a s s) / (t - s)) ^ n * (t - s) := by
  induction n with
  | zero => simp [hst.le]
  | succ n ih =>
    obtain ⟨h1, h2, h3⟩ := ih
    rw [Function.iterate_succ_apply']
    have h4 := step_mono hk hu ha le_rfl h1
    have h5 := step_mono hk hu ha h1 h2
    rw [step_fixed hk e] at h5
    refine ⟨(step_start hk hu ha).le.trans h4, h5, (contracts hk hu ha hst e h1 h2).trans ?_⟩
    rw [pow_succ, mul_comm _ ((t - step k u a s s) / (t - s)), mul_assoc]
    exact mul_le_mul_of_nonneg_left h3 (rate hk hu ha hst e).1

/-- error from the last change -/
theorem last_change {t : ℝ} (hst : s < t) (e : Real.exp (k * (t - s)) = 1 + u * (t - a)) (n : ℕ) :
    t - (step k u a s)^[n + 1] s ≤ (t - step k u a s s) / (t - s) / (1 - (t - step k u a s s) / (t - s)) *
      ((step k u a s)^[n + 1] s - (step k u a s)^[n] s) := by
  obtain ⟨h1, h2, -⟩ := estimates hk hu ha hst e n
  have c := contracts hk hu ha hst e h1 h2
  obtain ⟨r0, r1⟩ := rate hk hu ha hst e
  rw [Function.iterate_succ_apply']
  generalize (step k u a s)^[n] s = x at *
  generalize (t - step k u a s s) / (t - s) = l at *
  generalize step k u a s x = y at *
  rw [div_mul_eq_mul_div, le_div_iff₀ (by linarith)]
  nlinarith
end
end WindProof

section
open VanGent2025 TwoFormulas MoreOvertopping WindProof FormulaProof
open OvertoppingTaw2002 (Sc Sc_pos Sc_eval)

/-- the published equation, in metres from the level without wind -/
theorem WindProof.level_iff {H c G x w a y s R : ℝ} (hH : 0 < H) (hc : 0 < c) (hG : 0 < G) (hx : 0 < x) (hy : 0 < y)
    (hs : s = L (A1 c) (k1 H G x) y + 0.4 * w) :
    Published.WindLevel2025 c G x (R / H) (w / H) (a / H) y ↔
      Real.exp (k1 H G x * (R - s)) = 1 + 0.075 * y ^ (-0.3 : ℝ) / H * (R - a) := by
  have a1 := A1_pos hc
  have p1 := k1_pos hH hG hx
  have e0 : E (A1 c) (k1 H G x) (s - 0.4 * w) = y := by rw [hs, add_sub_cancel_right]; exact E_L a1 p1 hy
  have eE : E (A1 c) (k1 H G x) (R - 0.4 * w) = y * (Real.exp (k1 H G x * (R - s)))⁻¹ := by
    conv_rhs => rw [← e0]
    unfold E
    rw [← Real.exp_neg, mul_assoc, ← Real.exp_add]
    congr 2
    ring
  unfold Published.WindLevel2025
  rw [← breaking2025 hH hG hx, eE]
  have hE := Real.exp_pos (k1 H G x * (R - s))
  generalize Real.exp (k1 H G x * (R - s)) = z at *
  have e1 : 1 + 0.075 * (R / H - a / H) * y ^ (-0.3 : ℝ) = 1 + 0.075 * y ^ (-0.3 : ℝ) / H * (R - a) := by ring
  rw [e1]
  generalize 1 + 0.075 * y ^ (-0.3 : ℝ) / H * (R - a) = v
  rw [mul_assoc, inv_mul_eq_div, mul_eq_left₀ hy.ne', div_eq_one_iff_eq hE.ne', eq_comm]

/-- C104: if the armour crest alone, without wind, would let more than the required discharge pass, there is exactly one
level at or above the armour crest that agrees with its own wind factor -/
theorem C104_wind_one_level {cot G xi w ac y : ℝ} (hc : 0 < cot) (hG : 0 < G) (hx : 0 < xi) (hy : 0 < y)
    (low : y < Published.slopeBreaking2025 cot G xi ac w) :
    ∃! r : ℝ, ac ≤ r ∧ Published.WindLevel2025 cot G xi r w ac y := by
  have a1 := A1_pos hc
  have p1 := k1_pos one_pos hG hx
  have hp := rpow_pos' (y := (-0.3 : ℝ)) hy
  have h1 := fun R => level_iff (H := 1) (w := w) (a := ac) (R := R) one_pos hc hG hx hy rfl
  simp only [div_one] at h1
  have low' : ac < L (A1 cot) (k1 1 G xi) y + 0.4 * w := by
    have b := breaking2025 (H := 1) (c := cot) (R := ac) (w := w) one_pos hG hx
    simp only [div_one] at b
    rw [← b] at low
    by_contra h
    have := E_le a1 p1 (sub_le_sub_right (not_lt.mp h) (0.4 * w))
    rw [add_sub_cancel_right, E_L a1 p1 hy] at this
    linarith
  obtain ⟨t, ht, e⟩ := level_exists p1 (by positivity : 0 < 0.075 * y ^ (-0.3 : ℝ)) low'
  refine ⟨t, ⟨by linarith, (h1 t).mpr e⟩, ?_⟩
  rintro t' ⟨ht', e'⟩
  exact level_unique p1 (by positivity) low' ht' (by linarith) ((h1 t').mp e') e

/-- C104: the level returned with wind, after any number of passes and with any tolerance.  `r` is the self-consistent level
of the formula for breaking waves and `rm` the level of the maximum formula, which has no wind factor.  The result never
exceeds the smaller of the two, and is as close to it as passes and tolerance allow. -/
theorem C104_wind_level (H T c gf gb gv gB w q a y r rm : ℝ) (beta B db D : PF) (dc : Bool) (hH : 0 < H) (hT : 0 < T)
    (hc : 0 < c) (hf : 0 < gf) (hb : 0 < gb) (hv : 0 < gv) (hB : 0 < gB) (hq : 0 < q)
    (hy : y = if dc then (q / √(9.81 * H ^ 3)) ^ (1 / 0.857 : ℝ) else q / √(9.81 * H ^ 3))
    (low : y < Published.slopeBreaking2025 c (gf * gb * gv * gB) (Textbook.iribarren H T c) (a / H) (w / H))
    (har : a / H ≤ r)
    (hr : Published.WindLevel2025 c (gf * gb * gv * gB) (Textbook.iribarren H T c) r (w / H) (a / H) y)
    (hrm : Published.slopeMaximum2025 c (gf * gb * gv * gB) (Textbook.iribarren H T c) rm (w / H) = q / √(9.81 * H ^ 3)) :
    ∃ l : ℝ, 0 ≤ l ∧ l < 1 ∧ ∀ (N : ℕ) (t : ℝ), 0 ≤ t → ∃ (r' : ℝ) (f : Bool),
      (calculate_dimensionless_crest_freeboard (fin H) (fin w) (fin T) (fin q) (fin a) (fin c) beta B db D (fin gf)
        (fin gb) (fin gv) (fin gB) 9.81 dc true N (fin t)).res = .ok (fin r', f) ∧
      r' ≤ r ⊓ rm ∧ r ⊓ rm - r' ≤ (l ^ N * (r - a / H)) ⊔ (l / (1 - l) * t) := by
  have hx := VdMProof.xi_pos hH hT hc
  have ex := VdMProof.xi_eval hH hT hc
  have eS : PF.sqrt (9.81 * npow (fin H) 3) = fin (Sc 9.81 H) := Sc_eval (by norm_num) hH
  have hS : 0 < Sc 9.81 H := Sc_pos (by norm_num) hH
  have hG : 0 < gf * gb * gv * gB := by positivity
  change y = if dc then (q / Sc 9.81 H) ^ (1 / 0.857 : ℝ) else q / Sc 9.81 H at hy
  change _ = q / Sc 9.81 H at hrm
  have hqS : 0 < q / Sc 9.81 H := by positivity
  have ey : (if dc = true then npow (fin (q / Sc 9.81 H)) (1.0 / 0.857) else fin (q / Sc 9.81 H)) = fin y := by
    rw [hy]
    cases dc
    · simp
    · have e8 : (1.0 / 0.857 : PF) = fin (1 / 0.857) := by
        rw [VanGent2021Caisson.e1, sci_eq, div_fin (by norm_num)]
      simp only [if_true, e8]
      rw [npow_fin hqS]
  have hy0 : 0 < y := by
    rw [hy]
    split_ifs
    · exact Real.rpow_pos_of_pos hqS _
    · exact hqS
  clear hy
  rw [RangeProof.irib_eq] at low hr hrm
  have a1 := A1_pos hc
  have a2 := A2_pos hc
  have p1 := k1_pos hH hG hx
  have p2 := k2_pos hH hG hx
  have hp := rpow_pos' (y := (-0.3 : ℝ)) hy0
  set s := L (A1 c) (k1 H (gf * gb * gv * gB) (VdMProof.xi H T c)) y + 0.4 * w with hs
  set k := k1 H (gf * gb * gv * gB) (VdMProof.xi H T c) with hk
  set u := 0.075 * y ^ (-0.3 : ℝ) / H with hu
  have u0 : 0 < u := by positivity
  have has : a < s := by
    rw [← breaking2025 hH hG hx, ← hk] at low
    by_contra h
    have := E_le a1 p1 (sub_le_sub_right (not_lt.mp h) (0.4 * w))
    rw [hs, add_sub_cancel_right, E_L a1 p1 hy0] at this
    linarith
  have er : r = r * H / H := (mul_div_cancel_right₀ _ hH.ne').symm
  have har' : a ≤ r * H := by rwa [div_le_iff₀ hH] at har
  rw [er, level_iff hH hc hG hx hy0 hs, ← hu, ← hk] at hr
  obtain ⟨t0, ht0, e0⟩ := level_exists p1 u0 has
  have hrt := level_unique p1 u0 has har' (by linarith) hr e0
  have hsr : s < r * H := by rw [hrt]; exact ht0
  have erm : rm = (L (A2 c) (k2 H (gf * gb * gv * gB) (VdMProof.xi H T c)) (q / Sc 9.81 H) + 0.4 * w) / H := by
    rw [show rm = rm * H / H from (mul_div_cancel_right₀ _ hH.ne').symm, ← maximum2025 hH hG hx] at hrm
    have := L_E a2 p2 (rm * H - 0.4 * w)
    rw [hrm] at this
    rw [this, sub_add_cancel, mul_div_cancel_right₀ _ hH.ne']
  obtain ⟨l0, l1⟩ := rate p1 u0 has hsr hr
  refine ⟨_, l0, l1, fun N t ht => ?_⟩
  have est := estimates p1 u0 has hsr hr
  have chg := last_change p1 u0 has hsr hr
  generalize (r * H - step k u a s s) / (r * H - s) = l at *
  unfold calculate_dimensionless_crest_freeboard friction_or_raise
  dsimp only
  simp only [isnan_fin, if_false]
  rw [ex, pure_bind, PyM.bind_res_of_ok (check_res ..), eS, div_fin hS.ne', R2_eval hH hc hx hf hb hv hB hq, ey]
  have eR : ∀ z : ℝ, 0 < z → Rc_diml_eqB1 (fin H) (fin w) (fin z) (fin c) (fin (VdMProof.xi H T c))
      (fin gf) (fin gb) (fin gv) (fin gB) = fin ((L (A1 c) k z + 0.4 * w) / H) :=
    fun z hz => R1_eval hH hc hx hf hb hv hB hz
  rw [eR y hy0, ← hs, ← erm]
  simp only [if_true]
  -- the passes
  set body : WindState → WindState := fun s : WindState =>
          { Rc_diml := Rc_diml_eqB1 (fin H) (fin w) (fin y / calculate_influence_wind_gamma_w
              (s.Rc_diml * fin H) (fin a) (fin H) (fin y)) (fin c) (fin (VdMProof.xi H T c)) (fin gf)
              (fin gb) (fin gv) (fin gB),
            diff := PF.abs (Rc_diml_eqB1 (fin H) (fin w) (fin y / calculate_influence_wind_gamma_w
              (s.Rc_diml * fin H) (fin a) (fin H) (fin y)) (fin c) (fin (VdMProof.xi H T c)) (fin gf)
              (fin gb) (fin gv) (fin gB) - s.Rc_diml) } with hbody
  have one : ∀ (R : ℝ) (d : PF), s ≤ R → body ⟨fin (R / H), d⟩ =
      ⟨fin (step k u a s R / H), fin |step k u a s R / H - R / H|⟩ := by
    intro R d hR
    have hg0 : 0 < 1 + u * (R - a) := by linarith [factor_pos u0 has hR]
    have e : Rc_diml_eqB1 (fin H) (fin w) (fin y / calculate_influence_wind_gamma_w (fin (R / H) * fin H) (fin a) (fin H)
        (fin y)) (fin c) (fin (VdMProof.xi H T c)) (fin gf) (fin gb) (fin gv) (fin gB) = fin (step k u a s R / H) := by
      rw [mul_fin, div_mul_cancel₀ _ hH.ne', C78_vangent2025_wind _ _ _ _ hH hy0,
        show 1 + 0.075 * ((R - a) / H) * y ^ (-0.3 : ℝ) = 1 + u * (R - a) by rw [hu]; ring, div_fin hg0.ne',
        eR _ (by positivity), L_div a1 hy0 hg0]
      congr 2
      unfold step
      rw [hs]; ring
    rw [hbody]
    dsimp only
    rw [e, sub_fin, abs_fin]
  have iter : ∀ n : ℕ, body^[n] ⟨fin (s / H), pinf⟩ = ⟨fin ((step k u a s)^[n] s / H), match n with
      | 0 => pinf
      | m + 1 => fin |(step k u a s)^[m + 1] s / H - (step k u a s)^[m] s / H|⟩ := by
    intro n
    induction n with
    | zero => rfl
    | succ n ih =>
      rw [Function.iterate_succ_apply', ih, one _ _ (est n).1, ← Function.iterate_succ_apply' (step k u a s)]
  obtain ⟨K, -, e, -, hstop⟩ := whileIter_spec (cond := fun s : WindState => s.diff > fin t) (body := body) N
    ⟨fin (s / H), pinf⟩
  rw [e, iter K, min_fin]
  refine ⟨_, _, rfl, inf_le_inf_right _ ?_, ?_⟩
  · rw [div_le_iff₀ hH]; exact (est K).2.1
  have hKr : (step k u a s)^[K] s / H ≤ r := by rw [div_le_iff₀ hH]; exact (est K).2.1
  have cut : r ⊓ rm - (step k u a s)^[K] s / H ⊓ rm ≤ r - (step k u a s)^[K] s / H := by
    rcases le_total ((step k u a s)^[K] s / H) rm with h | h
    · rw [inf_eq_left.mpr h]
      exact sub_le_sub_right inf_le_left _
    · rw [inf_eq_right.mpr h, inf_eq_right.mpr (h.trans hKr)]
      linarith
  refine cut.trans ?_
  rcases hstop with rfl | hstop
  · refine le_sup_of_le_left ?_
    have h1 : (r - (step k u a s)^[K] s / H) * H ≤ l ^ K * (r - a / H) * H := by
      have e1 : (r - (step k u a s)^[K] s / H) * H = r * H - (step k u a s)^[K] s := by field_simp
      have e2 : l ^ K * (r - a / H) * H = l ^ K * (r * H - a) := by field_simp
      rw [e1, e2]
      exact (est K).2.2.trans (mul_le_mul_of_nonneg_left (by linarith) (pow_nonneg l0 K))
    exact le_of_mul_le_mul_right h1 hH
  · rw [iter K] at hstop
    cases K with
    | zero => exact absurd (show fin t < pinf from trivial) hstop
    | succ m =>
      refine le_sup_of_le_right ?_
      have h2 : |(step k u a s)^[m + 1] s / H - (step k u a s)^[m] s / H| ≤ t := by
        simpa [gt_iff_lt, lt_fin] using hstop
      have h3 := (le_abs_self _).trans h2
      rw [← sub_div, div_le_iff₀ hH] at h3
      have h4 : 0 ≤ l / (1 - l) := div_nonneg l0 (by linarith)
      have h5 := (chg m).trans (mul_le_mul_of_nonneg_left h3 h4)
      have h6 : (r - (step k u a s)^[m + 1] s / H) * H ≤ l / (1 - l) * t * H := by
        have e1 : (r - (step k u a s)^[m + 1] s / H) * H = r * H - (step k u a s)^[m + 1] s := by field_simp
        rw [e1]; linarith
      exact le_of_mul_le_mul_right h6 hH
end

/-- C104: with enough passes and a small enough tolerance the result is as close as wanted -/
theorem C104_wind_converges (H T c gf gb gv gB w q a y r rm : ℝ) (beta B db D : PF) (dc : Bool) (hH : 0 < H) (hT : 0 < T)
    (hc : 0 < c) (hf : 0 < gf) (hb : 0 < gb) (hv : 0 < gv) (hB : 0 < gB) (hq : 0 < q)
    (hy : y = if dc then (q / √(9.81 * H ^ 3)) ^ (1 / 0.857 : ℝ) else q / √(9.81 * H ^ 3))
    (low : y < Published.slopeBreaking2025 c (gf * gb * gv * gB) (Textbook.iribarren H T c) (a / H) (w / H))
    (har : a / H ≤ r)
    (hr : Published.WindLevel2025 c (gf * gb * gv * gB) (Textbook.iribarren H T c) r (w / H) (a / H) y)
    (hrm : Published.slopeMaximum2025 c (gf * gb * gv * gB) (Textbook.iribarren H T c) rm (w / H) = q / √(9.81 * H ^ 3))
    (ε : ℝ) (hε : 0 < ε) :
    ∃ (N0 : ℕ) (t0 : ℝ), 0 < t0 ∧ ∀ (N : ℕ) (t : ℝ), N0 ≤ N → 0 ≤ t → t ≤ t0 → ∃ (r' : ℝ) (f : Bool),
      (VanGent2025.calculate_dimensionless_crest_freeboard (fin H) (fin w) (fin T) (fin q) (fin a) (fin c) beta B db D
        (fin gf) (fin gb) (fin gv) (fin gB) 9.81 dc true N (fin t)).res = .ok (fin r', f) ∧ |r' - r ⊓ rm| ≤ ε := by
  obtain ⟨l, l0, l1, h⟩ := C104_wind_level H T c gf gb gv gB w q a y r rm beta B db D dc hH hT hc hf hb hv hB hq hy low har
    hr hrm
  have d0 : 0 ≤ r - a / H := by linarith
  obtain ⟨N0, hN⟩ := exists_pow_lt_of_lt_one (show 0 < ε / (r - a / H + 1) by positivity) l1
  have c0 : 0 ≤ l / (1 - l) := div_nonneg l0 (by linarith)
  refine ⟨N0, ε / (l / (1 - l) + 1), by positivity, fun N t hN' ht ht' => ?_⟩
  obtain ⟨r', f, e, h1, h2⟩ := h N t ht
  refine ⟨r', f, e, ?_⟩
  rw [abs_of_nonpos (by linarith)]
  have h3 : l ^ N * (r - a / H) ≤ ε := by
    have h4 : l ^ N ≤ ε / (r - a / H + 1) := (pow_le_pow_of_le_one l0 l1.le hN').trans hN.le
    have h5 := mul_le_mul_of_nonneg_right h4 (by linarith : 0 ≤ r - a / H + 1)
    rw [div_mul_cancel₀ _ (by positivity)] at h5
    have h6 := pow_nonneg l0 N
    nlinarith
  have h4 : l / (1 - l) * t ≤ ε := by
    have h5 := mul_le_mul_of_nonneg_right ht' (by positivity : 0 ≤ l / (1 - l) + 1)
    rw [div_mul_cancel₀ _ (by positivity)] at h5
    nlinarith
  have := sup_le h3 h4
  linarith

/-- an armour crest 0.4 m above the water in 1 m waves with swell of 1 m and a required discharge of 1 m³/s per m -/
example : ∃ (r rm : ℝ), 0.4 ≤ r ∧ ∃ l : ℝ, 0 ≤ l ∧ l < 1 ∧ ∀ (N : ℕ) (t : ℝ), 0 ≤ t → ∃ (r' : ℝ) (f : Bool),
    (VanGent2025.calculate_dimensionless_crest_freeboard (fin 1) (fin 1) (fin 6) (fin 1) (fin 0.4) (fin 2) (fin 0) (fin 0)
      (fin 0) (fin 0.3) (fin 0.5) (fin 1) (fin 1) (fin 1) 9.81 false true N (fin t)).res = .ok (fin r', f) ∧
    r' ≤ r ⊓ rm ∧ r ⊓ rm - r' ≤ (l ^ N * (r - 0.4 / 1)) ⊔ (l / (1 - l) * t) := by
  have hx : 0 < Textbook.iribarren 1 6 2 := by
    rw [RangeProof.irib_eq]; exact VdMProof.xi_pos (by norm_num) (by norm_num) (by norm_num)
  have hS : 1 ≤ √(9.81 * 1 ^ 3) := by rw [Real.one_le_sqrt]; norm_num
  have hy : 0 < 1 / √(9.81 * 1 ^ 3) := by positivity
  have low : 1 / √(9.81 * 1 ^ 3) < Published.slopeBreaking2025 2 (0.5 * 1 * 1 * 1) (Textbook.iribarren 1 6 2) (0.4 / 1)
      (1 / 1) := by
    unfold Published.slopeBreaking2025
    rw [show -5 * ((0.4 : ℝ) / 1 - 0.4 * (1 / 1)) = 0 by norm_num, zero_div, Real.exp_zero]
    have : 1 / √(9.81 * 1 ^ 3) ≤ 1 := (div_le_one (by positivity)).mpr hS
    norm_num at this ⊢
    linarith
  obtain ⟨r, ⟨h1, h2⟩, -⟩ := C104_wind_one_level (by norm_num) (by norm_num) hx hy low
  obtain ⟨rm, hrm⟩ : ∃ rm, Published.slopeMaximum2025 2 (0.5 * 1 * 1 * 1) (Textbook.iribarren 1 6 2) rm (1 / 1) =
      1 / √(9.81 * 1 ^ 3) := by
    have a2 := VanGent2025.A2_pos (c := 2) (by norm_num)
    have p2 := VanGent2025.k2_pos (H := 1) (G := 0.5 * 1 * 1 * 1) one_pos (by norm_num) hx
    refine ⟨(TwoFormulas.L (VanGent2025.A2 2) (VanGent2025.k2 1 (0.5 * 1 * 1 * 1) (Textbook.iribarren 1 6 2))
      (1 / √(9.81 * 1 ^ 3)) + 0.4 * 1) / 1, ?_⟩
    rw [← FormulaProof.maximum2025 one_pos (by norm_num) hx, add_sub_cancel_right]
    exact TwoFormulas.E_L a2 p2 hy
  exact ⟨r, rm, by norm_num at h1 ⊢; exact h1, C104_wind_level 1 6 2 0.5 1 1 1 1 1 0.4 _ r rm _ _ _ _ false (by norm_num)
    (by norm_num) (by norm_num) (by norm_num) (by norm_num) (by norm_num) (by norm_num) (by norm_num) (by simp) low h1 h2
    hrm⟩

section
open VanGent2025 TwoFormulas MoreOvertopping WindProof FormulaProof
open OvertoppingTaw2002 (Sc Sc_pos Sc_eval)
open NumberProof (eq_silent ok_limit)

/-- C103 refuted: an armour crest that is so much higher than the crest level needed without wind that the wind factor is
negative gives the crest level NaN, without a warning for waves and slopes inside the range -/
theorem C103_vangent2025_wind_refuted (H T c gf gb gv gB w q a b y r0 : ℝ) (B db : PF) (dc : Bool) (hH : 0 < H) (hT : 0 < T)
    (hc : 1.5 ≤ c) (hc' : c ≤ 8) (hs : 0.001 ≤ Textbook.steepness H T) (hs' : Textbook.steepness H T ≤ 0.042)
    (hi : 0.05 ≤ Textbook.iribarren H T c) (hi' : Textbook.iribarren H T c ≤ 6) (hb0 : 0 ≤ b) (hb' : b ≤ 75)
    (hf : 0 < gf) (hb : 0 < gb) (hv : 0 < gv) (hB : 0 < gB) (hq : 0 < q)
    (hy : y = if dc then (q / √(9.81 * H ^ 3)) ^ (1 / 0.857 : ℝ) else q / √(9.81 * H ^ 3))
    (hr : Published.slopeBreaking2025 c (gf * gb * gv * gB) (Textbook.iribarren H T c) r0 (w / H) = y)
    (high : 1 + 0.075 * (r0 - a / H) * y ^ (-0.3 : ℝ) < 0) :
    calculate_dimensionless_crest_freeboard (fin H) (fin w) (fin T) (fin q) (fin a) (fin c) (fin b) B db nan (fin gf)
      (fin gb) (fin gv) (fin gB) 9.81 dc true = ⟨[], .ok (nan, false)⟩ := by
  have hc0 : 0 < c := by linarith
  have hx := VdMProof.xi_pos hH hT hc0
  have ex := VdMProof.xi_eval hH hT hc0
  have eS : PF.sqrt (9.81 * npow (fin H) 3) = fin (Sc 9.81 H) := Sc_eval (by norm_num) hH
  have hS : 0 < Sc 9.81 H := Sc_pos (by norm_num) hH
  have hG : 0 < gf * gb * gv * gB := by positivity
  change y = if dc then (q / Sc 9.81 H) ^ (1 / 0.857 : ℝ) else q / Sc 9.81 H at hy
  have hqS : 0 < q / Sc 9.81 H := by positivity
  have ey : (if dc = true then npow (fin (q / Sc 9.81 H)) (1.0 / 0.857) else fin (q / Sc 9.81 H)) = fin y := by
    rw [hy]
    cases dc
    · simp
    · have e8 : (1.0 / 0.857 : PF) = fin (1 / 0.857) := by
        rw [VanGent2021Caisson.e1, sci_eq, div_fin (by norm_num)]
      simp only [if_true, e8]
      rw [npow_fin hqS]
  have hy0 : 0 < y := by
    rw [hy]
    split_ifs
    · exact Real.rpow_pos_of_pos hqS _
    · exact hqS
  clear hy
  have a1 := A1_pos hc0
  have p1 := k1_pos hH hG hx
  have hp := rpow_pos' (y := (-0.3 : ℝ)) hy0
  have er : (L (A1 c) (k1 H (gf * gb * gv * gB) (VdMProof.xi H T c)) y + 0.4 * w) / H = r0 := by
    rw [RangeProof.irib_eq, show r0 = r0 * H / H from (mul_div_cancel_right₀ _ hH.ne').symm,
      ← breaking2025 hH hG hx] at hr
    rw [← hr, L_E a1 p1, sub_add_cancel, mul_div_cancel_right₀ _ hH.ne']
  have eI : CorePhysics.calculate_Iribarren_number_ksi (fin H) (fin T) (fin c) = fin (Textbook.iribarren H T c) :=
    RangeProof.irib_eval hH hT hc0
  unfold calculate_dimensionless_crest_freeboard friction_or_raise
  dsimp only
  simp only [isnan_fin, if_false, if_true]
  rw [ex, pure_bind, eS, div_fin hS.ne', R2_eval hH hc0 hx hf hb hv hB hq, ey, R1_eval hH hc0 hx hf hb hv hB hy0, er]
  set body : WindState → WindState := fun s : WindState =>
          { Rc_diml := Rc_diml_eqB1 (fin H) (fin w) (fin y / calculate_influence_wind_gamma_w
              (s.Rc_diml * fin H) (fin a) (fin H) (fin y)) (fin c) (fin (VdMProof.xi H T c)) (fin gf)
              (fin gb) (fin gv) (fin gB),
            diff := PF.abs (Rc_diml_eqB1 (fin H) (fin w) (fin y / calculate_influence_wind_gamma_w
              (s.Rc_diml * fin H) (fin a) (fin H) (fin y)) (fin c) (fin (VdMProof.xi H T c)) (fin gf)
              (fin gb) (fin gv) (fin gB) - s.Rc_diml) } with hbody
  have one : body ⟨fin r0, pinf⟩ = ⟨nan, nan⟩ := by
    have e : Rc_diml_eqB1 (fin H) (fin w) (fin y / calculate_influence_wind_gamma_w (fin r0 * fin H) (fin a) (fin H)
        (fin y)) (fin c) (fin (VdMProof.xi H T c)) (fin gf) (fin gb) (fin gv) (fin gB) = nan := by
      have e1 : 1 + 0.075 * ((r0 * H - a) / H) * y ^ (-0.3 : ℝ) = 1 + 0.075 * (r0 - a / H) * y ^ (-0.3 : ℝ) := by
        rw [sub_div, mul_div_cancel_right₀ _ hH.ne']
      rw [mul_fin, C78_vangent2025_wind _ _ _ _ hH hy0, e1, div_fin high.ne]
      unfold Rc_diml_eqB1
      have e2 : (1.0 / 6.8 : PF) * fin c * fin (y / (1 + 0.075 * (r0 - a / H) * y ^ (-0.3 : ℝ))) =
          fin (1.0 / 6.8 * c * (y / (1 + 0.075 * (r0 - a / H) * y ^ (-0.3 : ℝ)))) := by
        simp only [sci_eq]
        rw [div_fin (by norm_num), mul_fin, mul_fin]
      have e3 : 1.0 / 6.8 * c * (y / (1 + 0.075 * (r0 - a / H) * y ^ (-0.3 : ℝ))) < 0 :=
        mul_neg_of_pos_of_neg (by positivity) (div_neg_of_pos_of_neg hy0 high)
      have e4 : PF.log (fin (1.0 / 6.8 * c * (y / (1 + 0.075 * (r0 - a / H) * y ^ (-0.3 : ℝ))))) = nan := by
        simp only [PF.log, if_neg (not_lt.mpr e3.le), if_neg e3.ne]
      rw [e2, e4]
      simp only [nan_mul, nan_add]
    rw [hbody]
    dsimp only
    rw [e]
    rfl
  have stop : whileIter 1000 (fun s : WindState => s.diff > (1e-5 : PF)) body ⟨fin r0, pinf⟩ = ⟨nan, nan⟩ := by
    rw [whileIter_stop _ _ 1000 1 _ (by norm_num) ?_ ?_]
    · exact one
    · intro j hj
      obtain rfl : j = 0 := by omega
      show (pinf : PF) > 1e-5
      rw [sci_eq]
      trivial
    · rw [Function.iterate_one, one]
      exact fun h => h
  rw [stop]
  have em : ∀ x : PF, PF.min nan x = nan := fun x => by simp [PF.min]
  simp only [em, nan_mul]
  have key : ∀ {x lo hi : ℝ} {g : Prop}, lo ≤ x → x ≤ hi → ¬ (g ∧ OutOfRange (fin lo) (fin hi) (fin x)) :=
    fun a b h => ok_limit (n := "") a b h.2
  refine eq_silent ?_ ?_
  · rw [PyM.bind_warns_of_ok (check_res ..)]
    simp only [check_validity_range, check_bind_warns, check_if_given_warns, PyM.pure_def, List.append_nil,
      List.append_eq_nil_iff, ite_eq_right_iff, reduceCtorEq, imp_false, eI, RangeProof.steep_eval hT]
    simp only [sci_eq]
    exact ⟨key hc (by norm_num; exact hc'), key hs hs', key hi (by norm_num; exact hi'), by simp, by simp, by simp, by simp,
      by simp, by simp, by simp, by simp, key (by norm_num; exact hb0) (by norm_num; exact hb')⟩
  · rw [PyM.bind_res_of_ok (check_res ..)]
    have hf : ∀ x : PF, ¬ PF.eqF nan x := fun x h => h
    simp only [PyM.pure_def, hf, decide_false]
end

/-- an armour crest one wave height above the level needed -/
example : ∃ a q : ℝ, 0 < q ∧ VanGent2025.calculate_dimensionless_crest_freeboard (fin 1) (fin 0) (fin 5) (fin q) (fin a)
    (fin 2) (fin 0) (fin 0) (fin 0) nan (fin 0.5) (fin 1) (fin 1) (fin 1) 9.81 false true = ⟨[], .ok (nan, false)⟩ := by
  have hS : 0 < √(9.81 * 1 ^ 3) := by positivity
  have hpi := Real.pi_gt_d2
  have hpi' := Real.pi_lt_d2
  have es : Textbook.steepness 1 5 = 2 * Real.pi / (9.81 * 25) := by
    unfold Textbook.steepness
    norm_num
  have hx := VdMProof.xi_pos (H := 1) (T := 5) (c := 2) (by norm_num) (by norm_num) (by norm_num)
  have hI : 0.05 ≤ Textbook.iribarren 1 5 2 ∧ Textbook.iribarren 1 5 2 ≤ 6 := by
    unfold Textbook.iribarren
    rw [es]
    have h1 : (0.1 : ℝ) ≤ √(2 * Real.pi / (9.81 * 25)) := by
      apply Real.le_sqrt_of_sq_le
      rw [le_div_iff₀ (by norm_num)]; norm_num at hpi ⊢; linarith
    have h2 : √(2 * Real.pi / (9.81 * 25)) ≤ 1 := by
      rw [Real.sqrt_le_one, div_le_one (by norm_num)]; norm_num at hpi' ⊢; linarith
    constructor
    · rw [le_div_iff₀ (by linarith)]; norm_num at h2 ⊢; linarith
    · rw [div_le_iff₀ (by linarith)]; norm_num at h1 ⊢; linarith
  have a1 := VanGent2025.A1_pos (c := 2) (by norm_num)
  have p1 := VanGent2025.k1_pos (H := 1) (G := 0.5 * 1 * 1 * 1) one_pos (by norm_num) hx
  have hy : (0 : ℝ) < (2 : ℝ) ^ (-20 : ℝ) := by positivity
  obtain ⟨r0, hr⟩ : ∃ r0, Published.slopeBreaking2025 2 (0.5 * 1 * 1 * 1) (Textbook.iribarren 1 5 2) r0 (0 / 1) =
      (2 : ℝ) ^ (-20 : ℝ) := by
    refine ⟨(TwoFormulas.L (VanGent2025.A1 2) (VanGent2025.k1 1 (0.5 * 1 * 1 * 1) (VdMProof.xi 1 5 2))
      ((2 : ℝ) ^ (-20 : ℝ)) + 0.4 * 0) / 1, ?_⟩
    rw [RangeProof.irib_eq, ← FormulaProof.breaking2025 one_pos (by norm_num) hx, add_sub_cancel_right]
    exact TwoFormulas.E_L a1 p1 hy
  refine ⟨r0 + 1, (2 : ℝ) ^ (-20 : ℝ) * √(9.81 * 1 ^ 3), by positivity, C103_vangent2025_wind_refuted 1 5 2 0.5 1 1 1 0 _ _ 0
    _ r0 _ _ false (by norm_num) (by norm_num) (by norm_num) (by norm_num) ?_ ?_ hI.1 hI.2 (by norm_num) (by norm_num)
    (by norm_num) (by norm_num) (by norm_num) (by norm_num) (by positivity)
    (by rw [if_neg (by simp), mul_div_cancel_right₀ _ hS.ne']) hr ?_⟩
  · rw [es, le_div_iff₀ (by norm_num)]; norm_num at hpi ⊢; linarith
  · rw [es, div_le_iff₀ (by norm_num)]; norm_num at hpi' ⊢; linarith
  · rw [← Real.rpow_mul (by norm_num), show (-20 : ℝ) * -0.3 = ((6 : ℕ) : ℝ) by norm_num, Real.rpow_natCast]
    norm_num
