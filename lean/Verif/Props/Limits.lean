import Verif.SpecLimit
import Verif.Props.Raise
import Verif.Props.WindCrest
import Verif.Props.DesignSafe
import Mathlib.Analysis.SpecialFunctions.Exp
import Mathlib.Analysis.SpecialFunctions.Pow.Asymptotics
import Mathlib.Analysis.SpecialFunctions.Pow.Continuity

/-! # Property C101: very high crests, very small waves -/

open Classical
open PF Filter Topology
noncomputable section

namespace LimitProof

theorem lim_lin {k m : ℝ} (hk : 0 < k) : Tendsto (fun x : ℝ => -(k * x) + m) atTop atBot :=
  tendsto_atBot_add_const_right _ _ (tendsto_neg_atTop_atBot.comp (tendsto_id.const_mul_atTop hk))

theorem lim_exp (A : ℝ) {k : ℝ} (m : ℝ) (hk : 0 < k) :
    Tendsto (fun x : ℝ => A * Real.exp (-(k * x) + m)) atTop (𝓝 0) := by
  have := (Real.tendsto_exp_atBot.comp (lim_lin (m := m) hk)).const_mul A
  rwa [mul_zero] at this

theorem lim_pow (A : ℝ) {B k p : ℝ} (m : ℝ) (hB : 0 < B) (hk : 0 < k) (hp : 0 < p) :
    Tendsto (fun x : ℝ => A * Real.exp (-(B * (k * (x - m)) ^ p))) atTop (𝓝 0) := by
  have h1 : Tendsto (fun x : ℝ => k * (x - m)) atTop atTop :=
    (tendsto_atTop_add_const_right _ (-m) tendsto_id).const_mul_atTop hk
  have h2 := tendsto_neg_atTop_atBot.comp (((tendsto_rpow_atTop hp).comp h1).const_mul_atTop hB)
  have := (Real.tendsto_exp_atBot.comp h2).const_mul A
  rwa [mul_zero] at this

/-- a bound that vanishes suffices -/
theorem dry {q : ℝ → ℝ → Prop} (U : ℝ → ℝ) (r : ℝ) (h : ∀ x, r ≤ x → ∃ v, q x v ∧ 0 ≤ v ∧ v ≤ U x)
    (hU : Tendsto U atTop (𝓝 0)) : HighCrestsStayDry q := by
  intro ε hε
  obtain ⟨x0, h0⟩ := eventually_atTop.mp (hU.eventually (gt_mem_nhds hε))
  refine ⟨x0 ⊔ r, fun x hx => ?_⟩
  obtain ⟨v, h1, h2, h3⟩ := h x (le_sup_right.trans hx)
  exact ⟨v, h1, h2, h3.trans_lt (h0 x (le_sup_left.trans hx))⟩

/-- a ceiling that is a number of times the root of the cube of the wave height suffices -/
theorem out {q : ℝ → ℝ → Prop} {C g : ℝ} (h : ∀ H v, 0 < H → q H v → 0 ≤ v ∧ v ≤ C * √(g * H ^ 3)) :
    SmallWavesStayOut q := by
  intro ε hε
  have hc : Tendsto (fun H : ℝ => C * √(g * H ^ 3)) (𝓝 0) (𝓝 0) := by
    have : ContinuousAt (fun H : ℝ => C * √(g * H ^ 3)) 0 := by fun_prop
    simpa using this.tendsto
  obtain ⟨δ, hδ, hb⟩ := Metric.eventually_nhds_iff.mp (hc.eventually (gt_mem_nhds hε))
  refine ⟨δ, hδ, fun H hH hl v hv => ?_⟩
  obtain ⟨h1, h2⟩ := h H v hH hv
  exact ⟨h1, h2.trans_lt (hb (by rw [dist_zero_right, Real.norm_of_nonneg hH.le]; exact hl))⟩

theorem exp_le {A z : ℝ} (hA : 0 < A) (hz : 0 ≤ z) : A * Real.exp (-z) ≤ A := by
  have : Real.exp (-z) ≤ 1 := Real.exp_le_one_iff.mpr (by linarith)
  nlinarith

end LimitProof

open LimitProof

/-! ## TAW (2002) -/
section
open OvertoppingTaw2002 TwoFormulas

/-- C101, TAW (2002): every combination of options for which a discharge is returned at some crest level -/
theorem C101_taw2002_high_crest (H T R gf gv s g : ℝ) (cot cd cu beta B db gB gb : PF)
    (bf : Bool) (hH : 0 < H) (hT : 0 < T) (hf : 0 < gf) (hf1 : gf ≤ 1) (hv : 0 < gv) (hs : -7 ≤ s)
    (hgB : OmittedOr (0 < ·) gB) (hgb : OmittedOr (fun r => 0 < r ∧ r ≤ 1) gb) (hg : 0 < g) (q : ℝ) (m : Bool)
    (h : (calculate_overtopping_discharge_q (fin H) (fin T) (fin R) cot cd cu beta B db gB gb
      (fin gf) (fin gv) (fin s) (fin g) bf).res = .ok (fin q, m)) :
    HighCrestsStayDry (OvertopsWithFlag fun R => calculate_overtopping_discharge_q (fin H) (fin T) R cot cd cu beta B db
      gB gb (fin gf) (fin gv) (fin s) (fin g) bf) := by
  obtain ⟨hs0, gB', c, gb', hB, hc, hb, hb1, hp⟩ := q_inv hH hT hgB hgb h
  have hS := Sc_pos hg hH
  have hA := A1_pos hH hT hc hb
  have hd := d3_pos hH hT hc hb1 hf hf1 hB (k3_pos hs hs0)
  refine dry (fun x => 0.2 * Sc g H * Real.exp (-(d3 H T c gb' gf gB' (k3 s bf) * x) + 0)) 0 (fun x _ => ?_)
    (lim_exp _ 0 hd)
  refine ⟨(E (A1 H T c gb') (d1 H T c gb' gf gB' gv (k1 s bf)) x ⊓ E 0.2 (d3 H T c gb' gf gB' (k3 s bf)) x) * Sc g H,
    ?_, mul_nonneg (le_inf (E_pos hA _ _).le (E_pos (by norm_num) _ _).le) hS.le, ?_⟩
  · unfold OvertopsWithFlag calculate_overtopping_discharge_q
    rw [PyM.bind_res_of_ok (q_res hH hT hs0 hf hf1 hv hB hc hb hb1 hp)]
    dsimp only
    rw [Sc_eval hg hH, mul_fin]
    exact ⟨_, rfl⟩
  · rw [add_zero, mul_right_comm]
    exact mul_le_mul_of_nonneg_right inf_le_right hS.le

/-- C101, TAW (2002): no crest at or above the water level overtops more than 0.2 √(g Hm0³) -/
theorem C101_taw2002_ceiling (H T R gf gv s g : ℝ) (cot cd cu beta B db gB gb : PF)
    (bf : Bool) (hH : 0 < H) (hT : 0 < T) (hf : 0 < gf) (hf1 : gf ≤ 1) (hv : 0 < gv) (hs : -7 ≤ s)
    (hgB : OmittedOr (0 < ·) gB) (hgb : OmittedOr (fun r => 0 < r ∧ r ≤ 1) gb) (hg : 0 < g) (hR : 0 ≤ R) (q : ℝ) (m : Bool)
    (h : (calculate_overtopping_discharge_q (fin H) (fin T) (fin R) cot cd cu beta B db gB gb
      (fin gf) (fin gv) (fin s) (fin g) bf).res = .ok (fin q, m)) : 0 ≤ q ∧ q ≤ 0.2 * √(g * H ^ 3) := by
  obtain ⟨hs0, gB', c, gb', hB, hc, hb, hb1, hp⟩ := q_inv hH hT hgB hgb h
  have hS := Sc_pos hg hH
  have hA := A1_pos hH hT hc hb
  have hd := d3_pos hH hT hc hb1 hf hf1 hB (k3_pos hs hs0)
  unfold calculate_overtopping_discharge_q at h
  rw [PyM.bind_res_of_ok (q_res hH hT hs0 hf hf1 hv hB hc hb hb1 hp)] at h
  dsimp only at h
  rw [Sc_eval hg hH, mul_fin] at h
  cases h
  refine ⟨mul_nonneg (le_inf (E_pos hA _ _).le (E_pos (by norm_num) _ _).le) hS.le,
    mul_le_mul_of_nonneg_right (inf_le_right.trans (exp_le (by norm_num) (by positivity))) hS.le⟩

/-- C101, TAW (2002): very small waves do not come over a crest at or above the water level -/
theorem C101_taw2002_small_waves (T R gf gv s g : ℝ) (cot cd cu beta B db gB gb : PF)
    (bf : Bool) (hT : 0 < T) (hf : 0 < gf) (hf1 : gf ≤ 1) (hv : 0 < gv) (hs : -7 ≤ s)
    (hgB : OmittedOr (0 < ·) gB) (hgb : OmittedOr (fun r => 0 < r ∧ r ≤ 1) gb) (hg : 0 < g) (hR : 0 ≤ R) :
    SmallWavesStayOut (OvertopsWithFlag fun H => calculate_overtopping_discharge_q H (fin T) (fin R) cot cd cu beta B db
      gB gb (fin gf) (fin gv) (fin s) (fin g) bf) :=
  out (C := 0.2) (g := g) fun H v hH ⟨m, h⟩ => C101_taw2002_ceiling H T R gf gv s g cot cd cu beta B db gB gb bf hH hT hf hf1
    hv hs hgB hgb hg hR v m h
end

/-! ## EurOtop (2007) -/
section
open OvertoppingEurOtop2007 TwoFormulas
open OvertoppingTaw2002 (Sc Sc_pos Sc_eval)
variable (gf c2 c3 g : ℝ) (T beta gB cot : PF) (bf : Bool) (hf : 0 < gf) (hf1 : gf ≤ 1) (h2 : 0 < c2)
  (h3 : 0 < c3) (hgB : OmittedOr (0 < ·) gB) (hgv : ¬ gB.isnan ∨ ¬ beta.isnan) (hg : 0 < g)
include hf hf1 h2 h3 hgB hgv hg

/-- C101, EurOtop (2007), rubble mounds -/
theorem C101_eurotop2007_high_crest (H : ℝ) (hH : 0 < H) :
    HighCrestsStayDry (Overtops fun R => calculate_overtopping_discharge_q_rubble_mound (fin H) T R beta gB
      (fin gf) cot (fin c2) (fin c3) bf (fin g)) := by
  obtain ⟨A, k, hA, hk, hq, -⟩ := both (T := T) (cot := cot) bf hH hf hf1 h2 h3 hgB hgv
  have hS := Sc_pos hg hH
  refine dry (fun x => A * Sc g H * Real.exp (-(k * x) + 0)) 0 (fun x _ => ⟨_, hq x g hg, ?_, ?_⟩) (lim_exp _ 0 hk)
  · exact mul_nonneg (E_pos hA _ _).le hS.le
  · unfold E
    rw [add_zero, mul_right_comm]

/-- C101, EurOtop (2007), rubble mounds: no crest at or above the water level overtops more than the first
coefficient times √(g Hm0³) -/
theorem C101_eurotop2007_ceiling (H R q : ℝ) (hH : 0 < H) (hR : 0 ≤ R)
    (h : (calculate_overtopping_discharge_q_rubble_mound (fin H) T (fin R) beta gB
      (fin gf) cot (fin c2) (fin c3) bf (fin g)).res = .ok (fin q)) :
    0 ≤ q ∧ q ≤ (if bf then 0.2 else c2) * √(g * H ^ 3) := by
  obtain ⟨d, hd, hq⟩ := DesignSafe.both2007 (T := T) (cot := cot) (c2 := c2) hH hf hf1 h2 h3 hgB hgv
  rw [(hq bf).1 R g hg] at h
  cases h
  have ha : 0 < if bf then 0.2 else c2 := by cases bf <;> norm_num [h2]
  have hk : 0 < if bf then 2.6 else c3 := by cases bf <;> norm_num [h3]
  exact ⟨mul_nonneg (TwoFormulas.E_pos ha _ _).le (Real.sqrt_nonneg _),
    mul_le_mul_of_nonneg_right (exp_le ha (by positivity)) (Real.sqrt_nonneg _)⟩

/-- C101, EurOtop (2007), rubble mounds: very small waves do not come over a crest at or above the water level -/
theorem C101_eurotop2007_small_waves (R : ℝ) (hR : 0 ≤ R) :
    SmallWavesStayOut (Overtops fun H => calculate_overtopping_discharge_q_rubble_mound H T (fin R) beta gB
      (fin gf) cot (fin c2) (fin c3) bf (fin g)) :=
  out fun H v hH h => C101_eurotop2007_ceiling gf c2 c3 g T beta gB cot bf hf hf1 h2 h3 hgB hgv hg H R v hH hR h
end

/-! ## EurOtop (2018) -/
section
open OvertoppingEurOtop2018
open OvertoppingTaw2002 (Sc Sc_pos Sc_eval)

/-- C101, EurOtop (2018): every combination of options for which a discharge is returned at some crest level -/
theorem C101_eurotop2018_high_crest (H T R gf gv gs c1 c2 c3 c4 g : ℝ)
    (cot cd cu beta B db gB gb : PF) (bf : Bool) (hH : 0 < H) (hT : 0 < T) (hf : 0 < gf) (hf1 : gf ≤ 1)
    (hv : 0 < gv) (hs : 0 < gs) (h1 : 0 < c1) (h2 : 0 < c2) (h3 : 0 < c3) (h4 : 0 < c4)
    (hgB : OmittedOr (0 < ·) gB) (hg : 0 < g) (q : ℝ) (m : Bool)
    (h : (calculate_overtopping_discharge_q (fin H) (fin T) (fin R) beta gB gb (fin gf) (fin gv)
      (fin gs) B db cot cd cu (fin c1) (fin c2) (fin c3) (fin c4) bf (fin g)).res = .ok (fin q, m)) :
    HighCrestsStayDry (OvertopsWithFlag fun R => calculate_overtopping_discharge_q (fin H) (fin T) R beta gB gb (fin gf)
      (fin gv) (fin gs) B db cot cd cu (fin c1) (fin c2) (fin c3) (fin c4) bf (fin g)) := by
  obtain ⟨hR0, gB', c, gb', k1, k2, k3, k4, X, hp, hb⟩ := q_inv hH hT hf hf1 hv hs h1 h2 h3 h4 hgB h
  have hS := Sc_pos hg hH
  have hd := d3_pos hH hf X.hB hs X.h3
  refine dry (fun x => k2 * Sc g H * Real.exp (-(1 * (d3 H gf gB' gs k3 * (x - 0)) ^ (1.3 : ℝ)))) 0 (fun x hx =>
    ⟨_, ⟨_, X.q_res hg hx hp hb⟩, ?_, ?_⟩) (lim_pow _ 0 one_pos hd (by norm_num))
  · exact mul_nonneg (le_inf (TwoFormulas.F_pos X.A _ _).le (TwoFormulas.F_pos X.h2 _ _).le) hS.le
  · rw [sub_zero, one_mul, mul_right_comm]
    exact mul_le_mul_of_nonneg_right inf_le_right hS.le

/-- C101, EurOtop (2018): no discharge above the coefficient for non-breaking waves times √(g Hm0³) is ever returned -/
theorem C101_eurotop2018_ceiling (H T R gf gv gs c1 c2 c3 c4 g : ℝ)
    (cot cd cu beta B db gB gb : PF) (bf : Bool) (hH : 0 < H) (hT : 0 < T) (hf : 0 < gf) (hf1 : gf ≤ 1)
    (hv : 0 < gv) (hs : 0 < gs) (h1 : 0 < c1) (h2 : 0 < c2) (h3 : 0 < c3) (h4 : 0 < c4)
    (hgB : OmittedOr (0 < ·) gB) (hg : 0 < g) (q : ℝ) (m : Bool)
    (h : (calculate_overtopping_discharge_q (fin H) (fin T) (fin R) beta gB gb (fin gf) (fin gv)
      (fin gs) B db cot cd cu (fin c1) (fin c2) (fin c3) (fin c4) bf (fin g)).res = .ok (fin q, m)) :
    0 ≤ q ∧ q ≤ (if bf then 0.09 else c2) * √(g * H ^ 3) := by
  obtain ⟨hR0, gB', c, gb', k1, k2, k3, k4, X, hp, hb⟩ := q_inv hH hT hf hf1 hv hs h1 h2 h3 h4 hgB h
  have hS := Sc_pos hg hH
  have hd := d3_pos hH hf X.hB hs X.h3
  have e : k2 = if bf then 0.09 else c2 := by
    have := X.hK
    unfold check_best_fit at this
    cases bf
    · simp at this ⊢; exact this.2.1.symm
    · simp only [if_true, sci_eq, Prod.mk.injEq, fin_inj] at this ⊢; exact this.2.1.symm
  rw [X.q_res hg hR0 hp hb] at h
  cases h
  rw [← e]
  exact ⟨mul_nonneg (le_inf (TwoFormulas.F_pos X.A _ _).le (TwoFormulas.F_pos X.h2 _ _).le) hS.le,
    mul_le_mul_of_nonneg_right (inf_le_right.trans (exp_le X.h2 (by positivity))) hS.le⟩

/-- C101, EurOtop (2018): very small waves do not overtop -/
theorem C101_eurotop2018_small_waves (T R gf gv gs c1 c2 c3 c4 g : ℝ)
    (cot cd cu beta B db gB gb : PF) (bf : Bool) (hT : 0 < T) (hf : 0 < gf) (hf1 : gf ≤ 1)
    (hv : 0 < gv) (hs : 0 < gs) (h1 : 0 < c1) (h2 : 0 < c2) (h3 : 0 < c3) (h4 : 0 < c4)
    (hgB : OmittedOr (0 < ·) gB) (hg : 0 < g) :
    SmallWavesStayOut (OvertopsWithFlag fun H => calculate_overtopping_discharge_q H (fin T) (fin R) beta gB gb (fin gf)
      (fin gv) (fin gs) B db cot cd cu (fin c1) (fin c2) (fin c3) (fin c4) bf (fin g)) :=
  out fun H v hH ⟨m, h⟩ => C101_eurotop2018_ceiling H T R gf gv gs c1 c2 c3 c4 g cot cd cu beta B db gB gb bf hH hT hf hf1
    hv hs h1 h2 h3 h4 hgB hg v m h
end

/-! ## De Ridder et al. (2024, 2026) -/

namespace LimitProof
open Published

/-- an exponential in one over the wave height grows faster than the scale of the discharge falls -/
theorem blow {A k g : ℝ} (hA : 0 < A) (hk : 0 < k) (hg : 0 < g) (M : ℝ) : ∃ δ : ℝ, 0 < δ ∧ ∀ H, 0 < H → H < δ →
    M < A * Real.exp (k / H) * √(g * H ^ 3) := by
  have hsg : 0 < √g := Real.sqrt_pos.mpr hg
  have hM : 0 < |M| + 1 := by positivity
  refine ⟨(A * k ^ 2 * √g / (2 * (|M| + 1))) ^ 2, by positivity, fun H hH hl => ?_⟩
  have hr : √H < A * k ^ 2 * √g / (2 * (|M| + 1)) := by
    rw [Real.sqrt_lt' (by positivity)]; exact hl
  have hr0 : 0 < √H := Real.sqrt_pos.mpr hH
  rw [lt_div_iff₀ (by positivity)] at hr
  have e : √(g * H ^ 3) = √g * (H * √H) := by
    rw [Real.sqrt_mul hg.le, pow_succ, Real.sqrt_mul (by positivity), Real.sqrt_sq hH.le]
  have hz : 0 ≤ k / H := by positivity
  have hq := Real.quadratic_le_exp_of_nonneg hz
  have h2 : (k / H) ^ 2 / 2 ≤ Real.exp (k / H) := by linarith
  calc M < |M| + 1 := by linarith [le_abs_self M]
    _ ≤ A * ((k / H) ^ 2 / 2) * √(g * H ^ 3) := by
      rw [e]
      have : A * ((k / H) ^ 2 / 2) * (√g * (H * √H)) = A * k ^ 2 * √g / (2 * √H) := by
        have hs : √H * √H = H := Real.mul_self_sqrt hH.le
        field_simp
        nlinarith
      rw [this, le_div_iff₀ (by positivity)]
      linarith
    _ ≤ _ := by gcongr

variable {f : PF → PF → PyM PF} {a b e r d s g : ℝ} (ha : 0 < a) (hb : 0 < b) (hr : 0 < r) (hs : 0 < s) (hg : 0 < g)
  (h : ∀ H R, 0 < H → Returns (f (fin H) (fin R)) fun q => q / √(g * H ^ 3) = deRidder a b e r ((R - d) / H) s)
include ha hb hr hs hg h

omit ha in
theorem deRidder_dry (H : ℝ) (hH : 0 < H) : HighCrestsStayDry (Overtops fun R => f (fin H) R) := by
  have hS : 0 < √(g * H ^ 3) := by positivity
  have hp := Real.rpow_pos_of_pos hs e
  refine dry (fun x => a * √(g * H ^ 3) * Real.exp (-(b * s ^ e / (H * r) * x) + b * s ^ e / (H * r) * d)) 0
    (fun x _ => ?_) (lim_exp _ _ (by positivity))
  obtain ⟨q, q0, e1, e2⟩ := h H x hH
  refine ⟨q, e1, q0.le, le_of_eq ?_⟩
  rw [(div_eq_iff hS.ne').mp e2]
  unfold deRidder
  rw [mul_right_comm]
  congr 2
  field_simp
  ring

theorem deRidder_ceiling (H R q : ℝ) (hH : 0 < H) (hR : d ≤ R) (hq : (f (fin H) (fin R)).res = .ok (fin q)) :
    0 ≤ q ∧ q ≤ a * √(g * H ^ 3) := by
  have hS : 0 < √(g * H ^ 3) := by positivity
  have hp := Real.rpow_pos_of_pos hs e
  obtain ⟨v, v0, e1, e2⟩ := h H R hH
  rw [hq] at e1
  cases e1
  refine ⟨v0.le, ?_⟩
  rw [(div_eq_iff hS.ne').mp e2]
  refine mul_le_mul_of_nonneg_right ?_ hS.le
  unfold deRidder
  have h0 : 0 ≤ R - d := sub_nonneg.mpr hR
  have := exp_le ha (z := b * s ^ e * ((R - d) / H / r)) (by positivity)
  rwa [neg_mul, neg_mul]

theorem deRidder_out (R : ℝ) (hR : d ≤ R) : SmallWavesStayOut (Overtops fun H => f H (fin R)) :=
  out fun H v hH hv => deRidder_ceiling ha hb hr hs hg h H R v hH hR hv

theorem deRidder_most (R : ℝ) (hR : R < d) : SmallWavesOvertopMost (Overtops fun H => f H (fin R)) := by
  intro M
  have hp := Real.rpow_pos_of_pos hs e
  have hd : 0 < d - R := sub_pos.mpr hR
  obtain ⟨δ, hδ, hl⟩ := blow ha (k := b * s ^ e * (d - R) / r) (by positivity) hg M
  refine ⟨δ, hδ, fun H hH hH' => ?_⟩
  have hS : 0 < √(g * H ^ 3) := by positivity
  obtain ⟨q, q0, e1, e2⟩ := h H R hH
  refine ⟨q, e1, (hl H hH hH').trans_le (le_of_eq ?_)⟩
  rw [(div_eq_iff hS.ne').mp e2]
  unfold deRidder
  congr 3
  field_simp
  ring
end LimitProof

section
variable (s gf g w t : ℝ) (hs : 0 < s) (hf : 0 < gf) (hg : 0 < g)
include hs hf hg

namespace LimitProof
theorem r24 (H R : ℝ) (hH : 0 < H) : Returns (DeRidder2024.calculate_overtopping_discharge_q_eq24 (fin H) (fin s) (fin gf)
    (fin R) (fin g)) fun q => q / √(g * H ^ 3) = Published.deRidder 0.74 8.51 0.32 gf ((R - 0) / H) s := by
  rw [sub_zero]; exact (C78_deridder2024_discharge H s gf g hH hs hf hg R 0).1
theorem r26 (H R : ℝ) (hH : 0 < H) : Returns (DeRidder2024.calculate_overtopping_discharge_q_eq26 (fin H) (fin s) (fin w)
    (fin gf) (fin R) (fin g)) fun q => q / √(g * H ^ 3) = Published.deRidder 0.50 7.91 0.30 gf ((R - 0.21 * w) / H) s := by
  rw [sub_div, mul_div_assoc]; exact (C78_deridder2024_discharge H s gf g hH hs hf hg R w).2
theorem r28 (H R : ℝ) (hH : 0 < H) : Returns (DeRidder2026.calculate_overtopping_discharge_q_eq28 (fin H) (fin s) (fin gf)
    (fin R) (fin g) (fin t)) fun q => q / √(g * H ^ 3) =
      Published.deRidder 0.16 6.93 0.36 (gf * Published.obliqueCos 0.35 t) ((R - 0) / H) s := by
  rw [sub_zero]; exact (C78_deridder2026_discharge H s gf g t hH hs hf hg R 0).1
theorem r32 (H R : ℝ) (hH : 0 < H) : Returns (DeRidder2026.calculate_overtopping_discharge_q_eq32 (fin H) (fin s) (fin w)
    (fin gf) (fin R) (fin g) (fin t)) fun q => q / √(g * H ^ 3) =
      Published.deRidder 0.05 10.40 0.50 (gf * Published.obliqueCos 0.35 t) ((R - 0.97 * w) / H) s := by
  rw [sub_div, mul_div_assoc]; exact (C78_deridder2026_discharge H s gf g t hH hs hf hg R w).2
omit hs hg in
theorem ob : 0 < gf * Published.obliqueCos 0.35 t := by
  have : 0 < Published.obliqueCos 0.35 t := by
    unfold Published.obliqueCos
    nlinarith [sq_nonneg (Real.cos (t * (Real.pi / 180)))]
  positivity
end LimitProof

/-- C101, De Ridder et al. (2024, 2026) -/
theorem C101_deridder_high_crest (H : ℝ) (hH : 0 < H) :
    HighCrestsStayDry (Overtops fun R => DeRidder2024.calculate_overtopping_discharge_q_eq24 (fin H) (fin s) (fin gf) R
      (fin g)) ∧
    HighCrestsStayDry (Overtops fun R => DeRidder2024.calculate_overtopping_discharge_q_eq26 (fin H) (fin s) (fin w)
      (fin gf) R (fin g)) ∧
    HighCrestsStayDry (Overtops fun R => DeRidder2026.calculate_overtopping_discharge_q_eq28 (fin H) (fin s) (fin gf) R
      (fin g) (fin t)) ∧
    HighCrestsStayDry (Overtops fun R => DeRidder2026.calculate_overtopping_discharge_q_eq32 (fin H) (fin s) (fin w)
      (fin gf) R (fin g) (fin t)) :=
  ⟨deRidder_dry (f := fun H R => DeRidder2024.calculate_overtopping_discharge_q_eq24 H (fin s) (fin gf) R (fin g))
     (a := 0.74) (b := 8.51) (by norm_num) hf hs hg (r24 s gf g hs hf hg) H hH,
   deRidder_dry (f := fun H R => DeRidder2024.calculate_overtopping_discharge_q_eq26 H (fin s) (fin w) (fin gf) R (fin g))
     (a := 0.50) (b := 7.91) (by norm_num) hf hs hg (r26 s gf g w hs hf hg) H hH,
   deRidder_dry (f := fun H R => DeRidder2026.calculate_overtopping_discharge_q_eq28 H (fin s) (fin gf) R (fin g) (fin t))
     (a := 0.16) (b := 6.93) (by norm_num) (ob gf t hf) hs hg (r28 s gf g t hs hf hg) H hH,
   deRidder_dry (f := fun H R => DeRidder2026.calculate_overtopping_discharge_q_eq32 H (fin s) (fin w) (fin gf) R (fin g)
     (fin t)) (a := 0.05) (b := 10.40) (by norm_num) (ob gf t hf) hs hg (r32 s gf g w t hs hf hg) H hH⟩

/-- C101, De Ridder et al. (2024, 2026): very small waves do not come over a crest at or above the water level (raised
by the published part of the infragravity wave height) -/
theorem C101_deridder_small_waves (R : ℝ) :
    (0 ≤ R → SmallWavesStayOut (Overtops fun H => DeRidder2024.calculate_overtopping_discharge_q_eq24 H (fin s) (fin gf)
      (fin R) (fin g))) ∧
    (0.21 * w ≤ R → SmallWavesStayOut (Overtops fun H => DeRidder2024.calculate_overtopping_discharge_q_eq26 H (fin s)
      (fin w) (fin gf) (fin R) (fin g))) ∧
    (0 ≤ R → SmallWavesStayOut (Overtops fun H => DeRidder2026.calculate_overtopping_discharge_q_eq28 H (fin s) (fin gf)
      (fin R) (fin g) (fin t))) ∧
    (0.97 * w ≤ R → SmallWavesStayOut (Overtops fun H => DeRidder2026.calculate_overtopping_discharge_q_eq32 H (fin s)
      (fin w) (fin gf) (fin R) (fin g) (fin t))) :=
  ⟨deRidder_out (f := fun H R => DeRidder2024.calculate_overtopping_discharge_q_eq24 H (fin s) (fin gf) R (fin g))
     (a := 0.74) (b := 8.51) (by norm_num) (by norm_num) hf hs hg (r24 s gf g hs hf hg) R,
   deRidder_out (f := fun H R => DeRidder2024.calculate_overtopping_discharge_q_eq26 H (fin s) (fin w) (fin gf) R (fin g))
     (a := 0.50) (b := 7.91) (by norm_num) (by norm_num) hf hs hg (r26 s gf g w hs hf hg) R,
   deRidder_out (f := fun H R => DeRidder2026.calculate_overtopping_discharge_q_eq28 H (fin s) (fin gf) R (fin g) (fin t))
     (a := 0.16) (b := 6.93) (by norm_num) (by norm_num) (ob gf t hf) hs hg (r28 s gf g t hs hf hg) R,
   deRidder_out (f := fun H R => DeRidder2026.calculate_overtopping_discharge_q_eq32 H (fin s) (fin w) (fin gf) R (fin g)
     (fin t)) (a := 0.05) (b := 10.40) (by norm_num) (by norm_num) (ob gf t hf) hs hg (r32 s gf g w t hs hf hg) R⟩

/-- C101: over a crest below that level the formulas of De Ridder et al. (2024, 2026) give the smallest waves the
largest discharges, without bound -/
theorem C101_deridder_small_waves_refuted (R : ℝ) :
    (R < 0 → SmallWavesOvertopMost (Overtops fun H => DeRidder2024.calculate_overtopping_discharge_q_eq24 H (fin s)
      (fin gf) (fin R) (fin g))) ∧
    (R < 0.21 * w → SmallWavesOvertopMost (Overtops fun H => DeRidder2024.calculate_overtopping_discharge_q_eq26 H (fin s)
      (fin w) (fin gf) (fin R) (fin g))) ∧
    (R < 0 → SmallWavesOvertopMost (Overtops fun H => DeRidder2026.calculate_overtopping_discharge_q_eq28 H (fin s)
      (fin gf) (fin R) (fin g) (fin t))) ∧
    (R < 0.97 * w → SmallWavesOvertopMost (Overtops fun H => DeRidder2026.calculate_overtopping_discharge_q_eq32 H (fin s)
      (fin w) (fin gf) (fin R) (fin g) (fin t))) :=
  ⟨deRidder_most (f := fun H R => DeRidder2024.calculate_overtopping_discharge_q_eq24 H (fin s) (fin gf) R (fin g))
     (a := 0.74) (b := 8.51) (by norm_num) (by norm_num) hf hs hg (r24 s gf g hs hf hg) R,
   deRidder_most (f := fun H R => DeRidder2024.calculate_overtopping_discharge_q_eq26 H (fin s) (fin w) (fin gf) R (fin g))
     (a := 0.50) (b := 7.91) (by norm_num) (by norm_num) hf hs hg (r26 s gf g w hs hf hg) R,
   deRidder_most (f := fun H R => DeRidder2026.calculate_overtopping_discharge_q_eq28 H (fin s) (fin gf) R (fin g) (fin t))
     (a := 0.16) (b := 6.93) (by norm_num) (by norm_num) (ob gf t hf) hs hg (r28 s gf g t hs hf hg) R,
   deRidder_most (f := fun H R => DeRidder2026.calculate_overtopping_discharge_q_eq32 H (fin s) (fin w) (fin gf) R (fin g)
     (fin t)) (a := 0.05) (b := 10.40) (by norm_num) (by norm_num) (ob gf t hf) hs hg (r32 s gf g w t hs hf hg) R⟩
end

/-! ## EurOtop (2018), rubble mounds -/
section
open OvertoppingEurOtop2018 TwoFormulas
open OvertoppingTaw2002 (Sc Sc_pos Sc_eval)

/-- C101, rubble mounds by EurOtop (2018): every combination of options for which a discharge is returned -/
theorem C101_eurotop2018_rubble_high_crest (H T R gf c2 c3 g : ℝ) (cot cd cu beta B db gB : PF) (bf : Bool) (hH : 0 < H)
    (hf : 0 < gf) (hf1 : gf ≤ 1) (h2 : 0 < c2) (h3 : 0 < c3) (hgB : OmittedOr (0 < ·) gB) (hg : 0 < g) (q : ℝ)
    (h : (calculate_overtopping_discharge_q_rubble_mound (fin H) (fin T) (fin R) beta gB (fin gf) B db cot cd cu (fin c2)
      (fin c3) bf (fin g)).res = .ok (fin q)) :
    HighCrestsStayDry (Overtops fun R => calculate_overtopping_discharge_q_rubble_mound (fin H) (fin T) R beta gB
      (fin gf) B db cot cd cu (fin c2) (fin c3) bf (fin g)) := by
  have ha : 0 < if bf then 0.09 else c2 := by cases bf <;> norm_num [h2]
  have hS := Sc_pos hg hH
  obtain ⟨k, hk, hq⟩ := RaiseProof.rubble hH hf hf1 h3 hgB h
  refine dry (fun x => (if bf then 0.09 else c2) * Sc g H * Real.exp (-(1 * (k * (x - 0)) ^ (1.3 : ℝ)))) 0
    (fun x hx => ⟨_, (hq x g hg).trans (by rw [if_pos hx]), ?_, ?_⟩) (lim_pow _ 0 one_pos hk (by norm_num))
  · exact mul_nonneg (F_pos ha _ _).le hS.le
  · rw [sub_zero, one_mul, mul_right_comm]
    rfl

/-- C101, rubble mounds by EurOtop (2018): the ceiling of every discharge returned -/
theorem C101_eurotop2018_rubble_ceiling (H T R gf c2 c3 g : ℝ) (cot cd cu beta B db gB : PF) (bf : Bool) (hH : 0 < H)
    (hf : 0 < gf) (hf1 : gf ≤ 1) (h2 : 0 < c2) (h3 : 0 < c3) (hgB : OmittedOr (0 < ·) gB) (hg : 0 < g) (q : ℝ)
    (h : (calculate_overtopping_discharge_q_rubble_mound (fin H) (fin T) (fin R) beta gB (fin gf) B db cot cd cu (fin c2)
      (fin c3) bf (fin g)).res = .ok (fin q)) : 0 ≤ q ∧ q ≤ (if bf then 0.09 else c2) * √(g * H ^ 3) := by
  have ha : 0 < if bf then 0.09 else c2 := by cases bf <;> norm_num [h2]
  have hS := Sc_pos hg hH
  obtain ⟨k, hk, hq⟩ := RaiseProof.rubble hH hf hf1 h3 hgB h
  rw [hq R g hg] at h
  by_cases h0 : 0 ≤ R
  · rw [if_pos h0] at h
    cases h
    exact ⟨mul_nonneg (F_pos ha _ _).le hS.le, mul_le_mul_of_nonneg_right (F_le_A ha hk h0) hS.le⟩
  · rw [if_neg h0] at h
    cases h

/-- C101, rubble mounds by EurOtop (2018): very small waves do not overtop -/
theorem C101_eurotop2018_rubble_small_waves (T R gf c2 c3 g : ℝ) (cot cd cu beta B db gB : PF) (bf : Bool)
    (hf : 0 < gf) (hf1 : gf ≤ 1) (h2 : 0 < c2) (h3 : 0 < c3) (hgB : OmittedOr (0 < ·) gB) (hg : 0 < g) :
    SmallWavesStayOut (Overtops fun H => calculate_overtopping_discharge_q_rubble_mound H (fin T) (fin R) beta gB
      (fin gf) B db cot cd cu (fin c2) (fin c3) bf (fin g)) :=
  out fun H v hH h => C101_eurotop2018_rubble_ceiling H T R gf c2 c3 g cot cd cu beta B db gB bf hH hf hf1 h2 h3 hgB hg v h
end

/-! ## caissons by Van Gent (2021) -/
section
open VanGent2021Caisson
variable (g w cw c a b cb gp : ℝ) (k sc cs pp : Bool) (hg : 0 < g)
  (ht : (c, k, pp, a, b, cb, gp) ∈ Published.caissonTable) (hk : (sc || cs) = k) (r : ℝ) (beta gB : PF) (hr : 0 < r)
  (her : gB = fin r ∨ gB = nan ∧ ∃ β : ℝ, beta = fin β ∧ r = Published.obliqueCos (cb / gp) β)
include hg ht hk hr her

/-- C101, caissons by Van Gent (2021) with every published combination of coefficients -/
theorem C101_caisson_high_crest (H : ℝ) (hH : 0 < H) :
    HighCrestsStayDry (Overtops fun R => calculate_overtopping_discharge_q (fin H) R beta gB (fin w) (fin c) (fin cw)
      sc cs pp (fin g)) := by
  obtain ⟨-, ha, hb, hcb, hlt, hc1⟩ := FormulaProof.caisson_coefficients ht sc cs hk
  have hgp : 0 < gp := hcb.trans hlt
  have hc0 : 0 < c := by rcases hc1 with rfl | rfl <;> norm_num
  have hS : 0 < √(g * H ^ 3) := by positivity
  refine dry (fun x => a * √(g * H ^ 3) * Real.exp (-(b / (r * gp) * (1 / H * (x - (if cs then cw else 0) * w)) ^ c)))
    ((if cs then cw else 0) * w) (fun x hx => ?_) (lim_pow _ _ (by positivity) (by positivity) hc0)
  obtain ⟨q, q0, e1, e2⟩ := C78_caisson_discharge_partial H g w cw c a b cb gp k sc cs pp hH hg ht hk x r beta gB hr her
    (.inr hx)
  refine ⟨q, e1, q0.le, le_of_eq ?_⟩
  rw [(div_eq_iff hS.ne').mp e2]
  unfold Published.caisson
  rw [mul_right_comm, neg_mul]
  congr 5
  field_simp

/-- C101, caissons: no crest at or above the water level (raised by the swell correction) overtops more than the first
coefficient of the formula times √(g Hm0³) -/
theorem C101_caisson_ceiling (H R q : ℝ) (hH : 0 < H) (hR : (if cs then cw else 0) * w ≤ R)
    (h : (calculate_overtopping_discharge_q (fin H) (fin R) beta gB (fin w) (fin c) (fin cw) sc cs pp (fin g)).res =
      .ok (fin q)) : 0 ≤ q ∧ q ≤ a * √(g * H ^ 3) := by
  obtain ⟨-, ha, hb, hcb, hlt, hc1⟩ := FormulaProof.caisson_coefficients ht sc cs hk
  have hgp : 0 < gp := hcb.trans hlt
  have hS : 0 < √(g * H ^ 3) := by positivity
  obtain ⟨v, v0, e1, e2⟩ := C78_caisson_discharge_partial H g w cw c a b cb gp k sc cs pp hH hg ht hk R r beta gB hr her
    (.inr hR)
  rw [h] at e1
  cases e1
  refine ⟨v0.le, ?_⟩
  rw [(div_eq_iff hS.ne').mp e2]
  refine mul_le_mul_of_nonneg_right ?_ hS.le
  unfold Published.caisson
  rw [neg_mul]
  have h0 : 0 ≤ R / H - (if cs then cw else 0) * (w / H) := by
    rw [← mul_div_assoc, ← sub_div]; exact div_nonneg (sub_nonneg.mpr hR) hH.le
  exact exp_le ha (by positivity)

/-- C101, caissons: very small waves do not come over a crest at or above that level -/
theorem C101_caisson_small_waves (R : ℝ) (hR : (if cs then cw else 0) * w ≤ R) :
    SmallWavesStayOut (Overtops fun H => calculate_overtopping_discharge_q H (fin R) beta gB (fin w) (fin c) (fin cw)
      sc cs pp (fin g)) :=
  out fun H v hH h => C101_caisson_ceiling g w cw c a b cb gp k sc cs pp hg ht hk r beta gB hr her H R v hH hR h
end

/-! ## slopes by Van Gent et al. (2025) -/
section
open VanGent2025
variable (T c gf gb gv gB : ℝ) (beta B db D : PF) (hT : 0 < T) (hc : 0 < c)
  (hf : 0 < gf) (hb : 0 < gb) (hv : 0 < gv) (hB : 0 < gB)

namespace LimitProof
open Published
/-- the formula for non-breaking waves as a function of the crest level -/
theorem max_exp (c G x w H R : ℝ) : slopeMaximum2025 c G x (R / H) (w / H) =
    0.8 / c * Real.exp (-(2.5 / (G * x ^ (0.24 : ℝ)) / H * R) + 2.5 / (G * x ^ (0.24 : ℝ)) / H * (0.4 * w)) := by
  unfold slopeMaximum2025
  congr 2
  ring

theorem lim_max {c G x H : ℝ} (w : ℝ) (hG : 0 < G) (hx : 0 < x) (hH : 0 < H) :
    Tendsto (fun R => slopeMaximum2025 c G x (R / H) (w / H)) atTop (𝓝 0) := by
  have := Real.rpow_pos_of_pos hx 0.24
  simp only [max_exp]
  exact lim_exp _ _ (by positivity)

theorem lim_mul_exp {k : ℝ} (m : ℝ) (hk : 0 < k) : Tendsto (fun x : ℝ => x * Real.exp (-(k * x) + m)) atTop (𝓝 0) := by
  have h1 : Tendsto (fun x : ℝ => k * x) atTop atTop := tendsto_id.const_mul_atTop hk
  have h2 := ((Real.tendsto_pow_mul_exp_neg_atTop_nhds_zero 1).comp h1).const_mul (Real.exp m / k)
  rw [mul_zero] at h2
  refine h2.congr fun x => ?_
  simp only [Function.comp, pow_one]
  rw [Real.exp_add]
  field_simp

theorem lim_wind {c G x H : ℝ} (w a : ℝ) (hc : 0 < c) (hG : 0 < G) (hx : 0 < x) (hH : 0 < H) :
    Tendsto (fun R => slopeMaximum2025 c G x (R / H) (w / H) + 0.075 * ((R - a) / H) *
      slopeMaximum2025 c G x (R / H) (w / H) ^ (0.7 : ℝ)) atTop (𝓝 0) := by
  have hp := Real.rpow_pos_of_pos hx 0.24
  have e : ∀ R : ℝ, 0.075 * ((R - a) / H) * slopeMaximum2025 c G x (R / H) (w / H) ^ (0.7 : ℝ) =
      0.075 / H * (0.8 / c) ^ (0.7 : ℝ) * (R * Real.exp (-(2.5 / (G * x ^ (0.24 : ℝ)) / H * 0.7 * R) +
        2.5 / (G * x ^ (0.24 : ℝ)) / H * (0.4 * w) * 0.7)) -
      0.075 / H * a * (0.8 / c) ^ (0.7 : ℝ) * Real.exp (-(2.5 / (G * x ^ (0.24 : ℝ)) / H * 0.7 * R) +
        2.5 / (G * x ^ (0.24 : ℝ)) / H * (0.4 * w) * 0.7) := by
    intro R
    rw [max_exp, Real.mul_rpow (by positivity) (Real.exp_pos _).le, ← Real.exp_mul]
    rw [show (-(2.5 / (G * x ^ (0.24 : ℝ)) / H * R) + 2.5 / (G * x ^ (0.24 : ℝ)) / H * (0.4 * w)) * 0.7 =
      -(2.5 / (G * x ^ (0.24 : ℝ)) / H * 0.7 * R) + 2.5 / (G * x ^ (0.24 : ℝ)) / H * (0.4 * w) * 0.7 by ring]
    ring
  have h0 := lim_max (c := c) w hG hx hH
  have h1 := (lim_mul_exp (k := 2.5 / (G * x ^ (0.24 : ℝ)) / H * 0.7) (2.5 / (G * x ^ (0.24 : ℝ)) / H * (0.4 * w) * 0.7)
    (by positivity)).const_mul (0.075 / H * (0.8 / c) ^ (0.7 : ℝ))
  have h2 := lim_exp (0.075 / H * a * (0.8 / c) ^ (0.7 : ℝ)) (k := 2.5 / (G * x ^ (0.24 : ℝ)) / H * 0.7)
    (2.5 / (G * x ^ (0.24 : ℝ)) / H * (0.4 * w) * 0.7) (by positivity)
  have h3 := h0.add (h1.sub h2)
  rw [mul_zero, sub_zero, add_zero] at h3
  exact h3.congr fun R => by rw [e R]

/-- the powers of the design calculation and the scale keep the limit -/
theorem lim_design {U : ℝ → ℝ} (dc : Bool) (S : ℝ) (h : Tendsto U atTop (𝓝 0)) :
    Tendsto (fun x => (if dc then U x ^ (0.857 : ℝ) else U x) * S) atTop (𝓝 0) := by
  have h1 := (h.rpow_const (p := 0.857) (Or.inr (by norm_num))).mul_const S
  have h2 := h.mul_const S
  rw [Real.zero_rpow (by norm_num), zero_mul] at h1
  rw [zero_mul] at h2
  cases dc
  · simpa using h2
  · simpa using h1
end LimitProof

include hT hc hf hb hv hB

/-- C101, slopes by Van Gent et al. (2025) without wind, also for design calculations -/
theorem C101_vangent2025_high_crest (H : ℝ) (Ac : PF) (w g : ℝ) (dc : Bool) (hg : 0 < g) (hH : 0 < H) :
    HighCrestsStayDry (OvertopsWithFlag fun R => calculate_overtopping_discharge_q (fin H) (fin w) (fin T) R Ac (fin c)
      beta B db D (fin gf) (fin gb) (fin gv) (fin gB) (fin g) dc false) := by
  have hS : 0 < √(g * H ^ 3) := by positivity
  have hx : 0 < Textbook.iribarren H T c := by rw [RangeProof.irib_eq]; exact VdMProof.xi_pos hH hT hc
  refine dry _ 0 (fun x _ => ?_) (lim_design dc (√(g * H ^ 3)) (lim_max (c := c) (G := gf * gb * gv * gB) w
    (by positivity) hx hH))
  obtain ⟨q, m, q0, e, a, b, rfl, rfl, hq, -⟩ := C78_vangent2025_discharge H T c gf gb gv gB Ac beta B db D hH hT hc hf hb
    hv hB x w g dc hg
  refine ⟨q, ⟨m, e⟩, q0.le, ?_⟩
  rw [(div_eq_iff hS.ne').mp hq]
  refine mul_le_mul_of_nonneg_right ?_ hS.le
  have h0 := WindProof.slope_pos (c := c) (G := gf * gb * gv * gB) (x := Textbook.iribarren H T c) (r := x / H)
    (w := w / H) hc
  unfold Published.slope2025 at h0
  cases dc
  · exact inf_le_right
  · exact Real.rpow_le_rpow h0.le inf_le_right (by norm_num)

/-- C101, slopes by Van Gent et al. (2025) with wind: although the wind factor grows without bound with the wall and
with a smaller discharge, high crests stay dry -/
theorem C101_vangent2025_wind_high_crest (H a w g : ℝ) (dc : Bool) (hg : 0 < g) (hH : 0 < H) :
    HighCrestsStayDry (OvertopsWithFlag fun R => calculate_overtopping_discharge_q (fin H) (fin w) (fin T) R (fin a)
      (fin c) beta B db D (fin gf) (fin gb) (fin gv) (fin gB) (fin g) dc true) := by
  have hS : 0 < √(g * H ^ 3) := by positivity
  have hx : 0 < Textbook.iribarren H T c := by rw [RangeProof.irib_eq]; exact VdMProof.xi_pos hH hT hc
  refine dry _ a (fun x ha => ?_) (lim_design dc (√(g * H ^ 3)) (lim_wind (c := c) (G := gf * gb * gv * gB) w a hc
    (by positivity) hx hH))
  obtain ⟨q, m, q0, e, hq⟩ := C78_vangent2025_discharge_wind H T c gf gb gv gB beta B db D hH hT hc hf hb hv hB x a w g dc
    hg ha
  refine ⟨q, ⟨m, e⟩, q0.le, ?_⟩
  rw [(div_eq_iff hS.ne').mp hq]
  refine mul_le_mul_of_nonneg_right ?_ hS.le
  have h0 := WindProof.slope_pos (c := c) (G := gf * gb * gv * gB) (x := Textbook.iribarren H T c) (r := x / H)
    (w := w / H) hc
  have hl : Published.slope2025 c (gf * gb * gv * gB) (Textbook.iribarren H T c) (x / H) (w / H) ≤
    Published.slopeMaximum2025 c (gf * gb * gv * gB) (Textbook.iribarren H T c) (x / H) (w / H) := inf_le_right
  have hv0 : 0 ≤ (x - a) / H := div_nonneg (sub_nonneg.mpr ha) hH.le
  have key : Published.slopeWind2025 ((x - a) / H) (Published.slope2025 c (gf * gb * gv * gB) (Textbook.iribarren H T c)
      (x / H) (w / H)) ≤ Published.slopeMaximum2025 c (gf * gb * gv * gB) (Textbook.iribarren H T c) (x / H) (w / H) +
      0.075 * ((x - a) / H) * Published.slopeMaximum2025 c (gf * gb * gv * gB) (Textbook.iribarren H T c) (x / H)
      (w / H) ^ (0.7 : ℝ) := by
    rw [WindProof.wind_split h0]
    gcongr
  have p0 : 0 ≤ Published.slopeWind2025 ((x - a) / H) (Published.slope2025 c (gf * gb * gv * gB)
      (Textbook.iribarren H T c) (x / H) (w / H)) := by
    rw [WindProof.wind_split h0]; positivity
  cases dc
  · exact key
  · exact Real.rpow_le_rpow p0 key (by norm_num)

/-- C101, slopes by Van Gent et al. (2025) without wind: the ceiling over a crest at or above the swell level; 0.8 over
the cotangent, in design calculations to the power 0.857 -/
theorem C101_vangent2025_ceiling (H : ℝ) (Ac : PF) (w g : ℝ) (dc : Bool) (hg : 0 < g) (hH : 0 < H) (R q : ℝ) (m : Bool)
    (hR : 0.4 * w ≤ R)
    (h : (calculate_overtopping_discharge_q (fin H) (fin w) (fin T) (fin R) Ac (fin c)
      beta B db D (fin gf) (fin gb) (fin gv) (fin gB) (fin g) dc false).res = .ok (fin q, m)) :
    0 ≤ q ∧ q ≤ (if dc then (0.8 / c) ^ (0.857 : ℝ) else 0.8 / c) * √(g * H ^ 3) := by
  have hS : 0 < √(g * H ^ 3) := by positivity
  have hx : 0 < Textbook.iribarren H T c := by rw [RangeProof.irib_eq]; exact VdMProof.xi_pos hH hT hc
  have hp := Real.rpow_pos_of_pos hx 0.24
  obtain ⟨v, n, v0, e, a, b, rfl, rfl, hq, -⟩ := C78_vangent2025_discharge H T c gf gb gv gB Ac beta B db D hH hT hc hf hb
    hv hB R w g dc hg
  rw [h] at e
  cases e
  refine ⟨v0.le, ?_⟩
  rw [(div_eq_iff hS.ne').mp hq]
  refine mul_le_mul_of_nonneg_right ?_ hS.le
  have h0 := WindProof.slope_pos (c := c) (G := gf * gb * gv * gB) (x := Textbook.iribarren H T c) (r := R / H)
    (w := w / H) hc
  unfold Published.slope2025 at h0
  have hl : Published.slopeMaximum2025 c (gf * gb * gv * gB) (Textbook.iribarren H T c) (R / H) (w / H) ≤ 0.8 / c := by
    rw [LimitProof.max_exp]
    have hd : 0 ≤ R - 0.4 * w := sub_nonneg.mpr hR
    have := exp_le (A := 0.8 / c) (z := 2.5 / (gf * gb * gv * gB * Textbook.iribarren H T c ^ (0.24 : ℝ)) / H *
      (R - 0.4 * w)) (by positivity) (by positivity)
    refine le_trans (le_of_eq ?_) this
    congr 2
    ring
  cases dc
  · exact inf_le_right.trans hl
  · exact Real.rpow_le_rpow h0.le (inf_le_right.trans hl) (by norm_num)

/-- C101, slopes by Van Gent et al. (2025) without wind: very small waves do not come over such a crest -/
theorem C101_vangent2025_small_waves (Ac : PF) (w g : ℝ) (dc : Bool) (hg : 0 < g) (R : ℝ) (hR : 0.4 * w ≤ R) :
    SmallWavesStayOut (OvertopsWithFlag fun H => calculate_overtopping_discharge_q H (fin w) (fin T) (fin R) Ac (fin c)
      beta B db D (fin gf) (fin gb) (fin gv) (fin gB) (fin g) dc false) :=
  out fun H v hH ⟨m, h⟩ => C101_vangent2025_ceiling T c gf gb gv gB beta B db D hT hc hf hb hv hB H Ac w g dc hg hH R v m
    hR h

/-- C101, slopes by Van Gent et al. (2025) with wind: very small waves do not come over a crest at or above the swell
level and the armour, however hard the wind blows spray over the wall -/
theorem C101_vangent2025_wind_small_waves (a w g : ℝ) (dc : Bool) (hg : 0 < g) (R : ℝ) (hR : 0.4 * w ≤ R) (ha : a ≤ R) :
    SmallWavesStayOut (OvertopsWithFlag fun H => calculate_overtopping_discharge_q H (fin w) (fin T) (fin R) (fin a)
      (fin c) beta B db D (fin gf) (fin gb) (fin gv) (fin gB) (fin g) dc true) := by
  have hd : 0 ≤ R - a := sub_nonneg.mpr ha
  have hC : 0 < (0.8 / c) ^ (0.7 : ℝ) := Real.rpow_pos_of_pos (by positivity) _
  intro ε hε
  have lim : Tendsto (fun H : ℝ => (1 + 0.8 / c) * √(g * H ^ 3) + 0.075 * (R - a) * (0.8 / c) ^ (0.7 : ℝ) * √(g * H))
      (𝓝 0) (𝓝 0) := by
    have : ContinuousAt (fun H : ℝ => (1 + 0.8 / c) * √(g * H ^ 3) + 0.075 * (R - a) * (0.8 / c) ^ (0.7 : ℝ) * √(g * H))
      0 := by fun_prop
    simpa using this.tendsto
  obtain ⟨δ, hδ, hb'⟩ := Metric.eventually_nhds_iff.mp (lim.eventually (gt_mem_nhds hε))
  refine ⟨δ, hδ, fun H hH hl v ⟨m, h⟩ => ?_⟩
  have key := hb' (by rw [dist_zero_right, Real.norm_of_nonneg hH.le]; exact hl)
  have hS : 0 < √(g * H ^ 3) := by positivity
  have hx : 0 < Textbook.iribarren H T c := by rw [RangeProof.irib_eq]; exact VdMProof.xi_pos hH hT hc
  have hp := Real.rpow_pos_of_pos hx 0.24
  obtain ⟨q, n, q0, e, hq⟩ := C78_vangent2025_discharge_wind H T c gf gb gv gB beta B db D hH hT hc hf hb hv hB R a w g dc
    hg ha
  rw [h] at e
  cases e
  refine ⟨q0.le, lt_of_le_of_lt ?_ key⟩
  rw [(div_eq_iff hS.ne').mp hq]
  have h0 := WindProof.slope_pos (c := c) (G := gf * gb * gv * gB) (x := Textbook.iribarren H T c) (r := R / H)
    (w := w / H) hc
  have hmax : Published.slopeMaximum2025 c (gf * gb * gv * gB) (Textbook.iribarren H T c) (R / H) (w / H) ≤ 0.8 / c := by
    rw [LimitProof.max_exp]
    have hd : 0 ≤ R - 0.4 * w := sub_nonneg.mpr hR
    have := exp_le (A := 0.8 / c) (z := 2.5 / (gf * gb * gv * gB * Textbook.iribarren H T c ^ (0.24 : ℝ)) / H *
      (R - 0.4 * w)) (by positivity) (by positivity)
    refine le_trans (le_of_eq ?_) this
    congr 2
    ring
  have hle : Published.slope2025 c (gf * gb * gv * gB) (Textbook.iribarren H T c) (R / H) (w / H) ≤ 0.8 / c :=
    inf_le_right.trans hmax
  have hv0 : 0 ≤ (R - a) / H := div_nonneg hd hH.le
  rw [WindProof.wind_split h0]
  generalize Published.slope2025 c (gf * gb * gv * gB) (Textbook.iribarren H T c) (R / H) (w / H) = s at *
  have hs : s ^ (0.7 : ℝ) ≤ (0.8 / c) ^ (0.7 : ℝ) := Real.rpow_le_rpow h0.le hle (by norm_num)
  have hs0 : 0 < s ^ (0.7 : ℝ) := Real.rpow_pos_of_pos h0 _
  have hu : s + 0.075 * ((R - a) / H) * s ^ (0.7 : ℝ) ≤ 0.8 / c + 0.075 * ((R - a) / H) * (0.8 / c) ^ (0.7 : ℝ) := by
    gcongr
  have hu0 : 0 ≤ s + 0.075 * ((R - a) / H) * s ^ (0.7 : ℝ) := by positivity
  have hpow : (if dc then (s + 0.075 * ((R - a) / H) * s ^ (0.7 : ℝ)) ^ (0.857 : ℝ)
      else s + 0.075 * ((R - a) / H) * s ^ (0.7 : ℝ)) ≤
      1 + (0.8 / c + 0.075 * ((R - a) / H) * (0.8 / c) ^ (0.7 : ℝ)) := by
    cases dc
    · simpa using hu.trans (by linarith)
    · simp only [if_true]
      rcases le_total (s + 0.075 * ((R - a) / H) * s ^ (0.7 : ℝ)) 1 with h1 | h1
      · have := Real.rpow_le_one hu0 h1 (show (0 : ℝ) ≤ 0.857 by norm_num)
        linarith
      · have := Real.rpow_le_rpow_of_exponent_le h1 (show (0.857 : ℝ) ≤ 1 by norm_num)
        rw [Real.rpow_one] at this
        linarith
  refine (mul_le_mul_of_nonneg_right hpow hS.le).trans (le_of_eq ?_)
  have e1 : √(g * H ^ 3) = H * √(g * H) := by
    rw [show g * H ^ 3 = H ^ 2 * (g * H) by ring, Real.sqrt_mul (by positivity), Real.sqrt_sq hH.le]
  generalize (0.8 / c) ^ (0.7 : ℝ) = C at *
  rw [e1]
  field_simp
  ring
end

/-! ## Cases -/

example : HighCrestsStayDry (OvertopsWithFlag fun R => OvertoppingTaw2002.calculate_overtopping_discharge_q (fin 2) (fin 6)
    R (fin 3) nan nan nan 0 0 (fin 0.9) (fin 1) (fin 0.7) (fin 1) (fin 1) (fin 9.81) true) := by
  obtain ⟨q, m, h, -⟩ := C78_taw_discharge_partial 2 6 3 0.7 1 0.9 1 1 nan 0 0 true (by norm_num) (by norm_num)
    (by norm_num) (by norm_num) (by norm_num) (by norm_num) (by norm_num) (by norm_num) (by norm_num) (Or.inr rfl)
    (Or.inr (Or.inr ⟨rfl, FormulaProof.ordinary⟩)) 3 9.81 (by norm_num)
  exact C101_taw2002_high_crest 2 6 3 0.7 1 1 9.81 _ _ _ _ _ _ _ _ true (by norm_num) (by norm_num) (by norm_num)
    (by norm_num) (by norm_num) (by norm_num) (Or.inr ⟨0.9, rfl, by norm_num⟩)
    (Or.inr ⟨1, rfl, by norm_num, by norm_num⟩) (by norm_num) q m h

example := C101_taw2002_small_waves 6 3 0.7 1 1 9.81 (fin 3) nan nan nan 0 0 (fin 0.9) (fin 1) true (by norm_num)
  (by norm_num) (by norm_num) (by norm_num) (by norm_num) (Or.inr ⟨0.9, rfl, by norm_num⟩)
  (Or.inr ⟨1, rfl, by norm_num, by norm_num⟩) (by norm_num) (by norm_num)

example := C101_eurotop2007_high_crest 0.5 0.2 2.3 9.81 6 (fin 40) nan 2 false (by norm_num) (by norm_num) (by norm_num)
  (by norm_num) (Or.inl rfl) (Or.inr (by simp [PF.isnan])) (by norm_num) 2 (by norm_num)

example := C101_eurotop2007_small_waves 0.5 0.2 2.3 9.81 6 (fin 40) nan 2 false (by norm_num) (by norm_num) (by norm_num)
  (by norm_num) (Or.inl rfl) (Or.inr (by simp [PF.isnan])) (by norm_num) 3 (by norm_num)

example : HighCrestsStayDry (OvertopsWithFlag fun R => OvertoppingEurOtop2018.calculate_overtopping_discharge_q (fin 2)
    (fin 6) R nan (fin 0.9) nan (fin 0.7) (fin 1) (fin 1) (cot_alpha := fin 3) (c1 := fin 2.5) (c2 := fin 0.1035)
    (c3 := fin 1.35) (c4 := fin 0.026) (use_best_fit := false) (g := fin 9.81)) := by
  obtain ⟨q, m, h, -⟩ := C78_eurotop2018_discharge_partial 2 6 3 0.7 1 1 0.9 2.5 0.1035 1.35 0.026 nan nan false
    (by norm_num) (by norm_num) (by norm_num) (by norm_num) (by norm_num) (by norm_num) (by norm_num) (by norm_num)
    (by norm_num) (by norm_num) (by norm_num) (by norm_num) (Or.inr FormulaProof.ordinary) 3 9.81 (by norm_num)
    (by norm_num)
  exact C101_eurotop2018_high_crest 2 6 3 0.7 1 1 2.5 0.1035 1.35 0.026 9.81 _ _ _ _ _ _ _ _ false (by norm_num)
    (by norm_num) (by norm_num) (by norm_num) (by norm_num) (by norm_num) (by norm_num) (by norm_num) (by norm_num)
    (by norm_num) (Or.inr ⟨0.9, rfl, by norm_num⟩) (by norm_num) q m h

example : HighCrestsStayDry (Overtops fun R => OvertoppingEurOtop2018.calculate_overtopping_discharge_q_rubble_mound (fin 2)
    (fin 6) R (fin 30) nan (fin 0.5) (fin 0) (fin 0) (fin 1.5) nan nan (fin 0.1035) (fin 1.35) true (fin 9.81)) := by
  obtain ⟨q, -, h⟩ := OvertoppingEurProofs.C52_rubble_returns 2 6 3 1.5 0.5 0.1035 1.35 9.81 0 0 (fin 30) nan true
    (by norm_num) (by norm_num) (by norm_num) (by norm_num) (by norm_num) (by norm_num) (by norm_num)
    (by norm_num) (Or.inl rfl) (Or.inr (by simp)) (by norm_num) (by norm_num)
  exact C101_eurotop2018_rubble_high_crest 2 6 3 0.5 0.1035 1.35 9.81 _ _ _ _ _ _ _ true (by norm_num) (by norm_num)
    (by norm_num) (by norm_num) (by norm_num) (Or.inl rfl) (by norm_num) q h

example := C101_deridder_high_crest 0.02 0.5 9.8 0.6 30 (by norm_num) (by norm_num) (by norm_num) 2 (by norm_num)

example := (C101_deridder_small_waves 0.02 0.5 9.8 0.6 30 (by norm_num) (by norm_num) (by norm_num) 1).2.1 (by norm_num)

/-- a crest half a metre above the water with an infragravity wave height of 0.6 m -/
example := (C101_deridder_small_waves_refuted 0.02 0.5 9.8 0.6 30 (by norm_num) (by norm_num) (by norm_num) 0.5).2.2.2
  (by norm_num)

example := C101_caisson_high_crest 9.81 0.5 0.4 1.3 0.047 2.57 0.70 0.85 true false true true (by norm_num)
  (by unfold Published.caissonTable; simp) rfl 0.9 nan (fin 0.9) (by norm_num) (Or.inl rfl) 2 (by norm_num)

example := C101_caisson_small_waves 9.81 0.5 0.4 1.3 0.047 2.57 0.70 0.85 true false true true (by norm_num)
  (by unfold Published.caissonTable; simp) rfl 0.9 nan (fin 0.9) (by norm_num) (Or.inl rfl) 0.2 (by norm_num)

example := C101_vangent2025_high_crest 7 2 0.5 0.9 1.05 0.8 (fin 25) 0.0 0.0 (fin 0.8) (by norm_num) (by norm_num)
  (by norm_num) (by norm_num) (by norm_num) (by norm_num) 2 (fin 3.5) 0.3 9.81 true (by norm_num) (by norm_num)

example := C101_vangent2025_wind_high_crest 7 2 0.5 0.9 1.05 0.8 (fin 25) 0.0 0.0 (fin 0.8) (by norm_num) (by norm_num)
  (by norm_num) (by norm_num) (by norm_num) (by norm_num) 2 3.5 0.3 9.81 true (by norm_num) (by norm_num)

example := C101_vangent2025_small_waves 7 2 0.5 0.9 1.05 0.8 (fin 25) 0.0 0.0 (fin 0.8) (by norm_num) (by norm_num)
  (by norm_num) (by norm_num) (by norm_num) (by norm_num) (fin 3.5) 0.3 9.81 true (by norm_num) 3 (by norm_num)

example := C101_vangent2025_wind_small_waves 7 2 0.5 0.9 1.05 0.8 (fin 25) 0.0 0.0 (fin 0.8) (by norm_num) (by norm_num)
  (by norm_num) (by norm_num) (by norm_num) (by norm_num) 2 0.3 9.81 true (by norm_num) 3 (by norm_num) (by norm_num)
