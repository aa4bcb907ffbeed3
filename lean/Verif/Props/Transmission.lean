import Mathlib.Analysis.SpecialFunctions.Trigonometric.DerivHyp
import Verif.Lemmas.VdM
import Verif.Model.Transmission

/-! # Wave transmission and set-up (C39-C43, C73) -/

open Classical
open PF
open CorePhysics
noncomputable section

namespace TransProof
open VdMProof

/-- d'Angremond before clipping -/
def kd (r b x C : ℝ) : ℝ := -0.4 * r + b ^ (-0.31 : ℝ) * (1 - Real.exp (-0.5 * x)) * C
/-- Briganti for wide crests before clipping -/
def kb (r b x : ℝ) : ℝ := -0.35 * r + 0.51 * b ^ (-0.65 : ℝ) * (1 - Real.exp (-0.41 * x))

theorem dcheck_res (a b c d : PF) : (DAngremond1996.check_validity a b c d).res = .ok () := by
  unfold DAngremond1996.check_validity; simp

theorem kd_eval {H T B c C : ℝ} (r : ℝ) (hH : 0 < H) (hT : 0 < T) (hB : 0 < B) (hc : 0 < c) :
    (-0.4 * (fin r / fin H) + (npow (fin B / fin H) (-0.31)) * (1 - PF.exp (-0.5 *
      calculate_Iribarren_number_ksi (fin H) (fin T) (fin c))) * fin C) =
      fin (kd (r / H) (B / H) (xi H T c) C) := by
  have hb : 0 < B / H := by positivity
  rw [xi_eval hH hT hc]
  unfold kd
  pf_eval []

theorem perm_eval {H T B c C : ℝ} (h : PF) (r : ℝ) (v : Bool) (hH : 0 < H) (hT : 0 < T) (hB : 0 < B)
    (hc : 0 < c) :
    (DAngremond1996.calculate_wave_transmission_Kt_permeable (fin H) (fin T) h (fin r) (fin B) (fin c)
      (fin C) v).res = .ok (fin (0.075 ⊔ (0.8 ⊓ kd (r / H) (B / H) (xi H T c) C))) := by
  unfold DAngremond1996.calculate_wave_transmission_Kt_permeable
  dsimp only
  rw [kd_eval r hH hT hB hc]
  have : ∀ K s a b : PF, (if v = true then DAngremond1996.check_validity K s a b
      else pure () : PyM Unit).res = .ok () := by
    intro K s a b
    split
    · exact dcheck_res ..
    · rfl
  rw [PyM.bind_res_of_ok (this _ _ _ _)]
  simp only [PyM.pure_def]
  pf_eval []

theorem kd_anti {r r' b x C : ℝ} (h : r ≤ r') : kd r' b x C ≤ kd r b x C := by
  unfold kd; linarith

theorem one_sub_exp {x k : ℝ} (hx : 0 < x) (hk : 0 < k) : 0 < 1 - Real.exp (-k * x) := by
  have : Real.exp (-k * x) < 1 := by rw [Real.exp_lt_one_iff]; nlinarith
  linarith

theorem bcheck_bind {α} (a b : PF) (f : Unit → PyM α) :
    (Briganti2003.check_validity a b >>= f).res = (f ()).res :=
  PyM.bind_res_of_ok (by unfold Briganti2003.check_validity; simp) f

theorem brig_eval {H T B c : ℝ} (r : ℝ) (hH : 0 < H) (hT : 0 < T) (hB : 0 < B) (hc : 0 < c) :
    (Briganti2003.calculate_wave_transmission_Kt (fin H) (fin T) (fin r) (fin B) (fin c)).res =
      .ok (fin (0.05 ⊔ ((if B / H < 10 then
        0.075 ⊔ (0.8 ⊓ kd (r / H) (B / H) (xi H T c) 0.64) else kb (r / H) (B / H) (xi H T c)) ⊓
          (-0.006 * (B / H) + 0.93)))) := by
  have hb : 0 < B / H := by positivity
  have h1 : (Briganti2003.Kt_unlimited (fin H) (fin T) (fin r) (fin B) (fin c)
      (calculate_Iribarren_number_ksi (fin H) (fin T) (fin c))).res = .ok (fin (if B / H < 10 then
        0.075 ⊔ (0.8 ⊓ kd (r / H) (B / H) (xi H T c) 0.64) else kb (r / H) (B / H) (xi H T c))) := by
    unfold Briganti2003.Kt_unlimited
    have e : (fin B / fin H < 10) ↔ B / H < 10 := by pf_eval []
    by_cases h : B / H < 10
    · rw [if_pos (e.mpr h), if_pos h]
      exact perm_eval nan r false hH hT hB hc
    · rw [if_neg (fun h2 => h (e.mp h2)), if_neg h, xi_eval hH hT hc]
      unfold kb
      simp only [PyM.pure_def]
      pf_eval []
  unfold Briganti2003.calculate_wave_transmission_Kt
  dsimp only
  rw [PyM.bind_res_of_ok h1, bcheck_bind]
  simp only [PyM.pure_def]
  pf_eval []

theorem s10 : (0.316 : ℝ) ≤ (10 : ℝ) ^ (-(1 / 2) : ℝ) ∧ (10 : ℝ) ^ (-(1 / 2) : ℝ) ≤ 0.3163 := by
  have e : (10 : ℝ) ^ (-(1 / 2) : ℝ) = (√10)⁻¹ := by
    rw [Real.rpow_neg (by norm_num), Real.sqrt_eq_rpow]
  rw [e]
  have h1 : √10 ≤ 3.1623 := by
    rw [Real.sqrt_le_left (by norm_num)]; norm_num
  have h2 : 3.1622 ≤ √10 := Real.le_sqrt_of_sq_le (by norm_num)
  constructor
  · rw [le_inv_comm₀ (by norm_num) (by positivity)]; exact h1.trans (by norm_num)
  · rw [inv_le_comm₀ (by positivity) (by norm_num)]; exact le_trans (by norm_num) h2

theorem tanh_lt {x y : ℝ} (h : x < y) : Real.tanh x < Real.tanh y := by
  rw [Real.tanh_eq_sinh_div_cosh, Real.tanh_eq_sinh_div_cosh,
    div_lt_div_iff₀ (Real.cosh_pos x) (Real.cosh_pos y)]
  have : 0 < Real.sinh (y - x) := by
    have := Real.sinh_strictMono (by linarith : (0 : ℝ) < y - x)
    rwa [Real.sinh_zero] at this
  rw [Real.sinh_sub] at this
  linarith

end TransProof
open TransProof VdMProof

/-! ## d'Angremond 1996 -/
section
open DAngremond1996
variable (H T B c C : ℝ) (h : PF) (hH : 0 < H) (hT : 0 < T) (hB : 0 < B) (hc : 0 < c)
include hH hT hB hc

/-- C39: the coefficient is a number between 0.075 and 0.8 and a higher crest never transmits more -/
theorem C39_bounded_and_decreasing (r r' : ℝ) (hr : r ≤ r') : ∃ K K' : ℝ,
    (calculate_wave_transmission_Kt_permeable (fin H) (fin T) h (fin r) (fin B) (fin c)
      (fin C)).res = .ok (fin K) ∧
    (calculate_wave_transmission_Kt_permeable (fin H) (fin T) h (fin r') (fin B) (fin c)
      (fin C)).res = .ok (fin K') ∧
    0.075 ≤ K' ∧ K' ≤ K ∧ K ≤ 0.8 := by
  refine ⟨_, _, perm_eval h r true hH hT hB hc, perm_eval h r' true hH hT hB hc, le_sup_left, ?_, ?_⟩
  · exact sup_le_sup_left (inf_le_inf_left _ (kd_anti (by gcongr))) _
  · exact sup_le (by norm_num) inf_le_left

example := C39_bounded_and_decreasing (H := 2) (T := 8) (B := 4) (c := 2) (C := 0.64) (h := .fin 8) (r := 1)
  (r' := 2) (by norm_num) (by norm_num) (by norm_num) (by norm_num) (by norm_num)

/-- C39: two different crest levels give different coefficients unless one of them is reported as
outside the range of the formula -/
theorem C39_strict_unless_warned (r r' : ℝ) (hr : r < r')
    (h1 : ∀ v, .range "Transmission coefficient Kt" "D'Angremond et al. (1996)" v 0.075 0.8 ∉
      (calculate_wave_transmission_Kt_permeable (fin H) (fin T) h (fin r) (fin B) (fin c)
        (fin C)).warns)
    (h2 : ∀ v, .range "Transmission coefficient Kt" "D'Angremond et al. (1996)" v 0.075 0.8 ∉
      (calculate_wave_transmission_Kt_permeable (fin H) (fin T) h (fin r') (fin B) (fin c)
        (fin C)).warns) : ∃ K K' : ℝ,
    (calculate_wave_transmission_Kt_permeable (fin H) (fin T) h (fin r) (fin B) (fin c)
      (fin C)).res = .ok (fin K) ∧
    (calculate_wave_transmission_Kt_permeable (fin H) (fin T) h (fin r') (fin B) (fin c)
      (fin C)).res = .ok (fin K') ∧ K' < K := by
  have key : ∀ r : ℝ, (∀ v, .range "Transmission coefficient Kt" "D'Angremond et al. (1996)" v
      0.075 0.8 ∉ (calculate_wave_transmission_Kt_permeable (fin H) (fin T) h (fin r) (fin B) (fin c)
        (fin C)).warns) →
      0.075 ≤ kd (r / H) (B / H) (xi H T c) C ∧ kd (r / H) (B / H) (xi H T c) C ≤ 0.8 := by
    intro r hw
    by_contra hn
    apply hw (fin (kd (r / H) (B / H) (xi H T c) C))
    unfold calculate_wave_transmission_Kt_permeable
    dsimp only
    rw [kd_eval r hH hT hB hc, if_pos rfl, PyM.bind_warns_of_ok (dcheck_res ..)]
    apply List.mem_append_left
    unfold check_validity
    dsimp only
    rw [check_bind_warns, check_if_given_warns]
    apply List.mem_append_left
    rw [if_pos]
    · simp
    · refine ⟨by simp, ?_⟩
      rw [not_and_or, not_le, not_le] at hn
      exact hn
  obtain ⟨a1, a2⟩ := key r h1
  obtain ⟨b1, b2⟩ := key r' h2
  refine ⟨_, _, perm_eval h r true hH hT hB hc, perm_eval h r' true hH hT hB hc, ?_⟩
  rw [inf_eq_right.mpr a2, sup_eq_right.mpr a1, inf_eq_right.mpr b2, sup_eq_right.mpr b1]
  have : r / H < r' / H := by gcongr
  unfold kd; linarith

omit hH hT hB hc in
/-- the impermeable structure is the same formula with the coefficient 0.8 instead of 0.64, and never
transmits less -/
theorem C39_impermeable (H T B c r : ℝ) (h : PF) (hH : 0 < H) (hT : 0 < T) (hB : 0 < B)
    (hc : 0 < c) : ∃ K K' : ℝ,
    (calculate_wave_transmission_Kt_permeable (fin H) (fin T) h (fin r) (fin B) (fin c)).res =
      .ok (fin K) ∧
    (calculate_wave_transmission_Kt_impermeable (fin H) (fin T) h (fin r) (fin B) (fin c)).res =
      .ok (fin K') ∧ K ≤ K' ∧ 0.075 ≤ K ∧ K' ≤ 0.8 := by
  refine ⟨_, _, perm_eval h r true hH hT hB hc, perm_eval h r true hH hT hB hc, ?_, le_sup_left,
    sup_le (by norm_num) inf_le_left⟩
  refine sup_le_sup_left (inf_le_inf_left _ ?_) _
  have h1 := one_sub_exp (k := 0.5) (xi_pos hH hT hc) (by norm_num)
  have h2 : 0 < (B / H) ^ (-0.31 : ℝ) := by positivity
  have := mul_pos h2 h1
  unfold kd
  gcongr
  norm_num

example := C39_impermeable (H := 2) (T := 8) (B := 4) (c := 2) (r := 1) (h := .fin 8) (by norm_num)
  (by norm_num) (by norm_num) (by norm_num)
end

/-! ## Briganti 2003 -/
section
open Briganti2003
variable (H T B c : ℝ) (hH : 0 < H) (hT : 0 < T) (hB : 0 < B) (hc : 0 < c)
include hH hT hB hc

/-- C40: the coefficient is a number between 0.05 and 0.93 (0.87 in fact), and for every crest width
a higher crest never transmits more -/
theorem C40_bounded_and_decreasing (r r' : ℝ) (hr : r ≤ r') : ∃ K K' : ℝ,
    (calculate_wave_transmission_Kt (fin H) (fin T) (fin r) (fin B) (fin c)).res = .ok (fin K) ∧
    (calculate_wave_transmission_Kt (fin H) (fin T) (fin r') (fin B) (fin c)).res = .ok (fin K') ∧
    0.05 ≤ K' ∧ K' ≤ K ∧ K ≤ 0.93 ∧ K ≤ 0.87 ∧ (B / H < 10 → 0.075 ≤ K' ∧ K ≤ 0.8) := by
  have hb : 0 < B / H := by positivity
  have hK : 0.05 ⊔ ((if B / H < 10 then 0.075 ⊔ (0.8 ⊓ kd (r / H) (B / H) (xi H T c) 0.64)
      else kb (r / H) (B / H) (xi H T c)) ⊓ (-0.006 * (B / H) + 0.93)) ≤ 0.87 := by
    apply sup_le (by norm_num)
    by_cases h : B / H < 10
    · rw [if_pos h]
      refine inf_le_left.trans (sup_le (by norm_num) (inf_le_left.trans (by norm_num)))
    · refine inf_le_right.trans ?_
      norm_num at h ⊢; linarith
  refine ⟨_, _, brig_eval r hH hT hB hc, brig_eval r' hH hT hB hc, le_sup_left, ?_,
    hK.trans (by norm_num), hK, fun h => ⟨?_, ?_⟩⟩
  · refine sup_le_sup_left (inf_le_inf_right _ ?_) _
    have : r / H ≤ r' / H := by gcongr
    split_ifs
    · exact sup_le_sup_left (inf_le_inf_left _ (kd_anti this)) _
    · unfold kb; linarith
  · rw [if_pos h]
    refine le_sup_of_le_right (le_inf le_sup_left ?_)
    norm_num at h ⊢; linarith
  · rw [if_pos h]
    exact sup_le (by norm_num) (inf_le_left.trans (sup_le (by norm_num) inf_le_left))

example := C40_bounded_and_decreasing (H := 2) (T := 8) (B := 4) (c := 2) (r := 1) (r' := 2) (by norm_num)
  (by norm_num) (by norm_num) (by norm_num) (by norm_num)

/-- C73 (missing: crests submerged deeper than 1.8 times the wave height, refuted below): a wider
crest never transmits more, across the change of formula at ten wave heights included -/
theorem C73_width_partial (B' r : ℝ) (hBB : B ≤ B') (hr : -1.8 * H ≤ r) : ∃ K K' : ℝ,
    (calculate_wave_transmission_Kt (fin H) (fin T) (fin r) (fin B) (fin c)).res = .ok (fin K) ∧
    (calculate_wave_transmission_Kt (fin H) (fin T) (fin r) (fin B') (fin c)).res = .ok (fin K') ∧
    K' ≤ K := by
  refine ⟨_, _, brig_eval r hH hT hB hc, brig_eval r hH hT (hB.trans_le hBB) hc, ?_⟩
  have hx := xi_pos hH hT hc
  have hb : 0 < B / H := by positivity
  have hbb : B / H ≤ B' / H := by gcongr
  have hr' : -1.8 ≤ r / H := (le_div_iff₀ hH).mpr hr
  generalize xi H T c = x at *
  generalize B / H = b at *
  generalize B' / H = b' at *
  generalize r / H = q at *
  have ha := one_sub_exp (k := 0.5) hx (by norm_num)
  have hb0 := one_sub_exp (k := 0.41) hx (by norm_num)
  have hab : 1 - Real.exp (-0.41 * x) ≤ 1 - Real.exp (-0.5 * x) := by
    have : Real.exp (-0.5 * x) ≤ Real.exp (-0.41 * x) := Real.exp_le_exp.mpr (by linarith)
    linarith
  have hb1 : 1 - Real.exp (-0.5 * x) ≤ 1 := by linarith [Real.exp_pos (-0.5 * x)]
  have hU : -0.006 * b' + 0.93 ≤ -0.006 * b + (0.93 : ℝ) := by linarith
  by_cases h1 : b' < 10
  · have h2 : b < 10 := lt_of_le_of_lt hbb h1
    rw [if_pos h1, if_pos h2]
    refine sup_le_sup_left (inf_le_inf ?_ hU) _
    refine sup_le_sup_left (inf_le_inf_left _ ?_) _
    unfold kd
    have : b' ^ (-0.31 : ℝ) ≤ b ^ (-0.31 : ℝ) :=
      Real.rpow_le_rpow_of_nonpos hb hbb (by norm_num)
    gcongr
  · rw [if_neg h1]
    have h1 := not_lt.mp h1
    by_cases h2 : b < 10
    · rw [if_pos h2]
      have e1 : (10 : ℝ) ^ (-(1 / 2) : ℝ) ≤ b ^ (-0.31 : ℝ) :=
        (Real.rpow_le_rpow_of_exponent_le (by norm_num) (by norm_num)).trans
          (Real.rpow_le_rpow_of_nonpos hb h2.le (by norm_num))
      have e2 : b' ^ (-0.65 : ℝ) ≤ (10 : ℝ) ^ (-(1 / 2) : ℝ) :=
        (Real.rpow_le_rpow_of_nonpos (by norm_num) h1 (by norm_num)).trans
          (Real.rpow_le_rpow_of_exponent_le (by norm_num) (by norm_num))
      have e3 : 0 < b' ^ (-0.65 : ℝ) := by have : 0 < b' := by linarith
                                           positivity
      obtain ⟨s1, s2⟩ := s10
      -- bounds of the two formulas
      have k1 : -0.4 * q + 0.316 * (1 - Real.exp (-0.5 * x)) * 0.64 ≤ kd q b x 0.64 := by
        unfold kd
        have := e1.trans' s1
        gcongr
      have k2 : kb q b' x ≤ -0.35 * q + 0.51 * 0.3163 * (1 - Real.exp (-0.41 * x)) := by
        unfold kb
        have := e2.trans s2
        gcongr
      generalize 1 - Real.exp (-0.5 * x) = u at *
      generalize 1 - Real.exp (-0.41 * x) = v at *
      generalize kd q b x 0.64 = kd' at *
      generalize kb q b' x = kb' at *
      apply sup_le_sup_left
      refine le_inf ?_ (inf_le_right.trans hU)
      refine inf_le_left.trans ?_
      by_cases h3 : kb' ≤ 0.075
      · exact le_sup_of_le_left h3
      · have h3 := not_le.mp h3
        norm_num at k1 k2 h3 hr' ⊢
        right
        constructor
        · linarith
        · rcases le_or_gt q 0 with h4 | h4
          · linarith
          · linarith
    · rw [if_neg h2]
      refine sup_le_sup_left (inf_le_inf ?_ hU) _
      unfold kb
      have : b' ^ (-0.65 : ℝ) ≤ b ^ (-0.65 : ℝ) :=
        Real.rpow_le_rpow_of_nonpos hb hbb (by norm_num)
      gcongr

omit hB in
/-- C73 refuted: for a crest submerged 2.5 wave heights, widening it from just below ten wave heights
to ten wave heights raises the coefficient from 0.8 to 0.87 -/
theorem C73_width_refuted (hB : 5 * H ≤ B) (hB' : B < 10 * H) :
    (calculate_wave_transmission_Kt (fin H) (fin T) (fin (-2.5 * H)) (fin B) (fin c)).res =
      .ok (fin 0.8) ∧
    (calculate_wave_transmission_Kt (fin H) (fin T) (fin (-2.5 * H)) (fin (10 * H)) (fin c)).res =
      .ok (fin 0.87) := by
  have hx := xi_pos hH hT hc
  have hB0 : 0 < B := by linarith
  rw [brig_eval _ hH hT hB0 hc, brig_eval _ hH hT (by positivity) hc]
  have e : -2.5 * H / H = -2.5 := by field_simp
  have e10 : 10 * H / H = 10 := by field_simp
  rw [e, e10]
  have hb : B / H < 10 := (div_lt_iff₀ hH).mpr hB'
  have hb0 : 0 < B / H := by positivity
  generalize B / H = b at *
  have ha := one_sub_exp (k := 0.5) hx (by norm_num)
  have hb1 := one_sub_exp (k := 0.41) hx (by norm_num)
  have k1 : 0.8 ≤ kd (-2.5) b (xi H T c) 0.64 := by
    have : 0 < b ^ (-0.31 : ℝ) * (1 - Real.exp (-0.5 * xi H T c)) * 0.64 := by positivity
    unfold kd
    norm_num at this ⊢
    linarith
  have k2 : 0.87 ≤ kb (-2.5) 10 (xi H T c) := by
    have : 0 < 0.51 * (10 : ℝ) ^ (-0.65 : ℝ) * (1 - Real.exp (-0.41 * xi H T c)) := by positivity
    unfold kb
    norm_num at this ⊢
    linarith
  constructor
  · have k3 : (0.8 : ℝ) ≤ -0.006 * b + 0.93 := by
      norm_num at hb ⊢
      linarith
    rw [if_pos hb, inf_eq_left.mpr k1, sup_eq_right.mpr (by norm_num : (0.075 : ℝ) ≤ 0.8),
      inf_eq_left.mpr k3, sup_eq_right.mpr (by norm_num : (0.05 : ℝ) ≤ 0.8)]
  · rw [if_neg (by norm_num), inf_eq_right.mpr (by norm_num at k2 ⊢; linarith),
      sup_eq_right.mpr (by norm_num)]
    norm_num

example := C73_width_refuted (H := 2) (T := 8) (B := 15) (c := 2) (by norm_num) (by norm_num) (by norm_num)
  (by norm_num) (by norm_num)

end

/-! ## Goda 1967 -/
section
open Goda1967

namespace TransProof
theorem goda_eval {H a b : ℝ} (r : ℝ) (hH : 0 < H) (ha : 0 < a) :
    calculate_wave_transmission_Kt (fin H) (fin r) (fin a) (fin b) = fin
      (if r / H ≤ -a - b then 1 else if r / H ≤ a - b then
        0.5 * (1 - Real.sin (Real.pi / 2 * ((r / H + b) / a))) else 0.03) := by
  unfold calculate_wave_transmission_Kt
  dsimp only
  rw [div_fin hH.ne']
  generalize r / H = q
  have e1 : (fin q ≤ -1 * fin a - fin b) ↔ q ≤ -a - b := by
    pf_eval []
    rw [neg_one_mul]
  have e2 : (fin q ≤ fin a - fin b) ↔ q ≤ a - b := by pf_eval []
  by_cases h1 : q ≤ -a - b
  · rw [if_pos (e1.mpr h1), if_pos h1, one_eq]
  · rw [if_neg (fun h => h1 (e1.mp h)), if_neg h1]
    by_cases h2 : q ≤ a - b
    · rw [if_pos (e2.mpr h2), if_pos h2]; pf_eval []
    · rw [if_neg (fun h => h2 (e2.mp h)), if_neg h2, sci_eq]
end TransProof

variable (H a b : ℝ) (hH : 0 < H) (ha : 0 < a)
include hH ha

/-- C41 (missing: the lower bound 0.03 and monotonicity across the upper transition, both refuted
below): the coefficient is a number between 0 and 1; it is 1 for deep submergence and 0.03 above the
upper transition; up to the transition a higher crest never transmits more -/
theorem C41_bounded_and_decreasing_partial (r r' : ℝ) (hr : r ≤ r') : ∃ K K' : ℝ,
    calculate_wave_transmission_Kt (fin H) (fin r) (fin a) (fin b) = fin K ∧
    calculate_wave_transmission_Kt (fin H) (fin r') (fin a) (fin b) = fin K' ∧
    0 ≤ K ∧ K ≤ 1 ∧ (r ≤ -(a + b) * H → K = 1) ∧ ((a - b) * H < r → K = 0.03) ∧
    (r' ≤ (a - b) * H → K' ≤ K) := by
  refine ⟨_, _, goda_eval r hH ha, goda_eval r' hH ha, ?_, ?_, ?_, ?_, ?_⟩
  · split_ifs
    · norm_num
    · have := Real.sin_le_one (Real.pi / 2 * ((r / H + b) / a))
      norm_num; linarith
    · norm_num
  · split_ifs
    · norm_num
    · have := Real.neg_one_le_sin (Real.pi / 2 * ((r / H + b) / a))
      norm_num; linarith
    · norm_num
  · intro h
    rw [if_pos ((div_le_iff₀ hH).mpr (by linarith))]
  · intro h
    have h2 : a - b < r / H := (lt_div_iff₀ hH).mpr h
    rw [if_neg (by linarith), if_neg (by linarith)]
  · intro h
    have h2 : r' / H ≤ a - b := (div_le_iff₀ hH).mpr h
    have h3 : r / H ≤ r' / H := by gcongr
    generalize r / H = q at *
    generalize r' / H = q' at *
    rw [if_pos h2, if_pos (h3.trans h2)]
    split_ifs with c1 c2 c2
    · exact le_rfl
    · exact absurd (h3.trans c1) c2
    · have := Real.neg_one_le_sin (Real.pi / 2 * ((q' + b) / a))
      norm_num; linarith
    · have c1 := not_le.mp c1
      have c2 := not_le.mp c2
      have hpi := Real.pi_pos
      have : Real.sin (Real.pi / 2 * ((q + b) / a)) ≤ Real.sin (Real.pi / 2 * ((q' + b) / a)) := by
        apply Real.sin_le_sin_of_le_of_le_pi_div_two
        · have : -1 ≤ (q + b) / a := by rw [le_div_iff₀ ha]; linarith
          nlinarith
        · have : (q' + b) / a ≤ 1 := by rw [div_le_iff₀ ha]; linarith
          nlinarith
        · gcongr
      norm_num; linarith

example := C41_bounded_and_decreasing_partial (H := 2) (a := 1) (b := 20) (r := 1) (r' := 2) (by norm_num)
  (by norm_num) (by norm_num)

/-- C41 refuted: at the upper transition the coefficient is zero, below the stated minimum, and any
higher crest transmits more -/
theorem C41_jump_refuted (r : ℝ) (hr : (a - b) * H < r) :
    calculate_wave_transmission_Kt (fin H) (fin ((a - b) * H)) (fin a) (fin b) = fin 0 ∧
    calculate_wave_transmission_Kt (fin H) (fin r) (fin a) (fin b) = fin 0.03 := by
  rw [goda_eval _ hH ha, goda_eval _ hH ha]
  have e : (a - b) * H / H = a - b := by field_simp
  have h2 : a - b < r / H := (lt_div_iff₀ hH).mpr hr
  constructor
  · rw [e, if_neg (by linarith), if_pos le_rfl, sub_add_cancel, div_self ha.ne', mul_one,
      Real.sin_pi_div_two]
    norm_num
  · rw [if_neg (by linarith), if_neg (by linarith)]

omit hH ha in
/-- C41 finding: a missing freeboard or wave height is not propagated, the result is 0.03 -/
theorem C41_nan (x a b : PF) : calculate_wave_transmission_Kt x nan a b = fin 0.03 ∧
    calculate_wave_transmission_Kt nan x a b = fin 0.03 := by
  unfold calculate_wave_transmission_Kt
  simp only [nan_div, div_nan]
  rw [if_neg (nan_le _), if_neg (nan_le _), sci_eq]
  exact ⟨rfl, rfl⟩
end

/-! ## Van Gent 2023 -/
section
open VanGent2023

/-- C42: for each of the five structure types, with any positive deep-water wavelength, the
coefficient lies strictly within the asymptotes and strictly decreases with the freeboard -/
theorem C42_bounded_and_decreasing (disper : PF → PF → PF → PF) (H B L : ℝ) (T : PF) (hH : 0 < H)
    (hB : 0 < B) (hL : 0 < L) (hw : calculate_local_wavelength disper T 1e100 = fin L)
    (r r' : ℝ) (hr : r < r') (s : String) (lo hi : ℝ)
    (hs : (s, lo, hi) ∈ [("impermeable", 0.03, 0.97), ("permeable", 0.07, 0.93),
      ("perforated", 0.69, 0.95), ("perforated_with_screen", 0.1, 0.9),
      ("perforated_with_perforated_screen", 0.59, 0.93)]) : ∃ K K' : ℝ,
    (calculate_wave_transmission_Kt disper (fin H) T (fin r) (fin B) s).res = .ok (fin K) ∧
    (calculate_wave_transmission_Kt disper (fin H) T (fin r') (fin B) s).res = .ok (fin K') ∧
    lo < K' ∧ K' < K ∧ K < hi := by
  have hb : 0 < B / L := by positivity
  have hrr : r / H < r' / H := by gcongr
  have key : ∀ c1 c2 c3 c4 c5 : ℝ, 0 < c1 → c5 - c1 = lo → c5 + c1 = hi →
      coefficients s = pure (fin c1, fin c2, fin c3, fin c4, fin c5) → ∃ K K' : ℝ,
      (calculate_wave_transmission_Kt disper (fin H) T (fin r) (fin B) s).res = .ok (fin K) ∧
      (calculate_wave_transmission_Kt disper (fin H) T (fin r') (fin B) s).res = .ok (fin K') ∧
      lo < K' ∧ K' < K ∧ K < hi := by
    intro c1 c2 c3 c4 c5 hc hlo hhi he
    have ev : ∀ q : ℝ, (calculate_wave_transmission_Kt disper (fin H) T (fin q) (fin B) s).res =
        .ok (fin (c1 * Real.tanh (-(q / H + c2 * (B / L) ^ c3 + c4)) + c5)) := by
      intro q
      unfold calculate_wave_transmission_Kt
      rw [he, pure_bind]
      simp only [hw, PyM.pure_def]
      pf_eval []
    refine ⟨_, _, ev r, ev r', ?_, ?_, ?_⟩
    · have := Real.neg_one_lt_tanh (-(r' / H + c2 * (B / L) ^ c3 + c4))
      nlinarith
    · have : Real.tanh (-(r' / H + c2 * (B / L) ^ c3 + c4)) <
          Real.tanh (-(r / H + c2 * (B / L) ^ c3 + c4)) := tanh_lt (by linarith)
      nlinarith
    · have := Real.tanh_lt_one (-(r / H + c2 * (B / L) ^ c3 + c4))
      nlinarith
  simp only [List.mem_cons, Prod.mk.injEq, List.not_mem_nil, or_false] at hs
  rcases hs with ⟨rfl, rfl, rfl⟩ | ⟨rfl, rfl, rfl⟩ | ⟨rfl, rfl, rfl⟩ | ⟨rfl, rfl, rfl⟩ |
    ⟨rfl, rfl, rfl⟩
  · exact key 0.47 3.1 0.75 0.0 0.5 (by norm_num) (by norm_num) (by norm_num) rfl
  · exact key 0.43 3.1 0.75 (-0.25) 0.5 (by norm_num) (by norm_num) (by norm_num) rfl
  · exact key 0.13 3.1 0.75 (-0.15) 0.82 (by norm_num) (by norm_num) (by norm_num) rfl
  · exact key 0.40 3.1 0.75 (-0.15) 0.5 (by norm_num) (by norm_num) (by norm_num) rfl
  · exact key 0.17 3.1 0.75 (-0.15) 0.76 (by norm_num) (by norm_num) (by norm_num) rfl

example := C42_bounded_and_decreasing (disper := fun _ _ _ => .fin 0.1) (H := 2) (B := 4)
  (L := (2 * Real.pi / 0.1)) (T := .fin 8) (r := 1) (r' := 2) (s := "impermeable") (lo := 0.03) (hi := 0.97)
  (by norm_num) (by norm_num) (by positivity)
  (by unfold CorePhysics.calculate_local_wavelength; dsimp only; rw [PF.ofNat_eq, show PF.pi = .fin Real.pi from rfl, PF.mul_fin, PF.div_fin (by norm_num)])
  (by norm_num) (by norm_num)

/-- C42: every other structure type raises ValueError -/
theorem C42_unknown_type (disper : PF → PF → PF → PF) (H T r B : PF) (s : String)
    (hs : s ∉ ["impermeable", "permeable", "perforated", "perforated_with_screen",
      "perforated_with_perforated_screen"]) :
    (calculate_wave_transmission_Kt disper H T r B s).res = .error .valueError := by
  have : coefficients s = PyM.raise .valueError := by
    simp only [List.mem_cons, List.not_mem_nil, or_false, not_or] at hs
    unfold coefficients
    split <;> simp_all
  unfold calculate_wave_transmission_Kt
  rw [this]
  rfl

/-- C42 refuted: no input whatsoever is reported as out of range -/
theorem C42_never_warns_refuted (disper : PF → PF → PF → PF) (H T r B : PF) (s : String) :
    (calculate_wave_transmission_Kt disper H T r B s).warns = [] := by
  unfold calculate_wave_transmission_Kt coefficients
  split <;> rfl

/-- C42: the default structure type is the permeable one -/
theorem C42_default (disper : PF → PF → PF → PF) (H T r B : PF) :
    calculate_wave_transmission_Kt disper H T r B =
      calculate_wave_transmission_Kt disper H T r B "permeable" := rfl
end

/-! ## Van Gent 2024 -/
section
open VanGent2024
variable (H T : ℝ) (hH : 0 < H) (hT : 0 < T)
include hH hT

namespace TransProof

omit hH hT in
theorem vcheck_res (a b c d e f : PF) (s : String) : (check_validity_range a b c d e f s).res =
    .ok () := by
  unfold check_validity_range
  by_cases h1 : s = "impermeable"
  · subst h1; simp
  · by_cases h2 : s = "permeable"
    · subst h2; simp
    · simp [h1, h2]

theorem s_eval : ∃ s : ℝ, 0 < s ∧ calculate_wave_steepness_s (fin H) (fin T) = fin s := by
  have := Real.pi_pos
  refine ⟨2 * Real.pi / 9.81 * H / T ^ 2, by positivity, ?_⟩
  unfold calculate_wave_steepness_s; pf_eval []

end TransProof

/-- C43: the set-up behind an impermeable structure is zero at a freeboard of -1.6 wave heights and
strictly increases with the crest level above that -/
theorem C43_impermeable (r r' : ℝ) (h0 : -1.6 * H ≤ r) (hr : r < r') : ∃ d d' : ℝ,
    (calculate_structure_induced_setup_delta_impermeable (fin H) (fin T) (fin r)).res =
      .ok (fin d) ∧
    (calculate_structure_induced_setup_delta_impermeable (fin H) (fin T) (fin r')).res =
      .ok (fin d') ∧ 0 ≤ d ∧ d < d' ∧ (r = -1.6 * H → d = 0) := by
  obtain ⟨s, hs, es⟩ := s_eval H T hH hT
  have ev : ∀ q : ℝ, -1.6 * H ≤ q → (calculate_structure_induced_setup_delta_impermeable (fin H)
      (fin T) (fin q)).res = .ok (fin (0.34 * s ^ (0.4 : ℝ) * (q / H + 1.6) ^ (3.5 : ℝ) * H)) := by
    intro q hq
    have : 0 ≤ q / H + 1.6 := by
      have : -1.6 ≤ q / H := (le_div_iff₀ hH).mpr hq
      linarith
    have e : npow (fin q / fin H + 1.6) 3.5 = fin ((q / H + 1.6) ^ (3.5 : ℝ)) := by
      rw [div_fin hH.ne', sci_eq, sci_eq, add_fin, npow_fin_nonneg this (by norm_num)]
    unfold calculate_structure_induced_setup_delta_impermeable
      calculate_dimensionless_structure_induced_setup_impermeable
    simp only [es, e]
    rw [PyM.bind_res_of_ok (PyM.bind_res_of_ok (vcheck_res ..) _)]
    simp only [PyM.pure_def]
    pf_eval []
  refine ⟨_, _, ev r h0, ev r' (h0.trans hr.le), ?_, ?_, ?_⟩
  · have : 0 ≤ r / H + 1.6 := by
      have : -1.6 ≤ r / H := (le_div_iff₀ hH).mpr h0
      linarith
    positivity
  · have h1 : 0 ≤ r / H + 1.6 := by
      have : -1.6 ≤ r / H := (le_div_iff₀ hH).mpr h0
      linarith
    have h2 : r / H < r' / H := by gcongr
    have := Real.rpow_lt_rpow h1 (by linarith : r / H + 1.6 < r' / H + 1.6) (by norm_num : (0 : ℝ) < 3.5)
    gcongr
  · intro h
    have : r / H + 1.6 = 0 := by rw [h]; field_simp; norm_num
    rw [this, Real.zero_rpow (by norm_num)]
    simp

/-- C43: the set-up behind a permeable structure is zero at a freeboard of -1.5 wave heights, strictly
increases with the crest level above that, and strictly decreases with the structure height -/
theorem C43_permeable (r r' hc hc' : ℝ) (h0 : -1.5 * H < r) (hr : r < r') (hhc : 0 < hc)
    (hhh : hc < hc') : ∃ d d' d'' : ℝ,
    (calculate_structure_induced_setup_delta_permeable (fin H) (fin T) (fin r) (fin hc)).res =
      .ok (fin d) ∧
    (calculate_structure_induced_setup_delta_permeable (fin H) (fin T) (fin r') (fin hc)).res =
      .ok (fin d') ∧
    (calculate_structure_induced_setup_delta_permeable (fin H) (fin T) (fin r) (fin hc')).res =
      .ok (fin d'') ∧ 0 < d'' ∧ d'' < d ∧ d < d' := by
  obtain ⟨s, hs, es⟩ := s_eval H T hH hT
  have ev : ∀ q hc : ℝ, -1.5 * H < q → 0 < hc →
      (calculate_structure_induced_setup_delta_permeable (fin H) (fin T) (fin q) (fin hc)).res =
      .ok (fin (0.22 * s ^ (0.2 : ℝ) * (hc / H) ^ (-0.7 : ℝ) * (q / H + 1.5) ^ (1.5 : ℝ) * H)) := by
    intro q hc hq hhc
    have : 0 < q / H + 1.5 := by
      have : -1.5 < q / H := (lt_div_iff₀ hH).mpr hq
      linarith
    have hcH : 0 < hc / H := by positivity
    unfold calculate_structure_induced_setup_delta_permeable
      calculate_dimensionless_structure_induced_setup_permeable
    simp only [es]
    rw [PyM.bind_res_of_ok (PyM.bind_res_of_ok (vcheck_res ..) _)]
    simp only [PyM.pure_def]
    pf_eval []
  have h1 : 0 < r / H + 1.5 := by
    have : -1.5 < r / H := (lt_div_iff₀ hH).mpr h0
    linarith
  have hhc' : 0 < hc' := hhc.trans hhh
  refine ⟨_, _, _, ev r hc h0 hhc, ev r' hc (h0.trans hr) hhc, ev r hc' h0 hhc', ?_, ?_, ?_⟩
  · positivity
  · have : (hc' / H) ^ (-0.7 : ℝ) < (hc / H) ^ (-0.7 : ℝ) :=
      Real.rpow_lt_rpow_of_neg (by positivity) (by gcongr) (by norm_num)
    gcongr
  · have h2 : r / H < r' / H := by gcongr
    have := Real.rpow_lt_rpow h1.le (by linarith : r / H + 1.5 < r' / H + 1.5) (by norm_num : (0 : ℝ) < 1.5)
    have : 0 < (hc / H) ^ (-0.7 : ℝ) := by positivity
    gcongr

example := C43_permeable (H := 2) (T := 8) (r := 1) (r' := 2) (hc := 1) (hc' := 2) (by norm_num)
  (by norm_num) (by norm_num) (by norm_num) (by norm_num) (by norm_num)

/-- C43 limit: deeper than 1.6 (impermeable) or 1.5 (permeable) wave heights the result is NaN -/
theorem C43_nan (r : ℝ) (hc : PF) :
    (r < -1.6 * H → (calculate_structure_induced_setup_delta_impermeable (fin H) (fin T)
      (fin r)).res = .ok nan) ∧
    (r < -1.5 * H → (calculate_structure_induced_setup_delta_permeable (fin H) (fin T) (fin r)
      hc).res = .ok nan) := by
  have hn : ∀ y : ℝ, (∀ n : ℤ, (n : ℝ) ≠ y) → ∀ x : ℝ, x < 0 → npow (fin x) (fin y) = nan :=
    fun y hy x hx => npow_neg_base hx hy
  have n35 : ∀ n : ℤ, (n : ℝ) ≠ 3.5 := by
    intro n h
    have h2 : ((2 * n : ℤ) : ℝ) = ((7 : ℤ) : ℝ) := by push_cast; rw [h]; norm_num
    have := Int.cast_injective h2
    omega
  have n15 : ∀ n : ℤ, (n : ℝ) ≠ 1.5 := by
    intro n h
    have h2 : ((2 * n : ℤ) : ℝ) = ((3 : ℤ) : ℝ) := by push_cast; rw [h]; norm_num
    have := Int.cast_injective h2
    omega
  constructor
  · intro h
    have : r / H + 1.6 < 0 := by
      have : r / H < -1.6 := (div_lt_iff₀ hH).mpr h
      linarith
    have e : npow (fin r / fin H + 1.6) 3.5 = nan := by
      rw [div_fin hH.ne', sci_eq, sci_eq, add_fin, hn _ n35 _ this]
    unfold calculate_structure_induced_setup_delta_impermeable
      calculate_dimensionless_structure_induced_setup_impermeable
    simp only [e, mul_nan]
    rw [PyM.bind_res_of_ok (PyM.bind_res_of_ok (vcheck_res ..) _)]
    simp only [PyM.pure_def, nan_mul]
  · intro h
    have : r / H + 1.5 < 0 := by
      have : r / H < -1.5 := (div_lt_iff₀ hH).mpr h
      linarith
    have e : npow (fin r / fin H + 1.5) 1.5 = nan := by
      rw [div_fin hH.ne', sci_eq, add_fin, hn _ n15 _ this]
    unfold calculate_structure_induced_setup_delta_permeable
      calculate_dimensionless_structure_induced_setup_permeable
    simp only [e, mul_nan]
    rw [PyM.bind_res_of_ok (PyM.bind_res_of_ok (vcheck_res ..) _)]
    simp only [PyM.pure_def, nan_mul]
end

-- ordinary inputs
example : ∃ K K' : ℝ,
    (Briganti2003.calculate_wave_transmission_Kt (fin 2) (fin 8) (fin 1) (fin 10) (fin 2)).res =
      .ok (fin K) ∧
    (Briganti2003.calculate_wave_transmission_Kt (fin 2) (fin 8) (fin 1) (fin 30) (fin 2)).res =
      .ok (fin K') ∧ K' ≤ K :=
  C73_width_partial 2 8 10 2 (by norm_num) (by norm_num) (by norm_num) (by norm_num) 30 1
    (by norm_num) (by norm_num)
example : Goda1967.calculate_wave_transmission_Kt (fin 2) (fin ((2.2 - 0.4) * 2)) (fin 2.2) (fin 0.4)
    = fin 0 := (C41_jump_refuted 2 2.2 0.4 (by norm_num) (by norm_num) 4 (by norm_num)).1
example : (VanGent2023.calculate_wave_transmission_Kt (fun _ _ _ => 1) 2 8 1 10 "porous").res =
    .error .valueError := C42_unknown_type _ _ _ _ _ _ (by decide)
example : ∃ d d' : ℝ,
    (VanGent2024.calculate_structure_induced_setup_delta_impermeable (fin 2) (fin 8) (fin (-1))).res =
      .ok (fin d) ∧
    (VanGent2024.calculate_structure_induced_setup_delta_impermeable (fin 2) (fin 8) (fin 0)).res =
      .ok (fin d') ∧ 0 ≤ d ∧ d < d' := by
  obtain ⟨d, d', a, b, c, e, -⟩ := C43_impermeable 2 8 (by norm_num) (by norm_num) (-1) 0
    (by norm_num) (by norm_num)
  exact ⟨d, d', a, b, c, e⟩

end
