import Verif.Props.NotANumber
import Verif.Props.RangeStructures
import Verif.Props.Takahashi

/-! # C103 refuted: results that are no numbers, in silence -/

open Classical
open PF CoreUtility CorePhysics
noncomputable section

namespace NumberProof

theorem eq_silent {α : Type} {m : PyM α} {v : α} (hw : m.warns = []) (hr : m.res = .ok v) : m = ⟨[], .ok v⟩ := by
  obtain ⟨w, r⟩ := m
  simp only at hw hr
  rw [hw, hr]

/-- a quantity inside its range -/
theorem ok_limit {n : String} {x lo hi : ℝ} (h1 : lo ≤ x) (h2 : x ≤ hi) :
    ¬ Limit.Violated ⟨n, fin x, fin lo, fin hi⟩ := by
  rintro (h | h)
  · exact absurd (show x < lo from h) (not_lt.mpr h1)
  · exact absurd (show hi < x from h) (not_lt.mpr h2)

end NumberProof
open NumberProof

/-- C103 refuted: in waves too small to move the cubes of a double layer, the damage is NaN instead of zero, for every
structure and sea state inside the published ranges -/
theorem C103_cubes_damage_refuted {H D s N ra rw : ℝ} (hH : 0.01 ≤ H) (hH' : H ≤ 20) (hN : 0 < N) (hN' : N ≤ 7500)
    (hT : 0.5 ≤ √(H / s / (9.81 / (2 * Real.pi)))) (hT' : √(H / s / (9.81 / (2 * Real.pi))) ≤ 30) (ha : 2000 ≤ ra)
    (ha' : ra ≤ 3100) (hs : 0.005 ≤ s) (hs' : s ≤ 0.07) (hw : 0 < rw) (hr : rw < ra) (hD : 0 < D)
    (stable : Textbook.Ns H D ra rw < s ^ (-0.1 : ℝ)) :
    SilentlyNotANumber (CubesVdM.calculate_damage_Nod_vanDerMeer1988 (fin H) (fin D) (fin s) (fin rw) (fin ra) (fin N)
      (fin 1.5)) := by
  have hH0 : 0 < H := lt_of_lt_of_le (by norm_num) hH
  have hs0 : 0 < s := lt_of_lt_of_le (by norm_num) hs
  refine eq_silent ?_ ?_
  · refine (RangeStructures.C60_cubes_damage (H := H) (D := D) (s := s) (rr := ra) (N := N) (c := 1.5) (fin rw) hH0
      hs0).silent ?_
    simp only [sci_eq, ofNat_eq, List.forall_mem_cons, List.not_mem_nil, IsEmpty.forall_iff, implies_true, and_true]
    exact ⟨ok_limit hH hH', ok_limit (by simpa using hN.le) hN', ok_limit hT hT', ok_limit ha ha', ok_limit le_rfl le_rfl, ok_limit hs hs'⟩
  · obtain ⟨De, hDe, hDD, e⟩ := Delta_eval hw hr
    have hp : 0 < s ^ (-0.1 : ℝ) := by positivity
    have hneg : ((H / (De * D)) / s ^ (-0.1 : ℝ) - 1) / 6.7 * N ^ (0.3 : ℝ) < 0 := by
      have : H / (De * D) / s ^ (-0.1 : ℝ) < 1 := by
        rw [div_lt_one hp, hDD]; exact stable
      exact mul_neg_of_neg_of_pos (div_neg_of_neg_of_pos (by linarith) (by norm_num)) (by positivity)
    have hq : ∀ n : ℤ, (n : ℝ) ≠ 1 / 0.4 := by
      intro n h
      have h2 : ((2 * n : ℤ) : ℝ) = ((5 : ℤ) : ℝ) := by push_cast; rw [h]; norm_num
      have := Int.cast_injective h2
      omega
    unfold CubesVdM.calculate_damage_Nod_vanDerMeer1988
    dsimp only
    rw [stab_Ns, PyM.bind_ok]
    dsimp only
    rw [PyM.bind_res_of_ok (a := ()) (by simp [CubesVdM.check_validity_range]), e]
    have e1 : ((fin H / (fin De * fin D)) / npow (fin s) (-0.1) - 1) / 6.7 * npow (fin N) 0.3 =
        fin (((H / (De * D)) / s ^ (-0.1 : ℝ) - 1) / 6.7 * N ^ (0.3 : ℝ)) := by pf_eval []
    have e2 : (1 / 0.4 : PF) = fin (1 / 0.4) := by pf_eval []
    rw [e1, e2, npow_neg_base hneg hq]
    rfl

/-- cubes of 5 m in waves of 2 m -/
example : SilentlyNotANumber (CubesVdM.calculate_damage_Nod_vanDerMeer1988 (fin 2) (fin 5) (fin 0.04) (fin 1025) (fin 2400)
    (fin 3000) (fin 1.5)) := by
  have hpi := Real.pi_gt_d2
  have hpi' := Real.pi_lt_d2
  have h1 : (1 : ℝ) ≤ 2 / 0.04 / (9.81 / (2 * Real.pi)) := by
    rw [div_div_eq_mul_div, le_div_iff₀ (by norm_num)]; norm_num; linarith
  have h2 : 2 / 0.04 / (9.81 / (2 * Real.pi)) ≤ 900 := by
    rw [div_div_eq_mul_div, div_le_iff₀ (by norm_num)]; norm_num; linarith
  refine C103_cubes_damage_refuted (by norm_num) (by norm_num) (by norm_num) (by norm_num) ?_ ?_ (by norm_num) (by norm_num)
    (by norm_num) (by norm_num) (by norm_num) (by norm_num) (by norm_num) ?_
  · have := Real.one_le_sqrt.mpr h1
    norm_num at this ⊢; linarith
  · rw [Real.sqrt_le_left (by norm_num)]; norm_num at h2 ⊢; linarith
  · have : (1 : ℝ) ≤ 0.04 ^ (-0.1 : ℝ) :=
      Real.one_le_rpow_of_pos_of_le_one_of_nonpos (by norm_num) (by norm_num) (by norm_num)
    unfold Textbook.Ns Textbook.Delta
    norm_num at this ⊢
    linarith

/-- C103 refuted: below the start of damage (stability number 1.2) the damage of a toe by Etemad-Shahidi et al. (2021) is
NaN instead of zero -/
theorem C103_etemad2021_damage_refuted {H T h ht B m D ra rw : ℝ} (hH : 0 < H) (hT : 0 < T) (hh : 0 < h) (hB : 0 < B)
    (hm : 3.7 * m < 1) (hw : 0 < rw) (hr : rw < ra) (hD : 0 < D) (h1 : 0.48 ≤ ht / H) (h2 : ht / H ≤ 2.58)
    (stable : Textbook.Ns H D ra rw < 1.2) :
    SilentlyNotANumber (EtemadShahidi2021.calculate_damage_Nod (fin H) (fin T) (fin h) (fin ht) (fin B) (fin m) (fin D)
      (fin ra) (fin rw)) := by
  have hht : 0 < ht := by
    rw [le_div_iff₀ hH] at h1
    exact lt_of_lt_of_le (mul_pos (by norm_num : (0 : ℝ) < 0.48) hH) h1
  refine eq_silent ?_ ?_
  · refine (RangeStructures.C60_toe_etemad_damage_partial (ht := ht) (fin T) (fin h) (fin B) (fin m) (fin D) (fin ra)
      (fin rw) _ _ _ _ _ _ _ _ hH).silent ?_
    simp only [sci_eq, List.forall_mem_cons, List.not_mem_nil, IsEmpty.forall_iff, implies_true, and_true]
    exact ok_limit h1 h2
  · have hst : ∃ s : ℝ, 0 < s ∧ calculate_wave_steepness_s (fin H) (fin T) 9.81 = fin s := TransProof.s_eval H T hH hT
    obtain ⟨s, hs, es⟩ := hst
    have hneg : (Textbook.Ns H D ra rw - 1.2) * (1.0 / 11.2) * (ht / h) ^ (-(7.0 / 4.0) : ℝ) * s ^ (-(1.0 / 6.0) : ℝ)
        * (B / H) ^ (-(-1.0 / 10.0) : ℝ) * (1.0 / (1.0 - 3.7 * m)) < 0 := by
      have h3 : (0 : ℝ) < 1.0 / (1.0 - 3.7 * m) := by
        have h0 : (0 : ℝ) < 1.0 := by norm_num
        refine div_pos h0 ?_
        norm_num at hm ⊢; linarith
      have : (Textbook.Ns H D ra rw - 1.2) < 0 := by linarith
      have h4 : (0 : ℝ) < 1.0 / 11.2 * (ht / h) ^ (-(7.0 / 4.0) : ℝ) * s ^ (-(1.0 / 6.0) : ℝ)
        * (B / H) ^ (-(-1.0 / 10.0) : ℝ) * (1.0 / (1.0 - 3.7 * m)) := by positivity
      calc _ = (Textbook.Ns H D ra rw - 1.2) * (1.0 / 11.2 * (ht / h) ^ (-(7.0 / 4.0) : ℝ) * s ^ (-(1.0 / 6.0) : ℝ)
            * (B / H) ^ (-(-1.0 / 10.0) : ℝ) * (1.0 / (1.0 - 3.7 * m))) := by simp only [mul_assoc]
        _ < 0 := mul_neg_of_neg_of_pos this h4
    have hq : ∀ n : ℤ, (n : ℝ) ≠ 1.0 / (2.0 / 5.0) := by
      intro n h
      have h2 : ((2 * n : ℤ) : ℝ) = ((5 : ℤ) : ℝ) := by push_cast; rw [h]; norm_num
      have := Int.cast_injective h2
      omega
    have hn : (1.0 - 3.7 * m : ℝ) ≠ 0 := by norm_num at hm ⊢; intro h; linarith
    unfold EtemadShahidi2021.calculate_damage_Nod
    dsimp only
    rw [es, RangeProof.Ns_eval hD hw hr,
      PyM.bind_res_of_ok (a := ()) (by simp [EtemadShahidi2021.check_validity])]
    have e1 : (fin (Textbook.Ns H D ra rw) - 1.2) * (1.0 / 11.2) * npow (fin ht / fin h) (-(7.0 / 4.0))
        * npow (fin s) (-(1.0 / 6.0)) * npow (fin B / fin H) (-(-1.0 / 10.0)) * (1.0 / (1.0 - 3.7 * fin m)) =
        fin ((Textbook.Ns H D ra rw - 1.2) * (1.0 / 11.2) * (ht / h) ^ (-(7.0 / 4.0) : ℝ) * s ^ (-(1.0 / 6.0) : ℝ)
        * (B / H) ^ (-(-1.0 / 10.0) : ℝ) * (1.0 / (1.0 - 3.7 * m))) := by
      have ha : 0 < ht / h := by positivity
      have hb : 0 < B / H := by positivity
      simp only [sci_eq, mul_fin, sub_fin]
      rw [div_fin hn, div_fin hh.ne', div_fin hH.ne', div_fin (x := 1.0) (y := 11.2) (by norm_num), div_fin (x := 7.0) (y := 4.0) (by norm_num),
        div_fin (x := 1.0) (y := 6.0) (by norm_num)]
      simp only [neg_fin]
      rw [div_fin (x := -1.0) (y := 10.0) (by norm_num)]
      simp only [neg_fin]
      rw [npow_fin ha, npow_fin hs, npow_fin hb]
      simp only [mul_fin]
    have e2 : (1.0 / (2.0 / 5.0) : PF) = fin (1.0 / (2.0 / 5.0)) := by
      simp only [sci_eq]; rw [div_fin (x := 2.0) (y := 5.0) (by norm_num), div_fin (x := 1.0) (by norm_num)]
    rw [e1, e2, npow_neg_base hneg hq]
    rfl

example := C103_etemad2021_damage_refuted (H := 2) (T := 8) (h := 6) (ht := 3) (B := 3) (m := 0.05) (D := 1.2) (ra := 2650)
  (rw := 1025) (by norm_num) (by norm_num) (by norm_num) (by norm_num) (by norm_num) (by norm_num) (by norm_num)
  (by norm_num) (by norm_num) (by norm_num) (by unfold Textbook.Ns Textbook.Delta; norm_num)

/-- C103 refuted: where no depth above the toe gives as much damage as asked for, the depth by Van der Meer (1998) is NaN,
without a warning if the stones are large -/
theorem C103_vdm1998_depth_refuted {H D h N ra rw : ℝ} (hN : 0 < N) (hw : 0 < rw) (hr : rw < ra) (hD : 0 < D)
    (h1 : 0.01 ≤ H) (h2 : H ≤ 20) (h3 : 2 ≤ N ^ (-0.15 : ℝ) * (H / Textbook.Delta ra rw * D))
    (low : H * N ^ (-0.15 : ℝ) / (Textbook.Delta ra rw * D) ≤ 2) :
    SilentlyNotANumber (VanDerMeer1998.calculate_depth_above_toe_ht (fin H) (fin D) (fin h) (fin N) (fin ra) (fin rw)) := by
  obtain ⟨De, hDe, hDD, e⟩ := Delta_eval hw hr
  rw [show Textbook.Delta ra rw = De from hDD.symm] at h3 low
  have e1 : ((fin H * npow (fin N) (-0.15)) / (fin De * fin D) - 2) / 6.2 =
      fin ((H * N ^ (-0.15 : ℝ) / (De * D) - 2) / 6.2) := by pf_eval []
  have e2 : npow (fin N) (-0.15) * (fin H / fin De * fin D) = fin (N ^ (-0.15 : ℝ) * (H / De * D)) := by pf_eval []
  have hneg : ¬ (fin ((H * N ^ (-0.15 : ℝ) / (De * D) - 2) / 6.2) > 0) := by
    rw [zero_eq, gt_iff_lt, lt_fin, not_lt]
    exact div_nonpos_of_nonpos_of_nonneg (by linarith) (by norm_num)
  unfold VanDerMeer1998.calculate_depth_above_toe_ht
  dsimp only
  rw [e, e1, if_neg hneg]
  refine eq_silent ?_ ?_
  · rw [PyM.bind_warns_of_ok (a := ()) (by simp [VanDerMeer1998.check_validity])]
    simp only [VanDerMeer1998.check_validity, check_bind_warns, check_if_given_warns, PyM.pure_def, List.append_nil,
      List.append_eq_nil_iff, ite_eq_right_iff, reduceCtorEq, imp_false, e2]
    refine ⟨fun h => ok_limit (n := "") h1 h2 (by simpa only [Limit.Violated, OutOfRange, sci_eq, ofNat_eq] using h.2),
      by simp, by simp, fun h => ?_⟩
    rcases h.2 with h | h
    · rw [ofNat_eq, lt_fin] at h
      exact absurd h (not_lt.mpr (by simpa using h3))
    · exact h
  · rw [PyM.bind_res_of_ok (a := ()) (by simp [VanDerMeer1998.check_validity])]
    rfl

/-- stones of 2 m in waves of 3 m, no more damage than Nod = 1 -/
example := C103_vdm1998_depth_refuted (H := 3) (D := 2) (h := 8) (N := 1) (ra := 2650) (rw := 1025) (by norm_num)
  (by norm_num) (by norm_num) (by norm_num) (by norm_num) (by norm_num)
  (by rw [Real.one_rpow]; unfold Textbook.Delta; norm_num) (by rw [Real.one_rpow]; unfold Textbook.Delta; norm_num)

section
open RearProof RunupProof VdMProof

/-- C103 refuted: a crest element at the rear that is higher than the crest itself gives the rock size NaN by Van Gent
(2007), with all checked ratios inside their ranges -/
theorem C103_rear2007_size_refuted {ca cp gm H T Rc Rf Rr N S z : ℝ} (hH : 0 < H) (hR : Rc < Rr)
    (hz : VanGent2001.calculate_wave_runup_height_z1p (fin H) (fin T) (fin gm) (fin ca) = fin z)
    (hN : 1000 ≤ N) (hN' : N ≤ 10000) (h1 : 0.5 ≤ Rc / H) (h1' : Rc / H ≤ 1.9) (h2 : 0.2 ≤ (z - Rc) / H)
    (h2' : (z - Rc) / H ≤ 1.3) (h3 : 0 ≤ Rf / H) (h3' : Rf / H ≤ 0.5) (h4 : Rr / H ≤ 1.3) (h5 : 2 ≤ S) (h5' : S ≤ 100) :
    SilentlyNotANumber (VanGent2007Rear.calculate_nominal_rock_diameter_Dn50 (fin ca) (fin cp) (fin gm) (fin S) (fin H)
      (fin T) (fin Rc) (fin Rf) (fin Rr) (fin N)) := by
  have hRc : 0 < Rc := by
    rw [le_div_iff₀ hH] at h1
    exact lt_of_lt_of_le (mul_pos (by norm_num : (0 : ℝ) < 0.5) hH) h1
  have hd : Rc - Rr < 0 := by linarith
  have hE : 1 + 5 * Rr / (Rc - Rr) < 0 := by
    have : 5 * Rr / (Rc - Rr) < -1 := by
      rw [div_lt_iff_of_neg hd]; linarith
    linarith
  have hq : ∀ n : ℤ, (n : ℝ) ≠ 0.4 := by
    intro n h
    have h2 : ((5 * n : ℤ) : ℝ) = ((2 : ℤ) : ℝ) := by push_cast; rw [h]; norm_num
    have := Int.cast_injective h2
    omega
  have e1 : npow (1 + 5 * fin Rr / (fin Rc - fin Rr)) 0.4 = nan := by
    rw [sub_fin, one_eq, ofNat_eq, mul_fin, div_fin hd.ne, add_fin, sci_eq]
    exact npow_neg_base (by simpa using hE) hq
  unfold VanGent2007Rear.calculate_nominal_rock_diameter_Dn50
  dsimp only
  rw [hz, e1]
  simp only [mul_nan, nan_mul]
  refine eq_silent ?_ ?_
  · rw [PyM.bind_warns_of_ok (check07_res ..)]
    simp only [VanGent2007Rear.check_validity_range, check_bind_warns, check_if_given_warns, PyM.pure_def, List.append_nil,
      List.append_eq_nil_iff, ite_eq_right_iff, reduceCtorEq, imp_false, sub_fin, div_fin hH.ne']
    have key : ∀ {x lo hi : ℝ} {g : Prop}, lo ≤ x → x ≤ hi → ¬ (g ∧ OutOfRange (fin lo) (fin hi) (fin x)) :=
      fun a b h => ok_limit (n := "") a b h.2
    simp only [sci_eq, ofNat_eq]
    exact ⟨by simp, by simp, key (by simpa using hN) (by simpa using hN'), key h1 h1', by simp, key h2 h2',
      key (by norm_num; exact h3) h3', by simp, by simp, by simp,
      key (by norm_num; exact div_nonneg (by linarith) hH.le) h4, key (by norm_num; exact h5) (by norm_num; exact h5')⟩
  · rw [PyM.bind_res_of_ok (check07_res ..)]
    rfl

/-- a crest at 2 m with a rear element of 2.2 m -/
example : ∃ gm : ℝ, 0 < gm ∧ SilentlyNotANumber (VanGent2007Rear.calculate_nominal_rock_diameter_Dn50 (fin 2) (fin 2)
    (fin gm) (fin 4) (fin 2) (fin 8) (fin 2) (fin 0.5) (fin 2.2) (fin 3000)) := by
  have hp := rfxi_pos (T := 8) (c := 2) (by norm_num) (by norm_num) (c0 := 1.45) (c1 := 5.1) (by norm_num) (by norm_num)
    (x := 2) (by norm_num)
  refine ⟨3 / (rf 1.45 5.1 (xi 2 8 2) * 2), by positivity, C103_rear2007_size_refuted (z := 3) (by norm_num) (by norm_num) ?_
    (by norm_num) (by norm_num) (by norm_num) (by norm_num) (by norm_num) (by norm_num) (by norm_num) (by norm_num)
    (by norm_num) (by norm_num) (by norm_num)⟩
  unfold VanGent2001.calculate_wave_runup_height_z1p
  simp only [sci_eq]
  rw [zX_eval (by norm_num) (by norm_num) (by norm_num) (by norm_num) (by norm_num)]
  generalize rf 1.45 5.1 (xi 2 8 2) = x at *
  rw [PF.fin.injEq]
  field_simp
end

section
open Takahashi1990 TakahashiProof

theorem NumberProof.ns_half {disper : PF → PF → PF → PF} {k h B H : ℝ} (T g : PF)
    (hdis : disper (2 * PF.pi / T) (fin h) g = fin k) (hk : 0 < k) (hh : 0 < h) (hH : 0 < H)
    (hs : Real.sin (k * B) = 0) : ns_value disper (fin H) T (fin h) (fin B) (fin 0) g = pinf := by
  have hpi := Real.pi_pos
  have h1 : 0 < 2 * k * h := by positivity
  have h2 : 0 < Real.sinh (2 * k * h) := Real.sinh_pos_iff.mpr h1
  have hL : 2 * PF.pi / calculate_local_wavelength disper T (fin h) g = fin k := by
    unfold calculate_local_wavelength
    simp only [hdis]
    pf_eval []
    field_simp
  have hb : PF.deg2rad (fin 0) = fin 0 := by rw [deg2rad_fin, zero_mul]
  have hkap : 2 * fin k * fin h / PF.sinh (2 * fin k * fin h) *
      PF.max (0.45 * npow (PF.sin (fin 0)) 2 * npow (PF.cos (fin k * fin B * PF.cos (fin 0))) 2)
        (npow (PF.cos (fin 0)) 2 * npow (PF.sin (fin k * fin B * PF.cos (fin 0))) 2)
      = fin 0 := by
    pf_eval [max_fin]
    rw [Real.sin_zero, Real.cos_zero]
    simp [hs]
  have e3 : npow (fin 0) (1 / 3) = fin 0 := by
    rw [show (1 / 3 : PF) = fin (1 / 3) by pf_eval [], npow_fin_zero (by norm_num)]
  have e4 : (1 : PF) - fin 0 = fin 1 := by rw [one_eq, sub_fin, sub_zero]
  have e5 : npow (fin 1) 2 = fin 1 := by rw [ofNat_eq, npow_fin (by norm_num), Real.one_rpow]
  have e6 : fin 1 / fin 0 = pinf := by rw [div_zero_fin, mulInf, if_pos one_pos]
  have pm : ∀ {x : ℝ}, 0 < x → fin x * pinf = pinf := fun {x} hx => by
    show PF.mul _ _ = _; simp [PF.mul, mulInf, hx]
  have mp : ∀ {x : ℝ}, 0 < x → pinf * fin x = pinf := fun {x} hx => by
    show PF.mul _ _ = _; simp [PF.mul, mulInf, hx]
  have dp : ∀ {x : ℝ}, 0 < x → pinf / fin x = pinf := fun {x} hx => by
    show PF.div _ _ = _; simp [PF.div, hx.le]
  unfold ns_value
  simp only [hL, hb, hkap, e3, e4, e5, e6]
  rw [sci_eq (m := 13), sci_eq (m := 15), sci_eq (m := 18), pm (by norm_num), mp hh, dp hH, neg_fin, div_fin hH.ne']
  rw [show fin (-1.5) * pinf = ninf by show PF.mul _ _ = _; norm_num [PF.mul, mulInf]]
  rw [show ninf * fin (h / H) = ninf by show PF.mul _ _ = _; simp [PF.mul, mulInf, div_pos hh hH]; rfl]
  rw [show PF.exp ninf = fin 0 from rfl, mul_fin]
  rw [show ∀ x : ℝ, pinf + fin x = pinf from fun _ => rfl]
  simp only [PF.max, isnan, if_false]
  exact if_neg fun h => h

/-- C103 refuted: under waves at right angles, a toe half a wave length wide has an infinite stability number by Takahashi
et al. (1990), for every wave height and depth and whatever the dispersion solver -/
theorem C103_takahashi_refuted {disper : PF → PF → PF → PF} {k h H : ℝ} (T g : PF)
    (hdis : disper (2 * PF.pi / T) (fin h) g = fin k) (hk : 0 < k) (hh : 0 < h) (hH : 0 < H) :
    SilentlyInfinite (calculate_stability_number_Ns disper (fin H) T (fin h) (fin (Real.pi / k)) (fin 0) g) := by
  have hpi := Real.pi_pos
  have hs : Real.sin (k * (Real.pi / k)) = 0 := by rw [mul_div_cancel₀ _ hk.ne', Real.sin_pi]
  unfold Takahashi1990.calculate_stability_number_Ns
  dsimp only
  rw [ns_half T g hdis hk hh hH hs]
  refine eq_silent ?_ ?_
  · rw [PyM.bind_warns_of_ok (a := ()) (by simp [check_validity])]
    simp only [check_validity, check_bind_warns, check_if_given_warns, PyM.pure_def, List.append_nil,
      List.append_eq_nil_iff, ite_eq_right_iff, reduceCtorEq, imp_false]
    refine ⟨fun h => ?_, fun h => ?_⟩
    · rcases h.2 with h | h
      · exact h
      · exact h
    · rcases h.2 with h | h
      · rw [zero_eq, lt_fin] at h
        exact absurd h (not_lt.mpr (by positivity))
      · exact h
  · rw [PyM.bind_res_of_ok (a := ()) (by simp [check_validity])]
    rfl

/-- C102 refuted: the stones such a toe needs are of size zero -/
theorem C102_takahashi_size_refuted {disper : PF → PF → PF → PF} {k h H ra rw : ℝ} (T g : PF)
    (hdis : disper (2 * PF.pi / T) (fin h) g = fin k) (hk : 0 < k) (hh : 0 < h) (hH : 0 < H) (hw : 0 < rw)
    (hr : rw < ra) :
    calculate_nominal_diameter_Dn50 disper (fin H) T (fin h) (fin (Real.pi / k)) (fin ra) (fin rw) (fin 0) g =
      ⟨[], .ok (fin 0)⟩ := by
  obtain ⟨De, hDe, hDD, e⟩ := Delta_eval hw hr
  unfold calculate_nominal_diameter_Dn50
  dsimp only
  rw [show calculate_stability_number_Ns disper (fin H) T (fin h) (fin (Real.pi / k)) (fin 0) g = ⟨[], .ok pinf⟩ from
    C103_takahashi_refuted T g hdis hk hh hH, PyM.bind_ok, stab_Dn, e]
  have : (fin H / pinf / fin De : PF) = fin 0 := by
    rw [show (fin H / pinf : PF) = fin 0 from rfl, div_fin hDe.ne', zero_div]
  rw [this]
  rfl

/-- deep water of 9 s waves -/
example : calculate_nominal_diameter_Dn50 (fun w _ g => w * w / g) (fin 3) (fin 9) (fin 30)
    (fin (Real.pi / ((2 * Real.pi / 9) * (2 * Real.pi / 9) / 9.81))) (fin 2650) (fin 1025) (fin 0) (fin 9.81) =
    ⟨[], .ok (fin 0)⟩ := by
  have := Real.pi_pos
  refine C102_takahashi_size_refuted _ _ ?_ (by positivity) (by norm_num) (by norm_num) (by norm_num) (by norm_num)
  pf_eval []
end

end
