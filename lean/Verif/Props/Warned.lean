import Verif.SpecWarned
import Verif.SpecRange
import Verif.Lemmas.Check
import Verif.Props.Toe
import Verif.Props.RearSlope
import Verif.Props.JumeletScaravaglione
import Verif.Props.KramerBurcharth
import Verif.Props.CrestWall
import Verif.Props.RunupTaw
import Verif.Lemmas.Missing
import Verif.Lemmas.Range

/-! # C102: impossible results come with a warning -/

open Classical
open PF CoreUtility CorePhysics
noncomputable section

namespace WarnedProof

theorem reported {m : PyM Unit} {x : PF} (h : ∀ v : ℝ, x = fin v → v ≤ 0 → m.warns ≠ []) (hm : m.res = .ok ()) :
    ImpossibleIsReported (m >>= fun _ => pure x) := by
  intro v e hv hw
  rw [PyM.bind_res_of_ok hm] at e
  rw [PyM.bind_warns_of_ok hm, List.append_eq_nil_iff] at hw
  exact h v (by simpa using e) hv hw.1

theorem after {m : PyM PF} {f : PF → PyM PF} (h : ∀ x, ImpossibleIsReported (f x)) : ImpossibleIsReported (m >>= f) := by
  intro v e hv hw
  obtain ⟨a, -, e2, e3⟩ := PyM.bind_inv e
  rw [e3, List.append_eq_nil_iff] at hw
  exact h a v e2 hv hw.2

theorem maybe_warned {c : Prop} [Decidable c] {w : Warn} {m : PyM PF} (h : ImpossibleIsReported m) :
    ImpossibleIsReported (if c then (do PyM.warn w; m) else m) := by
  split
  · exact fun v e hv hw => by simp [PyM.warn, Bind.bind, PyM.andThen] at hw
  · exact h

/-- a positive number divided by one that is not positive is below every positive limit or infinite -/
theorem ratio_out {a v lo hi : ℝ} (ha : 0 < a) (hv : v ≤ 0) (hlo : 0 < lo) : OutOfRange (fin lo) (fin hi) (fin a / fin v) := by
  rcases hv.lt_or_eq with h | rfl
  · left
    rw [div_fin h.ne, lt_fin]
    exact (div_neg_of_pos_of_neg ha h).trans hlo
  · right
    rw [div_zero_fin, mulInf, if_pos ha]
    trivial

end WarnedProof
open WarnedProof

/-- C102: rock size of a toe by Gerding (1993), all other arguments arbitrary -/
theorem C102_gerding_size (Hs h Nod ra rw : PF) {ht : ℝ} (hht : 0 < ht) :
    ImpossibleIsReported (Gerding1993.calculate_nominal_diameter_Dn50 Hs (fin ht) h Nod ra rw) := by
  refine reported (fun v e hv hw => ?_) (GerdingProof.check_res ..)
  rw [e] at hw
  simp only [Gerding1993.check_validity, check_bind_warns, check_if_given_warns, List.append_eq_nil_iff, ite_eq_right_iff,
    reduceCtorEq, imp_false] at hw
  refine hw.2 ⟨by simp, ?_⟩
  simp only [ofNat_eq]
  exact ratio_out hht hv (by norm_num)

example := C102_gerding_size 2 8 1 2650 1025 (ht := 5) (by norm_num)

/-- C102: depth above a toe by Gerding (1993) -/
theorem C102_gerding_depth (Hs h Nod ra rw : PF) {D : ℝ} (hD : 0 < D) :
    ImpossibleIsReported (Gerding1993.calculate_depth_above_toe_ht Hs (fin D) h Nod ra rw) := by
  refine reported (fun v e hv hw => ?_) (GerdingProof.check_res ..)
  rw [e] at hw
  simp only [Gerding1993.check_validity, check_bind_warns, check_if_given_warns, List.append_eq_nil_iff, ite_eq_right_iff,
    reduceCtorEq, imp_false] at hw
  refine hw.2 ⟨by simp, Or.inl ?_⟩
  rw [ofNat_eq, div_fin hD.ne', lt_fin]
  exact (div_nonpos_of_nonpos_of_nonneg hv hD.le).trans_lt (by norm_num)

example := C102_gerding_depth 2 8 1 2650 1025 (D := 0.5) (by norm_num)

/-- C102: rock size of a toe by Van der Meer (1998) -/
theorem C102_vdm1998_size (Hs h Nod ra rw : PF) {ht : ℝ} (hht : 0 < ht) :
    ImpossibleIsReported (VanDerMeer1998.calculate_nominal_diameter_Dn50 Hs (fin ht) h Nod ra rw) := by
  refine reported (fun v e hv hw => ?_) (VdM98Proof.check_res ..)
  rw [e] at hw
  simp only [VanDerMeer1998.check_validity, check_bind_warns, check_if_given_warns, List.append_eq_nil_iff,
    ite_eq_right_iff, reduceCtorEq, imp_false] at hw
  refine hw.2.2.1 ⟨by simp, ?_⟩
  simp only [ofNat_eq]
  exact ratio_out hht hv (by norm_num)

example := C102_vdm1998_size 2 8 1 2650 1025 (ht := 5) (by norm_num)

/-- C102: wave height for a toe by Van der Meer (1998), whatever the arguments -/
theorem C102_vdm1998_height (D ht h Nod ra rw : PF) :
    ImpossibleIsReported (VanDerMeer1998.calculate_wave_height_Hs D ht h Nod ra rw) := by
  refine reported (fun v e hv hw => ?_) (VdM98Proof.check_res ..)
  rw [e] at hw
  simp only [VanDerMeer1998.check_validity, check_bind_warns, check_if_given_warns, List.append_eq_nil_iff,
    ite_eq_right_iff, reduceCtorEq, imp_false] at hw
  refine hw.1 ⟨by simp, Or.inl ?_⟩
  rw [sci_eq, lt_fin]
  exact hv.trans_lt (by norm_num)

example := C102_vdm1998_height 1 4 8 0.5 2650 1025

/-- C102: depth above a toe by Van der Meer (1998) -/
theorem C102_vdm1998_depth (Hs D Nod ra rw : PF) {h : ℝ} (hh : 0 < h) :
    ImpossibleIsReported (VanDerMeer1998.calculate_depth_above_toe_ht Hs D (fin h) Nod ra rw) := by
  refine reported (fun v e hv hw => ?_) (VdM98Proof.check_res ..)
  rw [e] at hw
  simp only [VanDerMeer1998.check_validity, check_bind_warns, check_if_given_warns, List.append_eq_nil_iff,
    ite_eq_right_iff, reduceCtorEq, imp_false] at hw
  refine hw.2.1 ⟨by simp, Or.inl ?_⟩
  rw [sci_eq, div_fin hh.ne', lt_fin]
  exact (div_nonpos_of_nonpos_of_nonneg hv hh.le).trans_lt (by norm_num)

example := C102_vdm1998_depth 2 1 1 2650 1025 (h := 8) (by norm_num)

/-- C102: damage of a rear slope by Van Gent (2007), whatever the arguments -/
theorem C102_rear2007_damage (c p gam H T Rc Rf Rr N D M rho : PF) :
    ImpossibleIsReported (VanGent2007Rear.calculate_damage_number_S c p gam H T Rc Rf Rr N D M rho) := by
  refine after fun D' => reported (fun v e hv hw => ?_) (by simp [VanGent2007Rear.check_validity_range])
  rw [e] at hw
  simp only [VanGent2007Rear.check_validity_range, check_bind_warns, check_if_given_warns, List.append_eq_nil_iff,
    ite_eq_right_iff, reduceCtorEq, imp_false] at hw
  refine hw.2.2.2.2.2.2.2.2.2.2.2 ⟨by simp, Or.inl ?_⟩
  rw [sci_eq, lt_fin]
  exact hv.trans_lt (by norm_num)

example := C102_rear2007_damage 2 2 0.5 3 9 4 0.5 0.5 3000 1 nan nan

/-- C102: damage of a rear slope by Van Gent & Pozueta (2004), whatever the arguments -/
theorem C102_pozueta_damage (c p gf gc H T Rc Rr B N D M rho rw cs : PF) :
    ImpossibleIsReported (VanGentPozueta2004.calculate_damage_number_S c p gf gc H T Rc Rr B N D M rho rw cs) := by
  refine after fun D' => reported (fun v e hv hw => ?_) (by simp [VanGentPozueta2004.check_validity_range])
  rw [e] at hw
  simp only [VanGentPozueta2004.check_validity_range, check_bind_warns, check_if_given_warns, List.append_eq_nil_iff,
    ite_eq_right_iff, reduceCtorEq, imp_false] at hw
  refine hw.2.2.2.2.2.2.2.2 ⟨by simp, Or.inl ?_⟩
  rw [sci_eq, lt_fin]
  exact hv.trans_lt (by norm_num)

example := C102_pozueta_damage 2 2 0.5 0.5 3 9 4 4 3 3000 1 nan 2650 1025 1e-12

/-- C102: rock size of a rear slope by Van Gent (2007) -/
theorem C102_rear2007_size (c p gam S H T Rf Rr N : PF) {Rc : ℝ} (hR : 0 < Rc) :
    ImpossibleIsReported (VanGent2007Rear.calculate_nominal_rock_diameter_Dn50 c p gam S H T (fin Rc) Rf Rr N) := by
  refine reported (fun v e hv hw => ?_) (by simp [VanGent2007Rear.check_validity_range])
  rw [e] at hw
  simp only [VanGent2007Rear.check_validity_range, check_bind_warns, check_if_given_warns, List.append_eq_nil_iff,
    ite_eq_right_iff, reduceCtorEq, imp_false] at hw
  refine hw.2.2.2.2.1 ⟨by simp, ?_⟩
  simp only [sci_eq]
  exact ratio_out hR hv (by norm_num)

example := C102_rear2007_size 2 2 0.5 4 3 9 0 0.5 3000 (Rc := 4) (by norm_num)

/-- C102: rock size of a rear slope by Van Gent & Pozueta (2004) -/
theorem C102_pozueta_size (c p gf gc S T Rc Rr B N cs : PF) {H ra rw : ℝ} (hH : 0 < H) (hw : 0 < rw) (hr : rw < ra) :
    ImpossibleIsReported (VanGentPozueta2004.calculate_nominal_rock_diameter_Dn50 c p gf gc S (fin H) T Rc Rr B (fin ra)
      N (fin rw) cs) := by
  refine reported (fun v e hv hw' => ?_) (by simp [VanGentPozueta2004.check_validity_range])
  rw [e] at hw'
  simp only [VanGentPozueta2004.check_validity_range, check_bind_warns, check_if_given_warns, List.append_eq_nil_iff,
    ite_eq_right_iff, reduceCtorEq, imp_false] at hw'
  refine hw'.2.2.2.2.2.2.1 ⟨by simp, ?_⟩
  obtain ⟨De, hDe, -, e⟩ := Delta_eval hw hr
  unfold calculate_stability_number_Ns
  simp only [e, mul_fin, sci_eq]
  exact ratio_out hH (mul_nonpos_of_nonneg_of_nonpos hDe.le hv) (by norm_num)

example := C102_pozueta_size 2 2 0.5 0.5 4 9 4 4 3 3000 1e-12 (H := 3) (ra := 2650) (rw := 1025) (by norm_num)
  (by norm_num) (by norm_num)

/-- C102: wave height for a rear slope by Van Gent (2007) -/
theorem C102_rear2007_height (c p gam S T Rf Rr N D M rho tol : PF) (n : ℕ) {Rc : ℝ} (hR : 0 < Rc) :
    ImpossibleIsReported (VanGent2007Rear.calculate_maximum_significant_wave_height_Hs c p gam S T (fin Rc) Rf Rr N D M
      rho tol n) := by
  refine after fun D' => ?_
  dsimp only
  generalize whileIter n _ _ _ = st
  refine maybe_warned ?_
  cases st.z1p with
  | none => exact fun v e => by cases e
  | some z =>
    refine reported (fun v e hv hw => ?_) (by simp [VanGent2007Rear.check_validity_range])
    rw [e] at hw
    simp only [VanGent2007Rear.check_validity_range, check_bind_warns, check_if_given_warns, List.append_eq_nil_iff,
      ite_eq_right_iff, reduceCtorEq, imp_false] at hw
    refine hw.2.2.2.1 ⟨by simp, ?_⟩
    simp only [sci_eq]
    exact ratio_out hR hv (by norm_num)

example := C102_rear2007_height 2 2 0.5 4 9 0.5 0.5 3000 1 nan nan 1e-4 100 (Rc := 4) (by norm_num)

/-- C102: wave height for a rear slope by Van Gent & Pozueta (2004) -/
theorem C102_pozueta_height (c p gf gc S T Rr B N D M rho rw cs tol : PF) (n : ℕ) {Rc : ℝ} (hR : 0 < Rc) :
    ImpossibleIsReported (VanGentPozueta2004.calculate_maximum_significant_wave_height_Hs c p gf gc S T (fin Rc) Rr B N D
      M rho rw cs tol n) := by
  refine after fun D' => ?_
  dsimp only
  generalize whileIter n _ _ _ = st
  refine maybe_warned ?_
  cases st.z1p with
  | none => exact fun v e => by cases e
  | some z =>
    refine reported (fun v e hv hw => ?_) (by simp [VanGentPozueta2004.check_validity_range])
    rw [e] at hw
    simp only [VanGentPozueta2004.check_validity_range, check_bind_warns, check_if_given_warns, List.append_eq_nil_iff,
      ite_eq_right_iff, reduceCtorEq, imp_false] at hw
    refine hw.2.2.1 ⟨by simp, ?_⟩
    simp only [sci_eq]
    exact ratio_out hR hv (by norm_num)

example := C102_pozueta_height 2 2 0.5 0.5 4 9 4 3 3000 1 nan 2650 1025 1e-12 1e-4 100 (Rc := 4) (by norm_num)

/-- C102: rock size by Scaravaglione et al. (2025), where the size of the core is subtracted from the result -/
theorem C102_scaravaglione_size (T N c rc S Dc Mc cv rw : PF) {H ra : ℝ} (hH : 0 < H) (hr : 1025 < ra) :
    ImpossibleIsReported (Scaravaglione2025.calculate_nominal_rock_diameter_Dn50 (fin H) T N c (fin ra) rc S Dc Mc cv
      rw) := by
  refine after fun Dc' => reported (fun v e hv hw => ?_) (JumScaProof.check_res_s ..)
  rw [e] at hw
  simp only [Scaravaglione2025.check_validity_range, check_bind_warns, check_if_given_warns, List.append_eq_nil_iff,
    ite_eq_right_iff, reduceCtorEq, imp_false] at hw
  refine hw.2.1 ⟨by simp, ?_⟩
  obtain ⟨De, hDe, -, e⟩ := Delta_eval (rw := 1025) (rr := ra) (by norm_num) hr
  have e1025 : (1025.0 : PF) = fin 1025 := by rw [sci_eq]; norm_num
  unfold calculate_stability_number_Ns
  simp only [e1025, e, mul_fin, sci_eq]
  exact ratio_out hH (mul_nonpos_of_nonneg_of_nonpos hDe.le hv) (by norm_num)

example := C102_scaravaglione_size 8 3000 2 2650 2 0.3 nan 4.3 1025 (H := 3) (ra := 2650) (by norm_num) (by norm_num)

/-- C102 refuted: a negative rock size by Kramer & Burcharth without a warning (`C25_silent_nonconvergence_refuted`) -/
theorem C102_kramer_size_refuted : ∃ H R ra : ℝ, 0 < H ∧ 0 < R ∧ 1025 < ra ∧
    SilentlyNegative (KramerBurcharth.calculate_nominal_rock_diameter_Dn50 (fin H) (fin R) (fin ra)) := by
  obtain ⟨H, R, ra, D, h1, h2, h3, h4, h5, -⟩ := C25_silent_nonconvergence_refuted
  exact ⟨H, R, ra, h1, h2, h3, D, h4, h5⟩

/-! ## Run-up -/

namespace WarnedProof
open RunupTaw2002

theorem no_warning {x lo hi : PF} {n fm : String} (h : (check_if_given [x] n fm x lo hi).warns = []) (hx : ¬ x.isnan) :
    ¬ OutOfRange lo hi x := by
  rw [check_if_given_warns] at h
  intro h2
  rw [if_pos ⟨by simpa using hx, h2⟩] at h
  cases h

theorem in_range {x : PF} {lo hi : ℝ} (h : ¬ OutOfRange (fin lo) (fin hi) x) (hx : x ≠ nan) :
    ∃ r : ℝ, x = fin r ∧ lo ≤ r ∧ r ≤ hi := by
  cases x with
  | nan => exact absurd rfl hx
  | ninf => exact absurd (Or.inl trivial) h
  | pinf => exact absurd (Or.inr trivial) h
  | fin r => exact ⟨r, rfl, not_lt.mp fun h' => h (Or.inl h'), not_lt.mp fun h' => h (Or.inr h')⟩

theorem runup_reported (a : Args) {k1 k2 k3 k4 : ℝ} (e1 : (if a.use_best_fit then 1.65 else a.c1) = fin k1)
    (e2 : (if a.use_best_fit then 4.0 else a.c2) = fin k2) (e3 : (if a.use_best_fit then 1.5 else a.c3) = fin k3)
    (e4 : (if a.use_best_fit then 1.0 else a.c4) = fin k4) (p1 : 0 < k1) (p4 : 0 < k4) (p3 : 0 ≤ k3)
    (p : k3 < 0.63 * k2) : ImpossibleIsReportedWithFlag (calculate_dimensionless_wave_runup_height_z2p a) := by
  intro v f e hv hw
  rw [runup_unfold] at e hw
  unfold diml_rec at e hw
  dsimp only at e hw
  rw [e1, e2, e3, e4] at e hw
  obtain ⟨b, -, e, hw1⟩ := PyM.bind_inv e
  rw [hw1, List.append_eq_nil_iff] at hw
  replace hw := hw.2
  generalize (if b = true then calculate_influence_oblique_waves_gamma_beta a.beta else a.gamma_beta) = gB at e hw
  obtain ⟨c, -, e, hw1⟩ := PyM.bind_inv e
  rw [hw1, List.append_eq_nil_iff] at hw
  replace hw := hw.2
  obtain ⟨gb, -, e, hw1⟩ := PyM.bind_inv e
  rw [hw1, List.append_eq_nil_iff] at hw
  replace hw := hw.2
  rw [PyM.bind_warns_of_ok (validity_res ..)] at hw
  rw [PyM.bind_res_of_ok (validity_res ..)] at e
  simp only [PyM.pure_def, List.append_nil, check_validity_range, check_bind_warns, List.append_eq_nil_iff] at hw
  simp only [PyM.pure_def, Except.ok.injEq, Prod.mk.injEq] at e
  obtain ⟨e, -⟩ := e
  obtain ⟨w1, w2, w3, -, w5⟩ := hw
  have n1 : gb ≠ nan := by
    rintro rfl
    simp only [nan_mul, mul_nan, Missing.nan_min] at e
    cases e
  have n2 : gB ≠ nan := by
    rintro rfl
    simp only [nan_mul, mul_nan, Missing.nan_min] at e
    cases e
  have n3 : a.gamma_f ≠ nan := by
    intro h
    simp only [h, calculate_adjusted_influence_roughness_gamma_f, add_nan, Missing.whr_self, nan_mul, mul_nan,
      Missing.nan_min] at e
    cases e
  have n5 : calculate_Iribarren_number_ksi a.Hm0 a.Tmm10 c ≠ nan := by
    intro h
    simp only [h, mul_nan, Missing.nan_min] at e
    cases e
  have n6 : ∀ x ∈ [a.Hm0, a.Tmm10, c], ¬ x.isnan := by
    have hn : ∀ x : PF, x.isnan → x = nan := fun x hx => by cases x <;> first | rfl | cases hx
    intro x hx hx'
    rw [hn x hx'] at hx
    apply n5
    unfold calculate_Iribarren_number_ksi calculate_wave_steepness_s
    simp only [List.mem_cons, List.not_mem_nil, or_false] at hx
    rcases hx with h | h | h <;> rw [← h] <;>
      simp only [mul_nan, nan_div, div_nan, npow_nan_two, Missing.sqrt_nan]
  rw [check_if_given_warns] at w5
  have w5' : ¬ OutOfRange 0.4 20.0 (calculate_Iribarren_number_ksi a.Hm0 a.Tmm10 c) := by
    intro h2
    rw [if_pos ⟨n6, h2⟩] at w5
    cases w5
  have nn : ∀ {x : PF}, x ≠ nan → ¬ x.isnan := fun {x} h h' => by cases x <;> first | exact h rfl | exact h'
  obtain ⟨b, rfl, b1, b2⟩ := in_range (no_warning w1 (nn n1)) n1
  obtain ⟨B, rfl, B1, B2⟩ := in_range (no_warning w2 (nn n2)) n2
  obtain ⟨gf, ef, f1, f2⟩ := in_range (no_warning w3 (nn n3)) n3
  obtain ⟨x, ex, x1, x2⟩ := in_range w5' n5
  rw [ef, ex, rough_eval] at e
  norm_num at b1 b2 B1 B2 f1 f2 x1 x2
  have x0 : 0 < x := by linarith
  have hr := rough_pos (gf := gf) (gb := b) (x := x) (by linarith) f2 b2 x0
  have hs : 0.63 < √x := by rw [Real.lt_sqrt (by norm_num)]; norm_num; linarith
  have hk : k3 / √x < k2 := by
    rw [div_lt_iff₀ (by linarith)]
    nlinarith
  rw [sqrt_fin x0.le, div_fin (by linarith : √x ≠ 0)] at e
  simp only [mul_fin, sub_fin, min_fin, PF.fin.injEq] at e
  have : 0 < v := by
    rw [← e]
    have hb : 0 < b := by linarith
    have hB : 0 < B := by linarith
    exact lt_min (by positivity) (mul_pos (by positivity) (by linarith))
  linarith

theorem height_reported {m : PyM (PF × Bool)} (h : ImpossibleIsReportedWithFlag m) {H : ℝ} (hH : 0 < H) :
    ImpossibleIsReportedWithFlag (m >>= fun r => pure (r.1 * fin H, r.2)) := by
  intro v f e hv hw
  obtain ⟨⟨z, b⟩, e1, e2, e3⟩ := PyM.bind_inv e
  rw [e3, List.append_eq_nil_iff] at hw
  simp only [PyM.pure_def, Except.ok.injEq, Prod.mk.injEq] at e2
  obtain ⟨e2, -⟩ := e2
  cases z with
  | nan => rw [nan_mul] at e2; cases e2
  | ninf =>
    rw [show (ninf : PF) * fin H = ninf by show PF.mul _ _ = _; simp [PF.mul, mulInf, hH]; rfl] at e2
    cases e2
  | pinf =>
    rw [show (pinf : PF) * fin H = pinf by show PF.mul _ _ = _; simp [PF.mul, mulInf, hH]] at e2
    cases e2
  | fin z =>
    rw [mul_fin, PF.fin.injEq] at e2
    exact h z b e1 (by by_contra hz; have := mul_pos (not_le.mp hz) hH; linarith) hw.1

end WarnedProof

/-- C102: run-up by TAW (2002), for straight and composite slopes, with or without berm, for all values of all other
arguments (given coefficients excepted) -/
theorem C102_taw_runup (T beta gB gb gf B db c cd cu : PF) (bf : Bool) {H : ℝ} (hH : 0 < H) :
    ImpossibleIsReportedWithFlag (RunupTaw2002.calculate_wave_runup_height_z2p
      { Hm0 := fin H, Tmm10 := T, beta := beta, gamma_beta := gB, gamma_b := gb, gamma_f := gf, B_berm := B, db := db,
        cot_alpha := c, cot_alpha_down := cd, cot_alpha_up := cu, use_best_fit := bf }) := by
  refine height_reported ?_ hH
  cases bf
  · exact runup_reported _ (k1 := 1.75) (k2 := 4.3) (k3 := 1.6) (k4 := 1.0) rfl rfl rfl rfl (by norm_num) (by norm_num)
      (by norm_num) (by norm_num)
  · exact runup_reported _ (k1 := 1.65) (k2 := 4.0) (k3 := 1.5) (k4 := 1.0) rfl rfl rfl rfl (by norm_num) (by norm_num)
      (by norm_num) (by norm_num)

example := C102_taw_runup 6 0 nan nan 0.7 4 0 nan 3 4 false (H := 2) (by norm_num)

/-- C102: the same for run-up by EurOtop (2018) -/
theorem C102_eurotop2018_runup (T beta gB gb gf B db c cd cu : PF) (bf : Bool) {H : ℝ} (hH : 0 < H) :
    ImpossibleIsReportedWithFlag (RunupEurOtop2018.calculate_wave_runup_height_z2p (fin H) T beta gB gb gf B db c cd cu
      (use_best_fit := bf)) := by
  refine height_reported ?_ hH
  cases bf
  · exact runup_reported _ (k1 := 1.75) (k2 := 4.3) (k3 := 1.5) (k4 := 1.07) rfl rfl rfl rfl (by norm_num) (by norm_num)
      (by norm_num) (by norm_num)
  · exact runup_reported _ (k1 := 1.65) (k2 := 4.0) (k3 := 1.5) (k4 := 1.0) rfl rfl rfl rfl (by norm_num) (by norm_num)
      (by norm_num) (by norm_num)

example := C102_eurotop2018_runup 6 0 nan nan 0.7 4 0 nan 3 4 false (H := 2) (by norm_num)

-- such run-up levels exist: on a slope of 1:20 waves of 2 m and 2 s run up less than nothing
example : ∃ (z : ℝ) (f : Bool), z < 0 ∧ (RunupTaw2002.calculate_wave_runup_height_z2p
    { Hm0 := fin 2, Tmm10 := fin 2, gamma_beta := fin 1, gamma_b := fin 1, cot_alpha := fin 20 }).res =
      .ok (fin z, f) := by
  have e1 : (1.0 : PF) = fin 1 := by rw [sci_eq]; norm_num
  obtain ⟨x, r, z, f, hx, x0, hr, e, ez, -⟩ := RunupTawProofs.C46_smaller_of_two 2 2 20 1 1 1 false (by norm_num)
    (by norm_num) (by norm_num)
  refine ⟨z, f, ?_, by rw [← e, e1]⟩
  rw [RunupTaw2002.rough_eval, RunupTawProofs.rough_smooth] at hr
  have : r = 1 := (PF.fin.inj hr).symm
  subst this
  have hx' : x < 0.1 := by
    rw [VdMProof.xi_eval (by norm_num) (by norm_num) (by norm_num)] at hx
    rw [← PF.fin.inj hx]
    unfold VdMProof.xi
    have : (0.5 : ℝ) < √(2 * Real.pi / 9.81 * 2 / 2 ^ 2) := by
      rw [Real.lt_sqrt (by norm_num)]
      have := Real.pi_gt_three
      norm_num
      linarith
    rw [div_lt_iff₀ (by linarith)]
    norm_num at this ⊢
    linarith
  have hs : √x < 0.32 := by
    rw [Real.sqrt_lt' (by norm_num)]
    norm_num at hx' ⊢
    linarith
  have hd : 5 < 1.6 / √x := by
    rw [lt_div_iff₀ (Real.sqrt_pos.mpr x0)]
    linarith
  rw [ez]
  refine mul_neg_of_pos_of_neg (by norm_num) ((min_le_right _ _).trans_lt ?_)
  norm_num at hd ⊢
  linarith

/-! ## Crest walls in oblique waves -/

namespace WarnedProof
open CrestWall

theorem wall_quiet {H A R : ℝ} {b F : PF} (hH : 0 < H) (hA : 0 < A) (h1 : 0.26 ≤ (R - A) / H) (h2 : (R - A) / H ≤ 0.77)
    (h3 : 1.27 ≤ R / A) (h4 : R / A ≤ 1.55) (h5 : 0.79 ≤ R / H) (h6 : R / H ≤ 2.18)
    (hF : F.isnan) (hb : b.isnan ∨ ∃ t : ℝ, b = fin t ∧ 0 ≤ t ∧ t ≤ 75) :
    (check_validity (fin R) (fin A) (fin H) F b).warns = [] := by
  unfold check_validity
  simp only [check_bind_warns, check_if_given_warns, List.append_eq_nil_iff, sub_fin, div_fin hH.ne', div_fin hA.ne',
    OutOfRange, sci_eq, lt_fin]
  refine ⟨if_neg ?_, if_neg ?_, if_neg ?_, if_neg ?_, if_neg ?_⟩
  · rintro ⟨-, h | h⟩ <;> linarith
  · rintro ⟨-, h | h⟩ <;> linarith
  · rintro ⟨-, h | h⟩ <;> linarith
  · exact fun h => h.1 F (by simp) hF
  · rcases hb with hb | ⟨t, rfl, t0, t1⟩
    · exact fun h => h.1 b (by simp) hb
    · simp only [lt_fin]
      rintro ⟨-, h | h⟩ <;> norm_num at h <;> linarith

end WarnedProof

/-- C102 refuted: within the range of validity the force on a crest wall in very oblique waves is negative, and no
warning is given: for all waves with an Iribarren number between 1.8 and 2.9, angles from 60 to 75 degrees, an armour
crest at one wave height and a wall 0.4 wave heights higher -/
theorem C102_crest_wall_refuted (H T b c W : ℝ) (hH : 0 < H) (hT : 0 < T) (hc : 0 < c) (hW : 0 < W)
    (h1 : 1.8 ≤ Textbook.iribarren H T c) (h2 : Textbook.iribarren H T c ≤ 2.9) (hb : 60 ≤ b) (hb' : b ≤ 75) :
    SilentlyNegative (CrestWall.calculate_FH2p_oblique (fin H) (fin T) (fin b) (fin c) (fin H) (fin (1.4 * H))
      (fin W)) := by
  have h0 : 0 < Textbook.iribarren H T c := lt_of_lt_of_le (by norm_num) h1
  have ex : VdMProof.xi H T c = Textbook.iribarren H T c :=
    RangeProof.irib_eq.symm
  set x := Textbook.iribarren H T c with hx
  have hz := RunupProof.zX_eval (H := H) (gam := 0.45 * 1.0) hT hc (c0 := 1.45) (c1 := 5.0) (by norm_num) (by norm_num) hH
  rw [ex, RunupProof.rf, if_neg (by norm_num at h1 ⊢; linarith)] at hz
  set z := (5.0 - 0.25 * 5.0 ^ 2 / 1.45 / x) * (0.45 * 1.0) * H with hzd
  have y1 : 1 / x ≤ 1 / 1.8 := one_div_le_one_div_of_le (by norm_num) h1
  have y2 : 1 / 2.9 ≤ 1 / x := one_div_le_one_div_of_le h0 h2
  have ez : z = (2.25 - 2.8125 / 1.45 * (1 / x)) * H := by
    rw [hzd, show (5.0 : ℝ) = 5 by norm_num, show (1.0 : ℝ) = 1 by norm_num]
    ring
  clear_value z
  clear hzd
  have z1 : 1.17 * H < z := by
    rw [ez]
    refine mul_lt_mul_of_pos_right ?_ hH
    norm_num at y1 ⊢
    linarith
  have z2 : z < 1.59 * H := by
    rw [ez]
    refine mul_lt_mul_of_pos_right ?_ hH
    norm_num at y2 ⊢
    linarith
  have hcos : CrestProof.kb b ≤ 0.625 := by
    have hp := Real.pi_pos
    have h3 : Real.cos (b * (Real.pi / 180)) ≤ 1 / 2 := by
      rw [← Real.cos_pi_div_three]
      exact Real.cos_le_cos_of_nonneg_of_le_pi (by positivity) (by nlinarith) (by nlinarith)
    have h4 : 0 ≤ Real.cos (b * (Real.pi / 180)) :=
      Real.cos_nonneg_of_neg_pi_div_two_le_of_le (by nlinarith) (by nlinarith)
    rw [CrestProof.kb_eq]
    norm_num
    nlinarith
  have hn : z - H ≠ 0 := by
    intro h
    norm_num at z1
    linarith
  have hk : (0 : ℝ) < 1.0 * 1025.0 * 9.81 * W := by positivity
  have e := CrestProof.FH_obl H T b c H W 1.0 0.45 1.45 5.0 1025.0 9.81 1.0 (fin (1.4 * H)) hH hT hc (by norm_num)
    (by norm_num) (by norm_num) (by norm_num) (by norm_num) (by norm_num) (by norm_num) hW (z := z) (by rw [mul_fin, hz])
  rw [CrestProof.gF_eval (by rw [one_mul]; exact hn), one_mul, mul_fin] at e
  refine ⟨_, ?_, PyM.ext' ?_ e⟩
  · refine (CrestProof.oblique_le _ (by norm_num at z1; linarith) ?_ hk.le).2.2 hk (by norm_num at z1; linarith) ?_
    · intro h; exact hn (by rw [h]; ring)
    · norm_num at z1 z2 hcos
      nlinarith
  · have hq : ∀ d : PF, d.isnan ∨ (∃ t : ℝ, d = fin t ∧ 0 ≤ t ∧ t ≤ 75) →
        (CrestWall.check_validity (fin (1.4 * H)) (fin H) (fin H) nan d).warns = [] := fun d hd => by
      have r1 : 1.4 * H / H = 1.4 := by field_simp
      have r2 : (1.4 * H - H) / H = 0.4 := by field_simp; norm_num
      refine wall_quiet hH hH ?_ ?_ ?_ ?_ ?_ ?_ trivial hd <;> first | rw [r1] | rw [r2]
      all_goals norm_num
    unfold CrestWall.calculate_FH2p_oblique CrestWall.calculate_FH2p_perpendicular_from_z2p
    simp only [PyM.bind_of_res_ok (CrestProof.check_res ..),
      PyM.pure_def, PyM.bind_ok, hq nan (Or.inl trivial), hq (fin b) (Or.inr ⟨b, rfl, by linarith, hb'⟩), List.append_nil]

namespace RangeProof
theorem steep_eq {H T : ℝ} : Textbook.steepness H T = 2 * Real.pi / 9.81 * H / T ^ 2 := by
  unfold Textbook.steepness
  generalize (9.81 : ℝ) = g
  rw [div_div_eq_mul_div, div_mul_eq_mul_div, div_div, mul_comm H]
end RangeProof

-- waves of 2 m and 5 s on a slope of 1:2
example : SilentlyNegative (CrestWall.calculate_FH2p_oblique (fin 2) (fin 5) (fin 70) (fin 2) (fin 2) (fin (1.4 * 2))
    (fin 2)) := by
  have h1 : 0.2 < √(Textbook.steepness 2 5) := by
    rw [Real.lt_sqrt (by norm_num), RangeProof.steep_eq]
    have := Real.pi_gt_three
    norm_num
    linarith
  have h2 : √(Textbook.steepness 2 5) < 0.25 := by
    rw [Real.sqrt_lt' (by norm_num), RangeProof.steep_eq]
    have := Real.pi_lt_d2
    norm_num at this ⊢
    linarith
  refine C102_crest_wall_refuted 2 5 70 2 2 (by norm_num) (by norm_num) (by norm_num) (by norm_num) ?_ ?_ (by norm_num)
    (by norm_num)
  · unfold Textbook.iribarren
    rw [le_div_iff₀ (by linarith)]
    norm_num at h2 ⊢
    linarith
  · unfold Textbook.iribarren
    rw [div_le_iff₀ (by linarith)]
    norm_num at h1 ⊢
    linarith
