import Verif.Props.DesignComposite
import Verif.Props.DesignSafe
import Verif.Props.CompositeBestFit

/-!
# C94 for discharges by EurOtop (2018) on composite slopes

`use_best_fit` reaches the run-up from which the average slope follows. Where the upper slope is the flatter one,
the design run-up gives a flatter average slope and so a smaller breaker parameter: the design discharge is computed
for a slope that lets less water over. The more cautious coefficients outweigh that.
-/

open Classical
open PF
open CorePhysics CoreUtility WorseProof
open OvertoppingEurOtop2018
open OvertoppingTaw2002 (Sc Sc_pos)
open TwoFormulas (F F_pos F_le_A G_F G_lt)
noncomputable section

namespace RunupTaw2002
/-- the level at which the iteration stops is within some 5 % of the settled one -/
theorem settle_near (F : ℝ → ℝ) (hF : ∀ x, 0 < x → 1e-3 ≤ F x ∧ F x ≤ 1e7)
    (hL : ∀ x y, 0 < x → 0 < y → |Real.log (F x) - Real.log (F y)| ≤ 1 / 3 * |Real.log x - Real.log y|)
    {x0 : ℝ} (hx0 : 1e-3 ≤ x0) (hx1 : x0 ≤ 1e7) {k : ℕ}
    (hk : k + 1 = 1001 ∨ |F^[k + 1] x0 - F^[k] x0| ≤ 1e-4) :
    ∃ p, 0 < p ∧ F p = p ∧ |Real.log (F^[k + 1] x0) - Real.log p| ≤ 1 / 18 := by
  have pos : ∀ x, 0 < x → 0 < F x := fun x hx => lt_of_lt_of_le (by norm_num) (hF x hx).1
  obtain ⟨p, hp, hfp, hu, hit⟩ := log_contraction F (1 / 3) (by norm_num) (by norm_num) pos hL
  refine ⟨p, hp, hfp, ?_⟩
  have h0 : 0 < x0 := lt_of_lt_of_le (by norm_num) hx0
  have hpb := hF p hp
  rw [hfp] at hpb
  have yk := (hit x0 h0 k).1
  have ek : F^[k + 1] x0 = F (F^[k] x0) := Function.iterate_succ_apply' F k x0
  have y1 := (hit x0 h0 (k + 1)).1
  have b1 := hF _ yk
  rw [← ek] at b1
  rcases hk with hk | hk
  · have h1 := (hit x0 h0 (k + 1)).2
    have lb : ∀ y : ℝ, 1e-3 ≤ y → y ≤ 1e7 → |Real.log y| ≤ 1e7 := by
      intro y hy hy'
      have y0 : 0 < y := lt_of_lt_of_le (by norm_num) hy
      rw [abs_le]
      constructor
      · have := Real.log_le_sub_one_of_pos (inv_pos.mpr y0)
        rw [Real.log_inv] at this
        have h : y⁻¹ ≤ 1000 := by
          rw [inv_le_comm₀ y0 (by norm_num)]
          norm_num at hy ⊢
          exact hy
        norm_num
        linarith
      · have := Real.log_le_sub_one_of_pos y0
        linarith
    have h2 : |Real.log x0 - Real.log p| ≤ 2e7 := by
      have := abs_sub (Real.log x0) (Real.log p)
      have a := lb x0 hx0 hx1
      have b := lb p hpb.1 hpb.2
      norm_num at a b ⊢
      linarith
    have h5 : (1 / 3 : ℝ) ^ (k + 1) ≤ 1e-40 := by
      calc (1 / 3 : ℝ) ^ (k + 1) ≤ (1 / 3) ^ 250 := pow_le_pow_of_le_one (by norm_num) (by norm_num) (by omega)
        _ ≤ 1e-40 := by norm_num
    calc _ ≤ (1 / 3 : ℝ) ^ (k + 1) * |Real.log x0 - Real.log p| := h1
      _ ≤ 1e-40 * 2e7 := by gcongr
      _ ≤ 1 / 18 := by norm_num
  · have a0 := log_a_posteriori F (1 / 3) p _ (by norm_num) yk hp hfp hL
    rw [← ek] at a0
    have lt : (1e-4 : ℝ) < F^[k + 1] x0 := lt_of_lt_of_le (by norm_num) b1.1
    have a1 := abs_log_sub_le (by norm_num) lt yk hk
    generalize hy : F^[k + 1] x0 = y at *
    have e1 : (1e-4 : ℝ) / (y - 1e-4) ≤ 1 / 9 := by
      rw [div_le_div_iff₀ (by linarith) (by norm_num)]
      have := b1.1
      norm_num at this ⊢
      linarith
    norm_num at a0
    linarith

/-- on slopes that are not too steep the first formula for run-up governs -/
theorem first_governs {gf gB x : ℝ} (hf : 0 < gf) (hB : 0 < gB) (h0 : 0.5 ≤ x) (h1 : x ≤ 1.7) :
    rel 1.65 4.0 1.5 1.0 gf gB x = 1.65 * gf * gB * x := by
  have r : rough gf 1 x = gf := by
    unfold rough
    rw [if_neg]
    rintro ⟨h, -⟩
    norm_num at *
    linarith
  unfold rel ra rb
  rw [r, min_eq_left]
  · ring
  have x0 : 0 < x := lt_of_lt_of_le (by norm_num) h0
  obtain ⟨s, hs, rfl⟩ : ∃ s : ℝ, 0 < s ∧ x = s ^ 2 := ⟨√x, Real.sqrt_pos.mpr x0, (Real.sq_sqrt x0.le).symm⟩
  rw [Real.sqrt_sq hs.le]
  have s0 : 0.7 ≤ s := by norm_num at *; nlinarith
  have s1 : s ≤ 1.304 := by norm_num at *; nlinarith
  have key : 1.65 * s ^ 2 ≤ 4.0 - 1.5 / s := by
    rw [le_sub_iff_add_le, ← le_sub_iff_add_le', div_le_iff₀ hs]
    have w := mul_nonneg (mul_nonneg (sub_nonneg.mpr s0) (sub_nonneg.mpr s1)) (by positivity : (0 : ℝ) ≤ s + 2.004)
    clear h0 h1 x0 r
    norm_num at s0 s1 w ⊢
    nlinarith only [w, s0, s1]
  have := mul_le_mul_of_nonneg_left key (mul_pos hf hB).le
  calc 1.65 * 1 * gf * gB * s ^ 2 = gf * gB * (1.65 * s ^ 2) := by ring
    _ ≤ gf * gB * (4.0 - 1.5 / s) := this
    _ = 1.0 * gf * gB * (4.0 - 1.5 / s) := by rw [show (1.0 : ℝ) = 1 by norm_num, one_mul]
end RunupTaw2002

namespace OvertoppingEurOtop2018
/-- the average slope of the discharge is that at a level near the settled one -/
theorem pre_near {H T cd cu gf gB db k1 k2 k4 : ℝ} (beta : PF) (bf : Bool) (hH : 0 < H) (hT : 0 < T)
    (hcd : 0 < cd) (hcu : 0 < cu) (h1 : cu ≤ 4 * cd) (h2 : cd ≤ 4 * cu) (hf : 0.18 ≤ gf) (hf1 : gf ≤ 1) (hB : 0 < gB)
    (hB1 : gB ≤ 1) (hd0 : 0 ≤ db) (hd : db ≤ 1.5 * H) (hl : 0.5 ≤ Textbook.iribarren H T (Max.max cd cu))
    (hs : gf = 1 ∨ Textbook.iribarren H T (Min.min cd cu) < 1.8)
    (hH6 : H ≤ 1e6) (hlo : 2e-3 ≤ gf * gB * H)
    (hk1 : k1 = if bf then 1.65 else 1.75) (hk2 : k2 = if bf then 4.0 else 4.3) (hk4 : k4 = if bf then 1.0 else 1.07) :
    ∃ z p : ℝ, 0 < z ∧ 0 < p ∧ RunupTaw2002.next H T cd cu gf gB db k1 k2 1.5 k4 p = p ∧
      |Real.log z - Real.log p| ≤ 1 / 18 ∧
      (pre (fin H) (fin T) nan (fin cd) (fin cu) beta (fin 0) (fin db) (fin gB) (fin gf) bf).res =
        .ok (fin gB, fin (RunupTaw2002.avg H z cd cu db)) ∧
      (berm (fin H) (fin T) (fin cd) (fin cu) (fin 0) (fin db) (fin gf)
        (fin gB, fin (RunupTaw2002.avg H z cd cu db))).res = .ok (fin 1) := by
  have f0 : 0 < gf := lt_of_lt_of_le (by norm_num) hf
  have c1 : (1 : ℝ) ≤ k1 := by rw [hk1]; split_ifs <;> norm_num
  have c2 : (3 : ℝ) ≤ k2 := by rw [hk2]; split_ifs <;> norm_num
  have c4 : (1 : ℝ) ≤ k4 := by rw [hk4]; split_ifs <;> norm_num
  have c23 : 15 / 7 * (1.5 : ℝ) ≤ k2 := by rw [hk2]; split_ifs <;> norm_num
  have c24 : k2 * k4 ≤ 10 := by rw [hk2, hk4]; split_ifs <;> norm_num
  have k : RunupEurOtop2018.check_best_fit 1.75 4.3 1.5 1.07 bf = (fin k1, fin k2, fin 1.5, fin k4) := by
    rw [hk1, hk2, hk4]
    cases bf <;> rfl
  have e1 : (if bf then (1.65 : PF) else fin k1) = fin k1 := by rw [hk1]; cases bf <;> rfl
  have e2 : (if bf then (4.0 : PF) else fin k2) = fin k2 := by rw [hk2]; cases bf <;> rfl
  have e3 : (if bf then (1.5 : PF) else fin 1.5) = fin 1.5 := by cases bf <;> rfl
  have e4 : (if bf then (1.0 : PF) else fin k4) = fin k4 := by rw [hk4]; cases bf <;> rfl
  have p1 : 0 < k1 := by linarith
  have p2 : 0 < k2 := by linarith
  have p4 : 0 < k4 := by linarith
  have p3 : (0 : ℝ) ≤ 1.5 := by norm_num
  have hl' := hl
  rw [RangeProof.irib_eq] at hl'
  obtain ⟨z, z0, hz, -, -, hit⟩ := RunupTaw2002.pre_pass bf hH hT hcd hcu f0 hf1 hB hd0 hd e1 e2 e3 e4 p1 p2 p3 p4
    c23 hl'
  have hr : gf = 1 ∨ Textbook.iribarren H T (Min.min cd cu) ≤ 10 := hs.imp_right (fun h => h.le.trans (by norm_num))
  have bounds := fun z (hz : 0 < z) => RunupTaw2002.next_bounds hf hf1 hB p1 p2 p3 p4 c23 hH hT hcd hcu hd0 hd hl hr
    (hlo.trans (le_mul_of_one_le_left (by positivity) c1)) c2 c4 c24 hB1 hH6 hlo hz
  obtain ⟨n, hn, hx⟩ := RunupTaw2002.iteration_chain bf hH hT hcd hcu hd0 hd e1 e2 e3 e4
    (fun z hz => lt_of_lt_of_le (by norm_num) (bounds z hz).1) hit
  have gfB : gf * gB ≤ 1 := mul_le_one₀ hf1 hB.le hB1
  have hH3 : 2e-3 ≤ H := hlo.trans (by nlinarith)
  have s0 : 1e-3 ≤ 1.5 * H := by norm_num at hH3 ⊢; linarith
  have s1 : 1.5 * H ≤ 1e7 := by norm_num at hH6 ⊢; linarith
  have L := fun x y (hx : 0 < x) (hy : 0 < y) => RunupTaw2002.next_log hf hf1 hB p1 p2 p3 p4 c23 hH hT hcd hcu hd0 hd hl 1
    h1 h2 hr (fun x y hx hxy hy => RunupTaw2002.rel_const hf hf1 hB p1 p2 p3 p4 c23 hx hxy (hs.imp_right hy.trans_lt)) hx hy
  obtain ⟨p, hp, hfp, ha⟩ := RunupTaw2002.settle_near _ bounds (fun x y hx hy => by simpa using L x y hx hy) s0 s1 hx
  rw [← hn] at ha
  refine ⟨z, p, hz, hp, hfp, ha, ?_, ?_⟩
  · have hit' : (RunupEurOtop2018.iteration_procedure_z2p (fin H) (fin T) (fin cd) (fin cu) (fin 0) (fin db)
        (fin gf) (fin gB) (use_best_fit := bf)).res = .ok (fin z) := by
      unfold RunupEurOtop2018.iteration_procedure_z2p
      rw [k]
      exact hit
    have h1 : RunupTaw2002.check_calculate_gamma_beta beta (fin gB) = pure false := by
      unfold RunupTaw2002.check_calculate_gamma_beta; simp
    have h2 : RunupTaw2002.check_composite_slope nan (fin cd) (fin cu) = pure true := by
      unfold RunupTaw2002.check_composite_slope; simp
    unfold pre
    rw [h1, pure_bind]
    dsimp only
    rw [if_neg Bool.false_ne_true, h2, pure_bind, if_pos rfl, bind_assoc, PyM.bind_res_of_ok hit', pure_bind,
      RunupTaw2002.average_eval 0 hH hz hcd hcu hd0 hd]
    rfl
  · have e0 : (0.0 : PF) = fin 0 := by rw [sci_eq]; norm_num
    have e1 : (1.0 : PF) = fin 1 := by rw [sci_eq]; norm_num
    unfold berm
    rw [RunupTaw2002.berm_length_composite (by simp) (by simp), pure_bind]
    unfold RunupEurOtop2018.iteration_procedure_gamma_b RunupTaw2002.iteration_procedure_gamma_b
      RunupTaw2002.iteration_procedure_gamma_b_rec
    dsimp only
    rw [if_pos (Or.inl (by rw [e0, eqF_fin])), e1]
    rfl
end OvertoppingEurOtop2018

section
variable (H T cd cu gf gB db : ℝ) (hH : 0 < H) (hT : 0 < T) (hcd : 0 < cd) (hcu : 0 < cu) (hcc : cu ≤ 4 * cd)
  (hcc' : cd ≤ 4 * cu) (hf : 0.18 ≤ gf) (hf1 : gf ≤ 1) (hB : 0 < gB) (hB1 : gB ≤ 1) (hd0 : 0 ≤ db)
  (hd : db ≤ 1.5 * H) (hl : 0.5 ≤ Textbook.iribarren H T (max cd cu)) (hu : Textbook.iribarren H T (min cd cu) ≤ 1.7)
  (hH6 : H ≤ 1e6) (hlo : 2e-3 ≤ gf * gB * H)
include hH hT hcd hcu hcc hcc' hf hf1 hB hB1 hd0 hd hl hu hH6 hlo

/-- C94 for discharges by EurOtop (2018) on composite slopes without a berm in breaking waves (missing: berms,
Iribarren numbers below 0.5 or above 1.7, slopes more than a factor four apart) -/
theorem C94_eurotop2018_composite_discharge_partial (R gv gs c1 c2 c3 c4 g : ℝ) (beta gb : PF) (hR : 0 ≤ R)
    (hv : 0 < gv) (hs : 0 < gs) (h1 : 0 < c1) (h1' : c1 ≤ 2.5) (h2 : 0.09 ≤ c2) (h3 : 0 < c3) (h3' : c3 ≤ 1.5)
    (h4 : 0.025 ≤ c4) (hg : 0 < g) :
    ∃ (q q' : ℝ) (m m' : Bool), q ≤ q' ∧ (0.09 < c2 → q < q') ∧
      (calculate_overtopping_discharge_q (fin H) (fin T) (fin R) beta (fin gB) gb (fin gf) (fin gv) (fin gs)
        (db := fin db) (cot_alpha_down := fin cd) (cot_alpha_up := fin cu) (c1 := fin c1) (c2 := fin c2)
        (c3 := fin c3) (c4 := fin c4) (use_best_fit := true) (g := fin g)).res = .ok (fin q, m) ∧
      (calculate_overtopping_discharge_q (fin H) (fin T) (fin R) beta (fin gB) gb (fin gf) (fin gv) (fin gs)
        (db := fin db) (cot_alpha_down := fin cd) (cot_alpha_up := fin cu) (c1 := fin c1) (c2 := fin c2)
        (c3 := fin c3) (c4 := fin c4) (use_best_fit := false) (g := fin g)).res = .ok (fin q', m') := by
  have f0 : 0 < gf := lt_of_lt_of_le (by norm_num) hf
  have hsm : gf = 1 ∨ Textbook.iribarren H T (min cd cu) < 1.8 := Or.inr (lt_of_le_of_lt hu (by norm_num))
  obtain ⟨z, p, hz, hp, hfp, hn, hpre, hbm⟩ := pre_near (k1 := 1.65) (k2 := 4.0) (k4 := 1.0) beta true hH hT hcd hcu hcc
    hcc' hf hf1 hB hB1 hd0 hd hl hsm hH6 hlo rfl rfl rfl
  obtain ⟨z', p', hz', hp', hfp', hn', hpre', hbm'⟩ := pre_near (k1 := 1.75) (k2 := 4.3) (k4 := 1.07) beta false hH hT
    hcd hcu hcc hcc' hf hf1 hB hB1 hd0 hd hl hsm hH6 hlo rfl rfl rfl
  have n3 : (0 : ℝ) ≤ 1.5 := by norm_num
  have xz := RunupTaw2002.xi_avg (k1 := 1.65) (k2 := 4.0) (k3 := 1.5) (k4 := 1.0) hf hf1 hB (by norm_num) (by norm_num)
    n3 (by norm_num) (by norm_num) hH hT hcd hcu hd0 hd hl hz
  have xz' := RunupTaw2002.xi_avg (k1 := 1.65) (k2 := 4.0) (k3 := 1.5) (k4 := 1.0) hf hf1 hB (by norm_num) (by norm_num)
    n3 (by norm_num) (by norm_num) hH hT hcd hcu hd0 hd hl hz'
  have xp := RunupTaw2002.xi_avg (k1 := 1.65) (k2 := 4.0) (k3 := 1.5) (k4 := 1.0) hf hf1 hB (by norm_num) (by norm_num)
    n3 (by norm_num) (by norm_num) hH hT hcd hcu hd0 hd hl hp
  have xp' := RunupTaw2002.xi_avg (k1 := 1.65) (k2 := 4.0) (k3 := 1.5) (k4 := 1.0) hf hf1 hB (by norm_num) (by norm_num)
    n3 (by norm_num) (by norm_num) hH hT hcd hcu hd0 hd hl hp'
  -- the settled levels: the design level is higher, by at most 9.2 % on a logarithmic scale
  have lev : ∀ {k1 k2 k4 w : ℝ}, 0 < w → RunupTaw2002.next H T cd cu gf gB db k1 k2 1.5 k4 w = w →
      RunupTaw2002.level H T gf 1 gB k1 k2 1.5 k4 (RunupTaw2002.avg H w cd cu db) = w := by
    intro k1 k2 k4 w hw h
    obtain ⟨a0, a1, a2⟩ := RunupTaw2002.xi_avg (k1 := 1.65) (k2 := 4.0) (k3 := 1.5) (k4 := 1.0) hf hf1 hB (by norm_num)
      (by norm_num) n3 (by norm_num) (by norm_num) hH hT hcd hcu hd0 hd hl hw
    rw [RunupTaw2002.level_smooth one_pos le_rfl (VdMProof.xi_pos hH hT a0) (hsm.imp_right a2.trans_lt), mul_one]
    exact h
  have o := RunupTaw2002.coef_order hH hT hcd hcu hcc hcc' hf hf1 hB hd0 hd hl hsm (by norm_num) (by norm_num)
    (by norm_num) (by norm_num) (by norm_num) (by norm_num) (by norm_num) (by norm_num) (by norm_num) (by norm_num)
    one_pos le_rfl (by norm_num) (fun u h0 h1 => by norm_num at h1 ⊢; linarith) hp hp' (lev hp hfp) (lev hp' hfp')
  have pp : p ≤ p' := by linarith
  have lpp := Real.log_le_log hp pp
  have up : RunupTaw2002.next H T cd cu gf gB db 1.75 4.3 1.5 1.07 p ≤ 1.061 * p := by
    have e := RunupTaw2002.first_governs (gf := gf) (gB := gB) f0 hB xp.2.1 (xp.2.2.trans hu)
    have hx := VdMProof.xi_pos hH hT xp.1
    have r : RunupTaw2002.rough gf 1 (VdMProof.xi H T (RunupTaw2002.avg H p cd cu db)) = gf := by
      unfold RunupTaw2002.rough
      rw [if_neg]
      rintro ⟨h, -⟩
      have := xp.2.2.trans hu
      norm_num at *
      linarith
    conv_rhs => rw [← hfp]
    unfold RunupTaw2002.next
    rw [e, ← mul_assoc]
    refine mul_le_mul_of_nonneg_right ?_ hH.le
    unfold RunupTaw2002.rel RunupTaw2002.ra
    refine (min_le_left _ _).trans ?_
    rw [r]
    have : 0 < gf * gB * VdMProof.xi H T (RunupTaw2002.avg H p cd cu db) := by positivity
    generalize VdMProof.xi H T (RunupTaw2002.avg H p cd cu db) = x at *
    norm_num at *
    nlinarith
  have p0 : 0 < RunupTaw2002.next H T cd cu gf gB db 1.75 4.3 1.5 1.07 p :=
    mul_pos (RunupTaw2002.rel_pos hf hf1 hB (by norm_num) (by norm_num) n3 (by norm_num) (by norm_num) xp.2.1) hH
  have lup := Real.log_le_log p0 up
  rw [Real.log_mul (by norm_num) hp.ne'] at lup
  have l1 : Real.log 1.061 ≤ 0.061 := by
    have := Real.log_le_sub_one_of_pos (show (0 : ℝ) < 1.061 by norm_num)
    norm_num at this ⊢
    exact this
  have L := RunupTaw2002.next_log (k1 := 1.75) (k2 := 4.3) (k3 := 1.5) (k4 := 1.07) hf hf1 hB (by norm_num)
    (by norm_num) n3 (by norm_num) (by norm_num) hH hT hcd hcu hd0 hd hl 1 hcc hcc'
    (Or.inr (hu.trans (by norm_num))) (fun x y hx hxy hy => RunupTaw2002.rel_const hf hf1 hB (by norm_num) (by norm_num) n3
      (by norm_num) (by norm_num) hx hxy (Or.inr (lt_of_le_of_lt (hy.trans hu) (by norm_num)))) hp' hp
  rw [hfp', abs_of_nonneg (sub_nonneg.mpr lpp)] at L
  have L1 := (abs_le.mp L).2
  have zz : |Real.log z' - Real.log z| ≤ 0.203 := by
    have a := abs_le.mp hn
    have a' := abs_le.mp hn'
    rw [abs_le]
    norm_num at *
    constructor <;> linarith
  have av := RunupTaw2002.avg_log' hH hcd hcu hd0 hd hcc hcc' hz' hz
  generalize RunupTaw2002.avg H z cd cu db = c at *
  generalize RunupTaw2002.avg H z' cd cu db = c' at *
  obtain ⟨hc, x1, x2⟩ := xz
  obtain ⟨hc', x1', x2'⟩ := xz'
  have cc : c' ≤ 1.08 * c := by
    rw [← Real.log_le_log_iff hc' (by positivity), Real.log_mul (by norm_num) hc.ne']
    have l8 : (0.07 : ℝ) ≤ Real.log 1.08 := by
      have := Real.log_le_sub_one_of_pos (show (0 : ℝ) < (1.08)⁻¹ by norm_num)
      rw [Real.log_inv] at this
      norm_num at this ⊢
      linarith
    have := (abs_le.mp av).2
    norm_num at *
    linarith
  have xx : VdMProof.xi H T c ≤ 1.08 * VdMProof.xi H T c' := by
    have h := irib_c hH hT (c := c * 1.08) hc' (by linarith)
    have e := irib_div H T (c * 1.08) 1.08
    rw [mul_div_cancel_right₀ _ (by norm_num)] at e
    rw [← RangeProof.irib_eq, ← RangeProof.irib_eq, e]
    gcongr
  have hx := VdMProof.xi_pos hH hT hc
  have hx' := VdMProof.xi_pos hH hT hc'
  have r : ∀ x : ℝ, x ≤ 1.7 → RunupTaw2002.rough gf 1 x = gf := by
    intro x h
    unfold RunupTaw2002.rough
    rw [if_neg]
    rintro ⟨h', -⟩
    norm_num at *
    linarith
  have p2 : 0 < c2 := lt_of_lt_of_le (by norm_num) h2
  have p4 : 0 < c4 := lt_of_lt_of_le (by norm_num) h4
  have X : Ctx H T gf gv gs gB c 1 2.7 0.09 1.5 0.023 c1 c2 c3 c4 true :=
    ⟨hH, hT, f0, hf1, hv, hs, hB, hc, one_pos, le_rfl, by norm_num, by norm_num, by norm_num, by norm_num, rfl⟩
  have X' : Ctx H T gf gv gs gB c' 1 c1 c2 c3 c4 c1 c2 c3 c4 false :=
    ⟨hH, hT, f0, hf1, hv, hs, hB, hc', one_pos, le_rfl, h1, p2, h3, p4, rfl⟩
  have dd : d1 H T c' 1 gf gB gv c1 ≤ d1 H T c 1 gf gB gv 2.7 := by
    unfold d1
    rw [r _ (x2.trans hu), r _ (x2'.trans hu), div_le_div_iff₀ (by positivity) (by positivity)]
    have w : 0 < H * gf * gB * gv := by positivity
    have : c1 * VdMProof.xi H T c ≤ 2.7 * VdMProof.xi H T c' := by
      calc c1 * VdMProof.xi H T c ≤ 2.5 * (1.08 * VdMProof.xi H T c') := by gcongr
        _ = _ := by ring
    calc c1 * (H * (VdMProof.xi H T c * 1 * gf * gB * gv)) = c1 * VdMProof.xi H T c * (H * gf * gB * gv) := by ring
      _ ≤ 2.7 * VdMProof.xi H T c' * (H * gf * gB * gv) := mul_le_mul_of_nonneg_right this w.le
      _ = _ := by ring
  have AA : A1 H T c 1 0.023 < A1 H T c' 1 c4 := by
    rcases le_total c c' with h | h
    · unfold A1
      rw [mul_one, mul_one, CompositeProof.amp c, CompositeProof.amp c']
      have s0 : 0 < √c' := Real.sqrt_pos.mpr hc'
      calc 0.023 * √c * VdMProof.xi H T c ≤ 0.023 * √c' * (1.08 * VdMProof.xi H T c') := by gcongr
        _ = 0.02484 * (√c' * VdMProof.xi H T c') := by ring
        _ < c4 * (√c' * VdMProof.xi H T c') := mul_lt_mul_of_pos_right (by norm_num at *; linarith) (by positivity)
        _ = _ := by ring
    · have e : A1 H T c 1 0.023 ≤ A1 H T c' 1 0.023 := by
        rcases h.eq_or_lt with rfl | h
        · rfl
        · exact (CompositeProof.A1_strict hH hT hc' h (by norm_num)).le
      refine e.trans_lt ?_
      unfold A1
      have : (0.023 : ℝ) < c4 := by norm_num at *; linarith
      have s0 : 0 < √(1.0 / c') := Real.sqrt_pos.mpr (by positivity)
      gcongr
  have e3 : d3 H gf gB gs c3 ≤ d3 H gf gB gs 1.5 := by
    unfold d3
    exact div_le_div_of_nonneg_right h3' (by positivity)
  have q3 := d3_pos hH f0 hB hs h3
  have hS := Sc_pos hg hH
  have e0 : (0.0 : PF) = fin 0 := by rw [sci_eq]; norm_num
  have hq := X.q_res (gb' := gb) hg hR hpre hbm
  have hq' := X'.q_res (gb' := gb) hg hR hpre' hbm'
  rw [← e0] at hq hq'
  refine ⟨_, _, _, _, ?_, fun h => ?_, hq, hq'⟩
  · exact mul_le_mul_of_nonneg_right (min_le_min (DesignSafe.F_coef X.A AA.le X'.d dd hR)
      (DesignSafe.F_coef (by norm_num) h2 q3 e3 hR)) hS.le
  · exact mul_lt_mul_of_pos_right (min_lt_min (DesignSafe.F_coef_lt X.A AA X'.d dd hR)
      (DesignSafe.F_coef_lt (by norm_num) h q3 e3 hR)) hS
end

section
variable (H T cd cu gf gB db : ℝ) (hH : 0 < H) (hT : 0 < T) (hcd : 0 < cd) (hcu : 0 < cu) (hcc : cu ≤ 4 * cd)
  (hcc' : cd ≤ 4 * cu) (hf : 0.18 ≤ gf) (hf1 : gf ≤ 1) (hB : 0 < gB) (hB1 : gB ≤ 1) (hd0 : 0 ≤ db)
  (hd : db ≤ 1.5 * H) (hl : 0.5 ≤ Textbook.iribarren H T (max cd cu))
  (hu : gf = 1 ∨ Textbook.iribarren H T (min cd cu) < 1.8)
  (hH6 : H ≤ 1e6) (hlo : 2e-3 ≤ gf * gB * H)
include hH hT hcd hcu hcc hcc' hf hf1 hB hB1 hd0 hd hl hu hH6 hlo

/-- C94 for discharges over rubble mounds by EurOtop (2018) on composite slopes without a berm, where the roughness
does not depend on the waves (missing: berms, rough slopes with Iribarren numbers from 1.8 on) -/
theorem C94_eurotop2018_rubble_composite_discharge_partial (R c2 c3 g : ℝ) (beta : PF) (hR : 0 ≤ R)
    (h2 : 0.09 ≤ c2) (h3 : 0 < c3) (h3' : c3 ≤ 1.5) (hg : 0 < g) :
    ∃ q q' : ℝ, q ≤ q' ∧ (0.09 < c2 → q < q') ∧
      (calculate_overtopping_discharge_q_rubble_mound (fin H) (fin T) (fin R) beta (fin gB) (fin gf)
        (db := fin db) (cot_alpha_down := fin cd) (cot_alpha_up := fin cu) (c2 := fin c2)
        (c3 := fin c3) (use_best_fit := true) (g := fin g)).res = .ok (fin q) ∧
      (calculate_overtopping_discharge_q_rubble_mound (fin H) (fin T) (fin R) beta (fin gB) (fin gf)
        (db := fin db) (cot_alpha_down := fin cd) (cot_alpha_up := fin cu) (c2 := fin c2)
        (c3 := fin c3) (use_best_fit := false) (g := fin g)).res = .ok (fin q') := by
  have f0 : 0 < gf := lt_of_lt_of_le (by norm_num) hf
  have e0 : (0.0 : PF) = fin 0 := by rw [sci_eq]; norm_num
  have e1 : (1.0 : PF) = fin 1 := by rw [sci_eq]; norm_num
  have val : ∀ (bf : Bool) (a k : ℝ), 0 < k → (check_best_fit nan (fin c2) (fin c3) nan bf).2.1 = fin a →
      (check_best_fit nan (fin c2) (fin c3) nan bf).2.2.1 = fin k →
      (calculate_overtopping_discharge_q_rubble_mound (fin H) (fin T) (fin R) beta (fin gB) (fin gf)
        (db := fin db) (cot_alpha_down := fin cd) (cot_alpha_up := fin cu) (c2 := fin c2)
        (c3 := fin c3) (use_best_fit := bf) (g := fin g)).res =
          .ok (fin (F a (k / (H * (gf * gB * 1))) R * Sc g H)) := by
    intro bf a k hk ea ek
    obtain ⟨z, -, hz, -, -, -, hpre, -⟩ := pre_near beta bf hH hT hcd hcu hcc hcc' hf hf1 hB hB1 hd0 hd hl hu hH6 hlo
      rfl rfl rfl
    obtain ⟨hc, -, x2⟩ := RunupTaw2002.xi_avg (k1 := 1.65) (k2 := 4.0) (k3 := 1.5) (k4 := 1.0) hf hf1 hB (by norm_num)
      (by norm_num) (by norm_num) (by norm_num) (by norm_num) hH hT hcd hcu hd0 hd hl hz
    have r : RunupTaw2002.rough gf 1 (VdMProof.xi H T (RunupTaw2002.avg H z cd cu db)) = gf := by
      unfold RunupTaw2002.rough
      rcases hu with rfl | h
      · split_ifs <;> norm_num
      · rw [if_neg]
        rintro ⟨h', -⟩
        norm_num at *
        linarith
    have hv : ∀ {α : Type} (x : PF) (m : PyM α), (check_validity_range_rubble_mound x >>= fun _ => m).res =
        m.res := by
      intro α x m
      unfold check_validity_range_rubble_mound
      simp
    rw [qr_split, e0, PyM.bind_res_of_ok hpre]
    dsimp only
    rw [hv, ea, ek, VdMProof.xi_eval hH hT hc, e1, RunupTaw2002.rough_eval, r, qmax_eval hH f0 hB one_pos hk, if_pos hR,
      OvertoppingTaw2002.Sc_eval hg hH, mul_fin]
    rfl
  have hS := Sc_pos hg hH
  refine ⟨_, _, ?_, fun h => ?_, val true 0.09 1.5 (by norm_num) rfl rfl, val false c2 c3 h3 rfl rfl⟩
  · exact mul_le_mul_of_nonneg_right (DesignSafe.F_coef (by norm_num) h2 (by positivity)
      (div_le_div_of_nonneg_right h3' (by positivity)) hR) hS.le
  · exact mul_lt_mul_of_pos_right (DesignSafe.F_coef_lt (by norm_num) h (by positivity)
      (div_le_div_of_nonneg_right h3' (by positivity)) hR) hS
end

namespace CompositeCase
theorem flat5 : 0.5 ≤ Textbook.iribarren 2 5 (max 3 4) := by
  rw [max_eq_right (by norm_num)]
  exact (between (a := 0.5) (b := 10) (by norm_num) (by norm_num) (by norm_num) (by norm_num) (by norm_num)
    (by norm_num)).1
theorem steep5 : Textbook.iribarren 2 5 (min 3 4) ≤ 1.7 := by
  rw [min_eq_left (by norm_num)]
  exact (between (a := 0.5) (b := 1.7) (by norm_num) (by norm_num) (by norm_num) (by norm_num) (by norm_num)
    (by norm_num)).2
end CompositeCase
open CompositeCase
example := C94_eurotop2018_composite_discharge_partial 2 5 3 4 0.6 0.9 1 (by norm_num) (by norm_num) (by norm_num)
  (by norm_num) (by norm_num) (by norm_num) (by norm_num) (by norm_num) (by norm_num) (by norm_num) (by norm_num)
  (by norm_num) flat5 steep5 (by norm_num) (by norm_num) 3 0.8 1 2.5 0.1035 1.35 0.026 9.81 nan nan (by norm_num)
  (by norm_num) (by norm_num) (by norm_num) (by norm_num) (by norm_num) (by norm_num) (by norm_num) (by norm_num)
  (by norm_num)
example := C94_eurotop2018_rubble_composite_discharge_partial 2 5 3 4 0.6 0.9 1 (by norm_num) (by norm_num)
  (by norm_num) (by norm_num) (by norm_num) (by norm_num) (by norm_num) (by norm_num) (by norm_num) (by norm_num)
  (by norm_num) (by norm_num) flat5 (Or.inr (steep5.trans_lt (by norm_num))) (by norm_num) (by norm_num) 3 0.1035 1.35
  9.81 nan (by norm_num) (by norm_num) (by norm_num) (by norm_num) (by norm_num)
end
