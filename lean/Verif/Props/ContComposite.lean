import Verif.Props.CompositeBerm
import Verif.Props.ContinuousOvertopping

/-! # C95: run-up on two slopes, up to the tolerance of the iteration -/

open Classical
open PF ContProof WorseProof
noncomputable section

namespace ContProof
/-- solutions of equations that contract in logarithms, where the equations change continuously -/
theorem fixed_cont {X : Type} [TopologicalSpace X] {f : X → ℝ → ℝ} {p : X → ℝ} {q : ℝ} (hq : q < 1)
    (hp : ∀ x, 0 < p x) (hfp : ∀ x, f x (p x) = p x)
    (hL : ∀ x y z, 0 < y → 0 < z → |Real.log (f x y) - Real.log (f x z)| ≤ q * |Real.log y - Real.log z|)
    (hc : ∀ x0, ContinuousAt (fun x => f x (p x0)) x0) : Continuous p := by
  rw [continuous_iff_continuousAt]
  intro x0
  have e : p = fun x => Real.exp (Real.log (p x)) := funext fun x => (Real.exp_log (hp x)).symm
  rw [e]
  refine Real.continuous_exp.continuousAt.comp ?_
  have hc0 : ContinuousAt (fun x => Real.log (f x (p x0))) x0 :=
    (hc x0).log (by rw [hfp]; exact (hp x0).ne')
  have h0 : Filter.Tendsto (fun x => 1 / (1 - q) * |Real.log (f x (p x0)) - Real.log (p x0)|) (nhds x0) (nhds 0) := by
    have k : ContinuousAt (fun x => 1 / (1 - q) * |Real.log (f x (p x0)) - Real.log (p x0)|) x0 :=
      (hc0.sub continuousAt_const).abs.const_mul _
    have := k.tendsto
    rw [hfp, sub_self, abs_zero, mul_zero] at this
    exact this
  rw [ContinuousAt, tendsto_iff_dist_tendsto_zero]
  refine squeeze_zero (fun _ => dist_nonneg) (fun x => ?_) h0
  rw [Real.dist_eq, one_div, inv_mul_eq_div, le_div_iff₀ (by linarith)]
  have t := hL x (p x) (p x0) (hp x) (hp x0)
  rw [hfp] at t
  have s := abs_sub_le (Real.log (p x)) (Real.log (f x (p x0))) (Real.log (p x0))
  linarith
end ContProof

section
variable {X : Type} [TopologicalSpace X] {H T cd cu gf gB db : X → ℝ} (bf : Bool) (kH : PositiveInput H)
  (kT : PositiveInput T) (kcd : PositiveInput cd) (kcu : PositiveInput cu) (kf : Continuous gf) (kB : PositiveInput gB)
  (kd : Continuous db) (hcc : ∀ x, cu x ≤ 4 * cd x) (hcc' : ∀ x, cd x ≤ 4 * cu x) (hf : ∀ x, 0.18 ≤ gf x)
  (hf1 : ∀ x, gf x ≤ 1) (hB1 : ∀ x, gB x ≤ 1) (hd0 : ∀ x, 0 ≤ db x) (hd : ∀ x, db x ≤ 1.5 * H x)
  (hl : ∀ x, 0.5 ≤ Textbook.iribarren (H x) (T x) (max (cd x) (cu x)))
  (hr : (∀ x, gf x = 1) ∨ ∀ x, Textbook.iribarren (H x) (T x) (min (cd x) (cu x)) ≤ 10)
  (hH6 : ∀ x, H x ≤ 1e6) (hlo : ∀ x, 2e-3 ≤ gf x * gB x * H x)
include kH kT kcd kcu kf kB kd hcc hcc' hf hf1 hB1 hd0 hd hl hr hH6 hlo

/-- C95, run-up on two slopes without berm by TAW (2002): the returned run-up stays within 0.3 mm of a level that changes
continuously with all inputs together, 0.1 mm where the roughness does not depend on the waves (missing: as in C89, and
continuity itself, which the tolerance of the iteration rules out) -/
theorem C95_composite_taw2002_partial : ∃ r : X → ℝ, Continuous r ∧ ∀ x, ∃ (z : ℝ) (f : Bool),
    (RunupTaw2002.calculate_wave_runup_height_z2p
      { Hm0 := fin (H x), Tmm10 := fin (T x), cot_alpha_down := fin (cd x), cot_alpha_up := fin (cu x),
        gamma_f := fin (gf x), gamma_beta := fin (gB x), db := fin (db x), use_best_fit := bf }).res = .ok (fin z, f) ∧
    |z - r x| ≤ 3e-4 ∧
    ((gf x = 1 ∨ Textbook.iribarren (H x) (T x) (min (cd x) (cu x)) < 1.8) → |z - r x| ≤ 1e-4) := by
  have c1 : (1 : ℝ) ≤ if bf then 1.65 else 1.75 := by split_ifs <;> norm_num
  have c2 : (3 : ℝ) ≤ if bf then 4.0 else 4.3 := by split_ifs <;> norm_num
  have c3 : (0 : ℝ) ≤ if bf then 1.5 else 1.6 := by split_ifs <;> norm_num
  have c4 : (1 : ℝ) ≤ if bf then 1.0 else 1.0 := by split_ifs <;> norm_num
  have c23 : 15 / 7 * (if bf then 1.5 else 1.6) ≤ (if bf then 4.0 else 4.3 : ℝ) := by split_ifs <;> norm_num
  have c24 : (if bf then 4.0 else 4.3) * (if bf then 1.0 else 1.0) ≤ (10 : ℝ) := by split_ifs <;> norm_num
  have e1 : (if bf then 1.65 else fin 1.75) = fin (if bf then 1.65 else 1.75) := by cases bf <;> rfl
  have e2 : (if bf then 4.0 else fin 4.3) = fin (if bf then 4.0 else 4.3) := by cases bf <;> rfl
  have e3 : (if bf then 1.5 else fin 1.6) = fin (if bf then 1.5 else 1.6) := by cases bf <;> rfl
  have e4 : (if bf then 1.0 else fin 1.0) = fin (if bf then 1.0 else 1.0) := by cases bf <;> rfl
  have hr' : ∀ x, gf x = 1 ∨ Textbook.iribarren (H x) (T x) (min (cd x) (cu x)) ≤ 10 := fun x =>
    hr.imp (fun h => h x) (fun h => h x)
  choose p hp hfp hu z f hz ha using fun x => RunupTaw2002.composite_settles (gB := gB x) (db := db x) bf (kH.2 x)
    (kT.2 x) (kcd.2 x) (kcu.2 x) (hcc x) (hcc' x) (hf x) (hf1 x) (kB.2 x) (hd0 x) (hd x) e1 e2 e3 e4 c3 c23 (hl x) (hr' x)
    c1 c2 c4 c24 (hB1 x) (hH6 x) (hlo x)
  refine ⟨p, ?_, fun x => ⟨z x, f x, hz x, ha x⟩⟩
  refine fixed_cont (q := (2 : ℕ) * (1 / 3)) (by norm_num) hp hfp (fun x y w hy hw => ?_) (fun x0 => ?_)
  · exact RunupTaw2002.next_log (hf x) (hf1 x) (kB.2 x) (by linarith) (by linarith) c3 (by linarith) c23 (kH.2 x) (kT.2 x)
      (kcd.2 x) (kcu.2 x) (hd0 x) (hd x) (hl x) 2 (hcc x) (hcc' x) (hr' x)
      (fun a b h1 h2 h3 => (RunupTaw2002.rel_mono (hf x) (hf1 x) (kB.2 x) (by linarith) (by linarith) c3 (by linarith) c23
        h1 h2 ((hr' x).imp_right h3.trans)).2) hy hw
  · have hb := fun x => RunupTaw2002.avg_between (kH.2 x) (hp x0) (hd0 x) (hd x) (min_le_left (cd x) (cu x))
      (min_le_right (cd x) (cu x)) (le_max_left (cd x) (cu x)) (le_max_right (cd x) (cu x))
    have lo := fun x => lt_min (kcd.2 x) (kcu.2 x)
    have kc : PositiveInput fun x => RunupTaw2002.avg (H x) (p x0) (cd x) (cu x) (db x) := by
      refine ⟨?_, fun x => (lo x).trans_le (hb x).1⟩
      unfold RunupTaw2002.avg
      have a1 := kH.1
      have a2 := kcd.1
      have a3 := kcu.1
      have pos : ∀ x, 1.5 * H x + p x0 ≠ 0 := fun x => by
        have := kH.2 x
        have := hp x0
        positivity
      exact Continuous.div (by fun_prop) (by fun_prop) pos
    obtain ⟨r, kr, hrr⟩ := C95_taw_runup_partial bf kH kT kc ⟨kf, fun x => lt_of_lt_of_le (by norm_num) (hf x)⟩ hf1
      (continuous_const (y := (1 : ℝ))) kB.1 (by
        rcases hr with h | h
        · exact Or.inl h
        · exact Or.inr (Or.inr fun x => ⟨rfl, (irib_c (kH.2 x) (kT.2 x) (lo x) (hb x).1).trans (h x)⟩))
    have e : (fun x => RunupTaw2002.next (H x) (T x) (cd x) (cu x) (gf x) (gB x) (db x) (if bf then 1.65 else 1.75)
        (if bf then 4.0 else 4.3) (if bf then 1.5 else 1.6) (if bf then 1.0 else 1.0) (p x0)) = r := by
      funext x
      obtain ⟨g, hg⟩ := RunupTaw2002.height_straight (gf := gf x) (gB := gB x) bf (kH.2 x) (kT.2 x) (kc.2 x) e1 e2 e3 e4
      have k := (hrr x).symm.trans (PyM.bind_res_of_ok hg _)
      exact (PF.fin.inj (Except.ok.inj k)).symm
    rw [e]
    exact kr.continuousAt
end

section
variable {X : Type} [TopologicalSpace X] {H T cd cu gf gB B db : X → ℝ} (bf : Bool) (kH : PositiveInput H)
  (kT : PositiveInput T) (kcd : PositiveInput cd) (kcu : PositiveInput cu) (kf : Continuous gf) (kB : PositiveInput gB)
  (kW : Continuous B) (kd : Continuous db) (hcc : ∀ x, cu x ≤ 4 * cd x) (hcc' : ∀ x, cd x ≤ 4 * cu x)
  (hf : ∀ x, 0.18 ≤ gf x) (hf1 : ∀ x, gf x ≤ 1) (hB1 : ∀ x, gB x ≤ 1) (hW : ∀ x, 0 ≤ B x) (hd0 : ∀ x, 0 ≤ db x)
  (hd : ∀ x, db x ≤ 1.5 * H x) (hl : ∀ x, 0.5 ≤ Textbook.iribarren (H x) (T x) (max (cd x) (cu x)))
  (hr : (∀ x, gf x = 1) ∨ ∀ x, Textbook.iribarren (H x) (T x) (min (cd x) (cu x)) < 1.8)
  (hH6 : ∀ x, H x ≤ 1e6) (hlo : ∀ x, 4e-3 ≤ gf x * gB x * H x)
include kH kT kcd kcu kf kB kW kd hcc hcc' hf hf1 hB1 hW hd0 hd hl hr hH6 hlo

/-- C95, run-up on two slopes with a berm at or below the water line by TAW (2002): within 0.1 mm of a level that changes
continuously (missing: as in C89, and continuity itself) -/
theorem C95_composite_taw2002_berm_partial : ∃ r : X → ℝ, Continuous r ∧ ∀ x, ∃ (z : ℝ) (f : Bool),
    (RunupTaw2002.calculate_wave_runup_height_z2p
      { Hm0 := fin (H x), Tmm10 := fin (T x), cot_alpha_down := fin (cd x), cot_alpha_up := fin (cu x),
        gamma_f := fin (gf x), gamma_beta := fin (gB x), B_berm := fin (B x), db := fin (db x),
        use_best_fit := bf }).res = .ok (fin z, f) ∧ |z - r x| ≤ 1e-4 := by
  have c1 : (1 : ℝ) ≤ if bf then 1.65 else 1.75 := by split_ifs <;> norm_num
  have c2 : (3 : ℝ) ≤ if bf then 4.0 else 4.3 := by split_ifs <;> norm_num
  have c3 : (0 : ℝ) ≤ if bf then 1.5 else 1.6 := by split_ifs <;> norm_num
  have c4 : (1 : ℝ) ≤ if bf then 1.0 else 1.0 := by split_ifs <;> norm_num
  have c23 : 15 / 7 * (if bf then 1.5 else 1.6) ≤ (if bf then 4.0 else 4.3 : ℝ) := by split_ifs <;> norm_num
  have c24 : (if bf then 4.0 else 4.3) * (if bf then 1.0 else 1.0) ≤ (10 : ℝ) := by split_ifs <;> norm_num
  have e1 : (if bf then 1.65 else fin 1.75) = fin (if bf then 1.65 else 1.75) := by cases bf <;> rfl
  have e2 : (if bf then 4.0 else fin 4.3) = fin (if bf then 4.0 else 4.3) := by cases bf <;> rfl
  have e3 : (if bf then 1.5 else fin 1.6) = fin (if bf then 1.5 else 1.6) := by cases bf <;> rfl
  have e4 : (if bf then 1.0 else fin 1.0) = fin (if bf then 1.0 else 1.0) := by cases bf <;> rfl
  have hs : ∀ x, gf x = 1 ∨ Textbook.iribarren (H x) (T x) (min (cd x) (cu x)) < 1.8 := fun x =>
    hr.imp (fun h => h x) (fun h => h x)
  choose p hp hfp hu z f hz ha using fun x => RunupTaw2002.berm_settles (gB := gB x) (db := db x) (kH.2 x) (kT.2 x)
    (kcd.2 x) (kcu.2 x) (hcc x) (hcc' x) (hf x) (hf1 x) (kB.2 x) (hB1 x) (hd0 x) (hd x) (hl x) (hs x) (hH6 x) (hlo x) c3
    c23 c1 c2 c4 c24 bf (hW x) e1 e2 e3 e4
  refine ⟨p, ?_, fun x => ⟨z x, f x, hz x, ha x⟩⟩
  have b0 : ∀ x, 0 < Published.bermFactor (H x) (cd x) (cu x) (B x) (db x) := fun x =>
    lt_of_lt_of_le (by norm_num) (Published.bermFactor_bounds _ _ _ _ _).1
  have b1 : ∀ x, Published.bermFactor (H x) (cd x) (cu x) (B x) (db x) ≤ 1 := fun x =>
    (Published.bermFactor_bounds _ _ _ _ _).2
  have kb : Continuous fun x => Published.bermFactor (H x) (cd x) (cu x) (B x) (db x) := by
    have a1 := kH.1
    have a2 := kcd.1
    have a3 := kcu.1
    have n1 : ∀ x, H x * cd x + B x + H x * cu x ≠ 0 := fun x => by
      have := kH.2 x
      have := kcd.2 x
      have := kcu.2 x
      have := hW x
      positivity
    have n2 : ∀ x, 2 * H x ≠ 0 := fun x => by
      have := kH.2 x
      positivity
    have d1 : Continuous fun x => B x / (H x * cd x + B x + H x * cu x) := Continuous.div kW (by fun_prop) n1
    have d2 : Continuous fun x => Real.pi * db x / (2 * H x) := Continuous.div (by fun_prop) (by fun_prop) n2
    unfold Published.bermFactor
    fun_prop
  refine fixed_cont (f := fun x y => RunupTaw2002.level (H x) (T x) (gf x)
    (Published.bermFactor (H x) (cd x) (cu x) (B x) (db x)) (gB x) (if bf then 1.65 else 1.75) (if bf then 4.0 else 4.3)
    (if bf then 1.5 else 1.6) (if bf then 1.0 else 1.0) (RunupTaw2002.avg (H x) y (cd x) (cu x) (db x)))
    (q := (1 : ℕ) * (1 / 3)) (by norm_num) hp hfp (fun x y w hy hw => ?_) (fun x0 => ?_)
  · have p1' : 0 < (if bf then 1.65 else 1.75) * Published.bermFactor (H x) (cd x) (cu x) (B x) (db x) :=
      mul_pos (by linarith) (b0 x)
    have eq : ∀ z, 0 < z → RunupTaw2002.level (H x) (T x) (gf x)
        (Published.bermFactor (H x) (cd x) (cu x) (B x) (db x)) (gB x) (if bf then 1.65 else 1.75)
        (if bf then 4.0 else 4.3) (if bf then 1.5 else 1.6) (if bf then 1.0 else 1.0)
        (RunupTaw2002.avg (H x) z (cd x) (cu x) (db x)) = RunupTaw2002.next (H x) (T x) (cd x) (cu x) (gf x) (gB x) (db x)
        ((if bf then 1.65 else 1.75) * Published.bermFactor (H x) (cd x) (cu x) (B x) (db x))
        (if bf then 4.0 else 4.3) (if bf then 1.5 else 1.6) (if bf then 1.0 else 1.0) z := by
      intro z hz
      obtain ⟨a0, a1, a2⟩ := RunupTaw2002.xi_avg (hf x) (hf1 x) (kB.2 x) p1' (by linarith) c3 (by linarith) c23 (kH.2 x)
        (kT.2 x) (kcd.2 x) (kcu.2 x) (hd0 x) (hd x) (hl x) hz
      exact RunupTaw2002.level_smooth (b0 x) (b1 x) (VdMProof.xi_pos (kH.2 x) (kT.2 x) a0) ((hs x).imp_right a2.trans_lt)
    simp only [eq y hy, eq w hw]
    exact RunupTaw2002.next_log (hf x) (hf1 x) (kB.2 x) p1' (by linarith) c3 (by linarith) c23 (kH.2 x) (kT.2 x)
      (kcd.2 x) (kcu.2 x) (hd0 x) (hd x) (hl x) 1 (hcc x) (hcc' x)
      ((hs x).imp_right (fun h => h.le.trans (by norm_num)))
      (fun a b h1 h2 h3 => RunupTaw2002.rel_const (hf x) (hf1 x) (kB.2 x) p1' (by linarith) c3 (by linarith) c23
        h1 h2 ((hs x).imp_right h3.trans_lt)) hy hw
  · have hb := fun x => RunupTaw2002.avg_between (kH.2 x) (hp x0) (hd0 x) (hd x) (min_le_left (cd x) (cu x))
      (min_le_right (cd x) (cu x)) (le_max_left (cd x) (cu x)) (le_max_right (cd x) (cu x))
    have lo := fun x => lt_min (kcd.2 x) (kcu.2 x)
    have kc : PositiveInput fun x => RunupTaw2002.avg (H x) (p x0) (cd x) (cu x) (db x) := by
      refine ⟨?_, fun x => (lo x).trans_le (hb x).1⟩
      unfold RunupTaw2002.avg
      have a1 := kH.1
      have a2 := kcd.1
      have a3 := kcu.1
      have pos : ∀ x, 1.5 * H x + p x0 ≠ 0 := fun x => by
        have := kH.2 x
        have := hp x0
        positivity
      exact Continuous.div (by fun_prop) (by fun_prop) pos
    obtain ⟨r, kr, hrr⟩ := C95_taw_runup_partial bf kH kT kc ⟨kf, fun x => lt_of_lt_of_le (by norm_num) (hf x)⟩ hf1
      kb kB.1 (by
        rcases hr with h | h
        · exact Or.inl h
        · refine Or.inr (Or.inl fun x => ?_)
          have i := (irib_c (kH.2 x) (kT.2 x) (lo x) (hb x).1).trans_lt (h x)
          have i0 : 0 < Textbook.iribarren (H x) (T x) (RunupTaw2002.avg (H x) (p x0) (cd x) (cu x) (db x)) := by
            rw [RangeProof.irib_eq]; exact VdMProof.xi_pos (kH.2 x) (kT.2 x) (kc.2 x)
          exact (mul_le_of_le_one_left i0.le (b1 x)).trans_lt i)
    have e : (fun x => RunupTaw2002.level (H x) (T x) (gf x) (Published.bermFactor (H x) (cd x) (cu x) (B x) (db x))
        (gB x) (if bf then 1.65 else 1.75) (if bf then 4.0 else 4.3) (if bf then 1.5 else 1.6) (if bf then 1.0 else 1.0)
        (RunupTaw2002.avg (H x) (p x0) (cd x) (cu x) (db x))) = r := by
      funext x
      obtain ⟨g, hg⟩ := RunupTaw2002.height_level (gf := gf x)
        (gb := Published.bermFactor (H x) (cd x) (cu x) (B x) (db x)) (gB := gB x) bf (kH.2 x) (kT.2 x) (kc.2 x) e1 e2 e3 e4
      have k := (hrr x).symm.trans (PyM.bind_res_of_ok hg _)
      exact (PF.fin.inj (Except.ok.inj k)).symm
    rw [e]
    exact kr.continuousAt
end

open CompositeCase in
/-- a case: 2 m waves of 6 s on slopes of 1:3 and 1:4, with the level of the transition between 0.5 and 2 m below the
water -/
example := C95_composite_taw2002_partial (X := Set.Icc (0.5 : ℝ) 2) (H := fun _ => 2) (T := fun _ => 6) (cd := fun _ => 3)
  (cu := fun _ => 4) (gf := fun _ => 0.6) (gB := fun _ => 0.9) (db := fun x => x) true
  ⟨continuous_const, fun _ => by norm_num⟩ ⟨continuous_const, fun _ => by norm_num⟩
  ⟨continuous_const, fun _ => by norm_num⟩ ⟨continuous_const, fun _ => by norm_num⟩ continuous_const
  ⟨continuous_const, fun _ => by norm_num⟩ continuous_subtype_val (fun _ => by norm_num) (fun _ => by norm_num)
  (fun _ => by norm_num) (fun _ => by norm_num) (fun _ => by norm_num) (fun x => le_trans (by norm_num) x.2.1)
  (fun x => x.2.2.trans (by norm_num)) (fun _ => flat) (Or.inr fun _ => steep) (fun _ => by norm_num)
  (fun _ => by norm_num)

open CompositeCase in
/-- a case: smooth slopes, a berm of 3 m to 8 m at 1 m below the water -/
example := C95_composite_taw2002_berm_partial (X := Set.Icc (3 : ℝ) 8) (H := fun _ => 2) (T := fun _ => 6)
  (cd := fun _ => 3) (cu := fun _ => 4) (gf := fun _ => 1) (gB := fun _ => 0.9) (B := fun x => x) (db := fun _ => 1) true
  ⟨continuous_const, fun _ => by norm_num⟩ ⟨continuous_const, fun _ => by norm_num⟩
  ⟨continuous_const, fun _ => by norm_num⟩ ⟨continuous_const, fun _ => by norm_num⟩ continuous_const
  ⟨continuous_const, fun _ => by norm_num⟩ continuous_subtype_val continuous_const (fun _ => by norm_num)
  (fun _ => by norm_num) (fun _ => by norm_num) (fun _ => by norm_num) (fun _ => by norm_num)
  (fun x => le_trans (by norm_num) x.2.1) (fun _ => by norm_num) (fun _ => by norm_num) (fun _ => flat)
  (Or.inl fun _ => rfl) (fun _ => by norm_num) (fun _ => by norm_num)
end
