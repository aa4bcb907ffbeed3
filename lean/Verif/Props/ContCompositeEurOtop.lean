import Verif.Props.CompositeFix
import Verif.Props.ContComposite

/-! # C95: run-up on two slopes by EurOtop (2018), up to the tolerance of the iteration -/

open Classical
open PF ContProof WorseProof
noncomputable section

/-- C95, run-up on two slopes without berm by EurOtop (2018): the returned run-up stays within 0.3 mm of a level that
changes continuously with all inputs and coefficients together, 0.1 mm where the roughness does not depend on the waves
(missing: as in C89, roughness on both sides of 0.6, where the obliqueness factor jumps, and continuity itself, which the
tolerance of the iteration rules out) -/
theorem C95_composite_eurotop2018_partial {X : Type} [TopologicalSpace X] {H T b cd cu gf db c1 c2 c3 c4 : X → ℝ}
    (gB : X → PF) (bf : Bool) (kH : PositiveInput H) (kT : PositiveInput T) (kcd : PositiveInput cd)
    (kcu : PositiveInput cu) (kf : Continuous gf) (kb : Continuous b) (kd : Continuous db) (k1 : Continuous c1)
    (k2 : Continuous c2) (k3 : Continuous c3) (k4 : Continuous c4) (hcc : ∀ x, cu x ≤ 4 * cd x)
    (hcc' : ∀ x, cd x ≤ 4 * cu x) (hf : ∀ x, 0.18 ≤ gf x) (hf1 : ∀ x, gf x ≤ 1)
    (hf6 : (∀ x, gf x ≤ 0.6) ∨ ∀ x, 0.6 < gf x) (hd0 : ∀ x, 0 ≤ db x) (hd : ∀ x, db x ≤ 1.5 * H x)
    (hl : ∀ x, 0.5 ≤ Textbook.iribarren (H x) (T x) (max (cd x) (cu x)))
    (hr : (∀ x, gf x = 1) ∨ ∀ x, Textbook.iribarren (H x) (T x) (min (cd x) (cu x)) ≤ 10)
    (hH6 : ∀ x, H x ≤ 1e6) (h1 : ∀ x, 1 ≤ c1 x) (h2 : ∀ x, 3 ≤ c2 x) (h3 : ∀ x, 0 ≤ c3 x) (h4 : ∀ x, 1 ≤ c4 x)
    (h23 : ∀ x, 15 / 7 * c3 x ≤ c2 x) (h24 : ∀ x, c2 x * c4 x ≤ 10) (hlo : ∀ x, 5e-3 ≤ gf x * H x) :
    ∃ r : X → ℝ, Continuous r ∧ ∀ x, ∃ (z : ℝ) (f : Bool),
    (RunupEurOtop2018.calculate_wave_runup_height_z2p (fin (H x)) (fin (T x)) (fin (b x)) (gB x)
        (gamma_f := fin (gf x)) (db := fin (db x)) (cot_alpha_down := fin (cd x)) (cot_alpha_up := fin (cu x))
        (c1 := fin (c1 x)) (c2 := fin (c2 x)) (c3 := fin (c3 x)) (c4 := fin (c4 x)) (use_best_fit := bf)).res =
        .ok (fin z, f) ∧
    |z - r x| ≤ 3e-4 ∧
    ((gf x = 1 ∨ Textbook.iribarren (H x) (T x) (min (cd x) (cu x)) < 1.8) → |z - r x| ≤ 1e-4) := by
  have ho := fun x => (C78_obliqueness_eurotop2018 (b x) (gf x)).1
  have kB : Continuous fun x => Published.obliqueness (if 0.6 < gf x then 0.0022 else 0.0063) (b x) := by
    unfold Published.obliqueness
    rcases hf6 with h | h
    · have e : (fun x => 1 - (if 0.6 < gf x then (0.0022 : ℝ) else 0.0063) * min |b x| 80) =
          fun x => 1 - 0.0063 * min |b x| 80 := funext fun x => by rw [if_neg (not_lt.mpr (h x))]
      rw [e]; fun_prop
    · have e : (fun x => 1 - (if 0.6 < gf x then (0.0022 : ℝ) else 0.0063) * min |b x| 80) =
          fun x => 1 - 0.0022 * min |b x| 80 := funext fun x => by rw [if_pos (h x)]
      rw [e]; fun_prop
  have hB : ∀ x, 0.4 ≤ Published.obliqueness (if 0.6 < gf x then 0.0022 else 0.0063) (b x) ∧
      Published.obliqueness (if 0.6 < gf x then 0.0022 else 0.0063) (b x) ≤ 1 := by
    intro x
    unfold Published.obliqueness
    have m80 : min |b x| 80 ≤ 80 := min_le_right _ _
    have m0 : 0 ≤ min |b x| 80 := le_min (abs_nonneg _) (by norm_num)
    generalize min |b x| 80 = m at *
    split_ifs <;> norm_num <;> constructor <;> linarith
  obtain ⟨G, eG⟩ : ∃ G : X → ℝ, ∀ x, Published.obliqueness (if 0.6 < gf x then 0.0022 else 0.0063) (b x) = G x :=
    ⟨_, fun _ => rfl⟩
  simp only [eG] at kB hB ho
  have hB0 : ∀ x, 0 < G x := fun x => lt_of_lt_of_le (by norm_num) (hB x).1
  have hlo' : ∀ x, 2e-3 ≤ gf x * G x * H x := fun x => by
    have f0 : 0 < gf x := lt_of_lt_of_le (by norm_num) (hf x)
    have := kH.2 x
    have : gf x * H x * 0.4 ≤ gf x * H x * G x := mul_le_mul_of_nonneg_left (hB x).1 (by positivity)
    have h := hlo x
    norm_num at this h ⊢
    linarith
  obtain ⟨a1, e1⟩ : ∃ a : X → ℝ, ∀ x, (if bf then 1.65 else c1 x) = a x := ⟨_, fun _ => rfl⟩
  obtain ⟨a2, e2⟩ : ∃ a : X → ℝ, ∀ x, (if bf then 4.0 else c2 x) = a x := ⟨_, fun _ => rfl⟩
  obtain ⟨a3, e3⟩ : ∃ a : X → ℝ, ∀ x, (if bf then 1.5 else c3 x) = a x := ⟨_, fun _ => rfl⟩
  obtain ⟨a4, e4⟩ : ∃ a : X → ℝ, ∀ x, (if bf then 1.0 else c4 x) = a x := ⟨_, fun _ => rfl⟩
  have q1 : Continuous a1 ∧ ∀ x, 1 ≤ a1 x := by
    simp only [← funext e1]; cases bf
    · exact ⟨k1, h1⟩
    · exact ⟨continuous_const, fun _ => by norm_num⟩
  have q2 : Continuous a2 ∧ ∀ x, 3 ≤ a2 x := by
    simp only [← funext e2]; cases bf
    · exact ⟨k2, h2⟩
    · exact ⟨continuous_const, fun _ => by norm_num⟩
  have q3 : Continuous a3 ∧ ∀ x, 0 ≤ a3 x := by
    simp only [← funext e3]; cases bf
    · exact ⟨k3, h3⟩
    · exact ⟨continuous_const, fun _ => by norm_num⟩
  have q4 : Continuous a4 ∧ ∀ x, 1 ≤ a4 x := by
    simp only [← funext e4]; cases bf
    · exact ⟨k4, h4⟩
    · exact ⟨continuous_const, fun _ => by norm_num⟩
  have q23 : ∀ x, 15 / 7 * a3 x ≤ a2 x := fun x => by
    rw [← e2, ← e3]; cases bf
    · exact h23 x
    · norm_num
  have q24 : ∀ x, a2 x * a4 x ≤ 10 := fun x => by
    rw [← e2, ← e4]; cases bf
    · exact h24 x
    · norm_num
  have hk : ∀ x, RunupEurOtop2018.check_best_fit (fin (c1 x)) (fin (c2 x)) (fin (c3 x)) (fin (c4 x)) bf =
      (fin (a1 x), fin (a2 x), fin (a3 x), fin (a4 x)) := fun x => by
    rw [← e1, ← e2, ← e3, ← e4]
    unfold RunupEurOtop2018.check_best_fit
    cases bf <;> rfl
  have hr' : ∀ x, gf x = 1 ∨ Textbook.iribarren (H x) (T x) (min (cd x) (cu x)) ≤ 10 := fun x =>
    hr.imp (fun h => h x) (fun h => h x)
  have p1 : ∀ x, 0 < a1 x := fun x => by linarith [q1.2 x]
  have p2 : ∀ x, 0 < a2 x := fun x => by linarith [q2.2 x]
  have p4 : ∀ x, 0 < a4 x := fun x => by linarith [q4.2 x]
  choose p hp hfp hu z f hz ha using fun x => RunupTaw2002.composite_settles (gB := G x) (db := db x) (c1 := a1 x)
    (c2 := a2 x) (c3 := a3 x) (c4 := a4 x) false (kH.2 x) (kT.2 x) (kcd.2 x) (kcu.2 x) (hcc x) (hcc' x) (hf x) (hf1 x)
    (hB0 x) (hd0 x) (hd x) rfl rfl rfl rfl (q3.2 x) (q23 x) (hl x) (hr' x) (q1.2 x) (q2.2 x) (q4.2 x) (q24 x) (hB x).2
    (hH6 x) (hlo' x)
  refine ⟨p, ?_, fun x => ⟨z x, f x, ?_, ha x⟩⟩
  · refine fixed_cont (q := (2 : ℕ) * (1 / 3)) (by norm_num) hp hfp (fun x y w hy hw => ?_) (fun x0 => ?_)
    · exact RunupTaw2002.next_log (hf x) (hf1 x) (hB0 x) (p1 x) (p2 x) (q3.2 x) (p4 x) (q23 x) (kH.2 x) (kT.2 x)
        (kcd.2 x) (kcu.2 x) (hd0 x) (hd x) (hl x) 2 (hcc x) (hcc' x) (hr' x)
        (fun a b h1 h2 h3 => (RunupTaw2002.rel_mono (hf x) (hf1 x) (hB0 x) (p1 x) (p2 x) (q3.2 x) (p4 x) (q23 x)
          h1 h2 ((hr' x).imp_right h3.trans)).2) hy hw
    · have hb := fun x => RunupTaw2002.avg_between (kH.2 x) (hp x0) (hd0 x) (hd x) (min_le_left (cd x) (cu x))
        (min_le_right (cd x) (cu x)) (le_max_left (cd x) (cu x)) (le_max_right (cd x) (cu x))
      have lo := fun x => lt_min (kcd.2 x) (kcu.2 x)
      have kc : PositiveInput fun x => RunupTaw2002.avg (H x) (p x0) (cd x) (cu x) (db x) := by
        refine ⟨?_, fun x => (lo x).trans_le (hb x).1⟩
        unfold RunupTaw2002.avg
        have a1 := kH.1
        have a2 := kcd.1
        have a3 := kcu.1
        have pos : ∀ x, 1.5 * H x + p x0 ≠ 0 := fun x => by
          have := kH.2 x
          have := hp x0
          positivity
        exact Continuous.div (by fun_prop) (by fun_prop) pos
      have kx := irib_input kH kT kc
      have kr := roughness_input ⟨kf, fun x => lt_of_lt_of_le (by norm_num) (hf x)⟩ hf1 kx.1
      have e : ∀ x, RunupTaw2002.rough (gf x) 1 (VdMProof.xi (H x) (T x) (RunupTaw2002.avg (H x) (p x0) (cd x) (cu x)
          (db x))) = Published.roughness (gf x) (Textbook.iribarren (H x) (T x) (RunupTaw2002.avg (H x) (p x0) (cd x)
          (cu x) (db x))) := fun x => by
        rw [← RangeProof.irib_eq, FormulaProof.rough_published (hf1 x) ((hr' x).imp_right fun h => Or.inr ⟨rfl,
          (irib_c (kH.2 x) (kT.2 x) (lo x) (hb x).1).trans h⟩), one_mul]
      unfold RunupTaw2002.next RunupTaw2002.rel RunupTaw2002.ra RunupTaw2002.rb
      simp only [e]
      simp only [← RangeProof.irib_eq]
      have kx' := kx.1.continuousAt (x := x0)
      have kr' := kr.1.continuousAt (x := x0)
      inputs [kH, kx] x0
      have := q1.1
      have := q2.1
      have := q3.1
      have := q4.1
      cont
  · rw [← hz]
    unfold RunupEurOtop2018.calculate_wave_runup_height_z2p
      RunupEurOtop2018.calculate_dimensionless_wave_runup_height_z2p
    dsimp only
    rw [ho, hk]
    rfl

/-- C95, run-up on two slopes with a berm at or below the water line by EurOtop (2018): within 0.1 mm of a level that
changes continuously with all inputs and coefficients together (missing: as without berm) -/
theorem C95_composite_eurotop2018_berm_partial {X : Type} [TopologicalSpace X] {H T b cd cu gf B db c1 c2 c3 c4 : X → ℝ}
    (gB : X → PF) (bf : Bool) (kH : PositiveInput H) (kT : PositiveInput T) (kcd : PositiveInput cd)
    (kcu : PositiveInput cu) (kf : Continuous gf) (kb : Continuous b) (kW : Continuous B) (kd : Continuous db) (k1 : Continuous c1)
    (k2 : Continuous c2) (k3 : Continuous c3) (k4 : Continuous c4) (hcc : ∀ x, cu x ≤ 4 * cd x)
    (hcc' : ∀ x, cd x ≤ 4 * cu x) (hf : ∀ x, 0.18 ≤ gf x) (hf1 : ∀ x, gf x ≤ 1)
    (hf6 : (∀ x, gf x ≤ 0.6) ∨ ∀ x, 0.6 < gf x) (hW : ∀ x, 0 ≤ B x) (hd0 : ∀ x, 0 ≤ db x) (hd : ∀ x, db x ≤ 1.5 * H x)
    (hl : ∀ x, 0.5 ≤ Textbook.iribarren (H x) (T x) (max (cd x) (cu x)))
    (hr : (∀ x, gf x = 1) ∨ ∀ x, Textbook.iribarren (H x) (T x) (min (cd x) (cu x)) < 1.8)
    (hH6 : ∀ x, H x ≤ 1e6) (h1 : ∀ x, 1 ≤ c1 x) (h2 : ∀ x, 3 ≤ c2 x) (h3 : ∀ x, 0 ≤ c3 x) (h4 : ∀ x, 1 ≤ c4 x)
    (h23 : ∀ x, 15 / 7 * c3 x ≤ c2 x) (h24 : ∀ x, c2 x * c4 x ≤ 10) (hlo : ∀ x, 1e-2 ≤ gf x * H x) :
    ∃ r : X → ℝ, Continuous r ∧ ∀ x, ∃ (z : ℝ) (f : Bool),
    (RunupEurOtop2018.calculate_wave_runup_height_z2p (fin (H x)) (fin (T x)) (fin (b x)) (gB x)
        (gamma_f := fin (gf x)) (B_berm := fin (B x)) (db := fin (db x)) (cot_alpha_down := fin (cd x)) (cot_alpha_up := fin (cu x))
        (c1 := fin (c1 x)) (c2 := fin (c2 x)) (c3 := fin (c3 x)) (c4 := fin (c4 x)) (use_best_fit := bf)).res =
        .ok (fin z, f) ∧
    |z - r x| ≤ 1e-4 := by
  have ho := fun x => (C78_obliqueness_eurotop2018 (b x) (gf x)).1
  have kB : Continuous fun x => Published.obliqueness (if 0.6 < gf x then 0.0022 else 0.0063) (b x) := by
    unfold Published.obliqueness
    rcases hf6 with h | h
    · have e : (fun x => 1 - (if 0.6 < gf x then (0.0022 : ℝ) else 0.0063) * min |b x| 80) =
          fun x => 1 - 0.0063 * min |b x| 80 := funext fun x => by rw [if_neg (not_lt.mpr (h x))]
      rw [e]; fun_prop
    · have e : (fun x => 1 - (if 0.6 < gf x then (0.0022 : ℝ) else 0.0063) * min |b x| 80) =
          fun x => 1 - 0.0022 * min |b x| 80 := funext fun x => by rw [if_pos (h x)]
      rw [e]; fun_prop
  have hB : ∀ x, 0.4 ≤ Published.obliqueness (if 0.6 < gf x then 0.0022 else 0.0063) (b x) ∧
      Published.obliqueness (if 0.6 < gf x then 0.0022 else 0.0063) (b x) ≤ 1 := by
    intro x
    unfold Published.obliqueness
    have m80 : min |b x| 80 ≤ 80 := min_le_right _ _
    have m0 : 0 ≤ min |b x| 80 := le_min (abs_nonneg _) (by norm_num)
    generalize min |b x| 80 = m at *
    split_ifs <;> norm_num <;> constructor <;> linarith
  obtain ⟨G, eG⟩ : ∃ G : X → ℝ, ∀ x, Published.obliqueness (if 0.6 < gf x then 0.0022 else 0.0063) (b x) = G x :=
    ⟨_, fun _ => rfl⟩
  simp only [eG] at kB hB ho
  have hB0 : ∀ x, 0 < G x := fun x => lt_of_lt_of_le (by norm_num) (hB x).1
  have hlo' : ∀ x, 4e-3 ≤ gf x * G x * H x := fun x => by
    have f0 : 0 < gf x := lt_of_lt_of_le (by norm_num) (hf x)
    have := kH.2 x
    have : gf x * H x * 0.4 ≤ gf x * H x * G x := mul_le_mul_of_nonneg_left (hB x).1 (by positivity)
    have h := hlo x
    norm_num at this h ⊢
    linarith
  obtain ⟨a1, e1⟩ : ∃ a : X → ℝ, ∀ x, (if bf then 1.65 else c1 x) = a x := ⟨_, fun _ => rfl⟩
  obtain ⟨a2, e2⟩ : ∃ a : X → ℝ, ∀ x, (if bf then 4.0 else c2 x) = a x := ⟨_, fun _ => rfl⟩
  obtain ⟨a3, e3⟩ : ∃ a : X → ℝ, ∀ x, (if bf then 1.5 else c3 x) = a x := ⟨_, fun _ => rfl⟩
  obtain ⟨a4, e4⟩ : ∃ a : X → ℝ, ∀ x, (if bf then 1.0 else c4 x) = a x := ⟨_, fun _ => rfl⟩
  have q1 : Continuous a1 ∧ ∀ x, 1 ≤ a1 x := by
    simp only [← funext e1]; cases bf
    · exact ⟨k1, h1⟩
    · exact ⟨continuous_const, fun _ => by norm_num⟩
  have q2 : Continuous a2 ∧ ∀ x, 3 ≤ a2 x := by
    simp only [← funext e2]; cases bf
    · exact ⟨k2, h2⟩
    · exact ⟨continuous_const, fun _ => by norm_num⟩
  have q3 : Continuous a3 ∧ ∀ x, 0 ≤ a3 x := by
    simp only [← funext e3]; cases bf
    · exact ⟨k3, h3⟩
    · exact ⟨continuous_const, fun _ => by norm_num⟩
  have q4 : Continuous a4 ∧ ∀ x, 1 ≤ a4 x := by
    simp only [← funext e4]; cases bf
    · exact ⟨k4, h4⟩
    · exact ⟨continuous_const, fun _ => by norm_num⟩
  have q23 : ∀ x, 15 / 7 * a3 x ≤ a2 x := fun x => by
    rw [← e2, ← e3]; cases bf
    · exact h23 x
    · norm_num
  have q24 : ∀ x, a2 x * a4 x ≤ 10 := fun x => by
    rw [← e2, ← e4]; cases bf
    · exact h24 x
    · norm_num
  have hk : ∀ x, RunupEurOtop2018.check_best_fit (fin (c1 x)) (fin (c2 x)) (fin (c3 x)) (fin (c4 x)) bf =
      (fin (a1 x), fin (a2 x), fin (a3 x), fin (a4 x)) := fun x => by
    rw [← e1, ← e2, ← e3, ← e4]
    unfold RunupEurOtop2018.check_best_fit
    cases bf <;> rfl
  have hs : ∀ x, gf x = 1 ∨ Textbook.iribarren (H x) (T x) (min (cd x) (cu x)) < 1.8 := fun x =>
    hr.imp (fun h => h x) (fun h => h x)
  have hr' : ∀ x, gf x = 1 ∨ Textbook.iribarren (H x) (T x) (min (cd x) (cu x)) ≤ 10 := fun x =>
    (hs x).imp_right fun h => h.le.trans (by norm_num)
  have b0 : ∀ x, 0 < Published.bermFactor (H x) (cd x) (cu x) (B x) (db x) := fun x =>
    lt_of_lt_of_le (by norm_num) (Published.bermFactor_bounds _ _ _ _ _).1
  have b1 : ∀ x, Published.bermFactor (H x) (cd x) (cu x) (B x) (db x) ≤ 1 := fun x =>
    (Published.bermFactor_bounds _ _ _ _ _).2
  have kF : Continuous fun x => Published.bermFactor (H x) (cd x) (cu x) (B x) (db x) := by
    have a1 := kH.1
    have a2 := kcd.1
    have a3 := kcu.1
    have n1 : ∀ x, H x * cd x + B x + H x * cu x ≠ 0 := fun x => by
      have := kH.2 x
      have := kcd.2 x
      have := kcu.2 x
      have := hW x
      positivity
    have n2 : ∀ x, 2 * H x ≠ 0 := fun x => by
      have := kH.2 x
      positivity
    have d1 : Continuous fun x => B x / (H x * cd x + B x + H x * cu x) := Continuous.div kW (by fun_prop) n1
    have d2 : Continuous fun x => Real.pi * db x / (2 * H x) := Continuous.div (by fun_prop) (by fun_prop) n2
    unfold Published.bermFactor
    fun_prop
  have p1 : ∀ x, 0 < a1 x * Published.bermFactor (H x) (cd x) (cu x) (B x) (db x) := fun x =>
    mul_pos (by linarith [q1.2 x]) (b0 x)
  have p2 : ∀ x, 0 < a2 x := fun x => by linarith [q2.2 x]
  have p4 : ∀ x, 0 < a4 x := fun x => by linarith [q4.2 x]
  choose p hp hfp hu z f hz ha using fun x => RunupTaw2002.berm_settles (gB := G x) (db := db x) (B := B x) (c1 := a1 x)
    (c2 := a2 x) (c3 := a3 x) (c4 := a4 x) (kH.2 x) (kT.2 x) (kcd.2 x) (kcu.2 x) (hcc x) (hcc' x) (hf x) (hf1 x)
    (hB0 x) (hB x).2 (hd0 x) (hd x) (hl x) (hs x) (hH6 x) (hlo' x) (q3.2 x) (q23 x) (q1.2 x) (q2.2 x) (q4.2 x) (q24 x)
    false (hW x) rfl rfl rfl rfl
  refine ⟨p, ?_, fun x => ⟨z x, f x, ?_, ha x⟩⟩
  · refine fixed_cont (f := fun x => RunupTaw2002.next (H x) (T x) (cd x) (cu x) (gf x) (G x) (db x)
      (a1 x * Published.bermFactor (H x) (cd x) (cu x) (B x) (db x)) (a2 x) (a3 x) (a4 x)) (q := (1 : ℕ) * (1 / 3))
      (by norm_num) hp (fun x => ?_) (fun x y w hy hw => ?_) (fun x0 => ?_)
    · obtain ⟨i0, i1, i2⟩ := RunupTaw2002.xi_avg (hf x) (hf1 x) (hB0 x) (p1 x) (p2 x) (q3.2 x) (p4 x) (q23 x) (kH.2 x)
        (kT.2 x) (kcd.2 x) (kcu.2 x) (hd0 x) (hd x) (hl x) (hp x)
      rw [← RunupTaw2002.level_smooth (b0 x) (b1 x) (VdMProof.xi_pos (kH.2 x) (kT.2 x) i0)
        ((hs x).imp_right i2.trans_lt)]
      exact hfp x
    · exact RunupTaw2002.next_log (hf x) (hf1 x) (hB0 x) (p1 x) (p2 x) (q3.2 x) (p4 x) (q23 x) (kH.2 x) (kT.2 x)
        (kcd.2 x) (kcu.2 x) (hd0 x) (hd x) (hl x) 1 (hcc x) (hcc' x) (hr' x)
        (fun a b h1 h2 h3 => RunupTaw2002.rel_const (hf x) (hf1 x) (hB0 x) (p1 x) (p2 x) (q3.2 x) (p4 x) (q23 x)
          h1 h2 ((hs x).imp_right h3.trans_lt)) hy hw
    · have hb := fun x => RunupTaw2002.avg_between (kH.2 x) (hp x0) (hd0 x) (hd x) (min_le_left (cd x) (cu x))
        (min_le_right (cd x) (cu x)) (le_max_left (cd x) (cu x)) (le_max_right (cd x) (cu x))
      have lo := fun x => lt_min (kcd.2 x) (kcu.2 x)
      have kc : PositiveInput fun x => RunupTaw2002.avg (H x) (p x0) (cd x) (cu x) (db x) := by
        refine ⟨?_, fun x => (lo x).trans_le (hb x).1⟩
        unfold RunupTaw2002.avg
        have a1 := kH.1
        have a2 := kcd.1
        have a3 := kcu.1
        have pos : ∀ x, 1.5 * H x + p x0 ≠ 0 := fun x => by
          have := kH.2 x
          have := hp x0
          positivity
        exact Continuous.div (by fun_prop) (by fun_prop) pos
      have kx := irib_input kH kT kc
      have kr := roughness_input ⟨kf, fun x => lt_of_lt_of_le (by norm_num) (hf x)⟩ hf1 kx.1
      have e : ∀ x, RunupTaw2002.rough (gf x) 1 (VdMProof.xi (H x) (T x) (RunupTaw2002.avg (H x) (p x0) (cd x) (cu x)
          (db x))) = Published.roughness (gf x) (Textbook.iribarren (H x) (T x) (RunupTaw2002.avg (H x) (p x0) (cd x)
          (cu x) (db x))) := fun x => by
        rw [← RangeProof.irib_eq, FormulaProof.rough_published (hf1 x) ((hr' x).imp_right fun h => Or.inr ⟨rfl,
          (irib_c (kH.2 x) (kT.2 x) (lo x) (hb x).1).trans h⟩), one_mul]
      unfold RunupTaw2002.next RunupTaw2002.rel RunupTaw2002.ra RunupTaw2002.rb
      simp only [e]
      simp only [← RangeProof.irib_eq]
      have kx' := kx.1.continuousAt (x := x0)
      have kr' := kr.1.continuousAt (x := x0)
      inputs [kH, kx] x0
      have := q1.1
      have := q2.1
      have := q3.1
      have := q4.1
      cont
  · rw [← hz]
    unfold RunupEurOtop2018.calculate_wave_runup_height_z2p
      RunupEurOtop2018.calculate_dimensionless_wave_runup_height_z2p
    dsimp only
    rw [ho, hk]
    rfl

open CompositeCase in
/-- a case meeting the hypotheses: 1:3 below and 1:4 above, all obliquenesses -/
example := C95_composite_eurotop2018_partial (X := ℝ) (b := id) (c1 := fun _ => 1.75) (c2 := fun _ => 4.3)
  (c3 := fun _ => 1.5) (c4 := fun _ => 1.07) (gf := fun _ => 0.6) (db := fun _ => 1) (fun _ => nan) false
  (const_input (a := 2) (by norm_num)) (const_input (a := 6) (by norm_num)) (const_input (a := 3) (by norm_num))
  (const_input (a := 4) (by norm_num)) continuous_const continuous_id continuous_const continuous_const
  continuous_const continuous_const continuous_const (fun _ => by norm_num) (fun _ => by norm_num)
  (fun _ => by norm_num) (fun _ => by norm_num) (Or.inl fun _ => le_rfl) (fun _ => by norm_num) (fun _ => by norm_num)
  (fun _ => flat) (Or.inr fun _ => steep) (fun _ => by norm_num) (fun _ => by norm_num) (fun _ => by norm_num)
  (fun _ => by norm_num) (fun _ => by norm_num) (fun _ => by norm_num) (fun _ => by norm_num) (fun _ => by norm_num)

open CompositeCase in
/-- a case meeting the hypotheses: smooth slopes of 1:3 and 1:4, all obliquenesses, a berm of 5 m -/
example := C95_composite_eurotop2018_berm_partial (X := ℝ) (b := id) (c1 := fun _ => 1.75) (c2 := fun _ => 4.3)
  (c3 := fun _ => 1.5) (c4 := fun _ => 1.07) (gf := fun _ => 1) (B := fun _ => 5) (db := fun _ => 1) (fun _ => nan) false
  (const_input (a := 2) (by norm_num)) (const_input (a := 6) (by norm_num)) (const_input (a := 3) (by norm_num))
  (const_input (a := 4) (by norm_num)) continuous_const continuous_id continuous_const continuous_const
  continuous_const continuous_const continuous_const continuous_const (fun _ => by norm_num) (fun _ => by norm_num)
  (fun _ => by norm_num) (fun _ => by norm_num) (Or.inr fun _ => by norm_num) (fun _ => by norm_num)
  (fun _ => by norm_num) (fun _ => by norm_num) (fun _ => flat) (Or.inl fun _ => rfl) (fun _ => by norm_num)
  (fun _ => by norm_num) (fun _ => by norm_num) (fun _ => by norm_num) (fun _ => by norm_num) (fun _ => by norm_num)
  (fun _ => by norm_num) (fun _ => by norm_num)
end
