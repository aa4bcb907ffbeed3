import Verif.Props.Worse

/-!
# C80 with berms: worse conditions never give less run-up or overtopping

As in `Verif.Props.Worse`, now also with the reduction by a berm given (`gamma_b`); less reduction is worse.
The roughness factor must be the published one (as in C78): a smooth slope, breaker parameter `γ_b ξ` below
1.8, or no berm and Iribarren number at most 10. On a rough slope with a berm the claim is false from
`γ_b ξ = 1.8` on: see `C80_higher_waves_berm_refuted`.
-/

open Classical
open PF
open CorePhysics CoreUtility WorseProof
noncomputable section

namespace WorseProof
open Published (roughness)

theorem irib_div (H T c b : ℝ) : Textbook.iribarren H T (c / b) = b * Textbook.iribarren H T c := by
  unfold Textbook.iribarren
  rw [div_mul_eq_mul_div, one_div_div, mul_one_div]

theorem div_le_berm {c c' b b' : ℝ} (hc' : 0 < c') (hcc : c' ≤ c) (hb : 0 < b) (hbb : b ≤ b') :
    0 < c' / b' ∧ c' / b' ≤ c / b := by
  have := hc'.trans_le hcc
  have := hb.trans_le hbb
  exact ⟨by positivity, by gcongr⟩

/-- `rough_conditions` with a berm -/
theorem rough_berm {H H' T T' c c' f f' b b' : ℝ} (hH : 0 < H) (hHH : H ≤ H') (hT : 0 < T) (hTT : T ≤ T')
    (hc' : 0 < c') (hcc : c' ≤ c) (hf : 0.18 ≤ f) (hff : f ≤ f') (hf1 : f' ≤ 1) (hb : 0 < b) (hbb : b ≤ b') :
    H * roughness f (b * Textbook.iribarren H T c) ≤ H' * roughness f' (b' * Textbook.iribarren H' T' c') ∧
    H * (b * Textbook.iribarren H T c) * roughness f (b * Textbook.iribarren H T c) ≤
      H' * (b' * Textbook.iribarren H' T' c') * roughness f' (b' * Textbook.iribarren H' T' c') := by
  obtain ⟨k0, k⟩ := div_le_berm hc' hcc hb hbb
  have := rough_conditions hH hHH hT hTT k0 k hf hff hf1
  simpa only [irib_div] using this

theorem breaking_berm {k c b r gB gv x R H g : ℝ} :
    Published.breakingDischarge k c b r gB gv x (R / H) * √(g * H ^ 3) =
      0.067 * (b * (√(g * H ^ 3) * (1 / √(1 / c) * x))) *
        Real.exp (-(k * R / (H * (b * x) * r * (gB * gv))) ^ (1 : ℝ)) := by
  unfold Published.breakingDischarge
  rw [Real.rpow_one]
  have e : -k * (R / H) / (x * b * r * gB * gv) = -(k * R / (H * (b * x) * r * (gB * gv))) := by
    have : H * (b * x) * r * (gB * gv) = H * (x * b * r * gB * gv) := by ring
    rw [this, neg_mul, neg_div, div_scale]
  rw [e]
  generalize Real.exp _ = E
  ring

/-- run-up over both formulas, with a berm -/
theorem runup_step_berm {H H' T T' c c' f f' gB gB' c1 c2 c3 c4 b b' : ℝ} (hH : 0 < H) (hHH : H ≤ H')
    (hT : 0 < T) (hTT : T ≤ T') (hc' : 0 < c') (hcc : c' ≤ c) (hf : 0.18 ≤ f) (hff : f ≤ f') (hf1 : f' ≤ 1)
    (hB : 0 < gB) (hBB : gB ≤ gB') (h1 : 0 < c1) (h2 : 0 < c2) (h3 : 0 ≤ c3) (h4 : 0 < c4)
    (h23 : 15 / 7 * c3 ≤ c2) (hb : 0 < b) (hbb : b ≤ b') (hlow : 0.5 ≤ Textbook.iribarren H' T c) :
    0 < H * Published.runup c1 c2 c3 c4 b (roughness f (b * Textbook.iribarren H T c)) gB
      (Textbook.iribarren H T c) ∧
    H * Published.runup c1 c2 c3 c4 b (roughness f (b * Textbook.iribarren H T c)) gB
      (Textbook.iribarren H T c) ≤
    H' * Published.runup c1 c2 c3 c4 b' (roughness f' (b' * Textbook.iribarren H' T' c')) gB'
      (Textbook.iribarren H' T' c') := by
  have hc := hc'.trans_le hcc
  have hH' := hH.trans_le hHH
  have f0 : 0 < f := lt_of_lt_of_le (by norm_num) hf
  have f1 := hff.trans hf1
  have b0 := hb.trans_le hbb
  obtain ⟨-, m2⟩ := rough_berm hH hHH hT hTT hc' hcc hf hff hf1 hb hbb
  obtain ⟨a, -⟩ := irib_H hH hHH hT hc
  have m : Textbook.iribarren H' T c ≤ Textbook.iribarren H' T' c' :=
    (irib_T hH' hT hTT hc).trans (irib_c hH' (hT.trans_le hTT) hc' hcc)
  have key : H * Textbook.iribarren H T c ^ 2 = H' * Textbook.iribarren H' T c ^ 2 := by
    rw [mul_comm H, (irib_sq hH hT hc).2, mul_comm H', (irib_sq hH' hT hc).2]
  have x0 := (irib_sq hH hT hc).1
  have y0 := (irib_sq hH' hT hc).1
  generalize Textbook.iribarren H T c = x at *
  generalize Textbook.iribarren H' T c = y at *
  generalize Textbook.iribarren H' T' c' = z at *
  have by0 : 0 < b * y := by positivity
  have hr := rough_ratio hf f1 by0 (mul_le_mul_of_nonneg_left a hb.le)
  have r0 := rough_pos (p := b * x) f0 f1
  have q0 := rough_pos (p := b * y) f0 f1
  have mz : b * y ≤ b' * z := mul_le_mul hbb m y0.le b0.le
  have up : roughness f (b * y) ≤ roughness f' (b' * z) := (rough_p f1 mz).trans (rough_f hff hf1)
  generalize roughness f (b * x) = r at *
  generalize roughness f (b * y) = q at *
  generalize roughness f' (b' * z) = p at *
  have hr : r * y ≤ q * x := by
    refine le_of_mul_le_mul_left ?_ hb
    calc b * (r * y) = r * (b * y) := by ring
      _ ≤ q * (b * x) := hr
      _ = b * (q * x) := by ring
  have g0 := G_pos h3 h23 h2 hlow
  have gx := G_pos h3 h23 h2 (hlow.trans a)
  have gr := G_ratio h3 h23 hlow a
  have gm := G_mono (c2 := c2) h3 y0 m
  have s : H * r * G c2 c3 x ≤ H' * q * G c2 c3 y := by
    have : H * r * G c2 c3 x * x ^ 2 * y ^ 2 ≤ H' * q * G c2 c3 y * x ^ 2 * y ^ 2 := by
      calc H * r * G c2 c3 x * x ^ 2 * y ^ 2 = (H * x ^ 2) * ((r * y) * (y * G c2 c3 x)) := by ring
        _ ≤ (H * x ^ 2) * ((q * x) * (x * G c2 c3 y)) := by gcongr
        _ = H' * q * G c2 c3 y * x ^ 2 * y ^ 2 := by rw [key]; ring
    exact le_of_mul_le_mul_right (by rwa [mul_assoc, mul_assoc (H' * q * _)] at this) (by positivity)
  have p0 := q0.trans_le up
  have B0 := hB.trans_le hBB
  have s' : H * r * G c2 c3 x ≤ H' * p * G c2 c3 z := s.trans (by gcongr)
  unfold Published.runup
  have e : ∀ x, c2 - c3 / √x = G c2 c3 x := fun _ => rfl
  rw [e, e, mul_min_of_nonneg _ _ hH.le, mul_min_of_nonneg _ _ hH'.le]
  refine ⟨lt_min (by positivity) (by positivity), min_le_min ?_ ?_⟩
  · calc H * (c1 * b * r * gB * x) = c1 * gB * (H * (b * x) * r) := by ring
      _ ≤ c1 * gB' * (H' * (b' * z) * p) := by
        have : 0 ≤ H * (b * x) * r := by positivity
        gcongr
      _ = _ := by ring
  · calc H * (c4 * r * gB * G c2 c3 x) = c4 * gB * (H * r * G c2 c3 x) := by ring
      _ ≤ c4 * gB' * (H' * p * G c2 c3 z) := by
        have : 0 ≤ H * r * G c2 c3 x := by positivity
        gcongr
      _ = _ := by ring

/-- the same, first period, slope and berm, then the wave height -/
theorem runup_berm {H H' T T' c c' f f' gB gB' c1 c2 c3 c4 b b' : ℝ} (hH : 0 < H) (hHH : H ≤ H')
    (hT : 0 < T) (hTT : T ≤ T') (hc' : 0 < c') (hcc : c' ≤ c) (hf : 0.18 ≤ f) (hff : f ≤ f') (hf1 : f' ≤ 1)
    (hB : 0 < gB) (hBB : gB ≤ gB') (h1 : 0 < c1) (h2 : 0 < c2) (h3 : 0 ≤ c3) (h4 : 0 < c4)
    (h23 : 15 / 7 * c3 ≤ c2) (hb : 0 < b) (hbb : b ≤ b') (hl : 0.5 ≤ Textbook.iribarren H T c)
    (hl' : 0.5 ≤ Textbook.iribarren H' T' c') :
    0 < H * Published.runup c1 c2 c3 c4 b (roughness f (b * Textbook.iribarren H T c)) gB
      (Textbook.iribarren H T c) ∧
    H * Published.runup c1 c2 c3 c4 b (roughness f (b * Textbook.iribarren H T c)) gB
      (Textbook.iribarren H T c) ≤
    H' * Published.runup c1 c2 c3 c4 b' (roughness f' (b' * Textbook.iribarren H' T' c')) gB'
      (Textbook.iribarren H' T' c') := by
  have a := runup_step_berm hH le_rfl hT hTT hc' hcc hf hff hf1 hB hBB h1 h2 h3 h4 h23 hb hbb hl
  have b := runup_step_berm hH hHH (hT.trans_le hTT) le_rfl hc' le_rfl (hf.trans hff) le_rfl hf1
    (hB.trans_le hBB) le_rfl h1 h2 h3 h4 h23 (hb.trans_le hbb) le_rfl hl'
  exact ⟨a.1, a.2.trans b.2⟩
end WorseProof

section
variable (H H' T T' c c' gf gf' gB gB' gb gb' : ℝ) (hH : 0 < H) (hHH : H ≤ H') (hT : 0 < T) (hTT : T ≤ T')
  (hc' : 0 < c') (hcc : c' ≤ c) (hf : 0.18 ≤ gf) (hff : gf ≤ gf') (hf1 : gf' ≤ 1) (hB : 0 < gB)
  (hBB : gB ≤ gB') (hb : 0 < gb) (hbb : gb ≤ gb') (hb1 : gb' ≤ 1)
  (hr : gf = 1 ∨ gb * Textbook.iribarren H T c < 1.8 ∨ (gb = 1 ∧ Textbook.iribarren H T c ≤ 10))
  (hr' : gf' = 1 ∨ gb' * Textbook.iribarren H' T' c' < 1.8 ∨ (gb' = 1 ∧ Textbook.iribarren H' T' c' ≤ 10))
include hH hHH hT hTT hc' hcc hf hff hf1 hB hBB hb hbb hr hr'

include hb1 in
/-- C80 (missing: rough slopes with Iribarren numbers above 10, or with a berm and `γ_b ξ` from 1.8 on, where it
is false): overtopping by TAW (2002), with berms -/
theorem C80_taw_overtopping_berm_partial (gv gv' R R' s g : ℝ) (beta B db : PF) (bf : Bool) (hv : 0 < gv)
    (hvv : gv ≤ gv') (hR : 0 ≤ R') (hRR : R' ≤ R) (hs : s = 0 ∨ bf = true) (hs7 : -7 ≤ s) (hg : 0 < g) :
    ∃ (q q' : ℝ) (f f' : Bool), 0 < q ∧ q ≤ q' ∧
      (OvertoppingTaw2002.calculate_overtopping_discharge_q (fin H) (fin T) (fin R) (fin c) nan nan beta B db
        (fin gB) (fin gb) (fin gf) (fin gv) (fin s) (fin g) bf).res = .ok (fin q, f) ∧
      (OvertoppingTaw2002.calculate_overtopping_discharge_q (fin H') (fin T') (fin R') (fin c') nan nan beta B
        db (fin gB') (fin gb') (fin gf') (fin gv') (fin s) (fin g) bf).res = .ok (fin q', f') := by
  have hc := hc'.trans_le hcc
  have hH' := hH.trans_le hHH
  have hT' := hT.trans_le hTT
  have f0 : 0 < gf := lt_of_lt_of_le (by norm_num) hf
  have f0' := f0.trans_le hff
  have B0 := hB.trans_le hBB
  have v0 := hv.trans_le hvv
  have b0 := hb.trans_le hbb
  obtain ⟨q, f, h1, x, r, a, b, hx, hrr, ha, hb', h2, -⟩ := C78_taw_discharge_partial H T c gf gv gB gb s beta
    B db bf hH hT hc f0 (hff.trans hf1) hv hB hb (hbb.trans hb1) hs hr R g hg
  obtain ⟨q', f', h1', x', r', a', b', hx', hrr', ha', hb'', h2', -⟩ := C78_taw_discharge_partial H' T' c' gf'
    gv' gB' gb' s beta B db bf hH' hT' hc' f0' hf1 v0 B0 b0 hb1 hs hr' R' g hg
  have S : 0 < √(g * H ^ 3) := by positivity
  have S' : 0 < √(g * H' ^ 3) := by positivity
  rw [div_eq_iff S.ne', min_mul_of_nonneg _ _ S.le] at h2
  rw [div_eq_iff S'.ne', min_mul_of_nonneg _ _ S'.le] at h2'
  obtain ⟨m1, m2⟩ := rough_berm hH hHH hT hTT hc' hcc hf hff hf1 hb hbb
  have x0 := (irib_sq hH hT hc).1
  have fr := front hH hHH hT hTT hc' hcc hg
  rw [← hx, ← hrr, ← hx', ← hrr'] at m1 m2
  rw [← hx, ← hx'] at fr
  have r0 : 0 < r := hrr ▸ rough_pos f0 (hff.trans hf1)
  rw [← hx] at x0
  have sc : 0 < √(1 / c) := Real.sqrt_pos.mpr (by positivity)
  have k1 : (0 : ℝ) < (if bf then 4.75 else 4.3) + 0.5 * s := by split_ifs <;> norm_num <;> linarith
  have k2 : (0 : ℝ) < (if bf then 2.6 else 2.3) + 0.35 * s := by
    rcases hs with rfl | rfl
    · split_ifs <;> norm_num
    · norm_num; linarith
  refine ⟨q, q', f, f', ?_, ?_, h1, h1'⟩
  · rw [h2, ha, hb', breaking_berm, maximum_scaled]
    exact lt_min (by positivity) (by positivity)
  · rw [h2, h2', ha, hb', ha', hb'', breaking_berm, maximum_scaled, breaking_berm, maximum_scaled]
    refine min_le_min (damp (by positivity) ?_ k1.le hR hRR (by positivity) ?_ zero_le_one)
      (damp (by positivity) ?_ k2.le hR hRR (by positivity) ?_ zero_le_one)
    · exact mul_le_mul_of_nonneg_left (mul_le_mul hbb fr (by positivity) b0.le) (by norm_num)
    · have : 0 ≤ H' * (gb' * x') * r' := le_trans (by positivity) m2
      gcongr
    · have := front_max hH hHH hg
      gcongr
    · have : 0 ≤ H' * r' := le_trans (by positivity) m1
      gcongr

include hb1 in
/-- C80 (missing: as for the discharge, negative crest levels): the crest level by TAW (2002) for the same
discharge, with berms -/
theorem C80_taw_freeboard_berm_partial (gv gv' q s : ℝ) (beta B db : PF) (bf : Bool) (hv : 0 < gv)
    (hvv : gv ≤ gv') (hq : 0 < q) (hs : s = 0 ∨ bf = true) (hs7 : -7 ≤ s) :
    ∃ (R R' : ℝ) (f f' : Bool), (0 ≤ R' → R ≤ R') ∧
      (OvertoppingTaw2002.calculate_crest_freeboard_Rc (fin H) (fin T) (fin q) (fin c) nan nan beta B db
        (fin gB) (fin gb) (fin gf) (fin gv) (fin s) (use_best_fit := bf)).res = .ok (fin R, f) ∧
      (OvertoppingTaw2002.calculate_crest_freeboard_Rc (fin H') (fin T') (fin q) (fin c') nan nan beta B
        db (fin gB') (fin gb') (fin gf') (fin gv') (fin s) (use_best_fit := bf)).res = .ok (fin R', f') := by
  have hc := hc'.trans_le hcc
  have hH' := hH.trans_le hHH
  have hT' := hT.trans_le hTT
  have f0 : 0 < gf := lt_of_lt_of_le (by norm_num) hf
  have f0' := f0.trans_le hff
  have B0 := hB.trans_le hBB
  have v0 := hv.trans_le hvv
  have b0 := hb.trans_le hbb
  obtain ⟨R, f, h1, -⟩ := C78_taw_freeboard_partial H T c gf gv gB gb s beta
    B db bf hH hT hc f0 (hff.trans hf1) hv hB hb (hbb.trans hb1) hs hr q hq hs7
  obtain ⟨R', f', h1', -⟩ := C78_taw_freeboard_partial H' T' c' gf' gv' gB' gb' s beta
    B db bf hH' hT' hc' f0' hf1 v0 B0 b0 hb1 hs hr' q hq hs7
  refine ⟨R, R', f, f', fun hR => ?_, h1, h1'⟩
  by_contra hlt
  have hlt := not_le.mp hlt
  have d := OvertoppingTawProofs.C49_discharge_of_freeboard_partial H T q gf gv s (fin c) nan nan beta
    B db (fin gB) (fin gb) bf hH hT f0 (hff.trans hf1) hv hs7 (Or.inr ⟨_, rfl, hB⟩)
    (Or.inr ⟨_, rfl, hb, hbb.trans hb1⟩) _ _ hq h1
  have d' := OvertoppingTawProofs.C49_discharge_of_freeboard_partial H' T' q gf' gv' s (fin c') nan nan beta
    B db (fin gB') (fin gb') bf hH' hT' f0' hf1 v0 hs7 (Or.inr ⟨_, rfl, B0⟩)
    (Or.inr ⟨_, rfl, b0, hb1⟩) _ _ hq h1'
  obtain ⟨a, a', fa, fa', -, h, ea, ea'⟩ := C80_taw_overtopping_berm_partial H H' T T' c c' gf gf' gB gB' gb gb'
    hH hHH hT hTT hc' hcc hf hff hf1 hB hBB hb hbb hb1 hr hr' gv gv' R' R' s 9.81 beta B db bf hv hvv hR le_rfl hs
    hs7 (by norm_num)
  obtain ⟨b, fb, -, hb', eb⟩ := OvertoppingTawProofs.C50_decreasing H T R' R gf gv s 9.81 (fin c) nan nan beta B
    db (fin gB) (fin gb) bf hH hT f0 (hff.trans hf1) hv hs7 (Or.inr ⟨_, rfl, hB⟩)
    (Or.inr ⟨_, rfl, hb, hbb.trans hb1⟩) (by norm_num) a fa hlt ea
  have e1 : b = q := by
    have := eb.symm.trans d
    simpa using (congrArg (fun x => x) (Prod.mk.inj (Except.ok.inj this)).1)
  have e2 : a' = q := by
    have := ea'.symm.trans d'
    simpa using (congrArg (fun x => x) (Prod.mk.inj (Except.ok.inj this)).1)
  linarith

/-- C80 (missing: as for overtopping, Iribarren numbers below 0.5): run-up by TAW (2002), with berms -/
theorem C80_taw_runup_berm_partial (bf : Bool) (hl : 0.5 ≤ Textbook.iribarren H T c)
    (hl' : 0.5 ≤ Textbook.iribarren H' T' c') : ∃ (z z' : ℝ) (f f' : Bool), 0 < z ∧ z ≤ z' ∧
    (RunupTaw2002.calculate_wave_runup_height_z2p { Hm0 := fin H, Tmm10 := fin T, cot_alpha := fin c, gamma_f := fin gf, gamma_b := fin gb, gamma_beta := fin gB, use_best_fit := bf }).res =
      .ok (fin z, f) ∧
    (RunupTaw2002.calculate_wave_runup_height_z2p { Hm0 := fin H', Tmm10 := fin T', cot_alpha := fin c', gamma_f := fin gf', gamma_b := fin gb', gamma_beta := fin gB', use_best_fit := bf }).res =
      .ok (fin z', f') := by
  have hc := hc'.trans_le hcc
  have hH' := hH.trans_le hHH
  have hT' := hT.trans_le hTT
  obtain ⟨z, f, h1, h2⟩ := C78_runup_taw_partial H T c gf gb gB bf hH hT hc (hff.trans hf1) hr
  obtain ⟨z', f', h1', h2'⟩ := C78_runup_taw_partial H' T' c' gf' gb' gB' bf hH' hT' hc' hf1 hr'
  rw [div_eq_iff hH.ne', mul_comm] at h2
  rw [div_eq_iff hH'.ne', mul_comm] at h2'
  have c1 : (0 : ℝ) < if bf then 1.65 else 1.75 := by split_ifs <;> norm_num
  have c2 : (0 : ℝ) < if bf then 4 else 4.3 := by split_ifs <;> norm_num
  have c3 : (0 : ℝ) ≤ if bf then 1.5 else 1.6 := by split_ifs <;> norm_num
  have c23 : 15 / 7 * (if bf then 1.5 else 1.6) ≤ (if bf then 4 else 4.3 : ℝ) := by split_ifs <;> norm_num
  have s := runup_berm hH hHH hT hTT hc' hcc hf hff hf1 hB hBB c1 c2 c3 one_pos c23 hb hbb hl hl'
  exact ⟨z, z', f, f', h2 ▸ s.1, by rw [h2, h2']; exact s.2, h1, h1'⟩
end

/-- C80 (missing: as for TAW (2002)): run-up by EurOtop (2018), with berms; obliqueness is given by the angle -/
theorem C80_eurotop2018_runup_berm_partial (H H' T T' c c' gf gf' gb gb' b b' c1 c2 c3 c4 : ℝ) (gB : PF)
    (bf : Bool) (hH : 0 < H) (hHH : H ≤ H') (hT : 0 < T) (hTT : T ≤ T') (hc' : 0 < c') (hcc : c' ≤ c)
    (hf : 0.18 ≤ gf) (hff : gf ≤ gf') (hf1 : gf' ≤ 1) (hgb : 0 < gb) (hbb : gb ≤ gb') (hb : |b'| ≤ |b|)
    (hr : gf = 1 ∨ gb * Textbook.iribarren H T c < 1.8 ∨ (gb = 1 ∧ Textbook.iribarren H T c ≤ 10))
    (hr' : gf' = 1 ∨ gb' * Textbook.iribarren H' T' c' < 1.8 ∨ (gb' = 1 ∧ Textbook.iribarren H' T' c' ≤ 10))
    (hl : 0.5 ≤ Textbook.iribarren H T c) (hl' : 0.5 ≤ Textbook.iribarren H' T' c') (h1 : 0 < c1)
    (h2 : 0 < c2) (h3 : 0 ≤ c3) (h4 : 0 < c4) (h23 : 15 / 7 * c3 ≤ c2) :
    ∃ (z z' : ℝ) (f f' : Bool), 0 < z ∧ z ≤ z' ∧
      (RunupEurOtop2018.calculate_wave_runup_height_z2p (fin H) (fin T) (fin b) gB (fin gb) (fin gf)
        (cot_alpha := fin c) (c1 := fin c1) (c2 := fin c2) (c3 := fin c3) (c4 := fin c4)
        (use_best_fit := bf)).res = .ok (fin z, f) ∧
      (RunupEurOtop2018.calculate_wave_runup_height_z2p (fin H') (fin T') (fin b') gB (fin gb') (fin gf')
        (cot_alpha := fin c') (c1 := fin c1) (c2 := fin c2) (c3 := fin c3) (c4 := fin c4)
        (use_best_fit := bf)).res = .ok (fin z', f') := by
  have hc := hc'.trans_le hcc
  have hH' := hH.trans_le hHH
  have hT' := hT.trans_le hTT
  obtain ⟨z, f, e1, e2⟩ := C78_runup_eurotop2018_partial H T c gf gb b c1 c2 c3 c4 gB bf hH hT hc
    (hff.trans hf1) hr
  obtain ⟨z', f', e1', e2'⟩ := C78_runup_eurotop2018_partial H' T' c' gf' gb' b' c1 c2 c3 c4 gB bf hH' hT' hc'
    hf1 hr'
  rw [div_eq_iff hH.ne', mul_comm] at e2
  rw [div_eq_iff hH'.ne', mul_comm] at e2'
  have k1 : (0 : ℝ) < if bf then 1.65 else c1 := by split_ifs; norm_num; exact h1
  have k2 : (0 : ℝ) < if bf then 4 else c2 := by split_ifs; norm_num; exact h2
  have k3 : (0 : ℝ) ≤ if bf then 1.5 else c3 := by split_ifs; norm_num; exact h3
  have k4 : (0 : ℝ) < if bf then 1 else c4 := by split_ifs; norm_num; exact h4
  have k23 : 15 / 7 * (if bf then 1.5 else c3) ≤ (if bf then 4 else c2 : ℝ) := by
    split_ifs; norm_num; exact h23
  have m80 : min |b| 80 ≤ 80 := min_le_right _ _
  have mb : min |b'| 80 ≤ min |b| 80 := min_le_min_right _ hb
  have m0 : 0 ≤ min |b'| 80 := le_min (abs_nonneg _) (by norm_num)
  have hB : 0 < Published.obliqueness (if 0.6 < gf then 0.0022 else 0.0063) b := by
    unfold Published.obliqueness
    generalize min |b| 80 = m at *
    split_ifs <;> norm_num <;> linarith
  have hBB : Published.obliqueness (if 0.6 < gf then 0.0022 else 0.0063) b ≤
      Published.obliqueness (if 0.6 < gf' then 0.0022 else 0.0063) b' := by
    unfold Published.obliqueness
    generalize min |b| 80 = m at *
    generalize min |b'| 80 = m' at *
    split_ifs <;> norm_num <;> linarith
  have s := runup_berm hH hHH hT hTT hc' hcc hf hff hf1 hB hBB k1 k2 k3 k4 k23 hgb hbb hl hl'
  exact ⟨z, z', f, f', e2 ▸ s.1, by rw [e2, e2']; exact s.2, e1, e1'⟩

/-- Refuted: on rough slopes with a berm TAW (2002) gives less run-up for higher waves. At breaker parameter
`γ_b ξ = 1.8` the roughness factor jumps, because it is adjusted with `ξ` and not with `γ_b ξ`. Whatever the
wave height, slope, roughness and berm: waves higher by up to the factor of that jump run up less -/
theorem C80_higher_waves_berm_refuted (H H' T c gf gB gb : ℝ) (bf : Bool) (hH : 0 < H) (hT : 0 < T) (hc : 0 < c)
    (hf : 0 < gf) (hf1 : gf < 1) (hB : 0 < gB) (hb : 0 < gb) (hb1 : gb < 1)
    (hx : gb * Textbook.iribarren H T c = 1.8) (hHH : H < H')
    (hjump : H' * gf < H * (gf + 1.8 * (1 / gb - 1) * (1 - gf) / 8.2)) : ∃ (z z' : ℝ) (f f' : Bool), z' < z ∧
    (RunupTaw2002.calculate_wave_runup_height_z2p { Hm0 := fin H, Tmm10 := fin T, cot_alpha := fin c, gamma_f := fin gf, gamma_b := fin gb, gamma_beta := fin gB, use_best_fit := bf }).res =
      .ok (fin z, f) ∧
    (RunupTaw2002.calculate_wave_runup_height_z2p { Hm0 := fin H', Tmm10 := fin T, cot_alpha := fin c, gamma_f := fin gf, gamma_b := fin gb, gamma_beta := fin gB, use_best_fit := bf }).res =
      .ok (fin z', f') := by
  have hH' := hH.trans hHH
  obtain ⟨x, r, z, f, hx1, -, hr, h1, h2, -⟩ := RunupTawProofs.C46_smaller_of_two H T c gf gb gB bf hH hT hc
  obtain ⟨x', r', z', f', hx1', -, hr', h1', h2', -⟩ :=
    RunupTawProofs.C46_smaller_of_two H' T c gf gb gB bf hH' hT hc
  rw [RangeProof.irib_eval hH hT hc] at hx1
  rw [RangeProof.irib_eval hH' hT hc] at hx1'
  cases hx1
  cases hx1'
  refine ⟨z, z', f, f', ?_, h1, h1'⟩
  obtain ⟨p, e⟩ := irib_sq hH hT hc
  obtain ⟨p', e'⟩ := irib_sq hH' hT hc
  have lt : Textbook.iribarren H' T c < Textbook.iribarren H T c := by
    refine lt_of_pow_lt_pow_left₀ 2 p.le ?_
    have : Textbook.iribarren H' T c ^ 2 * H < Textbook.iribarren H' T c ^ 2 * H' := by gcongr
    rw [e', ← e] at this
    exact lt_of_mul_lt_mul_right this hH.le
  generalize Textbook.iribarren H T c = x at *
  generalize Textbook.iribarren H' T c = x' at *
  have ex : x = 1.8 / gb := by rw [eq_div_iff hb.ne', mul_comm, hx]
  rw [RunupTaw2002.rough_eval] at hr hr'
  cases hr
  cases hr'
  have l18 : gb * x' < 1.8 := by rw [← hx]; gcongr
  have e2 : RunupTaw2002.rough gf gb x = (x - 1.8) * (1 - gf) / 8.2 + gf := by
    rw [RunupTaw2002.rough, if_pos ⟨hx.ge, by rw [hx]; norm_num⟩]
  have e2' : RunupTaw2002.rough gf gb x' = gf := by
    rw [RunupTaw2002.rough, if_neg (fun h => absurd h.1 (not_le.mpr l18))]
  rw [e2] at h2
  rw [e2'] at h2'
  have er : (x - 1.8) * (1 - gf) / 8.2 + gf = gf + 1.8 * (1 / gb - 1) * (1 - gf) / 8.2 := by
    rw [ex]; ring
  rw [er] at h2
  have r0 : 0 < gf + 1.8 * (1 / gb - 1) * (1 - gf) / 8.2 :=
    pos_of_mul_pos_right (lt_of_le_of_lt (by positivity) hjump) hH.le
  generalize gf + 1.8 * (1 / gb - 1) * (1 - gf) / 8.2 = r at *
  have k1 : (0 : ℝ) < if bf then 1.65 else 1.75 := by split_ifs <;> norm_num
  have k3 : (0 : ℝ) ≤ if bf then 1.5 else 1.6 := by split_ifs <;> norm_num
  have k23 : 15 / 7 * (if bf then 1.5 else 1.6) ≤ (if bf then 4.0 else 4.3 : ℝ) := by
    split_ifs <;> norm_num
  have k2 : (0 : ℝ) < if bf then 4.0 else 4.3 := by split_ifs <;> norm_num
  have x5 : 0.5 ≤ x := by
    rw [ex, le_div_iff₀ hb]
    linarith
  have G0 := G_pos k3 k23 k2 x5
  have Gm := G_mono (c2 := (if bf then 4.0 else 4.3 : ℝ)) k3 p' lt.le
  rw [h2, h2']
  unfold G at G0 Gm
  generalize (if bf then (1.65 : ℝ) else 1.75) = a at *
  generalize (if bf then (4.0 : ℝ) else 4.3) - (if bf then (1.5 : ℝ) else 1.6) / √x = u at *
  generalize (if bf then (4.0 : ℝ) else 4.3) - (if bf then (1.5 : ℝ) else 1.6) / √x' = u' at *
  have hm : Min.min (a * gb * gf * gB * x') (gf * gB * u') ≤ gf * (Min.min (a * gb * gB * x) (gB * u)) := by
    rw [mul_min_of_nonneg _ _ hf.le]
    refine min_le_min ?_ ?_
    · calc a * gb * gf * gB * x' ≤ a * gb * gf * gB * x := by gcongr
        _ = _ := by ring
    · rw [mul_assoc]
      gcongr
  have he : Min.min (a * gb * r * gB * x) (r * gB * u) = r * Min.min (a * gb * gB * x) (gB * u) := by
    rw [mul_min_of_nonneg _ _ r0.le]
    congr 1 <;> ring
  rw [he]
  have M0 : 0 < Min.min (a * gb * gB * x) (gB * u) := lt_min (by positivity) (by positivity)
  generalize Min.min (a * gb * gB * x) (gB * u) = M at *
  calc H' * _ ≤ H' * (gf * M) := mul_le_mul_of_nonneg_left hm hH'.le
    _ = H' * gf * M := by ring
    _ < H * r * M := mul_lt_mul_of_pos_right hjump M0
    _ = _ := by ring

/-! ## Cases -/

namespace WorseProof
/-- with berms reducing to 0.7 and 0.8 the waves break on the slope -/
theorem mild_berm : 0.7 * Textbook.iribarren 2 6 3 < 1.8 := by
  have : Textbook.iribarren 2 6 3 ≤ 2 := (between (a := 0.5) (by norm_num) (by norm_num) (by norm_num)
    (by norm_num) (by norm_num) (by norm_num)).2
  norm_num at this ⊢
  linarith
theorem severe_berm : 0.5 ≤ Textbook.iribarren 3 7 3 ∧ 0.8 * Textbook.iribarren 3 7 3 < 1.8 := by
  have : 0.5 ≤ Textbook.iribarren 3 7 3 ∧ Textbook.iribarren 3 7 3 ≤ 2 := by
    apply between <;> norm_num
  refine ⟨this.1, ?_⟩
  have := this.2
  norm_num at this ⊢
  linarith
end WorseProof

example : ∃ (q q' : ℝ) (f f' : Bool), 0 < q ∧ q ≤ q' ∧
    (OvertoppingTaw2002.calculate_overtopping_discharge_q (fin 2) (fin 6) (fin 5) (fin 3) nan nan nan 0 0
      (fin 0.9) (fin 0.7) (fin 0.6) (fin 0.8) (fin 1) (fin 9.81) true).res = .ok (fin q, f) ∧
    (OvertoppingTaw2002.calculate_overtopping_discharge_q (fin 3) (fin 7) (fin 4) (fin 3) nan nan nan 0 0
      (fin 0.95) (fin 0.8) (fin 0.7) (fin 1) (fin 1) (fin 9.81) true).res = .ok (fin q', f') :=
  C80_taw_overtopping_berm_partial 2 3 6 7 3 3 0.6 0.7 0.9 0.95 0.7 0.8 (by norm_num) (by norm_num) (by norm_num)
    (by norm_num) (by norm_num) (by norm_num) (by norm_num) (by norm_num) (by norm_num) (by norm_num)
    (by norm_num) (by norm_num) (by norm_num) (by norm_num) (Or.inr (Or.inl mild_berm))
    (Or.inr (Or.inl severe_berm.2)) 0.8 1 5 4 1 9.81 nan 0 0 true (by norm_num) (by norm_num)
    (by norm_num) (by norm_num) (Or.inr rfl) (by norm_num) (by norm_num)

example : ∃ (R R' : ℝ) (f f' : Bool), (0 ≤ R' → R ≤ R') ∧
    (OvertoppingTaw2002.calculate_crest_freeboard_Rc (fin 2) (fin 6) (fin 0.01) (fin 3) nan nan nan 0 0
      (fin 0.9) (fin 0.7) (fin 0.6) (fin 0.8) (fin 0) (use_best_fit := false)).res = .ok (fin R, f) ∧
    (OvertoppingTaw2002.calculate_crest_freeboard_Rc (fin 3) (fin 7) (fin 0.01) (fin 3) nan nan nan 0 0
      (fin 0.95) (fin 0.8) (fin 0.7) (fin 1) (fin 0) (use_best_fit := false)).res = .ok (fin R', f') :=
  C80_taw_freeboard_berm_partial 2 3 6 7 3 3 0.6 0.7 0.9 0.95 0.7 0.8 (by norm_num) (by norm_num) (by norm_num)
    (by norm_num) (by norm_num) (by norm_num) (by norm_num) (by norm_num) (by norm_num) (by norm_num)
    (by norm_num) (by norm_num) (by norm_num) (by norm_num) (Or.inr (Or.inl mild_berm))
    (Or.inr (Or.inl severe_berm.2)) 0.8 1 0.01 0 nan 0 0 false (by norm_num) (by norm_num) (by norm_num)
    (Or.inl rfl) (by norm_num)

example : ∃ (z z' : ℝ) (f f' : Bool), 0 < z ∧ z ≤ z' ∧
    (RunupTaw2002.calculate_wave_runup_height_z2p { Hm0 := fin 2, Tmm10 := fin 6, cot_alpha := fin 3, gamma_f := fin 0.6, gamma_b := fin 0.7, gamma_beta := fin 0.9, use_best_fit := true }).res =
      .ok (fin z, f) ∧
    (RunupTaw2002.calculate_wave_runup_height_z2p { Hm0 := fin 3, Tmm10 := fin 7, cot_alpha := fin 3, gamma_f := fin 0.7, gamma_b := fin 0.8, gamma_beta := fin 0.95, use_best_fit := true }).res =
      .ok (fin z', f') :=
  C80_taw_runup_berm_partial 2 3 6 7 3 3 0.6 0.7 0.9 0.95 0.7 0.8 (by norm_num) (by norm_num) (by norm_num)
    (by norm_num) (by norm_num) (by norm_num) (by norm_num) (by norm_num) (by norm_num) (by norm_num)
    (by norm_num) (by norm_num) (by norm_num) (Or.inr (Or.inl mild_berm))
    (Or.inr (Or.inl severe_berm.2)) true mild.1 severe_berm.1

example : ∃ (z z' : ℝ) (f f' : Bool), 0 < z ∧ z ≤ z' ∧
    (RunupEurOtop2018.calculate_wave_runup_height_z2p (fin 2) (fin 6) (fin 30) nan (fin 0.7) (fin 0.6)
      (cot_alpha := fin 3) (c1 := fin 1.75) (c2 := fin 4.3) (c3 := fin 1.5) (c4 := fin 1.07)
      (use_best_fit := false)).res = .ok (fin z, f) ∧
    (RunupEurOtop2018.calculate_wave_runup_height_z2p (fin 3) (fin 7) (fin 20) nan (fin 0.8) (fin 0.7)
      (cot_alpha := fin 3) (c1 := fin 1.75) (c2 := fin 4.3) (c3 := fin 1.5) (c4 := fin 1.07)
      (use_best_fit := false)).res = .ok (fin z', f') :=
  C80_eurotop2018_runup_berm_partial 2 3 6 7 3 3 0.6 0.7 0.7 0.8 30 20 1.75 4.3 1.5 1.07 nan false (by norm_num)
    (by norm_num) (by norm_num) (by norm_num) (by norm_num) (by norm_num) (by norm_num) (by norm_num)
    (by norm_num) (by norm_num) (by norm_num) (by norm_num) (Or.inr (Or.inl mild_berm))
    (Or.inr (Or.inl severe_berm.2)) mild.1 severe_berm.1 (by norm_num) (by norm_num) (by norm_num) (by norm_num)
    (by norm_num)

/-- 1:3, roughness 0.5, berm 0.6: with waves of any length and the height that makes `γ_b ξ = 1.8` (here 8 s and
`H` of about 1.2 m), waves 10 % higher run up less -/
example (H : ℝ) (hH : 0 < H) (hx : 0.6 * Textbook.iribarren H 8 3 = 1.8) : ∃ (z z' : ℝ) (f f' : Bool), z' < z ∧
    (RunupTaw2002.calculate_wave_runup_height_z2p { Hm0 := fin H, Tmm10 := fin 8, cot_alpha := fin 3, gamma_f := fin 0.5, gamma_b := fin 0.6, gamma_beta := fin 1, use_best_fit := true }).res =
      .ok (fin z, f) ∧
    (RunupTaw2002.calculate_wave_runup_height_z2p { Hm0 := fin (1.1 * H), Tmm10 := fin 8, cot_alpha := fin 3, gamma_f := fin 0.5, gamma_b := fin 0.6, gamma_beta := fin 1, use_best_fit := true }).res =
      .ok (fin z', f') :=
  C80_higher_waves_berm_refuted H (1.1 * H) 8 3 0.5 1 0.6 true hH (by norm_num) (by norm_num) (by norm_num)
    (by norm_num) (by norm_num) (by norm_num) (by norm_num) hx (by norm_num; linarith) (by norm_num; linarith)
end
