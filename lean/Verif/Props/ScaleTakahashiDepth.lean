import Verif.Props.ScaleToeRear
import Verif.Props.DesignTakahashiDepth

/-! # C82: the depth above the toe found by the search of Takahashi et al. (1990) -/

open Classical
open PF Takahashi1990 CorePhysics TakahashiProof
noncomputable section

namespace TakahashiProof

/-- the search ends 1 mm beyond Hs/20 if the comparison differs there and at 2 Hs/20 -/
theorem returns_first {disper : PF → PF → PF → PF} {T Bt beta g : PF} {H D ra rw Nr v u : ℝ}
    (e3 : fin H / (calculate_buoyant_density_Delta (fin ra) (fin rw) * fin D) = fin Nr) (hH : 0.001 < H / 20)
    (n1 : ns_value disper (fin H) T (fin (H / 20)) Bt beta g = pinf)
    (n2 : ns_value disper (fin H) T (fin (H / 20 + H / 20)) Bt beta g = fin v) (hv : v ≤ Nr)
    (n3 : ns_value disper (fin H) T (fin (H / 20 + 0.001)) Bt beta g = fin u) (hu : u ≤ Nr) :
    ∃ r : PyM PF, calculate_significant_depth_above_toe_hacc disper (fin D) T (fin H) Bt (fin ra) (fin rw) beta g
      = some r ∧ r.res = .ok (fin (H / 20 + 0.001)) := by
  have e2 : fin H / 20 = fin (H / 20) := by pf_eval []
  have step : ∀ d v : ℝ, ns_value disper (fin H) T (fin (H / 20 + d)) Bt beta g = fin v → v ≤ Nr →
      ∃ w, depth_search disper (fin H) T Bt beta g (fin Nr) (fin d) (fin (H / 20)) =
        some ⟨fin (H / 20 + d), fin v, w⟩ := by
    intro d v n hv
    refine ⟨(calculate_stability_number_Ns disper (fin H) T (fin (H / 20)) Bt beta g).warns ++
      (calculate_stability_number_Ns disper (fin H) T (fin (H / 20 + d)) Bt beta g).warns, ?_⟩
    unfold depth_search
    rw [whileUnb_some]
    refine ⟨1, ?_, ?_, ?_⟩
    · rw [Function.iterate_one]
      unfold depth_step
      simp only [add_fin, n]
    · rw [n1]
      intro k
      have := k.mp (fin_lt_pinf _)
      rw [lt_fin] at this
      linarith
    · intro j hj
      obtain rfl : j = 0 := by omega
      exact Iff.rfl
  obtain ⟨w1, s1⟩ := step _ _ n2 hv
  obtain ⟨w2, s2⟩ := step _ _ n3 hu
  refine ⟨⟨w1 ++ w2, .ok (fin (H / 20 + 0.001))⟩, ?_, rfl⟩
  unfold calculate_significant_depth_above_toe_hacc
  simp only [e2, e3, s1]
  have e4 : fin (H / 20 + H / 20) - fin (H / 20) = fin (H / 20) := by rw [sub_fin, fin_inj]; ring
  have e5 : fin (H / 20) > (0.001 : PF) := hH
  have e6 : (0.001 : PF) = fin 0.001 := rfl
  rw [if_pos e5, e4, e6, s2]

/-- a solver that follows the scale: waves 6.3 m long for a period of 8 s, but 1.05 m at a depth of 10 cm -/
def scaleSolver : PF → PF → PF → PF
  | fin w, fin h, _ =>
    if w ^ 2 * h = (2 * Real.pi / 8) ^ 2 * 0.1 then fin (0.6 / h) else fin (w ^ 2 / (2 * Real.pi / 8) ^ 2)
  | _, _, _ => nan

theorem scaleSolver_scales : Scale.Dispersion scaleSolver := by
  intro lam hl w h g
  have hs := Real.sqrt_pos.mpr hl
  unfold Scale.len Scale.times
  have infs : ∀ (k : ℝ) , 0 < k → fin k * pinf = pinf ∧ fin k * ninf = ninf ∧ fin k * nan = nan := by
    intro k hk
    refine ⟨?_, ?_, rfl⟩
    · show mulInf k = _
      unfold mulInf; rw [if_pos hk]
    · show PF.neg (mulInf k) = _
      unfold mulInf; rw [if_pos hk]; rfl
  obtain ⟨a1, a2, a3⟩ := infs (1 / √lam) (by positivity)
  obtain ⟨b1, b2, b3⟩ := infs lam hl
  have c3 := (infs (1 / lam) (by positivity)).2.2
  cases w with
  | nan => rw [a3]; unfold scaleSolver; simp only [c3]
  | ninf => rw [a2]; unfold scaleSolver; simp only [c3]
  | pinf => rw [a1]; unfold scaleSolver; simp only [c3]
  | fin w =>
    cases h with
    | nan => rw [b3, mul_fin]; unfold scaleSolver; simp only [c3]
    | ninf => rw [b2, mul_fin]; unfold scaleSolver; simp only [c3]
    | pinf => rw [b1, mul_fin]; unfold scaleSolver; simp only [c3]
    | fin h =>
      rw [mul_fin, mul_fin]
      unfold scaleSolver
      have e : (1 / √lam * w) ^ 2 = w ^ 2 / lam := by
        rw [mul_pow, div_pow, Real.sq_sqrt hl.le]; ring
      have e1 : (1 / √lam * w) ^ 2 * (lam * h) = w ^ 2 * h := by rw [e]; field_simp
      dsimp only
      rw [e1, e]
      split_ifs
      · rw [mul_fin, fin_inj]; field_simp
      · rw [mul_fin, fin_inj]; field_simp

end TakahashiProof

/-- C82 refuted: the depth above the toe does not follow the scale, because the search ends in steps of 1 mm.  In the
case here the depth is 101 mm; with all lengths doubled it is 201 mm. -/
theorem C82_takahashi_depth_refuted : ∃ disper : PF → PF → PF → PF, Scale.Dispersion disper ∧
    ∃ (Dn50 Tp Hs Bt : PF) (r r' : PyM PF),
      calculate_significant_depth_above_toe_hacc disper Dn50 Tp Hs Bt (fin 2650) (fin 1025) (fin 0) (fin 9.81)
        = some r ∧
      calculate_significant_depth_above_toe_hacc disper (Scale.len 2 Dn50) (Scale.time 2 Tp) (Scale.len 2 Hs)
        (Scale.len 2 Bt) (fin 2650) (fin 1025) (fin 0) (fin 9.81) = some r' ∧
      r.res = .ok (fin 0.101) ∧ r'.res = .ok (fin 0.201) := by
  have hpi := Real.pi_pos
  have ew : 2 * PF.pi / fin 8 = fin (2 * Real.pi / 8) := by pf_eval []
  have hw0 : 0 < 2 * Real.pi / 8 := by positivity
  have d1 : scaleSolver (2 * PF.pi / fin 8) (fin (2 / 20)) (fin 9.81) = fin 6 := by
    rw [ew]; unfold scaleSolver; dsimp only
    rw [if_pos (by norm_num)]; norm_num
  have d2 : ∀ h : ℝ, h ≠ 2 / 20 → scaleSolver (2 * PF.pi / fin 8) (fin h) (fin 9.81) = fin 1 := by
    intro h hh
    rw [ew]; unfold scaleSolver; dsimp only
    rw [if_neg, div_self (by positivity)]
    intro k
    exact hh (by rw [mul_left_cancel₀ (by positivity) k]; norm_num)
  have n1 := ns_half scaleSolver (fin 8) (fin 9.81) (h := 2 / 20) (H := 2) (by norm_num) (by norm_num) d1
  have nn : ∀ h : ℝ, 0 < h → h ≤ 1 / 5 → h ≠ 2 / 20 → ∃ v, ns_value scaleSolver (fin 2) (fin 8) (fin h)
      (fin (Real.pi / 6)) (fin 0) (fin 9.81) = fin v ∧ v ≤ 20 :=
    fun h h0 h1 h2 => ns_twelfth scaleSolver (fin 8) (fin 9.81) h0 h1 (d2 h h2)
  -- the stability number follows the scale
  have sc : ∀ h : ℝ, ns_value scaleSolver (fin 4) (Scale.time 2 (fin 8)) (fin (2 * h)) (fin (2 * (Real.pi / 6))) (fin 0)
      (fin 9.81) = ns_value scaleSolver (fin 2) (fin 8) (fin h) (fin (Real.pi / 6)) (fin 0) (fin 9.81) := by
    intro h
    have k := (C82_toe_takahashi1990_partial (lam := 2) (by norm_num) scaleSolver_scales).1 (fin 2) (fin 8) (fin h)
      (fin (Real.pi / 6)) (fin 0) (fin 9.81)
    rw [Ns_res, Ns_res, Except.ok.injEq] at k
    rw [← k]
    unfold Scale.len Scale.times
    simp only [mul_fin]
    norm_num
  obtain ⟨v, n2, hv⟩ := nn (2 / 20 + 2 / 20) (by norm_num) (by norm_num) (by norm_num)
  obtain ⟨u, n3, hu⟩ := nn (2 / 20 + 0.001) (by norm_num) (by norm_num) (by norm_num)
  obtain ⟨u', n3', hu'⟩ := nn 0.1005 (by norm_num) (by norm_num) (by norm_num)
  have e3 : fin 2 / (calculate_buoyant_density_Delta (fin 2650) (fin 1025) * fin 0.01) = fin (8200 / 65) := by
    unfold calculate_buoyant_density_Delta
    pf_eval []
    norm_num
  have e3' : fin 4 / (calculate_buoyant_density_Delta (fin 2650) (fin 1025) * fin 0.02) = fin (8200 / 65) := by
    unfold calculate_buoyant_density_Delta
    pf_eval []
    norm_num
  obtain ⟨r, h1, h2⟩ := returns_first e3 (by norm_num) n1 n2 (by linarith) n3 (by linarith)
  have s1 : ns_value scaleSolver (fin 4) (Scale.time 2 (fin 8)) (fin (4 / 20)) (fin (2 * (Real.pi / 6))) (fin 0)
      (fin 9.81) = pinf := by
    rw [← n1, ← sc]; norm_num
  have s2 : ns_value scaleSolver (fin 4) (Scale.time 2 (fin 8)) (fin (4 / 20 + 4 / 20)) (fin (2 * (Real.pi / 6))) (fin 0)
      (fin 9.81) = fin v := by
    rw [← n2, ← sc]; norm_num
  have s3 : ns_value scaleSolver (fin 4) (Scale.time 2 (fin 8)) (fin (4 / 20 + 0.001)) (fin (2 * (Real.pi / 6))) (fin 0)
      (fin 9.81) = fin u' := by
    rw [← n3', ← sc]; norm_num
  obtain ⟨r', h1', h2'⟩ := returns_first e3' (by norm_num) s1 s2 (by linarith) s3 (by linarith)
  refine ⟨scaleSolver, scaleSolver_scales, fin 0.01, fin 8, fin 2, fin (Real.pi / 6), r, r', h1, ?_, ?_, ?_⟩
  · rw [← h1']
    unfold Scale.len Scale.times
    simp only [mul_fin]
    norm_num
  · rw [h2]; norm_num
  · rw [h2']; norm_num
end
