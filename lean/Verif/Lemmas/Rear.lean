import Verif.Lemmas.Runup
import Mathlib.Analysis.Real.Pi.Bounds

/-! # The loops of the rear-slope wave height solvers -/

open Classical
open PF
open CorePhysics
noncomputable section

namespace RearProof

section
variable {step : RearState → RearState} {F Z : ℝ → ℝ} {x0 t : ℝ} (hx : 0 < x0)
  (hF : ∀ x, 0 < x → 0 < F x)
  (hs : ∀ k i0 z x, 0 < x → step ⟨k, fin x, i0, z⟩ = ⟨k + 1, fin (F x), fin x, some (fin (Z x))⟩)
include hx hF

theorem it_pos (k : ℕ) : 0 < F^[k] x0 := by
  induction k with
  | zero => exact hx
  | succ k ih => rw [Function.iterate_succ_apply']; exact hF _ ih

include hs

theorem rear_iter (i : PF) (k : ℕ) : step^[k + 1] ⟨0, fin x0, i, none⟩ =
    ⟨k + 1, fin (F^[k + 1] x0), fin (F^[k] x0), some (fin (Z (F^[k] x0)))⟩ := by
  induction k with
  | zero => exact hs 0 i none x0 hx
  | succ k ih =>
    rw [Function.iterate_succ_apply', ih, hs _ _ _ _ (it_pos hx hF (k + 1)),
      Function.iterate_succ_apply' F (k + 1)]

theorem go_iff (i : PF) (k : ℕ) : RearState.go (fin t) (step^[k + 1] ⟨0, fin x0, i, none⟩) ↔
    t < |F^[k + 1] x0 - F^[k] x0| := by
  rw [rear_iter hx hF hs]
  unfold RearState.go
  rw [sub_fin, abs_fin, gt_fin]

theorem go_start : RearState.go (fin t) ⟨0, fin x0, fin x0 + pinf, none⟩ := trivial

theorem rear_loop {n : ℕ} (hn : 1 ≤ n) : ∃ k < n,
    whileIter n (RearState.go (fin t)) step ⟨0, fin x0, fin x0 + pinf, none⟩ =
      ⟨k + 1, fin (F^[k + 1] x0), fin (F^[k] x0), some (fin (Z (F^[k] x0)))⟩ ∧
    (k + 1 = n ∨ |F^[k + 1] x0 - F^[k] x0| ≤ t) ∧
    ∀ j < k, t < |F^[j + 1] x0 - F^[j] x0| := by
  obtain ⟨k, hk, e, hc, hx2⟩ := whileIter_spec (RearState.go (fin t)) step n
    ⟨0, fin x0, fin x0 + pinf, none⟩
  cases k with
  | zero =>
    rcases hx2 with h | h
    · omega
    · exact absurd (go_start hx hF hs) h
  | succ k =>
    refine ⟨k, by omega, by rw [e, rear_iter hx hF hs], ?_, fun j hj => ?_⟩
    · rcases hx2 with h | h
      · exact Or.inl h
      · rw [go_iff hx hF hs, not_lt] at h; exact Or.inr h
    · rw [← go_iff hx hF hs (fin x0 + pinf)]; exact hc _ (by omega)

end

/-- the non-convergence warning -/
def nonconv : Warn := .text "Maximum number of iterations reached, convergence not achieved"

@[simp] theorem check07_res (a b c d e f g h i j k l : PF) :
    (VanGent2007Rear.check_validity_range a b c d e f g h i j k l).res = .ok () := by
  simp [VanGent2007Rear.check_validity_range]

@[simp] theorem check07_bind {β} (a b c d e f g h i j k l : PF) (q : Unit → PyM β) :
    (VanGent2007Rear.check_validity_range a b c d e f g h i j k l >>= q).res = (q ()).res :=
  PyM.bind_res_of_ok (check07_res ..) q

theorem given_no_text (given : List PF) (n f : String) (v lo hi : PF) :
    nonconv ∉ (CoreUtility.check_if_given given n f v lo hi).warns := by
  rw [check_if_given_warns]; split_ifs <;> simp [nonconv]

theorem check07_no_text (a b c d e f g h i j k l : PF) :
    nonconv ∉ (VanGent2007Rear.check_validity_range a b c d e f g h i j k l).warns := by
  simp [VanGent2007Rear.check_validity_range, given_no_text]

@[simp] theorem check04_res (a b c d e f g h i j k l m : PF) :
    (VanGentPozueta2004.check_validity_range a b c d e f g h i j k l m).res = .ok () := by
  simp [VanGentPozueta2004.check_validity_range]

@[simp] theorem check04_bind {β} (a b c d e f g h i j k l m : PF) (q : Unit → PyM β) :
    (VanGentPozueta2004.check_validity_range a b c d e f g h i j k l m >>= q).res = (q ()).res :=
  PyM.bind_res_of_ok (check04_res ..) q

theorem check04_no_text (a b c d e f g h i j k l m : PF) :
    nonconv ∉ (VanGentPozueta2004.check_validity_range a b c d e f g h i j k l m).warns := by
  simp [VanGentPozueta2004.check_validity_range, given_no_text]

/-- run-up of 4 m, 10 s waves on a 1:2 slope with roughness 0.5 exceeds a crest at 2 m; used to
show that the hypotheses of the theorems can be met -/
theorem sample_runup : ∃ z : ℝ, 2 < z ∧
    VanGent2001.calculate_wave_runup_height_z1p (fin 4) (fin 10) (fin 0.5) (fin 2) = fin z := by
  refine ⟨RunupProof.rf 1.45 5.1 (VdMProof.xi 4 10 2) * 0.5 * 4, ?_, ?_⟩
  · have h1 : 1 ≤ VdMProof.xi 4 10 2 := by
      unfold VdMProof.xi
      have hpi := Real.pi_pos
      have hs : √(2 * Real.pi / 9.81 * 4 / 10 ^ 2) ≤ 0.5 := by
        rw [Real.sqrt_le_left (by norm_num)]
        have := Real.pi_lt_four
        rw [div_mul_eq_mul_div, div_div, div_le_iff₀ (by norm_num)]
        linarith
      rw [le_div_iff₀ (Real.sqrt_pos.mpr (by positivity))]
      linarith
    have h2 := RunupProof.rf_mono (c0 := 1.45) (c1 := 5.1) (by norm_num) (by norm_num) one_pos h1
    have h3 : RunupProof.rf 1.45 5.1 1 = 1.45 := by
      unfold RunupProof.rf; rw [if_pos (by norm_num)]; norm_num
    rw [h3] at h2
    linarith
  · unfold VanGent2001.calculate_wave_runup_height_z1p
    simp only [sci_eq]
    exact RunupProof.zX_eval (by norm_num) (by norm_num) (by norm_num) (by norm_num) (by norm_num)

end RearProof
end
