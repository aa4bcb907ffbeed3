import Verif.Py.Lemmas
import Verif.Model.CorePhysics

/-! # Helper lemmas shared by the property proofs -/

open Classical
open PF
open CorePhysics
noncomputable section

/-- the buoyant density of a submerged rock is a positive number -/
theorem Delta_eval {rr rw : ℝ} (h0 : 0 < rw) (h : rw < rr) :
    ∃ D : ℝ, 0 < D ∧ D = (rr - rw) / rw ∧
      calculate_buoyant_density_Delta (fin rr) (fin rw) = fin D := by
  refine ⟨(rr - rw) / rw, div_pos (sub_pos.mpr h) h0, rfl, ?_⟩
  unfold calculate_buoyant_density_Delta; pf_eval []

theorem stab_Hs (a b c : PF) : check_usage_stabilitynumber none (some a) (some b) (some c) =
    ⟨[], .ok (a * b * c, "Hs")⟩ := rfl
theorem stab_Dn (a b c : PF) : check_usage_stabilitynumber (some a) none (some b) (some c) =
    ⟨[], .ok (a / c / b, "Dn")⟩ := rfl
theorem stab_Ns (a b c : PF) : check_usage_stabilitynumber (some a) (some b) (some c) none =
    ⟨[], .ok (a / (c * b), "Ns")⟩ := rfl

theorem cube_rpow_third {x : ℝ} (h : 0 ≤ x) : (x ^ 3) ^ ((1 : ℝ) / 3) = x := by
  rw [← Real.rpow_natCast x 3, ← Real.rpow_mul h]; norm_num

theorem rpow_third_cube {x : ℝ} (h : 0 ≤ x) : (x ^ ((1 : ℝ) / 3)) ^ 3 = x := by
  rw [← Real.rpow_natCast (x ^ ((1 : ℝ) / 3)) 3, ← Real.rpow_mul h]; norm_num

end
