import Verif.Lemmas.ArrayNum
import Verif.SpecArray
import Mathlib.Tactic.Positivity
import Mathlib.Tactic.FinCases

/-! # Arrays for the concrete cases beside the theorems on arrays -/

open Classical
open Arrays
noncomputable section
namespace ArrEx

/-- two cases -/
def two : Val 2 := .arr ![.fin 1, .fin 2]

theorem two_get (i : Fin 2) : two.get i = .fin (i.val + 1) := by
  unfold two Val.get
  fin_cases i <;> norm_num

theorem two_uniform : two.Uniform := Or.inr fun i => by rw [two_get]; exact fun h => h

theorem two_given : ∀ i, ¬ (two.get i).isnan := fun i => by rw [two_get]; exact fun h => h

theorem two_positive : Positive two := fun i => ⟨i.val + 1, by positivity, two_get i⟩

theorem two_any : ¬ two.isnan.any := fun ⟨i, hi⟩ => two_given i hi

theorem two_lt (i : Fin 2) : two.get i < 100 := by
  rw [two_get, PF.ofNat_eq, PF.lt_fin]
  have := i.isLt
  have : (i.val : ℝ) ≤ 1 := by exact_mod_cast (by omega : i.val ≤ 1)
  push_cast
  linarith

theorem no_berm : PF.eqF 0.0 0.0 := by rw [PF.sci_eq]; exact rfl

theorem not_submerged : ¬ (two.get 0 / two.get 0 ≤ -1 * two.get 0 - two.get 0) := by
  rw [two_get, PF.one_eq]
  rw [PF.div_fin (by norm_num), PF.neg_fin, PF.mul_fin, PF.sub_fin, PF.le_fin]
  norm_num

end ArrEx

/-- the assumptions of the theorems on arrays, for `ArrEx.two` -/
macro "arr_ex" : tactic =>
  `(tactic| first
    | exact ArrEx.two_uniform
    | (intro x hx
       simp only [List.mem_cons, List.not_mem_nil, or_false, or_self] at hx
       subst hx
       exact ArrEx.two_uniform)
    | exact ArrEx.two_lt
    | exact fun i => ⟨fun _ => ⟨ArrEx.two_given i, ArrEx.two_given i⟩, fun _ => ⟨ArrEx.two_any, ArrEx.two_any⟩⟩
    | exact ArrEx.no_berm
    | exact Or.inr ArrEx.no_berm
    | exact ArrEx.not_submerged
    | exact fun _ => rfl
    | exact fun h => Bool.noConfusion h
    | exact fun _ => by norm_num)
end
