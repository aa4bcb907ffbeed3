import Verif.Lemmas.Missing
import Verif.Model.CorePhysics
import Verif.Lemmas.Check

/-! # NaN runs through the stability number -/

open PF
noncomputable section

namespace Missing
open CorePhysics

theorem stab1 (a b c : PF) :
    check_usage_stabilitynumber none (some a) (some b) (some c) = pure (a * b * c, "Hs") := rfl
theorem stab2 (a b c : PF) :
    check_usage_stabilitynumber (some a) none (some b) (some c) = pure (a / c / b, "Dn") := rfl
theorem stab3 (a b c : PF) :
    check_usage_stabilitynumber (some a) (some b) none (some c) = pure (a / c / b, "Delta") := rfl
theorem stab4 (a b c : PF) :
    check_usage_stabilitynumber (some a) (some b) (some c) none = pure (a / (c * b), "Ns") := rfl

theorem passes_sum : Passes fun w h g => w + h + g :=
  ⟨fun _ _ => by simp only [nan_add], fun _ _ => by simp only [nan_add, add_nan], fun _ _ => by simp only [add_nan]⟩

end Missing

/-- the checks leave the outcome alone -/
macro "unused" "[" ls:Lean.Parser.Tactic.simpLemma,* "]" : tactic =>
  `(tactic| (intro x y; simp only [bind_assoc, check_bind_res, $ls,*]))
end
