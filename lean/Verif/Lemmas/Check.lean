import Verif.Model.CoreUtility
import Verif.Props.Core

/-! # The validity checks never raise; which warnings they add -/

open Classical
open PF CoreUtility
noncomputable section

@[simp] theorem check_if_given_res (given : List PF) (n f : String) (v lo hi : PF) :
    (check_if_given given n f v lo hi).res = .ok () := by
  unfold check_if_given
  split
  · rw [C01_scalar]; split <;> rfl
  · rfl

theorem check_if_given_warns (given : List PF) (n f : String) (v lo hi : PF) :
    (check_if_given given n f v lo hi).warns =
      if (∀ x ∈ given, ¬ x.isnan) ∧ OutOfRange lo hi v then [.range n f v lo hi] else [] := by
  unfold check_if_given
  by_cases h : ∀ x ∈ given, ¬ x.isnan
  · rw [if_pos h, C01_scalar]
    by_cases h2 : OutOfRange lo hi v
    · rw [if_pos h2, if_pos ⟨h, h2⟩]; rfl
    · rw [if_neg h2, if_neg (fun h3 => h2 h3.2)]; rfl
  · rw [if_neg h, if_neg (fun h3 => h h3.1)]; rfl

@[simp] theorem check_bind_res {β} (given : List PF) (n fm : String) (v lo hi : PF)
    (f : Unit → PyM β) : (check_if_given given n fm v lo hi >>= f).res = (f ()).res :=
  PyM.bind_res_of_ok (check_if_given_res ..) f

@[simp] theorem check_bind_warns {β} (given : List PF) (n fm : String) (v lo hi : PF)
    (f : Unit → PyM β) : (check_if_given given n fm v lo hi >>= f).warns =
      (check_if_given given n fm v lo hi).warns ++ (f ()).warns :=
  PyM.bind_warns_of_ok (check_if_given_res ..) f

end
