import Verif.Spec

/-! # Questions with exactly one answer

`OneAnswer f`: whatever (positive) result is asked for, there is exactly one positive value of the argument for
which the function returns it.

`NoAnswerAbove f B`, `TwoAnswersBelow f B`: the two ways in which this fails. -/

open Classical
open PF
noncomputable section

def OneAnswer (f : PF → PyM PF) : Prop :=
  ∀ v : ℝ, 0 < v → ∃! x : ℝ, 0 < x ∧ (f (fin x)).res = .ok (fin v)

/-- results above `B` are never returned -/
def NoAnswerAbove (f : PF → PyM PF) (B : ℝ) : Prop :=
  ∀ v x : ℝ, 0 < x → (f (fin x)).res = .ok (fin v) → v ≤ B

/-- every result below `B` is returned for two different values of the argument -/
def TwoAnswersBelow (f : PF → PyM PF) (B : ℝ) : Prop :=
  ∀ v : ℝ, 0 < v → v < B → ∃ x y : ℝ, 0 < x ∧ x < y ∧ (f (fin x)).res = .ok (fin v) ∧ (f (fin y)).res = .ok (fin v)
