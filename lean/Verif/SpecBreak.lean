import Verif.SpecContinuous

/-! # Breaks that cannot be filled

`Jumps` asks for a number at every input.  Some functions return NaN exactly where they would have to connect two
branches; the following says that no number at that place would connect them. -/

open PF

/-- no continuous function agrees with all numbers returned -/
def BreaksOff {X : Type} [TopologicalSpace X] (call : X → PyM PF) : Prop :=
  ¬ ∃ r : X → ℝ, Continuous r ∧ ∀ x v, (call x).res = .ok (fin v) → r x = v
