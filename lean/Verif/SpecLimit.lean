import Verif.SpecRaise

/-! # No water over very high crests, none without waves

`q x v` says that the call with crest level (or wave height) `x` returned the discharge `v`. -/

open Classical
open PF
noncomputable section

/-- however small the allowed discharge, all crests from some level on return a discharge below it -/
def HighCrestsStayDry (q : ℝ → ℝ → Prop) : Prop :=
  ∀ ε : ℝ, 0 < ε → ∃ x0 : ℝ, ∀ x, x0 ≤ x → ∃ v, q x v ∧ 0 ≤ v ∧ v < ε

/-- however small the allowed discharge, no wave below some height overtops more -/
def SmallWavesStayOut (q : ℝ → ℝ → Prop) : Prop :=
  ∀ ε : ℝ, 0 < ε → ∃ δ : ℝ, 0 < δ ∧ ∀ H, 0 < H → H < δ → ∀ v, q H v → 0 ≤ v ∧ v < ε

/-- however large the discharge, all waves below some height overtop more -/
def SmallWavesOvertopMost (q : ℝ → ℝ → Prop) : Prop :=
  ∀ M : ℝ, ∃ δ : ℝ, 0 < δ ∧ ∀ H, 0 < H → H < δ → ∃ v, q H v ∧ M < v

end
