import Verif.Py.Monad

/-! # Vocabulary for missing values

A missing measurement is NaN in NumPy and pandas. -/

noncomputable section

namespace Missing

/-- the first number of a result -/
class Number (α : Type) where
  number : α → PF

instance : Number PF := ⟨id⟩
instance {β : Type} : Number (PF × β) := ⟨Prod.fst⟩

/-- The call gives no number: it ends in an exception, or the number returned (the first one, when more is
returned) is NaN. -/
def NoNumber {α : Type} [Number α] (call : PyM α) : Prop :=
  ∀ v, call.res = .ok v → Number.number v = .nan

/-- a dispersion solver that gives NaN for NaN -/
def Passes (disper : PF → PF → PF → PF) : Prop :=
  (∀ h g, disper .nan h g = .nan) ∧ (∀ w g, disper w .nan g = .nan) ∧ ∀ w h, disper w h .nan = .nan

/-- a value that is missing or a positive number: NaN or a positive real (an exponent of zero would give 1
whatever is missing: NumPy gives `nan ** 0 = 1`) -/
def PositiveOrMissing (x : PF) : Prop := x = .nan ∨ ∃ r : ℝ, 0 < r ∧ x = .fin r

/-- The outcome of the call does not depend on the argument: whatever is given, NaN included, the result
is the same. -/
def Unused {α : Type} (call : PF → PyM α) : Prop := ∀ x y, (call x).res = (call y).res

end Missing
end
