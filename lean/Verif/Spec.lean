import Verif.Py.Monad
import Verif.Py.Float

/-! # Small vocabulary used in the property statements

These predicates only speak about calling functions and looking at what they return. -/

open PF
noncomputable section

/-- every positive number put into `f` gives a positive number that `g` sends back, and conversely;
no call raises -/
def MutuallyInverse (f g : PF → PyM PF) : Prop :=
  (∀ x : ℝ, 0 < x → ∃ y : ℝ, 0 < y ∧ (f (fin x)).res = .ok (fin y) ∧
      (g (fin y)).res = .ok (fin x)) ∧
  (∀ y : ℝ, 0 < y → ∃ x : ℝ, 0 < x ∧ (g (fin y)).res = .ok (fin x) ∧
      (f (fin x)).res = .ok (fin y))

/-- run a plain (non-warning) function as a Python computation -/
def plain (f : PF → PF) : PF → PyM PF := fun x => pure (f x)

/-- on positive numbers the function returns numbers and a larger input gives a larger output -/
def StrictlyIncreasing (f : PF → PyM PF) : Prop :=
  ∀ x y : ℝ, 0 < x → x < y → ∃ a b : ℝ, (f (fin x)).res = .ok (fin a) ∧
    (f (fin y)).res = .ok (fin b) ∧ a < b

/-- on positive numbers the function returns numbers and a larger input gives a smaller output -/
def StrictlyDecreasing (f : PF → PyM PF) : Prop :=
  ∀ x y : ℝ, 0 < x → x < y → ∃ a b : ℝ, (f (fin x)).res = .ok (fin a) ∧
    (f (fin y)).res = .ok (fin b) ∧ b < a

/-- an optional argument: left out (NaN), or a number with property `P` -/
def OmittedOr (P : ℝ → Prop) (x : PF) : Prop := x = nan ∨ ∃ r : ℝ, x = fin r ∧ P r

/-- proof helper: inverse real formulas -/
theorem MutuallyInverse.of_real {f g : PF → PyM PF} (F G : ℝ → ℝ)
    (hf : ∀ x, 0 < x → (f (fin x)).res = .ok (fin (F x)))
    (hg : ∀ y, 0 < y → (g (fin y)).res = .ok (fin (G y)))
    (hF : ∀ x, 0 < x → 0 < F x) (hG : ∀ y, 0 < y → 0 < G y)
    (hGF : ∀ x, 0 < x → G (F x) = x) (hFG : ∀ y, 0 < y → F (G y) = y) : MutuallyInverse f g :=
  ⟨fun x hx => ⟨F x, hF x hx, hf x hx, by rw [hg _ (hF x hx), hGF x hx]⟩,
   fun y hy => ⟨G y, hG y hy, hg y hy, by rw [hf _ (hG y hy), hFG y hy]⟩⟩

end
