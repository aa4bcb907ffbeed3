import Verif.Py.Monad

/-! # Comparing two calls (C92) -/

open PF

/-- both calls return a number; the second is not less than the first, and more if `s` -/
def NotLess (m m' : PyM PF) (s : Prop) : Prop :=
  ∃ x x' : ℝ, m.res = .ok (fin x) ∧ m'.res = .ok (fin x') ∧ x ≤ x' ∧ (s → x < x')
