import Lean.Meta.Tactic.Simp.RegisterCommand

/-! # The simp set for reading off one case of an array -/

/-- equations that read off one case of an operation on arrays -/
register_simp_attr cases_simp

/-- equations that carry out an operation on numbers -/
register_simp_attr num_simp

/-- equations that say whether the outcome of an operation is an array -/
register_simp_attr shape_simp
