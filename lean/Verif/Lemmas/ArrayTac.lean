import Verif.Lemmas.ArrayNum

/-! # Tactics for reading off one case of a call on arrays -/

open Arrays

/-- `(Arr.f …).get i = f …` after unfolding -/
macro "arr_pure" : tactic =>
  `(tactic| ((try dsimp only); simp only [cases_simp]))

/-- equality of two expressions at one case -/
macro "arr_eq" : tactic =>
  `(tactic| (first
      | (with_reducible rfl)
      | (simp only [cases_simp, List.map, Option.map_some, Option.map_none]; done)
      | (simp only [cases_simp, List.map, Option.map_some, Option.map_none]; with_reducible rfl)))

/-- the arguments of a check are given in all cases or none, by the assumption `h` -/
syntax "arr_unif" (ppSpace term)? : tactic
macro_rules
  | `(tactic| arr_unif) => `(tactic| exact fun h => h.elim)
  | `(tactic| arr_unif $h) => `(tactic| (
      intro hu
      have hh := $h hu
      simp only [List.forall_mem_cons, List.not_mem_nil, false_implies, implies_true,
        and_true] at hh ⊢
      simp only [hh, uniform_nan, uniform_pinf, uniform_ofNat, uniform_zero, uniform_one, uniform_sci, and_self,
        Val.Uniform.num]))

/-- a condition that holds in all cases alike -/
macro "arr_iff" : tactic =>
  `(tactic| (first
      | assumption
      | (intro i
         first
           | exact Iff.rfl
           | (simp only [cases_simp]; done)
           | (simp only [cases_simp]; exact Iff.rfl))))

/-- both items of a list handed to `np.min` or `np.max` have the same shape -/
macro "arr_shape" : tactic =>
  `(tactic| (
      simp only [shape_simp]
      first
        | done
        | with_reducible rfl
        | grind))

syntax "arr_callee" "[" term,* "]" (ppSpace term)? : tactic
macro_rules
  | `(tactic| arr_callee [] $[$h]?) => `(tactic| fail)
  | `(tactic| arr_callee [$t:term] $[$h]?) => `(tactic| (
      apply Rel.congr
      · with_reducible apply $t <;> first | assumption | (arr_unif $[$h]?)
      · intro i; arr_eq))
  | `(tactic| arr_callee [$t:term, $s:term,*] $[$h]?) => `(tactic| (first
      | arr_callee [$t] $[$h]?
      | arr_callee [$s,*] $[$h]?))

syntax "arr_rel" "[" term,* "]" (ppSpace term)? : tactic
macro_rules
  | `(tactic| arr_rel [$ts:term,*] $[$h]?) => `(tactic| (
      try dsimp only
      repeat' first
        | with_reducible exact Rel.raise
        | with_reducible exact Rel.warn
        | (with_reducible refine Rel.pure ?_; intro i; arr_eq)
        | (with_reducible refine Rel.check ?_ ?_ ?_ ?_ ?_
           · intro i; arr_eq
           · intro i; arr_eq
           · intro i; arr_eq
           · intro i; arr_eq
           · arr_unif $[$h]?)
        | arr_callee [$ts,*] $[$h]?
        | (with_reducible refine Rel.stackMin_bind ?_ ?_; · arr_shape)
        | (with_reducible refine Rel.bind ?_ fun v => ?_)
        | (with_reducible refine Rel.ite ?_ (fun h => ?_) (fun h => ?_); · arr_iff)
        | (with_reducible refine Rel.cond_num ?_ (fun h => ?_) (fun h => ?_); · arr_iff)
        | (with_reducible refine Rel.cond_num_pure ?_ (fun h => ?_) (fun h => ?_); · arr_iff)
        | (with_reducible refine Rel.ite_pure ?_ (fun h => ?_) (fun h => ?_); · arr_iff)))
