import Verif.Py.Array

/-! # Vocabulary for calls with arrays -/

noncomputable section

namespace Arrays
variable {n : ℕ} {α β : Type}

/-- The outcome of a call on arrays (`call`), read at any case, is the outcome of the call for that case
alone (`one i`): the same value, or the same exception. -/
def CaseByCase [Cases n α β] (call : PyM α) (one : Fin n → PyM β) : Prop :=
  ∀ i, call.res.map (fun v => Cases.case v i) = (one i).res

/-- The call on arrays warns of nothing that no call for a single case warns of. -/
def NoFalseAlarm (call : PyM α) (one : Fin n → PyM β) : Prop :=
  ∀ w ∈ call.warns, ∃ i, w ∈ (one i).warns

/-- The call on arrays warns of exactly what the calls for the single cases warn of (a value that does
not differ from case to case may be reported once instead of once per case). -/
def SameWarnings (call : PyM α) (one : Fin n → PyM β) : Prop :=
  ∀ w, w ∈ call.warns ↔ ∃ i, w ∈ (one i).warns

/-- a positive finite number in every case -/
def Positive (x : Val n) : Prop := ∀ i, ∃ r : ℝ, 0 < r ∧ x.get i = .fin r

/-- Iterations over arrays.  `alone i` is the call for case `i` alone, `passes k i` is that call made to
do exactly `k` passes (with `k` as the limit and a tolerance that is never met).  The call on arrays does
the same number `K` of passes for all cases: the values are those of `K` passes of the single cases, every
pass from the second on was needed because some case was still changing by more than the tolerance before
it, and, unless a case has no finite result, every case got at least the passes it takes alone and the
limit is used up or the last pass changed no case by more than the tolerance.  Nothing is warned of that
no single case with `K` passes warns of. -/
def IteratedTogether (call : PyM (Val n)) (alone : Fin n → PyM PF) (passes : ℕ → Fin n → PyM PF)
    (max_iter : ℕ) (tolerance : ℝ) : Prop :=
  ∃ K ≤ max_iter, CaseByCase call (passes K) ∧ NoFalseAlarm call (passes K) ∧
    (∀ j, 2 ≤ j → j < K → ∃ i x y, (passes j i).res = .ok x ∧ (passes (j - 1) i).res = .ok y ∧
      PF.abs (x - y) > .fin tolerance) ∧
    ((∃ i, ∀ x : ℝ, (passes K i).res ≠ .ok (.fin x)) ∨
      ((∀ i, ∃ k ≤ K, (alone i).res = (passes k i).res) ∧
        (K = max_iter ∨ K ≤ 1 ∨ ∀ i, ∃ x y, (passes K i).res = .ok x ∧
          (passes (K - 1) i).res = .ok y ∧ PF.abs (x - y) ≤ .fin tolerance)))

/-- Iterations over arrays, with `alone` and `passes` as in `IteratedTogether`, in which the number of
passes need not be the same for all cases: every case gets at least the passes it takes alone, and the
limit is used up or its last pass changed it by at most the tolerance. -/
def EachIterated (call : PyM (Val n)) (alone : Fin n → PyM PF) (passes : ℕ → Fin n → PyM PF)
    (max_iter : ℕ) (tolerance : ℝ) : Prop :=
  ∃ K : Fin n → ℕ, (∀ i, K i ≤ max_iter) ∧ CaseByCase call (fun i => passes (K i) i) ∧
    NoFalseAlarm call (fun i => passes (K i) i) ∧
    ∀ i, (∃ k ≤ K i, (alone i).res = (passes k i).res) ∧
      (K i = max_iter ∨ K i ≤ 1 ∨ ∃ x y, (passes (K i) i).res = .ok x ∧
        (passes (K i - 1) i).res = .ok y ∧ PF.abs (x - y) ≤ .fin tolerance)

end Arrays
end
