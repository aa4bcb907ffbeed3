import Verif.Py.Monad
import Verif.Py.Float

/-! # What users of an iterating function rely on

`f N t` stands for the call with at most `N` passes and tolerance `t`. -/

open Classical
noncomputable section

namespace Iteration

/-- The estimate after `k` passes.  A negative tolerance is never met, so the call with limit `k` and
tolerance -1 makes `k` passes; `start` is what the first pass is compared with. -/
def after (start : PF) (f : ℕ → PF → PyM PF) (k : ℕ) : Except PyErr PF :=
  if k = 0 then .ok start else (f k (-1.0)).res

/-- pass `k` changed the estimate by more than `t` -/
def Moved (start : PF) (f : ℕ → PF → PyM PF) (t : PF) (k : ℕ) : Prop :=
  ∃ x y, after start f k = .ok x ∧ after start f (k - 1) = .ok y ∧ PF.abs (x - y) > t

/-- pass `k` gave an estimate that is not more than `t` away from the one before -/
def Settled (start : PF) (f : ℕ → PF → PyM PF) (t : PF) (k : ℕ) : Prop :=
  ∃ x y, after start f k = .ok x ∧ after start f (k - 1) = .ok y ∧ ¬ PF.abs (x - y) > t

/-- The call makes passes until the first one that settles, and at most `N`: it returns the estimate of
that pass. -/
def StopsAtFirst (start : PF) (f : ℕ → PF → PyM PF) : Prop :=
  ∀ N (t : ℝ), ∃ K ≤ N, (f N (.fin t)).res = (f K (-1.0)).res ∧
    (∀ j, 1 ≤ j → j < K → Moved start f (.fin t) j) ∧
    (K = N ∨ 1 ≤ K ∧ Settled start f (.fin t) K)

/-- As `StopsAtFirst`, unless the other arguments are refused: then they are refused for every limit and
tolerance. -/
def StopsWhenSettled (start : PF) (f : ℕ → PF → PyM PF) : Prop :=
  (∃ e, ∀ N t, (f N t).res = .error e) ∨ StopsAtFirst start f

end Iteration
end
