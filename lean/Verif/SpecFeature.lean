import Verif.Py.Monad

/-! # What a protective feature does to the overtopping (C100) -/

open PF

namespace Feature

/-- both calls return a discharge with its flag; the one `after` is at most the one `before`, and smaller if `s` -/
def NoMore (before after : PyM (PF × Bool)) (s : Prop) : Prop :=
  ∃ (q q' : ℝ) (f f' : Bool), before.res = .ok (fin q, f) ∧ after.res = .ok (fin q', f') ∧ 0 < q' ∧ q' ≤ q ∧
    (s → q' < q)

end Feature
