import Verif.Py.Monad

/-! # NumPy arrays of numbers: `arange`, `argmin`, indexing -/

open Classical
noncomputable section
namespace PF

/-- `a[i]` with Python's negative indices -/
def pyGet (l : List PF) (i : ℤ) : PyM PF :=
  if 0 ≤ i then
    match l[i.toNat]? with
    | some x => pure x
    | none => PyM.raise .indexError
  else
    if -(l.length : ℤ) ≤ i then
      match l[(l.length + i).toNat]? with
      | some x => pure x
      | none => PyM.raise .indexError
    else PyM.raise .indexError

/-- `np.arange(start, stop, step)`: `ceil((stop - start) / step)` values.  A non-finite bound, an
infinite step or a zero step raises (the zero step is a ZeroDivisionError in NumPy; it is not
distinguished here from the ValueError of the others). -/
def arange : PF → PF → PF → PyM (List PF)
  | fin a, fin b, fin d =>
    if d = 0 then PyM.raise .valueError
    else pure ((List.range ⌈(b - a) / d⌉₊).map fun i => fin (a + i * d))
  | _, _, _ => PyM.raise .valueError

/-- scan for the smallest element; the first NaN wins -/
def argminAux : PF → ℕ → ℕ → List PF → ℕ
  | _, bi, _, [] => bi
  | b, bi, i, x :: xs =>
    if isnan b then bi
    else if isnan x ∨ x < b then argminAux x i (i + 1) xs
    else argminAux b bi (i + 1) xs

/-- `np.argmin`; an empty array raises ValueError -/
def argmin : List PF → PyM ℕ
  | [] => PyM.raise .valueError
  | x :: xs => pure (argminAux x 0 1 xs)

end PF
end
