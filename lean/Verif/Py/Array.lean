import Verif.Py.Monad
import Verif.Py.Loop

/-!
# NumPy arguments: numbers and one-dimensional arrays

Nearly every function of the package is annotated `float | npt.NDArray[np.float64]`.  `Val n` is such
an argument: a number, or an array with `n` entries, all arrays of a call having the same length (other
shapes, and the errors of arrays of different lengths, are not modelled).  A zero-dimensional array, as
returned by `np.where` on numbers, counts as a number.

Two things distinguish an array from a list of numbers: an operation of an array with a number is
carried out entry by entry, and an array with more than one entry has no truth value (`if` on it raises
`ValueError`).
-/

open Classical

noncomputable section

/-- `float | npt.NDArray[np.float64]` -/
inductive Val (n : ℕ) where
  | num (x : PF)
  | arr (v : Fin n → PF)

/-- the outcome of a comparison of such arguments -/
inductive BVal (n : ℕ) where
  | num (b : Prop)
  | arr (b : Fin n → Prop)

namespace Val
variable {n : ℕ}

/-- the value for case `i`: a number stands for itself in every case -/
def get : Val n → Fin n → PF
  | num x, _ => x
  | arr v, i => v i

/-- a ufunc of one argument -/
def lift1 (f : PF → PF) : Val n → Val n
  | num x => num (f x)
  | arr v => arr fun i => f (v i)

/-- a ufunc of two arguments, with broadcasting of numbers -/
def lift2 (f : PF → PF → PF) : Val n → Val n → Val n
  | num x, num y => num (f x y)
  | a, b => arr fun i => f (a.get i) (b.get i)

/-- a comparison -/
def cmp (p : PF → PF → Prop) : Val n → Val n → BVal n
  | num x, num y => .num (p x y)
  | a, b => .arr fun i => p (a.get i) (b.get i)

instance (k : ℕ) : OfNat (Val n) k := ⟨num (OfNat.ofNat k)⟩
instance : OfScientific (Val n) := ⟨fun m s e => num (OfScientific.ofScientific m s e)⟩
instance : Neg (Val n) := ⟨lift1 fun x => -x⟩
instance : Add (Val n) := ⟨lift2 fun x y => x + y⟩
instance : Sub (Val n) := ⟨lift2 fun x y => x - y⟩
instance : Mul (Val n) := ⟨lift2 fun x y => x * y⟩
instance : Div (Val n) := ⟨lift2 fun x y => x / y⟩
instance : Inhabited (Val n) := ⟨num PF.nan⟩
instance : Coe PF (Val n) := ⟨num⟩

/-- `np.nan` -/
def nan : Val n := num PF.nan
/-- `np.inf` -/
def pinf : Val n := num PF.pinf
/-- `np.pi` -/
def pi : Val n := num PF.pi
/-- `np.power` / `**` -/
def npow : Val n → Val n → Val n := lift2 PF.npow
/-- `np.minimum` -/
def min : Val n → Val n → Val n := lift2 PF.min
/-- `np.maximum` -/
def max : Val n → Val n → Val n := lift2 PF.max
/-- `np.sqrt` -/
def sqrt : Val n → Val n := lift1 PF.sqrt
/-- `np.exp` -/
def exp : Val n → Val n := lift1 PF.exp
/-- `np.log` -/
def log : Val n → Val n := lift1 PF.log
/-- `np.sin` -/
def sin : Val n → Val n := lift1 PF.sin
/-- `np.cos` -/
def cos : Val n → Val n := lift1 PF.cos
/-- `np.tan` -/
def tan : Val n → Val n := lift1 PF.tan
/-- `np.sinh` -/
def sinh : Val n → Val n := lift1 PF.sinh
/-- `np.cosh` -/
def cosh : Val n → Val n := lift1 PF.cosh
/-- `np.tanh` -/
def tanh : Val n → Val n := lift1 PF.tanh
/-- `np.abs`, `abs` -/
def abs : Val n → Val n := lift1 PF.abs
/-- `np.floor` -/
def floor : Val n → Val n := lift1 PF.floor
/-- `np.round` -/
def round : Val n → Val n := lift1 PF.round
/-- `np.deg2rad`, `np.radians` -/
def deg2rad : Val n → Val n := lift1 PF.deg2rad

/-- `x < y` -/
def lt : Val n → Val n → BVal n := cmp fun x y => x < y
/-- `x <= y` -/
def le : Val n → Val n → BVal n := cmp fun x y => x ≤ y
/-- `x > y` -/
def gt : Val n → Val n → BVal n := cmp fun x y => x > y
/-- `x >= y` -/
def ge : Val n → Val n → BVal n := cmp fun x y => x ≥ y
/-- `x == y` -/
def eq : Val n → Val n → BVal n := cmp PF.eqF
/-- `np.isnan(x)` -/
def isnan : Val n → BVal n
  | num x => .num x.isnan
  | arr v => .arr fun i => (v i).isnan

end Val

namespace BVal
variable {n : ℕ}

/-- the outcome for case `i` -/
def get : BVal n → Fin n → Prop
  | num b, _ => b
  | arr b, i => b i

/-- `np.logical_or` -/
def or : BVal n → BVal n → BVal n
  | num a, num b => num (a ∨ b)
  | a, b => arr fun i => a.get i ∨ b.get i

/-- `np.logical_and` -/
def and : BVal n → BVal n → BVal n
  | num a, num b => num (a ∧ b)
  | a, b => arr fun i => a.get i ∧ b.get i

/-- `np.any` -/
def any : BVal n → Prop
  | num b => b
  | arr b => ∃ i, b i

/-- `np.all` -/
def all : BVal n → Prop
  | num b => b
  | arr b => ∀ i, b i

/-- `bool(x)`, as taken by `if`, `while`, `and`, `or`: "The truth value of an array with more than one
element is ambiguous" (an empty array has none either) -/
def truth : BVal n → PyM Bool
  | num b => pure (decide b)
  | arr b => if h : n = 1 then pure (decide (b ⟨0, by omega⟩)) else PyM.raise .valueError

end BVal

/-- `a and b`: `b` is evaluated only if `a` is true -/
def PyM.and (a b : PyM Bool) : PyM Bool := do
  let x ← a
  if x then b else pure false

/-- `a or b`: `b` is evaluated only if `a` is false -/
def PyM.or (a b : PyM Bool) : PyM Bool := do
  let x ← a
  if x then pure true else b

/-- `not a` -/
def PyM.not (a : PyM Bool) : PyM Bool := do
  let x ← a
  pure (!x)

/-- `if c: t` … `else: e` -/
def PyM.cond {α} (c : PyM Bool) (t e : PyM α) : PyM α := do
  let x ← c
  if x then t else e

namespace Val
variable {n : ℕ}

/-- `np.where(c, x, y)` -/
def whr : BVal n → Val n → Val n → Val n
  | .num c, num x, num y => num (PF.whr c x y)
  | c, x, y => arr fun i => PF.whr (c.get i) (x.get i) (y.get i)

/-- `np.max` of one argument: of a number itself, of an array its largest entry, NaN if one of the
entries is NaN (the array must not be empty: NumPy raises `ValueError` then, here the value is
`-inf`) -/
def amax : Val n → PF
  | num x => x
  | arr v => (List.ofFn v).foldr PF.max PF.ninf

/-- `np.min([x, y], axis=0)`: the list is made into an array first, which raises `ValueError`
("inhomogeneous shape") when one of the two is an array and the other a number -/
def stackMin : Val n → Val n → PyM (Val n)
  | num x, num y => pure (num (PF.min x y))
  | arr v, arr w => pure (arr fun i => PF.min (v i) (w i))
  | _, _ => PyM.raise .valueError

/-- `np.max([x, y], axis=0)` -/
def stackMax : Val n → Val n → PyM (Val n)
  | num x, num y => pure (num (PF.max x y))
  | arr v, arr w => pure (arr fun i => PF.max (v i) (w i))
  | _, _ => PyM.raise .valueError

/-- `np.min([x, c])` with a number `c` and no `axis`: the list must consist of numbers -/
def listMin : Val n → PF → PyM (Val n)
  | num x, c => pure (num (PF.min x c))
  | arr _, _ => PyM.raise .valueError

/-- `np.max([x, c])` with a number `c` and no `axis` -/
def listMax : Val n → PF → PyM (Val n)
  | num x, c => pure (num (PF.max x c))
  | arr _, _ => PyM.raise .valueError

/-- is the argument an `np.ndarray`? -/
def isArray : Val n → Bool
  | num _ => false
  | arr _ => true

/-- the entries of the argument (`values.tolist()`, or `[values]` for a number) -/
def toList : Val n → List PF
  | num x => [x]
  | arr v => List.ofFn v

/-- a number, or an array that is NaN everywhere or nowhere: the argument is given for all cases or for
none -/
def Uniform (x : Val n) : Prop := (∀ i, (x.get i).isnan) ∨ (∀ i, ¬ (x.get i).isnan)

end Val

/-- evaluating something for every case in turn: the warnings in that order, the first exception ends
it -/
def PyM.forEach {α : Type} : (n : ℕ) → (Fin n → PyM α) → PyM (Fin n → α)
  | 0, _ => pure (fun i => i.elim0)
  | n + 1, f => do
    let x ← f 0
    let xs ← PyM.forEach n (fun i => f i.succ)
    pure (Fin.cons x xs)

/-- a Python number: `int` or `float` -/
inductive PyNum where
  | int (z : ℤ)
  | float (x : PF)

/-- the conversion of a Python number to an entry of an integer array: rounding towards zero,
`ValueError` for NaN (for an infinity it is `OverflowError`, not distinguished here) -/
def PyNum.toInt : PyNum → PyM PF
  | .int z => pure (.fin z)
  | .float (.fin x) => pure (.fin (if 0 ≤ x then (⌊x⌋ : ℝ) else (⌈x⌉ : ℝ)))
  | .float _ => PyM.raise .valueError

/-- the conversion to an entry of an array of floats -/
def PyNum.toFloat : PyNum → PF
  | .int z => .fin z
  | .float x => x

/-- `np.vectorize(f)(…)` where `f i` is the call for case `i`: the function is called for the first case
to learn the type of the entries, then for all cases, and the outcomes are converted to that type; an
empty array raises `ValueError` -/
def vectorize : {n : ℕ} → (Fin n → PyM PyNum) → PyM (Val n)
  | 0, _ => PyM.raise .valueError
  | n + 1, f => do
    let first ← f 0
    let all ← PyM.forEach (n + 1) f
    match first with
    | .int _ => do
      let ints ← PyM.forEach (n + 1) fun i => (all i).toInt
      pure (.arr ints)
    | .float _ => pure (.arr fun i => (all i).toFloat)

infix:50 " <. " => Val.lt
infix:50 " ≤. " => Val.le
infix:50 " >. " => Val.gt
infix:50 " ≥. " => Val.ge
infix:50 " ==. " => Val.eq
infixr:35 " &. " => BVal.and
infixr:30 " |. " => BVal.or

/-- What belongs to one case in the outcome of a call on arrays. -/
class Cases (n : ℕ) (α : Type) (β : outParam Type) where
  /-- the part for case `i` -/
  case : α → Fin n → β

instance {n} : Cases n (Val n) PF := ⟨Val.get⟩
instance {n} : Cases n (BVal n) Bool := ⟨fun b i => decide (b.get i)⟩
instance {n} : Cases n Unit Unit := ⟨fun _ _ => ()⟩
instance {n} : Cases n Bool Bool := ⟨fun b _ => b⟩
instance {n} : Cases n PF PF := ⟨fun x _ => x⟩
instance {n} : Cases n String String := ⟨fun x _ => x⟩
instance {n} {α β γ δ : Type} [Cases n α β] [Cases n γ δ] : Cases n (α × γ) (β × δ) :=
  ⟨fun p i => (Cases.case p.1 i, Cases.case p.2 i)⟩

end
