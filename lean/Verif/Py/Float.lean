import Mathlib.Analysis.SpecialFunctions.Pow.Real
import Mathlib.Analysis.SpecialFunctions.Trigonometric.Basic
import Mathlib.Tactic.Positivity
import Mathlib.Tactic.Linarith
import Mathlib.Tactic.NormNum
import Mathlib.Tactic.FieldSimp

/-!
# The number type of the model: IEEE-style special values over exact reals

Python/NumPy floats are modelled by `PF`: NaN, the two infinities, and finite values carrying an
*exact real*.  The special-value behaviour (NaN propagation, `x/0`, `0*inf`, comparisons with NaN
being false, roots/logs/fractional powers of negative numbers being NaN) follows NumPy's float64
ufuncs.  Not modelled: rounding, overflow/underflow, and the sign of zero (zero is treated as
`+0.0`).  Bare Python floats differ from NumPy floats only where a value here becomes `nan`/`±inf`
(`1.0/0.0` raises ZeroDivisionError, `(-8.0)**(1/3)` is complex); a theorem concluding that a
result is `fin r` therefore covers both.
-/

open Classical

noncomputable section

/-- NumPy float64 with exact reals for the finite values. -/
inductive PF where
  | nan : PF
  | ninf : PF
  | pinf : PF
  | fin (x : ℝ) : PF

namespace PF

instance : Inhabited PF := ⟨nan⟩
instance (n : ℕ) : OfNat PF n := ⟨fin (n : ℝ)⟩
instance : OfScientific PF := ⟨fun m s e => fin (OfScientific.ofScientific m s e : ℝ)⟩

/-- `-x` -/
def neg : PF → PF
  | nan => nan | ninf => pinf | pinf => ninf | fin x => fin (-x)
instance : Neg PF := ⟨neg⟩

/-- `x + y` -/
def add : PF → PF → PF
  | nan, _ => nan
  | _, nan => nan
  | fin x, fin y => fin (x + y)
  | fin _, pinf => pinf
  | fin _, ninf => ninf
  | pinf, ninf => nan
  | ninf, pinf => nan
  | pinf, _ => pinf
  | ninf, _ => ninf
instance : Add PF := ⟨add⟩

/-- `x - y` -/
instance : Sub PF := ⟨fun x y => x + -y⟩

/-- `x * inf` for finite `x` (`0 * inf = nan`). -/
def mulInf (x : ℝ) : PF := if 0 < x then pinf else if x < 0 then ninf else nan

/-- `x * y` -/
def mul : PF → PF → PF
  | nan, _ => nan
  | _, nan => nan
  | fin x, fin y => fin (x * y)
  | fin x, pinf => mulInf x
  | fin x, ninf => neg (mulInf x)
  | pinf, fin x => mulInf x
  | ninf, fin x => neg (mulInf x)
  | pinf, pinf => pinf
  | pinf, ninf => ninf
  | ninf, pinf => ninf
  | ninf, ninf => pinf
instance : Mul PF := ⟨mul⟩

/-- `x / y` with NumPy's `x/0 = ±inf`, `0/0 = nan` (zero counted as `+0.0`). -/
def div : PF → PF → PF
  | nan, _ => nan
  | _, nan => nan
  | fin x, fin y => if y = 0 then mulInf x else fin (x / y)
  | fin _, pinf => fin 0
  | fin _, ninf => fin 0
  | pinf, fin y => if y < 0 then ninf else pinf
  | ninf, fin y => if y < 0 then pinf else ninf
  | pinf, _ => nan
  | ninf, _ => nan
instance : Div PF := ⟨div⟩

/-- `x < y`: false as soon as one side is NaN. -/
def Lt : PF → PF → Prop
  | fin x, fin y => x < y
  | fin _, pinf => True
  | ninf, fin _ => True
  | ninf, pinf => True
  | _, _ => False
instance : LT PF := ⟨Lt⟩

/-- `x <= y`: false as soon as one side is NaN. -/
def Le : PF → PF → Prop
  | fin x, fin y => x ≤ y
  | fin _, pinf => True
  | ninf, fin _ => True
  | ninf, pinf => True
  | pinf, pinf => True
  | ninf, ninf => True
  | _, _ => False
instance : LE PF := ⟨Le⟩

/-- `x == y`: NaN is not equal to itself. -/
def eqF : PF → PF → Prop
  | fin x, fin y => x = y
  | pinf, pinf => True
  | ninf, ninf => True
  | _, _ => False

/-- `np.isnan` -/
def isnan : PF → Prop
  | nan => True
  | _ => False

/-- `np.abs` / `abs` -/
def abs : PF → PF
  | nan => nan | ninf => pinf | pinf => pinf | fin x => fin |x|

/-- `np.sqrt` -/
def sqrt : PF → PF
  | nan => nan | ninf => nan | pinf => pinf
  | fin x => if x < 0 then nan else fin (Real.sqrt x)

/-- `np.exp` -/
def exp : PF → PF
  | nan => nan | ninf => fin 0 | pinf => pinf | fin x => fin (Real.exp x)

/-- `np.log` -/
def log : PF → PF
  | nan => nan | ninf => nan | pinf => pinf
  | fin x => if 0 < x then fin (Real.log x) else if x = 0 then ninf else nan

/-- `np.sin`, `np.cos`, `np.tan`: NaN on infinities (the zeros of `cos` are not special-cased for
`tan`: NumPy never hits them exactly, and no theorem evaluates `tan` there). -/
def sin : PF → PF
  | fin x => fin (Real.sin x) | _ => nan
/-- `np.cos` -/
def cos : PF → PF
  | fin x => fin (Real.cos x) | _ => nan
/-- `np.tan` -/
def tan : PF → PF
  | fin x => if Real.cos x = 0 then nan else fin (Real.tan x) | _ => nan
/-- `np.sinh` -/
def sinh : PF → PF
  | nan => nan | pinf => pinf | ninf => ninf | fin x => fin (Real.sinh x)
/-- `np.cosh` -/
def cosh : PF → PF
  | nan => nan | pinf => pinf | ninf => pinf | fin x => fin (Real.cosh x)
/-- `np.tanh` -/
def tanh : PF → PF
  | nan => nan | pinf => fin 1 | ninf => fin (-1) | fin x => fin (Real.tanh x)

/-- `np.power(x, y)` / `x ** y` for finite arguments: NaN for a negative base with a non-integer
exponent, `0 ** y = inf` for negative `y`. -/
def powFin (x y : ℝ) : PF :=
  if 0 < x then fin (x ^ y)
  else if x = 0 then (if 0 < y then fin 0 else if y = 0 then fin 1 else pinf)
  else if ∃ n : ℤ, (n : ℝ) = y then fin (x ^ (⌊y⌋ : ℤ)) else nan

/-- `np.power(x, y)` / `x ** y` with infinities and NaN as in IEEE 754: `x ** 0` and `1 ** y` are 1 for
every `x` and `y`, NaN included. -/
def npow : PF → PF → PF
  | fin x, fin y => powFin x y
  | pinf, fin y => if 0 < y then pinf else if y = 0 then fin 1 else fin 0
  | ninf, fin y =>
    if 0 < y then (if ∃ n : ℤ, (2 * n + 1 : ℝ) = y then ninf else pinf) else if y = 0 then fin 1 else fin 0
  | nan, fin y => if y = 0 then fin 1 else nan
  | fin x, nan => if x = 1 then fin 1 else nan
  | fin x, pinf => if |x| = 1 then fin 1 else if |x| < 1 then fin 0 else pinf
  | fin x, ninf => if |x| = 1 then fin 1 else if |x| < 1 then pinf else fin 0
  | pinf, pinf => pinf
  | pinf, ninf => fin 0
  | ninf, pinf => pinf
  | ninf, ninf => fin 0
  | _, nan => nan
  | nan, _ => nan

/-- `np.minimum` (and `np.min` of a two-element list): propagates NaN. -/
def min (x y : PF) : PF :=
  if isnan x then x else if isnan y then y else if x ≤ y then x else y

/-- `np.maximum` (and `np.max` of a two-element list): propagates NaN. -/
def max (x y : PF) : PF :=
  if isnan x then x else if isnan y then y else if y ≤ x then x else y

/-- `np.pi` (the real number π; the float rounding of it is not modelled). -/
def pi : PF := fin Real.pi

/-- `np.deg2rad` / `np.radians` -/
def deg2rad (x : PF) : PF := x * (pi / 180)

/-- `np.floor` -/
def floor : PF → PF
  | nan => nan | ninf => ninf | pinf => pinf | fin x => fin (⌊x⌋ : ℝ)

/-- round half to even -/
def roundEven (x : ℝ) : ℤ :=
  if x - ⌊x⌋ < 1 / 2 then ⌊x⌋ else if 1 / 2 < x - ⌊x⌋ then ⌊x⌋ + 1
  else if Even ⌊x⌋ then ⌊x⌋ else ⌊x⌋ + 1

/-- `np.round` -/
def round : PF → PF
  | nan => nan | ninf => ninf | pinf => pinf | fin x => fin (roundEven x : ℝ)

/-- `np.where(c, x, y)` on one element. -/
def whr (c : Prop) (x y : PF) : PF := if c then x else y

end PF
end
