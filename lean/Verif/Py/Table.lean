import Verif.Py.Monad

/-!
# Tables of named columns and their text form (the part of pandas the code uses)

`pd.DataFrame(data={name: value, …}, index=…)` followed by `DataFrame.to_csv`.  A text file is the list
of its lines (without line ends); a line is a list of characters.
-/

noncomputable section

namespace Table

/-- an argument: a Python float (or `np.float64`), a Python int, or a one-dimensional float array.
Zero-dimensional and multi-dimensional arrays are not modelled. -/
inductive Value where
  | float (x : PF)
  | int (k : ℤ)
  | array (xs : List PF)

/-- `isinstance(value, float)` -/
def Value.isFloat : Value → Bool
  | .float _ => true
  | _ => false

/-- the content of a cell -/
inductive Cell where
  | float (x : PF)
  | int (k : ℤ)

/-- the entry of a column in record `i`: scalars are repeated -/
def Value.at : Value → ℕ → Cell
  | .float x, _ => .float x
  | .int k, _ => .int k
  | .array xs, i => .float (xs.getD i PF.nan)

/-- the lengths of the array columns -/
def arrayLengths (cols : List Value) : List ℕ :=
  cols.filterMap fun v => match v with
    | .array xs => some xs.length
    | _ => none

/-- the number of records of `pd.DataFrame(data, index)`, or its exception: with `index=[0]` arrays
have to have length one; with `index=None` at least one column has to be an array, and all arrays have
to have the same length -/
def frame (index0 : Bool) (cols : List Value) : Except PyErr ℕ :=
  if index0 then
    if ∀ n ∈ arrayLengths cols, n = 1 then .ok 1 else .error .valueError
  else
    match arrayLengths cols with
    | [] => .error .valueError
    | n :: ns => if ∀ m ∈ ns, m = n then .ok n else .error .valueError

/-- a line of a text file -/
abbrev Line := List Char

/-- fields separated by one character -/
def join (sep : Char) : List Line → Line
  | [] => []
  | [x] => x
  | x :: y :: xs => x ++ sep :: join sep (y :: xs)

/-- the text of a cell: NaN is written as nothing (`na_rep=""`); how numbers are written is a parameter -/
def cellText (text : PF → Line) : Cell → Line
  | .float x => open Classical in if x.isnan then [] else text x
  | .int k => (toString k).toList

/-- the lines `DataFrame.to_csv(sep, index=False, header=False)` writes -/
def records (text : PF → Line) (sep : Char) (n : ℕ) (cols : List Value) : List Line :=
  (List.range n).map fun i => join sep (cols.map fun v => cellText text (v.at i))

/-- the lines `DataFrame.to_csv(sep)` writes: a header line and record lines, with the record number in
front (no name contains the separator or a quote, so nothing is quoted) -/
def recordsIndexed (text : PF → Line) (sep : Char) (n : ℕ) (cols : List (String × Value)) : List Line :=
  join sep ([] :: cols.map fun c => c.1.toList) ::
    (List.range n).map fun i =>
      join sep ((toString i).toList :: cols.map fun c => cellText text (c.2.at i))

/-- what a writer leaves behind: the lines of the file (`none`: no file written) and how it ended -/
structure Written where
  file : Option (List Line)
  res : Except PyErr Unit

end Table
end
