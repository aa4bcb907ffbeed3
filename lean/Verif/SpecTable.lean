import Verif.Py.Table

/-! # Reading a text file of separated fields -/

noncomputable section

namespace Reader

/-- the fields of a line: cut at every separator -/
def fields (sep : Char) : List Char → List (List Char)
  | [] => [[]]
  | c :: cs =>
    if c = sep then [] :: fields sep cs
    else match fields sep cs with
      | [] => [[c]]
      | f :: fs => (c :: f) :: fs

/-- the fields of a line for a reader that takes a run of separators for one -/
def words (sep : Char) (l : List Char) : List (List Char) := (fields sep l).filter (· ≠ [])

/-- a comment line starts with an exclamation mark or a star -/
def isComment : List Char → Bool
  | c :: _ => c = '!' || c = '*'
  | [] => false

end Reader

/-- Numbers are written without separators and not as comments, as Python's `repr` does. -/
structure PlainNumbers (text : PF → List Char) (sep : Char) : Prop where
  nonempty : ∀ x, text x ≠ []
  no_sep : ∀ x, sep ∉ text x
  no_comment : ∀ x, '!' ∉ text x ∧ '*' ∉ text x

end
