import Verif.Py.Monad

/-! # The tables `unit_properties` of the concrete armour units in
`functions/structural/stability_concrete_armour/`

Python dictionaries keyed by text, two levels deep.  The numbers are only used by the user, who reads a
stability coefficient from the table and passes it on as `KD`. -/

open Classical
noncomputable section

/-- a value in a table: a number, a text, `None`, or a list of numbers -/
inductive TableEntry where
  | num (x : PF)
  | text (s : String)
  | none
  | numbers (xs : List PF)

/-- a dictionary at the outer level: either an entry or a dictionary of entries under each key -/
inductive TableItem where
  | entry (e : TableEntry)
  | dict (d : List (String × TableEntry))

open TableEntry TableItem

namespace UnitTables

/-- `d[key]`: KeyError if the key is not there -/
def item {α} (d : List (String × α)) (key : String) : PyM α :=
  match d.lookup key with
  | some v => pure v
  | Option.none => PyM.raise .keyError

/-- `unit_properties["KD"][place]`, passed on as a number: a text or `None` gives a TypeError as soon as the
formula multiplies with it; `unit_properties["KD"]` is always a dictionary when it exists -/
def KD (unit_properties : List (String × TableItem)) (place : String) : PyM PF := do
  match ← item unit_properties "KD" with
  | .entry _ => PyM.raise .typeError
  | .dict d =>
    match ← item d place with
    | .num x => pure x
    | _ => PyM.raise .typeError

/-- accropode_hudson1959.py 8-18 -/
def accropode : List (String × TableItem) := [
  ("KD", .dict [("trunk_non_breaking", num 15), ("trunk_breaking", num 12), ("head_non_breaking", num 11.5),
    ("head_breaking", num 9.5),
    ("Note", text "Depending on seabed slope, see website concrete layer innovations")]),
  ("kt", .entry (num 1.29)),
  ("nlayers", .entry (num 1))]

/-- accropode2_hudson1959.py 8-17 -/
def accropode2 : List (String × TableItem) := [
  ("KD", .dict [("trunk_breaking_min", num 9), ("trunk_breaking_max", num 16), ("trunk_nonbreaking", num 16),
    ("Note", text "Depending on seabed slope, see website concrete layer innovations")]),
  ("kt", .entry (num 1.52)),
  ("nlayers", .entry (num 1))]

/-- core_loc_hudson1959.py 8-16 -/
def core_loc : List (String × TableItem) := [
  ("KD", .dict [("trunk", num 16.0), ("head", num 13.0),
    ("Note", text "Depending on seabed slope, see website concrete layer innovations")]),
  ("kt", .entry (num 1.516)),
  ("nlayers", .entry (num 1))]

/-- cubes_double_layer_hudson1959.py 7-19 -/
def cubes_double_layer_hudson1959 : List (String × TableItem) := [
  ("KD", .dict [("double_layer_trunk_non_breaking", num 7.5), ("double_layer_trunk_breaking", num 6.5),
    ("double_layer_head_non_breaking", num 5.0), ("double_layer_head_breaking", TableEntry.none)]),
  ("nv", .entry (num 0.47)),
  ("kt", .entry (num 1.10)),
  ("nlayers", .entry (num 2)),
  ("Delta_x_fact_Dn", .entry (num 1.7)),
  ("Delta_y_fact_Dn", .entry (num 0.85))]

/-- cubes_double_layer_vandermeer1988.py 8-14 -/
def cubes_double_layer_vandermeer1988 : List (String × TableItem) := [
  ("nv", .entry (num 0.47)),
  ("kt", .entry (num 1.10)),
  ("nlayers", .entry (num 2)),
  ("Delta_x_fact_Dn", .entry (num 1.7)),
  ("Delta_y_fact_Dn", .entry (num 0.85))]

/-- cubes_single_layer_vangent2002.py 7-10 -/
def cubes_single_layer_vangent2002 : List (String × TableItem) := [
  ("kt", .entry (num 1.0)),
  ("nlayers", .entry (num 1))]

/-- cubipod_hudson1959.py 7-16 -/
def cubipod : List (String × TableItem) := [
  ("KD", .dict [("trunk_double_layer", num 28), ("trunk_single_layer", num 12), ("head_double_layer", num 7),
    ("head_single_layer", num 5)]),
  ("kt", .entry (num 1.0)),
  ("nlayers", .entry (numbers [1, 2]))]

/-- tetrapod_hudson1959.py 7-17 -/
def tetrapod : List (String × TableItem) := [
  ("KD", .dict [("trunk_non_breaking", num 8.0), ("trunk_breaking", num 7.0), ("head_non_breaking", num 5.5),
    ("head_breaking", num 4.5)]),
  ("nv", .entry (num 0.5)),
  ("kt", .entry (num 1.02)),
  ("nlayers", .entry (num 2))]

/-- xbloc.py 7-14 -/
def xbloc : List (String × TableItem) := [
  ("KD", .dict [("trunk_breaking", num 16), ("head_breaking", num 13)]),
  ("kt", .entry (num 1.40)),
  ("nlayers", .entry (num 1))]

/-- xblocplus.py 7-13 -/
def xblocplus : List (String × TableItem) := [
  ("KD", .dict [("trunk_breaking", num 12)]),
  ("kt", .entry (num 1.33)),
  ("nlayers", .entry (num 1))]

end UnitTables
end
