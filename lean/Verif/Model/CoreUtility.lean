import Verif.Py.Monad

/-! # Model of `functions/core_utility.py` -/

open Classical
noncomputable section
namespace CoreUtility

/-- core_utility.py 41-54: the loop `for value in values` of `check_variable_validity_range`, after
lines 35-39 have turned a scalar or array into a list of values.  (A NumPy scalar such as
`np.float64` passes the `isinstance(values, (int, float))` test of line 38 because `np.float64`
subclasses `float`.) -/
def check_list (variable_name formula_name : String) (min_value max_value : PF) :
    List PF → PyM (List Bool)
  | [] => pure []
  | value :: rest =>
    if value < min_value ∨ value > max_value then do
      PyM.warn (.range variable_name formula_name value min_value max_value)
      let is_valid ← check_list variable_name formula_name min_value max_value rest
      pure (false :: is_valid)
    else do
      let is_valid ← check_list variable_name formula_name min_value max_value rest
      pure (true :: is_valid)

/-- core_utility.py 7-54: `check_variable_validity_range` on an array/list of values. -/
def check_variable_validity_range_list (variable_name formula_name : String) (values : List PF)
    (min_value max_value : PF) : PyM (List Bool) :=
  check_list variable_name formula_name min_value max_value values

/-- core_utility.py 7-54 for a scalar (lines 38-39 wrap it in a one-element list). -/
def check_variable_validity_range (variable_name formula_name : String) (value : PF)
    (min_value max_value : PF) : PyM (List Bool) :=
  check_variable_validity_range_list variable_name formula_name [value] min_value max_value

/-- The idiom `if not np.any(np.isnan(a)) and not np.any(np.isnan(b)) …: check_variable_validity_range(…)`
used by every `check_validity_range` of the package: `given` lists the arguments tested for NaN; the
verdict returned by the check is discarded. -/
def check_if_given (given : List PF) (variable_name formula_name : String) (value : PF)
    (min_value max_value : PF) : PyM Unit :=
  if ∀ x ∈ given, ¬ x.isnan then do
    let _ ← check_variable_validity_range variable_name formula_name value min_value max_value
    pure ()
  else pure ()

end CoreUtility
end
