import Verif.Py.Float

/-!
# Effects of the modelled functions: warnings and exceptions
-/

open Classical

noncomputable section

/-- The Python exceptions the modelled code can raise. -/
inductive PyErr where
  | valueError
  | typeError
  | indexError
  | keyError
  | attributeError
  | unboundLocal
deriving DecidableEq

/-- A warning: either the range warning of `core_utility.check_variable_validity_range`
(core_utility.py 44-49: variable, formula, value, bounds) or another text. -/
inductive Warn where
  | range (name formula : String) (value lo hi : PF)
  | text (msg : String)

/-- Result of running a Python function: the warnings issued (oldest first) and the returned value
or the exception raised. -/
structure PyM (α : Type) where
  warns : List Warn
  res : Except PyErr α

namespace PyM

/-- return a value, no warnings -/
def ret {α} (a : α) : PyM α := ⟨[], .ok a⟩
/-- raise an exception -/
def raise {α} (e : PyErr) : PyM α := ⟨[], .error e⟩
/-- `warnings.warn` -/
def warn (w : Warn) : PyM Unit := ⟨[w], .ok ()⟩
/-- sequencing: warnings accumulate, an exception stops the rest -/
def andThen {α β} (x : PyM α) (f : α → PyM β) : PyM β :=
  match x.res with
  | .ok a => ⟨x.warns ++ (f a).warns, (f a).res⟩
  | .error e => ⟨x.warns, .error e⟩

instance : Monad PyM where
  pure := ret
  bind := andThen

@[simp] theorem pure_def {α} (a : α) : (pure a : PyM α) = ⟨[], .ok a⟩ := rfl
@[simp] theorem ret_def {α} (a : α) : (ret a : PyM α) = ⟨[], .ok a⟩ := rfl
@[simp] theorem raise_def {α} (e : PyErr) : (raise e : PyM α) = ⟨[], .error e⟩ := rfl
@[simp] theorem warn_def (w : Warn) : warn w = ⟨[w], .ok ()⟩ := rfl
@[simp] theorem bind_ok {α β} (w : List Warn) (a : α) (f : α → PyM β) :
    ((⟨w, .ok a⟩ : PyM α) >>= f) = ⟨w ++ (f a).warns, (f a).res⟩ := rfl
@[simp] theorem bind_error {α β} (w : List Warn) (e : PyErr) (f : α → PyM β) :
    ((⟨w, .error e⟩ : PyM α) >>= f) = ⟨w, .error e⟩ := rfl
theorem bind_of_res_ok {α β} {x : PyM α} {a : α} (h : x.res = .ok a) (f : α → PyM β) :
    (x >>= f) = ⟨x.warns ++ (f a).warns, (f a).res⟩ := by
  cases x; simp only at h; subst h; rfl
theorem bind_res_of_ok {α β} {x : PyM α} {a : α} (h : x.res = .ok a) (f : α → PyM β) :
    (x >>= f).res = (f a).res := by rw [bind_of_res_ok h]
theorem bind_res_of_error {α β} {x : PyM α} {e} (h : x.res = .error e) (f : α → PyM β) :
    (x >>= f).res = .error e := by
  cases x; simp only at h; subst h; rfl
theorem bind_warns_of_ok {α β} {x : PyM α} {a : α} (h : x.res = .ok a) (f : α → PyM β) :
    (x >>= f).warns = x.warns ++ (f a).warns := by rw [bind_of_res_ok h]

/-- a computation that succeeded did so step by step, keeping all warnings -/
theorem bind_inv {α β} {x : PyM α} {f : α → PyM β} {b : β} (h : (x >>= f).res = .ok b) :
    ∃ a, x.res = .ok a ∧ (f a).res = .ok b ∧ (x >>= f).warns = x.warns ++ (f a).warns := by
  rcases x with ⟨w, e | a⟩
  · cases h
  · exact ⟨a, rfl, h, rfl⟩

theorem ext' {α} {x y : PyM α} (h1 : x.warns = y.warns) (h2 : x.res = y.res) : x = y := by
  cases x; cases y; simp_all

instance : LawfulMonad PyM := LawfulMonad.mk'
  (id_map := by intro α x; rcases x with ⟨w, a | a⟩ <;> simp [Functor.map, andThen, ret])
  (pure_bind := by intro α β a f; simp)
  (bind_assoc := by
    intro α β γ x f g
    rcases x with ⟨w, a | a⟩
    · simp
    · rcases h : f a with ⟨w2, b | b⟩ <;> simp [h])

end PyM
end
