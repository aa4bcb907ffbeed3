import Verif.Lemmas.Array

/-! # Operations on arguments that are numbers, and the shape of outcomes -/

open Classical
noncomputable section

namespace Val
variable {n : ℕ} (x y : PF)

@[num_simp] theorem num_ofNat (k : ℕ) : (no_index (OfNat.ofNat k : Val n)) = num (OfNat.ofNat k) := rfl
@[num_simp] theorem num_zero : (0 : Val n) = num 0 := rfl
@[num_simp] theorem num_one : (1 : Val n) = num 1 := rfl
@[num_simp] theorem num_sci (m : ℕ) (s : Bool) (e : ℕ) :
    (OfScientific.ofScientific m s e : Val n) = num (OfScientific.ofScientific m s e) := rfl
@[num_simp] theorem num_nan : (nan : Val n) = num PF.nan := rfl
@[num_simp] theorem num_pinf : (pinf : Val n) = num PF.pinf := rfl
@[num_simp] theorem num_pi : (pi : Val n) = num PF.pi := rfl
@[num_simp] theorem num_neg : -(num x : Val n) = num (-x) := rfl
@[num_simp] theorem num_add : (num x : Val n) + num y = num (x + y) := rfl
@[num_simp] theorem num_sub : (num x : Val n) - num y = num (x - y) := rfl
@[num_simp] theorem num_mul : (num x : Val n) * num y = num (x * y) := rfl
@[num_simp] theorem num_div : (num x : Val n) / num y = num (x / y) := rfl
@[num_simp] theorem num_npow : npow (num x : Val n) (num y) = num (PF.npow x y) := rfl
@[num_simp] theorem num_min : min (num x : Val n) (num y) = num (PF.min x y) := rfl
@[num_simp] theorem num_max : max (num x : Val n) (num y) = num (PF.max x y) := rfl
@[num_simp] theorem num_sqrt : sqrt (num x : Val n) = num (PF.sqrt x) := rfl
@[num_simp] theorem num_exp : exp (num x : Val n) = num (PF.exp x) := rfl
@[num_simp] theorem num_log : log (num x : Val n) = num (PF.log x) := rfl
@[num_simp] theorem num_cos : cos (num x : Val n) = num (PF.cos x) := rfl
@[num_simp] theorem num_sin : sin (num x : Val n) = num (PF.sin x) := rfl
@[num_simp] theorem num_abs : abs (num x : Val n) = num (PF.abs x) := rfl
@[num_simp] theorem num_deg2rad : deg2rad (num x : Val n) = num (PF.deg2rad x) := rfl
@[num_simp] theorem num_lt : ((num x : Val n) <. num y) = .num (x < y) := rfl
@[num_simp] theorem num_le : ((num x : Val n) ≤. num y) = .num (x ≤ y) := rfl
@[num_simp] theorem num_gt : ((num x : Val n) >. num y) = .num (x > y) := rfl
@[num_simp] theorem num_ge : ((num x : Val n) ≥. num y) = .num (x ≥ y) := rfl
@[num_simp] theorem num_eq : ((num x : Val n) ==. num y) = .num (PF.eqF x y) := rfl
@[num_simp] theorem num_isnan : (num x : Val n).isnan = .num x.isnan := rfl
@[num_simp] theorem num_whr (p : Prop) : whr (.num p) (num x : Val n) (num y) = num (PF.whr p x y) :=
  rfl
@[num_simp] theorem num_ite (p : Prop) : (if p then (num x : Val n) else num y) = num (if p then x else y) := by
  split <;> rfl

@[num_simp] theorem truth_and (p q : Prop) :
    PyM.and (BVal.num p : BVal n).truth (BVal.num q : BVal n).truth = (BVal.num (p ∧ q) : BVal n).truth := by
  by_cases hp : p <;> simp [PyM.and, BVal.truth, PyM.pure_def, PyM.bind_ok, hp]
@[num_simp] theorem truth_or (p q : Prop) :
    PyM.or (BVal.num p : BVal n).truth (BVal.num q : BVal n).truth = (BVal.num (p ∨ q) : BVal n).truth := by
  by_cases hp : p <;> simp [PyM.or, BVal.truth, PyM.pure_def, PyM.bind_ok, hp]
@[num_simp] theorem truth_not (p : Prop) :
    PyM.not (BVal.num p : BVal n).truth = (BVal.num (¬ p) : BVal n).truth := by
  simp [PyM.not, BVal.truth, PyM.pure_def, PyM.bind_ok]

@[num_simp] theorem cond_pure {α : Type} (p : Prop) (a b : α) :
    PyM.cond (BVal.num p : BVal n).truth (pure a) (pure b) = pure (if p then a else b) := by
  by_cases hp : p <;> simp [PyM.cond, BVal.truth, PyM.pure_def, PyM.bind_ok, hp]
@[num_simp] theorem pure_bind {α β : Type} (a : α) (g : α → PyM β) : (pure a >>= g) = g a := rfl

@[shape_simp] theorem shape_num : (num x : Val n).isArray = false := rfl
@[shape_simp] theorem shape_arr (v : Fin n → PF) : (arr v).isArray = true := rfl
@[shape_simp] theorem shape_lift1 (f) (a : Val n) : (lift1 f a).isArray = a.isArray := by cases a <;> rfl
@[shape_simp] theorem shape_lift2 (f) (a b : Val n) :
    (lift2 f a b).isArray = (a.isArray || b.isArray) := by cases a <;> cases b <;> rfl
@[shape_simp] theorem shape_ofNat (k : ℕ) : (no_index (OfNat.ofNat k : Val n)).isArray = false := rfl
@[shape_simp] theorem shape_zero : (0 : Val n).isArray = false := rfl
@[shape_simp] theorem shape_one : (1 : Val n).isArray = false := rfl
@[shape_simp] theorem shape_sci (m : ℕ) (s : Bool) (e : ℕ) :
    (OfScientific.ofScientific m s e : Val n).isArray = false := rfl
@[shape_simp] theorem shape_nan : (nan : Val n).isArray = false := rfl
@[shape_simp] theorem shape_pi : (pi : Val n).isArray = false := rfl
variable (a b : Val n)
@[shape_simp] theorem shape_neg : (-a).isArray = a.isArray := shape_lift1 ..
@[shape_simp] theorem shape_add : (a + b).isArray = (a.isArray || b.isArray) := shape_lift2 ..
@[shape_simp] theorem shape_sub : (a - b).isArray = (a.isArray || b.isArray) := shape_lift2 ..
@[shape_simp] theorem shape_mul : (a * b).isArray = (a.isArray || b.isArray) := shape_lift2 ..
@[shape_simp] theorem shape_div : (a / b).isArray = (a.isArray || b.isArray) := shape_lift2 ..
@[shape_simp] theorem shape_npow : (npow a b).isArray = (a.isArray || b.isArray) := shape_lift2 ..
@[shape_simp] theorem shape_min : (min a b).isArray = (a.isArray || b.isArray) := shape_lift2 ..
@[shape_simp] theorem shape_max : (max a b).isArray = (a.isArray || b.isArray) := shape_lift2 ..
@[shape_simp] theorem shape_sqrt : (sqrt a).isArray = a.isArray := shape_lift1 ..
@[shape_simp] theorem shape_exp : (exp a).isArray = a.isArray := shape_lift1 ..
@[shape_simp] theorem shape_log : (log a).isArray = a.isArray := shape_lift1 ..
@[shape_simp] theorem shape_cos : (cos a).isArray = a.isArray := shape_lift1 ..
@[shape_simp] theorem shape_abs : (abs a).isArray = a.isArray := shape_lift1 ..

/-- is the outcome of a comparison an array? -/
def _root_.BVal.isArray : BVal n → Bool
  | .num _ => false
  | .arr _ => true

@[shape_simp] theorem shape_lt : (a <. b).isArray = (a.isArray || b.isArray) := by
  cases a <;> cases b <;> rfl
@[shape_simp] theorem shape_le : (a ≤. b).isArray = (a.isArray || b.isArray) := by
  cases a <;> cases b <;> rfl
@[shape_simp] theorem shape_gt : (a >. b).isArray = (a.isArray || b.isArray) := by
  cases a <;> cases b <;> rfl
@[shape_simp] theorem shape_ge : (a ≥. b).isArray = (a.isArray || b.isArray) := by
  cases a <;> cases b <;> rfl
@[shape_simp] theorem shape_and (p q : BVal n) : (p &. q).isArray = (p.isArray || q.isArray) := by
  cases p <;> cases q <;> rfl
@[shape_simp] theorem shape_or (p q : BVal n) : (p |. q).isArray = (p.isArray || q.isArray) := by
  cases p <;> cases q <;> rfl
@[shape_simp] theorem shape_whr (p : BVal n) :
    (whr p a b).isArray = (p.isArray || a.isArray || b.isArray) := by
  cases p <;> cases a <;> cases b <;> rfl
@[shape_simp] theorem shape_ite (p : Prop) :
    (if p then a else b).isArray = if p then a.isArray else b.isArray := by split <;> rfl

/-- `np.min([x, y], axis=0)` of two numbers or two arrays -/
theorem stackMin_of_shape {a b : Val n} (h : a.isArray = b.isArray) : stackMin a b = pure (min a b) := by
  cases a <;> cases b <;> first | rfl | simp [isArray] at h

/-- `np.max([x, y], axis=0)` of two numbers or two arrays -/
theorem stackMax_of_shape {a b : Val n} (h : a.isArray = b.isArray) : stackMax a b = pure (max a b) := by
  cases a <;> cases b <;> first | rfl | simp [isArray] at h

end Val

namespace Arrays
variable {n : ℕ} {α β γ δ : Type} {U : Prop}

theorem Rel.cond_num_pure [Cases n α β] {p : Prop} {q : Fin n → Prop} {x y : PyM α}
    {dq : ∀ i, Decidable (q i)}
    {f g : Fin n → β} (hpq : ∀ i, p ↔ q i) (hx : p → Rel U x (fun i => Pure.pure (f i)))
    (hy : ¬ p → Rel U y (fun i => Pure.pure (g i))) :
    Rel U (PyM.cond (BVal.num p : BVal n).truth x y)
      (fun i => Pure.pure (@_root_.ite _ (q i) (dq i) (f i) (g i))) := by
  refine (Rel.cond_num (dq := dq) hpq hx hy).congr fun i => ?_
  split <;> rfl

theorem Rel.ite_pure [Cases n α β] {p : Prop} {q : Fin n → Prop} {x y : PyM α}
    {dp : Decidable p} {dq : ∀ i, Decidable (q i)}
    {f g : Fin n → β} (hpq : ∀ i, p ↔ q i) (hx : p → Rel U x (fun i => Pure.pure (f i)))
    (hy : ¬ p → Rel U y (fun i => Pure.pure (g i))) :
    Rel U (@_root_.ite _ p dp x y)
      (fun i => Pure.pure (@_root_.ite _ (q i) (dq i) (f i) (g i))) := by
  refine (Rel.ite (dp := dp) (dq := dq) hpq hx hy).congr fun i => ?_
  split <;> rfl

/-- a step that the calls for single cases make without `bind` -/
theorem Rel.bind_pure [NeZero n] [Cases n α β] [Cases n γ δ] {x : PyM α} {f : Fin n → β}
    {g : α → PyM γ} {k : Fin n → β → PyM δ} (h : Rel U x (fun i => Pure.pure (f i)))
    (hg : ∀ v, Rel U (g v) (fun i => k i (Cases.case v i))) :
    Rel U (x >>= g) (fun i => k i (f i)) := by
  refine (h.bind hg).congr fun i => ?_
  simp [PyM.pure_def, PyM.bind_ok]

theorem Rel.stackMin_bind [Cases n γ δ] {a b : Val n} {g : Val n → PyM γ}
    {one : Fin n → PyM δ} (hs : a.isArray = b.isArray) (h : Rel U (g (Val.min a b)) one) :
    Rel U (Val.stackMin a b >>= g) one := by
  rw [Val.stackMin_of_shape hs]
  simpa [PyM.pure_def, PyM.bind_ok] using h

theorem Rel.stackMax_bind [Cases n γ δ] {a b : Val n} {g : Val n → PyM γ}
    {one : Fin n → PyM δ} (hs : a.isArray = b.isArray) (h : Rel U (g (Val.max a b)) one) :
    Rel U (Val.stackMax a b >>= g) one := by
  rw [Val.stackMax_of_shape hs]
  simpa [PyM.pure_def, PyM.bind_ok] using h

end Arrays
end
